import Verif.Lemmas.RoundedRender
import Verif.Props.DepthCamera
import Verif.Props.Rounded

/-!
# Property theorems C118: the rasteriser in floating point arithmetic
-/

namespace Geo

open Spec
open Raster (Sink)

/-- A triangle with a place in the image and corners beyond the first column and row is not left out. -/
theorem Rounded.inWindow_of {width height : ℕ} {p1 p2 p3 : Vec3} (hx : 1 ≤ p1.x ∨ 1 ≤ p2.x ∨ 1 ≤ p3.x)
    (hy : 1 ≤ p1.y ∨ 1 ≤ p2.y ∨ 1 ≤ p3.y) {x y : ℤ} (hi : InImage width height x y) {u d : ℝ} (hu : trunc u = x)
    (hs : InSnapped p1 p2 p3 u y d) : InWindow width height p1 p2 p3 := by
  have t1 : ∀ {u : ℝ}, 1 ≤ u → 0 < trunc u := fun {u} h => by
    have := trunc_mono h
    rw [show (1 : ℝ) = ((1 : ℤ) : ℝ) by norm_num, trunc_int] at this
    omega
  obtain ⟨i1, i2, i3, i4⟩ := hi
  obtain ⟨a, b, c, ha, hb, hc', w1, w2, w3, -⟩ := hs
  obtain rfl : a = 1 - b - c := by linarith
  refine ⟨?_, ?_, ?_, ?_⟩
  · by_contra hcon
    have hcon := not_lt.1 hcon
    have l : ∀ v : ℝ, (width : ℤ) ≤ trunc v → (width : ℝ) ≤ v := by
      intro v hv
      rcases le_or_gt 0 v with h | h
      · rw [trunc_eq_floor h] at hv
        exact_mod_cast Int.le_floor.1 hv
      · have := trunc_mono h.le
        rw [show (0 : ℝ) = ((0 : ℤ) : ℝ) by norm_num, trunc_int] at this
        omega
    have l1 := l p1.x (by omega)
    have l2 := l p2.x (by omega)
    have l3 := l p3.x (by omega)
    have q1 := mul_le_mul_of_nonneg_left l1 ha
    have q2 := mul_le_mul_of_nonneg_left l2 hb
    have q3 := mul_le_mul_of_nonneg_left l3 hc'
    have : (((width : ℤ)) : ℝ) ≤ u := by push_cast; linarith
    have := trunc_mono this
    rw [trunc_int] at this
    omega
  · rcases hx with h | h | h <;> have := t1 h <;> omega
  · by_contra hcon
    have hcon := not_lt.1 hcon
    have l1 : ((height : ℤ) : ℝ) ≤ trunc p1.y := by exact_mod_cast (by omega : (height : ℤ) ≤ trunc p1.y)
    have l2 : ((height : ℤ) : ℝ) ≤ trunc p2.y := by exact_mod_cast (by omega : (height : ℤ) ≤ trunc p2.y)
    have l3 : ((height : ℤ) : ℝ) ≤ trunc p3.y := by exact_mod_cast (by omega : (height : ℤ) ≤ trunc p3.y)
    have q1 := mul_le_mul_of_nonneg_left l1 ha
    have q2 := mul_le_mul_of_nonneg_left l2 hb
    have q3 := mul_le_mul_of_nonneg_left l3 hc'
    have : ((height : ℤ) : ℝ) ≤ y := by linarith
    have : (height : ℤ) ≤ y := by exact_mod_cast this
    omega
  · rcases hy with h | h | h <;> have := t1 h <;> omega

/-- C118: drawing a triangle in single precision, on an image of at most `2^22` rows, has no undefined behaviour, and every pixel is in
the image, carries the triangle's index and belongs to a place of the triangle, the rows of its corners cut off, shifted along the row
by at most `e`. And every pixel of the image is drawn that some place of the triangle belongs to with all places within `e` of it in the
row, if the triangle is clearly not culled and has corners beyond the first column and the first row. -/
theorem C118_triangle (width height : ℕ) (hh : height ≤ 2 ^ 22) (culling : Bool) {p1 p2 p3 : Vec3} (tri : ℕ) {M : ℝ}
    (hM : M < 2 ^ 30) (hp : ∀ p ∈ [p1, p2, p3], |p.x| ≤ M ∧ |p.y| < 2 ^ 30) :
    let e := (2 * height + 60) * M / 2 ^ 24
    ∃ cs, Rounded.triangle2D toFloat width height culling p1 p2 p3 tri = .ok cs ∧
      (∀ c ∈ cs, InImage width height c.x c.y ∧ c.tri = tri ∧ Touched e p1 p2 p3 c.x c.y) ∧
      ((culling = true → (p2.x - p1.x) * (p3.y - p1.y) - (p3.x - p1.x) * (p2.y - p1.y) <
          -((|(p2.x - p1.x) * (p3.y - p1.y)| + |(p3.x - p1.x) * (p2.y - p1.y)|) / 2 ^ 22)) →
        (1 ≤ p1.x ∨ 1 ≤ p2.x ∨ 1 ≤ p3.x) → (1 ≤ p1.y ∨ 1 ≤ p2.y ∨ 1 ≤ p3.y) →
        ∀ x y : ℤ, InImage width height x y → Covered e p1 p2 p3 x y → ∃ c ∈ cs, c.x = x ∧ c.y = y) := by
  have q1 := hp p1 (by simp)
  have q2 := hp p2 (by simp)
  have q3 := hp p3 (by simp)
  have hh' : (height : ℝ) ≤ 4194304 := by exact_mod_cast hh
  obtain ⟨cs, e1, e2, e3⟩ := Rounded.triangle2D_ok C93_roundings.2 (by norm_num) (by norm_num) width (height := height)
    (by linarith) culling tri ⟨q1.1.trans_lt hM, q1.2⟩ ⟨q2.1.trans_lt hM, q2.2⟩ ⟨q3.1.trans_lt hM, q3.2⟩ hM
    q1.1 q2.1 q3.1
  intro e
  have he : (2 * height + 60) * (1 / 2 ^ 24) * M = e := by show _ = (2 * height + 60) * M / 2 ^ 24; ring
  have e0 : 0 ≤ e := by
    have : 0 ≤ M := (abs_nonneg _).trans q1.1
    positivity
  rw [he] at e3
  refine ⟨cs, e1, fun c hc => ?_, fun hcull hx hy x y hi hcov => ?_⟩
  · by_cases hw : (culling = true ∧ Rounded.culls toFloat p1 p2 p3) ∨ ¬ InWindow width height p1 p2 p3
    · rw [e2 hw] at hc
      simp at hc
    · rw [not_or, not_not] at hw
      exact (e3 hw.1 hw.2).1 c hc
  · have hn : ¬ (culling = true ∧ Rounded.culls toFloat p1 p2 p3) := by
      rintro ⟨hc, hc'⟩
      have hcull := hcull hc
      set D := (p2.x - p1.x) * (p3.y - p1.y) - (p3.x - p1.x) * (p2.y - p1.y) with hD
      have s0 : 0 ≤ (|(p2.x - p1.x) * (p3.y - p1.y)| + |(p3.x - p1.x) * (p2.y - p1.y)|) / 2 ^ 22 := by positivity
      rw [Rounded.culls_iff C93_roundings.2 (by norm_num) (by norm_num)
        (by rw [← hD, abs_of_neg (by linarith : D < 0)]; linarith)] at hc'
      exact hc' (by linarith)
    obtain ⟨u, d, h1, h2⟩ := hcov
    exact (e3 hn (Rounded.inWindow_of hx hy hi (h2 u (by simpa using e0)) h1)).2 x y hi ⟨u, d, h1, h2⟩

/-- A triangle on an image of 640 by 480 pixels: the error is a sixteenth of a pixel. -/
example : ∃ cs, Rounded.triangle2D toFloat 640 480 true ⟨100, 50, 1⟩ ⟨200, 400, 1 / 2⟩ ⟨1000, -70, 1 / 3⟩ 5 = .ok cs ∧
    (∀ c ∈ cs, InImage 640 480 c.x c.y ∧ c.tri = 5 ∧
      Touched (1 / 16) ⟨100, 50, 1⟩ ⟨200, 400, 1 / 2⟩ ⟨1000, -70, 1 / 3⟩ c.x c.y) := by
  obtain ⟨cs, h1, h2, -⟩ := C118_triangle 640 480 (by norm_num) true (p1 := ⟨100, 50, 1⟩) (p2 := ⟨200, 400, 1 / 2⟩)
    (p3 := ⟨1000, -70, 1 / 3⟩) 5 (M := 1000) (by norm_num) (by
      intro p hp
      simp only [List.mem_cons, List.not_mem_nil, or_false] at hp
      rcases hp with rfl | rfl | rfl <;> constructor <;> norm_num [abs_le, abs_lt])
  refine ⟨cs, h1, fun c hc => ⟨(h2 c hc).1, (h2 c hc).2.1, ?_⟩⟩
  obtain ⟨u, d, v, a, b, f⟩ := (h2 c hc).2.2
  exact ⟨u, d, v, a, b.trans (by norm_num), f⟩

/-- The pixel in column 20 and row 5 of this triangle is drawn. -/
example : ∃ cs, Rounded.triangle2D toFloat 640 480 true ⟨10, 0, 1⟩ ⟨10, 20, 1⟩ ⟨50, 0, 1⟩ 5 = .ok cs ∧
    ∃ c ∈ cs, c.x = 20 ∧ c.y = 5 := by
  obtain ⟨cs, h1, -, h3⟩ := C118_triangle 640 480 (by norm_num) true (p1 := ⟨10, 0, 1⟩) (p2 := ⟨10, 20, 1⟩)
    (p3 := ⟨50, 0, 1⟩) 5 (M := 50) (by norm_num) (by
      intro p hp
      simp only [List.mem_cons, List.not_mem_nil, or_false] at hp
      rcases hp with rfl | rfl | rfl <;> constructor <;> norm_num [abs_le, abs_lt])
  refine ⟨cs, h1, h3 (by norm_num) (by norm_num) (by norm_num) 20 5 (by unfold InImage; norm_num) ?_⟩
  have t0 : trunc (0 : ℝ) = 0 := by simpa using trunc_int 0
  have t20 : trunc (20 : ℝ) = 20 := by simpa using trunc_int 20
  refine ⟨41 / 2, 1, ⟨1 - 1 / 4 - 21 / 80, 1 / 4, 21 / 80, by norm_num, by norm_num, by norm_num, by norm_num, by norm_num, ?_,
    by norm_num⟩, fun v hv => ?_⟩
  · rw [t0, t20]
    norm_num
  · obtain ⟨a, b⟩ := abs_le.1 hv
    norm_num at a b
    rw [trunc_eq_floor (by linarith), Int.floor_eq_iff]
    norm_num
    constructor <;> linarith

/-- C118: the culling test in single precision is that of real numbers for all triangles that are not nearly seen from the side. -/
theorem C118_culling {p1 p2 p3 : Vec3}
    (hc : (|(p2.x - p1.x) * (p3.y - p1.y)| + |(p3.x - p1.x) * (p2.y - p1.y)|) / 2 ^ 22 <
      |(p2.x - p1.x) * (p3.y - p1.y) - (p3.x - p1.x) * (p2.y - p1.y)|) :
    Rounded.culls toFloat p1 p2 p3 ↔ 0 ≤ (p2.x - p1.x) * (p3.y - p1.y) - (p3.x - p1.x) * (p2.y - p1.y) := by
  rw [Rounded.culls_iff C93_roundings.2 (by norm_num) (by norm_num) (by linarith)]
  exact not_lt

example : Rounded.culls toFloat ⟨0, 0, 1⟩ ⟨3, 1 / 3, 1⟩ ⟨1 / 7, 5, 1⟩ :=
  (C118_culling (by norm_num)).2 (by norm_num)

/-- C118: rendering a mesh in floating point arithmetic, single precision for the image and double precision in space, never fails
if the points are near the axis of the camera; an invariant of the receiver is kept. -/
theorem C118_mesh {σ : Type} (k : Sink σ) (c : Camera) (width height : ℕ) (hh : height ≤ 2 ^ 22) (culling : Bool) {K : ℝ}
    (hc : Modest c K) {m : Mesh} {T : Transform3} (hv : Valid m.points m.tris)
    (hn : ∀ p ∈ m.points, |(Rounded.apply toDouble T p).x| ≤ K ∧ |(Rounded.apply toDouble T p).y| ≤ K) (I : σ → Prop)
    (hI : ∀ s p, I s → InImage width height p.x p.y → ∃ s', k.pixel s p = .ok s' ∧ I s') (s : σ) (hs : I s) :
    ∃ s', Rounded.render toFloat toDouble k c width height m T culling s = .ok s' ∧ I s' := by
  have hh' : (height : ℝ) ≤ 4194304 := by exact_mod_cast hh
  exact Rounded.render_ok C93_roundings.2 (by norm_num) (by norm_num) C93_roundings.1 (by norm_num) k c width
    (by linarith) culling hc hv hn I hI s hs

/-- One triangle before, beside and behind the camera, rendered into an image of 640 by 480 pixels. -/
example : ∃ r, Rounded.render toFloat toDouble DefaultResult.sink ⟨500, 500, 320, 240, 0, 0, 640, 480⟩ 640 480
    ⟨[⟨1, 0, -2⟩, ⟨-3, 2, -1⟩, ⟨0, 1, 4⟩], [⟨0, 1, 2⟩], [], 0, 0⟩ ⟨Mat3.identity, ⟨0, 0, 0⟩⟩ true (blank 640 480) = .ok r := by
  obtain ⟨r, h, -⟩ := C118_mesh DefaultResult.sink ⟨500, 500, 320, 240, 0, 0, 640, 480⟩ 640 480 (by norm_num) true (K := 4)
    (m := ⟨[⟨1, 0, -2⟩, ⟨-3, 2, -1⟩, ⟨0, 1, 4⟩], [⟨0, 1, 2⟩], [], 0, 0⟩) (T := ⟨Mat3.identity, ⟨0, 0, 0⟩⟩)
    (by unfold Modest; norm_num) (by intro t ht; rw [List.mem_singleton] at ht; subst ht; decide)
    (by
      intro p hp
      simp only [List.mem_cons, List.not_mem_nil, or_false] at hp
      have z : toDouble 0 = 0 := by
        have := toDouble_near 0
        simpa using this
      have b : ∀ {x X : ℝ}, |x| ≤ X → |toDouble x| ≤ 1.001 * X := fun {x X} hx =>
        Rounded.rnd_le C93_roundings.1 (by norm_num) hx
      have d : ∀ {x : ℝ}, |x| ≤ 3 → |toDouble (toDouble (toDouble (toDouble x)))| ≤ 4 := fun {x} hx =>
        (b (b (b (b hx)))).trans (by norm_num)
      rcases hp with rfl | rfl | rfl <;>
        simp only [Rounded.apply, Rounded.add, Rounded.mulVec, Rounded.dot3, Mat3.identity, one_mul, zero_mul, z, add_zero,
          zero_add] <;> constructor <;> first | exact d (by norm_num [abs_le]) | norm_num)
    (fun r => DefaultResult.Same (blank 640 480) r) (fun s p hs hi => by
      obtain ⟨s', e1, e2, -⟩ := DefaultResult.pixel_ok (r := s) (c := p) (by rw [hs.cols, hs.rows]; exact hi)
        (hs.fit (blank_fit 640 480))
      exact ⟨s', e1, hs.trans e2⟩) _ (.refl _)
  exact ⟨r, h⟩

/-- C118: without rounding the rasteriser is that of `Model/DepthCamera`. -/
theorem C118_exact :
    (∀ width height culling p1 p2 p3 tri, Rounded.triangle2D id width height culling p1 p2 p3 tri =
      Raster.triangle2D width height culling p1 p2 p3 tri) ∧
    ∀ {σ : Type} (k : Sink σ) c width height m T culling s, Rounded.render id id k c width height m T culling s =
      Raster.render k c width height m T culling s :=
  ⟨Rounded.triangle2D_id, fun k => Rounded.render_id k⟩

end Geo
