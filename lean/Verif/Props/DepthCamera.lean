import Verif.Lemmas.DepthCameraRender
import Verif.Lemmas.LaserRangeFinderMesh
import Mathlib.Tactic.FinCases

/-!
# Properties of the depth camera: projection, image, triangles (C60–C62, C65, C68, C80)
-/

namespace Geo

open Spec Raster

/-! ## C60 -/

/-- C60: projecting the point of a pixel gives the pixel. -/
theorem C60_pixel (c : Camera) (hx : c.fx ≠ 0) (hy : c.fy ≠ 0) (x y : ℤ) :
    c.project3Dto2D (c.project2Dto3D x y) = ⟨x, y⟩ := by
  simp only [Camera.project3Dto2D, Camera.project2Dto3D, Camera.project2Dto3DX, Camera.project2Dto3DY]
  congr 1
  · field_simp
    ring
  · field_simp
    ring

example : (⟨500, 500, 320, 240, 3, 4, 640, 480⟩ : Camera).project3Dto2D
    ((⟨500, 500, 320, 240, 3, 4, 640, 480⟩ : Camera).project2Dto3D 17 300) = ⟨17, 300⟩ :=
  C60_pixel _ (by norm_num) (by norm_num) _ _

/-- C60: without `Tx`, `Ty` this holds at every depth. -/
theorem C60_depth (c : Camera) (hx : c.fx ≠ 0) (hy : c.fy ≠ 0) (hTx : c.Tx = 0) (hTy : c.Ty = 0) (x y : ℤ) {d : ℝ}
    (hd : 0 < d) : c.project3Dto2D (c.project2Dto3D x y * d) = ⟨x, y⟩ := by
  have hd' : d ≠ 0 := hd.ne'
  show (⟨(c.fx * (c.project2Dto3DX x * d) + c.Tx) / -(-1 * d) + c.cx,
    (c.fy * -(c.project2Dto3DY y * d) + c.Ty) / -(-1 * d) + c.cy⟩ : Vec2) = _
  simp only [Camera.project2Dto3DX, Camera.project2Dto3DY, hTx, hTy]
  congr 1
  · field_simp
    ring
  · field_simp
    ring

example : (⟨500, 500, 320, 240, 0, 0, 640, 480⟩ : Camera).project3Dto2D
    ((⟨500, 500, 320, 240, 0, 0, 640, 480⟩ : Camera).project2Dto3D 17 300 * (7 / 2 : ℝ)) = ⟨17, 300⟩ :=
  C60_depth _ (by norm_num) (by norm_num) rfl rfl _ _ (by norm_num)

/-- C60 with an offset `Tx`: only at depth 1, as the offset is divided by the depth on the way to the image but not on the
way back. -/
theorem C60_offset (c : Camera) (hx : c.fx ≠ 0) (hTx : c.Tx ≠ 0) (x y : ℤ) {d : ℝ} (hd : 0 < d) :
    (c.project3Dto2D (c.project2Dto3D x y * d)).x = x ↔ d = 1 := by
  have hd' : d ≠ 0 := hd.ne'
  show (c.fx * (c.project2Dto3DX x * d) + c.Tx) / -(-1 * d) + c.cx = x ↔ d = 1
  have : (c.fx * (c.project2Dto3DX x * d) + c.Tx) / -(-1 * d) + c.cx = x - c.Tx + c.Tx / d := by
    simp only [Camera.project2Dto3DX]
    field_simp
    ring
  rw [this]
  constructor
  · intro h
    have h1 : c.Tx * (1 - d) = 0 := by
      field_simp at h
      linarith
    have := (mul_eq_zero.1 h1).resolve_left hTx
    linarith
  · rintro rfl
    ring

example : ((⟨500, 500, 320, 240, 3, 0, 640, 480⟩ : Camera).project3Dto2D
    ((⟨500, 500, 320, 240, 3, 0, 640, 480⟩ : Camera).project2Dto3D 17 300 * (2 : ℝ))).x ≠ ((17 : ℤ) : ℝ) := fun h => by
  have := (C60_offset (⟨500, 500, 320, 240, 3, 0, 640, 480⟩ : Camera) (by norm_num) (by norm_num) 17 300
    (d := 2) (by norm_num)).1 h
  norm_num at this

/-- C60: a point in front of the camera that is seen in a pixel is the point of that pixel times its depth. -/
theorem C60_back (c : Camera) (hx : c.fx ≠ 0) (hy : c.fy ≠ 0) (hTx : c.Tx = 0) (hTy : c.Ty = 0) (p : Vec3) (hz : p.z < 0)
    {x y : ℤ} (hp : c.project3Dto2D p = ⟨x, y⟩) : c.project2Dto3D x y * -p.z = p := by
  have hz' : p.z ≠ 0 := hz.ne
  simp only [Camera.project3Dto2D, Vec2.mk.injEq, hTx, hTy, add_zero] at hp
  obtain ⟨h1, h2⟩ := hp
  show (⟨c.project2Dto3DX x * -p.z, c.project2Dto3DY y * -p.z, -1 * -p.z⟩ : Vec3) = p
  simp only [Camera.project2Dto3DX, Camera.project2Dto3DY, hTx, hTy, ← h1, ← h2]
  ext
  · field_simp
    ring
  · field_simp
    ring
  · ring

example : (⟨500, 500, 320, 240, 0, 0, 640, 480⟩ : Camera).project2Dto3D 570 140 * -(-2 : ℝ) = (⟨1, 2 / 5, -2⟩ : Vec3) :=
  C60_back (⟨500, 500, 320, 240, 0, 0, 640, 480⟩ : Camera) (by norm_num) (by norm_num) rfl rfl ⟨1, 2 / 5, -2⟩ (by norm_num)
    (by simp only [Camera.project3Dto2D]; norm_num)

/-! ## C61 -/

/-- C61: after calls inside the image with positive depths, a pixel holds what it held before if that was something and
nothing nearer was rendered; otherwise the smallest depth rendered to it, with the first triangle that has this depth. -/
theorem C61_nearest {r : DefaultResult} (hf : r.Fit) (cs : List PixelCall)
    (hin : ∀ c ∈ cs, InImage r.image.cols r.image.rows c.x c.y) (hpos : ∀ c ∈ cs, ∃ d, 0 < d ∧ c.depth = .fin d)
    (x y : ℕ) {old : ℝ} (ho : r.image.at' y x = .fin old) (h0 : 0 ≤ old) :
    ∃ r', DefaultResult.sink.pixels cs r = .ok r' ∧
      ((r'.image.at' y x = .fin old ∧ entry r'.triangleMap x y = entry r.triangleMap x y ∧
          entry r'.pointerMap x y = entry r.pointerMap x y ∧
          ∀ c ∈ cs, At x y c → 0 < old ∧ ∃ d, c.depth = .fin d ∧ old ≤ d) ∨
        ∃ pre c post v, cs = pre ++ c :: post ∧ At x y c ∧ c.depth = .fin v ∧ (old = 0 ∨ v < old) ∧
          (∀ e ∈ pre, At x y e → ∃ d, e.depth = .fin d ∧ v < d) ∧
          (∀ e ∈ post, At x y e → ∃ d, e.depth = .fin d ∧ v ≤ d) ∧
          r'.image.at' y x = .fin v ∧ entry r'.triangleMap x y = some (toInt32 c.tri) ∧
          entry r'.pointerMap x y = if r.pointer ≠ 0 then some r.pointer else entry r.pointerMap x y) :=
  buffer_spec hf x y cs old hin (fun c hc _ => hpos c hc) ho h0

/-- An empty image with fitting maps. Used in the cases below. (Device of the proofs.) -/
noncomputable def blank (w h : ℕ) : DefaultResult := .new ⟨w, h, fun _ _ => .fin 0⟩ 7 [] []

/-- The maps of the cases fit. -/
theorem blank_fit (w h : ℕ) : (blank w h).Fit := DefaultResult.new_fit (by simp) (by simp)

example : ∃ r', DefaultResult.sink.pixels [⟨1, 0, .fin 3, 4⟩, ⟨0, 0, .fin 1, 4⟩, ⟨1, 0, .fin 2, 5⟩, ⟨1, 0, .fin 2, 6⟩]
    (blank 2 2) = .ok r' ∧ (∃ v, r'.image.at' 0 1 = .fin v ∧ v ≤ 2) := by
  obtain ⟨r', h1, h2⟩ := C61_nearest (blank_fit 2 2)
    [⟨1, 0, .fin 3, 4⟩, ⟨0, 0, .fin 1, 4⟩, ⟨1, 0, .fin 2, 5⟩, ⟨1, 0, .fin 2, 6⟩]
    (by
      intro c hc
      simp only [List.mem_cons, List.not_mem_nil, or_false] at hc
      rcases hc with rfl | rfl | rfl | rfl <;> (unfold InImage blank DefaultResult.new; norm_num))
    (by
      intro c hc
      simp only [List.mem_cons, List.not_mem_nil, or_false] at hc
      rcases hc with rfl | rfl | rfl | rfl
      exacts [⟨3, by norm_num, rfl⟩, ⟨1, by norm_num, rfl⟩, ⟨2, by norm_num, rfl⟩, ⟨2, by norm_num, rfl⟩])
    1 0 (old := 0) rfl le_rfl
  refine ⟨r', h1, ?_⟩
  rcases h2 with ⟨-, -, -, h⟩ | ⟨pre, c, post, v, e, a, d, -, p1, p2, hv, -⟩
  · exact absurd (h ⟨1, 0, .fin 3, 4⟩ (by simp) ⟨rfl, rfl⟩).1 (lt_irrefl _)
  · refine ⟨v, hv, ?_⟩
    have hm : (⟨1, 0, .fin 2, 5⟩ : PixelCall) ∈ pre ++ c :: post := by rw [← e]; simp
    rcases List.mem_append.1 hm with hm | hm
    · obtain ⟨d', e', h'⟩ := p1 _ hm ⟨rfl, rfl⟩
      cases e'
      exact h'.le
    · rcases List.mem_cons.1 hm with rfl | hm
      · cases d
        exact le_rfl
      · obtain ⟨d', e', h'⟩ := p2 _ hm ⟨rfl, rfl⟩
        cases e'
        exact h'

/-- C61: the depth image does not depend on the order of the calls. -/
theorem C61_order {r : DefaultResult} (hf : r.Fit) {cs cs' : List PixelCall} (hperm : cs.Perm cs')
    (hin : ∀ c ∈ cs, InImage r.image.cols r.image.rows c.x c.y) (hpos : ∀ c ∈ cs, ∃ d, 0 < d ∧ c.depth = .fin d)
    (x y : ℕ) {old : ℝ} (ho : r.image.at' y x = .fin old) (h0 : 0 ≤ old) :
    ∃ r1 r2, DefaultResult.sink.pixels cs r = .ok r1 ∧ DefaultResult.sink.pixels cs' r = .ok r2 ∧
      r1.image.at' y x = r2.image.at' y x := by
  obtain ⟨r1, e1, h1⟩ := C61_nearest hf cs hin hpos x y ho h0
  obtain ⟨r2, e2, h2⟩ := C61_nearest hf cs' (fun c hc => hin c (hperm.mem_iff.2 hc)) (fun c hc => hpos c (hperm.mem_iff.2 hc))
    x y ho h0
  refine ⟨r1, r2, e1, e2, ?_⟩
  have key : ∀ {l : List PixelCall} {pre c post v}, l = pre ++ c :: post → c.depth = .fin v →
      (∀ e ∈ pre, At x y e → ∃ d, e.depth = .fin d ∧ v < d) → (∀ e ∈ post, At x y e → ∃ d, e.depth = .fin d ∧ v ≤ d) →
      ∀ e ∈ l, At x y e → ∃ d, e.depth = .fin d ∧ v ≤ d := by
    intro l pre c post v hl hc hp hq e he hae
    subst hl
    rcases List.mem_append.1 he with he | he
    · obtain ⟨d, g1, g2⟩ := hp e he hae
      exact ⟨d, g1, g2.le⟩
    · rcases List.mem_cons.1 he with rfl | he
      · exact ⟨v, hc, le_rfl⟩
      · exact hq e he hae
  rcases h1 with ⟨a1, -, -, a4⟩ | ⟨pre, c, post, v, b1, b2, b3, b4, b5, b6, b7, -⟩ <;>
    rcases h2 with ⟨a1', -, -, a4'⟩ | ⟨pre', c', post', v', b1', b2', b3', b4', b5', b6', b7', -⟩
  · rw [a1, a1']
  · have hm : c' ∈ cs := hperm.mem_iff.2 (by rw [b1']; simp)
    obtain ⟨hp, d, g1, g2⟩ := a4 c' hm b2'
    rw [b3'] at g1
    cases g1
    rcases b4' with h | h
    · exact absurd h hp.ne'
    · exact absurd h (not_lt.2 g2)
  · have hm : c ∈ cs' := hperm.mem_iff.1 (by rw [b1]; simp)
    obtain ⟨hp, d, g1, g2⟩ := a4' c hm b2
    rw [b3] at g1
    cases g1
    rcases b4 with h | h
    · exact absurd h hp.ne'
    · exact absurd h (not_lt.2 g2)
  · have hm : c' ∈ cs := hperm.mem_iff.2 (by rw [b1']; simp)
    have hm' : c ∈ cs' := hperm.mem_iff.1 (by rw [b1]; simp)
    obtain ⟨d, g1, g2⟩ := key b1 b3 b5 b6 c' hm b2'
    obtain ⟨d', g1', g2'⟩ := key b1' b3' b5' b6' c hm' b2
    rw [b3'] at g1
    rw [b3] at g1'
    cases g1
    cases g1'
    rw [b7, b7', le_antisymm g2 g2']

example : ∃ r1 r2, DefaultResult.sink.pixels [⟨1, 0, .fin 3, 4⟩, ⟨1, 0, .fin 2, 5⟩] (blank 2 2) = .ok r1 ∧
    DefaultResult.sink.pixels [⟨1, 0, .fin 2, 5⟩, ⟨1, 0, .fin 3, 4⟩] (blank 2 2) = .ok r2 ∧
    r1.image.at' 0 1 = r2.image.at' 0 1 :=
  C61_order (blank_fit 2 2) (List.Perm.swap _ _ _)
    (by
      intro c hc
      simp only [List.mem_cons, List.not_mem_nil, or_false] at hc
      rcases hc with rfl | rfl <;> (unfold InImage blank DefaultResult.new; norm_num))
    (by
      intro c hc
      simp only [List.mem_cons, List.not_mem_nil, or_false] at hc
      rcases hc with rfl | rfl
      exacts [⟨3, by norm_num, rfl⟩, ⟨2, by norm_num, rfl⟩]) 1 0 (old := 0) rfl le_rfl

/-! ## C62, C80 -/

/-- C62: drawing a triangle has no undefined behaviour, and every pixel is in the image and carries the triangle's index. -/
theorem C62_triangle (width height : ℕ) (culling : Bool) {p1 p2 p3 : Vec3} (tri : ℕ) (s1 : Small p1) (s2 : Small p2)
    (s3 : Small p3) :
    ∃ cs, triangle2D width height culling p1 p2 p3 tri = .ok cs ∧
      ∀ c ∈ cs, InImage width height c.x c.y ∧ c.tri = tri := by
  obtain ⟨cs, e1, e2, e3⟩ := triangle2D_ok width height culling tri s1 s2 s3
  refine ⟨cs, e1, fun c hc => ?_⟩
  by_cases hw : (culling = true ∧ culls p1 p2 p3) ∨ ¬ InWindow width height p1 p2 p3
  · rw [e2 hw] at hc
    simp at hc
  · rw [not_or, not_not] at hw
    exact ⟨((e3 hw.1 hw.2).1 c hc).1, ((e3 hw.1 hw.2).1 c hc).2.1⟩

/-- Corners used in the cases below. -/
theorem small_of {x y z : ℝ} (hx : |x| < 1000) (hy : |y| < 1000) : Small ⟨x, y, z⟩ :=
  ⟨lt_of_lt_of_le hx (by norm_num), lt_of_lt_of_le hy (by norm_num)⟩

example : ∃ cs, triangle2D 4 4 true ⟨-1 / 2, -3, 1⟩ ⟨1, 7, 2⟩ ⟨9, 2, 3⟩ 5 = .ok cs ∧
    ∀ c ∈ cs, InImage 4 4 c.x c.y ∧ c.tri = 5 :=
  C62_triangle 4 4 true 5 (small_of (by norm_num [abs_lt]) (by norm_num [abs_lt]))
    (small_of (by norm_num [abs_lt]) (by norm_num [abs_lt])) (small_of (by norm_num [abs_lt]) (by norm_num [abs_lt]))

/-- C62: rendering a mesh of moderate size into anything that can take the pixels of the image never fails; an invariant of
the receiver is kept. -/
theorem C62_mesh {σ : Type} (k : Sink σ) (c : Camera) (width height : ℕ) (culling : Bool) {K : ℝ} (hc : Moderate c K)
    {m : Mesh} {T : Transform3} (hv : Valid m.points m.tris) (hn : Near m T K) (I : σ → Prop)
    (hI : ∀ s p, I s → InImage width height p.x p.y → ∃ s', k.pixel s p = .ok s' ∧ I s') (s : σ) (hs : I s) :
    ∃ s', render k c width height m T culling s = .ok s' ∧ I s' :=
  render_ok k c width height culling hc hv hn I hI s hs

/-- One triangle before, beside and behind the camera, rendered into an image of 640 by 480 pixels. -/
example : ∃ r, render DefaultResult.sink ⟨500, 500, 320, 240, 0, 0, 640, 480⟩ 640 480
    ⟨[⟨1, 0, -2⟩, ⟨-3, 2, -1⟩, ⟨0, 1, 4⟩], [⟨0, 1, 2⟩], [], 0, 0⟩ ⟨Mat3.identity, ⟨0, 0, 0⟩⟩ true (blank 640 480) = .ok r := by
  obtain ⟨r, h, -⟩ := C62_mesh DefaultResult.sink ⟨500, 500, 320, 240, 0, 0, 640, 480⟩ 640 480 true (K := 3)
    (m := ⟨[⟨1, 0, -2⟩, ⟨-3, 2, -1⟩, ⟨0, 1, 4⟩], [⟨0, 1, 2⟩], [], 0, 0⟩) (T := ⟨Mat3.identity, ⟨0, 0, 0⟩⟩)
    (by unfold Moderate; norm_num) (by intro t ht; rw [List.mem_singleton] at ht; subst ht; decide)
    (by
      intro p hp
      simp only [List.mem_cons, List.not_mem_nil, or_false] at hp
      rcases hp with rfl | rfl | rfl <;> norm_num [Transform3.apply, Mat3.mulVec, Mat3.identity, abs_le])
    (fun r => DefaultResult.Same (blank 640 480) r) (fun s p hs hi => by
      obtain ⟨s', e1, e2, -⟩ := DefaultResult.pixel_ok (r := s) (c := p) (by rw [hs.cols, hs.rows]; exact hi)
        (hs.fit (blank_fit 640 480))
      exact ⟨s', e1, hs.trans e2⟩) _ (.refl _)
  exact ⟨r, h⟩

/-- C80, in part: a triangle that is not culled, has a corner in a column greater than 0 and a corner in a row greater than 0,
is drawn to exactly the pixels of the image into which a point of the triangle falls, the rows of its corners cut off.
Missing: triangles within the first column or the first row, which are not drawn. -/
theorem C80_coverage_partial (width height : ℕ) (culling : Bool) {p1 p2 p3 : Vec3} (tri : ℕ) (s1 : Small p1) (s2 : Small p2)
    (s3 : Small p3) (hcull : culling = true → (p2.x - p1.x) * (p3.y - p1.y) - (p3.x - p1.x) * (p2.y - p1.y) < 0)
    (hx : 1 ≤ p1.x ∨ 1 ≤ p2.x ∨ 1 ≤ p3.x) (hy : 1 ≤ p1.y ∨ 1 ≤ p2.y ∨ 1 ≤ p3.y) :
    ∃ cs, triangle2D width height culling p1 p2 p3 tri = .ok cs ∧
      ∀ x y : ℤ, (∃ c ∈ cs, c.x = x ∧ c.y = y) ↔
        InImage width height x y ∧ ∃ u d, trunc u = x ∧ InSnapped p1 p2 p3 u y d := by
  obtain ⟨cs, e1, e2, e3⟩ := triangle2D_ok width height culling tri s1 s2 s3
  have hc : ¬ (culling = true ∧ culls p1 p2 p3) := fun h => h.2 (hcull h.1)
  have t1 : ∀ {u : ℝ}, 1 ≤ u → 0 < trunc u := fun {u} h => by
    have := trunc_mono h
    rw [show (1 : ℝ) = ((1 : ℤ) : ℝ) by norm_num, trunc_int] at this
    omega
  refine ⟨cs, e1, fun x y => ?_⟩
  by_cases hw : InWindow width height p1 p2 p3
  · obtain ⟨f1, f2⟩ := e3 hc hw
    constructor
    · rintro ⟨c, hcs, rfl, rfl⟩
      exact ⟨(f1 c hcs).1, (f1 c hcs).2.2.1⟩
    · rintro ⟨hi, u, d, hu, hin⟩
      exact f2 x y u d hi hu hin
  · rw [e2 (.inr hw)]
    simp only [List.not_mem_nil, false_and, exists_false, false_iff]
    rintro ⟨⟨i1, i2, i3, i4⟩, u, d, hu, a, b, c, ha, hb, hc', w1, w2, w3, -⟩
    apply hw
    obtain rfl : a = 1 - b - c := by linarith
    refine ⟨?_, ?_, ?_, ?_⟩
    · by_contra hcon
      have hcon := not_lt.1 hcon
      have l : ∀ v : ℝ, (width : ℤ) ≤ trunc v → (width : ℝ) ≤ v := by
        intro v hv
        rcases le_or_gt 0 v with h | h
        · rw [trunc_eq_floor h] at hv
          exact_mod_cast Int.le_floor.1 hv
        · have := trunc_mono h.le
          rw [show (0 : ℝ) = ((0 : ℤ) : ℝ) by norm_num, trunc_int] at this
          omega
      have l1 := l p1.x (by omega)
      have l2 := l p2.x (by omega)
      have l3 := l p3.x (by omega)
      have q1 := mul_le_mul_of_nonneg_left l1 ha
      have q2 := mul_le_mul_of_nonneg_left l2 hb
      have q3 := mul_le_mul_of_nonneg_left l3 hc'
      have : (((width : ℤ)) : ℝ) ≤ u := by push_cast; linarith
      have := trunc_mono this
      rw [trunc_int] at this
      omega
    · rcases hx with h | h | h <;> have := t1 h <;> omega
    · by_contra hcon
      have hcon := not_lt.1 hcon
      have l1 : ((height : ℤ) : ℝ) ≤ trunc p1.y := by exact_mod_cast (by omega : (height : ℤ) ≤ trunc p1.y)
      have l2 : ((height : ℤ) : ℝ) ≤ trunc p2.y := by exact_mod_cast (by omega : (height : ℤ) ≤ trunc p2.y)
      have l3 : ((height : ℤ) : ℝ) ≤ trunc p3.y := by exact_mod_cast (by omega : (height : ℤ) ≤ trunc p3.y)
      have q1 := mul_le_mul_of_nonneg_left l1 ha
      have q2 := mul_le_mul_of_nonneg_left l2 hb
      have q3 := mul_le_mul_of_nonneg_left l3 hc'
      have : ((height : ℤ) : ℝ) ≤ y := by linarith
      have : (height : ℤ) ≤ y := by exact_mod_cast this
      omega
    · rcases hy with h | h | h <;> have := t1 h <;> omega

example : ∃ cs, triangle2D 4 4 true ⟨0, 0, 1⟩ ⟨0, 2, 1⟩ ⟨2, 0, 1⟩ 5 = .ok cs ∧
    ∀ x y : ℤ, (∃ c ∈ cs, c.x = x ∧ c.y = y) ↔
      InImage 4 4 x y ∧ ∃ u d, trunc u = x ∧ InSnapped ⟨0, 0, 1⟩ ⟨0, 2, 1⟩ ⟨2, 0, 1⟩ u y d :=
  C80_coverage_partial 4 4 true 5 (small_of (by norm_num) (by norm_num)) (small_of (by norm_num) (by norm_num [abs_lt]))
    (small_of (by norm_num [abs_lt]) (by norm_num)) (by norm_num) (by norm_num) (by norm_num)

/-- C80 fails at the border: a triangle inside the first column is not drawn at all, though it is in the image. -/
theorem C80_border_wrong : ∃ p1 p2 p3 : Vec3, Small p1 ∧ Small p2 ∧ Small p3 ∧
    (p2.x - p1.x) * (p3.y - p1.y) - (p3.x - p1.x) * (p2.y - p1.y) < 0 ∧
    triangle2D 4 4 true p1 p2 p3 0 = .ok [] ∧
    ∃ u d, trunc u = 0 ∧ InSnapped p1 p2 p3 u (2 : ℤ) d ∧ InImage 4 4 0 2 := by
  have s1 : Small ⟨0, 0, 1⟩ := small_of (by norm_num) (by norm_num)
  have s2 : Small ⟨0, 3, 1⟩ := small_of (by norm_num) (by norm_num [abs_lt])
  have s3 : Small ⟨1 / 2, 0, 1⟩ := small_of (by norm_num [abs_lt]) (by norm_num)
  obtain ⟨cs, e1, e2, -⟩ := triangle2D_ok 4 4 true 0 s1 s2 s3
  have t0 : trunc 0 = 0 := by have := trunc_int 0; simpa using this
  have th : trunc (1 / 2) = 0 := by
    rw [trunc_eq_floor (by norm_num), Int.floor_eq_iff]
    norm_num
  refine ⟨⟨0, 0, 1⟩, ⟨0, 3, 1⟩, ⟨1 / 2, 0, 1⟩, s1, s2, s3, by norm_num, ?_, 0, 1, t0, ?_, by unfold InImage; norm_num⟩
  · rw [e1, e2 (.inr fun h => ?_)]
    have := h.2.1
    simp only [t0, th] at this
    omega
  · have t3 : trunc 3 = 3 := by have := trunc_int 3; simpa using this
    exact ⟨1 / 3, 2 / 3, 0, by norm_num, by norm_num, le_rfl, by norm_num, by norm_num, by simp only [t0, t3]; norm_num,
      by norm_num⟩

/-! ## C65 -/

/-- C65: a triangle in front of the camera passes the culling test iff the optical centre, which `Tx` and `Ty` shift, is
strictly on its outer side. -/
theorem C65_cull (c : Camera) (hf : 0 < c.fx * c.fy) (P1 P2 P3 : Vec3) (h1 : P1.z < 0) (h2 : P2.z < 0) (h3 : P3.z < 0) :
    ¬ culls (corner c P1) (corner c P2) (corner c P3) ↔
      FacesOrigin (P1 + ⟨c.Tx / c.fx, -(c.Ty / c.fy), 0⟩) (P2 + ⟨c.Tx / c.fx, -(c.Ty / c.fy), 0⟩)
        (P3 + ⟨c.Tx / c.fx, -(c.Ty / c.fy), 0⟩) := by
  have fx : c.fx ≠ 0 := fun h => by rw [h] at hf; simp at hf
  have fy : c.fy ≠ 0 := fun h => by rw [h] at hf; simp at hf
  unfold culls
  rw [not_not, corner_cross c P1 P2 P3 h1 h2 h3, facesOrigin_iff]
  have hk : 0 < 1 / (-P1.z * -P2.z * -P3.z) := by
    have := neg_pos.2 h1
    have := neg_pos.2 h2
    have := neg_pos.2 h3
    positivity
  have he : ((c.fx * P1.x + c.Tx) * ((c.fy * -P2.y + c.Ty) * -P3.z - -P2.z * (c.fy * -P3.y + c.Ty)) +
       (c.fy * -P1.y + c.Ty) * (-P2.z * (c.fx * P3.x + c.Tx) - (c.fx * P2.x + c.Tx) * -P3.z) +
       -P1.z * ((c.fx * P2.x + c.Tx) * (c.fy * -P3.y + c.Ty) - (c.fy * -P2.y + c.Ty) * (c.fx * P3.x + c.Tx))) =
      c.fx * c.fy * vol (P1 + ⟨c.Tx / c.fx, -(c.Ty / c.fy), 0⟩) (P2 + ⟨c.Tx / c.fx, -(c.Ty / c.fy), 0⟩)
        (P3 + ⟨c.Tx / c.fx, -(c.Ty / c.fy), 0⟩) := by
    unfold vol
    simp only [Vec3.add_x, Vec3.add_y, Vec3.add_z]
    field_simp
    ring
  rw [he]
  constructor
  · intro h
    by_contra hn
    exact absurd h (not_lt.2 (mul_nonneg hk.le (mul_nonneg hf.le (not_lt.1 hn))))
  · intro h
    exact mul_neg_of_pos_of_neg hk (mul_neg_of_pos_of_neg hf h)

/-- C65 with the optical centre at the origin. -/
theorem C65_origin (c : Camera) (hf : 0 < c.fx * c.fy) (hTx : c.Tx = 0) (hTy : c.Ty = 0) (P1 P2 P3 : Vec3) (h1 : P1.z < 0)
    (h2 : P2.z < 0) (h3 : P3.z < 0) : ¬ culls (corner c P1) (corner c P2) (corner c P3) ↔ FacesOrigin P1 P2 P3 := by
  rw [C65_cull c hf P1 P2 P3 h1 h2 h3, hTx, hTy]
  have : ∀ P : Vec3, P + ⟨0 / c.fx, -(0 / c.fy), 0⟩ = P := by
    intro P
    ext <;> simp [Vec3.add_x, Vec3.add_y, Vec3.add_z]
  rw [this, this, this]

example : ¬ culls (corner ⟨500, 500, 320, 240, 0, 0, 640, 480⟩ ⟨0, 0, -1⟩) (corner ⟨500, 500, 320, 240, 0, 0, 640, 480⟩ ⟨1, 0, -2⟩)
    (corner ⟨500, 500, 320, 240, 0, 0, 640, 480⟩ ⟨0, 1, -3⟩) := by
  rw [C65_origin _ (by norm_num) rfl rfl _ _ _ (by norm_num) (by norm_num) (by norm_num)]
  unfold FacesOrigin
  norm_num

/-! ## C68 -/

/-- C68: sorting permutes the corners, orders them by the coordinate, and orders their rows cut off to integers. -/
theorem C68_sort (f : Vec3 → ℝ) (p1 p2 p3 a b c : Vec3) (h : sort f p1 p2 p3 = (a, b, c)) :
    [a, b, c].Perm [p1, p2, p3] ∧ f a ≤ f b ∧ f b ≤ f c ∧
      0 ≤ trunc (f b) - trunc (f a) ∧ 0 ≤ trunc (f c) - trunc (f b) ∧
      (¬ (trunc (f p1) = trunc (f p2) ∧ trunc (f p2) = trunc (f p3)) → 0 < trunc (f c) - trunc (f a)) := by
  obtain ⟨⟨o1, o2⟩, hp⟩ := sort_cases f p1 p2 p3
  rw [h] at o1 o2
  have t1 := trunc_mono o1
  have t2 := trunc_mono o2
  simp only at t1 t2
  have s12 : ∀ a b c : Vec3, [a, b, c].Perm [b, a, c] := fun a b c => List.Perm.swap _ _ _
  have s23 : ∀ a b c : Vec3, [a, b, c].Perm [a, c, b] := fun a b c => (List.Perm.swap _ _ _).cons _
  refine ⟨?_, o1, o2, by omega, by omega, fun hne => ?_⟩
  · rw [h] at hp
    simp only [Prod.mk.injEq] at hp
    rcases hp with ⟨rfl, rfl, rfl⟩ | ⟨rfl, rfl, rfl⟩ | ⟨rfl, rfl, rfl⟩ | ⟨rfl, rfl, rfl⟩ | ⟨rfl, rfl, rfl⟩ | ⟨rfl, rfl, rfl⟩
    · exact .refl _
    · exact s23 _ _ _
    · exact s12 _ _ _
    · exact (s23 _ _ _).trans (s12 _ _ _)
    · exact (s12 _ _ _).trans (s23 _ _ _)
    · exact (s12 _ _ _).trans ((s23 _ _ _).trans (s12 _ _ _))
  · by_contra hz
    apply hne
    rw [h] at hp
    simp only [Prod.mk.injEq] at hp
    rcases hp with ⟨rfl, rfl, rfl⟩ | ⟨rfl, rfl, rfl⟩ | ⟨rfl, rfl, rfl⟩ | ⟨rfl, rfl, rfl⟩ | ⟨rfl, rfl, rfl⟩ | ⟨rfl, rfl, rfl⟩ <;>
      exact ⟨by omega, by omega⟩

example : [(⟨5, 1, 0⟩ : Vec3), ⟨7, 2, 0⟩, ⟨3, 9, 0⟩].Perm [⟨7, 2, 0⟩, ⟨3, 9, 0⟩, ⟨5, 1, 0⟩] :=
  (C68_sort Vec3.y ⟨7, 2, 0⟩ ⟨3, 9, 0⟩ ⟨5, 1, 0⟩ ⟨5, 1, 0⟩ ⟨7, 2, 0⟩ ⟨3, 9, 0⟩ (by
    unfold sort
    norm_num)).1

end Geo
