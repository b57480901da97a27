import Verif.Lemmas.RoundedBoxTests
import Verif.Lemmas.RoundedOctree
import Verif.Lemmas.Single
import Verif.Props.Rounded

/-! # C122: rays and boxes in floating point arithmetic -/

namespace Geo
open Spec RoundedBox

/-- Without rounding the functions are those of `Model/Box`. -/
theorem C122_exact (b o : Box) (x d p : Vec3) (t0 t1 d0 R : ℝ) (T : Transform3) :
    Rounded.boxRay id id b (Rounded.rayNew id x d) t0 t1 d0 = b.intersectRay (Ray.new x d) t0 t1 d0 ∧
    Rounded.boxMaxRadius id b = b.getMaxRadius ∧ Rounded.boxBox id b o = b.intersectBox o ∧
    Rounded.boxSphere id b p R = b.intersectSphere p R ∧ Rounded.boxEnclose id b o T = b.enclose o T :=
  ⟨rfl, rfl, rfl, rfl, rfl⟩

/-- C122: a ray that is nearly parallel to no coordinate plane. A reported hit is within a small multiple of the distance of
the box, a ray that passes through the box less the same margin is reported, and the reported distance is off by a small
relative error from where the ray enters the box. -/
theorem C122_ray {u v : ℝ} {rnd toF : ℝ → ℝ} (h : RelErr u rnd) (hm : Monotone rnd) (hF : RelErr v toF) (hmF : Monotone toF)
    (hu : u ≤ 1 / 1000) (hv : v ≤ 1 / 1000) {lo hi o d e : Vec3} (hp : Proper lo hi) (he : UnitAlong d e)
    (hob : 1e-9 * (1 + 8 * u) ≤ |e.x| ∧ 1e-9 * (1 + 8 * u) ≤ |e.y| ∧ 1e-9 * (1 + 8 * u) ≤ |e.z|) (t0 t1 d0 : ℝ) (ht : t0 < t1) :
    let r := Rounded.boxRay rnd toF (Box.new lo hi) (Rounded.rayNew rnd o d) t0 t1 d0
    let w := 8 * u + 2 * v
    (r.1 = true → ∃ s m, t0 < s ∧ s < t1 ∧ m = w * |s| ∧
      InBox ⟨lo.x - m, lo.y - m, lo.z - m⟩ ⟨hi.x + m, hi.y + m, hi.z + m⟩ (along o e s)) ∧
    (∀ s m, t0 < s → s < t1 → m = w * |s| →
      InBox ⟨lo.x + m, lo.y + m, lo.z + m⟩ ⟨hi.x - m, hi.y - m, hi.z - m⟩ (along o e s) → r.1 = true) ∧
    (r.1 = true → ∀ a, IsLeast {s | InBox lo hi (along o e s)} a → |r.2 - a| ≤ w * |a|) :=
  ray_main h hm hF hmF hu hv hp he hob t0 t1 d0 ht

/-- C122 case: the unit box seen from (-1, -2, -2) in `double` and `float`: the hit is reported, and the distance is within a
millionth of 3. -/
example :
    let r := Rounded.boxRay toDouble toFloat (Box.new ⟨0, 0, 0⟩ ⟨1, 1, 1⟩) (Rounded.rayNew toDouble ⟨-1, -2, -2⟩ ⟨1, 2, 2⟩) 0 10 0
    r.1 = true ∧ |r.2 - 3| ≤ 1e-6 := by
  intro r
  obtain ⟨-, h2, h3⟩ := C122_ray (lo := ⟨0, 0, 0⟩) (hi := ⟨1, 1, 1⟩) (o := ⟨-1, -2, -2⟩) (d := ⟨1, 2, 2⟩)
    (e := ⟨1 / 3, 2 / 3, 2 / 3⟩) C93_roundings.1 toDouble_mono C93_roundings.2 toFloat_mono (by norm_num) (by norm_num)
    (by norm_num [Proper]) ⟨by norm_num, 3, by norm_num, by norm_num, by norm_num, by norm_num⟩
    ⟨by norm_num [abs_of_pos], by norm_num [abs_of_pos], by norm_num [abs_of_pos]⟩ 0 10 0 (by norm_num)
  have hit := h2 4 _ (by norm_num) (by norm_num) rfl (by
    rw [abs_of_pos (by norm_num)]
    norm_num [InBox, along])
  refine ⟨hit, (h3 hit 3 ⟨by norm_num [InBox, along], ?_⟩).trans (by norm_num)⟩
  rintro s ⟨h, -⟩
  simp only [along] at h
  linarith

/-- C122: a box and a ball. For a positive radius the answer is that for a radius changed by a small relative error, and, for
a "no", by a small multiple of the size of the coordinates of the box; otherwise it is exact. -/
theorem C122_sphere {u : ℝ} {rnd : ℝ → ℝ} (h : RelErr u rnd) (hu : u ≤ 1 / 1000) {lo hi : Vec3} (hp : Proper lo hi) {m : ℝ}
    (b1 : |lo.x| ≤ m ∧ |lo.y| ≤ m ∧ |lo.z| ≤ m) (b2 : |hi.x| ≤ m ∧ |hi.y| ≤ m ∧ |hi.z| ≤ m) (p : Vec3) (R : ℝ) :
    (0 < R →
      (Rounded.boxSphere rnd (Box.new lo hi) p R = true → ∃ q, InBox lo hi q ∧ Spec.dist p q ≤ (1 + 4 * u) * R) ∧
      ((∃ q, InBox lo hi q ∧ (1 + 4 * u) * Spec.dist p q + 13 * u * m ≤ R) →
        Rounded.boxSphere rnd (Box.new lo hi) p R = true)) ∧
    (R ≤ 0 → (Rounded.boxSphere rnd (Box.new lo hi) p R = true ↔ InBox lo hi p)) := by
  refine ⟨fun hR => box_sphere h hu hp hR b1 b2, fun hR => ?_⟩
  unfold Rounded.boxSphere
  rw [if_pos hR]
  simp only [Box.contains, Box.new_lo, Box.new_hi, decide_eq_true_eq, ge_iff_le, InBox]

/-- C122 case: a ball that just does not reach the unit box, and one that does, in `double`. -/
example : Rounded.boxSphere toDouble (Box.new ⟨0, 0, 0⟩ ⟨1, 1, 1⟩) ⟨3, 0, 0⟩ 1.999999 = false ∧
    Rounded.boxSphere toDouble (Box.new ⟨0, 0, 0⟩ ⟨1, 1, 1⟩) ⟨3, 0, 0⟩ 2.000001 = true := by
  have key := fun R => C122_sphere (lo := ⟨0, 0, 0⟩) (hi := ⟨1, 1, 1⟩) (m := 1) C93_roundings.1 (by norm_num)
    (by norm_num [Proper]) (by norm_num) (by norm_num) ⟨3, 0, 0⟩ R
  constructor
  · rw [Bool.eq_false_iff]
    intro hc
    obtain ⟨q, ⟨-, hq, -⟩, hd⟩ := ((key 1.999999).1 (by norm_num)).1 hc
    unfold Spec.dist at hd
    have h1 : (2 : ℝ) ≤ Real.sqrt (distSq ⟨3, 0, 0⟩ q) := by
      refine Real.le_sqrt_of_sq_le ?_
      simp only [distSq]
      simp only at hq
      nlinarith [sq_nonneg (0 - q.y), sq_nonneg (0 - q.z)]
    norm_num at hd
    linarith
  · refine ((key 2.000001).1 (by norm_num)).2 ⟨⟨1, 0, 0⟩, by norm_num [InBox], ?_⟩
    have : Spec.dist ⟨3, 0, 0⟩ ⟨1, 0, 0⟩ = 2 := by
      unfold Spec.dist distSq
      rw [show ((3 : ℝ) - 1) ^ 2 + (0 - 0) ^ 2 + (0 - 0) ^ 2 = 2 ^ 2 by norm_num]
      exact Real.sqrt_sq (by norm_num)
    rw [this]
    norm_num

/-- C122: two boxes. `gx`, `gy`, `gz` are the gaps (negative: overlaps) along the axes, the last one after the shift along z
that line 80 of src/Box.cpp amounts to (`C25_computes`). The answer is that of the exact comparison unless a gap is within
rounding of zero. -/
theorem C122_box {u : ℝ} {rnd : ℝ → ℝ} (h : RelErr u rnd) (hu : u ≤ 1 / 1000) {lo1 hi1 lo2 hi2 : Vec3} {m : ℝ}
    (b1 : |lo1.x| ≤ m ∧ |lo1.y| ≤ m ∧ |lo1.z| ≤ m) (b2 : |hi1.x| ≤ m ∧ |hi1.y| ≤ m ∧ |hi1.z| ≤ m)
    (b3 : |lo2.x| ≤ m ∧ |lo2.y| ≤ m ∧ |lo2.z| ≤ m) (b4 : |hi2.x| ≤ m ∧ |hi2.y| ≤ m ∧ |hi2.z| ≤ m) {gx gy gz s : ℝ}
    (hs : s = (lo1.y + hi1.y) / 2 - (lo1.z + hi1.z) / 2)
    (hx : gx = max (lo2.x - hi1.x) (lo1.x - hi2.x)) (hy : gy = max (lo2.y - hi1.y) (lo1.y - hi2.y))
    (hz : gz = max (lo2.z - (hi1.z + s)) (lo1.z + s - hi2.z)) :
    (13 * u * m < gx ∨ 13 * u * m < gy ∨ 13 * u * m < gz →
      Rounded.boxBox rnd (Box.new lo1 hi1) (Box.new lo2 hi2) = false) ∧
    (gx ≤ -(13 * u * m) → gy ≤ -(13 * u * m) → gz ≤ -(13 * u * m) →
      Rounded.boxBox rnd (Box.new lo1 hi1) (Box.new lo2 hi2) = true) :=
  box_box h hu b1 b2 b3 b4 hs hx hy hz

/-- C122 case: overlapping cubes, and cubes a millionth apart, in `double`. -/
example : Rounded.boxBox toDouble (Box.new ⟨0, 0, 0⟩ ⟨1, 1, 1⟩) (Box.new ⟨0.5, 0.5, 0.5⟩ ⟨2, 2, 2⟩) = true ∧
    Rounded.boxBox toDouble (Box.new ⟨0, 0, 0⟩ ⟨1, 1, 1⟩) (Box.new ⟨1.000001, 0.5, 0.5⟩ ⟨2, 2, 2⟩) = false := by
  have n : ∀ x : ℝ, 0 ≤ x → |x| = x := fun x hx => abs_of_nonneg hx
  constructor
  · refine (C122_box (m := 2) C93_roundings.1 (by norm_num) ?_ ?_ ?_ ?_ rfl rfl rfl rfl).2 ?_ ?_ ?_
    all_goals norm_num [abs_of_nonneg]
  · refine (C122_box (m := 2) C93_roundings.1 (by norm_num) ?_ ?_ ?_ ?_ rfl rfl rfl rfl).1 (Or.inl ?_)
    all_goals norm_num [abs_of_nonneg]

/-- C122: the radius of a box is off by a small relative error from the larger of the distances of its two corners. -/
theorem C122_radius {u : ℝ} {rnd : ℝ → ℝ} (h : RelErr u rnd) (hu : u ≤ 1 / 1000) (lo hi : Vec3) :
    |Rounded.boxMaxRadius rnd (Box.new lo hi) - max (len (V lo)) (len (V hi))| ≤ 3 * u * max (len (V lo)) (len (V hi)) := by
  have hu0 := Rounded.relErr_nonneg h
  have R : Rnd u 0 rnd := ⟨le_rfl, hu0, hu, h⟩
  have e : ∀ a : Vec3, a.length = len (V a) := by
    intro a
    simp [len, V, Vec3.length, Fin.sum_univ_three, pow_two]
  have A : ∀ a : Vec3, |Rounded.length rnd a - len (V a)| ≤ 3 * u * |len (V a)| := by
    intro a
    have := R.length a
    rw [e] at this
    rw [abs_of_nonneg (len_nonneg _)]
    have := mul_nonneg hu0 (len_nonneg (V a))
    linarith
  have := max_err (by positivity) (by linarith) (A lo) (A hi)
  rwa [abs_of_nonneg (le_max_of_le_left (len_nonneg _))] at this

/-- C122 case: a box with a radius of 5 or so. -/
example : |Rounded.boxMaxRadius toDouble (Box.new ⟨-1, 0, 0⟩ ⟨3, 4, 0⟩) - 5| ≤ 1e-14 := by
  have := C122_radius C93_roundings.1 (by norm_num) ⟨-1, 0, 0⟩ ⟨3, 4, 0⟩
  have e1 : len (V ⟨3, 4, 0⟩) = 5 := by
    simp only [len, V, Fin.sum_univ_three]
    rw [Real.sqrt_eq_iff_mul_self_eq_of_pos (by norm_num)]
    simp only [Matrix.cons_val]
    norm_num
  have e2 : len (V ⟨-1, 0, 0⟩) = 1 := by
    simp only [len, V, Fin.sum_univ_three]
    rw [Real.sqrt_eq_iff_mul_self_eq_of_pos (by norm_num)]
    simp only [Matrix.cons_val]
    norm_num
  rw [e1, e2] at this
  norm_num at this ⊢
  linarith

/-- C122: any sequence of `enclose` calls with nearly orthogonal poses. The box stays proper, contains its old contents,
contains every enclosed box and is the smallest such box, both up to the error of one application of a pose: the errors do not
add up along the sequence. -/
theorem C122_enclose {u : ℝ} {rnd : ℝ → ℝ} (h : RelErr u rnd) (hu : u ≤ 1 / 1000) {δ : ℝ} (hδ : δ ≤ 1 / 10) (lo hi : Vec3)
    (hp : Proper lo hi) (l : List (Box × Transform3)) {ρ τ m : ℝ} (h0 : 0 ≤ ρ) (h1 : 0 ≤ τ)
    (hl : ∀ x ∈ l, BoxOk x.1 ∧ NearlyOrthogonal δ x.2.R ∧ (∀ q, InBox x.1.lo x.1.hi q → len (V q) ≤ ρ) ∧ len (V x.2.t) ≤ τ)
    (hm : m = 8 * u * (ρ + τ)) :
    let r := l.foldl (fun a x => Rounded.boxEnclose rnd a x.1 x.2) (Box.new lo hi)
    BoxOk r ∧ (∀ p, InBox lo hi p → InBox r.lo r.hi p) ∧
    (∀ x ∈ l, ∀ q, InBox x.1.lo x.1.hi q →
      InBox ⟨r.lo.x - m, r.lo.y - m, r.lo.z - m⟩ ⟨r.hi.x + m, r.hi.y + m, r.hi.z + m⟩ (x.2.apply q)) ∧
    (∀ lo' hi' : Vec3, (∀ p, InBox lo hi p → InBox lo' hi' p) →
      (∀ x ∈ l, ∀ q, InBox x.1.lo x.1.hi q → InBox lo' hi' (x.2.apply q)) →
      ∀ p, InBox r.lo r.hi p → InBox ⟨lo'.x - m, lo'.y - m, lo'.z - m⟩ ⟨hi'.x + m, hi'.y + m, hi'.z + m⟩ p) := by
  have hu0 := Rounded.relErr_nonneg h
  have hnew : BoxOk (Box.new lo hi) := by
    refine ⟨hp, ?_, [], ?_⟩
    · rw [Box.new, (generateMesh_points _).2.2]
      intro p hp'
      simp [Mesh.new, Mesh.invalidateCache] at hp'
      exact inBox_corners hp p hp'
    · rw [Box.new, (generateMesh_points _).2.2]; rfl
  have wide : ∀ {lo hi p q : Vec3}, InBox lo hi p → |p.x - q.x| ≤ m → |p.y - q.y| ≤ m → |p.z - q.z| ≤ m →
      InBox ⟨lo.x - m, lo.y - m, lo.z - m⟩ ⟨hi.x + m, hi.y + m, hi.z + m⟩ q := by
    rintro lo hi p q ⟨h1, h2, h3, h4, h5, h6⟩ hx hy hz
    rw [abs_le] at hx hy hz
    refine ⟨?_, ?_, ?_, ?_, ?_, ?_⟩ <;> simp only <;> linarith
  have step : ∀ (a : Box) (x : Box × Transform3), BoxOk a → (BoxOk x.1 ∧ NearlyOrthogonal δ x.2.R ∧
        (∀ q, InBox x.1.lo x.1.hi q → len (V q) ≤ ρ) ∧ len (V x.2.t) ≤ τ) →
      BoxOk (Rounded.boxEnclose rnd a x.1 x.2) ∧
      (∀ p, InBox a.lo a.hi p → InBox (Rounded.boxEnclose rnd a x.1 x.2).lo (Rounded.boxEnclose rnd a x.1 x.2).hi p) ∧
      (∀ q, InBox x.1.lo x.1.hi q →
        InBox ⟨(Rounded.boxEnclose rnd a x.1 x.2).lo.x - m, (Rounded.boxEnclose rnd a x.1 x.2).lo.y - m,
            (Rounded.boxEnclose rnd a x.1 x.2).lo.z - m⟩
          ⟨(Rounded.boxEnclose rnd a x.1 x.2).hi.x + m, (Rounded.boxEnclose rnd a x.1 x.2).hi.y + m,
            (Rounded.boxEnclose rnd a x.1 x.2).hi.z + m⟩ (x.2.apply q)) ∧
      (∀ lo' hi' : Vec3, (∀ p, InBox a.lo a.hi p → InBox ⟨lo'.x - m, lo'.y - m, lo'.z - m⟩ ⟨hi'.x + m, hi'.y + m, hi'.z + m⟩ p) →
        (∀ q, InBox x.1.lo x.1.hi q → InBox lo' hi' (x.2.apply q)) →
        ∀ p, InBox (Rounded.boxEnclose rnd a x.1 x.2).lo (Rounded.boxEnclose rnd a x.1 x.2).hi p →
          InBox ⟨lo'.x - m, lo'.y - m, lo'.z - m⟩ ⟨hi'.x + m, hi'.y + m, hi'.z + m⟩ p) := by
    rintro a ⟨b, T⟩ ⟨ha1, ha2, _⟩ ⟨⟨hb1, hb2, old, hb3⟩, hT, hρ, hτ⟩
    have err : ∀ q, InBox b.lo b.hi q → |(Rounded.apply rnd T q).x - (T.apply q).x| ≤ m ∧
        |(Rounded.apply rnd T q).y - (T.apply q).y| ≤ m ∧ |(Rounded.apply rnd T q).z - (T.apply q).z| ≤ m := by
      intro q hq
      obtain ⟨h1, h2, h3⟩ := apply_coord h hu hδ hT (hρ q hq)
      have : 8 * u * (ρ + len (V T.t)) ≤ m := by
        rw [hm]
        exact mul_le_mul_of_nonneg_left (by simp only at hτ; linarith) (by positivity)
      exact ⟨h1.trans this, h2.trans this, h3.trans this⟩
    obtain ⟨e1, e2, e3, e4, e5⟩ := enclosePoints (ps := b.mesh.points.map (Rounded.apply rnd T)) (b := a)
    have r1 : (Rounded.boxEnclose rnd a b T).lo = ((b.mesh.points.map (Rounded.apply rnd T)).foldl Box.enclosePoint a).lo := rfl
    have r2 : (Rounded.boxEnclose rnd a b T).hi = ((b.mesh.points.map (Rounded.apply rnd T)).foldl Box.enclosePoint a).hi := rfl
    have r3 : (Rounded.boxEnclose rnd a b T).mesh.points =
        a.mesh.points ++ corners8 (Rounded.boxEnclose rnd a b T).lo (Rounded.boxEnclose rnd a b T).hi := by
      have := (generateMesh_points ((b.mesh.points.map (Rounded.apply rnd T)).foldl Box.enclosePoint a)).2.2
      rw [e5] at this
      exact this
    rw [← r1, ← r2] at e1 e2 e3 e4
    refine ⟨⟨e4 ha1, ?_, _, r3⟩, e1, ?_, ?_⟩
    · rw [r3]
      intro p hp
      rcases List.mem_append.1 hp with hp | hp
      · exact e1 p (ha2 p hp)
      · exact inBox_corners (e4 ha1) p hp
    · intro q hq
      apply apply_inBox T hq
      intro c hc
      have hin := inBox_corners hb1 c hc
      have : Rounded.apply rnd T c ∈ b.mesh.points.map (Rounded.apply rnd T) := by
        apply List.mem_map.2
        exact ⟨c, by rw [hb3]; simp [hc], rfl⟩
      obtain ⟨w1, w2, w3⟩ := err c hin
      exact wide ((e2 _ this).resolve_right (fun h => h ha1)) w1 w2 w3
    · intro lo' hi' h1 h2 p hp
      have l1 := h1 a.lo ⟨le_rfl, ha1.1, le_rfl, ha1.2.1, le_rfl, ha1.2.2⟩
      have l2 := h1 a.hi ⟨ha1.1, le_rfl, ha1.2.1, le_rfl, ha1.2.2, le_rfl⟩
      obtain ⟨g1, g2, g3, g4, g5, g6⟩ := e3 ⟨lo'.x - m, lo'.y - m, lo'.z - m⟩ ⟨hi'.x + m, hi'.y + m, hi'.z + m⟩ (by
        intro p hp
        obtain ⟨q, hq, rfl⟩ := List.mem_map.1 hp
        obtain ⟨w1, w2, w3⟩ := err q (hb2 q hq)
        rw [abs_sub_comm] at w1 w2 w3
        exact wide (h2 q (hb2 q hq)) w1 w2 w3)
        ⟨l1.1, l1.2.2.1, l1.2.2.2.2.1, l2.2.1, l2.2.2.2.1, l2.2.2.2.2.2⟩
      obtain ⟨p1, p2, p3, p4, p5, p6⟩ := hp
      exact ⟨g1.trans p1, p2.trans g4, g2.trans p3, p4.trans g5, g3.trans p5, p6.trans g6⟩
  have shift : ∀ {lo hi lo2 hi2 q : Vec3}, Proper lo hi → (∀ p, InBox lo hi p → InBox lo2 hi2 p) →
      InBox ⟨lo.x - m, lo.y - m, lo.z - m⟩ ⟨hi.x + m, hi.y + m, hi.z + m⟩ q →
      InBox ⟨lo2.x - m, lo2.y - m, lo2.z - m⟩ ⟨hi2.x + m, hi2.y + m, hi2.z + m⟩ q := by
    rintro lo hi lo2 hi2 q ⟨p1, p2, p3⟩ hs ⟨h1, h2, h3, h4, h5, h6⟩
    obtain ⟨a1, -, a3, -, a5, -⟩ := hs lo ⟨le_rfl, p1, le_rfl, p2, le_rfl, p3⟩
    obtain ⟨-, b2, -, b4, -, b6⟩ := hs hi ⟨p1, le_rfl, p2, le_rfl, p3, le_rfl⟩
    simp only at h1 h2 h3 h4 h5 h6
    refine ⟨?_, ?_, ?_, ?_, ?_, ?_⟩ <;> simp only <;> linarith
  have gen : ∀ (l : List (Box × Transform3)) (a : Box), BoxOk a → (∀ x ∈ l, BoxOk x.1 ∧ NearlyOrthogonal δ x.2.R ∧
        (∀ q, InBox x.1.lo x.1.hi q → len (V q) ≤ ρ) ∧ len (V x.2.t) ≤ τ) →
      let r := l.foldl (fun a x => Rounded.boxEnclose rnd a x.1 x.2) a
      BoxOk r ∧ (∀ p, InBox a.lo a.hi p → InBox r.lo r.hi p) ∧
      (∀ x ∈ l, ∀ q, InBox x.1.lo x.1.hi q →
        InBox ⟨r.lo.x - m, r.lo.y - m, r.lo.z - m⟩ ⟨r.hi.x + m, r.hi.y + m, r.hi.z + m⟩ (x.2.apply q)) ∧
      (∀ lo' hi' : Vec3, (∀ p, InBox a.lo a.hi p → InBox ⟨lo'.x - m, lo'.y - m, lo'.z - m⟩ ⟨hi'.x + m, hi'.y + m, hi'.z + m⟩ p) →
        (∀ x ∈ l, ∀ q, InBox x.1.lo x.1.hi q → InBox lo' hi' (x.2.apply q)) →
        ∀ p, InBox r.lo r.hi p → InBox ⟨lo'.x - m, lo'.y - m, lo'.z - m⟩ ⟨hi'.x + m, hi'.y + m, hi'.z + m⟩ p) := by
    intro l
    induction l with
    | nil =>
      intro a ha _
      refine ⟨ha, fun p hp => hp, ?_, fun _ _ h1 _ => h1⟩
      simp
    | cons x l ih =>
      intro a ha hx
      obtain ⟨s1, s2, s3, s4⟩ := step a x ha (hx x (by simp))
      obtain ⟨i1, i2, i3, i4⟩ := ih _ s1 (fun y hy => hx y (by simp [hy]))
      refine ⟨i1, fun p hp => i2 p (s2 p hp), ?_, ?_⟩
      · intro y hy q hq
        rcases List.mem_cons.1 hy with rfl | hy
        · exact shift s1.1 i2 (s3 q hq)
        · exact i3 y hy q hq
      · intro lo' hi' h1 h2
        apply i4
        · exact s4 lo' hi' h1 (h2 x (by simp))
        · exact fun y hy => h2 y (by simp [hy])
  obtain ⟨g1, g2, g3, g4⟩ := gen l _ hnew hl
  refine ⟨g1, g2, g3, ?_⟩
  intro lo' hi' h2 h3
  have hm0 : 0 ≤ m := by rw [hm]; positivity
  refine g4 lo' hi' (fun p hp => wide (h2 p hp) ?_ ?_ ?_) h3 <;> rw [sub_self, abs_zero] <;> exact hm0

/-- C122 case: enclosing a unit cube turned by a right angle about z and moved by (1, 2, 3), in `double`. -/
example : BoxOk (Box.new ⟨0, 0, 0⟩ ⟨1, 1, 1⟩) ∧ NearlyOrthogonal 0 ⟨0, -1, 0, 1, 0, 0, 0, 0, 1⟩ ∧
    (∀ q, InBox ⟨0, 0, 0⟩ ⟨1, 1, 1⟩ q → len (V q) ≤ 2) ∧ len (V ⟨1, 2, 3⟩) ≤ 4 := by
  refine ⟨⟨by norm_num [Proper], ?_, [], by rw [Box.new, (generateMesh_points _).2.2]; rfl⟩, ?_, ?_, ?_⟩
  · rw [Box.new, (generateMesh_points _).2.2]
    intro p hp
    simp [Mesh.new, Mesh.invalidateCache] at hp
    exact inBox_corners (lo := ⟨0, 0, 0⟩) (hi := ⟨1, 1, 1⟩) (by norm_num [Proper]) p hp
  · intro i j
    fin_cases i <;> fin_cases j <;> simp [M, Matrix.mul_apply, Fin.sum_univ_three]
  · rintro q ⟨h1, h2, h3, h4, h5, h6⟩
    simp only at h1 h2 h3 h4 h5 h6
    simp only [len, V, Fin.sum_univ_three]
    rw [Real.sqrt_le_left (by norm_num)]
    simp only [Matrix.cons_val]
    nlinarith
  · simp only [len, V, Fin.sum_univ_three]
    rw [Real.sqrt_le_left (by norm_num)]
    simp only [Matrix.cons_val]
    norm_num

end Geo
