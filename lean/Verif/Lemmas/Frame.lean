import Verif.Lemmas.Inside
import Verif.Lemmas.Sphere
import Verif.Lemmas.Math
import Mathlib.Topology.ContinuousOn

/-!
# Proper rigid motions of meshes
-/

namespace Geo
open Spec

/-- A triangle moved by a pose. (Device of the proofs.) -/
def moved (T : Transform3) (t : Vec3 × Vec3 × Vec3) : Vec3 × Vec3 × Vec3 := (T.apply t.1, T.apply t.2.1, T.apply t.2.2)

section rotation
variable {a : Mat3}

theorem rot_dot (h : Rotation a) (u v : Vec3) : (a.mulVec u).dot (a.mulVec v) = u.dot v := by
  obtain ⟨c1, c2, c3, c4, c5, c6⟩ := (orth_iff a).mp h.1
  simp only [Vec3.dot, Mat3.mulVec]
  linear_combination u.x * v.x * c1 + u.y * v.y * c2 + u.z * v.z * c3 + (u.x * v.y + u.y * v.x) * c4 +
    (u.x * v.z + u.z * v.x) * c5 + (u.y * v.z + u.z * v.y) * c6

theorem rot_cross (h : Rotation a) (u v : Vec3) : (a.mulVec u).cross (a.mulVec v) = a.mulVec (u.cross v) := by
  obtain ⟨d1, d2, d3, d4, d5, d6, d7, d8, d9⟩ := rotation_cofactor h
  have e1 := d1; have e2 := d2
  ext <;> simp only [Vec3.cross, Mat3.mulVec]
  · linear_combination (-(u.y * v.z - u.z * v.y)) * d1 + (-(u.z * v.x - u.x * v.z)) * d2 + (-(u.x * v.y - u.y * v.x)) * d3
  · linear_combination (-(u.y * v.z - u.z * v.y)) * d4 + (-(u.z * v.x - u.x * v.z)) * d5 + (-(u.x * v.y - u.y * v.x)) * d6
  · linear_combination (-(u.y * v.z - u.z * v.y)) * d7 + (-(u.z * v.x - u.x * v.z)) * d8 + (-(u.x * v.y - u.y * v.x)) * d9

theorem rot_length2 (h : Rotation a) (u : Vec3) : (a.mulVec u).length2 = u.length2 := by
  have := rot_dot h u u
  simpa only [Vec3.dot, Vec3.length2] using this

theorem rot_length (h : Rotation a) (u : Vec3) : (a.mulVec u).length = u.length := by
  unfold Vec3.length
  have := rot_length2 h u
  simp only [Vec3.length2] at this
  rw [this]

theorem rot_smul (s : ℝ) (u : Vec3) : a.mulVec (s * u) = s * a.mulVec u := by
  ext <;> simp [Mat3.mulVec] <;> ring

theorem rot_normalized (h : Rotation a) (u : Vec3) : (a.mulVec u).normalized = a.mulVec u.normalized := by
  unfold Vec3.normalized
  rw [rot_length h]
  ext <;> simp [Mat3.mulVec] <;> ring

end rotation

variable {T : Transform3}

theorem apply_sub (T : Transform3) (u v : Vec3) : T.apply u - T.apply v = T.R.mulVec (u - v) := by
  ext <;> simp [Transform3.apply, Mat3.mulVec] <;> ring

theorem apply_sub_vec (T : Transform3) (u v : Vec3) : T.apply u - T.R.mulVec v = T.apply (u - v) := by
  ext <;> simp [Transform3.apply, Mat3.mulVec] <;> ring

theorem checkLine_move (h : Rotation T.R) (p a ab : Vec3) (r2 : ℝ) :
    checkLinesegment (T.apply p) r2 (T.apply a) (T.R.mulVec ab) = checkLinesegment p r2 a ab := by
  unfold checkLinesegment
  simp only [apply_sub, rot_length2 h, rot_dot h]

/-- The sphere test of a triangle depends on nothing but lengths, angles and orientation. -/
theorem sphereHits_move (h : Rotation T.R) (p v1 v2 v3 : Vec3) (r2 : ℝ) :
    Shape.sphereHitsTriangle (T.apply p) r2 (T.apply v1) (T.apply v2) (T.apply v3) = Shape.sphereHitsTriangle p r2 v1 v2 v3 := by
  unfold Shape.sphereHitsTriangle
  simp only [apply_sub, rot_length2 h, rot_dot h, checkLine_move h, rot_cross h, rot_normalized h, ← rot_smul, apply_sub_vec]

theorem vol4_dot (a b c d : Vec3) : vol4 a b c d = (b - a).dot ((c - a).cross (d - a)) := by
  rw [vol4_eq]
  simp [Vec3.dot, Vec3.cross]
  ring

theorem vol4_apply (h : Rotation T.R) (a b c d : Vec3) :
    vol4 (T.apply a) (T.apply b) (T.apply c) (T.apply d) = vol4 a b c d := by
  simp only [vol4_dot, apply_sub, rot_cross h, rot_dot h]

theorem side_move (h : Rotation T.R) (t : Vec3 × Vec3 × Vec3) (q : Vec3) : side (moved T t) (T.apply q) = side t q := by
  have := (vol4_side (T.apply q) (T.apply t.1) (T.apply t.2.1) (T.apply t.2.2)).1
  rw [vol4_apply h, (vol4_side q t.1 t.2.1 t.2.2).1] at this
  exact (neg_inj.1 this).symm

theorem area_move (h : Rotation T.R) (a b c : Vec3) :
    triangleArea (T.apply a) (T.apply b) (T.apply c) = triangleArea a b c := by
  unfold triangleArea
  simp only [apply_sub, rot_cross h, rot_length h]

theorem apply_lerp (T : Transform3) (a b : Vec3) (s : ℝ) : lerp (T.apply a) (T.apply b) s = T.apply (lerp a b s) := by
  ext <;> simp [lerp, Transform3.apply, Mat3.mulVec] <;> ring

theorem apply_comb3 (T : Transform3) (t : Vec3 × Vec3 × Vec3) {u v w : ℝ} (h : u + v + w = 1) :
    (⟨u * (T.apply t.1).x + v * (T.apply t.2.1).x + w * (T.apply t.2.2).x,
      u * (T.apply t.1).y + v * (T.apply t.2.1).y + w * (T.apply t.2.2).y,
      u * (T.apply t.1).z + v * (T.apply t.2.1).z + w * (T.apply t.2.2).z⟩ : Vec3) =
    T.apply ⟨u * t.1.x + v * t.2.1.x + w * t.2.2.x, u * t.1.y + v * t.2.1.y + w * t.2.2.y,
      u * t.1.z + v * t.2.1.z + w * t.2.2.z⟩ := by
  ext <;> simp only [Transform3.apply, Mat3.mulVec, Vec3.add_x, Vec3.add_y, Vec3.add_z]
  · linear_combination T.t.x * h
  · linear_combination T.t.y * h
  · linear_combination T.t.z * h

theorem apply_inj (h : Rotation T.R) {p q : Vec3} (e : T.apply p = T.apply q) : p = q := by
  have := rigid_apply_sq (T := T) h.1 p q
  rw [e] at this
  have z : distSq p q = 0 := by rw [← this]; simp [distSq]
  unfold distSq at z
  have hx : p.x - q.x = 0 := by nlinarith [sq_nonneg (p.x - q.x), sq_nonneg (p.y - q.y), sq_nonneg (p.z - q.z)]
  have hy : p.y - q.y = 0 := by nlinarith [sq_nonneg (p.x - q.x), sq_nonneg (p.y - q.y), sq_nonneg (p.z - q.z)]
  have hz : p.z - q.z = 0 := by nlinarith [sq_nonneg (p.x - q.x), sq_nonneg (p.y - q.y), sq_nonneg (p.z - q.z)]
  ext <;> linarith

theorem inTri_move (h : Rotation T.R) (t : Vec3 × Vec3 × Vec3) (x : Vec3) : InTri (moved T t) (T.apply x) ↔ InTri t x := by
  constructor
  · rintro ⟨u, v, w, hu, hv, hw, hs, e⟩
    refine ⟨u, v, w, hu, hv, hw, hs, apply_inj h ?_⟩
    rw [e, ← apply_comb3 T t hs]
    rfl
  · rintro ⟨u, v, w, hu, hv, hw, hs, rfl⟩
    exact ⟨u, v, w, hu, hv, hw, hs, (apply_comb3 T t hs).symm⟩

theorem strictly_move {t : Vec3 × Vec3 × Vec3} {x : Vec3} (h : StrictlyIn t x) : StrictlyIn (moved T t) (T.apply x) := by
  obtain ⟨u, v, w, hu, hv, hw, hs, rfl⟩ := h
  exact ⟨u, v, w, hu, hv, hw, hs, (apply_comb3 T t hs).symm⟩

theorem joined_move (h : Rotation T.R) {ts : List (Vec3 × Vec3 × Vec3)} {a b : Vec3} (hj : Joined ts a b) :
    Joined (ts.map (moved T)) (T.apply a) (T.apply b) := by
  obtain ⟨f, c1, c2, c3, rfl, rfl, hoff⟩ := hj
  refine ⟨fun s => T.apply (f s), ?_, ?_, ?_, rfl, rfl, ?_⟩
  · simp only [Transform3.apply, Mat3.mulVec, Vec3.add_x]; fun_prop
  · simp only [Transform3.apply, Mat3.mulVec, Vec3.add_y]; fun_prop
  · simp only [Transform3.apply, Mat3.mulVec, Vec3.add_z]; fun_prop
  · intro s hs t ht
    obtain ⟨t', ht', rfl⟩ := List.mem_map.1 ht
    rw [inTri_move h]
    exact hoff s hs t' ht'

theorem joined_trans {ts : List (Vec3 × Vec3 × Vec3)} {a b c : Vec3} (h1 : Joined ts a b) (h2 : Joined ts b c) :
    Joined ts a c := by
  obtain ⟨f, f1, f2, f3, rfl, hfb, hf⟩ := h1
  obtain ⟨g, g1, g2, g3, hgb, rfl, hg⟩ := h2
  have key : ∀ φ : Vec3 → ℝ, ContinuousOn (fun s => φ (f s)) (Set.Icc 0 1) → ContinuousOn (fun s => φ (g s)) (Set.Icc 0 1) →
      ContinuousOn (fun s : ℝ => φ (if s ≤ 1 / 2 then f (2 * s) else g (2 * s - 1))) (Set.Icc 0 1) := by
    intro φ hφ hψ
    have e : (Set.Icc 0 1 : Set ℝ) = Set.Icc 0 (1 / 2) ∪ Set.Icc (1 / 2) 1 := by
      rw [Set.Icc_union_Icc_eq_Icc] <;> norm_num
    rw [e]
    refine ContinuousOn.union_of_isClosed ?_ ?_ isClosed_Icc isClosed_Icc
    · have : ContinuousOn (fun s : ℝ => φ (f (2 * s))) (Set.Icc 0 (1 / 2)) :=
        hφ.comp (by fun_prop) fun s hs => ⟨by linarith [hs.1], by linarith [hs.2]⟩
      refine this.congr fun s hs => ?_
      simp only [if_pos hs.2]
    · have : ContinuousOn (fun s : ℝ => φ (g (2 * s - 1))) (Set.Icc (1 / 2) 1) :=
        hψ.comp (by fun_prop) fun s hs => ⟨by linarith [hs.1], by linarith [hs.2]⟩
      refine this.congr fun s hs => ?_
      simp only
      split_ifs with h
      · have : s = 1 / 2 := le_antisymm h hs.1
        subst this
        norm_num [hfb, hgb]
      · rfl
  refine ⟨fun s => if s ≤ 1 / 2 then f (2 * s) else g (2 * s - 1), key Vec3.x f1 g1, key Vec3.y f2 g2, key Vec3.z f3 g3, ?_, ?_, ?_⟩
  · norm_num
  · norm_num
  · intro s hs t ht
    simp only
    split_ifs with h
    · exact hf _ ⟨by linarith [hs.1], by linarith⟩ t ht
    · exact hg _ ⟨by linarith, by linarith [hs.2]⟩ t ht

theorem lt_dist {v y : Vec3} (h : n2 v < n2 y) : Spec.dist v ⟨0, 0, 0⟩ < Spec.dist y ⟨0, 0, 0⟩ := by
  unfold Spec.dist
  apply Real.sqrt_lt_sqrt (by unfold distSq; positivity)
  simpa [distSq, n2] using h

theorem n2_apply (h : Rotation T.R) (v : Vec3) : n2 (T.apply v) = n2 v + 2 * (T.R.mulVec v).dot T.t + n2 T.t := by
  have := rot_length2 h v
  simp only [Vec3.length2, Mat3.mulVec] at this
  simp only [n2, Transform3.apply, Vec3.dot, Mat3.mulVec, Vec3.add_x, Vec3.add_y, Vec3.add_z]
  linear_combination this

/-- A point far out stays outside when it is moved farther out. -/
theorem escapes_move (h : Rotation T.R) {ts : List (Vec3 × Vec3 × Vec3)} {p : Vec3} (he : Escapes ts p) :
    Escapes (ts.map (moved T)) (T.apply p) := by
  obtain ⟨y, hj, hfar⟩ := he
  rcases ts.eq_nil_or_concat with rfl | ⟨l, t0, hts⟩
  · exact ⟨_, joined_move h hj, by simp⟩
  have hfar' : ∀ t ∈ ts, ∀ v ∈ [t.1, t.2.1, t.2.2], n2 v < n2 y := fun t ht v hv => n2_lt (hfar t ht v hv)
  have hY : 0 < n2 y := by
    have := hfar' t0 (by rw [hts]; simp) t0.1 (by simp)
    exact lt_of_le_of_lt (by unfold n2; positivity) this
  set Y := n2 y with hYdef
  set S := n2 T.t with hSdef
  have hS : 0 ≤ S := by rw [hSdef]; unfold n2; positivity
  set k := 2 + 6 * S / Y with hk
  have hk2 : 2 ≤ k := by
    have : 0 ≤ 6 * S / Y := by positivity
    linarith
  have hkY : k * Y = 2 * Y + 6 * S := by rw [hk]; field_simp
  have nk : ∀ s : ℝ, n2 ⟨s * y.x, s * y.y, s * y.z⟩ = s ^ 2 * Y := by intro s; rw [hYdef]; unfold n2; ring
  refine ⟨T.apply ⟨k * y.x, k * y.y, k * y.z⟩, joined_trans (joined_move h hj) (joined_move h (joined_seg ?_)), ?_⟩
  · intro s h0 h1 t ht
    apply off_far
    intro v hv
    refine (hfar' t ht v hv).trans_le ?_
    have e : lerp y ⟨k * y.x, k * y.y, k * y.z⟩ s = ⟨(1 + s * (k - 1)) * y.x, (1 + s * (k - 1)) * y.y, (1 + s * (k - 1)) * y.z⟩ := by
      ext <;> simp only [lerp] <;> ring
    rw [e, nk]
    have h1 : 1 ≤ 1 + s * (k - 1) := by
      have := mul_nonneg h0 (show 0 ≤ k - 1 by linarith)
      linarith
    have h2 : 1 ≤ (1 + s * (k - 1)) ^ 2 := one_le_pow₀ h1
    exact le_mul_of_one_le_left hY.le h2
  · intro t ht v hv
    obtain ⟨t', ht', rfl⟩ := List.mem_map.1 ht
    obtain ⟨w, hw, rfl⟩ : ∃ w ∈ [t'.1, t'.2.1, t'.2.2], v = T.apply w := by
      simp only [moved, List.mem_cons, List.not_mem_nil, or_false] at hv
      rcases hv with rfl | rfl | rfl
      · exact ⟨_, by simp, rfl⟩
      · exact ⟨_, by simp, rfl⟩
      · exact ⟨_, by simp, rfl⟩
    apply lt_dist
    rw [n2_apply h, n2_apply h, nk, ← hSdef]
    have hw' := hfar' t' ht' w hw
    have a1 : 2 * (T.R.mulVec w).dot T.t ≤ n2 w + S := by
      have := rot_length2 h w
      simp only [Vec3.length2] at this
      have e : n2 w = (T.R.mulVec w).x * (T.R.mulVec w).x + (T.R.mulVec w).y * (T.R.mulVec w).y +
        (T.R.mulVec w).z * (T.R.mulVec w).z := by rw [this]; unfold n2; ring
      rw [e, hSdef]
      unfold n2 Vec3.dot
      nlinarith [sq_nonneg ((T.R.mulVec w).x - T.t.x), sq_nonneg ((T.R.mulVec w).y - T.t.y), sq_nonneg ((T.R.mulVec w).z - T.t.z)]
    have a2 : -(k ^ 2 * Y / 2 + 2 * S) ≤ 2 * (T.R.mulVec ⟨k * y.x, k * y.y, k * y.z⟩).dot T.t := by
      have := rot_length2 h ⟨k * y.x, k * y.y, k * y.z⟩
      simp only [Vec3.length2] at this
      set z := T.R.mulVec ⟨k * y.x, k * y.y, k * y.z⟩ with hz
      have e : k ^ 2 * Y = z.x * z.x + z.y * z.y + z.z * z.z := by rw [this, hYdef]; unfold n2; ring
      rw [e, hSdef]
      unfold n2 Vec3.dot
      nlinarith [sq_nonneg (z.x + 2 * T.t.x), sq_nonneg (z.y + 2 * T.t.y), sq_nonneg (z.z + 2 * T.t.z)]
    have a3 : 4 * Y + 12 * S ≤ k ^ 2 * Y := by
      have : k ^ 2 * Y = k * (2 * Y + 6 * S) := by rw [← hkY]; ring
      rw [this]
      nlinarith [mul_nonneg (show 0 ≤ k - 2 by linarith) (show 0 ≤ 2 * Y + 6 * S by linarith)]
    linarith

theorem enclosed_move (h : Rotation T.R) {ts : List (Vec3 × Vec3 × Vec3)} {p : Vec3} (he : Enclosed ts p) :
    Enclosed (ts.map (moved T)) (T.apply p) := by
  obtain ⟨l₁, t, l₂, a, b, rfl, hj, hesc, ha, hb, ⟨s, hs0, hs1, hs⟩, hoff⟩ := he
  refine ⟨l₁.map (moved T), moved T t, l₂.map (moved T), T.apply a, T.apply b, by simp, joined_move h hj, escapes_move h hesc, ?_, ?_,
    ⟨s, hs0, hs1, by rw [apply_lerp]; exact strictly_move hs⟩, ?_⟩
  · rwa [side_move h]
  · rwa [side_move h]
  · intro s h0 h1 t' ht'
    rw [← List.map_append] at ht'
    obtain ⟨t'', ht'', rfl⟩ := List.mem_map.1 ht'
    rw [apply_lerp, inTri_move h]
    exact hoff s h0 h1 t'' ht''

/-! ## The queries -/

theorem sphereLoop_move (h : Rotation T.R) (p : Vec3) (r2 : ℝ) (ps : List Vec3) (is : List TriI) :
    Shape.sphereLoop (T.apply p) r2 (ps.map T.apply) is = Shape.sphereLoop p r2 ps is := by
  induction is with
  | nil => rfl
  | cons it is ih =>
    unfold Shape.sphereLoop
    rw [ih]
    simp only [vget, List.getElem?_map]
    cases ps[it.i1]? <;> cases ps[it.i2]? <;> cases ps[it.i3]? <;>
      simp [bind, Except.bind, sphereHits_move h]

/-- If the probe is not in the plane of the triangle, one step of the loop is the same after a proper motion. -/
theorem containsStep_move (h : Rotation T.R) (p q : Vec3) (it : TriI) (v1 v2 v3 : Vec3) (st : Shape.HitState)
    (hn : ∃ e ∈ rim (v1, v2, v3), 1e-16 < |vol4 p q e.1 e.2|) :
    Shape.containsStep (T.apply p) (T.apply q) it (T.apply v1) (T.apply v2) (T.apply v3) st =
      Shape.containsStep p q it v1 v2 v3 st := by
  have hs : 1e-16 < |vol4 p q v1 v2| ∨ 1e-16 < |vol4 p q v2 v3| ∨ 1e-16 < |vol4 p q v3 v1| := by
    obtain ⟨e, he, hv⟩ := hn
    simp only [rim, List.mem_cons, List.not_mem_nil, or_false] at he
    rcases he with rfl | rfl | rfl
    · exact .inl hv
    · exact .inr (.inl hv)
    · exact .inr (.inr hv)
  have len : ∀ a b : Vec3, (T.apply a - T.apply b).length = (a - b).length := fun a b => by rw [apply_sub, rot_length h]
  unfold Shape.containsStep
  simp only [sideProduct_vol, vol4_apply h, area_move h]
  generalize hs1 : vol4 p q v1 v2 = s1 at hs
  generalize hs2 : vol4 p q v2 v3 = s2 at hs
  generalize hs3 : vol4 p q v3 v1 = s3 at hs
  refine ite_congr rfl (fun _ => rfl) fun _ => ?_
  refine ite_congr rfl (fun hc => ?_) fun _ => ?_
  · exfalso
    simp only [Bool.and_eq_true, decide_eq_true_eq] at hc
    obtain ⟨⟨a1, a2, a3⟩, b1, b2, b3⟩ := hc
    rcases hs with hs | hs | hs
    · exact absurd (abs_le.2 ⟨a1, b1⟩) (not_le.2 hs)
    · exact absurd (abs_le.2 ⟨a2, b2⟩) (not_le.2 hs)
    · exact absurd (abs_le.2 ⟨a3, b3⟩) (not_le.2 hs)
  refine ite_congr rfl (fun _ => ?_) fun _ => rfl
  refine ite_congr rfl (fun _ => ?_) fun _ => rfl
  refine ite_congr rfl (fun _ => ?_) fun _ => ?_
  · by_cases c1 : |s1| < 1e-16
    · simp only [c1, if_true]
      by_cases c : it.i2 < it.i1 <;> simp only [c, if_true, if_false, len]
    · by_cases c2 : |s2| < 1e-16
      · simp only [c1, c2, if_true, if_false]
        by_cases c : it.i3 < it.i2 <;> simp only [c, if_true, if_false, len]
      · simp only [c1, c2, if_false]
        by_cases c : it.i1 < it.i3 <;> simp only [c, if_true, if_false, len]
  refine ite_congr rfl (fun _ => ?_) fun _ => rfl
  classical
  have eqv : ∀ v : Vec3, (T.apply v = T.apply p) = (v = p) := fun v => propext ⟨apply_inj h, congrArg _⟩
  by_cases c2 : |s2| > 1e-16
  · simp only [c2, if_true]
    refine ite_congr ?_ (fun _ => rfl) fun _ => rfl
    simp only [sideProduct_vol, vol4_apply h, hs2, c2, if_true, eqv]
  · by_cases c3 : |s3| > 1e-16
    · simp only [c2, c3, if_true, if_false]
      refine ite_congr ?_ (fun _ => rfl) fun _ => rfl
      simp only [sideProduct_vol, vol4_apply h, hs2, hs3, c2, c3, if_true, if_false, eqv]
    · simp only [c2, c3, if_false]
      refine ite_congr ?_ (fun _ => rfl) fun _ => rfl
      simp only [sideProduct_vol, vol4_apply h, hs2, hs3, c2, c3, if_false, eqv]

theorem containsLoop_move (h : Rotation T.R) (p q : Vec3) {ps : List Vec3} {is : List TriI} {ts : List (Vec3 × Vec3 × Vec3)}
    (hs : soup ps is = some ts) (hn : ∀ t ∈ ts, ∃ e ∈ rim t, 1e-16 < |vol4 p q e.1 e.2|) (st : Shape.HitState) :
    Shape.containsLoop (T.apply p) (T.apply q) (ps.map T.apply) is st = Shape.containsLoop p q ps is st := by
  rw [Mesh.soup_some] at hs
  induction hs generalizing st with
  | nil => rfl
  | @cons it t is ts hit hrest ih =>
    obtain ⟨e1, e2, e3⟩ := hit
    unfold Shape.containsLoop
    simp only [vget, List.getElem?_map, e1, e2, e3, Option.map_some, bind, Except.bind]
    rw [containsStep_move h p q it t.1 t.2.1 t.2.2 st (hn t (by simp))]
    cases Shape.containsStep p q it t.1 t.2.1 t.2.2 st with
    | inside => rfl
    | go st' => exact ih (fun t ht => hn t (by simp [ht])) st'

end Geo
