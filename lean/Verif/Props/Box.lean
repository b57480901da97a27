import Verif.Lemmas.BoxMesh
import Mathlib.Analysis.Convex.Topology

/-!
# Property theorems C23 - C30 (Ray, Box)
-/

namespace Geo

open Spec

/-! ## C23 -/

/-- C23: containment is the closed axis-aligned box, which for a proper box is the convex hull of the
vertices of the box's mesh. -/
theorem C23_contains (lo hi p : Vec3) :
    ((Box.new lo hi).contains p = true ↔ InBox lo hi p) ∧
    (Proper lo hi → (InBox lo hi p ↔
      V p ∈ convexHull ℝ (V '' {q | q ∈ (Box.new lo hi).mesh.points}))) := by
  constructor
  · have h1 : (Box.new lo hi).lo = lo := rfl
    have h2 : (Box.new lo hi).hi = hi := rfl
    simp only [Box.contains, decide_eq_true_eq, h1, h2, ge_iff_le, InBox]
  · rintro ⟨hx, hy, hz⟩
    have e : V '' {q | q ∈ (Box.new lo hi).mesh.points} =
        Set.univ.pi (fun i => ({V lo i, V hi i} : Set ℝ)) := by
      rw [Box.new, (generateMesh_points _).2.2]
      ext f
      simp only [Set.mem_image, Set.mem_ofPred_eq, Set.mem_pi, Set.mem_univ, true_imp_iff,
        Set.mem_insert_iff, Set.mem_singleton_iff, Fin.forall_fin_succ, IsEmpty.forall_iff, and_true]
      simp [Mesh.new, Mesh.invalidateCache, corners8, V]
      constructor
      · rintro (rfl | rfl | rfl | rfl | rfl | rfl | rfl | rfl) <;> simp
      · rintro ⟨h1, h2, h3⟩
        have ef : f = ![f 0, f 1, f 2] := by
          ext i; fin_cases i <;> rfl
        rw [ef]
        rcases h1 with h1 | h1 <;> rcases h2 with h2 | h2 <;> rcases h3 with h3 | h3 <;>
          rw [h1, h2, h3] <;> simp
    rw [e, convexHull_pi]
    simp only [convexHull_pair, Set.mem_pi, Set.mem_univ, true_imp_iff, Fin.forall_fin_succ,
      IsEmpty.forall_iff, and_true]
    simp only [V, InBox]
    simp [segment_eq_Icc hx, segment_eq_Icc hy, segment_eq_Icc hz]
    tauto

/-- C23 case: a proper box and a point of it. -/
example : Proper ⟨-1, 0, 2⟩ ⟨1, 3, 4⟩ ∧ InBox ⟨-1, 0, 2⟩ ⟨1, 3, 4⟩ ⟨0.5, 3, 2⟩ := by
  norm_num [Proper, InBox]

/-! ## C24 -/

/-- C24: the sphere test is exact: with `R > 0` it is true iff some point of the box is within `R`;
with `R ≤ 0` it is containment. -/
theorem C24_sphere (lo hi p : Vec3) (h : Proper lo hi) (R : ℝ) :
    (0 < R → ((Box.new lo hi).intersectSphere p R = true ↔
      ∃ q, InBox lo hi q ∧ Spec.dist p q ≤ R)) ∧
    (R ≤ 0 → ((Box.new lo hi).intersectSphere p R = true ↔ InBox lo hi p)) := by
  constructor
  · intro hR
    obtain ⟨x1, x2, x3⟩ := closestCoord_spec (p := p.x) h.1
    obtain ⟨y1, y2, y3⟩ := closestCoord_spec (p := p.y) h.2.1
    obtain ⟨z1, z2, z3⟩ := closestCoord_spec (p := p.z) h.2.2
    have key : (Box.new lo hi).intersectSphere p R = true ↔
        (p.x - Box.closestCoord lo.x hi.x ((lo.x + hi.x) / 2) p.x) ^ 2 +
        (p.y - Box.closestCoord lo.y hi.y ((lo.y + hi.y) / 2) p.y) ^ 2 +
        (p.z - Box.closestCoord lo.z hi.z ((lo.z + hi.z) / 2) p.z) ^ 2 ≤ R ^ 2 := by
      unfold Box.intersectSphere
      rw [if_neg (not_le.2 hR)]
      simp only [decide_eq_true_eq, ge_iff_le, pow_two]
      exact Iff.rfl
    rw [key]
    constructor
    · intro hle
      refine ⟨⟨_, _, _⟩, ⟨x1, x2, y1, y2, z1, z2⟩, ?_⟩
      unfold Spec.dist distSq
      rw [Real.sqrt_le_left hR.le]
      exact hle
    · rintro ⟨q, ⟨a1, a2, a3, a4, a5, a6⟩, hd⟩
      unfold Spec.dist distSq at hd
      rw [Real.sqrt_le_left hR.le] at hd
      have := x3 q.x a1 a2
      have := y3 q.y a3 a4
      have := z3 q.z a5 a6
      linarith
  · intro hR
    unfold Box.intersectSphere
    rw [if_pos hR]
    exact (C23_contains lo hi p).1

/-- C24 case: a sphere touching a corner region: centre (3,4,1) is at distance 5 from the box. -/
example : Proper ⟨-1, -1, 0⟩ ⟨0, 0, 2⟩ ∧ (0:ℝ) < 5 ∧
    InBox ⟨-1, -1, 0⟩ ⟨0, 0, 2⟩ ⟨0, 0, 1⟩ ∧ Spec.dist ⟨3, 4, 1⟩ ⟨0, 0, 1⟩ ≤ 5 := by
  refine ⟨by norm_num [Proper], by norm_num, by norm_num [InBox], ?_⟩
  unfold Spec.dist distSq
  rw [Real.sqrt_le_left (by norm_num)]
  norm_num

/-! ## C25 -/

/-- C25: what the code computes (line 80 compares `c1.y - c2.z`): whether the second box shares a point with the first one moved
along z until its centre has equal y and z coordinates. -/
theorem C25_computes (lo1 hi1 lo2 hi2 : Vec3) (h1 : Proper lo1 hi1) (h2 : Proper lo2 hi2) :
    (Box.new lo1 hi1).intersectBox (Box.new lo2 hi2) = true ↔
      ∃ p, InBox lo1 hi1 p ∧ InBox lo2 hi2 ⟨p.x, p.y, p.z + ((lo1.y + hi1.y) / 2 - (lo1.z + hi1.z) / 2)⟩ := by
  have key : (Box.new lo1 hi1).intersectBox (Box.new lo2 hi2) = true ↔
      (|(lo1.x + hi1.x) / 2 - (lo2.x + hi2.x) / 2| ≤ (hi1.x - lo1.x) * 0.5 + (hi2.x - lo2.x) * 0.5 ∧
       |(lo1.y + hi1.y) / 2 - (lo2.y + hi2.y) / 2| ≤ (hi1.y - lo1.y) * 0.5 + (hi2.y - lo2.y) * 0.5 ∧
       |(lo1.y + hi1.y) / 2 - (lo2.z + hi2.z) / 2| ≤ (hi1.z - lo1.z) * 0.5 + (hi2.z - lo2.z) * 0.5) := by
    unfold Box.intersectBox
    have e1 : (Box.new lo1 hi1).getCenter = ⟨(lo1.x + hi1.x) / 2, (lo1.y + hi1.y) / 2, (lo1.z + hi1.z) / 2⟩ := rfl
    have e2 : (Box.new lo2 hi2).getCenter = ⟨(lo2.x + hi2.x) / 2, (lo2.y + hi2.y) / 2, (lo2.z + hi2.z) / 2⟩ := rfl
    have e3 : (Box.new lo1 hi1).getSize * (0.5 : ℝ) = ⟨(hi1.x - lo1.x) * 0.5, (hi1.y - lo1.y) * 0.5, (hi1.z - lo1.z) * 0.5⟩ := rfl
    have e4 : (Box.new lo2 hi2).getSize * (0.5 : ℝ) = ⟨(hi2.x - lo2.x) * 0.5, (hi2.y - lo2.y) * 0.5, (hi2.z - lo2.z) * 0.5⟩ := rfl
    simp only [e1, e2, e3, e4]
    split_ifs with a b c
    · simp only [false_iff]; intro h; linarith [h.1]
    · simp only [false_iff]; intro h; linarith [h.2.1]
    · simp only [false_iff]; intro h; linarith [h.2.2]
    · simp only [true_iff]; exact ⟨not_lt.1 a, not_lt.1 b, not_lt.1 c⟩
  obtain ⟨s, hs⟩ : ∃ s, s = (lo1.y + hi1.y) / 2 - (lo1.z + hi1.z) / 2 := ⟨_, rfl⟩
  have hz : (lo1.y + hi1.y) / 2 = ((lo1.z + s) + (hi1.z + s)) / 2 := by rw [hs]; ring
  have hw : hi1.z - lo1.z = (hi1.z + s) - (lo1.z + s) := by ring
  have hp : lo1.z + s ≤ hi1.z + s := by linarith [h1.2.2]
  rw [← hs, key, interval_overlap h1.1 h2.1, interval_overlap h1.2.1 h2.2.1, hz, hw, interval_overlap hp h2.2.2]
  constructor
  · rintro ⟨⟨x, a1, a2, a3, a4⟩, ⟨y, b1, b2, b3, b4⟩, ⟨z, c1, c2, c3, c4⟩⟩
    refine ⟨⟨x, y, z - s⟩, ⟨a1, a2, b1, b2, by simp only; linarith, by simp only; linarith⟩, ⟨a3, a4, b3, b4, ?_, ?_⟩⟩ <;>
      simp only <;> linarith
  · rintro ⟨p, ⟨a1, a2, a3, a4, a5, a6⟩, ⟨b1, b2, b3, b4, b5, b6⟩⟩
    exact ⟨⟨p.x, a1, a2, b1, b2⟩, ⟨p.y, a3, a4, b3, b4⟩, ⟨p.z + s, by linarith, by linarith, b5, b6⟩⟩

/-- C25 case for what the code computes: the first box is moved by 5. -/
example : Proper ⟨0, 0, 5⟩ ⟨1, 1, 6⟩ ∧ Proper ⟨0, 0, 0⟩ ⟨1, 1, 1⟩ ∧
    InBox ⟨0, 0, 5⟩ ⟨1, 1, 6⟩ ⟨0, 0, 5⟩ ∧ InBox ⟨0, 0, 0⟩ ⟨1, 1, 1⟩ ⟨0, 0, 5 + ((0 + 1) / 2 - (5 + 6) / 2)⟩ := by
  norm_num [Proper, InBox]

/-- C25 (partial: the full claim is `intersectBox = true ↔ the boxes share a point` for all proper
boxes; the code compares `c1.y - c2.z` on line 80, so it only holds when the first box's centre has
equal y and z coordinates). -/
theorem C25_box_box_partial (lo1 hi1 lo2 hi2 : Vec3) (h1 : Proper lo1 hi1) (h2 : Proper lo2 hi2)
    (hc : lo1.y + hi1.y = lo1.z + hi1.z) :
    (Box.new lo1 hi1).intersectBox (Box.new lo2 hi2) = true ↔
      ∃ p, InBox lo1 hi1 p ∧ InBox lo2 hi2 p := by
  rw [C25_computes _ _ _ _ h1 h2, hc]
  simp only [sub_self, add_zero]

/-- C25 case for the partial theorem. -/
example : Proper ⟨0, 0, 0⟩ ⟨1, 2, 2⟩ ∧ Proper ⟨1, 1, 1⟩ ⟨5, 5, 5⟩ ∧
    (⟨0, 0, 0⟩ : Vec3).y + (⟨1, 2, 2⟩ : Vec3).y = (⟨0, 0, 0⟩ : Vec3).z + (⟨1, 2, 2⟩ : Vec3).z := by
  norm_num [Proper]

/-- C25 is violated by the code (src/Box.cpp:80): two proper boxes sharing a point (indeed equal) are
reported disjoint; two disjoint ones are reported intersecting; and the relation is not symmetric. -/
theorem C25_box_box_wrong :
    (Box.new ⟨0, 10, 0⟩ ⟨1, 11, 1⟩).intersectBox (Box.new ⟨0, 10, 0⟩ ⟨1, 11, 1⟩) = false ∧
    (Box.new ⟨0, 0, 5⟩ ⟨1, 1, 6⟩).intersectBox (Box.new ⟨0, 0, 0⟩ ⟨1, 1, 1⟩) = true ∧
    ¬ (∃ p, InBox ⟨0, 0, 5⟩ ⟨1, 1, 6⟩ p ∧ InBox ⟨0, 0, 0⟩ ⟨1, 1, 1⟩ p) ∧
    (Box.new ⟨0, 0, 0⟩ ⟨1, 1, 1⟩).intersectBox (Box.new ⟨0, 0, 5⟩ ⟨1, 1, 6⟩) = false := by
  have e : ∀ lo hi, (Box.new lo hi).getCenter = (lo + hi) / (2:ℝ) := fun _ _ => rfl
  have e' : ∀ lo hi, (Box.new lo hi).getSize = hi - lo := fun _ _ => rfl
  refine ⟨?_, ?_, ?_, ?_⟩
  · norm_num [Box.intersectBox, e, e', abs_of_pos]
  · norm_num [Box.intersectBox, e, e', abs_of_pos]
  · rintro ⟨p, h1, h2⟩
    have := h1.2.2.2.2.1
    have := h2.2.2.2.2.2
    norm_num at *
    linarith
  · norm_num [Box.intersectBox, e, e', abs_of_pos, abs_of_neg]

/-! ## C26 -/

/-- C26: the slab test is exact when no component of the normalised direction is below 1e-9 in
magnitude; on a hit the distance is the smallest parameter at which the line is in the box. -/
theorem C26_ray (lo hi o d u : Vec3) (t0 t1 d0 : ℝ) (h : Proper lo hi) (hu : UnitAlong d u)
    (hx : 1e-9 ≤ |u.x|) (hy : 1e-9 ≤ |u.y|) (hz : 1e-9 ≤ |u.z|) (ht : t0 < t1) :
    let res := (Box.new lo hi).intersectRay (Ray.new o d) t0 t1 d0
    (res.1 = true ↔ ∃ t, t0 < t ∧ t < t1 ∧ InBox lo hi (along o u t)) ∧
    (res.1 = true → IsLeast {t | InBox lo hi (along o u t)} res.2) := by
  intro res
  have e := intersectRay_eq (Box.new lo hi) o d t0 t1 d0
  rw [unitAlong_normalized hu] at e
  have := slabs (slab_le (o := o.x) (u := u.x) h.1) (slab_le (o := o.y) (u := u.y) h.2.1)
    (slab_le (o := o.z) (u := u.z) h.2.2) ht res e
  have key : ∀ t, (slabLo lo.x hi.x o.x u.x ≤ t ∧ t ≤ slabHi lo.x hi.x o.x u.x ∧
      slabLo lo.y hi.y o.y u.y ≤ t ∧ t ≤ slabHi lo.y hi.y o.y u.y ∧
      slabLo lo.z hi.z o.z u.z ≤ t ∧ t ≤ slabHi lo.z hi.z o.z u.z) ↔ InBox lo hi (along o u t) := by
    intro t
    have h1 := slab_mem (lo := lo.x) (hi := hi.x) (o := o.x) (t := t) hx
    have h2 := slab_mem (lo := lo.y) (hi := hi.y) (o := o.y) (t := t) hy
    have h3 := slab_mem (lo := lo.z) (hi := hi.z) (o := o.z) (t := t) hz
    constructor
    · rintro ⟨a1, a2, a3, a4, a5, a6⟩
      obtain ⟨b1, b2⟩ := h1.1 ⟨a1, a2⟩
      obtain ⟨b3, b4⟩ := h2.1 ⟨a3, a4⟩
      obtain ⟨b5, b6⟩ := h3.1 ⟨a5, a6⟩
      exact ⟨b1, b2, b3, b4, b5, b6⟩
    · rintro ⟨b1, b2, b3, b4, b5, b6⟩
      obtain ⟨a1, a2⟩ := h1.2 ⟨b1, b2⟩
      obtain ⟨a3, a4⟩ := h2.2 ⟨b3, b4⟩
      obtain ⟨a5, a6⟩ := h3.2 ⟨b5, b6⟩
      exact ⟨a1, a2, a3, a4, a5, a6⟩
  simpa only [key] using this

/-- C26 case: direction (1,2,2)/3 from (-1,-2,-2) hits the unit cube's corner region. -/
example : Proper ⟨0, 0, 0⟩ ⟨1, 1, 1⟩ ∧ UnitAlong ⟨1, 2, 2⟩ ⟨1 / 3, 2 / 3, 2 / 3⟩ ∧
    (1e-9 : ℝ) ≤ |1 / 3| ∧ InBox ⟨0, 0, 0⟩ ⟨1, 1, 1⟩ (along ⟨-1, -2, -2⟩ ⟨1 / 3, 2 / 3, 2 / 3⟩ 4) := by
  refine ⟨by norm_num [Proper], ⟨by norm_num, 3, by norm_num⟩, by norm_num [abs_of_pos], ?_⟩
  norm_num [InBox, along]

/-! ## C27 -/

/-- C27 (partial: the full claim is the equivalence of C26 for directions with a zero component; the
code does not satisfy it). What the code computes for a direction with a component below 1e-9: a hit
exactly when `t0 < 0 < t1` and the origin lies in the slabs of the other axes. -/
theorem C27_axis_parallel_partial (lo hi o d u : Vec3) (t0 t1 d0 : ℝ) (h : Proper lo hi)
    (hu : UnitAlong d u) (hs : |u.x| < 1e-9 ∨ |u.y| < 1e-9 ∨ |u.z| < 1e-9) (ht : t0 < t1) :
    ((Box.new lo hi).intersectRay (Ray.new o d) t0 t1 d0).1 = true ↔
      t0 < 0 ∧ 0 < t1 ∧ (1e-9 ≤ |u.x| → lo.x ≤ o.x ∧ o.x ≤ hi.x) ∧
      (1e-9 ≤ |u.y| → lo.y ≤ o.y ∧ o.y ≤ hi.y) ∧ (1e-9 ≤ |u.z| → lo.z ≤ o.z ∧ o.z ≤ hi.z) := by
  have e := intersectRay_eq (Box.new lo hi) o d t0 t1 d0
  rw [unitAlong_normalized hu] at e
  have := (slabs (slab_le (o := o.x) (u := u.x) h.1) (slab_le (o := o.y) (u := u.y) h.2.1)
    (slab_le (o := o.z) (u := u.z) h.2.2) ht _ e).1
  rw [this]
  have mem0 : ∀ (lo hi o u : ℝ), (slabLo lo hi o u ≤ 0 ∧ 0 ≤ slabHi lo hi o u) ↔
      (1e-9 ≤ |u| → lo ≤ o ∧ o ≤ hi) := by
    intro lo hi o u
    rcases lt_or_ge |u| 1e-9 with hlt | hge
    · obtain ⟨a, b⟩ := slab_zero (lo := lo) (hi := hi) (o := o) hlt
      rw [a, b]
      simp [not_le.2 hlt]
    · rw [slab_mem hge]; simp [hge]
  constructor
  · rintro ⟨t, a1, a2, a3, a4, a5, a6, a7, a8⟩
    have t0' : t = 0 := by
      rcases hs with hs | hs | hs
      · obtain ⟨a, b⟩ := slab_zero (lo := lo.x) (hi := hi.x) (o := o.x) hs
        rw [a] at a3; rw [b] at a4; linarith
      · obtain ⟨a, b⟩ := slab_zero (lo := lo.y) (hi := hi.y) (o := o.y) hs
        rw [a] at a5; rw [b] at a6; linarith
      · obtain ⟨a, b⟩ := slab_zero (lo := lo.z) (hi := hi.z) (o := o.z) hs
        rw [a] at a7; rw [b] at a8; linarith
    subst t0'
    exact ⟨a1, a2, (mem0 _ _ _ _).1 ⟨a3, a4⟩, (mem0 _ _ _ _).1 ⟨a5, a6⟩, (mem0 _ _ _ _).1 ⟨a7, a8⟩⟩
  · rintro ⟨a1, a2, a3, a4, a5⟩
    obtain ⟨b1, b2⟩ := (mem0 _ _ _ _).2 a3
    obtain ⟨b3, b4⟩ := (mem0 _ _ _ _).2 a4
    obtain ⟨b5, b6⟩ := (mem0 _ _ _ _).2 a5
    exact ⟨0, a1, a2, b1, b2, b3, b4, b5, b6⟩

/-- C27 case for the partial theorem. -/
example : UnitAlong ⟨0, 0, -2⟩ ⟨0, 0, -1⟩ ∧ |(0:ℝ)| < 1e-9 := by
  refine ⟨⟨by norm_num, 2, by norm_num⟩, by norm_num⟩

/-- C27 is violated by the code: a vertical ray from above through the middle of a box is reported as
a miss; and a ray passing beside the box is reported as a hit (with `t0 < 0`). -/
theorem C27_axis_parallel_wrong :
    (((Box.new ⟨-1, -1, -1⟩ ⟨1, 1, 1⟩).intersectRay (Ray.new ⟨0, 0, 5⟩ ⟨0, 0, -1⟩) 0 100 0).1 = false ∧
      ∃ t, 0 < t ∧ t < 100 ∧ InBox ⟨-1, -1, -1⟩ ⟨1, 1, 1⟩ (along ⟨0, 0, 5⟩ ⟨0, 0, -1⟩ t)) ∧
    (((Box.new ⟨-1, -1, -1⟩ ⟨1, 1, 1⟩).intersectRay (Ray.new ⟨9, 9, 0⟩ ⟨0, 0, 1⟩) (-1) 1 0).1 = true ∧
      ¬ ∃ t, InBox ⟨-1, -1, -1⟩ ⟨1, 1, 1⟩ (along ⟨9, 9, 0⟩ ⟨0, 0, 1⟩ t)) := by
  have hp : Proper ⟨-1, -1, -1⟩ ⟨1, 1, 1⟩ := by norm_num [Proper]
  refine ⟨⟨?_, ?_⟩, ?_, ?_⟩
  · rw [← Bool.not_eq_true, C27_axis_parallel_partial _ _ ⟨0, 0, 5⟩ ⟨0, 0, -1⟩ ⟨0, 0, -1⟩ 0 100 0 hp
      ⟨by norm_num, 1, by norm_num⟩ (by norm_num) (by norm_num)]
    norm_num
  · exact ⟨5, by norm_num, by norm_num, by norm_num [InBox, along]⟩
  · rw [C27_axis_parallel_partial _ _ ⟨9, 9, 0⟩ ⟨0, 0, 1⟩ ⟨0, 0, 1⟩ (-1) 1 0 hp
      ⟨by norm_num, 1, by norm_num⟩ (by norm_num) (by norm_num)]
    norm_num
  · rintro ⟨t, h⟩
    have := h.2.1
    norm_num [along] at this

/-! ## C28 -/

/-- C28 (partial: the full claim is that `getMaxRadius` is the largest distance from the origin to a
point of the box; the code looks at only two of the eight corners). It never exceeds the largest
distance, and is equal to it when one of the two corners dominates the other in every coordinate. -/
theorem C28_max_radius_partial (lo hi : Vec3) (h : Proper lo hi) :
    (∃ p, InBox lo hi p ∧ Spec.dist p ⟨0, 0, 0⟩ = (Box.new lo hi).getMaxRadius) ∧
    (((|lo.x| ≤ |hi.x| ∧ |lo.y| ≤ |hi.y| ∧ |lo.z| ≤ |hi.z|) ∨
      (|hi.x| ≤ |lo.x| ∧ |hi.y| ≤ |lo.y| ∧ |hi.z| ≤ |lo.z|)) →
      ∀ p, InBox lo hi p → Spec.dist p ⟨0, 0, 0⟩ ≤ (Box.new lo hi).getMaxRadius) := by
  have hl : ∀ p : Vec3, Spec.dist p ⟨0, 0, 0⟩ = p.length := fun p => Mesh.dist_origin p
  have sq : ∀ {a b c : ℝ}, a ≤ b → b ≤ c → b * b ≤ max (a * a) (c * c) := by
    intro a b c h1 h2
    rcases le_total 0 b with hb | hb
    · exact le_max_of_le_right (by nlinarith)
    · exact le_max_of_le_left (by nlinarith)
  have ab : ∀ {a b : ℝ}, |a| ≤ |b| → max (a * a) (b * b) = b * b := by
    intro a b h
    exact max_eq_right (by have := sq_le_sq.2 h; nlinarith)
  constructor
  · rcases max_choice lo.length hi.length with e | e
    · refine ⟨lo, ⟨le_rfl, h.1, le_rfl, h.2.1, le_rfl, h.2.2⟩, ?_⟩
      rw [hl]; exact e.symm
    · refine ⟨hi, ⟨h.1, le_rfl, h.2.1, le_rfl, h.2.2, le_rfl⟩, ?_⟩
      rw [hl]; exact e.symm
  · rintro hd p ⟨a1, a2, a3, a4, a5, a6⟩
    have x := sq a1 a2
    have y := sq a3 a4
    have z := sq a5 a6
    rw [hl]
    rcases hd with ⟨d1, d2, d3⟩ | ⟨d1, d2, d3⟩
    · rw [ab d1] at x; rw [ab d2] at y; rw [ab d3] at z
      exact le_max_of_le_right (Real.sqrt_le_sqrt (by simp only [Box.new_lo, Box.new_hi]; linarith))
    · rw [max_comm, ab d1] at x; rw [max_comm, ab d2] at y; rw [max_comm, ab d3] at z
      exact le_max_of_le_left (Real.sqrt_le_sqrt (by simp only [Box.new_lo, Box.new_hi]; linarith))

/-- C28: exactly when the code is right, and how far it may be off: `getMaxRadius` bounds the box if and only if one of the two
corners dominates the other in every coordinate, and the square root of two times it always does. -/
theorem C28_computes (lo hi : Vec3) (h : Proper lo hi) :
    ((∀ p, InBox lo hi p → Spec.dist p ⟨0, 0, 0⟩ ≤ (Box.new lo hi).getMaxRadius) ↔
      ((|lo.x| ≤ |hi.x| ∧ |lo.y| ≤ |hi.y| ∧ |lo.z| ≤ |hi.z|) ∨
       (|hi.x| ≤ |lo.x| ∧ |hi.y| ≤ |lo.y| ∧ |hi.z| ≤ |lo.z|))) ∧
    (∀ p, InBox lo hi p → Spec.dist p ⟨0, 0, 0⟩ ≤ Real.sqrt 2 * (Box.new lo hi).getMaxRadius) := by
  have hl : ∀ p : Vec3, Spec.dist p ⟨0, 0, 0⟩ = Real.sqrt (p.x * p.x + p.y * p.y + p.z * p.z) := fun p => Mesh.dist_origin p
  have hr : (Box.new lo hi).getMaxRadius =
      max (Real.sqrt (lo.x * lo.x + lo.y * lo.y + lo.z * lo.z)) (Real.sqrt (hi.x * hi.x + hi.y * hi.y + hi.z * hi.z)) := rfl
  have sq : ∀ {a b c : ℝ}, a ≤ b → b ≤ c → b * b ≤ max (a * a) (c * c) := by
    intro a b c h1 h2
    rcases le_total 0 b with hb | hb
    · exact le_max_of_le_right (by nlinarith)
    · exact le_max_of_le_left (by nlinarith)
  refine ⟨⟨fun H => ?_, (C28_max_radius_partial lo hi h).2⟩, fun p hp => ?_⟩
  · -- the corner that takes the larger value on each axis
    have pick : ∀ a b : ℝ, a ≤ b → ∃ c, (a ≤ c ∧ c ≤ b) ∧ a * a ≤ c * c ∧ b * b ≤ c * c ∧
        ((c = a ∧ |b| ≤ |a|) ∨ (c = b ∧ |a| ≤ |b|)) := by
      intro a b hab
      rcases le_total |a| |b| with q | q
      · exact ⟨b, ⟨hab, le_rfl⟩, by have := sq_le_sq.2 q; nlinarith, le_rfl, .inr ⟨rfl, q⟩⟩
      · exact ⟨a, ⟨le_rfl, hab⟩, le_rfl, by have := sq_le_sq.2 q; nlinarith, .inl ⟨rfl, q⟩⟩
    obtain ⟨x, ⟨x1, x2⟩, x3, x4, x5⟩ := pick lo.x hi.x h.1
    obtain ⟨y, ⟨y1, y2⟩, y3, y4, y5⟩ := pick lo.y hi.y h.2.1
    obtain ⟨z, ⟨z1, z2⟩, z3, z4, z5⟩ := pick lo.z hi.z h.2.2
    have := H ⟨x, y, z⟩ ⟨x1, x2, y1, y2, z1, z2⟩
    rw [hl, hr, le_max_iff] at this
    have abs_of : ∀ {a c : ℝ}, c * c ≤ a * a → |c| ≤ |a| := fun q => sq_le_sq.1 (by nlinarith)
    have up : ∀ {a b c : ℝ}, a * a = c * c → b * b ≤ c * c → |b| ≤ |a| := fun e q => abs_of (by linarith)
    rcases this with q | q
    · rw [Real.sqrt_le_sqrt_iff (by nlinarith [mul_self_nonneg lo.x, mul_self_nonneg lo.y, mul_self_nonneg lo.z])] at q
      simp only at q
      exact .inr ⟨up (by linarith) x4, up (by linarith) y4, up (by linarith) z4⟩
    · rw [Real.sqrt_le_sqrt_iff (by nlinarith [mul_self_nonneg hi.x, mul_self_nonneg hi.y, mul_self_nonneg hi.z])] at q
      simp only at q
      exact .inl ⟨up (by linarith) x3, up (by linarith) y3, up (by linarith) z3⟩
  · obtain ⟨a1, a2, a3, a4, a5, a6⟩ := hp
    have x := sq a1 a2
    have y := sq a3 a4
    have z := sq a5 a6
    have two : ∀ a b : ℝ, max (a * a) (b * b) ≤ a * a + b * b := fun a b =>
      max_le (by nlinarith [mul_self_nonneg b]) (by nlinarith [mul_self_nonneg a])
    have x' := two lo.x hi.x
    have y' := two lo.y hi.y
    have z' := two lo.z hi.z
    rw [hl, hr]
    rcases le_total (lo.x * lo.x + lo.y * lo.y + lo.z * lo.z) (hi.x * hi.x + hi.y * hi.y + hi.z * hi.z) with q | q
    · rw [max_eq_right (Real.sqrt_le_sqrt q), ← Real.sqrt_mul (by norm_num)]
      exact Real.sqrt_le_sqrt (by linarith)
    · rw [max_eq_left (Real.sqrt_le_sqrt q), ← Real.sqrt_mul (by norm_num)]
      exact Real.sqrt_le_sqrt (by linarith)

/-- C28 case: a box symmetric about the origin. -/
example : Proper ⟨-1, -2, -3⟩ ⟨1, 2, 3⟩ ∧ |(-1:ℝ)| ≤ |1| ∧ |(-2:ℝ)| ≤ |2| ∧ |(-3:ℝ)| ≤ |3| := by
  norm_num [Proper]

/-- C28 is violated by the code: a proper box with a point farther away than `getMaxRadius`. -/
theorem C28_max_radius_wrong :
    Proper ⟨-3, 0, 0⟩ ⟨0, 4, 0⟩ ∧ InBox ⟨-3, 0, 0⟩ ⟨0, 4, 0⟩ ⟨-3, 4, 0⟩ ∧
    (Box.new ⟨-3, 0, 0⟩ ⟨0, 4, 0⟩).getMaxRadius = 4 ∧ Spec.dist ⟨-3, 4, 0⟩ ⟨0, 0, 0⟩ = 5 := by
  refine ⟨by norm_num [Proper], by norm_num [InBox], ?_, ?_⟩
  · have e : (Box.new ⟨-3, 0, 0⟩ ⟨0, 4, 0⟩).getMaxRadius =
        max (Real.sqrt ((-3) * (-3) + 0 * 0 + 0 * 0)) (Real.sqrt (0 * 0 + 4 * 4 + 0 * 0)) := rfl
    rw [e, show ((-3:ℝ)) * (-3) + 0 * 0 + 0 * 0 = 3 ^ 2 by norm_num,
      show (0:ℝ) * 0 + 4 * 4 + 0 * 0 = 4 ^ 2 by norm_num, Real.sqrt_sq (by norm_num),
      Real.sqrt_sq (by norm_num)]
    norm_num
  · unfold Spec.dist distSq
    rw [show ((-3:ℝ) - 0) ^ 2 + (4 - 0) ^ 2 + (0 - 0) ^ 2 = 5 ^ 2 by norm_num]
    exact Real.sqrt_sq (by norm_num)

/-! ## C29 -/

/-- C29: boxes stay well-formed under construction and `enclose`; after any sequence of `enclose`
calls the box contains its old contents and the image of every enclosed box, and is the smallest such
box. The poses are arbitrary affine transforms. -/
theorem C29_enclose (lo hi : Vec3) (h : Proper lo hi) (l : List (Box × Transform3))
    (hl : ∀ x ∈ l, BoxOk x.1) :
    let r := l.foldl (fun a x => a.enclose x.1 x.2) (Box.new lo hi)
    BoxOk r ∧ (∀ p, InBox lo hi p → InBox r.lo r.hi p) ∧
    (∀ x ∈ l, ∀ q, InBox x.1.lo x.1.hi q → InBox r.lo r.hi (x.2.apply q)) ∧
    (∀ lo' hi' : Vec3, (∀ p, InBox lo hi p → InBox lo' hi' p) →
      (∀ x ∈ l, ∀ q, InBox x.1.lo x.1.hi q → InBox lo' hi' (x.2.apply q)) →
      ∀ p, InBox r.lo r.hi p → InBox lo' hi' p) := by
  have hnew : BoxOk (Box.new lo hi) := by
    refine ⟨h, ?_, [], ?_⟩
    · rw [Box.new, (generateMesh_points _).2.2]
      intro p hp
      simp [Mesh.new, Mesh.invalidateCache] at hp
      exact inBox_corners h p hp
    · rw [Box.new, (generateMesh_points _).2.2]; rfl
  have step : ∀ (a : Box) (x : Box × Transform3), BoxOk a → BoxOk x.1 →
      BoxOk (a.enclose x.1 x.2) ∧ (∀ p, InBox a.lo a.hi p → InBox (a.enclose x.1 x.2).lo (a.enclose x.1 x.2).hi p) ∧
      (∀ q, InBox x.1.lo x.1.hi q → InBox (a.enclose x.1 x.2).lo (a.enclose x.1 x.2).hi (x.2.apply q)) ∧
      (∀ lo' hi' : Vec3, (∀ p, InBox a.lo a.hi p → InBox lo' hi' p) →
        (∀ q, InBox x.1.lo x.1.hi q → InBox lo' hi' (x.2.apply q)) →
        ∀ p, InBox (a.enclose x.1 x.2).lo (a.enclose x.1 x.2).hi p → InBox lo' hi' p) := by
    rintro a ⟨b, T⟩ ⟨ha1, ha2, _⟩ ⟨hb1, hb2, old, hb3⟩
    have hpts : (b.mesh.getTransformed T).points = b.mesh.points.map T.apply := rfl
    obtain ⟨e1, e2, e3, e4, e5⟩ := enclosePoints (ps := b.mesh.points.map T.apply) (b := a)
    have r1 : (a.enclose b T).lo = ((b.mesh.points.map T.apply).foldl Box.enclosePoint a).lo := rfl
    have r2 : (a.enclose b T).hi = ((b.mesh.points.map T.apply).foldl Box.enclosePoint a).hi := rfl
    have r3 : (a.enclose b T).mesh.points = a.mesh.points ++ corners8 (a.enclose b T).lo (a.enclose b T).hi := by
      have := (generateMesh_points ((b.mesh.points.map T.apply).foldl Box.enclosePoint a)).2.2
      rw [e5] at this
      exact this
    rw [← r1, ← r2] at e1 e2 e3 e4
    refine ⟨⟨e4 ha1, ?_, _, r3⟩, e1, ?_, ?_⟩
    · rw [r3]
      intro p hp
      rcases List.mem_append.1 hp with hp | hp
      · exact e1 p (ha2 p hp)
      · exact inBox_corners (e4 ha1) p hp
    · intro q hq
      apply apply_inBox T hq
      intro c hc
      have : T.apply c ∈ b.mesh.points.map T.apply := by
        apply List.mem_map.2
        exact ⟨c, by rw [hb3]; simp [hc], rfl⟩
      exact (e2 _ this).resolve_right (fun h => h ha1)
    · intro lo' hi' h1 h2 p hp
      have l1 := h1 a.lo ⟨le_rfl, ha1.1, le_rfl, ha1.2.1, le_rfl, ha1.2.2⟩
      have l2 := h1 a.hi ⟨ha1.1, le_rfl, ha1.2.1, le_rfl, ha1.2.2, le_rfl⟩
      obtain ⟨g1, g2, g3, g4, g5, g6⟩ := e3 lo' hi' (by
        intro p hp
        obtain ⟨q, hq, rfl⟩ := List.mem_map.1 hp
        exact h2 q (hb2 q hq)) ⟨l1.1, l1.2.2.1, l1.2.2.2.2.1, l2.2.1, l2.2.2.2.1, l2.2.2.2.2.2⟩
      obtain ⟨p1, p2, p3, p4, p5, p6⟩ := hp
      exact ⟨g1.trans p1, p2.trans g4, g2.trans p3, p4.trans g5, g3.trans p5, p6.trans g6⟩
  have gen : ∀ (l : List (Box × Transform3)) (a : Box), BoxOk a → (∀ x ∈ l, BoxOk x.1) →
      let r := l.foldl (fun a x => a.enclose x.1 x.2) a
      BoxOk r ∧ (∀ p, InBox a.lo a.hi p → InBox r.lo r.hi p) ∧
      (∀ x ∈ l, ∀ q, InBox x.1.lo x.1.hi q → InBox r.lo r.hi (x.2.apply q)) ∧
      (∀ lo' hi' : Vec3, (∀ p, InBox a.lo a.hi p → InBox lo' hi' p) →
        (∀ x ∈ l, ∀ q, InBox x.1.lo x.1.hi q → InBox lo' hi' (x.2.apply q)) →
        ∀ p, InBox r.lo r.hi p → InBox lo' hi' p) := by
    intro l
    induction l with
    | nil =>
      intro a ha _
      refine ⟨ha, fun p hp => hp, ?_, fun _ _ h1 _ => h1⟩
      simp
    | cons x l ih =>
      intro a ha hx
      obtain ⟨s1, s2, s3, s4⟩ := step a x ha (hx x (by simp))
      obtain ⟨i1, i2, i3, i4⟩ := ih _ s1 (fun y hy => hx y (by simp [hy]))
      refine ⟨i1, fun p hp => i2 p (s2 p hp), ?_, ?_⟩
      · intro y hy q hq
        rcases List.mem_cons.1 hy with rfl | hy
        · exact i2 _ (s3 q hq)
        · exact i3 y hy q hq
      · intro lo' hi' h1 h2
        apply i4
        · exact s4 lo' hi' h1 (h2 x (by simp))
        · exact fun y hy => h2 y (by simp [hy])
  exact gen l _ hnew hl

/-- C29: `setMesh` on a box always throws. -/
theorem C29_setMesh_throws (b : Box) (m : Mesh) : b.setMesh m = .error .exception := rfl

/-- C29 case: a fresh proper box satisfies the hypothesis on enclosed boxes. -/
example : ∀ x ∈ [(Box.new ⟨0, 0, 0⟩ ⟨1, 2, 3⟩, Transform3.identity)], BoxOk x.1 := by
  intro x hx
  simp at hx
  subst hx
  exact (C29_enclose ⟨0, 0, 0⟩ ⟨1, 2, 3⟩ (by norm_num [Proper]) [] (by simp)).1

/-! ## C30 -/

/-- C30 for boxes made by the constructor: the mesh has valid indices, is watertight, outward oriented, and its
signed volume is the product of the side lengths. Missing: boxes changed by `enclose`, for which the volume is wrong,
see `C30_enclose_wrong`. -/
theorem C30_mesh_partial (lo hi : Vec3) (h : Proper lo hi) :
    let m := (Box.new lo hi).mesh
    Watertight m.tris ∧ ∃ l, soup m.points m.tris = some l ∧
      (∀ c ∈ l, ∀ q, InBox lo hi q → side c q ≤ 0) ∧
      (l.map vol6).sum = 6 * ((hi.x - lo.x) * (hi.y - lo.y) * (hi.z - lo.z)) := by
  intro m
  have ht : m.tris = [⟨1, 0, 2⟩, ⟨1, 2, 3⟩, ⟨4, 5, 6⟩, ⟨6, 5, 7⟩, ⟨0, 4, 2⟩, ⟨2, 4, 6⟩, ⟨5, 1, 3⟩,
      ⟨5, 3, 7⟩, ⟨0, 1, 4⟩, ⟨4, 1, 5⟩, ⟨3, 2, 6⟩, ⟨3, 6, 7⟩] := by
    simp [m, Box.new, Box.generateMesh, Mesh.addPoint, Mesh.addTriangle, Mesh.invalidateCache, u32,
      Mesh.new]
  have hp : m.points = corners8 lo hi := by
    have := (generateMesh_points ⟨lo, hi, Mesh.new⟩).2.2
    exact this
  have hs : soup (corners8 lo hi) [⟨1, 0, 2⟩, ⟨1, 2, 3⟩, ⟨4, 5, 6⟩, ⟨6, 5, 7⟩, ⟨0, 4, 2⟩, ⟨2, 4, 6⟩,
      ⟨5, 1, 3⟩, ⟨5, 3, 7⟩, ⟨0, 1, 4⟩, ⟨4, 1, 5⟩, ⟨3, 2, 6⟩, ⟨3, 6, 7⟩] =
      (let p0 : Vec3 := ⟨lo.x, lo.y, lo.z⟩
       let p1 : Vec3 := ⟨hi.x, lo.y, lo.z⟩
       let p2 : Vec3 := ⟨lo.x, hi.y, lo.z⟩
       let p3 : Vec3 := ⟨hi.x, hi.y, lo.z⟩
       let p4 : Vec3 := ⟨lo.x, lo.y, hi.z⟩
       let p5 : Vec3 := ⟨hi.x, lo.y, hi.z⟩
       let p6 : Vec3 := ⟨lo.x, hi.y, hi.z⟩
       let p7 : Vec3 := ⟨hi.x, hi.y, hi.z⟩
       some [(p1, p0, p2), (p1, p2, p3), (p4, p5, p6), (p6, p5, p7), (p0, p4, p2), (p2, p4, p6),
        (p5, p1, p3), (p5, p3, p7), (p0, p1, p4), (p4, p1, p5), (p3, p2, p6), (p3, p6, p7)]) := rfl
  rw [ht, hp]
  refine ⟨by unfold Watertight edges; decide, _, hs, ?_, ?_⟩
  · obtain ⟨h1, h2, h3⟩ := h
    rintro c hc q ⟨q1, q2, q3, q4, q5, q6⟩
    have xy := mul_nonneg (sub_nonneg.2 h1) (sub_nonneg.2 h2)
    have yz := mul_nonneg (sub_nonneg.2 h2) (sub_nonneg.2 h3)
    have xz := mul_nonneg (sub_nonneg.2 h1) (sub_nonneg.2 h3)
    have m1 := mul_nonneg xy (sub_nonneg.2 q5)
    have m2 := mul_nonneg xy (sub_nonneg.2 q6)
    have m3 := mul_nonneg yz (sub_nonneg.2 q1)
    have m4 := mul_nonneg yz (sub_nonneg.2 q2)
    have m5 := mul_nonneg xz (sub_nonneg.2 q3)
    have m6 := mul_nonneg xz (sub_nonneg.2 q4)
    simp only [List.mem_cons, List.not_mem_nil, or_false] at hc
    rcases hc with rfl | rfl | rfl | rfl | rfl | rfl | rfl | rfl | rfl | rfl | rfl | rfl <;>
      simp only [side] <;> linarith
  · simp [vol6]
    ring

/-- C30 case. -/
example : Proper ⟨0, 0, 0⟩ ⟨1, 2, 3⟩ ∧ 6 * (((1:ℝ) - 0) * (2 - 0) * (3 - 0)) = 36 := by
  norm_num [Proper]

/-- C30, indices and closedness: after any sequence of calls of `enclose` (as long as indices fit 32 bits) all indices
are valid and the mesh is watertight. -/
theorem C30_enclose (lo hi : Vec3) (l : List (Box × Transform3)) (hl : 8 * (l.length + 1) ≤ 2 ^ 32) :
    let m := (l.foldl (fun a x => a.enclose x.1 x.2) (Box.new lo hi)).mesh
    Watertight m.tris ∧ ∀ t ∈ m.tris, t.i1 < m.points.length ∧ t.i2 < m.points.length ∧ t.i3 < m.points.length := by
  have gen : ∀ (l : List (Box × Transform3)) (a : Box) (c : List (Vec3 × Vec3 × Vec3)),
      a.mesh.points.length + 8 * l.length ≤ 2 ^ 32 → Watertight a.mesh.tris →
      soup a.mesh.points a.mesh.tris = some c →
      let m := (l.foldl (fun a x => a.enclose x.1 x.2) a).mesh
      Watertight m.tris ∧ ∃ d, soup m.points m.tris = some d := by
    intro l
    induction l with
    | nil => exact fun a c _ hw hs => ⟨hw, c, hs⟩
    | cons x l ih =>
      intro a c hb hw hs
      simp only [List.length_cons] at hb
      obtain ⟨s1, s2, s3⟩ := enclose_step x.1 x.2 (by omega) hw hs
      exact ih _ _ (by rw [s3]; omega) s1 s2
  obtain ⟨n1, n2, n3⟩ := new_mesh lo hi
  obtain ⟨g1, d, g2⟩ := gen l _ _ (by rw [n3]; omega) n1 n2
  exact ⟨g1, soup_lt g2⟩

/-- C30, volume after one `enclose`: the surface of the old box stays in the mesh, so the signed volume is that of the
old box and the new box together (src/Box.cpp:130,160-197 adds to the mesh without clearing it). -/
theorem C30_enclose_volume (lo hi : Vec3) (o : Box) (T : Transform3) :
    let r := (Box.new lo hi).enclose o T
    ∃ l, soup r.mesh.points r.mesh.tris = some l ∧
      (l.map vol6).sum = 6 * ((hi.x - lo.x) * (hi.y - lo.y) * (hi.z - lo.z)) +
        6 * ((r.hi.x - r.lo.x) * (r.hi.y - r.lo.y) * (r.hi.z - r.lo.z)) := by
  obtain ⟨n1, n2, n3⟩ := new_mesh lo hi
  obtain ⟨_, s2, _⟩ := enclose_step o T (by rw [n3]; norm_num) n1 n2
  refine ⟨_, s2, ?_⟩
  rw [List.map_append, List.sum_append, boxSoup_vol, boxSoup_vol]

/-- C30 is violated after `enclose`: a unit box enclosing anything has a mesh whose signed volume is not the volume of
the box. The witness encloses a box inside itself, so the box does not even change. -/
theorem C30_enclose_wrong :
    ∃ (lo hi : Vec3) (o : Box) (T : Transform3), Proper lo hi ∧
      let r := (Box.new lo hi).enclose o T
      Proper r.lo r.hi ∧ ∀ l, soup r.mesh.points r.mesh.tris = some l →
        (l.map vol6).sum ≠ 6 * ((r.hi.x - r.lo.x) * (r.hi.y - r.lo.y) * (r.hi.z - r.lo.z)) := by
  have hp : Proper (⟨0, 0, 0⟩ : Vec3) ⟨1, 1, 1⟩ := ⟨by norm_num, by norm_num, by norm_num⟩
  refine ⟨⟨0, 0, 0⟩, ⟨1, 1, 1⟩, Box.new ⟨0, 0, 0⟩ ⟨1, 1, 1⟩, Transform3.identity, hp, ?_, ?_⟩
  · have hn := (C29_enclose ⟨0, 0, 0⟩ ⟨1, 1, 1⟩ hp [] (by simp)).1
    exact (C29_enclose ⟨0, 0, 0⟩ ⟨1, 1, 1⟩ hp [(Box.new ⟨0, 0, 0⟩ ⟨1, 1, 1⟩, Transform3.identity)]
      (by intro x hx; rw [List.mem_singleton.1 hx]; exact hn)).1.1
  · intro l hl
    obtain ⟨k, hk, hv⟩ := C30_enclose_volume ⟨0, 0, 0⟩ ⟨1, 1, 1⟩ (Box.new ⟨0, 0, 0⟩ ⟨1, 1, 1⟩) Transform3.identity
    rw [hk] at hl
    obtain rfl := Option.some.inj hl
    rw [hv]
    norm_num

/-- C30 case: three enclosed boxes meet the size condition. -/
example : 8 * (([(Box.new ⟨0, 0, 0⟩ ⟨1, 2, 3⟩, Transform3.identity), (Box.new ⟨0, 0, 0⟩ ⟨2, 2, 3⟩, Transform3.identity),
    (Box.new ⟨-1, 0, 0⟩ ⟨1, 2, 3⟩, Transform3.identity)] : List (Box × Transform3)).length + 1) ≤ 2 ^ 32 := by
  norm_num

end Geo
