import Verif.Lemmas.RoundedOctreeRayOne
import Verif.Props.RoundedOctree
import Verif.Lemmas.RoundedOctreeReached

/-!
# Property theorems C140: rays through octrees in floating point arithmetic
-/

namespace Geo
open Spec OctreeRay

/-- Without rounding the function is that of `Model/Octree`. -/
theorem C140_exact (t : Octree) (r : Ray) (t0 t1 d : ℝ) : Rounded.octRay id id t r t0 t1 d = t.intersectRay r t0 t1 d := by
  unfold Rounded.octRay Octree.intersectRay
  simp only [nodeRay_id]
  rfl

/-- C140, partial: full statement: every query with a ray comes to an end, and its answer is yes only if the ray meets a cube. Here, for all roundings:
the answer is yes only if there is a cube. Missing: that the ray comes near it, see `C140_near_partial`, and that the query comes to an end, see
`C140_ends_partial` and `C140_far_wrong`. -/
theorem C140_yes_partial (rnd toF : ℝ → ℝ) (t : Octree) (r : Ray) (t0 t1 d d' : ℝ) (h : Rounded.octRay rnd toF t r t0 t1 d = .ok (true, d')) :
    Rounded.octCubes rnd t ≠ [] := by
  unfold Rounded.octRay at h
  simp only at h
  split_ifs at h
  · simp at h
  · obtain ⟨n, hn⟩ := unbounded_ok h
    exact nodeRay_yes rnd toF _ n _ _ _ _ _ _ hn _

/-- C140 fails for distant rays: with the roundings to `double` and `float`, the query with a ray from 2^25 + 1/2 before the centre of the empty tree with
one cell of size 1 does not come to an end: the place on the ray is a `float`, and the step beyond the cell is rounded away. -/
theorem C140_far_wrong (d : ℝ) : ∃ t, Rounded.octNew toDouble 1 1 = .ok t ∧ Rounded.octCubes toDouble t = [] ∧
    Rounded.octRay toDouble toFloat t (Rounded.rayNew toDouble ⟨-(2 ^ 25 + 1 / 2), 0, 0⟩ ⟨1, 1 / 2 ^ 29, 1 / 2 ^ 29⟩) 0 (2 ^ 26) d = .error .hang := by
  have h := Octree.new_eq (size := 1) (r := 1) 0 (by norm_num) (by simp)
  have h' := (Octree.octNew_eq d1 1).trans h
  refine ⟨_, h', by simp [Rounded.octCubes, OctNode.new, Rounded.nodeCubes, OctNode.octants], ?_⟩
  have a1 : toDouble (1 / 2) = 1 / 2 := dbl' 1 1 (by norm_num) (by norm_num)
  have g25 : toDouble (2 ^ 25) = 2 ^ 25 := dbl' (2 ^ 25) 0 (by norm_num) (by norm_num)
  have o1 : Rounded.sub toDouble ⟨-(2 ^ 25 + 1 / 2), 0, 0⟩ ⟨-1 / 2, -1 / 2, -1 / 2⟩ = ⟨-2 ^ 25, 1 / 2, 1 / 2⟩ := by
    simp only [Rounded.sub]
    rw [show (-(2 ^ 25 + 1 / 2) - -1 / 2 : ℝ) = -2 ^ 25 by norm_num, show (0 - -1 / 2 : ℝ) = 1 / 2 by norm_num, toDouble_minus g25, a1]
  have r1 : (1 : ℝ) / 2 ^ 0 = 1 := by norm_num
  have hstart : toFloat (toDouble (toDouble (0 + max (2 ^ 25) 0) + toDouble (1 * toDouble 0.1))) = 2 ^ 25 := by
    rw [max_eq_left (by norm_num), zero_add, g25]
    exact stays (by linarith [tenth.1]) (by linarith [tenth.2])
  unfold Rounded.octRay
  simp only [hit_witness, r1, hstart, Bool.not_true, Bool.false_eq_true, if_false]
  unfold unbounded
  rw [dif_neg]
  rintro ⟨n, hn⟩
  apply hn
  rw [ray_dir]
  simp only [o1]
  exact stuck n _ _

/-- C140 case: the same ray and tree, with a point added. -/
example (d : ℝ) : ∃ t0 t, Rounded.octNew toDouble 1 1 = .ok t0 ∧ Rounded.octAdd toDouble t0 ⟨0, 0, 0⟩ = .ok t ∧
    Rounded.octRay toDouble toFloat t (Rounded.rayNew toDouble ⟨-(2 ^ 25 + 1 / 2), 0, 0⟩ ⟨1, 1 / 2 ^ 29, 1 / 2 ^ 29⟩) 0 (2 ^ 26) d = .ok (true, d) := by
  have h := Octree.new_eq (size := 1) (r := 1) 0 (by norm_num) (by simp)
  have h' := (Octree.octNew_eq d1 1).trans h
  have r1 : (1 : ℝ) / 2 ^ 0 = 1 := by norm_num
  rw [r1] at h'
  refine ⟨_, _, h', by unfold Rounded.octAdd; simp only [add_one, bind, Except.bind, pure, Except.pure]; rfl, ?_⟩
  unfold Rounded.octRay
  simp only [hit_witness, Bool.not_true, Bool.false_eq_true, if_false]
  refine Tools.unbounded_eq (n := 1) (fun n => ?_) (by simp only [Rounded.nodeRay, if_true])
  cases n with
  | zero => left; simp only [Rounded.nodeRay]
  | succ n => right; simp only [Rounded.nodeRay, if_true]

/-- C140, partial: with the roundings to `double` and `float`, every query with a ray comes to an end without a fault, after every history of additions of
any points and clearings, if the ray begins near enough to the tree: the coordinates of its origin and twice the size of the tree together are at most
2^15 times the size of a cell. Missing: rays from further away, see `C140_far_wrong`; negative starts of the range. -/
theorem C140_ends_partial (size request : ℝ) (hs : toDouble size = size) (hpos : 0 < size) (hr : 0 < request) (t0 : Octree)
    (h0 : Rounded.octNew toDouble size request = .ok t0) (h1 : 1e-10 ≤ t0.resolution) (h2 : t0.resolution ≤ 2 ^ 19) (ops : List (Option Vec3))
    (o d e : Vec3) (he : UnitAlong d e) (B : ℝ) (hB : |o.x| ≤ B ∧ |o.y| ≤ B ∧ |o.z| ≤ B) (hT : B + 2 * size ≤ 2 ^ 15 * t0.resolution) (s0 s1 d0 : ℝ)
    (hs0 : 0 ≤ s0) : ∃ t hit d', Rounded.octRun toDouble ops t0 = .ok t ∧
      Rounded.octRay toDouble toFloat t (Rounded.rayNew toDouble o d) s0 s1 d0 = .ok (hit, d') := by
  obtain ⟨u, e1, -⟩ := C137_nearest size request hs hpos hr t0 h0 h1 h2 ops
  obtain ⟨k, hg, hres⟩ := reached hs hpos hr h0 h1 h2 e1
  obtain ⟨hit, d', hh⟩ := octRay_ends hg hs he hB (by rw [hres]; exact hT) hs0 s1 d0
  exact ⟨u, hit, d', e1, hh⟩

/-- C140 case: the tree with one cell, a point added and cleared, and a ray from 30000 cells away. -/
example (d0 : ℝ) : ∃ t0 t hit d', Rounded.octNew toDouble 1 1 = .ok t0 ∧ Rounded.octRun toDouble [some ⟨0, 0, 0⟩, none] t0 = .ok t ∧
    Rounded.octRay toDouble toFloat t (Rounded.rayNew toDouble ⟨-30000, 0, 0⟩ ⟨3, 0, -4⟩) 0 (2 ^ 26) d0 = .ok (hit, d') := by
  have h := Octree.new_eq (size := 1) (r := 1) 0 (by norm_num) (by simp)
  have h' := (Octree.octNew_eq d1 1).trans h
  obtain ⟨t, hit, d', h1, h2⟩ := C140_ends_partial 1 1 d1 (by norm_num) (by norm_num) _ h' (by norm_num) (by norm_num) [some ⟨0, 0, 0⟩, none]
    ⟨-30000, 0, 0⟩ ⟨3, 0, -4⟩ ⟨3 / 5, 0, -4 / 5⟩ ⟨by norm_num, 5, by norm_num, by norm_num, by norm_num, by norm_num⟩ 30000 (by norm_num) (by norm_num)
    0 (2 ^ 26) d0 le_rfl
  exact ⟨_, t, hit, d', h', h1, h2⟩

/-- C140, partial: under the conditions of `C140_ends_partial`, for trees with more than one cell, the answer is yes only if the ray comes near a cube of the
tree: within a thirty-second of a cell, and not before the start of the range. Missing: trees with one cell, see `C140_one_partial`; rays from further away;
negative starts of the range; that the ray comes near the cube before the end of the range, which fails in exact arithmetic already (`C39_range_wrong`). -/
theorem C140_near_partial (size request : ℝ) (hs : toDouble size = size) (hpos : 0 < size) (hr : 0 < request) (t0 : Octree)
    (h0 : Rounded.octNew toDouble size request = .ok t0) (h1 : 1e-10 ≤ t0.resolution) (h2 : t0.resolution ≤ 2 ^ 19) (ops : List (Option Vec3)) (t : Octree)
    (ht : Rounded.octRun toDouble ops t0 = .ok t) (o d e : Vec3) (he : UnitAlong d e) (B : ℝ) (hB : |o.x| ≤ B ∧ |o.y| ≤ B ∧ |o.z| ≤ B)
    (hT : B + 2 * size ≤ 2 ^ 15 * t0.resolution) (hc : t0.resolution < size) (s0 s1 d0 d' : ℝ) (hs0 : 0 ≤ s0)
    (hit : Rounded.octRay toDouble toFloat t (Rounded.rayNew toDouble o d) s0 s1 d0 = .ok (true, d')) :
    ∃ b ∈ Rounded.octCubes toDouble t, ∃ s, s0 ≤ s ∧ InWide (t0.resolution / 32) b (along o e s) := by
  obtain ⟨k, hg, hres⟩ := reached hs hpos hr h0 h1 h2 ht
  rw [← hres] at hT hc ⊢
  exact octRay_near hg hs he hB hT hc hs0 hit

/-- C140 case: the tree with eight cells, a point in the last of them, and a ray from that point: the answer is yes. -/
example (d0 : ℝ) : ∃ t0 t d' e, Rounded.octNew toDouble 2 1 = .ok t0 ∧ t0.resolution < 2 ∧
    Rounded.octRun toDouble [some ⟨1 / 2, 1 / 2, 1 / 2⟩] t0 = .ok t ∧ UnitAlong ⟨1, 1 / 2 ^ 29, 1 / 2 ^ 29⟩ e ∧
    Rounded.octRay toDouble toFloat t (Rounded.rayNew toDouble ⟨1 / 2, 1 / 2, 1 / 2⟩ ⟨1, 1 / 2 ^ 29, 1 / 2 ^ 29⟩) 0 1 d0 = .ok (true, d') := by
  have h := Octree.new_eq (size := 2) (r := 1) 1 (by norm_num) (by simp)
  have h' := (Octree.octNew_eq d2 1).trans h
  rw [show (2 / 2 ^ 1 : ℝ) = 1 by norm_num] at h'
  obtain ⟨e, he⟩ := long_along (v := ⟨1, 1 / 2 ^ 29, 1 / 2 ^ 29⟩) (Or.inl (by norm_num))
  refine ⟨_, _, d0, e, h', by norm_num, by
    simp only [Rounded.octRun, Rounded.octAdd, Rounded.sub, three_half, add_two, bind, Except.bind, pure, Except.pure]; rfl, he, ?_⟩
  have z : toDouble (1 / 2) = 1 / 2 := dbl' 1 1 (by norm_num) (by norm_num)
  have z' : toFloat (1 / 2) = 1 / 2 := flt (2 ^ 23) (-24) (by norm_num) (by norm_num) (by norm_num)
  have hst : 0 ≤ toFloat (toDouble (toDouble (0 + max (-(3 / 2)) 0) + toDouble (1 * toDouble 0.1))) ∧
      toFloat (toDouble (toDouble (0 + max (-(3 / 2)) 0) + toDouble (1 * toDouble 0.1))) ≤ 1 / 2 := by
    rw [max_eq_right (by norm_num), add_zero, toDouble_zero, zero_add]
    have w := toDouble_range toDouble_zero z tenth.1 tenth.2
    exact ⟨float_nonneg w.1, (toFloat_mono w.2).trans z'.le⟩
  unfold Rounded.octRay
  simp only [hit_two, Bool.not_true, Bool.false_eq_true, if_false]
  have := search_two hst.1 hst.2 1 d0
  rw [ray_dir]
  simp only [Rounded.sub, three_half]
  exact this

/-- C140, partial: the same for trees with one cell, for rays that are nearly parallel to no coordinate plane; here the ray comes near the cube within the
range. Missing: rays that are nearly parallel to a coordinate plane, empty ranges, and what is missing in `C140_near_partial`. -/
theorem C140_one_partial (size request : ℝ) (hs : toDouble size = size) (hpos : 0 < size) (hr : 0 < request) (t0 : Octree)
    (h0 : Rounded.octNew toDouble size request = .ok t0) (h1 : 1e-10 ≤ t0.resolution) (h2 : t0.resolution ≤ 2 ^ 19) (ops : List (Option Vec3)) (t : Octree)
    (ht : Rounded.octRun toDouble ops t0 = .ok t) (o d e : Vec3) (he : UnitAlong d e)
    (hob : 1.1e-9 ≤ |e.x| ∧ 1.1e-9 ≤ |e.y| ∧ 1.1e-9 ≤ |e.z|) (B : ℝ) (hB : |o.x| ≤ B ∧ |o.y| ≤ B ∧ |o.z| ≤ B)
    (hT : B + 2 * size ≤ 2 ^ 15 * t0.resolution) (hc : t0.resolution = size) (s0 s1 d0 d' : ℝ) (hs0 : 0 ≤ s0) (hs1 : s0 < s1)
    (hit : Rounded.octRay toDouble toFloat t (Rounded.rayNew toDouble o d) s0 s1 d0 = .ok (true, d')) :
    ∃ b ∈ Rounded.octCubes toDouble t, ∃ s, s0 < s ∧ s < s1 ∧ InWide (t0.resolution / 32) b (along o e s) := by
  obtain ⟨k, hg, hres⟩ := reached hs hpos hr h0 h1 h2 ht
  exact hc ▸ octRay_one hg hs he hob hB (by rw [hres]; exact hT) (hres.trans hc) hs0 hs1 (C140_yes_partial _ _ _ _ _ _ _ _ hit) hit

/-- C140 case: the tree with one cell and a point, seen from 1000 cells away. -/
example : UnitAlong ⟨1, 2, 2⟩ ⟨1 / 3, 2 / 3, 2 / 3⟩ ∧ ∃ t0 t, Rounded.octNew toDouble 1 1 = .ok t0 ∧
    Rounded.octRun toDouble [some ⟨0, 0, 0⟩] t0 = .ok t ∧ t0.resolution = 1 ∧
    ∃ d', Rounded.octRay toDouble toFloat t (Rounded.rayNew toDouble ⟨-1000, -2000, -2000⟩ ⟨1, 2, 2⟩) 0 4000 0 = .ok (true, d') := by
  refine ⟨⟨by norm_num, 3, by norm_num, by norm_num, by norm_num, by norm_num⟩, ?_⟩
  have h := Octree.new_eq (size := 1) (r := 1) 0 (by norm_num) (by simp)
  have h' := (Octree.octNew_eq d1 1).trans h
  have r1 : (1 : ℝ) / 2 ^ 0 = 1 := by norm_num
  rw [r1] at h'
  refine ⟨_, _, h', by simp only [Rounded.octRun, Rounded.octAdd, add_one, bind, Except.bind, pure, Except.pure]; rfl, rfl, 0, ?_⟩
  have hb := (C122_ray C93_roundings.1 toDouble_mono C93_roundings.2 toFloat_mono (by norm_num) (by norm_num) (lo := ⟨-1 / 2, -1 / 2, -1 / 2⟩)
    (hi := ⟨1 / 2, 1 / 2, 1 / 2⟩) (o := ⟨-1000, -2000, -2000⟩) (d := ⟨1, 2, 2⟩) (e := ⟨1 / 3, 2 / 3, 2 / 3⟩) ⟨by norm_num, by norm_num, by norm_num⟩
    ⟨by norm_num, 3, by norm_num, by norm_num, by norm_num, by norm_num⟩
    ⟨by norm_num [abs_of_pos], by norm_num [abs_of_pos], by norm_num [abs_of_pos]⟩ 0 4000 0 (by norm_num)).2.1 3000 _ (by norm_num) (by norm_num) rfl
    (by
      rw [abs_of_pos (by norm_num : (0 : ℝ) < 3000)]
      refine ⟨?_, ?_, ?_, ?_, ?_, ?_⟩ <;> norm_num [along])
  unfold Rounded.octRay
  simp only [hb, Bool.not_true, Bool.false_eq_true, if_false]
  refine Tools.unbounded_eq (n := 1) (fun n => ?_) (by simp only [Rounded.nodeRay, if_true])
  cases n with
  | zero => left; simp only [Rounded.nodeRay]
  | succ n => right; simp only [Rounded.nodeRay, if_true]

end Geo
