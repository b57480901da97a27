import Verif.Lemmas.RoundedOctreeOutside
import Verif.Props.RoundedOctreeQueries

/-!
# Property theorems C137: points outside of octrees in floating point arithmetic
-/

namespace Geo
open Spec

/-- C137, histories: with roundings to `double`, any points, in the tree or not, leave the same tree as the points of the tree nearest to them. -/
theorem C137_nearest (size request : ℝ) (hs : toDouble size = size) (hpos : 0 < size) (hr : 0 < request) (t0 : Octree)
    (h0 : Rounded.octNew toDouble size request = .ok t0) (h1 : 1e-10 ≤ t0.resolution) (h2 : t0.resolution ≤ 2 ^ 19)
    (ops : List (Option Vec3)) :
    ∃ t, Rounded.octRun toDouble ops t0 = .ok t ∧ Rounded.octRun toDouble (ops.map (Option.map (clampTo size))) t0 = .ok t := by
  have h0' : Octree.new size request = .ok t0 := by rw [← Octree.octNew_eq hs]; exact h0
  obtain ⟨k, hg, -⟩ := Octree.good_new hr h0' h1
  clear h0 h0' h1
  induction ops generalizing t0 with
  | nil => exact ⟨t0, rfl, rfl⟩
  | cons o ops ih =>
    cases o with
    | none =>
      obtain ⟨t, e1, e2⟩ := ih t0.clear h2 (Octree.clear_good hg).1
      exact ⟨t, e1, e2⟩
    | some p =>
      have a0 := Octree.octAdd_clamp hg hs h2 p
      have a1 := Octree.octAdd_snap hg hs h2 (clamp_in hpos p)
      obtain ⟨t1, b1, b2, b3, -⟩ := Octree.add_good hg (Octree.snap3 size (clampTo size p))
      obtain ⟨t, e1, e2⟩ := ih t1 (by rw [b3]; exact h2) b2
      refine ⟨t, ?_, ?_⟩
      · simp only [Rounded.octRun, a0, a1, b1, bind, Except.bind]
        exact e1
      · simp only [List.map_cons, Option.map_some, Rounded.octRun, a1, b1, bind, Except.bind]
        exact e2

/-- C137, cubes: after any additions and clearings, the point of the tree nearest to a point added since the last clearing is in one of the listed
cubes, each listed cube holds such a point, up to (levels + 2) size / 2^53, and a box that holds such a point is found. -/
theorem C137_points (size request : ℝ) (hs : toDouble size = size) (hpos : 0 < size) (hr : 0 < request) (t0 : Octree)
    (h0 : Rounded.octNew toDouble size request = .ok t0) (h1 : 1e-10 ≤ t0.resolution) (h2 : t0.resolution ≤ 2 ^ 19)
    (ops : List (Option Vec3)) (N : ℕ) (hN : t0.resolution * 2 ^ N = size) (hN' : N ≤ 2 ^ 52) :
    ∃ t, Rounded.octRun toDouble ops t0 = .ok t ∧
      (∀ p ∈ kept ops [], ∃ b ∈ Rounded.octCubes toDouble t, InWide ((N + 2) * (size / 2 ^ 53)) b (clampTo size p)) ∧
      (∀ b ∈ Rounded.octCubes toDouble t, ∃ p ∈ kept ops [], InWide ((N + 2) * (size / 2 ^ 53)) b (clampTo size p)) ∧
      ∀ b : Box, ∀ p ∈ kept ops [], InBox b.lo b.hi (clampTo size p) → Rounded.octBox toDouble t b = true := by
  obtain ⟨t, e1, e2⟩ := C137_nearest size request hs hpos hr t0 h0 h1 h2 ops
  have hp : ∀ p, some p ∈ ops.map (Option.map (clampTo size)) →
      InBox ⟨-size / 2, -size / 2, -size / 2⟩ ⟨size / 2, size / 2, size / 2⟩ p := by
    intro p h
    obtain ⟨o, -, ho⟩ := List.mem_map.1 h
    cases o with
    | none => cases ho
    | some q =>
      simp only [Option.map_some, Option.some.injEq] at ho
      exact ho ▸ clamp_in hpos q
  have hk := Octree.kept_map (clampTo size) ops []
  rw [List.map_nil] at hk
  obtain ⟨t1, f1, f2, f3⟩ := C120_points size request hs hpos hr t0 h0 h1 h2 _ hp N hN hN'
  obtain ⟨t2, g1, g2⟩ := C136_added size request hs hpos hr t0 h0 h1 h2 _ hp
  rw [e2, Except.ok.injEq] at f1 g1
  subst f1 g1
  rw [hk] at f2 f3 g2
  refine ⟨t, e1, fun p h => f2 _ (List.mem_map_of_mem h), fun b hb => ?_, fun b p h => g2 b _ (List.mem_map_of_mem h)⟩
  obtain ⟨p', q1, q2⟩ := f3 b hb
  obtain ⟨p, q3, rfl⟩ := List.mem_map.1 q1
  exact ⟨p, q3, q2⟩

/-- C137, no trace outside: a box that is beyond the tree is never found, whatever was added there, and a point beyond the tree is never
contained. -/
theorem C137_beyond (size request : ℝ) (hs : toDouble size = size) (hpos : 0 < size) (hr : 0 < request) (t0 : Octree)
    (h0 : Rounded.octNew toDouble size request = .ok t0) (h1 : 1e-10 ≤ t0.resolution) (h2 : t0.resolution ≤ 2 ^ 19)
    (ops : List (Option Vec3)) :
    ∃ t, Rounded.octRun toDouble ops t0 = .ok t ∧
      (∀ b : Box, (∀ q, InBox b.lo b.hi q → clampTo size q ≠ q) → Proper b.lo b.hi → Rounded.octBox toDouble t b = false) ∧
      ∀ q, clampTo size q ≠ q → Rounded.octContains toDouble t q = false := by
  obtain ⟨t, e1, e2⟩ := C137_nearest size request hs hpos hr t0 h0 h1 h2 ops
  have h0' : Octree.new size request = .ok t0 := by rw [← Octree.octNew_eq hs]; exact h0
  obtain ⟨k, hg0, -, hm, -⟩ := Octree.good_new hr h0' h1
  obtain ⟨t1, f1, -, hg, -⟩ := Octree.octRun_snap hs (ops.map (Option.map (clampTo size))) t0 hg0 h2 (by
    intro p h
    obtain ⟨o, -, ho⟩ := List.mem_map.1 h
    cases o with
    | none => cases ho
    | some q =>
      simp only [Option.map_some, Option.some.injEq] at ho
      exact ho ▸ clamp_in hpos q) (by rw [hm]; rfl) (by rw [hm]; rfl)
  rw [e2, Except.ok.injEq] at f1
  subst f1
  have fix : ∀ q : Vec3, InBox ⟨-size / 2, -size / 2, -size / 2⟩ ⟨size / 2, size / 2, size / 2⟩ q → clampTo size q = q := by
    rintro ⟨x, y, z⟩ ⟨a1, a2, a3, a4, a5, a6⟩
    simp only at a1 a2 a3 a4 a5 a6
    simp only [clampTo, min_eq_left a2, min_eq_left a4, min_eq_left a6, max_eq_right a1, max_eq_right a3, max_eq_right a5]
  refine ⟨t, e1, fun b hb hp => ?_, fun q hq => ?_⟩
  · unfold Rounded.octBox
    rw [if_pos]
    by_contra hc
    rw [hg.off, hg.max] at hc
    push Not at hc
    obtain ⟨c1, c2, c3, c4, c5, c6⟩ := hc
    refine hb ⟨max b.lo.x (-size / 2), max b.lo.y (-size / 2), max b.lo.z (-size / 2)⟩
      ⟨le_max_left _ _, max_le hp.1 c1, le_max_left _ _, max_le hp.2.1 c2, le_max_left _ _, max_le hp.2.2 c3⟩ (fix _ ?_)
    exact ⟨le_max_right _ _, max_le c4 (by linarith), le_max_right _ _, max_le c5 (by linarith), le_max_right _ _, max_le c6 (by linarith)⟩
  · unfold Rounded.octContains
    rw [if_pos]
    by_contra hc
    rw [hg.off, hg.max] at hc
    push Not at hc
    obtain ⟨c1, c2, c3, c4, c5, c6⟩ := hc
    exact hq (fix q ⟨c1, c4, c2, c5, c3, c6⟩)

/-- C137 case: a point far outside the tree of size 10 is listed in a cube at its border and not found where it is. -/
example : ∃ t0 t, Rounded.octRun toDouble [some ⟨1, 1, 1⟩, none, some ⟨70, -3, 4⟩] t0 = .ok t ∧
    (∃ b ∈ Rounded.octCubes toDouble t, InWide (4 * (10 / 2 ^ 53)) b ⟨5, -3, 4⟩) ∧
    Rounded.octBox toDouble t (Box.new ⟨4.9, -4, 3⟩ ⟨5, -2, 5⟩) = true ∧ Rounded.octBox toDouble t (Box.new ⟨60, -4, 3⟩ ⟨80, -2, 5⟩) = false ∧
    Rounded.octContains toDouble t ⟨70, -3, 4⟩ = false := by
  obtain ⟨hd, t0, h1, -, h3⟩ := ten
  obtain ⟨t, e1, e2, -, e3⟩ := C137_points 10 3 hd (by norm_num) (by norm_num) t0 h1 (by rw [h3]; norm_num) (by rw [h3]; norm_num)
    [some ⟨1, 1, 1⟩, none, some ⟨70, -3, 4⟩] 2 (by rw [h3]; norm_num) (by norm_num)
  obtain ⟨t', f1, f2, f3⟩ := C137_beyond 10 3 hd (by norm_num) (by norm_num) t0 h1 (by rw [h3]; norm_num) (by rw [h3]; norm_num)
    [some ⟨1, 1, 1⟩, none, some ⟨70, -3, 4⟩]
  rw [e1, Except.ok.injEq] at f1
  subst f1
  have hc : clampTo 10 ⟨70, -3, 4⟩ = ⟨5, -3, 4⟩ := by norm_num [clampTo]
  obtain ⟨b, b1, b2⟩ := e2 ⟨70, -3, 4⟩ (by simp [kept])
  rw [hc] at b2
  refine ⟨t0, t, e1, ⟨b, b1, by norm_num at b2 ⊢; exact b2⟩, e3 _ ⟨70, -3, 4⟩ (by simp [kept]) ?_, f2 _ ?_ ?_, f3 _ ?_⟩
  · rw [hc, Box.new_lo, Box.new_hi]; norm_num [InBox]
  · rw [Box.new_lo, Box.new_hi]
    intro q hq h
    have hx := congrArg Vec3.x h
    have h60 := hq.1
    simp only [clampTo] at hx h60
    rw [← hx] at h60
    have : max (-10 / 2 : ℝ) (min q.x (10 / 2)) ≤ 5 := max_le (by norm_num) ((min_le_right _ _).trans (by norm_num))
    linarith
  · rw [Box.new_lo, Box.new_hi]; norm_num [Proper]
  · rw [hc]; simp

end Geo
