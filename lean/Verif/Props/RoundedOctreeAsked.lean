import Verif.Lemmas.RoundedOctreeRuns
import Verif.Props.RoundedOctreeSame

/-!
# Property theorems C139: in floating point arithmetic asking an octree for its mesh changes no answer
-/

namespace Geo
open Spec

/-- C139, partial: full statement: as below, with the last equation for all calls. Missing: that equation after a call for the bounding box, see
`C139_bounding_box_wrong`. With any rounding, an octree that is asked for its mesh and its bounding box between additions and clearings answers afterwards as an octree
that was never asked: the same cubes in the same order, the same answers for every point and every box, and the same mesh; and the same
bounding box, if it was not asked for its bounding box before. -/
theorem C139_asked_partial (rnd : ℝ → ℝ) (size request : ℝ) (t0 t : Octree) (h0 : Rounded.octNew rnd size request = .ok t0)
    (ops : List Rounded.OctCall) (h : Rounded.octCalls rnd ops t0 = .ok t) :
    ∃ u, Rounded.octRun rnd (changes ops) t0 = .ok u ∧ Rounded.octCubes rnd t = Rounded.octCubes rnd u ∧
      (∀ p, Rounded.octContains rnd t p = Rounded.octContains rnd u p) ∧ (∀ b, Rounded.octBox rnd t b = Rounded.octBox rnd u b) ∧
      (Rounded.octMesh rnd t).map Prod.snd = (Rounded.octMesh rnd u).map Prod.snd ∧
      (.getBoundingBox ∉ ops → (Rounded.octBoundingBox rnd t).map Prod.snd = (Rounded.octBoundingBox rnd u).map Prod.snd) := by
  have hm : t0.mesh = Mesh.new := by
    unfold Rounded.octNew at h0
    rw [Exec.bind_ok] at h0
    obtain ⟨r, -, h0⟩ := h0
    simp only [pure, Except.pure, Except.ok.injEq] at h0
    rw [← h0]
  obtain ⟨u, e1, e2, e3, e4⟩ := Octree.octCalls_rel rnd ops t0 t0 t (Or.inl hm) (by rw [← hm]) h
  have hc : Octree.CacheOk rnd u := Or.inl (by rw [e3])
  have hcub : Rounded.octCubes rnd t = Rounded.octCubes rnd u := by rw [e3]; rfl
  refine ⟨u, e1, hcub, fun p => by rw [e3]; rfl, fun b => by rw [e3]; rfl, ?_, fun hn => ?_⟩
  · rw [Octree.octMesh_fresh e2, Octree.octMesh_fresh hc, hcub]
    cases Rounded.filterOverlappingVertices rnd (Octree.fresh (Rounded.octCubes rnd u)) <;> rfl
  · unfold Rounded.octBoundingBox
    rw [Octree.octMesh_fresh e2, Octree.octMesh_fresh hc, hcub, e4 hn rfl]
    cases u.base.bbValid with
    | true => rfl
    | false => cases Rounded.filterOverlappingVertices rnd (Octree.fresh (Rounded.octCubes rnd u)) <;> rfl

/-- C139 fails for the bounding box: with any rounding, the box that was given once is given after all later additions and clearings. -/
theorem C139_stale (rnd : ℝ → ℝ) (t t' t'' : Octree) (b : Box) (h : Rounded.octBoundingBox rnd t = .ok (t', b))
    (ops : List Rounded.OctCall) (h' : Rounded.octCalls rnd ops t' = .ok t'') : Rounded.octBoundingBox rnd t'' = .ok (t'', b) := by
  obtain ⟨h1, h2⟩ := Octree.octBoundingBox_valid h
  have h3 := Octree.octCalls_box rnd ops t' t'' h1 h'
  rw [Octree.octBoundingBox_cached (by rw [h3]; exact h1), h3, h2]

/-- C139 fails for the bounding box: an octree that was asked for it while empty still gives the empty box when there is a cube. -/
theorem C139_bounding_box_wrong : ∃ t0 t, Rounded.octNew toDouble 10 3 = .ok t0 ∧
    Rounded.octCalls toDouble [.getBoundingBox, .add ⟨2, -3, 4⟩] t0 = .ok t ∧ Rounded.octCubes toDouble t ≠ [] ∧
    Rounded.octBoundingBox toDouble t = .ok (t, Box.new ⟨1e9, 1e9, 1e9⟩ ⟨-1e9, -1e9, -1e9⟩) := by
  obtain ⟨hd, t0, h1, h2, h3⟩ := ten
  obtain ⟨k, hg0, hno, hm, hbb⟩ := Octree.good_new (by norm_num) h2 (by rw [h3]; norm_num)
  obtain ⟨u, e1, e2, -⟩ := C120_points 10 3 hd (by norm_num) (by norm_num) t0 h1 (by rw [h3]; norm_num) (by rw [h3]; norm_num)
    [some ⟨2, -3, 4⟩] (by
      intro p hp
      simp only [List.mem_cons, List.not_mem_nil, or_false, Option.some.injEq] at hp
      subst hp
      norm_num [InBox]) 2 (by rw [h3]; norm_num) (by norm_num)
  obtain ⟨w, f1, -, f2⟩ := C120_points 10 3 hd (by norm_num) (by norm_num) t0 h1 (by rw [h3]; norm_num) (by rw [h3]; norm_num)
    [] (by simp) 2 (by rw [h3]; norm_num) (by norm_num)
  simp only [Rounded.octRun, Except.ok.injEq] at f1
  subst f1
  have hcub : Rounded.octCubes toDouble t0 = [] := by
    refine List.eq_nil_iff_forall_not_mem.2 fun b hb => ?_
    obtain ⟨p, hp, -⟩ := f2 b hb
    simp [kept] at hp
  set s : Shape := { t0.base with bbMin := ⟨1e9, 1e9, 1e9⟩, bbMax := ⟨-1e9, -1e9, -1e9⟩, bbValid := true } with hs
  have hbox : Rounded.octBoundingBox toDouble t0 =
      .ok ({ t0 with mesh := Mesh.new, base := s }, Box.new ⟨1e9, 1e9, 1e9⟩ ⟨-1e9, -1e9, -1e9⟩) := by
    unfold Rounded.octBoundingBox
    rw [Octree.octMesh_fresh (Or.inl hm), hcub, show Octree.fresh [] = Mesh.new from rfl, Octree.roundedFilter_new, hbb]
    rfl
  simp only [Rounded.octRun, Exec.bind_ok] at e1
  obtain ⟨u', a, b⟩ := e1
  simp only [Except.ok.injEq] at b
  subst b
  have hrun : Rounded.octCalls toDouble [.add ⟨2, -3, 4⟩] { t0 with mesh := Mesh.new, base := s } = .ok { u' with base := s } := by
    simp only [Rounded.octCalls, Rounded.octStep, Octree.octAdd_caches a, bind, Except.bind]
  refine ⟨t0, { u' with base := s }, h1, ?_, ?_, C139_stale toDouble _ _ _ _ hbox _ hrun⟩
  · simp only [Rounded.octCalls, Rounded.octStep, hbox, bind, Except.bind, pure, Except.pure, Octree.octAdd_caches a]
  · obtain ⟨c, hc, -⟩ := e2 ⟨2, -3, 4⟩ (by simp [kept])
    exact List.ne_nil_of_mem hc

/-- C139, calls come to an end: with roundings to `double`, no sequence of additions of any points, clearings and queries fails, for trees smaller than 4000 km
with at most nine levels. -/
theorem C139_runs (size request : ℝ) (hs : toDouble size = size) (hpos : 0 < size) (hr : 0 < request) (t0 : Octree)
    (h0 : Rounded.octNew toDouble size request = .ok t0) (h1 : 1e-10 ≤ t0.resolution) (h2 : t0.resolution ≤ 2 ^ 19) (N : ℕ)
    (hN : t0.resolution * 2 ^ N = size) (hN' : N ≤ 9) (hsize : size < 4000000) (ops : List Rounded.OctCall) :
    ∃ t, Rounded.octCalls toDouble ops t0 = .ok t := by
  have h0' : Octree.new size request = .ok t0 := by rw [← Octree.octNew_eq hs]; exact h0
  obtain ⟨k, hg0, -, hm, -⟩ := Octree.good_new hr h0' h1
  induction ops using List.reverseRecOn with
  | nil => exact ⟨t0, rfl⟩
  | append_singleton ops o ih =>
    obtain ⟨t, e⟩ := ih
    rw [Octree.octCalls_append, e]
    change ∃ t', Rounded.octCalls toDouble [o] t = .ok t'
    obtain ⟨u, e1, e2, e3, -⟩ := Octree.octCalls_rel toDouble ops t0 t0 t (Or.inl hm) (by rw [← hm]) e
    have hc : Octree.CacheOk toDouble u := Or.inl (by rw [e3])
    have hcub : Rounded.octCubes toDouble t = Rounded.octCubes toDouble u := by rw [e3]; rfl
    have hmesh : ∃ t' m, Rounded.octMesh toDouble t = .ok (t', m) := by
      obtain ⟨v, u', m, f1, f2⟩ := Octree.octRun_mesh hs hpos hr h0 h1 h2 hN hN' hsize (changes ops)
      rw [e1, Except.ok.injEq] at f1
      subst f1
      rw [Octree.octMesh_fresh hc] at f2
      rw [Octree.octMesh_fresh e2, hcub]
      cases hf : Rounded.filterOverlappingVertices toDouble (Octree.fresh (Rounded.octCubes toDouble u)) with
      | error e => rw [hf] at f2; cases f2
      | ok m => exact ⟨_, _, rfl⟩
    cases o with
    | add p =>
      obtain ⟨v, f1, -⟩ := C137_nearest size request hs hpos hr t0 h0 h1 h2 (changes ops ++ [some p])
      rw [Octree.octRun_append, e1] at f1
      change Rounded.octRun toDouble [some p] u = _ at f1
      simp only [Rounded.octRun, Exec.bind_ok] at f1
      obtain ⟨w, a, -⟩ := f1
      have ht : t = { u with mesh := t.mesh, base := t.base } := by rw [e3]
      have := Octree.octAdd_caches a t.mesh t.base
      rw [← ht] at this
      refine ⟨{ w with base := t.base }, ?_⟩
      simp only [Rounded.octCalls, Rounded.octStep, this, bind, Except.bind]
    | clear => exact ⟨t.clear, rfl⟩
    | getMesh =>
      obtain ⟨t', m, f⟩ := hmesh
      refine ⟨t', ?_⟩
      simp only [Rounded.octCalls, Rounded.octStep, f, bind, Except.bind, pure, Except.pure]
    | getBoundingBox =>
      obtain ⟨t', m, f⟩ := hmesh
      have hb : ∃ r, Rounded.octBoundingBox toDouble t = .ok r := by
        unfold Rounded.octBoundingBox
        rw [f]
        cases t.base.bbValid <;> exact ⟨_, rfl⟩
      obtain ⟨r, hb⟩ := hb
      refine ⟨r.1, ?_⟩
      simp only [Rounded.octCalls, Rounded.octStep, hb, bind, Except.bind, pure, Except.pure]

/-- C139 case: the tree of size 10 is asked between points, also after a point outside and a clearing. -/
example : ∃ t0 t, Rounded.octNew toDouble 10 3 = .ok t0 ∧
    Rounded.octCalls toDouble [.add ⟨2, -3, 4⟩, .getMesh, .add ⟨0.1, 70, -0.3⟩, .getBoundingBox, .clear, .getMesh, .add ⟨1, 1, 1⟩] t0 = .ok t := by
  obtain ⟨hd, t0, h1, -, h3⟩ := ten
  obtain ⟨t, e⟩ := C139_runs 10 3 hd (by norm_num) (by norm_num) t0 h1 (by rw [h3]; norm_num) (by rw [h3]; norm_num) 2
    (by rw [h3]; norm_num) (by norm_num) (by norm_num) _
  exact ⟨t0, t, h1, e⟩

end Geo
