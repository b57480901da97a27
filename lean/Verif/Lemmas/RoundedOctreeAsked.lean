import Verif.Spec.RoundedOctreeAsked
import Verif.Lemmas.RoundedOctreeSame
import Verif.Lemmas.RoundedMesh
import Verif.Lemmas.OctreeMesh

/-!
# Helper lemmas for octrees that are asked between additions, in floating point arithmetic
-/

namespace Geo
open Spec

namespace Octree

theorem roundedFilter_tris {rnd : ℝ → ℝ} {m m' : Mesh} (h : Rounded.filterOverlappingVertices rnd m = .ok m') :
    m'.tris.length = m.tris.length := by
  have := Rounded.filter_map (rnd := rnd) m
  rw [h] at this
  have h1 := filter_tris (m' := { m' with points := m'.points.map (Rounded.cellPoint rnd) }) this
  exact h1

theorem roundedFilter_new (rnd : ℝ → ℝ) : Rounded.filterOverlappingVertices rnd Mesh.new = .ok Mesh.new := by
  simp [Rounded.filterOverlappingVertices, Mesh.new, Rounded.filterLoop, Mesh.invalidateCache, bind, Except.bind, pure, Except.pure]

/-- The cached mesh is empty or up to date. (Device of the proofs.) -/
def CacheOk (rnd : ℝ → ℝ) (t : Octree) : Prop :=
  t.mesh = Mesh.new ∨ Rounded.filterOverlappingVertices rnd (fresh (Rounded.octCubes rnd t)) = .ok t.mesh

theorem cacheOk_empty {rnd : ℝ → ℝ} {t : Octree} (hm : CacheOk rnd t) (he : t.mesh.empty = true) : t.mesh = Mesh.new := by
  rcases hm with hm | hm
  · exact hm
  have h1 := roundedFilter_tris hm
  have h2 : t.mesh.tris = [] := by simpa [Mesh.empty] using he
  rw [h2] at h1
  have h3 := fresh_empty (bs := Rounded.octCubes rnd t) (nodeCubes_new _ _ _) (List.length_eq_zero_iff.1 h1.symm)
  rw [h3] at hm
  have h4 : Rounded.filterOverlappingVertices rnd (fresh []) = .ok Mesh.new := roundedFilter_new rnd
  rw [h4, Except.ok.injEq] at hm
  exact hm.symm

/-- The mesh is that of the current cubes. -/
theorem octMesh_fresh {rnd : ℝ → ℝ} {t : Octree} (hm : CacheOk rnd t) :
    Rounded.octMesh rnd t =
      (Rounded.filterOverlappingVertices rnd (fresh (Rounded.octCubes rnd t))).map fun m => ({ t with mesh := m }, m) := by
  unfold Rounded.octMesh
  split_ifs with he
  · rw [cacheOk_empty hm he]
    change (do let m ← Rounded.filterOverlappingVertices rnd (fresh (Rounded.octCubes rnd t)); return ({ t with mesh := m }, m) :
      Exec (Octree × Mesh)) = _
    cases Rounded.filterOverlappingVertices rnd (fresh (Rounded.octCubes rnd t)) <;> rfl
  · rcases hm with hm | hm
    · exfalso; apply he; rw [hm]; rfl
    · rw [hm]; rfl

theorem octMesh_ok {rnd : ℝ → ℝ} {t t' : Octree} {m : Mesh} (hm : CacheOk rnd t) (h : Rounded.octMesh rnd t = .ok (t', m)) :
    CacheOk rnd t' ∧ t' = { t with mesh := m } := by
  rw [octMesh_fresh hm] at h
  cases hf : Rounded.filterOverlappingVertices rnd (fresh (Rounded.octCubes rnd t)) with
  | error e => rw [hf] at h; cases h
  | ok m0 =>
    rw [hf] at h
    simp only [Except.map, Except.ok.injEq, Prod.mk.injEq] at h
    obtain ⟨rfl, rfl⟩ := h
    exact ⟨Or.inr hf, rfl⟩

/-- What a call for the bounding box does. -/
theorem octBoundingBox_ok {rnd : ℝ → ℝ} {t t' : Octree} {b : Box} (hm : CacheOk rnd t) (h : Rounded.octBoundingBox rnd t = .ok (t', b)) :
    CacheOk rnd t' ∧ (∃ m s, t' = { t with mesh := m, base := s }) := by
  unfold Rounded.octBoundingBox at h
  rw [Exec.bind_ok] at h
  obtain ⟨⟨v, s⟩, h1, h2⟩ := h
  simp only [pure, Except.pure, Except.ok.injEq, Prod.mk.injEq] at h2
  obtain ⟨rfl, -⟩ := h2
  split_ifs at h1 with hb
  · simp only [Except.ok.injEq, Prod.mk.injEq] at h1
    rw [← h1.1]
    exact ⟨hm, t.mesh, t.base, rfl⟩
  · rw [Exec.bind_ok] at h1
    obtain ⟨⟨w, m⟩, h3, h4⟩ := h1
    obtain ⟨c, rfl⟩ := octMesh_ok hm h3
    simp only [pure, Except.pure, Except.ok.injEq, Prod.mk.injEq] at h4
    rw [← h4.1]
    exact ⟨c, m, _, rfl⟩

/-- The box that was given once is given again. -/
theorem octBoundingBox_valid {rnd : ℝ → ℝ} {t t' : Octree} {b : Box} (h : Rounded.octBoundingBox rnd t = .ok (t', b)) :
    t'.base.bbValid = true ∧ b = Box.new t'.base.bbMin t'.base.bbMax := by
  unfold Rounded.octBoundingBox at h
  rw [Exec.bind_ok] at h
  obtain ⟨⟨v, s⟩, h1, h2⟩ := h
  simp only [pure, Except.pure, Except.ok.injEq, Prod.mk.injEq] at h2
  obtain ⟨rfl, rfl⟩ := h2
  split_ifs at h1 with hb
  · simp only [Except.ok.injEq, Prod.mk.injEq] at h1
    obtain ⟨rfl, rfl⟩ := h1
    exact ⟨hb, rfl⟩
  · rw [Exec.bind_ok] at h1
    obtain ⟨⟨w, m⟩, h3, h4⟩ := h1
    simp only [pure, Except.pure, Except.ok.injEq, Prod.mk.injEq] at h4
    obtain ⟨rfl, rfl⟩ := h4
    exact ⟨rfl, rfl⟩

theorem octBoundingBox_cached {rnd : ℝ → ℝ} {t : Octree} (h : t.base.bbValid = true) :
    Rounded.octBoundingBox rnd t = .ok (t, Box.new t.base.bbMin t.base.bbMax) := by
  unfold Rounded.octBoundingBox
  rw [if_pos h]
  rfl

/-- Calls for meshes and boxes are not noticed by later calls, but for the box. -/
theorem octCalls_rel (rnd : ℝ → ℝ) : ∀ (ops : List Rounded.OctCall) (t u t' : Octree), CacheOk rnd t →
    u = { t with mesh := Mesh.new, base := u.base } → Rounded.octCalls rnd ops t = .ok t' →
    ∃ u', Rounded.octRun rnd (changes ops) u = .ok u' ∧ CacheOk rnd t' ∧ u' = { t' with mesh := Mesh.new, base := u'.base } ∧
      (.getBoundingBox ∉ ops → t.base = u.base → t'.base = u'.base)
  | [], t, u, t', hc, hu, h => by
    simp only [Rounded.octCalls, Except.ok.injEq] at h
    subst h
    exact ⟨u, rfl, hc, hu, fun _ e => e⟩
  | .add p :: ops, t, u, t', hc, hu, h => by
    simp only [Rounded.octCalls, Rounded.octStep, Exec.bind_ok] at h
    obtain ⟨t1, a, b⟩ := h
    unfold Rounded.octAdd at a
    rw [Exec.bind_ok] at a
    obtain ⟨root, r1, c⟩ := a
    simp only [pure, Except.pure, Except.ok.injEq] at c
    subst c
    have hadd : Rounded.octAdd rnd u p = .ok { u with root := root, mesh := Mesh.new } := by
      unfold Rounded.octAdd
      rw [hu]
      simp only [r1, bind, Except.bind, pure, Except.pure]
      rfl
    obtain ⟨u', e1, e2, e3, e4⟩ := octCalls_rel rnd ops _ { u with root := root, mesh := Mesh.new } t' (Or.inl rfl) (by rw [hu]) b
    refine ⟨u', ?_, e2, e3, fun hn hb => e4 (fun hh => hn (List.mem_cons_of_mem _ hh)) hb⟩
    simp only [changes, Rounded.octRun, hadd, bind, Except.bind]
    exact e1
  | .clear :: ops, t, u, t', hc, hu, h => by
    obtain ⟨u', e1, e2, e3, e4⟩ := octCalls_rel rnd ops t.clear u.clear t' (Or.inl rfl) (by rw [hu]; rfl) h
    exact ⟨u', e1, e2, e3, fun hn hb => e4 (fun hh => hn (List.mem_cons_of_mem _ hh)) hb⟩
  | .getMesh :: ops, t, u, t', hc, hu, h => by
    simp only [Rounded.octCalls, Rounded.octStep, Exec.bind_ok] at h
    obtain ⟨t1, ⟨⟨v, m⟩, a, c⟩, b⟩ := h
    simp only [pure, Except.pure, Except.ok.injEq] at c
    subst c
    obtain ⟨c1, rfl⟩ := octMesh_ok hc a
    obtain ⟨u', e1, e2, e3, e4⟩ := octCalls_rel rnd ops _ u t' c1 hu b
    exact ⟨u', e1, e2, e3, fun hn hb => e4 (fun hh => hn (List.mem_cons_of_mem _ hh)) hb⟩
  | .getBoundingBox :: ops, t, u, t', hc, hu, h => by
    simp only [Rounded.octCalls, Rounded.octStep, Exec.bind_ok] at h
    obtain ⟨t1, ⟨⟨v, m⟩, a, c⟩, b⟩ := h
    simp only [pure, Except.pure, Except.ok.injEq] at c
    subst c
    obtain ⟨c1, m', s, rfl⟩ := octBoundingBox_ok hc a
    obtain ⟨u', e1, e2, e3, -⟩ := octCalls_rel rnd ops _ u t' c1 hu b
    exact ⟨u', e1, e2, e3, fun hn _ => absurd (List.mem_cons_self ..) hn⟩

/-- A box that was computed stays. -/
theorem octCalls_box (rnd : ℝ → ℝ) : ∀ (ops : List Rounded.OctCall) (t t' : Octree), t.base.bbValid = true →
    Rounded.octCalls rnd ops t = .ok t' → t'.base = t.base
  | [], t, t', hb, h => by
    simp only [Rounded.octCalls, Except.ok.injEq] at h
    rw [h]
  | .add p :: ops, t, t', hb, h => by
    simp only [Rounded.octCalls, Rounded.octStep, Exec.bind_ok] at h
    obtain ⟨t1, a, b⟩ := h
    unfold Rounded.octAdd at a
    rw [Exec.bind_ok] at a
    obtain ⟨root, r1, c⟩ := a
    simp only [pure, Except.pure, Except.ok.injEq] at c
    subst c
    exact octCalls_box rnd ops { t with root := root, mesh := t.mesh.clear } t' hb b
  | .clear :: ops, t, t', hb, h => octCalls_box rnd ops t.clear t' hb h
  | .getMesh :: ops, t, t', hb, h => by
    simp only [Rounded.octCalls, Rounded.octStep, Exec.bind_ok] at h
    obtain ⟨t1, ⟨⟨v, m⟩, a, c⟩, b⟩ := h
    simp only [pure, Except.pure, Except.ok.injEq] at c
    subst c
    have hv : v.base = t.base := by
      unfold Rounded.octMesh at a
      split_ifs at a
      · rw [Exec.bind_ok] at a
        obtain ⟨m', -, a⟩ := a
        simp only [pure, Except.pure, Except.ok.injEq, Prod.mk.injEq] at a
        rw [← a.1]
      · simp only [Except.ok.injEq, Prod.mk.injEq] at a
        rw [← a.1]
    rw [← hv]
    exact octCalls_box rnd ops v t' (by rw [hv]; exact hb) b
  | .getBoundingBox :: ops, t, t', hb, h => by
    simp only [Rounded.octCalls, Rounded.octStep, octBoundingBox_cached hb] at h
    exact octCalls_box rnd ops t t' hb h

/-- Additions do not look at the caches. -/
theorem octAdd_caches {rnd : ℝ → ℝ} {t t' : Octree} {p : Vec3} (h : Rounded.octAdd rnd t p = .ok t') (m : Mesh) (s : Shape) :
    Rounded.octAdd rnd { t with mesh := m, base := s } p = .ok { t' with base := s } := by
  unfold Rounded.octAdd at h ⊢
  rw [Exec.bind_ok] at h
  obtain ⟨root, r1, c⟩ := h
  simp only [pure, Except.pure, Except.ok.injEq] at c
  subst c
  simp only [r1, bind, Except.bind, pure, Except.pure]
  rfl

end Octree

end Geo
