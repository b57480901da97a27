import Verif.Lemmas.OctreeTree
import Verif.Lemmas.Composite
import Verif.Props.Composite

/-!
# Helper lemmas for the mesh derived from an octree
-/

namespace Geo

open Spec

namespace Octree

open OctNode

/-- The unmerged mesh of some boxes. -/
noncomputable def fresh (bs : List Box) : Mesh := bs.foldl (fun m b => m.add b.mesh) Mesh.new

theorem fold_tris (bs : List Box) (m : Mesh) (h : (bs.foldl (fun m b => m.add b.mesh) m).tris = []) :
    m.tris = [] ∧ ∀ b ∈ bs, b.mesh.tris = [] := by
  induction bs generalizing m with
  | nil => exact ⟨h, by simp⟩
  | cons b bs ih =>
    obtain ⟨h1, h2⟩ := ih _ h
    simp only [Mesh.add, Mesh.invalidateCache, List.append_eq_nil_iff, List.map_eq_nil_iff] at h1
    refine ⟨h1.1, ?_⟩
    simp only [List.mem_cons, forall_eq_or_imp]
    exact ⟨h1.2, h2⟩

theorem box_tris_ne (lo hi : Vec3) : (Box.new lo hi).mesh.tris ≠ [] := by
  intro h
  have := box_soup lo hi
  rw [h] at this
  simp [soup] at this

theorem fresh_empty {bs : List Box} (hb : ∀ b ∈ bs, ∃ lo hi, b = Box.new lo hi) (h : (fresh bs).tris = []) :
    bs = [] := by
  cases bs with
  | nil => rfl
  | cons b bs =>
    obtain ⟨lo, hi, rfl⟩ := hb b (by simp)
    exact absurd ((fold_tris _ _ h).2 _ (by simp)) (box_tris_ne lo hi)

theorem filter_tris {m m' : Mesh} (h : m.filterOverlappingVertices = .ok m') : m'.tris.length = m.tris.length := by
  unfold Mesh.filterOverlappingVertices at h
  cases hf : Mesh.filterLoop m.points [] [] [] with
  | error e => rw [hf] at h; simp [bind, Except.bind] at h
  | ok x =>
    obtain ⟨pts, imap⟩ := x
    rw [hf] at h
    simp only [bind, Except.bind, pure, Except.pure] at h
    split at h
    · simp at h
    · rename_i ts hts
      simp only [Except.ok.injEq] at h
      subst h
      have key : ∀ (f : TriI → Exec TriI) (l l' : List TriI), l.mapM f = .ok l' → l'.length = l.length := by
        intro f l
        induction l with
        | nil => intro l' h; simp [pure, Except.pure] at h; simp [← h]
        | cons a l ih =>
          intro l' h
          simp only [List.mapM_cons, bind, Except.bind, pure, Except.pure] at h
          cases ha : f a with
          | error e => rw [ha] at h; simp at h
          | ok b =>
            rw [ha] at h
            simp only at h
            cases hl : l.mapM f with
            | error e => rw [hl] at h; simp at h
            | ok bs =>
              rw [hl] at h
              simp only [Except.ok.injEq] at h
              subst h
              simp [ih bs hl]
      exact key _ _ _ hts

theorem filter_new : Mesh.new.filterOverlappingVertices = .ok Mesh.new := by
  simp [Mesh.filterOverlappingVertices, Mesh.new, Mesh.filterLoop, Mesh.invalidateCache, bind, Except.bind, pure,
    Except.pure]

/-- The cached mesh is empty or up to date. -/
def MeshOk (t : Octree) : Prop :=
  t.mesh = Mesh.new ∨ (fresh t.getCubes).filterOverlappingVertices = .ok t.mesh

theorem good_boxes {k : ℕ} {size : ℝ} {t : Octree} (h : Good k size t) :
    ∀ b ∈ t.getCubes, ∃ lo hi, b = Box.new lo hi := by
  obtain ⟨cells, -, -, e⟩ := good_shows h
  intro b hb
  rw [e] at hb
  obtain ⟨c, -, rfl⟩ := List.mem_map.1 hb
  exact ⟨_, _, rfl⟩

theorem meshOk_empty {k : ℕ} {size : ℝ} {t : Octree} (h : Good k size t) (hm : MeshOk t)
    (he : t.mesh.empty = true) : t.mesh = Mesh.new := by
  rcases hm with hm | hm
  · exact hm
  have h1 := filter_tris hm
  have h2 : t.mesh.tris = [] := by simpa [Mesh.empty] using he
  rw [h2] at h1
  have h3 := fresh_empty (good_boxes h) (List.length_eq_zero_iff.1 h1.symm)
  rw [h3] at hm
  have h4 : (fresh []).filterOverlappingVertices = .ok Mesh.new := filter_new
  rw [h4, Except.ok.injEq] at hm
  exact hm.symm

theorem getMesh_fresh {k : ℕ} {size : ℝ} {t t' : Octree} {m : Mesh} (h : Good k size t) (hm : MeshOk t)
    (hg : t.getMesh = .ok (t', m)) : (fresh t.getCubes).filterOverlappingVertices = .ok m := by
  unfold Octree.getMesh at hg
  split_ifs at hg with he
  · rw [meshOk_empty h hm he] at hg
    change (do let m ← (fresh t.getCubes).filterOverlappingVertices; return ({ t with mesh := m }, m) :
      Exec (Octree × Mesh)) = _ at hg
    cases hf : (fresh t.getCubes).filterOverlappingVertices with
    | error e => rw [hf] at hg; simp [bind, Except.bind] at hg
    | ok m0 =>
      rw [hf] at hg
      simp only [bind, Except.bind, pure, Except.pure, Except.ok.injEq, Prod.mk.injEq] at hg
      rw [hg.2]
  · simp only [Except.ok.injEq, Prod.mk.injEq] at hg
    obtain ⟨rfl, rfl⟩ := hg
    rcases hm with hm | hm
    · exfalso; apply he; rw [hm]; rfl
    · exact hm

theorem getMesh_ok {k : ℕ} {size : ℝ} {t : Octree} {m : Mesh} (h : Good k size t) (hm : MeshOk t)
    (hf : (fresh t.getCubes).filterOverlappingVertices = .ok m) : ∃ t', t.getMesh = .ok (t', m) := by
  unfold Octree.getMesh
  split_ifs with he
  · rw [meshOk_empty h hm he]
    refine ⟨{ t with mesh := m }, ?_⟩
    change (do let m ← (fresh t.getCubes).filterOverlappingVertices; return ({ t with mesh := m }, m) :
      Exec (Octree × Mesh)) = _
    rw [hf]
    rfl
  · rcases hm with hm | hm
    · exfalso; apply he; rw [hm]; rfl
    · rw [hf, Except.ok.injEq] at hm
      exact ⟨t, by rw [hm]⟩

theorem step_mesh {k : ℕ} {size : ℝ} {t t' : Octree} {op : Op} (h : Good k size t) (hop : OctOpOk op)
    (hm : MeshOk t) (hs : t.step op = .ok t') : MeshOk t' := by
  have keyMesh : ∀ t' m, t.getMesh = .ok (t', m) → MeshOk t' := by
    intro t' m hg
    right
    obtain ⟨-, h1, h2, -, -, h3⟩ := getMesh_good h hg
    rw [h3]
    unfold Octree.getCubes
    rw [h1, h2]
    exact getMesh_fresh h hm hg
  cases op with
  | add p =>
    obtain ⟨t'', h1, -, -, h3, -⟩ := add_good h p
    have : t'' = t' := by simpa [step, h1] using hs
    exact Or.inl (this ▸ h3)
  | clear =>
    simp only [step, Except.ok.injEq] at hs
    subst hs
    exact Or.inl rfl
  | raytrace r t0 t1 =>
    obtain ⟨o, d, u, hu, rfl⟩ := hop
    cases hh : ((Box.new t.offset t.max).intersectRay (Ray.new o d) t0 t1 0).1 with
    | true =>
      obtain ⟨f, n, t'', h1, h2, h3, h4, h5, -⟩ := raytrace_good h hu t0 t1 hh
      have : t'' = t' := by simpa [step, h2] using hs
      exact Or.inl (this ▸ h5)
    | false =>
      have : t = t' := by simpa [step, raytrace_miss hh] using hs
      exact this ▸ hm
  | getMesh =>
    unfold step at hs
    cases hg : t.getMesh with
    | error e => rw [hg] at hs; simp [bind, Except.bind] at hs
    | ok x =>
      obtain ⟨t1, m⟩ := x
      rw [hg] at hs
      simp only [bind, Except.bind, pure, Except.pure, Except.ok.injEq] at hs
      subst hs
      exact keyMesh _ _ hg
  | getBoundingBox =>
    unfold step at hs
    cases hg : t.getBoundingBox with
    | error e => rw [hg] at hs; simp [bind, Except.bind] at hs
    | ok x =>
      obtain ⟨t1, m⟩ := x
      rw [hg] at hs
      simp only [bind, Except.bind, pure, Except.pure, Except.ok.injEq] at hs
      subst hs
      rcases getBoundingBox_eq hg with ⟨-, rfl, -⟩ | ⟨-, t2, m2, h1, h2⟩
      · exact hm
      · obtain ⟨rfl, -⟩ := h2
        exact (keyMesh _ _ h1 : MeshOk t2)

theorem run_mesh {k : ℕ} {size : ℝ} {t t' : Octree} {ops : List Op} (h : Good k size t)
    (hop : ∀ o ∈ ops, OctOpOk o) (hm : MeshOk t) (hs : t.run ops = .ok t') : MeshOk t' := by
  induction ops generalizing t with
  | nil => simp only [run, Except.ok.injEq] at hs; exact hs ▸ hm
  | cons op ops ih =>
    obtain ⟨t1, h1, h2⟩ := run_cons hs
    exact ih (step_good h (hop op (by simp)) h1).1 (fun o ho => hop o (by simp [ho]))
      (step_mesh h (hop op (by simp)) hm h1) h2

theorem reach_mesh {size : ℝ} {t : Octree} (h : OctReach size t) : ∃ k, Good k size t ∧ MeshOk t := by
  obtain ⟨hs, htol, r, t0, ops, hr, h1, h2, h3⟩ := h
  rw [run_res h3] at htol
  obtain ⟨k, hk, -, hm, -⟩ := good_new hr h1 htol
  exact ⟨k, run_good hk h2 h3, run_mesh hk h2 (Or.inl hm) h3⟩

theorem fold_soup (bs : List Box) (hb : ∀ b ∈ bs, ∃ lo hi, b = Box.new lo hi) (m : Mesh)
    (l : List (Vec3 × Vec3 × Vec3)) (hm : soup m.points m.tris = some l)
    (hn : m.points.length + 8 * bs.length ≤ 2 ^ 32) :
    let r := bs.foldl (fun m b => m.add b.mesh) m
    r.points = m.points ++ bs.flatMap (fun b => corners8 b.lo b.hi) ∧
    soup r.points r.tris = some (l ++ bs.flatMap fun b => trianglesOf b.mesh) := by
  induction bs generalizing m l with
  | nil => simpa using hm
  | cons b bs ih =>
    obtain ⟨lo, hi, rfl⟩ := hb b (by simp)
    have hp : (Box.new lo hi).mesh.points = corners8 lo hi := by
      have := (generateMesh_points ⟨lo, hi, Mesh.new⟩).2.2
      simp only [Mesh.new, Mesh.invalidateCache, List.nil_append] at this
      exact this
    have hlen : (Box.new lo hi).mesh.points.length = 8 := by rw [hp]; rfl
    simp only [List.length_cons] at hn
    obtain ⟨a1, a2⟩ := C12_add m (Box.new lo hi).mesh l _ hm (good_soup (box_good lo hi)).1 (by omega)
    obtain ⟨i1, i2⟩ := ih (fun x hx => hb x (by simp [hx])) _ _ a2 (by
      rw [a1, List.length_append, hlen]; omega)
    refine ⟨?_, ?_⟩
    · rw [List.foldl_cons, i1, a1, hp, List.flatMap_cons, List.append_assoc]
      rfl
    · rw [List.foldl_cons, i2, List.flatMap_cons, List.append_assoc]

end Octree

end Geo
