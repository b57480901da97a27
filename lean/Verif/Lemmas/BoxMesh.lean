import Verif.Lemmas.Box
import Verif.Lemmas.MeshFilter

/-!
# Lemmas about the mesh of a box after any number of calls of `enclose`
-/

namespace Geo

open Spec

/-- The twelve triangles of a box whose first corner has index `n`. (Helper.) -/
def boxTris (n : ℕ) : List TriI :=
  [⟨n + 1, n, n + 2⟩, ⟨n + 1, n + 2, n + 3⟩, ⟨n + 4, n + 5, n + 6⟩, ⟨n + 6, n + 5, n + 7⟩, ⟨n, n + 4, n + 2⟩,
   ⟨n + 2, n + 4, n + 6⟩, ⟨n + 5, n + 1, n + 3⟩, ⟨n + 5, n + 3, n + 7⟩, ⟨n, n + 1, n + 4⟩, ⟨n + 4, n + 1, n + 5⟩,
   ⟨n + 3, n + 2, n + 6⟩, ⟨n + 3, n + 6, n + 7⟩]

/-- The corners of `boxTris`. (Helper.) -/
def boxSoup (lo hi : Vec3) : List (Vec3 × Vec3 × Vec3) :=
  let p0 : Vec3 := ⟨lo.x, lo.y, lo.z⟩
  let p1 : Vec3 := ⟨hi.x, lo.y, lo.z⟩
  let p2 : Vec3 := ⟨lo.x, hi.y, lo.z⟩
  let p3 : Vec3 := ⟨hi.x, hi.y, lo.z⟩
  let p4 : Vec3 := ⟨lo.x, lo.y, hi.z⟩
  let p5 : Vec3 := ⟨hi.x, lo.y, hi.z⟩
  let p6 : Vec3 := ⟨lo.x, hi.y, hi.z⟩
  let p7 : Vec3 := ⟨hi.x, hi.y, hi.z⟩
  [(p1, p0, p2), (p1, p2, p3), (p4, p5, p6), (p6, p5, p7), (p0, p4, p2), (p2, p4, p6),
   (p5, p1, p3), (p5, p3, p7), (p0, p1, p4), (p4, p1, p5), (p3, p2, p6), (p3, p6, p7)]

theorem generateMesh_tris (b : Box) (h : b.mesh.points.length + 8 ≤ 2 ^ 32) :
    b.generateMesh.mesh.tris = b.mesh.tris ++ boxTris b.mesh.points.length := by
  have hu : ∀ k < 8, u32 (b.mesh.points.length + k) = b.mesh.points.length + k := by
    intro k hk
    exact Nat.mod_eq_of_lt (by omega)
  have h0 : u32 b.mesh.points.length = b.mesh.points.length := hu 0 (by norm_num)
  simp [Box.generateMesh, Mesh.addPoint, Mesh.addTriangle, Mesh.invalidateCache, boxTris, h0, hu]

theorem boxTris_soup (old : List Vec3) (lo hi : Vec3) :
    soup (old ++ corners8 lo hi) (boxTris old.length) = some (boxSoup lo hi) := by
  rw [Mesh.soup_some]
  have g : ∀ k, (old ++ corners8 lo hi)[old.length + k]? = (corners8 lo hi)[k]? := by
    intro k
    rw [List.getElem?_append_right (by omega)]
    congr 1
    omega
  have g0 : (old ++ corners8 lo hi)[old.length]? = (corners8 lo hi)[0]? := g 0
  simp only [boxTris, boxSoup, List.forall₂_cons, g, g0]
  simp [corners8]

theorem boxSoup_vol (lo hi : Vec3) :
    ((boxSoup lo hi).map vol6).sum = 6 * ((hi.x - lo.x) * (hi.y - lo.y) * (hi.z - lo.z)) := by
  simp [boxSoup, vol6]
  ring

theorem edges_append (a b : List TriI) : edges (a ++ b) = edges a ++ edges b := by
  simp [edges]

theorem edges_boxTris (n : ℕ) : edges (boxTris n) = (edges (boxTris 0)).map fun e => (n + e.1, n + e.2) := by
  simp [edges, boxTris]

theorem watertight_boxTris0 : Watertight (boxTris 0) := by
  unfold Watertight edges; decide

theorem watertight_append {ts : List TriI} {n : ℕ} (h : Watertight ts)
    (hn : ∀ t ∈ ts, t.i1 < n ∧ t.i2 < n ∧ t.i3 < n) : Watertight (ts ++ boxTris n) := by
  have hb : ∀ e ∈ edges ts, e.1 < n ∧ e.2 < n := by
    intro e he
    simp only [edges, List.mem_flatMap, List.mem_cons, List.not_mem_nil, or_false] at he
    obtain ⟨t, ht, rfl | rfl | rfl⟩ := he <;> obtain ⟨a, b, c⟩ := hn t ht <;> exact ⟨by assumption, by assumption⟩
  unfold Watertight
  rw [edges_append, edges_boxTris]
  obtain ⟨w1, w2⟩ := watertight_boxTris0
  constructor
  · refine List.Nodup.append h.1 (w1.map ?_) ?_
    · rintro ⟨a, b⟩ ⟨c, d⟩ hab
      simp only [Prod.mk.injEq] at hab ⊢
      omega
    · intro e he he2
      obtain ⟨f, _, rfl⟩ := List.mem_map.1 he2
      have := (hb _ he).1
      dsimp only at this
      omega
  · intro e he
    rcases List.mem_append.1 he with he | he
    · exact ⟨List.mem_append_left _ (h.2 e he).1, (h.2 e he).2⟩
    · obtain ⟨f, hf, rfl⟩ := List.mem_map.1 he
      refine ⟨List.mem_append_right _ (List.mem_map.2 ⟨_, (w2 f hf).1, rfl⟩), ?_⟩
      have := (w2 f hf).2
      dsimp only
      omega

theorem soup_lt {ps : List Vec3} {ts : List TriI} {l} (h : soup ps ts = some l) :
    ∀ t ∈ ts, t.i1 < ps.length ∧ t.i2 < ps.length ∧ t.i3 < ps.length := by
  rw [Mesh.soup_some] at h
  induction h with
  | nil => simp
  | cons hc _ ih =>
    intro t ht
    rcases List.mem_cons.1 ht with rfl | ht
    · exact ⟨(List.getElem?_eq_some_iff.1 hc.1).1, (List.getElem?_eq_some_iff.1 hc.2.1).1,
        (List.getElem?_eq_some_iff.1 hc.2.2).1⟩
    · exact ih t ht

/-- One `enclose`: what is added to the mesh. -/
theorem enclose_mesh (a o : Box) (T : Transform3) (h : a.mesh.points.length + 8 ≤ 2 ^ 32) :
    (a.enclose o T).mesh.points = a.mesh.points ++ corners8 (a.enclose o T).lo (a.enclose o T).hi ∧
    (a.enclose o T).mesh.tris = a.mesh.tris ++ boxTris a.mesh.points.length := by
  have e5 := (enclosePoints (ps := (o.mesh.getTransformed T).points) (b := a)).2.2.2.2
  constructor
  · have := (generateMesh_points ((o.mesh.getTransformed T).points.foldl Box.enclosePoint a)).2.2
    rw [e5] at this
    exact this
  · have := generateMesh_tris ((o.mesh.getTransformed T).points.foldl Box.enclosePoint a) (by rw [e5]; exact h)
    rw [e5] at this
    exact this

theorem enclose_step {a : Box} {l} (o : Box) (T : Transform3) (h : a.mesh.points.length + 8 ≤ 2 ^ 32)
    (hw : Watertight a.mesh.tris) (hs : soup a.mesh.points a.mesh.tris = some l) :
    Watertight (a.enclose o T).mesh.tris ∧
    soup (a.enclose o T).mesh.points (a.enclose o T).mesh.tris =
      some (l ++ boxSoup (a.enclose o T).lo (a.enclose o T).hi) ∧
    (a.enclose o T).mesh.points.length = a.mesh.points.length + 8 := by
  obtain ⟨h1, h2⟩ := enclose_mesh a o T h
  rw [h1, h2]
  refine ⟨watertight_append hw (soup_lt hs), Mesh.soup_append hs (boxTris_soup _ _ _), ?_⟩
  simp [corners8]

theorem new_mesh (lo hi : Vec3) : Watertight (Box.new lo hi).mesh.tris ∧
    soup (Box.new lo hi).mesh.points (Box.new lo hi).mesh.tris = some (boxSoup lo hi) ∧
    (Box.new lo hi).mesh.points.length = 8 := by
  have h1 : (Box.new lo hi).mesh.points = [] ++ corners8 lo hi := (generateMesh_points ⟨lo, hi, Mesh.new⟩).2.2
  have h2 : (Box.new lo hi).mesh.tris = boxTris 0 := by
    exact generateMesh_tris ⟨lo, hi, Mesh.new⟩ (by simp [Mesh.new, Mesh.invalidateCache])
  rw [h1, h2]
  exact ⟨watertight_boxTris0, boxTris_soup [] lo hi, rfl⟩

end Geo
