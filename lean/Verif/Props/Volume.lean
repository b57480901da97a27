import Verif.Lemmas.Volume
import Verif.Lemmas.WindingMesh
import Verif.Lemmas.ClearCase
import Verif.Lemmas.FrameCases
import Verif.Lemmas.Composite
import Verif.Props.Mesh

/-!
# Property theorems C111: mesh operations, closed surfaces and their volume
-/

namespace Geo
open Spec

/-- C111: adding a closed mesh to a closed mesh gives a closed mesh, and the volumes add. -/
theorem C111_add (m n : Mesh) (l k : List (Vec3 × Vec3 × Vec3)) (hm : soup m.points m.tris = some l)
    (hn : soup n.points n.tris = some k) (hl : m.points.length + n.points.length ≤ 2 ^ 32)
    (cm : ClosedSoup l) (cn : ClosedSoup k) :
    ∃ j, soup (m.add n).points (m.add n).tris = some j ∧ ClosedSoup j ∧
      (j.map vol6).sum = (l.map vol6).sum + (k.map vol6).sum :=
  ⟨l ++ k, (C12_add m n l k hm hn hl).2, closed_append cm cn, by simp⟩

/-- C111: a transformed closed mesh is closed, whatever the transformation; its volume is that of the mesh
times the determinant of the linear part, so a rigid motion keeps it. -/
theorem C111_transform (m : Mesh) (l : List (Vec3 × Vec3 × Vec3)) (hm : soup m.points m.tris = some l)
    (cm : ClosedSoup l) (T : Transform3) :
    ∃ j, soup (m.getTransformed T).points (m.getTransformed T).tris = some j ∧ ClosedSoup j ∧
      (j.map vol6).sum = (M T.R).det * (l.map vol6).sum ∧
      (Rotation T.R → (j.map vol6).sum = (l.map vol6).sum) := by
  refine ⟨_, (C14_transform m T T T).2.1 l hm, closed_map T.apply cm, vol6_moved cm T, fun hr => ?_⟩
  rw [vol6_moved cm T, hr.2, one_mul]

/-- C111: merging overlapping vertices keeps a closed mesh closed, though triangles may collapse; with all
coordinates at most `B`, six times the volume changes by at most 0.036 `B`² per triangle. -/
theorem C111_merge (m : Mesh) (l : List (Vec3 × Vec3 × Vec3)) (hm : soup m.points m.tris = some l)
    (cm : ClosedSoup l) (hr : ∀ p ∈ m.points, InIntRange p) (hl : m.points.length ≤ 2 ^ 32)
    (B : ℝ) (hB : 0 ≤ B) (hb : ∀ p ∈ m.points, |p.x| ≤ B ∧ |p.y| ≤ B ∧ |p.z| ≤ B) :
    ∃ m' j, m.filterOverlappingVertices = .ok m' ∧ soup m'.points m'.tris = some j ∧ ClosedSoup j ∧
      |(j.map vol6).sum - (l.map vol6).sum| ≤ m.tris.length * (0.036 * B ^ 2) := by
  obtain ⟨m', -, h1, -, -, -, -, hsub, hp, l', j, hs, hj, hf⟩ := C13_merge m (Mesh.valid_of_soup hm) hr hl
  obtain rfl : l' = l := Option.some.inj (hs.symm.trans hm)
  have hmem := soup_corners_mem hj
  have hmem0 := soup_corners_mem hm
  obtain ⟨f, e⟩ := cells_map hp hmem hf
  refine ⟨m', j, h1, hj, e ▸ closed_map f cm, ?_⟩
  have hw : ∀ p ∈ m.points, AtMost3 B p := hb
  have hlen : m.tris.length = l'.length := (Mesh.soup_some.1 hm).length_eq
  have close : ∀ {p q : Vec3}, SameCell3 p q → Close3 0.002 p q := by
    intro p q h
    obtain ⟨a, b, c, -⟩ := C13_cell_size p q h
    refine ⟨?_, ?_, ?_⟩ <;> rw [abs_sub_comm] <;> refine le_of_lt (lt_of_lt_of_eq (by assumption) (by norm_num))
  have := vol6_close_sum (B := B) (δ := 0.002) hB (l := l') (l' := j) (by
    rw [List.forall₂_iff_get] at hf ⊢
    refine ⟨hf.1, fun i hi hi' => ?_⟩
    obtain ⟨a, b, c⟩ := hf.2 i hi hi'
    obtain ⟨u1, u2, -⟩ := hmem0 _ (List.get_mem l' ⟨i, hi⟩)
    obtain ⟨-, v2, v3⟩ := hmem _ (List.get_mem j ⟨i, hi'⟩)
    exact ⟨⟨hw _ u1, hw _ u2, hw _ (hsub.subset v2), hw _ (hsub.subset v3)⟩, close a, close b, close c⟩)
  rw [hlen]
  refine this.trans (le_of_eq ?_)
  ring

/-- C111: a composite of parts with closed meshes has a closed mesh, whose volume is the sum of the volumes of
the parts (parts that overlap count twice). -/
theorem C111_composite (l : List (ShapeObj × Transform3)) (hm : ∀ x ∈ l, GoodMesh x.1.mesh)
    (hc : ∀ x ∈ l, ClosedSoup (trianglesOf x.1.mesh)) (hr : ∀ x ∈ l, Rotation x.2.R)
    (hn : (l.map fun x => x.1.mesh.points.length).sum ≤ 2 ^ 32) :
    ∃ c, Composite.build l = .ok c ∧ ClosedSoup (trianglesOf c.mesh) ∧
      ((trianglesOf c.mesh).map vol6).sum = (l.map fun x => ((trianglesOf x.1.mesh).map vol6).sum).sum := by
  obtain ⟨c, hcb, -⟩ := Composite.build_from l hm Composite.new
  obtain ⟨-, htri⟩ := Composite.mesh_eq hm hn hcb
  refine ⟨c, hcb, ?_⟩
  rw [htri]
  clear hcb htri hn hm
  unfold posedTriangles
  induction l with
  | nil => exact ⟨List.Perm.refl _, rfl⟩
  | cons x l ih =>
    obtain ⟨i1, i2⟩ := ih (fun y hy => hc y (List.mem_cons_of_mem _ hy)) (fun y hy => hr y (List.mem_cons_of_mem _ hy))
    have hx := hc x List.mem_cons_self
    refine ⟨?_, ?_⟩
    · rw [List.flatMap_cons]
      exact closed_append (closed_map x.2.apply hx) i1
    · rw [List.flatMap_cons, List.map_append, List.sum_append, i2, List.map_cons, List.sum_cons]
      congr 1
      have := vol6_moved hx x.2
      rwa [(hr x List.mem_cons_self).2, one_mul] at this

/-- C111: the volume of a mesh that is not closed is not kept by a rigid motion: the hypothesis is needed. -/
theorem C111_needs_closed : ¬ ∀ (m : Mesh) (l : List (Vec3 × Vec3 × Vec3)), soup m.points m.tris = some l →
    ∀ T : Transform3, Rotation T.R →
      ∃ j, soup (m.getTransformed T).points (m.getTransformed T).tris = some j ∧ (j.map vol6).sum = (l.map vol6).sum := by
  intro h
  have hs : soup [⟨0, 0, 0⟩, ⟨1, 0, 0⟩, ⟨0, 1, 0⟩] [⟨0, 1, 2⟩] =
      some [((⟨0, 0, 0⟩ : Vec3), (⟨1, 0, 0⟩ : Vec3), (⟨0, 1, 0⟩ : Vec3))] := by simp [soup]
  obtain ⟨j, h1, h2⟩ := h ⟨[⟨0, 0, 0⟩, ⟨1, 0, 0⟩, ⟨0, 1, 0⟩], [⟨0, 1, 2⟩], [], 0, 0⟩ _ hs
    ⟨⟨1, 0, 0, 0, 1, 0, 0, 0, 1⟩, ⟨0, 0, 1⟩⟩ (rotation_of_entries ((orth_iff _).2 (by norm_num)) (by norm_num))
  rw [(C14_transform _ ⟨⟨1, 0, 0, 0, 1, 0, 0, 0, 1⟩, ⟨0, 0, 1⟩⟩ ⟨⟨1, 0, 0, 0, 1, 0, 0, 0, 1⟩, ⟨0, 0, 1⟩⟩
    ⟨⟨1, 0, 0, 0, 1, 0, 0, 0, 1⟩, ⟨0, 0, 1⟩⟩).2.1 _ hs] at h1
  obtain rfl := Option.some.inj h1
  norm_num [vol6, Transform3.apply, Mat3.mulVec] at h2

/-- C111 case: a tetrahedron of positive volume, turned and shifted. -/
example : soup tetraMesh.points tetraMesh.tris = some tetraTs ∧ ClosedSoup tetraTs ∧ 0 < (tetraTs.map vol6).sum ∧
    Rotation quarterZ.R := by
  refine ⟨rfl, watertight_closed (ps := tetraMesh.points) (is := tetraMesh.tris) rfl
    (by unfold Watertight edges tetraMesh; decide), ?_, quarterZ_rotation⟩
  norm_num [tetraTs, vol6]

/-- C111 case: its coordinates are at most 2. -/
example : (∀ p ∈ tetraMesh.points, InIntRange p) ∧ tetraMesh.points.length ≤ 2 ^ 32 ∧
    ∀ p ∈ tetraMesh.points, |p.x| ≤ 2 ∧ |p.y| ≤ 2 ∧ |p.z| ≤ 2 := by
  refine ⟨?_, by simp [tetraMesh], ?_⟩
  · simp [tetraMesh, InIntRange]; norm_num [abs_of_pos]
  · simp [tetraMesh, abs_le]; norm_num

/-- C111 case: two turned tetrahedra as parts of a composite. -/
example : let o := (⟨tetraMesh, false, 0, 0⟩ : Shape).toObj
    ∀ x ∈ [(o, quarterZ), (o, quarterX)], GoodMesh x.1.mesh ∧ ClosedSoup (trianglesOf x.1.mesh) ∧ Rotation x.2.R := by
  have hw : Watertight tetraMesh.tris := by unfold Watertight edges tetraMesh; decide
  have hg : GoodMesh tetraMesh := ⟨tetra_reachable, Mesh.valid_of_soup (l := tetraTs) rfl⟩
  intro o x hx
  simp only [List.mem_cons, List.not_mem_nil, or_false] at hx
  rcases hx with rfl | rfl
  · exact ⟨hg, watertight_closed (good_soup hg).1 hw, quarterZ_rotation⟩
  · exact ⟨hg, watertight_closed (good_soup hg).1 hw, quarterX_rotation⟩

end Geo
