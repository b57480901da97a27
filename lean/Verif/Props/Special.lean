import Verif.Lemmas.Special
import Verif.Lemmas.OctreeUse

/-!
# Property C92: points with infinite or NaN coordinates
-/

namespace Geo

open Spec

theorem notOfVec {p : FVec} (h : ¬ FinitePoint p) (v : Vec3) : p ≠ FVec.ofVec v :=
  fun e => h ⟨v.x, v.y, v.z, e⟩

/-- C92: on points of ordinary numbers the queries are those of the other properties. -/
theorem C92_finite (b : Box) (m : Mesh) (t : Octree) (p : Vec3) (r : ℝ) :
    b.containsS ⟨.fin p.x, .fin p.y, .fin p.z⟩ = b.contains p ∧
    b.intersectSphereS ⟨.fin p.x, .fin p.y, .fin p.z⟩ r = b.intersectSphere p r ∧
    Shape.containsMeshS m ⟨.fin p.x, .fin p.y, .fin p.z⟩ = Shape.containsMesh m p ∧
    Shape.intersectSphereMeshS m ⟨.fin p.x, .fin p.y, .fin p.z⟩ r = Shape.intersectSphereMesh m p r ∧
    (∀ size, OctReach size t → t.containsS ⟨.fin p.x, .fin p.y, .fin p.z⟩ = t.contains p ∧
      t.addS ⟨.fin p.x, .fin p.y, .fin p.z⟩ = t.add p) := by
  refine ⟨Box.containsS_fin b p, Box.intersectSphereS_fin b p r, Shape.containsMeshS_fin m p,
    Shape.intersectSphereMeshS_fin m p r, fun size h => ?_⟩
  obtain ⟨k, hg⟩ := Octree.reach_good h
  exact ⟨Octree.containsS_standIn hg (by simp), Octree.addS_standIn hg _⟩

/-- C92: no point with a special coordinate is in a box, and no ball around one meets a box. -/
theorem C92_box (lo hi : Vec3) (p : FVec) (hp : ¬ FinitePoint p) (r : ℝ) :
    (Box.new lo hi).containsS p = false ∧ (Box.new lo hi).intersectSphereS p r = false :=
  ⟨Box.containsS_special (notOfVec hp) _, Box.intersectSphereS_special (notOfVec hp) _ _⟩

/-- C92: no point with a special coordinate is in a mesh, and no ball around one meets a mesh. -/
theorem C92_mesh (m : Mesh) (hv : Valid m.points m.tris) (p : FVec) (hp : ¬ FinitePoint p) (r : ℝ) :
    Shape.containsMeshS m p = .ok false ∧ Shape.intersectSphereMeshS m p r = .ok false :=
  ⟨Shape.containsMeshS_special (notOfVec hp) m hv, Shape.intersectSphereMeshS_special (notOfVec hp) m hv r⟩

/-- C92 case: a point with one NaN coordinate. -/
example : ¬ FinitePoint ⟨.fin 0, .nan, .fin 1⟩ := by
  rintro ⟨x, y, z, h⟩
  simp at h

/-- C92, partial: full statement: no point with a special coordinate is in an octree, and adding it changes nothing. Proved:
no point with an infinite coordinate is in the tree. A NaN coordinate counts as the lower bound of the tree on its axis
when asking, and so does negative infinity when adding; positive infinity counts as the upper bound when adding. For the
failing cases see `C92_octree_wrong`. -/
theorem C92_octree_partial (size : ℝ) (t : Octree) (h : OctReach size t) (p : FVec) :
    (InfinitePoint p → t.containsS p = false) ∧
    (¬ InfinitePoint p → t.containsS p = t.contains
      ⟨standIn t.offset.x t.max.x p.x, standIn t.offset.y t.max.y p.y, standIn t.offset.z t.max.z p.z⟩) ∧
    t.addS p = t.add
      ⟨standIn t.offset.x t.max.x p.x, standIn t.offset.y t.max.y p.y, standIn t.offset.z t.max.z p.z⟩ := by
  obtain ⟨k, hg⟩ := Octree.reach_good h
  exact ⟨Octree.containsS_inf, Octree.containsS_standIn hg, Octree.addS_standIn hg p⟩

/-- C92 case: a tree with an occupied cell. -/
example : ∃ t S, OctReach 2 t ∧ Shows t t.resolution t.offset S ∧ S (1, 1, 1) := by
  obtain ⟨t0, t, h1, h2, h3, h4, h5, h6, h7, h8, h9⟩ := tree2
  exact ⟨t, _, h5, Octree.good_shows h3, (h8 _).2 rfl⟩

/-- C92 fails for octrees: in an empty tree of eight cells, the point (NaN, NaN, NaN) is added as the lowest cell, and is then
contained. The point (infinity, NaN, 0), which is not contained, occupies a cell as well. -/
theorem C92_octree_wrong : ∃ t t' t'', Octree.new 2 1 = .ok t ∧ t.getCubes = [] ∧
    t.addS ⟨.nan, .nan, .nan⟩ = .ok t' ∧ t'.getCubes = [Box.new ⟨-1, -1, -1⟩ ⟨0, 0, 0⟩] ∧
    t'.containsS ⟨.nan, .nan, .nan⟩ = true ∧
    t.addS ⟨.pinf, .nan, .fin 0⟩ = .ok t'' ∧ t''.getCubes = [Box.new ⟨0, -1, -1⟩ ⟨1, 0, 0⟩] ∧
    t''.containsS ⟨.pinf, .nan, .fin 0⟩ = false := by
  classical
  have ht := Octree.new_eq (size := 2) (r := 1) 1 (by norm_num) (by simp)
  norm_num at ht
  set t : Octree := ⟨1, ⟨-1, -1, -1⟩, ⟨1, 1, 1⟩, 2, OctNode.new 2, Mesh.new, Shape.new⟩ with hte
  have hr : OctReach 2 t := ⟨by norm_num, by norm_num [hte], 1, _, [], by norm_num, ht, by simp, rfl⟩
  obtain ⟨k, hg⟩ := Octree.reach_good hr
  let leaf : OctNode := .node 1 true fun _ => .null
  let tree : Fin 8 → Octree := fun i => { t with root := .node 2 false (Function.update (fun _ => .null) i leaf) }
  have run : ∀ q : Vec3, t.add q = .ok (tree (OctNode.index (decide ((q - t.offset).x > 1)) (decide ((q - t.offset).y > 1))
      (decide ((q - t.offset).z > 1)))) := by
    intro q
    have h : OctNode.add t.resolution 2 t.root (q - t.offset) = .ok (.node 2 false (Function.update (fun _ => .null)
        (OctNode.index (decide ((q - t.offset).x > 1)) (decide ((q - t.offset).y > 1)) (decide ((q - t.offset).z > 1))) leaf)) := by
      generalize q - t.offset = d
      simp only [hte, OctNode.new, OctNode.add]
      norm_num
      have h1 : ∀ e, OctNode.add 1 1 (OctNode.node 1 false fun _ => .null) e = .ok leaf := by
        intro e
        simp only [OctNode.add]
        rw [if_pos (by norm_num)]
      simp only [OctNode.ensure, OctNode.new, h1]
      rfl
    unfold Octree.add
    rw [(OctNode.add_steady _ _ _).eq h (by simp)]
    rfl
  have cube : ∀ x y z, (tree (OctNode.index x y z)).getCubes =
      [Box.new (⟨-1, -1, -1⟩ + OctNode.shift 2 x y z) (⟨-1, -1, -1⟩ + OctNode.shift 2 x y z + ⟨1, 1, 1⟩)] := by
    intro x y z
    cases x <;> cases y <;> cases z <;>
      simp [tree, leaf, Octree.getCubes, OctNode.getCubes, OctNode.octants, OctNode.index, hte, Function.update]
  have a1 := Octree.addS_standIn hg ⟨.nan, .nan, .nan⟩
  have a2 := Octree.addS_standIn hg ⟨.pinf, .nan, .fin 0⟩
  rw [run] at a1 a2
  refine ⟨t, _, _, ht, ?_, a1, ?_, ?_, a2, ?_, Octree.containsS_inf (by simp)⟩
  · simp [hte, Octree.getCubes, OctNode.new, OctNode.getCubes, OctNode.octants]
  · rw [cube]
    norm_num [hte, standIn, OctNode.shift]
    congr 1 <;> ext <;> norm_num
  · have f : (tree (OctNode.index false false false)).containsS ⟨.nan, .nan, .nan⟩ = true := by
      simp [tree, leaf, hte, Octree.containsS, OctNode.containsS, OctNode.index,
        FVec.sub, FVec.ofVec]
    convert f using 3
    norm_num [hte, standIn]
  · rw [cube]
    norm_num [hte, standIn, OctNode.shift]
    congr 1 <;> ext <;> norm_num

end Geo
