import Verif.Lemmas.Frame
import Verif.Lemmas.ClearCase

/-!
# Concrete motions and meshes for the cases of C109
-/

namespace Geo
open Spec

theorem length_add_le (a b : Vec3) : (a + b).length ≤ a.length + b.length := by
  have ha : 0 ≤ a.length := Real.sqrt_nonneg _
  have hb : 0 ≤ b.length := Real.sqrt_nonneg _
  have hd : a.dot b ≤ a.length * b.length := by
    apply le_of_sq_le_sq ?_ (mul_nonneg ha hb)
    rw [mul_pow, vlength_sq, vlength_sq]
    simp only [Vec3.dot, Vec3.length2]
    linarith [sq_nonneg (a.x * b.y - a.y * b.x), sq_nonneg (a.x * b.z - a.z * b.x), sq_nonneg (a.y * b.z - a.z * b.y)]
  apply le_of_sq_le_sq ?_ (add_nonneg ha hb)
  have e : (a + b).length2 = a.length2 + 2 * a.dot b + b.length2 := by
    simp only [Vec3.dot, Vec3.length2, Vec3.add_x, Vec3.add_y, Vec3.add_z]
    ring
  rw [vlength_sq, e, ← vlength_sq, ← vlength_sq]
  linarith

theorem apply_zero {T : Transform3} (h0 : T.t = ⟨0, 0, 0⟩) : T.apply ⟨0, 0, 0⟩ = ⟨0, 0, 0⟩ := by
  ext <;> simp [Transform3.apply, Mat3.mulVec, h0]

theorem isRadius_turn {m : Mesh} {T : Transform3} (h0 : T.t = ⟨0, 0, 0⟩) (hT : Rotation T.R) {r : ℝ} (hr : IsRadius m.points r) :
    IsRadius (m.getTransformed T).points r := by
  have hd : ∀ q, Spec.dist (T.apply q) ⟨0, 0, 0⟩ = Spec.dist q ⟨0, 0, 0⟩ := by
    intro q
    have := rigid_apply_sq (T := T) hT.1 q ⟨0, 0, 0⟩
    rw [apply_zero h0] at this
    unfold Spec.dist; rw [this]
  change IsRadius (m.points.map T.apply) r
  refine ⟨?_, hr.2.imp ?_ ?_⟩
  · intro q hq
    obtain ⟨v, hv, rfl⟩ := List.mem_map.1 hq
    rw [hd]
    exact hr.1 v hv
  · rintro ⟨v, hv, e⟩
    exact ⟨T.apply v, List.mem_map.2 ⟨v, hv, rfl⟩, by rw [hd]; exact e⟩
  · rintro ⟨e1, e2⟩
    exact ⟨by rw [e1]; rfl, e2⟩

/-- A quarter turn about the z axis. (Device of the proofs.) -/
def quarterZ : Transform3 := ⟨⟨0, -1, 0, 1, 0, 0, 0, 0, 1⟩, ⟨0, 0, 0⟩⟩

/-- A quarter turn about the x axis. (Device of the proofs.) -/
def quarterX : Transform3 := ⟨⟨1, 0, 0, 0, 0, -1, 0, 1, 0⟩, ⟨0, 0, 0⟩⟩

/-- A translation. (Device of the proofs.) -/
def shifted (x y z : ℝ) : Transform3 := ⟨⟨1, 0, 0, 0, 1, 0, 0, 0, 1⟩, ⟨x, y, z⟩⟩

theorem rotation_of_entries {a : Mat3} (h : Orthogonal a) (hd : a.xx * (a.yy * a.zz - a.yz * a.zy) -
    a.xy * (a.yx * a.zz - a.yz * a.zx) + a.xz * (a.yx * a.zy - a.yy * a.zx) = 1) : Rotation a := by
  refine ⟨h, ?_⟩
  rw [Matrix.det_fin_three]
  simp [M]
  linarith

theorem quarterZ_rotation : Rotation quarterZ.R :=
  rotation_of_entries ((orth_iff _).2 (by norm_num [quarterZ])) (by norm_num [quarterZ])

theorem quarterX_rotation : Rotation quarterX.R :=
  rotation_of_entries ((orth_iff _).2 (by norm_num [quarterX])) (by norm_num [quarterX])

theorem shifted_rotation (x y z : ℝ) : Rotation (shifted x y z).R :=
  rotation_of_entries ((orth_iff _).2 (by norm_num [shifted])) (by norm_num [shifted])

/-- The turned tetrahedron. (Device of the proofs.) -/
def turnedTs : List (Vec3 × Vec3 × Vec3) :=
  [(⟨-2, 2, 1⟩, ⟨-1, -2, 2⟩, ⟨2, 1, 2⟩),
    (⟨-2, 2, 1⟩, ⟨2, -1, -2⟩, ⟨-1, -2, 2⟩),
    (⟨-2, 2, 1⟩, ⟨2, 1, 2⟩, ⟨2, -1, -2⟩),
    (⟨-1, -2, 2⟩, ⟨2, -1, -2⟩, ⟨2, 1, 2⟩)]

theorem turned_in : ∀ t ∈ turnedTs, Clear ⟨-1/5, 1/10, 3/10⟩ ⟨1.1 * 3, 0, 0⟩ t ∧
    (∀ i j, contact ⟨-1/5, 1/10, 3/10⟩ ⟨1.1 * 3, 0, 0⟩ (i, t) ≠ some (.vertex j)) ∧
    ∀ e ∈ rim t, 1e-16 < |vol4 ⟨-1/5, 1/10, 3/10⟩ ⟨1.1 * 3, 0, 0⟩ e.1 e.2| := by
  intro t ht
  simp only [turnedTs, List.mem_cons, List.not_mem_nil, or_false] at ht
  rcases ht with rfl | rfl | rfl | rfl
  · exact clear_case (819/100) (196/25) (751/100) (1559/100) (27/10) (281/100) (73/25) (17/4) (17/4) (17/4) (by simp only [vol4_eq]; norm_num)
      (by simp only [vol4_eq]; norm_num) (by simp only [vol4_eq]; norm_num) (by simp only [side]; norm_num)
      (by norm_num [area4]) (by norm_num [distSq])
  · exact clear_case (887/100) (751/100) (99/20) (421/20) (27/10) (84/25) (281/100) (146/25) (51/10) (17/4) (by simp only [vol4_eq]; norm_num)
      (by simp only [vol4_eq]; norm_num) (by simp only [vol4_eq]; norm_num) (by simp only [side]; norm_num)
      (by norm_num [area4]) (by norm_num [distSq])
  · exact clear_case (246/25) (99/20) (196/25) (1887/100) (27/10) (73/25) (84/25) (17/4) (112/25) (146/25) (by simp only [vol4_eq]; norm_num)
      (by simp only [vol4_eq]; norm_num) (by simp only [vol4_eq]; norm_num) (by simp only [side]; norm_num)
      (by norm_num [area4]) (by norm_num [distSq])
  · exact clear_case (246/25) (819/100) (887/100) (1801/100) (281/100) (84/25) (73/25) (51/10) (112/25) (17/4) (by simp only [vol4_eq]; norm_num)
      (by simp only [vol4_eq]; norm_num) (by simp only [vol4_eq]; norm_num) (by simp only [side]; norm_num)
      (by norm_num [area4]) (by norm_num [distSq])

/-- A triangle with an edge on the x axis. (Device of the proofs.) -/
def cornerMesh : Mesh := ⟨[⟨0, 0, 0⟩, ⟨1, 0, 0⟩, ⟨0, 1, 0⟩], [⟨0, 1, 2⟩], [], 0, 0⟩

theorem cornerMesh_reachable : Reachable cornerMesh :=
  ⟨[.addPoint ⟨0, 0, 0⟩, .addPoint ⟨1, 0, 0⟩, .addPoint ⟨0, 1, 0⟩, .addTriangle 0 1 2], rfl⟩

theorem cornerMesh_radius : IsRadius cornerMesh.points 1 := by
  constructor
  · intro p hp
    rw [Spec.dist, Real.sqrt_le_left (by norm_num)]
    simp only [cornerMesh, List.mem_cons, List.not_mem_nil, or_false] at hp
    rcases hp with rfl | rfl | rfl <;> simp only [distSq] <;> norm_num
  · left
    exact ⟨⟨1, 0, 0⟩, by simp [cornerMesh], by norm_num [Spec.dist, distSq]⟩

theorem cornerMesh_shifted_points :
    (cornerMesh.getTransformed (shifted (-5) 0 1)).points = [⟨-5, 0, 1⟩, ⟨-4, 0, 1⟩, ⟨-5, 1, 1⟩] := by
  simp only [cornerMesh, Mesh.getTransformed, List.map_cons, List.map_nil, List.cons.injEq, and_true]
  refine ⟨?_, ?_, ?_⟩ <;> ext <;> norm_num [shifted, Transform3.apply, Mat3.mulVec]

theorem cornerMesh_shifted_radius : IsRadius (cornerMesh.getTransformed (shifted (-5) 0 1)).points (Real.sqrt 27) := by
  rw [cornerMesh_shifted_points]
  constructor
  · intro p hp
    apply Real.sqrt_le_sqrt
    simp only [List.mem_cons, List.not_mem_nil, or_false] at hp
    rcases hp with rfl | rfl | rfl <;> simp only [distSq] <;> norm_num
  · left
    exact ⟨⟨-5, 1, 1⟩, by simp, by norm_num [Spec.dist, distSq]⟩

end Geo
