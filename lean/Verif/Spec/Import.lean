import Verif.Model.Import
import Verif.Spec.Mesh

/-!
# Specification vocabulary for imported scenes
-/

namespace Geo.Spec

open Import

/-- Component-wise scaling. (Specification.) -/
def scaled (s v : Vec3) : Vec3 := ⟨s.x * v.x, s.y * v.y, s.z * v.z⟩

/-- Mesh number `k` is shown with pose `P` somewhere below the node, which stands in a parent frame. (Specification.) -/
inductive Placed : AiNode → Transform3 → ℕ → Transform3 → Prop where
  | here {t children meshes parent k} : k ∈ meshes → Placed (.mk t children meshes) parent k (parent.mul t.pose)
  | child {t children meshes parent k c P} : c ∈ children → Placed c (parent.mul t.pose) k P →
      Placed (.mk t children meshes) parent k P

/-- A point that may stand for vertex `v` of a mesh placed with pose `P`: the scaled, posed image of a vertex of the mesh in
the same millimetre cell (of the scaled vertices before posing). (Specification.) -/
def StandsFor (scale : Vec3) (transform : Bool) (P : Transform3) (m : AiMesh) (v p : Vec3) : Prop :=
  ∃ v' ∈ m.vertices, SameCell3 (scaled scale v') (scaled scale v) ∧
    p = scaled scale (if transform then P.apply v' else v')

/-- A triangle of the mesh stands for the face with the given vertices. (Specification.) -/
def ShowsFace (scale : Vec3) (transform : Bool) (P : Transform3) (m : AiMesh) (points : List Vec3) (t : TriI) (a b c : ℕ) : Prop :=
  ∃ va vb vc pa pb pc, m.vertices[a]? = some va ∧ m.vertices[b]? = some vb ∧ m.vertices[c]? = some vc ∧
    points[t.i1]? = some pa ∧ points[t.i2]? = some pb ∧ points[t.i3]? = some pc ∧
    StandsFor scale transform P m va pa ∧ StandsFor scale transform P m vb pb ∧ StandsFor scale transform P m vc pc

/-- A pose followed by uniform scaling. (Specification.) -/
def scaledPose (r : ℝ) (P : Transform3) : Transform3 :=
  ⟨⟨r * P.R.xx, r * P.R.xy, r * P.R.xz, r * P.R.yx, r * P.R.yy, r * P.R.yz, r * P.R.zx, r * P.R.zy, r * P.R.zz⟩,
    ⟨r * P.t.x, r * P.t.y, r * P.t.z⟩⟩

/-- Points and triangles show the triangular faces of all meshes placed in the tree, and only those, each with a pose that
depends on its pose in the tree. (Specification.) -/
def ShowsScene (scene : List AiMesh) (root : AiNode) (scale : Vec3) (pose : Transform3 → Transform3) (points : List Vec3)
    (tris : List TriI) : Prop :=
  (∀ k P, Placed root Transform3.identity k P → ∃ M, scene[k]? = some M ∧ ∀ a b c, [a, b, c] ∈ M.faces →
    ∃ t ∈ tris, ShowsFace scale true (pose P) M points t a b c) ∧
  ∀ t ∈ tris, ∃ k P M a b c, Placed root Transform3.identity k P ∧ scene[k]? = some M ∧ [a, b, c] ∈ M.faces ∧
    ShowsFace scale true (pose P) M points t a b c

/-- The points added for mesh number `k` placed with pose `P`: the scaled, posed images of some of its vertices, one for every
millimetre cell that has a vertex. (Specification.) -/
def Block (scene : List AiMesh) (scale : Vec3) (transform : Bool) (kP : ℕ × Transform3) (points : List Vec3) : Prop :=
  ∃ (m : AiMesh) (kept : List Vec3), scene[kP.1]? = some m ∧ kept.Sublist m.vertices ∧
    (kept.Pairwise fun v w => ¬ SameCell3 (scaled scale v) (scaled scale w)) ∧
    (∀ v ∈ m.vertices, ∃ w ∈ kept, SameCell3 (scaled scale w) (scaled scale v)) ∧
    points = kept.map fun v => scaled scale (if transform then kP.2.apply v else v)

mutual

/-- How many meshes are shown at and below a node. (Specification.) -/
def placeCount : AiNode → ℕ
  | .mk _ children meshes => placeCountL children + meshes.length

/-- The same for a list of nodes. (Specification.) -/
def placeCountL : List AiNode → ℕ
  | [] => 0
  | n :: ns => placeCount n + placeCountL ns

end

/-- The scene refers to existing meshes and vertices and its scaled coordinates are within the range of `int` in millimetres.
(Specification.) -/
def SceneOk (scene : List AiMesh) (scale : Vec3) (root : AiNode) (parent : Transform3) : Prop :=
  ∀ k P, Placed root parent k P → ∃ m, scene[k]? = some m ∧ (∀ v ∈ m.vertices, InIntRange (scaled scale v)) ∧
    ∀ a b c, [a, b, c] ∈ m.faces → a < m.vertices.length ∧ b < m.vertices.length ∧ c < m.vertices.length

end Geo.Spec
