import Verif.Spec.Import

/-!
# Specification vocabulary for import in floating point arithmetic
-/

namespace Geo.Spec
open Import

/-- Mesh number `k` is shown somewhere below the node; the matrices on the way, from the node down. (Specification.) -/
inductive PlacedBy : AiNode → ℕ → List AiMatrix → Prop where
  | here {t children meshes k} : k ∈ meshes → PlacedBy (.mk t children meshes) k [t]
  | child {t children meshes k c path} : c ∈ children → PlacedBy c k path → PlacedBy (.mk t children meshes) k (t :: path)

/-- Absolute values of coordinates. (Specification.) -/
def absVec (v : Vec3) : Vec3 := ⟨|v.x|, |v.y|, |v.z|⟩

/-- Absolute values of the elements of a matrix. (Specification.) -/
def absMat (m : Mat3) : Mat3 := ⟨|m.xx|, |m.xy|, |m.xz|, |m.yx|, |m.yy|, |m.yz|, |m.zx|, |m.zy|, |m.zz|⟩

/-- Absolute values of the elements of a pose. (Specification.) -/
def absPose (T : Transform3) : Transform3 := ⟨absMat T.R, absVec T.t⟩

/-- The composition of poses, all elements replaced by their absolute values. (Specification.) -/
def absChain (A : Transform3) (path : List AiMatrix) : Transform3 := path.foldl (fun A t => A.mul (absPose t.pose)) A

/-- How large the terms are that add up to the coordinates of the point for a vertex. (Specification.) -/
def magnitude (scale : Vec3) (transform : Bool) (A : Transform3) (v : Vec3) : Vec3 :=
  scaled (absVec scale) (if transform then A.apply (absVec v) else absVec v)

/-- All terms that add up to coordinates of the mesh are at most `B`, and no mesh is more than `n` levels down. (Specification.) -/
def TermsWithin (B : ℝ) (n : ℕ) (scene : List AiMesh) (scale : Vec3) (transform : Bool) (root : AiNode) (A : Transform3) : Prop :=
  ∀ k path, PlacedBy root k path → path.length ≤ n ∧ ∀ m, scene[k]? = some m → ∀ v ∈ m.vertices,
    (magnitude scale transform (absChain A path) v).x ≤ B ∧ (magnitude scale transform (absChain A path) v).y ≤ B ∧
    (magnitude scale transform (absChain A path) v).z ≤ B

/-- A scaled coordinate in millimetres is farther from every integer except zero than the rounding of the scaling. (Specification.) -/
def ClearKey (u s x : ℝ) : Prop := ∀ k : ℤ, k ≠ 0 → 2.1 * u * |1000 * s * x| < |1000 * s * x - k|

/-- A scaled coordinate is put in the same cell with and without rounding. (Specification.) -/
def SameKey (rnd : ℝ → ℝ) (s x : ℝ) : Prop := trunc (rnd (rnd (1000 * s) * x)) = trunc (1000 * s * x)

/-- All vertices shown are put in the same cells with and without rounding. (Specification.) -/
def KeysAgree (rnd : ℝ → ℝ) (scene : List AiMesh) (scale : Vec3) (root : AiNode) : Prop :=
  ∀ k path, PlacedBy root k path → ∀ m, scene[k]? = some m → ∀ v ∈ m.vertices,
    SameKey rnd scale.x v.x ∧ SameKey rnd scale.y v.y ∧ SameKey rnd scale.z v.z

/-- The meshes have the same triangles, and points whose coordinates differ by at most `e`. (Specification.) -/
def CloseMesh (e : ℝ) (m' m : Mesh) : Prop :=
  m'.tris = m.tris ∧ List.Forall₂ (fun p q => |p.x - q.x| ≤ e ∧ |p.y - q.y| ≤ e ∧ |p.z - q.z| ≤ e) m'.points m.points

end Geo.Spec
