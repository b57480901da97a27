import Verif.Model.Math
import Mathlib.LinearAlgebra.Matrix.Determinant.Basic
import Mathlib.LinearAlgebra.Matrix.Notation
import Mathlib.LinearAlgebra.Matrix.NonsingularInverse

/-!
# Specification vocabulary for the linear algebra

Only Mathlib notions (matrices over `Fin 3`, determinant, transpose) and plain coordinates are
used; none of the operations of the model appears here.
-/

namespace Geo.Spec

open Matrix

/-- A model matrix as a Mathlib matrix. (Specification; include/geolib/math_types.h:678-685.) -/
def M (a : Mat3) : Matrix (Fin 3) (Fin 3) ℝ :=
  !![a.xx, a.xy, a.xz; a.yx, a.yy, a.yz; a.zx, a.zy, a.zz]

/-- A 2x2 model matrix as a Mathlib matrix. (Specification; include/geolib/math_types.h:382-389.) -/
def M2 (a : Mat2) : Matrix (Fin 2) (Fin 2) ℝ := !![a.xx, a.xy; a.yx, a.yy]

/-- A model vector as a Mathlib vector. (Specification; include/geolib/math_types.h:295-302.) -/
def V (a : Vec3) : Fin 3 → ℝ := ![a.x, a.y, a.z]

/-- A 2D model vector as a Mathlib vector. (Specification; include/geolib/math_types.h:146-153.) -/
def V2 (a : Vec2) : Fin 2 → ℝ := ![a.x, a.y]

/-- Orthogonal 3x3 matrix. (Specification.) -/
def Orthogonal (a : Mat3) : Prop := (M a)ᵀ * M a = 1

/-- Proper rotation. (Specification.) -/
def Rotation (a : Mat3) : Prop := (M a)ᵀ * M a = 1 ∧ (M a).det = 1

/-- Orthogonal 2x2 matrix. (Specification.) -/
def Orthogonal2 (a : Mat2) : Prop := (M2 a)ᵀ * M2 a = 1

/-- Rigid pose: orthogonal basis. (Specification.) -/
def Rigid (T : Transform3) : Prop := Orthogonal T.R

/-- Euclidean squared distance. (Specification.) -/
def distSq (u v : Vec3) : ℝ := (u.x - v.x) ^ 2 + (u.y - v.y) ^ 2 + (u.z - v.z) ^ 2

/-- Euclidean distance. (Specification.) -/
noncomputable def dist (u v : Vec3) : ℝ := Real.sqrt (distSq u v)

/-- Rotation about the x axis. (Specification.) -/
noncomputable def Rx (a : ℝ) : Matrix (Fin 3) (Fin 3) ℝ :=
  !![1, 0, 0; 0, Real.cos a, -Real.sin a; 0, Real.sin a, Real.cos a]

/-- Rotation about the y axis. (Specification.) -/
noncomputable def Ry (a : ℝ) : Matrix (Fin 3) (Fin 3) ℝ :=
  !![Real.cos a, 0, Real.sin a; 0, 1, 0; -Real.sin a, 0, Real.cos a]

/-- Rotation about the z axis. (Specification.) -/
noncomputable def Rz (a : ℝ) : Matrix (Fin 3) (Fin 3) ℝ :=
  !![Real.cos a, -Real.sin a, 0; Real.sin a, Real.cos a, 0; 0, 0, 1]

end Geo.Spec
