import Verif.Model.Export
import Verif.Spec.Import

/-!
# Specification vocabulary for exported scenes
-/

namespace Geo.Spec

/-- A vector with narrowed coordinates. (Specification.) -/
def narrowed (narrow : ℝ → ℝ) (v : Vec3) : Vec3 := ⟨narrow v.x, narrow v.y, narrow v.z⟩

/-- A letter in lower case. (Specification.) -/
def lower (c : Char) : Char := if 'A'.toNat ≤ c.toNat ∧ c.toNat ≤ 'Z'.toNat then Char.ofNat (c.toNat + 32) else c

/-- The format that goes with the last three characters of a file name. (Specification.) -/
def formats : List (List Char × List Char) :=
  [("3ds".toList, "3ds".toList), ("3mf".toList, "3mf".toList), ("dae".toList, "collada".toList),
   ("ply".toList, "ply".toList), ("obj".toList, "obj".toList), ("stp".toList, "stp".toList), ("stl".toList, "stl".toList),
   ("x3d".toList, "x3d".toList)]

end Geo.Spec
