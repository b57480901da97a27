import Verif.Model.Rounded
import Verif.Spec.Rounded

/-!
# Specification vocabulary for long chains of poses
-/

namespace Geo.Spec

open Matrix

/-- The two matrices move no vector further apart than the part `e` of its length. (Specification.) -/
def NearMat (e : ℝ) (A B : Mat3) : Prop := ∀ f, len (M A *ᵥ f - M B *ᵥ f) ≤ e * len f

/-- Every pose of the list, as the program has it (first), has the translation of a true rigid motion (second) and a matrix
near that of the motion. (Specification.) -/
def Follows (e : ℝ) (l : List (Transform3 × Transform3)) : Prop :=
  ∀ x ∈ l, Rigid x.2 ∧ x.1.t = x.2.t ∧ NearMat e x.1.R x.2.R

/-- The product of the poses, from the left, as a program computes it step by step. (Specification.) -/
noncomputable def computed (rnd : ℝ → ℝ) (l : List (Transform3 × Transform3)) : Transform3 :=
  l.foldl (fun P x => Rounded.mul rnd P x.1) Transform3.identity

/-- The true position of a point after the motions: the last one is applied first. (Specification.) -/
noncomputable def motion (l : List (Transform3 × Transform3)) (f : Fin 3 → ℝ) : Fin 3 → ℝ :=
  l.foldr (fun x f => M x.2.R *ᵥ f + V x.2.t) f

/-- The length of the way: the sum of the lengths of the translations. (Specification.) -/
noncomputable def way (l : List (Transform3 × Transform3)) : ℝ := (l.map fun x => len (V x.2.t)).sum

end Geo.Spec
