import Verif.Model.RoundedOctreeQueries

/-!
# Octrees that are asked between additions, in floating point arithmetic
-/

namespace Geo.Rounded

/-- Calls to an octree; their effect is `octStep`. (Models a client, no line in /repo.) -/
inductive OctCall where
  | add (p : Vec3)
  | clear
  | getMesh
  | getBoundingBox

/-- The effect of a call on the object. The methods are cited at their models. (Models a client, no line in /repo.) -/
noncomputable def octStep (rnd : ℝ → ℝ) (t : Octree) : OctCall → Exec Octree
  | .add p => octAdd rnd t p
  | .clear => .ok t.clear
  | .getMesh => do let (t, _) ← octMesh rnd t; return t
  | .getBoundingBox => do let (t, _) ← octBoundingBox rnd t; return t

/-- A sequence of calls. (Models a client, no line in /repo.) -/
noncomputable def octCalls (rnd : ℝ → ℝ) : List OctCall → Octree → Exec Octree
  | [], t => .ok t
  | o :: os, t => do let t ← octStep rnd t o; octCalls rnd os t

end Geo.Rounded
