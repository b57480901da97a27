import Verif.Model.NanComposite

/-!
# What a composite may do with the distances of its parts
-/

namespace Geo.Spec

/-- The same outcome, the same flag and, on a hit, the same number. (Specification.) -/
def Agrees (a : Exec (Bool × ℝ)) (b : Exec (Bool × Fl)) : Prop :=
  match a, b with
  | .error e, .error e' => e = e'
  | .ok x, .ok y => x.1 = y.1 ∧ (x.1 = true → y.2 = .fin x.2)
  | _, _ => False

/-- The ray query of the part writes the distance on every hit, whatever it finds in the variable. (Specification.) -/
def Writes (p : NanPart) : Prop := ∀ r t0 t1 d0 d, Agrees (p.obj.ray r t0 t1 d0) (p.ray r t0 (.fin t1) d)

/-- Built from boxes, height maps and plain meshes by composites within composites. (Specification.) -/
inductive WithoutOctrees : NanPart → Prop where
  | box (b : Box) : WithoutOctrees b.toNan
  | heightMap (h : HeightMap) : WithoutOctrees h.toNan
  | mesh (s : Shape) : WithoutOctrees s.toNan
  | composite (l : List (NanPart × Transform3)) (c : Composite)
      (hb : Composite.build (l.map fun x => (x.1.obj, x.2)) = .ok c) (h : ∀ x ∈ l, WithoutOctrees x.1) :
      WithoutOctrees (c.toNan l)

/-- Built from boxes, height maps and octrees by composites within composites. (Specification.) -/
inductive WithRays : NanPart → Prop where
  | box (b : Box) : WithRays b.toNan
  | heightMap (h : HeightMap) : WithRays h.toNan
  | octree (t : Octree) (m : Mesh) : WithRays (t.toNan m)
  | composite (l : List (NanPart × Transform3)) (c : Composite)
      (hb : Composite.build (l.map fun x => (x.1.obj, x.2)) = .ok c) (h : ∀ x ∈ l, WithRays x.1) : WithRays (c.toNan l)

end Geo.Spec
