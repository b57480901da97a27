import Verif.Spec.DepthCamera

/-!
# Specification vocabulary for depth images of several objects (C107)
-/

namespace Geo.Spec
open Raster

/-- A user of `DepthCamera::render` who writes down the pixels it gets and never stops. (Specification.) -/
def recorder : Sink (List PixelCall) := ⟨fun s p => .ok (s ++ [p]), fun _ => false⟩

/-- An object with its pose as seen from the camera and the pointer that marks it. (Specification.) -/
structure SceneObject where
  mesh : Mesh
  pose : Transform3
  pointer : ℕ

/-- Calls of `rasterize` one after another for objects, with the same image and maps. (Specification.) -/
noncomputable def paintScene (c : Camera) : List SceneObject → DefaultResult → Exec DefaultResult
  | [], r => .ok r
  | o :: os, r => do
    let r ← rasterize c o.mesh o.pose r.image r.pointerMap o.pointer r.triangleMap
    paintScene c os r

/-- The picture of one object, drawn into an image with empty maps. (Specification.) -/
noncomputable def alone (c : Camera) (image : DepthImage) (o : SceneObject) : Exec DefaultResult :=
  rasterize c o.mesh o.pose image [] o.pointer []

/-- All pixels that the camera draws for the object at `(x, y)` have finite positive depths. (Specification.) -/
def CleanAt (c : Camera) (w h : ℕ) (o : SceneObject) (x y : ℕ) : Prop :=
  ∀ calls, render recorder c w h o.mesh o.pose true [] = .ok calls → ∀ p ∈ calls, At x y p → ∃ d, 0 < d ∧ p.depth = .fin d

end Geo.Spec
