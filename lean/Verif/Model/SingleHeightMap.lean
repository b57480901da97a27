import Verif.Model.Single
import Verif.Model.HeightMap

/-!
# The ray query of height maps with its casts to `float`

As in `Model/Single`, arithmetic in `double` is exact and the casts to `float` are the rounding `rnd`. With `rnd` the identity, the
functions are those of `Model/HeightMap` (`Lemmas/SingleHeightMap`).
-/

namespace Geo

/-- `HeightMapNode::intersect`, src/HeightMapNode.cpp:59-100, as `HNode.intersectRay`, with the casts to `float` in
`Box::intersect` (src/Box.cpp:31-61). -/
noncomputable def HNode.intersectRayF (rnd : ℝ → ℝ) : HNode → Ray → ℝ → ℝ → ℝ → Bool × ℝ
  | .null, _, _, _, d => (false, d)
  | .node box occupied children, r, t0, t1, d =>
    let hit := box.intersectRayF rnd r t0 t1 d
    if !hit.1 then (false, hit.2)
    else if occupied then (true, hit.2)
    else
      let f := fun i d => intersectRayF rnd (children i) r t0 t1 d
      let first := loopOrigin (fun i => (children i).boxContains r.origin) f [0, 1, 2, 3] hit.2 none
      if first.1 then (true, first.2.1) else loopRest first.2.2 f [0, 1, 2, 3] first.2.1

/-- `HeightMap::intersect`, src/HeightMap.cpp:39-46, with the casts to `float` in `Box::intersect` (src/Box.cpp:31-61). -/
noncomputable def HeightMap.intersectRayF (rnd : ℝ → ℝ) (hm : HeightMap) (r : Ray) (t0 t1 d : ℝ) : Bool × ℝ :=
  hm.root.intersectRayF rnd r t0 t1 d

end Geo
