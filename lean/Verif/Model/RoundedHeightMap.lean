import Verif.Model.HeightMap
import Verif.Model.RoundedBox
import Verif.Model.RoundedMesh

/-!
# Height maps in floating point arithmetic

`Model/HeightMap` computes with real numbers. Here the rounding `rnd` follows every operation on `double`, and the rounding `toF` is that
of the casts to `float`; literals are rounded. With the identity for both the functions are those of `Model/HeightMap` (`C135_exact`).
Simplifications: as in `Model/HeightMap` and `Model/RoundedBox`.
-/

namespace Geo.RoundedHeightMap
open HeightMap HNode

/-- `HeightMapNode::intersect`, src/HeightMapNode.cpp:59-100, with the rounded `Box::intersect` (src/Box.cpp:31-61); `contains` only
compares. -/
noncomputable def nodeRay (rnd toF : ℝ → ℝ) : HNode → Ray → ℝ → ℝ → ℝ → Bool × ℝ
  | .null, _, _, _, d => (false, d)
  | .node box occupied children, r, t0, t1, d =>
    let hit := Rounded.boxRay rnd toF box r t0 t1 d
    if !hit.1 then (false, hit.2)
    else if occupied then (true, hit.2)
    else
      let f := fun i d => nodeRay rnd toF (children i) r t0 t1 d
      let first := loopOrigin (fun i => (children i).boxContains r.origin) f [0, 1, 2, 3] hit.2 none
      if first.1 then (true, first.2.1) else loopRest first.2.2 f [0, 1, 2, 3] first.2.1

/-- `HeightMap::intersect`, src/HeightMap.cpp:39-46. -/
noncomputable def intersectRay (rnd toF : ℝ → ℝ) (hm : HeightMap) (r : Ray) (t0 t1 d : ℝ) : Bool × ℝ :=
  nodeRay rnd toF hm.root r t0 t1 d

open Classical in
/-- `HeightMap::createQuadTree`, src/HeightMap.cpp:248-294; the maximum (256-263) and the comparison with 0 are exact. -/
noncomputable def createQuadTree (rnd : ℝ → ℝ) (map : List (List ℝ)) (x0 y0 x1 y1 : ℕ) (resolution : ℝ) : Exec HNode :=
  (maxHeight map x0 y0 x1 y1).bind fun max_height =>
  if max_height = 0 then .ok .null
  else
    let box := Box.new ⟨rnd (x0 * resolution), rnd (y0 * resolution), 0⟩
      ⟨rnd (x1 * resolution), rnd (y1 * resolution), max_height⟩
    if x1 - x0 = 1 ∨ y1 - y0 = 1 then
      if x1 - x0 = 1 ∧ y1 - y0 = 1 then .ok (.node box true fun _ => .null) else .error .exception
    else if h : x1 - x0 = 0 then .error .ub -- not reached: the height of an empty region is 0
    else
      let cx := (x1 + x0) / 2
      let cy := (y1 + y0) / 2
      (createQuadTree rnd map x0 y0 cx cy resolution).bind fun c0 =>
      (createQuadTree rnd map cx y0 x1 cy resolution).bind fun c1 =>
      (createQuadTree rnd map x0 cy cx y1 resolution).bind fun c2 =>
      (createQuadTree rnd map cx cy x1 y1 resolution).bind fun c3 =>
      .ok (.node box false ![c0, c1, c2, c3])
termination_by x1 - x0
decreasing_by all_goals omega

open Classical in
/-- The loop over `x2`, src/HeightMap.cpp:101-108, with the number of remaining iterations. -/
noncomputable def growRow (rnd : ℝ → ℝ) (grid : List (List ℝ)) (h : ℝ) (y2 : ℕ) : ℕ → ℕ → ℕ → Exec ℕ
  | 0, _, max_x => .ok max_x
  | n + 1, x2, max_x => do
    let v ← cell grid x2 y2
    if |rnd (v - h)| > rnd 1e-10 then return x2 else growRow rnd grid h y2 n (x2 + 1) max_x

open Classical in
/-- The loop over `y2`, src/HeightMap.cpp:99-110, with the number of rows left. -/
noncomputable def growRect (rnd : ℝ → ℝ) (grid : List (List ℝ)) (h : ℝ) (mx : ℕ) : ℕ → ℕ → ℕ → ℕ → Exec (ℕ × ℕ)
  | 0, _, max_x, max_y => .ok (max_x, max_y)
  | n + 1, y2, max_x, max_y => do
    let v ← cell grid mx y2
    if |rnd (v - h)| < rnd 1e-10 then do
      let max_x ← growRow rnd grid h y2 (max_x - mx) mx max_x
      growRect rnd grid h mx n (y2 + 1) max_x (max_y + 1)
    else return (max_x, max_y)

open Classical in
/-- The body of the loops over the cells for the top triangles, src/HeightMap.cpp:93-127. -/
noncomputable def topCell (rnd : ℝ → ℝ) (grid : List (List ℝ)) (resolution : ℝ) (mx_max my_max : ℕ)
    (s : (ℕ → ℕ → Bool) × Mesh) (mx my : ℕ) : Exec ((ℕ → ℕ → Bool) × Mesh) := do
  let h ← cell grid mx my
  if s.1 mx my = false ∧ h > 0 then do
    let (max_x, max_y) ← growRect rnd grid h mx (my_max - my) my mx_max my
    let visited := fun x y => s.1 x y || decide (mx ≤ x ∧ x < max_x ∧ my ≤ y ∧ y < max_y)
    let (m, p0, p1, p2, p3) := addCorners s.2 ⟨rnd (resolution * mx), rnd (resolution * my), h⟩
      ⟨rnd (resolution * max_x), rnd (resolution * my), h⟩ ⟨rnd (resolution * mx), rnd (resolution * max_y), h⟩
      ⟨rnd (resolution * max_x), rnd (resolution * max_y), h⟩
    return (visited, (m.addTriangle p0 p1 p2).addTriangle p1 p3 p2)
  else return s

/-- The loops for the top triangles, src/HeightMap.cpp:82-129. -/
noncomputable def tops (rnd : ℝ → ℝ) (grid : List (List ℝ)) (resolution : ℝ) (mx_max my_max : ℕ) (m : Mesh) : Exec Mesh := do
  let s ← (List.range mx_max).foldlM (fun s mx =>
    (List.range my_max).foldlM (fun s my => topCell rnd grid resolution mx_max my_max s mx my) s)
    ((fun _ _ => false), m)
  return s.2

open Classical in
/-- The body of the inner loops for side triangles, src/HeightMap.cpp:152-183 and 207-238. -/
noncomputable def sideBody (rnd : ℝ → ℝ) (quad : Mesh → ℕ → ℕ → ℝ → ℝ → Mesh) (s : SideState) (i : ℕ) (h h2 : ℝ) : SideState :=
  match s.start with
  | some i0 =>
    if rnd (|rnd (h - s.h_last)| + |rnd (h2 - s.h2_last)|) > rnd 1e-10 then
      ⟨h, h2, if |rnd (h - h2)| > rnd 1e-10 then some i else none, quad s.mesh i0 i s.h_last s.h2_last⟩
    else ⟨h, h2, some i0, s.mesh⟩
  | none => ⟨h, h2, if |rnd (h - h2)| > rnd 1e-10 then some i else none, s.mesh⟩

/-- The triangles of a side face on the line `x = mx`, src/HeightMap.cpp:157-165. -/
noncomputable def quadX (rnd : ℝ → ℝ) (resolution : ℝ) (mx : ℕ) (m : Mesh) (start my : ℕ) (h_last h2_last : ℝ) : Mesh :=
  let (m, p0, p1, p2, p3) := addCorners m ⟨rnd (resolution * mx), rnd (resolution * start), h_last⟩
    ⟨rnd (resolution * mx), rnd (resolution * my), h_last⟩ ⟨rnd (resolution * mx), rnd (resolution * start), h2_last⟩
    ⟨rnd (resolution * mx), rnd (resolution * my), h2_last⟩
  (m.addTriangle p1 p2 p0).addTriangle p2 p1 p3

/-- The triangles of a side face on the line `y = my`, src/HeightMap.cpp:212-220. -/
noncomputable def quadY (rnd : ℝ → ℝ) (resolution : ℝ) (my : ℕ) (m : Mesh) (start mx : ℕ) (h_last h2_last : ℝ) : Mesh :=
  let (m, p0, p1, p2, p3) := addCorners m ⟨rnd (resolution * start), rnd (resolution * my), h_last⟩
    ⟨rnd (resolution * mx), rnd (resolution * my), h_last⟩ ⟨rnd (resolution * start), rnd (resolution * my), h2_last⟩
    ⟨rnd (resolution * mx), rnd (resolution * my), h2_last⟩
  (m.addTriangle p2 p1 p0).addTriangle p1 p2 p3

/-- The loops for side triangles on lines of constant x, src/HeightMap.cpp:131-185. -/
noncomputable def sidesX (rnd : ℝ → ℝ) (grid : List (List ℝ)) (resolution : ℝ) (mx_max my_max : ℕ) (m : Mesh) : Exec Mesh :=
  (List.range (mx_max + 1)).foldlM (fun m mx => do
    let s ← (List.range (my_max + 1)).foldlM (fun s my => do
      let h ← guarded grid (decide (mx < mx_max ∧ my < my_max)) mx my
      let h2 ← guarded grid (decide (mx > 0 ∧ my < my_max)) (mx - 1) my
      return sideBody rnd (quadX rnd resolution mx) s my h h2) (⟨0, 0, none, m⟩ : SideState)
    return s.mesh) m

/-- The loops for side triangles on lines of constant y, src/HeightMap.cpp:187-240. -/
noncomputable def sidesY (rnd : ℝ → ℝ) (grid : List (List ℝ)) (resolution : ℝ) (mx_max my_max : ℕ) (m : Mesh) : Exec Mesh :=
  (List.range (my_max + 1)).foldlM (fun m my => do
    let s ← (List.range (mx_max + 1)).foldlM (fun s mx => do
      let h ← guarded grid (decide (mx < mx_max ∧ my < my_max)) mx my
      let h2 ← guarded grid (decide (my > 0 ∧ mx < mx_max)) mx (my - 1)
      return sideBody rnd (quadY rnd resolution my) s mx h h2) (⟨0, 0, none, m⟩ : SideState)
    return s.mesh) m

/-- `HeightMap::fromGrid`, src/HeightMap.cpp:48-245. -/
noncomputable def fromGrid (rnd : ℝ → ℝ) (grid : List (List ℝ)) (resolution : ℝ) : Exec HeightMap := do
  let mx_max := u32 grid.length
  let row0 ← vget grid 0
  let my_max := u32 row0.length
  let pow_size ← unbounded fun n => powLoop (max mx_max my_max) n 1
  let pow_grid ← powGrid grid my_max pow_size
  let root ← createQuadTree rnd pow_grid 0 0 pow_size pow_size resolution
  let m ← tops rnd grid resolution mx_max my_max Mesh.new
  let m ← sidesX rnd grid resolution mx_max my_max m
  let m ← sidesY rnd grid resolution mx_max my_max m
  let m ← Rounded.filterOverlappingVertices rnd m
  return ⟨root, m⟩

end Geo.RoundedHeightMap
