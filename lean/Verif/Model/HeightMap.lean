import Verif.Model.Composite

/-!
# Model of src/HeightMap.cpp, src/HeightMapNode.cpp, include/geolib/HeightMap.h, include/geolib/HeightMapNode.h
-/

namespace Geo

/-- A pointer to `class HeightMapNode`, include/geolib/HeightMapNode.h:18-42: `null`, or the members of the
node. -/
inductive HNode where
  | null
  | node (box : Box) (occupied : Bool) (children : Fin 4 → HNode)

namespace HNode

open Classical in
/-- `children_[i] && children_[i]->box_.contains(p)`, src/HeightMapNode.cpp:81. -/
noncomputable def boxContains : HNode → Vec3 → Bool
  | .null, _ => false
  | .node box _ _, p => box.contains p

/-- The first loop of `HeightMapNode::intersect`, src/HeightMapNode.cpp:78-89, over the remaining children:
`sel` is the condition of line 81, `f` the recursive call; returns the flag, the distance and
`i_child_origin` (`none` is 5). -/
def loopOrigin (sel : Fin 4 → Bool) (f : Fin 4 → ℝ → Bool × ℝ) :
    List (Fin 4) → ℝ → Option (Fin 4) → Bool × ℝ × Option (Fin 4)
  | [], d, k => (false, d, k)
  | i :: l, d, k =>
    if sel i then
      let h := f i d
      if h.1 then (true, h.2, k) else loopOrigin sel f l h.2 (some i)
    else loopOrigin sel f l d k

/-- The second loop of `HeightMapNode::intersect`, src/HeightMapNode.cpp:91-97. -/
def loopRest (skip : Option (Fin 4)) (f : Fin 4 → ℝ → Bool × ℝ) : List (Fin 4) → ℝ → Bool × ℝ
  | [], d => (false, d)
  | i :: l, d =>
    if some i ≠ skip then
      let h := f i d
      if h.1 then (true, h.2) else loopRest skip f l h.2
    else loopRest skip f l d

/-- `HeightMapNode::intersect`, src/HeightMapNode.cpp:59-100; returns the flag and the out-parameter, initially
`d`. On a null child, which the code skips (lines 81, 93), it is `false`. -/
noncomputable def intersectRay : HNode → Ray → ℝ → ℝ → ℝ → Bool × ℝ
  | .null, _, _, _, d => (false, d)
  | .node box occupied children, r, t0, t1, d =>
    let hit := box.intersectRay r t0 t1 d
    if !hit.1 then (false, hit.2)
    else if occupied then (true, hit.2)
    else
      let f := fun i d => intersectRay (children i) r t0 t1 d
      let first := loopOrigin (fun i => (children i).boxContains r.origin) f [0, 1, 2, 3] hit.2 none
      if first.1 then (true, first.2.1) else loopRest first.2.2 f [0, 1, 2, 3] first.2.1

end HNode

/-- `class HeightMap`, include/geolib/HeightMap.h:16-59: `root_` and the inherited `mesh_`. -/
structure HeightMap where
  root : HNode
  mesh : Mesh

namespace HeightMap

/-- `grid[x][y]`, src/HeightMap.cpp:68,93,99,103,143,149,198,204,261. -/
def cell (grid : List (List ℝ)) (x y : ℕ) : Exec ℝ := do
  let row ← vget grid x
  vget row y

/-- The double loop over the region in `createQuadTree`, src/HeightMap.cpp:256-263. -/
noncomputable def maxHeight (map : List (List ℝ)) (x0 y0 x1 y1 : ℕ) : Exec ℝ :=
  (List.range' x0 (x1 - x0)).foldlM (fun m x =>
    (List.range' y0 (y1 - y0)).foldlM (fun m y => do
      let h ← cell map x y
      return max m h) m) 0

open Classical in
/-- `HeightMap::createQuadTree`, src/HeightMap.cpp:248-294. A failing assertion (line 278) is the fault
`exception`. The sums of lines 285-286 stay below 2^32, as `pow_size` is at most 2^31. -/
noncomputable def createQuadTree (map : List (List ℝ)) (x0 y0 x1 y1 : ℕ) (resolution : ℝ) : Exec HNode :=
  (maxHeight map x0 y0 x1 y1).bind fun max_height =>
  if max_height = 0 then .ok .null
  else
    let box := Box.new ⟨x0 * resolution, y0 * resolution, 0⟩ ⟨x1 * resolution, y1 * resolution, max_height⟩
    if x1 - x0 = 1 ∨ y1 - y0 = 1 then
      if x1 - x0 = 1 ∧ y1 - y0 = 1 then .ok (.node box true fun _ => .null) else .error .exception
    else if h : x1 - x0 = 0 then .error .ub -- not reached: the height of an empty region is 0
    else
      let cx := (x1 + x0) / 2
      let cy := (y1 + y0) / 2
      (createQuadTree map x0 y0 cx cy resolution).bind fun c0 =>
      (createQuadTree map cx y0 x1 cy resolution).bind fun c1 =>
      (createQuadTree map x0 cy cx y1 resolution).bind fun c2 =>
      (createQuadTree map cx cy x1 y1 resolution).bind fun c3 =>
      .ok (.node box false ![c0, c1, c2, c3])
termination_by x1 - x0
decreasing_by all_goals omega

/-- The loop computing `pow_size`, src/HeightMap.cpp:55-59, with a bound on the iterations; the product is
reduced to 32 bit. -/
def powLoop (size : ℕ) : ℕ → ℕ → Exec ℕ
  | 0, _ => .error .hang
  | n + 1, p => if p < size then powLoop size n (u32 (p * 2)) else .ok p

/-- `pow_grid`, src/HeightMap.cpp:61-75; fewer than 2^32 rows. -/
noncomputable def powGrid (grid : List (List ℝ)) (my_max pow_size : ℕ) : Exec (List (List ℝ)) := do
  let rows ← grid.mapM fun row => do
    let cells ← (List.range my_max).mapM fun y => vget row y
    return cells ++ List.replicate (pow_size - my_max) 0
  return rows ++ List.replicate (pow_size - grid.length) (List.replicate pow_size 0)

/-- Four `addPoint` calls, returning the mesh and the four indices, src/HeightMap.cpp:120-123,157-162,212-217. -/
def addCorners (m : Mesh) (a b c d : Vec3) : Mesh × ℕ × ℕ × ℕ × ℕ :=
  let (m, p0) := m.addPoint a
  let (m, p1) := m.addPoint b
  let (m, p2) := m.addPoint c
  let (m, p3) := m.addPoint d
  (m, p0, p1, p2, p3)

open Classical in
/-- The loop over `x2`, src/HeightMap.cpp:101-108, with the number of remaining iterations; returns
`max_x`. -/
noncomputable def growRow (grid : List (List ℝ)) (h : ℝ) (y2 : ℕ) : ℕ → ℕ → ℕ → Exec ℕ
  | 0, _, max_x => .ok max_x
  | n + 1, x2, max_x => do
    let v ← cell grid x2 y2
    if |v - h| > 1e-10 then return x2 else growRow grid h y2 n (x2 + 1) max_x

open Classical in
/-- The loop over `y2`, src/HeightMap.cpp:99-110, with the number of rows left; returns `max_x` and
`max_y`. -/
noncomputable def growRect (grid : List (List ℝ)) (h : ℝ) (mx : ℕ) : ℕ → ℕ → ℕ → ℕ → Exec (ℕ × ℕ)
  | 0, _, max_x, max_y => .ok (max_x, max_y)
  | n + 1, y2, max_x, max_y => do
    let v ← cell grid mx y2
    if |v - h| < 1e-10 then do
      let max_x ← growRow grid h y2 (max_x - mx) mx max_x
      growRect grid h mx n (y2 + 1) max_x (max_y + 1)
    else return (max_x, max_y)

open Classical in
/-- The body of the loops over the cells for the top triangles, src/HeightMap.cpp:93-127. The state is
`visited_grid`, seen as a function, and the mesh. The detour of indices through `int` is the identity modulo
2^32. -/
noncomputable def topCell (grid : List (List ℝ)) (resolution : ℝ) (mx_max my_max : ℕ)
    (s : (ℕ → ℕ → Bool) × Mesh) (mx my : ℕ) : Exec ((ℕ → ℕ → Bool) × Mesh) := do
  let h ← cell grid mx my
  if s.1 mx my = false ∧ h > 0 then do
    let (max_x, max_y) ← growRect grid h mx (my_max - my) my mx_max my
    let visited := fun x y => s.1 x y || decide (mx ≤ x ∧ x < max_x ∧ my ≤ y ∧ y < max_y)
    let (m, p0, p1, p2, p3) := addCorners s.2 ⟨resolution * mx, resolution * my, h⟩
      ⟨resolution * max_x, resolution * my, h⟩ ⟨resolution * mx, resolution * max_y, h⟩
      ⟨resolution * max_x, resolution * max_y, h⟩
    return (visited, (m.addTriangle p0 p1 p2).addTriangle p1 p3 p2)
  else return s

/-- The loops for the top triangles, src/HeightMap.cpp:82-129. -/
noncomputable def tops (grid : List (List ℝ)) (resolution : ℝ) (mx_max my_max : ℕ) (m : Mesh) : Exec Mesh := do
  let s ← (List.range mx_max).foldlM (fun s mx =>
    (List.range my_max).foldlM (fun s my => topCell grid resolution mx_max my_max s mx my) s)
    ((fun _ _ => false), m)
  return s.2

/-- The heights on both sides of a side face and the start of the current run (`none` is -1), with the mesh:
the variables of src/HeightMap.cpp:135-137,190-192. -/
structure SideState where
  h_last : ℝ
  h2_last : ℝ
  start : Option ℕ
  mesh : Mesh

open Classical in
/-- The body of the inner loops for side triangles, src/HeightMap.cpp:152-183 and 207-238, which differ in how
`quad` places the rectangle from the start of the run to `i` between the heights `h_last` and `h2_last`. -/
noncomputable def sideBody (quad : Mesh → ℕ → ℕ → ℝ → ℝ → Mesh) (s : SideState) (i : ℕ) (h h2 : ℝ) : SideState :=
  match s.start with
  | some i0 =>
    if |h - s.h_last| + |h2 - s.h2_last| > 1e-10 then
      ⟨h, h2, if |h - h2| > 1e-10 then some i else none, quad s.mesh i0 i s.h_last s.h2_last⟩
    else ⟨h, h2, some i0, s.mesh⟩
  | none => ⟨h, h2, if |h - h2| > 1e-10 then some i else none, s.mesh⟩

/-- The triangles of a side face on the line `x = mx`, src/HeightMap.cpp:157-165. -/
noncomputable def quadX (resolution : ℝ) (mx : ℕ) (m : Mesh) (start my : ℕ) (h_last h2_last : ℝ) : Mesh :=
  let (m, p0, p1, p2, p3) := addCorners m ⟨resolution * mx, resolution * start, h_last⟩
    ⟨resolution * mx, resolution * my, h_last⟩ ⟨resolution * mx, resolution * start, h2_last⟩
    ⟨resolution * mx, resolution * my, h2_last⟩
  (m.addTriangle p1 p2 p0).addTriangle p2 p1 p3

/-- The triangles of a side face on the line `y = my`, src/HeightMap.cpp:212-220. -/
noncomputable def quadY (resolution : ℝ) (my : ℕ) (m : Mesh) (start mx : ℕ) (h_last h2_last : ℝ) : Mesh :=
  let (m, p0, p1, p2, p3) := addCorners m ⟨resolution * start, resolution * my, h_last⟩
    ⟨resolution * mx, resolution * my, h_last⟩ ⟨resolution * start, resolution * my, h2_last⟩
    ⟨resolution * mx, resolution * my, h2_last⟩
  (m.addTriangle p2 p1 p0).addTriangle p1 p2 p3

/-- `0` unless the condition holds, then the grid value, src/HeightMap.cpp:140-150,195-205. -/
def guarded (grid : List (List ℝ)) (c : Bool) (x y : ℕ) : Exec ℝ :=
  if c then cell grid x y else .ok 0

/-- The loops for side triangles on lines of constant x, src/HeightMap.cpp:131-185. The conversion of `my` to
`int` is exact (fewer than 2^31 columns). -/
noncomputable def sidesX (grid : List (List ℝ)) (resolution : ℝ) (mx_max my_max : ℕ) (m : Mesh) : Exec Mesh :=
  (List.range (mx_max + 1)).foldlM (fun m mx => do
    let s ← (List.range (my_max + 1)).foldlM (fun s my => do
      let h ← guarded grid (decide (mx < mx_max ∧ my < my_max)) mx my
      let h2 ← guarded grid (decide (mx > 0 ∧ my < my_max)) (mx - 1) my
      return sideBody (quadX resolution mx) s my h h2) (⟨0, 0, none, m⟩ : SideState)
    return s.mesh) m

/-- The loops for side triangles on lines of constant y, src/HeightMap.cpp:187-240. -/
noncomputable def sidesY (grid : List (List ℝ)) (resolution : ℝ) (mx_max my_max : ℕ) (m : Mesh) : Exec Mesh :=
  (List.range (my_max + 1)).foldlM (fun m my => do
    let s ← (List.range (mx_max + 1)).foldlM (fun s mx => do
      let h ← guarded grid (decide (mx < mx_max ∧ my < my_max)) mx my
      let h2 ← guarded grid (decide (my > 0 ∧ mx < mx_max)) mx (my - 1)
      return sideBody (quadY resolution my) s mx h h2) (⟨0, 0, none, m⟩ : SideState)
    return s.mesh) m

/-- `HeightMap::fromGrid`, src/HeightMap.cpp:48-245; `grid[0]` of an empty grid is undefined behaviour (line
51). -/
noncomputable def fromGrid (grid : List (List ℝ)) (resolution : ℝ) : Exec HeightMap := do
  let mx_max := u32 grid.length
  let row0 ← vget grid 0
  let my_max := u32 row0.length
  let pow_size ← unbounded fun n => powLoop (max mx_max my_max) n 1
  let pow_grid ← powGrid grid my_max pow_size
  let root ← createQuadTree pow_grid 0 0 pow_size pow_size resolution
  let m ← tops grid resolution mx_max my_max Mesh.new
  let m ← sidesX grid resolution mx_max my_max m
  let m ← sidesY grid resolution mx_max my_max m
  let m ← m.filterOverlappingVertices
  return ⟨root, m⟩

/-- `HeightMap::HeightMap()`, src/HeightMap.cpp:14. -/
def new : HeightMap := ⟨.null, Mesh.new⟩

/-- `HeightMap::intersect`, src/HeightMap.cpp:39-46; returns the flag and the out-parameter, initially `d`. -/
noncomputable def intersectRay (hm : HeightMap) (r : Ray) (t0 t1 d : ℝ) : Bool × ℝ :=
  hm.root.intersectRay r t0 t1 d

end HeightMap

end Geo
