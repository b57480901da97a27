# Formal model of geolib2: design

Everything is in `lean/Verif/`:

* `Model/*`  definitions that follow the C++ function by function (each cites file and lines);
* `Spec/*`   small independent specifications (no model helper is used in them);
* `Lemmas/*` helper lemmas;
* `Props/*`  one theorem (group) per property `Cxx`, each followed by an `example` that meets
  its hypotheses in a non-trivial case;
* `Tests/*`  the assertions of the repository's own test files as theorems about the model (see below).

`properties.jsonl` lists the properties (generated by `scripts/gen_properties.py`),
`MANIFEST.json` maps each property to theorem names, `seeded/LOG.jsonl` logs the mutation tests.
In the log `failed_declarations` are the declarations with a compiler error, `theorems_failed` the property
theorems whose proof terms use one of them (`deps` in `scripts/mutate.py`). An earlier version of the script matched by short name; the
lists it had made too long were corrected.

## Trusted base

* Lean's kernel (4.33.0) and the Mathlib definitions the statements mention
  (`Real`, `Real.sqrt`, `Real.sin`, `Real.cos`, `Complex.arg`, `List`, `Finset`, ...).
* Axioms: only `propext`, `Classical.choice`, `Quot.sound` (Lean's standard three). No own axioms,
  no `sorry`, no `native_decide`/`bv_decide`.
* The reading of the C++ by the modeller: each definition cites its lines so it can be compared.
  As a check of the reading, every assertion of test/test_box.cpp, test/test_shape.cpp, test/test_composite_shape.cpp and
  test/test_lrf.cpp is proved for the model in `Tests/*`. test/test_matrix.cpp compares with tf2 on random poses; its
  comparisons are the laws of C01, C02 and C72. The other test programs assert nothing; what test_geolib_lrf and test_geolib draw is the subject of C123 and C124.
* Contracts of libraries outside /repo: `std::string::substr`, `std::map`, `resize`, `tolower` in the "C" locale, the array layout
  of tf2 types, and `PinholeCameraModel::fromCameraInfo` of image_geometry (projection matrix, minus the offset of the region of
  interest, divided by the binning, where 0 means 1). They are written from knowledge of these libraries, not from source.

### Modelling decisions (and what they leave out)

* `double`/`float` (`geo::real`) are modelled by exact reals `ℝ`: no rounding, overflow, NaN, signed
  zero. Statements about functions that only compare and copy coordinates (box containment, bounding
  boxes, z-buffer, sorting) involve no arithmetic and so carry over to non-NaN doubles; the others are
  statements about the algorithm in exact arithmetic. `Model/Single.lean` has the ray queries of boxes and octrees with the
  rounding of their casts to `float` (nearest, ties to even; double arithmetic still exact). `SingleComposite` (C108) and `SingleHeightMap` (C117)
  do so for composites and height maps. `Model/Rounded.lean` has the pose operations with every operation rounded (C93); in the same way
  `RoundedShape` has the containment test of meshes (C100), `RoundedCamera` projections (C110), `RoundedRaster` the rasteriser (C118),
  `RoundedOctree` octrees (C120), `RoundedLaser` the laser range finder (C121), `RoundedBox` rays and boxes (C122), `RoundedSphere` the
  sphere test of meshes (C125), `RoundedComposite` composites (C126), `RoundedQuaternion` quaternions of matrices (C127),
  `RoundedAngles` roll, pitch and yaw (C128), `RoundedCompositeRay` rays and composites (C129), `RoundedMesh` other functions of meshes (C130), `RoundedShapes` cylinders and prisms (C131),
  `RoundedPlane` poses in the plane (C132), `RoundedNormalize` normalisation (C133), `RoundedImport` import (C134), `RoundedHeightMap` height maps (C135) and `RoundedOctreeQueries` queries of octrees (C136). These modules do not use plain reals:
  the rasteriser (`DepthCamera`) uses extended values `fin r | +inf | -inf | nan` because the code
  really divides by zero there; `Model/Special.lean` uses them for points given to boxes, meshes and octrees, `NanComposite` for composites (C116); serialization uses raw 64-bit patterns because it only copies bits.
* `sqrt` is `Real.sqrt`; `sin`, `cos`, `asin` are Mathlib's; `atan2(y,x)` is `Complex.arg (x + y i)`.
* `unsigned int` arithmetic is natural-number arithmetic with explicit `% 2^32`;
  conversions from floating point to `int` truncate toward zero, and are a fault if out of range.
* Undefined behaviour (out-of-range access, out-of-range float-to-int, self-aliasing insertion),
  C++ exceptions and non-termination are distinct outcomes: `Except Fault` with
  `Fault = ub | exception | hang`. Fuelled loops return `hang` when they run out of a bound proved
  (or hypothesised) sufficient.
* Virtual dispatch: a shape is a record of its methods (`ShapeObj`), so composites may nest anything.
* `mutable` caches are part of the modelled state; queries return the new state.
* Not modelled: console output, threads (the library starts none), memory exhaustion,
  heap ownership other than of octree and height map nodes, the OpenCV windows of `visualization.cpp` and `tools/show.cpp`, assimp's own parsing and writing
  (only the scene structure handed over is modelled).

## Properties

Legend: **P** proved as stated; **R** refuted: the code violates the claim, a concrete witness is
proved and the strongest true restriction is kept as `..._partial`; **I** inexpressible.
The final status per property is in `MANIFEST.json`; disagreements between code and claim are listed
at the end of this file.

| id | modelled | how proved |
|----|----------|-----------|
| C01-C02 | `Transform3` as 3x3 matrix + vector, operators of math_types.h | component-wise `ring`; orthogonality as six polynomial equations. Counterexample scaled basis |
| C03-C04 | `setRPY`, `getRPY` with `Complex.arg`, `Real.sin/cos/asin` | trig identities; R at pitch = -pi/2 |
| C05-C06 | four-branch `getRotation`, `setRotation` | cofactor identities of SO(3); in each branch the pivot is bounded away from 0 |
| C07 | `Vec2/Mat2/Transform2`, projections | ring; `Complex.arg` of (cos,sin) |
| C08 | separate model of matrix.h | definitional/ring equality per operation |
| C09 | `Vec3`, `Mat3.normalize` | ring, `Real.sqrt` |
| C10-C15 | `Mesh` state machine with the three caches, `Op` history type | invariant "cache = recomputation" by induction over histories; folds by induction |
| C16 | `triangleArea`, `getTriangleNormal` | Lagrange identity, ring |
| C17 | `Shape` state with bounding-box cache | invariant over histories; fold of min/max |
| C18-C19, C22, C86 | `Shape::contains` with intersection map as a fold over triangles | any triangle returning true decides the loop regardless of the map; closed meshes: moving the start of the probe leaves the crossing number unchanged where the edges cancel (`Lemmas/Winding.lean`), so it is constant along paths that touch no triangle, 0 far away and 1 behind a face with the outside in front; R for C19 with a box mesh, for C86 with a cavity |
| C20-C21 | `Shape::intersect(p,R)` | projection/closest point on segment; R on the negative side |
| C23-C30 | `Box` | slab algebra by cases on signs; convexity; explicit 12-triangle mesh |
| C31-C34 | `Composite` as fold of `addShape` over method records | induction over the part list |
| C35-C41 | `OctNode` inductive tree with size and flag | refinement to a predicate on cells, by induction on depth |
| C42-C45, C74-C75 | `HeightMap` quad tree, greedy rectangles, wall runs | recursion on power-of-two size; loop invariants |
| C46-C50, C76 | byte streams (`List UInt8`) with stream fail-state | induction over point/triangle lists; every prefix |
| C51-C59, C77-C79 | `LRF` configuration as a setter history, `renderPoint`, `renderLine`, `slice`, `render`; ranges are `EReal` | beam indices as floors of angles, polar form of points and sign of `sin`; list folds; slicing by the corner alone on its side; C77-C79 by induction over the triangles |
| C60-C68, C80-C82 | `Camera` projection, z-buffer, clipping, rasteriser over extended values `Fl` | rows as affine functions of the row number on triangles with cut-off rows; barycentric weights; case analysis on IEEE results; folds; histories of map sizes |
| C69 | `Shapes.loop` with wrapping counter, `createCylinder`, `createConvexPolygon` | loops as folds; directed edges of the two triangle lists: no duplicates, closed under reversal; volume by telescoping; convexity of the regular polygon as a product of three sines |
| C70-C71, C83-C85 | Assimp scene as meshes and a node tree, `constructMesh`, `readMeshFile`, `writeCall` | the recursion as a fold over placements; loop invariants of vertex map and triangle map; suffix by cases |
| C72-C73 | message, tf2 and camera records; `fromCameraInfo` of image_geometry as a contract | C05 and C06; parity for the `float` witness |
| C87-C89 | nodes of octrees and height maps as cells of a heap, with `new`, recursive copy, `delete`, implicit assignment; programs over named objects (`Model/Ownership.lean`) | simulation: the heap splits into disjoint finite sets of nodes, one per object, each spelling the tree that the value model has; every operation keeps this. R for assignment and for the height map destructor |
| C90-C91 | the ray queries of boxes and octrees with the casts to `float` (`Model/Single.lean`); `rnd = id` gives the exact ones | relative error `2^-24` and monotonicity of rounding; the march gains half a tenth of a cell per step up to 800000 cells. R for far rays: the step rounds back to the same `float`, induction on the bound of the recursion |
| C92 | the point queries of boxes, meshes and octrees over `Fl` (reals, infinities, NaN; `Model/Special.lean`) | case analysis: a special coordinate makes every deciding comparison false. Octrees: a simulation by a real point (`standIn`). R for octrees: evaluation |
| C93 | apply, compose, inverse and quaternion to matrix with a rounding after every operation (`Model/Rounded.lean`); `rnd = id` gives the exact ones | one lemma carries a bound `k u M` through one rounding; sums of absolute values, Cauchy-Schwarz. The constants are safe, not sharp |
| C94-C97 | `main` of the height image tools, loading and grey values of `show`, the loop of `showKinect` (`Model/Tools.lean`); `atof`, `cv::imread`, the exporter and the keys are parameters | evaluation for the argument lists; loop invariants for the grid; C74 for the surface; C71, C47, C76 for the files. R for C94 (one tool), C96, C97 (`show`) |
| C98 | `Rounded.mul`, `Rounded.setRotation` (`Model/Rounded.lean`), repeated | induction over the list from the right; deviation from the true rotation as an operator bound, so that it adds up instead of multiplying |
| C99 | `createCylinder`, `createConvexPolygon`, `Shape.contains` | explicit side of a point with regard to every triangle; the mesh is convex and has a face, so C19 and C86 for convex meshes apply; half-height of the probe's end excludes vertices for points between the caps; witnesses by evaluating every triangle |
| C100 | `Shape.contains` and everything it calls with a rounding after every operation (`Model/RoundedShape.lean`); `rnd = id` gives the exact one | a calculus of pairs (size, error) in units of powers of the mesh radius, closed under rounded sums and products; the far end of the probe moves by a rounding error, along which the side products are linear; each comparison of an iteration then has the exact outcome |
| C101 | `LRF.render` and `Box.intersectRay` together | sections of posed triangles are posed surface points at height 0; C77, C78 and C79 give the range of a mesh; a line enters a box through a face that has its start on the outer side, so C78 applies; C26 gives the distance |
| C102 | `Composite.build`, `LRF.render` and `rasterize` together | both loops are rewritten over triangles given by corners, where joining is appending and posing is composing; each triangle changes a beam by taking the nearer depth, which composes; pixel calls do not depend on the triangle index, so results that differ in the triangle map only stay so |
| C103 | `fromGrid` | each face's signed volume is a sum over its cells; every cell step has exactly one wall (C74), so the walls give two thirds by summation by parts; the tops give one third times the number of rectangles over a cell, which is 1 without notches (C75) |
| C104 | `fromGrid`, `contains` | the crossings with a wall or a top are sums over its cells of indicators in the parameter of the probe; each cell step has one wall (C74), so the sum over all faces is, per column, exits minus entries, which is 1 if the probe starts in it and 0 otherwise, less the surplus entries through cells covered more than once |
| C105 | `Shape::intersect`, `Box::intersect`, `CompositeShape::intersect` and `contains` | each branch of the triangle test compares a quantity that does not depend on the radius with the radius or its square, so every test is monotone, and so are the disjunctions over edges, triangles and parts and the early exits; a closest point of a box at distance 0 is the centre |
| C106 | `rangeToPoint`, `rangesToPoints`, `getAngleUpperIndex` | the argument of a positive multiple of (cos a, sin a) is a for -pi < a ≤ pi, and the count of beams with angle at most that of beam i is i + 1 (C52) |
| C107 | `render`, `rasterize`, `renderPixel` | a client that records the pixels determines what every other client gets; the first of the nearest recorded pixels of an object is one and the same for an empty image and for an image in progress, and the objects are added one by one |
| C108 | `CompositeShape::intersect(Ray)` with its casts to `float` (`Composite.rayLoopF`, `Composite.intersectRayF`; without rounding they are the functions of `Model/Composite`) | invariant of the loop: the rounded smallest distance is at most every rounded candidate, since rounding is monotone and idempotent; for boxes the bounding box hides no part because rounding is monotone |
| C109 | `contains` and the sphere test of a mesh and of the same mesh after `Mesh::getTransformed`, with the point moved too | side products, areas, edge and face tests are unchanged by a proper rotation, so the loops are (`containsLoop_move`, `sphereLoop_move`); what changes is the radius and the far end of the probe: for turns about the x axis neither does, for closed meshes the answer is that of the solid in both frames, and the early exit of the sphere test can only differ in a band; two counterexamples to the full claim |
| C110 | `project3Dto2D` and `project2Dto3D` with a rounding after every operation (`Model/RoundedCamera`), and the conversion of the result to `float` or `int` | error bounds step by step, all quantities bounded by a multiple of the largest number; a number within 2^-26 of an integer is rounded to it in `float`; the counterexample for `int` is evaluated digit by digit |
| C111 | `Mesh::add`, `getTransformed`, `filterOverlappingVertices` and `CompositeShape::addShape` on meshes whose directed edges cancel | a map of the points carries the matching of the edges along; merging is such a map because no two kept points share a cell; the part of the volume that depends on the translation is a sum over directed edges and cancels |
| C112 | `Shape::empty` and `Mesh::empty` beside the queries, the renderers, `CompositeShape::addShape` and `HeightMap::fromGrid` | an empty mesh makes every loop trivial; a mesh with a triangle is met by a sphere around one of its corners (C21); for height maps by the description of the faces (C45) and of the leaves (C42) |
| C113 | `Shape::write` and `Shape::read` called several times on one stream | induction on the list of meshes over the single round trip (C46); the counts in the bytes make the encoding prefix-free |
| C114 | `Shape::contains`, `Shape::intersect(p, radius)`, `Shape::getBoundingBox` and `CompositeShape::contains` | a point outside the hull leaves the mesh along the normal of a separating plane, so C19 applies; the box follows by C17, composites by C31 |
| C115 | `HeightMap` as a part of a `CompositeShape` | the candidate of a column is that of a box (C26); two columns that both hold the ray just beyond `t0` are equal; order by C32 |
| C116 | the ray queries of boxes, octrees, height maps and composites with NaN in the variable for the distance (`Model/NanComposite`) | each query either leaves the variable as it was or writes a number that does not depend on it, by induction over the recursion; composites by induction over the nesting |
| C117 | the ray query of height maps with the casts to `float` in `Box::intersect` (`Model/SingleHeightMap`); `rnd = id` gives the exact one | a larger box is hit whenever a smaller one is, for every monotone rounding; then the induction of C43 over the tree, and C91 for the columns |
| C118 | the rasteriser with a rounding of `float` or `double` after every operation (`Model/RoundedRaster`); the roundings `id` give `Model/DepthCamera`; the maximum radius of the mesh is exact | error of the slope, of the split point and of the sum over the rows bounded one after the other, for any rounding with a relative error; then the argument of C80 with places shifted along the row |
| C119 | `scanAll` and `paintScene` (C102, C107) on lists with the same members; `rasterize` called again with the image and maps of the first call | scans and images: both lists give the nearest of the same set; drawing again: the calls on one pixel are a fold, and repeating it from an empty pixel changes nothing, by cases on whether NaN was drawn first |
| C120 | constructing, adding, clearing and listing cubes with a rounding to `double` after every operation (`Model/RoundedOctree`); the rounding `id` gives `Model/Octree`; no overflow, no subnormal numbers | halves of doubles and differences a - b with b ≤ a ≤ 2 b are exact (Sterbenz), so the descent is that of real numbers for the rounded point, and C36 applies; the offsets of the cubes by induction on the levels |
| C121 | setters, tables, indices, drawing of lines and rendering of meshes with an abstract arithmetic `FloatLib`: a rounding after every operation, a conversion of depths to `float`, approximate `cos`, `sin`, `atan2` and pi (`Model/RoundedLaser`); exact operations give `Model/LaserRangeFinder`; no overflow, no subnormal numbers, nothing fused | error propagation: the table by induction on the beams, the index by the relative error of the quotient, depths by the errors of both cross products against the angle between beam and line; safety from the bounds on the indices |
| C122 | the constructor of rays and the functions of boxes with a rounding after every operation and the casts of ray parameters to `float` (`Model/RoundedBox`); exact operations give `Model/Box`; no overflow, no subnormal numbers, nothing fused | relative errors of direction, inverse and slab bounds; monotone roundings keep the bounds of each slab in order, so `slabs` of C26 applies to the computed bounds; the chosen point of the ball test is always in the box; `enclose` by induction over the calls with the error of one application of a pose (C93) |
| C123 | parameters, sensor, outline and end points of beams of `test_geolib_lrf` with the conversions to `int` (`Model/TestPrograms`); what OpenCV draws between the pixels and what is printed are left out | truncation moves a number by less than 1, and |cos| + |sin| < 1.5; the ranges by C77, C79 and C101 |
| C124 | of `test_geolib` the two loops that draw scans, with an access outside the picture as undefined behaviour, and the loops that fill the grid (`Model/TestPrograms`) | induction over the loops; each pass of the grid sets exactly the cells of one ring; counterexample for `renderLRF` with its own sensor and picture |
| C125 | `Shape::intersect(p, radius)` with a rounding after every operation (`Model/RoundedSphere`); no overflow or subnormal numbers | errors measured by lengths of vectors (`Lemmas/RoundedVec`): of edges and corners (`RoundedSphere`), of the normal, the foot of the perpendicular and the cross products with the edges (`RoundedSphereFace`); a foot too near an edge for certain signs has an edge point nearly as close, which the edge test notices; a negative barycentric coordinate of the foot is small after a positive answer (`RoundedSphereSound`) |
| C126 | `CompositeShape::addShape`, `contains` and `intersect(p, radius)` with a rounding after every operation (`Model/RoundedComposite`); the parts are any shapes; no overflow or subnormal numbers | the point that a part is asked about differs from the right one by the rounding of the inverse pose and the defect of its matrix (`Lemmas/RoundedPose`); minima and maxima are exact, so the bounding box has the error of one corner; a point with room around it in the hull of a part is in the box (`RoundedCompositeUse`) |
| C127 | `Mat3T::getRotation` and the conversion of poses to messages and back with a rounding after every operation (`Model/RoundedQuaternion`); matrices of `double`s; no overflow or subnormal numbers | in the branch that the rounded trace and the comparisons choose, the number under the root is near that of the rotation and at least 0.97, so that root, quotient and products carry their errors on; four multiples of the quaternion belong to the four branches; entries of the matrix of a quaternion as quotients of quadratic forms; induction over the messages |
| C128 | `Mat3T::setRPY` and `Transform3T::getRPY`, `getYaw` with a rounding after every operation and every function of the mathematical library, `M_PI` rounded (`Model/RoundedAngles`); no overflow or subnormal numbers | directions of near points (complex numbers and their arguments); sine and cosine are Lipschitz; the rounded pitch keeps away from the test for the singular pitch because its cosine does; the exact angles are those of `rpy_generic` |
| C129 | `CompositeShape::intersect(Ray)` with a rounding after every operation and its casts to `float` (`Model/RoundedCompositeRay`); the parts are boxes; no overflow or subnormal numbers | the ray that a part is asked about differs from the right one by the rounding of the inverse pose and of two normalisations (`local_dir`, `local_ray`); the box test for any order of the bounds (`ray_span`, since earlier hits may lower the upper bound below the lower one); invariant of the loop (`rayLoop_spec`) |
| C130 | `Mesh::filterOverlappingVertices`, `getSquaredMaxRadius`, `getMaxRadius`, `getTriangleNormal` with a rounding after every operation (`Model/RoundedMesh`); no overflow or subnormal numbers | the rounded merge runs in lock step with the exact merge of the points moved to their rounded cells (`filterLoop_map`), so C13 carries over; truncation is unchanged clear of the borders (`trunc_eq`); componentwise error of the cross product (`cross_component`) and of its direction (`unit_near`); witness `C130_border` with the double next to 0.009 |
| C131 | `createCylinder`, `createConvexPolygon` with a rounding after every operation and the library functions of a platform (`Model/RoundedShapes`); no overflow or subnormal numbers; half the height is exact, as it is for doubles | the triangles are those of C69; error of angle and corner (`angle_err`, `corner_err`); the turn at a corner of the regular polygon is at least 32 r² / n³ (`turn3_exact`), its error at most 590 u r² (`turn3_err`) |
| C132 | `Transform2` with a rounding after every operation and the library functions of a platform (`Model/RoundedPlane`); no overflow or subnormal numbers | the third term of each scalar product in space is zero, so that the results agree to the last bit (`apply_plane`, `mul_plane`, `inverse_plane`) and C93 gives the bounds; angles by `atan_near` of C128's lemmas (`angle_near`, `entry_near`) |
| C133 | `length`, `normalized`, `normalize` of vectors, quaternions and matrices with a rounding after every operation (`Model/RoundedNormalize`, with `Model/RoundedBox`); no overflow or subnormal numbers; zero vectors are left out | relative error of a sum of squares (`add_sq`), of its root and of a quotient by it (`divide`); rounding to 53 digits commutes with powers of two (`toDouble_scale`) |
| C134 | `constructMesh` and `readMeshFile` with a rounding after every operation (`Model/RoundedImport`); the loop over the faces computes with integers and is that of `Model/Import`; no overflow or subnormal numbers | errors relative to the sums of absolute values of the terms, through products of matrices (`W`, `PoseW`) and along the tree (`chainW`); both programs run side by side (`Rel`); whether the cells agree is a hypothesis of `C134_import`, met under the conditions of `C134_keys` and not on borders (`C134_border`) |
| C135 | `fromGrid`, the quadtree and the ray query with a rounding after every operation on doubles and at the casts to `float` (`Model/RoundedHeightMap`); no overflow or subnormal numbers | the tree is that of exact arithmetic with rounded corners (`roundTree`), and for monotone roundings a larger box is hit whenever a smaller one is (`castR`); boxes as in C122; for heights at least 2e-10 apart all comparisons with the tolerance are those of exact arithmetic, so both programs run side by side (`flatMesh`), and the merge is C130 |
| C136 | `contains`, `intersect` with a box, `getMesh` and `getBoundingBox` with a rounding after every operation on doubles (`Model/RoundedOctreeQueries`); no overflow or subnormal numbers | only the first subtraction, of the offset, rounds to something else: below it, half the size is subtracted exactly from coordinates that are doubles between it and the size, and coordinates beyond a cell stay beyond it (`nodeBox_eq`); so a query is the exact one for coordinates moved by `snap`, which is monotone, whence no margin for added points; C37, C38, C120 and C130 do the rest |
| C137 | as C120 and C136, for points anywhere | places at or before the start of a cell, and places at or behind its end, take the same way down, with and without rounding (`PlaceRel`, `nodeAdd_rel`); so a point is added as its nearest point of the tree (`octAdd_clamp`), and C120 and C136 apply |
| C138 | as C136 and C137, for pairs of histories | the nodes that matter are those with occupied cells below them, so the answers depend on the set of occupied cells alone (`Octree.oct_same`), which the kept points determine (`Octree.octRun_occ`) |
| C139 | as C136, with the queries among the calls (`octCalls`) | the cached mesh is empty or that of the current cubes (`CacheOk`, `octMesh_fresh`), and nothing else is changed by queries but the cached box (`octCalls_rel`) |
| C140 | `octRay`, `nodeRay`, `exitDist` (`Model/RoundedOctreeRay`): one rounding for `double`, one for the casts to `float` | induction over the recursion for the answer (`nodeRay_yes`); near the tree every step moves on by a twentieth of a cell (`step_far`, `exit_nonpos`) until the ray has left the node (`ray_out`), at every depth (`nodeRay_ends`); the computed points stay within a sixty-fourth of a cell of the exact ray (`Fit`, `nodeRay_near`), for one cell by the box test of C122 (`octRay_one`); for the distant ray the values are computed and the call is seen to repeat itself (`stuck`) |

## Audit of claims against theorems

All claims listed as proved were compared clause by clause with their theorems. Changes made:

* **C07** associativity, identity, `inverseTimes`, distances and closure in the plane were claimed but not stated; added
  as `C07_laws`.
* **C08** `getRow` was missing; added as `C08_rows`.
* **C20, C30** see above.
* **C31** the note spoke of affine poses, the theorems need rigid ones; note and quantifier corrected.
* **C38** the clause on added points has side conditions; the theorem is now named `C38_added_partial`.
* **C43** the condition that the resolution is at least 0 was missing from the quantifier.

## Reading the log of seeded bugs

`theorems_failed` in seeded/LOG.jsonl lists every property theorem whose proof uses a declaration that stopped
compiling. `failed_declarations` lists those declarations. A shared helper lemma that breaks therefore also lists theorems
whose claim the edit leaves true (an edit of the walls lists `C42_tree`, about the tree). The entry shows that the
edit cannot pass unnoticed; it does not show that each listed claim became false. Modules that import one with a failed
declaration are not compiled, so the list may also miss theorems that unfold the edited definition themselves.


## Disagreements between code and claim

Each entry is backed by a theorem ending in `_wrong`, `_ub`, or `_double` with a concrete witness.

* **C02** `Transform3::inverse` transposes the basis, so it is an inverse for rigid transforms only.
* **C04** `getRPY` returns a wrong roll/yaw combination at pitch = -pi/2.
* **C12** `Mesh::add(m, m)`, a mesh added to itself, inserts a vector's own range: undefined behaviour.
* **C13** `filterOverlappingVertices` truncates toward zero, so the cell at 0 is twice as wide; coordinates
  beyond the `int` range (in mm) are undefined behaviour.
* **C18** For meshes of micrometre size all side products fall below 1e-16, every face is treated as
  coplanar, and surface points may be reported as outside.
* **C19** When the probe segment lies in the plane of a face the *infinite line* is tested: a point outside a
  box, in the plane of a face, is reported as contained (`C19_coplanar_wrong`).
* **C19** When the probe goes through a vertex the counter of the vertex saturates at +-1, so mixed headings do
  not cancel: an outside point of a tetrahedron is reported as contained for one order of the triangles and
  not for another (`C19_vertex_wrong`).
* **C86** For the same reason a point of the solid whose probe goes through the corner of a cavity is contained or
  not, depending on the order of the triangles (`C86_vertex_wrong`).
* **C21** `Shape::intersect(p, r)` projects with an unsigned distance, so a sphere on the negative side of a
  face is missed (`C21_back_side_wrong`). What is reported instead is described by `C21_noticed`.
* **C25** `src/Box.cpp:80` compares `c1.y - c2.z`.
* **C27** A ray parallel to an axis is dropped by the slab test also where it hits the box.
* **C28** `Box::getMaxRadius` looks at two corners only.
* **C34** An empty composite reports the bounding box [-1e10, 1e10]^3 (`C34_bounding_box_wrong`).
* **C36** `OctreeNode::add` (src/OctreeNode.cpp:47-84) stops at the first level whose size is less than the
  resolution plus 1e-10. For cells below 1e-10 that is a level too early (`C36_tiny_wrong`).
* **C36, C40** a point outside the tree is not rejected. It is stored in an outermost cell, so a cube is
  reported that does not contain it (`C40_end_outside_wrong`).
* **C37** `OctreeNode::contains` (src/OctreeNode.cpp:227-259) passes the point to the child without subtracting the
  offset of the octant. Added points are reported as not contained and the reverse (`C37_contains_wrong`).
* **C39** `OctreeNode::intersect(Ray)` does not write the distance if the first probe is in an occupied cell
  (`C39_unwritten_wrong`), ignores the end of the range (`C39_range_wrong`), and `Octree::intersect` adds the
  start of the range to the entry distance, counting it twice from outside (`C39_start_wrong`). Rays
  along an axis miss because of the box test (`C39_axis_parallel_wrong`, compare C27).
* **C40** rays along an axis: a ray beside the tree marks a cell, a ray into the tree does nothing
  (`C40_axis_parallel_wrong`).
* **C41** `Octree::mesh_` hides `Shape::mesh_`, so the inherited `empty()` is always true (`C41_empty_wrong`); the
  bounding-box cache of `Shape` is not cleared by `add`, `clear` or `raytrace` (`C41_bounding_box_wrong`).
* **C42** The grid is only safe if no row is shorter than the first and there is at least one row: otherwise
  `fromGrid` reads out of bounds (`C42_ragged`). It is not checked by `fromGrid` nor documented.
* **C44** `HeightMapNode::intersect` returns the first child that is hit in the order (0,0), (1,0), (0,1), (1,1)
  instead of the nearest: a ray coming from larger x reports a column behind the first one
  (`C44_nearest_wrong`). Which column is reported is described by `C44_order`.
* **C75** The loops growing a top rectangle (src/HeightMap.cpp:97-110) do not look at `visited_grid`, so
  rectangles may overlap: an L of three equal cells gives two overlapping rectangles
  (`C75_tops_disjoint_wrong`). Without such inner corners there is no overlap (`C75_no_notch_partial`).
* **C46** With 2^31 points or more the count, written as `int`, is read back as negative and all points are lost
  (`C46_size_limit`).
* **C47** `serialization::deserialize` (src/serialization.cpp:34-37) converts an 8-byte buffer without terminator to a
  string. This reads beyond the buffer for every file with 8 non-zero bytes (`C47_deserialize_wrong`); by the
  language no call ever returns a shape (`C47_never`). In practice the outcome depends on the next byte on the stack:
  0 works, anything else returns null (`C47_garbage_wrong`). `fromFile` of a file that cannot be opened looks at the
  uninitialised buffer (`C47_missing_file_wrong`).
* **C76** `Shape::write` returns true whatever the state of the stream (`C76_report_wrong`); with C48, a file cut by a
  full disk is read back as a damaged mesh without any report.
* **C30** `Box::generate_mesh_` (src/Box.cpp:160-197), called by `enclose` (line 130), adds eight points and twelve
  triangles without clearing the mesh. The old surface stays, so the signed volume counts the old box as well
  (`C30_enclose_volume`, `C30_enclose_wrong`). Indices stay valid and the mesh stays watertight (`C30_enclose`). Up to
  this entry C30 was listed as proved although its theorem covered only boxes made by the constructor.
* **C20** the first wording named one relative tolerance of 1e-9. The code has a second one, on the squared length of
  the edge (src/Shape.cpp:49), so a hit may be farther than R(1+1e-9) when R is tiny compared with the edge. The
  wording of C20 was corrected to the bound that is proved; the theorem is unchanged.
* **C51** `setNumBeams`/`setAngleLimits` (src/sensors/LaserRangeFinder.cpp:305-322) leave the tables alone if the limits are
  not increasing or there is no beam: the sensor then announces a number of beams it has no directions for
  (`C51_stale_wrong`).
* **C52** `getAngleUpperIndexRaw` (src/sensors/LaserRangeFinder.cpp:361-364) truncates toward zero, so every angle less than
  one step below the first beam is given the index 1 instead of 0 (`C52_below_wrong`).
* **C54** `renderLine` divides by zero for a beam parallel to the line; infinity is greater than 0 and is stored over 0
  (`C54_parallel_wrong`). End points just below the first angle (C52) give the first beam a range at which it does not meet
  the line (`C54_below_wrong`). A line facing away whose end points differ by at least the half turn of the beam grid is
  drawn as if it went around the sensor (`C54_back_wrong`).
* **C55** A line facing the sensor whose end points differ by at least the half turn of the beam grid is taken for one facing
  away and not drawn (`C55_wide_wrong`, `C55_gap_wrong`); with five beams around the turn that happens from less than
  pi on. Lines starting just below the first angle miss the first beam (`C55_below_wrong`).
* **C57** A maximum range of 0 means no limit in `renderLine`, but `render` (src/sensors/LaserRangeFinder.cpp:171-181) takes
  it for a limit and omits meshes whose bounding sphere does not contain the sensor (witness: `C57_unlimited_wrong`).
* **C59** `polarTo3D` (src/sensors/LaserRangeFinder.cpp:407-410) multiplies by the basis of the pose only; the translation is
  ignored (`C59_translation`). The claim is worded so.
* **C60** with an offset Tx the projection divides it by the depth, the back-projection (include/geolib/sensors/DepthCamera.h:216)
  does not; the two are inverse at depth 1 only (`C60_offset`). The claim is worded so.
* **C63** `drawTrianglePart` (src/sensors/DepthCamera.cpp:444-466) draws whole pixels from the cut-off start to the cut-off end, stepping
  the inverse depth a full pixel each time: the last pixel of a row is extrapolated and may get a negative depth
  (`C63_negative_wrong`), which is nearer than everything. For an apex left of the image both ends of the row coincide, 0/0 is
  multiplied into the depth, and the pixel in column 0 becomes NaN for good (`C63_nan_wrong`).
* **C66** the constructor of `DefaultRenderResult` (include/geolib/sensors/DepthCamera.h:123-135) resizes the outer vector only;
  existing columns keep their length. A higher image after a lower one is written out of bounds (`C66_history_wrong`); the
  default maps are static objects shared by all calls in a file, so this needs no reuse by the caller.
* **C80** `drawTriangle2D` (src/sensors/DepthCamera.cpp:354) asks for the largest column and row to be greater than 0: triangles
  within the first column or row are not drawn (`C80_border_wrong`).
* **C69** `num_corners - 1` and `points.size() - 1` wrap around for 0 corners. `createConvexPolygon` of no points counts until
  `i2 + 2` overflows `int` (src/shapes.cpp:70-75, `C69_no_polygon`); `createCylinder` with 0 corners makes 2 (2^32 - 2) triangles
  that refer to no points (src/shapes.cpp:31-40, `C69_no_cylinder`). An earlier wording of the claim said that they do not
  terminate, which is not so.
* **C72** `Point32` holds `float`s; other numbers return rounded (`C72_point32_wrong`).
* **C73** `convert(DepthCamera, CameraInfo)` (src/ros/msg_conversions.cpp:34-88) does not reset the region of interest, and
  `resize(5, 0)` keeps existing distortion coefficients: a message used again describes another camera
  (`C73_reused_wrong`). `convert(Mesh, ...)` does not clear the message either (`C73_corners`); the claim is worded so.
* **C83** `constructMesh` (src/io/import.cpp:66-68) takes the millimetre cells of vertices from scaled coordinates before the pose of
  the node is applied, so a node that scales up merges vertices far apart (`C83_near_wrong`).
* **C87** `Octree` (include/geolib/Octree.h:13-63) owns `root_` and has a copy constructor and a destructor, but no assignment
  operator: after `a = b` both destructors delete the same nodes (`C87_assign_wrong`); a change of one is seen in the other and the nodes that `a` had are lost
  (`C87_shared_wrong`).
* **C88** So does `HeightMap` (include/geolib/HeightMap.h:16-59, `C88_assign_wrong`).
* **C89** The destructor of `HeightMapNode` (src/HeightMapNode.cpp:50) is the default one and does not delete `children_`:
  destroying a height map of more than one cell leaks all nodes but the root (`C89_leak_wrong`).
* **C38** a box around an added point that is outside the tree is not reported (`C38_outside_wrong`), because the point is stored
  in an outermost cell (C36, C40) and the box is cut off at the tree (src/Octree.cpp:120-133).
* **C78, C79** the faults of C54 and C55 appear in whole meshes: a triangle in front of the sensor is not drawn (`C78_gap_wrong`),
  beams are given ranges at which no triangle is (`C79_back_wrong`, `C79_below_wrong`) or an infinite range (`C79_parallel_wrong`).
* **C81** the negative depth of C63 occurs for a triangle in front of the camera, no point of which has it (`C81_negative_wrong`).
* **C90** the octree queries step a tenth of a cell beyond each cell in `float` (src/OctreeNode.cpp:173,223). From 2^26 cells away
  `static_cast<float>(distance + 0.1 * resolution)` is the old parameter again, and the recursion does not end (`C90_stuck_wrong`; in
  C++ it exhausts the stack unless the compiler turns it into a loop).
* **C92** `Octree::contains` (src/Octree.cpp:110-118) and `OctreeNode::contains` compare with `<` and `>`, which are false for NaN:
  a NaN coordinate counts as the lower bound of the tree. `Octree::add` tests no bounds and stores a point with infinite or NaN
  coordinates in an outermost cell (src/OctreeNode.cpp:47-84, `C92_octree_wrong`).
* **C94** tools/height_image_to_shape.cpp:36-53 tests `argc > 3`, `> 4` and `> 6` for the arguments 2, 3 and 4-5, one too high: the
  last parameter (or the origin) is silently ignored (`C94_shape_wrong`). height_image_to_file has one more file name, for
  which the tests are right (`C94_file`).
* **C96** Both tools ignore the result of writing (`toFile` has none, tools/height_image_to_file.cpp:85 drops that of `writeMeshFile`) and report success
  with status 0; an output name of one or two characters ends height_image_to_file with an exception (`C96_exit_wrong`).
* **C97** tools/show.cpp:35 calls `fromFile` on every file first, which is undefined behaviour
  for every file with no 0 among the first eight bytes, the own format included (C47): `C97_show_wrong`, `C97_show_computes`.
* **C99** The vertex rule of C19 fails for shapes the library makes itself: above a prism or a cylinder there are points whose probe
  touches it in one vertex only and which `contains` reports as contained (`C99_vertex_wrong`, with numbers that are exact as
  doubles, and `C99_cylinder_wrong`).
* **C101** Scan and ray test of the same box disagree for beams along an axis of the box: the scan shows the distance, the ray test
  reports no hit (`C101_axis_wrong`; the ray test is the one that is wrong, see C27).
* **C102** A laser without maximum range (0, which `renderLine` takes as no limit) sees a composite of one plate 10 in front of it but
  not the plate itself: only the latter is skipped by the radius test (`C102_unlimited_wrong`, see C57).
* **C103** Where top rectangles overlap (see C75) the surface counts the cell twice: for the grid `[[2, 1], [1, 1]]` the signed
  volume is too large by at least a third of a unit cell (`C103_volume_wrong`).
* **C104** Where top rectangles overlap (see C75) a probe that enters the doubly covered cell from above counts two entries: for the
  grid `[[0, 1, 9/4], [1, 1, 9/4]]` the point (1/2, 11/5, 13/10) of a column is reported as outside (`C104_notch_wrong`). Points on
  the ground below a column are reported as outside as well, since the mesh has no floor (`C104_columns_partial`).
* **C105** An octree contains points that a sphere about them misses, even one of radius 1, since `contains` looks in the wrong cell
  (see C37) and the sphere test, which it inherits from `Shape` (src/Shape.cpp:205-270), looks at the mesh of the cubes
  (`C105_octree_wrong`).
* **C106** A sensor whose first beam points straight back (limit -π) does not find the points of that beam: `atan2` gives π for them,
  so `getAngleUpperIndex` (src/sensors/LaserRangeFinder.cpp:355-359) returns the number of beams (`C106_back_wrong`).
* **C107** An object that draws NaN at a pixel (see C63) hides every object drawn after it there, also nearer ones, while objects drawn
  before it stay visible: the image depends on the order of the objects (`C107_nan_wrong`).
* **C32, C108** `CompositeShape::intersect` passes the smallest distance so far to the next part as a `float`
  (src/CompositeShape.cpp:49). If that rounds up, a later part that is slightly farther replaces a nearer one: `C108_sharp` has two
  user-defined parts at `1 + 3/2^25` and `1 + 7/2^26`, and the composite reports the one added last. `C32` is proved with the cast exact;
  `C108_nearest` has what remains true with it.
* **C109** The answers of a mesh depend on where its origin is. `contains` is true for the box [0,1]x[0,2]x[0,2] and the point (1.5, 1, 0)
  outside it (see C19), and false after both are moved by (10, 0, 0), because of the radius check (src/Shape.cpp:281-284;
  `C109_contains_wrong`). The sphere test is false for a triangle with an edge from (0, 0, 0) to (1, 0, 0) and a sphere of radius 1e-11 about
  (1 + 1e-10, 0, 0), by its early exit (src/Shape.cpp:208-211), and true after both are moved by (-5, 0, 1), by the tolerance of
  `checkLinesegment` (src/Shape.cpp:49; `C109_sphere_wrong`).
* **C110** `project3Dto2D<double, int>` truncates (include/geolib/sensors/DepthCamera.h:213), so that a coordinate which rounding puts just
  below an integer loses a pixel: with a focal length of 49 the ray of pixel (1, 0) is projected to pixel (0, 0) (`C110_int_wrong`). The
  library itself uses the form with `float` (src/sensors/DepthCamera.cpp:171), for which `C110_float` holds.
* **C112** A height map with a cell of negative height and no positive one has no column that a ray could hit, but walls
  down to the negative height (src/HeightMap.cpp:131-240 compares heights with each other, while the tree and the tops take
  positive cells only), so `empty()` is false (`C112_pit_wrong`).
* **C114** `Shape::contains` (src/Shape.cpp:278-473) can say yes for a point outside the bounding box of the mesh: (1.5, 1, 0) and the mesh of the box from (0, 0, 0) to (1, 2, 2), whose probe runs within the plane of a face (as in C19). A `CompositeShape` with this mesh as its only part says no, because it asks its bounding box first (src/CompositeShape.cpp:83-86), so the two disagree (`C114_wrong`).
* **C115** A composite of a height map and a box reports different distances for the same ray, depending on which of the two was added first: `HeightMapNode::intersect` (src/HeightMapNode.cpp:91-97) returns the first child hit and not the nearest, and which children are hit depends on the distance found so far, which `CompositeShape::intersect` passes on as `t1` (src/CompositeShape.cpp:49) (`C115_order_wrong`).
* **C116** `OctreeNode::intersect` returns true for an occupied node without writing the distance (src/OctreeNode.cpp:120-123), and `CompositeShape::intersect` then takes the NaN of line 48 as the distance (src/CompositeShape.cpp:48-53): every later part is missed, because no comparison with NaN holds, and NaN is reported. With a box in front of the octree, the result is NaN or the distance of the box, depending on which was added first (`C116_nan_wrong`).
* **C119** The image of several objects is not determined by the set of the objects: an object that draws NaN at a pixel (C63) keeps nearer objects drawn later from that pixel, but not those drawn earlier (`C119_image_wrong`, from `C107_nan_wrong`). Drawing the same object twice in a row is harmless even then.
* **C120** `OctreeNode::add` stops at nodes with `size_ - 1e-10 < resolution_` (src/OctreeNode.cpp:51). For cells of 2^21 the difference rounds to `size_`, the descent goes one level further, and the cubes are half as wide as `getResolution` says (`C120_large`). With real numbers this does not happen.
* **C121** `calculateRays` fills the table of angles by repeated addition (src/sensors/LaserRangeFinder.cpp:334-340), `getAngleUpperIndexRaw` divides (361-364). In double precision they disagree: with nine beams from 1 to 3 + 2^-51 the table has beam 1 at 1.25, but the index of 1.25 counts only beam 0 (`C121_own_beam`), while with real numbers the index of the angle of a beam counts that beam. The consequence is that a line that ends within rounding of a beam may or may not be seen by it; `C121_index` and `C121_seen` bound this.
* **C124** `renderLRF` (test/test_geolib.cpp:81-88) marks the pixel of every range without checking that it is inside the picture. With the sensor of the function (1000 beams from -2 to 2 rad, ranges up to 10 m), 25 pixels per metre and 480 rows, a range above 9.6 m to the side is outside (`C124_show_wrong`). The program never calls the function with `show` set; the same drawing in `main` (test/test_geolib.cpp:393) does check. Also, the resolution meant for the octree `axis` is set on `table` (test/test_geolib.cpp:256-257); nothing uses `axis` afterwards.
* **C127** The exact round trips of C05 and C72 do not hold for doubles: a quarter turn about the vertical axis, whose entries are 0, 1 and -1, comes out of a message with 2^-52 in place of a 0 (`C127_quarter_turn`), because 0.5 divided by the rounded root of 2 (include/geolib/math_types.h:622) and half of that root (621) round to different numbers. `C127_roundtrip` bounds the error.
* **C130** `Mesh::filterOverlappingVertices` (src/Mesh.cpp:119-121): the cells are those of the rounded products, not of the coordinates. The `double` next to 0.009 is below 9 mm, but its product with 1000 is rounded to 9, so it is merged with a point at 9.277 mm that exact arithmetic keeps apart (`C130_border`). The move stays within the bounds of `C130_merge`.
* **C134** `constructMesh` (src/io/import.cpp:66-68): the cells in which vertices are merged are those of the rounded products. With the `double` next to 0.009 as scale, which is below 0.009, a vertex at 1 is put in cell 9 instead of 8 (`C134_border`). Which vertices are merged may differ from exact arithmetic then; for scale 1 this cannot happen, as the vertices are `float`s (`C134_keys`).
* **C139** as C41: the bounding box that was given once is given for ever (`C139_stale`), also after additions (`C139_bounding_box_wrong`).
* **C140** the place on the ray is a `float` (src/Octree.cpp:82, src/OctreeNode.cpp:173), so for a ray that begins far from the tree the step of a tenth of a cell beyond the octant is rounded away, and the recursion does not end (in the program: the stack overflows). `C140_far_wrong`: cells of size 1, a ray from 2^25 + 1/2 before the centre. In exact arithmetic every such query ends (C39). So it does with rounding if the ray begins within about 2^15 cells (`C140_ends_partial`). `Octree::raytrace` has the same kind of step; it is modelled in exact arithmetic only.
