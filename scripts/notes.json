{
 "C01": "All transforms; also shows the action is v -> R v + t in Mathlib's matrices.",
 "C02": "Rigid = orthogonal basis. C02_nonrigid_inverse_wrong shows the precondition is needed.",
 "C03": "All real roll, pitch, yaw; also Transform3D::setRPY keeps the translation.",
 "C04": "Exact except pitch = -pi/2 and a 1e-12 band below +pi/2 (there: error <= 3e-12 per entry). The code is wrong at pitch = -pi/2: C04_gimbal_lock_wrong.",
 "C05": "All of SO(3), all branches; radicand >= 1.",
 "C06": "Includes agreement with Hamilton conjugation.",
 "C07": "Inverse laws, inverseTimes and distances need an orthogonal 2D basis; the remaining clauses hold for all planar transforms.",
 "C08": "One conjunct per operation; getRow also for indices out of range (C08_rows). Plain accessors, constructors and stream output are not compared.",
 "C09": "Normalisation needs a non-zero vector (non-zero columns for matrices); the other identities hold for all vectors.",
 "C10": "All histories, including add of arbitrary meshes and assignment of a transformed mesh.",
 "C11": "Admissible = caller obligations stated in Spec.CallOk (valid indices, < 2^32 points, int range for the merge).",
 "C12": "C12_size: the size is the number of triangles, so the sizes add up. Adding a mesh to itself is undefined behaviour (C12_add_self_ub).",
 "C13": "The 2 mm bound is tight in kind: C13_zero_cell_double; out-of-range coordinates are undefined behaviour: C13_out_of_range_ub.",
 "C14": "Triangle-wise claim for meshes whose indices are all valid; radius clause for an orthogonal basis and zero translation.",
 "C15": "All histories of mesh operations that end without a fault; the caches are part of the state.",
 "C16": "C16_triangle: Heron's formula for Triangle::area. The normal points to the clockwise side.",
 "C17": "All histories of setMesh/getBoundingBox/getMesh; the cache is part of the state.",
 "C18": "Holds when some side product exceeds the 1e-16 tolerance pattern stated; C18_micrometre_wrong shows that a micrometre-sized mesh rejects its own surface points.",
 "C19": "Code violates the claim: C19_coplanar_wrong (a face coplanar with the probe is tested against the infinite line) and C19_vertex_wrong (probe through a vertex: answer depends on triangle order). Partial: points beyond the radius; crossing-number formula for all probes not coplanar with a face, including probes through edges and vertices; half-weight formula for shared edges; false for every point from which a path leads outside, for watertight meshes and clear probes that meet no vertex (C19_closed_partial) and for soups with cancelling edges and probes in general position (C19_generic_partial); the same answer for points joined by a path; convex meshes and boxes. Missing: probes within the tolerance of a triangle's plane, edges or area, and probes through vertices, where the claim fails.",
 "C20": "For meshes whose indices are all valid; both tolerances of src/Shape.cpp:49 appear in the bound.",
 "C21": "Code violates the claim: C21_back_side_wrong (the foot point is computed with an unsigned distance). Partial: complete for the front side and for the rim. C21_noticed describes exactly what is reported, from either side, for spheres clear of the rims.",
 "C22": "Side product = determinant; line, segment and coplanar cases.",
 "C23": "Box test for all lo, hi, p; the convex hull clause for proper boxes.",
 "C24": "All proper boxes, all radii.",
 "C25": "Code violates the claim (src/Box.cpp:80 uses c1.y - c2.z): C25_box_box_wrong. Partial: boxes whose first centre has y = z. C25_computes: exactly which pairs of boxes the code reports.",
 "C26": "Exact in real arithmetic; float casts are identities in the model.",
 "C27": "Code violates the claim: C27_axis_parallel_wrong. Partial: exact description of what the code computes for axis-parallel rays.",
 "C28": "Code violates the claim: C28_max_radius_wrong. Partial: never too large; exact when one corner dominates. C28_computes: the value bounds the box if and only if one corner dominates the other; the square root of two times it always does.",
 "C29": "Every sequence of enclose calls, arbitrary affine poses.",
 "C30": "Code violates the claim after enclose: the old surface stays in the mesh (C30_enclose_wrong). Partial: full claim for boxes made by the constructor; indices and closedness after any enclose history; exact volume after one enclose.",
 "C31": "Exact pre-check characterisation for arbitrary parts with valid meshes that answer without a fault; lossless for parts whose answers lie within their mesh hull; instantiated for boxes and for nested composites. All poses rigid.",
 "C32": "Parts obey the ray contract (proved for boxes in rigid poses off the axis-parallel case). A plain mesh part makes every cast throw: C32_mesh_part_throws.",
 "C33": "Bounding box: coordinates within 1e10. C33_parts: the poses are inverses for rigid poses.",
 "C34": "Code violates the claim for the bounding box: C34_bounding_box_wrong ([-1e10,1e10]^3 before the first part). Partial: contains nothing and hits nothing.",
 "C35": "Construction and setResolution terminate for a positive request with size/2^k for the least admissible k. A request of 0 or less with a positive size does not terminate in exact arithmetic.",
 "C36": "Partial: proved for every history of additions, clearings and queries, for cells of at least 1e-10. Below that the tolerance in OctreeNode::add stops one level early (C36_tiny_wrong). Points outside the tree go to an outermost cell.",
 "C37": "Violated: OctreeNode::contains passes the point to the child without shifting it (C37_contains_wrong, both directions). C37_computed says for every point inside the tree which cell answers instead: on each axis the one whose number has all binary digits below the leading one set. So the answer is right for cells with such numbers, and for points outside the tree (C37_contains_partial).",
 "C38": "Exact characterisation (C38_box) for every proper box and every reachable tree. The clause on added points is partial: histories without raytrace, cells of at least 1e-10, points inside the tree. A point outside the tree is stored in an outermost cell, and a box around it is not reported (C38_outside_wrong).",
 "C39": "Violated: the distance is not written if the first probe hits, the end of the range is ignored, the start of the range is counted twice from outside the tree, and axis-parallel rays miss (four counterexamples). Partial: termination for every ray; soundness for oblique rays; completeness and nearness for cubes crossed by more than a tenth of a cell.",
 "C40": "Partial: for every ray, no fault, only the cell of the end point becomes occupied, only touched cells become free. Violated for axis-parallel rays, and an end point beyond the tree marks an outermost cell (two counterexamples).",
 "C41": "Violated: empty() looks at the hidden base mesh, and the bounding box is never recomputed. Partial: the mesh equals the cubes' faces up to 2 mm merging after every history; the bounding box encloses the cubes when first asked for.",
 "C42": "Exact for every rectangular grid, any values (also negative) and any resolution (nesting for resolution at least 0). Faults: only undefined behaviour, and none for grids in range; ragged and empty grids are undefined behaviour.",
 "C43": "For every ray and range and resolution at least 0, relative to the box ray cast; geometric version for oblique rays.",
 "C44": "Violated: the first child in index order wins (C44_nearest_wrong). Proved for rays with positive x and y components; C44_order describes the column reported for rays of any direction: the first one hit in the order of the search.",
 "C45": "For every rectangular grid in range. Rectangles are also maximal. Vertices are exactly grid corners at occurring heights.",
 "C46": "All bit patterns, any trailing data; also the exact byte layout. Sizes below 2^31; beyond, the count reads back negative (C46_size_limit).",
 "C47": "Violated: the 8-byte buffer is not terminated, so as the language has it every call on a written shape is undefined behaviour and no call ever returns a shape (C47_deserialize_wrong, C47_never). On a machine where the byte after the buffer is 0 the round trip holds; where it is not, null is returned (C47_garbage_wrong). A missing file reads an uninitialised buffer.",
 "C48": "Every cut point. Truncation shows only in the stream state, which fromFile drops.",
 "C49": "Every byte string: complete description of the result, including bytes left and stream state. Indices are not validated.",
 "C50": "All registration histories.",
 "C51": "All histories of setter calls that return (a beam spacing too small for the index type makes a setter undefined behaviour). Also: the configuration is that of the last calls. Without the condition the tables are stale (C51_stale_wrong: five beams announced, two directions kept).",
 "C52": "Violated for every sensor and every angle less than one step below the first beam: 1 is returned instead of 0 (C52_below_wrong). Proved for all other angles from -pi to pi, for sensors within one turn whose beams are more than about 3e-9 rad apart. C52_xy_partial is the overload with coordinates.",
 "C53": "All sequences of points with positive depths within the table; ranges may be infinite. Equality of the whole result for every permutation.",
 "C54": "Violated: a beam parallel to the line is given an infinite range (C54_parallel_wrong); end points just below the first angle (C54_below_wrong) and lines facing away (C54_back_wrong) give ranges to points that are not on the line piece. Proved: every changed range is a point of the infinite line, or infinite for a parallel beam; on the piece itself for lines drawn in one part (C54_segment) and for all lines facing the sensor, if the end points are at or above the first angle.",
 "C55": "Violated: lines that are wide (from the largest multiple of the spacing within half a turn, C55_wide_wrong) are not drawn, nor some narrower ones (C55_gap_wrong), nor lines ending just below the first angle for the first beam (C55_below_wrong). Proved for end points at or above the first angle and lines at most pi minus two beams wide, or across the cut at pi.",
 "C56": "All lines with distinct end points. The omission by distance is compared with the sensor with the limit taken off.",
 "C57": "Rigid poses, reachable meshes with valid indices, positive maximum range. Violated for maximum range 0, which means no limit elsewhere (C57_unlimited_wrong).",
 "C58": "All triangles: with vertices below and not below the plane the segment is the set of points of the triangle at height 0 and its end points are on edges; otherwise there is none. Reversal, choice of the first vertex, and the direction relative to the normal.",
 "C59": "Configured sensors, all range lists. polarTo3D is the rotation only: the translation of the pose plays no part (C59_translation). C59_direction: getRayDirection is the unit vector at the angle of the beam, and reading past the last beam is undefined behaviour.",
 "C60": "Real focal lengths other than 0. With an offset Tx the statement at other depths holds only for depth 1 (C60_offset), which is why the claim asks for Tx = Ty = 0 there.",
 "C61": "Calls inside the image with positive finite depths, maps that fit the image. Earlier contents of the image are taken into account. The triangle map entry is the index converted to int.",
 "C62": "Triangles whose projected corners are below 2^30 pixels from the origin; C62_mesh for whole meshes within a bound K off the axis such that 10 times the projection of K is below 2^30. Also shows that no undefined behaviour occurs.",
 "C63": "Violated: the last pixel of a row is extrapolated, down to negative depths (C63_negative_wrong), and an apex left of the image gives NaN, which no later call replaces (C63_nan_wrong). Proved for pixels with triangle left at the next column, and not in column 0 unless the triangle is right of the border.",
 "C64": "All triangles in camera coordinates. Coverage as an equality of point sets; corners, and normals as non-negative multiples.",
 "C65": "Focal lengths of equal sign, all corners at z < 0. C65_cull also covers offsets Tx, Ty, with the shifted optical centre.",
 "C66": "Violated: columns of the maps are never made longer, so a higher image after a lower one is written out of bounds (C66_history_wrong, from empty maps). Proved for histories of images of non-increasing height.",
 "C67": "Rigid poses, reachable meshes with valid indices and at most 2^32 triangles.",
 "C68": "The sort and the rows of the sorted corners, for every coordinate function.",
 "C69": "C69_cylinder and C69_polygon: for at least 2 corners, with 2n at most 2^32 and 2^31, the result is a Prism (counts, vertex positions, valid indices, closed, volume, and outward orientation if the base is convex and clockwise and the height not negative). C69_cylinder_on: vertices on the cylinder; C69_cylinder_polygon: its base is convex and clockwise with the area of the regular polygon. C69_no_polygon: undefined behaviour without points; C69_no_cylinder: 2(2^32-2) triangles without points for 0 corners. Memory is unlimited in the model.",
 "C70": "C70_ok: constructMesh succeeds if the placed meshes and their vertex indices exist and scaled coordinates fit int in millimetres. C70_shows, for results of at most 2^32 points: valid indices, no triangle twice in the whole result, every triangular face of every placed mesh is shown, every triangle shows such a face, every point comes from a vertex. C70_blocks: one block of points for each placed mesh, with one point for every millimetre cell that has a vertex. The Assimp scene is an input of the model.",
 "C71": "C71_scene: the scene handed to the exporter and the returned value. C71_explicit: a format of ASCII characters in lower case. C71_suffix: table of the last three characters, x, or no format. C71_short: exception. C71_bytes: a format with a byte from 128 to 254 is undefined behaviour. Rounding to float is a parameter.",
 "C72": "C72_messages, C72_back (message to transform and back: the same rotation up to sign and length of the quaternion) and C72_tf2. Point32 holds floats: C72_point32_partial for numbers that fit, C72_point32_wrong for 2^52+1.",
 "C73": "C73_mesh, C73_corners: points and triangles are appended, indices not re-based. C73_constructor: intrinsics and size from numbers. C73_camera_partial: for messages whose region of interest has no offset; C73_size: its range condition holds for cameras made from messages. C73_reused_wrong: offset and distortion of an earlier content are kept. PinholeCameraModel is a contract (see the trusted base).",
 "C74": "For grids whose different heights (including 0) differ by more than 1e-10.",
 "C75": "Violated: growing ignores visited cells (C75_tops_disjoint_wrong). C75_tops_disjoint_partial: for all grids in range, rectangles are made in the order of their first cells and none starts in a cell that an earlier one covers. C75_no_notch_partial: no overlap for grids whose heights differ by more than 1e-10 and in which no step has an inner corner towards smaller x.",
 "C76": "Violated: always true. Proved: what arrives is exactly the prefix that fits.",
 "C77": "All sensors within one turn whose beams are more than about 3e-9 rad apart, all meshes with valid indices, all poses (not only rigid), all earlier ranges.",
 "C78": "Proved for sensors with positive maximum range, rigid poses, triangles whose section is at or above the first angle and at most pi minus two beams wide. C78_gap_wrong: a wider triangle in front of a sensor with five beams around the turn is not drawn. For sections below the first angle see C55_below_wrong, for sensors without maximum range C57_unlimited_wrong.",
 "C79": "Proved if the sections of all triangles are at or above the first angle and narrower than half a turn of the beam grid. Otherwise false: a triangle facing away gives a range to a beam that does not meet it (C79_back_wrong), so does one just below the first angle (C79_below_wrong), and a beam parallel to a section is given an infinite range (C79_parallel_wrong).",
 "C80": "Violated for triangles within the first column or row, which are not drawn (C80_border_wrong). Proved, for projected corners below 2^30, for triangles with a corner in a later column and a corner in a later row.",
 "C81": "Proved for the pixels of C63_between_partial. C81_negative_wrong: a thin triangle in front of the camera is drawn with a depth that no point of it has; NaN is also possible (C63_nan_wrong).",
 "C82": "All rigid camera poses; results are compared including failures.",
 "C83": "C83_near_partial: uniform scale and rigid pose (or 3ds, where no pose is applied). C83_near_wrong: half a metre off for a node that scales by 1000.",
 "C84": "C84_failed, C84_short, C84_ok (a well-formed scene gives a shape), C84_other, C84_3ds, C84_matrix (how a node moves a point), C84_dae (root matrix a positive multiple of an orthogonal one). Faces are shown in the sense of C70; results of at most 2^32 points.",
 "C85": "C85_roundtrip, in memory: that Assimp writes and reads the file faithfully is not modelled. At most 2^32 points.",
 "C86": "Code violates the claim: C86_vertex_wrong (probe through the corner of a cavity: answer depends on triangle order). Partial: true for every point from which a path leads to the inner side of a triangle with the outside behind it, for watertight meshes and clear probes that meet no vertex (C86_closed_partial) and for soups with cancelling edges and probes in general position (C86_generic_partial); points strictly inside convex meshes and boxes. Missing: probes within the tolerance of a triangle's plane, edges or area, and probes through vertices.",
 "C87": "Code violates the claim: C87_assign_wrong (double delete of the shared root after an assignment), C87_shared_wrong (a point added to one is seen in the other, lost nodes). Partial: programs without assignments (C87_values_partial, C87_released_partial). Nodes are reached through pointers on a modelled heap; the cached mesh is left out there.",
 "C88": "Code violates the claim: C88_assign_wrong (double delete). Partial: programs without assignments (C88_values_partial); C88_move is complete. That nodes are released is C89.",
 "C89": "Code violates the claim: C89_leak_wrong (two columns). C89_released_partial: all nodes are released exactly when the grid has at most one cell or no positive one; grids up to 2^31 by 2^31, non-empty and rectangular.",
 "C90": "Code violates the claim: C90_stuck_wrong (a cell of size 1 seen from 2^26 away: neither query ends). C90_ends_partial: ranges from 0 on and rays in the tree for no parameter beyond 800000 cells; hits are located for trees of more than one cell. Rounding to 24 binary digits, ties to even, without overflow and subnormal numbers; arithmetic in double is exact.",
 "C91": "Same rounding as C90. The first part needs the line to meet the box; the second part does not.",
 "C92": "Code violates the claim: C92_octree_wrong ((NaN, NaN, NaN) is added as the lowest cell and is then contained; (inf, NaN, 0) occupies a cell although it is not contained). C92_box and C92_mesh are complete; C92_octree_partial: infinite points are not contained, and special values count as bounds of the tree otherwise. C92_finite: on ordinary points the queries are those of the other properties.",
 "C93": "Constants: apply 8u, compose 11u and 8u, there and back 43u plus three times the defect of the matrix, quaternion 19u per entry. No overflow, no subnormal numbers, no fused operations. C93_absorbed: the exact round trip fails for doubles, the translation term is needed. Not covered: the functions with sqrt, sin, cos and atan2.",
 "C94": "Code violates the claim: C94_shape_wrong (height_image_to_shape compares argc as if there were one more file name). C94_file is complete for height_image_to_file; C94_shape_partial: with one more argument at the end. C94_total: usage errors, no fault. C94_lone: an origin with one coordinate is ignored by both programs.",
 "C95": "C95_shape: the shape is that of fromGrid on the heights of the picture, moved. C95_surface: tops and walls, for resolution > 0 and block height > 2.55e-8 (then different grey values differ by more than the tolerance). cv::imread is a contract.",
 "C96": "Code violates the claim: C96_exit_wrong (full device, failing exporter: status 0; short output name: exception). C96_exit_partial: what is written when the program ends with status 0, and that status 1 means nothing was written.",
 "C97": "Code violates the claim for show: C97_show_wrong (a file of at least eight bytes, none of the first eight 0, is undefined behaviour, see C47). C97_show_computes: complete, for every file: Assimp with a 0 among the first eight bytes, otherwise undefined. C97_show_partial: where the byte after the buffer is 0, for shapes in the own format and files that begin with eight other bytes that are not 0. C97_grey: in real arithmetic, positive radius. C97_frames, C97_key: canvas sizes from 0 to 2^32; C97_canvas: undefined behaviour from -1 down and from 2^32 up. Drawing itself: C60-C66, C80, C81.",
 "C98": "C98_chain: any relative error u up to 1/1000. C98_quaternions: double, up to 2^40 poses. C98_grouping: the associative law fails for doubles. Same simplifications as C93 (no overflow, no subnormal numbers, no fused operations).",
 "C99": "C99_polygon_partial, C99_cylinder_partial: for probes in clear position with regard to every triangle (side products zero or beyond the code's tolerance 1e-16, probe not in the plane of a triangle, point not within tolerance on a triangle or edge); points with |z| at least half the height need in addition a probe through no vertex. The full statement is refuted: C99_vertex_wrong (a point above a prism counts as contained; all numbers exact as doubles) and C99_cylinder_wrong (the same above a cylinder with four corners, in exact arithmetic).",
 "C100": "C100_contains: the rounded and the exact answer are equal when the distance of the point from the origin differs from the radius r of the mesh by a factor 1 - 4u or 1 + 4u and, for points within the radius, the probe is WellClear of every triangle: side products with the edges larger than (1+u) 1e-16 + 300 u r^3, and for triangles pierced by the line of the probe both ends farther from the plane than 2e-8 + 300 u r^3 (in volume) and the area excess away from 1e-12 by more than u 1e-12 + 300 u r^2. C100_solid: combined with C19 and C86 for closed triangle soups. C100_exact: with the identity as rounding the function is the one of Model/Shape. No overflow, no subnormal numbers, no fused operations; the branches for probes through edges or vertices are modelled, but nothing is proved about them with roundings.",
 "C101": "C101_mesh_partial: surface seen within pi minus two beams and not below the first angle, nearest point strictly inside a triangle that has the sensor on its outer side, at most the maximum range away; beams without a surface point before b keep their value or show at least b. C101_box_partial: the same with the answer of Box::intersect, for a sensor outside the box and beams with all components in the frame of the box at least 1e-9. Violated for beams along an axis of the box: the scan shows the box, the ray test reports no hit (C101_axis_wrong, from C27). Not covered: beams through an edge of a triangle.",
 "C102": "C102_scene: any list of meshes with valid indices and any poses; each beam shows the nearest of the earlier value and the non-zero depths that the objects show alone. C102_composite_partial: scan of a composite equals the scan of its parts in turn; missing: sensors whose maximum range is not positive. Violated for a maximum range of 0: the composite of one plate is seen, the plate itself is skipped (C102_unlimited_wrong, from C57). C102_paint: image and pointer map of the depth camera are equal, or both calls fail in the same way; the triangle map is not compared, since the joined mesh numbers its triangles anew. C102_poses: the composed poses in terms of sensor and object poses. Points of all parts together: at most 2^32.",
 "C103": "C103_at_least: never too small. C103_volume_partial: exact for grids without notches (no inner corner towards smaller x). C103_volume_wrong: an L of three equal cells, where a cell is covered twice: at least 32/6 instead of 5. All for cells and height steps of at least 2 mm, so that the vertex merge moves nothing.",
 "C104": "C104_sound_partial: true only above the ground in a column, for every grid of non-negative heights. C104_columns_partial: true exactly there, for grids without notches. C104_notch_wrong: a point of a column next to an L of three equal cells is reported as outside, since the probe enters the doubly covered cell of the L twice. All for cells and height steps of at least 2 mm and for probes that are clear of the tolerances of the test and meet no edge.",
 "C105": "C105_mesh, C105_box, C105_composite: the whole claim for meshes with valid indices, for boxes whatever their corners, and for composites of parts that have it. C105_octree_partial: answers and monotonicity for octrees below 4000 km with at most 2^29 cubes, after any history. C105_octree_wrong: an octree contains a point (C37) that spheres of radius 0 and 1 about it miss.",
 "C106": "C106_index_partial: for one beam of a sensor with Fine limits, except a first beam at -pi. C106_scan_partial: for all points of rangesToPoints of a scan with positive ranges, if the first beam is not at -pi. C106_back_wrong: the points of a beam at -pi get the angle pi from atan2, and with it the number of beams as upper index. Over the reals; under rounding the truncation may go either way at a beam.",
 "C107": "C107_clients: every client of render that does not stop gets the same pixels in the same order. C107_scene_partial: depth, pointer and triangle of a pixel of a scene in terms of the pictures of the objects alone, where all depths drawn at the pixel are finite and positive. C107_order_partial: under the same conditions the image does not depend on the order. C107_nan_wrong: where an object draws NaN (C63) it hides a nearer object that is drawn after it, but not one drawn before it.",
 "C108": "C108_exact: without rounding the query is that of Model/Composite. C108_nearest: the general form for parts with candidates, in toFloat (24 binary digits, ties to even, no overflow or subnormals; arithmetic in double is exact). C108_boxes: posed boxes and oblique rays, completeness (hit, at most at the rounded entry) and soundness (up to a relative 2^-23). C108_sharp: two user-defined parts at 1+3/2^25 and 1+7/2^26 are reported by order of insertion, so C32 holds only up to rounding for parts that report distances which are not floats. Of the shapes of the library, boxes report floats (boxF_float); mesh shapes throw.",
 "C109": "Full statement false: C109_contains_wrong (box [0,1]x[0,2]x[0,2] and (1.5, 1, 0), moved by (10, 0, 0)) and C109_sphere_wrong (one triangle, sphere of radius 1e-11 about (1 + 1e-10, 0, 0), moved by (-5, 0, 1); contains agrees in both frames). C109_closed_partial: closed mesh, any proper rigid motion, escaping or enclosed points, probe clear and without vertex contact in both frames (hypotheses of C19_closed_partial and C86_closed_partial). C109_turn_partial: rotations about the x axis, any mesh whose indices are valid, probe not within tolerance of the plane of a triangle. C109_sphere_partial: any mesh whose indices are valid, any proper rigid motion, positive radius, given that contains agrees and that some point of the mesh is within the radius or all are farther than the tolerance. Reflections are excluded.",
 "C110": "Rounding to 53 and 24 binary digits, ties to even, without overflow and subnormal numbers, after every operation; no fused operations. C110_near, C110_depth: error bounds for any rounding with relative error u at most 1/1000. C110_double, C110_float: complete within the stated ranges. C110_int_partial: with results of type int, the pixel or one less in each coordinate. C110_int_wrong: focal length 49. The library itself instantiates the function with float (src/sensors/DepthCamera.cpp:171); int is left to clients.",
 "C111": "Exact real arithmetic. ClosedSoup compares corners by position, so it also covers meshes whose triangles share no indices. Volume is the signed volume (sum of vol6, six times the volume). C111_merge: B bounds all coordinates of the mesh. C111_composite: rotations as poses; overlapping parts count twice. C111_needs_closed: one triangle shifted along z.",
 "C112": "C112_shape: reachable meshes with valid indices. C112_composite: emptiness of the mesh inherited from Shape. C112_drawn: ranges of the length of the scanner; the maps of the depth image may be resized. C112_heightmap_partial: no negative heights, grid in range. C112_pit_wrong: grid of one cell of height -1. The octree's empty() is treated in C41.",
 "C113": "C113_read: written with no failing sink; the reader skips the eight tag bytes and calls Shape::read. C113_prefix, C113_unique: meshes below 2^31 points and triangles. How deserialize chooses the reader by the tag is C47.",
 "C114": "C114_hull_partial, C114_bounding_box_partial, C114_composite_partial: closed (watertight) meshes with valid indices and at most 2^32 points, probe in clear position and through no corner (for composites: of every part). C114_generic_partial: closed soups without shared corners, generic probe. C114_sphere: any mesh with valid indices. C114_wrong: probe in the plane of a face (C19_coplanar_wrong).",
 "C115": "C115_candidate_partial, C115_order_partial: rays whose unit direction has x and y components of at least 1e-9 in the frame of every height map (z at least 1e-9 in absolute value), t0 >= 0; the other parts are boxes. C115_order_wrong: direction (-2,1,-2), where the height map alone reports the farther column (C44_nearest_wrong).",
 "C116": "C116_writes_partial: boxes, height maps, plain meshes and composites of such shapes, nested to any depth. C116_octree: what an octree leaves in the variable, for all octrees and rays. C116_deaf, C116_lost: with NaN as the end of the range no box, height map, octree or composite of such shapes is hit. C116_nan_wrong: an octree of one cell and a box. Only t1 and the distance can be NaN; other numbers are real, casts to float exact.",
 "C117": "C117_columns: for the rounding toFloat, a hit iff the box test in single precision of some positive cell hits, and the distance is that of such a cell. C117_geometric: for oblique rays, the same in terms of the parameters at which the line is in a column. C117_exact: with the identity as rounding the model is that of C43. Arithmetic in double is exact, as everywhere in Model/Single.",
 "C118": "C118_triangle: safety and coverage up to the shift e for toFloat. C118_culling: the culling test agrees with that of real numbers if the two products differ by more than 2^-22 of the sum of their sizes. C118_mesh: rendering with toFloat and toDouble never fails, and keeps an invariant of the receiver. C118_exact: with the identity as both roundings drawing and rendering are those of Model/DepthCamera. Nothing is claimed about the error of the depths; no overflow or subnormal numbers.",
 "C119": "C119_scan: any two lists of meshes with the same members give the same scan, for any earlier ranges. C119_again: rasterising an object a second time, with the same pointer and with the image and maps of the first time, leaves depth, triangle and pointer as they are at each pixel that was empty before the first time, whatever depths are drawn (NaN included). C119_image_partial: the depth at an empty pixel for two lists of objects with the same members, where all depths drawn at the pixel are finite and positive; pointers and triangles are not compared, since of equal depths the first wins. C119_image_wrong: false where an object draws NaN.",
 "C120": "C120_exact: with the identity as rounding construction, adding, listing and histories are those of Model/Octree. C120_history: for toDouble, sizes that are doubles, cells from 1e-10 to 2^19, points in the tree: the tree is that of real numbers for moved points, which are in the tree too. C120_cubes: the listed cubes against those of real numbers, in order, for every tree reached by a history (ray tracing with real numbers included). C120_points: both combined with C36. C120_power: no error for powers of two. C120_large: cells of 2^21. Nothing is claimed about points outside the tree, ray queries, box queries or meshes in floating point arithmetic; no overflow or subnormal numbers.",
 "C121": "C121_exact: with exact operations setters, indices, lines and meshes are those of Model/LaserRangeFinder. C121_library: double precision with correctly rounded library functions meets the assumptions (u = 2^-53, v = 2^-24). C121_setup: configurations without undefined behaviour. C121_table: the tables after any setter history. C121_index: indices against the ideal grid. C121_line, C121_render: safety and improvement for all lines and all valid meshes. C121_depth: error of a changed range against the ideal line. C121_seen: beams at least 50 u inside the end points of a line that appears shorter than half a turn less two steps see it. C121_own_beam: index and table disagree in double precision. For meshes only safety and improvement are claimed, not the error of the cut with the plane; the radius of the mesh is an argument. No overflow or subnormal numbers.",
 "C122": "C122_exact: with exact operations the functions are those of Model/Box. C122_ray: soundness and completeness up to a margin of (8 u + 2 v) times the parameter, and the relative error of the reported distance, for a direction whose components are at least 1e-9 (1 + 8 u). C122_sphere: for a positive radius R a yes means a point of the box within (1 + 4 u) R, and a point of the box at distance D with (1 + 4 u) D + 13 u m <= R gives a yes (m bounds the coordinates of the box); radii up to 0 exactly. C122_box: the answer is that of the exact comparison (with line 80 as written, see C25) unless a gap is within 13 u m of zero. C122_radius: relative error 3 u. C122_enclose: any sequence of calls, with one error 8 u (rho + tau) for all of it. No overflow or subnormal numbers.",
 "C123": "C123_options: defaults, help, and which arguments set what. C123_picture: for positive sizes up to 10^6, |x|, |y| up to 10^6, 1 to 2^29 beams and an object seen within pi minus two beams not below -pi/2: the outline within 2.5 pixels per coordinate; each beam shows 0 and is drawn 10 m long, or shows the distance D > 0 of a surface point on the beam and ends within one pixel per coordinate of it if D is at least 0.1 mm (closer ones are drawn 10 m long); if the nearest surface point on the beam is within 100 m and strictly inside a triangle with the sensor on its outer side, the range is its distance.",
 "C124": "C124_points: the loop of main, all points. C124_pyramid: grids of all sizes (an odd size leaves the middle cell 0), C124_pyramid_even: even sizes, as in the code. C124_show_partial: the loop of renderLRF for ranges with 25 |r| less than half the rows and half the columns. C124_show_wrong: with the sensor and the picture of the code and all ranges at the maximum range of 10 the loop writes outside the picture.",
 "C125": "C125_exact: without roundings the functions are those of Model/Shape. C125_edges: distSq p y + 40 u D^2 < R^2 for a point y of an edge of any triangle, D the distance of p from the origin plus the radius of the mesh. C125_faces: distSq p x + 100 K u D^2 < R^2 for a point x of a triangle with sines of angles at least 1/K, p not behind its plane, K u at most 1/1000. C125_sound: all triangles of the mesh with sines at least 1/K; the bound on distSq p x is R^2 (1 + 2e-9) + 1e-17 times the squared length of an edge + 25000 K^3 u D^2. Inner points of triangles seen from behind are missed already without roundings (C21_back_side_wrong). No overflow or subnormal numbers.",
 "C126": "C126_exact: without roundings the functions are those of Model/Composite. C126_frame: bounding box up to 8 u (rho + tau), radius up to 12 u (rho + tau), both contain the hulls of the parts and are smallest for the corners of the triangles. C126_mesh: at most 2^32 points in all. C126_contains and C126_sphere: parts are any shapes that do not fail; for a positive answer of contains the part must contain nothing outside the hull of its mesh, for one of the sphere test with positive radius some point y of the hull must satisfy (1 + 4u) |p - y| + 30 u (rho + tau) <= R (the bounding box is asked first). C126_boxes: boxes as parts; sphere test positive for a point at distance d of a box with (1 + 5u + 2 delta) d + 2 eps <= R, negative if all have (1 + 5u + 2 delta) R + eps < d. No overflow or subnormal numbers; the ray query is in C108 and C122.",
 "C127": "C127_exact: without roundings the functions are those of Model/Math and Model/Conversions. C127_read: getRotation, and that the root is taken of a number of at least 0.94; the unit quaternion is characterised by conjugation. C127_roundtrip, C127_back: matrix to quaternion to matrix, and quaternion to matrix to quaternion (sign not determined). C127_hops: repeated conversion to Pose messages and back, also as a bound 900 (u + e) + 16200 n u on the images of vectors. C127_quarter_turn: the round trip is not exact for double. Matrices of doubles; no overflow or subnormal numbers.",
 "C128": "C128_exact: without roundings the functions are those of Model/Math. C128_set: setRPY, all angles. C128_roundtrip: matrix to angles to matrix; the matrix of the angles in exact arithmetic is within 26 (u + e) / c, the one computed by setRPY within 36 (u + e) / c. C128_angles: angles to matrix to angles, compared through sines and cosines; getYaw is the yaw of getRPY. Pitches with a cosine below 1e-11 or below 26 (u + e) are not covered (C04 has the exact case). Functions of the mathematical library are taken to round like an operation; no overflow or subnormal numbers.",
 "C129": "C129_exact: without roundings the query is the one of Model/Composite. C129_boxes: soundness and completeness of hit and distance for composites of boxes, on the composite that the rounded addShape builds. Rays that are nearly parallel to a face of a part or of the bounding box are not covered. No overflow or subnormal numbers.",
 "C130": "C130_exact: without rounding the functions are those of Model/Mesh. C130_merge, C130_cells: merging. C130_border: a case in double precision in which merging differs from real arithmetic. C130_radius: both radii and repeated queries, caches empty at the start. C130_normal: normals of triangles. No overflow or subnormal numbers.",
 "C131": "C131_exact: with exact operations the functions are those of Model/Shapes. C131_cylinder: closed prism, corners, area, convexity. C131_polygon: equal to the function in real arithmetic, so C69 applies. The example has 50000 corners in double precision. No overflow or subnormal numbers.",
 "C132": "C132_exact: with exact operations the functions are those of Model/Math. C132_planar: equal to the functions of Transform3 to the last bit. C132_apply, C132_compose, C132_inverse: error bounds. C132_rotation, C132_sum: angles. C132_double: double precision meets the hypotheses. No overflow or subnormal numbers.",
 "C133": "C133_exact: without rounding the functions are those of Model/Math. C133_plane, C133_space, C133_quaternion: length, components and length of the result. C133_matrix: scale taken out of a matrix. C133_scale: powers of two in double precision, to the last bit. No overflow or subnormal numbers.",
 "C134": "C134_exact: without rounding the functions are those of Model/Import. C134_import: a tree of nodes, success and failure. C134_file, C134_dae: successful import of files without and with a name ending with dae. C134_keys: when vertices fall in the same cells. C134_border: a border on which they do not. No overflow or subnormal numbers.",
 "C135": "C135_exact: without rounding the functions are those of Model/HeightMap. C135_columns: the tree answers as the columns do. C135_geometric: margins, for oblique rays; the distance is that of some column that is hit, which need not be the nearest (C44). C135_mesh: the surface, for heights at least 2e-10 apart. No overflow or subnormal numbers.",
 "C136": "C136_exact: without rounding the functions are those of Model/Octree. C136_box: boxes, with margins. C136_added: added points are found, no margin. C136_contains: points, as C37_computed up to size / 2^53; the answers are wrong as in exact arithmetic (C37). C136_mesh: the mesh, starting from an empty cache. C136_bounding_box: the bounding box, when first asked for (C41). No overflow or subnormal numbers.",
 "C137": "C137_nearest: the trees are equal. C137_points: cubes and boxes. C137_beyond: nothing is found beyond the tree, also not the points added there (as in exact arithmetic: C38_outside_wrong). No overflow or subnormal numbers.",
 "C138": "C138_same: equal cubes (as lists), answers, mesh and bounding box. Rays added are not among the histories. No overflow or subnormal numbers.",
 "C139": "C139_asked_partial: all answers, but the bounding box only when it was not asked for before. The code violates the rest: C139_stale (the first box is kept for ever), C139_bounding_box_wrong (a witness). C139_runs: all histories come to an end, for trees smaller than 4000 km with at most nine levels, rounded to double. Rays added are not among the calls. No overflow or subnormal numbers.",
 "C140": "C140_exact: without rounding the function is that of Model/Octree. C140_yes_partial: for all roundings the answer is yes only if the tree has a cube; near the tree only if the ray comes within a thirty-second of a cell of a cube after the start of the range (C140_near_partial for more than one cell, C140_one_partial for one cell, ranges that are not empty and rays that are nearly parallel to no coordinate plane; both under the conditions of C140_ends_partial). C140_ends_partial: with the roundings to double and float every query ends without a fault if the coordinates of the origin and twice the size of the tree together are at most 2^15 cells and the range starts at 0 or later. The code violates the end in general: C140_far_wrong (a distant ray for which the recursion goes on for ever). No overflow, subnormal numbers or NaN."
}