{"claims": [
 {"property": "C01", "status": "proved", "theorems": ["Geo.C01_composition"], "note": "All transforms; also shows the action is v -> R v + t in Mathlib's matrices."},
 {"property": "C02", "status": "proved", "theorems": ["Geo.C02_rigid_inverse", "Geo.C02_nonrigid_inverse_wrong"], "note": "Rigid = orthogonal basis. C02_nonrigid_inverse_wrong shows the precondition is needed."},
 {"property": "C03", "status": "proved", "theorems": ["Geo.C03_setRPY"], "note": "All real roll, pitch, yaw; also Transform3D::setRPY keeps the translation."},
 {"property": "C04", "status": "partial", "theorems": ["Geo.C04_rpy_roundtrip_partial", "Geo.C04_gimbal_lock_wrong"], "note": "Exact except pitch = -pi/2 and a 1e-12 band below +pi/2 (there: error <= 3e-12 per entry). The code is wrong at pitch = -pi/2: C04_gimbal_lock_wrong."},
 {"property": "C05", "status": "proved", "theorems": ["Geo.C05_quaternion_roundtrip"], "note": "All of SO(3), all branches; radicand >= 1."},
 {"property": "C06", "status": "proved", "theorems": ["Geo.C06_setRotation"], "note": "Includes agreement with Hamilton conjugation."},
 {"property": "C07", "status": "proved", "theorems": ["Geo.C07_planar", "Geo.C07_laws"], "note": "Inverse laws, inverseTimes and distances need an orthogonal 2D basis; the remaining clauses hold for all planar transforms."},
 {"property": "C08", "status": "proved", "theorems": ["Geo.C08_headers_agree", "Geo.C08_rows"], "note": "One conjunct per operation; getRow also for indices out of range (C08_rows). Plain accessors, constructors and stream output are not compared."},
 {"property": "C09", "status": "proved", "theorems": ["Geo.C09_vectors", "Geo.C09_planar"], "note": "Normalisation needs a non-zero vector (non-zero columns for matrices); the other identities hold for all vectors."},
 {"property": "C10", "status": "proved", "theorems": ["Geo.C10_caches_unobservable", "Geo.C10_queries_erasable"], "note": "All histories, including add of arbitrary meshes and assignment of a transformed mesh."},
 {"property": "C11", "status": "proved", "theorems": ["Geo.C11_indices_valid", "Geo.C11_index_stable"], "note": "Admissible = caller obligations stated in Spec.CallOk (valid indices, < 2^32 points, int range for the merge)."},
 {"property": "C12", "status": "proved", "theorems": ["Geo.C12_add", "Geo.C12_size", "Geo.C12_add_self_ub"], "note": "C12_size: the size is the number of triangles, so the sizes add up. Adding a mesh to itself is undefined behaviour (C12_add_self_ub)."},
 {"property": "C13", "status": "proved", "theorems": ["Geo.C13_merge", "Geo.C13_cell_size", "Geo.C13_zero_cell_double", "Geo.C13_out_of_range_ub"], "note": "The 2 mm bound is tight in kind: C13_zero_cell_double; out-of-range coordinates are undefined behaviour: C13_out_of_range_ub."},
 {"property": "C14", "status": "proved", "theorems": ["Geo.C14_transform"], "note": "Triangle-wise claim for meshes whose indices are all valid; radius clause for an orthogonal basis and zero translation."},
 {"property": "C15", "status": "proved", "theorems": ["Geo.C15_radius"], "note": "All histories of mesh operations that end without a fault; the caches are part of the state."},
 {"property": "C16", "status": "proved", "theorems": ["Geo.C16_area", "Geo.C16_triangle", "Geo.C16_normal"], "note": "C16_triangle: Heron's formula for Triangle::area. The normal points to the clockwise side."},
 {"property": "C17", "status": "proved", "theorems": ["Geo.C17_bounding_box"], "note": "All histories of setMesh/getBoundingBox/getMesh; the cache is part of the state."},
 {"property": "C18", "status": "proved", "theorems": ["Geo.C18_surface", "Geo.C18_micrometre_wrong"], "note": "Holds when some side product exceeds the 1e-16 tolerance pattern stated; C18_micrometre_wrong shows that a micrometre-sized mesh rejects its own surface points."},
 {"property": "C19", "status": "partial", "theorems": ["Geo.C19_closed_partial", "Geo.C19_generic_partial", "Geo.C19_component_partial", "Geo.C19_convex_partial", "Geo.C19_box_partial", "Geo.C19_beyond_partial", "Geo.C19_crossing_number_partial", "Geo.C19_coplanar_wrong", "Geo.C19_contacts_partial", "Geo.C19_shared_edges_partial", "Geo.C19_vertex_wrong"], "note": "Code violates the claim: C19_coplanar_wrong (a face coplanar with the probe is tested against the infinite line) and C19_vertex_wrong (probe through a vertex: answer depends on triangle order). Partial: points beyond the radius; crossing-number formula for all probes not coplanar with a face, including probes through edges and vertices; half-weight formula for shared edges; false for every point from which a path leads outside, for watertight meshes and clear probes that meet no vertex (C19_closed_partial) and for soups with cancelling edges and probes in general position (C19_generic_partial); the same answer for points joined by a path; convex meshes and boxes. Missing: probes within the tolerance of a triangle's plane, edges or area, and probes through vertices, where the claim fails."},
 {"property": "C20", "status": "proved", "theorems": ["Geo.C20_sphere_sound"], "note": "For meshes whose indices are all valid; both tolerances of src/Shape.cpp:49 appear in the bound."},
 {"property": "C21", "status": "partial", "theorems": ["Geo.C21_sphere_complete_partial", "Geo.C21_back_side_wrong", "Geo.C21_noticed"], "note": "Code violates the claim: C21_back_side_wrong (the foot point is computed with an unsigned distance). Partial: complete for the front side and for the rim. C21_noticed describes exactly what is reported, from either side, for spheres clear of the rims."},
 {"property": "C22", "status": "proved", "theorems": ["Geo.C22_side_product", "Geo.C22_line_triangle", "Geo.C22_segment_triangle", "Geo.C22_coplanar"], "note": "Side product = determinant; line, segment and coplanar cases."},
 {"property": "C23", "status": "proved", "theorems": ["Geo.C23_contains"], "note": "Box test for all lo, hi, p; the convex hull clause for proper boxes."},
 {"property": "C24", "status": "proved", "theorems": ["Geo.C24_sphere"], "note": "All proper boxes, all radii."},
 {"property": "C25", "status": "partial", "theorems": ["Geo.C25_computes", "Geo.C25_box_box_partial", "Geo.C25_box_box_wrong"], "note": "Code violates the claim (src/Box.cpp:80 uses c1.y - c2.z): C25_box_box_wrong. Partial: boxes whose first centre has y = z. C25_computes: exactly which pairs of boxes the code reports."},
 {"property": "C26", "status": "proved", "theorems": ["Geo.C26_ray"], "note": "Exact in real arithmetic; float casts are identities in the model."},
 {"property": "C27", "status": "partial", "theorems": ["Geo.C27_axis_parallel_partial", "Geo.C27_axis_parallel_wrong"], "note": "Code violates the claim: C27_axis_parallel_wrong. Partial: exact description of what the code computes for axis-parallel rays."},
 {"property": "C28", "status": "partial", "theorems": ["Geo.C28_max_radius_partial", "Geo.C28_computes", "Geo.C28_max_radius_wrong"], "note": "Code violates the claim: C28_max_radius_wrong. Partial: never too large; exact when one corner dominates. C28_computes: the value bounds the box if and only if one corner dominates the other; the square root of two times it always does."},
 {"property": "C29", "status": "proved", "theorems": ["Geo.C29_enclose", "Geo.C29_setMesh_throws"], "note": "Every sequence of enclose calls, arbitrary affine poses."},
 {"property": "C30", "status": "partial", "theorems": ["Geo.C30_mesh_partial", "Geo.C30_enclose", "Geo.C30_enclose_volume", "Geo.C30_enclose_wrong"], "note": "Code violates the claim after enclose: the old surface stays in the mesh (C30_enclose_wrong). Partial: full claim for boxes made by the constructor; indices and closedness after any enclose history; exact volume after one enclose."},
 {"property": "C31", "status": "proved", "theorems": ["Geo.C31_contains", "Geo.C31_lossless", "Geo.C31_boxes", "Geo.C31_nested"], "note": "Exact pre-check characterisation for arbitrary parts with valid meshes that answer without a fault; lossless for parts whose answers lie within their mesh hull; instantiated for boxes and for nested composites. All poses rigid."},
 {"property": "C32", "status": "proved", "theorems": ["Geo.C32_nearest", "Geo.C32_order", "Geo.C32_boxes", "Geo.C32_mesh_part_throws"], "note": "Parts obey the ray contract (proved for boxes in rigid poses off the axis-parallel case). A plain mesh part makes every cast throw: C32_mesh_part_throws."},
 {"property": "C33", "status": "proved", "theorems": ["Geo.C33_aggregates", "Geo.C33_parts", "Geo.C33_setMesh_throws"], "note": "Bounding box: coordinates within 1e10. C33_parts: the poses are inverses for rigid poses."},
 {"property": "C34", "status": "partial", "theorems": ["Geo.C34_empty_partial", "Geo.C34_bounding_box_wrong"], "note": "Code violates the claim for the bounding box: C34_bounding_box_wrong ([-1e10,1e10]^3 before the first part). Partial: contains nothing and hits nothing."},
 {"property": "C35", "status": "proved", "theorems": ["Geo.C35_new", "Geo.C35_set", "Geo.C35_not_positive_hangs"], "note": "Construction and setResolution terminate for a positive request with size/2^k for the least admissible k. A request of 0 or less with a positive size does not terminate in exact arithmetic."},
 {"property": "C36", "status": "partial", "theorems": ["Geo.C36_cubes_partial", "Geo.C36_no_fault_partial", "Geo.C36_same_points_partial", "Geo.C36_tiny_wrong"], "note": "Partial: proved for every history of additions, clearings and queries, for cells of at least 1e-10. Below that the tolerance in OctreeNode::add stops one level early (C36_tiny_wrong). Points outside the tree go to an outermost cell."},
 {"property": "C37", "status": "partial", "theorems": ["Geo.C37_contains_partial", "Geo.C37_computed", "Geo.C37_contains_wrong"], "note": "Violated: OctreeNode::contains passes the point to the child without shifting it (C37_contains_wrong, both directions). C37_computed says for every point inside the tree which cell answers instead: on each axis the one whose number has all binary digits below the leading one set. So the answer is right for cells with such numbers, and for points outside the tree (C37_contains_partial)."},
 {"property": "C38", "status": "partial", "theorems": ["Geo.C38_box", "Geo.C38_added_partial", "Geo.C38_outside_wrong"], "note": "Exact characterisation (C38_box) for every proper box and every reachable tree. The clause on added points is partial: histories without raytrace, cells of at least 1e-10, points inside the tree. A point outside the tree is stored in an outermost cell, and a box around it is not reported (C38_outside_wrong)."},
 {"property": "C39", "status": "partial", "theorems": ["Geo.C39_ray_partial", "Geo.C39_unwritten_wrong", "Geo.C39_range_wrong", "Geo.C39_start_wrong", "Geo.C39_axis_parallel_wrong"], "note": "Violated: the distance is not written if the first probe hits, the end of the range is ignored, the start of the range is counted twice from outside the tree, and axis-parallel rays miss (four counterexamples). Partial: termination for every ray; soundness for oblique rays; completeness and nearness for cubes crossed by more than a tenth of a cell."},
 {"property": "C40", "status": "partial", "theorems": ["Geo.C40_raytrace_partial", "Geo.C40_axis_parallel_wrong", "Geo.C40_end_outside_wrong"], "note": "Partial: for every ray, no fault, only the cell of the end point becomes occupied, only touched cells become free. Violated for axis-parallel rays, and an end point beyond the tree marks an outermost cell (two counterexamples)."},
 {"property": "C41", "status": "partial", "theorems": ["Geo.C41_mesh_partial", "Geo.C41_bounding_box_partial", "Geo.C41_empty_wrong", "Geo.C41_bounding_box_wrong"], "note": "Violated: empty() looks at the hidden base mesh, and the bounding box is never recomputed. Partial: the mesh equals the cubes' faces up to 2 mm merging after every history; the bounding box encloses the cubes when first asked for."},
 {"property": "C42", "status": "proved", "theorems": ["Geo.C42_tree", "Geo.C42_returns", "Geo.C42_ragged"], "note": "Exact for every rectangular grid, any values (also negative) and any resolution (nesting for resolution at least 0). Faults: only undefined behaviour, and none for grids in range; ragged and empty grids are undefined behaviour."},
 {"property": "C43", "status": "proved", "theorems": ["Geo.C43_ray", "Geo.C43_geometric", "Geo.C43_empty"], "note": "For every ray and range and resolution at least 0, relative to the box ray cast; geometric version for oblique rays."},
 {"property": "C44", "status": "partial", "theorems": ["Geo.C44_nearest_partial", "Geo.C44_nearest_wrong", "Geo.C44_order"], "note": "Violated: the first child in index order wins (C44_nearest_wrong). Proved for rays with positive x and y components; C44_order describes the column reported for rays of any direction: the first one hit in the order of the search."},
 {"property": "C45", "status": "proved", "theorems": ["Geo.C45_mesh"], "note": "For every rectangular grid in range. Rectangles are also maximal. Vertices are exactly grid corners at occurring heights."},
 {"property": "C46", "status": "proved", "theorems": ["Geo.C46_round_trip", "Geo.C46_layout", "Geo.C46_size_limit"], "note": "All bit patterns, any trailing data; also the exact byte layout. Sizes below 2^31; beyond, the count reads back negative (C46_size_limit)."},
 {"property": "C47", "status": "partial", "theorems": ["Geo.C47_deserialize_wrong", "Geo.C47_never", "Geo.C47_round_trip_partial", "Geo.C47_garbage_wrong", "Geo.C47_unknown", "Geo.C47_missing_file_wrong"], "note": "Violated: the 8-byte buffer is not terminated, so as the language has it every call on a written shape is undefined behaviour and no call ever returns a shape (C47_deserialize_wrong, C47_never). On a machine where the byte after the buffer is 0 the round trip holds; where it is not, null is returned (C47_garbage_wrong). A missing file reads an uninitialised buffer."},
 {"property": "C48", "status": "proved", "theorems": ["Geo.C48_truncated"], "note": "Every cut point. Truncation shows only in the stream state, which fromFile drops."},
 {"property": "C49", "status": "proved", "theorems": ["Geo.C49_any_bytes", "Geo.C49_failed_stream", "Geo.C49_unchecked"], "note": "Every byte string: complete description of the result, including bytes left and stream state. Indices are not validated."},
 {"property": "C50", "status": "proved", "theorems": ["Geo.C50_last_registration"], "note": "All registration histories."},
 {"property": "C51", "status": "proved", "theorems": ["Geo.C51_tables", "Geo.C51_stale_wrong"], "note": "All histories of setter calls that return (a beam spacing too small for the index type makes a setter undefined behaviour). Also: the configuration is that of the last calls. Without the condition the tables are stale (C51_stale_wrong: five beams announced, two directions kept)."},
 {"property": "C52", "status": "partial", "theorems": ["Geo.C52_upper_partial", "Geo.C52_below_wrong", "Geo.C52_xy_partial"], "note": "Violated for every sensor and every angle less than one step below the first beam: 1 is returned instead of 0 (C52_below_wrong). Proved for all other angles from -pi to pi, for sensors within one turn whose beams are more than about 3e-9 rad apart. C52_xy_partial is the overload with coordinates."},
 {"property": "C53", "status": "proved", "theorems": ["Geo.C53_nearest", "Geo.C53_order"], "note": "All sequences of points with positive depths within the table; ranges may be infinite. Equality of the whole result for every permutation."},
 {"property": "C54", "status": "partial", "theorems": ["Geo.C54_line_partial", "Geo.C54_segment", "Geo.C54_front_partial", "Geo.C54_below_wrong", "Geo.C54_parallel_wrong", "Geo.C54_back_wrong"], "note": "Violated: a beam parallel to the line is given an infinite range (C54_parallel_wrong); end points just below the first angle (C54_below_wrong) and lines facing away (C54_back_wrong) give ranges to points that are not on the line piece. Proved: every changed range is a point of the infinite line, or infinite for a parallel beam; on the piece itself for lines drawn in one part (C54_segment) and for all lines facing the sensor, if the end points are at or above the first angle."},
 {"property": "C55", "status": "partial", "theorems": ["Geo.C55_complete_partial", "Geo.C55_wide_wrong", "Geo.C55_gap_wrong", "Geo.C55_below_wrong"], "note": "Violated: lines that are wide (from the largest multiple of the spacing within half a turn, C55_wide_wrong) are not drawn, nor some narrower ones (C55_gap_wrong), nor lines ending just below the first angle for the first beam (C55_below_wrong). Proved for end points at or above the first angle and lines at most pi minus two beams wide, or across the cut at pi."},
 {"property": "C56", "status": "proved", "theorems": ["Geo.C56_range"], "note": "All lines with distinct end points. The omission by distance is compared with the sensor with the limit taken off."},
 {"property": "C57", "status": "proved", "theorems": ["Geo.C57_lossless", "Geo.C57_unlimited_wrong"], "note": "Rigid poses, reachable meshes with valid indices, positive maximum range. Violated for maximum range 0, which means no limit elsewhere (C57_unlimited_wrong)."},
 {"property": "C58", "status": "proved", "theorems": ["Geo.C58_posed", "Geo.C58_section", "Geo.C58_orientation", "Geo.C58_direction"], "note": "All triangles: with vertices below and not below the plane the segment is the set of points of the triangle at height 0 and its end points are on edges; otherwise there is none. Reversal, choice of the first vertex, and the direction relative to the normal."},
 {"property": "C59", "status": "proved", "theorems": ["Geo.C59_points", "Geo.C59_direction", "Geo.C59_polar", "Geo.C59_translation"], "note": "Configured sensors, all range lists. polarTo3D is the rotation only: the translation of the pose plays no part (C59_translation). C59_direction: getRayDirection is the unit vector at the angle of the beam, and reading past the last beam is undefined behaviour."},
 {"property": "C60", "status": "proved", "theorems": ["Geo.C60_pixel", "Geo.C60_depth", "Geo.C60_offset", "Geo.C60_back"], "note": "Real focal lengths other than 0. With an offset Tx the statement at other depths holds only for depth 1 (C60_offset), which is why the claim asks for Tx = Ty = 0 there."},
 {"property": "C61", "status": "proved", "theorems": ["Geo.C61_nearest", "Geo.C61_order"], "note": "Calls inside the image with positive finite depths, maps that fit the image. Earlier contents of the image are taken into account. The triangle map entry is the index converted to int."},
 {"property": "C62", "status": "proved", "theorems": ["Geo.C62_triangle", "Geo.C62_mesh"], "note": "Triangles whose projected corners are below 2^30 pixels from the origin; C62_mesh for whole meshes within a bound K off the axis such that 10 times the projection of K is below 2^30. Also shows that no undefined behaviour occurs."},
 {"property": "C63", "status": "partial", "theorems": ["Geo.C63_between_partial", "Geo.C63_negative_wrong", "Geo.C63_nan_wrong"], "note": "Violated: the last pixel of a row is extrapolated, down to negative depths (C63_negative_wrong), and an apex left of the image gives NaN, which no later call replaces (C63_nan_wrong). Proved for pixels with triangle left at the next column, and not in column 0 unless the triangle is right of the border."},
 {"property": "C64", "status": "proved", "theorems": ["Geo.C64_clip"], "note": "All triangles in camera coordinates. Coverage as an equality of point sets; corners, and normals as non-negative multiples."},
 {"property": "C65", "status": "proved", "theorems": ["Geo.C65_cull", "Geo.C65_origin"], "note": "Focal lengths of equal sign, all corners at z < 0. C65_cull also covers offsets Tx, Ty, with the shifted optical centre."},
 {"property": "C66", "status": "partial", "theorems": ["Geo.C66_history_partial", "Geo.C66_history_wrong"], "note": "Violated: columns of the maps are never made longer, so a higher image after a lower one is written out of bounds (C66_history_wrong, from empty maps). Proved for histories of images of non-increasing height."},
 {"property": "C67", "status": "proved", "theorems": ["Geo.C67_behind", "Geo.C67_lossless", "Geo.C67_stop"], "note": "Rigid poses, reachable meshes with valid indices and at most 2^32 triangles."},
 {"property": "C68", "status": "proved", "theorems": ["Geo.C68_sort"], "note": "The sort and the rows of the sorted corners, for every coordinate function."},
 {"property": "C69", "status": "proved", "theorems": ["Geo.C69_cylinder", "Geo.C69_cylinder_on", "Geo.C69_cylinder_polygon", "Geo.C69_polygon", "Geo.C69_no_polygon", "Geo.C69_no_cylinder"], "note": "C69_cylinder and C69_polygon: for at least 2 corners, with 2n at most 2^32 and 2^31, the result is a Prism (counts, vertex positions, valid indices, closed, volume, and outward orientation if the base is convex and clockwise and the height not negative). C69_cylinder_on: vertices on the cylinder; C69_cylinder_polygon: its base is convex and clockwise with the area of the regular polygon. C69_no_polygon: undefined behaviour without points; C69_no_cylinder: 2(2^32-2) triangles without points for 0 corners. Memory is unlimited in the model."},
 {"property": "C70", "status": "proved", "theorems": ["Geo.C70_ok", "Geo.C70_shows", "Geo.C70_blocks"], "note": "C70_ok: constructMesh succeeds if the placed meshes and their vertex indices exist and scaled coordinates fit int in millimetres. C70_shows, for results of at most 2^32 points: valid indices, no triangle twice in the whole result, every triangular face of every placed mesh is shown, every triangle shows such a face, every point comes from a vertex. C70_blocks: one block of points for each placed mesh, with one point for every millimetre cell that has a vertex. The Assimp scene is an input of the model."},
 {"property": "C71", "status": "proved", "theorems": ["Geo.C71_scene", "Geo.C71_explicit", "Geo.C71_suffix", "Geo.C71_short", "Geo.C71_bytes"], "note": "C71_scene: the scene handed to the exporter and the returned value. C71_explicit: a format of ASCII characters in lower case. C71_suffix: table of the last three characters, x, or no format. C71_short: exception. C71_bytes: a format with a byte from 128 to 254 is undefined behaviour. Rounding to float is a parameter."},
 {"property": "C72", "status": "partial", "theorems": ["Geo.C72_messages", "Geo.C72_back", "Geo.C72_tf2", "Geo.C72_point32_partial", "Geo.C72_point32_wrong"], "note": "C72_messages, C72_back (message to transform and back: the same rotation up to sign and length of the quaternion) and C72_tf2. Point32 holds floats: C72_point32_partial for numbers that fit, C72_point32_wrong for 2^52+1."},
 {"property": "C73", "status": "partial", "theorems": ["Geo.C73_mesh", "Geo.C73_corners", "Geo.C73_constructor", "Geo.C73_camera_partial", "Geo.C73_size", "Geo.C73_reused_wrong"], "note": "C73_mesh, C73_corners: points and triangles are appended, indices not re-based. C73_constructor: intrinsics and size from numbers. C73_camera_partial: for messages whose region of interest has no offset; C73_size: its range condition holds for cameras made from messages. C73_reused_wrong: offset and distortion of an earlier content are kept. PinholeCameraModel is a contract (see the trusted base)."},
 {"property": "C74", "status": "proved", "theorems": ["Geo.C74_walls"], "note": "For grids whose different heights (including 0) differ by more than 1e-10."},
 {"property": "C75", "status": "partial", "theorems": ["Geo.C75_tops_disjoint_partial", "Geo.C75_tops_disjoint_wrong", "Geo.C75_no_notch_partial"], "note": "Violated: growing ignores visited cells (C75_tops_disjoint_wrong). C75_tops_disjoint_partial: for all grids in range, rectangles are made in the order of their first cells and none starts in a cell that an earlier one covers. C75_no_notch_partial: no overlap for grids whose heights differ by more than 1e-10 and in which no step has an inner corner towards smaller x."},
 {"property": "C76", "status": "partial", "theorems": ["Geo.C76_report_wrong", "Geo.C76_report_partial"], "note": "Violated: always true. Proved: what arrives is exactly the prefix that fits."},
 {"property": "C77", "status": "proved", "theorems": ["Geo.C77_render"], "note": "All sensors within one turn whose beams are more than about 3e-9 rad apart, all meshes with valid indices, all poses (not only rigid), all earlier ranges."},
 {"property": "C78", "status": "partial", "theorems": ["Geo.C78_visible_partial", "Geo.C78_gap_wrong"], "note": "Proved for sensors with positive maximum range, rigid poses, triangles whose section is at or above the first angle and at most pi minus two beams wide. C78_gap_wrong: a wider triangle in front of a sensor with five beams around the turn is not drawn. For sections below the first angle see C55_below_wrong, for sensors without maximum range C57_unlimited_wrong."},
 {"property": "C79", "status": "partial", "theorems": ["Geo.C79_surface_partial", "Geo.C79_back_wrong", "Geo.C79_parallel_wrong", "Geo.C79_below_wrong"], "note": "Proved if the sections of all triangles are at or above the first angle and narrower than half a turn of the beam grid. Otherwise false: a triangle facing away gives a range to a beam that does not meet it (C79_back_wrong), so does one just below the first angle (C79_below_wrong), and a beam parallel to a section is given an infinite range (C79_parallel_wrong)."},
 {"property": "C80", "status": "partial", "theorems": ["Geo.C80_coverage_partial", "Geo.C80_border_wrong"], "note": "Violated for triangles within the first column or row, which are not drawn (C80_border_wrong). Proved, for projected corners below 2^30, for triangles with a corner in a later column and a corner in a later row."},
 {"property": "C81", "status": "partial", "theorems": ["Geo.C81_visible_partial", "Geo.C81_negative_wrong"], "note": "Proved for the pixels of C63_between_partial. C81_negative_wrong: a thin triangle in front of the camera is drawn with a depth that no point of it has; NaN is also possible (C63_nan_wrong)."},
 {"property": "C82", "status": "proved", "theorems": ["Geo.C82_relative", "Geo.C82_moved"], "note": "All rigid camera poses; results are compared including failures."},
 {"property": "C83", "status": "partial", "theorems": ["Geo.C83_near_partial", "Geo.C83_near_wrong"], "note": "C83_near_partial: uniform scale and rigid pose (or 3ds, where no pose is applied). C83_near_wrong: half a metre off for a node that scales by 1000."},
 {"property": "C84", "status": "proved", "theorems": ["Geo.C84_matrix", "Geo.C84_failed", "Geo.C84_short", "Geo.C84_ok", "Geo.C84_other", "Geo.C84_3ds", "Geo.C84_dae"], "note": "C84_failed, C84_short, C84_ok (a well-formed scene gives a shape), C84_other, C84_3ds, C84_matrix (how a node moves a point), C84_dae (root matrix a positive multiple of an orthogonal one). Faces are shown in the sense of C70; results of at most 2^32 points."},
 {"property": "C85", "status": "proved", "theorems": ["Geo.C85_roundtrip"], "note": "C85_roundtrip, in memory: that Assimp writes and reads the file faithfully is not modelled. At most 2^32 points."},
 {"property": "C86", "status": "partial", "theorems": ["Geo.C86_closed_partial", "Geo.C86_generic_partial", "Geo.C86_convex_partial", "Geo.C86_box_partial", "Geo.C86_vertex_wrong"], "note": "Code violates the claim: C86_vertex_wrong (probe through the corner of a cavity: answer depends on triangle order). Partial: true for every point from which a path leads to the inner side of a triangle with the outside behind it, for watertight meshes and clear probes that meet no vertex (C86_closed_partial) and for soups with cancelling edges and probes in general position (C86_generic_partial); points strictly inside convex meshes and boxes. Missing: probes within the tolerance of a triangle's plane, edges or area, and probes through vertices."},
 {"property": "C87", "status": "partial", "theorems": ["Geo.C87_values_partial", "Geo.C87_released_partial", "Geo.C87_assign_wrong", "Geo.C87_shared_wrong"], "note": "Code violates the claim: C87_assign_wrong (double delete of the shared root after an assignment), C87_shared_wrong (a point added to one is seen in the other, lost nodes). Partial: programs without assignments (C87_values_partial, C87_released_partial). Nodes are reached through pointers on a modelled heap; the cached mesh is left out there."},
 {"property": "C88", "status": "partial", "theorems": ["Geo.C88_values_partial", "Geo.C88_move", "Geo.C88_assign_wrong"], "note": "Code violates the claim: C88_assign_wrong (double delete). Partial: programs without assignments (C88_values_partial); C88_move is complete. That nodes are released is C89."},
 {"property": "C89", "status": "partial", "theorems": ["Geo.C89_released_partial", "Geo.C89_leak_wrong"], "note": "Code violates the claim: C89_leak_wrong (two columns). C89_released_partial: all nodes are released exactly when the grid has at most one cell or no positive one; grids up to 2^31 by 2^31, non-empty and rectangular."},
 {"property": "C90", "status": "partial", "theorems": ["Geo.C90_ends_partial", "Geo.C90_stuck_wrong"], "note": "Code violates the claim: C90_stuck_wrong (a cell of size 1 seen from 2^26 away: neither query ends). C90_ends_partial: ranges from 0 on and rays in the tree for no parameter beyond 800000 cells; hits are located for trees of more than one cell. Rounding to 24 binary digits, ties to even, without overflow and subnormal numbers; arithmetic in double is exact."},
 {"property": "C91", "status": "proved", "theorems": ["Geo.C91_box"], "note": "Same rounding as C90. The first part needs the line to meet the box; the second part does not."},
 {"property": "C92", "status": "partial", "theorems": ["Geo.C92_finite", "Geo.C92_box", "Geo.C92_mesh", "Geo.C92_octree_partial", "Geo.C92_octree_wrong"], "note": "Code violates the claim: C92_octree_wrong ((NaN, NaN, NaN) is added as the lowest cell and is then contained; (inf, NaN, 0) occupies a cell although it is not contained). C92_box and C92_mesh are complete; C92_octree_partial: infinite points are not contained, and special values count as bounds of the tree otherwise. C92_finite: on ordinary points the queries are those of the other properties."},
 {"property": "C93", "status": "proved", "theorems": ["Geo.C93_roundings", "Geo.C93_exact", "Geo.C93_apply", "Geo.C93_compose", "Geo.C93_inverse", "Geo.C93_quaternion", "Geo.C93_absorbed"], "note": "Constants: apply 8u, compose 11u and 8u, there and back 43u plus three times the defect of the matrix, quaternion 19u per entry. No overflow, no subnormal numbers, no fused operations. C93_absorbed: the exact round trip fails for doubles, the translation term is needed. Not covered: the functions with sqrt, sin, cos and atan2."},
 {"property": "C94", "status": "partial", "theorems": ["Geo.C94_file", "Geo.C94_shape_wrong", "Geo.C94_shape_partial", "Geo.C94_lone", "Geo.C94_total"], "note": "Code violates the claim: C94_shape_wrong (height_image_to_shape compares argc as if there were one more file name). C94_file is complete for height_image_to_file; C94_shape_partial: with one more argument at the end. C94_total: usage errors, no fault. C94_lone: an origin with one coordinate is ignored by both programs."},
 {"property": "C95", "status": "proved", "theorems": ["Geo.C95_shape", "Geo.C95_surface"], "note": "C95_shape: the shape is that of fromGrid on the heights of the picture, moved. C95_surface: tops and walls, for resolution > 0 and block height > 2.55e-8 (then different grey values differ by more than the tolerance). cv::imread is a contract."},
 {"property": "C96", "status": "partial", "theorems": ["Geo.C96_exit_wrong", "Geo.C96_exit_partial"], "note": "Code violates the claim: C96_exit_wrong (full device, failing exporter: status 0; short output name: exception). C96_exit_partial: what is written when the program ends with status 0, and that status 1 means nothing was written."},
 {"property": "C97", "status": "partial", "theorems": ["Geo.C97_frames", "Geo.C97_key", "Geo.C97_canvas", "Geo.C97_show_wrong", "Geo.C97_show_computes", "Geo.C97_show_partial", "Geo.C97_grey"], "note": "Code violates the claim for show: C97_show_wrong (a file of at least eight bytes, none of the first eight 0, is undefined behaviour, see C47). C97_show_computes: complete, for every file: Assimp with a 0 among the first eight bytes, otherwise undefined. C97_show_partial: where the byte after the buffer is 0, for shapes in the own format and files that begin with eight other bytes that are not 0. C97_grey: in real arithmetic, positive radius. C97_frames, C97_key: canvas sizes from 0 to 2^32; C97_canvas: undefined behaviour from -1 down and from 2^32 up. Drawing itself: C60-C66, C80, C81."},
 {"property": "C98", "status": "proved", "theorems": ["Geo.C98_chain", "Geo.C98_quaternions", "Geo.C98_grouping"], "note": "C98_chain: any relative error u up to 1/1000. C98_quaternions: double, up to 2^40 poses. C98_grouping: the associative law fails for doubles. Same simplifications as C93 (no overflow, no subnormal numbers, no fused operations)."},
 {"property": "C99", "status": "partial", "theorems": ["Geo.C99_polygon_partial", "Geo.C99_cylinder_partial", "Geo.C99_cylinder_wrong", "Geo.C99_vertex_wrong"], "note": "C99_polygon_partial, C99_cylinder_partial: for probes in clear position with regard to every triangle (side products zero or beyond the code's tolerance 1e-16, probe not in the plane of a triangle, point not within tolerance on a triangle or edge); points with |z| at least half the height need in addition a probe through no vertex. The full statement is refuted: C99_vertex_wrong (a point above a prism counts as contained; all numbers exact as doubles) and C99_cylinder_wrong (the same above a cylinder with four corners, in exact arithmetic)."},
 {"property": "C100", "status": "proved", "theorems": ["Geo.C100_exact", "Geo.C100_contains", "Geo.C100_solid"], "note": "C100_contains: the rounded and the exact answer are equal when the distance of the point from the origin differs from the radius r of the mesh by a factor 1 - 4u or 1 + 4u and, for points within the radius, the probe is WellClear of every triangle: side products with the edges larger than (1+u) 1e-16 + 300 u r^3, and for triangles pierced by the line of the probe both ends farther from the plane than 2e-8 + 300 u r^3 (in volume) and the area excess away from 1e-12 by more than u 1e-12 + 300 u r^2. C100_solid: combined with C19 and C86 for closed triangle soups. C100_exact: with the identity as rounding the function is the one of Model/Shape. No overflow, no subnormal numbers, no fused operations; the branches for probes through edges or vertices are modelled, but nothing is proved about them with roundings."},
 {"property": "C101", "status": "partial", "theorems": ["Geo.C101_mesh_partial", "Geo.C101_box_partial", "Geo.C101_axis_wrong"], "note": "C101_mesh_partial: surface seen within pi minus two beams and not below the first angle, nearest point strictly inside a triangle that has the sensor on its outer side, at most the maximum range away; beams without a surface point before b keep their value or show at least b. C101_box_partial: the same with the answer of Box::intersect, for a sensor outside the box and beams with all components in the frame of the box at least 1e-9. Violated for beams along an axis of the box: the scan shows the box, the ray test reports no hit (C101_axis_wrong, from C27). Not covered: beams through an edge of a triangle."},
 {"property": "C102", "status": "partial", "theorems": ["Geo.C102_scene", "Geo.C102_composite_partial", "Geo.C102_paint", "Geo.C102_poses", "Geo.C102_unlimited_wrong"], "note": "C102_scene: any list of meshes with valid indices and any poses; each beam shows the nearest of the earlier value and the non-zero depths that the objects show alone. C102_composite_partial: scan of a composite equals the scan of its parts in turn; missing: sensors whose maximum range is not positive. Violated for a maximum range of 0: the composite of one plate is seen, the plate itself is skipped (C102_unlimited_wrong, from C57). C102_paint: image and pointer map of the depth camera are equal, or both calls fail in the same way; the triangle map is not compared, since the joined mesh numbers its triangles anew. C102_poses: the composed poses in terms of sensor and object poses. Points of all parts together: at most 2^32."},
 {"property": "C103", "status": "partial", "theorems": ["Geo.C103_at_least", "Geo.C103_volume_partial", "Geo.C103_volume_wrong"], "note": "C103_at_least: never too small. C103_volume_partial: exact for grids without notches (no inner corner towards smaller x). C103_volume_wrong: an L of three equal cells, where a cell is covered twice: at least 32/6 instead of 5. All for cells and height steps of at least 2 mm, so that the vertex merge moves nothing."},
 {"property": "C104", "status": "partial", "theorems": ["Geo.C104_sound_partial", "Geo.C104_columns_partial", "Geo.C104_notch_wrong"], "note": "C104_sound_partial: true only above the ground in a column, for every grid of non-negative heights. C104_columns_partial: true exactly there, for grids without notches. C104_notch_wrong: a point of a column next to an L of three equal cells is reported as outside, since the probe enters the doubly covered cell of the L twice. All for cells and height steps of at least 2 mm and for probes that are clear of the tolerances of the test and meet no edge."},
 {"property": "C105", "status": "partial", "theorems": ["Geo.C105_mesh", "Geo.C105_box", "Geo.C105_composite", "Geo.C105_octree_partial", "Geo.C105_octree_wrong"], "note": "C105_mesh, C105_box, C105_composite: the whole claim for meshes with valid indices, for boxes whatever their corners, and for composites of parts that have it. C105_octree_partial: answers and monotonicity for octrees below 4000 km with at most 2^29 cubes, after any history. C105_octree_wrong: an octree contains a point (C37) that spheres of radius 0 and 1 about it miss."},
 {"property": "C106", "status": "partial", "theorems": ["Geo.C106_index_partial", "Geo.C106_scan_partial", "Geo.C106_back_wrong"], "note": "C106_index_partial: for one beam of a sensor with Fine limits, except a first beam at -pi. C106_scan_partial: for all points of rangesToPoints of a scan with positive ranges, if the first beam is not at -pi. C106_back_wrong: the points of a beam at -pi get the angle pi from atan2, and with it the number of beams as upper index. Over the reals; under rounding the truncation may go either way at a beam."},
 {"property": "C107", "status": "partial", "theorems": ["Geo.C107_clients", "Geo.C107_scene_partial", "Geo.C107_order_partial", "Geo.C107_nan_wrong"], "note": "C107_clients: every client of render that does not stop gets the same pixels in the same order. C107_scene_partial: depth, pointer and triangle of a pixel of a scene in terms of the pictures of the objects alone, where all depths drawn at the pixel are finite and positive. C107_order_partial: under the same conditions the image does not depend on the order. C107_nan_wrong: where an object draws NaN (C63) it hides a nearer object that is drawn after it, but not one drawn before it."},
 {"property": "C108", "status": "proved", "theorems": ["Geo.C108_exact", "Geo.C108_nearest", "Geo.C108_boxes", "Geo.C108_sharp"], "note": "C108_exact: without rounding the query is that of Model/Composite. C108_nearest: the general form for parts with candidates, in toFloat (24 binary digits, ties to even, no overflow or subnormals; arithmetic in double is exact). C108_boxes: posed boxes and oblique rays, completeness (hit, at most at the rounded entry) and soundness (up to a relative 2^-23). C108_sharp: two user-defined parts at 1+3/2^25 and 1+7/2^26 are reported by order of insertion, so C32 holds only up to rounding for parts that report distances which are not floats. Of the shapes of the library, boxes report floats (boxF_float); mesh shapes throw."},
 {"property": "C109", "status": "partial", "theorems": ["Geo.C109_closed_partial", "Geo.C109_turn_partial", "Geo.C109_sphere_partial", "Geo.C109_contains_wrong", "Geo.C109_sphere_wrong"], "note": "Full statement false: C109_contains_wrong (box [0,1]x[0,2]x[0,2] and (1.5, 1, 0), moved by (10, 0, 0)) and C109_sphere_wrong (one triangle, sphere of radius 1e-11 about (1 + 1e-10, 0, 0), moved by (-5, 0, 1); contains agrees in both frames). C109_closed_partial: closed mesh, any proper rigid motion, escaping or enclosed points, probe clear and without vertex contact in both frames (hypotheses of C19_closed_partial and C86_closed_partial). C109_turn_partial: rotations about the x axis, any mesh whose indices are valid, probe not within tolerance of the plane of a triangle. C109_sphere_partial: any mesh whose indices are valid, any proper rigid motion, positive radius, given that contains agrees and that some point of the mesh is within the radius or all are farther than the tolerance. Reflections are excluded."},
 {"property": "C110", "status": "partial", "theorems": ["Geo.C110_exact", "Geo.C110_near", "Geo.C110_depth", "Geo.C110_double", "Geo.C110_float", "Geo.C110_int_partial", "Geo.C110_int_wrong"], "note": "Rounding to 53 and 24 binary digits, ties to even, without overflow and subnormal numbers, after every operation; no fused operations. C110_near, C110_depth: error bounds for any rounding with relative error u at most 1/1000. C110_double, C110_float: complete within the stated ranges. C110_int_partial: with results of type int, the pixel or one less in each coordinate. C110_int_wrong: focal length 49. The library itself instantiates the function with float (src/sensors/DepthCamera.cpp:171); int is left to clients."},
 {"property": "C111", "status": "proved", "theorems": ["Geo.C111_add", "Geo.C111_transform", "Geo.C111_merge", "Geo.C111_composite", "Geo.C111_needs_closed"], "note": "Exact real arithmetic. ClosedSoup compares corners by position, so it also covers meshes whose triangles share no indices. Volume is the signed volume (sum of vol6, six times the volume). C111_merge: B bounds all coordinates of the mesh. C111_composite: rotations as poses; overlapping parts count twice. C111_needs_closed: one triangle shifted along z."},
 {"property": "C112", "status": "partial", "theorems": ["Geo.C112_shape", "Geo.C112_box", "Geo.C112_composite", "Geo.C112_drawn", "Geo.C112_heightmap_partial", "Geo.C112_pit_wrong"], "note": "C112_shape: reachable meshes with valid indices. C112_composite: emptiness of the mesh inherited from Shape. C112_drawn: ranges of the length of the scanner; the maps of the depth image may be resized. C112_heightmap_partial: no negative heights, grid in range. C112_pit_wrong: grid of one cell of height -1. The octree's empty() is treated in C41."},
 {"property": "C113", "status": "proved", "theorems": ["Geo.C113_read", "Geo.C113_prefix", "Geo.C113_unique"], "note": "C113_read: written with no failing sink; the reader skips the eight tag bytes and calls Shape::read. C113_prefix, C113_unique: meshes below 2^31 points and triangles. How deserialize chooses the reader by the tag is C47."},
 {"property": "C114", "status": "partial", "theorems": ["Geo.C114_hull_partial", "Geo.C114_generic_partial", "Geo.C114_bounding_box_partial", "Geo.C114_sphere", "Geo.C114_composite_partial", "Geo.C114_wrong"], "note": "C114_hull_partial, C114_bounding_box_partial, C114_composite_partial: closed (watertight) meshes with valid indices and at most 2^32 points, probe in clear position and through no corner (for composites: of every part). C114_generic_partial: closed soups without shared corners, generic probe. C114_sphere: any mesh with valid indices. C114_wrong: probe in the plane of a face (C19_coplanar_wrong)."},
 {"property": "C115", "status": "partial", "theorems": ["Geo.C115_candidate_partial", "Geo.C115_order_partial", "Geo.C115_order_wrong"], "note": "C115_candidate_partial, C115_order_partial: rays whose unit direction has x and y components of at least 1e-9 in the frame of every height map (z at least 1e-9 in absolute value), t0 >= 0; the other parts are boxes. C115_order_wrong: direction (-2,1,-2), where the height map alone reports the farther column (C44_nearest_wrong)."},
 {"property": "C116", "status": "partial", "theorems": ["Geo.C116_writes_partial", "Geo.C116_octree", "Geo.C116_deaf", "Geo.C116_lost", "Geo.C116_nan_wrong"], "note": "C116_writes_partial: boxes, height maps, plain meshes and composites of such shapes, nested to any depth. C116_octree: what an octree leaves in the variable, for all octrees and rays. C116_deaf, C116_lost: with NaN as the end of the range no box, height map, octree or composite of such shapes is hit. C116_nan_wrong: an octree of one cell and a box. Only t1 and the distance can be NaN; other numbers are real, casts to float exact."},
 {"property": "C117", "status": "proved", "theorems": ["Geo.C117_columns", "Geo.C117_geometric", "Geo.C117_exact"], "note": "C117_columns: for the rounding toFloat, a hit iff the box test in single precision of some positive cell hits, and the distance is that of such a cell. C117_geometric: for oblique rays, the same in terms of the parameters at which the line is in a column. C117_exact: with the identity as rounding the model is that of C43. Arithmetic in double is exact, as everywhere in Model/Single."},
 {"property": "C118", "status": "proved", "theorems": ["Geo.C118_triangle", "Geo.C118_culling", "Geo.C118_mesh", "Geo.C118_exact"], "note": "C118_triangle: safety and coverage up to the shift e for toFloat. C118_culling: the culling test agrees with that of real numbers if the two products differ by more than 2^-22 of the sum of their sizes. C118_mesh: rendering with toFloat and toDouble never fails, and keeps an invariant of the receiver. C118_exact: with the identity as both roundings drawing and rendering are those of Model/DepthCamera. Nothing is claimed about the error of the depths; no overflow or subnormal numbers."},
 {"property": "C119", "status": "partial", "theorems": ["Geo.C119_scan", "Geo.C119_again", "Geo.C119_image_partial", "Geo.C119_image_wrong"], "note": "C119_scan: any two lists of meshes with the same members give the same scan, for any earlier ranges. C119_again: rasterising an object a second time, with the same pointer and with the image and maps of the first time, leaves depth, triangle and pointer as they are at each pixel that was empty before the first time, whatever depths are drawn (NaN included). C119_image_partial: the depth at an empty pixel for two lists of objects with the same members, where all depths drawn at the pixel are finite and positive; pointers and triangles are not compared, since of equal depths the first wins. C119_image_wrong: false where an object draws NaN."},
 {"property": "C120", "status": "proved", "theorems": ["Geo.C120_exact", "Geo.C120_history", "Geo.C120_cubes", "Geo.C120_points", "Geo.C120_power", "Geo.C120_large"], "note": "C120_exact: with the identity as rounding construction, adding, listing and histories are those of Model/Octree. C120_history: for toDouble, sizes that are doubles, cells from 1e-10 to 2^19, points in the tree: the tree is that of real numbers for moved points, which are in the tree too. C120_cubes: the listed cubes against those of real numbers, in order, for every tree reached by a history (ray tracing with real numbers included). C120_points: both combined with C36. C120_power: no error for powers of two. C120_large: cells of 2^21. Nothing is claimed about points outside the tree, ray queries, box queries or meshes in floating point arithmetic; no overflow or subnormal numbers."},
 {"property": "C121", "status": "proved", "theorems": ["Geo.C121_exact", "Geo.C121_library", "Geo.C121_setup", "Geo.C121_five", "Geo.C121_table", "Geo.C121_index", "Geo.C121_line", "Geo.C121_render", "Geo.C121_depth", "Geo.C121_seen", "Geo.C121_own_beam"], "note": "C121_exact: with exact operations setters, indices, lines and meshes are those of Model/LaserRangeFinder. C121_library: double precision with correctly rounded library functions meets the assumptions (u = 2^-53, v = 2^-24). C121_setup: configurations without undefined behaviour. C121_table: the tables after any setter history. C121_index: indices against the ideal grid. C121_line, C121_render: safety and improvement for all lines and all valid meshes. C121_depth: error of a changed range against the ideal line. C121_seen: beams at least 50 u inside the end points of a line that appears shorter than half a turn less two steps see it. C121_own_beam: index and table disagree in double precision. For meshes only safety and improvement are claimed, not the error of the cut with the plane; the radius of the mesh is an argument. No overflow or subnormal numbers."},
 {"property": "C122", "status": "proved", "theorems": ["Geo.C122_exact", "Geo.C122_ray", "Geo.C122_sphere", "Geo.C122_box", "Geo.C122_radius", "Geo.C122_enclose"], "note": "C122_exact: with exact operations the functions are those of Model/Box. C122_ray: soundness and completeness up to a margin of (8 u + 2 v) times the parameter, and the relative error of the reported distance, for a direction whose components are at least 1e-9 (1 + 8 u). C122_sphere: for a positive radius R a yes means a point of the box within (1 + 4 u) R, and a point of the box at distance D with (1 + 4 u) D + 13 u m <= R gives a yes (m bounds the coordinates of the box); radii up to 0 exactly. C122_box: the answer is that of the exact comparison (with line 80 as written, see C25) unless a gap is within 13 u m of zero. C122_radius: relative error 3 u. C122_enclose: any sequence of calls, with one error 8 u (rho + tau) for all of it. No overflow or subnormal numbers."},
 {"property": "C123", "status": "proved", "theorems": ["Geo.C123_options", "Geo.C123_picture"], "note": "C123_options: defaults, help, and which arguments set what. C123_picture: for positive sizes up to 10^6, |x|, |y| up to 10^6, 1 to 2^29 beams and an object seen within pi minus two beams not below -pi/2: the outline within 2.5 pixels per coordinate; each beam shows 0 and is drawn 10 m long, or shows the distance D > 0 of a surface point on the beam and ends within one pixel per coordinate of it if D is at least 0.1 mm (closer ones are drawn 10 m long); if the nearest surface point on the beam is within 100 m and strictly inside a triangle with the sensor on its outer side, the range is its distance."},
 {"property": "C124", "status": "partial", "theorems": ["Geo.C124_points", "Geo.C124_show_partial", "Geo.C124_show_wrong", "Geo.C124_pyramid", "Geo.C124_pyramid_even"], "note": "C124_points: the loop of main, all points. C124_pyramid: grids of all sizes (an odd size leaves the middle cell 0), C124_pyramid_even: even sizes, as in the code. C124_show_partial: the loop of renderLRF for ranges with 25 |r| less than half the rows and half the columns. C124_show_wrong: with the sensor and the picture of the code and all ranges at the maximum range of 10 the loop writes outside the picture."},
 {"property": "C125", "status": "proved", "theorems": ["Geo.C125_exact", "Geo.C125_edges", "Geo.C125_faces", "Geo.C125_sound"], "note": "C125_exact: without roundings the functions are those of Model/Shape. C125_edges: distSq p y + 40 u D^2 < R^2 for a point y of an edge of any triangle, D the distance of p from the origin plus the radius of the mesh. C125_faces: distSq p x + 100 K u D^2 < R^2 for a point x of a triangle with sines of angles at least 1/K, p not behind its plane, K u at most 1/1000. C125_sound: all triangles of the mesh with sines at least 1/K; the bound on distSq p x is R^2 (1 + 2e-9) + 1e-17 times the squared length of an edge + 25000 K^3 u D^2. Inner points of triangles seen from behind are missed already without roundings (C21_back_side_wrong). No overflow or subnormal numbers."},
 {"property": "C126", "status": "proved", "theorems": ["Geo.C126_exact", "Geo.C126_frame", "Geo.C126_mesh", "Geo.C126_contains", "Geo.C126_sphere", "Geo.C126_boxes"], "note": "C126_exact: without roundings the functions are those of Model/Composite. C126_frame: bounding box up to 8 u (rho + tau), radius up to 12 u (rho + tau), both contain the hulls of the parts and are smallest for the corners of the triangles. C126_mesh: at most 2^32 points in all. C126_contains and C126_sphere: parts are any shapes that do not fail; for a positive answer of contains the part must contain nothing outside the hull of its mesh, for one of the sphere test with positive radius some point y of the hull must satisfy (1 + 4u) |p - y| + 30 u (rho + tau) <= R (the bounding box is asked first). C126_boxes: boxes as parts; sphere test positive for a point at distance d of a box with (1 + 5u + 2 delta) d + 2 eps <= R, negative if all have (1 + 5u + 2 delta) R + eps < d. No overflow or subnormal numbers; the ray query is in C108 and C122."},
 {"property": "C127", "status": "proved", "theorems": ["Geo.C127_exact", "Geo.C127_read", "Geo.C127_roundtrip", "Geo.C127_back", "Geo.C127_hops", "Geo.C127_quarter_turn"], "note": "C127_exact: without roundings the functions are those of Model/Math and Model/Conversions. C127_read: getRotation, and that the root is taken of a number of at least 0.94; the unit quaternion is characterised by conjugation. C127_roundtrip, C127_back: matrix to quaternion to matrix, and quaternion to matrix to quaternion (sign not determined). C127_hops: repeated conversion to Pose messages and back, also as a bound 900 (u + e) + 16200 n u on the images of vectors. C127_quarter_turn: the round trip is not exact for double. Matrices of doubles; no overflow or subnormal numbers."},
 {"property": "C128", "status": "proved", "theorems": ["Geo.C128_exact", "Geo.C128_set", "Geo.C128_roundtrip", "Geo.C128_angles"], "note": "C128_exact: without roundings the functions are those of Model/Math. C128_set: setRPY, all angles. C128_roundtrip: matrix to angles to matrix; the matrix of the angles in exact arithmetic is within 26 (u + e) / c, the one computed by setRPY within 36 (u + e) / c. C128_angles: angles to matrix to angles, compared through sines and cosines; getYaw is the yaw of getRPY. Pitches with a cosine below 1e-11 or below 26 (u + e) are not covered (C04 has the exact case). Functions of the mathematical library are taken to round like an operation; no overflow or subnormal numbers."},
 {"property": "C129", "status": "proved", "theorems": ["Geo.C129_exact", "Geo.C129_boxes"], "note": "C129_exact: without roundings the query is the one of Model/Composite. C129_boxes: soundness and completeness of hit and distance for composites of boxes, on the composite that the rounded addShape builds. Rays that are nearly parallel to a face of a part or of the bounding box are not covered. No overflow or subnormal numbers."},
 {"property": "C130", "status": "proved", "theorems": ["Geo.C130_exact", "Geo.C130_merge", "Geo.C130_cells", "Geo.C130_border", "Geo.C130_radius", "Geo.C130_normal"], "note": "C130_exact: without rounding the functions are those of Model/Mesh. C130_merge, C130_cells: merging. C130_border: a case in double precision in which merging differs from real arithmetic. C130_radius: both radii and repeated queries, caches empty at the start. C130_normal: normals of triangles. No overflow or subnormal numbers."},
 {"property": "C131", "status": "proved", "theorems": ["Geo.C131_exact", "Geo.C131_cylinder", "Geo.C131_polygon"], "note": "C131_exact: with exact operations the functions are those of Model/Shapes. C131_cylinder: closed prism, corners, area, convexity. C131_polygon: equal to the function in real arithmetic, so C69 applies. The example has 50000 corners in double precision. No overflow or subnormal numbers."},
 {"property": "C132", "status": "proved", "theorems": ["Geo.C132_exact", "Geo.C132_planar", "Geo.C132_apply", "Geo.C132_compose", "Geo.C132_inverse", "Geo.C132_rotation", "Geo.C132_sum", "Geo.C132_double"], "note": "C132_exact: with exact operations the functions are those of Model/Math. C132_planar: equal to the functions of Transform3 to the last bit. C132_apply, C132_compose, C132_inverse: error bounds. C132_rotation, C132_sum: angles. C132_double: double precision meets the hypotheses. No overflow or subnormal numbers."},
 {"property": "C133", "status": "proved", "theorems": ["Geo.C133_exact", "Geo.C133_plane", "Geo.C133_space", "Geo.C133_quaternion", "Geo.C133_matrix", "Geo.C133_scale"], "note": "C133_exact: without rounding the functions are those of Model/Math. C133_plane, C133_space, C133_quaternion: length, components and length of the result. C133_matrix: scale taken out of a matrix. C133_scale: powers of two in double precision, to the last bit. No overflow or subnormal numbers."},
 {"property": "C134", "status": "proved", "theorems": ["Geo.C134_exact", "Geo.C134_import", "Geo.C134_keys", "Geo.C134_border", "Geo.C134_file", "Geo.C134_dae"], "note": "C134_exact: without rounding the functions are those of Model/Import. C134_import: a tree of nodes, success and failure. C134_file, C134_dae: successful import of files without and with a name ending with dae. C134_keys: when vertices fall in the same cells. C134_border: a border on which they do not. No overflow or subnormal numbers."},
 {"property": "C135", "status": "proved", "theorems": ["Geo.C135_exact", "Geo.C135_columns", "Geo.C135_geometric", "Geo.C135_mesh"], "note": "C135_exact: without rounding the functions are those of Model/HeightMap. C135_columns: the tree answers as the columns do. C135_geometric: margins, for oblique rays; the distance is that of some column that is hit, which need not be the nearest (C44). C135_mesh: the surface, for heights at least 2e-10 apart. No overflow or subnormal numbers."},
 {"property": "C136", "status": "proved", "theorems": ["Geo.C136_exact", "Geo.C136_box", "Geo.C136_added", "Geo.C136_contains", "Geo.C136_mesh", "Geo.C136_bounding_box"], "note": "C136_exact: without rounding the functions are those of Model/Octree. C136_box: boxes, with margins. C136_added: added points are found, no margin. C136_contains: points, as C37_computed up to size / 2^53; the answers are wrong as in exact arithmetic (C37). C136_mesh: the mesh, starting from an empty cache. C136_bounding_box: the bounding box, when first asked for (C41). No overflow or subnormal numbers."},
 {"property": "C137", "status": "proved", "theorems": ["Geo.C137_nearest", "Geo.C137_points", "Geo.C137_beyond"], "note": "C137_nearest: the trees are equal. C137_points: cubes and boxes. C137_beyond: nothing is found beyond the tree, also not the points added there (as in exact arithmetic: C38_outside_wrong). No overflow or subnormal numbers."},
 {"property": "C138", "status": "proved", "theorems": ["Geo.C138_same"], "note": "C138_same: equal cubes (as lists), answers, mesh and bounding box. Rays added are not among the histories. No overflow or subnormal numbers."},
 {"property": "C139", "status": "partial", "theorems": ["Geo.C139_asked_partial", "Geo.C139_stale", "Geo.C139_bounding_box_wrong", "Geo.C139_runs"], "note": "C139_asked_partial: all answers, but the bounding box only when it was not asked for before. The code violates the rest: C139_stale (the first box is kept for ever), C139_bounding_box_wrong (a witness). C139_runs: all histories come to an end, for trees smaller than 4000 km with at most nine levels, rounded to double. Rays added are not among the calls. No overflow or subnormal numbers."},
 {"property": "C140", "status": "partial", "theorems": ["Geo.C140_exact", "Geo.C140_yes_partial", "Geo.C140_far_wrong", "Geo.C140_ends_partial", "Geo.C140_near_partial", "Geo.C140_one_partial"], "note": "C140_exact: without rounding the function is that of Model/Octree. C140_yes_partial: for all roundings the answer is yes only if the tree has a cube; near the tree only if the ray comes within a thirty-second of a cell of a cube after the start of the range (C140_near_partial for more than one cell, C140_one_partial for one cell, ranges that are not empty and rays that are nearly parallel to no coordinate plane; both under the conditions of C140_ends_partial). C140_ends_partial: with the roundings to double and float every query ends without a fault if the coordinates of the origin and twice the size of the tree together are at most 2^15 cells and the range starts at 0 or later. The code violates the end in general: C140_far_wrong (a distant ray for which the recursion goes on for ever). No overflow, subnormal numbers or NaN."}
]}
