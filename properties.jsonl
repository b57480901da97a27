{"id": "C01", "title": "Pose composition is function composition", "statement": "For transforms A, B, C and a point v: (A*B)*v = A*(B*v), (A*B)*C = A*(B*C), identity()*A = A = A*identity() and identity()*v = v.", "quantifier": "all 3D transforms (rigid or not) and all points", "why_tests_cant": "An identity between polynomials in 36 unknowns; a test checks a handful of numeric samples.", "anchors": ["include/geolib/math_types.h: Transform3T::operator*, Transform3T::identity, Mat3T::operator*"]}
{"id": "C02", "title": "Pose inverse undoes a rigid pose and rigid poses preserve distances", "statement": "If the rotation part of T is orthogonal, T.inverse()*T = T*T.inverse() = identity(), T.inverseTimes(S) is the unique U with T*U = S, the distance between T*u and T*v equals that between u and v, and products and inverses of rigid poses are rigid. (For a non-orthogonal basis inverse() is not an inverse.)", "quantifier": "all rigid transforms and all points; the caveat over all transforms", "why_tests_cant": "Quantifies over the whole orthogonal group, and the caveat shows the precondition is needed.", "anchors": ["include/geolib/math_types.h: Transform3T::inverse, inverseTimes, Mat3T::transpose"]}
{"id": "C03", "title": "Roll/pitch/yaw always give a proper rotation", "statement": "setRPY(roll,pitch,yaw) yields an orthogonal matrix of determinant +1 equal to Rz(yaw)*Ry(pitch)*Rx(roll).", "quantifier": "all real roll, pitch, yaw", "why_tests_cant": "Trigonometric identity over three unbounded reals.", "anchors": ["include/geolib/math_types.h: Mat3T::setRPY, Transform3T::setRPY"]}
{"id": "C04", "title": "Reading roll/pitch/yaw back reproduces the pose", "statement": "For every proper rotation R, feeding the angles returned by getRPY to setRPY gives back R.", "quantifier": "all proper rotation matrices, including both gimbal-lock poses", "why_tests_cant": "The singular set has measure zero, so random tests never reach it; the code guards only one of the two singularities.", "anchors": ["include/geolib/math_types.h: Transform3T::getRPY, Transform3T::setRPY, Transform3T::getYaw"]}
{"id": "C05", "title": "Rotation matrix -> quaternion -> rotation matrix is the identity", "statement": "For every proper rotation R, getRotation produces a unit quaternion q, never divides by zero or takes a root of a negative number, and setRotation(q) = R.", "quantifier": "all proper rotations, hence all four branches of getRotation", "why_tests_cant": "Branch selection depends on order relations between diagonal entries over all of SO(3).", "anchors": ["include/geolib/math_types.h: Mat3T::getRotation, Mat3T::setRotation"]}
{"id": "C06", "title": "Any non-zero quaternion yields a proper rotation that depends only on its direction", "statement": "For q != 0 setRotation(q) is orthogonal with determinant +1, setRotation(s*q) = setRotation(q) for every s != 0 (in particular -q), and reading the matrix back gives q/|q| or -q/|q|.", "quantifier": "all non-zero quaternions and scale factors", "why_tests_cant": "Algebraic law over four unbounded reals.", "anchors": ["include/geolib/math_types.h: Mat3T::setRotation, Mat3T::getRotation, QuaternionT::normalized"]}
{"id": "C07", "title": "Planar transforms embed faithfully in 3D", "statement": "projectTo3d then projectTo2d is the identity on vectors, matrices and transforms; projectTo3d commutes with composition, inverse and application to points; 2D composition/inverse satisfy the laws of C01/C02; rotation() returns the yaw given to setRotation, normalised to (-pi,pi].", "quantifier": "all planar transforms, points and yaw angles", "why_tests_cant": "Homomorphism law over all inputs and an angle-wrap statement over all reals.", "anchors": ["include/geolib/math_types.h: Transform2T, Vec2T::projectTo3d, Mat2T::projectTo3d, Transform3T::projectTo2d"]}
{"id": "C08", "title": "The two linear-algebra headers compute the same thing", "statement": "Every operation offered by matrix.h (vector arithmetic, matrix product, matrix-vector product, transform composition, application, inverse, setRPY) returns component-for-component what math_types.h returns.", "quantifier": "all arguments", "why_tests_cant": "Equivalence of two implementations for all inputs.", "anchors": ["include/geolib/matrix.h: Vector3, Matrix3x3, Transform", "include/geolib/math_types.h: Vec3T, Mat3T, Transform3T"]}
{"id": "C09", "title": "Vector algebra: normalisation, cross and dot product", "statement": "A non-zero vector's (2D, 3D, quaternion) normalized() has length 1 and the same direction; cross(a,b) is orthogonal to a and b, antisymmetric, and |a x b|^2 + (a.b)^2 = |a|^2|b|^2; column normalisation of a matrix gives unit columns of the same directions and normalize()/normalized() agree.", "quantifier": "all vectors (non-zero where normalised), all matrices with non-zero columns", "why_tests_cant": "Laws over all real vectors.", "anchors": ["include/geolib/math_types.h: Vec2T::normalized, Vec3T::normalized, QuaternionT::normalized, cross, dot, Mat3T::normalize, Mat3T::normalized"]}
{"id": "C10", "title": "Mesh caches are never observable", "statement": "After any sequence of addPoint, addTriangle, add, clear, filterOverlappingVertices and any interleaved queries, getTriangles, getSquaredMaxRadius and getMaxRadius return exactly what a mesh without caches, built from the current points and triangles, would return.", "quantifier": "all histories of mesh operations", "why_tests_cant": "A stale cache only shows after a particular interleaving of queries and updates; histories are unbounded.", "anchors": ["include/geolib/Mesh.h: Mesh::invalidateCache, clear", "src/Mesh.cpp: Mesh::getTriangles, getSquaredMaxRadius, getMaxRadius, add, filterOverlappingVertices"]}
{"id": "C11", "title": "Triangle indices stay valid and point indices stay stable", "statement": "In any history in which every addTriangle names existing points, points are never read out of range by getTriangles, getTriangleNormal or filterOverlappingVertices; and until clear or filterOverlappingVertices is called, the index returned by addPoint keeps denoting the point that was added.", "quantifier": "all histories of mesh operations with fewer than 2^32 points", "why_tests_cant": "Memory safety over unbounded histories.", "anchors": ["src/Mesh.cpp: Mesh::addPoint, addTriangle, add, filterOverlappingVertices, getTriangles"]}
{"id": "C12", "title": "Adding a mesh appends its triangle soup", "statement": "After m.add(n), the triangles of m (as triples of points) are the old triangles of m followed by the triangles of n; points likewise; n is unchanged.", "quantifier": "all pairs of well-formed meshes", "why_tests_cant": "Index re-basing must be right for every size.", "anchors": ["src/Mesh.cpp: Mesh::add"]}
{"id": "C13", "title": "Merging overlapping vertices moves no corner by 2 mm or more and is idempotent", "statement": "filterOverlappingVertices keeps the number of triangles, moves every triangle corner by less than 0.002 per axis (less than 0.001 for coordinates of magnitude at least 0.001), leaves no two points in the same millimetre cell, keeps only points that were there before, never adds points, and doing it twice equals doing it once.", "quantifier": "all well-formed meshes whose coordinates fit the int conversion", "why_tests_cant": "Depends on truncation behaviour at every cell boundary and on arbitrary duplicate patterns.", "anchors": ["src/Mesh.cpp: Mesh::filterOverlappingVertices, CompareVec3i"]}
{"id": "C14", "title": "Transforming a mesh transforms its triangles", "statement": "getTransformed(T) has the same connectivity and its i-th triangle is T applied to the i-th triangle; transforming by B then A equals transforming by A*B; rotating a mesh about its origin keeps its maximum radius.", "quantifier": "all meshes and transforms", "why_tests_cant": "Functoriality over all meshes.", "anchors": ["src/Mesh.cpp: Mesh::getTransformed"]}
{"id": "C15", "title": "Maximum radius is the tight bound on point distances", "statement": "getMaxRadius is an upper bound on the distance of every mesh point to the origin, is attained by some point when the mesh has points, and is 0 for a mesh without points; getSquaredMaxRadius is its square.", "quantifier": "all meshes", "why_tests_cant": "Fold over arbitrarily many points with a sentinel-valued cache.", "anchors": ["src/Mesh.cpp: Mesh::getMaxRadius, getSquaredMaxRadius"]}
{"id": "C16", "title": "Triangle area and normal are geometric", "statement": "triangleArea, and Triangle::area with it, is given by Heron's formula, invariant under permuting the corners and under rigid motion, non-negative, and zero exactly for collinear corners; getTriangleNormal of a non-degenerate triangle is a unit vector orthogonal to its edges, reverses under reversed winding, and (opposite to the outward convention used elsewhere) points to the clockwise side.", "quantifier": "all triangles", "why_tests_cant": "Laws over nine reals.", "anchors": ["src/Triangle.cpp: triangleArea", "src/Mesh.cpp: Mesh::getTriangleNormal"]}
{"id": "C17", "title": "The bounding box is always the smallest box around the current mesh", "statement": "After any history of setMesh and getBoundingBox calls, getBoundingBox of a plain shape contains every point of the current mesh and, when the mesh is non-empty with coordinates within 1e9, is contained in every axis-aligned box that does.", "quantifier": "all histories of setMesh/getBoundingBox, all meshes", "why_tests_cant": "Cache invalidation over histories and a fold over arbitrarily many points.", "anchors": ["src/Shape.cpp: Shape::getBoundingBox, Shape::setMesh"]}
{"id": "C18", "title": "Every point on the surface is contained", "statement": "For a mesh shape, contains(p) is true for every vertex used by a triangle and for every point of every triangle, including when the probe line to the far point is coplanar with the triangle or passes through edges or vertices (under an explicit no-tiny-nonzero side-product condition).", "quantifier": "all meshes and all points on their triangles", "why_tests_cant": "Edge, vertex and coplanar cases have measure zero; the branch structure has over twenty paths.", "anchors": ["src/Shape.cpp: Shape::contains, compute2DIntersection, lineLinesegmentIntersection, sideProduct"]}
{"id": "C19", "title": "contains reports no point outside the solid", "statement": "A point that is outside a closed mesh is not reported as contained.", "quantifier": "all closed meshes and all points", "why_tests_cant": "Requires reasoning about every relative position of probe line and triangles. (False of the code: see the refutation.)", "anchors": ["src/Shape.cpp: Shape::contains, compute2DIntersection"]}
{"id": "C20", "title": "Sphere test is sound", "statement": "If Shape::intersect(p,R) is true with R > 0, then p is contained or some point of some triangle lies within R of p up to the built-in 1e-9 relative tolerances on R^2 and on the squared length of an edge (squared distance at most R^2(1+1e-9) + 1e-18 |edge|^2).", "quantifier": "all meshes, centres and radii", "why_tests_cant": "Quantifies over all relative positions of a sphere and a triangle soup.", "anchors": ["src/Shape.cpp: Shape::intersect(Vector3,double), checkLinesegment"]}
{"id": "C21", "title": "Sphere test misses nothing", "statement": "If some point of some triangle lies strictly within R > 0 of p then Shape::intersect(p,R) is true.", "quantifier": "all meshes, centres and radii", "why_tests_cant": "Quantifies over all relative positions. (Only true on the front side of triangles: the projection uses an unsigned distance.)", "anchors": ["src/Shape.cpp: Shape::intersect(Vector3,double), checkLinesegment"]}
{"id": "C22", "title": "Plücker side product is the signed volume, so the line/triangle test is exact", "statement": "sideProduct of two lines is zero iff they are coplanar, is antisymmetric under reversing a line, and the sign pattern test used by contains holds exactly when the line through p and the far point meets the triangle.", "quantifier": "all pairs of lines, all lines and non-degenerate triangles", "why_tests_cant": "Geometric law over twelve to fifteen reals.", "anchors": ["src/Shape.cpp: sideProduct, LineSegment, Shape::contains"]}
{"id": "C23", "title": "Box containment is exactly the closed axis-aligned box, which is the convex hull of its mesh", "statement": "Box(min,max).contains(p) iff min <= p <= max in every coordinate; iff (for a proper box) p is a convex combination of the box's mesh vertices.", "quantifier": "all boxes and points", "why_tests_cant": "Equivalence with a convex hull over all reals.", "anchors": ["src/Box.cpp: Box::contains, Box::generate_mesh_"]}
{"id": "C24", "title": "Box sphere test is exact", "statement": "For a proper box and R > 0, intersect(p,R) iff some point of the box is within distance R of p; for R <= 0 it is contains(p).", "quantifier": "all proper boxes, centres, radii", "why_tests_cant": "Closest-point argument over all 27 Voronoi regions and their boundaries.", "anchors": ["src/Box.cpp: Box::intersect(Vector3,double)"]}
{"id": "C25", "title": "Box-box intersection is exact and symmetric", "statement": "Box::intersect(Box) is true iff the two closed boxes share a point, hence symmetric.", "quantifier": "all pairs of proper boxes", "why_tests_cant": "Equivalence over 12 reals. (False of the code: the z test compares c1.y with c2.z.)", "anchors": ["src/Box.cpp: Box::intersect(Box)"]}
{"id": "C26", "title": "Box ray cast is exact for rays with no near-zero direction component", "statement": "If every component of the normalised direction has magnitude at least 1e-9 and t0 < t1, intersect(ray,t0,t1,d) is true iff some point of the ray with parameter strictly between t0 and t1 lies in the box, and then d is the smallest parameter at which the line is in the box.", "quantifier": "all proper boxes, rays and parameter ranges", "why_tests_cant": "Slab test equivalence over all sign combinations and boundary contacts.", "anchors": ["src/Box.cpp: Box::intersect(Ray)", "src/Ray.cpp: Ray::Ray, calculateInvDirection"]}
{"id": "C27", "title": "Box ray cast is exact for axis-parallel rays", "statement": "The equivalence of C26 also holds when a direction component is zero.", "quantifier": "all proper boxes and axis-parallel rays", "why_tests_cant": "Special-direction behaviour. (False of the code: a zero component is replaced by inverse 0 and collapses the slab to t = 0.)", "anchors": ["src/Ray.cpp: Ray::calculateInvDirection", "src/Box.cpp: Box::intersect(Ray)"]}
{"id": "C28", "title": "Box maximum radius bounds the box", "statement": "getMaxRadius of a box is the largest distance from the origin to a point of the box.", "quantifier": "all proper boxes", "why_tests_cant": "Needs all eight corners for every box. (False of the code: only the min and max corner are considered.)", "anchors": ["src/Box.cpp: Box::getMaxRadius"]}
{"id": "C29", "title": "enclose grows a box minimally", "statement": "After a.enclose(b,pose) the box contains its old contents and every point pose*q with q in b, is the smallest such box, and the mesh vertices all lie in the box with the last eight being its corners.", "quantifier": "all proper boxes and all poses, and every sequence of enclose calls", "why_tests_cant": "Convexity argument over all poses and histories.", "anchors": ["src/Box.cpp: Box::enclose, generate_mesh_"]}
{"id": "C30", "title": "The generated box mesh is watertight, outward oriented and has the box's volume", "statement": "Each directed edge of the mesh occurs exactly once and its reverse occurs exactly once; every vertex is on the inner side of every triangle's plane; the signed volume is the product of the side lengths; after any history of enclose calls all indices are valid. (The volume clause is refuted for boxes changed by enclose.)", "quantifier": "all proper boxes and enclose histories", "why_tests_cant": "Statement about all sizes; orientation errors are invisible to containment tests at a few points.", "anchors": ["src/Box.cpp: Box::generate_mesh_"]}
{"id": "C31", "title": "A composite contains exactly what its parts contain", "statement": "After any sequence of addShape calls, contains(p) is true iff p is inside the bounding box and some part contains the point mapped into the part's frame; for boxes in rigid poses the bounding-box pre-check never changes the answer. The same holds for the sphere test.", "quantifier": "all sequences of addShape with parts in rigid poses that answer without a fault, all points and radii", "why_tests_cant": "Pre-check losslessness needs a convexity argument for all poses.", "anchors": ["src/CompositeShape.cpp: CompositeShape::contains, intersect(Vector3,double), addShape"]}
{"id": "C32", "title": "A composite ray cast returns the nearest hit among its parts", "statement": "If the composite is hit, the returned distance is the minimum over the parts that are hit in the range and the hit flag is the disjunction (whenever the bounding box is hit); the result does not depend on insertion order.", "quantifier": "all composites of parts obeying the ray-cast contract, all rays and ranges", "why_tests_cant": "Loop with a shrinking range over arbitrarily many parts.", "anchors": ["src/CompositeShape.cpp: CompositeShape::intersect(Ray)"]}
{"id": "C33", "title": "Composite mesh, radius and bounding box describe all parts", "statement": "After any sequence of addShape calls the mesh is the concatenation of the transformed part meshes, getMaxRadius is the maximum distance of any triangle corner, and getBoundingBox is the smallest box around all triangle corners (coordinates within 1e10). getShapes returns the parts in order, each with the inverse of its pose.", "quantifier": "all sequences of addShape", "why_tests_cant": "Invariant over unbounded histories.", "anchors": ["src/CompositeShape.cpp: CompositeShape::addShape, getMaxRadius, getBoundingBox"]}
{"id": "C34", "title": "An empty composite is empty", "statement": "A composite without parts contains nothing, intersects nothing, and has an empty bounding box.", "quantifier": "all points, rays and radii", "why_tests_cant": "(The bounding box of an empty composite is the whole [-1e10,1e10]^3: refuted for the box, proved for the queries.)", "anchors": ["src/CompositeShape.cpp: CompositeShape::CompositeShape"]}
{"id": "C35", "title": "Octree resolution is the coarsest power-of-two cell not exceeding the request", "statement": "setResolution(r) with r > 0 terminates and sets resolution = size/2^k for the least k with size/2^k <= r; it returns the same value as getResolution.", "quantifier": "all sizes and all positive requests", "why_tests_cant": "Loop whose length is unbounded.", "anchors": ["src/Octree.cpp: Octree::setResolution, getResolution"]}
{"id": "C36", "title": "The octree's cubes are exactly the cells of the added points", "statement": "After any sequence of add calls with points inside the tree's cube, the cubes reported are exactly, without repetition, the resolution-sized grid cells containing an added point; every cube lies in the tree; adding is idempotent and order-independent.", "quantifier": "all sequences of add, all sizes and resolutions", "why_tests_cant": "Refinement over unbounded histories and depth.", "anchors": ["src/OctreeNode.cpp: OctreeNode::add, getCubes", "src/Octree.cpp: Octree::add, getCubes"]}
{"id": "C37", "title": "A point that was added is contained", "statement": "After add(p), contains(p) is true until it is cleared, and contains(q) implies q lies in a reported cube.", "quantifier": "all histories and points in the tree", "why_tests_cant": "Needs points in upper octants at depth >= 2. (False of the code: the query point is not re-based when descending.)", "anchors": ["src/OctreeNode.cpp: OctreeNode::contains"]}
{"id": "C38", "title": "Octree box query is exact", "statement": "For a proper box b, intersect(b) is true iff b meets an occupied cell (cells taken half-open as add does); in particular it is true if an added point is in b, and if true some reported cube overlaps b.", "quantifier": "all histories and boxes", "why_tests_cant": "Recursive range query over unbounded depth.", "anchors": ["src/OctreeNode.cpp: OctreeNode::intersect(Box)", "src/Octree.cpp: Octree::intersect(Box)"]}
{"id": "C39", "title": "Octree ray cast reports an in-range hit with its distance", "statement": "When the octree ray cast returns true, the distance was written and is the parameter of a point in an occupied cube within [t0,t1]; it returns true whenever the ray meets an occupied cube in range.", "quantifier": "all octrees, rays and ranges", "why_tests_cant": "(False of the code in several ways: distance left unwritten, t1 ignored: refuted.) The sound core (a hit implies the marched point is in an occupied cube) and termination are proved.", "anchors": ["src/OctreeNode.cpp: OctreeNode::intersect(Ray)", "src/Octree.cpp: Octree::intersect(Ray)"]}
{"id": "C40", "title": "Octree ray tracing clears cells only along the ray and marks the end point", "statement": "raytrace leaves the tree unchanged if the ray misses the tree's cube; otherwise the cell of the end point is occupied afterwards, no other cell becomes occupied, and a cell becomes free only if a sampled ray point lies in it.", "quantifier": "all octrees, rays and ranges", "why_tests_cant": "Recursion whose step count depends on real-valued geometry.", "anchors": ["src/OctreeNode.cpp: OctreeNode::raytrace", "src/Octree.cpp: Octree::raytrace"]}
{"id": "C41", "title": "Octree-derived queries follow its contents", "statement": "After any history, getMesh reflects the current cubes, getBoundingBox bounds them, and empty() is true iff there are none.", "quantifier": "all histories of add/clear/raytrace/queries", "why_tests_cant": "(getMesh is right; getBoundingBox is stale and empty() constantly true: refuted.)", "anchors": ["src/Octree.cpp: Octree::getMesh, add, clear", "include/geolib/Octree.h: mesh_", "include/geolib/Shape.h: empty"]}
{"id": "C42", "title": "Height-map quad tree is exactly the positive columns", "statement": "fromGrid on a non-empty rectangular grid builds a tree whose occupied leaves are, one each, the boxes [x,x+1]x[y,y+1]x[0,h] (scaled by the resolution) of the cells with positive height; the internal assertion never fails; every node's box contains its children's.", "quantifier": "all rectangular grids of any size and any resolution", "why_tests_cant": "Recursion on power-of-two padding for every grid size.", "anchors": ["src/HeightMap.cpp: HeightMap::fromGrid, createQuadTree"]}
{"id": "C43", "title": "Height-map ray cast hits iff some column is hit", "statement": "intersect(ray,t0,t1,d) on a height map is true iff the ray cast on the box of some positive column is true, and then d is the distance to such a column; pruning by parent boxes never changes the flag.", "quantifier": "all rectangular grids with resolution at least 0, all rays and ranges", "why_tests_cant": "Pruning correctness over all tree shapes. ", "anchors": ["src/HeightMapNode.cpp: HeightMapNode::intersect"]}
{"id": "C44", "title": "Height-map ray cast returns the nearest column", "statement": "The distance returned by a height-map ray cast is the smallest over all columns hit.", "quantifier": "all grids and rays", "why_tests_cant": "(False of the code: the first child hit in index order wins.)", "anchors": ["src/HeightMapNode.cpp: HeightMapNode::intersect"]}
{"id": "C45", "title": "Height-map mesh covers every positive cell at its height", "statement": "Every cell with positive height is covered by a generated top rectangle whose height is within 1e-10 of the cell's, rectangles cover no cell of another height, all indices are valid and all vertices lie in the grid's extent.", "quantifier": "all rectangular grids", "why_tests_cant": "Greedy rectangle merging over arbitrary height patterns.", "anchors": ["src/HeightMap.cpp: HeightMap::fromGrid"]}
{"id": "C46", "title": "Writing then reading a shape returns the same mesh", "statement": "Shape::read applied to what Shape::write produced (after its 8-byte tag), with any bytes following, returns a shape with bit-identical points and identical triangles, and consumes exactly what was written.", "quantifier": "all meshes with fewer than 2^31 points and triangles, all bit patterns of coordinates including NaN, any trailing data", "why_tests_cant": "Round-trip over all sizes and bit patterns.", "anchors": ["src/Shape.cpp: Shape::write, Shape::read"]}
{"id": "C47", "title": "serialize/deserialize round-trips through the registry", "statement": "If Shape is registered, deserialize of a serialized shape returns the same mesh; if its tag is not registered it returns null.", "quantifier": "all shapes and registries", "why_tests_cant": "(Partly false: the 8-byte tag is used as a C string without terminator, so the outcome depends on the memory after the buffer: modelled and refuted; proved when that byte is 0.)", "anchors": ["src/serialization.cpp: serialization::deserialize, registerDeserializer", "src/Shape.cpp: Shape::write"]}
{"id": "C48", "title": "Reading a truncated file is well defined", "statement": "For every cut point of a written shape, read terminates, reports no error, and returns a shape with exactly the announced number of points, all points lying completely before the cut being intact; triangles are dropped or zero-filled. In particular a truncation is never signalled.", "quantifier": "all shapes and all crash points (prefix lengths)", "why_tests_cant": "Crash points range over every byte offset.", "anchors": ["src/Shape.cpp: Shape::read"]}
{"id": "C49", "title": "Reading arbitrary bytes terminates and yields the announced counts", "statement": "For every input byte string, read returns a shape with max(0,n) points and max(0,m) triangles where n, m are the counts found in the stream; but triangle indices are not validated.", "quantifier": "all byte strings", "why_tests_cant": "All inputs; adversarial files.", "anchors": ["src/Shape.cpp: Shape::read"]}
{"id": "C50", "title": "Deserializer registry keeps the last registration per 8-character tag", "statement": "After any sequence of registrations, a lookup of an 8-character tag finds the last method registered under a name that pads/truncates to it.", "quantifier": "all registration histories and names", "why_tests_cant": "Histories and name collisions.", "anchors": ["src/serialization.cpp: serialization::registerDeserializer"]}
{"id": "C51", "title": "Beam table is consistent with the configuration", "statement": "After any history of setAngleLimits/setNumBeams/setRangeLimits that ends with a positive beam count and max angle above min angle, there are exactly num_beams ray directions and angles, the i-th angle is min + i*(max-min)/max(n-1,1) and the i-th direction is its unit vector.", "quantifier": "all histories of setter calls", "why_tests_cant": "Setters may be called in any order and number. (The unconditional version is refuted: stale tables after setNumBeams(0).)", "anchors": ["src/sensors/LaserRangeFinder.cpp: setAngleLimits, setNumBeams, calculateRays"]}
{"id": "C52", "title": "getAngleUpperIndex returns the first beam with a larger angle", "statement": "For every angle the returned index is the number of beams whose angle is not larger.", "quantifier": "all configurations and angles", "why_tests_cant": "(False within one increment below the minimum angle because of truncation toward zero; proved elsewhere.)", "anchors": ["src/sensors/LaserRangeFinder.cpp: getAngleUpperIndex, getAngleUpperIndexRaw"]}
{"id": "C53", "title": "Ranges keep the nearest hit, independent of render order", "statement": "Rendering any sequence of points leaves each beam's range equal to the smallest positive depth rendered to it (or its old value if smaller, 0 meaning none), independently of the order.", "quantifier": "all sequences of rendered points and initial ranges", "why_tests_cant": "Order independence over all permutations.", "anchors": ["src/sensors/LaserRangeFinder.cpp: RenderResult::renderPoint"]}
{"id": "C54", "title": "A rendered range is a true hit on the line segment", "statement": "Whenever renderLine(p1,p2) writes range d to beam i, the point d*direction(i) lies on the line through p1 and p2 with d > 0, and on the segment itself when both end points are at or above the minimum angle and the segment is rendered in one part.", "quantifier": "all segments, sensor configurations and previous ranges", "why_tests_cant": "Angular index arithmetic with truncation for all real angles.", "anchors": ["src/sensors/LaserRangeFinder.cpp: RenderResult::renderLine"]}
{"id": "C55", "title": "renderLine misses no beam that hits the front of the segment", "statement": "If beam i hits the interior of a segment that faces the sensor and lies within the maximum range and in front of the blind spot, then the range of beam i is at most the hit distance afterwards.", "quantifier": "all segments and beams", "why_tests_cant": "Same.", "anchors": ["src/sensors/LaserRangeFinder.cpp: RenderResult::renderLine"]}
{"id": "C56", "title": "Range pre-check of renderLine is exact", "statement": "renderLine skips a segment for range reasons iff every point of the segment is farther than the maximum range; a maximum range of 0 disables the check.", "quantifier": "all segments not through the origin", "why_tests_cant": "Closest point on a segment over all positions.", "anchors": ["src/sensors/LaserRangeFinder.cpp: RenderResult::renderLine"]}
{"id": "C57", "title": "Early-outs of LaserRangeFinder::render are lossless", "statement": "For a rigid pose and positive maximum range, skipping an object because it is too high/low or too far never changes the resulting ranges.", "quantifier": "all meshes, rigid poses and sensors with positive maximum range", "why_tests_cant": "Optimisation correctness over all meshes. (False when the maximum range is 0: refuted.)", "anchors": ["src/sensors/LaserRangeFinder.cpp: LaserRangeFinder::render"]}
{"id": "C58", "title": "Plane slicing is exact", "statement": "For every triangle crossing the sensor plane, the rendered segment's end points lie on the triangle's edges in the plane z = 0, and the segment is exactly the triangle's intersection with the plane; reversing the triangle reverses the segment.", "quantifier": "all triangles with vertices on both sides", "why_tests_cant": "Six orientation cases over nine reals.", "anchors": ["src/sensors/LaserRangeFinder.cpp: LaserRangeFinder::render"]}
{"id": "C59", "title": "Ranges convert to points along the beams", "statement": "rangesToPoints succeeds iff the number of ranges equals the number of beams and then point i is ranges[i] times direction i, at distance |ranges[i]|; polarTo3D agrees with rotating polarTo2D. getRayDirection is the unit vector at the angle of the beam.", "quantifier": "all range vectors and configurations", "why_tests_cant": "All sizes.", "anchors": ["src/sensors/LaserRangeFinder.cpp: rangesToPoints, rangeToPoint, getRayDirection, polarTo2D, polarTo3D"]}
{"id": "C60", "title": "Pixel back-projection inverts projection", "statement": "project3Dto2D(project2Dto3D(x,y)) = (x,y) for every pixel; with zero Tx, Ty this holds at every depth (project3Dto2D(d*project2Dto3D(x,y)) = (x,y) for d > 0), and projecting a point in front of the camera and back-projecting at its depth returns the point.", "quantifier": "all pixels, depths and cameras with non-zero focal lengths", "why_tests_cant": "Law over all reals. (With non-zero Tx it fails at depths other than 1: refuted.)", "anchors": ["include/geolib/sensors/DepthCamera.h: project3Dto2D, project2Dto3D"]}
{"id": "C61", "title": "The z-buffer keeps the nearest positive depth, independent of order", "statement": "After any sequence of renderPixel calls with positive depths each pixel holds the minimum depth rendered to it, and the triangle map holds the first triangle attaining it; the depth image is independent of the order.", "quantifier": "all sequences of pixel writes", "why_tests_cant": "Order independence over permutations.", "anchors": ["src/sensors/DepthCamera.cpp: DefaultRenderResult::renderPixel"]}
{"id": "C62", "title": "Rasterisation writes only inside the image", "statement": "Every renderPixel call made while drawing a triangle has 0 <= x < width and 0 <= y < height.", "quantifier": "all triangles with finite projections in int range, all image sizes", "why_tests_cant": "Memory safety for every triangle; involves divisions by a zero row count producing inf/NaN steps.", "anchors": ["src/sensors/DepthCamera.cpp: drawTriangle2D, drawTrianglePart"]}
{"id": "C63", "title": "Rendered depths lie between the depths of the triangle's corners", "statement": "Every depth written for a triangle is a positive number between the smallest and largest corner depth.", "quantifier": "all triangles and pixels", "why_tests_cant": "(False of the code: sub-pixel starts are not corrected, so depths can be negative; and an apex with x in (-1,0) writes NaN that no later write can replace: refuted; proved for pixel-aligned rows.)", "anchors": ["src/sensors/DepthCamera.cpp: drawTrianglePart, renderPixel"]}
{"id": "C64", "title": "Near-plane clipping is exact", "statement": "For a triangle partly in front of the near plane, the one or two triangles drawn cover exactly the part of the triangle at z <= -0.1, with new corners on the plane and winding preserved.", "quantifier": "all triangles and poses", "why_tests_cant": "Convex-hull equality over nine reals and six cases.", "anchors": ["src/sensors/DepthCamera.cpp: DepthCamera::render"]}
{"id": "C65", "title": "Back-face culling draws exactly the triangles whose front faces the camera", "statement": "For focal lengths of equal sign and Tx = Ty = 0, a triangle in front of the camera passes the culling test iff the camera is strictly on its counter-clockwise (outward) side.", "quantifier": "all triangles in front of the near plane", "why_tests_cant": "Sign of a determinant after perspective division, for all reals.", "anchors": ["src/sensors/DepthCamera.cpp: drawTriangle2D"]}
{"id": "C66", "title": "Rasterising with reusable maps never writes out of bounds", "statement": "Any sequence of rasterize calls with images of varying size and the same pointer/triangle maps (including the library-owned default maps) only writes inside the maps.", "quantifier": "all histories of rasterize calls", "why_tests_cant": "Needs a particular history of image sizes. (False of the code: resize does not touch existing columns: refuted; proved when maps start empty or correctly sized.)", "anchors": ["include/geolib/sensors/DepthCamera.h: DefaultRenderResult, EMPTY_TRIANGLE_MAP"]}
{"id": "C67", "title": "Rendering early-outs are lossless and stop() stops", "statement": "For a rigid pose, skipping a mesh because its radius is smaller than its z offset changes nothing; after stop() is called no further triangle is processed, and all triangles before are processed with their own index.", "quantifier": "all meshes, poses and stop points", "why_tests_cant": "Loop over arbitrarily many triangles with an externally triggered stop.", "anchors": ["src/sensors/DepthCamera.cpp: DepthCamera::render"]}
{"id": "C68", "title": "Vertex sort orders the corners", "statement": "The three-way sort used by the rasteriser permutes the corners and orders them by the chosen coordinate, and its integer rows are ordered as well, so row counts are never negative and the interpolation row count is positive when rows differ.", "quantifier": "all triples", "why_tests_cant": "All orderings including ties.", "anchors": ["src/sensors/DepthCamera.cpp: DepthCamera::sort, drawTriangle2D"]}
{"id": "C69", "title": "Generated prisms and cylinders are watertight with valid indices", "statement": "createConvexPolygon/createCylinder with n >= 2 corners (numbers within 31 or 32 bits) produce 2n points and 4n-4 triangles with valid indices in which every directed edge occurs exactly once together with its reverse; the signed volume is the base's (clockwise) area times the height; if the base is convex and clockwise and the height not negative, all vertices are on the inner side of every triangle; cylinder vertices lie on the cylinder and its base is convex and clockwise. Without corners createConvexPolygon is undefined behaviour and createCylinder makes triangles without points.", "quantifier": "all n and all corner coordinates", "why_tests_cant": "Combinatorial statement for every n.", "anchors": ["src/shapes.cpp: createCylinder, createConvexPolygon"]}
{"id": "C70", "title": "Importing a scene yields a valid mesh representing all its triangles", "statement": "For every node tree and mesh list whose faces index existing vertices, the constructed mesh has valid indices, every triangular face of every referenced mesh is represented by a triangle whose corners are representatives of its vertices (same millimetre cell of the scaled source coordinates), and within one source mesh no triangle is added twice.", "quantifier": "all scene trees and meshes", "why_tests_cant": "Recursion over arbitrary trees with de-duplication.", "anchors": ["src/io/import.cpp: constructMesh, readMeshFile"]}
{"id": "C71", "title": "Export copies the mesh and picks the format from the extension", "statement": "The exported scene has the shape's points (narrowed to float) and triangles in order; an explicit format is lower-cased and used; otherwise the known extension decides; a file name shorter than the inspected suffix raises an exception instead.", "quantifier": "all meshes, file names and formats", "why_tests_cant": "All strings.", "anchors": ["src/io/export.cpp: writeMeshFile"]}
{"id": "C72", "title": "ROS and tf2 conversions round-trip", "statement": "Converting a vector, quaternion, matrix or rigid transform to its ROS/tf2 counterpart and back returns the same value; for poses this goes through a quaternion and holds for every proper rotation.", "quantifier": "all rigid transforms", "why_tests_cant": "Goes through the four-branch matrix-quaternion conversion.", "anchors": ["include/geolib/ros/msg_conversions.h: convert", "include/geolib/ros/tf2_conversions.h: convert"]}
{"id": "C73", "title": "Converting a mesh or camera to a message preserves it", "statement": "Converting a mesh into an empty message copies points and triangles in order; converting into a non-empty message appends without re-basing indices; a camera converted to CameraInfo and used to construct a camera has the same intrinsics and size.", "quantifier": "all meshes, messages and cameras", "why_tests_cant": "All sizes; message reuse histories.", "anchors": ["src/ros/msg_conversions.cpp: convert", "src/sensors/DepthCamera.cpp: DepthCamera::DepthCamera"]}
{"id": "C74", "title": "Height-map walls are exactly the height steps, facing outwards", "statement": "When different heights differ by more than 1e-10, the generated mesh has exactly one wall for every pair of neighbouring cells of different height (outside the grid counting as 0), spanning the two heights, and no other wall; every triangle of tops and walls is oriented outwards.", "quantifier": "all rectangular grids in range", "why_tests_cant": "Run merging with carried state along every row and column, for all height patterns.", "anchors": ["src/HeightMap.cpp: HeightMap::fromGrid"]}
{"id": "C75", "title": "Height-map top rectangles do not overlap", "statement": "No cell is covered by two generated top rectangles.", "quantifier": "all rectangular grids in range", "why_tests_cant": "(False of the code: growing a rectangle does not consult the visited grid.)", "anchors": ["src/HeightMap.cpp: HeightMap::fromGrid"]}
{"id": "C76", "title": "serialize reports whether everything was written", "statement": "Shape::write/serialize return true only if the whole encoding reached the stream.", "quantifier": "all meshes and all amounts of room on the device", "why_tests_cant": "(False of the code: the stream state is never looked at; true is always returned. Combined with C48 the cut file is read back without a report.) Device limits range over every byte offset.", "anchors": ["src/Shape.cpp: Shape::write", "src/serialization.cpp: serialization::serialize, toFile"]}
{"id": "C77", "title": "Rendering a mesh stays in bounds and only improves ranges", "statement": "For every mesh with valid indices, pose and list of earlier ranges, LaserRangeFinder::render has no undefined behaviour, leaves one range per beam, and changes a range only to a positive value that replaces 0 or is smaller.", "quantifier": "all sensors within one turn, meshes, poses, maximum ranges and earlier ranges", "why_tests_cant": "Truncated angle indices may be negative or beyond the table; every combination of end points has to be clipped correctly.", "anchors": ["src/sensors/LaserRangeFinder.cpp: LaserRangeFinder::render, RenderResult::renderLine"]}
{"id": "C78", "title": "A visible surface point is not overlooked", "statement": "If a beam meets a point strictly inside a triangle whose outer side faces the sensor, at most the maximum range away, then after render the range of that beam is positive and at most the distance of the point, whatever other triangles the mesh has.", "quantifier": "all meshes, rigid poses, sensors, triangles and beams", "why_tests_cant": "Follows the whole chain from posed triangle over slicing to index ranges for arbitrary reals.", "anchors": ["src/sensors/LaserRangeFinder.cpp: LaserRangeFinder::render, RenderResult::renderLine"]}
{"id": "C79", "title": "Every range shown is the distance to a surface point", "statement": "A range that render changes is the distance along the beam to a point of some triangle of the posed mesh.", "quantifier": "all meshes, poses, sensors and beams", "why_tests_cant": "The same chain in the other direction.", "anchors": ["src/sensors/LaserRangeFinder.cpp: LaserRangeFinder::render, RenderResult::renderLine"]}
{"id": "C80", "title": "The rasteriser draws exactly the pixels of the triangle", "statement": "A triangle that is not culled is drawn to exactly those pixels of the image into which a point of the triangle falls, where the rows of the corners are cut off to integers first: no pixel is left out and none is drawn besides.", "quantifier": "all triangles with projections in int range, all image sizes", "why_tests_cant": "Two trapezoid parts with accumulated edge positions, clipped at four borders; a missing column or row shows up only for particular slopes and borders.", "anchors": ["src/sensors/DepthCamera.cpp: DepthCamera::drawTriangle2D, drawTrianglePart"]}
{"id": "C81", "title": "A rendered depth is the depth of a visible surface point", "statement": "The depth rendered to a pixel is the depth of a point of the triangle in space that the camera sees in the column of that pixel and less than one row away from it.", "quantifier": "all cameras, triangles in front of the camera and pixels", "why_tests_cant": "Relates linear interpolation of inverse depth in the image to points in space, for all perspectives; rendering tests compare a few images.", "anchors": ["src/sensors/DepthCamera.cpp: DepthCamera::drawTriangle, drawTriangle2D, drawTrianglePart", "include/geolib/sensors/DepthCamera.h: DepthCamera::project3Dto2D"]}
{"id": "C82", "title": "Rasterising with two poses depends on the relative pose only", "statement": "rasterize with a camera pose and an object pose draws the mesh in the pose S for which camera pose * S is the object pose; moving camera and object together by a rigid transform changes nothing.", "quantifier": "all rigid camera poses, all object poses, meshes, images and maps", "why_tests_cant": "Needs the inverse of arbitrary rotations; a wrong order of factors shows up only for poses that do not commute.", "anchors": ["src/sensors/DepthCamera.cpp: DepthCamera::rasterize"]}
{"id": "C83", "title": "Import leaves a corner less than 3.5 mm from its place", "statement": "Every corner of the triangle shown for a face of an imported scene is less than 3.5 mm from the scaled and posed vertex it stands for.", "quantifier": "all scenes, scale factors, node transformations and faces", "why_tests_cant": "(False of the code for node transformations that enlarge: vertices are merged by the millimetre cell of the coordinates before the pose.) The error depends on the product of all transformations from the root.", "anchors": ["src/io/import.cpp: constructMesh"]}
{"id": "C84", "title": "The file type decides which node transformations are applied", "statement": "readMeshFile shows every mesh with its pose in the node tree; names ending with 3ds ignore all poses; names ending with dae drop rotation and translation of a root whose matrix is a positive multiple of an orthogonal one, but keep its scaling; a scene that cannot be loaded gives no shape, and for a loaded one a name of less than three characters raises an exception.", "quantifier": "all scenes, file names and scale factors", "why_tests_cant": "The root's rotation is removed by the transpose of a column-normalised matrix, which is right only for scaled orthogonal matrices; arbitrary trees and names.", "anchors": ["src/io/import.cpp: readMeshFile, constructMesh"]}
{"id": "C85", "title": "Importing an exported scene returns the mesh", "statement": "The scene handed to the exporter, read by readMeshFile under any name of at least three characters and scale 1, gives the points of the shape narrowed to float and its triangles, in order, if indices are valid, no triangle occurs twice and the narrowed points lie in different millimetre cells within the range of int.", "quantifier": "all such shapes, file names and formats", "why_tests_cant": "Two functions with de-duplication in between; tests write a few files.", "anchors": ["src/io/export.cpp: writeMeshFile", "src/io/import.cpp: readMeshFile, constructMesh"]}
{"id": "C86", "title": "Points inside a closed solid are contained", "statement": "A point that is inside a closed mesh is reported as contained.", "quantifier": "all closed meshes and all points", "why_tests_cant": "Requires reasoning about every relative position of probe line and triangles, and the winding number of an arbitrary closed mesh. (False of the code: see the refutation.)", "anchors": ["src/Shape.cpp: Shape::contains, compute2DIntersection"]}
{"id": "C87", "title": "Octrees are values", "statement": "A program that creates, copies, assigns, changes (add, raytrace, clear, setResolution) and destroys octrees behaves as if each were a value of its own: no undefined behaviour, changes of one are not seen in another, every living node belongs to one octree, and when all octrees are destroyed no node is left.", "quantifier": "all programs over any number of octrees whose operations terminate, all points, rays, sizes and resolutions", "why_tests_cant": "(False of the code for assignment, which the class leaves to the compiler.) Concerns every interleaving of operations; sharing or a leak shows up only in later operations or not at all.", "anchors": ["src/Octree.cpp: Octree::Octree, ~Octree, clone, clear, add, raytrace", "src/OctreeNode.cpp: OctreeNode::OctreeNode, ~OctreeNode, add, raytrace, getCubes", "include/geolib/Octree.h: class Octree"]}
{"id": "C88", "title": "Height maps are values", "statement": "A program that creates, copies, assigns and destroys height maps behaves as if each were a value of its own: no undefined behaviour, and destroying one leaves the others as they are. Moving a node gives its whole tree to the new one.", "quantifier": "all programs over any number of height maps, all grids", "why_tests_cant": "(False of the code for assignment, which the class leaves to the compiler.) Concerns every interleaving of operations.", "anchors": ["src/HeightMap.cpp: HeightMap::HeightMap, ~HeightMap, clone, fromGrid, createQuadTree", "src/HeightMapNode.cpp: HeightMapNode::HeightMapNode, clone"]}
{"id": "C89", "title": "Destroying a height map releases its nodes", "statement": "After a height map is made from a grid and destroyed, none of its nodes is left.", "quantifier": "all grids", "why_tests_cant": "(False of the code: only the root is released.) A leak has no visible effect in a test.", "anchors": ["src/HeightMap.cpp: HeightMap::~HeightMap", "src/HeightMapNode.cpp: HeightMapNode::~HeightMapNode"]}
{"id": "C90", "title": "Ray queries on an octree end in single precision", "statement": "With the ray parameters held in float, casting and tracing a ray through an octree ends, and a reported hit is at a point of an occupied cube.", "quantifier": "all octrees built by the constructor, adding, clearing and tracing, all rays, all ranges", "why_tests_cant": "(False of the code for rays from far away: the step of a tenth of a cell is lost in rounding.) A test close to the tree always ends; a test that does not end yields no verdict.", "anchors": ["src/OctreeNode.cpp: OctreeNode::intersect", "src/OctreeNode.cpp: OctreeNode::raytrace", "src/Octree.cpp: Octree::intersect", "src/Octree.cpp: Octree::raytrace"]}
{"id": "C91", "title": "The ray test of a box in single precision", "statement": "For an oblique ray whose line is in the box from parameter a to parameter b, the ray test says whether the rounded b is after the start of the range and the rounded a before its end, and writes the rounded a. A positive answer means that the line is in the box at some parameter of the range, up to a relative error of 2^-23 of that parameter.", "quantifier": "all boxes with ordered corners, all origins, all directions with no component below 1e-9 after normalisation, all ranges (non-empty ones for the second part)", "why_tests_cant": "Rounding differs at every distance and for every direction; a test sees finitely many.", "anchors": ["src/Box.cpp: Box::intersect"]}
{"id": "C92", "title": "Points with infinite or NaN coordinates are nowhere", "statement": "A point one of whose coordinates is infinite or NaN is in no box, mesh or octree, a ball around it meets no box and no mesh, and adding it to an octree changes nothing.", "quantifier": "all boxes, valid meshes and octrees, all such points, all radii", "why_tests_cant": "(False of the code for octrees.) Every combination of special values passes through a different mix of comparisons, all of which are false on NaN; a fast-path written with the comparisons negated would give the other answer.", "anchors": ["src/Box.cpp: Box::contains, intersect", "src/Shape.cpp: Shape::contains, intersect", "src/Octree.cpp: Octree::contains, add", "src/OctreeNode.cpp: OctreeNode::contains, add"]}
{"id": "C93", "title": "Rounding hardly disturbs poses", "statement": "With every operation rounded with relative error u (2^-53 for double), applying a pose, composing two poses, going there and back and turning a quaternion into a matrix are off by at most a fixed multiple of u times the lengths of the vectors involved, and matrices stay orthogonal up to such a multiple.", "quantifier": "all roundings with relative error at most 1/1000, all nearly orthogonal matrices, all translations, points and non-zero quaternions", "why_tests_cant": "Tests compare within a tolerance at a few poses; whether the tolerance covers every pose, point and sequence of roundings is a statement about all of them, and an unstable formula (a cancellation for some quaternions) may show at few inputs only.", "anchors": ["include/geolib/math_types.h: Transform3T::operator*, inverse", "include/geolib/math_types.h: Mat3T::operator*, setRotation"]}
{"id": "C94", "title": "The height image tools use the parameters they are given", "statement": "With the parameters RESOLUTION, RESOLUTION BLOCK_HEIGHT or RESOLUTION BLOCK_HEIGHT ORIGIN_X ORIGIN_Y after the file names, as the usage messages have them, both tools work with these values.", "quantifier": "all parameter texts and all conversions of text to numbers", "why_tests_cant": "(False of height_image_to_shape.) The tools have no tests; a count that is off by one only shows when the defaults differ from what was given.", "anchors": ["tools/height_image_to_shape.cpp: main", "tools/height_image_to_file.cpp: main"]}
{"id": "C95", "title": "The height image tools make the columns of the picture", "statement": "For every picture and parameters in range, the heights are proportional to the blackness of the pixels, the lowest row of the picture first, and the shape is their height map moved to the origin, made without a fault. With a positive resolution and a block height above 2.55e-8 it has tops over all columns of positive height and one wall per step between neighbouring columns, with corners exact up to the millimetre cells in which the mesh merges points.", "quantifier": "all sizes, pixel values, resolutions, heights and origins in range", "why_tests_cant": "A flipped or transposed picture looks plausible, and a picture with equal sides or symmetrical contents does not show it.", "anchors": ["tools/height_image_to_shape.cpp: main", "tools/height_image_to_file.cpp: main", "src/HeightMap.cpp: HeightMap::fromGrid"]}
{"id": "C96", "title": "The height image tools exit with 0 only if the file is complete", "statement": "If the exit status is 0, the file holds the whole shape; failures lead to exit status 1.", "quantifier": "all arguments, pictures, devices and exporters", "why_tests_cant": "(False of the code.) A full disk or a failing exporter does not occur in tests.", "anchors": ["tools/height_image_to_shape.cpp: main", "tools/height_image_to_file.cpp: main", "src/serialization.cpp: serialization::toFile", "src/io/export.cpp: writeMeshFile"]}
{"id": "C97", "title": "The viewers show shapes from all sides", "statement": "show finds a shape in every file that one of the two readers accepts, and the depths of vertices within a positive radius give grey values between 0 (up to 0.000001) and 1; showKinect draws frames less than 0.05 apart for a full turn and ends after it or after the first key.", "quantifier": "all files, shapes, vertices, angles, sizes of the canvas and moments of a key", "why_tests_cant": "(False of show as the language has it.) Whether the loop over angles closes the turn and whether all grey values fit depends on every angle and every position of a vertex.", "anchors": ["tools/show.cpp: main", "src/visualization.cpp: visualization::showKinect", "src/serialization.cpp: serialization::deserialize"]}
{"id": "C98", "title": "Rounding errors of chains of poses grow linearly", "statement": "If n poses, each with a matrix within e of a rotation, are multiplied one after the other in arithmetic with relative error u, and n (11 u + 2 e) is at most 1/30, the product takes every point to within n (11 u + 2 e) of its distance and n (20 u + 2 e) of the length of the way from its true place, and its matrix stays nearly orthogonal. For poses made from quaternions in double: n/2^45, and n/2^44 for orthogonality.", "quantifier": "all lists of poses within the bound, all points, all roundings with a relative error of at most 1/1000", "why_tests_cant": "Nothing in the code makes matrices orthogonal again; whether errors add up or multiply over millions of compositions shows in no short test.", "anchors": ["include/geolib/math_types.h: Transform3T::operator*", "include/geolib/math_types.h: Mat3T::operator*", "include/geolib/math_types.h: Mat3T::setRotation"]}
{"id": "C99", "title": "Prisms and cylinders contain exactly the points of the solid", "statement": "A shape made by createConvexPolygon from a strictly convex clockwise polygon and a positive height contains every point strictly between the caps and right of all edges, and no point strictly above, below or left of an edge. A shape made by createCylinder contains every point of the cylinder of radius r cos(pi/n) and no point outside the cylinder of radius r.", "quantifier": "all polygons and numbers of corners (numbers within 31 or 32 bits), all points off the surface", "why_tests_cant": "contains sends one probe through arbitrarily many triangles; the outcome depends on how it meets edges and vertices.", "anchors": ["src/shapes.cpp: createCylinder, createConvexPolygon", "src/Shape.cpp: Shape::contains"]}
{"id": "C100", "title": "Rounding does not change what contains says of points in clear position", "statement": "With every operation of Shape::contains rounded with relative error u (2^-53 for double), also the mesh radius, the far end of the probe and the decimal constants, the answer is the one of exact arithmetic whenever the probe is clear of the code's tolerances by 300 u times the size of the mesh (to the matching power). For closed meshes it is then false for points outside and true for points inside.", "quantifier": "all roundings with relative error at most 1/1000, all meshes with indices in range, all points whose probe is clear by the stated margins", "why_tests_cant": "Tests try a few points of a few meshes. That no sequence of roundings along the way (differences, vector products, inner products, roots) can turn a sign or a comparison, for meshes of any size and coordinates of any magnitude, is a statement about all of them.", "anchors": ["src/Shape.cpp: Shape::contains, sideProduct, LineSegment", "src/Triangle.cpp: triangleArea", "src/Mesh.cpp: Mesh::getSquaredMaxRadius, getMaxRadius"]}
{"id": "C101", "title": "A laser scan of a box and the ray test of the box agree", "statement": "After rendering a mesh every beam shows the distance to the nearest point of the surface on it (or an earlier nearer value). For a box that is the distance Box::intersect reports for the beam taken as a ray in the frame of the box, and a beam for which it reports no hit shows nothing.", "quantifier": "all sensors within one turn, all rigid poses without reflection, all boxes or buildable meshes, all beams and earlier ranges", "why_tests_cant": "The two answers come from unrelated code (slicing triangles and intersecting planar lines in beam order; slabs). Tests compare a few poses. Agreement for every pose, box, beam and sensor ties mesh, pose, slice, beam index and slab arithmetic together.", "anchors": ["src/sensors/LaserRangeFinder.cpp: LaserRangeFinder::render, RenderResult::renderLine", "src/Box.cpp: Box::intersect(Ray), generate_mesh_", "src/Ray.cpp: Ray::Ray"]}
{"id": "C102", "title": "Sensors see a composite as its parts", "statement": "Drawing a composite into a scan or a depth image gives what drawing its parts one after another gives, each at the pose of the composite times its own pose. In a scan of several objects every beam shows the nearest of the depths that the objects show alone.", "quantifier": "all sensors, all lists of parts with any buildable meshes, all rigid poses, all earlier ranges, images and maps", "why_tests_cant": "The composite is drawn from one joined mesh with shifted indices and moved points, and its own radius decides early returns; the parts are drawn from their meshes with composed poses. Tests draw a few scenes; agreement for every list of parts and pose relates joining, transforming, radius tests and buffers.", "anchors": ["src/CompositeShape.cpp: CompositeShape::addShape", "src/Mesh.cpp: Mesh::add, Mesh::getTransformed", "src/sensors/LaserRangeFinder.cpp: LaserRangeFinder::render, RenderResult::renderLine, RenderResult::renderPoint", "src/sensors/DepthCamera.cpp: DepthCamera::render, DepthCamera::rasterize, DefaultRenderResult::renderPixel"]}
{"id": "C103", "title": "The mesh of a height map encloses the volume of its columns", "statement": "The signed volume between the mesh of a height map and the origin (which lies in the open ground plane) is the sum over the cells of cell area times height, for grids of non-negative heights.", "quantifier": "all rectangular grids of non-negative heights within the number range, cells and height steps of at least 2 mm", "why_tests_cant": "Rectangles and walls are grown in unrelated loops with merging of runs; that their orientation, extent and heights fit together for every grid shows in no finite set of pictures. (False for grids where top rectangles overlap.)", "anchors": ["src/HeightMap.cpp: HeightMap::fromGrid"]}
{"id": "C104", "title": "The containment test of a height map knows its columns", "statement": "For a probe that stays clear of the tolerances and meets no edge, contains of a height map is true exactly if the point is above the ground in one of the columns of the grid.", "quantifier": "all rectangular grids of non-negative heights within the number range, cells and height steps of at least 2 mm; all points whose probe is clear of every triangle and meets no edge", "why_tests_cant": "The test counts signed crossings with a mesh that has no floor and whose tops may overlap, along a skew line; which crossings cancel depends on all rectangles at once. (False for grids where top rectangles overlap.)", "anchors": ["src/HeightMap.cpp: HeightMap::fromGrid", "src/Shape.cpp: Shape::contains"]}
{"id": "C105", "title": "Growing a sphere never loses a hit", "statement": "The sphere test gives an answer for every radius, a sphere that meets the shape still meets it with a larger radius, and for radius 0 the answer is that of contains at the centre.", "quantifier": "all meshes with valid indices, all boxes whatever their corners, all composites of parts with the property at any poses, all octrees reachable by addPoint and the other operations; all centres and radii", "why_tests_cant": "The test branches on the projection to every triangle and every edge; monotonicity relates runs that take different branches. (Radius 0 is false of octrees, because contains of an octree looks in the wrong cell.)", "anchors": ["src/Shape.cpp: Shape::intersect", "src/Box.cpp: Box::intersect", "src/CompositeShape.cpp: CompositeShape::intersect, CompositeShape::contains", "src/Octree.cpp: Octree::contains"]}
{"id": "C106", "title": "Points of a scan are found again at their beams", "statement": "The point that a positive range of a beam stands for has that beam as its last beam: the first beam with a larger angle is the next one.", "quantifier": "all sensors with limits within the circle and at least one beam reached by the setters, all beams, all positive ranges", "why_tests_cant": "The round trip goes through cosine, sine, atan2, a division and a truncation; a boundary case is hit by every single point. (False for a first beam that points straight back.)", "anchors": ["src/sensors/LaserRangeFinder.cpp: LaserRangeFinder::rangeToPoint, rangesToPoints, getAngleUpperIndex, getAngleUpperIndexRaw"]}
{"id": "C107", "title": "A depth image of several objects shows the nearest", "statement": "If objects are drawn one after another into the same image and maps, each pixel holds the least depth that an object alone shows there, the pointer of the first object that shows it, and the triangle of that object; pixels where no object shows anything stay empty; the image does not depend on the order of the objects.", "quantifier": "all cameras and lists of objects of moderate numbers with valid indices and pointers other than null, all images, all pixels where the objects draw finite positive depths only", "why_tests_cant": "The image is the result of all objects, all triangles and all rows at once, with ties and with pixels drawn several times; single images cannot show it for all scenes and orders. (False where an object draws NaN.)", "anchors": ["src/sensors/DepthCamera.cpp: DepthCamera::rasterize, DepthCamera::render, DefaultRenderResult::renderPixel"]}
{"id": "C108", "title": "The ray test of a composite in single precision", "statement": "With its cast of the smallest distance so far to float, and with the casts of its bounding box, the ray test of a composite is hit exactly if the bounding box is hit and some part has a candidate distance below the bound; the distance is the candidate of a part, and no candidate of any part is smaller once both are rounded to float; it is the least candidate if the candidates are floats. For boxes in rigid poses and oblique rays: a box that the line crosses is found, at most at its rounded entry, and a hit is a hit of some box up to a relative error of 2^-23 of the parameter. Two user-defined parts at distances that round to the same float are reported by order of insertion.", "quantifier": "All lists of parts with good meshes and candidate distances; all lists of boxes in rigid poses; all oblique rays; all ranges with a float end.", "why_tests_cant": "The cast changes the answer only when two parts are closer to each other than half a unit in the last place of a float; no finite set of scenes shows that it changes nothing else, or that a bounding box tested in single precision never hides a part that is hit.", "anchors": ["src/CompositeShape.cpp:30-63", "src/Box.cpp:31-61"]}
{"id": "C109", "title": "Queries of a mesh do not depend on the frame", "statement": "If a mesh and a point are moved by the same proper rigid motion, contains and the sphere test give the same answer as before. This is false: contains calls a point outside a box contained until both are moved along the x axis, and the sphere test with its early exit and tolerances changes its answer within a narrow band outside the radius. It holds for contains of a closed mesh, for points outside or inside the solid and clear probes that meet no vertex in both frames; for contains of any mesh under turns about the x axis, if the probe is not within tolerance of the plane of a triangle; and for the sphere test of any mesh and motion, outside the band, if contains agrees in the two frames.", "quantifier": "All meshes built by the library's operations, all proper rigid motions, points and positive radii, with the conditions named.", "why_tests_cant": "The probe of contains ends on the x axis of the mesh's own frame and the tolerances are absolute; a test compares a few poses of a few meshes and cannot show for which of all poses the answer is the same.", "anchors": ["src/Shape.cpp:38-50", "src/Shape.cpp:205-270", "src/Shape.cpp:278-473", "src/Mesh.cpp:76-87"]}
{"id": "C110", "title": "Pixels, rays and back in floating point arithmetic", "statement": "Projecting the ray of a pixel returns the pixel although every operation rounds: with results of type double the nearest integers are the pixel, with results of type float (as in the renderer) the coordinates other than 0 return exactly and truncation gives the pixel, and the error is at most 26 rounding errors of the largest number involved, at distance 1 and, without Tx and Ty, at every distance. With results of type int it is false: each coordinate is that of the pixel or one less, and with a focal length of 49 pixels the ray of pixel (1, 0) is projected to pixel (0, 0).", "quantifier": "All cameras with non-zero focal lengths, all pixels up to 2^40 (double), 2^20 (float), 2^31 (int), principal points and offsets in the same range (for int 2^40).", "why_tests_cant": "Whether the result falls just below an integer depends on the digits of the focal length and of the pixel; a test with one camera sees either no error at all or an error at a few pixels.", "anchors": ["include/geolib/sensors/DepthCamera.h:210-229", "src/sensors/DepthCamera.cpp:171"]}
{"id": "C111", "title": "Mesh operations keep closed surfaces closed, and their volume", "statement": "If every directed edge of the triangles occurs as often as its reverse (closed surface), the same holds after add with a closed mesh, after getTransformed with any transformation, after filterOverlappingVertices (though triangles may collapse), and for the mesh of a composite of parts with closed meshes. The enclosed volume adds under add, is multiplied by the determinant of the linear part under getTransformed (so it is kept by rigid motions), is the sum of the parts' volumes for a composite, and six times the volume changes under filterOverlappingVertices by at most 0.036 B^2 per triangle, B the largest coordinate. The volume of an open mesh is not kept by a rigid motion.", "quantifier": "All closed meshes with valid indices and up to 2^32 points, all transformations, all lists of parts; for the merge coordinates whose thousandfold fits an int.", "why_tests_cant": "Whether the surface stays closed depends on which of all the vertices share a millimetre cell: the merge identifies vertices of triangles that are far apart in the list, and a test sees the edges of a few meshes only.", "anchors": ["src/Mesh.cpp:41-52", "src/Mesh.cpp:76-87", "src/Mesh.cpp:107-143", "src/CompositeShape.cpp:103-132"]}
{"id": "C112", "title": "empty() tells whether anything can meet the shape", "statement": "A mesh shape reports itself empty exactly if no sphere of positive radius meets it, and then contains no point; a box is never empty; a composite is empty exactly if all its parts are; drawing an empty mesh changes no range of a laser range finder and no pixel of a depth image; a height map is empty exactly if no cell has a positive height, that is, if no ray can hit it. This last part is false: a cell of negative height gives walls to the mesh but no column to the tree; it holds for grids without negative heights. (For octrees see C41.)", "quantifier": "All meshes built by the library's operations, all points and radii, boxes, lists of parts with good meshes, scanners, cameras and images, grids in range.", "why_tests_cant": "That nothing at all meets an empty shape is a statement about all spheres and points; a mesh with points but no triangles has a radius and a bounding box like any other and takes a different path through the early exits.", "anchors": ["include/geolib/Shape.h:105", "include/geolib/Mesh.h:70", "src/Shape.cpp:205-270", "src/Shape.cpp:278-473", "src/CompositeShape.cpp:103-132", "src/HeightMap.cpp:48-245"]}
{"id": "C113", "title": "Several meshes in one stream can be taken apart in one way only", "statement": "Meshes with fewer than 2^31 points and triangles, written one after another with Shape::write, are read back one after another with Shape::read, each after the eight bytes of its tag, bit for bit, and the bytes that follow are left in the stream. The bytes of one mesh are never the beginning of the bytes of another, and the bytes of a list of meshes determine the list, also its length.", "quantifier": "All lists of meshes of any bit patterns and indices below the size limit, whatever stands before and after them in the stream.", "why_tests_cant": "The reader finds the end of a mesh only by its counts; that no mesh looks like the beginning of another is a statement about all pairs of meshes.", "anchors": ["src/Shape.cpp:520-551", "src/Shape.cpp:553-586", "src/serialization.cpp:32-44"]}
{"id": "C114", "title": "A mesh answers for its convex hull and its bounding box only", "statement": "Shape::contains says yes only for points in the convex hull of the triangles, hence in getBoundingBox(); Shape::intersect(p, radius) says yes only if the centre is contained or a point of the hull is within the radius (up to the tolerance 1e-9); so the test of the bounding box with which a composite begins loses no point of a mesh part. The claim about contains is false: the mesh of the box from (0,0,0) to (1,2,2) contains (1.5,1,0), and a composite of just this mesh does not. It holds for closed meshes and points whose probe passes clear of the tolerances.", "quantifier": "All closed meshes built by the library's operations, all points with a clear probe, all histories of setMesh and getBoundingBox, all lists of rigidly posed closed meshes; the sphere test for all meshes, centres and radii.", "why_tests_cant": "The points outside are unbounded and the wrong answers need probes that run within the plane of a face; no finite set of points shows that all others are right.", "anchors": ["src/Shape.cpp:278-473", "src/Shape.cpp:205-270", "src/Shape.cpp:475-512", "src/CompositeShape.cpp:81-96", "src/CompositeShape.cpp:103-137"]}
{"id": "C115", "title": "A height map can be a part of a composite like any other", "statement": "Towards a composite a height map behaves as a part with one candidate per ray, the least parameter at which the ray enters a positive column that it is in beyond t0; hence the order in which height maps and boxes were added does not change what a ray finds. For a ray whose direction points towards smaller x in the frame of the height map this is false: the height map of two columns and a box give 2 if the height map was added first and 1.5 if the box was. It holds if the x and y components of the direction are positive in the frame of every height map.", "quantifier": "All grids within the 32-bit range, all resolutions, all lists of height maps and boxes with any poses, all permutations of them, all rays with positive x and y components in the frames of the height maps, all t0 >= 0 and t1.", "why_tests_cant": "The dependence on the order needs a ray for which the height map answers with a farther column and another part between the two; the absence of it for the other rays is a statement about all grids, poses and permutations.", "anchors": ["src/HeightMapNode.cpp:59-100", "src/HeightMap.cpp:39-46", "src/CompositeShape.cpp:30-63", "src/Box.cpp:31-61"]}
{"id": "C116", "title": "The distance that a composite reports is a number", "statement": "CompositeShape::intersect hands every part a variable that holds NaN; on a hit the part has written the distance, so that the composite reports a number, the same as if the variable had held one. For composites with octrees this is false: an octree may report a hit without writing the distance; the composite then goes on with NaN as the end of the range, no later part is hit any more, and it reports a hit at distance NaN, while with a nearer box added before the octree it reports the distance of the box. It holds for composites within composites of boxes, height maps and plain meshes.", "quantifier": "All composites, nested to any depth, of boxes, height maps, plain meshes and octrees with any poses, all rays and ranges; the loss of later parts for all lists of parts.", "why_tests_cant": "NaN appears only if the first probe in the octree falls into an occupied cell, and then depends on the order of the parts; that it never appears otherwise is a statement about all nestings.", "anchors": ["src/CompositeShape.cpp:30-63", "src/OctreeNode.cpp:114-174", "src/Octree.cpp:71-86", "src/Box.cpp:31-61", "src/HeightMapNode.cpp:59-100"]}
{"id": "C117", "title": "Casting a ray on a height map in single precision loses no column", "statement": "With the casts to float in Box::intersect, HeightMap::intersect is true exactly if the box test, with the same casts, of some cell with positive height is, and it reports the distance of such a cell: the tests of the enclosing nodes never reject a ray that a cell accepts, because rounding is monotone. For rays not parallel to a coordinate plane, a column that the line is in from a to b is therefore hit if the rounded b is after the start of the range and the rounded a before its end; and a hit comes from a column that the line is in at some parameter s of the range up to |s| / 2^23, with the rounded entry as the distance if the line is in the column at all.", "quantifier": "All rectangular grids up to 2^31 x 2^31 cells with any heights, all resolutions of at least 0, all rays and ranges; the geometric part for rays not parallel to a coordinate plane.", "why_tests_cant": "A ray lost between two levels of the tree would need parameters that round differently for a node and its child, in grids of any depth.", "anchors": ["src/HeightMapNode.cpp:59-100", "src/HeightMap.cpp:39-46", "src/Box.cpp:31-61"]}
{"id": "C118", "title": "The rasteriser in floating point arithmetic is safe and off by at most a fraction of a pixel", "statement": "With a rounding after every operation, to float on the image and to double in space, drawing a triangle has no undefined behaviour and draws only pixels of the image, with the index of the triangle. With e = (2 height + 60) M / 2^24 for corners with columns of at most M, each of them belongs to a place of the triangle, the rows of its corners cut off, shifted along its row by at most e; and each pixel of the image is drawn that a place of the triangle and all places within e of it along the row belong to, if the triangle clearly shows its front and has a corner beyond the first column and one beyond the first row. The culling test agrees with that of real numbers unless the triangle is nearly seen from its side. Rendering a mesh whose points are near the axis of the camera never fails. Without roundings the functions are those of C62 and C80.", "quantifier": "All images of at most 2^22 rows, all triangles with columns and rows below 2^30 in size, all meshes with valid indices whose points in the frame of the camera are at most K off the axis, for cameras that project such points into that range.", "why_tests_cant": "The edges are followed by adding a rounded slope once per row, so the errors add up with the height of the image; tests compare images of a few triangles.", "anchors": ["src/sensors/DepthCamera.cpp:147-473", "include/geolib/sensors/DepthCamera.h:260", "include/geolib/math_types.h:196-208"]}
{"id": "C119", "title": "A scene is the set of its objects", "statement": "What the sensors show of several objects that are drawn one after another depends on the set of the objects only, not on how often and in which order they are drawn: every beam of a scan, and the depth at every pixel of an image that was empty at first. Drawing one object twice in a row gives the depths, pointers and triangles that drawing it once gives, at all pixels that were empty before.", "quantifier": "All scans with any earlier ranges; all cameras, images and maps, lists of objects and meshes of moderate numbers with valid indices.", "why_tests_cant": "Each pixel is the outcome of all comparisons made with earlier contents of the buffer, which are not those of an order once a NaN is involved. Tests draw each object once, in one order. (False for images of several objects where an object draws NaN.)", "anchors": ["src/sensors/LaserRangeFinder.cpp: LaserRangeFinder::render, RenderResult::renderPoint", "src/sensors/DepthCamera.cpp: DepthCamera::rasterize, DepthCamera::render, DefaultRenderResult::renderPixel"]}
{"id": "C120", "title": "Octrees in floating point arithmetic keep the points they are given", "statement": "With a rounding to double after every operation, constructing an octree gives the tree that real numbers give, and any additions of points of the tree and clearings give exactly the tree that real numbers give for points moved by at most size / 2^53 along each axis. The listed cubes are off by at most (levels + 1) size / 2^53, and not at all if the size is a power of two and there are at most 54 levels. So each point added since the last clearing is in a listed cube, and each listed cube holds one, up to (levels + 2) size / 2^53. With cells of 2^21 the tolerance 1e-10 of the test for leaves is lost and the cubes are half as wide as the resolution that the tree reports.", "quantifier": "All sizes that are doubles, all cells from 1e-10 to 2^19 (for 2^21 it fails), up to 2^52 levels, all histories of additions of points of the tree and clearings.", "why_tests_cant": "The point is shifted once per level on the way down and the offset once per level on the way up, with different operations; that they fit together up to a few units in the last place for all points and depths is an argument about exact differences of doubles, not something that samples show.", "anchors": ["src/OctreeNode.cpp:47-111", "src/Octree.cpp:15-64"]}
{"id": "C121", "title": "The laser range finder in floating point arithmetic", "statement": "With a rounding after every operation (relative error u), depths rounded to float (relative error v) and library functions with twice that error: sensible configurations are accepted without undefined behaviour; after any setter history the angle of beam i is off by at most u (2 i + 5) times the greater limit, and its direction by little more; an index computed from an angle is off by at most one, and only if the angle is within 5 u of its distance to the lower limit from a beam; drawing lines and rendering meshes is safe for all inputs, keeps one range per beam and only lets ranges get smaller; a range that changes is the distance along the ideal beam to the ideal line up to an explicit error that grows as beam and line get parallel; and a beam between the end points of a line sees it. The index of the angle of a beam may fail to count that beam.", "quantifier": "All arithmetics with these error bounds (double precision among them), all setter histories, all sensors with limits within -4 to 4 and beams not closer than about 4e-9 rad, all lines, meshes, poses and earlier ranges.", "why_tests_cant": "The table is filled by repeated addition, indices by division, and depths by quotients of differences that cancel; how far these drift apart for all numbers of beams and all lines is a question of error propagation, and a comparison with a tolerance in a test says nothing about other inputs.", "anchors": ["src/sensors/LaserRangeFinder.cpp:29-148", "src/sensors/LaserRangeFinder.cpp:152-271", "src/sensors/LaserRangeFinder.cpp:305-370"]}
{"id": "C122", "title": "Rays and boxes in floating point arithmetic", "statement": "With a rounding after every operation (relative error u) and the parameters of rays rounded to float (relative error v): a ray reported to hit a box passes within 8 u + 2 v of its distance of the box, a ray through the box less the same margin is reported, and the reported distance is off by at most that relative error; the tests against balls and boxes answer as for a radius and for gaps changed by explicit small amounts; the radius of a box has a relative error of at most 3 u; and a box that encloses any sequence of posed boxes keeps its old contents and is, up to the error of one application of a pose, the smallest box around everything, so errors do not add up.", "quantifier": "All roundings with these error bounds (monotone ones for rays; double and float among them), all proper boxes, points, radii, sequences of enclosed boxes with nearly orthogonal poses, and all rays no component of whose direction is within rounding of the threshold 1e-9.", "why_tests_cant": "Errors of the normalised direction, its inverse, the differences and the casts to float combine differently for every ray; a test with a tolerance on a few rays neither bounds the error for the others nor shows that rays near an edge are decided consistently.", "anchors": ["src/Box.cpp:31-141", "src/Ray.cpp:8-25", "include/geolib/math_types.h:211-221"]}
{"id": "C123", "title": "The laser test program draws the scan where it is", "statement": "The program test_geolib_lrf takes its parameters as its usage message says. It draws the corners of the object less than 2.5 pixels off their places, and every beam at its own angle: a beam that shows nothing is drawn 10 m long, any other shows the distance of a point of the surface of the object and ends less than one pixel off that point, and the nearest point of the surface is the one shown if it is strictly inside a triangle that has the sensor on its outer side.", "quantifier": "All arguments; for the picture all objects of up to 1000 km size and distance, at any yaw, that are seen within half a turn less two beams, and all numbers of beams up to 2^29.", "why_tests_cant": "The program only shows a picture; nobody checks for all poses, sizes and numbers of beams that the turned outline, the truncations to pixels, the summed-up angles and the rendered ranges fit together.", "anchors": ["test/test_geolib_lrf.cpp:12-147", "src/sensors/LaserRangeFinder.cpp:152-271", "src/sensors/LaserRangeFinder.cpp:305-348"]}
{"id": "C124", "title": "The benchmark program draws inside its pictures and builds a pyramid", "statement": "Drawing the points of a scan in test_geolib stays inside the picture for all points, and afterwards exactly the pixels that show a point are set. The loop of renderLRF that draws ranges has the same property. The grid of its height map is a pyramid: a cell that is k cells away from the nearest side is 0.1 k high. The claim about renderLRF is false: ranges within the limit of 10 m reach beyond the picture.", "quantifier": "All points, all pictures below the size of int; for renderLRF all ranges that stay in the picture; grids of all sizes.", "why_tests_cant": "Writing outside a picture usually goes unnoticed, and the benchmark never calls renderLRF with show set; the order in which the rings of the grid overwrite each other is not visible in a timing.", "anchors": ["test/test_geolib.cpp:58-97", "test/test_geolib.cpp:280-304", "test/test_geolib.cpp:382-398"]}
{"id": "C125", "title": "The sphere test of meshes stays right in floating point arithmetic", "statement": "With every operation of the sphere test rounded, a sphere that contains a point of an edge by more than 40 rounding errors is reported from either side, and one that contains any point of a triangle by more than 100 K rounding errors is reported if its centre is on the front side. Conversely a positive answer means that the computed containment test is positive or that some point of a triangle is within the radius up to the tolerance 1e-9 of the code and 25000 K^3 rounding errors. Here 1/K bounds the sines of the angles of the triangles from below, and a rounding error is u times the square of the distance of the centre from the origin plus the radius of the mesh.", "quantifier": "All meshes, centres and radii; all roundings with relative error u up to 1e-11, double among them; the statements about the inside of triangles for K u up to 1/1000.", "why_tests_cant": "The test divides by squared lengths of normals, takes roots and compares signs of products of cross products; how far the errors of thin triangles spoil this is not visible in a few runs.", "anchors": ["src/Shape.cpp:38-50", "src/Shape.cpp:205-270", "include/geolib/math_types.h:189-221"]}
{"id": "C126", "title": "Composites in floating point arithmetic", "statement": "With every operation rounded, the bounding box and the radius of a composite are right up to the error of one application of a pose, however many parts are added, and its mesh has the triangles of the parts with corners off by no more than that. With the margin eps = (24 u + 5 delta)(rho + tau + |p|), a point around which a part contains everything within eps is contained, and a point within eps of which no part contains anything is not; the sphere test behaves likewise. For boxes the composite is the union of the boxes up to eps.", "quantifier": "All lists of parts with proper meshes within rho of their origins, poses orthogonal up to delta (at most 1/10) and translations up to tau, rho + tau at most 5e9 for the claims about box, radius and sphere test; all points and radii; all roundings with relative error u up to 1/1000, double and float among them.", "why_tests_cant": "Whether rounded inverse poses and the shortcut through the rounded bounding box can lose a point depends on all coordinates at once.", "anchors": ["src/CompositeShape.cpp:65-132", "src/Mesh.cpp:76-87", "include/geolib/math_types.h:820-848"]}
{"id": "C127", "title": "Quaternions of matrices, and poses in messages, in floating point arithmetic", "statement": "If no entry of a matrix is further than e from that of a rotation, getRotation with every operation rounded takes the root of a number of at least 0.94 and returns a quaternion that differs in no component by more than 13 (u + e) from a unit quaternion of the rotation. Turned back into a matrix, no entry is further than 300 (u + e) from the rotation, and the matrix is orthogonal up to 68 u however large e was. A quaternion turned into a matrix and back is the normalised one or its opposite up to 260 u. A pose sent in n + 1 messages one after the other keeps its translation, is orthogonal up to 68 u, and is off by no more than 300 (u + e) + 5400 n u per entry.", "quantifier": "All matrices with entries within e of those of a rotation with u + e at most 1/500; all quaternions other than zero; all numbers of messages; all roundings with relative error u up to 1/1000 (1/10000 for the last two claims), double and float among them.", "why_tests_cant": "The branch that is taken depends on rounded comparisons, and the root and the quotients in it on all nine entries; half turns meet the borders between the branches.", "anchors": ["include/geolib/math_types.h:614-662", "include/geolib/ros/msg_conversions.h:75-91", "include/geolib/ros/msg_conversions.h:187-203"]}
{"id": "C128", "title": "Roll, pitch and yaw in floating point arithmetic", "statement": "With every operation rounded, no entry of the matrix that setRPY makes is further than 10 u from the product of the rotations about the axes, and the matrix is orthogonal up to 63 u. If no entry of a matrix is further than e from that of a rotation whose pitch has a cosine of at least c, no entry of the matrix of the angles that getRPY reads is further than 36 (u + e) / c from the rotation. Angles turned into a matrix and back have sines and cosines off by no more than 35 u / c (roll and yaw) and 146 u (pitch).", "quantifier": "All angles with cos pitch at least c, and all matrices within e of such a rotation, with c at least 1e-11 and at least 26 (u + e) (286 u in the last claim); the first claim for all angles; all roundings with relative error u up to 1/1000, double and float among them.", "why_tests_cant": "How the errors grow toward the singular pitch, and that the test for it is not met by mistake, depends on the rounded root, arc tangent and constant pi together.", "anchors": ["include/geolib/math_types.h:589-610", "include/geolib/math_types.h:850-874"]}
{"id": "C129", "title": "Rays and composites of boxes in floating point arithmetic", "statement": "Let e be the unit vector of the ray and m(s) = (24 u + 5 delta)(rho + tau + |o|) + (36 u + 4 v + 9 delta)|s|. If the ray query of a composite of boxes, with every operation rounded, reports a hit, the point of the ray at the reported distance is within the margin m of some box in its pose, the distance is below the upper bound, and at some parameter between the bounds that is not below the reported distance the ray is within the margin of the same box. If at a parameter between the bounds everything within the margin of the point of the ray belongs to one of the boxes, a hit is reported, at a distance that is at most this parameter.", "quantifier": "All lists of boxes within rho of their origins, poses orthogonal up to delta (at most 1/100) and translations up to tau; all rays whose direction has no component below about 1e-9 in the frame of the whole and of each part (plus 21 u + 10 delta in the latter); all bounds in increasing order with an upper bound that is a float; all monotone roundings with relative errors u and v up to 1/1000, double and float among them.", "why_tests_cant": "The loop passes each part a bound that earlier parts have lowered and rounded; whether a near part can be lost behind a rounded farther one, or behind the shortcut through the bounding box, depends on the order of the parts and all coordinates at once.", "anchors": ["src/CompositeShape.cpp:30-63", "src/CompositeShape.cpp:103-132", "src/Ray.cpp:8-25", "src/Box.cpp:31-61"]}
{"id": "C130", "title": "Functions of meshes in floating point arithmetic", "statement": "With every operation rounded: merging overlapping vertices succeeds, keeps only old points, keeps indices valid, leaves no two points whose rounded coordinates in millimetres truncate to the same integers, is idempotent, and moves each coordinate of each corner by less than 2 mm (less than 1 mm if it is clearly at least 1 mm in magnitude) plus u(|x| + |x'|). If no coordinate in millimetres is within its rounding of an integer other than zero, merging does exactly what it does in real arithmetic; on such a border it may merge points that real arithmetic keeps apart. The squared radius and the radius have relative errors up to 3.01 u and 2.52 u, and a repeated query gives the same answer. The normal of a triangle whose angle at the first corner has a sine of at least s is within 14 u / s + 3.6 u of the exact unit normal.", "quantifier": "All meshes with valid indices and coordinates that stay in the range of int after scaling and rounding (merging), without cached radii (radius), all triangles that are not degenerate and all s with 8 u <= s <= that sine (normal); all roundings with relative error u up to 1/1000, double among them.", "why_tests_cant": "A product such as 1000 * 0.009 is rounded up across the border of a cell, for some coordinates and not for others; the error of a normal depends on how flat the triangle is.", "anchors": ["src/Mesh.cpp:107-143", "src/Mesh.cpp:145-164", "src/Mesh.cpp:166-175"]}
{"id": "C131", "title": "Cylinders and prisms in floating point arithmetic", "statement": "With every operation rounded, createCylinder makes a closed prism with the given height over a polygon whose corners differ by at most 36 u r per coordinate from those of the regular polygon with radius r, and whose area differs by at most 74 n u r^2 from that of the regular one. If 20 n^3 u is at most 1 (up to about 76000 corners for double), the polygon is convex and clockwise, so that every triangle faces outwards. createConvexPolygon makes the prism that it makes in real arithmetic.", "quantifier": "All radii, all heights whose half is a double, all numbers n of corners from 2 to 2^31; all platforms whose operations have relative error u up to 1/1000 and whose sin, cos and M_PI are off by at most 2 u (relative for M_PI); for createConvexPolygon all lists of points.", "why_tests_cant": "Neighbouring corners of a cylinder are closer to a straight line the more of them there are; whether rounding dents the surface depends on every corner of every size of cylinder.", "anchors": ["src/shapes.cpp:15-51", "src/shapes.cpp:55-90"]}
{"id": "C132", "title": "Poses in the plane in floating point arithmetic", "statement": "With every operation rounded, apply, compose, inverse and inverseTimes of Transform2 give to the last bit what those of Transform3 give for the embedded poses and points. For a matrix that is orthogonal up to delta, applying a pose is off by at most 8 u times the lengths involved, a composition by 11 u and 8 u, and there and back by 43 u times the lengths plus 3 delta times the length of the point. A pose made from an angle has a matrix that is orthogonal up to 9 u and turns points by the angle up to 12 u times the lengths. The angle read back from it has sine and cosine within 12.3 u of those of the angle; the angle read from a composition has sine and cosine within 42.3 u of those of the sum.", "quantifier": "All poses with nearly orthogonal matrix, all points, all angles; all idempotent roundings with relative error u up to 1/1000 that keep 1, and all platforms whose sin and cos are off by at most 2 u and whose atan2 has relative error at most 2 u.", "why_tests_cant": "The bounds hold for all angles, poses and points at once; tests compare a few of them with a tolerance.", "anchors": ["include/geolib/math_types.h:344-350", "include/geolib/math_types.h:737-771"]}
{"id": "C133", "title": "Normalisation in floating point arithmetic", "statement": "With every operation rounded, the length of a non-zero vector in the plane, vector in space or quaternion is off by at most 2.1 u, 2.6 u or 3.1 u times its length. The components of the normalised one are off by at most 3.2 u, 3.6 u or 4.2 u times the exact components, and its squared length differs from 1 by at most 6.5 u, 7.3 u or 8.5 u. normalize() and normalized() of a matrix agree to the last bit; for a matrix with unit columns stretched by positive factors they give back the unit columns up to 3.6 u per element (relative), and the orthogonality suffers by at most 7.3 u. In double precision factors that are powers of two are taken out to the last bit.", "quantifier": "All non-zero vectors and quaternions, all matrices with non-zero columns; all roundings with relative error u up to 1/1000; all powers of two. Overflow and subnormal numbers are left out.", "why_tests_cant": "The bounds hold for all directions and sizes at once; the importer relies on them for every file with a unit of its own.", "anchors": ["include/geolib/math_types.h:73-91", "include/geolib/math_types.h:211-230", "include/geolib/math_types.h:443-463", "include/geolib/math_types.h:687-709", "src/io/import.cpp:169-173"]}
{"id": "C134", "title": "Import of meshes in floating point arithmetic", "statement": "With every operation rounded, importing a scene fails if and only if exact arithmetic fails, gives the same triangles, and points whose coordinates are off by at most (1 + u)^(4 n + 5) - 1 times the largest sum of absolute terms a coordinate is made of, for meshes at most n levels down, provided the vertices fall in the same cells of a millimetre. For a successful import the bounds hold for whole files as well, with 4 n + 12 for dae files, whose root is normalised and inverted. Vertices fall in the same cells if they are clear of the borders, and in double precision also if they are floats and the scale is a whole number of thousandths (up to 2^29); on a border they need not.", "quantifier": "All trees of nodes and matrices, all meshes, scales and file names; all roundings with relative error u (up to 1/1000 for clear vertices and dae files). Overflow and subnormal numbers are left out.", "why_tests_cant": "The depth of the tree and the number of vertices are unbounded, and errors add up along the tree.", "anchors": ["src/io/import.cpp:34-131", "src/io/import.cpp:140-182"]}
{"id": "C135", "title": "Height maps in floating point arithmetic", "statement": "With every operation rounded, a ray hits a height map if and only if it hits the box of some positive column, with rounded corners, and the distance is that to such a column. For rays nearly parallel to no coordinate plane a ray through a positive column less a margin is reported, and a reported hit comes from a positive column enlarged by the margin, which is a small multiple of the distance plus the rounding of the corners. Where different heights, counting 0, are at least 2e-10 apart, the mesh consists of top rectangles over exactly the positive cells and walls at exactly the steps, with corners rounded and then moved within a cell of the vertex merge.", "quantifier": "All rectangular grids (for the mesh within the range of int, in millimetres), resolutions of at least 0 for rays, rays and ranges; all roundings with relative error u (for the rays also monotone; up to 1/1000 for margins and meshes). Overflow and subnormal numbers are left out.", "why_tests_cant": "Grids and rays are unbounded, and a column that is lost by rounding in the tree shows only for particular rays.", "anchors": ["src/HeightMap.cpp:39-46", "src/HeightMap.cpp:48-245", "src/HeightMap.cpp:248-294", "src/HeightMapNode.cpp:59-100"]}
{"id": "C136", "title": "Queries and mesh of octrees in floating point arithmetic", "statement": "With every operation rounded to double, a box query that answers yes has a cell of the tree within size / 2^53 of the box, and a box that reaches a cell by more than that margin is answered yes; a box that holds a point added since the last clearing is always answered yes, without a margin. A point query is false outside the tree and otherwise decided by a point that differs by at most size / 2^53, with the wrong cell numbers of exact arithmetic (C37). The mesh has the triangles of the listed cubes, corners moved within a cell of the vertex merge. The bounding box, asked for once, holds the listed cubes up to 2 mm and 1e-9, the points added since the last clearing up to (levels + 2) size / 2^53 more, and is inside every box that holds the listed cubes.", "quantifier": "All trees with a size that is a double and cells of at least 1e-10, for histories also of at most 2^19; all boxes that are not inside out, points and histories; for the mesh and the bounding box sizes below 4000 km, at most 2^29 cubes and 2^40 levels, and histories of additions and clearings. Overflow and subnormal numbers are left out.", "why_tests_cant": "Histories, depths and boxes are unbounded, and a point that is lost by rounding shows only at particular borders.", "anchors": ["src/Octree.cpp:110-118", "src/Octree.cpp:120-133", "src/Octree.cpp:135-151", "src/OctreeNode.cpp:227-259", "src/OctreeNode.cpp:262-300", "src/Shape.cpp:475-501"]}
{"id": "C137", "title": "Points outside of octrees in floating point arithmetic", "statement": "With every operation rounded to double, adding any points, in the tree or not, leaves exactly the tree that is left by adding the points of the tree nearest to them. So the listed cubes are those that hold such nearest points, up to (levels + 2) size / 2^53, and a box that holds one is found, while a box or point beyond the tree is answered no whatever was added there.", "quantifier": "All sizes that are doubles, cells from 1e-10 to 2^19, all histories of additions of any points and clearings (for the cubes up to 2^52 levels). Overflow and subnormal numbers are left out.", "why_tests_cant": "Places outside the tree are unbounded, and so are histories; a path that leaves the outermost cells because of rounding shows only for particular points.", "anchors": ["src/Octree.cpp:45-49", "src/OctreeNode.cpp:47-84", "src/Octree.cpp:110-118", "src/Octree.cpp:120-133"]}
{"id": "C138", "title": "Octrees remember only the points in floating point arithmetic", "statement": "With every operation rounded to double, two histories of additions and clearings after which the same points are kept, or points with the same nearest points in the tree, leave octrees that cannot be told apart: the same cubes are listed in the same order, every point and every box gets the same answer, and the mesh and the bounding box are the same.", "quantifier": "All sizes that are doubles, cells from 1e-10 to 2^19, all pairs of histories of additions of any points and clearings. Overflow and subnormal numbers are left out.", "why_tests_cant": "Orders and repetitions of additions are unbounded in number; a trace of the history shows only for particular pairs.", "anchors": ["src/Octree.cpp:38-43", "src/Octree.cpp:45-49", "src/Octree.cpp:51-54", "src/Octree.cpp:110-118", "src/Octree.cpp:120-133", "src/Octree.cpp:135-151", "src/OctreeNode.cpp:47-84", "src/OctreeNode.cpp:87-111"]}
{"id": "C139", "title": "Asking octrees changes no answers in floating point arithmetic", "statement": "With every operation rounded, an octree that is asked for its mesh and its bounding box between additions and clearings answers afterwards as an octree that was never asked: the same cubes in the same order, the same answers for every point and every box, the same mesh and the same bounding box.", "quantifier": "All roundings, sizes and resolutions for which a tree is made, and all histories of additions, clearings and queries that come to an end.", "why_tests_cant": "Histories are unbounded, and a cache that is out of date shows only for particular ones.", "anchors": ["src/Octree.cpp:38-43", "src/Octree.cpp:45-49", "src/Octree.cpp:135-151", "src/Shape.cpp:475-501"]}
{"id": "C140", "title": "Rays through octrees in floating point arithmetic", "statement": "With every operation rounded, every query of an octree with a ray comes to an end, and its answer is yes only if the ray meets a cube of the tree.", "quantifier": "All roundings (the end: those to double and float), all trees that are made by the calls, all rays and all ranges of the query.", "why_tests_cant": "Trees and rays are unbounded, and the step along the ray is lost in rounding only for rays that begin far from the tree.", "anchors": ["src/Octree.cpp:71-86", "src/OctreeNode.cpp:114-174", "src/Box.cpp:31-61"]}
