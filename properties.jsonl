{"id": "C01", "title": "Vector arithmetic is component-wise", "statement": "For vec2, vec3 and vec4, the components read back from add, subtract, multiply, scale, negate, min, max and interpolate are exactly the corresponding scalar operation on the operands' components, whatever values the components hold and whichever SIMD backend is compiled in.", "quantifier": "all vectors, all factors, all backends", "why_tests_cant": "The claim ranges over all values of several floats (including signed zeros, subnormals, infinities, NaN); tests sample a few literals.", "anchors": ["src/graphene-vectors.c:graphene_vec2_add", "src/graphene-vectors.c:graphene_vec3_interpolate", "src/graphene-vectors.c:graphene_vec4_min", "include/graphene-simd4f.h"]}
{"id": "C02", "title": "Float-array round trips are lossless and stay in bounds", "statement": "Writing a vec2, vec3, vec4 or matrix to a float array and initialising a new object from that array gives back the same components bit for bit (NaN and signed zeros included); exactly 2, 3, 4 or 16 array elements are written and elements beyond them are untouched; a shorter array is never accepted silently; an object initialised from an array is indistinguishable from one initialised with those components one by one.", "quantifier": "all objects, all array contents, all array lengths", "why_tests_cant": "The claim ranges over all values of several floats (including signed zeros, subnormals, infinities, NaN); tests sample a few literals.", "anchors": ["src/graphene-vectors.c:graphene_vec3_to_float", "src/graphene-matrix.c:graphene_matrix_to_float", "src/graphene-matrix.c:graphene_matrix_init_from_float"]}
{"id": "C03", "title": "Dot product and length are the Euclidean ones", "statement": "vec2/vec3/vec4 dot is the sum of products of the components and length is the square root of the self dot product, on every backend; hence length is zero exactly for the zero vector and the Cauchy-Schwarz inequality holds.", "quantifier": "all vectors over exact arithmetic, all backends", "why_tests_cant": "The claim is an identity or inequality over a continuum of inputs; a test compares a handful of literals with a tolerance and cannot show it for all inputs.", "anchors": ["src/graphene-vectors.c:graphene_vec3_dot", "src/graphene-vectors.c:graphene_vec4_length", "include/graphene-simd4f.h:graphene_simd4f_dot3_scalar"]}
{"id": "C04", "title": "Normalising gives a unit vector in the same direction, or zero", "statement": "vec2/vec3/vec4 normalize of a vector longer than FLT_EPSILON (on the plain C backend: longer than sqrt(FLT_EPSILON)) has length one and is a positive multiple of the input; for a vector of length at most FLT_EPSILON the result is exactly the zero vector (never NaN). On the plain C backend vectors with a length between the two are flushed to zero, which is shown by a counter-example to the uniform claim.", "quantifier": "all vectors, all backends", "why_tests_cant": "The claim is an identity or inequality over a continuum of inputs; a test compares a handful of literals with a tolerance and cannot show it for all inputs.", "anchors": ["src/graphene-vectors.c:graphene_vec2_normalize", "src/graphene-vectors.c:graphene_vec3_normalize", "src/graphene-vectors.c:graphene_vec4_normalize"]}
{"id": "C05", "title": "Cross product is the right-handed cross product", "statement": "vec3 cross equals the mathematical cross product: it is orthogonal to both operands, anti-commutative, and zero exactly for parallel operands, on every backend.", "quantifier": "all pairs of vectors, all backends", "why_tests_cant": "The claim is an identity or inequality over a continuum of inputs; a test compares a handful of literals with a tolerance and cannot show it for all inputs.", "anchors": ["src/graphene-vectors.c:graphene_vec3_cross", "include/graphene-simd4f.h:graphene_simd4f_cross3"]}
{"id": "C06", "title": "Vector near/equal mean Euclidean distance below the tolerance", "statement": "vecN_near(a,b,eps) for eps>=0 is true exactly when the Euclidean distance of the components is below eps; vecN_equal(a,b) is true exactly when the components are identical or at distance below FLT_EPSILON (on the SSE, GCC and NEON backends).", "quantifier": "all pairs of vectors, all tolerances", "why_tests_cant": "The claim is an identity or inequality over a continuum of inputs; a test compares a handful of literals with a tolerance and cannot show it for all inputs.", "anchors": ["src/graphene-vectors.c:graphene_vec3_near", "src/graphene-vectors.c:vec3_equal"]}
{"id": "C07", "title": "Hidden lanes never leak into vec2/vec3 results", "statement": "The components, dot product, length, normalised components, cross product and near test of vec2 and vec3 do not depend on the unused SIMD lanes, whatever garbage (NaN, infinities) earlier operations left there.", "quantifier": "all visible components and all hidden-lane contents", "why_tests_cant": "The claim ranges over all values of several floats (including signed zeros, subnormals, infinities, NaN); tests sample a few literals.", "anchors": ["src/graphene-vectors.c:graphene_vec2_divide", "src/graphene-vectors.c:graphene_vec3_near", "src/graphene-vectors.c:graphene_vec3_get_xyz1"]}
{"id": "C08", "title": "equal is reflexive, symmetric and NULL-safe for every type", "statement": "For each type with an _equal function: an object equals itself (even with NaN members), NULL equals only NULL, and equal(a,b) = equal(b,a) for every pair of pointers.", "quantifier": "all memories, all pointers, all types", "why_tests_cant": "The claim ranges over all values of several floats (including signed zeros, subnormals, infinities, NaN); tests sample a few literals.", "anchors": ["src/graphene-private.h:graphene_pointer_equal", "src/graphene-vectors.c:graphene_vec3_equal", "src/graphene-ray.c:graphene_ray_equal"]}
{"id": "C09", "title": "SIMD min/max/clamp select the right operand", "statement": "For operands that are not NaN, each lane of min, max, clamp, min_val and max_val is one of the candidate values and is the least / greatest of them, on every backend, including infinities; min_val and max_val put the extremum of the four lanes in every lane.", "quantifier": "all non-NaN IEEE operands, all backends", "why_tests_cant": "The claim ranges over all values of several floats (including signed zeros, subnormals, infinities, NaN); tests sample a few literals.", "anchors": ["include/graphene-simd4f.h:graphene_simd4f_min", "include/graphene-simd4f.h:graphene_simd4f_min_val", "include/graphene-simd4f.h:graphene_simd4f_clamp"]}
{"id": "C10", "title": "All backends agree in exact arithmetic", "statement": "Apart from rounding, the SSE, GCC, NEON and scalar implementations of add, sub, mul, div, sqrt, rsqrt, reciprocal, dot3, dot4, cross3, madd, neg compute the same lanes for the same operands. (The plain C backend returns 0 for divisors and radicands up to FLT_EPSILON, shown by a counter-example to the claim without that bound.)", "quantifier": "all operands for which the operation is mathematically defined and, on the plain C backend, divisors and radicands above FLT_EPSILON", "why_tests_cant": "The claim is an identity or inequality over a continuum of inputs; a test compares a handful of literals with a tolerance and cannot show it for all inputs.", "anchors": ["include/graphene-simd4f.h", "src/graphene-simd4f.c"]}
{"id": "C11", "title": "SIMD comparisons compare every lane", "statement": "cmp_lt/le/gt/ge are true exactly when the relation holds in all four lanes (any NaN lane makes them false) on every backend; cmp_eq is IEEE equality of all four lanes on the SSE, GCC and NEON backends; cmp_neq is the complement of cmp_eq on every backend. (On the plain C backend cmp_eq is an approximate comparison that even accepts NaN lanes, shown by a counter-example.)", "quantifier": "all IEEE lane values, all backends", "why_tests_cant": "The claim ranges over all values of several floats (including signed zeros, subnormals, infinities, NaN); tests sample a few literals.", "anchors": ["include/graphene-simd4f.h:graphene_simd4f_cmp_eq", "src/graphene-simd4f.c:approx_equal", "include/graphene-simd4f.h:graphene_simd4f_cmp_le"]}
{"id": "C12", "title": "Point distances form the Euclidean metric", "statement": "point and point3d distance are non-negative, zero exactly for identical points, symmetric, satisfy the triangle inequality; distance_squared is the square of distance; the reported per-axis deltas are the absolute coordinate differences.", "quantifier": "all pairs and triples of points", "why_tests_cant": "The claim is an identity or inequality over a continuum of inputs; a test compares a handful of literals with a tolerance and cannot show it for all inputs.", "anchors": ["src/graphene-point.c:graphene_point_distance", "src/graphene-point3d.c:graphene_point3d_distance"]}
{"id": "C13", "title": "Interpolation hits both endpoints and stays between them", "statement": "point, point3d, size, rect and vec interpolation return the first operand for factor 0, the second for factor 1, and for factors in [0,1] every component lies between the operands' components.", "quantifier": "all operands, all factors in [0,1]", "why_tests_cant": "The claim is an identity or inequality over a continuum of inputs; a test compares a handful of literals with a tolerance and cannot show it for all inputs.", "anchors": ["src/graphene-private.h:graphene_flerpf", "src/graphene-point.c:graphene_point_interpolate", "src/graphene-rect.c:graphene_rect_interpolate"]}
{"id": "C14", "title": "Interpolation endpoints are exact in floating point", "statement": "For finite operands, point, point3d, size and rect interpolation with factor 0 returns a value equal to the first operand and with factor 1 the second, with no rounding error at all.", "quantifier": "all finite IEEE operands", "why_tests_cant": "The claim ranges over all values of several floats (including signed zeros, subnormals, infinities, NaN); tests sample a few literals.", "anchors": ["src/graphene-private.h:graphene_flerpf", "src/graphene-size.c:graphene_size_interpolate"]}
{"id": "C15", "title": "Point near/equal is a per-axis tolerance", "statement": "point_near / point3d_near are true exactly when every coordinate differs by less than epsilon; equal uses FLT_EPSILON; size_equal likewise on width and height.", "quantifier": "all pairs, all tolerances", "why_tests_cant": "The claim is an identity or inequality over a continuum of inputs; a test compares a handful of literals with a tolerance and cannot show it for all inputs.", "anchors": ["src/graphene-point.c:graphene_point_near", "src/graphene-point3d.c:graphene_point3d_near", "src/graphene-size.c:size_equal"]}
{"id": "C16", "title": "normalize_viewport stays in [-1,1]", "statement": "Every coordinate computed by point3d_normalize_viewport is within [-1,1] (or NaN when the division is undefined), and for points inside a non-degenerate viewport it is the affine map sending the near corner to -1 and the far corner to 1.", "quantifier": "all points, viewports, depth ranges", "why_tests_cant": "The claim ranges over all values of several floats (including signed zeros, subnormals, infinities, NaN); tests sample a few literals.", "anchors": ["src/graphene-point3d.c:graphene_point3d_normalize_viewport"]}
{"id": "C17", "title": "Rectangle normalisation preserves the area covered", "statement": "After normalisation width and height are not negative, the set of covered points is unchanged, and normalising again changes nothing, for any signs of width and height.", "quantifier": "all rectangles", "why_tests_cant": "The claim is an identity or inequality over a continuum of inputs; a test compares a handful of literals with a tolerance and cannot show it for all inputs.", "anchors": ["src/graphene-rect.c:graphene_rect_normalize", "src/graphene-rect.c:graphene_rect_init"]}
{"id": "C18", "title": "Rectangle accessors describe the same rectangle for every representation", "statement": "x, y, width, height, area, centre, the four corners and the vertex list depend only on the covered area: two rectangles covering the same points give the same answers, corners are in the documented clockwise order and the centre is the middle.", "quantifier": "all rectangles including negative sizes", "why_tests_cant": "The claim is an identity or inequality over a continuum of inputs; a test compares a handful of literals with a tolerance and cannot show it for all inputs.", "anchors": ["src/graphene-rect.c:graphene_rect_get_center", "src/graphene-rect.c:graphene_rect_get_vertices", "src/graphene-rect.c:graphene_rect_get_area"]}
{"id": "C19", "title": "rect_union is the smallest rectangle covering both", "statement": "The union contains both operands and is contained in every rectangle that contains both.", "quantifier": "all pairs of rectangles including negative sizes", "why_tests_cant": "The claim is an identity or inequality over a continuum of inputs; a test compares a handful of literals with a tolerance and cannot show it for all inputs.", "anchors": ["src/graphene-rect.c:graphene_rect_union", "src/graphene-rect.c:graphene_rect_expand"]}
{"id": "C20", "title": "rect_intersection is the exact overlap", "statement": "rect_intersection returns true exactly when the interiors overlap, and then the result covers exactly the common points; otherwise the result is the zero rectangle.", "quantifier": "all pairs of rectangles including negative sizes", "why_tests_cant": "The claim is an identity or inequality over a continuum of inputs; a test compares a handful of literals with a tolerance and cannot show it for all inputs.", "anchors": ["src/graphene-rect.c:graphene_rect_intersection"]}
{"id": "C21", "title": "rect_contains_point is closed membership; contains_rect is inclusion up to epsilon", "statement": "contains_point is true exactly for points of the closed rectangle; contains_rect is true whenever every point of the second rectangle belongs to the first, and only if no side sticks out by FLT_EPSILON or more.", "quantifier": "all rectangles and points", "why_tests_cant": "The claim is an identity or inequality over a continuum of inputs; a test compares a handful of literals with a tolerance and cannot show it for all inputs.", "anchors": ["src/graphene-rect.c:graphene_rect_contains_point", "src/graphene-rect.c:graphene_rect_contains_rect"]}
{"id": "C22", "title": "Rectangle equality ignores representation", "statement": "rect_equal is true for any two rectangles covering the same area and false as soon as a coordinate of the origin or a size of the normalised rectangles differs by FLT_EPSILON or more.", "quantifier": "all pairs of rectangles", "why_tests_cant": "The claim is an identity or inequality over a continuum of inputs; a test compares a handful of literals with a tolerance and cannot show it for all inputs.", "anchors": ["src/graphene-rect.c:rect_equal"]}
{"id": "C23", "title": "offset, inset, expand and scale do what they say", "statement": "offset translates the covered area; a non-negative inset of at most half the size removes a border of that width, a negative one adds it, and sizes never become negative; expand gives the smallest rectangle that also contains the point; scale multiplies both coordinates of every covered point (negative factors included).", "quantifier": "all rectangles, all arguments", "why_tests_cant": "The claim is an identity or inequality over a continuum of inputs; a test compares a handful of literals with a tolerance and cannot show it for all inputs.", "anchors": ["src/graphene-rect.c:graphene_rect_offset_r", "src/graphene-rect.c:graphene_rect_inset_r", "src/graphene-rect.c:graphene_rect_scale", "src/graphene-rect.c:graphene_rect_expand"]}
{"id": "C24", "title": "round_extents gives the smallest integer rectangle containing the original", "statement": "The rounded rectangle has integer edges, contains the original and is contained in every integer-edged rectangle containing it.", "quantifier": "all rectangles", "why_tests_cant": "The claim is an identity or inequality over a continuum of inputs; a test compares a handful of literals with a tolerance and cannot show it for all inputs.", "anchors": ["src/graphene-rect.c:graphene_rect_round_extents"]}
{"id": "C25", "title": "rect_round contains the original rectangle", "statement": "The documentation of rect_round promises a result whose area covers the original; the rounded rectangle should contain every point of the original.", "quantifier": "all rectangles", "why_tests_cant": "The claim is an identity or inequality over a continuum of inputs; a test compares a handful of literals with a tolerance and cannot show it for all inputs.", "anchors": ["src/graphene-rect.c:graphene_rect_round"]}
{"id": "C26", "title": "Result pointers may alias the arguments", "statement": "normalize_r, offset_r, inset_r, round, round_extents, scale, union and matrix multiply store the same value whether or not the result pointer equals an argument pointer, and touch no other object.", "quantifier": "all memories and all pointer aliasing patterns", "why_tests_cant": "The claim ranges over all values of several floats (including signed zeros, subnormals, infinities, NaN); tests sample a few literals.", "anchors": ["src/graphene-rect.c:graphene_rect_offset_r", "src/graphene-rect.c:graphene_rect_union", "include/graphene-simd4x4f.h:graphene_simd4x4f_matrix_mul"]}
{"id": "C27", "title": "quad_contains is membership in the convex quadrilateral", "statement": "For a quadrilateral with corners in convex position and order, quad_contains is true exactly for the points of its convex hull; for a quad made from a non-degenerate rectangle it coincides with rect_contains_point.", "quantifier": "all convex quads, all points", "why_tests_cant": "The claim is an identity or inequality over a continuum of inputs; a test compares a handful of literals with a tolerance and cannot show it for all inputs.", "anchors": ["src/graphene-quad.c:graphene_quad_contains", "src/graphene-line-segment-private.h"]}
{"id": "C28", "title": "quad_bounds is the smallest rectangle containing the corners", "statement": "Every corner is inside the bounds, and every rectangle containing the four corners contains the bounds; get_point returns the stored corners.", "quantifier": "all quads", "why_tests_cant": "The claim is an identity or inequality over a continuum of inputs; a test compares a handful of literals with a tolerance and cannot show it for all inputs.", "anchors": ["src/graphene-quad.c:graphene_quad_bounds", "src/graphene-quad.c:graphene_quad_get_point"]}
{"id": "C29", "title": "A box built from points contains exactly what it must", "statement": "box/box2d init_from_points and init_from_vectors give the smallest box containing every given point, for any number of points in any order, in floating point; the result for no points is the empty box.", "quantifier": "all finite lists of non-NaN points, any length (vectors: with a non-NaN unused lane)", "why_tests_cant": "The claim ranges over all values of several floats (including signed zeros, subnormals, infinities, NaN); tests sample a few literals.", "anchors": ["src/graphene-box.c:graphene_box_init_from_points", "src/graphene-box2d.c:graphene_box2d_init_from_points", "src/graphene-box.c:graphene_box_expand"]}
{"id": "C30", "title": "The empty and infinite boxes behave as such", "statement": "The empty box contains no point and is the neutral element of union and expand; the infinite box contains every point (no NaN needed) and is neutral for intersection; is_empty / is_infinity-dependent queries (size, centre) return the documented constants.", "quantifier": "all points, all boxes", "why_tests_cant": "The claim ranges over all values of several floats (including signed zeros, subnormals, infinities, NaN); tests sample a few literals.", "anchors": ["src/graphene-box.c:graphene_box_empty", "src/graphene-box2d.c:graphene_box2d_infinite", "src/graphene-box.c:graphene_box_get_size"]}
{"id": "C31", "title": "Box intersection is the set of common points", "statement": "A point is contained in the intersection result exactly when it is contained in both boxes; the returned flag is true exactly when a common point exists; when false the result is the empty box; box2d_intersects agrees with the flag.", "quantifier": "all boxes with non-NaN bounds, all points", "why_tests_cant": "The claim ranges over all values of several floats (including signed zeros, subnormals, infinities, NaN); tests sample a few literals.", "anchors": ["src/graphene-box.c:graphene_box_intersection", "src/graphene-box2d.c:graphene_box2d_intersection", "include/graphene-box2d.h:graphene_box2d_intersects"]}
{"id": "C32", "title": "Box union is the smallest box containing both", "statement": "The union contains both boxes and every box that contains both contains it.", "quantifier": "all boxes that are empty or have min <= max, with non-NaN bounds", "why_tests_cant": "The claim ranges over all values of several floats (including signed zeros, subnormals, infinities, NaN); tests sample a few literals.", "anchors": ["src/graphene-box.c:graphene_box_union", "src/graphene-box2d.c:graphene_box2d_union"]}
{"id": "C33", "title": "contains_box means inclusion of point sets", "statement": "box_contains_box(a,b) is true exactly when every point contained in b is contained in a, including when empty or infinite boxes are involved.", "quantifier": "all pairs of boxes", "why_tests_cant": "The claim ranges over all values of several floats (including signed zeros, subnormals, infinities, NaN); tests sample a few literals.", "anchors": ["src/graphene-box.c:graphene_box_contains_box", "src/graphene-box2d.c:graphene_box2d_contains_box"]}
{"id": "C34", "title": "expand_scalar grows (or shrinks) the box on every side", "statement": "box_expand_scalar(b, s) moves every face outwards by s: a point is contained exactly when it lies between min - s and max + s, for any sign of s.", "quantifier": "all boxes, all scalars, all points", "why_tests_cant": "The claim ranges over all values of several floats (including signed zeros, subnormals, infinities, NaN); tests sample a few literals.", "anchors": ["src/graphene-box.c:graphene_box_expand_scalar", "src/graphene-box2d.c:graphene_box2d_expand_scalar"]}
{"id": "C35", "title": "Box measurements are consistent", "statement": "width, height, depth, size, centre, min, max and the vertex list of a finite box are those of the box spanned by its two corners; all eight (four) vertices are contained and the bounding sphere contains the whole box.", "quantifier": "all finite boxes with min <= max", "why_tests_cant": "The claim is an identity or inequality over a continuum of inputs; a test compares a handful of literals with a tolerance and cannot show it for all inputs.", "anchors": ["src/graphene-box.c:graphene_box_get_vertices", "src/graphene-box.c:graphene_box_get_bounding_sphere", "src/graphene-box2d.c:graphene_box2d_get_center"]}
{"id": "C36", "title": "box2d scale/offset and rectangle conversions preserve the covered area", "statement": "scale_offset maps the corners by the given scale and offset; to_rect of a box2d covers the same points, and converting a rectangle to a box2d covers the same points as the rectangle.", "quantifier": "all boxes and rectangles", "why_tests_cant": "The claim is an identity or inequality over a continuum of inputs; a test compares a handful of literals with a tolerance and cannot show it for all inputs.", "anchors": ["src/graphene-box2d.c:graphene_box2d_scale_offset", "src/graphene-box2d.c:graphene_box2d_to_rect", "src/graphene-box2d.c:graphene_box2d_init_from_rect"]}
{"id": "C37", "title": "A sphere built from points contains all of them", "statement": "sphere init_from_points / init_from_vectors, with or without an explicit centre, yields a sphere containing every given point; with an explicit centre no smaller radius would do.", "quantifier": "all non-empty lists of points of any length, all centres, in exact arithmetic (the float radius may be rounded down: counter-example)", "why_tests_cant": "The claim is an identity or inequality over a continuum of inputs; a test compares a handful of literals with a tolerance and cannot show it for all inputs.", "anchors": ["src/graphene-sphere.c:graphene_sphere_init_from_points", "src/graphene-sphere.c:graphene_sphere_init_from_vectors"]}
{"id": "C38", "title": "Sphere containment, distance and bounding box agree", "statement": "contains_point is true exactly when the distance from the centre is at most the radius; distance is negative/zero/positive inside/on/outside; the bounding box contains every contained point and touches the sphere; is_empty exactly when radius <= 0.", "quantifier": "all spheres with non-negative radius, all points", "why_tests_cant": "The claim is an identity or inequality over a continuum of inputs; a test compares a handful of literals with a tolerance and cannot show it for all inputs.", "anchors": ["src/graphene-sphere.c:graphene_sphere_contains_point", "src/graphene-sphere.c:graphene_sphere_get_bounding_box"]}
{"id": "C39", "title": "Translating a sphere moves it and keeps its radius", "statement": "sphere_translate stores the sphere with the same radius and the centre moved by the point.", "quantifier": "all spheres, all offsets, any prior content of the result", "why_tests_cant": "The claim is an identity or inequality over a continuum of inputs; a test compares a handful of literals with a tolerance and cannot show it for all inputs.", "anchors": ["src/graphene-sphere.c:graphene_sphere_translate"]}
{"id": "C40", "title": "Planes built from points pass through them", "statement": "plane init_from_point has the given normal and passes through the point; init_from_points gives a unit normal orthogonal to both edges, oriented counter-clockwise, and all three points at distance zero (when the points are not collinear).", "quantifier": "all points and normals", "why_tests_cant": "The claim is an identity or inequality over a continuum of inputs; a test compares a handful of literals with a tolerance and cannot show it for all inputs.", "anchors": ["src/graphene-plane.c:graphene_plane_init_from_points", "src/graphene-plane.c:graphene_plane_init_from_point"]}
{"id": "C41", "title": "Plane distance, normalise and negate", "statement": "For a unit normal, plane_distance is the signed Euclidean distance to the plane; normalize keeps the same set of points and orientation and makes the normal unit; negate keeps the set of points and flips the sign of every distance.", "quantifier": "all planes with normal longer than FLT_EPSILON (longer than sqrt(FLT_EPSILON) on the plain C backend; counter-example below), all points", "why_tests_cant": "The claim is an identity or inequality over a continuum of inputs; a test compares a handful of literals with a tolerance and cannot show it for all inputs.", "anchors": ["src/graphene-plane.c:graphene_plane_distance", "src/graphene-plane.c:graphene_plane_normalize", "src/graphene-plane.c:graphene_plane_negate"]}
{"id": "C42", "title": "plane_transform maps the plane's points", "statement": "Transforming a plane by a matrix gives the plane containing the image of every point of the original plane, with a unit normal; the result never depends on uninitialised memory.", "quantifier": "all planes with unit normals, all matrices", "why_tests_cant": "The claim is an identity or inequality over a continuum of inputs; a test compares a handful of literals with a tolerance and cannot show it for all inputs.", "anchors": ["src/graphene-plane.c:graphene_plane_transform"]}
{"id": "C43", "title": "Triangle measures: area, midpoint, normal, plane, bounding box", "statement": "area is half the norm of the cross product of two edges and invariant under permutation of the vertices; midpoint is the centroid; the normal is unit and orthogonal to the edges (zero when degenerate); the plane contains the vertices; the bounding box is the smallest containing them.", "quantifier": "all triangles", "why_tests_cant": "The claim is an identity or inequality over a continuum of inputs; a test compares a handful of literals with a tolerance and cannot show it for all inputs.", "anchors": ["src/graphene-triangle.c:graphene_triangle_get_area", "src/graphene-triangle.c:graphene_triangle_get_normal", "src/graphene-triangle.c:graphene_triangle_get_bounding_box"]}
{"id": "C44", "title": "Barycentric coordinates reconstruct the point", "statement": "get_barycoords returns (u,v) with a + u(c-a) + v(b-a) equal to the orthogonal projection of the point on the triangle's plane (the point itself when coplanar); it returns false exactly when the triangle is degenerate up to FLT_EPSILON; get_uv interpolates the three texture coordinates with these weights.", "quantifier": "all triangles and points", "why_tests_cant": "The claim is an identity or inequality over a continuum of inputs; a test compares a handful of literals with a tolerance and cannot show it for all inputs.", "anchors": ["src/graphene-triangle.c:graphene_triangle_get_barycoords", "src/graphene-triangle.c:graphene_triangle_get_uv"]}
{"id": "C45", "title": "triangle_contains_point is membership in the triangle", "statement": "For a non-degenerate triangle and a point of its plane, contains_point is true exactly when the point is in the (closed) triangle.", "quantifier": "all non-degenerate triangles, all coplanar points", "why_tests_cant": "The claim is an identity or inequality over a continuum of inputs; a test compares a handful of literals with a tolerance and cannot show it for all inputs.", "anchors": ["src/graphene-triangle.c:graphene_triangle_contains_point"]}
{"id": "C46", "title": "Rays are normalised and parametrised by distance", "statement": "The direction of an initialised ray is unit (or zero), get_position_at(t) is origin + t*direction, and its distance from the origin is |t|.", "quantifier": "all origins, directions, parameters", "why_tests_cant": "The claim is an identity or inequality over a continuum of inputs; a test compares a handful of literals with a tolerance and cannot show it for all inputs.", "anchors": ["src/graphene-ray.c:graphene_ray_init", "src/graphene-ray.c:graphene_ray_get_position_at"]}
{"id": "C47", "title": "Closest point and distance from a ray to a point", "statement": "get_closest_point_to_point returns the point of the half-line nearest to the given point and get_distance_to_point its distance: no point of the half-line is closer.", "quantifier": "all rays with unit direction, all points", "why_tests_cant": "The claim is an identity or inequality over a continuum of inputs; a test compares a handful of literals with a tolerance and cannot show it for all inputs.", "anchors": ["src/graphene-ray.c:graphene_ray_get_closest_point_to_point", "src/graphene-ray.c:graphene_ray_get_distance_to_point"]}
{"id": "C48", "title": "Distance from a ray to a plane", "statement": "If get_distance_to_plane returns a finite t then t >= 0 and the point at t is on the plane; if the ray is not parallel to the plane (beyond FLT_EPSILON) and meets it, that t is returned.", "quantifier": "all rays and planes", "why_tests_cant": "The claim is an identity or inequality over a continuum of inputs; a test compares a handful of literals with a tolerance and cannot show it for all inputs.", "anchors": ["src/graphene-ray.c:graphene_ray_get_distance_to_plane"]}
{"id": "C49", "title": "Ray-sphere intersection is exact", "statement": "intersects_sphere is true exactly when the half-line meets the ball; ENTER is reported with the smallest parameter at which the ray reaches the sphere when it starts outside, LEAVE with the exit parameter when it starts inside.", "quantifier": "all rays with unit direction, all spheres", "why_tests_cant": "The claim is an identity or inequality over a continuum of inputs; a test compares a handful of literals with a tolerance and cannot show it for all inputs.", "anchors": ["src/graphene-ray.c:graphene_ray_intersect_sphere"]}
{"id": "C50", "title": "Ray-box intersection is exact", "statement": "intersects_box is true exactly when the half-line meets the box; ENTER/LEAVE with the first boundary parameter according to whether the ray starts outside or inside.", "quantifier": "all rays whose direction components are non-zero (exact arithmetic), all boxes with min <= max", "why_tests_cant": "The claim is an identity or inequality over a continuum of inputs; a test compares a handful of literals with a tolerance and cannot show it for all inputs.", "anchors": ["src/graphene-ray.c:graphene_ray_intersect_box"]}
{"id": "C51", "title": "Ray-triangle intersection is exact", "statement": "For a ray not parallel to the triangle's plane, intersects_triangle is true exactly when the half-line meets the closed triangle; the reported t is the parameter of the meeting point and the kind tells the side (ENTER front face, LEAVE back face).", "quantifier": "all rays, all triangles", "why_tests_cant": "The claim is an identity or inequality over a continuum of inputs; a test compares a handful of literals with a tolerance and cannot show it for all inputs.", "anchors": ["src/graphene-ray.c:graphene_ray_intersect_triangle"]}
{"id": "C52", "title": "Matrix multiplication is the matrix product", "statement": "graphene_matrix_multiply(a,b) is the product a*b of the row matrices; it is associative, has the identity as neutral element, and transforming a vector by the product equals transforming by a then by b; the same for points when a is affine.", "quantifier": "all matrices, vectors, points", "why_tests_cant": "The claim is an identity or inequality over a continuum of inputs; a test compares a handful of literals with a tolerance and cannot show it for all inputs.", "anchors": ["src/graphene-matrix.c:graphene_matrix_multiply", "src/graphene-matrix.c:graphene_matrix_transform_vec4", "include/graphene-simd4x4f.h:graphene_simd4x4f_matrix_mul"]}
{"id": "C53", "title": "Determinant and singularity", "statement": "matrix_determinant is the mathematical determinant (multiplicative, transpose-invariant) on every backend; is_singular is true exactly when its absolute value is at most FLT_EPSILON.", "quantifier": "all matrices, all backends", "why_tests_cant": "The claim is an identity or inequality over a continuum of inputs; a test compares a handful of literals with a tolerance and cannot show it for all inputs.", "anchors": ["src/graphene-matrix.c:graphene_matrix_determinant", "src/graphene-matrix.c:graphene_matrix_is_singular", "include/graphene-simd4x4f.h:graphene_simd4x4f_determinant"]}
{"id": "C54", "title": "Inverse is a two-sided inverse, and fails exactly for near-singular matrices", "statement": "matrix_inverse returns true exactly when |det| >= FLT_EPSILON, and then the product with the original in either order is the identity; is_backface_visible is the sign of the inverse's z scale. (On the plain C backend |det| must exceed FLT_EPSILON; at equality success is reported with a zero matrix, shown by a counter-example.)", "quantifier": "all matrices, all backends (plain C: |det| different from FLT_EPSILON)", "why_tests_cant": "The claim is an identity or inequality over a continuum of inputs; a test compares a handful of literals with a tolerance and cannot show it for all inputs.", "anchors": ["src/graphene-matrix.c:graphene_matrix_inverse", "include/graphene-simd4x4f.h:graphene_simd4x4f_inverse"]}
{"id": "C55", "title": "Element access: rows, values, transpose", "statement": "get_value(r,c) is the c-th component of get_row(r), zero out of range; init_from_vec4/init_from_float lay out rows in order; transpose swaps r and c and is an involution; translation/scale getters read the documented entries.", "quantifier": "all matrices, all indices (also out of range), bit-exact", "why_tests_cant": "The claim ranges over all values of several floats (including signed zeros, subnormals, infinities, NaN); tests sample a few literals.", "anchors": ["src/graphene-matrix.c:graphene_matrix_get_value", "src/graphene-matrix.c:graphene_matrix_transpose", "src/graphene-matrix.c:graphene_matrix_get_row"]}
{"id": "C56", "title": "Translate, scale, rotate append, skew prepends the documented transformation", "statement": "init_translate/scale/skew/rotate map points as documented, translate/scale/rotate append that transformation after the existing one, skew_xy/xz/yz put it before the existing one, rotation matrices are orthogonal with determinant one, angles add up about the same axis and the axis is fixed.", "quantifier": "all matrices, offsets, factors, angles and axes", "why_tests_cant": "The claim is an identity or inequality over a continuum of inputs; a test compares a handful of literals with a tolerance and cannot show it for all inputs.", "anchors": ["src/graphene-matrix.c:graphene_matrix_translate", "src/graphene-matrix.c:graphene_matrix_scale", "src/graphene-matrix.c:graphene_matrix_rotate", "include/graphene-simd4x4f.h:graphene_simd4x4f_rotation"]}
{"id": "C57", "title": "Transforming points, vectors and bounds", "statement": "transform_point(3d) applies the affine part (rotation/scale and translation), transform_vec3 ignores translation, transform_rect maps the four corners in order and transform_bounds / transform_box return axis-aligned bounds containing the image of every point of the rectangle / box.", "quantifier": "all affine matrices, rectangles, boxes, points", "why_tests_cant": "The claim is an identity or inequality over a continuum of inputs; a test compares a handful of literals with a tolerance and cannot show it for all inputs.", "anchors": ["src/graphene-matrix.c:graphene_matrix_transform_bounds", "src/graphene-matrix.c:graphene_matrix_transform_rect", "src/graphene-matrix.c:graphene_matrix_transform_box"]}
{"id": "C58", "title": "A transformed sphere contains the image of the sphere", "statement": "transform_sphere returns a sphere that contains the image of every point of the original under the matrix.", "quantifier": "all affine matrices, all spheres", "why_tests_cant": "The claim is an identity or inequality over a continuum of inputs; a test compares a handful of literals with a tolerance and cannot show it for all inputs.", "anchors": ["src/graphene-matrix.c:graphene_matrix_transform_sphere"]}
{"id": "C59", "title": "Objects returned by transform_box / transform_sphere can be used like any other", "statement": "Transforming by the identity matrix returns an equivalent box / sphere: containment queries on the result give the same answers as on the original.", "quantifier": "all boxes, spheres and points", "why_tests_cant": "The claim ranges over all values of several floats (including signed zeros, subnormals, infinities, NaN); tests sample a few literals.", "anchors": ["src/graphene-matrix.c:graphene_matrix_transform_box", "src/graphene-matrix.c:graphene_matrix_transform_sphere", "include/graphene-simd4x4f.h:graphene_simd4x4f_point3_mul"]}
{"id": "C60", "title": "untransform_point inverts transform_point for 2D transforms", "statement": "For an invertible 2D affine matrix, untransform_point(transform_point(p)) = p; untransform_bounds covers the rectangle; the failure cases leave the result unwritten only when false is reported.", "quantifier": "all invertible 2D affine matrices, all points", "why_tests_cant": "The claim is an identity or inequality over a continuum of inputs; a test compares a handful of literals with a tolerance and cannot show it for all inputs.", "anchors": ["src/graphene-matrix.c:graphene_matrix_untransform_point", "src/graphene-matrix.c:graphene_matrix_untransform_bounds"]}
{"id": "C61", "title": "2D matrices round-trip through six numbers", "statement": "init_from_2d followed by to_2d returns the same six numbers (rounded to float), and to_2d / is_2d succeed exactly for matrices whose remaining entries are those of a 2D affine transformation.", "quantifier": "all six-tuples, all matrices", "why_tests_cant": "The claim ranges over all values of several floats (including signed zeros, subnormals, infinities, NaN); tests sample a few literals.", "anchors": ["src/graphene-matrix.c:graphene_matrix_init_from_2d", "src/graphene-matrix.c:graphene_matrix_to_2d", "include/graphene-simd4x4f.h:graphene_simd4x4f_is_2d"]}
{"id": "C62", "title": "Orthographic projection maps the view volume to the clip cube", "statement": "init_ortho(left,right,top,bottom,near,far) maps left/right to -1/1, bottom/top to -1/1 and the near/far planes to -1/1.", "quantifier": "all non-degenerate view volumes", "why_tests_cant": "The claim is an identity or inequality over a continuum of inputs; a test compares a handful of literals with a tolerance and cannot show it for all inputs.", "anchors": ["src/graphene-matrix.c:graphene_matrix_init_ortho", "include/graphene-simd4x4f.h:graphene_simd4x4f_init_ortho"]}
{"id": "C63", "title": "Perspective and frustum projections map the view volume to the clip cube", "statement": "After division by w, init_frustum maps the near-plane rectangle to [-1,1]x[-1,1] and near/far to -1/1; init_perspective is the symmetric frustum with the given field of view.", "quantifier": "all non-degenerate view volumes", "why_tests_cant": "The claim is an identity or inequality over a continuum of inputs; a test compares a handful of literals with a tolerance and cannot show it for all inputs.", "anchors": ["src/graphene-matrix.c:graphene_matrix_init_frustum", "src/graphene-matrix.c:graphene_matrix_init_perspective"]}
{"id": "C64", "title": "look_at builds an orthonormal camera basis looking from eye to center", "statement": "The rotation part of init_look_at is orthonormal, its z axis points from center to eye, and the matrix maps the eye position to the origin.", "quantifier": "all eye/center/up with distinct eye and center and up not parallel to the view direction", "why_tests_cant": "The claim is an identity or inequality over a continuum of inputs; a test compares a handful of literals with a tolerance and cannot show it for all inputs.", "anchors": ["src/graphene-matrix.c:graphene_matrix_init_look_at", "include/graphene-simd4x4f.h:graphene_simd4x4f_init_look_at"]}
{"id": "C65", "title": "matrix_perspective appends a perspective divide", "statement": "graphene_matrix_perspective(m, depth) equals m followed by the projection whose w component is 1 - z/depth.", "quantifier": "all matrices, all non-zero depths", "why_tests_cant": "The claim is an identity or inequality over a continuum of inputs; a test compares a handful of literals with a tolerance and cannot show it for all inputs.", "anchors": ["src/graphene-matrix.c:graphene_matrix_perspective", "include/graphene-simd4x4f.h:graphene_simd4x4f_perspective"]}
{"id": "C66", "title": "project and unproject", "statement": "project_point returns the point where the transformed line through p along z crosses z = 0; project_rect yields the projected corners as a proper quad (in the same corner order as transform_rect) and project_rect_bounds their bounds; unproject_point3d inverts projection followed by perspective division.", "quantifier": "all matrices with non-vanishing z column, rectangles, points", "why_tests_cant": "The claim is an identity or inequality over a continuum of inputs; a test compares a handful of literals with a tolerance and cannot show it for all inputs.", "anchors": ["src/graphene-matrix.c:graphene_matrix_project_point", "src/graphene-matrix.c:graphene_matrix_project_rect", "src/graphene-matrix.c:graphene_matrix_unproject_point3d"]}
{"id": "C67", "title": "Matrix comparison and identity test", "statement": "matrix_near(a,b,eps) is true exactly when each of the four rows differs by less than eps in Euclidean norm; equal uses FLT_EPSILON; is_identity recognises exactly the identity matrix (SSE/GCC/NEON); equal_fast implies identical bytes.", "quantifier": "all pairs of matrices", "why_tests_cant": "The claim is an identity or inequality over a continuum of inputs; a test compares a handful of literals with a tolerance and cannot show it for all inputs.", "anchors": ["src/graphene-matrix.c:graphene_matrix_near", "src/graphene-matrix.c:graphene_matrix_is_identity", "src/graphene-matrix.c:graphene_matrix_equal_fast"]}
{"id": "C68", "title": "Decomposition recomposes to the original", "statement": "When matrix_decompose returns true, translating, rotating, shearing and scaling by the returned parts reproduces the matrix (affine, non-singular).", "quantifier": "all affine non-singular matrices", "why_tests_cant": "The claim is an identity or inequality over a continuum of inputs; a test compares a handful of literals with a tolerance and cannot show it for all inputs.", "anchors": ["src/graphene-matrix.c:graphene_matrix_decompose", "src/graphene-matrix.c:matrix_decompose_2d", "src/graphene-matrix.c:matrix_decompose_3d"]}
{"id": "C69", "title": "Matrix interpolation hits its endpoints", "statement": "graphene_matrix_interpolate(a,b,0) is a, (a,b,1) is b, interpolate(a,a,t) is a; the result never depends on uninitialised memory and may be stored over an argument.", "quantifier": "all matrices, all factors", "why_tests_cant": "The claim is an identity or inequality over a continuum of inputs; a test compares a handful of literals with a tolerance and cannot show it for all inputs.", "anchors": ["src/graphene-matrix.c:graphene_matrix_interpolate"]}
{"id": "C70", "title": "Quaternion algebra", "statement": "multiply is the Hamilton product (associative, identity neutral, norm multiplicative), invert is the inverse of a unit quaternion, add/scale/dot are component-wise, normalize yields a unit quaternion.", "quantifier": "all quaternions", "why_tests_cant": "The claim is an identity or inequality over a continuum of inputs; a test compares a handful of literals with a tolerance and cannot show it for all inputs.", "anchors": ["src/graphene-quaternion.c:graphene_quaternion_multiply", "src/graphene-quaternion.c:graphene_quaternion_invert", "src/graphene-quaternion.c:graphene_quaternion_normalize"]}
{"id": "C71", "title": "Quaternion to matrix is a rotation and respects composition", "statement": "to_matrix of a unit quaternion is orthogonal with determinant one; the matrix of a product is the product of the matrices (in the library's row-vector order); it rotates vectors by q v q^-1; q and -q give the same matrix.", "quantifier": "all (unit) quaternions", "why_tests_cant": "The claim is an identity or inequality over a continuum of inputs; a test compares a handful of literals with a tolerance and cannot show it for all inputs.", "anchors": ["src/graphene-quaternion.c:graphene_quaternion_to_matrix", "src/graphene-matrix.c:graphene_matrix_rotate_quaternion"]}
{"id": "C72", "title": "Matrix to quaternion recovers the rotation", "statement": "init_from_matrix(to_matrix(q)) is q or -q for every unit quaternion q.", "quantifier": "all unit quaternions", "why_tests_cant": "The claim is an identity or inequality over a continuum of inputs; a test compares a handful of literals with a tolerance and cannot show it for all inputs.", "anchors": ["src/graphene-quaternion.c:graphene_quaternion_init_from_matrix"]}
{"id": "C73", "title": "Angle/axis and Euler-angle constructors", "statement": "init_from_angle_vec3 is the rotation by the angle about the axis (same matrix as init_rotate) and unit; to_angle_vec3 recovers the angle in [0,360] and the unit axis when sin(angle/2) is at least 0.00005; init_from_radians/angles compose the three axis rotations, give unit quaternions, and to_radians inverts it for pitch in (-90,90) degrees.", "quantifier": "all angles, all axes longer than FLT_EPSILON", "why_tests_cant": "The claim is an identity or inequality over a continuum of inputs; a test compares a handful of literals with a tolerance and cannot show it for all inputs.", "anchors": ["src/graphene-quaternion.c:graphene_quaternion_init_from_angle_vec3", "src/graphene-quaternion.c:graphene_quaternion_to_radians", "src/graphene-quaternion.c:graphene_quaternion_init_from_radians"]}
{"id": "C74", "title": "Slerp interpolates on the unit sphere", "statement": "slerp of unit quaternions is a unit quaternion, factor 0 gives the rotation a, factor 1 the rotation b (within sqrt(2*FLT_EPSILON) when the two are nearly parallel), and the angle grows linearly with the factor.", "quantifier": "all pairs of unit quaternions, all factors", "why_tests_cant": "The claim is an identity or inequality over a continuum of inputs; a test compares a handful of literals with a tolerance and cannot show it for all inputs.", "anchors": ["src/graphene-quaternion.c:graphene_quaternion_slerp"]}
{"id": "C75", "title": "quaternion_equal means the same rotation up to tolerance", "statement": "quaternion_equal is true only for quaternions that are component-wise within 1e-5 of each other or of each other's negation (the same rotation).", "quantifier": "all pairs of quaternions", "why_tests_cant": "The claim is an identity or inequality over a continuum of inputs; a test compares a handful of literals with a tolerance and cannot show it for all inputs.", "anchors": ["src/graphene-quaternion.c:quaternion_equal"]}
{"id": "C76", "title": "Euler order: alpha, beta, gamma and order aliases", "statement": "get_alpha/beta/gamma return the first, second and third rotation angle in the order named by the rotation order for all 24 orders; deprecated orders and DEFAULT behave as their documented aliases; degrees/radians accessors are consistent.", "quantifier": "all angles, all rotation orders", "why_tests_cant": "The claim is an identity or inequality over a continuum of inputs; a test compares a handful of literals with a tolerance and cannot show it for all inputs.", "anchors": ["src/graphene-euler.c:graphene_euler_get_alpha", "src/graphene-euler.c:graphene_euler_get_real_order"]}
{"id": "C77", "title": "euler_to_matrix composes the three axis rotations in order", "statement": "For each static order the matrix is the product of the three axis rotations in the named order, for each relative order in the reversed order; it is therefore a rotation matrix.", "quantifier": "all angles, all 24 orders", "why_tests_cant": "The claim is an identity or inequality over a continuum of inputs; a test compares a handful of literals with a tolerance and cannot show it for all inputs.", "anchors": ["src/graphene-euler.c:graphene_euler_to_matrix", "src/graphene-euler.c:euler_to_matrix"]}
{"id": "C78", "title": "euler_to_quaternion describes the same rotation as euler_to_matrix", "statement": "For every Euler object the quaternion is unit and its matrix equals euler_to_matrix.", "quantifier": "all angles, all orders", "why_tests_cant": "The claim is an identity or inequality over a continuum of inputs; a test compares a handful of literals with a tolerance and cannot show it for all inputs.", "anchors": ["src/graphene-euler.c:graphene_euler_to_quaternion", "src/graphene-matrix.c:graphene_matrix_rotate_euler"]}
{"id": "C79", "title": "Euler angles recovered from a matrix give the same rotation", "statement": "init_from_matrix(m, order) followed by to_matrix reproduces the rotation matrix m, for every order; reorder changes the order but not the rotation.", "quantifier": "all rotation matrices, all orders", "why_tests_cant": "The claim is an identity or inequality over a continuum of inputs; a test compares a handful of literals with a tolerance and cannot show it for all inputs.", "anchors": ["src/graphene-euler.c:graphene_euler_init_from_matrix", "src/graphene-euler.c:matrix_to_euler", "src/graphene-euler.c:graphene_euler_reorder"]}
{"id": "C80", "title": "A frustum from a matrix is the clip volume", "statement": "contains_point on init_from_matrix(m) is true exactly when the transformed point satisfies -w <= x,y,z <= w (planes with non-degenerate normals); NULL is not contained. A NaN coordinate is never rejected.", "quantifier": "all matrices with non-degenerate clip planes, all points", "why_tests_cant": "The claim is an identity or inequality over a continuum of inputs; a test compares a handful of literals with a tolerance and cannot show it for all inputs.", "anchors": ["src/graphene-frustum.c:graphene_frustum_init_from_matrix", "src/graphene-frustum.c:graphene_frustum_contains_point"]}
{"id": "C81", "title": "Frustum culling has no false negatives", "statement": "If any point of the sphere / box is inside the frustum, intersects_sphere / intersects_box return true.", "quantifier": "all frustums with unit normals, spheres, boxes", "why_tests_cant": "The claim is an identity or inequality over a continuum of inputs; a test compares a handful of literals with a tolerance and cannot show it for all inputs.", "anchors": ["src/graphene-frustum.c:graphene_frustum_intersects_sphere", "src/graphene-frustum.c:graphene_frustum_intersects_box"]}
{"id": "C82", "title": "Aligned allocation never returns a block smaller than requested", "statement": "graphene_aligned_alloc(size, number, alignment) returns NULL, aborts, or returns at least size*number bytes; multiplication overflow is detected; alloc0 zeroes exactly the requested bytes and never writes outside the block.", "quantifier": "all size_t values, all allocation back ends, all system allocator answers", "why_tests_cant": "The claim ranges over all size_t values and all answers of the system allocator; tests cannot make the allocator refuse or return borderline blocks, nor allocate 2^64-1 bytes.", "anchors": ["src/graphene-alloc.c:graphene_aligned_alloc", "src/graphene-alloc.c:graphene_aligned_alloc0"]}
{"id": "C83", "title": "Static constants are fully initialised before anyone reads them (threaded builds)", "statement": "With pthread_once or InitOnceExecuteOnce, every read through a pointer returned by graphene_vec*_zero(), graphene_box_empty(), ... yields the documented constant, for any number of threads calling for the first time concurrently, and no caller is blocked for ever.", "quantifier": "all interleavings of any number of threads, with store reordering", "why_tests_cant": "A race shows up only in particular interleavings that a test cannot force or enumerate.", "anchors": ["src/graphene-box.c:init_static_box", "src/graphene-box2d.c:init_static_box", "src/graphene-vectors.c:init_static_vec3"]}
{"id": "C84", "title": "Static constants in builds without thread support", "statement": "Without pthread_once and InitOnceExecuteOnce, a program that calls the accessors from one thread only reads the documented constants even if plain stores are reordered; the same guarantee for two threads is refuted.", "quantifier": "all single-threaded histories, with store reordering", "why_tests_cant": "A race shows up only in particular interleavings that a test cannot force or enumerate.", "anchors": ["src/graphene-box.c:init_static_box", "src/graphene-box2d.c:init_static_box", "src/graphene-vectors.c:init_static_vec3"]}
{"id": "C85", "title": "Dot product and length are accurate in single precision", "statement": "For finite vectors whose exact squared magnitude (sum of absolute products) does not exceed 2^126, graphene_vec{2,3,4}_dot() is finite and differs from the exact dot product by at most 2^-22 times the sum of absolute products plus 2^-147; graphene_vec{2,3,4}_length() is finite and within 2^-21 times the length plus 2^-72 of the exact Euclidean length. This holds whatever the order of summation of the SIMD backend.", "quantifier": "all finite float vectors within the stated magnitude, all backends (the NEON square root estimate is excluded for length)", "why_tests_cant": "Rounding errors depend on the bit patterns of all components; a test samples a few of 2^128 vectors and cannot bound the error of the rest.", "anchors": ["src/graphene-simd4f.c:graphene_simd4f_dot3", "include/graphene-simd4f.h:graphene_simd4f_length3", "src/graphene-vectors.c:graphene_vec3_dot"]}
{"id": "C86", "title": "Distances between points in single precision", "statement": "graphene_point_distance() and graphene_point3d_distance() are symmetric bit for bit and zero from a finite point to itself; the result is finite and within 2^-20 times the distance plus 2^-72 of the exact distance when the squared distance is at most 2^126, hence positive for points at least 2^-71 apart (closer distinct points can be reported at distance zero); if graphene_point(3d)_near() is true every exact coordinate difference is below the tolerance, and it is true whenever every difference is at most some float below the tolerance.", "quantifier": "all finite float points (no overflow in the squared differences)", "why_tests_cant": "The claim ranges over all pairs of float points including subnormals and cancellation.", "anchors": ["src/graphene-point.c:graphene_point_distance", "src/graphene-point.c:graphene_point_near", "src/graphene-point3d.c:graphene_point3d_distance"]}
{"id": "C87", "title": "Matrix products and transformations are accurate in single precision", "statement": "Every entry of graphene_matrix_multiply(), and every component of graphene_matrix_transform_vec3/vec4/point3d(), is finite and differs from the exact value by at most 2^-22 times the sum of the absolute values of the products involved plus 2^-147, provided that sum does not exceed 2^126.", "quantifier": "all finite float matrices and vectors within the stated magnitude", "why_tests_cant": "32 float inputs; rounding behaviour depends on all bit patterns.", "anchors": ["include/graphene-simd4x4f.h:graphene_simd4x4f_matrix_mul", "include/graphene-simd4x4f.h:graphene_simd4x4f_vec4_mul", "src/graphene-matrix.c:graphene_matrix_transform_point3d"]}
{"id": "C88", "title": "Identity, translation and scaling matrices act exactly in single precision", "statement": "Multiplying by the identity on either side returns the other factor unchanged (up to the sign of zeros); a translation matrix maps a point to the correctly rounded sum and leaves directions unchanged; a scaling matrix maps a point to the correctly rounded product; the product of two translations (scalings) is the translation (scaling) by the correctly rounded sums (products) and nothing else. No hidden error is introduced by the unused matrix entries.", "quantifier": "all finite float matrices, points, vectors, offsets and factors (also when the result overflows)", "why_tests_cant": "All 2^32 values per component; a test with small integers cannot show that no rounding creeps in.", "anchors": ["src/graphene-matrix.c:graphene_matrix_init_translate", "src/graphene-matrix.c:graphene_matrix_init_scale", "src/graphene-matrix.c:graphene_matrix_multiply"]}
{"id": "C89", "title": "What equality means in single precision", "statement": "When graphene_{vec2,vec3,vec4,sphere,plane,ray,triangle,frustum,euler,point,point3d,size,matrix,box,box2d}_equal() returns true for finite values, every pair of corresponding components differs by less than 2^-23 (FLT_EPSILON), and it returns true whenever every pair of corresponding components differs by at most 2^-25 (exactly equal components where the code compares exactly). No component (radius, constant, normal, each corner) is left out of the comparison. For boxes, an infinite box equals only infinite boxes and an empty box only empty boxes.", "quantifier": "all finite float values of the listed types; for vector lane comparison, all backends with vectorised comparison where stated", "why_tests_cant": "A test compares a few values; that no component is ignored and that the tolerance never exceeds FLT_EPSILON must hold for every pair of values, with the rounding of the subtraction included.", "anchors": ["src/graphene-vectors.c:graphene_vec3_equal", "src/graphene-sphere.c:graphene_sphere_equal", "src/graphene-plane.c:graphene_plane_equal", "src/graphene-box2d.c:graphene_box2d_equal", "src/graphene-matrix.c:graphene_matrix_equal", "src/graphene-euler.c:graphene_euler_equal"]}
{"id": "C90", "title": "Rectangle operations are exact on a pixel grid in single precision", "statement": "For rectangles whose origin and size are multiples of a common power of two 2^-k (whole pixels, half pixels, ...) of magnitude at most 2^20 grid steps, the single precision implementation makes no rounding error at all: normalize, the accessors and corners, union, intersection, contains_point, contains_rect, equal, offset, inset, expand, round_extents and scale (for scale factors on a grid and smaller magnitudes) give exactly the rectangle that geometry over the reals prescribes. Off the grid this fails: union can lose a point of an operand.", "quantifier": "all float rectangles on a common dyadic grid within the stated magnitude, all k, all offsets, insets and scale factors on the grid; all finite points for containment", "why_tests_cant": "It ranges over every grid rectangle (about 2^84 pairs per k) and every rounding in every intermediate result.", "anchors": ["src/graphene-rect.c:graphene_rect_union", "src/graphene-rect.c:graphene_rect_intersection", "src/graphene-rect.c:graphene_rect_contains_point", "src/graphene-rect.c:graphene_rect_round_extents", "src/graphene-rect.c:graphene_rect_scale"]}
{"id": "C91", "title": "Rectangle tests err on one side only, for all floats", "statement": "For arbitrary finite float rectangles with sizes that are not negative: a point inside the exact rectangle is never reported outside by contains_point; a point reported inside is not left of or above the exact rectangle, and lies beyond the right or bottom edge only by the rounding of that edge (no float lies strictly between the edge and it). If intersection reports an overlap, the exact rectangles have common interior points; if they share a float point that is on neither's left or top edge, intersection reports the overlap. The left and top edges of a union are exact and its far edges differ from the exact ones by at most 2^-22 of the magnitudes involved (magnitudes at most 2^124). An overlap containing no float point can be missed, and a rectangle with a negative size need not contain its own origin.", "quantifier": "all finite float rectangles with non-negative sizes and all finite float points (no grid)", "why_tests_cant": "Whether a rounding of x+width ever drops a point of the rectangle depends on every pair of exponents.", "anchors": ["src/graphene-rect.c:graphene_rect_contains_point", "src/graphene-rect.c:graphene_rect_intersection", "src/graphene-rect.c:graphene_rect_union"]}
{"id": "C92", "title": "Interpolation stays between its operands in single precision", "statement": "For finite operands and a factor between 0 and 1, every component computed by graphene_{point,point3d,size,rect}_interpolate() is finite and lies between the corresponding components of the two operands (rectangles with non-negative sizes: the result has non-negative sizes too), and differs from the exact interpolation by one rounding to float plus 2^-50(|a|+|b|): no overshoot, and interpolating between equal values returns that value, for every factor. For vectors, computed in single precision throughout, the error is at most 5*2^-24(|a|+|b|)+2^-149, and the result may leave the segment (interpolating from 3 to 3 by 0.1 gives less than 3).", "quantifier": "all finite float operands and all double factors in [0,1] (vectors: |a|+|b| at most 2^127)", "why_tests_cant": "Overshoot by one unit in the last place appears only for particular triples of operands and factor; excluding it needs an argument about every rounding in the double computation.", "anchors": ["src/graphene-point.c:graphene_point_interpolate", "src/graphene-point3d.c:graphene_point3d_interpolate", "src/graphene-size.c:graphene_size_interpolate", "src/graphene-rect.c:graphene_rect_interpolate", "include/graphene-simd4f.h:graphene_simd4f_interpolate"]}
{"id": "C93", "title": "Centres, extents and expansion of boxes and rectangles in single precision", "statement": "For a box with finite corners in order and coordinates of magnitude at most 2^126, in single precision: the centre is contained in the box and is the midpoint of the corners up to a relative 2^-23; width, height and depth (and the components of the size) are the floats nearest to the exact differences, not negative, and zero only when the corners agree on that axis; growing the box by a scalar that is not negative keeps every point of the box and takes in every float point within that distance of it along each axis. A rectangle of non-negative size contains its own centre and its four corners as its accessors report them, for all finite floats. Near the largest float the centre of a box overflows and leaves the box.", "quantifier": "all finite float boxes with corners in order up to 2^126; all finite non-negative growths; all finite rectangles with non-negative size; all finite float points", "why_tests_cant": "Whether a rounded midpoint or a rounded edge escapes the object depends on every pair of floats.", "anchors": ["src/graphene-box.c:graphene_box_get_center", "src/graphene-box.c:graphene_box_expand_scalar", "src/graphene-box2d.c:graphene_box2d_get_center", "src/graphene-rect.c:graphene_rect_get_center"]}
{"id": "C94", "title": "What is stored is what is read back, bit for bit", "statement": "Initialising an object and reading it back returns the same bits: corners of boxes and 2D boxes (through every getter, with NULL corners meaning the origin and NULL outputs left untouched), normal and constant of planes, centre and radius of spheres, vertices and points of triangles (from points, vectors or arrays of floats; nothing past the third float is read), quaternions and their vectors, the six planes of a frustum in order, and the origin of a ray. Copies (init_from_*) are faithful. The exception is the direction of a ray: it is normalised on the way in, also when copying a ray, so a copy of a ray can point in a direction that differs in the last place.", "quantifier": "all contents of all objects, including NaN payload-free NaNs, infinities and signed zeros; all combinations of NULL arguments and outputs; every SIMD backend", "why_tests_cant": "It ranges over every float content of every object and every pattern of NULL arguments.", "anchors": ["src/graphene-box.c:graphene_box_init", "src/graphene-box2d.c:graphene_box2d_get_minmax", "src/graphene-plane.c:graphene_plane_init", "src/graphene-triangle.c:graphene_triangle_init_from_float", "src/graphene-ray.c:graphene_ray_init_from_ray", "src/graphene-frustum.c:graphene_frustum_get_planes"]}
{"id": "C95", "title": "Objects are independent values in every history of allocation, stores, copies and frees", "statement": "For every history of graphene_*_alloc(), graphene_*_free(), boxed copies and stores into objects, over all eighteen types mixed, in which the client frees, copies and writes only objects it owns (as the type they have; freeing or copying NULL is allowed) and the system allocator keeps its contract but is otherwise arbitrary (it may reuse addresses, return garbage, refuse memory): no call has undefined behaviour; the process is aborted only when memory was refused and assertions are enabled; and otherwise memory holds exactly the objects the client holds: each aligned as its type needs, with the contents last stored or copied into it (zeroes when new, except vectors, matrices and rays), no two sharing a byte, and no block outliving its object; when everything has been freed nothing is left allocated. Limits: a boxed copy for which memory is refused writes through NULL (builds without assertions, and in every build for the types that use calloc); an object freed by another type's function is undefined on Windows; a build falling back on malloc would misalign vectors.", "quantifier": "all finite histories of calls of any length over all object types, all answers of the system allocator within its contract, all initial memory contents, all size_t widths of at least 16 bits and all configurations meson.build can produce", "why_tests_cant": "Aliasing, double-free and leak bugs depend on the interleaving of calls and on where the system allocator places each block.", "anchors": ["src/graphene-alloc.c:graphene_aligned_alloc", "src/graphene-alloc.c:graphene_aligned_alloc0", "src/graphene-alloc.c:graphene_aligned_free", "src/graphene-gobject.c:GRAPHENE_DEFINE_BOXED_TYPE", "src/graphene-point.c:graphene_point_alloc", "src/graphene-matrix.c:graphene_matrix_free"]}
{"id": "C96", "title": "Spheres in single precision answer like exact spheres, up to a thin shell", "statement": "In the library's own single precision arithmetic, on every backend: graphene_sphere_contains_point answers true for every point whose exact distance to the centre is at most (1 - 2^-20) times the radius and false for every point beyond (1 + 2^-20) times the radius (radii between 2^-60 and 2^62); graphene_sphere_distance is the exact signed distance to the surface up to a relative 2^-19 (and 2^-71); a sphere made from points has a finite radius which no given point exceeds in distance from the centre by more than a relative 2^-20, and which some given point attains up to the same error; and the bounding box of a sphere contains every point whose exact distance from the centre is at most the radius, with no error term. Limit: below those radii squares underflow, and a sphere of radius 2^-100 contains a point at distance 2^-90.", "quantifier": "all centres, radii, points and lists of points of any length with finite single precision coordinates in the stated ranges; every backend", "why_tests_cant": "A rounding that flips an answer occurs only for particular inputs near the surface; the bound has to hold for all of them and for lists of any length.", "anchors": ["src/graphene-sphere.c:graphene_sphere_contains_point", "src/graphene-sphere.c:graphene_sphere_distance", "src/graphene-sphere.c:graphene_sphere_init_from_points", "src/graphene-sphere.c:graphene_sphere_init_from_vectors", "src/graphene-sphere.c:graphene_sphere_get_bounding_box"]}
{"id": "C97", "title": "Planes and frusta in single precision answer like exact ones, up to rounding error", "statement": "In the library's own single precision arithmetic, on every backend: graphene_plane_distance is n.p + c up to 2^-21 of the magnitude of its terms (and 2^-146), so a point is put on the right side of the plane unless it lies within that error; negating a plane negates every distance exactly; graphene_frustum_contains_point and graphene_frustum_intersects_sphere answer as the exact plane equations do except within the error of a plane; graphene_frustum_intersects_box never culls a box that has a (real) point in front of every plane by more than the error, and does cull every box lying behind one plane by more than the error.", "quantifier": "all planes, frusta, points, spheres and boxes with finite single precision coordinates whose products stay below 2^126; every backend", "why_tests_cant": "Wrongly culled objects appear only for inputs near a plane, where the sum of products cancels; the bound must hold for all of them.", "anchors": ["src/graphene-plane.c:graphene_plane_distance", "src/graphene-plane.c:graphene_plane_negate", "src/graphene-frustum.c:graphene_frustum_contains_point", "src/graphene-frustum.c:graphene_frustum_intersects_sphere", "src/graphene-frustum.c:graphene_frustum_intersects_box"]}
{"id": "C98", "title": "Rays in single precision", "statement": "In the library's own single precision arithmetic: each coordinate of graphene_ray_get_position_at is origin + t*direction up to 2^-22 of the magnitude of the two terms, the position at zero is the origin exactly, and positions never move backwards as t grows; whatever the floats (infinities and NaN included), the parameter that a sphere, box or triangle intersection reports is never negative; and for a ray along an axis graphene_ray_intersects_box is right with no error at all: true exactly when the exact half-line meets the closed box, also when the ray runs inside a face or along an edge (where the code computes 0 * infinity), and ENTER exactly when no earlier point of the line is in the box.", "quantifier": "all rays, parameters, boxes, spheres and triangles of single precision floats in the stated ranges; every backend (for the last part: reciprocal estimates of zeros are infinities, as the processor manuals specify)", "why_tests_cant": "Grazing rays and NaN paths are isolated inputs; monotonicity quantifies over all pairs of parameters.", "anchors": ["src/graphene-ray.c:graphene_ray_get_position_at", "src/graphene-ray.c:graphene_ray_intersect_box", "src/graphene-ray.c:graphene_ray_intersect_sphere", "src/graphene-ray.c:graphene_ray_intersect_triangle", "include/graphene-simd4f.h:graphene_simd4f_reciprocal"]}
{"id": "C99", "title": "Normalising in single precision gives a unit vector, on every backend", "statement": "In the library's own single precision arithmetic, graphene_vec2/3/4_normalize and graphene_quaternion_normalize return, for every finite vector of length between 2^-22 and 2^62 (2^-11 in the plain C build, whose guard looks at the square), each component of v/|v| up to a relative error of 2^-19, hence a vector of squared length 1 up to 2^-17; graphene_vec*_length is accurate to a relative 2^-18 on every backend, also NEON, which computes it as the reciprocal of a reciprocal square root; graphene_ray_init keeps the origin and gives such a unit direction; graphene_plane_normalize divides the constant by the same length up to 2^-17; a vector shorter than 2^-24 becomes exactly the zero vector.", "quantifier": "all finite vectors, quaternions, rays and planes in the stated range; every backend, given that the reciprocal and reciprocal square root estimate instructions meet the error bounds of the processor manuals", "why_tests_cant": "The Newton steps start from hardware estimates whose error differs by processor and by input; only a bound for all inputs and all admissible estimates says the result is a unit vector.", "anchors": ["src/graphene-vectors.c:graphene_vec3_normalize", "src/graphene-vectors.c:graphene_vec2_normalize", "src/graphene-vectors.c:graphene_vec4_normalize", "src/graphene-quaternion.c:graphene_quaternion_normalize", "src/graphene-ray.c:graphene_ray_init", "src/graphene-plane.c:graphene_plane_normalize", "include/graphene-simd4f.h:graphene_simd4f_rsqrt", "include/graphene-simd4f.h:graphene_simd4f_reciprocal"]}
{"id": "C100", "title": "The algebraic laws that survive rounding hold bit for bit", "statement": "For all floats, NaN, infinities, subnormals and signed zeros included, and on every backend: vec2/3/4 add, multiply and dot, quaternion add and dot do not depend on the order of the operands; negating twice, and inverting a quaternion twice, gives the operand back; a vector and its opposite have the same length; scaling by 1 is the identity, by -1 negates, by -k is the opposite of scaling by k; a-b is the opposite of b-a, a-0 is a and a-a is +0; a x b is the opposite of b x a and a x a is zero when nothing overflows; negating an operand of a dot product, or the vector given to graphene_matrix_transform_vec4, gives the opposite; a length is never negative and is NaN exactly when a component is (off NEON); point and point3d distances, their components and near are symmetric; the transpose of a matrix product is the product of the transposes in the other order.", "quantifier": "all vectors, points, quaternions and matrices of floats, every backend (lengths: every backend but NEON)", "why_tests_cant": "Rounding breaks most algebraic laws (associativity fails at 2^24+1+1); that these hold for every one of the 2^32 values per component, special values included, and for every summation order of the backends cannot be sampled.", "anchors": ["src/graphene-vectors.c:graphene_vec3_cross", "src/graphene-vectors.c:graphene_vec3_dot", "src/graphene-vectors.c:graphene_vec4_add", "src/graphene-vectors.c:graphene_vec2_length", "src/graphene-point.c:graphene_point_distance", "src/graphene-point3d.c:graphene_point3d_distance", "src/graphene-matrix.c:graphene_matrix_multiply", "src/graphene-matrix.c:graphene_matrix_transpose", "src/graphene-quaternion.c:graphene_quaternion_invert", "include/graphene-simd4f.h:graphene_simd4f_cross3"]}
{"id": "C101", "title": "get_type registers each boxed type exactly once, under any schedule", "statement": "Whatever the number of threads, the interleaving of their calls and the types other code registers meanwhile, every graphene_*_get_type() that returns gives a non-zero identifier whose registry entry has that type's documented name and that type's own copy and free functions; all calls for a type return the same identifier, calls for different types different ones; no name is registered twice; a thread is blocked only while another thread is registering the same type and can proceed, and from every reachable state every call can complete. (If foreign code has already taken one of the names, the first call returns 0 and no other call for that type ever returns.)", "quantifier": "all executions: any number of threads and calls, all eighteen types, any initial registry free of Graphene names, any schedule", "why_tests_cant": "Races between first calls depend on the schedule; a test exercises a few interleavings, the claim is about all of them and all histories.", "anchors": ["src/graphene-gobject.c:GRAPHENE_DEFINE_BOXED_TYPE", "include/graphene-gobject.h:graphene_rect_get_type"]}
{"id": "C102", "title": "2D transformations are exact on a pixel grid, in floating point", "statement": "For a matrix whose 2D scale/shear entries are multiples of 2^-j and whose translation is a multiple of 2^-(j+k), and points and rectangles with coordinates that are multiples of 2^-k (integers, half or quarter pixels, ...), small enough that results stay below 2^24 grid units: transform_point and transform_rect give exactly the images of the point and of the four corners, transform_bounds gives exactly the smallest rectangle around the four images and contains the image of every point of the rectangle, multiplying two matrices on grids gives exactly the matrix product, and transforming a point by the product gives exactly what transforming by the first and then by the second matrix should give.", "quantifier": "all grids j, k, all finite binary32 matrices, points and rectangles on them within the stated size, every SIMD back end", "why_tests_cant": "Exactness of pixel-aligned layout has to hold for every combination of coordinates and transformation; one rounded corner opens a gap, and tests sample a few.", "anchors": ["src/graphene-matrix.c:graphene_matrix_transform_point", "src/graphene-matrix.c:graphene_matrix_transform_rect", "src/graphene-matrix.c:graphene_matrix_transform_bounds", "src/graphene-matrix.c:graphene_matrix_multiply"]}
{"id": "C103", "title": "Determinant exact and inverse accurate for matrices on a grid, in floating point", "statement": "For every matrix whose entries are multiples of 2^-k with minors below 2^24 units (bounds given per entry, so large translations with small linear parts qualify): the determinant is computed without rounding error (negated, see C53), is_singular compares the true determinant with FLT_EPSILON, inverse fails below FLT_EPSILON and above it returns every entry to within relative error 2^-22 (2^-19 on NEON); if the determinant is a power of two the inverse is exact; for integer matrices is_singular and inverse decide invertibility exactly.", "quantifier": "all grids k <= 32 (37 for the determinant), all per-entry bounds with small minors, all such binary32 matrices, every SIMD back end", "why_tests_cant": "Cofactor expansion loses accuracy by cancellation; that no such loss happens on this class has to hold for every matrix in it.", "anchors": ["include/graphene-simd4x4f.h:graphene_simd4x4f_inverse", "include/graphene-simd4x4f.h:graphene_simd4x4f_determinant", "src/graphene-matrix.c:graphene_matrix_inverse", "src/graphene-matrix.c:graphene_matrix_is_singular"]}
{"id": "C104", "title": "Inverting scale-and-translate matrices in floating point", "statement": "For every matrix that scales the axes and then translates, with entries zero or between 2^-20 and 2^20 in magnitude: inverse returns every entry of the true inverse to within relative error 2^-20 (2^-19 on NEON), zero entries exactly zero, when the product of the scale factors is above FLT_EPSILON(1+2^-20), and fails when it is below FLT_EPSILON(1-2^-20). When the scale factors are 1 or -1 the inverse is exact for every finite displacement; in particular the inverse of init_translate(t) is the translation by -t, and untransform_point under a 2D translation returns the correctly rounded p - t.", "quantifier": "all binary32 scale-and-translate matrices in that range (all finite displacements for unit scales), all points and bounds, every SIMD back end (exactness: all but NEON)", "why_tests_cant": "The inverse is computed by 4x4 cofactor expansion with one reciprocal; that no entry loses accuracy or picks up a stray value must hold for all scales and displacements, including those with inexact reciprocals.", "anchors": ["include/graphene-simd4x4f.h:graphene_simd4x4f_inverse", "src/graphene-matrix.c:graphene_matrix_inverse", "src/graphene-matrix.c:graphene_matrix_untransform_point", "src/graphene-matrix.c:graphene_matrix_init_translate"]}
{"id": "C105", "title": "Rigid motions stay rigid", "statement": "Every matrix obtained from the identity by any number of translations, rotations (axis and angle, X/Y/Z, unit quaternions, Euler angles), look-at matrices, products and inversions, in any order, preserves the distance of any two points, the dot product and length of vectors and commutes with the cross product; it can always be inverted (the determinant is 1 in magnitude, is_singular is false), the inverse is again such a matrix and undoes it in both directions; and graphene_simd4x4f_inv_ortho_vec3_mul / inv_ortho_point3_mul undo it without inverting and agree with the inverse, whatever the fourth lane of the argument.", "quantifier": "all finite histories of these calls, all angles, axes, quaternions, points and vectors, every SIMD back end, in exact arithmetic", "why_tests_cant": "The claim ranges over histories of unbounded length and all real parameters; it is an invariant proved by induction on the history.", "anchors": ["include/graphene-simd4x4f.h:graphene_simd4x4f_inv_ortho_vec3_mul", "include/graphene-simd4x4f.h:graphene_simd4x4f_inv_ortho_point3_mul", "src/graphene-matrix.c:graphene_matrix_translate", "src/graphene-matrix.c:graphene_matrix_rotate", "src/graphene-matrix.c:graphene_matrix_rotate_x", "src/graphene-matrix.c:graphene_matrix_rotate_y", "src/graphene-matrix.c:graphene_matrix_rotate_z", "src/graphene-matrix.c:graphene_matrix_rotate_quaternion", "src/graphene-matrix.c:graphene_matrix_init_look_at", "src/graphene-matrix.c:graphene_matrix_multiply", "src/graphene-matrix.c:graphene_matrix_inverse", "src/graphene-quaternion.c:graphene_quaternion_to_matrix", "src/graphene-euler.c:graphene_euler_to_matrix"]}
{"id": "C106", "title": "Hit-testing of quadrilaterals in single precision", "statement": "For corners and point on a pixel grid of up to 2^23 steps, quad_contains accepts every point the exact test accepts (so every point of a convex quadrilateral, boundary included, and every point of the rectangle for a quad made from a rectangle); up to 1448 steps it is exact. For arbitrary finite coordinates of magnitude at most M (2^-40 <= M <= 2^40), every point of a convex quadrilateral that is clear of the four edges (triangle with the edge of area above 2^-19 M^2) is accepted and every point clearly beyond an edge is rejected. quad_bounds on the grid is exactly the smallest rectangle around the corners and contains them.", "quantifier": "all binary32 quadrilaterals and points in those ranges, every grid spacing 2^-k, every SIMD back end (bounds)", "why_tests_cant": "The edge tests subtract two rounded products; whether cancellation can turn an inside point into an outside one depends on all coordinate bits. The proof uses that rounding is monotone, which no sample of points shows.", "anchors": ["src/graphene-quad.c:graphene_quad_contains", "src/graphene-line-segment-private.h:graphene_line_segment_points_on_same_side", "src/graphene-quad.c:graphene_quad_bounds", "src/graphene-quad.c:graphene_quad_init_from_rect"]}
{"id": "C107", "title": "Quaternion products and matrices in single precision", "statement": "The product of finite quaternions is finite (if their lengths multiply to at most 2^120) and each component is within |a||b|/2^21 of Hamilton's product. Accumulating any list of factors is off by a relative error of at most (1+2^-19)^n - 1 while the lengths stay in range; n <= 2^14 factors as normalize returns them stay within n/2^18 of the true product and n/2^16 of length 1, and the matrix of the result is entrywise within n/2^14 + 2^-20 of the exact composed rotation. Multiplying by the identity changes no value; q times its inverse has vector part exactly zero; to_matrix of a quaternion of squared length at most 1.6 is entrywise within 2^-20 of the true matrix, its last row and column exact.", "quantifier": "all finite binary32 quaternions in those ranges; all lists of factors, of any length in the general bound", "why_tests_cant": "Drift under accumulation depends on the whole history of factors and on all their bits; a bound for every sequence needs induction over the history.", "anchors": ["src/graphene-quaternion.c:graphene_quaternion_multiply", "src/graphene-quaternion.c:graphene_quaternion_to_matrix", "src/graphene-quaternion.c:graphene_quaternion_invert", "src/graphene-quaternion.c:graphene_quaternion_init_identity"]}
{"id": "C108", "title": "Rotations from angles in single precision", "statement": "Provided the C library's sinf and cosf are accurate to 2^-23 for arguments up to 2^16 (and on SSE/NEON the hardware estimates are as accurate as documented), graphene_matrix_init_rotate(angle, axis) has finite entries, each within 2^-16 + |angle|/2^28 of the matrix of the true rotation by that many degrees about the normalised axis, for every finite angle up to 2^20 degrees and every axis that can be normalised (C99); transforming a point of 1-norm up to 2^100 is off by at most its 1-norm times 2^-15 + |angle|/2^28. graphene_quaternion_init_from_radians, _from_angles and _from_angle_vec3 are likewise within a few units in the last place of the true unit quaternion, and degrees are converted to radians within |angle|/2^29.", "quantifier": "all finite binary32 angles and axes in those ranges; every backend; every C library satisfying the accuracy hypothesis", "why_tests_cant": "The error depends on every bit of the angle and of the axis; only a proof covers all of them and every conforming C library.", "anchors": ["src/graphene-matrix.c:graphene_matrix_init_rotate", "include/graphene-simd4x4f.h:graphene_simd4x4f_rotation", "src/graphene-quaternion.c:graphene_quaternion_init_from_radians", "src/graphene-quaternion.c:graphene_quaternion_init_from_angles", "src/graphene-quaternion.c:graphene_quaternion_init_from_angle_vec3"]}
{"id": "C109", "title": "Component-wise arithmetic is correctly rounded", "statement": "Every component of the sum, difference and product of two vec2, vec3 or vec4 and of a vector scaled by a factor, and every entry of graphene_simd4x4f_add, _sub and _mul, is the float nearest to the exact result of the operation on the two operands in that position, whenever that is at most FLT_MAX in magnitude. Quotients likewise for every non-zero divisor on SSE and GCC, and for divisors above FLT_EPSILON on the scalar backend (smaller ones give zero); on NEON they have relative error at most 2^-19. Negation flips the sign and nothing else, on every backend. graphene_simd4x4f_sum gives the column sums, off by at most 2^-22 of the sum of the magnitudes.", "quantifier": "all finite binary32 components and factors; every backend", "why_tests_cant": "2^64 pairs of operands per component, and each backend divides and negates with different instructions.", "anchors": ["src/graphene-vectors.c:graphene_vec4_add", "src/graphene-vectors.c:graphene_vec4_divide", "src/graphene-vectors.c:graphene_vec4_scale", "src/graphene-vectors.c:graphene_vec4_negate", "include/graphene-simd4x4f.h:graphene_simd4x4f_add", "include/graphene-simd4x4f.h:graphene_simd4x4f_sum", "include/graphene-simd4f.h:graphene_simd4f_div"]}
{"id": "C110", "title": "Triangles in single precision", "statement": "For triangles and points with coordinates up to 2^20: graphene_triangle_get_midpoint is the mean of the vertices within 2^-23 of the sum of their magnitudes per coordinate; get_area is off by at most 2^-20 of the product of the two edges at b; get_normal is within k/2^18 of the exact unit normal per component, when the angle at b has sine at least 1/k. If the squared doubled area is at least 2^-22 and the squared sine of the angle at a at least 1/K (K <= 2^16), get_barycoords succeeds and its coordinates are those of the orthogonal projection of the point up to K(|u| + |p-a|/|edge|)/2^18, and contains_point is right for every point further inside or outside than that error.", "quantifier": "all finite binary32 triangles and points in that range; every backend (area: those with a hardware square root)", "why_tests_cant": "The answer depends on twelve floats; rounding errors grow with the condition of the triangle, which only an error analysis for all of them bounds.", "anchors": ["src/graphene-triangle.c:graphene_triangle_get_barycoords", "src/graphene-triangle.c:graphene_triangle_contains_point", "src/graphene-triangle.c:graphene_triangle_get_area", "src/graphene-triangle.c:graphene_triangle_get_normal", "src/graphene-triangle.c:graphene_triangle_get_midpoint"]}
{"id": "C111", "title": "Decomposing a matrix with perspective", "statement": "graphene_matrix_decompose of a matrix with a perspective column fails exactly when its last entry or the determinant of its affine part is below FLT_EPSILON; otherwise the scale, shear, rotation and translation returned compose to the affine part whatever the perspective, and together with the perspective vector returned they compose to the matrix (divided by its last entry).", "quantifier": "all real matrices that are neither the identity nor 2D, in particular all with a perspective entry of at least FLT_EPSILON; the SIMD backends", "why_tests_cant": "A sixteen-dimensional space of matrices; the upstream tests decompose none with perspective, where the code solves the transposed equation.", "anchors": ["src/graphene-matrix.c:graphene_matrix_decompose", "src/graphene-matrix.c:matrix_decompose_3d", "include/graphene-simd4f.h:graphene_simd4f_is_zero3"]}
{"id": "C112", "title": "look_at in its degenerate cases", "statement": "Also when up is parallel to the view direction, or eye and center coincide, the rotation part of graphene_matrix_init_look_at is a right-handed orthonormal basis with its x axis orthogonal to up, and its z axis is within 1/5000 of the opposite of the view direction (of +z when eye and center coincide).", "quantifier": "all real eye, center and up with up nonzero; every backend", "why_tests_cant": "Whether the built-in correction separates up from the view direction depends on all nine coordinates; the failing inputs form a thin set no sample hits.", "anchors": ["src/graphene-matrix.c:graphene_matrix_init_look_at", "include/graphene-simd4x4f.h:graphene_simd4x4f_init_look_at"]}
{"id": "C113", "title": "Zero tests, zero constants, copies and the SIMD identity", "statement": "graphene_simd4f_is_zero2/is_zero3 return true exactly when the first two/three lanes are finite and at most FLT_EPSILON in magnitude, whatever the other lanes hold; is_zero4 exactly for four (signed) zeros on the SIMD backends, and on the scalar backend for all vectors with no finite lane above FLT_EPSILON. The *_zero constants are zero everywhere, init_from_* copy every field unchanged, and graphene_simd4x4f_init_identity has ones exactly on the diagonal.", "quantifier": "all binary32 vectors, including infinities and NaN; every backend", "why_tests_cant": "2^128 vectors with NaN, infinities and values around the threshold; the upstream tests check a few.", "anchors": ["include/graphene-simd4f.h:graphene_simd4f_is_zero2", "include/graphene-simd4f.h:graphene_simd4f_is_zero3", "include/graphene-simd4f.h:graphene_simd4f_is_zero4", "src/graphene-point.c:graphene_point_zero", "src/graphene-size.c:graphene_size_init_from_size", "include/graphene-simd4x4f.h:graphene_simd4x4f_init_identity"]}
{"id": "C114", "title": "Drift of accumulated transformations", "statement": "Transforming a vector by n matrices one after the other, or multiplying n matrices together, when each stored matrix is within delta (entrywise) of an exact matrix stretching vectors by at most nu, gives finite results off the exact composition by at most ((nu+4 delta)^n (1+2^-20)^n - nu^n) times the initial length. In particular up to 2048 successive graphene_matrix_rotate calls from the identity (angles up to 4096 degrees, any axes) stay within n/2^12 of the exact product of rotations row by row, the rows keep length 1 within n/2^12, and spinning a vector n times changes it by at most n/2^12 of its length from the exact result.", "quantifier": "all numbers of steps (bounded only where overflow or the linear form of the bound requires), all matrices, vectors, angles and axes in range, every backend; sinf/cosf and the hardware reciprocal square root as accurate as documented", "why_tests_cant": "The error accumulates over histories of arbitrary length; tests compose two or three transformations.", "anchors": ["src/graphene-matrix.c:graphene_matrix_rotate", "src/graphene-matrix.c:graphene_matrix_multiply", "src/graphene-matrix.c:graphene_matrix_transform_vec4", "include/graphene-simd4x4f.h:graphene_simd4x4f_matrix_mul"]}
{"id": "C115", "title": "Projection matrices in single precision", "statement": "In binary32, every entry of the matrices made by init_ortho and init_frustum is finite and within 2^-21 (relative) of the exact entry, and of init_perspective (1 to 179 degrees) within 2^-19 / sin(fovy). A point transformed by an orthographic projection is within 2^-20 (2|x|+|left+right|)/|right-left| of its exact place, so points of the view volume land in the clip cube up to K/2^17 (K: coordinates of the volume in units of its size); through a frustum the homogeneous coordinate w is exactly -z and no visible point gets |x|, |y| or |z| above w (1 + K/2^17).", "quantifier": "all finite parameters up to 2^30 in magnitude with sides and distances of at least 2^-30, all finite points in range; tanf accurate to 2^-22", "why_tests_cant": "All view volumes and points; tests check one or two matrices with loose tolerances.", "anchors": ["src/graphene-matrix.c:graphene_matrix_init_ortho", "src/graphene-matrix.c:graphene_matrix_init_frustum", "src/graphene-matrix.c:graphene_matrix_init_perspective", "include/graphene-simd4x4f.h:graphene_simd4x4f_init_ortho", "include/graphene-simd4x4f.h:graphene_simd4x4f_init_frustum", "include/graphene-simd4x4f.h:graphene_simd4x4f_init_perspective"]}
{"id": "C116", "title": "Bounding rectangles and boxes of transformed shapes in single precision", "statement": "In binary32, graphene_quad_bounds of finite corners has exact left and top edges and right and bottom edges within one rounding of the size; graphene_matrix_transform_bounds returns a finite rectangle of non-negative size that contains the exact image of every point of the source rectangle (any signs of width and height) up to (2M+1)N/2^20, and each side passes that close to the exact image of a corner; graphene_matrix_transform_box does the same for every point between two corners, with (3M+1)N/2^22, each face passing that close to the image of a vertex.", "quantifier": "all finite rectangles, boxes and matrices with coordinates up to M and entries up to N such that (3M+1)N stays below 2^124, all backends, all real points of the source shape", "why_tests_cant": "All rectangles, boxes, matrices and all the points inside them; tests compare a few integer cases.", "anchors": ["src/graphene-quad.c:graphene_quad_bounds", "src/graphene-matrix.c:graphene_matrix_transform_bounds", "src/graphene-matrix.c:graphene_matrix_transform_box", "src/graphene-rect.c:graphene_rect_normalize"]}
{"id": "C117", "title": "Picking with rays in single precision", "statement": "In binary32, for a ray with a unit direction (as graphene_ray_init makes it): graphene_ray_intersect_sphere reports a finite non-negative parameter whose exact point lies on the sphere up to Q/2^12 in squared distance, is outside before an ENTER and after a LEAVE up to the same error, never misses a sphere it clearly enters, never reports one it clearly passes, and tells on which side the origin lies; graphene_ray_get_distance_to_plane returns either infinity or a non-negative parameter at which the ray meets the plane, infinity when clearly heading away or clearly parallel off the plane, 0 when clearly lying in it; graphene_ray_get_closest_point_to_point returns a point of the ray with no other point closer by more than Q/2^32; graphene_ray_get_distance_to_point is the distance to the nearest point up to (M+sqrt Q)/2^15.", "quantifier": "all finite unit rays, spheres, planes and points within stated magnitudes (Q the squared distance from the origin of the ray plus the squared radius, M the coordinates of the origin), all real points of the ray, all backends (distance to a point: all but NEON)", "why_tests_cant": "All rays and shapes and all real points of the ray; tests check a few axis-aligned rays with exact arithmetic.", "anchors": ["src/graphene-ray.c:graphene_ray_intersect_sphere", "src/graphene-ray.c:graphene_ray_get_distance_to_plane", "src/graphene-ray.c:graphene_ray_get_closest_point_to_point", "src/graphene-ray.c:graphene_ray_get_distance_to_point", "src/graphene-ray.c:graphene_ray_init"]}
{"id": "C118", "title": "Picking triangles in single precision", "statement": "In binary32, for a unit ray and a triangle with all vertices and the origin within R of the first vertex, and N the exact inner product of the direction with the counter-clockwise normal: when the ray is not parallel to the triangle (|N| above eps = R^2/2^18), an intersection reported by graphene_ray_intersect_triangle has a finite non-negative parameter within ((R+2t) eps + 2^-59)/|N| of the exact crossing with the plane of the triangle, and the exact crossing is inside the triangle up to eps/|N| in its barycentric weights; a crossing inside by more than eps/|N| in front of the origin is always reported; ENTER means the ray runs against the normal, LEAVE along it; no intersection leaves the output untouched; a parallel ray reports none.", "quantifier": "all finite unit rays and triangles with 2^-19 <= R <= 2^19, all real weights and parameters, all backends", "why_tests_cant": "All rays and triangles; tests check a few hits and misses with small integers.", "anchors": ["src/graphene-ray.c:graphene_ray_intersect_triangle", "src/graphene-ray.c:graphene_ray_intersects_triangle"]}
{"id": "C119", "title": "Picking boxes in single precision", "statement": "In binary32, for a unit ray whose direction components are each zero or invertible by the backend (magnitude at least 2^-60; above FLT_EPSILON for the two backends whose reciprocal treats smaller values as zero), and a box with finite ordered corners within 2^60 of the origin: a parameter reported by graphene_ray_intersect_box is finite and non-negative, and the exact point of the ray there is in the box once each face is moved outwards by 2^-19 of its distance from the origin (plus 2^-148); before an ENTER parameter no point of the ray is in the box with its faces moved inwards by as much; up to a LEAVE parameter every point is in the enlarged box, and beyond it none is in the shrunken one; and a ray with a point in the shrunken box is always reported.", "quantifier": "all finite unit rays and ordered boxes in that range, all real parameters, all backends and all admissible hardware estimates", "why_tests_cant": "All rays and boxes, including rays parallel to faces where the reciprocal is infinite and 0*inf is NaN; tests check a handful of hits.", "anchors": ["src/graphene-ray.c:graphene_ray_intersect_box", "src/graphene-ray.c:graphene_ray_intersects_box", "include/graphene-simd4f.h:graphene_simd4f_reciprocal"]}
{"id": "C120", "title": "Routes to the same result agree bit for bit", "statement": "On every backend and in every arithmetic (hence in binary32, NaN and infinities included): translating, scaling or rotating a matrix in place is multiplying it by the matrix built for that change, rotate_x/y/z are rotations around the coordinate axes, rotate_euler goes through the quaternion of the angles; the operations on three-dimensional points (dot, cross, length, scale, distance, and normalise for lengths above FLT_EPSILON) are those on the vectors from the origin; boxes, spheres, triangles and rays from points equal those from vectors; the plane and the box of a triangle are the plane and the box of its vertices, texture coordinates exist exactly when barycentric coordinates do; transformed and projected bounds are the bounds of the transformed and projected corners; and intersects_* agrees with intersect_*.", "quantifier": "all scalar types, backends, matrices, points, vectors, shapes, rays and lists of points", "why_tests_cant": "Tests compare such routes on a handful of values with a tolerance; the claim is equality of bits for all operands.", "anchors": ["src/graphene-matrix.c:graphene_matrix_translate", "src/graphene-matrix.c:graphene_matrix_scale", "src/graphene-matrix.c:graphene_matrix_rotate_x", "src/graphene-matrix.c:graphene_matrix_transform_bounds", "src/graphene-point3d.c:graphene_point3d_cross", "src/graphene-box.c:graphene_box_init_from_points", "src/graphene-sphere.c:graphene_sphere_init_from_points", "src/graphene-triangle.c:graphene_triangle_get_plane", "src/graphene-ray.c:graphene_ray_intersects_box"]}
{"id": "C121", "title": "Bounding and transformed spheres, transformed rays, in single precision", "statement": "In binary32: the bounding sphere of a box has the centre of the box, a finite radius within D/2^18 of half the diagonal D, and contains every point of the box up to D/2^18 and the rounding of the centre; a transformed sphere has the image of the centre up to a dot-product rounding and the radius scaled by the largest stretch of the axes up to a relative 2^-19, and, when the axes stay orthogonal up to a relative delta, it contains the image of every point of the sphere up to those errors; a transformed ray is a unit ray whose origin is the image of the origin up to rounding and whose direction is the normalised image of the direction up to 2^-18 plus three times the relative rounding of that image.", "quantifier": "all finite boxes, matrices, spheres and rays in the stated ranges, all points, all backends and admissible hardware estimates", "why_tests_cant": "All matrices and shapes; tests use a few exact transformations.", "anchors": ["src/graphene-box.c:graphene_box_get_bounding_sphere", "src/graphene-matrix.c:graphene_matrix_transform_sphere", "src/graphene-matrix.c:graphene_matrix_transform_ray"]}
{"id": "C122", "title": "Making, transforming and clipping with planes in single precision", "statement": "Computed in IEEE single precision: graphene_plane_init_from_point keeps the normal and its equation at every point is the exact one up to the rounding of a single scalar product; graphene_plane_init_from_points (and so graphene_triangle_get_plane) gives, for three points with coordinates up to 2^20 whose angle at the second point has a sine of at least 1/k, a normal within k*2^-17 of the exact unit normal and an equation that is the exact one up to that error times the distance from the first point; the six planes of graphene_frustum_init_from_matrix are the clip inequalities w\u00b1x, w\u00b1y, w\u00b1z >= 0 of the matrix divided by the length of their normals up to a relative 2^-16 of the terms, so that graphene_frustum_contains_point on such a frustum is decided by the exact clip coordinates except within rounding of a clip plane; graphene_plane_transform with a normal matrix gives the plane through the exact image of the reference point with the exact image of the normal, normalised, up to the rounding of the two images, and without a normal matrix it is the same with the transposed inverse.", "quantifier": "all finite normals and points, all triples of points up to 2^20 with an angle bounded away from 0 and pi, all finite matrices with entries up to 2^59 whose clip planes do not degenerate, all query points, all planes and matrices within the stated ranges, all backends with estimates as accurate as documented", "why_tests_cant": "The error bounds depend on the coordinates, the angle and the conditioning of the matrices, over 2^32 values for each component and four backends; tests compare a few planes with a tolerance.", "anchors": ["src/graphene-plane.c:graphene_plane_init_from_point", "src/graphene-plane.c:graphene_plane_init_from_points", "src/graphene-plane.c:graphene_plane_transform", "src/graphene-frustum.c:graphene_frustum_init_from_matrix", "src/graphene-frustum.c:graphene_frustum_contains_point", "src/graphene-triangle.c:graphene_triangle_get_plane"]}
{"id": "C123", "title": "Cameras, skews, perspective and normalisation of matrices in single precision", "statement": "Computed in IEEE single precision: graphene_matrix_init_look_at, for positions up to 2^20 apart by at least 2^-8 and an up vector whose angle to the viewing direction has a sine of at least 1/k, has as rows the exact side, up and backward directions to within k*2^-14, k*2^-13 and 2^-17 and the exactly negated eye as its last row; graphene_matrix_skew_xy, skew_xz and skew_yz change one row only, to the exact combination of two rows up to a relative 2^-22 of its terms; graphene_matrix_init_skew has the tangents of the angles to a relative 2^-22 and fourteen exact entries; graphene_matrix_perspective changes the last column only, adding z - w/depth up to a relative 2^-21 of the terms; graphene_matrix_normalize leaves its result unwritten exactly when the last entry is smaller than FLT_EPSILON and otherwise divides every entry by it to a relative 2^-22.", "quantifier": "all finite matrices, factors, depths and points within the stated ranges, all backends with estimates as accurate as documented, every C library with an accurate tangent", "why_tests_cant": "The errors depend on all sixteen entries or nine coordinates, over 2^32 values each and four backends; tests compare a few matrices with a tolerance of 0.001.", "anchors": ["src/graphene-matrix.c:graphene_matrix_init_look_at", "src/graphene-matrix.c:graphene_matrix_init_skew", "src/graphene-matrix.c:graphene_matrix_skew_xy", "src/graphene-matrix.c:graphene_matrix_skew_xz", "src/graphene-matrix.c:graphene_matrix_skew_yz", "src/graphene-matrix.c:graphene_matrix_perspective", "src/graphene-matrix.c:graphene_matrix_normalize"]}
{"id": "C124", "title": "Projecting and unprojecting points in single precision", "statement": "Computed in IEEE single precision: graphene_matrix_project_point finds the point of the plane z = 0 on the line through the image of the point along the image of the z axis: its coordinates are the exact ones up to (L(1+T) + |m|T(T+2))/2^20, where L is the sum of the magnitudes of the terms of the coordinate and T the distance along the line; graphene_matrix_unproject_point3d leaves its result unwritten exactly when the projection has no inverse and otherwise is the image of the point by (inverse of the projection) x modelview divided by its fourth coordinate, each coordinate exact up to a relative 2^-18 of the terms of the numerator and denominator; graphene_matrix_is_backface_visible is exact for matrices with entries on a grid with exact minors.", "quantifier": "all matrices and points within the stated ranges whose denominators are not lost in rounding, all backends", "why_tests_cant": "The division amplifies the rounding of up to 48 products of arbitrary floats; tests unproject no point and project a few with a tolerance.", "anchors": ["src/graphene-matrix.c:graphene_matrix_project_point", "src/graphene-matrix.c:graphene_matrix_unproject_point3d", "src/graphene-matrix.c:graphene_matrix_is_backface_visible"]}
{"id": "C125", "title": "Determinant and inverse of every matrix in single precision", "statement": "Computed in IEEE single precision for every finite matrix with entries up to 2^30: graphene_matrix_determinant is minus the exact determinant up to Q/2^19 + 2^-79, where Q is the cofactor expansion with every term made positive; graphene_matrix_is_singular is right whenever the determinant differs from FLT_EPSILON by more than that; graphene_matrix_inverse fails when the determinant is below FLT_EPSILON by more than that, and when it is above FLT_EPSILON + Q/2^17 it succeeds and every entry is the exact entry of the inverse up to (P + |entry| Q)/|det|/2^18 + 2^-80, where P is the positive expansion of the cofactor; graphene_matrix_is_backface_visible is right whenever the exact entry differs from zero by more than that error.", "quantifier": "all finite 4x4 matrices with entries of magnitude up to 2^30, all backends with estimates as accurate as documented", "why_tests_cant": "The bound is over all sixteen entries (2^512 matrices) and depends on cancellation in the cofactors; tests invert a few matrices.", "anchors": ["include/graphene-simd4x4f.h:graphene_simd4x4f_inverse", "include/graphene-simd4x4f.h:graphene_simd4x4f_determinant", "src/graphene-matrix.c:graphene_matrix_inverse", "src/graphene-matrix.c:graphene_matrix_determinant", "src/graphene-matrix.c:graphene_matrix_is_singular", "src/graphene-matrix.c:graphene_matrix_is_backface_visible"]}
{"id": "C126", "title": "Every vector backend computes the documented lanes from its own instructions", "statement": "Written down instruction by instruction (SSE2, SSE4.1, AVX, GCC vector extensions, ARM NEON, plain C) on registers of four 32-bit words, every operation of graphene_simd4f_t delivers exactly the documented lanes: moves, splats, rotations, merges, zeroing and the 4x4 transposition are bit for bit the named words, NaN payloads included; loads and stores touch exactly the documented floats; add, subtract, multiply, divide, square root, multiply-add, rounding, minimum, maximum, negation and the sign flips are lane by lane the IEEE result (or the documented estimate-plus-Newton sequence) of the decoded words; comparisons are true exactly when the relation holds in all four lanes.  Hence every backend refines the four-lane model that all the other properties are proved about.", "quantifier": "all backends, all 2^128 register contents per operand (NaN payloads, infinities and subnormals included), all buffers, all arithmetic units whose results decode to the IEEE results", "why_tests_cant": "The suite runs on one backend per build and one machine, on a few values per operation; shuffles, masks and sign tricks have to be right for every word on the backends that were not run.", "anchors": ["include/graphene-simd4f.h:graphene_simd4f_init", "include/graphene-simd4f.h:graphene_simd4f_cross3", "include/graphene-simd4f.h:graphene_simd4f_dot3", "include/graphene-simd4f.h:graphene_simd4f_merge_high", "include/graphene-simd4f.h:graphene_simd4f_flip_sign_0101", "include/graphene-simd4f.h:graphene_simd4f_cmp_eq", "include/graphene-simd4f.h:graphene_simd4f_reciprocal", "include/graphene-simd4x4f.h:graphene_simd4x4f_transpose_in_place", "src/graphene-simd4f.c:graphene_simd4f_init"]}
{"id": "C127", "title": "A result may be written over an operand", "statement": "For the point, size, rectangle, vector, box, sphere, plane, ray, quaternion and matrix functions that store through a result pointer, the result object may be one of the operands: the call stores exactly the value computed from the operands as they were before the call, and changes no cell outside the result object.  Functions that read everything before the first store (rectangles, vectors, 2D boxes, quaternion products, matrix products and inverses, bounds) allow any overlap at all, including a result inside an operand such as a rectangle's own origin; the componentwise ones allow the result to be an operand or disjoint from it.  A refused inverse or normalisation leaves the result object untouched.  Two functions are not safe and are delimited exactly: graphene_triangle_get_uv whose result is one of the texture coordinates loses that coordinate's contribution, and graphene_quad_init given the quad's own corners in another order duplicates one.", "quantifier": "all memories, all addresses of operands and result (equal, overlapping where the C object model allows it, or disjoint), all scalars, all backends, every arithmetic (reals or binary32)", "why_tests_cant": "The suite calls with a distinct result nearly everywhere; whether a load happens after a store to the same cell depends on the pointers, and has to be right for every way of placing them.", "anchors": ["src/graphene-rect.c:graphene_rect_union", "src/graphene-rect.c:graphene_rect_inset_r", "src/graphene-point3d.c:graphene_point3d_normalize_viewport", "src/graphene-box.c:graphene_box_union", "src/graphene-plane.c:graphene_plane_normalize", "src/graphene-quaternion.c:graphene_quaternion_multiply", "src/graphene-matrix.c:graphene_matrix_transform_sphere", "include/graphene-simd4x4f.h:graphene_simd4x4f_matrix_mul", "src/graphene-triangle.c:graphene_triangle_get_uv", "src/graphene-quad.c:graphene_quad_init"]}
{"id": "C128", "title": "The inline vector and matrix functions on the machine's registers", "statement": "Run on registers of 32-bit words with the instructions of the chosen backend, the inline functions of the SIMD headers (sums, dot products, lengths, normalisation, zero tests, interpolation, clamping, extrema; matrix-vector and matrix-matrix products, constant matrices, sums, inverse, determinant, identity and 2D tests, orthographic, frustum, perspective and look-at matrices) hold, lane by lane, the IEEE values of the four-lane functions; matrices are read and written bit for bit, sixteen floats exactly; a product read from and written to memory is the sum of rounded products in one fixed association on every backend; and results depend on the operands' values only: neither NaN payloads nor the words an arithmetic unit picks for a NaN can change a value, an invertibility verdict or a test.", "quantifier": "all register contents (including NaNs with any payload, infinities, signed zeros, subnormals), all buffers, all backends with their SSE4.1/AVX/IEEE-division variants, all arithmetic units whose results have the IEEE values", "why_tests_cant": "Each build runs one backend on one processor, with ordinary numbers; a lane permuted wrongly in one macro, or a result that depends on a NaN's bits, shows on some inputs of some backend only.", "anchors": ["include/graphene-simd4f.h:graphene_simd4f_min_val", "include/graphene-simd4f.h:graphene_simd4f_normalize3", "include/graphene-simd4x4f.h:graphene_simd4x4f_matrix_mul", "include/graphene-simd4x4f.h:graphene_simd4x4f_inverse", "include/graphene-simd4x4f.h:graphene_simd4x4f_determinant", "include/graphene-simd4x4f.h:graphene_simd4x4f_init_look_at", "include/graphene-simd4x4f.h:graphene_simd4x4f_to_float"]}
{"id": "C129", "title": "The quaternion of a rotation matrix in single precision", "statement": "graphene_quaternion_init_from_matrix on a float matrix whose 3x3 block is within \u03b5 \u2264 1/8, entry by entry, of the rotation by a unit quaternion p with p.w \u2265 0: all components are finite, w is not negative, every magnitude is within \u221a(3\u03b5 + 2^-20)/2 + 2^-22 of the true one (within (3\u03b5 + 2^-20)/4c + 2^-22 of a true magnitude c > 0), an imaginary component has the right sign where 2\u00b7p.w\u00b7|component| > \u03b5, and is within the first bound plus \u03b5/p.w of the true component.  A quaternion of length within 2^-17 of one and w \u2265 1/8 survives to_matrix followed by init_from_matrix within 2^-7 in every component and 2^-11 in w; the identity survives exactly.  For every matrix at all, including NaNs and infinities, no component is a NaN and w is not negative.", "quantifier": "all float matrices, all unit real quaternions with non-negative real part, all \u03b5 \u2264 1/8", "why_tests_cant": "The square root magnifies rounding near zero and the signs come from comparisons of nearly equal entries, so the error depends on the direction of the axis and the angle; tests compare a handful of rotations.", "anchors": ["src/graphene-quaternion.c:graphene_quaternion_init_from_matrix", "src/graphene-quaternion.c:graphene_quaternion_to_matrix"]}
{"id": "C130", "title": "Euler angles to matrices, quaternions and degrees in single precision", "statement": "For finite float angles of magnitude at most 2^16 radians and a C library whose sinf and cosf are within 2^-23: graphene_euler_to_matrix gives, in every order, a finite matrix within 5/2^22, entry by entry, of the product of the three exact axis rotations; with angles given in degrees of magnitude at most B the bound is B/2^26 + 3/2^21; an angle given in degrees reads back within |x|/2^22; conversion to and from a vec3 is bit exact; in the orders SXYZ and RZYX graphene_euler_to_quaternion gives a finite quaternion of length within 3/2^20 of one whose rotation matrix is within 15/2^20 of that product; graphene_matrix_rotate_euler on a matrix with entries of magnitude at most B is within B/2^14 + 2^-140 of the exact product.", "quantifier": "all orders, all finite float angles up to 2^16 radians, all finite float matrices with bounded entries, all conforming libm", "why_tests_cant": "Twenty-four orders times every float triple; a wrong sign or a swapped pair of angles vanishes at the multiples of 90 degrees tests like to use.", "anchors": ["src/graphene-euler.c:graphene_euler_to_matrix", "src/graphene-euler.c:graphene_euler_to_quaternion", "src/graphene-euler.c:graphene_euler_init_with_order", "src/graphene-euler.c:graphene_euler_get_x", "src/graphene-euler.c:graphene_euler_to_vec3", "src/graphene-matrix.c:graphene_matrix_rotate_euler"]}
{"id": "C131", "title": "Euler angles recovered from a matrix in single precision", "statement": "For a float matrix whose 3x3 block is within \u03b5 \u2264 1/32, entry by entry, of a rotation R, and a C library whose atan2f is within 2^-22 of an angle of its argument: graphene_euler_init_from_matrix, in every order of three different axes, gives three finite angles of magnitude at most 4 such that the product of rotations they name is within 10\u03b5/c + 4\u03b5 + 2^-17 of R, entry by entry, where c is the cosine of the second angle (the distance from gimbal lock); at gimbal lock, and so close to it that the code takes it for one, it is within 10\u03b5 + 2^-17.  Hence init_from_matrix followed by to_matrix returns R within that bound plus 2^-16 in the orders SXYZ and RXYZ; init_from_quaternion of a nearly unit quaternion gives the angles of its rotation; and graphene_euler_reorder from SXYZ or RZYX to any order of three different axes keeps the rotation within 150/2^20/c + 2^-13.", "quantifier": "all orders of three different axes, all float matrices near a rotation, all \u03b5 \u2264 1/32, all backends, all conforming libm", "why_tests_cant": "The angles are discontinuous at gimbal lock and rounding is magnified near it; tests check a few angles far from it.", "anchors": ["src/graphene-euler.c:graphene_euler_init_from_matrix", "src/graphene-euler.c:matrix_to_euler", "src/graphene-euler.c:graphene_euler_init_from_quaternion", "src/graphene-euler.c:graphene_euler_reorder", "src/graphene-euler.c:graphene_euler_to_matrix"]}
{"id": "C132", "title": "Spherical interpolation of quaternions in single precision", "statement": "graphene_quaternion_slerp of finite float quaternions within \u03b5 \u2264 1/16 of two unit quaternions a and b, with a factor t between 0 and 1, for a C library whose sinf, cosf and acosf are accurate: the result is finite and within 8\u03b5 + 8\u221a(3\u03b5 + 2^-20) + 2^-12 (and within 8\u03b5 + 12(3\u03b5 + 2^-20)/sin \u03b8 + 2^-12, where \u03b8 is the angle from a to b) of the point a fraction t of the way along the arc from a to b if their rounded dot product is not negative, as it is whenever cos \u03b8 > 3\u03b5 + 2^-20, and along the shorter arc from -a to b otherwise; when b is so close to -a that the dot product rounds to -1 this holds up to the sign of the result.  At t = 0 and t = 1 the result is one of the two inputs up to sign and that error.", "quantifier": "all pairs of finite float quaternions near the unit sphere, all float factors in [0, 1], all conforming libm", "why_tests_cant": "The reciprocal sine magnifies rounding when the two rotations are close and the branch on the sign of the dot product makes the result discontinuous; tests try a few pairs.", "anchors": ["src/graphene-quaternion.c:graphene_quaternion_slerp", "src/graphene-quaternion.c:graphene_quaternion_dot"]}
{"id": "C133", "title": "Angle and axis of a quaternion in single precision", "statement": "For every finite quaternion that is neither too short nor too long to be normalised and lies within a relative error eps of a multiple of the unit quaternion of the rotation by psi about the unit axis u, quaternion_to_angle_vec3 gives finite numbers: the angle within (724 eps + 2^-10)/s degrees of psi and each axis component within (5 eps + 2^-17)/s^2, with s = sin(psi/2) and s^2 at least 128 eps + 2^-12. An angle and an axis that go through quaternion_init_from_angle_vec3 come back to within 3*2^-9/s degrees and 5*2^-17/s^2. For every angle, including none, the results are finite and the angle within 0.4 degrees as long as normalising has not rounded the real part above 1; nothing clamps it, and on SSE hardware that meets its documented accuracy it can be rounded above 1, giving NaN.", "quantifier": "all finite quaternions in the range of lengths, all axes, angles and error levels, all backends, every C library with an accurate acosf (and sinf, cosf for the round trip) and every estimate instruction within its documented accuracy", "why_tests_cant": "The error grows without bound as the rotation gets small, for uncountably many quaternions; the NaN depends on the rounding of a hardware estimate that differs between machines.", "anchors": ["src/graphene-quaternion.c:graphene_quaternion_to_angle_vec3", "src/graphene-quaternion.c:graphene_quaternion_init_from_angle_vec3", "src/graphene-quaternion.c:graphene_quaternion_normalize"]}
{"id": "C134", "title": "Euler angles of a quaternion in single precision", "statement": "For every finite quaternion within eps <= 1/16 of plus or minus the unit quaternion of the rotations by x, y, z about the three axes, quaternion_to_radians gives finite angles, within (13 eps + 2^-17)/cos y of x, y and z (x and z up to full turns), and the pitch always within sqrt(12 eps + 2^-17); quaternion_to_angles the same in degrees within (750 eps + 2^-11)/cos y. Angles in degrees put in with quaternion_init_from_angles come back to within 2^-8/cos y degrees. For every unit quaternion away from gimbal lock the reported angles rebuild the same rotation, each matrix entry within (30 eps + 2^-16)/sqrt(1-S^2), S the sine of the pitch. In gimbal lock itself the other two angles are lost, even in exact arithmetic: the report is (0, +-pi/2, 0) whatever they were.", "quantifier": "all finite quaternions near the unit sphere, all angles, all error levels up to 1/16, every C library with accurate atan2f, asinf (and sinf, cosf for the round trip)", "why_tests_cant": "The error is governed by the distance to gimbal lock, which ranges over a continuum; a test samples a few orientations, and the library's own tests avoid the lock.", "anchors": ["src/graphene-quaternion.c:graphene_quaternion_to_radians", "src/graphene-quaternion.c:graphene_quaternion_to_angles", "src/graphene-quaternion.c:graphene_quaternion_init_from_angles"]}
{"id": "C135", "title": "The tolerance of the near tests in single precision", "statement": "vec2/vec3/vec4_near with finite components and a tolerance e >= 0: a yes is never given when a single component is off by e or more, exactly; for tolerances between 2^-60 and 2^60 a yes means a Euclidean distance of at most e(1+2^-20) and any distance of at most e(1-2^-20) gets a yes. matrix_near is that, row by row. point_near and point3d_near: a yes means every coordinate is closer than e, exactly, and coordinates closer than e/(1+2^-24) always get a yes. With a tolerance below 2^-75 the square underflows: a vector is not near its own copy; at 2^65 it overflows and vectors at distance 2^64 are not near.", "quantifier": "all finite vectors, points and matrices, all finite tolerances, every SIMD backend", "why_tests_cant": "The claim is about every pair of floats around the boundary of the tolerance; the library's tests use two or three tolerances.", "anchors": ["src/graphene-vectors.c:graphene_vec2_near", "src/graphene-vectors.c:graphene_vec3_near", "src/graphene-vectors.c:graphene_vec4_near", "src/graphene-matrix.c:graphene_matrix_near", "src/graphene-point.c:graphene_point_near", "src/graphene-point3d.c:graphene_point3d_near"]}
{"id": "C136", "title": "Areas, and rectangles as 2D boxes, in single precision", "statement": "rect_get_area of a finite rectangle, whatever the signs of its sizes, is not negative, is off by one rounding (relative 2^-24, absolute 2^-150) and never shrinks when the sizes grow. A normalised rectangle and the box made of it by box2d_init_from_rect contain the same points. box2d_to_rect gives a normalised rectangle with the box's minimum as origin, sizes that are the nearest floats to the exact ones and a far corner off by at most 2^-24 of the size. Converting to a box and back keeps the origin and changes each size by at most 2^-22 of |origin|+size, and nothing at all on a pixel or sub-pixel grid. The error is relative to the coordinates, not the size: a rectangle of width 1 at 2^24 comes back with width zero, and the rectangle of a box can miss a corner the box contains.", "quantifier": "all finite rectangles and boxes (conversions up to 2^125), all points including infinities and NaN", "why_tests_cant": "Rounding of the far edge depends on every combination of origin and size.", "anchors": ["src/graphene-rect.c:graphene_rect_get_area", "src/graphene-box2d.c:graphene_box2d_init_from_rect", "src/graphene-box2d.c:graphene_box2d_to_rect", "src/graphene-box2d.c:graphene_box2d_contains_point"]}
{"id": "C137", "title": "Lengths that are exact, monotone and never below a component", "statement": "vec2/vec3/vec4_length of finite vectors, on every backend but NEON: growing any component in magnitude never shrinks the length, not even by a rounding error; no component of at least 2^-62 exceeds the length; the length of a vector with a single non-zero component (between 2^-62 and 2^63) is exactly its magnitude; components that are whole numbers (or dyadic fractions) of up to 11 bits and have an exact length, such as 3 and 4, get exactly that length. On the backends that divide by the square root (GCC vectors and plain C) the components of a normalised vector are always finite and at most 1 in magnitude, for every finite vector, even one whose length overflows. Outside the range the squares underflow or overflow: the length of (2^-75, 0, 0) is 0 and that of (2^64, 0, 0) infinite.", "quantifier": "all finite vectors, all backends named", "why_tests_cant": "One rounding error in one vector out of 2^96 is enough to break it; callers pass the components to acosf, which answers NaN above 1.", "anchors": ["src/graphene-vectors.c:graphene_vec2_length", "src/graphene-vectors.c:graphene_vec3_length", "src/graphene-vectors.c:graphene_vec4_length", "src/graphene-vectors.c:graphene_vec2_normalize", "src/graphene-vectors.c:graphene_vec3_normalize", "src/graphene-vectors.c:graphene_vec4_normalize", "include/graphene-simd4f.h:graphene_simd4f_normalize3"]}
{"id": "C138", "title": "Undoing 2D transformations of rectangles on the pixel grid, exactly", "statement": "matrix_untransform_bounds for a 2D matrix that maps the pixel grid onto itself (whole-number entries, determinant 1 or -1: translations, flips, quarter turns, whole-number shears) and a rectangle with whole-number coordinates: it always reports success by writing a finite rectangle, which is exactly the smallest rectangle around the points the matrix takes to the corners and contains every point the matrix takes into the rectangle. For translations, flips and quarter turns, untransform_bounds after transform_bounds gives back all four edges exactly, whatever the sign of the rectangle's sizes; in particular a rectangle scrolled by whole pixels comes back.", "quantifier": "all such matrices and rectangles with numbers up to about 2^14 (24-bit products), every backend but NEON, any bounds argument", "why_tests_cant": "Exactness of determinant, cofactors, reciprocal and four corner transformations must hold for every combination of entries.", "anchors": ["src/graphene-matrix.c:graphene_matrix_untransform_bounds", "src/graphene-matrix.c:graphene_matrix_transform_bounds", "src/graphene-matrix.c:graphene_matrix_inverse", "src/graphene-matrix.c:graphene_matrix_is_2d"]}
{"id": "C139", "title": "Decomposing a scale and translation in single precision", "statement": "matrix_decompose of a matrix that scales (possibly with negative factors) and then translates, evaluated in single precision. When matrix_is_2d says no: it succeeds; the reported translation is exactly the matrix's; the reported scale factors are exactly the absolute values of the diagonal, all with a minus sign when an odd number of factors is negative; the shear is exactly zero; the perspective is exactly (0,0,0,1); the rotation is the identity (or the half turn left by two negative factors) with components off by at most 2^-9, and that is not always zero: diag(1,1,41) reports components of 2^-13. When matrix_is_2d says yes: the two translations and the two scale factors come out exactly (with their signs when exactly one is negative, without otherwise), and the third scale factor is reported as 0 whatever it was (every factor above 1 counts as two-dimensional).", "quantifier": "all such matrices with factors between 2^-11 and 2^20 in magnitude, translations zero or between 2^-20 and 2^20, determinant above the threshold (3D; every backend but NEON, with the guaranteed accuracy of rsqrt); for 2D factors between 2^-62 and 2^63, any finite translation, every backend", "why_tests_cant": "Exactness through normalisation, square roots, products with rounded reciprocals, and the sign test must hold for every combination of entries; the spurious rotation depends on the rounding of each reciprocal.", "anchors": ["src/graphene-matrix.c:graphene_matrix_decompose", "src/graphene-matrix.c:matrix_decompose_3d", "src/graphene-matrix.c:matrix_decompose_2d", "src/graphene-matrix.c:graphene_matrix_is_2d", "src/graphene-quaternion.c:graphene_quaternion_init_from_matrix"]}
{"id": "C140", "title": "Interpolating between translations in single precision", "statement": "matrix_interpolate between two translation matrices, evaluated in single precision with a factor in [0,1]. If at least one of the two is not two-dimensional (matrix_is_2d), and the backend has an exact square root: the result is exactly a translation, by vec3_interpolate of the two displacements; factor 0 gives the first and factor 1 the second exactly. If both are two-dimensional, on every backend: the result is NEVER a translation, not even when a translation is interpolated with itself: it carries a spurious rotation (the code turns the zero angles into 360 degrees) whose off-diagonal entries lie between 2^-25 and 5*2^-24, and its displacement is vec2_interpolate of the displacements up to one part in 2^20.", "quantifier": "all finite displacements (componentwise sum of magnitudes at most 2^127; 2^125 for the interpolated displacement in the plane), all factors in [0,1], for 2D every libm with sine and cosine accurate to 2^-23 and atan2(0, positive) = 0", "why_tests_cant": "The result must be exact for every pair of displacements and every factor; and that a spurious rotation appears for all planar translations is a universal statement about the value of single-precision sine at the rounding of two pi.", "anchors": ["src/graphene-matrix.c:graphene_matrix_interpolate", "src/graphene-matrix.c:matrix_decompose_3d", "src/graphene-matrix.c:matrix_decompose_2d", "src/graphene-quaternion.c:graphene_quaternion_slerp"]}
{"id": "C141", "title": "What matrix_print writes", "statement": "matrix_print writes four lines; line i consists of a bar, the four entries of row i in column order separated by spaces, and a bar. A finite entry is written with sign, decimal point and six decimals, and read back as a decimal number it is within half a unit of the sixth decimal of the entry; infinities and NaNs are written as such and cannot be read as numbers. Two matrices with the same output agree entry by entry to within 10^-6.", "quantifier": "all matrices of binary32 entries, including infinities and NaN, huge and denormal ones", "why_tests_cant": "The decimal text must be right for every one of the 2^32 values in every position, with ties and carries across nines.", "anchors": ["src/graphene-matrix.c:graphene_matrix_print", "src/graphene-matrix.c:graphene_matrix_get_value"]}
{"id": "C142", "title": "What unsafe math optimisation and contraction can change", "statement": "However the compiler reorders, reassociates, distributes or factors the additions and products of the dot products, cross product, vector, point and direction transforms, matrix product and quaternion product, and whichever products it fuses with additions: if the inputs lie on a grid on which the products fit 24 bits, the result is the exact value, so all builds and all backends agree; for all other finite inputs the result of code with n rounded operations is within n/2^23 of the sum of the magnitudes of the products (plus a denormal term) of the exact value, and does not overflow. Not kept: the cross product of a vector with itself is zero as written, but not when contracted.", "quantifier": "all binary32 inputs in range, all backends, and all finite sequences of rewritings permitted by the build's flags (-funsafe-math-optimizations without -ffinite-math-only, contraction)", "why_tests_cant": "A test runs one binary from one compiler; the claim is about every code sequence that any compiler may emit under the flags the build passes, and every input.", "anchors": ["include/graphene-simd4x4f.h:graphene_simd4x4f_vec4_mul", "include/graphene-simd4f.h:graphene_simd4f_dot3_scalar", "include/graphene-simd4f.h:graphene_simd4f_cross3", "src/graphene-quaternion.c:graphene_quaternion_multiply", "meson.build:test_cflags"]}
{"id": "C143", "title": "Determinants, ray positions, plane distances, rotations and interpolation under any permitted compilation", "statement": "Whatever the compiler reorders or contracts: the determinant of a matrix whose entries lie on a grid on which 24 products of four entries fit 24 bits (integers up to 28, for example) is exact, and for all other finite matrices with entries at most B it is within n/2^23 times 24 B^4 (plus a denormal term) of the determinant, n being the number of rounded operations; distances from a plane, positions along a ray, matrices of quaternions and interpolated vectors are exact for inputs on a grid on which their products fit 24 bits.", "quantifier": "all binary32 inputs in range, all backends (fused or not), and all finite sequences of rewritings permitted by the build's flags", "why_tests_cant": "The claim is about every code sequence that any compiler may emit, and every input.", "anchors": ["src/graphene-matrix.c:graphene_matrix_determinant", "src/graphene-plane.c:graphene_plane_distance", "src/graphene-ray.c:graphene_ray_get_position_at", "src/graphene-quaternion.c:graphene_quaternion_to_matrix", "include/graphene-simd4f.h:graphene_simd4f_interpolate"]}
{"id": "C144", "title": "Normalization on SSE stays accurate whatever the compiler does to it", "statement": "On SSE, with a processor whose reciprocal square root estimate is within 1.5/2^12 (Intel's and AMD's documented bound), normalizing a vector of finite components and length between 2^-16 and 2^16 gives components within (n+1)/2^21 of their own magnitude (plus n/2^45) of the exact unit vector's, whatever code the compiler emits for the refinement (n rounded operations, at most 1024: reassociated, distributed, constants folded, contracted or not) and for the squared length (at most 128 operations).", "quantifier": "all vectors of finite components in the stated range, all estimates meeting the documented bound, and all finite sequences of rewritings permitted by the build's flags", "why_tests_cant": "The claim is about every code sequence that any compiler may emit, every processor's estimate, and every input.", "anchors": ["include/graphene-simd4f.h:graphene_simd4f_rsqrt", "include/graphene-simd4f.h:graphene_simd4f_normalize3", "src/graphene-vectors.c:graphene_vec3_normalize"]}
{"id": "C145", "title": "Frustum culling under any permitted compilation", "statement": "Whatever code the compiler emits for the plane distances (inlined, reassociated, contracted, and possibly different at each use): for planes, points and boxes on a grid on which their products fit 24 bits (for example integers up to 2300), contains_point, intersects_sphere and intersects_box give the exact answers (all plane equations non-negative; no plane has the centre further behind it than the radius; no plane has the whole box strictly behind it); for all other finite inputs they do so except within the rounding error of a plane, n/2^23 of the sum of the magnitudes of its terms (n rounded operations, at most 1024).", "quantifier": "all frustums, points, spheres and boxes of finite values in range, all backends, and all finite sequences of rewritings permitted by the build's flags, at each evaluation of a distance", "why_tests_cant": "The claim is about every code sequence that any compiler may emit, and every input.", "anchors": ["src/graphene-frustum.c:graphene_frustum_contains_point", "src/graphene-frustum.c:graphene_frustum_intersects_sphere", "src/graphene-frustum.c:graphene_frustum_intersects_box", "src/graphene-plane.c:graphene_plane_distance"]}
{"id": "C146", "title": "Lengths and normalization on GCC vectors and scalars stay accurate whatever the compiler does", "statement": "On every backend but NEON, the length of a finite vector with length between 2^-16 and 2^16 is within (n+2)/2^23 of its exact length, relatively, whatever code of n rounded operations (at most 1024) the compiler emits for the squared length. On the GCC vector and scalar backends, for lengths between 2^-11 and 2^16, normalizing gives components within (n+5)/2^23 of their own magnitude (plus one denormal) of the exact unit vector's; the compiler may emit different code for the squared length in the test and in the division, test the length or its square, and turn the product with the reciprocal into a quotient. The tests pass in each form.", "quantifier": "all vectors of finite components in the stated ranges, and all finite sequences of rewritings permitted by the build's flags", "why_tests_cant": "The claim is about every code sequence that any compiler may emit, and every input.", "anchors": ["src/graphene-vectors.c:graphene_vec3_normalize", "src/graphene-vectors.c:graphene_vec3_length", "include/graphene-simd4f.h:graphene_simd4f_rsqrt", "src/graphene-simd4f.c:graphene_simd4f_rsqrt"]}
{"id": "C147", "title": "Distances and sphere containment under any permitted compilation", "statement": "Let the compiler rewrite the squared distance between a sphere's centre and a point, and the square of the radius, in any way the build's flags permit. If the coordinates are on a grid on which the multiplied-out terms fit in 24 bits, containment is decided exactly (the point is in the closed ball), the distance from the surface is within a relative 2^-22 of the magnitudes, and a sphere built around points with a given centre has a radius that reaches all of them up to a relative 2^-23 and is the correctly rounded distance of one of them. For any finite coordinates in range, containment is decided by the exact distance except within an error of n/2^23 of the terms (|c|+|p|)^2, n the number of operations. That error is real: a permitted rewriting puts a point at distance 1 inside a sphere of radius 1/2.", "quantifier": "all spheres and points (on a grid or of any finite coordinates in range), and all finite sequences of rewritings permitted by the build's flags", "why_tests_cant": "The claim is about every code sequence that any compiler may emit, and every input.", "anchors": ["src/graphene-sphere.c:graphene_sphere_contains_point", "src/graphene-sphere.c:graphene_sphere_distance", "src/graphene-sphere.c:graphene_sphere_init_from_points"]}
{"id": "C148", "title": "Rays against spheres are decided exactly on a grid, whatever the compiler does", "statement": "Let the coordinates of a ray's origin and a sphere's centre, and the radius, be on one grid, and the ray's direction on another, such that the terms of the test fit in 22 bits. Whatever code the compiler emits, within the build's flags, for the distance along the ray, the squared distance from the line, the squared radius and the argument of the square root, the kind of intersection is the exact one: none when the line misses the closed ball, or the centre is behind and the origin outside; leave when the origin is strictly inside, or not outside with the centre behind; else enter. For a unit direction a hit is reported exactly when the ray meets the closed ball, tangents included. The parameter is within a relative 2^-22 of the magnitudes of its terms from the exact root.", "quantifier": "all rays and spheres on such grids, and all finite sequences of rewritings permitted by the build's flags, on every backend", "why_tests_cant": "The claim is about every code sequence that any compiler may emit, and every input.", "anchors": ["src/graphene-ray.c:graphene_ray_intersect_sphere", "src/graphene-ray.c:graphene_ray_intersects_sphere"]}
{"id": "C149", "title": "Rays against triangles are decided exactly on a grid, whatever the compiler does", "statement": "Let the coordinates of a ray's origin and a triangle's vertices be on one grid, and the ray's direction on another, with determinants that fit in 24 bits and a combined grid no finer than 2^-22. Whatever code the compiler emits, within the build's flags, for each of the compared expressions and the final quotient, a ray parallel to the triangle's plane is reported not to intersect it; any other ray is reported to intersect exactly when it meets the triangle, edges and vertices included; enter is reported only against the normal and leave only along it; and the distance written is within a relative 2^-22 of that of the one meeting point.", "quantifier": "all rays and triangles on such grids, and all finite sequences of rewritings permitted by the build's flags, on every backend", "why_tests_cant": "The claim is about every code sequence that any compiler may emit, and every input.", "anchors": ["src/graphene-ray.c:graphene_ray_intersect_triangle", "src/graphene-ray.c:graphene_ray_intersects_triangle"]}
