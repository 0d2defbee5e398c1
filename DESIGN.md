# Formal model of graphene in Lean 4 — design

## Approach

Every C function of the library's numeric core is transcribed once into Lean, in
`lean/Verif/Model/`, generically over a type `α` of C `float` values with an
operation signature `Scalar α` (no laws assumed) and, where the implementation
differs, over the SIMD backend `bk : Backend` (SSE2/SSE4.1/AVX, GCC vectors, NEON,
plain C).  Each definition cites the file and lines it models.

The one model is then read in two interpretations:

* **IEEE** (`Verif/Model/Fp.lean`): binary32 (`F32`) and binary64 (`F64`) with NaN, infinities, signed
  zeros, subnormals, round-to-nearest-even.  Used for everything that is comparison,
  selection, copying, special values, exactness, NaN behaviour.
* **ℝ** (`Verif/Model/RealScalar.lean`): exact arithmetic.  Used for geometric and algebraic
  properties, stated against Mathlib notions (matrices, determinants, quaternions, cross products, sets of points).
  These theorems do not cover rounding error; C85 onwards bound it in the IEEE interpretation.

Some theorems are generic: they hold for every `Scalar α`, hence for both.

Layout: `Verif/Model` (the code), `Verif/Spec` (independent specifications: point sets,
matrices, orders), `Verif/Proofs` (helper lemmas), `Verif/Props` (one theorem group per property,
`Cnn_…`), each with a non-vacuity `example`.

Undefined behaviour (out-of-bounds access, reading uninitialised objects, writing
past a block) is a distinct outcome (`none`, `Res.ub`, `Outcome.ub`).  Functions that do not write `*res` on
some path say so in their type.

A property that is false of the code is recorded as such: the negation is proved
with a concrete witness (`…_false` theorems), and a `_partial` theorem states what holds.

## Trusted base

* Lean 4.33.0's kernel; axioms at most `propext`, `Classical.choice`, `Quot.sound` for every theorem
  (no axioms of our own, no `native_decide`/`bv_decide`). Concrete IEEE witnesses use `decide +kernel`, i.e. kernel reduction.
* Mathlib definitions used in statements (`Matrix`, `det`, `crossProduct`, `Quaternion`, `Real.sqrt`, `Real.sin`, `Complex.arg`, `Int.floor`, `Set`).
* The reading of the C code: the model is a hand transcription, not extracted; nothing was compiled or run.
* IEEE interpretation: strict evaluation as written, round-to-nearest-even, no excess precision, no
  contraction.  `meson.build:87-94` enables `-funsafe-math-optimizations` style flags where supported
  (not `-ffinite-math-only`), so a compiler may legally deviate.  C142 (Model/Unsafe) models that freedom for code made of
  additions, subtractions and products: reassociation, commutation, distribution, sign rules, contraction, and bounds what it can change;
  C143, C145 and C147–C149 apply it to more functions; C144 and C146 to normalization, where estimates, roots and divisions are operations the
  compiler does not rewrite (except a product with a reciprocal into a quotient).  Other code with divisions, roots or library calls stays outside.  One NaN (no payload or sign).
  libm functions and the `rcpps`/`rsqrtps`/NEON estimates are arbitrary functions in the IEEE
  interpretation (class `Libm`: theorems hold for all of them) and exact in ℝ.  Some theorem groups need more and say so
  as a hypothesis: `Spec.TrigAccurate` (C108, C115, C123, C130, …: `sinf`/`cosf` of a finite argument in range within 2^-23),
  `Spec.Atan2Accurate` (C131: `atan2f` within 2^-22 of an angle of the point), `Spec.AcosAccurate` (C132, C133: `acosf` within 2^-22), `Spec.AsinAccurate` (C134: `asinf` within 2^-22), `Spec.EstZero` (C98: the reciprocal estimate of a zero is the infinity of its sign) and
  `Spec.EstAccurate` (C99: relative error of the estimates at most 1.5·2^-12 on SSE, 2^-7 on NEON, as in the
  processor manuals); all are shown satisfiable.
* That `Fp` is IEEE arithmetic is itself partly checked: `Rnd.nearest` (Proofs/Round3) proves that the model's rounding
  returns a nearest representable number, with `rnd_add`, `rnd_mul`, … tying every operation to the exact result.
  `kdecide` (Proofs/KDecide) generalises over the arbitrary `Libm` instance before kernel evaluation; it adds no axiom.
* Histories (C95): a history is a list of allocations, stores, copies and frees by one thread; the system allocator is
  arbitrary subject to returning fresh, non-overlapping blocks.
* ℝ interpretation: no rounding/overflow; `GRAPHENE_PI` is π; `INFINITY` is not represented (no ℝ
  theorem relies on it); Lean's `x/0 = 0`, so theorems carry the divisor guards.
* `atan2f y x` is `Complex.arg (x + iy)` over ℝ.

`graphene-gobject.c` is modelled by `Model/Heap.lean` (boxed copies) and `Model/GType.lean` (`*_get_type`), the latter
over the documented behaviour of `g_once_init_enter`/`g_once_init_leave`/`g_boxed_type_register_static`, which is trusted.
NEON's `vrecps`/`vrsqrts` are modelled with a separately rounded product (AArch64 fuses it) and without ARMv7's flushing of
subnormals to zero.

The SIMD backends are also modelled at the level of their intrinsics (`Model/Intrinsics.lean`, C126).  The meaning of each
intrinsic (Intel Intrinsics Guide, Arm pseudocode, GCC manual) is trusted; arithmetic instructions are an abstract `Alu` whose
results decode to the IEEE results, so NaN payloads and signs are free.  The MSVC flavours call the same intrinsics.

Not modelled: the MSVC flavours as separate text, the `graphene-version` macros, sign of
`fmaxf(+0,-0)`, compiler and hardware, GObject-introspection.  The `%+.6f` conversion of `graphene_matrix_print` is modelled as specified by ISO C
(correct decimal rounding, as glibc does), not from the C library's code.


## Findings: where the code does not do what its documentation says

Each is proved as a witness next to the property it breaks (theorem names ending in `_false`, or a delimiting example).

- Rectangles: `rect_round` need not contain its argument (C25); `box2d_init_from_rect` mis-converts negative sizes (C36);
  in single precision a negative-size rectangle can lose its own origin (C91) and a union off the pixel grid can lose points (C90).
- Boxes: `contains_box` is wrong for two infinite or two empty boxes (C33); `box_expand_scalar` with a negative scalar also
  changes the hidden lanes (C34); the centre of a box with huge corners overflows (C93).
- `sphere_translate` does not store the radius in a separate result (C39); `transform_sphere` under-estimates under skew (C58);
  squared distances underflow for tiny spheres (C96).
- `matrix_decompose` solves the transposed equation for the perspective vector (C111).
- `init_look_at` gives a singular matrix when looking along z with `up = (0, 0, -1)`, and on the scalar backend for any unit `up`
  parallel to the view direction (C112).
- `matrix_to_euler`, repeated orders: `sy` multiplies `M[i][k]` by `M[i][j]` where it should square it, so a quarter turn about the second axis is recovered as three zero angles (C79_repeated_false).
- `triangle_get_uv` with `res` equal to one of the texture coordinates, and `quad_init` with the quad's own corners permuted, read what they have already overwritten (C127).
- `graphene_euler_init (e, 0, 1, 0)` followed by `graphene_euler_get_y` does not return 1: degrees are stored as radians and
  read back with two more roundings (C130 bounds the error by |x|/2^22).
- `quaternion_to_angle_vec3` does not clamp the normalised real part before `sqrtf (1 - w*w)` and `acosf`: on SSE (and with any estimate inside its documented accuracy) a non-rotating quaternion such as (0, 0, 0, 1.6469179) can be normalised to real part 1 + 2^-23, and the axis is NaN (C133_no_clamp).
- `quaternion_to_radians`/`to_angles` have no case for gimbal lock: for pitch ±90° both `atan2f` calls see (0, 0), the report is (0, ±90°, 0) and the rotation about the vertical axis is lost (C134_gimbal_lock); e.g. the turn by a third about the diagonal, (1/2, 1/2, 1/2, 1/2). (The Euler-angle type handles the lock, C131_lock.)
- `vec{2,3,4}_near` square the tolerance: below 2^-75 a vector is not near its own copy, at 2^65 everything overflows and nothing is near (C135_range).
- `box2d_init_from_rect` followed by `box2d_to_rect` loses sizes that are small against the origin: width 1 at 2^24 comes back as 0, and the rectangle can miss a corner of its box (C136_loses).
- `vec3_length` neither scales nor uses hypot: (2^-75, 0, 0) has length 0 and (2^64, 0, 0) infinite length (C137_range).
- `matrix_decompose` of a pure scale by (1, 1, 41) with a translation along z reports a rotation with components 2^-13 instead of the identity (the root of a rounding error), and any scale by more than 1 along z without z translation counts as 2D, so that the z factor is reported as 0 (C139).
- `matrix_interpolate` between two planar translations never gives a translation (zero angles are replaced by 360 degrees before the rotation is rebuilt, and `sinf` of the rounded angle is about 2^-22.5), even for equal operands (C140).
- With contraction (GCC's default on targets with FMA), `vec3_cross (v, v)` need not be the zero vector (C142_cross_self_contracted).
- `plane_transform` with a singular matrix is undefined behaviour (C42).
- `triangle_contains_point` excludes the edge b–c (C45).
- `matrix_determinant` has the wrong sign (C53); `transform_box` leaves hidden lanes that break later comparisons (C59);
  `untransform_bounds` cannot report failure and leaves its result unwritten (C60); `is_2d` accepts zz = -1 (C61);
  `init_ortho` maps top to -1 (C62); `look_at` does not map the eye to the origin (C64); `matrix_perspective` (C65);
  `project_point`, `project_rect_bounds`, `unproject_point3d` (C66).
- `matrix_decompose`: on the 2D path the rotation is reversed and the z scale is 0; identity reports perspective (0,0,0,0);
  NaN entries lead to reads of uninitialised values (C68).  `matrix_interpolate`: `success |= …` reads an undecomposed
  operand, the parts are recomposed in another order, results may not alias operands (C69).
- `quaternion_init_from_matrix` is wrong for half turns with mixed-sign axes (C72); `quaternion_equal` accepts the conjugate
  and rejects the negation (C75).
- `euler_to_quaternion` and `euler_init_from_matrix` are right for 2 of 24 orders (C78, C79).
- `graphene_aligned_alloc` wraps around when rounding a huge size up (C82); boxed copies dereference NULL when the
  allocation fails (C95); the flag-based once-initialisation races (C83, C84).
- The plain C backend compares the *squared* length with `FLT_EPSILON`: a vector of length 2^-12 normalises to zero there
  and not elsewhere (C99).
- Vector interpolation can leave the segment by rounding (C92); copying a ray renormalises its direction, so the copy need
  not be bit-equal to its source (C94).

## Properties: what is modelled and how it is proved

- **C01 Vector arithmetic is component-wise** — generic (any scalar interpretation, hence also IEEE with NaN); lane projections of the model's vector functions, by unfolding against a spec that names the scalar operation per component.
- **C02 Float-array round trips are lossless and stay in bounds** — generic (any scalar interpretation, hence also IEEE with NaN); buffers are lists, out-of-bounds is `none`; round trip and frame (suffix untouched) for every length.
- **C03 Dot product and length are the Euclidean ones** — ℝ; `dot` against the sum of products, `length` against `√`; Cauchy–Schwarz from Mathlib-style inequality.
- **C04 Normalising gives a unit vector in the same direction, or zero** — ℝ for the direction/unit claim; guard `length > FLT_EPSILON` explicit, other branch is the zero vector.
- **C05 Cross product is the right-handed cross product** — ℝ; against Mathlib's `crossProduct` (⨯₃).
- **C06 Vector near/equal mean Euclidean distance below the tolerance** — ℝ; `near` ⇔ `√(Σ d²) < ε`, `equal` for the non-scalar backends; counter-example for the scalar backend.
- **C07 Hidden lanes never leak into vec2/vec3 results** — generic (any scalar interpretation, hence also IEEE with NaN); two vectors with the same visible components give the same visible results (non-interference).
- **C08 equal is reflexive, symmetric and NULL-safe for every type** — memory/pointer model; reflexivity and NULL generic; symmetry over IEEE binary32 (needs a−b = −(b−a) in the float model).
- **C09 SIMD min/max/clamp select the right operand** — IEEE binary32 order lemmas (`key`), all backends.
- **C10 All backends agree in exact arithmetic** — ℝ, estimates exact; the guards of the scalar/GCC backends (|b| ≤ FLT_EPSILON) are excluded hypotheses, and the difference there is proved as a negation.
- **C11 SIMD comparisons compare every lane** — IEEE; each comparison ⇔ conjunction of the lane relations; `approx_equal` anomalies (∞ = −∞) as negation.
- **C12 Point distances form the Euclidean metric** — ℝ; triangle inequality via Mathlib's Euclidean norm.
- **C13 Interpolation hits both endpoints and stays between them** — ℝ.
- **C14 Interpolation endpoints are exact in floating point** — IEEE binary32/binary64: exactness of conversion, ×1, +0 in the float model.
- **C15 Point near/equal is a per-axis tolerance** — ℝ; per-axis tolerance.
- **C16 normalize_viewport stays in [-1,1]** — IEEE for the range, ℝ for the affine map.
- **C17 Rectangle normalisation preserves the area covered** — ℝ for the point set; IEEE for idempotence and sign.
- **C18 Rectangle accessors describe the same rectangle for every representation** — ℝ; accessors as functions of the covered set: min/max of the edge coordinates.
- **C19 rect_union is the smallest rectangle covering both** — ℝ; order-theoretic least upper bound of the covered sets.
- **C20 rect_intersection is the exact overlap** — ℝ; set equality with the intersection; interiors.
- **C21 rect_contains_point is closed membership; contains_rect is inclusion up to epsilon** — ℝ (+ IEEE form of contains_point).
- **C22 Rectangle equality ignores representation** — ℝ.
- **C23 offset, inset, expand and scale do what they say** — ℝ; image of the covered set.
- **C24 round_extents gives the smallest integer rectangle containing the original** — ℝ; floor/ceil from Mathlib.
- **C25 rect_round contains the original rectangle** — FALSE of the code: negation with a concrete rectangle; partial: integer origin, or in general size covers within one unit.
- **C26 Result pointers may alias the arguments** — generic (any scalar interpretation, hence also IEEE with NaN); store-level model (`…P` functions, one store per C assignment) equals value-level result for every aliasing pattern.
- **C27 quad_contains is membership in the convex quadrilateral** — ℝ; convex position as four orientation conditions; hull as convex combinations.
- **C28 quad_bounds is the smallest rectangle containing the corners** — ℝ.
- **C29 A box built from points contains exactly what it must** — IEEE; induction over the point list; `empty` as the start of the fold.
- **C30 The empty and infinite boxes behave as such** — IEEE.
- **C31 Box intersection is the set of common points** — IEEE.
- **C32 Box union is the smallest box containing both** — IEEE.
- **C33 contains_box means inclusion of point sets** — IEEE; FALSE for (infinite,infinite), (empty,empty): negations; partial for the remaining boxes.
- **C34 expand_scalar grows (or shrinks) the box on every side** — ℝ/IEEE; FALSE for negative scalars in 3D (hidden lane): negation; partial for scalar ≥ 0; box2d full.
- **C35 Box measurements are consistent** — ℝ.
- **C36 box2d scale/offset and rectangle conversions preserve the covered area** — ℝ; FALSE for init_from_rect on negative sizes: negation; partial for normalised rectangles.
- **C37 A sphere built from points contains all of them** — ℝ; induction over the list.
- **C38 Sphere containment, distance and bounding box agree** — ℝ.
- **C39 Translating a sphere moves it and keeps its radius** — FALSE of the code (radius not copied): negation + partial for the centre / for res with that radius.
- **C40 Planes built from points pass through them** — ℝ.
- **C41 Plane distance, normalise and negate** — ℝ.
- **C42 plane_transform maps the plane's points** — ℝ; partial: invertible affine matrix; UB for singular matrix as negation.
- **C43 Triangle measures: area, midpoint, normal, plane, bounding box** — ℝ (bounding box: IEEE).
- **C44 Barycentric coordinates reconstruct the point** — ℝ.
- **C45 triangle_contains_point is membership in the triangle** — ℝ; FALSE on the edge opposite to vertex a (strict <): negation; partial: half-open triangle.
- **C46 Rays are normalised and parametrised by distance** — ℝ.
- **C47 Closest point and distance from a ray to a point** — ℝ; minimality over the half-line.
- **C48 Distance from a ray to a plane** — ℝ; INFINITY is not a real, so the finite branch is stated through the branch conditions.
- **C49 Ray-sphere intersection is exact** — ℝ.
- **C50 Ray-box intersection is exact** — ℝ, all direction components non-zero; zero components need IEEE infinities.
- **C51 Ray-triangle intersection is exact** — ℝ.
- **C52 Matrix multiplication is the matrix product** — ℝ; bridge `toMat : M4 ℝ → Matrix (Fin 4) (Fin 4) ℝ`.
- **C53 Determinant and singularity** — ℝ; `Matrix.det`.
- **C54 Inverse is a two-sided inverse, and fails exactly for near-singular matrices** — ℝ; `Matrix` inverse laws.
- **C55 Element access: rows, values, transpose** — generic (any scalar interpretation, hence also IEEE with NaN).
- **C56 Translate, scale, rotate, skew post-multiply the documented transformation** — ℝ.
- **C57 Transforming points, vectors and bounds** — ℝ.
- **C58 A transformed sphere contains the image of the sphere** — ℝ; FALSE for skewed matrices: negation; partial: orthogonal rows.
- **C59 Objects returned by transform_box / transform_sphere can be used like any other** — IEEE/ℝ; FALSE (hidden lane): negation + partial.
- **C60 untransform_point inverts transform_point for 2D transforms** — ℝ.
- **C61 2D matrices round-trip through six numbers** — IEEE round trip; is_2d FALSE for |zz|>1: negation; partial.
- **C62 Orthographic projection maps the view volume to the clip cube** — ℝ; FALSE in y (flipped): negation; x and z proved.
- **C63 Perspective and frustum projections map the view volume to the clip cube** — ℝ.
- **C64 look_at builds an orthonormal camera basis looking from eye to center** — ℝ; orthonormal basis proved; eye ↦ origin FALSE: negation.
- **C65 matrix_perspective appends a perspective divide** — ℝ; FALSE: negation; partial says what it computes.
- **C66 project and unproject** — ℝ; project_rect corner order FALSE: negation.
- **C67 Matrix comparison and identity test** — ℝ / IEEE.
- **C68 Decomposition recomposes to the original** — ℝ; 3D path; negations for 2D path anomalies.
- **C69 Matrix interpolation hits its endpoints** — ℝ; FALSE: negation; UB witness; aliasing witness; partial for the 3D path.
- **C70 Quaternion algebra** — ℝ; Mathlib `Quaternion ℝ`.
- **C71 Quaternion to matrix is a rotation and respects composition** — ℝ.
- **C72 Matrix to quaternion recovers the rotation** — ℝ; FALSE for w = 0: negation; partial for w ≠ 0.
- **C73 Angle/axis and Euler-angle constructors** — ℝ.
- **C74 Slerp interpolates on the unit sphere** — ℝ.
- **C75 quaternion_equal means the same rotation up to tolerance** — FALSE (conjugate accepted, negation not): negations; partial.
- **C76 Euler order: alpha, beta, gamma and order aliases** — generic; finite enumeration of the 24 orders with universally quantified angles.
- **C77 euler_to_matrix composes the three axis rotations in order** — ℝ; 24 orders × all angles.
- **C78 euler_to_quaternion describes the same rotation as euler_to_matrix** — ℝ; FALSE except XYZ-like orders: negations; partial.
- **C79 Euler angles recovered from a matrix give the same rotation** — ℝ; FALSE: negation; partial.
- **C80 A frustum from a matrix is the clip volume** — ℝ.
- **C81 Frustum culling has no false negatives** — ℝ.
- **C82 Aligned allocation never returns a block smaller than requested** — Nat arithmetic modulo 2^W with an arbitrary system allocator.
- **C83 Static constants are fully initialised before anyone reads them** — transition system with per-thread store buffers, invariant by induction over arbitrary schedules; negation for the flag build.
- **C84 Static constants in builds without thread support** — the same transition system with one thread; refuted for two.
- **C85 Dot product and length are accurate in single precision** — IEEE; error calculus `Approx` over correctly rounded operations (Proofs/Round*, Approx), independent bound `Spec.dotErr`.
- **C86 Distances between points in single precision** — IEEE; exact difference lemmas and the error calculus; underflow witness.
- **C87 Matrix products and transformations are accurate in single precision** — IEEE; the same error calculus entry by entry, against Mathlib's matrix product of the real values.
- **C88 Identity, translation and scaling matrices act exactly in single precision** — IEEE; exact evaluation rules `Is` (adding and multiplying by exact zeros and ones).
- **C89 What equality means in single precision** — IEEE; the difference is correctly rounded, and rounding is monotone, so the rounded difference compares with the tolerance like the exact one; `Spec.EqualMeans`.
- **C90 Rectangle operations are exact on a pixel grid in single precision** — IEEE; every intermediate value is shown to be a multiple of 2^-k below 2^24 steps, hence representable, hence computed exactly; the result is then the ℝ model of the same function, to which the C01–C11 theorems apply (`Proofs/GridRect.lean`).
- **C91 Rectangle tests err on one side only, for all floats** — IEEE; x+width is correctly rounded, and rounding is monotone and does not cross representable values, so comparisons with a float operand never go the wrong way.
- **C92 Interpolation stays between its operands in single precision** — IEEE; the double computation is monotone in both operands and its error on equal operands is far below half a float ulp, so it rounds back to the operand (`Rnd.of_near`: the model's rounding is proved to be to nearest); monotonicity then gives the bounds.
- **C93 Centres, extents and expansion of boxes and rectangles in single precision** — IEEE; doubling and halving are exact above underflow, sums are correctly rounded and rounding is monotone, so the rounded midpoint stays between the corners; Sterbenz-style argument shows a rounded difference of distinct floats is not zero.
- **C94 What is stored is what is read back, bit for bit** — Generic model (so the statement holds for F32 and ℝ); by cases on the NULL patterns; witness for the ray evaluated in F32 by the kernel.
- **C95 Objects are independent values in every history of allocation, stores, copies and frees** — HISTORY; flat byte memory plus the list of blocks handed out; refinement to a map from addresses to (type, contents), invariant proved by induction over the history (`Model/Heap.lean`).
- **C96 Spheres in single precision answer like exact spheres, up to a thin shell** — FP; forward error analysis with the rounding lemmas of `Proofs/Round*.lean` and `Proofs/Approx.lean`; induction over the list for the maximum.
- **C97 Planes and frusta in single precision answer like exact ones, up to rounding error** — FP; forward error analysis on top of the dot product bound of C85, monotonicity of rounding for the corner choice.
- **C98 Rays in single precision** — FP; error bounds and monotone rounding for positions; case analysis on signs, infinities and NaN for the slab test, using that the sign of a float difference is exact.
- **C99 Normalising in single precision gives a unit vector, on every backend** — FP; quadratic convergence of the rounded Newton steps (`Proofs/Newton.lean`) from any estimate within the manuals' bounds (hypothesis `Spec.EstAccurate`, shown satisfiable), combined with the error of the dot product (C85).
- **C100 The algebraic laws that survive rounding hold bit for bit** — FP; equalities and oppositeness (`Spec.Opp`) of IEEE operations proved by cases on the operands (`Props/Float13.lean`); no finiteness hypotheses.
- **C101 get_type registers each boxed type exactly once, under any schedule** — transition system `Model/GType.lean` with one step per atomic action of g_once_init_enter/leave and of the registration; five-phase invariant per type, by induction on executions; progress by constructing the completing execution; the name clash by a second invariant.
- **C102 2D transformations are exact on a pixel grid, in floating point** — binary32 interpretation; `OnGrid` calculus (Proofs/Grid, GridRect) through vec4_mul, min_val/max_val (with NEON's NaN rule) and Rect.init; the real result identified through C57 on the matrix of real values.
- **C103 Determinant exact and inverse accurate for matrices on a grid, in floating point** — `OnGrid` calculus through the shuffles of the minors, lane by lane, with and without fused multiply-add, with the bound of each minor its expansion with positive signs; true value identified through C53/C54 on the matrix of real values; then two roundings (reciprocal, product).
- **C104 Inverting scale-and-translate matrices in floating point** — an abstract calculus of values whose sums have at most one non-zero term, run once through the minors, rows and determinant, instantiated with relative errors and with exact values; the true inverse identified through `inv_cofs` of C103.
- **C105 Rigid motions stay rigid** — inductive predicate `Spec.Built` over call histories; invariant: affine, orthonormal linear part, determinant 1; consequences by linear_combination over the orthonormality equations. rotate_euler goes through quaternions, which some orders leave non-unit (C78), so it is not a constructor.
- **C106 Hit-testing of quadrilaterals in single precision** — coordinate differences are exact on the grid; monotone rounding of the two products gives one-sided signs; small grid: everything exact (OnGrid); general floats: the error calculus Approx bounds the sign expression. A witness (C106_outside_accepted) shows that false hits do exist beyond the small grid.
- **C107 Quaternion products and matrices in single precision** — error calculus Approx per component with Cauchy-Schwarz for the sums of products; Mathlib's multiplicative quaternion norm carries the induction over the list; the matrix is Lipschitz in the quaternion; the exact rotation is that of C71 (C107_rotation restates it as conjugation).
- **C108 Rotations from angles in single precision** — error calculus Approx on the entries with the libm accuracy as an explicit hypothesis (a satisfying library is exhibited); sine and cosine are 1-Lipschitz, so the degree conversion error carries over; the reference is Rodrigues' formula and the unit quaternion of the angle and axis.
- **C109 Component-wise arithmetic is correctly rounded** — each lane is one rounded operation of the IEEE model, and that model's rounding is proved to be to nearest (Round3); NEON's reciprocal through the Newton analysis of C99.
- **C110 Triangles in single precision** — edges are rounded once (no underflow in a difference), dot and cross products through Approx and Cauchy-Schwarz, the quotient through a condition number K; the reference coordinates are characterised by orthogonality of the residual, not by the code's formula.
- **C111 Decomposing a matrix with perspective** — reduction to C68 on the affine part; the perspective vector by the inverse over ℝ.  The last clause is false (the inverse is not transposed, matrix.c:1977): C111_false; proved when the affine part is symmetric, and the equation solved is stated exactly.
- **C112 look_at in its degenerate cases** — the two fallback branches are specified separately (lookDir, tweak) and the basis is derived for all of them; false for up along z other than (0,0,1) (C112_up_false) and on the scalar backend (C112_scalar_false).
- **C113 Zero tests, zero constants, copies and the SIMD identity** — IEEE; comparison by values for finite operands, special values by evaluation.
- **C114 Drift of accumulated transformations** — IEEE; induction on the number of steps with the one-step bound of C87 and C108, Euclidean norm and Cauchy-Schwarz.
- **C115 Projection matrices in single precision** — IEEE; a quotient lemma for slightly wrong numerator and denominator, C87 for the transformation, tan(a)-tan(b)=sin(a-b)/(cos a cos b) for the field of view.
- **C116 Bounding rectangles and boxes of transformed shapes in single precision** — IEEE; min/max are exact, an affine function on a rectangle or box is extreme at a vertex, C87-style bounds for the images and one rounding for each corner and size.
- **C117 Picking with rays in single precision** — IEEE; forward error bounds for the dot products (C85), the square root and the quotient, then the exact quadratic (or affine) function of the parameter evaluated at the computed root.
- **C118 Picking triangles in single precision** — IEEE; the four determinants within 5R^2/2^22 (5R^3/2^22) of the exact ones, exact Cramer rule, then the comparisons and the quotient.
- **C119 Picking boxes in single precision** — IEEE; per axis the computed range is an interval whose points meet the moved faces; the merges intersect intervals (a NaN or infinite range is neutral or empty); then the sign decisions.
- **C120 Routes to the same result agree bit for bit** — Both routes are modelled from their own C functions; the equalities hold for the generic scalar, by unfolding (folds over lists by map fusion).
- **C121 Bounding and transformed spheres, transformed rays, in single precision** — IEEE; component roundings, then the triangle inequality for lengths; the stretch bound for almost orthogonal rows is exact algebra.
- **C122 Making, transforming and clipping with planes in single precision** — The real coefficients of the exact plane are the specification (`along`, `clipAt`); scalar products by C85, edges and cross product by the lemma of C110, normalisation by C99, images by C87; then the difference of the two plane equations is linear in the query point.
- **C123 Cameras, skews, perspective and normalisation of matrices in single precision** — The directions (`dirOf`, `crossP`) over ℝ are the specification; edges, cross products and normalisations with the lemmas of C110 and C99, the error of the side vector divided by the sine of the angle; skews, perspective and normalisation entry by entry with the rounding lemmas.
- **C124 Projecting and unprojecting points in single precision** — The exact images are sums over ℝ (`lin`, `homog`); forward error analysis with `Approx`/`Apx` (relative error of the sum of magnitudes), one division, one multiplication; the backface test from the sign of the inverse's entry (C103).
- **C125 Determinant and inverse of every matrix in single precision** — `absExpand` (cofactor expansion with absolute values) is the condition number of the specification; `Apx ρ τ W` (relative error ρ of the magnitude W) through the 2x2 minors, the multiply-add chains of the cofactor rows, the final dot product, the reciprocal and the product; exact values identified with Mathlib's det and inverse by the lemmas of C103.
- **C126 Every vector backend computes the documented lanes from its own instructions** — `Model/Intrinsics.lean`: `Word = BitVec 32`, `decode` the IEEE interchange format, one definition per intrinsic, one record `Impl` per backend; arithmetic instructions come from an abstract `Alu` constrained only by the decoded result (so NaN payloads stay free), shown inhabited by `Alu.ieee`.  Lane moves are proved by reduction for symbolic words; `decode` of a sign flip, absolute value and masks by bit-vector lemmas; Newton sequences by rewriting with the `Alu` laws.  `Spec.Refines` collects the simulation squares; `C126_refines` proves it for every backend.  Left out: `reciprocal` of NaN lanes (the plain-C and GCC code returns an infinity of the NaN's sign, which the one-NaN model does not keep).
- **C127 A result may be written over an operand** — `Model/Memory.lean`: one flat memory of floats, every object a range of cells, every function its C sequence of loads and stores in order; C locals are values.  `Spec.Stored` says the result object holds the value-level result and the rest of memory is unchanged.  Proved by symbolic execution: reads of a chain of stores are resolved by linear arithmetic on addresses; `rect_normalize_in_place` and the normalisations are first shown equal to one structure store; the box loop by induction.
- **C128 The inline vector and matrix functions on the machine's registers** — `Model/Inline.lean` transcribes the inline functions over the register operations of `Model/Intrinsics.lean`, every C local a `let` and every `float` expression a chain of `Alu` operations; the functions calling libm are left out.  Refinement to the value-level model follows from C126 operation by operation; the product theorem then spells the result out from memory to memory without either model.
- **C129 The quaternion of a rotation matrix in single precision** — The binary32 model of the function; diagonal sums bounded by three roundings, |√a − √b| ≤ √|a − b| and |√a − √b| ≤ |a − b|/√b for the square root, exact comparisons for the signs; the round trip combines it with the matrix bound of C107 and the Lipschitz bound of quaternion matrices.
- **C130 Euler angles to matrices, quaternions and degrees in single precision** — The binary32 model; the six sines and cosines are within 2^-23 of the exact ones (TrigAccurate), products and sums bounded with Approx; the result compared with the product of axis rotations of C77; quaternions through C107/C108.
- **C131 Euler angles recovered from a matrix in single precision** — The angle pair errors are bounded without ever comparing angles: |(cos φ, sin φ) − (cos θ, sin θ)| ≤ 5ε/2ρ for the direction of a perturbed point at distance ρ.  Each order is a renaming of the axes of the canonical one (Euler4), so one perturbation lemma covers all twelve; the branch on cos y > 16·FLT_EPSILON is analysed on both sides with the computed length, which is within 3ε/2 + 3/2^22 of c.
- **C132 Spherical interpolation of quaternions in single precision** — The binary32 model; the two weights are shown to satisfy R·sin φ ≈ sin tφ and L + R·cos φ ≈ cos tφ for the angle φ of the rounded dot product (the relative error of 1/√(1-d²) is at most 1/5, and at most 2^-13 after multiplication by sin φ), then a triangle inequality in the space of quaternions and |θ − φ|² ≤ 5|cos θ − cos φ| compare with the exact arc.
- **C133 Angle and axis of a quaternion in single precision** — Model of C73 at binary32 (Float40). Normalisation from C99; 1-c^2, its root and the quotient by rounding analysis; arc cosine by angle_gap of C132 under AcosAccurate; C133_finite drops the lower bound on the sine (Hoelder bound); C133_no_clamp evaluates the code in the kernel for an estimate function that provably meets EstAccurate.
- **C134 Euler angles of a quaternion in single precision** — Model of C73 at binary32 (Float41). The five quadratic expressions are Lipschitz with constant |p-t||p+t| (Cauchy-Schwarz), plus rounding; atan2_near of C131 and angle_gap of C132 turn that into angles, turn_near removes full turns; the rotation is rebuilt through the exact theorem C73_radians_rotation.
- **C135 The tolerance of the near tests in single precision** — Model of the near tests at binary32 (Float42). The exact half by monotonicity of rounding (a component off by e gives a rounded square at least the rounded e*e, and sums of non-negative floats are monotone), the Euclidean half by the error bound of the sum of squares.
- **C136 Areas, and rectangles as 2D boxes, in single precision** — Models of Rect and Box2d at binary32 (Float43): monotone rounding and one-operation error bounds, the grid calculus of C90 for exactness, kernel evaluation for the two losses.
- **C137 Lengths that are exact, monotone and never below a component** — Model of lengths and normalisation at binary32 (Float44). Proofs/Sqrt proves that the model's square root is correctly rounded (the nearest float), monotone, exact on squares, and the inverse of the rounded square; sums of non-negative floats are monotone including infinities; the unit bound uses the strict error bound of division and the gap of floats above one.
- **C138 Undoing 2D transformations of rectangles on the pixel grid, exactly** — Model of untransform_bounds at binary32 (Float45): exact inverse from C103, grid calculus of C102, and a set-level argument for the round trip (the smallest rectangle around the images is the image when the map keeps axes).
- **C139 Decomposing a scale and translation in single precision** — Model of decompose at binary32 (Float46): determinant bound of C104, exact lengths of C137, normalisation error of C99, quaternion recovery of C129; zero lanes tracked exactly.
- **C140 Interpolating between translations in single precision** — Model of interpolate at binary32 (Float47): exact decomposition of translations, slerp of equal quaternions returns the first, recomposition with exact zero and one lanes; in 2D the angle is exactly 13176795/2^21 and its sine is bounded from Mathlib's digits of pi.
- **C141 What matrix_print writes** — Model/Print: the C library's %+.6f as exact rational rounding and decimal digits, the format string, the loop. Specification: an independent reader (lines, words, decimal numerals). Proof by induction on digits.
- **C142 What unsafe math optimisation and contraction can change** — Model/Unsafe: the generic model instantiated at a type of expressions gives the source's syntax (C142_source: evaluating it is the function); the compiler is a rewriting relation closed under context and iteration. Proof: every rule keeps the real value and does not increase the magnitudes of the terms nor the number of fractional bits; then exactness and the error bound by induction on the emitted expression.
- **C143 Determinants, ray positions, plane distances, rotations and interpolation under any permitted compilation** — As C142, on the expressions of these functions; the real value of the determinant's expression is identified with Mathlib's det through the C53 lemma.
- **C144 Normalization on SSE stays accurate whatever the compiler does to it** — As C142, the estimate being an opaque input of the expression (an intrinsic the compiler cannot rewrite). The real value of any emitted code is the value of one Newton step from the estimate; the rounding of n operations is bounded by the sum of absolute values of terms (C142's lemma). The comparison of the length with FLT_EPSILON in `graphene_vec3_normalize` is outside this claim.
- **C145 Frustum culling under any permitted compilation** — The three tests with the distance replaced by the evaluation of emitted code (C145_source: with the source's code they are the functions). Exactness from C143_distance_exact, accuracy from C142's error bound; the comparisons are as written. Boxes: the farthest corner bounds the plane equation over the box.
- **C146 Lengths and normalization on GCC vectors and scalars stay accurate whatever the compiler does** — C142's bound for the squared length, the correctly rounded square root and division, and the relative perturbation of a quotient. C146_source: with nothing rewritten the parametrized function is the model's.
- **C147 Distances and sphere containment under any permitted compilation** — C142's exactness and accuracy theorems at the syntax of distance_sq, a correctly rounded square root, and the running maximum; the error witness is a derivation of the multiplied-out square and its evaluation. C147_source: with nothing rewritten the parametrized functions are the model's.
- **C148 Rays against spheres are decided exactly on a grid, whatever the compiler does** — C142's exactness at the syntax of the four expressions; a root whose square differs from a number's square by a grid step rounds to the same side of it, and the root of a representable square is exact; the sign of a rounded sum is the sign of the sum. C148_source: with nothing rewritten the parametrized function is the model's.
- **C149 Rays against triangles are decided exactly on a grid, whatever the compiler does** — C142's exactness at the syntax of each compared expression, in both branches of the test of the sign; a determinant on the grid is zero or at least 2^-22, on the right side of the threshold; the quotient by division or by a rounded reciprocal is bounded; then C51 over the reals. C149_source: with nothing rewritten the parametrized function is the model's.
