{
 "claims": [
  {
   "property": "C01",
   "status": "proved",
   "theorems": [
    "Graphene.C01_vec2",
    "Graphene.C01_vec3",
    "Graphene.C01_vec4",
    "Graphene.C01_conversions",
    "Graphene.C01_min_max",
    "Graphene.C01_negate",
    "Graphene.C01_xyzw"
   ],
   "note": ""
  },
  {
   "property": "C02",
   "status": "proved",
   "theorems": [
    "Graphene.C02_vec2",
    "Graphene.C02_vec3",
    "Graphene.C02_vec4",
    "Graphene.C02_matrix"
   ],
   "note": ""
  },
  {
   "property": "C03",
   "status": "proved",
   "theorems": [
    "Graphene.C03_vec2",
    "Graphene.C03_vec3",
    "Graphene.C03_vec4"
   ],
   "note": ""
  },
  {
   "property": "C04",
   "status": "proved",
   "theorems": [
    "Graphene.C04_point3d",
    "Graphene.C04_vec2",
    "Graphene.C04_vec3",
    "Graphene.C04_vec4",
    "Graphene.C04_scalar_false"
   ],
   "note": "Statement names the plain-C-backend exception; C04_scalar_false is the witness that the exception is needed."
  },
  {
   "property": "C05",
   "status": "proved",
   "theorems": [
    "Graphene.C05_cross"
   ],
   "note": ""
  },
  {
   "property": "C06",
   "status": "proved",
   "theorems": [
    "Graphene.C06_near",
    "Graphene.C06_equal",
    "Graphene.C06_scalar_equal_false"
   ],
   "note": "C06_scalar_equal_false concerns the plain C backend, which the property excludes."
  },
  {
   "property": "C07",
   "status": "proved",
   "theorems": [
    "Graphene.C07_vec2",
    "Graphene.C07_vec3"
   ],
   "note": ""
  },
  {
   "property": "C08",
   "status": "proved",
   "theorems": [
    "Graphene.C08_equal"
   ],
   "note": ""
  },
  {
   "property": "C09",
   "status": "proved",
   "theorems": [
    "Graphene.C09_min_max",
    "Graphene.C09_clamp",
    "Graphene.C09_clampScalar",
    "Graphene.C09_minVal_maxVal"
   ],
   "note": ""
  },
  {
   "property": "C10",
   "status": "proved",
   "theorems": [
    "Graphene.C10_backends",
    "Graphene.C10_lanes",
    "Graphene.C10_small_false"
   ],
   "note": "C10_small_false is the witness that the excluded operands really differ."
  },
  {
   "property": "C11",
   "status": "proved",
   "theorems": [
    "Graphene.C11_ordered",
    "Graphene.C11_equality",
    "Graphene.C11_scalar_false"
   ],
   "note": "C11_scalar_false is the witness for the excluded plain C cmp_eq."
  },
  {
   "property": "C12",
   "status": "proved",
   "theorems": [
    "Graphene.C12_point",
    "Graphene.C12_point3d",
    "Graphene.C12_point3d_vector"
   ],
   "note": ""
  },
  {
   "property": "C13",
   "status": "proved",
   "theorems": [
    "Graphene.C13_interpolate"
   ],
   "note": ""
  },
  {
   "property": "C14",
   "status": "proved",
   "theorems": [
    "Graphene.C14_endpoints"
   ],
   "note": ""
  },
  {
   "property": "C15",
   "status": "proved",
   "theorems": [
    "Graphene.C15_near"
   ],
   "note": ""
  },
  {
   "property": "C16",
   "status": "proved",
   "theorems": [
    "Graphene.C16_range",
    "Graphene.C16_affine"
   ],
   "note": ""
  },
  {
   "property": "C17",
   "status": "proved",
   "theorems": [
    "Graphene.C17_normalize",
    "Graphene.C17_normalize_ieee"
   ],
   "note": ""
  },
  {
   "property": "C18",
   "status": "proved",
   "theorems": [
    "Graphene.C18_accessors",
    "Graphene.C18_same_area"
   ],
   "note": ""
  },
  {
   "property": "C19",
   "status": "proved",
   "theorems": [
    "Graphene.C19_union"
   ],
   "note": ""
  },
  {
   "property": "C20",
   "status": "proved",
   "theorems": [
    "Graphene.C20_intersection"
   ],
   "note": ""
  },
  {
   "property": "C21",
   "status": "proved",
   "theorems": [
    "Graphene.C21_contains_point",
    "Graphene.C21_contains_rect"
   ],
   "note": ""
  },
  {
   "property": "C22",
   "status": "proved",
   "theorems": [
    "Graphene.C22_equal"
   ],
   "note": ""
  },
  {
   "property": "C23",
   "status": "proved",
   "theorems": [
    "Graphene.C23_offset",
    "Graphene.C23_inset",
    "Graphene.C23_inset_area",
    "Graphene.C23_expand",
    "Graphene.C23_scale"
   ],
   "note": ""
  },
  {
   "property": "C24",
   "status": "proved",
   "theorems": [
    "Graphene.C24_round_extents"
   ],
   "note": ""
  },
  {
   "property": "C25",
   "status": "partial",
   "theorems": [
    "Graphene.C25_round_false",
    "Graphene.C25_round_partial"
   ],
   "note": "False of the code: C25_round_false. Proved: what rect_round does guarantee."
  },
  {
   "property": "C26",
   "status": "proved",
   "theorems": [
    "Graphene.C26_rect",
    "Graphene.C26_union",
    "Graphene.C26_multiply"
   ],
   "note": ""
  },
  {
   "property": "C27",
   "status": "proved",
   "theorems": [
    "Graphene.C27_contains",
    "Graphene.C27_rect"
   ],
   "note": ""
  },
  {
   "property": "C28",
   "status": "proved",
   "theorems": [
    "Graphene.C28_bounds",
    "Graphene.C28_get_point"
   ],
   "note": ""
  },
  {
   "property": "C29",
   "status": "proved",
   "theorems": [
    "Graphene.C29_box_vectors",
    "Graphene.C29_box_points",
    "Graphene.C29_box2d_vectors",
    "Graphene.C29_box2d_points"
   ],
   "note": ""
  },
  {
   "property": "C30",
   "status": "proved",
   "theorems": [
    "Graphene.C30_contains",
    "Graphene.C30_union_empty",
    "Graphene.C30_intersection_infinite",
    "Graphene.C30_measures"
   ],
   "note": ""
  },
  {
   "property": "C31",
   "status": "proved",
   "theorems": [
    "Graphene.C31_box",
    "Graphene.C31_box2d"
   ],
   "note": ""
  },
  {
   "property": "C32",
   "status": "proved",
   "theorems": [
    "Graphene.C32_box",
    "Graphene.C32_box2d"
   ],
   "note": ""
  },
  {
   "property": "C33",
   "status": "partial",
   "theorems": [
    "Graphene.C33_infinite_empty_false",
    "Graphene.C33_box_partial",
    "Graphene.C33_box2d_partial",
    "Graphene.C33_box2d_rect"
   ],
   "note": "False for two infinite or two empty boxes (C33_infinite_empty_false); proved for all others."
  },
  {
   "property": "C34",
   "status": "partial",
   "theorems": [
    "Graphene.C34_negative_false",
    "Graphene.C34_box_partial",
    "Graphene.C34_box2d",
    "Graphene.C34_then_contains_box_false"
   ],
   "note": "False for negative scalars in 3D (C34_negative_false; the scalar is added to the hidden lanes too), and a later contains_box is affected (C34_then_contains_box_false); proved for s >= 0 and for box2d."
  },
  {
   "property": "C35",
   "status": "proved",
   "theorems": [
    "Graphene.C35_box",
    "Graphene.C35_box2d",
    "Graphene.C35_ieee",
    "Graphene.C35_vertex_order"
   ],
   "note": ""
  },
  {
   "property": "C36",
   "status": "partial",
   "theorems": [
    "Graphene.C36_scale_offset",
    "Graphene.C36_to_rect",
    "Graphene.C36_from_rect_partial",
    "Graphene.C36_from_rect_false"
   ],
   "note": "False for rectangles of negative size (C36_from_rect_false); the rest is proved."
  },
  {
   "property": "C37",
   "status": "proved",
   "theorems": [
    "Graphene.C37_points",
    "Graphene.C37_vectors",
    "Graphene.C37_default_center",
    "Graphene.C37_rounding_false"
   ],
   "note": "Exact arithmetic; C37_rounding_false shows the float radius can be one rounding too small."
  },
  {
   "property": "C38",
   "status": "proved",
   "theorems": [
    "Graphene.C38_sphere",
    "Graphene.C38_null"
   ],
   "note": ""
  },
  {
   "property": "C39",
   "status": "partial",
   "theorems": [
    "Graphene.C39_radius_false",
    "Graphene.C39_translate_partial"
   ],
   "note": "False: the radius is not stored (C39_radius_false); proved in place or when the result already holds the radius."
  },
  {
   "property": "C40",
   "status": "proved",
   "theorems": [
    "Graphene.C40_from_point",
    "Graphene.C40_init",
    "Graphene.C40_from_points"
   ],
   "note": ""
  },
  {
   "property": "C41",
   "status": "proved",
   "theorems": [
    "Graphene.C41_distance",
    "Graphene.C41_normalize",
    "Graphene.C41_scalar_false",
    "Graphene.C41_negate"
   ],
   "note": "C41_scalar_false is the witness for the excluded short normals."
  },
  {
   "property": "C42",
   "status": "partial",
   "theorems": [
    "Graphene.C42_transform_partial",
    "Graphene.C42_normal_matrix",
    "Graphene.C42_singular_false"
   ],
   "note": "False (undefined behaviour) for non-invertible matrices (C42_singular_false); proved for invertible affine ones."
  },
  {
   "property": "C43",
   "status": "proved",
   "theorems": [
    "Graphene.C43_area",
    "Graphene.C43_midpoint",
    "Graphene.C43_normal",
    "Graphene.C43_plane",
    "Graphene.C43_bounding_box",
    "Graphene.C43_init"
   ],
   "note": ""
  },
  {
   "property": "C44",
   "status": "proved",
   "theorems": [
    "Graphene.C44_barycoords",
    "Graphene.C44_uv"
   ],
   "note": ""
  },
  {
   "property": "C45",
   "status": "partial",
   "theorems": [
    "Graphene.C45_contains_partial",
    "Graphene.C45_edge_false"
   ],
   "note": "False on the edge b-c (C45_edge_false); proved for the triangle without that edge."
  },
  {
   "property": "C46",
   "status": "proved",
   "theorems": [
    "Graphene.C46_init",
    "Graphene.C46_position"
   ],
   "note": ""
  },
  {
   "property": "C47",
   "status": "proved",
   "theorems": [
    "Graphene.C47_closest"
   ],
   "note": ""
  },
  {
   "property": "C48",
   "status": "proved",
   "theorems": [
    "Graphene.C48_meets",
    "Graphene.C48_ieee"
   ],
   "note": ""
  },
  {
   "property": "C49",
   "status": "proved",
   "theorems": [
    "Graphene.C49_sphere"
   ],
   "note": ""
  },
  {
   "property": "C50",
   "status": "proved",
   "theorems": [
    "Graphene.C50_box"
   ],
   "note": ""
  },
  {
   "property": "C51",
   "status": "proved",
   "theorems": [
    "Graphene.C51_triangle"
   ],
   "note": ""
  },
  {
   "property": "C52",
   "status": "proved",
   "theorems": [
    "Graphene.C52_product",
    "Graphene.C52_aliasing",
    "Graphene.C52_vec4",
    "Graphene.C52_points"
   ],
   "note": ""
  },
  {
   "property": "C53",
   "status": "partial",
   "theorems": [
    "Graphene.C53_sign_false",
    "Graphene.C53_determinant_partial",
    "Graphene.C53_singular"
   ],
   "note": "False: the sign is wrong (C53_sign_false); everything else proved up to that sign."
  },
  {
   "property": "C54",
   "status": "proved",
   "theorems": [
    "Graphene.C54_inverse",
    "Graphene.C54_backface",
    "Graphene.C54_scalar_false"
   ],
   "note": "C54_scalar_false is the witness for the excluded equality case."
  },
  {
   "property": "C55",
   "status": "proved",
   "theorems": [
    "Graphene.C55_access",
    "Graphene.C55_transpose"
   ],
   "note": ""
  },
  {
   "property": "C56",
   "status": "proved",
   "theorems": [
    "Graphene.C56_init",
    "Graphene.C56_append",
    "Graphene.C56_rotation",
    "Graphene.C56_rotation_group"
   ],
   "note": ""
  },
  {
   "property": "C57",
   "status": "proved",
   "theorems": [
    "Graphene.C57_points",
    "Graphene.C57_rect",
    "Graphene.C57_bounds",
    "Graphene.C57_box",
    "Graphene.C57_ray"
   ],
   "note": ""
  },
  {
   "property": "C58",
   "status": "partial",
   "theorems": [
    "Graphene.C58_sphere_partial",
    "Graphene.C58_skew_false"
   ],
   "note": "False with skew (C58_skew_false); proved when the rows are orthogonal."
  },
  {
   "property": "C59",
   "status": "partial",
   "theorems": [
    "Graphene.C59_box_partial",
    "Graphene.C59_contains_box_false",
    "Graphene.C59_infinite_false",
    "Graphene.C59_sphere_bounds_false",
    "Graphene.C59_sphere_partial"
   ],
   "note": "False because of hidden lanes and infinities (C59_*_false); containment queries proved for finite boxes and for spheres."
  },
  {
   "property": "C60",
   "status": "partial",
   "theorems": [
    "Graphene.C60_point",
    "Graphene.C60_bounds",
    "Graphene.C60_failure",
    "Graphene.C60_unwritten_false"
   ],
   "note": "False for untransform_bounds, which cannot report failure (C60_unwritten_false); the inverse property is proved."
  },
  {
   "property": "C61",
   "status": "partial",
   "theorems": [
    "Graphene.C61_roundtrip",
    "Graphene.C61_exact",
    "Graphene.C61_scale_false",
    "Graphene.C61_is2d_partial"
   ],
   "note": "is_2d accepts non-2D matrices (C61_scale_false); round trip and the exact acceptance condition are proved."
  },
  {
   "property": "C62",
   "status": "partial",
   "theorems": [
    "Graphene.C62_ortho_partial",
    "Graphene.C62_volume_partial",
    "Graphene.C62_top_false"
   ],
   "note": "False vertically: top goes to -1 (C62_top_false); horizontal, depth and set mapping proved."
  },
  {
   "property": "C63",
   "status": "proved",
   "theorems": [
    "Graphene.C63_frustum",
    "Graphene.C63_perspective"
   ],
   "note": ""
  },
  {
   "property": "C64",
   "status": "partial",
   "theorems": [
    "Graphene.C64_basis_partial",
    "Graphene.C64_eye_false",
    "Graphene.C64_up_false"
   ],
   "note": "The eye is not mapped to the origin (C64_eye_false), near-parallel up vectors can degenerate (C64_up_false); basis proved otherwise."
  },
  {
   "property": "C65",
   "status": "partial",
   "theorems": [
    "Graphene.C65_perspective_partial",
    "Graphene.C65_perspective_false"
   ],
   "note": "False for every depth (C65_perspective_false); the projection actually appended is characterised."
  },
  {
   "property": "C66",
   "status": "partial",
   "theorems": [
    "Graphene.C66_point_partial",
    "Graphene.C66_translation_false",
    "Graphene.C66_untransform_false",
    "Graphene.C66_rect_partial",
    "Graphene.C66_untransform_bounds",
    "Graphene.C66_rect_false",
    "Graphene.C66_unproject_partial",
    "Graphene.C66_unproject_false"
   ],
   "note": "project_point ignores translation, project_rect twists the corners, unproject uses the wrong matrix (C66_*_false); the rest proved."
  },
  {
   "property": "C67",
   "status": "proved",
   "theorems": [
    "Graphene.C67_near",
    "Graphene.C67_identity",
    "Graphene.C67_identity_ieee",
    "Graphene.C67_equal_fast",
    "Graphene.C67_scalar_false"
   ],
   "note": "C67_scalar_false concerns the plain C backend, which the property excludes for is_identity."
  },
  {
   "property": "C68",
   "status": "partial",
   "theorems": [
    "Graphene.C68_parts_partial",
    "Graphene.C68_recompose_partial",
    "Graphene.C68_identity",
    "Graphene.C68_2d_false",
    "Graphene.C68_2d_scale_partial",
    "Graphene.C68_rotation_false",
    "Graphene.C68_half_turn_false",
    "Graphene.C68_uninitialised_false"
   ],
   "note": "False for 2D matrices, 2D rotations, half turns (C68_*_false); proved for all other affine matrices on the SIMD backends."
  },
  {
   "property": "C69",
   "status": "partial",
   "theorems": [
    "Graphene.C69_3d_partial",
    "Graphene.C69_endpoints_partial",
    "Graphene.C69_self_partial",
    "Graphene.C69_3d_false",
    "Graphene.C69_2d_partial",
    "Graphene.C69_2d_endpoints_partial",
    "Graphene.C69_2d_self_partial",
    "Graphene.C69_2d_false",
    "Graphene.C69_singular_partial",
    "Graphene.C69_uninitialised_false",
    "Graphene.C69_alias_false",
    "Graphene.C69_separate_partial"
   ],
   "note": "False: recomposition order, aliasing, uninitialised reads (C69_*_false); proved when the parts commute."
  },
  {
   "property": "C70",
   "status": "proved",
   "theorems": [
    "Graphene.C70_algebra",
    "Graphene.C70_group",
    "Graphene.C70_normalize"
   ],
   "note": ""
  },
  {
   "property": "C71",
   "status": "proved",
   "theorems": [
    "Graphene.C71_rotation",
    "Graphene.C71_product",
    "Graphene.C71_conjugation",
    "Graphene.C71_double_cover"
   ],
   "note": ""
  },
  {
   "property": "C72",
   "status": "partial",
   "theorems": [
    "Graphene.C72_roundtrip_partial",
    "Graphene.C72_half_turn_false",
    "Graphene.C72_rotation_quaternion",
    "Graphene.C72_from_matrix_partial"
   ],
   "note": "False for half turns with mixed-sign axes (C72_half_turn_false); the exact extent is proved."
  },
  {
   "property": "C73",
   "status": "proved",
   "theorems": [
    "Graphene.C73_angle_axis",
    "Graphene.C73_to_angle_axis",
    "Graphene.C73_from_to_angle_axis",
    "Graphene.C73_from_radians",
    "Graphene.C73_from_angles",
    "Graphene.C73_to_radians",
    "Graphene.C73_to_angles",
    "Graphene.C73_radians_rotation"
   ],
   "note": ""
  },
  {
   "property": "C74",
   "status": "proved",
   "theorems": [
    "Graphene.C74_slerp",
    "Graphene.C74_slerp_near",
    "Graphene.C74_near_endpoint"
   ],
   "note": ""
  },
  {
   "property": "C75",
   "status": "partial",
   "theorems": [
    "Graphene.C75_equal_partial",
    "Graphene.C75_conjugate_false",
    "Graphene.C75_negation_false",
    "Graphene.C75_float_false"
   ],
   "note": "False: compares with the conjugate instead of the negation (C75_*_false); exact meaning proved."
  },
  {
   "property": "C76",
   "status": "proved",
   "theorems": [
    "Graphene.C76_alpha_beta_gamma",
    "Graphene.C76_orders",
    "Graphene.C76_degrees"
   ],
   "note": ""
  },
  {
   "property": "C77",
   "status": "proved",
   "theorems": [
    "Graphene.C77_to_matrix",
    "Graphene.C77_rotation"
   ],
   "note": ""
  },
  {
   "property": "C78",
   "status": "partial",
   "theorems": [
    "Graphene.C78_quaternion_partial",
    "Graphene.C78_order_false",
    "Graphene.C78_unit_false"
   ],
   "note": "False for 22 of 24 orders (C78_order_false, C78_unit_false); proved for SXYZ and RZYX."
  },
  {
   "property": "C79",
   "status": "partial",
   "theorems": [
    "Graphene.C79_roundtrip_partial",
    "Graphene.C79_order_false",
    "Graphene.C79_quaternion_partial",
    "Graphene.C79_reorder_partial",
    "Graphene.C79_reorder_false",
    "Graphene.C79_angles_partial",
    "Graphene.C79_repeated_false"
   ],
   "note": "False for 22 of 24 orders read through the accessors (C79_order_false, C79_reorder_false), and for the 12 repeated orders even read by position (C79_repeated_false); proved for SXYZ and RXYZ, and by position for all 24 orders (C79_angles_partial), away from near gimbal lock."
  },
  {
   "property": "C80",
   "status": "proved",
   "theorems": [
    "Graphene.C80_contains",
    "Graphene.C80_clip",
    "Graphene.C80_nan"
   ],
   "note": ""
  },
  {
   "property": "C81",
   "status": "proved",
   "theorems": [
    "Graphene.C81_sphere_exact",
    "Graphene.C81_sphere",
    "Graphene.C81_box_exact",
    "Graphene.C81_box",
    "Graphene.C81_conservative"
   ],
   "note": ""
  },
  {
   "property": "C82",
   "status": "partial",
   "theorems": [
    "Graphene.Alloc.C82_rejected",
    "Graphene.Alloc.C82_size_partial",
    "Graphene.Alloc.C82_zero_partial",
    "Graphene.Alloc.C82_rounding_false"
   ],
   "note": "False with aligned_alloc when rounding the size wraps (C82_rounding_false); proved otherwise."
  },
  {
   "property": "C83",
   "status": "proved",
   "theorems": [
    "Graphene.Once.C83_once",
    "Graphene.Once.C83_progress",
    "Graphene.Once.C83_vectors",
    "Graphene.Once.C83_boxes"
   ],
   "note": ""
  },
  {
   "property": "C84",
   "status": "proved",
   "theorems": [
    "Graphene.Once.C84_two_threads_false",
    "Graphene.Once.C84_single_thread"
   ],
   "note": "C84_two_threads_false is the refutation named in the property."
  },
  {
   "property": "C85",
   "status": "proved",
   "theorems": [
    "Graphene.C85_dot2",
    "Graphene.C85_dot3",
    "Graphene.C85_dot4",
    "Graphene.C85_length2",
    "Graphene.C85_length3",
    "Graphene.C85_length4"
   ],
   "note": ""
  },
  {
   "property": "C86",
   "status": "proved",
   "theorems": [
    "Graphene.C86_symmetric",
    "Graphene.C86_self",
    "Graphene.C86_point_accuracy",
    "Graphene.C86_point3d_accuracy",
    "Graphene.C86_positive",
    "Graphene.C86_underflow",
    "Graphene.C86_near",
    "Graphene.C86_near3d"
   ],
   "note": ""
  },
  {
   "property": "C87",
   "status": "proved",
   "theorems": [
    "Graphene.C87_transform_vec4",
    "Graphene.C87_multiply",
    "Graphene.C87_transform_point3d",
    "Graphene.C87_transform_vec3"
   ],
   "note": ""
  },
  {
   "property": "C88",
   "status": "proved",
   "theorems": [
    "Graphene.C88_identity_vec4",
    "Graphene.C88_identity_right",
    "Graphene.C88_identity_left",
    "Graphene.C88_translate_point3d",
    "Graphene.C88_translate_point",
    "Graphene.C88_scale_point3d",
    "Graphene.C88_translate_dir",
    "Graphene.C88_translate_vec4",
    "Graphene.C88_translate_compose",
    "Graphene.C88_translate_vec3",
    "Graphene.C88_scale_compose"
   ],
   "note": ""
  },
  {
   "property": "C89",
   "status": "proved",
   "theorems": [
    "Graphene.C89_vectors",
    "Graphene.C89_solids",
    "Graphene.C89_euler",
    "Graphene.C89_points",
    "Graphene.C89_box",
    "Graphene.C89_box2d"
   ],
   "note": ""
  },
  {
   "property": "C90",
   "status": "proved",
   "theorems": [
    "Graphene.C90_normalize",
    "Graphene.C90_accessors",
    "Graphene.C90_union",
    "Graphene.C90_intersection",
    "Graphene.C90_contains",
    "Graphene.C90_equal",
    "Graphene.C90_offset",
    "Graphene.C90_inset",
    "Graphene.C90_expand",
    "Graphene.C90_round_extents",
    "Graphene.C90_scale",
    "Graphene.C90_union_needs_grid"
   ],
   "note": ""
  },
  {
   "property": "C91",
   "status": "proved",
   "theorems": [
    "Graphene.C91_no_false_negative",
    "Graphene.C91_false_positive_bound",
    "Graphene.C91_intersection_sound",
    "Graphene.C91_intersection_complete",
    "Graphene.C91_union_error",
    "Graphene.C91_limits"
   ],
   "note": ""
  },
  {
   "property": "C92",
   "status": "proved",
   "theorems": [
    "Graphene.C92_point",
    "Graphene.C92_point3d",
    "Graphene.C92_size",
    "Graphene.C92_rect",
    "Graphene.C92_vec",
    "Graphene.C92_vec_not_between"
   ],
   "note": ""
  },
  {
   "property": "C93",
   "status": "proved",
   "theorems": [
    "Graphene.C93_box",
    "Graphene.C93_box2d",
    "Graphene.C93_expand",
    "Graphene.C93_expand2d",
    "Graphene.C93_rect",
    "Graphene.C93_overflow"
   ],
   "note": ""
  },
  {
   "property": "C94",
   "status": "proved",
   "theorems": [
    "Graphene.C94_box",
    "Graphene.C94_box2d",
    "Graphene.C94_plane",
    "Graphene.C94_sphere",
    "Graphene.C94_triangle",
    "Graphene.C94_quaternion",
    "Graphene.C94_frustum",
    "Graphene.C94_ray",
    "Graphene.C94_ray_copy_changes"
   ],
   "note": ""
  },
  {
   "property": "C95",
   "status": "proved",
   "theorems": [
    "Graphene.Heap.C95_histories",
    "Graphene.Heap.C95_no_leak",
    "Graphene.Heap.C95_layout",
    "Graphene.Heap.C95_copy_out_of_memory",
    "Graphene.Heap.C95_malloc_misaligned",
    "Graphene.Heap.C95_wrong_free"
   ],
   "note": ""
  },
  {
   "property": "C96",
   "status": "proved",
   "theorems": [
    "Graphene.C96_contains",
    "Graphene.C96_distance",
    "Graphene.C96_from_points",
    "Graphene.C96_from_vectors",
    "Graphene.C96_bounding_box",
    "Graphene.C96_underflow"
   ],
   "note": ""
  },
  {
   "property": "C97",
   "status": "proved",
   "theorems": [
    "Graphene.C97_distance",
    "Graphene.C97_side",
    "Graphene.C97_negate",
    "Graphene.C97_contains_point",
    "Graphene.C97_intersects_sphere",
    "Graphene.C97_intersects_box"
   ],
   "note": ""
  },
  {
   "property": "C98",
   "status": "proved",
   "theorems": [
    "Graphene.C98_position",
    "Graphene.C98_position_zero",
    "Graphene.C98_position_monotone",
    "Graphene.C98_not_behind",
    "Graphene.C98_axis_box"
   ],
   "note": ""
  },
  {
   "property": "C99",
   "status": "proved",
   "theorems": [
    "Graphene.C99_length3",
    "Graphene.C99_length2",
    "Graphene.C99_length4",
    "Graphene.C99_normalize3",
    "Graphene.C99_normalize2",
    "Graphene.C99_normalize4",
    "Graphene.C99_quaternion",
    "Graphene.C99_unit3",
    "Graphene.C99_unit2",
    "Graphene.C99_unit4",
    "Graphene.C99_unit_quaternion",
    "Graphene.C99_ray",
    "Graphene.C99_plane",
    "Graphene.C99_short3"
   ],
   "note": ""
  },
  {
   "property": "C100",
   "status": "proved",
   "theorems": [
    "Graphene.C100_comm2",
    "Graphene.C100_comm3",
    "Graphene.C100_comm4",
    "Graphene.C100_quaternion",
    "Graphene.C100_negate2",
    "Graphene.C100_negate3",
    "Graphene.C100_negate4",
    "Graphene.C100_scale2",
    "Graphene.C100_scale3",
    "Graphene.C100_scale4",
    "Graphene.C100_subtract3",
    "Graphene.C100_subtract2",
    "Graphene.C100_subtract4",
    "Graphene.C100_cross",
    "Graphene.C100_cross_self",
    "Graphene.C100_dot_negate",
    "Graphene.C100_length2",
    "Graphene.C100_length3",
    "Graphene.C100_length4",
    "Graphene.C100_distance",
    "Graphene.C100_distance3d",
    "Graphene.C100_transpose_multiply",
    "Graphene.C100_transform_negate",
    "Graphene.C100_add_not_assoc"
   ],
   "note": ""
  },
  {
   "property": "C101",
   "status": "proved",
   "theorems": [
    "Graphene.GTypes.C101_get_type",
    "Graphene.GTypes.C101_same",
    "Graphene.GTypes.C101_once",
    "Graphene.GTypes.C101_no_deadlock",
    "Graphene.GTypes.C101_returns",
    "Graphene.GTypes.C101_name_clash"
   ],
   "note": ""
  },
  {
   "property": "C102",
   "status": "proved",
   "theorems": [
    "Graphene.C102_point",
    "Graphene.C102_rect",
    "Graphene.C102_bounds",
    "Graphene.C102_multiply",
    "Graphene.C102_compose"
   ],
   "note": ""
  },
  {
   "property": "C103",
   "status": "proved",
   "theorems": [
    "Graphene.C103_determinant",
    "Graphene.C103_inverse",
    "Graphene.C103_inverse_neon",
    "Graphene.C103_inverse_exact",
    "Graphene.C103_integer"
   ],
   "note": ""
  },
  {
   "property": "C104",
   "status": "proved",
   "theorems": [
    "Graphene.C104_inverse",
    "Graphene.C104_inverse_neon",
    "Graphene.C104_translation",
    "Graphene.C104_init_translate",
    "Graphene.C104_untransform_point"
   ],
   "note": ""
  },
  {
   "property": "C105",
   "status": "proved",
   "theorems": [
    "Graphene.C105_isometry",
    "Graphene.C105_inverse",
    "Graphene.C105_inv_ortho"
   ],
   "note": ""
  },
  {
   "property": "C106",
   "status": "proved",
   "theorems": [
    "Graphene.C106_no_miss",
    "Graphene.C106_exact",
    "Graphene.C106_margin",
    "Graphene.C106_bounds",
    "Graphene.C106_from_rect",
    "Graphene.C106_outside_accepted"
   ],
   "note": ""
  },
  {
   "property": "C107",
   "status": "proved",
   "theorems": [
    "Graphene.C107_multiply",
    "Graphene.C107_multiply_norm",
    "Graphene.C107_chain",
    "Graphene.C107_unit_chain",
    "Graphene.C107_normalized",
    "Graphene.C107_identity",
    "Graphene.C107_inverse",
    "Graphene.C107_to_matrix",
    "Graphene.C107_rotation",
    "Graphene.C107_composed"
   ],
   "note": ""
  },
  {
   "property": "C108",
   "status": "proved",
   "theorems": [
    "Graphene.C108_rotation",
    "Graphene.C108_radians",
    "Graphene.C108_init_rotate",
    "Graphene.C108_rotate_point",
    "Graphene.C108_from_radians",
    "Graphene.C108_from_angles",
    "Graphene.C108_angle_axis"
   ],
   "note": ""
  },
  {
   "property": "C109",
   "status": "proved",
   "theorems": [
    "Graphene.C109_vec2",
    "Graphene.C109_vec3",
    "Graphene.C109_vec4",
    "Graphene.C109_divide",
    "Graphene.C109_divide_neon",
    "Graphene.C109_divide_tiny",
    "Graphene.C109_negate",
    "Graphene.C109_matrix",
    "Graphene.C109_matrix_div",
    "Graphene.C109_sum"
   ],
   "note": ""
  },
  {
   "property": "C110",
   "status": "proved",
   "theorems": [
    "Graphene.C110_barycoords",
    "Graphene.C110_contains",
    "Graphene.C110_midpoint",
    "Graphene.C110_area",
    "Graphene.C110_normal"
   ],
   "note": ""
  },
  {
   "property": "C111",
   "status": "partial",
   "theorems": [
    "Graphene.C111_class",
    "Graphene.C111_partial",
    "Graphene.C111_symmetric_partial",
    "Graphene.C111_false"
   ],
   "note": "Composing the parts is false with perspective (C111_false: matrix.c:1977 solves p*L = c instead of L*p = c); proved: failure condition, affine part, the exact equation solved, and recomposition for a symmetric affine part."
  },
  {
   "property": "C112",
   "status": "partial",
   "theorems": [
    "Graphene.C112_basis_partial",
    "Graphene.C112_parallel_partial",
    "Graphene.C112_regular",
    "Graphene.C112_up_false",
    "Graphene.C112_scalar_false"
   ],
   "note": "False when up and the view direction are both along z and up.z is not 1 (C112_up_false), and on the scalar backend (C112_scalar_false); proved on the SIMD backends otherwise, in particular for every exactly parallel up off the z axis."
  },
  {
   "property": "C113",
   "status": "proved",
   "theorems": [
    "Graphene.C113_is_zero23",
    "Graphene.C113_is_zero4",
    "Graphene.C113_constants"
   ],
   "note": ""
  },
  {
   "property": "C114",
   "status": "proved",
   "theorems": [
    "Graphene.C114_chain",
    "Graphene.C114_product",
    "Graphene.C114_rotations",
    "Graphene.C114_spin"
   ],
   "note": ""
  },
  {
   "property": "C115",
   "status": "proved",
   "theorems": [
    "Graphene.C115_ortho_entries",
    "Graphene.C115_frustum_entries",
    "Graphene.C115_ortho_point",
    "Graphene.C115_ortho_volume",
    "Graphene.C115_frustum_point",
    "Graphene.C115_frustum_visible",
    "Graphene.C115_perspective_entries"
   ],
   "note": ""
  },
  {
   "property": "C116",
   "status": "proved",
   "theorems": [
    "Graphene.C116_quad_bounds",
    "Graphene.C116_bounds",
    "Graphene.C116_box"
   ],
   "note": ""
  },
  {
   "property": "C117",
   "status": "proved",
   "theorems": [
    "Graphene.C117_sphere",
    "Graphene.C117_plane",
    "Graphene.C117_closest",
    "Graphene.C117_point_distance",
    "Graphene.C117_made_rays"
   ],
   "note": ""
  },
  {
   "property": "C118",
   "status": "proved",
   "theorems": [
    "Graphene.C118_triangle"
   ],
   "note": ""
  },
  {
   "property": "C119",
   "status": "proved",
   "theorems": [
    "Graphene.C119_box"
   ],
   "note": ""
  },
  {
   "property": "C120",
   "status": "proved",
   "theorems": [
    "Graphene.C120_matrix",
    "Graphene.C120_points",
    "Graphene.C120_conversions",
    "Graphene.C120_shapes",
    "Graphene.C120_triangle",
    "Graphene.C120_queries"
   ],
   "note": ""
  },
  {
   "property": "C121",
   "status": "proved",
   "theorems": [
    "Graphene.C121_box_sphere",
    "Graphene.C121_transform_sphere",
    "Graphene.C121_transform_ray"
   ],
   "note": ""
  },
  {
   "property": "C122",
   "status": "proved",
   "theorems": [
    "Graphene.C122_from_point",
    "Graphene.C122_from_points",
    "Graphene.C122_clip_planes",
    "Graphene.C122_contains_point",
    "Graphene.C122_transform_default",
    "Graphene.C122_transform"
   ],
   "note": ""
  },
  {
   "property": "C123",
   "status": "proved",
   "theorems": [
    "Graphene.C123_look_at",
    "Graphene.C123_skew",
    "Graphene.C123_perspective",
    "Graphene.C123_normalize",
    "Graphene.C123_init_skew"
   ],
   "note": ""
  },
  {
   "property": "C124",
   "status": "proved",
   "theorems": [
    "Graphene.C124_project_point",
    "Graphene.C124_backface",
    "Graphene.C124_unproject"
   ],
   "note": ""
  },
  {
   "property": "C125",
   "status": "proved",
   "theorems": [
    "Graphene.C125_determinant",
    "Graphene.C125_singular",
    "Graphene.C125_inverse",
    "Graphene.C125_backface"
   ],
   "note": ""
  },
  {
   "property": "C126",
   "status": "proved",
   "theorems": [
    "Graphene.C126_lanes",
    "Graphene.C126_arith",
    "Graphene.C126_compare",
    "Graphene.C126_memory",
    "Graphene.C126_refines"
   ],
   "note": ""
  },
  {
   "property": "C127",
   "status": "proved",
   "theorems": [
    "Graphene.C127_componentwise",
    "Graphene.C127_points3d",
    "Graphene.C127_viewport",
    "Graphene.C127_rects",
    "Graphene.C127_rect_points",
    "Graphene.C127_quads",
    "Graphene.C127_quad_own_corners",
    "Graphene.C127_vec2",
    "Graphene.C127_vec3",
    "Graphene.C127_vec4",
    "Graphene.C127_boxes",
    "Graphene.C127_box_minmax",
    "Graphene.C127_boxes2d",
    "Graphene.C127_box2d_minmax",
    "Graphene.C127_solids",
    "Graphene.C127_plane_transform",
    "Graphene.C127_get_uv",
    "Graphene.C127_get_uv_own_operand",
    "Graphene.C127_quaternions",
    "Graphene.C127_matrices",
    "Graphene.C127_inverse_normalize",
    "Graphene.C127_transforms",
    "Graphene.C127_skews"
   ],
   "note": ""
  },
  {
   "property": "C128",
   "status": "proved",
   "theorems": [
    "Graphene.C128_vectors",
    "Graphene.C128_matrices",
    "Graphene.C128_inverse",
    "Graphene.C128_projections",
    "Graphene.C128_memory",
    "Graphene.C128_product",
    "Graphene.C128_values_only"
   ],
   "note": ""
  },
  {
   "property": "C129",
   "status": "proved",
   "theorems": [
    "Graphene.C129_accuracy",
    "Graphene.C129_total",
    "Graphene.C129_round_trip",
    "Graphene.C129_identity"
   ],
   "note": ""
  },
  {
   "property": "C130",
   "status": "proved",
   "theorems": [
    "Graphene.C130_matrix",
    "Graphene.C130_matrix_degrees",
    "Graphene.C130_to_degrees",
    "Graphene.C130_degrees",
    "Graphene.C130_vector",
    "Graphene.C130_quaternion",
    "Graphene.C130_rotate"
   ],
   "note": ""
  },
  {
   "property": "C131",
   "status": "proved",
   "theorems": [
    "Graphene.C131_angles",
    "Graphene.C131_lock",
    "Graphene.C131_round_trip",
    "Graphene.C131_quaternion",
    "Graphene.C131_reorder"
   ],
   "note": ""
  },
  {
   "property": "C132",
   "status": "proved",
   "theorems": [
    "Graphene.C132_slerp",
    "Graphene.C132_arcs",
    "Graphene.C132_ends"
   ],
   "note": ""
  },
  {
   "property": "C133",
   "status": "proved",
   "theorems": [
    "Graphene.C133_angle_axis",
    "Graphene.C133_round_trip",
    "Graphene.C133_finite",
    "Graphene.C133_no_clamp"
   ],
   "note": ""
  },
  {
   "property": "C134",
   "status": "proved",
   "theorems": [
    "Graphene.C134_radians",
    "Graphene.C134_angles",
    "Graphene.C134_round_trip",
    "Graphene.C134_rebuild",
    "Graphene.C134_gimbal_lock"
   ],
   "note": ""
  },
  {
   "property": "C135",
   "status": "proved",
   "theorems": [
    "Graphene.C135_vectors",
    "Graphene.C135_matrix",
    "Graphene.C135_points",
    "Graphene.C135_range"
   ],
   "note": ""
  },
  {
   "property": "C136",
   "status": "proved",
   "theorems": [
    "Graphene.C136_area",
    "Graphene.C136_same_points",
    "Graphene.C136_to_rect",
    "Graphene.C136_round_trip",
    "Graphene.C136_grid",
    "Graphene.C136_loses"
   ],
   "note": ""
  },
  {
   "property": "C137",
   "status": "proved",
   "theorems": [
    "Graphene.C137_monotone",
    "Graphene.C137_component",
    "Graphene.C137_axis",
    "Graphene.C137_pythagoras",
    "Graphene.C137_unit",
    "Graphene.C137_range"
   ],
   "note": ""
  },
  {
   "property": "C138",
   "status": "proved",
   "theorems": [
    "Graphene.C138_untransform",
    "Graphene.C138_round_trip",
    "Graphene.C138_scroll"
   ],
   "note": ""
  },
  {
   "property": "C139",
   "status": "proved",
   "theorems": [
    "Graphene.C139_scale_translate",
    "Graphene.C139_planar",
    "Graphene.C139_spurious_rotation",
    "Graphene.C139_depth_lost"
   ],
   "note": ""
  },
  {
   "property": "C140",
   "status": "proved",
   "theorems": [
    "Graphene.C140_translations",
    "Graphene.C140_endpoints",
    "Graphene.C140_planar",
    "Graphene.C140_planar_not_translation"
   ],
   "note": ""
  },
  {
   "property": "C141",
   "status": "proved",
   "theorems": [
    "Graphene.C141_number",
    "Graphene.C141_layout",
    "Graphene.C141_same_output",
    "Graphene.C141_special"
   ],
   "note": ""
  },
  {
   "property": "C142",
   "status": "proved",
   "theorems": [
    "Graphene.C142_source",
    "Graphene.C142_exact",
    "Graphene.C142_dot3_exact",
    "Graphene.C142_dot2_exact",
    "Graphene.C142_dot4_exact",
    "Graphene.C142_cross_exact",
    "Graphene.C142_transform_exact",
    "Graphene.C142_direction_exact",
    "Graphene.C142_point_exact",
    "Graphene.C142_multiply_exact",
    "Graphene.C142_quaternion_exact",
    "Graphene.C142_builds_agree",
    "Graphene.C142_accurate",
    "Graphene.C142_dot3_accurate",
    "Graphene.C142_cross_accurate",
    "Graphene.C142_transform_accurate",
    "Graphene.C142_point_accurate",
    "Graphene.C142_multiply_accurate",
    "Graphene.C142_contracts",
    "Graphene.C142_cross_self_contracted"
   ],
   "note": ""
  },
  {
   "property": "C143",
   "status": "proved",
   "theorems": [
    "Graphene.C143_determinant_exact",
    "Graphene.C143_determinant_accurate",
    "Graphene.C143_source",
    "Graphene.C143_distance_exact",
    "Graphene.C143_position_exact",
    "Graphene.C143_rotation_exact",
    "Graphene.C143_interpolate_exact"
   ],
   "note": ""
  },
  {
   "property": "C144",
   "status": "proved",
   "theorems": [
    "Graphene.C144_source",
    "Graphene.C144_newton",
    "Graphene.C144_normalize"
   ],
   "note": ""
  },
  {
   "property": "C145",
   "status": "proved",
   "theorems": [
    "Graphene.C145_source",
    "Graphene.C145_contains_point_exact",
    "Graphene.C145_intersects_sphere_exact",
    "Graphene.C145_intersects_box_exact",
    "Graphene.C145_contains_point",
    "Graphene.C145_intersects_sphere",
    "Graphene.C145_intersects_box"
   ],
   "note": ""
  },
  {
   "property": "C146",
   "status": "proved",
   "theorems": [
    "Graphene.C146_squared_length",
    "Graphene.C146_length",
    "Graphene.C146_source",
    "Graphene.C146_tests",
    "Graphene.C146_normalize"
   ],
   "note": ""
  },
  {
   "property": "C147",
   "status": "proved",
   "theorems": [
    "Graphene.C147_source",
    "Graphene.C147_squared_distance_exact",
    "Graphene.C147_contains_exact",
    "Graphene.C147_distance_exact",
    "Graphene.C147_bounding_exact",
    "Graphene.C147_squared_distance",
    "Graphene.C147_contains",
    "Graphene.C147_multiplies_out",
    "Graphene.C147_misjudges"
   ],
   "note": ""
  },
  {
   "property": "C148",
   "status": "proved",
   "theorems": [
    "Graphene.C148_source",
    "Graphene.C148_values",
    "Graphene.C148_exact",
    "Graphene.C148_meets"
   ],
   "note": ""
  },
  {
   "property": "C149",
   "status": "proved",
   "theorems": [
    "Graphene.C149_source",
    "Graphene.C149_exact",
    "Graphene.C149_meets"
   ],
   "note": ""
  }
 ]
}