{
 "claims": [
  {
   "property": "C01",
   "status": "proved",
   "theorems": [
    "RBM.Props.C01_registry_refines_history",
    "RBM.Props.C01_owner_iff"
   ],
   "note": ""
  },
  {
   "property": "C02",
   "status": "proved",
   "theorems": [
    "RBM.Props.C02_register_outcome",
    "RBM.Props.C02_register_frame_conflict",
    "RBM.Props.C02_deregister"
   ],
   "note": ""
  },
  {
   "property": "C03",
   "status": "proved",
   "theorems": [
    "RBM.Props.C03_forest_well_formed"
   ],
   "note": ""
  },
  {
   "property": "C04",
   "status": "proved",
   "theorems": [
    "RBM.Props.C04_reparent"
   ],
   "note": ""
  },
  {
   "property": "C05",
   "status": "proved",
   "theorems": [
    "RBM.Props.C05_walk",
    "RBM.Props.C05_path_unique",
    "RBM.Props.C05_walk_by_name"
   ],
   "note": ""
  },
  {
   "property": "C06",
   "status": "proved",
   "theorems": [
    "RBM.Props.C06_destructor"
   ],
   "note": ""
  },
  {
   "property": "C07",
   "status": "proved",
   "theorems": [
    "RBM.Props.C07_names_do_not_matter"
   ],
   "note": ""
  },
  {
   "property": "C08",
   "status": "proved",
   "theorems": [
    "RBM.Props.C08_update",
    "RBM.Props.C08_self_update_detaches"
   ],
   "note": "includes the witness that re-registering the same object detaches it"
  },
  {
   "property": "C09",
   "status": "partial",
   "theorems": [
    "RBM.Props.C09_failure_atomic_is_false",
    "RBM.Props.C09_failure_harmless_partial"
   ],
   "note": "false as stated: C09_failure_atomic_is_false is the witness; proved part: no name, no existing parent link and no path changes"
  },
  {
   "property": "C10",
   "status": "proved",
   "theorems": [
    "RBM.Props.C10_coordinate_change",
    "RBM.Props.C10_coordinates_unique",
    "RBM.Props.C10_static_total"
   ],
   "note": "C10_static_total: lookups on static paths always succeed; C10_coordinate_change gives the geometric meaning (also for moving frames, under the squad contract)"
  },
  {
   "property": "C11",
   "status": "proved",
   "theorems": [
    "RBM.Props.C11_self_lookup",
    "RBM.Props.C11_vectors_timed",
    "RBM.Props.C11_quaternions_timed",
    "RBM.Props.C11_vectors",
    "RBM.Props.C11_points",
    "RBM.Props.C11_quaternions",
    "RBM.Props.C11_points_timed"
   ],
   "note": ""
  },
  {
   "property": "C12",
   "status": "proved",
   "theorems": [
    "RBM.Props.C12_inverse"
   ],
   "note": "static and, under the squad contract, moving"
  },
  {
   "property": "C13",
   "status": "proved",
   "theorems": [
    "RBM.Props.C13_composition"
   ],
   "note": "static and, under the squad contract, moving"
  },
  {
   "property": "C14",
   "status": "proved",
   "theorems": [
    "RBM.Props.C14_rigid"
   ],
   "note": ""
  },
  {
   "property": "C15",
   "status": "proved",
   "theorems": [
    "RBM.Props.C15_vectors_static",
    "RBM.Props.C15_points_static",
    "RBM.Props.C15_vectors_timed",
    "RBM.Props.C15_points_timed",
    "RBM.Props.C15_lookup_agrees",
    "RBM.Props.C15_difference_static"
   ],
   "note": "points with the spatial axis last (C32 for other axes), vectors with any axis"
  },
  {
   "property": "C16",
   "status": "proved",
   "theorems": [
    "RBM.Props.C16_compatible",
    "RBM.Props.C16_norm",
    "RBM.Props.C16_orientations_static",
    "RBM.Props.C16_orientations_timed"
   ],
   "note": ""
  },
  {
   "property": "C17",
   "status": "proved",
   "theorems": [
    "RBM.Props.C17_vectors_static",
    "RBM.Props.C17_points_static",
    "RBM.Props.C17_quaternions_static",
    "RBM.Props.C17_vectors_timed",
    "RBM.Props.C17_points_timed",
    "RBM.Props.C17_quaternions_timed"
   ],
   "note": "static and moving"
  },
  {
   "property": "C18",
   "status": "proved",
   "theorems": [
    "RBM.Props.C18_inverse_construct",
    "RBM.Props.C18_inverse_static",
    "RBM.Props.C18_inverse_continuous"
   ],
   "note": "C18_inverse_construct: indistinguishable from the frame built with the inverse poses"
  },
  {
   "property": "C19",
   "status": "partial",
   "theorems": [
    "RBM.Props.C19_single",
    "RBM.Props.C19_array_exact",
    "RBM.Props.C19_array_partial",
    "RBM.Props.C19_array_scale_is_false"
   ],
   "note": "false for arrays of non-unit quaternions (C19_array_scale_is_false); C19_array_exact says what is computed instead"
  },
  {
   "property": "C20",
   "status": "proved",
   "theorems": [
    "RBM.Props.C20_timestamps",
    "RBM.Props.C20_every_lookup",
    "RBM.Props.C20_every_transform",
    "RBM.Props.C20_array_timestamps"
   ],
   "note": "every lookup and transform that returns"
  },
  {
   "property": "C21",
   "status": "proved",
   "theorems": [
    "RBM.Props.C21_sampling",
    "RBM.Props.C21_discrete_only"
   ],
   "note": ""
  },
  {
   "property": "C22",
   "status": "proved",
   "theorems": [
    "RBM.Props.C22_static_iff",
    "RBM.Props.C22_every_lookup"
   ],
   "note": "every lookup that returns; well-formed frames return"
  },
  {
   "property": "C23",
   "status": "proved",
   "theorems": [
    "RBM.Props.C23_never_fails"
   ],
   "note": ""
  },
  {
   "property": "C24",
   "status": "proved",
   "theorems": [
    "RBM.Props.C24_pointwise",
    "RBM.Props.C24_frozen_exists",
    "RBM.Props.C24_rows_covered"
   ],
   "note": ""
  },
  {
   "property": "C25",
   "status": "proved",
   "theorems": [
    "RBM.Props.C25_interpolation",
    "RBM.Props.C25_lookup_samples",
    "RBM.Props.C25_pose"
   ],
   "note": ""
  },
  {
   "property": "C26",
   "status": "proved",
   "theorems": [
    "RBM.Props.C26_hold",
    "RBM.Props.C26_lookup"
   ],
   "note": ""
  },
  {
   "property": "C27",
   "status": "proved",
   "theorems": [
    "RBM.Props.C27_discrete_events",
    "RBM.Props.C27_every_lookup"
   ],
   "note": "every lookup that returns"
  },
  {
   "property": "C28",
   "status": "proved",
   "theorems": [
    "RBM.Props.C28_bad_timestamps",
    "RBM.Props.C28_transforms",
    "RBM.Props.C28_bad_array"
   ],
   "note": "frames and arrays, lookups and transforms"
  },
  {
   "property": "C29",
   "status": "proved",
   "theorems": [
    "RBM.Props.C29_constructor",
    "RBM.Props.C29_root",
    "RBM.Props.C29_unresolved_parent"
   ],
   "note": "for inverse=True with nonzero rotations (otherwise numpy returns NaN)"
  },
  {
   "property": "C30",
   "status": "partial",
   "theorems": [
    "RBM.Props.C30_single_vector_partial",
    "RBM.Props.C30_single_point_partial",
    "RBM.Props.C30_row_vector_partial",
    "RBM.Props.C30_row_point_partial",
    "RBM.Props.C30_single_orientation_partial",
    "RBM.Props.C30_several_fail",
    "RBM.Props.C30_several_is_false"
   ],
   "note": "single points/vectors proved; false for several (C30_several_is_false, C30_several_fail)"
  },
  {
   "property": "C31",
   "status": "partial",
   "theorems": [
    "RBM.Props.C31_rotate_partial",
    "RBM.Props.C31_rotate_is_false",
    "RBM.Props.C31_transform_static",
    "RBM.Props.C31_space_first_fails"
   ],
   "note": "false in general (C31_rotate_is_false, C31_space_first_fails); proved for static transforms with any axis and for the last two axes of rotate_vectors"
  },
  {
   "property": "C32",
   "status": "partial",
   "theorems": [
    "RBM.Props.C32_exact",
    "RBM.Props.C32_shape_error",
    "RBM.Props.C32_axis_last_partial",
    "RBM.Props.C32_is_false",
    "RBM.Props.C32_last_one"
   ],
   "note": "false for a spatial axis that is not the last (C32_is_false); C32_exact and C32_shape_error say what is computed instead"
  },
  {
   "property": "C40",
   "status": "proved",
   "theorems": [
    "RBM.Props.C40_broadcast",
    "RBM.Props.C40_broadcast_dtype",
    "RBM.Props.C40_incompatible",
    "RBM.Props.C40_incompatible_dtype",
    "RBM.Props.C40_inverse",
    "RBM.Props.C40_inverse_zero",
    "RBM.Props.C40_inverse_dtype",
    "RBM.Props.C40_involution",
    "RBM.Props.C40_product",
    "RBM.Props.C40_product_dtype",
    "RBM.Props.C40_product_refused",
    "RBM.Props.C40_norm",
    "RBM.Props.C40_associative",
    "RBM.Props.C40_inverse_product"
   ],
   "note": "float and quaternion dtype"
  },
  {
   "property": "C41",
   "status": "partial",
   "theorems": [
    "RBM.Props.C41_descending_partial",
    "RBM.Props.C41_single_exact",
    "RBM.Props.C41_single_is_wrong",
    "RBM.Props.C41_is_false",
    "RBM.Props.C41_all_partial",
    "RBM.Props.C41_axis_partial",
    "RBM.Props.C41_dtype",
    "RBM.Props.C41_bad_axis",
    "RBM.Props.C41_qaxis_refused",
    "RBM.Props.C41_axis_is_false"
   ],
   "note": "false: the code picks a row instead of a column of the eigenvector matrix (C41_is_false, C41_single_is_wrong); C41_descending_partial covers eigenvalues already in descending order, C41_all_partial arrays of any shape; with an axis argument every entry is the mean of the first group (C41_axis_partial, C41_axis_is_false)"
  },
  {
   "property": "C42",
   "status": "proved",
   "theorems": [
    "RBM.Props.C42_product",
    "RBM.Props.C42_product_float",
    "RBM.Props.C42_rpy",
    "RBM.Props.C42_order_refused",
    "RBM.Props.C42_order_never_accepted",
    "RBM.Props.C42_longer_order_accepted",
    "RBM.Props.C42_arguments_refused"
   ],
   "note": "order strings longer than three letters are accepted (C42_longer_order_accepted)"
  },
  {
   "property": "C34",
   "status": "partial",
   "theorems": [
    "RBM.Props.C34_transform_partial",
    "RBM.Props.C34_velocity_transforms_partial",
    "RBM.Props.C34_static_lookups",
    "RBM.Props.C34_lookups_is_false",
    "RBM.Props.C34_moving_lookups_partial"
   ],
   "note": "holds for every transform_* call and for lookups between frames in relative motion (C34_moving_lookups_partial); false for velocity lookups between frames that do not move (C34_lookups_is_false)"
  },
  {
   "property": "C35",
   "status": "proved",
   "theorems": [
    "RBM.Props.C35_lookup",
    "RBM.Props.C35_pose",
    "RBM.Props.C35_transform"
   ],
   "note": "lookups exactly; C35_transform for the coordinate changes applied to arrays"
  },
  {
   "property": "C36",
   "status": "proved",
   "theorems": [
    "RBM.Props.C36_exact",
    "RBM.Props.C36_too_few",
    "RBM.Props.C36_length",
    "RBM.Props.C36_labels",
    "RBM.Props.C36_lookup",
    "RBM.Props.C36_lookup_uniform",
    "RBM.Props.C36_no_timestamps",
    "RBM.Props.C36_timestamps_false"
   ],
   "note": "also through lookup_linear_velocity (C36_lookup, C36_lookup_uniform)"
  },
  {
   "property": "C37",
   "status": "proved",
   "theorems": [
    "RBM.Props.C37_quaternion_mode",
    "RBM.Props.C37_constant_is_zero",
    "RBM.Props.C37_fixed_axis",
    "RBM.Props.C37_unknown_mode",
    "RBM.Props.C37_lookup",
    "RBM.Props.C37_lookup_exact",
    "RBM.Props.C37_lookup_exact_body",
    "RBM.Props.C37_labels",
    "RBM.Props.C37_reference_frame",
    "RBM.Props.C37_moving_frame",
    "RBM.Props.C37_representation_frame",
    "RBM.Props.C37_chain",
    "RBM.Props.C37_chain_moving",
    "RBM.Props.C37_static_path"
   ],
   "note": "estimates, lookups and transform_angular_velocity"
  },
  {
   "property": "C38",
   "status": "proved",
   "theorems": [
    "RBM.Props.C38_twist",
    "RBM.Props.C38_reference_frame",
    "RBM.Props.C38_moving_frame",
    "RBM.Props.C38_representation_frame",
    "RBM.Props.C38_transport",
    "RBM.Props.C38_exact",
    "RBM.Props.C38_exact_moving",
    "RBM.Props.C38_twist_exact",
    "RBM.Props.C38_exact_uniform",
    "RBM.Props.C38_exact_moving_uniform"
   ],
   "note": "transform_linear_velocity: reference, moving and representation frame changes"
  },
  {
   "property": "C39",
   "status": "proved",
   "theorems": [
    "RBM.Props.C39_linear",
    "RBM.Props.C39_last_retained",
    "RBM.Props.C39_nothing_removed",
    "RBM.Props.C39_none_retained",
    "RBM.Props.C39_single_retained",
    "RBM.Props.C39_uniform",
    "RBM.Props.C39_lookup_nan"
   ],
   "note": "linear velocity"
  },
  {
   "property": "C43",
   "status": "proved",
   "theorems": [
    "RBM.Props.C43_to_polar",
    "RBM.Props.C43_from_polar",
    "RBM.Props.C43_to_spherical",
    "RBM.Props.C43_from_spherical",
    "RBM.Props.C43_cartesian_polar_cartesian",
    "RBM.Props.C43_polar_cartesian_polar",
    "RBM.Props.C43_cartesian_spherical_cartesian",
    "RBM.Props.C43_spherical_cartesian_spherical",
    "RBM.Props.C43_origin",
    "RBM.Props.C43_wrong_length"
   ],
   "note": ""
  },
  {
   "property": "C44",
   "status": "partial",
   "theorems": [
    "RBM.Props.C44_plain_partial",
    "RBM.Props.C44_plain_back_partial",
    "RBM.Props.C44_first_axis_fails",
    "RBM.Props.C44_is_false",
    "RBM.Props.C44_unsupported",
    "RBM.Props.C44_no_outof",
    "RBM.Props.C44_dataarray",
    "RBM.Props.C44_dataarray_back"
   ],
   "note": "false for plain arrays with the spatial axis first, in particular single points (C44_is_false, C44_first_axis_fails); all other arrays and DataArrays proved"
  },
  {
   "property": "C45",
   "status": "proved",
   "theorems": [
    "RBM.Props.C45_plain",
    "RBM.Props.C45_singular",
    "RBM.Props.C45_dataarray",
    "RBM.Props.C45_first_dim_fails",
    "RBM.Props.C45_broadcast",
    "RBM.Props.C45_broadcast_singular",
    "RBM.Props.C45_incompatible",
    "RBM.Props.C45_broadcast_dataarray",
    "RBM.Props.C45_named_dim_fails"
   ],
   "note": "same-shape arrays along any axis, arrays of different shapes along the last axis, DataArrays; C45_first_dim_fails: DataArrays with the spatial dimension first are rejected by the code"
  },
  {
   "property": "C46",
   "status": "proved",
   "theorems": [
    "RBM.Props.C46_best",
    "RBM.Props.C46_best_proper",
    "RBM.Props.C46_exact",
    "RBM.Props.C46_reflection_is_false",
    "RBM.Props.C46_coplanar_is_false"
   ],
   "note": "under the proviso of the property; C46_reflection_is_false and C46_coplanar_is_false show that it is needed"
  },
  {
   "property": "C47",
   "status": "proved",
   "theorems": [
    "RBM.Props.C47_best",
    "RBM.Props.C47_exact",
    "RBM.Props.C47_unique",
    "RBM.Props.C47_empty",
    "RBM.Props.C47_shapes",
    "RBM.Props.C47_not_vectors"
   ],
   "note": ""
  },
  {
   "property": "C48",
   "status": "proved",
   "theorems": [
    "RBM.Props.C48_run",
    "RBM.Props.C48_monotone",
    "RBM.Props.C48_improves",
    "RBM.Props.C48_exact",
    "RBM.Props.C48_zero_quaternion",
    "RBM.Props.C48_no_points",
    "RBM.Props.C48_no_targets"
   ],
   "note": ""
  },
  {
   "property": "C55",
   "status": "proved",
   "theorems": [
    "RBM.Props.C55_int",
    "RBM.Props.C55_tuple",
    "RBM.Props.C55_none"
   ],
   "note": ""
  },
  {
   "property": "C56",
   "status": "proved",
   "theorems": [
    "RBM.Props.C56_plain",
    "RBM.Props.C56_plain_timed",
    "RBM.Props.C56_plain_dim",
    "RBM.Props.C56_dims",
    "RBM.Props.C56_axes",
    "RBM.Props.C56_no_coordinate",
    "RBM.Props.C56_untimed",
    "RBM.Props.C56_contradictory",
    "RBM.Props.C56_axis_zero"
   ],
   "note": ""
  },
  {
   "property": "C57",
   "status": "proved",
   "theorems": [
    "RBM.Props.C57_angular_chain",
    "RBM.Props.C57_linear_exact",
    "RBM.Props.C57_result",
    "RBM.Props.C57_vectors",
    "RBM.Props.C57_points",
    "RBM.Props.C57_quaternions",
    "RBM.Props.C57_angular_velocity",
    "RBM.Props.C57_linear_velocity",
    "RBM.Props.C57_plain_velocity"
   ],
   "note": "C57_result for every successful call; C57_vectors/points/quaternions: calls with named dimensions succeed"
  },
  {
   "property": "C49",
   "status": "proved",
   "theorems": [
    "RBM.Props.C49_stamp",
    "RBM.Props.C49_negative_time",
    "RBM.Props.C49_transform",
    "RBM.Props.C49_pose",
    "RBM.Props.C49_twist",
    "RBM.Props.C49_vector_point",
    "RBM.Props.C49_quaternion",
    "RBM.Props.C49_wrong_length",
    "RBM.Props.C49_static_frame",
    "RBM.Props.C49_static_frame_only"
   ],
   "note": "times are cut to nanoseconds (C49_stamp); negative times are rejected (C49_negative_time)"
  },
  {
   "property": "C50",
   "status": "partial",
   "theorems": [
    "RBM.Props.C50_loop",
    "RBM.Props.C50_progress",
    "RBM.Props.C50_publish_partial",
    "RBM.Props.C50_publish_default",
    "RBM.Props.C50_publish_out_of_range",
    "RBM.Props.C50_publish_zero",
    "RBM.Props.C50_static",
    "RBM.Props.C50_publish_zero_is_false",
    "RBM.Props.C50_constructor",
    "RBM.Props.C50_constructor_static"
   ],
   "note": "false for publish(0) (C50_publish_zero_is_false); everything else proved, for every history of calls and steps of the thread"
  },
  {
   "property": "C51",
   "status": "proved",
   "theorems": [
    "RBM.Props.C51_publish",
    "RBM.Props.C51_no_repetition",
    "RBM.Props.C51_up_to_date",
    "RBM.Props.C51_idempotent"
   ],
   "note": ""
  },
  {
   "property": "C52",
   "status": "partial",
   "theorems": [
    "RBM.Props.C52_points",
    "RBM.Props.C52_count_partial",
    "RBM.Props.C52_covers",
    "RBM.Props.C52_is_false",
    "RBM.Props.C52_short_fails",
    "RBM.Props.C52_static_fails",
    "RBM.Props.C52_constructor"
   ],
   "note": "false as stated (C52_is_false, C52_short_fails, C52_static_fails); C52_count_partial: less than twice max_points"
  },
  {
   "property": "C53",
   "status": "partial",
   "theorems": [
    "RBM.Props.C53_short",
    "RBM.Props.C53_created",
    "RBM.Props.C53_range",
    "RBM.Props.C53_calls",
    "RBM.Props.C53_forward",
    "RBM.Props.C53_backward_partial",
    "RBM.Props.C53_backward_stuck",
    "RBM.Props.C53_backward_is_false"
   ],
   "note": "false for the backward button at the last sample (C53_backward_is_false)"
  },
  {
   "property": "C59",
   "status": "partial",
   "theorems": [
    "RBM.Props.C59_stop_partial",
    "RBM.Props.C59_stop_lost",
    "RBM.Props.C59_subscribed",
    "RBM.Props.C59_marker_stop_partial",
    "RBM.Props.C59_marker_stop_lost"
   ],
   "note": "false if the thread has not started its loop (C59_stop_lost, C59_marker_stop_lost) and with subscriptions (C59_subscribed); C59_stop_partial, C59_marker_stop_partial otherwise"
  },
  {
   "property": "C62",
   "status": "partial",
   "theorems": [
    "RBM.Props.C62_color",
    "RBM.Props.C62_no_alpha",
    "RBM.Props.C62_not_hex",
    "RBM.Props.C62_marker_partial",
    "RBM.Props.C62_type_is_false",
    "RBM.Props.C62_int_scale"
   ],
   "note": "false for marker type 0 (C62_type_is_false)"
  },
  {
   "property": "C54",
   "status": "partial",
   "theorems": [
    "RBM.Props.C54_value",
    "RBM.Props.C54_exact",
    "RBM.Props.C54_nan",
    "RBM.Props.C54_out_of_range",
    "RBM.Props.C54_fill",
    "RBM.Props.C54_dataset",
    "RBM.Props.C54_idempotent",
    "RBM.Props.C54_orientation",
    "RBM.Props.C54_orientation_not_unit",
    "RBM.Props.C54_names",
    "RBM.Props.C54_names_partial",
    "RBM.Props.C54_names_is_false"
   ],
   "note": "values proved (C54_value, C54_dataset); false for topics that differ in / and _ (C54_names_is_false)"
  },
  {
   "property": "C58",
   "status": "proved",
   "theorems": [
    "RBM.Props.C58_messages",
    "RBM.Props.C58_lookup",
    "RBM.Props.C58_vectors_points",
    "RBM.Props.C58_poses"
   ],
   "note": "under the contract of tf2 at exactly sampled stamps (Spec.TfLaw); rotations up to the sign of the quaternion"
  },
  {
   "property": "C64",
   "status": "partial",
   "theorems": [
    "RBM.Props.C64_poses_partial",
    "RBM.Props.C64_exact_times",
    "RBM.Props.C64_formats",
    "RBM.Props.C64_rotation_type_refused",
    "RBM.Props.C64_format_refused",
    "RBM.Props.C64_missing",
    "RBM.Props.C64_millimetres_is_false"
   ],
   "note": "false for files in millimetres (C64_millimetres_is_false); the rest is proved"
  },
  {
   "property": "C65",
   "status": "proved",
   "theorems": [
    "RBM.Props.C65_outline",
    "RBM.Props.C65_error"
   ],
   "note": ""
  },
  {
   "property": "C66",
   "status": "partial",
   "theorems": [
    "RBM.Props.C66_transform_labels_is_false",
    "RBM.Props.C66_pose",
    "RBM.Props.C66_transform_partial",
    "RBM.Props.C66_pose_into",
    "RBM.Props.C66_frames",
    "RBM.Props.C66_root_reference",
    "RBM.Props.C66_linear",
    "RBM.Props.C66_angular",
    "RBM.Props.C66_twist",
    "RBM.Props.C66_velocity_errors",
    "RBM.Props.C66_static_velocity",
    "RBM.Props.C66_linear_into",
    "RBM.Props.C66_angular_into",
    "RBM.Props.C66_transform_twice",
    "RBM.Props.C66_static_pose_into"
   ],
   "note": "false for the labels of lookup_transform (C66_transform_labels_is_false); the rest is proved"
  },
  {
   "property": "C67",
   "status": "partial",
   "theorems": [
    "RBM.Props.C67_values_partial",
    "RBM.Props.C67_interpolates_partial",
    "RBM.Props.C67_identity",
    "RBM.Props.C67_dtype_partial",
    "RBM.Props.C67_times_mismatch",
    "RBM.Props.C67_accessor_partial",
    "RBM.Props.C67_accessor_no_coord",
    "RBM.Props.C67_accessor_errors",
    "RBM.Props.C67_accessor_inverse",
    "RBM.Props.C67_empty",
    "RBM.Props.C67_empty_is_false",
    "RBM.Props.C67_empty_dtype_is_false",
    "RBM.Props.C67_axis_clash"
   ],
   "note": "false for empty new times (C67_empty_is_false, C67_empty_dtype_is_false); the rest is proved"
  },
  {
   "property": "C68",
   "status": "proved",
   "theorems": [
    "RBM.Props.C68_dataset",
    "RBM.Props.C68_dataset_refused",
    "RBM.Props.C68_dataset_missing",
    "RBM.Props.C68_translation",
    "RBM.Props.C68_rotation",
    "RBM.Props.C68_dimension",
    "RBM.Props.C68_matrix",
    "RBM.Props.C68_matrix_nearest",
    "RBM.Props.C68_matrix_refused",
    "RBM.Props.C68_roundtrip"
   ],
   "note": ""
  },
  {
   "property": "C69",
   "status": "partial",
   "theorems": [
    "RBM.Props.C69_equal_scale",
    "RBM.Props.C69_points_partial",
    "RBM.Props.C69_points_refused",
    "RBM.Props.C69_second_plot_is_false",
    "RBM.Props.C69_frame_partial",
    "RBM.Props.C69_frame_own_partial",
    "RBM.Props.C69_frame_moving",
    "RBM.Props.C69_frame_visible_is_false",
    "RBM.Props.C69_vectors_partial",
    "RBM.Props.C69_vectors_base",
    "RBM.Props.C69_quaternions_partial",
    "RBM.Props.C69_quaternions_visible_is_false"
   ],
   "note": "what is plotted and the equal scale are proved; visibility is false (C69_frame_visible_is_false, C69_second_plot_is_false, C69_quaternions_visible_is_false)"
  },
  {
   "property": "C70",
   "status": "partial",
   "theorems": [
    "RBM.Props.C70_point_partial",
    "RBM.Props.C70_vector_partial",
    "RBM.Props.C70_named_dim_fails",
    "RBM.Props.C70_named_dim_is_false",
    "RBM.Props.C70_orientation_partial"
   ],
   "note": "false if the dimension is named (C70_named_dim_is_false)"
  },
  {
   "property": "C71",
   "status": "proved",
   "theorems": [
    "RBM.Props.C71_all_pairs",
    "RBM.Props.C71_zero"
   ],
   "note": ""
  },
  {
   "property": "C72",
   "status": "proved",
   "theorems": [
    "RBM.Props.C72_broadcast",
    "RBM.Props.C72_broadcast_float",
    "RBM.Props.C72_incompatible",
    "RBM.Props.C72_not_vectors",
    "RBM.Props.C72_single"
   ],
   "note": ""
  },
  {
   "property": "C73",
   "status": "proved",
   "theorems": [
    "RBM.Props.C73_shutdown",
    "RBM.Props.C73_marker_shutdown"
   ],
   "note": ""
  },
  {
   "property": "C74",
   "status": "proved",
   "theorems": [
    "RBM.Props.C74_running",
    "RBM.Props.C74_not_running",
    "RBM.Props.C74_started",
    "RBM.Props.C74_start_fails",
    "RBM.Props.C74_foreign",
    "RBM.Props.C74_exit",
    "RBM.Props.C74_result"
   ],
   "note": ""
  },
  {
   "property": "C75",
   "status": "proved",
   "theorems": [
    "RBM.Props.C75_stacked",
    "RBM.Props.C75_tiled",
    "RBM.Props.C75_inverse",
    "RBM.Props.C75_timestamps",
    "RBM.Props.C75_refused"
   ],
   "note": ""
  },
  {
   "property": "C76",
   "status": "proved",
   "theorems": [
    "RBM.Props.C76_pinned",
    "RBM.Props.C76_known",
    "RBM.Props.C76_refused"
   ],
   "note": ""
  },
  {
   "property": "C77",
   "status": "proved",
   "theorems": [
    "RBM.Props.C77_gaps",
    "RBM.Props.C77_filter_spoils",
    "RBM.Props.C77_no_gaps"
   ],
   "note": ""
  },
  {
   "property": "C78",
   "status": "proved",
   "theorems": [
    "RBM.Props.C78_no_gaps",
    "RBM.Props.C78_rotation_vector",
    "RBM.Props.C78_gaps",
    "RBM.Props.C78_filter_spoils"
   ],
   "note": ""
  },
  {
   "property": "C79",
   "status": "proved",
   "theorems": [
    "RBM.Props.C79_linear",
    "RBM.Props.C79_last_missing",
    "RBM.Props.C79_angular"
   ],
   "note": ""
  },
  {
   "property": "C80",
   "status": "proved",
   "theorems": [
    "RBM.Props.C80_inside",
    "RBM.Props.C80_open",
    "RBM.Props.C80_reentry_leaks",
    "RBM.Props.C80_outside",
    "RBM.Props.C80_stable",
    "RBM.Props.C80_reads",
    "RBM.Props.C80_stored",
    "RBM.Props.C80_crash",
    "RBM.Props.C80_methods",
    "RBM.Props.C80_two_writers"
   ],
   "note": "Crash and failure points are events of the model; rosbag itself (file emptied at opening, complete at closing) is an assumption."
  },
  {
   "property": "C81",
   "status": "partial",
   "theorems": [
    "RBM.Props.C81_only_exports",
    "RBM.Props.C81_torn_forever",
    "RBM.Props.C81_repair",
    "RBM.Props.C81_export_not_atomic",
    "RBM.Props.C81_never_wrong_partial",
    "RBM.Props.C81_uninterrupted_partial"
   ],
   "note": "False: torn cache files are never replaced (C81_torn_forever) and exports are not atomic (C81_export_not_atomic). Proved: never wrong data, right data without interrupted writes, only exports change existing files, repair by a new export."
  },
  {
   "property": "C82",
   "status": "proved",
   "theorems": [
    "RBM.Props.C82_between",
    "RBM.Props.C82_velocities",
    "RBM.Props.C82_history"
   ],
   "note": ""
  },
  {
   "property": "C83",
   "status": "proved",
   "theorems": [
    "RBM.Props.C83_sample_points",
    "RBM.Props.C83_sample_vectors",
    "RBM.Props.C83_sample_orientations",
    "RBM.Props.C83_select_points",
    "RBM.Props.C83_select_vectors",
    "RBM.Props.C83_select_orientations"
   ],
   "note": "At least two samples and the axis last, as in C15/C16. Contract for squad: a function of time (SquadLaw)."
  },
  {
   "property": "C84",
   "status": "proved",
   "theorems": [
    "RBM.Props.C84_lookup",
    "RBM.Props.C84_construct",
    "RBM.Props.C84_program",
    "RBM.Props.C84_points",
    "RBM.Props.C84_vectors",
    "RBM.Props.C84_orientations",
    "RBM.Props.C84_linear_velocity",
    "RBM.Props.C84_angular_velocity"
   ],
   "note": "Velocities are stated for a clock with the same zero point and without outlier threshold and cutoff (both are given in units of the data). Contracts: the external interpolation depends on ratios of time differences only, the external derivative is inversely proportional to the unit of time; met by example routines."
  },
  {
   "property": "C85",
   "status": "proved",
   "theorems": [
    "RBM.Props.C85_points",
    "RBM.Props.C85_vectors",
    "RBM.Props.C85_orientations",
    "RBM.Props.C85_errors"
   ],
   "note": "Axis 0 given explicitly is read as 'not given' (C56_axis_zero), hence excluded here."
  },
  {
   "property": "C86",
   "status": "proved",
   "theorems": [
    "RBM.Props.C86_exact",
    "RBM.Props.C86_lookup",
    "RBM.Props.C86_recorded",
    "RBM.Props.C86_not_interpolated",
    "RBM.Props.C86_error",
    "RBM.Props.C86_first_collision",
    "RBM.Props.C86_hidden_disorder",
    "RBM.Props.C86_later_collision",
    "RBM.Props.C86_vectors",
    "RBM.Props.C86_points",
    "RBM.Props.C86_orientations",
    "RBM.Props.C86_order_check"
   ],
   "note": "The conversion is a parameter (any monotone function). Velocity functions are not covered. The arithmetic of interpolation itself is exact."
  },
  {
   "property": "C87",
   "status": "proved",
   "theorems": [
    "RBM.Props.C87_register",
    "RBM.Props.C87_follows",
    "RBM.Props.C87_current",
    "RBM.Props.C87_shared",
    "RBM.Props.C87_arrays",
    "RBM.Props.C87_frames",
    "RBM.Props.C87_inverse",
    "RBM.Props.C87_lookup",
    "RBM.Props.C87_vectors",
    "RBM.Props.C87_points",
    "RBM.Props.C87_orientations",
    "RBM.Props.C87_results_free",
    "RBM.Props.C87_steps",
    "RBM.Props.C87_values",
    "RBM.Props.C87_linear_lookup",
    "RBM.Props.C87_angular_lookup",
    "RBM.Props.C87_twist_lookup",
    "RBM.Props.C87_linear_velocity",
    "RBM.Props.C87_angular_velocity",
    "RBM.Props.C87_continues"
   ],
   "note": "heap model (numpy arrays as views of buffers, np.asarray without copy, swapaxes as view, in-place assignment) refines the value model, including the velocity functions and their in-place addition; not covered: xarray objects, the estimators' internal arrays"
  },
  {
   "property": "C88",
   "status": "proved",
   "theorems": [
    "RBM.Props.C88_vectors",
    "RBM.Props.C88_points",
    "RBM.Props.C88_orientations",
    "RBM.Props.C88_velocities",
    "RBM.Props.C88_velocities_any",
    "RBM.Props.C88_rotate_vectors",
    "RBM.Props.C88_qinv",
    "RBM.Props.C88_qmul",
    "RBM.Props.C88_qinterp",
    "RBM.Props.C88_coordinates",
    "RBM.Props.C88_estimates",
    "RBM.Props.C88_fits",
    "RBM.Props.C88_shortest_arc",
    "RBM.Props.C88_single_front",
    "RBM.Props.C88_untimed_is_false",
    "RBM.Props.C88_labelled"
   ],
   "note": "Equality of results for the two spellings, errors included except for the transform methods (successful calls). Excluded, with C88_untimed_is_false as witness: arrays without timestamps along moving paths. Also excluded: transforms of arrays with more than two axes whose result has no samples; qmean (C41_qaxis_refused); integer axes 0 where 0 means the default. C57_angular_chain and C57_linear_exact carry C37/C38 to DataArrays."
  },
  {
   "property": "C89",
   "status": "proved",
   "theorems": [
    "RBM.Props.C89_plain",
    "RBM.Props.C89_program",
    "RBM.Props.C89_lookup",
    "RBM.Props.C89_linear_velocity",
    "RBM.Props.C89_angular_velocity",
    "RBM.Props.C89_twist",
    "RBM.Props.C89_transform_angular",
    "RBM.Props.C89_transform_linear",
    "RBM.Props.C89_estimates",
    "RBM.Props.C89_labelled",
    "RBM.Props.C89_other_unit",
    "RBM.Props.C89_other_unit_angular",
    "RBM.Props.C89_other_unit_estimates",
    "RBM.Props.C89_other_unit_is_false"
   ],
   "note": "Contract UnitsLaw of the interpolation (independent of the clock), satisfiable. astype(float) is exact in the model (float64 rounds epochs in nanoseconds, see C86). C89_other_unit* state the defect for other units."
  },
  {
   "property": "C90",
   "status": "proved",
   "theorems": [
    "RBM.Props.C90_merged",
    "RBM.Props.C90_world_between",
    "RBM.Props.C90_world_into",
    "RBM.Props.C90_merged_transforms",
    "RBM.Props.C90_merged_velocities",
    "RBM.Props.C90_merged_velocity_transforms",
    "RBM.Props.C90_world_transforms",
    "RBM.Props.C90_world_velocities",
    "RBM.Props.C90_world_velocity_transforms"
   ],
   "note": "Contracts SquadLaw and SquadTurns of the interpolation (turning all samples by a fixed rotation turns the interpolated values), satisfiable (Ex.holdSquad). Frames on the path have unit quaternions and increasing timestamps."
  },
  {
   "property": "C91",
   "status": "proved",
   "theorems": [
    "RBM.Props.C91_frame_lookup",
    "RBM.Props.C91_frame_transforms",
    "RBM.Props.C91_frame_alone",
    "RBM.Props.C91_event",
    "RBM.Props.C91_array",
    "RBM.Props.C91_array_alone",
    "RBM.Props.C91_velocities"
   ],
   "note": "scipy's interp1d of one sample divides 0/0 (NaN, the error value nonfinite of the model); squad of one sample raises IndexError."
  },
  {
   "property": "C92",
   "status": "proved",
   "theorems": [
    "RBM.Props.C92_whole_samples",
    "RBM.Props.C92_alive",
    "RBM.Props.C92_stop",
    "RBM.Props.C92_shutdown",
    "RBM.Props.C92_one_loop",
    "RBM.Props.C92_progress",
    "RBM.Props.C92_publish",
    "RBM.Props.C92_follows",
    "RBM.Props.C92_coarse",
    "RBM.Props.C92_two_loops_skip"
   ],
   "note": "Fine-grained thread model in Model/RosThreads; C92_two_loops_skip is the witness for the last sentence."
  },
  {
   "property": "C93",
   "status": "proved",
   "theorems": [
    "RBM.Props.C93_current",
    "RBM.Props.C93_converges",
    "RBM.Props.C93_call_converges",
    "RBM.Props.C93_returning_value",
    "RBM.Props.C93_stop",
    "RBM.Props.C93_shutdown",
    "RBM.Props.C93_bandwidth",
    "RBM.Props.C93_coarse"
   ],
   "note": "Fine-grained thread model in Model/MarkerThreads; C93_returning_value proves the sentence about returning values."
  },
  {
   "property": "C94",
   "status": "partial",
   "theorems": [
    "RBM.Props.C94_vectors",
    "RBM.Props.C94_reference_frame_partial",
    "RBM.Props.C94_moving_frame_partial",
    "RBM.Props.C94_linear_reference_frame_partial",
    "RBM.Props.C94_linear_moving_frame_partial",
    "RBM.Props.C94_static",
    "RBM.Props.C94_angular_is_false",
    "RBM.Props.C94_linear_is_false",
    "RBM.Props.C94_static_timestamps_is_false"
   ],
   "note": "Full statement (ColumnWise, Spec/Stacks) proved for rotation only (C94_vectors) and static paths without timestamps (C94_static); refuted by C94_angular_is_false, C94_linear_is_false, C94_static_timestamps_is_false. The *_partial theorems say exactly when the calls fail and what they return otherwise."
  },
  {
   "property": "C95",
   "status": "proved",
   "theorems": [
    "RBM.Props.C95_first_sample_wins",
    "RBM.Props.C95_first_two_equal"
   ],
   "note": "rows at repeated timestamps, and the case of equal first timestamps; orientations up to the value of squad, assumed to be unit quaternions"
  },
  {
   "property": "C96",
   "status": "proved",
   "theorems": [
    "RBM.Props.C96_vectors_static",
    "RBM.Props.C96_points_static",
    "RBM.Props.C96_vectors_timed",
    "RBM.Props.C96_points_timed",
    "RBM.Props.C96_no_gaps"
   ],
   "note": "All clauses (NaN arithmetic is modelled as absorbing; `squad` of arrays with NaN, i.e. last axis of length four, is not modelled)."
  },
  {
   "property": "C97",
   "status": "proved",
   "theorems": [
    "RBM.Props.C97_timestamps",
    "RBM.Props.C97_lookup",
    "RBM.Props.C97_position",
    "RBM.Props.C97_sample",
    "RBM.Props.C97_vectors",
    "RBM.Props.C97_points",
    "RBM.Props.C97_quaternions"
   ],
   "note": "squad is external: SquadLaw and SquadNear (the value between two samples depends on these and their neighbours) are assumed; stepSquad satisfies both"
  },
  {
   "property": "C98",
   "status": "proved",
   "theorems": [
    "RBM.Props.C98_no_pose",
    "RBM.Props.C98_sound",
    "RBM.Props.C98_near",
    "RBM.Props.C98_certain"
   ],
   "note": "squad is external: SquadLaw and SquadGapsLaw (a value is missing or right for every completion, and not missing if nothing is missing up to two samples away) are assumed; stepSquad, stepSquadGaps satisfy them. An orientation with a NaN in one component is modelled as missing as a whole"
  },
  {
   "property": "C99",
   "status": "proved",
   "theorems": [
    "RBM.Props.C99_estimate",
    "RBM.Props.C99_labels",
    "RBM.Props.C99_bounds",
    "RBM.Props.C99_local",
    "RBM.Props.C99_superposition",
    "RBM.Props.C99_lookup",
    "RBM.Props.C99_speed"
   ],
   "note": "estimate (plain and labelled), bounds, locality, superposition, lookup, speed bound"
  },
  {
   "property": "C100",
   "status": "proved",
   "theorems": [
    "RBM.Props.C100_turned",
    "RBM.Props.C100_lookup",
    "RBM.Props.C100_positions",
    "RBM.Props.C100_points",
    "RBM.Props.C100_vectors",
    "RBM.Props.C100_static"
   ],
   "note": "exact arithmetic; for orientations interpolated between samples no bound is stated (squad is external)"
  },
  {
   "property": "C101",
   "status": "proved",
   "theorems": [
    "RBM.Props.C101_vectors",
    "RBM.Props.C101_vectors_complete",
    "RBM.Props.C101_points",
    "RBM.Props.C101_points_complete",
    "RBM.Props.C101_quaternions",
    "RBM.Props.C101_quaternions_complete",
    "RBM.Props.C101_no_pose",
    "RBM.Props.C101_near_vectors",
    "RBM.Props.C101_near_points",
    "RBM.Props.C101_near_quaternions"
   ],
   "note": "C101_vectors / points / quaternions for every completion, *_complete for complete data, C101_near_* for one time (time along the first axis, components along the last one). squad (external) is a parameter with the contract SquadGapsLaw; arrays whose last axis has length four after the time swap are resampled as quaternions and must then be unit quaternions at strictly increasing times (Resamples)."
  },
  {
   "property": "C102",
   "status": "proved",
   "theorems": [
    "RBM.Props.C102_created",
    "RBM.Props.C102_widget",
    "RBM.Props.C102_messages",
    "RBM.Props.C102_latest",
    "RBM.Props.C102_forward",
    "RBM.Props.C102_other_timestamps",
    "RBM.Props.C102_none",
    "RBM.Props.C102_moved_is_false"
   ],
   "note": "for a broadcaster at index 0 (C102_moved_is_false otherwise)"
  },
  {
   "property": "C60",
   "status": "partial",
   "theorems": [
    "RBM.Props.C60_history_partial",
    "RBM.Props.C60_values_partial",
    "RBM.Props.C60_outside",
    "RBM.Props.C60_first_wins",
    "RBM.Props.C60_other_bag_is_false",
    "RBM.Props.C60_new_bag_is_false",
    "RBM.Props.C60_topics_is_false",
    "RBM.Props.C60_export_path",
    "RBM.Props.C60_export_default",
    "RBM.Props.C60_export_str_is_false",
    "RBM.Props.C60_export_fails"
   ],
   "note": "false in general (C60_other_bag_is_false, C60_new_bag_is_false, C60_topics_is_false, C60_export_str_is_false); proved for one bag per folder and topics without underscores"
  },
  {
   "property": "C61",
   "status": "proved",
   "theorems": [
    "RBM.Props.C61_roundtrip",
    "RBM.Props.C61_shapes",
    "RBM.Props.C61_succeeds",
    "RBM.Props.C61_bad_stamp",
    "RBM.Props.C61_clock_is_false",
    "RBM.Props.C61_dataset",
    "RBM.Props.C61_dataset_missing",
    "RBM.Props.C61_odometry",
    "RBM.Props.C61_odometry_dataset",
    "RBM.Props.C61_errors",
    "RBM.Props.C61_topics_bag",
    "RBM.Props.C61_topics",
    "RBM.Props.C61_topics_closed"
   ],
   "note": "under a steady wall clock (C61_clock_is_false otherwise)"
  },
  {
   "property": "C63",
   "status": "proved",
   "theorems": [
    "RBM.Props.C63_follows"
   ],
   "note": "under the contract of pandas' nearest index"
  },
  {
   "property": "C33",
   "status": "partial",
   "theorems": [
    "RBM.Props.C33_layout_restored_partial",
    "RBM.Props.C33_untimed_exact",
    "RBM.Props.C33_untimed_is_false",
    "RBM.Props.C33_untimed_points",
    "RBM.Props.C33_untimed_quaternions"
   ],
   "note": "with timestamps proved; false without (C33_untimed_is_false, C33_untimed_exact)"
  }
 ]
}