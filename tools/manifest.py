"""Writes /verif/MANIFEST.json from the table below; properties not in the table are left out."""
import json, re, os
HERE = os.path.dirname(os.path.dirname(os.path.abspath(__file__)))
# property -> (status, note); theorems are collected by their name prefix from lean/Verif/Props
STATUS = {
 "C01": ("proved", ""),
 "C02": ("proved", ""),
 "C03": ("proved", ""),
 "C04": ("proved", ""),
 "C05": ("proved", ""),
 "C06": ("proved", ""),
 "C07": ("proved", ""),
 "C08": ("proved", "includes the witness that re-registering the same object detaches it"),
 "C09": ("partial", "false as stated: C09_failure_atomic_is_false is the witness; proved part: no name, no existing parent link and no path changes"),
 "C10": ("proved", "C10_static_total: lookups on static paths always succeed; C10_coordinate_change gives the geometric meaning (also for moving frames, under the squad contract)"),
 "C11": ("proved", ""),
 "C12": ("proved", "static and, under the squad contract, moving"),
 "C13": ("proved", "static and, under the squad contract, moving"),
 "C14": ("proved", ""),
 "C15": ("proved", "points with the spatial axis last (C32 for other axes), vectors with any axis"),
 "C16": ("proved", ""),
 "C17": ("proved", "static and moving"),
 "C18": ("proved", "C18_inverse_construct: indistinguishable from the frame built with the inverse poses"),
 "C19": ("partial", "false for arrays of non-unit quaternions (C19_array_scale_is_false); C19_array_exact says what is computed instead"),
 "C20": ("proved", "every lookup and transform that returns"),
 "C21": ("proved", ""),
 "C22": ("proved", "every lookup that returns; well-formed frames return"),
 "C23": ("proved", ""),
 "C24": ("proved", ""),
 "C25": ("proved", ""),
 "C26": ("proved", ""),
 "C27": ("proved", "every lookup that returns"),
 "C28": ("proved", "frames and arrays, lookups and transforms"),
 "C29": ("proved", "for inverse=True with nonzero rotations (otherwise numpy returns NaN)"),
 "C30": ("partial", "single points/vectors proved; false for several (C30_several_is_false, C30_several_fail)"),
 "C31": ("partial", "false in general (C31_rotate_is_false, C31_space_first_fails); proved for static transforms with any axis and for the last two axes of rotate_vectors"),
 "C32": ("partial", "false for a spatial axis that is not the last (C32_is_false); C32_exact and C32_shape_error say what is computed instead"),
 "C40": ("proved", "float and quaternion dtype"),
 "C41": ("partial", "false: the code picks a row instead of a column of the eigenvector matrix (C41_is_false, C41_single_is_wrong); C41_descending_partial covers eigenvalues already in descending order, C41_all_partial arrays of any shape; with an axis argument every entry is the mean of the first group (C41_axis_partial, C41_axis_is_false)"),
 "C42": ("proved", "order strings longer than three letters are accepted (C42_longer_order_accepted)"),
 "C34": ("partial", "holds for every transform_* call and for lookups between frames in relative motion (C34_moving_lookups_partial); false for velocity lookups between frames that do not move (C34_lookups_is_false)"),
 "C35": ("proved", "lookups exactly; C35_transform for the coordinate changes applied to arrays"),
 "C36": ("proved", "also through lookup_linear_velocity (C36_lookup, C36_lookup_uniform)"),
 "C37": ("proved", "estimates, lookups and transform_angular_velocity"),
 "C38": ("proved", "transform_linear_velocity: reference, moving and representation frame changes"),
 "C39": ("proved", "linear velocity"),
 "C43": ("proved", ""),
 "C44": ("partial", "false for plain arrays with the spatial axis first, in particular single points (C44_is_false, C44_first_axis_fails); all other arrays and DataArrays proved"),
 "C45": ("proved", "same-shape arrays along any axis, arrays of different shapes along the last axis, DataArrays; C45_first_dim_fails: DataArrays with the spatial dimension first are rejected by the code"),
 "C46": ("proved", "under the proviso of the property; C46_reflection_is_false and C46_coplanar_is_false show that it is needed"),
 "C47": ("proved", ""),
 "C48": ("proved", ""),
 "C55": ("proved", ""),
 "C56": ("proved", ""),
 "C57": ("proved", "C57_result for every successful call; C57_vectors/points/quaternions: calls with named dimensions succeed"),
 "C49": ("proved", "times are cut to nanoseconds (C49_stamp); negative times are rejected (C49_negative_time)"),
 "C50": ("partial", "false for publish(0) (C50_publish_zero_is_false); everything else proved, for every history of calls and steps of the thread"),
 "C51": ("proved", ""),
 "C52": ("partial", "false as stated (C52_is_false, C52_short_fails, C52_static_fails); C52_count_partial: less than twice max_points"),
 "C53": ("partial", "false for the backward button at the last sample (C53_backward_is_false)"),
 "C59": ("partial", "false if the thread has not started its loop (C59_stop_lost, C59_marker_stop_lost) and with subscriptions (C59_subscribed); C59_stop_partial, C59_marker_stop_partial otherwise"),
 "C62": ("partial", "false for marker type 0 (C62_type_is_false)"),
 "C54": ("partial", "values proved (C54_value, C54_dataset); false for topics that differ in / and _ (C54_names_is_false)"),
 "C58": ("proved", "under the contract of tf2 at exactly sampled stamps (Spec.TfLaw); rotations up to the sign of the quaternion"),
 "C64": ("partial", "false for files in millimetres (C64_millimetres_is_false); the rest is proved"),
 "C65": ("proved", ""),
 "C66": ("partial", "false for the labels of lookup_transform (C66_transform_labels_is_false); the rest is proved"),
 "C67": ("partial", "false for empty new times (C67_empty_is_false, C67_empty_dtype_is_false); the rest is proved"),
 "C68": ("proved", ""),
 "C69": ("partial", "what is plotted and the equal scale are proved; visibility is false (C69_frame_visible_is_false, C69_second_plot_is_false, C69_quaternions_visible_is_false)"),
 "C70": ("partial", "false if the dimension is named (C70_named_dim_is_false)"),
 "C71": ("proved", ""),
 "C72": ("proved", ""),
 "C73": ("proved", ""),
 "C74": ("proved", ""),
 "C75": ("proved", ""),
 "C76": ("proved", ""),
 "C77": ("proved", ""),
 "C78": ("proved", ""),
 "C79": ("proved", ""),
 "C80": ("proved", "Crash and failure points are events of the model; rosbag itself (file emptied at opening, complete at closing) is an assumption."),
 "C81": ("partial", "False: torn cache files are never replaced (C81_torn_forever) and exports are not atomic (C81_export_not_atomic). Proved: never wrong data, right data without interrupted writes, only exports change existing files, repair by a new export."),
 "C82": ("proved", ""),
 "C83": ("proved", "At least two samples and the axis last, as in C15/C16. Contract for squad: a function of time (SquadLaw)."),
 "C84": ("proved", "Velocities are stated for a clock with the same zero point and without outlier threshold and cutoff (both are given in units of the data). Contracts: the external interpolation depends on ratios of time differences only, the external derivative is inversely proportional to the unit of time; met by example routines."),
 "C85": ("proved", "Axis 0 given explicitly is read as 'not given' (C56_axis_zero), hence excluded here."),
 "C86": ("proved", "The conversion is a parameter (any monotone function). Velocity functions are not covered. The arithmetic of interpolation itself is exact."),
 "C87": ("proved", "heap model (numpy arrays as views of buffers, np.asarray without copy, swapaxes as view, in-place assignment) refines the value model, including the velocity functions and their in-place addition; not covered: xarray objects, the estimators' internal arrays"),
 "C88": ("proved", "Equality of results for the two spellings, errors included except for the transform methods (successful calls). Excluded, with C88_untimed_is_false as witness: arrays without timestamps along moving paths. Also excluded: transforms of arrays with more than two axes whose result has no samples; qmean (C41_qaxis_refused); integer axes 0 where 0 means the default. C57_angular_chain and C57_linear_exact carry C37/C38 to DataArrays."),
 "C89": ("proved", "Contract UnitsLaw of the interpolation (independent of the clock), satisfiable. astype(float) is exact in the model (float64 rounds epochs in nanoseconds, see C86). C89_other_unit* state the defect for other units."),
 "C90": ("proved", "Contracts SquadLaw and SquadTurns of the interpolation (turning all samples by a fixed rotation turns the interpolated values), satisfiable (Ex.holdSquad). Frames on the path have unit quaternions and increasing timestamps."),
 "C91": ("proved", "scipy's interp1d of one sample divides 0/0 (NaN, the error value nonfinite of the model); squad of one sample raises IndexError."),
 "C92": ("proved", "Fine-grained thread model in Model/RosThreads; C92_two_loops_skip is the witness for the last sentence."),
 "C93": ("proved", "Fine-grained thread model in Model/MarkerThreads; C93_returning_value proves the sentence about returning values."),
 "C94": ("partial", "Full statement (ColumnWise, Spec/Stacks) proved for rotation only (C94_vectors) and static paths without timestamps (C94_static); refuted by C94_angular_is_false, C94_linear_is_false, C94_static_timestamps_is_false. The *_partial theorems say exactly when the calls fail and what they return otherwise."),
 "C95": ("proved", "rows at repeated timestamps, and the case of equal first timestamps; orientations up to the value of squad, assumed to be unit quaternions"),
 "C96": ("proved", "All clauses (NaN arithmetic is modelled as absorbing; `squad` of arrays with NaN, i.e. last axis of length four, is not modelled)."),
 "C97": ("proved", "squad is external: SquadLaw and SquadNear (the value between two samples depends on these and their neighbours) are assumed; stepSquad satisfies both"),
 "C98": ("proved", "squad is external: SquadLaw and SquadGapsLaw (a value is missing or right for every completion, and not missing if nothing is missing up to two samples away) are assumed; stepSquad, stepSquadGaps satisfy them. An orientation with a NaN in one component is modelled as missing as a whole"),
 "C99": ("proved", "estimate (plain and labelled), bounds, locality, superposition, lookup, speed bound"),
 "C100": ("proved", "exact arithmetic; for orientations interpolated between samples no bound is stated (squad is external)"),
 "C101": ("proved", "C101_vectors / points / quaternions for every completion, *_complete for complete data, C101_near_* for one time (time along the first axis, components along the last one). squad (external) is a parameter with the contract SquadGapsLaw; arrays whose last axis has length four after the time swap are resampled as quaternions and must then be unit quaternions at strictly increasing times (Resamples)."),
 "C102": ("proved", "for a broadcaster at index 0 (C102_moved_is_false otherwise)"),
 "C60": ("partial", "false in general (C60_other_bag_is_false, C60_new_bag_is_false, C60_topics_is_false, C60_export_str_is_false); proved for one bag per folder and topics without underscores"),
 "C61": ("proved", "under a steady wall clock (C61_clock_is_false otherwise)"),
 "C63": ("proved", "under the contract of pandas' nearest index"),
 "C33": ("partial", "with timestamps proved; false without (C33_untimed_is_false, C33_untimed_exact)"),
}
names = {}
d = os.path.join(HERE, "lean", "Verif", "Props")
for f in sorted(os.listdir(d)):
    for m in re.finditer(r"^theorem (C(\d+)_\w+)", open(os.path.join(d, f)).read(), re.M):
        names.setdefault("C" + m.group(2), []).append("RBM.Props." + m.group(1))
claims = []
for p, (st, note) in STATUS.items():
    claims.append({"property": p, "status": st, "theorems": names.get(p, []), "note": note})
    if not names.get(p): print("no theorems for", p)
for p in names:
    if p not in STATUS: print("theorems without status", p)
json.dump({"claims": claims}, open(os.path.join(HERE, "MANIFEST.json"), "w"), indent=1)
