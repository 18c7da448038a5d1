# Formal model of rigid-body-motion: design

## 1. Approach

The Lean 4 project `lean/` contains

* `Verif/Model/*`: a shallow functional model of the library, function by function, with file and line citations;
* `Verif/Spec/*`: small specifications that do not use the helpers of the model (rigid motions, coordinates of a point in a frame, histories of the registry, outlines of a tree, contracts of external functions, ...);
* `Verif/Lemmas/*`: helper lemmas and the concrete systems used in non-vacuity examples (`Example*.lean`);
* `Verif/Props/*`: the property theorems (`Cnn_...`), witnesses for properties that are false of the code (`..._is_false`, `..._fails`), and beside them examples that show that the hypotheses are met.

Conventions:

* Numbers are idealised: `float64` is ℝ. Vectors are `Fin 3 → ℝ`, quaternions are Mathlib's `ℍ[ℝ]`. A numerical NaN/inf result is modelled as the error value `PyErr.nonfinite` (numpy does not raise; the caller receives NaN), except where the property is about NaN (outliers, netCDF: `Option ℝ`).
* Python exceptions are values (`Except PyErr`). Stateful operations return the new state *and* the outcome, so partial effects of failing operations are visible.
* Frames live in a heap (object id → name, parent, children, data); the registry is an association list from names to object ids. All histories of API calls, including failing ones and garbage collection, are the inductive predicate `Reachable`.
* n-dimensional arrays are a shape and a function from index lists (`ND`); `swapaxes`, `moveaxis`, broadcasting, `np.cross`, `np.tile`, `sum`, `concatenate` are modelled concretely.
* Threads (broadcaster, marker publisher) are state machines with one event per atomic step; theorems quantify over all interleavings (event lists).
* Calls into external libraries are either modelled concretely (numpy indexing, `np.gradient`, `scipy.interp1d` linear, `np.unique`, anytree's parent setter, `Walker`, `PreOrderIter` and `RenderTree`, rosbag order, genpy constructors) or are parameters with an explicit contract (section 5); a concrete instance shows each contract satisfiable.

## 2. Trusted base

* Lean 4.33.0 kernel; Mathlib definitions (ℝ, quaternions, matrices, trigonometry, derivatives).
* Axioms: every theorem depends on at most `propext`, `Classical.choice`, `Quot.sound` (checked by `vcheck`, which replays all modules). No axioms of our own.
* Faithfulness of the model: nothing ties it to the code but the reading of the source; every definition cites the file and lines it models and its simplifications.
* Contracts of external functions (section 5).

### Modelled

| Source | Model |
|---|---|
| `reference_frames.py` 18-115, 137-333, 335-588, 590-1336 | `Frames`, `Matcher`, `Transform`, `Velocity`, `Constructors`, `Tree` |
| `core.py` 25-315 (`TransformMatcher`) | `Matcher`; `Rounding` (timestamps as floats), `Heap` (array memory, with `reference_frames.py` 57-333, 562-776); `GapsTransform`, `GapsLookup`, `GapsAll` (recordings and arrays with NaN, with `reference_frames.py` 590-776) |
| `core.py` 318-595 (argument resolution, DataArray plumbing, `_transform`) | `Plumbing` |
| `core.py` 598-725 (datasets) | `Lookups` |
| `core.py` 728-819 (velocity estimation) | `Velocity`, `Gaps` (arrays with NaN) |
| `utils.py` 20-382 | `Utils`, `Qinterp` |
| `coordinate_systems.py`, `__init__.py` 97-994 | `Coords`, `Plumbing`, `Velocity`, `Lookups` |
| `estimators.py` | `Estimators` |
| `accessors.py` | `Qinterp` |
| `io.py` (after CSV parsing) | `Optitrack` |
| `plotting.py` (what is handed to matplotlib, axis limits) | `Plotting` |
| `utils.py` 438-477, `ros/utils.py` 9-56 | `RosNode` |
| `testing.py` | `Testing` |
| `ros/msg.py`, `ros/transformer.py`, `ros/visualization.py`, `ros/utils.py` 59-132, `ros/io.py` | `RosMsg`, `RosTransformer`, `RosBroadcaster`, `RosVisualization`, `RosPlay`, `RosIo`, `RosSession` (life of bags, caches and processes) |

### Not modelled

Floating point rounding (except the conversion of timestamps, C86); dtypes other than float and quaternion (`datetime64` only in the velocity functions, C89); NaN as input except in the velocity estimators (C77–C79), the transforms (C96, C101) and the lookups (C98); warnings, logging and deprecation messages; run time and real-time behaviour of threads; CSV parsing of `load_optitrack`; `is_dataarray`/`is_dataset` beyond their use for dispatch; drawing itself; ROS transport.

## 3. Per-property plan and status

Theorem names are in `MANIFEST.json` (prefix = property). "false" means that the code violates the property as stated: the negation is proved with a witness and the part that holds is a theorem with suffix `_partial` (or an exact description of what happens instead).

| Property | Modelled by | Stated with | Proof | Status |
|---|---|---|---|---|
| C01, C02 | Frames: registry operations | Spec/Registry: fold over the history of events | refinement by induction over `Reachable` | proved |
| C03, C04 | Frames: anytree parent setter with loop check | forest invariant in terms of parent/children | invariant by induction over histories | proved |
| C05 | Frames: `Walker` | Spec/Registry: `PathTo`, nearest common ancestor | induction on ancestor chains | proved |
| C06, C07 | Frames: destructor, deregistration | registry before/after | case analysis on invariant states | proved |
| C08 | Frames: `register(update=True)` | registry and forest before/after | case analysis; witness for re-registering the same object | proved (property states the exception) |
| C09 | Frames: constructor | registry and forest before/after | witness: half-built child stays attached | false; partial: no name, path or existing link changes |
| C10-C14 | Frames, Matcher: `_walk`, `_match_arrays`, folds over the path | Spec/Motion: coordinates of a point by chaining parent poses; `IsTransformAt` | group of rigid motions, cancellation along paths | proved (moving frames under `SquadLaw`) |
| C15-C17 | Transform: `transform_points/vectors/quaternions` | Spec/Transform: per-entry equations on n-d arrays | n-d index arithmetic and C10 | proved |
| C18 | Frames: `inverse=True` | pose of the parent in the frame | quaternion algebra | proved |
| C19 | Utils: `rotate_vectors` | rotation of the normalised quaternion | algebra; witness for arrays | false for arrays; exact result proved |
| C20-C24, C27, C28 | Matcher: `TransformMatcher` | Spec/Motion: intersection of ranges, frozen trees; Spec/Stamps: timestamps of a result | list induction; for any call that returns, inversion of its steps; shapes of attributes by induction over the history | proved |
| C25, C26 | Matcher: `interp1d`, `searchsorted` | convex combinations; last event | list induction | proved |
| C29 | Frames: `_validate_input`, `_init_arrays` | Spec/Args: shapes | complete case analysis | proved |
| C30 | Transform: `np.tile` of static arrays | per-timestamp equations | n-d arithmetic; witness for several points | false for several; single ones proved |
| C31-C33 | Transform, Utils: axes | Spec/Transform | index arithmetic; witnesses | false in general; the cases that hold and exact results proved |
| C34 | Velocity, Transform: returned tuples | shape of the outcome | case analysis; witness | false for velocity lookups on static paths |
| C35 | Matcher | Spec/Clock: shifted system | induction over resampling (`ShiftLaw`) | proved |
| C36, C37 | Velocity: `np.gradient`, filters, angular velocity modes | Spec/Velocity, Spec/Kinematics | algebra by cases on first/interior/last sample | proved |
| C38 | Velocity: `transform_linear_velocity` | Spec/Kinematics: `HasDerivAt` | product rule for rotations | proved |
| C39 | Velocity: outlier mask | Spec/Velocity: jump statistic | algebra | proved (2-d, time first) |
| C40, C42 | Utils | quaternion equations; Spec/Euler, Spec/Broadcast (`CommonShape`) | algebra; induction on the factors | proved |
| C41 | Utils: `qmean` over all entries; Mean: arrays, `axis`, `qaxis` | Spec/Mean: maximiser, groups of entries along the given axes | spectral theorem; witnesses | false; partial for descending eigenvalues; with `axis` only the first group is right |
| C43, C44 | Coords | inverse functions on domains | `Complex.arg`, trigonometry | C43 proved; C44 false for spatial axis first |
| C45 | Estimators: `shortest_arc_rotation` | Spec/ShortestArc, Spec/Broadcast | quaternion algebra; index arithmetic of broadcasting | proved |
| C46, C47 | Estimators: Kabsch | Spec/Fit: minimiser over all rigid motions | trace inequality with SVD contract | proved |
| C48 | Estimators: ICP | Spec/Icp | loop invariant, monotone error | proved (`NnLaw`) |
| C49 | RosMsg | fields of the message | computation | proved |
| C50, C59, C63 | RosBroadcaster: thread state machine | Spec/Ros: what was published, by whom | induction over event lists | C63 proved; C50 false for `publish(0)`; C59 false for early `stop()` |
| C51, C52, C62 | RosVisualization | Spec/Marker | induction over event lists; arithmetic | C51 proved; C52, C62 false in corner cases |
| C53 | RosPlay | slider invariants | induction over event lists | false at the last sample; rest proved |
| C54, C60, C61 | RosIo: codec, cache, bag | Spec/RosIo: histories | rounding bounds, induction over histories; the listing of topics by induction on the connections | C61 proved; C54, C60 false for colliding names / shared caches |
| C55-C57, C70 | Plumbing: arguments and DataArrays | Spec/Plumbing: labels and entries | case analysis over all inputs | C55-C57 proved; C70 false for named dims |
| C58 | RosTransformer, Tree | Spec/Tf: contract of tf2 | simulation: buffer contents = tree | proved (`TfLaw`) |
| C64 | Optitrack | Spec/Optitrack | algebra, C42 | false for millimetres; rest proved |
| C65 | Tree: `render_tree` | Spec/Outline: indented outline | induction on depth, sufficiency of the depth bound | proved |
| C66 | Lookups | Spec/Lookups | C10, C36, C37 and plumbing | false for labels of `lookup_transform`; rest proved |
| C67 | Qinterp | per-lane equations | index arithmetic, `SquadLaw` | false for empty new times; rest proved |
| C68 | Constructors | Spec/Constructors | C29, C18, C25 | proved |
| C69 | Plotting | Spec/Plotting: visible boxes | inequalities; witnesses | contents proved; visibility false |
| C71 | Utils: `rotate_vectors(one_to_one=False)` | per-entry equations | index arithmetic | proved |
| C72 | Utils: `rotate_vectors(one_to_one=True)` with broadcasting | inductive relation `Broadcast` on shapes, per-entry equations | induction on shapes; each numpy operation separately | proved |
| C73 | RosBroadcaster, RosVisualization: loops | no loop message after the shutdown event; thread idle after two steps | induction on histories, steps left as measure | proved |
| C74 | RosNode: `init_node`, handles, exit | histories of a world with at most one master and its owner | invariant: own running master is registered for exit | proved |
| C75 | Testing: `make_test_motion` | per-sample equations with `axisAngle`, `sine`, `thirdAxis` | list arithmetic, C72 for the offset | proved |
| C76 | RosNode: `ExampleDataStore` | table of pinned files, contract of `pooch.retrieve` | case analysis of the registry | proved |
| C77 | Gaps: quaternion mode with missing samples | `Present`, `Selected` relate the series to its complete samples | scatter/gather along an axis, refinement of `Velocity` | proved |
| C78 | Gaps: `np.gradient` with missing samples | `Lost` names the samples without velocity, `Completes` any completion | stencil of every entry | proved |
| C79 | Gaps: outlier removal with missing samples | `JumpKnown`, `Interpolated` | interpolation between retained samples | proved |
| C80 | RosSession: readers, writers, files, crashes | `Inside`, `NoReentry`, `callsOf`, `Unwritten` over histories of events | induction over histories, invariant of a block | proved |
| C81 | RosSession: netCDF files that may be torn | `OneBag`, `NoExport`, `Interrupted` | invariant of the cache folder over all crash points | false for interrupted writes; partial |
| C82 | Frames (walk, matcher), Transform, Velocity | `SameBetween`, `Moves`, `LeavesAlone` | the walk and the matcher only read the frames in between; induction over operations | C82_history is stated for frame objects, not names |
| C83 | Transform, Matcher | `selectSamples`, `Selection` | from C15, C16 and uniqueness of the transform at a time | |
| C84 | Spec/Units: change of units of states, programs, arguments and results. Lemmas/Units, UnitsArr, UnitsVel, UnitsOps: every model function commutes with it | scaling and affine maps through all functions, induction over frames and programs |
| C85 | Spec/PlainArrays: what the function returns in terms of the method's result | unfolding `_transform` on plain arrays; the method called for timestamps determines the one without |
| C86 | Rounding: matcher, lookup and transforms with `astype(float)` as a parameter | Spec/Rounding: poses and transformations with rounded times | transfer of the lookup proof; uniqueness of linear interpolation for the error bound | proved |
| C87 | Heap, HeapVelocity: buffers, views, `np.asarray` without copy, `np.swapaxes` as view, in-place assignment (`rotation[..., 0] = 1.0`, the event loop of discrete frames, `arr += angular`) | Spec/Memory, Spec/MemoryVelocity: `Unchanged`, `Separate`, programs, `WritesTo`, `Uses` | every function refines its value-level counterpart, keeps all existing buffers and returns new ones; programs by induction over steps | proved |
| C88 | Transform, Velocity, Utils, Qinterp, Coords, Estimators (existing) | Spec/Axes: `SameAxis`, `AxesKept` | axis normalisation commutes with every step that keeps the number of axes; number of axes of intermediate results | proved |
| C89 | Model/Datetime: the velocity functions with the flag `datetime` and the conversion of core.py:738-739, 801-802 | Spec/Datetime: the same frames, programs, arguments and results with `k` ticks per second | the conversion undoes the ticks; every other step commutes with a change of clock (C84); other units by the scaling laws of C84 | proved |
| C90 | Frames, Transform, Velocity | Spec/Equivalent: `Merged`, `Recoordinated` relate two trees | poses in the common ancestor agree or differ by one motion on the left; interpolation commutes with it; both lookups have the same stamps; all later steps use the lookup only | proved (`SquadLaw`, `SquadTurns`) |
| C91 | Matcher, Transform, Velocity | `SingleSample`, `OnlyAt`, results without timestamps | every step of a successful call succeeded; the interpolation of one sample does not; the common range of single times is that time | proved |
| C92 | RosThreads: one step per attribute access and message, any number of threads | Spec/Threads: what thread `i` sent, whole samples, steps of a thread | invariant over schedules: what each thread has sent and still has to send; steps left as measure | proved |
| C93 | MarkerThreads: one step per attribute access and message | Spec/MarkerThreads: values of the marker, last message, steps of a thread | invariant: a remembered message is shown or about to be sent; steps left as measures; simulation of the simpler model | proved |
| C94 | Velocity: both velocity transforms | Spec/Stacks: `ColumnWise` | `_match_arrays` with a first array of any number of axes, broadcasting of (K, m, 3) with (K, 3); witnesses | false; exact description of the outcome for all m, K |
| C95 | Matcher: `interp1d` | index of the first sample with the same timestamp | C86 without rounding | proved |
| C96 | `Model/GapsTransform` (NaN = `none`, arithmetic absorbs it): `_validate_input`, `_resample_array`, `rotate_vectors`, both transform functions | `Spec/GapsTransform`: `VecMissing`, `VecGone`, `VecIs`, `before` | interpolation at a sample uses (k-1, k); both rotation formulas mix all coordinates; exact agreement with `Model/Transform` for arrays without gaps | proved |
| C97 | Lookups and transforms of Model/Transform in two registries that differ in the recorded poses | Spec/Nearby: Matters, AgreeNear, Rerecorded, Replaced | Poses at a time depend on the samples that matter; changes of coordinates are unique (C10, C15, C16) | proved |
| C98 | Model/GapsLookup: transformFromFrameGaps, transStepGaps, transLoopGaps, addFramesGaps, lookupTransformGaps | Spec/GapsLookup: CompletesTree, Fits, NoGapsNear, GapsGiveAt | Simulation: every step relates rows with gaps to rows of any completion; rows for a time stay complete | proved |
| C99 | Model/Velocity (`gradAt`, `npGradient`, `estimateLinear`), lookup | Spec/DifferenceQuotient (`meanVelocity`, `IsEstimate`) | case analysis of the gradient formula; an estimate is a convex combination of mean velocities; rotations preserve lengths | proved |
| C100 | Matcher, Transform | Spec/Errors (`TurnedBy`, `OffBy`), `IsTransformAt` | triangle inequality along the chain of poses, upwards and downwards; linear interpolation is convex; unit quaternions | proved |
| C101 | Model/GapsAll (transform_* with missing entries in array and recordings) | Spec/GapsAll (FitsArr, FitsRet, NoGaps, CompleteData, Resamples, TimedFirst), Spec/GapsLookup | relation between the array operations with and without gaps (Lemmas/GapsAll*), carried through matching, resampling, rotation and broadcasting (Props/GapsAll); what is known at one row is followed through the same steps (Lemmas/GapsAllNear, Props/GapsAllNear) | proved |
| C102 | RosPlayFrame: playBroadcaster, Player.sent | Spec/Ros: Playable, ShowsSample | C53 and C50 composed by induction over the history | proved |

Cannot be expressed: rounding errors (other than the conversion of timestamps to floats, C86), run time, real-time behaviour of ROS and threads, and the numerical accuracy of external solvers.

## 4. How the theorems are tested

`seeded/run.py` applies one edit of the model at a time in a scratch copy, rebuilds, and records which theorems fail (`seeded/LOG.jsonl`). Surviving edits whose English claim is false led to tightened theorems (field `tightened`).

## 5. Contracts and assumptions about external code

Versions assumed: numpy 1.21, scipy 1.7, numpy-quaternion 2021.10 (environment files of the repository).

* `SquadLaw`: `quaternion.squad` is evaluated separately per output time and lane; unit inputs give unit outputs inside the range; sample times reproduce the samples. `ShiftLaw`: it commutes with shifting the clock. `SquadTurns` (C90 only): turning all samples by one rotation turns the interpolated values; true of the formula of squad (built from `q⁻¹ p`, its logarithm and powers) unless two neighbouring samples are exactly antipodal, where `np.log(-1)` picks a fixed axis. `SquadNear` (C97 only): the value between two samples is computed from these and their neighbours. `SquadGapsLaw` (C98 only): with missing orientations a value is missing or right for every completion, and not missing if nothing is missing up to two samples away. Instance: hold-last interpolation (`Ex.holdSquad_law`). For `qinterp`: empty input or output gives an empty 1-d array; times that do not fit the number of samples raise RuntimeError (numpy would broadcast a single time: simplification).
* `EigLaw`, `SortLaw`: `np.linalg.eig` gives a basis of normalised eigenvectors in unspecified order; `argsort` is a stable sort. Exact ties are possible over ℝ.
* `FitLaw`: `np.linalg.svd` is an SVD; `from_rotation_matrix` returns a unit quaternion that agrees best with the matrix (which of several equally good ones is unspecified). `exists_fitLaw` shows an instance.
* `NnLaw`: `cKDTree.query` returns an index of a nearest point; an empty tree raises. `exists_nnLaw`.
* `DerivLaw n0`: the spline derivative of `quaternion.calculus` acts per lane, accepts `n0` or more samples and is exact for affine signals. `FiltLaw`: `filtfilt` reproduces constants. `as_rotation_vector`, `from_rotation_vector`, `arctan2` (= `Complex.arg`), `np.gradient` (both branches) and `interp1d` are concrete; `interp1d` assumes sorted timestamps.
* `XrLaw` and xarray: resampling a coordinate changes the length along its dimension only; a dimension without coordinate has the index 0..n-1; a `Dataset` variable carries the coordinates whose dimensions it has; coordinates have distinct names. Label (string) timestamps are not modelled.
* `NearestLaw`: pandas `get_loc(method="nearest")`. `pd.to_datetime`/`to_timedelta` round to nanoseconds (over ℝ; float64 loses more).
* `TfLaw`: tf2 at exactly known stamps only (no interpolation or extrapolation); stamp 0 only for static trees; results up to the sign of the quaternion.
* genpy: `Time.from_sec` cuts to nanoseconds and rejects negative times; message constructors take all or no arguments; the seconds of a stamp have 32 bits; no message serialises to an empty buffer.
* rosbag: messages are read in the order of recording wall clock (stable); the first message of a topic creates its connection.
* netCDF: time is stored exactly; what a cast of out-of-range floats to `int32` gives is unspecified (`cast`, universally quantified). Creating folders succeeds.
* ipywidgets: a slider clamps its value and notifies only on change.
* pandas `date_range` (`DateRangeLaw`): for a period of a whole number of nanoseconds, at least 0.1 ms, the multiples of the period; instance `exRange_law`. pooch (`RetrieveLaw`): `retrieve` returns a file only if its SHA-256 is the one asked for. rospy: `getPid` raises exactly if no master answers; a failing `ROSLaunchParent.start` leaves nothing running.
* matplotlib (`MplLaw`): autoscaling shows all points; setting limits switches it off; empty ranges are widened.
* Threads: in RosBroadcaster and RosVisualization the steps between statements of the loop are atomic, `spin` is not called while the thread of an earlier call is running and publishing is atomic. RosThreads (C92) and MarkerThreads (C93) drop all three: there a step is one access to a shared attribute or one message. The serialization of a marker is one step. Broadcaster timestamps are in nanoseconds.
* `int(s, 16)`: ASCII digits only. anytree iterators recurse to a depth bound, which is proved sufficient on reachable states.

## 6. Disagreements between code and expectation

All are witnessed by theorems (in parentheses) unless noted.

1. `rotate_vectors` divides by ‖q‖ instead of ‖q‖² for arrays of non-unit quaternions (`C19_array_scale_is_false`).
2. `rotate_vectors` swaps axes in a way that fails for spatial axes before the last two (`C31_rotate_is_false`, `C31_space_first_fails`).
3. The swap of the time axis is undone even if it was not done (`C33_untimed_is_false`).
4. `transform_points` adds the translation along the last axis whatever `axis` is (`C32_is_false`, `C32_shape_error`).
5. `axis or -1` turns `axis=0` into -1 (`C56_axis_zero`).
6. `register(update=True)` of the object already registered detaches it from its parent (`C08_self_update_detaches`).
7. A failing constructor leaves a half-built child attached to the parent (`C09_failure_atomic_is_false`).
8. `lookup_twist` and friends ignore `return_timestamps` with `allow_static` (`C34_lookups_is_false`).
9. `ReferenceFrameTransformBroadcaster.publish(0)` publishes the current index (`C50_publish_zero_is_false`). So the playback widget of a broadcaster that was spun before shows a wrong sample at position 0 (`C102_moved_is_false`).
10. Marker publisher: short series fail, others exceed `max_points`, static frames fail (`C52_short_fails`, `C52_is_false`, `C52_static_fails`).
11. The backward button of `play_publisher` is stuck at the last sample (`C53_backward_is_false`).
12. `qmean` picks a row of the eigenvector matrix (`C41_is_false`, `C41_single_is_wrong`); with an `axis` argument `np.unravel_index` uses the eigenvectors of
    the first group for all groups (`C41_axis_is_false`), and a positive `qaxis` is refused with `axis=None` (`C41_qaxis_refused`).
13. `from_euler_angles` accepts orders like "rpyx" (`C42_longer_order_accepted`).
14. `best_fit_rotation` does not handle reflections (`C46_reflection_is_false`, `C46_coplanar_is_false`).
15. Static arrays of several points cannot be transformed into moving frames (`C30_several_is_false`).
16. `shortest_arc_rotation` is NaN for antiparallel or zero vectors (`C45_singular`) and rejects DataArrays with the spatial dimension first (`C45_first_dim_fails`), and if the dimension of a DataArray is named, a single reference vector is rejected although it is accepted without the name (`C45_named_dim_fails`); `cartesian_to_spherical` is NaN at the origin (`C43_origin`).
17. `transform_coordinates` always fails on 1-d plain arrays (`C44_is_false`, `C44_first_axis_fails`).
18. netCDF cache: names of topics collide, caches are shared by the bags of a folder and never refreshed, the most negative value is read as NaN, cached orientations are not unit (`C54_names_is_false`, `C54_fill`, `C54_orientation_not_unit`, `C60_*_is_false`); `export` rejects strings (`C60_export_str_is_false`).
19. If the wall clock goes back while a bag is written, loaded rows are reordered (`C61_clock_is_false`).
20. `stop()` before the thread has started is lost; broadcasters with subscription ignore `stop()` (`C59_stop_lost`, `C59_subscribed`, `C59_marker_stop_lost`).
21. `get_marker(marker_type=0)` makes a line strip (`C62_type_is_false`).
22. `lookup_transform(as_dataset=True)` labels the translation with `outof` (`C66_transform_labels_is_false`).
23. `load_optitrack` does not convert millimetres (`C64_millimetres_is_false`).
24. A single static DataArray with named dimension cannot be transformed into a moving frame (`C70_named_dim_is_false`).
25. `qinterp` with no new times loses axes or raises (`C67_empty_is_false`, `C67_empty_dtype_is_false`); with `axis == qaxis` it silently uses the last axis (`C67_axis_clash`).
26. Plotting: the limits of the y axis are set twice (z never); equalising switches autoscaling off (`C69_frame_visible_is_false`, `C69_second_plot_is_false`, `C69_quaternions_visible_is_false`).
27. Missing samples: a low-pass filter turns one NaN into all NaN (`C77_filter_spoils`, `C78_filter_spoils`); outlier removal retains a missing last sample and so loses the end of the series (`C79_last_missing`); with even timestamps a missing position gets a number as velocity (`C78_gaps`).
28. Bags and caches: nested `with` statements on one reader or writer leak a bag and end with AttributeError (`C80_reentry_leaks`); a crash inside the block of a writer loses the previous bag file (`C80_crash`); a torn cache file is never replaced (`C81_torn_forever`); an interrupted export destroys the previous file (`C81_export_not_atomic`); two overlapping writers of one file lose both contents (`C80_two_writers`).
29. Observed while modelling, without theorem of their own: `_replace_dim` uses three labels in its "quaternion" branch for some callers; `lookup_twist` does not pass `outlier_thresh` to the angular part (visible in `C38_twist`); twist messages carry stamp 0; Transformer and broadcaster divide float timestamps by 10⁹.
30. `datetime64` timestamps of another unit than nanoseconds: velocities are wrong by the ratio of the units (`C89_other_unit`, `C89_other_unit_is_false`).
31. Timestamps are converted to float64 before they are compared: distinct epochs in nanoseconds can coincide (C86); frames alias the arrays they are registered with (C87); `axis=0` of a single untimed vector along a moving path is not `axis=-1` (`C88_untimed_is_false`).
32. A timestamped array with a single sample cannot be transformed, not even between static frames or from a frame to itself: interpolation divides 0/0 (`C91_array_alone`). The same for continuous frames with one sample (`C91_frame_alone`).
33. `spin` called twice starts two loops that share one index: both publish sample 0, then both continue with sample 2 (`C92_two_loops_skip`).
34. `publish` of a marker serializes the marker, remembers the result and then sends the marker, which may have changed: a marker that returns to an earlier value can stay unpublished for good (`C93_returning_value`).
35. Velocity transforms of arrays with more than two dimensions: the velocity of the frame, shape (K, 3), is broadcast against (K, m, 3) along the wrong axis; `ValueError` or silently wrong numbers (C94).
36. Continuous frames with repeated timestamps are accepted; all but the first sample at a time are lost, and the result is not finite if the first timestamp is repeated (C95).
37. A NaN in a timestamped array also destroys the result at the next timestamp (for a gap in the second sample also the first), because `interp1d` is evaluated at the samples themselves and multiplies the neighbour by zero; this holds even if no resampling is needed (C96).
