{"id": "C01", "title": "The registry behaves like a map from names to frames", "statement": "After any sequence of register_frame, rf.register, deregister_frame, rf.deregister, clear_registry, parent re-assignments and garbage collections, passing a name to any function resolves to the frame object most recently successfully registered under that name and not since deregistered, cleared or replaced; if there is none, ValueError is raised.", "quantifier": "all operation histories (including failing operations), all names", "why_tests_cant": "Histories are unbounded; tests run a handful of fixed sequences.", "anchors": ["rigid_body_motion/reference_frames.py:_register", "rigid_body_motion/reference_frames.py:_deregister", "rigid_body_motion/reference_frames.py:clear_registry", "rigid_body_motion/reference_frames.py:ReferenceFrame.__del__", "rigid_body_motion/core.py:_resolve_rf"]}
{"id": "C02", "title": "Registration conflicts are reported and leave the registry alone", "statement": "Registering a frame without a name, or (with update=False) under a name that is already taken, raises ValueError and no name resolves differently afterwards; deregistering an unknown name raises ValueError and changes nothing; otherwise registration succeeds.", "quantifier": "all reachable registries, frames and names", "why_tests_cant": "Must hold in every reachable registry state.", "anchors": ["rigid_body_motion/reference_frames.py:_register", "rigid_body_motion/reference_frames.py:_deregister"]}
{"id": "C03", "title": "The frame forest stays well formed", "statement": "After any history of constructions (successful or failing), registrations, updates, and parent re-assignments: a frame's parent lists it exactly once as a child, a frame listed as child has that parent, and no frame is its own ancestor.", "quantifier": "all operation histories, all frames", "why_tests_cant": "Invariant over unbounded histories, including error paths.", "anchors": ["rigid_body_motion/reference_frames.py:ReferenceFrame.__init__", "rigid_body_motion/reference_frames.py:_register", "anytree.NodeMixin"]}
{"id": "C04", "title": "Cycles are refused", "statement": "Re-parenting a frame below itself or one of its descendants raises and leaves the whole forest unchanged; any other re-parenting to an existing frame succeeds and changes only that frame's parent.", "quantifier": "all reachable forests, all pairs of frames", "why_tests_cant": "Depth of the tree is unbounded.", "anchors": ["rigid_body_motion/reference_frames.py:ReferenceFrame", "anytree.NodeMixin.parent"]}
{"id": "C05", "title": "A lookup traverses exactly the tree path", "statement": "Looking up from a to b uses, in order, the frames from a up to but excluding the nearest common ancestor, then those from below the common ancestor down to b; the lookup fails with a walk error exactly if a and b have different roots.", "quantifier": "all forests, all pairs of frames", "why_tests_cant": "Tree shapes and depths are unbounded.", "anchors": ["rigid_body_motion/reference_frames.py:ReferenceFrame._walk", "rigid_body_motion/reference_frames.py:ReferenceFrame._get_matcher"]}
{"id": "C06", "title": "Garbage collection of a stale frame never removes another registration", "statement": "Destroying a frame object removes a name from the registry only if that name currently resolves to that very object; every other name keeps resolving to the same object.", "quantifier": "all reachable registries, all objects", "why_tests_cant": "Depends on the whole history of updates and re-registrations.", "anchors": ["rigid_body_motion/reference_frames.py:ReferenceFrame.__del__"]}
{"id": "C07", "title": "Deregistering does not affect transforms", "statement": "deregister_frame and clear_registry only affect name resolution: the transformation between any two frame objects is the same before and after.", "quantifier": "all reachable states, all pairs of frames", "why_tests_cant": "Quantifies over all trees and histories.", "anchors": ["rigid_body_motion/reference_frames.py:_deregister", "rigid_body_motion/reference_frames.py:clear_registry"]}
{"id": "C08", "title": "update=True replaces the frame", "statement": "Registering a new frame object with update=True makes the name resolve to the new object, detaches the old object from its parent, and leaves every other name and every other parent link as it was. (Fails if the object registered is already the one under that name: it is then cut off from its own parent.)", "quantifier": "all reachable states, all frames", "why_tests_cant": "History dependent.", "anchors": ["rigid_body_motion/reference_frames.py:_register", "rigid_body_motion/reference_frames.py:register_frame"]}
{"id": "C09", "title": "Failing constructors and registrations have no effect", "statement": "If register_frame or ReferenceFrame(...) raises, the registry and the frame forest are as before. (Violated by the code: the half-built frame stays attached to the parent.)", "quantifier": "all reachable states and all argument combinations", "why_tests_cant": "Error paths in every reachable state.", "anchors": ["rigid_body_motion/reference_frames.py:ReferenceFrame.__init__", "rigid_body_motion/reference_frames.py:register_frame"]}
{"id": "C10", "title": "Static lookups are geometrically correct", "statement": "For a path of static frames with nonzero rotations, the (t, r) returned by lookup_transform(a, b) maps the coordinates in a of every point to the coordinates in b of the same point, where coordinates are defined by chaining parent poses up to the common ancestor.", "quantifier": "all trees, all pairs of frames, all poses, all points", "why_tests_cant": "Tree depth and poses are unbounded/continuous.", "anchors": ["rigid_body_motion/reference_frames.py:ReferenceFrame.lookup_transform", "rigid_body_motion/core.py:TransformMatcher.get_transformation"]}
{"id": "C11", "title": "Looking up a frame from itself is the identity", "statement": "lookup_transform(a, a) returns zero translation, unit quaternion (1,0,0,0) and no timestamps, and transform_points (coordinates on the last axis; for others see C32), transform_vectors and transform_quaternions from a to a return the input, and its timestamps if it has any.", "quantifier": "all frames, all arrays", "why_tests_cant": "All frames in all trees.", "anchors": ["rigid_body_motion/reference_frames.py:ReferenceFrame.lookup_transform"]}
{"id": "C12", "title": "The transform b->a inverts a->b", "statement": "Static case: if lookup_transform(a,b)=(t,r) and lookup_transform(b,a)=(t',r') then r' r = 1 and applying one after the other is the identity on points; moving case: the same at every timestamp.", "quantifier": "all trees, all pairs of frames, all nonzero rotations", "why_tests_cant": "Continuous domain and unbounded trees.", "anchors": ["rigid_body_motion/reference_frames.py:ReferenceFrame.lookup_transform"]}
{"id": "C13", "title": "Transforms compose along any intermediate frame", "statement": "For static frames a, b, c of one tree, transforming a->b then b->c equals transforming a->c, for translation and rotation, no matter whether b lies on the path.", "quantifier": "all trees, all triples of frames", "why_tests_cant": "Unbounded tree shapes.", "anchors": ["rigid_body_motion/reference_frames.py:ReferenceFrame.lookup_transform"]}
{"id": "C14", "title": "Transforms are rigid motions", "statement": "If all rotations on the path are unit quaternions then the returned rotation is a unit quaternion at every timestamp, distances between transformed points and angles between transformed vectors are preserved, and handedness (cross products) is preserved.", "quantifier": "all trees and unit rotations, all points and vectors", "why_tests_cant": "Continuous domain, unbounded chains.", "anchors": ["rigid_body_motion/core.py:TransformMatcher.get_transformation", "rigid_body_motion/utils.py:rotate_vectors"]}
{"id": "C15", "title": "transform_points, transform_vectors and lookup_transform agree", "statement": "transform_points(p) = R p + t and transform_vectors(v) = R v with (t, R) the looked-up transform at the returned timestamps; hence the difference of two transformed points is the transformed vector difference.", "quantifier": "all trees, all points/vectors, static and moving", "why_tests_cant": "Continuous inputs, all trees.", "anchors": ["rigid_body_motion/reference_frames.py:ReferenceFrame.transform_points", "rigid_body_motion/reference_frames.py:ReferenceFrame.transform_vectors"]}
{"id": "C16", "title": "Quaternion transforms are compatible with vector transforms", "statement": "Rotating a vector by an orientation q and transforming the result gives the same vector as rotating by the transformed orientation; for unit path rotations the norm of q is preserved.", "quantifier": "all trees, all unit orientations, all vectors", "why_tests_cant": "Continuous domain.", "anchors": ["rigid_body_motion/reference_frames.py:ReferenceFrame.transform_quaternions", "rigid_body_motion/reference_frames.py:ReferenceFrame.transform_vectors"]}
{"id": "C17", "title": "Transforming forth and back restores the input", "statement": "transform_points (coordinates on the last axis; for others see C32), transform_vectors and transform_quaternions from a to b followed by b to a return the original array (static trees; with timestamps, the rows whose timestamps are kept).", "quantifier": "all trees, all arrays", "why_tests_cant": "Continuous domain, unbounded trees.", "anchors": ["rigid_body_motion/reference_frames.py:ReferenceFrame.transform_points"]}
{"id": "C18", "title": "inverse=True means the pose of the parent in the frame", "statement": "A frame constructed with (t, r, inverse=True) behaves in every lookup as the frame whose pose is the inverse rigid motion: the parent's origin seen from the frame is t and the parent's orientation seen from the frame is r, for static and timestamped frames with unit rotations.", "quantifier": "all poses, all timestamps", "why_tests_cant": "Continuous domain.", "anchors": ["rigid_body_motion/reference_frames.py:ReferenceFrame._init_arrays"]}
{"id": "C19", "title": "Rotation does not depend on the scale of the quaternion", "statement": "rotate_vectors with a nonzero non-unit quaternion gives the rotation of the normalised quaternion, both for a single quaternion and for arrays of quaternions. (Violated for arrays: the code divides by |q| instead of |q|^2.)", "quantifier": "all nonzero quaternions, all vectors", "why_tests_cant": "Continuous domain; every test uses unit quaternions.", "anchors": ["rigid_body_motion/utils.py:rotate_vectors"]}
{"id": "C20", "title": "Output timestamps are the right ones", "statement": "Whenever a lookup or transform involving at least one continuous element returns, the returned timestamps are exactly those timestamps of the sampling element (the array, else the first continuous frame on the path) that lie in the closed intersection of the time ranges of all continuous elements, in the original order, and sorted; this holds whatever the frames and arrays contain.", "quantifier": "all lists of frames and arrays with any timestamps", "why_tests_cant": "Unbounded lengths and relative positions of the ranges.", "anchors": ["rigid_body_motion/core.py:TransformMatcher.get_range", "rigid_body_motion/core.py:TransformMatcher.get_timestamps"]}
{"id": "C21", "title": "The array defines the sampling", "statement": "If the transformed array has timestamps, the output is sampled at the array's timestamps; else at those of the first continuous frame on the path from source to target; with arrays_first=False the first continuous frame takes precedence.", "quantifier": "all matcher contents", "why_tests_cant": "All combinations of elements.", "anchors": ["rigid_body_motion/core.py:TransformMatcher.get_timestamps"]}
{"id": "C22", "title": "Static in, static out", "statement": "Whenever lookup_transform returns, it returns timestamps None exactly if no frame on the path is timestamped; then shapes are (3,), (4,), otherwise (n,3),(n,4) with n the number of returned timestamps. On well-formed frames it returns.", "quantifier": "all trees, all pairs of frames", "why_tests_cant": "All tree shapes and mixes of frame kinds.", "anchors": ["rigid_body_motion/core.py:TransformMatcher.get_transformation", "rigid_body_motion/reference_frames.py:ReferenceFrame.lookup_transform"]}
{"id": "C23", "title": "Lookups over overlapping monotonic frames never fail", "statement": "If all continuous frames on the path have at least two strictly increasing timestamps and all discrete ones at least one, and the frames are in the same tree, lookup_transform returns a result: interpolation is never asked for a time outside a frame's range.", "quantifier": "all trees and all timestamp lists", "why_tests_cant": "All relative positions of time ranges (including disjoint ones).", "anchors": ["rigid_body_motion/core.py:TransformMatcher._transform_from_frame", "rigid_body_motion/core.py:TransformMatcher.get_transformation"]}
{"id": "C24", "title": "Moving lookups are pointwise static lookups", "statement": "Row k of a moving lookup equals the static lookup in the tree where every frame is frozen at its pose at the k-th returned timestamp (interpolated, held or constant).", "quantifier": "all trees mixing static, continuous and discrete frames, every timestamp", "why_tests_cant": "Unbounded series; continuous values.", "anchors": ["rigid_body_motion/core.py:TransformMatcher.get_transformation", "rigid_body_motion/core.py:TransformMatcher._transform_from_frame"]}
{"id": "C25", "title": "Linear interpolation of positions is exact at samples and bounded between them", "statement": "The resampled translation of a continuous frame equals the stored sample at every stored timestamp, and between two consecutive timestamps it is the convex combination of the two neighbouring samples (so it never leaves the per-coordinate range of the data); affine motions are reproduced exactly.", "quantifier": "all strictly increasing timestamp lists, all query times in range", "why_tests_cant": "Unbounded sizes and continuous times.", "anchors": ["rigid_body_motion/core.py:TransformMatcher._transform_from_frame", "scipy.interpolate.interp1d"]}
{"id": "C26", "title": "Discrete frames hold the last event", "statement": "A frame registered with discrete=True has at time t the transform of the last event whose timestamp is <= t, and the first event's transform before the first event.", "quantifier": "all event lists with monotonic timestamps, all times", "why_tests_cant": "Unbounded event lists.", "anchors": ["rigid_body_motion/core.py:TransformMatcher._transform_from_frame"]}
{"id": "C27", "title": "Discrete-only lookups are evaluated at every event", "statement": "If all timestamped elements are discrete, the returned timestamps are strictly increasing and contain exactly the timestamps of all discrete frames on the path.", "quantifier": "all lists of discrete frames", "why_tests_cant": "Unbounded number of frames and events.", "anchors": ["rigid_body_motion/core.py:TransformMatcher.get_timestamps"]}
{"id": "C28", "title": "Non-monotonic timestamps are rejected", "statement": "A lookup or transform that involves a frame or array whose timestamps decrease somewhere, or whose number differs from the length of the first axis, raises ValueError; monotonic ones pass this check.", "quantifier": "all timestamp lists", "why_tests_cant": "Position of the violation and length are unbounded.", "anchors": ["rigid_body_motion/core.py:TransformMatcher._check_timestamps"]}
{"id": "C29", "title": "Constructor arguments are validated", "statement": "ReferenceFrame(...) succeeds exactly if: with a parent, timestamps are one-dimensional and translation/rotation (if given) have shapes (3,)/(4,) resp. (n,3)/(n,4); without parent, none of them is given; and discrete implies timestamps. Otherwise ValueError. Omitted translation/rotation mean zero/identity.", "quantifier": "all shapes and argument combinations", "why_tests_cant": "Infinite family of shapes.", "anchors": ["rigid_body_motion/reference_frames.py:ReferenceFrame._init_arrays", "rigid_body_motion/reference_frames.py:ReferenceFrame._verify_root", "rigid_body_motion/reference_frames.py:ReferenceFrame.__init__"]}
{"id": "C30", "title": "Static arrays may be transformed through moving frames", "statement": "A single static point, vector or orientation (also as an array of one row) transformed through moving frames yields its coordinates at every timestamp; a static array of several points should too. (Violated for several points: np.tile stacks them and the transform raises or mixes rows.)", "quantifier": "all trees and static arrays", "why_tests_cant": "All array lengths against all numbers of timestamps.", "anchors": ["rigid_body_motion/core.py:TransformMatcher._resample_array"]}
{"id": "C31", "title": "Array axes are respected by transform_vectors", "statement": "transform_vectors / rotate_vectors on an n-dimensional array with spatial axis `axis` transform each spatial vector by the rotation of its leading indices, for every axis and number of dimensions. (Violated when the spatial axis is before the last two.)", "quantifier": "all shapes, ranks and axes", "why_tests_cant": "Infinite family of ranks and axes.", "anchors": ["rigid_body_motion/utils.py:rotate_vectors", "rigid_body_motion/reference_frames.py:ReferenceFrame.transform_vectors"]}
{"id": "C32", "title": "transform_points respects the spatial axis", "statement": "transform_points with axis=k equals moving axis k last, transforming and moving back. (Violated: the translation is always added along the last axis.)", "quantifier": "all shapes and axes", "why_tests_cant": "Infinite family of shapes.", "anchors": ["rigid_body_motion/reference_frames.py:ReferenceFrame.transform_points"]}
{"id": "C33", "title": "time_axis only matters with timestamps and is restored", "statement": "The result of a transform has the same axis order as the input: the time axis of the output is at position time_axis, and without timestamps the argument has no effect. (Violated without timestamps for time_axis != 0.)", "quantifier": "all shapes and time axes", "why_tests_cant": "Infinite family of shapes.", "anchors": ["rigid_body_motion/reference_frames.py:ReferenceFrame._validate_input", "rigid_body_motion/reference_frames.py:ReferenceFrame.transform_points"]}
{"id": "C34", "title": "return_timestamps contract", "statement": "With return_timestamps=False functions return only the transformed array(s), with True also the timestamps. (Violated by lookup_twist and friends with allow_static=True on static paths.)", "quantifier": "all calls", "why_tests_cant": "All combinations of static/moving paths and flags.", "anchors": ["rigid_body_motion/reference_frames.py:ReferenceFrame.lookup_twist", "rigid_body_motion/reference_frames.py:ReferenceFrame.lookup_linear_velocity", "rigid_body_motion/reference_frames.py:ReferenceFrame.lookup_angular_velocity"]}
{"id": "C35", "title": "Transforms commute with shifting the clock", "statement": "Adding a constant to all timestamps in the system changes nothing in a lookup except that the returned timestamps are shifted by the same constant.", "quantifier": "all trees, all shifts", "why_tests_cant": "Continuous domain.", "anchors": ["rigid_body_motion/core.py:TransformMatcher"]}
{"id": "C36", "title": "Numerical linear velocity is exact for uniform motion", "statement": "The estimated linear velocity of a frame moving with constant velocity v is v at every timestamp for any strictly increasing, possibly non-uniform timestamps with at least two samples; for quadratic motion the interior samples are exact; for constant position it is zero. Fewer than two samples is an error.", "quantifier": "all lengths, all non-uniform timestamps", "why_tests_cant": "Continuous domain and unbounded sizes.", "anchors": ["rigid_body_motion/core.py:_estimate_linear_velocity", "rigid_body_motion/estimators.py:estimate_linear_velocity"]}
{"id": "C37", "title": "Angular velocity of a non-rotating frame is zero and adds up", "statement": "The estimated angular velocity of a constant rotation is zero; transform_angular_velocity with what='reference_frame' adds the angular velocity of the path's frames expressed in the target frame, so that angular velocities chain additively along the tree when derivatives are exact.", "quantifier": "all series, all trees", "why_tests_cant": "Continuous domain.", "anchors": ["rigid_body_motion/core.py:_estimate_angular_velocity", "rigid_body_motion/reference_frames.py:ReferenceFrame.transform_angular_velocity"]}
{"id": "C38", "title": "Linear velocity transformation is kinematically correct", "statement": "transform_linear_velocity evaluates the transport theorem: for differentiable motions, the derivative of the transformed position equals rotated velocity + frame velocity + angular velocity x rotated lever arm.", "quantifier": "all differentiable motions", "why_tests_cant": "Continuous domain, calculus.", "anchors": ["rigid_body_motion/reference_frames.py:ReferenceFrame.transform_linear_velocity"]}
{"id": "C39", "title": "Outlier removal only touches outliers", "statement": "With outlier_thresh (two-dimensional arrays, time first) the estimate keeps every sample whose jump statistic does not exceed the threshold unchanged; a rejected sample between retained ones is replaced by linear interpolation in time between the nearest retained samples, one before the first or after the last retained sample by NaN. The last sample is never rejected; if nothing is retained the call fails, if a single sample is retained everything is NaN.", "quantifier": "all series and thresholds", "why_tests_cant": "Unbounded series.", "anchors": ["rigid_body_motion/core.py:_estimate_linear_velocity"]}
{"id": "C40", "title": "Quaternion inverse and product laws", "statement": "qinv(q) q = q qinv(q) = 1 for nonzero q, qinv is an involution and reverses products; qmul of n quaternions is associative, its norm is the product of the norms; fewer than two arguments raises ValueError; for arrays this holds elementwise along qaxis. Arrays of different shapes (quaternions along the last axis) are broadcast: the result has the common shape, and a single quaternion multiplies all. Shapes that are not compatible raise ValueError.", "quantifier": "all quaternions, all argument counts, all shapes; any axis for equal shapes, the last axis for broadcasting", "why_tests_cant": "Continuous domain, unbounded argument counts.", "anchors": ["rigid_body_motion/utils.py:qinv", "rigid_body_motion/utils.py:qmul"]}
{"id": "C41", "title": "qmean returns the mean direction", "statement": "qmean of copies of +-q is +-q; in general it is a unit vector maximising the sum of squared inner products with the inputs; with an axis argument every entry of the result is the mean of the entries along the given axes. Float arrays and quaternion arrays give the same means; axes that do not exist or are given twice are refused. (Violated: the code picks the wrong column unless the eigenvalues come out in descending order, and with an axis argument the mean of the first group for every group.)", "quantifier": "all arrays of unit quaternions of any shape, all axis arguments", "why_tests_cant": "Depends on the order in which the eigen solver returns eigenvalues.", "anchors": ["rigid_body_motion/utils.py:qmean"]}
{"id": "C42", "title": "Euler angle conversion is the product of the elementary rotations", "statement": "from_euler_angles(roll, pitch, yaw, order) (or rpy along any axis) returns the unit quaternion that is the product, in the given order, of the rotations about x, y, z, an angle not given counting as zero; orders whose first three letters are not a permutation of r, p, y raise ValueError (letters after the third are ignored by the code, so 'rpyx' is accepted), and so do contradictory, missing or inconsistently shaped angles.", "quantifier": "all angles, all orders", "why_tests_cant": "Continuous domain; every string as order.", "anchors": ["rigid_body_motion/utils.py:from_euler_angles"]}
{"id": "C43", "title": "Coordinate system conversions are mutually inverse", "statement": "polar_to_cartesian(cartesian_to_polar(x)) = x for all x; cartesian_to_polar(polar_to_cartesian(r,phi)) = (r,phi) for r>0, -pi<phi<=pi; the same for spherical with r>0, 0<theta<pi (ISO 80000-2); norms map to r; arrays with a wrong axis length raise ValueError.", "quantifier": "all points", "why_tests_cant": "Continuous domain, transcendental functions.", "anchors": ["rigid_body_motion/coordinate_systems.py:cartesian_to_polar", "rigid_body_motion/coordinate_systems.py:polar_to_cartesian", "rigid_body_motion/coordinate_systems.py:cartesian_to_spherical", "rigid_body_motion/coordinate_systems.py:spherical_to_cartesian"]}
{"id": "C44", "title": "transform_coordinates dispatches correctly", "statement": "transform_coordinates converts arrays between the named coordinate systems (cartesian/polar/spherical), refuses unsupported pairs and a missing source system with ValueError, and converting forth and back is the identity on the domain; for DataArrays the spatial dimension is renamed and relabelled and everything else is kept. (Violated for plain arrays whose spatial axis is the first one, in particular for single points: always ValueError.)", "quantifier": "all pairs of system names, all arrays", "why_tests_cant": "All strings as names.", "anchors": ["rigid_body_motion/__init__.py:transform_coordinates", "rigid_body_motion/__init__.py:_cs_funcs"]}
{"id": "C45", "title": "shortest_arc_rotation maps v1 to v2", "statement": "For v1, v2 nonzero and not antiparallel, the result is a unit quaternion whose rotation maps v1/|v1| to v2/|v2|, with rotation axis orthogonal to both; for antiparallel or zero input the result is not finite. Arrays of different but compatible shapes with the vectors along the last axis are broadcast (one reference direction for many vectors): the result has the common shape and each quaternion is the shortest arc at its position; incompatible shapes raise ValueError.", "quantifier": "all pairs of vectors; arrays of equal shape, along any axis; arrays of any compatible or incompatible shapes along the last axis; DataArrays", "why_tests_cant": "Continuous domain with singular set.", "anchors": ["rigid_body_motion/estimators.py:shortest_arc_rotation"]}
{"id": "C46", "title": "best_fit_rotation is the least-squares rotation", "statement": "Among all rotations the one returned minimises the sum of squared distances between rotated v1 and v2, provided the orthogonal matrix from the SVD is proper. (Reflection case is not handled by the code.)", "quantifier": "all point sets, all rotations", "why_tests_cant": "Optimality quantifies over all rotations.", "anchors": ["rigid_body_motion/estimators.py:best_fit_rotation"]}
{"id": "C47", "title": "best_fit_transform is optimal and exact on rigidly moved data", "statement": "The returned (t, r) minimises the squared residual over all rigid motions whenever r does so for the centred data; if v2 is exactly a rigid motion of v1 (points not degenerate) the residual is zero.", "quantifier": "all point sets, all rigid motions", "why_tests_cant": "Optimality over a continuous set.", "anchors": ["rigid_body_motion/estimators.py:best_fit_transform"]}
{"id": "C48", "title": "iterative_closest_point terminates and returns a rigid motion", "statement": "ICP performs at most max_iterations+1 fits, returns exactly the accumulated rigid motion of the fitted point set, and the squared matching error never increases from one iteration to the next.", "quantifier": "all point clouds, initial transforms, tolerances and iteration limits", "why_tests_cant": "Unbounded iterations; continuous data.", "anchors": ["rigid_body_motion/estimators.py:iterative_closest_point"]}
{"id": "C49", "title": "ROS messages round trip", "statement": "unpack_*_msg(make_*_msg(...)) returns the translation/rotation/frame ids/stamps that went in (w,x,y,z order), for transform, pose, twist, vector, point and quaternion messages.", "quantifier": "all values", "why_tests_cant": "Continuous values; component order mix-ups survive symmetric tests.", "anchors": ["rigid_body_motion/ros/msg.py"]}
{"id": "C50", "title": "The transform broadcaster cycles through all samples", "statement": "When spinning, the published index runs 0,1,...,n-1,0,1,... forever; publish(i) publishes sample i. (Violated for publish(0): it publishes the current index.)", "quantifier": "all numbers of samples and steps", "why_tests_cant": "Unbounded run.", "anchors": ["rigid_body_motion/ros/transformer.py:ReferenceFrameTransformBroadcaster"]}
{"id": "C51", "title": "Marker publishers only publish changes", "statement": "publish() emits a message exactly if the content differs from the last emitted one, for any sequence of updates.", "quantifier": "all update histories", "why_tests_cant": "Unbounded histories.", "anchors": ["rigid_body_motion/ros/visualization.py:BaseMarkerPublisher"]}
{"id": "C52", "title": "Marker subsampling respects max_points", "statement": "The trajectory marker contains at most max_points points and covers the series. (Violated: step n // max_points is 0 for short and too small for other series.)", "quantifier": "all series lengths and limits", "why_tests_cant": "All pairs (n, max_points).", "anchors": ["rigid_body_motion/ros/visualization.py:ReferenceFrameMarkerPublisher"]}
{"id": "C53", "title": "Playback controls stay in range", "statement": "In play_publisher, the slider value always stays between 0 and its maximum and stepping forward/backward changes it by the step. (Backward step is stuck at the maximum.)", "quantifier": "all sequences of button presses", "why_tests_cant": "Unbounded histories.", "anchors": ["rigid_body_motion/ros/utils.py:play_publisher"]}
{"id": "C54", "title": "Rosbag export/import loses at most the quantisation step", "statement": "Values written to and read from the netCDF cache differ by at most half the scale factor and out-of-range values are not representable; different topics never share a cache file. (Violated: '/a/b' and '/a_b' collide.)", "quantifier": "all values, all topic names", "why_tests_cant": "Continuous domain / all strings.", "anchors": ["rigid_body_motion/ros/io.py:RosbagReader"]}
{"id": "C55", "title": "Axis arguments resolve like numpy", "statement": "For axis int, tuple or None, the resolved axes lie in 0..ndim-1, negative axes count from the end, and anything out of range raises IndexError.", "quantifier": "all axes and ranks", "why_tests_cant": "Infinite domain.", "anchors": ["rigid_body_motion/core.py:_resolve_axis"]}
{"id": "C56", "title": "DataArray arguments are unpacked consistently", "statement": "For DataArrays the spatial axis is the position of `dim` (or axis), the time axis the position of the `timestamps` dimension, contradictory arguments raise ValueError, and plain arrays pass through; a missing axis is the last one, a missing time axis the first one, and axis=0 counts as missing.", "quantifier": "all dims, axes and timestamp arguments", "why_tests_cant": "All combinations.", "anchors": ["rigid_body_motion/core.py:_maybe_unpack_dataarray"]}
{"id": "C57", "title": "Results keep their metadata consistent", "statement": "For DataArray input the output has the same dimensions in the same order, the spatial dimension's coordinate is kept, the time coordinate is replaced by the returned timestamps, the representation/reference/moving frame attributes are set to the target as documented.", "quantifier": "all DataArrays", "why_tests_cant": "All dims/coords combinations.", "anchors": ["rigid_body_motion/core.py:_transform", "rigid_body_motion/core.py:_make_dataarray", "rigid_body_motion/core.py:_replace_dim"]}
{"id": "C59", "title": "stop() ends publishing", "statement": "After stop(), a spinning broadcaster or marker publisher sends nothing more from its loop and its thread ends. (Violated: a stop() that comes before the thread has executed its first statement is lost; spin() of a broadcaster with a subscription never reacts to stop().)", "quantifier": "all interleavings of spin, stop, publish and steps of the publishing thread", "why_tests_cant": "Race between the caller and the thread.", "anchors": ["rigid_body_motion/ros/transformer.py:ReferenceFrameTransformBroadcaster.stop", "rigid_body_motion/ros/visualization.py:BaseMarkerPublisher.stop"]}
{"id": "C62", "title": "Markers and colours show what was asked for", "statement": "hex_to_rgba parses #RRGGBBAA in either case, each channel is its byte / 255, and a missing alpha channel is an error; get_marker returns a marker with the given type, frame, scale, colour, position and orientation. (Violated for marker_type=0, an arrow, which becomes a line strip.)", "quantifier": "all colour strings and arguments", "why_tests_cant": "2^32 colours, continuous values.", "anchors": ["rigid_body_motion/ros/visualization.py:hex_to_rgba", "rigid_body_motion/ros/visualization.py:get_marker"]}
{"id": "C63", "title": "A subscribed broadcaster answers with the nearest sample", "statement": "A broadcaster with a subscription answers every incoming transform of the followed frame with exactly one publication, which shows the sample nearest in time to the incoming stamp, whatever was called before.", "quantifier": "all histories and incoming messages; timestamps of type datetime64 (pandas cannot compare others with the incoming stamp)", "why_tests_cant": "Unbounded histories, all stamps.", "anchors": ["rigid_body_motion/ros/transformer.py:ReferenceFrameTransformBroadcaster.handle_incoming_msg"]}
{"id": "C58", "title": "A Transformer answers like the library", "statement": "Transformer.from_reference_frame(rf) gives tf2 every frame of the tree of rf exactly once (static ones as static transforms, moving ones sample by sample) with a cache time that spans all timestamps. Its lookup_transform, transform_vector, transform_point, transform_quaternion and transform_pose then agree, at times at which all frames on the way have a sample, with the transformations of the library.", "quantifier": "all trees, pairs of frames and sample times", "why_tests_cant": "Unbounded trees, all poses and times.", "anchors": ["rigid_body_motion/ros/transformer.py:Transformer"]}
{"id": "C60", "title": "Cached datasets equal uncached ones", "statement": "RosbagReader.load_dataset(topic, cache=True) gives what load_dataset(topic) gives, up to the rounding of the cache, whatever was loaded or exported before; export(topic, file) writes the dataset of the topic to the file and nothing else. (Violated: the cache is shared by all bags of a folder and by topics that differ in / and _, survives a new recording, and export does not accept the documented string.)", "quantifier": "all bags, topics and histories of loads and exports", "why_tests_cant": "Unbounded histories.", "anchors": ["rigid_body_motion/ros/io.py:RosbagReader.load_dataset", "rigid_body_motion/ros/io.py:RosbagReader.export"]}
{"id": "C61", "title": "What is written to a bag is what is loaded", "statement": "After any history of write_transform_stamped calls (some of which may fail) the messages loaded for a topic are exactly the accepted rows, in order, with stamps cut to nanoseconds; arrays with mismatched shapes are refused and nothing is written; datasets come back exactly. (Rows are ordered by the wall clock at recording: if that goes back, they are swapped.) The listing of topics and types has each topic with at least one accepted row exactly once, and nothing else; it gives a topic the type by which load_messages decides.", "quantifier": "all histories of writes, all values", "why_tests_cant": "Unbounded histories, continuous values.", "anchors": ["rigid_body_motion/ros/io.py:RosbagReader.load_messages", "rigid_body_motion/ros/io.py:RosbagWriter", "rigid_body_motion/ros/io.py:RosbagReader.get_topics_and_types"]}
{"id": "C65", "title": "render_tree prints every frame once, below its parent", "statement": "render_tree(root) prints one line for root and every frame below it and no other; root comes first without indentation; every other line is indented by four characters more than the line of its parent, which is the nearest line above that is less indented; children appear in the order in which they were attached, the last one with a corner. Unknown names raise ValueError.", "quantifier": "all reachable registries, all frames", "why_tests_cant": "Unbounded trees.", "anchors": ["rigid_body_motion/reference_frames.py:render_tree"]}
{"id": "C66", "title": "Lookup datasets carry the looked-up values and correct labels", "statement": "lookup_pose/lookup_transform(as_dataset=True) hold, per timestamp, exactly the arrays of the tuple form, with dimensions time and cartesian/quaternion axis; a looked-up pose transformed into another frame (without naming its source) is the pose in that frame. lookup_linear_velocity/angular_velocity/twist default to the parent as reference and to the reference as representation frame, label the three frames correctly, pass failures through, and re-representing the result equals looking it up with represent_in. (Violated by lookup_transform: the translation is labelled with the source frame but expressed in the target frame.)", "quantifier": "all reachable registries, frames, motions, argument defaults", "why_tests_cant": "Unbounded trees and continuous values.", "anchors": ["rigid_body_motion/__init__.py:lookup_transform", "rigid_body_motion/__init__.py:lookup_pose", "rigid_body_motion/__init__.py:lookup_twist", "rigid_body_motion/__init__.py:lookup_linear_velocity", "rigid_body_motion/__init__.py:lookup_angular_velocity", "rigid_body_motion/core.py:_make_transform_or_pose_dataset", "rigid_body_motion/core.py:_make_twist_dataset", "rigid_body_motion/core.py:_make_velocity_dataarray"]}
{"id": "C70", "title": "A single static point, vector or orientation follows the moving frame", "statement": "transform_points / transform_vectors / transform_quaternions of a DataArray with one point, vector or orientation and no timestamps give one result per timestamp of the frames' motion under a new first dimension time (or one result if nothing moves), all other labels kept, whether or not the dimension is named. (Violated: naming the dimension raises ValueError for moving frames unless there are exactly three timestamps.)", "quantifier": "all reachable registries, frames, motions, points, vectors and orientations", "why_tests_cant": "Unbounded trees and numbers of timestamps.", "anchors": ["rigid_body_motion/core.py:_maybe_unpack_dataarray", "rigid_body_motion/core.py:_make_dataarray", "rigid_body_motion/reference_frames.py:ReferenceFrame.transform_points", "rigid_body_motion/reference_frames.py:ReferenceFrame.transform_vectors"]}
{"id": "C67", "title": "Quaternion interpolation works lane by lane along any axis", "statement": "qinterp interpolates the quaternions along any axis, stored along any other axis (or as quaternion dtype), at the new times, separately for every lane and keeping all other axes; at old sample times it returns the samples, inside the sampled range it returns unit quaternions, and resampling at the old times is the identity; a wrong number of times raises. The accessors rbm.qinterp / rbm.qinv keep dimensions, name, attributes and coordinates independent of the interpolated dimension, whose coordinate becomes the new times; invalid arguments are refused. (Violated for an empty list of times on arrays with more than two axes.)", "quantifier": "all arrays, axes, sample times, DataArrays", "why_tests_cant": "Unbounded shapes and axes, continuous values.", "anchors": ["rigid_body_motion/utils.py:qinterp", "rigid_body_motion/accessors.py:DataArrayAccessor.qinterp", "rigid_body_motion/accessors.py:DataArrayAccessor.qinv"]}
{"id": "C68", "title": "Frames made from datasets, data arrays and matrices have the poses that were passed", "statement": "ReferenceFrame.from_dataset / from_translation_dataarray / from_rotation_dataarray make a frame under the given parent that holds the recorded translations and rotations (identity for the missing part) at the timestamps of the coordinate; with inverse=True they are the poses of the parent in the frame. from_rotation_matrix makes a frame whose transformation into the parent (inverse: the parent's into the frame) is that matrix if it is a rotation, and otherwise a rotation agreeing with it best. Shapes that do not fit are refused with ValueError, unknown variables and matrices of another shape are refused without any change. A frame made from the dataset returned by lookup_transform moves like the frame looked up.", "quantifier": "all reachable registries, datasets, numbers of samples, matrices, parents and flags", "why_tests_cant": "Arbitrary series of poses, matrices and registries; tests use one dataset.", "anchors": ["rigid_body_motion/reference_frames.py:ReferenceFrame.from_dataset", "rigid_body_motion/reference_frames.py:ReferenceFrame.from_translation_dataarray", "rigid_body_motion/reference_frames.py:ReferenceFrame.from_rotation_dataarray", "rigid_body_motion/reference_frames.py:ReferenceFrame.from_rotation_matrix"]}
{"id": "C64", "title": "load_optitrack returns the recorded poses", "statement": "Loading an OptiTrack file returns exactly one entry per rigid body (none for markers), with one pose per row: the position in metres, a unit quaternion equal to the rotations about the axes in the order of the file's rotation type by the recorded angles in degrees, and timestamps equal to the start time plus the recorded seconds (to the nanosecond). The numpy, pandas and xarray formats hold the same arrays with correct labels. Unknown rotation types and formats, and missing metadata, are refused. (Violated for files in millimetres, which are not converted.)", "quantifier": "all files, numbers of bodies and rows, rotation orders, formats", "why_tests_cant": "Unbounded files, continuous angles; tests load one file.", "anchors": ["rigid_body_motion/io.py:load_optitrack", "rigid_body_motion/utils.py:from_euler_angles"]}
{"id": "C69", "title": "Plots show the data that was passed", "statement": "plot_reference_frame of a static frame adds exactly three arrows, from the position of the frame's origin in the world frame along its rotated axes with the given length (red, green, blue); moving frames are refused. plot_points / plot_vectors / plot_quaternions hand over exactly the given points, vectors at their base points (default origin), and rotated axes of length 1/2; wrong shapes and base points of another number are refused without plotting. After each call the three axes have the same scale, and all that was plotted is visible. (Violated: the z limits are never adapted to a frame; a second plot on the same axes, and the y and z arrows of plot_quaternions, can be outside the limits.)", "quantifier": "all frames, poses, arrow lengths, arrays of any length, prior axis limits, every matplotlib autoscaling", "why_tests_cant": "Continuous domain; tests only check that nothing is raised.", "anchors": ["rigid_body_motion/plotting.py:_add_frame", "rigid_body_motion/plotting.py:_set_axes_equal", "rigid_body_motion/plotting.py:plot_reference_frame", "rigid_body_motion/plotting.py:plot_points", "rigid_body_motion/plotting.py:plot_vectors", "rigid_body_motion/plotting.py:plot_quaternions"]}
{"id": "C71", "title": "rotate_vectors for all combinations", "statement": "rotate_vectors(q, v, one_to_one=False) combines every quaternion with every vector: the result has the axes of q without the quaternion axis (the last axis taking its place) followed by those of v, and each entry is the vector rotated by the rotation of the quaternion, which need not be normalised; if any quaternion is zero, ZeroDivisionError is raised.", "quantifier": "all shapes and axes of q and v, all values", "why_tests_cant": "Infinite family of ranks, axes and values.", "anchors": ["rigid_body_motion/utils.py:rotate_vectors"]}
{"id": "C72", "title": "One-to-one rotation broadcasts axes of length one", "statement": "rotate_vectors(q, v) with one_to_one=True and the coordinates on the last axis of v broadcasts the shape of the unit quaternions and the shape of the vectors against each other: the result has the common shape, and each of its vectors is the corresponding vector rotated by the corresponding quaternion, axes of length one of either argument being repeated. A single quaternion, of any norm but zero, rotates all vectors, along any axis. Shapes that are not compatible, or an axis that does not have length three, raise ValueError.", "quantifier": "all shapes with any number of axes and any combination of axes of length one, all unit quaternions, all vectors, quaternion or float arrays, positive or negative axis arguments", "why_tests_cant": "Tests fix a few shapes; mutual broadcasting goes through two cross products and four broadcast operations that must agree for every shape.", "anchors": ["rigid_body_motion/utils.py:rotate_vectors"]}
{"id": "C73", "title": "Shutting down the node ends all loops", "statement": "After the ROS node is shut down, the loop of a spinning broadcaster or marker publisher sends nothing more, whatever was called before and is called afterwards, and its thread ends after at most two more steps.", "quantifier": "all interleavings of spin, stop, publish, incoming messages, shutdown and steps of the publishing thread", "why_tests_cant": "Every interleaving of the caller with the thread.", "anchors": ["rigid_body_motion/ros/transformer.py:ReferenceFrameTransformBroadcaster._spin_blocking", "rigid_body_motion/ros/visualization.py:BaseMarkerPublisher._spin_blocking"]}
{"id": "C74", "title": "init_node starts a master only if none runs and never stops a foreign one", "statement": "init_node uses a running ROS master and then returns a stub whose shutdown() only warns; without a running master it raises RuntimeError without any effect, or, with start_master=True, starts one, registers its shutdown at exit and returns its launcher. In every history, a master started by another process keeps running whatever this process calls, and no master started by this process survives its exit, even if registering the node failed.", "quantifier": "all histories of init_node calls with any outcome of the external calls, shutdown() calls on any handle, and starts and stops by other processes", "why_tests_cant": "Needs every order of calls, failures and other processes.", "anchors": ["rigid_body_motion/ros/utils.py:init_node"]}
{"id": "C75", "title": "The synthetic test motion is what it claims to be", "statement": "make_test_motion returns for every sample the displacement and rotation given by one sine: along and about x, y, z in consecutive thirds (stack=True) or along and about the diagonal (stack=False); inverse=True gives the inverse rotations and opposite displacements; with an offset the positions are those of a point rigidly attached to the moving frame; the timestamps are equidistant. Offsets without three coordinates and fs=0 are refused.", "quantifier": "all numbers of samples, frequencies, amplitudes, sampling rates, flags and offsets", "why_tests_cant": "The function produces the inputs of the tests; its own correctness for every length (split into thirds) and offset is never tested.", "anchors": ["rigid_body_motion/testing.py:make_test_motion", "rigid_body_motion/utils.py:rotate_vectors"]}
{"id": "C76", "title": "Example data is pinned", "statement": "example_data[name] returns only files with the pinned SHA-256 of that data set, downloaded from the pinned address, whatever the server sends; any other name raises KeyError without a download, and without pooch ModuleNotFoundError is raised.", "quantifier": "all names and all behaviours of the server", "why_tests_cant": "Every possible server response and every key.", "anchors": ["rigid_body_motion/utils.py:ExampleDataStore.__getitem__"]}
{"id": "C77", "title": "Missing orientations cost only their own angular velocity", "statement": "estimate_angular_velocity in quaternion mode without outlier removal and filter gives NaN exactly at the samples where some entry is NaN; all other velocities are those that the same call returns for the series with these samples removed, and it raises exactly the exceptions of that call. For arrays without NaN nothing changes, in every mode. With a low-pass filter a single NaN makes every entry of the result NaN (defect).", "quantifier": "all array shapes, axes, timestamps and patterns of missing entries", "why_tests_cant": "There are exponentially many patterns of missing samples and positions of the axes.", "anchors": ["rigid_body_motion/core.py:_estimate_angular_velocity", "rigid_body_motion/estimators.py:estimate_angular_velocity"]}
{"id": "C78", "title": "Missing positions cost the velocities of their neighbours", "statement": "estimate_linear_velocity gives NaN exactly where a directly neighbouring sample of the same column is NaN, or the sample itself is NaN and is the first, the last or the timestamps are unevenly spaced; all other velocities are those of any completion of the series, for all patterns of NaN. So with evenly spaced timestamps a missing position gets a number for its velocity. estimate_angular_velocity in rotation_vector mode does the same with the rows of (n, 4) arrays. With a low-pass filter a column with one NaN becomes NaN.", "quantifier": "all array shapes, time axes, increasing timestamps and patterns of missing entries (rotation_vector: all (n, 4) arrays)", "why_tests_cant": "All patterns of missing samples and all spacings of timestamps.", "anchors": ["rigid_body_motion/core.py:_estimate_linear_velocity", "rigid_body_motion/core.py:_estimate_angular_velocity", "rigid_body_motion/estimators.py:estimate_linear_velocity"]}
{"id": "C79", "title": "Outlier removal bridges missing samples, except at the end", "statement": "With outlier_thresh, the velocity estimators drop the samples whose statistic involves a missing sample together with those above the threshold and interpolate them linearly in time between the nearest retained ones, so gaps are bridged with numbers; nothing retained is changed and no retained velocity is NaN as long as the last (linear velocity and rotation_vector mode: last two) samples are complete. If the last sample is missing, it is retained and everything after the last other retained sample becomes NaN.", "quantifier": "all (n, k) and (n, 4) arrays with any pattern of missing entries, all thresholds and increasing timestamps", "why_tests_cant": "All patterns of missing samples combined with all patterns of outliers.", "anchors": ["rigid_body_motion/core.py:_estimate_linear_velocity", "rigid_body_motion/core.py:_estimate_angular_velocity"]}
{"id": "C80", "title": "Bags are open exactly inside with blocks, and a bag file holds what its last completed block wrote", "statement": "For every interleaving of creating readers and writers, entering and leaving their with blocks (also by exceptions), reading, writing, exporting and deaths of the process: the bag of a reader or writer is open exactly between a successful entry and the next exit; without nested with statements on the same object no bag stays open after its block (nested ones leak a bag and end with AttributeError). Outside of the block reading, exporting, writing and leaving raise and change nothing. A bag file changes only by blocks of writers of that file: after a block it holds exactly what the calls inside, failed ones included, have written to an empty bag; during the block, and after a death of the process inside it until a new block completes it, no reader can open the file and what it held before is lost. If the blocks of two writers of the same file overlap, no reader can open the file as long as the later one is inside and once the earlier one has left, in whatever order they leave, until a new block completes it. Readers have no method to write, writers none to load or export.", "quantifier": "all histories of calls on any number of readers and writers, all files, all failure points of write calls and all crash points", "why_tests_cant": "Interleavings, failure points and crash points are unbounded.", "anchors": ["rigid_body_motion/ros/io.py:RosbagReader.__enter__", "rigid_body_motion/ros/io.py:RosbagReader.__exit__", "rigid_body_motion/ros/io.py:RosbagWriter.__enter__", "rigid_body_motion/ros/io.py:RosbagWriter.__exit__", "rigid_body_motion/ros/io.py:RosbagWriter.write_transform_stamped", "rigid_body_motion/ros/io.py:RosbagReader.load_dataset"]}
{"id": "C81", "title": "An interrupted load_dataset or export does not spoil later ones", "statement": "If load_dataset(cache=True) or export is interrupted by an error or by the death of the process while it writes the netCDF file, later calls return the right data. (False: the torn cache file is kept, so all later cached loads of that topic raise, in all later processes, until the file is removed or exported anew; an interrupted export destroys the previous file. What holds with one bag per folder and topics without underscore: at every crash point and after every history a cached load never returns wrong data, and it returns the data if no write was interrupted.)", "quantifier": "all histories of calls of any number of processes, all points at which writes fail or processes die", "why_tests_cant": "Crash points and histories are unbounded.", "anchors": ["rigid_body_motion/ros/io.py:RosbagReader.load_dataset", "rigid_body_motion/ros/io.py:RosbagReader.export", "rigid_body_motion/ros/io.py:RosbagReader._write_netcdf"]}
{"id": "C82", "title": "Transforms depend only on the frames between source and target", "statement": "transform_points/vectors/quaternions, lookup_transform and velocity lookups between two frames give the same results whatever is registered, deregistered, updated, collected or re-parented elsewhere: only the parent and the pose of the frames from source and target up to (but without) their nearest common ancestor matter. In particular registered names, frames above the common ancestor and other branches have no influence.", "quantifier": "all reachable states, all pairs of frames (three frames for velocities), all arrays and arguments, and all sequences of frame operations that do not move a frame in between", "why_tests_cant": "the other frames and the operations in the meantime are arbitrary in number and order; tests check a few trees", "anchors": ["rigid_body_motion/reference_frames.py: ReferenceFrame._walk, _get_matcher, _register, parent setter, transform_points, transform_vectors, transform_quaternions, lookup_transform, lookup_twist"]}
{"id": "C83", "title": "Transforming a selection of samples selects from the transformed samples", "statement": "For timestamped arrays, the result at a timestamp depends only on the sample with that timestamp (and the frames): transforming some of the samples (at least two, in order) gives the transformed values of exactly those samples whose timestamps remain in the full result, so that recordings can be processed in parts.", "quantifier": "all reachable states, frames with usable paths, arrays of any number of dimensions (coordinates on the last axis) for points and vectors, (n, 4) arrays for orientations, all selections of at least two samples", "why_tests_cant": "quantifies over all recordings and all ways to cut them; the resampling code works on the whole timestamp index at once", "anchors": ["rigid_body_motion/reference_frames.py: transform_points, transform_vectors, transform_quaternions", "rigid_body_motion/core.py: TransformMatcher.get_arrays, get_transformation"]}
{"id": "C84", "title": "Results do not depend on the units of length and time", "statement": "A program that gives all translations in another unit of length and all timestamps by another clock (other unit, other zero point) builds the same frames in these units; each call succeeds or fails as before; lookups return the same rotations, translations in the new unit and timestamps by the new clock; points transform to the old results in the new unit, vectors of any unit keep their unit, orientations are unchanged; linear velocities are in new units of length per new unit of time and angular velocities per new unit of time.", "quantifier": "all histories of registry and tree calls, all frames and arguments, all unit factors (of time: positive) and clock offsets (zero for orientations and velocities), interpolation and derivative routines that depend on time differences accordingly; no outlier threshold or cutoff", "why_tests_cant": "a hidden absolute tolerance, default step or comparison with a constant shows only for some units and data", "anchors": ["rigid_body_motion/reference_frames.py: ReferenceFrame, lookup_transform, transform_points, transform_vectors, transform_quaternions, lookup_linear_velocity, lookup_angular_velocity", "rigid_body_motion/core.py: TransformMatcher, Frame, Array", "rigid_body_motion/utils.py: rotate_vectors"]}
{"id": "C85", "title": "On plain arrays the top-level functions are the methods of the source frame", "statement": "transform_points, transform_vectors and transform_quaternions of a plain numpy array give exactly what the method of the frame named by outof gives, with the given axes (default: space last, time first) and timestamps, including its errors. With return_timestamps True/False the timestamps are returned or not; with None they are returned if and only if there are any. Without a source frame the call fails with ValueError; unknown frames fail with the error of the frame lookup.", "quantifier": "all states, arrays of any shape, axes that differ (axis given and not 0, or left out), with or without timestamps, all frames given by name or object", "why_tests_cant": "all combinations of shapes, axes, timestamps, frames and flags; results for static and moving frames differ in kind", "anchors": ["rigid_body_motion/__init__.py: transform_points, transform_vectors, transform_quaternions", "rigid_body_motion/core.py: _transform, _maybe_unpack_dataarray"]}
{"id": "C86", "title": "Rounding of timestamps to floating point affects interpolation only", "statement": "Timestamps that floats cannot represent (datetime64[ns], int64) are returned, selected and compared exactly, but frames are interpolated at times converted to float. If all timestamps are representable, every lookup and transformation is that of exact times. For any monotone conversion that keeps the samples of interpolated frames apart: lookups return the same exact timestamps as with exact times and the transformation between the frames as recorded at the converted times; recorded samples are returned unchanged, and the samples of a timestamped array passed to transform_vectors, transform_points or transform_quaternions are selected by exact times and transformed with their recorded values; discrete and static frames are not affected; positions are off by at most 2 e/(d - 2 e) times the largest step between samples, for conversion error e and sample distance d. If conversion makes the first two timestamps of a moving frame equal, the lookup is not finite; if it makes later ones equal, the first of the coinciding samples is returned for all of them without notice. Whether timestamps are in order is judged after conversion: a lookup through a frame whose converted timestamps decrease raises ValueError, and samples whose wrong order the conversion hides are accepted without notice.", "quantifier": "all reachable states, pairs of frames, monotone conversions, timestamps, error bounds", "why_tests_cant": "float conversion depends on the magnitude of the timestamps; tests use small or evenly spaced times and cannot cover every recording", "anchors": ["rigid_body_motion/core.py:TransformMatcher._check_timestamps", "rigid_body_motion/core.py:TransformMatcher._transform_from_frame", "rigid_body_motion/core.py:TransformMatcher._resample_array", "rigid_body_motion/core.py:TransformMatcher.get_timestamps", "rigid_body_motion/reference_frames.py:ReferenceFrame.lookup_transform"]}
{"id": "C87", "title": "Arrays: what is copied, what is shared, what is written", "statement": "`register_frame` and `ReferenceFrame` keep the arrays they are given: unless `inverse=True`, overwriting entries of such an array later changes the frame exactly as if the array had had these values at registration, and two frames registered with the same arrays always have equal values; with `inverse=True` translation and rotation are copies and only the timestamps follow. No function of the library (`register_frame`, `lookup_transform`, `transform_vectors`, `transform_points`, `transform_quaternions`, `lookup_twist`, `lookup_linear_velocity`, `lookup_angular_velocity`, `transform_linear_velocity`, and `transform_angular_velocity` although it adds in place; whether it succeeds or raises) changes an array that existed before the call. Results are new arrays that share no memory with the arguments, the frames, each other (translation, rotation and timestamps of one call) or anything else, so that overwriting a result changes nothing. Hence in any program an array, and a frame, changes only through in-place writes by the program itself to the arrays in question, and programs without in-place writes see frames as values (the model of C01-C86).", "quantifier": "all programs (sequences of array creations, in-place writes through arbitrary views, registrations with arrays or lists, re-parenting, deregistration, lookups, transformations and velocity functions), all arrays, shapes, axes and frames", "why_tests_cant": "aliasing shows only for particular orders of writes and calls; a test compares values after one call, and not every array that existed before with every array afterwards in every program", "anchors": ["rigid_body_motion/reference_frames.py: ReferenceFrame._init_arrays, _validate_input, lookup_transform, transform_vectors, transform_points, transform_quaternions", "rigid_body_motion/core.py: TransformMatcher._transform_from_frame, _resample_array, get_timestamps, get_transformation, get_arrays", "rigid_body_motion/reference_frames.py: register_frame", "rigid_body_motion/reference_frames.py: _match_arrays, transform_angular_velocity, transform_linear_velocity, lookup_twist, lookup_linear_velocity, lookup_angular_velocity"]}
{"id": "C88", "title": "An axis may be counted from the front or from the back", "statement": "Wherever a function takes an axis as an integer, the two numbers of the same axis (i and i - ndim) give the same result: transform_vectors, transform_points, transform_quaternions, transform_angular_velocity, transform_linear_velocity (axis and time_axis; arrays with timestamps, or without timestamps along a static path), rotate_vectors (axis and qaxis), qinv, qmul, qinterp, the coordinate conversions, the velocity estimators, best_fit_rotation, best_fit_transform, iterative_closest_point and shortest_arc_rotation (axis=0 of the latter estimators means the default and is excluded). A DataArray with dimensions (time, space) gives the labelled result of the method with its default axes, so the velocity laws (C37, C38) hold for DataArrays as well. For a single vector without timestamps along a moving path axis=0 and axis=-1 differ: the array is repeated along a new first axis and axis=0 fails unless there are exactly three timestamps.", "quantifier": "all arrays of any dimension, all axes in range, all frame trees, paths, timestamps and options", "why_tests_cant": "tests use one spelling of the axis, for a few shapes", "anchors": ["rigid_body_motion/reference_frames.py:ReferenceFrame._validate_input", "rigid_body_motion/reference_frames.py:ReferenceFrame.transform_vectors", "rigid_body_motion/reference_frames.py:ReferenceFrame.transform_linear_velocity", "rigid_body_motion/utils.py:rotate_vectors", "rigid_body_motion/utils.py:qinv", "rigid_body_motion/utils.py:qmul", "rigid_body_motion/utils.py:qinterp", "rigid_body_motion/coordinate_systems.py", "rigid_body_motion/estimators.py", "rigid_body_motion/core.py:_estimate_angular_velocity"]}
{"id": "C89", "title": "Timestamps of type datetime64: velocities are per second", "statement": "Frames, arrays and DataArrays whose timestamps are datetime64[ns] give the velocities that the same frames and arrays give with timestamps in seconds: lookup_linear_velocity, lookup_angular_velocity, lookup_twist, transform_linear_velocity, transform_angular_velocity, estimate_linear_velocity and estimate_angular_velocity return equal values (meters or radians per second) and the same errors, with every option (mode, outlier_thresh, cutoff, what, allow_static, axes); timestamps and time coordinates of the result are the datetime64 ones. Poses do not depend on the unit of the timestamps. The conversion takes every datetime64 for nanoseconds: plain numpy arrays of another unit with k ticks per second give velocities too large by exactly 1e9/k (datetime64[us]: 1000 times).", "quantifier": "all frame trees and programs that build them, all paths, references, representations and options; all arrays, axes and dimensions; all tick lengths", "why_tests_cant": "tests check one motion for one dtype; that no other step (matching, resampling, the estimators, the sums of the velocity transforms) depends on the unit needs every path and option", "anchors": ["rigid_body_motion/core.py:_estimate_linear_velocity", "rigid_body_motion/core.py:_estimate_angular_velocity", "rigid_body_motion/core.py:TransformMatcher", "rigid_body_motion/reference_frames.py:ReferenceFrame.lookup_twist", "rigid_body_motion/reference_frames.py:ReferenceFrame.lookup_linear_velocity", "rigid_body_motion/reference_frames.py:ReferenceFrame.lookup_angular_velocity", "rigid_body_motion/estimators.py:estimate_linear_velocity", "rigid_body_motion/estimators.py:estimate_angular_velocity"]}
{"id": "C90", "title": "How frames are attached is bookkeeping", "statement": "Two trees that describe the same bodies give the same results. (1) If a frame has a fixed pose in its parent, leaving it out and attaching what it carried directly to its parent with the composed poses changes no result between the remaining frames: lookup_transform, transform_points, transform_vectors, transform_quaternions, lookup_twist, lookup_linear_velocity, lookup_angular_velocity, transform_linear_velocity and transform_angular_velocity return the same values, timestamps and errors for every array and option. (2) If other coordinates are chosen in a common ancestor (every frame attached to it is moved by the same rigid motion), nothing changes between frames below it, and lookups into the ancestor change by exactly that motion.", "quantifier": "all reachable trees, all frames, paths with static, continuous and discrete frames, all arrays, axes, timestamps and options, all fixed poses and rigid motions", "why_tests_cant": "tests build each tree one way; that two different trees agree needs every tree, path and array", "anchors": ["rigid_body_motion/reference_frames.py:ReferenceFrame._walk", "rigid_body_motion/reference_frames.py:ReferenceFrame.lookup_transform", "rigid_body_motion/reference_frames.py:ReferenceFrame.transform_points", "rigid_body_motion/reference_frames.py:ReferenceFrame.lookup_twist", "rigid_body_motion/core.py:TransformMatcher"]}
{"id": "C91", "title": "Recordings need two samples, events one", "statement": "A continuous frame with a single timestamp is never silently interpolated: every lookup_transform, transform_points, transform_vectors and transform_quaternions along a path that contains it raises, returns NaN, or returns a result with no timestamps at all (no overlap), and it always fails if all other frames of the path are static, discrete or sampled at the same time. The same holds for a timestamped array with a single sample along any path, even between static frames and from a frame to itself. A discrete frame with one event works: the lookup into its parent gives its pose at the time of the event. lookup_linear_velocity and lookup_twist raise whenever the lookup has fewer than two timestamps.", "quantifier": "all reachable trees, all paths, arrays, axes and options; all interpolation functions", "why_tests_cant": "tests use recordings with many samples; that no path and option hides the division 0/0 of a single sample needs every path", "anchors": ["rigid_body_motion/core.py:TransformMatcher._transform_from_frame", "rigid_body_motion/core.py:TransformMatcher._resample_array", "rigid_body_motion/core.py:TransformMatcher.get_timestamps", "rigid_body_motion/core.py:_estimate_linear_velocity", "rigid_body_motion/reference_frames.py:ReferenceFrame.transform_points"]}
{"id": "C92", "title": "Broadcaster threads may interleave in any way", "statement": "However the threads of a broadcaster with timestamps interleave (several spins, calls of publish and incoming messages at once, down to single reads and writes of its attributes), each thread sends the messages of complete samples, transform, pose and twist of the same index together and in order, and no loop ever fails. If spin is called once, the loop sends the samples 0, 1, ..., n-1, 0, ... and sleeps the difference of the timestamps between them, whatever other threads publish; without stop and shutdown it sends at least one sample per 12 of its own steps. After stop (once all loops have begun) or shutdown, each loop sends at most one more sample and ends within 14 of its own steps. publish(k), k != 0, sends exactly the sample k in 5 steps, and each incoming message of the followed frame is answered with the nearest sample. Two loops at once share the index and skip samples. The simpler model of C50, C59, C63 and C73, with uninterrupted calls, is contained in this one.", "quantifier": "all broadcasters with timestamps (datetime64 for the answers to incoming messages), all schedules of any number of threads, all calls and messages at any point", "why_tests_cant": "a race needs the unlucky schedule; tests see one schedule per run", "anchors": ["rigid_body_motion/ros/transformer.py:ReferenceFrameTransformBroadcaster.publish", "rigid_body_motion/ros/transformer.py:ReferenceFrameTransformBroadcaster._spin_blocking", "rigid_body_motion/ros/transformer.py:ReferenceFrameTransformBroadcaster.handle_incoming_msg", "rigid_body_motion/ros/transformer.py:ReferenceFrameTransformBroadcaster.stop"]}
{"id": "C93", "title": "Marker publishers under any interleaving", "statement": "However the threads of a marker publisher interleave (several loops, calls of publish, changes of the marker between any two accesses to its attributes): every message is the value the marker has at the moment it is sent, never an older one. After the marker is set to a value it did not have before and then left alone, a running loop (6 steps, then one of every other thread) or a single call of publish (3 steps, then one of every thread) makes that value the last published one. A value that returns is different: a marker changed from a to b and back to a while publish is running can leave b as the last message for good, because a counts as sent. If calls do not overlap, there are at most as many messages as the marker had values. stop (once the loops have begun) and shutdown end every loop within 7 of its steps and after at most one more message. The simpler model of C51 and C59, with uninterrupted calls, is contained in this one.", "quantifier": "all serializations, markers, schedules of any number of threads, changes and calls at any point", "why_tests_cant": "whether a change is lost depends on the schedule between two statements of publish", "anchors": ["rigid_body_motion/ros/visualization.py:BaseMarkerPublisher.publish", "rigid_body_motion/ros/visualization.py:BaseMarkerPublisher._spin_blocking", "rigid_body_motion/ros/visualization.py:BaseMarkerPublisher.spin", "rigid_body_motion/ros/visualization.py:BaseMarkerPublisher.stop"]}
{"id": "C94", "title": "Velocity transforms act on stacks of series column by column", "statement": "Transforming an array of shape (n, m, 3), m series of velocities at the same timestamps, with transform_angular_velocity or transform_linear_velocity gives for every series the result of transforming it alone. This holds for transform_vectors and what='representation_frame', and, for arrays of any shape (…, 3) without timestamps, between static frames. It is false otherwise: with K resulting samples, K ≠ 1, a stack with m ≠ K raises ValueError (even between static frames, if timestamps are given), a stack with m = K succeeds but column j gets in every row the velocity of the frame at the time of row j, and transform_linear_velocity returns a stack of one series with shape (K, K, 3).", "quantifier": "every reachable tree, path, stack (any n, m), timestamps, velocity of the frame", "why_tests_cant": "the coincidence m = K silently gives wrong numbers; a test has to hit that shape with a frame whose velocity changes, and no finite set of shapes shows that all others fail or work", "anchors": ["rigid_body_motion/reference_frames.py:ReferenceFrame.transform_angular_velocity", "rigid_body_motion/reference_frames.py:ReferenceFrame.transform_linear_velocity", "rigid_body_motion/reference_frames.py:ReferenceFrame._match_arrays"]}
{"id": "C95", "title": "Repeated timestamps of a moving frame", "statement": "A non-discrete frame whose timestamps are in order but not all different is accepted. Unless its first two timestamps are equal, looking up its transformation to the parent returns one row per sample, at the given timestamps, and every row has the position of the first sample with the same timestamp; the other samples are lost without notice. If the first two timestamps are equal the result is not finite.", "quantifier": "all reachable states, frames with any number of samples and any positions of repeated timestamps", "why_tests_cant": "Repetitions can occur anywhere in series of any length; tests use strictly increasing timestamps.", "anchors": ["rigid_body_motion/core.py:TransformMatcher._check_timestamps", "rigid_body_motion/core.py:TransformMatcher._transform_from_frame", "rigid_body_motion/reference_frames.py:ReferenceFrame.lookup_transform"]}
{"id": "C96", "title": "A missing (NaN) coordinate costs the vector and, in a timestamped array, the next one", "statement": "transform_vectors and transform_points of a numpy array with missing (NaN) coordinates succeed and have the usual shape and timestamps. For an array without timestamps along a path of static frames, a vector with a missing coordinate comes back with all three coordinates missing and every other vector is transformed exactly as if nothing were missing. For a timestamped array, the result at the timestamp of sample k is missing (in all three coordinates) if sample k or the sample before it (for the first sample: the second one) has a missing coordinate, even if that neighbour lies outside the range of the frames and does not appear in the result; every other result is sample k transformed at its own timestamp. For arrays without missing entries the two functions behave as stated in the other properties.", "quantifier": "every reachable frame tree, every pair of frames whose path has good frames, every array shape, time axis, spatial axis and strictly increasing timestamps as in C15 (timestamped arrays whose last axis does not have length four), every pattern of missing entries", "why_tests_cant": "A test has a few patterns of gaps; the extent of the damage must hold for every array, path and position of a gap, also for gaps outside the covered range.", "anchors": ["rigid_body_motion/reference_frames.py:ReferenceFrame.transform_vectors", "rigid_body_motion/reference_frames.py:ReferenceFrame.transform_points", "rigid_body_motion/core.py:TransformMatcher._resample_array", "rigid_body_motion/utils.py:rotate_vectors"]}
{"id": "C97", "title": "A sample influences results only near its time", "statement": "If frames on the path are recorded again with the same timestamps, lookup_transform returns the same timestamps, and it returns the same transformation for every time near which the recordings agree: positions of a continuous frame matter up to the neighbouring samples, orientations up to the second neighbours, at a sample time only the sample itself, and of a discrete frame only the event in force. In particular one wrong position of a continuous frame has no effect at or beyond the neighbouring samples, one wrong orientation none at or beyond the second neighbours or at other sample times. The same holds for the rows of transform_vectors, transform_points and transform_quaternions of timestamped arrays, which in addition depend on the sample of the array at that time only.", "quantifier": "all trees with well-formed frames, all pairs of frames, all recordings with the same timestamps, all times, all timestamped arrays", "why_tests_cant": "a test compares a few recordings; the locality must hold for every sample of every frame on the path and every other recording", "anchors": ["rigid_body_motion/reference_frames.py: ReferenceFrame.lookup_transform, transform_vectors, transform_points, transform_quaternions", "rigid_body_motion/core.py: TransformMatcher.get_transformation, _transform_from_frame"]}
{"id": "C98", "title": "Missing poses never turn into wrong transformations", "statement": "If recorded poses of frames on the path have missing (NaN) entries, lookup_transform still returns, with the same timestamps as if nothing were missing, and every number it returns is the one that it would return with the missing entries filled in, whatever they were; an entry of the result that depends on a missing entry is NaN. A transformation returned without NaN for a time is therefore the transformation between the frames at that time. If nothing is missing near a time (for a discrete frame in the event in force, for a continuous frame in the neighbouring positions and in the orientations up to two samples away), the transformation returned for that time has no NaN. If a frame on the path has no pose at all, the call raises.", "quantifier": "all trees, all pairs of frames, all recordings with missing entries, all ways to fill them in with unit orientations, all times", "why_tests_cant": "a test checks a few gaps; the statement ranges over all patterns of gaps in all frames on the path and all values that may be missing", "anchors": ["rigid_body_motion/reference_frames.py: ReferenceFrame.lookup_transform, _get_matcher", "rigid_body_motion/core.py: TransformMatcher.get_transformation, get_timestamps, _transform_from_frame, _check_timestamps", "rigid_body_motion/utils.py: rotate_vectors"]}
{"id": "C99", "title": "estimated linear velocities are difference quotients of the neighbouring samples", "statement": "For positions recorded at two or more strictly increasing timestamps, in a plain or labelled array of any shape with any time axis, estimate_linear_velocity without outlier removal and filtering gives, at the first and last sample, the mean velocity of the adjacent interval and, at every other sample, the mean of the mean velocities of the two adjacent intervals with the shorter interval weighted more. Hence every estimate lies between the mean velocities of the intervals beside it, depends only on the sample and its two neighbours, and the velocity of a combination of two motions is the same combination of their velocities (so adding a uniform motion adds its velocity). Every sample of lookup_linear_velocity is the difference quotient of the looked-up positions, rotated to the representation frame; if the frame never moves by more than V times the elapsed time between two successive looked-up positions, no sample is faster than V, in whatever frame it is represented.", "quantifier": "all positions, array shapes, time axes and strictly increasing (not only uniform) timestamps; all reachable registries, reference and representation frames of lookup_linear_velocity", "why_tests_cant": "The weights of a non-uniform difference quotient agree with the plain central difference on every uniformly sampled recording, which is what tests use; that no estimate overshoots and that distant samples have no influence are statements about all recordings.", "anchors": ["rigid_body_motion/core.py: _estimate_linear_velocity", "rigid_body_motion/estimators.py: estimate_linear_velocity", "rigid_body_motion/reference_frames.py: ReferenceFrame.lookup_linear_velocity"]}
{"id": "C100", "title": "Errors of recorded poses add up along the path and are not amplified", "statement": "Take two sets of recordings of the same frames (same tree, same timestamps) whose positions differ by at most ε_i in frame i and whose orientations differ so little that a vector of length one ends up at most η_i apart (for unit quaternions η_i is at most twice their distance). Then lookup_transform returns results for the same times; the orientations differ by at most the sum of the η_i of the frames on the path, and a point is mapped to positions at most the sum of ε_i + η_i·R_i apart, where R_i bounds the distance of the point from the origin of frame i (needed only for frames with η_i ≠ 0). With errors in positions only, looked-up positions differ by at most the sum of the ε_i and rotations are equal. transform_points adds the error of the transformed point itself and nothing else; transform_vectors is not affected by errors in positions. Interpolated positions between samples have no larger error than the samples; interpolated orientations are covered at sample times, or where only positions differ.", "quantifier": "all reachable registries, paths, poses, errors, query points, array shapes and timestamps", "why_tests_cant": "That no path, interpolation or order of multiplications amplifies a small error is a statement about all trees and all pairs of recordings; a test compares finitely many.", "anchors": ["rigid_body_motion/reference_frames.py: ReferenceFrame.lookup_transform, transform_points, transform_vectors", "rigid_body_motion/core.py: TransformMatcher, _transform"]}
{"id": "C101", "title": "Missing entries never turn into wrong numbers in transformed arrays", "statement": "Transform an array of vectors, points or orientations, some of whose entries are missing (NaN), between two frames whose recorded poses also have missing entries. The call returns with the same shape and timestamps as for complete data, and every number in the result is the number that the same call returns for every complete array and tree that agree with the known entries; a number that depends on a missing one is reported as missing. If nothing is missing in the array and in the recordings on the route, nothing is missing in the result; and a vector, point or orientation of the result at one time is complete as soon as nothing is missing near that time, in the samples of that vector next to it (of an orientation: up to two samples away) and likewise in the recordings on the route. If a frame on the path has no pose at all, the call raises.", "quantifier": "every reachable tree, pair of frames whose path has valid poses, every pattern of missing entries in the recordings and in the array, every completion of both, every axis / time_axis / timestamps argument for which the complete call succeeds", "why_tests_cant": "the pattern of missing entries and their completions are unbounded; a test fixes one pattern", "anchors": ["rigid_body_motion/reference_frames.py: transform_vectors, transform_points, transform_quaternions, _validate_input, _expand_singleton_axes", "rigid_body_motion/core.py: FrameMatcher._resample_array, get_transformation, get_arrays", "rigid_body_motion/utils.py: rotate_vectors"]}
{"id": "C102", "title": "Playing a moving frame shows the samples at the slider positions", "statement": "The playback widget of a broadcaster (play_publisher without timestamps) has one position per sample, starts at the first one, and its interval is the mean sampling time divided by speed. Whatever the user does with it, no call of publish fails, and what is sent are the transforms (and poses and twists) of the samples at the positions of the slider, once per change, with their own timestamps. The forward button goes skip (or step) samples ahead, at most to the last one. With other timestamps given, positions behind the last sample send nothing. Static frames have no widget. (If the loop of the broadcaster has moved it, position 0 shows the wrong sample.)", "quantifier": "all moving frames with at least two samples that their own loop has not moved, all histories of button presses and slider movements, all steps, speeds and skips", "why_tests_cant": "Unbounded histories of user interaction, any number of samples.", "anchors": ["rigid_body_motion/ros/utils.py:play_publisher", "rigid_body_motion/ros/transformer.py:ReferenceFrameTransformBroadcaster.publish"]}
