{"id": "C01", "title": "Cell -> point -> cell round trip", "statement": "Converting a cell to the point at its centre and converting that point back, with the same offset and resolution, returns the original cell (in f32 arithmetic, in the working range where cell and offset are small against 2^24 cells).", "quantifier": "all cells, offsets and positive resolutions in the f32 working range, any dimension", "why_tests_cant": "Tests sample 200 cells at one resolution; rounding error depends on every magnitude involved.", "anchors": ["src/geom/converter.rs:point_from_cell", "src/geom/converter.rs:cell_from_point", "src/map/grid_map.rs:GridMap::point_from_cell", "src/map/grid_map.rs:GridMap::cell_from_point"]}
{"id": "C02", "title": "Point -> cell -> point stays within half a cell", "statement": "The centre of the cell reported for a point is at distance at most half the resolution from the point in every coordinate, up to an explicit f32 rounding slack.", "quantifier": "all points, offsets and positive resolutions in the f32 working range", "why_tests_cant": "Every real position inside every cell must be covered, including positions next to borders.", "anchors": ["src/geom/converter.rs:cell_coord_from_point_coord", "src/geom/converter.rs:point_coord_from_cell_coord"]}
{"id": "C03", "title": "Cell lookup is monotone", "statement": "Moving a point up along an axis never moves its cell down along that axis, in real f32 arithmetic including rounding, saturation and infinities.", "quantifier": "all pairs of comparable f32 coordinates, all finite offsets, all positive finite resolutions", "why_tests_cant": "2^64 coordinate pairs per resolution.", "anchors": ["src/geom/converter.rs:cell_coord_from_point_coord"]}
{"id": "C04", "title": "Boundary points belong to the higher cell", "statement": "A point lying exactly on the boundary between two cells is assigned the higher cell (the documented contract of cell_from_point).", "quantifier": "all points exactly half way between two cell centres", "why_tests_cant": "The tests never place a point on a boundary.", "anchors": ["src/geom/converter.rs:cell_from_point", "src/map/grid_map.rs:GridMap::cell_from_point"]}
{"id": "C05", "title": "Per-axis resolution conversions agree with the scalar ones", "statement": "cell_from_point_n / point_from_cell_n / from_cell_bounds_n / from_size_cells_n with the same resolution on every axis return exactly what the scalar versions return, and in general treat each axis as the scalar version with that axis's resolution.", "quantifier": "all points, cells, offsets, resolutions, any scalar arithmetic", "why_tests_cant": "Two code paths must agree on every input.", "anchors": ["src/geom/converter.rs:point_from_cell_n", "src/geom/converter.rs:cell_from_point_n", "src/geom/bounds.rs:from_cell_bounds_n", "src/geom/bounds.rs:from_size_cells_n"]}
{"id": "C06", "title": "Tile rounding of cell bounds is the smallest enclosing tile box", "statement": "CellBounds::discretized returns bounds that contain the original, whose corners are multiples of the tile size, and no other box with multiple-of-tile corners containing the original is smaller.", "quantifier": "all cell bounds, all tile sizes >= 1 (values away from the isize limits)", "why_tests_cant": "Sign cases and remainders range over all integers.", "anchors": ["src/geom/cell_bounds.rs:CellBounds::discretized"]}
{"id": "C07", "title": "Tile rounding is idempotent and rejects tile size 0", "statement": "Discretizing already discretized cell bounds changes nothing; a tile size of 0 panics instead of returning bounds.", "quantifier": "all cell bounds and tile sizes", "why_tests_cant": "All integers.", "anchors": ["src/geom/cell_bounds.rs:CellBounds::discretized"]}
{"id": "C08", "title": "Bounds <-> cell bounds round trip and size", "statement": "CellBounds::from_bounds(Bounds::from_cell_bounds(cb, r), r) = cb, and Bounds::from_size_cells(size, r, offset) spans exactly `size` cells starting at `offset`.", "quantifier": "all cell bounds in the f32 working range, all resolutions", "why_tests_cant": "f32 rounding at every magnitude.", "anchors": ["src/geom/cell_bounds.rs:CellBounds::from_bounds", "src/geom/bounds.rs:Bounds::from_cell_bounds", "src/geom/bounds.rs:Bounds::from_size_cells"]}
{"id": "C09", "title": "Bounds constructors accept exactly the ordered boxes", "statement": "Bounds::new and CellBounds::new return the given corners unchanged if min <= max in every coordinate and panic otherwise (NaN included).", "quantifier": "all corner pairs", "why_tests_cant": "All float pairs incl. NaN, infinities, signed zeros.", "anchors": ["src/geom/bounds.rs:Bounds::new", "src/geom/cell_bounds.rs:CellBounds::new"]}
{"id": "C10", "title": "enclosing is the least box containing both", "statement": "a.enclosing(b) contains every point of a and of b and is contained in every box that does; if a is the empty bounds, the result is b.", "quantifier": "all pairs of NaN-free bounds", "why_tests_cant": "All float corner combinations.", "anchors": ["src/geom/bounds.rs:Bounds::enclosing"]}
{"id": "C11", "title": "overlapping is the intersection", "statement": "a.overlapping(b) is contained in both unless it is the empty bounds, does not depend on the order of a and b, contains every point common to both unless the intersection is (relatively) degenerate along some axis, in which case it is the empty bounds.", "quantifier": "all pairs of finite bounds", "why_tests_cant": "All float corner combinations.", "anchors": ["src/geom/bounds.rs:Bounds::overlapping"]}
{"id": "C12", "title": "Rounding bounds to the grid never loses area", "statement": "Bounds::discretized(resolution, expand) contains the original bounds, exactly, in f32 arithmetic, and does not panic on ordered finite bounds. In the working range every corner is on the grid up to the f32 tolerance and moved outwards by at most one cell; with expand the upper corner lies strictly below its grid line.", "quantifier": "all finite ordered bounds, all positive finite resolutions, both values of expand", "why_tests_cant": "Needs monotone rounding over all floats.", "anchors": ["src/geom/bounds.rs:Bounds::discretized"]}
{"id": "C13", "title": "Point cloud construction is lossless", "statement": "from_points followed by points_iter yields the same points in the same order, and num_points is their number.", "quantifier": "all finite lists of points, any dimension", "why_tests_cant": "All lengths.", "anchors": ["src/geom/point_cloud.rs:from_points", "src/geom/point_cloud.rs:points_iter", "src/geom/point_cloud.rs:num_points"]}
{"id": "C14", "title": "Cloud bounds are the least box containing the origin and all points", "statement": "bounds() contains every non-NaN point and the coordinate origin, and is the least such box; it is ordered (min <= max).", "quantifier": "all point clouds", "why_tests_cant": "All lengths and all float values.", "anchors": ["src/geom/point_cloud.rs:bounds"]}
{"id": "C15", "title": "Transform acts point by point and is an affine map", "statement": "transform keeps number and order of points, each output point depends only on its input point and the matrix; in exact arithmetic it is the affine map of the matrix, composing as matrices do, with the identity matrix as identity.", "quantifier": "all clouds and all matrices", "why_tests_cant": "All lengths and values.", "anchors": ["src/geom/point_cloud.rs:transform"]}
{"id": "C16", "title": "A ray inside one cell reports only that cell", "statement": "If origin and end fall in the same cell, cast_ray returns no ray cells and that cell as end cell, whatever max_len is.", "quantifier": "all points, bounds, resolutions, any scalar arithmetic", "why_tests_cant": "All positions.", "anchors": ["src/ray_caster.rs:cast_ray"]}
{"id": "C17", "title": "A ray is a connected path from the origin cell", "statement": "Whenever cast_ray returns a non-empty ray, its first cell is the origin's cell and every two consecutive cells differ by exactly one step along exactly one axis; the reported end cell, if any, is one such step from the last ray cell.", "quantifier": "all inputs for which cast_ray returns, including NaN and infinite ones", "why_tests_cant": "All rays of all lengths.", "anchors": ["src/ray_caster.rs:cast_ray"]}
{"id": "C18", "title": "The end cell is never among the free ray cells", "statement": "cast_ray never lists the cell of the end point among the ray cells, never lists a cell twice, and the second component is either the cell of the end point or None.", "quantifier": "all inputs for which cast_ray returns", "why_tests_cant": "All rays.", "anchors": ["src/ray_caster.rs:cast_ray"]}
{"id": "C19", "title": "A completed ray is a shortest grid path", "statement": "If cast_ray reports the end cell, then the number of ray cells equals the Manhattan distance between origin and end cell, and all ray cells lie in the box spanned by the two cells. Any ray, completed or not, never turns back: of two of its cells the earlier lies in the box spanned by the origin cell and the later.", "quantifier": "all inputs for which cast_ray returns Some", "why_tests_cant": "All rays, all arithmetic.", "anchors": ["src/ray_caster.rs:cast_ray"]}
{"id": "C20", "title": "The range limit is respected", "statement": "With max_len > 0 every ray cell except the origin's cell has its centre at (f32-computed) distance at most max_len from the origin; None is returned only with max_len > 0 and only because the next cell of the path lies beyond max_len.", "quantifier": "all inputs for which cast_ray returns", "why_tests_cant": "All rays.", "anchors": ["src/ray_caster.rs:cast_ray"]}
{"id": "C21", "title": "Without a range limit rays are never truncated", "statement": "With max_len <= 0 (or NaN), if cast_ray returns it reports the end cell.", "quantifier": "all inputs for which cast_ray returns", "why_tests_cant": "All rays.", "anchors": ["src/ray_caster.rs:cast_ray"]}
{"id": "C22", "title": "cast_ray returns", "statement": "cast_ray terminates for every finite origin and end (with a positive range limit at least).", "quantifier": "all finite origins, ends, resolutions > 0, limits", "why_tests_cant": "Termination cannot be tested; depends on f32 rounding of every step.", "anchors": ["src/ray_caster.rs:cast_ray"]}
{"id": "C23", "title": "In exact arithmetic the ray visits exactly the cells the segment crosses", "statement": "With exact real arithmetic, no range limit and an end point not on a cell border, cast_ray returns the end cell and the ray cells are cells whose closed box meets the segment, in order of traversal, and they cover the segment.", "quantifier": "all real origins and ends (end off the borders), all resolutions > 0, 2D and 3D", "why_tests_cant": "Infinitely many segments.", "anchors": ["src/ray_caster.rs:cast_ray"]}
{"id": "C24", "title": "In f32 arithmetic rays whose end is clear of cell borders reach their end cell", "statement": "In f32 arithmetic, in a stated working range, if the end point keeps an explicit margin from the borders of its cell then cast_ray with sufficient range returns the end cell.", "quantifier": "all f32 origins and ends in the working range with the margin", "why_tests_cant": "Accumulated rounding over all rays.", "anchors": ["src/ray_caster.rs:cast_ray"]}
{"id": "C25", "title": "Axis-aligned rays are exact in f32", "statement": "If origin and end differ along one axis only, cast_ray without range limit returns, in f32 arithmetic, exactly the straight run of cells between them.", "quantifier": "all f32 axis-aligned rays in the working range", "why_tests_cant": "All lengths and offsets.", "anchors": ["src/ray_caster.rs:cast_ray"]}
{"id": "C26", "title": "Non-finite points do not hang or derail the caster", "statement": "cast_ray on an end point with an infinite or NaN coordinate returns without reporting cells far from the ray.", "quantifier": "all points with a non-finite coordinate", "why_tests_cant": "Tests use only finite points; divergence is unobservable in a test.", "anchors": ["src/ray_caster.rs:cast_ray"]}
{"id": "C27", "title": "No cell is reported both free and occupied", "statement": "The two sets returned by cast_rays are disjoint.", "quantifier": "all clouds, origins, bounds, resolutions, limits", "why_tests_cant": "All clouds.", "anchors": ["src/ray_caster.rs:cast_rays"]}
{"id": "C28", "title": "cast_rays is exactly the union of its rays", "statement": "The occupied set is exactly the set of end cells of the untruncated rays; the free set is exactly the set of cells on some ray that are not occupied.", "quantifier": "all clouds for which cast_rays returns", "why_tests_cant": "All clouds.", "anchors": ["src/ray_caster.rs:cast_rays"]}
{"id": "C29", "title": "Point order and repetition are irrelevant to cast_rays", "statement": "Permuting or repeating points of the cloud does not change the two sets.", "quantifier": "all clouds, all permutations", "why_tests_cant": "n! orders.", "anchors": ["src/ray_caster.rs:cast_rays"]}
{"id": "C30", "title": "A fresh map holds the default everywhere", "statement": "GridMapN::new(resolution, bounds, tile, v) either panics or yields a map in which every cell inside the grid reads v and every other cell panics; default() is an empty map. from_ndarray takes resolution, bounds and tile size as given, records no changes and has recording off; exactly the cells of the array can be read, and they read the array's elements, row by row.", "quantifier": "all resolutions, bounds, tiles, values", "why_tests_cant": "All shapes.", "anchors": ["src/map/grid_map.rs:GridMapN::new", "src/map/grid_map.rs:from_ndarray", "src/map/grid_map.rs:ndarray_with_bounds", "src/map/grid_map.rs:GridMapN::default"]}
{"id": "C31", "title": "get/set behave like an array with no aliasing", "statement": "After set(c, v), get(c) = v, and get of every other cell is unchanged; get/set on a cell outside the grid (negative coordinates included) panic, and never touch another cell.", "quantifier": "all maps, cells, values", "why_tests_cant": "All shapes and all index pairs; negative cells are reinterpreted as huge unsigned indices.", "anchors": ["src/map/grid_map.rs:get", "src/map/grid_map.rs:set", "src/geom/cell.rs:to_ndindex"]}
{"id": "C32", "title": "expand_bounds keeps every stored value at its world position", "statement": "After expand_bounds every value stored before is found at the same world cell (its index shifts by the difference of the minimum corners) and no value is lost.", "quantifier": "all maps reachable from an empty or cell-aligned map, all requested bounds in the f32 working range, any number of expansions", "why_tests_cant": "All histories of expansions.", "anchors": ["src/map/grid_map.rs:expand_bounds"]}
{"id": "C33", "title": "expand_bounds fills new cells with the default", "statement": "Every cell of the expanded map that was not in the old map reads the default value given.", "quantifier": "same as C32", "why_tests_cant": "All shapes.", "anchors": ["src/map/grid_map.rs:expand_bounds"]}
{"id": "C34", "title": "expand_bounds covers the old and the requested bounds and never shrinks", "statement": "The new cell bounds are multiples of the tile size and contain the old cell bounds and the cells of the requested bounds. They are the least such box, and no larger than needed: a tile line that bounds the old map and, with two cells to spare, the request also bounds the new map.", "quantifier": "all reachable maps and requested bounds in the working range", "why_tests_cant": "All requests.", "anchors": ["src/map/grid_map.rs:expand_bounds"]}
{"id": "C35", "title": "expand_bounds is idempotent", "statement": "Expanding twice by the same bounds is the same as expanding once; expanding by bounds already covered changes nothing.", "quantifier": "all reachable maps and requested bounds in the working range", "why_tests_cant": "All requests.", "anchors": ["src/map/grid_map.rs:expand_bounds"]}
{"id": "C36", "title": "expand_bounds touches nothing but grid and bounds", "statement": "Resolution, tile size, the tracking flag and the recorded changed cells are unchanged by expand_bounds, get, set.", "quantifier": "all maps", "why_tests_cant": "All states.", "anchors": ["src/map/grid_map.rs:expand_bounds", "src/map/grid_map.rs:changed_cells"]}
{"id": "C37", "title": "Stored log-odds never leave the configured range", "statement": "If every cell is in [min, max] log-odds, min <= 0 <= max and hit >= 0 >= miss, then after any sequence of point cloud integrations every cell is in [min, max] and is not NaN, in f32 arithmetic.", "quantifier": "all histories of integrations, all f32 values incl. infinities", "why_tests_cant": "All histories.", "anchors": ["src/map/lidar_noise_model.rs:integrate_hit", "src/map/lidar_noise_model.rs:integrate_miss", "src/map/lidar_noise_model.rs:integrate_point_cloud"]}
{"id": "C38", "title": "Each integration updates each observed cell once and no other", "statement": "integrate_point_cloud applies one miss to every free cell, one hit to every occupied cell, and leaves every other cell as expand_bounds left it.", "quantifier": "all clouds, all maps", "why_tests_cant": "All clouds; overlapping rays.", "anchors": ["src/map/lidar_noise_model.rs:integrate_point_cloud"]}
{"id": "C39", "title": "Hash iteration order is irrelevant", "statement": "The map after integrate_point_cloud does not depend on the iteration order of the hash sets; the recorded changed cells depend on it only up to permutation.", "quantifier": "all iteration orders", "why_tests_cant": "HashSet order is randomised per process.", "anchors": ["src/map/lidar_noise_model.rs:integrate_point_cloud"]}
{"id": "C40", "title": "Change tracking is complete and precise", "statement": "With tracking on, integrate_point_cloud appends each updated cell exactly once to changed_cells, so every cell whose value changed is listed; with tracking off it appends nothing; clear_changed_cells empties the list.", "quantifier": "all maps and clouds", "why_tests_cant": "All histories.", "anchors": ["src/map/lidar_noise_model.rs:integrate_point_cloud", "src/map/grid_map.rs:add_changed_cells", "src/map/grid_map.rs:clear_changed_cells"]}
{"id": "C41", "title": "The map is the fold of the observations of each world cell", "statement": "After any sequence of integrations into an initially empty map, the value of a world cell is the result of applying, in order, one clamped hit or miss for each cloud that observed that cell, starting from the default value.", "quantifier": "all sequences of clouds in the working range for which no call panics", "why_tests_cant": "All histories, with arbitrary expansions between.", "anchors": ["src/map/occupancy_grid_map.rs:integrate_point_cloud", "src/map/lidar_noise_model.rs:integrate_point_cloud", "src/map/grid_map.rs:expand_bounds"]}
{"id": "C42", "title": "Hits make a cell occupied, misses make it free", "statement": "A hit never turns an occupied cell free and a miss never turns a free cell occupied; with the default model, from any in-range value, 7 consecutive hits reach the maximum and 14 consecutive misses reach the minimum.", "quantifier": "all in-range f32 values", "why_tests_cant": "All floats in range.", "anchors": ["src/map/lidar_noise_model.rs:integrate_hit", "src/map/lidar_noise_model.rs:integrate_miss", "src/map/lidar_noise_model.rs:occupied"]}
{"id": "C43", "title": "occupied is the threshold test", "statement": "occupied(c) holds exactly if the stored value exceeds the threshold log-odds; unknown cells are not occupied with the default threshold.", "quantifier": "all maps, cells", "why_tests_cant": "All values incl. NaN.", "anchors": ["src/map/lidar_noise_model.rs:occupied", "src/map/occupancy_grid_map.rs:occupied"]}
{"id": "C44", "title": "Integrating an in-range cloud does not panic", "statement": "integrate_point_cloud on a cloud of finite points in the working range, sensor inside the map, does not panic.", "quantifier": "all finite clouds in the working range", "why_tests_cant": "All positions relative to tile borders.", "anchors": ["src/map/lidar_noise_model.rs:integrate_point_cloud", "src/map/grid_map.rs:expand_bounds", "src/geom/bounds.rs:discretized"]}
{"id": "C45", "title": "Noise model parameters are validated", "statement": "LidarNoiseModel::new panics if and only if one of the five probabilities is outside [0, 1] or NaN; otherwise it stores their log-odds and max_range unchanged.", "quantifier": "all parameter tuples", "why_tests_cant": "All floats.", "anchors": ["src/map/lidar_noise_model.rs:LidarNoiseModel::new"]}
{"id": "C46", "title": "Log-odds conversion is monotone and invertible", "statement": "In exact arithmetic probability_from_logodds inverts logodds_from_probability on (0,1) and vice versa, and both are strictly increasing; in f32 both are monotone given monotone ln/exp, and the probability lies in [0,1].", "quantifier": "all probabilities and log-odds", "why_tests_cant": "All reals / all floats.", "anchors": ["src/math.rs:logodds_from_probability", "src/math.rs:probability_from_logodds"]}
{"id": "C47", "title": "signum is the sign", "statement": "f32_signum is 0 exactly on zeros, 1 exactly on positive values and -1 otherwise; it is odd on all non-NaN values; on vectors it acts per coordinate.", "quantifier": "all f32 values", "why_tests_cant": "All floats incl. NaN and signed zeros.", "anchors": ["src/math.rs:f32_signum", "src/geom/vector.rs:signum"]}
{"id": "C48", "title": "The KITTI point reader is exact", "statement": "read succeeds exactly if the byte count is a multiple of 16; it then returns one point per 16 bytes whose three coordinates are bit-for-bit the first three words of the record, in file order, intensity dropped.", "quantifier": "all byte strings", "why_tests_cant": "All lengths and contents.", "anchors": ["src/kitti/point_cloud_reader.rs:read"]}
{"id": "C49", "title": "Directory reading is independent of listing order and fails on the first bad file", "statement": "read_from_dir returns one cloud per entry in path order whatever order the OS lists entries in; if some file fails, the error of the first failing file in path order is returned.", "quantifier": "all directories, all listing orders", "why_tests_cant": "OS order is arbitrary.", "anchors": ["src/kitti/fs.rs:seq_files_in_dir", "src/kitti/point_cloud_reader.rs:read_from_dir"]}
{"id": "C50", "title": "The OXTS reader accepts exactly well-formed records", "statement": "read succeeds exactly if the text has at least six space-separated fields and the first six parse; further fields are ignored; the result depends only on those six and the origin.", "quantifier": "all texts", "why_tests_cant": "All strings.", "anchors": ["src/kitti/oxt_reader.rs:read"]}
{"id": "C51", "title": "Poses are relative to the first record", "statement": "read_from_dir gives the first pose translation zero and every other pose the offset of its GPS fix from the first file's fix; one pose per file in path order.", "quantifier": "all directories", "why_tests_cant": "All lengths.", "anchors": ["src/kitti/oxt_reader.rs:read_from_dir", "src/kitti/oxt_reader.rs:gps_to_meters"]}
{"id": "C52", "title": "The visualizer never deadlocks and never runs two integrations at once", "statement": "For every interleaving of the render thread and the worker threads, at most one worker has not ended, only one thread at a time is between taking and releasing the map, and no reachable state is a deadlock as long as no thread has panicked and no integration runs on for ever. Once a worker has panicked nothing is integrated or drawn any more.", "quantifier": "all schedules, any number of frames", "why_tests_cant": "Lock order is inverted between the threads; interleavings cannot be enumerated by tests.", "anchors": ["viz/src/bin/draw_occupancy_grid.rs:integrate_next_pointcloud"]}
{"id": "C53", "title": "No change notification is lost between worker and renderer", "statement": "Every cell recorded as changed by a finished integration is processed by the renderer exactly once before the next integration starts.", "quantifier": "all schedules", "why_tests_cant": "Interleavings.", "anchors": ["viz/src/bin/draw_occupancy_grid.rs:integrate_next_pointcloud", "viz/src/bin/draw_occupancy_grid.rs:GridUpdater"]}
{"id": "C54", "title": "The visualizer integrates clouds cyclically in order", "statement": "The k-th integration uses cloud and pose number k mod n; the index never leaves the range; an empty recording panics.", "quantifier": "all schedules, all n", "why_tests_cant": "Unbounded frames.", "anchors": ["viz/src/bin/draw_occupancy_grid.rs:integrate_next_pointcloud"]}
{"id": "C55", "title": "The renderer's tracked cells mirror the map", "statement": "After each processed batch, a cell is drawn exactly if the map reports it occupied, as long as the grid was not re-indexed by an expansion.", "quantifier": "all histories", "why_tests_cant": "Histories.", "anchors": ["viz/src/bin/draw_occupancy_grid.rs:integrate_next_pointcloud"]}
{"id": "C56", "title": "The range limit only cuts the ray", "statement": "If cast_ray without a range limit returns, then with a positive limit it returns the same ray cut before the first cell (after the origin's) whose centre is beyond the limit, and reports the end cell exactly if nothing was cut.", "quantifier": "all origins, ends, bounds, resolutions and limits", "why_tests_cant": "Compares two runs for all inputs.", "anchors": ["src/ray_caster.rs:cast_ray"]}
{"id": "C57", "title": "In f32 the cells of a ray follow the segment", "statement": "The cells of a ray that reaches its end, in order, are cells the segment from origin to end passes, up to a tolerance of (5 M + K^2 + 10 K + 23) / 2^24 cells: no cell is farther than that from the segment and no point of the segment farther than that from the cells. A ray cut by the range limit follows the half line.", "quantifier": "all f32 rays in the working range, M cells from the grid corner, K cells long", "why_tests_cant": "Accumulated rounding errors over all rays.", "anchors": ["src/ray_caster.rs:cast_ray"]}
{"id": "C58", "title": "A scan marks what it saw and nothing else", "statement": "After integrating a scan whose points keep clear of cell and tile borders and are within the range of the noise model: the map's cell of every point has got exactly one hit; every cell passed by a segment from sensor to point (farther than the f32 tolerance from its border) and holding no point has got exactly one miss; every cell farther than the tolerance from all segments is unchanged.", "quantifier": "all clear scans in the f32 working range, all placed maps, all hash orders", "why_tests_cant": "All scans and maps; the code is spread over five modules.", "anchors": ["src/map/lidar_noise_model.rs:integrate_point_cloud", "src/ray_caster.rs:cast_rays", "src/ray_caster.rs:cast_ray", "src/map/grid_map.rs:expand_bounds", "src/map/grid_map.rs:cell_from_point"]}
{"id": "C59", "title": "The pose of a recording acts as a rigid motion", "statement": "The matrix of a pose is: roll about x, then pitch about y, then yaw about z, then the translation. In exact arithmetic transforming a cloud by it keeps all distances and the orientation. In f32, with sin and cos accurate to 2^-22, every coordinate is finite and within (1000 L + S) / 2^24 of the exact motion for points up to L and translations up to S from the origin, and the sensor origin goes exactly to the translation.", "quantifier": "all angles, translations and clouds; f32: all finite ones up to 2^100", "why_tests_cant": "All angles; accumulated rounding.", "anchors": ["src/geom/pose.rs:Pose3", "src/geom/point_cloud.rs:transform", "src/kitti/oxt_reader.rs:read", "viz/src/bin/draw_occupancy_grid.rs:main", "viz/src/bin/draw_occupancy_grid.rs:draw_frame_marker"]}
{"id": "C60", "title": "The visualizer starts exactly on a complete folder, and pairs files by position", "statement": "The window opens exactly if every oxts file is a record, every velodyne file a sequence of points and there are as many of both; otherwise main panics (or ends, if the argument is no folder). Recording k has the k-th file of each subfolder in path order: position from the GPS offsets, points moved by the pose. Names are not compared. The marker drawn is at the pose of the next recording.", "quantifier": "all folders, all schedules", "why_tests_cant": "All folder contents and listing orders.", "anchors": ["viz/src/bin/draw_occupancy_grid.rs:main", "viz/src/bin/draw_occupancy_grid.rs:step"]}
{"id": "C61", "title": "The numbers in a cloud file are IEEE 754", "statement": "Decoding words to f32 reaches every f32 value, is one-to-one except for NaNs, and is increasing on words with the sign bit zero; the sign bit negates, also zeros and infinities; exactly the words above 0x7f800000 (without the sign bit) are NaN.", "quantifier": "all 32-bit words", "why_tests_cant": "2^32 words and all pairs of them.", "anchors": ["src/kitti/point_cloud_reader.rs:read"]}
{"id": "C62", "title": "The unused predecessor of expand_bounds copies every common cell", "statement": "For boxes of cells in the working range, _resized_ndarray2/3 return the array of the target box with the source's value at every world cell of both boxes and the default elsewhere, which is what expand_bounds does. The floating point errors its comment mentions are real outside the range: the copy panics or repeats cells.", "quantifier": "all boxes up to 2^19 cells from the origin, resolutions from 2^-20, in f32", "why_tests_cant": "All boxes and resolutions.", "anchors": ["src/map/grid_map.rs:_resized_ndarray2", "src/map/grid_map.rs:_resized_ndarray3"]}
{"id": "C63", "title": "Every client sees an abstract map", "statement": "For every sequence of calls of the trait GridMap, a grid map gives exactly the answers of an abstract map (a partial function on the cells of the grid, a flag and a list) and panics exactly on access to cells outside; the occupancy map gives the same answers as its grid map and keeps its noise model.", "quantifier": "all sequences of calls, all arguments, all maps", "why_tests_cant": "Unbounded sequences.", "anchors": ["src/map/grid_map.rs:GridMap", "src/map/occupancy_grid_map.rs:GridMap"]}
{"id": "C64", "title": "A scan is a set of points", "statement": "Integrating a cloud depends only on the set of its points: another order, repeated points and another hash order give the same data, bounds and flags, bit by bit, and the same recorded cells up to order. The bounds of the cloud are equal bit by bit.", "quantifier": "all clouds, maps and hash orders, all floats", "why_tests_cant": "All permutations and repetitions.", "anchors": ["src/map/lidar_noise_model.rs:integrate_point_cloud", "src/geom/point_cloud.rs:bounds", "src/ray_caster.rs:cast_rays"]}
{"id": "C65", "title": "Mirroring a scan mirrors its cells", "statement": "Reflecting sensor, points and grid corner in any coordinate planes reflects the cells of every ray, in order, and the free and occupied cells of the scan, bit-exactly in f32. It fails for NaN directions; exchanging axes is no symmetry, since ties go to the last axis.", "quantifier": "all rays without NaN direction and cells at the end of the machine integers, all reflections, all floats", "why_tests_cant": "Compares two runs for all inputs, with all rounding errors.", "anchors": ["src/ray_caster.rs:cast_ray", "src/ray_caster.rs:cast_rays", "src/math.rs:f32_signum"]}
{"id": "C66", "title": "Repeating a scan converges", "statement": "A scan that was integrated once can be integrated again and again, with any hash orders: it never panics and never grows the map. After as many repetitions as the noise model needs to go from one limit to the other (14 with the default model) every cell that the scan hits is at the maximum, every other cell passed by a ray at the minimum, all others as before, and further repetitions change no bit of the map.", "quantifier": "all maps and scans in the working range, all numbers of repetitions, all hash orders", "why_tests_cant": "Unbounded repetition, all maps and scans.", "anchors": ["src/map/lidar_noise_model.rs:integrate_point_cloud", "src/map/grid_map.rs:expand_bounds", "src/map/lidar_noise_model.rs:default"]}
{"id": "C67", "title": "The order of scans", "statement": "If the scans fit into the map (or have made it grow once), they can be integrated in every order without panic, and the result is the same bit by bit in every cell that does not have both hits and misses; bounds and size are independent of the order in any case. In a cell with hits and misses the order does matter (witness).", "quantifier": "all lists of scans, all their permutations, all hash orders, all maps", "why_tests_cant": "All permutations of unboundedly many scans.", "anchors": ["src/map/lidar_noise_model.rs:integrate_point_cloud", "src/map/grid_map.rs:expand_bounds"]}
{"id": "C68", "title": "The range limit in the world", "statement": "In f32, for rays in the working range: every free cell has its centre within the range limit, a cut ray would have gone on to a cell beyond it, a point nearer than the limit less two cells is reached, and a point that is reported is at most four cells beyond it, each up to an explicit rounding error (relative 2^-20, and 2 (5 M + 9) / 2^24 cells).", "quantifier": "all rays in the working range, 2 and 3 dimensions, all limits from 2^-60 to 2^60", "why_tests_cant": "Real distances against floats, for all inputs.", "anchors": ["src/ray_caster.rs:cast_ray", "src/ray_caster.rs:cast_rays"]}
{"id": "C69", "title": "From the folder to the map and the screen", "statement": "At every moment of every run of the visualizer, whatever the schedule, the value of every stored cell is what the recordings played so far, one after the other and over again, make of zero: scan number j has sensor position and points of file j mod n of the subfolders in path order. At most one started integration is outstanding, none when a batch has been processed. As long as no integration moves the lower corner of a map that has cells, a cell is then drawn exactly if that value is above the threshold.", "quantifier": "all folders, all schedules, all hash orders, any number of recordings and rounds", "why_tests_cant": "Unbounded runs, all interleavings, all files.", "anchors": ["viz/src/bin/draw_occupancy_grid.rs:main", "viz/src/bin/draw_occupancy_grid.rs:integrate_next_pointcloud", "src/map/lidar_noise_model.rs:integrate_point_cloud"]}
{"id": "C70", "title": "The map is the Bayesian estimate", "statement": "In exact arithmetic a hit and a miss change the probability of a cell by Bayes' rule with the configured probabilities, limited to the configured maximum and minimum, starting from one half, and a cell is above the threshold exactly if its probability is. In f32, after any calls of integrate_point_cloud on a new occupancy map, the stored value of every cell is within n e of the log-odds of that estimate from what the scans told about the cell, n being the number of scans that told something; for the default map e = 2 / 10^6, and occupied answers by the estimate unless it is that near to one half.", "quantifier": "all sequences of scans in the working range, all cells, all noise models with hit >= 0 >= miss", "why_tests_cant": "Real probabilities against accumulated f32 rounding, unbounded histories.", "anchors": ["src/map/lidar_noise_model.rs:integrate_point_cloud", "src/map/lidar_noise_model.rs:new", "src/map/lidar_noise_model.rs:default", "src/math.rs:logodds_from_probability", "src/map/occupancy_grid_map.rs:integrate_point_cloud"]}
{"id": "C71", "title": "Recent observations decide", "statement": "After any calls of integrate_point_cloud on the default occupancy map: a cell that the last 3 scans that told something about it hit is occupied, one that the last 9 missed is not, after 7 hits in a row its value is the maximum and after 14 misses the minimum, whatever came before. For other noise models the numbers are those that take the opposite limit across the threshold.", "quantifier": "all sequences of scans in the working range, all cells", "why_tests_cant": "Unbounded histories.", "anchors": ["src/map/lidar_noise_model.rs:integrate_point_cloud", "src/map/lidar_noise_model.rs:occupied", "src/map/lidar_noise_model.rs:default", "src/map/occupancy_grid_map.rs:occupied"]}
{"id": "C72", "title": "The conversions between probability and log-odds are accurate", "statement": "With a platform ln and exp of relative error at most 2^-22: the computed log-odds of a probability are within (1+|L|)/2^21 of the exact log-odds L and on the right side of 0; the computed probability of any finite log-odds is in [0,1] and within 2^-21 of the exact one; there and back changes a probability by at most 2^-19. So a noise model made by new from any probabilities in range holds their log-odds within that error, and the probability of a cell of a map, after any calls of integrate_point_cloud, is within 3(1+M)/2^24 per informative scan (and 2^-21) of the Bayesian estimate, M bounding the configured log-odds.", "quantifier": "all f32 probabilities in [2^-100, 1), all finite f32 log-odds, all noise models with hit >= 1/2 >= miss and limits on both sides, all sequences of scans in the working range", "why_tests_cant": "Real logarithms against f32 rounding for all floats.", "anchors": ["src/math.rs:logodds_from_probability", "src/math.rs:probability_from_logodds", "src/map/lidar_noise_model.rs:new", "src/map/occupancy_grid_map.rs:integrate_point_cloud"]}
{"id": "C73", "title": "From the decimals of an OXTS text to metres", "statement": "For two records with decimal fields on the globe, read one after the other with a correctly rounding parser and an accurate cosine: the translation of the first is zero; every coordinate of the second is finite and within a relative 2^-24 and 4 micrometres of the code's formula evaluated exactly on the decimals; the same for whole folders. With angles up to 4 rad a cloud of points up to L is moved to within (1130 L + 2 S)/2^24 and 4 micrometres of the exact rigid motion with the decimal angles and offset, S bounding the offset. The formula takes the cosine of the difference of latitudes: at equal latitude the reported distance east is the true arc divided by the cosine of the latitude, so at 60 degrees and more at least twice too long.", "quantifier": "all decimal texts with |lat| <= 90, |lon| <= 180, |alt| <= 1000 km, all folders, all clouds", "why_tests_cant": "Real-number formula against f64 and f32 rounding for all texts.", "anchors": ["src/kitti/oxt_reader.rs:read", "src/kitti/oxt_reader.rs:gps_to_meters", "src/kitti/oxt_reader.rs:read_from_dir", "src/geom/point_cloud.rs:transform"]}
{"id": "C74", "title": "Approximate equality of bounds", "statement": "relative_eq and abs_diff_eq of Bounds are symmetric for all floats. Bounds are relatively equal to themselves exactly if they hold no NaN, absolutely exactly if finite; == implies relative_eq, and abs_diff_eq implies relative_eq for finite tolerances. Finite bounds all of whose coordinates differ by at most max(eps, max_relative times the larger one) are found equal, without rounding error; of those found equal the coordinates differ by no more than that up to a relative 2^-22. Neither is transitive.", "quantifier": "all pairs of bounds, all floats, all tolerances (max_relative <= 1 for the meaning)", "why_tests_cant": "All pairs of floats.", "anchors": ["src/geom/bounds.rs:abs_diff_eq", "src/geom/bounds.rs:relative_eq"]}
{"id": "C75", "title": "A scan with points on both sides of the range limit", "statement": "After a clear scan in the working range with range limit lam: the cell of every point at least three cells nearer than lam has got exactly one hit, whatever the other points; a cell all of whose points are more than five cells beyond lam has got no hit; a cell that a segment from the sensor to a point passes (off its border by the tolerance) and whose centre is four cells nearer than lam has got exactly one hit or miss even if the point itself is out of range, a hit if it holds a point in range, a miss if it holds none; a cell other than the sensor's whose centre is more than two cells beyond lam and which holds no point in range is unchanged. For one ray: the limit removes no cell nearer than the limit by two cells and the rounding errors.", "quantifier": "all maps and clear scans in the working range, all limits from 2^-60 to 2^60, all hash orders, 2 and 3 dimensions", "why_tests_cant": "Real distances against floats, whole scans, all inputs.", "anchors": ["src/map/lidar_noise_model.rs:integrate_point_cloud", "src/ray_caster.rs:cast_ray", "src/ray_caster.rs:cast_rays"]}
{"id": "C76", "title": "Which number texts the OXTS reader accepts", "statement": "str::parse as the reader calls it gives the correctly rounded value of every decimal number, a minus zero if the text begins with a minus sign and the value is zero, infinity and NaN for the words inf, infinity and nan in any case with an optional sign, and rejects every other text. So a record is read exactly if each of its first six fields, split at single spaces, is such a text; any other character in them, such as a tab or a line end after a sixth and last field, makes the record InvalidData. nan is accepted: a NaN latitude in the first file spoils the position of every later record without an error.", "quantifier": "all texts, all folders", "why_tests_cant": "All texts, against exact decimals.", "anchors": ["src/kitti/oxt_reader.rs:str_to_float", "src/kitti/oxt_reader.rs:read", "src/kitti/oxt_reader.rs:read_from_dir"]}
{"id": "C77", "title": "OXTS files as bytes", "statement": "read_to_string gives a text exactly if the bytes are its UTF-8 encoding (RFC 3629); seven-bit bytes are read one by one. A file that is not UTF-8 somewhere is InvalidData, even if the bad bytes are in fields that are not used. Otherwise the fields are the pieces between bytes 0x20: a record is read exactly if the whole file is UTF-8 and each of the first six pieces is a decimal number or a special word.", "quantifier": "all byte strings", "why_tests_cant": "All byte strings.", "anchors": ["src/kitti/oxt_reader.rs:read"]}
{"id": "C78", "title": "The files of a recording come in the order of their indices", "statement": "seq_files_in_dir gives files named by an index padded with zeros to a common width and a common extension in the order of the indices, whatever the order in which the system lists them and whatever indices are missing. So the clouds and poses of a folder come in that order, and in a recording folder whose subfolders hold the same indices each scan of the visualizer is made of the two files with the same index. Without padding this is not so: files 10 to 19 come before files 2 to 9. A hidden file is read too, and first.", "quantifier": "all widths, extensions, sets of indices, listings", "why_tests_cant": "All sets of names and listings.", "anchors": ["src/kitti/fs.rs:seq_files_in_dir", "src/kitti/point_cloud_reader.rs:read_from_dir", "src/kitti/oxt_reader.rs:read_from_dir", "viz/src/bin/draw_occupancy_grid.rs:main"]}
{"id": "C79", "title": "Progress output of the directory readers", "statement": "read_from_dir without print_status prints nothing. With print_status it prints one line per file in path order, numbered from 1, with the number of files and the name, up to and including the line of the first file that cannot be read, and returns the same as without. If the name of a file is not a text (UTF-8), print_status makes it panic at that file's turn.", "quantifier": "all folders, both readers", "why_tests_cant": "All folders and names.", "anchors": ["src/kitti/point_cloud_reader.rs:read_from_dir", "src/kitti/oxt_reader.rs:read_from_dir"]}
{"id": "C80", "title": "From the bytes of a recording folder to moved points", "statement": "For a recording folder whose two subfolders hold the same indices (each padded to one width, listed in any order), whose records are UTF-8 and begin with six decimal numbers (a place on the globe, angles up to 4 rad), and whose cloud files consist of 16-byte points with finite numbers up to L: the visualizer opens its window with one scan per index in the order of the indices. The sensor position of a scan is within a relative 2^-24 and 4 micrometres of the offset (by the code's formula, exact) of its place from that of the first index. Its points are those of the cloud file with the same index, in file order, each within (1130 L + 2 S)/2^24 and 4 micrometres of the exact rigid motion by the decimals of the record, S bounding the offsets.", "quantifier": "all folders, all bytes of this form", "why_tests_cant": "All folders; real-number geometry against bytes.", "anchors": ["viz/src/bin/draw_occupancy_grid.rs:main", "src/kitti/oxt_reader.rs:read_from_dir", "src/kitti/point_cloud_reader.rs:read_from_dir", "src/kitti/fs.rs:seq_files_in_dir", "src/geom/point_cloud.rs:transform"]}
{"id": "C81", "title": "Obstacles in the files are obstacles in the map", "statement": "For a recording folder as in C80, going by the numbers in the files (moved by the exact rigid motion, known up to eps = (1130 L + 2 S)/2^24 + 4 micrometres): at every moment of every run of the visualizer, whatever the schedule, a world cell into which each of the last three scans played has a point (off the cell's border by the tolerance and at least three cells nearer than the range limit) is in the map and occupied; a world cell that each of the last nine scans passes by a segment to a point, and into which none has a point, is in the map and not occupied. The same for any scans in the working range, played by the visualizer in any dimension.", "quantifier": "all folders with points up to M cells from the start, all schedules, all hash orders, all numbers of frames", "why_tests_cant": "From bytes to answers, unbounded runs, all schedules.", "anchors": ["viz/src/bin/draw_occupancy_grid.rs:main", "viz/src/bin/draw_occupancy_grid.rs:integrate_next_pointcloud", "src/map/lidar_noise_model.rs:integrate_point_cloud", "src/map/lidar_noise_model.rs:occupied", "src/ray_caster.rs:cast_ray"]}
{"id": "C82", "title": "A clear recording plays without end", "statement": "If the scans of a recording keep clear of the borders of cells and tiles by explicit margins, and the sensor is within the box of each scan, then at every moment of every run of the visualizer no thread has panicked, the integration of a worker that is about to integrate returns, and some thread can go on; and for every k there is a run that plays k scans, and in every run with a fair scheduler a moment comes when k scans have been played and drawn. The same from the numbers in the files of a recording folder as in C80.", "quantifier": "all clear recordings, all schedules, all hash orders, unbounded runs", "why_tests_cant": "Unbounded runs of all schedules; the map grows on the way.", "anchors": ["viz/src/bin/draw_occupancy_grid.rs:main", "viz/src/bin/draw_occupancy_grid.rs:integrate_next_pointcloud", "viz/src/bin/draw_occupancy_grid.rs:GridUpdater", "src/map/lidar_noise_model.rs:integrate_point_cloud", "src/map/grid_map.rs:expand_bounds"]}
{"id": "C83", "title": "Relaxed ordering of the flag is enough", "statement": "finished is loaded and stored with Ordering::Relaxed. If a load may return any store that is not older than what the loading thread knows of, and a store may take any place in the modification order after what the storing thread knows of (knowledge is passed on by the mutexes and by thread::spawn only), then still: every reachable state is reachable with a sequentially consistent flag, and the other way round; every step is a step of the latter or an idle frame in which the render thread does not know yet that the worker has finished; stores take effect in the order of execution; fair runs stay fair and play on.", "quantifier": "all schedules, all results of loads and places of stores that the views allow, all maps", "why_tests_cant": "Weak memory effects cannot be provoked by tests.", "anchors": ["viz/src/bin/draw_occupancy_grid.rs:integrate_next_pointcloud", "viz/src/bin/draw_occupancy_grid.rs:GridUpdater"]}
{"id": "C84", "title": "Away from corners f32 rays are the ideal rays", "statement": "If every cell that the segment from origin to end comes within the f32 tolerance of, it also enters by more than the tolerance (it grazes no corner and no side), then cast_ray in f32 returns the very list of cells that it returns in exact arithmetic: exactly the cells whose closed box the segment meets, in the order in which it passes them. With a range limit this list is only cut. A scan with such segments and all points in range gives one hit to every cell that holds a point, one miss to every other cell that some segment meets, and leaves the rest unchanged.", "quantifier": "all rays and scans in the working range that keep clear", "why_tests_cant": "Equality with real-number geometry for all rays.", "anchors": ["src/ray_caster.rs:cast_ray", "src/ray_caster.rs:cast_rays", "src/map/lidar_noise_model.rs:integrate_point_cloud"]}
{"id": "C85", "title": "Release builds differ only where a debug build panics on an overflow", "statement": "In a build without overflow checks isize operations wrap modulo 2^64. On all inputs each of Bounds::from_size_cells (its cell bounds), CellBounds::discretized, GridMap::new, expand_bounds, cast_ray, cast_rays and integrate_point_cloud then has the same outcome (result, panic, or no end) as with the checks, unless the call with the checks panics on an overflow. Without the checks cast_ray never panics in 2 and 3 dimensions. If no integration panics in any run of the visualizer with the checks, for instance for recordings of clear scans, then the runs without are the same. The two differ: there are cell bounds of which the unchecked build makes bounds with the corners swapped, and a ray in range that it takes for one out of range, where the checked build panics.", "quantifier": "all inputs, both builds; clear recordings for the visualizer", "why_tests_cant": "Other integer types, dependencies built in release mode, optimisation of floats.", "anchors": ["src/ray_caster.rs:cast_ray", "src/ray_caster.rs:cast_rays", "src/map/lidar_noise_model.rs:integrate_point_cloud", "src/map/grid_map.rs:expand_bounds", "src/geom/cell_bounds.rs:discretized", "src/geom/bounds.rs:from_size_cells"]}
{"id": "C86", "title": "Clear rays move with the scene", "statement": "In the working range in f32: if a segment that keeps clear of the cell corners is moved by a motion of the grid onto itself (axes exchanged, axes reversed, moved by whole cells), also into a grid of another resolution and offset, the cells of the ray move with it. Cast backwards, it passes the same cells in the opposite order. At corners neither holds.", "quantifier": "all clear segments, all motions of the grid, 2 and 3 dimensions", "why_tests_cant": "All pairs of configurations; rounding differs between them.", "anchors": ["src/ray_caster.rs:cast_ray"]}
{"id": "C87", "title": "The visualizer does not depend on hash orders", "statement": "The hash sets of free and occupied cells may be iterated in an order chosen anew in every integration. Every reachable state of the visualizer then agrees, in everything but the order of the recorded cells, with one reached with any other orders: same map, same drawn cells, same places of the threads. This holds step by step, also for infinite runs and for fair ones. So on clear recordings no run with orders chosen anew ever panics, and every fair one plays every number of scans.", "quantifier": "all recordings, all orders at every step, all interleavings", "why_tests_cant": "Orders of Rust hash sets are random in every run; unbounded interleavings.", "anchors": ["src/map/lidar_noise_model.rs:integrate_point_cloud", "viz/src/bin/draw_occupancy_grid.rs:integrate_next_pointcloud"]}
{"id": "C88", "title": "For clear scans the map is the geometric map", "statement": "Take scans whose rays keep clear of the corners of the cells by a few roundings and end three cells below the range limit. Then each scan tells every world cell what geometry says: a hit if a point lies in it, else a miss if a segment to a point meets it, else nothing. After any playback into a map without cells, and in every state of the visualizer, every stored value is the noise model folded over these geometric answers. A place is drawn exactly if that value is above the threshold, if the first recording already has the lowest points. Turning, mirroring, shifting and scaling the scene moves the values to the moved cells.", "quantifier": "dimensions 2 and 3, f32, all maps, scans and motions within the stated sizes; exact rational geometry", "why_tests_cant": "Composition of rounding, clipping, ray casting, growth and threads down to a statement of geometry only.", "anchors": ["src/map/lidar_noise_model.rs:integrate_point_cloud", "src/ray_caster.rs:cast_ray", "src/map/grid_map.rs:expand_bounds", "viz/src/bin/draw_occupancy_grid.rs:step"]}
{"id": "C89", "title": "From the bytes of the files to the picture, by geometry", "statement": "Take a recording folder whose bytes say GPS places, angles and points as real numbers, such that the real segments from the sensors to the moved points keep clear of the corners of the cells by the stated error and end below 60 m. Then at every moment of every run of the visualizer the value of every world cell is the noise model folded over what the real segments and points played so far tell about the cell. If the first recording already reaches the lowest tile on each axis, then after every batch exactly the cells whose folded value is above the threshold are drawn, each at a point inside it.", "quantifier": "all folders with clear real segments, all interleavings and hash orders", "why_tests_cant": "The whole program from bytes to drawn cells, against real geometry with real sines and cosines.", "anchors": ["viz/src/bin/draw_occupancy_grid.rs:integrate_next_pointcloud", "src/map/lidar_noise_model.rs:integrate_point_cloud", "src/ray_caster.rs:cast_ray"]}
{"id": "C90", "title": "The whole program, with a relaxed flag and random hash orders", "statement": "Take a recording folder as in C89 whose scans are clear. The window opens. With the finished flag loaded and stored relaxed and every hash set iterated in an order of its own, at every moment no thread has panicked, some thread can go on, and the value of every world cell is the one that geometry gives from the real numbers in the files. If no recording reaches below the tiles of the first, then whenever the renderer has processed a batch exactly the cells whose geometric value is above the threshold are drawn, and in every fair run this happens for every number of scans.", "quantifier": "all folders with clear scans, all interleavings, all orders of hash sets at every step, all visible values of the relaxed flag", "why_tests_cant": "The program as it is run: safety, progress and the picture together, without the usual idealisations of threads and hashing.", "anchors": ["viz/src/bin/draw_occupancy_grid.rs:step", "viz/src/bin/draw_occupancy_grid.rs:integrate_next_pointcloud", "src/map/lidar_noise_model.rs:integrate_point_cloud"]}
{"id": "C91", "title": "Bounded work and memory", "statement": "cast_ray returns within n rounds of its loop exactly if its ray has at most n cells; without a range limit it returns exactly if it does so within as many rounds as there are steps between the two cells; with a range limit, in the working range, a ray has at most sqrt(D) * limit / resolution cells up to rounding and borders. A scan needs no more rounds per point than its longest ray and yields at most as many occupied cells as points. If all points of all recordings stay within M cells of the start, then at every moment of every run of the visualizer the map, the changed cells, the cells handed to the renderer and the drawn cells are at most (2N)^D many each, N being M plus a tile plus one, and at most one worker thread is alive, however many scans are played.", "quantifier": "all rays and scans for any arithmetic; all single-precision rays in the working range with a limit; all recordings within M <= 2^18 cells, all interleavings, relaxed flag, all hash orders", "why_tests_cant": "The program has no other guard against running long or growing: work is output-bound and memory depends on the space covered, not on the time played.", "anchors": ["src/ray_caster.rs:cast_ray", "src/ray_caster.rs:cast_rays", "src/map/grid_map.rs:expand_bounds", "viz/src/bin/draw_occupancy_grid.rs:step", "viz/src/bin/draw_occupancy_grid.rs:integrate_next_pointcloud"]}
{"id": "C92", "title": "Everything drawn has been measured", "statement": "At every moment of every run of the visualizer, whatever the threads do and however the grid has grown, each point that is drawn was given by the map, at an earlier moment at which the renderer processed a batch, for a cell that the map then reported occupied, and lies within (1/2 + (16N+8)/2^24) cells, on each axis, of a point of a scan already started. From the bytes of a folder: it is that near, up to the error of reading and moving, to a point of a cloud file already played, moved by the pose its text file says. Nothing is assumed of how the rays run.", "quantifier": "all recordings of finite points within M cells of the start, N = M + tile size + 1 <= 2^18, all noise models with miss <= 0 <= threshold and 0 within the limits, up to 3 dimensions, relaxed flag, all hash orders, all interleavings; folders as in C89 without clearness", "why_tests_cant": "The table of drawn points is keyed by indices that become stale when the grid grows downwards (C55), so points can be missing or outdated; this says that at least no phantom is ever shown.", "anchors": ["viz/src/bin/draw_occupancy_grid.rs:step", "viz/src/bin/draw_occupancy_grid.rs:integrate_next_pointcloud", "src/map/occupancy_grid_map.rs:integrate_point_cloud", "src/map/grid_map.rs:point_from_cell"]}
{"id": "C93", "title": "How a stale picture heals", "statement": "While the lower corner of the grid stays where it is: a cell that is drawn as the map says (its point if occupied, nothing otherwise) is so again each time a batch has been processed; a batch with the cell that finds it free, or finds nothing drawn for it, makes it so from then on; and a cell that is still drawn wrongly was drawn wrongly, and exactly so, at the beginning, and every batch with it since found it occupied and drawn. In any run, a drawn point stays as long as the batches find its cell occupied.", "quantifier": "all recordings in the working range, all noise models with threshold >= 0, up to 3 dimensions, all infinite runs with relaxed flag, all hash orders and interleavings, all machine cells", "why_tests_cant": "The table of drawn points is stale after the grid grows downwards (C55); this says exactly which wrong entries go away, when, and which stay.", "anchors": ["viz/src/bin/draw_occupancy_grid.rs:step", "viz/src/bin/draw_occupancy_grid.rs:integrate_next_pointcloud", "src/map/grid_map.rs:changed_cells"]}
{"id": "C94", "title": "The arithmetic is that of IEEE 754", "statement": "Sums, differences, products, quotients, square roots, literals, integers and conversions between f32 and f64 give the exact real result rounded once to the nearest value of the format, of two the one with even significand (for f32: last bit of the word zero); results from half a unit above the largest finite value on are infinite, underflow keeps the sign, zeros have the signs of the standard, division by zero is infinite and 0/0 and roots of negative numbers are NaN; this determines the result. NaN and infinities go through the operations, comparisons, min and max as the standard says; round, floor, ceil are exact and keep the sign; the conversion to isize drops the fraction and saturates, NaN giving 0.", "quantifier": "all values, all formats with the usual parameters (f32 and f64 are instances)", "why_tests_cant": "Every float theorem stands on this arithmetic: it is tied here to the standard, by distance and digits, not by the model's rounding function.", "anchors": ["src/geom/bounds.rs", "src/ray_caster.rs", "src/map/lidar_noise_model.rs:occupied"]}
{"id": "C95", "title": "What a frame draws", "statement": "A frame of the visualizer does not panic: it calls draw_point once for each entry of the table of drawn cells, in the colour (0, 0.6, 0.8), and then draw_line three times, red, green and blue, for the marker of the pose whose turn is next; the table is always finite, and as long as no further scan is started every frame draws the same. From the bytes of the files: each point is within little more than half a cell of a point of a file already played, moved by the pose its text file says, and the marker starts within S/2^24 + 2^-18 m of the place that the text file of the next recording says (S: distance from the first place) and ends at the points one metre along the turned axes, up to (830 + 2S)/2^24 + 2^-18 m.", "quantifier": "any run of the threads, flag relaxed, any hash orders; f32", "why_tests_cant": "What the user sees is what has been measured, and the marker is where the sensor will be next.", "anchors": ["viz/src/bin/draw_occupancy_grid.rs:AppState::step", "viz/src/bin/draw_occupancy_grid.rs:draw_frame_marker"]}
{"id": "C96", "title": "The unit of length does not matter", "statement": "Give all lengths (points, sensor, resolution, range limit) in another unit, a power of two times the old one. Although every step rounds, rays pass exactly the same cells, scans have the same free and occupied cells, the map grows in the same way, and after any number of scans the values, the occupied cells and the changed cells are the same bit for bit; the bounds and the points of the cells are the same lengths in the new unit. The factor has to be a power of two, and the numbers moderate: with factor 3, or with lengths near 2^-78, cells change.", "quantifier": "f32; scans and resolution at most 2^20, bounds of the maps at most 2^24, all multiples of 2^-60, in both units; the scans return in the first unit", "why_tests_cant": "A tolerance or an offset that is a hidden length shows only on inputs of about its size; tests try a few sizes in one unit.", "anchors": ["src/ray_caster.rs:cast_ray", "src/map/lidar_noise_model.rs:integrate_point_cloud", "src/map/grid_map.rs:expand_bounds", "src/geom/bounds.rs:discretized"]}
{"id": "C97", "title": "A flat scene in three dimensions is the two-dimensional scene", "statement": "A ray that stays at the height of the centres of a layer passes exactly the cells of the two-dimensional ray, in that layer, and ends, panics or is cut off by the range limit just as that one is; so do scans. For scans at height zero the three-dimensional map holds the two-dimensional one in its lowest layer, zero in the layers above (one tile of them), and records the same changed cells: a three-dimensional scan returns exactly if the two-dimensional one does, and after any number of scans, whatever the hash orders, the maps still correspond. At another height of the layer a range limit can cut a ray one cell earlier.", "quantifier": "f32; sensor and points at most 2^20, resolution at most 2^4 for maps and 2^20 for rays, bounds at most 2^24, all multiples of 2^-60; clouds within 2^18 cells of the origin", "why_tests_cant": "The two- and the three-dimensional branches of the ray caster and of the map agree.", "anchors": ["src/ray_caster.rs:cast_ray", "src/map/lidar_noise_model.rs:integrate_point_cloud", "src/map/grid_map.rs:expand_bounds", "src/ray_caster.rs:cast_rays"]}
{"id": "C98", "title": "One number that is not finite freezes the program", "statement": "A ray to a point with a NaN coordinate goes straight down the last axis from the sensor's cell, until it comes upon the point's cell or beyond the range limit. Integrating a scan with such a point panics with an index out of bounds if the range limit reaches below the floor of the map and the point's cell is not straight below the sensor's. Integrating a scan with an infinite coordinate panics, whatever the map and the other points. In a cloud file, a record with one number that is not finite becomes a point without a finite coordinate, whatever the pose, and the other records are unharmed. From the bytes of a folder to the runs of the visualizer: if cloud file r is the first with such a record, the window opens, scan r is the last that is started, its worker never gets past integrating and the render thread does not panic; in every fair run a worker panics, and from then on nothing new is drawn and no scan is started.", "quantifier": "f32; the finite coordinates and the map in the working range and above a tile border that is five cells within the range limit of the sensor; the sensor two cells above the origin or some point on a horizontal axis; for infinite coordinates only a tile size dividing neither 2^63 nor 2^63-1; recordings before r as in the working range", "why_tests_cant": "Clouds are not filtered: what a NaN or an infinity in a recording does.", "anchors": ["src/ray_caster.rs:cast_ray", "src/map/lidar_noise_model.rs:integrate_point_cloud", "src/map/grid_map.rs:expand_bounds", "src/geom/cell_bounds.rs:discretized", "viz/src/bin/draw_occupancy_grid.rs:main"]}
{"id": "C99", "title": "A position that is not a number makes the program hang", "statement": "A ray from a sensor position with a NaN coordinate is the cells from the sensor's straight down the last axis to the point's, without a range limit; it returns if and only if the point's cell is the sensor's or straight below it. Integrating a scan from such a position with a point that is certainly elsewhere does not return, and after 2^62 steps of each ray it still goes on (memory is unlimited here; for a limit see C101). In the records of a folder a latitude, longitude or altitude may be written nan: the files are read, and from the second scan on the coordinates of the sensor and of all points that need the missing number, of the record or of the first record, are NaN, and the others as they would be without. From the bytes of a folder to the runs of the visualizer: if scan r is the first whose position misses a coordinate, the window opens, scan r is the last that is started, its worker never gets past integrating and the render thread does not panic; in every fair run a moment comes from which on nothing new is drawn and no scan is started.", "quantifier": "f32, and f64 for the records; cosine and conversion keep NaN; the numbers that there are in the working range; some point of scan r two cells or more aside of the sensor on a horizontal axis, or above it; recordings before r in the working range (no condition that they are clear)", "why_tests_cant": "Positions are not checked: what a NaN in a record does.", "anchors": ["src/ray_caster.rs:cast_ray", "src/map/lidar_noise_model.rs:integrate_point_cloud", "src/kitti/oxt_reader.rs:gps_to_meters", "src/kitti/oxt_reader.rs:read", "viz/src/bin/draw_occupancy_grid.rs:main"]}
{"id": "C100", "title": "An angle that is not finite, or an infinite position, freezes the program", "statement": "If an angle of a pose is infinite or NaN, every coordinate of every point moved by it is NaN, whatever the position and the point. If a coordinate of the position is infinite, that coordinate of every moved finite point is infinite with the same sign. From the bytes of a folder to the runs of the visualizer, where record r, after decimal ones, has an angle written inf or nan; or a latitude or altitude written inf, or such a longitude with a decimal latitude: the window opens all the same, scan r is the last that is started, its worker never gets past integrating, the render thread does not panic, and in every fair run a worker panics and from then on nothing new is drawn and no scan is started.", "quantifier": "f32, and f64 for the records; sine and cosine of what is not finite are NaN, the conversion to f32 keeps infinities; r not the first record; scans before r in the working range and above a tile border; for an angle, the sensor of scan r two cells or more east or north of the first, with the border within its range limit; for a position, angles of at most 4 and a finite point in the file; for a longitude, the latitude within 80 degrees of the first; any numerals in the records after r", "why_tests_cant": "The angles and positions of a record are not checked: what an inf or nan there does.", "anchors": ["src/kitti/oxt_reader.rs:read", "src/kitti/oxt_reader.rs:gps_to_meters", "src/geom/point_cloud.rs:transform", "src/map/lidar_noise_model.rs:integrate_point_cloud", "viz/src/bin/draw_occupancy_grid.rs:main"]}
{"id": "C101", "title": "A machine with limited memory", "statement": "On a machine on which no allocation can have more than B entries, and an allocation that fails ends the process: a ray is as without the limit, with B as the number of cells it may have. Integrating a scan returns, with the same map, if and only if it returns without a limit and nothing that is kept has more than B entries: the array grown for the scan, each ray, the passed cells, the cells of ends and, if changes are recorded, the changed cells. It panics only as it would without a limit, or because the bytes of the array cannot be counted in isize; if everything fits and the rays return, it panics exactly when it would. A scan that goes on for ever ends the process. In particular a scan from a sensor with a NaN coordinate (C99) does, for every B up to 2^62; in the visualizer such a recording is the last that is started, nothing of it is drawn, and in every fair run the process ends or a worker panics; if the recordings before are clear, the process ends. From the bytes of a folder as in C99, the same. With room for the largest array, (2(M + tile + 1))^D, and for the longest ray times the number of points plus one, the visualizer's runs are exactly those without a limit; for the default map and a folder as in C81 that is (2(M + 101))^3 entries and 1048 per point of a scan.", "quantifier": "any arithmetic for the scan with entries of four bytes; f32 in the working range for NaN and for the visualizer; entries are counted, not bytes, each allocation on its own and without spare capacity", "why_tests_cant": "How much memory the program needs, and what becomes of endless loops on a real machine.", "anchors": ["src/ray_caster.rs:cast_ray", "src/ray_caster.rs:cast_rays", "src/map/grid_map.rs:expand_bounds", "src/map/lidar_noise_model.rs:integrate_point_cloud", "viz/src/bin/draw_occupancy_grid.rs:main"]}
{"id": "C102", "title": "What is not finite in the first record", "statement": "The sensor of the first scan is put at the origin. If no coordinate of its points is a number, the first scan, on the fresh map, is taken in without a panic: the map becomes one tile, the sensor's own cell alone is marked as hit, and it alone is listed as changed. The visualizer draws that cell, if a hit is above the threshold, and nothing else until a second scan is started. If some later point lies two cells or more west or south of the origin, the first scan panics when it is reached for the second time: with n recordings at most n + 1 scans are started, the last of them is not got past, the render thread does not panic, nor does the first scan's worker, and in every fair run a worker panics, after which nothing new is drawn. From the bytes of a folder: this is what happens if an angle of the first record is written inf or nan. If instead a latitude or altitude of the first record is written inf, or the longitude with a decimal latitude, the second scan has an infinite coordinate: it is the last that is started, and every fair run comes to stand still.", "quantifier": "f32, and f64 for the records; for the folder, sine and cosine of what is not finite are NaN, or the conversion to f32 keeps infinities; the other scans in the working range and above a tile border, which for an angle is within the range limit of the origin; for a longitude, the latitude within 80 degrees of the second", "why_tests_cant": "All folders whose first record has an inf or nan, under every schedule; a test tries a few files and one timing.", "anchors": ["src/kitti/oxt_reader.rs:read", "src/kitti/oxt_reader.rs:gps_to_meters", "src/map/lidar_noise_model.rs:integrate_point_cloud", "src/map/grid_map.rs:expand_bounds", "viz/src/bin/draw_occupancy_grid.rs:main"]}
{"id": "C103", "title": "A nearer point on the same line of sight", "statement": "If two rays start in one cell, reach their ends, and the second passes only cells of the first, the second is the beginning of the first. In f32: if the segment to a point keeps clear of the cell corners by a tolerance, another point lies on it up to that tolerance, and the segment to that one keeps clear as well, the ray to the nearer point is the beginning of the ray to the farther one. So a point added to a clear scan in front of another point changes what the scan tells about its own cell, to a hit, and about no other cell; and after any number of scans every world cell without an added point has the value it would have had without the added points. At corners this fails: the ray to (1, 3) passes a cell that the ray from the same place to (3, 9) does not pass.", "quantifier": "any arithmetic for the first sentence; all clear segments and scans in the f32 working range, 2 and 3 dimensions, all hash orders", "why_tests_cant": "Rounding differs between the two rays, since each is normalised by its own length.", "anchors": ["src/ray_caster.rs:cast_ray", "src/ray_caster.rs:cast_rays", "src/map/lidar_noise_model.rs:integrate_point_cloud"]}
{"id": "C104", "title": "The geometric map, with points on both sides of the range limit", "statement": "A scan whose segments keep clear of the cell corners may have points beyond the range limit. Then, in f32, what it tells about a world cell depends only on the geometry and the limit. The way to a point is blocked at a share t of it if, up to there, it leads through a cell, other than those of the sensor and of the point, with its centre farther from the sensor than the limit. A cell is hit if a point lies in it and the way to that point is not blocked, even if the centre of that cell itself is beyond the limit; it is missed if it is not hit and the way to some point leads through it and is not blocked up to there; else nothing happens to it. After any number of scans the value of every world cell, and in every run of the visualizer what is stored and what is drawn, is what these answers make of zero. If no way is blocked, the answers are those without a limit. If the scene is moved by a motion of the grid onto itself, and possibly scaled together with the resolution and the limit, the map moves with it. Only cell centres within rounding of the limit are left out.", "quantifier": "all clear scans in the f32 working range without a centre at the very limit, 2 and 3 dimensions, all hash orders, all schedules", "why_tests_cant": "Recordings of real lidars have points beyond the 60 m of the noise model; the property for points within the limit (C88) does not cover them.", "anchors": ["src/ray_caster.rs:cast_ray", "src/ray_caster.rs:cast_rays", "src/map/lidar_noise_model.rs:integrate_point_cloud", "viz/src/bin/draw_occupancy_grid.rs:main"]}
{"id": "C105", "title": "From the bytes of the files to the picture, with points on both sides of the range limit", "statement": "The folder of C89 may have points beyond the range limit of 60 m. If, going by the real numbers in the files, the segments from the sensor to the points keep clear of the cell corners and no cell centre passed is at the very limit, up to the stated uncertainty of the moved points, then at every moment of every run of the visualizer the value of every world cell is what the scans played so far make of zero, each by geometry and the limit alone; and if no recording reaches below the tiles of the first one, exactly those cells are drawn whose value so obtained is above the threshold.", "quantifier": "all folders, file contents, hash orders and schedules; f32, any accurate cos, sin and ln", "why_tests_cant": "All folders, schedules and hash orders, against real-number geometry; a test sees one run of one folder.", "anchors": ["src/kitti/point_cloud_reader.rs:read_from_dir", "src/kitti/oxt_reader.rs:read_from_dir", "src/ray_caster.rs:cast_ray", "src/map/lidar_noise_model.rs:integrate_point_cloud", "viz/src/bin/draw_occupancy_grid.rs:main"]}
{"id": "C106", "title": "A longer range limit only adds", "statement": "Cast the same ray with two range limits: the rays are the same, or the one with the shorter limit is the other cut before a cell beyond the shorter limit, and reports no end. So with the longer limit, or with none, a scan tells no less about any cell: a hit stays a hit, and what was passed is passed or hit. In f32 the scan tells the same about every cell whose centre is nearer than the shorter limit by three cells. Two maps that take the same scans have the same bounds whatever the noise models; if these differ in the limit only, all such cells have the same value in both, and in the visualizer, after as many scans, if no recording reaches below the tiles of the first one, the same of them are drawn at the same points.", "quantifier": "all rays, scans, recordings, hash orders and schedules; any arithmetic for the rays and what a scan tells, f32 for the cells within the limit", "why_tests_cant": "All pairs of limits and all rays: a ray that is cut a cell too early or late shows at the limit only.", "anchors": ["src/ray_caster.rs:cast_ray", "src/ray_caster.rs:cast_rays", "src/map/lidar_noise_model.rs:integrate_point_cloud", "viz/src/bin/draw_occupancy_grid.rs:main"]}
{"id": "C107", "title": "Played over and over, the map and the picture settle", "statement": "The visualizer plays the recordings in turn without end. From the second round on the bounds of the map stay, and every scan does to a cell what it did in the round before. Seen at the ends of the rounds the value of a cell goes in one direction only. So there is a number of scans from which on, whenever the same recording comes next, the map has the same bounds and, up to the sign of zeros, the same values, in all runs; and if no recording reaches below the tiles of the first one, the same cells are drawn at the same points.", "quantifier": "all recordings with points within 2^18 cells, all noise models with finite steps and limits that are not NaN, all schedules and hash orders; f32", "why_tests_cant": "Adding and clamping in f32 is monotone, and there are finitely many f32, so nothing may drift or swing for ever.", "anchors": ["src/map/lidar_noise_model.rs:integrate_point_cloud", "viz/src/bin/draw_occupancy_grid.rs:main"]}
{"id": "C108", "title": "Two rounds are enough, and all runs stop at the same scan", "statement": "Whether a scan can be integrated depends on the cells of the map only, not on their values. So if the recordings could be played twice in turn, they can be played for ever: no run panics or gets stuck, and every fair run goes through every number of scans. If in one run the integration of the k-th scan does not return, then no run, whatever the schedule and the hash order, gets beyond its k-th scan, nor does the integration return there.", "quantifier": "all recordings with points within the cells of a machine word map, all schedules and hash orders; f32", "why_tests_cant": "Unbounded runs under every schedule; a test watches finitely many rounds of one.", "anchors": ["src/map/lidar_noise_model.rs:integrate_point_cloud", "src/map/grid_map.rs:expand_bounds", "viz/src/bin/draw_occupancy_grid.rs:main"]}
{"id": "C109", "title": "A noise model that counts higher", "statement": "Raise the log-odds of a hit, of a miss, or of the limits, keeping the range limit: the same scans can be taken, the map has the same bounds, and no cell has a lower value. In the visualizer, after as many scans, if the threshold is no higher and no recording reaches below the tiles of the first one, every cell that was drawn is still drawn, at the same point. Raising the probabilities given to new does raise the log-odds. And if the program stops at some scan, it stops there with every other noise model of the same range limit.", "quantifier": "all noise models with finite steps, all recordings with points within 2^18 cells, all schedules and hash orders; f32", "why_tests_cant": "Rounding and clamping come after every scan, so the order could be lost anywhere along a history.", "anchors": ["src/map/lidar_noise_model.rs:new", "src/map/lidar_noise_model.rs:integrate_point_cloud", "viz/src/bin/draw_occupancy_grid.rs:main"]}
{"id": "C110", "title": "From the files, played for ever", "statement": "From the bytes of a recording folder in the KITTI layout with all points within a given distance of the start, whatever the rays hit: the window opens; from some number of scans on the map is the same whenever the same recording comes next, in all runs, and so is the picture if no recording reaches below the tiles of the first one; if one run got through two rounds of the recordings, no run ever panics or gets stuck and every fair run plays every number of scans; if in one run the integration of some scan does not return, no run gets beyond that scan.", "quantifier": "all such folders, schedules and hash orders; f32, an accurate cosine, sine and logarithm", "why_tests_cant": "Endless runs from all folders, schedules and hash orders; a test stops after a few rounds.", "anchors": ["viz/src/bin/draw_occupancy_grid.rs:main", "src/map/lidar_noise_model.rs:integrate_point_cloud"]}
{"id": "C111", "title": "A stray point touches only its own ray", "statement": "A scan with more points tells no less about any cell: hits stay hits and a miss may become a hit. A point that is in one of two scans of the same extent and not in the other makes no difference to any cell that its ray does not touch; in f32 these are at least the cells that the line from the sensor through the point and onward stays off by the rounding tolerance. Played back from recordings that differ in such points, scan by scan of the same sensor and extent, the maps keep the same bounds, those cells keep the same values, and the same of them are drawn at the same points.", "quantifier": "any arithmetic for one scan; f32 for recordings, all schedules and hash orders", "why_tests_cant": "All pairs of clouds and all cells: that nothing else changed has to be looked for everywhere.", "anchors": ["src/ray_caster.rs:cast_rays", "src/map/lidar_noise_model.rs:integrate_point_cloud", "viz/src/bin/draw_occupancy_grid.rs:main"]}
{"id": "C112", "title": "An outlier that enlarges the map", "statement": "The rays of a scan, and so what it tells about each cell, depend on the lower corner of the map and not on its size. Hence a point in one of two recordings and not in the other may even lie outside the other map and make it larger: as long as no recording reaches below the tiles of the first one, and these are the same, the maps start at the same world cell, the cells that the line from the sensor through the point and onward stays off by the rounding tolerance have the same values (a cell outside a map counting as unknown), and the same of them are drawn at the same points.", "quantifier": "any arithmetic for one scan; f32 for recordings, all schedules and hash orders", "why_tests_cant": "All pairs of clouds and map sizes: an index that depends on the size shows only when one map has grown and the other has not.", "anchors": ["src/ray_caster.rs:cast_ray", "src/map/lidar_noise_model.rs:integrate_point_cloud", "src/map/grid_map.rs:expand_bounds", "viz/src/bin/draw_occupancy_grid.rs:main"]}
{"id": "C113", "title": "One record of one cloud file", "statement": "Two recording folders have the same vehicle records and cloud files that differ. Each scan has the same sensor in both, and one function makes its points from the three numbers of each 16-byte record, so the order of the records, their repetition and their reflectance do not matter. If no file reaches below the tiles that the first one reaches, and these are the same, then in any two runs, after equally many scans, the maps start at the same world cell and agree, in value and on the screen, on every cell that the lines from the sensor through the records occurring in only one of two corresponding files stay off by the tolerance.", "quantifier": "f32 and f64, all schedules and hash orders, points at most about 130 m from the start", "why_tests_cant": "All pairs of folders, under every schedule and hash order, with the tolerance in real numbers.", "anchors": ["viz/src/bin/draw_occupancy_grid.rs:main", "src/ray_caster.rs:cast_ray", "src/map/lidar_noise_model.rs:integrate_point_cloud"]}
{"id": "C114", "title": "Noisy recordings of a scene", "statement": "The numbers in the files of a recording folder are measurements: the sensor positions and moved points they give differ from those of a true scene by at most some error on each axis. If in the true scene the lines of sight keep clear of the corners of the cells, and the passed cells off the range limit, by that error and the rounding of the program, then the map and the picture are those of the true scene, by geometry. Hence two recordings of one scene, with different measurements, decimals, angles and file names, give the same value to every world cell and draw the same cells.", "quantifier": "all folders, error bounds, schedules and hash orders, in f32 and f64 against real numbers", "why_tests_cant": "All pairs of measurements of a scene; a test has one set of numbers and no true scene to compare with.", "anchors": ["viz/src/bin/draw_occupancy_grid.rs:main", "src/ray_caster.rs:cast_ray", "src/map/lidar_noise_model.rs:integrate_point_cloud"]}
{"id": "C115", "title": "A scan in parts", "statement": "Split the points of a scan into parts with the same sensor. What the scan tells about a cell is what its parts tell together: a hit if one of them hits, else a miss if one misses. If scan and parts fit into the map, the scan can be integrated exactly if the parts can be, one after the other; the bounds agree, and so does, bit by bit, the value of every cell that at most one part tells something about. With hits that count up and misses that count down, a cell that at most one part hits is after the parts at most as high as after the scan in one piece, and a cell that no part misses at least as high. In a cell that one part hits and another looks through, the parts can erase an obstacle that the scan in one piece marks (witness).", "quantifier": "all clouds, all ways to split them (with shared points), maps, hash orders; any arithmetic for one scan, all float formats for the map", "why_tests_cant": "All partitions of all clouds, and cell by cell equality on whole maps.", "anchors": ["src/ray_caster.rs:cast_rays", "src/map/lidar_noise_model.rs:integrate_point_cloud"]}
{"id": "C116", "title": "A larger extent needs a larger map", "statement": "Rounding a position down or up to the grid, with the tolerant comparison that takes a position near a grid line to lie on it, is monotone in cells: of two f32 positions, the lesser never gets the higher cell, neither as a lower nor as an upper corner. So a box within another covers, rounded, no cell outside the other; clouds reaching no farther than clouds that fit into a map fit into it; a row of scans reaching at least as far as another leaves a map whose cells contain those of the other, whatever the sensor positions, the models and the orders of iteration. In particular a cloud fits exactly if all its parts do, and a scan given in parts leaves a map with the very bounds and size of the scan in one piece, also if the map grows on the way.", "quantifier": "any resolution and coordinates within the representable range of the grid, any map made by the program, any rows of clouds, any division of a cloud into parts, any dimension up to three, f32", "why_tests_cant": "The tolerant comparison jumps at grid lines, and monotonicity fails, if at all, only at positions a few units in the last place from one; tests use round positions.", "anchors": ["src/geom/bounds.rs:discretized", "src/map/grid_map.rs:expand_bounds", "src/map/lidar_noise_model.rs:integrate_point_cloud"]}
{"id": "C117", "title": "A coarser grid", "statement": "Take the same scans into two maps, the second with cells of an odd multiple of the side, so that each large cell is made of whole small ones. If the rays keep clear of the corners of both grids, a scan in f32 hits a large cell exactly if it hits one of its small cells, and tells nothing about it exactly if it tells nothing about any of them. With hits that count up and misses that count down, the value of a large cell is at least that of its small cell w if no scan looks through the large cell past w, at most that of w if no scan hits the large cell beside w, and the very same if both; a large cell above the threshold has in one of its small cells a point of some scan. A coarser grid can lose an obstacle: where a later scan passes beside it within the large cell, the small cell stays occupied and the large one becomes free (witness).", "quantifier": "2 and 3 dimensions, f32, all odd multiples that are exact in f32, all rows of clear scans, maps without cells at first", "why_tests_cant": "All scenes and all pairs of resolutions, with the roundings of both grids at once.", "anchors": ["src/ray_caster.rs:cast_rays", "src/map/lidar_noise_model.rs:integrate_point_cloud", "src/map/grid_map.rs:expand_bounds"]}
{"id": "C118", "title": "Probabilities 0 and 1, and limits that cross", "statement": "LidarNoiseModel::new accepts the probabilities 0 and 1 and does not ask that the minimum be at most the maximum. With hit probability 1 a single hit takes every stored value, NaN and the infinities included, to the maximum; with miss probability 0 a single miss takes every value to the minimum; with both, each cell of an occupancy map shows just the last scan that told something about it, and zero if there was none. With hit and maximum probability 1 and a miss other than 0, a cell hit once is occupied for ever (threshold below 1); the mirrored statement holds for misses. If the maximum is at most the threshold and the minimum above it, the picture is inverted: free after a hit, occupied after a miss.", "quantifier": "all noise models, all stored values, all sequences of observations; for the map all resolutions and tile sizes in range, D <= 3, and all histories of in-range scans whose calls returned", "why_tests_cant": "Needs every stored value (with NaN and infinities) and histories of any length; a test picks ordinary probabilities.", "anchors": ["src/map/lidar_noise_model.rs:LidarNoiseModel::new", "src/math.rs:logodds_from_probability", "src/map/lidar_noise_model.rs:integrate_hit", "src/map/lidar_noise_model.rs:integrate_miss", "src/map/occupancy_grid_map.rs:occupied"]}
{"id": "C119", "title": "The tile size", "statement": "Take the same scans into two maps that differ in the tile size only. If the larger tiles are made of whole smaller ones, the second map is the first rounded out to the larger tiles, and not a tile more, whatever the sensors and noise models. If the scans are clear of cell corners, every world cell has the same value in both maps bit by bit, a cell that is not stored counting as zero; and if in neither a recording reaches below the tiles of the first, then in two visualizers, after equally many scans, the same world cells are drawn. For scans that are not clear the tile size does matter: a point just below the border of two cells falls into the one or the other, as the lower corner of the map is near or far (witness).", "quantifier": "f32; extent: at most 3 dimensions, all in-range scans whose calls return; values and screen: 2 and 3 dimensions, all clear scans, maps without cells at first, all runs and hash orders", "why_tests_cant": "All pairs of tile sizes and all scans, with the roundings relative to two different lower corners.", "anchors": ["src/map/grid_map.rs:expand_bounds", "src/map/grid_map.rs:new", "src/map/lidar_noise_model.rs:integrate_point_cloud", "viz/src/bin/draw_occupancy_grid.rs:step"]}
{"id": "C120", "title": "A scene far from the origin", "statement": "The bounds of a cloud always include the world origin, so the map does too after any scan. On each axis it is as long as the farthest point of any scan is away from the origin, and for each point it has at least as many cells as the box between the origin and the point: a small scene far away needs memory by its distance and not by its size (witness: three cells in a row take 8 cells at the origin and 1088 when moved by 30 cells on both axes). On a machine on which no allocation can have more than B entries, a scan with a point whose box to the origin has more than B cells does not return, however few cells it sees.", "quantifier": "f32, at most 3 dimensions, all maps, sensors, noise models and in-range scans that returned; for the limited machine all scans and limits", "why_tests_cant": "A lower bound on memory for all scenes, through two roundings of each corner; large distances exhaust the machine of a test.", "anchors": ["src/geom/point_cloud.rs:bounds", "src/map/grid_map.rs:expand_bounds", "src/map/lidar_noise_model.rs:integrate_point_cloud"]}
{"id": "C121", "title": "What has been seen is one piece", "statement": "The cells of a ray, with that of its end if reported, are linked to the cell of the sensor by steps of one cell along one axis, and that cell is one of them. So the cells about which a scan tells something, which are the cells of the two sets that cast_rays returns, are one connected piece, with the cell of the sensor in it if there are any. If each scan of a row but the first is taken from a cell about which an earlier one told something, then all world cells about which a scan told something are one piece, however the map grew in between; in an occupancy map made by such scans any two cells whose values are not zero are linked by cells about which some scan told something.", "quantifier": "the ray, the scan and the row of scans: every arithmetic that obeys the order laws (in every dimension), all sensors, clouds, bounds and histories; the map: f32, 1 to 3 dimensions, all in-range scans that returned", "why_tests_cant": "Connectedness is a statement about paths between all pairs of cells after any number of scans and reallocations.", "anchors": ["src/ray_caster.rs:cast_ray", "src/ray_caster.rs:cast_rays", "src/map/lidar_noise_model.rs:integrate_point_cloud"]}
{"id": "C122", "title": "The sensor's own cell", "statement": "cast_rays puts the cell of the sensor among the occupied ones exactly if a point of the cloud is in it, however many rays start there, and among the free ones exactly if the cloud has points and none of them is in it. So each scan taken from a cell changes its value by one hit if a point is in it and by one miss else, whatever else the scan sees. In the crate's default map, whatever came before: a cell from which the last 9 scans were taken without a point in it is not occupied, and a cell from which the last 3 were taken with a point in it each is occupied (witness: a point one centimetre before the sensor).", "quantifier": "cast_rays: every arithmetic that obeys the order laws, all sensors, clouds, bounds and limits for which it returned; the map: f32, at most 3 dimensions, all noise models, resolutions, tile sizes and in-range scans that returned", "why_tests_cant": "All clouds and histories; every ray passes through this cell, so each of them could overwrite it.", "anchors": ["src/ray_caster.rs:cast_rays", "src/ray_caster.rs:cast_ray", "src/map/lidar_noise_model.rs:integrate_point_cloud"]}
{"id": "C123", "title": "More hits and fewer misses never lower a value", "statement": "If a second row of observations of a cell comes from a first by leaving out misses and putting in hits, at any places, then the value that the second row makes of the same start is at least as high, although every step is rounded and then limited: so for two runs of scans from the same fresh map, which may have grown differently, a world cell of both about which the second run tells more hits and fewer misses has at least as high a value in the second map, and is occupied there if it is in the first. More points in a scan (with the same bounds) never take a hit back, and never make the scan forget a cell.", "quantifier": "all float formats, all noise models with finite steps of the right signs and limits around zero, all rows; the maps: f32, at most 3 dimensions, all in-range runs that returned; more points: every arithmetic", "why_tests_cant": "Two whole histories are compared, through rounding and clamping at each step.", "anchors": ["src/map/lidar_noise_model.rs:integrate_point_cloud", "src/map/occupancy_grid_map.rs:occupied", "src/ray_caster.rs:cast_rays"]}
{"id": "C124", "title": "A few wrong scans have little weight", "statement": "Two rows of observations of the same length that differ in at most k places make values of a cell that differ by at most k times the distance of a hit and a miss (plus what the values differed by at the start), up to the roundings of the steps: no observation, wherever in the row, has more weight than that, since the limits never widen a difference. So for two runs of scans from the same fresh map the values of a world cell about which all scans but k tell the same are that close, and a cell whose value is above the threshold by more than that in the one map is occupied in the other.", "quantifier": "f32, all noise models with finite steps of the right signs and finite limits (zero between them for the maps), all rows and numbers k; the maps: at most 3 dimensions, all in-range runs that returned", "why_tests_cant": "A bound over all pairs of histories of any length, through rounding and clamping at each step.", "anchors": ["src/map/lidar_noise_model.rs:integrate_point_cloud", "src/map/occupancy_grid_map.rs:occupied"]}
{"id": "C125", "title": "Is a cell of value zero one that was never observed?", "statement": "The program has no mark for cells never observed; their value is zero. With the default noise model a cell about which at least one and at most 100 observations told something never has the value zero: neither the start nor one of the limits is undone by any mix of at most 100 hits and misses, with room for all roundings. So after at most 100 scans the cells of value zero are just those about which no scan told anything. In general it is false: there is a row of 5546 hits and misses after which the value is exactly zero again, and scans that make it in a map.", "quantifier": "f32; rows: all noise models with finite steps of the right signs and limits around zero, for each number of observations up to which no mix comes near zero; the default noise model with 100; maps of at most 3 dimensions, all in-range runs of at most 100 scans that returned; one row of 5546 for the refutation", "why_tests_cant": "A test sees a few rows; there are 2^100 rows of 100 observations, and the row that comes back to zero was found only by a search through some 70 million values.", "anchors": ["src/map/lidar_noise_model.rs:integrate_point_cloud", "src/map/occupancy_grid_map.rs:get"]}
