# Formal model of rskgk/kuba in Lean 4 — design

The Rust sources in `/repo` (library `src/`, visualizer `viz/src/bin/draw_occupancy_grid.rs`) are
modelled by hand, function by function, as Lean definitions. Each definition cites the file and
lines it models. Properties are stated against a separate specification (`Verif/Spec/*`), and proved
about the model (`Verif/Props/*`).

## 1. Trusted base

* The Lean 4.33.0 kernel, plus `propext`, `Classical.choice`, `Quot.sound` (the axioms Mathlib uses).
  No axiom of our own, no `sorry`, no `native_decide`, no `bv_decide`. Every theorem depends on a
  subset of these three axioms; `Verif/Audit.lean` prints the list per theorem at build time.
* That the hand-written model says what the Rust code does (comments cite lines; the repository's
  own unit tests are replayed on the model in `Verif/Replay.lean`).
* The semantics of dependencies, recalled from their documentation, since their sources are not in
  the sandbox:
  * `approx` 0.3.2 `relative_eq!` on f32 (epsilon = max_relative = 2^-23): equal → true; one infinite
    → false; |a-b| ≤ eps → true; else |a-b| ≤ max(|a|,|b|)·max_relative.
  * `nalgebra` 0.22: `norm_squared` sums the squares from index 0 (starting with 0 + ...), `norm` is
    its `sqrt`, vector/scalar divides each coordinate, `Matrix*Matrix` accumulates columns in order.
  * `ndarray` 0.13: bounds-checked indexing on each axis, row-major `from_shape_vec`, `s![a..b]`
    slicing (negative indices count from the end; panics when out of range), `assign` with
    broadcasting.
  * Rust: f32/f64 are IEEE binary32/binary64 with round-to-nearest-even; `round` is half away from
    zero; `as isize` saturates and maps NaN to 0; `min`/`max` ignore a NaN operand; isize is 64 bits;
    arithmetic overflow panics (dev profile). In the release profile overflow wraps; a result of our
    model that is not an overflow panic is also the result in release mode (C85).
* libm functions (`ln`, `exp`, f64 `cos`, f32 `sin`/`cos` of the pose) are parameters of the model. Theorems
  that need something of them say so in their hypotheses (monotone `ln`/`exp` in C46, also `ln 0 = -inf` and `ln inf = inf` in C118, `sin`/`cos` within
  2^-22 in C59, correctly rounded decimal parsing, f64 `cos` within 2^-50 on |x| ≤ 4 and `PI/180` within 2^-57 in C73, `ln`/`exp` with relative error at most 2^-22 in C72, the log-odds values stated in the unit tests of `math.rs` in C42).
* `nalgebra` 0.22 `UnitQuaternion::from_euler_angles`, `to_rotation_matrix`, quaternion times vector, `Isometry3::to_homogeneous` as used by
  `oxt_reader.rs` and the visualizer: formulas from the documentation, written out in `Verif/Model/Pose.lean`.
* The visualizer's flag `finished` is read and written with `Relaxed` ordering. `Verif/Model/Viz.lean` lets every thread
  see the latest value; `Verif/Model/VizWeak.lean` lets a load return any store that coherence and the views carried by
  the mutexes allow. C83 and C90 prove that nothing changes: every run with the relaxed flag is, step by step, a run with
  the latest value. Stores become visible when executed, never earlier (no load buffering or out-of-thin-air values).

### Axioms

`Verif/Audit.lean` is generated with the manifest and prints, when it is built, the axioms of every theorem named in
`MANIFEST.json`. Every one depends on a subset of `propext`, `Classical.choice`, `Quot.sound`.

## 2. The model

| Module | Models |
|---|---|
| `Verif/Float/Round.lean` | round-to-nearest-even on ℚ for any binary format, correctness of rounding |
| `Verif/Float/Fp.lean` | `Fp f`: NaN, ±∞, finite (representable rational, signed zero); + - * / sqrt abs round floor ceil min max comparisons, int conversions. `F32 = Fp b32`, `F64 = Fp b64` |
| `Verif/Rust.lean` | result type: value, panic (with reason), or out of fuel; checked isize arithmetic |
| `Verif/Scalar.lean` | `class Scalar`: the float operations the code uses. Instances: `F32` (bit-accurate), `XR` (exact reals with ∞) |
| `Verif/Model/Geom.lean` | `math.rs`, `geom/converter.rs`, `geom/bounds.rs`, `geom/cell_bounds.rs`, `geom/cell.rs`, `geom/vector.rs` |
| `Verif/Model/Approx.lean` | `AbsDiffEq` and `RelativeEq` of `Bounds` |
| `Verif/Model/Cloud.lean` | `geom/point_cloud.rs` (flat column-major matrix) |
| `Verif/Model/RayCaster.lean` | `ray_caster.rs` |
| `Verif/Model/NdArray.lean` | the part of ndarray used: shape, flat row-major data, index, slice, assign |
| `Verif/Model/GridMap.lean` | `map/grid_map.rs` |
| `Verif/Model/NoiseModel.lean` | `map/lidar_noise_model.rs`, `map/occupancy_grid_map.rs` |
| `Verif/Model/Kitti.lean` | `kitti/*.rs` (bytes, text fields, directory listings as data) |
| `Verif/Model/Parse.lean` | `str::parse` for floats and `read_to_string` (UTF-8) as used by `kitti/oxt_reader.rs` (standard library, after its documentation) |
| `Verif/Model/Print.lean` | the directory readers with `print_status` |
| `Verif/Model/Viz.lean` | `GridUpdater`/`AppState` as a transition system over threads and locks |
| `Verif/Model/VizWeak.lean` | the same with a relaxed flag: modification order and views |
| `Verif/Model/VizMap.lean` | the occupancy map of the crate as the map of that transition system |
| `Verif/Model/Memory.lean` | `integrate_point_cloud`, and the visualizer, where an allocation can fail |
| `Verif/Model/Release.lean` | the functions with `isize` arithmetic, with the overflow treatment as a parameter: checked or wrapping |
| `Verif/Model/Pose.lean` | rotation matrices, poses, `transform` of a cloud by a pose, the marker drawn at a pose |
| `Verif/Model/VizMain.lean` | `main` of the visualizer: reading a folder, pairing poses and clouds; IEEE 754 decoding of words |
| `Verif/Model/Frame.lean` | the drawing calls of a frame (`step`, `draw_frame_marker`) |
| `Verif/Replay.lean` | the unit tests of the repository, run on the model (tests, not proofs) |

Every function is written once, generic over `Scalar F` and the dimension `D`. Results come in three
tiers, and each theorem says which one it is in:

1. **any arithmetic** – holds for every `Scalar F` (possibly with two or three trivial laws such as
   `(1.0 as isize) = 1`), hence for f32 with NaN, infinities and rounding;
2. **f32** – holds for the bit-accurate `F32`, with the working range in the hypotheses;
3. **exact** – holds for exact reals. A property proved only here, whose English claim is about f32,
   is suffixed `_partial`, and where f32 breaks it there is a counter-witness.

Panics are values of the model, so "does not panic", "panics exactly if" are statements about it.
A Rust loop that may not end is run with fuel: "returns" means `ok` for some fuel, "never returns"
means `fuel` for every fuel.

`HashSet` is a duplicate-free list; every loop over it takes an arbitrary permutation of the list, and
theorems quantify over that permutation. In the visualizer it is one permutation per recording; C87 lifts that.

### Not modelled

Memory exhaustion and allocation failure, except in C101 (a limit on each allocation of `integrate_point_cloud`); printing other than `print_status`, and failing output; file-system errors other than
per-entry failure of listing/reading; text → float parsing is a parameter (any partial function)
except in C76 and C77, which model it;
what kiss3d does with the drawing calls (the calls themselves are in C95), and the camera; the command line beyond its folder argument;
`src/map/block_grid_map.rs` (not part of the crate: not listed in `map/mod.rs`, and holds no function besides an
empty constructor); the macros `cell2!`, `point3!` etc. (notation); the type
aliases (`GridMap3i` and `GridMap3b`, `src/map/grid_map.rs:18-19`, are aliases of the two-dimensional map, so no
three-dimensional map of these types is meant by the theorems on them); trait plumbing without behaviour
(`Debug`, derived `Clone`).

## 3. Per property

| Id | Modelled / proved how |
|---|---|
| C01 | `F32`: error analysis of the four roundings; range |cell| ≤ 2^20, |offset| ≤ 2^20·res. Counter-witness for huge cells |
| C02 | `F32`: nearest-integer property of `round` plus error terms |
| C03 | `F32`: monotone rounding through sub, div, round, saturating cast |
| C04 | false as documented: proved for non-negative offsets in cells, refuted for negative ones (`_partial`) |
| C05 | any arithmetic: pointwise equality, also for the per-axis resolutions (`C05_size_per_axis`) |
| C06, C07 | integers; arithmetic of truncated remainder, leastness by divisibility |
| C08 | `F32`: same error kit as C01 |
| C09 | any arithmetic for acceptance; `F32` for the NaN part |
| C10, C11, C14 | order on `F32` values via the embedding of non-NaN values in a linear order |
| C12 | `F32`: monotone rounding (`floor(fl(v/r))·r` cannot exceed `v` after rounding); `C12_near` adds the error of quotient and product: on the grid within the tolerance, moved by at most a cell |
| C13 | lists; flat column-major matrix and chunking are inverse |
| C15 | any arithmetic for per-point independence; exact for affine/composition |
| C16–C21 | any arithmetic; induction over the loop |
| C22 | (partial) `F32` with a positive limit: in the working range (`Spec.RayRange`), and in the wide range (`Spec.WideRange`: coordinates and limit up to 2^30, resolutions 2^-20 to 2^30, any number of cells; the axis of the largest component keeps a finite `t_max`, because additions are lost at 2^100; a far cell is beyond the limit even with inexact points). Exact arithmetic without a limit, end off the borders. Refuted: f32 without a limit (`C22_border_missed`), with a limit when the squared length overflows (`C22_overflow_hangs`) or when a component is subnormal (`C22_tiny_hangs`) |
| C23 | exact: separation of crossing parameters, then invariant "the segment piece lies in the cell" |
| C24 | `F32`: accumulated error of `t_max` against the margin, same separation lemma |
| C25 | `F32`: all other axes have t = ∞ |
| C26 | (partial) refuted as stated: general theorems for which non-finite inputs the caster hangs or walks away from the ray; true part: returns when NaN or the last axis is involved and there is a limit |
| C27–C29 | any arithmetic; sets as duplicate-free lists |
| C30, C31 | any type of values; injectivity of the row-major offset |
| C32–C36 | `F32`: invariant "bounds are the f32 image of integer cell bounds, shape matches" (`Spec.Placed`); preserved by expansion; `C34_not_larger` bounds the growth in world coordinates |
| C37, C42 | `F32`: order properties of min/max, monotone addition |
| C38–C41 | any arithmetic for the update; simulation with a world-indexed function; C40 also over whole sessions of scans, switching and clearing (`C40_session`). `C38_occupancy_map` and `C41_occupancy_map` state the results for the methods of the occupancy map itself, for calls in sequence (`Spec.OccRuns`) |
| C42, C43 default model | `C42_default_model`, `C43_default_unknown`: the map made with the default noise model, for every platform `ln` that passes the crate's own tests (`Spec.TestedLn`, `src/math.rs:36-40`) |
| C43 | any arithmetic |
| C44 | (partial) refuted as stated; proved for scans that keep the margins of `Spec.ClearScan`; for all scans in the working range (`Spec.ScanRange`) `C44_decides` gives the exact condition, and two theorems give it in world coordinates |
| C45 | `F32`; `ln` a parameter |
| C46 | exact with `Real.log`/`Real.exp`; `F32` monotone given monotone libm |
| C47 | `F32` |
| C48–C51 | bytes, fields, listings as lists |
| C52–C55 | invariants of the transition system, induction over runs; for C53/C55 runs are cut into cycles |
| C56 | any arithmetic: two runs of the loop in lockstep; `F32` for comparing limits |
| C57 | `F32`: error bound of the accumulated `t_max` turned into a distance from the segment |
| C58 | composition of C24, C38, C57 and the expansion lemmas |
| C59 | exact: matrix identities; `F32`: error analysis of the 3x3 products |
| C60 | lists; C61: the words as sign, exponent, mantissa, infinities and NaN words |
| C62 | `F32` error kit of C08, refinement to the same abstract array as C32 |
| C63 | refinement: the grid map simulates a partial function, per call, then per sequence |
| C64 | order embedding of floats; canonical zeros in the bounds; C29, C38, C39 |
| C65 | relation "equal up to sign, zeros identified" preserved by every float operation the caster uses; lockstep induction |
| C66 | `F32`: one scan repeated: the per-cell update is monotone and clamped, so values reach a fixed point; C38, C41 |
| C67 | `Fp f`: for scans that fit the map (`Spec.Fits`), a cell with only hits or only misses gets the same update each time, so any permutation will do; `F32` for the bounds under growth; refuted for cells with both hits and misses (`C67_mixed_refuted`) |
| C68 | `F32`: error of the squared norm against the real distance from the sensor to the centre of a cell, tolerance `Spec.rangeTol`; then along the ray and through `cast_rays` to the scan |
| C69 | composition of C41, C54, C55 and C60: induction over runs, with the number of integrations carried out against the number of workers started |
| C70 | exact (`XR` with `Real.log`): log-odds of a posterior are a sum, clamping commutes with the monotone log-odds. `F32`: induction over the observations, one rounding error per informative one, min and max are 1-Lipschitz; composed with C41. The default parameters are compared with the real logarithms through the series of exp |
| C71 | `F32`: updates are monotone in the old value, so a run of hits from anything within the limits ends between the same runs from both limits; composed with C41 |
| C72 | `F32`: error terms of the quotient and of `1 - 1/(1+e)` against real logarithm and exponential; a float other than 1 is 2^-24 away from 1; the sigmoid is 1/4-Lipschitz, and its slope falls off faster than the log-odds grow; composed with C70 |
| C73 | `F64`/`F32`: decimal texts get their value from a small grammar in Spec/Gps.lean (sign, digits, point, exponent); interval error terms through the f64 formula, rounding to f32, Lipschitz bound of the rigid motion in its angles, on top of C51 and C59. What the formula should give (arc along the parallel) is stated separately, and the deviation proved (C73_east_overstated) |
| C74 | `F32`: rounding is monotone, so the comparison with a representable tolerance, and of two rounded numbers, follows from the exact one; error terms for the converse; witnesses for the failure of transitivity |
| C75 | `F32`: a ray does not turn back (`C19_no_return`), so all cells before a near cell are near and the cut of C56 comes later; then C57, C58 and C68 for the whole scan |
| C76 | `Fp f`: the one-pass scanner of `Model/Parse.lean` against `Spec.decimal` (digits as a positional sum, split at point and exponent) and `Spec.Special`; then C50, C51 and C73 with this parser |
| C77 | bytes: the decoder (`fromUtf8`, by ranges of bytes as in the standard library) against the encoder of RFC 3629 (`Spec.utf8`), both directions; then C76 |
| C78 | names as byte lists in lexicographic order (`PathBuf` on Unix); induction over the width of the index; then C49, C51, C60 |
| C79 | induction over the loop with its output and its captured variable |
| C80 | C60 with C73, C76, C77, C78: the whole chain for the model of `main`, stated with bytes, decimals and real rotations only |
| C81 | C69 (values are what the scans played tell) with C71 (recent observations decide), C57 and C68 (which cells a ray reports, in world coordinates), induction over runs for the corner and the size of the map; then C80 and perturbation by its error for the numbers in the files |
| C82 | invariant over runs of the thread model: the map keeps the state in which C44 lets every clear scan in, changed cells stay readable, no lock is poisoned; runs constructed by induction on k, fair runs by the measure of C52; then C80 as for C81 |
| C83 | second transition system with modification order and views; refinement both ways, with an invariant on the views (whoever may store knows the last store; the render thread knows every store but a last `true`) |
| C84 | C57 (f32 cells are near the segment), C23 (exact cells cover it), C19: both are shortest paths between the same cells, so as one contains the other they are equal; the ends by clearness. The scan: C28 and the lemmas of C58 |
| C85 | `SameUnless e` (the first call fails with `e`, or both have one outcome) is kept by `>>=`, `seqFin` and folds; with `e` = overflow it relates the two builds, with `e` = fuel two amounts of fuel, which gives the outcome of a worker of the visualizer; steps of the visualizer use the integration only through its outcome. Differences by evaluation |
| C86 | By C84 both rays consist of the cells their segments touch; touching is invariant under the motion (distances in cells are), and two shortest paths with the same cells are equal. The diagonal, by evaluation, is the counterexample at corners |
| C87 | Bisimulation: integration does not look at the recorded cells (equation), with C39 its outcome (return, panic, no end) does not depend on the order, and what the renderer makes of a batch depends only on the set of its cells |
| C88 | For a clear ray the f32 walk visits exactly the cells its segment meets (C85), the end cell is the cell of the point; told world cells do not depend on the lowest corner (C69), so the fold over the geometric answers is the stored value; on the screen with C55 for scenes whose first recording reaches the lowest tile (`LowestFirst`, C55_lowest_first) |
| C89 | C80 bounds the error of each number; a real segment clear with that room makes the f32 segment clear, with the same end cell and the same cells met (`clear_of_near`); then C88 |
| C90 | the invariant of C83 holds for any hash orders, so runs with a relaxed flag and changing orders project to runs of C87, and these to runs with fixed orders; then C82 and C89 |
| C91 | induction over the loop for the work; monotone chain of cells against the length limit (Cauchy-Schwarz) for limited rays; reachability invariant with the smallest tile box from C34 for memory |
| C92 | reachability: a drawn entry is traced back to the batch that inserted it; the map is the fold of C69, a cell never hit stays at or under 0; float error of cell and point in a grid of bounded size |
| C93 | the invariant of C55 for one cell, entered at a processed batch instead of at the start, and kept while the corner stays; what breaks it otherwise is traced step by step |
| C94 | the rounding function is compared with distance and digits: grid of representable values around the result, ties, overflow bound; the square root through its bracketing of the real root |
| C95 | the calls of a frame as a list; quaternion rotation of the axes with error analysis in f32, on top of C80, C90 and C92 |
| C96 | rounding commutes with powers of two above the subnormal range; lockstep of the two ray loops and of the two maps, induction over the scans |
| C97 | the squared length of a flat vector is the same float in both dimensions, the third time is infinite; lockstep of the loops, leastness of the grown boxes, induction over the scans |
| C98 | the direction is NaN on all axes, so the loop always chooses the last axis and steps down; the bounds ignore NaN, so the map grows as for the cloud without it; distance of the cell below the floor within the limit; saturated conversion of infinity and overflow of the tile rounding; invariant of the visualizer up to recording r, C52 and fairness; records one at a time through decoding and transformation |
| C99 | the direction is NaN on all axes and so is every distance, so the loop steps down the last axis and never stops for the range limit; the cells of sensor and point from their numbers (C91) show that they are not in one column; records one at a time through the parser, the conversion to metres, and the transformation, coordinate by coordinate; invariant of the visualizer up to recording r as in C98, with a call that does not return in place of a panic |
| C100 | every product of the quaternion has a sine or cosine of each half angle, so one that is NaN spoils all four numbers and the whole matrix; an infinite offset passes through the conversion to metres because the other factor is a nonzero finite number (the cosine within 80 degrees is at least 1/1000), and through the transformation because the rest of the row is finite; then the invariant of C98 |
| C101 | refinement: each operation on the limited machine is that of C28 and C34 followed by a comparison of sizes; the fuel of the loop of a ray is the room of its list, so the two agree step by step; the sizes of the sets by C28 and C27 as cardinalities of sets of cells; the visualizer by the invariant of C98 (lost sensor), and by the range of C91 and congruence of steps (enough memory) |
| C102 | NaN coordinates convert to cell 0 and leave the bounds empty, so the map is the tile at the origin and every ray ends where it starts; once the map has grown west or south, the origin's cell is not cell 0 and the rays go straight down (C98), past the floor; invariant indexed by the number of scans taken in; case analysis of the first round for what is drawn |
| C103 | the position of a cell in a ray is its number of steps from the start, because a ray never turns back; so the ray to the nearer point is a full beginning. In f32 the cells of a clear ray are the cells the segment meets (C84), and those of a piece of it are among them; scans by C88 |
| C104 | the ray with a limit is the beginning of the ray without one up to the first cell too far (C56); a clear ray without a limit meets the cells the segment meets (C84) in the order in which it does; the f32 test of the limit agrees with the exact one off the limit (C68). Playback, visualizer and screen as for C88, by lemmas for any answers of the scans. `C104_moves`: inside, held, blocked and the distances in cells are kept by a motion of the grid |
| C105 | real numbers near rational ones: for clear segments the cells met, their order and which of them are too far agree; then C104. The folder as in C89, by one lemma for any answers of the scans (`folder_tells`). The example has a recording with a point 71 m away |
| C106 | induction over the cast loop run with two limits; a cell from the cut on has the cell of the cut in the box between it and the sensor (C18, C19), so it is far; lockstep of two playbacks: the bounds depend on the clouds only |
| C107 | after one round the bounds are fixed (C27, C69), so a round acts on the value of a cell as one function; it is monotone since rounding, min and max are; the iterates of a monotone function on a finite set are monotone, so they settle |
| C108 | the outcome of an integration is decided by the bounds and the scan (C44); a playback of the second round shows every scan returns with the final bounds; then C82 with an invariant over the reachable states |
| C109 | one step is monotone in value and model; two playbacks in lockstep have the same bounds (C106), so every scan tells the same about every cell in both; whether a scan returns depends on the cells and the range limit only (C38) |
| C110 | C80's error bound from the bytes to the scans gives the hypotheses of C107 and C108 for the default map; those are then applied |
| C111 | one scan by the two cases of `seen`; the line by C57 with every ray cell in the grid, since the integration returned; the maps in lockstep as in C106, with only the extents of the scans equal |
| C112 | `castRay` reads `bounds.min` only; C111 with the lower corner in place of the bounds, which C55's first-recording condition fixes after every scan |
| C113 | both `main`s read the same poses, so clouds are images of the records under one map; C112 from real-number geometry |
| C114 | C105 with the measurement error added to the rounding error; two folders that measure one scene are both compared with it |
| C115 | what a scan tells is the union over its points; the fold over the parts against one application of their union; returns iff every ray is cast into the grid |
| C116 | `C116_corner`, `C116_cells` (rounding to the grid is monotone in cells in spite of the tolerant comparison), `C116_fits`, `C116_scans` (rows of clouds that reach farther need the larger map), `C116_parts_fit`, `C116_parts` (a scan in parts and in one piece: same bounds, same size) |
| C117 | `C117_geometry`, `C117_scan` (a large cell is told what its small cells are told together), `C117_playback` (values of large and small cells compared), `C117_drawn` (an occupied large cell has a measured point), `C117_lost` (a coarser grid can lose an obstacle) |
| C118 | `C118_logodds` (probability 1 is infinity, 0 minus infinity), `C118_step`, `C118_last` (hit 1 and miss 0: the last observation decides), `C118_for_ever` (hit 1 and maximum 1: one hit is for ever), `C118_crossed` (limits on the wrong sides of the threshold invert the picture), `C118_map`, `C118_occupied` (the same on the map, through C41) |
| C119 | `C119_extent` (the larger tiles round the map out), `C119_values`, `C119_screen` (clear scans: the same values, the same cells drawn), `C119_border_refuted` (witness: next to a border the tile size decides) |
| C120 | `C120_extent` (the map contains the origin and is as long as the points are far), `C120_memory` (cells at least by distance), `C120_limited` (with a limit on allocations), `C120_moved` (witness: the same scene near and far) |
| C121 | `C121_ray` (linked to the sensor's cell), `C121_scan` (one piece), `C121_cast_rays` (the two sets together), `C121_drive` (a row of scans, in world cells), `C121_map` (cells of an occupancy map), `C121_free_refuted` (the free cells alone), `C121_jump_refuted` (a sensor that jumps) |
| C122 | `C122_cast_rays` (when the sensor's cell is occupied, and when free), `C122_told` (what a run tells about it), `C122_inside` (it is in the map), `C122_map` (its value), `C122_default` (numbers of scans in the default map) |
| C123 | `C123_values` (rows of observations), `C123_points` (more points in a scan), `C123_map` (two runs) |
| C124 | `C124_rows` (rows of observations), `C124_map` (two runs) |
| C125 | `C125_rows` (any noise model), `C125_short` (the default one), `C125_map`, `C125_long_refuted`, `C125_map_refuted` |

Properties that cannot be expressed: none of the list; limits are listed under "Not modelled".


## 4. Testing the theorems

`seeded/LOG.jsonl` has one line per wrong program: the model edited in a scratch copy, everything rebuilt, the
theorems that no longer prove (directly or because a lemma they use fails). A claim listed as broken with no failing
theorem would be a theorem that is too weak; such cases are followed by the theorems tightened.
