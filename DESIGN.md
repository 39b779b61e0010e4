# Formal model of stonier/cost_map in Lean 4

Everything lives in `lean/Verif`. `lake build` in `lean/` checks it; `vcheck` is the gate.

## Trusted base

* Lean 4.33.0's kernel. The theorems depend on no axioms other than Lean's own `propext`,
  `Classical.choice` and `Quot.sound`; no axiom is added, there is no `sorry`/`admit`, no
  `native_decide`, no `bv_decide`. Mathlib (installed, not modified) supplies ordinary proved lemmas.
* That the definitions under `lean/Verif/Model` say what the C++ says. Every definition cites the file
  and lines it models and names its simplifications.
* `grid_map_core` (plus `grid_map_costmap_2d`, Eigen, OpenCV, yaml-cpp, ROS) is **not in this repository and
  not on this machine**. `Verif/Model/GridMath.lean` models the grid_map_core functions cost_map calls
  (`GridMapMath.cpp`, release 1.6 series) from knowledge of that library. It is part of the trusted base.
  The one function whose meaning changes the verdict, `boundIndexToRange`, is a *parameter* of the model
  (see "Disagreements", D1).

## What is modelled, and how

* Numbers. Positions, lengths and resolutions range over an arbitrary linearly ordered field with floor
  (so ℚ and ℝ both): **floating-point rounding of coordinates is not modelled in most modules**. `Verif/Model/Rounded.lean`
  models `setGeometry`, `getIndex`, `getPosition`, `isInside`, `atPosition` and `move` with a rounding after every operation
  (C73-C75), `Verif/Model/RoundedMerge.lean` `addDataFrom` and `extendToInclude` (C76, C77; `std::fmod` is exact), `Verif/Model/RoundedSubmap.lean`
  `getSubmap` (C78), `Verif/Model/RoundedShapes.lean` the circle, ellipse and polygon iterators (C80; `std::pow(x, 2)` is the correctly rounded
  square, `sin` and `cos` are parameters close to a rotation (`IsRotation`), `sqrt` is one with a relative error bound (`SqrtNear`)), `Verif/Model/MachineSpiral.lean` the spiral iterator (C81; `std::sqrt` of a whole number is `sqrtDouble`, in the
  theorems any function close to the root that does not cross whole numbers, `SqrtInts`), `Verif/Model/MachineLine.lean` the line iterator
  between positions (C93; `std::sqrt` is `rootDouble`, in the theorems any function whose square has a relative error of 2^-50; Eigen's
  `normalized()` divides by the root of the squared norm and returns a vector of squared norm zero unchanged); overflow,
  subnormal numbers, NaN and fused multiply-add are not modelled there. The order of the operations
  inside grid_map is that of release 1.6 as known from that library; later releases also test the index in `getIndexFromPosition`,
  which removes D30. Byte-valued conversions (image, occupancy) are modelled with explicit binary32/binary64 rounding. Indices are
  unbounded `Int`s: **32-bit overflow is not modelled in most modules**. `Verif/Model/Machine.lean` models the index arithmetic of the
  geometry, of `move` and of the map, submap and line iterators in 32 bits, with an undefined outcome on overflow (C79),
  `Verif/Model/MachineShapes.lean` that of `getSubmap` and of the circle, ellipse and polygon iterators (C79),
  `Verif/Model/MachineMerge.lean` and `Verif/Model/MachineInterpolation.lean` that of merging, extending and interpolated access (C79),
  `Verif/Model/MachineSpiral.lean` that of the spiral iterator (C81), and `Verif/Model/MachineInflation.lean` the `unsigned int`s of inflation,
  which wrap, with a radius that may be NaN or infinite (C94; the conversion of a `double` outside of its range to `unsigned int` is an undefined outcome;
  that memory for the caches may run out is not modelled). `Verif/Model/RoundedConversions.lean` models the conversions with a rounding after
  every operation on coordinates (C95), `Verif/Model/RoundedCostmap2D.lean` the reading of ROS costmaps (C96; numbers of cells are unbounded
  there), `Verif/Model/MachineCostmap2D.lean` and `Verif/Model/MachineConversions.lean` the same with `int`s that overflow (C107, C108; bundles in `Verif/Model/MachineBundle.lean`, C110; the `unsigned int` and
  `int` variables inside costmap_2d are part of the model of that library, and a conversion of a `double` out of range is an undefined outcome).
* Costs are `UInt8`. A matrix (`Mat`) is its dimensions plus column-major storage of exactly rows*cols
  elements, as in Eigen.
* `std::unordered_map<string, Matrix>` is a partial function from names to matrices (iteration order of the
  C++ map is unspecified and every loop over it in the code is order independent).
* Outcomes. `Res` distinguishes a normal result, a C++ exception, a failed `assert` and undefined
  behaviour (out-of-range Eigen access, `back()` of an empty vector, reading an uninitialised member,
  conversion of an out-of-range double to an integer type). Mutators are `state → outcome × state`, so what an exception
  leaves behind is visible.
* Iterators are state machines (construct, deref, increment, isPastEnd). What a `for` loop sees is the
  inductive relation `Visits`, independent of the machines.
* The inflation priority queue is any data structure that satisfies the contract of
  `std::priority_queue` (`PopOk`: pop returns a minimal element); ties may be broken in any way. `std::hypot` rounded to
  float is any function that compares with whole numbers as the exact distance does (`HypOk`). The product of a distance
  with the resolution is exact, except in `Verif/Model/InflationFloat.lean` (C91), where the quotient of radius and resolution and that
  product are rounded, and `HypOk` is proved of a `float` rounding of a `double` square root with relative error 2^-50 (`HypotDouble`); the caches' allocation succeeds. The ROS cost uses any monotone roundings and any monotone
  exponential (`RoundOk`, `ExpOk`).
* Eigen's linear solver (linear interpolation) is a parameter; `SolveOk` says that it returns a solution of a system
  that has one. Rounding of the system, of the solver and of the blend is modelled in `Verif/Model/RoundedInterpolation.lean` (C92), where the solver has an assumed error bound.
* Messages. `ros::Time` is a pair of 32-bit numbers; `fromNSec` throws when the seconds do not fit. The
  array helpers (`multiArrayMessageCopyToMatrixEigen`, `matrixEigenCopyToMultiArrayMessage`) belong to `grid_map_ros`,
  which is not in this repository; they are modelled from knowledge of that library. NaN and infinities in a message are modelled in `Verif/Model/Ieee.lean` only (C90).
* Grid maps. `grid_map::GridMap` is reduced to what `toGridMap` calls (`setGeometry`, `add`) and to `atPosition` for stating what
  a reader sees; its elements are rationals or NaN. How a reader finds a value in a `nav_msgs/OccupancyGrid` is
  `OccupancyGrid.valueAt` (the convention of that message: row-major from the lower left corner).
* Binary rounding. `Verif/Model/Float.lean` rounds a rational to 24 or 53 significant bits, to nearest, ties to even.
  Overflow and subnormal numbers are not modelled: the values it is applied to are far from both. That the result is a
  nearest representable number is proved (`binRound_nearest`).
* Images. cv_bridge hands over the pixels of a well-formed image; OpenCV's conversion of a colour to gray and the byte order of the
  machine are parameters (`Cv`); `Cv.GrayOk` says that gray stays gray.
* Image bundles. A directory (`Files`) is one YAML file, parsed or not, and images by name; writes succeed and different names are
  different files. Printing a number to YAML and reading it back is a parameter (`txt`), rounding to `float` is one with
  relative error 2^-24 (`Close24`, which `toFloat` is proved to meet). An interrupted save leaves the files that were written before, and the one being written truncated
  (`Verif/Model/Crash.lean`).
* Any file as a bundle (`Verif/Model/AnyBundle.lean`). The YAML file is missing, not parsable, or any tree. Modelled from knowledge of
  yaml-cpp: a look-up finds the first equal key of a mapping, nothing in a list or an empty value, and throws on text; reading a value as
  a type it is not of throws a `std::runtime_error`; text has no items; items of a mapping are looked up by keys that read as
  their number. How texts read as numbers, and what an empty value reads as, are parameters (`Reader`). An image file has 8
  or 16 bits per channel; cv_bridge is given an encoding of 8 bits in both cases, so that it takes the bytes of the first half of each row
  of 16-bit data as pixels. Coordinates are `double` and `float` with infinities and NaN.
* A partly written YAML file (`Verif/Model/YamlCrash.lean`): it cannot be parsed, or it is a tree from which values are missing at the end
  and of which the last text may be cut off (`Yaml.Cut`); this allows more than yaml-cpp makes of such files.
* ROS costmaps. `costmap_2d::Costmap2D` and `grid_map::Costmap2DConverter` are not in this repository; they are modelled from knowledge
  of those libraries in `Verif/Model/Costmap2D.lean` (worldToMap, the copy of the char map in reversed order, the window
  aligned to cells). That the lock makes a call see one state of the ROS costmap is proved in C84. The trace of TF is the optional robot pose.
* Nodes. A node is a state machine that is fed the messages it receives one after the other; an exception or a failed assertion in a
  callback ends the process. The list of registered resources (`ros::package::getPlugins`) is a parameter.
* Threads. The transform broadcaster (`Verif/Model/Broadcaster.lean`) and the conversions of ROS costmaps (`Verif/Model/Locking.lean`) are
  modelled with their threads: steps interleave, atomics and mutexes are sequentially consistent. In the broadcaster, conflicting
  accesses to the map of transforms without synchronisation are undefined behaviour. The threads of costmap_2d are external; they are
  taken to hold the mutex of the costmap for a whole update, and an update is any sequence of writes. The mutex is recursive, which is
  not used here.
* Infinities, NaN and overflow (`Verif/Model/Ieee.lean`): `isInside`, `getIndex`, `atPosition`, `move`, `setGeometry` and `fromMessage`
  are modelled again with coordinates that are numbers, infinities or NaN. The rules for them are those of IEEE 754; the sign of a
  zero is not kept, underflow is left to the rounding. A conversion of such a value to `int` is undefined behaviour, as the C++
  standard has it. The other functions are modelled for numbers only.
* Command line tools (`Verif/Model/Tools.lean`). What ROS does is modelled from knowledge of roscpp: a subscriber's queue of length one
  holds the newest message at a poll; a latched topic sends its last message to each new subscriber; a persistent service client makes
  its connection at the first call that finds the service, and fails for ever once that is lost. Writing a file that
  cannot be written is taken to do nothing (`cv::imwrite` returns false). Parsing the command line is not modelled.
* Histories. Mutating calls form a type `Call`; `Held` is the inductive predicate of the maps a program can reach by them (constructor,
  calls that returned, calls that threw and were caught, submaps). Properties over histories are by induction on `Held`.
  Replacing a whole matrix through the reference returned by the non-const `get()` is not one of the calls.
* Histories on the machine (`Verif/Model/MachineHistory.lean`). `MachineCall` and `HeldI` are the same with rounded `double`s and overflowing
  `int`s. What a caller has to see to is `World.Fits`: coordinates lie in a world of at most `2^23` cells. Maps made from ROS costmaps are
  among the calls; what the costmap has to fulfil is `World.Costmap`.
* C99 and C100: `std::exp` is any monotone function with values that are not negative and `exp 0 = 1` (`ExpOk`), rounded; infinities and NaN as in IEEE 754.
  `MatrixXf::resize` and `Matrix<unsigned char>::resize` leave arbitrary content (`junk`). A cost function given by a user is any function of
  a distance to a cost, an exception or undefined behaviour; it has no state.
* Arguments that alias the map (`Verif/Model/Aliasing.lean`): the functions that take references are modelled a second time with arguments
  that name a part of the map and are read at each use. A destroyed string that is read is undefined behaviour.
* Kept references (`Verif/Model/References.lean`): that `std::unordered_map` does not move its values and that Eigen keeps an array that has
  the right number of elements are taken from those libraries. Assigning to a whole map or a whole matrix is not modelled.

Not modelled: ROS transport (except, in C112, that the messages of a topic arrive in order, late or not at all), the threads inside costmap_2d, file formats (YAML, PNG), OpenCV and cv_bridge
internals (only their pixel contract), TF transport and time stamps, log messages, rviz/visualisation launch code, the
deprecated `Costmap2DConverter` internals of grid_map_costmap_2d.

Layout: `Verif/Model/*` (the model), `Verif/Spec/*` (small independent specifications),
`Verif/Lemmas/*` (helpers), `Verif/Props/*` (the property theorems, each followed by a concrete
example that meets its hypotheses).

## Plan per property

| id | modelled | proof |
|----|----------|-------|
| C01 | CostMap state and all mutators as `Call` | invariant by induction over `Held`; counterexample for duplicate constructor names |
| C02 C03 C04 C05 C06 C07 C08 | store functions, `at`, clear*, isValid, getPosition3, getVector | direct from the model, stated through get/at/getLayers |
| C09 | setGeometry | rounding lemma, resize/clear lemma |
| C10 C11 C12 | getIndex, getPosition, isInside over any ordered field | modular arithmetic on the start index + floor bounds |
| C13 C14 | atPosition read/write, buffer rotation | from C10-C12 |
| C15 C16 | CostMapIterator, SubmapIterator state machines | induction on the remaining cells, `Visits` |
| C17 C18 C19 | Circle/Ellipse/Polygon iterators as filters over SubmapIterator | filter lemma + bounding-box lemma; crossing-number parity for polygons |
| C20 | Bresenham state machine | loop invariant |
| C21 | stepping search | termination measure; counterexamples for missing initialisation |
| C22 | ring walk | quadrant invariants, termination measure |
| C23 | SpiralIterator | from C22; counterexample for the empty ring |
| C24 | shared internal iterator | two-copy model, counterexample |
| C25 C26 C27 C28 | getSubmapInformation, getBufferRegionsForSubmap, block copies | per-axis interval arithmetic |
| C29 C30 C31 C32 | move parametrised by the index bounding function | per-axis case analysis; refinement to an unbounded world grid |
| C33 C34 | addDataFrom | fold over visited cells |
| C35 C36 | extendToInclude | aligned case proved, counterexamples otherwise |
| C37 | bilinear solve | the 4x4 system has a unique solution; convex combination |
| C38-C44 | Inflate with an abstract priority queue | loop invariants over all schedules |
| C45 | ROSInflationComputer over ℝ | monotonicity of exp and floor |
| C46 C47 | Deflate | cellwise |
| C48 C49 C50 | toMessage/fromMessage | round trip on storage lists; counterexamples |
| C51 C52 C53 | toOccupancyGrid, toGridMap | index arithmetic; finite table with binary32 rounding |
| C54 C55 | addLayerFromROSImage | iteration lemma + table |
| C56 C57 | image bundle | table with binary64 rounding; counterexamples |
| C58 | callback state machine | induction on message list |
| C59 | service callback and relay | counterexample |
| C60 | resolveResourceName | lists of characters; counterexample |
| C61 | CostMapIterator::end | counterexample; partial for maps that were not moved |
| C62 | LineIterator on moved maps | invariant of the line machine; counterexample |
| C63 | SpiralIterator rings | counterexample; outermost ring |
| C64 | fromCostmap2DROS | index arithmetic between the two storage orders |
| C65 | fromCostmap2DROSAtRobotPose | alignment of the window; counterexample |
| C66 C67 | relay and visualisation node | induction on the replies; counterexamples |
| C68 | the states of the directory while toImageBundle runs | invariant of the states, for every earlier content of the directory; each mixture it allows occurs; counterexample |
| C69 | save node, load node, subscriber | composition of C48, C57 and C58 |
| C70 | fromImageBundle on any bundle | induction on the layer table |
| C71 | all mutators as `Call` | invariant by induction over `Held`; witness that the precondition is needed |
| C72 | all mutators and conversions | compositional outcome rules over `Act`, invariants of C01 and C71; witnesses that the preconditions are needed |
| C73 | geometry with a rounding after every operation | error bounds operation by operation, for any rounding of relative error 2^-53; `toDouble` is proved to be one |
| C74 | isInside, getIndex, atPosition with rounding | error bounds; binary64 counterexample at the lower border by evaluation in the kernel |
| C75 | move with rounding | error bound of one move, induction over the moves |
| C76 | addDataFrom with rounding | C73 and C74 for the two maps, induction over the cells |
| C77 | extendToInclude with rounding | error bounds of both axes, case analysis of fmod; binary64 counterexamples by evaluation in the kernel |
| C78 | boundPositionToRange, getSubmapInformation, getSubmap with rounding | error bounds of the guard margin and of the two corners, copying of regions as in C25; binary64 counterexamples by evaluation in the kernel |
| C79 | `Model/Machine.lean`, `Model/MachineShapes.lean`, `Model/MachineMerge.lean`, `Model/MachineInterpolation.lean`: the index arithmetic again, each `int` operation giving `none` on overflow | bounds on every intermediate value; agreement with the unbounded functions, so the results of C15, C16, C20, C73 to C78 and C80 carry over; overflow witnesses by evaluation |
| C80 | `Model/RoundedShapes.lean`: the shape iterators with a rounding after every operation; `sin`, `cos`, `sqrt` are parameters with error bounds | relative error of the tests (circle 2^-50, ellipse axis ratio * 2^-46, polygon edges 2^-49); half a cell of slack between cell centres and box corners absorbs the rest; counterexample at the border by evaluation |
| C81 | `Model/MachineSpiral.lean`: the spiral iterator with a rounding after every operation, `int` and `unsigned` arithmetic and a rounded square root | the integer part of the rounded norm is the integer square root (errors far below 1 for offsets up to 2^24), so the rings are those of C22; induction over the rings; triangle inequality for the distances; the loop ends normally iff every ring before the last contributes (`C81_ends_iff`). False when the radius is a whole number of cells, up to rounding (D35), and for the current radius beyond 46340 cells (D36) |
| C82 | `Model/Demos.lean`: the loops of the constructor over a `Costmap2D`, with `unsigned` wrap-around and rounding to double; the characters written by the two printing functions | loop induction with the cells written so far; the rounded product lies within 2^-44 of the exact one, so its integer part can only differ where that is a whole number; two costs that round down to the same number need more columns than there are costs; decimal numbers followed by blanks are a prefix code |
| C83 | `Model/Broadcaster.lean`: two threads and the environment as a transition system, a schedule being a list of turns; data races, `std::terminate` and use of a destroyed object are states | an inductive invariant with three phases (before the start, while the thread lives, after the join); a measure on the turns left for termination; for the converse a failing schedule is constructed for each other order of calls |
| C84 | `Model/Locking.lean`: conversions as programs that ask for one member or cell at a time, any number of threads, a mutex; the pose of the robot and the time change at any moment | evaluating the programs on a constant costmap gives the functions of C64, C65; an invariant relates the threads to the order in which they got the lock; induction over programs and fairness for termination |
| C85 | `Model/Programs.lean`: `main` of inflations.cpp, composed of the models of loading, inflation, deflation and conversion; the `try` block turns exceptions into exit code 1 | composition of C70, C38, C40, C45, C46, C51; the inflation cost is lethal only at the obstacle itself |
| C86 | `Model/Programs.lean`: `main` of from_ros_costmaps.cpp with one message used for all grids; `getLayers()[0]` of an empty vector is undefined behaviour | composition of C64, C65, C51; case distinction on the first map without layers |
| C87 | `Model/Tools.lean`: the polling loop of save_image_bundle over rounds of arrived messages with a queue of length one; files that cannot be written stay as they were | induction over the rounds; composition with C58 |
| C88 | `Model/Tools.lean`: constructor and `main` of load_image_bundle on a latched topic; subscribers connect before or after the publication | list induction for the topic; composition with C70 and C48 |
| C89 | `Model/Tools.lean`: the loop of service_relay with a persistent service client whose connection can be lost | induction over the rounds; composition with C66; witness of a restart |
| C90 | `Model/Ieee.lean`: the functions that take coordinates on values that may be infinite or NaN, with overflow | case analysis over the kinds of values; bounds on every intermediate value, so that moderate numbers give the results of C79; witnesses |
| C91 | `Model/InflationFloat.lean`: `Inflate::operator()` with the quotient rounded to double and resolution, distances and products rounded to float | the run equals a run of the exact model with the rounded number of cells and a computer that rounds (`C91_same`), so C38 and C41 apply; error bounds of the quotient, the product and the float square root (exactly below 4096 cells it compares with whole numbers as the exact one does); counterexamples by evaluation in the kernel |
| C92 | `Model/RoundedInterpolation.lean`: `atPositionLinearInterpolated` with a rounding after every operation, the solver a parameter with a column-wise backward error of 2^-48 (`SolveStable`, assumed of Eigen's `colPivHouseholderQr`; a solver without errors meets it) | the residual bounds the coefficients, these bound the errors of the products and of the evaluation; binary64 witnesses by computation |
| C93 | `Model/MachineLine.lean`: the constructor of `LineIterator` from two positions with a rounding after every operation on coordinates and 32-bit integers; loops with fuel | the walk stays within a sixteenth of a cell of the segment as long as length times coordinates is at most 2^44 square cells, so after the whole number of steps nearest to the length the rest is shorter than a step; binary64 witness of a search that never ends by an invariant |
| C94 | `Model/MachineInflation.lean`: `Inflate::operator()` with cell coordinates and table sizes in `unsigned int`, conversions to `int`, and a radius that is any `float` | along the queue all coordinates stay inside the map, whose size is an `int`, so nothing wraps and the run equals one of `Model/InflationFloat.lean`; hence C91 applies, after any earlier calls; NaN, infinite and huge radii by cases |
| C95 | `Model/RoundedConversions.lean`: `fromMessage`, `fromImageBundle`, `toGridMap` and `toOccupancyGrid` with a rounding to `double` (or `float`) after every operation on coordinates | rounding errors are below half a cell, so the numbers of cells come back; all other steps do not look at the length, so a run equals the exact one up to the stored length, and C48, C57, C70 and C53 apply; for occupancy grids an error analysis of the origin and the columns |
| C96 | `Model/RoundedCostmap2D.lean`: `fromCostmap2DROS` and `fromCostmap2DROSAtRobotPose` with a rounding to `double` after every operation on coordinates (the libraries that do the work are modelled from knowledge of them, as for C64) | whole costmaps: error analysis of the centre and of both look-ups, then C74; windows: the corner that is looked up is at most a cell and a rounding error away, for any pose and length; on grids of multiples of a power of two every step is exact; four witnesses in `double` |
| exact conditions of C03 C17 C18 C29 C30 C35 C47 C48 C49 C51 C53 C57 C61 C62 | `Props/*Exact.lean`: where a property holds only under a condition, the condition is shown to be necessary as well | a map of the same shape with one marked cell refutes the property whenever the condition fails; per-axis arithmetic |
| C97 | `Model/AnyBundle.lean`: `fromImageBundle` for any YAML tree and image files of 8 or 16 bits, in `double` and `float` with infinities and NaN | every outcome by cases over the reading (`C97_outcomes`), with the description of the file as an independent relation; which files give which exception; valid files by the load theorems of C95 in two scalar types; witnesses for the other outcomes |
| C98 | `Model/YamlCrash.lean`: the YAML file of a save ends anywhere | case analysis over where the tree is cut, then C97; two witnesses of cut files that load as another map |
| C99 | `Model/RosInflation.lean`: the cost function on `Dbl` values in two formats, `computeCaches` with a cost function that may throw or be undefined | cases over finite, infinite and NaN values with monotone roundings; inflation equals that of C94 when all table entries are defined; witnesses for NaN and negative weights and large resolutions |
| C100 | `inflateC`: the table is filled entry by entry, and what `resize` leaves is a parameter | the first entry that throws ends the call; equality of the rebuilt objects; witness of a retry with the same radius |
| C101 | `Model/MachineHistory.lean`: every mutating call with the machine's numbers, and the maps a program can hold | one invariant, that the map is coherent, has a rounded geometry and lies in the world, is kept by every call, whether it returns or throws, and by submaps; by induction on the history; C74, C79 and C94 then apply; witness at the lower edge |
| C102 | the model of C78, C76 and C101 composed | the submap lies on the grid of the map up to a quarter of a cell (C78), the relation is symmetric and not disturbed by writes, so the merge works cell by cell (C76); the witness clears the submap |
| C103 | `Model/Loops.lean`: a loop over an iterator with any body that acts on the map; the iterators hold copies of the geometry, no reference | induction over the visited indices; every call of C101 that keeps the number of cells keeps the indices valid; the witness shrinks the map in the loop |
| C104 | `setPosition` | equivariance: every function of position commutes with shifting the map and the positions (`Lemmas/Relocate.lean`, a simulation over the action monad); the rounded case from C101 |
| C105 | `Model/Aliasing.lean`: the functions again with arguments that are read anew from the map at each use | equality with the plain calls; `erase` by a reference into the list of layers is computed exactly, and when it agrees is an equivalence |
| C106 | `Model/References.lean`: when each layer's matrix and array were allocated; references as (layer, array, offset) | invariant by induction over the calls; dangling references by monotonicity of the allocation counter; programs by simulation |
| C107 | `Model/MachineCostmap2D.lean`: `fromCostmap2DROS` and `fromCostmap2DROSAtRobotPose` with rounding and `int`s that overflow | same as C96 where nothing overflows; bounds from `World.Costmap`; new calls in the induction of C101 |
| C108 | `Model/MachineConversions.lean`: `toOccupancyGrid`, the service's callback and the relay's loop with rounding and `int`s that overflow | same as C95 below `2^31` cells; C96 and C95 composed; induction over the relay's calls |
| C109 | `Model/Accumulate.lean`: a loop of `addDataFrom`, exact and on the machine | induction over the list of maps with C33 (exact) or C76 and C79 (machine) for one step |
| C110 | `Model/MachineBundle.lean`: loading a bundle, and the two bundle programs, with rounding and `int`s that overflow | same as C95 where nothing overflows; C95's round trip for maps of C101; the loaded map is again one of C101; induction over the messages. The claim at positions is false (D2, D4): `C110_false_moved`, `C110_false_centre` |
| C111 | `Model/Mapping.lean`: a loop of `fromCostmap2DROSAtRobotPose` and `addDataFrom` on the machine | the window of C96 and C107 shows the costmap's cells at their places; C109's induction with windows as maps, and skipped readings |
| C112 | `Model/RemoteCopy.lean`: publisher's map, messages underway, reader's map; events call, publish, deliver, lose | refinement: simulation of a system that passes whole maps (`Snapshots`), by induction over the events; one step from C48-C50 and C95 read into any map |
| C113 | `wayClear` (Model/WayCheck): a user's loop of `LineIterator` and `at` over the layer that `inflate` wrote; exact arithmetic | segment against the discrete line of C20/C21: discrete intermediate values along the longer axis, at most two cells off along the shorter one; then C38/C41; `C113_false` for a radius of one cell |
| C114 | `wayClearI` (Model/MachineWay): the loop of C113 with the machine's line iterator (C93), inflation (C94) and map histories (C101) | the geometry of C113 with cells and positions that agree up to a sixteenth of a cell (Lemmas/NearWay); cells one column outside of the line's are next to one of its ends |
| C115 | `rebase`, `rebaseI` (Model/Rebase): a user's program of the default constructor, `setGeometry` and `addDataFrom`; then `inflate` and `wayClear` | C33 (C76 on the machine) cell by cell against lookups by position; C38, C41, C113 and C114 on the copy, carried back through equal centres; witnesses `C115_false`, `C115_false_far` without the copy |
| C116 | `placeClear`, `placeClearI` (Model/PlaceCheck): a user's program of one `atPosition` on an inflated layer; Spec/PlaceCheck says what it means that a round robot fits | distance of two positions against the Manhattan distance of their cells, then C41 (C94 on the machine) for soundness, C38 for completeness; ways through C113/C114, moved maps through C115; witness `C116_false` for a robot of the full radius |
| C117 | `inflate` called again on its own result (Model/Inflation, Model/MachineInflation) | the flood depends only on where the lethal cells are (`Tags.run_lethal`), and those do not change; algebra of `combined`; machine through C94 and C91; ROS computer through C45; witness `C117_false` |
| C118 | `circleClear`, `polygonClear` (Model/Footprint): a user's loop over the circle or polygon iterator with `at` | the loop run over the list of C17 / C19 (`Act.forIter_eq`, `wayCells`); the centre of the cell of a point is within half a cell of it, so a grown shape contains it; through `rebase` (C115) for moved maps; on the machine `circleClearI`, `polygonClearI` (Model/MachineFootprint) with the lists of C79 and C80 and the computed centre of C74; witnesses `C118_false_radius`, `C118_false_thin`, `C118_false_moved` |
| C119 | `inWindow`, `inflated` (Model/Window): a user's program of `getSubmap`, `Inflate` and one of the checks of C113, C116, C118 on the window | a submap is a map with its buffer start at zero that reads like its parent and covers the request (C25, C26), so C116 and C118 apply to it for every map; witness `C119_false_edge` for a robot that sticks out; on the machine (Model/MachineWindow, Spec/Window) the rows of the submap lie within a sixteenth of a cell on rows of the map (C78), so a lethal position of the map has one within 5/8 of a cell in the window, and C116 and C118 apply with a cell of margin; `C119_complete_machine`: where a robot fits in the map that is larger by four cells, the window says so |
| C120 | `fused` (Model/Fusion), `fusedI` (Model/MachineFusion): a user's program of `addDataFrom` and the checks of C119 | a cell of the other map that is not smaller contains the centre of a cell of the map (ceiling), which takes its cost (C33); then C119 on the merged map; witnesses `C120_false_coarse`, `C120_false_own`. On the machine (`C120_seen_machine_partial`, `C120_fits_machine_partial`): the step of C115 and the window of C119, for reachable maps of equal resolution whose grids agree up to an eighth of a cell; missing: other ratios and alignments; the converse in Props/FusionComplete: where a robot fits in both maps that is larger by one and two cells (on the machine by four and six), the merged map says so |
| C121 | `saveCopy`, `loaded`, `saveCopyI`, `loadedI` (Model/SavedPlan): a program that saves a copy of its map as an image bundle, and one that loads it, inflates it and looks | the copy of C115 starts its buffer at zero, so that the bundle keeps positions (C57, C110); a lethal cost is loaded as lethal and nothing else is (table of 256 costs); then C116 on the loaded map. Witnesses `C121_false_moved` (the map saved directly), `C121_false_centre`; `C121_complete_machine`: where a robot fits that is larger by three cells, the loaded map says so |
| C122 | `withRos`, `withRosI` (Model/RosPlan): a program that copies a ROS costmap to a new map, inflates it and looks | the cell in column `col` and row `row` is cell (sizeX-1-col, sizeY-1-row) of the map (C64), on the machine up to `axisTol` (C96, C107), which is less than a sixteenth of a cell; a point of a closed cell is drawn towards its centre; then C116 on the copy. Witness `C122_false_edge` |
| C123 | `received`, `rebased`, `receivedI`, `rebasedI` (Model/TopicPlan): a subscriber that reads a message into its map, copies it, inflates the copy and looks | the subscriber's map shows the published one (C48, C112) and, on the machine, is again one of those of C101; then C115 and C116. Partial as C48 is: the start of the buffer fits 16 bits and the time 32 bits of seconds. Witness `C123_false_direct` (no copy is made) |
| C124 | `Model/GridPlan.lean`: inflation followed by `toOccupancyGrid`, also after a copy with `setGeometry`, `addDataFrom`, `setFrameId` and `setTimestamp` | composition of C38, C51, C115 and C116, on the machine of C94, C108 and C116; the values 0 to 98 are exactly those of costs below inscribed (table over all costs); a moved corridor refutes the direct claim |

## Disagreements between the code and what its users are told (found while modelling)

Recorded here with the theorem that witnesses each; kept up to date below.

* D1 `move` calls `grid_map::boundIndexToRange`, which in grid_map_core >= 1.5 clamps; the circular buffer needs
  `wrapIndexToRange`. Every move whose start index leaves `[0,size)` misplaces the data
  (`C29_false_across_the_seam`, `C30_false_across_the_seam`, `C32_false_across_the_seam`).
* D2 `toImageBundle` stores the x coordinate of the centre in `centre_y` (`C56_false`).
* D3 Withdrawn: a first reading of the image bundle code suggested that lethal cells come back as 253. They come back as 254.
* D4 `toOccupancyGrid`, `toGridMap` and `toImageBundle` ignore the start index, so moved maps come out rotated (`C51_start_index_is_ignored`, `C51_false`, `C53_start_index_is_ignored`, `C53_false`, `C57_false`).
* D5 `fromMessage` keeps layers that are not in the message (`C49_false`) and destroys the map before it returns false (`C49_false_return_destroys`, `C49_false_changes_map`). The start index is sent in 16 bits (`C48_false`), timestamps from 2^32 seconds on throw (`C48_late_timestamp_throws`). Messages with a geometry that is not positive stop the process on an assertion (`C50_bad_geometry_asserts`), arrays that do not match their layout are undefined (`C50_false`).
* D6 Circle and ellipse iterators compute the bounding box size from wrapped indices (`C17_false_across_the_seam`,
  `C18_false_across_the_seam`).
* D7 SpiralIterator: `!=` is always false, empty intermediate rings are dereferenced (`C23_false_on_small_map`), start index ignored (`C23_false_on_moved_map`), a centre outside the map never ends for radius 0 (`C23_outside_centre_never_ends`), inner rings are not tested against the radius (`C63_false_inner_rings`).
* D8 LineIterator from positions that miss the map leaves its counters uninitialised (`C21_missing_segment_is_ub`).
* D9 Inflate reuses cost tables of earlier calls with another computer or resolution (`C43_false`, `C43_stale_costs`; `C43_reuse_iff` says exactly when that matters).
* D10 Inflation misses cells in Euclidean range for some obstacle layouts, whatever the queue order (`C42_false`). Cells reached over a path on which one obstacle is clearly the nearest are inflated exactly (`C42_clear_path_partial`).
* D11 extendToInclude in a negative direction by an odd number of cells shifts the map off its data (`C35_false`, `C36_false`); between maps that are not aligned the extension rounds down and leaves part of the other map out (`C35_false_unaligned`); with a basic layer that does not exist the data is lost on the way (`C36_missing_basic_layer_loses_data`).
* D12 `getSubmap` never writes `indexInSubmap` (`C27_index_is_never_written`, `C27_false`).
* D13 Linear interpolation on a moved map reads across the buffer seam (`C37_false`, `C37_false_neighbour_missed`); outside an unmoved map it is undefined except within one cell of the upper borders (`C37_outside_is_undefined`, `C37_outside_unmoved`); outside a moved map the costs are extrapolated (`C37_false_extrapolates`).
* D14 Inflate followed by Deflate turns unknown cells next to obstacles into free space (`C47_false`). A negative weight makes the ROS inflation cost undefined (`C45_negative_weight`).
* D15 16-bit images are read with the wrong byte order on little-endian machines (`C55_little_endian_swaps`, `C55_false`, `C55_not_antitone`).
* D16 Duplicate names given to the constructor survive in getLayers() after erase (`C01_duplicates`).
* D17 With no basic layers `addDataFrom(overwriteData=false)` overwrites valid data (`C34_false`).
* D18 A failed service conversion is answered with success and an empty map, which stops the relay on an assertion (`C59_false`, `C59_no_pose_stops_the_relay`); a window that leaves the costmap ends the relay with an exception (`C59_off_the_costmap_ends_the_relay`).
* D19 `CostMapIterator::end()` is not the last cell once the map was moved (`C61_end_is_not_the_last_cell`).
* D20 LineIterator from a position outside the map can step over the only cells on the line and miss the map (`C21_false_for_short_lines_from_outside`); on a moved map the line is a line in the buffer and not in the world (`C62_false_on_moved_map`).
* D21 `move` with a basic layer that does not exist throws after clearing cells and without moving (`C31_missing_basic_layer_throws`, and for every map `C31_missing_basic_layer`). A move
  further than the map's extent clears every layer, a shorter one only the basic layers (when there are any).
* D22 Copies of circle, ellipse and polygon iterators share their position (`C24_shared_copies_advance_together`, `C24_false`), and their
  `!=` compares addresses (`C24_ne_false`).
* D23 `addLayerFromROSImage` with an image of the wrong size returns false but has already overwritten the layer with NO_INFORMATION (`C54_wrong_size`).
* D24 `fromCostmap2DROSAtRobotPose` with a length that is not a whole number of cells gives a window that is half a cell off the ROS costmap's cells: the number of cells is rounded, the alignment truncates (`C65_false`).
* D25 `resolveResourceName` looks for the package name anywhere in the path, so a file of another package can be returned (`C60_false`).
* D26 The relay keeps the name of the only layer of an earlier map and shows it in later maps instead of the layer that was asked for (`C66_false`).
* D27 A refused message ends the visualisation node with an exception: the result of `fromMessage` is not used (`C67_refused_message_ends_the_node`, `C67_false`).
* D28 A save over an earlier save that is interrupted mixes the new metadata with old images, and loading it reports nothing (`C68_false`).
* D29 `addLayerFromROSImage` of an image without pixels to a map without geometry reads a pixel that is not there: the iterator of an
  empty map is not past its end (`C72_geometry_needed`).
* D30 In double arithmetic a position on the lower border of a map can pass the inside test and get an index one past the last row: a 7 x 7 map
  with cells of 0.1 around (0.1, 0) and the position (-0.25, 0). `atPosition` then reads out of bounds (`C74_false_out_of_range`), or on a moved
  map the opposite edge (`C74_false_opposite_edge`).
* D31 In double arithmetic `extendToInclude` puts the new cells on the wrong side when the map has to grow downwards or by an odd number of cells:
  `fmod` of a negative shift, or of one next to half a cell, is off by a whole cell. A map of 5 x 5 cells of 0.1 around the origin extended to
  include one around (-0.6, 0) does not cover it (`C77_false_downwards`), nor does one around (0.1, 0) (`C77_false_odd`). Exact arithmetic handles
  the first (C35). The merge still reports success.
* D32 In double arithmetic a submap that should exist is refused when a corner of the request lies on the border of the map, or beyond it at a
  place near the origin of the frame: grid_map moves such a corner inside by `10 * epsilon * max 1 |p|`, which can be less than the rounding
  error. A map of 3 x 3 cells of 0.1 around (-0.1, 0) has no submap of its own extent (`C78_false_whole_map`), and a map of 161 x 3 cells with
  its lower end at the origin none of 16.11 x 0.1 around its centre (`C78_false_sticking_out`).
* D33 `getIndexFromPosition` converts to `int` before the position is checked, so far outside of the map `atPosition` is undefined behaviour
  instead of the documented `std::out_of_range`: on 3 x 3 cells of size 1, at distance 2^31 + 5 (`C79_false_far_away`). The same holds of
  `move` (`C79_false_far_move`), `setGeometry` (`C79_false_huge_geometry`), lines (`C79_false_long_line`) and buffers with more than
  2^30 rows (`C79_false_huge_buffer`), and extending to include a map 2^31 cells away (`C79_false_far_extension`).
* D34 The circle iterator (and the ellipse and polygon iterators, which share the code) uses the index of the lower corner of its box
  without looking at the result of `getIndexFromPosition`. On a map of 161 x 3 cells of 0.1 with its lower end at the origin of the frame, a
  circle of radius 0.06 around the centre of the last row makes it look at row 161 of 161, and so read a position that was never written
  (`C80_false_at_the_border`).
* D35 The spiral iterator computes its number of rings from `radius / resolution` and tests the cells of the two outer rings against
  `radius * radius`. With doubles the two disagree when the radius is a whole number of cells: with cells of 0.1 around (10, 10), centre
  (9.5, 9.5) and radius `3 * 0.1` there are four rings, but no cell of the third passes the test, and the next dereference reads
  `back()` of an empty vector, in the middle of the map (`C81_false_on_whole_cells`). In exact arithmetic this cannot happen
  (`C23_spiral_fits_partial`).
* D36 `SpiralIterator::getCurrentRadius` squares offsets as `int`s: beyond 46340 cells it overflows (`C81_false_current_radius`). Since Eigen's
  norm of an integer vector is an integer, it is also truncated: the result is the number of the ring times the cell size.
* D37 The demo costmaps promise "stripes, each with an increasing cost value" (from_ros_costmaps.hpp 37). With 253 columns the third and
  the fourth have the same cost because of rounding, and with 255 columns or more there are not enough costs (`C82_increasing_iff`). With
  fewer than two columns (the code says "todo assert dimension > 1") the loop bound wraps around and the constructor writes outside
  of the map (`C82_too_narrow`).
* D38 The destructor of the broadcaster joins its thread but does not tell it to stop: an early exit without `shutdown()`
  waits for ever while ROS is up (`C83_destructor_hangs`); a broadcaster that was never started terminates the process when it is
  destroyed, and so does a second start. `add` has no lock: after the start it is a data race (`C83_safe_iff`).
* D39 The constructor of the demo's costmap server writes cells without taking the mutex of the costmap, when the ROS costmap with its own
  threads already exists. A conversion at the same time can see half of such an update (`C84_false_without_lock`).
* D40 `from_ros_costmaps` ignores the results of the conversions and takes `getLayers()[0]`: without a robot pose that is undefined behaviour
  (`C86_undefined_without_pose`). The grids of whole costmaps carry no time (`C86_from_ros`).
* D41 `save_image_bundle` exits with success although nothing was saved when ROS is shut down before a map arrives (`C87_false`), and
  when the files cannot be written: the results of `std::ofstream` and `cv::imwrite` are not looked at, and the tool even says
  "successfully saved" (`C87_false_disk`).
* D42 `service_relay` ignores failed calls because "someone closed down the navigation source and will restart", but its client is
  persistent and never created again: after a restart all calls fail, nothing is published any more, and the loop runs without
  sleeping (`C89_silent_after_loss`, `C89_false`).
* D43 `getIndex`, `atPosition` and `move` convert coordinates to `int` before they are checked, which is undefined behaviour for NaN and
  infinities (`C90_index_undefined`, `C90_move_undefined`, `C90_false_access`). `setGeometry`, and so `fromMessage`, accepts a position that
  is not a number, and an infinite resolution (`C90_false_geometry`); a length or resolution that is NaN in a received message aborts the
  receiver (`C90_message_nan`), an infinite length is undefined behaviour (`C90_message_infinite`).
* D44 Rounding makes inflation reach a cell too far: with a radius of 0.3 m (a `float`) and a resolution of 0.1 m (a `double`) the quotient is a
  little more than 3 and is rounded up to 4 cells (`C91_false_radius`, `C91_false_reach`). A cell exactly at the inscribed radius may get a cost
  below `INSCRIBED_OBSTACLE`: nine cells of 0.05 m and an inscribed radius of 0.45 m (`C91_false_inscribed`). With radii of 4096 cells or more, and only
  then, the distance stored as `float` cannot tell cells just outside the radius from those inside (`C91_hypot`).
* D45 Linear interpolation solves for a bilinear function in absolute coordinates, so its rounding error grows with the square of the distance from the
  origin counted in cells. With cells of 0.05 m around (467 m, 435 m) a cell that holds 50 reads 49 at its own centre. In UTM coordinates and with cells of a
  sixteenth of a metre a cell that holds 100 reads 104, and for an obstacle the `float` is 256, whose conversion to a byte is undefined behaviour (`C92_false_centre`,
  `C92_false_far`; both even with a solver without errors).
* D46 The search of `LineIterator` for the first cell of the map steps by one cell (minus `DBL_EPSILON`) and ends when less than a step is left. Between
  two positions outside of the map that differ by a rounding error, such as 0.3 and 0.1 + 0.2 with cells of a quarter, the first step goes past the goal, the rest of the way is
  not shorter than the step, and the search walks away for ever, until the index no longer fits in an `int` (`C93_false`). Twice the same position is
  fine, and so are positions a quarter of a cell apart (`C93_ends_partial`).
* D47 An inflation radius that is NaN counts as zero: `std::max(0.0, NaN)` is `0.0`, the call returns without a report, and no cell is inflated (`C94_false_nan`). An infinite
  radius, or one of 2^32 cells or more, is converted to `unsigned int` outside of its range, which is undefined behaviour, and with 2^32 - 2 cells the caches
  have no entries (`C94_false_infinite`, `C94_false_huge`).
* D48 `fromImageBundle` converts the number of cells to `float` before multiplying by the resolution, so a bundle of 2^24 + 1 rows gives a map of 2^24 rows
  (`C95_bundle_false`); its images then have another size and the layers are unknown. `toOccupancyGrid` stores the resolution as a `float`: the borders of the
  grid's cells are displaced by up to one part in 2^24 of the size of the map, and near a border the grid shows the neighbouring cell (`C95_occupancy_false`).
* D49 `fromCostmap2DROSAtRobotPose` in `double`, with cells of 0.1: a window of 0.5 by 0.1 around a robot at (0.45, 0.15) returns true without adding a layer
  (`C96_false_no_layer`), one of 0.4 by 0.1 shows the cost of the next cell everywhere (`C96_false_shifted`), and one of 0.3 by 0.1 is centred half a cell away because
  0.3 / 0.1 is less than 3 (`C96_false_parity`). The cause is in the window code of the libraries, which cost_map calls without a check; `C96_window_partial` bounds the
  displacement by one cell. A map of a whole costmap disagrees with it on positions within rounding errors of a border (`C96_false_whole`).
* D50 `fromImageBundle` documents a `std::logic_error` if the file could not be read or the required yaml was not valid. A missing file and values that are not of
  the right type give a `std::runtime_error` instead, as yaml-cpp's exceptions pass through (`C97_false_logic_error`; `C97_bad_value_partial` says exactly when); zero cells
  or a resolution that is negative or NaN fail an assertion (`C97_false_abort`); an infinite resolution and more than 2^31 cells are undefined behaviour
  (`C97_false_undefined`, `C97_infinite_resolution`); a centre that is NaN is accepted (`C97_false_nan`). Image files of 16 bits per channel are read as if their bytes were
  pixels (`C97_false_16_bits`); their right half is ignored (`C97_right_half_ignored`).
* D51 `toImageBundle` writes the YAML file in place. If it is interrupted in the number of cells along y or in the list of layers, what is left can load
  without an error as a map of another size (`C98_false_size`) or with fewer layers (`C98_false_layers`). `C98_cut_partial` says what else can be there: nothing.
* D52 `ROSInflationComputer` accepts every weight and radius. With a NaN weight, a negative weight, or a resolution that overflows a `float`, a value outside
  the range of `unsigned char` is converted, which is undefined, on every map (`C99_false_weight`, `C99_false_negative`, `C99_false_resolution`).
* D53 `Inflate` stores the new radius before it computes its tables. When the cost function throws, the next call with the same radius takes the tables for
  valid and writes uninitialised costs (`C100_false`); the cost function is not asked again (`C100_ignored`). With another radius the object recovers
  (`C100_recovers_partial`).
* D54 The undefined behaviour of D30 is reached by a short program: `setGeometry`, `add` and a write at a position on the lower edge
  (`C101_false_lower_edge`).
* D55 Removing costs is not written back: a submap that is cleared and merged with overwriting leaves the costs of the map as they were,
  since `addDataFrom` skips every cell without information (`C102_false_clearing`).
* D56 A map that gets fewer cells while a loop runs over it: the iterator goes on with the old number of cells and the next access is
  outside of the buffer, undefined behaviour (`C103_false_shrinking`).
* D57 `map.erase(map.getLayers()[i])`: `erase` takes the name by reference, removes it from the list of layers and reads it again. By then it is the
  name of the next layer, which loses its status as a basic layer, while the erased one keeps it, so that `isValid` throws for every cell
  (`C105_false_erase`, `C105_false_erase_other`); for the last layer a destroyed string is read (`C105_false_erase_last`).
* D58 `addDataFrom` with the map itself and a layer it does not have adds that layer; with a copy of the map it throws
  (`C105_false_merge_missing`).
* D59 A window around a robot that is further from the costmap's corner than `2^31` cells: `worldToMap` converts the quotient to `int` before it tests it,
  which is undefined, and the window is not refused (C107_false_far).
* D60 `toOccupancyGrid` multiplies the numbers of rows and columns as `int`s: a map of `2^31` cells or more (50000 by 50000) overflows
  (C108_occupancy_overflow).
* D61 (C113) The line iterator leaves out cells the segment passes through. A check of the visited cells alone, or of a layer inflated by a single cell, can therefore pass a way through a lethal cell (`C113_false`); two cells of inflation are enough (`C113_clear`) on a map whose buffer starts at zero. On another map two cells need not be enough, because the line connects the two cells through the buffer (D20): `C113_false_moved` passes a way through a lethal cell with two cells of inflation.
* D62 (C115) `Inflate` takes neighbouring buffer cells for neighbours in the world and has no regard for the start index. On a map that was moved the cell next to an obstacle can stay as it is (`C115_false`), and a cell at the other end of the map is inflated instead (`C115_false_far`). The library has no call that unwraps the buffer; a copy through `addDataFrom` does it (`C115_same`).
* D63 (C116) Inflating by the robot's radius is not enough to check whether it fits by the cost of the cell of its centre. Distances are taken between cells, and the flood only follows the axes, so a position can be free although a robot of the inflation radius touches a lethal cell there (`C116_false`, for every cost computer). A robot of 1/√2 of the radius less one cell is safe (`C116_fits`).
* D64 (C118) Walking over the cells of a footprint does not check the footprint. The iterators visit the cells with a centre in the shape, so a circle of the robot's own radius, or a polygon thinner than a cell, can be found clear while it overlaps a lethal cell (`C118_false_radius`, `C118_false_thin`). On a map that was moved the circle iterator also leaves cells out altogether (D6), so even a larger circle is found clear around a robot that stands on a lethal cell (`C118_false_moved`).
* D65 `addDataFrom` into a map of larger cells samples the other map at the centres of the map's cells only: obstacles between them are lost silently (`C120_false_coarse`). With `overwriteData` the map's own obstacles are lost where the other map is free (`C120_false_own`).
* D66 D2 and D4 together put obstacles in the wrong place for a planner: a robot that stands on an obstacle of a moved map is found clear on the map that is loaded from its bundle (`C121_false_moved`), and so is one on a map whose centre is off the diagonal (`C121_false_centre`). Saving a copy made with `setGeometry` and `addDataFrom` avoids the first, not the second.
* D67 A ROS costmap owns its lower and left edges and a cost map owns its upper and right ones, so that a program that was right to ask the ROS costmap about a position on the lower left corner gets an exception from the copy (`C122_false_edge`).
* D68 Because of D4, a program that inflates a moved map and publishes the layer as an occupancy grid publishes free space on an obstacle (`C124_false_moved`); a copy made first is right (`C124_moved`).
