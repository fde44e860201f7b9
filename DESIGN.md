# Formal model of Indoor-Positioning-And-Navigation-Algorithms

The C++ code in `/repo` is modelled, function by function, in Lean 4 under `lean/Verif`. Every model
definition cites the file and lines it models and says where it simplifies. The properties
(`properties.jsonl`) are theorems about that model; `MANIFEST.json` says which theorem states which
property. Theorem names start with the property id.

## Trusted base

* Lean's kernel (4.33.0). No `native_decide`, no `bv_decide`, no `sorry`, no axioms of our own.
* Axioms: every property theorem depends on `propext`, `Classical.choice` and `Quot.sound` and on nothing
  else (checked with `#print axioms` on all theorems of the manifest).
* `opaque` constants `divByZero`, `rootOfNegative`, `logOfNonpositive`, `asinOutside` (no axioms: Lean only knows
  that they are functions on ℝ).
* Mathlib's definitions that occur in statements: real numbers, `Real.sqrt`, `exp`, `log`, `cos`,
  `Complex.arg`, lists, permutations.
* The faithfulness of the model definitions to the C++ text. It is not machine-checked: the code is read
  as text and was never built or run. `seeded/LOG.jsonl` records how the theorems react to wrong
  programs.

## Conventions

* One directory per area under `lean/Verif/`: `Model.lean` (the code), `Spec.lean` (independent
  vocabulary for the statements), `Lemmas.lean` (helpers), `*Props.lean` (property theorems, each with an
  example showing that its hypotheses are met).
* `double` is ℝ. Overflow and signed zeros are outside the model, and so is rounding except in the area `Fp`,
  where parts of the code are modelled once more with a rounding after each operation: the orientation filter,
  the geographic conversions, the cut to whole centimetres, the strongest transmitter and zones, times of the settings,
  the alpha-beta and time smoothers, the position by fingerprints, the fusion with satellites, the barometer, and the
  floor by transmitters, by fingerprints and by the best reference point. NaN or infinite values that
  the code can produce from finite ones are explicit (`Option`, or a separate constructor); theorems say
  which inputs they exclude.
* Division by zero, the root of a negative number, the logarithm of a number that is not positive and `asin` outside
  [-1, 1] have a value about which nothing can be proved (`Verif/Arith.lean`: `x ÷ y`, `root`, `logarithm`, `asin`, with
  `opaque` values outside the domains). Lean's own totalised `x / 0 = 0` etc. occur in the model only where the
  operand is a non-zero constant or the case is split off before; so a theorem about a result shows at the same time
  that the arguments lie in the domains, or that it holds whatever these operations yield there.
* `int`, `long long`, `size_t` are unbounded integers or naturals; that the `long long` arithmetic of the client stays within
  64 bits, under stated conditions, is C115 (area `Checked`: every function of the client once more, where an operation outside
  its domain has no result).
* Exceptions and undefined behaviour are outcomes of their own (`Option`, `Knn.Result`, `Except`), so that
  a theorem about a result cannot hold because of a default value.
* Uninitialised memory is a parameter (`Garbage`, `junk`): theorems hold for every content.
* `std::map`, `std::set` are ordered association lists (`StdMap`, `StdSet`); `std::multimap` is the list
  of its entries in insertion order per key; `std::unordered_map` iteration is a parameter `order`
  that yields some permutation.
* `std::string` ids are `String`; their order is only used as a linear order.
* Virtual dispatch and `std::unique_ptr` members are sum types with the state of the chosen object.

## External code: parameters and what is assumed of them

| Parameter | Code | Assumption used by theorems |
|---|---|---|
| `Sorts.*`, `distanceSort`, `rpSort`, `MsrSorts`, `TrilatSorts` | `std::sort` calls | result is a permutation sorted by the comparison (not stable); for the edges of triangles, whose comparison is not an order on every list, sorted only where it is a strict weak order (`StdSort`, which `stdSort_exists` shows can be met); only in C116 (`TimeBlind`) and C129 (`OffsetBlind`): the order chosen does not change when all time stamps, or all signal strengths, are moved, as for every algorithm that decides by comparisons |
| `BoostGeometry` (`Levels`) | Boost `covered_by`, `intersects`, envelope, R-tree query | only what C72, C73 state as hypotheses: the query returns every barrier whose envelope meets the path; the envelope is the tight box |
| `allowed` | Boost `covered_by(point, allowedArea)` | none (arbitrary predicate) |
| `solve` | Eigen least squares (`JacobiSVD`) | C51 only: the result minimises the residual |
| `order` (`MapLoad`) | iteration of `std::unordered_map` | a permutation of the entries |
| `Json` (`JsonIn`) | values of nlohmann json | objects are sorted by key; integers fit 64 bits; rounding of numbers ignored; `long long` is not `int64_t` (64 bit Linux) |
| `Rounding` (`Fp`) | IEEE 754 `+ - * / sqrt` and the conversion from `long long`, in double precision | relative error at most 2⁻⁵³ plus 2⁻¹⁰⁷⁵, monotone, keeps zero and rounded numbers; no overflow, no fused multiply-add, no extended precision |
| `Cosine` (`Fp`) | `std::cos` of the C library | at most one, error at most 2⁻⁵² (C128 only) |
| `trustF` (`Fp`) | `pow(10.0, …)` in `calcTransmittersWeights` | relative error at most 10⁻⁹ (C158 and C164 only) |
| `logF` (`Fp`) | `std::log` of the C library | error at most 10⁻¹⁵ between 1/4 and 4 (C161 only) |
| the list of features (`MapLoad`) | nlohmann json | features are already split into typed fields; a missing field is an exception |

## Which code is modelled

| Code (`/repo`) | Model | Not modelled |
|---|---|---|
| `src/point.cpp` | `Geo` | – |
| `src/geometry.{h,cpp}` | `Geometry` | – |
| `include/.../graph.h`, graph projection in `geometry.h` | `NavGraph` | – |
| `src/level.cpp`, `level_geometry.cpp`, `level_collector.cpp`, `radiomap.cpp`, `barriers_geometry_builder.cpp` | `Levels` | the Boost algorithms themselves |
| `src/measurements/measurement_preprocessor.{h,cpp}`, `device_properties.h` | `Radio` | debug output |
| `src/level_estimator/*` | `LevelEst`, `Knn` | debug output |
| `src/knn/knn_utils.*`, `src/position_estimator/*` | `Knn`, `Estim` | – |
| `src/triangulation.*` | `Triang` | – |
| `src/position_postprocessor/*` | `Smooth`, `Post` | – |
| `src/trilateration.cpp` | `Trilat` | the SVD |
| `src/vector3d.cpp`, `src/sensor_fusion/*` | `Vec`, `Pedo`, `Fusion` | debug output |
| `src/likelihood/*` | `Likelihood` | `NAVIGATION_VISUALIZATION` members |
| `src/navigation_client_impl.*` | `Nav` | floors added later are in `Grow`; use after an exception except there |
| `standalone_algorithms/position_estimation`, `trilateteration` | `Standalone`; the example program of `position_estimation`: `Standalone.ProgModel`; the test program of `trilateteration`: `Standalone.TestProgModel` | console output, dead least squares code, the reading of one line of text (a line is a record or unreadable) |
| `standalone_algorithms/pedometer` | same text as `src/sensor_fusion/pedometer.cpp` apart from `update`, which takes a batch: `Pedo.updateBatch`; the example and the test's loop: `Pedo.ProgModel` | console output, the reading of one line of text |
| `standalone_algorithms/complementary_filter` | `Standalone.Cf`; its `vector3d` and `quaternion` differ from the library's by white space only (shared models `Fusion.Quat`, `Vec`) | its `operator==` of vectors, which is not used; the plot script. The programs of test and example: `Standalone.CfProgModel`, `PendulumModel`, random numbers as parameters |
| `tests/navigation_test.cpp` | `Tool` (C105–C107) | reading the arguments, the format of the numbers; lines printed before an exception |
| `tools/verification/helpers.cpp` | `MapLoad` (map, graph: C71, C85, C86), `JsonIn` (settings, logs: C87–C89) | the JSON parser, file access, console output |
| `include/.../logger.h`, examples, tests | – | not modelled: no semantic property |

## Properties: what is modelled and how it is proved

The full statements are in `properties.jsonl`, the theorem names in `MANIFEST.json`.

* **C01** Geo to local to geo round trip. `Geo`: real-valued model of point.cpp; algebra and case split on the normalisation. `C01_scale` pins the scale by literal constants.
* **C02** Local to geo to local round trip. `Geo`: same model; `C02_bound_is_needed` shows the bound is sharp.
* **C03** Longitude normalisation. `Geo`: exact range as an iff; negation outside it.
* **C04** Segment distance is the true minimum. `Geometry`: spec = least element of the set of distances to segment points.
* **C05** Projection is the foot of the perpendicular. `Geometry`: spec = orthogonality and minimality over the line.
* **C06** Segment intersection point is sound and complete. `Geometry`: result is `Option` (NaN = none); spec = parametrised common point; sound and complete for non-parallel segments.
* **C07** Boolean crossing test. `Geometry`: answer characterised by an iff with proper crossing.
* **C08** Graph projection returns a nearest graph point. `NavGraph`: fold over edges with running minimum; spec = distance to every point of every edge.
* **C09** Point-on-segment and ray tests. `Geometry`: tolerance bounds for PointOnLine, iff for the ray test.
* **C10** Graph integrity. `NavGraph`: histories of graph operations, invariant by induction; throwing is `none`.
* **C11** Graph conversion is an isomorphism. `NavGraph`: conversion of any graph built by operations; spec = same ids, edges, converted points.
* **C12** Level lookup. `Levels`: lookups as finds; first registration of an id wins.
* **C13** Transmitter lookup. `Levels`: find-first over levels and transmitters.
* **C14** Transmitters of a level and level measurement filter. `Levels`: filter with first-match semantics.
* **C15** Radiomap index. `Levels`: index of the radiomap against the list of points.
* **C16** Signal admission. `Radio`: decision logic as an iff over message content and settings.
* **C17** Averaging window contents. `Radio`: buffer contents as a list; averages stated with sums over filters.
* **C18** Averaging window gate. `Radio`: histories of updates and extractions.
* **C19** Window retention. `Radio`: histories; kept measurements are exactly the young ones.
* **C20** Averaged signals stay in the admitted range. `Radio`: invariant over histories.
* **C21** Closest access points. `Radio`: sorted permutation contract, prefix.
* **C22** Distance from rssi. `Radio`: exp/log algebra, strict monotonicity.
* **C23** Window configuration. `Radio`: case split on the settings.
* **C24** Level history hysteresis. `LevelEst`: detection histories, counting in suffixes.
* **C25** Barometer buffers. `LevelEst`: refinement of the two deques to segments of the history.
* **C26** Barometer level hold. `LevelEst`: hold and change conditions stated with means of history segments.
* **C27** Level by transmitters. `LevelEst`: first argmax of the cost.
* **C28** Level by radiomap. `Knn`: first argmax of the score.
* **C29** KNN weights are positive. `Knn`: weights written as a closed formula over matched fingerprints; positivity and lower bound.
* **C30** Triangle position is a convex combination. `Knn`: first heaviest triangle, convex combination.
* **C31** K heaviest reference points. `Knn`: the intended claim is refuted for all inputs.
* **C32** KNN estimator status discipline. `Knn`: status as a decision table, history of stored positions.
* **C33** Zone estimator picks the strongest transmitter. `Estim`: zone estimator; first strongest measurement.
* **C34** Sigma filter. `Estim`: sigma filter over histories; window 0 is undefined behaviour.
* **C35** Outdoor estimator output. `Estim`: outdoor estimator over histories; `Estim/FilterProps`: the window of the sigma filter as a function of the history of fixes.
* **C36** Fusion of indoor and outdoor positions. `Post`: fusion over histories; convex combination of the stored positions.
* **C37** Freshness and map bounds of processed positions. `Post`: rejection conditions as an iff; what an accepted call reports.
* **C38** Processed positions stay in the level box. `Post`: clamping and rounding; exact for bounds on the centimetre grid.
* **C39** Stop hold. `Post`: stop hold over histories.
* **C40** Graph snap. `Post`: distance to the graph, with the projection theorem C08.
* **C41** Alpha-beta smoother behaviour. `Smooth`: alpha-beta step, decision logic and bounds.
* **C42** Alpha-beta smoother convergence. `Smooth`: Lyapunov function for the constant gain.
* **C43** Time smoother interpolates only. `Smooth`: histories of calls; segment of the two last positions.
* **C44** Linear solver. `Smooth`: Givens rotations preserve solutions; induction on columns.
* **C45** Least squares fit is optimal. `Smooth`: normal equations give the minimum.
* **C46** Lagrange prediction interpolates. `Smooth`: Lagrange basis evaluated at the nodes.
* **C47** Fit window. `Smooth`: window invariant over histories.
* **C48** Triangulation output uses only the given points. `Triang`: Bowyer–Watson loop invariant; vertex ids of the output; exact effect of one insertion.
* **C49** Circumcircle test. `Triang`: determinant identity with the circumcircle.
* **C50** Sphere intersection filter. `Trilat`: loop invariants for soundness and maximality.
* **C51** Altitude needs four spheres. `Trilat`: identity of the linear system; the SVD solve is a parameter with its least squares contract; `Trilat/Altitude`: the answer for exact distances in general, and the example where it is wrong.
* **C52** Pedometer step spacing. `Pedo`: invariants over histories of updates and requests.
* **C53** Pedometer buffers and memory safety. `Pedo`: out-of-range access is `none`; never reached.
* **C54** Angle normalisation. `Fusion`: loops with a termination proof, uniqueness of the representative.
* **C55** Orientation stays a unit quaternion. `Fusion`: unit norm invariant over histories.
* **C56** Magnetometer only before the first gyroscope sample. `Fusion`: state equality.
* **C57** Device azimuth lifetime. `Fusion`: history invariant on the last orientation message.
* **C58** Step counter and displacement. `Fusion`: histories, counter against the reported steps.
* **C59** Low pass filter. `Fusion`: gain bounds, convex combination.
* **C60** Likelihood weights. `Likelihood`: closed formula for weights.
* **C61** navigate output count and order. `Nav`: the whole client step composed from the parts; induction over the batch.
* **C62** Batching does not matter for ordered input. `Nav`: induction over the batch split.
* **C63** Status discipline of navigate. `Nav`: decision logic of the report and a state invariant.
* **C64** Lost level should be reported. `Nav`: invariant; negation of the expectation.
* **C65** No signal timeout. `Nav`: step analysis.
* **C66** GNSS fixes expire. `Nav`: negation of the expectation, and the case in which fixes do expire.
* **C67** Heading state is never read uninitialised. `Nav`: invariant over histories; the branch is dead.
* **C68** Standalone trilateration. `Standalone`: closed formula for the result, histories of calls.
* **C69** Standalone nearest transmitter estimator and smoother. `Standalone`: refinement to the alpha-beta smoother of `Smooth`.
* **C70** Standalone preprocessor. `Standalone`: histories of updates and extractions.
* **C71** Map loading: graph vertex merging. `MapLoad`: invariant of the graph builder over all lines.
* **C72** Path barrier test. `Levels`: Boost predicates and the r-tree query are parameters.
* **C73** Local bounding box. `Levels`: box arithmetic with the scale of `Geo`.
* **C74** KNN difference mode cancels a device bias. `Knn`: the offset cancels in every difference.
* **C75** KNN answers lie among the reference points. `Knn` with `Triang`: hull membership, lower bound of weights; exactly which levels get triangles (`C75_triangulated`, `C75_square`).
* **C76** Least squares smoother. `Smooth`: totality, barriers; divergence by a computed sequence.
* **C77** Step detection rule. `Pedo`: detection rule as an iff over the sample history.
* **C78** Uninitialised low-pass state is never observable. `Fusion`: simulation between two runs with different junk.
* **C79** navigate is total. `Nav`: safety invariant over all histories and parts.
* **C80** Reported orientation. `Nav`: decision logic of the orientation.
* **C81** The no-action threshold has no effect. `Nav`: equality of runs with two thresholds.
* **C82** Uninitialised memory. `Nav`: simulation between runs with different uninitialised memory.
* **C83** Sampling centre of the radiomap likelihood. `Likelihood`: histories of calls.
* **C84** Intersection area of distance circles. `Likelihood`: induction over the measurements.
* **C85** Map loading: levels and their content. `MapLoad`: map file as a list of typed features; levels and contents as filters of that list; the area polygon by polygon and corner by corner against the coordinate arrays.
* **C86** Map loading: fingerprint statistics. `MapLoad`: statistics as sums over distinct values.
* **C87** Measurement logs are read faithfully. `JsonIn`: nlohmann values and conversions modelled; round trip against a separate description of messages (`Describes`), induction over the lines.
* **C88** Settings take the values of the settings file. `JsonIn`: the chain of keys as a table; checked entry by entry against a separate table of keys, types, defaults and members; induction over the members in key order.
* **C89** Settings files: error code and settings of the levels. `JsonIn`: induction over the entries; the map of levels compared with the last matching entry.
* **C90** The gyroscope turns the heading by rate times time. `Fusion/OrientProps`: an update multiplies by (1, v/2) and normalises, which is the rotation by 2 arctan(|v|/2) (Rodrigues); induction over the messages for the heading. The specification uses the rotation matrix, not quaternion products.
* **C91** The accelerometer corrects the tilt. `Fusion/OrientProps`: exact recurrence of the cosine of the tilt error, 1-c' = (1-c)(1-k(1+c)/2)²/(1+k²(1-c²)/4); induction over the messages.
* **C92** The magnetometer turns the initial orientation towards north. `Fusion/MagnProps`: the update moves the measured vector in the plane of it and its northward version; comparison of cosines.
* **C93** The magnetic azimuth is tilt compensated and free of drift. `Fusion/MagnProps`: arguments of complex numbers modulo 2π; the half angle construction is the rotation by π minus the yaw.
* **C94** What a client with beacon zones answers. `Nav/ZoneSpec`: the windows of a history, the strongest transmitter, the settings; `Nav/ZoneLemmas`, `Nav/ZoneProps`: an invariant of the composed client linking buffer, level history and last indoor position to the windows, by induction over the taken measurements; the answer from the invariant.
* **C95** The triangulation of the reference points is the Delaunay triangulation. `Triang/Boundary`: the sum of any function over the sides is unchanged modulo two by an insertion; `Triang/DelaunayLemmas`: circles through a side (pencil argument), invariant of the insertions; `Triang/DelaunayRun`: the starting triangle, the grid on which the tolerance 1e-8 decides nothing; `Triang/DelaunayCover`: coverage by counting the sides above a place; `Triang/DelaunayOnce`, `Triang/DelaunayProps`.
* **C96** The post-processor is its smoothers in series. `Post/ChainSpec`: the accepted calls and the calls each smoother gets; `Post/ChainProps`: invariant relating the post-processor to the separate objects, by induction over the calls.
* **C97** Roll, pitch and yaw describe the orientation. `Fusion/EulerProps`: entries of the rotation matrix as polynomial identities in the unit quaternion.
* **C98** Vector arithmetic obeys the laws of three-dimensional space. `Vec`: coordinates; each law as a polynomial identity; the equality test unfolded to absolute differences.
* **C99** Sensor and radio messages do not leak into each other. `Nav/SensorProps`: the calls handed to the sensor fusion as a function of the taken messages, by induction over them; two runs side by side for the foreign messages.
* **C100** Steps do not depend on how the device is held. `Pedo/HoldProps`: a simulation relation (same magnitudes, same times) kept by every operation; `Nav/HoldProps`: lifted to the client with C99.
* **C101** Reported altitude. `Nav/AltitudeProps`: the output of one step after any history; the gate of the buffer is closed between messages (invariant), so only an admissible radio message hands out measurements. `Nav/AltitudeRtt`: the averages of a closed window of ranging signals carry the mean distances without the offset, so C51 gives the altitude in the answer of the client; a client at altitude 0 with exact distances reports 5.2 m.
* **C102** Grouping of pedometer samples does not matter. `Pedo/BatchProps`: a reference function `found` computes the steps from all magnitudes of the history at once; an invariant over groups shows that the reported steps are `found` of the history so far, whatever part of it is still buffered. `C102_missed` and `C102_start` show that both conditions are needed.
* **C103** The stand-alone complementary filter is the library's. `Standalone/CfModel` models the stand-alone filter from its own text; `Standalone/CfProps`: a simulation relation between it and `Fusion.cfUpdate`, kept by every measurement, gives equality of all getters. So C55, C56, C59, C90–C93 and C97 hold for it too.
* **C104** The integral gain adds the accumulated error to the rate. `Standalone/CfProps`: the integral error is, by induction over the messages, the gain times the sum of the cross products shown; the update of C90 applied to the sum of rate and integral error; norm bounds from C98.
* **C105** A replayed log gives the same output for every batch size. `Tool/Model` models the program on the models of its parts (map, settings, log, client). `Tool/Props`: induction over the batches, with the batch invariance of C62, shows that the loop is one call of `navigate`; the lines are compared with the outputs one by one.
* **C106** With good files the replay program finishes. `Tool/FinishProps`: composition of C85 (the map is read), C89 (settings), a lemma that every graph of a file is built by the calls of C11, C79 (the client is total) and C63 (the outputs).
* **C107** The printed dead-reckoning track moves at most once. `Tool/TrackProps`: the heading is one indeterminate constant, so the test `heading != previous` succeeds once; the track as a fold over the outputs in closed form.
* **C108** The stand-alone positioning program: what the output file says. `Standalone/ProgProps`: the packets of a log by induction over its lines (which entries, how many), composed with the facts on the stand-alone estimator (`EstimProps`: a line is a convex combination of transmitter places, or the line before); equivariance by induction over the packets.
* **C109** The stand-alone step counter: the printed number. `Pedo/ProgProps`: the loop of the program equals the history of `sample`/`steps` calls of C52, C100 (induction over the log); the bounds, the prefix and the turn claims are then those properties.
* **C110** The tilt of a device at rest, with sensors that err. `Fusion/RestProps`: the angle after an accelerometer message in closed form (θ − 2 arctan(k sin θ / 2)), the triangle inequality for angles between directions (Mathlib), a rotation moves a direction by at most its angle; the distance to a direction is convex along great circles of a half-sphere (`Fusion/Slerp`), so an accelerometer message never moves the held vertical beyond the measured direction and its error is not amplified; contraction by induction over the rounds; Euler angles from the held vertical. `Standalone/CfProgProps`: the test's loop and generator satisfy the hypotheses, with the noise as a parameter; transfer by C103.
* **C111** Rounding errors of the orientation filter. `Fp.Model`: the filter once more, operation by operation, with a rounding (parameter, standard model of IEEE 754 arithmetic, an instance in `Fp.Instance`) after each; `C111_exact` ties it to `Fusion.Model`. Error of each kernel in terms of Mathlib's quaternion norm; the update multiplies by a quaternion of norm at least one, so neither the threshold nor cancellation in the norm matters; unit quaternions are isometries, so the errors of the steps only add.
* **C112** The tilt of a device at rest, with rounding errors. `Fp/RestLemmas`: rounding error of the held vertical, the cross product and the correction; `Fp/RestProps`: each message does what it does in exact arithmetic (angles of C110) up to a fixed number of units of 2^-53; the contraction of C110 over the rounds, with the rounding error of a round beside the sensor errors; instance for the generator of the static tilt test.
* **C113** What a client with fingerprints answers. `Nav/KnnSpec`: the last window with a property, the averages, the place; `Nav/KnnLemmas`: the estimator and the level detection for one floor (from C28–C32); `Nav/KnnProps`: an invariant of the composed client by induction over the taken measurements; `Nav/KnnExample`: a concrete client.
* **C114** The tilt of a device that moves, with sensors that err. `Fusion/MovingProps`: as C110 with a reference direction that changes; the difference of two reported rotations of a direction is bounded through the scalar product of the quaternions (1, half the rotation vector), and the tangent step through C90. `Standalone/PendulumModel`, `PendulumProps`: the simulation in closed form, the generator satisfies the hypotheses with the true upward direction one sample late (the accelerometer message comes before the gyroscope message of its sample), transfer by C103.
* **C115** The arithmetic of the client is defined. `Checked/Ops`: operations that fail outside their domain; `Checked/{Sensors,Radio,Post,Client}`: every function of the client once more with them (all arithmetic on the way of a measurement; the altitude and the polynomial fit keep their own models, which already say where a number is not finite). Lemmas: each checked function equals `some` of the unchecked one under an invariant of the state (times in range, deviations positive, gains in [0.1, 0.9], stored positions in order), kept by every step; `Checked/Props`: composition over the batches, and witnesses that the conditions matter.
* **C116** Only time differences matter. `Shift/Spec`: the same calls with all time stamps moved, what late enough means, and sorts that do not notice the move. `Shift/{Sensors,Post,Client}`: a map that moves every stored time stamp of the client except the initial ones (0 and -1), an invariant that every stored time stamp is initial or late enough, and for every function of the client the proof that it commutes with the map and keeps the invariant. `Shift/Props`: composition over the calls, both directions; uninitialised memory by C82; the session at time 0 that is answered differently.
* **C117** Inertial sensors do not move the place. `Inertial/Spec`: which sensors, sessions that differ only there, outputs without the orientation. `Inertial/Lemmas`: a relation between two states of the client (equal up to the orientation filter and the last sensor message, and up to pedometer and step times if the accelerometer is among the sensors and steps do not matter), kept by every part of the client. `Inertial/Props`: composition over the calls, and a session whose orientation is the one of the message.
* **C118** What a client with beacon zones on several floors answers. `Floors/Spec`: the sequence of closed windows, the floor of a window, the votes, the last window in which a floor was heard. `Floors/Lemmas`: the averages of a window restricted to a floor are the averages of its signals; the score of the detector is the strength of the specification; the level history holds the votes. `Floors/Props`: an invariant of the composed client, by induction over the taken measurements (the stored indoor position always belongs to the floor in use, because a floor takes over only in a window in which it is heard); the answer from the invariant; uniqueness; a session on two floors of any length.
* **C119** What a client with fingerprints on several floors answers. Specification in Verif/Prints/Spec.lean in terms of measurements and map only (floor of a window, votes of C118, last window with a place). Invariant over the whole history as in C113 and C118; the floor comes from C28, the place and the status from C32 and C75. The example is a history with two floors in which, for every time of the next message, the floor reported is not the one in use.
* **C120** What a client answers that hears no transmitter. Invariant over the history (`Outdoor.Wild`): no floor is ever used, the client's position is the estimator's last position, and that is the one of the last fix taken over (`LastAccepted`, from C35) or the initial one. C120_repeated computes the filter's contents for one fix repeated by n messages, for every n and window.
* **C121** How much a client keeps. Invariants over the history: the kept signals are a sub-multiset of the admitted ones with times in the window (`Footprint.Held`), the pedometer's buffers are ends of the history of samples (C53, C77), the votes are keyed by floors of the map. The least-squares smoother's fit window and the k-nearest-neighbour tables (fixed by the map) are left out. C121_constant counts messages in an interval; C121_silent_sensors and C121_standing prove the two kinds of unlimited growth, C121_stroll gives a session for each n.
* **C122** The alpha-beta smoother with irregular intervals and inexact measurements. Smooth/IrregularProps.lean. The quadratic form that one step contracts (C42) is turned into a norm on the pair of the error and the speed times the interval; changing the interval from T to rT stretches the norm by a factor that is below the inverse of the contraction exactly for mild r; measurement errors are added with the triangle inequality, which gives the geometric series. The finding is an exact computation: one round of the five intervals is a matrix with trace -5809/4860 and determinant 1/32, so the error after each round follows a two-term recursion that grows by more than a tenth (Cayley-Hamilton).
* **C123** What a client with the default settings answers on one floor. Track/{Spec,Lemmas,Props,SettleProps,Example}.lean. The motion of the fixes is a fold over the list of fixes, stated without the client. An invariant says that after every history the smoother holds the motion of the fixes so far (Holds) and the postprocessor the last window (Tracked); one step preserves it (tracked_step), over the lemmas about windows and zones of C94. For the convergence the fold is identified with the iteration of the smoother of C122, extending the finite list of times by its last interval. The example is a hall with two beacons: the first answer after the change is half way, and all later ones converge.
* **C124** What a client with the default settings answers in a building. Track/{FloorsSpec,FloorsLemmas,FloorsProps,FloorsExample}.lean. The fixes of a list of windows and their journey are defined without the client; C124_new_fix and C124_no_fix say when a window adds a fix. An invariant (Toured) says that the smoother holds the journey of the fixes so far (Keeps, Travels), that the level history has counted the votes, and that a place in the box of the floor in use is the last fix; toured_step preserves it. C124_arrive: a change of the floor forgets the old place. C124_one_floor: on one floor the journey is the track of C123. The example is a house: the answer on arrival upstairs shows the beacon there, and a later one is half way between two beacons.
* **C125** Floors added to the map after the client was made. Grow/{Model,Spec,Lemmas,Props}.lean. Model: the client with another map in all the places that hold the shared pointer, with everything computed by the constructors unchanged; sessions of added levels and calls; getStates; the state left behind when the level detection throws. C125_rebuilt: equality of navigate with that of the client the constructor makes from the grown map and parameters 0. C125_total and C125_outputs follow by carrying the safety invariant of C79 from the smaller to the larger map. C125_fingerprints_throw: by induction over the batches, with the invariant of the sensor fusion for the states left behind. C125_states, C125_no_states: the debug states. C125_example: the answer names a floor added after the client was made; an example shows the hypotheses of the throwing theorem hold.
* **C126** What the test program of the standalone trilateration tells. Standalone/TestProg{Model,Props}.lean. The program as a function of the map and the measurements, and its verdict with the condition as written (a conjunction of three differences). C126_verdict and C126_any_input characterise it with C68_call; C126_scenario computes the coordinates of the scenario exactly. An example shows both verdicts.
* **C127** What a client with the barometer switched on answers. Pressure/{Spec,Lemmas,Props,Idle,Example}.lean, over the client model of Nav. The specification counts a pressure at every measurement but the first, as long as the last sensor message is one (the code reads the last sensor message again), and defines the floor in use by the last free prefix of the history. C127_answers is proved by an invariant over the measurements, with C26 for the barometer; C127_unique, C127_held and C127_stuck follow from the specification; C127_idle compares the two clients step by step; C127_never_found and C127_found_without are the two clients of the statement, for every number of signals.
* **C128** Rounding errors of the geographic conversions. Fp/GeoModel.lean models the four functions again, with a rounding after each operation, the library cosine a parameter; Fp/GeoProps.lean bounds the error of each operation and adds up. C128_local_geo_local, C128_geo_local_geo, C128_to_geo, C128_to_local; C128_normalize for rounding to nearest, where the differences are multiples of 2^-45 and therefore exact.
* **C129** A receiver that reads every signal by the same amount too strong or too weak. Bias/{Spec,Lemmas,Client,Props}.lean, over the client model of Nav. The two clients are related step by step: the stored signals differ by the offset, the distances computed from them differ in a way nothing else reads, everything else is equal. The weights of the reference points are equal by C74. C129_same_answers is the statement for histories of calls; C129_floor_by_fingerprints and C129_floor_by_transmitters are the two counterexamples. The sorting algorithms are assumed not to notice the offset (OffsetBlind), which every algorithm that only compares satisfies; insertion sort is shown to.
* **C130** Which settings matter. Same/{Spec,Bare,Lemmas,Client,Props}.lean, over the client model of Nav. Agree lists the settings that matter, each under the condition under which it does. The two clients are related step by step (SameState): they hold the same, apart from parts the settings keep from being read. C130_same_answers is the statement; C130_never_read, C130_algorithms and C130_without_gps are the instances worth knowing.
* **C131** What of a message matters. Unread/{Spec,Lemmas,Client,Props}.lean, over the client model of Nav. SameRead is the agreement of two messages. Both histories are compared with a third one, in which everything that does not matter is zero. C131_same_answers is the statement, C131_ranging the instance for Wi-Fi ranging. The sorting algorithms are assumed not to notice a change of what they do not compare (ComparesOnly); insertion sort is shown to.
* **C132** What a client with fingerprints and the default smoothing answers. Trail/{Spec,Props,Unique,Example}.lean, over the client model of Nav. FixesOf relates the windows of C107 to the fixes, with the place of C113; track and shown are those of C123. C132_answer is the answer, C132_before the time before the first window, C132_default the settings. C132_place_unique and C132_fixes_unique say that places and fixes are determined, C132_settles is the approach. C132_example and C132_settles_example run a client on a map with four reference points.
* **C133** What a client answers that hears transmitters and satellites. Mixed/{Spec,Lemmas,Props,Example}.lean, over the client model of Nav. stored computes the store from the history, choose is the rule; both are written over places, radii and times only. Held relates the store to the state of the client, by induction over the history. C133_answer is the answer while the floor is in use, C133_away and C133_still the other times. C133_example runs a client under a beacon that gets a fix, at every time, with and without blending: the gap without an answer, and the radius of the zone shown for a satellite place.
* **C134** What the projection onto the graph changes. Project/{Spec,Lemmas,Client,Props,Example}.lean, over the client model of Nav. Beside relates the two answers; it is proved by a relation between the states of the two clients (equal but for the places of the last answer and of the position shown), kept by every step. C134_projection is the comparison, C134_near the bound on the movement, C134_one_floor the reading for one floor. C134_example runs both clients under a beacon four metres from a corridor. The graph used is that of the floor in use, which may differ from the reported one (C119); with stops the projected place does feed back (C39).
* **C135** What a client shows while its user stands still. Stand/{Spec,Lemmas,Props}.lean. The log of times, answers and debug states is related to the calls of the post-processor (Told), so that the theorems of C39 about one post-processor become theorems about sessions: C135_near, C135_spacing, C135_hold, C135_nothing. Stand/Walk.lean and Example.lean run a client through a visit with one real step: C135_renewed (two moves during one stop), C135_held, C135_silent_witness.
* **C136** What a client with zones answers that detects stops. Stand/{AnswerSpec,AnswerLemmas,AnswerProps,Walk,Example}.lean. The memory is defined without the model (it uses the windows of C94 and the zones of C133); an invariant relates it to the state of the client. C136_answer is the answer to the next message, C136_session the answers of a whole session; the examples of C135 are computed from it.
* **C137** Whole centimetres in floating point. Model of the end of the post-processing with a rounding after each operation (Verif.Fp.CmModel). The centimetres shown after a further message are a monotone function of those shown before that is within one of the identity and fixes the multiples of 25; induction over the messages. Witness by exact evaluation of the rounding to the nearest number of 53 binary digits.
* **C138** Rounding does not change the strongest transmitter. Model of the averaging with a rounding after each operation (Verif.Fp.MeanModel). The sums are exact because they are whole numbers below 2^53; distinct means differ by at least 10^-12, more than twice the error of the rounded division; rounding is monotone, so equal means stay equal. The witness evaluates the rounding to the nearest number of 53 binary digits exactly.
* **C139** Times of the settings in whole milliseconds. The product of the rounded seconds and 1000 is within 10^-6 of n after both roundings and nonnegative by monotonicity, so the floor is n or n-1; a multiple of 125 ms is k/8 seconds, which a double holds, and the product is a whole number (Verif.Fp.MsProps). The witness evaluates rounding to nearest at 2.01 exactly.
* **C140** What a zone client answers in floating point. Composition of C138 (the strongest transmitter), C137 (centimetres) and C128 (geographic point) over a fold of windows; the stored indoor position after any windows is that of the latest window in which a transmitter was known, by induction on the windows (Verif.Fp.ZoneModel, ZoneProps). C140_exact ties the chain to the exact model of fusePositions and getProcessedPosition.
* **C141** The order of the map. Every lookup in the collector depends only on the set of floors (Verif.Order.Lemmas); a client of the map in another order exists and takes the same step in every state reached, since the floor of a window does not depend on the order unless two floors tie (C118); induction over the measurements. C141_tie gives two clients that name different floors.
* **C142** The same building further east. `Verif/East`: the movement of floor plans, maps and messages and the relation of two answers are in `Spec`; a relation of results is carried through every stage of `navigate` by composition (`Related.andThen`), from the binding difference being invariant under a common shift (normalised longitudes differ by whole turns). One assumption: the Boost test of the allowed area reads nothing but the geometry (`ReadsGeometry`). `C142_north` is the witness that the claim is about longitude only.
* **C143** A building across the antimeridian. `Verif/East/Seam*`: `Between` and `degrees` say the shorter way round; the box and the places are computed by cases on which corner is the greater and whether the difference exceeds 180 degrees; the client theorem goes through C120; `C143_outline` is the equivalence for boxes taken from an outline, and `C143_step` the building for which it fails.
* **C144** One reading that is not a number spoils the orientation for good. `Verif/Nan`: the filter is modelled once more over any arithmetic; `Propagates` lists the IEEE laws used; that all four components of the quaternion are NaN is an invariant; `exact` (reals and one value that is not a number) meets the laws and on numbers agrees with the model in `Verif/Fusion` (`C144_numbers`).
* **C145** Satellite fixes that are not numbers. `Verif/Nan/Fix*`: the estimator is modelled once more over any arithmetic; that the next r points are refused (`Blind`) is an invariant that also holds when the buffer is emptied, since an emptied buffer refuses a whole window; `C145_numbers` is the agreement with `Verif/Estim` for exact numbers; a last example shows the window to be sharp.
* **C146** A pressure that is not a number. `Verif/Nan/Baro*`: the barometer is modelled once more over any arithmetic; its buffers are the newest 202 pressures by induction over the calls; a bad pressure makes one mean and the height NaN, and equal pressures show no climb; `C146_numbers` is the agreement with `Verif/LevelEst` for exact numbers.
* **C147** An accelerometer sample that is not a number. `Verif/Nan/Pedo*`: the pedometer is modelled once more over any arithmetic; an invariant over the calls says that every stored magnitude within 2500 ms after a bad sample is NaN, so the comparison with the threshold fails; the walks are computed; `C147_numbers` is the agreement with `Verif/Pedo` for exact numbers.
* **C148** A place that is not a number switches the smoothing off. `Verif/Nan/Smooth*`: the smoother is modelled once more over any arithmetic; the stored speed stays NaN by induction over the places, so `isfinite` fails and the place is kept; `C148_numbers` is the agreement with `Verif/Smooth` for exact numbers and deviations that are not negative.
* **C149** A place that is not a number while the user stands. `Verif/Nan/Hold*`: the end of the postprocessor is modelled once more over any arithmetic; the distance to a held NaN is NaN, no comparison holds, the projection to the graph and the fitting keep it: induction over the calls. `C149_numbers` is the agreement with `Post.getProcessedPosition`.
* **C150** Radio readings that are not numbers. `Verif/Nan/Radio*`: the preprocessor is modelled once more over any arithmetic; sums over a NaN are NaN by induction, an invariant says that only distances are buffered and the bad one is among them; `C150_only` and `C150_numbers` are the converse and the agreement with `Verif/Radio` in exact numbers.
* **C151** Two places of one time switch the least squares smoother off. `Verif/Smooth/Dead*`: the normal equations of two samples of one time are singular (C44), so the prediction is not finite, and so is every later one that is built on it; invariant: the last output is not finite and the newest two samples stay in the window. The way back: after a reset the first prediction overwrites the last output.
* **C152** Transmitters that are not heard do not matter. `Unheard/`: `SameFloor`, `SameMap`, `SamePlan` and `Sends` say what may differ. Invariant: every radio entry kept by the preprocessor was sent by a transmitter on which the maps agree. Under it each function that reads a transmitter answers the same for both maps (`Lemmas.lean`), hence each step of `navigate`, hence by induction all calls (`C152_unheard`). `C152_plan`: `addGeoLevel` keeps the relation. `C152_example`: a second, silent beacon in the hall of C134.
* **C153** The names of the floors are labels. `Label/`: `Renaming`, `relabel`, `SameEntries` (what a table says about a name the other says about the new name), `SameMap`, `Answers`. A relation between the two clients and between their states: every stored name is renamed, every table keyed by names has the same entries, everything else is equal. Each function keeps it (`Lemmas.lean`, `Places.lean`), hence each step of `navigate`, and by induction all calls (`C153_labels`). `C153_start`, `C153_plan`: `addGeoLevel` keeps the relation. `C153_example`: the floor of the hall of C134 under another name.
* **C154** The order of the reference points does not matter. `Triang/UniqueProps.lean`: `GeneralPosition`; the empty circle of a triangle found in one order passes through no fourth point, so by the completeness argument of C95 (now for any point set, `complete_points`) the triangle is found in the other order (`C154_triangles`). `Knn/RefOrderProps.lean`: `Reordered`, `Ordinary`, `Generic`, `Heaviest`. Weights of reference points are sums over matched fingerprints and do not change under reordering; hence the level (`C154_floor`). The heaviest triangle of one order is, up to the order of its corners, the heaviest of the other, and the weighted mean is symmetric (`C154_place`). `C154_example`: four points in two orders, with a tie-free measurement. `Knn/RefClientProps.lean`: `C154_client`, by a step-by-step comparison of the two clients (maps, level history, estimators, fusion), with `NoTiedTriangles` asked of the closed windows of the history; `Knn/RefClientExample.lean`: `C154_client_example`, a client that answers OK, equally for both orders.
* **C155** The names of the transmitters are labels. `Tag/`: `tagMessage`, `tagPlan`, `tagMap` rename; `Compares`: the sorting functions commute with the renaming (`C155_sorts`: insertion sort does). Each function of the client commutes with the renaming (`Lemmas.lean`, `Places.lean`), hence each step of `navigate`, and by induction all calls (`C155_labels`). `C155_plan`, `C155_start`: `addGeoLevel` commutes with the renaming. `C155_example`: a prefix for the client of C154. `C155_order_matters`: two beacons of equal strength exchange their names and the place changes.
* **C156** Rounding errors of the alpha-beta smoother. `Fp/AbModel`: the smoother once more with a rounding after each operation. `smooth_near`: one step against the exact step from the same state, the speed multiplied by the interval. The norm of C122 contracts by the exact step; rounding adds a small multiple of the coordinates and of the norm itself (`step_size`, `stepF`). Induction over the measurements (`all_steps`): `C156_near`, `C156_regular`. `C156_gain`: the constructor. `C156_figures`: numbers for the default settings, with an example for rounding to nearest.
* **C157** How far the smoothed place can be from the measured one. `C157_bounded`: the speed estimates before and after are both at most four metres a second (C41), so the correction of the speed is at most eight, and the returned position is off the measurement by a fixed multiple of that correction. `C157_metres`: figures. `C157_sharp`: the bound is reached. `C157_unsettled`: the gains go 0.9, 0.1, 0.1, 0.1 in turn; each of the four steps is linear in error and speed (`off_step`), a round of four maps the states whose speed is between zero and half the error into themselves and makes the error a third larger (`moody_round`). `C157_start`: from a fresh smoother. This is a finding on the code: the filter is stable for each single gain (C42) and not for gains that alternate.
* **C158** Rounding errors of the position by fingerprints. `Fp/KnnModel.lean` repeats the model of the estimator with a rounding after every operation; `pow` is a parameter with a stated accuracy. `Within k x y` says that x is y up to k factors of 1 + 2u; sums, products, quotients, roots and maxima of non negative numbers keep it, and three thousand million of them are below a millionth. Differences that cancel have an absolute error instead, which the least penalty of 1e-6 absorbs. `C158_weights`: the weights. `C158_place`: the place. `C158_same`: the same place if one triangle is heaviest. `C158_estimator`: the estimator built from the data of a building. `C158_clear`: when the condition on the sums of shares holds. `C158_example`: a case.
* **C159** Rounding errors of the time smoother. `Fp/TimeModel.lean` repeats the model of C43 with a rounding after every operation. `C159_kept`: the state is the exact one. `C159_answer`: the differences of the times are integers and exact; the mean is a case of the weighted mean of C158 (`mean_round`) with weights that are integers. `C159_off`: the witness, with rounding to nearest computed step by step.
* **C160** Rounding errors of the fusion of indoor and satellite positions. `Fp/FuseModel.lean` repeats the model of C36 with a rounding after every operation. `C160_stored`: by induction over the history; one update halves the error it is given and adds a few u S, so 20 u S is kept. `C160_answer`: the ages are quotients of exact integers and the test against the limit is monotone; the distance is within 21 u M (`dist_near`, with a relative error under the root); the margins decide the other tests; the mean is a case of the weighted mean of C158 and the weights move it by at most their error over their sum times the distance.
* **C161** Rounding does not change the floor of the barometer. `Fp/BaroModel.lean` repeats the model of C25 and C26 with a rounding after every operation; the logarithm is a parameter (`GoodLog`, met by the correctly rounded one: `rounded_log_good`). The constant of the code is within 1e-11 (`pascal_near`), a mean of at most 101 readings within 114000 u (`mean_near`, by induction over the readings), the height within 9e-9 m (`height_near`). `C161_state`, `C161_answer`: by induction over the calls with C25's description of the windows.
* **C162** Rounding and the floor by transmitters. `Fp/FloorModel.lean` repeats the model of C27 with a rounding after every operation. The rounded sum is near the exact one by induction over the measurements (`total_near`), the mean within 10004000 u (`average_near`), the weight within 2 u (`weight_near`), the score within 3e-9 (`cost_near`). The loop is the first maximum of the rounded scores (`detectF_first`); `C162_near` and `C162_same` compare the scores.
* **C163** Rounding and the floor by fingerprints. `Fp/PrintFloorModel.lean` repeats the model of C28 (mode `useBestRefPointLevel` off) with a rounding after every operation. All terms are positive, so relative errors are counted (`Within`): three roundings for a term (`closeTerm_within`), one for each addition (`sum_within`), and by induction over the measurements at most 2000005 for a score (`steps_within`, `weight_within`, `grow_million`). The loop is the first maximum of the rounded scores (`printF_first`); `C163_near` and `C163_same` compare the scores. The mode with the best reference point is C164.
* **C164** Rounding and the floor by the best reference point. `Fp/BestFloorModel.lean` repeats the model of C28 (mode `useBestRefPointLevel` on) with the rounded weights of C158. The loop over the weights is their maximum (`loop_max`), and the maxima of two maps with the same keys and near values are near (`best_within`, from `weights_within` of C158). The loop over the floors is the first maximum (`bestF_first`); `C164_near` and `C164_same` compare the scores. `C164_example` meets the hypotheses with two floors.

## Findings: where the code does not do what a user expects

Each is a theorem (named) unless marked "by construction", which means it is visible in the model
definition and its comment.

* Longitudes more than 1.5 turns away stay out of range (`C03_single_step_fails`).
* Axis-parallel crossings are never reported by `CheckIntersection` (`C07_complete_fails`).
* Duplicate level ids make the two-step transmitter lookup throw (`C13_duplicate_ids_throw`).
* The k-nearest mode always answers the origin, because `reserve` does not change the size of the
  destination of `partial_sort_copy` (`C31_always_origin`).
* In triangle mode an OK answer can be the origin, far outside the level (`C75_origin_witness`).
* Reference points in a nearly straight corridor give no triangle: the circumcircle reaches the corners of the starting
  triangle, which is only ten metres away (`C95_corridor`).
* Four reference points in the corners of a square level give no triangle, and then every later level loses
  triangle mode as well, because the loop over the levels returns (`C75_square`).
* Without the sigma filter the setting for the maximal deviation of a fix has no effect (`C35_max_deviation_unused`).
* The sigma filter counts one fix again at each further message of another source: a single fix, followed by as many NMEA
  messages as the filter's window, is accepted (`C120_repeated`).
* A client keeps ever more when its sensors fall silent after an accelerometer sample: the pedometer takes the last sample again at
  each message of any kind, and drops nothing because the sample's time does not move on (`C121_silent_sensors`).
* With the detection of stops, a client keeps all signals admitted while the user stands still, so its memory (and the time of each
  averaging) grows with the length of the stop (`C121_standing`, `C121_stroll`).
* A sigma filter with window 0 pops from an empty deque (`C34_zero_window`).
* The linear solver fails on some regular 3×3 matrices: the rotation norm vanishes (`C44_rotation_witness`).
* A negative averaging time empties the fit window: undefined behaviour (`C47_negative_interval`).
* The time smoother extrapolates backwards for out-of-order positions (`C43_out_of_order_witness`).
* The least squares smoother diverges for a stopped target, because repeated values are not stored
  (`C76_diverges_witness`).
* Rounding after clamping leaves the level box by less than 1 cm (`C38_outside_witness`).
* A held position creeps with the graph projection (`C39_creep_witness`); the first call during a stop
  returns the empty position (`C37_first_stop_witness`).
* The altitude formula has a misplaced parenthesis, and the weighted sum is not divided by the weights (`C51_answer`,
  `C51_altitude_wrong`).
* The alpha-beta smoother of the post-processor returns the first two positions unsmoothed (`C96_warmup`); its reset keeps the
  flag of the first call (`C41_reset_prediction`); the reported deviation is that of the last indoor position, also
  for a satellite position (`C96_chain`).
* Roll and yaw are reported as 0 when the first axis of the device is vertical (`C97_vertical`).
* Unordered accelerometer samples let the pedometer buffer grow without bound (`C53_unordered_grows`); a
  sample with time stamp 0 is dropped, the average adds the filtered value once more, and the computed
  time between steps has no effect (by construction).
* The complementary filter reads uninitialised time stamps; no result depends on them (`C78_uninitialised`).
* A filter that holds the device exactly upside down is never corrected by the accelerometer (`C91_stuck`); the
  magnetometer correction changes the height of the field too, so it disturbs the tilt (`C92_step`).
* A calculated azimuth is declared valid before any magnetometer sample (`C57_calculated`).
* The navigation client: error outputs leave radius, orientation and provider uninitialised (`C63`); the
  lost level is never reported after the first OK (`C64_never_lost`); GNSS fixes never expire while other
  messages arrive (`C66_no_expiry`); the heading correction is dead code (`C67_dead`); the no-action
  threshold has no effect (`C81_no_action`); uninitialised messages can decide outputs (`C82`); unordered
  input is dropped only within a batch (`C62_unordered`).
* Likelihood: the sampling centre is stale across levels and time (`C83_centre`); weights are not
  normalised when all particles are absurdly far away (`C60_far`).
* Standalone trilateration accumulates over calls (`C68_history`, `C68_again`) and is sort dependent for
  duplicates with different distances (`C68_duplicates`).
* Standalone preprocessor: late measurements within the averaging time are dropped (`C70_late`).
* Map loader: every line with unmerged ends creates two vertices at one place (`C71_duplicates`;
  connectivity survives, `C71_connected`); repeated rssi values count once, the variance is always 0
  (`C86_statistics`); features of unknown levels are dropped silently, the altitude of transmitters is
  always 100 (by construction).
* Measurement logs: Eddystone lines become Wi-Fi measurements, lines of unknown type become a Wi-Fi
  measurement of the empty id, short vectors become zero (`C87_eddystone`, `C87_unknown_type`,
  `C87_short_vector`).
* Settings files: one mistyped value silently drops every setting whose key sorts after it
  (`C88_default`); three documented names are ignored (`C88_names_ignored`).
* Triangulation: of two coincident points only one keeps its edges; reference points named `super1` to
  `super3` vanish (by construction).
* The equality test of vectors is not transitive (`C98_not_transitive`).
* Every message, also a radio message, makes the client process the last sensor message again: the low-pass
  filters and the corrections of the orientation run once more (`C99_again`).
* Pedometer: two calls of `update` followed by one request for the steps lose the steps of the first call
  (`C102_missed`); a step with the third sample is reported only if a fourth one comes in the same group (`C102_start`).
* The integral error of the complementary filter has no limit and is never taken back (`C104_windup`); with the gains of the
  library (integral gain 0) it is not in use (`C104_off`).
* The replay program: its dead-reckoning track moves at most once, in the direction of an uninitialised member
  (`C107_track`); it puts wrong times on the lines after a message that comes late in its batch (`C105_late`); a log that
  starts at time 0 restarts the clock (`C105_restart`); batch size 0 never ends (`C105_endless`).
* The stand-alone positioning program gives a packet the time of its weakest entry, so a packet with a stale weak entry repeats
  the line before and a stronger, nearer transmitter is ignored (`C108_stale`).
* The test program of the pedometer divides by the number of steps, also if it is zero (`C109_mean`).
* The reported altitude falls back to 0 at every message that closes no radio window (`C101_other`); with exact ranging
  to four beacons a client at altitude 0 reports 5.2 m with status OK (`C101_altitude_wrong`).
* The alpha-beta smoother can diverge on a device at rest that is measured exactly: with the default smoothing and intervals of
  1, 1, 1, 10 and 10 seconds in turn the error grows by at least a tenth with every round (`C122_diverges`); with the default
  settings it goes from 10 m to over 22 m in twenty measurements (`C122_figures`). It is stable when no interval is more than
  4/3 of the previous one (`C122_near`, `C122_converges`).
* With weighting by the accuracy it can diverge at equal intervals as well: with stated accuracies of 1, 10, 100 and 1000 m in turn
  any first error of a device at rest grows to over a metre (`C157_unsettled`, `C157_start`).
* The alpha-beta smoother converges to a target moving at constant speed only with constant gains (`C42`).
* Arithmetic: the first measurement can overflow a `long long`, because the time of the last signal is uninitialised
  (`C115_uninitialised`); the fusion of positions divides by zero after a clock is set back (`C115_clock_set_back`).
* The first GNSS fix of a session passes the sigma filter only if its time stamp is 0, the initial value (`C116_start`).
* With fingerprints on several floors the client can report a place on the floor it has left while the floor in use is another
  one, with status OK; the bounding box that is checked is the one of the floor in use (`C119_place`, `C119_example`).
* The ENU conversion of the azimuth is skipped without a level (`C80`).
* With satellites and zones, the old zone is preferred to a fresh fix of lower accuracy and found too old afterwards: with the
  default times the client answers NO_SOLUTION for eight seconds, and then shows the fix with the radius of the zone
  (`C133_example`).
* With the barometer switched on, a client that counts 201 pressures before its first radio window closes has no floor until
  the pressure shows a climb of two metres, and answers NO_LEVEL until then (`C127_stuck`, `C127_never_found`). The last sensor
  message is read again at every later measurement, so one pressure counts once per measurement (`counted` in Pressure/Spec.lean).
* Fingerprints in difference mode do not notice a receiver that reads all signals too weak, but the default choice of the floor
  does, by fingerprints as well as by transmitters (`C129_floor_by_fingerprints`, `C129_floor_by_transmitters`).
* Eighteen settings are never read, among them the number of neighbours, all those of the particle filters and `hasAccelerometer`,
  `hasGyroscope` (`C130_never_read`); the five algorithms are two, since all but `KNN` give the same answers (`C130_algorithms`);
  a fix by satellites outdoors is reported whatever `useGps` is (`Agree` in Same/Spec.lean).
* The distances measured by Wi-Fi ranging influence nothing but the altitude, also with a measurement type of distances
  (`C131_ranging`).
* The test program of the standalone trilateration passes for all coordinates, if there is no error (`C126_any_input`);
  the coordinates it expects are not those it computes (`C126_scenario`).
* Floors added to the shared map after the client was made: a client that uses fingerprints throws at every later
  measurement (`C125_fingerprints_throw`); a zone client gives places on the new floors a radius computed with a
  division by zero, because the path loss parameters are read only by the constructor (`C125_rebuilt`).
* A user who comes to stand still before any place was shown gets none, however well the client knows where they are, unless
  the estimate is near the local origin of the floor (`C135_nothing`, `C135_silent_witness`).  Steps made while no floor is in use
  are not counted by the post-processor, though the radio buffer counts them; during a stop the windows of signals grow without
  bound and the zone follows the mean over the whole stop (C136).
* `std::floor(x * 100) / 100` is not idempotent on `double`s: during a stop the held place is clamped and rounded again at every
  message and creeps down by up to one centimetre per message (`C137_creep_witness`: 1.16 m → 1.12 m in four messages with the
  default settings). It never goes below the last whole quarter of a metre and rests after at most 24 messages (`C137_creep`,
  `C137_rest`). The theorems about held places in real arithmetic (C39, C135, C136) hold up to this creep.
* The strongest transmitter is found from rounded means. With whole strengths this changes nothing (`C138_zone`), but the input
  allows fractions: of two beacons heard at -60.3, one once and one three times, the means are equal and the smaller id should
  win; in `double` arithmetic the three additions and the division give a greater mean and the other zone
  (`C138_fraction_witness`).
* A time in the settings can lose a millisecond: seconds are multiplied by 1000 and cut off, and a `double` may lie just below the
  decimal fraction. A dead reckoning time of 2.01 s acts as 2009 ms (`C139_witness`); never more than one millisecond is lost
  (`C139_milliseconds`).
* C143 (`C143_step`): the loader takes the bounding box of a floor from the smallest and greatest coordinates of its outline. For a
  building across the antimeridian this is right only if all points of the outline lie on two meridians; otherwise part of the
  building lies outside the box, and satellite fixes there are answered with no place.
* One gyroscope or accelerometer reading that is not a number makes the orientation not a number for the rest of
  the session; nothing short of a new filter repairs it (`C144_lost`).
* With `useGpsOutsideMap` the NaN test of the outdoor estimator is bypassed (line 118-119: `(… && …) || mUseGpsOutsideMap`):
  a fix that is not a number is told as a place (`C145_taken`), or blinds the three-sigma filter for a window (`C145_filter`).
* One pressure that is not a number hides a change of floor for good (`C146_stuck`, `C146_lift`).
* One accelerometer sample that is not a number hides every step of the next 2.5 seconds (`C147_blind`, `C147_missed`), and the length of the
  first step after that can be no number (`C147_length`).
* One place that is not a number (satellite fixes outside the map can be, `C145_taken`) switches the alpha-beta smoothing off until places
  stop for ten seconds or the floor changes: the stored speed stays NaN (`C148_off`, `C148_example`).
* With the detection of stops a told place that is not a number is held until the next step, whatever places come meanwhile: its distance
  to every place is NaN and never below the threshold (`C149_stuck`, `C149_example`).
* A strength that is not a number is refused only where strengths are used. Where distances are used (Wi-Fi RTT) neither the distance nor
  the strength is looked at (`C150_taken`): one bad distance spoils the mean of its transmitter as long as it is kept (`C150_poison`), and
  a bad strength or distance among others makes the sorts for the closest transmitters and for the trilateration undefined (`C150_sort`).
* Two places of one time right after the start or after a change of the floor switch the least squares smoothing off: the fit divides by
  zero, and each later prediction is built on the last one, which is NaN (`C151_start`, `C151_floor`, `C151_example`).
* By construction: a KNN client throws for a level without fingerprints if the level is asked for directly
  (`C60_throws`); a gyroscope message with time −1 counts as none; a standalone estimator whose first
  position has time −1 or less answers the default; the standalone preprocessor drops its first
  measurement; a fit through no points answers −1 (`C46_empty`); barrier lines with fewer than two points
  are undefined behaviour; empty settings arrays are undefined behaviour in the tools.

## Wrong programs

`seeded/LOG.jsonl` lists edits of the model in a scratch copy, the claim each edit breaks, the theorems that
then failed to prove, and what was tightened when none did.
