# Formal model of Indoor-Positioning-And-Navigation-Algorithms

The C++ code in `/repo` is modelled, function by function, in Lean 4 under `lean/Verif`. Every model
definition cites the file and lines it models and says where it simplifies. The properties
(`properties.jsonl`) are theorems about that model; `MANIFEST.json` says which theorem states which
property. Theorem names start with the property id.

## Trusted base

* Lean's kernel (4.33.0). No `native_decide`, no `bv_decide`, no `sorry`, no axioms of our own.
* Axioms: every property theorem depends on `propext`, `Classical.choice` and `Quot.sound` and on nothing
  else (checked with `#print axioms` on all theorems of the manifest).
* `opaque` constants `divByZero`, `rootOfNegative`, `logOfNonpositive`, `asinOutside` (no axioms: Lean only knows
  that they are functions on ℝ).
* Mathlib's definitions that occur in statements: real numbers, `Real.sqrt`, `exp`, `log`, `cos`,
  `Complex.arg`, lists, permutations.
* The faithfulness of the model definitions to the C++ text. It is not machine-checked: the code is read
  as text and was never built or run. `seeded/LOG.jsonl` records how the theorems react to wrong
  programs.

## Conventions

* One directory per area under `lean/Verif/`: `Model.lean` (the code), `Spec.lean` (independent
  vocabulary for the statements), `Lemmas.lean` (helpers), `*Props.lean` (property theorems, each with an
  example showing that its hypotheses are met).
* `double` is ℝ. Overflow and signed zeros are outside the model, and so is rounding except in the area `Fp`,
  where parts of the code are modelled once more with a rounding after each operation: the orientation filter,
  the geographic conversions, the cut to whole centimetres, the strongest transmitter and zones, times of the settings,
  the alpha-beta and time smoothers, the position by fingerprints, the fusion with satellites, the barometer, and the
  floor by transmitters, by fingerprints and by the best reference point. NaN or infinite values that
  the code can produce from finite ones are explicit (`Option`, or a separate constructor); theorems say
  which inputs they exclude.
* Division by zero, the root of a negative number, the logarithm of a number that is not positive and `asin` outside
  [-1, 1] have a value about which nothing can be proved (`Verif/Arith.lean`: `x ÷ y`, `root`, `logarithm`, `asin`, with
  `opaque` values outside the domains). Lean's own totalised `x / 0 = 0` etc. occur in the model only where the
  operand is a non-zero constant or the case is split off before; so a theorem about a result shows at the same time
  that the arguments lie in the domains, or that it holds whatever these operations yield there.
* `int`, `long long`, `size_t` are unbounded integers or naturals; that the `long long` arithmetic of the client stays within
  64 bits, under stated conditions, is C115 (area `Checked`: every function of the client once more, where an operation outside
  its domain has no result).
* Exceptions and undefined behaviour are outcomes of their own (`Option`, `Knn.Result`, `Except`), so that
  a theorem about a result cannot hold because of a default value.
* Uninitialised memory is a parameter (`Garbage`, `junk`): theorems hold for every content.
* `std::map`, `std::set` are ordered association lists (`StdMap`, `StdSet`); `std::multimap` is the list
  of its entries in insertion order per key; `std::unordered_map` iteration is a parameter `order`
  that yields some permutation.
* `std::string` ids are `String`; their order is only used as a linear order.
* Virtual dispatch and `std::unique_ptr` members are sum types with the state of the chosen object.

## External code: parameters and what is assumed of them

| Parameter | Code | Assumption used by theorems |
|---|---|---|
| `Sorts.*`, `distanceSort`, `rpSort`, `MsrSorts`, `TrilatSorts` | `std::sort` calls | result is a permutation sorted by the comparison (not stable); for the edges of triangles, whose comparison is not an order on every list, sorted only where it is a strict weak order (`StdSort`, which `stdSort_exists` shows can be met); only in C116 (`TimeBlind`) and C129 (`OffsetBlind`): the order chosen does not change when all time stamps, or all signal strengths, are moved, as for every algorithm that decides by comparisons |
| `BoostGeometry` (`Levels`) | Boost `covered_by`, `intersects`, envelope, R-tree query | only what C72, C73 state as hypotheses: the query returns every barrier whose envelope meets the path; the envelope is the tight box |
| `allowed` | Boost `covered_by(point, allowedArea)` | none (arbitrary predicate) |
| `solve` | Eigen least squares (`JacobiSVD`) | C51 only: the result minimises the residual |
| `order` (`MapLoad`) | iteration of `std::unordered_map` | a permutation of the entries |
| `Json` (`JsonIn`) | values of nlohmann json | objects are sorted by key; integers fit 64 bits; rounding of numbers ignored; `long long` is not `int64_t` (64 bit Linux) |
| `Rounding` (`Fp`) | IEEE 754 `+ - * / sqrt` and the conversion from `long long`, in double precision | relative error at most 2⁻⁵³ plus 2⁻¹⁰⁷⁵, monotone, keeps zero and rounded numbers; no overflow, no fused multiply-add, no extended precision |
| `Cosine` (`Fp`) | `std::cos` of the C library | at most one, error at most 2⁻⁵² (C128 only) |
| `trustF` (`Fp`) | `pow(10.0, …)` in `calcTransmittersWeights` | relative error at most 10⁻⁹ (C158 and C164 only) |
| `logF` (`Fp`) | `std::log` of the C library | error at most 10⁻¹⁵ between 1/4 and 4 (C161 only) |
| the list of features (`MapLoad`) | nlohmann json | features are already split into typed fields; a missing field is an exception |

## Which code is modelled

| Code (`/repo`) | Model | Not modelled |
|---|---|---|
| `src/point.cpp` | `Geo` | – |
| `src/geometry.{h,cpp}` | `Geometry` | – |
| `include/.../graph.h`, graph projection in `geometry.h` | `NavGraph` | – |
| `src/level.cpp`, `level_geometry.cpp`, `level_collector.cpp`, `radiomap.cpp`, `barriers_geometry_builder.cpp` | `Levels` | the Boost algorithms themselves |
| `src/measurements/measurement_preprocessor.{h,cpp}`, `device_properties.h` | `Radio` | debug output |
| `src/level_estimator/*` | `LevelEst`, `Knn` | debug output |
| `src/knn/knn_utils.*`, `src/position_estimator/*` | `Knn`, `Estim` | – |
| `src/triangulation.*` | `Triang` | – |
| `src/position_postprocessor/*` | `Smooth`, `Post` | – |
| `src/trilateration.cpp` | `Trilat` | the SVD |
| `src/vector3d.cpp`, `src/sensor_fusion/*` | `Vec`, `Pedo`, `Fusion` | debug output |
| `src/likelihood/*` | `Likelihood` | `NAVIGATION_VISUALIZATION` members |
| `src/navigation_client_impl.*` | `Nav` | floors added later are in `Grow`; use after an exception except there |
| `standalone_algorithms/position_estimation`, `trilateteration` | `Standalone`; the example program of `position_estimation`: `Standalone.ProgModel`; the test program of `trilateteration`: `Standalone.TestProgModel` | console output, dead least squares code, the reading of one line of text (a line is a record or unreadable) |
| `standalone_algorithms/pedometer` | same text as `src/sensor_fusion/pedometer.cpp` apart from `update`, which takes a batch: `Pedo.updateBatch`; the example and the test's loop: `Pedo.ProgModel` | console output, the reading of one line of text |
| `standalone_algorithms/complementary_filter` | `Standalone.Cf`; its `vector3d` and `quaternion` differ from the library's by white space only (shared models `Fusion.Quat`, `Vec`) | its `operator==` of vectors, which is not used; the plot script. The programs of test and example: `Standalone.CfProgModel`, `PendulumModel`, random numbers as parameters |
| `tests/navigation_test.cpp` | `Tool` (C105–C107) | reading the arguments, the format of the numbers; lines printed before an exception |
| `tools/verification/helpers.cpp` | `MapLoad` (map, graph: C71, C85, C86), `JsonIn` (settings, logs: C87–C89) | the JSON parser, file access, console output |
| `include/.../logger.h`, examples, tests | – | not modelled: no semantic property |
