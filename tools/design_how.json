{
 "C01": "`Geo`: real-valued model of point.cpp; algebra and case split on the normalisation. `C01_scale` pins the scale by literal constants.",
 "C02": "`Geo`: same model; `C02_bound_is_needed` shows the bound is sharp.",
 "C03": "`Geo`: exact range as an iff; negation outside it.",
 "C04": "`Geometry`: spec = least element of the set of distances to segment points.",
 "C05": "`Geometry`: spec = orthogonality and minimality over the line.",
 "C06": "`Geometry`: result is `Option` (NaN = none); spec = parametrised common point; sound and complete for non-parallel segments.",
 "C07": "`Geometry`: answer characterised by an iff with proper crossing.",
 "C08": "`NavGraph`: fold over edges with running minimum; spec = distance to every point of every edge.",
 "C09": "`Geometry`: tolerance bounds for PointOnLine, iff for the ray test.",
 "C10": "`NavGraph`: histories of graph operations, invariant by induction; throwing is `none`.",
 "C11": "`NavGraph`: conversion of any graph built by operations; spec = same ids, edges, converted points.",
 "C12": "`Levels`: lookups as finds; first registration of an id wins.",
 "C13": "`Levels`: find-first over levels and transmitters.",
 "C14": "`Levels`: filter with first-match semantics.",
 "C15": "`Levels`: index of the radiomap against the list of points.",
 "C16": "`Radio`: decision logic as an iff over message content and settings.",
 "C17": "`Radio`: buffer contents as a list; averages stated with sums over filters.",
 "C18": "`Radio`: histories of updates and extractions.",
 "C19": "`Radio`: histories; kept measurements are exactly the young ones.",
 "C20": "`Radio`: invariant over histories.",
 "C21": "`Radio`: sorted permutation contract, prefix.",
 "C22": "`Radio`: exp/log algebra, strict monotonicity.",
 "C23": "`Radio`: case split on the settings.",
 "C24": "`LevelEst`: detection histories, counting in suffixes.",
 "C25": "`LevelEst`: refinement of the two deques to segments of the history.",
 "C26": "`LevelEst`: hold and change conditions stated with means of history segments.",
 "C27": "`LevelEst`: first argmax of the cost.",
 "C28": "`Knn`: first argmax of the score.",
 "C29": "`Knn`: weights written as a closed formula over matched fingerprints; positivity and lower bound.",
 "C30": "`Knn`: first heaviest triangle, convex combination.",
 "C31": "`Knn`: the intended claim is refuted for all inputs.",
 "C32": "`Knn`: status as a decision table, history of stored positions.",
 "C33": "`Estim`: zone estimator; first strongest measurement.",
 "C34": "`Estim`: sigma filter over histories; window 0 is undefined behaviour.",
 "C35": "`Estim`: outdoor estimator over histories; `Estim/FilterProps`: the window of the sigma filter as a function of the history of fixes.",
 "C36": "`Post`: fusion over histories; convex combination of the stored positions.",
 "C37": "`Post`: rejection conditions as an iff; what an accepted call reports.",
 "C38": "`Post`: clamping and rounding; exact for bounds on the centimetre grid.",
 "C39": "`Post`: stop hold over histories.",
 "C40": "`Post`: distance to the graph, with the projection theorem C08.",
 "C41": "`Smooth`: alpha-beta step, decision logic and bounds.",
 "C42": "`Smooth`: Lyapunov function for the constant gain.",
 "C43": "`Smooth`: histories of calls; segment of the two last positions.",
 "C44": "`Smooth`: Givens rotations preserve solutions; induction on columns.",
 "C45": "`Smooth`: normal equations give the minimum.",
 "C46": "`Smooth`: Lagrange basis evaluated at the nodes.",
 "C47": "`Smooth`: window invariant over histories.",
 "C48": "`Triang`: Bowyer–Watson loop invariant; vertex ids of the output; exact effect of one insertion.",
 "C49": "`Triang`: determinant identity with the circumcircle.",
 "C50": "`Trilat`: loop invariants for soundness and maximality.",
 "C51": "`Trilat`: identity of the linear system; the SVD solve is a parameter with its least squares contract; `Trilat/Altitude`: the answer for exact distances in general, and the example where it is wrong.",
 "C52": "`Pedo`: invariants over histories of updates and requests.",
 "C53": "`Pedo`: out-of-range access is `none`; never reached.",
 "C54": "`Fusion`: loops with a termination proof, uniqueness of the representative.",
 "C55": "`Fusion`: unit norm invariant over histories.",
 "C56": "`Fusion`: state equality.",
 "C57": "`Fusion`: history invariant on the last orientation message.",
 "C58": "`Fusion`: histories, counter against the reported steps.",
 "C59": "`Fusion`: gain bounds, convex combination.",
 "C60": "`Likelihood`: closed formula for weights.",
 "C61": "`Nav`: the whole client step composed from the parts; induction over the batch.",
 "C62": "`Nav`: induction over the batch split.",
 "C63": "`Nav`: decision logic of the report and a state invariant.",
 "C64": "`Nav`: invariant; negation of the expectation.",
 "C65": "`Nav`: step analysis.",
 "C66": "`Nav`: negation of the expectation, and the case in which fixes do expire.",
 "C67": "`Nav`: invariant over histories; the branch is dead.",
 "C68": "`Standalone`: closed formula for the result, histories of calls.",
 "C69": "`Standalone`: refinement to the alpha-beta smoother of `Smooth`.",
 "C70": "`Standalone`: histories of updates and extractions.",
 "C71": "`MapLoad`: invariant of the graph builder over all lines.",
 "C72": "`Levels`: Boost predicates and the r-tree query are parameters.",
 "C73": "`Levels`: box arithmetic with the scale of `Geo`.",
 "C74": "`Knn`: the offset cancels in every difference.",
 "C75": "`Knn` with `Triang`: hull membership, lower bound of weights; exactly which levels get triangles (`C75_triangulated`, `C75_square`).",
 "C76": "`Smooth`: totality, barriers; divergence by a computed sequence.",
 "C77": "`Pedo`: detection rule as an iff over the sample history.",
 "C78": "`Fusion`: simulation between two runs with different junk.",
 "C79": "`Nav`: safety invariant over all histories and parts.",
 "C80": "`Nav`: decision logic of the orientation.",
 "C81": "`Nav`: equality of runs with two thresholds.",
 "C82": "`Nav`: simulation between runs with different uninitialised memory.",
 "C83": "`Likelihood`: histories of calls.",
 "C84": "`Likelihood`: induction over the measurements.",
 "C85": "`MapLoad`: map file as a list of typed features; levels and contents as filters of that list; the area polygon by polygon and corner by corner against the coordinate arrays.",
 "C86": "`MapLoad`: statistics as sums over distinct values.",
 "C87": "`JsonIn`: nlohmann values and conversions modelled; round trip against a separate description of messages (`Describes`), induction over the lines.",
 "C88": "`JsonIn`: the chain of keys as a table; checked entry by entry against a separate table of keys, types, defaults and members; induction over the members in key order.",
 "C89": "`JsonIn`: induction over the entries; the map of levels compared with the last matching entry.",
 "C90": "`Fusion/OrientProps`: an update multiplies by (1, v/2) and normalises, which is the rotation by 2 arctan(|v|/2) (Rodrigues); induction over the messages for the heading. The specification uses the rotation matrix, not quaternion products.",
 "C91": "`Fusion/OrientProps`: exact recurrence of the cosine of the tilt error, 1-c' = (1-c)(1-k(1+c)/2)²/(1+k²(1-c²)/4); induction over the messages.",
 "C92": "`Fusion/MagnProps`: the update moves the measured vector in the plane of it and its northward version; comparison of cosines.",
 "C93": "`Fusion/MagnProps`: arguments of complex numbers modulo 2π; the half angle construction is the rotation by π minus the yaw.",
 "C94": "`Nav/ZoneSpec`: the windows of a history, the strongest transmitter, the settings; `Nav/ZoneLemmas`, `Nav/ZoneProps`: an invariant of the composed client linking buffer, level history and last indoor position to the windows, by induction over the taken measurements; the answer from the invariant.",
 "C95": "`Triang/Boundary`: the sum of any function over the sides is unchanged modulo two by an insertion; `Triang/DelaunayLemmas`: circles through a side (pencil argument), invariant of the insertions; `Triang/DelaunayRun`: the starting triangle, the grid on which the tolerance 1e-8 decides nothing; `Triang/DelaunayCover`: coverage by counting the sides above a place; `Triang/DelaunayOnce`, `Triang/DelaunayProps`.",
 "C96": "`Post/ChainSpec`: the accepted calls and the calls each smoother gets; `Post/ChainProps`: invariant relating the post-processor to the separate objects, by induction over the calls.",
 "C97": "`Fusion/EulerProps`: entries of the rotation matrix as polynomial identities in the unit quaternion.",
 "C98": "`Vec`: coordinates; each law as a polynomial identity; the equality test unfolded to absolute differences.",
 "C99": "`Nav/SensorProps`: the calls handed to the sensor fusion as a function of the taken messages, by induction over them; two runs side by side for the foreign messages.",
 "C100": "`Pedo/HoldProps`: a simulation relation (same magnitudes, same times) kept by every operation; `Nav/HoldProps`: lifted to the client with C99.",
 "C101": "`Nav/AltitudeProps`: the output of one step after any history; the gate of the buffer is closed between messages (invariant), so only an admissible radio message hands out measurements. `Nav/AltitudeRtt`: the averages of a closed window of ranging signals carry the mean distances without the offset, so C51 gives the altitude in the answer of the client; a client at altitude 0 with exact distances reports 5.2 m.",
 "C102": "`Pedo/BatchProps`: a reference function `found` computes the steps from all magnitudes of the history at once; an invariant over groups shows that the reported steps are `found` of the history so far, whatever part of it is still buffered. `C102_missed` and `C102_start` show that both conditions are needed.",
 "C103": "`Standalone/CfModel` models the stand-alone filter from its own text; `Standalone/CfProps`: a simulation relation between it and `Fusion.cfUpdate`, kept by every measurement, gives equality of all getters. So C55, C56, C59, C90–C93 and C97 hold for it too.",
 "C104": "`Standalone/CfProps`: the integral error is, by induction over the messages, the gain times the sum of the cross products shown; the update of C90 applied to the sum of rate and integral error; norm bounds from C98.",
 "C105": "`Tool/Model` models the program on the models of its parts (map, settings, log, client). `Tool/Props`: induction over the batches, with the batch invariance of C62, shows that the loop is one call of `navigate`; the lines are compared with the outputs one by one.",
 "C106": "`Tool/FinishProps`: composition of C85 (the map is read), C89 (settings), a lemma that every graph of a file is built by the calls of C11, C79 (the client is total) and C63 (the outputs).",
 "C107": "`Tool/TrackProps`: the heading is one indeterminate constant, so the test `heading != previous` succeeds once; the track as a fold over the outputs in closed form.",
 "C108": "`Standalone/ProgProps`: the packets of a log by induction over its lines (which entries, how many), composed with the facts on the stand-alone estimator (`EstimProps`: a line is a convex combination of transmitter places, or the line before); equivariance by induction over the packets.",
 "C109": "`Pedo/ProgProps`: the loop of the program equals the history of `sample`/`steps` calls of C52, C100 (induction over the log); the bounds, the prefix and the turn claims are then those properties.",
 "C110": "`Fusion/RestProps`: the angle after an accelerometer message in closed form (θ − 2 arctan(k sin θ / 2)), the triangle inequality for angles between directions (Mathlib), a rotation moves a direction by at most its angle; the distance to a direction is convex along great circles of a half-sphere (`Fusion/Slerp`), so an accelerometer message never moves the held vertical beyond the measured direction and its error is not amplified; contraction by induction over the rounds; Euler angles from the held vertical. `Standalone/CfProgProps`: the test's loop and generator satisfy the hypotheses, with the noise as a parameter; transfer by C103.",
 "C111": "`Fp.Model`: the filter once more, operation by operation, with a rounding (parameter, standard model of IEEE 754 arithmetic, an instance in `Fp.Instance`) after each; `C111_exact` ties it to `Fusion.Model`. Error of each kernel in terms of Mathlib's quaternion norm; the update multiplies by a quaternion of norm at least one, so neither the threshold nor cancellation in the norm matters; unit quaternions are isometries, so the errors of the steps only add.",
 "C112": "`Fp/RestLemmas`: rounding error of the held vertical, the cross product and the correction; `Fp/RestProps`: each message does what it does in exact arithmetic (angles of C110) up to a fixed number of units of 2^-53; the contraction of C110 over the rounds, with the rounding error of a round beside the sensor errors; instance for the generator of the static tilt test.",
 "C113": "`Nav/KnnSpec`: the last window with a property, the averages, the place; `Nav/KnnLemmas`: the estimator and the level detection for one floor (from C28–C32); `Nav/KnnProps`: an invariant of the composed client by induction over the taken measurements; `Nav/KnnExample`: a concrete client.",
 "C114": "`Fusion/MovingProps`: as C110 with a reference direction that changes; the difference of two reported rotations of a direction is bounded through the scalar product of the quaternions (1, half the rotation vector), and the tangent step through C90. `Standalone/PendulumModel`, `PendulumProps`: the simulation in closed form, the generator satisfies the hypotheses with the true upward direction one sample late (the accelerometer message comes before the gyroscope message of its sample), transfer by C103.",
 "C115": "`Checked/Ops`: operations that fail outside their domain; `Checked/{Sensors,Radio,Post,Client}`: every function of the client once more with them (all arithmetic on the way of a measurement; the altitude and the polynomial fit keep their own models, which already say where a number is not finite). Lemmas: each checked function equals `some` of the unchecked one under an invariant of the state (times in range, deviations positive, gains in [0.1, 0.9], stored positions in order), kept by every step; `Checked/Props`: composition over the batches, and witnesses that the conditions matter.",
 "C116": "`Shift/Spec`: the same calls with all time stamps moved, what late enough means, and sorts that do not notice the move. `Shift/{Sensors,Post,Client}`: a map that moves every stored time stamp of the client except the initial ones (0 and -1), an invariant that every stored time stamp is initial or late enough, and for every function of the client the proof that it commutes with the map and keeps the invariant. `Shift/Props`: composition over the calls, both directions; uninitialised memory by C82; the session at time 0 that is answered differently.",
 "C117": "`Inertial/Spec`: which sensors, sessions that differ only there, outputs without the orientation. `Inertial/Lemmas`: a relation between two states of the client (equal up to the orientation filter and the last sensor message, and up to pedometer and step times if the accelerometer is among the sensors and steps do not matter), kept by every part of the client. `Inertial/Props`: composition over the calls, and a session whose orientation is the one of the message.",
 "C118": "`Floors/Spec`: the sequence of closed windows, the floor of a window, the votes, the last window in which a floor was heard. `Floors/Lemmas`: the averages of a window restricted to a floor are the averages of its signals; the score of the detector is the strength of the specification; the level history holds the votes. `Floors/Props`: an invariant of the composed client, by induction over the taken measurements (the stored indoor position always belongs to the floor in use, because a floor takes over only in a window in which it is heard); the answer from the invariant; uniqueness; a session on two floors of any length.",
 "C119": "Specification in Verif/Prints/Spec.lean in terms of measurements and map only (floor of a window, votes of C118, last window with a place). Invariant over the whole history as in C113 and C118; the floor comes from C28, the place and the status from C32 and C75. The example is a history with two floors in which, for every time of the next message, the floor reported is not the one in use.",
 "C120": "Invariant over the history (`Outdoor.Wild`): no floor is ever used, the client's position is the estimator's last position, and that is the one of the last fix taken over (`LastAccepted`, from C35) or the initial one. C120_repeated computes the filter's contents for one fix repeated by n messages, for every n and window.",
 "C121": "Invariants over the history: the kept signals are a sub-multiset of the admitted ones with times in the window (`Footprint.Held`), the pedometer's buffers are ends of the history of samples (C53, C77), the votes are keyed by floors of the map. The least-squares smoother's fit window and the k-nearest-neighbour tables (fixed by the map) are left out. C121_constant counts messages in an interval; C121_silent_sensors and C121_standing prove the two kinds of unlimited growth, C121_stroll gives a session for each n.",
 "C122": "Smooth/IrregularProps.lean. The quadratic form that one step contracts (C42) is turned into a norm on the pair of the error and the speed times the interval; changing the interval from T to rT stretches the norm by a factor that is below the inverse of the contraction exactly for mild r; measurement errors are added with the triangle inequality, which gives the geometric series. The finding is an exact computation: one round of the five intervals is a matrix with trace -5809/4860 and determinant 1/32, so the error after each round follows a two-term recursion that grows by more than a tenth (Cayley-Hamilton).",
 "C123": "Track/{Spec,Lemmas,Props,SettleProps,Example}.lean. The motion of the fixes is a fold over the list of fixes, stated without the client. An invariant says that after every history the smoother holds the motion of the fixes so far (Holds) and the postprocessor the last window (Tracked); one step preserves it (tracked_step), over the lemmas about windows and zones of C94. For the convergence the fold is identified with the iteration of the smoother of C122, extending the finite list of times by its last interval. The example is a hall with two beacons: the first answer after the change is half way, and all later ones converge.",
 "C124": "Track/{FloorsSpec,FloorsLemmas,FloorsProps,FloorsExample}.lean. The fixes of a list of windows and their journey are defined without the client; C124_new_fix and C124_no_fix say when a window adds a fix. An invariant (Toured) says that the smoother holds the journey of the fixes so far (Keeps, Travels), that the level history has counted the votes, and that a place in the box of the floor in use is the last fix; toured_step preserves it. C124_arrive: a change of the floor forgets the old place. C124_one_floor: on one floor the journey is the track of C123. The example is a house: the answer on arrival upstairs shows the beacon there, and a later one is half way between two beacons.",
 "C125": "Grow/{Model,Spec,Lemmas,Props}.lean. Model: the client with another map in all the places that hold the shared pointer, with everything computed by the constructors unchanged; sessions of added levels and calls; getStates; the state left behind when the level detection throws. C125_rebuilt: equality of navigate with that of the client the constructor makes from the grown map and parameters 0. C125_total and C125_outputs follow by carrying the safety invariant of C79 from the smaller to the larger map. C125_fingerprints_throw: by induction over the batches, with the invariant of the sensor fusion for the states left behind. C125_states, C125_no_states: the debug states. C125_example: the answer names a floor added after the client was made; an example shows the hypotheses of the throwing theorem hold.",
 "C126": "Standalone/TestProg{Model,Props}.lean. The program as a function of the map and the measurements, and its verdict with the condition as written (a conjunction of three differences). C126_verdict and C126_any_input characterise it with C68_call; C126_scenario computes the coordinates of the scenario exactly. An example shows both verdicts.",
 "C127": "Pressure/{Spec,Lemmas,Props,Idle,Example}.lean, over the client model of Nav. The specification counts a pressure at every measurement but the first, as long as the last sensor message is one (the code reads the last sensor message again), and defines the floor in use by the last free prefix of the history. C127_answers is proved by an invariant over the measurements, with C26 for the barometer; C127_unique, C127_held and C127_stuck follow from the specification; C127_idle compares the two clients step by step; C127_never_found and C127_found_without are the two clients of the statement, for every number of signals.",
 "C128": "Fp/GeoModel.lean models the four functions again, with a rounding after each operation, the library cosine a parameter; Fp/GeoProps.lean bounds the error of each operation and adds up. C128_local_geo_local, C128_geo_local_geo, C128_to_geo, C128_to_local; C128_normalize for rounding to nearest, where the differences are multiples of 2^-45 and therefore exact.",
 "C129": "Bias/{Spec,Lemmas,Client,Props}.lean, over the client model of Nav. The two clients are related step by step: the stored signals differ by the offset, the distances computed from them differ in a way nothing else reads, everything else is equal. The weights of the reference points are equal by C74. C129_same_answers is the statement for histories of calls; C129_floor_by_fingerprints and C129_floor_by_transmitters are the two counterexamples. The sorting algorithms are assumed not to notice the offset (OffsetBlind), which every algorithm that only compares satisfies; insertion sort is shown to.",
 "C130": "Same/{Spec,Bare,Lemmas,Client,Props}.lean, over the client model of Nav. Agree lists the settings that matter, each under the condition under which it does. The two clients are related step by step (SameState): they hold the same, apart from parts the settings keep from being read. C130_same_answers is the statement; C130_never_read, C130_algorithms and C130_without_gps are the instances worth knowing.",
 "C131": "Unread/{Spec,Lemmas,Client,Props}.lean, over the client model of Nav. SameRead is the agreement of two messages. Both histories are compared with a third one, in which everything that does not matter is zero. C131_same_answers is the statement, C131_ranging the instance for Wi-Fi ranging. The sorting algorithms are assumed not to notice a change of what they do not compare (ComparesOnly); insertion sort is shown to.",
 "C132": "Trail/{Spec,Props,Unique,Example}.lean, over the client model of Nav. FixesOf relates the windows of C107 to the fixes, with the place of C113; track and shown are those of C123. C132_answer is the answer, C132_before the time before the first window, C132_default the settings. C132_place_unique and C132_fixes_unique say that places and fixes are determined, C132_settles is the approach. C132_example and C132_settles_example run a client on a map with four reference points.",
 "C133": "Mixed/{Spec,Lemmas,Props,Example}.lean, over the client model of Nav. stored computes the store from the history, choose is the rule; both are written over places, radii and times only. Held relates the store to the state of the client, by induction over the history. C133_answer is the answer while the floor is in use, C133_away and C133_still the other times. C133_example runs a client under a beacon that gets a fix, at every time, with and without blending: the gap without an answer, and the radius of the zone shown for a satellite place.",
 "C134": "Project/{Spec,Lemmas,Client,Props,Example}.lean, over the client model of Nav. Beside relates the two answers; it is proved by a relation between the states of the two clients (equal but for the places of the last answer and of the position shown), kept by every step. C134_projection is the comparison, C134_near the bound on the movement, C134_one_floor the reading for one floor. C134_example runs both clients under a beacon four metres from a corridor. The graph used is that of the floor in use, which may differ from the reported one (C119); with stops the projected place does feed back (C39).",
 "C135": "Stand/{Spec,Lemmas,Props}.lean. The log of times, answers and debug states is related to the calls of the post-processor (Told), so that the theorems of C39 about one post-processor become theorems about sessions: C135_near, C135_spacing, C135_hold, C135_nothing. Stand/Walk.lean and Example.lean run a client through a visit with one real step: C135_renewed (two moves during one stop), C135_held, C135_silent_witness.",
 "C136": "Stand/{AnswerSpec,AnswerLemmas,AnswerProps,Walk,Example}.lean. The memory is defined without the model (it uses the windows of C94 and the zones of C133); an invariant relates it to the state of the client. C136_answer is the answer to the next message, C136_session the answers of a whole session; the examples of C135 are computed from it.",
 "C137": "Model of the end of the post-processing with a rounding after each operation (Verif.Fp.CmModel). The centimetres shown after a further message are a monotone function of those shown before that is within one of the identity and fixes the multiples of 25; induction over the messages. Witness by exact evaluation of the rounding to the nearest number of 53 binary digits.",
 "C138": "Model of the averaging with a rounding after each operation (Verif.Fp.MeanModel). The sums are exact because they are whole numbers below 2^53; distinct means differ by at least 10^-12, more than twice the error of the rounded division; rounding is monotone, so equal means stay equal. The witness evaluates the rounding to the nearest number of 53 binary digits exactly.",
 "C139": "The product of the rounded seconds and 1000 is within 10^-6 of n after both roundings and nonnegative by monotonicity, so the floor is n or n-1; a multiple of 125 ms is k/8 seconds, which a double holds, and the product is a whole number (Verif.Fp.MsProps). The witness evaluates rounding to nearest at 2.01 exactly.",
 "C140": "Composition of C138 (the strongest transmitter), C137 (centimetres) and C128 (geographic point) over a fold of windows; the stored indoor position after any windows is that of the latest window in which a transmitter was known, by induction on the windows (Verif.Fp.ZoneModel, ZoneProps). C140_exact ties the chain to the exact model of fusePositions and getProcessedPosition.",
 "C141": "Every lookup in the collector depends only on the set of floors (Verif.Order.Lemmas); a client of the map in another order exists and takes the same step in every state reached, since the floor of a window does not depend on the order unless two floors tie (C118); induction over the measurements. C141_tie gives two clients that name different floors.",
 "C142": "`Verif/East`: the movement of floor plans, maps and messages and the relation of two answers are in `Spec`; a relation of results is carried through every stage of `navigate` by composition (`Related.andThen`), from the binding difference being invariant under a common shift (normalised longitudes differ by whole turns). One assumption: the Boost test of the allowed area reads nothing but the geometry (`ReadsGeometry`). `C142_north` is the witness that the claim is about longitude only.",
 "C143": "`Verif/East/Seam*`: `Between` and `degrees` say the shorter way round; the box and the places are computed by cases on which corner is the greater and whether the difference exceeds 180 degrees; the client theorem goes through C120; `C143_outline` is the equivalence for boxes taken from an outline, and `C143_step` the building for which it fails.",
 "C144": "`Verif/Nan`: the filter is modelled once more over any arithmetic; `Propagates` lists the IEEE laws used; that all four components of the quaternion are NaN is an invariant; `exact` (reals and one value that is not a number) meets the laws and on numbers agrees with the model in `Verif/Fusion` (`C144_numbers`).",
 "C145": "`Verif/Nan/Fix*`: the estimator is modelled once more over any arithmetic; that the next r points are refused (`Blind`) is an invariant that also holds when the buffer is emptied, since an emptied buffer refuses a whole window; `C145_numbers` is the agreement with `Verif/Estim` for exact numbers; a last example shows the window to be sharp.",
 "C146": "`Verif/Nan/Baro*`: the barometer is modelled once more over any arithmetic; its buffers are the newest 202 pressures by induction over the calls; a bad pressure makes one mean and the height NaN, and equal pressures show no climb; `C146_numbers` is the agreement with `Verif/LevelEst` for exact numbers.",
 "C147": "`Verif/Nan/Pedo*`: the pedometer is modelled once more over any arithmetic; an invariant over the calls says that every stored magnitude within 2500 ms after a bad sample is NaN, so the comparison with the threshold fails; the walks are computed; `C147_numbers` is the agreement with `Verif/Pedo` for exact numbers.",
 "C148": "`Verif/Nan/Smooth*`: the smoother is modelled once more over any arithmetic; the stored speed stays NaN by induction over the places, so `isfinite` fails and the place is kept; `C148_numbers` is the agreement with `Verif/Smooth` for exact numbers and deviations that are not negative.",
 "C149": "`Verif/Nan/Hold*`: the end of the postprocessor is modelled once more over any arithmetic; the distance to a held NaN is NaN, no comparison holds, the projection to the graph and the fitting keep it: induction over the calls. `C149_numbers` is the agreement with `Post.getProcessedPosition`.",
 "C150": "`Verif/Nan/Radio*`: the preprocessor is modelled once more over any arithmetic; sums over a NaN are NaN by induction, an invariant says that only distances are buffered and the bad one is among them; `C150_only` and `C150_numbers` are the converse and the agreement with `Verif/Radio` in exact numbers.",
 "C151": "`Verif/Smooth/Dead*`: the normal equations of two samples of one time are singular (C44), so the prediction is not finite, and so is every later one that is built on it; invariant: the last output is not finite and the newest two samples stay in the window. The way back: after a reset the first prediction overwrites the last output.",
 "C152": "`Unheard/`: `SameFloor`, `SameMap`, `SamePlan` and `Sends` say what may differ. Invariant: every radio entry kept by the preprocessor was sent by a transmitter on which the maps agree. Under it each function that reads a transmitter answers the same for both maps (`Lemmas.lean`), hence each step of `navigate`, hence by induction all calls (`C152_unheard`). `C152_plan`: `addGeoLevel` keeps the relation. `C152_example`: a second, silent beacon in the hall of C134.",
 "C153": "`Label/`: `Renaming`, `relabel`, `SameEntries` (what a table says about a name the other says about the new name), `SameMap`, `Answers`. A relation between the two clients and between their states: every stored name is renamed, every table keyed by names has the same entries, everything else is equal. Each function keeps it (`Lemmas.lean`, `Places.lean`), hence each step of `navigate`, and by induction all calls (`C153_labels`). `C153_start`, `C153_plan`: `addGeoLevel` keeps the relation. `C153_example`: the floor of the hall of C134 under another name.",
 "C154": "`Triang/UniqueProps.lean`: `GeneralPosition`; the empty circle of a triangle found in one order passes through no fourth point, so by the completeness argument of C95 (now for any point set, `complete_points`) the triangle is found in the other order (`C154_triangles`). `Knn/RefOrderProps.lean`: `Reordered`, `Ordinary`, `Generic`, `Heaviest`. Weights of reference points are sums over matched fingerprints and do not change under reordering; hence the level (`C154_floor`). The heaviest triangle of one order is, up to the order of its corners, the heaviest of the other, and the weighted mean is symmetric (`C154_place`). `C154_example`: four points in two orders, with a tie-free measurement. `Knn/RefClientProps.lean`: `C154_client`, by a step-by-step comparison of the two clients (maps, level history, estimators, fusion), with `NoTiedTriangles` asked of the closed windows of the history; `Knn/RefClientExample.lean`: `C154_client_example`, a client that answers OK, equally for both orders.",
 "C155": "`Tag/`: `tagMessage`, `tagPlan`, `tagMap` rename; `Compares`: the sorting functions commute with the renaming (`C155_sorts`: insertion sort does). Each function of the client commutes with the renaming (`Lemmas.lean`, `Places.lean`), hence each step of `navigate`, and by induction all calls (`C155_labels`). `C155_plan`, `C155_start`: `addGeoLevel` commutes with the renaming. `C155_example`: a prefix for the client of C154. `C155_order_matters`: two beacons of equal strength exchange their names and the place changes.",
 "C156": "`Fp/AbModel`: the smoother once more with a rounding after each operation. `smooth_near`: one step against the exact step from the same state, the speed multiplied by the interval. The norm of C122 contracts by the exact step; rounding adds a small multiple of the coordinates and of the norm itself (`step_size`, `stepF`). Induction over the measurements (`all_steps`): `C156_near`, `C156_regular`. `C156_gain`: the constructor. `C156_figures`: numbers for the default settings, with an example for rounding to nearest.",
 "C157": "`C157_bounded`: the speed estimates before and after are both at most four metres a second (C41), so the correction of the speed is at most eight, and the returned position is off the measurement by a fixed multiple of that correction. `C157_metres`: figures. `C157_sharp`: the bound is reached. `C157_unsettled`: the gains go 0.9, 0.1, 0.1, 0.1 in turn; each of the four steps is linear in error and speed (`off_step`), a round of four maps the states whose speed is between zero and half the error into themselves and makes the error a third larger (`moody_round`). `C157_start`: from a fresh smoother. This is a finding on the code: the filter is stable for each single gain (C42) and not for gains that alternate.",
 "C158": "`Fp/KnnModel.lean` repeats the model of the estimator with a rounding after every operation; `pow` is a parameter with a stated accuracy. `Within k x y` says that x is y up to k factors of 1 + 2u; sums, products, quotients, roots and maxima of non negative numbers keep it, and three thousand million of them are below a millionth. Differences that cancel have an absolute error instead, which the least penalty of 1e-6 absorbs. `C158_weights`: the weights. `C158_place`: the place. `C158_same`: the same place if one triangle is heaviest. `C158_estimator`: the estimator built from the data of a building. `C158_clear`: when the condition on the sums of shares holds. `C158_example`: a case.",
 "C159": "`Fp/TimeModel.lean` repeats the model of C43 with a rounding after every operation. `C159_kept`: the state is the exact one. `C159_answer`: the differences of the times are integers and exact; the mean is a case of the weighted mean of C158 (`mean_round`) with weights that are integers. `C159_off`: the witness, with rounding to nearest computed step by step.",
 "C160": "`Fp/FuseModel.lean` repeats the model of C36 with a rounding after every operation. `C160_stored`: by induction over the history; one update halves the error it is given and adds a few u S, so 20 u S is kept. `C160_answer`: the ages are quotients of exact integers and the test against the limit is monotone; the distance is within 21 u M (`dist_near`, with a relative error under the root); the margins decide the other tests; the mean is a case of the weighted mean of C158 and the weights move it by at most their error over their sum times the distance.",
 "C161": "`Fp/BaroModel.lean` repeats the model of C25 and C26 with a rounding after every operation; the logarithm is a parameter (`GoodLog`, met by the correctly rounded one: `rounded_log_good`). The constant of the code is within 1e-11 (`pascal_near`), a mean of at most 101 readings within 114000 u (`mean_near`, by induction over the readings), the height within 9e-9 m (`height_near`). `C161_state`, `C161_answer`: by induction over the calls with C25's description of the windows.",
 "C162": "`Fp/FloorModel.lean` repeats the model of C27 with a rounding after every operation. The rounded sum is near the exact one by induction over the measurements (`total_near`), the mean within 10004000 u (`average_near`), the weight within 2 u (`weight_near`), the score within 3e-9 (`cost_near`). The loop is the first maximum of the rounded scores (`detectF_first`); `C162_near` and `C162_same` compare the scores.",
 "C163": "`Fp/PrintFloorModel.lean` repeats the model of C28 (mode `useBestRefPointLevel` off) with a rounding after every operation. All terms are positive, so relative errors are counted (`Within`): three roundings for a term (`closeTerm_within`), one for each addition (`sum_within`), and by induction over the measurements at most 2000005 for a score (`steps_within`, `weight_within`, `grow_million`). The loop is the first maximum of the rounded scores (`printF_first`); `C163_near` and `C163_same` compare the scores. The mode with the best reference point is C164.",
 "C164": "`Fp/BestFloorModel.lean` repeats the model of C28 (mode `useBestRefPointLevel` on) with the rounded weights of C158. The loop over the weights is their maximum (`loop_max`), and the maxima of two maps with the same keys and near values are near (`best_within`, from `weights_within` of C158). The loop over the floors is the first maximum (`bestF_first`); `C164_near` and `C164_same` compare the scores. `C164_example` meets the hypotheses with two floors."
}