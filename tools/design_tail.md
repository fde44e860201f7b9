## Findings: where the code does not do what a user expects

Each is a theorem (named) unless marked "by construction", which means it is visible in the model
definition and its comment.

* Longitudes more than 1.5 turns away stay out of range (`C03_single_step_fails`).
* Axis-parallel crossings are never reported by `CheckIntersection` (`C07_complete_fails`).
* Duplicate level ids make the two-step transmitter lookup throw (`C13_duplicate_ids_throw`).
* The k-nearest mode always answers the origin, because `reserve` does not change the size of the
  destination of `partial_sort_copy` (`C31_always_origin`).
* In triangle mode an OK answer can be the origin, far outside the level (`C75_origin_witness`).
* Reference points in a nearly straight corridor give no triangle: the circumcircle reaches the corners of the starting
  triangle, which is only ten metres away (`C95_corridor`).
* Four reference points in the corners of a square level give no triangle, and then every later level loses
  triangle mode as well, because the loop over the levels returns (`C75_square`).
* Without the sigma filter the setting for the maximal deviation of a fix has no effect (`C35_max_deviation_unused`).
* The sigma filter counts one fix again at each further message of another source: a single fix, followed by as many NMEA
  messages as the filter's window, is accepted (`C120_repeated`).
* A client keeps ever more when its sensors fall silent after an accelerometer sample: the pedometer takes the last sample again at
  each message of any kind, and drops nothing because the sample's time does not move on (`C121_silent_sensors`).
* With the detection of stops, a client keeps all signals admitted while the user stands still, so its memory (and the time of each
  averaging) grows with the length of the stop (`C121_standing`, `C121_stroll`).
* A sigma filter with window 0 pops from an empty deque (`C34_zero_window`).
* The linear solver fails on some regular 3×3 matrices: the rotation norm vanishes (`C44_rotation_witness`).
* A negative averaging time empties the fit window: undefined behaviour (`C47_negative_interval`).
* The time smoother extrapolates backwards for out-of-order positions (`C43_out_of_order_witness`).
* The least squares smoother diverges for a stopped target, because repeated values are not stored
  (`C76_diverges_witness`).
* Rounding after clamping leaves the level box by less than 1 cm (`C38_outside_witness`).
* A held position creeps with the graph projection (`C39_creep_witness`); the first call during a stop
  returns the empty position (`C37_first_stop_witness`).
* The altitude formula has a misplaced parenthesis, and the weighted sum is not divided by the weights (`C51_answer`,
  `C51_altitude_wrong`).
* The alpha-beta smoother of the post-processor returns the first two positions unsmoothed (`C96_warmup`); its reset keeps the
  flag of the first call (`C41_reset_prediction`); the reported deviation is that of the last indoor position, also
  for a satellite position (`C96_chain`).
* Roll and yaw are reported as 0 when the first axis of the device is vertical (`C97_vertical`).
* Unordered accelerometer samples let the pedometer buffer grow without bound (`C53_unordered_grows`); a
  sample with time stamp 0 is dropped, the average adds the filtered value once more, and the computed
  time between steps has no effect (by construction).
* The complementary filter reads uninitialised time stamps; no result depends on them (`C78_uninitialised`).
* A filter that holds the device exactly upside down is never corrected by the accelerometer (`C91_stuck`); the
  magnetometer correction changes the height of the field too, so it disturbs the tilt (`C92_step`).
* A calculated azimuth is declared valid before any magnetometer sample (`C57_calculated`).
* The navigation client: error outputs leave radius, orientation and provider uninitialised (`C63`); the
  lost level is never reported after the first OK (`C64_never_lost`); GNSS fixes never expire while other
  messages arrive (`C66_no_expiry`); the heading correction is dead code (`C67_dead`); the no-action
  threshold has no effect (`C81_no_action`); uninitialised messages can decide outputs (`C82`); unordered
  input is dropped only within a batch (`C62_unordered`).
* Likelihood: the sampling centre is stale across levels and time (`C83_centre`); weights are not
  normalised when all particles are absurdly far away (`C60_far`).
* Standalone trilateration accumulates over calls (`C68_history`, `C68_again`) and is sort dependent for
  duplicates with different distances (`C68_duplicates`).
* Standalone preprocessor: late measurements within the averaging time are dropped (`C70_late`).
* Map loader: every line with unmerged ends creates two vertices at one place (`C71_duplicates`;
  connectivity survives, `C71_connected`); repeated rssi values count once, the variance is always 0
  (`C86_statistics`); features of unknown levels are dropped silently, the altitude of transmitters is
  always 100 (by construction).
* Measurement logs: Eddystone lines become Wi-Fi measurements, lines of unknown type become a Wi-Fi
  measurement of the empty id, short vectors become zero (`C87_eddystone`, `C87_unknown_type`,
  `C87_short_vector`).
* Settings files: one mistyped value silently drops every setting whose key sorts after it
  (`C88_default`); three documented names are ignored (`C88_names_ignored`).
* Triangulation: of two coincident points only one keeps its edges; reference points named `super1` to
  `super3` vanish (by construction).
* The equality test of vectors is not transitive (`C98_not_transitive`).
* Every message, also a radio message, makes the client process the last sensor message again: the low-pass
  filters and the corrections of the orientation run once more (`C99_again`).
* Pedometer: two calls of `update` followed by one request for the steps lose the steps of the first call
  (`C102_missed`); a step with the third sample is reported only if a fourth one comes in the same group (`C102_start`).
* The integral error of the complementary filter has no limit and is never taken back (`C104_windup`); with the gains of the
  library (integral gain 0) it is not in use (`C104_off`).
* The replay program: its dead-reckoning track moves at most once, in the direction of an uninitialised member
  (`C107_track`); it puts wrong times on the lines after a message that comes late in its batch (`C105_late`); a log that
  starts at time 0 restarts the clock (`C105_restart`); batch size 0 never ends (`C105_endless`).
* The stand-alone positioning program gives a packet the time of its weakest entry, so a packet with a stale weak entry repeats
  the line before and a stronger, nearer transmitter is ignored (`C108_stale`).
* The test program of the pedometer divides by the number of steps, also if it is zero (`C109_mean`).
* The reported altitude falls back to 0 at every message that closes no radio window (`C101_other`); with exact ranging
  to four beacons a client at altitude 0 reports 5.2 m with status OK (`C101_altitude_wrong`).
* The alpha-beta smoother can diverge on a device at rest that is measured exactly: with the default smoothing and intervals of
  1, 1, 1, 10 and 10 seconds in turn the error grows by at least a tenth with every round (`C122_diverges`); with the default
  settings it goes from 10 m to over 22 m in twenty measurements (`C122_figures`). It is stable when no interval is more than
  4/3 of the previous one (`C122_near`, `C122_converges`).
* With weighting by the accuracy it can diverge at equal intervals as well: with stated accuracies of 1, 10, 100 and 1000 m in turn
  any first error of a device at rest grows to over a metre (`C157_unsettled`, `C157_start`).
* The alpha-beta smoother converges to a target moving at constant speed only with constant gains (`C42`).
* Arithmetic: the first measurement can overflow a `long long`, because the time of the last signal is uninitialised
  (`C115_uninitialised`); the fusion of positions divides by zero after a clock is set back (`C115_clock_set_back`).
* The first GNSS fix of a session passes the sigma filter only if its time stamp is 0, the initial value (`C116_start`).
* With fingerprints on several floors the client can report a place on the floor it has left while the floor in use is another
  one, with status OK; the bounding box that is checked is the one of the floor in use (`C119_place`, `C119_example`).
* The ENU conversion of the azimuth is skipped without a level (`C80`).
* With satellites and zones, the old zone is preferred to a fresh fix of lower accuracy and found too old afterwards: with the
  default times the client answers NO_SOLUTION for eight seconds, and then shows the fix with the radius of the zone
  (`C133_example`).
* With the barometer switched on, a client that counts 201 pressures before its first radio window closes has no floor until
  the pressure shows a climb of two metres, and answers NO_LEVEL until then (`C127_stuck`, `C127_never_found`). The last sensor
  message is read again at every later measurement, so one pressure counts once per measurement (`counted` in Pressure/Spec.lean).
* Fingerprints in difference mode do not notice a receiver that reads all signals too weak, but the default choice of the floor
  does, by fingerprints as well as by transmitters (`C129_floor_by_fingerprints`, `C129_floor_by_transmitters`).
* Eighteen settings are never read, among them the number of neighbours, all those of the particle filters and `hasAccelerometer`,
  `hasGyroscope` (`C130_never_read`); the five algorithms are two, since all but `KNN` give the same answers (`C130_algorithms`);
  a fix by satellites outdoors is reported whatever `useGps` is (`Agree` in Same/Spec.lean).
* The distances measured by Wi-Fi ranging influence nothing but the altitude, also with a measurement type of distances
  (`C131_ranging`).
* The test program of the standalone trilateration passes for all coordinates, if there is no error (`C126_any_input`);
  the coordinates it expects are not those it computes (`C126_scenario`).
* Floors added to the shared map after the client was made: a client that uses fingerprints throws at every later
  measurement (`C125_fingerprints_throw`); a zone client gives places on the new floors a radius computed with a
  division by zero, because the path loss parameters are read only by the constructor (`C125_rebuilt`).
* A user who comes to stand still before any place was shown gets none, however well the client knows where they are, unless
  the estimate is near the local origin of the floor (`C135_nothing`, `C135_silent_witness`).  Steps made while no floor is in use
  are not counted by the post-processor, though the radio buffer counts them; during a stop the windows of signals grow without
  bound and the zone follows the mean over the whole stop (C136).
* `std::floor(x * 100) / 100` is not idempotent on `double`s: during a stop the held place is clamped and rounded again at every
  message and creeps down by up to one centimetre per message (`C137_creep_witness`: 1.16 m → 1.12 m in four messages with the
  default settings). It never goes below the last whole quarter of a metre and rests after at most 24 messages (`C137_creep`,
  `C137_rest`). The theorems about held places in real arithmetic (C39, C135, C136) hold up to this creep.
* The strongest transmitter is found from rounded means. With whole strengths this changes nothing (`C138_zone`), but the input
  allows fractions: of two beacons heard at -60.3, one once and one three times, the means are equal and the smaller id should
  win; in `double` arithmetic the three additions and the division give a greater mean and the other zone
  (`C138_fraction_witness`).
* A time in the settings can lose a millisecond: seconds are multiplied by 1000 and cut off, and a `double` may lie just below the
  decimal fraction. A dead reckoning time of 2.01 s acts as 2009 ms (`C139_witness`); never more than one millisecond is lost
  (`C139_milliseconds`).
* C143 (`C143_step`): the loader takes the bounding box of a floor from the smallest and greatest coordinates of its outline. For a
  building across the antimeridian this is right only if all points of the outline lie on two meridians; otherwise part of the
  building lies outside the box, and satellite fixes there are answered with no place.
* One gyroscope or accelerometer reading that is not a number makes the orientation not a number for the rest of
  the session; nothing short of a new filter repairs it (`C144_lost`).
* With `useGpsOutsideMap` the NaN test of the outdoor estimator is bypassed (line 118-119: `(… && …) || mUseGpsOutsideMap`):
  a fix that is not a number is told as a place (`C145_taken`), or blinds the three-sigma filter for a window (`C145_filter`).
* One pressure that is not a number hides a change of floor for good (`C146_stuck`, `C146_lift`).
* One accelerometer sample that is not a number hides every step of the next 2.5 seconds (`C147_blind`, `C147_missed`), and the length of the
  first step after that can be no number (`C147_length`).
* One place that is not a number (satellite fixes outside the map can be, `C145_taken`) switches the alpha-beta smoothing off until places
  stop for ten seconds or the floor changes: the stored speed stays NaN (`C148_off`, `C148_example`).
* With the detection of stops a told place that is not a number is held until the next step, whatever places come meanwhile: its distance
  to every place is NaN and never below the threshold (`C149_stuck`, `C149_example`).
* A strength that is not a number is refused only where strengths are used. Where distances are used (Wi-Fi RTT) neither the distance nor
  the strength is looked at (`C150_taken`): one bad distance spoils the mean of its transmitter as long as it is kept (`C150_poison`), and
  a bad strength or distance among others makes the sorts for the closest transmitters and for the trilateration undefined (`C150_sort`).
* Two places of one time right after the start or after a change of the floor switch the least squares smoothing off: the fit divides by
  zero, and each later prediction is built on the last one, which is NaN (`C151_start`, `C151_floor`, `C151_example`).
* By construction: a KNN client throws for a level without fingerprints if the level is asked for directly
  (`C60_throws`); a gyroscope message with time −1 counts as none; a standalone estimator whose first
  position has time −1 or less answers the default; the standalone preprocessor drops its first
  measurement; a fit through no points answers −1 (`C46_empty`); barrier lines with fewer than two points
  are undefined behaviour; empty settings arrays are undefined behaviour in the tools.

## Wrong programs

`seeded/LOG.jsonl` lists edits of the model in a scratch copy, the claim each edit breaks, the theorems that
then failed to prove, and what was tightened when none did.
