{"id": "C01", "title": "Geo to local to geo round trip", "statement": "Converting a geographic point to local metres around a binding point and back returns the same latitude and longitude.", "quantifier": "all points and binding points with longitudes in (-180,180] and a binding latitude with non-zero cosine", "why_tests_cant": "The claim is an identity/inequality over a continuum of inputs; a test only samples finitely many points.", "anchors": ["src/point.cpp: gpsToLocal, localToGps, normalizeLongitude"]}
{"id": "C02", "title": "Local to geo to local round trip", "statement": "Converting local metres to a geographic point and back returns the same local point as long as the point is within half a parallel of the binding point.", "quantifier": "all local points with |x| below half of the parallel's circumference and all binding points off the poles", "why_tests_cant": "The claim is an identity/inequality over a continuum of inputs; a test only samples finitely many points.", "anchors": ["src/point.cpp: localToGps, gpsToLocal"]}
{"id": "C03", "title": "Longitude normalisation", "statement": "normalizeLongitude changes the longitude only by a whole number of turns, and lands in (-180,180] exactly for inputs in (-540,540]; it is one correction only, so the documented range is not reached for larger inputs.", "quantifier": "all real longitudes in (-540,540]; a witness outside", "why_tests_cant": "The claim is an identity/inequality over a continuum of inputs; a test only samples finitely many points.", "anchors": ["src/point.cpp: normalizeLongitude"]}
{"id": "C04", "title": "Segment distance is the true minimum", "statement": "SegmentPointDist is the minimum of the distances from the point to all points of the segment (attained on the segment); for segments shorter than the degenerate threshold it is at most that length off.", "quantifier": "all points and all segments", "why_tests_cant": "The claim is an identity/inequality over a continuum of inputs; a test only samples finitely many points.", "anchors": ["src/geometry.cpp: SegmentPointDist, GetDist"]}
{"id": "C05", "title": "Projection is the foot of the perpendicular", "statement": "GetProjection returns the point of the line closest to the query, the connecting vector is orthogonal to the line, and the returned parameter locates it.", "quantifier": "all points and all segments longer than the degenerate threshold; degenerate segments return the first end", "why_tests_cant": "The claim is an identity/inequality over a continuum of inputs; a test only samples finitely many points.", "anchors": ["src/geometry.cpp: GetProjection"]}
{"id": "C06", "title": "Segment intersection point is sound and complete", "statement": "When GetIntersection answers, the returned point lies on both segments at the returned parameter; when it answers NaN for non-parallel segments, the segments have no common point.", "quantifier": "all pairs of segments", "why_tests_cant": "The claim is an identity/inequality over a continuum of inputs; a test only samples finitely many points.", "anchors": ["src/geometry.cpp: GetIntersection, Determinant"]}
{"id": "C07", "title": "Boolean crossing test", "statement": "CheckIntersection answers true exactly for segments that cross properly (in a single inner point of both) when neither is axis-parallel; a crossing with an axis-parallel segment is never reported. GetArea answers exactly for three points of one level, with half the cross product of the sides, whose sign tells the side of the line on which the third point lies.", "quantifier": "all pairs of segments; witness for the incompleteness", "why_tests_cant": "The claim is an identity/inequality over a continuum of inputs; a test only samples finitely many points.", "anchors": ["src/geometry.cpp: CheckIntersection, GetArea"]}
{"id": "C08", "title": "Graph projection returns a nearest graph point", "statement": "Projecting a position on the navigation graph returns a point of the graph (on some edge) and no point of any edge is closer, up to 0.1 mm if the graph has edges shorter than 0.1 mm; with no edges the position is returned unchanged.", "quantifier": "all graphs, all positions", "why_tests_cant": "The claim is about every history of calls; the number of histories is unbounded and tests only replay a few.", "anchors": ["src/position_postprocessor/position_postprocessor.cpp: getProjection", "src/geometry.cpp: GetProjection"]}
{"id": "C09", "title": "Point-on-segment and ray tests", "statement": "PointOnLine accepts every point of the segment and accepts only points within a stated tolerance of it; XRayIntersectsLine answers whether the horizontal ray to the right meets the segment, away from the tolerance band.", "quantifier": "all points and segments", "why_tests_cant": "The claim is an identity/inequality over a continuum of inputs; a test only samples finitely many points.", "anchors": ["src/geometry.cpp: PointOnLine, XRayIntersectsLine"]}
{"id": "C10", "title": "Graph integrity", "statement": "After any sequence of addVertex/addEdge calls vertex ids are exactly 0..n-1 in insertion order, looking up an id returns that vertex, every stored edge joins existing vertices and is stored once; addEdge throws exactly when an end is missing and then changes nothing.", "quantifier": "all sequences of graph operations", "why_tests_cant": "The claim is about every history of calls; the number of histories is unbounded and tests only replay a few.", "anchors": ["include/navigine/navigation-core/graph.h: Graph"]}
{"id": "C11", "title": "Graph conversion is an isomorphism", "statement": "Converting a geo graph to local coordinates keeps ids and edges and moves each vertex by gpsToLocal; it never throws on a graph built through the API.", "quantifier": "all graphs reachable through the API, all binding points", "why_tests_cant": "The claim is about every history of calls; the number of histories is unbounded and tests only replay a few.", "anchors": ["src/level_collector.cpp: getGraphInLocalCoordinates"]}
{"id": "C12", "title": "Level lookup", "statement": "After any sequence of addGeoLevel calls hasLevel(id) holds iff a level with that id was added; level(id) then returns the first one added with that id and does not throw; levels() lists all of them in insertion order.", "quantifier": "all sequences of addGeoLevel", "why_tests_cant": "The claim is about every history of calls; the number of histories is unbounded and tests only replay a few.", "anchors": ["src/level_collector.cpp: addGeoLevel, hasLevel, level, levels"]}
{"id": "C13", "title": "Transmitter lookup", "statement": "findLevelByTransmitterId returns the id of the first added level containing the transmitter and none iff no level contains it; when level ids are unique, level(id).transmitter(tx) does not throw; with duplicated level ids it can.", "quantifier": "all collections of levels and transmitter ids", "why_tests_cant": "The claim is about every history of calls; the number of histories is unbounded and tests only replay a few.", "anchors": ["src/level_collector.cpp: findLevelByTransmitterId", "src/level.cpp: transmitter, containsTransmitter, addTransmitters"]}
{"id": "C14", "title": "Transmitters of a level and level measurement filter", "statement": "The first transmitter registered under an id wins; getLevelRadioMeasurements keeps exactly the measurements of the level's transmitters, in order.", "quantifier": "all transmitter lists and measurement lists", "why_tests_cant": "The claim is about every history of calls; the number of histories is unbounded and tests only replay a few.", "anchors": ["src/level.cpp: addTransmitters, getLevelRadioMeasurements"]}
{"id": "C15", "title": "Radiomap index", "statement": "hasReferencePoint(id) holds iff a reference point with that id is in the list; getReferencePoint then returns the first such point and throws otherwise.", "quantifier": "all reference point lists", "why_tests_cant": "The claim is about every history of calls; the number of histories is unbounded and tests only replay a few.", "anchors": ["src/radiomap.cpp: Radiomap, hasReferencePoint, getReferencePoint"]}
{"id": "C16", "title": "Signal admission", "statement": "A radio measurement enters the buffer iff its type is enabled, in RSSI mode its rssi is strictly between the cutoff and 0, in distance mode it is WIFI_RTT, and it is either from a known transmitter of the right role (LOCATOR iff tracking) or unknown transmitters are enabled.", "quantifier": "all settings, maps and measurements", "why_tests_cant": "Cross product of settings, maps and measurements is unbounded.", "anchors": ["src/measurements/measurement_preprocessor.cpp: getValidSignalEntry, isSignalTypeSupported, isRssiValid, isTransmitterSupported, checkUseWifi, checkUseBle"]}
{"id": "C17", "title": "Averaging window contents", "statement": "Each non-empty extraction returns exactly one entry per transmitter id present in the window, sorted by id, whose rssi and distance are the arithmetic means over the window and whose other fields come from one of its measurements.", "quantifier": "all buffer states, all sort implementations", "why_tests_cant": "The claim is about every history of calls; the number of histories is unbounded and tests only replay a few.", "anchors": ["src/measurements/measurement_preprocessor.cpp: RadioMeasurementBuffer::extractMeasurements"]}
{"id": "C18", "title": "Averaging window gate", "statement": "An extraction yields data only if at least the window shift has elapsed since the previous extraction (or the first measurement); consecutive data-bearing extractions are separated by at least the shift.", "quantifier": "all sequences of addMeasurement/extractMeasurements", "why_tests_cant": "The claim is about every history of calls; the number of histories is unbounded and tests only replay a few.", "anchors": ["src/measurements/measurement_preprocessor.cpp: RadioMeasurementBuffer"]}
{"id": "C19", "title": "Window retention", "statement": "After an extraction outside a stop exactly the measurements not older than the keep period survive (none if the period is zero); during a detected stop nothing is erased; nothing is ever invented.", "quantifier": "all sequences of buffer calls", "why_tests_cant": "The claim is about every history of calls; the number of histories is unbounded and tests only replay a few.", "anchors": ["src/measurements/measurement_preprocessor.cpp: RadioMeasurementBuffer::extractMeasurements"]}
{"id": "C20", "title": "Averaged signals stay in the admitted range", "statement": "Every rssi leaving the preprocessor lies strictly between the cutoff and zero and within the minimum and maximum of the window for that transmitter.", "quantifier": "all histories in RSSI mode", "why_tests_cant": "The claim is about every history of calls; the number of histories is unbounded and tests only replay a few.", "anchors": ["src/measurements/measurement_preprocessor.cpp"]}
{"id": "C21", "title": "Closest access points", "statement": "With the closest-APs option at most N entries are returned, in non-increasing rssi order, all from the window, and no dropped entry is stronger than a kept one.", "quantifier": "all windows, all N, all sort implementations", "why_tests_cant": "The claim is about every history of calls; the number of histories is unbounded and tests only replay a few.", "anchors": ["src/measurements/measurement_preprocessor.cpp: extractRadioMeasurements"]}
{"id": "C22", "title": "Distance from rssi", "statement": "For known transmitters the reported distance is the exact inverse of the path-loss model (for distances above the model floor), strictly positive, and strictly decreasing in rssi for B>0; RTT distances are shifted by the offset only.", "quantifier": "all measurements and path-loss parameters", "why_tests_cant": "The claim is an identity/inequality over a continuum of inputs; a test only samples finitely many points.", "anchors": ["src/measurements/measurement_preprocessor.cpp: extractRadioMeasurements", "include/navigine/navigation-core/transmitter.h: PathlossModel"]}
{"id": "C23", "title": "Window configuration", "statement": "The configured window is well formed: the shift equals the averaging time when it was zero or larger, and keep period plus shift equals the averaging time; keep period is non-negative for non-negative settings.", "quantifier": "all settings", "why_tests_cant": "The claim is an identity/inequality over a continuum of inputs; a test only samples finitely many points.", "anchors": ["src/measurements/measurement_preprocessor.cpp: createRadioMeasurementBuffer"]}
{"id": "C24", "title": "Level history hysteresis", "statement": "The reported level is always a detected level (or empty before any detection); it changes only when the new level is detected for the fifth time since the window began while the old one was detected fewer than five times in it; once confirmed, a single detection of the current level restarts every other count; five consecutive detections always switch.", "quantifier": "all detection sequences", "why_tests_cant": "The claim is about every history of calls; the number of histories is unbounded and tests only replay a few.", "anchors": ["src/level_estimator/level_history.cpp: detectLevelUsingHistory"]}
{"id": "C25", "title": "Barometer buffers", "statement": "The two pressure buffers always hold the last 101 pressures and the up to 101 preceding ones; their sizes never exceed 101.", "quantifier": "all sensor sequences", "why_tests_cant": "The claim is about every history of calls; the number of histories is unbounded and tests only replay a few.", "anchors": ["src/level_estimator/barometer.cpp: updateBuffers"]}
{"id": "C26", "title": "Barometer level hold", "statement": "Once both buffers are full, the reported level changes only if the pressure ratio corresponds to more than two metres of height; the reported level is always the previous one or the current input.", "quantifier": "all sensor and level sequences", "why_tests_cant": "The claim is about every history of calls; the number of histories is unbounded and tests only replay a few.", "anchors": ["src/level_estimator/barometer.cpp: updateLevel, checkLevelChange"]}
{"id": "C27", "title": "Level by transmitters", "statement": "detectCurrentLevel returns the first level maximising the weighted average rssi among levels having a measurement, or the empty id iff no level has one above the floor cost.", "quantifier": "all level lists and measurements", "why_tests_cant": "Argmax claim over unbounded lists.", "anchors": ["src/level_estimator/level_estimator_transmitters.cpp: detectCurrentLevel, getAverageRssi, getAverageA"]}
{"id": "C28", "title": "Level by radiomap", "statement": "The radiomap level estimator returns the first level with maximal positive score and never throws for the levels it was built from; by default the empty id is returned iff no measured transmitter appears in any fingerprint, in best-reference-point mode iff no reference point has three matches.", "quantifier": "all radiomaps and measurements", "why_tests_cant": "Argmax claim over unbounded lists.", "anchors": ["src/level_estimator/level_estimator_radiomap.cpp: detectCurrentLevel, calcWeight, calcWeightBestRp"]}
{"id": "C29", "title": "KNN weights are positive", "statement": "Every reference point weight produced by calcRpWeightsKnn is strictly positive, and exactly the reference points with at least three visible transmitters get one.", "quantifier": "all radiomaps and measurements", "why_tests_cant": "The claim is an identity/inequality over a continuum of inputs; a test only samples finitely many points.", "anchors": ["src/knn/knn_utils.cpp: calcRpWeightsKnn, calcTransmittersWeights"]}
{"id": "C30", "title": "Triangle position is a convex combination", "statement": "calcPositionInTriangle returns a point inside the triangle of maximal total weight (a convex combination of its corners) or the origin when the weights vanish or a corner is unknown.", "quantifier": "all triangle lists, radiomaps and non-negative weights", "why_tests_cant": "The claim is an identity/inequality over a continuum of inputs; a test only samples finitely many points.", "anchors": ["src/knn/knn_utils.cpp: calcPositionInTriangle, getTriangleWeight"]}
{"id": "C31", "title": "K heaviest reference points", "statement": "calcKHeaviestRefPointsAverage should return the weighted mean of the k heaviest points; the code returns the origin for every input because the destination is reserved, not resized.", "quantifier": "all radiomaps, weights and k; witness against the intended claim", "why_tests_cant": "The claim is an identity/inequality over a continuum of inputs; a test only samples finitely many points.", "anchors": ["src/knn/knn_utils.cpp: calcKHeaviestRefPointsAverage"]}
{"id": "C32", "title": "KNN estimator status discipline", "statement": "With OK status a fresh non-empty indoor position for the asked level and time is returned; any other status leaves the previous position; a level without fingerprints makes it throw.", "quantifier": "all call sequences", "why_tests_cant": "The claim is about every history of calls; the number of histories is unbounded and tests only replay a few.", "anchors": ["src/position_estimator/position_estimator_knn.cpp: calculatePosition"]}
{"id": "C33", "title": "Zone estimator picks the strongest transmitter", "statement": "With OK status the position is the location of a transmitter of the level with maximal rssi (first among equals), and, if the slope setting of the level is not zero, the precision is one metre plus the exponential of (A - rssi) / 2B; otherwise the position is empty and the status is NO_SOLUTION.", "quantifier": "all levels and measurements", "why_tests_cant": "The claim is about every history of calls; the number of histories is unbounded and tests only replay a few.", "anchors": ["src/position_estimator/position_estimator_zone.cpp: calculatePosition"]}
{"id": "C34", "title": "Sigma filter", "statement": "The GNSS buffer never exceeds the window; the first window-size fixes after a clear are rejected; afterwards a fix is accepted iff within three standard deviations plus delta of the mean of the last window fixes on both axes; a zero window is undefined behaviour.", "quantifier": "all fix sequences, all window sizes", "why_tests_cant": "The claim is about every history of calls; the number of histories is unbounded and tests only replay a few.", "anchors": ["src/position_estimator/position_estimator_outdoor.cpp: SigmaFilter"]}
{"id": "C35", "title": "Outdoor estimator output", "statement": "A returned non-empty outdoor position is a GNSS position on the first added level covering the fix (or the first level if outside positions are allowed), its deviation is at least the configured minimum; without a new fix only a last position within the validity window is repeated. With the sigma filter on, a fix with enough satellites on a covered level is reported exactly when it passes the three-sigma test against the fixes since the filter was last emptied, and otherwise nothing is reported; an indoor position or a fix coarser than the configured maximum empties the filter, so that such a fix is itself never reported. Without the filter the maximum has no effect and the fix is reported as it is.", "quantifier": "all histories of sensor messages", "why_tests_cant": "The claim is about every history of calls; the number of histories is unbounded and tests only replay a few.", "anchors": ["src/position_estimator/position_estimator_outdoor.cpp: calculatePosition, extractGpsPosition, extractNumberOfSatellites"]}
{"id": "C36", "title": "Fusion of indoor and outdoor positions", "statement": "After any history of calls, fusePositions returns the last indoor position given, or the last outdoor one, or a fused position on the segment between them at the fraction of their tracked deviations, with the smaller of the two deviations, the newer time and provider FUSED. The result is empty iff no indoor position was ever given and no usable outdoor one. The options (instant GPS, prefer indoor, no GPS, too old) select as documented.", "quantifier": "all sequences of calls, with non-negative deviations and times that do not go back within a stream", "why_tests_cant": "The claim is about every history of calls; the number of histories is unbounded and tests only replay a few.", "anchors": ["src/position_postprocessor/position_postprocessor.cpp: fusePositions, fillIndoorOutdoorPositionStates"]}
{"id": "C37", "title": "Freshness and map bounds of processed positions", "statement": "getProcessedPosition returns an empty position when the fused one is empty, outside the map box (unless allowed) or at least the dead-reckoning time old, and then keeps its state; otherwise the result carries the current time stamp and is non-empty, except when a stop is detected before any position was shown (witness).", "quantifier": "all inputs and histories", "why_tests_cant": "The claim is about every history of calls; the number of histories is unbounded and tests only replay a few.", "anchors": ["src/position_postprocessor/position_postprocessor.cpp: getProcessedPosition, isInsideMap"]}
{"id": "C38", "title": "Processed positions stay in the level box", "statement": "Every non-empty processed position should lie in the level's bounding box; rounding down after clamping breaks this by up to one centimetre; it is always within one centimetre below the box and on the centimetre grid.", "quantifier": "all inputs and states; witness for the violation", "why_tests_cant": "The claim is an identity/inequality over a continuum of inputs; a test only samples finitely many points.", "anchors": ["src/position_postprocessor/position_postprocessor.cpp: getProcessedPosition"]}
{"id": "C39", "title": "Stop hold", "statement": "While a stop is detected, without graph projection and on one level box, any two calls that change the reported coordinates are more than the stop update time apart, and each such change is smaller than the distance threshold (up to rounding to centimetres); a farther position leaves the reported one as it is. With graph projection this fails: the held position creeps (witness).", "quantifier": "all call sequences; witness for the failure", "why_tests_cant": "The claim is about every history of calls; the number of histories is unbounded and tests only replay a few.", "anchors": ["src/position_postprocessor/position_postprocessor.cpp: getProcessedPosition"]}
{"id": "C40", "title": "Graph snap", "statement": "With graph projection the reported position is either the nearest graph point (up to 0.1 mm for degenerate edges), when it is nearer than the configured distance, or unchanged, in which case no graph point is nearer than that; then it is fitted into the box.", "quantifier": "all graphs built through the API and all positions", "why_tests_cant": "The claim is about every history of calls; the number of histories is unbounded and tests only replay a few.", "anchors": ["src/position_postprocessor/position_postprocessor.cpp: getProcessedPosition, getProjection"]}
{"id": "C41", "title": "Alpha-beta smoother behaviour", "statement": "The filter gain lies in [0.1,0.9]; the smoothed point lies between prediction and measurement; measurements not newer than the state return the state; a gap over ten seconds, a too fast velocity or a barrier return the raw position with zero speed; after a reset to a position, smoothing that position returns it as it is; with the speed constraint the kept speed never exceeds 4 m/s. With accuracy smoothing the gain is smaller the less accurate the measurement is.", "quantifier": "all sequences of smoothPosition/reset calls", "why_tests_cant": "The claim is about every history of calls; the number of histories is unbounded and tests only replay a few.", "anchors": ["src/position_postprocessor/position_smoother_ab.cpp"]}
{"id": "C42", "title": "Alpha-beta smoother convergence", "statement": "With the constant gain (accuracy based smoothing off), for a stationary target measured with constant period the smoothed position converges to it geometrically from any state, whatever the speed constraint and the barriers do.", "quantifier": "all initial states, gains in [0.1,0.9] and periods", "why_tests_cant": "The claim is about every history of calls; the number of histories is unbounded and tests only replay a few.", "anchors": ["src/position_postprocessor/position_smoother_ab.cpp: smoothPosition"]}
{"id": "C43", "title": "Time smoother interpolates only", "statement": "When the known positions come in time order, the time smoothed position lies on the segment between the two last known positions of the same level (or is one of them or the input), never extrapolating; a level change is reported at once. A known position older than the kept pair can make it extrapolate (witness).", "quantifier": "all call sequences (time-ordered ones for the segment claim)", "why_tests_cant": "The claim is about every history of calls; the number of histories is unbounded and tests only replay a few.", "anchors": ["src/position_postprocessor/navigation_time_smoother.cpp: getTimeSmoothedPosition"]}
{"id": "C44", "title": "Linear solver", "statement": "A result of solveLinearSystem (no rotation norm and no pivot vanished) is the exact and only solution of A x = b; it exists whenever the leading square blocks are regular, in particular for positive definite A, and for n = 2 exactly when the determinant is not zero; a regular 3x3 matrix that defeats it exists.", "quantifier": "all dimensions n, all real matrices and right-hand sides", "why_tests_cant": "The claim is an identity/inequality over a continuum of inputs; a test only samples finitely many points.", "anchors": ["src/position_postprocessor/polynomial_fit.cpp: solveLinearSystem"]}
{"id": "C45", "title": "Least squares fit is optimal", "statement": "The coefficients computed by the fit minimise the sum of squared residuals over all polynomials of the configured power, and are the only ones that do, whenever there are more different sample times than that power (for power 1, over all lines, whenever two sample times differ).", "quantifier": "all sample windows", "why_tests_cant": "The claim is an identity/inequality over a continuum of inputs; a test only samples finitely many points.", "anchors": ["src/position_postprocessor/polynomial_fit.cpp: getLeastSquaresCoeff"]}
{"id": "C46", "title": "Lagrange prediction interpolates", "statement": "With distinct sample times the Lagrange prediction passes through every stored sample; with one sample it is constant.", "quantifier": "all windows with distinct times", "why_tests_cant": "The claim is an identity/inequality over a continuum of inputs; a test only samples finitely many points.", "anchors": ["src/position_postprocessor/polynomial_fit.cpp: getLagrangeSolution"]}
{"id": "C47", "title": "Fit window", "statement": "The fit keeps times and values paired, the newest accepted sample is always kept, samples leave only from the old end, for non-decreasing times the window is exactly the accepted samples within the interval of the newest, and the removal loop never empties the buffer for a non-negative interval (a negative one is undefined behaviour at the first sample).", "quantifier": "all sequences of addSequencePoint/clear", "why_tests_cant": "The claim is about every history of calls; the number of histories is unbounded and tests only replay a few.", "anchors": ["src/position_postprocessor/polynomial_fit.cpp: addSequencePoint, removeOldPoints, clear, predict"]}
{"id": "C48", "title": "Triangulation output uses only the given points", "statement": "Every triangle returned by TriangulateVertices has its three corners among the input vertices, with different ids and at different places, and no edge longer than the limit; fewer than three vertices give no triangle.", "quantifier": "all vertex lists, all sort implementations", "why_tests_cant": "The claim is about every history of calls; the number of histories is unbounded and tests only replay a few.", "anchors": ["src/triangulation.cpp: TriangulateVertices", "src/triangulation.h"]}
{"id": "C49", "title": "Circumcircle test", "statement": "circumcircle_contains holds iff the vertex differs from the corners and lies inside the circumcircle by the scaled tolerance, independently of the order of the corners.", "quantifier": "all triangles and points", "why_tests_cant": "The claim is an identity/inequality over a continuum of inputs; a test only samples finitely many points.", "anchors": ["src/triangulation.h: circumcircle_contains, Determinant"]}
{"id": "C50", "title": "Sphere intersection filter", "statement": "getIntersectedMeasurements keeps, in ascending order of distance, only measurements whose spheres pairwise meet; a measurement is dropped only because its transmitter misses another sphere and, for distinct transmitters and non-negative distances, every dropped one misses a kept sphere that is not larger.", "quantifier": "all measurement lists of a level, all sort implementations", "why_tests_cant": "The claim ranges over every measurement list and every admissible order of equal distances.", "anchors": ["src/trilateration.cpp: getIntersectedMeasurements"]}
{"id": "C51", "title": "Altitude needs four spheres", "statement": "calculateAltitude answers only with at least four mutually intersecting measurements; the linear system it builds is satisfied by the true position for exact distances, and any least squares solver returns exactly that position when the transmitters span space. The altitude answered is nevertheless not the true one (a misplaced parenthesis and a missing normalisation): witness.", "quantifier": "all levels, measurements and positions", "why_tests_cant": "The claim is an identity/inequality over a continuum of inputs; a test only samples finitely many points.", "anchors": ["src/trilateration.cpp: calculateAltitude"]}
{"id": "C52", "title": "Pedometer step spacing", "statement": "Any two reported steps are more than 300 ms apart and reported step times strictly increase, every step has the time of an accelerometer sample and a non-negative length; with one measurement per update, a request for the steps returns at most one; hence between two of them at most one step per started 301 ms is counted.", "quantifier": "all sequences of samples (in any order), batches and requests, for the library and the stand-alone pedometer", "why_tests_cant": "The claim is about every history of calls; the number of histories is unbounded and tests only replay a few.", "anchors": ["src/sensor_fusion/pedometer.cpp: update, calculateSteps, calculateStepLength"]}
{"id": "C53", "title": "Pedometer buffers and memory safety", "statement": "No sequence of calls runs a window scan past the end of a buffer or reads a missing element, and at most 50 step times are kept; for time ordered samples the sample window spans at most 5 s and the magnitude window at most 1.4 s (or three entries) after a request for the steps. Unordered samples can make the buffer grow without bound (witness).", "quantifier": "all call sequences; ordered ones for the spans", "why_tests_cant": "The claim is about every history of calls; the number of histories is unbounded and tests only replay a few.", "anchors": ["src/sensor_fusion/pedometer.cpp"]}
{"id": "C54", "title": "Angle normalisation", "statement": "to_minus_Pi_Pi terminates, lands in [-pi,pi) and differs from its argument by a whole number of turns.", "quantifier": "all real angles", "why_tests_cant": "The claim is an identity/inequality over a continuum of inputs; a test only samples finitely many points.", "anchors": ["src/sensor_fusion/complementary_filter.cpp: to_minus_Pi_Pi"]}
{"id": "C55", "title": "Orientation stays a unit quaternion", "statement": "After any sequence of sensor updates the orientation quaternion has unit norm; the fused azimuth lies in [-pi,pi] and the magnetic azimuth in [-pi,pi).", "quantifier": "all sensor sequences", "why_tests_cant": "The claim is about every history of calls; the number of histories is unbounded and tests only replay a few.", "anchors": ["src/sensor_fusion/complementary_filter.cpp: update, updateQuaternion", "src/sensor_fusion/quaternion.cpp"]}
{"id": "C56", "title": "Magnetometer only before the first gyroscope sample", "statement": "Once a gyroscope sample (with a valid time stamp) was processed, magnetometer samples never change the orientation.", "quantifier": "all sensor sequences", "why_tests_cant": "The claim is about every history of calls; the number of histories is unbounded and tests only replay a few.", "anchors": ["src/sensor_fusion/complementary_filter.cpp: update"]}
{"id": "C57", "title": "Device azimuth lifetime", "statement": "When the device azimuth is used, the result of any call claims a valid azimuth exactly if an orientation measurement was received and the last one is not older than the lifetime at the time of the current measurement; the azimuth is then that of the last orientation measurement, otherwise 0. When the calculated azimuth is used it is always claimed valid and lies in [-pi, pi), and is 0 before any magnetometer measurement.", "quantifier": "all sensor sequences", "why_tests_cant": "The claim is about every history of calls; the number of histories is unbounded and tests only replay a few.", "anchors": ["src/sensor_fusion/complementary_filter.cpp: isDeviceAzimuthOutdated, update", "src/sensor_fusion/sensor_fusion.cpp"]}
{"id": "C58", "title": "Step counter and displacement", "statement": "A step is announced exactly if the pedometer reports one for the call; the counter is then the number of all steps reported so far (so announced counters strictly increase), the displacement the sum of the lengths of the new steps times the multiplier (never negative for a non-negative multiplier), the motion time the time of the call and the turn the change of heading since the last announced step; without a step all of these are zero.", "quantifier": "all sensor sequences", "why_tests_cant": "The claim is about every history of calls; the number of histories is unbounded and tests only replay a few.", "anchors": ["src/sensor_fusion/sensor_fusion.cpp: calculateDisplacement"]}
{"id": "C59", "title": "Low pass filter", "statement": "The filter gain lies in (0,1) and the filtered vector lies between the previous and the current one on each axis.", "quantifier": "all measurement pairs", "why_tests_cant": "The claim is an identity/inequality over a continuum of inputs; a test only samples finitely many points.", "anchors": ["src/sensor_fusion/complementary_filter.cpp: lowPassFilter"]}
{"id": "C60", "title": "Likelihood weights", "statement": "Particle weights are non-negative, one per particle. With too few measurements they are uniform; without a triangulation all zero; otherwise proportional to 1/(0.1+distance to the KNN position), so nearer particles never weigh less, and they sum to one unless all particles are absurdly far away. The call throws exactly when the level has no fingerprint.", "quantifier": "all levels, measurements and particle lists", "why_tests_cant": "The claim is an identity/inequality over a continuum of inputs; a test only samples finitely many points.", "anchors": ["src/likelihood/likelihood_radiomap.cpp: calculateWeights, calcParticleWeight"]}
{"id": "C61", "title": "navigate output count and order", "statement": "navigate returns one output per input measurement that is not older than the previous accepted one, in order; out-of-order measurements are dropped without effect on the state.", "quantifier": "all batches and client states", "why_tests_cant": "The claim is about every history of calls; the number of histories is unbounded and tests only replay a few.", "anchors": ["src/navigation_client_impl.cpp: navigate"]}
{"id": "C62", "title": "Batching does not matter for ordered input", "statement": "For time ordered measurements, splitting the input into batches in any way gives the same outputs and final state as one batch; for unordered input it may not.", "quantifier": "all ordered inputs, all splits; witness for unordered", "why_tests_cant": "The claim is about every history of calls; the number of histories is unbounded and tests only replay a few.", "anchors": ["src/navigation_client_impl.cpp: navigate"]}
{"id": "C63", "title": "Status discipline of navigate", "statement": "Every output of navigate either has status OK, a location id and sublocation id from the map or a GNSS position, an orientation in [-pi,pi], coordinates and a provider, or one of the three error statuses with every position field left empty.", "quantifier": "all batches and client states", "why_tests_cant": "The claim is about every history of calls; the number of histories is unbounded and tests only replay a few.", "anchors": ["src/navigation_client_impl.cpp: navigate"]}
{"id": "C64", "title": "Lost level should be reported", "statement": "When no level can be determined and no outdoor position exists a user expects NO_LEVEL; the client never reports it again after the first OK: it keeps answering OK with the last position, however old.", "quantifier": "all histories; witness of unbounded staleness", "why_tests_cant": "The claim is about every history of calls; the number of histories is unbounded and tests only replay a few.", "anchors": ["src/navigation_client_impl.cpp: navigate"]}
{"id": "C65", "title": "No signal timeout", "statement": "When no radio signal was admitted for the no-signal threshold the indoor estimator and the position post-processor are left untouched and the answer is the GNSS position or the last reported place; while the last admitted signal is younger, a level of the map named by the level estimator is used. The indoor and outdoor positions shown by getStates change only in the second case, and only to a position just estimated.", "quantifier": "all histories of batches and a next measurement", "why_tests_cant": "The claim is about every history of calls; the number of histories is unbounded and tests only replay a few.", "anchors": ["src/navigation_client_impl.cpp: navigate"]}
{"id": "C66", "title": "GNSS fixes expire", "statement": "A GNSS fix older than the validity window should not be used; since the last sensor message is re-used with the current time, a fix never expires while only radio messages arrive.", "quantifier": "all message sequences; witness for the violation", "why_tests_cant": "The claim is about every history of calls; the number of histories is unbounded and tests only replay a few.", "anchors": ["src/navigation_client_impl.cpp: navigate", "src/measurements/measurement_preprocessor.cpp: getValidSensor", "src/position_estimator/position_estimator_outdoor.cpp: extractGpsPosition"]}
{"id": "C67", "title": "Heading state is never read uninitialised", "statement": "The stored fused heading is present whenever the stored gyro heading is, so navigate never dereferences an empty optional. When the heading of the fused position changes, the azimuth comes from the new heading; while it stays, a stored gyro heading turns the azimuth by the change of the gyro heading since. No position estimator sets a heading, so in fact this correction never takes place.", "quantifier": "all reachable states", "why_tests_cant": "The claim is about every history of calls; the number of histories is unbounded and tests only replay a few.", "anchors": ["src/navigation_client_impl.cpp: navigate"]}
{"id": "C68", "title": "Standalone trilateration", "statement": "A call of the standalone trilateration fails with ERROR_IN_TRILATER exactly when some distance is negative, and otherwise with ERROR_NO_SOLUTION_TRILATERATION exactly when fewer than three beacons were measured or none is on the map; a failing call leaves the coordinates alone. A successful call on a fresh object yields the mean of the places of the measured beacons of the map, each used once, weighted by the inverse distances, which lies in their convex hull. Calls on one object accumulate: the coordinates after a history are the sum of what fresh objects would report. If a beacon was measured twice with different distances the result depends on the order left by the unstable sort.", "quantifier": "all beacon maps, all measurement lists, all histories of calls, all lawful sorts; concrete witness for the dependence on the sort", "why_tests_cant": "The claim is about every history of calls; the number of histories is unbounded and tests only replay a few.", "anchors": ["standalone_algorithms/trilateteration/src/trilateration.cpp"]}
{"id": "C69", "title": "Standalone nearest transmitter estimator and smoother", "statement": "After any history the answer is empty exactly when no measurement is of a registered transmitter; otherwise the place of the registered transmitter (last registration of an id wins) with the strongest measurement, with a precision that decreases strictly with the RSSI, is given to the smoother. The smoother ignores positions that are not newer, returns the first one and one after a gap of more than 10 s unchanged, otherwise moves the part alpha in [0.1, 0.9] of the way from its prediction; times never decrease; it is the library's alpha-beta smoother without constraints; while the same transmitter stays nearest the answers converge to its place.", "quantifier": "all transmitter lists, all histories of calls, all measurement lists", "why_tests_cant": "The claim is about every history of calls; the number of histories is unbounded and tests only replay a few.", "anchors": ["standalone_algorithms/position_estimation/src/nearest_transmitter_estimator.cpp"]}
{"id": "C70", "title": "Standalone preprocessor", "statement": "After any history of updates and extractions the answer to an extraction is empty unless the newest counting measurement is at least the window shift younger than the newest one at the last report (or than the first one); otherwise it is the at most five strongest per-transmitter averages over the window, strongest first, distinct ids, RSSI strictly between -100 and 0. The window holds only counting measurements that arrived newer than that mark and are not older than the keep period at the last report; the very first measurement and late ones never contribute. The clock is the largest time stamp of all messages.", "quantifier": "all settings, all histories with non-negative time stamps, all lawful sorts", "why_tests_cant": "The claim is about every history of calls; the number of histories is unbounded and tests only replay a few.", "anchors": ["standalone_algorithms/position_estimation/src/measurement_preprocessor.cpp"]}
{"id": "C71", "title": "Map loading: graph vertex merging", "statement": "Every point of a parsed graph has a representative closer than 10 cm, no two representatives are that close, every input line becomes an edge between vertices at the representatives of its ends, every edge comes from a line, no more than two vertices share a point, and sharing does not split the graph: vertices are connected exactly when their points are.", "quantifier": "all line lists, all hash-map iteration orders", "why_tests_cant": "Depends on all point configurations.", "anchors": ["tools/verification/helpers.cpp: removeSame, getVertex, parseGraph"]}
{"id": "C72", "title": "Path barrier test", "statement": "isPathTouchesBarriers is false iff the path is covered by an outer ring and intersects no inner ring, given that the spatial index returns every barrier whose envelope meets the path. For a level given in geographic coordinates the rings are the local images of the given ones, vertex by vertex.", "quantifier": "all geometries and paths", "why_tests_cant": "The claim is about every history of calls; the number of histories is unbounded and tests only replay a few.", "anchors": ["src/level_geometry.cpp: isPathTouchesBarriers, LevelGeometry"]}
{"id": "C73", "title": "Local bounding box", "statement": "After adding a geographic level its local bounding box has its lower corner at the origin and contains the local image of every geographic point of the geographic box.", "quantifier": "all geographic boxes away from the poles and the antimeridian, all points in them", "why_tests_cant": "The box and the points range over a continuum; the conversion scales the axes by a latitude-dependent factor, so samples do not settle containment.", "anchors": ["src/level_collector.cpp: getBinding, getPolygonInLocalCoordinates, addGeoLevel", "src/point.cpp: gpsToLocal"]}
{"id": "C74", "title": "KNN difference mode cancels a device bias", "statement": "In difference mode the KNN weights do not change when every measured rssi is shifted by the same offset; in absolute mode they do.", "quantifier": "all radiomaps, measurements and offsets", "why_tests_cant": "Offsets and signal values range over a continuum and the radiomap is unbounded.", "anchors": ["src/knn/knn_utils.cpp: calcRpWeightsKnn, calcTransmittersWeights"]}
{"id": "C75", "title": "KNN answers lie among the reference points", "statement": "A position reported with OK by the KNN estimator in triangle mode lies in a triangle of reference points of the level if some triangle corner has three matching measurements (signal levels within 1000 dB); otherwise the code answers the origin with OK, wherever the level is. A level can be answered for in triangle mode only if it and every earlier level with more than three reference points has a triangle with sides no longer than the longer side of its bounding box.", "quantifier": "all levels, settings and measurements; witness against the unrestricted claim", "why_tests_cant": "The claim is about every radiomap and every measurement; the origin answer needs a particular sparse combination.", "anchors": ["src/position_estimator/position_estimator_knn.cpp: calculatePosition", "src/knn/knn_utils.cpp: calcPositionInTriangle, triangulate"]}
{"id": "C76", "title": "Least squares smoother", "statement": "With a non-negative averaging time the least squares smoother never runs into undefined behaviour, changes only the coordinates of the given position, returns the first position and the first one after a reset as they are, and with barriers in use never reports changed coordinates outside the allowed area. It does not follow a target that stops: repeated coordinates are dropped and the old line is prolonged beyond any bound (witness).", "quantifier": "all sequences of smoothPosition/reset calls, levels and settings", "why_tests_cant": "The claim is about every history of calls; the divergence is unbounded in the number of calls.", "anchors": ["src/position_postprocessor/position_smoother_lstsq.cpp", "src/position_postprocessor/polynomial_fit.cpp"]}
{"id": "C77", "title": "Step detection rule", "statement": "With samples in time order and the last three within 1.4 s, a step is reported with a sample exactly when the filtered acceleration rises through the threshold between the previous and this sample and the last step is more than 300 ms ago; its time is the sample's and its length is 0.52 times the fourth root of the amplitude of the filtered acceleration over the last 700 ms. Other sensors never produce a step.", "quantifier": "all sequences of sensor measurements with ordered accelerometer samples", "why_tests_cant": "The result depends on the whole history through sliding windows that are trimmed incrementally; a test only replays some recordings.", "anchors": ["src/sensor_fusion/pedometer.cpp: update, calculateFilteredAccMagnitudes, calculateSteps, calculateStepLength"]}
{"id": "C78", "title": "Uninitialised low-pass state is never observable", "statement": "The complementary filter starts with low-passed measurements whose time stamp and type are never initialised and reads these time stamps; no result of any sequence of calls depends on what they contain.", "quantifier": "all sensor sequences and all initial memory contents", "why_tests_cant": "A test runs with whatever the memory happens to contain; the claim compares all possible contents over all histories.", "anchors": ["src/sensor_fusion/complementary_filter.h: mAccelLowPassed, mMagnLowPassed", "src/sensor_fusion/complementary_filter.cpp: update, lowPassFilter"]}
{"id": "C79", "title": "navigate is total", "statement": "For every map loaded through the API, every good settings and every history of batches, navigate neither throws nor has undefined behaviour, and answers exactly one output per accepted measurement.", "quantifier": "all maps, settings, initial memory contents and histories of batches", "why_tests_cant": "The claim is about every history of calls; the number of histories is unbounded and tests only replay a few.", "anchors": ["src/navigation_client_impl.cpp: navigate", "src/position_estimator/position_estimator_zone.cpp", "src/level_collector.cpp: addGeoLevel"]}
{"id": "C80", "title": "Reported orientation", "statement": "When a level is used the reported orientation is the valid azimuth of the sensor fusion, or pi/2, converted to the ENU convention if asked; when no level is used it is the raw azimuth, valid or not and never converted.", "quantifier": "all histories and a next measurement", "why_tests_cant": "The claim is about every history of calls; the number of histories is unbounded and tests only replay a few.", "anchors": ["src/navigation_client_impl.cpp: navigate", "src/sensor_fusion/sensor_fusion.cpp"]}
{"id": "C81", "title": "The no-action threshold has no effect", "statement": "Any two positive no-action thresholds give the same outputs from the same state: the no-action timer never expires.", "quantifier": "all reachable states, batches and positive thresholds", "why_tests_cant": "The claim is about every history of calls; the number of histories is unbounded and tests only replay a few.", "anchors": ["src/navigation_client_impl.cpp: navigate"]}
{"id": "C82", "title": "Uninitialised memory", "statement": "Of the memory the client does not initialise only the stored sensor and NMEA messages can influence the outputs, and these cannot if the first measurement is a sensor message and an NMEA message precedes the first GNSS fix; otherwise they can decide the first output.", "quantifier": "all initial memory contents and histories; witness for the influence", "why_tests_cant": "Uninitialised memory has no fixed contents, a test sees one of them.", "anchors": ["src/navigation_client_impl.cpp: navigate", "src/measurements/measurement_preprocessor.cpp: MeasurementsPreprocessor"]}
{"id": "C83", "title": "Sampling centre of the radiomap likelihood", "statement": "The sampling centre and the weight of a place refer to the KNN position of the last call with enough usable measurements, however long ago and whatever level it was for; before the first such call there is no centre.", "quantifier": "all histories of calls", "why_tests_cant": "The claim is about every history of calls; the number of histories is unbounded and tests only replay a few.", "anchors": ["src/likelihood/likelihood_radiomap.cpp: doPreliminaryCalculations, calculateSamplingCenters, getWeight"]}
{"id": "C84", "title": "Intersection area of distance circles", "statement": "A place is in the intersection area iff it is inside (up to 1e-7 m) the circle of every measurement; the call throws iff an unknown transmitter is met before an excluding circle.", "quantifier": "all levels, places and measurement lists", "why_tests_cant": "The claim is an identity/inequality over a continuum of inputs; a test only samples finitely many points.", "anchors": ["src/likelihood/likelihood.cpp: isParticleInIntersectionArea"]}
{"id": "C85", "title": "Map loading: levels and their content", "statement": "A map file with well-formed features is read; the result has exactly one level per level id named by a level feature, ascending, with the area of the first such feature (its polygons corner for corner, latitude and longitude exchanged, boundaries and holes corrected, bounding box the envelope of that area), the graph of the level's first graph feature (or none), and all transmitters and reference points of the level in file order.", "quantifier": "all feature lists, all geometry libraries", "why_tests_cant": "Depends on every order and repetition of features.", "anchors": ["tools/verification/helpers.cpp: ParseGeojson, parseLevel, parseTransmitter", "src/barriers_geometry_builder.cpp: getGeometry"]}
{"id": "C86", "title": "Map loading: fingerprint statistics", "statement": "For each transmitter a reference point stores the number of measurements and minus the weighted mean of the values of the first entry naming it, repeated values counting once; the mean lies between the negated extremes; the variance is always 0.", "quantifier": "all entry lists", "why_tests_cant": "Depends on all histograms, repeated values and entries.", "anchors": ["tools/verification/helpers.cpp: parseReferencePoint"]}
{"id": "C87", "title": "Measurement logs are read faithfully", "statement": "Every line of a log that describes a measurement (sensor, radio or satellites; further members are free, rssi and distance may be missing) is read as exactly this measurement, in file order, one per line; reading fails as a whole if one line cannot be read. Eddystone lines are read as Wi-Fi, lines of unknown type become a Wi-Fi measurement of the empty id, and sensor vectors without three components become zero. Integers of a satellite line that do not fit an int are taken modulo 2^32.", "quantifier": "all logs, all measurements, all JSON values", "why_tests_cant": "Ranges over all measurements, all further members and all malformed lines.", "anchors": ["tools/verification/helpers.cpp: GetNavMessages, from_json(Measurement), from_json(SensorMeasurementData), from_json(RadioMeasurementData), from_json(NmeaMeasurementData)"]}
{"id": "C88", "title": "Settings take the values of the settings file", "statement": "Each of the 72 settings that a file can set has the value given under its key, or its documented default when the key is missing; members that are no settings have no influence and reading never throws. A value of the wrong type resets its own setting and every setting whose key sorts after it to the default. Use_altitude, K_neighbors and Fuse_gps_border, documented in the header, are ignored.", "quantifier": "all JSON objects, all settings", "why_tests_cant": "Ranges over all combinations of present, missing and mistyped members.", "anchors": ["tools/verification/helpers.cpp: from_json(CommonSettings)", "include/navigine/navigation-core/navigation_settings.h: CommonSettings"]}
{"id": "C89", "title": "Settings files: error code and settings of the levels", "statement": "A file that cannot be opened yields error code 25 with default settings, every file that is read yields 0; the settings of a level are those of the last entry with its id (A and B with defaults -82 and 3), a level without entry has none, and a missing section throws.", "quantifier": "all files, all lists of entries, all level ids", "why_tests_cant": "Depends on every order and repetition of entries and on every mistyped member.", "anchors": ["tools/verification/helpers.cpp: CreateSettingsFromJson, from_json(LevelSettings)"]}
{"id": "C90", "title": "The gyroscope turns the heading by rate times time", "statement": "Each gyroscope message turns the orientation about the reported axis of the device by 2 arctan(rate·dt/2), dt being the time since the gyroscope message before it; the first one turns nothing. For a device turning about the vertical the heading is minus the sum of these angles, up to whole turns; each angle has the sign of the rate and differs from rate·dt by at most its cube over twelve.", "quantifier": "all message histories, axes, rates, time stamps and gains (without the integral gain)", "why_tests_cant": "Signs and axes must be right for every orientation and every history of messages.", "anchors": ["src/sensor_fusion/complementary_filter.cpp: updateUsingGyroscope, updateQuaternion, getGyroHeading", "src/sensor_fusion/quaternion.cpp: toEuler, operator*"]}
{"id": "C91", "title": "The accelerometer corrects the tilt", "statement": "An accelerometer message turns the orientation about the axis perpendicular to the measured direction and the held vertical, towards the measured direction, by 2 arctan(gain·sin/2). For a gain up to 1 the tilt error never grows, and repeated messages of one direction reduce it geometrically to zero, unless the orientation is exactly upside down, when it is never corrected.", "quantifier": "all message histories, measured directions and gains", "why_tests_cant": "Convergence is a statement about unboundedly many messages from every orientation.", "anchors": ["src/sensor_fusion/complementary_filter.cpp: updateUsingAccelerometer"]}
{"id": "C92", "title": "The magnetometer turns the initial orientation towards north", "statement": "A magnetometer message before the first gyroscope message moves the measured field, seen in the world, towards the north axis by the given factors; the angle between the horizontal field and north decreases strictly unless the field lies on the axis, and the field stays on its side.", "quantifier": "all histories without gyroscope message, all fields, all gains between 0 and 1", "why_tests_cant": "Must hold for every orientation, inclination and declination at once.", "anchors": ["src/sensor_fusion/complementary_filter.cpp: updateUsingMagnetometer"]}
{"id": "C93", "title": "The magnetic azimuth is tilt compensated and free of drift", "statement": "After a magnetometer message the magnetic azimuth is the angle from the levelled forward direction of the device to the horizontal field, however the device is tilted; it does not depend on the heading the filter holds; for a level device measuring (-h sin a, h cos a, v) it is a.", "quantifier": "all message histories, orientations, field strengths and inclinations", "why_tests_cant": "Ranges over all orientations and fields; a sign error shows only for some of them.", "anchors": ["src/sensor_fusion/complementary_filter.cpp: calculateMagneticAzimuth, getMagneticAzimuth"]}
{"id": "C94", "title": "What a client with beacon zones answers", "statement": "On one floor, with zone location and without smoothing, the answer to a measurement that comes while the last admitted signal is younger than the no-signal threshold is: the place of the transmitter with the greatest mean strength in the last closed averaging window, rounded down to centimetres, with the precision of its mean strength and the id of the floor, if that transmitter lies in the bounding box of the floor and the window is younger than the dead reckoning time; otherwise no place, with NAVIGATION_ERROR if the measurement closed a window and NO_SOLUTION if not. Before the first window is closed only satellite positions are reported.", "quantifier": "all maps with one floor, all plain zone settings, all histories of batches of measurements with positive times", "why_tests_cant": "The answer depends on the whole history of signals, whose lengths, times and strengths are unbounded.", "anchors": ["src/navigation_client_impl.cpp: navigate", "src/measurements/measurement_preprocessor.cpp: updateMeasurements, extractRadioMeasurements", "src/position_estimator/position_estimator_zone.cpp: calculatePosition", "src/position_postprocessor/position_postprocessor.cpp: fusePositions, getProcessedPosition"]}
{"id": "C95", "title": "The triangulation of the reference points is the Delaunay triangulation", "statement": "For vertices with different ids and places, given in whole decimetres, every triangle TriangulateVertices returns has a positive area, given vertices as corners and no given vertex strictly inside its circumcircle; no triangle is returned twice; two returned triangles overlap only if their corners lie on one circle, so not at all if no four vertices do. A triangle with sides not longer than the limit is returned whenever its circumcircle has no other given vertex in it or on it and leaves the bounding rectangle by at most ten metres. The ten metres matter: three points of a nearly straight corridor give no triangle. The triangles are listed from left to right by their corners, and the list does not depend on how the sort treats equal elements.", "quantifier": "all lists of vertices in whole decimetres, all limits, all behaviours of the sorts", "why_tests_cant": "Whether incremental insertion keeps circumcircles empty depends on all orders and positions of arbitrarily many points.", "anchors": ["src/triangulation.cpp: TriangulateVertices", "src/triangulation.h: Triangle::circumcircle_contains, TriangleEdge"]}
{"id": "C96", "title": "The post-processor is its smoothers in series", "statement": "Without stop detection, the answer to a fused position that is not rejected is: the answer of the chosen smoother (none, alpha-beta or least squares), sent through the time smoother if that is in use, projected to the graph if that is in use, clamped to the box of the level and rounded down to centimetres. Each smoother behaves as an object of its own that got exactly one call per accepted position and a reset whenever the level differs from that of the accepted position before. The level is that of the fused position, the time that of the call, the deviation that of the last indoor position ever given. The alpha-beta smoother returns the first two positions as they are.", "quantifier": "all settings without stop detection, all histories of calls, all levels", "why_tests_cant": "The state of every smoother depends on the whole history of accepted and rejected positions and level changes.", "anchors": ["src/position_postprocessor/position_postprocessor.cpp: getProcessedPosition", "src/position_postprocessor/position_smoother_ab.cpp: smoothPosition, reset", "src/position_postprocessor/position_smoother_lstsq.cpp: smoothPosition, reset", "src/position_postprocessor/navigation_time_smoother.cpp: getTimeSmoothedPosition"]}
{"id": "C97", "title": "Roll, pitch and yaw describe the orientation", "statement": "After any sensor messages the reported roll and yaw lie in (-pi, pi], the pitch in [-pi/2, pi/2], and turning a vector by the roll about the first axis, then by the pitch about the second and by the yaw about the vertical gives the same vector as the orientation of the filter, unless the first axis of the device is vertical. In that case roll and yaw are reported as 0 and the angles do not determine the orientation.", "quantifier": "all message histories, all vectors", "why_tests_cant": "Ranges over all orientations; a wrong sign or a swapped argument shows only in parts of the rotation group.", "anchors": ["src/sensor_fusion/quaternion.cpp: toEuler", "src/sensor_fusion/complementary_filter.cpp: getFusedOrientation"]}
{"id": "C98", "title": "Vector arithmetic obeys the laws of three-dimensional space", "statement": "The length, dot and cross products of vectors are the Euclidean norm, the inner product and the cross product; sums, differences, multiples and quotients (in both forms, with and without assignment) are those of the vector space, and a quotient by 0 is not a vector. A vector longer than the machine epsilon is normalised to length one in the same direction, any other is left as it is. Two vectors compare equal exactly when no coordinate differs by 1e-8 or more; the comparison is reflexive and symmetric but not transitive. Only the zero vector is null.", "quantifier": "all vectors", "why_tests_cant": "The laws range over all vectors; a swapped index or sign shows only for vectors with particular nonzero components.", "anchors": ["src/vector3d.cpp", "include/navigine/navigation-core/vector3d.h"]}
{"id": "C99", "title": "Sensor and radio messages do not leak into each other", "statement": "The state of the sensor fusion and the reported step counters and lengths depend only on the times of the accepted messages and the sensor messages among them; radio messages that the map or the settings do not admit influence the outputs only by their time. Every accepted message, of whatever kind, hands the last sensor message to the sensor fusion again.", "quantifier": "all clients, all batches, any radio messages in between", "why_tests_cant": "Relates pairs of arbitrary histories (a non-interference property); tests compare single runs.", "anchors": ["src/navigation_client_impl.cpp: navigate", "src/measurements/measurement_preprocessor.cpp: update", "src/sensor_fusion/sensor_fusion.cpp: calculateDisplacement"]}
{"id": "C100", "title": "Steps do not depend on how the device is held", "statement": "If every accelerometer vector is turned by a rotation of its own (so that only its length is kept), the pedometer reports the same steps at the same times with the same lengths, and the navigation client reports the same step counters and step lengths.", "quantifier": "all sequences of samples, batches and requests; all clients; any turn at each sample", "why_tests_cant": "Relates every history to all histories with arbitrarily turned samples; tests compare a few orientations.", "anchors": ["src/sensor_fusion/pedometer.cpp: update, calculateSteps", "src/sensor_fusion/sensor_fusion.cpp", "src/navigation_client_impl.cpp: navigate"]}
{"id": "C101", "title": "Reported altitude", "statement": "The altitude of an answer is 0 unless the settings ask for altitudes; otherwise it is what the trilateration says about the level of the answer and the radio measurements handed out for this message, and 0 if it says nothing. A message that is no admissible radio measurement always gets altitude 0, and any other altitude needs four measurements whose spheres around transmitters of the level meet in pairs. When a client with zones on one floor closes a window of ranging signals with the true distances (plus the configured offset) to at least four transmitters that are not in one plane, the altitude of the answer is, for every least squares solver, the sum over these transmitters of (height + computed vertical distance) / distance. This is not the altitude of the device: a device at altitude 0 can be reported at 5.2 m.", "quantifier": "all clients, histories and messages", "why_tests_cant": "Ranges over all histories; whether a window closes depends on the whole past.", "anchors": ["src/navigation_client_impl.cpp: navigate", "src/trilateration.cpp: calculateAltitude"]}
{"id": "C102", "title": "Grouping of pedometer samples does not matter", "statement": "A user gives the stand-alone pedometer accelerometer samples in groups and asks for the steps after each group. For samples in order of time that are never more than 700 ms apart, with the first three within 200 ms, every grouping of the same samples reports the same steps, with the same times and lengths. They are also the steps that the library's pedometer reports when it gets all sensor messages one at a time. Without one request per group, or for sparse samples at the start, steps can be lost.", "quantifier": "all sequences of samples with these gaps, all ways to cut them into groups of any size (also empty ones), all sensor messages in between", "why_tests_cant": "Relates all pairs of groupings of arbitrary histories; the number of groupings grows exponentially.", "anchors": ["standalone_algorithms/pedometer/src/pedometer.cpp: update, calculateSteps", "src/sensor_fusion/pedometer.cpp: update, calculateSteps, calculateStepLength"]}
{"id": "C103", "title": "The stand-alone complementary filter is the library's", "statement": "For all gains and all sequences of measurements, every getter of the stand-alone complementary filter answers exactly what the library's filter with the same gains answers; with the default constructor it is the filter inside the navigation client, whatever its settings. Roll and yaw lie in (-pi, pi], the pitch in [-pi/2, pi/2], the time is that of the last measurement, and nothing depends on the uninitialised members.", "quantifier": "all gains, all sequences of measurements in any order, all contents of uninitialised memory", "why_tests_cant": "Equivalence of two programs over all histories; tests compare finitely many.", "anchors": ["standalone_algorithms/complementary_filter/src/complementary_filter.cpp: update, getFusedOrientation, getFusedAzimuth, getMagneticAzimuth, getDeviceAzimuth", "src/sensor_fusion/complementary_filter.cpp: update"]}
{"id": "C104", "title": "The integral gain adds the accumulated error to the rate", "statement": "With an integral gain above 1e-8, a gyroscope message turns the orientation as if its rate were increased by the gain times the sum of the errors (cross products of measured and held direction) that all accelerometer messages, and the magnetometer messages before the first gyroscope message, have shown. The sum is at most the number of these messages; a gain of at most 1e-8 has no effect. Nothing limits the sum or takes errors back: the bound is attained.", "quantifier": "all gains, all sequences of measurements (gyroscope times other than -1)", "why_tests_cant": "An exact law for unbounded histories; tests see finitely many and cannot show the absence of a limit.", "anchors": ["standalone_algorithms/complementary_filter/src/complementary_filter.cpp: updateUsingGyroscope, updateUsingAccelerometer, updateUsingMagnetometer", "src/sensor_fusion/complementary_filter.cpp: updateUsingGyroscope"]}
{"id": "C105", "title": "A replayed log gives the same output for every batch size", "statement": "If the messages of the log are in time order and the first time stamp is not 0, the replay program does the same for every batch size other than 0. It prints one line per message, which shows the whole seconds since the first message and what one single call of navigate for the whole log reports for this message. Batches of a positive size have that size (the last may be smaller); a negative size means one batch; size 0 with a non-empty log never ends. The two conditions are needed: after a late message the times of the lines are those of other messages, and a first time stamp 0 restarts the clock.", "quantifier": "all map files, settings files, logs, batch sizes, behaviours of the libraries and contents of uninitialised memory", "why_tests_cant": "It compares two whole runs for all files and all batch sizes.", "anchors": ["tests/navigation_test.cpp: main", "src/navigation_client_impl.cpp: navigate"]}
{"id": "C106", "title": "With good files the replay program finishes", "statement": "Given a map file with well-formed features, non-empty level names and fingerprints with measurements, a settings file that can be read, avoids the known undefined behaviours and has parameters for every level (unless KNN is used), and a log whose lines can be read, the replay program with a batch size other than 0 returns 0: no exception, no undefined behaviour, no endless loop, whatever the messages are. Every line has status OK and names a level of the map file, with an orientation in [-pi, pi), or has an error status and no place. There are at most as many lines as messages, and exactly as many if the log is in time order.", "quantifier": "all such files, all logs, all batch sizes other than 0, all behaviours of the libraries and contents of uninitialised memory", "why_tests_cant": "Absence of failures for all inputs.", "anchors": ["tests/navigation_test.cpp: main", "tools/verification/helpers.cpp: ParseGeojson, CreateSettingsFromJson, GetNavMessages", "src/navigation_client_impl.cpp: navigate"]}
{"id": "C107", "title": "The printed dead-reckoning track moves at most once", "statement": "A user of the replay program expects the two track columns to add up the walked steps. They do not: the heading used for them is a member that nothing sets. If it happens to be 0, all lines show (0, 0); otherwise the lines show (0, 0) up to the first output with a position and a non-zero step length, and from this output on the point one such step away in the direction of that constant; later steps change nothing.", "quantifier": "all files, logs, batch sizes and contents of uninitialised memory for which the program returns", "why_tests_cant": "The content of uninitialised memory and all histories are covered.", "anchors": ["tests/navigation_test.cpp: BuildPdrTrack, main", "include/navigine/navigation-core/navigation_state.h: NavigationState, getHeading", "src/position_estimator/position_estimator.h: getParticleFilterState"]}
{"id": "C108", "title": "The stand-alone positioning program: what the output file says", "statement": "The program reads a file of transmitters and a log of measurement lines and writes a file of position lines. Each line it writes either carries a later time than the line before or repeats that line literally; its time is that of a log line whose RSSI lies strictly between -100 and 0 and whose transmitter is listed; its precision lies strictly between 1 and 1 + e^3; there is at most one line per started 2000 ms of the log. The first line is exactly at the place of a listed transmitter; with all transmitters on a line the lines stay on that line, and moving all transmitters by an affine map (shift, turn, reflection, change of scale) moves every written place the same way and changes neither times nor precisions. A longer log extends the output file; a line of the log that cannot be read ends the log. A stronger, nearer transmitter can be ignored: the time of a packet is that of its weakest entry, and a packet that is not later than the one before gives the line before again.", "quantifier": "all transmitter files and all measurement logs with non-negative times, including logs out of time order and with unreadable lines", "why_tests_cant": "The shipped data set is one log; the claims range over all logs and all placements of the transmitters.", "anchors": ["standalone_algorithms/position_estimation/examples/main.cpp: main, getTransmitters, getMeasurements, splitToPackets", "standalone_algorithms/position_estimation/src/nearest_transmitter_estimator.cpp: NearestTransmitterPositionEstimator"]}
{"id": "C109", "title": "The stand-alone step counter: the printed number", "statement": "For every accelerometer log the program prints a number, and it is the number of steps the pedometer of the library reports for the samples of the log given one message at a time: at most one per sample and at most one per 301 ms of the log, plus one. A longer log gives at least as many steps, the first line of the file has no influence, a line that cannot be read ends the log, and turning the device (samples of the same lengths) changes nothing. The test program's mean step length lies between the shortest and the longest step; without steps it is not a number.", "quantifier": "all accelerometer logs, in any order of time", "why_tests_cant": "The shipped test compares the count on recorded logs with a tolerance; the claims range over all logs.", "anchors": ["standalone_algorithms/pedometer/examples/main.cpp: main, parseMeasurements", "standalone_algorithms/pedometer/tests/pedometer_test.cpp: getStepsNumLenPair", "standalone_algorithms/pedometer/src/pedometer.cpp: update, calculateSteps"]}
{"id": "C110", "title": "The tilt of a device at rest, with sensors that err", "statement": "For a device at rest whose accelerometer directions are off by at most an angle delta and whose gyroscope reports, between two accelerometer messages, a rotation of at most epsilon, the angle between the true vertical and the one held by the orientation filter falls by the factor 1 - k/2 with every accelerometer message (k is the accelerometer gain), from anything up to a right angle, down to delta + 2 epsilon/k; within half a radian by 1 - 5k/6 down to delta + 6 epsilon/(5k). The reported pitch is off by at most this angle, and so is the roll of a device held level. So the static tilt test of the stand-alone filter passes, however long it runs, for every noise of at most 0.15 m/s2 and 0.01 rad/s; for other tilts and noises the error after every sample is bounded explicitly. Magnetometer and other messages have no influence once a gyroscope message has been seen.", "quantifier": "all histories before, all sequences of messages of any length with the stated error bounds, all gains in (0, 1] without integral gain, all tilts and noises within the bounds", "why_tests_cant": "The repository's test draws random noise for one tilt and one duration and checks the last value; the claim is for every noise sequence within a bound, every length and every starting error.", "anchors": ["standalone_algorithms/complementary_filter/tests/complementary_filter_test.cpp: getTiltedImuMeasurements, staticTilt", "standalone_algorithms/complementary_filter/src/complementary_filter.cpp: ComplementaryFilter", "src/sensor_fusion/complementary_filter.cpp: update, updateUsingAccelerometer, updateUsingGyroscope, getFusedOrientation"]}
{"id": "C111", "title": "Rounding errors of the orientation filter", "statement": "In floating point, after any sequence of messages, the norm of the orientation quaternion is one up to 6 units of 2^-53: the rounding errors of the repeated normalisation do not add up. With a gyroscope alone, the orientation differs from the one exact arithmetic gives for the same messages by at most 61 units of 2^-53 per gyroscope message, for any rates and time steps, so that any direction is seen in the world within a millionth of its length after fifty million messages. The program compared is the same: without rounding it is the model of the other properties.", "quantifier": "all sequences of messages, all gains, all roundings with the error bound of IEEE 754 double precision (in particular rounding to nearest), short of overflow", "why_tests_cant": "A test runs some thousand updates with one rounding; whether errors accumulate over all histories needs a proof.", "anchors": ["src/sensor_fusion/quaternion.cpp: normalized, operator*=, operator+=", "src/sensor_fusion/complementary_filter.cpp: updateQuaternion, updateUsingGyroscope, update", "src/vector3d.cpp: magnitude, normalized, crossProduct"]}
{"id": "C112", "title": "The tilt of a device at rest, with rounding errors", "statement": "In floating point the tilt that the orientation filter holds for a device at rest keeps the guarantee of exact arithmetic: with accelerometer directions off by at most delta, a gyroscope that reports at most epsilon between two accelerometer messages and at most N gyroscope messages there, the tilt error falls with every accelerometer message by the factor 1 - k/2 (k is the accelerometer gain), from anything up to a right angle, down to delta + 2(epsilon + (300 + 200 N) 2^-53)/k; within half a radian by 1 - 5k/6 down to delta + 6(epsilon + (300 + 200 N) 2^-53)/(5k). Rounding errors are corrected like sensor errors and do not add up over time: for the measurements of the static tilt test they cost less than 10^-12 rad, however long it runs.", "quantifier": "all histories before, all sequences of messages of any length with the stated error bounds (accelerometer values at least 2 EPSILON long), all gains in (0, 1] without integral gain, all roundings with the error bound of IEEE 754 double precision, short of overflow", "why_tests_cant": "A test runs one history of bounded length with one rounding; that rounding errors stay bounded for ever is a statement about all of them.", "anchors": ["src/sensor_fusion/complementary_filter.cpp: update, updateUsingAccelerometer, updateUsingGyroscope", "src/sensor_fusion/quaternion.cpp: normalized, operator*=, operator+=", "src/vector3d.cpp: normalized, crossProduct", "standalone_algorithms/complementary_filter/tests/complementary_filter_test.cpp: getTiltedImuMeasurements"]}
{"id": "C113", "title": "What a client with fingerprints answers", "statement": "On one floor, with fingerprint (KNN) location and without smoothing, the answer to a measurement that comes while the last admitted signal is younger than the no-signal threshold depends on the last closed averaging window from which a place is computed: one in which as many different transmitters with fingerprints were heard as the settings ask for (and, with triangles, on a floor with more than three reference points and at least one triangle). The place is, with triangles, the mean of the corners of the first heaviest triangle weighted by the weights of its corners (the origin if the weights vanish), and without triangles the origin. If the place lies in the bounding box of the floor and the window is younger than the dead reckoning time, the answer is OK and shows the place, rounded down to centimetres, with precision 1 and the id of the floor; otherwise it has no place, with NAVIGATION_ERROR if the measurement closed such a window and NO_SOLUTION if not. Windows with too few known transmitters do not change the place. Before the first such window only satellite positions are reported. If the reference points lie in the bounding box and a triangle has a corner with fingerprints of three heard transmitters, with signal levels within ±1000 dB, the place lies in the bounding box.", "quantifier": "all maps with one floor, all plain fingerprint settings, all histories of batches of measurements with positive times, all sorts that permute", "why_tests_cant": "The answer depends on the whole history of signals, whose lengths, times and strengths are unbounded, and on an arbitrary radio map.", "anchors": ["src/navigation_client_impl.cpp: navigate", "src/measurements/measurement_preprocessor.cpp: updateMeasurements, extractRadioMeasurements", "src/level_estimator/level_estimator_radiomap.cpp: detectCurrentLevel", "src/position_estimator/position_estimator_knn.cpp: calculatePosition", "src/position_postprocessor/position_postprocessor.cpp: fusePositions, getProcessedPosition"]}
{"id": "C114", "title": "The tilt of a device that moves, with sensors that err", "statement": "The orientation filter follows a device that turns: take any reference direction over time (such as the true upward direction seen from the device), let every accelerometer message be off it by at most an angle delta and let the gyroscope miss, between two accelerometer messages, at most epsilon of its motion. Then the angle between the reference and the vertical that the filter holds falls by the factor 1 - k/2 with every accelerometer message (k is the accelerometer gain), from anything up to a right angle, down to delta + 2 epsilon/k; within half a radian by 1 - 5k/6 down to delta + 6 epsilon/(5k). A gyroscope message with rates off by at most w misses at most w times the time step plus a twelfth of the third power of the angle turned in it. So the example program of the stand-alone filter, a pendulum held still for ten seconds and then released, writes two files of 2000 lines with the same time stamps, and from the 41st line on the calculated pitch is within one degree of the simulated angle, for every accelerometer noise of at most 0.1 m/s2 and every gyroscope noise of at most 0.01 rad/s; for other motions about the same axis the error after every sample is bounded explicitly, also when time stamps are a millisecond early.", "quantifier": "all histories before, all motions and all sequences of messages of any length with the stated error bounds, all gains in (0, 1] without integral gain; for the program all noises within the bounds", "why_tests_cant": "The example draws one random noise and leaves the comparison of two plots to the reader; the claim is for every noise within a bound, every motion and every length.", "anchors": ["standalone_algorithms/complementary_filter/examples/main.cpp: simulatePendulumMotion, generateImuPendulum, main", "standalone_algorithms/complementary_filter/src/complementary_filter.cpp: ComplementaryFilter", "src/sensor_fusion/complementary_filter.cpp: update, updateUsingAccelerometer, updateUsingGyroscope"]}
{"id": "C115", "title": "The arithmetic of the client is defined", "statement": "In no sequence of calls does the navigation client divide by zero, take the root of a negative number, the logarithm of a number that is not positive or the arc sine outside [-1, 1], overflow a 64-bit integer, narrow a step time beyond an int or convert a number to an integer out of range, provided that: time stamps (of the measurements, and those in memory the constructors leave as it was) lie within 2^62 ms of zero; the time settings lie within 10^15 s; the smallest GNSS deviation is not negative; every transmitter has a path loss slope other than zero, with zone location every level too; no level is bound to a pole; and, if satellite and indoor positions are fused, the prior deviation and the walking speed are not negative and the measurements taken come in order of time. All these conditions matter: an uninitialised last signal time of -2^63 overflows with the first measurement, a missing slope or a pole divides by zero, and with fusion a clock set back by 81.5 seconds between two positions divides by zero with otherwise default settings.", "quantifier": "all maps, settings and initial memory that meet the conditions, all sequences of batches of measurements in any order (in order of time only with fusion), every operation of every call", "why_tests_cant": "A test observes a division by zero only for the one history it runs; that no history reaches one needs invariants (deviations stay positive, gains stay below one, stored times are in order) over all histories.", "anchors": ["src/navigation_client_impl.cpp: navigate", "src/measurements/measurement_preprocessor.cpp: extractMeasurements, extractRadioMeasurements", "src/position_postprocessor/position_postprocessor.cpp: fusePositions, getProcessedPosition", "src/position_postprocessor/position_smoother_ab.cpp: smoothPosition", "src/sensor_fusion/complementary_filter.cpp: update", "src/sensor_fusion/pedometer.cpp: calculateSteps", "src/position_estimator/position_estimator_zone.cpp: calculatePosition", "src/position_estimator/position_estimator_knn.cpp: calculatePosition", "src/point.cpp: localToGps"]}
{"id": "C116", "title": "Only time differences matter", "statement": "If all messages of a session are stamped the same time later or earlier, the answers of the navigation client (and the debug states) are the same, one by one: no answer depends on the absolute time. The session has to be well started (C82: first a sensor message, an NMEA message before the first fix); otherwise the messages in uninitialised memory have to be moved as well. All time stamps have to be at least two seconds after zero, and with the detection of stops in use later than the stop update time. The start of the clock is special: with the filter of GNSS fixes, a session whose fix is stamped 0 gets a position for it, and the same session moved by any other time gets none.", "quantifier": "all maps, settings and initial memory, all sequences of batches of measurements in any order with time stamps that are late enough, all time shifts that keep them so, all sort algorithms that decide by comparisons", "why_tests_cant": "A test compares two runs of one session; that no branch compares a time stamp with a constant, or a stored initial value with a time stamp, in a way that is visible for some history and some shift needs a simulation between the two runs that every step keeps.", "anchors": ["src/navigation_client_impl.cpp: navigate", "src/measurements/measurement_preprocessor.cpp: addMeasurement, extractMeasurements, updateMeasurements", "src/sensor_fusion/pedometer.cpp: update, calculateSteps", "src/sensor_fusion/complementary_filter.cpp: update", "src/sensor_fusion/sensor_fusion.cpp: calculateDisplacement", "src/position_estimator/position_estimator_outdoor.cpp: calculatePosition", "src/position_postprocessor/position_postprocessor.cpp: fusePositions, getProcessedPosition", "src/position_postprocessor/position_smoother_ab.cpp: smoothPosition", "src/position_postprocessor/navigation_time_smoother.cpp: getTimeSmoothedPosition"]}
{"id": "C117", "title": "Inertial sensors do not move the place", "statement": "What the gyroscope, the magnetometer and the orientation sensor say (and the barometer, if it is not used) changes nothing in the answers of the navigation client but the reported orientation: statuses, levels, places, altitudes, radii, providers and debug states are the same whatever these messages contain, one by one, for the whole session. Without the detection of stops the same holds for what the accelerometer says, the step counters of the debug states apart. The orientation itself is taken from them: after a fix, an orientation message is answered with the orientation it says.", "quantifier": "all maps, settings and initial memory, all pairs of sessions of any length and batching that differ only in type and values of messages of these sensors", "why_tests_cant": "Non-interference is a statement about pairs of histories: a leak through one of the stored values (the last sensor message is processed again with every later message, headings and step times are remembered) shows up only in particular histories.", "anchors": ["src/navigation_client_impl.cpp: navigate", "src/sensor_fusion/sensor_fusion.cpp: calculateDisplacement", "src/measurements/measurement_preprocessor.cpp: updateMeasurements, extractMeasurements", "src/level_estimator/level_estimator.cpp: calculateLevel", "src/level_estimator/barometer.cpp: checkLevelChange", "src/position_estimator/position_estimator_outdoor.cpp: calculatePosition", "src/position_postprocessor/position_postprocessor.cpp: getProcessedPosition"]}
{"id": "C118", "title": "What a client with beacon zones on several floors answers", "statement": "On a map with any number of floors, with zone location and without smoothing, once an averaging window of signals is closed there is exactly one floor in use: every closed window belongs to the heard floor with the greatest score, the first window decides the floor, and afterwards a floor takes over exactly when a window belongs to it and it already had four votes; then all other floors start from nothing. While the last admitted signal is younger than the no-signal threshold the answer names the floor in use and the place of its strongest transmitter in the last closed window in which this floor was heard (rounded down to centimetres, with the precision of its mean strength), if that place is in the bounding box of the floor and that window is younger than the dead reckoning time; otherwise there is no place, and the status is NAVIGATION_ERROR if the measurement closed a window with a signal of the floor and NO_SOLUTION if not. Five windows of one floor in a row always make it the floor in use, and a floor with fewer than five windows never replaces another one.", "quantifier": "all maps with any number of floors, all plain zone settings, all histories of batches of measurements with positive times", "why_tests_cant": "The floor and the place depend on the whole history of windows, whose number, contents and order are unbounded.", "anchors": ["src/navigation_client_impl.cpp: navigate", "src/level_estimator/level_estimator_transmitters.cpp: detectCurrentLevel", "src/level_estimator/level_history.cpp: detectLevelUsingHistory", "src/position_estimator/position_estimator_zone.cpp: calculatePosition", "src/position_postprocessor/position_postprocessor.cpp: fusePositions, getProcessedPosition"]}
{"id": "C119", "title": "What a client with fingerprints on several floors answers", "statement": "With any number of floors, fingerprint (KNN) location and without smoothing, each closed averaging window in which some transmitter with a fingerprint is heard has a floor: the one whose fingerprints agree best with the mean strengths (number of known transmitters times the sum over them of the mean of 1/(difference of levels + 0.1)), the first of the map among equals. These floors are voted on: the first one is used, another one when it comes up after having come up four times. A window gives a place if enough transmitters with fingerprints on the floor then in use were heard (and, with triangles, the floor is triangulated, which also depends on the floors before it on the map). The answer to a measurement that comes while the last admitted signal is younger than the no-signal threshold shows the place of the last such window, on the floor that was in use then, rounded down to centimetres, with status OK and precision 1, if that place lies in the bounding box of the floor now in use and the window is younger than the dead reckoning time. Otherwise the answer has no place; its status is NAVIGATION_ERROR if the measurement closed a window with enough transmitters of the floor now in use and NO_SOLUTION if not. Before the first such window only satellite positions are reported. The floor reported need not be the floor in use: a user who has gone up is still reported, with status OK, on the floor they have left.", "quantifier": "all maps with any number of floors of distinct names, all plain fingerprint settings, all histories of batches of measurements with positive times, all sorts that permute", "why_tests_cant": "The answer depends on the whole history of signals through the votes for the floors and the last place, for arbitrary radio maps of any number of floors.", "anchors": ["src/navigation_client_impl.cpp: navigate", "src/measurements/measurement_preprocessor.cpp: updateMeasurements, extractRadioMeasurements", "src/level_estimator/level_estimator.cpp: detectLevelUsingHistory", "src/level_estimator/level_estimator_radiomap.cpp: detectCurrentLevel", "src/position_estimator/position_estimator_knn.cpp: calculatePosition", "src/position_postprocessor/position_postprocessor.cpp: fusePositions, getProcessedPosition"]}
{"id": "C120", "title": "What a client answers that hears no transmitter", "statement": "As long as no radio message has been admitted, the answer to each message is determined by the satellite fixes alone, for every map, every setting of the rest (location method, smoothing, stops, barometer) and any other messages. A fix is taken over at a message if the last sensor message so far is a fix, some floor covers it (or positions outside the map are allowed; the first such floor counts), enough satellites or none are announced by the last NMEA message and, with the sigma filter on, it passes the three-sigma test against the fixes of the earlier messages. Before the first such message the answer is NO_LEVEL without a place. Afterwards every answer is OK and shows the last fix taken over, however old: its own latitude and longitude, its floor, its deviation or the configured minimum, provider GNSS. With the filter on one fix counts again at each further message: a single fix followed by as many other messages as the filter needs is reported.", "quantifier": "all maps, settings, initial memory contents and histories of messages without an admitted radio message, cut into calls in any way (with the sigma filter: with positive and strictly increasing times)", "why_tests_cant": "The answer depends on the whole history of messages: on fixes of any age, on the filter's contents and on messages of other kinds that repeat a fix; tests run a few short histories.", "anchors": ["src/navigation_client_impl.cpp: navigate", "src/position_estimator/position_estimator_outdoor.cpp: calculatePosition, extractGpsPosition, extractNumberOfSatellites, SigmaFilter", "src/measurements/measurement_preprocessor.cpp: updateMeasurements, getValidSensor"]}
{"id": "C121", "title": "How much a client keeps", "statement": "However long it runs, a client that does not detect stops keeps a bounded number of things: at most as many radio signals as admitted radio messages came in the averaging time before the last one; one accelerometer sample for each message (of any kind) at which the last sensor message was a sample not more than five seconds older than the last one, and likewise 1.4 seconds for the filtered accelerations (or up to three older ones); and, after any history whatsoever, at most 50 times between steps, 202 pressures, one count per floor and as many fixes as the sigma filter's window. So if messages come at a bounded rate and sensor messages do not cease, the total stays below a constant. Two exceptions show that both conditions matter. If the sensors fall silent after an accelerometer sample, the client keeps one more copy of that sample at every further message, without limit. If stops are detected, then from the stop detection time after the last reported step on no admitted signal is dropped until the next step, however many come.", "quantifier": "all maps, settings and initial memory contents, and all histories of messages with positive times in order, beginning with a sensor message, cut into calls in any way; the number of messages is unbounded", "why_tests_cant": "Growth without limit shows only in sessions longer than a test, and a bound must hold for every session, however long.", "anchors": ["src/navigation_client_impl.cpp: navigate", "src/measurements/measurement_preprocessor.cpp: RadioMeasurementBuffer, addMeasurement, extractMeasurements", "src/sensor_fusion/pedometer.cpp: update, calculateSteps", "src/level_estimator/barometer.cpp: updateBuffers", "src/level_estimator/level_history.cpp: detectLevelUsingHistory", "src/position_estimator/position_estimator_outdoor.cpp: SigmaFilter"]}
{"id": "C122", "title": "The alpha-beta smoother with irregular intervals and inexact measurements", "statement": "For the alpha-beta smoother without accuracy weighting: if each interval between measurements is at most a mild multiple of the previous one (with the default smoothing any interval up to 4/3 of the previous one, however short) and each measurement is at most delta off a fixed place, then the smoothed position is, from any state and whatever resets happen, within a constant times delta of that place apart from a geometrically vanishing term; with exact measurements it converges to it. The condition on the intervals is needed: with the default smoothing and exact measurements of a device at rest at intervals of 1, 1, 1, 10 and 10 seconds in turn, the error grows by at least a tenth with every round; with the default settings a smoothed position 10 m off is more than 22 m off after twenty exact measurements.", "quantifier": "all smoothing gains, smoother states, places, error bounds, sequences of measurements whose interval ratios lie between two mild ones, resets by the speed limit, barriers and long gaps; all numbers of steps", "why_tests_cant": "Stability over all interval sequences and all error patterns is a statement about infinite runs; a test shows a few finite sequences, and the diverging pattern is found only by looking at products of the step matrices.", "anchors": ["src/position_postprocessor/position_smoother_ab.cpp: smoothPosition, reset"]}
{"id": "C123", "title": "What a client with the default settings answers on one floor", "statement": "A client with one floor that locates by zones and smooths with the alpha-beta filter (the default settings are such): while signals are heard and a window of signals has been closed, the answer is OK exactly if the strongest transmitter of the last closed window lies in the bounding box of the floor and the window is younger than the dead reckoning time. It then names the floor and shows the place that the motion of all fixes so far has reached (fixes are the places of the strongest transmitters of the closed windows; the motion is at rest at the first and second fix, and each further fix corrects place and speed by the smoothing weight, or starts again after more than ten seconds, over 4 m/s or at a place that is not allowed), moved into the box and rounded down to centimetres, with the precision of the last window. Otherwise it has no place, and is NAVIGATION_ERROR if this measurement closed the window and NO_SOLUTION if not. Before the first window is closed no place comes from the transmitters. If, after any history, the fixes of all further windows are at one place, and the intervals between them change mildly (with the default settings, no interval is longer than 4/3 of the one before it), the places shown approach it exponentially, up to one centimetre.", "quantifier": "all maps of one floor, all settings of this kind, all histories of measurements of all kinds with positive times, in any batches; all initial memory; all continuations and numbers of windows", "why_tests_cant": "The answer depends on the whole history of windows through the smoother, which is initialised in a peculiar way (the second fix is taken raw too) and is reset by gaps, speeds and barriers; the claim equates the client with a short recursive description on all histories, and the convergence is about infinitely many continuations.", "anchors": ["src/navigation_client_impl.cpp: navigate", "src/measurements/measurement_preprocessor.cpp: updateMeasurements, extractRadioMeasurements", "src/position_estimator/position_estimator_zone.cpp: calculatePosition", "src/position_postprocessor/position_postprocessor.cpp: fusePositions, getProcessedPosition", "src/position_postprocessor/position_smoother_ab.cpp: smoothPosition, reset"]}
{"id": "C124", "title": "What a client with the default settings answers in a building", "statement": "A client with any number of floors that locates by zones and smooths with the alpha-beta filter (the default settings are such): while signals are heard and a window of signals has been closed, the floor in use is the one that the floors of the closed windows, voted on, give. Let a be the strongest transmitter of this floor in the last window in which the floor was heard. The answer is OK exactly if a lies in the bounding box of the floor and this window is younger than the dead reckoning time; it then names the floor in use and shows the place that the journey of all fixes so far has reached, moved into the box and rounded down to centimetres, with the precision of this window. The fixes are the places of the strongest transmitters of the floor then in use, of all closed windows. On another floor than the last fix the journey is at the new fix, at rest: no place of the old floor is mixed into the place shown. On the same floor place and speed are corrected by the fix as on a single floor; only the first time of all that a fix follows another one on the same floor the motion starts again there. As long as all fixes are on one floor the journey is the motion of C123. Otherwise the answer has no place; it is NAVIGATION_ERROR if this measurement closed that window and NO_SOLUTION if not.", "quantifier": "all maps with any number of floors, all settings of this kind, all histories of measurements of all kinds with positive times, in any batches; all initial memory", "why_tests_cant": "The answer depends on the whole history: which floors the windows voted for, which windows had a signal of the floor then in use, and where the smoother was reset. The claim equates the client with a short recursive description for all histories and all buildings.", "anchors": ["src/navigation_client_impl.cpp: navigate", "src/measurements/measurement_preprocessor.cpp: updateMeasurements, extractRadioMeasurements", "src/position_estimator/position_estimator_zone.cpp: calculatePosition", "src/position_postprocessor/position_postprocessor.cpp: fusePositions, getProcessedPosition", "src/position_postprocessor/position_smoother_ab.cpp: smoothPosition, reset", "src/level_estimator/level_estimator_transmitters.cpp: detectCurrentLevel", "src/level_estimator/level_history.cpp: detectLevelUsingHistory"]}
{"id": "C125", "title": "Floors added to the map after the client was made", "statement": "The client reads the map it shares with the application at every measurement. A client that looks for the floor by transmitters (zones, no radiomap) may go on being used while floors with new ids are added between the calls of navigate: no call throws or has undefined behaviour, each call answers the records it does not drop, and every place in an answer is on a floor of the first map or on one added before the call. It behaves exactly as a client made for the grown map whose settings give the added floors the path loss parameters 0, whatever the settings of the client say about them; so the radius of a place on an added floor comes from a division by zero. A client that looks for the floor by fingerprints (the setting useRadiomap, or the algorithm KNN) is unusable once a floor has been added: every call of navigate with a non-empty batch throws, whatever is measured, and goes on throwing when the exceptions are caught. getStates answers the debug states of the last call of navigate with a non-empty batch, one for each answer of that call; empty batches and added floors leave them as they are.", "quantifier": "all maps, all settings without the defects of C34 and C47, all sequences of added floors and calls of navigate with any batches; for fingerprints all reachable states and all sequences of further non-empty batches; all initial memory", "why_tests_cant": "Adding a floor can come at any point of any history. Which parts of the client read the map anew and which keep what they computed when they were made shows only in the floors heard later; the claim that nothing ever fails, or that everything fails, is about all later measurements.", "anchors": ["src/navigation_client_impl.cpp: NavigationClientImpl, navigate, getStates, createLevelEstimator, createPostitionEstimator", "src/level_collector.cpp: addGeoLevel", "src/level_estimator/level_estimator_radiomap.cpp: detectCurrentLevel", "src/level_estimator/level_estimator_transmitters.cpp: detectCurrentLevel", "src/position_estimator/position_estimator_zone.cpp: PositionEstimatorZone, calculatePosition", "src/measurements/measurement_preprocessor.cpp: isTransmitterSupported, updateMeasurements"]}
{"id": "C126", "title": "What the test program of the standalone trilateration tells", "statement": "The test program of the trilateration prints \"test passed!\" for every calculation that returns no error, whatever the coordinates are, and otherwise only if one of the two coordinates is exactly the expected number. With any map and any measurements in the place of its own it passes iff no distance is negative, at least three beacons were measured and one of them is on the map: neither the places of the beacons nor the distances matter. In its own scenario the calculation returns no error, neither coordinate equals the expected number (both exceed it by less than a millimetre), and it prints \"test passed!\".", "quantifier": "all results of the calculation; all maps, all measurements, all correct sorts", "why_tests_cant": "It is about which programs a test accepts: running the test shows one verdict, not that every wrong calculation without an error gets the same.", "anchors": ["standalone_algorithms/trilateteration/src/test_trilateration.cpp: main", "standalone_algorithms/trilateteration/src/trilateration.cpp: calculateCoordinates, getX, getY"]}
{"id": "C127", "title": "What a client with the barometer switched on answers", "statement": "A client that locates by zones with the barometer switched on answers, after every history of measurements and while the last signal is younger than the no-signal threshold, with the floor its signals voted for at the last moment at which the barometer left the choice free: while fewer than 201 pressures were counted, or when the means of the last two hundred show a climb of more than two metres. Between such moments the floor in use cannot change. With no floor in use the answer is NO_LEVEL or comes from a satellite fix; with a floor it is the last transmitter position found with the floor in use at that time; once that is older than the dead reckoning time or outside the bounding box of the floor in use, the answer shows no place (NAVIGATION_ERROR at the measurement that gave it, else NO_SOLUTION). The answer is determined by the history. While fewer than 201 pressures are counted, and for ever without pressures, a client with any settings answers exactly as if the barometer were switched off. If 201 pressures come before the first window of signals is closed and no climb is ever seen, there is never a floor: such a client standing on a floor next to its beacon answers NO_LEVEL for ever, where the same client without the barometer answers with the floor from the second signal on.", "quantifier": "all maps, all settings that locate by zones without smoothing (for the comparison with the barometer off: all settings), all batches of measurements with positive time stamps, all uninitialised values", "why_tests_cant": "The floor depends on the last moment in an unbounded history at which two hundred pressures showed a climb; a test sees one history.", "anchors": ["src/level_estimator/barometer.cpp: checkLevelChange, updateBuffers, updateLevel", "src/level_estimator/level_estimator.cpp: calculateLevel", "src/navigation_client_impl.cpp: navigate", "src/measurements/measurement_preprocessor.cpp: getValidSensor"]}
{"id": "C128", "title": "Rounding errors of the geographic conversions", "statement": "In floating point arithmetic, for every binding point whose parallel is at least a fiftieth of the equator (latitudes up to 88.85 degrees, the antimeridian included): a place within ten kilometres converted to latitude and longitude and back comes back to within twenty nanometres; a point within 4.5 degrees of longitude and one degree of latitude converted to a place and back comes back to within 1e-13 degrees; and both conversions agree with the real formulas to within 1e-12 degrees and twenty nanometres. Longitudes agree up to whole turns, because rounding may name a point on the antimeridian by its other longitude. With rounding to nearest the normalisation of a longitude itself makes no error, for every double between -540 and 540.", "quantifier": "all roundings with the IEEE 754 error bound, all library cosines with an error of at most 2^-52, all binding points away from the poles, all places and points in the stated range", "why_tests_cant": "A test samples some coordinates; the bound is for all of them and for every library cosine of the stated accuracy, and the error is largest next to the antimeridian.", "anchors": ["src/point.cpp: normalizeLongitude, degToRad, gpsToLocal, localToGps"]}
{"id": "C129", "title": "A receiver that reads every signal by the same amount too strong or too weak", "statement": "A client that locates by fingerprints in difference mode (the default mode), with floors chosen by the best reference point or with a map of one floor, and without altitude, gives exactly the same outputs and the same debugging information when its receiver reads every signal by the same number of dB too strong or too weak, as long as no signal crosses a limit of the receiver (0 dB, the cut-off) by this. This holds after every history of messages of all kinds, whatever the other settings are (smoothing, stops, graph, satellites, barometer, averaging, triangles, number of nearest points, number of strongest signals kept, fixed bias). It does not hold without the conditions: the default choice of the floor by fingerprints compares the signals themselves and takes the same signal, read 30 dB weaker, for one of another floor, and the choice by transmitters divides the mean strength by a number depending on the share of transmitters heard, so the weaker reading also moves it to another floor.", "quantifier": "all maps, all settings with these conditions, all offsets, all batches of measurements whose signals stay on the same side of the limits, all uninitialised values, all sorting algorithms that see only comparisons", "why_tests_cant": "The invariance is about every offset, map and history; a test compares two receivers on one track.", "anchors": ["src/knn/knn_utils.cpp: calcRpWeightsKnn", "src/position_estimator/position_estimator_knn.cpp: calculatePosition", "src/level_estimator/level_estimator_radiomap.cpp: detectCurrentLevel, calcWeight, calcWeightBestRp", "src/level_estimator/level_estimator_transmitters.cpp: detectCurrentLevel", "src/measurements/measurement_preprocessor.cpp: updateMeasurements, extractRadioMeasurements, isRssiValid, addMeasurement, extractMeasurements", "src/navigation_client_impl.cpp: navigate"]}
{"id": "C130", "title": "Which settings matter", "statement": "Two clients made for the same map from settings that agree in what matters give exactly the same answers (outputs, debugging information, exceptions, undefined behaviour) to every history of calls. Eighteen of the settings never matter: the number of neighbours, the eleven settings of the particle filters, the likelihood noise, the second difference mode, the minimal deviation, the projection to the white area and whether the device has an accelerometer and a gyroscope. Others matter only together with a switch: the difference mode only with fingerprints and triangles, the cut-off only when strengths are measured, the ranging offset only with altitudes, the settings of stops, smoothing, graph, fusion and sigma filter only if each is switched on, the age of a device azimuth only if it is used, the settings per level only without fingerprints. Of the five algorithms only fingerprints differ from the rest, so the default particle filter with dead reckoning, the other particle filter, zones and graph all give the same answers; of the three measurement types only strength differs from the rest; all positive thresholds of missing motion are equivalent.", "quantifier": "all maps, all pairs of settings that agree in the listed sense, all settings per level, all histories of calls and measurements, all uninitialised values, all sorting algorithms", "why_tests_cant": "That a setting has no effect is a statement about all histories, maps and other settings; a test can only fail to see an effect on one track.", "anchors": ["include/navigine/navigation-core/navigation_settings.h: CommonSettings", "src/navigation_client_impl.cpp: NavigationClientImpl, navigate", "src/knn/knn_utils.cpp: calcKHeaviestRefPointsAverage", "src/position_estimator/position_estimator_knn.cpp: calculatePosition", "src/position_estimator/position_estimator_zone.cpp: calculatePosition", "src/measurements/measurement_preprocessor.cpp: MeasurementsPreprocessor", "src/position_postprocessor/position_postprocessor.cpp: PositionPostprocessor"]}
{"id": "C131", "title": "What of a message matters", "statement": "A client that reports no altitudes gives exactly the same outputs and debugging information to two histories of calls that agree, message by message, in the following: the kind of message and its time; of a radio signal the kind, the transmitter and the strength, and the transmission power only if fingerprints locate or the best reference point gives the floor; of a pressure the first number, and only if the barometer is switched on; of an orientation the first number; of an NMEA message the number of satellites, and only if it is the first sentence. In particular the distances measured by Wi-Fi ranging and their deviations may be replaced by any others without a change of place, floor, radius or status, also for a client that uses nothing but ranging.", "quantifier": "all maps, all settings without altitude, all pairs of histories of calls that agree in the listed sense, all uninitialised values, all sorting algorithms that see only comparisons", "why_tests_cant": "That a part of a message has no effect is a statement about all histories, maps and settings; a test can only fail to see an effect on one track.", "anchors": ["src/measurements/measurement_preprocessor.cpp: updateMeasurements, extractRadioMeasurements, addMeasurement, extractMeasurements", "src/position_estimator/position_estimator_outdoor.cpp: extractNumberOfSatellites, extractGpsPosition", "src/level_estimator/barometer.cpp: checkLevelChange", "src/sensor_fusion/sensor_fusion.cpp: calculateDisplacement", "src/sensor_fusion/complementary_filter.cpp: update", "src/sensor_fusion/pedometer.cpp: update", "src/navigation_client_impl.cpp: navigate"]}
{"id": "C132", "title": "What a client with fingerprints and the default smoothing answers", "statement": "Take a client with one floor that locates by fingerprints and smooths with the default alpha-beta filter (these are the default settings with the algorithm KNN). Every closed window with enough transmitters of the map gives a fix: the place the fingerprints give for its mean strengths (C113), if it lies in the bounding box of the floor. While signals are heard and the last such window is younger than the dead reckoning time, the answer is OK with radius one and the place of the smoother that followed all fixes so far, rounded down to centimetres inside the box; the raw place of the last window is in the debugging information. If the raw place lies outside the box, or the window is too old, the answer carries no place, and is NAVIGATION_ERROR for the message that closes the window and NO_SOLUTION for later ones. Before any such window the only places reported come from satellites. If the reference points have different ids and every transmitter is heard with one transmission power in a window, the place of a window is determined. If all windows from some time on have the same place, at intervals that grow and shrink mildly, the reported places approach it geometrically, up to a centimetre.", "quantifier": "all maps with one floor, all settings of this kind, all histories of calls with positive times, all uninitialised values, all sorting algorithms; for the approach: all numbers of windows", "why_tests_cant": "The answer depends on all windows since the start through the smoother, and the approach to a place is a statement about arbitrarily many windows.", "anchors": ["src/position_estimator/position_estimator_knn.cpp: calculatePosition", "src/position_postprocessor/position_postprocessor.cpp: fusePositions, getProcessedPosition", "src/position_postprocessor/position_smoother_ab.cpp: smoothPosition", "src/navigation_client_impl.cpp: navigate"]}
{"id": "C133", "title": "What a client answers that hears transmitters and satellites", "statement": "Take a client with one floor that locates by zones and uses the satellite receiver, without smoothing and without the filter for fixes. The floor is in use while a window of signals was closed at some time and the last signal is recent. A satellite place is offered at a message if the last sensor message is a fix on the floor with enough satellites (it then counts as a fix of this moment), or if the last fix taken over is still valid and the last sensor message is of another kind. While the floor is in use, every closed window and every offered place is put into a store, with a spread that averages its radius with the spread of the last one, grown by the walking speed. The answer is then chosen between the last zone and the last satellite place: the zone alone if no satellite place is in store or if indoor places are preferred and this message closes a window; the other one if one of them is too old; the blend if blending is on and the circles overlap; else the one whose spread, grown by the walking speed since, is smaller. It is shown with status OK, rounded down to centimetres, if it lies in the bounding box of the floor and is younger than the dead reckoning time, always with the radius of the last zone; otherwise the answer carries no place. While the floor is not in use, an offered satellite place is answered as it is; without one the last answer is repeated. With the default times there are histories in which the client answers NO_SOLUTION for eight seconds although a fresh fix is at hand, because the old zone is preferred first and found too old afterwards.", "quantifier": "all maps with one floor, all settings of this kind, all histories of calls with positive times, all uninitialised values, all sorting algorithms; for the gap: all times of the fix between five and thirteen seconds after the last window", "why_tests_cant": "The spreads depend on all windows and fixes since the start, and the choice on their ages; only a statement about all histories covers the interplay of the three time limits.", "anchors": ["src/position_postprocessor/position_postprocessor.cpp: fillIndoorOutdoorPositionStates, fusePositions, getProcessedPosition", "src/position_estimator/position_estimator_outdoor.cpp: calculatePosition", "src/position_estimator/position_estimator_zone.cpp: calculatePosition", "src/navigation_client_impl.cpp: navigate"]}
{"id": "C134", "title": "What the projection onto the graph changes", "statement": "Take a client without stops and without the projection onto the graph, and a second one made from the same map and settings with the projection switched on for places nearer than D metres. Given the same calls, the two answer side by side: the same messages are located or not, with the same status, floor, radius, altitude, orientation, provider and debugging information. Only latitude and longitude may differ. An answer with a satellite place outside all floors is the same in both. Any other place p is shown by the first client in the bounding box of a floor, rounded down to centimetres; the second shows in the same way the place to which the graph of that floor draws p: the nearest place of the graph, up to a tenth of a millimetre, if it is nearer than D, else p itself. So no place moves by more than D and 15 mm of rounding, and the projection of one answer has no influence on later ones: neither the smoothers nor the floors nor the satellite filter see it.", "quantifier": "all maps whose graphs were drawn by adding vertices and edges, all settings without stops (any algorithm, with or without smoothing, satellites, barometer), all distances D, all histories of calls and messages, all uninitialised values", "why_tests_cant": "That a projected answer never feeds back into later ones is a statement about whole histories of two clients; a test compares a few answers of one.", "anchors": ["src/position_postprocessor/position_postprocessor.cpp: getProjection, getProcessedPosition", "src/navigation_client_impl.cpp: navigate"]}
{"id": "C135", "title": "What a client shows while its user stands still", "statement": "A client with one floor that detects stops, without graph projection and barometer, gets messages with positive times and without satellite fixes, and its signals keep coming once the floor is known. Say that the user stands still at a message if some step was reported while the floor was known, and the last such step is at least the detection time of stops ago. A message that then shows another place than the last one shown moves it by less than the distance threshold (up to 15 mm of rounding); of any two such messages, the later one comes more than the update time after the earlier one. Without smoothing, an estimated place (as given by the debug state) at the threshold or farther from the shown one leaves the shown one as it is. And if the user comes to stand still before any place was shown, then no place is shown as long as the estimated place is at the threshold or farther from the local origin of the floor (and from the corner of the box the origin is shown as), although the client knows where the user is.", "quantifier": "all maps of one floor, all settings with stops and without graph projection and barometer (any algorithm, any thresholds), all histories of calls and messages as described, all uninitialised values", "why_tests_cant": "Two moves during one stop may be any number of messages apart, with any signals between them; the time of the last move and the last step are remembered through the whole history.", "anchors": ["src/position_postprocessor/position_postprocessor.cpp: getProcessedPosition, fusePositions", "src/navigation_client_impl.cpp: navigate"]}
{"id": "C136", "title": "What a client with zones answers that detects stops", "statement": "For a client with one floor that locates by zones (strongest transmitter) and detects stops, without smoothing, graph projection, barometer and satellite fixes, the answer to every message of every history is given by a memory of nine values that depends only on the messages and on those at which a step was reported: the open and the last closed window of signals, the time of the last signal, of the last step and of the last step made while the floor was in use, the last zone, the place that is held with its radius, when it was last renewed during a stop, and the answer. During a stop the signals of a closed window stay in the next one, so that the zone follows the mean over the whole stop. A zone outside the box of the floor or older than the dead reckoning time gives no answer. During a stop the held place is shown, unless the update time has passed since the last renewal and the zone is nearer than the distance threshold; else the zone is shown. While the floor is not in use the answer stays as it is. When no place is shown, the status says why: no floor, an unusable zone at a message that closes a window, or no new estimate.", "quantifier": "all maps of one floor, all such settings, all histories of calls and messages with positive times, all uninitialised values", "why_tests_cant": "The answer depends on the whole history through the windows, the stops and the held place; a test fixes one history.", "anchors": ["src/position_postprocessor/position_postprocessor.cpp: getProcessedPosition, fusePositions", "src/measurements/measurement_preprocessor.cpp: RadioMeasurementBuffer, update", "src/navigation_client_impl.cpp: navigate", "src/position_estimator/position_estimator_zone.cpp: calculatePosition"]}
{"id": "C137", "title": "Whole centimetres in floating point", "statement": "With every operation rounded to double, a place that the post-processing takes over is shown, in each coordinate, as the double of the whole centimetres in the coordinate clamped to the floor box, or of one more; one more only when less than a thousandth of a millimetre is missing. While the user stands still and the shown place has to stay as it is (the last renewal is not long ago, or the new place is far away), each message may move the shown place down by one centimetre in each coordinate, but never up, never by more than one centimetre per message, and never below the last whole quarter of a metre; from the 24th message of that kind on it does not move at all. With rounding to the nearest double the creep is real: with default settings a user who stands still at 1.1640625 m, found there exactly at every message, is shown at 1.16, 1.15, 1.14, 1.13 and 1.12 m in turn.", "quantifier": "all roundings that keep the doubles, all settings with stop detection, all floor boxes within 9000 km, all states of the post-processing, all sequences of messages during a stop", "why_tests_cant": "Whether the rounding to centimetres loses one more depends on the last binary digit of the shown coordinate; a test fixes a few places, and the bound is about every place and any number of messages.", "anchors": ["src/position_postprocessor/position_postprocessor.cpp: getProcessedPosition", "src/geometry.cpp: GetDist"]}
{"id": "C138", "title": "Rounding does not change the strongest transmitter", "statement": "When the signal strengths of a window are whole numbers (as devices report them, at most 1000 in size, at most a million signals), the zone estimator that is fed with means computed in double arithmetic (each addition and the division rounded) places the user at the transmitter of the floor that has the greatest mean strength in exact arithmetic, of several with the same mean the one with the smallest id, and the strength it uses for the radius is that mean up to 2^-43. It finds nothing exactly when no transmitter of the floor was heard. With fractional strengths this fails: with two beacons heard at -60.3, one once and one three times, rounding makes the other one win.", "quantifier": "all roundings that keep the doubles, all windows of whole strengths in any order, all floors, all parameters of the path loss, all times", "why_tests_cant": "Two means may differ by as little as one part in a million squared or be equal in different ways; tests try a few windows, the claim is about all of them.", "anchors": ["src/measurements/measurement_preprocessor.cpp: extractMeasurements", "src/position_estimator/position_estimator_zone.cpp: calculatePosition"]}
{"id": "C139", "title": "Times of the settings in whole milliseconds", "statement": "The settings give times in seconds as doubles, and the code turns each into milliseconds by multiplying with 1000 and cutting off. A time of n milliseconds (0 to 10^9) written in seconds counts as n milliseconds or as n-1, never as anything else; multiples of 125 ms count exactly. A stop is therefore found at the latest n milliseconds after the last step and at the earliest n-1 after it. One less does happen: 2.01 seconds count as 2009 milliseconds.", "quantifier": "all roundings (for exactness: those that keep the doubles), all whole numbers of milliseconds up to 10^9, all states and times", "why_tests_cant": "Which decimal fractions lose a millisecond depends on the last binary digit of the product; a test tries a few settings.", "anchors": ["src/position_postprocessor/position_postprocessor.cpp: PositionPostprocessor, getProcessedPosition", "src/measurements/measurement_preprocessor.cpp: MeasurementsPreprocessor", "src/navigation_client_impl.cpp: NavigationClientImpl"]}
{"id": "C140", "title": "What a zone client answers in floating point", "statement": "A client that locates by zones on one floor, without satellites, smoothing, graph projection and stop detection, computes in double arithmetic the means, the place, the clamping, the rounding to centimetres and the latitude and longitude. With whole signal strengths, after any windows, every window is answered from the latest window in which a transmitter of the floor was heard, and there from the transmitter whose mean strength is greatest in exact arithmetic (of equal ones the smallest id): when that transmitter lies on the map and that window is less than the dead reckoning time old, the answer is on this floor, has the time of the current window, lies at most a centimetre (and a ten-millionth of a metre) below and at most two thousandths of a millimetre above the transmitter's place clamped to the floor box, in each coordinate, and its latitude and longitude are those of the shown place up to 10^-12 degrees, the longitude up to whole turns. Otherwise no position is given. Without rounding, the chain is the one of the exact model.", "quantifier": "all roundings that keep the doubles, all cosines of two units in the last place, all floors up to 9 km around the binding point away from the poles, all settings without stops, all lists of windows with whole strengths", "why_tests_cant": "Rounding errors of five stages add up differently for every window and place; a test compares a few answers with a tolerance.", "anchors": ["src/navigation_client_impl.cpp: navigate", "src/position_estimator/position_estimator_zone.cpp: calculatePosition", "src/position_postprocessor/position_postprocessor.cpp: fusePositions, getProcessedPosition", "src/measurements/measurement_preprocessor.cpp: extractMeasurements", "src/point.cpp: localToGps"]}
{"id": "C141", "title": "The order of the map", "statement": "The order in which a map lists its transmitters and its floors does not matter. Listing the transmitters of a floor in another order gives the same map when their ids differ. Two clients that locate by zones, with the same settings and the same floors added in different orders, answer every batch of measurements alike and keep the same state, if no transmitter stands on two floors, no satellite fix lies in the boxes of two floors, and in no closed window are two floors heard equally strong. When two floors are heard equally strong, the first floor of the map is named, so that the two clients may name different floors.", "quantifier": "all maps, all orders of their floors and transmitters, all zone settings with a window, all histories of measurements with positive times", "why_tests_cant": "The number of orders of a map is factorial in its size; a test compares a few orders on a few histories.", "anchors": ["src/level_collector.cpp: addGeoLevel, level, hasLevel, findLevelByTransmitterId", "src/level.cpp: addTransmitters", "src/level_estimator/level_estimator_transmitters.cpp: detectCurrentLevel", "src/position_estimator/position_estimator_outdoor.cpp: calculatePosition", "src/navigation_client_impl.cpp: navigate"]}
{"id": "C142", "title": "The same building further east", "statement": "Where on its parallel a building stands does not matter. A floor plan moved δ degrees of longitude eastwards is loaded as the same floor with the same local coordinates; only its binding point lies δ degrees further east. A client built from the moved map with the same settings and configuration (zones, k nearest neighbours, smoothing, stop detection, barometer, satellite fixes) can be built whenever the original could, and when satellite fixes move along it answers every history of measurements with the same status, floor, latitude, altitude, radius, orientation and provider, and a longitude δ degrees further east up to whole turns. (The longitudes of the moved map are not brought back into (-180, 180]; for a building across the antimeridian see C143.) Moving a building north is different: the same difference of longitude is half as long at 60 degrees as on the equator.", "quantifier": "all floor plans, all δ, all maps and settings a client can be built from, all histories of batches of measurements, all initial memory", "why_tests_cant": "A seam shows at one longitude only and with one combination of map, settings and fixes; tests run with a building at one place.", "anchors": ["src/point.cpp: gpsToLocal, localToGps", "src/level_collector.cpp: addGeoLevel, getBinding", "src/position_estimator/position_estimator_outdoor.cpp: calculatePosition", "src/navigation_client_impl.cpp: navigate"]}
{"id": "C143", "title": "A building across the antimeridian", "statement": "A floor plan given by a box of two valid longitudes is loaded as the region between them the shorter way round, also when that crosses the antimeridian: its local box has that width, contains the local image of a place if and only if the place lies in the region, and a client of that floor answers its first satellite fix with its own place if and only if the fix lies in the region, and otherwise with no place. When the box is taken from the outline as the map loader does (smallest and greatest coordinates), a building across the antimeridian is covered if and only if every point of its outline lies on one of two meridians; a building with a step in its outline is not, and a fix on its outline is answered with no place.", "quantifier": "all boxes with valid longitudes off the poles, all places, all outlines, all clients of one floor without the three-sigma filter, all initial memory", "why_tests_cant": "The tests use one building far from the antimeridian; the claim is an equivalence over all boxes and places.", "anchors": ["src/level_collector.cpp: getBinding, getBBoxInLocalCoordinates, getGeometryInLocalCoordinates, addGeoLevel", "src/barriers_geometry_builder.cpp: getGeometry", "src/point.cpp: gpsToLocal, normalizeLongitude", "src/position_estimator/position_estimator_outdoor.cpp: calculatePosition"]}
{"id": "C144", "title": "One reading that is not a number spoils the orientation for good", "statement": "If one value of one gyroscope or accelerometer reading, or of one magnetometer reading before the first gyroscope reading, is not a number (NaN), then the orientation and the fused azimuth told by the complementary filter are not numbers after every later message, whatever is sent; the gyroscope heading is not a number from the next gyroscope message on, and the magnetic azimuth from the next magnetometer message on. Readings of the other sensors never change the orientation, and a magnetometer reading after the first gyroscope reading that is not a number is forgotten with the next magnetometer message. As long as all readings are numbers, the answers are those of the real-valued model.", "quantifier": "every arithmetic that propagates NaN as IEEE 754 demands, all message sequences before and after the bad reading, all parameters", "why_tests_cant": "That no later sequence of messages repairs the filter is a claim over all continuations.", "anchors": ["src/sensor_fusion/complementary_filter.cpp: update, updateUsingGyroscope, updateUsingAccelerometer, updateUsingMagnetometer, getFusedOrientation, getFusedAzimuth, getGyroHeading, getMagneticAzimuth", "src/sensor_fusion/quaternion.cpp: normalized, toEuler", "src/vector3d.cpp: normalized"]}
{"id": "C145", "title": "Satellite fixes that are not numbers", "statement": "Unless places outside the map are wanted, a satellite fix whose latitude or longitude is not a number (NaN) is ignored by the satellite estimator: no place is told and the last place is kept. When places outside the map are wanted and the three-sigma filter is off, the protection is missing: such a fix is told as a place on the first floor of the map and becomes the last place, and its latitude or longitude is not a number. When the filter is on, the bad fix is refused, and so are as many later fixes as the window of the filter holds, however good. For fixes that are numbers the estimator is that of the other claims.", "quantifier": "every arithmetic that propagates NaN as IEEE 754 demands, all settings, floors, earlier states and later calls", "why_tests_cant": "The tests send numbers only; the claim ranges over all states of the filter and all later calls.", "anchors": ["src/position_estimator/position_estimator_outdoor.cpp: calculatePosition, extractGpsPosition, add", "src/point.cpp: gpsToLocal, localToGps, normalizeLongitude"]}
{"id": "C146", "title": "A pressure that is not a number", "statement": "Once two hundred pressures have been counted, one pressure that is not a number (NaN) holds the floor as long as it is among the newest 202 pressures, whatever floor the signals vote for; after 202 further pressures it is forgotten: only the newest 202 pressures, the floor before and the vote matter. The climb it hides is not made up for: if the floor is changed within that time and the pressure is constant from the bad reading on, the floor never changes again, however long the signals vote for the new one; with a number in place of the bad reading the same walk is followed after 101 pressures. For pressures that are numbers the barometer is that of the other claims.", "quantifier": "every arithmetic that propagates NaN as IEEE 754 demands, all earlier calls, all later calls and votes; for the walk: exact numbers, any number of later calls", "why_tests_cant": "That the floor never changes again is a claim over all later calls.", "anchors": ["src/level_estimator/barometer.cpp: checkLevelChange, updateBuffers, updateLevel, calcMean"]}
{"id": "C147", "title": "An accelerometer sample that is not a number", "statement": "If an accelerometer sample is not a number (NaN in one of its three values), the pedometer never tells a step later than that sample and less than 2500 ms after it, whatever the other samples and calls, as long as samples come in the order of their times; the pedometer stays defined. A real step is hidden that way: with a number in its place the same walk has a step, with NaN none. After 2500 ms steps are told again, but the length told with a step may still be no number. For samples that are numbers the pedometer is that of the other claims.", "quantifier": "every arithmetic that propagates NaN as IEEE 754 demands, all histories of calls of both versions of the pedometer with samples in order of time; for the hidden step and the length: exact numbers, concrete walks", "why_tests_cant": "That no step is told for 2.5 seconds is a claim over all samples and calls around the bad one.", "anchors": ["src/sensor_fusion/pedometer.cpp: update, calculateFilteredAccMagnitudes, calculateSteps, calculateStepLength", "standalone_algorithms/pedometer/src/pedometer.cpp: update"]}
{"id": "C148", "title": "A place that is not a number switches the smoothing off", "statement": "With the alpha-beta smoother and without barriers: once a place with a coordinate that is not a number (NaN) has been given to it, the smoother tells every later place as it is given, unsmoothed, as long as places keep coming with growing times and no more than ten seconds apart - for ever, whatever came before. A place more than ten seconds later, or a change of the floor, makes it work as a new one again. A coordinate that is not a number is also told to the user as such: fitting into the box and rounding do not remove it. One bad place among three thus changes the third answer from half way to the raw place. For places that are numbers the smoother is that of the other claims.", "quantifier": "every arithmetic that propagates NaN as IEEE 754 demands, all earlier places, any number of later places, all settings without barriers", "why_tests_cant": "That smoothing never comes back is a claim over all later places.", "anchors": ["src/position_postprocessor/position_smoother_ab.cpp: smoothPosition, reset", "src/position_postprocessor/position_postprocessor.cpp: getProcessedPosition"]}
{"id": "C149", "title": "A place that is not a number while the user stands", "statement": "With the detection of stops: if the place told at some call has a coordinate that is not a number (NaN), every place told is no number while the user stands, however long and wherever the places computed meanwhile are - the distance to the held place is no number, so it is never near enough to be renewed. The first call after a new step tells what a new postprocessor would tell. With a number in its place the held place is renewed as the settings demand. For places that are numbers this is the postprocessor of the other claims without smoothing.", "quantifier": "every arithmetic that propagates NaN as IEEE 754 demands, all settings with stops, every map and graph, all earlier and any number of later calls", "why_tests_cant": "That no later place is ever taken over is a claim over all later calls.", "anchors": ["src/position_postprocessor/position_postprocessor.cpp: getProcessedPosition, getProjection", "src/geometry.cpp: GetDist, GetProjection"]}
{"id": "C150", "title": "Radio readings that are not numbers", "statement": "Where signal strengths are used, a radio message whose strength is not a number (NaN) is as if it had not been sent. Where distances (Wi-Fi RTT) are used, neither the strength nor the distance is checked: a message is taken if it is a distance of a transmitter to use. One distance that is not a number then makes the mean distance of its transmitter no number in all measurements taken out as long as the message is kept, whatever good distances of the transmitter come meanwhile; the means of the other transmitters are numbers if their distances are. A strength or distance that is not a number beside two different ones makes the order by which std::sort is called no strict weak order, which is undefined; for numbers it is one. For messages that are numbers the preprocessor is that of the other claims.", "quantifier": "every arithmetic that propagates NaN as IEEE 754 demands, all sequences of messages and extractions, every lawful std::sort, all settings", "why_tests_cant": "Claims over all histories, including that nothing heals the mean while the message is kept.", "anchors": ["src/measurements/measurement_preprocessor.cpp: getValidSignalEntry, isRssiValid, addMeasurement, extractMeasurements, extractRadioMeasurements", "src/trilateration.cpp: getIntersectedMeasurements"]}
{"id": "C151", "title": "Two places of one time switch the least squares smoother off", "statement": "Without barriers, if right after the first place, or right after a change of the floor, the least squares smoother gets two places of that same time which differ in both coordinates, then from then on every place of a user who keeps moving in both coordinates, with gaps of at most the averaging time, is told exactly as it came: the smoothing that was asked for does nothing, without end. A change of the floor brings it back: what is told then depends on nothing that came before. A smoother that has not been switched off draws the second of two different places of different times towards the first by the smoothing weight.", "quantifier": "all settings with a non-negative averaging time, all places, walks of every length, every earlier history in the case of another floor", "why_tests_cant": "The smoothing stays off for an unbounded walk; a test sees a finite part of it, and the outputs look like good positions.", "anchors": ["src/position_postprocessor/position_smoother_lstsq.cpp: smoothPosition, reset", "src/position_postprocessor/polynomial_fit.cpp: addSequencePoint, removeOldPoints, predict, clear, solveLinearSystem"]}
{"id": "C152", "title": "Transmitters that are not heard do not matter", "statement": "Take two maps that are the same apart from transmitters that send none of the messages: those may be added, removed, moved, or given other parameters, on any floor. If a client can be made for the first map it can be made for the second with the same settings, and for every sequence of calls the two give the same answers, or fail together in the same call. This holds for all settings: fingerprints or zones, satellites, barometer, stops, smoothing and the altitude of the transmitters. Maps of this kind come from floor plans that differ only in such transmitters: adding them is refused for both with the same error or gives such maps again.", "quantifier": "all pairs of maps that agree on the transmitters heard, all settings, all lawful sorting orders, all sequences of calls, all starting memory contents", "why_tests_cant": "a test compares a few maps and a few recordings; that no estimator, filter or detector ever consults a transmitter it has not heard is a claim on every map, every setting and every history", "anchors": ["src/level.cpp: getLevelRadioMeasurements, Level::transmitter, Level::containsTransmitter", "src/level_collector.cpp: addGeoLevel, findLevelByTransmitterId", "src/navigation_client_impl.cpp: navigate", "src/level_estimator/level_estimator_transmitters.cpp: detectCurrentLevel", "src/trilateration.cpp: calculateAltitude", "src/measurements/measurement_preprocessor.cpp: extractRadioMeasurements"]}
{"id": "C153", "title": "The names of the floors are labels", "statement": "Give the floors of a map new names: different names stay different, the empty name, which stands for no floor, is not given to a floor and stays as it is. The settings of the floors are stored under the new names. If a client can be made for the map it can be made for the renamed one, and for every sequence of calls the second gives the answers of the first with the new names of the floors in place of the old ones, or fails together with it. In particular the alphabetical order of the names, in which the containers of the library keep the floors, has no influence on the level that is found or on the place. This holds for all settings: fingerprints or zones, satellites, barometer, stops, smoothing, projection and altitude. Renamed maps come from renamed floor plans: adding them is refused for both with the same error or gives such maps again.", "quantifier": "all injective renamings that keep the empty name, all maps, all settings, all environments that read only the geometry of a floor, all sequences of calls, all starting memory contents", "why_tests_cant": "the library keeps floors, counts, fingerprints and parameters in containers ordered by the name of the floor; that no answer depends on this order is a claim on every map, every renaming and every history", "anchors": ["src/level_collector.cpp: addLevel, level, hasLevel", "src/level_estimator/level_history.cpp: detectLevelUsingHistory", "src/level_estimator/barometer.cpp: updateLevel", "src/level_estimator/level_estimator_radiomap.cpp: detectCurrentLevel", "src/level_estimator/level_estimator_transmitters.cpp: detectCurrentLevel", "src/position_estimator/position_estimator_knn.cpp: calculatePosition", "src/position_estimator/position_estimator_zone.cpp: calculatePosition", "src/navigation_client_impl.cpp: navigate"]}
{"id": "C154", "title": "The order of the reference points does not matter", "statement": "List the reference points of each floor in another order. Then the floor found from the fingerprints is the same for all measurements, in both modes. The estimator by fingerprints gives the same answer, with the same stored place, settings and measurements, or fails in the same way, and this also holds if the two libraries sort in different but lawful ways. In triangle mode this needs two conditions: the reference points are in general position, that is no circle with no point inside it passes through four of them or of the corners of the triangle the code starts with; and the largest weight is not shared by two different triangles of the floor, unless it is below the smallest weight the code accepts. For a whole client: built from either order and given the same calls, it gives the same answers, all fields, and ends in the same state. Underneath: for vertices in general position the same triangles are found in every order.", "quantifier": "all maps whose reference points have different ids and one fingerprint per transmitter, all reorderings, all measurements, all settings, all stored places, all lawful sorting functions of either library; all histories of calls for clients with plain windows of signals and neither stops, graph nor time smoothing, no satellites outside the map, by zones or fingerprints", "why_tests_cant": "there are factorially many orders, and the triangulation inserts the points one by one, so its intermediate states differ completely between two orders; that the result agrees follows from a uniqueness argument for triangles with empty circumcircle", "anchors": ["src/triangulation.cpp: TriangulateVertices", "src/knn/knn_utils.cpp: calcPositionInTriangle, calcRpWeightsKnn, triangulate", "src/position_estimator/position_estimator_knn.cpp: calculatePosition", "src/level_estimator/level_estimator_radiomap.cpp: detectCurrentLevel", "src/navigation_client_impl.cpp: navigate"]}
{"id": "C155", "title": "The names of the transmitters are labels", "statement": "Give the transmitters new names, on the map, in the fingerprints of the reference points and in the messages, in such a way that the alphabetical order of the names stays as it was (a prefix in front of every name, for instance). If a client can be made for the map it can be made for the renamed one, and for every sequence of calls the second gives the answers of the first, or fails together with it. This holds for all settings: fingerprints or zones, satellites, barometer, stops, smoothing, projection and altitude. Renamed maps come from renamed floor plans. The order has to stay: of two beacons that are heard equally well a zone client answers the one whose name comes first, so that exchanging two names may change the place.", "quantifier": "all strictly monotone renamings, all maps, all settings, all environments whose sorting functions only compare and which read only the geometry of a floor, all sequences of calls, all starting memory contents", "why_tests_cant": "the library looks transmitters up by name in the map, in fingerprints, in sets and in sorted lists of signals; that nothing else of a name matters is a claim on every map, every renaming and every history", "anchors": ["src/measurements/measurement_preprocessor.cpp: extractMeasurements", "src/knn/knn_utils.cpp: calcRpWeightsKnn", "src/position_estimator/position_estimator_zone.cpp: calculatePosition", "src/level_estimator/level_estimator_radiomap.cpp: detectCurrentLevel", "src/trilateration.cpp: calculateAltitude", "src/level_collector.cpp: addGeoLevel", "src/navigation_client_impl.cpp: navigate"]}
{"id": "C156", "title": "Rounding errors of the alpha-beta smoother", "statement": "In floating point, with a rounding after every operation, the alpha-beta smoother without accuracy weighting still forgets its errors: if the measurements are at most delta off a fixed place whose coordinates are at most M metres, and each interval is a mild multiple of the previous one by a margin m, then from any state and whatever resets happen the smoothed position is within (70 delta + 10^-11 M) / m of that place, apart from a geometrically vanishing term. Rounding errors do not add up, however long the client runs. With equal intervals the rate is the square root of one minus the gain up to 10^-11. The gain that the constructor computes is one for which this holds, whatever the settings say. With the default settings and one measurement a second of a place within a kilometre the smoothed position is, from the hundredth measurement on, within 14 delta and a ten-millionth of a metre of it.", "quantifier": "all roundings that satisfy the standard model of IEEE 754, all settings, gains, smoother states, places, error bounds and sequences of measurements with mild intervals, all resets by the speed limit, barriers and long gaps; all numbers of steps", "why_tests_cant": "the claim is on every rounding behaviour and on arbitrarily long runs; a test sees one machine and finitely many steps, and a slow accumulation of errors would show only after a long time", "anchors": ["src/position_postprocessor/position_smoother_ab.cpp: PositionSmootherAB, smoothPosition"]}
{"id": "C157", "title": "How far the smoothed place can be from the measured one", "statement": "With the speed constraint on, after any history of calls of the alpha-beta smoother, the position it returns for a newer measurement is at most 8 t (1 - a)(2 - a) / a^2 metres from that measurement, where t is the time since the last position in seconds and a the gain in use: at most 24 t metres with the default settings, at most 1368 t metres with any, and zero if t is over ten seconds. The bound is reached: measurements at 0, -24 and 32 metres, one a second, give a position 24 metres from the last one. With weighting by the accuracy the smoother need not settle: a device at rest whose place is measured exactly once a second, with stated accuracies of 1, 10, 100 and 1000 metres in turn, is reported more than a metre off at some time later, however small its first error was.", "quantifier": "all settings with the speed constraint, all histories of calls and resets, all measurements and barriers; for the last claim all settings with weighting by the accuracy, all places and all first errors other than zero", "why_tests_cant": "the distance depends on the whole history through the speed estimate, and the growth from an arbitrarily small first error takes arbitrarily many measurements to show", "anchors": ["src/position_postprocessor/position_smoother_ab.cpp: PositionSmootherAB, smoothPosition"]}
{"id": "C158", "title": "Rounding errors of the position by fingerprints", "statement": "In triangle mode, in double precision arithmetic of any rounding to nearest kind and with a pow accurate to nine digits, the estimator by fingerprints weighs the same reference points as in exact arithmetic, each weight correct to a millionth. The place it returns is, up to a millionth of the size of the triangle and 2e-15 of the coordinates, the exact weighted mean of the corners of a triangle whose exact weight is the greatest up to a hundred thousandth, or the origin if no corner has a weight. If one triangle is heavier than all others by a hundred thousandth, the status, level and time are the same as in exact arithmetic and the place is within a millionth of the longer side of the level of the exact one. This holds for strengths, powers and means of at most 200, a million signals, ten thousand matches per reference point, as long as no sum of shares is within ten percent of the constant 1e-8 of the code, which is so when the trusts in the signals differ by at most r and there are n of them with r n at most 10^4.", "quantifier": "all levels, triangulations, radiomaps, measurements in the stated range, both modes of comparison, all roundings that satisfy the IEEE 754 error bound and all versions of pow accurate to nine digits", "why_tests_cant": "floating point results depend on every input bit and on the library, and a test sees one input, one rounding and one pow", "anchors": ["src/knn/knn_utils.cpp: calcRpWeightsKnn, calcTransmittersWeights, calcPositionInTriangle", "src/position_estimator/position_estimator_knn.cpp: calculatePosition"]}
{"id": "C159", "title": "Rounding errors of the time smoother", "statement": "In double precision arithmetic the rounding errors of the time smoother do not add up: after every history of calls it keeps exactly the positions it was given. When the known positions come in the order of their times (of any size up to 2^51 milliseconds), the position returned has the level, the time and all other fields of the exact one, and coordinates within 2e-15 times the greatest coordinate of the exact ones. It need not lie on the segment between the two known positions: a device known to be at 0.07 m at 0 s and at 1 s is shown beyond 0.07 m at 1.1 s.", "quantifier": "all histories of calls with known positions in the order of their times, all query times, all coordinates, all roundings to double that satisfy the IEEE 754 error bound", "why_tests_cant": "whether errors accumulate is a question about all histories, and a floating point result depends on every bit of the input", "anchors": ["src/position_postprocessor/navigation_time_smoother.cpp: getTimeSmoothedPosition"]}
{"id": "C160", "title": "Rounding errors of the fusion of indoor and satellite positions", "statement": "In double precision arithmetic the rounding errors of the fusion do not add up: after every history of calls in which each source gives positions in the order of their times, the two stored positions are the exact ones and the two stored deviations are within 3e-15 of the greatest deviation of the exact ones. Where the choice is not on the edge (no age within a microsecond above the limit, distance and accuracies that differ, deviations that differ), the answer is exactly the exact answer when that is the position of one source; when the two are fused it has the level, the time and all other fields of the exact one, its deviation is within 4e-15 of the greatest deviation, and each coordinate is within 4e-15 (over the relative size of the deviations) of the distance of the two positions plus 2e-15 of the greatest coordinate.", "quantifier": "all histories of calls with positions of each source in the order of their times, all settings and accuracies up to S, all coordinates up to M, all roundings to double that satisfy the IEEE 754 error bound and keep 53-bit numbers", "why_tests_cant": "the stored deviations feed back into themselves without end, and a floating point result depends on every bit of the input", "anchors": ["src/position_postprocessor/position_postprocessor.cpp: fusePositions, fillIndoorOutdoorPositionStates"]}
{"id": "C161", "title": "Rounding does not change the floor of the barometer", "statement": "In double precision arithmetic, with pressures between 300 and 1100 millibar and a logarithm of the C library that is within 1e-15 of the exact one between a quarter and four, the barometer answers the same floor as in exact arithmetic and remembers the same readings and the same floor, after every history of calls in which the height between the two windows of readings was never within ten nanometres of the two metres that count as a change of floor.", "quantifier": "all histories of calls of any length, all floors detected, all pressures between 300 and 1100 millibar, all roundings to double that satisfy the IEEE 754 error bound, all logarithm functions of that accuracy", "why_tests_cant": "a floor that is once taken over wrongly is kept, so one wrong comparison in any history would be seen later; which comparison is wrong depends on every bit of 202 readings", "anchors": ["src/level_estimator/barometer.cpp: checkLevelChange, updateLevel, calcMean, BAROMETER_PASCAL_TO_METERS"]}
{"id": "C162", "title": "Rounding and the floor by transmitters", "statement": "In double precision arithmetic, with at most ten thousand measurements and with signal levels and transmitter powers up to 1000, the detection of the floor by transmitters does not throw and answers a floor that is heard and whose score (mean level, plus mean power if powers are used, over one plus a tenth of the share of measurements heard there) is at most 1e-8 below the best. Where one floor leads by more than 1e-8 the answer is that floor, as in exact arithmetic. The empty id is answered only when no floor that is heard scores more than 1e-8 above -1000.", "quantifier": "all buildings, all lists of up to ten thousand measurements, both settings of the use of powers, all roundings to double that satisfy the IEEE 754 error bound", "why_tests_cant": "the order of the scores of floors depends on every bit of every measurement", "anchors": ["src/level_estimator/level_estimator_transmitters.cpp: detectCurrentLevel, getAverageRssi, getAverageA"]}
{"id": "C163", "title": "Rounding and the floor by fingerprints", "statement": "In double precision arithmetic, with up to a million measurements, up to a million fingerprints per floor and signal levels up to 1000, the detection of the floor by fingerprints with useBestRefPointLevel off does not throw. The rounded score of every floor (number of measurements that have a fingerprint there, times the sum of their mean closeness) is within 5e-10 of the exact score, relatively. The answer is a floor with a positive score that is at least the best one up to one part in 1e9. The empty id is answered only when every score is exactly zero. Where one floor leads by more than one part in 1e9, the answer is that floor, as in exact arithmetic.", "quantifier": "all buildings with up to a million fingerprints per floor, all lists of up to a million measurements, all roundings to double that satisfy the IEEE 754 error bound", "why_tests_cant": "the order of the scores of floors depends on every bit of every measurement and of every fingerprint", "anchors": ["src/level_estimator/level_estimator_radiomap.cpp: detectCurrentLevel, calcWeight"]}
{"id": "C164", "title": "Rounding and the floor by the best reference point", "statement": "In double precision arithmetic and with a library pow accurate to nine digits, for up to a million measurements of usual size of which no reference point has a sum of shares within a tenth of the threshold 1e-8, the detection of the floor by fingerprints with useBestRefPointLevel on does not throw. The rounded weight of the best reference point of every floor is within 1e-6 of the exact one, relatively. The answer is a floor with a reference point that has three matches, whose best weight is at least the best of all floors up to three parts in a million. The empty id is answered only when no reference point of any floor has three matches. Where one floor leads by more than three parts in a million, the answer is that floor, as in exact arithmetic.", "quantifier": "all buildings and all lists of measurements of that size, all roundings to double that satisfy the IEEE 754 error bound, all functions pow of that accuracy", "why_tests_cant": "the order of the weights depends on every bit of every measurement and of every fingerprint, and on the library's pow", "anchors": ["src/level_estimator/level_estimator_radiomap.cpp: detectCurrentLevel, calcWeightBestRp", "src/knn/knn_utils.cpp: calcRpWeightsKnn"]}
