import Verif.JsonIn.Lemmas

/-!
# Measurement logs (C87)
-/

namespace Verif.JsonIn

open Verif.Knn (Result)

theorem getLongLong_int {n : Int} (h1 : -2 ^ 63 ≤ n) (h2 : n < 2 ^ 63) : getLongLong (.int n) = .ok n := by
  simp only [getLongLong, getSigned, Result.ok.injEq]
  exact Int.bmod_eq_of_le (by push_cast; omega) (by push_cast; omega)

theorem getInt_int {n : Int} (h1 : -2 ^ 31 ≤ n) (h2 : n < 2 ^ 31) : getInt (.int n) = .ok n := by
  simp only [getInt, getSigned, Result.ok.injEq]
  exact Int.bmod_eq_of_le (by push_cast; omega) (by push_cast; omega)

theorem at'_obj {o : List (String × Json)} {k : String} {v : Json} (h : StdMap.find? o k = some v) :
    at' (.obj o) k = .ok v := by
  simp [at', h]

theorem optionalDouble_obj {o : List (String × Json)} {k : String} {x : ℝ} (h : OptionalNumber o k x) :
    optionalDouble (.obj o) k 0 = .ok x := by
  rcases h with ⟨v, h1, h2⟩ | ⟨h1, rfl⟩
  · simp only [optionalDouble, h1]
    exact getDouble_eq_ok.mpr h2
  · simp [optionalDouble, h1]

theorem sensorOfJson_describes {o : List (String × Json)} {d : SensorData}
    (h1 : StdMap.find? o "type" = some (.int (sensorCode d.type)))
    (h2 : ∃ a b c, StdMap.find? o "values" = some (.arr [a, b, c]) ∧
        NumberIs a d.values.x ∧ NumberIs b d.values.y ∧ NumberIs c d.values.z) :
    sensorOfJson (.obj o) = .ok d := by
  obtain ⟨a, b, c, hv, ha, hb, hc⟩ := h2
  have ht : getSensorType (.int (sensorCode d.type)) = .ok d.type := by
    cases d.type <;> simp [getSensorType, enumOfInt, sensorCode]
  have hd : getDoubles (.arr [a, b, c]) = .ok [d.values.x, d.values.y, d.values.z] := by
    simp [getDoubles, getDoublesAux, getDouble_eq_ok.mpr ha, getDouble_eq_ok.mpr hb, getDouble_eq_ok.mpr hc,
      Result.bind, Result.map]
  simp [sensorOfJson, at'_obj h1, at'_obj hv, Result.bind, Result.map, ht, hd]

/-- The type a code of a radio measurement is read as. -/
theorem getRadioType_code (t : RadioType) :
    getRadioType (.int (radioCode t)) = .ok (if t = .EDDYSTONE then .WIFI else t) := by
  cases t <;> simp [getRadioType, enumOfInt, radioCode]

/-- A message that describes a measurement is read as this measurement; an Eddystone measurement is
read as one of an access point. -/
theorem measurementOfJson_describes {j : Json} {m : Measurement} (h : Describes j m) :
    measurementOfJson j = .ok (match m.data with
      | .radio d => ⟨.radio { d with type := if d.type = .EDDYSTONE then .WIFI else d.type }, m.ts⟩
      | _ => m) := by
  obtain ⟨o, rfl, hts, h1, h2, hm⟩ := h
  obtain ⟨data, ts⟩ := m
  dsimp only at hts h1 h2 hm ⊢
  cases data with
  | sensor d =>
    dsimp only at hm ⊢
    have ht : getInt (.int (sensorCode d.type)) = .ok (sensorCode d.type) :=
      getInt_int (by cases d.type <;> norm_num [sensorCode]) (by cases d.type <;> norm_num [sensorCode])
    have hr := sensorOfJson_describes hm.1 hm.2
    have hc : sensorCode d.type = 101 ∨ sensorCode d.type = 102 ∨ sensorCode d.type = 103 ∨ sensorCode d.type = 104 ∨
        sensorCode d.type = 105 ∨ sensorCode d.type = 106 := by cases d.type <;> simp [sensorCode]
    simp only [measurementOfJson, at'_obj hts, at'_obj hm.1, getLongLong_int h1 h2, ht, Result.bind, if_pos hc, hr,
      Result.map]
  | radio d =>
    dsimp only at hm ⊢
    obtain ⟨hty, hid, hr, hd, hp, hs⟩ := hm
    have ht : getInt (.int (radioCode d.type)) = .ok (radioCode d.type) :=
      getInt_int (by cases d.type <;> norm_num [radioCode]) (by cases d.type <;> norm_num [radioCode])
    have hc : radioCode d.type = 201 ∨ radioCode d.type = 202 ∨ radioCode d.type = 203 ∨ radioCode d.type = 204 ∨
        radioCode d.type = 205 := by cases d.type <;> simp [radioCode]
    have hn : ¬ (radioCode d.type = 101 ∨ radioCode d.type = 102 ∨ radioCode d.type = 103 ∨ radioCode d.type = 104 ∨
        radioCode d.type = 105 ∨ radioCode d.type = 106) := by cases d.type <;> simp [radioCode]
    simp only [measurementOfJson, at'_obj hts, at'_obj hty, getLongLong_int h1 h2, ht, Result.bind, if_neg hn, if_pos hc,
      Result.map, radioOfJson, getRadioType_code, at'_obj hid, getString, optionalDouble_obj hr, optionalDouble_obj hd]
    rw [hp, hs]
  | nmea d =>
    dsimp only at hm ⊢
    obtain ⟨hty, hsn, hns, a1, a2, a3, a4⟩ := hm
    have ht : getInt (.int 300) = .ok 300 := getInt_int (by norm_num) (by norm_num)
    simp [measurementOfJson, at'_obj hts, at'_obj hty, getLongLong_int h1 h2, ht, Result.bind,
      Result.map, nmeaOfJson, at'_obj hsn, at'_obj hns, getInt_int a1 a2, getInt_int a3 a4]

theorem getNavMessages_ok {lines : List (Option Json)} {ms : List Measurement} :
    getNavMessages lines = .ok ms ↔
      List.Forall₂ (fun l m => ∃ j, l = some j ∧ measurementOfJson j = .ok m) lines ms := by
  induction lines generalizing ms with
  | nil =>
    simp only [getNavMessages, Result.ok.injEq]
    constructor
    · rintro rfl; exact .nil
    · intro h; cases h; rfl
  | cons l ls ih =>
    cases l with
    | none =>
      simp only [getNavMessages, reduceCtorEq, false_iff]
      intro h
      cases h with
      | cons h _ => obtain ⟨j, h, -⟩ := h; simp at h
    | some j =>
      simp only [getNavMessages, bind_eq_ok, map_eq_ok]
      constructor
      · rintro ⟨m, hm, ms', hms, rfl⟩
        exact .cons ⟨j, rfl, hm⟩ (ih.mp hms)
      · intro h
        cases h with
        | cons h1 h2 =>
          obtain ⟨j', h1, h3⟩ := h1
          cases h1
          exact ⟨_, h3, _, ih.mpr h2, rfl⟩

/-! ### C87 -/

/-- **C87.** A log whose lines describe measurements, none of them Eddystone, is read as exactly these
measurements in this order. -/
theorem C87_log {lines : List (Option Json)} {ms : List Measurement}
    (h : List.Forall₂ (fun l m => ∃ j, l = some j ∧ Describes j m) lines ms) (he : ∀ m ∈ ms, ¬ IsEddystone m) :
    getNavMessages lines = .ok ms := by
  rw [getNavMessages_ok]
  induction h with
  | nil => exact .nil
  | @cons l m ls ms h1 h2 ih =>
    refine .cons ?_ (ih (fun m hm => he m (List.mem_cons_of_mem _ hm)))
    obtain ⟨j, rfl, hj⟩ := h1
    refine ⟨j, rfl, ?_⟩
    rw [measurementOfJson_describes hj]
    have hne := he m (List.mem_cons_self ..)
    obtain ⟨data, ts⟩ := m
    cases data with
    | radio d =>
      have : d.type ≠ .EDDYSTONE := fun e => hne ⟨d, rfl, e⟩
      simp [this]
    | _ => rfl

/-- **C87.** Reading succeeds only if every line can be read; the measurements then correspond to the
lines one by one, so that there are as many and each depends on its own line only. -/
theorem C87_lines {lines : List (Option Json)} {ms : List Measurement} (h : getNavMessages lines = .ok ms) :
    List.Forall₂ (fun l m => getNavMessages [l] = .ok [m]) lines ms ∧ ms.length = lines.length := by
  have h := getNavMessages_ok.mp h
  refine ⟨h.imp ?_, h.length_eq.symm⟩
  rintro l m ⟨j, rfl, hj⟩
  exact getNavMessages_ok.mpr (.cons ⟨j, rfl, hj⟩ .nil)

/-- **C87, finding.** No log yields an Eddystone measurement: a line that describes one is read as a
measurement of an access point (Wi-Fi) with the same identifier and values. -/
theorem C87_eddystone :
    (∀ lines ms, getNavMessages lines = .ok ms → ∀ m ∈ ms, ¬ IsEddystone m) ∧
    ∀ j d ts, Describes j ⟨.radio d, ts⟩ → d.type = .EDDYSTONE →
      getNavMessages [some j] = .ok [⟨.radio { d with type := .WIFI }, ts⟩] := by
  constructor
  · intro lines ms h
    replace h := getNavMessages_ok.mp h
    induction h with
    | nil => simp
    | @cons l m ls ms h1 h2 ih =>
      intro m' hm'
      rcases List.mem_cons.mp hm' with rfl | hm'
      · obtain ⟨j, rfl, hj⟩ := h1
        rintro ⟨d, hd, hdt⟩
        simp only [measurementOfJson, bind_eq_ok] at hj
        obtain ⟨t, -, ts, -, y, -, ty, -, hj⟩ := hj
        have key : ∀ d, radioOfJson j = .ok d → d.type ≠ .EDDYSTONE := by
          intro d h
          simp only [radioOfJson, bind_eq_ok, map_eq_ok] at h
          obtain ⟨t, -, ty, hty, b, -, id, -, r, -, di, -, rfl⟩ := h
          dsimp only
          rintro rfl
          rcases enumOfInt_mem hty with h | ⟨e, he, h⟩
          · simp at h
          · simp only [List.mem_cons, List.not_mem_nil, or_false] at he
            rcases he with rfl | rfl | rfl | rfl <;> simp at h
        split_ifs at hj
        · obtain ⟨a, -, rfl⟩ := map_eq_ok.mp hj
          simp at hd
        · obtain ⟨a, ha, rfl⟩ := map_eq_ok.mp hj
          simp only [MeasurementData.radio.injEq] at hd
          subst hd
          exact key a ha hdt
        · obtain ⟨a, -, rfl⟩ := map_eq_ok.mp hj
          simp at hd
        · simp only [Result.ok.injEq] at hj
          subst hj
          simp only [defaultData, MeasurementData.radio.injEq] at hd
          subst hd
          simp at hdt
      · exact ih m' hm'
  · intro j d ts h hd
    rw [getNavMessages_ok]
    refine .cons ⟨j, rfl, ?_⟩ .nil
    rw [measurementOfJson_describes h]
    simp [hd]

/-- **C87, finding.** A line with a type that is none of the known numbers is not skipped: it becomes a
measurement of an access point with the empty identifier and signal strength 0. -/
theorem C87_unknown_type {o : List (String × Json)} {ts k : Int} (hts : StdMap.find? o "timestamp" = some (.int ts))
    (h1 : -2 ^ 63 ≤ ts) (h2 : ts < 2 ^ 63) (hk : StdMap.find? o "type" = some (.int k)) (h3 : -2 ^ 31 ≤ k) (h4 : k < 2 ^ 31)
    (hs : ∀ t, k ≠ sensorCode t) (hr : ∀ t, k ≠ radioCode t) (hn : k ≠ 300) :
    getNavMessages [some (.obj o)] = .ok [⟨.radio ⟨.WIFI, "", 0, 0, 0, 0⟩, ts⟩] := by
  rw [getNavMessages_ok]
  refine .cons ⟨_, rfl, ?_⟩ .nil
  have a1 : ¬ (k = 101 ∨ k = 102 ∨ k = 103 ∨ k = 104 ∨ k = 105 ∨ k = 106) := by
    rintro (h | h | h | h | h | h)
    · exact hs .ACCELEROMETER h
    · exact hs .GYROSCOPE h
    · exact hs .MAGNETOMETER h
    · exact hs .BAROMETER h
    · exact hs .ORIENTATION h
    · exact hs .LOCATION h
  have a2 : ¬ (k = 201 ∨ k = 202 ∨ k = 203 ∨ k = 204 ∨ k = 205) := by
    rintro (h | h | h | h | h)
    · exact hr .WIFI h
    · exact hr .BLUETOOTH h
    · exact hr .BEACON h
    · exact hr .EDDYSTONE h
    · exact hr .WIFI_RTT h
  simp only [measurementOfJson, at'_obj hts, at'_obj hk, getLongLong_int h1 h2, getInt_int h3 h4, Result.bind, if_neg a1,
    if_neg a2, if_neg hn, defaultData]

/-- **C87, finding.** A sensor line whose vector has not exactly three components is not rejected: it
becomes a measurement of the zero vector. -/
theorem C87_short_vector {o : List (String × Json)} {ts : Int} {t : SensorType} {l : List Json}
    (hts : StdMap.find? o "timestamp" = some (.int ts)) (h1 : -2 ^ 63 ≤ ts) (h2 : ts < 2 ^ 63)
    (ht : StdMap.find? o "type" = some (.int (sensorCode t))) (hv : StdMap.find? o "values" = some (.arr l))
    (hn : ∀ v ∈ l, ∃ x, NumberIs v x) (hl : l.length ≠ 3) :
    getNavMessages [some (.obj o)] = .ok [⟨.sensor ⟨t, ⟨0, 0, 0⟩⟩, ts⟩] := by
  rw [getNavMessages_ok]
  refine .cons ⟨_, rfl, ?_⟩ .nil
  have hd : ∃ xs, getDoublesAux l = .ok xs ∧ xs.length = l.length := by
    clear hv hl
    induction l with
    | nil => exact ⟨[], rfl, rfl⟩
    | cons v l ih =>
      obtain ⟨xs, hxs, hlen⟩ := ih (fun v hv => hn v (List.mem_cons_of_mem _ hv))
      obtain ⟨x, hx⟩ := hn v (List.mem_cons_self ..)
      exact ⟨x :: xs, by simp [getDoublesAux, getDouble_eq_ok.mpr hx, hxs, Result.bind, Result.map], by simp [hlen]⟩
  obtain ⟨xs, hxs, hlen⟩ := hd
  have hty : getSensorType (.int (sensorCode t)) = .ok t := by
    cases t <;> simp [getSensorType, enumOfInt, sensorCode]
  have hti : getInt (.int (sensorCode t)) = .ok (sensorCode t) :=
    getInt_int (by cases t <;> norm_num [sensorCode]) (by cases t <;> norm_num [sensorCode])
  have hc : sensorCode t = 101 ∨ sensorCode t = 102 ∨ sensorCode t = 103 ∨ sensorCode t = 104 ∨
      sensorCode t = 105 ∨ sensorCode t = 106 := by cases t <;> simp [sensorCode]
  simp only [measurementOfJson, at'_obj hts, at'_obj ht, getLongLong_int h1 h2, hti, Result.bind, if_pos hc,
    sensorOfJson, hty, at'_obj hv, getDoubles, hxs, Result.map]
  split
  · exact absurd hlen.symm hl
  · rfl

/-- A line of type 301 and a barometer line with one value. -/
example : getNavMessages [some (.obj [("timestamp", .int 5), ("type", .int 301)])] =
      .ok [⟨.radio ⟨.WIFI, "", 0, 0, 0, 0⟩, 5⟩] ∧
    getNavMessages [some (.obj [("timestamp", .int 5), ("type", .int 104), ("values", .arr [.real (1013 / 10)])])] =
      .ok [⟨.sensor ⟨.BAROMETER, ⟨0, 0, 0⟩⟩, 5⟩] := by
  constructor
  · exact C87_unknown_type (k := 301) (by simp [StdMap.find?]) (by norm_num) (by norm_num) (by simp [StdMap.find?])
      (by norm_num) (by norm_num) (by intro t; cases t <;> norm_num [sensorCode])
      (by intro t; cases t <;> norm_num [radioCode]) (by norm_num)
  · exact C87_short_vector (l := [.real (1013 / 10)]) (t := .BAROMETER) (by simp [StdMap.find?]) (by norm_num) (by norm_num)
      (by simp [StdMap.find?, sensorCode]) (by simp [StdMap.find?]) (by simp [NumberIs]) (by simp)

/-- A line of an Eddystone transmitter. -/
example : getNavMessages [some (.obj [("bssid", .str "e"), ("rssi", .int (-60)), ("timestamp", .int 5), ("type", .int 204)])] =
    .ok [⟨.radio ⟨.WIFI, "e", -60, 0, 0, 0⟩, 5⟩] :=
  C87_eddystone.2 _ ⟨.EDDYSTONE, "e", -60, 0, 0, 0⟩ 5
    ⟨_, rfl, by simp [StdMap.find?], by norm_num, by norm_num, by simp [StdMap.find?, radioCode], by simp [StdMap.find?],
      .inl ⟨.int (-60), by simp [StdMap.find?], .inl ⟨-60, rfl, by norm_num⟩⟩, .inr ⟨by simp [StdMap.find?], rfl⟩, rfl, rfl⟩ rfl

/-- A log of three lines: an accelerometer measurement, a beacon with an unknown member, satellites. -/
example : getNavMessages
    [some (.obj [("timestamp", .int 5), ("type", .int 101), ("values", .arr [.int 0, .real (1 / 2), .real (49 / 5)])]),
     some (.obj [("bssid", .str "(1,2,u)"), ("note", .null), ("rssi", .int (-70)), ("timestamp", .int 6), ("type", .int 203)]),
     some (.obj [("num_sats", .int 9), ("sentence_number", .int 3), ("timestamp", .int 7), ("type", .int 300)])] =
    .ok [⟨.sensor ⟨.ACCELEROMETER, ⟨0, 1 / 2, 49 / 5⟩⟩, 5⟩, ⟨.radio ⟨.BEACON, "(1,2,u)", -70, 0, 0, 0⟩, 6⟩,
      ⟨.nmea ⟨3, 9⟩, 7⟩] := by
  apply C87_log
  · refine .cons ⟨_, rfl, _, rfl, by simp [StdMap.find?], by norm_num, by norm_num, ?_⟩
      (.cons ⟨_, rfl, _, rfl, by simp [StdMap.find?], by norm_num, by norm_num, ?_⟩
      (.cons ⟨_, rfl, _, rfl, by simp [StdMap.find?], by norm_num, by norm_num, ?_⟩ .nil))
    · refine ⟨by simp [StdMap.find?, sensorCode], _, _, _, by simp only [StdMap.find?]; rfl, .inl ⟨0, rfl, by simp⟩, .inr rfl, .inr rfl⟩
    · refine ⟨by simp [StdMap.find?, radioCode], by simp [StdMap.find?],
        .inl ⟨.int (-70), by simp [StdMap.find?], .inl ⟨-70, rfl, by norm_num⟩⟩,
        .inr ⟨by simp [StdMap.find?], rfl⟩, rfl, rfl⟩
    · refine ⟨by simp [StdMap.find?], by simp [StdMap.find?], by simp [StdMap.find?], ?_⟩
      norm_num
  · rintro m hm ⟨d, h1, h2⟩
    simp only [List.mem_cons, List.not_mem_nil, or_false] at hm
    rcases hm with rfl | rfl | rfl <;> simp at h1
    subst h1
    simp at h2

/-- **C87, finding.** Integers of a satellite line that do not fit an `int` are taken modulo 2³² without notice. -/
theorem C87_wraps {o : List (String × Json)} {ts a b : Int} (hts : StdMap.find? o "timestamp" = some (.int ts))
    (h1 : -2 ^ 63 ≤ ts) (h2 : ts < 2 ^ 63) (hk : StdMap.find? o "type" = some (.int 300))
    (ha : StdMap.find? o "sentence_number" = some (.int a)) (hb : StdMap.find? o "num_sats" = some (.int b)) :
    ∃ a' b' : Int, getNavMessages [some (.obj o)] = .ok [⟨.nmea ⟨a', b'⟩, ts⟩] ∧
      (2 ^ 32 ∣ a - a' ∧ -2 ^ 31 ≤ a' ∧ a' < 2 ^ 31) ∧ 2 ^ 32 ∣ b - b' ∧ -2 ^ 31 ≤ b' ∧ b' < 2 ^ 31 := by
  have hw : ∀ n : Int, (2 ^ 32 : Int) ∣ n - Int.bmod n (2 ^ 32) ∧ -2 ^ 31 ≤ Int.bmod n (2 ^ 32) ∧ Int.bmod n (2 ^ 32) < 2 ^ 31 := by
    intro n
    unfold Int.bmod
    norm_num
    split_ifs <;> omega
  refine ⟨Int.bmod a (2 ^ 32), Int.bmod b (2 ^ 32), ?_, hw a, hw b⟩
  rw [getNavMessages_ok]
  refine .cons ⟨_, rfl, ?_⟩ .nil
  have ht : getInt (.int 300) = .ok 300 := getInt_int (by norm_num) (by norm_num)
  have hg : ∀ n : Int, getInt (.int n) = .ok (Int.bmod n (2 ^ 32)) := fun n => rfl
  simp [measurementOfJson, at'_obj hts, at'_obj hk, getLongLong_int h1 h2, ht, Result.bind,
    Result.map, nmeaOfJson, at'_obj ha, at'_obj hb, hg]

end Verif.JsonIn
