import Verif.Nav.Spec

/-!
# Specification for C131: what of a message matters
-/

namespace Verif.Unread

open Verif Verif.Levels Verif.Nav

/-- The transmission power of a signal is read: fingerprints locate, or the best reference point gives the floor. -/
def PowerRead (cs : CommonSettings) : Prop := cs.useAlgorithm = .KNN ∨ (cs.useRadiomap = true ∧ cs.useBestRefPointLevel = true)

/-- The number of satellites an NMEA message reports, 0 for none: only the first sentence counts. -/
def satellites (n : NmeaData) : Int := if n.sentenceNumber = 1 then n.satellitesNumber else 0

/-- Two messages of the same kind and time that agree in what matters:

* of a signal: kind, transmitter, strength, and sometimes the power; not the measured distance and its deviation;
* of a pressure: the first number, if the barometer is in use; of an orientation: the first number; of another sensor: everything;
* of an NMEA message: the number of satellites, if it is the first sentence. -/
def SameRead (cs : CommonSettings) (m m' : Measurement) : Prop :=
  m'.ts = m.ts ∧
  match m.data, m'.data with
  | .radio r, .radio r' => r'.type = r.type ∧ r'.id = r.id ∧ r'.rssi = r.rssi ∧ (PowerRead cs → r'.power = r.power)
  | .sensor d, .sensor d' => d'.type = d.type ∧
    match d.type with
    | .BAROMETER => cs.useBarometer = true → d'.values.x = d.values.x
    | .ORIENTATION => d'.values.x = d.values.x
    | _ => d'.values = d.values
  | .nmea n, .nmea n' => satellites n' = satellites n
  | _, _ => False

/-- The same calls, message by message. -/
def AllSameRead (cs : CommonSettings) (calls calls' : List (List Measurement)) : Prop :=
  List.Forall₂ (List.Forall₂ (SameRead cs)) calls calls'

/-- An algorithm that sorts by comparisons of ids, time stamps or signal strengths does not notice a change of the rest. -/
structure ComparesOnly (s : Radio.Sorts) : Prop where
  byId : ∀ (f : RadioData → RadioData), (∀ r, (f r).id = r.id) →
    ∀ l, s.byId (l.map fun m => ⟨f m.data, m.ts⟩) = (s.byId l).map fun m => ⟨f m.data, m.ts⟩
  byTs : ∀ (f : RadioData → RadioData) l, s.byTs (l.map fun m => ⟨f m.data, m.ts⟩) = (s.byTs l).map fun m => ⟨f m.data, m.ts⟩
  byRssi : ∀ (f : RadioData → RadioData), (∀ r, (f r).rssi = r.rssi) → ∀ l, s.byRssi (l.map f) = (s.byRssi l).map f

end Verif.Unread
