import Verif.Nav.Spec
import Verif.Estim.FilterProps

/-!
# Specification vocabulary for C120: a client that hears no transmitter
-/

namespace Verif.Outdoor

open Verif.Levels Verif.Nav Verif.Estim
open Verif.Geo (XYPoint)

/-- At each message of the history: its time, the last sensor message and the last NMEA message so far. -/
noncomputable def calls (g : Garbage) (ms : List Measurement) : List Call :=
  (List.range ms.length).filterMap fun k => ms[k]?.map fun m =>
    ⟨m.ts, lastSensor g.sensor (ms.take (k + 1)), lastNmea g.nmea (ms.take (k + 1)), false⟩

/-- The fix passes the three-sigma test against the last fixes before it, of which there are enough (C34). -/
def Passes (cs : CommonSettings) (ls : List Level) (before : List Call) (k : Call) (l : Level) : Prop :=
  let old := sinceClear (filterUses cs (collect ls) before ++ clearing cs k)
  let recent := lastN cs.sigmaFilterWindow old
  cs.sigmaFilterWindow ≤ old.length ∧ Within3Sigma (recent.map XYPoint.x) cs.sigmaFilterDelta (fixOn k l).x ∧
    Within3Sigma (recent.map XYPoint.y) cs.sigmaFilterDelta (fixOn k l).y

/-- A message at which a fix is taken over: the last sensor message is a fix, the level is the first one that covers it, enough
satellites are announced, and with the filter on the fix passes the test. -/
def Accepted (cs : CommonSettings) (ls : List Level) (before : List Call) (k : Call) (l : Level) : Prop :=
  IsFix k ∧ FirstCovering cs (collect ls) k l ∧ SatellitesOk cs k ∧ (cs.useGpsSigmaFilter = true → Passes cs ls before k l)

/-- The last message at which a fix is taken over is `k`. -/
def LastAccepted (cs : CommonSettings) (ls : List Level) (ks : List Call) (k : Call) (l : Level) : Prop :=
  ∃ a b, ks = a ++ k :: b ∧ Accepted cs ls a k l ∧ ∀ b1 j b2, b = b1 ++ j :: b2 → ∀ l', ¬ Accepted cs ls (a ++ k :: b1) j l'

/-- No fix is ever taken over. -/
def NoneAccepted (cs : CommonSettings) (ls : List Level) (ks : List Call) : Prop :=
  ∀ a j b, ks = a ++ j :: b → ∀ l, ¬ Accepted cs ls a j l

/-- With the filter on, the times are positive and strictly increasing. -/
def Timed (cs : CommonSettings) (ms : List Measurement) : Prop :=
  cs.useGpsSigmaFilter = true → (∀ m ∈ ms, 0 < m.ts) ∧ ms.Pairwise (fun a b => a.ts < b.ts)

end Verif.Outdoor
