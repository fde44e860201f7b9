import Verif.Standalone.RadioModel

/-!
# Model of `standalone_algorithms/position_estimation/examples/main.cpp`

The program that replays a log: it reads the transmitters and the measurements, forms packets and writes a line for each
position. A line of an input file is given by what the four stream extractions yield, `none` if one of them fails; a
file that cannot be opened has no lines. The text form of the written numbers and the messages on the console are not
modelled.
-/

namespace Verif.Standalone

/-- What `iss >> t.id >> t.x >> t.y >> typeStr` yields (lines 40-43). -/
structure TxLine where
  id : String
  x : ℝ
  y : ℝ
  typeStr : String

/-- What `iss >> msr.ts >> msr.id >> msr.rssi >> typeStr` yields (lines 70-73). -/
structure MsrLine where
  ts : Int
  id : String
  rssi : ℝ
  typeStr : String

/-- `examples/main.cpp` 29-57: `getTransmitters`; the type is not used afterwards. -/
def getTransmitters : List (Option TxLine) → List Tx
  | some l :: ls => ⟨l.id, l.x, l.y⟩ :: getTransmitters ls
  | _ => []

/-- `examples/main.cpp` 75-78: the type of a measurement; `find` looks for the text anywhere in the word. -/
def typeOf (typeStr : String) : MsrType :=
  if "WIFI".toList <:+: typeStr.toList then .WIFI else .BEACON

/-- `examples/main.cpp` 59-88: `getMeasurements`; the members that are not read have the values of
`include/navigation_structures.h` 36-43. -/
def getMeasurements : List (Option MsrLine) → List Msr
  | some l :: ls => ⟨typeOf l.typeStr, l.ts, l.id, l.rssi, 0, 0, 0, 0⟩ :: getMeasurements ls
  | _ => []

/-- `examples/main.cpp` 94-100: the body of the loop. -/
noncomputable def splitStep (s : MsrSorts) (st : Pre × List (List Msr)) (msr : Msr) : Pre × List (List Msr) :=
  let r := extract s (update st.1 msr)
  (r.2, if r.1.isEmpty then st.2 else st.2 ++ [r.1])

/-- `examples/main.cpp` 90-103: `splitToPackets`; the preprocessor has the default settings of
`include/measurement_preprocessor.h` 33-36. -/
noncomputable def splitToPackets (s : MsrSorts) (input : List Msr) : List (List Msr) :=
  (input.foldl (splitStep s) (Pre.init 3 2 true true, [])).2

/-- A line of `output.log` (line 125). -/
structure OutLine where
  ts : Int
  x : ℝ
  y : ℝ
  precision : ℝ

/-- `examples/main.cpp` 122-126: the body of the loop. -/
noncomputable def mainStep (st : NearestTx × List OutLine) (msr : List Msr) : NearestTx × List OutLine :=
  let r := calculatePosition st.1 msr
  (r.2, if r.1.isEmpty = false then st.2 ++ [⟨r.1.ts, r.1.x, r.1.y, r.1.precision⟩] else st.2)

/-- `examples/main.cpp` 105-132: `main`, as the lines of `output.log`. -/
noncomputable def positionMain (s : MsrSorts) (transmittersFile : List (Option TxLine))
    (measurementsFile : List (Option MsrLine)) : List OutLine :=
  let transmitters := getTransmitters transmittersFile
  let packets := splitToPackets s (getMeasurements measurementsFile)
  (packets.foldl mainStep (NearestTx.init transmitters, [])).2

end Verif.Standalone
