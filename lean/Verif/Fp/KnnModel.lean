import Verif.Fp.Model
import Verif.Knn.Model

/-!
# The position by fingerprints in floating point

The functions of `Verif.Knn.Model` once more, with a rounding after each operation. `pow` is a library function whose accuracy no standard
fixes, so the trust in a measurement (`knn_utils.cpp` 158-169) is a parameter `trustF`; the theorems assume how near it is to the
exact value.
-/

namespace Verif.Fp

open Verif Verif.Knn Verif.Levels
open Verif.Geo (XYPoint)

variable (R : Rounding)

/-- `knn_utils.cpp` 171-193: `calcTransmittersWeights`. -/
noncomputable def transmittersWeightsF (trustF : RadioData → ℝ) (msr : List RadioData) : List (String × ℝ) :=
  let r := msr.foldl (fun (a : List (String × ℝ) × ℝ) m =>
    let w := trustF m
    (StdMap.set a.1 m.id w, R.rnd (a.2 + w))) ([], 0)
  r.1.map (fun p => (p.1, R.rnd (p.2 ÷ r.2)))

/-- `knn_utils.cpp` 242-246: the difference of the differences. -/
noncomputable def diffF (a b : SigStat) : ℝ :=
  R.rnd (R.rnd (a.database - b.database) - R.rnd (a.measured - b.measured))

/-- `knn_utils.cpp` 249, 257: the penalty, at least `MIN_RP_WEIGHT`. -/
noncomputable def penaltyF (d apW : ℝ) : ℝ := max (R.rnd (|d| * apW)) (R.rnd (1 / 1000000))

/-- `knn_utils.cpp` 240-251: the inner loop. -/
noncomputable def accInnerF (w : List (String × ℝ)) (a : SigStat) (before : List SigStat) (acc : ℝ × ℝ) : ℝ × ℝ :=
  before.foldl (fun acc b =>
    let apW := R.rnd (weightOf w a.txId * weightOf w b.txId)
    (R.rnd (acc.1 + penaltyF R (diffF R a b) apW), R.rnd (acc.2 + apW))) acc

/-- `knn_utils.cpp` 236-260: the loop over `it1`; `before` holds the entries already passed. -/
noncomputable def accOuterF (w : List (String × ℝ)) (diffMode : Bool) : List SigStat → List SigStat → ℝ × ℝ → ℝ × ℝ
  | _, [], acc => acc
  | before, a :: rest, acc =>
    let acc' := if diffMode then accInnerF R w a before acc
      else
        let apW := weightOf w a.txId
        (R.rnd (acc.1 + penaltyF R (R.rnd (a.database + a.measured)) apW), R.rnd (acc.2 + apW))
    accOuterF w diffMode (before ++ [a]) rest acc'

/-- `knn_utils.cpp` 268-293: normalise and invert. The number of signals is converted to `double`. -/
noncomputable def finishWeightF (n : ℕ) (acc : ℝ × ℝ) : ℝ :=
  if acc.1 > R.rnd (1 / 100000000) then
    let w1 := if acc.2 > R.rnd (1 / 100000000) then R.rnd (acc.1 ÷ acc.2) else acc.1
    let w2 := R.rnd (root w1)
    let w3 := if n > 0 then R.rnd (w2 ÷ R.rnd n) else w2
    R.rnd (1 ÷ w3)
  else acc.1

/-- `knn_utils.cpp` 201-297: `calcRpWeightsKnn`. -/
noncomputable def rpWeightsF (trustF : RadioData → ℝ) (radiomap : List Fingerprint) (msr : List RadioData) (diffMode : Bool) :
    List (String × ℝ) :=
  let w := transmittersWeightsF R trustF msr
  (rpStatistics radiomap msr).filterMap (fun p =>
    if p.2.length < 3 then none
    else some (p.1, finishWeightF R p.2.length (accOuterF R w diffMode [] p.2 (0, 0))))

/-- `knn_utils.cpp` 299-308: `getTriangleWeight`. -/
noncomputable def triangleWeightF (w : List (String × ℝ)) (t : RpTriangle) : ℝ :=
  R.rnd (R.rnd (weightOf w t.rp1 + weightOf w t.rp2) + weightOf w t.rp3)

/-- `knn_utils.cpp` 314-319: `std::max_element`, the first maximum. -/
noncomputable def maxElementF (w : List (String × ℝ)) : List RpTriangle → Option RpTriangle
  | [] => none
  | t :: ts => some (ts.foldl (fun best v => if triangleWeightF R w best < triangleWeightF R w v then v else best) t)

/-- `knn_utils.cpp` 346-347: the weighted mean of one coordinate. -/
noncomputable def meanF (w1 w2 w3 c1 c2 c3 norm : ℝ) : ℝ :=
  R.rnd (R.rnd (R.rnd (R.rnd (w1 * c1) + R.rnd (w2 * c2)) + R.rnd (w3 * c3)) ÷ norm)

/-- `knn_utils.cpp` 310-350: `calcPositionInTriangle`. -/
noncomputable def positionInTriangleF (triangles : List RpTriangle) (rm : Radiomap) (w : List (String × ℝ)) : Result XYPoint :=
  match maxElementF R w triangles with
  | none => .undefined
  | some t =>
    let w1 := weightOf w t.rp1
    let w2 := weightOf w t.rp2
    let w3 := weightOf w t.rp3
    let norm := R.rnd (R.rnd (w1 + w2) + w3)
    if norm < doubleEpsilon then .ok ⟨0, 0⟩
    else if !rm.hasReferencePoint t.rp1 || !rm.hasReferencePoint t.rp2 || !rm.hasReferencePoint t.rp3 then .ok ⟨0, 0⟩
    else match rm.getReferencePoint t.rp1, rm.getReferencePoint t.rp2, rm.getReferencePoint t.rp3 with
      | some a, some b, some c =>
        .ok ⟨meanF R w1 w2 w3 a.point.x b.point.x c.point.x norm, meanF R w1 w2 w3 a.point.y b.point.y c.point.y norm⟩
      | _, _, _ => .throws

/-- `position_estimator_knn.cpp` 36-100: `calculatePosition` with triangles. -/
noncomputable def calculatePositionF (trustF : RadioData → ℝ) (c : Cfg) (mPosition : Position) (level : Level) (ts : Int)
    (msr : List RadioData) : Result (NavigationStatus × Position) :=
  if msr.isEmpty then .ok (.NO_SOLUTION, mPosition)
  else match StdMap.find? c.refTransmitters level.id with
    | none => .throws
    | some ids =>
      let valid := getWhitelistedMeasurements ids msr
      if valid.length < c.minMsr then .ok (.NO_SOLUTION, mPosition)
      else match StdMap.find? c.radiomaps level.id with
        | none => .throws
        | some signalMap =>
          let w := rpWeightsF R trustF signalMap valid c.useDiffMode
          match StdMap.find? c.triangles level.id with
          | none => .ok (.NAVIGATION_ERROR, mPosition)
          | some triangles =>
            if triangles.isEmpty then .ok (.NO_RPS, mPosition)
            else match positionInTriangleF R triangles level.radiomap w with
              | .undefined => .undefined
              | .throws => .throws
              | .ok p => .ok (NavigationStatus.OK, (⟨p.x, p.y, level.id, 1, ts, false, .INDOOR, 0⟩ : Position))

end Verif.Fp
