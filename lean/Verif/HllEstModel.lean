import Verif.HllProps
import Verif.HllTables
import Mathlib.Analysis.SpecialFunctions.Log.Basic
import Mathlib.Analysis.SpecialFunctions.Sqrt

/-!
# Model of the HLL estimators and bounds (`/repo/hll`)

`float64` is modelled by exact rationals, and by reals where a logarithm or a square root enters;
rounding, overflow, infinities and NaN are not modelled.  A sketch carries its HIP accumulator as a
rational (`Sk ℚ`).
-/

namespace Verif.Hll

/-! ## Cubic interpolation -/

/-- hll/cubic_interpolation.go l.96-113 `cubicInterpolate` -/
def cubic (x0 y0 x1 y1 x2 y2 x3 y3 x : ℚ) : ℚ :=
  y0 * ((x - x1) * (x - x2) * (x - x3)) / ((x0 - x1) * (x0 - x2) * (x0 - x3)) +
  y1 * ((x - x0) * (x - x2) * (x - x3)) / ((x1 - x0) * (x1 - x2) * (x1 - x3)) +
  y2 * ((x - x0) * (x - x1) * (x - x3)) / ((x2 - x0) * (x2 - x1) * (x2 - x3)) +
  y3 * ((x - x0) * (x - x1) * (x - x2)) / ((x3 - x0) * (x3 - x1) * (x3 - x2))

/-- hll/cubic_interpolation.go l.124-144 `recursiveFindStraddle`; the first argument bounds the depth
of the recursion, exceeding it is `Outcome.panic` -/
def straddleLoop (xs : List ℚ) (x : ℚ) : Nat → Nat → Nat → Outcome Nat
  | 0, _, _ => .panic
  | n + 1, left, right =>
    if left ≥ right then .err "left >= right"
    else do
      let l ← Outcome.ofOption xs[left]?
      let r ← Outcome.ofOption xs[right]?
      if l > x ∨ x ≥ r then .err "X value out of range"
      else if left + 1 = right then .ok left
      else do
        let m ← Outcome.ofOption xs[left + (right - left) / 2]?
        if m ≤ x then straddleLoop xs x n (left + (right - left) / 2) right
        else straddleLoop xs x n left (left + (right - left) / 2)

/-- hll/cubic_interpolation.go l.116-121 `findStraddle` -/
def findStraddle (xs : List ℚ) (x : ℚ) : Outcome Nat :=
  if xs.length < 2 then .err "X value out of range"
  else do
    let l ← Outcome.ofOption xs[0]?
    let r ← Outcome.ofOption xs[xs.length - 1]?
    if x < l ∨ x > r then .err "X value out of range"
    else straddleLoop xs x xs.length 0 (xs.length - 1)

/-- hll/cubic_interpolation.go l.50-57 `interpolateUsingXAndYTables`; with `ys` the multiples of the
stride it is l.87-92 `interpolateUsingXArrAndYStride` -/
def interpolate (xs ys : List ℚ) (o : Nat) (x : ℚ) : Outcome ℚ := do
  let x0 ← Outcome.ofOption xs[o]?
  let y0 ← Outcome.ofOption ys[o]?
  let x1 ← Outcome.ofOption xs[o + 1]?
  let y1 ← Outcome.ofOption ys[o + 1]?
  let x2 ← Outcome.ofOption xs[o + 2]?
  let y2 ← Outcome.ofOption ys[o + 2]?
  let x3 ← Outcome.ofOption xs[o + 3]?
  let y3 ← Outcome.ofOption ys[o + 3]?
  .ok (cubic x0 y0 x1 y1 x2 y2 x3 y3 x)

/-- the choice of the four points, hll/cubic_interpolation.go l.35-47 and l.72-84 -/
def interpolateAt (xs ys : List ℚ) (o : Nat) (x : ℚ) : Outcome ℚ :=
  if o > xs.length - 2 then .err "offset out of range"
  else if o = 0 then interpolate xs ys o x
  else if o = xs.length - 2 then interpolate xs ys (o - 2) x
  else interpolate xs ys (o - 1) x

/-- hll/cubic_interpolation.go l.23-48 `usingXAndYTables` -/
def usingXAndYTables (xs ys : List ℚ) (x : ℚ) : Outcome ℚ :=
  if xs.length < 4 ∨ xs.length ≠ ys.length then .err "X value out of range"
  else do
    let r ← Outcome.ofOption xs[xs.length - 1]?
    if x = r then Outcome.ofOption ys[ys.length - 1]?
    else do
      let o ← findStraddle xs x
      interpolateAt xs ys o x

/-- hll/cubic_interpolation.go l.59-85 `usingXArrAndYStride` -/
def usingXArrAndYStride (xs : List ℚ) (stride x : ℚ) : Outcome ℚ :=
  if xs.length < 4 then .err "X value out of range"
  else do
    let l ← Outcome.ofOption xs[0]?
    let r ← Outcome.ofOption xs[xs.length - 1]?
    if x < l ∨ x > r then .err "X value out of range"
    else if x = r then .ok (stride * ((xs.length - 1 : Nat) : ℚ))
    else do
      let o ← findStraddle xs x
      interpolateAt xs ((List.range xs.length).map fun i : Nat => stride * (i : ℚ)) o x

/-! ## The coupon estimate -/

/-- hll/coupon.go l.124-135 `couponMappingXArr` -/
def couponX : List ℚ := ([
  0, 1, 20, 400,
  8000, 160000, 300000, 600000,
  900000, 1200000, 1500000, 1800000,
  2100000, 2400000, 2700000, 3000000,
  3300000, 3600000, 3900000, 4200000,
  4500000, 4800000, 5100000, 5400000,
  5700000, 6000000, 6300000, 6600000,
  6900000, 7200000, 7500000, 7800000,
  8100000, 8400000, 8700000, 9000000,
  9300000, 9600000, 9900000, 10200000] : List Nat).map fun n : Nat => (n : ℚ)

/-- hll/coupon.go l.138-149 `couponMappingYArr`, in units of `10^-16` -/
def couponY : List ℚ := ([
  0, 10000000000000000, 200000009437402611, 4000003963713384110,
  80001589294602090376, 1600636067763759638183, 3002237071597663452849, 6008955933856170158833,
  9020168065120954997838, 12035884983199508860707, 15056118245524743106216, 18080879449319066479802,
  21110180231759352609515, 24144032270142501220107, 27182447282051891088486, 30225437025524540804327,
  33273013299219091422856, 36325187942584538832307, 39381972836029687896371, 42443379901093561202288,
  45509421100616492331028, 48580108438911894336343, 51655453961938973516226, 54735469757476449012756,
  57820167955296505242586, 60909560727340159937739, 64003660287892958149314, 67102478893762007355690,
  70206028844453142955899, 73314322482349723577499, 76427372192891482263803, 79545190404754765331745,
  82667789590033423155546, 85795182264420464634895, 88927380987390466034412, 92064398362383283674717,
  95206247036988288164139, 98352939703129194676876, 101504489097250290215015, 104660908000503256917000] :
    List Nat).map fun n : Nat => (n : ℚ) / 10 ^ 16

/-- the interpolated count, the call hll/coupon.go l.77, 87, 98 -/
def couponRaw (n : Nat) : Outcome ℚ := usingXAndYTables couponX couponY n

/-- hll/coupon.go l.75-79 `getEstimate` -/
def couponEst (n : Nat) : Outcome ℚ := do
  let e ← couponRaw n
  .ok (max e n)

/-- hll/utils.go l.43-44 `couponRSE` -/
def couponRse : ℚ := 409 / 1000 / 2 ^ 13

/-- hll/utils.go l.137-142 `checkNumStdDev` -/
def checkDev (d : Int) : Outcome Unit :=
  if d < 1 ∨ d > 3 then .err "NumStdDev may not be less than 1 or greater than 3" else .ok ()

/-- hll/coupon.go l.81-90 `getUpperBound` -/
def couponUpper (n : Nat) (d : Int) : Outcome ℚ := do
  let _ ← checkDev d
  let e ← couponRaw n
  .ok (max (e / (1 - d * couponRse)) n)

/-- hll/coupon.go l.92-101 `getLowerBound` -/
def couponLower (n : Nat) (d : Int) : Outcome ℚ := do
  let _ ← checkDev d
  let e ← couponRaw n
  .ok (max (e / (1 + d * couponRse)) n)

/-- The accumulator arithmetic: `addToHipAccum(2^lgK / (kxq0 + kxq1))` (hll/hll_array.go l.270; the
registers are integers in units of `2^-63`) and the estimate taken over at a promotion
(hll/coupon_list.go l.135-139, coupon_hash_set.go l.162-166).  An error of the latter would be
returned there; `couponEst_ok` shows that there is none. -/
def hipFl : Fl ℚ where
  zero := 0
  step := fun lgK q0 q1 h => h + 2 ^ lgK / (((q0 + q1 : Int) : ℚ) / 2 ^ 63)
  est := fun n => match couponEst n with
    | .ok e => e
    | _ => 0

/-! ## The composite estimate -/

/-- hll/composite_interpolation_xtables.go l.22 `compositeInterpolationYstrides` -/
def yStrides : List Nat :=
  [1, 2, 3, 5, 10, 20, 40, 80, 160, 320, 640, 1280, 2560, 5120, 10240, 20480, 40960, 81920]

/-- hll/hll_estimator.go l.100-110, the correction factor in `getHllRawEstimate` -/
def correction (lgK : Nat) : ℚ :=
  if lgK = 4 then 673 / 1000
  else if lgK = 5 then 697 / 1000
  else if lgK = 6 then 709 / 1000
  else (7213 / 10000) / (1 + (1079 / 1000) / 2 ^ lgK)

/-- hll/hll_estimator.go l.98-113 `getHllRawEstimate` -/
def rawEst (lgK : Nat) (kxqSum : ℚ) : ℚ := correction lgK * 2 ^ lgK * 2 ^ lgK / kxqSum

/-- hll/harmonic_numbers.go l.29-55 `tableOfExactHarmonicNumbers` -/
def harmonicTab : List ℚ := [
  0, 1, 15 / 10, 11 / 6, 25 / 12, 137 / 60, 49 / 20, 363 / 140, 761 / 280, 7129 / 2520,
  7381 / 2520, 83711 / 27720, 86021 / 27720, 1145993 / 360360, 1171733 / 360360,
  1195757 / 360360, 2436559 / 720720, 42142223 / 12252240, 14274301 / 4084080,
  275295799 / 77597520, 55835135 / 15519504, 18858053 / 5173168, 19093197 / 5173168,
  444316699 / 118982864, 1347822955 / 356948592]

/-- hll/harmonic_numbers.go l.24 `eulerMascheroniConstant` -/
noncomputable def gammaC : ℝ := 577215664901532860606512090082 / 10 ^ 30

/-- hll/harmonic_numbers.go l.66-86 `harmonicNumber` -/
noncomputable def harmonicNumber (n : Nat) : ℝ :=
  if n < 25 then ((harmonicTab.getD n 0 : ℚ) : ℝ)
  else Real.log n + gammaC + 1 / (2 * n) - (1 / (n * n : ℝ)) * (1 / 12)
    + (1 / (n * n : ℝ)) ^ 2 * (1 / 120) - (1 / (n * n : ℝ)) ^ 3 * (1 / 252)
    + (1 / (n * n : ℝ)) ^ 4 * (1 / 240)

/-- hll/harmonic_numbers.go l.61-63 `getBitMapEstimate` -/
noncomputable def bitMapEst (len set : Nat) : ℝ :=
  len * (harmonicNumber len - harmonicNumber (len - set))

/-- hll/hll_estimator.go l.81-95 `getHllBitMapEstimate`; a number of empty slots outside
`0 .. 2^lgK` would make the harmonic number panic or fail -/
noncomputable def linEst (lgK : Nat) (curMin : Nat) (num : Int) : ℝ :=
  if (if curMin = 0 then num else 0) = 0 then 2 ^ lgK * Real.log (2 ^ lgK / (1 / 2))
  else bitMapEst (2 ^ lgK) (2 ^ lgK - (if curMin = 0 then num else 0).toNat)

/-- hll/hll_estimator.go l.65-70 the crossover point -/
def crossOver (lgK : Nat) : ℚ :=
  if lgK = 4 then 718 / 1000 else if lgK = 5 then 672 / 1000 else 64 / 100

/-- hll/hll_estimator.go l.50-76, given the adjusted estimate -/
noncomputable def chooseEst (lgK curMin : Nat) (num : Int) (adj : ℚ) : ℝ :=
  if adj > 3 * 2 ^ lgK then adj
  else if ((adj : ℝ) + linEst lgK curMin num) / 2 > crossOver lgK * 2 ^ lgK then adj
  else linEst lgK curMin num

/-- the table row of `lgK` -/
def xArr (lgK : Nat) : Outcome (List ℚ) :=
  Outcome.ofOption ((xTab lgK).map fun t => t.map fun n : Nat => (n : ℚ) / 10 ^ 12)

/-- the stride of `lgK` -/
def yStride (lgK : Nat) : Outcome ℚ :=
  Outcome.ofOption ((yStrides[lgK - 4]?).map fun n : Nat => (n : ℚ))

/-- hll/hll_estimator.go l.26-77 `hllCompositeEstimate` -/
noncomputable def Arr.compositeEst (a : Arr ℚ) : Outcome ℝ := do
  let raw := rawEst a.lgK (((a.kxq0 + a.kxq1 : Int) : ℚ) / 2 ^ 63)
  let xs ← xArr a.lgK
  let stride ← yStride a.lgK
  let l ← Outcome.ofOption xs[0]?
  if raw < l then .ok 0
  else do
    let r ← Outcome.ofOption xs[xs.length - 1]?
    if raw > r then .ok ((raw * (stride * ((xs.length - 1 : Nat) : ℚ) / r) : ℚ) : ℝ)
    else do
      let adj ← usingXArrAndYStride xs stride raw
      .ok (chooseEst a.lgK a.curMin a.num adj)

/-! ## Estimates and bounds of a sketch -/

/-- hll/hll_array.go l.89-94 `GetEstimate` -/
noncomputable def Arr.getEstimate (a : Arr ℚ) : Outcome ℝ :=
  if a.ooo then a.compositeEst else .ok (a.hip : ℝ)

/-- hll/relative_error_tables.go l.24-35 `hipLB` -/
def hipLB : List ℚ := [
  207316195, 502865572, 882303765, 146981579, 335426881, 557052000,
  104026721, 227683872, 365888317, 73614601, 156781585, 245740374,
  52052480, 108783763, 168030442, 36770852, 75727545, 115937850,
  25990219, 53145536, 80772263, 18373987, 37266176, 56271814,
  12936253, 26138290, 39387631].map fun n : Int => (n : ℚ) / 10 ^ 9

/-- hll/relative_error_tables.go l.38-49 `hipUB` -/
def hipUB : List ℚ := [
  -207805347, -355574279, -475535095, -146988328, -262390832, -360864026,
  -103877775, -191503663, -269311582, -73452978, -138513438, -198487447,
  -51982806, -99703123, -144128618, -36768609, -71381580, -104430324,
  -25991325, -50854296, -74814300, -18345330, -36121138, -53276160,
  -12920332, -25572893, -37896952].map fun n : Int => (n : ℚ) / 10 ^ 9

/-- hll/relative_error_tables.go l.52-63 `nonHipLB` -/
def nonHipLB : List ℚ := [
  254409839, 682266712, 1304022158, 181817353, 443389054, 778776219,
  129432281, 295782195, 492522790, 91640655, 201175925, 323664385,
  64858051, 138523393, 218805328, 45851855, 95925072, 148635751,
  32454144, 67009668, 102660669, 22921382, 46868565, 71307398,
  16155679, 32825719, 49677541].map fun n : Int => (n : ℚ) / 10 ^ 9

/-- hll/relative_error_tables.go l.66-77 `nonHipUB` -/
def nonHipUB : List ℚ := [
  -256980172, -411905944, -526510570, -182332109, -310275547, -412660505,
  -129314228, -230142294, -315636197, -91584836, -168340130, -236346847,
  -64874110, -122045231, -174112107, -45914650, -87845050, -126917615,
  -32433119, -62897613, -91862929, -22960633, -44875401, -65736049,
  -16186662, -31827816, -46973459].map fun n : Int => (n : ℚ) / 10 ^ 9

/-- the table of hll/relative_error_tables.go l.79-96 `getRelErrKLT12` -/
def relErrTab (upper ooo : Bool) : List ℚ :=
  match ooo, upper with
  | false, false => hipLB
  | false, true => hipUB
  | true, false => nonHipLB
  | true, true => nonHipUB

/-- hll/utils.go l.52-53 `hllHipRSEFActor`, `hllNonHipRSEFactor` -/
noncomputable def rseFactor (ooo : Bool) : ℝ :=
  if ooo then Real.sqrt (3 * Real.log 2 - 1) else Real.sqrt (Real.log 2)

/-- hll/hll_estimator.go l.148-162 `getRelErrAllK` -/
noncomputable def relErr (upper ooo : Bool) (lgK : Nat) (d : Int) : Outcome ℝ :=
  if 4 ≤ lgK ∧ lgK ≤ 21 then
    if lgK > 12 then .ok (d * rseFactor ooo / Real.sqrt (2 ^ lgK))
    else do
      let f ← Outcome.ofOption (relErrTab upper ooo)[(lgK - 4) * 3 + (d - 1).toNat]?
      .ok |(f : ℝ)|
  else .err "log K must be between 4 and 21, inclusive"

/-- hll/hll_array.go l.109-115 `GetUpperBound`, hll_estimator.go l.115-127 `hllUpperBound` -/
noncomputable def Arr.upperBound (a : Arr ℚ) (d : Int) : Outcome ℝ := do
  let _ ← checkDev d
  let est ← a.getEstimate
  let re ← relErr true a.ooo a.lgK d
  .ok (est / (1 - re))

/-- hll/hll_estimator.go l.131-135, the number of slots hit -/
def Arr.nonZeros (a : Arr ℚ) : Int := if a.curMin = 0 then 2 ^ a.lgK - a.num else 2 ^ a.lgK

/-- hll/hll_array.go l.117-123 `GetLowerBound`, hll_estimator.go l.129-146 `hllLowerBound` -/
noncomputable def Arr.lowerBound (a : Arr ℚ) (d : Int) : Outcome ℝ := do
  let _ ← checkDev d
  let est ← a.getEstimate
  let re ← relErr false a.ooo a.lgK d
  .ok (max (est / (1 + re)) (a.nonZeros : ℝ))

/-- a rational result as a real one -/
noncomputable def toReal (x : Outcome ℚ) : Outcome ℝ := do
  let e ← x
  .ok (e : ℝ)

/-- hll/hll_sketch.go l.244 `GetEstimate` (coupon_list.go l.34, coupon_hash_set.go l.34) -/
noncomputable def Sk.getEstimate : Sk ℚ → Outcome ℝ
  | .list c => toReal (couponEst c.count)
  | .set c => toReal (couponEst c.count)
  | .hll a => a.getEstimate

/-- hll/hll_sketch.go l.240 `GetCompositeEstimate` (coupon_list.go l.30, coupon_hash_set.go l.30) -/
noncomputable def Sk.compositeEstimate : Sk ℚ → Outcome ℝ
  | .list c => toReal (couponEst c.count)
  | .set c => toReal (couponEst c.count)
  | .hll a => a.compositeEst

/-- hll/hll_sketch.go l.252 `GetUpperBound` -/
noncomputable def Sk.upperBound (s : Sk ℚ) (d : Int) : Outcome ℝ :=
  match s with
  | .list c => toReal (couponUpper c.count d)
  | .set c => toReal (couponUpper c.count d)
  | .hll a => a.upperBound d

/-- hll/hll_sketch.go l.256 `GetLowerBound` -/
noncomputable def Sk.lowerBound (s : Sk ℚ) (d : Int) : Outcome ℝ :=
  match s with
  | .list c => toReal (couponLower c.count d)
  | .set c => toReal (couponLower c.count d)
  | .hll a => a.lowerBound d

end Verif.Hll
