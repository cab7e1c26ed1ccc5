import Verif.Model.CMath
import Verif.Model.Int32

/-
Calendar conversions: cldj, caldj, clyd, calyd, djcl, djcal.
`int` values are mathematical integers with C's truncating `/` (`Int.tdiv`) and `%` (`Int.tmod`);
the `…32` variants evaluate the same expressions in 32-bit arithmetic with overflow as `none`.
-/
namespace Sla

/-- Status codes of cldj/caldj/clyd/calyd (src/slalib.h:62-68). -/
inductive G2JStatus
  | ok | badYear | badMonth | badDay
deriving DecidableEq, Repr

/-- src/slalib.cc:22-29 `process_year_defaults` -/
def processYearDefaults (year : Int) : Int :=
  if year ≥ 0 ∧ year ≤ 49 then year + 2000
  else if year ≥ 50 ∧ year ≤ 99 then year + 1900
  else year

/-- The table `days_in_month[12]` of src/slalib.cc:38-40, indexed by `month - 1`. -/
def daysInMonthTable : List Int := [31, 0, 31, 30, 31, 30, 31, 31, 30, 31, 30, 31]

/-- src/slalib.cc:31-44 `validate_gregorian_day`.  Only called with `1 ≤ month ≤ 12`; outside that
    range the C++ table access would be out of bounds (here `getD` yields 0). -/
def validateGregorianDay (year month day : Int) : G2JStatus :=
  let daysInGivenMonth : Int :=
    if month = 2 then
      (if year.tmod 4 = 0 ∧ (year.tmod 100 ≠ 0 ∨ year.tmod 400 = 0) then 29 else 28)
    else daysInMonthTable.getD (month - 1).toNat 0
  if day < 1 ∨ day > daysInGivenMonth then .badDay else .ok

/-- The integer expression of src/cldj.cc:40-43. -/
def cldjExpr (year month day : Int) : Int :=
  (1461 * (year - (12 - month).tdiv 10 + 4712)).tdiv 4
    + (306 * ((month + 9).tmod 12) + 5).tdiv 10
    - (3 * ((year - (12 - month).tdiv 10 + 4900).tdiv 100)).tdiv 4
    + day - 2399904

/-- src/cldj.cc:34-52 `cldj`.  `mjd` is the previous content of the output variable; the result is the
    status and the new content. -/
noncomputable def cldj (year month day : Int) (mjd : ℝ) : G2JStatus × ℝ :=
  if year ≥ -4699 then
    if month ≥ 1 ∧ month ≤ 12 then
      (validateGregorianDay year month day, ((cldjExpr year month day : Int) : ℝ))
    else (.badMonth, mjd)
  else (.badYear, mjd)

/-- src/caldj.cc:38-41 `caldj` -/
noncomputable def caldj (year month day : Int) (mjd : ℝ) : G2JStatus × ℝ :=
  cldj (processYearDefaults year) month day mjd

/-- src/clyd.cc:53-63: the computation of `(jyear, jday)`. -/
def clydExpr (year month day : Int) : Int × Int :=
  let i := (14 - month).tdiv 12
  let k := year - i
  let j := (1461 * (k + 4800)).tdiv 4 + (367 * (month - 2 + 12 * i)).tdiv 12
            - (3 * ((k + 4900).tdiv 100)).tdiv 4 + day - 30660
  let k := (j - 1).tdiv 1461
  let L := j - 1461 * k
  let N := (L - 1).tdiv 365 - L.tdiv 1461
  let j := ((80 * (L - 365 * N + 30)).tdiv 2447).tdiv 11
  let i := N + j
  let jday := 59 + L - 365 * i + ((4 - N).tdiv 4) * (1 - j)
  let jyear := 4 * k + i - 4716
  (jyear, jday)

/-- src/clyd.cc:47-73 `clyd`; `jyear`, `jday` are the previous contents of the outputs. -/
def clyd (year month day : Int) (jyear jday : Int) : G2JStatus × Int × Int :=
  if year ≥ -4711 then
    if month ≥ 1 ∧ month ≤ 12 then
      (validateGregorianDay year month day, clydExpr year month day)
    else (.badMonth, jyear, jday)
  else (.badYear, jyear, jday)

/-- src/calyd.cc:49-52 `calyd` -/
def calyd (year month day : Int) (jyear jday : Int) : G2JStatus × Int × Int :=
  clyd (processYearDefaults year) month day jyear jday

/-- The fields of `Date` (src/slalib.h) set by djcl and djcal. -/
structure CalDate where
  year : Int
  month : Int
  day : Int
deriving DecidableEq, Repr

/-- src/djcl.cc:51-56: calendar fields from the Julian day number `jd`. -/
def djclExpr (jd : Int) : CalDate :=
  let n4 := 4 * (jd + ((6 * ((4 * jd - 17918).tdiv 146097)).tdiv 4 + 1).tdiv 2 - 37)
  let nd10 := 10 * (((n4 - 237).tmod 1461).tdiv 4) + 5
  { year := n4.tdiv 1461 - 4712
    month := (nd10.tdiv 306 + 2).tmod 12 + 1
    day := (nd10.tmod 306).tdiv 10 + 1 }

/-- src/djcl.cc:36-60 `djcl`.  `none`: out of range, the function returns `true` and leaves `date`
    untouched.  `some (date, f)`: returns `false`, `f` is `d_fraction`. -/
noncomputable def djcl (mjd : ℝ) : Option (CalDate × ℝ) :=
  if mjd ≤ -2395520 ∨ mjd ≥ 1e9 then none
  else
    let f0 := cfmod mjd 1
    let f := if f0 < 0 then f0 + 1 else f0
    let d : ℝ := ((cround (mjd - f) : ℤ) : ℝ)
    let jd : Int := cround d + 2400001
    some (djclExpr jd, f)

/-- src/djcal.cc:61-66: as `djclExpr`, with the middle expression written `2*(…)*3`. -/
def djcalExpr (jd : Int) : CalDate :=
  let n4 := 4 * (jd + ((2 * ((4 * jd - 17918).tdiv 146097) * 3).tdiv 4 + 1).tdiv 2 - 37)
  let nd10 := 10 * (((n4 - 237).tmod 1461).tdiv 4) + 5
  { year := n4.tdiv 1461 - 4712
    month := (nd10.tdiv 306 + 2).tmod 12 + 1
    day := (nd10.tmod 306).tdiv 10 + 1 }

/-- src/djcal.cc:39-70 `djcal`.  `some (date, ifraction)` when the function returns `false`.
    `(int) std::round(std::pow(10.0, max(ndp, 0)))` is modelled by the exact power of ten
    (the 32-bit conversion overflows for `ndp ≥ 10`; see C08 in DESIGN.md). -/
noncomputable def djcal (ndp : Int) (mjd : ℝ) : Option (CalDate × Int) :=
  if mjd ≤ -2395520 ∨ mjd ≥ 1e9 then none
  else
    let nfd : Int := 10 ^ (max ndp 0).toNat
    let fd : ℝ := (nfd : ℝ)
    let df : ℝ := ((cround (mjd * fd) : ℤ) : ℝ)
    let f0 := cfmod df fd
    let f := if f0 < 0 then f0 + fd else f0
    let d := (df - f) / fd
    let jd : Int := cround d + 2400001
    some (djcalExpr jd, cround f)

/-! ### 32-bit evaluation -/

/-- src/cldj.cc:40-43 evaluated in 32-bit arithmetic, in the order of the source. -/
def cldjExpr32 (year month day : Int) : Option Int := do
  let a ← I32.sub 12 month
  let a ← I32.div a 10
  let y ← I32.sub year a
  let b ← I32.add y 4712
  let b ← I32.mul 1461 b
  let b ← I32.div b 4
  let c ← I32.add month 9
  let c ← I32.mod c 12
  let c ← I32.mul 306 c
  let c ← I32.add c 5
  let c ← I32.div c 10
  let bc ← I32.add b c
  let e ← I32.add y 4900
  let e ← I32.div e 100
  let e ← I32.mul 3 e
  let e ← I32.div e 4
  let r ← I32.sub bc e
  let r ← I32.add r day
  I32.sub r 2399904

/-- src/clyd.cc:53-63 evaluated in 32-bit arithmetic. -/
def clydExpr32 (year month day : Int) : Option (Int × Int) := do
  let t ← I32.sub 14 month
  let i ← I32.div t 12
  let k ← I32.sub year i
  let a ← I32.add k 4800
  let a ← I32.mul 1461 a
  let a ← I32.div a 4
  let b ← I32.sub month 2
  let b' ← I32.mul 12 i
  let b ← I32.add b b'
  let b ← I32.mul 367 b
  let b ← I32.div b 12
  let ab ← I32.add a b
  let c ← I32.add k 4900
  let c ← I32.div c 100
  let c ← I32.mul 3 c
  let c ← I32.div c 4
  let j ← I32.sub ab c
  let j ← I32.add j day
  let j ← I32.sub j 30660
  let k ← I32.sub j 1
  let k ← I32.div k 1461
  let l ← I32.mul 1461 k
  let L ← I32.sub j l
  let n1 ← I32.sub L 1
  let n1 ← I32.div n1 365
  let n2 ← I32.div L 1461
  let N ← I32.sub n1 n2
  let q ← I32.mul 365 N
  let q ← I32.sub L q
  let q ← I32.add q 30
  let q ← I32.mul 80 q
  let q ← I32.div q 2447
  let j ← I32.div q 11
  let i ← I32.add N j
  let d1 ← I32.add 59 L
  let d2 ← I32.mul 365 i
  let d1 ← I32.sub d1 d2
  let e1 ← I32.sub 4 N
  let e1 ← I32.div e1 4
  let e2 ← I32.sub 1 j
  let e ← I32.mul e1 e2
  let jday ← I32.add d1 e
  let y ← I32.mul 4 k
  let y ← I32.add y i
  let jyear ← I32.sub y 4716
  return (jyear, jday)

/-- src/djcl.cc:49-56 evaluated in 32-bit arithmetic from the integer day `d` (`f_nint(d)`). -/
def djclExpr32 (d : Int) : Option CalDate := do
  let d ← I32.chk d
  let jd ← I32.add d 2400001
  let a ← I32.mul 4 jd
  let a ← I32.sub a 17918
  let a ← I32.div a 146097
  let a ← I32.mul 6 a
  let a ← I32.div a 4
  let a ← I32.add a 1
  let a ← I32.div a 2
  let b ← I32.add jd a
  let b ← I32.sub b 37
  let n4 ← I32.mul 4 b
  let c ← I32.sub n4 237
  let c ← I32.mod c 1461
  let c ← I32.div c 4
  let c ← I32.mul 10 c
  let nd10 ← I32.add c 5
  let y ← I32.div n4 1461
  let y ← I32.sub y 4712
  let m ← I32.div nd10 306
  let m ← I32.add m 2
  let m ← I32.mod m 12
  let m ← I32.add m 1
  let dd ← I32.mod nd10 306
  let dd ← I32.div dd 10
  let dd ← I32.add dd 1
  return { year := y, month := m, day := dd }

end Sla
