import Verif.Model.Angles
import Verif.Model.Calendar
import Verif.Model.Combinat
import Verif.Model.Int32

/-
Functions with `int` arithmetic and conversions to `int` once more, with 32-bit overflow and conversion of values outside the
range (both undefined behaviour) as the distinct outcome `none`.  Floating-point numbers are exact here.
Loop variables that stop at the number of elements of an array, itself an `int`, are not checked.
-/
noncomputable section
namespace Sla

/-- src/f77_utils.h:32-33 `f_nint`: conversion of a value outside the range of `int` is undefined. -/
def nint32 (x : ℝ) : Option Int := I32.chk (cround x)

/-- src/combn.cc:68-103 in 32-bit arithmetic. -/
def combnLoop32 (nsel : Nat) (ncand : Int) (i : Nat) (list : IntMem) : Option (CPStatus × IntMem) :=
  let list_i := list (i - 1)
  (if i ≥ nsel then I32.add ncand 1 else some (list i)).bind fun nmax =>
  (I32.sub nmax list_i).bind fun gap =>
  if gap > 1 then (I32.add list_i 1).map fun next => (.ok, combnFill (i - 1) 0 (list.set (i - 1) next))
  else if i ≥ nsel then some (.noMore, combnFill nsel 0 list)
  else combnLoop32 nsel ncand (i + 1) list
termination_by nsel - i

/-- src/combn.cc:51-104 `combn` in 32-bit arithmetic. -/
def combn32 (nsel ncand : Int) (list : IntMem) : Option (CPStatus × IntMem) :=
  if nsel < 1 ∨ ncand < 1 ∨ nsel > ncand then some (.invalidArg, list)
  else if list 0 < 1 then some (.ok, combnFill nsel.toNat 0 list)
  else combnLoop32 nsel.toNat ncand 1 list

/-- src/permut.cc:75-89 in 32-bit arithmetic, with the increment of the loop variable (which reaches `n + 1`). -/
def permutCarry32 (n j : Nat) (status : CPStatus) (state : IntMem) : Option (CPStatus × IntMem) :=
  if j ≤ n then
    (if state (j - 1) ≥ j then
      let state := state.set (j - 1) 0
      if j ≥ n then some (.noMore, state)
      else (I32.add (state j) 1).map fun x => (status, state.set j x)
    else some (status, state)).bind fun p =>
    (I32.add j 1).bind fun _ => permutCarry32 n (j + 1) p.1 p.2
  else some (status, state)
termination_by n + 1 - j

/-- src/permut.cc:49-117 `permut` in 32-bit arithmetic; also `none` if the code leaves the bounds of its arrays. -/
def permut32 (n : Int) (state order : IntMem) : Option (CPStatus × IntMem × IntMem) :=
  if n < 1 then some (.invalidArg, state, order)
  else do
    let state := if state 0 < 0 then permutClear n.toNat 1 (state.set 0 (-1)) else state
    let x ← I32.add (state 0) 1
    let state := state.set 0 x
    let (status, state) ← permutCarry32 n.toNat 1 .ok state
    let order ← permutDecode n.toNat state n.toNat (permutOnes n.toNat 0 order)
    return (status, state, order)

/-- src/dd2tf.cc:35-63 `dd2tf` with checked scale factor and conversions. -/
def dd2tf32 (ndp : Int) (days : ℝ) : Option ConvResult :=
  (dd2tfNrs32 ndp).bind fun nrs =>
  let rs : ℝ := nrs
  let rm := rs * 60
  let rh := rm * 60
  let interval : ℝ := cround (rs * 86400 * |days|)
  let hours : ℝ := ctrunc (interval / rh)
  let interval := interval - hours * rh
  let minutes : ℝ := ctrunc (interval / rm)
  let interval := interval - minutes * rm
  let seconds : ℝ := ctrunc (interval / rs)
  let fraction := interval - seconds * rs
  (nint32 hours).bind fun h =>
  (nint32 minutes).bind fun m =>
  (nint32 seconds).bind fun s =>
  (nint32 (min fraction (rs - 1))).bind fun f =>
  some { hours := max h 0
         minutes := max (min m 59) 0
         seconds := max (min s 59) 0
         fraction := max f 0
         sign := decide (days ≥ 0) }

/-- src/dr2tf.cc:34-39 `dr2tf` with checked conversions. -/
def dr2tf32 (ndp : Int) (angle : ℝ) : Option ConvResult := dd2tf32 ndp (angle / (2 * Real.pi))

/-- src/dr2af.cc:34-38 `dr2af` with checked conversions. -/
def dr2af32 (ndp : Int) (angle : ℝ) : Option ConvResult := dd2tf32 ndp (angle * (15 / (2 * Real.pi)))

/-- src/djcal.cc:59-66 in 32-bit arithmetic from the integer day `d` (`f_nint(d)`). -/
def djcalExpr32 (d : Int) : Option CalDate := do
  let d ← I32.chk d
  let jd ← I32.add d 2400001
  let a ← I32.mul 4 jd
  let a ← I32.sub a 17918
  let a ← I32.div a 146097
  let a ← I32.mul 2 a
  let a ← I32.mul a 3
  let a ← I32.div a 4
  let a ← I32.add a 1
  let a ← I32.div a 2
  let b ← I32.add jd a
  let b ← I32.sub b 37
  let n4 ← I32.mul 4 b
  let c ← I32.sub n4 237
  let c ← I32.mod c 1461
  let c ← I32.div c 4
  let c ← I32.mul 10 c
  let nd10 ← I32.add c 5
  let y ← I32.div n4 1461
  let y ← I32.sub y 4712
  let m ← I32.div nd10 306
  let m ← I32.add m 2
  let m ← I32.mod m 12
  let m ← I32.add m 1
  let dd ← I32.mod nd10 306
  let dd ← I32.div dd 10
  let dd ← I32.add dd 1
  return { year := y, month := m, day := dd }

/-- src/djcal.cc:39-70 `djcal` with checked conversions and arithmetic: `some none` when the function returns `true`. -/
def djcal32 (ndp : Int) (mjd : ℝ) : Option (Option (CalDate × Int)) :=
  if mjd ≤ -2395520 ∨ mjd ≥ 1.0e9 then some none
  else
    (I32.chk (10 ^ (max ndp 0).toNat)).bind fun nfd =>
    let fd : ℝ := (nfd : ℝ)
    let df : ℝ := ((cround (mjd * fd) : ℤ) : ℝ)
    let f0 := cfmod df fd
    let f := if f0 < 0 then f0 + fd else f0
    let d := (df - f) / fd
    (djcalExpr32 (cround d)).bind fun c =>
    (nint32 f).bind fun ifraction => some (some (c, ifraction))

/-- src/moon.cc:213-215, src/earth.cc:55-57 in 32-bit arithmetic: years since 1900, and quarter days since the mean start of
    the year. -/
def yearQuarters32 (year day : Int) : Option (Int × Int) := do
  let yi ← I32.sub year 1900
  let r ← I32.mod year 4
  let r ← I32.add r 4
  let y4 ← I32.mod r 4
  let q ← I32.add y4 1
  let q ← I32.div 1 q
  let a ← I32.sub day q
  let a ← I32.mul 4 a
  let a ← I32.sub a y4
  let a ← I32.sub a 2
  return (yi, a)

end Sla
