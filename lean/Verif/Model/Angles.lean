import Verif.Model.CMath
import Verif.Model.Int32
import Mathlib.Analysis.Real.Pi.Bounds

/-
Angle and time-of-day conversions: dd2tf, dr2tf, dr2af, dtf2d, dtf2r, daf2r, drange, dranrm, gmst, gmsta, epochs.
The literals for 2*pi, pi, and the factors derived from them are replaced by the exact values.
The single precision twins (cd2tf calls dd2tf; cr2tf, cr2af, ctf2d, ctf2r, caf2r, range, ranorm are the same
code with float) share these models.
-/
noncomputable section
namespace Sla

open Real (pi)

/-- `ConversionResult` (src/slalib.h:297-324); `sign` is `true` for '+'. -/
structure ConvResult where
  hours : Int
  minutes : Int
  seconds : Int
  fraction : Int
  sign : Bool

/-- src/dd2tf.cc:37-40: `nrs = 1; for (i = 0; i < ndp; i++) nrs *= 10`, over mathematical integers. -/
def dd2tfNrs (ndp : Int) : Int := (List.replicate ndp.toNat 10).foldl (· * ·) 1

/-- The same loop in 32-bit arithmetic; `none` on overflow. -/
def dd2tfNrs32 (ndp : Int) : Option Int :=
  (List.replicate ndp.toNat (10 : Int)).foldl (fun r x => r >>= fun r => I32.mul r x) (some 1)

/-- src/dd2tf.cc:35-63 `dd2tf` -/
def dd2tf (ndp : Int) (days : ℝ) : ConvResult :=
  let rs : ℝ := dd2tfNrs ndp
  let rm := rs * 60
  let rh := rm * 60
  let interval : ℝ := cround (rs * 86400 * |days|)
  let hours : ℝ := ctrunc (interval / rh)
  let interval := interval - hours * rh
  let minutes : ℝ := ctrunc (interval / rm)
  let interval := interval - minutes * rm
  let seconds : ℝ := ctrunc (interval / rs)
  let fraction := interval - seconds * rs
  { hours := max (cround hours) 0
    minutes := max (min (cround minutes) 59) 0
    seconds := max (min (cround seconds) 59) 0
    fraction := max (cround (min fraction (rs - 1))) 0
    sign := decide (days ≥ 0) }

/-- src/dr2tf.cc:34-39 `dr2tf` -/
def dr2tf (ndp : Int) (angle : ℝ) : ConvResult := dd2tf ndp (angle / (2 * pi))

/-- src/dr2af.cc:34-38 `dr2af` -/
def dr2af (ndp : Int) (angle : ℝ) : ConvResult := dd2tf ndp (angle * (15 / (2 * pi)))

/-- Status codes of dtf2d/dtf2r (src/slalib.h:71-76). -/
inductive T2DStatus
  | ok | badHours | badMinutes | badSeconds
deriving DecidableEq, Repr

/-- src/dtf2d.cc:35-46 `dtf2d`: status and `days`. -/
def dtf2d (hours minutes : Int) (seconds : ℝ) : T2DStatus × ℝ :=
  let result : T2DStatus := .ok
  let result := if hours < 0 ∨ hours > 23 then .badHours else result
  let result := if minutes < 0 ∨ minutes > 59 then .badMinutes else result
  let result := if seconds < 0 ∨ seconds ≥ 60 then .badSeconds else result
  (result, (60 * (60 * (hours : ℝ) + (minutes : ℝ)) + seconds) / 86400)

/-- src/dtf2r.cc:35-40 `dtf2r` -/
def dtf2r (hours minutes : Int) (seconds : ℝ) : T2DStatus × ℝ :=
  let r := dtf2d hours minutes seconds
  (r.1, r.2 * (2 * pi))

/-- Status codes of daf2r (src/slalib.h:55-60). -/
inductive D2RStatus
  | ok | badDegrees | badArcminutes | badArcseconds
deriving DecidableEq, Repr

/-- src/daf2r.cc:33-51 `daf2r`; the factor 0.4848...e-5 is pi/648000. -/
def daf2r (degrees minutes : Int) (seconds : ℝ) : D2RStatus × ℝ :=
  let status : D2RStatus := .ok
  let status := if seconds < 0 ∨ seconds ≥ 60 then .badArcseconds else status
  let status := if minutes < 0 ∨ minutes > 59 then .badArcminutes else status
  let status := if degrees < 0 ∨ degrees > 359 then .badDegrees else status
  (status, (((degrees : ℝ) * 60 + (minutes : ℝ)) * 60 + seconds) * (pi / 648000))

/-- src/drange.cc:31-39 `drange` -/
def drange (angle : ℝ) : ℝ :=
  let result := cfmod angle (2 * pi)
  if |result| ≥ pi then result - csign (2 * pi) angle else result

/-- src/dranrm.cc:31-38 `dranrm` -/
def dranrm (angle : ℝ) : ℝ :=
  let result := cfmod angle (2 * pi)
  if result < 0 then result + 2 * pi else result

/-- src/gmst.cc:41-53 `gmst`; S2R (seconds of time to radians) is 2*pi/86400. -/
def gmst (ut1 : ℝ) : ℝ :=
  let jc := (ut1 - 51544.5) / 36525
  dranrm (cfmod ut1 1 * (2 * pi) +
    (24110.54841 + (8640184.812866 + (0.093104 - 6.2e-6 * jc) * jc) * jc) * (2 * pi / 86400))

/-- src/gmsta.cc:51-69 `gmsta` -/
def gmsta (date fdate : ℝ) : ℝ :=
  let d1 := if date < fdate then date else fdate
  let d2 := if date < fdate then fdate else date
  let jc := (d1 + (d2 - 51544.5)) / 36525
  dranrm (2 * pi / 86400 * (24110.54841 + (8640184.812866 +
    (0.093104 - 6.2e-6 * jc) * jc) * jc + 86400 * (cfmod d1 1 + cfmod d2 1)))

/-- src/epj.cc:33-35 `epj` -/
def epj (mjd : ℝ) : ℝ := 2000 + (mjd - 51544.5) / 365.25
/-- src/epj2d.cc:33-35 `epj2d` -/
def epj2d (je : ℝ) : ℝ := 51544.5 + (je - 2000) * 365.25
/-- src/epb.cc:33-35 `epb` -/
def epb (mjd : ℝ) : ℝ := 1900 + (mjd - 15019.81352) / 365.242198781
/-- src/epb2d.cc:33-35 `epb2d` -/
def epb2d (be : ℝ) : ℝ := 15019.81352 + (be - 1900) * 365.242198781

/-- src/epco.cc:34-54 `epco` -/
def epco (result given : Char) (epoch : ℝ) : ℝ :=
  let result := if result = 'b' then 'B' else result
  if result ≠ 'B' ∧ result ≠ 'J' then 0
  else
    let given := if given = 'j' then 'J' else given
    if given ≠ 'B' ∧ given ≠ 'J' then 0
    else if result = given then epoch
    else if result = 'B' then epb (epj2d epoch)
    else epj (epb2d epoch)

end Sla
