import Verif.Model.FpCode
import Verif.Lemmas.Fp
import Verif.Props.Angles
import Verif.Props.FpRange

/-
Property theorems C79: time and angle fields in double precision.
-/
namespace Sla.Props
open Sla.Fp

private theorem emin64 : binary64.emin ≤ 0 := by norm_num [binary64]

private theorem rep64 {n : ℤ} (h0 : 0 ≤ n) (h : n ≤ 2 ^ 53) : binary64.Rep (n : ℝ) :=
  rep_int emin64 (by rw [abs_of_nonneg h0]; simpa [binary64] using h)

private theorem nrs_pow (ndp : Int) : dd2tfNrs ndp = 10 ^ ndp.toNat := by
  have h : ∀ (k : Nat) (a : Int), (List.replicate k (10 : Int)).foldl (· * ·) a = a * 10 ^ k := by
    intro k
    induction k with
    | zero => simp
    | succ k ih => intro a; rw [List.replicate_succ, List.foldl_cons, ih]; ring
  unfold dd2tfNrs; rw [h]; ring

/-- Once the interval is rounded to an integer `u` below 2^53 nothing is lost: the fields are those of `u`. -/
private theorem fields_core (R : Rounding binary64) (N u : Int) (hN : 0 < N) (hN9 : N ≤ 10 ^ 9) (hu : 0 ≤ u)
    (hu53 : u < 2 ^ 53) :
    let rm := R ((N : ℝ) * 60)
    let rh := R (rm * 60)
    let hours := R (ctrunc (R ((u : ℝ) / rh)))
    let i1 := R ((u : ℝ) - R (hours * rh))
    let minutes := R (ctrunc (R (i1 / rm)))
    let i2 := R (i1 - R (minutes * rm))
    let seconds := R (ctrunc (R (i2 / (N : ℝ))))
    let fraction := R (i2 - R (seconds * N))
    ∃ h m s f : Int, hours = h ∧ minutes = m ∧ seconds = s ∧ fraction = f ∧ 0 ≤ h ∧ 0 ≤ m ∧ m ≤ 59 ∧ 0 ≤ s ∧ s ≤ 59 ∧
      0 ≤ f ∧ f < N ∧ ((h * 60 + m) * 60 + s) * N + f = u := by
  have hp : binary64.emin + 2 * (binary64.prec : ℤ) ≤ 1 := by norm_num [binary64]
  have hprec : (2 : ℤ) ^ binary64.prec = 2 ^ 53 := rfl
  -- one step: integer quotient and remainder
  have step : ∀ a b : Int, 0 ≤ a → a < 2 ^ 53 → 0 < b → b ≤ 2 ^ 53 →
      R (ctrunc (R ((a : ℝ) / b))) = ((a / b : Int) : ℝ) ∧
      R ((a : ℝ) - R (((a / b : Int) : ℝ) * b)) = ((a % b : Int) : ℝ) := by
    intro a b ha ha2 hb hb2
    have hq := Int.ediv_nonneg ha hb.le
    have hqa : a / b ≤ a := Int.ediv_le_self _ ha
    have hmul : a / b * b ≤ a := Int.ediv_mul_le a hb.ne'
    have hmul0 : 0 ≤ a / b * b := mul_nonneg hq hb.le
    have hm0 := Int.emod_nonneg a hb.ne'
    have hma : a % b ≤ a := by
      have := Int.mul_ediv_add_emod a b
      have : b * (a / b) = a / b * b := mul_comm _ _
      omega
    constructor
    · rw [ctrunc_rnd_div R hp ha hb (by rw [hprec]; exact ha2) (by rw [hprec]; exact hb2)]
      exact R.eq_self (rep64 hq (by omega))
    · have e : ((a / b : Int) : ℝ) * (b : ℝ) = ((a / b * b : Int) : ℝ) := by push_cast; ring
      rw [e, R.eq_self (rep64 hmul0 (by omega))]
      have e2 : (a : ℝ) - ((a / b * b : Int) : ℝ) = ((a % b : Int) : ℝ) := by
        rw [Int.emod_def]; push_cast; ring
      rw [e2, R.eq_self (rep64 hm0 (by omega))]
  have c2 : R ((N : ℝ) * 60) = ((N * 60 : Int) : ℝ) := by
    rw [show (N : ℝ) * 60 = ((N * 60 : Int) : ℝ) by push_cast; ring]
    exact R.eq_self (rep64 (by positivity) (by norm_num; omega))
  have c1 : R (((N * 60 : Int) : ℝ) * 60) = ((N * 60 * 60 : Int) : ℝ) := by
    rw [show ((N * 60 : Int) : ℝ) * 60 = ((N * 60 * 60 : Int) : ℝ) by push_cast; ring]
    exact R.eq_self (rep64 (by positivity) (by norm_num; omega))
  intro rm rh hours i1 minutes i2 seconds fraction
  have hrm : rm = ((N * 60 : Int) : ℝ) := c2
  have hrh : rh = ((N * 60 * 60 : Int) : ℝ) := by show R (rm * 60) = _; rw [hrm, c1]
  obtain ⟨s1, s2⟩ := step u (N * 60 * 60) hu hu53 (by positivity) (by norm_num; omega)
  have hr1 := Int.emod_nonneg u (by positivity : N * 60 * 60 ≠ 0)
  have hr1' := Int.emod_lt_of_pos u (by positivity : 0 < N * 60 * 60)
  have hh : hours = ((u / (N * 60 * 60) : Int) : ℝ) := by show R (ctrunc (R ((u : ℝ) / rh))) = _; rw [hrh, s1]
  have hi1 : i1 = ((u % (N * 60 * 60) : Int) : ℝ) := by show R ((u : ℝ) - R (hours * rh)) = _; rw [hh, hrh, s2]
  have hmain1 := Int.mul_ediv_add_emod u (N * 60 * 60)
  obtain ⟨r1, hr1d⟩ : ∃ r, r = u % (N * 60 * 60) := ⟨_, rfl⟩
  rw [← hr1d] at hr1 hr1' hi1 hmain1
  have hb1 : r1 < 2 ^ 53 := by norm_num; omega
  obtain ⟨t1, t2⟩ := step r1 (N * 60) hr1 hb1 (by positivity) (by norm_num; omega)
  have hr2 := Int.emod_nonneg r1 (by positivity : N * 60 ≠ 0)
  have hr2' := Int.emod_lt_of_pos r1 (by positivity : 0 < N * 60)
  have hm : minutes = ((r1 / (N * 60) : Int) : ℝ) := by show R (ctrunc (R (i1 / rm))) = _; rw [hi1, hrm, t1]
  have hi2 : i2 = ((r1 % (N * 60) : Int) : ℝ) := by show R (i1 - R (minutes * rm)) = _; rw [hm, hi1, hrm, t2]
  have hmain2 := Int.mul_ediv_add_emod r1 (N * 60)
  have hmm : 0 ≤ r1 / (N * 60) ∧ r1 / (N * 60) ≤ 59 := by
    refine ⟨Int.ediv_nonneg hr1 (by positivity), ?_⟩
    have : r1 / (N * 60) < 60 := Int.ediv_lt_of_lt_mul (by positivity) (by linarith)
    omega
  obtain ⟨r2, hr2d⟩ : ∃ r, r = r1 % (N * 60) := ⟨_, rfl⟩
  rw [← hr2d] at hr2 hr2' hi2 hmain2
  have hb2 : r2 < 2 ^ 53 := by norm_num; omega
  obtain ⟨v1, v2⟩ := step r2 N hr2 hb2 hN (by norm_num; omega)
  have hs : seconds = ((r2 / N : Int) : ℝ) := by show R (ctrunc (R (i2 / (N : ℝ)))) = _; rw [hi2, v1]
  have hf : fraction = ((r2 % N : Int) : ℝ) := by show R (i2 - R (seconds * N)) = _; rw [hs, hi2, v2]
  have hss : 0 ≤ r2 / N ∧ r2 / N ≤ 59 := by
    refine ⟨Int.ediv_nonneg hr2 hN.le, ?_⟩
    have : r2 / N < 60 := Int.ediv_lt_of_lt_mul hN (by linarith)
    omega
  have hmain3 := Int.mul_ediv_add_emod r2 N
  refine ⟨_, _, _, _, hh, hm, hs, hf, Int.ediv_nonneg hu (by positivity), hmm.1, hmm.2, hss.1, hss.2,
    Int.emod_nonneg _ hN.ne', Int.emod_lt_of_pos _ hN, ?_⟩
  linear_combination hmain1 + hmain2 + hmain3

/-- The whole of `dd2tf` from the rounded interval. -/
theorem dd2tf_core (R : Rounding binary64) (ndp : Int) (hp : ndp ≤ 9) (days : ℝ) (u : Int)
    (hu : cround (R (((10 ^ ndp.toNat * 86400 : Int) : ℝ) * |days|)) = u) (hu0 : 0 ≤ u) (hu53 : u < 2 ^ 53) :
    let r := Fp.dd2tf R ndp days
    let N : Int := 10 ^ ndp.toNat
    0 ≤ r.hours ∧ 0 ≤ r.minutes ∧ r.minutes ≤ 59 ∧ 0 ≤ r.seconds ∧ r.seconds ≤ 59 ∧
    0 ≤ r.fraction ∧ r.fraction < N ∧ (r.sign = false ↔ days < 0) ∧
    ((r.hours * 60 + r.minutes) * 60 + r.seconds) * N + r.fraction = u := by
  intro r N
  have hN : 0 < N := by positivity
  have hN9 : N ≤ 10 ^ 9 := pow_le_pow_right₀ (by norm_num) (by omega)
  have hNr : binary64.Rep (N : ℝ) := rep64 hN.le (by norm_num at hN9 ⊢; omega)
  have hc : R ((N : ℝ) * 86400) = ((10 ^ ndp.toNat * 86400 : Int) : ℝ) := by
    have : (N : ℝ) * 86400 = ((N * 86400 : Int) : ℝ) := by push_cast; ring
    rw [this]; exact R.eq_self (rep64 (by positivity) (by norm_num at hN9 ⊢; omega))
  have hur : R (u : ℝ) = u := R.eq_self (rep64 hu0 hu53.le)
  obtain ⟨h, m, s, f, e1, e2, e3, e4, b1, b2, b3, b4, b5, b6, b7, b8⟩ := fields_core R N u hN hN9 hu0 hu53
  have hN1 : R ((N : ℝ) - 1) = ((N - 1 : Int) : ℝ) := by
    rw [show (N : ℝ) - 1 = ((N - 1 : Int) : ℝ) by push_cast; ring]
    exact R.eq_self (rep64 (by omega) (by norm_num at hN9 ⊢; omega))
  have hr : r = ⟨h, m, s, f, decide (days ≥ 0)⟩ := by
    show Fp.dd2tf R ndp days = _
    unfold Fp.dd2tf
    rw [nrs_pow]
    change ConvResult.mk _ _ _ _ _ = _
    have hrs : R (((10 ^ ndp.toNat : Int)) : ℝ) = (N : ℝ) := R.eq_self hNr
    simp only [e1] at e2 e3 e4
    simp only [e2] at e3 e4
    simp only [e3] at e4
    simp only [hrs, hc, hu, hur, e1, e2, e3, e4, hN1, cround_intCast]
    have hmin : min (f : ℝ) ((N - 1 : Int) : ℝ) = (f : ℝ) := by
      apply min_eq_left; exact_mod_cast (by omega : f ≤ N - 1)
    rw [hmin, cround_intCast]
    congr 1 <;> omega
  rw [hr]
  refine ⟨b1, b2, b3, b4, b5, b6, b7, ?_, b8⟩
  simp

/-- C79: in double precision `dd2tf` (with up to 9 decimal places and an interval of less than 2^52 units of the last place)
    returns fields in their ranges, which together are the interval up to half a unit and the rounding error of one
    multiplication: no field is ever 60, and no carry is lost, although the quotients are rounded. -/
theorem C79_dd2tf (R : Rounding binary64) (ndp : Int) (hp : ndp ≤ 9) (days : ℝ)
    (hd : (10 : ℝ) ^ ndp.toNat * 86400 * |days| < 2 ^ 52) :
    let r := Fp.dd2tf R ndp days
    let N : Int := 10 ^ ndp.toNat
    let x : ℝ := (10 : ℝ) ^ ndp.toNat * 86400 * |days|
    0 ≤ r.hours ∧ 0 ≤ r.minutes ∧ r.minutes ≤ 59 ∧ 0 ≤ r.seconds ∧ r.seconds ≤ 59 ∧
    0 ≤ r.fraction ∧ r.fraction < N ∧ (r.sign = false ↔ days < 0) ∧
    |((((r.hours * 60 + r.minutes) * 60 + r.seconds) * N + r.fraction : Int) : ℝ) - x| ≤ 1 / 2 + x / 2 ^ 53 := by
  intro r N x
  have hx0 : 0 ≤ x := by positivity
  have hxc : ((10 ^ ndp.toNat * 86400 : Int) : ℝ) * |days| = x := by push_cast; rfl
  obtain ⟨u, hu⟩ : ∃ u : Int, cround (R (((10 ^ ndp.toNat * 86400 : Int) : ℝ) * |days|)) = u := ⟨_, rfl⟩
  have hu0 : 0 ≤ u := by rw [← hu, hxc]; exact cround_nonneg (R.nonneg hx0)
  have hRx : R x ≤ 2 ^ 52 := R.le_rep hd.le ⟨1, 52, by norm_num [binary64], by norm_num [binary64], by norm_num⟩
  have hue := abs_cround_sub_le (R x)
  rw [hxc] at hu
  rw [hu] at hue
  have hu53 : u < 2 ^ 53 := by
    have : (u : ℝ) < ((2 ^ 53 : Int) : ℝ) := by
      rw [abs_le] at hue; push_cast; norm_num at hRx ⊢; linarith [hue.2]
    exact_mod_cast this
  obtain ⟨b1, b2, b3, b4, b5, b6, b7, b8, b9⟩ := dd2tf_core R ndp hp days u (by rw [hxc]; exact hu) hu0 hu53
  refine ⟨b1, b2, b3, b4, b5, b6, b7, b8, ?_⟩
  have b9' : ((r.hours * 60 + r.minutes) * 60 + r.seconds) * N + r.fraction = u := b9
  rw [b9']
  rcases le_or_gt (1 / 4) x with hs | hs
  · have h4 := R.rel_error x (by
      rw [abs_of_nonneg hx0]
      refine le_trans ?_ hs
      rw [show binary64.emin + (binary64.prec : ℤ) - 1 = -1022 by rfl]
      calc (2 : ℝ) ^ (-1022 : ℤ) ≤ 2 ^ (-2 : ℤ) := two_zpow_le (by norm_num)
        _ ≤ 1 / 4 := by norm_num)
    have h7 : (2 : ℝ) ^ (-(binary64.prec : ℤ)) = 1 / 2 ^ 53 := by norm_num [binary64]
    rw [h7, abs_of_nonneg hx0] at h4
    have := abs_sub_le (u : ℝ) (R x) x
    rw [abs_sub_comm (R x)] at this
    have e5 : 1 / 2 ^ 53 * x = x / 2 ^ 53 := by ring
    linarith
  · have hb : R x ≤ 1 / 4 := R.le_rep hs.le ⟨1, -2, by norm_num [binary64], by norm_num [binary64], by norm_num⟩
    have hb0 := R.nonneg hx0
    have hu0 : u = 0 := by
      rw [← hu]; apply cround_eq_of_abs
      push_cast; rw [sub_zero, abs_of_nonneg hb0]; linarith
    rw [hu0, Int.cast_zero, zero_sub, abs_neg, abs_of_nonneg hx0]
    have : 0 ≤ x / 2 ^ 53 := by positivity
    linarith

/-! ### Round trips -/

/-- If the argument of `dd2tf` is close enough to given fields, those fields are returned. -/
theorem dd2tf_of_near (R : Rounding binary64) (ndp : Int) (hp : ndp ≤ 9) (days : ℝ) (h0 : 0 ≤ days)
    (h m s f : Int) (hh : 0 ≤ h) (hm : 0 ≤ m) (hm' : m ≤ 59) (hs : 0 ≤ s) (hs' : s ≤ 59)
    (hf : 0 ≤ f) (hf' : f < 10 ^ ndp.toNat)
    (hT : ((h * 60 + m) * 60 + s) * 10 ^ ndp.toNat + f < 2 ^ 48)
    (hn : |(10 : ℝ) ^ ndp.toNat * 86400 * days - ((((h * 60 + m) * 60 + s) * 10 ^ ndp.toNat + f : Int) : ℝ)| ≤ 3 / 8) :
    Fp.dd2tf R ndp days = ⟨h, m, s, f, true⟩ := by
  obtain ⟨T, hTd⟩ : ∃ T : Int, T = ((h * 60 + m) * 60 + s) * 10 ^ ndp.toNat + f := ⟨_, rfl⟩
  rw [← hTd] at hT hn
  have hT0 : 0 ≤ T := by rw [hTd]; positivity
  have hTr : (T : ℝ) ≤ 2 ^ 48 := by exact_mod_cast hT.le
  have hTr0 : (0 : ℝ) ≤ T := by exact_mod_cast hT0
  have hxc : ((10 ^ ndp.toNat * 86400 : Int) : ℝ) * |days| = (10 : ℝ) ^ ndp.toNat * 86400 * days := by
    rw [abs_of_nonneg h0]; push_cast; rfl
  have hu : cround (R (((10 ^ ndp.toNat * 86400 : Int) : ℝ) * |days|)) = T := by
    rw [hxc]
    apply cround_eq_of_abs
    generalize (10 : ℝ) ^ ndp.toNat * 86400 * days = x at hn ⊢
    have hx : |x| < 2 ^ (49 : ℤ) := by
      rw [abs_le] at hn; rw [abs_lt]; norm_num at hTr ⊢; constructor <;> linarith [hn.1, hn.2]
    have := R.abs_sub_le x (k := 49) (by norm_num [binary64]) hx
    rw [abs_le] at this hn; rw [abs_lt]
    norm_num [binary64] at this ⊢
    constructor <;> linarith [hn.1, hn.2, this.1, this.2]
  obtain ⟨b1, b2, b3, b4, b5, b6, b7, b8, b9⟩ := dd2tf_core R ndp hp days T hu hT0 (by norm_num at hT ⊢; omega)
  rw [hTd] at b9
  obtain ⟨c1, c2, c3, c4⟩ := C13_fields_unique _ _ _ _ _ _ _ _ _ ⟨b2, b3, b4, b5, b6, b7⟩ ⟨hm, hm', hs, hs', hf, hf'⟩ b9
  have c5 : (Fp.dd2tf R ndp days).sign = true := by
    by_contra hc
    rw [Bool.not_eq_true, b8] at hc
    linarith
  generalize Fp.dd2tf R ndp days = r at *
  obtain ⟨r1, r2, r3, r4, r5⟩ := r
  simp only at c1 c2 c3 c4 c5
  rw [c1, c2, c3, c4, c5]

/-- The interval that `dtf2d` computes from integer fields and the double nearest to the seconds. -/
private theorem dtf2d_near (R : Rounding binary64) (p : ℕ) (h m s f : Int) (hh : 0 ≤ h) (hh' : h ≤ 23) (hm : 0 ≤ m)
    (hm' : m ≤ 59) (hs : 0 ≤ s) (hs' : s ≤ 59) (hf : 0 ≤ f) (hf' : f < 10 ^ p) :
    let d := Fp.dtf2d R h m (R ((s : ℝ) + f / 10 ^ p))
    binary64.Rep d ∧ 0 ≤ d ∧ d ≤ 1 ∧ |86400 * d - (((h : ℝ) * 60 + m) * 60 + (s + f / 10 ^ p))| ≤ 1.8e-11 := by
  intro d
  have hP : (0 : ℝ) < 10 ^ p := by positivity
  have hfr : (0 : ℝ) ≤ (f : ℝ) / 10 ^ p := by have : (0 : ℝ) ≤ f := by exact_mod_cast hf
                                              positivity
  have hfr' : (f : ℝ) / 10 ^ p < 1 := by rw [div_lt_one hP]; exact_mod_cast hf'
  have hsr : (0 : ℝ) ≤ s ∧ (s : ℝ) ≤ 59 := ⟨by exact_mod_cast hs, by exact_mod_cast hs'⟩
  obtain ⟨x, hx⟩ : ∃ x : ℝ, x = (s : ℝ) + f / 10 ^ p := ⟨_, rfl⟩
  have hx0 : 0 ≤ x := by rw [hx]; linarith [hsr.1]
  have hx1 : x < 60 := by rw [hx]; linarith [hsr.2]
  rw [← hx]
  have e1 : R ((h : Int) : ℝ) = h := R.eq_self (rep64 hh (by norm_num; omega))
  have e2 : R (60 * (h : ℝ)) = ((60 * h : Int) : ℝ) := by
    rw [show (60 : ℝ) * h = ((60 * h : Int) : ℝ) by push_cast; ring]
    exact R.eq_self (rep64 (by omega) (by norm_num; omega))
  have e3 : R ((m : Int) : ℝ) = m := R.eq_self (rep64 hm (by norm_num; omega))
  have e4 : R (((60 * h : Int) : ℝ) + m) = ((60 * h + m : Int) : ℝ) := by
    rw [show ((60 * h : Int) : ℝ) + m = ((60 * h + m : Int) : ℝ) by push_cast; ring]
    exact R.eq_self (rep64 (by omega) (by norm_num; omega))
  have e5 : R (60 * ((60 * h + m : Int) : ℝ)) = ((60 * (60 * h + m) : Int) : ℝ) := by
    rw [show (60 : ℝ) * ((60 * h + m : Int) : ℝ) = ((60 * (60 * h + m) : Int) : ℝ) by push_cast; ring]
    exact R.eq_self (rep64 (by omega) (by norm_num; omega))
  have hd : d = R (R (((60 * (60 * h + m) : Int) : ℝ) + R x) / 86400) := by
    show Fp.dtf2d R h m (R ((s : ℝ) + f / 10 ^ p)) = _
    unfold Fp.dtf2d
    rw [← hx, e1, e2, e3, e4, e5]
  obtain ⟨a, ha⟩ : ∃ a : ℝ, a = ((60 * (60 * h + m) : Int) : ℝ) := ⟨_, rfl⟩
  have ha0 : 0 ≤ a := by rw [ha]; exact_mod_cast (by omega : 0 ≤ 60 * (60 * h + m))
  have ha1 : a ≤ 86340 := by rw [ha]; exact_mod_cast (by omega : 60 * (60 * h + m) ≤ 86340)
  have ha2 : ((h : ℝ) * 60 + m) * 60 = a := by rw [ha]; push_cast; ring
  rw [← ha] at hd
  rw [ha2]
  have hR0 := R.nonneg hx0
  have hR1 : R x ≤ 60 := R.le_rep hx1.le (by exact_mod_cast rep64 (n := 60) (by norm_num) (by norm_num))
  have hRe := R.abs_sub_le x (k := 6) (by norm_num [binary64]) (by rw [abs_of_nonneg hx0]; norm_num; linarith)
  have hb0 : 0 ≤ R (a + R x) := R.nonneg (by linarith)
  have hb1 : R (a + R x) ≤ 86400 := R.le_rep (by linarith) (by exact_mod_cast rep64 (n := 86400) (by norm_num) (by norm_num))
  have hbe := R.abs_sub_le (a + R x) (k := 17) (by norm_num [binary64])
    (by rw [abs_of_nonneg (by linarith)]; norm_num; linarith)
  obtain ⟨b, hb⟩ : ∃ b, b = R (a + R x) := ⟨_, rfl⟩
  rw [← hb] at hb0 hb1 hbe hd
  have hc0 : 0 ≤ b / 86400 := by positivity
  have hc1 : b / 86400 ≤ 1 := by rw [div_le_one (by norm_num)]; exact hb1
  have hce := R.abs_sub_le (b / 86400) (k := 1) (by norm_num [binary64])
    (by rw [abs_of_nonneg hc0]; norm_num; linarith)
  rw [← hd] at hce
  refine ⟨hd ▸ R.rep _, by rw [hd]; exact R.nonneg hc0, by
    rw [hd]; exact R.le_rep hc1 (by exact_mod_cast rep64 (n := 1) (by norm_num) (by norm_num)), ?_⟩
  clear * - hRe hbe hce
  rw [abs_le] at *
  norm_num [binary64] at *
  constructor <;> linarith [hRe.1, hRe.2, hbe.1, hbe.2, hce.1, hce.2]

/-- C79: fields to days and back is the identity in double precision: `dtf2d` of hours, minutes and the double nearest to
    seconds with `ndp` decimals, then `dd2tf` with `ndp` decimals (up to 9), returns exactly the same fields. -/
theorem C79_days_round_trip (R : Rounding binary64) (ndp : Int) (hp : ndp ≤ 9) (h m s f : Int) (hh : 0 ≤ h) (hh' : h ≤ 23)
    (hm : 0 ≤ m) (hm' : m ≤ 59) (hs : 0 ≤ s) (hs' : s ≤ 59) (hf : 0 ≤ f) (hf' : f < 10 ^ ndp.toNat) :
    Fp.dd2tf R ndp (Fp.dtf2d R h m (R ((s : ℝ) + f / 10 ^ ndp.toNat))) = ⟨h, m, s, f, true⟩ := by
  obtain ⟨-, d0, -, de⟩ := dtf2d_near R ndp.toNat h m s f hh hh' hm hm' hs hs' hf hf'
  generalize Fp.dtf2d R h m (R ((s : ℝ) + f / 10 ^ ndp.toNat)) = d at *
  have hN9 : (10 : ℤ) ^ ndp.toNat ≤ 10 ^ 9 := pow_le_pow_right₀ (by norm_num) (by omega)
  have hN0 : (0 : ℝ) < 10 ^ ndp.toNat := by positivity
  refine dd2tf_of_near R ndp hp d d0 h m s f hh hm hm' hs hs' hf hf' ?_ ?_
  · generalize (10 : ℤ) ^ ndp.toNat = N at *
    nlinarith
  · have hNr : (10 : ℝ) ^ ndp.toNat ≤ 10 ^ 9 := by exact_mod_cast hN9
    push_cast
    generalize (10 : ℝ) ^ ndp.toNat = N at *
    have e : N * 86400 * d - ((((h : ℝ) * 60 + m) * 60 + s) * N + f) =
        N * (86400 * d - (((h : ℝ) * 60 + m) * 60 + (s + f / N))) := by field_simp; ring
    rw [e, abs_mul, abs_of_pos hN0]
    calc N * |86400 * d - (((h : ℝ) * 60 + m) * 60 + (s + f / N))| ≤ 10 ^ 9 * 1.8e-11 :=
          mul_le_mul hNr de (abs_nonneg _) (by norm_num)
      _ ≤ 3 / 8 := by norm_num

/-- C79: hours, minutes and seconds to radians and back (`dtf2r`, `dr2tf`) is the identity as well. -/
theorem C79_hms_round_trip (R : Rounding binary64) (ndp : Int) (hp : ndp ≤ 9) (h m s f : Int) (hh : 0 ≤ h) (hh' : h ≤ 23)
    (hm : 0 ≤ m) (hm' : m ≤ 59) (hs : 0 ≤ s) (hs' : s ≤ 59) (hf : 0 ≤ f) (hf' : f < 10 ^ ndp.toNat) :
    Fp.dr2tf R ndp (Fp.dtf2r R h m (R ((s : ℝ) + f / 10 ^ ndp.toNat))) = ⟨h, m, s, f, true⟩ := by
  obtain ⟨-, d0, d1, de⟩ := dtf2d_near R ndp.toNat h m s f hh hh' hm hm' hs hs' hf hf'
  unfold Fp.dr2tf Fp.dtf2r
  rw [fp_2pi64]
  generalize Fp.dtf2d R h m (R ((s : ℝ) + f / 10 ^ ndp.toNat)) = d at *
  have hN9 : (10 : ℤ) ^ ndp.toNat ≤ 10 ^ 9 := pow_le_pow_right₀ (by norm_num) (by omega)
  have hN0 : (0 : ℝ) < 10 ^ ndp.toNat := by positivity
  obtain ⟨A, hA⟩ : ∃ A : ℝ, A = 884279719003555 / 2 ^ 47 := ⟨_, rfl⟩
  have hA1 : 6.28 < A := by rw [hA]; norm_num
  have hA2 : A < 6.29 := by rw [hA]; norm_num
  rw [← hA]
  have hr0 : 0 ≤ R (d * A) := R.nonneg (mul_nonneg d0 (by linarith))
  have hre := R.abs_sub_le (d * A) (k := 3) (by norm_num [binary64])
    (by rw [abs_of_nonneg (mul_nonneg d0 (by linarith))]; norm_num at hA2 ⊢; nlinarith)
  obtain ⟨r, hr⟩ : ∃ r, r = R (d * A) := ⟨_, rfl⟩
  rw [← hr] at hr0 hre ⊢
  have hA0 : 0 < A := by linarith
  have hq0 : 0 ≤ r / A := by positivity
  have hqd : |r / A - d| ≤ 1 / 2 ^ 53 := by
    have e : r / A - d = (r - d * A) / A := by field_simp
    rw [e, abs_div, abs_of_pos hA0, div_le_iff₀ hA0, abs_sub_comm]
    refine hre.trans ?_
    norm_num [binary64] at hA1 ⊢
    linarith
  have hqe := R.abs_sub_le (r / A) (k := 1) (by norm_num [binary64])
    (by rw [abs_of_nonneg hq0]; rw [abs_le] at hqd; norm_num at hqd ⊢; linarith [hqd.2])
  have hd' : |86400 * R (r / A) - (((h : ℝ) * 60 + m) * 60 + (s + f / 10 ^ ndp.toNat))| ≤ 4e-11 := by
    generalize R (r / A) = q at *
    generalize r / A = q' at *
    generalize (((h : ℝ) * 60 + m) * 60 + (s + f / 10 ^ ndp.toNat)) = t at *
    clear * - hqd hqe de
    rw [abs_le] at *
    norm_num [binary64] at *
    constructor <;> linarith [hqd.1, hqd.2, hqe.1, hqe.2, de.1, de.2]
  have hR0 := R.nonneg hq0
  generalize R (r / A) = q at *
  refine dd2tf_of_near R ndp hp q hR0 h m s f hh hm hm' hs hs' hf hf' ?_ ?_
  · generalize (10 : ℤ) ^ ndp.toNat = N at *
    nlinarith
  · have hNr : (10 : ℝ) ^ ndp.toNat ≤ 10 ^ 9 := by exact_mod_cast hN9
    push_cast
    generalize (10 : ℝ) ^ ndp.toNat = N at *
    have e : N * 86400 * q - ((((h : ℝ) * 60 + m) * 60 + s) * N + f) =
        N * (86400 * q - (((h : ℝ) * 60 + m) * 60 + (s + f / N))) := by field_simp; ring
    rw [e, abs_mul, abs_of_pos hN0]
    calc N * |86400 * q - (((h : ℝ) * 60 + m) * 60 + (s + f / N))| ≤ 10 ^ 9 * 4e-11 :=
          mul_le_mul hNr hd' (abs_nonneg _) (by norm_num)
      _ ≤ 3 / 8 := by norm_num

/-- `double` nearest to the literal for one arcsecond, and the factor of `dr2af`. -/
theorem fp_arcsec64 (R : Rounding binary64) : R 0.484813681109535994e-5 = 5723669695270813 / 2 ^ 70 := by
  have h := R.eq_of_near (x := 0.484813681109535994e-5) (m := 5723669695270813) (e := -70)
    (by simp [binary64]) (by norm_num [binary64]) (by norm_num [binary64])
    (by rw [abs_lt]; norm_num)
  rw [h]; norm_num

theorem fp_factor64 (R : Rounding binary64) : R (15 / R 6.283185307179586476925287) = 5375776068021243 / 2 ^ 51 := by
  rw [fp_2pi64]
  have h := R.eq_of_near (x := 15 / (884279719003555 / 2 ^ 47)) (m := 5375776068021243) (e := -51)
    (by simp [binary64]) (by norm_num [binary64]) (by norm_num [binary64])
    (by rw [abs_lt]; norm_num)
  rw [h]; norm_num

/-- C79: degrees, arcminutes and arcseconds to radians and back (`daf2r`, `dr2af`) is the identity up to 8 decimals. -/
theorem C79_dms_round_trip (R : Rounding binary64) (ndp : Int) (hp : ndp ≤ 8) (d m s f : Int) (hd : 0 ≤ d) (hd' : d ≤ 359)
    (hm : 0 ≤ m) (hm' : m ≤ 59) (hs : 0 ≤ s) (hs' : s ≤ 59) (hf : 0 ≤ f) (hf' : f < 10 ^ ndp.toNat) :
    Fp.dr2af R ndp (Fp.daf2r R d m (R ((s : ℝ) + f / 10 ^ ndp.toNat))) = ⟨d, m, s, f, true⟩ := by
  have hN9 : (10 : ℤ) ^ ndp.toNat ≤ 10 ^ 8 := pow_le_pow_right₀ (by norm_num) (by omega)
  have hN0 : (0 : ℝ) < 10 ^ ndp.toNat := by positivity
  have hfr : (0 : ℝ) ≤ (f : ℝ) / 10 ^ ndp.toNat := by have : (0 : ℝ) ≤ f := by exact_mod_cast hf
                                                      positivity
  have hfr' : (f : ℝ) / 10 ^ ndp.toNat < 1 := by rw [div_lt_one hN0]; exact_mod_cast hf'
  have hsr : (0 : ℝ) ≤ s ∧ (s : ℝ) ≤ 59 := ⟨by exact_mod_cast hs, by exact_mod_cast hs'⟩
  unfold Fp.dr2af Fp.daf2r
  rw [fp_factor64, fp_arcsec64]
  obtain ⟨x, hx⟩ : ∃ x : ℝ, x = (s : ℝ) + f / 10 ^ ndp.toNat := ⟨_, rfl⟩
  have hx0 : 0 ≤ x := by rw [hx]; linarith [hsr.1]
  have hx1 : x < 60 := by rw [hx]; linarith [hsr.2]
  rw [← hx]
  have e1 : R ((d : Int) : ℝ) = d := R.eq_self (rep64 hd (by norm_num; omega))
  have e2 : R ((d : ℝ) * 60) = ((d * 60 : Int) : ℝ) := by
    rw [show (d : ℝ) * 60 = ((d * 60 : Int) : ℝ) by push_cast; ring]
    exact R.eq_self (rep64 (by omega) (by norm_num; omega))
  have e3 : R ((m : Int) : ℝ) = m := R.eq_self (rep64 hm (by norm_num; omega))
  have e4 : R (((d * 60 : Int) : ℝ) + m) = ((d * 60 + m : Int) : ℝ) := by
    rw [show ((d * 60 : Int) : ℝ) + m = ((d * 60 + m : Int) : ℝ) by push_cast; ring]
    exact R.eq_self (rep64 (by omega) (by norm_num; omega))
  have e5 : R (((d * 60 + m : Int) : ℝ) * 60) = (((d * 60 + m) * 60 : Int) : ℝ) := by
    rw [show ((d * 60 + m : Int) : ℝ) * 60 = (((d * 60 + m) * 60 : Int) : ℝ) by push_cast; ring]
    exact R.eq_self (rep64 (by omega) (by norm_num; omega))
  rw [e1, e2, e3, e4, e5]
  obtain ⟨a, ha⟩ : ∃ a : ℝ, a = (((d * 60 + m) * 60 : Int) : ℝ) := ⟨_, rfl⟩
  have ha0 : 0 ≤ a := by rw [ha]; exact_mod_cast (by omega : 0 ≤ (d * 60 + m) * 60)
  have ha1 : a ≤ 1295940 := by rw [ha]; exact_mod_cast (by omega : (d * 60 + m) * 60 ≤ 1295940)
  have ha2 : ((d : ℝ) * 60 + m) * 60 = a := by rw [ha]; push_cast; ring
  rw [← ha]
  have hR0 := R.nonneg hx0
  have hR1 : R x ≤ 60 := R.le_rep hx1.le (by exact_mod_cast rep64 (n := 60) (by norm_num) (by norm_num))
  have hRe := R.abs_sub_le x (k := 6) (by norm_num [binary64]) (by rw [abs_of_nonneg hx0]; norm_num; linarith)
  have hb0 : 0 ≤ R (a + R x) := R.nonneg (by linarith)
  have hb1 : R (a + R x) ≤ 1296000 :=
    R.le_rep (by linarith) (by exact_mod_cast rep64 (n := 1296000) (by norm_num) (by norm_num))
  have hbe := R.abs_sub_le (a + R x) (k := 21) (by norm_num [binary64])
    (by rw [abs_of_nonneg (by linarith)]; norm_num; linarith)
  obtain ⟨b, hb⟩ : ∃ b, b = R (a + R x) := ⟨_, rfl⟩
  rw [← hb] at hb0 hb1 hbe ⊢
  have hr0 : 0 ≤ b * (5723669695270813 / 2 ^ 70) := by positivity
  have hre := R.abs_sub_le (b * (5723669695270813 / 2 ^ 70)) (k := 3) (by norm_num [binary64])
    (by rw [abs_of_nonneg hr0]; norm_num; linarith)
  have hRr0 := R.nonneg hr0
  obtain ⟨r, hr⟩ : ∃ r, r = R (b * (5723669695270813 / 2 ^ 70)) := ⟨_, rfl⟩
  rw [← hr] at hre hRr0 ⊢
  have hq0 : 0 ≤ r * (5375776068021243 / 2 ^ 51) := by positivity
  have hqe := R.abs_sub_le (r * (5375776068021243 / 2 ^ 51)) (k := 4) (by norm_num [binary64])
    (by
      rw [abs_of_nonneg hq0]
      clear * - hre hb1
      rw [abs_le] at hre
      norm_num [binary64] at *
      linarith [hre.1, hre.2])
  have hR0' := R.nonneg hq0
  obtain ⟨q, hq⟩ : ∃ q, q = R (r * (5375776068021243 / 2 ^ 51)) := ⟨_, rfl⟩
  rw [← hq] at hqe hR0' ⊢
  have hd' : |86400 * q - (a + x)| ≤ 3e-9 := by
    clear * - hqe hre hbe hRe hb0 hb1
    rw [abs_le] at *
    norm_num [binary64] at *
    constructor <;> linarith [hRe.1, hRe.2, hbe.1, hbe.2, hre.1, hre.2, hqe.1, hqe.2]
  rw [hx] at hd'
  refine dd2tf_of_near R ndp (by omega) q hR0' d m s f hd hm hm' hs hs' hf hf' ?_ ?_
  · generalize (10 : ℤ) ^ ndp.toNat = N at *
    nlinarith
  · have hNr : (10 : ℝ) ^ ndp.toNat ≤ 10 ^ 8 := by exact_mod_cast hN9
    push_cast
    rw [ha2]
    generalize (10 : ℝ) ^ ndp.toNat = N at *
    have e : N * 86400 * q - ((a + s) * N + f) = N * (86400 * q - (a + (s + f / N))) := by field_simp; ring
    rw [e, abs_mul, abs_of_pos hN0]
    calc N * |86400 * q - (a + (s + f / N))| ≤ 10 ^ 8 * 3e-9 := mul_le_mul hNr hd' (abs_nonneg _) (by norm_num)
      _ ≤ 3 / 8 := by norm_num

/-- C79: with 9 decimals the round trip through radians can change the last digit, for every way of breaking ties:
    347 degrees 16 arcminutes 58.797129613 arcseconds comes back as 58.797129614. -/
theorem C79_dms_nine_decimals (R : Rounding binary64) :
    Fp.dr2af R 9 (Fp.daf2r R 347 16 (R ((58 : Int) + (797129613 : Int) / 10 ^ 9))) = ⟨347, 16, 58, 797129614, true⟩ := by
  have near : ∀ (x : ℝ) (m e : ℤ), -1074 ≤ e → 2 ^ 52 < m → m < 2 ^ 53 → |x - (m : ℝ) * 2 ^ e| < 1 / 2 * 2 ^ e →
      R x = (m : ℝ) * 2 ^ e := fun x m e h1 h2 h3 h4 => R.eq_of_near h1 h2 h3 h4
  have e1 : R (((347 : Int)) : ℝ) = ((347 : Int) : ℝ) := R.eq_self (rep64 (by norm_num) (by norm_num))
  have e2 : R (((347 : Int) : ℝ) * 60) = ((20820 : Int) : ℝ) := by
    rw [show ((347 : Int) : ℝ) * 60 = ((20820 : Int) : ℝ) by norm_num]
    exact R.eq_self (rep64 (by norm_num) (by norm_num))
  have e3 : R (((16 : Int)) : ℝ) = ((16 : Int) : ℝ) := R.eq_self (rep64 (by norm_num) (by norm_num))
  have e4 : R (((20820 : Int) : ℝ) + ((16 : Int) : ℝ)) = ((20836 : Int) : ℝ) := by
    rw [show ((20820 : Int) : ℝ) + ((16 : Int) : ℝ) = ((20836 : Int) : ℝ) by norm_num]
    exact R.eq_self (rep64 (by norm_num) (by norm_num))
  have e5 : R (((20836 : Int) : ℝ) * 60) = ((1250160 : Int) : ℝ) := by
    rw [show ((20836 : Int) : ℝ) * 60 = ((1250160 : Int) : ℝ) by norm_num]
    exact R.eq_self (rep64 (by norm_num) (by norm_num))
  have f1 : R (((58 : Int) : ℝ) + ((797129613 : Int) : ℝ) / 10 ^ 9) = ((8274960344236299 : ℤ) : ℝ) * 2 ^ (-47 : ℤ) :=
    near _ _ _ (by norm_num) (by norm_num) (by norm_num) (by rw [abs_lt]; norm_num)
  have f2 : R (((1250160 : Int) : ℝ) + ((8274960344236299 : ℤ) : ℝ) * 2 ^ (-47 : ℤ)) =
      ((5369648846516147 : ℤ) : ℝ) * 2 ^ (-32 : ℤ) :=
    near _ _ _ (by norm_num) (by norm_num) (by norm_num) (by rw [abs_lt]; norm_num)
  have f3 : R (((5369648846516147 : ℤ) : ℝ) * 2 ^ (-32 : ℤ) * (5723669695270813 / 2 ^ 70)) =
      ((6824340287769981 : ℤ) : ℝ) * 2 ^ (-50 : ℤ) :=
    near _ _ _ (by norm_num) (by norm_num) (by norm_num) (by rw [abs_lt]; norm_num)
  have f4 : R (((6824340287769981 : ℤ) : ℝ) * 2 ^ (-50 : ℤ) * (5375776068021243 / 2 ^ 51)) =
      ((8145956176048201 : ℤ) : ℝ) * 2 ^ (-49 : ℤ) :=
    near _ _ _ (by norm_num) (by norm_num) (by norm_num) (by rw [abs_lt]; norm_num)
  have f5 : R (((10 ^ (9 : Int).toNat * 86400 : Int) : ℝ) * |((8145956176048201 : ℤ) : ℝ) * 2 ^ (-49 : ℤ)|) =
      ((5000875188518454 : ℤ) : ℝ) * 2 ^ (-2 : ℤ) := by
    rw [abs_of_pos (by norm_num), show (9 : Int).toNat = 9 from rfl]
    exact near _ _ _ (by norm_num) (by norm_num) (by norm_num) (by rw [abs_lt]; norm_num)
  unfold Fp.dr2af Fp.daf2r
  rw [fp_factor64, fp_arcsec64, e1, e2, e3, e4, e5, f1, f2, f3, f4]
  have hu : cround (R (((10 ^ (9 : Int).toNat * 86400 : Int) : ℝ) * |((8145956176048201 : ℤ) : ℝ) * 2 ^ (-49 : ℤ)|)) =
      1250218797129614 := by
    rw [f5]
    unfold cround
    rw [if_pos (by norm_num), Int.floor_eq_iff]
    norm_num
  obtain ⟨b1, b2, b3, b4, b5, b6, b7, b8, b9⟩ := dd2tf_core R 9 le_rfl _ _ hu (by norm_num) (by norm_num)
  have c5 : (Fp.dd2tf R 9 (((8145956176048201 : ℤ) : ℝ) * 2 ^ (-49 : ℤ))).sign = true := by
    by_contra hc
    rw [Bool.not_eq_true, b8] at hc
    norm_num at hc
  generalize Fp.dd2tf R 9 (((8145956176048201 : ℤ) : ℝ) * 2 ^ (-49 : ℤ)) = r at *
  obtain ⟨c1, c2, c3, c4⟩ := C13_fields_unique (10 ^ 9) _ _ _ _ 347 16 58 797129614 ⟨b2, b3, b4, b5, b6, b7⟩ (by norm_num) b9
  obtain ⟨r1, r2, r3, r4, r5⟩ := r
  simp only at c1 c2 c3 c4 c5
  rw [c1, c2, c3, c4, c5]

example : Fp.dd2tf (ieee binary64) 3 (Fp.dtf2d (ieee binary64) 23 59 ((ieee binary64) ((59 : Int) + (999 : Int) / 10 ^ 3)))
    = ⟨23, 59, 59, 999, true⟩ :=
  C79_days_round_trip (ieee binary64) 3 (by norm_num) 23 59 59 999 (by norm_num) (by norm_num) (by norm_num) (by norm_num)
    (by norm_num) (by norm_num) (by norm_num) (by decide)

example : (10 : ℝ) ^ (3 : Int).toNat * 86400 * |(-1.5 : ℝ)| < 2 ^ 52 := by
  rw [abs_of_neg (by norm_num), show (3 : Int).toNat = 3 from rfl]; norm_num

end Sla.Props
