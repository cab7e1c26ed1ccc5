import Verif.Lemmas.Calendar32
import Verif.Lemmas.CMath

/-
Property theorems C01-C06, C08: calendar conversions.
-/
namespace Sla.Props
open Spec

/-! ## C01 -/

/-- C01: for every valid Gregorian date from year -4699 on, `cldj` reports OK and returns the number of
    days from 1858 November 17. -/
theorem C01_cldj_counts_days (D : YMD) (h : D.Valid) (hy : -4699 ≤ D.year) (old : ℝ) :
    ∃ n : Int, IsDayNumber D n ∧ cldj D.year D.month D.day old = (.ok, (n : ℝ)) := by
  refine ⟨cldjExpr D.year D.month D.day,
    isDayNumber_cldjExpr h (by omega) (by have := cldjExpr_ge h hy; omega), ?_⟩
  unfold cldj
  rw [if_pos hy, if_pos ⟨h.1, h.2.1⟩, validate_eq h.1 h.2.1, if_pos ⟨h.2.2.1, h.2.2.2⟩]

/-- The day number of a date is unique, so C01 determines the result. -/
theorem C01_dayNumber_unique (D : YMD) (h : D.Valid) (hy : -4699 ≤ D.year) (m n : Int)
    (hm : IsDayNumber D m) (hn : IsDayNumber D n) : m = n := by
  rw [isDayNumber_eq h (by omega) hm, isDayNumber_eq h (by omega) hn]

/-- C01, successor form: the next calendar day has the next MJD. -/
theorem C01_cldj_nextDay (D : YMD) (h : D.Valid) (hy : -4699 ≤ D.year) (old old' : ℝ) :
    cldj (nextDay D).year (nextDay D).month (nextDay D).day old'
      = (.ok, (cldj D.year D.month D.day old).2 + 1) := by
  have hv := nextDay_valid h
  have hy' : -4699 ≤ (nextDay D).year := le_trans hy (nextDay_year_ge D)
  unfold cldj
  rw [if_pos hy', if_pos ⟨hv.1, hv.2.1⟩, if_pos hy, if_pos ⟨h.1, h.2.1⟩,
    validate_eq hv.1 hv.2.1, if_pos ⟨hv.2.2.1, hv.2.2.2⟩, cldjExpr_nextDay h (by omega)]
  simp

/-- C01: the MJD epoch. -/
theorem C01_cldj_epoch (old : ℝ) : cldj 1858 11 17 old = (.ok, 0) := by
  have e : cldjExpr 1858 11 17 = 0 := by decide
  have v : validateGregorianDay 1858 11 17 = .ok := by decide
  simp [cldj, e, v]

example : (⟨2000, 2, 29⟩ : YMD).Valid ∧ (-4699 : Int) ≤ 2000 := by decide
example : (⟨-4699, 1, 1⟩ : YMD).Valid ∧ ¬ (⟨1900, 2, 29⟩ : YMD).Valid := by decide

/-! ## C02 -/

/-- C02, inverse direction: every accepted MJD yields a valid date and a fraction in [0,1) which together
    are that MJD. -/
theorem C02_djcl_sound (mjd : ℝ) (h1 : -2395520 < mjd) (h2 : mjd < 1e9) :
    ∃ (D : YMD) (f : ℝ) (n : Int), djcl mjd = some (⟨D.year, D.month, D.day⟩, f) ∧
      D.Valid ∧ IsDayNumber D n ∧ 0 ≤ f ∧ f < 1 ∧ (n : ℝ) + f = mjd := by
  have hn : -2395521 ≤ ⌊mjd⌋ := by
    rw [Int.le_floor]; push_cast; linarith
  obtain ⟨k, hk, hkn⟩ := exists_date ⌊mjd⌋ hn
  have hyear : -4711 ≤ (addDays k startDate).year :=
    le_trans (by decide) (addDays_year_ge k startDate)
  have hval := addDays_valid startDate_valid k
  refine ⟨addDays k startDate, Int.fract mjd, ⌊mjd⌋, ?_, hval, ?_, Int.fract_nonneg _, Int.fract_lt_one _, ?_⟩
  · unfold djcl
    rw [if_neg (by push Not; constructor <;> linarith)]
    simp only [cfmod_one_wrap]
    have e : mjd - Int.fract mjd = ((⌊mjd⌋ : ℤ) : ℝ) := by
      have := Int.floor_add_fract mjd; linarith
    rw [e]
    simp only [cround_intCast]
    congr 2
    rw [← hkn]
    exact djclExpr_cldjExpr hval hyear (by rw [hkn]; exact hn)
  · have := isDayNumber_cldjExpr hval hyear (by rw [hkn]; exact hn)
    rwa [hkn] at this
  · exact Int.floor_add_fract mjd

/-- C02, round trip through both functions: a valid date plus any fraction of a day survives
    `cldj` followed by `djcl`. -/
theorem C02_djcl_cldj (D : YMD) (h : D.Valid) (hy : -4699 ≤ D.year) (f : ℝ) (hf : 0 ≤ f) (hf' : f < 1)
    (old : ℝ) (hmax : (cldj D.year D.month D.day old).2 + f < 1e9) :
    djcl ((cldj D.year D.month D.day old).2 + f) = some (⟨D.year, D.month, D.day⟩, f) := by
  have hge := cldjExpr_ge h hy
  have e : (cldj D.year D.month D.day old).2 = ((cldjExpr D.year D.month D.day : Int) : ℝ) := by
    unfold cldj; rw [if_pos hy, if_pos ⟨h.1, h.2.1⟩]
  rw [e] at hmax ⊢
  have hge' : (-2395215 : ℝ) ≤ ((cldjExpr D.year D.month D.day : Int) : ℝ) := by exact_mod_cast hge
  unfold djcl
  rw [if_neg (by push Not; constructor <;> linarith)]
  simp only [cfmod_one_wrap]
  have hfr : Int.fract (((cldjExpr D.year D.month D.day : Int) : ℝ) + f) = f := by
    rw [Int.fract_intCast_add, Int.fract_eq_self.2 ⟨hf, hf'⟩]
  rw [hfr, add_sub_cancel_right]
  simp only [cround_intCast]
  rw [djclExpr_cldjExpr h (by omega) (by omega)]

/-- C02: outside the range the function reports the error. -/
theorem C02_djcl_range (mjd : ℝ) : djcl mjd = none ↔ mjd ≤ -2395520 ∨ 1e9 ≤ mjd := by
  unfold djcl; split <;> simp_all

/-- C02: the calendar fields that djcl returns, fed to cldj, give back the day (years cldj accepts). -/
theorem C02_cldj_djcl (mjd : ℝ) (c : CalDate) (f : ℝ) (h : djcl mjd = some (c, f)) (hy : -4699 ≤ c.year)
    (old : ℝ) : ∃ v, cldj c.year c.month c.day old = (.ok, v) ∧ v + f = mjd := by
  have hr : ¬ (mjd ≤ -2395520 ∨ 1e9 ≤ mjd) := by
    rw [← C02_djcl_range, h]; simp
  push Not at hr
  obtain ⟨D, f', n, h1, hv, hn, -, -, hs⟩ := C02_djcl_sound mjd hr.1 hr.2
  rw [h] at h1
  simp only [Option.some.injEq, Prod.mk.injEq] at h1
  obtain ⟨rfl, rfl⟩ := h1
  obtain ⟨m, hm, hc⟩ := C01_cldj_counts_days D hv hy old
  refine ⟨m, hc, ?_⟩
  rw [C01_dayNumber_unique D hv hy m n hm hn, hs]

example : (-2395520 : ℝ) < 51544.5 ∧ (51544.5 : ℝ) < 1e9 := by norm_num
example : ∃ c f, djcl 51544.5 = some (c, f) ∧ -4699 ≤ c.year := by
  have : djcl ((cldj 2000 1 1 0).2 + 1/2) = some (⟨2000, 1, 1⟩, 1/2) :=
    C02_djcl_cldj ⟨2000, 1, 1⟩ (by decide) (by decide) (1/2) (by norm_num) (by norm_num) 0 (by
      have e : cldjExpr 2000 1 1 = 51544 := by decide
      simp [cldj, e]; norm_num)
  have e : cldjExpr 2000 1 1 = 51544 := by decide
  have e2 : (cldj 2000 1 1 0).2 + 1/2 = 51544.5 := by simp [cldj, e]; norm_num
  rw [e2] at this
  exact ⟨_, _, this, by decide⟩

/-! ## C03 -/

/-- C03: status and output of `cldj` for every input. -/
theorem C03_cldj_status (year month day : Int) (old : ℝ) :
    (year < -4699 → cldj year month day old = (.badYear, old)) ∧
    (-4699 ≤ year → ¬ (1 ≤ month ∧ month ≤ 12) → cldj year month day old = (.badMonth, old)) ∧
    (-4699 ≤ year → 1 ≤ month → month ≤ 12 →
      (cldj year month day old).1 = (if 1 ≤ day ∧ day ≤ monthLength year month then .ok else .badDay) ∧
      ∀ old', (cldj year month day old).2 = (cldj year month day old').2) := by
  refine ⟨fun h => ?_, fun h h' => ?_, fun h h1 h2 => ?_⟩
  · unfold cldj; rw [if_neg (by omega)]
  · unfold cldj; rw [if_pos h, if_neg h']
  · refine ⟨?_, fun old' => ?_⟩
    · unfold cldj; rw [if_pos h, if_pos ⟨h1, h2⟩]; exact validate_eq h1 h2
    · unfold cldj; rw [if_pos h, if_pos ⟨h1, h2⟩, if_pos h, if_pos ⟨h1, h2⟩]

/-- C03: with a bad day the value still counts days: it is the MJD of the first of the month plus
    `day - 1`. -/
theorem C03_cldj_badDay_value (year month day : Int) (old old' : ℝ) (hy : -4699 ≤ year)
    (h1 : 1 ≤ month) (h2 : month ≤ 12) :
    (cldj year month day old).2 = (cldj year month 1 old').2 + ((day - 1 : Int) : ℝ) := by
  unfold cldj
  rw [if_pos hy, if_pos ⟨h1, h2⟩, if_pos hy, if_pos ⟨h1, h2⟩]
  unfold cldjExpr
  push_cast; ring

example (old : ℝ) : (cldj 1900 2 29 old).1 = .badDay ∧ cldj (-4700) 13 40 old = (.badYear, old) := by
  refine ⟨?_, ?_⟩
  · rw [((C03_cldj_status 1900 2 29 old).2.2 (by decide) (by decide) (by decide)).1]; decide
  · exact (C03_cldj_status (-4700) 13 40 old).1 (by decide)

/-! ## C04 -/

/-- Specification of the century default. -/
def completedYear (y c : Int) : Prop :=
  (0 ≤ y ∧ y ≤ 49 ∧ c = 2000 + y) ∨ (50 ≤ y ∧ y ≤ 99 ∧ c = 1900 + y) ∨ ((y < 0 ∨ 99 < y) ∧ c = y)

/-- C04: `caldj` and `calyd` agree with `cldj` and `clyd` on the completed year, in status and outputs. -/
theorem C04_century_default (year month day : Int) (old : ℝ) (jy jd : Int) :
    ∃ c, completedYear year c ∧ caldj year month day old = cldj c month day old ∧
      calyd year month day jy jd = clyd c month day jy jd := by
  refine ⟨processYearDefaults year, ?_, rfl, rfl⟩
  unfold completedYear processYearDefaults
  split
  · left; omega
  · split
    · right; left; omega
    · right; right; omega

/-- The completed year is unique. -/
theorem C04_completedYear_unique (y c c' : Int) (h : completedYear y c) (h' : completedYear y c') :
    c = c' := by unfold completedYear at *; omega

/-! ## C05 -/

/-- C05: in 1900 March 1 .. 2100 February 28 `clyd` returns the calendar year and the ordinal day of the
    same date in the Julian calendar. -/
theorem C05_clyd_interval (D : YMD) (h : D.Valid) (ha : YMD.le ⟨1900, 3, 1⟩ D)
    (hb : YMD.le D ⟨2100, 2, 28⟩) (jy jd : Int) :
    clyd D.year D.month D.day jy jd
      = (.ok, D.year, ordinalDay (decide (4 ∣ D.year)) D.month D.day) := by
  have hy : -4711 ≤ D.year := by unfold YMD.le at ha; dsimp only at ha; omega
  unfold clyd
  rw [if_pos hy, if_pos ⟨h.1, h.2.1⟩, validate_eq h.1 h.2.1, if_pos ⟨h.2.2.1, h.2.2.2⟩,
    clydExpr_interval h ha hb]

/-- C05: from 1901 on (to 2100 February 28) this is the ordinal day in the Gregorian calendar. -/
theorem C05_clyd_gregorian (D : YMD) (h : D.Valid) (ha : 1901 ≤ D.year)
    (hb : YMD.le D ⟨2100, 2, 28⟩) (jy jd : Int) :
    clyd D.year D.month D.day jy jd
      = (.ok, D.year, ordinalDay (decide (isLeap D.year)) D.month D.day) := by
  rw [C05_clyd_interval D h (by unfold YMD.le; dsimp only; omega) hb]
  unfold YMD.le at hb; dsimp only at hb
  by_cases hy : D.year = 2100
  · rw [ordinalDay_eq h.1 h.2.1, ordinalDay_eq h.1 h.2.1]
    have : D.month ≤ 2 := by omega
    simp [this]
  · congr 3
    rw [decide_eq_decide, isLeap_iff]; omega

/-- C05, the deviation at the start of the interval: in March-December 1900 the day is one more than
    the Gregorian ordinal day (the Julian calendar has a 29 February 1900). -/
theorem C05_clyd_1900 (D : YMD) (h : D.Valid) (hy : D.year = 1900) (hm : 3 ≤ D.month) (jy jd : Int) :
    clyd D.year D.month D.day jy jd
      = (.ok, 1900, ordinalDay (decide (isLeap D.year)) D.month D.day + 1) := by
  rw [C05_clyd_interval D h (by unfold YMD.le; dsimp only; have := h.2.2.1; omega)
    (by unfold YMD.le; dsimp only; omega), ordinalDay_eq h.1 h.2.1, ordinalDay_eq h.1 h.2.1, hy]
  have h4 : decide ((4 : Int) ∣ 1900) = true := by decide
  have hl : decide (isLeap 1900) = false := by decide
  rw [h4, hl, if_neg (by omega)]
  simp only [Bool.false_eq_true, if_false, if_true, Prod.mk.injEq, true_and]
  omega

/-- C05: for all valid dates from -4711 on the result advances like the Julian calendar. -/
theorem C05_clyd_julian (D : YMD) (h : D.Valid) (hy : -4711 ≤ D.year) (a b a' b' : Int) :
    (clyd D.year D.month D.day a b).1 = .ok ∧
    clyd (nextDay D).year (nextDay D).month (nextDay D).day a' b'
      = (.ok, julianNext (clyd D.year D.month D.day a b).2) := by
  have hv := nextDay_valid h
  have hy' : -4711 ≤ (nextDay D).year := le_trans hy (nextDay_year_ge D)
  have hge : -2399598 ≤ cldjExpr D.year D.month D.day := by
    rw [cldjExpr_eq h.1 h.2.1 hy]
    obtain ⟨h1, h2, h3, -⟩ := h
    obtain ⟨y, m, d⟩ := D
    dsimp only at *
    rcases monthLength_cases h1 h2 with h|h|h|h|h|h|h|h|h|h|h|h <;> subst h <;> norm_num <;> omega
  unfold clyd
  rw [if_pos hy, if_pos ⟨h.1, h.2.1⟩, if_pos hy', if_pos ⟨hv.1, hv.2.1⟩,
    validate_eq h.1 h.2.1, if_pos ⟨h.2.2.1, h.2.2.2⟩,
    validate_eq hv.1 hv.2.1, if_pos ⟨hv.2.2.1, hv.2.2.2⟩]
  refine ⟨rfl, ?_⟩
  rw [clydExpr_eq_post, clydExpr_eq_post, clydJ_eq hv.1 hv.2.1 hy', clydJ_eq h.1 h.2.1 hy,
    cldjExpr_nextDay h hy, add_right_comm, clydPost_succ (by omega)]

/-- C05: errors. -/
theorem C05_clyd_status (year month day jy jd : Int) :
    (year < -4711 → clyd year month day jy jd = (.badYear, jy, jd)) ∧
    (-4711 ≤ year → ¬ (1 ≤ month ∧ month ≤ 12) → clyd year month day jy jd = (.badMonth, jy, jd)) ∧
    (-4711 ≤ year → 1 ≤ month → month ≤ 12 →
      (clyd year month day jy jd).1 = (if 1 ≤ day ∧ day ≤ monthLength year month then .ok else .badDay) ∧
      ∀ a b, (clyd year month day jy jd).2 = (clyd year month day a b).2) := by
  refine ⟨fun h => ?_, fun h h' => ?_, fun h h1 h2 => ?_⟩
  · unfold clyd; rw [if_neg (by omega)]
  · unfold clyd; rw [if_pos h, if_neg h']
  · refine ⟨?_, fun a b => ?_⟩
    · unfold clyd; rw [if_pos h, if_pos ⟨h1, h2⟩]; exact validate_eq h1 h2
    · unfold clyd; rw [if_pos h, if_pos ⟨h1, h2⟩, if_pos h, if_pos ⟨h1, h2⟩]

example : clyd 2000 12 31 0 0 = (.ok, 2000, 366) := by decide
example : (⟨1987, 6, 30⟩ : YMD).Valid ∧ YMD.le ⟨1900, 3, 1⟩ ⟨1987, 6, 30⟩ ∧
    YMD.le ⟨1987, 6, 30⟩ ⟨2100, 2, 28⟩ := by decide

/-! ## C06 -/

theorem djcalExpr_eq (jd : Int) : djcalExpr jd = djclExpr jd := by
  unfold djcalExpr djclExpr
  have e : ∀ q : Int, 2 * q * 3 = 6 * q := fun q => by ring
  simp only [e]

/-- C06: `djcal` returns the valid date and integer fraction of `mjd` rounded to the nearest `10^-ndp` day. -/
theorem C06_djcal (ndp : Int) (mjd : ℝ) (h1 : -2395520 < mjd) (h2 : mjd < 1e9) :
    ∃ (D : YMD) (i n : Int), djcal ndp mjd = some (⟨D.year, D.month, D.day⟩, i) ∧
      D.Valid ∧ IsDayNumber D n ∧ 0 ≤ i ∧ i < 10 ^ (max ndp 0).toNat ∧
      |((n : ℝ) + i / 10 ^ (max ndp 0).toNat) - mjd| ≤ 1 / 2 / 10 ^ (max ndp 0).toNat := by
  set p := (max ndp 0).toNat
  set N : Int := 10 ^ p with hN
  have hN0 : 0 < N := by positivity
  have hN1 : 1 ≤ N := hN0
  have hNr : (0 : ℝ) < (N : ℝ) := by exact_mod_cast hN0
  have hNp : (10 : ℝ) ^ p = (N : ℝ) := by rw [hN]; push_cast; rfl
  set r : Int := cround (mjd * N) with hr
  have habs := abs_cround_sub_le (mjd * N)
  rw [← hr] at habs
  have habs' := abs_le.1 habs
  -- the day
  have hn : -2395521 ≤ r / N := by
    rw [Int.le_ediv_iff_mul_le hN0]
    have h1' : (-2395520 : ℝ) * N ≤ mjd * N := by
      apply mul_le_mul_of_nonneg_right h1.le hNr.le
    have hlt : ((-2395520 * N - 1 : Int) : ℝ) < (r : ℝ) := by push_cast; linarith
    have : -2395520 * N - 1 < r := by exact_mod_cast hlt
    nlinarith
  obtain ⟨k, hk, hkn⟩ := exists_date (r / N) hn
  have hyear : -4711 ≤ (addDays k startDate).year :=
    le_trans (by decide) (addDays_year_ge k startDate)
  have hval := addDays_valid startDate_valid k
  have hfl : ⌊(r : ℝ) / (N : ℝ)⌋ = r / N := by
    rw [Int.floor_eq_iff, le_div_iff₀ hNr, div_lt_iff₀ hNr]
    constructor
    · exact_mod_cast Int.ediv_mul_le r hN0.ne'
    · exact_mod_cast Int.lt_ediv_add_one_mul_self r hN0
  have hmod : (r : ℝ) - N * ((r / N : Int) : ℝ) = ((r % N : Int) : ℝ) := by
    have := Int.emod_def r N
    rw [this]; push_cast; ring
  refine ⟨addDays k startDate, r % N, r / N, ?_, hval, ?_, Int.emod_nonneg _ hN0.ne',
    Int.emod_lt_of_pos _ hN0, ?_⟩
  · unfold djcal
    rw [if_neg (by push Not; constructor <;> linarith)]
    simp only
    rw [cfmod_wrap _ hNr]
    change some (djcalExpr (cround (((r : ℝ) - ((r : ℝ) - N * ⌊(r : ℝ) / (N : ℝ)⌋)) / N) + 2400001),
      cround ((r : ℝ) - N * ⌊(r : ℝ) / (N : ℝ)⌋)) = _
    rw [hfl, hmod, cround_intCast]
    have : ((r : ℝ) - ((r % N : Int) : ℝ)) / N = ((r / N : Int) : ℝ) := by
      rw [← hmod]; field_simp; ring
    rw [this, cround_intCast, djcalExpr_eq]
    congr 2
    conv_lhs => rw [← hkn]
    exact djclExpr_cldjExpr hval hyear (by rw [hkn]; exact hn)
  · have := isDayNumber_cldjExpr hval hyear (by rw [hkn]; exact hn)
    rwa [hkn] at this
  · rw [hNp, ← hmod]
    have e : ((r / N : Int) : ℝ) + ((r : ℝ) - N * ((r / N : Int) : ℝ)) / N - mjd = (r - mjd * N) / N := by
      field_simp; ring
    rw [e, abs_div, abs_of_pos hNr]
    exact div_le_div_of_nonneg_right habs hNr.le

/-- C06: out of range. -/
theorem C06_djcal_range (ndp : Int) (mjd : ℝ) : djcal ndp mjd = none ↔ mjd ≤ -2395520 ∨ 1e9 ≤ mjd := by
  unfold djcal; split <;> simp_all

/-! ## C08 -/

/-- Years are counted from March in `cldj` and `clyd`. -/
private theorem march_shift {m : Int} (h1 : 1 ≤ m) (h2 : m ≤ 12) :
    (12 - m) / 10 = (if m ≤ 2 then 1 else 0) ∧ (14 - m) / 12 = if m ≤ 2 then 1 else 0 := by
  split <;> constructor <;> omega

/-- C08: no overflow in `cldj` for years up to February 1465161 and any plausible day. -/
theorem C08_cldj_no_overflow (year month day : Int) (h1 : 1 ≤ month) (h2 : month ≤ 12)
    (hy : -4699 ≤ year) (hy' : year - (if month ≤ 2 then 1 else 0) ≤ 1465160) (hd : -1000000000 ≤ day) (hd' : day ≤ 1000000000) (old : ℝ) :
    ∃ v, cldjExpr32 year month day = some v ∧ (cldj year month day old).2 = (v : ℝ) := by
  refine ⟨_, cldjExpr32_eq h1 h2 (by omega) (by rw [(march_shift h1 h2).1]; exact hy') hd hd', ?_⟩
  unfold cldj; rw [if_pos hy, if_pos ⟨h1, h2⟩]

/-- C08: no overflow in `clyd` for years up to February 1465073. -/
theorem C08_clyd_no_overflow (year month day : Int) (h1 : 1 ≤ month) (h2 : month ≤ 12)
    (hy : -4711 ≤ year) (hy' : year - (if month ≤ 2 then 1 else 0) ≤ 1465072) (hd : -1000 ≤ day) (hd' : day ≤ 1000000000) (a b : Int) :
    ∃ v, clydExpr32 year month day = some v ∧ (clyd year month day a b).2 = v := by
  refine ⟨_, clydExpr32_eq h1 h2 hy (by rw [(march_shift h1 h2).2]; exact hy') hd hd', ?_⟩
  unfold clyd; rw [if_pos hy, if_pos ⟨h1, h2⟩]

/-- C08: no overflow in `djcl` up to and including the day MJD 534459923. -/
theorem C08_djcl_no_overflow (mjd : ℝ) (h1 : -2395520 < mjd) (h2 : mjd < 534459924) :
    ∃ c f, djcl mjd = some (c, f) ∧ djclExpr32 ⌊mjd⌋ = some c := by
  have hn : -2395521 ≤ ⌊mjd⌋ := by rw [Int.le_floor]; push_cast; linarith
  have hn' : ⌊mjd⌋ ≤ 534459923 := by
    have : ⌊mjd⌋ < 534459924 := by rw [Int.floor_lt]; push_cast; exact h2
    omega
  refine ⟨djclExpr (⌊mjd⌋ + 2400001), Int.fract mjd, ?_, djclExpr32_eq hn hn'⟩
  unfold djcl
  rw [if_neg (by push Not; constructor; · linarith
                 · norm_num; linarith)]
  simp only [cfmod_one_wrap]
  have e : mjd - Int.fract mjd = ((⌊mjd⌋ : ℤ) : ℝ) := by
    have := Int.floor_add_fract mjd; linarith
  rw [e]
  simp only [cround_intCast]

/-- C08: the bounds are sharp: for dates that are accepted, `cldj`, `clyd` and `djcl` overflow exactly beyond them. -/
theorem C08_sharp (year month day : Int) (h1 : 1 ≤ month) (h2 : month ≤ 12) (hy' : year ≤ 2147483647) (hd : -1000 ≤ day)
    (hd' : day ≤ 1000000000) :
    (-4699 ≤ year → (cldjExpr32 year month day = none ↔ 1465160 < year - if month ≤ 2 then 1 else 0)) ∧
    (-4711 ≤ year → (clydExpr32 year month day = none ↔ 1465072 < year - if month ≤ 2 then 1 else 0)) ∧
    ∀ mjd : ℝ, -2395520 < mjd → mjd < 1e9 → (djclExpr32 ⌊mjd⌋ = none ↔ 534459924 ≤ mjd) := by
  obtain ⟨m1, m2⟩ := march_shift h1 h2
  refine ⟨fun hy => ?_, fun hy => ?_, fun mjd hm hm' => ?_⟩
  · rw [← m1]
    refine ⟨fun h => ?_, fun h => cldjExpr32_none h1 h2 h hy'⟩
    by_contra hc
    rw [cldjExpr32_eq h1 h2 (by omega) (not_lt.1 hc) (by omega) hd'] at h
    simp at h
  · rw [← m2]
    refine ⟨fun h => ?_, fun h => clydExpr32_none h1 h2 h hy'⟩
    by_contra hc
    rw [clydExpr32_eq h1 h2 hy (not_lt.1 hc) hd hd'] at h
    simp at h
  · have hf : (534459924 : ℝ) ≤ mjd ↔ 534459924 ≤ ⌊mjd⌋ := by rw [Int.le_floor]; norm_num
    rw [hf]
    refine ⟨fun h => ?_, fun h => djclExpr32_none h ?_⟩
    · by_contra hc
      have hn : -2395521 ≤ ⌊mjd⌋ := by rw [Int.le_floor]; push_cast; linarith
      rw [djclExpr32_eq hn (by omega)] at h
      simp at h
    · have : ⌊mjd⌋ < 1000000000 := by rw [Int.floor_lt]; norm_num at hm' ⊢; linarith
      omega

example : cldjExpr32 1465161 2 28 ≠ none ∧ cldjExpr32 1465161 3 1 = none :=
  ⟨fun h => absurd (((C08_sharp 1465161 2 28 (by decide) (by decide) (by decide) (by decide) (by decide)).1 (by decide)).1 h)
    (by decide), ((C08_sharp 1465161 3 1 (by decide) (by decide) (by decide) (by decide) (by decide)).1 (by decide)).2 (by decide)⟩

/-- C08, counterexample: `djcl` accepts MJD 6e8, for which its integer arithmetic overflows. -/
theorem C08_djcl_overflow_witness : djcl 600000000 ≠ none ∧ djclExpr32 600000000 = none := by
  refine ⟨?_, by decide⟩
  rw [Ne, C02_djcl_range]; norm_num

/-- C08, counterexample: `cldj` accepts the year 2000000, for which its integer arithmetic overflows. -/
theorem C08_cldj_overflow_witness : (cldj 2000000 1 1 0).1 = .ok ∧ cldjExpr32 2000000 1 1 = none := by
  refine ⟨?_, by decide⟩
  rw [((C03_cldj_status 2000000 1 1 0).2.2 (by decide) (by decide) (by decide)).1]; decide

end Sla.Props
