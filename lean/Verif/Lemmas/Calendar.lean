import Verif.Spec.Gregorian
import Verif.Model.Calendar

namespace Sla
open Spec

theorem monthLength_bounds (y m : Int) : 28 ≤ monthLength y m ∧ monthLength y m ≤ 31 := by
  unfold monthLength; split <;> (try split) <;> omega

theorem isLeap_iff (y : Int) : isLeap y ↔ (y % 4 = 0 ∧ (y % 100 ≠ 0 ∨ y % 400 = 0)) := by
  unfold isLeap; omega

theorem nextDay_valid {D : YMD} (h : D.Valid) : (nextDay D).Valid := by
  obtain ⟨y, m, d⟩ := D
  simp only [YMD.Valid] at h
  have h1 := monthLength_bounds y (m+1)
  have h2 := monthLength_bounds (y+1) 1
  unfold nextDay YMD.Valid
  dsimp only
  split
  · dsimp only; omega
  · split <;> dsimp only <;> omega

theorem addDays_valid {D : YMD} (h : D.Valid) (k : Nat) : (addDays k D).Valid := by
  induction k with
  | zero => exact h
  | succ k ih => exact nextDay_valid ih

theorem addDays_add (j k : Nat) (D : YMD) : addDays (j + k) D = addDays j (addDays k D) := by
  induction j with
  | zero => simp [addDays]
  | succ j ih => rw [Nat.succ_add]; simp [addDays, ih]

theorem monthLength_cases {m : Int} (h1 : 1 ≤ m) (h2 : m ≤ 12) :
    m = 1 ∨ m = 2 ∨ m = 3 ∨ m = 4 ∨ m = 5 ∨ m = 6 ∨ m = 7 ∨ m = 8 ∨ m = 9 ∨ m = 10 ∨ m = 11 ∨ m = 12 := by
  omega

/-- Status of `validateGregorianDay` against the specification. -/
theorem validate_eq {y m d : Int} (h1 : 1 ≤ m) (h2 : m ≤ 12) :
    validateGregorianDay y m d = if 1 ≤ d ∧ d ≤ monthLength y m then .ok else .badDay := by
  have key : (y.tmod 4 = 0 ∧ (y.tmod 100 ≠ 0 ∨ y.tmod 400 = 0)) ↔ isLeap y := by
    unfold isLeap
    rw [← Int.dvd_iff_tmod_eq_zero, ← Int.dvd_iff_tmod_eq_zero, Ne, ← Int.dvd_iff_tmod_eq_zero]
  have e : validateGregorianDay y m d = if d < 1 ∨ d > monthLength y m then .badDay else .ok := by
    unfold validateGregorianDay
    simp only [key]
    rcases monthLength_cases h1 h2 with h|h|h|h|h|h|h|h|h|h|h|h <;> subst h <;>
      simp [monthLength, daysInMonthTable]
  rw [e]
  by_cases h : 1 ≤ d ∧ d ≤ monthLength y m
  · rw [if_pos h, if_neg (by omega)]
  · rw [if_neg h, if_pos (by omega)]

/-- On its domain the cldj formula only divides nonnegative numbers. -/
theorem cldjExpr_eq {y m d : Int} (h1 : 1 ≤ m) (h2 : m ≤ 12) (hy : -4711 ≤ y) :
    cldjExpr y m d = (1461 * (y - (12 - m) / 10 + 4712)) / 4 + (306 * ((m + 9) % 12) + 5) / 10
      - (3 * ((y - (12 - m) / 10 + 4900) / 100)) / 4 + d - 2399904 := by
  unfold cldjExpr
  rw [Int.tdiv_eq_ediv_of_nonneg (a := 12 - m) (by omega), Int.tmod_eq_emod_of_nonneg (by omega),
    Int.tdiv_eq_ediv_of_nonneg (a := 1461 * _) (by omega),
    Int.tdiv_eq_ediv_of_nonneg (a := 306 * _ + 5) (by omega),
    Int.tdiv_eq_ediv_of_nonneg (a := _ + 4900) (by omega),
    Int.tdiv_eq_ediv_of_nonneg (a := 3 * _) (by omega)]

theorem nextDay_year_ge (D : YMD) : D.year ≤ (nextDay D).year := by
  unfold nextDay; split
  · simp
  · split <;> simp

/-- Successor law for the cldj formula. -/
theorem cldjExpr_nextDay {D : YMD} (h : D.Valid) (hy : -4711 ≤ D.year) :
    cldjExpr (nextDay D).year (nextDay D).month (nextDay D).day
      = cldjExpr D.year D.month D.day + 1 := by
  have hv := nextDay_valid h
  rw [cldjExpr_eq h.1 h.2.1 hy, cldjExpr_eq hv.1 hv.2.1 (le_trans hy (nextDay_year_ge D))]
  clear hv
  obtain ⟨y, m, d⟩ := D
  simp only [YMD.Valid] at h hy
  obtain ⟨h1, h2, h3, h4⟩ := h
  unfold nextDay
  dsimp only
  by_cases hd : d < monthLength y m
  · simp only [if_pos hd]; omega
  · have hd' : d = monthLength y m := by omega
    simp only [if_neg hd]
    clear hd h3 h4
    rcases monthLength_cases h1 h2 with h|h|h|h|h|h|h|h|h|h|h|h <;> subst h <;>
      simp only [monthLength, isLeap_iff] at hd' <;> norm_num at hd' ⊢
    all_goals first
      | (subst hd'; omega)
      | (obtain ⟨a, b, c, e, hb, hc, he, rfl⟩ : ∃ a b c e : Int, (0 ≤ b ∧ b < 4) ∧ (0 ≤ c ∧ c < 25) ∧
            (0 ≤ e ∧ e < 4) ∧ y = 400 * a + 100 * b + 4 * c + e :=
          ⟨y / 400, y % 400 / 100, y % 100 / 4, y % 4, by omega⟩
         have hq' : (400 * a + 100 * b + 4 * c + e + 4900) / 100 = 4 * a + b + 49 := by omega
         have h3 : 1461 * (400 * a + 100 * b + 4 * c + e - 1 + 4712) / 4
            = 365 * (400 * a + 100 * b + 4 * c + e - 1 + 4712) + 100 * a + 25 * b + c + 1178
              + (e - 1) / 4 := by omega
         have h4 : 1461 * (400 * a + 100 * b + 4 * c + e + 4712) / 4
            = 365 * (400 * a + 100 * b + 4 * c + e + 4712) + 100 * a + 25 * b + c + 1178 := by omega
         rw [hq', h3, h4]
         by_cases hce : c = 0 ∧ e = 0
         · have hq : (400 * a + 100 * b + 4 * c + e - 1 + 4900) / 100 = 4 * a + b + 48 := by omega
           rw [hq]; obtain ⟨rfl, rfl⟩ := hce
           rcases (by omega : b = 0 ∨ b = 1 ∨ b = 2 ∨ b = 3) with rfl | rfl | rfl | rfl <;>
             split at hd' <;> subst hd' <;> omega
         · have hq : (400 * a + 100 * b + 4 * c + e - 1 + 4900) / 100 = 4 * a + b + 49 := by omega
           rw [hq]; split at hd' <;> subst hd' <;> omega)

/-- The first date used for the calendar chain: 4701 BC March 1. -/
def startDate : YMD := ⟨-4700, 3, 1⟩

theorem startDate_valid : startDate.Valid := by decide

/-- Inverse formula evaluated on nonnegative operands. -/
theorem djclExpr_eq {jd : Int} (h : 4480 ≤ jd) :
    djclExpr jd =
      (let n4 := 4 * (jd + ((6 * ((4 * jd - 17918) / 146097)) / 4 + 1) / 2 - 37)
       let nd10 := 10 * (((n4 - 237) % 1461) / 4) + 5
       { year := n4 / 1461 - 4712
         month := (nd10 / 306 + 2) % 12 + 1
         day := (nd10 % 306) / 10 + 1 }) := by
  unfold djclExpr
  dsimp only
  have e1 : (4 * jd - 17918).tdiv 146097 = (4 * jd - 17918) / 146097 :=
    Int.tdiv_eq_ediv_of_nonneg (by omega)
  rw [e1]
  generalize hq : (4 * jd - 17918) / 146097 = q
  have hq0 : 0 ≤ q := by omega
  have e2 : (6 * q).tdiv 4 = 6 * q / 4 := Int.tdiv_eq_ediv_of_nonneg (by omega)
  rw [e2]
  have e3 : (6 * q / 4 + 1).tdiv 2 = (6 * q / 4 + 1) / 2 := Int.tdiv_eq_ediv_of_nonneg (by omega)
  rw [e3]
  generalize hn : 4 * (jd + (6 * q / 4 + 1) / 2 - 37) = n4
  have hn0 : 237 ≤ n4 := by omega
  have e4 : (n4 - 237).tmod 1461 = (n4 - 237) % 1461 := Int.tmod_eq_emod_of_nonneg (by omega)
  rw [e4]
  have e5 : ((n4 - 237) % 1461).tdiv 4 = (n4 - 237) % 1461 / 4 := Int.tdiv_eq_ediv_of_nonneg (by omega)
  rw [e5]
  generalize hd : 10 * ((n4 - 237) % 1461 / 4) + 5 = nd
  have hd0 : 0 ≤ nd := by omega
  have e6 : n4.tdiv 1461 = n4 / 1461 := Int.tdiv_eq_ediv_of_nonneg (by omega)
  have e7 : nd.tdiv 306 = nd / 306 := Int.tdiv_eq_ediv_of_nonneg (by omega)
  have e8 : (nd / 306 + 2).tmod 12 = (nd / 306 + 2) % 12 := Int.tmod_eq_emod_of_nonneg (by omega)
  have e9 : nd.tmod 306 = nd % 306 := Int.tmod_eq_emod_of_nonneg (by omega)
  have e10 : (nd % 306).tdiv 10 = nd % 306 / 10 := Int.tdiv_eq_ediv_of_nonneg (by omega)
  rw [e6, e7, e8, e9, e10]

/-- Days since the preceding 1 March, for each month. -/
theorem djclExpr_cldjExpr {D : YMD} (h : D.Valid) (hy : -4711 ≤ D.year)
    (hn : -2395521 ≤ cldjExpr D.year D.month D.day) :
    djclExpr (cldjExpr D.year D.month D.day + 2400001) = ⟨D.year, D.month, D.day⟩ := by
  rw [djclExpr_eq (by omega)]
  rw [cldjExpr_eq h.1 h.2.1 hy] at hn ⊢
  obtain ⟨y, m, d⟩ := D
  simp only [YMD.Valid] at h hy hn ⊢
  obtain ⟨h1, h2, h3, h4⟩ := h
  obtain ⟨Y, hY⟩ : ∃ Y, Y = y - (12 - m) / 10 := ⟨_, rfl⟩
  rw [← hY] at hn ⊢
  obtain ⟨dm, hdm⟩ : ∃ dm, dm = (306 * ((m + 9) % 12) + 5) / 10 := ⟨_, rfl⟩
  rw [← hdm] at hn ⊢
  -- year of the March-based calendar in base (400, 100, 4, 1)
  obtain ⟨a, b, c, e, hb, hc, he, hYe⟩ : ∃ a b c e : Int, (0 ≤ b ∧ b < 4) ∧ (0 ≤ c ∧ c < 25) ∧
      (0 ≤ e ∧ e < 4) ∧ Y + 4900 = 400 * a + 100 * b + 4 * c + e :=
    ⟨(Y + 4900) / 400, (Y + 4900) % 400 / 100, (Y + 4900) % 100 / 4, (Y + 4900) % 4, by omega⟩
  have hC : (Y + 4900) / 100 = 4 * a + b := by omega
  have hF : 1461 * (Y + 4712) / 4
      = 365 * (400 * a + 100 * b + 4 * c + e - 188) + 100 * a + 25 * b + c - 47 := by omega
  have hG : 3 * (4 * a + b) / 4 = 3 * a + 3 * b / 4 := by omega
  -- bound on the day within the March-based year
  have hdoy : 0 ≤ dm + d - 1 ∧ dm + d - 1 ≤ 365 ∧
      (dm + d - 1 = 365 → e = 3 ∧ (c = 24 → b = 0)) := by
    rcases monthLength_cases h1 h2 with h|h|h|h|h|h|h|h|h|h|h|h <;> subst h <;>
      simp only [monthLength, isLeap_iff] at h4 <;> norm_num at h4 hdm hY
    all_goals omega
  obtain ⟨t, ht⟩ : ∃ t, t = dm + d - 1 := ⟨_, rfl⟩
  rw [← ht] at hdoy
  have hjd : 1461 * (Y + 4712) / 4 + dm - 3 * ((Y + 4900) / 100) / 4 + d - 2399904 + 2400001
      = 146097 * a + 36525 * b + 1461 * c + 365 * e + t - 365 * 188 - 47 + 98 - 3 * b / 4 := by
    rw [hC, hF, hG]; omega
  have hq : (4 * (1461 * (Y + 4712) / 4 + dm - 3 * ((Y + 4900) / 100) / 4 + d - 2399904 + 2400001) - 17918)
      / 146097 = 4 * a + b - 2 := by
    rw [hjd]
    rcases (by omega : b = 0 ∨ b = 1 ∨ b = 2 ∨ b = 3) with rfl | rfl | rfl | rfl <;> omega
  rw [hq]
  have hr : (6 * (4 * a + b - 2) / 4 + 1) / 2 = 3 * a + 3 * b / 4 - 1 := by
    rcases (by omega : b = 0 ∨ b = 1 ∨ b = 2 ∨ b = 3) with rfl | rfl | rfl | rfl <;> omega
  rw [hr, hjd]
  have hn4 : 4 * (146097 * a + 36525 * b + 1461 * c + 365 * e + t - 365 * 188 - 47 + 98 - 3 * b / 4 +
      (3 * a + 3 * b / 4 - 1) - 37) = 1461 * (400 * a + 100 * b + 4 * c + e - 188) - e + 4 * t + 240 := by
    omega
  rw [hn4]
  have hm : (1461 * (400 * a + 100 * b + 4 * c + e - 188) - e + 4 * t + 240 - 237) % 1461 / 4 = t := by
    clear hn4 hr hq hjd hG hF hC hn hYe ht hdm hY h4 h3 h1 h2 hy hb hc
    generalize 400 * a + 100 * b + 4 * c + e - 188 = X
    have : (1461 * X - e + 4 * t + 240 - 237) / 1461 = X := by omega
    omega
  rw [hm]
  clear hn4 hm hr hq hjd hG hF hC hn
  have hml := monthLength_bounds y m
  have hday : (10 * t + 5) / 306 = (m + 9) % 12 ∧ (10 * t + 5) % 306 / 10 + 1 = d := by
    clear hdoy hYe hY hb hc he hy
    rcases monthLength_cases h1 h2 with h|h|h|h|h|h|h|h|h|h|h|h <;> subst h <;>
      simp only [monthLength] at h4 <;> norm_num at h4 hdm <;> subst hdm <;> norm_num
    all_goals omega
  have hyear : (1461 * (400 * a + 100 * b + 4 * c + e - 188) - e + 4 * t + 240) / 1461 - 4712 = y := by
    clear hday
    by_cases hm2 : m ≤ 2
    · have : 306 ≤ t := by
        rcases (by omega : m = 1 ∨ m = 2) with rfl | rfl <;> norm_num at hdm <;> omega
      omega
    · have : t ≤ 305 := by
        rcases monthLength_cases h1 h2 with h|h|h|h|h|h|h|h|h|h|h|h <;> subst h <;>
        simp only [monthLength] at h4 <;> norm_num at h4 hdm hm2 <;> subst hdm <;> omega
      omega
  rw [hday.1, hday.2, hyear]
  congr 1
  clear hday hyear hdoy hYe hY hb hc he hy h4 hml hdm ht
  omega

/-! ### The whole chain of days -/

theorem addDays_year_ge (k : Nat) (D : YMD) : D.year ≤ (addDays k D).year := by
  induction k with
  | zero => exact le_refl _
  | succ k ih => exact le_trans ih (nextDay_year_ge _)

theorem cldjExpr_addDays {D : YMD} (h : D.Valid) (hy : -4711 ≤ D.year) (k : Nat) :
    cldjExpr (addDays k D).year (addDays k D).month (addDays k D).day
      = cldjExpr D.year D.month D.day + k := by
  induction k with
  | zero => simp [addDays]
  | succ k ih =>
    have := cldjExpr_nextDay (addDays_valid h k) (le_trans hy (addDays_year_ge k D))
    simp only [addDays]; rw [this, ih]; push_cast; ring

/-- Every day number from 4701 BC March 1 on belongs to a date of the chain. -/
theorem exists_date (n : Int) (hn : -2395521 ≤ n) :
    ∃ k : Nat, (k : Int) = n + 2395521 ∧
      cldjExpr (addDays k startDate).year (addDays k startDate).month (addDays k startDate).day = n := by
  refine ⟨(n + 2395521).toNat, by omega, ?_⟩
  rw [cldjExpr_addDays startDate_valid (by decide)]
  have : cldjExpr startDate.year startDate.month startDate.day = -2395521 := by decide
  rw [this]; omega

/-- Dates with equal day numbers coincide. -/
theorem eq_of_cldjExpr_eq {D E : YMD} (hD : D.Valid) (hE : E.Valid) (yD : -4711 ≤ D.year)
    (yE : -4711 ≤ E.year) (hn : -2395521 ≤ cldjExpr D.year D.month D.day)
    (h : cldjExpr D.year D.month D.day = cldjExpr E.year E.month E.day) : D = E := by
  have a := djclExpr_cldjExpr hD yD hn
  have b := djclExpr_cldjExpr hE yE (h ▸ hn)
  rw [h, b] at a
  obtain ⟨_, _, _⟩ := D; obtain ⟨_, _, _⟩ := E
  simp only [CalDate.mk.injEq] at a
  simp [a]

theorem cldjExpr_ge {D : YMD} (h : D.Valid) (hy : -4699 ≤ D.year) :
    -2395215 ≤ cldjExpr D.year D.month D.day := by
  rw [cldjExpr_eq h.1 h.2.1 (by omega)]
  obtain ⟨y, m, d⟩ := D
  simp only [YMD.Valid] at *
  obtain ⟨h1, h2, h3, -⟩ := h
  rcases monthLength_cases h1 h2 with h|h|h|h|h|h|h|h|h|h|h|h <;> subst h <;> norm_num <;> omega

theorem cldjExpr_epoch : cldjExpr mjdEpoch.year mjdEpoch.month mjdEpoch.day = 0 := by decide

/-- `cldjExpr` is the day number of the specification. -/
theorem isDayNumber_cldjExpr {D : YMD} (h : D.Valid) (hy : -4711 ≤ D.year)
    (hn : -2395521 ≤ cldjExpr D.year D.month D.day) :
    IsDayNumber D (cldjExpr D.year D.month D.day) := by
  have hev : mjdEpoch.Valid := by decide
  have hey : -4711 ≤ mjdEpoch.year := by decide
  by_cases h0 : 0 ≤ cldjExpr D.year D.month D.day
  · left
    refine ⟨(cldjExpr D.year D.month D.day).toNat, ?_, by omega⟩
    apply eq_of_cldjExpr_eq (addDays_valid hev _) h (le_trans hey (addDays_year_ge _ _)) hy
    · rw [cldjExpr_addDays hev hey, cldjExpr_epoch]; omega
    · rw [cldjExpr_addDays hev hey, cldjExpr_epoch]; omega
  · right
    refine ⟨(-cldjExpr D.year D.month D.day).toNat, ?_, by omega⟩
    apply eq_of_cldjExpr_eq (addDays_valid h _) hev (le_trans hy (addDays_year_ge _ _)) hey
    · rw [cldjExpr_addDays h hy]; omega
    · rw [cldjExpr_addDays h hy, cldjExpr_epoch]; omega

/-- Day numbers are unique. -/
theorem isDayNumber_eq {D : YMD} {n : Int} (h : D.Valid) (hy : -4711 ≤ D.year)
    (hn : IsDayNumber D n) : n = cldjExpr D.year D.month D.day := by
  have hev : mjdEpoch.Valid := by decide
  have hey : -4711 ≤ mjdEpoch.year := by decide
  rcases hn with ⟨k, rfl, rfl⟩ | ⟨k, hk, rfl⟩
  · rw [cldjExpr_addDays hev hey, cldjExpr_epoch]; omega
  · have := cldjExpr_addDays h hy k
    rw [hk, cldjExpr_epoch] at this; omega

/-! ### clyd -/

/-- The Julian day offset computed inside `clyd`. -/
def clydJ (year month day : Int) : Int :=
  (1461 * ((year - (14 - month).tdiv 12) + 4800)).tdiv 4
   + (367 * (month - 2 + 12 * ((14 - month).tdiv 12))).tdiv 12
   - (3 * (((year - (14 - month).tdiv 12) + 4900).tdiv 100)).tdiv 4 + day - 30660

theorem clydJ_eq {y m d : Int} (h1 : 1 ≤ m) (h2 : m ≤ 12) (hy : -4711 ≤ y) :
    clydJ y m d = cldjExpr y m d + 2401416 := by
  rw [cldjExpr_eq h1 h2 hy]
  unfold clydJ
  rw [Int.tdiv_eq_ediv_of_nonneg (a := 14 - m) (by omega),
    Int.tdiv_eq_ediv_of_nonneg (a := 1461 * _) (by omega),
    Int.tdiv_eq_ediv_of_nonneg (a := 367 * _) (by omega),
    Int.tdiv_eq_ediv_of_nonneg (a := _ + 4900) (by omega),
    Int.tdiv_eq_ediv_of_nonneg (a := 3 * _) (by omega)]
  rcases monthLength_cases h1 h2 with h|h|h|h|h|h|h|h|h|h|h|h <;> subst h <;> norm_num <;> omega

/-- The second half of `clyd`: from the day offset to (year, day in year). -/
def clydPost (j : Int) : Int × Int :=
  let k := (j - 1).tdiv 1461
  let L := j - 1461 * k
  let N := (L - 1).tdiv 365 - L.tdiv 1461
  let j := ((80 * (L - 365 * N + 30)).tdiv 2447).tdiv 11
  let i := N + j
  (4 * k + i - 4716, 59 + L - 365 * i + ((4 - N).tdiv 4) * (1 - j))

theorem clydExpr_eq_post (y m d : Int) : clydExpr y m d = clydPost (clydJ y m d) := rfl

/-- Closed form of `clydPost` on positive offsets. -/
theorem clydPost_eq {k L : Int} (hk : 0 ≤ k) (hL : 1 ≤ L) (hL' : L ≤ 1461) :
    clydPost (1461 * k + L) =
      if L ≤ 306 then (4 * k - 4716, L + 60)
      else if L ≤ 671 then (4 * k - 4715, L - 306)
      else if L ≤ 1036 then (4 * k - 4714, L - 671)
      else if L ≤ 1401 then (4 * k - 4713, L - 1036)
      else (4 * k - 4712, L - 1401) := by
  unfold clydPost
  have e0 : (1461 * k + L - 1).tdiv 1461 = k := by
    rw [Int.tdiv_eq_ediv_of_nonneg (by omega)]; omega
  simp only [e0]
  have e1 : 1461 * k + L - 1461 * k = L := by ring
  simp only [e1]
  have e2 : (L - 1).tdiv 365 - L.tdiv 1461 = (L - 1) / 365 - L / 1461 := by
    rw [Int.tdiv_eq_ediv_of_nonneg (by omega), Int.tdiv_eq_ediv_of_nonneg (by omega)]
  rw [e2]
  obtain ⟨N, hN⟩ : ∃ N, N = (L - 1) / 365 - L / 1461 := ⟨_, rfl⟩
  rw [← hN]
  have hN0 : 0 ≤ N ∧ N ≤ 3 ∧ 365 * N + 1 ≤ L ∧ L ≤ 365 * N + 366 ∧ (L = 365 * N + 366 → N = 3) := by
    omega
  have e3 : (80 * (L - 365 * N + 30)).tdiv 2447 = 80 * (L - 365 * N + 30) / 2447 :=
    Int.tdiv_eq_ediv_of_nonneg (by omega)
  rw [e3, Int.tdiv_eq_ediv_of_nonneg (a := 80 * (L - 365 * N + 30) / 2447) (by omega),
    Int.tdiv_eq_ediv_of_nonneg (a := 4 - N) (by omega)]
  clear hN e0 e1 e2 e3
  have hj : 80 * (L - 365 * N + 30) / 2447 / 11 = if L - 365 * N ≤ 306 then 0 else 1 := by
    split <;> omega
  rw [hj]
  obtain ⟨h0, h3, -, -, -⟩ := id hN0
  rcases (by omega : N = 0 ∨ N = 1 ∨ N = 2 ∨ N = 3) with rfl | rfl | rfl | rfl <;>
    norm_num <;> split <;> (repeat' split) <;> simp only [Prod.mk.injEq] <;> omega

theorem clydPost_succ {j : Int} (hj : 1 ≤ j) : clydPost (j + 1) = julianNext (clydPost j) := by
  obtain ⟨k, L, hk, hL, hL', rfl⟩ : ∃ k L : Int, 0 ≤ k ∧ 1 ≤ L ∧ L ≤ 1461 ∧ j = 1461 * k + L :=
    ⟨(j - 1) / 1461, (j - 1) % 1461 + 1, by omega, by omega, by omega, by omega⟩
  rw [clydPost_eq hk hL hL']
  by_cases h : L = 1461
  · subst h
    rw [show 1461 * k + 1461 + 1 = 1461 * (k + 1) + 1 by ring,
      clydPost_eq (by omega) (by omega) (by omega)]
    unfold julianNext julianYearLength
    split_ifs <;> dsimp only at * <;> refine Prod.ext ?_ ?_ <;> dsimp only <;> omega
  · rw [show 1461 * k + L + 1 = 1461 * k + (L + 1) by ring,
      clydPost_eq hk (by omega) (by omega)]
    unfold julianNext julianYearLength
    split_ifs <;> dsimp only at * <;> refine Prod.ext ?_ ?_ <;> dsimp only <;> omega

theorem ordinalDay_eq {l : Bool} {m d : Int} (h1 : 1 ≤ m) (h2 : m ≤ 12) :
    ordinalDay l m d = (if m ≤ 2 then 31 * (m - 1) else
      (306 * (m - 3) + 5) / 10 + 59 + (if l then 1 else 0)) + d := by
  rcases monthLength_cases h1 h2 with h|h|h|h|h|h|h|h|h|h|h|h <;> subst h <;>
    cases l <;> simp [ordinalDay, monthLengths]

theorem clydExpr_interval {D : YMD} (h : D.Valid) (ha : YMD.le ⟨1900, 3, 1⟩ D)
    (hb : YMD.le D ⟨2100, 2, 28⟩) :
    clydExpr D.year D.month D.day = (D.year, ordinalDay (decide (4 ∣ D.year)) D.month D.day) := by
  obtain ⟨y, m, d⟩ := D
  simp only [YMD.Valid, YMD.le] at h ha hb
  obtain ⟨h1, h2, h3, h4⟩ := h
  have h4' : d ≤ 31 := le_trans h4 (monthLength_bounds y m).2
  dsimp only
  rw [clydExpr_eq_post, clydJ_eq h1 h2 (by omega), cldjExpr_eq h1 h2 (by omega), ordinalDay_eq h1 h2]
  have hC : 3 * ((y - (12 - m) / 10 + 4900) / 100) / 4 = 51 := by omega
  rw [hC]
  have hfeb : m = 2 → d ≤ 29 ∧ (d = 29 → y % 4 = 0) := by
    rintro rfl; simp only [monthLength, isLeap_iff] at h4; norm_num at h4; split at h4 <;> omega
  clear hC h4
  obtain ⟨Y, r, hr, rfl⟩ : ∃ Y r : Int, (0 ≤ r ∧ r < 4) ∧ y = 4 * Y + r := ⟨y / 4, y % 4, by omega⟩
  have hdv : decide (4 ∣ 4 * Y + r) = decide (r = 0) := by
    rw [decide_eq_decide]; omega
  rw [hdv]
  by_cases hm : m ≤ 2
  · rw [if_pos hm]
    have hM : (12 - m) / 10 = 1 := by omega
    have hdm : (306 * ((m + 9) % 12) + 5) / 10 = 31 * (m - 1) + 306 := by
      rcases (by omega : m = 1 ∨ m = 2) with rfl | rfl <;> norm_num
    rw [hM, hdm]
    obtain ⟨t, ht⟩ : ∃ t, t = 31 * (m - 1) + d := ⟨_, rfl⟩
    have ht' : 1 ≤ t ∧ t ≤ 60 ∧ (t = 60 → r = 0) := by omega
    rw [← ht]
    have hj : 1461 * (4 * Y + r - 1 + 4712) / 4 + (31 * (m - 1) + 306) - 51 + d - 2399904 + 2401416
       = 1461 * (Y + 1178) + (if r = 0 then 1401 else if r = 1 then 1767 else if r = 2 then 2132 else 2497) + t := by
      rcases (by omega : r = 0 ∨ r = 1 ∨ r = 2 ∨ r = 3) with rfl | rfl | rfl | rfl <;> norm_num <;> omega
    rw [hj]
    rcases (by omega : r = 0 ∨ r = 1 ∨ r = 2 ∨ r = 3) with rfl | rfl | rfl | rfl <;> norm_num
    · rw [show 1461 * (Y + 1178) + 1401 + t = 1461 * (Y + 1178) + (1401 + t) by ring,
        clydPost_eq (by omega) (by omega) (by omega)]
      split_ifs <;> refine Prod.ext ?_ ?_ <;> dsimp only <;> omega
    · rw [show 1461 * (Y + 1178) + 1767 + t = 1461 * (Y + 1179) + (306 + t) by ring,
        clydPost_eq (by omega) (by omega) (by omega)]
      split_ifs <;> refine Prod.ext ?_ ?_ <;> dsimp only <;> omega
    · rw [show 1461 * (Y + 1178) + 2132 + t = 1461 * (Y + 1179) + (671 + t) by ring,
        clydPost_eq (by omega) (by omega) (by omega)]
      split_ifs <;> refine Prod.ext ?_ ?_ <;> dsimp only <;> omega
    · rw [show 1461 * (Y + 1178) + 2497 + t = 1461 * (Y + 1179) + (1036 + t) by ring,
        clydPost_eq (by omega) (by omega) (by omega)]
      split_ifs <;> refine Prod.ext ?_ ?_ <;> dsimp only <;> omega
  · rw [if_neg hm]
    have hM : (12 - m) / 10 = 0 := by omega
    have hdm : (306 * ((m + 9) % 12) + 5) / 10 = (306 * (m - 3) + 5) / 10 := by
      rw [show (m + 9) % 12 = m - 3 by omega]
    rw [hM, hdm]
    obtain ⟨t, ht⟩ : ∃ t, t = (306 * (m - 3) + 5) / 10 + d := ⟨_, rfl⟩
    have ht' : 1 ≤ t ∧ t ≤ 306 := by
      rcases monthLength_cases h1 h2 with h|h|h|h|h|h|h|h|h|h|h|h <;> subst h <;> omega
    have hj : 1461 * (4 * Y + r - 0 + 4712) / 4 + (306 * (m - 3) + 5) / 10 - 51 + d - 2399904 + 2401416
       = 1461 * (Y + 1179) + (365 * r + t) := by
      rcases (by omega : r = 0 ∨ r = 1 ∨ r = 2 ∨ r = 3) with rfl | rfl | rfl | rfl <;> omega
    rw [hj, clydPost_eq (by omega) (by omega) (by omega)]
    rcases (by omega : r = 0 ∨ r = 1 ∨ r = 2 ∨ r = 3) with rfl | rfl | rfl | rfl <;>
      norm_num <;> split_ifs <;> refine Prod.ext ?_ ?_ <;> dsimp only <;> omega

end Sla
