import Verif.Model.Fp
import Verif.Lemmas.CMath
import Mathlib.Algebra.Order.Round
import Mathlib.Tactic.Linarith
import Mathlib.Tactic.Positivity
import Mathlib.Tactic.Ring
import Mathlib.Tactic.Zify
import Mathlib.Tactic.NormNum

/-
Facts about floating point formats and rounding to nearest.
-/
noncomputable section
namespace Sla.Fp
variable {F : Fmt}

theorem two_zpow_pos (e : ℤ) : (0 : ℝ) < (2 : ℝ) ^ e := zpow_pos (by norm_num) e

theorem two_zpow_le {a b : ℤ} (h : a ≤ b) : (2 : ℝ) ^ a ≤ (2 : ℝ) ^ b := zpow_le_zpow_right₀ (by norm_num) h

theorem zpow_split (a b : ℤ) : (2 : ℝ) ^ (a + b) = (2 : ℝ) ^ a * (2 : ℝ) ^ b := zpow_add₀ (by norm_num) a b

/-- A multiple of `2^f` is a multiple of every smaller power of two. -/
theorem mul_zpow_lower (m : ℤ) {e f : ℤ} (h : e ≤ f) : ∃ k : ℤ, (m : ℝ) * (2 : ℝ) ^ f = (k : ℝ) * (2 : ℝ) ^ e := by
  refine ⟨m * 2 ^ (f - e).toNat, ?_⟩
  have h1 : (2 : ℝ) ^ f = (2 : ℝ) ^ (f - e).toNat * (2 : ℝ) ^ e := by
    rw [← zpow_natCast, ← zpow_add₀ (by norm_num : (2 : ℝ) ≠ 0)]
    congr 1; omega
  rw [h1]; push_cast; ring

/-- A multiple of `2^e` of at most `prec` bits is representable. -/
theorem rep_of_mul {k e : ℤ} (he : F.emin ≤ e) (hk : |k| ≤ 2 ^ F.prec) : F.Rep ((k : ℝ) * (2 : ℝ) ^ e) := by
  rcases hk.lt_or_eq with h | h
  · exact ⟨k, e, h, he, rfl⟩
  · have hp := F.hprec
    have h2 : (2 : ℤ) ^ F.prec = 2 * 2 ^ (F.prec - 1) := by
      rw [← pow_succ']; congr 1; omega
    have h3 : (0 : ℤ) < 2 ^ (F.prec - 1) := by positivity
    have h4 : (2 : ℝ) ^ (e + 1) = (2 : ℝ) ^ e * 2 := by rw [zpow_split]; norm_num
    rcases abs_eq (by positivity : (0 : ℤ) ≤ 2 ^ F.prec) |>.1 h with h' | h'
    · refine ⟨2 ^ (F.prec - 1), e + 1, ?_, by omega, ?_⟩
      · rw [abs_of_pos h3]; omega
      · rw [h', h4, h2]; push_cast; ring
    · refine ⟨-2 ^ (F.prec - 1), e + 1, ?_, by omega, ?_⟩
      · rw [abs_neg, abs_of_pos h3]; omega
      · rw [h', h4, h2]; push_cast; ring

/-- The same, in terms of the value. -/
theorem rep_of_le {x : ℝ} {k e : ℤ} (hx : x = (k : ℝ) * (2 : ℝ) ^ e) (he : F.emin ≤ e)
    (hb : |x| ≤ (2 : ℝ) ^ F.prec * (2 : ℝ) ^ e) : F.Rep x := by
  rw [hx]
  apply rep_of_mul he
  rw [hx, abs_mul, abs_of_pos (two_zpow_pos e)] at hb
  have := le_of_mul_le_mul_right hb (two_zpow_pos e)
  have h2 : ((|k| : ℤ) : ℝ) ≤ ((2 ^ F.prec : ℤ) : ℝ) := by push_cast; exact this
  exact_mod_cast h2

theorem rep_neg {x : ℝ} (h : F.Rep x) : F.Rep (-x) := by
  obtain ⟨m, e, hm, he, rfl⟩ := h
  exact ⟨-m, e, by rwa [abs_neg], he, by push_cast; ring⟩

theorem rep_zero : F.Rep 0 := ⟨0, F.emin, by simp, le_rfl, by simp⟩

theorem rep_abs {x : ℝ} (h : F.Rep x) : F.Rep |x| := by
  rcases abs_choice x with h' | h' <;> rw [h']
  · exact h
  · exact rep_neg h

theorem rep_lt {m e : ℤ} (hm : |m| < 2 ^ F.prec) : |(m : ℝ) * (2 : ℝ) ^ e| < (2 : ℝ) ^ F.prec * (2 : ℝ) ^ e := by
  rw [abs_mul, abs_of_pos (two_zpow_pos e)]
  apply mul_lt_mul_of_pos_right _ (two_zpow_pos e)
  have : ((|m| : ℤ) : ℝ) < ((2 ^ F.prec : ℤ) : ℝ) := by exact_mod_cast hm
  push_cast at this; exact this

/-- An integer of at most `prec` bits is representable (formats with integers). -/
theorem rep_int {n : ℤ} (h0 : F.emin ≤ 0) (hn : |n| ≤ 2 ^ F.prec) : F.Rep (n : ℝ) := by
  have := rep_of_mul (F := F) (e := 0) h0 hn
  simpa using this

/-- Sterbenz: the difference of two numbers within a factor of two of each other is representable. -/
theorem sterbenz {x y : ℝ} (hx : F.Rep x) (hy : F.Rep y) (h1 : y ≤ 2 * x) (h2 : x ≤ 2 * y) : F.Rep (x - y) := by
  obtain ⟨m, e, hm, he, rfl⟩ := hx
  obtain ⟨n, f, hn, hf, rfl⟩ := hy
  have bm := (abs_lt.1 (rep_lt (F := F) (e := e) hm)).2
  have bn := (abs_lt.1 (rep_lt (F := F) (e := f) hn)).2
  rcases le_total e f with h | h
  · obtain ⟨k, hk⟩ := mul_zpow_lower n h
    refine rep_of_le (k := m - k) (e := e) (by rw [hk]; push_cast; ring) he ?_
    rw [abs_le]; constructor <;> linarith
  · obtain ⟨k, hk⟩ := mul_zpow_lower m h
    refine rep_of_le (k := k - n) (e := f) (by rw [hk]; push_cast; ring) hf ?_
    rw [abs_le]; constructor <;> linarith

theorem abs_cfmod (a b : ℝ) (hb : 0 < b) : |cfmod a b| ≤ |a| ∧ |cfmod a b| < b := by
  rcases le_or_gt 0 a with ha | ha
  · obtain ⟨h1, h2, h3⟩ := cfmod_nonneg ha hb
    rw [abs_of_nonneg h2, abs_of_nonneg ha]
    refine ⟨?_, h3⟩
    rw [h1]
    have : (0 : ℝ) ≤ (⌊a / b⌋ : ℝ) := by exact_mod_cast Int.floor_nonneg.2 (div_nonneg ha hb.le)
    nlinarith
  · obtain ⟨h1, h2, h3⟩ := cfmod_neg ha hb
    rw [abs_of_nonpos h2, abs_of_neg ha]
    refine ⟨?_, by linarith⟩
    rw [h1]
    have : ((⌈a / b⌉ : ℤ) : ℝ) ≤ 0 := by
      exact_mod_cast Int.ceil_le.2 (by simpa using (div_neg_of_neg_of_pos ha hb).le)
    nlinarith

/-- `fmod` is exact. -/
theorem rep_cfmod {a b : ℝ} (ha : F.Rep a) (hb : F.Rep b) (hb0 : 0 < b) : F.Rep (cfmod a b) := by
  obtain ⟨h1, h2⟩ := abs_cfmod a b hb0
  obtain ⟨c, hc⟩ := cfmod_eq a b
  rw [hc] at h1 h2 ⊢
  obtain ⟨m, e, hm, he, rfl⟩ := ha
  obtain ⟨n, f, hn, hf, rfl⟩ := hb
  have bm := rep_lt (F := F) (e := e) hm
  have bn := (abs_lt.1 (rep_lt (F := F) (e := f) hn)).2
  rcases le_total e f with h | h
  · obtain ⟨k, hk⟩ := mul_zpow_lower n h
    refine rep_of_le (k := m - k * c) (e := e) (by rw [hk]; push_cast; ring) he ?_
    linarith
  · obtain ⟨k, hk⟩ := mul_zpow_lower m h
    refine rep_of_le (k := k - n * c) (e := f) (by rw [hk]; push_cast; ring) hf ?_
    linarith

namespace Rounding
variable (R : Rounding F)

/-- Representable numbers are not changed. -/
theorem eq_self {x : ℝ} (h : F.Rep x) : R x = x := by
  have := R.nearest x x h
  rw [sub_self, abs_zero] at this
  have := abs_eq_zero.1 (le_antisymm this (abs_nonneg _))
  linarith

@[simp] theorem zero : R 0 = 0 := R.eq_self rep_zero

theorem mono {x y : ℝ} (h : x ≤ y) : R x ≤ R y := by
  rcases h.eq_or_lt with rfl | h
  · exact le_rfl
  by_contra hc
  rw [not_le] at hc
  have h1 := R.nearest x (R y) (R.rep y)
  have h2 := R.nearest y (R x) (R.rep x)
  rcases abs_cases (x - R x) with ⟨e1, _⟩ | ⟨e1, _⟩ <;> rcases abs_cases (x - R y) with ⟨e2, _⟩ | ⟨e2, _⟩ <;>
    rcases abs_cases (y - R x) with ⟨e3, _⟩ | ⟨e3, _⟩ <;> rcases abs_cases (y - R y) with ⟨e4, _⟩ | ⟨e4, _⟩ <;>
    rw [e1, e2] at h1 <;> rw [e4, e3] at h2 <;> linarith

theorem le_rep {x y : ℝ} (h : x ≤ y) (hy : F.Rep y) : R x ≤ y := by
  have := R.mono h; rwa [R.eq_self hy] at this

theorem rep_le {x y : ℝ} (h : y ≤ x) (hy : F.Rep y) : y ≤ R x := by
  have := R.mono h; rwa [R.eq_self hy] at this

theorem nonneg {x : ℝ} (h : 0 ≤ x) : 0 ≤ R x := R.rep_le h rep_zero
theorem nonpos {x : ℝ} (h : x ≤ 0) : R x ≤ 0 := R.le_rep h rep_zero

theorem abs_eq (x : ℝ) : R |x| = |R x| := by
  rcases le_total 0 x with h | h
  · rw [abs_of_nonneg h, abs_of_nonneg (R.nonneg h)]
  · rw [abs_of_nonpos h, abs_of_nonpos (R.nonpos h), R.odd]

end Rounding

/-! ### Spacing of the representable numbers -/

/-- Exponent of the last place of `x`. -/
def place (F : Fmt) (x : ℝ) : ℤ := max F.emin (Int.log 2 |x| + 1 - F.prec)

theorem abs_lt_place (F : Fmt) (x : ℝ) : |x| < (2 : ℝ) ^ F.prec * (2 : ℝ) ^ place F x := by
  have h := Int.lt_zpow_succ_log_self (b := 2) (by norm_num) |x|
  push_cast at h
  refine h.trans_le ?_
  rw [← zpow_natCast, ← zpow_split]
  apply two_zpow_le
  have : Int.log 2 |x| + 1 - F.prec ≤ place F x := le_max_right _ _
  omega

theorem emin_le_place (F : Fmt) (x : ℝ) : F.emin ≤ place F x := le_max_left _ _

/-- Rounding to the nearest integer, ties to even. -/
def rneInt (y : ℝ) : ℤ :=
  if y - ⌊y⌋ < 1 / 2 then ⌊y⌋ else if 1 / 2 < y - ⌊y⌋ then ⌊y⌋ + 1 else if Even ⌊y⌋ then ⌊y⌋ else ⌊y⌋ + 1

theorem abs_sub_rneInt (y : ℝ) : |y - rneInt y| ≤ 1 / 2 := by
  have h1 := Int.floor_le y
  have h2 := Int.lt_floor_add_one y
  unfold rneInt
  split_ifs <;> rw [abs_le] <;> push_cast <;> constructor <;> linarith

/-- Half the last place suffices to reach a representable number. -/
theorem exists_near (F : Fmt) (x : ℝ) :
    F.Rep ((rneInt (x / 2 ^ place F x) : ℝ) * 2 ^ place F x) ∧
      |x - (rneInt (x / 2 ^ place F x) : ℝ) * 2 ^ place F x| ≤ 1 / 2 * 2 ^ place F x := by
  have hp := two_zpow_pos (place F x)
  have h1 := abs_sub_rneInt (x / 2 ^ place F x)
  have hd : |x - (rneInt (x / 2 ^ place F x) : ℝ) * 2 ^ place F x| ≤ 1 / 2 * 2 ^ place F x := by
    have e : x - (rneInt (x / 2 ^ place F x) : ℝ) * 2 ^ place F x =
        (x / 2 ^ place F x - rneInt (x / 2 ^ place F x)) * 2 ^ place F x := by field_simp
    rw [e, abs_mul, abs_of_pos hp]
    exact mul_le_mul_of_nonneg_right h1 hp.le
  refine ⟨?_, hd⟩
  apply rep_of_mul (emin_le_place F x)
  have h2 : |x / 2 ^ place F x| < (2 : ℝ) ^ F.prec := by
    rw [abs_div, abs_of_pos hp, div_lt_iff₀ hp]; exact abs_lt_place F x
  have h3 : |((rneInt (x / 2 ^ place F x) : ℤ) : ℝ)| < ((2 ^ F.prec + 1 : ℤ) : ℝ) := by
    push_cast
    rw [abs_lt]; rw [abs_lt] at h2; rw [abs_le] at h1
    constructor <;> linarith [h2.1, h2.2, h1.1, h1.2]
  have h4 : |rneInt (x / 2 ^ place F x)| < 2 ^ F.prec + 1 := by
    rw [← Int.cast_abs] at h3; exact_mod_cast h3
  omega

namespace Rounding
variable (R : Rounding F)

theorem abs_sub_le_place (x : ℝ) : |x - R x| ≤ 1 / 2 * 2 ^ place F x :=
  (R.nearest x _ (exists_near F x).1).trans (exists_near F x).2

/-- Absolute error of rounding a number below `2^k`. -/
theorem abs_sub_le (x : ℝ) {k : ℤ} (hk : F.emin + F.prec ≤ k) (hx : |x| < 2 ^ k) :
    |x - R x| ≤ 2 ^ (k - 1 - F.prec) := by
  rcases (abs_nonneg x).eq_or_lt with h0 | h0
  · rw [abs_eq_zero.1 h0.symm, R.zero, sub_self, abs_zero]; exact (two_zpow_pos _).le
  have h := R.abs_sub_le_place x
  refine h.trans ?_
  have : (2 : ℝ) ^ (k - 1 - F.prec) = 1 / 2 * 2 ^ (k - F.prec) := by
    rw [show k - 1 - (F.prec : ℤ) = -1 + (k - F.prec) by ring, zpow_split]; norm_num
  rw [this]
  apply mul_le_mul_of_nonneg_left _ (by norm_num)
  apply two_zpow_le
  apply max_le (by omega)
  have := (Int.lt_zpow_iff_log_lt (b := 2) (by norm_num) h0).1 (by push_cast; exact hx)
  omega

/-- Relative error of rounding a number in the normal range. -/
theorem rel_error (x : ℝ) (hx : (2 : ℝ) ^ (F.emin + F.prec - 1) ≤ |x|) : |x - R x| ≤ 2 ^ (-(F.prec : ℤ)) * |x| := by
  have h0 : 0 < |x| := (two_zpow_pos _).trans_le hx
  have h1 := (Int.zpow_le_iff_le_log (b := 2) (by norm_num) h0).1 (by push_cast; exact hx)
  have h2 := Int.zpow_log_le_self (b := 2) (by norm_num) h0
  push_cast at h2
  have hp : place F x = Int.log 2 |x| + 1 - F.prec := by
    unfold place; apply max_eq_right; omega
  have h := R.abs_sub_le_place x
  rw [hp, show Int.log 2 |x| + 1 - (F.prec : ℤ) = 1 + (-(F.prec : ℤ) + Int.log 2 |x|) by ring, zpow_split,
    zpow_split, zpow_one] at h
  have := mul_le_mul_of_nonneg_left h2 (two_zpow_pos (-(F.prec : ℤ))).le
  linarith

/-- Rounding error without a lower limit: relative, or half the smallest number. -/
theorem error_le (x : ℝ) : |x - R x| ≤ 2 ^ (-(F.prec : ℤ)) * |x| + 2 ^ (F.emin - 1) := by
  rcases le_or_gt ((2 : ℝ) ^ (F.emin + F.prec - 1)) |x| with h | h
  · linarith [R.rel_error x h, two_zpow_pos (F.emin - 1)]
  · have := R.abs_sub_le x (k := F.emin + F.prec) le_rfl (h.trans_le (two_zpow_le (by omega)))
    rw [show F.emin + (F.prec : ℤ) - 1 - F.prec = F.emin - 1 by ring] at this
    have h2 : 0 ≤ (2 : ℝ) ^ (-(F.prec : ℤ)) * |x| := by positivity
    linarith

/-- A number whose neighbours are known: anything closer than half a unit rounds to it. -/
theorem eq_of_near {x : ℝ} {m e : ℤ} (he : F.emin ≤ e) (h1 : 2 ^ (F.prec - 1) < m) (h2 : m < 2 ^ F.prec)
    (hx : |x - (m : ℝ) * 2 ^ e| < 1 / 2 * 2 ^ e) : R x = (m : ℝ) * 2 ^ e := by
  have hm : |m| < 2 ^ F.prec := by
    rw [abs_of_pos (lt_trans (by positivity) h1)]; exact h2
  have hn := R.nearest x _ ⟨m, e, hm, he, rfl⟩
  have hd : |R x - (m : ℝ) * 2 ^ e| < 2 ^ e := by
    have := _root_.abs_sub_le (R x) x ((m : ℝ) * 2 ^ e)
    rw [abs_sub_comm (R x) x] at this
    linarith
  obtain ⟨n, f, hn', hf, hz⟩ := R.rep x
  have hpe := two_zpow_pos e
  rcases le_total e f with h | h
  · obtain ⟨k, hk⟩ := mul_zpow_lower n h
    rw [hz, hk, ← sub_mul, abs_mul, abs_of_pos hpe] at hd
    have h3 : |(k : ℝ) - m| < 1 := by
      by_contra hc; rw [not_lt] at hc; nlinarith
    have h4 : |k - m| < 1 := by exact_mod_cast h3
    have h5 : k = m := by rw [abs_lt] at h4; omega
    rw [hz, hk, h5]
  · rcases h.eq_or_lt with h | h
    · rw [h] at hz
      rw [hz, ← sub_mul, abs_mul, abs_of_pos hpe] at hd
      have h3 : |(n : ℝ) - m| < 1 := by
        by_contra hc; rw [not_lt] at hc; nlinarith
      have h4 : |n - m| < 1 := by exact_mod_cast h3
      have h5 : n = m := by rw [abs_lt] at h4; omega
      rw [hz, h5]
    · exfalso
      have b1 := (abs_lt.1 (rep_lt (F := F) (e := f) hn')).2
      rw [← hz] at b1
      have b2 : (2 : ℝ) ^ F.prec * 2 ^ f ≤ 2 ^ (F.prec - 1) * 2 ^ e := by
        have hp := F.hprec
        rw [← zpow_natCast, ← zpow_natCast, ← zpow_split, ← zpow_split]
        apply two_zpow_le; omega
      have b3 : ((2 ^ (F.prec - 1) + 1 : ℤ) : ℝ) ≤ (m : ℝ) := by exact_mod_cast h1
      push_cast at b3
      rw [abs_lt] at hd
      nlinarith [hd.1]

end Rounding

/-! ### Integers -/

/-- A number of the format is an integer, or small. -/
theorem rep_int_or {x : ℝ} (h : F.Rep x) : (∃ n : ℤ, x = n) ∨ |x| < 2 ^ (F.prec - 1) := by
  obtain ⟨m, e, hm, he, rfl⟩ := h
  rcases le_or_gt 0 e with h | h
  · left
    obtain ⟨k, hk⟩ := mul_zpow_lower m h
    exact ⟨k, by rw [hk]; simp⟩
  · right
    refine (rep_lt (F := F) hm).trans_le ?_
    rw [← zpow_natCast, ← zpow_natCast, ← zpow_split]
    apply two_zpow_le
    have := F.hprec; omega

theorem two_pow_prec (F : Fmt) : (2 : ℝ) ^ F.prec = 2 * 2 ^ (F.prec - 1) := by
  rw [← pow_succ']; congr 1; have := F.hprec; omega

theorem abs_int_le {n : ℤ} (h : |(n : ℝ)| ≤ 2 ^ F.prec) : |n| ≤ 2 ^ F.prec := by
  have : ((|n| : ℤ) : ℝ) ≤ ((2 ^ F.prec : ℤ) : ℝ) := by push_cast; exact h
  exact_mod_cast this

/-- `round` is exact. -/
theorem rep_cround (h0 : F.emin ≤ 0) {x : ℝ} (h : F.Rep x) : F.Rep (cround x : ℝ) := by
  rcases rep_int_or h with ⟨n, hn⟩ | hs
  · rw [hn, cround_intCast, ← hn]; exact h
  · apply rep_int h0
    apply abs_int_le
    have h1 := abs_cround_sub_le x
    have h2 : (1 : ℝ) ≤ 2 ^ (F.prec - 1) := one_le_pow₀ (by norm_num)
    rw [two_pow_prec]
    rw [abs_le] at h1 ⊢; rw [abs_lt] at hs
    constructor <;> linarith [h1.1, h1.2, hs.1, hs.2]

theorem abs_ctrunc_le (x : ℝ) : |(ctrunc x : ℝ)| ≤ |x| := by
  rcases le_or_gt 0 x with h | h
  · rw [ctrunc_of_nonneg h, abs_of_nonneg h, abs_of_nonneg (by exact_mod_cast Int.floor_nonneg.2 h)]
    exact Int.floor_le x
  · have h2 : ⌈x⌉ ≤ 0 := Int.ceil_le.2 (by simpa using h.le)
    rw [ctrunc_of_neg h, abs_of_neg h, abs_of_nonpos (by exact_mod_cast h2)]
    linarith [Int.le_ceil x]

theorem ctrunc_intCast (n : ℤ) : ctrunc (n : ℝ) = n := by
  unfold ctrunc; split <;> simp

/-- `trunc` is exact. -/
theorem rep_ctrunc (h0 : F.emin ≤ 0) {x : ℝ} (h : F.Rep x) : F.Rep (ctrunc x : ℝ) := by
  rcases rep_int_or h with ⟨n, hn⟩ | hs
  · rw [hn, ctrunc_intCast, ← hn]; exact h
  · apply rep_int h0
    apply abs_int_le
    have h1 := abs_ctrunc_le x
    have h2 : (1 : ℝ) ≤ 2 ^ (F.prec - 1) := one_le_pow₀ (by norm_num)
    rw [two_pow_prec]
    linarith

/-- Integer division in floating point: the truncated quotient of two integers is the integer quotient, although the
    quotient itself is rounded. -/
theorem ctrunc_rnd_div (R : Rounding F) (h0 : F.emin + 2 * F.prec ≤ 1) {a b : ℤ} (ha : 0 ≤ a) (hb : 0 < b)
    (ha2 : a < 2 ^ F.prec) (hb2 : b ≤ 2 ^ F.prec) : ctrunc (R ((a : ℝ) / (b : ℝ))) = a / b := by
  have hp := F.hprec
  have hbr : (0 : ℝ) < b := by exact_mod_cast hb
  have har : (0 : ℝ) ≤ a := by exact_mod_cast ha
  have hq0 : 0 ≤ (a : ℝ) / b := div_nonneg har hbr.le
  have hRq := R.nonneg hq0
  rw [ctrunc_of_nonneg hRq, Int.floor_eq_iff]
  have hqle : ((a / b : ℤ) : ℝ) ≤ (a : ℝ) / b := by
    rw [le_div_iff₀ hbr]; exact_mod_cast Int.ediv_mul_le a hb.ne'
  have hqn : 0 ≤ a / b := Int.ediv_nonneg ha hb.le
  have hqa : a / b ≤ a := Int.ediv_le_self _ ha
  have hqlt : (a : ℝ) + 1 ≤ (((a / b : ℤ) : ℝ) + 1) * b := by
    have := Int.lt_ediv_add_one_mul_self a hb
    exact_mod_cast this
  have hrq : F.Rep ((a / b : ℤ) : ℝ) := rep_int (by omega) (by rw [abs_of_nonneg hqn]; omega)
  have hrq1 : F.Rep (((a / b : ℤ) : ℝ) + 1) := by
    have : F.Rep (((a / b + 1 : ℤ)) : ℝ) := rep_int (by omega) (by rw [abs_of_nonneg (by omega)]; omega)
    push_cast at this; exact this
  refine ⟨R.rep_le hqle hrq, ?_⟩
  by_contra hc
  rw [not_lt] at hc
  rcases ha.eq_or_lt with h | h
  · rw [← h] at hc
    simp at hc
    linarith
  have ha1 : (1 : ℝ) ≤ a := by exact_mod_cast h
  have hq1 : (2 : ℝ) ^ (F.emin + F.prec - 1) ≤ |(a : ℝ) / b| := by
    rw [abs_of_nonneg hq0, le_div_iff₀ hbr]
    refine le_trans ?_ ha1
    have hb3 : (b : ℝ) ≤ 2 ^ F.prec := by exact_mod_cast hb2
    refine (mul_le_mul_of_nonneg_left hb3 (two_zpow_pos _).le).trans ?_
    rw [← zpow_natCast, ← zpow_split, show (1 : ℝ) = 2 ^ (0 : ℤ) by simp]
    apply two_zpow_le; omega
  have he := R.rel_error _ hq1
  rw [abs_of_nonneg hq0, abs_sub_comm] at he
  have h3 : R ((a : ℝ) / b) - a / b ≤ 2 ^ (-(F.prec : ℤ)) * (a / b) := (le_abs_self _).trans he
  have h4 : 1 / (b : ℝ) ≤ (((a / b : ℤ) : ℝ) + 1) - a / b := by
    rw [div_le_iff₀ hbr, sub_mul, div_mul_cancel₀ _ hbr.ne']; linarith
  have h5 : 1 / (b : ℝ) ≤ 2 ^ (-(F.prec : ℤ)) * (a / b) := by linarith
  rw [div_le_iff₀ hbr, mul_assoc, div_mul_cancel₀ _ hbr.ne', zpow_neg, zpow_natCast] at h5
  have h6 : (a : ℝ) < 2 ^ F.prec := by exact_mod_cast ha2
  have h7 : (0 : ℝ) < 2 ^ F.prec := by positivity
  rw [inv_mul_eq_div, le_div_iff₀ h7] at h5
  linarith

/-- `round` returns the only integer closer than one half. -/
theorem cround_eq_of_abs {x : ℝ} {n : ℤ} (h : |x - n| < 1 / 2) : cround x = n := by
  have h1 := abs_cround_sub_le x
  have h2 : |((cround x - n : ℤ) : ℝ)| < 1 := by
    push_cast
    calc |(cround x : ℝ) - n| ≤ |(cround x : ℝ) - x| + |x - n| := abs_sub_le _ _ _
      _ < 1 := by linarith
  have h3 : |cround x - n| < 1 := by
    rw [← Int.cast_abs] at h2; exact_mod_cast h2
  rw [abs_lt] at h3; omega

/-- The same as `Rounding.eq_of_near` for a power of two, whose lower neighbour is half as far. -/
theorem Rounding.eq_of_near_pow (R : Rounding F) {x : ℝ} {e : ℤ} (he : F.emin ≤ e - 1)
    (hx : |x - (2 : ℝ) ^ (F.prec - 1) * 2 ^ e| < 1 / 4 * 2 ^ e) : R x = (2 : ℝ) ^ (F.prec - 1) * 2 ^ e := by
  have hp := F.hprec
  have hpe := two_zpow_pos e
  have hq : ((2 : ℝ) ^ (F.prec - 1)) * 2 ^ e = (((2 ^ F.prec : ℤ)) : ℝ) * 2 ^ (e - 1) := by
    push_cast
    rw [← zpow_natCast, ← zpow_natCast, ← zpow_split, ← zpow_split]; congr 1; omega
  have he1 : (2 : ℝ) ^ e = 2 * 2 ^ (e - 1) := by
    rw [← zpow_one_add₀ (by norm_num)]; congr 1; ring
  have hrep : F.Rep ((2 : ℝ) ^ (F.prec - 1) * 2 ^ e) := by
    rw [hq]; apply rep_of_mul he; rw [abs_of_pos (by positivity)]
  have hn := R.nearest x _ hrep
  have hd : |R x - (2 : ℝ) ^ (F.prec - 1) * 2 ^ e| < 2 ^ (e - 1) := by
    have := _root_.abs_sub_le (R x) x ((2 : ℝ) ^ (F.prec - 1) * 2 ^ e)
    rw [abs_sub_comm (R x) x] at this
    linarith
  obtain ⟨n, f, hn', hf, hz⟩ := R.rep x
  have hpe' := two_zpow_pos (e - 1)
  have fin : ∀ k : ℤ, R x = (k : ℝ) * 2 ^ (e - 1) → R x = (2 : ℝ) ^ (F.prec - 1) * 2 ^ e := by
    intro k hk
    rw [hk, hq, ← sub_mul, abs_mul, abs_of_pos hpe'] at hd
    have h3 : |(k : ℝ) - ((2 ^ F.prec : ℤ) : ℝ)| < 1 := by
      by_contra hc; rw [not_lt] at hc; nlinarith
    have h4 : |k - 2 ^ F.prec| < 1 := by exact_mod_cast h3
    have h5 : k = 2 ^ F.prec := by rw [abs_lt] at h4; omega
    rw [hk, hq, h5]
  rcases le_or_gt (e - 1) f with h | h
  · obtain ⟨k, hk⟩ := mul_zpow_lower n h
    exact fin k (hz.trans hk)
  · exfalso
    have b1 := (abs_lt.1 (rep_lt (F := F) (e := f) hn')).2
    rw [← hz] at b1
    have b2 : (2 : ℝ) ^ F.prec * 2 ^ f ≤ 2 ^ (F.prec - 1) * 2 ^ (e - 1) := by
      rw [← zpow_natCast, ← zpow_natCast, ← zpow_split, ← zpow_split]
      apply two_zpow_le; omega
    have b3 : (1 : ℝ) ≤ 2 ^ (F.prec - 1) := one_le_pow₀ (by norm_num)
    rw [abs_lt, he1] at hd
    nlinarith [hd.1]

/-! ### Ties to even: the rounding of IEEE 754 -/

theorem rneInt_neg (y : ℝ) : rneInt (-y) = -rneInt y := by
  have h1 := Int.floor_le y
  have h2 := Int.lt_floor_add_one y
  rcases h1.eq_or_lt with h | h
  · have e : ⌊-y⌋ = -⌊y⌋ := by rw [Int.floor_eq_iff]; push_cast; constructor <;> linarith
    unfold rneInt; rw [e]; push_cast
    rw [if_pos (by linarith), if_pos (by linarith)]
  · have e : ⌊-y⌋ = -⌊y⌋ - 1 := by
      rw [Int.floor_eq_iff]; push_cast; constructor <;> linarith
    unfold rneInt; rw [e]; push_cast
    by_cases a : y - ⌊y⌋ < 1 / 2
    · rw [if_pos a, if_neg (by linarith), if_pos (by linarith)]; ring
    · by_cases b : 1 / 2 < y - ⌊y⌋
      · rw [if_neg a, if_pos b, if_pos (by linarith)]; ring
      · rw [if_neg a, if_neg b, if_neg (by linarith), if_neg (by linarith)]
        by_cases c : Even ⌊y⌋
        · rw [if_pos c, if_neg (by rw [Int.even_iff] at c ⊢; omega)]; ring
        · rw [if_neg c, if_pos (by rw [Int.even_iff] at c ⊢; omega)]; ring

theorem rneInt_nearest (y : ℝ) (n : ℤ) : |y - rneInt y| ≤ |y - n| := by
  have h1 := Int.floor_le y
  have h2 := Int.lt_floor_add_one y
  have h3 : (n : ℝ) ≤ ⌊y⌋ ∨ (⌊y⌋ : ℝ) + 1 ≤ n := by
    rcases le_or_gt n ⌊y⌋ with h | h
    · left; exact_mod_cast h
    · right; exact_mod_cast h
  have h4 : |y - n| = y - n ∧ (n : ℝ) ≤ ⌊y⌋ ∨ |y - n| = n - y ∧ (⌊y⌋ : ℝ) + 1 ≤ n := by
    rcases h3 with h | h
    · left; exact ⟨abs_of_nonneg (by linarith), h⟩
    · right; exact ⟨by rw [abs_of_neg (by linarith)]; ring, h⟩
  unfold rneInt
  split_ifs with a b c
  · rw [abs_of_nonneg (by linarith)]; rcases h4 with ⟨h, h'⟩ | ⟨h, h'⟩ <;> rw [h] <;> linarith
  · push_cast; rw [abs_of_neg (by linarith)]; rcases h4 with ⟨h, h'⟩ | ⟨h, h'⟩ <;> rw [h] <;> linarith
  · rw [abs_of_nonneg (by linarith)]; rcases h4 with ⟨h, h'⟩ | ⟨h, h'⟩ <;> rw [h] <;> linarith
  · push_cast; rw [abs_of_neg (by linarith)]; rcases h4 with ⟨h, h'⟩ | ⟨h, h'⟩ <;> rw [h] <;> linarith

theorem place_neg (x : ℝ) : place F (-x) = place F x := by unfold place; rw [abs_neg]

/-- IEEE 754 rounding to nearest, ties to even. -/
def ieee (F : Fmt) : Rounding F where
  rnd x := (rneInt (x / 2 ^ place F x) : ℝ) * 2 ^ place F x
  rep x := (exists_near F x).1
  odd x := by rw [place_neg, neg_div, rneInt_neg]; push_cast; ring
  nearest x y hy := by
    obtain ⟨n, f, hn, hf, hy⟩ := hy
    have hp := two_zpow_pos (place F x)
    -- nearest among the multiples of the last place
    have key : ∀ k : ℤ, |x - (rneInt (x / 2 ^ place F x) : ℝ) * 2 ^ place F x| ≤ |x - k * 2 ^ place F x| := by
      intro k
      have e : ∀ j : ℤ, x - (j : ℝ) * 2 ^ place F x = (x / 2 ^ place F x - j) * 2 ^ place F x := by
        intro j; field_simp
      rw [e, e, abs_mul, abs_mul]
      exact mul_le_mul_of_nonneg_right (rneInt_nearest _ _) (abs_nonneg _)
    rcases le_or_gt (place F x) f with h | h
    · obtain ⟨k, hk⟩ := mul_zpow_lower n h
      rw [hy, hk]; exact key k
    · have hpl : place F x = Int.log 2 |x| + 1 - F.prec := by
        unfold place at h ⊢; apply max_eq_right
        rcases le_total F.emin (Int.log 2 |x| + 1 - F.prec) with h' | h'
        · exact h'
        · rw [max_eq_left h'] at h; omega
      rcases (abs_nonneg x).eq_or_lt with h0 | h0
      · have hx : x = 0 := abs_eq_zero.1 h0.symm
        have := key 0
        simp only [Int.cast_zero, zero_mul, sub_zero] at this
        refine this.trans ?_
        rw [hx, abs_zero]; exact abs_nonneg _
      have hl := Int.zpow_log_le_self (b := 2) (by norm_num) h0
      push_cast at hl
      have hyb : |y| ≤ 2 ^ Int.log 2 |x| := by
        rw [hy]
        refine (rep_lt (F := F) hn).le.trans ?_
        rw [← zpow_natCast, ← zpow_split]
        apply two_zpow_le; omega
      have hpow : (2 : ℝ) ^ Int.log 2 |x| = ((2 ^ (F.prec - 1) : ℤ) : ℝ) * 2 ^ place F x := by
        push_cast
        rw [← zpow_natCast, ← zpow_split]; congr 1
        have := F.hprec; omega
      have h5 : |x| - |y| ≤ |x - y| := abs_sub_abs_le_abs_sub x y
      rcases le_total 0 x with hx | hx
      · have h6 := key (2 ^ (F.prec - 1))
        rw [← hpow] at h6
        rw [abs_of_nonneg hx] at hl h5 h6 hyb
        rw [abs_of_nonneg (by linarith : 0 ≤ x - 2 ^ Int.log 2 x)] at h6
        linarith
      · have h6 := key (-2 ^ (F.prec - 1))
        rw [show (((-2 ^ (F.prec - 1) : ℤ)) : ℝ) * 2 ^ place F x = -(2 : ℝ) ^ Int.log 2 |x| by
          rw [hpow]; push_cast; ring] at h6
        rw [abs_of_nonpos hx] at hl h5 h6 hyb
        rw [show x - -(2 : ℝ) ^ Int.log 2 (-x) = -(-x - 2 ^ Int.log 2 (-x)) by ring, abs_neg,
          abs_of_nonneg (by linarith : 0 ≤ -x - 2 ^ Int.log 2 (-x))] at h6
        linarith

end Sla.Fp
