import Verif.Model.FpCode
import Verif.Lemmas.Fp

/-
Property theorems C81: epochs in double precision.
-/
namespace Sla.Props
open Sla.Fp

/-- Error of one rounding, with the bound on the magnitude given as a power of two. -/
private theorem e64 (R : Rounding binary64) (x : ℝ) (k : ℤ) (hk : -1021 ≤ k) (hx : |x| < 2 ^ k) :
    |R x - x| ≤ 2 ^ (k - 54) := by
  have := R.abs_sub_le x (k := k) (by norm_num [binary64]; exact hk) hx
  rw [abs_sub_comm] at this
  convert this using 2
  norm_num [binary64]; ring

private theorem rep64q {m e : ℤ} (h : |m| ≤ 2 ^ 53) (he : -1074 ≤ e) : binary64.Rep ((m : ℝ) * 2 ^ e) :=
  rep_of_mul (F := binary64) he h

/-- C81: in every format the conversions between MJD and epoch preserve order: a later date never gets an earlier epoch. -/
theorem C81_monotone {F : Fmt} (R : Rounding F) {x y : ℝ} (h : x ≤ y) :
    Fp.epj R x ≤ Fp.epj R y ∧ Fp.epj2d R x ≤ Fp.epj2d R y ∧ Fp.epb R x ≤ Fp.epb R y ∧ Fp.epb2d R x ≤ Fp.epb2d R y := by
  have hT : (0 : ℝ) ≤ R 365.242198781 := R.nonneg (by norm_num)
  refine ⟨?_, ?_, ?_, ?_⟩
  · exact R.mono (add_le_add_right (R.mono (div_le_div_of_nonneg_right (R.mono (by linarith)) (by norm_num))) _)
  · exact R.mono (add_le_add_right (R.mono (mul_le_mul_of_nonneg_right (R.mono (by linarith)) (by norm_num))) _)
  · exact R.mono (add_le_add_right (R.mono (div_le_div_of_nonneg_right (R.mono (by linarith)) hT)) _)
  · exact R.mono (add_le_add_right (R.mono (mul_le_mul_of_nonneg_right (R.mono (by linarith)) hT)) _)

/-- C81: whole Julian epochs convert to MJD and back without any error. -/
theorem C81_julian_whole (R : Rounding binary64) (n : ℤ) (h : |n - 2000| ≤ 2 ^ 40) :
    Fp.epj2d R n = 51544.5 + ((n : ℝ) - 2000) * 365.25 ∧ Fp.epj R (Fp.epj2d R n) = n := by
  obtain ⟨k, hk⟩ : ∃ k, k = n - 2000 := ⟨_, rfl⟩
  have hn : n = 2000 + k := by omega
  subst hn
  rw [← hk] at h
  rw [abs_le] at h
  have r1 : binary64.Rep ((k : ℝ)) := by
    have := rep64q (m := k) (e := 0) (by rw [abs_le]; constructor <;> omega) (by norm_num)
    simpa using this
  have r2 : binary64.Rep ((k : ℝ) * 365.25) := by
    have := rep64q (m := 1461 * k) (e := -2) (by rw [abs_le]; constructor <;> omega) (by norm_num)
    convert this using 1; push_cast; norm_num; ring
  have r3 : binary64.Rep (51544.5 + (k : ℝ) * 365.25) := by
    have := rep64q (m := 206178 + 1461 * k) (e := -2) (by rw [abs_le]; constructor <;> omega) (by norm_num)
    convert this using 1; push_cast; norm_num; ring
  have r4 : binary64.Rep ((2000 + k : ℤ) : ℝ) := by
    have := rep64q (m := 2000 + k) (e := 0) (by rw [abs_le]; constructor <;> omega) (by norm_num)
    simpa using this
  have e1 : Fp.epj2d R ((2000 + k : ℤ) : ℝ) = 51544.5 + (k : ℝ) * 365.25 := by
    unfold Fp.epj2d
    rw [show ((2000 + k : ℤ) : ℝ) - 2000 = k by push_cast; ring, R.eq_self r1, R.eq_self r2, R.eq_self r3]
  refine ⟨by rw [e1]; push_cast; ring, ?_⟩
  rw [e1]
  unfold Fp.epj
  rw [show (51544.5 : ℝ) + (k : ℝ) * 365.25 - 51544.5 = k * 365.25 by ring, R.eq_self r2,
    mul_div_assoc, div_self (by norm_num : (365.25 : ℝ) ≠ 0), mul_one, R.eq_self r1,
    show (2000 : ℝ) + k = ((2000 + k : ℤ) : ℝ) by push_cast; ring, R.eq_self r4]

/-- C81: accuracy of the conversions within 930000 days of MJD 0 (from 688 BC to AD 4405). -/
theorem C81_accuracy (R : Rounding binary64) :
    (∀ d : ℝ, |d| ≤ 930000 → |Fp.epj R d - epj d| ≤ 1e-12 ∧ |Fp.epb R d - epb d| ≤ 1.1e-12) ∧
    (∀ e : ℝ, |e - 2000| ≤ 2700 → |Fp.epj2d R e - epj2d e| ≤ 2.1e-10 ∧ |Fp.epb2d R e - epb2d e| ≤ 2.9e-10) := by
  have lT := e64 R 365.242198781 9 (by norm_num) (by norm_num [abs_of_pos])
  have lB := e64 R 15019.81352 14 (by norm_num) (by norm_num [abs_of_pos])
  obtain ⟨T, hT⟩ : ∃ T, T = R 365.242198781 := ⟨_, rfl⟩
  obtain ⟨B, hB⟩ : ∃ B, B = R 15019.81352 := ⟨_, rfl⟩
  rw [← hT] at lT
  rw [← hB] at lB
  norm_num [abs_le] at lT lB
  have hT0 : 0 < T := by linarith [lT.1]
  constructor
  · intro d hd
    rw [abs_le] at hd
    constructor
    · have s1 := e64 R (d - 51544.5) 20 (by norm_num) (by rw [abs_lt]; norm_num; constructor <;> linarith [hd.1, hd.2])
      unfold Fp.epj epj
      generalize R (d - 51544.5) = a at *
      norm_num [abs_le] at s1
      have s2 := e64 R (a / 365.25) 12 (by norm_num) (by
        rw [abs_lt, lt_div_iff₀ (by norm_num), div_lt_iff₀ (by norm_num)]; norm_num
        constructor <;> linarith [hd.1, hd.2, s1.1, s1.2])
      generalize hb : R (a / 365.25) = b at *
      norm_num [abs_le] at s2
      have s3 := e64 R (2000 + b) 13 (by norm_num) (by
        rw [abs_lt]; norm_num
        constructor <;> linarith [hd.1, hd.2, s1.1, s1.2, s2.1, s2.2])
      generalize R (2000 + b) = c at *
      norm_num [abs_le] at s3 ⊢
      constructor <;> linarith [s1.1, s1.2, s2.1, s2.2, s3.1, s3.2]
    · unfold Fp.epb epb
      rw [← hT, ← hB]
      have s1 := e64 R (d - B) 20 (by norm_num) (by
        rw [abs_lt]; norm_num; constructor <;> linarith [hd.1, hd.2, lB.1, lB.2])
      generalize R (d - B) = a at *
      norm_num [abs_le] at s1
      have hq : |a / T - (d - 15019.81352) / 365.242198781| ≤ 4e-13 := by
        have e : a / T - (d - 15019.81352) / 365.242198781 =
            ((a - (d - 15019.81352)) - (d - 15019.81352) / 365.242198781 * (T - 365.242198781)) / T := by
          field_simp; ring
        rw [e, abs_div, abs_of_pos hT0, div_le_iff₀ hT0]
        have hx : |(d - 15019.81352) / 365.242198781| ≤ 2600 := by
          rw [abs_le, le_div_iff₀ (by norm_num), div_le_iff₀ (by norm_num)]
          constructor <;> linarith [hd.1, hd.2]
        have hy : |T - 365.242198781| ≤ 1 / 2 ^ 45 := by
          rw [abs_le]; norm_num; constructor <;> linarith [lT.1, lT.2]
        have hxy : |(d - 15019.81352) / 365.242198781 * (T - 365.242198781)| ≤ 2600 * (1 / 2 ^ 45) := by
          rw [abs_mul]; exact mul_le_mul hx hy (abs_nonneg _) (by norm_num)
        generalize (d - 15019.81352) / 365.242198781 * (T - 365.242198781) = w at *
        rw [abs_le] at hxy ⊢
        norm_num at hxy ⊢
        constructor <;> linarith [s1.1, s1.2, lB.1, lB.2, hxy.1, hxy.2, lT.1, lT.2]
      have hx : |(d - 15019.81352) / 365.242198781| ≤ 2600 := by
        rw [abs_le, le_div_iff₀ (by norm_num), div_le_iff₀ (by norm_num)]
        constructor <;> linarith [hd.1, hd.2]
      generalize (d - 15019.81352) / 365.242198781 = x at *
      rw [abs_le] at hq hx
      norm_num at hq
      have s2 := e64 R (a / T) 12 (by norm_num) (by
        rw [abs_lt]; norm_num; constructor <;> linarith [hq.1, hq.2, hx.1, hx.2])
      generalize a / T = q at *
      generalize R q = b at *
      norm_num [abs_le] at s2
      have s3 := e64 R (1900 + b) 13 (by norm_num) (by
        rw [abs_lt]; norm_num; constructor <;> linarith [hq.1, hq.2, hx.1, hx.2, s2.1, s2.2])
      generalize R (1900 + b) = c at *
      norm_num [abs_le] at s3 ⊢
      constructor <;> linarith [hq.1, hq.2, s2.1, s2.2, s3.1, s3.2]
  · intro e he
    rw [abs_le] at he
    constructor
    · have s1 := e64 R (e - 2000) 12 (by norm_num) (by rw [abs_lt]; norm_num; constructor <;> linarith [he.1, he.2])
      unfold Fp.epj2d epj2d
      generalize R (e - 2000) = a at *
      norm_num [abs_le] at s1
      have s2 := e64 R (a * 365.25) 20 (by norm_num) (by
        rw [abs_lt]; norm_num; constructor <;> linarith [he.1, he.2, s1.1, s1.2])
      generalize R (a * 365.25) = b at *
      norm_num [abs_le] at s2
      have s3 := e64 R (51544.5 + b) 20 (by norm_num) (by
        rw [abs_lt]; norm_num; constructor <;> linarith [he.1, he.2, s1.1, s1.2, s2.1, s2.2])
      generalize R (51544.5 + b) = c at *
      norm_num [abs_le] at s3 ⊢
      constructor <;> linarith [s1.1, s1.2, s2.1, s2.2, s3.1, s3.2]
    · unfold Fp.epb2d epb2d
      rw [← hT, ← hB]
      have s1 := e64 R (e - 1900) 12 (by norm_num) (by rw [abs_lt]; norm_num; constructor <;> linarith [he.1, he.2])
      generalize R (e - 1900) = a at *
      norm_num [abs_le] at s1
      have hw : |(e - 1900) * (T - 365.242198781)| ≤ 2800 * (1 / 2 ^ 45) := by
        rw [abs_mul]
        refine mul_le_mul ?_ ?_ (abs_nonneg _) (by norm_num)
        · rw [abs_le]; constructor <;> linarith [he.1, he.2]
        · rw [abs_le]; norm_num; constructor <;> linarith [lT.1, lT.2]
      have hv : |(a - (e - 1900)) * T| ≤ 1 / 2 ^ 42 * 366 := by
        rw [abs_mul]
        refine mul_le_mul ?_ ?_ (abs_nonneg _) (by norm_num)
        · rw [abs_le]; norm_num; constructor <;> linarith [s1.1, s1.2]
        · rw [abs_of_pos hT0]; linarith [lT.2]
      have ha : a * T = (e - 1900) * 365.242198781 + (a - (e - 1900)) * T + (e - 1900) * (T - 365.242198781) := by ring
      generalize (a - (e - 1900)) * T = v at *
      generalize (e - 1900) * (T - 365.242198781) = w at *
      generalize a * T = at' at *
      rw [abs_le] at hw hv
      norm_num at hw hv ha
      have s2 := e64 R at' 20 (by norm_num) (by
        rw [abs_lt]; norm_num; constructor <;> linarith [he.1, he.2, hw.1, hw.2, hv.1, hv.2])
      generalize R at' = b at *
      norm_num [abs_le] at s2
      have s3 := e64 R (B + b) 20 (by norm_num) (by
        rw [abs_lt]; norm_num
        constructor <;> linarith [he.1, he.2, hw.1, hw.2, hv.1, hv.2, s2.1, s2.2, lB.1, lB.2])
      generalize R (B + b) = c at *
      norm_num [abs_le] at s3 ⊢
      constructor <;> linarith [hw.1, hw.2, hv.1, hv.2, s2.1, s2.2, s3.1, s3.2, lB.1, lB.2]

/-- C81: MJD to epoch and back restores the MJD to 7e-10 day (60 microseconds), epoch to MJD and back restores the epoch
    to 2e-12 year. -/
theorem C81_round_trip (R : Rounding binary64) :
    (∀ d : ℝ, |d| ≤ 900000 → |Fp.epj2d R (Fp.epj R d) - d| ≤ 6.2e-10 ∧ |Fp.epb2d R (Fp.epb R d) - d| ≤ 7e-10) ∧
    (∀ e : ℝ, |e - 2000| ≤ 2300 → |Fp.epj R (Fp.epj2d R e) - e| ≤ 2e-12 ∧ |Fp.epb R (Fp.epb2d R e) - e| ≤ 2e-12) := by
  obtain ⟨h1, h2⟩ := C81_accuracy R
  constructor
  · intro d hd
    obtain ⟨a1, a2⟩ := h1 d (hd.trans (by norm_num))
    rw [abs_le] at hd
    constructor
    · generalize Fp.epj R d = x at *
      unfold epj at a1
      rw [abs_le] at a1
      obtain ⟨b1, -⟩ := h2 x (by rw [abs_le]; norm_num at a1 ⊢; constructor <;> linarith [hd.1, hd.2, a1.1, a1.2])
      generalize Fp.epj2d R x = y at *
      unfold epj2d at b1
      rw [abs_le] at b1 ⊢
      norm_num at a1 b1 ⊢
      constructor <;> linarith [a1.1, a1.2, b1.1, b1.2]
    · generalize Fp.epb R d = x at *
      unfold epb at a2
      rw [abs_le] at a2
      obtain ⟨-, b1⟩ := h2 x (by rw [abs_le]; norm_num at a2 ⊢; constructor <;> linarith [hd.1, hd.2, a2.1, a2.2])
      generalize Fp.epb2d R x = y at *
      unfold epb2d at b1
      rw [abs_le] at b1 ⊢
      norm_num at a2 b1 ⊢
      constructor <;> linarith [a2.1, a2.2, b1.1, b1.2]
  · intro e he
    obtain ⟨a1, a2⟩ := h2 e (he.trans (by norm_num))
    rw [abs_le] at he
    constructor
    · generalize Fp.epj2d R e = x at *
      unfold epj2d at a1
      rw [abs_le] at a1
      obtain ⟨b1, -⟩ := h1 x (by rw [abs_le]; norm_num at a1 ⊢; constructor <;> linarith [he.1, he.2, a1.1, a1.2])
      generalize Fp.epj R x = y at *
      unfold epj at b1
      rw [abs_le] at b1 ⊢
      norm_num at a1 b1 ⊢
      constructor <;> linarith [a1.1, a1.2, b1.1, b1.2]
    · generalize Fp.epb2d R e = x at *
      unfold epb2d at a2
      rw [abs_le] at a2
      obtain ⟨-, b1⟩ := h1 x (by rw [abs_le]; norm_num at a2 ⊢; constructor <;> linarith [he.1, he.2, a2.1, a2.2])
      generalize Fp.epb R x = y at *
      unfold epb at b1
      rw [abs_le] at b1 ⊢
      norm_num at a2 b1 ⊢
      constructor <;> linarith [a2.1, a2.2, b1.1, b1.2]

private theorem round_to_int (R : Rounding binary64) (n : ℤ) (h1 : 1025 ≤ n) (h2 : n ≤ 4095) (x : ℝ)
    (hx : |x - n| < 1 / 2 ^ 43) : R x = n := by
  rcases lt_trichotomy n 2048 with h | h | h
  · have := R.eq_of_near (x := x) (m := n * 2 ^ 42) (e := -42) (by norm_num [binary64]) (by norm_num [binary64]; omega)
      (by norm_num [binary64]; omega) (by
        convert hx using 1
        · congr 2; push_cast; norm_num; ring
        · norm_num)
    rw [this]; push_cast; norm_num; ring
  · have := R.eq_of_near_pow (x := x) (e := -41) (by norm_num [binary64]) (by
        convert hx using 1
        · congr 2; rw [h]; norm_num [binary64]
        · norm_num)
    rw [this, h]; norm_num [binary64]
  · have := R.eq_of_near (x := x) (m := n * 2 ^ 41) (e := -41) (by norm_num [binary64]) (by norm_num [binary64]; omega)
      (by norm_num [binary64]; omega) (by
        refine lt_of_eq_of_lt ?_ (hx.trans_le (by norm_num))
        congr 2; push_cast; norm_num; ring)
    rw [this]; push_cast; norm_num; ring

/-- C81: whole Besselian epochs from 1650 to 2150 are restored without any error, although the constants and the dates
    are rounded. -/
theorem C81_besselian_whole (R : Rounding binary64) (n : ℤ) (h1 : 1650 ≤ n) (h2 : n ≤ 2150) :
    Fp.epb R (Fp.epb2d R n) = n := by
  have lT := e64 R 365.242198781 9 (by norm_num) (by norm_num [abs_of_pos])
  have lB := e64 R 15019.81352 14 (by norm_num) (by norm_num [abs_of_pos])
  obtain ⟨T, hT⟩ : ∃ T, T = R 365.242198781 := ⟨_, rfl⟩
  obtain ⟨B, hB⟩ : ∃ B, B = R 15019.81352 := ⟨_, rfl⟩
  unfold Fp.epb Fp.epb2d
  rw [← hT] at lT ⊢
  rw [← hB] at lB ⊢
  norm_num [abs_le] at lT lB
  have hT0 : 0 < T := by linarith [lT.1]
  have r1 : binary64.Rep ((n : ℝ) - 1900) := by
    have := rep64q (m := n - 1900) (e := 0) (by rw [abs_le]; constructor <;> omega) (by norm_num)
    simpa using this
  rw [R.eq_self r1]
  have n1 : (1650 : ℝ) ≤ n := by exact_mod_cast h1
  have n2 : (n : ℝ) ≤ 2150 := by exact_mod_cast h2
  apply round_to_int R n (by omega) (by omega)
  obtain ⟨z, hz⟩ : ∃ z : ℝ, z = (n : ℝ) - 1900 := ⟨_, rfl⟩
  rw [← hz]
  have hzT : |z * T| ≤ 250 * 366 := by
    rw [abs_mul]
    refine mul_le_mul ?_ ?_ (abs_nonneg _) (by norm_num)
    · rw [abs_le]; constructor <;> linarith
    · rw [abs_of_pos hT0]; linarith [lT.2]
  rw [abs_le] at hzT
  have s1 := e64 R (z * T) 17 (by norm_num) (by rw [abs_lt]; norm_num; constructor <;> linarith [hzT.1, hzT.2])
  generalize R (z * T) = p at *
  norm_num [abs_le] at s1
  have s2 := e64 R (B + p) 17 (by norm_num) (by
    rw [abs_lt]; norm_num; constructor <;> linarith [hzT.1, hzT.2, s1.1, s1.2, lB.1, lB.2])
  generalize R (B + p) = m at *
  norm_num [abs_le] at s2
  have s3 := e64 R (m - B) 17 (by norm_num) (by
    rw [abs_lt]; norm_num; constructor <;> linarith [hzT.1, hzT.2, s1.1, s1.2, s2.1, s2.2])
  generalize R (m - B) = d at *
  norm_num [abs_le] at s3
  have hq : |d / T - z| ≤ 6e-14 := by
    have e : d / T - z = (d - z * T) / T := by field_simp
    rw [e, abs_div, abs_of_pos hT0, div_le_iff₀ hT0, abs_le]
    norm_num
    constructor <;> linarith [s1.1, s1.2, s2.1, s2.2, s3.1, s3.2, lT.1, lT.2]
  generalize d / T = q at *
  rw [abs_le] at hq
  norm_num at hq
  have s4 := e64 R q 8 (by norm_num) (by rw [abs_lt]; norm_num; constructor <;> linarith [hq.1, hq.2])
  generalize R q = r at *
  norm_num [abs_le] at s4
  rw [abs_lt]
  norm_num
  constructor <;> linarith [hq.1, hq.2, s4.1, s4.2]

example : |(1950 : ℤ) - 2000| ≤ 2 ^ 40 := by norm_num
example : Fp.epb (ieee binary64) (Fp.epb2d (ieee binary64) 1950) = 1950 := by
  have := C81_besselian_whole (ieee binary64) 1950 (by norm_num) (by norm_num)
  exact_mod_cast this
example : |(60000.25 : ℝ)| ≤ 900000 := by norm_num [abs_of_pos]

end Sla.Props
