import Verif.Model.CMath
import Mathlib.Algebra.Order.Floor.Ring
import Mathlib.Tactic.Linarith
import Mathlib.Tactic.FieldSimp

namespace Sla

theorem ctrunc_of_nonneg {a : ℝ} (h : 0 ≤ a) : ctrunc a = ⌊a⌋ := by simp [ctrunc, h]
theorem ctrunc_of_neg {a : ℝ} (h : a < 0) : ctrunc a = ⌈a⌉ := by simp [ctrunc, not_le.2 h]

@[simp] theorem cround_intCast (n : ℤ) : cround (n : ℝ) = n := by
  unfold cround
  split
  · rw [Int.floor_eq_iff]; constructor <;> linarith
  · rw [Int.ceil_eq_iff]; constructor <;> linarith

/-- Rounding is off by at most one half. -/
theorem abs_cround_sub_le (a : ℝ) : |(cround a : ℝ) - a| ≤ 1 / 2 := by
  unfold cround
  split
  · have h1 := Int.floor_le (a + 1 / 2)
    have h2 := Int.lt_floor_add_one (a + 1 / 2)
    rw [abs_le]; constructor <;> linarith
  · have h1 := Int.le_ceil (a - 1 / 2)
    have h2 := Int.ceil_lt_add_one (a - 1 / 2)
    rw [abs_le]; constructor <;> linarith

theorem cround_nonneg {a : ℝ} (h : 0 ≤ a) : 0 ≤ cround a := by
  unfold cround; rw [if_pos h]; exact Int.floor_nonneg.2 (by linarith)

theorem cround_neg (a : ℝ) (h : a ≠ 0) : cround (-a) = -cround a := by
  unfold cround
  rcases lt_or_gt_of_ne h with h | h
  · rw [if_pos (by linarith), if_neg (by linarith), ← Int.floor_neg]; congr 1; ring
  · rw [if_neg (by linarith), if_pos (by linarith), ← Int.ceil_neg]; congr 1; ring

/-- `fmod` differs from its argument by a multiple of the modulus. -/
theorem cfmod_eq (a b : ℝ) : ∃ k : ℤ, cfmod a b = a - b * k := ⟨_, rfl⟩

theorem cfmod_nonneg {a b : ℝ} (ha : 0 ≤ a) (hb : 0 < b) :
    cfmod a b = a - b * ⌊a / b⌋ ∧ 0 ≤ cfmod a b ∧ cfmod a b < b := by
  have h : cfmod a b = a - b * ⌊a / b⌋ := by
    rw [cfmod, ctrunc_of_nonneg (div_nonneg ha hb.le)]
  refine ⟨h, ?_, ?_⟩
  · rw [h]
    have := Int.floor_le (a / b)
    rw [le_div_iff₀ hb] at this; nlinarith
  · rw [h]
    have := Int.lt_floor_add_one (a / b)
    rw [div_lt_iff₀ hb] at this; nlinarith

theorem cfmod_neg {a b : ℝ} (ha : a < 0) (hb : 0 < b) :
    cfmod a b = a - b * ⌈a / b⌉ ∧ cfmod a b ≤ 0 ∧ -b < cfmod a b := by
  have h : cfmod a b = a - b * ⌈a / b⌉ := by
    rw [cfmod, ctrunc_of_neg (div_neg_of_neg_of_pos ha hb)]
  refine ⟨h, ?_, ?_⟩
  · rw [h]
    have := Int.le_ceil (a / b)
    rw [div_le_iff₀ hb] at this; nlinarith
  · rw [h]
    have := Int.ceil_lt_add_one (a / b)
    rw [← sub_lt_iff_lt_add, lt_div_iff₀ hb] at this; nlinarith

/-- `fmod` followed by "add the modulus if negative" is the floored remainder. -/
theorem cfmod_wrap {b : ℝ} (a : ℝ) (hb : 0 < b) :
    (if cfmod a b < 0 then cfmod a b + b else cfmod a b) = a - b * ⌊a / b⌋ := by
  by_cases ha : 0 ≤ a
  · obtain ⟨h1, h2, -⟩ := cfmod_nonneg ha hb
    rw [if_neg (not_lt.2 h2), h1]
  · obtain ⟨h1, h2, h3⟩ := cfmod_neg (not_le.1 ha) hb
    split
    · rename_i h
      have : ⌊a / b⌋ = ⌈a / b⌉ - 1 := by
        rw [Int.floor_eq_iff]
        rw [h1] at h h3
        push_cast
        constructor
        · rw [le_div_iff₀ hb]; nlinarith
        · rw [div_lt_iff₀ hb]; nlinarith
      rw [h1, this]; push_cast; ring
    · rename_i h
      have h0 : cfmod a b = 0 := le_antisymm h2 (not_lt.1 h)
      have : ⌊a / b⌋ = ⌈a / b⌉ := by
        rw [h1] at h0
        have e : a / b = (⌈a / b⌉ : ℝ) := by
          rw [div_eq_iff hb.ne']; linarith
        conv_lhs => rw [e]
        simp
      rw [h1, this]

/-- With modulus one: the fractional part. -/
theorem cfmod_one_wrap (a : ℝ) :
    (if cfmod a 1 < 0 then cfmod a 1 + 1 else cfmod a 1) = Int.fract a := by
  rw [cfmod_wrap a one_pos, one_mul, div_one, Int.self_sub_floor]

end Sla
