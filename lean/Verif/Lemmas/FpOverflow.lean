import Verif.Spec.FpLib
import Verif.Lemmas.Fp
import Verif.Model.FpSphere

/-
Bounds on the magnitude of intermediate results, as powers of two: `Same n a b` says that the value `a`, computed with arithmetic that
may overflow, is the value `b` computed without, and at most `2^n`.
-/
namespace Sla.Fp
open Sla.Spec

def Same (n : ℕ) (a b : ℝ) : Prop := a = b ∧ |b| ≤ 2 ^ n

variable {F : Fmt} {R : Rounding F} {Ω : ℝ} {ρ : ℝ → ℝ} {m n K : ℕ} {a b c d : ℝ}

private theorem pow_le' (h : m ≤ n) : (2 : ℝ) ^ m ≤ 2 ^ n := pow_le_pow_right₀ (by norm_num) h

theorem Same.of (h : |a| ≤ 2 ^ n) : Same n a a := ⟨rfl, h⟩

theorem Same.weaken (h : Same m a b) (hm : m ≤ n) : Same n a b := ⟨h.1, h.2.trans (pow_le' hm)⟩

theorem rep_two_pow (hF : F.emin ≤ 0) (n : ℕ) : F.Rep ((2 : ℝ) ^ n) := by
  have := rep_of_mul (F := F) (k := 1) (e := n) (by omega) (by rw [abs_one]; exact one_le_pow₀ (by norm_num))
  simpa using this

theorem abs_rnd_le (R : Rounding F) (hF : F.emin ≤ 0) (h : |a| ≤ 2 ^ n) : |R a| ≤ 2 ^ n := by
  rw [← R.abs_eq]; exact R.le_rep h (rep_two_pow hF n)

/-- A magnitude within which nothing overflows. -/
structure Room (R : Rounding F) (Ω : ℝ) (ρ : ℝ → ℝ) (K : ℕ) : Prop where
  agree : Overflowing R Ω ρ
  room : (2 : ℝ) ^ K ≤ Ω
  small : F.emin ≤ 0

theorem Same.rnd (hr : Room R Ω ρ K) (h : Same n a b) (hn : n ≤ K) : Same n (ρ a) (R b) :=
  ⟨by rw [h.1]; exact hr.agree _ (h.2.trans ((pow_le' hn).trans hr.room)), abs_rnd_le R hr.small h.2⟩

theorem Same.mul (h : Same m a b) (h' : Same n c d) : Same (m + n) (a * c) (b * d) :=
  ⟨by rw [h.1, h'.1], by rw [abs_mul, pow_add]; exact mul_le_mul h.2 h'.2 (abs_nonneg _) (by positivity)⟩

theorem Same.add (h : Same m a b) (h' : Same n c d) : Same (max m n + 1) (a + c) (b + d) :=
  ⟨by rw [h.1, h'.1], by
    have h1 := h.2.trans (pow_le' (le_max_left m n))
    have h2 := h'.2.trans (pow_le' (le_max_right m n))
    rw [pow_succ]; linarith [abs_add_le b d]⟩

theorem Same.neg (h : Same m a b) : Same m (-a) (-b) := ⟨by rw [h.1], by rw [abs_neg]; exact h.2⟩

theorem Same.sub (h : Same m a b) (h' : Same n c d) : Same (max m n + 1) (a - c) (b - d) := by
  rw [sub_eq_add_neg, sub_eq_add_neg]; exact h.add h'.neg

theorem Same.abs (h : Same m a b) : Same m |a| |b| := ⟨by rw [h.1], by rw [abs_abs]; exact h.2⟩

theorem Same.div (h : Same m a b) (h' : c = d) (hd : 1 ≤ d) : Same m (a / c) (b / d) :=
  ⟨by rw [h.1, h'], by
    rw [abs_div, abs_of_pos (lt_of_lt_of_le one_pos hd)]
    exact (div_le_self (abs_nonneg _) hd).trans h.2⟩

theorem Same.sqrt (h : Same m a b) : Same m (Real.sqrt a) (Real.sqrt b) :=
  ⟨by rw [h.1], by
    rw [abs_of_nonneg (Real.sqrt_nonneg _)]
    refine Real.sqrt_le_iff.2 ⟨by positivity, ?_⟩
    have h1 : (1 : ℝ) ≤ 2 ^ m := one_le_pow₀ (by norm_num)
    have := (le_abs_self b).trans h.2
    nlinarith⟩

theorem Same.trunc (h : Same m a b) : Same m (ctrunc a) (ctrunc b) :=
  ⟨by rw [h.1], by
    refine le_trans ?_ h.2
    unfold ctrunc
    split_ifs with h0
    · have h1 := Int.floor_le b
      have h2 : (0 : ℝ) ≤ (⌊b⌋ : ℝ) := by exact_mod_cast Int.floor_nonneg.2 h0
      rw [abs_of_nonneg h2, abs_of_nonneg h0]; exact h1
    · have h1 := Int.le_ceil b
      have h2 : (⌈b⌉ : ℝ) ≤ 0 := by exact_mod_cast Int.ceil_nonpos.2 (not_le.1 h0).le
      rw [abs_of_nonpos h2, abs_of_neg (not_le.1 h0)]; linarith⟩

theorem Same.round (h : Same m a b) : Same (m + 1) (cround a) (cround b) :=
  ⟨by rw [h.1], by
    have h1 : (1 : ℝ) ≤ 2 ^ m := one_le_pow₀ (by norm_num)
    rw [pow_succ]
    have hb := abs_le.1 h.2
    unfold cround
    split_ifs with h0
    · have h2 := Int.floor_le (b + 1 / 2)
      have h3 := Int.lt_floor_add_one (b + 1 / 2)
      rw [abs_le]; constructor <;> linarith [hb.1, hb.2]
    · have h2 := Int.le_ceil (b - 1 / 2)
      have h3 := Int.ceil_lt_add_one (b - 1 / 2)
      rw [abs_le]; constructor <;> linarith [hb.1, hb.2]⟩

theorem Same.fmod (h : Same m a b) (h' : c = d) (hd : 0 < d) : Same m (cfmod a c) (cfmod b d) :=
  ⟨by rw [h.1, h'], (abs_cfmod b d hd).1.trans h.2⟩

/-- The remainder is small whatever the argument is. -/
theorem Same.fmod' (a : ℝ) (h : Same m c d) (hd : 0 < d) : Same m (cfmod a c) (cfmod a d) :=
  ⟨by rw [h.1], (abs_cfmod a d hd).2.le.trans ((le_abs_self d).trans h.2)⟩

theorem Same.lit (hr : Room R Ω ρ K) (h : |a| ≤ 2 ^ n) (hn : n ≤ K) : Same n (ρ a) (R a) := (Same.of h).rnd hr hn

end Sla.Fp
