import Verif.Lemmas.FpEpochs
import Verif.Props.Angles

/-
C121: time scales and epochs in double precision.
-/
namespace Sla.Props
open Sla.Fp

/-- **C121**: from 1972 on `dat` returns the whole seconds exactly, and from 1858 on it is within 5.27e-14 seconds. -/
theorem C121_dat (R : Rounding binary64) (utc : ℝ) :
    (41317 ≤ utc → Fp.dat R utc = dat utc) ∧ (0 ≤ utc → |Fp.dat R utc - dat utc| ≤ 5.27e-14) :=
  ⟨dat_whole, fun h => (dat_near R.dbl h).err⟩

/-- **C121**: `dtt` is within 7.39e-14 seconds from 1858 on, and within 1.24e-14 seconds from 1972 on. -/
theorem C121_dtt (R : Rounding binary64) (utc : ℝ) :
    (41317 ≤ utc → |Fp.dtt R utc - dtt utc| ≤ 1.24e-14) ∧ (0 ≤ utc → |Fp.dtt R utc - dtt utc| ≤ 7.39e-14) := by
  refine ⟨fun h => ?_, dtt_near R.dbl⟩
  have h1 := R.dbl.nlit (x := 32.184) (B := 32.184) (g := 3.87e-15) (by norm_num) (by norm_num)
  have h2 : Nb (dat utc) (dat utc) 0 37 := Nb.self (by
    have b : (0 : ℝ) ≤ dat utc ∧ dat utc ≤ 37 := by
      unfold dat
      have st : ∀ (c : Prop) [Decidable c] (a b : ℝ), (0 ≤ a ∧ a ≤ 37) → (¬ c → 0 ≤ b ∧ b ≤ 37) →
          0 ≤ (if c then a else b) ∧ (if c then a else b) ≤ 37 := by
        intro c _ a b ha hb
        by_cases hc : c
        · rw [if_pos hc]; exact ha
        · rw [if_neg hc]; exact hb hc
      iterate 27 refine st _ _ _ (by norm_num) (fun _ => ?_)
      rw [if_pos h]; norm_num
    rw [abs_of_nonneg b.1]; exact b.2)
  unfold Fp.dtt dtt
  rw [dat_whole h]
  exact (R.dbl.nadd (C := 69.2) (g := 1.24e-14) h1 h2 (by norm_num) (by norm_num)).err

/-- 2000 January 1 and 1960 January 1. -/
example : (41317 : ℝ) ≤ 51544 ∧ (0 : ℝ) ≤ 36934 := by norm_num

/-- **C121**: `dt` is within 8.02e-11 seconds from 2001 BC to AD 3000, including at the two epochs where the model changes, and within
1.63e-13 seconds from 1709 to 2100. -/
theorem C121_dt (R : Rounding binary64) (epoch : ℝ) (h0 : -2000 ≤ epoch) (h1 : epoch ≤ 3000) :
    |Fp.dt R epoch - dt epoch| ≤ 8.02e-11 ∧ (1709 ≤ epoch → epoch ≤ 2100 → |Fp.dt R epoch - dt epoch| ≤ 1.63e-13) :=
  dt_near R.dbl h0 h1

example : (-2000 : ℝ) ≤ 1950 ∧ (1950 : ℝ) ≤ 3000 ∧ (1709 : ℝ) ≤ 1950 ∧ (1950 : ℝ) ≤ 2100 := by norm_num

/-- **C121**: `epco` is within 2.1e-12 years, whatever the letters. -/
theorem C121_epco (R : Rounding binary64) (r g : Char) (e : ℝ) (h : |e - 2000| ≤ 2001) : |Fp.epco R r g e - epco r g e| ≤ 2.1e-12 := by
  have h1 := epco_B R.dbl h
  have h2 := epco_J R.dbl h
  unfold Fp.epco epco
  simp only []
  generalize (if r = 'b' then 'B' else r) = r'
  generalize (if g = 'j' then 'J' else g) = g'
  by_cases c1 : r' ≠ 'B' ∧ r' ≠ 'J'
  · rw [if_pos c1, if_pos c1]; norm_num
  rw [if_neg c1, if_neg c1]
  by_cases c2 : g' ≠ 'B' ∧ g' ≠ 'J'
  · rw [if_pos c2, if_pos c2]; norm_num
  rw [if_neg c2, if_neg c2]
  by_cases c3 : r' = g'
  · rw [if_pos c3, if_pos c3]; norm_num
  rw [if_neg c3, if_neg c3]
  by_cases c4 : r' = 'B'
  · rw [if_pos c4, if_pos c4]; exact h1.trans (by norm_num)
  · rw [if_neg c4, if_neg c4]; exact h2

/-- **C121**: an epoch changed to the other system and back is recovered within 4.3e-12 years (0.14 milliseconds). -/
theorem C121_epco_round_trip (R : Rounding binary64) (e : ℝ) (h : |e - 2000| ≤ 1900) :
    |Fp.epco R 'J' 'B' (Fp.epco R 'B' 'J' e) - e| ≤ 4.3e-12 ∧ |Fp.epco R 'B' 'J' (Fp.epco R 'J' 'B' e) - e| ≤ 4.3e-12 := by
  obtain ⟨-, -, -, -, x1, x2⟩ := C17_epco e
  obtain ⟨q1, q2⟩ := abs_le.1 h
  have B1 : ∀ x, epco 'B' 'J' x = epb (epj2d x) := fun x => by simp [epco]
  have J1 : ∀ x, epco 'J' 'B' x = epj (epb2d x) := fun x => by simp [epco]
  have h' : |e - 2000| ≤ 2001 := h.trans (by norm_num)
  have dB : ∀ x y : ℝ, epco 'B' 'J' x - epco 'B' 'J' y = (x - y) * (365.25 / 365.242198781) := by
    intro x y; rw [B1, B1]; unfold epb epj2d; ring
  have dJ : ∀ x y : ℝ, epco 'J' 'B' x - epco 'J' 'B' y = (x - y) * (365.242198781 / 365.25) := by
    intro x y; rw [J1, J1]; unfold epj epb2d; ring
  have near : ∀ x y : ℝ, |x - y| ≤ 2.1e-12 → |y - 2000| ≤ 2000 → |x - 2000| ≤ 2001 := by
    intro x y k1 k2
    have := abs_sub_le x y 2000
    norm_num at k1 ⊢; linarith
  constructor
  · have k := C121_epco R 'B' 'J' e h'
    have bd : |epco 'B' 'J' e - 2000| ≤ 2000 := by
      rw [B1]; unfold epb epj2d
      rw [abs_le]; constructor <;> norm_num <;> linarith
    have k2 := C121_epco R 'J' 'B' _ (near _ _ k bd)
    have k3 := dJ (Fp.epco R 'B' 'J' e) (epco 'B' 'J' e)
    rw [x1] at k3
    have k4 : |epco 'J' 'B' (Fp.epco R 'B' 'J' e) - e| ≤ 2.1e-12 := by
      rw [k3, abs_mul]
      refine (mul_le_mul k (show |(365.242198781 : ℝ) / 365.25| ≤ 1 by norm_num) (abs_nonneg _) (by norm_num)).trans (by norm_num)
    have := abs_sub_le (Fp.epco R 'J' 'B' (Fp.epco R 'B' 'J' e)) (epco 'J' 'B' (Fp.epco R 'B' 'J' e)) e
    norm_num at k2 k4 ⊢; linarith
  · have k := C121_epco R 'J' 'B' e h'
    have bd : |epco 'J' 'B' e - 2000| ≤ 2000 := by
      rw [J1]; unfold epj epb2d
      rw [abs_le]; constructor <;> norm_num <;> linarith
    have k2 := C121_epco R 'B' 'J' _ (near _ _ k bd)
    have k3 := dB (Fp.epco R 'J' 'B' e) (epco 'J' 'B' e)
    rw [x2] at k3
    have k4 : |epco 'B' 'J' (Fp.epco R 'J' 'B' e) - e| ≤ 2.11e-12 := by
      rw [k3, abs_mul]
      refine (mul_le_mul k (show |(365.25 : ℝ) / 365.242198781| ≤ 1.001 by norm_num) (abs_nonneg _) (by norm_num)).trans (by norm_num)
    have := abs_sub_le (Fp.epco R 'B' 'J' (Fp.epco R 'J' 'B' e)) (epco 'B' 'J' (Fp.epco R 'J' 'B' e)) e
    norm_num at k2 k4 ⊢; linarith

example : |(1950 : ℝ) - 2000| ≤ 1900 := by rw [abs_le]; norm_num

end Sla.Props
