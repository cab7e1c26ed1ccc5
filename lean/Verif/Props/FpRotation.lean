import Verif.Lemmas.FpVec

/-
Property theorems C83: rotations in double precision.
-/
namespace Sla.Props
open Sla.Fp Sla.Spec Matrix

/-- C83: a matrix whose elements are within `ε` of a rotation, applied to a vector in double precision, gives the rotated
    vector with a relative error of at most `3 ε + 2^-50`; the same for the transpose and the inverse rotation. -/
theorem C83_apply (R : Rounding binary64) {Q M : Mat} (hQ : IsRotation Q) {ε : ℝ} (h0 : 0 ≤ ε) (hε : ε ≤ 1 / 2 ^ 10)
    (h : ∀ i j, |M i j - Q i j| ≤ ε) (v : Vec) (hv : (2 : ℝ) ^ (-1000 : ℤ) ≤ len v) :
    len (Fp.dmxv R M v - Q *ᵥ v) ≤ (3 * ε + 1 / 2 ^ 50) * len v ∧
      len (Fp.dimxv R M v - Qᵀ *ᵥ v) ≤ (3 * ε + 1 / 2 ^ 50) * len v := by
  have ht : (2 : ℝ) ^ (-1071 : ℤ) ≤ 1 / 2 ^ 71 * len v := by
    have : (2 : ℝ) ^ (-1071 : ℤ) = 1 / 2 ^ 71 * 2 ^ (-1000 : ℤ) := by
      rw [show (-1071 : ℤ) = -71 + -1000 by norm_num, zpow_split]; norm_num
    rw [this]; exact mul_le_mul_of_nonneg_left hv (by norm_num)
  have hl := len_nonneg v
  have key : ∀ x : ℝ, x ≤ (3 * ε + 6 / 2 ^ 53) * len v + 2 ^ (-1071 : ℤ) → x ≤ (3 * ε + 1 / 2 ^ 50) * len v := by
    intro x hx
    generalize (2 : ℝ) ^ (-1071 : ℤ) = τ at *
    norm_num at *
    nlinarith
  refine ⟨key _ (mulVec_near R hQ h0 hε h v), key _ ?_⟩
  exact mulVec_near R (M := Mᵀ) (Fp.IsRotation.transpose hQ) h0 hε (fun i j => h j i) v

/-- One more matrix in a chain. -/
private theorem chain_step (R : Rounding binary64) {Q M : Mat} (hQ : IsRotation Q) {ε : ℝ} (h0 : 0 ≤ ε) (hε : ε ≤ 1 / 2 ^ 10)
    (h : ∀ i j, |M i j - Q i j| ≤ ε) {w z : Vec} {e L : ℝ} (hL : (2 : ℝ) ^ (-1000 : ℤ) ≤ L) (hz : len z = L)
    (hw : len (w - z) ≤ e * L) :
    len (Fp.dmxv R M w - Q *ᵥ z) ≤ ((1 + (3 * ε + 1 / 2 ^ 50)) * (1 + e) - 1) * L ∧ len (Q *ᵥ z) = L := by
  refine ⟨?_, by rw [rotation_len hQ, hz]⟩
  have h1 := mulVec_near R hQ h0 hε h w
  have h2 : len (Q *ᵥ (w - z)) ≤ e * L := by rw [rotation_len hQ]; exact hw
  have h3 := len_add_le (Fp.dmxv R M w - Q *ᵥ w) (Q *ᵥ (w - z))
  rw [show Fp.dmxv R M w - Q *ᵥ w + Q *ᵥ (w - z) = Fp.dmxv R M w - Q *ᵥ z by rw [mulVec_sub]; abel] at h3
  have h4 := len_add_le z (w - z)
  rw [add_sub_cancel, hz] at h4
  have ht : (2 : ℝ) ^ (-1071 : ℤ) ≤ 1 / 2 ^ 71 * L := by
    have : (2 : ℝ) ^ (-1071 : ℤ) = 1 / 2 ^ 71 * 2 ^ (-1000 : ℤ) := by
      rw [show (-1071 : ℤ) = -71 + -1000 by norm_num, zpow_split]; norm_num
    rw [this]; exact mul_le_mul_of_nonneg_left hL (by norm_num)
  have hL0 : 0 ≤ L := by rw [← hz]; exact len_nonneg _
  have he : 0 ≤ e * L := (len_nonneg _).trans hw
  have h5 : len w ≤ L + e * L := by linarith
  have h6 : (3 * ε + 6 / 2 ^ 53) * len w ≤ (3 * ε + 6 / 2 ^ 53) * (L + e * L) :=
    mul_le_mul_of_nonneg_left h5 (by positivity)
  have e1 : ((1 + (3 * ε + 1 / 2 ^ 50)) * (1 + e) - 1) * L = e * L + (3 * ε + 1 / 2 ^ 50) * (L + e * L) := by ring
  rw [e1]
  generalize e * L = y at *
  generalize (2 : ℝ) ^ (-1071 : ℤ) = τ at *
  have e2 : (3 * ε + 1 / 2 ^ 50) * (L + y) = (3 * ε + 6 / 2 ^ 53) * (L + y) + 2 / 2 ^ 53 * (L + y) := by norm_num; ring
  rw [e2]
  have : 1 / 2 ^ 71 * L ≤ 2 / 2 ^ 53 * (L + y) := by norm_num; linarith
  linarith

/-- C83: any number of rotations one after the other: the error of the vector grows at most like `(1 + c)^n - 1` with
    `c = 3 ε + 2^-50`. -/
theorem C83_chain (R : Rounding binary64) {ε : ℝ} (h0 : 0 ≤ ε) (hε : ε ≤ 1 / 2 ^ 10) (l : List (Mat × Mat))
    (hl : ∀ p ∈ l, IsRotation p.2 ∧ ∀ i j, |p.1 i j - p.2 i j| ≤ ε) (v : Vec) (hv : (2 : ℝ) ^ (-1000 : ℤ) ≤ len v) :
    len (l.foldl (fun w p => Fp.dmxv R p.1 w) v - l.foldl (fun z p => p.2 *ᵥ z) v) ≤
      ((1 + (3 * ε + 1 / 2 ^ 50)) ^ l.length - 1) * len v := by
  have key : ∀ (l : List (Mat × Mat)) (_ : ∀ p ∈ l, IsRotation p.2 ∧ ∀ i j, |p.1 i j - p.2 i j| ≤ ε) (w z : Vec) (e : ℝ),
      len z = len v → len (w - z) ≤ e * len v →
      len (l.foldl (fun w p => Fp.dmxv R p.1 w) w - l.foldl (fun z p => p.2 *ᵥ z) z) ≤
        ((1 + (3 * ε + 1 / 2 ^ 50)) ^ l.length * (1 + e) - 1) * len v := by
    intro l
    induction l with
    | nil => intro _ w z e _ hw; simpa using hw
    | cons p l ih =>
      intro hl w z e hz hw
      obtain ⟨hp1, hp2⟩ := hl p (by simp)
      obtain ⟨s1, s2⟩ := chain_step R hp1 h0 hε hp2 hv hz hw
      have := ih (fun q hq => hl q (by simp [hq])) _ _ _ s2 s1
      rw [List.foldl_cons, List.foldl_cons, List.length_cons, pow_succ]
      refine this.trans (le_of_eq ?_)
      ring
  have := key l hl v v 0 rfl (by simp [len])
  simpa using this

/-- C83: the product of any number of matrices near rotations, formed in double precision, differs from the product of the
    rotations by at most `(1 + c)^n - 1` in each element. -/
theorem C83_product (R : Rounding binary64) {ε : ℝ} (h0 : 0 ≤ ε) (hε : ε ≤ 1 / 2 ^ 10) (l : List (Mat × Mat))
    (hl : ∀ p ∈ l, IsRotation p.2 ∧ ∀ i j, |p.1 i j - p.2 i j| ≤ ε) (i j : Fin 3) :
    |l.foldl (fun P p => Fp.dmxm R p.1 P) 1 i j - l.foldl (fun P p => p.2 * P) (1 : Mat) i j| ≤
      (1 + (3 * ε + 1 / 2 ^ 50)) ^ l.length - 1 := by
  have c1 : ∀ (l : List (Mat × Mat)) (P : Mat) (j : Fin 3),
      (fun i => l.foldl (fun P p => Fp.dmxm R p.1 P) P i j) = l.foldl (fun w p => Fp.dmxv R p.1 w) (fun i => P i j) := by
    intro l
    induction l with
    | nil => intros; rfl
    | cons p l ih => intro P j; rw [List.foldl_cons, List.foldl_cons, ih]; rfl
  have c2 : ∀ (l : List (Mat × Mat)) (P : Mat) (j : Fin 3),
      (fun i => l.foldl (fun P p => p.2 * P) P i j) = l.foldl (fun w p => p.2 *ᵥ w) (fun i => P i j) := by
    intro l
    induction l with
    | nil => intros; rfl
    | cons p l ih => intro P j; rw [List.foldl_cons, List.foldl_cons, ih]; rfl
  have hcol : len (fun i => (1 : Mat) i j) = 1 := by
    rw [len_eq]; fin_cases j <;> simp [Matrix.one_apply]
  have h := C83_chain R h0 hε l hl (fun i => (1 : Mat) i j) (by
    rw [hcol]
    calc (2 : ℝ) ^ (-1000 : ℤ) ≤ 2 ^ (0 : ℤ) := two_zpow_le (by norm_num)
      _ = 1 := by norm_num)
  rw [← c1, ← c2, hcol, mul_one] at h
  exact (abs_le_len _ i).trans h

private theorem eulerRotation_near {c : Char} {s s' k k' ε : ℝ} (h0 : 0 ≤ ε) (hs : |s' - s| ≤ ε) (hk : |k' - k| ≤ ε) :
    (eulerRotation c s' k' = none ∧ eulerRotation c s k = none) ∨
    ∃ M Q, eulerRotation c s' k' = some M ∧ eulerRotation c s k = some Q ∧ ∀ i j, |M i j - Q i j| ≤ ε := by
  unfold eulerRotation
  split_ifs
  · right
    refine ⟨_, _, rfl, rfl, fun i j => ?_⟩
    fin_cases i <;> fin_cases j <;> simp <;> first | assumption | (rw [abs_sub_comm] at hs; convert hs using 2; ring)
  · right
    refine ⟨_, _, rfl, rfl, fun i j => ?_⟩
    fin_cases i <;> fin_cases j <;> simp <;> first | assumption | (rw [abs_sub_comm] at hs; convert hs using 2; ring)
  · right
    refine ⟨_, _, rfl, rfl, fun i j => ?_⟩
    fin_cases i <;> fin_cases j <;> simp <;> first | assumption | (rw [abs_sub_comm] at hs; convert hs using 2; ring)
  · left; exact ⟨rfl, rfl⟩

private theorem eulerRotation_rotation {c : Char} {a : ℝ} {Q : Mat}
    (h : eulerRotation c (Real.sin a) (Real.cos a) = some Q) : IsRotation Q := by
  have e : Sla.deuler [c] a 0 0 = Q := by
    simp [Sla.deuler, Sla.eulerStep, h, dmxm_eq, identity3_eq]
  rw [← e]; exact C23_rotation _ _ _ _

private theorem dmxm_col (R : Rounding binary64) (M P : Mat) (j : Fin 3) :
    (fun i => Fp.dmxm R M P i j) = Fp.dmxv R M (fun i => P i j) := rfl

private theorem dmxm_exact_col (M P : Mat) (j : Fin 3) : (fun i => Sla.dmxm M P i j) = M *ᵥ (fun i => P i j) := by
  rw [dmxm_eq]; rfl

private theorem unit_lower : (2 : ℝ) ^ (-1000 : ℤ) ≤ 1 := by
  calc (2 : ℝ) ^ (-1000 : ℤ) ≤ 2 ^ (0 : ℤ) := two_zpow_le (by norm_num)
    _ = 1 := by norm_num

/-- One step of `deuler` in both arithmetics. -/
private theorem eulerStep_near (R : Rounding binary64) (sn cs : ℝ → ℝ) {ε : ℝ} (h0 : 0 ≤ ε) (hε : ε ≤ 1 / 2 ^ 10)
    (order : List Char) (p t s : ℝ)
    (ha : ∀ a, a = p ∨ a = t ∨ a = s → |sn a - Real.sin a| ≤ ε ∧ |cs a - Real.cos a| ≤ ε)
    (n l : Nat) (P Q : Mat) (e : ℝ) (he : 0 ≤ e)
    (h : ∀ j, len ((fun i => P i j) - fun i => Q i j) ≤ e ∧ len (fun i => Q i j) = 1) :
    (Fp.eulerStep R sn cs order p t s (l, P) n).1 = (Sla.eulerStep order p t s (l, Q) n).1 ∧
    ∀ j, len ((fun i => (Fp.eulerStep R sn cs order p t s (l, P) n).2 i j) -
        fun i => (Sla.eulerStep order p t s (l, Q) n).2 i j) ≤ (1 + (3 * ε + 1 / 2 ^ 50)) * (1 + e) - 1 ∧
      len (fun i => (Sla.eulerStep order p t s (l, Q) n).2 i j) = 1 := by
  unfold Fp.eulerStep Sla.eulerStep
  simp only
  have grow : ∀ j, ∀ (M A : Mat), IsRotation A → (∀ i j, |M i j - A i j| ≤ ε) →
      len ((fun i => Fp.dmxm R M P i j) - fun i => Sla.dmxm A Q i j) ≤ (1 + (3 * ε + 1 / 2 ^ 50)) * (1 + e) - 1 ∧
        len (fun i => Sla.dmxm A Q i j) = 1 := by
    intro j M A hA hM
    obtain ⟨k1, k2⟩ := h j
    rw [dmxm_col, dmxm_exact_col]
    obtain ⟨s1, s2⟩ := chain_step R hA h0 hε hM (w := fun i => P i j) (z := fun i => Q i j) (e := e) (L := 1)
      unit_lower k2 (by rw [mul_one]; exact k1)
    rw [mul_one] at s1
    exact ⟨s1, s2⟩
  split
  · obtain ⟨a1, a2⟩ := ha (if n = 0 then p else if n = 1 then t else s) (by split_ifs <;> simp)
    rcases eulerRotation_near (c := order.getD n '\x00') h0 a1 a2 with ⟨g1, g2⟩ | ⟨M, A, g1, g2, g3⟩
    · rw [g1, g2]
      refine ⟨rfl, fun j => grow j _ _ ?_ fun i k => by simpa using h0⟩
      rw [identity3_eq]; exact IsRotation.one
    · rw [g1, g2]
      exact ⟨rfl, fun j => grow j _ _ (eulerRotation_rotation g2) g3⟩
  · refine ⟨rfl, fun j => ⟨(h j).1.trans ?_, (h j).2⟩⟩
    nlinarith

/-- C83: with sines and cosines right to `ε`, every element of the matrix that `deuler` forms in double precision is right
    to `9.1 ε + 2^-48`, for every string and all angles. -/
theorem C83_deuler (R : Rounding binary64) (sn cs : ℝ → ℝ) {ε : ℝ} (h0 : 0 ≤ ε) (hε : ε ≤ 1 / 2 ^ 10)
    (order : List Char) (p t s : ℝ)
    (ha : ∀ a, a = p ∨ a = t ∨ a = s → |sn a - Real.sin a| ≤ ε ∧ |cs a - Real.cos a| ≤ ε) (i j : Fin 3) :
    |Fp.deuler R sn cs order p t s i j - Sla.deuler order p t s i j| ≤ 9.1 * ε + 1 / 2 ^ 48 := by
  have hI : ∀ j, len ((fun i => identity3 i j) - fun i => identity3 i j) ≤ 0 ∧ len (fun i => identity3 i j) = 1 := by
    intro j
    rw [sub_self, identity3_eq]
    refine ⟨by simp [len], ?_⟩
    rw [len_eq]; fin_cases j <;> simp [Matrix.one_apply]
  unfold Fp.deuler Sla.deuler
  simp only [List.foldl_cons, List.foldl_nil]
  obtain ⟨l, hl⟩ : ∃ l, l = if order.length > 3 then 3 else order.length := ⟨_, rfl⟩
  rw [← hl]
  obtain ⟨c, hc⟩ : ∃ c, c = 3 * ε + 1 / 2 ^ 50 := ⟨_, rfl⟩
  have hc0 : 0 ≤ c := by rw [hc]; positivity
  have hc1 : c ≤ 1 / 300 := by rw [hc]; norm_num at hε ⊢; linarith
  have st := eulerStep_near R sn cs h0 hε order p t s ha
  rw [← hc] at st
  have s1 := st 0 l identity3 identity3 0 le_rfl hI
  generalize Fp.eulerStep R sn cs order p t s (l, identity3) 0 = A1 at *
  generalize Sla.eulerStep order p t s (l, identity3) 0 = B1 at *
  obtain ⟨a1, A1⟩ := A1
  obtain ⟨b1, B1⟩ := B1
  obtain ⟨rfl, s1⟩ := s1
  have s2 := st 1 a1 A1 B1 _ (by nlinarith) s1
  simp only at s2 ⊢
  generalize Fp.eulerStep R sn cs order p t s (a1, A1) 1 = A2 at *
  generalize Sla.eulerStep order p t s (a1, B1) 1 = B2 at *
  obtain ⟨a2, A2⟩ := A2
  obtain ⟨b2, B2⟩ := B2
  obtain ⟨rfl, s2⟩ := s2
  have s3 := (st 2 a2 A2 B2 _ (by nlinarith [mul_nonneg hc0 hc0]) s2).2 j
  simp only at s3 ⊢
  refine (abs_le_len _ i).trans (s3.1.trans ?_)
  have q : c * c ≤ 1 / 300 * c := mul_le_mul_of_nonneg_right hc1 hc0
  have q3 : c * (c * c) ≤ 1 / 300 * (1 / 300 * c) := mul_le_mul hc1 q (by positivity) (by norm_num)
  have : (1 + c) * (1 + ((1 + c) * (1 + ((1 + c) * (1 + 0) - 1)) - 1)) - 1 = 3 * c + 3 * (c * c) + c * (c * c) := by ring
  rw [this]
  have : 3 * c + 3 * (c * c) + c * (c * c) ≤ 3.0101 * c := by norm_num; linarith
  refine this.trans ?_
  rw [hc]
  norm_num
  linarith

/-- Sines and cosines right to 1e-16, and a matrix near a rotation, exist. -/
example : ∀ a : ℝ, |Real.sin a - Real.sin a| ≤ 1e-16 ∧ |Real.cos a - Real.cos a| ≤ 1e-16 := by
  intro a; simp; norm_num

example : ∃ l : List (Mat × Mat), l.length = 100 ∧
    ∀ p ∈ l, IsRotation p.2 ∧ ∀ i j, |p.1 i j - p.2 i j| ≤ (1e-15 : ℝ) := by
  refine ⟨List.replicate 100 (Sla.deuler ['Z'] 1 0 0, Sla.deuler ['Z'] 1 0 0), by simp, fun p hp => ?_⟩
  rw [List.eq_of_mem_replicate hp]
  exact ⟨C23_rotation _ _ _ _, fun i j => by simp; norm_num⟩

end Sla.Props
