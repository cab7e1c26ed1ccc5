import Verif.Lemmas.FpErr64
import Verif.Lemmas.FpSphere
import Verif.Props.FpRange
import Verif.Props.FpRotation
import Verif.Props.Coords

/-
Conversion of spherical coordinates through a matrix in double precision: the vector of a direction, the matrix applied to it,
and the angles of the result.
-/
namespace Sla.Fp
open Matrix Spec Sla.Props

/-! ### The vector of a direction -/

theorem dcs2c_near (R : Rounding binary64) (sn cs : ℝ → ℝ) {ε : ℝ} (hε : ε ≤ 1e-3) (hs : ∀ a, |sn a - Real.sin a| ≤ ε)
    (hc : ∀ a, |cs a - Real.cos a| ≤ ε) (a b : ℝ) :
    len (dcs2c R sn cs a b - direction a b) ≤ 3.1 * ε + 1.5 * (1 / 2 ^ 53) := by
  have ε0 : 0 ≤ ε := (abs_nonneg _).trans (hs 0)
  have u0 : (0 : ℝ) ≤ 1 / 2 ^ 53 := by norm_num
  have lε : ε ≤ 0.01 := hε.trans (by norm_num)
  have m1 := mul_near R (hc a) (hc b) (Real.abs_cos_le_one _) (Real.abs_cos_le_one _) lε lε
  have m2 := mul_near R (hs a) (hc b) (Real.abs_sin_le_one _) (Real.abs_cos_le_one _) lε lε
  have m3 := hs b
  rw [len_eq, direction_eq]
  refine Real.sqrt_le_iff.2 ⟨by positivity, ?_⟩
  show (R (cs a * cs b) - Real.cos a * Real.cos b) * (R (cs a * cs b) - Real.cos a * Real.cos b) +
    (R (sn a * cs b) - Real.sin a * Real.cos b) * (R (sn a * cs b) - Real.sin a * Real.cos b) +
    (sn b - Real.sin b) * (sn b - Real.sin b) ≤ _
  have sq : ∀ x B : ℝ, |x| ≤ B → x * x ≤ B * B := fun x B h => by
    rw [← abs_mul_abs_self]; exact mul_self_le_mul_self (abs_nonneg _) h
  refine (add_le_add (add_le_add (sq _ _ m1) (sq _ _ m2)) (sq _ _ m3)).trans ?_
  generalize (1 : ℝ) / 2 ^ 53 = u at *
  nlinarith [mul_nonneg ε0 u0, mul_self_nonneg ε, mul_self_nonneg u]

/-! ### The angles of a vector -/

/-- Neighbouring vectors of nearly unit length. -/
theorem angle_of_near {v w : Vec} {d : ℝ} (hw : 0.999 ≤ len w) (h : len (v - w) ≤ d) (hd : d ≤ 0.5) :
    angleBetween v w ≤ Real.pi / 2 * (1.002 * d) := by
  have hL : (0 : ℝ) < len w := lt_of_lt_of_le (by norm_num) hw
  have hi : 0 < (len w)⁻¹ := inv_pos.2 hL
  have d0 : 0 ≤ d := (len_nonneg _).trans h
  have h1 : len ((len w)⁻¹ • w) = 1 := by rw [len_smul, abs_of_pos hi, inv_mul_cancel₀ hL.ne']
  have h2 : len ((len w)⁻¹ • v - (len w)⁻¹ • w) ≤ 1.002 * d := by
    rw [← smul_sub, len_smul, abs_of_pos hi, inv_mul_le_iff₀ hL]
    nlinarith
  have h3 := fp_angle_near h1 (by linarith) h2
  rwa [angle_scale hi, angle_symm, angle_scale hi, angle_symm] at h3

theorem at2_turn {at2 : ℝ → ℝ → ℝ} {ε : ℝ} (ha : Atan2Near at2 ε) (y x : ℝ) :
    ∃ k : ℤ, |at2 y x - (atan2 y x + 2 * Real.pi * k)| ≤ ε ∧ |at2 y x| ≤ Real.pi + ε := by
  have hm := atan2_mem y x
  by_cases h : y ≠ 0 ∨ 0 ≤ x
  · have := ha.1 y x h
    refine ⟨0, by simpa using this, ?_⟩
    rw [abs_le] at *; constructor <;> linarith [this.1, this.2]
  · push Not at h
    obtain ⟨rfl, hx⟩ := h
    have e : atan2 0 x = Real.pi := by
      refine atan2_unique (r := -x) (by linarith) (by linarith [Real.pi_pos]) le_rfl (by simp) (by simp)
    rcases ha.2 x hx with h | h
    · refine ⟨0, by rw [e]; simpa using h, ?_⟩
      rw [abs_le] at *; constructor <;> linarith [h.1, h.2, Real.pi_pos]
    · refine ⟨-1, by rw [e]; push_cast; rw [show at2 0 x - (Real.pi + 2 * Real.pi * -1) = at2 0 x + Real.pi by ring]; exact h, ?_⟩
      rw [abs_le] at *; constructor <;> linarith [h.1, h.2, Real.pi_pos]

private theorem pi_gap : (884279719003555 : ℝ) / 2 ^ 47 < 2 * Real.pi ∧ 2 * Real.pi < 884279719003555 / 2 ^ 47 + 2.5e-16 := by
  have h1 := Real.pi_gt_d20
  have h2 := Real.pi_lt_d20
  constructor
  · refine lt_trans ?_ (mul_lt_mul_of_pos_left h1 two_pos); norm_num
  · refine lt_trans (mul_lt_mul_of_pos_left h2 two_pos) ?_; norm_num

theorem cfmod_small {a b : ℝ} (h : |a| < b) : cfmod a b = a := by
  have hb : 0 < b := (abs_nonneg _).trans_lt h
  have : ctrunc (a / b) = 0 := by
    rw [abs_lt] at h
    unfold ctrunc
    have l1 : a / b < 1 := (div_lt_one hb).2 h.2
    have l2 : -1 < a / b := by rw [lt_div_iff₀ hb]; linarith [h.1]
    split_ifs with hp
    · have : ⌊a / b⌋ = 0 := Int.floor_eq_zero_iff.2 ⟨hp, l1⟩
      simp [this]
    · have : ⌈a / b⌉ = 0 := Int.ceil_eq_zero_iff.2 ⟨l2, by linarith⟩
      simp [this]
  unfold cfmod
  rw [this]; simp

/-- Longitudes brought into the range 0 to 2 pi. -/
theorem dranrm_turn (R : Rounding binary64) {a a0 ε : ℝ} (hε : ε ≤ 0.1) (ha : binary64.Rep a)
    (h : ∃ k : ℤ, |a - (a0 + 2 * Real.pi * k)| ≤ ε) (hr : |a| ≤ Real.pi + ε) :
    (∃ k : ℤ, |dranrm R a - (a0 + 2 * Real.pi * k)| ≤ ε + 7e-16) ∧ 0 ≤ dranrm R a ∧ dranrm R a < 2 * Real.pi := by
  obtain ⟨k, hk⟩ := h
  obtain ⟨g1, g2⟩ := pi_gap
  have hp1 := Real.pi_gt_d6
  have hp2 := Real.pi_lt_d6
  have hA : R 6.283185307179586476925287 = 884279719003555 / 2 ^ 47 := fp_2pi64 R
  have hm : R (cfmod a (884279719003555 / 2 ^ 47)) = a := by
    rw [cfmod_small, R.eq_self ha]
    have : (2.5e-16 : ℝ) ≤ 0.1 := by norm_num
    generalize (884279719003555 : ℝ) / 2 ^ 47 = A at *
    linarith
  have hw : dranrm R a = if a < 0 then R (a + 884279719003555 / 2 ^ 47) else a := by
    simp only [dranrm, hA, hm]
  rw [hw]
  rw [abs_le] at hr
  by_cases hn : a < 0
  · rw [if_pos hn]
    have hA2 : (2.5e-16 : ℝ) ≤ 0.1 := by norm_num
    have hlow : 0 ≤ a + 884279719003555 / 2 ^ 47 := by
      clear hw hm hA
      generalize (884279719003555 : ℝ) / 2 ^ 47 = A at *
      linarith [hr.1]
    have hb : |a + 884279719003555 / 2 ^ 47| < 2 ^ (3 : ℤ) := by
      rw [abs_of_nonneg hlow]
      have : (2 : ℝ) ^ (3 : ℤ) = 8 := by norm_num
      clear hw hm hA
      generalize (884279719003555 : ℝ) / 2 ^ 47 = A at *
      rw [this]; linarith
    have he := R.abs_sub_le _ (k := 3) (by norm_num [binary64]) hb
    have h51 : (2 : ℝ) ^ (3 - 1 - (binary64.prec : ℤ)) ≤ 4.45e-16 := by norm_num [binary64]
    have he2 := he.trans h51
    have hrep : binary64.Rep (884279719003555 / 2 ^ 47 : ℝ) := hA ▸ R.rep _
    refine ⟨⟨k + 1, ?_⟩, R.nonneg hlow, ?_⟩
    · push_cast
      clear hw hm hA hb he hrep
      generalize R (a + 884279719003555 / 2 ^ 47) = w at *
      rw [abs_le] at hk he2 ⊢
      generalize (884279719003555 : ℝ) / 2 ^ 47 = A at *
      norm_num at *
      constructor <;> linarith [hk.1, hk.2, he2.1, he2.2]
    · refine lt_of_le_of_lt (R.le_rep ?_ hrep) g1
      linarith
  · rw [if_neg hn]
    refine ⟨⟨k, hk.trans (by norm_num)⟩, not_lt.1 hn, ?_⟩
    linarith [hr.2]

/-- Latitudes are not changed by the reduction to half a turn. -/
theorem drange_small (R : Rounding binary64) {b : ℝ} (hb : binary64.Rep b) (h : |b| ≤ 3) : drange R b = b := by
  have h2 : R 6.283185307179586476925287 = 884279719003555 / 2 ^ 47 := fp_2pi64 R
  have h1 : R 3.141592653589793238462643 = 884279719003555 / 2 ^ 48 := fp_pi64 R
  have hm : R (cfmod b (884279719003555 / 2 ^ 47)) = b := by
    rw [cfmod_small, R.eq_self hb]
    exact h.trans_lt (by norm_num)
  simp only [drange, h1, h2, hm]
  rw [if_neg]
  have : (3 : ℝ) < 884279719003555 / 2 ^ 48 := by norm_num
  linarith

/-- The angles of a vector of nearly unit length, reduced to the conventional ranges. -/
theorem angles_near (R : Rounding binary64) {at2 : ℝ → ℝ → ℝ} {ε : ℝ} (hε : ε ≤ 0.1) (ha : Atan2Near at2 ε)
    (hrep : ∀ y x, binary64.Rep (at2 y x)) (v : Vec) (hv : 0.9 ≤ len v) :
    let r := dcc2s R at2 v
    angleBetween (direction (dranrm R r.1) r.2) v ≤ Real.pi / 2 * (2 * ε + 2.9e-15) ∧
      0 ≤ dranrm R r.1 ∧ dranrm R r.1 < 2 * Real.pi ∧ |r.2| ≤ Real.pi / 2 + ε ∧ drange R r.2 = r.2 := by
  intro r
  have ε0 : 0 ≤ ε := (abs_nonneg _).trans (ha.1 0 0 (Or.inr le_rfl))
  have hp2 := Real.pi_lt_d6
  have hpp := Real.pi_pos
  set ρ := R (Real.sqrt (R (R (v 0 * v 0) + R (v 1 * v 1)))) with hρ
  have ρ0 : 0 ≤ ρ := R.nonneg (Real.sqrt_nonneg _)
  have e1 : r.1 = if ρ = 0 then 0 else at2 (v 1) (v 0) := rfl
  have e2 : r.2 = if v 2 = 0 then 0 else at2 (v 2) ρ := rfl
  have hlat : |r.2 - atan2 (v 2) ρ| ≤ ε := by
    rw [e2]
    split_ifs with h
    · rw [h, atan2_zero_of_nonneg ρ0]; simpa using ε0
    · exact ha.1 _ _ (Or.inr ρ0)
  have hlb : |r.2| ≤ Real.pi / 2 + ε := by
    have hb : |atan2 (v 2) ρ| ≤ Real.pi / 2 := by
      unfold atan2; exact Complex.abs_arg_le_pi_div_two_iff.2 ρ0
    have := abs_sub_abs_le_abs_sub r.2 (atan2 (v 2) ρ)
    linarith
  have rep1 : binary64.Rep r.1 := by
    rw [e1]; split_ifs
    · have := R.rep 0; rwa [R.zero] at this
    · exact hrep _ _
  have rep2 : binary64.Rep r.2 := by
    rw [e2]; split_ifs
    · have := R.rep 0; rwa [R.zero] at this
    · exact hrep _ _
  have hlong : (ρ ≠ 0 → ∃ k : ℤ, |dranrm R r.1 - (atan2 (v 1) (v 0) + 2 * Real.pi * k)| ≤ ε + 7e-16) ∧
      0 ≤ dranrm R r.1 ∧ dranrm R r.1 < 2 * Real.pi := by
    by_cases h : ρ = 0
    · have e : r.1 = 0 := by rw [e1, if_pos h]
      have := dranrm_turn R (a := r.1) (a0 := 0) (ε := 0) (by norm_num) rep1 ⟨0, by rw [e]; simp⟩ (by rw [e]; simp; exact hpp.le)
      exact ⟨fun h' => absurd h h', this.2⟩
    · have e : r.1 = at2 (v 1) (v 0) := by rw [e1, if_neg h]
      obtain ⟨k, hk, hb⟩ := at2_turn ha (v 1) (v 0)
      rw [← e] at hk hb
      have := dranrm_turn R hε rep1 ⟨k, hk⟩ hb
      exact ⟨fun _ => this.1, this.2⟩
  refine ⟨?_, hlong.2.1, hlong.2.2, hlb, drange_small R rep2 (by linarith)⟩
  have h := polar_near R v hv hlong.1 hlat (by positivity) (by norm_num at *; linarith)
  refine h.trans (mul_le_mul_of_nonneg_left (le_of_eq ?_) (by positivity))
  norm_num; ring

/-! ### Matrices -/

theorem dimxv_transpose (R : ℝ → ℝ) (M : Mat) (v : Vec) : dimxv R M v = dmxv R Mᵀ v := rfl

/-- A matrix computed from angles that are themselves rounded. -/
theorem rot_near (R : Rounding binary64) {M Q Q' : Mat} (hQ : IsRotation Q) (hQ' : IsRotation Q') {η κ : ℝ} (h0 : 0 ≤ η)
    (hη : η ≤ 1 / 2 ^ 10) (h : ∀ i j, |M i j - Q' i j| ≤ η) (hk : ∀ v, len (Q' *ᵥ v - Q *ᵥ v) ≤ κ * len v) (v : Vec) :
    len (dmxv R M v - Q *ᵥ v) ≤ (3 * η + 6 / 2 ^ 53 + κ) * len v + 2 ^ (-1071 : ℤ) ∧
      len (dimxv R M v - Qᵀ *ᵥ v) ≤ (3 * η + 6 / 2 ^ 53 + κ) * len v + 2 ^ (-1071 : ℤ) := by
  constructor
  · have h1 := mulVec_near R hQ' h0 hη h v
    have h2 := len_add_le (dmxv R M v - Q' *ᵥ v) (Q' *ᵥ v - Q *ᵥ v)
    rw [sub_add_sub_cancel] at h2
    linarith [hk v]
  · rw [dimxv_transpose]
    have h1 := mulVec_near R (IsRotation.transpose hQ') h0 hη (M := Mᵀ) (fun i j => h j i) v
    have h2 := len_add_le (dmxv R Mᵀ v - Q'ᵀ *ᵥ v) (Q'ᵀ *ᵥ v - Qᵀ *ᵥ v)
    rw [sub_add_sub_cancel] at h2
    have h3 : len (Q'ᵀ *ᵥ v - Qᵀ *ᵥ v) ≤ κ * len v := by
      rw [← len_mulVec hQ, Matrix.mulVec_sub, Matrix.mulVec_mulVec, Matrix.mulVec_mulVec, hQ.1, Matrix.one_mulVec]
      have h4 := hk (Q'ᵀ *ᵥ v)
      rw [Matrix.mulVec_mulVec, Matrix.mulVec_mulVec, hQ'.1, Matrix.one_mulVec, len_mulVec (IsRotation.transpose hQ')] at h4
      rw [← len_neg', neg_sub]; exact h4
    linarith

/-- A table of numbers that is nearly a rotation. -/
theorem table_near (R : Rounding binary64) {M A : Mat} (hA : ∀ i, len (A i) ≤ 1.001) (h : ∀ i j, |M i j - A i j| ≤ 0.5 * (1 / 2 ^ 53))
    (v : Vec) : len (dmxv R M v - A *ᵥ v) ≤ 8 * (1 / 2 ^ 53) * len v + 2 ^ (-1071 : ℤ) := by
  have e : dmxv R M v - A *ᵥ v = (dmxv R M v - M *ᵥ v) + (M - A) *ᵥ v := by
    rw [Matrix.sub_mulVec]; abel
  have h1 : len ((M - A) *ᵥ v) ≤ 3 * (0.5 * (1 / 2 ^ 53)) * len v := small_matrix (by norm_num) (fun i j => h i j) v
  have hl := len_nonneg v
  have h2 : len (dmxv R M v - M *ᵥ v) ≤ 1.74 * (3.12 / 2 ^ 53 * len v + 2 ^ (-1072 : ℤ)) := by
    apply len_le_of
    intro i
    have h3 := dot_near R (M i) v
    have h4 : len (M i) ≤ 1.002 := by
      have a1 : len (M i - A i) ≤ 1.74 * (0.5 * (1 / 2 ^ 53)) := len_le_of fun j => h i j
      have a2 := len_add_le (A i) (M i - A i)
      rw [add_sub_cancel] at a2
      have := hA i
      norm_num at *; linarith
    have h5 : len (M i) * len v ≤ 1.002 * len v := mul_le_mul_of_nonneg_right h4 hl
    refine le_trans (le_of_eq rfl) (h3.trans ?_)
    norm_num at h5 ⊢
    linarith
  have h3 := len_add_le (dmxv R M v - M *ᵥ v) ((M - A) *ᵥ v)
  rw [← e] at h3
  have h71 : (2 : ℝ) ^ (-1071 : ℤ) = 2 * 2 ^ (-1072 : ℤ) := by
    rw [show (-1071 : ℤ) = 1 + -1072 by norm_num, zpow_split]; norm_num
  have := two_zpow_pos (-1072)
  rw [h71]
  generalize (2 : ℝ) ^ (-1072 : ℤ) = τ at *
  norm_num at *
  linarith

/-- Lengths under such a table. -/
theorem table_len {A : Mat} (h : ∀ i j, |(Aᵀ * A - 1) i j| ≤ 1e-10) (v : Vec) :
    0.999 * len v ≤ len (A *ᵥ v) ∧ len (A *ᵥ v) ≤ 1.001 * len v := by
  have h1 := small_matrix (by norm_num) h v
  have hl := len_nonneg v
  have hl' := len_nonneg (A *ᵥ v)
  have e : len (A *ᵥ v) ^ 2 - len v ^ 2 = v ⬝ᵥ ((Aᵀ * A - 1) *ᵥ v) := by
    rw [Matrix.sub_mulVec, Matrix.one_mulVec, dotProduct_sub, ← Matrix.mulVec_mulVec, Matrix.dotProduct_mulVec, Matrix.vecMul_transpose,
      sq, sq, len_mul_self, len_mul_self]
  have h2 : |v ⬝ᵥ ((Aᵀ * A - 1) *ᵥ v)| ≤ len v * len ((Aᵀ * A - 1) *ᵥ v) := by
    have := abs_dot_le v ((Aᵀ * A - 1) *ᵥ v)
    refine le_trans ?_ this
    simp only [dotProduct, Fin.sum_univ_three]
    exact (abs_add_le _ _).trans (add_le_add (abs_add_le _ _) le_rfl)
  rw [← e] at h2
  have h3 : len v * len ((Aᵀ * A - 1) *ᵥ v) ≤ len v * (3 * 1e-10 * len v) := mul_le_mul_of_nonneg_left h1 hl
  have h4 := h2.trans h3
  rw [abs_le] at h4
  generalize len (A *ᵥ v) = L at *
  generalize len v = l at *
  clear h1 h2 h3 e
  constructor
  · by_contra hc
    push Not at hc
    nlinarith [h4.1]
  · by_contra hc
    push Not at hc
    nlinarith [h4.2]

theorem table_rows {A : Mat} (h : ∀ i j, |(A * Aᵀ - 1) i j| ≤ 1e-10) (i : Fin 3) : len (A i) ≤ 1.001 := by
  have h1 := h i i
  have e : (A * Aᵀ - 1) i i = A i ⬝ᵥ A i - 1 := by
    simp [Matrix.mul_apply, dotProduct]
  rw [e, abs_le] at h1
  unfold len
  refine Real.sqrt_le_iff.2 ⟨by norm_num, ?_⟩
  norm_num at *; linarith [h1.2]

end Sla.Fp
