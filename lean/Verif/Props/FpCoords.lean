import Verif.Lemmas.FpCoords
import Verif.Props.Observer

/-
Property theorems C102: precession, ecliptic, galactic and supergalactic coordinates in double precision.
-/
namespace Sla.Props
open Sla.Fp Sla.Spec Matrix

/-! ### From neighbouring vectors to neighbouring directions -/

private theorem finish (R : Rounding binary64) {at2 : ℝ → ℝ → ℝ} {ε' : ℝ} (hε' : ε' ≤ 0.1) (ha : Atan2Near at2 ε')
    (hrep : ∀ y x, binary64.Rep (at2 y x)) {v w : Vec} {d B : ℝ} (hw : 0.999 ≤ len w) (h : len (v - w) ≤ d) (hd : d ≤ 0.05)
    (hB : 1.58 * d + 3.2 * ε' + 4.6e-15 ≤ B) :
    let r := Fp.dcc2s R at2 v
    angleBetween (direction (Fp.dranrm R r.1) r.2) w ≤ B ∧
      0 ≤ Fp.dranrm R r.1 ∧ Fp.dranrm R r.1 < 2 * Real.pi ∧ |r.2| ≤ Real.pi / 2 + ε' ∧ Fp.drange R r.2 = r.2 := by
  intro r
  have ε0 : 0 ≤ ε' := (abs_nonneg _).trans (ha.1 0 0 (Or.inr le_rfl))
  have d0 : 0 ≤ d := (len_nonneg _).trans h
  have hv : 0.9 ≤ len v := by
    have := len_sub_le v (v - w)
    rw [sub_sub_cancel] at this
    norm_num at *; linarith
  obtain ⟨h1, h2⟩ := angles_near R hε' ha hrep v hv
  refine ⟨?_, h2⟩
  have h3 := angle_of_near hw h (hd.trans (by norm_num))
  have h4 := angle_triangle (direction (Fp.dranrm R r.1) r.2) v w
  have hp := Real.pi_lt_d6
  have e1 : Real.pi / 2 * (2 * ε' + 2.9e-15) ≤ 3.141593 / 2 * (2 * ε' + 2.9e-15) :=
    mul_le_mul_of_nonneg_right (by linarith) (by positivity)
  have e2 : Real.pi / 2 * (1.002 * d) ≤ 3.141593 / 2 * (1.002 * d) :=
    mul_le_mul_of_nonneg_right (by linarith) (by positivity)
  have h1' := h1.trans e1
  have h3' := h3.trans e2
  clear h1 h3 e1 e2
  norm_num at *
  linarith

theorem tiny_pow : (2 : ℝ) ^ (-1071 : ℤ) ≤ 1e-20 := by
  calc (2 : ℝ) ^ (-1071 : ℤ) ≤ 2 ^ (-100 : ℤ) := two_zpow_le (by norm_num)
    _ ≤ 1e-20 := by norm_num

/-- The direction of the exact result. -/
private theorem exact_angle {p w : Vec} {k : ℝ} {x : Vec} (hk : 0 ≤ k) (hw : 0.999 ≤ len w) (h : w = k • x) :
    angleBetween p w = angleBetween p x := by
  rcases hk.eq_or_lt with h0 | h0
  · rw [← h0, zero_smul] at h
    rw [h] at hw
    norm_num [len] at hw
  · rw [h, angle_scale h0]

/-! ### Galactic and supergalactic coordinates -/

private theorem lit_half (R : Rounding binary64) {x : ℝ} (h0 : 0 ≤ x) (h1 : x < 1) : |R x - x| ≤ 0.5 * (1 / 2 ^ 53) := by
  have h := R.abs_sub_le x (k := 0) (by norm_num [binary64]) (by rw [abs_of_nonneg h0]; simpa using h1)
  rw [abs_sub_comm]
  refine h.trans ?_
  norm_num [binary64]

private theorem neg_half (R : Rounding binary64) {x : ℝ} (h0 : 0 ≤ x) (h1 : x < 1) : |-R x - -x| ≤ 0.5 * (1 / 2 ^ 53) := by
  rw [show -R x - -x = -(R x - x) by ring, abs_neg]; exact lit_half R h0 h1

private theorem gal_entries (R : Rounding binary64) (i j : Fin 3) : |Fp.galMat R i j - Sla.galMat i j| ≤ 0.5 * (1 / 2 ^ 53) := by
  fin_cases i <;> fin_cases j <;> simp only [Fp.galMat, Sla.galMat, Fin.zero_eta, Fin.mk_one, Fin.reduceFinMk, Matrix.of_apply,
    Matrix.cons_val_zero, Matrix.cons_val_one, Matrix.cons_val] <;>
    first
    | exact neg_half R (by norm_num) (by norm_num)
    | exact lit_half R (by norm_num) (by norm_num)

private theorem sup_entries (R : Rounding binary64) (i j : Fin 3) : |Fp.supMat R i j - Sla.supMat i j| ≤ 0.5 * (1 / 2 ^ 53) := by
  fin_cases i <;> fin_cases j <;> simp only [Fp.supMat, Sla.supMat, Fin.zero_eta, Fin.mk_one, Fin.reduceFinMk, Matrix.of_apply,
    Matrix.cons_val_zero, Matrix.cons_val_one, Matrix.cons_val] <;>
    first
    | exact neg_half R (by norm_num) (by norm_num)
    | exact lit_half R (by norm_num) (by norm_num)
    | norm_num

private theorem gal_orth : (∀ i j, |(Sla.galMatᵀ * Sla.galMat - 1) i j| ≤ 1e-10) ∧ ∀ i j, |(Sla.galMat * Sla.galMatᵀ - 1) i j| ≤ 1e-10 := by
  constructor <;> intro i j <;> fin_cases i <;> fin_cases j <;>
    simp [Sla.galMat, Matrix.mul_apply, Matrix.vecMul, dotProduct, Fin.sum_univ_three] <;> rw [abs_le] <;> constructor <;> norm_num

private theorem sup_orth : (∀ i j, |(Sla.supMatᵀ * Sla.supMat - 1) i j| ≤ 1e-10) ∧ ∀ i j, |(Sla.supMat * Sla.supMatᵀ - 1) i j| ≤ 1e-10 := by
  constructor <;> intro i j <;> fin_cases i <;> fin_cases j <;>
    simp [Sla.supMat, Matrix.mul_apply, Matrix.vecMul, dotProduct, Fin.sum_univ_three] <;> rw [abs_le] <;> constructor <;> norm_num

private theorem table_core (R : Rounding binary64) (sn cs : ℝ → ℝ) (at2 : ℝ → ℝ → ℝ) {ε ε' : ℝ} (hε : ε ≤ 1e-3) (hε' : ε' ≤ 0.1)
    (hs : ∀ a, |sn a - Real.sin a| ≤ ε) (hc : ∀ a, |cs a - Real.cos a| ≤ ε) (ha : Atan2Near at2 ε')
    (hrep : ∀ y x, binary64.Rep (at2 y x)) {M A : Mat} (hM : ∀ i j, |M i j - A i j| ≤ 0.5 * (1 / 2 ^ 53))
    (h1 : ∀ i j, |(Aᵀ * A - 1) i j| ≤ 1e-10) (h2 : ∀ i j, |(A * Aᵀ - 1) i j| ≤ 1e-10) (s : Spherical) (e : Spherical)
    (he : ∃ k : ℝ, 0 ≤ k ∧ A *ᵥ direction s.a s.b = k • direction e.a e.b) :
    let r := Fp.dcc2s R at2 (Fp.dmxv R M (Fp.dcs2c R sn cs s.a s.b))
    angleBetween (direction (Fp.dranrm R r.1) (Fp.drange R r.2)) (direction e.a e.b) ≤ 6.5e-15 + 5 * ε + 3.2 * ε' ∧
      0 ≤ Fp.dranrm R r.1 ∧ Fp.dranrm R r.1 < 2 * Real.pi ∧ |Fp.drange R r.2| ≤ Real.pi / 2 + ε' := by
  intro r
  have ε0 : 0 ≤ ε := (abs_nonneg _).trans (hs 0)
  have ε0' : 0 ≤ ε' := (abs_nonneg _).trans (ha.1 0 0 (Or.inr le_rfl))
  have t := tiny_pow
  set u := direction s.a s.b with hu
  have hu1 : len u = 1 := len_direction _ _
  set v := Fp.dcs2c R sn cs s.a s.b with hv
  have d1 : len (v - u) ≤ 3.1 * ε + 1.5 * (1 / 2 ^ 53) := dcs2c_near R sn cs hε hs hc s.a s.b
  have hw := (table_len h1 u).1
  rw [hu1] at hw
  have hvl : len v ≤ 1.01 := by
    have := len_add_le u (v - u)
    rw [add_sub_cancel, hu1] at this
    norm_num at *; linarith
  have d2 := table_near R (table_rows h2) hM v
  have d3 : len (A *ᵥ v - A *ᵥ u) ≤ 1.001 * len (v - u) := by
    rw [← Matrix.mulVec_sub]; exact (table_len h1 _).2
  have d4 := len_add_le (Fp.dmxv R M v - A *ᵥ v) (A *ᵥ v - A *ᵥ u)
  rw [sub_add_sub_cancel] at d4
  have d5 : len (Fp.dmxv R M v - A *ᵥ u) ≤ 3.11 * ε + 1.1e-15 := by
    generalize (2 : ℝ) ^ (-1071 : ℤ) = τ at *
    generalize len (A *ᵥ v - A *ᵥ u) = x1 at *
    generalize len (Fp.dmxv R M v - A *ᵥ v) = x2 at *
    generalize len (v - u) = x3 at *
    have h8 : (8 : ℝ) * (1 / 2 ^ 53) * len v ≤ 8 * (1 / 2 ^ 53) * 1.01 := mul_le_mul_of_nonneg_left hvl (by norm_num)
    have := d2.trans (add_le_add h8 t)
    clear d2 h8 hw
    norm_num at *
    linarith
  have hw' : 0.999 ≤ len (A *ᵥ u) := by norm_num at *; linarith
  obtain ⟨f1, f2, f3, f4, f5⟩ := finish R hε' ha hrep (B := 6.5e-15 + 5 * ε + 3.2 * ε') hw' d5 (by norm_num at *; linarith)
    (by norm_num at *; linarith)
  obtain ⟨k, hk, hke⟩ := he
  rw [exact_angle hk hw' hke] at f1
  rw [f5]
  exact ⟨f1, f2, f3, f4⟩

/-- C102: in double precision `eqgal`, `galeq`, `galsup` and `supgal` return a direction within 6.5e-15 rad of that given by
    exact arithmetic, plus 5 times the error of the library's sine and cosine and 3.2 times that of its arctangent, with the
    longitude in the range 0 to 2 pi; the poles and the seam of longitude are included. -/
theorem C102_galactic (R : Rounding binary64) (sn cs : ℝ → ℝ) (at2 : ℝ → ℝ → ℝ) {ε ε' : ℝ} (hε : ε ≤ 1e-3) (hε' : ε' ≤ 0.1)
    (hs : ∀ a, |sn a - Real.sin a| ≤ ε) (hc : ∀ a, |cs a - Real.cos a| ≤ ε) (ha : Atan2Near at2 ε')
    (hrep : ∀ y x, binary64.Rep (at2 y x)) (s : Spherical) :
    ∀ f ∈ [(Fp.eqgal R sn cs at2 s, Sla.eqgal s), (Fp.galeq R sn cs at2 s, Sla.galeq s),
      (Fp.galsup R sn cs at2 s, Sla.galsup s), (Fp.supgal R sn cs at2 s, Sla.supgal s)],
      angleBetween (direction f.1.a f.1.b) (direction f.2.a f.2.b) ≤ 6.5e-15 + 5 * ε + 3.2 * ε' ∧
        0 ≤ f.1.a ∧ f.1.a < 2 * Real.pi ∧ |f.1.b| ≤ Real.pi / 2 + ε' := by
  have ex := C46_matrices s
  have gT : ∀ i j, |(Fp.galMat R)ᵀ i j - Sla.galMatᵀ i j| ≤ 0.5 * (1 / 2 ^ 53) := fun i j => gal_entries R j i
  have sT : ∀ i j, |(Fp.supMat R)ᵀ i j - Sla.supMatᵀ i j| ≤ 0.5 * (1 / 2 ^ 53) := fun i j => sup_entries R j i
  intro f hf
  simp only [List.mem_cons, List.not_mem_nil, or_false] at hf
  rcases hf with rfl | rfl | rfl | rfl
  · exact table_core R sn cs at2 hε hε' hs hc ha hrep (gal_entries R) gal_orth.1 gal_orth.2 s _ (ex (Sla.eqgal s, Sla.galMat) (by simp)).1
  · exact table_core R sn cs at2 hε hε' hs hc ha hrep gT (by rw [Matrix.transpose_transpose]; exact gal_orth.2)
      (by rw [Matrix.transpose_transpose]; exact gal_orth.1) s _ (ex (Sla.galeq s, Sla.galMatᵀ) (by simp)).1
  · exact table_core R sn cs at2 hε hε' hs hc ha hrep (sup_entries R) sup_orth.1 sup_orth.2 s _ (ex (Sla.galsup s, Sla.supMat) (by simp)).1
  · exact table_core R sn cs at2 hε hε' hs hc ha hrep sT (by rw [Matrix.transpose_transpose]; exact sup_orth.2)
      (by rw [Matrix.transpose_transpose]; exact sup_orth.1) s _ (ex (Sla.supgal s, Sla.supMatᵀ) (by simp)).1

/-! ### Precession and the ecliptic -/

private theorem zyz_near (R : Rounding binary64) (sn cs : ℝ → ℝ) {ε : ℝ} (h0 : 0 ≤ ε) (hε : ε ≤ 1e-5)
    (hs : ∀ a, |sn a - Real.sin a| ≤ ε) (hc : ∀ a, |cs a - Real.cos a| ≤ ε) {ζ θ z ζ' θ' z' : ℝ}
    (h : |ζ' - ζ| ≤ 5e-16 ∧ |θ' - θ| ≤ 5e-16 ∧ |z' - z| ≤ 5e-16) (v : Vec) (hv : len v ≤ 1.01) :
    let M := Fp.deuler R sn cs ['Z', 'Y', 'Z'] (-ζ') θ' (-z')
    len (Fp.dmxv R M v - eul ζ θ z *ᵥ v) ≤ 27.6 * ε + 1.3e-14 ∧ len (Fp.dimxv R M v - (eul ζ θ z)ᵀ *ᵥ v) ≤ 27.6 * ε + 1.3e-14 := by
  intro M
  have hη : 9.1 * ε + 1 / 2 ^ 48 ≤ 1 / 2 ^ 10 := by norm_num at *; linarith
  have hM : ∀ i j, |M i j - eul ζ' θ' z' i j| ≤ 9.1 * ε + 1 / 2 ^ 48 := by
    intro i j
    exact C83_deuler R sn cs h0 (hε.trans (by norm_num)) _ _ _ _ (fun a _ => ⟨hs a, hc a⟩) i j
  have hk : ∀ v, len (eul ζ' θ' z' *ᵥ v - eul ζ θ z *ᵥ v) ≤ 1.5e-15 * len v := by
    intro v
    refine (eul_near _ _ _ _ _ _ v).trans (mul_le_mul_of_nonneg_right ?_ (len_nonneg v))
    obtain ⟨a1, a2, a3⟩ := h
    norm_num at *; linarith
  have key := rot_near R (eul_rotation ζ θ z) (eul_rotation ζ' θ' z') (by positivity) hη hM hk v
  have t := tiny_pow
  have hb : (3 * (9.1 * ε + 1 / 2 ^ 48) + 6 / 2 ^ 53 + 1.5e-15) * len v + 2 ^ (-1071 : ℤ) ≤ 27.6 * ε + 1.3e-14 := by
    have h1 := mul_le_mul_of_nonneg_left hv (show (0 : ℝ) ≤ 3 * (9.1 * ε + 1 / 2 ^ 48) + 6 / 2 ^ 53 + 1.5e-15 by positivity)
    generalize (2 : ℝ) ^ (-1071 : ℤ) = τ at *
    refine (add_le_add h1 t).trans ?_
    norm_num; linarith
  exact ⟨key.1.trans hb, key.2.trans hb⟩

private theorem chord' (a b : ℝ) : (Real.cos a - Real.cos b) ^ 2 + (Real.sin a - Real.sin b) ^ 2 ≤ (a - b) ^ 2 := by
  have h := Real.one_sub_sq_div_two_le_cos (x := a - b)
  rw [Real.cos_sub] at h
  nlinarith [Real.sin_sq_add_cos_sq a, Real.sin_sq_add_cos_sq b]

theorem rotX_near (a b : ℝ) (v : Vec) : len (rotX a *ᵥ v - rotX b *ᵥ v) ≤ |a - b| * len v := by
  unfold len
  rw [← Real.sqrt_sq_eq_abs, ← Real.sqrt_mul (sq_nonneg _)]
  apply Real.sqrt_le_sqrt
  simp only [rotX, dotProduct, mulVec, Fin.sum_univ_three, Pi.sub_apply, Matrix.of_apply, Matrix.cons_val_zero,
    Matrix.cons_val_one, Matrix.cons_val]
  have h := chord' a b
  have e : (1 * v 0 + 0 * v 1 + 0 * v 2 - (1 * v 0 + 0 * v 1 + 0 * v 2)) * (1 * v 0 + 0 * v 1 + 0 * v 2 - (1 * v 0 + 0 * v 1 + 0 * v 2)) +
      (0 * v 0 + Real.cos a * v 1 + Real.sin a * v 2 - (0 * v 0 + Real.cos b * v 1 + Real.sin b * v 2)) *
      (0 * v 0 + Real.cos a * v 1 + Real.sin a * v 2 - (0 * v 0 + Real.cos b * v 1 + Real.sin b * v 2)) +
      (0 * v 0 + -Real.sin a * v 1 + Real.cos a * v 2 - (0 * v 0 + -Real.sin b * v 1 + Real.cos b * v 2)) *
      (0 * v 0 + -Real.sin a * v 1 + Real.cos a * v 2 - (0 * v 0 + -Real.sin b * v 1 + Real.cos b * v 2)) =
      ((Real.cos a - Real.cos b) ^ 2 + (Real.sin a - Real.sin b) ^ 2) * (v 1 ^ 2 + v 2 ^ 2) := by ring
  rw [e]
  calc _ ≤ (a - b) ^ 2 * (v 1 ^ 2 + v 2 ^ 2) := mul_le_mul_of_nonneg_right h (by positivity)
    _ ≤ _ := mul_le_mul_of_nonneg_left (by nlinarith [sq_nonneg (v 0)]) (sq_nonneg _)

private theorem x_turn (φ : ℝ) : Sla.deuler ['X'] φ 0 0 = rotX φ := by
  apply Matrix.ext_of_mulVec_single
  intro i
  rw [← dmxv_eq, C23_deuler, ← rotX_frame, frameMat_mulVec]
  simp [axisOf, turnSequence]

private theorem x_near (R : Rounding binary64) (sn cs : ℝ → ℝ) {ε : ℝ} (h0 : 0 ≤ ε) (hε : ε ≤ 1e-5)
    (hs : ∀ a, |sn a - Real.sin a| ≤ ε) (hc : ∀ a, |cs a - Real.cos a| ≤ ε) {φ φ' : ℝ} (h : |φ' - φ| ≤ 3e-16)
    (v : Vec) (hv : len v ≤ 1.01) :
    let M := Fp.deuler R sn cs ['X'] φ' 0 0
    len (Fp.dmxv R M v - rotX φ *ᵥ v) ≤ 27.6 * ε + 1.3e-14 ∧ len (Fp.dimxv R M v - (rotX φ)ᵀ *ᵥ v) ≤ 27.6 * ε + 1.3e-14 := by
  intro M
  have hη : 9.1 * ε + 1 / 2 ^ 48 ≤ 1 / 2 ^ 10 := by norm_num at *; linarith
  have hM : ∀ i j, |M i j - rotX φ' i j| ≤ 9.1 * ε + 1 / 2 ^ 48 := by
    intro i j
    rw [← x_turn]
    exact C83_deuler R sn cs h0 (hε.trans (by norm_num)) _ _ _ _ (fun a _ => ⟨hs a, hc a⟩) i j
  have hk : ∀ v, len (rotX φ' *ᵥ v - rotX φ *ᵥ v) ≤ 3e-16 * len v := fun v =>
    (rotX_near _ _ v).trans (mul_le_mul_of_nonneg_right h (len_nonneg v))
  have key := rot_near R (rotX_rotation φ) (rotX_rotation φ') (by positivity) hη hM hk v
  have t := tiny_pow
  have hb : (3 * (9.1 * ε + 1 / 2 ^ 48) + 6 / 2 ^ 53 + 3e-16) * len v + 2 ^ (-1071 : ℤ) ≤ 27.6 * ε + 1.3e-14 := by
    have h1 := mul_le_mul_of_nonneg_left hv (show (0 : ℝ) ≤ 3 * (9.1 * ε + 1 / 2 ^ 48) + 6 / 2 ^ 53 + 3e-16 by positivity)
    generalize (2 : ℝ) ^ (-1071 : ℤ) = τ at *
    refine (add_le_add h1 t).trans ?_
    norm_num; linarith
  exact ⟨key.1.trans hb, key.2.trans hb⟩

/-- One more rotation. -/
private theorem step {v u v' : Vec} {Q : Mat} (hQ : IsRotation Q) {d e : ℝ} (h : len (v - u) ≤ d) (h' : len (v' - Q *ᵥ v) ≤ e) :
    len (v' - Q *ᵥ u) ≤ d + e := by
  have h1 := len_add_le (v' - Q *ᵥ v) (Q *ᵥ v - Q *ᵥ u)
  rw [sub_add_sub_cancel, ← Matrix.mulVec_sub, rotation_len hQ] at h1
  linarith

private theorem len_of_near {v u : Vec} {d : ℝ} (hu : len u = 1) (h : len (v - u) ≤ d) (hd : d ≤ 0.01) : len v ≤ 1.01 := by
  have := len_add_le u (v - u)
  rw [add_sub_cancel, hu] at this
  norm_num at *; linarith

/-- C102: in double precision `preces` returns a direction within 2.7e-14 rad of that given by exact arithmetic, plus 49 times
    the error of the library's sine and cosine and 3.2 times that of its arctangent, for any two epochs within 2000 years of
    each other with the first within 1000 years of the reference epoch; the right ascension is in the range 0 to 2 pi. -/
theorem C102_preces (R : Rounding binary64) (sn cs : ℝ → ℝ) (at2 : ℝ → ℝ → ℝ) {ε ε' : ℝ} (hε : ε ≤ 1e-5) (hε' : ε' ≤ 0.1)
    (hs : ∀ a, |sn a - Real.sin a| ≤ ε) (hc : ∀ a, |cs a - Real.cos a| ≤ ε) (ha : Atan2Near at2 ε')
    (hrep : ∀ y x, binary64.Rep (at2 y x)) (system : Int) (ep0 ep1 : ℝ) (s : Spherical) (h1 : |ep1 - ep0| ≤ 2000)
    (h0 : system = catFK4 ∧ |ep0 - 1850| ≤ 1000 ∨ system = catFK5 ∧ |ep0 - 2000| ≤ 1000) :
    let p := Fp.preces R sn cs at2 system ep0 ep1 s
    let e := Sla.preces system ep0 ep1 s
    angleBetween (direction p.a p.b) (direction e.a e.b) ≤ 2.7e-14 + 49 * ε + 3.2 * ε' ∧
      0 ≤ p.a ∧ p.a < 2 * Real.pi ∧ |p.b| ≤ Real.pi / 2 + ε' := by
  intro p e
  have ε0 : 0 ≤ ε := (abs_nonneg _).trans (hs 0)
  have ε0' : 0 ≤ ε' := (abs_nonneg _).trans (ha.1 0 0 (Or.inr le_rfl))
  have hu1 : len (direction s.a s.b) = 1 := len_direction _ _
  have d1 := dcs2c_near R sn cs (hε.trans (by norm_num)) hs hc s.a s.b
  have hv := len_of_near hu1 d1 (by norm_num at *; linarith)
  obtain ⟨c4, c5, -⟩ := C58_preces ep0 ep1 s
  have main : ∀ (M Q : Mat), IsRotation Q → direction e.a e.b = Q *ᵥ direction s.a s.b →
      len (Fp.dmxv R M (Fp.dcs2c R sn cs s.a s.b) - Q *ᵥ Fp.dcs2c R sn cs s.a s.b) ≤ 27.6 * ε + 1.3e-14 →
      p = ⟨Fp.dranrm R (Fp.dcc2s R at2 (Fp.dmxv R M (Fp.dcs2c R sn cs s.a s.b))).1,
        (Fp.dcc2s R at2 (Fp.dmxv R M (Fp.dcs2c R sn cs s.a s.b))).2⟩ →
      angleBetween (direction p.a p.b) (direction e.a e.b) ≤ 2.7e-14 + 49 * ε + 3.2 * ε' ∧
        0 ≤ p.a ∧ p.a < 2 * Real.pi ∧ |p.b| ≤ Real.pi / 2 + ε' := by
    intro M Q hQ he hM hp
    have d2 := step hQ d1 hM
    have hw : 0.999 ≤ len (Q *ᵥ direction s.a s.b) := by rw [rotation_len hQ, hu1]; norm_num
    obtain ⟨f1, f2, f3, f4, -⟩ := finish R hε' ha hrep (B := 2.7e-14 + 49 * ε + 3.2 * ε') hw d2 (by norm_num at *; linarith)
      (by norm_num at *; linarith)
    rw [← he] at f1
    rw [hp]
    exact ⟨f1, f2, f3, f4⟩
  rcases h0 with ⟨rfl, h0⟩ | ⟨rfl, h0⟩
  · refine main (Fp.prebn R sn cs ep0 ep1) (Sla.prebn ep0 ep1) (C24_rotations ep0 ep1).2.2.1 c4.1 ?_ ?_
    · rw [prebn_exact]
      exact (zyz_near R sn cs ε0 hε hs hc (prebnAngles_near R.dbl h0 h1) _ hv).1
    · simp [p, Fp.preces]
  · refine main (Fp.prec R sn cs ep0 ep1) (Sla.prec ep0 ep1) (C24_rotations ep0 ep1).1 c5.1 ?_ ?_
    · rw [prec_exact]
      exact (zyz_near R sn cs ε0 hε hs hc (precAngles_near R.dbl h0 h1 (by norm_num)) _ hv).1
    · simp [p, Fp.preces, catFK4, catFK5]

theorem epj_near (R : Rounding binary64) {date : ℝ} (h : |date - 51544.5| ≤ 365250) :
    |Fp.epj R date - Sla.epj date| ≤ 6.1e-13 := by
  have hR := R.dbl
  have h1 : |R (date - 51544.5) - (date - 51544.5)| ≤ 4.384e-11 := hR.lit h (by norm_num)
  have b : |(date - 51544.5) / 365.25| ≤ 1000 := by rw [abs_div, div_le_iff₀ (by norm_num)]; norm_num at *; linarith
  have h2 : |R (R (date - 51544.5) / 365.25) - (date - 51544.5) / 365.25| ≤ 2.41e-13 :=
    hR.div (f := 0) (m := 365.25) (Q := 1000) (E := 1.2003e-13) h1 (by simp) (by norm_num) (by norm_num) b (by norm_num) (by norm_num)
  have b2 : |2000 + (date - 51544.5) / 365.25| ≤ 2900 + 100 := (abs_add_le _ _).trans (by norm_num at *; linarith)
  exact hR.add (e := 0) (by simp) h2 b2 (by norm_num)

theorem epj_range {date : ℝ} (h : |date - 51544.5| ≤ 365250) : |Sla.epj date - 2000| ≤ 2000 := by
  unfold Sla.epj
  rw [add_sub_cancel_left, abs_div, div_le_iff₀ (by norm_num)]; norm_num at *; linarith

/-- C102: in double precision `eqecl` and `ecleq` return a direction within 4.9e-14 rad of that given by exact arithmetic, plus
    93 times the error of the library's sine and cosine and 3.2 times that of its arctangent, for dates within 1000 years of
    J2000, with the longitude in the range 0 to 2 pi. -/
theorem C102_ecliptic (R : Rounding binary64) (sn cs : ℝ → ℝ) (at2 : ℝ → ℝ → ℝ) {ε ε' : ℝ} (hε : ε ≤ 1e-5) (hε' : ε' ≤ 0.1)
    (hs : ∀ a, |sn a - Real.sin a| ≤ ε) (hc : ∀ a, |cs a - Real.cos a| ≤ ε) (ha : Atan2Near at2 ε')
    (hrep : ∀ y x, binary64.Rep (at2 y x)) (s : Spherical) (date : ℝ) (h : |date - 51544.5| ≤ 365250) :
    ∀ f ∈ [(Fp.eqecl R sn cs at2 s date, Sla.eqecl s date), (Fp.ecleq R sn cs at2 s date, Sla.ecleq s date)],
      angleBetween (direction f.1.a f.1.b) (direction f.2.a f.2.b) ≤ 4.9e-14 + 93 * ε + 3.2 * ε' ∧
        0 ≤ f.1.a ∧ f.1.a < 2 * Real.pi ∧ |f.1.b| ≤ Real.pi / 2 + ε' := by
  have ε0 : 0 ≤ ε := (abs_nonneg _).trans (hs 0)
  have ε0' : 0 ≤ ε' := (abs_nonneg _).trans (ha.1 0 0 (Or.inr le_rfl))
  have hu1 : len (direction s.a s.b) = 1 := len_direction _ _
  have d1 := dcs2c_near R sn cs (hε.trans (by norm_num)) hs hc s.a s.b
  have hv := len_of_near hu1 d1 (by norm_num at *; linarith)
  have hP := (C24_rotations 2000 (Sla.epj date)).1
  have hE := (C24_rotations date 0).2.2.2.2.2
  have nP := precAngles_near R.dbl (ep0 := 2000) (by norm_num) (epj_range h) (epj_near R h)
  have nE := ecmatPhi_near R.dbl h
  have eE : Sla.ecmat date = rotX (Sla.ecmatPhi date) := x_turn _
  have main : ∀ (v : Vec) (Q Q' : Mat) (e : Spherical), IsRotation Q → IsRotation Q' →
      direction e.a e.b = Q' *ᵥ (Q *ᵥ direction s.a s.b) →
      len (v - Q' *ᵥ (Q *ᵥ direction s.a s.b)) ≤ (3.1 * ε + 1.5 * (1 / 2 ^ 53) + (27.6 * ε + 1.3e-14)) + (27.6 * ε + 1.3e-14) →
      angleBetween (direction (Fp.dranrm R (Fp.dcc2s R at2 v).1) (Fp.drange R (Fp.dcc2s R at2 v).2)) (direction e.a e.b) ≤
        4.9e-14 + 93 * ε + 3.2 * ε' ∧ 0 ≤ Fp.dranrm R (Fp.dcc2s R at2 v).1 ∧ Fp.dranrm R (Fp.dcc2s R at2 v).1 < 2 * Real.pi ∧
        |Fp.drange R (Fp.dcc2s R at2 v).2| ≤ Real.pi / 2 + ε' := by
    intro v Q Q' e hQ hQ' he hd
    have hw : 0.999 ≤ len (Q' *ᵥ (Q *ᵥ direction s.a s.b)) := by rw [rotation_len hQ', rotation_len hQ, hu1]; norm_num
    obtain ⟨f1, f2, f3, f4, f5⟩ := finish R hε' ha hrep (B := 4.9e-14 + 93 * ε + 3.2 * ε') hw hd (by norm_num at *; linarith)
      (by norm_num at *; linarith)
    rw [← he] at f1
    rw [f5]
    exact ⟨f1, f2, f3, f4⟩
  intro f hf
  simp only [List.mem_cons, List.not_mem_nil, or_false] at hf
  rcases hf with rfl | rfl
  · have s1 := (zyz_near R sn cs ε0 hε hs hc nP _ hv).1
    rw [← prec_exact] at s1
    have d2 := step hP d1 s1
    have hv2 := len_of_near (by rw [rotation_len hP, hu1]) d2 (by norm_num at *; linarith)
    have s2 := (x_near R sn cs ε0 hε hs hc nE _ hv2).1
    rw [← eE] at s2
    exact main _ _ _ _ hP hE (C46_eqecl s date).1 (step hE d2 s2)
  · have hPt := Spec.IsRotation.transpose hP
    have hEt := Spec.IsRotation.transpose hE
    have s1 := (x_near R sn cs ε0 hε hs hc nE _ hv).2
    rw [← eE] at s1
    have d2 := step hEt d1 s1
    have hv2 := len_of_near (by rw [rotation_len hEt, hu1]) d2 (by norm_num at *; linarith)
    have s2 := (zyz_near R sn cs ε0 hε hs hc nP _ hv2).2
    rw [← prec_exact] at s2
    exact main _ _ _ _ hEt hPt (C46_ecleq s date).1 (step hPt d2 s2)

theorem angle_rotation {Q : Mat} (hQ : IsRotation Q) (u v : Vec) : angleBetween (Q *ᵥ u) (Q *ᵥ v) = angleBetween u v := by
  unfold angleBetween InnerProductGeometry.angle
  rw [norm_toLp, norm_toLp, norm_toLp, norm_toLp, inner_toLp, inner_toLp, rotation_dot hQ, rotation_dot hQ, rotation_dot hQ]

/-- C102: converting to the ecliptic and back in double precision moves a star by less than 1e-13 rad, plus 186 times the error
    of the library's sine and cosine and 6.4 times that of its arctangent. -/
theorem C102_round_trip (R : Rounding binary64) (sn cs : ℝ → ℝ) (at2 : ℝ → ℝ → ℝ) {ε ε' : ℝ} (hε : ε ≤ 1e-5) (hε' : ε' ≤ 0.1)
    (hs : ∀ a, |sn a - Real.sin a| ≤ ε) (hc : ∀ a, |cs a - Real.cos a| ≤ ε) (ha : Atan2Near at2 ε')
    (hrep : ∀ y x, binary64.Rep (at2 y x)) (s : Spherical) (date : ℝ) (h : |date - 51544.5| ≤ 365250) :
    let p := Fp.ecleq R sn cs at2 (Fp.eqecl R sn cs at2 s date) date
    angleBetween (direction p.a p.b) (direction s.a s.b) ≤ 1e-13 + 186 * ε + 6.4 * ε' := by
  intro p
  have hP := (C24_rotations 2000 (Sla.epj date)).1
  have hE := (C24_rotations date 0).2.2.2.2.2
  set q := Fp.eqecl R sn cs at2 s date
  have h1 := (C102_ecliptic R sn cs at2 hε hε' hs hc ha hrep s date h (Fp.eqecl R sn cs at2 s date, Sla.eqecl s date) (by simp)).1
  have h2 := (C102_ecliptic R sn cs at2 hε hε' hs hc ha hrep q date h (Fp.ecleq R sn cs at2 q date, Sla.ecleq q date) (by simp)).1
  have e1 : direction s.a s.b = (Sla.prec 2000 (Sla.epj date))ᵀ *ᵥ ((Sla.ecmat date)ᵀ *ᵥ direction (Sla.eqecl s date).a (Sla.eqecl s date).b) := by
    rw [(C46_eqecl s date).1, Matrix.mulVec_mulVec _ (Sla.ecmat date)ᵀ, hE.transpose_mul_self, Matrix.one_mulVec,
      Matrix.mulVec_mulVec, hP.transpose_mul_self, Matrix.one_mulVec]
  have h3 := angle_triangle (direction p.a p.b) (direction (Sla.ecleq q date).a (Sla.ecleq q date).b) (direction s.a s.b)
  rw [(C46_ecleq q date).1] at h2 h3
  have e2 : angleBetween ((Sla.prec 2000 (Sla.epj date))ᵀ *ᵥ ((Sla.ecmat date)ᵀ *ᵥ direction q.a q.b)) (direction s.a s.b) =
      angleBetween (direction q.a q.b) (direction (Sla.eqecl s date).a (Sla.eqecl s date).b) := by
    rw [e1, angle_rotation (Spec.IsRotation.transpose hP), angle_rotation (Spec.IsRotation.transpose hE)]
  rw [e2] at h3
  change angleBetween (direction q.a q.b) _ ≤ _ at h1
  change angleBetween (direction p.a p.b) _ ≤ _ at h2
  clear e1 e2
  norm_num at *
  linarith

/-! ### The hypotheses can be met -/

/-- With exact functions rounded to the format, all errors together are below 1e-12 rad. -/
example (R : Rounding binary64) (s : Spherical) :
    let at2 := fun y x => R (atan2 y x)
    let p := Fp.eqecl R (fun a => R (Real.sin a)) (fun a => R (Real.cos a)) at2 s 60000
    angleBetween (direction p.a p.b) (direction (Sla.eqecl s 60000).a (Sla.eqecl s 60000).b) ≤ 1e-12 := by
  intro at2 p
  have hd := R.dbl
  have ha : Atan2Near at2 4e-16 := by
    have key : ∀ y x, |at2 y x - atan2 y x| ≤ 4e-16 := by
      intro y x
      have hb : |atan2 y x| ≤ 3.15 := by
        have := atan2_mem y x
        have := Real.pi_lt_d2
        rw [abs_le]; constructor <;> linarith [(atan2_mem y x).1, (atan2_mem y x).2]
      exact hd.lit hb (by norm_num)
    refine ⟨fun y x _ => key y x, fun x hx => Or.inl ?_⟩
    have e : atan2 0 x = Real.pi :=
      atan2_unique (r := -x) (by linarith) (by linarith [Real.pi_pos]) le_rfl (by simp) (by simp)
    rw [← e]; exact key 0 x
  have h := (C102_ecliptic R (fun a => R (Real.sin a)) (fun a => R (Real.cos a)) at2 (ε := 1.3e-16) (ε' := 4e-16) (by norm_num)
    (by norm_num) (fun a => hd.lit (Real.abs_sin_le_one a) (by norm_num)) (fun a => hd.lit (Real.abs_cos_le_one a) (by norm_num))
    ha (fun y x => R.rep _) s 60000 (by norm_num [abs_le]) (p, Sla.eqecl s 60000) (by simp [p])).1
  exact h.trans (by norm_num)

/-- The epochs of the example in the documentation of `preces`. -/
example : catFK4 = catFK4 ∧ |(1900 : ℝ) - 1850| ≤ 1000 ∧ |(1950 : ℝ) - 1900| ≤ 2000 := ⟨rfl, by norm_num, by norm_num⟩

end Sla.Props
