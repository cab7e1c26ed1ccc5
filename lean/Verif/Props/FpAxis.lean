import Verif.Model.FpAxis
import Verif.Lemmas.FpAngle
import Verif.Spec.FpLib
import Verif.Props.Vectors
import Verif.Props.FpSeparation

/-
Property theorems C114: axial vectors and rotation matrices in double precision.
-/
namespace Sla.Props
open Sla.Fp Sla.Spec Matrix

/-- The modulus as `dav2m` and `dm2av` compute it is that of `dvn`. -/
private theorem modulus_eq (R : Rounding binary64) (v : Vec) :
    R (Real.sqrt (R (R (R (v 0 * v 0) + R (v 1 * v 1)) + R (v 2 * v 2)))) = (Fp.dvn R v).1 := by
  show _ = R (Real.sqrt (R (R (R (0 + R (v 0 * v 0)) + R (v 1 * v 1)) + R (v 2 * v 2))))
  rw [zero_add, R.eq_self (R.rep (v 0 * v 0))]

private theorem nbound {a x e B : ℝ} (h : |a - x| ≤ e) (h' : |x| ≤ B) : Nb a x e B := ⟨h, h'⟩

/-- The parts of the matrix. -/
private theorem parts (R : Rounding binary64) {a b c A B C s w S W : ℝ} (ha : Nb a A 4.5e-16 1) (hb : Nb b B 4.5e-16 1) (hc : Nb c C 4.5e-16 1)
    (hs : Nb s S 3.4e-15 1) (hw : Nb w W 3.7e-15 2) :
    (|R (R (R (a * b) * w) + R (c * s)) - (A * B * W + C * S)| ≤ 1.05e-14) ∧ |R (R (R (a * b) * w) - R (c * s)) - (A * B * W - C * S)| ≤ 1.05e-14 := by
  have m1 : Nb (R (a * b)) (A * B) 1.03e-15 1 := R.dbl.nmul ha hb (by norm_num) (by norm_num)
  have m2 : Nb (R (R (a * b) * w)) (A * B * W) 6.1e-15 2 := R.dbl.nmul m1 hw (by norm_num) (by norm_num)
  have m3 : Nb (R (c * s)) (C * S) 4e-15 1 := R.dbl.nmul hc hs (by norm_num) (by norm_num)
  exact ⟨(R.dbl.nadd (C := 3) (g := 1.05e-14) m2 m3 (by norm_num) (by norm_num)).err,
    (R.dbl.nsub (C := 3) (g := 1.05e-14) m2 m3 (by norm_num) (by norm_num)).err⟩

private theorem diag (R : Rounding binary64) {a A c w C W : ℝ} (ha : Nb a A 4.5e-16 1) 
    (hc : Nb c C 3.4e-15 1) (hw : Nb w W 3.7e-15 2) : |R (R (R (a * a) * w) + c) - (A * A * W + C)| ≤ 1.05e-14 := by
  have m1 : Nb (R (a * a)) (A * A) 1.03e-15 1 := R.dbl.nmul ha ha (by norm_num) (by norm_num)
  have m2 : Nb (R (R (a * a) * w)) (A * A * W) 6.1e-15 2 := R.dbl.nmul m1 hw (by norm_num) (by norm_num)
  exact (R.dbl.nadd (C := 3) (g := 1.05e-14) m2 hc (by norm_num) (by norm_num)).err

/-- C114: in double precision `dav2m` forms every element of the rotation matrix to 1.05e-14, for the zero vector and axial vectors
    of up to 7 rad. -/
theorem C114_dav2m (R : Rounding binary64) (sn cs : ℝ → ℝ) (hs : ∀ a, |sn a - Real.sin a| ≤ 2e-16)
    (hc : ∀ a, |cs a - Real.cos a| ≤ 2e-16) (v : Vec) (h : v = 0 ∨ (2 : ℝ) ^ (-500 : ℤ) ≤ len v) (h7 : len v ≤ 7) (i j : Fin 3) :
    |Fp.dav2m R sn cs v i j - Sla.dav2m v i j| ≤ 1.05e-14 := by
  rcases h with rfl | h
  · have e0 : R (Real.sqrt (R (R (R ((0 : Vec) 0 * (0 : Vec) 0) + R ((0 : Vec) 1 * (0 : Vec) 1)) + R ((0 : Vec) 2 * (0 : Vec) 2)))) = 0 := by simp
    have k : |R (cs 0) - 1| ≤ 1.05e-14 := by
      have h0 := hc 0
      rw [Real.cos_zero] at h0
      exact R.dbl.round (B := 1) h0 (by norm_num) (by norm_num)
    unfold Fp.dav2m Sla.dav2m
    rw [e0]
    fin_cases i <;> fin_cases j <;> simp
    all_goals first | exact k | norm_num
  · have d := C80_dvn R v h
    have L0 : 0 < len v := lt_of_lt_of_le (two_zpow_pos _) h
    have ph : |(Fp.dvn R v).1 - len v| ≤ 3.11e-15 := d.1.trans (by
      have : (1 : ℝ) / 2 ^ 51 * len v ≤ 1 / 2 ^ 51 * 7 := mul_le_mul_of_nonneg_left h7 (by positivity)
      exact this.trans (by norm_num))
    have p0 : (Fp.dvn R v).1 ≠ 0 := by
      intro h0
      have := d.1
      rw [h0, zero_sub, abs_neg, abs_of_pos L0] at this
      norm_num at this; linarith
    have p0' : ¬ (Fp.dvn R v).1 ≤ 0 := by
      have : 0 ≤ (Fp.dvn R v).1 := R.nonneg (Real.sqrt_nonneg _)
      intro h0; exact p0 (le_antisymm h0 this)
    have un : ∀ i, |v i / len v| ≤ 1 := fun i => by
      rw [abs_div, abs_of_pos L0, div_le_one L0]; exact abs_le_len v i
    have n : ∀ i, Nb (R (v i / (Fp.dvn R v).1)) (v i / len v) 4.5e-16 1 := fun i => by
      refine ⟨?_, un i⟩
      have k := d.2.1 i
      have e : (Fp.dvn R v).2 i = R (v i / (Fp.dvn R v).1) := by
        show R (v i / (if (Fp.dvn R v).1 ≤ 0 then 1 else (Fp.dvn R v).1)) = _
        rw [if_neg p0']
      rw [e] at k
      refine k.trans ?_
      have : (2 : ℝ) ^ (-1075 : ℤ) ≤ 2 ^ (-70 : ℤ) := two_zpow_le (by norm_num)
      have u := un i
      norm_num at *
      linarith
    have s : Nb (sn (Fp.dvn R v).1) (Real.sin (len v)) 3.4e-15 1 :=
      (nbound ph le_rfl).sin hs (by norm_num)
    have c : Nb (cs (Fp.dvn R v).1) (Real.cos (len v)) 3.4e-15 1 :=
      (nbound ph le_rfl).cos hc (by norm_num)
    have w : Nb (R (1 - cs (Fp.dvn R v).1)) (1 - Real.cos (len v)) 3.7e-15 2 :=
      R.dbl.nsub (Nb.self (by norm_num : |(1 : ℝ)| ≤ 1)) c (by norm_num) (by norm_num)
    have eL : Real.sqrt (v 0 * v 0 + v 1 * v 1 + v 2 * v 2) = len v := by
      simp [len, dotProduct, Fin.sum_univ_three]
    unfold Fp.dav2m Sla.dav2m
    rw [modulus_eq R v, eL, if_pos p0, if_pos p0, if_pos p0, if_pos L0.ne', if_pos L0.ne', if_pos L0.ne']
    have n0 := n 0
    have n1 := n 1
    have n2 := n 2
    fin_cases i <;> fin_cases j
    · exact diag R n0 c w
    · exact (parts R n0 n1 n2 s w).1
    · exact (parts R n0 n2 n1 s w).2
    · exact (parts R n0 n1 n2 s w).2
    · exact diag R n1 c w
    · exact (parts R n1 n2 n0 s w).1
    · exact (parts R n0 n2 n1 s w).1
    · exact (parts R n1 n2 n0 s w).2
    · exact diag R n2 c w

private theorem dir_parts (v : Vec) (h : 0 < len v) :
    let n := fun i => v i / len v
    (Sla.dav2m v 1 2 - Sla.dav2m v 2 1 = 2 * (n 0 * Real.sin (len v)) ∧ Sla.dav2m v 2 0 - Sla.dav2m v 0 2 = 2 * (n 1 * Real.sin (len v)) ∧
      Sla.dav2m v 0 1 - Sla.dav2m v 1 0 = 2 * (n 2 * Real.sin (len v))) ∧
    Sla.dav2m v 0 0 + Sla.dav2m v 1 1 + Sla.dav2m v 2 2 - 1 = 2 * Real.cos (len v) ∧ ∀ i j, |Sla.dav2m v i j| ≤ 1 := by
  intro n
  have eL : Real.sqrt (v 0 * v 0 + v 1 * v 1 + v 2 * v 2) = len v := by
    simp [len, dotProduct, Fin.sum_univ_three]
  have hn : n 0 * n 0 + n 1 * n 1 + n 2 * n 2 = 1 := by
    have : len v ^ 2 = v 0 * v 0 + v 1 * v 1 + v 2 * v 2 := by
      rw [← eL, Real.sq_sqrt (by nlinarith [mul_self_nonneg (v 0), mul_self_nonneg (v 1), mul_self_nonneg (v 2)])]
    simp only [n]
    field_simp
    linarith
  have e : Sla.dav2m v = ![![n 0 * n 0 * (1 - Real.cos (len v)) + Real.cos (len v), n 0 * n 1 * (1 - Real.cos (len v)) + n 2 * Real.sin (len v), n 0 * n 2 * (1 - Real.cos (len v)) - n 1 * Real.sin (len v)],
      ![n 0 * n 1 * (1 - Real.cos (len v)) - n 2 * Real.sin (len v), n 1 * n 1 * (1 - Real.cos (len v)) + Real.cos (len v), n 1 * n 2 * (1 - Real.cos (len v)) + n 0 * Real.sin (len v)],
      ![n 0 * n 2 * (1 - Real.cos (len v)) + n 1 * Real.sin (len v), n 1 * n 2 * (1 - Real.cos (len v)) - n 0 * Real.sin (len v), n 2 * n 2 * (1 - Real.cos (len v)) + Real.cos (len v)]] := by
    simp only [Sla.dav2m, eL, ne_eq, h.ne', not_false_eq_true, if_true]
    rfl
  refine ⟨⟨?_, ?_, ?_⟩, ?_, ?_⟩
  · rw [e]; simp; ring
  · rw [e]; simp; ring
  · rw [e]; simp; ring
  · rw [e]; simp
    linear_combination (1 - Real.cos (len v)) * hn
  · intro i j
    have hr := C21_rotation v
    have := abs_le_len (Sla.dav2m v *ᵥ Pi.single j 1) i
    rw [len_mulVec hr] at this
    have hl : len (Pi.single j (1 : ℝ)) = 1 := by fin_cases j <;> simp [len, dotProduct, Pi.single_apply]
    rw [hl] at this
    simpa using this

private theorem axis_angle (R : Rounding binary64) (at2 : ℝ → ℝ → ℝ) (ha : Atan2Near at2 5e-16) {φ s c S C : ℝ} (hs : s = Real.sin φ)
    (hc : c = Real.cos φ) (φ0 : 0 < φ) (hpi : φ < Real.pi) (hsin : 1e-6 ≤ s) (dS : |S - 2 * s| ≤ 4.1e-14) (dC : |C - 2 * c| ≤ 3.5e-14) :
    |at2 (R (S / 2)) (R (C / 2)) - φ| ≤ 4.5e-14 := by
  have sc : s * s + c * c = 1 := by rw [hs, hc]; nlinarith [Real.sin_sq_add_cos_sq φ]
  have s0 : 0 < s := lt_of_lt_of_le (by norm_num) hsin
  have s1 : s ≤ 1 := by rw [hs]; exact Real.sin_le_one φ
  have c1 : |c| ≤ 1 := by rw [hc]; exact Real.abs_cos_le_one φ
  have hS2 : |R (S / 2) - s| ≤ 2.1e-14 :=
    R.dbl.round (B := 1) (e := 2.05e-14) (by rw [show S / 2 - s = (S - 2 * s) / 2 by ring, abs_div]; norm_num at *; linarith)
      (by rw [abs_of_pos s0]; exact s1) (by norm_num)
  have hC2 : |R (C / 2) - c| ≤ 1.8e-14 :=
    R.dbl.round (B := 1) (e := 1.75e-14) (by rw [show C / 2 - c = (C - 2 * c) / 2 by ring, abs_div]; norm_num at *; linarith) c1 (by norm_num)
  have Sp : 0 < R (S / 2) := by
    have := abs_le.1 hS2
    norm_num at *; linarith
  have k1 := ha.1 (R (S / 2)) (R (C / 2)) (Or.inl Sp.ne')
  have k2 := fp_atan2_near (s := s) (c := c) (s' := R (S / 2)) (c' := R (C / 2)) (L := 1) (d := 2.8e-14) s0.le Sp.le one_pos
    (by rw [sc]; norm_num) (by norm_num) (by norm_num) (by
      have h1 := sq_le_sq' (abs_le.1 hS2).1 (abs_le.1 hS2).2
      have h2 := sq_le_sq' (abs_le.1 hC2).1 (abs_le.1 hC2).2
      norm_num at *; linarith)
  have k3 : atan2 s c = φ := atan2_unique one_pos (by linarith [Real.pi_pos]) hpi.le (by rw [hs]; ring) (by rw [hc]; ring)
  rw [k3, mul_one] at k2
  have k4 := Real.pi_lt_d2
  have k5 := abs_sub_le (at2 (R (S / 2)) (R (C / 2))) (atan2 (R (S / 2)) (R (C / 2))) φ
  generalize at2 (R (S / 2)) (R (C / 2)) = θ at *
  generalize atan2 (R (S / 2)) (R (C / 2)) = θ' at *
  norm_num at k1 k2 k4 k5 ⊢; linarith

private theorem axis_factor (R : Rounding binary64) {φ s S θ k : ℝ} (hsin : 1e-6 ≤ s) (s1 : s ≤ 1) (k1 : 1 ≤ k) (hφk : φ = k * s) (k4 : φ ≤ 3.15)
    (dS : |S - 2 * s| ≤ 4.1e-14) (dθ : |θ - φ| ≤ 4.5e-14) :
    |R (θ / S) - k / 2| * S ≤ 6.6e-14 * k ∧ |R (θ / S)| ≤ 0.51 * k := by
  have S1 := abs_le.1 dS
  have Sp' : 1.9e-6 ≤ S := by norm_num at S1 hsin ⊢; linarith
  have s0 : 0 < s := lt_of_lt_of_le (by norm_num) hsin
  have Sp0 : 0 < S := lt_of_lt_of_le (by norm_num) Sp'
  have φ0 : 0 < φ := by rw [hφk]; nlinarith
  have q1 : |θ / S - k / 2| * S ≤ 4.5e-14 + 2.05e-14 * k := by
    rw [← abs_of_pos Sp0, ← abs_mul, abs_of_pos Sp0, show (θ / S - k / 2) * S = (θ - φ) + k / 2 * (2 * s - S) by
      rw [hφk]; field_simp; ring]
    refine (abs_add_le _ _).trans ?_
    rw [abs_mul, abs_of_pos (by linarith : 0 < k / 2), abs_sub_comm (2 * s)]
    have := mul_le_mul_of_nonneg_left dS (by linarith : 0 ≤ k / 2)
    norm_num at this dθ ⊢; linarith
  have q2 : |R (θ / S) - θ / S| * S ≤ 1.2e-16 * 3.2 + 1e-100 := by
    have h1 := R.dbl (θ / S)
    have h2 : |θ / S| * S = |θ| := by rw [abs_div, abs_of_pos Sp0]; field_simp
    have h3 : |θ| ≤ 3.2 := by
      have := abs_sub_abs_le_abs_sub θ φ
      rw [abs_of_pos φ0] at this
      norm_num at this dθ k4 ⊢; linarith
    have h4 : S ≤ 3 := by norm_num at S1 ⊢; linarith
    have h5 := mul_le_mul_of_nonneg_right h1 Sp0.le
    have h6 : (1.2e-16 * |θ / S| + 1e-200) * S = 1.2e-16 * (|θ / S| * S) + 1e-200 * S := by ring
    rw [h6, h2] at h5
    norm_num at h3 h4 h5 ⊢; linarith
  generalize R (θ / S) = f at *
  have q3 : |f - k / 2| * S ≤ 6.6e-14 * k := by
    have h1 := abs_sub_le f (θ / S) (k / 2)
    have h2 := mul_le_mul_of_nonneg_right h1 Sp0.le
    rw [add_mul] at h2
    norm_num at q1 q2 h2 ⊢; linarith
  refine ⟨q3, ?_⟩
  have h1 : |f - k / 2| ≤ 0.01 * k := by
    have : |f - k / 2| * 1.9e-6 ≤ |f - k / 2| * S := mul_le_mul_of_nonneg_left Sp' (abs_nonneg _)
    norm_num at this q3 ⊢; linarith
  have h2 := abs_sub_abs_le_abs_sub f (k / 2)
  rw [abs_of_pos (by linarith : 0 < k / 2)] at h2
  norm_num at h1 h2 ⊢; linarith

private theorem axis_component (R : Rounding binary64) {w W f k S s v : ℝ} (k1 : 1 ≤ k) (hsin : 1e-6 ≤ s) (dS : |S - 2 * s| ≤ 4.1e-14)
    (wd : |w - W| ≤ 2.25e-14) (bW : |W| ≤ 2 * s) (q3 : |f - k / 2| * S ≤ 6.6e-14 * k) (q4 : |f| ≤ 0.51 * k) (e1 : v = W * (k / 2))
    (bv : |v| ≤ 3.15) : |R (w * f) - v| ≤ 9e-14 * k := by
  have S1 := abs_le.1 dS
  have h1 : |w * f - v| ≤ 8e-14 * k := by
    rw [e1, show w * f - W * (k / 2) = (w - W) * f + W * (f - k / 2) by ring]
    refine (abs_add_le _ _).trans ?_
    rw [abs_mul, abs_mul]
    have a1 := mul_le_mul wd q4 (abs_nonneg _) (by norm_num)
    have a2 : |W| * |f - k / 2| ≤ (1 + 1e-6) * (|f - k / 2| * S) := by
      have b1 : |W| ≤ (1 + 1e-6) * S := by norm_num at bW S1 hsin ⊢; linarith
      have := mul_le_mul_of_nonneg_right b1 (abs_nonneg (f - k / 2))
      linarith
    norm_num at a1 a2 q3 ⊢; linarith
  refine R.dbl.round h1 bv ?_
  norm_num; linarith

private theorem dm2av_eq (R : Rounding binary64) (at2 : ℝ → ℝ → ℝ) (M : Mat) {w : Vec} {S C : ℝ}
    (hw : w = ![R (M 1 2 - M 2 1), R (M 2 0 - M 0 2), R (M 0 1 - M 1 0)]) (hS : S = (Fp.dvn R w).1) (S0 : S ≠ 0)
    (hC : C = R (R (R (M 0 0 + M 1 1) + M 2 2) - 1)) (i : Fin 3) :
    Fp.dm2av R at2 M i = R (w i * R (at2 (R (S / 2)) (R (C / 2)) / S)) := by
  rw [← modulus_eq, hw] at hS
  simp only [Matrix.cons_val_zero, Matrix.cons_val_one, Matrix.cons_val] at hS
  unfold Fp.dm2av
  simp only [← hS, ← hC]
  rw [if_pos S0, hw]
  fin_cases i <;> rfl

/-- C114: in double precision `dm2av` recovers the axial vector from a matrix whose elements are right to 1.1e-14 to 9e-14 times the
    ratio of the angle and its sine, for angles up to a half turn whose sine is at least a millionth. -/
theorem C114_dm2av (R : Rounding binary64) (at2 : ℝ → ℝ → ℝ) (ha : Atan2Near at2 5e-16) (v : Vec) (M : Mat)
    (hM : ∀ i j, |M i j - Sla.dav2m v i j| ≤ 1.1e-14) (hpi : len v < Real.pi) (hsin : 1e-6 ≤ Real.sin (len v)) (i : Fin 3) :
    |Fp.dm2av R at2 M i - v i| ≤ 9e-14 * (len v / Real.sin (len v)) := by
  obtain ⟨φ, hφ⟩ : ∃ φ, φ = len v := ⟨_, rfl⟩
  have φ0 : 0 < φ := by
    rcases (len_nonneg v).lt_or_eq with h | h
    · rw [hφ]; exact h
    · rw [← h, Real.sin_zero] at hsin; norm_num at hsin
  obtain ⟨⟨x1, x2, x3⟩, x4, x5⟩ := dir_parts v (hφ ▸ φ0)
  rw [← hφ] at hpi hsin x1 x2 x3 x4 ⊢
  obtain ⟨s, hs⟩ : ∃ s, s = Real.sin φ := ⟨_, rfl⟩
  obtain ⟨c, hc⟩ : ∃ c, c = Real.cos φ := ⟨_, rfl⟩
  rw [← hs] at hsin x1 x2 x3 ⊢
  rw [← hc] at x4
  have sc : s * s + c * c = 1 := by rw [hs, hc]; nlinarith [Real.sin_sq_add_cos_sq φ]
  have s0 : 0 < s := lt_of_lt_of_le (by norm_num) hsin
  have s1 : s ≤ 1 := by rw [hs]; exact Real.sin_le_one φ
  have c1 : |c| ≤ 1 := by rw [hc]; exact Real.abs_cos_le_one φ
  have sφ : s ≤ φ := by rw [hs]; exact Real.sin_le φ0.le
  have un : ∀ i, |v i / φ| ≤ 1 := fun i => by
    rw [abs_div, abs_of_pos φ0, div_le_one φ0, hφ]; exact abs_le_len v i
  -- the vector that is twice the axis times the sine
  obtain ⟨w, hw⟩ : ∃ w : Vec, w = ![R (M 1 2 - M 2 1), R (M 2 0 - M 0 2), R (M 0 1 - M 1 0)] := ⟨_, rfl⟩
  obtain ⟨W, hW⟩ : ∃ W : Vec, W = fun i => 2 * (v i / φ * s) := ⟨_, rfl⟩
  have m : ∀ i j, Nb (M i j) (Sla.dav2m v i j) 1.1e-14 1 := fun i j => ⟨hM i j, x5 i j⟩
  have wd : ∀ i, |w i - W i| ≤ 2.25e-14 := by
    have k : ∀ i j i' j', |R (M i j - M i' j') - (Sla.dav2m v i j - Sla.dav2m v i' j')| ≤ 2.25e-14 := fun i j i' j' =>
      (R.dbl.nsub (C := 2) (m i j) (m i' j') (by norm_num) (by norm_num)).err
    rw [hw, hW]
    intro i
    fin_cases i
    · have := k 1 2 2 1; rwa [x1] at this
    · have := k 2 0 0 2; rwa [x2] at this
    · have := k 0 1 1 0; rwa [x3] at this
  have lW : len W = 2 * s := by
    have e : W = (2 * s / φ) • v := by rw [hW]; funext i; simp; ring
    rw [e, len_smul, abs_of_pos (by positivity), ← hφ]
    field_simp
  have lw : |len w - 2 * s| ≤ 3.95e-14 := by
    have h1 := len_le_of (v := w - W) (ε := 2.25e-14) wd
    have h2 := len_add_le (w - W) W
    have h3 := len_add_le (-(w - W)) w
    rw [sub_add_cancel] at h2
    rw [show -(w - W) + w = W by abel, len_neg] at h3
    rw [lW] at h2 h3
    have : Real.sqrt 3 ≤ 1.7321 := by rw [Real.sqrt_le_left (by norm_num)]; norm_num
    rw [abs_le]
    norm_num at *
    constructor <;> nlinarith
  have lw1 := abs_le.1 lw
  -- the modulus, the trace and the angle
  have big : (2 : ℝ) ^ (-500 : ℤ) ≤ len w := by
    have h1 : (2 : ℝ) ^ (-500 : ℤ) ≤ 2 ^ (-30 : ℤ) := two_zpow_le (by norm_num)
    have h2 : (2 : ℝ) ^ (-30 : ℤ) ≤ 1e-7 := by norm_num
    refine h1.trans (h2.trans ?_)
    norm_num at lw1 hsin ⊢; linarith
  obtain ⟨S, hS⟩ : ∃ S, S = (Fp.dvn R w).1 := ⟨_, rfl⟩
  have dS : |S - 2 * s| ≤ 4.1e-14 := by
    have h1 := (C80_dvn R w big).1
    rw [← hS] at h1
    have h2 := abs_sub_le S (len w) (2 * s)
    norm_num at h1 h2 lw lw1 s1 ⊢; linarith
  have S0 : S ≠ 0 := by
    intro h0
    rw [h0, zero_sub, abs_neg, abs_of_pos (by positivity)] at dS
    norm_num at dS hsin; linarith
  obtain ⟨C, hC⟩ : ∃ C, C = R (R (R (M 0 0 + M 1 1) + M 2 2) - 1) := ⟨_, rfl⟩
  have dC : |C - 2 * c| ≤ 3.5e-14 := by
    have t1 : Nb (R (M 0 0 + M 1 1)) _ 2.25e-14 2 := R.dbl.nadd (m 0 0) (m 1 1) (by norm_num) (by norm_num)
    have t2 : Nb (R (R (M 0 0 + M 1 1) + M 2 2)) _ 3.4e-14 3 := R.dbl.nadd t1 (m 2 2) (by norm_num) (by norm_num)
    have t3 := R.dbl.sub (B := 2) (g := 3.5e-14) t2.err (show |(1 : ℝ) - 1| ≤ 0 by simp) (by
      rw [x4, abs_mul]; norm_num; linarith) (by norm_num)
    rwa [x4, ← hC] at t3
  have dθ := axis_angle R at2 ha hs hc φ0 hpi hsin dS dC
  have k1 : 1 ≤ φ / s := by rw [le_div_iff₀ s0]; linarith
  have k4 : φ ≤ 3.15 := hpi.le.trans Real.pi_lt_d2.le
  obtain ⟨q3, q4⟩ := axis_factor R hsin s1 k1 (by field_simp) k4 dS dθ
  rw [dm2av_eq R at2 M hw hS S0 hC i]
  exact axis_component R k1 hsin dS (wd i) (by rw [← lW]; exact abs_le_len W i) q3 q4 (by rw [hW]; field_simp)
    ((abs_le_len v i).trans (by rw [← hφ]; exact k4))

/-- C114: from an axial vector to the matrix and back in double precision. -/
theorem C114_round_trip (R : Rounding binary64) (sn cs : ℝ → ℝ) (at2 : ℝ → ℝ → ℝ) (hs : ∀ a, |sn a - Real.sin a| ≤ 2e-16)
    (hc : ∀ a, |cs a - Real.cos a| ≤ 2e-16) (ha : Atan2Near at2 5e-16) (v : Vec) (hpi : len v < Real.pi) (hsin : 1e-6 ≤ Real.sin (len v))
    (i : Fin 3) : |Fp.dm2av R at2 (Fp.dav2m R sn cs v) i - v i| ≤ 9e-14 * (len v / Real.sin (len v)) := by
  refine C114_dm2av R at2 ha v _ (fun i j => (C114_dav2m R sn cs hs hc v (Or.inr ?_) (by linarith [Real.pi_lt_four]) i j).trans (by norm_num))
    hpi hsin i
  have h1 : (2 : ℝ) ^ (-500 : ℤ) ≤ 2 ^ (-30 : ℤ) := two_zpow_le (by norm_num)
  have h2 : (2 : ℝ) ^ (-30 : ℤ) ≤ 1e-7 := by norm_num
  have h3 := Real.sin_le (len_nonneg v)
  refine h1.trans (h2.trans ?_)
  norm_num at hsin h3 ⊢; linarith

/-- C114: up to 120 degrees, for rotations of more than 0.2 arcsecond, the axial vector is recovered to 2.3e-13 in each component. -/
theorem C114_moderate (R : Rounding binary64) (sn cs : ℝ → ℝ) (at2 : ℝ → ℝ → ℝ) (hs : ∀ a, |sn a - Real.sin a| ≤ 2e-16)
    (hc : ∀ a, |cs a - Real.cos a| ≤ 2e-16) (ha : Atan2Near at2 5e-16) (v : Vec) (h0 : 1.3e-6 ≤ len v) (h1 : len v ≤ 2 * Real.pi / 3)
    (i : Fin 3) : |Fp.dm2av R at2 (Fp.dav2m R sn cs v) i - v i| ≤ 2.3e-13 := by
  have p := Real.pi_pos
  have l0 : 0 < len v := lt_of_lt_of_le (by norm_num) h0
  have key : 0.41 * len v ≤ Real.sin (len v) := by
    have hcv := strictConcaveOn_sin_Icc.concaveOn
    have h2 := hcv.2 (show (0 : ℝ) ∈ Set.Icc 0 Real.pi from ⟨le_rfl, p.le⟩) (show 2 * Real.pi / 3 ∈ Set.Icc 0 Real.pi from ⟨by positivity, by linarith⟩)
      (show 0 ≤ 1 - len v / (2 * Real.pi / 3) by rw [sub_nonneg, div_le_one (by positivity)]; exact h1)
      (show 0 ≤ len v / (2 * Real.pi / 3) by positivity) (by ring)
    have e1 : Real.sin (2 * Real.pi / 3) = Real.sqrt 3 / 2 := by
      rw [show 2 * Real.pi / 3 = Real.pi - Real.pi / 3 by ring, Real.sin_pi_sub, Real.sin_pi_div_three]
    simp only [smul_eq_mul, mul_zero, zero_add, Real.sin_zero, e1] at h2
    rw [div_mul_cancel₀ _ (by positivity : (2 * Real.pi / 3) ≠ 0)] at h2
    refine le_trans ?_ h2
    have e2 : (1.732 : ℝ) ≤ Real.sqrt 3 := Real.le_sqrt_of_sq_le (by norm_num)
    rw [div_mul_eq_mul_div, le_div_iff₀ (by positivity)]
    have := Real.pi_lt_d2
    have : 0.41 * (2 * Real.pi / 3) ≤ Real.sqrt 3 / 2 := by norm_num at *; linarith
    nlinarith
  have s0 : 0 < Real.sin (len v) := lt_of_lt_of_le (by positivity) key
  have hs1 : 1e-6 ≤ Real.sin (len v) := by
    rcases le_or_gt (len v) 1 with h | h
    · have := Real.sin_gt_sub_cube l0
      have : len v ^ 3 ≤ len v := by
        have : len v ^ 3 = len v * len v ^ 2 := by ring
        nlinarith [sq_nonneg (len v), mul_pos l0 l0]
      norm_num at *; linarith
    · norm_num at *; linarith
  refine (C114_round_trip R sn cs at2 hs hc ha v (by linarith) hs1 i).trans ?_
  have : len v / Real.sin (len v) ≤ 1 / 0.41 := by
    rw [div_le_div_iff₀ s0 (by norm_num)]; linarith
  norm_num at *; linarith

/-- A rotation by one radian about the third axis. -/
example : ∃ v : Vec, len v = 1 ∧ 1.3e-6 ≤ len v ∧ len v ≤ 2 * Real.pi / 3 ∧ (∀ a, |Real.sin a - Real.sin a| ≤ 2e-16) ∧ Atan2Near atan2 5e-16 := by
  have hl : len ![0, 0, 1] = 1 := by simp [len, dotProduct, Fin.sum_univ_three]
  refine ⟨![0, 0, 1], hl, by rw [hl]; norm_num, by rw [hl]; linarith [Real.pi_gt_three], by intro a; norm_num, ?_, ?_⟩
  · intro y x _; norm_num
  · intro x hx
    left
    have : atan2 0 x = Real.pi := Complex.arg_ofReal_of_neg hx
    rw [this]; norm_num

end Sla.Props
