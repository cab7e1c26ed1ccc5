import Verif.Model.FpAxisSingle
import Verif.Lemmas.FpAngle
import Verif.Spec.FpLib
import Verif.Props.Vectors
import Verif.Props.FpSeparation

/-
Property theorems C131: axial vectors and rotation matrices in single precision.
-/
namespace Sla.Props
open Sla.Fp Sla.Spec Matrix

/-- The modulus as `av2m` and `m2av` compute it. -/
private noncomputable def modulus (R : ℝ → ℝ) (v : Vec) : ℝ := R (Real.sqrt (R (R (R (v 0 * v 0) + R (v 1 * v 1)) + R (v 2 * v 2))))

/-- Modulus and direction in single precision. -/
private theorem vn_near (R : Rounding binary32) (v : Vec) (h : 1e-9 ≤ len v) :
    |modulus R v - len v| ≤ 1.6e-7 * len v ∧ ∀ i, |R (v i / modulus R v) - v i / len v| ≤ 2.6e-7 := by
  have hR := R.single
  obtain ⟨L, hL⟩ : ∃ L, L = len v := ⟨_, rfl⟩
  have hLL : L * L = v 0 * v 0 + v 1 * v 1 + v 2 * v 2 := by
    rw [hL]
    simp only [len, dotProduct, Fin.sum_univ_three]
    rw [Real.mul_self_sqrt]
    nlinarith [mul_self_nonneg (v 0), mul_self_nonneg (v 1), mul_self_nonneg (v 2)]
  have un : ∀ i, |v i / len v| ≤ 1 := fun i => by
    rw [abs_div, abs_of_pos (lt_of_lt_of_le (by norm_num) h), div_le_one (lt_of_lt_of_le (by norm_num) h)]; exact abs_le_len v i
  rw [← hL] at h un ⊢
  have L0 : 0 < L := lt_of_lt_of_le (by norm_num) h
  have LL : 1e-18 ≤ L * L := le_trans (by norm_num) (mul_le_mul h h (by norm_num) L0.le)
  have q0 := mul_self_nonneg (v 0)
  have q1 := mul_self_nonneg (v 1)
  have q2 := mul_self_nonneg (v 2)
  have a0 := hR (v 0 * v 0)
  have a1 := hR (v 1 * v 1)
  have a2 := hR (v 2 * v 2)
  rw [abs_of_nonneg q0] at a0
  rw [abs_of_nonneg q1] at a1
  rw [abs_of_nonneg q2] at a2
  have b0 : 0 ≤ R (v 0 * v 0) := R.nonneg q0
  have b1 : 0 ≤ R (v 1 * v 1) := R.nonneg q1
  have b2 : 0 ≤ R (v 2 * v 2) := R.nonneg q2
  have a3 := hR (R (v 0 * v 0) + R (v 1 * v 1))
  rw [abs_of_nonneg (add_nonneg b0 b1)] at a3
  have b3 : 0 ≤ R (R (v 0 * v 0) + R (v 1 * v 1)) := R.nonneg (add_nonneg b0 b1)
  have a4 := hR (R (R (v 0 * v 0) + R (v 1 * v 1)) + R (v 2 * v 2))
  rw [abs_of_nonneg (add_nonneg b3 b2)] at a4
  have b4 : 0 ≤ R (R (R (v 0 * v 0) + R (v 1 * v 1)) + R (v 2 * v 2)) := R.nonneg (add_nonneg b3 b2)
  have hm : modulus R v = R (Real.sqrt (R (R (R (v 0 * v 0) + R (v 1 * v 1)) + R (v 2 * v 2)))) := rfl
  have hS : |R (R (R (v 0 * v 0) + R (v 1 * v 1)) + R (v 2 * v 2)) - L * L| ≤ 1.81e-7 * (L * L) := by
    clear hm
    generalize R (R (R (v 0 * v 0) + R (v 1 * v 1)) + R (v 2 * v 2)) = s4 at *
    generalize R (R (v 0 * v 0) + R (v 1 * v 1)) = s3 at *
    generalize R (v 0 * v 0) = s0 at *
    generalize R (v 1 * v 1) = s1 at *
    generalize R (v 2 * v 2) = s2 at *
    generalize v 0 * v 0 = t0 at *
    generalize v 1 * v 1 = t1 at *
    generalize v 2 * v 2 = t2 at *
    generalize L * L = Q at *
    clear un hL h
    rw [abs_le] at a0 a1 a2 a3 a4 ⊢
    norm_num at *
    constructor <;> linarith [a0.1, a0.2, a1.1, a1.2, a2.1, a2.2, a3.1, a3.2, a4.1, a4.2]
  generalize R (R (R (v 0 * v 0) + R (v 1 * v 1)) + R (v 2 * v 2)) = S at *
  have r1 := Real.sqrt_nonneg S
  have r2 := Real.mul_self_sqrt b4
  have r3 : |Real.sqrt S - L| ≤ 9.1e-8 * L := by
    have e3 : |Real.sqrt S - L| * (Real.sqrt S + L) = |S - L * L| := by
      rw [← abs_of_nonneg (add_nonneg r1 L0.le), ← abs_mul]
      congr 1
      nlinarith
    have e1 : |Real.sqrt S - L| * L ≤ 1.81e-7 * L * L := by
      have := mul_nonneg (abs_nonneg (Real.sqrt S - L)) r1
      nlinarith
    have e2 : |Real.sqrt S - L| ≤ 1.81e-7 * L := le_of_mul_le_mul_right e1 L0
    have e4 : 1.9999 * L ≤ Real.sqrt S + L := by
      have := (abs_le.1 e2).1
      norm_num at this ⊢; linarith
    have e5 := mul_le_mul_of_nonneg_left e4 (abs_nonneg (Real.sqrt S - L))
    have e6 : |Real.sqrt S - L| * L ≤ 9.1e-8 * L * L := by
      norm_num at e5 hS ⊢; nlinarith
    exact le_of_mul_le_mul_right e6 L0
  have r4 : |modulus R v - L| ≤ 1.52e-7 * L := by
    rw [hm]
    have := hR (Real.sqrt S)
    rw [abs_of_nonneg r1] at this
    have e0 := abs_sub_le (R (Real.sqrt S)) (Real.sqrt S) L
    have e1 := (abs_le.1 r3).2
    norm_num at *; linarith
  clear hm
  generalize modulus R v = φ at *
  refine ⟨r4.trans (mul_le_mul_of_nonneg_right (by norm_num) L0.le), fun i => ?_⟩
  have φ0 : 0.9999 * L ≤ φ := by
    have := (abs_le.1 r4).1
    norm_num at this ⊢; linarith
  have φp : 0 < φ := lt_of_lt_of_le (by positivity) φ0
  have u := un i
  have d1 : |v i / φ - v i / L| ≤ 1.53e-7 := by
    have e : v i / φ - v i / L = v i / L * ((L - φ) / φ) := by field_simp
    rw [e, abs_mul, abs_div (L - φ), abs_of_pos φp, abs_sub_comm]
    have d2 : |φ - L| / φ ≤ 1.53e-7 := by
      rw [div_le_iff₀ φp]
      norm_num at r4 φ0 ⊢; linarith
    exact (mul_le_mul u d2 (by positivity) zero_le_one).trans (by norm_num)
  exact hR.round (B := 1) d1 u (by norm_num)

private theorem nbound {a x e B : ℝ} (h : |a - x| ≤ e) (h' : |x| ≤ B) : Nb a x e B := ⟨h, h'⟩

/-- The parts of the matrix. -/
private theorem parts (R : Rounding binary32) {a b c A B C s w S W : ℝ} (ha : Nb a A 2.7e-7 1) (hb : Nb b B 2.7e-7 1) (hc : Nb c C 2.7e-7 1)
    (hs : Nb s S 2.04e-6 1) (hw : Nb w W 2.22e-6 2) :
    (|R (R (R (a * b) * w) + R (c * s)) - (A * B * W + C * S)| ≤ 6.3e-6) ∧ |R (R (R (a * b) * w) - R (c * s)) - (A * B * W - C * S)| ≤ 6.3e-6 := by
  have m1 : Nb (R (a * b)) (A * B) 6.18e-7 1 := R.single.nmul ha hb (by norm_num) (by norm_num)
  have m2 : Nb (R (R (a * b) * w)) (A * B * W) 3.66e-6 2 := R.single.nmul m1 hw (by norm_num) (by norm_num)
  have m3 : Nb (R (c * s)) (C * S) 2.4e-6 1 := R.single.nmul hc hs (by norm_num) (by norm_num)
  exact ⟨(R.single.nadd (C := 3) (g := 6.3e-6) m2 m3 (by norm_num) (by norm_num)).err,
    (R.single.nsub (C := 3) (g := 6.3e-6) m2 m3 (by norm_num) (by norm_num)).err⟩

private theorem diag (R : Rounding binary32) {a A c w C W : ℝ} (ha : Nb a A 2.7e-7 1) 
    (hc : Nb c C 2.04e-6 1) (hw : Nb w W 2.22e-6 2) : |R (R (R (a * a) * w) + c) - (A * A * W + C)| ≤ 6.3e-6 := by
  have m1 : Nb (R (a * a)) (A * A) 6.18e-7 1 := R.single.nmul ha ha (by norm_num) (by norm_num)
  have m2 : Nb (R (R (a * a) * w)) (A * A * W) 3.66e-6 2 := R.single.nmul m1 hw (by norm_num) (by norm_num)
  exact (R.single.nadd (C := 3) (g := 6.3e-6) m2 hc (by norm_num) (by norm_num)).err

/-- C131: in single precision `av2m` forms every element of the rotation matrix to 6.3e-6, for the zero vector and axial vectors
    of up to 7 rad. -/
theorem C131_av2m (R : Rounding binary32) (sn cs : ℝ → ℝ) (hs : ∀ a, |sn a - Real.sin a| ≤ 1.2e-7)
    (hc : ∀ a, |cs a - Real.cos a| ≤ 1.2e-7) (v : Vec) (h : v = 0 ∨ 1e-9 ≤ len v) (h7 : len v ≤ 7) (i j : Fin 3) :
    |Fp.av2m R sn cs v i j - Sla.dav2m v i j| ≤ 6.3e-6 := by
  rcases h with rfl | h
  · have e0 : R (Real.sqrt (R (R (R ((0 : Vec) 0 * (0 : Vec) 0) + R ((0 : Vec) 1 * (0 : Vec) 1)) + R ((0 : Vec) 2 * (0 : Vec) 2)))) = 0 := by simp
    have k : |R (cs 0) - 1| ≤ 6.3e-6 := by
      have h0 := hc 0
      rw [Real.cos_zero] at h0
      exact R.single.round (B := 1) h0 (by norm_num) (by norm_num)
    unfold Fp.av2m Sla.dav2m
    rw [e0]
    fin_cases i <;> fin_cases j <;> simp
    all_goals first | exact k | norm_num
  · obtain ⟨d1, d2⟩ := vn_near R v h
    have L0 : 0 < len v := lt_of_lt_of_le (by norm_num) h
    have ph : |modulus R v - len v| ≤ 1.12e-6 := d1.trans (by norm_num at h7 ⊢; linarith)
    have p0 : modulus R v ≠ 0 := by
      intro h0
      rw [h0, zero_sub, abs_neg, abs_of_pos L0] at d1
      norm_num at d1; linarith
    have un : ∀ i, |v i / len v| ≤ 1 := fun i => by
      rw [abs_div, abs_of_pos L0, div_le_one L0]; exact abs_le_len v i
    have n : ∀ i, Nb (R (v i / modulus R v)) (v i / len v) 2.7e-7 1 := fun i => ⟨(d2 i).trans (by norm_num), un i⟩
    have s : Nb (sn (modulus R v)) (Real.sin (len v)) 2.04e-6 1 :=
      (nbound ph le_rfl).sin hs (by norm_num)
    have c : Nb (cs (modulus R v)) (Real.cos (len v)) 2.04e-6 1 :=
      (nbound ph le_rfl).cos hc (by norm_num)
    have w : Nb (R (1 - cs (modulus R v))) (1 - Real.cos (len v)) 2.22e-6 2 :=
      R.single.nsub (Nb.self (by norm_num : |(1 : ℝ)| ≤ 1)) c (by norm_num) (by norm_num)
    have eL : Real.sqrt (v 0 * v 0 + v 1 * v 1 + v 2 * v 2) = len v := by
      simp [len, dotProduct, Fin.sum_univ_three]
    unfold Fp.av2m Sla.dav2m
    rw [show R (Real.sqrt (R (R (R (v 0 * v 0) + R (v 1 * v 1)) + R (v 2 * v 2)))) = modulus R v from rfl, eL, if_pos p0, if_pos p0, if_pos p0, if_pos L0.ne', if_pos L0.ne', if_pos L0.ne']
    have n0 := n 0
    have n1 := n 1
    have n2 := n 2
    fin_cases i <;> fin_cases j
    · exact diag R n0 c w
    · exact (parts R n0 n1 n2 s w).1
    · exact (parts R n0 n2 n1 s w).2
    · exact (parts R n0 n1 n2 s w).2
    · exact diag R n1 c w
    · exact (parts R n1 n2 n0 s w).1
    · exact (parts R n0 n2 n1 s w).1
    · exact (parts R n1 n2 n0 s w).2
    · exact diag R n2 c w

private theorem dir_parts (v : Vec) (h : 0 < len v) :
    let n := fun i => v i / len v
    (Sla.dav2m v 1 2 - Sla.dav2m v 2 1 = 2 * (n 0 * Real.sin (len v)) ∧ Sla.dav2m v 2 0 - Sla.dav2m v 0 2 = 2 * (n 1 * Real.sin (len v)) ∧
      Sla.dav2m v 0 1 - Sla.dav2m v 1 0 = 2 * (n 2 * Real.sin (len v))) ∧
    Sla.dav2m v 0 0 + Sla.dav2m v 1 1 + Sla.dav2m v 2 2 - 1 = 2 * Real.cos (len v) ∧ ∀ i j, |Sla.dav2m v i j| ≤ 1 := by
  intro n
  have eL : Real.sqrt (v 0 * v 0 + v 1 * v 1 + v 2 * v 2) = len v := by
    simp [len, dotProduct, Fin.sum_univ_three]
  have hn : n 0 * n 0 + n 1 * n 1 + n 2 * n 2 = 1 := by
    have : len v ^ 2 = v 0 * v 0 + v 1 * v 1 + v 2 * v 2 := by
      rw [← eL, Real.sq_sqrt (by nlinarith [mul_self_nonneg (v 0), mul_self_nonneg (v 1), mul_self_nonneg (v 2)])]
    simp only [n]
    field_simp
    linarith
  have e : Sla.dav2m v = ![![n 0 * n 0 * (1 - Real.cos (len v)) + Real.cos (len v), n 0 * n 1 * (1 - Real.cos (len v)) + n 2 * Real.sin (len v), n 0 * n 2 * (1 - Real.cos (len v)) - n 1 * Real.sin (len v)],
      ![n 0 * n 1 * (1 - Real.cos (len v)) - n 2 * Real.sin (len v), n 1 * n 1 * (1 - Real.cos (len v)) + Real.cos (len v), n 1 * n 2 * (1 - Real.cos (len v)) + n 0 * Real.sin (len v)],
      ![n 0 * n 2 * (1 - Real.cos (len v)) + n 1 * Real.sin (len v), n 1 * n 2 * (1 - Real.cos (len v)) - n 0 * Real.sin (len v), n 2 * n 2 * (1 - Real.cos (len v)) + Real.cos (len v)]] := by
    simp only [Sla.dav2m, eL, ne_eq, h.ne', not_false_eq_true, if_true]
    rfl
  refine ⟨⟨?_, ?_, ?_⟩, ?_, ?_⟩
  · rw [e]; simp; ring
  · rw [e]; simp; ring
  · rw [e]; simp; ring
  · rw [e]; simp
    linear_combination (1 - Real.cos (len v)) * hn
  · intro i j
    have hr := C21_rotation v
    have := abs_le_len (Sla.dav2m v *ᵥ Pi.single j 1) i
    rw [len_mulVec hr] at this
    have hl : len (Pi.single j (1 : ℝ)) = 1 := by fin_cases j <;> simp [len, dotProduct, Pi.single_apply]
    rw [hl] at this
    simpa using this

private theorem axis_angle (R : Rounding binary32) (at2 : ℝ → ℝ → ℝ) (ha : Atan2Near at2 3e-7) {φ s c S C : ℝ} (hs : s = Real.sin φ)
    (hc : c = Real.cos φ) (φ0 : 0 < φ) (hpi : φ < Real.pi) (hsin : 1e-2 ≤ s) (dS : |S - 2 * s| ≤ 2.46e-5) (dC : |C - 2 * c| ≤ 2.1e-5) :
    |at2 (R (S / 2)) (R (C / 2)) - φ| ≤ 2.7e-5 := by
  have sc : s * s + c * c = 1 := by rw [hs, hc]; nlinarith [Real.sin_sq_add_cos_sq φ]
  have s0 : 0 < s := lt_of_lt_of_le (by norm_num) hsin
  have s1 : s ≤ 1 := by rw [hs]; exact Real.sin_le_one φ
  have c1 : |c| ≤ 1 := by rw [hc]; exact Real.abs_cos_le_one φ
  have hS2 : |R (S / 2) - s| ≤ 1.26e-5 :=
    R.single.round (B := 1) (e := 1.23e-5) (by rw [show S / 2 - s = (S - 2 * s) / 2 by ring, abs_div]; norm_num at *; linarith)
      (by rw [abs_of_pos s0]; exact s1) (by norm_num)
  have hC2 : |R (C / 2) - c| ≤ 1.08e-5 :=
    R.single.round (B := 1) (e := 1.05e-5) (by rw [show C / 2 - c = (C - 2 * c) / 2 by ring, abs_div]; norm_num at *; linarith) c1 (by norm_num)
  have Sp : 0 < R (S / 2) := by
    have := abs_le.1 hS2
    norm_num at *; linarith
  have k1 := ha.1 (R (S / 2)) (R (C / 2)) (Or.inl Sp.ne')
  have k2 := fp_atan2_near (s := s) (c := c) (s' := R (S / 2)) (c' := R (C / 2)) (L := 1) (d := 1.68e-5) s0.le Sp.le one_pos
    (by rw [sc]; norm_num) (by norm_num) (by norm_num) (by
      have h1 := sq_le_sq' (abs_le.1 hS2).1 (abs_le.1 hS2).2
      have h2 := sq_le_sq' (abs_le.1 hC2).1 (abs_le.1 hC2).2
      norm_num at *; linarith)
  have k3 : atan2 s c = φ := atan2_unique one_pos (by linarith [Real.pi_pos]) hpi.le (by rw [hs]; ring) (by rw [hc]; ring)
  rw [k3, mul_one] at k2
  have k4 := Real.pi_lt_d2
  have k5 := abs_sub_le (at2 (R (S / 2)) (R (C / 2))) (atan2 (R (S / 2)) (R (C / 2))) φ
  generalize at2 (R (S / 2)) (R (C / 2)) = θ at *
  generalize atan2 (R (S / 2)) (R (C / 2)) = θ' at *
  norm_num at k1 k2 k4 k5 ⊢; linarith

private theorem axis_factor (R : Rounding binary32) {φ s S θ k : ℝ} (hsin : 1e-2 ≤ s) (s1 : s ≤ 1) (k1 : 1 ≤ k) (hφk : φ = k * s) (k4 : φ ≤ 3.15)
    (dS : |S - 2 * s| ≤ 2.46e-5) (dθ : |θ - φ| ≤ 2.7e-5) :
    |R (θ / S) - k / 2| * S ≤ 3.96e-5 * k ∧ |R (θ / S)| ≤ 0.51 * k := by
  have S1 := abs_le.1 dS
  have Sp' : 1.9e-2 ≤ S := by norm_num at S1 hsin ⊢; linarith
  have s0 : 0 < s := lt_of_lt_of_le (by norm_num) hsin
  have Sp0 : 0 < S := lt_of_lt_of_le (by norm_num) Sp'
  have φ0 : 0 < φ := by rw [hφk]; nlinarith
  have q1 : |θ / S - k / 2| * S ≤ 2.7e-5 + 1.23e-5 * k := by
    rw [← abs_of_pos Sp0, ← abs_mul, abs_of_pos Sp0, show (θ / S - k / 2) * S = (θ - φ) + k / 2 * (2 * s - S) by
      rw [hφk]; field_simp; ring]
    refine (abs_add_le _ _).trans ?_
    rw [abs_mul, abs_of_pos (by linarith : 0 < k / 2), abs_sub_comm (2 * s)]
    have := mul_le_mul_of_nonneg_left dS (by linarith : 0 ≤ k / 2)
    norm_num at this dθ ⊢; linarith
  have q2 : |R (θ / S) - θ / S| * S ≤ 6e-8 * 3.2 + 1e-30 := by
    have h1 := R.single (θ / S)
    have h2 : |θ / S| * S = |θ| := by rw [abs_div, abs_of_pos Sp0]; field_simp
    have h3 : |θ| ≤ 3.2 := by
      have := abs_sub_abs_le_abs_sub θ φ
      rw [abs_of_pos φ0] at this
      norm_num at this dθ k4 ⊢; linarith
    have h4 : S ≤ 3 := by norm_num at S1 ⊢; linarith
    have h5 := mul_le_mul_of_nonneg_right h1 Sp0.le
    have h6 : (6e-8 * |θ / S| + 1e-40) * S = 6e-8 * (|θ / S| * S) + 1e-40 * S := by ring
    rw [h6, h2] at h5
    norm_num at h3 h4 h5 ⊢; linarith
  generalize R (θ / S) = f at *
  have q3 : |f - k / 2| * S ≤ 3.96e-5 * k := by
    have h1 := abs_sub_le f (θ / S) (k / 2)
    have h2 := mul_le_mul_of_nonneg_right h1 Sp0.le
    rw [add_mul] at h2
    norm_num at q1 q2 h2 ⊢; linarith
  refine ⟨q3, ?_⟩
  have h1 : |f - k / 2| ≤ 0.01 * k := by
    have : |f - k / 2| * 1.9e-2 ≤ |f - k / 2| * S := mul_le_mul_of_nonneg_left Sp' (abs_nonneg _)
    norm_num at this q3 ⊢; linarith
  have h2 := abs_sub_abs_le_abs_sub f (k / 2)
  rw [abs_of_pos (by linarith : 0 < k / 2)] at h2
  norm_num at h1 h2 ⊢; linarith

private theorem axis_component (R : Rounding binary32) {w W f k S s v : ℝ} (k1 : 1 ≤ k) (hsin : 1e-2 ≤ s) (dS : |S - 2 * s| ≤ 2.46e-5)
    (wd : |w - W| ≤ 1.35e-5) (bW : |W| ≤ 2 * s) (q3 : |f - k / 2| * S ≤ 3.96e-5 * k) (q4 : |f| ≤ 0.51 * k) (e1 : v = W * (k / 2))
    (bv : |v| ≤ 3.15) : |R (w * f) - v| ≤ 5.4e-5 * k := by
  have S1 := abs_le.1 dS
  have h1 : |w * f - v| ≤ 4.8e-5 * k := by
    rw [e1, show w * f - W * (k / 2) = (w - W) * f + W * (f - k / 2) by ring]
    refine (abs_add_le _ _).trans ?_
    rw [abs_mul, abs_mul]
    have a1 := mul_le_mul wd q4 (abs_nonneg _) (by norm_num)
    have a2 : |W| * |f - k / 2| ≤ (1 + 2e-3) * (|f - k / 2| * S) := by
      have b1 : |W| ≤ (1 + 2e-3) * S := by norm_num at bW S1 hsin ⊢; linarith
      have := mul_le_mul_of_nonneg_right b1 (abs_nonneg (f - k / 2))
      linarith
    norm_num at a1 a2 q3 ⊢; linarith
  refine R.single.round h1 bv ?_
  norm_num; linarith

private theorem m2av_eq (R : Rounding binary32) (at2 : ℝ → ℝ → ℝ) (M : Mat) {w : Vec} {S C : ℝ}
    (hw : w = ![R (M 1 2 - M 2 1), R (M 2 0 - M 0 2), R (M 0 1 - M 1 0)]) (hS : S = modulus R w) (S0 : S ≠ 0)
    (hC : C = R (R (R (M 0 0 + M 1 1) + M 2 2) - 1)) (i : Fin 3) :
    Fp.m2av R at2 M i = R (w i * R (at2 (R (S / 2)) (R (C / 2)) / S)) := by
  rw [modulus, hw] at hS
  simp only [Matrix.cons_val_zero, Matrix.cons_val_one, Matrix.cons_val] at hS
  unfold Fp.m2av
  simp only [← hS, ← hC]
  rw [if_pos S0, hw]
  fin_cases i <;> rfl

/-- C131: in single precision `m2av` recovers the axial vector from a matrix whose elements are right to 6.6e-6 to 5.4e-5 times the
    ratio of the angle and its sine, for angles up to a half turn whose sine is at least a hundredth. -/
theorem C131_m2av (R : Rounding binary32) (at2 : ℝ → ℝ → ℝ) (ha : Atan2Near at2 3e-7) (v : Vec) (M : Mat)
    (hM : ∀ i j, |M i j - Sla.dav2m v i j| ≤ 6.6e-6) (hpi : len v < Real.pi) (hsin : 1e-2 ≤ Real.sin (len v)) (i : Fin 3) :
    |Fp.m2av R at2 M i - v i| ≤ 5.4e-5 * (len v / Real.sin (len v)) := by
  obtain ⟨φ, hφ⟩ : ∃ φ, φ = len v := ⟨_, rfl⟩
  have φ0 : 0 < φ := by
    rcases (len_nonneg v).lt_or_eq with h | h
    · rw [hφ]; exact h
    · rw [← h, Real.sin_zero] at hsin; norm_num at hsin
  obtain ⟨⟨x1, x2, x3⟩, x4, x5⟩ := dir_parts v (hφ ▸ φ0)
  rw [← hφ] at hpi hsin x1 x2 x3 x4 ⊢
  obtain ⟨s, hs⟩ : ∃ s, s = Real.sin φ := ⟨_, rfl⟩
  obtain ⟨c, hc⟩ : ∃ c, c = Real.cos φ := ⟨_, rfl⟩
  rw [← hs] at hsin x1 x2 x3 ⊢
  rw [← hc] at x4
  have sc : s * s + c * c = 1 := by rw [hs, hc]; nlinarith [Real.sin_sq_add_cos_sq φ]
  have s0 : 0 < s := lt_of_lt_of_le (by norm_num) hsin
  have s1 : s ≤ 1 := by rw [hs]; exact Real.sin_le_one φ
  have c1 : |c| ≤ 1 := by rw [hc]; exact Real.abs_cos_le_one φ
  have sφ : s ≤ φ := by rw [hs]; exact Real.sin_le φ0.le
  have un : ∀ i, |v i / φ| ≤ 1 := fun i => by
    rw [abs_div, abs_of_pos φ0, div_le_one φ0, hφ]; exact abs_le_len v i
  -- the vector that is twice the axis times the sine
  obtain ⟨w, hw⟩ : ∃ w : Vec, w = ![R (M 1 2 - M 2 1), R (M 2 0 - M 0 2), R (M 0 1 - M 1 0)] := ⟨_, rfl⟩
  obtain ⟨W, hW⟩ : ∃ W : Vec, W = fun i => 2 * (v i / φ * s) := ⟨_, rfl⟩
  have m : ∀ i j, Nb (M i j) (Sla.dav2m v i j) 6.6e-6 1 := fun i j => ⟨hM i j, x5 i j⟩
  have wd : ∀ i, |w i - W i| ≤ 1.35e-5 := by
    have k : ∀ i j i' j', |R (M i j - M i' j') - (Sla.dav2m v i j - Sla.dav2m v i' j')| ≤ 1.35e-5 := fun i j i' j' =>
      (R.single.nsub (C := 2) (m i j) (m i' j') (by norm_num) (by norm_num)).err
    rw [hw, hW]
    intro i
    fin_cases i
    · have := k 1 2 2 1; rwa [x1] at this
    · have := k 2 0 0 2; rwa [x2] at this
    · have := k 0 1 1 0; rwa [x3] at this
  have lW : len W = 2 * s := by
    have e : W = (2 * s / φ) • v := by rw [hW]; funext i; simp; ring
    rw [e, len_smul, abs_of_pos (by positivity), ← hφ]
    field_simp
  have lw : |len w - 2 * s| ≤ 2.37e-5 := by
    have h1 := len_le_of (v := w - W) (ε := 1.35e-5) wd
    have h2 := len_add_le (w - W) W
    have h3 := len_add_le (-(w - W)) w
    rw [sub_add_cancel] at h2
    rw [show -(w - W) + w = W by abel, len_neg] at h3
    rw [lW] at h2 h3
    have : Real.sqrt 3 ≤ 1.7321 := by rw [Real.sqrt_le_left (by norm_num)]; norm_num
    rw [abs_le]
    norm_num at *
    constructor <;> nlinarith
  have lw1 := abs_le.1 lw
  -- the modulus, the trace and the angle
  have big : 1e-9 ≤ len w := by
    norm_num at lw1 hsin ⊢; linarith
  obtain ⟨S, hS⟩ : ∃ S, S = modulus R w := ⟨_, rfl⟩
  have dS : |S - 2 * s| ≤ 2.46e-5 := by
    have h1 := (vn_near R w big).1
    rw [← hS] at h1
    have h2 := abs_sub_le S (len w) (2 * s)
    norm_num at h1 h2 lw lw1 s1 ⊢; linarith
  have S0 : S ≠ 0 := by
    intro h0
    rw [h0, zero_sub, abs_neg, abs_of_pos (by positivity)] at dS
    norm_num at dS hsin; linarith
  obtain ⟨C, hC⟩ : ∃ C, C = R (R (R (M 0 0 + M 1 1) + M 2 2) - 1) := ⟨_, rfl⟩
  have dC : |C - 2 * c| ≤ 2.1e-5 := by
    have t1 : Nb (R (M 0 0 + M 1 1)) _ 1.35e-5 2 := R.single.nadd (m 0 0) (m 1 1) (by norm_num) (by norm_num)
    have t2 : Nb (R (R (M 0 0 + M 1 1) + M 2 2)) _ 2.04e-5 3 := R.single.nadd t1 (m 2 2) (by norm_num) (by norm_num)
    have t3 := R.single.sub (B := 2) (g := 2.1e-5) t2.err (show |(1 : ℝ) - 1| ≤ 0 by simp) (by
      rw [x4, abs_mul]; norm_num; linarith) (by norm_num)
    rwa [x4, ← hC] at t3
  have dθ := axis_angle R at2 ha hs hc φ0 hpi hsin dS dC
  have k1 : 1 ≤ φ / s := by rw [le_div_iff₀ s0]; linarith
  have k4 : φ ≤ 3.15 := hpi.le.trans Real.pi_lt_d2.le
  obtain ⟨q3, q4⟩ := axis_factor R hsin s1 k1 (by field_simp) k4 dS dθ
  rw [m2av_eq R at2 M hw hS S0 hC i]
  exact axis_component R k1 hsin dS (wd i) (by rw [← lW]; exact abs_le_len W i) q3 q4 (by rw [hW]; field_simp)
    ((abs_le_len v i).trans (by rw [← hφ]; exact k4))

/-- C131: from an axial vector to the matrix and back in single precision. -/
theorem C131_round_trip (R : Rounding binary32) (sn cs : ℝ → ℝ) (at2 : ℝ → ℝ → ℝ) (hs : ∀ a, |sn a - Real.sin a| ≤ 1.2e-7)
    (hc : ∀ a, |cs a - Real.cos a| ≤ 1.2e-7) (ha : Atan2Near at2 3e-7) (v : Vec) (hpi : len v < Real.pi) (hsin : 1e-2 ≤ Real.sin (len v))
    (i : Fin 3) : |Fp.m2av R at2 (Fp.av2m R sn cs v) i - v i| ≤ 5.4e-5 * (len v / Real.sin (len v)) := by
  refine C131_m2av R at2 ha v _ (fun i j => (C131_av2m R sn cs hs hc v (Or.inr ?_) (by linarith [Real.pi_lt_four]) i j).trans (by norm_num))
    hpi hsin i
  have h3 := Real.sin_le (len_nonneg v)
  norm_num at hsin h3 ⊢; linarith

/-- A rotation by one radian about the third axis meets the hypotheses. -/
example : ∃ v : Vec, len v = 1 ∧ len v < Real.pi ∧ 1e-2 ≤ Real.sin (len v) ∧ (∀ a, |Real.sin a - Real.sin a| ≤ 1.2e-7) ∧ Atan2Near atan2 3e-7 := by
  have hl : len ![0, 0, 1] = 1 := by simp [len, dotProduct, Fin.sum_univ_three]
  refine ⟨![0, 0, 1], hl, by rw [hl]; linarith [Real.pi_gt_three], ?_, by intro a; norm_num, ?_, ?_⟩
  · rw [hl]
    have := Real.sin_gt_sub_cube one_pos
    norm_num at this ⊢; linarith
  · intro y x _; norm_num
  · intro x hx
    left
    have : atan2 0 x = Real.pi := Complex.arg_ofReal_of_neg hx
    rw [this]; norm_num

end Sla.Props
