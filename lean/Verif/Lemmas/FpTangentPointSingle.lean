import Verif.Lemmas.FpTangentPoint

/-
Running error bounds for the tangent point of a star in single precision.
-/
namespace Sla.Fp

variable {D : ℝ → ℝ}

set_option maxHeartbeats 1000000 in
/-- The quantities of `tps2c`; `r` is the square root that decides whether there is a solution. -/
theorem tps2c_near (hD : Single D) {xi eta sd' sd cd' cd r r2' sf' f : ℝ} (hx : |xi| ≤ 1) (he : |eta| ≤ 1)
    (hsd : Nb sd' sd 1.2e-7 1) (hcd : Nb cd' cd 1.2e-7 1) (hf' : f = Real.sqrt (1 + xi * xi + eta * eta))
    (e1 : sf' = D (sd' * D (Real.sqrt (D (D (1 + D (xi * xi)) + D (eta * eta))))))
    (e2 : r2' = D (D (D (cd' * cd') * D (1 + D (eta * eta))) - D (D (sd' * sd') * D (xi * xi)))) :
    |r2' - (cd * cd * (1 + eta * eta) - sd * sd * (xi * xi))| ≤ 1.668e-6 ∧ |sf' - sd * f| ≤ 9.72e-7 ∧
    (r * r = cd * cd * (1 + eta * eta) - sd * sd * (xi * xi) → 1e-2 ≤ r → 0 < r2' ∧
      |D (Real.sqrt r2') - r| ≤ 1.872e-6 / r ∧
      |D (sf' - D (eta * D (Real.sqrt r2'))) - (sd * f - eta * r)| ≤ 4.476e-6 / r ∧
      |D (D (sf' * eta) + D (Real.sqrt r2')) - (sd * f * eta + r)| ≤ 4.524e-6 / r ∧
      |D (sf' - D (eta * -D (Real.sqrt r2'))) - (sd * f - eta * -r)| ≤ 4.476e-6 / r ∧
      |D (D (sf' * eta) + -D (Real.sqrt r2')) - (sd * f * eta + -r)| ≤ 4.524e-6 / r) := by
  have nx : Nb xi xi 0 1 := ⟨by simp, hx⟩
  have ne : Nb eta eta 0 1 := ⟨by simp, he⟩
  have n1_ : Nb (1 : ℝ) 1 0 1 := ⟨by simp, by norm_num⟩
  have n1 : Nb _ _ 7.26e-8 1 := hD.nmul nx nx (by norm_num) (by norm_num)
  have n2 : Nb _ _ 7.26e-8 1 := hD.nmul ne ne (by norm_num) (by norm_num)
  have n3 : Nb _ _ 2.172e-7 2 := hD.nadd n1_ n1 (by norm_num) (by norm_num)
  have w : Nb _ _ 5.064e-7 3 := hD.nadd n3 n2 (by norm_num) (by norm_num)
  have n4 : Nb _ _ 3.126e-7 1 := hD.nmul hcd hcd (by norm_num) (by norm_num)
  have n5 : Nb _ _ 2.172e-7 2 := hD.nadd n1_ n2 (by norm_num) (by norm_num)
  have n6 : Nb _ _ 9.9e-7 2 := hD.nmul n4 n5 (by norm_num) (by norm_num)
  have n7 : Nb _ _ 3.126e-7 1 := hD.nmul hsd hsd (by norm_num) (by norm_num)
  have n8 : Nb _ _ 4.578e-7 1 := hD.nmul n7 n1 (by norm_num) (by norm_num)
  have r2 : Nb _ _ 1.668e-6 3 := hD.nsub n6 n8 (by norm_num) (by norm_num)
  have x0 := mul_self_nonneg xi
  have y0 := mul_self_nonneg eta
  have xx : xi * xi ≤ 1 := by nlinarith [abs_mul_abs_self xi, abs_nonneg xi]
  have yy : eta * eta ≤ 1 := by nlinarith [abs_mul_abs_self eta, abs_nonneg eta]
  have f0 : 0 ≤ f := by rw [hf']; exact Real.sqrt_nonneg _
  have ff : f * f = 1 + xi * xi + eta * eta := by rw [hf', Real.mul_self_sqrt (by positivity)]
  have f1 : 1 ≤ f := by rw [hf', Real.one_le_sqrt]; linarith
  have f2 : f ≤ 1.7321 := by
    rw [hf']; refine Real.sqrt_le_iff.2 ⟨by norm_num, ?_⟩
    norm_num at xx yy ⊢; linarith
  have hf : Nb (D (Real.sqrt (D (D (1 + D (xi * xi)) + D (eta * eta))))) f 6.36e-7 1.7321 := by
    have h1 := w.err
    rw [← ff] at h1
    generalize D (D (1 + D (xi * xi)) + D (eta * eta)) = W at *
    have hW : 0 ≤ W := by
      have := (abs_le.1 h1).1
      norm_num at this ⊢; nlinarith
    have q1 := Real.sqrt_nonneg W
    have q2 := Real.mul_self_sqrt hW
    have h3 : |Real.sqrt W - f| ≤ 5.064e-7 := by
      have q3 : |Real.sqrt W - f| * (Real.sqrt W + f) = |W - f * f| := by
        rw [← abs_of_nonneg (add_nonneg q1 f0), ← abs_mul]
        congr 1
        nlinarith
      have := mul_nonneg (abs_nonneg (Real.sqrt W - f)) q1
      have := mul_le_mul_of_nonneg_left f1 (abs_nonneg (Real.sqrt W - f))
      nlinarith
    exact hD.nround ⟨h3, by rw [abs_of_nonneg f0]; exact f2⟩ le_rfl (by norm_num)
  have sf : Nb _ _ 9.72e-7 1.733 := hD.nmul hsd hf (by norm_num) (by norm_num)
  rw [← e1] at sf
  rw [← e2] at r2
  refine ⟨r2.err, sf.err, fun hrr hr0 => ?_⟩
  have h2 := r2.err
  rw [← hrr] at h2
  have sfb : |sd * f| ≤ 1.733 := by
    have := sf.bd
    norm_num at this ⊢; linarith
  have sfe := sf.err
  clear r2 sf w hf
  have r0 : 0 < r := lt_of_lt_of_le (by norm_num) hr0
  have rle : r ≤ 1.4143 := by
    have h3 : |cd| * |cd| ≤ 1 := by nlinarith [hcd.bd, abs_nonneg cd]
    rw [abs_mul_abs_self] at h3
    have h4 : 0 ≤ sd * sd * (xi * xi) := mul_nonneg (mul_self_nonneg _) x0
    have h5 : cd * cd * (1 + eta * eta) ≤ 1 * 2 := mul_le_mul h3 (by linarith) (by linarith) (by norm_num)
    have h6 : r ^ 2 ≤ 1.4143 ^ 2 := by
      rw [sq, hrr]; norm_num at h5 ⊢; linarith
    exact (le_abs_self r).trans (abs_le_of_sq_le_sq h6 (by norm_num))
  have rr0 : 1e-4 ≤ r * r := le_trans (by norm_num) (mul_le_mul hr0 hr0 (by norm_num) r0.le)
  have r2p : 0 < r2' := by
    have := (abs_le.1 h2).1
    norm_num at this rr0 ⊢; linarith
  obtain ⟨κ, ek⟩ : ∃ κ, κ = 1.2e-6 / r := ⟨_, rfl⟩
  have k1 : 8.4e-7 ≤ κ := by rw [ek, le_div_iff₀ r0]; norm_num at rle ⊢; linarith
  have k2 : κ ≤ 1.2e-4 := by rw [ek, div_le_iff₀ r0]; norm_num at hr0 ⊢; linarith
  have κ0 : 0 ≤ κ := le_trans (by norm_num) k1
  have hsq : |Real.sqrt r2' - r| ≤ 1.39 * κ := by
    have q1 := Real.sqrt_nonneg r2'
    have q2 := Real.mul_self_sqrt r2p.le
    have q3 : |Real.sqrt r2' - r| * (Real.sqrt r2' + r) = |r2' - r * r| := by
      rw [← abs_of_nonneg (add_nonneg q1 r0.le), ← abs_mul]
      congr 1
      nlinarith
    have q5 : |Real.sqrt r2' - r| * r ≤ 1.668e-6 := by
      have := mul_nonneg (abs_nonneg (Real.sqrt r2' - r)) q1
      nlinarith
    rw [ek, mul_div_assoc', le_div_iff₀ r0]
    refine q5.trans (by norm_num)
  have kr : Nb (D (Real.sqrt r2')) r (1.56 * κ) 1.4143 :=
    hD.nround ⟨hsq, by rw [abs_of_pos r0]; exact rle⟩ le_rfl (by norm_num at k1 k2 ⊢; linarith)
  have ksf : Nb sf' (sd * f) (1.62 * κ) 1.733 :=
    ⟨sfe.trans (by norm_num at k1 ⊢; linarith), sfb⟩
  have ke : Nb eta eta 0 1 := ⟨by simp, he⟩
  have n1 : Nb _ _ (1.73 * κ) 1.415 := hD.nmul ke kr (by norm_num) (by norm_num at k1 k2 ⊢; linarith)
  have ks : Nb _ _ (3.73 * κ) 3.148 := hD.nsub ksf n1 (by norm_num) (by norm_num at k1 k2 ⊢; linarith)
  have n2 : Nb _ _ (1.83 * κ) 1.733 := hD.nmul ksf ke (by norm_num) (by norm_num at k1 k2 ⊢; linarith)
  have kc : Nb _ _ (3.77 * κ) 3.148 := hD.nadd n2 kr (by norm_num) (by norm_num at k1 k2 ⊢; linarith)
  have n3 : Nb _ _ (1.73 * κ) 1.415 := hD.nmul ke kr.neg (by norm_num) (by norm_num at k1 k2 ⊢; linarith)
  have ks2 : Nb _ _ (3.73 * κ) 3.148 := hD.nsub ksf n3 (by norm_num) (by norm_num at k1 k2 ⊢; linarith)
  have n4 : Nb _ _ (1.83 * κ) 1.733 := hD.nmul ksf ke (by norm_num) (by norm_num at k1 k2 ⊢; linarith)
  have kc2 : Nb _ _ (3.77 * κ) 3.148 := hD.nadd n4 kr.neg (by norm_num) (by norm_num at k1 k2 ⊢; linarith)
  have fin : ∀ e : ℝ, e * κ = e * 1.2e-6 / r := fun e => by rw [ek]; ring
  refine ⟨r2p, ?_, ?_, ?_, ?_, ?_⟩
  · refine (kr.err.trans_eq (fin _)).trans (div_le_div_of_nonneg_right (by norm_num) r0.le)
  · refine (ks.err.trans_eq (fin _)).trans (div_le_div_of_nonneg_right (by norm_num) r0.le)
  · refine (kc.err.trans_eq (fin _)).trans (div_le_div_of_nonneg_right (by norm_num) r0.le)
  · refine (ks2.err.trans_eq (fin _)).trans (div_le_div_of_nonneg_right (by norm_num) r0.le)
  · refine (kc2.err.trans_eq (fin _)).trans (div_le_div_of_nonneg_right (by norm_num) r0.le)

end Sla.Fp
