import Verif.Model.FpTangentPoint
import Verif.Lemmas.FpAltaz

/-
Running error bounds for the tangent point of a star, generated, and the polar angle of a point of the plane that is slightly displaced.
-/
namespace Sla.Fp

variable {D : ℝ → ℝ}

/-- The polar angle of a displaced point, up to whole turns. -/
theorem atan2_turn_near {x y x' y' L d : ℝ} (hL : 0 < L) (hl : L ^ 2 ≤ x * x + y * y) (d0 : 0 ≤ d) (hd : (x' - x) ^ 2 + (y' - y) ^ 2 ≤ d ^ 2)
    (hdL : d < L) : ∃ k : ℤ, |atan2 y' x' - (atan2 y x + 2 * Real.pi * k)| ≤ Real.pi / 2 * (d / L) := by
  have hpi := Real.pi_pos
  obtain ⟨p, hp⟩ : ∃ p, p = Real.sqrt (x * x + y * y) := ⟨_, rfl⟩
  obtain ⟨p', hp'⟩ : ∃ p', p' = Real.sqrt (x' * x' + y' * y') := ⟨_, rfl⟩
  have c1 := polar_cos y x
  have s1 := polar_sin y x
  have c2 := polar_cos y' x'
  have s2 := polar_sin y' x'
  rw [← hp] at c1 s1
  rw [← hp'] at c2 s2
  have p0 : 0 ≤ p := by rw [hp]; exact Real.sqrt_nonneg _
  have p0' : 0 ≤ p' := by rw [hp']; exact Real.sqrt_nonneg _
  have hLp : L ≤ p := by rw [hp]; exact Real.le_sqrt_of_sq_le hl
  generalize atan2 y' x' = b at *
  generalize atan2 y x = a at *
  obtain ⟨k, hk⟩ : ∃ k : ℤ, k = round ((b - a) / (2 * Real.pi)) := ⟨_, rfl⟩
  refine ⟨k, ?_⟩
  obtain ⟨t, ht⟩ : ∃ t, t = b - (a + 2 * Real.pi * k) := ⟨_, rfl⟩
  rw [← ht]
  have htp : |t| ≤ Real.pi := by
    have h1 := abs_sub_round ((b - a) / (2 * Real.pi))
    rw [← hk] at h1
    have e : t = ((b - a) / (2 * Real.pi) - k) * (2 * Real.pi) := by rw [ht]; field_simp; ring
    rw [e, abs_mul, abs_of_pos (by positivity : 0 < 2 * Real.pi)]
    nlinarith
  have hcb : Real.cos b = Real.cos (a + t) := by
    rw [show b = a + t + k * (2 * Real.pi) by rw [ht]; ring, Real.cos_add_int_mul_two_pi]
  have hsb : Real.sin b = Real.sin (a + t) := by
    rw [show b = a + t + k * (2 * Real.pi) by rw [ht]; ring, Real.sin_add_int_mul_two_pi]
  have key : p ^ 2 + p' ^ 2 - 2 * p * p' * Real.cos t ≤ d ^ 2 := by
    rw [← c1, ← c2, ← s1, ← s2, hcb, hsb] at hd
    rw [Real.cos_add, Real.sin_add] at hd
    have q1 := Real.sin_sq_add_cos_sq a
    have q2 := Real.sin_sq_add_cos_sq t
    refine le_trans (le_of_eq ?_) hd
    linear_combination (-p ^ 2 + 2 * p * p' * Real.cos t - p' ^ 2) * q1 - p' ^ 2 * (Real.cos a ^ 2 + Real.sin a ^ 2) * q2 + p' ^ 2 * 0
  have hcos : 0 < Real.cos t := by
    by_contra hn
    push Not at hn
    have : p * p' * Real.cos t ≤ 0 := mul_nonpos_of_nonneg_of_nonpos (mul_nonneg p0 p0') hn
    nlinarith [sq_nonneg p']
  have hsin : |Real.sin t| ≤ d / L := by
    rw [le_div_iff₀ hL]
    have h1 : (p * Real.sin t) ^ 2 ≤ d ^ 2 := by
      have := Real.sin_sq_add_cos_sq t
      have e : p ^ 2 + p' ^ 2 - 2 * p * p' * Real.cos t = (p * Real.sin t) ^ 2 + (p' - p * Real.cos t) ^ 2 := by
        linear_combination (-p ^ 2) * this
      nlinarith [sq_nonneg (p' - p * Real.cos t)]
    have h2 := abs_le_of_sq_le_sq h1 d0
    rw [abs_mul, abs_of_nonneg p0] at h2
    have := mul_le_mul_of_nonneg_right hLp (abs_nonneg (Real.sin t))
    linarith
  have hhalf : |t| ≤ Real.pi / 2 := by
    by_contra hn
    push Not at hn
    have := Real.cos_nonpos_of_pi_div_two_le_of_le hn.le (by linarith : |t| ≤ Real.pi + Real.pi / 2)
    rw [Real.cos_abs] at this
    linarith
  have hj := Real.mul_le_sin (abs_nonneg t) hhalf
  have hsa : Real.sin |t| = |Real.sin t| := by
    rcases abs_cases t with ⟨e, h⟩ | ⟨e, h⟩
    · rw [e, abs_of_nonneg (Real.sin_nonneg_of_nonneg_of_le_pi h (by linarith [abs_le.1 htp]))]
    · rw [e, Real.sin_neg, abs_of_nonpos]
      have := Real.sin_nonneg_of_nonneg_of_le_pi (x := -t) (by linarith) (by linarith [(abs_le.1 htp).1])
      rw [Real.sin_neg] at this; linarith
  rw [hsa] at hj
  have : |t| = Real.pi / 2 * (2 / Real.pi * |t|) := by field_simp
  rw [this]
  exact mul_le_mul_of_nonneg_left (hj.trans hsin) (by positivity)

set_option maxHeartbeats 1000000 in
/-- The quantities of `dtps2c`; `r` is the square root that decides whether there is a solution. -/
theorem dtps2c_near (hD : Dbl D) {xi eta sd' sd cd' cd r r2' sf' f : ℝ} (hx : |xi| ≤ 1) (he : |eta| ≤ 1)
    (hsd : Nb sd' sd 2e-16 1) (hcd : Nb cd' cd 2e-16 1) (hf' : f = Real.sqrt (1 + xi * xi + eta * eta))
    (e1 : sf' = D (sd' * D (Real.sqrt (D (D (1 + D (xi * xi)) + D (eta * eta))))))
    (e2 : r2' = D (D (D (cd' * cd') * D (1 + D (eta * eta))) - D (D (sd' * sd') * D (xi * xi)))) :
    |r2' - (cd * cd * (1 + eta * eta) - sd * sd * (xi * xi))| ≤ 2.78e-15 ∧ |sf' - sd * f| ≤ 1.62e-15 ∧
    (r * r = cd * cd * (1 + eta * eta) - sd * sd * (xi * xi) → 1e-7 ≤ r → 0 < r2' ∧
      |D (Real.sqrt r2') - r| ≤ 3.12e-15 / r ∧
      |D (sf' - D (eta * D (Real.sqrt r2'))) - (sd * f - eta * r)| ≤ 7.46e-15 / r ∧
      |D (D (sf' * eta) + D (Real.sqrt r2')) - (sd * f * eta + r)| ≤ 7.54e-15 / r ∧
      |D (sf' - D (eta * -D (Real.sqrt r2'))) - (sd * f - eta * -r)| ≤ 7.46e-15 / r ∧
      |D (D (sf' * eta) + -D (Real.sqrt r2')) - (sd * f * eta + -r)| ≤ 7.54e-15 / r) := by
  have nx : Nb xi xi 0 1 := ⟨by simp, hx⟩
  have ne : Nb eta eta 0 1 := ⟨by simp, he⟩
  have n1_ : Nb (1 : ℝ) 1 0 1 := ⟨by simp, by norm_num⟩
  have n1 : Nb _ _ 1.21e-16 1 := hD.nmul nx nx (by norm_num) (by norm_num)
  have n2 : Nb _ _ 1.21e-16 1 := hD.nmul ne ne (by norm_num) (by norm_num)
  have n3 : Nb _ _ 3.62e-16 2 := hD.nadd n1_ n1 (by norm_num) (by norm_num)
  have w : Nb _ _ 8.44e-16 3 := hD.nadd n3 n2 (by norm_num) (by norm_num)
  have n4 : Nb _ _ 5.21e-16 1 := hD.nmul hcd hcd (by norm_num) (by norm_num)
  have n5 : Nb _ _ 3.62e-16 2 := hD.nadd n1_ n2 (by norm_num) (by norm_num)
  have n6 : Nb _ _ 1.65e-15 2 := hD.nmul n4 n5 (by norm_num) (by norm_num)
  have n7 : Nb _ _ 5.21e-16 1 := hD.nmul hsd hsd (by norm_num) (by norm_num)
  have n8 : Nb _ _ 7.63e-16 1 := hD.nmul n7 n1 (by norm_num) (by norm_num)
  have r2 : Nb _ _ 2.78e-15 3 := hD.nsub n6 n8 (by norm_num) (by norm_num)
  have x0 := mul_self_nonneg xi
  have y0 := mul_self_nonneg eta
  have xx : xi * xi ≤ 1 := by nlinarith [abs_mul_abs_self xi, abs_nonneg xi]
  have yy : eta * eta ≤ 1 := by nlinarith [abs_mul_abs_self eta, abs_nonneg eta]
  have f0 : 0 ≤ f := by rw [hf']; exact Real.sqrt_nonneg _
  have ff : f * f = 1 + xi * xi + eta * eta := by rw [hf', Real.mul_self_sqrt (by positivity)]
  have f1 : 1 ≤ f := by rw [hf', Real.one_le_sqrt]; linarith
  have f2 : f ≤ 1.7321 := by
    rw [hf']; refine Real.sqrt_le_iff.2 ⟨by norm_num, ?_⟩
    norm_num at xx yy ⊢; linarith
  have hf : Nb (D (Real.sqrt (D (D (1 + D (xi * xi)) + D (eta * eta))))) f 1.06e-15 1.7321 := by
    have h1 := w.err
    rw [← ff] at h1
    generalize D (D (1 + D (xi * xi)) + D (eta * eta)) = W at *
    have hW : 0 ≤ W := by
      have := (abs_le.1 h1).1
      norm_num at this ⊢; nlinarith
    have q1 := Real.sqrt_nonneg W
    have q2 := Real.mul_self_sqrt hW
    have h3 : |Real.sqrt W - f| ≤ 8.44e-16 := by
      have q3 : |Real.sqrt W - f| * (Real.sqrt W + f) = |W - f * f| := by
        rw [← abs_of_nonneg (add_nonneg q1 f0), ← abs_mul]
        congr 1
        nlinarith
      have := mul_nonneg (abs_nonneg (Real.sqrt W - f)) q1
      have := mul_le_mul_of_nonneg_left f1 (abs_nonneg (Real.sqrt W - f))
      nlinarith
    exact hD.nround ⟨h3, by rw [abs_of_nonneg f0]; exact f2⟩ le_rfl (by norm_num)
  have sf : Nb _ _ 1.62e-15 1.733 := hD.nmul hsd hf (by norm_num) (by norm_num)
  rw [← e1] at sf
  rw [← e2] at r2
  refine ⟨r2.err, sf.err, fun hrr hr0 => ?_⟩
  have h2 := r2.err
  rw [← hrr] at h2
  have sfb : |sd * f| ≤ 1.733 := by
    have := sf.bd
    norm_num at this ⊢; linarith
  have sfe := sf.err
  clear r2 sf w hf
  have r0 : 0 < r := lt_of_lt_of_le (by norm_num) hr0
  have rle : r ≤ 1.4143 := by
    have h3 : |cd| * |cd| ≤ 1 := by nlinarith [hcd.bd, abs_nonneg cd]
    rw [abs_mul_abs_self] at h3
    have h4 : 0 ≤ sd * sd * (xi * xi) := mul_nonneg (mul_self_nonneg _) x0
    have h5 : cd * cd * (1 + eta * eta) ≤ 1 * 2 := mul_le_mul h3 (by linarith) (by linarith) (by norm_num)
    have h6 : r ^ 2 ≤ 1.4143 ^ 2 := by
      rw [sq, hrr]; norm_num at h5 ⊢; linarith
    exact (le_abs_self r).trans (abs_le_of_sq_le_sq h6 (by norm_num))
  have rr0 : 1e-14 ≤ r * r := le_trans (by norm_num) (mul_le_mul hr0 hr0 (by norm_num) r0.le)
  have r2p : 0 < r2' := by
    have := (abs_le.1 h2).1
    norm_num at this rr0 ⊢; linarith
  obtain ⟨κ, ek⟩ : ∃ κ, κ = 2e-15 / r := ⟨_, rfl⟩
  have hk : Kap κ := by
    rw [ek]
    constructor
    · rw [le_div_iff₀ r0]; norm_num at rle ⊢; linarith
    · rw [div_le_iff₀ r0]; norm_num at hr0 ⊢; linarith
  have κ0 : 0 ≤ κ := le_trans (by norm_num) hk.1
  have k15 := hk.1
  have hP := hD.prec
  have l1 : (1e-30 : ℝ) ≤ 1 := by norm_num
  have u11 : (1 : ℝ) * 1 ≤ 1 := by norm_num
  have hsq : |Real.sqrt r2' - r| ≤ 1.39 * κ * 1 := by
    have q1 := Real.sqrt_nonneg r2'
    have q2 := Real.mul_self_sqrt r2p.le
    have q3 : |Real.sqrt r2' - r| * (Real.sqrt r2' + r) = |r2' - r * r| := by
      rw [← abs_of_nonneg (add_nonneg q1 r0.le), ← abs_mul]
      congr 1
      nlinarith
    have q5 : |Real.sqrt r2' - r| * r ≤ 2.78e-15 := by
      have := mul_nonneg (abs_nonneg (Real.sqrt r2' - r)) q1
      nlinarith
    rw [ek, mul_one, mul_div_assoc', le_div_iff₀ r0]
    refine q5.trans (by norm_num)
  have kr : Nb (D (Real.sqrt r2')) r (1.56 * κ * 1) (1.4143 * 1) :=
    hk.rnd hP ⟨hsq, by rw [mul_one, abs_of_pos r0]; exact rle⟩ (by norm_num) (by norm_num) l1 (by norm_num)
  have ksf : Nb sf' (sd * f) (1.62 * κ * 1) (1.733 * 1) :=
    ⟨sfe.trans (by norm_num at k15 ⊢; linarith), by rw [mul_one]; exact sfb⟩
  have ke : Nb eta eta (0 * κ * 1) (1 * 1) := ⟨by simp, by rw [mul_one]; exact he⟩
  have n1 : Nb _ _ (1.73 * κ * 1) (1.415 * 1) := (hk.mul hP ke kr u11 zero_le_one zero_le_one (by norm_num) l1 (by norm_num)).mono le_rfl (mul_le_mul_of_nonneg_right (by norm_num) zero_le_one)
  have ks : Nb _ _ (3.73 * κ * 1) (3.148 * 1) := (hk.sub hP ksf n1 (by norm_num) l1 (by norm_num)).mono le_rfl (mul_le_mul_of_nonneg_right (by norm_num) zero_le_one)
  have n2 : Nb _ _ (1.83 * κ * 1) (1.733 * 1) := (hk.mul hP ksf ke u11 zero_le_one zero_le_one (by norm_num) l1 (by norm_num)).mono le_rfl (mul_le_mul_of_nonneg_right (by norm_num) zero_le_one)
  have kc : Nb _ _ (3.77 * κ * 1) (3.148 * 1) := (hk.add hP n2 kr (by norm_num) l1 (by norm_num)).mono le_rfl (mul_le_mul_of_nonneg_right (by norm_num) zero_le_one)
  have n3 : Nb _ _ (1.73 * κ * 1) (1.415 * 1) := (hk.mul hP ke kr.neg u11 zero_le_one zero_le_one (by norm_num) l1 (by norm_num)).mono le_rfl (mul_le_mul_of_nonneg_right (by norm_num) zero_le_one)
  have ks2 : Nb _ _ (3.73 * κ * 1) (3.148 * 1) := (hk.sub hP ksf n3 (by norm_num) l1 (by norm_num)).mono le_rfl (mul_le_mul_of_nonneg_right (by norm_num) zero_le_one)
  have n4 : Nb _ _ (1.83 * κ * 1) (1.733 * 1) := (hk.mul hP ksf ke u11 zero_le_one zero_le_one (by norm_num) l1 (by norm_num)).mono le_rfl (mul_le_mul_of_nonneg_right (by norm_num) zero_le_one)
  have kc2 : Nb _ _ (3.77 * κ * 1) (3.148 * 1) := (hk.add hP n4 kr.neg (by norm_num) l1 (by norm_num)).mono le_rfl (mul_le_mul_of_nonneg_right (by norm_num) zero_le_one)
  have fin : ∀ e : ℝ, e * κ * 1 = e * 2e-15 / r := fun e => by rw [ek]; ring
  refine ⟨r2p, ?_, ?_, ?_, ?_, ?_⟩
  · refine (kr.err.trans_eq (fin _)).trans (div_le_div_of_nonneg_right (by norm_num) r0.le)
  · refine (ks.err.trans_eq (fin _)).trans (div_le_div_of_nonneg_right (by norm_num) r0.le)
  · refine (kc.err.trans_eq (fin _)).trans (div_le_div_of_nonneg_right (by norm_num) r0.le)
  · refine (ks2.err.trans_eq (fin _)).trans (div_le_div_of_nonneg_right (by norm_num) r0.le)
  · refine (kc2.err.trans_eq (fin _)).trans (div_le_div_of_nonneg_right (by norm_num) r0.le)

end Sla.Fp
