import Verif.Model.FpCode
import Verif.Lemmas.Fp
import Verif.Lemmas.FpVec32
import Verif.Props.FpVectors
import Verif.Props.FpRotation
import Verif.Props.FpSeparation

/-
Property theorems C91: vectors, matrices and separations in single precision.
-/
namespace Sla.Props
open Sla.Fp Sla.Spec Matrix

private theorem eps32 : (2 : ℝ) ^ (-(binary32.prec : ℤ)) = 1 / 2 ^ 24 := by norm_num [binary32]

private theorem eta32 : (2 : ℝ) ^ (binary32.emin - 1) = 2 ^ (-150 : ℤ) := rfl

/-- Computed sum of squares. -/
private theorem sumsq_near (R : Rounding binary32) (v : Vec) (S : ℝ) (hS : S = v 0 * v 0 + v 1 * v 1 + v 2 * v 2)
    (hS0 : (2 : ℝ) ^ (-100 : ℤ) ≤ S) :
    |Fp.acc3 R (fun i => R (v i * v i)) - S| ≤ 3.1 / 2 ^ 24 * S := by
  obtain ⟨η, hη⟩ : ∃ η : ℝ, η = 2 ^ (-150 : ℤ) := ⟨_, rfl⟩
  have hη0 : 0 < η := by rw [hη]; exact two_zpow_pos _
  have hηS : η ≤ 1 / (2 ^ 49 * 2) * S := by
    have : η = 1 / (2 ^ 49 * 2) * 2 ^ (-100 : ℤ) := by
      rw [hη, show (-150 : ℤ) = -50 + -100 by norm_num, zpow_split]; norm_num
    rw [this]; exact mul_le_mul_of_nonneg_left hS0 (by norm_num)
  have err : ∀ x : ℝ, 0 ≤ x → |x - R x| ≤ 1 / 2 ^ 24 * x + η := by
    intro x hx
    have := R.error_le x
    rwa [eps32, eta32, ← hη, abs_of_nonneg hx] at this
  have q : ∀ x : ℝ, 0 ≤ R (x * x) := fun x => R.nonneg (mul_self_nonneg x)
  have e0 := err _ (mul_self_nonneg (v 0))
  have e1 := err _ (mul_self_nonneg (v 1))
  have e2 := err _ (mul_self_nonneg (v 2))
  unfold Fp.acc3
  rw [zero_add, R.eq_self (R.rep _)]
  have s1 := err _ (add_nonneg (q (v 0)) (q (v 1)))
  have h01 := R.nonneg (add_nonneg (q (v 0)) (q (v 1)))
  have s2 := err _ (add_nonneg h01 (q (v 2)))
  generalize R (R (v 0 * v 0) + R (v 1 * v 1)) = w1 at *
  generalize R (w1 + R (v 2 * v 2)) = w2 at *
  have q0 := q (v 0); have q1 := q (v 1); have q2 := q (v 2)
  have p0 := mul_self_nonneg (v 0); have p1 := mul_self_nonneg (v 1); have p2 := mul_self_nonneg (v 2)
  generalize R (v 0 * v 0) = t0 at *
  generalize R (v 1 * v 1) = t1 at *
  generalize R (v 2 * v 2) = t2 at *
  generalize v 0 * v 0 = x0 at *
  generalize v 1 * v 1 = x1 at *
  generalize v 2 * v 2 = x2 at *
  clear * - e0 e1 e2 s1 s2 q0 q1 q2 p0 p1 p2 hS hηS hη0 h01
  rw [abs_le] at *
  norm_num at *
  constructor <;> linarith [e0.1, e0.2, e1.1, e1.2, e2.1, e2.2, s1.1, s1.2, s2.1, s2.2]

private theorem comb_aux {A B C D G η : ℝ} (h1 : C ≤ 1 / 2 ^ 24 * B + η) (h2 : D ≤ 2.8 / 2 ^ 24 * A) (h3 : B ≤ A + D)
    (h4 : G ≤ C + D) (h5 : 0 ≤ A) : G ≤ 1 / 2 ^ 22 * A + η := by
  norm_num at *
  linarith

private theorem sq_aux {d w η : ℝ} (h1 : |d| ≤ 1 / 2 ^ 22 * |w| + η) (h2 : |w| ≤ 1) (h0 : 0 < η) (hη : η ≤ 1 / 2 ^ 110) :
    d * d ≤ (1 / 2 ^ 22) ^ 2 * (w * w) + 3 * η := by
  have h3 := abs_nonneg w
  rw [← abs_mul_abs_self d, ← abs_mul_abs_self w]
  have h4 := mul_self_le_mul_self (abs_nonneg d) h1
  have h5 : η * |w| ≤ η := by nlinarith
  have h6 : η * η ≤ η := by norm_num at hη; nlinarith
  have h7 : 0 ≤ η * |w| := by positivity
  refine h4.trans ?_
  generalize |w| = a at *
  have : (1 / 2 ^ 22 * a + η) * (1 / 2 ^ 22 * a + η) = (1 / 2 ^ 22) ^ 2 * (a * a) + 2 / 2 ^ 22 * (η * a) + η * η := by ring
  rw [this]
  norm_num
  linarith

/-- A vector close to a unit vector component by component. -/
private theorem len_near (n w : Vec) (hw : len w = 1) {η : ℝ} (h0 : 0 < η) (hη : η ≤ 1 / 2 ^ 110)
    (hc : ∀ i, |n i - w i| ≤ 1 / 2 ^ 22 * |w i| + η) : |len n - 1| ≤ 1 / 2 ^ 21 := by
  have h1 : w 0 * w 0 + w 1 * w 1 + w 2 * w 2 = 1 := by
    have h2 := hw
    rw [len_eq, Real.sqrt_eq_one] at h2; exact h2
  have p0 := mul_self_nonneg (w 0); have p1 := mul_self_nonneg (w 1); have p2 := mul_self_nonneg (w 2)
  have k : ∀ i, |w i| ≤ 1 := by
    intro i
    apply abs_le_of_sq_le_sq _ (by norm_num)
    fin_cases i <;> simp only [Fin.zero_eta, Fin.mk_one, Fin.reduceFinMk, sq] <;> linarith
  obtain ⟨d, hd⟩ : ∃ d : Vec, d = n - w := ⟨_, rfl⟩
  have hdi : ∀ i, d i = n i - w i := by intro i; rw [hd]; rfl
  have hdl : len d ≤ 1 / 2 ^ 21 := by
    rw [len_eq]
    apply Real.sqrt_le_iff.2
    refine ⟨by norm_num, ?_⟩
    have k0 := sq_aux (hc 0) (k 0) h0 hη
    have k1 := sq_aux (hc 1) (k 1) h0 hη
    have k2 := sq_aux (hc 2) (k 2) h0 hη
    rw [hdi, hdi, hdi]
    clear * - k0 k1 k2 h1 hη
    norm_num at k0 k1 k2 hη ⊢
    linarith
  have hn : n = w + d := by rw [hd]; abel
  rw [hn, ← hw]
  have t1 := len_add_le w d
  have t2 := len_add_le (w + d) (-d)
  rw [add_neg_cancel_right, show -d = (-1 : ℝ) • d by simp, len_smul, abs_neg, abs_one, one_mul] at t2
  rw [abs_le]; constructor <;> linarith

/-- C91: in single precision `vn` returns the modulus with a relative error of at most 2^-22 and a vector whose components
    are those of the unit vector with the same relative error, so that its length is 1 up to 2^-21, for every vector of
    length at least 2^-50. -/
theorem C91_vn (R : Rounding binary32) (v : Vec) (hv : (2 : ℝ) ^ (-50 : ℤ) ≤ len v) :
    |(Fp.dvn R v).1 - len v| ≤ 1 / 2 ^ 22 * len v ∧
    (∀ i, |(Fp.dvn R v).2 i - v i / len v| ≤ 1 / 2 ^ 22 * |v i / len v| + 2 ^ (-150 : ℤ)) ∧
    |len (Fp.dvn R v).2 - 1| ≤ 1 / 2 ^ 21 := by
  obtain ⟨S, hS⟩ : ∃ S, S = v 0 * v 0 + v 1 * v 1 + v 2 * v 2 := ⟨_, rfl⟩
  have hSn : 0 ≤ S := by
    rw [hS]; nlinarith [mul_self_nonneg (v 0), mul_self_nonneg (v 1), mul_self_nonneg (v 2)]
  obtain ⟨L, hL⟩ : ∃ L, L = len v := ⟨_, rfl⟩
  have hLS : L ^ 2 = S := by rw [hL, len_eq, ← hS, Real.sq_sqrt hSn]
  have hL0 : 0 < L := by rw [hL]; exact (two_zpow_pos _).trans_le hv
  rw [← hL] at hv ⊢
  have hS0 : (2 : ℝ) ^ (-100 : ℤ) ≤ S := by
    rw [← hLS, show (-100 : ℤ) = -50 + -50 by norm_num, zpow_split, sq]
    exact mul_self_le_mul_self (two_zpow_pos _).le hv
  have hss := sumsq_near R v S hS hS0
  obtain ⟨s, hs⟩ : ∃ s, s = Fp.acc3 R (fun i => R (v i * v i)) := ⟨_, rfl⟩
  rw [← hs] at hss
  have hs0 : 0 ≤ s := by
    rw [abs_le] at hss; norm_num at hss; linarith [hss.1]
  obtain ⟨r, hr⟩ : ∃ r, r = Real.sqrt s := ⟨_, rfl⟩
  have hr0 : 0 ≤ r := by rw [hr]; exact Real.sqrt_nonneg _
  have hrs : r ^ 2 = s := by rw [hr, Real.sq_sqrt hs0]
  -- the root
  have hrL : |r - L| ≤ 1.6 / 2 ^ 24 * L := by
    have hlow : (1 - 1 / 2 ^ 20) * L ≤ r := by
      apply le_of_sq_le_sq _ hr0
      rw [hrs, mul_pow, hLS]
      rw [abs_le] at hss; norm_num at hss ⊢; nlinarith [hss.1]
    have h1 : |r - L| * (r + L) ≤ 3.1 / 2 ^ 24 * L ^ 2 := by
      rw [← abs_of_pos (by linarith : 0 < r + L), ← abs_mul, show (r - L) * (r + L) = r ^ 2 - L ^ 2 by ring, hrs, hLS]
      exact hss
    have h2 : |r - L| * ((2 - 1 / 2 ^ 20) * L) ≤ 3.1 / 2 ^ 24 * L ^ 2 := by
      refine le_trans (mul_le_mul_of_nonneg_left ?_ (abs_nonneg _)) h1
      linarith
    have h3 : |r - L| * (2 - 1 / 2 ^ 20) ≤ 3.1 / 2 ^ 24 * L := by
      apply le_of_mul_le_mul_right _ hL0
      linarith
    norm_num at h3 ⊢
    linarith
  have hr1 : (2 : ℝ) ^ (binary32.emin + binary32.prec - 1) ≤ |r| := by
    rw [abs_of_nonneg hr0, show binary32.emin + (binary32.prec : ℤ) - 1 = -126 by rfl]
    have : (2 : ℝ) ^ (-126 : ℤ) ≤ 1 / 2 * 2 ^ (-50 : ℤ) := by
      rw [show (1 : ℝ) / 2 = 2 ^ (-1 : ℤ) by norm_num, ← zpow_split]; exact two_zpow_le (by norm_num)
    generalize (2 : ℝ) ^ (-126 : ℤ) = τ at *
    generalize (2 : ℝ) ^ (-50 : ℤ) = σ at *
    rw [abs_le] at hrL; norm_num at hrL; linarith [hrL.1]
  have hm := R.rel_error r hr1
  rw [eps32, abs_of_nonneg hr0] at hm
  obtain ⟨m, hmd⟩ : ∃ m, m = R r := ⟨_, rfl⟩
  rw [← hmd] at hm
  have hmL : |m - L| ≤ 2.7 / 2 ^ 24 * L := by
    clear * - hm hrL hL0
    rw [abs_le] at *; norm_num at *
    constructor <;> linarith [hm.1, hm.2, hrL.1, hrL.2]
  have hm0 : 0 < m := by
    rw [abs_le] at hmL; norm_num at hmL; linarith [hmL.1]
  have hdvn : Fp.dvn R v = (m, fun i => R (v i / m)) := by
    unfold Fp.dvn
    simp only [← hs, ← hr, ← hmd, if_neg (not_le.2 hm0)]
  rw [hdvn]
  obtain ⟨η, hη⟩ : ∃ η : ℝ, η = 2 ^ (-150 : ℤ) := ⟨_, rfl⟩
  have hη0 : 0 < η := by rw [hη]; exact two_zpow_pos _
  have hη1 : η ≤ 1 / 2 ^ 60 := by
    rw [hη, show (1 : ℝ) / 2 ^ 60 = 2 ^ (-60 : ℤ) by norm_num]; exact two_zpow_le (by norm_num)
  -- the components
  have hc : ∀ i, |R (v i / m) - v i / L| ≤ 1 / 2 ^ 22 * |v i / L| + η := by
    intro i
    have h1 := R.error_le (v i / m)
    rw [eps32, eta32, ← hη] at h1
    have h2 : |v i / m - v i / L| ≤ 2.8 / 2 ^ 24 * |v i / L| := by
      have e : v i / m - v i / L = v i / L * ((L - m) / m) := by field_simp
      rw [e, abs_mul, mul_comm]
      apply mul_le_mul_of_nonneg_right _ (abs_nonneg _)
      rw [abs_div, abs_of_pos hm0, div_le_iff₀ hm0, abs_sub_comm]
      refine hmL.trans ?_
      rw [abs_le] at hmL
      norm_num at hmL ⊢
      linarith [hmL.1, hmL.2]
    have h3 : |v i / m| ≤ |v i / L| + |v i / m - v i / L| := by
      have := abs_add_le (v i / L) (v i / m - v i / L)
      rwa [add_sub_cancel] at this
    have h4 := abs_sub_le (R (v i / m)) (v i / m) (v i / L)
    rw [abs_sub_comm (R (v i / m)) (v i / m)] at h4
    have h5 := abs_nonneg (v i / L)
    exact comb_aux h1 h2 h3 h4 h5
  refine ⟨?_, ?_, ?_⟩
  · refine hmL.trans ?_
    norm_num; linarith
  · rw [← hη]; exact hc
  · -- length
    have hlw : len (fun i => v i / L) = 1 := by
      have : (fun i => v i / L) = (1 / L) • v := by funext i; simp [div_eq_inv_mul]
      rw [this, len_smul, abs_of_pos (by positivity), ← hL]; field_simp
    refine len_near _ _ hlw hη0 ?_ hc
    rw [hη, show (1 : ℝ) / 2 ^ 110 = 2 ^ (-110 : ℤ) by norm_num]; exact two_zpow_le (by norm_num)

/-- C91: below that, underflow makes `vn` fail silently: for a vector of floats with components up to 2^-76 (1.3e-23) the modulus
    returned is zero although the vector is not null, and the "unit vector" is the vector itself. -/
theorem C91_vn_underflow (R : Rounding binary32) (v : Vec) (hr : ∀ i, binary32.Rep (v i))
    (hv : ∀ i, |v i| ≤ 2 ^ (-76 : ℤ)) : Fp.dvn R v = (0, v) := by
  have hz : ∀ i, R (v i * v i) = 0 := by
    intro i
    have h1 : |v i * v i| ≤ 2 ^ (-151 : ℤ) := by
      refine le_trans ?_ (two_zpow_le (show (-152 : ℤ) ≤ -151 by norm_num))
      rw [abs_mul, show (-152 : ℤ) = -76 + -76 by norm_num, zpow_split]
      exact mul_le_mul (hv i) (hv i) (abs_nonneg _) (two_zpow_pos _).le
    have h2 := R.nearest (v i * v i) 0 rep_zero
    rw [sub_zero] at h2
    have h3 : |R (v i * v i)| ≤ 2 ^ (-150 : ℤ) := by
      have h4 := abs_sub_abs_le_abs_sub (R (v i * v i)) (v i * v i)
      rw [abs_sub_comm] at h4
      have : (2 : ℝ) ^ (-150 : ℤ) = 2 ^ (-151 : ℤ) + 2 ^ (-151 : ℤ) := by
        rw [show (-150 : ℤ) = 1 + -151 by norm_num, zpow_split]; ring
      linarith
    obtain ⟨m, e, -, he, hme⟩ := R.rep (v i * v i)
    by_contra hne
    have hm0 : m ≠ 0 := by rintro rfl; simp at hme; exact hne hme
    have hm1 : (1 : ℝ) ≤ |(m : ℝ)| := by
      rw [← Int.cast_abs]; exact_mod_cast Int.one_le_abs hm0
    rw [hme, abs_mul, abs_of_pos (two_zpow_pos e)] at h3
    have h5 : (2 : ℝ) ^ (-149 : ℤ) ≤ 2 ^ e := two_zpow_le he
    have h6 : (2 : ℝ) ^ (-149 : ℤ) = 2 ^ (-150 : ℤ) + 2 ^ (-150 : ℤ) := by
      rw [show (-149 : ℤ) = 1 + -150 by norm_num, zpow_split]; ring
    have h7 := two_zpow_pos (-150)
    nlinarith [two_zpow_pos e]
  unfold Fp.dvn Fp.acc3
  simp only [hz]
  simp
  funext i
  exact R.eq_self (hr i)

/-- C91: a matrix whose elements are within `ε` of a rotation, applied to a vector in single precision (`mxv`), gives the rotated
    vector with a relative error of at most `3 ε + 2^-21`; the same (`imxv`) for the transpose and the inverse rotation. -/
theorem C91_apply (R : Rounding binary32) {Q M : Mat} (hQ : IsRotation Q) {ε : ℝ} (h0 : 0 ≤ ε) (hε : ε ≤ 1 / 2 ^ 10)
    (h : ∀ i j, |M i j - Q i j| ≤ ε) (v : Vec) (hv : (2 : ℝ) ^ (-75 : ℤ) ≤ len v) :
    len (Fp.dmxv R M v - Q *ᵥ v) ≤ (3 * ε + 1 / 2 ^ 21) * len v ∧
      len (Fp.dimxv R M v - Qᵀ *ᵥ v) ≤ (3 * ε + 1 / 2 ^ 21) * len v := by
  have ht : (2 : ℝ) ^ (-146 : ℤ) ≤ 1 / 2 ^ 71 * len v := by
    have : (2 : ℝ) ^ (-146 : ℤ) = 1 / 2 ^ 71 * 2 ^ (-75 : ℤ) := by
      rw [show (-146 : ℤ) = -71 + -75 by norm_num, zpow_split]; norm_num
    rw [this]; exact mul_le_mul_of_nonneg_left hv (by norm_num)
  have hl := len_nonneg v
  have key : ∀ x : ℝ, x ≤ (3 * ε + 6 / 2 ^ 24) * len v + 2 ^ (-146 : ℤ) → x ≤ (3 * ε + 1 / 2 ^ 21) * len v := by
    intro x hx
    generalize (2 : ℝ) ^ (-146 : ℤ) = τ at *
    norm_num at *
    nlinarith
  refine ⟨key _ (mulVec_near32 R hQ h0 hε h v), key _ ?_⟩
  exact mulVec_near32 R (M := Mᵀ) (Fp.IsRotation.transpose hQ) h0 hε (fun i j => h j i) v

/-- One more matrix in a chain. -/
private theorem chain_step (R : Rounding binary32) {Q M : Mat} (hQ : IsRotation Q) {ε : ℝ} (h0 : 0 ≤ ε) (hε : ε ≤ 1 / 2 ^ 10)
    (h : ∀ i j, |M i j - Q i j| ≤ ε) {w z : Vec} {e L : ℝ} (hL : (2 : ℝ) ^ (-75 : ℤ) ≤ L) (hz : len z = L)
    (hw : len (w - z) ≤ e * L) :
    len (Fp.dmxv R M w - Q *ᵥ z) ≤ ((1 + (3 * ε + 1 / 2 ^ 21)) * (1 + e) - 1) * L ∧ len (Q *ᵥ z) = L := by
  refine ⟨?_, by rw [rotation_len hQ, hz]⟩
  have h1 := mulVec_near32 R hQ h0 hε h w
  have h2 : len (Q *ᵥ (w - z)) ≤ e * L := by rw [rotation_len hQ]; exact hw
  have h3 := len_add_le (Fp.dmxv R M w - Q *ᵥ w) (Q *ᵥ (w - z))
  rw [show Fp.dmxv R M w - Q *ᵥ w + Q *ᵥ (w - z) = Fp.dmxv R M w - Q *ᵥ z by rw [mulVec_sub]; abel] at h3
  have h4 := len_add_le z (w - z)
  rw [add_sub_cancel, hz] at h4
  have ht : (2 : ℝ) ^ (-146 : ℤ) ≤ 1 / 2 ^ 71 * L := by
    have : (2 : ℝ) ^ (-146 : ℤ) = 1 / 2 ^ 71 * 2 ^ (-75 : ℤ) := by
      rw [show (-146 : ℤ) = -71 + -75 by norm_num, zpow_split]; norm_num
    rw [this]; exact mul_le_mul_of_nonneg_left hL (by norm_num)
  have hL0 : 0 ≤ L := by rw [← hz]; exact len_nonneg _
  have he : 0 ≤ e * L := (len_nonneg _).trans hw
  have h5 : len w ≤ L + e * L := by linarith
  have h6 : (3 * ε + 6 / 2 ^ 24) * len w ≤ (3 * ε + 6 / 2 ^ 24) * (L + e * L) :=
    mul_le_mul_of_nonneg_left h5 (by positivity)
  have e1 : ((1 + (3 * ε + 1 / 2 ^ 21)) * (1 + e) - 1) * L = e * L + (3 * ε + 1 / 2 ^ 21) * (L + e * L) := by ring
  rw [e1]
  generalize e * L = y at *
  generalize (2 : ℝ) ^ (-146 : ℤ) = τ at *
  have e2 : (3 * ε + 1 / 2 ^ 21) * (L + y) = (3 * ε + 6 / 2 ^ 24) * (L + y) + 2 / 2 ^ 24 * (L + y) := by norm_num; ring
  rw [e2]
  have : 1 / 2 ^ 71 * L ≤ 2 / 2 ^ 24 * (L + y) := by norm_num; linarith
  linarith

/-- C91: any number of rotations one after the other: the error of the vector grows at most like `(1 + c)^n - 1` with
    `c = 3 ε + 2^-21`. -/
theorem C91_chain (R : Rounding binary32) {ε : ℝ} (h0 : 0 ≤ ε) (hε : ε ≤ 1 / 2 ^ 10) (l : List (Mat × Mat))
    (hl : ∀ p ∈ l, IsRotation p.2 ∧ ∀ i j, |p.1 i j - p.2 i j| ≤ ε) (v : Vec) (hv : (2 : ℝ) ^ (-75 : ℤ) ≤ len v) :
    len (l.foldl (fun w p => Fp.dmxv R p.1 w) v - l.foldl (fun z p => p.2 *ᵥ z) v) ≤
      ((1 + (3 * ε + 1 / 2 ^ 21)) ^ l.length - 1) * len v := by
  have key : ∀ (l : List (Mat × Mat)) (_ : ∀ p ∈ l, IsRotation p.2 ∧ ∀ i j, |p.1 i j - p.2 i j| ≤ ε) (w z : Vec) (e : ℝ),
      len z = len v → len (w - z) ≤ e * len v →
      len (l.foldl (fun w p => Fp.dmxv R p.1 w) w - l.foldl (fun z p => p.2 *ᵥ z) z) ≤
        ((1 + (3 * ε + 1 / 2 ^ 21)) ^ l.length * (1 + e) - 1) * len v := by
    intro l
    induction l with
    | nil => intro _ w z e _ hw; simpa using hw
    | cons p l ih =>
      intro hl w z e hz hw
      obtain ⟨hp1, hp2⟩ := hl p (by simp)
      obtain ⟨s1, s2⟩ := chain_step R hp1 h0 hε hp2 hv hz hw
      have := ih (fun q hq => hl q (by simp [hq])) _ _ _ s2 s1
      rw [List.foldl_cons, List.foldl_cons, List.length_cons, pow_succ]
      refine this.trans (le_of_eq ?_)
      ring
  have := key l hl v v 0 rfl (by simp [len])
  simpa using this

/-- C91: the product of any number of matrices near rotations, formed in single precision (`mxm`), differs from the product of the
    rotations by at most `(1 + c)^n - 1` in each element. -/
theorem C91_product (R : Rounding binary32) {ε : ℝ} (h0 : 0 ≤ ε) (hε : ε ≤ 1 / 2 ^ 10) (l : List (Mat × Mat))
    (hl : ∀ p ∈ l, IsRotation p.2 ∧ ∀ i j, |p.1 i j - p.2 i j| ≤ ε) (i j : Fin 3) :
    |l.foldl (fun P p => Fp.dmxm R p.1 P) 1 i j - l.foldl (fun P p => p.2 * P) (1 : Mat) i j| ≤
      (1 + (3 * ε + 1 / 2 ^ 21)) ^ l.length - 1 := by
  have c1 : ∀ (l : List (Mat × Mat)) (P : Mat) (j : Fin 3),
      (fun i => l.foldl (fun P p => Fp.dmxm R p.1 P) P i j) = l.foldl (fun w p => Fp.dmxv R p.1 w) (fun i => P i j) := by
    intro l
    induction l with
    | nil => intros; rfl
    | cons p l ih => intro P j; rw [List.foldl_cons, List.foldl_cons, ih]; rfl
  have c2 : ∀ (l : List (Mat × Mat)) (P : Mat) (j : Fin 3),
      (fun i => l.foldl (fun P p => p.2 * P) P i j) = l.foldl (fun w p => p.2 *ᵥ w) (fun i => P i j) := by
    intro l
    induction l with
    | nil => intros; rfl
    | cons p l ih => intro P j; rw [List.foldl_cons, List.foldl_cons, ih]; rfl
  have hcol : len (fun i => (1 : Mat) i j) = 1 := by
    rw [len_eq]; fin_cases j <;> simp [Matrix.one_apply]
  have h := C91_chain R h0 hε l hl (fun i => (1 : Mat) i j) (by
    rw [hcol]
    calc (2 : ℝ) ^ (-75 : ℤ) ≤ 2 ^ (0 : ℤ) := two_zpow_le (by norm_num)
      _ = 1 := by norm_num)
  rw [← c1, ← c2, hcol, mul_one] at h
  exact (abs_le_len _ i).trans h

/-- C91: scalar and vector products in single precision (`vdv`, `vxv`). -/
theorem C91_products (R : Rounding binary32) (a b : Vec) :
    |Fp.dvdv R a b - a ⬝ᵥ b| ≤ 3.1 / 2 ^ 24 * (len a * len b) + 2 ^ (-147 : ℤ) ∧
    len (Fp.dvxv R a b - a ⨯₃ b) ≤ 3.5 / 2 ^ 24 * (len a * len b) + 2 ^ (-146 : ℤ) :=
  ⟨dvdv_near32 R a b, cross_near32 R a b⟩

private theorem float_len {v : Vec} (hv : v ≠ 0) (hr : ∀ i, binary32.Rep (v i)) : (2 : ℝ) ^ (-200 : ℤ) ≤ len v := by
  obtain ⟨i, hi⟩ : ∃ i, v i ≠ 0 := by
    by_contra h; push Not at h; exact hv (funext h)
  refine le_trans ?_ (abs_le_len v i)
  obtain ⟨m, e, -, he, hme⟩ := hr i
  have hm0 : m ≠ 0 := by rintro rfl; simp at hme; exact hi hme
  have hm1 : (1 : ℝ) ≤ |(m : ℝ)| := by
    rw [← Int.cast_abs]; exact_mod_cast Int.one_le_abs hm0
  rw [hme, abs_mul, abs_of_pos (two_zpow_pos e)]
  have h5 : (2 : ℝ) ^ (-200 : ℤ) ≤ 2 ^ e := two_zpow_le (le_trans (by norm_num [binary32]) he)
  nlinarith [two_zpow_pos e]

private theorem conv_aux (S : Rounding binary32) {x θ d : ℝ} (h : |x - θ| ≤ d) :
    |S x - θ| ≤ 5.97e-8 * |θ| + 1.000001 * d + 1e-44 := by
  have h1 := err32 S x
  have h2 := abs_sub_le (S x) x θ
  rw [abs_sub_comm (S x) x] at h2
  have h3 := abs_sub_abs_le_abs_sub x θ
  have h4 : (2 : ℝ) ^ (-150 : ℤ) ≤ 1e-45 := by norm_num
  have h5 := abs_nonneg θ
  have h6 : 0 ≤ d := (abs_nonneg _).trans h
  have h7 : 1 / 2 ^ 24 * |x| ≤ 1 / 2 ^ 24 * (|θ| + d) := mul_le_mul_of_nonneg_left (by linarith) (by positivity)
  have h8 : 1 / 2 ^ 24 * (|θ| + d) ≤ 5.97e-8 * |θ| + 1e-6 * d := by
    norm_num; linarith
  generalize (2 : ℝ) ^ (-150 : ℤ) = η at *
  refine (h2.trans (add_le_add (h1.trans (add_le_add (h7.trans h8) h4)) h)).trans ?_
  linarith

/-- C91: `sepv` returns the angle between any two non-null vectors of floats with a relative error of 6e-8 and an absolute
    error of 1.6e-15 plus that (`ε`) of the `atan2` of `double`; the lengths do not matter. -/
theorem C91_sepv (S : Rounding binary32) (D : Rounding binary64) (at2 : ℝ → ℝ → ℝ) {ε : ℝ}
    (ha : ∀ y x, |at2 y x - atan2 y x| ≤ ε) (u v : Vec) (hu : u ≠ 0) (hv : v ≠ 0) (hur : ∀ i, binary32.Rep (u i))
    (hvr : ∀ i, binary32.Rep (v i)) :
    |Fp.sepv S D at2 u v - angleBetween u v| ≤ 6e-8 * angleBetween u v + 1.6e-15 + 1.01 * ε := by
  have h := conv_aux S (C84_dsepv D at2 ha u v (float_len hu hur) (float_len hv hvr))
  have hε : 0 ≤ ε := (abs_nonneg _).trans (ha 0 0)
  have h0 : 0 ≤ angleBetween u v := Real.arccos_nonneg _
  rw [abs_of_nonneg h0] at h
  refine h.trans ?_
  linarith

/-- C91: `sep` likewise, with the errors of the sine and cosine (`ε`) and of `atan2` (`ε'`) of `double`. -/
theorem C91_sep (S : Rounding binary32) (D : Rounding binary64) (sn cs : ℝ → ℝ) (at2 : ℝ → ℝ → ℝ) {ε ε' : ℝ}
    (hε : ε ≤ 1e-3) (hs : ∀ a, |sn a - Real.sin a| ≤ ε) (hc : ∀ a, |cs a - Real.cos a| ≤ ε)
    (ha : ∀ y x, |at2 y x - atan2 y x| ≤ ε') (l1 b1 l2 b2 : ℝ) :
    |Fp.sep S D sn cs at2 l1 b1 l2 b2 - angleBetween (direction l1 b1) (direction l2 b2)| ≤
      6e-8 * angleBetween (direction l1 b1) (direction l2 b2) + 2.3e-15 + 11.2 * ε + 1.01 * ε' := by
  have h := conv_aux S (C84_dsep D sn cs at2 hε hs hc ha l1 b1 l2 b2)
  have hε0 : 0 ≤ ε := (abs_nonneg _).trans (hs 0)
  have hε' : 0 ≤ ε' := (abs_nonneg _).trans (ha 0 0)
  have h0 : 0 ≤ angleBetween (direction l1 b1) (direction l2 b2) := Real.arccos_nonneg _
  rw [abs_of_nonneg h0] at h
  refine h.trans ?_
  linarith

/-- C91: the elements of the matrix of `euler` are those of the exact rotation to 6e-8, apart from the errors `ε` of the
    sine and cosine of `double`. -/
theorem C91_euler (S : Rounding binary32) (D : Rounding binary64) (sn cs : ℝ → ℝ) {ε : ℝ} (h0 : 0 ≤ ε) (hε : ε ≤ 1 / 2 ^ 10)
    (order : List Char) (p t s : ℝ)
    (ha : ∀ a, a = p ∨ a = t ∨ a = s → |sn a - Real.sin a| ≤ ε ∧ |cs a - Real.cos a| ≤ ε) (i j : Fin 3) :
    |Fp.euler S D sn cs order p t s i j - Sla.deuler order p t s i j| ≤ 6e-8 + 9.2 * ε := by
  have h := conv_aux S (C83_deuler D sn cs h0 hε order p t s ha i j)
  have hrot := C23_rotation order p t s
  have hle : |Sla.deuler order p t s i j| ≤ 1 := by
    have h1 : len (Sla.deuler order p t s i) = 1 := by
      have := congrFun (congrFun hrot.1 i) i
      rw [Matrix.one_apply_eq] at this
      rw [len, Real.sqrt_eq_one]
      rw [← this]; simp [Matrix.mul_apply, dotProduct]
    rw [← h1]; exact abs_le_len (Sla.deuler order p t s i) j
  refine h.trans ?_
  norm_num
  linarith

/- The hypotheses are met: exact library functions, and two vectors of floats a right angle apart. -/
example : |Fp.sepv (ieee binary32) (ieee binary64) atan2 ![1, 0, 0] ![0, 1, 0] - angleBetween ![1, 0, 0] ![0, 1, 0]| ≤
    6e-8 * angleBetween ![1, 0, 0] ![0, 1, 0] + 1.6e-15 + 1.01 * 0 := by
  have r : ∀ x : ℝ, x = 0 ∨ x = 1 → binary32.Rep x := by
    rintro x (rfl | rfl)
    · exact rep_zero
    · exact ⟨1, 0, by norm_num [binary32], by norm_num [binary32], by norm_num⟩
  refine C91_sepv _ _ atan2 (by simp) _ _ (fun h => by simpa using congrFun h 0) (fun h => by simpa using congrFun h 1) ?_ ?_
  · intro i; fin_cases i <;> exact r _ (by simp)
  · intro i; fin_cases i <;> exact r _ (by simp)
example : ∃ v : Vec, v ≠ 0 ∧ Fp.dvn (ieee binary32) v = (0, v) := by
  refine ⟨fun _ => 2 ^ (-100 : ℤ), ?_, C91_vn_underflow _ _ (fun _ => ⟨1, -100, by norm_num [binary32],
    by norm_num [binary32], by simp⟩) (fun _ => ?_)⟩
  · intro h
    have := congrFun h 0
    exact (two_zpow_pos (-100)).ne' this
  · rw [abs_of_pos (two_zpow_pos _)]; exact two_zpow_le (by norm_num)
example : (2 : ℝ) ^ (-50 : ℤ) ≤ len ![3, 0, 4] := by
  have : len ![3, 0, 4] = 5 := by
    rw [len_eq]; simp
    rw [show (3 * 3 + 4 * 4 : ℝ) = 5 ^ 2 by norm_num, Real.sqrt_sq (by norm_num)]
  rw [this]; norm_num
example : ∃ l : List (Mat × Mat), l.length = 10 ∧
    ∀ p ∈ l, IsRotation p.2 ∧ ∀ i j, |p.1 i j - p.2 i j| ≤ (6e-8 : ℝ) := by
  refine ⟨List.replicate 10 (Sla.deuler ['Z'] 1 0 0, Sla.deuler ['Z'] 1 0 0), by simp, fun p hp => ?_⟩
  rw [List.eq_of_mem_replicate hp]
  exact ⟨C23_rotation _ _ _ _, fun i j => by simp; norm_num⟩

end Sla.Props
