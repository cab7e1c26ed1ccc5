import Verif.Model.FpCode
import Verif.Lemmas.Fp
import Verif.Lemmas.Spherical
import Verif.Lemmas.Coords

/-
Property theorems C80: vectors and matrices in floating point.
-/
namespace Sla.Props
open Sla.Fp Sla.Spec

variable {F : Fmt}

private theorem rep_one (h : F.emin ≤ 0) : F.Rep 1 := by
  have := rep_int (F := F) (n := 1) h (by rw [abs_one]; exact one_le_pow₀ (by norm_num))
  simpa using this

/-- C80: multiplication by the identity matrix is exact in every format: it returns the other factor unchanged. -/
theorem C80_identity (R : Rounding F) (M : Mat) (v : Vec) (hM : ∀ i j, F.Rep (M i j)) (hv : ∀ i, F.Rep (v i)) :
    Fp.dmxm R 1 M = M ∧ Fp.dmxm R M 1 = M ∧ Fp.dmxv R 1 v = v ∧ Fp.dimxv R 1 v = v := by
  refine ⟨?_, ?_, ?_, ?_⟩
  · funext i j
    fin_cases i <;> simp [Fp.dmxm, Fp.acc3, Matrix.one_apply, R.eq_self (hM _ _)]
  · funext i j
    fin_cases j <;> simp [Fp.dmxm, Fp.acc3, Matrix.one_apply, R.eq_self (hM _ _)]
  · funext i
    fin_cases i <;> simp [Fp.dmxv, Fp.acc3, Matrix.one_apply, R.eq_self (hv _)]
  · funext i
    fin_cases i <;> simp [Fp.dimxv, Fp.acc3, Matrix.one_apply, R.eq_self (hv _)]

/-- C80: in every format the scalar product is symmetric, the vector product antisymmetric and zero for equal factors,
    to the last bit. -/
theorem C80_symmetry (R : Rounding F) (a b : Vec) :
    Fp.dvdv R a b = Fp.dvdv R b a ∧ Fp.dvxv R a b = -Fp.dvxv R b a ∧ Fp.dvxv R a a = 0 := by
  refine ⟨?_, ?_, ?_⟩
  · simp only [Fp.dvdv, mul_comm]
  · funext i
    have h : ∀ x y z w : ℝ, R (R (x * y) - R (z * w)) = -R (R (w * z) - R (y * x)) := by
      intro x y z w
      rw [← R.odd, mul_comm w z, mul_comm y x]; congr 1; ring
    fin_cases i <;> simp [Fp.dvxv] <;> exact h _ _ _ _
  · funext i
    have h : ∀ x y : ℝ, R (R (x * y) - R (y * x)) = 0 := by
      intro x y; rw [mul_comm x y, sub_self, R.zero]
    fin_cases i <;> simp [Fp.dvxv] <;> exact h _ _

private theorem dvn_neg (R : Rounding F) (v : Vec) : (Fp.dvn R (-v)).1 = (Fp.dvn R v).1 := by
  simp [Fp.dvn, Fp.acc3]

/-- C80: in every format, and whatever the library's sine, cosine and arc tangent return, the separation of two points does
    not depend on their order, and the separation of a point from itself is exactly zero (if `atan2(0, c)` is zero for
    positive `c`, as C requires). -/
theorem C80_separation (R : Rounding F) (sn cs : ℝ → ℝ) (at2 : ℝ → ℝ → ℝ) (h0 : ∀ c, 0 < c → at2 0 c = 0) :
    (∀ a b : Vec, Fp.dsepv R at2 a b = Fp.dsepv R at2 b a ∧ Fp.dsepv R at2 a a = 0) ∧
    (∀ l1 b1 l2 b2 : ℝ, Fp.dsep R sn cs at2 l1 b1 l2 b2 = Fp.dsep R sn cs at2 l2 b2 l1 b1 ∧
      Fp.dsep R sn cs at2 l1 b1 l1 b1 = 0) := by
  have key : ∀ a b : Vec, Fp.dsepv R at2 a b = Fp.dsepv R at2 b a ∧ Fp.dsepv R at2 a a = 0 := by
    intro a b
    obtain ⟨s1, s2, -⟩ := C80_symmetry R a b
    obtain ⟨-, -, s3⟩ := C80_symmetry R a a
    constructor
    · simp only [Fp.dsepv, s2, dvn_neg, s1]
    · have hs : (Fp.dvn R (0 : Vec)).1 = 0 := by simp [Fp.dvn, Fp.acc3]
      have hc : 0 ≤ Fp.dvdv R a a := by
        have q : ∀ x : ℝ, 0 ≤ R (x * x) := fun x => R.nonneg (mul_self_nonneg x)
        exact R.nonneg (add_nonneg (R.nonneg (add_nonneg (q _) (q _))) (q _))
      simp only [Fp.dsepv, s3, hs]
      by_cases hz : Fp.dvdv R a a = 0
      · rw [if_neg (by simp [hz])]
      · rw [if_pos (Or.inr hz)]; exact h0 _ (lt_of_le_of_ne hc (Ne.symm hz))
  exact ⟨key, fun l1 b1 l2 b2 => ⟨(key _ _).1, (key _ 0).2⟩⟩

/-! ### Normalisation -/

private theorem eps64 : (2 : ℝ) ^ (-(binary64.prec : ℤ)) = 1 / 2 ^ 53 := by norm_num [binary64]

private theorem eta64 : (2 : ℝ) ^ (binary64.emin - 1) = 2 ^ (-1075 : ℤ) := rfl

/-- Computed sum of squares. -/
private theorem sumsq_near (R : Rounding binary64) (v : Vec) (S : ℝ) (hS : S = v 0 * v 0 + v 1 * v 1 + v 2 * v 2)
    (hS0 : (2 : ℝ) ^ (-1000 : ℤ) ≤ S) :
    |Fp.acc3 R (fun i => R (v i * v i)) - S| ≤ 3.1 / 2 ^ 53 * S := by
  obtain ⟨η, hη⟩ : ∃ η : ℝ, η = 2 ^ (-1075 : ℤ) := ⟨_, rfl⟩
  have hη0 : 0 < η := by rw [hη]; exact two_zpow_pos _
  have hηS : η ≤ 1 / 2 ^ 75 * S := by
    have : η = 1 / 2 ^ 75 * 2 ^ (-1000 : ℤ) := by
      rw [hη, show (-1075 : ℤ) = -75 + -1000 by norm_num, zpow_split]; norm_num
    rw [this]; exact mul_le_mul_of_nonneg_left hS0 (by norm_num)
  have err : ∀ x : ℝ, 0 ≤ x → |x - R x| ≤ 1 / 2 ^ 53 * x + η := by
    intro x hx
    have := R.error_le x
    rwa [eps64, eta64, ← hη, abs_of_nonneg hx] at this
  have q : ∀ x : ℝ, 0 ≤ R (x * x) := fun x => R.nonneg (mul_self_nonneg x)
  have e0 := err _ (mul_self_nonneg (v 0))
  have e1 := err _ (mul_self_nonneg (v 1))
  have e2 := err _ (mul_self_nonneg (v 2))
  unfold Fp.acc3
  rw [zero_add, R.eq_self (R.rep _)]
  have s1 := err _ (add_nonneg (q (v 0)) (q (v 1)))
  have h01 := R.nonneg (add_nonneg (q (v 0)) (q (v 1)))
  have s2 := err _ (add_nonneg h01 (q (v 2)))
  generalize R (R (v 0 * v 0) + R (v 1 * v 1)) = w1 at *
  generalize R (w1 + R (v 2 * v 2)) = w2 at *
  have q0 := q (v 0); have q1 := q (v 1); have q2 := q (v 2)
  have p0 := mul_self_nonneg (v 0); have p1 := mul_self_nonneg (v 1); have p2 := mul_self_nonneg (v 2)
  generalize R (v 0 * v 0) = t0 at *
  generalize R (v 1 * v 1) = t1 at *
  generalize R (v 2 * v 2) = t2 at *
  generalize v 0 * v 0 = x0 at *
  generalize v 1 * v 1 = x1 at *
  generalize v 2 * v 2 = x2 at *
  clear * - e0 e1 e2 s1 s2 q0 q1 q2 p0 p1 p2 hS hηS hη0 h01
  rw [abs_le] at *
  norm_num at *
  constructor <;> linarith [e0.1, e0.2, e1.1, e1.2, e2.1, e2.2, s1.1, s1.2, s2.1, s2.2]

private theorem comb_aux {A B C D G η : ℝ} (h1 : C ≤ 1 / 2 ^ 53 * B + η) (h2 : D ≤ 2.8 / 2 ^ 53 * A) (h3 : B ≤ A + D)
    (h4 : G ≤ C + D) (h5 : 0 ≤ A) : G ≤ 1 / 2 ^ 51 * A + η := by
  norm_num at *
  linarith

private theorem sq_aux {d w η : ℝ} (h1 : |d| ≤ 1 / 2 ^ 51 * |w| + η) (h2 : |w| ≤ 1) (h0 : 0 < η) (hη : η ≤ 1 / 2 ^ 110) :
    d * d ≤ (1 / 2 ^ 51) ^ 2 * (w * w) + 3 * η := by
  have h3 := abs_nonneg w
  rw [← abs_mul_abs_self d, ← abs_mul_abs_self w]
  have h4 := mul_self_le_mul_self (abs_nonneg d) h1
  have h5 : η * |w| ≤ η := by nlinarith
  have h6 : η * η ≤ η := by norm_num at hη; nlinarith
  have h7 : 0 ≤ η * |w| := by positivity
  refine h4.trans ?_
  generalize |w| = a at *
  have : (1 / 2 ^ 51 * a + η) * (1 / 2 ^ 51 * a + η) = (1 / 2 ^ 51) ^ 2 * (a * a) + 2 / 2 ^ 51 * (η * a) + η * η := by ring
  rw [this]
  norm_num
  linarith

/-- A vector close to a unit vector component by component. -/
private theorem len_near (n w : Vec) (hw : len w = 1) {η : ℝ} (h0 : 0 < η) (hη : η ≤ 1 / 2 ^ 110)
    (hc : ∀ i, |n i - w i| ≤ 1 / 2 ^ 51 * |w i| + η) : |len n - 1| ≤ 1 / 2 ^ 50 := by
  have h1 : w 0 * w 0 + w 1 * w 1 + w 2 * w 2 = 1 := by
    have h2 := hw
    rw [len_eq, Real.sqrt_eq_one] at h2; exact h2
  have p0 := mul_self_nonneg (w 0); have p1 := mul_self_nonneg (w 1); have p2 := mul_self_nonneg (w 2)
  have k : ∀ i, |w i| ≤ 1 := by
    intro i
    apply abs_le_of_sq_le_sq _ (by norm_num)
    fin_cases i <;> simp only [Fin.zero_eta, Fin.mk_one, Fin.reduceFinMk, sq] <;> linarith
  obtain ⟨d, hd⟩ : ∃ d : Vec, d = n - w := ⟨_, rfl⟩
  have hdi : ∀ i, d i = n i - w i := by intro i; rw [hd]; rfl
  have hdl : len d ≤ 1 / 2 ^ 50 := by
    rw [len_eq]
    apply Real.sqrt_le_iff.2
    refine ⟨by norm_num, ?_⟩
    have k0 := sq_aux (hc 0) (k 0) h0 hη
    have k1 := sq_aux (hc 1) (k 1) h0 hη
    have k2 := sq_aux (hc 2) (k 2) h0 hη
    rw [hdi, hdi, hdi]
    clear * - k0 k1 k2 h1 hη
    norm_num at k0 k1 k2 hη ⊢
    linarith
  have hn : n = w + d := by rw [hd]; abel
  rw [hn, ← hw]
  have t1 := len_add_le w d
  have t2 := len_add_le (w + d) (-d)
  rw [add_neg_cancel_right, show -d = (-1 : ℝ) • d by simp, len_smul, abs_neg, abs_one, one_mul] at t2
  rw [abs_le]; constructor <;> linarith

/-- C80: in double precision `dvn` returns the modulus with a relative error of at most 2^-51 and a vector whose components
    are those of the unit vector with the same relative error, so that its length is 1 up to 2^-50, for every vector of
    length at least 2^-500. -/
theorem C80_dvn (R : Rounding binary64) (v : Vec) (hv : (2 : ℝ) ^ (-500 : ℤ) ≤ len v) :
    |(Fp.dvn R v).1 - len v| ≤ 1 / 2 ^ 51 * len v ∧
    (∀ i, |(Fp.dvn R v).2 i - v i / len v| ≤ 1 / 2 ^ 51 * |v i / len v| + 2 ^ (-1075 : ℤ)) ∧
    |len (Fp.dvn R v).2 - 1| ≤ 1 / 2 ^ 50 := by
  obtain ⟨S, hS⟩ : ∃ S, S = v 0 * v 0 + v 1 * v 1 + v 2 * v 2 := ⟨_, rfl⟩
  have hSn : 0 ≤ S := by
    rw [hS]; nlinarith [mul_self_nonneg (v 0), mul_self_nonneg (v 1), mul_self_nonneg (v 2)]
  obtain ⟨L, hL⟩ : ∃ L, L = len v := ⟨_, rfl⟩
  have hLS : L ^ 2 = S := by rw [hL, len_eq, ← hS, Real.sq_sqrt hSn]
  have hL0 : 0 < L := by rw [hL]; exact (two_zpow_pos _).trans_le hv
  rw [← hL] at hv ⊢
  have hS0 : (2 : ℝ) ^ (-1000 : ℤ) ≤ S := by
    rw [← hLS, show (-1000 : ℤ) = -500 + -500 by norm_num, zpow_split, sq]
    exact mul_self_le_mul_self (two_zpow_pos _).le hv
  have hss := sumsq_near R v S hS hS0
  obtain ⟨s, hs⟩ : ∃ s, s = Fp.acc3 R (fun i => R (v i * v i)) := ⟨_, rfl⟩
  rw [← hs] at hss
  have hs0 : 0 ≤ s := by
    rw [abs_le] at hss; norm_num at hss; linarith [hss.1]
  obtain ⟨r, hr⟩ : ∃ r, r = Real.sqrt s := ⟨_, rfl⟩
  have hr0 : 0 ≤ r := by rw [hr]; exact Real.sqrt_nonneg _
  have hrs : r ^ 2 = s := by rw [hr, Real.sq_sqrt hs0]
  -- the root
  have hrL : |r - L| ≤ 1.6 / 2 ^ 53 * L := by
    have hlow : (1 - 1 / 2 ^ 40) * L ≤ r := by
      apply le_of_sq_le_sq _ hr0
      rw [hrs, mul_pow, hLS]
      rw [abs_le] at hss; norm_num at hss ⊢; nlinarith [hss.1]
    have h1 : |r - L| * (r + L) ≤ 3.1 / 2 ^ 53 * L ^ 2 := by
      rw [← abs_of_pos (by linarith : 0 < r + L), ← abs_mul, show (r - L) * (r + L) = r ^ 2 - L ^ 2 by ring, hrs, hLS]
      exact hss
    have h2 : |r - L| * ((2 - 1 / 2 ^ 40) * L) ≤ 3.1 / 2 ^ 53 * L ^ 2 := by
      refine le_trans (mul_le_mul_of_nonneg_left ?_ (abs_nonneg _)) h1
      linarith
    have h3 : |r - L| * (2 - 1 / 2 ^ 40) ≤ 3.1 / 2 ^ 53 * L := by
      apply le_of_mul_le_mul_right _ hL0
      linarith
    norm_num at h3 ⊢
    linarith
  have hr1 : (2 : ℝ) ^ (binary64.emin + binary64.prec - 1) ≤ |r| := by
    rw [abs_of_nonneg hr0, show binary64.emin + (binary64.prec : ℤ) - 1 = -1022 by rfl]
    have : (2 : ℝ) ^ (-1022 : ℤ) ≤ 1 / 2 * 2 ^ (-500 : ℤ) := by
      rw [show (1 : ℝ) / 2 = 2 ^ (-1 : ℤ) by norm_num, ← zpow_split]; exact two_zpow_le (by norm_num)
    rw [abs_le] at hrL; norm_num at hrL; linarith [hrL.1]
  have hm := R.rel_error r hr1
  rw [eps64, abs_of_nonneg hr0] at hm
  obtain ⟨m, hmd⟩ : ∃ m, m = R r := ⟨_, rfl⟩
  rw [← hmd] at hm
  have hmL : |m - L| ≤ 2.7 / 2 ^ 53 * L := by
    clear * - hm hrL hL0
    rw [abs_le] at *; norm_num at *
    constructor <;> linarith [hm.1, hm.2, hrL.1, hrL.2]
  have hm0 : 0 < m := by
    rw [abs_le] at hmL; norm_num at hmL; linarith [hmL.1]
  have hdvn : Fp.dvn R v = (m, fun i => R (v i / m)) := by
    unfold Fp.dvn
    simp only [← hs, ← hr, ← hmd, if_neg (not_le.2 hm0)]
  rw [hdvn]
  obtain ⟨η, hη⟩ : ∃ η : ℝ, η = 2 ^ (-1075 : ℤ) := ⟨_, rfl⟩
  have hη0 : 0 < η := by rw [hη]; exact two_zpow_pos _
  have hη1 : η ≤ 1 / 2 ^ 60 := by
    rw [hη, show (1 : ℝ) / 2 ^ 60 = 2 ^ (-60 : ℤ) by norm_num]; exact two_zpow_le (by norm_num)
  -- the components
  have hc : ∀ i, |R (v i / m) - v i / L| ≤ 1 / 2 ^ 51 * |v i / L| + η := by
    intro i
    have h1 := R.error_le (v i / m)
    rw [eps64, eta64, ← hη] at h1
    have h2 : |v i / m - v i / L| ≤ 2.8 / 2 ^ 53 * |v i / L| := by
      have e : v i / m - v i / L = v i / L * ((L - m) / m) := by field_simp
      rw [e, abs_mul, mul_comm]
      apply mul_le_mul_of_nonneg_right _ (abs_nonneg _)
      rw [abs_div, abs_of_pos hm0, div_le_iff₀ hm0, abs_sub_comm]
      refine hmL.trans ?_
      rw [abs_le] at hmL
      norm_num at hmL ⊢
      linarith [hmL.1, hmL.2]
    have h3 : |v i / m| ≤ |v i / L| + |v i / m - v i / L| := by
      have := abs_add_le (v i / L) (v i / m - v i / L)
      rwa [add_sub_cancel] at this
    have h4 := abs_sub_le (R (v i / m)) (v i / m) (v i / L)
    rw [abs_sub_comm (R (v i / m)) (v i / m)] at h4
    have h5 := abs_nonneg (v i / L)
    exact comb_aux h1 h2 h3 h4 h5
  refine ⟨?_, ?_, ?_⟩
  · refine hmL.trans ?_
    norm_num; linarith
  · rw [← hη]; exact hc
  · -- length
    have hlw : len (fun i => v i / L) = 1 := by
      have : (fun i => v i / L) = (1 / L) • v := by funext i; simp [div_eq_inv_mul]
      rw [this, len_smul, abs_of_pos (by positivity), ← hL]; field_simp
    refine len_near _ _ hlw hη0 ?_ hc
    rw [hη, show (1 : ℝ) / 2 ^ 110 = 2 ^ (-110 : ℤ) by norm_num]; exact two_zpow_le (by norm_num)

/-- C80: below that, underflow makes `dvn` fail silently: for a vector of doubles with components up to 2^-538 the modulus
    returned is zero although the vector is not null, and the "unit vector" is the vector itself. -/
theorem C80_dvn_underflow (R : Rounding binary64) (v : Vec) (hr : ∀ i, binary64.Rep (v i))
    (hv : ∀ i, |v i| ≤ 2 ^ (-538 : ℤ)) : Fp.dvn R v = (0, v) := by
  have hz : ∀ i, R (v i * v i) = 0 := by
    intro i
    have h1 : |v i * v i| ≤ 2 ^ (-1076 : ℤ) := by
      rw [abs_mul, show (-1076 : ℤ) = -538 + -538 by norm_num, zpow_split]
      exact mul_le_mul (hv i) (hv i) (abs_nonneg _) (two_zpow_pos _).le
    have h2 := R.nearest (v i * v i) 0 rep_zero
    rw [sub_zero] at h2
    have h3 : |R (v i * v i)| ≤ 2 ^ (-1075 : ℤ) := by
      have h4 := abs_sub_abs_le_abs_sub (R (v i * v i)) (v i * v i)
      rw [abs_sub_comm] at h4
      have : (2 : ℝ) ^ (-1075 : ℤ) = 2 ^ (-1076 : ℤ) + 2 ^ (-1076 : ℤ) := by
        rw [show (-1075 : ℤ) = 1 + -1076 by norm_num, zpow_split]; ring
      linarith
    obtain ⟨m, e, -, he, hme⟩ := R.rep (v i * v i)
    by_contra hne
    have hm0 : m ≠ 0 := by rintro rfl; simp at hme; exact hne hme
    have hm1 : (1 : ℝ) ≤ |(m : ℝ)| := by
      rw [← Int.cast_abs]; exact_mod_cast Int.one_le_abs hm0
    rw [hme, abs_mul, abs_of_pos (two_zpow_pos e)] at h3
    have h5 : (2 : ℝ) ^ (-1074 : ℤ) ≤ 2 ^ e := two_zpow_le he
    have h6 : (2 : ℝ) ^ (-1074 : ℤ) = 2 ^ (-1075 : ℤ) + 2 ^ (-1075 : ℤ) := by
      rw [show (-1074 : ℤ) = 1 + -1075 by norm_num, zpow_split]; ring
    have h7 := two_zpow_pos (-1075)
    nlinarith [two_zpow_pos e]
  unfold Fp.dvn Fp.acc3
  simp only [hz]
  simp
  funext i
  exact R.eq_self (hr i)

example : ∃ v : Vec, v ≠ 0 ∧ Fp.dvn (ieee binary64) v = (0, v) := by
  refine ⟨fun _ => 2 ^ (-600 : ℤ), ?_, C80_dvn_underflow _ _ (fun _ => ⟨1, -600, by norm_num [binary64],
    by norm_num [binary64], by simp⟩) (fun _ => ?_)⟩
  · intro h
    have := congrFun h 0
    exact (two_zpow_pos (-600)).ne' this
  · rw [abs_of_pos (two_zpow_pos _)]; exact two_zpow_le (by norm_num)

example : (2 : ℝ) ^ (-500 : ℤ) ≤ len ![3, 0, 4] := by
  have : len ![3, 0, 4] = 5 := by
    rw [len_eq]; simp
    rw [show (3 * 3 + 4 * 4 : ℝ) = 5 ^ 2 by norm_num, Real.sqrt_sq (by norm_num)]
  rw [this]
  calc (2 : ℝ) ^ (-500 : ℤ) ≤ 2 ^ (0 : ℤ) := two_zpow_le (by norm_num)
    _ ≤ 5 := by norm_num

example : ∀ i j, binary64.Rep ((1 : Mat) i j) := by
  intro i j
  rw [Matrix.one_apply]; split
  · exact rep_one (by norm_num [binary64])
  · exact rep_zero

end Sla.Props
