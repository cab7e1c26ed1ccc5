import Verif.Model.FpSeries
import Verif.Lemmas.FpAngle
import Verif.Lemmas.FpNut
import Verif.Lemmas.FpEpv
import Verif.Props.FpRange
import Verif.Props.Angles

/-
The nutation series of 1980 in double precision, for dates within 1000 years of J2000 (the chains of bounds are generated).
-/
namespace Sla.Fp
open Real (pi)
variable {D sn cs : ℝ → ℝ}

/-- A running sum, term by term. -/
theorem fold_nb {K : Type*} {f' f : ℝ → K → ℝ} {er bd : K → ℤ} {α β ρ B : ℝ} (hα : 0 ≤ α) (hβ : 0 ≤ β) (hρ : 0 ≤ ρ)
    (her : ∀ k, 0 ≤ er k) (hbd : ∀ k, 0 ≤ bd k) (l : List K)
    (h : ∀ k ∈ l, ∀ s s' e b, Nb s' s e b → b + β * bd k ≤ B → e ≤ 0.01 * B → Nb (f' s' k) (f s k) (e + α * er k + ρ) (b + β * bd k)) :
    ∀ (s s' e b : ℝ), Nb s' s e b → b + β * ((l.map bd).sum : ℤ) ≤ B → e + α * ((l.map er).sum : ℤ) + l.length * ρ ≤ 0.01 * B →
      Nb (l.foldl f' s') (l.foldl f s) (e + α * ((l.map er).sum : ℤ) + l.length * ρ) (b + β * ((l.map bd).sum : ℤ)) := by
  induction l with
  | nil => intro s s' e b h1 _ _; simpa using h1
  | cons k l ih =>
    intro s s' e b h1 h2 h3
    have n1 : 0 ≤ α * ((l.map er).sum : ℤ) := mul_nonneg hα (Int.cast_nonneg (List.sum_nonneg (by simp; intro a _; exact her a)))
    have n2 : 0 ≤ β * ((l.map bd).sum : ℤ) := mul_nonneg hβ (Int.cast_nonneg (List.sum_nonneg (by simp; intro a _; exact hbd a)))
    have n3 : 0 ≤ (l.length : ℝ) * ρ := by positivity
    have n4 : 0 ≤ α * (er k : ℝ) := mul_nonneg hα (Int.cast_nonneg (her k))
    rw [List.map_cons, List.sum_cons, Int.cast_add, mul_add] at h2 h3
    rw [List.length_cons, Nat.cast_add, Nat.cast_one, add_mul, one_mul] at h3
    have h4 := h k (by simp) s s' e b h1 (by linarith) (by linarith)
    have h5 := ih (fun k hk => h k (by simp [hk])) _ _ _ _ h4 (by linarith) (by linarith)
    rw [List.foldl_cons, List.foldl_cons, List.map_cons, List.sum_cons, Int.cast_add, mul_add, List.map_cons, List.sum_cons,
      Int.cast_add, mul_add, List.length_cons, Nat.cast_add, Nat.cast_one, add_mul, one_mul]
    exact h5.mono (by linarith) (by linarith)

/-! ### The fundamental arguments -/

/-- Reduction of an angle to half a turn. -/
theorem drange_na (R : Rounding binary64) {a x e B g : ℝ} (hr : binary64.Rep a) (h : Nb a x e B) (hg : e + 4.1e-17 * (B + e + 4) ≤ g) :
    Na (drange R a) (Sla.drange x) g 3.15 := by
  obtain ⟨h1, -, ⟨k, hk⟩, -, -⟩ := Props.C77_drange R a hr
  obtain ⟨-, -, ⟨m, hm⟩, -, -⟩ := Props.C15_drange x
  have p1 := Real.pi_gt_d20
  have p2 := Real.pi_lt_d20
  have hB : |a| ≤ B + e := by
    have := abs_add_le (a - x) x
    rw [sub_add_cancel] at this
    linarith [h.err, h.bd]
  refine ⟨⟨-k - m, ?_⟩, h1.trans (by norm_num)⟩
  have hd : |(2 : ℝ) * (884279719003555 / 2 ^ 48) - 2 * pi| ≤ 2.46e-16 := by
    rw [abs_le]; constructor <;> norm_num at * <;> linarith
  have hk1 : |(k : ℝ)| * 6 ≤ B + e + 4 := by
    have e1 : (2 * (884279719003555 / 2 ^ 48) : ℝ) * k = a - drange R a := by rw [hk]; ring
    have e2 := congrArg abs e1
    rw [abs_mul, abs_of_pos (show (0 : ℝ) < 2 * (884279719003555 / 2 ^ 48) by norm_num)] at e2
    have e3 := abs_sub a (drange R a)
    have e4 : |drange R a| ≤ 4 := h1.trans (by norm_num)
    have := abs_nonneg (k : ℝ)
    nlinarith
  have e1 : drange R a - (Sla.drange x + ((-k - m : ℤ) : ℝ) * (2 * pi)) =
      (a - x) + -((2 * (884279719003555 / 2 ^ 48) - 2 * pi) * k) := by
    rw [hk, hm]; push_cast; ring
  have h5 : |((2 : ℝ) * (884279719003555 / 2 ^ 48) - 2 * pi) * k| ≤ 2.46e-16 * |(k : ℝ)| := by
    rw [abs_mul]
    exact mul_le_mul_of_nonneg_right hd (abs_nonneg _)
  rw [e1]
  have h6 := abs_add_le (a - x) (-((2 * (884279719003555 / 2 ^ 48) - 2 * pi) * (k : ℝ)))
  rw [abs_neg] at h6
  linarith [h.err]

private theorem arg0 (hD : Dbl D) {t T : ℝ} (ht : Nb t T 2.5e-15 10) :
    Nb (D (D 0.484813681109535994e-5 * D (D 485866.733 + D (D (D (D (1325 * 1296000) + D 715922.633) +
      D (D (D 31.310 + D (D 0.064 * t)) * t)) * t))))
      (as2r * (485866.733 + (1325 * 1296000 + 715922.633 + (31.310 + 0.064 * T) * T) * T)) 9.16e-11 83390 := by
  have has : Nb (D 0.484813681109535994e-5) as2r 6e-22 4.8482e-6 := ⟨as2r_round' hD, as2r_digits.2⟩
  have n1 : Nb _ _ 7.69e-18 0.064 := hD.nlit (x := 0.064) (by norm_num) (by norm_num)
  have n2 : Nb _ _ 3.14e-16 0.64 := hD.nmul n1 ht (by norm_num) (by norm_num)
  have n3 : Nb _ _ 3.76e-15 31.31 := hD.nlit (x := 31.310) (by norm_num) (by norm_num)
  have n4 : Nb _ _ 7.91e-15 31.95 := hD.nadd n3 n2 (by norm_num) (by norm_num)
  have n5 : Nb _ _ 1.98e-13 319.5 := hD.nmul n4 ht (by norm_num) (by norm_num)
  have n7 : Nb _ _ 2.07e-7 1717200000 := hD.nlit (x := 1325 * 1296000) (by norm_num) (by norm_num)
  have n8 : Nb _ _ 8.6e-11 715923 := hD.nlit (x := 715922.633) (by norm_num) (by norm_num)
  have n9 : Nb _ _ 4.14e-7 1718000000 := hD.nadd n7 n8 (by norm_num) (by norm_num)
  have n10 : Nb _ _ 6.21e-7 1719000000 := hD.nadd n9 n5 (by norm_num) (by norm_num)
  have n11 : Nb _ _ 1.26e-5 1.719e10 := hD.nmul n10 ht (by norm_num) (by norm_num)
  have n12 : Nb _ _ 5.84e-11 485867 := hD.nlit (x := 485866.733) (by norm_num) (by norm_num)
  have n13 : Nb _ _ 1.47e-5 1.72e10 := hD.nadd n12 n11 (by norm_num) (by norm_num)
  have n14 : Nb _ _ 9.16e-11 83390 := hD.nmul has n13 (by norm_num) (by norm_num)
  exact n14

private theorem arg1 (hD : Dbl D) {t T : ℝ} (ht : Nb t T 2.5e-15 10) :
    Nb (D (D 0.484813681109535994e-5 * D (D 1287099.804 + D (D (D (D (99 * 1296000) + D 1292581.224) +
      D (D (-D 0.577 - D (D 0.012 * t)) * t)) * t))))
      (as2r * (1287099.804 + (99 * 1296000 + 1292581.224 + (-0.577 - 0.012 * T) * T) * T)) 6.92e-12 6298 := by
  have has : Nb (D 0.484813681109535994e-5) as2r 6e-22 4.8482e-6 := ⟨as2r_round' hD, as2r_digits.2⟩
  have n1 : Nb _ _ 1.45e-18 0.012 := hD.nlit (x := 0.012) (by norm_num) (by norm_num)
  have n2 : Nb _ _ 5.9e-17 0.12 := hD.nmul n1 ht (by norm_num) (by norm_num)
  have n3 : Nb _ _ 6.93e-17 0.577 := hD.nlit (x := 0.577) (by norm_num) (by norm_num)
  have n4 : Nb _ _ 2.12e-16 0.697 := hD.nsub n3.neg n2 (by norm_num) (by norm_num)
  have n5 : Nb _ _ 4.7e-15 6.97 := hD.nmul n4 ht (by norm_num) (by norm_num)
  have n7 : Nb _ _ 1.54e-8 128304000 := hD.nlit (x := 99 * 1296000) (by norm_num) (by norm_num)
  have n8 : Nb _ _ 1.56e-10 1292590 := hD.nlit (x := 1292581.224) (by norm_num) (by norm_num)
  have n9 : Nb _ _ 3.12e-8 129600000 := hD.nadd n7 n8 (by norm_num) (by norm_num)
  have n10 : Nb _ _ 4.68e-8 129700000 := hD.nadd n9 n5 (by norm_num) (by norm_num)
  have n11 : Nb _ _ 9.48e-7 1297000000 := hD.nmul n10 ht (by norm_num) (by norm_num)
  have n12 : Nb _ _ 1.55e-10 1287100 := hD.nlit (x := 1287099.804) (by norm_num) (by norm_num)
  have n13 : Nb _ _ 1.11e-6 1299000000 := hD.nadd n12 n11 (by norm_num) (by norm_num)
  have n14 : Nb _ _ 6.92e-12 6298 := hD.nmul has n13 (by norm_num) (by norm_num)
  exact n14

private theorem arg2 (hD : Dbl D) {t T : ℝ} (ht : Nb t T 2.5e-15 10) :
    Nb (D (D 0.484813681109535994e-5 * D (D 335778.877 + D (D (D (D (1342 * 1296000) + D 295263.137) +
      D (D (-D 13.257 + D (D 0.011 * t)) * t)) * t))))
      (as2r * (335778.877 + (1342 * 1296000 + 295263.137 + (-13.257 + 0.011 * T) * T) * T)) 9.29e-11 84460 := by
  have has : Nb (D 0.484813681109535994e-5) as2r 6e-22 4.8482e-6 := ⟨as2r_round' hD, as2r_digits.2⟩
  have n1 : Nb _ _ 1.33e-18 0.011 := hD.nlit (x := 0.011) (by norm_num) (by norm_num)
  have n2 : Nb _ _ 5.41e-17 0.11 := hD.nmul n1 ht (by norm_num) (by norm_num)
  have n3 : Nb _ _ 1.6e-15 13.257 := hD.nlit (x := 13.257) (by norm_num) (by norm_num)
  have n4 : Nb _ _ 3.26e-15 13.37 := hD.nadd n3.neg n2 (by norm_num) (by norm_num)
  have n5 : Nb _ _ 8.21e-14 133.7 := hD.nmul n4 ht (by norm_num) (by norm_num)
  have n7 : Nb _ _ 2.09e-7 1739232000 := hD.nlit (x := 1342 * 1296000) (by norm_num) (by norm_num)
  have n8 : Nb _ _ 3.55e-11 295264 := hD.nlit (x := 295263.137) (by norm_num) (by norm_num)
  have n9 : Nb _ _ 4.18e-7 1.74e9 := hD.nadd n7 n8 (by norm_num) (by norm_num)
  have n10 : Nb _ _ 6.27e-7 1741000000 := hD.nadd n9 n5 (by norm_num) (by norm_num)
  have n11 : Nb _ _ 1.28e-5 1.741e10 := hD.nmul n10 ht (by norm_num) (by norm_num)
  have n12 : Nb _ _ 4.03e-11 335779 := hD.nlit (x := 335778.877) (by norm_num) (by norm_num)
  have n13 : Nb _ _ 1.49e-5 1.742e10 := hD.nadd n12 n11 (by norm_num) (by norm_num)
  have n14 : Nb _ _ 9.29e-11 84460 := hD.nmul has n13 (by norm_num) (by norm_num)
  exact n14

private theorem arg3 (hD : Dbl D) {t T : ℝ} (ht : Nb t T 2.5e-15 10) :
    Nb (D (D 0.484813681109535994e-5 * D (D 1072261.307 + D (D (D (D (1236 * 1296000) + D 1105601.328) +
      D (D (-D 6.891 + D (D 0.019 * t)) * t)) * t))))
      (as2r * (1072261.307 + (1236 * 1296000 + 1105601.328 + (-6.891 + 0.019 * T) * T) * T)) 8.59e-11 77820 := by
  have has : Nb (D 0.484813681109535994e-5) as2r 6e-22 4.8482e-6 := ⟨as2r_round' hD, as2r_digits.2⟩
  have n1 : Nb _ _ 2.29e-18 0.019 := hD.nlit (x := 0.019) (by norm_num) (by norm_num)
  have n2 : Nb _ _ 9.33e-17 0.19 := hD.nmul n1 ht (by norm_num) (by norm_num)
  have n3 : Nb _ _ 8.27e-16 6.891 := hD.nlit (x := 6.891) (by norm_num) (by norm_num)
  have n4 : Nb _ _ 1.78e-15 7.081 := hD.nadd n3.neg n2 (by norm_num) (by norm_num)
  have n5 : Nb _ _ 4.4e-14 70.81 := hD.nmul n4 ht (by norm_num) (by norm_num)
  have n7 : Nb _ _ 1.93e-7 1601856000 := hD.nlit (x := 1236 * 1296000) (by norm_num) (by norm_num)
  have n8 : Nb _ _ 1.33e-10 1105610 := hD.nlit (x := 1105601.328) (by norm_num) (by norm_num)
  have n9 : Nb _ _ 3.86e-7 1603000000 := hD.nadd n7 n8 (by norm_num) (by norm_num)
  have n10 : Nb _ _ 5.79e-7 1604000000 := hD.nadd n9 n5 (by norm_num) (by norm_num)
  have n11 : Nb _ _ 1.18e-5 1.604e10 := hD.nmul n10 ht (by norm_num) (by norm_num)
  have n12 : Nb _ _ 1.29e-10 1072270 := hD.nlit (x := 1072261.307) (by norm_num) (by norm_num)
  have n13 : Nb _ _ 1.38e-5 1.605e10 := hD.nadd n12 n11 (by norm_num) (by norm_num)
  have n14 : Nb _ _ 8.59e-11 77820 := hD.nmul has n13 (by norm_num) (by norm_num)
  exact n14

private theorem arg4 (hD : Dbl D) {t T : ℝ} (ht : Nb t T 2.5e-15 10) :
    Nb (D (D 0.484813681109535994e-5 * D (D 450160.280 + D (D (D (D (-5 * 1296000) - D 482890.539) +
      D (D (D 7.455 + D (D 0.008 * t)) * t)) * t))))
      (as2r * (450160.280 + (-5 * 1296000 - 482890.539 + (7.455 + 0.008 * T) * T) * T)) 3.72e-13 339.9 := by
  have has : Nb (D 0.484813681109535994e-5) as2r 6e-22 4.8482e-6 := ⟨as2r_round' hD, as2r_digits.2⟩
  have n1 : Nb _ _ 9.61e-19 0.008 := hD.nlit (x := 0.008) (by norm_num) (by norm_num)
  have n2 : Nb _ _ 3.93e-17 0.08 := hD.nmul n1 ht (by norm_num) (by norm_num)
  have n3 : Nb _ _ 8.95e-16 7.455 := hD.nlit (x := 7.455) (by norm_num) (by norm_num)
  have n4 : Nb _ _ 1.84e-15 7.535 := hD.nadd n3 n2 (by norm_num) (by norm_num)
  have n5 : Nb _ _ 4.63e-14 75.35 := hD.nmul n4 ht (by norm_num) (by norm_num)
  have n7 : Nb _ _ 7.78e-10 6480000 := hD.nlit (x := -5 * 1296000) (by norm_num) (by norm_num)
  have n8 : Nb _ _ 5.8e-11 482891 := hD.nlit (x := 482890.539) (by norm_num) (by norm_num)
  have n9 : Nb _ _ 1.68e-9 6963000 := hD.nsub n7 n8 (by norm_num) (by norm_num)
  have n10 : Nb _ _ 2.52e-9 6964000 := hD.nadd n9 n5 (by norm_num) (by norm_num)
  have n11 : Nb _ _ 5.1e-8 69640000 := hD.nmul n10 ht (by norm_num) (by norm_num)
  have n12 : Nb _ _ 5.41e-11 450161 := hD.nlit (x := 450160.280) (by norm_num) (by norm_num)
  have n13 : Nb _ _ 5.95e-8 70100000 := hD.nadd n12 n11 (by norm_num) (by norm_num)
  have n14 : Nb _ _ 3.72e-13 339.9 := hD.nmul has n13 (by norm_num) (by norm_num)
  exact n14

/-- Each of the five arguments is right to 9.64e-11 rad, up to whole turns. -/
theorem nut80Angles_near (R : Rounding binary64) {t T : ℝ} (ht : Nb t T 2.5e-15 10) :
    List.Forall₂ (fun a x => Na a x 9.64e-11 3.15) (nut80Angles R t) (Sla.nut80Angles T) :=
  .cons (drange_na R (R.rep _) (arg0 R.dbl ht) (by norm_num)) (.cons (drange_na R (R.rep _) (arg1 R.dbl ht) (by norm_num))
    (.cons (drange_na R (R.rep _) (arg2 R.dbl ht) (by norm_num)) (.cons (drange_na R (R.rep _) (arg3 R.dbl ht) (by norm_num))
    (.cons (drange_na R (R.rep _) (arg4 R.dbl ht) (by norm_num)) .nil))))

/-! ### The argument of a term -/

private theorem mult_na (hD : Dbl D) {k : ℕ} (h0 : k ≠ 0) (h4 : k ≤ 4) {a x δ : ℝ} (h : Na a x δ 3.15) :
    Na (nut80Mult D k a) (k * x) (k * δ + 4e-15) 12.7 := by
  have h2 : Na (D (a + a)) (x + x) (δ + δ + 7.7e-16) 6.31 := (h.add h).dbl hD (by norm_num; linarith) (by norm_num)
  unfold nut80Mult
  interval_cases k
  · exact absurd rfl h0
  · simpa using h.mono (by norm_num) (by norm_num)
  · simpa [two_mul] using h2.mono (g := δ + δ + 4e-15) (C := 12.7) (by norm_num) (by norm_num)
  · have h3 : Na (D (D (a + a) + a)) (x + x + x) (3 * δ + 4e-15) 12.7 := (h2.add h).dbl hD (by norm_num; linarith) (by norm_num)
    simpa [show x + x + x = 3 * x by ring] using h3
  · have h3 : Na (D (D (a + a) + D (a + a))) (x + x + (x + x)) (4 * δ + 4e-15) 12.7 :=
      (h2.add h2).dbl hD (by norm_num; linarith) (by norm_num)
    simpa [show x + x + (x + x) = 4 * x by ring] using h3

private theorem signed_na (hD : Dbl D) {k : ℤ} (h0 : k ≠ 0) (h4 : |k| ≤ 4) {a x δ : ℝ} (h : Na a x δ 3.15) :
    Na (if 0 < k then nut80Mult D k.natAbs a else -nut80Mult D k.natAbs a) (k * x) (|(k : ℝ)| * δ + 4e-15) 12.7 := by
  have hm := mult_na hD (k := k.natAbs) (by omega) (by rw [Int.abs_eq_natAbs] at h4; omega) h
  have e1 : ((k.natAbs : ℕ) : ℝ) = |(k : ℝ)| := by rw [← Int.cast_abs, Int.abs_eq_natAbs]; simp
  rw [e1] at hm
  split_ifs with hk
  · rwa [abs_of_pos (show (0 : ℝ) < k by exact_mod_cast hk)] at hm ⊢
  · have hk' : (k : ℝ) < 0 := by exact_mod_cast (by omega : k < 0)
    rw [abs_of_neg hk'] at hm ⊢
    have := hm.neg
    rwa [show -(-(k : ℝ) * x) = k * x by ring] at this

private theorem next_na (hD : Dbl D) {k : ℤ} (h4 : |k| ≤ 4) {a x δ s σ E B : ℝ} (h : Na a x δ 3.15) (hs : Na s σ E B) (hB : B ≤ 60) :
    Na (nut80Next D s (k, a)) (σ + k * x) (E + |(k : ℝ)| * δ + 1.4e-14) (B + 12.8) := by
  unfold nut80Next
  split_ifs with h0 hk
  · have e0 : k = 0 := h0
    subst e0
    simpa using hs.mono (g := E + 1.4e-14) (C := B + 12.8) (by norm_num) (by norm_num)
  · have := signed_na hD h0 h4 h
    rw [if_pos hk] at this
    exact (hs.add this).dbl hD (by norm_num at *; linarith) (by norm_num at *; linarith)
  · have := signed_na hD h0 h4 h
    rw [if_neg hk] at this
    have := (hs.add this).dbl hD (g := E + |(k : ℝ)| * δ + 1.4e-14) (C := B + 12.8) (by norm_num at *; linarith) (by norm_num at *; linarith)
    rwa [← sub_eq_add_neg] at this

private theorem fold_na (hD : Dbl D) {δ : ℝ} (fa : List ℤ) (h4 : ∀ k ∈ fa, |k| ≤ 4) :
    ∀ (A X : List ℝ), List.Forall₂ (fun a x => Na a x δ 3.15) A X → ∀ (s σ E B : ℝ), Na s σ E B → 0 ≤ δ → B + 12.8 * fa.length ≤ 70 →
      Na ((fa.zip A).foldl (nut80Next D) s) ((fa.zip X).foldl (fun s p => s + (p.1 : ℝ) * p.2) σ)
        (E + weight fa * δ + fa.length * 1.4e-14) (B + 12.8 * fa.length) := by
  induction fa with
  | nil => intro A X _ s σ E B h _ _; simpa [weight] using h
  | cons k fa ih =>
    intro A X h s σ E B hs hδ hB
    have w0 : (0 : ℝ) ≤ weight fa := by exact_mod_cast weight_nonneg fa
    have ek : (weight (k :: fa) : ℝ) = |(k : ℝ)| + weight fa := by simp [weight]
    have el : (((k :: fa).length : ℕ) : ℝ) = fa.length + 1 := by simp
    rw [el] at hB
    have l0 : (0 : ℝ) ≤ (fa.length : ℝ) := by positivity
    cases h with
    | nil =>
      simp only [List.zip_nil_right, List.foldl_nil]
      rw [ek, el]
      have := mul_nonneg w0 hδ
      have := mul_nonneg (abs_nonneg (k : ℝ)) hδ
      exact hs.mono (by linarith) (by linarith)
    | @cons a x A X ha hA =>
      simp only [List.zip_cons_cons, List.foldl_cons]
      have h1 := next_na hD (h4 k (by simp)) ha hs (by linarith)
      have h2 := ih (fun k hk => h4 k (by simp [hk])) A X hA _ _ _ _ h1 hδ (by linarith)
      rw [ek, el]
      exact h2.mono (by linarith) (by linarith)

private theorem theta_na (hD : Dbl D) {δ : ℝ} (hδ : 0 ≤ δ) (fa : List ℤ) (h4 : ∀ k ∈ fa, |k| ≤ 4) (hl : fa.length ≤ 5) :
    ∀ (A X : List ℝ), List.Forall₂ (fun a x => Na a x δ 3.15) A X → ∀ σ : ℝ, σ = 0 → 
      Na (nut80Theta D (fa.zip A)) ((fa.zip X).foldl (fun s p => s + (p.1 : ℝ) * p.2) σ) (weight fa * δ + fa.length * 1.4e-14) 70 := by
  have z : Na 0 0 0 0 := ⟨⟨0, by simp⟩, by simp⟩
  induction fa with
  | nil =>
    rintro A X _ σ rfl
    simpa [weight, nut80Theta] using z.mono (g := 0) (C := 70) le_rfl (by norm_num)
  | cons k fa ih =>
    rintro A X h σ rfl
    have w0 : (0 : ℝ) ≤ weight fa := by exact_mod_cast weight_nonneg fa
    have ek : (weight (k :: fa) : ℝ) = |(k : ℝ)| + weight fa := by simp [weight]
    have el : (((k :: fa).length : ℕ) : ℝ) = fa.length + 1 := by simp
    have l0 : (0 : ℝ) ≤ (fa.length : ℝ) := by positivity
    have l4 : (fa.length : ℝ) ≤ 4 := by
      have : fa.length ≤ 4 := by simp only [List.length_cons] at hl; omega
      exact_mod_cast this
    have := mul_nonneg w0 hδ
    have := mul_nonneg (abs_nonneg (k : ℝ)) hδ
    rw [ek, el]
    cases h with
    | nil =>
      simp only [List.zip_nil_right, List.foldl_nil, nut80Theta]
      exact z.mono (by linarith) (by norm_num)
    | @cons a x A X ha hA =>
      simp only [List.zip_cons_cons, List.foldl_cons, nut80Theta]
      split_ifs with h0 hk
      · have e0 : k = 0 := h0
        subst e0
        exact (ih (fun k hk => h4 k (by simp [hk])) (by simp at hl; omega) A X hA _ (by simp)).mono (by linarith) le_rfl
      · have h1 := signed_na hD h0 (h4 k (by simp)) ha
        rw [if_pos hk] at h1
        have h2 := fold_na hD fa (fun k hk => h4 k (by simp [hk])) A X hA _ _ _ _ h1 hδ (by linarith)
        rw [zero_add]
        exact h2.mono (by linarith) (by linarith)
      · have h1 := signed_na hD h0 (h4 k (by simp)) ha
        rw [if_neg hk] at h1
        have h2 := fold_na hD fa (fun k hk => h4 k (by simp [hk])) A X hA _ _ _ _ h1 hδ (by linarith)
        rw [zero_add]
        exact h2.mono (by linarith) (by linarith)

/-! ### The series -/

/-- Ten times the largest coefficient within 1000 years. -/
def i80 (q : ℤ × ℤ) : ℤ := |q.1| + 10 * |q.2|

private theorem i80_nonneg (q : ℤ × ℤ) : 0 ≤ i80 q := by unfold i80; positivity

private theorem acc_nb (hD : Dbl D) {t T v' v s' s e b ε B : ℝ} (ht : Nb t T 2.5e-15 10) (hv : Nb v' v ε 1) (hε : 0 ≤ ε) (hε1 : ε ≤ 1e-3) (q : ℤ × ℤ)
    (hs : Nb s' s e b) (hb : b + 0.1 * (i80 q : ℝ) ≤ B) (he : e ≤ 0.01 * B) (hB : 1 ≤ B) :
    Nb (nut80Acc D t s' v' q) (s + (tenth q.1 + tenth q.2 * T) * v) (e + 0.1 * (i80 q : ℝ) * (ε + 1e-15) + 1.3e-16 * B) (b + 0.1 * (i80 q : ℝ)) := by
  obtain ⟨p, r⟩ := q
  have e0 : 0 ≤ e := (abs_nonneg _).trans hs.err
  have b0 : 0 ≤ b := (abs_nonneg _).trans hs.bd
  have hi0 : (0 : ℝ) ≤ i80 (p, r) := by exact_mod_cast i80_nonneg _
  have hi : (i80 (p, r) : ℝ) = |(p : ℝ)| + 10 * |(r : ℝ)| := by simp [i80]
  set I : ℝ := 0.1 * (i80 (p, r) : ℝ) with hI
  have I0 : 0 ≤ I := by positivity
  have Iε : 0 ≤ I * ε := by positivity
  have Iε1 : I * ε ≤ 1e-3 * I := by nlinarith
  have dl : (0 : ℝ) < 1e-15 := by norm_num
  -- adding an increment
  have fin : ∀ u' u, Nb u' u (I * (ε + 9e-16) + 1e-180) I → Nb (D (s' + u')) (s + u) (e + I * (ε + 1e-15) + 1.3e-16 * B) (b + I) := by
    intro u' u hu
    refine hD.nadd hs hu le_rfl ?_
    nlinarith
  unfold nut80Acc
  have hp : |tenth p| = 0.1 * |(p : ℝ)| := by unfold tenth; rw [abs_div]; norm_num; ring
  have hpn : |tenth (-p)| = 0.1 * |(p : ℝ)| := by unfold tenth; rw [abs_div]; norm_num; ring
  have hr : |tenth r| = 0.1 * |(r : ℝ)| := by unfold tenth; rw [abs_div]; norm_num; ring
  have hrn : |tenth (-r)| = 0.1 * |(r : ℝ)| := by unfold tenth; rw [abs_div]; norm_num; ring
  have r0 := abs_nonneg (r : ℝ)
  have p0 := abs_nonneg (p : ℝ)
  by_cases h0 : r = 0
  · subst h0
    have hIp : I = 0.1 * |(p : ℝ)| := by rw [hI, hi]; simp
    simp only [if_true]
    rw [show tenth (0 : ℤ) = 0 by simp [tenth], zero_mul, add_zero]
    by_cases h1 : p = 0
    · subst h1
      simp only [if_true]
      rw [show tenth (0 : ℤ) = 0 by simp [tenth], zero_mul, add_zero]
      exact hs.mono (by nlinarith) (by linarith)
    rw [if_neg h1]
    by_cases h2 : p = 10
    · subst h2
      rw [if_pos rfl, show tenth (10 : ℤ) = 1 by norm_num [tenth], one_mul]
      have : I = 1 := by rw [hIp, ← Int.cast_abs, show |(10 : ℤ)| = 10 from rfl]; norm_num
      exact fin _ _ (hv.mono (by rw [this]; linarith) (by rw [this]))
    rw [if_neg h2]
    by_cases h3 : p = -10
    · subst h3
      rw [if_pos rfl, show tenth (-10 : ℤ) = -1 by norm_num [tenth], neg_one_mul, sub_eq_add_neg]
      have : I = 1 := by rw [hIp, ← Int.cast_abs, show |(-10 : ℤ)| = 10 from rfl]; norm_num
      exact fin _ _ (hv.neg.mono (by rw [this]; linarith) (by rw [this]))
    rw [if_neg h3]
    have mul : ∀ c : ℝ, |c| = I → Nb (D (c * v')) (c * v) (I * (ε + 9e-16) + 1e-180) I := by
      intro c hc
      refine hD.nmul (Nb.self hc.le) hv (by linarith) ?_
      nlinarith
    split_ifs with h4
    · exact fin _ _ (mul _ (by rw [hp, hIp]))
    · have := fin _ _ (mul (tenth (-p)) (by rw [hpn, hIp])).neg
      rw [show -(tenth (-p) * v) = tenth p * v by unfold tenth; push_cast; ring] at this
      rwa [sub_eq_add_neg]
  · rw [if_neg h0]
    have hIr : 0.1 * |(p : ℝ)| + |(r : ℝ)| = I := by rw [hI, hi]; ring
    have lit : ∀ c : ℝ, |c| = 0.1 * |(r : ℝ)| → Nb (D (D c * t)) (c * T) (5e-16 * |(r : ℝ)| + 1e-190) |(r : ℝ)| := by
      intro c hc
      have h1 : Nb (D c) c (1.2e-17 * |(r : ℝ)| + 1e-200) (0.1 * |(r : ℝ)|) := hD.nlit hc.le (by linarith)
      refine hD.nmul h1 ht (by linarith) ?_
      linarith
    have hp' : Nb (tenth p) (tenth p) 0 (0.1 * |(p : ℝ)|) := Nb.self hp.le
    have co : ∀ c' c : ℝ, Nb c' c (7e-16 * I + 1e-185) I → Nb (D (c' * v')) (c * v) (I * (ε + 9e-16) + 1e-180) I := by
      intro c' c hc
      refine hD.nmul hc hv (by linarith) ?_
      nlinarith
    split_ifs with h1
    · refine fin _ _ (co _ _ ?_)
      refine hD.nadd hp' (lit (tenth r) hr) hIr.le ?_
      linarith
    · have hh : tenth p + tenth r * T = tenth p - tenth (-r) * T := by unfold tenth; push_cast; ring
      rw [hh]
      refine fin _ _ (co _ _ ?_)
      refine hD.nsub hp' (lit (tenth (-r)) hrn) hIr.le ?_
      linarith

private theorem terms_ok : ∀ r ∈ nut80Terms, (∀ k ∈ r.fa, |k| ≤ 4) ∧ r.fa.length = 5 ∧ 1 ≤ weight r.fa ∧ weight r.fa ≤ 20 := by
  decide +kernel

private theorem sums80 : (nut80Terms.map fun r => i80 r.p * weight r.fa).sum = 2816850 ∧ (nut80Terms.map fun r => i80 r.e * weight r.fa).sum = 1380100 ∧
    (nut80Terms.map fun r => i80 r.p).sum = 1961910 ∧ (nut80Terms.map fun r => i80 r.e).sum = 1009030 ∧ nut80Terms.length = 106 := by
  decide +kernel

private theorem theta80 (R : Rounding binary64) {t T : ℝ} (ht : Nb t T 2.5e-15 10) {r : Nut80Term} (hr : r ∈ nut80Terms) :
    Na (nut80Theta R (r.fa.zip (nut80Angles R t))) (Sla.nutTheta r.fa (Sla.nut80Angles T)) (weight r.fa * 9.65e-11 - 2e-16) 70 ∧
      (1 : ℝ) ≤ weight r.fa ∧ (weight r.fa : ℝ) ≤ 20 := by
  obtain ⟨h4, h5, w1, w2⟩ := terms_ok r hr
  have w1' : (1 : ℝ) ≤ weight r.fa := by exact_mod_cast w1
  have w2' : (weight r.fa : ℝ) ≤ 20 := by exact_mod_cast w2
  refine ⟨(theta_na R.dbl (δ := 9.64e-11) (by norm_num) r.fa h4 (by omega) _ _ (nut80Angles_near R ht) 0 rfl).mono ?_ le_rfl, w1', w2'⟩
  rw [h5]
  push_cast
  linarith

attribute [local irreducible] nut80Terms in
/-- The two sums, in units of 0.0001 arcsecond. -/
theorem nut80_sums (R : Rounding binary64) (hs : ∀ x, |sn x - Real.sin x| ≤ 2e-16) (hc : ∀ x, |cs x - Real.cos x| ≤ 2e-16) {t T : ℝ}
    (ht : Nb t T 2.5e-15 10) :
    Nb (nut80Terms.foldl (nut80Step R sn cs t (nut80Angles R t)) (0, 0)).1
      (nut80Terms.foldl (Sla.nut80Step T (Sla.nut80Angles T)) (0, 0)).1 2.73e-5 196200 ∧
    Nb (nut80Terms.foldl (nut80Step R sn cs t (nut80Angles R t)) (0, 0)).2
      (nut80Terms.foldl (Sla.nut80Step T (Sla.nut80Angles T)) (0, 0)).2 1.34e-5 101000 := by
  obtain ⟨z1, z2, z3, z4, z5⟩ := sums80
  have f1 : nut80Step R sn cs t (nut80Angles R t) = fun st r =>
      (nut80Acc R t st.1 (sn (nut80Theta R (r.fa.zip (nut80Angles R t)))) r.p,
       nut80Acc R t st.2 (cs (nut80Theta R (r.fa.zip (nut80Angles R t)))) r.e) := rfl
  have f2 : Sla.nut80Step T (Sla.nut80Angles T) = fun st r =>
      (st.1 + (tenth r.p.1 + tenth r.p.2 * T) * Real.sin (Sla.nutTheta r.fa (Sla.nut80Angles T)),
       st.2 + (tenth r.e.1 + tenth r.e.2 * T) * Real.cos (Sla.nutTheta r.fa (Sla.nut80Angles T))) := rfl
  rw [f1, f2, epv_foldl_pair (f := fun s (r : Nut80Term) => nut80Acc R t s (sn (nut80Theta R (r.fa.zip (nut80Angles R t)))) r.p)
    (g := fun s (r : Nut80Term) => nut80Acc R t s (cs (nut80Theta R (r.fa.zip (nut80Angles R t)))) r.e),
    epv_foldl_pair (f := fun s (r : Nut80Term) => s + (tenth r.p.1 + tenth r.p.2 * T) * Real.sin (Sla.nutTheta r.fa (Sla.nut80Angles T)))
    (g := fun s (r : Nut80Term) => s + (tenth r.e.1 + tenth r.e.2 * T) * Real.cos (Sla.nutTheta r.fa (Sla.nut80Angles T)))]
  have z : Nb 0 0 0 0 := Nb.self (by simp)
  constructor
  · have h := fold_nb (K := Nut80Term) (er := fun r => i80 r.p * weight r.fa) (bd := fun r => i80 r.p) (α := 9.66e-12) (β := 0.1)
      (ρ := 2.56e-11) (B := 196200) (by norm_num) (by norm_num) (by norm_num) (fun r => mul_nonneg (i80_nonneg _) (weight_nonneg _))
      (fun r => i80_nonneg _) nut80Terms
      (f' := fun s (r : Nut80Term) => nut80Acc R t s (sn (nut80Theta R (r.fa.zip (nut80Angles R t)))) r.p)
      (f := fun s (r : Nut80Term) => s + (tenth r.p.1 + tenth r.p.2 * T) * Real.sin (Sla.nutTheta r.fa (Sla.nut80Angles T)))
      (fun r hr s s' e b h1 h2 h3 => by
        obtain ⟨n1, n2, n3⟩ := theta80 R ht hr
        have hi : (0 : ℝ) ≤ i80 r.p := by exact_mod_cast i80_nonneg _
        refine (acc_nb R.dbl ht (n1.sin hs (g := weight r.fa * 9.65e-11) (by linarith)) (by linarith) (by linarith) r.p h1 h2 h3 (by norm_num)).mono ?_ le_rfl
        push_cast
        nlinarith)
      0 0 0 0 z (by rw [z3]; norm_num) (by rw [z1, z5]; norm_num)
    refine h.mono ?_ ?_
    · rw [z1, z5]; norm_num
    · rw [z3]; norm_num
  · have h := fold_nb (K := Nut80Term) (er := fun r => i80 r.e * weight r.fa) (bd := fun r => i80 r.e) (α := 9.66e-12) (β := 0.1)
      (ρ := 1.32e-11) (B := 101000) (by norm_num) (by norm_num) (by norm_num) (fun r => mul_nonneg (i80_nonneg _) (weight_nonneg _))
      (fun r => i80_nonneg _) nut80Terms
      (f' := fun s (r : Nut80Term) => nut80Acc R t s (cs (nut80Theta R (r.fa.zip (nut80Angles R t)))) r.e)
      (f := fun s (r : Nut80Term) => s + (tenth r.e.1 + tenth r.e.2 * T) * Real.cos (Sla.nutTheta r.fa (Sla.nut80Angles T)))
      (fun r hr s s' e b h1 h2 h3 => by
        obtain ⟨n1, n2, n3⟩ := theta80 R ht hr
        have hi : (0 : ℝ) ≤ i80 r.e := by exact_mod_cast i80_nonneg _
        refine (acc_nb R.dbl ht (n1.cos hc (g := weight r.fa * 9.65e-11) (by linarith)) (by linarith) (by linarith) r.e h1 h2 h3 (by norm_num)).mono ?_ le_rfl
        push_cast
        nlinarith)
      0 0 0 0 z (by rw [z4]; norm_num) (by rw [z2, z5]; norm_num)
    refine h.mono ?_ ?_
    · rw [z2, z5]; norm_num
    · rw [z4]; norm_num

/-- The results of `nutc80`. -/
theorem nutc80_nb (R : Rounding binary64) (hs : ∀ x, |sn x - Real.sin x| ≤ 2e-16) (hc : ∀ x, |cs x - Real.cos x| ≤ 2e-16) {tdb : ℝ}
    (h : |tdb - 51544.5| ≤ 365250) :
    Nb (nutc80 R sn cs tdb).psi (Sla.nutc80 tdb).psi 1.33e-14 9.514e-5 ∧ Nb (nutc80 R sn cs tdb).eps (Sla.nutc80 tdb).eps 6.5e-15 4.898e-5 ∧
      Nb (nutc80 R sn cs tdb).eps0 (Sla.nutc80 tdb).eps0 2.01e-16 0.4115 := by
  have hD := R.dbl
  obtain ⟨c1, c2⟩ := centuries_near hD h
  have ht : Nb _ _ 2.5e-15 10 := ⟨c1, c2⟩
  obtain ⟨h1, h2⟩ := nut80_sums R hs hc ht
  have has : Nb (R 0.484813681109535994e-5) as2r 6e-22 4.8482e-6 := ⟨as2r_round' hD, as2r_digits.2⟩
  have u : Nb _ _ 1.19e-25 4.849e-10 := hD.ndivc (n := 1.0e4) has (by norm_num) (by norm_num) (by norm_num)
  have p : Nb _ _ 1.33e-14 9.514e-5 := hD.nmul h1 u (by norm_num) (by norm_num)
  have ee : Nb _ _ 6.5e-15 4.898e-5 := hD.nmul h2 u (by norm_num) (by norm_num)
  refine ⟨p, ee, ?_⟩
  have n1 : Nb _ _ 2.18e-19 1.813e-3 := hD.nlit (x := 0.001813) (by norm_num) (by norm_num)
  have n2 : Nb _ _ 8.89e-18 1.813e-2 := hD.nmul n1 ht (by norm_num) (by norm_num)
  have n3 : Nb _ _ 7.09e-20 5.9e-4 := hD.nlit (x := 0.00059) (by norm_num) (by norm_num)
  have n4 : Nb _ _ 1.13e-17 1.872e-2 := hD.nadd n3.neg n2 (by norm_num) (by norm_num)
  have n5 : Nb _ _ 1.83e-16 0.1872 := hD.nmul n4 ht (by norm_num) (by norm_num)
  have n6 : Nb _ _ 5.62e-15 46.815 := hD.nlit (x := 46.8150) (by norm_num) (by norm_num)
  have n7 : Nb _ _ 1.15e-14 47.01 := hD.nadd n6.neg n5 (by norm_num) (by norm_num)
  have n8 : Nb _ _ 2.89e-13 470.1 := hD.nmul n7 ht (by norm_num) (by norm_num)
  have n9 : Nb _ _ 1.02e-11 84381.5 := hD.nlit (x := 84381.448) (by norm_num) (by norm_num)
  have n10 : Nb _ _ 2.07e-11 84860 := hD.nadd n9 n8 (by norm_num) (by norm_num)
  have n11 : Nb _ _ 2.01e-16 0.4115 := hD.nmul has n10 (by norm_num) (by norm_num)
  exact n11

end Sla.Fp
