import Verif.Lemmas.FpErr
import Verif.Model.FpEarth
import Mathlib.Analysis.Real.Pi.Bounds

/-
Error analysis of `earth` in single precision.
-/
namespace Sla.Fp
open Real (pi)

private theorem sin_le (x : ℝ) : |Real.sin x| ≤ 1 := Real.abs_sin_le_one x
private theorem cos_le (x : ℝ) : |Real.cos x| ≤ 1 := Real.abs_cos_le_one x

/-- `|x| ≤ B` from two sided bounds on the parts. -/
private theorem add_bd {x y A B C : ℝ} (hx : |x| ≤ A) (hy : |y| ≤ B) (h : A + B ≤ C) : |x + y| ≤ C :=
  (abs_add_le x y).trans ((add_le_add hx hy).trans h)
private theorem sub_bd {x y A B C : ℝ} (hx : |x| ≤ A) (hy : |y| ≤ B) (h : A + B ≤ C) : |x - y| ≤ C :=
  (abs_sub x y).trans ((add_le_add hx hy).trans h)
private theorem mul_bd {x y A B C : ℝ} (hx : |x| ≤ A) (hy : |y| ≤ B) (h : A * B ≤ C) : |x * y| ≤ C := by
  rw [abs_mul]
  exact (mul_le_mul hx hy (abs_nonneg _) ((abs_nonneg _).trans hx)).trans h
private theorem lit_bd {x A : ℝ} (h1 : -A ≤ x) (h2 : x ≤ A) : |x| ≤ A := abs_le.2 ⟨h1, h2⟩

/-- The time argument. -/
theorem year_near (R : Rounding binary32) {year day : ℤ} {f : ℝ} (hy : 1900 ≤ year) (hy' : year ≤ 2100) (hd : 1 ≤ day)
    (hd' : day ≤ 366) (hf : 0 ≤ f) (hf' : f ≤ 1) :
    |yearFraction R year day f - Sla.yearFraction year day f| ≤ 2.6e-7 ∧
    |yearsSince1900 R year day f - Sla.yearsSince1900 year day f| ≤ 1.25e-5 ∧
    -0.002 ≤ Sla.yearFraction year day f ∧ Sla.yearFraction year day f ≤ 1.01 ∧
    -0.002 ≤ Sla.yearsSince1900 year day f ∧ Sla.yearsSince1900 year day f ≤ 201.01 := by
  have hR := R.single
  obtain ⟨n, hn⟩ : ∃ n : ℤ, n = 4 * (day - (1 : ℤ).tdiv ((year.tmod 4 + 4).tmod 4 + 1)) - (year.tmod 4 + 4).tmod 4 - 2 :=
    ⟨_, rfl⟩
  have hb : -2 ≤ n ∧ n ≤ 1462 := by
    have h1 : (year.tmod 4 + 4).tmod 4 = year % 4 := by
      rw [Int.tmod_eq_emod_of_nonneg (by omega : 0 ≤ year), Int.tmod_eq_emod_of_nonneg (by omega)]; omega
    have h2 : (1 : ℤ).tdiv (year % 4 + 1) = if year % 4 = 0 then 1 else 0 := by
      rcases (by omega : year % 4 = 0 ∨ year % 4 = 1 ∨ year % 4 = 2 ∨ year % 4 = 3) with h | h | h | h <;> rw [h] <;> rfl
    rw [h1, h2] at hn
    split at hn <;> omega
  have hn1 : (-2 : ℝ) ≤ (n : ℝ) := by exact_mod_cast hb.1
  have hn2 : (n : ℝ) ≤ 1462 := by exact_mod_cast hb.2
  have eX : Sla.yearFraction year day f = ((n : ℝ) + 4 * f) / 1461 := by rw [hn]; rfl
  have eR : yearFraction R year day f = R (R (R (n : ℝ) + R (R 4 * f)) / R 1461) := by rw [hn]; rfl
  have lo : -0.002 ≤ Sla.yearFraction year day f := by
    rw [eX, le_div_iff₀ (by norm_num)]; linarith
  have hi : Sla.yearFraction year day f ≤ 1.01 := by
    rw [eX, div_le_iff₀ (by norm_num)]; linarith
  have h1 : |R (n : ℝ) - n| ≤ 8.9e-5 := hR.lit (B := 1470) (lit_bd (by linarith) (by linarith)) (by norm_num)
  have h2 : |R 4 - 4| ≤ (2.5e-7 : ℝ) := hR.lit (B := 4) (by norm_num) (by norm_num)
  have h3 : |R (R 4 * f) - 4 * f| ≤ 5e-7 :=
    hR.mul (X := 4) (Y := 1) (f := 0) h2 (by simp) (by norm_num) (lit_bd (by linarith) hf') (by norm_num)
  have h4 : |R (R (n : ℝ) + R (R 4 * f)) - (n + 4 * f)| ≤ 1.8e-4 :=
    hR.add (B := 1474) h1 h3 (lit_bd (by linarith) (by linarith)) (by norm_num)
  have h5 : |R 1461 - 1461| ≤ (8.8e-5 : ℝ) := hR.lit (B := 1461) (by norm_num) (by norm_num)
  have h6 : |yearFraction R year day f - Sla.yearFraction year day f| ≤ 2.6e-7 := by
    rw [eX] at lo hi ⊢
    rw [eR]
    exact hR.div (m := 1461) (Q := 1.01) (E := 1.9e-7) h4 h5 (by norm_num) (by norm_num)
      (lit_bd (le_trans (by norm_num) lo) hi) (by norm_num) (by norm_num)
  have hyr : (0 : ℝ) ≤ ((year - 1900 : ℤ) : ℝ) ∧ ((year - 1900 : ℤ) : ℝ) ≤ 200 := by
    constructor
    · exact_mod_cast (by omega : 0 ≤ year - 1900)
    · exact_mod_cast (by omega : year - 1900 ≤ 200)
  have eT : Sla.yearsSince1900 year day f = ((year - 1900 : ℤ) : ℝ) + Sla.yearFraction year day f := rfl
  have h7 : R ((year - 1900 : ℤ) : ℝ) = ((year - 1900 : ℤ) : ℝ) :=
    R.eq_self (rep_int (by norm_num [binary32]) (by
      have : |year - 1900| ≤ 200 := abs_le.2 ⟨by omega, by omega⟩
      refine this.trans (by norm_num [binary32])))
  refine ⟨h6, ?_, lo, hi, ?_, ?_⟩
  · rw [eT]
    unfold yearsSince1900
    rw [h7]
    refine hR.add (B := 201.1) (e := 0) (by simp) h6 (lit_bd ?_ ?_) (by norm_num)
    · linarith [hyr.1]
    · have := hyr.2
      refine le_trans (add_le_add this hi) (by norm_num)
  · rw [eT]; linarith [hyr.1]
  · rw [eT]; refine le_trans (add_le_add hyr.2 hi) (by norm_num)

/-- `fmod` by a period slightly different from the true one. -/
theorem cfmod_near {A P X d p : ℝ} (K : ℕ) (hP : 0 < P) (hA : |A - X| ≤ d) (hp : |P - 2 * pi| ≤ p) (hK : |A| < (K + 1) * P) :
    ∃ k : ℤ, |cfmod A P - (X + k * (2 * pi))| ≤ d + K * p ∧ |cfmod A P| ≤ P := by
  refine ⟨-ctrunc (A / P), ?_, (abs_cfmod A P hP).2.le⟩
  have h1 : |(ctrunc (A / P) : ℝ)| ≤ K := by
    have h : |(ctrunc (A / P) : ℝ)| < K + 1 := by
      refine (abs_ctrunc_le _).trans_lt ?_
      rw [abs_div, abs_of_pos hP, div_lt_iff₀ hP]; exact hK
    have h' : |ctrunc (A / P)| < (K : ℤ) + 1 := by exact_mod_cast h
    have h'' : |ctrunc (A / P)| ≤ (K : ℤ) := by omega
    exact_mod_cast h''
  have e : cfmod A P - (X + ((-ctrunc (A / P) : ℤ) : ℝ) * (2 * pi)) = (A - X) - (ctrunc (A / P) : ℝ) * (P - 2 * pi) := by
    unfold cfmod; push_cast; ring
  rw [e]
  refine (abs_sub _ _).trans (add_le_add hA ?_)
  rw [abs_mul]
  exact mul_le_mul h1 hp (abs_nonneg _) ((abs_nonneg _).trans h1)

/-- The computation after the mean longitudes. -/
theorem earthAt_near {R D : ℝ → ℝ} (hR : Single R) (hD : ∀ x, |D x - x| ≤ 2e-16 * |x| + 1e-200) {sn cs : ℝ → ℝ}
    (hs : ∀ x, |sn x - Real.sin x| ≤ 1.2e-7) (hc : ∀ x, |cs x - Real.cos x| ≤ 1.2e-7)
    {elm elmm t L M T : ℝ} (hL : |elm - L| ≤ 4.5e-6) (hM : |elmm - M| ≤ 5.2e-3) (hT : |t - T| ≤ 1.25e-5)
    (bL : |L| ≤ 6.3) (bT : -0.002 ≤ T) (bT' : T ≤ 201.01) :
    (∀ i, |(earthAt R D sn cs elm elmm t).pos i - (Sla.earthAt L M T).pos i| ≤ 1e-5) ∧
    (∀ i, |(earthAt R D sn cs elm elmm t).vel i - (Sla.earthAt L M T).vel i| ≤ 3e-12) ∧
    (∀ i, |(Sla.earthAt L M T).pos i| ≤ 1.021) ∧ ∀ i, |(Sla.earthAt L M T).vel i| ≤ 2.04e-7 := by
  have bT'' : |T| ≤ 201.01 := lit_bd (by linarith) bT'
  have hsp : |R (D 1.9913e-7) - 1.9913e-7| ≤ 1.21e-14 :=
    hR.round (e := 1e-22) (B := 2e-7) ((hD _).trans (by norm_num)) (by norm_num) (by norm_num)
  have hds : |R (D 3.12e-5) - 3.12e-5| ≤ 1.9e-12 :=
    hR.round (e := 1e-20) (B := 3.12e-5) ((hD _).trans (by norm_num)) (by norm_num) (by norm_num)
  have hrt : |R (D 8.31e-11) - 8.31e-11| ≤ 5e-18 :=
    hR.round (e := 1e-25) (B := 8.31e-11) ((hD _).trans (by norm_num)) (by norm_num) (by norm_num)
  simp only [earthAt, Sla.earthAt]
  generalize R (D 1.9913e-7) = speed at *
  generalize R (D 3.12e-5) = dist at *
  generalize R (D 8.31e-11) = rate at *
  -- longitude of perihelion
  have g1 : |R 3.0005e-4 - 3.0005e-4| ≤ 1.81e-11 := hR.lit (B := 3.0005e-4) (by norm_num) (by norm_num)
  have g2 : |R (R 3.0005e-4 * t) - 3.0005e-4 * T| ≤ 1.12e-8 :=
    hR.mul (X := 3.0005e-4) (Y := 201.01) g1 hT (by norm_num) bT'' (by norm_num)
  have g3 : |R 4.908230 - 4.908230| ≤ 2.95e-7 := hR.lit (B := 4.908230) (by norm_num) (by norm_num)
  have bg : |4.908230 + 3.0005e-4 * T| ≤ 4.97 := lit_bd (by linarith) (by linarith)
  have hg : |R (R 4.908230 + R (R 3.0005e-4 * t)) - (4.908230 + 3.0005e-4 * T)| ≤ 6.06e-7 :=
    hR.add (B := 4.97) g3 g2 bg (by norm_num)
  generalize R (R 4.908230 + R (R 3.0005e-4 * t)) = gamma at *
  generalize 4.908230 + 3.0005e-4 * T = G at *
  -- mean anomaly
  have bm : |L - G| ≤ 11.3 := sub_bd bL bg (by norm_num)
  have hm : |R (elm - gamma) - (L - G)| ≤ 5.8e-6 := hR.sub (B := 11.3) hL hg bm (by norm_num)
  -- obliquity
  have o1 : |R 2.27e-6 - 2.27e-6| ≤ 1.4e-13 := hR.lit (B := 2.27e-6) (by norm_num) (by norm_num)
  have o2 : |R (R 2.27e-6 * t) - 2.27e-6 * T| ≤ 9e-11 :=
    hR.mul (X := 2.27e-6) (Y := 201.01) o1 hT (by norm_num) bT'' (by norm_num)
  have o3 : |R 0.40931975 - 0.40931975| ≤ 2.46e-8 := hR.lit (B := 0.40931975) (by norm_num) (by norm_num)
  have bo : |0.40931975 - 2.27e-6 * T| ≤ 0.41 := lit_bd (by linarith) (by linarith)
  have ho : |R (R 0.40931975 - R (R 2.27e-6 * t)) - (0.40931975 - 2.27e-6 * T)| ≤ 5e-8 :=
    hR.sub (B := 0.41) o3 o2 bo (by norm_num)
  generalize R (R 0.40931975 - R (R 2.27e-6 * t)) = eps0 at *
  generalize 0.40931975 - 2.27e-6 * T = E0 at *
  have hse : |sn eps0 - Real.sin E0| ≤ 1.7e-7 := (sin_err hs ho).trans (by norm_num)
  have hce : |cs eps0 - Real.cos E0| ≤ 1.7e-7 := (cos_err hc ho).trans (by norm_num)
  -- eccentricity
  have e1 : |R 4.2e-7 - 4.2e-7| ≤ 2.53e-14 := hR.lit (B := 4.2e-7) (by norm_num) (by norm_num)
  have e2 : |R (R 4.2e-7 * t) - 4.2e-7 * T| ≤ 1.6e-11 :=
    hR.mul (X := 4.2e-7) (Y := 201.01) e1 hT (by norm_num) bT'' (by norm_num)
  have e3 : |R 0.016751 - 0.016751| ≤ 1.01e-9 := hR.lit (B := 0.016751) (by norm_num) (by norm_num)
  have be : |0.016751 - 4.2e-7 * T| ≤ 0.01685 := lit_bd (by linarith) (by linarith)
  have he : |R (R 0.016751 - R (R 4.2e-7 * t)) - (0.016751 - 4.2e-7 * T)| ≤ 2.1e-9 :=
    hR.sub (B := 0.01685) e3 e2 be (by norm_num)
  generalize R (R 0.016751 - R (R 4.2e-7 * t)) = e at *
  generalize 0.016751 - 4.2e-7 * T = ex at *
  have bq : |ex * ex| ≤ 2.84e-4 := mul_bd be be (by norm_num)
  have hq : |R (e * e) - ex * ex| ≤ 9e-11 := hR.mul (X := 0.01685) (Y := 0.01685) he he be be (by norm_num)
  generalize R (e * e) = e2' at *
  generalize hQdef : ex * ex = Q at *
  generalize hemdef : R (elm - gamma) = em at *
  -- true anomaly
  have v1 : |R (2 * e) - 2 * ex| ≤ 6.3e-9 :=
    hR.mul (X := 2) (Y := 0.01685) (e := 0) (by simp) he (by norm_num) be (by norm_num)
  have bv1 : |2 * ex| ≤ 0.0337 := mul_bd (A := 2) (by norm_num) be (by norm_num)
  have v2 : |sn em - Real.sin (L - G)| ≤ 5.92e-6 := (sin_err hs hm).trans (by norm_num)
  have v3 : |R (R (2 * e) * sn em) - 2 * ex * Real.sin (L - G)| ≤ 2.1e-7 :=
    hR.mul (X := 0.0337) (Y := 1) v1 v2 bv1 (sin_le _) (by norm_num)
  have bv3 : |2 * ex * Real.sin (L - G)| ≤ 0.0337 := mul_bd bv1 (sin_le _) (by norm_num)
  have bv4 : |L - G + 2 * ex * Real.sin (L - G)| ≤ 11.34 := add_bd bm bv3 (by norm_num)
  have v4 : |R (em + R (R (2 * e) * sn em)) - (L - G + 2 * ex * Real.sin (L - G))| ≤ 6.7e-6 :=
    hR.add (B := 11.34) hm v3 bv4 (by norm_num)
  have v5 : |R (1.25 * e2') - 1.25 * Q| ≤ 1.4e-10 :=
    hR.mul (X := 1.25) (Y := 2.84e-4) (e := 0) (by simp) hq (by norm_num) bq (by norm_num)
  have bv5 : |1.25 * Q| ≤ 3.55e-4 := mul_bd (A := 1.25) (by norm_num) bq (by norm_num)
  have v6 : |R (2 * em) - 2 * (L - G)| ≤ 1.3e-5 :=
    hR.mul (X := 2) (Y := 11.3) (e := 0) (by simp) hm (by norm_num) bm (by norm_num)
  have v7 : |sn (R (2 * em)) - Real.sin (2 * (L - G))| ≤ 1.32e-5 := (sin_err hs v6).trans (by norm_num)
  have v8 : |R (R (1.25 * e2') * sn (R (2 * em))) - 1.25 * Q * Real.sin (2 * (L - G))| ≤ 5e-9 :=
    hR.mul (X := 3.55e-4) (Y := 1) v5 v7 bv5 (sin_le _) (by norm_num)
  have bv8 : |1.25 * Q * Real.sin (2 * (L - G))| ≤ 3.55e-4 := mul_bd bv5 (sin_le _) (by norm_num)
  have bv : |L - G + 2 * ex * Real.sin (L - G) + 1.25 * Q * Real.sin (2 * (L - G))| ≤ 11.35 := add_bd bv4 bv8 (by norm_num)
  have hv : |R (R (em + R (R (2 * e) * sn em)) + R (R (1.25 * e2') * sn (R (2 * em)))) -
      (L - G + 2 * ex * Real.sin (L - G) + 1.25 * Q * Real.sin (2 * (L - G)))| ≤ 7.4e-6 :=
    hR.add (B := 11.35) v4 v8 bv (by norm_num)
  have bl : |L - G + 2 * ex * Real.sin (L - G) + 1.25 * Q * Real.sin (2 * (L - G)) + G| ≤ 6.34 := by
    have : L - G + 2 * ex * Real.sin (L - G) + 1.25 * Q * Real.sin (2 * (L - G)) + G =
        L + 2 * ex * Real.sin (L - G) + 1.25 * Q * Real.sin (2 * (L - G)) := by ring
    rw [this]
    exact add_bd (add_bd bL bv3 le_rfl) bv8 (by norm_num)
  generalize R (R (em + R (R (2 * e) * sn em)) + R (R (1.25 * e2') * sn (R (2 * em)))) = v at *
  generalize L - G + 2 * ex * Real.sin (L - G) + 1.25 * Q * Real.sin (2 * (L - G)) = V at *
  clear v1 v2 v3 v4 v5 v6 v7 v8 bv1 bv3 bv4 bv5 bv8 hm bm g1 g2 g3 o1 o2 o3 e1 e2 e3 hL hT bL bT bT' bT''
  have hl : |R (v + gamma) - (V + G)| ≤ 8.4e-6 := hR.add (B := 6.34) hv hg bl (by norm_num)
  generalize R (v + gamma) = elt at *
  generalize V + G = W at *
  -- distance
  have r1 : |R (1 - e2') - (1 - Q)| ≤ 6.02e-8 :=
    hR.sub (B := 1) (e := 0) (by simp) hq (by
      have hQ0 : 0 ≤ Q := by rw [← hQdef]; exact mul_self_nonneg ex
      have := (abs_le.1 bq).2
      exact lit_bd (by linarith) (by linarith)) (by norm_num)
  have r2 : |cs v - Real.cos V| ≤ 7.52e-6 := (cos_err hc hv).trans (by norm_num)
  have r3 : |R (e * cs v) - ex * Real.cos V| ≤ 1.31e-7 :=
    hR.mul (X := 0.01685) (Y := 1) he r2 be (cos_le _) (by norm_num)
  have br3 : |ex * Real.cos V| ≤ 0.01685 := mul_bd be (cos_le _) (by norm_num)
  have r4 : |R (1 + R (e * cs v)) - (1 + ex * Real.cos V)| ≤ 1.93e-7 :=
    hR.add (B := 1.017) (e := 0) (by simp) r3 (add_bd (A := 1) (by norm_num) br3 (by norm_num)) (by norm_num)
  have hden : 0.983 ≤ 1 + ex * Real.cos V := by linarith [(abs_le.1 br3).1]
  have br : |(1 - Q) / (1 + ex * Real.cos V)| ≤ 1.02 := by
    rw [abs_div, abs_of_pos (by linarith : 0 < 1 + ex * Real.cos V), div_le_iff₀ (by linarith)]
    have hQ0 : 0 ≤ Q := by rw [← hQdef]; exact mul_self_nonneg ex
    have := (abs_le.1 bq).2
    rw [abs_of_nonneg (by linarith)]
    linarith
  have hr : |R (R (1 - e2') / R (1 + R (e * cs v))) - (1 - Q) / (1 + ex * Real.cos V)| ≤ 3.3e-7 :=
    hR.div (m := 0.983) (Q := 1.02) (E := 2.64e-7) r1 r4 (hden.trans (le_abs_self _)) (by norm_num) br (by norm_num)
      (by norm_num)
  generalize R (R (1 - e2') / R (1 + R (e * cs v))) = r at *
  generalize (1 - Q) / (1 + ex * Real.cos V) = X at *
  clear r1 r2 r3 r4 br3 hden hv bv hq bq hQdef
  have hr' : |-r - -X| ≤ 3.3e-7 := by rw [neg_sub_neg, abs_sub_comm]; exact hr
  have br' : |-X| ≤ 1.02 := by rw [abs_neg]; exact br
  have sl : |sn elt - Real.sin W| ≤ 8.52e-6 := (sin_err hs hl).trans (by norm_num)
  have cl : |cs elt - Real.cos W| ≤ 8.52e-6 := (cos_err hc hl).trans (by norm_num)
  have w1 : |R (-r * sn elt) - -X * Real.sin W| ≤ 9.1e-6 :=
    hR.mul (X := 1.02) (Y := 1) hr' sl br' (sin_le _) (by norm_num)
  have bw1 : |-X * Real.sin W| ≤ 1.02 := mul_bd br' (sin_le _) (by norm_num)
  have x1 : |R (-r * cs elt) - -X * Real.cos W| ≤ 9.1e-6 :=
    hR.mul (X := 1.02) (Y := 1) hr' cl br' (cos_le _) (by norm_num)
  have bx1 : |-X * Real.cos W| ≤ 1.02 := mul_bd br' (cos_le _) (by norm_num)
  have sm : |sn elmm - Real.sin M| ≤ 5.201e-3 := (sin_err hs hM).trans (by norm_num)
  have cm : |cs elmm - Real.cos M| ≤ 5.201e-3 := (cos_err hc hM).trans (by norm_num)
  have bd : |(3.12e-5 : ℝ)| ≤ 3.12e-5 := by norm_num
  have d1 : |R (dist * cs elmm) - 3.12e-5 * Real.cos M| ≤ 1.7e-7 :=
    hR.mul (X := 3.12e-5) (Y := 1) hds cm bd (cos_le _) (by norm_num)
  have d2 : |R (dist * sn elmm) - 3.12e-5 * Real.sin M| ≤ 1.7e-7 :=
    hR.mul (X := 3.12e-5) (Y := 1) hds sm bd (sin_le _) (by norm_num)
  have bd1 : |3.12e-5 * Real.cos M| ≤ 3.12e-5 := mul_bd bd (cos_le _) (by norm_num)
  have bd2 : |3.12e-5 * Real.sin M| ≤ 3.12e-5 := mul_bd bd (sin_le _) (by norm_num)
  have px : |R (R (-r * cs elt) - R (dist * cs elmm)) - (-X * Real.cos W - 3.12e-5 * Real.cos M)| ≤ 1e-5 :=
    hR.sub (B := 1.021) x1 d1 (sub_bd bx1 bd1 (by norm_num)) (by norm_num)
  have by1 : |-X * Real.sin W - 3.12e-5 * Real.sin M| ≤ 1.021 := sub_bd bw1 bd2 (by norm_num)
  have y1 : |R (R (-r * sn elt) - R (dist * sn elmm)) - (-X * Real.sin W - 3.12e-5 * Real.sin M)| ≤ 9.4e-6 :=
    hR.sub (B := 1.021) w1 d2 by1 (by norm_num)
  have py : |R (R (R (-r * sn elt) - R (dist * sn elmm)) * cs eps0) -
      (-X * Real.sin W - 3.12e-5 * Real.sin M) * Real.cos E0| ≤ 1e-5 :=
    hR.mul (X := 1.021) (Y := 1) y1 hce by1 (cos_le _) (by norm_num)
  have pz : |R (R (-r * sn elt) * sn eps0) - -X * Real.sin W * Real.sin E0| ≤ 1e-5 :=
    hR.mul (X := 1.02) (Y := 1) w1 hse bw1 (sin_le _) (by norm_num)
  -- velocity
  have sg : |sn gamma - Real.sin G| ≤ 7.3e-7 := (sin_err hs hg).trans (by norm_num)
  have cg : |cs gamma - Real.cos G| ≤ 7.3e-7 := (cos_err hc hg).trans (by norm_num)
  have q1 : |R (e * cs gamma) - ex * Real.cos G| ≤ 1.6e-8 :=
    hR.mul (X := 0.01685) (Y := 1) he cg be (cos_le _) (by norm_num)
  have q2 : |R (e * sn gamma) - ex * Real.sin G| ≤ 1.6e-8 :=
    hR.mul (X := 0.01685) (Y := 1) he sg be (sin_le _) (by norm_num)
  have bq1 : |ex * Real.cos G| ≤ 0.01685 := mul_bd be (cos_le _) (by norm_num)
  have bq2 : |ex * Real.sin G| ≤ 0.01685 := mul_bd be (sin_le _) (by norm_num)
  have bs1 : |Real.cos W + ex * Real.cos G| ≤ 1.017 := add_bd (cos_le _) bq1 (by norm_num)
  have bs2 : |Real.sin W + ex * Real.sin G| ≤ 1.017 := add_bd (sin_le _) bq2 (by norm_num)
  have s1 : |R (cs elt + R (e * cs gamma)) - (Real.cos W + ex * Real.cos G)| ≤ 8.61e-6 :=
    hR.add (B := 1.017) cl q1 bs1 (by norm_num)
  have s2 : |R (sn elt + R (e * sn gamma)) - (Real.sin W + ex * Real.sin G)| ≤ 8.61e-6 :=
    hR.add (B := 1.017) sl q2 bs2 (by norm_num)
  have bsp : |(1.9913e-7 : ℝ)| ≤ 1.9913e-7 := by norm_num
  have bsp' : |(-1.9913e-7 : ℝ)| ≤ 1.9913e-7 := by norm_num
  have hsp' : |-speed - -1.9913e-7| ≤ 1.21e-14 := by rw [neg_sub_neg, abs_sub_comm]; exact hsp
  have w2 : |R (-speed * R (cs elt + R (e * cs gamma))) - -1.9913e-7 * (Real.cos W + ex * Real.cos G)| ≤ 1.75e-12 :=
    hR.mul (X := 1.9913e-7) (Y := 1.017) hsp' s1 bsp' bs1 (by norm_num)
  have bw2 : |-1.9913e-7 * (Real.cos W + ex * Real.cos G)| ≤ 2.03e-7 := mul_bd bsp' bs1 (by norm_num)
  have w3 : |R (speed * R (sn elt + R (e * sn gamma))) - 1.9913e-7 * (Real.sin W + ex * Real.sin G)| ≤ 1.75e-12 :=
    hR.mul (X := 1.9913e-7) (Y := 1.017) hsp s2 bsp bs2 (by norm_num)
  have bw3 : |1.9913e-7 * (Real.sin W + ex * Real.sin G)| ≤ 2.03e-7 := mul_bd bsp bs2 (by norm_num)
  have brt : |(8.31e-11 : ℝ)| ≤ 8.31e-11 := by norm_num
  have t1 : |R (rate * cs elmm) - 8.31e-11 * Real.cos M| ≤ 4.34e-13 :=
    hR.mul (X := 8.31e-11) (Y := 1) hrt cm brt (cos_le _) (by norm_num)
  have t2 : |R (rate * sn elmm) - 8.31e-11 * Real.sin M| ≤ 4.34e-13 :=
    hR.mul (X := 8.31e-11) (Y := 1) hrt sm brt (sin_le _) (by norm_num)
  have bt1 : |8.31e-11 * Real.cos M| ≤ 8.31e-11 := mul_bd brt (cos_le _) (by norm_num)
  have bt2 : |8.31e-11 * Real.sin M| ≤ 8.31e-11 := mul_bd brt (sin_le _) (by norm_num)
  have vx : |R (R (speed * R (sn elt + R (e * sn gamma))) + R (rate * sn elmm)) -
      (1.9913e-7 * (Real.sin W + ex * Real.sin G) + 8.31e-11 * Real.sin M)| ≤ 3e-12 :=
    hR.add (B := 2.04e-7) w3 t2 (add_bd bw3 bt2 (by norm_num)) (by norm_num)
  have bu : |-1.9913e-7 * (Real.cos W + ex * Real.cos G) - 8.31e-11 * Real.cos M| ≤ 2.04e-7 :=
    sub_bd bw2 bt1 (by norm_num)
  have u1 : |R (R (-speed * R (cs elt + R (e * cs gamma))) - R (rate * cs elmm)) -
      (-1.9913e-7 * (Real.cos W + ex * Real.cos G) - 8.31e-11 * Real.cos M)| ≤ 2.2e-12 :=
    hR.sub (B := 2.04e-7) w2 t1 bu (by norm_num)
  have vy : |R (R (R (-speed * R (cs elt + R (e * cs gamma))) - R (rate * cs elmm)) * cs eps0) -
      (-1.9913e-7 * (Real.cos W + ex * Real.cos G) - 8.31e-11 * Real.cos M) * Real.cos E0| ≤ 3e-12 :=
    hR.mul (X := 2.04e-7) (Y := 1) u1 hce bu (cos_le _) (by norm_num)
  have vz : |R (R (-speed * R (cs elt + R (e * cs gamma))) * sn eps0) -
      -1.9913e-7 * (Real.cos W + ex * Real.cos G) * Real.sin E0| ≤ 3e-12 :=
    hR.mul (X := 2.03e-7) (Y := 1) w2 hse bw2 (sin_le _) (by norm_num)
  refine ⟨fun i => ?_, fun i => ?_, fun i => ?_, fun i => ?_⟩
  · fin_cases i
    · exact px
    · exact py
    · exact pz
  · fin_cases i
    · exact vx
    · exact vy
    · exact vz
  · fin_cases i
    · exact sub_bd bx1 bd1 (by norm_num)
    · exact mul_bd by1 (cos_le _) (by norm_num)
    · exact mul_bd bw1 (sin_le _) (by norm_num)
  · fin_cases i
    · exact add_bd bw3 bt2 (by norm_num)
    · exact mul_bd bu (cos_le _) (by norm_num)
    · exact mul_bd bw2 (sin_le _) (by norm_num)

/-- The mean longitudes. -/
theorem longitudes_near {R : ℝ → ℝ} (hR : Single R) {yf t Y T : ℝ} (hyf : |yf - Y| ≤ 2.6e-7) (hT : |t - T| ≤ 1.25e-5)
    (bY : -0.002 ≤ Y) (bY' : Y ≤ 1.01) (bT : -0.002 ≤ T) (bT' : T ≤ 201.01) :
    (∃ k : ℤ, |cfmod (R (R (R 4.881628 + R (R 6.28318530718 * yf)) + R (R 0.00013420 * t))) (R 6.28318530718) -
        (4.881628 + 2 * pi * Y + 0.00013420 * T + k * (2 * pi))| ≤ 4.5e-6 ∧
      |4.881628 + 2 * pi * Y + 0.00013420 * T + k * (2 * pi)| ≤ 6.3) ∧
    ∃ k : ℤ, |cfmod (R (R 4.72 + R (R 83.9971 * t))) (R 6.28318530718) - (4.72 + 83.9971 * T + k * (2 * pi))| ≤ 5.2e-3 := by
  have hp1 := Real.pi_gt_d6
  have hp2 := Real.pi_lt_d6
  have hP : |R 6.28318530718 - 2 * pi| ≤ 3.8e-7 + 2e-6 - 2e-6 := by
    have h1 : |(6.28318530718 : ℝ) - 2 * pi| ≤ 1e-9 := by
      have := Real.pi_gt_d20
      have := Real.pi_lt_d20
      exact lit_bd (by linarith) (by linarith)
    exact hR.round (B := 6.2832) h1 (lit_bd (by linarith) (by linarith)) (by norm_num)
  rw [add_sub_cancel_right] at hP
  have hP' := abs_le.1 hP
  generalize R 6.28318530718 = P at *
  have bT'' : |T| ≤ 201.01 := lit_bd (by linarith) bT'
  have b2 : |2 * pi| ≤ 6.2832 := lit_bd (by linarith) (by linarith)
  have bYa : |Y| ≤ 1.01 := lit_bd (by linarith) bY'
  have hpy : 2 * pi * Y ≤ 6.35 := by nlinarith
  have hpy' : -0.013 ≤ 2 * pi * Y := by nlinarith
  have m1 : |R (P * yf) - 2 * pi * Y| ≤ 2.42e-6 := hR.mul (X := 6.2832) (Y := 1.01) hP hyf b2 bYa (by norm_num)
  have m2 : |R 4.881628 - 4.881628| ≤ 2.93e-7 := hR.lit (B := 4.881628) (by norm_num) (by norm_num)
  have m3 : |R (R 4.881628 + R (P * yf)) - (4.881628 + 2 * pi * Y)| ≤ 3.4e-6 :=
    hR.add (B := 11.3) m2 m1 (lit_bd (by linarith) (by linarith)) (by norm_num)
  have m4 : |R 0.00013420 - 0.00013420| ≤ 8.1e-12 := hR.lit (B := 0.00013420) (by norm_num) (by norm_num)
  have m5 : |R (R 0.00013420 * t) - 0.00013420 * T| ≤ 5e-9 :=
    hR.mul (X := 0.00013420) (Y := 201.01) m4 hT (by norm_num) bT'' (by norm_num)
  have m6 : |R (R (R 4.881628 + R (P * yf)) + R (R 0.00013420 * t)) - (4.881628 + 2 * pi * Y + 0.00013420 * T)| ≤ 4.1e-6 :=
    hR.add (B := 11.3) m3 m5 (lit_bd (by linarith) (by linarith)) (by norm_num)
  have n1 : |R 83.9971 - 83.9971| ≤ 5.04e-6 := hR.lit (B := 83.9971) (by norm_num) (by norm_num)
  have n2 : |R (R 83.9971 * t) - 83.9971 * T| ≤ 3.1e-3 :=
    hR.mul (X := 83.9971) (Y := 201.01) n1 hT (by norm_num) bT'' (by norm_num)
  have n3 : |R 4.72 - 4.72| ≤ 2.9e-7 := hR.lit (B := 4.72) (by norm_num) (by norm_num)
  have bM : |4.72 + 83.9971 * T| ≤ 16890 := lit_bd (by linarith) (by linarith)
  have n4 : |R (R 4.72 + R (R 83.9971 * t)) - (4.72 + 83.9971 * T)| ≤ 4.15e-3 :=
    hR.add (B := 16890) n3 n2 bM (by norm_num)
  have hP0 : 0 < P := by linarith
  constructor
  · have hA := abs_le.1 m6
    obtain ⟨k, hk, hk'⟩ := cfmod_near 1 hP0 m6 hP (abs_lt.2 ⟨by push_cast; linarith, by push_cast; linarith⟩)
    have hk2 := hk.trans (show (4.1e-6 + ((1 : ℕ) : ℝ) * 3.8e-7 : ℝ) ≤ 4.5e-6 by norm_num)
    refine ⟨k, hk2, ?_⟩
    have h1 := abs_le.1 hk2
    have h2 := abs_le.1 hk'
    exact lit_bd (by linarith) (by linarith)
  · have hA := abs_le.1 n4
    have hB := abs_le.1 bM
    obtain ⟨k, hk, hk'⟩ := cfmod_near 2700 hP0 n4 hP (abs_lt.2 ⟨by push_cast; linarith, by push_cast; linarith⟩)
    exact ⟨k, hk.trans (by norm_num)⟩

end Sla.Fp
