import Verif.Model.FpFit
import Verif.Props.FpPlate
import Verif.Props.FitXY
import Mathlib.Algebra.Order.Chebyshev

/-
Property theorems C128: residuals of a linear model (`pxy`) in double precision.
-/
namespace Sla.Props
open Sla.Fp Sla.Spec

/-- A rounded square of a rounded difference. -/
private theorem square_near {R : ℝ → ℝ} (hR : Dbl R) (δ : ℝ) : |R (R δ * R δ) - δ ^ 2| ≤ 3.7e-16 * δ ^ 2 + 1.1e-200 := by
  have h1 := hR δ
  have h2 := hR (R δ * R δ)
  have d0 := abs_nonneg δ
  have e1 : |R δ * R δ - δ ^ 2| ≤ 2.45e-16 * δ ^ 2 + 1e-250 := by
    have e : R δ * R δ - δ ^ 2 = (R δ - δ) * (R δ - δ) + 2 * (δ * (R δ - δ)) := by ring
    rw [e]
    refine (abs_add_le _ _).trans ?_
    rw [abs_mul, abs_mul, abs_mul, abs_of_pos (by norm_num : (0 : ℝ) < 2), ← sq_abs δ]
    have hw := abs_nonneg (R δ - δ)
    generalize |R δ - δ| = w at *
    generalize |δ| = a at *
    have w0 : 0 ≤ 1.2e-16 * a + 1e-200 := by positivity
    have k1 : w * w ≤ (1.2e-16 * a + 1e-200) * (1.2e-16 * a + 1e-200) := mul_le_mul h1 h1 hw w0
    have k2 : a * w ≤ a * (1.2e-16 * a + 1e-200) := mul_le_mul_of_nonneg_left h1 d0
    have k3 := sq_nonneg (1e-10 * a - 1e-180)
    have k4 := sq_nonneg a
    norm_num at k1 k2 k3 ⊢
    linarith
  have e2 : |R δ * R δ| ≤ (1 + 2.5e-16) * δ ^ 2 + 1e-250 := by
    have := abs_sub_abs_le_abs_sub (R δ * R δ) (δ ^ 2)
    rw [abs_of_nonneg (sq_nonneg δ)] at this
    linarith [sq_nonneg δ]
  have e3 := abs_sub_le (R (R δ * R δ)) (R δ * R δ) (δ ^ 2)
  have := sq_nonneg δ
  generalize |R δ * R δ| = w at *
  norm_num at *
  linarith

/-- A rounded running sum of non-negative terms. -/
private theorem sum_near {R : ℝ → ℝ} (hR : Dbl R) {ι : Type} (d d' : ι → ℝ) (h0 : ∀ i, 0 ≤ d i) (h : ∀ i, |d' i - d i| ≤ 3.7e-16 * d i + 1.1e-200)
    (l : List ι) : ∀ (k : ℕ) (a a' : ℝ), 0 ≤ a → k + l.length ≤ 2147483647 → |a' - a| ≤ (k + 3) * 1.3e-16 * a + k * 3e-200 →
      |l.foldl (fun x i => R (x + d' i)) a' - l.foldl (fun x i => x + d i) a| ≤
        ((k + l.length : ℕ) + 3) * 1.3e-16 * l.foldl (fun x i => x + d i) a + (k + l.length : ℕ) * 3e-200 := by
  induction l with
  | nil => intro k a a' _ _ h; simpa using h
  | cons i l ih =>
    intro k a a' ha hk hh
    rw [List.foldl_cons, List.foldl_cons, List.length_cons, show k + (l.length + 1) = k + 1 + l.length by ring]
    rw [List.length_cons] at hk
    refine ih (k + 1) _ _ (add_nonneg ha (h0 i)) (by omega) ?_
    have h1 := hR (a' + d' i)
    have h2 := h i
    have h3 := h0 i
    have kb : (k : ℝ) ≤ 2147483647 := by exact_mod_cast (by omega : k ≤ 2147483647)
    have k0 : (0 : ℝ) ≤ k := Nat.cast_nonneg k
    push_cast
    have e1 : |a' + d' i - (a + d i)| ≤ (k + 3) * 1.3e-16 * a + k * 3e-200 + (3.7e-16 * d i + 1.1e-200) := by
      rw [show a' + d' i - (a + d i) = (a' - a) + (d' i - d i) by ring]
      exact (abs_add_le _ _).trans (add_le_add hh h2)
    have e2 : |a' + d' i| ≤ (a + d i) * 1.000001 + 1e-190 := by
      have := abs_sub_abs_le_abs_sub (a' + d' i) (a + d i)
      rw [abs_of_nonneg (add_nonneg ha h3)] at this
      have t1 : (k + 3) * 1.3e-16 * a ≤ 2147483650 * 1.3e-16 * a := by gcongr; linarith
      have t4 : (k : ℝ) * 3e-200 ≤ 2147483647 * 3e-200 := by gcongr
      clear h ih hh h1 kb k0
      generalize (k + 3) * 1.3e-16 * a = u at *
      generalize (k : ℝ) * 3e-200 = v at *
      norm_num at e1 t1 t4 this ⊢; linarith
    have e3 := abs_sub_le (R (a' + d' i)) (a' + d' i) (a + d i)
    have t2 : 0 ≤ k * d i := mul_nonneg k0 h3
    have t3 : 0 ≤ k * a := mul_nonneg k0 ha
    generalize |a' + d' i| = w at *
    norm_num at h1 e1 e2 e3 ⊢
    linarith

/-- A square root of a quantity known to a relative and an absolute error. -/
private theorem sqrt_near' {a a' η q : ℝ} (ha : 0 ≤ a) (η0 : 0 ≤ η) (η1 : η ≤ 0.01) (q0 : 0 ≤ q) (h : |a' - a| ≤ η * a + q ^ 2) :
    |Real.sqrt a' - Real.sqrt a| ≤ 0.51 * η * Real.sqrt a + q := by
  obtain ⟨s, hs⟩ : ∃ s, s = Real.sqrt a := ⟨_, rfl⟩
  have s0 : 0 ≤ s := hs ▸ Real.sqrt_nonneg a
  have es : a = s ^ 2 := by rw [hs, Real.sq_sqrt ha]
  rw [← hs]
  rw [abs_le] at h ⊢
  constructor
  · by_cases hv : s * (1 - 0.51 * η) ≤ q
    · have := Real.sqrt_nonneg a'
      linarith
    · push Not at hv
      have : s * (1 - 0.51 * η) - q ≤ Real.sqrt a' := by
        refine Real.le_sqrt_of_sq_le ?_
        have h1 : q * q ≤ s * (1 - 0.51 * η) * q := mul_le_mul_of_nonneg_right hv.le q0
        have h2 : s ^ 2 * (0.2601 * η ^ 2) ≤ s ^ 2 * (0.02 * η) := by
          refine mul_le_mul_of_nonneg_left ?_ (sq_nonneg s)
          nlinarith
        rw [es] at h
        norm_num at *
        nlinarith [h.1]
      linarith
  · have : Real.sqrt a' ≤ s * (1 + 0.51 * η) + q := by
      refine Real.sqrt_le_iff.2 ⟨by positivity, ?_⟩
      rw [es] at h
      have h2 : 0 ≤ s * (1 + 0.51 * η) * q := by positivity
      have h3 : 0 ≤ s ^ 2 * η := by positivity
      have h4 : 0 ≤ s ^ 2 * η ^ 2 := by positivity
      norm_num at *
      nlinarith [h.2]
    linarith

/-- One root mean square. -/
private theorem rms_near (R : Rounding binary64) {n : ℕ} (hn : n ≤ 2147483647) (d d' : Fin n → ℝ) (h : ∀ i, d' i = R (R (d i) * R (d i))) :
    |R (Real.sqrt (R ((List.finRange n).foldl (fun acc i => R (acc + d' i)) 0 / max (1 : ℝ) n))) - Real.sqrt ((∑ i, d i ^ 2) / max (1 : ℝ) n)| ≤
      (n + 6) * 0.7e-16 * Real.sqrt ((∑ i, d i ^ 2) / max (1 : ℝ) n) + 2.2e-100 := by
  have p1 : (1 : ℝ) ≤ max (1 : ℝ) n := le_max_left _ _
  have pn : (n : ℝ) ≤ max (1 : ℝ) n := le_max_right _ _
  have nb : (n : ℝ) ≤ 2147483647 := by exact_mod_cast hn
  have n0 : (0 : ℝ) ≤ n := Nat.cast_nonneg n
  have hs := sum_near R.dbl (fun i => d i ^ 2) d' (fun i => sq_nonneg _) (fun i => by rw [h i]; exact square_near R.dbl (d i)) (List.finRange n) 0 0 0 le_rfl
    (by rw [List.length_finRange]; omega) (by norm_num)
  rw [List.length_finRange, foldl_add_finRange fun i => d i ^ 2, Nat.zero_add] at hs
  have S0 : 0 ≤ ∑ i, d i ^ 2 := Finset.sum_nonneg fun i _ => sq_nonneg _
  generalize (List.finRange n).foldl (fun acc i => R (acc + d' i)) 0 = S' at *
  generalize ∑ i, d i ^ 2 = S at *
  generalize max (1 : ℝ) n = p at *
  have p0 : 0 < p := by linarith
  obtain ⟨A, hA⟩ : ∃ A, A = S / p := ⟨_, rfl⟩
  have A0 : 0 ≤ A := hA ▸ div_nonneg S0 p0.le
  rw [← hA]
  have h1 : |S' / p - A| ≤ (n + 3) * 1.3e-16 * A + 3e-200 := by
    rw [hA, ← sub_div, abs_div, abs_of_pos p0, div_le_iff₀ p0]
    refine hs.trans ?_
    have : ((n + 3) * 1.3e-16 * (S / p) + 3e-200) * p = (n + 3) * 1.3e-16 * S + p * 3e-200 := by field_simp
    rw [this]
    gcongr
  have h2 := R.dbl (S' / p)
  have h3 : |S' / p| ≤ 1.000001 * A + 1e-190 := by
    have := abs_sub_abs_le_abs_sub (S' / p) A
    rw [abs_of_nonneg A0] at this
    have t1 : (n + 3) * 1.3e-16 * A ≤ 2147483650 * 1.3e-16 * A := by gcongr; linarith
    norm_num at *; linarith
  have h4 : |R (S' / p) - A| ≤ ((n + 3) * 1.3e-16 + 1.201e-16) * A + (2.1e-100) ^ 2 := by
    have := abs_sub_le (R (S' / p)) (S' / p) A
    norm_num at *
    nlinarith
  have h5 := sqrt_near' A0 (by positivity) (by linarith) (by norm_num) h4
  have h6 := R.dbl (Real.sqrt (R (S' / p)))
  have q0 := Real.sqrt_nonneg A
  rw [abs_of_nonneg (Real.sqrt_nonneg _)] at h6
  have h7 := (abs_le.1 h5).2
  have h8 := abs_sub_le (R (Real.sqrt (R (S' / p)))) (Real.sqrt (R (S' / p))) (Real.sqrt A)
  have t1 : n * Real.sqrt A ≤ 2147483647 * Real.sqrt A := mul_le_mul_of_nonneg_right nb q0
  have t2 : 0 ≤ n * Real.sqrt A := mul_nonneg n0 q0
  generalize Real.sqrt A = X at *
  generalize Real.sqrt (R (S' / p)) = X' at *
  norm_num at *
  nlinarith

/-- The square of a root mean square. -/
private theorem again {R : ℝ → ℝ} (hR : Dbl R) {x X κ : ℝ} (hX : 0 ≤ X) (κ0 : 0 ≤ κ) (κ1 : κ ≤ 1.6e-7) (h : |x - X| ≤ κ * X + 2.2e-100) :
    |R (x * x) - X ^ 2| ≤ (2.0001 * κ + 1.202e-16) * X ^ 2 + 5.6e-180 := by
  have h1 := hR (x * x)
  have e1 : |x * x - X ^ 2| ≤ (2.0001 * κ + 1e-19) * X ^ 2 + 5.5e-180 := by
    rw [show x * x - X ^ 2 = (x - X) * (x - X) + 2 * (X * (x - X)) by ring]
    refine (abs_add_le _ _).trans ?_
    rw [abs_mul, abs_mul, abs_mul, abs_of_pos (by norm_num : (0 : ℝ) < 2), abs_of_nonneg hX]
    have w0 := abs_nonneg (x - X)
    generalize |x - X| = w at *
    have k1 : w * w ≤ (κ * X + 2.2e-100) * (κ * X + 2.2e-100) := mul_le_mul h h w0 (w0.trans h)
    have k2 : X * w ≤ X * (κ * X + 2.2e-100) := mul_le_mul_of_nonneg_left h hX
    have k3 := sq_nonneg (3.1e-10 * X - 7.2e-91)
    have k4 : κ * X ≤ 1.6e-7 * X := mul_le_mul_of_nonneg_right κ1 hX
    have k5 : κ * (κ * X ^ 2) ≤ 1.6e-7 * (κ * X ^ 2) := mul_le_mul_of_nonneg_right κ1 (by positivity)
    have k6 := sq_nonneg X
    have k7 : 0 ≤ κ * X ^ 2 := by positivity
    norm_num at k1 k2 k3 k4 k5 ⊢
    linarith
  have e2 : |x * x| ≤ 1.000001 * X ^ 2 + 1e-170 := by
    have := abs_sub_abs_le_abs_sub (x * x) (X ^ 2)
    rw [abs_of_nonneg (sq_nonneg X)] at this
    have h2 : κ * X ^ 2 ≤ 1.6e-7 * X ^ 2 := mul_le_mul_of_nonneg_right κ1 (sq_nonneg X)
    have h3 := sq_nonneg X
    generalize |x * x| = w at *
    norm_num at e1 h2 this ⊢; linarith
  have e3 := abs_sub_le (R (x * x)) (x * x) (X ^ 2)
  have := sq_nonneg X
  generalize |x * x| = w at *
  norm_num at h1 e1 e2 e3 ⊢; linarith

/-- C128: in double precision `pxy` gives, for any number of samples, the root mean squares of the residuals of the coordinates it returns
    to a relative error of half the number of samples in units of the last place, and the coordinates it returns are those of the model to
    4e-16 of the magnitude of their terms. -/
theorem C128_pxy (R : Rounding binary64) {n : ℕ} (hn : n ≤ 2147483647) (s : Fin n → XYSample) (m : FitCoeffs) :
    let r := Fp.pxy R s m
    let X := Real.sqrt ((∑ i, ((s i).xe - (r.predicted i).1) ^ 2) / max (1 : ℝ) n)
    let Y := Real.sqrt ((∑ i, ((s i).ye - (r.predicted i).2) ^ 2) / max (1 : ℝ) n)
    let Z := Real.sqrt ((∑ i, (((s i).xe - (r.predicted i).1) ^ 2 + ((s i).ye - (r.predicted i).2) ^ 2)) / max (1 : ℝ) n)
    |r.xRms - X| ≤ (n + 6) * 0.7e-16 * X + 2.2e-100 ∧ |r.yRms - Y| ≤ (n + 6) * 0.7e-16 * Y + 2.2e-100 ∧
    |r.rms - Z| ≤ (n + 10) * 0.73e-16 * Z + 1e-89 ∧
    ∀ i, |(r.predicted i).1 - (m.a + m.b * (s i).xm + m.c * (s i).ym)| ≤ 4e-16 * (|m.a| + |m.b * (s i).xm| + |m.c * (s i).ym|) + 1e-199 ∧
      |(r.predicted i).2 - (m.d + m.e * (s i).xm + m.f * (s i).ym)| ≤ 4e-16 * (|m.d| + |m.e * (s i).xm| + |m.f * (s i).ym|) + 1e-199 := by
  intro r X Y Z
  have hx : |r.xRms - X| ≤ (n + 6) * 0.7e-16 * X + 2.2e-100 :=
    rms_near R hn (fun i => (s i).xe - (Fp.xy2xy R (s i).xm (s i).ym m).1) _ (fun i => rfl)
  have hy : |r.yRms - Y| ≤ (n + 6) * 0.7e-16 * Y + 2.2e-100 :=
    rms_near R hn (fun i => (s i).ye - (Fp.xy2xy R (s i).xm (s i).ym m).2) _ (fun i => rfl)
  refine ⟨hx, hy, ?_, fun i => C116_xy2xy R _ _ m⟩
  have X0 : 0 ≤ X := Real.sqrt_nonneg _
  have Y0 : 0 ≤ Y := Real.sqrt_nonneg _
  have p0 : (0 : ℝ) ≤ max (1 : ℝ) n := le_trans zero_le_one (le_max_left _ _)
  have eX : X ^ 2 = (∑ i, ((s i).xe - (r.predicted i).1) ^ 2) / max (1 : ℝ) n :=
    Real.sq_sqrt (div_nonneg (Finset.sum_nonneg fun i _ => sq_nonneg _) p0)
  have eY : Y ^ 2 = (∑ i, ((s i).ye - (r.predicted i).2) ^ 2) / max (1 : ℝ) n :=
    Real.sq_sqrt (div_nonneg (Finset.sum_nonneg fun i _ => sq_nonneg _) p0)
  have eZ : Z = Real.sqrt (X ^ 2 + Y ^ 2) := by
    rw [eX, eY, ← add_div, ← Finset.sum_add_distrib]
  have er : r.rms = R (Real.sqrt (R (R (r.xRms * r.xRms) + R (r.yRms * r.yRms)))) := rfl
  have nb : (n : ℝ) ≤ 2147483647 := by exact_mod_cast hn
  have n0 : (0 : ℝ) ≤ n := Nat.cast_nonneg n
  obtain ⟨κ, hκ⟩ : ∃ κ : ℝ, κ = (n + 6) * 0.7e-16 := ⟨_, rfl⟩
  have κ0 : 0 ≤ κ := by rw [hκ]; positivity
  have κ1 : κ ≤ 1.6e-7 := by rw [hκ]; linarith
  rw [← hκ] at hx hy
  have ax := again R.dbl X0 κ0 κ1 hx
  have ay := again R.dbl Y0 κ0 κ1 hy
  rw [er, eZ]
  have A0 : 0 ≤ X ^ 2 + Y ^ 2 := by positivity
  clear_value X Y Z
  clear hx hy eX eY eZ er
  generalize R (r.xRms * r.xRms) = x at *
  generalize R (r.yRms * r.yRms) = y at *
  have X2 := sq_nonneg X
  have Y2 := sq_nonneg Y
  generalize X ^ 2 = U at *
  generalize Y ^ 2 = V at *
  have h1 : |x + y - (U + V)| ≤ (2.0001 * κ + 1.202e-16) * (U + V) + 1.12e-179 := by
    rw [show x + y - (U + V) = (x - U) + (y - V) by ring]
    refine (abs_add_le _ _).trans ((add_le_add ax ay).trans (le_of_eq (by ring)))
  generalize U + V = W at *
  generalize x + y = w at *
  have h2 := R.dbl w
  have kw : κ * W ≤ 1.6e-7 * W := mul_le_mul_of_nonneg_right κ1 A0
  have h3 : |w| ≤ 1.001 * W + 1e-170 := by
    have := abs_sub_abs_le_abs_sub w W
    rw [abs_of_nonneg A0] at this
    norm_num at *; linarith
  have h4 : |R w - W| ≤ (2.0001 * κ + 2.41e-16) * W + (3.4e-90) ^ 2 := by
    have := abs_sub_le (R w) w W
    norm_num at *; linarith
  have h5 := sqrt_near' A0 (by positivity) (by norm_num at κ1 ⊢; linarith) (by norm_num) h4
  have h6 := R.dbl (Real.sqrt (R w))
  have q0 := Real.sqrt_nonneg W
  rw [abs_of_nonneg (Real.sqrt_nonneg _)] at h6
  have h7 := (abs_le.1 h5).2
  have h8 := abs_sub_le (R (Real.sqrt (R w))) (Real.sqrt (R w)) (Real.sqrt W)
  generalize Real.sqrt W = Q at *
  generalize Real.sqrt (R w) = Q' at *
  have t1 : κ * Q ≤ 1.6e-7 * Q := mul_le_mul_of_nonneg_right κ1 q0
  have t2 : κ * Q = (n * Q) * 0.7e-16 + 6 * 0.7e-16 * Q := by rw [hκ]; ring
  have t3 : 0 ≤ n * Q := mul_nonneg n0 q0
  have t4 : (n + 10) * 0.73e-16 * Q = (n * Q) * 0.73e-16 + 10 * 0.73e-16 * Q := by ring
  rw [t4]
  have t5 : 0.51 * (2.0001 * κ + 2.41e-16) * Q = 0.51 * (2.0001 * (κ * Q) + 2.41e-16 * Q) := by ring
  rw [t5] at h5 h7
  generalize κ * Q = kq at *
  generalize n * Q = nq at *
  norm_num at *
  linarith

/-- Shifting every term by at most `ε` raises a root mean square by at most `ε`. -/
private theorem shift_le {n : ℕ} (a b : Fin n → ℝ) {ε : ℝ} (ε0 : 0 ≤ ε) (h : ∀ i, |a i - b i| ≤ ε) :
    Real.sqrt ((∑ i, a i ^ 2) / max (1 : ℝ) n) ≤ Real.sqrt ((∑ i, b i ^ 2) / max (1 : ℝ) n) + ε := by
  have p1 : (1 : ℝ) ≤ max (1 : ℝ) n := le_max_left _ _
  have pn : (n : ℝ) ≤ max (1 : ℝ) n := le_max_right _ _
  generalize max (1 : ℝ) n = p at *
  have p0 : 0 < p := by linarith
  obtain ⟨s, hs⟩ : ∃ s, s = Real.sqrt ((∑ i, b i ^ 2) / p) := ⟨_, rfl⟩
  have s0 : 0 ≤ s := hs ▸ Real.sqrt_nonneg _
  have B0 : 0 ≤ ∑ i, b i ^ 2 := Finset.sum_nonneg fun i _ => sq_nonneg _
  have es : ∑ i, b i ^ 2 = p * s ^ 2 := by rw [hs, Real.sq_sqrt (div_nonneg B0 p0.le)]; field_simp
  rw [← hs]
  refine Real.sqrt_le_iff.2 ⟨by positivity, ?_⟩
  rw [div_le_iff₀ p0]
  have h1 : ∑ i, |b i| ≤ p * s := by
    refine (le_abs_self _).trans (abs_le_of_sq_le_sq ?_ (by positivity))
    have := sq_sum_le_card_mul_sum_sq (s := Finset.univ) (f := fun i => |b i|)
    simp only [sq_abs, Finset.card_univ, Fintype.card_fin] at this
    rw [es] at this
    refine this.trans ?_
    calc (n : ℝ) * (p * s ^ 2) ≤ p * (p * s ^ 2) := mul_le_mul_of_nonneg_right pn (by positivity)
      _ = _ := by ring
  have h2 : ∑ i, a i ^ 2 ≤ ∑ i, (b i ^ 2 + 2 * ε * |b i| + ε ^ 2) := by
    refine Finset.sum_le_sum fun i _ => ?_
    have t : |a i| ≤ |b i| + ε := by
      have := abs_sub_abs_le_abs_sub (a i) (b i)
      linarith [h i]
    have := pow_le_pow_left₀ (abs_nonneg _) t 2
    rw [sq_abs] at this
    refine this.trans (le_of_eq ?_)
    rw [add_sq, sq_abs]; ring
  rw [Finset.sum_add_distrib, Finset.sum_add_distrib, ← Finset.mul_sum, es, Finset.sum_const, Finset.card_univ, Fintype.card_fin, nsmul_eq_mul] at h2
  have h3 : 2 * ε * ∑ i, |b i| ≤ 2 * ε * (p * s) := mul_le_mul_of_nonneg_left h1 (by positivity)
  have h4 : n * ε ^ 2 ≤ p * ε ^ 2 := mul_le_mul_of_nonneg_right pn (sq_nonneg ε)
  calc ∑ i, a i ^ 2 ≤ p * s ^ 2 + 2 * ε * (p * s) + p * ε ^ 2 := by linarith
    _ = _ := by ring

/-- A relative error against a quantity that is itself known to `ε`. -/
private theorem carry {x X X0 κ ε q : ℝ} (hκ0 : 0 ≤ κ) (hκ : κ ≤ 0.01) (h : |x - X| ≤ κ * X + q) (h1 : X ≤ X0 + ε) (h2 : X0 ≤ X + ε) :
    |x - X0| ≤ κ * X0 + 1.01 * ε + q := by
  have e0 : 0 ≤ ε := by linarith
  have e1 : κ * X ≤ κ * (X0 + ε) := mul_le_mul_of_nonneg_left h1 hκ0
  have e2 : κ * ε ≤ 0.01 * ε := mul_le_mul_of_nonneg_right hκ e0
  rw [abs_le] at h ⊢
  constructor <;> linarith [h.1, h.2]

/-- C128: against exact arithmetic throughout, the root mean square residuals of `pxy` are right to the relative error of `C128_pxy` plus
    4.1e-16 of the largest magnitude of the terms of the model, however many samples there are. -/
theorem C128_exact (R : Rounding binary64) {n : ℕ} (hn : n ≤ 2147483647) (s : Fin n → XYSample) (m : FitCoeffs) {B : ℝ} (hB : 1e-150 ≤ B)
    (hx : ∀ i, |m.a| + |m.b * (s i).xm| + |m.c * (s i).ym| ≤ B) (hy : ∀ i, |m.d| + |m.e * (s i).xm| + |m.f * (s i).ym| ≤ B) :
    |(Fp.pxy R s m).xRms - (Sla.pxy s m).xRms| ≤ (n + 6) * 0.7e-16 * (Sla.pxy s m).xRms + 4.1e-16 * B + 2.2e-100 ∧
    |(Fp.pxy R s m).yRms - (Sla.pxy s m).yRms| ≤ (n + 6) * 0.7e-16 * (Sla.pxy s m).yRms + 4.1e-16 * B + 2.2e-100 := by
  obtain ⟨h1, h2, -, h4⟩ := C128_pxy R hn s m
  have nb : (n : ℝ) ≤ 2147483647 := by exact_mod_cast hn
  have n0 : (0 : ℝ) ≤ n := Nat.cast_nonneg n
  have B0 : 0 ≤ B := le_trans (by norm_num) hB
  have hBB : 4e-16 * B + 1e-199 ≤ 4.05e-16 * B := by norm_num at hB ⊢; linarith
  have ex : (Sla.pxy s m).xRms = Real.sqrt ((∑ i, ((s i).xe - (m.a + m.b * (s i).xm + m.c * (s i).ym)) ^ 2) / max (1 : ℝ) n) := by
    simp only [Sla.pxy, accumulate_eq, Sla.xy2xy, ← sq]
  have ey : (Sla.pxy s m).yRms = Real.sqrt ((∑ i, ((s i).ye - (m.d + m.e * (s i).xm + m.f * (s i).ym)) ^ 2) / max (1 : ℝ) n) := by
    simp only [Sla.pxy, accumulate_eq, Sla.xy2xy, ← sq]
  have px : ∀ i, |((Fp.pxy R s m).predicted i).1 - (m.a + m.b * (s i).xm + m.c * (s i).ym)| ≤ 4.05e-16 * B := fun i =>
    (h4 i).1.trans ((add_le_add_left (mul_le_mul_of_nonneg_left (hx i) (by norm_num)) _).trans hBB)
  have py : ∀ i, |((Fp.pxy R s m).predicted i).2 - (m.d + m.e * (s i).xm + m.f * (s i).ym)| ≤ 4.05e-16 * B := fun i =>
    (h4 i).2.trans ((add_le_add_left (mul_le_mul_of_nonneg_left (hy i) (by norm_num)) _).trans hBB)
  have k0 : (0 : ℝ) ≤ (n + 6) * 0.7e-16 := by positivity
  have k1 : ((n : ℝ) + 6) * 0.7e-16 ≤ 0.01 := by linarith
  have ε0 : 0 ≤ 4.05e-16 * B := by positivity
  have fin : 1.01 * (4.05e-16 * B) ≤ 4.1e-16 * B := by norm_num; linarith
  rw [ex, ey]
  refine ⟨(carry k0 k1 h1 (shift_le _ _ ε0 fun i => ?_) (shift_le _ _ ε0 fun i => ?_)).trans (by linarith),
    (carry k0 k1 h2 (shift_le _ _ ε0 fun i => ?_) (shift_le _ _ ε0 fun i => ?_)).trans (by linarith)⟩
  · rw [sub_sub_sub_cancel_left, abs_sub_comm]; exact px i
  · rw [sub_sub_sub_cancel_left]; exact px i
  · rw [sub_sub_sub_cancel_left, abs_sub_comm]; exact py i
  · rw [sub_sub_sub_cancel_left]; exact py i

/-- Two samples under a model with a shift, a scale and a rotation meet the hypotheses of `C128_exact`. -/
example : ∀ i : Fin 2, |(1 : ℝ)| + |(2 : ℝ) * ((![⟨1, 2, 3, 4⟩, ⟨0, 1, -1, 2⟩] : Fin 2 → XYSample) i).xm| +
    |(-1 : ℝ) * ((![⟨1, 2, 3, 4⟩, ⟨0, 1, -1, 2⟩] : Fin 2 → XYSample) i).ym| ≤ 11 := by
  intro i; fin_cases i <;> norm_num

end Sla.Props
