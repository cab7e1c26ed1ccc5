import Verif.Model.FpHourAngle
import Verif.Lemmas.FpNear
import Verif.Lemmas.FpAngle
import Verif.Lemmas.Spherical
import Verif.Props.FpRange

/-
Backward error bounds for the hour angles of given azimuth or parallactic angle.
-/
namespace Sla.Fp
open Real (pi)

/-- Reduction of an angle, up to full turns. -/
theorem drange_turn (R : Rounding binary64) {a : ℝ} (hr : binary64.Rep a) (h : |a| ≤ 10) : Na (drange R a) a 7e-16 3.15 := by
  obtain ⟨h1, -, ⟨k, hk⟩, -, -⟩ := Props.C77_drange R a hr
  have p1 := Real.pi_gt_d20
  have p2 := Real.pi_lt_d20
  refine ⟨⟨-k, ?_⟩, h1.trans (by norm_num)⟩
  have hd : |(2 : ℝ) * (884279719003555 / 2 ^ 48) - 2 * pi| ≤ 2.46e-16 := by
    rw [abs_le]; constructor <;> norm_num at * <;> linarith
  have hk1 : |(k : ℝ)| * 6 ≤ 14 := by
    have e1 : (2 * (884279719003555 / 2 ^ 48) : ℝ) * k = a - drange R a := by rw [hk]; ring
    have e2 := congrArg abs e1
    rw [abs_mul, abs_of_pos (show (0 : ℝ) < 2 * (884279719003555 / 2 ^ 48) by norm_num)] at e2
    have e3 := abs_sub a (drange R a)
    have e4 : |drange R a| ≤ 4 := h1.trans (by norm_num)
    have := abs_nonneg (k : ℝ)
    nlinarith
  rw [hk, show a - 2 * (884279719003555 / 2 ^ 48 : ℝ) * k - (a + ((-k : ℤ) : ℝ) * (2 * pi)) =
    -(k * (2 * (884279719003555 / 2 ^ 48) - 2 * pi)) by push_cast; ring, abs_neg, abs_mul]
  have := mul_le_mul (show |(k : ℝ)| ≤ 14 / 6 by linarith) hd (abs_nonneg _) (by norm_num)
  exact this.trans (by norm_num)

/-- The adjustment moves an angle by at most 2.1e-12. -/
theorem tiny_near (R : Rounding binary64) : 0 < R 1e-12 ∧ R 1e-12 ≤ 1.0001e-12 := by
  have h := abs_le.1 (R.dbl 1e-12)
  rw [abs_of_pos (by norm_num)] at h
  constructor
  · have := h.1; norm_num at *; linarith
  · have := h.2; norm_num at *; linarith

theorem sign_near (R : Rounding binary64) {a x e : ℝ} (h : Na a x e 3.15) (hg : e + 1.1e-12 ≤ g) : Na (R (a - csign (R 1e-12) a)) x g 3.16 := by
  obtain ⟨t0, t1⟩ := tiny_near R
  obtain ⟨⟨n, hn⟩, hb⟩ := h
  have h1 : |csign (R 1e-12) a| ≤ 1.0001e-12 := by
    unfold csign
    split_ifs
    · rw [abs_abs, abs_of_pos t0]; exact t1
    · rw [abs_neg, abs_abs, abs_of_pos t0]; exact t1
  have h2 := R.dbl (a - csign (R 1e-12) a)
  have h3 : |a - csign (R 1e-12) a| ≤ 3.151 := (abs_sub _ _).trans (by norm_num at *; linarith)
  have h4 : |R (a - csign (R 1e-12) a) - a| ≤ 1.1e-12 := by
    have := abs_sub_le (R (a - csign (R 1e-12) a)) (a - csign (R 1e-12) a) a
    rw [sub_sub_cancel_left, abs_neg] at this
    norm_num at *; linarith
  constructor
  · refine ⟨n, (abs_sub_le _ a _).trans ?_⟩
    linarith
  · have := abs_add_le (R (a - csign (R 1e-12) a) - a) a
    rw [sub_add_cancel] at this
    norm_num at *; linarith

theorem adjust_near (R : Rounding binary64) {a x : ℝ} (c : Prop) (h : Na a x 7e-16 3.15) : Na (adjustBy R c a) x 2.11e-12 3.16 := by
  obtain ⟨t0, t1⟩ := tiny_near R
  unfold adjustBy
  split_ifs with h1 h2
  · exact (sign_near R h le_rfl).mono (by norm_num) le_rfl
  · obtain ⟨⟨n, hn⟩, hb⟩ := h
    refine ⟨⟨n, (abs_sub_le _ a _).trans ?_⟩, by rw [abs_of_pos t0]; exact t1.trans (by norm_num)⟩
    have := abs_sub (R 1e-12) a
    rw [abs_of_pos t0] at this
    norm_num at *; linarith
  · exact h.mono (by norm_num) (by norm_num)

/-- Square roots of numbers with a small relative error. -/
theorem sqrt_rel {a b : ℝ} (hb : 0 ≤ b) (h : |a - b| ≤ 4e-16 * b + 1e-190) : |Real.sqrt a - Real.sqrt b| ≤ 4e-16 * Real.sqrt b + 1e-90 := by
  have s0 := Real.sqrt_nonneg b
  have s1 := Real.sqrt_nonneg a
  have q2 := Real.mul_self_sqrt hb
  have h' := abs_le.1 h
  by_cases hs : Real.sqrt b < 1e-94
  · have hb' : b ≤ 1e-188 := by
      have := mul_self_le_mul_self s0 hs.le
      rw [q2] at this
      exact this.trans (by norm_num)
    have ha : Real.sqrt a ≤ 2e-94 := by
      refine Real.sqrt_le_iff.2 ⟨by norm_num, ?_⟩
      have := h'.2
      norm_num at *; linarith
    rw [abs_le]
    constructor <;> norm_num at hs ha ⊢ <;> linarith [Real.sqrt_nonneg a, Real.sqrt_nonneg b]
  · push Not at hs
    have ha : 0 ≤ a := by
      have h1 : (1e-188 : ℝ) ≤ b := by
        have := mul_self_le_mul_self (by norm_num) hs
        rw [q2] at this
        exact le_trans (by norm_num) this
      have := h'.1
      norm_num at *; linarith
    have sp : 0 < Real.sqrt b := lt_of_lt_of_le (by norm_num) hs
    have q1 := Real.mul_self_sqrt ha
    have q3 : |Real.sqrt a - Real.sqrt b| * (Real.sqrt a + Real.sqrt b) = |a - b| := by
      rw [← abs_of_nonneg (add_nonneg s1 s0), ← abs_mul]
      congr 1
      nlinarith
    have q4 := mul_nonneg (abs_nonneg (Real.sqrt a - Real.sqrt b)) s1
    have q5 : (1e-190 : ℝ) ≤ 1e-90 * Real.sqrt b := by
      refine le_trans ?_ (mul_le_mul_of_nonneg_left hs (by norm_num))
      norm_num
    have q6 : |Real.sqrt a - Real.sqrt b| * Real.sqrt b ≤ (4e-16 * Real.sqrt b + 1e-90) * Real.sqrt b := by
      rw [add_mul, mul_assoc, q2]
      nlinarith
    exact le_of_mul_le_mul_right q6 sp

/-- The divisor. -/
theorem divisor_near {D : ℝ → ℝ} (hD : Dbl D) {b x m : ℝ} (hb : |b| ≤ 1.001) (hx : |x| ≤ 1.001) (hm : |m| ≤ 1.001) :
    |D (b * D (Real.sqrt (D (D (x * x) + D (m * m))))) - b * Real.sqrt (x * x + m * m)| ≤ 2e-15 ∧ Real.sqrt (x * x + m * m) ≤ 1.42 := by
  have x0 := mul_self_nonneg x
  have m0 := mul_self_nonneg m
  have x1 : x * x ≤ 1.00201 := by
    rw [← abs_mul_abs_self]; exact (mul_le_mul hx hx (abs_nonneg _) (by norm_num)).trans (by norm_num)
  have m1 : m * m ≤ 1.00201 := by
    rw [← abs_mul_abs_self]; exact (mul_le_mul hm hm (abs_nonneg _) (by norm_num)).trans (by norm_num)
  have hw : |D (D (x * x) + D (m * m)) - (x * x + m * m)| ≤ 4e-16 * (x * x + m * m) + 1e-190 := by
    have d1 := hD (x * x)
    have d2 := hD (m * m)
    have d3 := hD (D (x * x) + D (m * m))
    rw [abs_of_nonneg x0] at d1
    rw [abs_of_nonneg m0] at d2
    have d1' := abs_le.1 d1
    have d2' := abs_le.1 d2
    have d4 : |D (x * x) + D (m * m)| ≤ 1.1 * (x * x + m * m) + 1e-199 := by
      rw [abs_le]
      constructor <;> norm_num at * <;> linarith
    have d3' := abs_le.1 d3
    rw [abs_le]
    constructor <;> norm_num at * <;> linarith
  have hs := sqrt_rel (add_nonneg x0 m0) hw
  have K1 : Real.sqrt (x * x + m * m) ≤ 1.42 := Real.sqrt_le_iff.2 ⟨by norm_num, by norm_num at *; linarith⟩
  have K0 := Real.sqrt_nonneg (x * x + m * m)
  refine ⟨?_, K1⟩
  have n1 : Nb (Real.sqrt (D (D (x * x) + D (m * m)))) (Real.sqrt (x * x + m * m)) 5.7e-16 1.42 :=
    ⟨hs.trans (by norm_num at *; linarith), by rw [abs_of_nonneg K0]; exact K1⟩
  have n2 : Nb (D (Real.sqrt (D (D (x * x) + D (m * m))))) (Real.sqrt (x * x + m * m)) 7.5e-16 1.42 := hD.nround n1 le_rfl (by norm_num)
  have n3 : Nb b b 0 1.001 := Nb.self hb
  have n4 : Nb (D (b * D (Real.sqrt (D (D (x * x) + D (m * m)))))) (b * Real.sqrt (x * x + m * m)) 2e-15 1.43 := hD.nmul n3 n2 (by norm_num) (by norm_num)
  exact n4.err

/-- An angle whose sine is the computed quotient solves the equation. -/
theorem quotient_solves {D : ℝ → ℝ} (hD : Dbl D) {qb qt B θ : ℝ} (hq : |qb - B| ≤ 2e-15) (hB : |B| ≤ 1.43) (h : |qt| ≤ qb) (h0 : qb ≠ 0)
    (hθ : |Real.sin θ - D (qt / qb)| ≤ 1e-15) : |B * Real.sin θ - qt| ≤ 4e-15 := by
  have qp : 0 < qb := lt_of_le_of_ne ((abs_nonneg _).trans h) (Ne.symm h0)
  have q1 : qb ≤ 1.44 := by
    have := abs_add_le (qb - B) B
    rw [sub_add_cancel, abs_of_pos qp] at this
    norm_num at *; linarith
  have d1 := hD (qt / qb)
  have d2 : |qt / qb| ≤ 1 := by rw [abs_div, abs_of_pos qp, div_le_one qp]; exact h
  have d3 : |qb * D (qt / qb) - qt| ≤ 1.44 * 1.3e-16 := by
    have e1 : qb * D (qt / qb) - qt = qb * (D (qt / qb) - qt / qb) := by field_simp
    rw [e1, abs_mul, abs_of_pos qp]
    refine mul_le_mul q1 (d1.trans ?_) (abs_nonneg _) (by norm_num)
    norm_num at *; linarith
  have d4 : |qb * (Real.sin θ - D (qt / qb))| ≤ 1.44 * 1e-15 := by
    rw [abs_mul, abs_of_pos qp]; exact mul_le_mul q1 hθ (abs_nonneg _) (by norm_num)
  have d5 : |(B - qb) * Real.sin θ| ≤ 2e-15 * 1 := by
    rw [abs_mul, abs_sub_comm]; exact mul_le_mul hq (Real.abs_sin_le_one θ) (abs_nonneg _) (by norm_num)
  have e2 : B * Real.sin θ - qt = (B - qb) * Real.sin θ + qb * (Real.sin θ - D (qt / qb)) + (qb * D (qt / qb) - qt) := by ring
  have := abs_add_le ((B - qb) * Real.sin θ + qb * (Real.sin θ - D (qt / qb))) (qb * D (qt / qb) - qt)
  have := abs_add_le ((B - qb) * Real.sin θ) (qb * (Real.sin θ - D (qt / qb)))
  rw [e2]
  norm_num at *; linarith

theorem sin_turn {a x e : ℝ} {n : ℤ} (h : |a - (x + n * (2 * pi))| ≤ e) : |Real.sin a - Real.sin x| ≤ e := by
  have := sin_err (sn := Real.sin) (ε := 0) (fun x => by simp) h
  rw [Real.sin_add_int_mul_two_pi] at this
  simpa using this

set_option maxHeartbeats 1000000 in
/-- The returned hour angles solve the computed equation. -/
theorem hourAngles_near (R : Rounding binary64) {asn : ℝ → ℝ} (hasn : ∀ v, |v| ≤ 1 → |asn v - Real.arcsin v| ≤ 1e-15) {at2 : ℝ → ℝ → ℝ}
    (hat : Spec.Atan2Near at2 1e-15) {b x m qt : ℝ} (hb : |b| ≤ 1.001) (hx : |x| ≤ 1.001) (hm : |m| ≤ 1.001)
    {valid : ℝ → Prop} :
    match hourAngles R asn at2 b x m qt valid with
    | .none => ∀ h : ℝ, b * (x * Real.sin h + m * Real.cos h) ≤ |qt| + (|b| - b) * 1.42 + 2e-15
    | .nan => |qt| ≤ 0 ∧ ∀ h : ℝ, |b * (x * Real.sin h + m * Real.cos h)| ≤ 2e-15
    | .two h1 h2 v1 v2 => |b * (x * Real.sin h1 + m * Real.cos h1) - qt| ≤ 2e-14 ∧ |b * (x * Real.sin h2 + m * Real.cos h2) - qt| ≤ 2e-14 ∧
        |h1| ≤ 3.15 ∧ |h2| ≤ 3.15 ∧ (v1 ↔ valid h1) ∧ (v2 ↔ valid h2) := by
  have hD := R.dbl
  obtain ⟨q1, K1⟩ := divisor_near hD hb hx hm
  have K0 := Real.sqrt_nonneg (x * x + m * m)
  have pc := polar_cos m x
  have ps := polar_sin m x
  have hexp : ∀ h : ℝ, x * Real.sin h + m * Real.cos h = Real.sqrt (x * x + m * m) * Real.sin (h + atan2 m x) := by
    intro h
    rw [Real.sin_add]
    linear_combination -(Real.sin h) * pc - Real.cos h * ps
  unfold hourAngles
  dsimp only
  generalize hqb : R (b * R (Real.sqrt (R (R (x * x) + R (m * m))))) = qb at *
  generalize Real.sqrt (x * x + m * m) = K at *
  have hBK : |b * K| ≤ 1.43 := by
    rw [abs_mul, abs_of_nonneg K0]
    exact (mul_le_mul hb K1 K0 (by norm_num)).trans (by norm_num)
  by_cases h : |qt| ≤ qb
  · rw [if_pos h]
    by_cases h0 : qb = 0
    · rw [if_pos h0]
      dsimp only
      refine ⟨by rw [h0] at h; exact h, ?_⟩
      rw [h0, zero_sub, abs_neg, abs_mul, abs_of_nonneg K0] at q1
      intro h'
      rw [hexp, abs_mul, abs_mul, abs_of_nonneg K0]
      refine le_trans (mul_le_mul_of_nonneg_left ?_ (abs_nonneg _)) q1
      exact mul_le_of_le_one_right K0 (Real.abs_sin_le_one _)
    · rw [if_neg h0]
      dsimp only
      have qp : 0 < qb := lt_of_le_of_ne ((abs_nonneg _).trans h) (Ne.symm h0)
      have v1 : |R (qt / qb)| ≤ 1 := by
        have d2 : |qt / qb| ≤ 1 := by rw [abs_div, abs_of_pos qp, div_le_one qp]; exact h
        have r1 : binary64.Rep 1 := ⟨1, 0, by norm_num [binary64], by norm_num [binary64], by norm_num⟩
        rw [← R.abs_eq]
        exact R.le_rep d2 r1
      have a1 := hasn _ v1
      obtain ⟨k, t1, t2⟩ := at2_turn hat m x
      have hsv : Real.sin (Real.arcsin (R (qt / qb))) = R (qt / qb) := Real.sin_arcsin (abs_le.1 v1).1 (abs_le.1 v1).2
      have hs0 : |Real.sin (asn (R (qt / qb))) - R (qt / qb)| ≤ 1e-15 := by
        have := sin_err (sn := Real.sin) (ε := 0) (fun x => by simp) a1
        rw [hsv] at this
        simpa using this
      have sol := quotient_solves hD q1 hBK h h0 hs0
      have p1 := Real.pi_gt_d20
      have p2 := Real.pi_lt_d20
      have ab : |asn (R (qt / qb))| ≤ 1.5708 := by
        have u1 := Real.arcsin_le_pi_div_two (R (qt / qb))
        have u2 := Real.neg_pi_div_two_le_arcsin (R (qt / qb))
        have := abs_le.1 a1
        rw [abs_le]
        constructor <;> norm_num at * <;> linarith
      generalize asn (R (qt / qb)) = hpt at *
      generalize at2 m x = t at *
      have tb : |t| ≤ 3.1416 := by norm_num at *; linarith
      have fin : ∀ {w g θ : ℝ}, binary64.Rep g → |g| ≤ 10 → (∃ n : ℤ, |g - (θ - atan2 m x + n * (2 * pi))| ≤ 4e-15) → Real.sin θ = Real.sin hpt →
          w = drange R g → |b * (x * Real.sin w + m * Real.cos w) - qt| ≤ 2e-14 ∧ |w| ≤ 3.15 := by
        rintro w g θ hg hgb ⟨n, hn⟩ hθ rfl
        obtain ⟨⟨j, hj⟩, hw⟩ := drange_turn R hg hgb
        refine ⟨?_, hw⟩
        rw [hexp]
        have s1 : |Real.sin (drange R g + atan2 m x) - Real.sin θ| ≤ 4.8e-15 := by
          refine sin_turn (n := n + j) ?_
          have e1 : drange R g + atan2 m x - (θ + ((n + j : ℤ) : ℝ) * (2 * pi)) =
            (drange R g - (g + j * (2 * pi))) + (g - (θ - atan2 m x + n * (2 * pi))) := by push_cast; ring
          rw [e1]
          refine (abs_add_le _ _).trans ?_
          norm_num at *; linarith
        rw [hθ] at s1
        generalize Real.sin (drange R g + atan2 m x) = sg at *
        have e2 : b * (K * sg) - qt = b * K * (sg - Real.sin hpt) + (b * K * Real.sin hpt - qt) := by ring
        have e3 : |b * K * (sg - Real.sin hpt)| ≤ 1.43 * 4.8e-15 := by
          rw [abs_mul]; exact mul_le_mul hBK s1 (abs_nonneg _) (by norm_num)
        rw [e2]
        refine (abs_add_le _ _).trans ?_
        norm_num at *; linarith
      have nt : Nb t t 0 3.1416 := Nb.self tb
      have nh : Nb hpt hpt 0 1.5708 := Nb.self ab
      have npi : Nb (R 3.141592653589793238462643) pi 2e-16 3.15 := by
        rw [Props.fp_pi64]
        refine ⟨?_, by rw [abs_of_pos Real.pi_pos]; norm_num at *; linarith⟩
        rw [abs_le]; constructor <;> norm_num at * <;> linarith
      have g1 : Nb (R (hpt - t)) (hpt - t) 6e-16 4.72 := hD.nsub nh nt (by norm_num) (by norm_num)
      have g2 : Nb (R (t + R 3.141592653589793238462643)) (t + pi) 1e-15 6.3 := hD.nadd nt npi (by norm_num) (by norm_num)
      have g3 : Nb (R (-hpt - R (t + R 3.141592653589793238462643))) (-hpt - (t + pi)) 2e-15 7.9 := hD.nsub nh.neg g2 (by norm_num) (by norm_num)
      have c1 : |R (hpt - t)| ≤ 10 := by
        have := abs_add_le (R (hpt - t) - (hpt - t)) (hpt - t)
        rw [sub_add_cancel] at this
        have := g1.err; have := g1.bd
        norm_num at *; linarith
      have c3 : |R (-hpt - R (t + R 3.141592653589793238462643))| ≤ 10 := by
        have := abs_add_le (R (-hpt - R (t + R 3.141592653589793238462643)) - (-hpt - (t + pi))) (-hpt - (t + pi))
        rw [sub_add_cancel] at this
        have := g3.err; have := g3.bd
        norm_num at *; linarith
      obtain ⟨r1, r2⟩ := fin (θ := hpt) (R.rep _) c1 ⟨-k, by
        have e1 : R (hpt - t) - (hpt - atan2 m x + ((-k : ℤ) : ℝ) * (2 * pi)) = (R (hpt - t) - (hpt - t)) - (t - (atan2 m x + 2 * pi * k)) := by
          push_cast; ring
        rw [e1]
        refine (abs_sub _ _).trans ?_
        have := g1.err
        norm_num at *; linarith⟩ rfl rfl
      obtain ⟨r3, r4⟩ := fin (θ := -hpt - pi) (R.rep _) c3 ⟨-k, by
        have e1 : R (-hpt - R (t + R 3.141592653589793238462643)) - (-hpt - pi - atan2 m x + ((-k : ℤ) : ℝ) * (2 * pi)) =
          (R (-hpt - R (t + R 3.141592653589793238462643)) - (-hpt - (t + pi))) - (t - (atan2 m x + 2 * pi * k)) := by
          push_cast; ring
        rw [e1]
        refine (abs_sub _ _).trans ?_
        have := g3.err
        norm_num at *; linarith⟩ (by rw [Real.sin_sub_pi, Real.sin_neg, neg_neg]) rfl
      exact ⟨r1, r3, r2, r4, Iff.rfl, Iff.rfl⟩
  · rw [if_neg h]
    dsimp only
    intro h'
    push Not at h
    rw [hexp]
    have s1 := abs_le.1 (Real.abs_sin_le_one (h' + atan2 m x))
    generalize Real.sin (h' + atan2 m x) = sg at *
    have e1 : b * (K * sg) ≤ |b| * K := by
      refine (le_abs_self _).trans ?_
      rw [abs_mul, abs_mul, abs_of_nonneg K0]
      refine mul_le_mul_of_nonneg_left ?_ (abs_nonneg _)
      have : |sg| ≤ 1 := abs_le.2 s1
      nlinarith
    have e2 : |b| * K ≤ b * K + (|b| - b) * 1.42 := by
      have : 0 ≤ |b| - b := by linarith [le_abs_self b]
      nlinarith
    have := (abs_le.1 q1).1
    linarith

/-- The same in terms of the exact coefficients. -/
theorem hourAngles_exact (R : Rounding binary64) {asn : ℝ → ℝ} (hasn : ∀ v, |v| ≤ 1 → |asn v - Real.arcsin v| ≤ 1e-15) {at2 : ℝ → ℝ → ℝ}
    (hat : Spec.Atan2Near at2 1e-15) {b b' x x' m m' q q' : ℝ} (nb : Nb b' b 2.12e-12 1) (nx : Nb x' x 2.12e-12 1) (nm : Nb m' m 4.25e-12 1)
    (nq : Nb q' q 6.4e-12 1) {valid : ℝ → Prop} :
    match hourAngles R asn at2 b' x' m' q' valid with
    | .none => 0 ≤ b → ∀ h : ℝ, b * (x * Real.sin h + m * Real.cos h) ≤ |q| + 3e-11
    | .nan => |q| ≤ 3e-11 ∧ ∀ h : ℝ, |b * (x * Real.sin h + m * Real.cos h)| ≤ 3e-11
    | .two h1 h2 v1 v2 => |b * (x * Real.sin h1 + m * Real.cos h1) - q| ≤ 2e-11 ∧ |b * (x * Real.sin h2 + m * Real.cos h2) - q| ≤ 2e-11 ∧
        |h1| ≤ 3.15 ∧ |h2| ≤ 3.15 ∧ (v1 ↔ valid h1) ∧ (v2 ↔ valid h2) := by
  have big : ∀ {a a' e : ℝ}, Nb a' a e 1 → e ≤ 1e-3 → |a'| ≤ 1.001 := fun {a a' e} h he => by
    have h1 := abs_add_le (a' - a) a
    rw [sub_add_cancel] at h1
    have := h.err; have := h.bd
    norm_num at *; linarith
  have hb := big nb (by norm_num)
  have key := hourAngles_near R hasn hat (qt := q') (valid := valid) hb (big nx (by norm_num)) (big nm (by norm_num))
  have tr : ∀ h : ℝ, |b' * (x' * Real.sin h + m' * Real.cos h) - b * (x * Real.sin h + m * Real.cos h)| ≤ 1.07e-11 := by
    intro h
    have s1 := Real.abs_sin_le_one h
    have c1 := Real.abs_cos_le_one h
    have q1 : |x * Real.sin h + m * Real.cos h| ≤ 2 := by
      refine (abs_add_le _ _).trans ?_
      rw [abs_mul, abs_mul]
      have := mul_le_mul nx.bd s1 (abs_nonneg _) zero_le_one
      have := mul_le_mul nm.bd c1 (abs_nonneg _) zero_le_one
      linarith
    have q2 : |(x' - x) * Real.sin h + (m' - m) * Real.cos h| ≤ 6.37e-12 := by
      refine (abs_add_le _ _).trans ?_
      rw [abs_mul, abs_mul]
      have := mul_le_mul nx.err s1 (abs_nonneg _) (by norm_num)
      have := mul_le_mul nm.err c1 (abs_nonneg _) (by norm_num)
      norm_num at *; linarith
    have e1 : b' * (x' * Real.sin h + m' * Real.cos h) - b * (x * Real.sin h + m * Real.cos h) =
      (b' - b) * (x * Real.sin h + m * Real.cos h) + b' * ((x' - x) * Real.sin h + (m' - m) * Real.cos h) := by ring
    rw [e1]
    refine (abs_add_le _ _).trans ?_
    rw [abs_mul, abs_mul]
    have q3 := mul_le_mul nb.err q1 (abs_nonneg _) (by norm_num)
    have q4 := mul_le_mul hb q2 (abs_nonneg _) (by norm_num)
    refine (add_le_add q3 q4).trans ?_
    norm_num
  have nqe := abs_le.1 nq.err
  generalize hourAngles R asn at2 b' x' m' q' valid = o at *
  cases o with
  | none =>
    dsimp only at key ⊢
    intro hb0 h
    have h1 := key h
    have h2 := (abs_le.1 (tr h)).1
    have h3 : |b'| - b' ≤ 4.24e-12 := by
      have := (abs_le.1 nb.err).1
      rcases abs_cases b' with ⟨h, _⟩ | ⟨h, _⟩ <;> rw [h] <;> norm_num at * <;> linarith
    have h4 : |q'| ≤ |q| + 6.4e-12 := by
      have := abs_add_le (q' - q) q
      rw [sub_add_cancel] at this
      linarith [nq.err]
    generalize b' * (x' * Real.sin h + m' * Real.cos h) = E at *
    generalize b * (x * Real.sin h + m * Real.cos h) = E' at *
    norm_num at h1 h2 h3 h4 ⊢; linarith
  | nan =>
    dsimp only at key ⊢
    obtain ⟨k1, k2⟩ := key
    constructor
    · have h1 : q' = 0 := by simpa using k1
      have := nq.err
      rw [h1, zero_sub, abs_neg] at this
      exact this.trans (by norm_num)
    · intro h
      have h1 := k2 h
      have h2 := tr h
      rw [abs_sub_comm] at h2
      have h3 := abs_add_le (b * (x * Real.sin h + m * Real.cos h) - b' * (x' * Real.sin h + m' * Real.cos h)) (b' * (x' * Real.sin h + m' * Real.cos h))
      rw [sub_add_cancel] at h3
      refine h3.trans ((add_le_add h2 h1).trans (by norm_num))
  | two h1 h2 v1 v2 =>
    dsimp only at key ⊢
    obtain ⟨k1, k2, k3, k4, k5, k6⟩ := key
    have fin : ∀ h : ℝ, |b' * (x' * Real.sin h + m' * Real.cos h) - q'| ≤ 2e-14 → |b * (x * Real.sin h + m * Real.cos h) - q| ≤ 2e-11 := by
      intro h k
      have e1 : b * (x * Real.sin h + m * Real.cos h) - q = (b' * (x' * Real.sin h + m' * Real.cos h) - q') -
        (b' * (x' * Real.sin h + m' * Real.cos h) - b * (x * Real.sin h + m * Real.cos h)) + (q' - q) := by ring
      rw [e1]
      refine (abs_add_le _ _).trans ((add_le_add ((abs_sub _ _).trans (add_le_add k (tr h))) nq.err).trans (by norm_num))
    exact ⟨fin h1 k1, fin h2 k2, k3, k4, k5, k6⟩

/-- The sign test by a rounded product. -/
theorem sign_test (R : Rounding binary64) (z : ℝ) : (z ≤ 0 → R z ≤ 0) ∧ (1e-190 ≤ z → 0 < R z) := by
  refine ⟨R.nonpos, fun h => ?_⟩
  have h1 := (abs_le.1 (R.dbl z)).1
  rw [abs_of_pos (lt_of_lt_of_le (by norm_num) h)] at h1
  norm_num at *; linarith

/-- Rounding at most halves a number that is not tiny. -/
theorem half_le (R : Rounding binary64) {z lo : ℝ} (h0 : 1e-150 ≤ lo) (h : lo ≤ |z|) : lo / 2 ≤ |R z| := by
  have h1 := R.dbl z
  have h2 := abs_add_le (R z) (z - R z)
  rw [add_sub_cancel, abs_sub_comm] at h2
  norm_num at h0 h1 ⊢; linarith

theorem tiny_lower (R : Rounding binary64) : 0.999e-12 ≤ R 1e-12 := by
  have h := abs_le.1 (R.dbl 1e-12)
  rw [abs_of_pos (by norm_num)] at h
  have := h.1; norm_num at *; linarith

/-- The computed right angle. -/
theorem right_near (R : Rounding binary64) : |R (R 3.141592653589793238462643 / 2) - pi / 2| ≤ 4e-16 := by
  have p1 := Real.pi_gt_d20
  have p2 := Real.pi_lt_d20
  rw [Props.fp_pi64]
  have h := abs_le.1 (R.dbl (884279719003555 / 2 ^ 48 / 2))
  rw [abs_of_pos (by norm_num)] at h
  rw [abs_le]; constructor <;> norm_num at * <;> linarith

theorem sign_abs {t a : ℝ} (ht : 0 < t) : |a - csign t a| = |(|a| - t)| := by
  unfold csign
  split_ifs with h
  · rw [abs_of_pos ht, abs_of_nonneg h]
  · push Not at h
    rw [abs_of_pos ht, abs_of_neg h, ← abs_neg]
    congr 1; ring

/-- An angle up to `B`, moved towards zero by 1e-12. -/
theorem sign_inside (R : Rounding binary64) {a B : ℝ} (h1 : 1 ≤ B) (h2 : B ≤ 3.15) (h : |a| ≤ B) :
    |R (a - csign (R 1e-12) a)| ≤ B - 0.99e-12 := by
  obtain ⟨t0, t1⟩ := tiny_near R
  have t2 := tiny_lower R
  have a0 := abs_nonneg a
  have e1 : |a - csign (R 1e-12) a| ≤ B - 0.999e-12 := by
    rw [sign_abs t0, abs_le]; constructor <;> norm_num at * <;> linarith [abs_nonneg a]
  have e2 := R.dbl (a - csign (R 1e-12) a)
  have e3 := abs_add_le (R (a - csign (R 1e-12) a) - (a - csign (R 1e-12) a)) (a - csign (R 1e-12) a)
  rw [sub_add_cancel] at e3
  norm_num at *; linarith

/-- If the test against `D` fails, the angle is away from `D`. -/
theorem apart (R : Rounding binary64) {z : ℝ} (h : ¬|R z| < R 1e-12) : 0.998e-12 ≤ |z| := by
  have t2 := tiny_lower R
  have h1 := R.dbl z
  have h2 := abs_add_le (R z - z) z
  rw [sub_add_cancel] at h2
  push Not at h
  norm_num at *; linarith

/-- An angle up to `B` near `D`, after the adjustment. -/
theorem adjust_inside (R : Rounding binary64) {a B D : ℝ} {c : Prop} (h1 : 1 ≤ B) (h2 : B ≤ 3.15) (hD : |D - B| ≤ 4e-16) (h : |a| ≤ B)
    (hc : |R (|a| - D)| < R 1e-12 → c) : |adjustBy R c a| ≤ B - 0.99e-12 := by
  obtain ⟨t0, t1⟩ := tiny_near R
  unfold adjustBy
  split_ifs with c1 c2
  · exact sign_inside R h1 h2 h
  · rw [abs_of_pos t0]; norm_num at *; linarith
  · have e1 := apart R (fun e => c1 (hc e))
    have e2 := abs_le.1 hD
    rcases abs_cases (|a| - D) with ⟨e, _⟩ | ⟨e, _⟩ <;> rw [e] at e1 <;> norm_num at * <;> linarith

/-- The adjustment keeps an angle away from zero. -/
theorem adjust_outside (R : Rounding binary64) {a D : ℝ} (hD : 1.5 ≤ D) : 0.99e-12 ≤ |adjustBy R (|R (|a| - D)| < R 1e-12) a| := by
  obtain ⟨t0, t1⟩ := tiny_near R
  have t2 := tiny_lower R
  unfold adjustBy
  split_ifs with c1 c2
  · have e1 : ¬ 1e-3 ≤ |(|a| - D)| := fun e => by
      have := half_le R (by norm_num) e
      norm_num at *; linarith
    have e2 : 1 ≤ |a| := by
      push Not at e1
      have := (abs_lt.1 e1).1
      norm_num at *; linarith
    have e3 : 0.5 ≤ |a - csign (R 1e-12) a| := by
      rw [sign_abs t0]
      refine le_trans ?_ (le_abs_self _)
      norm_num at *; linarith
    exact le_trans (by norm_num) (half_le R (by norm_num) e3)
  · rw [abs_of_pos t0]; norm_num at *; linarith
  · push Not at c2
    norm_num at *; linarith

/-- Sines away from the multiples of a half turn, cosines inside a right angle. -/
theorem sin_away {z : ℝ} (h1 : 0.99e-12 ≤ |z|) (h2 : |z| ≤ pi - 0.99e-12) : 0.61e-12 ≤ |Real.sin z| := by
  have p2 := Real.pi_lt_d2
  have key : ∀ y : ℝ, 0.99e-12 ≤ y → y ≤ pi / 2 → 0.61e-12 ≤ Real.sin y := fun y h h' => by
    have h3 := Real.mul_le_sin (le_trans (by norm_num) h) h'
    have h4 : (0.62 : ℝ) ≤ 2 / pi := by rw [le_div_iff₀ Real.pi_pos]; norm_num at *; linarith
    have h5 := mul_le_mul h4 h (by norm_num) (by positivity)
    norm_num at *; linarith
  have e : |Real.sin z| = |Real.sin (|z|)| := by
    rcases abs_cases z with ⟨e, _⟩ | ⟨e, _⟩ <;> rw [e]
    rw [Real.sin_neg, abs_neg]
  rw [e]
  refine le_trans ?_ (le_abs_self _)
  by_cases h : |z| ≤ pi / 2
  · exact key _ h1 h
  · rw [← Real.sin_pi_sub]
    push Not at h
    exact key _ (by linarith) (by linarith)

theorem cos_away {z : ℝ} (h : |z| ≤ pi / 2 - 0.99e-12) : 0.61e-12 ≤ Real.cos z := by
  have p := Real.pi_gt_three
  rw [← Real.cos_abs, ← Real.sin_pi_div_two_sub]
  have a0 := abs_nonneg z
  have := sin_away (z := pi / 2 - |z|) (by rw [abs_of_nonneg] <;> norm_num at * <;> linarith [abs_nonneg z])
    (by rw [abs_of_nonneg] <;> norm_num at * <;> linarith [abs_nonneg z])
  rwa [abs_of_nonneg] at this
  exact Real.sin_nonneg_of_nonneg_of_le_pi (by norm_num at *; linarith) (by linarith)

/-- A library value near one that is at least 0.61e-12. -/
theorem lib_away {v w : ℝ} (h : |v - w| ≤ 2e-16) (hw : 0.61e-12 ≤ |w|) : 0.6e-12 ≤ |v| := by
  have := abs_add_le v (w - v)
  rw [add_sub_cancel, abs_sub_comm] at this
  norm_num at *; linarith

/-- NaNs come only from a zero divisor and a zero numerator. -/
theorem hourAngles_nan {R asn : ℝ → ℝ} {at2 : ℝ → ℝ → ℝ} {b x m qt : ℝ} {valid : ℝ → Prop} (h : hourAngles R asn at2 b x m qt valid = .nan) :
    qt = 0 ∧ R (b * R (Real.sqrt (R (R (x * x) + R (m * m))))) = 0 := by
  unfold hourAngles at h
  dsimp only at h
  split_ifs at h with h1 h2
  exact ⟨by rw [h2] at h1; simpa using h1, h2⟩

/-- A divisor that is not zero. -/
theorem divisor_pos (R : Rounding binary64) {b x m : ℝ} (hb : 0.6e-12 ≤ |b|) (h : 1e-13 ≤ |x| ∨ 1e-13 ≤ |m|) :
    R (b * R (Real.sqrt (R (R (x * x) + R (m * m))))) ≠ 0 := by
  have sq : ∀ {y : ℝ}, 1e-13 ≤ |y| → 0.5e-26 ≤ R (y * y) := fun {y} hy => by
    have h1 : (1e-26 : ℝ) ≤ |y * y| := by
      rw [abs_mul]; exact le_trans (by norm_num) (mul_le_mul hy hy (by norm_num) (abs_nonneg _))
    have h2 := half_le R (by norm_num) h1
    rw [abs_of_nonneg (R.nonneg (mul_self_nonneg y))] at h2
    exact le_trans (by norm_num) h2
  have n1 := R.nonneg (mul_self_nonneg x)
  have n2 := R.nonneg (mul_self_nonneg m)
  have s1 : (0.5e-26 : ℝ) ≤ |R (x * x) + R (m * m)| := by
    rw [abs_of_nonneg (add_nonneg n1 n2)]
    rcases h with h | h <;> linarith [sq h]
  have s2 := half_le R (by norm_num) s1
  rw [abs_of_nonneg (R.nonneg (add_nonneg n1 n2))] at s2
  have s3 : (1e-14 : ℝ) ≤ |Real.sqrt (R (R (x * x) + R (m * m)))| := by
    rw [abs_of_nonneg (Real.sqrt_nonneg _)]
    exact Real.le_sqrt_of_sq_le (le_trans (by norm_num) s2)
  have s4 := half_le R (by norm_num) s3
  have s5 : (1e-27 : ℝ) ≤ |b * R (Real.sqrt (R (R (x * x) + R (m * m))))| := by
    rw [abs_mul]; exact le_trans (by norm_num) (mul_le_mul hb s4 (by norm_num) (abs_nonneg _))
  have s6 := half_le R (by norm_num) s5
  intro e
  rw [e, abs_zero] at s6
  norm_num at s6

end Sla.Fp
