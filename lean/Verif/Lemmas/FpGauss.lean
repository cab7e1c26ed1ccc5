import Verif.Model.FpGauss
import Verif.Lemmas.FpErr
import Mathlib.Analysis.SpecialFunctions.Log.Deriv
import Mathlib.Analysis.Complex.ExponentialBounds

/-
Relative error bounds for the Gaussian residuals in single precision.
-/
namespace Sla.Fp

/-- `a` is `x` with a relative error of at most `c`. -/
def Rl (a x c : ℝ) : Prop := |a - x| ≤ c * |x|

namespace Rl
variable {a b x y c d g : ℝ}

theorem self : Rl x x 0 := by simp [Rl]

theorem mono (h : Rl a x c) (hg : c ≤ g) : Rl a x g := le_trans h (mul_le_mul_of_nonneg_right hg (abs_nonneg _))

theorem abs_le (h : Rl a x c) : |a| ≤ (1 + c) * |x| := by
  have h1 : |a - x| ≤ c * |x| := h
  have := abs_add_le (a - x) x
  rw [sub_add_cancel] at this
  linarith

theorem rnd (R : Rounding binary32) (h : Rl a x c) (hx : x = 0 ∨ 1e-25 ≤ |x|) (hg : c + 6.01e-8 * (1 + c) ≤ g) (hc : 0 ≤ c) : Rl (R a) x g := by
  rcases hx with rfl | hx
  · have h1 : |a - 0| ≤ c * |0| := h
    have : a = 0 := by simpa using h1
    rw [this, R.zero]; simp [Rl]
  · have h1 : |a - x| ≤ c * |x| := h
    have h2 := R.single a
    have h3 := h.abs_le
    have h4 := abs_sub_le (R a) a x
    have h5 : (1e-40 : ℝ) ≤ 1e-15 * |x| := by norm_num at hx ⊢; linarith
    have h6 : (6e-8 : ℝ) * |a| ≤ 6e-8 * ((1 + c) * |x|) := mul_le_mul_of_nonneg_left h3 (by norm_num)
    have h7 := mul_le_mul_of_nonneg_right hg (abs_nonneg x)
    have h8 : 0 ≤ c * |x| := mul_nonneg hc (abs_nonneg _)
    have h9 := abs_nonneg x
    unfold Rl
    norm_num at *
    linarith

theorem mul (h1 : Rl a x c) (h2 : Rl b y d) (hc : 0 ≤ c) (hg : c + d + c * d ≤ g) : Rl (a * b) (x * y) g := by
  have e1 : |a - x| ≤ c * |x| := h1
  have e2 : |b - y| ≤ d * |y| := h2
  unfold Rl
  have e3 : a * b - x * y = (a - x) * y + x * (b - y) + (a - x) * (b - y) := by ring
  have q1 : |(a - x) * y| ≤ c * |x| * |y| := by rw [abs_mul]; exact mul_le_mul_of_nonneg_right e1 (abs_nonneg _)
  have q2 : |x * (b - y)| ≤ |x| * (d * |y|) := by rw [abs_mul]; exact mul_le_mul_of_nonneg_left e2 (abs_nonneg _)
  have q3 : |(a - x) * (b - y)| ≤ c * |x| * (d * |y|) := by
    rw [abs_mul]; exact mul_le_mul e1 e2 (abs_nonneg _) (mul_nonneg hc (abs_nonneg _))
  have q4 := mul_le_mul_of_nonneg_right hg (mul_nonneg (abs_nonneg x) (abs_nonneg y))
  have q5 := abs_add_le ((a - x) * y + x * (b - y)) ((a - x) * (b - y))
  have q6 := abs_add_le ((a - x) * y) (x * (b - y))
  rw [e3, abs_mul]
  nlinarith

theorem add (h1 : Rl a x c) (h2 : Rl b y c) (hx : 0 ≤ x) (hy : 0 ≤ y) : Rl (a + b) (x + y) c := by
  have e1 : |a - x| ≤ c * |x| := h1
  have e2 : |b - y| ≤ c * |y| := h2
  unfold Rl
  rw [add_sub_add_comm, abs_of_nonneg (add_nonneg hx hy)]
  rw [abs_of_nonneg hx] at e1
  rw [abs_of_nonneg hy] at e2
  have := abs_add_le (a - x) (b - y)
  linarith

theorem divr (h1 : Rl a x c) : Rl (a / b) (x / b) c := by
  have e1 : |a - x| ≤ c * |x| := h1
  unfold Rl
  rw [← sub_div, abs_div, abs_div, ← mul_div_assoc]
  exact div_le_div_of_nonneg_right e1 (abs_nonneg _)

theorem sqrt (h1 : Rl a x c) (hx : 0 ≤ x) (hc : c ≤ 1) : Rl (Real.sqrt a) (Real.sqrt x) c := by
  have e1 : |a - x| ≤ c * |x| := h1
  rw [abs_of_nonneg hx] at e1
  unfold Rl
  rcases hx.eq_or_lt with rfl | hx'
  · have : a = 0 := by simpa using e1
    simp [this]
  have ha : 0 ≤ a := by
    have := (_root_.abs_le.1 e1).1
    nlinarith
  have s0 := Real.sqrt_pos.2 hx'
  have s1 := Real.sqrt_nonneg a
  have q1 := Real.mul_self_sqrt ha
  have q2 := Real.mul_self_sqrt hx
  have q3 : |Real.sqrt a - Real.sqrt x| * (Real.sqrt a + Real.sqrt x) = |a - x| := by
    rw [← abs_of_nonneg (add_nonneg s1 s0.le), ← abs_mul]
    congr 1
    nlinarith
  rw [abs_of_pos s0]
  have q4 := mul_nonneg (abs_nonneg (Real.sqrt a - Real.sqrt x)) s1
  have q5 : |Real.sqrt a - Real.sqrt x| * Real.sqrt x ≤ c * Real.sqrt x * Real.sqrt x := by nlinarith
  exact le_of_mul_le_mul_right q5 s0

end Rl

/-- A single precision number not below a power of two is a multiple of the spacing there. -/
theorem rep_mult {x : ℝ} (h : binary32.Rep x) {k : ℤ} (hk : (2 : ℝ) ^ k ≤ |x|) : ∃ n : ℤ, x = n * (2 : ℝ) ^ (k - 23) := by
  obtain ⟨m, e, hm, -, rfl⟩ := h
  have h1 := lt_of_le_of_lt hk (rep_lt (F := binary32) (e := e) hm)
  have h2 : (2 : ℝ) ^ binary32.prec * 2 ^ e = 2 ^ (24 + e) := by
    rw [zpow_split]; congr 1
  rw [h2] at h1
  have h3 : k < 24 + e := (zpow_lt_zpow_iff_right₀ (by norm_num)).1 h1
  exact mul_zpow_lower m (by omega)

/-- The spacing of the numbers `2 u - 1`: they vanish or are at least 2^-24. -/
theorem dev_far {u : ℝ} (hu : binary32.Rep u) (h0 : 0 ≤ u) (hn : 2 * u - 1 ≠ 0) : 1 / 2 ^ 24 ≤ |2 * u - 1| := by
  by_cases h4 : u < 1 / 4
  · rw [abs_of_neg (by linarith)]; norm_num; linarith
  · push Not at h4
    obtain ⟨n, hn'⟩ := rep_mult hu (k := -2) (by rw [abs_of_nonneg h0]; norm_num at h4 ⊢; linarith)
    have e1 : 2 * u - 1 = ((n - 2 ^ 24 : ℤ) : ℝ) * (1 / 2 ^ 24) := by
      rw [hn']; push_cast; norm_num; ring
    have hz : n - 2 ^ 24 ≠ 0 := by
      intro hz; rw [hz] at e1; exact hn (by rw [e1]; simp)
    have h1 : (1 : ℝ) ≤ |((n - 2 ^ 24 : ℤ) : ℝ)| := by
      rw [← Int.cast_abs]; exact_mod_cast Int.one_le_abs hz
    rw [e1, abs_mul, abs_of_pos (by norm_num : (0 : ℝ) < 1 / 2 ^ 24)]
    exact le_mul_of_one_le_left (by norm_num) h1

/-- The last single precision number before one. -/
theorem rep_lt_one {r : ℝ} (h : binary32.Rep r) (h1 : r < 1) : r ≤ 1 - 1 / 2 ^ 24 := by
  by_cases h2 : r < 1 / 2
  · norm_num; linarith
  · push Not at h2
    obtain ⟨n, hn⟩ := rep_mult h (k := -1) (by rw [abs_of_nonneg (by linarith)]; norm_num at h2 ⊢; linarith)
    have e1 : r = (n : ℝ) * (1 / 2 ^ 24) := by rw [hn]; norm_num
    have h3 : (n : ℝ) < 2 ^ 24 := by rw [e1] at h1; norm_num at h1 ⊢; linarith
    have h4 : n ≤ 2 ^ 24 - 1 := by
      have : n < 2 ^ 24 := by exact_mod_cast h3
      omega
    have h5 : (n : ℝ) ≤ 2 ^ 24 - 1 := by exact_mod_cast h4
    rw [e1]; norm_num at h5 ⊢; linarith

theorem rep_double {u : ℝ} (hu : binary32.Rep u) : binary32.Rep (2 * u) := by
  obtain ⟨m, e, hm, he, rfl⟩ := hu
  refine ⟨m, e + 1, hm, by omega, ?_⟩
  rw [zpow_split]; norm_num; ring

/-- The deviation of a uniform number from the middle. -/
theorem dev_near (R : Rounding binary32) {u : ℝ} (hu : binary32.Rep u) (h0 : 0 ≤ u) : Rl (R (R (2 * u) - 1)) (2 * u - 1) 6.01e-8 := by
  rw [R.eq_self (rep_double hu)]
  refine Rl.self.rnd R ?_ (by norm_num) le_rfl
  by_cases h : 2 * u - 1 = 0
  · exact Or.inl h
  · right
    have := dev_far hu h0 h
    norm_num at this ⊢; linarith

/-- The squared radius. -/
theorem radius_near (R : Rounding binary32) {x y X Y : ℝ} (hx : Rl x X 6.01e-8) (hy : Rl y Y 6.01e-8)
    (hX : X = 0 ∨ 1 / 2 ^ 24 ≤ |X|) (hY : Y = 0 ∨ 1 / 2 ^ 24 ≤ |Y|) : Rl (R (R (x * x) + R (y * y))) (X * X + Y * Y) 2.5e-7 := by
  have sq : ∀ Z : ℝ, Z = 0 ∨ 1 / 2 ^ 24 ≤ |Z| → Z * Z = 0 ∨ 1e-15 ≤ |Z * Z| := by
    rintro Z (rfl | h)
    · left; simp
    · right
      rw [abs_mul]
      exact le_trans (by norm_num) (mul_le_mul h h (by norm_num) (abs_nonneg _))
  have wk : ∀ Z : ℝ, Z = 0 ∨ 1e-15 ≤ |Z| → Z = 0 ∨ 1e-25 ≤ |Z| := fun Z h => h.imp_right (le_trans (by norm_num))
  have m1 : Rl (x * x) (X * X) 1.203e-7 := hx.mul hx (by norm_num) (by norm_num)
  have m2 : Rl (y * y) (Y * Y) 1.203e-7 := hy.mul hy (by norm_num) (by norm_num)
  have n1 : Rl (R (x * x)) (X * X) 1.81e-7 := m1.rnd R (wk _ (sq X hX)) (by norm_num) (by norm_num)
  have n2 : Rl (R (y * y)) (Y * Y) 1.81e-7 := m2.rnd R (wk _ (sq Y hY)) (by norm_num) (by norm_num)
  refine (n1.add n2 (mul_self_nonneg _) (mul_self_nonneg _)).rnd R ?_ (by norm_num) (by norm_num)
  have p1 := mul_self_nonneg X
  have p2 := mul_self_nonneg Y
  rw [abs_of_nonneg (add_nonneg p1 p2)]
  rcases sq X hX with h | h <;> rcases sq Y hY with h' | h'
  · left; rw [h, h']; simp
  · right; rw [abs_of_nonneg p2] at h'; norm_num at h' ⊢; linarith
  · right; rw [abs_of_nonneg p1] at h; norm_num at h ⊢; linarith
  · right; rw [abs_of_nonneg p1] at h; norm_num at h ⊢; linarith

/-- The factor of the transformation; `hr` says the squared radius is not below 2^-49. -/
theorem factor_near (R : Rounding binary32) {lg : ℝ → ℝ} (hlg : ∀ v, 0 < v → v < 1 → |lg v - Real.log v| ≤ 1.2e-7 * |Real.log v|)
    {r : ℝ} (hrep : binary32.Rep r) (hr : 1 / 2 ^ 49 ≤ r) (h1 : r < 1) :
    Rl (R (Real.sqrt (R (R (-2 * lg r) / max r (R 1e-20))))) (Real.sqrt (-2 * Real.log r / r)) 3.1e-7 ∧
    1e-4 ≤ Real.sqrt (-2 * Real.log r / r) ∧ -2 * Real.log r ≤ 67.93 := by
  have r0 : 0 < r := lt_of_lt_of_le (by norm_num) hr
  have hl := rep_lt_one hrep h1
  have hlog : Real.log r ≤ -(1 / 2 ^ 24) := by
    have := Real.log_le_sub_one_of_pos r0
    linarith
  have hlow : -33.965 ≤ Real.log r := by
    have h2 := Real.log_le_log (by norm_num) hr
    rw [one_div, Real.log_inv, Real.log_pow] at h2
    have := Real.log_two_lt_d9
    norm_num at h2 this ⊢; linarith
  have hmax : max r (R 1e-20) = r := by
    refine max_eq_left ?_
    have h2 : binary32.Rep (1 / 2 ^ 49) := ⟨1, -49, by norm_num [binary32], by norm_num [binary32], by norm_num⟩
    exact (R.le_rep (by norm_num) h2).trans hr
  have ha : 1e-7 ≤ -2 * Real.log r := by norm_num at hlog ⊢; linarith
  have hq : 1e-7 ≤ -2 * Real.log r / r := by
    rw [le_div_iff₀ r0]; norm_num at ha ⊢; linarith
  have m1 : Rl (lg r) (Real.log r) 1.2e-7 := hlg r r0 h1
  have m2 : Rl (-2 * lg r) (-2 * Real.log r) 1.2e-7 := Rl.self.mul m1 le_rfl (by norm_num)
  have m3 : Rl (R (-2 * lg r)) (-2 * Real.log r) 1.802e-7 := m2.rnd R (Or.inr (by
    rw [abs_of_pos (lt_of_lt_of_le (by norm_num) ha)]; norm_num at ha ⊢; linarith)) (by norm_num) (by norm_num)
  have m4 : Rl (R (R (-2 * lg r) / r)) (-2 * Real.log r / r) 2.404e-7 := m3.divr.rnd R (Or.inr (by
    rw [abs_of_pos (lt_of_lt_of_le (by norm_num) hq)]; norm_num at hq ⊢; linarith)) (by norm_num) (by norm_num)
  have q0 : (0 : ℝ) ≤ -2 * Real.log r / r := le_trans (by norm_num) hq
  have s1 : 1e-4 ≤ Real.sqrt (-2 * Real.log r / r) := Real.le_sqrt_of_sq_le (le_trans (by norm_num) hq)
  rw [hmax]
  refine ⟨(m4.sqrt q0 (by norm_num)).rnd R (Or.inr ?_) (by norm_num) (by norm_num), s1, ?_⟩
  · rw [abs_of_pos (lt_of_lt_of_le (by norm_num) s1)]; norm_num at s1 ⊢; linarith
  · norm_num at hlow ⊢; linarith

set_option maxHeartbeats 1000000 in
/-- An accepted pair of uniform numbers. -/
theorem pair_near (R : Rounding binary32) {lg : ℝ → ℝ} (hlg : ∀ v, 0 < v → v < 1 → |lg v - Real.log v| ≤ 1.2e-7 * |Real.log v|)
    {u v : ℝ} (hu : binary32.Rep u) (hv : binary32.Rep v) (u0 : 0 ≤ u) (v0 : 0 ≤ v) {x y r X Y : ℝ} (hX : X = 2 * u - 1) (hY : Y = 2 * v - 1)
    (hx : x = R (R (2 * u) - 1)) (hy : y = R (R (2 * v) - 1)) (hr : r = R (R (x * x) + R (y * y))) (h1 : r < 1) :
    (r = 0 → X = 0 ∧ Y = 0) ∧ (r ≠ 0 → 0 < r ∧ |r - (X * X + Y * Y)| ≤ 2.5e-7 * (X * X + Y * Y) ∧
      Rl (R (y * R (Real.sqrt (R (R (-2 * lg r) / max r (R 1e-20)))))) (Y * Real.sqrt (-2 * Real.log r / r)) 4.4e-7 ∧
      Rl (R (x * R (Real.sqrt (R (R (-2 * lg r) / max r (R 1e-20)))))) (X * Real.sqrt (-2 * Real.log r / r)) 4.4e-7 ∧
      |Y * Real.sqrt (-2 * Real.log r / r)| ≤ 8.245 ∧ |X * Real.sqrt (-2 * Real.log r / r)| ≤ 8.245) := by
  have fX : X = 0 ∨ 1 / 2 ^ 24 ≤ |X| := by
    by_cases h : X = 0
    · exact Or.inl h
    · right; rw [hX] at h ⊢; exact dev_far hu u0 h
  have fY : Y = 0 ∨ 1 / 2 ^ 24 ≤ |Y| := by
    by_cases h : Y = 0
    · exact Or.inl h
    · right; rw [hY] at h ⊢; exact dev_far hv v0 h
  have nx : Rl x X 6.01e-8 := by rw [hx, hX]; exact dev_near R hu u0
  have ny : Rl y Y 6.01e-8 := by rw [hy, hY]; exact dev_near R hv v0
  have nr : Rl r (X * X + Y * Y) 2.5e-7 := by rw [hr]; exact radius_near R nx ny fX fY
  have p1 := mul_self_nonneg X
  have p2 := mul_self_nonneg Y
  have nr' : |r - (X * X + Y * Y)| ≤ 2.5e-7 * (X * X + Y * Y) := by
    have := nr; unfold Rl at this; rwa [abs_of_nonneg (add_nonneg p1 p2)] at this
  have hab := abs_le.1 nr'
  constructor
  · intro h
    have h2 : X * X + Y * Y ≤ 0 := by
      have := hab.1; rw [h] at this; norm_num at this; linarith
    exact ⟨mul_self_eq_zero.1 (by linarith), mul_self_eq_zero.1 (by linarith)⟩
  · intro h
    have hrep : binary32.Rep r := by rw [hr]; exact R.rep _
    have hρ : 1 / 2 ^ 48 ≤ X * X + Y * Y := by
      have sq : ∀ Z : ℝ, 1 / 2 ^ 24 ≤ |Z| → 1 / 2 ^ 48 ≤ Z * Z := fun Z hZ => by
        rw [← abs_mul_abs_self]
        exact le_trans (by norm_num) (mul_le_mul hZ hZ (by norm_num) (abs_nonneg _))
      rcases fX with h2 | h2
      · rcases fY with h3 | h3
        · exfalso; apply h
          rw [h2, h3] at nr'
          simpa using nr'
        · have := sq Y h3; linarith
      · have := sq X h2; linarith
    have hr49 : 1 / 2 ^ 49 ≤ r := by
      have := hab.1
      norm_num at this hρ ⊢; linarith
    have r0 : 0 < r := lt_of_lt_of_le (by norm_num) hr49
    obtain ⟨nw, w1, w2⟩ := factor_near R hlg hrep hr49 h1
    have hWW : Real.sqrt (-2 * Real.log r / r) * Real.sqrt (-2 * Real.log r / r) = -2 * Real.log r / r := by
      refine Real.mul_self_sqrt (div_nonneg ?_ r0.le)
      have := Real.log_nonpos r0.le h1.le
      linarith
    have l0 : 0 ≤ -2 * Real.log r := by
      have := Real.log_nonpos r0.le h1.le
      linarith
    generalize R (Real.sqrt (R (R (-2 * lg r) / max r (R 1e-20)))) = w at *
    generalize Real.sqrt (-2 * Real.log r / r) = W at *
    have W0 : 0 < W := lt_of_lt_of_le (by norm_num) w1
    have big : ∀ Z : ℝ, Z = 0 ∨ 1 / 2 ^ 24 ≤ |Z| → Z * W = 0 ∨ 1e-25 ≤ |Z * W| := by
      rintro Z (rfl | hZ)
      · left; simp
      · right
        rw [abs_mul, abs_of_pos W0]
        exact le_trans (by norm_num) (mul_le_mul hZ w1 (by norm_num) (abs_nonneg _))
    have bd : ∀ Z : ℝ, Z * Z ≤ X * X + Y * Y → |Z * W| ≤ 8.245 := by
      intro Z hZ
      refine abs_le_of_sq_le_sq ?_ (by norm_num)
      have e1 : (Z * W) ^ 2 = Z * Z / r * (-2 * Real.log r) := by
        rw [show (Z * W) ^ 2 = Z * Z * (W * W) by ring, hWW]; field_simp
      have e2 : Z * Z / r ≤ 1.000001 := by
        rw [div_le_iff₀ r0]
        have := hab.1
        norm_num at this ⊢; linarith
      rw [e1]
      refine (mul_le_mul e2 w2 l0 (by norm_num)).trans (by norm_num)
    refine ⟨r0, nr', ?_, ?_, bd Y (by linarith), bd X (by linarith)⟩
    · exact (ny.mul (g := 3.702e-7) nw (by norm_num) (by norm_num)).rnd R (big Y fY) (by norm_num) (by norm_num)
    · exact (nx.mul (g := 3.702e-7) nw (by norm_num) (by norm_num)).rnd R (big X fX) (by norm_num) (by norm_num)

/-- What the rejection loop returns, and what it skips. -/
theorem gresidLoop_spec (R : ℝ → ℝ) (u : ℕ → ℝ) : ∀ (fuel pos : ℕ) {x y r : ℝ} {q : ℕ}, gresidLoop R u fuel pos = some (x, y, r, q) →
    ∃ k, q = pos + 2 * k + 2 ∧ x = R (R (2 * u (pos + 2 * k)) - 1) ∧ y = R (R (2 * u (pos + 2 * k + 1)) - 1) ∧
      r = R (R (x * x) + R (y * y)) ∧ r < 1 ∧ ∀ j < k, 1 ≤ R (R (R (R (2 * u (pos + 2 * j)) - 1) * R (R (2 * u (pos + 2 * j)) - 1)) +
        R (R (R (2 * u (pos + 2 * j + 1)) - 1) * R (R (2 * u (pos + 2 * j + 1)) - 1))) := by
  intro fuel
  induction fuel with
  | zero => intro pos x y r q h; simp [gresidLoop] at h
  | succ fuel ih =>
    intro pos x y r q h
    simp only [gresidLoop] at h
    split_ifs at h with hr
    · obtain ⟨k, h1, h2, h3, h4, h5, h6⟩ := ih (pos + 2) h
      refine ⟨k + 1, by omega, ?_, ?_, h4, h5, ?_⟩
      · rw [h2, show pos + 2 + 2 * k = pos + 2 * (k + 1) by ring]
      · rw [h3, show pos + 2 + 2 * k = pos + 2 * (k + 1) by ring]
      · intro j hj
        rcases j with _ | j
        · exact hr
        · have := h6 j (by omega)
          rwa [show pos + 2 + 2 * j = pos + 2 * (j + 1) by ring] at this
    · simp only [Option.some.injEq, Prod.mk.injEq] at h
      obtain ⟨rfl, rfl, rfl, rfl⟩ := h
      exact ⟨0, rfl, rfl, rfl, rfl, lt_of_not_ge hr, fun j hj => absurd hj (Nat.not_lt_zero j)⟩

/-- Scaling by the standard deviation. -/
theorem scale_near (R : Rounding binary32) {g z d : ℝ} (h : Rl g z 4.4e-7) : |R (g * d) - z * d| ≤ 5.1e-7 * |z * d| + 1e-40 := by
  have h1 := R.single (g * d)
  have h2 : Rl (g * d) (z * d) 4.4e-7 := h.mul (d := 0) Rl.self (by norm_num) (by norm_num)
  have h3 := h2.abs_le
  have h4 : |g * d - z * d| ≤ 4.4e-7 * |z * d| := h2
  have h5 := abs_sub_le (R (g * d)) (g * d) (z * d)
  have h6 := abs_nonneg (z * d)
  norm_num at *
  linarith

end Sla.Fp
