import Verif.Model.Refraction
import Verif.Props.Refraction
import Mathlib.Analysis.SpecialFunctions.Trigonometric.ArctanDeriv
import Mathlib.Analysis.Calculus.Deriv.MeanValue

/-
C87: accuracy of the inversion of the refraction formula by `refz` and `refv`.
-/
noncomputable section
namespace Sla.Props
open Real Sla

/-- The unrefracted zenith distance for the observed `z`: the textbook formula the two routines invert. -/
def unrefracted (A B z : ℝ) : ℝ := z + A * tan z + B * tan z ^ 3

/-- Refraction constants of ordinary air: A ≥ 0 and B between -A/410 and 0. -/
def Ordinary (A B : ℝ) : Prop := 0 ≤ A ∧ -A / 410 ≤ B ∧ B ≤ 0

private def f1 (A B z : ℝ) : ℝ := 1 + (A + 3 * B * tan z ^ 2) * (1 + tan z ^ 2)
private def f2 (A B z : ℝ) : ℝ := 2 * tan z * (1 + tan z ^ 2) * (A + 3 * B + 6 * B * tan z ^ 2)

private theorem tan_deriv {z : ℝ} (hz : cos z ≠ 0) : HasDerivAt tan (1 + tan z ^ 2) z := by
  refine (hasDerivAt_tan hz).congr_deriv ?_
  rw [tan_eq_sin_div_cos]
  have := sin_sq_add_cos_sq z
  field_simp
  linarith

private theorem f_deriv (A B : ℝ) {z : ℝ} (hz : cos z ≠ 0) : HasDerivAt (unrefracted A B) (f1 A B z) z := by
  have ht := tan_deriv hz
  have := ((hasDerivAt_id z).add (ht.const_mul A)).add ((ht.pow 3).const_mul B)
  refine this.congr_deriv ?_
  simp only [f1]
  push_cast
  ring

private theorem f1_deriv (A B : ℝ) {z : ℝ} (hz : cos z ≠ 0) : HasDerivAt (f1 A B) (f2 A B z) z := by
  have ht := tan_deriv hz
  have := ((((ht.pow 2).const_mul (3 * B)).const_add A).mul ((ht.pow 2).const_add 1)).const_add 1
  refine this.congr_deriv ?_
  simp only [f2, Pi.pow_apply]
  push_cast
  ring

/-- Second order Taylor estimate to the left. -/
private theorem taylor {f f1 f2 : ℝ → ℝ} {x y k : ℝ} (hyx : y ≤ x) (h1 : ∀ u ∈ Set.Icc y x, HasDerivAt f (f1 u) u)
    (h2 : ∀ u ∈ Set.Icc y x, HasDerivAt f1 (f2 u) u) (hk : ∀ u ∈ Set.Icc y x, 2 * k ≤ f2 u) :
    f x + f1 x * (y - x) + k * (y - x) ^ 2 ≤ f y := by
  -- the slope
  have slope : ∀ u ∈ Set.Icc y x, 2 * k * (x - u) ≤ f1 x - f1 u := by
    intro u hu
    have hm : MonotoneOn (fun v => f1 v - 2 * k * v) (Set.Icc y x) := by
      refine monotoneOn_of_deriv_nonneg (convex_Icc y x) ?_ ?_ ?_
      · exact fun v hv => (((h2 v hv).sub ((hasDerivAt_id v).const_mul (2 * k))).continuousAt).continuousWithinAt
      · intro v hv
        rw [interior_Icc] at hv
        exact ((h2 v (Set.Ioo_subset_Icc_self hv)).sub
          ((hasDerivAt_id v).const_mul (2 * k))).differentiableAt.differentiableWithinAt
      · intro v hv
        rw [interior_Icc] at hv
        have hv' := Set.Ioo_subset_Icc_self hv
        rw [show deriv (fun v => f1 v - 2 * k * v) v = f2 v - 2 * k * 1 from
          ((h2 v hv').sub ((hasDerivAt_id v).const_mul (2 * k))).deriv]
        linarith [hk v hv']
    have := hm hu (Set.right_mem_Icc.2 hyx) hu.2
    simp only at this
    linarith
  have hm : AntitoneOn (fun u => f u - f1 x * (u - x) - k * (u - x) ^ 2) (Set.Icc y x) := by
    have hd : ∀ u ∈ Set.Icc y x, HasDerivAt (fun u => f u - f1 x * (u - x) - k * (u - x) ^ 2)
        (f1 u - f1 x - 2 * k * (u - x)) u := by
      intro u hu
      have e : HasDerivAt (fun u : ℝ => u - x) 1 u := (hasDerivAt_id u).sub_const x
      refine (((h1 u hu).sub (e.const_mul (f1 x))).sub ((e.pow 2).const_mul k)).congr_deriv ?_
      push_cast
      ring
    refine antitoneOn_of_deriv_nonpos (convex_Icc y x) ?_ ?_ ?_
    · exact fun v hv => (hd v hv).continuousAt.continuousWithinAt
    · intro v hv
      rw [interior_Icc] at hv
      exact (hd v (Set.Ioo_subset_Icc_self hv)).differentiableAt.differentiableWithinAt
    · intro v hv
      rw [interior_Icc] at hv
      have hv' := Set.Ioo_subset_Icc_self hv
      rw [(hd v hv').deriv]
      have := slope v hv'
      linarith
  have := hm (Set.left_mem_Icc.2 hyx) (Set.right_mem_Icc.2 hyx) hyx
  simp only [sub_self, mul_zero, ne_eq, OfNat.ofNat_ne_zero, not_false_eq_true, zero_pow] at this
  linarith

private theorem taylor' {f f1 f2 : ℝ → ℝ} {x y k : ℝ} (hyx : y ≤ x) (h1 : ∀ u ∈ Set.Icc y x, HasDerivAt f (f1 u) u)
    (h2 : ∀ u ∈ Set.Icc y x, HasDerivAt f1 (f2 u) u) (hk : ∀ u ∈ Set.Icc y x, f2 u ≤ 2 * k) :
    f y ≤ f x + f1 x * (y - x) + k * (y - x) ^ 2 := by
  have := taylor (f := fun u => -f u) (f1 := fun u => -f1 u) (f2 := fun u => -f2 u) (k := -k) hyx
    (fun u hu => (h1 u hu).neg) (fun u hu => (h2 u hu).neg) (fun u hu => by have := hk u hu; linarith)
  linarith

/-- The step of the two routines in terms of the tangent. -/
private theorem step_eq (A B zu : ℝ) {z : ℝ} (hz : cos z ≠ 0) :
    refzStep A B zu z = (unrefracted A B z - zu) / f1 A B z := by
  simp only [refzStep, unrefracted, f1]
  rw [← tan_eq_sin_div_cos]
  have : 1 + tan z ^ 2 = 1 / (cos z * cos z) := by
    rw [tan_eq_sin_div_cos]
    have := sin_sq_add_cos_sq z
    field_simp
    linarith
  rw [this]
  congr 1
  · ring
  · ring

/-- Up to 83 degrees the square of the tangent is below 66.6. -/
private theorem tan_83 {z : ℝ} (h0 : 0 ≤ z) (h1 : z ≤ 83 * (π / 180)) :
    0 < cos z ∧ 0 ≤ tan z ∧ tan z ^ 2 ≤ 66.6 ∧ z < π / 2 := by
  have hpi := pi_gt_d4
  have hpi' := pi_lt_d4
  have hz : z < π / 2 := by norm_num at *; linarith
  have hc : 0.1217 ≤ cos z := by
    have e : cos (83 * (π / 180)) = sin (7 * (π / 180)) := by
      rw [← cos_pi_div_two_sub]; congr 1; ring
    have h2 : cos (83 * (π / 180)) ≤ cos z := cos_le_cos_of_nonneg_of_le_pi h0 (by linarith) h1
    have h3 := sin_gt_sub_cube (x := 7 * (π / 180)) (by positivity)
    have h4 : 0.1221 ≤ 7 * (π / 180) := by norm_num at *; linarith
    have h5 : 7 * (π / 180) ≤ 0.1222 := by norm_num at *; linarith
    generalize 7 * (π / 180) = x at *
    rw [e] at h2
    norm_num at *
    nlinarith [mul_nonneg (by linarith : 0 ≤ x) (by linarith : 0 ≤ x), pow_le_pow_left₀ (by linarith : 0 ≤ x) h5 3]
  have hc0 : 0 < cos z := by norm_num at hc; linarith
  refine ⟨hc0, tan_nonneg_of_nonneg_of_le_pi_div_two h0 hz.le, ?_, hz⟩
  have e : tan z ^ 2 = 1 / cos z ^ 2 - 1 := by
    rw [tan_eq_sin_div_cos]
    have := sin_sq_add_cos_sq z
    field_simp
    linarith
  have : 1 / cos z ^ 2 ≤ 67.6 := by
    rw [div_le_iff₀ (by positivity)]
    norm_num at hc ⊢
    nlinarith
  rw [e]
  norm_num at *
  linarith

private theorem tan_mono {y x : ℝ} (h0 : 0 ≤ y) (hyx : y ≤ x) (hx : x < π / 2) : tan y ≤ tan x := by
  rcases hyx.eq_or_lt with h | h
  · rw [h]
  · exact (tan_lt_tan_of_nonneg_of_lt_pi_div_two h0 hx h).le

/-- Bounds of the two derivatives. -/
private theorem bounds {A B : ℝ} (h : Ordinary A B) {z : ℝ} (h0 : 0 ≤ z) (h1 : z ≤ 83 * (π / 180)) :
    1 ≤ f1 A B z ∧ f1 A B z ≤ 1 + A * (1 + tan z ^ 2) ∧ 0 ≤ f2 A B z ∧
    f2 A B z ≤ 2 * (A * tan z * (1 + tan z ^ 2)) := by
  obtain ⟨hA, hB1, hB2⟩ := h
  obtain ⟨hc, ht, ht2, -⟩ := tan_83 h0 h1
  simp only [f1, f2]
  generalize tan z = t at *
  have hs : 0 ≤ t ^ 2 := sq_nonneg t
  norm_num at ht2
  have hBt : 0 ≤ -B * (333 / 5 - t ^ 2) := mul_nonneg (by linarith) (by linarith)
  have hBt' : 0 ≤ -B * t ^ 2 := mul_nonneg (by linarith) hs
  have a1 : 0 ≤ A + 3 * B * t ^ 2 := by linarith
  have a2 : 0 ≤ A + 3 * B + 6 * B * t ^ 2 := by linarith
  have p1 : 0 ≤ 1 + t ^ 2 := by linarith
  have p2 : 0 ≤ 2 * t * (1 + t ^ 2) := by positivity
  refine ⟨by nlinarith [mul_nonneg a1 p1], ?_, mul_nonneg p2 a2, ?_⟩
  · have : (A + 3 * B * t ^ 2) * (1 + t ^ 2) ≤ A * (1 + t ^ 2) := mul_le_mul_of_nonneg_right (by linarith) p1
    linarith
  · have : 2 * t * (1 + t ^ 2) * (A + 3 * B + 6 * B * t ^ 2) ≤ 2 * t * (1 + t ^ 2) * A :=
      mul_le_mul_of_nonneg_left (by linarith) p2
    linarith

/-- One step of Newton's method from the right of the root. -/
private theorem newton {A B : ℝ} (h : Ordinary A B) {x zu : ℝ} (h0 : 0 ≤ x) (h1 : x ≤ 83 * (π / 180)) (hzu : 0 ≤ zu)
    (hr : zu ≤ unrefracted A B x) :
    let y := x - (unrefracted A B x - zu) / f1 A B x
    0 ≤ y ∧ y ≤ x ∧ zu ≤ unrefracted A B y ∧
    unrefracted A B y - zu ≤ A * tan x * (1 + tan x ^ 2) * (unrefracted A B x - zu) ^ 2 := by
  intro y
  have hcos : ∀ u, 0 ≤ u → u ≤ x → cos u ≠ 0 := fun u hu hux => (tan_83 hu (hux.trans h1)).1.ne'
  obtain ⟨b1, -, -, -⟩ := bounds h h0 h1
  have hp : 0 < f1 A B x := by linarith
  have hy : y ≤ x := by
    have : 0 ≤ (unrefracted A B x - zu) / f1 A B x := div_nonneg (by linarith) hp.le
    linarith
  have hy0 : 0 ≤ y := by
    have := taylor (f := unrefracted A B) (f1 := f1 A B) (f2 := f2 A B) (k := 0) h0
      (fun u hu => f_deriv A B (hcos u hu.1 hu.2)) (fun u hu => f1_deriv A B (hcos u hu.1 hu.2))
      (fun u hu => by rw [mul_zero]; exact (bounds h hu.1 (hu.2.trans h1)).2.2.1)
    have e0 : unrefracted A B 0 = 0 := by simp [unrefracted]
    rw [e0] at this
    have : (unrefracted A B x - zu) / f1 A B x ≤ x := by
      rw [div_le_iff₀ hp]
      linarith
    linarith
  have hd1 : ∀ u ∈ Set.Icc y x, HasDerivAt (unrefracted A B) (f1 A B u) u :=
    fun u hu => f_deriv A B (hcos u (hy0.trans hu.1) hu.2)
  have hd2 : ∀ u ∈ Set.Icc y x, HasDerivAt (f1 A B) (f2 A B u) u :=
    fun u hu => f1_deriv A B (hcos u (hy0.trans hu.1) hu.2)
  have es : f1 A B x * (y - x) = -(unrefracted A B x - zu) := by
    simp only [y]
    field_simp
    ring
  refine ⟨hy0, hy, ?_, ?_⟩
  · have := taylor (k := 0) hy hd1 hd2
      (fun u hu => by rw [mul_zero]; exact (bounds h (hy0.trans hu.1) (hu.2.trans h1)).2.2.1)
    rw [es] at this
    linarith
  · obtain ⟨-, ht, -, hx⟩ := tan_83 h0 h1
    have := taylor' (k := A * tan x * (1 + tan x ^ 2)) hy hd1 hd2 (fun u hu => by
      have hu0 := hy0.trans hu.1
      refine (bounds h hu0 (hu.2.trans h1)).2.2.2.trans ?_
      have t1 : tan u ≤ tan x := tan_mono hu0 hu.2 hx
      have t0 : 0 ≤ tan u := (tan_83 hu0 (hu.2.trans h1)).2.1
      have hA := h.1
      gcongr)
    rw [es] at this
    have hs : (y - x) ^ 2 ≤ (unrefracted A B x - zu) ^ 2 := by
      have h3 : x - y ≤ unrefracted A B x - zu := by
        have : x - y = (unrefracted A B x - zu) / f1 A B x := by simp only [y]; ring
        rw [this]
        exact div_le_self (by linarith) b1
      nlinarith
    have hK : 0 ≤ A * tan x * (1 + tan x ^ 2) := mul_nonneg (mul_nonneg h.1 ht) (by positivity)
    have := mul_le_mul_of_nonneg_left hs hK
    linarith

/-- The slope is at least one. -/
private theorem slope_one {A B : ℝ} (h : Ordinary A B) {y x : ℝ} (h0 : 0 ≤ y) (hyx : y ≤ x) (h1 : x ≤ 83 * (π / 180)) :
    x - y ≤ unrefracted A B x - unrefracted A B y := by
  have hcos : ∀ u ∈ Set.Icc y x, cos u ≠ 0 := fun u hu => (tan_83 (h0.trans hu.1) (hu.2.trans h1)).1.ne'
  have hd : ∀ u ∈ Set.Icc y x, HasDerivAt (fun u => unrefracted A B u - u) (f1 A B u - 1) u :=
    fun u hu => (f_deriv A B (hcos u hu)).sub (hasDerivAt_id u)
  have hm : MonotoneOn (fun u => unrefracted A B u - u) (Set.Icc y x) := by
    refine monotoneOn_of_deriv_nonneg (convex_Icc y x) ?_ ?_ ?_
    · exact fun v hv => (hd v hv).continuousAt.continuousWithinAt
    · intro v hv
      rw [interior_Icc] at hv
      exact (hd v (Set.Ioo_subset_Icc_self hv)).differentiableAt.differentiableWithinAt
    · intro v hv
      rw [interior_Icc] at hv
      have hv' := Set.Ioo_subset_Icc_self hv
      rw [(hd v hv').deriv]
      linarith [(bounds h (h0.trans hv'.1) (hv'.2.trans h1)).1]
  have := hm (Set.left_mem_Icc.2 hyx) (Set.right_mem_Icc.2 hyx) hyx
  simp only at this
  linarith

/-- The refraction itself, before the first step. -/
private theorem start {A B : ℝ} (h : Ordinary A B) {zu : ℝ} (h0 : 0 ≤ zu) (h1 : zu ≤ 83 * (π / 180)) :
    zu ≤ unrefracted A B zu ∧ unrefracted A B zu - zu ≤ A * tan zu := by
  obtain ⟨hA, hB1, hB2⟩ := h
  obtain ⟨-, ht, ht2, -⟩ := tan_83 h0 h1
  simp only [unrefracted]
  generalize tan zu = t at *
  norm_num at ht2
  have hBt : 0 ≤ -B * (333 / 5 - t ^ 2) := mul_nonneg (by linarith) (by linarith)
  have hBt' : 0 ≤ -B * t ^ 2 := mul_nonneg (by linarith) (sq_nonneg t)
  have e : A * t + B * t ^ 3 = t * (A + B * t ^ 2) := by ring
  have e' : -B * t ^ 2 * t = -(B * t ^ 3) := by ring
  constructor
  · have := mul_nonneg ht (by linarith : 0 ≤ A + B * t ^ 2)
    linarith
  · have := mul_nonneg hBt' ht
    linarith

/-- The two steps of `refz` up to 83 degrees. -/
private theorem refz_steps {A B : ℝ} (h : Ordinary A B) {zu : ℝ} (h0 : 0 ≤ zu) (h1 : zu ≤ 83 * (π / 180)) :
    let z1 := zu - (unrefracted A B zu - zu) / f1 A B zu
    0 ≤ z1 ∧ z1 ≤ zu ∧ refz zu A B = z1 - (unrefracted A B z1 - zu) / f1 A B z1 := by
  intro z1
  obtain ⟨n1, n2, -, -⟩ := newton h h0 h1 h0 (start h h0 h1).1
  refine ⟨n1, n2, ?_⟩
  have e83 : 83 / refzR2D = 83 * (π / 180) := by simp only [refzR2D]; field_simp
  have hmin : min zu (83 * (π / 180)) = zu := min_eq_left h1
  simp only [refz, e83, hmin, gt_iff_lt, lt_irrefl, if_false]
  rw [step_eq A B zu (tan_83 h0 h1).1.ne', step_eq A B zu (tan_83 n1 (n2.trans h1)).1.ne']
  simp only [z1]
  ring

/-- `refz` inverts the formula A tan z + B tan^3 z. For zenith distances up to 83 degrees and constants of ordinary air
    the result lies between 0 and the unrefracted zenith distance; put back into the formula it gives the unrefracted
    zenith distance to within K^3 (A tan zu)^4 with K = A tan zu (1 + tan^2 zu), never falling below it. -/
theorem C87_refz (A B zu : ℝ) (h : Ordinary A B) (h0 : 0 ≤ zu) (h1 : zu ≤ 83 * (π / 180)) :
    0 ≤ refz zu A B ∧ refz zu A B ≤ zu ∧ zu ≤ unrefracted A B (refz zu A B) ∧
    unrefracted A B (refz zu A B) - zu ≤ (A * tan zu * (1 + tan zu ^ 2)) ^ 3 * (A * tan zu) ^ 4 := by
  obtain ⟨s1, s2⟩ := start h h0 h1
  obtain ⟨-, -, e⟩ := refz_steps h h0 h1
  obtain ⟨n1, n2, n3, n4⟩ := newton h h0 h1 h0 s1
  obtain ⟨-, ht, -, hx⟩ := tan_83 h0 h1
  rw [e]
  generalize zu - (unrefracted A B zu - zu) / f1 A B zu = z1 at *
  obtain ⟨m1, m2, m3, m4⟩ := newton h n1 (n2.trans h1) h0 n3
  generalize z1 - (unrefracted A B z1 - zu) / f1 A B z1 = z2 at *
  refine ⟨m1, m2.trans n2, m3, m4.trans ?_⟩
  have t1 : tan z1 ≤ tan zu := tan_mono n1 n2 hx
  have t0 : 0 ≤ tan z1 := (tan_83 n1 (n2.trans h1)).2.1
  have hA := h.1
  have k1 : A * tan z1 * (1 + tan z1 ^ 2) ≤ A * tan zu * (1 + tan zu ^ 2) := by gcongr
  have r1 : unrefracted A B z1 - zu ≤ A * tan zu * (1 + tan zu ^ 2) * (A * tan zu) ^ 2 := by
    refine n4.trans (mul_le_mul_of_nonneg_left ?_ (by positivity))
    exact pow_le_pow_left₀ (by linarith) s2 2
  calc A * tan z1 * (1 + tan z1 ^ 2) * (unrefracted A B z1 - zu) ^ 2
      ≤ A * tan zu * (1 + tan zu ^ 2) * (A * tan zu * (1 + tan zu ^ 2) * (A * tan zu) ^ 2) ^ 2 :=
        mul_le_mul k1 (pow_le_pow_left₀ (by linarith) r1 2) (sq_nonneg _) (by positivity)
    _ = _ := by ring

/-- The round trip: refraction removed from an observed zenith distance by the formula and put back by `refz`. -/
theorem C87_round_trip (A B z : ℝ) (h : Ordinary A B) (h0 : 0 ≤ z) (h1 : z ≤ 83 * (π / 180))
    (hu : unrefracted A B z ≤ 83 * (π / 180)) :
    z ≤ refz (unrefracted A B z) A B ∧
    refz (unrefracted A B z) A B - z ≤ (A * tan (unrefracted A B z) * (1 + tan (unrefracted A B z) ^ 2)) ^ 3 *
      (A * tan (unrefracted A B z)) ^ 4 := by
  have hzu := (start h h0 h1).1
  obtain ⟨a1, a2, a3, a4⟩ := C87_refz A B _ h (h0.trans hzu) hu
  have le : ∀ x, 0 ≤ x → x ≤ 83 * (π / 180) → unrefracted A B z ≤ unrefracted A B x → z ≤ x := by
    intro x hx0 hx1 hx
    by_contra hlt
    have := slope_one h hx0 (not_le.1 hlt).le h1
    linarith [not_le.1 hlt]
  have hz := le _ a1 (a2.trans hu) a3
  exact ⟨hz, (slope_one h h0 hz (a2.trans hu)).trans a4⟩

example : Ordinary 2.9e-4 (-3.2e-7) ∧ (0 : ℝ) ≤ π / 6 ∧ π / 6 ≤ 83 * (π / 180) := by
  refine ⟨?_, by positivity, by linarith [pi_pos]⟩
  unfold Ordinary
  norm_num

/-- In figures: for A up to 4e-4 (82 arcseconds) and 83 degrees the error is below 1.3e-12 radians. -/
theorem C87_refz_accuracy (A B zu : ℝ) (h : Ordinary A B) (hA : A ≤ 4e-4) (h0 : 0 ≤ zu) (h1 : zu ≤ 83 * (π / 180)) :
    zu ≤ unrefracted A B (refz zu A B) ∧ unrefracted A B (refz zu A B) - zu ≤ 1.3e-12 := by
  obtain ⟨-, -, a, b⟩ := C87_refz A B zu h h0 h1
  refine ⟨a, b.trans ?_⟩
  obtain ⟨-, ht, ht2, -⟩ := tan_83 h0 h1
  have ht' : tan zu ≤ 8.161 := by norm_num at *; nlinarith
  have hA0 := h.1
  calc (A * tan zu * (1 + tan zu ^ 2)) ^ 3 * (A * tan zu) ^ 4
      ≤ (4e-4 * 8.161 * (1 + 66.6)) ^ 3 * (4e-4 * 8.161) ^ 4 := by gcongr
    _ ≤ 1.3e-12 := by norm_num

/-- The direction at zenith distance `z` and azimuth angle `a`. -/
def skyDir (z a : ℝ) : Vec := ![sin z * cos a, sin z * sin a, cos z]

private theorem refv_eq {A B zu : ℝ} (a : ℝ) (h0 : 0 ≤ zu) (h1 : zu ≤ 83 * (π / 180)) :
    let d := (unrefracted A B zu - zu) / f1 A B zu
    refv (skyDir zu a) A B = ((1 - d ^ 2 / 2) * sqrt (1 + d ^ 2)) • skyDir (zu - arctan d) a := by
  intro d
  obtain ⟨hc, ht, ht2, hz⟩ := tan_83 h0 h1
  have hs : 0 ≤ sin zu := sin_nonneg_of_nonneg_of_le_pi h0 (by linarith [pi_pos])
  have hsc := sin_sq_add_cos_sq zu
  have hc5 : 0.05 ≤ cos zu := by
    by_contra hlt
    rw [not_le] at hlt
    have e : sin zu ^ 2 = tan zu ^ 2 * cos zu ^ 2 := by
      rw [tan_eq_sin_div_cos]; field_simp
    norm_num at hlt ht2
    nlinarith [mul_le_mul_of_nonneg_right ht2 (sq_nonneg (cos zu))]
  have hw : (sin zu * cos a) * (sin zu * cos a) + (sin zu * sin a) * (sin zu * sin a) = sin zu ^ 2 := by
    have := sin_sq_add_cos_sq a
    linear_combination sin zu ^ 2 * this
  have hmax : max (cos zu) 0.05 = cos zu := max_eq_left hc5
  have hq : 0 < sqrt (1 + d ^ 2) := sqrt_pos.2 (by positivity)
  have e1 : (1 + (A + 3 * (B * sin zu ^ 2 / (cos zu * cos zu))) * (cos zu * cos zu + sin zu ^ 2) / (cos zu * cos zu)) =
      f1 A B zu := by
    simp only [f1, tan_eq_sin_div_cos]
    field_simp
  have ed : (A + B * sin zu ^ 2 / (cos zu * cos zu)) / f1 A B zu * sin zu / cos zu = d := by
    have : unrefracted A B zu - zu = (A + B * sin zu ^ 2 / (cos zu * cos zu)) * (sin zu / cos zu) := by
      simp only [unrefracted, tan_eq_sin_div_cos]
      field_simp
      ring
    simp only [d]
    rw [this]
    ring
  have ewt : sin zu * ((A + B * sin zu ^ 2 / (cos zu * cos zu)) / f1 A B zu) = d * cos zu := by
    rw [← ed]
    field_simp
  have es : sqrt (1 + d ^ 2) * sin (zu - arctan d) = sin zu - cos zu * d := by
    rw [sin_sub, sin_arctan, cos_arctan]
    field_simp
  have ec : sqrt (1 + d ^ 2) * cos (zu - arctan d) = cos zu + sin zu * d := by
    rw [cos_sub, sin_arctan, cos_arctan]
    field_simp
  ext i
  fin_cases i
  · simp only [refv, skyDir, Fin.zero_eta, Matrix.cons_val_zero, Matrix.cons_val_one, Matrix.cons_val, hw, hmax, sqrt_sq hs,
      e1, ed, Pi.smul_apply, smul_eq_mul]
    linear_combination cos a * (1 - d ^ 2 / 2) * (-ewt - es)
  · simp only [refv, skyDir, Fin.mk_one, Matrix.cons_val_zero, Matrix.cons_val_one, Matrix.cons_val, hw, hmax, sqrt_sq hs,
      e1, ed, Pi.smul_apply, smul_eq_mul]
    linear_combination sin a * (1 - d ^ 2 / 2) * (-ewt - es)
  · simp only [refv, skyDir, Fin.reduceFinMk, Matrix.cons_val_zero, Matrix.cons_val_one, Matrix.cons_val, hw, hmax,
      sqrt_sq hs, e1, ed, Pi.smul_apply, smul_eq_mul]
    linear_combination (1 - d ^ 2 / 2) * (-ec)

private theorem arctan_bounds {d : ℝ} (h : 0 ≤ d) : d - d ^ 3 / 3 ≤ arctan d ∧ arctan d ≤ d := by
  have hd1 : ∀ x : ℝ, HasDerivAt (fun x => x - arctan x) (1 - 1 / (1 + x ^ 2)) x :=
    fun x => (hasDerivAt_id x).sub (hasDerivAt_arctan x)
  have hd2 : ∀ x : ℝ, HasDerivAt (fun x => arctan x - (x - x ^ 3 / 3)) (1 / (1 + x ^ 2) - (1 - x ^ 2)) x := by
    intro x
    refine ((hasDerivAt_arctan x).sub ((hasDerivAt_id x).sub (((hasDerivAt_id x).pow 3).div_const 3))).congr_deriv ?_
    simp
  constructor
  · have hm : Monotone (fun x : ℝ => arctan x - (x - x ^ 3 / 3)) := by
      refine monotone_of_deriv_nonneg (fun x => (hd2 x).differentiableAt) (fun x => ?_)
      rw [(hd2 x).deriv]
      have : (1 - x ^ 2) * (1 + x ^ 2) ≤ 1 := by nlinarith [sq_nonneg (x ^ 2)]
      rw [sub_nonneg, le_div_iff₀ (by positivity)]
      exact this
    have := hm h
    simp at this
    linarith
  · have hm : Monotone (fun x : ℝ => x - arctan x) := by
      refine monotone_of_deriv_nonneg (fun x => (hd1 x).differentiableAt) (fun x => ?_)
      rw [(hd1 x).deriv, sub_nonneg, div_le_one (by positivity)]
      nlinarith [sq_nonneg x]
    have := hm h
    simp at this
    linarith

/-- The upper slope. -/
private theorem slope_up {A B : ℝ} (h : Ordinary A B) {y x : ℝ} (h0 : 0 ≤ y) (hyx : y ≤ x) (h1 : x ≤ 83 * (π / 180)) :
    unrefracted A B x - unrefracted A B y ≤ (1 + A * (1 + tan x ^ 2)) * (x - y) := by
  have hcos : ∀ u ∈ Set.Icc y x, cos u ≠ 0 := fun u hu => (tan_83 (h0.trans hu.1) (hu.2.trans h1)).1.ne'
  have := taylor (f := unrefracted A B) (f1 := f1 A B) (f2 := f2 A B) (k := 0) hyx (fun u hu => f_deriv A B (hcos u hu))
    (fun u hu => f1_deriv A B (hcos u hu))
    (fun u hu => by rw [mul_zero]; exact (bounds h (h0.trans hu.1) (hu.2.trans h1)).2.2.1)
  have hb := (bounds h (h0.trans hyx) h1).2.1
  have := mul_le_mul_of_nonneg_right hb (sub_nonneg.2 hyx)
  linarith

/-- `refv` applied to the direction at zenith distance zu, up to 83 degrees: the result points to the same azimuth, its
    length is 1 to within (A tan zu)^4, and its zenith distance satisfies the formula to second order in the refraction;
    to the same accuracy it agrees with `refz`. -/
theorem C87_refv (A B zu a : ℝ) (h : Ordinary A B) (hA : A ≤ 0.1) (h0 : 0 ≤ zu) (h1 : zu ≤ 83 * (π / 180)) :
    let e := A * tan zu * (1 + tan zu ^ 2) * (A * tan zu) ^ 2 + (1 + A * (1 + tan zu ^ 2)) * (A * tan zu) ^ 3 / 3
    ∃ ρ z : ℝ, refv (skyDir zu a) A B = ρ • skyDir z a ∧ 1 - (A * tan zu) ^ 4 ≤ ρ ∧ ρ ≤ 1 ∧ 0 ≤ z ∧ z ≤ zu ∧
      zu ≤ unrefracted A B z ∧ unrefracted A B z - zu ≤ e ∧ |z - refz zu A B| ≤ e := by
  intro e
  obtain ⟨s1, s2⟩ := start h h0 h1
  obtain ⟨n1, n2, n3, n4⟩ := newton h h0 h1 h0 s1
  obtain ⟨hc, ht, ht2, hx⟩ := tan_83 h0 h1
  obtain ⟨b1, b2, -, -⟩ := bounds h h0 h1
  have hp : 0 < f1 A B zu := by linarith
  have hv := refv_eq (A := A) (B := B) a h0 h1
  set d := (unrefracted A B zu - zu) / f1 A B zu with hd
  have hd0 : 0 ≤ d := div_nonneg (by linarith) hp.le
  have hdA : d ≤ A * tan zu := (div_le_self (by linarith) b1).trans s2
  obtain ⟨t1, t2⟩ := arctan_bounds hd0
  have hd3 : d ^ 3 ≤ (A * tan zu) ^ 3 := pow_le_pow_left₀ hd0 hdA 3
  have hz0 : 0 ≤ zu - arctan d := n1.trans (by linarith)
  have hz1 : zu - arctan d ≤ zu := by linarith [arctan_nonneg.2 hd0]
  have hlow : unrefracted A B (zu - d) ≤ unrefracted A B (zu - arctan d) := by
    have := slope_one h n1 (by linarith : zu - d ≤ zu - arctan d) (hz1.trans h1)
    linarith
  have hr0 : 0 ≤ unrefracted A B zu - zu := by linarith
  have hA0 := h.1
  have hres : unrefracted A B (zu - arctan d) - zu ≤ e := by
    have u1 := slope_up h n1 (by linarith : zu - d ≤ zu - arctan d) (hz1.trans h1)
    have tz : tan (zu - arctan d) ≤ tan zu := tan_mono hz0 hz1 hx
    have tz0 : 0 ≤ tan (zu - arctan d) := (tan_83 hz0 (hz1.trans h1)).2.1
    have u2 : (1 + A * (1 + tan (zu - arctan d) ^ 2)) * (zu - arctan d - (zu - d)) ≤
        (1 + A * (1 + tan zu ^ 2)) * ((A * tan zu) ^ 3 / 3) := by
      refine mul_le_mul (by gcongr) (by linarith) (by linarith) (by positivity)
    have u3 : A * tan zu * (1 + tan zu ^ 2) * (unrefracted A B zu - zu) ^ 2 ≤
        A * tan zu * (1 + tan zu ^ 2) * (A * tan zu) ^ 2 :=
      mul_le_mul_of_nonneg_left (pow_le_pow_left₀ hr0 s2 2) (by positivity)
    simp only [e]
    linarith
  have hge : zu ≤ unrefracted A B (zu - arctan d) := n3.trans hlow
  have hd1 : d ^ 2 ≤ 0.7 := by
    have hAT : A * tan zu ≤ 0.1 * 8.161 := by
      have : tan zu ≤ 8.161 := by norm_num at *; nlinarith
      gcongr
    have := pow_le_pow_left₀ hd0 (hdA.trans hAT) 2
    norm_num at this ⊢
    linarith
  have hsq : ((1 - d ^ 2 / 2) * sqrt (1 + d ^ 2)) ^ 2 = 1 - 3 / 4 * d ^ 4 + d ^ 6 / 4 := by
    rw [mul_pow, sq_sqrt (by positivity)]
    ring
  have hpos : 0 ≤ (1 - d ^ 2 / 2) * sqrt (1 + d ^ 2) := by
    refine mul_nonneg ?_ (sqrt_nonneg _)
    norm_num at hd1
    linarith
  have hd46 : d ^ 6 ≤ d ^ 4 := by
    have : d ^ 6 = d ^ 4 * d ^ 2 := by ring
    rw [this]
    norm_num at hd1
    exact mul_le_of_le_one_right (by positivity) (by linarith)
  have hd4 : d ^ 4 ≤ (A * tan zu) ^ 4 := pow_le_pow_left₀ hd0 hdA 4
  have hd60 : 0 ≤ d ^ 6 := by positivity
  have hd40 : 0 ≤ d ^ 4 := by positivity
  refine ⟨_, _, hv, ?_, ?_, hz0, hz1, hge, hres, ?_⟩
  · by_contra hlt
    rw [not_le] at hlt
    have hle : (1 - d ^ 2 / 2) * sqrt (1 + d ^ 2) < 1 - d ^ 4 := by linarith
    have : ((1 - d ^ 2 / 2) * sqrt (1 + d ^ 2)) ^ 2 < (1 - d ^ 4) ^ 2 := pow_lt_pow_left₀ hle hpos two_ne_zero
    rw [hsq] at this
    have h8 : d ^ 4 * d ^ 4 ≤ d ^ 4 * (d ^ 2 * d ^ 2) := le_of_eq (by ring)
    have h9 : d ^ 2 * d ^ 2 ≤ 0.7 * 0.7 := mul_le_mul hd1 hd1 (sq_nonneg _) (by norm_num)
    have h10 := mul_le_mul_of_nonneg_left h9 hd40
    norm_num at h10
    nlinarith
  · by_contra hlt
    rw [not_le] at hlt
    have : (1 : ℝ) ^ 2 < ((1 - d ^ 2 / 2) * sqrt (1 + d ^ 2)) ^ 2 := pow_lt_pow_left₀ hlt (by norm_num) two_ne_zero
    rw [hsq] at this
    linarith
  · obtain ⟨c1, c2, c3, c4⟩ := C87_refz A B zu h h0 h1
    obtain ⟨-, -, er⟩ := refz_steps h h0 h1
    obtain ⟨-, n5, -, -⟩ := newton h n1 (n2.trans h1) h0 n3
    rw [← er] at n5
    have hle : refz zu A B ≤ zu - arctan d := n5.trans (by linarith)
    rw [abs_of_nonneg (by linarith)]
    have := slope_one h c1 hle (hz1.trans h1)
    linarith

example : Ordinary 2.9e-4 (-3.2e-7) ∧ (2.9e-4 : ℝ) ≤ 0.1 := by
  unfold Ordinary
  norm_num

/-- The documented milliarcsecond of `refv` up to 70 degrees holds for A up to 2.9e-4 (60 arcseconds). -/
theorem C87_refv_accuracy (A B zu a : ℝ) (h : Ordinary A B) (hA : A ≤ 2.9e-4) (h0 : 0 ≤ zu)
    (h1 : zu ≤ 70 * (π / 180)) :
    ∃ ρ z : ℝ, refv (skyDir zu a) A B = ρ • skyDir z a ∧ 0 < ρ ∧
      |unrefracted A B z - zu| ≤ 1e-3 * (π / 648000) ∧ |z - refz zu A B| ≤ 1e-3 * (π / 648000) := by
  have hpi := pi_gt_d4
  have hpi' := pi_lt_d4
  have h83 : zu ≤ 83 * (π / 180) := h1.trans (by linarith)
  obtain ⟨ρ, z, e1, e2, e3, -, -, e6, e7, e8⟩ := C87_refv A B zu a h (hA.trans (by norm_num)) h0 h83
  obtain ⟨hc, ht, -, -⟩ := tan_83 h0 h83
  have hA0 := h.1
  have hcz : 0.3419 ≤ cos zu := by
    have e : cos (70 * (π / 180)) = sin (20 * (π / 180)) := by
      rw [← cos_pi_div_two_sub]; congr 1; ring
    have h2 : cos (70 * (π / 180)) ≤ cos zu := cos_le_cos_of_nonneg_of_le_pi h0 (by linarith) h1
    have h3 := sin_gt_sub_cube (x := 20 * (π / 180)) (by positivity)
    have h4 : 0.34905 ≤ 20 * (π / 180) := by norm_num at *; linarith
    have h5 : 20 * (π / 180) ≤ 0.34908 := by norm_num at *; linarith
    generalize 20 * (π / 180) = x at *
    rw [e] at h2
    norm_num at *
    nlinarith [pow_le_pow_left₀ (by linarith : 0 ≤ x) h5 3]
  have ht2 : tan zu ^ 2 ≤ 7.555 := by
    have e : tan zu ^ 2 = 1 / cos zu ^ 2 - 1 := by
      rw [tan_eq_sin_div_cos]
      have := sin_sq_add_cos_sq zu
      field_simp
      linarith
    have : 1 / cos zu ^ 2 ≤ 8.555 := by
      rw [div_le_iff₀ (by positivity)]
      norm_num at hcz ⊢
      nlinarith
    rw [e]
    norm_num at *
    linarith
  have ht1 : tan zu ≤ 2.7487 := by norm_num at *; nlinarith
  have hb : A * tan zu * (1 + tan zu ^ 2) * (A * tan zu) ^ 2 + (1 + A * (1 + tan zu ^ 2)) * (A * tan zu) ^ 3 / 3 ≤
      1e-3 * (π / 648000) := by
    have q1 : A * tan zu * (1 + tan zu ^ 2) * (A * tan zu) ^ 2 + (1 + A * (1 + tan zu ^ 2)) * (A * tan zu) ^ 3 / 3 ≤
        2.9e-4 * 2.7487 * (1 + 7.555) * (2.9e-4 * 2.7487) ^ 2 +
          (1 + 2.9e-4 * (1 + 7.555)) * (2.9e-4 * 2.7487) ^ 3 / 3 := by gcongr
    refine q1.trans ?_
    norm_num at hpi ⊢
    linarith
  refine ⟨ρ, z, e1, ?_, ?_, e8.trans hb⟩
  · have q2 : (A * tan zu) ^ 4 ≤ (2.9e-4 * 2.7487 : ℝ) ^ 4 := by gcongr
    norm_num at q2
    linarith
  · rw [abs_of_nonneg (by linarith)]
    exact e7.trans hb

/-- Lower estimate of the residual after a step. -/
private theorem newton_lower {A B : ℝ} (h : Ordinary A B) {x zu T t0 : ℝ} (h0 : 0 ≤ x) (h1 : x ≤ 83 * (π / 180))
    (hzu : 0 ≤ zu) (hr : zu ≤ unrefracted A B x) (hT : tan x ≤ T) (ht0 : 0 ≤ t0)
    (hk : 0 ≤ A + 3 * B + 6 * B * T ^ 2)
    (ht : t0 ≤ tan (x - (unrefracted A B x - zu) / f1 A B x)) :
    t0 * (1 + t0 ^ 2) * (A + 3 * B + 6 * B * T ^ 2) * ((unrefracted A B x - zu) / (1 + A * (1 + T ^ 2))) ^ 2 ≤
      unrefracted A B (x - (unrefracted A B x - zu) / f1 A B x) - zu := by
  obtain ⟨n1, n2, n3, n4⟩ := newton h h0 h1 hzu hr
  obtain ⟨b1, b2, -, -⟩ := bounds h h0 h1
  obtain ⟨hc, htx, -, hx⟩ := tan_83 h0 h1
  have hA := h.1
  have hB := h.2.2
  have hp : 0 < f1 A B x := by linarith
  have es : f1 A B x * (x - (unrefracted A B x - zu) / f1 A B x - x) = -(unrefracted A B x - zu) := by
    field_simp
    ring
  have esq : (x - (unrefracted A B x - zu) / f1 A B x - x) ^ 2 = ((unrefracted A B x - zu) / f1 A B x) ^ 2 := by ring
  have hcos : ∀ u ∈ Set.Icc (x - (unrefracted A B x - zu) / f1 A B x) x, cos u ≠ 0 :=
    fun u hu => (tan_83 (n1.trans hu.1) (hu.2.trans h1)).1.ne'
  have := taylor (f := unrefracted A B) (f1 := f1 A B) (f2 := f2 A B)
    (k := t0 * (1 + t0 ^ 2) * (A + 3 * B + 6 * B * T ^ 2)) n2 (fun u hu => f_deriv A B (hcos u hu))
    (fun u hu => f1_deriv A B (hcos u hu)) (fun u hu => by
      have hu0 := n1.trans hu.1
      have c1 : t0 ≤ tan u := ht.trans (tan_mono n1 hu.1 (lt_of_le_of_lt hu.2 hx))
      have c2 : tan u ≤ T := (tan_mono hu0 hu.2 hx).trans hT
      have c0 : 0 ≤ tan u := ht0.trans c1
      have c3 : tan u ^ 2 ≤ T ^ 2 := pow_le_pow_left₀ c0 c2 2
      have c4 : A + 3 * B + 6 * B * T ^ 2 ≤ A + 3 * B + 6 * B * tan u ^ 2 := by
        have := mul_nonneg (by linarith : 0 ≤ -B) (sub_nonneg.2 c3)
        linarith
      have c5 : t0 * (1 + t0 ^ 2) ≤ tan u * (1 + tan u ^ 2) := by gcongr
      have := mul_le_mul c5 c4 hk (by positivity)
      simp only [f2]
      linarith)
  rw [es, esq] at this
  have hq : ((unrefracted A B x - zu) / (1 + A * (1 + T ^ 2))) ^ 2 ≤ ((unrefracted A B x - zu) / f1 A B x) ^ 2 := by
    have hr0 : 0 ≤ unrefracted A B x - zu := by linarith
    refine pow_le_pow_left₀ (by positivity) (div_le_div_of_nonneg_left hr0 hp (b2.trans ?_)) 2
    gcongr
  have hk0 : 0 ≤ t0 * (1 + t0 ^ 2) * (A + 3 * B + 6 * B * T ^ 2) := mul_nonneg (by positivity) hk
  have := mul_le_mul_of_nonneg_left hq hk0
  linarith

/-- The tangent a little below. -/
private theorem tan_near {y x : ℝ} (h0 : 0 ≤ y) (hyx : y ≤ x) (h1 : x ≤ 83 * (π / 180)) :
    tan x - (1 + tan x ^ 2) * (x - y) ≤ tan y := by
  have hcos : ∀ u ∈ Set.Icc y x, cos u ≠ 0 := fun u hu => (tan_83 (h0.trans hu.1) (hu.2.trans h1)).1.ne'
  have := taylor (f := tan) (f1 := fun u => 1 + tan u ^ 2) (f2 := fun u => 2 * tan u * (1 + tan u ^ 2)) (k := 0) hyx
    (fun u hu => tan_deriv (hcos u hu)) (fun u hu => by
      refine (((tan_deriv (hcos u hu)).pow 2).const_add 1).congr_deriv ?_
      push_cast
      ring) (fun u hu => by
      have := (tan_83 (h0.trans hu.1) (hu.2.trans h1)).2.1
      rw [mul_zero]
      positivity)
  linarith

/-- The documented 1e-11 arcseconds of `refz` at 80 degrees is not reached with the refraction of sea level: constants of
    60 and -0.07 arcseconds leave more than five times as much. -/
theorem C87_refz_documented : ∃ A B zu : ℝ, Ordinary A B ∧ A = 2.9e-4 ∧ 0 ≤ zu ∧ zu ≤ 80 * (π / 180) ∧
    5 * (1e-11 * (π / 648000)) < unrefracted A B (refz zu A B) - zu := by
  have hpi := pi_gt_d4
  have hpi' := pi_lt_d4
  have h : Ordinary 2.9e-4 (-3.2e-7) := by unfold Ordinary; norm_num
  have h0 : 0 ≤ arctan 5.6 := arctan_nonneg.2 (by norm_num)
  have h80 : arctan 5.6 ≤ 80 * (π / 180) := by
    have hx1 : 10 * (π / 180) ≤ 0.1746 := by norm_num at *; linarith
    have hx0 : 0 < 10 * (π / 180) := by positivity
    have e : tan (80 * (π / 180)) = (tan (10 * (π / 180)))⁻¹ := by
      rw [← tan_pi_div_two_sub]; congr 1; ring
    have hs := sin_lt hx0
    have hc := one_sub_sq_div_two_le_cos (x := 10 * (π / 180))
    have hsp : 0 < sin (10 * (π / 180)) := sin_pos_of_pos_of_lt_pi hx0 (by linarith)
    have : (5.6 : ℝ) ≤ tan (80 * (π / 180)) := by
      rw [e, tan_eq_sin_div_cos, inv_div, le_div_iff₀ hsp]
      generalize 10 * (π / 180) = x at *
      norm_num at *
      nlinarith
    calc arctan 5.6 ≤ arctan (tan (80 * (π / 180))) := arctan_strictMono.monotone this
      _ = _ := arctan_tan (by linarith) (by linarith)
  have h83 : arctan 5.6 ≤ 83 * (π / 180) := h80.trans (by linarith)
  refine ⟨2.9e-4, -3.2e-7, arctan 5.6, h, rfl, h0, h80, ?_⟩
  have hT : tan (arctan 5.6) = 5.6 := tan_arctan _
  obtain ⟨s1, s2⟩ := start h h0 h83
  obtain ⟨n1, n2, n3, -⟩ := newton h h0 h83 h0 s1
  obtain ⟨-, -, er⟩ := refz_steps h h0 h83
  obtain ⟨r1, r2, r3, -⟩ := C87_refz _ _ _ h h0 h83
  have er0 : unrefracted 2.9e-4 (-3.2e-7) (arctan 5.6) - arctan 5.6 = 2.9e-4 * 5.6 + -3.2e-7 * 5.6 ^ 3 := by
    simp only [unrefracted, hT]; ring
  -- all tangents met
  have near : ∀ u, 0 ≤ u → u ≤ arctan 5.6 → arctan 5.6 ≤ unrefracted 2.9e-4 (-3.2e-7) u → 5.54 ≤ tan u := by
    intro u hu0 hu1 hu2
    have a1 := slope_one h hu0 hu1 h83
    have a2 := tan_near hu0 hu1 h83
    rw [hT] at a2
    norm_num at *
    linarith
  have k1 := newton_lower h h0 h83 h0 s1 (T := 5.6) (t0 := 5.54) hT.le (by norm_num) (by norm_num) (near _ n1 n2 n3)
  rw [er] at r1 r2 r3 ⊢
  obtain ⟨z1, hz1⟩ : ∃ z1, z1 = arctan 5.6 - (unrefracted 2.9e-4 (-3.2e-7) (arctan 5.6) - arctan 5.6) /
    f1 2.9e-4 (-3.2e-7) (arctan 5.6) := ⟨_, rfl⟩
  simp only [← hz1] at *
  have ht1 : tan z1 ≤ 5.6 := by
    rw [← hT]
    exact tan_mono n1 n2 (tan_83 h0 h83).2.2.2
  have k2 := newton_lower h n1 (n2.trans h83) h0 n3 (T := 5.6) (t0 := 5.54) ht1 (by norm_num) (by norm_num)
    (near _ r1 r2 r3)
  refine lt_of_lt_of_le ?_ k2
  rw [er0] at k1
  have hk1 : 9e-8 ≤ unrefracted 2.9e-4 (-3.2e-7) z1 - arctan 5.6 := le_trans (by norm_num) k1
  generalize unrefracted 2.9e-4 (-3.2e-7) z1 - arctan 5.6 = R at *
  have hR : (9e-8 : ℝ) ^ 2 ≤ R ^ 2 := pow_le_pow_left₀ (by norm_num) hk1 2
  rw [div_pow]
  norm_num at hR hpi' ⊢
  linarith

/-- The documented microarcsecond of `refv` within 30 degrees of the zenith is not reached with the refraction of sea
    level either. -/
theorem C87_refv_documented : ∃ A B : ℝ, Ordinary A B ∧ A = 2.9e-4 ∧ ∃ ρ z : ℝ, 0 < ρ ∧ 0 ≤ z ∧ z ≤ π / 6 ∧
    refv (skyDir (π / 6) 0) A B = ρ • skyDir z 0 ∧ 1.2 * (1e-6 * (π / 648000)) < unrefracted A B z - π / 6 := by
  have hpi := pi_gt_d4
  have hpi' := pi_lt_d4
  have h : Ordinary 2.9e-4 (-3.2e-7) := by unfold Ordinary; norm_num
  have h0 : 0 ≤ π / 6 := by positivity
  have h83 : π / 6 ≤ 83 * (π / 180) := by linarith
  obtain ⟨s1, s2⟩ := start h h0 h83
  obtain ⟨n1, n2, n3, -⟩ := newton h h0 h83 h0 s1
  obtain ⟨b1, -, -, -⟩ := bounds h h0 h83
  have hv := refv_eq (A := 2.9e-4) (B := -3.2e-7) 0 h0 h83
  set d := (unrefracted 2.9e-4 (-3.2e-7) (π / 6) - π / 6) / f1 2.9e-4 (-3.2e-7) (π / 6) with hd
  have hd0 : 0 ≤ d := div_nonneg (by linarith) (by linarith)
  obtain ⟨t1, t2⟩ := arctan_bounds hd0
  have hT2 : tan (π / 6) ^ 2 = 1 / 3 := by
    rw [tan_pi_div_six, div_pow, sq_sqrt (by norm_num)]; norm_num
  have hT0 : 0 ≤ tan (π / 6) := (tan_83 h0 h83).2.1
  have hT1 : tan (π / 6) ≤ 0.57736 := by
    generalize tan (π / 6) = t at hT2 hT0 ⊢
    norm_num
    nlinarith
  have hT1' : 0.57735 ≤ tan (π / 6) := by
    generalize tan (π / 6) = t at hT2 hT0 ⊢
    norm_num
    nlinarith
  have er0 : unrefracted 2.9e-4 (-3.2e-7) (π / 6) - π / 6 = (2.9e-4 - 3.2e-7 / 3) * tan (π / 6) := by
    simp only [unrefracted]
    rw [show tan (π / 6) ^ 3 = tan (π / 6) ^ 2 * tan (π / 6) by ring, hT2]
    ring
  have near : 0.5771 ≤ tan (π / 6 - d) := by
    have a1 := slope_one h n1 n2 h83
    have a2 := tan_near n1 n2 h83
    rw [hT2] at a2
    norm_num at *
    linarith
  have k1 := newton_lower h h0 h83 h0 s1 (T := 0.57736) (t0 := 0.5771) hT1 (by norm_num) (by norm_num) near
  rw [← hd] at k1
  have k2 := slope_one h n1 (by linarith : π / 6 - d ≤ π / 6 - arctan d)
    (by linarith [arctan_nonneg.2 hd0] : π / 6 - arctan d ≤ 83 * (π / 180))
  have hd1 : d ≤ 0.001 := by
    refine (div_le_self (by linarith) b1).trans (s2.trans ?_)
    norm_num at *
    linarith
  refine ⟨2.9e-4, -3.2e-7, h, rfl, _, _, ?_, by linarith, by linarith [arctan_nonneg.2 hd0], hv, ?_⟩
  · refine mul_pos ?_ (sqrt_pos.2 (by positivity))
    norm_num at hd1
    nlinarith
  · have hk : 1.2 * (1e-6 * (π / 648000)) < 0.5771 * (1 + 0.5771 ^ 2) * (2.9e-4 + 3 * (-3.2e-7) + 6 * (-3.2e-7) * 0.57736 ^ 2) *
        ((unrefracted 2.9e-4 (-3.2e-7) (π / 6) - π / 6) / (1 + 2.9e-4 * (1 + 0.57736 ^ 2))) ^ 2 := by
      rw [er0, div_pow, mul_pow, hT2]
      norm_num at *
      linarith
    linarith

end Sla.Props
