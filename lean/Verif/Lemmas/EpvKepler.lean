import Verif.Lemmas.EvpEarth
import Mathlib.Analysis.Real.Pi.Bounds

/-
The elliptic motion of `evp` as a series in the mean anomaly, for the comparison with `epv`.
-/
noncomputable section
namespace Sla.EvpL
open Real

/-- The equation of the centre in powers of the eccentricity. -/
theorem phi_series (e g : ℝ) : evpPhi e g = 2 * e * sin g + 2.5 * e ^ 2 * (sin g * cos g) +
    e ^ 3 * (3.00000002 * sin g - 4.33333336 * sin g ^ 3) := by
  have h3 : sin (g + (g + g)) = 3 * sin g - 4 * sin g ^ 3 := by
    rw [show g + (g + g) = 3 * g by ring, sin_three_mul]
  rw [evpPhi, h3, sin_add g g]; ring

theorem phi_cs {e : ℝ} (he0 : 0 ≤ e) (he : e ≤ 0.0168) (g : ℝ) :
    |cos (evpPhi e g) - (1 - 2 * e ^ 2 * sin g ^ 2 - 5 * e ^ 3 * (sin g ^ 2 * cos g))| ≤ 1.4e-6 ∧
    |sin (evpPhi e g) - (2 * e * sin g + 2.5 * e ^ 2 * (sin g * cos g) + e ^ 3 * (3 * sin g - 17 / 3 * sin g ^ 3))| ≤ 3e-7 := by
  have hs := abs_sin_le_one g
  have hsc : |sin g * cos g| ≤ 0.5 := by
    have := abs_sin_le_one (2 * g)
    rw [sin_two_mul, mul_assoc, abs_mul, abs_two] at this; linarith
  have hs3 : |sin g ^ 3| ≤ 1 := by rw [abs_pow]; exact pow_le_one₀ (abs_nonneg _) hs
  have e2 : e ^ 2 ≤ 0.0168 ^ 2 := pow_le_pow_left₀ he0 he 2
  have e3 : e ^ 3 ≤ 0.0168 ^ 3 := pow_le_pow_left₀ he0 he 3
  have e20 : 0 ≤ e ^ 2 := by positivity
  have e30 : 0 ≤ e ^ 3 := by positivity
  have e2' : |2.5 * e ^ 2| ≤ 2.5 * 0.0168 ^ 2 := by rw [abs_of_nonneg (by positivity)]; linarith
  have e3' : |e ^ 3| ≤ 4.75e-6 := by rw [abs_of_nonneg e30]; norm_num at e3 ⊢; linarith
  have hb : |2 * e * sin g| ≤ 0.0336 := by
    refine (abs_mul_le' (X := 0.0336) ?_ hs).trans (by norm_num)
    rw [abs_of_nonneg (by positivity)]; linarith
  have hd : |2.5 * e ^ 2 * (sin g * cos g)| ≤ 3.53e-4 := (abs_mul_le' e2' hsc).trans (by norm_num)
  have hk0 : |3.00000002 * sin g - 4.33333336 * sin g ^ 3| ≤ 7.34 := by
    rw [abs_le] at *; constructor <;> linarith
  have hk : |e ^ 3 * (3.00000002 * sin g - 4.33333336 * sin g ^ 3)| ≤ 3.49e-5 := (abs_mul_le' e3' hk0).trans (by norm_num)
  have hφ := phi_series e g
  have hx3 : |e ^ 3 * (2e-8 * sin g - (4.33333336 - 13 / 3) * sin g ^ 3)| ≤ 1e-12 := by
    refine (abs_mul_le' (Y := 5e-8) e3' ?_).trans (by norm_num)
    rw [abs_le] at *; constructor <;> linarith
  obtain ⟨b, hb'⟩ : ∃ b, b = 2 * e * sin g := ⟨_, rfl⟩
  obtain ⟨d, hd'⟩ : ∃ d, d = 2.5 * e ^ 2 * (sin g * cos g) := ⟨_, rfl⟩
  obtain ⟨k, hk'⟩ : ∃ k, k = e ^ 3 * (3.00000002 * sin g - 4.33333336 * sin g ^ 3) := ⟨_, rfl⟩
  rw [← hb'] at hb
  rw [← hd'] at hd
  rw [← hk'] at hk
  rw [← hb', ← hd', ← hk'] at hφ
  generalize evpPhi e g = φ at *
  have hφb : |φ| ≤ 0.034 := by rw [hφ]; rw [abs_le] at *; constructor <;> linarith
  have hφ1 : |φ| ≤ 1 := hφb.trans (by norm_num)
  have p4 : |φ| ^ 4 ≤ 1.34e-6 := (pow_le_pow_left₀ (abs_nonneg _) hφb 4).trans (by norm_num)
  have p5 : |φ| ^ 5 ≤ 4.6e-8 := (pow_le_pow_left₀ (abs_nonneg _) hφb 5).trans (by norm_num)
  have hc := cos_bound hφ1
  have hsn := sin_bound hφ1
  constructor
  · have e1 : cos φ - (1 - 2 * e ^ 2 * sin g ^ 2 - 5 * e ^ 3 * (sin g ^ 2 * cos g)) =
        (cos φ - (1 - φ ^ 2 / 2)) - (d * d / 2 + k * (b + d + k / 2)) := by rw [hφ, hb', hd', hk']; ring
    have k1 : |d * d| ≤ 3.53e-4 * 3.53e-4 := abs_mul_le' hd hd
    have k2 : |b + d + k / 2| ≤ 0.034 := by rw [abs_le] at *; constructor <;> linarith
    have k3 := abs_mul_le' hk k2
    rw [e1]
    clear * - hc k1 k3 p4
    generalize d * d = x at *
    generalize k * (b + d + k / 2) = y at *
    generalize cos φ - (1 - φ ^ 2 / 2) = z at *
    rw [abs_le] at hc k1 k3 ⊢
    constructor <;> linarith
  · have e1 : sin φ - (b + d + e ^ 3 * (3 * sin g - 17 / 3 * sin g ^ 3)) =
        (sin φ - (φ - φ ^ 3 / 6)) + e ^ 3 * (2e-8 * sin g - (4.33333336 - 13 / 3) * sin g ^ 3) -
        (φ - b) * (φ ^ 2 + φ * b + b ^ 2) / 6 := by
      rw [show b + d + e ^ 3 * (3 * sin g - 17 / 3 * sin g ^ 3) = φ - k + e ^ 3 * (3 * sin g - 17 / 3 * sin g ^ 3) by rw [hφ]; ring, hk',
        hb']; ring
    have k1 : |φ - b| ≤ 3.88e-4 := by rw [hφ]; rw [abs_le] at *; constructor <;> linarith
    have q1 := abs_mul_le' hφb hφb
    have q2 := abs_mul_le' hφb hb
    have q3 := abs_mul_le' hb hb
    have k2 : |φ ^ 2 + φ * b + b ^ 2| ≤ 0.00344 := by
      rw [sq, sq]
      exact (abs_add_le' (abs_add_le' q1 q2) q3).trans (by norm_num)
    have k3 := abs_mul_le' k1 k2
    rw [← hb', ← hd', e1]
    clear * - hsn k3 hx3 p5
    generalize (φ - b) * (φ ^ 2 + φ * b + b ^ 2) = x at *
    generalize e ^ 3 * (2e-8 * sin g - (4.33333336 - 13 / 3) * sin g ^ 3) = y at *
    generalize sin φ - (φ - φ ^ 3 / 6) = z at *
    rw [abs_le] at *
    constructor <;> linarith

set_option maxHeartbeats 1000000 in
/-- Position in the orbit to the second order in the eccentricity. -/
theorem kepler_series {e : ℝ} (he0 : 0 ≤ e) (he : e ≤ 0.0168) (g : ℝ) :
    let ρ := (1 - e * e) / (1 + e * cos (g + evpPhi e g))
    |ρ * cos (evpPhi e g) - (1 - e * cos g - e ^ 2 * sin g ^ 2)| ≤ 7.2e-6 ∧
    |ρ * sin (evpPhi e g) - (2 * e * sin g + 0.5 * e ^ 2 * (sin g * cos g))| ≤ 5e-6 := by
  intro ρ
  obtain ⟨hC, hS⟩ := phi_cs he0 he g
  have hcs := cs_sq g
  have c1 := abs_cos_le_one g
  have s1 := abs_sin_le_one g
  have hD : 1 + e * cos (g + evpPhi e g) ≥ 0.983 := by
    have := neg_one_le_cos (g + evpPhi e g); nlinarith
  have hDp : (0 : ℝ) < 1 + e * cos (g + evpPhi e g) := by linarith
  have hρ : ρ = (1 - e * e) / (1 + e * cos (g + evpPhi e g)) := rfl
  have hm : (1 + e * cos (g + evpPhi e g)) * ρ = 1 - e * e := by rw [hρ, mul_div_cancel₀ _ hDp.ne']
  clear hρ hDp
  rw [cos_add] at hm hD
  clear_value ρ
  generalize cos (evpPhi e g) = C at *
  generalize sin (evpPhi e g) = S at *
  generalize cos g = c at *
  generalize sin g = s at *
  obtain ⟨γ, hγ⟩ : ∃ γ, C = 1 - 2 * e ^ 2 * s ^ 2 - 5 * e ^ 3 * (s ^ 2 * c) + γ :=
    ⟨C - (1 - 2 * e ^ 2 * s ^ 2 - 5 * e ^ 3 * (s ^ 2 * c)), by ring⟩
  obtain ⟨σ, hσ⟩ : ∃ σ, S = 2 * e * s + 2.5 * e ^ 2 * (s * c) + e ^ 3 * (3 * s - 17 / 3 * s ^ 3) + σ :=
    ⟨S - (2 * e * s + 2.5 * e ^ 2 * (s * c) + e ^ 3 * (3 * s - 17 / 3 * s ^ 3)), by ring⟩
  have gb : |γ| ≤ 1.4e-6 := by rw [hγ, add_sub_cancel_left] at hC; exact hC
  have sb : |σ| ≤ 3e-7 := by rw [hσ, add_sub_cancel_left] at hS; exact hS
  clear hC hS
  have ea : |e| ≤ 0.0168 := by rw [abs_of_nonneg he0]; exact he
  have pw : ∀ n : ℕ, |e ^ n| ≤ 0.0168 ^ n := fun n => by
    rw [abs_pow]; exact pow_le_pow_left₀ (abs_nonneg _) ea n
  have ps : ∀ n : ℕ, |s ^ n| ≤ 1 := fun n => by rw [abs_pow]; exact pow_le_one₀ (abs_nonneg _) s1
  have hs2 : s ^ 2 ≤ 1 := by nlinarith
  have hc2 : c ^ 2 = 1 - s ^ 2 := by linarith
  have sc : ∀ n : ℕ, |s ^ n * c| ≤ 1 := fun n => (abs_mul_le' (ps n) c1).trans (by norm_num)
  have hsc : |s * c| ≤ 0.5 := by
    rw [abs_le]; constructor <;> nlinarith [sq_nonneg (s - c), sq_nonneg (s + c)]
  have hs2c : |s ^ 2 * c| ≤ 0.5 := by
    rw [show s ^ 2 * c = s * (s * c) by ring]; exact (abs_mul_le' s1 hsc).trans (by norm_num)
  have s2c2 : |s ^ 2 * c ^ 2| ≤ 0.25 := by
    rw [show s ^ 2 * c ^ 2 = (s * c) * (s * c) by ring]; exact (abs_mul_le' hsc hsc).trans (by norm_num)
  have e3 : |e ^ 3| ≤ 4.75e-6 := (pw 3).trans (by norm_num)
  have e4 : |e ^ 4| ≤ 8e-8 := (pw 4).trans (by norm_num)
  have e5 : |e ^ 5| ≤ 1.35e-9 := (pw 5).trans (by norm_num)
  have e2 : |e ^ 2| ≤ 2.83e-4 := (pw 2).trans (by norm_num)
  have h17 : |3 * s - 17 / 3 * s ^ 3| ≤ 9 := by
    have := ps 3
    rw [abs_le] at *; constructor <;> linarith
  -- the divisor
  obtain ⟨ω, hω⟩ : ∃ ω, ω = e * (c * (-(5 * e ^ 3 * (s ^ 2 * c)) + γ) - s * (e ^ 3 * (3 * s - 17 / 3 * s ^ 3) + σ)) := ⟨_, rfl⟩
  have hDe : 1 + e * (c * C - s * S) = 1 + e * c - 2 * e ^ 2 * s ^ 2 - 4.5 * e ^ 3 * (s ^ 2 * c) + ω := by
    rw [hω, hγ, hσ]; ring
  have ωb : |ω| ≤ 1e-6 := by
    have k1 : |-(5 * e ^ 3 * (s ^ 2 * c)) + γ| ≤ 1.33e-5 := by
      have := abs_mul_le' e3 hs2c
      rw [show 5 * e ^ 3 * (s ^ 2 * c) = 5 * (e ^ 3 * (s ^ 2 * c)) by ring]
      rw [abs_le] at *; norm_num at *; constructor <;> linarith
    have k2 : |e ^ 3 * (3 * s - 17 / 3 * s ^ 3) + σ| ≤ 4.4e-5 := (abs_add_le' (abs_mul_le' e3 h17) sb).trans (by norm_num)
    rw [hω]
    exact (abs_mul_le' ea (abs_sub_le' (abs_mul_le' c1 k1) (abs_mul_le' s1 k2))).trans (by norm_num)
  clear hω
  have fin : ∀ {z Y W : ℝ}, (1 + e * (c * C - s * S)) * z = Y → |Y| ≤ 0.983 * W → |z| ≤ W := by
    intro z Y W h1 h2
    rw [← h1, abs_mul, abs_of_pos (by linarith : 0 < 1 + e * (c * C - s * S))] at h2
    have := abs_nonneg z
    nlinarith
  constructor
  · refine fin (Y := e ^ 3 * (-1.5 * (s ^ 2 * c)) + e ^ 4 * (2 * s ^ 2 - 2 * s ^ 4 - 4.5 * (s ^ 2 * c ^ 2)) +
      e ^ 5 * (5 * (s ^ 2 * c) - 4.5 * (s ^ 4 * c)) + γ * (1 - e ^ 2) - ω * (1 - e * c - e ^ 2 * s ^ 2)) ?_ ?_
    · have : (1 + e * (c * C - s * S)) * (ρ * C - (1 - e * c - e ^ 2 * s ^ 2)) =
          (1 - e * e) * C - (1 + e * (c * C - s * S)) * (1 - e * c - e ^ 2 * s ^ 2) := by
        linear_combination C * hm
      rw [this, hDe, hγ]
      linear_combination e ^ 2 * hcs
    · have k1 : |-1.5 * (s ^ 2 * c)| ≤ 0.75 := by rw [abs_le] at *; constructor <;> linarith
      have k2 : |2 * s ^ 2 - 2 * s ^ 4 - 4.5 * (s ^ 2 * c ^ 2)| ≤ 6 := by
        have := ps 2
        have := ps 4
        rw [abs_le] at *; constructor <;> linarith
      have k3 : |5 * (s ^ 2 * c) - 4.5 * (s ^ 4 * c)| ≤ 9.5 := by
        have := sc 2
        have := sc 4
        rw [abs_le] at *; constructor <;> linarith
      have k4 : |1 - e ^ 2| ≤ 1 := by rw [abs_le] at *; constructor <;> nlinarith [sq_nonneg e]
      have k5 : |1 - e * c - e ^ 2 * s ^ 2| ≤ 1.02 := by
        have q1 := abs_mul_le' ea c1
        have q2 := abs_mul_le' e2 (ps 2)
        rw [abs_le] at *; constructor <;> linarith
      refine (abs_sub_le' (abs_add_le' (abs_add_le' (abs_add_le' (abs_mul_le' e3 k1) (abs_mul_le' e4 k2)) (abs_mul_le' e5 k3))
        (abs_mul_le' gb k4)) (abs_mul_le' ωb k5)).trans (by norm_num)
  · refine fin (Y := e ^ 3 * (s * (0.5 - 7 / 6 * s ^ 2)) + σ * (1 - e ^ 2) + e ^ 4 * (s ^ 3 * c - 2.5 * (s * c)) -
      e ^ 5 * (3 * s - 17 / 3 * s ^ 3) - (e ^ 3 * (-4.5 * (s ^ 2 * c)) + ω) * (2 * e * s + 0.5 * e ^ 2 * (s * c))) ?_ ?_
    · have : (1 + e * (c * C - s * S)) * (ρ * S - (2 * e * s + 0.5 * e ^ 2 * (s * c))) =
          (1 - e * e) * S - (1 + e * (c * C - s * S)) * (2 * e * s + 0.5 * e ^ 2 * (s * c)) := by
        linear_combination S * hm
      rw [this, hDe, hσ]
      linear_combination -0.5 * e ^ 3 * s * hcs
    · have k1 : |0.5 - 7 / 6 * s ^ 2| ≤ 0.667 := by
        rw [abs_le]; constructor <;> nlinarith [sq_nonneg s]
      have k2 : |s ^ 3 * c - 2.5 * (s * c)| ≤ 2.25 := by
        have := sc 3
        rw [abs_le] at *; constructor <;> linarith
      have k4 : |1 - e ^ 2| ≤ 1 := by rw [abs_le] at *; constructor <;> nlinarith [sq_nonneg e]
      have k5 : |2 * e * s + 0.5 * e ^ 2 * (s * c)| ≤ 0.034 := by
        have q1 := abs_mul_le' ea s1
        have q2 := abs_mul_le' e2 hsc
        rw [show 2 * e * s + 0.5 * e ^ 2 * (s * c) = 2 * (e * s) + 0.5 * (e ^ 2 * (s * c)) by ring]
        rw [abs_le] at *; constructor <;> linarith
      have k6 : |-4.5 * (s ^ 2 * c)| ≤ 2.25 := by rw [abs_le] at *; constructor <;> linarith
      refine (abs_sub_le' (abs_sub_le' (abs_add_le' (abs_add_le' (abs_mul_le' e3 (abs_mul_le' s1 k1)) (abs_mul_le' sb k4))
        (abs_mul_le' e4 k2)) (abs_mul_le' e5 h17)) (abs_mul_le' (abs_add_le' (abs_mul_le' e3 k6) ωb) k5)).trans (by norm_num)

end Sla.EvpL
