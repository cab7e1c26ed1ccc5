/- The low-precision `earth` against `evp`. -/
import Verif.Lemmas.EvpPlanet
import Verif.Model.Earth
import Mathlib.Analysis.Real.Pi.Bounds

noncomputable section
namespace Sla.EvpL

open Real Sla.Spec Matrix

theorem sqrt_le_of {x X : ℝ} (hX : 0 ≤ X) (h : x ≤ X ^ 2) : sqrt x ≤ X := Real.sqrt_le_iff.2 ⟨hX, h⟩

/-- Distance of two vectors in polar form: components apart, directions apart. -/
theorem polar_dist (L L' ρ τ γ ρ' τ' γ' : ℝ) :
    len (polar (cos L) (sin L) ρ τ γ - polar (cos L') (sin L') ρ' τ' γ') ≤
      sqrt ((ρ - ρ') ^ 2 + (τ - τ') ^ 2 + (γ - γ') ^ 2) + |L - L'| * sqrt (ρ' ^ 2 + τ' ^ 2) := by
  have e : polar (cos L) (sin L) ρ τ γ - polar (cos L') (sin L') ρ' τ' γ' =
      polar (cos L) (sin L) (ρ - ρ') (τ - τ') (γ - γ') +
      (polar (cos L) (sin L) ρ' τ' 0 - polar (cos L') (sin L') ρ' τ' 0) := by
    ext i; fin_cases i <;> simp [polar] <;> ring
  have h2 : len (polar (cos L) (sin L) ρ' τ' 0 - polar (cos L') (sin L') ρ' τ' 0) ≤ |L - L'| * sqrt (ρ' ^ 2 + τ' ^ 2) := by
    have hn := mul_nonneg (abs_nonneg (L - L')) (sqrt_nonneg (ρ' ^ 2 + τ' ^ 2))
    rw [len_eq]
    refine sqrt_le_of hn ?_
    rw [mul_pow, sq_abs, Real.sq_sqrt (by positivity)]
    have h3 := one_sub_sq_div_two_le_cos (x := L - L')
    rw [cos_sub] at h3
    have c1 := cs_sq L
    have c2 := cs_sq L'
    simp only [polar, Pi.sub_apply, Matrix.cons_val]
    have e2 : (ρ' * cos L - τ' * sin L - (ρ' * cos L' - τ' * sin L')) * (ρ' * cos L - τ' * sin L - (ρ' * cos L' - τ' * sin L')) +
        (ρ' * sin L + τ' * cos L - (ρ' * sin L' + τ' * cos L')) * (ρ' * sin L + τ' * cos L - (ρ' * sin L' + τ' * cos L')) +
        (0 - 0) * (0 - 0) = (ρ' ^ 2 + τ' ^ 2) * (2 - 2 * (cos L * cos L' + sin L * sin L')) := by
      linear_combination (ρ' ^ 2 + τ' ^ 2) * c1 + (ρ' ^ 2 + τ' ^ 2) * c2
    rw [e2]
    nlinarith [sq_nonneg ρ', sq_nonneg τ']
  rw [e]
  refine (len_add_le _ _).trans (add_le_add ?_ h2)
  rw [polar_len (cs_sq L)]

theorem sin_near (x y : ℝ) : |sin x - sin y| ≤ |x - y| := abs_sin_sub_sin_le x y
theorem cos_near (x y : ℝ) : |cos x - cos y| ≤ |x - y| := abs_cos_sub_cos_le x y

/-- The equation of the centre of `earth`. -/
def phi2 (e m : ℝ) : ℝ := 2 * e * sin m + 1.25 * (e * e) * sin (2 * m)

theorem phi_near {e e' g m : ℝ} (he0 : 0 ≤ e) (he : e ≤ 0.017) (he0' : 0 ≤ e') (he' : e' ≤ 0.017) (hd : |e - e'| ≤ 1.1e-6)
    (hm : |g - m| ≤ 1.2e-5) : |evpPhi e g - phi2 e' m| ≤ 1e-5 := by
  have h1 := (sin_near g m).trans hm
  have h2 : |sin (2 * g) - sin (2 * m)| ≤ 2.4e-5 := by
    refine (sin_near _ _).trans ?_
    rw [← mul_sub, abs_mul, abs_of_pos (by norm_num : (0 : ℝ) < 2)]; linarith
  have s1 := abs_sin_le_one g
  have s2 := abs_sin_le_one (2 * g)
  have s3 := abs_sin_le_one (g + (g + g))
  have ha : |e| ≤ 0.017 := by rwa [abs_of_nonneg he0]
  have ha' : |e'| ≤ 0.017 := by rwa [abs_of_nonneg he0']
  have e2 : g + g = 2 * g := by ring
  have key : evpPhi e g - phi2 e' m = 2 * ((e - e') * sin g) + 2 * (e' * (sin g - sin m)) +
      1.25 * ((e - e') * (e + e') * sin (2 * g)) + 1.25 * (e' * e' * (sin (2 * g) - sin (2 * m))) +
      e * e * e * (1.08333334 * sin (g + (g + g)) - 0.25 * sin g) := by
    rw [evpPhi, phi2, e2]; ring
  have b1 := abs_mul_le' hd s1
  have b2 := abs_mul_le' ha' h1
  have b3 := abs_mul_le' (abs_mul_le' hd (abs_add_le' ha ha')) s2
  have b4 := abs_mul_le' (abs_mul_le' ha' ha') h2
  have b5 : |e * e * e * (1.08333334 * sin (g + (g + g)) - 0.25 * sin g)| ≤ 0.017 * 0.017 * 0.017 * (1.08333334 * 1 + 0.25 * 1) :=
    abs_mul_le' (abs_mul_le' (abs_mul_le' ha ha) ha) (abs_sub_le' (abs_mul_le' (by rw [abs_of_pos] <;> norm_num) s3)
      (abs_mul_le' (by rw [abs_of_pos] <;> norm_num) s1))
  rw [key]
  rw [abs_le] at *
  constructor <;> linarith

theorem radius_near {e e' f v : ℝ} (he0 : 0 ≤ e) (he : e ≤ 0.017) (he0' : 0 ≤ e') (he' : e' ≤ 0.017) (hd : |e - e'| ≤ 1.1e-6)
    (hf : |cos f - cos v| ≤ 2.2e-5) :
    |(1 - e * e) / (1 + e * cos f) - (1 - e' * e') / (1 + e' * cos v)| ≤ 2e-6 := by
  obtain ⟨p1, p2, p3, p4⟩ := ell_bounds he0 he f
  obtain ⟨q1, q2, q3, q4⟩ := ell_bounds he0' he' v
  have ha : |e| ≤ 0.017 := by rwa [abs_of_nonneg he0]
  have ha' : |e'| ≤ 0.017 := by rwa [abs_of_nonneg he0']
  have hr : |(1 - e' * e') / (1 + e' * cos v)| ≤ 1.017 := by rw [abs_of_nonneg (by linarith)]; linarith
  have key : ((1 - e * e) / (1 + e * cos f) - (1 - e' * e') / (1 + e' * cos v)) * (1 + e * cos f) =
      -((e - e') * (e + e')) - (1 - e' * e') / (1 + e' * cos v) * ((e - e') * cos f + e' * (cos f - cos v)) := by
    have h1 : (1 - e * e) / (1 + e * cos f) * (1 + e * cos f) = 1 - e * e := div_mul_cancel₀ _ p1.ne'
    have h2 : (1 - e' * e') / (1 + e' * cos v) * (1 + e' * cos v) = 1 - e' * e' := div_mul_cancel₀ _ q1.ne'
    linear_combination h1 - h2
  have b : |((1 - e * e) / (1 + e * cos f) - (1 - e' * e') / (1 + e' * cos v)) * (1 + e * cos f)| ≤ 1.9e-6 := by
    rw [key]
    refine (abs_sub_le' ((abs_neg _).trans_le (abs_mul_le' hd (abs_add_le' ha ha'))) (abs_mul_le' hr (abs_add_le'
      (abs_mul_le' hd (abs_cos_le_one f)) (abs_mul_le' ha' hf)))).trans (by norm_num)
  rw [abs_mul, abs_of_pos p1] at b
  have := abs_nonneg ((1 - e * e) / (1 + e * cos f) - (1 - e' * e') / (1 + e' * cos v))
  nlinarith

/-! ### `earth` in polar form -/

/-- Elements of `earth` for the time in centuries. -/
def eE (t : ℝ) : ℝ := 0.016751 - 4.2e-7 * (100 * t)
def eGamma (t : ℝ) : ℝ := 4.908230 + 3.0005e-4 * (100 * t)
def eM (t : ℝ) : ℝ := 4.881628 + 2 * π * (100 * t) + 0.00013420 * (100 * t) - eGamma t
def eV (t : ℝ) : ℝ := eM t + phi2 (eE t) (eM t)
def eEps (t : ℝ) : ℝ := 0.40931975 - 2.27e-6 * (100 * t)
def eMoon (t : ℝ) : ℝ := 4.72 + 83.9971 * (100 * t)

/-- Its Earth-Moon barycentre, and the displacement of the Earth from it, in the ecliptic. -/
def eEmb (t : ℝ) : VectorPV :=
  ⟨polar (cos (eV t + eGamma t - π)) (sin (eV t + eGamma t - π)) ((1 - eE t * eE t) / (1 + eE t * cos (eV t))) 0 0,
   polar (cos (eV t + eGamma t - π)) (sin (eV t + eGamma t - π)) (1.9913e-7 * (eE t * sin (eV t)))
    (1.9913e-7 * (1 + eE t * cos (eV t))) 0⟩
def eDis (t : ℝ) : VectorPV :=
  ⟨polar (cos (eMoon t)) (sin (eMoon t)) (-3.12e-5) 0 0, polar (cos (eMoon t)) (sin (eMoon t)) 0 (-8.31e-11) 0⟩

theorem earth_polar (t : ℝ) :
    (earthAt (4.881628 + 2 * π * (100 * t) + 0.00013420 * (100 * t)) (4.72 + 83.9971 * (100 * t)) (100 * t)).pos =
      evpEquator (eEps t) 0 ((eEmb t).pos + (eDis t).pos) + ![0, 0, 3.12e-5 * (sin (eMoon t) * sin (eEps t))] ∧
    (earthAt (4.881628 + 2 * π * (100 * t) + 0.00013420 * (100 * t)) (4.72 + 83.9971 * (100 * t)) (100 * t)).vel =
      evpEquator (eEps t) 0 ((eEmb t).vel + (eDis t).vel) + ![0, 0, 8.31e-11 * (cos (eMoon t) * sin (eEps t))] := by
  have hv : eM t + 2 * eE t * sin (eM t) + 1.25 * (eE t * eE t) * sin (2 * eM t) = eV t := by rw [eV, phi2]; ring
  have h0 : earthAt (4.881628 + 2 * π * (100 * t) + 0.00013420 * (100 * t)) (4.72 + 83.9971 * (100 * t)) (100 * t) =
      ⟨![-((1 - eE t * eE t) / (1 + eE t * cos (eV t))) * cos (eV t + eGamma t) - 3.12e-5 * cos (eMoon t),
        (-((1 - eE t * eE t) / (1 + eE t * cos (eV t))) * sin (eV t + eGamma t) - 3.12e-5 * sin (eMoon t)) * cos (eEps t),
        -((1 - eE t * eE t) / (1 + eE t * cos (eV t))) * sin (eV t + eGamma t) * sin (eEps t)],
      ![1.9913e-7 * (sin (eV t + eGamma t) + eE t * sin (eGamma t)) + 8.31e-11 * sin (eMoon t),
        (-1.9913e-7 * (cos (eV t + eGamma t) + eE t * cos (eGamma t)) - 8.31e-11 * cos (eMoon t)) * cos (eEps t),
        -1.9913e-7 * (cos (eV t + eGamma t) + eE t * cos (eGamma t)) * sin (eEps t)]⟩ := by
    rw [← hv]; rfl
  have hs : sin (eGamma t) = sin (eV t + eGamma t) * cos (eV t) - cos (eV t + eGamma t) * sin (eV t) := by
    rw [← sin_sub]; congr 1; ring
  have hc : cos (eGamma t) = cos (eV t + eGamma t) * cos (eV t) + sin (eV t + eGamma t) * sin (eV t) := by
    rw [← cos_sub]; congr 1; ring
  rw [h0, eEmb, eDis]
  simp only [cos_sub_pi, sin_sub_pi]
  constructor
  · ext i; fin_cases i <;> simp [polar, evpEquator] <;> ring
  · rw [hs, hc]
    ext i; fin_cases i <;> simp [polar, evpEquator] <;> ring

/-! ### Elements -/

theorem elements_near {t : ℝ} (ht : |t| ≤ 2) : |evpPoly (evpSel 0) t - eE t| ≤ 1.1e-6 ∧
    |evpPoly (evpFel 1) t - (eM t + 2 * π)| ≤ 1.2e-5 ∧ |evpPoly (evpFel 0) t - (eM t + eGamma t - π)| ≤ 2.3e-5 ∧
    |evpPoly evpEps t - eEps t| ≤ 4e-7 ∧ |evpPoly (evpFel 2) t - eMoon t| ≤ 1.9e-3 ∧
    0.0166 ≤ evpPoly (evpSel 0) t ∧ evpPoly (evpSel 0) t ≤ 0.01684 ∧ 0.0166 ≤ eE t ∧ eE t ≤ 0.01684 := by
  obtain ⟨h1, h2⟩ := abs_le.mp ht
  have h3 : t * t ≤ 4 := by nlinarith
  have h4 := mul_self_nonneg t
  have p1 := pi_gt_d20
  have p2 := pi_lt_d20
  have q1 : (3.14159265358979323846 - π) * t ≤ 1e-15 ∧ -1e-15 ≤ (3.14159265358979323846 - π) * t := by
    constructor <;> nlinarith
  obtain ⟨q1, q2⟩ := q1
  refine ⟨?_, ?_, ?_, ?_, ?_, ?_, ?_, ?_, ?_⟩
  · rw [abs_le]; simp [evpPoly, evpSel, eE]; constructor <;> linarith
  · rw [abs_le]; simp [evpPoly, evpFel, eM, eGamma]; constructor <;> linarith
  · rw [abs_le]; simp [evpPoly, evpFel, eM, eGamma]; constructor <;> linarith
  · rw [abs_le]; simp [evpPoly, evpEps, eEps]; constructor <;> linarith
  · rw [abs_le]; simp [evpPoly, evpFel, eMoon]; constructor <;> linarith
  · simp [evpPoly, evpSel]; linarith
  · simp [evpPoly, evpSel]; linarith
  · simp [eE]; linarith
  · simp [eE]; linarith

theorem pertL_bound {t : ℝ} (ht : |t| ≤ 2) (sec : Fin 4 → ℝ) (args : Fin 15 → ℝ) : |(evpPert t sec args).l| ≤ 2.17e-4 := by
  rw [pert_sums]
  dsimp only
  have hA : ∀ k, |evpAmps k 0 * cos (args k) + evpAmps k 1 * sin (args k)| ≤ ampL k := by
    intro k
    have h := ampL_le k (sin (args k)) (-cos (args k)) (by rw [neg_sq]; linarith [cs_sq (args k)])
    have e : evpAmps k 0 * cos (args k) + evpAmps k 1 * sin (args k) = evpAmps k 1 * sin (args k) - evpAmps k 0 * -cos (args k) := by ring
    rwa [e]
  have hS := sum_le hA
  have hS2 : ∑ k, ampL k ≤ 1.736e-4 := by simp [Fin.sum_univ_succ, ampL]; norm_num
  have hc : |evpSec 2 0 + t * -7.757020e-8| ≤ 9.3e-6 := by
    obtain ⟨h1, h2⟩ := abs_le.mp ht
    rw [abs_le]; simp [evpSec]; constructor <;> linarith
  have s0 : |evpSec 0 0| ≤ 1.2896e-6 := by rw [abs_le]; simp [evpSec]; norm_num
  have s1 : |evpSec 1 0| ≤ 3.10281e-5 := by rw [abs_le]; simp [evpSec]; norm_num
  have s3 : |evpSec 3 0| ≤ 9.79324e-7 := by rw [abs_le]; simp [evpSec]; norm_num
  refine (abs_add_le' (abs_add_le' (abs_add_le' (abs_add_le' (abs_mul_le' s0 (abs_sin_le_one _)) (abs_mul_le' s1 (abs_sin_le_one _)))
    (abs_mul_le' hc (abs_sin_le_one _))) (abs_mul_le' s3 (abs_sin_le_one _))) hS).trans ?_
  norm_num at hS2 ⊢
  linarith

theorem moonL_bound (a : Fin 3 → ℝ) : |(evpMoonPert a).l| ≤ 0.1435 := by
  rw [moonPert_sums]
  have h : ∀ k, |evpAmpm k 0 * sin (a k)| ≤ ![0.10976, 0.02224, 0.01149] k := by
    intro k
    refine (abs_mul_le' (le_refl _) (abs_sin_le_one _)).trans ?_
    rw [mul_one, abs_le]
    fin_cases k <;> simp [evpAmpm] <;> norm_num
  refine (sum_le h).trans ?_
  simp [Fin.sum_univ_succ]; norm_num

/-! ### Motions -/

theorem phi2_turn (e m : ℝ) : phi2 e (m + 2 * π) = phi2 e m := by
  rw [phi2, phi2, sin_add_two_pi]
  congr 2
  rw [show 2 * (m + 2 * π) = 2 * m + (2 : ℤ) * (2 * π) by push_cast; ring, Real.sin_add_int_mul_two_pi]

/-- Two points of the plane in polar form. -/
theorem polar_dist' {L L' ρ ρ' X : ℝ} (hX : 0 ≤ X) (h0 : 0 ≤ ρ * ρ') (h : (ρ - ρ') ^ 2 + ρ * ρ' * (L - L') ^ 2 ≤ X ^ 2) :
    len (polar (cos L) (sin L) ρ 0 0 - polar (cos L') (sin L') ρ' 0 0) ≤ X := by
  rw [len_eq]
  refine sqrt_le_of hX (le_trans ?_ h)
  have h3 := one_sub_sq_div_two_le_cos (x := L - L')
  rw [cos_sub] at h3
  have c1 := cs_sq L
  have c2 := cs_sq L'
  simp only [polar, Pi.sub_apply, Matrix.cons_val]
  have e2 : (ρ * cos L - 0 * sin L - (ρ' * cos L' - 0 * sin L')) * (ρ * cos L - 0 * sin L - (ρ' * cos L' - 0 * sin L')) +
      (ρ * sin L + 0 * cos L - (ρ' * sin L' + 0 * cos L')) * (ρ * sin L + 0 * cos L - (ρ' * sin L' + 0 * cos L')) +
      (0 - 0) * (0 - 0) = (ρ - ρ') ^ 2 + ρ * ρ' * (2 - 2 * (cos L * cos L' + sin L * sin L')) := by
    linear_combination ρ ^ 2 * c1 + ρ' ^ 2 * c2
  rw [e2]
  nlinarith

/-- True anomalies and longitudes of the two theories. -/
theorem anomaly_near {t : ℝ} (ht : |t| ≤ 2) :
    |evpPoly (evpFel 1) t + evpPhi (evpPoly (evpSel 0) t) (evpPoly (evpFel 1) t) - (eV t + 2 * π)| ≤ 2.2e-5 ∧
    |evpPoly (evpFel 0) t + evpPhi (evpPoly (evpSel 0) t) (evpPoly (evpFel 1) t) +
      (evpPert t (evpElements id t).sec (evpElements id t).args).l - (eV t + eGamma t - π)| ≤ 2.5e-4 := by
  obtain ⟨h1, h2, h3, -, -, a1, a2, b1, b2⟩ := elements_near ht
  have hφ := phi_near (by linarith) (by linarith) (by linarith) (by linarith) h1 h2
  rw [phi2_turn] at hφ
  have hl := pertL_bound ht (evpElements id t).sec (evpElements id t).args
  rw [eV]
  obtain ⟨x1, x2⟩ := abs_le.mp h2
  obtain ⟨x3, x4⟩ := abs_le.mp h3
  obtain ⟨x5, x6⟩ := abs_le.mp hφ
  obtain ⟨x7, x8⟩ := abs_le.mp hl
  constructor <;> rw [abs_le] <;> constructor <;> linarith

theorem emb_pos_near {t : ℝ} (ht : |t| ≤ 2) : len ((embAt t).pos - (eEmb t).pos) ≤ 2.65e-4 := by
  obtain ⟨h1, h2, h3, -, -, a1, a2, b1, b2⟩ := elements_near ht
  obtain ⟨hf, hL⟩ := anomaly_near ht
  obtain ⟨hR, -, -⟩ := pert_bounds t (evpElements id t).sec (evpElements id t).args
  have hc := (cos_near _ _).trans hf
  rw [cos_add_two_pi] at hc
  have hr := radius_near (by linarith) (by linarith) (by linarith) (by linarith) h1 hc
  obtain ⟨-, -, p3, p4⟩ := ell_bounds (e := evpPoly (evpSel 0) t) (by linarith) (by linarith)
    (evpPoly (evpFel 1) t + evpPhi (evpPoly (evpSel 0) t) (evpPoly (evpFel 1) t))
  obtain ⟨-, -, q3, q4⟩ := ell_bounds (e := eE t) (by linarith) (by linarith) (eV t)
  rw [embAt, emb_polar, eEmb]
  dsimp only
  generalize (1 - eE t * eE t) / (1 + eE t * cos (eV t)) = r at *
  generalize (1 - evpPoly (evpSel 0) t * evpPoly (evpSel 0) t) / (1 + evpPoly (evpSel 0) t * cos (evpPoly (evpFel 1) t +
    evpPhi (evpPoly (evpSel 0) t) (evpPoly (evpFel 1) t))) = ψ at *
  generalize (evpPert t (evpElements id t).sec (evpElements id t).args).r = R at *
  obtain ⟨R1, R2⟩ := abs_le.mp hR
  have hρ0 : 0.98 ≤ ψ * (1 + R) := by clear * - p3 p4 R1 R2 a1 a2; nlinarith
  have hρ1 : ψ * (1 + R) ≤ 1.017 := by clear * - p3 p4 R1 R2 a1 a2; nlinarith
  have hd : |ψ * (1 + R) - r| ≤ 7.12e-5 := by
    have e : ψ * (1 + R) - r = (ψ - r) + ψ * R := by ring
    rw [e]
    refine (abs_add_le' hr (abs_mul_le' (X := 1.017) (by rw [abs_of_nonneg] <;> linarith) hR)).trans (by norm_num)
  have k1 := sq_le_sq' (abs_le.mp hd).1 (abs_le.mp hd).2
  have k2 := sq_le_sq' (abs_le.mp hL).1 (abs_le.mp hL).2
  have k3 : 0 ≤ ψ * (1 + R) * r := by clear * - hρ0 hρ1 q3 q4 b1 b2; nlinarith
  have k4 : ψ * (1 + R) * r ≤ 1.017 * 1.017 := by clear * - hρ0 hρ1 q3 q4 b1 b2; nlinarith
  refine polar_dist' (by norm_num) k3 ?_
  have k5 := mul_le_mul k4 k2 (sq_nonneg _) (by norm_num)
  refine (add_le_add k1 k5).trans (by norm_num)

set_option maxHeartbeats 1000000 in
theorem emb_vel_near {t : ℝ} (ht : |t| ≤ 2) : len ((embAt t).vel - (eEmb t).vel) ≤ 1.06e-10 := by
  obtain ⟨h1, h2, h3, -, -, a1, a2, b1, b2⟩ := elements_near ht
  obtain ⟨hf, hL⟩ := anomaly_near ht
  obtain ⟨hR, hrd, hld⟩ := pert_bounds t (evpElements id t).sec (evpElements id t).args
  have hc := (cos_near _ _).trans hf
  have hs := (sin_near _ _).trans hf
  rw [cos_add_two_pi] at hc
  rw [sin_add_two_pi] at hs
  obtain ⟨p1, p2, p3, p4⟩ := ell_bounds (e := evpPoly (evpSel 0) t) (by linarith) (by linarith)
    (evpPoly (evpFel 1) t + evpPhi (evpPoly (evpSel 0) t) (evpPoly (evpFel 1) t))
  have hid := kep_ident' (evpPoly (evpSel 0) t) (evpPoly (evpFel 1) t + evpPhi (evpPoly (evpSel 0) t) (evpPoly (evpFel 1) t))
  rw [embAt, emb_polar, eEmb]
  dsimp only
  refine (polar_dist _ _ _ _ _ _ _ _).trans ?_
  have hnear := hL
  generalize |evpPoly (evpFel 0) t + evpPhi (evpPoly (evpSel 0) t) (evpPoly (evpFel 1) t) +
      (evpPert t (evpElements id t).sec (evpElements id t).args).l - (eV t + eGamma t - π)| = Δ at *
  generalize evpPert t (evpElements id t).sec (evpElements id t).args = p at *
  generalize evpPoly (evpFel 1) t + evpPhi (evpPoly (evpSel 0) t) (evpPoly (evpFel 1) t) = f at *
  generalize evpPoly (evpSel 0) t = e at *
  generalize eE t = e' at *
  generalize eV t = v at *
  have hq0 : 0 ≤ e * e := mul_self_nonneg e
  have hq1 : e * e ≤ 0.000284 := by clear * - a1 a2; nlinarith
  have hq2 : 0.000275 ≤ e * e := by clear * - a1 a2; nlinarith
  have hw := inv_sqrt_bound hq0 (hq1.trans (by norm_num))
  have hsf := abs_sin_le_one f
  have hcf := abs_cos_le_one f
  have hsv := abs_sin_le_one v
  have hcv := abs_cos_le_one v
  have hc2 : cos f ^ 2 ≤ 1 := cos_sq_le_one f
  have hcsv := cs_sq v
  have hae : |e| ≤ 0.01684 := by rw [abs_of_nonneg] <;> linarith
  have hae' : |e'| ≤ 0.01684 := by rw [abs_of_nonneg] <;> linarith
  obtain ⟨hR1, hR2⟩ := abs_le.mp hR
  have h1R : |1 + p.r| ≤ 1.000068 := by rw [abs_le]; constructor <;> linarith
  -- radial
  have hrad : |(1 + p.r) * (1.990969e-7 * e * sin f / sqrt (1 - e * e) + (1 - e * e) / (1 + e * cos f) * p.rd) -
      1.9913e-7 * (e' * sin v)| ≤ 1.74e-11 := by
    have hψ : |(1 - e * e) / (1 + e * cos f)| ≤ 1.01684 := by rw [abs_of_nonneg] <;> linarith
    have e1 : (1 + p.r) * (1.990969e-7 * e * sin f / sqrt (1 - e * e) + (1 - e * e) / (1 + e * cos f) * p.rd) -
        1.9913e-7 * (e' * sin v) = 1.990969e-7 * (e * sin f * (1 / sqrt (1 - e * e) - (1 + e * e / 2))) +
        (1.990969e-7 * (1 + e * e / 2) - 1.9913e-7) * (e * sin f) + 1.9913e-7 * ((e - e') * sin f) +
        1.9913e-7 * (e' * (sin f - sin v)) + p.r * (1.990969e-7 * (e * sin f * (1 / sqrt (1 - e * e) - (1 + e * e / 2))) +
          1.990969e-7 * (1 + e * e / 2) * (e * sin f)) + (1 + p.r) * ((1 - e * e) / (1 + e * cos f) * p.rd) := by
      ring
    rw [e1]
    have c0 : |(1.990969e-7 : ℝ)| ≤ 2e-7 := by rw [abs_of_nonneg] <;> norm_num
    have c1 : |(1.9913e-7 : ℝ)| ≤ 2e-7 := by rw [abs_of_nonneg] <;> norm_num
    have c2 : |1.990969e-7 * (1 + e * e / 2) - 1.9913e-7| ≤ 6e-12 := by rw [abs_le]; constructor <;> linarith
    have c3 : |1.990969e-7 * (1 + e * e / 2)| ≤ 2e-7 := by rw [abs_le]; constructor <;> linarith
    have f1 := abs_mul_le' c0 (abs_mul_le' (abs_mul_le' hae hsf) hw)
    have f2 := abs_mul_le' c2 (abs_mul_le' hae hsf)
    have f3 := abs_mul_le' c1 (abs_mul_le' h1 hsf)
    have f4 := abs_mul_le' c1 (abs_mul_le' hae' hs)
    have f5 := abs_mul_le' hR (abs_add_le' f1 (abs_mul_le' c3 (abs_mul_le' hae hsf)))
    have f6 := abs_mul_le' h1R (abs_mul_le' hψ hrd)
    exact (abs_add_le' (abs_add_le' (abs_add_le' (abs_add_le' (abs_add_le' f1 f2) f3) f4) f5) f6).trans (by norm_num)
  -- transverse
  have htan : |(1 + p.r) * ((1 - e * e) / (1 + e * cos f)) * (1.990987e-7 + 1.990969e-7 * kep e f + p.ld) -
      1.9913e-7 * (1 + e' * cos v)| ≤ 5.25e-11 := by
    obtain ⟨D, hD⟩ : ∃ D, D = 1 + e * cos f := ⟨_, rfl⟩
    rw [← hD] at p1 p2 p3 p4 hid ⊢
    have hDb : |D| ≤ 1.01684 := by
      rw [abs_of_pos p1, hD]; clear * - a1 a2; nlinarith [cos_le_one f]
    have hψ : |(1 - e * e) / D| ≤ 1.01684 := by rw [abs_of_nonneg] <;> linarith
    have hψK : (1 - e * e) / D * (1 + kep e f) = (1 - e * e) * (1 + 1.5 * e ^ 2) * D - (1 - e * e) / D * (1.5 * (e * e) ^ 2 * cos f ^ 2) := by
      rw [hid]; field_simp
    have hsm : |(1 - e * e) / D * (1.5 * (e * e) ^ 2 * cos f ^ 2)| ≤ 2e-7 := by
      have h4 : |(e * e) ^ 2| ≤ 8.4e-8 := by rw [abs_of_nonneg (by positivity)]; clear * - hq0 hq1; nlinarith
      have h5 : |cos f ^ 2| ≤ 1 := by rw [abs_of_nonneg (sq_nonneg _)]; exact hc2
      exact (abs_mul_le' hψ (abs_mul_le' (abs_mul_le' (X := 1.5) (by rw [abs_le]; norm_num) h4) h5)).trans (by norm_num)
    have hfac : |1.990969e-7 * ((1 - e * e) * (1 + 1.5 * e ^ 2)) - 1.9913e-7| ≤ 5.9e-12 := by
      have : (1 - e * e) * (1 + 1.5 * e ^ 2) = 1 + 0.5 * (e * e) - 1.5 * (e * e) ^ 2 := by ring
      rw [this, abs_le]
      clear * - hq0 hq1 hq2
      constructor <;> nlinarith
    have hDd : |D - (1 + e' * cos v)| ≤ 1.5e-6 := by
      have : D - (1 + e' * cos v) = (e - e') * cos f + e' * (cos f - cos v) := by rw [hD]; ring
      rw [this]
      exact (abs_add_le' (abs_mul_le' h1 hcf) (abs_mul_le' hae' hc)).trans (by norm_num)
    generalize kep e f = K at *
    generalize (1 - e * e) / D = ψ at *
    have e1 : (1 + p.r) * ψ * (1.990987e-7 + 1.990969e-7 * K + p.ld) - 1.9913e-7 * (1 + e' * cos v) =
        (1.990969e-7 * ((1 - e * e) * (1 + 1.5 * e ^ 2)) - 1.9913e-7) * D + 1.9913e-7 * (D - (1 + e' * cos v)) -
        1.990969e-7 * (ψ * (1.5 * (e * e) ^ 2 * cos f ^ 2)) + ψ * 1.8e-12 + ψ * p.ld + p.r * (ψ * (1.990987e-7 + 1.990969e-7 * K + p.ld)) := by
      linear_combination 1.990969e-7 * hψK
    have hψK1 : |ψ * (1 + K)| ≤ 1.0171 := by
      rw [hψK]
      have : |(1 - e * e) * (1 + 1.5 * e ^ 2)| ≤ 1.00015 := by
        rw [abs_le]; clear * - hq0 hq1 hq2; constructor <;> nlinarith
      exact (abs_sub_le' (abs_mul_le' this hDb) hsm).trans (by norm_num)
    have e2 : ψ * (1.990987e-7 + 1.990969e-7 * K + p.ld) = 1.990969e-7 * (ψ * (1 + K)) + ψ * 1.8e-12 + ψ * p.ld := by ring
    have c0 : |(1.990969e-7 : ℝ)| ≤ 1.991e-7 := by rw [abs_of_nonneg] <;> norm_num
    have c1 : |(1.9913e-7 : ℝ)| ≤ 1.9913e-7 := by rw [abs_of_nonneg]; norm_num
    have c2 : |(1.8e-12 : ℝ)| ≤ 1.8e-12 := by rw [abs_of_nonneg]; norm_num
    have g1 := abs_mul_le' hfac hDb
    have g2 := abs_mul_le' c1 hDd
    have g3 := abs_mul_le' c0 hsm
    have g4 := abs_mul_le' hψ c2
    have g5 := abs_mul_le' hψ hld
    have g6 := abs_mul_le' hR (abs_add_le' (abs_add_le' (abs_mul_le' c0 hψK1) g4) g5)
    rw [e1, e2]
    exact (abs_add_le' (abs_add_le' (abs_add_le' (abs_sub_le' (abs_add_le' g1 g2) g3) g4) g5) g6).trans (by norm_num)
  have hsp : sqrt ((1.9913e-7 * (e' * sin v)) ^ 2 + (1.9913e-7 * (1 + e' * cos v)) ^ 2) ≤ 2.026e-7 := by
    refine sqrt_le_of (by norm_num) ?_
    have : (1.9913e-7 * (e' * sin v)) ^ 2 + (1.9913e-7 * (1 + e' * cos v)) ^ 2 = 1.9913e-7 ^ 2 * (1 + 2 * e' * cos v + e' ^ 2) := by
      linear_combination 1.9913e-7 ^ 2 * e' ^ 2 * hcsv
    rw [this]
    have : 1 + 2 * e' * cos v + e' ^ 2 ≤ 1.01684 ^ 2 := by clear * - b1 b2; nlinarith [cos_le_one v]
    refine (mul_le_mul_of_nonneg_left this (by norm_num)).trans (by norm_num)
  have k1 := sq_le_sq' (abs_le.mp hrad).1 (abs_le.mp hrad).2
  have k2 := sq_le_sq' (abs_le.mp htan).1 (abs_le.mp htan).2
  have hcomp : sqrt (((1 + p.r) * (1.990969e-7 * e * sin f / sqrt (1 - e * e) + (1 - e * e) / (1 + e * cos f) * p.rd) -
      1.9913e-7 * (e' * sin v)) ^ 2 + ((1 + p.r) * ((1 - e * e) / (1 + e * cos f)) * (1.990987e-7 + 1.990969e-7 * kep e f + p.ld) -
      1.9913e-7 * (1 + e' * cos v)) ^ 2 + (0 - 0) ^ 2) ≤ 5.534e-11 := by
    refine sqrt_le_of (by norm_num) ?_
    refine (add_le_add (add_le_add k1 k2) le_rfl).trans (by norm_num)
  have := mul_le_mul hnear hsp (sqrt_nonneg _) (by norm_num)
  refine (add_le_add hcomp this).trans (by norm_num)

theorem moon_near {t : ℝ} (ht : |t| ≤ 2) :
    len ((moonAt t).pos - (eDis t).pos) ≤ 8.6e-6 ∧ len ((moonAt t).vel - (eDis t).vel) ≤ 3.5e-11 := by
  obtain ⟨hR, hrd, hld⟩ := moonPert_bounds (evpElements id t).argm
  have hl := moonL_bound (evpElements id t).argm
  obtain ⟨-, -, -, -, hm, -⟩ := elements_near ht
  rw [moonAt, moon_polar, eDis]
  dsimp only
  have hΔ : |evpPoly (evpFel 2) t + (evpMoonPert (evpElements id t).argm).l - eMoon t| ≤ 0.1454 := by
    rw [abs_le] at *; constructor <;> linarith
  have hs8 : |8.978749e-2 * sin (evpPoly (evpFel 3) t)| ≤ 0.0898 := by
    refine (abs_mul_le' (X := 0.0898) (by rw [abs_of_nonneg] <;> norm_num) (abs_sin_le_one _)).trans (by norm_num)
  have hcl := cos_small hs8
  have hsl := sin_small hs8
  have hC := abs_cos_le_one (evpPoly (evpFel 3) t)
  generalize evpMoonPert (evpElements id t).argm = p at *
  obtain ⟨hR1, hR2⟩ := abs_le.mp hR
  have hpos : 0 < 1 + p.r := by linarith
  have hσ2 : 3.122140e-5 / (1 + p.r) ≤ 3.3673e-5 := by
    rw [div_le_iff₀ hpos]; linarith
  have hσ1 : 2.91e-5 ≤ 3.122140e-5 / (1 + p.r) := by
    rw [le_div_iff₀ hpos]; linarith
  have hσ : |3.122140e-5 / (1 + p.r)| ≤ 3.3673e-5 := by rw [abs_of_nonneg] <;> linarith
  generalize cos (8.978749e-2 * sin (evpPoly (evpFel 3) t)) = cl at *
  generalize sin (8.978749e-2 * sin (evpPoly (evpFel 3) t)) = sl at *
  generalize cos (evpPoly (evpFel 3) t) = C at *
  generalize 3.122140e-5 / (1 + p.r) = σ at *
  have hang := hΔ
  constructor
  · refine (polar_dist _ _ _ _ _ _ _ _).trans ?_
    have k1 : |-(σ * cl) - -3.12e-5| ≤ 2.62e-6 := by
      have e : -(σ * cl) - -3.12e-5 = -(σ - 3.12e-5) - σ * (cl - 1) := by ring
      rw [e]
      have k0 : |-(σ - 3.12e-5)| ≤ 2.475e-6 := by rw [abs_le]; constructor <;> linarith
      exact (abs_sub_le' k0 (abs_mul_le' hσ hcl)).trans (by norm_num)
    have k2 : |-(σ * sl) - 0| ≤ 3.03e-6 := by
      rw [sub_zero, abs_neg]
      exact (abs_mul_le' hσ hsl).trans (by norm_num)
    have q1 := sq_le_sq' (abs_le.mp k1).1 (abs_le.mp k1).2
    have q2 := sq_le_sq' (abs_le.mp k2).1 (abs_le.mp k2).2
    have a1 : sqrt ((-(σ * cl) - -3.12e-5) ^ 2 + (0 - 0) ^ 2 + (-(σ * sl) - 0) ^ 2) ≤ 4.01e-6 := by
      refine sqrt_le_of (by norm_num) ?_
      refine (add_le_add (add_le_add q1 le_rfl) q2).trans (by norm_num)
    have a2 : sqrt ((-3.12e-5 : ℝ) ^ 2 + 0 ^ 2) ≤ 3.12e-5 := sqrt_le_of (by norm_num) (le_of_eq (by ring))
    refine (add_le_add a1 (mul_le_mul hang a2 (sqrt_nonneg _) (by norm_num))).trans (by norm_num)
  · refine (polar_dist _ _ _ _ _ _ _ _).trans ?_
    obtain ⟨l1, l2⟩ := abs_le.mp hld
    have k1 : |σ * p.rd - 0| ≤ 7e-12 := by
      rw [sub_zero]; exact (abs_mul_le' hσ hrd).trans (by norm_num)
    have k2 : |-(σ * (2.661699e-6 + p.ld)) - -8.31e-11| ≤ 2e-11 := by
      rw [abs_le]; clear * - l1 l2 hσ1 hσ2; constructor <;> nlinarith
    have k3 : |-(σ * 2.399485e-7 * C) - 0| ≤ 8.1e-12 := by
      rw [sub_zero, abs_neg]
      exact (abs_mul_le' (abs_mul_le' hσ (Y := 2.399485e-7) (by rw [abs_of_nonneg]; norm_num)) hC).trans (by norm_num)
    have q1 := sq_le_sq' (abs_le.mp k1).1 (abs_le.mp k1).2
    have q2 := sq_le_sq' (abs_le.mp k2).1 (abs_le.mp k2).2
    have q3 := sq_le_sq' (abs_le.mp k3).1 (abs_le.mp k3).2
    have a1 : sqrt ((σ * p.rd - 0) ^ 2 + (-(σ * (2.661699e-6 + p.ld)) - -8.31e-11) ^ 2 + (-(σ * 2.399485e-7 * C) - 0) ^ 2) ≤ 2.28e-11 := by
      refine sqrt_le_of (by norm_num) ?_
      refine (add_le_add (add_le_add q1 q2) q3).trans (by norm_num)
    have a2 : sqrt ((0 : ℝ) ^ 2 + (-8.31e-11) ^ 2) ≤ 8.31e-11 := sqrt_le_of (by norm_num) (le_of_eq (by ring))
    refine (add_le_add a1 (mul_le_mul hang a2 (sqrt_nonneg _) (by norm_num))).trans (by norm_num)

end Sla.EvpL
