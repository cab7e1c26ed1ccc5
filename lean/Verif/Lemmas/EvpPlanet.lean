/- The planets' parts in the motion of the Sun about the barycentre according to `evp`. -/
import Verif.Lemmas.EvpMoon

noncomputable section
namespace Sla.EvpL

open Real Sla.Spec Matrix

/-- The motion due to one planet: longitude, perihelion, eccentricity, node and inclination. -/
def planet (A V lam om ε nd i : ℝ) : VectorPV :=
  let tl := lam + 2 * ε * sin (lam - om)
  ⟨polar (cos tl) (sin tl) (-(A * (1 - ε * cos (lam - om)) * cos (i * sin (lam - nd)))) 0
    (-(A * (1 - ε * cos (lam - om)) * sin (i * sin (lam - nd)))),
   polar (cos tl) (sin tl) (-(V * ε * sin (lam - om + 2 * ε * sin (lam - om))))
    (-(V * (1 + ε * cos (lam - om + 2 * ε * sin (lam - om))))) (-(V * i * cos (lam - nd)))⟩

theorem planet_eq (x : EvpElements) (k : Fin 4) : evpPlanet id x k = planet (evpPam k) (evpPamv k) (x.forbel ⟨k + 3, by omega⟩)
    (x.sorbel ⟨k + 1, by omega⟩) (x.sorbel ⟨k + 9, by omega⟩) (x.sorbel ⟨k + 5, by omega⟩) (x.sorbel ⟨k + 13, by omega⟩) := by
  rw [evpPlanet, planet]
  generalize x.forbel ⟨k + 3, _⟩ = lam
  generalize x.sorbel ⟨k + 1, _⟩ = om
  generalize x.sorbel ⟨k + 9, _⟩ = ε
  generalize x.sorbel ⟨k + 5, _⟩ = nd
  generalize x.sorbel ⟨k + 13, _⟩ = i
  have e : lam - om + 2 * ε * sin (lam - om) = lam + 2 * ε * sin (lam - om) - om := by ring
  rw [e]
  simp only [id_eq]
  generalize lam + 2 * ε * sin (lam - om) = tl
  rw [cos_sub tl om, sin_sub tl om]
  have h := cs_sq tl
  simp only [polar, VectorPV.mk.injEq]
  constructor
  · ext j; fin_cases j <;> simp only [Fin.zero_eta, Fin.mk_one, Fin.reduceFinMk, Matrix.cons_val] <;> ring
  · ext j; fin_cases j <;> simp only [Fin.zero_eta, Fin.mk_one, Fin.reduceFinMk, Matrix.cons_val]
    · linear_combination -(evpPamv k * ε * sin om) * h
    · linear_combination (evpPamv k * ε * cos om) * h

theorem sin_shift (M a : ℝ) : |sin (M + a) - sin M| ≤ |a| := by
  have := abs_sin_sub_sin_le (M + a) M
  simpa using this

theorem cos_shift (M a : ℝ) : |cos (M + a) - cos M| ≤ |a| := by
  have := abs_cos_sub_cos_le (M + a) M
  simpa using this

set_option maxHeartbeats 1000000 in
theorem planet_drift {A V E I X : ℝ} {lam om ε nd i : ℝ → ℝ} {lam' om' ε' nd' i' t : ℝ}
    (hlam : HasDerivAt lam lam' t) (hom : HasDerivAt om om' t) (hε : HasDerivAt ε ε' t) (hnd : HasDerivAt nd nd' t)
    (hi : HasDerivAt i i' t) (hA0 : 0 ≤ A) (hA : A ≤ 0.005) (hV : 0 ≤ V) (hE : |ε t| ≤ E) (hE2 : E ≤ 0.058)
    (hI : |i t| ≤ I) (hI2 : I ≤ 0.044) (hδ : |A * (lam' / cy - pr) - V| ≤ 1e-15) (hω : |pr - om' / cy| ≤ 2e-11)
    (hν : |pr - nd' / cy| ≤ 2e-11) (hε' : |ε' / cy| ≤ 1.2e-13) (hi' : |i' / cy| ≤ 1.2e-13) (hX : 0 ≤ X)
    (hle : (V * (2 * E ^ 2 + E * (I ^ 2 / 2) + 1.06 * I ^ 2) + 2e-14) ^ 2 + (V * (4 * E ^ 2 + 1.2 * (I ^ 2 / 2)) + 2e-14) ^ 2 +
      (V * (E * I + I * (E + 1.06 * (I ^ 2 / 2))) + 2e-14) ^ 2 ≤ X ^ 2) :
    Drift (fun t => planet A V (lam t) (om t) (ε t) (nd t) (i t)) t X := by
  have hcy : cy ≠ 0 := by norm_num [cy]
  have hM := hlam.sub hom
  have hN := hlam.sub hnd
  have hL := hlam.add ((hε.const_mul 2).mul hM.sin)
  have hfl := hi.mul hN.sin
  have ha := ((hε.mul hM.cos).const_sub 1).const_mul A
  have hρ := (ha.mul hfl.cos).neg
  have hγ := (ha.mul hfl.sin).neg
  refine drift_polar (fun t => rfl) rfl hL hρ hγ hX (le_trans ?_ hle)
  simp only [Pi.mul_apply, Pi.sub_apply]
  have hsM := abs_sin_le_one (lam t - om t)
  have hcM := abs_cos_le_one (lam t - om t)
  have hsN := abs_sin_le_one (lam t - nd t)
  have hcN := abs_cos_le_one (lam t - nd t)
  have hE0 : 0 ≤ E := (abs_nonneg _).trans hE
  have hI0 : 0 ≤ I := (abs_nonneg _).trans hI
  have k2 : |(2 : ℝ)| ≤ 2 := by norm_num
  have hshift : |2 * ε t * sin (lam t - om t)| ≤ 2 * E := (abs_mul_le' (abs_mul_le' k2 hE) hsM).trans (by linarith)
  have hs1 := (sin_shift (lam t - om t) (2 * ε t * sin (lam t - om t))).trans hshift
  have hc1 := (cos_shift (lam t - om t) (2 * ε t * sin (lam t - om t))).trans hshift
  have hflb : |i t * sin (lam t - nd t)| ≤ I := (abs_mul_le' hI hsN).trans (by linarith)
  have hsl := sin_small hflb
  have hcl := cos_small hflb
  have hcl1 := abs_cos_le_one (i t * sin (lam t - nd t))
  generalize sin (lam t - om t + 2 * ε t * sin (lam t - om t)) = sm at *
  generalize cos (lam t - om t + 2 * ε t * sin (lam t - om t)) = cm at *
  generalize sin (i t * sin (lam t - nd t)) = sl at *
  generalize cos (i t * sin (lam t - nd t)) = cl at *
  generalize sin (lam t - om t) = s at *
  generalize cos (lam t - om t) = c at *
  generalize sin (lam t - nd t) = sN at *
  generalize cos (lam t - nd t) = cN at *
  generalize ε t = e at *
  generalize i t = j at *
  obtain ⟨δ, hδe⟩ : ∃ δ, δ = A * (lam' / cy - pr) - V := ⟨_, rfl⟩
  obtain ⟨μ, hμe⟩ : ∃ μ, μ = A * (pr - om' / cy) := ⟨_, rfl⟩
  obtain ⟨ν, hνe⟩ : ∃ ν, ν = A * (pr - nd' / cy) := ⟨_, rfl⟩
  obtain ⟨p, hpe⟩ : ∃ p, p = A * (ε' / cy) := ⟨_, rfl⟩
  obtain ⟨q, hqe⟩ : ∃ q, q = A * (i' / cy) := ⟨_, rfl⟩
  have hAa : |A| ≤ 0.005 := by rwa [abs_of_nonneg hA0]
  have hμ : |μ| ≤ 1e-13 := by rw [hμe]; exact (abs_mul_le' hAa hω).trans (by norm_num)
  have hνb : |ν| ≤ 1e-13 := by rw [hνe]; exact (abs_mul_le' hAa hν).trans (by norm_num)
  have hp : |p| ≤ 1e-15 := by rw [hpe]; exact (abs_mul_le' hAa hε').trans (by norm_num)
  have hq : |q| ≤ 1e-15 := by rw [hqe]; exact (abs_mul_le' hAa hi').trans (by norm_num)
  rw [← hδe] at hδ
  have hVa : |V| ≤ V := by rw [abs_of_nonneg hV]
  have he : |e| ≤ 0.058 := hE.trans hE2
  have hj : |j| ≤ 0.044 := hI.trans hI2
  have hslb : |sl| ≤ 0.044 := hsl.trans hI2
  have h1e : |1 - e * c| ≤ 1.06 := (abs_sub_le' (x := 1) (X := 1) (by norm_num) (abs_mul_le' he hcM)).trans (by norm_num)
  have h1e2 : |(1 - e * c) * (1 + 2 * e * c)| ≤ 1.2 :=
    (abs_mul_le' h1e (abs_add_le' (x := 1) (X := 1) (by norm_num) (abs_mul_le' (abs_mul_le' k2 he) hcM))).trans (by norm_num)
  have h1el : |1 - e * c| ≤ 1.06 := h1e
  -- radial
  have eρ : (-(A * -(ε' * c + e * (-s * (lam' - om'))) * cl + A * (1 - e * c) * (-sl * (i' * sN + j * (cN * (lam' - nd')))))) / cy -
      -(V * e * sm) = V * (e * (sm - s) - e * s * (cl - 1) + (1 - e * c) * sl * (j * cN)) +
      (-(δ * e * s * cl) - μ * e * s * cl + p * c * cl + (1 - e * c) * sl * (j * cN * (δ + ν) + q * sN)) := by
    rw [hδe, hμe, hνe, hpe, hqe]; field_simp; ring
  have eτ : -(A * (1 - e * c) * cl) * ((lam' + (2 * ε' * s + 2 * e * (c * (lam' - om')))) / cy) - -(V * (1 + e * cm)) -
      pr * -(A * (1 - e * c) * cl) = V * (e * (cm - c) + 2 * (e * e) * (c * c) - (cl - 1) * ((1 - e * c) * (1 + 2 * e * c))) -
      (1 - e * c) * cl * (δ + 2 * p * s + 2 * e * c * (δ + μ)) := by
    rw [hδe, hμe, hpe]; field_simp; ring
  have eγ : (-(A * -(ε' * c + e * (-s * (lam' - om'))) * sl + A * (1 - e * c) * (cl * (i' * sN + j * (cN * (lam' - nd')))))) / cy -
      -(V * j * cN) = V * (-(e * s * sl) + j * cN * (e * c - (1 - e * c) * (cl - 1))) +
      (-((δ + μ) * e * s * sl) + p * c * sl - (1 - e * c) * cl * (j * cN * (δ + ν) + q * sN)) := by
    rw [hδe, hμe, hνe, hpe, hqe]; field_simp; ring
  have hδν := abs_add_le' hδ hνb
  have hδμ := abs_add_le' hδ hμ
  have hin := abs_add_le' (abs_mul_le' (abs_mul_le' hj hcN) hδν) (abs_mul_le' hq hsN)
  have n1 := abs_sub_le' (abs_mul_le' (abs_mul_le' (abs_mul_le' hδ he) hsM) hcl1) (abs_mul_le' (abs_mul_le' (abs_mul_le' hμ he) hsM) hcl1)
  have b1 : |V * (e * (sm - s) - e * s * (cl - 1) + (1 - e * c) * sl * (j * cN)) +
      (-(δ * e * s * cl) - μ * e * s * cl + p * c * cl + (1 - e * c) * sl * (j * cN * (δ + ν) + q * sN))| ≤
      V * (2 * E ^ 2 + E * (I ^ 2 / 2) + 1.06 * I ^ 2) + 2e-14 := by
    refine abs_add_le' ((abs_mul_le' hVa (abs_add_le' (abs_sub_le' (abs_mul_le' hE hs1) (abs_mul_le' (abs_mul_le' hE hsM) hcl))
      (abs_mul_le' (abs_mul_le' h1e hsl) (abs_mul_le' hI hcN)))).trans (le_of_eq (by ring))) ?_
    refine (abs_add_le' (abs_add_le' (abs_sub_le' ((abs_neg _).trans_le (abs_mul_le' (abs_mul_le' (abs_mul_le' hδ he) hsM) hcl1))
      (abs_mul_le' (abs_mul_le' (abs_mul_le' hμ he) hsM) hcl1)) (abs_mul_le' (abs_mul_le' hp hcM) hcl1))
      (abs_mul_le' (abs_mul_le' h1e hslb) hin)).trans (by norm_num)
  have b2 : |V * (e * (cm - c) + 2 * (e * e) * (c * c) - (cl - 1) * ((1 - e * c) * (1 + 2 * e * c))) -
      (1 - e * c) * cl * (δ + 2 * p * s + 2 * e * c * (δ + μ))| ≤ V * (4 * E ^ 2 + 1.2 * (I ^ 2 / 2)) + 2e-14 := by
    refine abs_sub_le' ((abs_mul_le' hVa (abs_sub_le' (abs_add_le' (abs_mul_le' hE hc1)
      (abs_mul_le' (abs_mul_le' k2 (abs_mul_le' hE hE)) (abs_mul_le' hcM hcM))) (abs_mul_le' hcl h1e2))).trans (le_of_eq (by ring))) ?_
    exact (abs_mul_le' (abs_mul_le' h1e hcl1) (abs_add_le' (abs_add_le' hδ (abs_mul_le' (abs_mul_le' k2 hp) hsM))
      (abs_mul_le' (abs_mul_le' (abs_mul_le' k2 he) hcM) hδμ))).trans (by norm_num)
  have b3 : |V * (-(e * s * sl) + j * cN * (e * c - (1 - e * c) * (cl - 1))) +
      (-((δ + μ) * e * s * sl) + p * c * sl - (1 - e * c) * cl * (j * cN * (δ + ν) + q * sN))| ≤
      V * (E * I + I * (E + 1.06 * (I ^ 2 / 2))) + 2e-14 := by
    refine abs_add_le' ((abs_mul_le' hVa (abs_add_le' ((abs_neg _).trans_le (abs_mul_le' (abs_mul_le' hE hsM) hsl))
      (abs_mul_le' (abs_mul_le' hI hcN) (abs_sub_le' (abs_mul_le' hE hcM) (abs_mul_le' h1e hcl))))).trans (le_of_eq (by ring))) ?_
    exact (abs_sub_le' (abs_add_le' ((abs_neg _).trans_le (abs_mul_le' (abs_mul_le' (abs_mul_le' hδμ he) hsM) hslb))
      (abs_mul_le' (abs_mul_le' hp hcM) hslb)) (abs_mul_le' (abs_mul_le' h1e hcl1) hin)).trans (by norm_num)
  rw [← eρ] at b1
  rw [← eτ] at b2
  rw [← eγ] at b3
  have q1 := sq_le_sq' (abs_le.mp b1).1 (abs_le.mp b1).2
  have q2 := sq_le_sq' (abs_le.mp b2).1 (abs_le.mp b2).2
  have q3 := sq_le_sq' (abs_le.mp b3).1 (abs_le.mp b3).2
  linarith

theorem planet_size {A V E I lam om ε nd i : ℝ} (hA : 0 ≤ A) (hV : 0 ≤ V) (hE : |ε| ≤ E) (hI : |i| ≤ I) :
    len (planet A V lam om ε nd i).pos ≤ A * (1 + E) ∧ len (planet A V lam om ε nd i).vel ≤ V * (1 + E + I) := by
  have hE0 : 0 ≤ E := (abs_nonneg _).trans hE
  have hI0 : 0 ≤ I := (abs_nonneg _).trans hI
  have hcM := abs_cos_le_one (lam - om)
  constructor
  · refine len_polar_le (cs_sq _) (by positivity) ?_
    have h := abs_sub_le' (x := 1) (X := 1) (by norm_num) (abs_mul_le' hE hcM)
    rw [mul_one] at h
    have h2 := sq_le_sq' (abs_le.mp h).1 (abs_le.mp h).2
    have e : (-(A * (1 - ε * cos (lam - om)) * cos (i * sin (lam - nd)))) ^ 2 + 0 ^ 2 +
        (-(A * (1 - ε * cos (lam - om)) * sin (i * sin (lam - nd)))) ^ 2 = A ^ 2 * (1 - ε * cos (lam - om)) ^ 2 := by
      linear_combination (A ^ 2 * (1 - ε * cos (lam - om)) ^ 2) * cs_sq (i * sin (lam - nd))
    rw [e, mul_pow]
    exact mul_le_mul_of_nonneg_left h2 (sq_nonneg A)
  · refine len_polar_le (cs_sq _) (by positivity) ?_
    have hcs := cs_sq (lam - om + 2 * ε * sin (lam - om))
    have hc := abs_cos_le_one (lam - om + 2 * ε * sin (lam - om))
    have hcN := abs_cos_le_one (lam - nd)
    generalize cos (lam - om + 2 * ε * sin (lam - om)) = c at *
    generalize sin (lam - om + 2 * ε * sin (lam - om)) = s at *
    have b3 := abs_mul_le' hI hcN
    rw [mul_one] at b3
    have q3 := sq_le_sq' (abs_le.mp b3).1 (abs_le.mp b3).2
    have b2 := abs_mul_le' hE hc
    rw [mul_one] at b2
    have q2 := sq_le_sq' (abs_le.mp hE).1 (abs_le.mp hE).2
    have e : (-(V * ε * s)) ^ 2 + (-(V * (1 + ε * c))) ^ 2 + (-(V * i * cos (lam - nd))) ^ 2 =
        V ^ 2 * (1 + 2 * (ε * c) + ε ^ 2 + (i * cos (lam - nd)) ^ 2) := by
      linear_combination (V ^ 2 * ε ^ 2) * hcs
    rw [e, mul_pow V]
    refine mul_le_mul_of_nonneg_left ?_ (sq_nonneg V)
    have := (abs_le.mp b2).2
    nlinarith [mul_nonneg hE0 hI0]

/-! ### The four planets -/

def planetAt (k : Fin 4) (t : ℝ) : VectorPV := evpPlanet id (evpElements id t) k

theorem planetAt_eq (k : Fin 4) (t : ℝ) : planetAt k t = planet (evpPam k) (evpPamv k) (evpPoly (evpFel ⟨k + 4, by omega⟩) t)
    (evpPoly (evpSel ⟨k + 1, by omega⟩) t) (evpPoly (evpSel ⟨k + 9, by omega⟩) t) (evpPoly (evpSel ⟨k + 5, by omega⟩) t)
    (evpPoly (evpSel ⟨k + 13, by omega⟩) t) := by
  rw [planetAt, planet_eq]; rfl

def maxE : Fin 4 → ℝ := ![0.0492, 0.0577, 0.0466, 0.0091]
def maxI : Fin 4 → ℝ := ![0.0234, 0.0439, 0.0136, 0.0319]

theorem pam_range (k : Fin 4) : 0 ≤ evpPam k ∧ evpPam k ≤ 0.005 ∧ 0 ≤ evpPamv k := by
  fin_cases k <;> simp [evpPam, evpPamv] <;> norm_num

theorem ecc_le (k : Fin 4) {t : ℝ} (ht : |t| ≤ 5) : |evpPoly (evpSel ⟨k + 9, by omega⟩) t| ≤ maxE k := by
  obtain ⟨h1, h2⟩ := abs_le.mp ht
  have h3 : t * t ≤ 25 := by nlinarith
  have h4 := mul_self_nonneg t
  rw [abs_le]
  fin_cases k <;> simp [evpPoly, evpSel, maxE] <;> constructor <;> nlinarith

theorem inc_le (k : Fin 4) {t : ℝ} (ht : |t| ≤ 5) : |evpPoly (evpSel ⟨k + 13, by omega⟩) t| ≤ maxI k := by
  obtain ⟨h1, h2⟩ := abs_le.mp ht
  have h3 : t * t ≤ 25 := by nlinarith
  have h4 := mul_self_nonneg t
  rw [abs_le]
  fin_cases k <;> simp [evpPoly, evpSel, maxI] <;> constructor <;> nlinarith

theorem planetAt_drift (k : Fin 4) {t : ℝ} (ht : |t| ≤ 5) :
    Drift (planetAt k) t (![1e-12, 3.7e-13, 6e-14, 4e-14] k) := by
  obtain ⟨h1, h2⟩ := abs_le.mp ht
  obtain ⟨hA0, hA, hV⟩ := pam_range k
  have e : planetAt k = fun t => planet (evpPam k) (evpPamv k) (evpPoly (evpFel ⟨k + 4, by omega⟩) t)
    (evpPoly (evpSel ⟨k + 1, by omega⟩) t) (evpPoly (evpSel ⟨k + 9, by omega⟩) t) (evpPoly (evpSel ⟨k + 5, by omega⟩) t)
    (evpPoly (evpSel ⟨k + 13, by omega⟩) t) := funext fun t => planetAt_eq k t
  rw [e]
  refine planet_drift (poly_deriv _ t) (poly_deriv _ t) (poly_deriv _ t) (poly_deriv _ t) (poly_deriv _ t) hA0 hA hV (ecc_le k ht) ?_
    (inc_le k ht) ?_ ?_ ?_ ?_ ?_ ?_ ?_ ?_
  · fin_cases k <;> simp [maxE] <;> norm_num
  · fin_cases k <;> simp [maxI] <;> norm_num
  · rw [abs_le]; fin_cases k <;> simp [evpPam, evpPamv, evpFel, cy, pr] <;> constructor <;> norm_num <;> linarith
  · rw [abs_le]; fin_cases k <;> simp [evpSel, cy, pr] <;> constructor <;> norm_num <;> linarith
  · rw [abs_le]; fin_cases k <;> simp [evpSel, cy, pr] <;> constructor <;> norm_num <;> linarith
  · rw [abs_le]; fin_cases k <;> simp [evpSel, cy, pr] <;> constructor <;> norm_num <;> linarith
  · rw [abs_le]; fin_cases k <;> simp [evpSel, cy, pr] <;> constructor <;> norm_num <;> linarith
  · fin_cases k <;> simp <;> norm_num
  · fin_cases k <;> simp [evpPamv, maxE, maxI] <;> norm_num

theorem planetAt_size (k : Fin 4) {t : ℝ} (ht : |t| ≤ 5) : len (planetAt k t).pos ≤ ![5.206e-3, 2.885e-3, 8.79e-4, 1.572e-3] k ∧
    len (planetAt k t).vel ≤ ![8.94e-11, 2.04e-11, 2.2e-12, 2e-12] k := by
  obtain ⟨hA0, hA, hV⟩ := pam_range k
  obtain ⟨h1, h2⟩ := planet_size (lam := evpPoly (evpFel ⟨k + 4, by omega⟩) t) (om := evpPoly (evpSel ⟨k + 1, by omega⟩) t)
    (nd := evpPoly (evpSel ⟨k + 5, by omega⟩) t) hA0 hV (ecc_le k ht) (inc_le k ht)
  rw [planetAt_eq]
  refine ⟨h1.trans ?_, h2.trans ?_⟩
  · fin_cases k <;> simp [evpPam, maxE] <;> norm_num
  · fin_cases k <;> simp [evpPamv, maxE, maxI] <;> norm_num

/-! ### Motion of the Earth in the ecliptic frame -/

def eclAt (t : ℝ) : EarthPV := evpEcliptic id t (evpElements id t)

theorem helio_eq (t : ℝ) : (eclAt t).hpos = (embAt t).pos + (moonAt t).pos ∧ (eclAt t).hvelo = (embAt t).vel + (moonAt t).vel :=
  ⟨rfl, rfl⟩

theorem planets_eq (v : Vec) (f : Fin 4 → Vec) : evpPlanets v f = v + f 0 + f 1 + f 2 + f 3 := rfl

theorem helio_drift {t : ℝ} (ht : |t| ≤ 5) : Drift (fun t => ⟨(eclAt t).hpos, (eclAt t).hvelo⟩) t 2.52e-12 :=
  ((emb_drift ht).add (moon_drift ht)).mono (by norm_num)

theorem bary_drift {t : ℝ} (ht : |t| ≤ 5) : Drift (fun t => ⟨(eclAt t).bpos, (eclAt t).bvelo⟩) t 3.99e-12 := by
  have h := ((((((helio_drift ht).smul 0.99999696).add (planetAt_drift 0 ht)).add (planetAt_drift 1 ht)).add (planetAt_drift 2 ht)).add
    (planetAt_drift 3 ht))
  refine Drift.mono h ?_
  simp
  norm_num [abs_of_nonneg]

theorem helio_size {t : ℝ} (ht : |t| ≤ 5) : 0.98292 ≤ len (eclAt t).hpos ∧ len (eclAt t).hpos ≤ 1.01708 ∧
    1.954e-7 ≤ len (eclAt t).hvelo ∧ len (eclAt t).hvelo ≤ 2.028e-7 := by
  obtain ⟨h1, h2, h3, h4⟩ := emb_size ht
  obtain ⟨h5, h6⟩ := moon_size t
  rw [(helio_eq t).1, (helio_eq t).2]
  have t1 := len_add_le (embAt t).pos (moonAt t).pos
  have t2 := len_add_le (embAt t).vel (moonAt t).vel
  have t3 := len_add_le ((embAt t).pos + (moonAt t).pos) (-(moonAt t).pos)
  have t4 := len_add_le ((embAt t).vel + (moonAt t).vel) (-(moonAt t).vel)
  rw [add_neg_cancel_right, Props.len_neg] at t3 t4
  refine ⟨?_, ?_, ?_, ?_⟩ <;> linarith

theorem bary_size {t : ℝ} (ht : |t| ≤ 5) : len ((eclAt t).bpos - (eclAt t).hpos) ≤ 0.01055 ∧
    len ((eclAt t).bvelo - (eclAt t).hvelo) ≤ 1.15e-10 := by
  obtain ⟨-, h2, -, h4⟩ := helio_size ht
  have p0 := planetAt_size 0 ht
  have p1 := planetAt_size 1 ht
  have p2 := planetAt_size 2 ht
  have p3 := planetAt_size 3 ht
  simp only [Matrix.cons_val] at p0 p1 p2 p3
  have e1 : (eclAt t).bpos - (eclAt t).hpos = (-3.04e-6 : ℝ) • (eclAt t).hpos + (planetAt 0 t).pos + (planetAt 1 t).pos +
      (planetAt 2 t).pos + (planetAt 3 t).pos := by
    have : (eclAt t).bpos = (0.99999696 : ℝ) • (eclAt t).hpos + (planetAt 0 t).pos + (planetAt 1 t).pos +
      (planetAt 2 t).pos + (planetAt 3 t).pos := rfl
    rw [this]; ext i; simp only [Pi.add_apply, Pi.sub_apply, Pi.smul_apply, smul_eq_mul]; ring
  have e2 : (eclAt t).bvelo - (eclAt t).hvelo = (-3.04e-6 : ℝ) • (eclAt t).hvelo + (planetAt 0 t).vel + (planetAt 1 t).vel +
      (planetAt 2 t).vel + (planetAt 3 t).vel := by
    have : (eclAt t).bvelo = (0.99999696 : ℝ) • (eclAt t).hvelo + (planetAt 0 t).vel + (planetAt 1 t).vel +
      (planetAt 2 t).vel + (planetAt 3 t).vel := rfl
    rw [this]; ext i; simp only [Pi.add_apply, Pi.sub_apply, Pi.smul_apply, smul_eq_mul]; ring
  have k : |(-3.04e-6 : ℝ)| = 3.04e-6 := by rw [abs_of_nonpos] <;> norm_num
  rw [e1, e2]
  constructor
  · refine (len_add_le _ _).trans ((add_le_add ((len_add_le _ _).trans (add_le_add ((len_add_le _ _).trans (add_le_add ((len_add_le _ _).trans
      (add_le_add (by rw [len_smul, k]) p0.1)) p1.1)) p2.1)) p3.1).trans ?_)
    linarith
  · refine (len_add_le _ _).trans ((add_le_add ((len_add_le _ _).trans (add_le_add ((len_add_le _ _).trans (add_le_add ((len_add_le _ _).trans
      (add_le_add (by rw [len_smul, k]) p0.2)) p1.2)) p2.2)) p3.2).trans ?_)
    linarith

end Sla.EvpL
