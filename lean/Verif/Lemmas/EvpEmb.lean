/- The Earth-Moon barycentre in `evp`: size of the motion, and the velocity as the rate of the position. -/
import Verif.Lemmas.EvpPert

noncomputable section
namespace Sla.EvpL

open Real Sla.Spec Matrix

/-- Rate of the general precession in longitude, radians per second. -/
def pr : ℝ := 7.68e-12

/-- The velocity of `P` is its rate of change (per second, the argument being in centuries) except for the turning of the
    equinox and a remainder of at most `ε`. -/
def Drift (P : ℝ → VectorPV) (t ε : ℝ) : Prop := ∃ d : Vec, HasDerivAt (fun t => (P t).pos) (cy • d) t ∧
  len (d - (P t).vel - pr • zcross (P t).pos) ≤ ε

theorem Drift.add {P Q : ℝ → VectorPV} {t ε δ : ℝ} (hP : Drift P t ε) (hQ : Drift Q t δ) :
    Drift (fun t => ⟨(P t).pos + (Q t).pos, (P t).vel + (Q t).vel⟩) t (ε + δ) := by
  obtain ⟨d, h1, h2⟩ := hP
  obtain ⟨d', h1', h2'⟩ := hQ
  refine ⟨d + d', (h1.add h1').congr_deriv (by rw [smul_add]), ?_⟩
  have : d + d' - ((P t).vel + (Q t).vel) - pr • zcross ((P t).pos + (Q t).pos) =
      (d - (P t).vel - pr • zcross (P t).pos) + (d' - (Q t).vel - pr • zcross (Q t).pos) := by
    rw [zcross_add, smul_add]; abel
  rw [this]
  exact (len_add_le _ _).trans (add_le_add h2 h2')

theorem Drift.smul {P : ℝ → VectorPV} {t ε : ℝ} (k : ℝ) (hP : Drift P t ε) :
    Drift (fun t => ⟨k • (P t).pos, k • (P t).vel⟩) t (|k| * ε) := by
  obtain ⟨d, h1, h2⟩ := hP
  refine ⟨k • d, (h1.const_smul k).congr_deriv (smul_comm _ _ _), ?_⟩
  have : k • d - k • (P t).vel - pr • zcross (k • (P t).pos) = k • (d - (P t).vel - pr • zcross (P t).pos) := by
    rw [zcross_smul, smul_sub, smul_sub, smul_comm]
  rw [this, len_smul]
  exact mul_le_mul_of_nonneg_left h2 (abs_nonneg k)

theorem Drift.mono {P : ℝ → VectorPV} {t ε δ : ℝ} (hP : Drift P t ε) (h : ε ≤ δ) : Drift P t δ := by
  obtain ⟨d, h1, h2⟩ := hP
  exact ⟨d, h1, h2.trans h⟩

/-! ### Elliptic motion -/

/-- Factors of the elliptic motion with eccentricity `e` and true anomaly `f`. -/
theorem ell_bounds {e : ℝ} (he0 : 0 ≤ e) (he : e ≤ 0.017) (f : ℝ) :
    0 < 1 + e * cos f ∧ 0.983 ≤ 1 + e * cos f ∧ 1 - e ≤ (1 - e * e) / (1 + e * cos f) ∧
    (1 - e * e) / (1 + e * cos f) ≤ 1 + e := by
  have h1 := neg_one_le_cos f
  have h2 := cos_le_one f
  have h3 : 0.983 ≤ 1 + e * cos f := by nlinarith
  have h4 : 0 < 1 + e * cos f := by linarith
  refine ⟨h4, h3, ?_, ?_⟩
  · rw [le_div_iff₀ h4]; nlinarith [mul_nonneg he0 (sub_nonneg.2 h2)]
  · rw [div_le_iff₀ h4]; nlinarith [mul_nonneg he0 (by linarith : (0 : ℝ) ≤ 1 + cos f)]

theorem kep_ident' (e f : ℝ) : 1 + kep e f = (1 + e * cos f) ^ 2 * (1 + 1.5 * e ^ 2) - 1.5 * e ^ 4 * cos f ^ 2 := by
  rw [kep_eq]; ring

theorem inv_sqrt_bound {q : ℝ} (h0 : 0 ≤ q) (h1 : q ≤ 0.000289) : |1 / sqrt (1 - q) - (1 + q / 2)| ≤ 1e-7 := by
  have hs := Real.sqrt_nonneg (1 - q)
  have hsq := Real.sq_sqrt (by linarith : 0 ≤ 1 - q)
  set s := sqrt (1 - q)
  have hs1 : s ≤ 1 - q / 2 := by nlinarith
  have hs2 : 1 - q / 2 - q ^ 2 / 4 ≤ s := by
    by_contra h
    push Not at h
    have h2 : s ^ 2 < (1 - q / 2 - q ^ 2 / 4) ^ 2 := by nlinarith
    nlinarith [sq_nonneg q, mul_nonneg h0 (sq_nonneg q), mul_nonneg h0 (mul_nonneg h0 (sq_nonneg q)), mul_nonneg (sub_nonneg.2 h1) (sq_nonneg q)]
  have hs3 : 0.99 ≤ s := by nlinarith
  have hpos : 0 < s := by linarith
  have e1 : 1 / s - (1 + q / 2) = (1 - s * (1 + q / 2)) / s := by field_simp
  have hq2 : q ^ 2 ≤ 8.4e-8 := by nlinarith
  rw [e1, abs_div, abs_of_pos hpos, div_le_iff₀ hpos, abs_le]
  constructor <;> nlinarith [sq_nonneg q, mul_nonneg h0 (sq_nonneg q)]

/-- `phi'` and `psi'` in terms of the rates of the eccentricity and of the mean anomaly. -/
def phiRate (e g e' g' : ℝ) : ℝ := phiG e g * g' + phiE e g * e'

def psiRate (e g e' g' : ℝ) : ℝ :=
  -(2 * e * e') / (1 + e * cos (g + evpPhi e g)) -
    (1 - e * e) * (e' * cos (g + evpPhi e g) - e * sin (g + evpPhi e g) * (g' + phiRate e g e' g')) /
      (1 + e * cos (g + evpPhi e g)) ^ 2

theorem psi_deriv {e g : ℝ → ℝ} {e' g' t : ℝ} (he : HasDerivAt e e' t) (hg : HasDerivAt g g' t)
    (hne : 1 + e t * cos (g t + evpPhi (e t) (g t)) ≠ 0) :
    HasDerivAt (fun t => (1 - e t * e t) / (1 + e t * cos (g t + evpPhi (e t) (g t)))) (psiRate (e t) (g t) e' g') t := by
  have hphi := phi_deriv he hg
  have hf := hg.add hphi
  have := ((he.mul he).const_sub 1).div ((he.mul hf.cos).const_add 1) hne
  refine this.congr_deriv ?_
  simp only [Pi.add_apply, Pi.mul_apply, psiRate, phiRate]
  field_simp
  ring

theorem phid_err {e g e' g' : ℝ} (he0 : 0 ≤ e) (he : e ≤ 0.017) (he' : |e'| ≤ 1.4e-14) (hg' : |g' - 1.990969e-7| ≤ 4e-14) :
    |phiRate e g e' g' - 1.990969e-7 * kep e (g + evpPhi e g)| ≤ 2.2e-13 ∧ |kep e (g + evpPhi e g)| ≤ 0.0349 ∧
    |phiG e g| ≤ 0.035 := by
  have hk := kepler he0 he g
  have hE := phiE_bound he0 he g
  have hkb : |kep e (g + evpPhi e g)| ≤ 0.0349 := by
    have ha : |e| ≤ 0.017 := by rwa [abs_of_nonneg he0]
    have hs : |1.25 - sin (g + evpPhi e g) * sin (g + evpPhi e g) * 0.5| ≤ 1.25 := by
      have h1 := sin_sq_le_one (g + evpPhi e g)
      have h2 := sq_nonneg (sin (g + evpPhi e g))
      rw [abs_le]; constructor <;> nlinarith
    have h15 : |1 + e * e * 1.5| ≤ 1.0005 := by
      rw [abs_of_nonneg (by positivity)]; nlinarith
    exact (abs_mul_le' (abs_add_le' ha ha) (abs_add_le' (abs_mul_le' h15 (abs_cos_le_one _)) (abs_mul_le' ha hs))).trans (by norm_num)
  have hG : |phiG e g| ≤ 0.035 := by
    have : phiG e g = (phiG e g - kep e (g + evpPhi e g)) + kep e (g + evpPhi e g) := by ring
    rw [this]; exact (abs_add_le' hk hkb).trans (by norm_num)
  refine ⟨?_, hkb, hG⟩
  have : phiRate e g e' g' - 1.990969e-7 * kep e (g + evpPhi e g) =
      phiG e g * (g' - 1.990969e-7) + 1.990969e-7 * (phiG e g - kep e (g + evpPhi e g)) + phiE e g * e' := by
    rw [phiRate]; ring
  rw [this]
  exact (abs_add_le' (abs_add_le' (abs_mul_le' hG hg') (abs_mul_le' (x := 1.990969e-7) (X := 2e-7) (by rw [abs_le]; norm_num) hk))
    (abs_mul_le' hE he')).trans (by norm_num)

theorem psid_err {e g e' g' : ℝ} (he0 : 0 ≤ e) (he : e ≤ 0.017) (he' : |e'| ≤ 1.4e-14) (hg' : |g' - 1.990969e-7| ≤ 4e-14) :
    |psiRate e g e' g' - 1.990969e-7 * e * sin (g + evpPhi e g) / sqrt (1 - e * e)| ≤ 3e-14 := by
  obtain ⟨hp, hkb, hG⟩ := phid_err (g := g) he0 he he' hg'
  obtain ⟨hpos, hlo, hψ1, hψ2⟩ := ell_bounds he0 he (g + evpPhi e g)
  have hid := kep_ident' e (g + evpPhi e g)
  have hq0 : 0 ≤ e * e := mul_self_nonneg e
  have hq1 : e * e ≤ 0.000289 := by nlinarith
  have hinv := inv_sqrt_bound hq0 hq1
  have hS := abs_sin_le_one (g + evpPhi e g)
  have hC := abs_cos_le_one (g + evpPhi e g)
  have ha : |e| ≤ 0.017 := by rwa [abs_of_nonneg he0]
  rw [psiRate]
  generalize phiRate e g e' g' = P at *
  generalize kep e (g + evpPhi e g) = K at *
  generalize sin (g + evpPhi e g) = s at *
  generalize cos (g + evpPhi e g) = c at *
  generalize sqrt (1 - e * e) = w at *
  obtain ⟨D, hD⟩ : ∃ D, D = 1 + e * c := ⟨_, rfl⟩
  rw [← hD] at hpos hlo hψ1 hψ2 hid ⊢
  have hiD : |1 / D| ≤ 1.02 := by
    rw [abs_of_pos (by positivity), div_le_iff₀ hpos]; linarith
  have hψ : |(1 - e * e) / D| ≤ 1.017 := by
    rw [abs_of_nonneg (by linarith)]; linarith
  -- the ratio of the two rates
  have hr : (1 - e * e) * (1 + K) / D ^ 2 - 1 / w = -1.5 * (e * e) ^ 2 - 1.5 * (e * e) ^ 2 * c ^ 2 * ((1 - e * e) / D) * (1 / D) -
      (1 / w - (1 + e * e / 2)) := by
    rw [hid]; field_simp; ring
  have hee : |(e * e) ^ 2| ≤ 8.4e-8 := by rw [abs_of_nonneg (by positivity)]; nlinarith
  have hc2 : |c ^ 2| ≤ 1 := by rw [abs_pow]; exact pow_le_one₀ (abs_nonneg _) hC
  have k15 : |(1.5 : ℝ)| ≤ 1.5 := by rw [abs_le]; norm_num
  have k15' : |(-1.5 : ℝ)| ≤ 1.5 := by rw [abs_le]; norm_num
  have hrb : |(1 - e * e) * (1 + K) / D ^ 2 - 1 / w| ≤ 4e-7 := by
    rw [hr]
    exact (abs_sub_le' (abs_sub_le' (abs_mul_le' k15' hee)
      (abs_mul_le' (abs_mul_le' (abs_mul_le' (abs_mul_le' k15 hee) hc2) hψ) hiD)) hinv).trans (by norm_num)
  have key : -(2 * e * e') / D - (1 - e * e) * (e' * c - e * s * (g' + P)) / D ^ 2 - 1.990969e-7 * e * s / w =
      e' * (-2 * e * (1 / D) - (1 - e * e) / D * (1 / D) * c) +
      e * s * ((1 - e * e) / D * (1 / D)) * ((g' - 1.990969e-7) + (P - 1.990969e-7 * K)) +
      1.990969e-7 * e * s * ((1 - e * e) * (1 + K) / D ^ 2 - 1 / w) := by
    field_simp; ring
  rw [key]
  have k2' : |(-2 : ℝ)| ≤ 2 := by norm_num
  have kν : |(1.990969e-7 : ℝ)| ≤ 2e-7 := by rw [abs_le]; norm_num
  refine (abs_add_le' (abs_add_le' (abs_mul_le' he' (abs_sub_le' (abs_mul_le' (abs_mul_le' k2' ha) hiD) (abs_mul_le' (abs_mul_le' hψ hiD) hC)))
    (abs_mul_le' (abs_mul_le' (abs_mul_le' ha hS) (abs_mul_le' hψ hiD)) (abs_add_le' hg' hp)))
    (abs_mul_le' (abs_mul_le' (abs_mul_le' kν ha) hS) hrb)).trans ?_
  norm_num

/-! ### The motion of the barycentre -/

theorem emb_polar (e g dml : ℝ) (p : EvpPert) : evpEmb id e g dml p =
    ⟨polar (cos (dml + evpPhi e g + p.l)) (sin (dml + evpPhi e g + p.l))
      ((1 - e * e) / (1 + e * cos (g + evpPhi e g)) * (1 + p.r)) 0 0,
     polar (cos (dml + evpPhi e g + p.l)) (sin (dml + evpPhi e g + p.l))
      ((1 + p.r) * (1.990969e-7 * e * sin (g + evpPhi e g) / sqrt (1 - e * e) +
        (1 - e * e) / (1 + e * cos (g + evpPhi e g)) * p.rd))
      ((1 + p.r) * ((1 - e * e) / (1 + e * cos (g + evpPhi e g))) *
        (1.990987e-7 + 1.990969e-7 * kep e (g + evpPhi e g) + p.ld)) 0⟩ := by
  simp only [evpEmb, polar, id_eq, zero_mul, sub_zero, add_zero, VectorPV.mk.injEq, true_and, kep]
  ext i; fin_cases i <;> simp only [Fin.zero_eta, Fin.mk_one, Fin.reduceFinMk, Matrix.cons_val] <;> ring

theorem ecc_range {t : ℝ} (ht : |t| ≤ 5) : 0 ≤ evpPoly (evpSel 0) t ∧ evpPoly (evpSel 0) t ≤ 0.01697 ∧
    |(evpSel 0 1 + 2 * t * evpSel 0 2) / cy| ≤ 1.4e-14 ∧ |(evpFel 1 1 + 2 * t * evpFel 1 2) / cy - 1.990969e-7| ≤ 4e-14 ∧
    |(evpFel 0 1 + 2 * t * evpFel 0 2) / cy - pr - 1.990987e-7| ≤ 2e-14 := by
  obtain ⟨h1, h2⟩ := abs_le.mp ht
  have e1 : evpSel 0 0 = 1.675104e-2 := rfl
  have e2 : evpSel 0 1 = -4.179579e-5 := rfl
  have e3 : evpSel 0 2 = -1.260516e-7 := rfl
  have f1 : evpFel 1 1 = 6.2830194572674e2 := rfl
  have f2 : evpFel 1 2 = -2.6180e-6 := rfl
  have g1 : evpFel 0 1 = 6.2833195099091e2 := rfl
  have g2 : evpFel 0 2 = 5.2796e-6 := rfl
  rw [evpPoly, e1, e2, e3, f1, f2, g1, g2, cy, pr]
  refine ⟨?_, ?_, ?_, ?_, ?_⟩
  · nlinarith
  · nlinarith [mul_self_nonneg t]
  all_goals rw [abs_le]; constructor <;> norm_num <;> linarith

theorem len_polar_le {c s ρ τ γ X : ℝ} (h : c ^ 2 + s ^ 2 = 1) (hX : 0 ≤ X) (hle : ρ ^ 2 + τ ^ 2 + γ ^ 2 ≤ X ^ 2) :
    len (polar c s ρ τ γ) ≤ X := by
  rw [polar_len h]; exact Real.sqrt_le_iff.2 ⟨hX, hle⟩

theorem drift_polar {P : ℝ → VectorPV} {L ρ γ : ℝ → ℝ} {L' ρ' γ' t vρ vτ vγ X : ℝ}
    (hP : ∀ t, (P t).pos = polar (cos (L t)) (sin (L t)) (ρ t) 0 (γ t))
    (hv : (P t).vel = polar (cos (L t)) (sin (L t)) vρ vτ vγ)
    (hL : HasDerivAt L L' t) (hρ : HasDerivAt ρ ρ' t) (hγ : HasDerivAt γ γ' t) (hX : 0 ≤ X)
    (hle : (ρ' / cy - vρ) ^ 2 + (ρ t * (L' / cy) - vτ - pr * ρ t) ^ 2 + (γ' / cy - vγ) ^ 2 ≤ X ^ 2) : Drift P t X := by
  have hcy : cy ≠ 0 := by norm_num [cy]
  have hD := polar_deriv hL hρ hγ
  refine ⟨polar (cos (L t)) (sin (L t)) (ρ' / cy) (ρ t * (L' / cy)) (γ' / cy), (hD.congr_deriv ?_).congr_of_eventuallyEq ?_, ?_⟩
  · rw [polar_smul]; congr 1 <;> field_simp
  · exact Filter.Eventually.of_forall hP
  · rw [hP t, hv, zcross_polar, polar_smul, polar_sub, polar_sub]
    refine len_polar_le (cs_sq _) hX (le_trans (le_of_eq ?_) hle)
    ring

def embAt (t : ℝ) : VectorPV := evpEmb id (evpPoly (evpSel 0) t) (evpPoly (evpFel 1) t) (evpPoly (evpFel 0) t)
  (evpPert t (evpElements id t).sec (evpElements id t).args)

theorem emb_drift {t : ℝ} (ht : |t| ≤ 5) : Drift embAt t 1.28e-12 := by
  obtain ⟨l', r', hl, hr, hle, hre⟩ := pert_deriv ht
  obtain ⟨hR, hrd, hld⟩ := pert_bounds t (evpElements id t).sec (evpElements id t).args
  obtain ⟨he0, he, he', hg', hd'⟩ := ecc_range ht
  have hcy : cy ≠ 0 := by norm_num [cy]
  have he1 : evpPoly (evpSel 0) t ≤ 0.017 := he.trans (by norm_num)
  have hep := poly_deriv (evpSel 0) t
  have hgp := poly_deriv (evpFel 1) t
  have hdp := poly_deriv (evpFel 0) t
  obtain ⟨hpos, hlo, hψ1, hψ2⟩ := ell_bounds he0 he1 (evpPoly (evpFel 1) t + evpPhi (evpPoly (evpSel 0) t) (evpPoly (evpFel 1) t))
  have hphi := phi_deriv hep hgp
  have hpsi := psi_deriv hep hgp hpos.ne'
  obtain ⟨hφe, hkb, -⟩ := phid_err (g := evpPoly (evpFel 1) t) he0 he1 he' hg'
  have hψe := psid_err (g := evpPoly (evpFel 1) t) he0 he1 he' hg'
  have hL := (hdp.add hphi).add hl
  have hρ := hpsi.mul (hr.const_add 1)
  refine drift_polar (fun t => by rw [embAt, emb_polar]; rfl) (by rw [embAt, emb_polar]; rfl) hL hρ (hasDerivAt_const t (0 : ℝ))
    (by norm_num) ?_
  have hν : phiRate (evpPoly (evpSel 0) t) (evpPoly (evpFel 1) t) ((evpSel 0 1 + 2 * t * evpSel 0 2) / cy)
      ((evpFel 1 1 + 2 * t * evpFel 1 2) / cy) = (phiG (evpPoly (evpSel 0) t) (evpPoly (evpFel 1) t) *
        (evpFel 1 1 + 2 * t * evpFel 1 2) + phiE (evpPoly (evpSel 0) t) (evpPoly (evpFel 1) t) * (evpSel 0 1 + 2 * t * evpSel 0 2)) / cy := by
    rw [phiRate]; field_simp
  have hν2 : psiRate (evpPoly (evpSel 0) t) (evpPoly (evpFel 1) t) ((evpSel 0 1 + 2 * t * evpSel 0 2) / cy)
      ((evpFel 1 1 + 2 * t * evpFel 1 2) / cy) = psiRate (evpPoly (evpSel 0) t) (evpPoly (evpFel 1) t)
        (evpSel 0 1 + 2 * t * evpSel 0 2) (evpFel 1 1 + 2 * t * evpFel 1 2) / cy := by
    simp only [psiRate, phiRate]; field_simp
  rw [hν] at hφe
  rw [hν2] at hψe
  simp only [Pi.mul_apply]
  generalize psiRate (evpPoly (evpSel 0) t) (evpPoly (evpFel 1) t) (evpSel 0 1 + 2 * t * evpSel 0 2) (evpFel 1 1 + 2 * t * evpFel 1 2) = Ψ at *
  generalize phiG (evpPoly (evpSel 0) t) (evpPoly (evpFel 1) t) * (evpFel 1 1 + 2 * t * evpFel 1 2) +
    phiE (evpPoly (evpSel 0) t) (evpPoly (evpFel 1) t) * (evpSel 0 1 + 2 * t * evpSel 0 2) = Φ at *
  generalize evpPert t (evpElements id t).sec (evpElements id t).args = p at *
  generalize (1 - evpPoly (evpSel 0) t * evpPoly (evpSel 0) t) / (1 + evpPoly (evpSel 0) t * cos (evpPoly (evpFel 1) t +
    evpPhi (evpPoly (evpSel 0) t) (evpPoly (evpFel 1) t))) = ψ at *
  generalize kep (evpPoly (evpSel 0) t) (evpPoly (evpFel 1) t + evpPhi (evpPoly (evpSel 0) t) (evpPoly (evpFel 1) t)) = K at *
  generalize 1.990969e-7 * evpPoly (evpSel 0) t * sin (evpPoly (evpFel 1) t + evpPhi (evpPoly (evpSel 0) t) (evpPoly (evpFel 1) t)) /
    sqrt (1 - evpPoly (evpSel 0) t * evpPoly (evpSel 0) t) = ψd at *
  generalize evpFel 0 1 + 2 * t * evpFel 0 2 = d' at *
  have hψ : |ψ| ≤ 1.01697 := by rw [abs_of_nonneg (by linarith)]; linarith
  have h1R : |1 + p.r| ≤ 1.000068 := by
    have := abs_le.mp hR; rw [abs_le]; constructor <;> linarith
  have eρ : (Ψ * (1 + p.r) + ψ * (cy * r')) / cy - (1 + p.r) * (ψd + ψ * p.rd) =
      (1 + p.r) * (Ψ / cy - ψd) + ψ * (r' - p.rd) - ψ * (p.r * p.rd) := by field_simp; ring
  have eτ : ψ * (1 + p.r) * ((d' + Φ + cy * l') / cy) - (1 + p.r) * ψ * (1.990987e-7 + 1.990969e-7 * K + p.ld) -
      pr * (ψ * (1 + p.r)) = ψ * (1 + p.r) * ((d' / cy - pr - 1.990987e-7) + (Φ / cy - 1.990969e-7 * K) + (l' - p.ld)) := by
    field_simp; ring
  have b1 := (abs_sub_le' (abs_add_le' (abs_mul_le' h1R hψe) (abs_mul_le' hψ hre)) (abs_mul_le' hψ (abs_mul_le' hR hrd))).trans
    (by norm_num : _ ≤ (2.7e-13 : ℝ))
  have b2 := (abs_mul_le' (abs_mul_le' hψ h1R) (abs_add_le' (abs_add_le' hd' hφe) hle)).trans
    (by norm_num : _ ≤ (1.2425e-12 : ℝ))
  rw [← eρ] at b1
  rw [← eτ] at b2
  have q1 := sq_le_sq' (abs_le.mp b1).1 (abs_le.mp b1).2
  have q2 := sq_le_sq' (abs_le.mp b2).1 (abs_le.mp b2).2
  have h3 : (2.7e-13 : ℝ) ^ 2 + (1.2425e-12) ^ 2 ≤ (1.28e-12) ^ 2 := by norm_num
  have z : ((0 : ℝ) / cy - 0) ^ 2 = 0 := by simp
  rw [z]
  linarith

end Sla.EvpL
