/- C75: `evp`. C76: `evp` and `earth` agree. -/
import Verif.Lemmas.EvpEarth
import Verif.Lemmas.CMath
import Verif.Props.Precession
import Verif.Props.Earth
import Mathlib.Analysis.Real.Pi.Bounds

noncomputable section
namespace Sla.Props

open Real Sla.Spec Sla.EvpL Matrix _root_.Spec

/-! ### Reductions -/

private def Turn (x y : ℝ) : Prop := ∃ n : ℤ, x = y + n * (2 * π)

private theorem Turn.sin {x y : ℝ} (h : Turn x y) : Real.sin x = Real.sin y := by
  obtain ⟨n, rfl⟩ := h; exact Real.sin_add_int_mul_two_pi y n

private theorem Turn.cos {x y : ℝ} (h : Turn x y) : Real.cos x = Real.cos y := by
  obtain ⟨n, rfl⟩ := h; exact Real.cos_add_int_mul_two_pi y n

private theorem Turn.add {x y x' y' : ℝ} (h : Turn x y) (h' : Turn x' y') : Turn (x + x') (y + y') := by
  obtain ⟨n, rfl⟩ := h
  obtain ⟨m, rfl⟩ := h'
  exact ⟨n + m, by push_cast; ring⟩

private theorem Turn.add_const {x y : ℝ} (h : Turn x y) (a : ℝ) : Turn (x + a) (y + a) := by
  obtain ⟨n, rfl⟩ := h; exact ⟨n, by ring⟩

private theorem Turn.trans {x y z : ℝ} (h : Turn x y) (h' : Turn y z) : Turn x z := by
  obtain ⟨n, rfl⟩ := h
  obtain ⟨m, rfl⟩ := h'
  exact ⟨n + m, by push_cast; ring⟩

private theorem turn_cfmod (x : ℝ) : Turn (cfmod x (2 * π)) x := by
  refine ⟨-ctrunc (x / (2 * π)), ?_⟩
  simp only [cfmod]; push_cast; ring

private theorem cfmod_self {x : ℝ} (h : |x| < 6) : cfmod x (2 * π) = x := by
  have hpi := pi_gt_three
  obtain ⟨h1, h2⟩ := abs_lt.mp h
  have : ctrunc (x / (2 * π)) = 0 := by
    by_cases h0 : 0 ≤ x
    · rw [ctrunc_of_nonneg (by positivity), Int.floor_eq_zero_iff]
      exact ⟨by positivity, by rw [div_lt_one (by positivity)]; linarith⟩
    · push Not at h0
      rw [ctrunc_of_neg (div_neg_of_neg_of_pos h0 (by positivity)), Int.ceil_eq_zero_iff]
      refine ⟨?_, div_nonpos_of_nonpos_of_nonneg h0.le (by positivity)⟩
      rw [lt_div_iff₀ (by positivity)]; linarith
  rw [cfmod, this]; simp

private abbrev red : ℝ → ℝ := fun x => cfmod x (2 * π)

private theorem emb_red {e g g' d d' : ℝ} (p : EvpPert) (hg : Turn g g') (hd : Turn d d') :
    evpEmb red e g d p = evpEmb id e g' d' p := by
  have hφ : evpPhi e g = evpPhi e g' := by
    rw [evpPhi, evpPhi, hg.sin, (hg.add hg).sin, (hg.add (hg.add hg)).sin]
  have hf := hg.add_const (evpPhi e g')
  have hl := (turn_cfmod (d + evpPhi e g' + p.l)).trans ((hd.add_const (evpPhi e g')).add_const p.l)
  simp only [evpEmb, hφ, hf.sin, hf.cos, id_eq]
  rw [hl.sin, hl.cos]

private theorem moon_red {lm lm' fm fm' : ℝ} (p : EvpPert) (hl : Turn lm lm') (hf : Turn fm fm') :
    evpMoon lm fm p = evpMoon lm' fm' p := by
  have := hl.add_const p.l
  simp only [evpMoon, this.sin, this.cos, hf.sin, hf.cos]

private theorem pert_red (dt : ℝ) : evpPert dt (evpElements red dt).sec (evpElements red dt).args =
    evpPert dt (evpElements id dt).sec (evpElements id dt).args := by
  simp only [evpPert, evpElements, (turn_cfmod _).sin, (turn_cfmod _).cos, id_eq]

private theorem moonPert_red (dt : ℝ) : evpMoonPert (evpElements red dt).argm = evpMoonPert (evpElements id dt).argm := by
  simp only [evpMoonPert, evpElements, (turn_cfmod _).sin, (turn_cfmod _).cos, id_eq]

private theorem sel_red (k : Fin 17) {t : ℝ} (ht : |t| ≤ 5) : cfmod (evpPoly (evpSel k) t) (2 * π) = evpPoly (evpSel k) t := by
  apply cfmod_self
  obtain ⟨h1, h2⟩ := abs_le.mp ht
  have h3 : t * t ≤ 25 := by nlinarith
  have h4 := mul_self_nonneg t
  rw [abs_lt]
  fin_cases k <;> simp [evpPoly, evpSel] <;> constructor <;> nlinarith

private theorem planet_red (k : Fin 4) {t : ℝ} (ht : |t| ≤ 5) :
    evpPlanet red (evpElements red t) k = evpPlanet id (evpElements id t) k := by
  have hs : (evpElements red t).sorbel = (evpElements id t).sorbel := funext fun j => sel_red j ht
  rw [evpPlanet, evpPlanet, hs]
  have hl : Turn ((evpElements red t).forbel ⟨k + 3, by omega⟩) ((evpElements id t).forbel ⟨k + 3, by omega⟩) := turn_cfmod _
  generalize (evpElements red t).forbel ⟨k + 3, _⟩ = a at *
  generalize (evpElements id t).forbel ⟨k + 3, _⟩ = b at *
  have h1 : ∀ y, Turn (a - y) (b - y) := fun y => hl.add_const (-y)
  simp only [(h1 _).sin, (h1 _).cos, id_eq]
  generalize (evpElements id t).sorbel ⟨k + 9, _⟩ = e at *
  generalize (evpElements id t).sorbel ⟨k + 1, _⟩ = o at *
  have h2 := (turn_cfmod (a + 2 * e * Real.sin (b - o))).trans (hl.add_const (2 * e * Real.sin (b - o)))
  simp only [h2.sin, h2.cos]

private theorem ecl_red {t : ℝ} (ht : |t| ≤ 5) : evpEcliptic red t (evpElements red t) = eclAt t := by
  have hs : (evpElements red t).sorbel = (evpElements id t).sorbel := funext fun j => sel_red j ht
  have h1 := emb_red (e := (evpElements id t).sorbel 0) (evpPert t (evpElements id t).sec (evpElements id t).args)
    (turn_cfmod (evpPoly (evpFel 1) t)) (turn_cfmod (evpPoly (evpFel 0) t))
  have h2 := moon_red (evpMoonPert (evpElements id t).argm) (turn_cfmod (evpPoly (evpFel 2) t)) (turn_cfmod (evpPoly (evpFel 3) t))
  have h3 : ∀ k, evpPlanet red (evpElements red t) k = evpPlanet id (evpElements id t) k := fun k => planet_red k ht
  have e1 : (evpElements red t).forbel 0 = cfmod (evpPoly (evpFel 1) t) (2 * π) := rfl
  have e2 : (evpElements red t).dml = cfmod (evpPoly (evpFel 0) t) (2 * π) := rfl
  have e3 : (evpElements red t).forbel 1 = cfmod (evpPoly (evpFel 2) t) (2 * π) := rfl
  have e4 : (evpElements red t).forbel 2 = cfmod (evpPoly (evpFel 3) t) (2 * π) := rfl
  simp only [eclAt, evpEcliptic, hs, pert_red, moonPert_red, e1, e2, e3, e4, h1, h2, h3]
  rfl

private theorem eps_red {t : ℝ} (ht : |t| ≤ 5) : (evpElements red t).deps = evpPoly evpEps t := by
  apply cfmod_self
  obtain ⟨h1, h2⟩ := abs_le.mp ht
  have h3 : t * t ≤ 25 := by nlinarith
  have h4 := mul_self_nonneg t
  rw [abs_lt]
  simp [evpPoly, evpEps]; constructor <;> nlinarith

theorem evp_of_date {date deqx : ℝ} (h : |date - 15019.5| ≤ 182625) (hd : deqx ≤ 0) : evp date deqx =
    let t := (date - 15019.5) / 36525
    let q := evpEquator (evpPoly evpEps t) (evpEqcor date)
    ⟨q (eclAt t).hpos, q (eclAt t).hvelo, q (eclAt t).bpos, q (eclAt t).bvelo⟩ := by
  have ht : |(date - 15019.5) / 36525| ≤ 5 := by
    rw [abs_div, abs_of_pos (by norm_num : (0 : ℝ) < 36525), div_le_iff₀ (by norm_num)]; linarith
  simp only [evp, not_lt.2 hd, gt_iff_lt, if_false]
  rw [ecl_red ht, eps_red ht]

/-! ### To the equator -/

private theorem eq_add (ε δ : ℝ) (u v : Vec) : evpEquator ε δ (u + v) = evpEquator ε δ u + evpEquator ε δ v := by
  ext i; fin_cases i <;> simp [evpEquator] <;> ring

private theorem eq_sub (ε δ : ℝ) (u v : Vec) : evpEquator ε δ (u - v) = evpEquator ε δ u - evpEquator ε δ v := by
  ext i; fin_cases i <;> simp [evpEquator] <;> ring

private theorem eq_smul (ε δ k : ℝ) (v : Vec) : evpEquator ε δ (k • v) = k • evpEquator ε δ v := by
  ext i; fin_cases i <;> simp [evpEquator] <;> ring

private theorem len_le_of {u : Vec} {X : ℝ} (hX : 0 ≤ X) (h : u 0 * u 0 + u 1 * u 1 + u 2 * u 2 ≤ X ^ 2) : len u ≤ X := by
  rw [len_eq]; exact Real.sqrt_le_iff.2 ⟨hX, h⟩

private theorem len_sq' (v : Vec) : len v ^ 2 = v 0 * v 0 + v 1 * v 1 + v 2 * v 2 := by
  rw [len_eq, Real.sq_sqrt]
  exact add_nonneg (add_nonneg (mul_self_nonneg _) (mul_self_nonneg _)) (mul_self_nonneg _)

private theorem eq_len (ε δ : ℝ) (hδ : |δ| ≤ 4e-5) (v : Vec) :
    len v ≤ len (evpEquator ε δ v) ∧ len (evpEquator ε δ v) ≤ 1.00000001 * len v := by
  have hcs := cs_sq ε
  have e := len_sq' v
  have h0 := len_nonneg v
  have hd2 : δ ^ 2 ≤ 1.6e-9 := by
    have := sq_le_sq' (abs_le.mp hδ).1 (abs_le.mp hδ).2
    norm_num at this ⊢; linarith
  obtain ⟨y, hy⟩ : ∃ y, y = Real.cos ε * v 1 - Real.sin ε * v 2 := ⟨_, rfl⟩
  obtain ⟨z, hz⟩ : ∃ z, z = Real.sin ε * v 1 + Real.cos ε * v 2 := ⟨_, rfl⟩
  have hyz : y * y + z * z = v 1 * v 1 + v 2 * v 2 := by
    rw [hy, hz]; linear_combination (v 1 * v 1 + v 2 * v 2) * hcs
  have key : len (evpEquator ε δ v) ^ 2 = len v ^ 2 + δ ^ 2 * (v 0 * v 0 + y * y) := by
    rw [len_sq', e]
    simp only [evpEquator, Matrix.cons_val, ← hy, ← hz]
    linear_combination hyz
  have hn : 0 ≤ v 0 * v 0 + y * y := by nlinarith [mul_self_nonneg (v 0), mul_self_nonneg y]
  have hle : v 0 * v 0 + y * y ≤ len v ^ 2 := by rw [e]; nlinarith [mul_self_nonneg z]
  constructor
  · apply le_of_sq_le_sq' h0 (len_nonneg _)
    rw [key]; nlinarith [sq_nonneg δ]
  · apply le_of_sq_le_sq' (len_nonneg _) (by positivity)
    rw [key]; nlinarith [sq_nonneg δ]
where
  le_of_sq_le_sq' {x y : ℝ} (_ : 0 ≤ x) (hy : 0 ≤ y) (h : x ^ 2 ≤ y ^ 2) : x ≤ y := by
    nlinarith

private theorem eqcor_le {date : ℝ} (h : |date - 15019.5| ≤ 182625) : |evpEqcor date| ≤ 3.3e-5 := by
  have h1 := pi_gt_three
  have h2 := pi_lt_d2
  obtain ⟨h3, h4⟩ := abs_le.mp h
  have hb : |0.035 + 0.00085 * (epj date - 1949.9997904423)| ≤ 0.45 := by
    have e : (date - 51544.5) / 365.25 = (date - 15019.5) / 365.25 - 100 := by ring
    have h5 : |(date - 15019.5) / 365.25| ≤ 500 := by
      rw [abs_div, abs_of_pos (by norm_num : (0 : ℝ) < 365.25), div_le_iff₀ (by norm_num)]; linarith
    rw [epj, e]
    generalize (date - 15019.5) / 365.25 = y at *
    obtain ⟨h6, h7⟩ := abs_le.mp h5
    rw [abs_le]; constructor <;> linarith
  have hp : |π / 43200| ≤ 7.3e-5 := by rw [abs_of_pos (by positivity)]; linarith
  exact (abs_mul_le' hp hb).trans (by norm_num)

/-! ### The pole of the ecliptic -/

private theorem pole_eq (date : ℝ) : ecmat date 2 = ![0, -Real.sin (ecmatPhi date), Real.cos (ecmatPhi date)] := by
  have h : ∀ j, ecmat date 2 j = (dmxv (ecmat date) (Pi.single j 1)) 2 := by
    intro j; rw [dmxv_eq, Matrix.mulVec_single_one]; rfl
  ext j
  rw [h, ecmat, C23_deuler]
  fin_cases j <;> simp [turnSequence, axisOf, turnFrame, ex, cross_apply, Matrix.vecHead, Matrix.vecTail, Pi.single_apply]

theorem evp_obliquity {date : ℝ} (h : |date - 15019.5| ≤ 182625) :
    |ecmatPhi date - evpPoly evpEps ((date - 15019.5) / 36525)| ≤ 3e-6 := by
  have ht : |(date - 15019.5) / 36525| ≤ 5 := by
    rw [abs_div, abs_of_pos (by norm_num : (0 : ℝ) < 36525), div_le_iff₀ (by norm_num)]; linarith
  have e : (date - 51544.5) / 36525 = (date - 15019.5) / 36525 - 1 := by ring
  simp only [ecmatPhi, e, as2r]
  generalize (date - 15019.5) / 36525 = t at *
  obtain ⟨h1, h2⟩ := abs_le.mp ht
  have p1 := pi_gt_d6
  have p2 := pi_lt_d6
  have hs : 0 ≤ t ^ 2 ∧ t ^ 2 ≤ 25 := ⟨sq_nonneg t, by nlinarith⟩
  have hc : |t ^ 3| ≤ 125 := by
    rw [abs_pow]; exact (pow_le_pow_left₀ (abs_nonneg t) ht 3).trans (by norm_num)
  obtain ⟨c1, c2⟩ := abs_le.mp hc
  obtain ⟨s1, s2⟩ := hs
  have e2 : π / 648000 * (84381.448 + (-46.8150 + (-0.00059 + 0.001813 * (t - 1)) * (t - 1)) * (t - 1)) - evpPoly evpEps t =
      (π - 3.141593) * ((84428.260597 - 46.808381 * t - 0.006029 * t ^ 2 + 0.001813 * t ^ 3) / 648000) +
      (3.141593 * ((84428.260597 - 46.808381 * t - 0.006029 * t ^ 2 + 0.001813 * t ^ 3) / 648000) -
        (4.093198e-1 + t * -2.271110e-4 + t ^ 2 * -2.860401e-8)) := by
    simp only [evpPoly, evpEps, Matrix.cons_val]; ring
  rw [e2]
  generalize t ^ 2 = x at *
  generalize t ^ 3 = z at *
  have b1 : |(84428.260597 - 46.808381 * t - 0.006029 * x + 0.001813 * z) / 648000| ≤ 0.14 := by
    rw [abs_le]; constructor <;> linarith
  have b2 : |π - 3.141593| ≤ 1e-6 := by rw [abs_le]; constructor <;> linarith
  have b3 : |3.141593 * ((84428.260597 - 46.808381 * t - 0.006029 * x + 0.001813 * z) / 648000) -
        (4.093198e-1 + t * -2.271110e-4 + x * -2.860401e-8)| ≤ 2.5e-6 := by
    rw [abs_le]; constructor <;> linarith
  exact (abs_add_le' (abs_mul_le' b2 b1) b3).trans (by norm_num)

/-! ### Rates on the moving equator and equinox -/

private theorem equator_deriv {ε δ : ℝ → ℝ} {H : ℝ → Vec} {ε' δ' τ : ℝ} {H' : Vec} (hε : HasDerivAt ε ε' τ)
    (hδ : HasDerivAt δ δ' τ) (hH : HasDerivAt H H' τ) : HasDerivAt (fun τ => evpEquator (ε τ) (δ τ) (H τ))
      (evpEquator (ε τ) (δ τ) H' +
        ε' • ![-(δ τ * (-Real.sin (ε τ) * H τ 1 - Real.cos (ε τ) * H τ 2)), -Real.sin (ε τ) * H τ 1 - Real.cos (ε τ) * H τ 2,
          Real.cos (ε τ) * H τ 1 - Real.sin (ε τ) * H τ 2] +
        δ' • ![-(Real.cos (ε τ) * H τ 1 - Real.sin (ε τ) * H τ 2), H τ 0, 0]) τ := by
  rw [hasDerivAt_pi] at hH ⊢
  have hy := (hε.cos.mul (hH 1)).sub (hε.sin.mul (hH 2))
  have hz := (hε.sin.mul (hH 1)).add (hε.cos.mul (hH 2))
  intro i
  fin_cases i
  · refine ((hH 0).sub (hδ.mul hy)).congr_deriv ?_
    simp [evpEquator]; ring
  · refine (hy.add (hδ.mul (hH 0))).congr_deriv ?_
    simp [evpEquator]; ring
  · refine hz.congr_deriv ?_
    simp [evpEquator]; ring

private theorem comp_le (v : Vec) (i : Fin 3) : |v i| ≤ len v := by
  apply abs_le_of_sq_le_sq _ (len_nonneg v)
  rw [len_sq']
  fin_cases i <;> simp only [Fin.zero_eta, Fin.mk_one, Fin.reduceFinMk] <;>
    nlinarith [mul_self_nonneg (v 0), mul_self_nonneg (v 1), mul_self_nonneg (v 2)]

private theorem rot_le (ε : ℝ) (v : Vec) : |Real.cos ε * v 1 - Real.sin ε * v 2| ≤ len v ∧
    |Real.sin ε * v 1 + Real.cos ε * v 2| ≤ len v := by
  have h := cs_sq ε
  have e : (Real.cos ε * v 1 - Real.sin ε * v 2) ^ 2 + (Real.sin ε * v 1 + Real.cos ε * v 2) ^ 2 = v 1 * v 1 + v 2 * v 2 := by
    linear_combination (v 1 * v 1 + v 2 * v 2) * h
  constructor
  · apply abs_le_of_sq_le_sq _ (len_nonneg v)
    rw [len_sq']; nlinarith [mul_self_nonneg (v 0), sq_nonneg (Real.sin ε * v 1 + Real.cos ε * v 2)]
  · apply abs_le_of_sq_le_sq _ (len_nonneg v)
    rw [len_sq']; nlinarith [mul_self_nonneg (v 0), sq_nonneg (Real.cos ε * v 1 - Real.sin ε * v 2)]

private theorem cross_err {ε φ δ : ℝ} (hφ : |φ - ε| ≤ 3e-6) (hδ : |δ| ≤ 3.3e-5) (H : Vec) :
    len (evpEquator ε δ (zcross H) - ![0, -Real.sin φ, Real.cos φ] ⨯₃ evpEquator ε δ H) ≤ 1e-4 * len H := by
  have hs : |Real.sin φ - Real.sin ε| ≤ 3e-6 := (abs_sin_sub_sin_le φ ε).trans hφ
  have hc : |Real.cos φ - Real.cos ε| ≤ 3e-6 := (abs_cos_sub_cos_le φ ε).trans hφ
  have hcs := cs_sq ε
  obtain ⟨hya, hza⟩ := rot_le ε H
  have h0 := comp_le H 0
  have h1 := comp_le H 1
  have hs1 := abs_sin_le_one φ
  have hc1 := abs_cos_le_one φ
  have hl := len_nonneg H
  obtain ⟨y, hy⟩ : ∃ y, y = Real.cos ε * H 1 - Real.sin ε * H 2 := ⟨_, rfl⟩
  obtain ⟨z, hz⟩ : ∃ z, z = Real.sin ε * H 1 + Real.cos ε * H 2 := ⟨_, rfl⟩
  rw [← hy] at hya
  rw [← hz] at hza
  have e0 : (evpEquator ε δ (zcross H) - ![0, -Real.sin φ, Real.cos φ] ⨯₃ evpEquator ε δ H) 0 =
      (Real.sin φ - Real.sin ε) * z + (Real.cos φ - Real.cos ε) * (y + δ * H 0) := by
    simp [evpEquator, zcross, cross_apply, ← hy, ← hz]
    linear_combination (Real.cos ε) * hy + Real.sin ε * hz + (H 1) * hcs
  have e1 : (evpEquator ε δ (zcross H) - ![0, -Real.sin φ, Real.cos φ] ⨯₃ evpEquator ε δ H) 1 =
      -((Real.cos φ - Real.cos ε) * H 0) - δ * H 1 + Real.cos φ * (δ * y) := by
    simp [evpEquator, zcross, cross_apply, ← hy, ← hz]; ring
  have e2 : (evpEquator ε δ (zcross H) - ![0, -Real.sin φ, Real.cos φ] ⨯₃ evpEquator ε δ H) 2 =
      -((Real.sin φ - Real.sin ε) * H 0) + Real.sin φ * (δ * y) := by
    simp [evpEquator, zcross, cross_apply, ← hy, ← hz]; ring
  generalize evpEquator ε δ (zcross H) - ![0, -Real.sin φ, Real.cos φ] ⨯₃ evpEquator ε δ H = W at *
  generalize len H = ℓ at *
  have b0 : |W 0| ≤ 7e-6 * ℓ := by
    rw [e0]
    refine (abs_add_le' (abs_mul_le' hs hza) (abs_mul_le' hc (abs_add_le' hya (abs_mul_le' hδ h0)))).trans ?_
    nlinarith
  have b1 : |W 1| ≤ 7e-5 * ℓ := by
    rw [e1]
    refine (abs_add_le' (abs_sub_le' ((abs_neg _).trans_le (abs_mul_le' hc h0)) (abs_mul_le' hδ h1))
      (abs_mul_le' hc1 (abs_mul_le' hδ hya))).trans ?_
    nlinarith
  have b2 : |W 2| ≤ 4e-5 * ℓ := by
    rw [e2]
    refine (abs_add_le' ((abs_neg _).trans_le (abs_mul_le' hs h0)) (abs_mul_le' hs1 (abs_mul_le' hδ hya))).trans ?_
    nlinarith
  have q0 := sq_le_sq' (abs_le.mp b0).1 (abs_le.mp b0).2
  have q1 := sq_le_sq' (abs_le.mp b1).1 (abs_le.mp b1).2
  have q2 := sq_le_sq' (abs_le.mp b2).1 (abs_le.mp b2).2
  apply len_le_of (by positivity)
  nlinarith [sq_nonneg ℓ]

private theorem equator_drift {P : ℝ → VectorPV} {date X : ℝ} (h : |date - 15019.5| ≤ 182625)
    (hP : Drift P ((date - 15019.5) / 36525) X) : ∃ v : Vec,
    HasDerivAt (fun τ => evpEquator (evpPoly evpEps ((τ - 15019.5) / 36525)) (evpEqcor τ) (P ((τ - 15019.5) / 36525)).pos)
      ((86400 : ℝ) • v) date ∧
    len (v - evpEquator (evpPoly evpEps ((date - 15019.5) / 36525)) (evpEqcor date) (P ((date - 15019.5) / 36525)).vel -
      (7.68e-12 : ℝ) • (ecmat date 2 ⨯₃
        evpEquator (evpPoly evpEps ((date - 15019.5) / 36525)) (evpEqcor date) (P ((date - 15019.5) / 36525)).pos)) ≤
    1.00000001 * X + 7.6e-14 * len (P ((date - 15019.5) / 36525)).pos := by
  obtain ⟨d, hd, hX⟩ := hP
  have hδb := eqcor_le h
  have hφ := evp_obliquity h
  have ht : |(date - 15019.5) / 36525| ≤ 5 := by
    rw [abs_div, abs_of_pos (by norm_num : (0 : ℝ) < 36525), div_le_iff₀ (by norm_num)]; linarith
  have hτ : HasDerivAt (fun τ : ℝ => (τ - 15019.5) / 36525) (1 / 36525) date :=
    ((hasDerivAt_id date).sub_const _).div_const _
  have hε : HasDerivAt (fun τ => evpPoly evpEps ((τ - 15019.5) / 36525))
      ((evpEps 1 + 2 * ((date - 15019.5) / 36525) * evpEps 2) * (1 / 36525)) date :=
    HasDerivAt.comp (h₂ := evpPoly evpEps) date (poly_deriv evpEps _) hτ
  have hδ : HasDerivAt evpEqcor (π / 43200 * (0.00085 * (1 / 365.25))) date := by
    have := (((((hasDerivAt_id date).sub_const (51544.5 : ℝ)).div_const (365.25 : ℝ)).const_add 2000).sub_const 1949.9997904423).const_mul 0.00085
      |>.const_add 0.035 |>.const_mul (π / 43200)
    exact this
  have hH : HasDerivAt (fun τ => (P ((τ - 15019.5) / 36525)).pos) ((1 / 36525 : ℝ) • (cy • d)) date :=
    HasDerivAt.scomp (g₁ := fun t => (P t).pos) date hd hτ
  have hD := equator_deriv hε hδ hH
  obtain ⟨t, hte⟩ : ∃ t, t = (date - 15019.5) / 36525 := ⟨_, rfl⟩
  rw [← hte] at hd hX hφ ht hD ⊢
  obtain ⟨E, hE⟩ : ∃ E : Vec, E = ![-(evpEqcor date * (-Real.sin (evpPoly evpEps t) * (P t).pos 1 - Real.cos (evpPoly evpEps t) * (P t).pos 2)),
      -Real.sin (evpPoly evpEps t) * (P t).pos 1 - Real.cos (evpPoly evpEps t) * (P t).pos 2,
      Real.cos (evpPoly evpEps t) * (P t).pos 1 - Real.sin (evpPoly evpEps t) * (P t).pos 2] := ⟨_, rfl⟩
  obtain ⟨D, hDe⟩ : ∃ D : Vec, D = ![-(Real.cos (evpPoly evpEps t) * (P t).pos 1 - Real.sin (evpPoly evpEps t) * (P t).pos 2), (P t).pos 0, 0] :=
    ⟨_, rfl⟩
  rw [← hE, ← hDe] at hD
  refine ⟨evpEquator (evpPoly evpEps t) (evpEqcor date) d + ((evpEps 1 + 2 * t * evpEps 2) / cy) • E +
    (π / 43200 * (0.00085 * (1 / 365.25)) / 86400) • D, hD.congr_deriv ?_, ?_⟩
  · rw [smul_smul, eq_smul, smul_add, smul_add, smul_smul, smul_smul]
    congr 2
    · congr 1; norm_num [cy]
    · simp only [cy]; ring
    · ring
  · have hl := len_nonneg (P t).pos
    have hEl : len E ≤ 1.0001 * len (P t).pos := by
      apply len_le_of (by positivity)
      have hcs := cs_sq (evpPoly evpEps t)
      have e1 : (-Real.sin (evpPoly evpEps t) * (P t).pos 1 - Real.cos (evpPoly evpEps t) * (P t).pos 2) ^ 2 +
          (Real.cos (evpPoly evpEps t) * (P t).pos 1 - Real.sin (evpPoly evpEps t) * (P t).pos 2) ^ 2 =
          (P t).pos 1 * (P t).pos 1 + (P t).pos 2 * (P t).pos 2 := by
        linear_combination ((P t).pos 1 * (P t).pos 1 + (P t).pos 2 * (P t).pos 2) * hcs
      have e2 := len_sq' (P t).pos
      rw [hE]
      simp only [Matrix.cons_val]
      generalize -Real.sin (evpPoly evpEps t) * (P t).pos 1 - Real.cos (evpPoly evpEps t) * (P t).pos 2 = y at *
      generalize Real.cos (evpPoly evpEps t) * (P t).pos 1 - Real.sin (evpPoly evpEps t) * (P t).pos 2 = z at *
      have hd2 := sq_le_sq' (abs_le.mp hδb).1 (abs_le.mp hδb).2
      have hy2 : y ^ 2 ≤ len (P t).pos ^ 2 := by nlinarith [sq_nonneg z, mul_self_nonneg ((P t).pos 0)]
      have h5 : evpEqcor date ^ 2 * y ^ 2 ≤ (3.3e-5) ^ 2 * len (P t).pos ^ 2 := mul_le_mul hd2 hy2 (sq_nonneg _) (by positivity)
      nlinarith [mul_self_nonneg ((P t).pos 0), sq_nonneg (len (P t).pos)]
    have hDl : len D ≤ len (P t).pos := by
      apply len_le_of hl
      have hcs := cs_sq (evpPoly evpEps t)
      rw [hDe, len_sq']
      simp only [Matrix.cons_val]
      have e1 : (Real.cos (evpPoly evpEps t) * (P t).pos 1 - Real.sin (evpPoly evpEps t) * (P t).pos 2) ^ 2 +
          (Real.sin (evpPoly evpEps t) * (P t).pos 1 + Real.cos (evpPoly evpEps t) * (P t).pos 2) ^ 2 =
          (P t).pos 1 * (P t).pos 1 + (P t).pos 2 * (P t).pos 2 := by
        linear_combination ((P t).pos 1 * (P t).pos 1 + (P t).pos 2 * (P t).pos 2) * hcs
      nlinarith [sq_nonneg (Real.sin (evpPoly evpEps t) * (P t).pos 1 + Real.cos (evpPoly evpEps t) * (P t).pos 2)]
    have he : |(evpEps 1 + 2 * t * evpEps 2) / cy| ≤ 7.22e-14 := by
      obtain ⟨t1, t2⟩ := abs_le.mp ht
      rw [abs_le]; simp [evpEps, cy]; constructor <;> norm_num <;> linarith
    have hd' : |π / 43200 * (0.00085 * (1 / 365.25)) / 86400| ≤ 2e-15 := by
      have := pi_lt_d2
      rw [abs_of_nonneg (by positivity)]; norm_num; linarith
    have hW := cross_err hφ hδb (P t).pos
    rw [← pole_eq] at hW
    have key : evpEquator (evpPoly evpEps t) (evpEqcor date) d + ((evpEps 1 + 2 * t * evpEps 2) / cy) • E +
        (π / 43200 * (0.00085 * (1 / 365.25)) / 86400) • D - evpEquator (evpPoly evpEps t) (evpEqcor date) (P t).vel -
        (7.68e-12 : ℝ) • (ecmat date 2 ⨯₃ evpEquator (evpPoly evpEps t) (evpEqcor date) (P t).pos) =
        evpEquator (evpPoly evpEps t) (evpEqcor date) (d - (P t).vel - pr • zcross (P t).pos) +
        (7.68e-12 : ℝ) • (evpEquator (evpPoly evpEps t) (evpEqcor date) (zcross (P t).pos) -
          ecmat date 2 ⨯₃ evpEquator (evpPoly evpEps t) (evpEqcor date) (P t).pos) +
        ((evpEps 1 + 2 * t * evpEps 2) / cy) • E + (π / 43200 * (0.00085 * (1 / 365.25)) / 86400) • D := by
      rw [eq_sub, eq_sub, eq_smul, smul_sub, pr]
      abel
    rw [key]
    have hq := (eq_len (evpPoly evpEps t) (evpEqcor date) (hδb.trans (by norm_num)) (d - (P t).vel - pr • zcross (P t).pos)).2
    have k : |(7.68e-12 : ℝ)| = 7.68e-12 := by rw [abs_of_nonneg]; norm_num
    have b2 := mul_le_mul he hEl (len_nonneg _) (by norm_num)
    have b3 := mul_le_mul hd' hDl (len_nonneg _) (by norm_num)
    refine (len_add_le _ _).trans ((add_le_add ((len_add_le _ _).trans (add_le_add ((len_add_le _ _).trans (add_le_add hq
      (by rw [len_smul, k]))) (by rw [len_smul]))) (by rw [len_smul])).trans ?_)
    linarith

private theorem century {date : ℝ} (h : |date - 15019.5| ≤ 182625) : |(date - 15019.5) / 36525| ≤ 5 := by
  rw [abs_div, abs_of_pos (by norm_num : (0 : ℝ) < 36525), div_le_iff₀ (by norm_num)]; linarith

private theorem near {date : ℝ} (h : |date - 15019.5| < 182625) : ∀ᶠ τ in nhds date, |τ - 15019.5| ≤ 182625 := by
  have hc : Continuous fun τ : ℝ => |τ - 15019.5| := by fun_prop
  exact (hc.continuousAt.eventually_lt continuousAt_const h).mono fun _ h => h.le

/-- C75. Within five centuries of 1900, without a change of equinox, the heliocentric position and the heliocentric velocity
    returned by `evp` belong together: the position is differentiable in the date, and its rate of change, in AU per second,
    is the returned velocity plus the slow turning of the axes of date about the pole of the ecliptic (7.68e-12 radian per
    second, the general precession), to within 2.6e-12 AU per second (0.39 m/s). -/
theorem C75_velocity (date deqx : ℝ) (h : |date - 15019.5| < 182625) (hd : deqx ≤ 0) :
    ∃ v : Vec, (∀ i, HasDerivAt (fun τ => (evp τ deqx).hpos i) (86400 * v i) date) ∧
      len (v - (evp date deqx).hvelo - (7.68e-12 : ℝ) • (ecmat date 2 ⨯₃ (evp date deqx).hpos)) ≤ 2.6e-12 := by
  have ht := century h.le
  obtain ⟨v, h1, h2⟩ := equator_drift h.le (helio_drift ht)
  refine ⟨v, ?_, ?_⟩
  · rw [hasDerivAt_pi] at h1
    refine fun i => (h1 i).congr_of_eventuallyEq ?_
    filter_upwards [near h] with τ hτ
    rw [evp_of_date hτ hd]
  · rw [evp_of_date h.le hd]
    refine h2.trans ?_
    have := (helio_size ht).2.1
    dsimp only
    linarith

/-- C75. The same for the position and velocity about the barycentre of the solar system, to within 4.1e-12 AU per second
    (0.61 m/s). -/
theorem C75_barycentric (date deqx : ℝ) (h : |date - 15019.5| < 182625) (hd : deqx ≤ 0) :
    ∃ v : Vec, (∀ i, HasDerivAt (fun τ => (evp τ deqx).bpos i) (86400 * v i) date) ∧
      len (v - (evp date deqx).bvelo - (7.68e-12 : ℝ) • (ecmat date 2 ⨯₃ (evp date deqx).bpos)) ≤ 4.1e-12 := by
  have ht := century h.le
  obtain ⟨v, h1, h2⟩ := equator_drift h.le (bary_drift ht)
  refine ⟨v, ?_, ?_⟩
  · rw [hasDerivAt_pi] at h1
    refine fun i => (h1 i).congr_of_eventuallyEq ?_
    filter_upwards [near h] with τ hτ
    rw [evp_of_date hτ hd]
  · rw [evp_of_date h.le hd]
    refine h2.trans ?_
    have h3 := (helio_size ht).2.1
    have h4 := (bary_size ht).1
    have h5 := len_add_le ((eclAt ((date - 15019.5) / 36525)).bpos - (eclAt ((date - 15019.5) / 36525)).hpos)
      (eclAt ((date - 15019.5) / 36525)).hpos
    rw [sub_add_cancel] at h5
    dsimp only
    linarith

example : ∃ date deqx : ℝ, |date - 15019.5| < 182625 ∧ deqx ≤ 0 := ⟨51544, 0, by norm_num [abs_lt], le_refl _⟩

/-- C75. With an equinox, the vectors are those of date turned by the precession matrix from the date to that equinox, as
    `prec` gives it; so no length or angle changes, and asking for the equinox of date changes nothing. -/
theorem C75_equinox (date deqx d0 : ℝ) (hd : 0 < deqx) (hn : d0 ≤ 0) :
    (evp date deqx).hpos = prec (epj date) deqx *ᵥ (evp date d0).hpos ∧
    (evp date deqx).hvelo = prec (epj date) deqx *ᵥ (evp date d0).hvelo ∧
    (evp date deqx).bpos = prec (epj date) deqx *ᵥ (evp date d0).bpos ∧
    (evp date deqx).bvelo = prec (epj date) deqx *ᵥ (evp date d0).bvelo ∧
    (deqx = epj date → evp date deqx = evp date d0) := by
  have h : ∀ v : Vec, dmxv (prec (epj date) deqx) v = prec (epj date) deqx *ᵥ v := fun v => dmxv_eq _ _
  refine ⟨?_, ?_, ?_, ?_, ?_⟩
  · simp only [evp, gt_iff_lt, hd, if_true, not_lt.2 hn, if_false, h]
  · simp only [evp, gt_iff_lt, hd, if_true, not_lt.2 hn, if_false, h]
  · simp only [evp, gt_iff_lt, hd, if_true, not_lt.2 hn, if_false, h]
  · simp only [evp, gt_iff_lt, hd, if_true, not_lt.2 hn, if_false, h]
  · intro e
    have e1 : prec (epj date) deqx = 1 := by rw [e]; exact (C24_equal_epochs _).1
    simp only [evp, gt_iff_lt, hd, if_true, not_lt.2 hn, if_false, e1, dmxv_eq, Matrix.one_mulVec]

example : ∃ date deqx d0 : ℝ, 0 < deqx ∧ d0 ≤ 0 ∧ deqx = epj date := ⟨51544.5, 2000, 0, by norm_num, le_refl _, by norm_num [epj]⟩

private theorem evp_any (date deqx : ℝ) : ∃ R : Mat, IsRotation R ∧ (evp date deqx).hpos = R *ᵥ (evp date 0).hpos ∧
    (evp date deqx).hvelo = R *ᵥ (evp date 0).hvelo ∧ (evp date deqx).bpos = R *ᵥ (evp date 0).bpos ∧
    (evp date deqx).bvelo = R *ᵥ (evp date 0).bvelo := by
  by_cases hd : 0 < deqx
  · obtain ⟨h1, h2, h3, h4, -⟩ := C75_equinox date deqx 0 hd le_rfl
    exact ⟨_, (C24_rotations _ _).1, h1, h2, h3, h4⟩
  · have e : evp date deqx = evp date 0 := by simp only [evp, gt_iff_lt, hd, if_false, lt_irrefl]
    rw [e]
    refine ⟨1, IsRotation.one, ?_⟩
    simp only [Matrix.one_mulVec, and_self]

/-- C75. Within five centuries of 1900 and for every equinox, the Earth is between 0.9829 and 1.0172 AU from the Sun and moves
    at between 1.953e-7 and 2.029e-7 AU per second (29.2 to 30.4 km/s) about it; and the two origins, Sun and barycentre, are
    never more than 0.0106 AU apart, nor moving at more than 1.16e-10 AU per second (18 m/s). -/
theorem C75_distance (date deqx : ℝ) (h : |date - 15019.5| ≤ 182625) :
    0.9829 ≤ len (evp date deqx).hpos ∧ len (evp date deqx).hpos ≤ 1.0172 ∧
    1.953e-7 ≤ len (evp date deqx).hvelo ∧ len (evp date deqx).hvelo ≤ 2.029e-7 ∧
    len ((evp date deqx).bpos - (evp date deqx).hpos) ≤ 0.0106 ∧
    len ((evp date deqx).bvelo - (evp date deqx).hvelo) ≤ 1.16e-10 := by
  obtain ⟨R, hR, e1, e2, e3, e4⟩ := evp_any date deqx
  rw [e1, e2, e3, e4, ← Matrix.mulVec_sub, ← Matrix.mulVec_sub, rotation_len hR, rotation_len hR, rotation_len hR, rotation_len hR]
  have ht := century h
  have hq := eq_len (evpPoly evpEps ((date - 15019.5) / 36525)) (evpEqcor date) ((eqcor_le h).trans (by norm_num))
  obtain ⟨h1, h2, h3, h4⟩ := helio_size ht
  obtain ⟨h5, h6⟩ := bary_size ht
  rw [evp_of_date h le_rfl]
  dsimp only
  rw [← eq_sub, ← eq_sub]
  refine ⟨?_, ?_, ?_, ?_, ?_, ?_⟩
  · linarith [hq (eclAt ((date - 15019.5) / 36525)).hpos]
  · linarith [hq (eclAt ((date - 15019.5) / 36525)).hpos]
  · linarith [hq (eclAt ((date - 15019.5) / 36525)).hvelo]
  · linarith [hq (eclAt ((date - 15019.5) / 36525)).hvelo]
  · linarith [hq ((eclAt ((date - 15019.5) / 36525)).bpos - (eclAt ((date - 15019.5) / 36525)).hpos)]
  · linarith [hq ((eclAt ((date - 15019.5) / 36525)).bvelo - (eclAt ((date - 15019.5) / 36525)).hvelo)]

/-- C75. Within five centuries of 1900 the heliocentric position of date lies in the ecliptic of date, the plane `ecmat`
    gives, to within 2.4e-5 AU. -/
theorem C75_ecliptic (date deqx : ℝ) (h : |date - 15019.5| ≤ 182625) (hd : deqx ≤ 0) :
    |ecmat date 2 ⬝ᵥ (evp date deqx).hpos| ≤ 2.4e-5 := by
  have ht := century h
  have hδ := eqcor_le h
  have hφ := evp_obliquity h
  rw [evp_of_date h hd, pole_eq]
  dsimp only
  generalize ecmatPhi date = φ at *
  generalize evpEqcor date = δ at *
  generalize (date - 15019.5) / 36525 = t at *
  obtain ⟨-, hl, -, -⟩ := helio_size ht
  have hε : |evpPoly evpEps t| ≤ 0.412 := by
    obtain ⟨t1, t2⟩ := abs_le.mp ht
    have t3 : t * t ≤ 25 := by nlinarith
    have t4 := mul_self_nonneg t
    rw [abs_le]; simp [evpPoly, evpEps]; constructor <;> linarith
  have hz : |(eclAt t).hpos 2| ≤ 3.03e-6 := by
    obtain ⟨hR, -, -⟩ := moonPert_bounds (evpElements id t).argm
    have e : (eclAt t).hpos 2 = 0 + -(3.122140e-5 / (1 + (evpMoonPert (evpElements id t).argm).r) *
        Real.sin (8.978749e-2 * Real.sin ((evpElements id t).forbel 2))) := rfl
    have hr : 0.92722 ≤ 1 + (evpMoonPert (evpElements id t).argm).r := by linarith [(abs_le.mp hR).1]
    have hσ : |3.122140e-5 / (1 + (evpMoonPert (evpElements id t).argm).r)| ≤ 3.3673e-5 := by
      rw [abs_of_nonneg (by positivity), div_le_iff₀ (by linarith)]
      linarith
    have hs : |Real.sin (8.978749e-2 * Real.sin ((evpElements id t).forbel 2))| ≤ 8.978749e-2 := by
      refine abs_sin_le_abs.trans ?_
      rw [abs_mul, abs_of_nonneg (by norm_num : (0 : ℝ) ≤ 8.978749e-2)]
      linarith [abs_sin_le_one ((evpElements id t).forbel 2)]
    rw [e, zero_add, abs_neg, abs_mul]
    exact (mul_le_mul hσ hs (abs_nonneg _) (by norm_num)).trans (by norm_num)
  generalize (eclAt t).hpos = H at *
  generalize evpPoly evpEps t = ε at *
  have hs : |Real.sin φ - Real.sin ε| ≤ 3e-6 := (abs_sin_sub_sin_le φ ε).trans hφ
  have hc : |Real.cos φ - Real.cos ε| ≤ 3e-6 := (abs_cos_sub_cos_le φ ε).trans hφ
  have hsε : |Real.sin ε| ≤ 0.412 := abs_sin_le_abs.trans hε
  obtain ⟨hy, hz'⟩ := rot_le ε H
  have h0 := (comp_le H 0).trans hl
  have hcs := cs_sq ε
  have hx : |δ * H 0| ≤ 3.3e-5 * 1.01708 := by rw [abs_mul]; exact mul_le_mul hδ h0 (abs_nonneg _) (by norm_num)
  have key : ![0, -Real.sin φ, Real.cos φ] ⬝ᵥ evpEquator ε δ H = H 2 - Real.sin ε * (δ * H 0) -
      (Real.sin φ - Real.sin ε) * (Real.cos ε * H 1 - Real.sin ε * H 2 + δ * H 0) +
      (Real.cos φ - Real.cos ε) * (Real.sin ε * H 1 + Real.cos ε * H 2) := by
    simp only [evpEquator, dotProduct, Fin.sum_univ_three, Matrix.cons_val]
    linear_combination (H 2) * hcs
  have b1 : |Real.sin ε * (δ * H 0)| ≤ 0.412 * (3.3e-5 * 1.01708) := by
    rw [abs_mul]; exact mul_le_mul hsε hx (abs_nonneg _) (by norm_num)
  have b2 : |(Real.sin φ - Real.sin ε) * (Real.cos ε * H 1 - Real.sin ε * H 2 + δ * H 0)| ≤ 3e-6 * 1.0172 := by
    rw [abs_mul]
    exact mul_le_mul hs ((abs_add_le _ _).trans (by linarith)) (abs_nonneg _) (by norm_num)
  have b3 : |(Real.cos φ - Real.cos ε) * (Real.sin ε * H 1 + Real.cos ε * H 2)| ≤ 3e-6 * 1.0172 := by
    rw [abs_mul]
    exact mul_le_mul hc (by linarith) (abs_nonneg _) (by norm_num)
  rw [key]
  rw [abs_le] at *
  constructor <;> linarith

example : ∃ date : ℝ, |date - 15019.5| ≤ 182625 ∧ epj date ≠ 1900 := ⟨51544.5, by norm_num [abs_le], by norm_num [epj]⟩

/-! ### C76 -/

theorem evp_eqcor_le {date : ℝ} (h : |date - 15019.5| ≤ 73050) : |evpEqcor date| ≤ 1.3e-5 := by
  have h1 := pi_gt_three
  have h2 := pi_lt_d2
  obtain ⟨h3, h4⟩ := abs_le.mp h
  have hb : |0.035 + 0.00085 * (epj date - 1949.9997904423)| ≤ 0.1777 := by
    have e : epj date - 1949.9997904423 = (date - 15019.5) * (1 / 365.25) + (1900 - 1949.9997904423) := by rw [epj]; ring
    rw [e, abs_le]
    norm_num
    constructor <;> linarith
  have hp : |π / 43200| ≤ 7.3e-5 := by rw [abs_of_nonneg (by positivity)]; norm_num; linarith
  exact (abs_mul_le' hp hb).trans (by norm_num)

theorem evp_equator_near {ε ε' δ : ℝ} (v : Vec) :
    len (evpEquator ε δ v - evpEquator ε' 0 v) ≤ (|ε - ε'| + |δ|) * len v := by
  have e : evpEquator ε δ v - evpEquator ε' 0 v = ![0, (Real.cos ε - Real.cos ε') * v 1 - (Real.sin ε - Real.sin ε') * v 2,
      (Real.sin ε - Real.sin ε') * v 1 + (Real.cos ε - Real.cos ε') * v 2] +
      δ • ![-(Real.cos ε * v 1 - Real.sin ε * v 2), v 0, 0] := by
    ext i; fin_cases i <;> simp [evpEquator] <;> ring
  have hl := len_nonneg v
  have hv := len_sq' v
  have h1 : len ![0, (Real.cos ε - Real.cos ε') * v 1 - (Real.sin ε - Real.sin ε') * v 2,
      (Real.sin ε - Real.sin ε') * v 1 + (Real.cos ε - Real.cos ε') * v 2] ≤ |ε - ε'| * len v := by
    refine len_le_of (by positivity) ?_
    rw [mul_pow, sq_abs]
    simp only [Matrix.cons_val]
    have h3 := one_sub_sq_div_two_le_cos (x := ε - ε')
    rw [cos_sub] at h3
    have c1 := cs_sq ε
    have c2 := cs_sq ε'
    have e2 : (0 : ℝ) * 0 + ((Real.cos ε - Real.cos ε') * v 1 - (Real.sin ε - Real.sin ε') * v 2) *
        ((Real.cos ε - Real.cos ε') * v 1 - (Real.sin ε - Real.sin ε') * v 2) +
        ((Real.sin ε - Real.sin ε') * v 1 + (Real.cos ε - Real.cos ε') * v 2) *
        ((Real.sin ε - Real.sin ε') * v 1 + (Real.cos ε - Real.cos ε') * v 2) =
        (v 1 * v 1 + v 2 * v 2) * (2 - 2 * (Real.cos ε * Real.cos ε' + Real.sin ε * Real.sin ε')) := by
      linear_combination (v 1 * v 1 + v 2 * v 2) * c1 + (v 1 * v 1 + v 2 * v 2) * c2
    rw [e2]
    have k1 : 2 - 2 * (Real.cos ε * Real.cos ε' + Real.sin ε * Real.sin ε') ≤ (ε - ε') ^ 2 := by linarith
    have k2 : v 1 * v 1 + v 2 * v 2 ≤ len v ^ 2 := by rw [hv]; linarith [mul_self_nonneg (v 0)]
    rw [mul_comm ((ε - ε') ^ 2)]
    refine (mul_le_mul_of_nonneg_left k1 (add_nonneg (mul_self_nonneg _) (mul_self_nonneg _))).trans ?_
    exact mul_le_mul_of_nonneg_right k2 (sq_nonneg _)
  have h2 : len ![-(Real.cos ε * v 1 - Real.sin ε * v 2), v 0, 0] ≤ len v := by
    refine len_le_of hl ?_
    rw [hv]
    simp only [Matrix.cons_val]
    have c1 := cs_sq ε
    have e1 : (Real.cos ε * v 1 - Real.sin ε * v 2) ^ 2 + (Real.sin ε * v 1 + Real.cos ε * v 2) ^ 2 = v 1 * v 1 + v 2 * v 2 := by
      linear_combination (v 1 * v 1 + v 2 * v 2) * c1
    nlinarith [sq_nonneg (Real.sin ε * v 1 + Real.cos ε * v 2)]
  rw [e]
  refine (len_add_le _ _).trans ?_
  rw [len_smul]
  nlinarith [mul_le_mul_of_nonneg_left h2 (abs_nonneg δ)]

private theorem axis_len (z : ℝ) : len ![0, 0, z] = |z| := by
  rw [len_eq]; simp [Real.sqrt_mul_self_eq_abs]

/-- C76. Two hundred years to either side of 1900 the low-precision `earth`, called for the year and day that `clyd` gives, and
    `evp`, called for the date that `cldj` gives, agree in the heliocentric position of the Earth to 3.1e-4 AU (46000 km), and
    in its velocity to 1.8e-10 AU per second (27 m/s). -/
theorem C76_agreement (D : YMD) (h : D.Valid) (f old deqx : ℝ) (a b : ℤ)
    (ht : |(cldj D.year D.month D.day old).2 + f - 15019.5| ≤ 73050) (hy : -4699 ≤ D.year) (hd : deqx ≤ 0) :
    let low := earth (clyd D.year D.month D.day a b).2.1 (clyd D.year D.month D.day a b).2.2 f
    let high := evp ((cldj D.year D.month D.day old).2 + f) deqx
    len (high.hpos - low.pos) ≤ 3.1e-4 ∧ len (high.hvelo - low.vel) ≤ 1.8e-10 := by
  intro low high
  obtain ⟨date, hdate⟩ : ∃ date, date = (cldj D.year D.month D.day old).2 + f := ⟨_, rfl⟩
  have el := earth_of_date h hy f old a b
  have hhigh : high = evp date deqx := by rw [hdate]
  have hlow : low = earthAt (4.881628 + 2 * π * (100 * ((date - 15019.5) / 36525)) + 0.00013420 * (100 * ((date - 15019.5) / 36525)))
      (4.72 + 83.9971 * (100 * ((date - 15019.5) / 36525))) (100 * ((date - 15019.5) / 36525)) := by
    have e : 100 * ((date - 15019.5) / 36525) = (date - 15019.5) / 365.25 := by ring
    rw [e, hdate]; exact el
  rw [← hdate] at ht
  have hδ := evp_eqcor_le ht
  have h5 : |date - 15019.5| ≤ 182625 := ht.trans (by norm_num)
  have hc : |(date - 15019.5) / 36525| ≤ 2 := by
    rw [abs_div, abs_of_pos (by norm_num : (0 : ℝ) < 36525), div_le_iff₀ (by norm_num)]; linarith
  have ep := earth_polar ((date - 15019.5) / 36525)
  rw [hhigh, evp_of_date h5 hd, hlow, ep.1, ep.2]
  dsimp only
  clear ep hlow hhigh el h5 ht hdate
  generalize (date - 15019.5) / 36525 = t at *
  generalize evpEqcor date = δ at *
  rw [(helio_eq t).1, (helio_eq t).2]
  have hε := (elements_near hc).2.2.2.1
  have hq := eq_len (evpPoly evpEps t) δ (hδ.trans (by norm_num))
  have hp1 := emb_pos_near hc
  have hv1 := emb_vel_near hc
  obtain ⟨hp2, hv2⟩ := moon_near hc
  have hsε : |Real.sin (eEps t)| ≤ 0.41 := by
    refine abs_sin_le_abs.trans ?_
    obtain ⟨t1, t2⟩ := abs_le.mp hc
    rw [abs_le]; simp only [eEps]; constructor <;> linarith
  obtain ⟨-, -, -, -, -, -, -, b1, b2⟩ := elements_near hc
  obtain ⟨-, -, q3, q4⟩ := ell_bounds (e := eE t) (by linarith) (by linarith) (eV t)
  have hEp : len ((eEmb t).pos + (eDis t).pos) ≤ 1.0172 := by
    refine (len_add_le _ _).trans ?_
    rw [eEmb, eDis]
    dsimp only
    rw [polar_len (cs_sq _), polar_len (cs_sq _)]
    have k1 : sqrt (((1 - eE t * eE t) / (1 + eE t * Real.cos (eV t))) ^ 2 + 0 ^ 2 + 0 ^ 2) ≤ 1.017 := by
      refine sqrt_le_of (by norm_num) ?_
      nlinarith
    have k2 : sqrt ((-3.12e-5 : ℝ) ^ 2 + 0 ^ 2 + 0 ^ 2) ≤ 3.12e-5 := sqrt_le_of (by norm_num) (le_of_eq (by ring))
    linarith
  have hEv : len ((eEmb t).vel + (eDis t).vel) ≤ 2.04e-7 := by
    refine (len_add_le _ _).trans ?_
    rw [eEmb, eDis]
    dsimp only
    rw [polar_len (cs_sq _), polar_len (cs_sq _)]
    have k1 : sqrt ((1.9913e-7 * (eE t * Real.sin (eV t))) ^ 2 + (1.9913e-7 * (1 + eE t * Real.cos (eV t))) ^ 2 + 0 ^ 2) ≤ 2.026e-7 := by
      refine sqrt_le_of (by norm_num) ?_
      have hcs := cs_sq (eV t)
      have : (1.9913e-7 * (eE t * Real.sin (eV t))) ^ 2 + (1.9913e-7 * (1 + eE t * Real.cos (eV t))) ^ 2 + 0 ^ 2 =
          1.9913e-7 ^ 2 * (1 + 2 * eE t * Real.cos (eV t) + eE t ^ 2) := by
        linear_combination 1.9913e-7 ^ 2 * eE t ^ 2 * hcs
      rw [this]
      have : 1 + 2 * eE t * Real.cos (eV t) + eE t ^ 2 ≤ 1.01684 ^ 2 := by clear * - b1 b2; nlinarith [cos_le_one (eV t)]
      refine (mul_le_mul_of_nonneg_left this (by norm_num)).trans (by norm_num)
    have k2 : sqrt ((0 : ℝ) ^ 2 + (-8.31e-11) ^ 2 + 0 ^ 2) ≤ 8.31e-11 := sqrt_le_of (by norm_num) (le_of_eq (by ring))
    linarith
  have key : ∀ (u u' v v' w : Vec), evpEquator (evpPoly evpEps t) δ (u + u') - (evpEquator (eEps t) 0 (v + v') + w) =
      evpEquator (evpPoly evpEps t) δ ((u - v) + (u' - v')) +
      (evpEquator (evpPoly evpEps t) δ (v + v') - evpEquator (eEps t) 0 (v + v')) - w := by
    intro u u' v v' w
    have : u + u' = ((u - v) + (u' - v')) + (v + v') := by abel
    rw [this, eq_add]; abel
  have hn : ∀ v : Vec, len (evpEquator (evpPoly evpEps t) δ v - evpEquator (eEps t) 0 v) ≤ 1.34e-5 * len v := fun v =>
    (evp_equator_near v).trans (mul_le_mul_of_nonneg_right (by linarith) (len_nonneg v))
  rw [key, key]
  constructor
  · have w : len ![0, 0, 3.12e-5 * (Real.sin (eMoon t) * Real.sin (eEps t))] ≤ 1.28e-5 := by
      rw [axis_len]
      exact (abs_mul_le' (X := 3.12e-5) (by rw [abs_of_nonneg]; norm_num) (abs_mul_le' (abs_sin_le_one _) hsε)).trans (by norm_num)
    have x1 := hq ((embAt t).pos - (eEmb t).pos + ((moonAt t).pos - (eDis t).pos))
    have x2 := len_add_le ((embAt t).pos - (eEmb t).pos) ((moonAt t).pos - (eDis t).pos)
    have x3 := hn ((eEmb t).pos + (eDis t).pos)
    refine (len_sub_le _ _).trans ((add_le_add (len_add_le _ _) le_rfl).trans ?_)
    linarith
  · have w : len ![0, 0, 8.31e-11 * (Real.cos (eMoon t) * Real.sin (eEps t))] ≤ 3.41e-11 := by
      rw [axis_len]
      exact (abs_mul_le' (X := 8.31e-11) (by rw [abs_of_nonneg]; norm_num) (abs_mul_le' (abs_cos_le_one _) hsε)).trans (by norm_num)
    have x1 := hq ((embAt t).vel - (eEmb t).vel + ((moonAt t).vel - (eDis t).vel))
    have x2 := len_add_le ((embAt t).vel - (eEmb t).vel) ((moonAt t).vel - (eDis t).vel)
    have x3 := hn ((eEmb t).vel + (eDis t).vel)
    refine (len_sub_le _ _).trans ((add_le_add (len_add_le _ _) le_rfl).trans ?_)
    linarith

example : (⟨2000, 1, 1⟩ : YMD).Valid ∧ |(cldj 2000 1 1 0).2 + 0.5 - 15019.5| ≤ 73050 := by
  refine ⟨by decide, ?_⟩
  have e : (cldj 2000 1 1 0).2 = 51544 := by
    have : cldjExpr 2000 1 1 = 51544 := by decide
    simp [cldj, this]
  rw [e, abs_le]; norm_num

end Sla.Props
