/- The Moon's part in the motion of the Earth according to `evp`. -/
import Verif.Lemmas.EvpEmb

noncomputable section
namespace Sla.EvpL

open Real Sla.Spec Matrix

theorem moonPert_sums (a : Fin 3 → ℝ) : evpMoonPert a =
    { l := ∑ k, evpAmpm k 0 * sin (a k)
      ld := ∑ k, evpAmpm k 1 * cos (a k)
      r := ∑ k, evpAmpm k 2 * cos (a k)
      rd := ∑ k, -(evpAmpm k 3 * sin (a k)) } := by
  have key : ∀ (l : List (Fin 3)) (p : EvpPert), l.foldl (fun p k =>
      let s := Real.sin (a k)
      let c := Real.cos (a k)
      (⟨p.l + evpAmpm k 0 * s, p.ld + evpAmpm k 1 * c, p.r + evpAmpm k 2 * c, p.rd - evpAmpm k 3 * s⟩ : EvpPert)) p =
      { l := p.l + (l.map fun k => evpAmpm k 0 * sin (a k)).sum
        ld := p.ld + (l.map fun k => evpAmpm k 1 * cos (a k)).sum
        r := p.r + (l.map fun k => evpAmpm k 2 * cos (a k)).sum
        rd := p.rd + (l.map fun k => -(evpAmpm k 3 * sin (a k))).sum } := by
    intro l
    induction l with
    | nil => intro p; simp
    | cons k l ih =>
      intro p
      rw [List.foldl_cons, ih]
      simp only [List.map_cons, List.sum_cons, EvpPert.mk.injEq]
      refine ⟨?_, ?_, ?_, ?_⟩ <;> ring
  rw [evpMoonPert, key]
  simp only [Fin.sum_univ_def, zero_add]

theorem moonPert_bounds (a : Fin 3 → ℝ) : |(evpMoonPert a).r| ≤ 0.07278 ∧ |(evpMoonPert a).rd| ≤ 2.075e-7 ∧
    |(evpMoonPert a).ld| ≤ 3.972e-7 := by
  rw [moonPert_sums]
  have hc : ∀ k, |cos (a k)| ≤ 1 := fun k => abs_cos_le_one _
  have hs : ∀ k, |sin (a k)| ≤ 1 := fun k => abs_sin_le_one _
  dsimp only
  refine ⟨(sum_le fun k => abs_mul_le' (le_refl _) (hc k)).trans ?_,
    (sum_le fun k => (abs_neg _).trans_le (abs_mul_le' (le_refl _) (hs k))).trans ?_,
    (sum_le fun k => abs_mul_le' (le_refl _) (hc k)).trans ?_⟩ <;>
  · simp [Fin.sum_univ_succ, evpAmpm]; norm_num [abs_of_nonneg, abs_of_nonpos]

theorem moonPert_deriv (t : ℝ) : ∃ l' r' : ℝ,
    HasDerivAt (fun t => (evpMoonPert (evpElements id t).argm).l) (cy * l') t ∧
    HasDerivAt (fun t => (evpMoonPert (evpElements id t).argm).r) (cy * r') t ∧
    |l' - (evpMoonPert (evpElements id t).argm).ld| ≤ 1e-12 ∧ |r' - (evpMoonPert (evpElements id t).argm).rd| ≤ 1e-12 := by
  have hcy : cy ≠ 0 := by norm_num [cy]
  set θ : Fin 3 → ℝ → ℝ := fun k t => evpArgm k 0 + t * evpArgm k 1 with hθ
  have hargs : (evpElements id t).argm = fun k => θ k t := rfl
  have hd : ∀ k, HasDerivAt (θ k) (evpArgm k 1) t := fun k => lin_deriv _ _ t
  refine ⟨∑ k, evpAmpm k 0 * (evpArgm k 1 / cy) * cos (θ k t), ∑ k, -(evpAmpm k 2 * (evpArgm k 1 / cy) * sin (θ k t)), ?_, ?_, ?_, ?_⟩
  · simp only [moonPert_sums]
    refine (HasDerivAt.fun_sum fun k _ => (hd k).sin.const_mul (evpAmpm k 0)).congr_deriv ?_
    rw [Finset.mul_sum]
    exact Finset.sum_congr rfl fun k _ => by field_simp
  · simp only [moonPert_sums]
    refine (HasDerivAt.fun_sum fun k _ => (hd k).cos.const_mul (evpAmpm k 2)).congr_deriv ?_
    rw [Finset.mul_sum]
    exact Finset.sum_congr rfl fun k _ => by field_simp
  · rw [moonPert_sums, hargs, ← Finset.sum_sub_distrib]
    have h : ∀ k, |evpAmpm k 0 * (evpArgm k 1 / cy) - evpAmpm k 1| ≤ 2e-13 := by
      intro k; rw [abs_le]; fin_cases k <;> simp [evpAmpm, evpArgm, cy] <;> norm_num
    have e : ∀ k, evpAmpm k 0 * (evpArgm k 1 / cy) * cos (θ k t) - evpAmpm k 1 * cos (θ k t) =
      (evpAmpm k 0 * (evpArgm k 1 / cy) - evpAmpm k 1) * cos (θ k t) := fun k => by ring
    simp only [e]
    refine (sum_le fun k => abs_mul_le' (h k) (abs_cos_le_one _)).trans ?_
    simp; norm_num
  · rw [moonPert_sums, hargs, ← Finset.sum_sub_distrib]
    have h : ∀ k, |evpAmpm k 3 - evpAmpm k 2 * (evpArgm k 1 / cy)| ≤ 2e-13 := by
      intro k; rw [abs_le]; fin_cases k <;> simp [evpAmpm, evpArgm, cy] <;> norm_num
    have e : ∀ k, -(evpAmpm k 2 * (evpArgm k 1 / cy) * sin (θ k t)) - -(evpAmpm k 3 * sin (θ k t)) =
      (evpAmpm k 3 - evpAmpm k 2 * (evpArgm k 1 / cy)) * sin (θ k t) := fun k => by ring
    simp only [e]
    refine (sum_le fun k => abs_mul_le' (h k) (abs_sin_le_one _)).trans ?_
    simp; norm_num

def moonAt (t : ℝ) : VectorPV := evpMoon (evpPoly (evpFel 2) t) (evpPoly (evpFel 3) t) (evpMoonPert (evpElements id t).argm)

theorem moon_polar (lm fm : ℝ) (p : EvpPert) : evpMoon lm fm p =
    ⟨polar (cos (lm + p.l)) (sin (lm + p.l)) (-(3.122140e-5 / (1 + p.r) * cos (8.978749e-2 * sin fm))) 0
      (-(3.122140e-5 / (1 + p.r) * sin (8.978749e-2 * sin fm))),
     polar (cos (lm + p.l)) (sin (lm + p.l)) (3.122140e-5 / (1 + p.r) * p.rd)
      (-(3.122140e-5 / (1 + p.r) * (2.661699e-6 + p.ld))) (-(3.122140e-5 / (1 + p.r) * 2.399485e-7 * cos fm))⟩ := by
  simp only [evpMoon, polar, VectorPV.mk.injEq]
  constructor <;> ext i <;> fin_cases i <;> simp only [Fin.zero_eta, Fin.mk_one, Fin.reduceFinMk, Matrix.cons_val] <;> ring

theorem sin_small {x X : ℝ} (h : |x| ≤ X) : |sin x| ≤ X := (abs_sin_le_abs (x := x)).trans h

theorem cos_small {x X : ℝ} (h : |x| ≤ X) : |cos x - 1| ≤ X ^ 2 / 2 := by
  have h1 := one_sub_sq_div_two_le_cos (x := x)
  have h2 := cos_le_one x
  have h3 : x ^ 2 ≤ X ^ 2 := sq_le_sq' (abs_le.mp h).1 (abs_le.mp h).2
  rw [abs_le]; constructor <;> linarith [sq_nonneg X]

set_option maxHeartbeats 1000000 in
theorem moon_drift {t : ℝ} (ht : |t| ≤ 5) : Drift moonAt t 1.24e-12 := by
  obtain ⟨l', r', hl, hr, hle, hre⟩ := moonPert_deriv t
  obtain ⟨hR, hrd, hld⟩ := moonPert_bounds (evpElements id t).argm
  have hcy : cy ≠ 0 := by norm_num [cy]
  have hm := poly_deriv (evpFel 2) t
  have hf := poly_deriv (evpFel 3) t
  obtain ⟨hR1, hR2⟩ := abs_le.mp hR
  have hpos : 0 < 1 + (evpMoonPert (evpElements id t).argm).r := by linarith
  have hL := hm.add hl
  have hfl := hf.sin.const_mul 8.978749e-2
  have hσ := (hasDerivAt_const t (3.122140e-5 : ℝ)).div (hr.const_add 1) hpos.ne'
  have hρ := (hσ.mul hfl.cos).neg
  have hγ := (hσ.mul hfl.sin).neg
  refine drift_polar (fun t => by rw [moonAt, moon_polar]; rfl) (by rw [moonAt, moon_polar]; rfl) hL hρ hγ (by norm_num) ?_
  have hm' : |(evpFel 2 1 + 2 * t * evpFel 2 2) / cy - pr - 2.661699e-6| ≤ 1e-12 := by
    have := abs_le.mp ht
    rw [abs_le]; simp [evpFel, cy, pr]; constructor <;> norm_num <;> linarith
  have hf' : |8.978749e-2 * ((evpFel 3 1 + 2 * t * evpFel 3 2) / cy) - 2.399485e-7| ≤ 1e-12 := by
    have := abs_le.mp ht
    rw [abs_le]; simp [evpFel, cy]; constructor <;> norm_num <;> linarith
  -- the latitude
  have hS := abs_sin_le_one (evpPoly (evpFel 3) t)
  have hC := abs_cos_le_one (evpPoly (evpFel 3) t)
  have hCS := cs_sq (evpPoly (evpFel 3) t)
  have hb : |8.978749e-2 * sin (evpPoly (evpFel 3) t)| ≤ 8.978749e-2 :=
    (abs_mul_le' (X := 8.978749e-2) (by rw [abs_of_nonneg]; norm_num) hS).trans (by norm_num)
  have hsl := sin_small hb
  have hcl := (cos_small hb).trans (by norm_num : _ ≤ (0.004031 : ℝ))
  have hcle := cos_le_one (8.978749e-2 * sin (evpPoly (evpFel 3) t))
  have hsl2 : |sin (8.978749e-2 * sin (evpPoly (evpFel 3) t))| ≤ 8.978749e-2 * |sin (evpPoly (evpFel 3) t)| := by
    have := abs_sin_le_abs (x := 8.978749e-2 * sin (evpPoly (evpFel 3) t))
    rwa [abs_mul, abs_of_nonneg (by norm_num : (0 : ℝ) ≤ 8.978749e-2)] at this
  simp only [Pi.neg_apply, Pi.mul_apply, Pi.div_apply]
  generalize evpMoonPert (evpElements id t).argm = p at *
  generalize evpFel 2 1 + 2 * t * evpFel 2 2 = m' at *
  generalize evpFel 3 1 + 2 * t * evpFel 3 2 = f' at *
  generalize cos (8.978749e-2 * sin (evpPoly (evpFel 3) t)) = cl at *
  generalize sin (8.978749e-2 * sin (evpPoly (evpFel 3) t)) = sl at *
  generalize sin (evpPoly (evpFel 3) t) = S at *
  generalize cos (evpPoly (evpFel 3) t) = C at *
  obtain ⟨D, hD⟩ : ∃ D, D = 1 / (1 + p.r) := ⟨_, rfl⟩
  have hDD : D * (1 + p.r) = 1 := by rw [hD]; field_simp
  have hDlo : 0.93215 ≤ D := by rw [hD, le_div_iff₀ hpos]; nlinarith
  have hDhi : D ≤ 1.0785 := by rw [hD, div_le_iff₀ hpos]; nlinarith
  have hDb : |D| ≤ 1.0785 := by rw [abs_of_nonneg (by linarith)]; exact hDhi
  have hcl1 := abs_le.mp hcl
  have hcD : |cl * D - 1| ≤ 0.0786 ∧ |cl| ≤ 1.005 := by
    constructor
    · rw [abs_le]; constructor <;> nlinarith
    · rw [abs_le]; constructor <;> linarith
  have hrb : |r'| ≤ 2.0751e-7 := by
    rw [show r' = (r' - p.rd) + p.rd by ring]; exact (abs_add_le' hre hrd).trans (by norm_num)
  have h2SC : |S| * |C| ≤ 1 / 2 := by
    nlinarith [sq_nonneg (|S| - |C|), sq_abs S, sq_abs C]
  have eρ : (-((0 * (1 + p.r) - 3.122140e-5 * (cy * r')) / (1 + p.r) ^ 2 * cl + 3.122140e-5 / (1 + p.r) * (-sl * (8.978749e-2 * (C * f'))))) / cy -
      3.122140e-5 / (1 + p.r) * p.rd = 3.122140e-5 * D * (r' * (cl * D - 1) + (r' - p.rd) +
        sl * C * ((8.978749e-2 * (f' / cy) - 2.399485e-7) + 2.399485e-7)) := by
    rw [hD]; field_simp; ring
  have eτ : -(3.122140e-5 / (1 + p.r) * cl) * ((m' + cy * l') / cy) - -(3.122140e-5 / (1 + p.r) * (2.661699e-6 + p.ld)) -
      pr * -(3.122140e-5 / (1 + p.r) * cl) = -(3.122140e-5 * D) * (cl * ((m' / cy - pr - 2.661699e-6) + (l' - p.ld)) +
        (cl - 1) * (2.661699e-6 + p.ld)) := by
    rw [hD]; field_simp; ring
  have eγ : (-((0 * (1 + p.r) - 3.122140e-5 * (cy * r')) / (1 + p.r) ^ 2 * sl + 3.122140e-5 / (1 + p.r) * (cl * (8.978749e-2 * (C * f'))))) / cy -
      -(3.122140e-5 / (1 + p.r) * 2.399485e-7 * C) = 3.122140e-5 * D * (r' * D * sl - cl * C * (8.978749e-2 * (f' / cy) - 2.399485e-7) -
        (cl - 1) * (2.399485e-7 * C)) := by
    rw [hD]; field_simp; ring
  have hslC : |sl * C| ≤ 8.978749e-2 / 2 := by
    rw [abs_mul]; nlinarith [abs_nonneg C]
  have kσ : |(3.122140e-5 : ℝ)| ≤ 3.122140e-5 := by rw [abs_of_nonneg]; norm_num
  have kw : |(2.399485e-7 : ℝ)| ≤ 2.399485e-7 := by rw [abs_of_nonneg]; norm_num
  have kn : |(2.661699e-6 : ℝ)| ≤ 2.661699e-6 := by rw [abs_of_nonneg]; norm_num
  have b1 := (abs_mul_le' (abs_mul_le' kσ hDb) (abs_add_le' (abs_add_le' (abs_mul_le' hrb hcD.1) hre) (abs_mul_le' hslC (abs_add_le' hf' kw)))).trans
    (by norm_num : _ ≤ (9.2e-13 : ℝ))
  have b2 := (abs_mul_le' ((abs_neg _).trans_le (abs_mul_le' kσ hDb)) (abs_add_le' (abs_mul_le' hcD.2 (abs_add_le' hm' hle))
    (abs_mul_le' hcl (abs_add_le' kn hld)))).trans (by norm_num : _ ≤ (4.2e-13 : ℝ))
  have b3 := (abs_mul_le' (abs_mul_le' kσ hDb) (abs_sub_le' (abs_sub_le' (abs_mul_le' (abs_mul_le' hrb hDb) hsl) (abs_mul_le' (abs_mul_le' hcD.2 hC) hf'))
    (abs_mul_le' hcl (abs_mul_le' kw hC)))).trans (by norm_num : _ ≤ (7.15e-13 : ℝ))
  rw [← eρ] at b1
  rw [← eτ] at b2
  rw [← eγ] at b3
  have q1 := sq_le_sq' (abs_le.mp b1).1 (abs_le.mp b1).2
  have q2 := sq_le_sq' (abs_le.mp b2).1 (abs_le.mp b2).2
  have q3 := sq_le_sq' (abs_le.mp b3).1 (abs_le.mp b3).2
  have h3 : (9.2e-13 : ℝ) ^ 2 + (4.2e-13) ^ 2 + (7.15e-13) ^ 2 ≤ (1.24e-12) ^ 2 := by norm_num
  linarith

/-! ### Sizes -/

theorem moon_size (t : ℝ) : len (moonAt t).pos ≤ 3.4e-5 ∧ len (moonAt t).vel ≤ 1.05e-10 := by
  obtain ⟨hR, hrd, hld⟩ := moonPert_bounds (evpElements id t).argm
  rw [moonAt, moon_polar]
  generalize evpMoonPert (evpElements id t).argm = p at *
  obtain ⟨hR1, hR2⟩ := abs_le.mp hR
  have hpos : 0 < 1 + p.r := by linarith
  have hσ : |3.122140e-5 / (1 + p.r)| ≤ 3.3673e-5 := by
    rw [abs_of_pos (by positivity), div_le_iff₀ hpos]; nlinarith
  have hσ2 := sq_le_sq' (abs_le.mp hσ).1 (abs_le.mp hσ).2
  have hcs := cs_sq (8.978749e-2 * sin (evpPoly (evpFel 3) t))
  have hC := abs_cos_le_one (evpPoly (evpFel 3) t)
  generalize cos (8.978749e-2 * sin (evpPoly (evpFel 3) t)) = cl at *
  generalize sin (8.978749e-2 * sin (evpPoly (evpFel 3) t)) = sl at *
  generalize cos (evpPoly (evpFel 3) t) = C at *
  generalize 3.122140e-5 / (1 + p.r) = σ at *
  constructor
  · refine len_polar_le (cs_sq _) (by norm_num) ?_
    have : (-(σ * cl)) ^ 2 + 0 ^ 2 + (-(σ * sl)) ^ 2 = σ ^ 2 := by linear_combination σ ^ 2 * hcs
    rw [this]
    exact hσ2.trans (by norm_num)
  · refine len_polar_le (cs_sq _) (by norm_num) ?_
    have b1 := (abs_mul_le' hσ hrd).trans (by norm_num : _ ≤ (7e-12 : ℝ))
    have b2 := ((abs_neg _).trans_le (abs_mul_le' hσ (abs_add_le' (x := 2.661699e-6) (X := 2.661699e-6) (by rw [abs_of_nonneg]; norm_num) hld))).trans
      (by norm_num : _ ≤ (1.031e-10 : ℝ))
    have b3 := ((abs_neg _).trans_le (abs_mul_le' (abs_mul_le' (y := 2.399485e-7) (Y := 2.399485e-7) hσ (by rw [abs_of_nonneg]; norm_num)) hC)).trans
      (by norm_num : _ ≤ (8.1e-12 : ℝ))
    have q1 := sq_le_sq' (abs_le.mp b1).1 (abs_le.mp b1).2
    have q2 := sq_le_sq' (abs_le.mp b2).1 (abs_le.mp b2).2
    have q3 := sq_le_sq' (abs_le.mp b3).1 (abs_le.mp b3).2
    have h3 : (7e-12 : ℝ) ^ 2 + (1.031e-10) ^ 2 + (8.1e-12) ^ 2 ≤ (1.05e-10) ^ 2 := by norm_num
    linarith

set_option maxHeartbeats 1000000 in
theorem emb_size {t : ℝ} (ht : |t| ≤ 5) : 0.98296 ≤ len (embAt t).pos ∧ len (embAt t).pos ≤ 1.01704 ∧
    1.956e-7 ≤ len (embAt t).vel ∧ len (embAt t).vel ≤ 2.0264e-7 := by
  obtain ⟨hR, hrd, hld⟩ := pert_bounds t (evpElements id t).sec (evpElements id t).args
  obtain ⟨he0, he, -, -, -⟩ := ecc_range ht
  have he1 : evpPoly (evpSel 0) t ≤ 0.017 := he.trans (by norm_num)
  rw [embAt, emb_polar]
  dsimp only
  rw [polar_len (cs_sq _), polar_len (cs_sq _)]
  generalize evpPert t (evpElements id t).sec (evpElements id t).args = p at *
  generalize evpPoly (evpSel 0) t = e at *
  generalize evpPoly (evpFel 1) t + evpPhi e (evpPoly (evpFel 1) t) = f at *
  obtain ⟨hpos, hlo, hψ1, hψ2⟩ := ell_bounds he0 he1 f
  have hid := kep_ident' e f
  have hcl := cos_le_one f
  have hcn := neg_one_le_cos f
  have hc2 : cos f ^ 2 ≤ 1 := by nlinarith
  have hq0 : 0 ≤ e * e := mul_self_nonneg e
  have hq1 : e * e ≤ 0.000289 := by nlinarith
  have hw := inv_sqrt_bound hq0 hq1
  have hsn := abs_sin_le_one f
  generalize sqrt (1 - e * e) = w at *
  generalize kep e f = K at *
  obtain ⟨D, hD⟩ : ∃ D, D = 1 + e * cos f := ⟨_, rfl⟩
  rw [← hD] at hpos hlo hψ1 hψ2 hid ⊢
  have hD1 : 0.98303 ≤ D := by rw [hD]; nlinarith
  have hD2 : D ≤ 1.01697 := by rw [hD]; nlinarith
  obtain ⟨hR1, hR2⟩ := abs_le.mp hR
  have h1R : |1 + p.r| ≤ 1.000068 := by rw [abs_le]; constructor <;> linarith
  have hψ : |(1 - e * e) / D| ≤ 1.01697 := by rw [abs_of_nonneg (by linarith)]; linarith
  -- the transverse velocity
  have hψK : (1 - e * e) / D * (1 + K) = (1 - e * e) * (1 + 1.5 * e ^ 2) * D - (1 - e * e) / D * (1.5 * (e * e) ^ 2 * cos f ^ 2) := by
    rw [hid]; field_simp
  have hsm : |(1 - e * e) / D * (1.5 * (e * e) ^ 2 * cos f ^ 2)| ≤ 2e-7 := by
    have h4 : |(e * e) ^ 2| ≤ 8.4e-8 := by rw [abs_of_nonneg (by positivity)]; nlinarith
    have h5 : |cos f ^ 2| ≤ 1 := by rw [abs_of_nonneg (sq_nonneg _)]; exact hc2
    exact (abs_mul_le' hψ (abs_mul_le' (abs_mul_le' (X := 1.5) (by rw [abs_le]; norm_num) h4) h5)).trans (by norm_num)
  have hfac1 : 1 ≤ (1 - e * e) * (1 + 1.5 * e ^ 2) := by nlinarith
  have hfac2 : (1 - e * e) * (1 + 1.5 * e ^ 2) ≤ 1.00015 := by nlinarith
  obtain ⟨hs1, hs2⟩ := abs_le.mp hsm
  have hT1 : 0.983029 ≤ (1 - e * e) / D * (1 + K) := by rw [hψK]; clear * - hfac1 hfac2 hs1 hs2 hD1 hD2; nlinarith
  have hT2 : (1 - e * e) / D * (1 + K) ≤ 1.01713 := by rw [hψK]; clear * - hfac1 hfac2 hs1 hs2 hD1 hD2; nlinarith
  generalize (1 - e * e) / D = ψ at *
  have hψ0 : 0.983 ≤ ψ := by linarith
  have hψ3 : ψ ≤ 1.01697 := by linarith
  obtain ⟨hl1, hl2⟩ := abs_le.mp hld
  have hX : (1 + p.r) * ψ * (1.990987e-7 + 1.990969e-7 * K + p.ld) =
      (1 + p.r) * (1.990969e-7 * (ψ * (1 + K)) + ψ * (1.8e-12 + p.ld)) := by ring
  have hY1 : 1.9568e-7 ≤ 1.990969e-7 * (ψ * (1 + K)) + ψ * (1.8e-12 + p.ld) := by
    clear * - hψ0 hψ3 hl1 hl2 hT1 hT2; nlinarith
  have hY2 : 1.990969e-7 * (ψ * (1 + K)) + ψ * (1.8e-12 + p.ld) ≤ 2.0256e-7 := by
    clear * - hψ0 hψ3 hl1 hl2 hT1 hT2; nlinarith
  have hX1 : 1.956e-7 ≤ (1 + p.r) * ψ * (1.990987e-7 + 1.990969e-7 * K + p.ld) := by rw [hX]; clear * - hY1 hY2 hR1 hR2; nlinarith
  have hX2 : (1 + p.r) * ψ * (1.990987e-7 + 1.990969e-7 * K + p.ld) ≤ 2.0258e-7 := by rw [hX]; clear * - hY1 hY2 hR1 hR2; nlinarith
  have hiw : |1 / w| ≤ 1.001 := by
    have := abs_le.mp hw; rw [abs_le]; constructor <;> linarith
  have ha : |e| ≤ 0.017 := by rwa [abs_of_nonneg he0]
  have hZ : |(1 + p.r) * (1.990969e-7 * e * sin f / w + ψ * p.rd)| ≤ 3.5e-9 := by
    rw [div_eq_mul_one_div]
    exact (abs_mul_le' h1R (abs_add_le' (abs_mul_le' (abs_mul_le' (abs_mul_le' (X := 2e-7) (by rw [abs_le]; norm_num) ha) hsn) hiw)
      (abs_mul_le' hψ hrd))).trans (by norm_num)
  have hZ2 := sq_le_sq' (abs_le.mp hZ).1 (abs_le.mp hZ).2
  generalize (1 + p.r) * ψ * (1.990987e-7 + 1.990969e-7 * K + p.ld) = X at *
  generalize (1 + p.r) * (1.990969e-7 * e * sin f / w + ψ * p.rd) = Z at *
  refine ⟨Real.le_sqrt_of_sq_le ?_, Real.sqrt_le_iff.2 ⟨by norm_num, ?_⟩, Real.le_sqrt_of_sq_le ?_,
    Real.sqrt_le_iff.2 ⟨by norm_num, ?_⟩⟩
  · have h0 : 0.98303 ≤ ψ := by linarith
    have h : 0.98296 ≤ ψ * (1 + p.r) := by clear * - h0 hR1; nlinarith
    clear * - h; nlinarith
  · have h : ψ * (1 + p.r) ≤ 1.01704 := by clear * - hψ0 hψ3 hR1 hR2; nlinarith
    have h' : 0 ≤ ψ * (1 + p.r) := by clear * - hψ0 hR1; nlinarith
    clear * - h h'; nlinarith
  · clear * - hX1; nlinarith [sq_nonneg Z]
  · have h3 : (3.5e-9 : ℝ) ^ 2 + (2.0258e-7) ^ 2 ≤ (2.0264e-7) ^ 2 := by norm_num
    have h4 : X ^ 2 ≤ (2.0258e-7) ^ 2 := by
      apply sq_le_sq' <;> linarith
    linarith

end Sla.EvpL
