/- C64: `dmoon`. -/
import Verif.Model.Moon
import Verif.Lemmas.MoonTurn
import Verif.Spec.Sphere
import Verif.Lemmas.Coords
import Verif.Props.Spherical
import Verif.Props.Eterms
import Mathlib.Analysis.SpecialFunctions.Trigonometric.Deriv
import Mathlib.Analysis.SpecialFunctions.Trigonometric.Bounds
import Mathlib.Analysis.Real.Pi.Bounds

noncomputable section
namespace Sla.Props

open Real Sla.Spec Matrix

/-! ### Derivatives -/

private structure Moves (a : ℝ → MoonArgs) (r : MoonArgs) (t : ℝ) : Prop where
  elp : HasDerivAt (fun t => (a t).elp) r.elp t
  em : HasDerivAt (fun t => (a t).em) r.em t
  emp : HasDerivAt (fun t => (a t).emp) r.emp t
  d : HasDerivAt (fun t => (a t).d) r.d t
  f : HasDerivAt (fun t => (a t).f) r.f t
  om : HasDerivAt (fun t => (a t).om) r.om t

private theorem poly_deriv (c0 c1 c2 c3 t : ℝ) :
    HasDerivAt (fun t => d2r * id (moonPoly c0 c1 c2 c3 t)) (d2r * moonPolyRate c1 c2 c3 t) t := by
  have hx := hasDerivAt_id t
  have := (((((hx.const_mul c3).const_add c2).mul hx).const_add c1).mul hx).const_add c0
  have := this.const_mul d2r
  exact this.congr_deriv (by simp only [id_eq, moonPolyRate, Pi.mul_apply]; ring)

private theorem args_deriv (t : ℝ) : Moves (dmoonArgs id) (dmoonRates t) t :=
  ⟨poly_deriv _ _ _ _ t, poly_deriv _ _ _ _ t, poly_deriv _ _ _ _ t, poly_deriv _ _ _ _ t, poly_deriv _ _ _ _ t,
   poly_deriv _ _ _ _ t⟩

private theorem lin_deriv (a b t : ℝ) : HasDerivAt (fun t => a + b * t) b t := by
  simpa using ((hasDerivAt_id t).const_mul b).const_add a

private theorem wa_deriv (t : ℝ) : HasDerivAt dmoonWa (dmoonDwa t) t := by
  have := ((lin_deriv 51.2 20.2 t).const_mul d2r).sin
  exact this.congr_deriv (by simp only [dmoonDwa]; ring)

private theorem wb_deriv (t : ℝ) : HasDerivAt dmoonWb (dmoonDwb t) t := by
  have h := ((((lin_deriv 132.870 (-0.0091731) t).mul (hasDerivAt_id t)).const_add 346.560).const_mul d2r).sin.const_mul
    0.003964
  exact h.congr_deriv (by simp only [dmoonDwb, id_eq, Pi.mul_apply]; ring)

private theorem wom_deriv {a : ℝ → MoonArgs} {r : MoonArgs} {t : ℝ} (h : Moves a r t) :
    HasDerivAt (fun t => dmoonWom t (a t)) (dmoonDwom r) t :=
  h.om.add ((lin_deriv 275.05 (-2.30) t).const_mul d2r)

private theorem periodic_deriv {a : ℝ → MoonArgs} {r : MoonArgs} {t : ℝ} (h : Moves a r t) :
    Moves (fun t => dmoonPeriodic t (a t)) (dmoonPeriodicRates t (a t) r) t := by
  have ha := wa_deriv t
  have hb := wb_deriv t
  have ho := h.om.sin
  have hw := (wom_deriv h).sin
  refine ⟨?_, ?_, ?_, ?_, ?_, h.om⟩
  · exact (h.elp.add ((((ha.const_mul 0.000233).add hb).add (ho.const_mul 0.001964)).const_mul d2r)).congr_deriv
      (by simp only [dmoonPeriodicRates]; ring)
  · exact (h.em.add (ha.const_mul (d2r * -0.001778))).congr_deriv (by simp only [dmoonPeriodicRates])
  · exact (h.emp.add ((((ha.const_mul 0.000817).add hb).add (ho.const_mul 0.002541)).const_mul d2r)).congr_deriv
      (by simp only [dmoonPeriodicRates]; ring)
  · exact (h.d.add ((((ha.const_mul 0.002011).add hb).add (ho.const_mul 0.001964)).const_mul d2r)).congr_deriv
      (by simp only [dmoonPeriodicRates]; ring)
  · exact (h.f.add (((hb.add (ho.const_mul (-0.024691))).add (hw.const_mul (-0.004328))).const_mul d2r)).congr_deriv
      (by simp only [dmoonPeriodicRates]; ring)

private theorem theta_deriv {a : ℝ → MoonArgs} {r : MoonArgs} {t : ℝ} (h : Moves a r t) (k : MoonTerm) :
    HasDerivAt (fun t => k.theta (a t)) (k.theta r) t :=
  (((h.em.const_mul _).add (h.emp.const_mul _)).add (h.d.const_mul _)).add (h.f.const_mul _)

private theorem e_deriv (t : ℝ) : HasDerivAt dmoonE (dmoonDe t) t := by
  have := ((lin_deriv (-0.002495) (-0.00000752) t).mul (hasDerivAt_id t)).const_add 1
  exact this.congr_deriv (by simp only [dmoonDe, id_eq]; ring)

private theorem en_deriv (i : ℤ) (t : ℝ) : HasDerivAt (fun t => dmoonEn t i) (dmoonDen t i) t := by
  simp only [dmoonEn, dmoonDen]
  split_ifs
  · exact hasDerivAt_const t 1
  · exact e_deriv t
  · exact ((e_deriv t).mul (e_deriv t)).congr_deriv (by ring)

private theorem fold_deriv (step : ℝ → ℝ × ℝ → MoonTerm → ℝ × ℝ) (t : ℝ)
    (hstep : ∀ k (s : ℝ → ℝ × ℝ), HasDerivAt (fun t => (s t).1) (s t).2 t →
      HasDerivAt (fun t => (step t (s t) k).1) (step t (s t) k).2 t) :
    ∀ (l : List MoonTerm) (s : ℝ → ℝ × ℝ), HasDerivAt (fun t => (s t).1) (s t).2 t →
      HasDerivAt (fun t => (l.foldl (step t) (s t)).1) (l.foldl (step t) (s t)).2 t := by
  intro l
  induction l with
  | nil => intro s hs; exact hs
  | cons k l ih =>
    intro s hs
    exact ih (fun t => step t (s t) k) (hstep k s hs)

private theorem sin_fold {a r : ℝ → MoonArgs} {t : ℝ} (h : Moves a (r t) t) (l : List MoonTerm) :
    HasDerivAt (fun t => (l.foldl (dmoonSinTerm t (a t) (r t)) (0, 0)).1)
      (l.foldl (dmoonSinTerm t (a t) (r t)) (0, 0)).2 t := by
  refine fold_deriv (fun t => dmoonSinTerm t (a t) (r t)) t (fun k s hs => ?_) l (fun _ => (0, 0)) (hasDerivAt_const t 0)
  have := hs.add (((theta_deriv h k).sin.const_mul k.c).mul (en_deriv k.e t))
  exact this.congr_deriv (by simp only [dmoonSinTerm]; ring)

private theorem cos_fold {a r : ℝ → MoonArgs} {t : ℝ} (h : Moves a (r t) t) (l : List MoonTerm) :
    HasDerivAt (fun t => (l.foldl (dmoonCosTerm t (a t) (r t)) (0, 0)).1)
      (l.foldl (dmoonCosTerm t (a t) (r t)) (0, 0)).2 t := by
  refine fold_deriv (fun t => dmoonCosTerm t (a t) (r t)) t (fun k s hs => ?_) l (fun _ => (0, 0)) (hasDerivAt_const t 0)
  have := hs.add (((theta_deriv h k).cos.const_mul k.c).mul (en_deriv k.e t))
  exact this.congr_deriv (by simp only [dmoonCosTerm]; ring)

/-- The spherical coordinates at `t` centuries, without reduction of the arguments. -/
private def sph (t : ℝ) : SphericalPV := dmoonSpherical t (dmoonArgs id t) (dmoonRates t)

private def parallax (t : ℝ) : ℝ :=
  d2r * (dmoonP.reverse.foldl (dmoonCosTerm t (dmoonPeriodic t (dmoonArgs id t))
    (dmoonPeriodicRates t (dmoonArgs id t) (dmoonRates t))) (0, 0)).1

private theorem sph_deriv (t : ℝ) (hp : Real.sin (parallax t) ≠ 0) :
    HasDerivAt (fun t => (sph t).long) (3155760000 * (sph t).dlong) t ∧
    HasDerivAt (fun t => (sph t).lat) (3155760000 * (sph t).dlat) t ∧
    HasDerivAt (fun t => (sph t).dist) (3155760000 * (sph t).ddist) t := by
  have ha := args_deriv t
  have hpa := periodic_deriv ha
  have hl := sin_fold (a := fun t => dmoonPeriodic t (dmoonArgs id t))
    (r := fun t => dmoonPeriodicRates t (dmoonArgs id t) (dmoonRates t)) hpa
  have hc := cos_fold (a := fun t => dmoonPeriodic t (dmoonArgs id t))
    (r := fun t => dmoonPeriodicRates t (dmoonArgs id t) (dmoonRates t)) hpa dmoonP.reverse
  refine ⟨?_, ?_, ?_⟩
  · exact (hpa.elp.add ((hl dmoonL.reverse).const_mul d2r)).congr_deriv (by simp only [sph, dmoonSpherical]; ring)
  · have hbf := ((ha.om.cos.const_mul 0.0004664).const_sub 1).sub ((wom_deriv ha).cos.const_mul 0.0000754)
    exact (((hl dmoonB.reverse).const_mul d2r).mul hbf).congr_deriv
      (by simp only [sph, dmoonSpherical, Pi.sub_apply]; ring)
  · have h1 := (hc.const_mul d2r).sin
    have h2 := (hasDerivAt_const t (4.2635212653763e-5 : ℝ)).div h1 hp
    refine h2.congr_deriv ?_
    simp only [sph, dmoonSpherical]
    rw [parallax] at hp
    field_simp
    ring

/-! ### Bounds -/

private def wt (i : ℤ) : ℤ := if i = 0 then 10000 else if i = 1 then 10600 else 11236

/-- Bound on the rate of an argument, in units of 1e-4 degree per century. -/
private def rt (k : MoonTerm) : ℤ :=
  |k.m * 359990498 + k.mp * 4771988491 + k.d * 4452671142 + k.f * 4832020251| +
    20000 * (|k.m| + |k.mp| + |k.d| + |k.f|)

private def s1 (l : List MoonTerm) : ℤ := (l.map fun k => |k.coeff| * wt k.e).sum
private def s2 (l : List MoonTerm) : ℤ := (l.map fun k => |k.coeff| * (rt k * wt k.e)).sum

private theorem d2r_bounds : 0.01745 < d2r ∧ d2r < 0.017454 := by
  have h1 := Real.pi_gt_d4
  have h2 := Real.pi_lt_d4
  simp only [d2r]
  constructor <;> linarith

private theorem abs_mul_le' {x y X Y : ℝ} (hx : |x| ≤ X) (hy : |y| ≤ Y) : |x * y| ≤ X * Y := by
  rw [abs_mul]; exact mul_le_mul hx hy (abs_nonneg _) ((abs_nonneg x).trans hx)

private theorem e_bound {t : ℝ} (ht : |t| ≤ 20) : |dmoonE t| ≤ 1.06 ∧ |dmoonDe t| ≤ 0.003 := by
  have h := abs_le.mp ht
  have h2 : t * t ≤ 400 := by nlinarith
  have h3 : 0 ≤ t * t := mul_self_nonneg t
  simp only [dmoonE, dmoonDe]
  constructor <;> rw [abs_le] <;> constructor <;> norm_num <;> nlinarith

private theorem en_bound {t : ℝ} (ht : |t| ≤ 20) (i : ℤ) :
    |dmoonEn t i| ≤ (wt i : ℝ) / 10000 ∧ |dmoonDen t i| ≤ 0.01 := by
  obtain ⟨h1, h2⟩ := e_bound ht
  simp only [dmoonEn, dmoonDen, wt]
  split_ifs
  · norm_num
  · constructor
    · norm_num at h1 ⊢; exact h1
    · norm_num at h2 ⊢; linarith
  · have a := abs_mul_le' h1 h1
    have b := abs_mul_le' h1 h2
    constructor
    · norm_num at a ⊢; linarith
    · rw [mul_assoc, abs_mul, abs_two]; norm_num at b ⊢; linarith

private theorem term_bound {t : ℝ} (ht : |t| ≤ 20) (k : MoonTerm) (f g x : ℝ) (hf : |f| ≤ 1) (hg : |g| ≤ 1)
    (hx : |x| ≤ d2r * (rt k / 10000)) :
    |k.c * f * dmoonEn t k.e| ≤ (|k.coeff| * wt k.e : ℤ) / 10 ^ 10 ∧
    |k.c * (g * x * dmoonEn t k.e + f * dmoonDen t k.e)| ≤
      d2r * ((|k.coeff| * (rt k * wt k.e) : ℤ) / 10 ^ 14) + 0.01 * ((|k.coeff| * wt k.e : ℤ) / 10 ^ 10) := by
  obtain ⟨h1, h2⟩ := en_bound ht k.e
  have hc : |k.c| = (|k.coeff| : ℤ) / 10 ^ 6 := by
    rw [MoonTerm.c, abs_div, abs_of_pos (by norm_num : (0 : ℝ) < 1000000), Int.cast_abs]; norm_num
  have hc0 : (0 : ℝ) ≤ (|k.coeff| : ℤ) / 10 ^ 6 := by rw [← hc]; exact abs_nonneg _
  have hw : (1 : ℝ) ≤ (wt k.e : ℝ) / 10000 := by
    simp only [wt]; split_ifs <;> norm_num
  constructor
  · rw [mul_assoc, abs_mul, hc]
    have := abs_mul_le' hf h1
    refine (mul_le_mul_of_nonneg_left this hc0).trans (le_of_eq ?_)
    push_cast; ring
  · rw [abs_mul, hc]
    have a := abs_mul_le' (abs_mul_le' hg hx) h1
    have b := abs_mul_le' hf h2
    have b' : |f * dmoonDen t k.e| ≤ 0.01 * ((wt k.e : ℝ) / 10000) := by linarith
    refine (mul_le_mul_of_nonneg_left ((abs_add_le _ _).trans (add_le_add a b')) hc0).trans (le_of_eq ?_)
    push_cast; ring

private theorem fold_bound (step : ℝ × ℝ → MoonTerm → ℝ × ℝ)
    (h1 : ∀ s k, |(step s k).1 - s.1| ≤ (|k.coeff| * wt k.e : ℤ) / 10 ^ 10)
    (h2 : ∀ s k, |(step s k).2 - s.2| ≤
      d2r * ((|k.coeff| * (rt k * wt k.e) : ℤ) / 10 ^ 14) + 0.01 * ((|k.coeff| * wt k.e : ℤ) / 10 ^ 10)) :
    ∀ (l : List MoonTerm) (s : ℝ × ℝ), |(l.foldl step s).1 - s.1| ≤ s1 l / 10 ^ 10 ∧
      |(l.foldl step s).2 - s.2| ≤ d2r * (s2 l / 10 ^ 14) + 0.01 * (s1 l / 10 ^ 10) := by
  intro l
  induction l with
  | nil => intro s; simp [s1, s2]
  | cons k l ih =>
    intro s
    obtain ⟨i1, i2⟩ := ih (step s k)
    have e1 : s1 (k :: l) = |k.coeff| * wt k.e + s1 l := by simp [s1]
    have e2 : s2 (k :: l) = |k.coeff| * (rt k * wt k.e) + s2 l := by simp [s2]
    rw [List.foldl_cons, e1, e2]
    constructor
    · have := abs_add_le ((l.foldl step (step s k)).1 - (step s k).1) ((step s k).1 - s.1)
      rw [sub_add_sub_cancel] at this
      have := h1 s k
      rw [Int.cast_add, add_div]
      linarith
    · have := abs_add_le ((l.foldl step (step s k)).2 - (step s k).2) ((step s k).2 - s.2)
      rw [sub_add_sub_cancel] at this
      have := h2 s k
      rw [Int.cast_add, Int.cast_add, add_div, add_div]
      linarith

/-- Rates of the arguments, with their periodic variations, near the linear ones. -/
private structure Near (r : MoonArgs) : Prop where
  elp : |r.elp - d2r * 481267.8831| ≤ d2r * 2
  em : |r.em - d2r * 35999.0498| ≤ d2r * 2
  emp : |r.emp - d2r * 477198.8491| ≤ d2r * 2
  d : |r.d - d2r * 445267.1142| ≤ d2r * 2
  f : |r.f - d2r * 483202.0251| ≤ d2r * 2

private theorem theta_bound {r : MoonArgs} (h : Near r) (k : MoonTerm) : |k.theta r| ≤ d2r * (rt k / 10000) := by
  have e : k.theta r = d2r * ((k.m * 359990498 + k.mp * 4771988491 + k.d * 4452671142 + k.f * 4832020251 : ℤ) / 10000) +
      (k.m * (r.em - d2r * 35999.0498) + k.mp * (r.emp - d2r * 477198.8491) + k.d * (r.d - d2r * 445267.1142) +
        k.f * (r.f - d2r * 483202.0251)) := by
    simp only [MoonTerm.theta]; push_cast; ring
  have hd : 0 ≤ d2r := by linarith [d2r_bounds.1]
  have b : ∀ (n : ℤ) (x : ℝ), |x| ≤ d2r * 2 → |n * x| ≤ |(n : ℝ)| * (d2r * 2) := fun n x hx => by
    rw [abs_mul]; exact mul_le_mul_of_nonneg_left hx (abs_nonneg _)
  have b1 := b k.m _ h.em
  have b2 := b k.mp _ h.emp
  have b3 := b k.d _ h.d
  have b4 := b k.f _ h.f
  rw [e]
  refine (abs_add_le _ _).trans ?_
  rw [abs_mul, abs_of_nonneg hd, abs_div, abs_of_pos (by norm_num : (0 : ℝ) < 10000), ← Int.cast_abs]
  have a1 := abs_add_le (k.m * (r.em - d2r * 35999.0498) + k.mp * (r.emp - d2r * 477198.8491) +
    k.d * (r.d - d2r * 445267.1142)) (k.f * (r.f - d2r * 483202.0251))
  have a2 := abs_add_le (k.m * (r.em - d2r * 35999.0498) + k.mp * (r.emp - d2r * 477198.8491))
    (k.d * (r.d - d2r * 445267.1142))
  have a3 := abs_add_le (k.m * (r.em - d2r * 35999.0498)) (k.mp * (r.emp - d2r * 477198.8491))
  have : d2r * ((rt k : ℝ) / 10000) = d2r *
      ((|k.m * 359990498 + k.mp * 4771988491 + k.d * 4452671142 + k.f * 4832020251| : ℤ) / 10000) +
      (|(k.m : ℝ)| + |(k.mp : ℝ)| + |(k.d : ℝ)| + |(k.f : ℝ)|) * (d2r * 2) := by
    simp only [rt]; push_cast; ring
  rw [this]
  linarith

private theorem sin_bound {t : ℝ} (ht : |t| ≤ 20) (a : MoonArgs) {r : MoonArgs} (h : Near r) (l : List MoonTerm)
    (s : ℝ × ℝ) :
    |(l.foldl (dmoonSinTerm t a r) s).1 - s.1| ≤ s1 l / 10 ^ 10 ∧
    |(l.foldl (dmoonSinTerm t a r) s).2 - s.2| ≤ d2r * (s2 l / 10 ^ 14) + 0.01 * (s1 l / 10 ^ 10) := by
  refine fold_bound _ (fun s k => ?_) (fun s k => ?_) l s <;>
    simp only [dmoonSinTerm, add_sub_cancel_left]
  · exact (term_bound ht k _ (Real.cos (k.theta a)) _ (Real.abs_sin_le_one _) (Real.abs_cos_le_one _) (theta_bound h k)).1
  · exact (term_bound ht k _ _ _ (Real.abs_sin_le_one _) (Real.abs_cos_le_one _) (theta_bound h k)).2

private theorem cos_bound {t : ℝ} (ht : |t| ≤ 20) (a : MoonArgs) {r : MoonArgs} (h : Near r) (l : List MoonTerm)
    (s : ℝ × ℝ) :
    |(l.foldl (dmoonCosTerm t a r) s).1 - s.1| ≤ s1 l / 10 ^ 10 ∧
    |(l.foldl (dmoonCosTerm t a r) s).2 - s.2| ≤ d2r * (s2 l / 10 ^ 14) + 0.01 * (s1 l / 10 ^ 10) := by
  refine fold_bound _ (fun s k => ?_) (fun s k => ?_) l s <;>
    simp only [dmoonCosTerm, add_sub_cancel_left]
  · exact (term_bound ht k _ (-Real.sin (k.theta a)) _ (Real.abs_cos_le_one _) (by rw [abs_neg]; exact Real.abs_sin_le_one _)
      (theta_bound h k)).1
  · exact (term_bound ht k _ _ _ (Real.abs_cos_le_one _) (by rw [abs_neg]; exact Real.abs_sin_le_one _) (theta_bound h k)).2

private theorem rate_bound {t : ℝ} (ht : |t| ≤ 20) (c1 c2 c3 C2 C3 : ℝ) (h2 : |c2| ≤ C2) (h3 : |c3| ≤ C3) :
    |d2r * moonPolyRate c1 c2 c3 t - d2r * c1| ≤ d2r * (40 * C2 + 1200 * C3) := by
  have hd : 0 ≤ d2r := by linarith [d2r_bounds.1]
  rw [show d2r * moonPolyRate c1 c2 c3 t - d2r * c1 = d2r * (2 * (c2 * t) + 3 * (c3 * (t * t))) by
    simp only [moonPolyRate]; ring, abs_mul, abs_of_nonneg hd]
  refine mul_le_mul_of_nonneg_left ((abs_add_le _ _).trans ?_) hd
  have a := abs_mul_le' h2 ht
  have b := abs_mul_le' h3 (abs_mul_le' ht ht)
  rw [abs_mul, abs_mul 3, abs_two, abs_of_pos (by norm_num : (0 : ℝ) < 3)]
  linarith

private theorem near_rates {t : ℝ} (ht : |t| ≤ 20) (a : MoonArgs) :
    Near (dmoonPeriodicRates t a (dmoonRates t)) ∧ |(dmoonRates t).om| ≤ 33.8 ∧ |dmoonDwom (dmoonRates t)| ≤ 33.9 := by
  obtain ⟨d1, d2⟩ := d2r_bounds
  have hd : |d2r| ≤ 0.017454 := by rw [abs_of_nonneg (by linarith)]; linarith
  have hc : ∀ x, |Real.cos x| ≤ 1 := Real.abs_cos_le_one
  have wa : |dmoonDwa t| ≤ 0.36 := by
    have := abs_mul_le' hd (hc (d2r * (51.2 + 20.2 * t)))
    rw [dmoonDwa, show d2r * 20.2 * Real.cos (d2r * (51.2 + 20.2 * t)) =
      20.2 * (d2r * Real.cos (d2r * (51.2 + 20.2 * t))) by ring, abs_mul, abs_of_pos (by norm_num : (0 : ℝ) < 20.2)]
    norm_num at this ⊢; linarith
  have wb : |dmoonDwb t| ≤ 0.01 := by
    have h1 : |132.870 + 2 * -0.0091731 * t| ≤ 133.3 := by
      have := abs_le.mp ht
      rw [abs_le]; constructor <;> norm_num <;> linarith
    have := abs_mul_le' (abs_mul_le' hd h1) (hc (d2r * (346.560 + (132.870 + -0.0091731 * t) * t)))
    rw [dmoonDwb, mul_comm d2r 0.003964, mul_assoc 0.003964, mul_assoc 0.003964, abs_mul,
      abs_of_pos (by norm_num : (0 : ℝ) < 0.003964)]
    norm_num at this ⊢; linarith
  have om : |(dmoonRates t).om - d2r * (-1934.1420)| ≤ d2r * 0.1 := by
    refine (rate_bound ht _ _ _ 0.002078 0.0000022 (by norm_num) (by norm_num)).trans ?_
    refine mul_le_mul_of_nonneg_left (by norm_num) (by linarith)
  have om1 : |(dmoonRates t).om| ≤ 33.8 := by
    rw [abs_le] at om ⊢
    constructor <;> norm_num at om ⊢ <;> linarith [om.1, om.2]
  have om2 : |dmoonDwom (dmoonRates t)| ≤ 33.9 := by
    simp only [dmoonDwom]
    rw [abs_le] at om1 ⊢
    constructor <;> norm_num at om1 ⊢ <;> linarith [om1.1, om1.2]
  have co := abs_mul_le' om1 (hc a.om)
  have cw := abs_mul_le' om2 (hc (dmoonWom t a))
  have key : ∀ (c1 c2 c3 C2 C3 x : ℝ), |c2| ≤ C2 → |c3| ≤ C3 → |x| ≤ 2 - (40 * C2 + 1200 * C3) →
      |d2r * moonPolyRate c1 c2 c3 t + d2r * x - d2r * c1| ≤ d2r * 2 := by
    intro c1 c2 c3 C2 C3 x h2 h3 hx
    have h := rate_bound ht c1 c2 c3 C2 C3 h2 h3
    have hx' : |d2r * x| ≤ d2r * (2 - (40 * C2 + 1200 * C3)) := by
      rw [abs_mul, abs_of_nonneg (by linarith : (0 : ℝ) ≤ d2r)]
      exact mul_le_mul_of_nonneg_left hx (by linarith)
    rw [abs_le] at h hx' ⊢
    constructor <;> linarith [h.1, h.2, hx'.1, hx'.2]
  rw [mul_one, abs_le] at co cw
  rw [abs_le] at wa wb
  obtain ⟨a1, a2⟩ := wa
  obtain ⟨b1, b2⟩ := wb
  obtain ⟨c1, c2⟩ := co
  obtain ⟨e1, e2⟩ := cw
  refine ⟨⟨?_, ?_, ?_, ?_, ?_⟩, om1, om2⟩ <;> simp only [dmoonPeriodicRates]
  · refine key _ _ _ 0.001133 0.0000019 _ (by norm_num) (by norm_num) ?_
    clear * - a1 a2 b1 b2 c1 c2
    rw [abs_le]; constructor <;> norm_num at * <;> linarith
  · rw [mul_assoc]
    refine key _ _ _ 0.000150 0.0000033 _ (by norm_num) (by norm_num) ?_
    clear * - a1 a2
    rw [abs_le]; constructor <;> norm_num at * <;> linarith
  · refine key _ _ _ 0.009192 0.0000144 _ (by norm_num) (by norm_num) ?_
    clear * - a1 a2 b1 b2 c1 c2
    rw [abs_le]; constructor <;> norm_num at * <;> linarith
  · refine key _ _ _ 0.001436 0.0000019 _ (by norm_num) (by norm_num) ?_
    clear * - a1 a2 b1 b2 c1 c2
    rw [abs_le]; constructor <;> norm_num at * <;> linarith
  · refine key _ _ _ 0.003211 0.0000003 _ (by norm_num) (by norm_num) ?_
    rw [mul_assoc]
    clear * - b1 b2 c1 c2 e1 e2
    rw [abs_le]; constructor <;> norm_num at * <;> linarith

private theorem sums :
    s1 dmoonL.reverse ≤ 92300000000 ∧ s2 dmoonL.reverse ≤ 475200000 * 10 ^ 12 ∧
    s1 dmoonB.reverse ≤ 61000000000 ∧ s2 dmoonB.reverse ≤ 300100000 * 10 ^ 12 ∧
    s1 (dmoonP.drop 1).reverse ≤ 763000000 ∧ s2 dmoonP.reverse ≤ 4200000 * 10 ^ 12 := by
  decide +kernel

/-- The Moon's ecliptic coordinates and their rates, for twenty centuries before and after 1900. -/
private theorem sph_bounds {t : ℝ} (ht : |t| ≤ 20) :
    Real.sin (parallax t) ≠ 0 ∧ 0.002375 ≤ (sph t).dist ∧ (sph t).dist ≤ 0.0028 ∧ |(sph t).lat| ≤ 0.1067 ∧
    6900 ≤ 3155760000 * (sph t).dlong ∧ 3155760000 * (sph t).dlong ≤ 9900 ∧
    |3155760000 * (sph t).dlat| ≤ 920 ∧ |3155760000 * (sph t).ddist| ≤ 2.5 := by
  obtain ⟨hn, om1, om2⟩ := near_rates ht (dmoonArgs id t)
  obtain ⟨sL1, sL2, sB1, sB2, sP1, sP2⟩ := sums
  obtain ⟨d1, d2⟩ := d2r_bounds
  have sL1' : (s1 dmoonL.reverse : ℝ) ≤ 92300000000 := by exact_mod_cast sL1
  have sL2' : (s2 dmoonL.reverse : ℝ) ≤ 475200000 * 10 ^ 12 := by exact_mod_cast sL2
  have sB1' : (s1 dmoonB.reverse : ℝ) ≤ 61000000000 := by exact_mod_cast sB1
  have sB2' : (s2 dmoonB.reverse : ℝ) ≤ 300100000 * 10 ^ 12 := by exact_mod_cast sB2
  have sP1' : (s1 (dmoonP.drop 1).reverse : ℝ) ≤ 763000000 := by exact_mod_cast sP1
  have sP2' : (s2 dmoonP.reverse : ℝ) ≤ 4200000 * 10 ^ 12 := by exact_mod_cast sP2
  set a := dmoonPeriodic t (dmoonArgs id t) with ha
  set r := dmoonPeriodicRates t (dmoonArgs id t) (dmoonRates t) with hr
  obtain ⟨l1, l2⟩ := sin_bound ht a hn dmoonL.reverse (0, 0)
  obtain ⟨b1, b2⟩ := sin_bound ht a hn dmoonB.reverse (0, 0)
  have p2 := (cos_bound ht a hn dmoonP.reverse (0, 0)).2
  have p1 := (cos_bound ht a hn (dmoonP.drop 1).reverse (0, 0)).1
  have p0 : (dmoonP.reverse.foldl (dmoonCosTerm t a r) (0, 0)).1 =
      ((dmoonP.drop 1).reverse.foldl (dmoonCosTerm t a r) (0, 0)).1 + 0.950724 := by
    rw [show dmoonP.reverse = (dmoonP.drop 1).reverse ++ [⟨950724, 0, 0, 0, 0, 0⟩] from rfl, List.foldl_append]
    simp only [List.foldl, dmoonCosTerm, MoonTerm.theta, MoonTerm.c, dmoonEn]
    norm_num
  set vl := dmoonL.reverse.foldl (dmoonSinTerm t a r) (0, 0) with hvl
  set vb := dmoonB.reverse.foldl (dmoonSinTerm t a r) (0, 0) with hvb
  set vp := dmoonP.reverse.foldl (dmoonCosTerm t a r) (0, 0) with hvp
  set vq := ((dmoonP.drop 1).reverse.foldl (dmoonCosTerm t a r) (0, 0)).1 with hvq
  simp only [sub_zero] at l1 l2 b1 b2 p1 p2
  have l2' : |vl.2| ≤ 82960 := by
    refine l2.trans ?_
    have : d2r * ((s2 dmoonL.reverse : ℝ) / 10 ^ 14) ≤ 0.017454 * 4752000 :=
      mul_le_mul d2.le (by linarith) (div_nonneg (by exact_mod_cast (by decide +kernel : 0 ≤ s2 dmoonL.reverse)) (by norm_num)) (by norm_num)
    linarith
  have b1' : |vb.1| ≤ 6.1 := b1.trans (by linarith)
  have b2' : |vb.2| ≤ 52380 := by
    refine b2.trans ?_
    have : d2r * ((s2 dmoonB.reverse : ℝ) / 10 ^ 14) ≤ 0.017454 * 3001000 :=
      mul_le_mul d2.le (by linarith) (div_nonneg (by exact_mod_cast (by decide +kernel : 0 ≤ s2 dmoonB.reverse)) (by norm_num)) (by norm_num)
    linarith
  have p2' : |vp.2| ≤ 734 := by
    refine p2.trans ?_
    have h1 : d2r * ((s2 dmoonP.reverse : ℝ) / 10 ^ 14) ≤ 0.017454 * 42000 :=
      mul_le_mul d2.le (by linarith) (div_nonneg (by exact_mod_cast (by decide +kernel : 0 ≤ s2 dmoonP.reverse)) (by norm_num)) (by norm_num)
    have h2 : (s1 dmoonP.reverse : ℝ) ≤ 10300000000 := by
      exact_mod_cast (by decide +kernel : s1 dmoonP.reverse ≤ 10300000000)
    linarith
  have p1' : |vq| ≤ 0.0763 := p1.trans (by linarith)
  have hpar : parallax t = d2r * vp.1 := rfl
  have hvp1 : 0.8744 ≤ vp.1 ∧ vp.1 ≤ 1.0271 := by
    rw [p0]; rw [abs_le] at p1'
    constructor <;> linarith [p1'.1, p1'.2]
  have hp1 : 0.015258 ≤ parallax t := by
    rw [hpar]; have := hvp1.1; clear * - this d1; nlinarith
  have hp2 : parallax t ≤ 0.01793 := by
    rw [hpar]; have := hvp1.2; have h0 := hvp1.1; clear * - this d2 h0; nlinarith
  have hs1 : Real.sin (parallax t) ≤ 0.01793 := (Real.sin_le (by linarith)).trans hp2
  have hs2 : 0.015256 ≤ Real.sin (parallax t) := by
    have := Real.sin_gt_sub_cube (by linarith : 0 < parallax t)
    have h3 : parallax t ^ 3 ≤ 0.01793 ^ 3 := pow_le_pow_left₀ (by linarith) hp2 3
    norm_num at h3 ⊢; linarith
  have hdist : (sph t).dist = 4.2635212653763e-5 / Real.sin (parallax t) := rfl
  have hD1 : 0.002375 ≤ (sph t).dist := by
    rw [hdist, le_div_iff₀ (by linarith)]
    norm_num at hs1 ⊢; linarith
  have hD2 : (sph t).dist ≤ 0.0028 := by
    rw [hdist, div_le_iff₀ (by linarith)]
    norm_num at hs2 ⊢; linarith
  have hd : |d2r| ≤ 0.017454 := by rw [abs_of_nonneg (by linarith)]; linarith
  set bf := 1 - 0.0004664 * Real.cos (dmoonArgs id t).om - 0.0000754 * Real.cos (dmoonWom t (dmoonArgs id t)) with hbf
  have hbf1 : |bf| ≤ 1.00055 := by
    have h1 := abs_le.mp (Real.abs_cos_le_one (dmoonArgs id t).om)
    have h2 := abs_le.mp (Real.abs_cos_le_one (dmoonWom t (dmoonArgs id t)))
    rw [hbf, abs_le]; constructor <;> norm_num <;> linarith [h1.1, h1.2, h2.1, h2.2]
  set dbf := 0.0004664 * (dmoonRates t).om * Real.sin (dmoonArgs id t).om +
    0.0000754 * dmoonDwom (dmoonRates t) * Real.sin (dmoonWom t (dmoonArgs id t)) with hdbf
  have hdbf1 : |dbf| ≤ 0.02 := by
    have h1 := abs_le.mp (abs_mul_le' om1 (Real.abs_sin_le_one (dmoonArgs id t).om))
    have h2 := abs_le.mp (abs_mul_le' om2 (Real.abs_sin_le_one (dmoonWom t (dmoonArgs id t))))
    rw [hdbf, mul_assoc, mul_assoc, abs_le]
    clear * - h1 h2
    constructor <;> norm_num at * <;> linarith [h1.1, h1.2, h2.1, h2.2]
  refine ⟨by linarith, hD1, hD2, ?_, ?_, ?_, ?_, ?_⟩
  · have e : (sph t).lat = d2r * vb.1 * bf := rfl
    rw [e]
    refine (abs_mul_le' (abs_mul_le' hd b1') hbf1).trans (by norm_num)
  · have e : (sph t).dlong = (r.elp + d2r * vl.2) / 3155760000 := rfl
    have h1 := (abs_le.mp hn.elp).1
    have h2 := (abs_le.mp l2').1
    rw [e, mul_div_cancel₀ _ (by norm_num)]
    have : d2r * (481267.8831 - 2 - 82960) ≤ r.elp + d2r * vl.2 := by clear * - h1 h2 d1; nlinarith
    clear * - this d1; norm_num at this d1 ⊢; linarith
  · have e : (sph t).dlong = (r.elp + d2r * vl.2) / 3155760000 := rfl
    have h1 := (abs_le.mp hn.elp).2
    have h2 := (abs_le.mp l2').2
    rw [e, mul_div_cancel₀ _ (by norm_num)]
    have : r.elp + d2r * vl.2 ≤ d2r * (481267.8831 + 2 + 82960) := by clear * - h1 h2 d1; nlinarith
    clear * - this d2; norm_num at this d2 ⊢; linarith
  · have e : (sph t).dlat = d2r * (vb.2 * bf + vb.1 * dbf) / 3155760000 := rfl
    rw [e, mul_div_cancel₀ _ (by norm_num)]
    have h := (abs_add_le _ _).trans (add_le_add (abs_mul_le' b2' hbf1) (abs_mul_le' b1' hdbf1))
    exact (abs_mul_le' hd h).trans (by norm_num)
  · have e : 3155760000 * (sph t).ddist = -((sph t).dist * (d2r * vp.2) * Real.cos (parallax t)) / Real.sin (parallax t) := by
      have : (sph t).ddist = -(sph t).dist * (d2r * vp.2 / 3155760000) * Real.cos (parallax t) / Real.sin (parallax t) := rfl
      rw [this]; ring
    rw [e, abs_div, abs_neg, abs_of_pos (by linarith : 0 < Real.sin (parallax t)), div_le_iff₀ (by linarith)]
    have hD : |(sph t).dist| ≤ 0.0028 := by rw [abs_of_nonneg (by linarith)]; exact hD2
    have := abs_mul_le' (abs_mul_le' hD (abs_mul_le' hd p2')) (Real.abs_cos_le_one (parallax t))
    norm_num at this hs2 ⊢
    linarith

/-! ### The results -/

private theorem dmoon_eq (date : ℝ) :
    (dmoon date).pos = dmoonEquator date (ds2c6 (sph ((date - 15019.5) / 36525))).pos ∧
    (dmoon date).vel = dmoonEquator date (ds2c6 (sph ((date - 15019.5) / 36525))).vel := by
  have h := (mturns_args ((date - 15019.5) / 36525)).rect ((date - 15019.5) / 36525) (dmoonRates ((date - 15019.5) / 36525))
  have e : dmoonRect (sph ((date - 15019.5) / 36525)) = ds2c6 (sph ((date - 15019.5) / 36525)) := rfl
  simp only [dmoon, h, ← e]
  exact ⟨rfl, rfl⟩

private theorem century {date : ℝ} (h : |date - 15019.5| ≤ 730500) : |(date - 15019.5) / 36525| ≤ 20 := by
  rw [abs_div, abs_of_pos (by norm_num : (0 : ℝ) < 36525), div_le_iff₀ (by norm_num)]
  linarith

private theorem ecl_deriv {date : ℝ} (h : |date - 15019.5| ≤ 730500) (i : Fin 3) :
    HasDerivAt (fun d => (ds2c6 (sph ((d - 15019.5) / 36525))).pos i)
      (86400 * (ds2c6 (sph ((date - 15019.5) / 36525))).vel i) date := by
  obtain ⟨hp, -⟩ := sph_bounds (century h)
  obtain ⟨h1, h2, h3⟩ := sph_deriv _ hp
  have ht : HasDerivAt (fun d : ℝ => (d - 15019.5) / 36525) (1 / 36525) date :=
    ((hasDerivAt_id date).sub_const _).div_const _
  have k1 := (HasDerivAt.comp date h1 ht).congr_deriv (g' := 86400 * (sph ((date - 15019.5) / 36525)).dlong) (by ring)
  have k2 := (HasDerivAt.comp date h2 ht).congr_deriv (g' := 86400 * (sph ((date - 15019.5) / 36525)).dlat) (by ring)
  have k3 := (HasDerivAt.comp date h3 ht).congr_deriv (g' := 86400 * (sph ((date - 15019.5) / 36525)).ddist) (by ring)
  obtain ⟨-, hv⟩ := C26_ds2c6 _ _ _ date _ _ _ k1 k2 k3
  have hpos : ∀ d, (ds2c6 (sph ((d - 15019.5) / 36525))).pos = ((fun t => (sph t).dist) ∘ fun d : ℝ => (d - 15019.5) / 36525) d •
      direction (((fun t => (sph t).long) ∘ fun d : ℝ => (d - 15019.5) / 36525) d)
        (((fun t => (sph t).lat) ∘ fun d : ℝ => (d - 15019.5) / 36525) d) := by
    intro d
    rw [direction_eq]
    funext i
    fin_cases i <;> simp [ds2c6] <;> ring
  have := (hasDerivAt_pi.mp hv) i
  rw [show (fun d => (ds2c6 (sph ((d - 15019.5) / 36525))).pos i) = fun d => (((fun t => (sph t).dist) ∘ fun d : ℝ => (d - 15019.5) / 36525) d •
      direction (((fun t => (sph t).long) ∘ fun d : ℝ => (d - 15019.5) / 36525) d)
        (((fun t => (sph t).lat) ∘ fun d : ℝ => (d - 15019.5) / 36525) d)) i from funext fun d => by rw [hpos]]
  refine this.congr_deriv ?_
  fin_cases i <;> simp [ds2c6] <;> ring

/-- The mean obliquity of date (IAU 1976) and the equinox correction from FK4 to FK5, in radians, and the matrix that
    takes ecliptic coordinates, counted from the FK4 equinox, to equatorial ones counted from the FK5 equinox. -/
def meanObliquity (date : ℝ) : ℝ :=
  let t := (date - 51544.5) / 36525
  π / 648000 * (84381.448 - 46.8150 * t - 0.00059 * t ^ 2 + 0.001813 * t ^ 3)

def equinoxCorrection (date : ℝ) : ℝ :=
  π / 43200 * (0.035 + 0.00085 * (2000 + (date - 51544.5) / 365.25 - 1949.9997904423))

def eclipticToEquator (date : ℝ) : Mat :=
  let e := meanObliquity date
  let q := equinoxCorrection date
  !![1, -q * cos e, q * sin e; q, cos e, -sin e; 0, sin e, cos e]

private theorem obliquity_eq (date : ℝ) : π / 648000 * (84381.448 + (-46.8150 + (-0.00059 + 0.001813 *
    ((date - 51544.5) / 36525)) * ((date - 51544.5) / 36525)) * ((date - 51544.5) / 36525)) = meanObliquity date := by
  simp only [meanObliquity]; ring

private theorem correction_eq (date : ℝ) : π / 43200 * (0.035 + 0.00085 * (2000 + (date - 51544.5) / 36525 * 100 -
    1949.9997904423)) = equinoxCorrection date := by
  simp only [equinoxCorrection]; ring

private theorem equator_eq (date : ℝ) (v : Vec) : dmoonEquator date v = eclipticToEquator date *ᵥ v := by
  simp only [dmoonEquator, obliquity_eq, correction_eq, eclipticToEquator]
  funext i
  fin_cases i <;> simp [Matrix.mulVec, dotProduct, Fin.sum_univ_three] <;> ring

/-- The results in terms of the spherical coordinates without reduction of the arguments. -/
theorem dmoon_of_date (date : ℝ) : dmoon date =
    (fun T : ℝ => (⟨eclipticToEquator date *ᵥ (ds2c6 (dmoonSpherical T (dmoonArgs id T) (dmoonRates T))).pos,
      eclipticToEquator date *ᵥ (ds2c6 (dmoonSpherical T (dmoonArgs id T) (dmoonRates T))).vel⟩ : VectorPV))
      ((date - 15019.5) / 36525) := by
  obtain ⟨h1, h2⟩ := dmoon_eq date
  rw [equator_eq] at h1 h2
  exact VectorPV.ext h1 h2

/-- For two thousand years either side of 1900: the returned position and velocity (AU and AU/s) are one and the same
    linear map, that from the mean ecliptic to the mean equator of date, of an ecliptic position and of its derivative
    per second; and in the ecliptic system the Moon always moves eastwards. -/
theorem C64_dmoon : ∃ q v : ℝ → Vec, ∀ date, |date - 15019.5| ≤ 730500 →
    (∀ i, HasDerivAt (fun d => q d i) (86400 * v date i) date) ∧
    (dmoon date).pos = eclipticToEquator date *ᵥ q date ∧ (dmoon date).vel = eclipticToEquator date *ᵥ v date ∧
    0 < q date 0 * v date 1 - q date 1 * v date 0 := by
  refine ⟨fun d => (ds2c6 (sph ((d - 15019.5) / 36525))).pos, fun d => (ds2c6 (sph ((d - 15019.5) / 36525))).vel,
    fun date h => ⟨fun i => ecl_deriv h i, ?_, ?_, ?_⟩⟩
  · rw [(dmoon_eq date).1, equator_eq]
  · rw [(dmoon_eq date).2, equator_eq]
  · obtain ⟨-, b1, -, b3, b4, -⟩ := sph_bounds (century h)
    set s := sph ((date - 15019.5) / 36525)
    have e : (ds2c6 s).pos 0 * (ds2c6 s).vel 1 - (ds2c6 s).pos 1 * (ds2c6 s).vel 0 =
        (s.dist * Real.cos s.lat) ^ 2 * s.dlong := by
      simp only [ds2c6, cons_val_zero, cons_val_one]
      linear_combination ((s.dist * Real.cos s.lat) ^ 2 * s.dlong) * (Real.sin_sq_add_cos_sq s.long)
    change 0 < (ds2c6 s).pos 0 * (ds2c6 s).vel 1 - (ds2c6 s).pos 1 * (ds2c6 s).vel 0
    rw [e]
    have hc : 0 < Real.cos s.lat := by
      refine Real.cos_pos_of_mem_Ioo ⟨?_, ?_⟩ <;> rw [abs_le] at b3 <;> linarith [b3.1, b3.2, Real.pi_gt_three]
    have h1 : 0 < s.dist := by linarith
    have h2 : 0 < s.dlong := by linarith
    positivity

example : |(51544.5 : ℝ) - 15019.5| ≤ 730500 := by norm_num [abs_le]

private theorem correction_bound {date : ℝ} (h : |date - 15019.5| ≤ 730500) : |equinoxCorrection date| ≤ 0.00013 := by
  have h1 := Real.pi_gt_d4
  have h2 := Real.pi_lt_d4
  have : |0.035 + 0.00085 * (2000 + (date - 51544.5) / 365.25 - 1949.9997904423)| ≤ 1.7426 := by
    rw [abs_le] at h ⊢
    constructor <;> norm_num <;> linarith [h.1, h.2]
  simp only [equinoxCorrection]
  refine (abs_mul_le' (X := 3.1416 / 43200) ?_ this).trans (by norm_num)
  rw [abs_of_nonneg (by positivity)]; linarith

private theorem frame_len (date : ℝ) (v : Vec) : len v ≤ len (eclipticToEquator date *ᵥ v) ∧
    len (eclipticToEquator date *ᵥ v) ≤ (1 + |equinoxCorrection date|) * len v := by
  have e : len (eclipticToEquator date *ᵥ v) ^ 2 = len v ^ 2 + equinoxCorrection date ^ 2 *
      (v 0 ^ 2 + (cos (meanObliquity date) * v 1 - sin (meanObliquity date) * v 2) ^ 2) := by
    rw [len_sq, len_sq]
    have hs := Real.sin_sq_add_cos_sq (meanObliquity date)
    simp only [eclipticToEquator, Matrix.mulVec, dotProduct, Fin.sum_univ_three]
    simp
    linear_combination (v 1 ^ 2 + v 2 ^ 2) * hs
  have h0 : len v ^ 2 = v 0 ^ 2 + (cos (meanObliquity date) * v 1 - sin (meanObliquity date) * v 2) ^ 2 +
      (sin (meanObliquity date) * v 1 + cos (meanObliquity date) * v 2) ^ 2 := by
    have hs := Real.sin_sq_add_cos_sq (meanObliquity date)
    rw [len_sq]
    simp only [dotProduct, Fin.sum_univ_three]
    linear_combination -(v 1 ^ 2 + v 2 ^ 2) * hs
  have hn := len_nonneg v
  constructor
  · refine le_of_sq_le_sq ?_ (len_nonneg _)
    rw [e]; nlinarith [sq_nonneg (v 0), sq_nonneg (cos (meanObliquity date) * v 1 - sin (meanObliquity date) * v 2),
      mul_nonneg (sq_nonneg (equinoxCorrection date)) (sq_nonneg (v 0)), mul_nonneg (sq_nonneg (equinoxCorrection date))
        (sq_nonneg (cos (meanObliquity date) * v 1 - sin (meanObliquity date) * v 2))]
  · refine le_of_sq_le_sq ?_ (by positivity)
    rw [e, mul_pow]
    have h1 : equinoxCorrection date ^ 2 * (v 0 ^ 2 + (cos (meanObliquity date) * v 1 - sin (meanObliquity date) * v 2) ^ 2) ≤
        equinoxCorrection date ^ 2 * len v ^ 2 := by
      refine mul_le_mul_of_nonneg_left ?_ (sq_nonneg _)
      rw [h0]; nlinarith [sq_nonneg (sin (meanObliquity date) * v 1 + cos (meanObliquity date) * v 2)]
    have h2 : equinoxCorrection date ^ 2 = |equinoxCorrection date| ^ 2 := (sq_abs _).symm
    rw [h2] at h1 ⊢
    nlinarith [mul_nonneg (abs_nonneg (equinoxCorrection date)) (sq_nonneg (len v))]

/-- Over the same four thousand years the Moon's distance is between 0.00237 and 0.00281 AU (its mean distance is
    0.00257 AU), and its speed between 5.1e-9 and 9e-9 AU per second (0.76 to 1.35 km/s). -/
theorem C64_orbit (date : ℝ) (h : |date - 15019.5| ≤ 730500) :
    0.00237 ≤ len (dmoon date).pos ∧ len (dmoon date).pos ≤ 0.00281 ∧
    5.1e-9 ≤ len (dmoon date).vel ∧ len (dmoon date).vel ≤ 9e-9 := by
  obtain ⟨-, b1, b2, b3, b4, b5, b6, b7⟩ := sph_bounds (century h)
  rw [(dmoon_eq date).1, (dmoon_eq date).2, equator_eq, equator_eq]
  have hc := correction_bound h
  set s := sph ((date - 15019.5) / 36525)
  obtain ⟨p1, p2⟩ := frame_len date (ds2c6 s).pos
  obtain ⟨v1, v2⟩ := frame_len date (ds2c6 s).vel
  have hs := Real.sin_sq_add_cos_sq s.lat
  have hl := Real.sin_sq_add_cos_sq s.long
  have ep : len (ds2c6 s).pos = s.dist := by
    rw [← abs_of_nonneg (len_nonneg (ds2c6 s).pos), ← abs_of_nonneg (by linarith : 0 ≤ s.dist), ← sq_eq_sq_iff_abs_eq_abs, len_sq]
    simp only [ds2c6, dotProduct, Fin.sum_univ_three]
    simp
    linear_combination (s.dist ^ 2) * hs + (s.dist ^ 2 * Real.cos s.lat ^ 2) * hl
  have ev : len (ds2c6 s).vel ^ 2 = s.ddist ^ 2 + s.dist ^ 2 * (s.dlat ^ 2 + Real.cos s.lat ^ 2 * s.dlong ^ 2) := by
    rw [len_sq]
    simp only [ds2c6, dotProduct, Fin.sum_univ_three]
    simp
    linear_combination (s.ddist ^ 2 + s.dist ^ 2 * s.dlat ^ 2) * hs + ((s.dist * Real.cos s.lat * s.dlong) ^ 2 +
      (s.dist * s.dlat * Real.sin s.lat - Real.cos s.lat * s.ddist) ^ 2) * hl
  rw [ep] at p1 p2
  have hc1 : 0.994 ≤ Real.cos s.lat := by
    have := Real.one_sub_sq_div_two_le_cos (x := s.lat)
    have h2 : s.lat ^ 2 ≤ 0.1067 ^ 2 := sq_le_sq.mpr (by rw [abs_of_pos (by norm_num : (0 : ℝ) < 0.1067)]; exact b3)
    norm_num at h2 ⊢; linarith
  have hc2 := Real.cos_le_one s.lat
  refine ⟨by linarith, ?_, ?_, ?_⟩
  · refine p2.trans ((mul_le_mul (add_le_add le_rfl hc) b2 (by linarith) (by norm_num)).trans (by norm_num))
  · refine le_trans ?_ v1
    refine le_of_sq_le_sq ?_ (len_nonneg _)
    rw [ev]
    have h1 : 0.002375 * 0.994 * (6900 / 3155760000) ≤ s.dist * Real.cos s.lat * s.dlong :=
      mul_le_mul (mul_le_mul b1 hc1 (by norm_num) (by linarith)) (by linarith) (by norm_num) (by nlinarith)
    have h2 := pow_le_pow_left₀ (by norm_num) h1 2
    have h3 : (5.1e-9 : ℝ) ^ 2 ≤ (0.002375 * 0.994 * (6900 / 3155760000)) ^ 2 := by norm_num
    nlinarith [sq_nonneg s.ddist, sq_nonneg (s.dist * s.dlat)]
  · suffices hv : len (ds2c6 s).vel ≤ 8.95e-9 from
      v2.trans ((mul_le_mul (add_le_add le_rfl hc) hv (len_nonneg _) (by norm_num)).trans (by norm_num))
    refine le_of_sq_le_sq ?_ (by norm_num)
    rw [ev]
    have q1 : s.ddist ^ 2 ≤ (2.5 / 3155760000) ^ 2 := by
      refine sq_le_sq.mpr ?_
      rw [abs_mul, abs_of_pos (by norm_num : (0 : ℝ) < 3155760000)] at b7
      rw [abs_of_pos (by norm_num : (0 : ℝ) < 2.5 / 3155760000), le_div_iff₀ (by norm_num)]; linarith
    have q2 : s.dlat ^ 2 ≤ (920 / 3155760000) ^ 2 := by
      refine sq_le_sq.mpr ?_
      rw [abs_mul, abs_of_pos (by norm_num : (0 : ℝ) < 3155760000)] at b6
      rw [abs_of_pos (by norm_num : (0 : ℝ) < 920 / 3155760000), le_div_iff₀ (by norm_num)]; linarith
    have q3 : s.dlong ^ 2 ≤ (9900 / 3155760000) ^ 2 := pow_le_pow_left₀ (by linarith) (by linarith) 2
    have q4 : s.dist ^ 2 ≤ 0.0028 ^ 2 := pow_le_pow_left₀ (by linarith) b2 2
    have q5 : Real.cos s.lat ^ 2 ≤ 1 := by nlinarith
    have q6 : Real.cos s.lat ^ 2 * s.dlong ^ 2 ≤ 1 * (9900 / 3155760000) ^ 2 :=
      mul_le_mul q5 q3 (sq_nonneg _) (by norm_num)
    have q7 : s.dist ^ 2 * (s.dlat ^ 2 + Real.cos s.lat ^ 2 * s.dlong ^ 2) ≤
        0.0028 ^ 2 * ((920 / 3155760000) ^ 2 + 1 * (9900 / 3155760000) ^ 2) :=
      mul_le_mul q4 (add_le_add q2 q6) (by positivity) (by norm_num)
    refine (add_le_add q1 q7).trans (by norm_num)

example : |(60000 : ℝ) - 15019.5| ≤ 730500 := by norm_num [abs_le]

private theorem obliquity_deriv (date : ℝ) (h : |date - 15019.5| ≤ 730500) :
    ∃ e', HasDerivAt meanObliquity e' date ∧ |e'| ≤ 6.55e-9 := by
  have hx : HasDerivAt (fun d : ℝ => (d - 51544.5) / 36525) (1 / 36525) date :=
    ((hasDerivAt_id date).sub_const _).div_const _
  have := ((((hx.const_mul 46.8150).const_sub 84381.448).sub ((hx.pow 2).const_mul 0.00059)).add
    ((hx.pow 3).const_mul 0.001813)).const_mul (π / 648000)
  refine ⟨_, this, ?_⟩
  set t := (date - 51544.5) / 36525 with ht
  have h1 : -21 ≤ t ∧ t ≤ 19 := by
    rw [abs_le] at h
    rw [ht, le_div_iff₀ (by norm_num), div_le_iff₀ (by norm_num)]
    constructor <;> linarith [h.1, h.2]
  have h2 : |-(46.8150 * (1 / 36525)) - 0.00059 * ((2 : ℕ) * t ^ (2 - 1) * (1 / 36525)) +
      0.001813 * ((3 : ℕ) * t ^ (3 - 1) * (1 / 36525))| ≤ 49.3 / 36525 := by
    obtain ⟨a, b⟩ := h1
    have c : t ^ 2 ≤ 441 := by nlinarith
    have c0 := sq_nonneg t
    rw [abs_le]
    constructor <;> norm_num <;> linarith
  refine (abs_mul_le' (X := 3.1416 / 648000) ?_ h2).trans (by norm_num)
  rw [abs_of_nonneg (by positivity)]; linarith [Real.pi_lt_d4]

private theorem correction_deriv (date : ℝ) : ∃ q', HasDerivAt equinoxCorrection q' date ∧ |q'| ≤ 1.7e-10 := by
  have hx : HasDerivAt (fun d : ℝ => (d - 51544.5) / 365.25) (1 / 365.25) date :=
    ((hasDerivAt_id date).sub_const _).div_const _
  have := ((((hx.const_add 2000).sub_const 1949.9997904423).const_mul 0.00085).const_add 0.035).const_mul (π / 43200)
  refine ⟨_, this, ?_⟩
  refine (abs_mul_le' (X := 3.1416 / 43200) (Y := 0.00085 / 365.25) ?_ ?_).trans (by norm_num)
  · rw [abs_of_nonneg (by positivity)]; linarith [Real.pi_lt_d4]
  · rw [abs_of_nonneg (by norm_num)]; norm_num

/-- In terms of the returned values alone: the velocity is the derivative per second of the position, to within
    2.5e-16 AU per second (a ten-millionth of its size), which is the motion of the axes. -/
theorem C64_velocity (date : ℝ) (h : |date - 15019.5| ≤ 730500) :
    ∃ p' : Vec, (∀ i, HasDerivAt (fun d => (dmoon d).pos i) (86400 * p' i) date) ∧
      len (p' - (dmoon date).vel) ≤ 2.5e-16 := by
  obtain ⟨e', he, be⟩ := obliquity_deriv date h
  obtain ⟨q', hq, bq⟩ := correction_deriv date
  have bc := correction_bound h
  set x : ℝ → Vec := fun d => (ds2c6 (sph ((d - 15019.5) / 36525))).pos with hx
  set v : Vec := (ds2c6 (sph ((date - 15019.5) / 36525))).vel with hv
  have hd : ∀ i, HasDerivAt (fun d => x d i) (86400 * v i) date := fun i => ecl_deriv h i
  have hpos : ∀ d, (dmoon d).pos = eclipticToEquator d *ᵥ x d := fun d => by rw [(dmoon_eq d).1, equator_eq]
  have hvel : (dmoon date).vel = eclipticToEquator date *ᵥ v := by rw [(dmoon_eq date).2, equator_eq]
  set e := meanObliquity date with hedef
  set q := equinoxCorrection date with hqdef
  set A := cos e * x date 1 - sin e * x date 2 with hA
  set B := sin e * x date 1 + cos e * x date 2 with hB
  have hlen : len (x date) ≤ 0.0028 := by
    have h1 := (frame_len date (x date)).1
    obtain ⟨-, b1, b2, -⟩ := sph_bounds (century h)
    set s := sph ((date - 15019.5) / 36525)
    have hs := Real.sin_sq_add_cos_sq s.lat
    have hl := Real.sin_sq_add_cos_sq s.long
    have ep : len (ds2c6 s).pos = s.dist := by
      rw [← abs_of_nonneg (len_nonneg (ds2c6 s).pos), ← abs_of_nonneg (by linarith : 0 ≤ s.dist), ← sq_eq_sq_iff_abs_eq_abs, len_sq]
      simp only [ds2c6, dotProduct, Fin.sum_univ_three]
      simp
      linear_combination (s.dist ^ 2) * hs + (s.dist ^ 2 * Real.cos s.lat ^ 2) * hl
    change len (ds2c6 s).pos ≤ _
    rw [ep]; exact b2
  have hlen2 : len (x date) ^ 2 = x date 0 ^ 2 + A ^ 2 + B ^ 2 := by
    have hs := Real.sin_sq_add_cos_sq e
    rw [len_sq]
    simp only [dotProduct, Fin.sum_univ_three, hA, hB]
    linear_combination -(x date 1 ^ 2 + x date 2 ^ 2) * hs
  set w1 : Vec := ![-A, x date 0, 0] with hw1
  set w2 : Vec := ![q * B, -B, A] with hw2
  refine ⟨(dmoon date).vel + (q' / 86400) • w1 + (e' / 86400) • w2, ?_, ?_⟩
  · have hA' := (he.cos.mul (hd 1)).sub (he.sin.mul (hd 2))
    have hB' := (he.sin.mul (hd 1)).add (he.cos.mul (hd 2))
    intro i
    rw [hvel]
    fin_cases i
    · have hf : (fun d => (dmoon d).pos 0) = fun d => x d 0 - equinoxCorrection d *
          (cos (meanObliquity d) * x d 1 - sin (meanObliquity d) * x d 2) := by
        funext d; rw [hpos]
        simp [eclipticToEquator, Matrix.mulVec, dotProduct, Fin.sum_univ_three]; ring
      simp only [Fin.zero_eta]
      rw [hf]
      refine ((hd 0).sub (hq.mul hA')).congr_deriv ?_
      simp [eclipticToEquator, Matrix.mulVec, dotProduct, Fin.sum_univ_three, hw1, hw2, hA, hB, ← hedef, ← hqdef]
      ring
    · have hf : (fun d => (dmoon d).pos 1) = fun d => equinoxCorrection d * x d 0 +
          (cos (meanObliquity d) * x d 1 - sin (meanObliquity d) * x d 2) := by
        funext d; rw [hpos]
        simp [eclipticToEquator, Matrix.mulVec, dotProduct, Fin.sum_univ_three]; ring
      simp only [Fin.mk_one]
      rw [hf]
      refine ((hq.mul (hd 0)).add hA').congr_deriv ?_
      simp [eclipticToEquator, Matrix.mulVec, dotProduct, Fin.sum_univ_three, hw1, hw2, hA, hB, ← hedef, ← hqdef]
      ring
    · have hf : (fun d => (dmoon d).pos 2) = fun d => sin (meanObliquity d) * x d 1 + cos (meanObliquity d) * x d 2 := by
        funext d; rw [hpos]
        simp [eclipticToEquator, Matrix.mulVec, dotProduct, Fin.sum_univ_three]
      simp only [Fin.reduceFinMk]
      rw [hf]
      refine hB'.congr_deriv ?_
      simp [eclipticToEquator, Matrix.mulVec, dotProduct, Fin.sum_univ_three, hw1, hw2, hA, hB, ← hedef, ← hqdef]
      ring
  · have l1 : len w1 ≤ 0.0028 := by
      refine le_trans (le_of_sq_le_sq ?_ (len_nonneg _)) hlen
      rw [len_sq, hlen2, hw1]
      simp [dotProduct, Fin.sum_univ_three]
      nlinarith [sq_nonneg B]
    have l2 : len w2 ≤ 1.00013 * 0.0028 := by
      have : len w2 ≤ 1.00013 * len (x date) := by
        refine le_of_sq_le_sq ?_ (mul_nonneg (by norm_num) (len_nonneg _))
        rw [mul_pow, len_sq, hlen2, hw2]
        have hqq : q ^ 2 ≤ 0.00013 ^ 2 := sq_le_sq.mpr (by rw [abs_of_pos (by norm_num : (0 : ℝ) < 0.00013)]; exact bc)
        have : q ^ 2 * B ^ 2 ≤ 0.00013 ^ 2 * B ^ 2 := mul_le_mul_of_nonneg_right hqq (sq_nonneg _)
        simp [dotProduct, Fin.sum_univ_three]
        nlinarith [sq_nonneg B, sq_nonneg A, sq_nonneg (x date 0)]
      exact this.trans (mul_le_mul_of_nonneg_left hlen (by norm_num))
    rw [show (dmoon date).vel + (q' / 86400) • w1 + (e' / 86400) • w2 - (dmoon date).vel =
      (q' / 86400) • w1 + (e' / 86400) • w2 by abel]
    refine (len_add_le _ _).trans ?_
    rw [len_smul, len_smul, abs_div, abs_div, abs_of_pos (by norm_num : (0 : ℝ) < 86400)]
    have m1 : |q'| / 86400 * len w1 ≤ 1.7e-10 / 86400 * 0.0028 :=
      mul_le_mul (by linarith) l1 (len_nonneg _) (by norm_num)
    have m2 : |e'| / 86400 * len w2 ≤ 6.55e-9 / 86400 * (1.00013 * 0.0028) :=
      mul_le_mul (by linarith) l2 (len_nonneg _) (by norm_num)
    refine (add_le_add m1 m2).trans (by norm_num)

example : |(15019.5 : ℝ) - 15019.5| ≤ 730500 := by norm_num

end Sla.Props
