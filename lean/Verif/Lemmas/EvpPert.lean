/- Polar form of a motion, and the perturbation series of `evp` with their rates. -/
import Verif.Lemmas.EvpKepler
import Verif.Lemmas.Coords
import Verif.Props.Eterms
import Mathlib.Analysis.Calculus.Deriv.Pi
import Mathlib.Algebra.BigOperators.Fin

noncomputable section
namespace Sla.EvpL

open Real Sla.Spec Matrix

/-- Seconds in a century. -/
def cy : ℝ := 3155760000

/-- A vector given by its components along and across the direction `(c, s)` of the plane, and along the third axis. -/
def polar (c s ρ τ γ : ℝ) : Vec := ![ρ * c - τ * s, ρ * s + τ * c, γ]

theorem polar_len {c s : ℝ} (h : c ^ 2 + s ^ 2 = 1) (ρ τ γ : ℝ) : len (polar c s ρ τ γ) = sqrt (ρ ^ 2 + τ ^ 2 + γ ^ 2) := by
  rw [len_eq]
  congr 1
  simp only [polar, Matrix.cons_val]
  linear_combination (ρ ^ 2 + τ ^ 2) * h

theorem polar_add (c s ρ τ γ ρ' τ' γ' : ℝ) :
    polar c s ρ τ γ + polar c s ρ' τ' γ' = polar c s (ρ + ρ') (τ + τ') (γ + γ') := by
  ext i; fin_cases i <;> simp [polar] <;> ring

theorem polar_sub (c s ρ τ γ ρ' τ' γ' : ℝ) :
    polar c s ρ τ γ - polar c s ρ' τ' γ' = polar c s (ρ - ρ') (τ - τ') (γ - γ') := by
  ext i; fin_cases i <;> simp [polar] <;> ring

theorem polar_smul (k c s ρ τ γ : ℝ) : k • polar c s ρ τ γ = polar c s (k * ρ) (k * τ) (k * γ) := by
  ext i; fin_cases i <;> simp [polar] <;> ring

/-- The cross product of the third axis with `v`. -/
def zcross (v : Vec) : Vec := ![-v 1, v 0, 0]

theorem zcross_polar (c s ρ τ γ : ℝ) : zcross (polar c s ρ τ γ) = polar c s (-τ) ρ 0 := by
  ext i; fin_cases i <;> simp [polar, zcross] <;> ring

theorem zcross_add (u v : Vec) : zcross (u + v) = zcross u + zcross v := by
  ext i; fin_cases i <;> simp [zcross] <;> ring

theorem zcross_smul (k : ℝ) (v : Vec) : zcross (k • v) = k • zcross v := by
  ext i; fin_cases i <;> simp [zcross]

theorem polar_deriv {L ρ γ : ℝ → ℝ} {L' ρ' γ' t : ℝ} (hL : HasDerivAt L L' t) (hρ : HasDerivAt ρ ρ' t)
    (hγ : HasDerivAt γ γ' t) : HasDerivAt (fun t => polar (cos (L t)) (sin (L t)) (ρ t) 0 (γ t))
      (polar (cos (L t)) (sin (L t)) ρ' (ρ t * L') γ') t := by
  rw [hasDerivAt_pi]
  intro i
  fin_cases i
  · have h : HasDerivAt (fun t => ρ t * cos (L t) - 0 * sin (L t)) (ρ' * cos (L t) - ρ t * L' * sin (L t)) t :=
      ((hρ.mul hL.cos).sub (hL.sin.const_mul 0)).congr_deriv (by ring)
    exact h
  · have h : HasDerivAt (fun t => ρ t * sin (L t) + 0 * cos (L t)) (ρ' * sin (L t) + ρ t * L' * cos (L t)) t :=
      ((hρ.mul hL.sin).add (hL.cos.const_mul 0)).congr_deriv (by ring)
    exact h
  · exact hγ

theorem poly_deriv (c : Fin 3 → ℝ) (t : ℝ) : HasDerivAt (evpPoly c) (c 1 + 2 * t * c 2) t := by
  have h := hasDerivAt_id t
  have := ((h.mul_const (c 1)).const_add (c 0)).add ((h.mul h).mul_const (c 2))
  exact this.congr_deriv (by simp only [id_eq]; ring)

theorem lin_deriv (a b t : ℝ) : HasDerivAt (fun t => a + t * b) b t := by
  simpa using ((hasDerivAt_id t).mul_const b).const_add a

/-! ### Perturbations of the Earth-Moon barycentre -/

theorem pert_sums (dt : ℝ) (sec : Fin 4 → ℝ) (args : Fin 15 → ℝ) : evpPert dt sec args =
    { l := evpSec 0 0 * Real.sin (sec 0) + evpSec 1 0 * Real.sin (sec 1) +
        (evpSec 2 0 + dt * -7.757020e-8) * Real.sin (sec 2) + evpSec 3 0 * Real.sin (sec 3) +
        ∑ k, (evpAmps k 0 * cos (args k) + evpAmps k 1 * sin (args k))
      ld := ∑ k, (evpAmps k 1 * cos (args k) - evpAmps k 0 * sin (args k)) * (if k < 10 then evpAmps k 4 else 0)
      r := ∑ k, (evpAmps k 2 * cos (args k) + evpAmps k 3 * sin (args k))
      rd := ∑ k, (evpAmps k 3 * cos (args k) - evpAmps k 2 * sin (args k)) * (if k < 10 then evpAmps k 4 else 0) } := by
  have key : ∀ (l : List (Fin 15)) (p : EvpPert), l.foldl (fun p k =>
      let c := Real.cos (args k)
      let s := Real.sin (args k)
      { l := p.l + (evpAmps k 0 * c + evpAmps k 1 * s)
        ld := if k < 10 then p.ld + (evpAmps k 1 * c - evpAmps k 0 * s) * evpAmps k 4 else p.ld
        r := p.r + (evpAmps k 2 * c + evpAmps k 3 * s)
        rd := if k < 10 then p.rd + (evpAmps k 3 * c - evpAmps k 2 * s) * evpAmps k 4 else p.rd : EvpPert }) p =
      { l := p.l + (l.map fun k => evpAmps k 0 * cos (args k) + evpAmps k 1 * sin (args k)).sum
        ld := p.ld + (l.map fun k => (evpAmps k 1 * cos (args k) - evpAmps k 0 * sin (args k)) * (if k < 10 then evpAmps k 4 else 0)).sum
        r := p.r + (l.map fun k => evpAmps k 2 * cos (args k) + evpAmps k 3 * sin (args k)).sum
        rd := p.rd + (l.map fun k => (evpAmps k 3 * cos (args k) - evpAmps k 2 * sin (args k)) * (if k < 10 then evpAmps k 4 else 0)).sum } := by
    intro l
    induction l with
    | nil => intro p; simp
    | cons k l ih =>
      intro p
      rw [List.foldl_cons, ih]
      simp only [List.map_cons, List.sum_cons]
      split_ifs <;> simp only [EvpPert.mk.injEq] <;> refine ⟨?_, ?_, ?_, ?_⟩ <;> ring
  rw [evpPert, key]
  simp only [Fin.sum_univ_def, zero_add]

theorem amp_le {a b c s h : ℝ} (hcs : c ^ 2 + s ^ 2 = 1) (h0 : 0 ≤ h) (hab : a ^ 2 + b ^ 2 ≤ h ^ 2) : |a * c - b * s| ≤ h := by
  apply abs_le_of_sq_le_sq _ h0
  nlinarith [sq_nonneg (a * s + b * c)]

theorem amp_le' {a b c s h : ℝ} (hcs : c ^ 2 + s ^ 2 = 1) (h0 : 0 ≤ h) (hab : a ^ 2 + b ^ 2 ≤ h ^ 2) : |a * c + b * s| ≤ h := by
  apply abs_le_of_sq_le_sq _ h0
  nlinarith [sq_nonneg (a * s - b * c)]

/-- Upper limits of the amplitudes in longitude and in the radius vector, and of the errors of the rates. -/
def ampL : Fin 15 → ℝ := ![2.68e-5, 3.5e-5, 1.33e-5, 2.35e-5, 1e-5, 7.57e-6, 7.81e-6, 3.24e-6, 2.7e-6, 1.212e-5, 1.261e-5, 8.59e-6,
  4.97e-6, 2.84e-6, 2.43e-6]
def ampR : Fin 15 → ℝ := ![1.58e-5, 1.63e-5, 9.28e-6, 5.44e-6, 4.74e-6, 3.45e-6, 3.37e-6, 2.41e-6, 1.85e-6, 2.01e-6, 5.62e-7, 3.49e-7,
  4.48e-7, 2.43e-7, 1.1e-6]
def ampErr : Fin 15 → ℝ := ![1e-13, 1e-13, 1e-13, 1e-13, 1e-13, 1e-13, 1e-13, 1e-13, 1e-13, 1e-13, 1.6784e-8, 1.2615e-8, 2.45713e-8,
  2.523e-8, 1.73868e-7]

theorem ampL_le (k : Fin 15) (c s : ℝ) (hcs : c ^ 2 + s ^ 2 = 1) : |evpAmps k 1 * c - evpAmps k 0 * s| ≤ ampL k := by
  apply amp_le hcs <;> fin_cases k <;> simp [ampL, evpAmps] <;> norm_num

theorem ampR_le (k : Fin 15) (c s : ℝ) (hcs : c ^ 2 + s ^ 2 = 1) : |evpAmps k 3 * c - evpAmps k 2 * s| ≤ ampR k := by
  apply amp_le hcs <;> fin_cases k <;> simp [ampR, evpAmps] <;> norm_num

theorem ampR_le' (k : Fin 15) (c s : ℝ) (hcs : c ^ 2 + s ^ 2 = 1) : |evpAmps k 2 * c + evpAmps k 3 * s| ≤ ampR k := by
  apply amp_le' hcs <;> fin_cases k <;> simp [ampR, evpAmps] <;> norm_num

theorem ampErr_le (k : Fin 15) : |evpArgs k 1 / cy - (if k < 10 then evpAmps k 4 else 0)| ≤ ampErr k := by
  rw [abs_le]
  fin_cases k <;> simp [ampErr, evpAmps, evpArgs, cy] <;> norm_num

theorem ampRate_le (k : Fin 15) : |(if k < 10 then evpAmps k 4 else 0)| ≤ ![2.491e-7, 1.824e-7, 3.647e-7, 1.246e-7, 1.865e-7, 1.746e-7,
    1.656e-7, 3.737e-7, 3.479e-7, 5e-8, 0, 0, 0, 0, 0] k := by
  rw [abs_le]
  fin_cases k <;> simp [evpAmps] <;> norm_num

theorem sum_le {n : ℕ} {f g : Fin n → ℝ} (h : ∀ k, |f k| ≤ g k) : |∑ k, f k| ≤ ∑ k, g k :=
  (Finset.abs_sum_le_sum_abs _ _).trans (Finset.sum_le_sum fun k _ => h k)

theorem cs_sq (x : ℝ) : cos x ^ 2 + sin x ^ 2 = 1 := Real.cos_sq_add_sin_sq x

theorem pert_bounds (dt : ℝ) (sec : Fin 4 → ℝ) (args : Fin 15 → ℝ) : |(evpPert dt sec args).r| ≤ 6.8e-5 ∧
    |(evpPert dt sec args).rd| ≤ 1.5e-11 ∧ |(evpPert dt sec args).ld| ≤ 3e-11 := by
  rw [pert_sums]
  refine ⟨(sum_le fun k => ampR_le' k _ _ (cs_sq _)).trans ?_,
    (sum_le fun k => abs_mul_le' (ampR_le k _ _ (cs_sq _)) (ampRate_le k)).trans ?_,
    (sum_le fun k => abs_mul_le' (ampL_le k _ _ (cs_sq _)) (ampRate_le k)).trans ?_⟩ <;>
  · simp [Fin.sum_univ_succ, ampR, ampL]; norm_num

theorem osc_deriv (a b : ℝ) {θ : ℝ → ℝ} {θ' t : ℝ} (h : HasDerivAt θ θ' t) :
    HasDerivAt (fun t => a * cos (θ t) + b * sin (θ t)) ((b * cos (θ t) - a * sin (θ t)) * θ') t :=
  ((h.cos.const_mul a).add (h.sin.const_mul b)).congr_deriv (by ring)

theorem pert_deriv {t : ℝ} (ht : |t| ≤ 5) : ∃ l' r' : ℝ,
    HasDerivAt (fun t => (evpPert t (evpElements id t).sec (evpElements id t).args).l) (cy * l') t ∧
    HasDerivAt (fun t => (evpPert t (evpElements id t).sec (evpElements id t).args).r) (cy * r') t ∧
    |l' - (evpPert t (evpElements id t).sec (evpElements id t).args).ld| ≤ 9.8e-13 ∧
    |r' - (evpPert t (evpElements id t).sec (evpElements id t).args).rd| ≤ 2.3e-13 := by
  have hcy : cy ≠ 0 := by norm_num [cy]
  set θ : Fin 15 → ℝ → ℝ := fun k t => evpArgs k 0 + t * evpArgs k 1 with hθ
  have hd : ∀ k, HasDerivAt (θ k) (evpArgs k 1) t := fun k => lin_deriv _ _ t
  have hS : ∀ a b : Fin 15 → ℝ, HasDerivAt (fun t => ∑ k, (a k * cos (θ k t) + b k * sin (θ k t)))
      (∑ k, (b k * cos (θ k t) - a k * sin (θ k t)) * evpArgs k 1) t :=
    fun a b => HasDerivAt.fun_sum fun k _ => osc_deriv (a k) (b k) (hd k)
  have hs : ∀ k, HasDerivAt (fun t => sin (evpSec k 1 + t * evpSec k 2)) (cos (evpSec k 1 + t * evpSec k 2) * evpSec k 2) t :=
    fun k => (lin_deriv (evpSec k 1) (evpSec k 2) t).sin
  have hsec := (((hs 0).const_mul (evpSec 0 0)).add ((hs 1).const_mul (evpSec 1 0))).add
    ((lin_deriv (evpSec 2 0) (-7.757020e-8) t).mul (hs 2)) |>.add ((hs 3).const_mul (evpSec 3 0))
  have e : ∀ F : Fin 15 → ℝ, ∀ R : Fin 15 → ℝ, (1 / cy) * ∑ k, F k * evpArgs k 1 - ∑ k, F k * R k =
      ∑ k, F k * (evpArgs k 1 / cy - R k) := by
    intro F R
    rw [Finset.mul_sum, ← Finset.sum_sub_distrib]
    refine Finset.sum_congr rfl fun k _ => by ring
  have hargs : (evpElements id t).args = fun k => θ k t := rfl
  refine ⟨1 / cy * (evpSec 0 0 * (cos (evpSec 0 1 + t * evpSec 0 2) * evpSec 0 2) +
      evpSec 1 0 * (cos (evpSec 1 1 + t * evpSec 1 2) * evpSec 1 2) +
      (-7.757020e-8 * sin (evpSec 2 1 + t * evpSec 2 2) +
        (evpSec 2 0 + t * -7.757020e-8) * (cos (evpSec 2 1 + t * evpSec 2 2) * evpSec 2 2)) +
      evpSec 3 0 * (cos (evpSec 3 1 + t * evpSec 3 2) * evpSec 3 2)) +
    1 / cy * ∑ k, (evpAmps k 1 * cos (θ k t) - evpAmps k 0 * sin (θ k t)) * evpArgs k 1,
    1 / cy * ∑ k, (evpAmps k 3 * cos (θ k t) - evpAmps k 2 * sin (θ k t)) * evpArgs k 1, ?_, ?_, ?_, ?_⟩
  · simp only [pert_sums]
    refine (hsec.add (hS (fun k => evpAmps k 0) fun k => evpAmps k 1)).congr_deriv ?_
    field_simp
  · simp only [pert_sums]
    refine (hS (fun k => evpAmps k 2) fun k => evpAmps k 3).congr_deriv ?_
    field_simp
  · simp only [pert_sums]
    rw [hargs, add_sub_assoc, e]
    have h1 : ∀ k : Fin 15, |evpAmps k 1 * cos (θ k t) - evpAmps k 0 * sin (θ k t)| ≤ ampL k := fun k => ampL_le k _ _ (cs_sq _)
    have h2 := sum_le fun k => abs_mul_le' (h1 k) (ampErr_le k)
    have c : ∀ k, |cos (evpSec k 1 + t * evpSec k 2)| ≤ 1 := fun k => abs_cos_le_one _
    have s2 := abs_sin_le_one (evpSec 2 1 + t * evpSec 2 2)
    have h4 : |evpSec 2 0 + t * -7.757020e-8| ≤ 9.6e-6 := by
      have := abs_le.mp ht
      rw [abs_le]; simp [evpSec]; constructor <;> norm_num <;> linarith
    have a0 : |evpSec 0 0| ≤ 1.3e-6 := by rw [abs_le]; simp [evpSec]; norm_num
    have a1 : |evpSec 1 0| ≤ 3.2e-5 := by rw [abs_le]; simp [evpSec]; norm_num
    have a3 : |evpSec 3 0| ≤ 1e-6 := by rw [abs_le]; simp [evpSec]; norm_num
    have b0 : |evpSec 0 2| ≤ 2.1 := by rw [abs_le]; simp [evpSec]; norm_num
    have b1 : |evpSec 1 2| ≤ 0.36 := by rw [abs_le]; simp [evpSec]; norm_num
    have b2 : |evpSec 2 2| ≤ 2.7 := by rw [abs_le]; simp [evpSec]; norm_num
    have b3 : |evpSec 3 2| ≤ 16 := by rw [abs_le]; simp [evpSec]; norm_num
    have h7 : |(-7.757020e-8 : ℝ)| ≤ 8e-8 := by rw [abs_le]; norm_num
    have h3 := abs_add_le' (abs_add_le' (abs_add_le' (abs_mul_le' a0 (abs_mul_le' (c 0) b0)) (abs_mul_le' a1 (abs_mul_le' (c 1) b1)))
      (abs_add_le' (abs_mul_le' h7 s2) (abs_mul_le' h4 (abs_mul_le' (c 2) b2)))) (abs_mul_le' a3 (abs_mul_le' (c 3) b3))
    have h5 : |1 / cy| ≤ 3.2e-10 := by rw [abs_le]; norm_num [cy]
    refine (abs_add_le' (abs_mul_le' h5 h3) h2).trans ?_
    simp [Fin.sum_univ_succ, ampL, ampErr]; norm_num
  · simp only [pert_sums]
    rw [hargs, e]
    have h1 : ∀ k : Fin 15, |evpAmps k 3 * cos (θ k t) - evpAmps k 2 * sin (θ k t)| ≤ ampR k := fun k => ampR_le k _ _ (cs_sq _)
    refine (sum_le fun k => abs_mul_le' (h1 k) (ampErr_le k)).trans ?_
    simp [Fin.sum_univ_succ, ampR, ampErr]; norm_num

end Sla.EvpL
