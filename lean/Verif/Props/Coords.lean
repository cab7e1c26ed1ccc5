import Verif.Lemmas.Coords
import Mathlib.Analysis.Real.Pi.Bounds

/-
C46 - C50, C57, C58, C62: coordinate systems, E-terms, proper motion, observer, radial velocity corrections,
precession of a position and polar motion.
-/
namespace Sla.Props
open Real Spec Matrix

/-! ## C46 -/

/-- `eqecl` rotates the direction by precession to the date and then to the ecliptic; angles in range. -/
theorem C46_eqecl (s : Spherical) (date : ℝ) :
    direction (eqecl s date).a (eqecl s date).b = ecmat date *ᵥ (prec 2000 (epj date) *ᵥ direction s.a s.b) ∧
    0 ≤ (eqecl s date).a ∧ (eqecl s date).a < 2 * π ∧ |(eqecl s date).b| ≤ π / 2 := by
  have hr := (C24_rotations date 0).2.2.2.2.2.mul (C24_rotations 2000 (epj date)).1
  have e : eqecl s date = ⟨dranrm (dcc2s ((ecmat date * prec 2000 (epj date)) *ᵥ dcs2c s)).a,
      (dcc2s ((ecmat date * prec 2000 (epj date)) *ᵥ dcs2c s)).b⟩ := by
    simp only [eqecl, dmxv_eq, mulVec_mulVec, (reduce_spec _).2.2.2.2]
  rw [e]
  exact ⟨by rw [mulVec_mulVec]; exact rotated_direction hr s, (reduce_spec _).2.1, (reduce_spec _).2.2.1,
    (reduce_spec _).2.2.2.1⟩

/-- `ecleq` undoes the same two rotations. -/
theorem C46_ecleq (s : Spherical) (date : ℝ) :
    direction (ecleq s date).a (ecleq s date).b = (prec 2000 (epj date))ᵀ *ᵥ ((ecmat date)ᵀ *ᵥ direction s.a s.b) ∧
    0 ≤ (ecleq s date).a ∧ (ecleq s date).a < 2 * π ∧ |(ecleq s date).b| ≤ π / 2 := by
  have hr := (C24_rotations 2000 (epj date)).1.transpose.mul (C24_rotations date 0).2.2.2.2.2.transpose
  have e : ecleq s date = ⟨dranrm (dcc2s (((prec 2000 (epj date))ᵀ * (ecmat date)ᵀ) *ᵥ dcs2c s)).a,
      (dcc2s (((prec 2000 (epj date))ᵀ * (ecmat date)ᵀ) *ᵥ dcs2c s)).b⟩ := by
    simp only [ecleq, dimxv_eq, mulVec_mulVec, (reduce_spec _).2.2.2.2]
  rw [e]
  exact ⟨by rw [mulVec_mulVec]; exact rotated_direction hr s, (reduce_spec _).2.1, (reduce_spec _).2.2.1,
    (reduce_spec _).2.2.2.1⟩

/-- The two are inverse in both orders: same direction always, same coordinates when they are in range and away
    from the poles. -/
theorem C46_ecliptic_inverse (s : Spherical) (date : ℝ) :
    (direction (ecleq (eqecl s date) date).a (ecleq (eqecl s date) date).b = direction s.a s.b ∧
     direction (eqecl (ecleq s date) date).a (eqecl (ecleq s date) date).b = direction s.a s.b) ∧
    (0 ≤ s.a → s.a < 2 * π → |s.b| < π / 2 → ecleq (eqecl s date) date = s ∧ eqecl (ecleq s date) date = s) := by
  have he := (C24_rotations date 0).2.2.2.2.2
  have hp := (C24_rotations 2000 (epj date)).1
  have h1 : direction (ecleq (eqecl s date) date).a (ecleq (eqecl s date) date).b = direction s.a s.b := by
    rw [(C46_ecleq _ _).1, (C46_eqecl _ _).1, mulVec_mulVec _ (ecmat date)ᵀ, he.transpose_mul_self, one_mulVec,
      mulVec_mulVec, hp.transpose_mul_self, one_mulVec]
  have h2 : direction (eqecl (ecleq s date) date).a (eqecl (ecleq s date) date).b = direction s.a s.b := by
    rw [(C46_eqecl _ _).1, (C46_ecleq _ _).1, mulVec_mulVec _ (prec 2000 (epj date)), hp.1, one_mulVec,
      mulVec_mulVec, he.1, one_mulVec]
  refine ⟨⟨h1, h2⟩, fun g0 g1 g2 => ⟨?_, ?_⟩⟩
  · exact same_place h1 (C46_ecleq _ _).2.2.2 (C46_ecleq _ _).2.1 (C46_ecleq _ _).2.2.1 g0 g1 g2
  · exact same_place h2 (C46_eqecl _ _).2.2.2 (C46_eqecl _ _).2.1 (C46_eqecl _ _).2.2.1 g0 g1 g2

example : (0 : ℝ) ≤ (⟨1, 1⟩ : Spherical).a ∧ (⟨1, 1⟩ : Spherical).a < 2 * π ∧ |(⟨1, 1⟩ : Spherical).b| < π / 2 := by
  have := pi_gt_three
  refine ⟨by simp, by simp; linarith, ?_⟩
  rw [abs_of_pos (by simp)]; simp; linarith

/-- Angular separations are preserved by both conversions. -/
theorem C46_ecliptic_separation (s t : Spherical) (date : ℝ) :
    dsep (eqecl s date) (eqecl t date) = dsep s t ∧ dsep (ecleq s date) (ecleq t date) = dsep s t := by
  have he := (C24_rotations date 0).2.2.2.2.2
  have hp := (C24_rotations 2000 (epj date)).1
  constructor
  · exact dsep_rotation (he.mul hp) (by rw [(C46_eqecl _ _).1, mulVec_mulVec]) (by rw [(C46_eqecl _ _).1, mulVec_mulVec])
  · exact dsep_rotation (hp.transpose.mul he.transpose) (by rw [(C46_ecleq _ _).1, mulVec_mulVec])
      (by rw [(C46_ecleq _ _).1, mulVec_mulVec])

/-- `eqgal`, `galeq`, `galsup`, `supgal` are the directions of the tabulated matrix (or its transpose) times the given
    direction, with angles in the conventional ranges. -/
theorem C46_matrices (s : Spherical) :
    (∀ f ∈ [(eqgal s, galMat), (galeq s, galMatᵀ), (galsup s, supMat), (supgal s, supMatᵀ)],
      (∃ k : ℝ, 0 ≤ k ∧ f.2 *ᵥ direction s.a s.b = k • direction f.1.a f.1.b) ∧
      0 ≤ f.1.a ∧ f.1.a < 2 * π ∧ |f.1.b| ≤ π / 2) := by
  have key : ∀ M : Mat, let p : Spherical := ⟨dranrm (dcc2s (M *ᵥ dcs2c s)).a, drange (dcc2s (M *ᵥ dcs2c s)).b⟩
      (∃ k : ℝ, 0 ≤ k ∧ M *ᵥ direction s.a s.b = k • direction p.a p.b) ∧
      0 ≤ p.a ∧ p.a < 2 * π ∧ |p.b| ≤ π / 2 := by
    intro M p
    obtain ⟨r1, r2, r3, r4, r5⟩ := reduce_spec (M *ᵥ dcs2c s)
    refine ⟨⟨len (M *ᵥ dcs2c s), len_nonneg _, ?_⟩, r2, r3, by simp only [p, r5]; exact r4⟩
    rw [← dcs2c_eq]; simp only [p, r5]; exact r1
  intro f hf
  simp only [List.mem_cons, List.not_mem_nil, or_false] at hf
  rcases hf with rfl | rfl | rfl | rfl
  · simpa only [eqgal, dmxv_eq] using key galMat
  · simpa only [galeq, dimxv_eq] using key galMatᵀ
  · simpa only [galsup, dmxv_eq] using key supMat
  · simpa only [supgal, dimxv_eq] using key supMatᵀ

/-- The galactic pair are inverse to 3e-10 radians (the tabulated matrix is orthogonal only to 5e-11), the
    supergalactic pair to 6e-12, in both orders. The distances are chords between unit vectors. -/
theorem C46_galactic_inverse (s : Spherical) :
    len (direction (galeq (eqgal s)).a (galeq (eqgal s)).b - direction s.a s.b) ≤ 3e-10 ∧
    len (direction (eqgal (galeq s)).a (eqgal (galeq s)).b - direction s.a s.b) ≤ 3e-10 ∧
    len (direction (supgal (galsup s)).a (supgal (galsup s)).b - direction s.a s.b) ≤ 6e-12 ∧
    len (direction (galsup (supgal s)).a (galsup (supgal s)).b - direction s.a s.b) ≤ 6e-12 := by
  refine ⟨?_, ?_, ?_, ?_⟩
  · refine (there_and_back (A := galMatᵀ) (B := galMat) (ε := 5e-11) (by norm_num) ?_ s
      (p := eqgal s) (q := galeq (eqgal s)) ?_ ?_).trans (by norm_num)
    · intro i j
      fin_cases i <;> fin_cases j <;> simp [galMat, Matrix.mul_apply, Matrix.vecMul, dotProduct, Fin.sum_univ_three] <;> rw [abs_le] <;>
        constructor <;> norm_num
    · simp only [eqgal, dmxv_eq, (reduce_spec _).2.2.2.2]
    · simp only [galeq, dimxv_eq, (reduce_spec _).2.2.2.2]
  · refine (there_and_back (A := galMat) (B := galMatᵀ) (ε := 5e-11) (by norm_num) ?_ s
      (p := galeq s) (q := eqgal (galeq s)) ?_ ?_).trans (by norm_num)
    · intro i j
      fin_cases i <;> fin_cases j <;> simp [galMat, Matrix.mul_apply, Matrix.vecMul, dotProduct, Fin.sum_univ_three] <;> rw [abs_le] <;>
        constructor <;> norm_num
    · simp only [galeq, dimxv_eq, (reduce_spec _).2.2.2.2]
    · simp only [eqgal, dmxv_eq, (reduce_spec _).2.2.2.2]
  · refine (there_and_back (A := supMatᵀ) (B := supMat) (ε := 1e-12) (by norm_num) ?_ s
      (p := galsup s) (q := supgal (galsup s)) ?_ ?_).trans (by norm_num)
    · intro i j
      fin_cases i <;> fin_cases j <;> simp [supMat, Matrix.mul_apply, Matrix.vecMul, dotProduct, Fin.sum_univ_three] <;> rw [abs_le] <;>
        constructor <;> norm_num
    · simp only [galsup, dmxv_eq, (reduce_spec _).2.2.2.2]
    · simp only [supgal, dimxv_eq, (reduce_spec _).2.2.2.2]
  · refine (there_and_back (A := supMat) (B := supMatᵀ) (ε := 1e-12) (by norm_num) ?_ s
      (p := supgal s) (q := galsup (supgal s)) ?_ ?_).trans (by norm_num)
    · intro i j
      fin_cases i <;> fin_cases j <;> simp [supMat, Matrix.mul_apply, Matrix.vecMul, dotProduct, Fin.sum_univ_three] <;> rw [abs_le] <;>
        constructor <;> norm_num
    · simp only [supgal, dimxv_eq, (reduce_spec _).2.2.2.2]
    · simp only [galsup, dmxv_eq, (reduce_spec _).2.2.2.2]

end Sla.Props
