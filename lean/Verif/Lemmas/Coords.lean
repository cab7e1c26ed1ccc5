import Verif.Model.Coords
import Verif.Props.Tangent
import Verif.Props.Precession

/-
Directions through the Cartesian-to-spherical conversions that end most coordinate routines.
-/
namespace Sla
open Real Spec Matrix Props

theorem direction_dranrm (a b : ℝ) : direction (dranrm a) b = direction a b := by
  rw [direction_eq, direction_eq, dranrm_cos, dranrm_sin]

/-- Longitude reduced to [0,2pi), latitude reduced to one turn: still the direction of the vector. -/
theorem reduce_spec (v : Vec) : v = len v • direction (dranrm (dcc2s v).a) (dcc2s v).b ∧
    0 ≤ dranrm (dcc2s v).a ∧ dranrm (dcc2s v).a < 2 * π ∧ |(dcc2s v).b| ≤ π / 2 ∧
    drange (dcc2s v).b = (dcc2s v).b := by
  obtain ⟨h1, -, -, h4⟩ := C25_dcc2s v
  obtain ⟨r1, r2, -⟩ := C15_dranrm (dcc2s v).a
  refine ⟨by rw [direction_dranrm]; exact h1, r1, r2, h4, (C15_drange_laws _).1 ?_⟩
  linarith [pi_pos]

theorem len_direction (a b : ℝ) : len (direction a b) = 1 := by
  rw [len, direction_unit, sqrt_one]

theorem len_smul (k : ℝ) (v : Vec) : len (k • v) = |k| * len v := by
  rw [len, len, smul_dotProduct, dotProduct_smul, smul_eq_mul, smul_eq_mul, ← mul_assoc,
    sqrt_mul (mul_self_nonneg k), sqrt_mul_self_eq_abs]

theorem rotation_dot {R : Mat} (h : IsRotation R) (u v : Vec) : (R *ᵥ u) ⬝ᵥ (R *ᵥ v) = u ⬝ᵥ v := by
  rw [dotProduct_mulVec, vecMul_mulVec, ← dotProduct_mulVec, h.transpose_mul_self, one_mulVec]

theorem rotation_len {R : Mat} (h : IsRotation R) (v : Vec) : len (R *ᵥ v) = len v := by
  rw [len, rotation_dot h, len]

/-- A rotated direction converts to the longitude and latitude of the rotated direction. -/
theorem rotated_direction {R : Mat} (h : IsRotation R) (s : Spherical) :
    direction (dranrm (dcc2s (R *ᵥ dcs2c s)).a) (dcc2s (R *ᵥ dcs2c s)).b = R *ᵥ direction s.a s.b := by
  have := (reduce_spec (R *ᵥ dcs2c s)).1
  rw [rotation_len h, dcs2c_eq, len_direction, one_smul] at this
  rw [dcs2c_eq]; exact this.symm

theorem dsep_rotation {R : Mat} (hR : IsRotation R) {p q p' q' : Spherical}
    (e1 : direction p'.a p'.b = R *ᵥ direction p.a p.b) (e2 : direction q'.a q'.b = R *ᵥ direction q.a q.b) :
    dsep p' q' = dsep p q := by
  rw [(C27_dsep p' q' p').1, (C27_dsep p q p).1, e1, e2]
  simp only [angleBetween, InnerProductGeometry.angle, inner_toLp, norm_toLp, rotation_dot hR, rotation_len hR]

theorem same_place {p q : Spherical} (h : direction p.a p.b = direction q.a q.b) (hp : |p.b| ≤ π / 2)
    (h0 : 0 ≤ p.a) (h1 : p.a < 2 * π) (g0 : 0 ≤ q.a) (g1 : q.a < 2 * π) (hq : |q.b| < π / 2) : p = q := by
  obtain ⟨⟨k, hk⟩, hb⟩ := direction_inj h hp hq
  have hpi := pi_pos
  have : k = 0 := by
    have a1 : (-1 : ℝ) < k := by nlinarith
    have a2 : (k : ℝ) < 1 := by nlinarith
    have a1' : (-1 : ℤ) < k := by exact_mod_cast a1
    have a2' : k < (1 : ℤ) := by exact_mod_cast a2
    omega
  ext
  · rw [hk, this]; simp
  · exact hb

/-! ## Nearby directions -/

theorem len_nonneg (v : Vec) : 0 ≤ len v := sqrt_nonneg _

theorem len_add_le (u v : Vec) : len (u + v) ≤ len u + len v := by
  have := norm_add_le (WithLp.toLp 2 u : EuclideanSpace ℝ (Fin 3)) (WithLp.toLp 2 v)
  rw [← WithLp.toLp_add] at this
  rwa [norm_toLp, norm_toLp, norm_toLp] at this

/-- A vector close to a unit vector has nearly the same direction. -/
theorem near_direction {u d : Vec} {k ε : ℝ} (hk : 0 ≤ k) (hu : len u = 1) (hd : len d = 1)
    (h : len (k • u - d) ≤ ε) : len (u - d) ≤ 2 * ε := by
  have h1 : |1 - k| ≤ ε := by
    have a1 := len_add_le (k • u - d) d
    have a2 := len_add_le (-(k • u - d)) (k • u)
    rw [show k • u - d + d = k • u by abel, len_smul, abs_of_nonneg hk, hu, hd] at a1
    rw [show -(k • u - d) + k • u = d by abel, len_smul, abs_of_nonneg hk, hu, hd,
      show -(k • u - d) = (-1 : ℝ) • (k • u - d) by simp, len_smul] at a2
    simp only [abs_neg, abs_one, one_mul, mul_one] at a1 a2
    rw [abs_le]; constructor <;> linarith
  have h2 := len_add_le ((1 - k) • u) (k • u - d)
  rw [show (1 - k) • u + (k • u - d) = u - d by rw [sub_smul, one_smul]; abel, len_smul, hu, mul_one] at h2
  linarith

/-- The size of a matrix with small entries applied to a vector. -/
theorem small_matrix {E : Mat} {ε : ℝ} (hε : 0 ≤ ε) (h : ∀ i j, |E i j| ≤ ε) (d : Vec) :
    len (E *ᵥ d) ≤ 3 * ε * len d := by
  have hd2 : d 0 * d 0 + d 1 * d 1 + d 2 * d 2 = len d ^ 2 := by
    rw [len_eq, sq_sqrt]; nlinarith [mul_self_nonneg (d 0), mul_self_nonneg (d 1), mul_self_nonneg (d 2)]
  have row : ∀ i, ((E *ᵥ d) i) ^ 2 ≤ 3 * ε ^ 2 * len d ^ 2 := by
    intro i
    have e : (E *ᵥ d) i = E i 0 * d 0 + E i 1 * d 1 + E i 2 * d 2 := by
      simp [Matrix.mulVec, dotProduct, Fin.sum_univ_three]
    have b0 := sq_le_sq' (by linarith [(abs_le.1 (h i 0)).1]) (abs_le.1 (h i 0)).2
    have b1 := sq_le_sq' (by linarith [(abs_le.1 (h i 1)).1]) (abs_le.1 (h i 1)).2
    have b2 := sq_le_sq' (by linarith [(abs_le.1 (h i 2)).1]) (abs_le.1 (h i 2)).2
    have cs : (E i 0 * d 0 + E i 1 * d 1 + E i 2 * d 2) ^ 2 ≤
        (E i 0 ^ 2 + E i 1 ^ 2 + E i 2 ^ 2) * (d 0 * d 0 + d 1 * d 1 + d 2 * d 2) := by
      nlinarith [sq_nonneg (E i 0 * d 1 - E i 1 * d 0), sq_nonneg (E i 0 * d 2 - E i 2 * d 0),
        sq_nonneg (E i 1 * d 2 - E i 2 * d 1)]
    rw [e]; rw [hd2] at cs
    have := sq_nonneg (len d)
    nlinarith
  rw [len_eq]
  refine sqrt_le_iff.2 ⟨mul_nonneg (by linarith) (len_nonneg _), ?_⟩
  have := row 0; have := row 1; have := row 2
  nlinarith

/-- There and back with a nearly orthogonal matrix. -/
theorem there_and_back {A B : Mat} {ε : ℝ} (hε : 0 ≤ ε) (h : ∀ i j, |(A * B - 1) i j| ≤ ε) (s : Spherical)
    {p q : Spherical} (hp : p = ⟨dranrm (dcc2s (B *ᵥ dcs2c s)).a, (dcc2s (B *ᵥ dcs2c s)).b⟩)
    (hq : q = ⟨dranrm (dcc2s (A *ᵥ dcs2c p)).a, (dcc2s (A *ᵥ dcs2c p)).b⟩) :
    len (direction q.a q.b - direction s.a s.b) ≤ 6 * ε := by
  have h1 := (reduce_spec (B *ᵥ dcs2c s)).1
  have h2 := (reduce_spec (A *ᵥ dcs2c p)).1
  have e1 : direction (dranrm (dcc2s (B *ᵥ dcs2c s)).a) (dcc2s (B *ᵥ dcs2c s)).b = dcs2c p := by
    rw [dcs2c_eq p, hp]
  have e2 : direction (dranrm (dcc2s (A *ᵥ dcs2c p)).a) (dcc2s (A *ᵥ dcs2c p)).b = direction q.a q.b := by
    rw [hq]
  rw [e1] at h1
  rw [e2] at h2
  set k1 := len (B *ᵥ dcs2c s)
  set k2 := len (A *ᵥ dcs2c p)
  have e : (k1 * k2) • direction q.a q.b - direction s.a s.b = (A * B - 1) *ᵥ direction s.a s.b := by
    rw [sub_mulVec, one_mulVec, ← mulVec_mulVec, ← dcs2c_eq s, h1, mulVec_smul, h2, smul_smul]
  have := near_direction (k := k1 * k2) (ε := 3 * ε) (mul_nonneg (len_nonneg _) (len_nonneg _))
    (len_direction q.a q.b) (len_direction s.a s.b) (by
      rw [e]; simpa [len_direction] using small_matrix hε h (direction s.a s.b))
  linarith

end Sla
