import Verif.Lemmas.Coords
import Mathlib.Analysis.Real.Pi.Bounds

/-
C47, C62: E-terms of aberration and the galactic system of B1950.
-/
namespace Sla.Props
open Real Spec Matrix

/-! ## C47 -/

/-- The E-terms vector lies in the ecliptic, 90 degrees behind the perihelion, with length eccentricity times the
    constant of aberration: it is that multiple of the ecliptic direction of longitude (perihelion - 90 deg), referred
    to the equator by turning about the equinox through the obliquity. -/
theorem C47_etrms (be : ℝ) : let jc := (be - 1950) * 1.00002135903e-2
    etrms be = ((0.01673011 - 0.00004193 * jc - 0.000000126 * jc ^ 2) * (20.49552 * (π / 648000))) •
      turnFrame ex (-((84404.836 - 46.8495 * jc - 0.00319 * jc ^ 2 - 0.00181 * jc ^ 3) * (π / 648000)))
        (direction ((1015489.951 + 6190.67 * jc + 1.65 * jc ^ 2 + 0.012 * jc ^ 3) * (π / 648000) - π / 2) 0) := by
  intro jc
  have e1 : etrmsObl jc = (84404.836 - 46.8495 * jc - 0.00319 * jc ^ 2 - 0.00181 * jc ^ 3) * (π / 648000) := by
    simp only [etrmsObl, as2r]; ring
  have e2 : etrmsPer jc = (1015489.951 + 6190.67 * jc + 1.65 * jc ^ 2 + 0.012 * jc ^ 3) * (π / 648000) := by
    simp only [etrmsPer, as2r]; ring
  have e3 : etrmsEcc jc = 0.01673011 - 0.00004193 * jc - 0.000000126 * jc ^ 2 := by
    simp only [etrmsEcc]; ring
  rw [← e1, ← e2, ← e3]
  have hjc : etrmsJc be = jc := rfl
  simp only [etrms, hjc, as2r]
  rw [direction_eq]
  funext i
  fin_cases i <;>
    simp [turnFrame, ex, cross_apply, dotProduct, Fin.sum_univ_three, cos_sub_pi_div_two, sin_sub_pi_div_two] <;> ring

/-- Turning the frame about the x axis keeps lengths. -/
private theorem len_turn (a : ℝ) (v : Vec) : len (turnFrame ex a v) = len v := by
  rw [← frameMat_mulVec]
  exact rotation_len (frameMat_rotation _ (by simp [ex, dotProduct, Fin.sum_univ_three]) _) _

/-- Within 10000 years of B1950 the E-terms are less than 2.5 microradians (0.52 arcsec). -/
theorem C47_size (be : ℝ) (h : |be - 1950| ≤ 10000) : len (etrms be) ≤ 2.5e-6 := by
  rw [C47_etrms, len_smul, len_turn, len_direction, mul_one, abs_mul, abs_of_pos (a := 20.49552 * _) (by positivity)]
  set jc := (be - 1950) * 1.00002135903e-2
  obtain ⟨h1, h2⟩ := abs_le.1 h
  have j1 : -100.1 ≤ jc := by simp only [jc]; norm_num at *; linarith
  have j2 : jc ≤ 100.1 := by simp only [jc]; norm_num at *; linarith
  have e : abs (0.01673011 - 0.00004193 * jc - 0.000000126 * jc ^ 2) ≤ 0.025 := by
    have : jc ^ 2 ≤ 100.1 ^ 2 := sq_le_sq' j1 j2
    have := sq_nonneg jc
    rw [abs_le]; constructor <;> norm_num at * <;> linarith
  have p := pi_lt_d2
  have : (20.49552 : ℝ) * (π / 648000) ≤ 1e-4 := by norm_num at *; linarith
  have h0 : (0 : ℝ) ≤ 20.49552 * (π / 648000) := by positivity
  calc _ ≤ (0.025 : ℝ) * 1e-4 := mul_le_mul e this h0 (by norm_num)
    _ = 2.5e-6 := by norm_num

example : |(2000 : ℝ) - 1950| ≤ 10000 := by norm_num

theorem addetWith_dir (s : Spherical) (et : Vec) : direction s.a s.b + et =
    len (direction s.a s.b + et) • direction (addetWith s et).a (addetWith s et).b := by
  have := (reduce_spec (direction s.a s.b + et)).1
  simp only [addetWith, dcs2c_eq]; exact this

theorem subetWith_dir (s : Spherical) (et : Vec) :
    (1 + direction s.a s.b ⬝ᵥ et) • direction s.a s.b - et =
    len ((1 + direction s.a s.b ⬝ᵥ et) • direction s.a s.b - et) •
      direction (subetWith s et).a (subetWith s et).b := by
  have := (reduce_spec ((1 + direction s.a s.b ⬝ᵥ et) • direction s.a s.b - et)).1
  have e : (fun i => direction s.a s.b i * (1 + direction s.a s.b ⬝ᵥ et) - et i) =
      (1 + direction s.a s.b ⬝ᵥ et) • direction s.a s.b - et := by
    funext i; simp [mul_comm]
  simp only [subetWith, dcs2c_eq, dvdv_eq, e]; exact this

theorem addetWith_range (s : Spherical) (et : Vec) :
    0 ≤ (addetWith s et).a ∧ (addetWith s et).a < 2 * π ∧ |(addetWith s et).b| ≤ π / 2 :=
  ⟨(reduce_spec _).2.1, (reduce_spec _).2.2.1, (reduce_spec (fun i => dcs2c s i + et i)).2.2.2.1⟩

theorem subetWith_range (s : Spherical) (et : Vec) :
    0 ≤ (subetWith s et).a ∧ (subetWith s et).a < 2 * π ∧ |(subetWith s et).b| ≤ π / 2 :=
  ⟨(reduce_spec _).2.1, (reduce_spec _).2.2.1, (reduce_spec (fun i => dcs2c s i * (1 + dvdv (dcs2c s) et) - et i)).2.2.2.1⟩

/-- `addet` returns the direction of the given one plus the E-terms vector, `subet` of the given one times one plus its
    product with the E-terms, less the E-terms; both in the conventional ranges. -/
theorem C47_directions (s : Spherical) (be : ℝ) :
    ((∃ k : ℝ, 0 ≤ k ∧ direction s.a s.b + etrms be = k • direction (addet s be).a (addet s be).b) ∧
      0 ≤ (addet s be).a ∧ (addet s be).a < 2 * π ∧ |(addet s be).b| ≤ π / 2) ∧
    ((∃ k : ℝ, 0 ≤ k ∧ (1 + direction s.a s.b ⬝ᵥ etrms be) • direction s.a s.b - etrms be =
        k • direction (subet s be).a (subet s be).b) ∧
      0 ≤ (subet s be).a ∧ (subet s be).a < 2 * π ∧ |(subet s be).b| ≤ π / 2) :=
  ⟨⟨⟨_, len_nonneg _, addetWith_dir s _⟩, addetWith_range s _⟩,
   ⟨⟨_, len_nonneg _, subetWith_dir s _⟩, subetWith_range s _⟩⟩

theorem len_sq (v : Vec) : len v ^ 2 = v ⬝ᵥ v := by
  rw [len, sq_sqrt]
  simp only [dotProduct, Fin.sum_univ_three]
  nlinarith [mul_self_nonneg (v 0), mul_self_nonneg (v 1), mul_self_nonneg (v 2)]

theorem abs_dot_le {d e : Vec} (hd : len d = 1) : |d ⬝ᵥ e| ≤ len e := by
  have h : (d ⬝ᵥ e) ^ 2 ≤ len e ^ 2 := by
    have h1 : (d ⬝ᵥ e) ^ 2 ≤ (d ⬝ᵥ d) * (e ⬝ᵥ e) := by
      simp only [dotProduct, Fin.sum_univ_three]
      nlinarith [sq_nonneg (d 0 * e 1 - d 1 * e 0), sq_nonneg (d 0 * e 2 - d 2 * e 0),
        sq_nonneg (d 1 * e 2 - d 2 * e 1)]
    rw [← len_sq d, hd, ← len_sq e] at h1; linarith
  exact abs_le_of_sq_le_sq h (len_nonneg e)

/-- `subet` after `addet`, for any E-terms of length up to 0.1. -/
theorem subet_addet (s : Spherical) (et : Vec) (h : len et ≤ 0.1) :
    len (direction (subetWith (addetWith s et) et).a (subetWith (addetWith s et) et).b - direction s.a s.b) ≤
      1.5 * len et ^ 3 := by
  set q := addetWith s et with hq
  set r := subetWith q et with hr
  have h1 := addetWith_dir s et
  have h2 := subetWith_dir q et
  rw [← hq] at h1
  rw [← hr] at h2
  set d := direction s.a s.b
  have hd : len d = 1 := len_direction _ _
  set N := len (d + et)
  set K := len ((1 + direction q.a q.b ⬝ᵥ et) • direction q.a q.b - et)
  set u := direction r.a r.b
  set w := direction q.a q.b
  have hN2 : N ^ 2 = 1 + 2 * (d ⬝ᵥ et) + len et ^ 2 := by
    rw [len_sq, len_sq, dotProduct_add, add_dotProduct, add_dotProduct, dotProduct_comm et d, ← len_sq d, hd]; ring
  have ht := abs_le.1 (abs_dot_le (e := et) hd)
  have hl := len_nonneg et
  have hN0 : 0 ≤ N := len_nonneg _
  have hN : 0.9 ≤ N := by
    have a := len_add_le (d + et) ((-1 : ℝ) • et)
    rw [len_smul, show d + et + (-1 : ℝ) • et = d by simp, hd] at a
    simp only [abs_neg, abs_one, one_mul] at a
    show 0.9 ≤ len (d + et)
    norm_num at *; linarith
  set σ := d ⬝ᵥ et
  set t := len et
  have hdot : N * (w ⬝ᵥ et) = σ + t ^ 2 := by
    have := congrArg (· ⬝ᵥ et) h1
    simp only [add_dotProduct, smul_dotProduct, smul_eq_mul, ← len_sq] at this
    exact this.symm
  -- the sum is g d + (g-1) e
  set g := (N + σ + t ^ 2) / N ^ 2
  have hNp : 0 < N := by norm_num at hN; linarith
  have hvec : K • u = g • d + (g - 1) • et := by
    rw [← h2]
    have hw : w = N⁻¹ • (d + et) := by rw [h1, smul_smul, inv_mul_cancel₀ hNp.ne', one_smul]
    have hwe : w ⬝ᵥ et = (σ + t ^ 2) / N := by field_simp; linarith
    rw [hwe, hw]
    funext i
    simp only [Pi.sub_apply, Pi.add_apply, Pi.smul_apply, smul_eq_mul, g]
    field_simp
    ring
  have hs2 : σ ^ 2 ≤ t ^ 2 := sq_le_sq' ht.1 ht.2
  have hden : 0 < N + 1 + σ := by norm_num at *; linarith
  have hg1 : g - 1 = (t ^ 2 - σ ^ 2) / (N ^ 2 * (N + 1 + σ)) := by
    simp only [g]
    field_simp
    linear_combination (-(N + 1 + σ) + 1) * hN2
  have hgn : 0 ≤ g - 1 := by
    rw [hg1]; apply div_nonneg (by linarith) (by positivity)
  have hgu : g - 1 ≤ 0.7 * t ^ 2 := by
    rw [hg1, div_le_iff₀ (by positivity)]
    have a1 : 0.81 ≤ N ^ 2 := by norm_num at *; nlinarith
    have a2 : 1.8 ≤ N + 1 + σ := by norm_num at *; linarith
    have a3 : (0.81 : ℝ) * 1.8 ≤ N ^ 2 * (N + 1 + σ) := mul_le_mul a1 a2 (by norm_num) (by positivity)
    nlinarith [sq_nonneg σ, sq_nonneg t]
  have hgp : 1 ≤ g := by linarith
  have := near_direction (u := u) (d := d) (k := K / g) (ε := 0.7 * t ^ 3)
    (div_nonneg (len_nonneg _) (by linarith)) (len_direction _ _) hd (by
      have e : (K / g) • u - d = ((g - 1) / g) • et := by
        rw [div_eq_inv_mul, ← smul_smul, hvec]
        funext i
        simp only [Pi.sub_apply, Pi.add_apply, Pi.smul_apply, smul_eq_mul]
        field_simp; ring
      rw [e, len_smul, abs_of_nonneg (div_nonneg hgn (by linarith))]
      have : (g - 1) / g ≤ 0.7 * t ^ 2 := (div_le_self hgn hgp).trans hgu
      calc (g - 1) / g * len et ≤ 0.7 * t ^ 2 * t := mul_le_mul_of_nonneg_right this hl
        _ = 0.7 * t ^ 3 := by ring)
  have ht3 : 0 ≤ t ^ 3 := by positivity
  norm_num at *; linarith

/-- `addet` after `subet`. -/
theorem addet_subet (s : Spherical) (et : Vec) (h : len et ≤ 0.1) :
    len (direction (addetWith (subetWith s et) et).a (addetWith (subetWith s et) et).b - direction s.a s.b) ≤
      1.5 * len et ^ 3 := by
  set r := subetWith s et with hr
  set p := addetWith r et with hp
  have h1 := subetWith_dir s et
  have h2 := addetWith_dir r et
  rw [← hr] at h1
  rw [← hp] at h2
  set d := direction s.a s.b
  have hd : len d = 1 := len_direction _ _
  set K := len ((1 + d ⬝ᵥ et) • d - et)
  set M := len (direction r.a r.b + et)
  set w := direction r.a r.b
  set u := direction p.a p.b
  set σ := d ⬝ᵥ et
  set t := len et
  have ht := abs_le.1 (abs_dot_le (e := et) hd)
  have hl : 0 ≤ t := len_nonneg et
  have hK0 : 0 ≤ K := len_nonneg _
  have hK2 : K ^ 2 = 1 - σ ^ 2 + t ^ 2 := by
    rw [len_sq, len_sq et, sub_dotProduct, dotProduct_sub, dotProduct_sub, smul_dotProduct, dotProduct_smul,
      dotProduct_smul, smul_dotProduct, dotProduct_comm et d, ← len_sq d, hd]
    simp only [smul_eq_mul]; ring
  have hs2 : σ ^ 2 ≤ t ^ 2 := sq_le_sq' ht.1 ht.2
  have hK1 : 1 ≤ K := by nlinarith
  have hsp : 0.9 ≤ 1 + σ := by norm_num at *; linarith
  have hvec : (M * K / (1 + σ)) • u - d = ((K - 1) / (1 + σ)) • et := by
    have hw : w = K⁻¹ • ((1 + σ) • d - et) := by rw [h1, smul_smul, inv_mul_cancel₀ (by linarith), one_smul]
    have hu : M • u = K⁻¹ • ((1 + σ) • d - et) + et := by rw [← h2, hw]
    have hsn : 1 + σ ≠ 0 := by norm_num at hsp; linarith
    have hkn : K ≠ 0 := by linarith
    rw [show M * K / (1 + σ) = (K / (1 + σ)) * M by ring, ← smul_smul, hu]
    funext i
    simp only [Pi.sub_apply, Pi.add_apply, Pi.smul_apply, smul_eq_mul]
    field_simp; ring
  have hsp' : 0 < 1 + σ := by norm_num at hsp; linarith
  have hb : (K - 1) / (1 + σ) ≤ 0.6 * t ^ 2 := by
    have : K - 1 ≤ 0.5 * t ^ 2 := by
      have : (K - 1) * (K + 1) = t ^ 2 - σ ^ 2 := by linear_combination hK2
      norm_num; nlinarith [sq_nonneg σ]
    rw [div_le_iff₀ hsp']
    have := mul_le_mul_of_nonneg_left hsp (by positivity : (0 : ℝ) ≤ 0.6 * t ^ 2)
    have := sq_nonneg t
    norm_num at *; linarith
  have := near_direction (u := u) (d := d) (k := M * K / (1 + σ)) (ε := 0.6 * t ^ 3)
    (div_nonneg (mul_nonneg (len_nonneg _) hK0) hsp'.le) (len_direction _ _) hd (by
      rw [hvec, len_smul, abs_of_nonneg (div_nonneg (by linarith) hsp'.le)]
      calc (K - 1) / (1 + σ) * len et ≤ 0.6 * t ^ 2 * t := mul_le_mul_of_nonneg_right hb hl
        _ = 0.6 * t ^ 3 := by ring)
  have ht3 : 0 ≤ t ^ 3 := by positivity
  norm_num at *; linarith

/-- Adding and removing the E-terms undo each other to third order in the E-terms (as a chord between unit vectors),
    in either order: for epochs within 10000 years of B1950, to 2.4e-17. -/
theorem C47_round_trip (s : Spherical) (be : ℝ) (h : |be - 1950| ≤ 10000) :
    len (direction (subet (addet s be) be).a (subet (addet s be) be).b - direction s.a s.b) ≤
      1.5 * len (etrms be) ^ 3 ∧
    len (direction (addet (subet s be) be).a (addet (subet s be) be).b - direction s.a s.b) ≤
      1.5 * len (etrms be) ^ 3 ∧
    1.5 * len (etrms be) ^ 3 ≤ 2.4e-17 := by
  have hl := C47_size be h
  have h1 : len (etrms be) ≤ 0.1 := by norm_num at *; linarith
  refine ⟨subet_addet s _ h1, addet_subet s _ h1, ?_⟩
  have := pow_le_pow_left₀ (len_nonneg (etrms be)) hl 3
  norm_num at *; linarith

/-! ## C62 -/

private theorem b50_left : ∀ i j, |(gal50Mat * gal50Matᵀ - 1) i j| ≤ 1.1e-12 := by
  intro i j
  fin_cases i <;> fin_cases j <;>
    simp [gal50Mat, Matrix.vecMul, dotProduct, Fin.sum_univ_three] <;> rw [abs_le] <;>
    constructor <;> norm_num

private theorem b50_right : ∀ i j, |(gal50Matᵀ * gal50Mat - 1) i j| ≤ 1.1e-12 := by
  intro i j
  fin_cases i <;> fin_cases j <;>
    simp [gal50Mat, Matrix.mul_apply, Fin.sum_univ_three] <;> rw [abs_le] <;>
    constructor <;> norm_num

private theorem b50_entries : ∀ i j, |gal50Mat i j| ≤ 1 := by
  intro i j
  fin_cases i <;> fin_cases j <;> simp [gal50Mat] <;> rw [abs_le] <;> constructor <;> norm_num

theorem len_neg (v : Vec) : len (-v) = len v := by
  rw [show -v = (-1 : ℝ) • v by simp, len_smul]; simp

theorem len_sub_le (u v : Vec) : len (u - v) ≤ len u + len v := by
  rw [sub_eq_add_neg, ← len_neg v]; exact len_add_le _ _

/-- The B1950 galactic conversions undo each other to 1.5e-11 in both orders, and return angles in the conventional
    ranges. -/
theorem C62_inverse (s : Spherical) :
    len (direction (eg50 (ge50 s)).a (eg50 (ge50 s)).b - direction s.a s.b) ≤ 1.5e-11 ∧
    len (direction (ge50 (eg50 s)).a (ge50 (eg50 s)).b - direction s.a s.b) ≤ 1.5e-11 := by
  have hsz : len (etrms 1950) ≤ 2.5e-6 := C47_size 1950 (by norm_num)
  have hsz1 : len (etrms 1950) ≤ 0.1 := by norm_num at *; linarith
  have hcube : 1.5 * len (etrms 1950) ^ 3 ≤ 2.4e-17 := (C47_round_trip s 1950 (by norm_num)).2.2
  constructor
  · -- galactic -> FK4 -> galactic
    set p := dcc2s (gal50Matᵀ *ᵥ dcs2c s) with hp
    have e1 : direction (ge50 s).a (ge50 s).b = direction (addetWith p (etrms 1950)).a (addetWith p (etrms 1950)).b := by
      have hr := (reduce_spec (fun i => dcs2c p i + etrms 1950 i)).2.2.2.2
      simp only [ge50, dimxv_eq, ← hp, addet, addetWith, hr, direction_dranrm]
    set q := addetWith p (etrms 1950) with hq
    have e2 : subet (ge50 s) 1950 = subetWith q (etrms 1950) := by
      simp only [subet, subetWith, dcs2c_eq, e1]
    set r := subetWith q (etrms 1950) with hr
    have hrp : len (direction r.a r.b - direction p.a p.b) ≤ 2.4e-17 := (subet_addet p _ hsz1).trans hcube
    have e3 : eg50 (ge50 s) = ⟨dranrm (dcc2s (gal50Mat *ᵥ dcs2c r)).a, (dcc2s (gal50Mat *ᵥ dcs2c r)).b⟩ := by
      simp only [eg50, e2, dmxv_eq, (reduce_spec _).2.2.2.2]
    set g := eg50 (ge50 s)
    have h1 := (C25_dcc2s (gal50Matᵀ *ᵥ dcs2c s)).1
    have h2 := (reduce_spec (gal50Mat *ᵥ dcs2c r)).1
    rw [← hp] at h1
    have e4 : direction (dranrm (dcc2s (gal50Mat *ᵥ dcs2c r)).a) (dcc2s (gal50Mat *ᵥ dcs2c r)).b =
        direction g.a g.b := by rw [e3]
    rw [e4] at h2
    set k1 := len (gal50Matᵀ *ᵥ dcs2c s) with hk1
    set k2 := len (gal50Mat *ᵥ dcs2c r)
    have hk1b : k1 ≤ 3 := by
      have := small_matrix (E := gal50Matᵀ) (ε := 1) (by norm_num) (fun i j => b50_entries j i) (dcs2c s)
      rw [dcs2c_eq, len_direction] at this; rw [hk1, dcs2c_eq]; linarith
    have e : (k1 * k2) • direction g.a g.b - direction s.a s.b =
        (gal50Mat * gal50Matᵀ - 1) *ᵥ direction s.a s.b + k1 • (gal50Mat *ᵥ (direction r.a r.b - direction p.a p.b)) := by
      rw [sub_mulVec, one_mulVec, ← mulVec_mulVec, ← dcs2c_eq s, h1, mulVec_smul, mulVec_sub, ← smul_smul, ← h2,
        dcs2c_eq r, smul_sub]; abel
    have := near_direction (k := k1 * k2) (ε := 3.4e-12) (mul_nonneg (len_nonneg _) (len_nonneg _))
      (len_direction g.a g.b) (len_direction s.a s.b) (by
        rw [e]
        have a1 := small_matrix (by norm_num) b50_left (direction s.a s.b)
        have a2 := small_matrix (by norm_num) b50_entries (direction r.a r.b - direction p.a p.b)
        rw [len_direction] at a1
        have a3 : len (k1 • (gal50Mat *ᵥ (direction r.a r.b - direction p.a p.b))) ≤ 3 * (3 * 1 * 2.4e-17) := by
          rw [len_smul, abs_of_nonneg (len_nonneg _)]
          exact mul_le_mul hk1b (a2.trans (by linarith)) (len_nonneg _) (by norm_num)
        refine (len_add_le _ _).trans ?_
        norm_num at *; linarith)
    norm_num at *; linarith
  · -- FK4 -> galactic -> FK4
    set p := subetWith s (etrms 1950) with hp
    set g := eg50 s with hg
    have eg : g = ⟨dranrm (dcc2s (gal50Mat *ᵥ dcs2c p)).a, (dcc2s (gal50Mat *ᵥ dcs2c p)).b⟩ := by
      simp only [hg, eg50, subet, ← hp, dmxv_eq, (reduce_spec _).2.2.2.2]
    set p2 := dcc2s (gal50Matᵀ *ᵥ dcs2c g) with hp2
    have hpp : len (direction p2.a p2.b - direction p.a p.b) ≤ 6.6e-12 := by
      have := there_and_back (A := gal50Matᵀ) (B := gal50Mat) (by norm_num) b50_right p (p := g)
        (q := ⟨dranrm p2.a, p2.b⟩) eg (by rw [hp2])
      simp only [direction_dranrm] at this
      norm_num at *; linarith
    have e1 : direction (ge50 g).a (ge50 g).b = direction (addetWith p2 (etrms 1950)).a (addetWith p2 (etrms 1950)).b := by
      have hr := (reduce_spec (fun i => dcs2c p2 i + etrms 1950 i)).2.2.2.2
      simp only [ge50, dimxv_eq, ← hp2, addet, addetWith, hr, direction_dranrm]
    rw [e1]
    have h1 := addetWith_dir p2 (etrms 1950)
    have h2 := addetWith_dir p (etrms 1950)
    have h3 : len (direction (addetWith p (etrms 1950)).a (addetWith p (etrms 1950)).b - direction s.a s.b) ≤ 2.4e-17 :=
      (addet_subet s _ hsz1).trans hcube
    set k := len (direction p2.a p2.b + etrms 1950)
    set M := len (direction p.a p.b + etrms 1950) with hMd
    set u := direction (addetWith p2 (etrms 1950)).a (addetWith p2 (etrms 1950)).b with hu
    set w := direction (addetWith p (etrms 1950)).a (addetWith p (etrms 1950)).b
    have hM : 0.99 ≤ M := by
      have a := len_sub_le (direction p.a p.b + etrms 1950) (etrms 1950)
      rw [add_sub_cancel_right, len_direction, ← hMd] at a
      norm_num at *; linarith
    have hMp : 0 < M := by norm_num at hM; linarith
    have e : (k / M) • u - direction s.a s.b = M⁻¹ • (direction p2.a p2.b - direction p.a p.b) + (w - direction s.a s.b) := by
      rw [div_eq_inv_mul, ← smul_smul, ← h1]
      have : w = M⁻¹ • (direction p.a p.b + etrms 1950) := by
        rw [h2, smul_smul, inv_mul_cancel₀ hMp.ne', one_smul]
      rw [this, smul_add, smul_add, smul_sub]; abel
    have := near_direction (u := u) (k := k / M) (ε := 7e-12) (div_nonneg (len_nonneg _) hMp.le)
      (len_direction _ _) (len_direction s.a s.b) (by
        rw [e]
        refine (len_add_le _ _).trans ?_
        rw [len_smul, abs_of_pos (inv_pos.2 hMp)]
        have : M⁻¹ ≤ 1 / 0.99 := by
          rw [← one_div]; exact one_div_le_one_div_of_le (by norm_num) hM
        have := mul_le_mul this hpp (len_nonneg _) (by norm_num)
        norm_num at *; linarith)
    norm_num at *; linarith

theorem C62_ranges (s : Spherical) :
    0 ≤ (eg50 s).a ∧ (eg50 s).a < 2 * π ∧ |(eg50 s).b| ≤ π / 2 ∧
    0 ≤ (ge50 s).a ∧ (ge50 s).a < 2 * π ∧ |(ge50 s).b| ≤ π / 2 := by
  refine ⟨(C15_dranrm _).1, (C15_dranrm _).2.1, ?_, (C15_dranrm _).1, (C15_dranrm _).2.1, ?_⟩
  · simp only [eg50, (reduce_spec _).2.2.2.2]; exact (reduce_spec _).2.2.2.1
  · simp only [ge50, addet, addetWith, (reduce_spec _).2.2.2.2]; exact (reduce_spec _).2.2.2.1

end Sla.Props
