import Verif.Lemmas.EclipticMotion
import Verif.Props.PrecessionConsistency
import Verif.Props.Coords

/-
Property theorems C99: precession of the equator and the motion of the ecliptic are consistent.
-/
namespace Sla.Props
open Matrix Spec
open Real (pi)

private theorem as2r_pos : 0 < as2r := by unfold as2r; positivity

/-- The obliquity of `ecmat` in arcseconds and its rate, `s` in centuries from J2000. -/
private noncomputable def obl (s : ℝ) : ℝ := 84381.448 + (-46.8150 + (-0.00059 + 0.001813 * s) * s) * s
private noncomputable def obl' (s : ℝ) : ℝ := -46.8150 + (2 * (-0.00059) + 3 * 0.001813 * s) * s

/-- General precession in longitude since J2000, in arcseconds, `s` in centuries. -/
private noncomputable def gen (s : ℝ) : ℝ := (5029.0966 + 1.11113 * s) * s

private theorem obl_deriv (s : ℝ) : HasDerivAt (fun s => obl s * as2r) (obl' s * as2r) s := by
  have h := hasDerivAt_id s
  have := (((((((h.const_mul 0.001813).const_add (-0.00059)).mul h).const_add (-46.8150)).mul h).const_add 84381.448).mul_const as2r)
  refine this.congr_deriv ?_
  simp only [obl', Pi.mul_apply, id_eq]
  ring

private theorem gen_deriv (s : ℝ) : HasDerivAt (fun s => gen s * as2r) ((5029.0966 + 2.22226 * s) * as2r) s := by
  have h := hasDerivAt_id s
  have := ((((h.const_mul 1.11113).const_add 5029.0966).mul h).mul_const as2r)
  refine this.congr_deriv ?_
  simp only [id_eq]
  ring

private theorem ecmat_rotX (date : ℝ) : ecmat date = rotX (obl ((date - 51544.5) / 36525) * as2r) := by
  apply Matrix.ext_of_mulVec_single
  intro i
  rw [ecmat, ← dmxv_eq, C23_deuler, ← rotX_frame, frameMat_mulVec]
  simp [axisOf, turnSequence, ecmatPhi, obl, mul_comm]

private theorem mul_bd {x y X Y : ℝ} (hx : |x| ≤ X) (hy : |y| ≤ Y) : |x * y| ≤ X * Y := by
  rw [abs_mul]; exact mul_le_mul hx hy (abs_nonneg _) ((abs_nonneg _).trans hx)

private theorem sum_near {s c n δ cd sd : ℝ} (hs : |s| ≤ 1) (c0 : |c - 0.917482| ≤ 1e-6) (s0 : |n - 0.397777| ≤ 2e-6)
    (d1 : |δ + 2.269655e-4 * s| ≤ 3e-8) (d2 : |δ| ≤ 2.2703e-4) (hcd : |cd - 1| ≤ 2.6e-8) (hsd : |sd - δ| ≤ 1e-10)
    (c1 : |c| ≤ 1) (s1 : |n| ≤ 1) : |c * cd - n * sd - (0.917482 + 9.03e-5 * s)| ≤ 2e-6 ∧
      |n * cd + c * sd - (0.397777 - 2.0824e-4 * s)| ≤ 3e-6 := by
  have a1 := mul_bd c1 hcd
  have a2 := mul_bd s1 hsd
  have a3 := mul_bd s0 d2
  have b1 := mul_bd s1 hcd
  have b2 := mul_bd c1 hsd
  have b3 := mul_bd c0 d2
  have e1 : c * cd - n * sd - (0.917482 + 9.03e-5 * s) = (c - 0.917482) + c * (cd - 1) - n * (sd - δ) - (n - 0.397777) * δ -
      0.397777 * (δ + 2.269655e-4 * s) + (0.397777 * 2.269655e-4 - 9.03e-5) * s := by ring
  have e2 : n * cd + c * sd - (0.397777 - 2.0824e-4 * s) = (n - 0.397777) + n * (cd - 1) + c * (sd - δ) + (c - 0.917482) * δ +
      0.917482 * (δ + 2.269655e-4 * s) - (0.917482 * 2.269655e-4 - 2.0824e-4) * s := by ring
  rw [e1, e2]
  generalize c * (cd - 1) = p1 at *
  generalize n * (sd - δ) = p2 at *
  generalize (n - 0.397777) * δ = p3 at *
  generalize n * (cd - 1) = p4 at *
  generalize c * (sd - δ) = p5 at *
  generalize (c - 0.917482) * δ = p6 at *
  generalize δ + 2.269655e-4 * s = p7 at *
  generalize c - 0.917482 = p8 at *
  generalize n - 0.397777 = p9 at *
  clear e1 e2 hcd hsd c1 s1
  rw [abs_le] at *
  obtain ⟨_, _⟩ := a1
  obtain ⟨_, _⟩ := a2
  obtain ⟨_, _⟩ := a3
  obtain ⟨_, _⟩ := b1
  obtain ⟨_, _⟩ := b2
  obtain ⟨_, _⟩ := b3
  obtain ⟨_, _⟩ := c0
  obtain ⟨_, _⟩ := s0
  obtain ⟨_, _⟩ := d1
  obtain ⟨_, _⟩ := hs
  rw [abs_le]
  refine ⟨⟨?_, ?_⟩, ?_, ?_⟩ <;> norm_num at * <;> linarith

private theorem obl_cs {s : ℝ} (hs : |s| ≤ 1) :
    |Real.cos (obl s * as2r) - (0.917482 + 9.03e-5 * s)| ≤ 2e-6 ∧ |Real.sin (obl s * as2r) - (0.397777 - 2.0824e-4 * s)| ≤ 3e-6 := by
  obtain ⟨c0, s0⟩ := obliquity_cs
  obtain ⟨k1, k2, -⟩ := as2r_bounds
  obtain ⟨hs1, hs2⟩ := abs_le.1 hs
  set δ := (-46.8150 + (-0.00059 + 0.001813 * s) * s) * s * as2r with hδ
  have e : obl s * as2r = 84381.448 * as2r + δ := by rw [hδ, obl]; ring
  have h2 : s * s ≤ 1 := by nlinarith
  have h20 := mul_self_nonneg s
  have h3 : |s * s * s| ≤ 1 := by
    rw [abs_mul, abs_of_nonneg h20]; nlinarith [abs_nonneg s]
  obtain ⟨h31, h32⟩ := abs_le.1 h3
  have d1 : |δ + 2.269655e-4 * s| ≤ 3e-8 := by
    have : δ + 2.269655e-4 * s = as2r * (-0.00059 * (s * s) + 0.001813 * (s * s * s)) + (2.269655e-4 - 46.815 * as2r) * s := by
      rw [hδ]; ring
    rw [this]
    refine (abs_add_le _ _).trans ?_
    rw [abs_mul, abs_mul, abs_of_pos as2r_pos]
    have a1 : |-0.00059 * (s * s) + 0.001813 * (s * s * s)| ≤ 0.002403 := by rw [abs_le]; constructor <;> linarith
    have a2 : |2.269655e-4 - 46.815 * as2r| ≤ 5e-10 := by rw [abs_le]; constructor <;> norm_num at * <;> linarith
    have b1 := mul_le_mul k2 a1 (abs_nonneg _) (by norm_num)
    have b2 := mul_le_mul a2 hs (abs_nonneg _) (by norm_num)
    norm_num at *; linarith
  have d2 : |δ| ≤ 2.2703e-4 := by
    rw [abs_le] at d1 ⊢; constructor <;> norm_num at * <;> linarith [d1.1, d1.2]
  have d3 : δ ^ 2 ≤ 5.2e-8 := by
    rw [← sq_abs]; calc |δ| ^ 2 ≤ 2.2703e-4 ^ 2 := by gcongr
      _ ≤ _ := by norm_num
  have cd : |Real.cos δ - 1| ≤ 2.6e-8 := by
    rw [abs_le]; constructor <;> linarith [Real.one_sub_sq_div_two_le_cos (x := δ), Real.cos_le_one δ]
  have sd : |Real.sin δ - δ| ≤ 1e-10 := by
    have hb := Real.sin_bound (x := δ) (d2.trans (by norm_num))
    have h5 : |δ| ^ 5 ≤ 2.2703e-4 ^ 5 := by gcongr
    have h3 : |δ ^ 3| ≤ 2.2703e-4 ^ 3 := by rw [abs_pow]; gcongr
    rw [abs_le] at hb h3 ⊢
    constructor <;> norm_num at * <;> linarith [hb.1, hb.2, h3.1, h3.2]
  rw [e, Real.cos_add, Real.sin_add]
  exact sum_near hs c0 s0 d1 d2 cd sd (Real.abs_cos_le_one _) (Real.abs_sin_le_one _)

private theorem rate_size {s c n : ℝ} (hs : |s| ≤ 1) (hc : |c - (0.917482 + 9.03e-5 * s)| ≤ 2e-6)
    (hn : |n - (0.397777 - 2.0824e-4 * s)| ≤ 3e-6) : len ![-obl' s, -(precTh' s 0 * c) + 2 * precZeta' s 0 * n,
      precTh' s 0 * n + 2 * precZeta' s 0 * c - (5029.0966 + 2.22226 * s)] ≤ 47.09 := by
  have e1 : precTh' s 0 = 2004.3109 + (-0.85330 - 0.000217 * s) * s := by simp [precTh']
  have e2 : 2 * precZeta' s 0 = 4612.4362 + (2.79312 - 0.000278 * s) * s := by simp only [precZeta']; ring
  have h2 : s * s ≤ 1 := by rw [← sq, ← sq_abs]; exact pow_le_one₀ (abs_nonneg s) hs
  have h20 := mul_self_nonneg s
  have h3 : |s * s * s| ≤ 1 := by
    rw [abs_mul, abs_of_nonneg h20]; exact mul_le_one₀ h2 (abs_nonneg s) hs
  rw [e1, e2]
  have n1 : |2004.3109 + (-0.85330 - 0.000217 * s) * s| ≤ 2005.2 := by
    rw [abs_le] at hs ⊢; constructor <;> linarith [hs.1, hs.2]
  have m1 : |4612.4362 + (2.79312 - 0.000278 * s) * s| ≤ 4615.3 := by
    rw [abs_le] at hs ⊢; constructor <;> linarith [hs.1, hs.2]
  have a1 := mul_bd n1 hc
  have a2 := mul_bd m1 hn
  have a3 := mul_bd n1 hn
  have a4 := mul_bd m1 hc
  obtain ⟨_, _⟩ := abs_le.1 h3
  obtain ⟨_, _⟩ := abs_le.1 hs
  refine len_le_of_abs (x := 46.8225) (y := 4.99) (z := 0.04) ?_ ?_ ?_ (by norm_num) (by norm_num)
  · simp only [obl', Matrix.cons_val_zero]
    rw [abs_le]; constructor <;> linarith
  · have e : -((2004.3109 + (-0.85330 - 0.000217 * s) * s) * c) + (4612.4362 + (2.79312 - 0.000278 * s) * s) * n =
      -((2004.3109 + (-0.85330 - 0.000217 * s) * s) * (c - (0.917482 + 9.03e-5 * s))) +
      (4612.4362 + (2.79312 - 0.000278 * s) * s) * (n - (0.397777 - 2.0824e-4 * s)) +
      (-((2004.3109 + (-0.85330 - 0.000217 * s) * s) * (0.917482 + 9.03e-5 * s)) +
       (4612.4362 + (2.79312 - 0.000278 * s) * s) * (0.397777 - 2.0824e-4 * s)) := by ring
    simp only [Matrix.cons_val_one, Matrix.cons_val_zero]
    rw [e]
    generalize (2004.3109 + (-0.85330 - 0.000217 * s) * s) * (c - (0.917482 + 9.03e-5 * s)) = p1 at *
    generalize (4612.4362 + (2.79312 - 0.000278 * s) * s) * (n - (0.397777 - 2.0824e-4 * s)) = p2 at *
    obtain ⟨_, _⟩ := abs_le.1 a1
    obtain ⟨_, _⟩ := abs_le.1 a2
    clear a1 a2 a3 a4 e1 e2 e n1 m1 hc hn
    rw [abs_le]; constructor <;> norm_num at * <;> linarith
  · have e : (2004.3109 + (-0.85330 - 0.000217 * s) * s) * n + (4612.4362 + (2.79312 - 0.000278 * s) * s) * c -
        (5029.0966 + 2.22226 * s) =
      (2004.3109 + (-0.85330 - 0.000217 * s) * s) * (n - (0.397777 - 2.0824e-4 * s)) +
      (4612.4362 + (2.79312 - 0.000278 * s) * s) * (c - (0.917482 + 9.03e-5 * s)) +
      ((2004.3109 + (-0.85330 - 0.000217 * s) * s) * (0.397777 - 2.0824e-4 * s) +
       (4612.4362 + (2.79312 - 0.000278 * s) * s) * (0.917482 + 9.03e-5 * s) - (5029.0966 + 2.22226 * s)) := by ring
    simp only [Matrix.cons_val]
    rw [e]
    generalize (2004.3109 + (-0.85330 - 0.000217 * s) * s) * (n - (0.397777 - 2.0824e-4 * s)) = p1 at *
    generalize (4612.4362 + (2.79312 - 0.000278 * s) * s) * (c - (0.917482 + 9.03e-5 * s)) = p2 at *
    obtain ⟨_, _⟩ := abs_le.1 a3
    obtain ⟨_, _⟩ := abs_le.1 a4
    clear a1 a2 a3 a4 e1 e2 e n1 m1 hc hn
    rw [abs_le]; constructor <;> norm_num at * <;> linarith

/-- The angular velocity of the ecliptic system of date, less the general precession. -/
private theorem ecl_rate {T s : ℝ} (hT : T ∈ Set.Icc (-1 : ℝ) 1) (hs : s ∈ Set.Icc (-1 : ℝ) 1) :
    len (rotX (obl s * as2r) *ᵥ eulRate (precTh T (s - T) * as2r) (precZ T (s - T) * as2r) (precZeta' T (s - T) * as2r)
      (precTh' T (s - T) * as2r) (precZ' T (s - T) * as2r) - (obl' s * as2r) • ex -
      ((5029.0966 + 2.22226 * s) * as2r) • ez) ≤ 47.1 * as2r := by
  have hr := prec_rate hT hs
  have hs' : |s| ≤ 1 := abs_le.2 hs
  obtain ⟨hc, hn⟩ := obl_cs hs'
  generalize eulRate (precTh T (s - T) * as2r) (precZ T (s - T) * as2r) (precZeta' T (s - T) * as2r)
      (precTh' T (s - T) * as2r) (precZ' T (s - T) * as2r) = ω at *
  have e : rotX (obl s * as2r) *ᵥ ω - (obl' s * as2r) • ex - ((5029.0966 + 2.22226 * s) * as2r) • ez =
      rotX (obl s * as2r) *ᵥ (ω - ![0, -(as2r * precTh' s 0), 2 * as2r * precZeta' s 0]) + as2r • ![-obl' s,
        -(precTh' s 0 * Real.cos (obl s * as2r)) + 2 * precZeta' s 0 * Real.sin (obl s * as2r),
        precTh' s 0 * Real.sin (obl s * as2r) + 2 * precZeta' s 0 * Real.cos (obl s * as2r) - (5029.0966 + 2.22226 * s)] := by
    ext i; fin_cases i <;> simp [rotX, ex, ez, vecHead, vecTail] <;> ring
  rw [e]
  refine (len_add_le _ _).trans ?_
  rw [len_mulVec (rotX_rotation _), len_smul, abs_of_pos as2r_pos]
  have key := rate_size hs' hc hn
  have := mul_le_mul_of_nonneg_left key as2r_pos.le
  have := as2r_pos
  norm_num at *; linarith

private theorem ecl_moved {a b : ℝ} (ha : a ∈ Set.Icc (-1 : ℝ) 1) (hb : b ∈ Set.Icc (-1 : ℝ) 1) (v : Vec) :
    len (rotX (obl b * as2r) *ᵥ (eul (precZeta a (b - a) * as2r) (precTh a (b - a) * as2r) (precZ a (b - a) * as2r) *ᵥ v) -
      rotZ (-((gen b - gen a) * as2r)) *ᵥ (rotX (obl a * as2r) *ᵥ v)) ≤ 47.1 * as2r * |b - a| * len v := by
  set u : ℝ → Vec := fun s => eul (precZeta a (s - a) * as2r) (precTh a (s - a) * as2r) (precZ a (s - a) * as2r) *ᵥ v with hu
  set w : ℝ → Vec := fun s => rotX (obl s * as2r) *ᵥ u s with hw
  set f : ℝ → Vec := fun s => rotZ (gen s * as2r) *ᵥ w s with hf
  set ω : ℝ → Vec := fun s => eulRate (precTh a (s - a) * as2r) (precZ a (s - a) * as2r) (precZeta' a (s - a) * as2r)
      (precTh' a (s - a) * as2r) (precZ' a (s - a) * as2r) with hω
  have du : ∀ s i, HasDerivAt (fun s => u s i) ((ω s ⨯₃ u s) i) s := fun s i =>
    eul_deriv (prec_cubic_deriv _ _ _ _ _ _) (prec_cubic_deriv _ _ _ _ _ _) (prec_cubic_deriv _ _ _ _ _ _) v i
  have dw := fun s => rotX_moving (du s) (obl_deriv s)
  have df := fun s => rotZ_moving (u := w) (dw s) (gen_deriv s)
  have key := len_moved (lo := -1) (hi := 1) (C := 47.1 * as2r * len v) (fun s _ i => df s i) (fun s hs => by
    refine (len_cross_le _ _).trans ?_
    have e1 : len (rotZ (gen s * as2r) *ᵥ w s) = len v := by
      rw [len_mulVec (rotZ_rotation _), hw, hu]
      simp only []
      rw [len_mulVec (rotX_rotation _), len_mulVec (eul_rotation _ _ _)]
    rw [e1, len_mulVec (rotZ_rotation _)]
    exact mul_le_mul_of_nonneg_right (ecl_rate ha hs) (len_nonneg' v)) ha hb
  have e : w b - rotZ (-((gen b - gen a) * as2r)) *ᵥ (rotX (obl a * as2r) *ᵥ v) =
      (rotZ (gen b * as2r))ᵀ *ᵥ (f b - f a) := by
    have ea : u a = v := by
      simp only [hu, sub_self, precZeta, precTh, precZ, mul_zero, zero_mul, eul_zero, one_mulVec]
    have eb : (rotZ (gen b * as2r))ᵀ * rotZ (gen a * as2r) = rotZ (-((gen b - gen a) * as2r)) := by
      rw [show -((gen b - gen a) * as2r) = gen a * as2r - gen b * as2r by ring]
      ext i j
      fin_cases i <;> fin_cases j <;> simp [rotZ, Matrix.mul_apply, Fin.sum_univ_three, Real.cos_sub, Real.sin_sub] <;> ring
    rw [Matrix.mulVec_sub]
    simp only [hf]
    rw [mulVec_mulVec (w b), mulVec_mulVec (w a), (rotZ_rotation _).transpose_mul_self, one_mulVec, eb]
    simp only [hw, ea]
  change len (w b - _) ≤ _
  rw [e, len_mulVec (rotZ_rotation _).transpose]
  refine key.trans (le_of_eq ?_)
  ring

/-- General precession in longitude between two Julian epochs (IAU 1976), in arcseconds. -/
noncomputable def generalPrecession (a b : ℝ) : ℝ :=
  (5029.0966 + 1.11113 * ((b - 2000) / 100)) * ((b - 2000) / 100) - (5029.0966 + 1.11113 * ((a - 2000) / 100)) * ((a - 2000) / 100)

/-- C99: between epochs in 1900-2100, precessing the equator and then passing to the ecliptic of the second epoch is the same as
    passing to the ecliptic of the first epoch and adding the general precession to the longitude, except for the motion of the
    ecliptic itself, 47.1 arcseconds a century. -/
theorem C99_ecliptic {a b : ℝ} (ha : a ∈ Set.Icc (1900 : ℝ) 2100) (hb : b ∈ Set.Icc (1900 : ℝ) 2100) (v : Vec) :
    len (dmxv (ecmat (epj2d b)) (dmxv (prec a b) v) -
      turnFrame ez (-(generalPrecession a b / 3600 * (pi / 180))) (dmxv (ecmat (epj2d a)) v)) ≤
      47.1 * |(b - a) / 100| / 3600 * (pi / 180) * len v := by
  have sc : ∀ {x : ℝ}, x ∈ Set.Icc (1900 : ℝ) 2100 → (x - 2000) / 100 ∈ Set.Icc (-1 : ℝ) 1 := by
    intro x hx; exact ⟨by linarith [hx.1], by linarith [hx.2]⟩
  have h := ecl_moved (sc ha) (sc hb) v
  have e : ∀ x y : ℝ, (y - 2000) / 100 - (x - 2000) / 100 = (y - x) / 100 := by intro x y; ring
  have t : ∀ x : ℝ, (epj2d x - 51544.5) / 36525 = (x - 2000) / 100 := by intro x; unfold epj2d; ring
  simp only [dmxv_eq, prec_eul, ecmat_rotX, t]
  simp only [e] at h
  rw [← frameMat_mulVec, rotZ_frame, show generalPrecession a b / 3600 * (pi / 180) =
    (gen ((b - 2000) / 100) - gen ((a - 2000) / 100)) * as2r by simp only [generalPrecession, gen, as2r]; ring]
  refine h.trans (le_of_eq ?_)
  unfold as2r; ring

/-- C99: the ecliptic coordinates that `eqecl` gives for a fixed direction on a date in 1900-2100 are those it gives for J2000, with
    the general precession added to the longitude, to within 47.1 arcseconds a century. -/
theorem C99_eqecl (s : Spherical) {date : ℝ} (h : epj date ∈ Set.Icc (1900 : ℝ) 2100) :
    let now := eqecl s date
    let then_ := eqecl s 51544.5
    len (direction now.a now.b - direction (then_.a + generalPrecession 2000 (epj date) / 3600 * (pi / 180)) then_.b) ≤
      47.1 * |(epj date - 2000) / 100| / 3600 * (pi / 180) := by
  intro now then_
  have h0 := C99_ecliptic (a := 2000) (by norm_num) h (direction s.a s.b)
  have e1 : epj2d (epj date) = date := by unfold epj2d epj; ring
  have e2 : epj2d 2000 = 51544.5 := by unfold epj2d; ring
  have e3 : epj 51544.5 = 2000 := by unfold epj; ring
  have e4 : dmxv (ecmat 51544.5) (direction s.a s.b) = direction then_.a then_.b := by
    rw [dmxv_eq, (C46_eqecl s 51544.5).1, e3, (C24_equal_epochs 2000).1, one_mulVec]
  rw [e1, e2, e4, dmxv_eq, dmxv_eq, ← (C46_eqecl s date).1] at h0
  have e5 : ∀ l b p : ℝ, turnFrame ez (-p) (direction l b) = direction (l + p) b := by
    intro l b p
    unfold direction
    rw [← frameMat_mulVec, ← frameMat_mulVec, ← frameMat_mulVec ez, mulVec_mulVec]
    congr 1
    rw [rotZ_frame, rotZ_frame, rotZ_frame]
    ext i j
    fin_cases i <;> fin_cases j <;> simp [rotZ, Matrix.mul_apply, Fin.sum_univ_three, Real.cos_add, Real.sin_add] <;> ring
  rw [e5] at h0
  rw [len_direction, mul_one] at h0
  exact h0

example : (1950 : ℝ) ∈ Set.Icc (1900 : ℝ) 2100 ∧ epj 33282 ∈ Set.Icc (1900 : ℝ) 2100 := by
  unfold epj; norm_num

end Sla.Props
