import Verif.Lemmas.PrecMotion
import Verif.Props.Precession
import Verif.Props.Observer

/-
Property theorems C88: precession there and back, in two stages, and by two models.
-/
namespace Sla.Props
open Matrix Spec
open Real (pi)

/-! ## The matrices in terms of their Euler angles -/

theorem prec_eul (a b : ℝ) : prec a b = eul (precZeta ((a - 2000) / 100) ((b - a) / 100) * as2r)
    (precTh ((a - 2000) / 100) ((b - a) / 100) * as2r) (precZ ((a - 2000) / 100) ((b - a) / 100) * as2r) := by
  unfold prec eul precZeta precTh precZ zyz
  simp only
  congr 1 <;> ring

private theorem prebn_eul (a b : ℝ) : prebn a b = eul (prebnZeta ((a - 1850) / 100) ((b - a) / 100) * as2r)
    (prebnTh ((a - 1850) / 100) ((b - a) / 100) * as2r) (prebnZ ((a - 1850) / 100) ((b - a) / 100) * as2r) := by
  unfold prebn eul prebnZeta prebnTh prebnZ zyz
  simp only
  congr 1 <;> ring

/-- The long-term polynomials, in arcseconds, arguments in millennia. -/
private noncomputable def llW (T : ℝ) : ℝ :=
  23060.9097 + (139.7459 + (-0.0038 + (-0.5918 + (-0.0037 + 0.0007 * T) * T) * T) * T) * T
private noncomputable def llZeta (T t : ℝ) : ℝ := (llW T + (30.2226 + (-0.2523 + (-0.3840 + (-0.0014 + 0.0007 * T) * T) * T) * T +
    (18.0183 + (-0.1326 + (0.0006 + 0.0005 * T) * T) * T + (-0.0583 + (-0.0001 + 0.0007 * T) * T +
    (-0.0285 + -0.0002 * t) * t) * t) * t) * t) * t
private noncomputable def llZ (T t : ℝ) : ℝ := (llW T + (109.5270 + (0.2446 + (-1.3913 + (-0.0134 + 0.0026 * T) * T) * T) * T +
    (18.2667 + (-1.1400 + (-0.0173 + 0.0044 * T) * T) * T + (-0.2821 + (-0.0093 + 0.0032 * T) * T +
    (-0.0301 + 0.0006 * T - 0.0001 * t) * t) * t) * t) * t) * t
private noncomputable def llTh (T t : ℝ) : ℝ :=
    (20042.0207 + (-85.3131 + (-0.2111 + (0.3642 + (0.0008 + -0.0005 * T) * T) * T) * T) * T +
    (-42.6566 + (-0.2111 + (0.5463 + (0.0017 + -0.0012 * T) * T) * T) * T +
    (-41.8238 + (0.0359 + (0.0027 + -0.0001 * T) * T) * T + (-0.0731 + (0.0019 + 0.0009 * T) * T +
    (-0.0127 + 0.0011 * T + 0.0004 * t) * t) * t) * t) * t) * t

private theorem precl_eul (a b : ℝ) : precl a b = eul (llZeta ((a - 2000) / 1000) ((b - a) / 1000) * as2r)
    (llTh ((a - 2000) / 1000) ((b - a) / 1000) * as2r) (llZ ((a - 2000) / 1000) ((b - a) / 1000) * as2r) := by
  unfold precl eul llZeta llTh llZ llW zyz
  simp only
  congr 1 <;> ring

private theorem as2r_eq (x : ℝ) : x / 3600 * (pi / 180) = x * as2r := by unfold as2r; ring

private theorem as2r_pos : 0 < as2r := by unfold as2r; positivity

private theorem there_and_back {M N : Mat} (hM : IsRotation M) (h : N = Mᵀ) (v : Vec) : dmxv N (dmxv M v) = v := by
  rw [h, dmxv_eq, dmxv_eq, mulVec_mulVec, hM.transpose_mul_self, one_mulVec]

/-! ## There and back -/

/-- C88: precession back is the exact inverse of precession there, between any two epochs (FK5 and FK4 models). -/
theorem C88_reversible (a b : ℝ) (v : Vec) :
    prec b a = (prec a b)ᵀ ∧ prebn b a = (prebn a b)ᵀ ∧
    dmxv (prec b a) (dmxv (prec a b) v) = v ∧ dmxv (prebn b a) (dmxv (prebn a b) v) = v := by
  have h1 : prec b a = (prec a b)ᵀ := by
    rw [prec_eul, prec_eul, ← eul_inverse]
    unfold precZeta precZ precTh
    congr 1 <;> ring
  have h2 : prebn b a = (prebn a b)ᵀ := by
    rw [prebn_eul, prebn_eul, ← eul_inverse]
    unfold prebnZeta prebnZ prebnTh
    congr 1 <;> ring
  exact ⟨h1, h2, there_and_back (C24_rotations a b).1 h1 v, there_and_back (C24_rotations a b).2.2.1 h2 v⟩

/-- C88: `preces` to another epoch and back returns the position it started from. -/
theorem C88_preces_round_trip (system : Int) (h : system = catFK4 ∨ system = catFK5) (a b : ℝ) (s : Spherical) :
    let p := preces system b a (preces system a b s)
    direction p.a p.b = direction s.a s.b ∧ (0 ≤ s.a → s.a < 2 * pi → |s.b| < pi / 2 → p = s) := by
  intro p
  have key : direction p.a p.b = direction s.a s.b ∧ 0 ≤ p.a ∧ p.a < 2 * pi ∧ |p.b| ≤ pi / 2 := by
    rcases h with rfl | rfl
    · obtain ⟨h1, h2, h3, h4⟩ := (C58_preces b a (preces catFK4 a b s)).1
      rw [(C58_preces a b s).1.1, ← dmxv_eq, ← dmxv_eq, (C88_reversible a b _).2.2.2] at h1
      exact ⟨h1, h2, h3, h4⟩
    · obtain ⟨h1, h2, h3, h4⟩ := (C58_preces b a (preces catFK5 a b s)).2.1
      rw [(C58_preces a b s).2.1.1, ← dmxv_eq, ← dmxv_eq, (C88_reversible a b _).2.2.1] at h1
      exact ⟨h1, h2, h3, h4⟩
  exact ⟨key.1, fun x y z => same_place key.1 key.2.2.2 key.2.1 key.2.2.1 x y z⟩

/-! ## In two stages -/

theorem prec_cubic_deriv (w p q k a s : ℝ) :
    HasDerivAt (fun s => (w + (p + q * (s - a)) * (s - a)) * (s - a) * k) ((w + (2 * p + 3 * q * (s - a)) * (s - a)) * k) s := by
  have h : HasDerivAt (fun s => s - a) 1 s := (hasDerivAt_id s).sub_const a
  have h1 := (((((h.const_mul q).const_add p).mul h).const_add w).mul h).mul_const k
  refine h1.congr_deriv ?_
  simp only [Pi.mul_apply]
  ring

theorem prec_rate {T s : ℝ} (hT : T ∈ Set.Icc (-1 : ℝ) 1) (hs : s ∈ Set.Icc (-1 : ℝ) 1) :
    len (eulRate (precTh T (s - T) * as2r) (precZ T (s - T) * as2r) (precZeta' T (s - T) * as2r)
      (precTh' T (s - T) * as2r) (precZ' T (s - T) * as2r) -
      ![0, -(as2r * precTh' s 0), 2 * as2r * precZeta' s 0]) ≤ as2r * 0.00022 := by
  have hT' : |T| ≤ 1 := abs_le.2 hT
  obtain ⟨t, rfl⟩ : ∃ t, s = T + t := ⟨s - T, by ring⟩
  have hs' : |T + t| ≤ 1 := abs_le.2 hs
  rw [add_sub_cancel_left]
  have m := mono_bound hT' hs'
  have m10 := abs_le.1 (m 1 0)
  have m20 := abs_le.1 (m 2 0)
  have m01 := abs_le.1 (m 0 1)
  have m11 := abs_le.1 (m 1 1)
  have m02 := abs_le.1 (m 0 2)
  have ht : |t| ≤ 2 := by simpa using m 0 1
  have hr := rate_decimal (t := t) (V := precTh' (T + t) 0) (W := precZeta' (T + t) 0) (dz := precZ' T t) ht
    (zq := 2306.2181 + (1.39656 - 0.000139 * T) * T + ((1.09468 + 0.000066 * T) + 0.018203 * t) * t)
    (θq := 2004.3109 + (-0.85330 - 0.000217 * T) * T + ((-0.42665 - 0.000217 * T) + (-0.041833) * t) * t)
    (by constructor <;> linarith) (by constructor <;> linarith)
    (dζ := precZeta' T t) (dθ := precTh' T t)
    (by unfold precZeta'; constructor <;> linarith) (by unfold precTh'; rw [abs_le]; constructor <;> linarith)
    (precRate_x hT' hs') (precRate_y hT' hs') (precRate_z hT' hs')
  obtain ⟨x, y, z⟩ := hr
  have k0 := as2r_pos
  have k1 := as2r_bounds.2.1
  change |eulRate (precTh T t * as2r) (precZ T t * as2r) _ _ _ 0| ≤ _ at x
  change |eulRate (precTh T t * as2r) (precZ T t * as2r) _ _ _ 1 + _| ≤ _ at y
  change |eulRate (precTh T t * as2r) (precZ T t * as2r) _ _ _ 2 - _| ≤ _ at z
  generalize eulRate (precTh T t * as2r) (precZ T t * as2r) (precZeta' T t * as2r) (precTh' T t * as2r)
    (precZ' T t * as2r) = ω at *
  refine len_le_of_abs (x := as2r * 0.0000625) (y := as2r * 0.0001816) (z := as2r * 0.0000919) ?_ ?_ ?_ (by positivity) ?_
  · simp only [Pi.sub_apply, Matrix.cons_val_zero, sub_zero]
    refine x.trans (mul_le_mul_of_nonneg_left ?_ k0.le)
    linarith
  · simp only [Pi.sub_apply, Matrix.cons_val_one, Matrix.cons_val_zero, sub_neg_eq_add]
    refine y.trans (mul_le_mul_of_nonneg_left ?_ k0.le)
    norm_num
  · simp only [Pi.sub_apply, Matrix.cons_val]
    refine z.trans (mul_le_mul_of_nonneg_left ?_ k0.le)
    norm_num
  · have : 0 ≤ as2r ^ 2 := by positivity
    nlinarith

private theorem prebn_rate {T s : ℝ} (hT : T ∈ Set.Icc (0 : ℝ) 2) (hs : s ∈ Set.Icc (0 : ℝ) 2) :
    len (eulRate (prebnTh T (s - T) * as2r) (prebnZ T (s - T) * as2r) (prebnZeta' T (s - T) * as2r)
      (prebnTh' T (s - T) * as2r) (prebnZ' T (s - T) * as2r) -
      ![0, -(as2r * prebnTh' s 0), 2 * as2r * prebnZeta' s 0]) ≤ as2r * 0.00062 := by
  obtain ⟨t, rfl⟩ : ∃ t, s = T + t := ⟨s - T, by ring⟩
  obtain ⟨U, rfl⟩ : ∃ U, T = U + 1 := ⟨T - 1, by ring⟩
  have hT' : |U| ≤ 1 := abs_le.2 ⟨by linarith [hT.1], by linarith [hT.2]⟩
  have hs' : |U + t| ≤ 1 := abs_le.2 ⟨by linarith [hs.1], by linarith [hs.2]⟩
  rw [add_sub_cancel_left]
  have m := mono_bound hT' hs'
  have m10 := abs_le.1 (m 1 0)
  have m20 := abs_le.1 (m 2 0)
  have m01 := abs_le.1 (m 0 1)
  have m11 := abs_le.1 (m 1 1)
  have m02 := abs_le.1 (m 0 2)
  have ht : |t| ≤ 2 := by simpa using m 0 1
  have hr := rate_decimal (t := t) (V := prebnTh' (U + 1 + t) 0) (W := prebnZeta' (U + 1 + t) 0) (dz := prebnZ' (U + 1) t) ht
    (zq := 2303.5548 + (1.39720 + 0.000059 * (U + 1)) * (U + 1) + ((1.09478 + 0.000387 * (U + 1)) + 0.018324 * t) * t)
    (θq := 2005.1125 + (-0.85294 - 0.000365 * (U + 1)) * (U + 1) + ((-0.42647 - 0.000365 * (U + 1)) + (-0.041802) * t) * t)
    (by constructor <;> linarith) (by constructor <;> linarith)
    (dζ := prebnZeta' (U + 1) t) (dθ := prebnTh' (U + 1) t)
    (by unfold prebnZeta'; constructor <;> linarith) (by unfold prebnTh'; rw [abs_le]; constructor <;> linarith)
    (prebnRate_x hT' hs') (prebnRate_y hT' hs') (prebnRate_z hT' hs')
  obtain ⟨x, y, z⟩ := hr
  have k0 := as2r_pos
  have k1 := as2r_bounds.2.1
  change |eulRate (prebnTh (U + 1) t * as2r) (prebnZ (U + 1) t * as2r) _ _ _ 0| ≤ _ at x
  change |eulRate (prebnTh (U + 1) t * as2r) (prebnZ (U + 1) t * as2r) _ _ _ 1 + _| ≤ _ at y
  change |eulRate (prebnTh (U + 1) t * as2r) (prebnZ (U + 1) t * as2r) _ _ _ 2 - _| ≤ _ at z
  generalize eulRate (prebnTh (U + 1) t * as2r) (prebnZ (U + 1) t * as2r) (prebnZeta' (U + 1) t * as2r)
    (prebnTh' (U + 1) t * as2r) (prebnZ' (U + 1) t * as2r) = ω at *
  refine len_le_of_abs (x := as2r * 0.000067) (y := as2r * 0.0005761) (z := as2r * 0.0001974) ?_ ?_ ?_ (by positivity) ?_
  · simp only [Pi.sub_apply, Matrix.cons_val_zero, sub_zero]
    refine x.trans (mul_le_mul_of_nonneg_left ?_ k0.le)
    linarith
  · simp only [Pi.sub_apply, Matrix.cons_val_one, Matrix.cons_val_zero, sub_neg_eq_add]
    refine y.trans (mul_le_mul_of_nonneg_left ?_ k0.le)
    norm_num
  · simp only [Pi.sub_apply, Matrix.cons_val]
    refine z.trans (mul_le_mul_of_nonneg_left ?_ k0.le)
    norm_num
  · have : 0 ≤ as2r ^ 2 := by positivity
    nlinarith

/-- C88: between epochs in 1900-2100, precessing in two stages agrees with precessing directly to within 0.44
    milliarcseconds per century of the second stage (0.88 at most). -/
theorem C88_prec_composition {a b c : ℝ} (ha : a ∈ Set.Icc (1900 : ℝ) 2100) (hb : b ∈ Set.Icc (1900 : ℝ) 2100)
    (hc : c ∈ Set.Icc (1900 : ℝ) 2100) (v : Vec) :
    len (dmxv (prec b c) (dmxv (prec a b) v) - dmxv (prec a c) v) ≤
      0.00044 * |(c - b) / 100| / 3600 * (pi / 180) * len v := by
  have sc : ∀ {x : ℝ}, x ∈ Set.Icc (1900 : ℝ) 2100 → (x - 2000) / 100 ∈ Set.Icc (-1 : ℝ) 1 := by
    intro x hx; exact ⟨by linarith [hx.1], by linarith [hx.2]⟩
  have h := eul_compose (ζ := fun a s => precZeta a (s - a) * as2r) (θ := fun a s => precTh a (s - a) * as2r)
    (z := fun a s => precZ a (s - a) * as2r) (dζ := fun a s => precZeta' a (s - a) * as2r)
    (dθ := fun a s => precTh' a (s - a) * as2r) (dz := fun a s => precZ' a (s - a) * as2r)
    (Ω := fun s => ![0, -(as2r * precTh' s 0), 2 * as2r * precZeta' s 0]) (lo := -1) (hi := 1)
    (fun a => by simp [precZeta, precTh, precZ])
    (fun a s => ⟨prec_cubic_deriv _ _ _ _ _ _, prec_cubic_deriv _ _ _ _ _ _, prec_cubic_deriv _ _ _ _ _ _⟩)
    (fun a ha s hs => prec_rate ha hs) (sc ha) (sc hb) (sc hc) v
  simp only [dmxv_eq, prec_eul]
  have e : ∀ x y : ℝ, (y - 2000) / 100 - (x - 2000) / 100 = (y - x) / 100 := by intro x y; ring
  simp only [e] at h
  refine h.trans (le_of_eq ?_)
  rw [as2r_eq]; ring

/-- C88: between Besselian epochs in 1850-2050, precessing FK4 coordinates in two stages agrees with precessing directly
    to within 1.24 milliarcseconds per century of the second stage. -/
theorem C88_prebn_composition {a b c : ℝ} (ha : a ∈ Set.Icc (1850 : ℝ) 2050) (hb : b ∈ Set.Icc (1850 : ℝ) 2050)
    (hc : c ∈ Set.Icc (1850 : ℝ) 2050) (v : Vec) :
    len (dmxv (prebn b c) (dmxv (prebn a b) v) - dmxv (prebn a c) v) ≤
      0.00124 * |(c - b) / 100| / 3600 * (pi / 180) * len v := by
  have sc : ∀ {x : ℝ}, x ∈ Set.Icc (1850 : ℝ) 2050 → (x - 1850) / 100 ∈ Set.Icc (0 : ℝ) 2 := by
    intro x hx; exact ⟨by linarith [hx.1], by linarith [hx.2]⟩
  have h := eul_compose (ζ := fun a s => prebnZeta a (s - a) * as2r) (θ := fun a s => prebnTh a (s - a) * as2r)
    (z := fun a s => prebnZ a (s - a) * as2r) (dζ := fun a s => prebnZeta' a (s - a) * as2r)
    (dθ := fun a s => prebnTh' a (s - a) * as2r) (dz := fun a s => prebnZ' a (s - a) * as2r)
    (Ω := fun s => ![0, -(as2r * prebnTh' s 0), 2 * as2r * prebnZeta' s 0]) (lo := 0) (hi := 2)
    (fun a => by simp [prebnZeta, prebnTh, prebnZ])
    (fun a s => ⟨prec_cubic_deriv _ _ _ _ _ _, prec_cubic_deriv _ _ _ _ _ _, prec_cubic_deriv _ _ _ _ _ _⟩)
    (fun a ha s hs => prebn_rate ha hs) (sc ha) (sc hb) (sc hc) v
  simp only [dmxv_eq, prebn_eul]
  have e : ∀ x y : ℝ, (y - 1850) / 100 - (x - 1850) / 100 = (y - x) / 100 := by intro x y; ring
  simp only [e] at h
  refine h.trans (le_of_eq ?_)
  rw [as2r_eq]; ring

example : (1900 : ℝ) ∈ Set.Icc (1900 : ℝ) 2100 ∧ (1950 : ℝ) ∈ Set.Icc (1850 : ℝ) 2050 := by norm_num

/-! ## The long-term model -/

private theorem mono_t2 {T t : ℝ} (hT : |T| ≤ 1) (ht : |t| ≤ 2) (i j : ℕ) {n : ℕ} (hn : n = j + 2) :
    |T ^ i * t ^ n| ≤ 2 ^ j * t ^ 2 := by
  rw [hn, pow_add, ← mul_assoc, abs_mul, abs_of_nonneg (sq_nonneg t), abs_mul, abs_pow, abs_pow]
  refine mul_le_mul_of_nonneg_right ?_ (sq_nonneg t)
  calc |T| ^ i * |t| ^ j ≤ 1 ^ i * 2 ^ j := by gcongr
    _ = 2 ^ j := by simp

/-- C88: the long-term model is not exactly reversible, but between epochs in 1000-3000 a position carried there and back
    returns to within 0.033" times the square of the interval in millennia. -/
theorem C88_precl_there_and_back {a b : ℝ} (ha : a ∈ Set.Icc (1000 : ℝ) 3000) (hb : b ∈ Set.Icc (1000 : ℝ) 3000) (v : Vec) :
    len (dmxv (precl b a) (dmxv (precl a b) v) - v) ≤ 0.033 * ((b - a) / 1000) ^ 2 / 3600 * (pi / 180) * len v := by
  have hM := (C24_rotations a b).2.1
  set w := dmxv (precl a b) v with hw
  have hwl : len w = len v := by rw [hw, dmxv_eq]; exact len_mulVec hM v
  have hv : v = (precl a b)ᵀ *ᵥ w := by
    rw [hw, dmxv_eq, mulVec_mulVec, hM.transpose_mul_self, one_mulVec]
  have e : len (dmxv (precl b a) w - v) = len (precl b a *ᵥ w - (precl a b)ᵀ *ᵥ w) := by rw [← hv, dmxv_eq]
  rw [e, precl_eul, precl_eul, ← eul_inverse, as2r_eq, ← hwl]
  refine (eul_near _ _ _ _ _ _ w).trans (mul_le_mul_of_nonneg_right ?_ (len_nonneg' w))
  obtain ⟨T, hTd⟩ : ∃ T, T = (a - 2000) / 1000 := ⟨_, rfl⟩
  obtain ⟨t, htd⟩ : ∃ t, t = (b - a) / 1000 := ⟨_, rfl⟩
  have eT : (b - 2000) / 1000 = T + t := by rw [hTd, htd]; ring
  have et : (a - b) / 1000 = -t := by rw [htd]; ring
  rw [eT, et, ← hTd, ← htd]
  have hT : |T| ≤ 1 := by rw [hTd, abs_le]; constructor <;> linarith [ha.1, ha.2]
  have hs : |T + t| ≤ 1 := by rw [hTd, htd, abs_le]; constructor <;> linarith [hb.1, hb.2]
  have ht : |t| ≤ 2 := by rw [abs_le] at *; constructor <;> linarith
  have m := fun (i j : ℕ) {n : ℕ} (hn : n = j + 2) => abs_le.1 (mono_t2 hT ht i j hn)
  have fac : ∀ x y : ℝ, x * as2r - -(y * as2r) = (x + y) * as2r := by intro x y; ring
  rw [fac, fac, fac, abs_mul, abs_mul, abs_mul, abs_of_pos as2r_pos, ← add_mul, ← add_mul]
  refine mul_le_mul_of_nonneg_right ?_ as2r_pos.le
  have b1 : |llZeta (T + t) (-t) + llZ T t| ≤ 0.0099 * t ^ 2 := by
    have e : llZeta (T + t) (-t) + llZ T t = 0.0037 * (T ^ 0 * t ^ 2) - 0.0001 * (T ^ 0 * t ^ 3) -
        0.0001 * (T ^ 0 * t ^ 6) - 0.0001 * (T ^ 1 * t ^ 2) - 0.0002 * (T ^ 1 * t ^ 5) +
        0.0001 * (T ^ 2 * t ^ 2) + 0.0001 * (T ^ 2 * t ^ 3) - 0.0004 * (T ^ 2 * t ^ 4) -
        0.0003 * (T ^ 3 * t ^ 3) - 0.0002 * (T ^ 4 * t ^ 2) := by
      unfold llZeta llZ llW; ring
    rw [e, abs_le]
    constructor <;> linarith [(m 0 0 (n := 2) rfl).1, (m 0 0 (n := 2) rfl).2, (m 0 1 (n := 3) rfl).1, (m 0 1 (n := 3) rfl).2, (m 0 4 (n := 6) rfl).1, (m 0 4 (n := 6) rfl).2, (m 1 0 (n := 2) rfl).1, (m 1 0 (n := 2) rfl).2, (m 1 3 (n := 5) rfl).1, (m 1 3 (n := 5) rfl).2, (m 2 0 (n := 2) rfl).1, (m 2 0 (n := 2) rfl).2, (m 2 1 (n := 3) rfl).1, (m 2 1 (n := 3) rfl).2, (m 2 2 (n := 4) rfl).1, (m 2 2 (n := 4) rfl).2, (m 3 1 (n := 3) rfl).1, (m 3 1 (n := 3) rfl).2, (m 4 0 (n := 2) rfl).1, (m 4 0 (n := 2) rfl).2]
  have b2 : |llZ (T + t) (-t) + llZeta T t| ≤ 0.0177 * t ^ 2 := by
    have e : llZ (T + t) (-t) + llZeta T t = 0.0037 * (T ^ 0 * t ^ 2) + 0.0001 * (T ^ 0 * t ^ 4) -
        0.0001 * (T ^ 0 * t ^ 5) - 0.0002 * (T ^ 0 * t ^ 6) - 0.0001 * (T ^ 1 * t ^ 2) +
        0.0002 * (T ^ 1 * t ^ 3) - 0.0002 * (T ^ 1 * t ^ 4) - 0.0005 * (T ^ 1 * t ^ 5) +
        0.0001 * (T ^ 2 * t ^ 2) - 0.0001 * (T ^ 2 * t ^ 3) - 0.0007 * (T ^ 2 * t ^ 4) -
        0.0005 * (T ^ 3 * t ^ 3) - 0.0002 * (T ^ 4 * t ^ 2) := by
      unfold llZeta llZ llW; ring
    rw [e, abs_le]
    constructor <;> linarith [(m 0 0 (n := 2) rfl).1, (m 0 0 (n := 2) rfl).2, (m 0 2 (n := 4) rfl).1, (m 0 2 (n := 4) rfl).2, (m 0 3 (n := 5) rfl).1, (m 0 3 (n := 5) rfl).2, (m 0 4 (n := 6) rfl).1, (m 0 4 (n := 6) rfl).2, (m 1 0 (n := 2) rfl).1, (m 1 0 (n := 2) rfl).2, (m 1 1 (n := 3) rfl).1, (m 1 1 (n := 3) rfl).2, (m 1 2 (n := 4) rfl).1, (m 1 2 (n := 4) rfl).2, (m 1 3 (n := 5) rfl).1, (m 1 3 (n := 5) rfl).2, (m 2 0 (n := 2) rfl).1, (m 2 0 (n := 2) rfl).2, (m 2 1 (n := 3) rfl).1, (m 2 1 (n := 3) rfl).2, (m 2 2 (n := 4) rfl).1, (m 2 2 (n := 4) rfl).2, (m 3 1 (n := 3) rfl).1, (m 3 1 (n := 3) rfl).2, (m 4 0 (n := 2) rfl).1, (m 4 0 (n := 2) rfl).2]
  have b3 : |llTh (T + t) (-t) + llTh T t| ≤ 0.0054 * t ^ 2 := by
    have e : llTh (T + t) (-t) + llTh T t = -0.0001 * (T ^ 0 * t ^ 2) + 0.0001 * (T ^ 0 * t ^ 5) +
        0.0003 * (T ^ 1 * t ^ 4) - 0.0002 * (T ^ 1 * t ^ 5) + 0.0003 * (T ^ 2 * t ^ 3) -
        0.0001 * (T ^ 2 * t ^ 4) + 0.0002 * (T ^ 3 * t ^ 2) + 0.0002 * (T ^ 3 * t ^ 3) +
        0.0001 * (T ^ 4 * t ^ 2) := by
      unfold llTh; ring
    rw [e, abs_le]
    constructor <;> linarith [(m 0 0 (n := 2) rfl).1, (m 0 0 (n := 2) rfl).2, (m 0 3 (n := 5) rfl).1, (m 0 3 (n := 5) rfl).2, (m 1 2 (n := 4) rfl).1, (m 1 2 (n := 4) rfl).2, (m 1 3 (n := 5) rfl).1, (m 1 3 (n := 5) rfl).2, (m 2 1 (n := 3) rfl).1, (m 2 1 (n := 3) rfl).2, (m 2 2 (n := 4) rfl).1, (m 2 2 (n := 4) rfl).2, (m 3 0 (n := 2) rfl).1, (m 3 0 (n := 2) rfl).2, (m 3 1 (n := 3) rfl).1, (m 3 1 (n := 3) rfl).2, (m 4 0 (n := 2) rfl).1, (m 4 0 (n := 2) rfl).2]
  linarith

/-- C88: over the millennium 2000-3000 there is a direction that the long-term model does not bring back closer than
    6 milliarcseconds. -/
theorem C88_precl_not_reversible : ∃ v : Vec, len v = 1 ∧
    0.006 / 3600 * (pi / 180) ≤ len (dmxv (precl 3000 2000) (dmxv (precl 2000 3000) v) - v) := by
  rw [precl_eul 2000 3000, precl_eul 3000 2000, as2r_eq]
  have n1 : ((2000 : ℝ) - 2000) / 1000 = 0 := by norm_num
  have n2 : ((3000 : ℝ) - 2000) / 1000 = 1 := by norm_num
  have n3 : ((2000 : ℝ) - 3000) / 1000 = -1 := by norm_num
  rw [n1, n2, n3]
  have e1 : llZeta 1 (-1) * as2r = 0.0035 * as2r - llZ 0 1 * as2r := by unfold llZeta llZ llW; ring
  have e2 : llZ 1 (-1) * as2r = 0.0035 * as2r - llZeta 0 1 * as2r := by unfold llZeta llZ llW; ring
  have e3 : |llTh 1 (-1) * as2r| ≤ 0.1 := by
    rw [abs_mul, abs_of_pos as2r_pos]
    have : |llTh 1 (-1)| ≤ 20100 := by unfold llTh; rw [abs_le]; constructor <;> norm_num
    calc _ ≤ 20100 * (4.84814e-6 : ℝ) := mul_le_mul this as2r_bounds.2.1 as2r_pos.le (by norm_num)
      _ ≤ _ := by norm_num
  have hc : 0.995 ≤ Real.cos (llTh 1 (-1) * as2r) := by
    have := Real.one_sub_sq_div_two_le_cos (x := llTh 1 (-1) * as2r)
    have h2 := sq_le_sq' (abs_le.1 e3).1 (abs_le.1 e3).2
    norm_num at h2 ⊢
    linarith
  rw [e1, e2]
  have hc1 := Real.cos_le_one (llTh 1 (-1) * as2r)
  generalize llTh 1 (-1) * as2r = θ2 at *
  generalize llTh 0 1 * as2r = θ at *
  generalize llZeta 0 1 * as2r = ζ at *
  generalize llZ 0 1 * as2r = z at *
  have hk := as2r_bounds.2.1
  have hk0 := as2r_pos
  obtain ⟨ε, hε⟩ : ∃ ε, ε = 0.0035 * as2r := ⟨_, rfl⟩
  rw [← hε]
  have hε0 : 0 < ε := by rw [hε]; positivity
  have hε1 : ε ≤ 1e-7 := by rw [hε]; norm_num at hk ⊢; linarith
  refine ⟨![Real.sin ζ, Real.cos ζ, 0], ?_, ?_⟩
  · unfold len
    rw [Real.sqrt_eq_one]
    simp [dotProduct, Fin.sum_univ_three]
    linarith [Real.sin_sq_add_cos_sq ζ]
  · set v : Vec := ![Real.sin ζ, Real.cos ζ, 0] with hv
    set u : Vec := ![Real.cos ζ, -Real.sin ζ, 0] with hu
    have hul : len u = 1 := by
      unfold len
      rw [Real.sqrt_eq_one, hu]
      simp [dotProduct, Fin.sum_univ_three]
      linarith [Real.sin_sq_add_cos_sq ζ]
    have s1 := Real.sin_sq_add_cos_sq ζ
    have m1 : eul ζ θ z *ᵥ v = ![-Real.sin z, Real.cos z, 0] := by
      rw [eul_elements, hv]
      funext i
      fin_cases i <;> simp [mulVec, dotProduct, Fin.sum_univ_three]
      · linear_combination (-Real.sin z) * s1
      · linear_combination (Real.cos z) * s1
      · ring
    have m2 : u ⬝ᵥ (dmxv (eul (ε - z) θ2 (ε - ζ)) (dmxv (eul ζ θ z) v) - v) =
        -(Real.cos θ2 * Real.sin ε * Real.cos ε) - Real.cos ε * Real.sin ε := by
      rw [dmxv_eq, dmxv_eq, m1, eul_elements, hu, hv, Real.sin_sub, Real.cos_sub, Real.sin_sub, Real.cos_sub]
      simp [mulVec, dotProduct, Fin.sum_univ_three]
      have s2 := Real.sin_sq_add_cos_sq z
      generalize Real.sin ζ = a at *
      generalize Real.cos ζ = b at *
      generalize Real.sin z = c at *
      generalize Real.cos z = d at *
      generalize Real.sin ε = p at *
      generalize Real.cos ε = q at *
      generalize Real.cos θ2 = r at *
      linear_combination (-(r * p * q) - q * p) * (s1 * (c ^ 2 + d ^ 2) + s2)
    have h := abs_dot_le_len u (dmxv (eul (ε - z) θ2 (ε - ζ)) (dmxv (eul ζ θ z) v) - v)
    rw [hul, one_mul, m2] at h
    refine le_trans ?_ h
    have hs := Real.sin_gt_sub_cube hε0
    have hcε := Real.one_sub_sq_div_two_le_cos (x := ε)
    have hε2 : ε ^ 2 ≤ 1e-14 := by
      calc ε ^ 2 ≤ (1e-7 : ℝ) ^ 2 := by gcongr
        _ ≤ _ := by norm_num
    have hs' : 0.999 * ε ≤ Real.sin ε := by
      have : ε ^ 3 = ε ^ 2 * ε := by ring
      have : ε ^ 2 * ε ≤ 1e-14 * ε := mul_le_mul_of_nonneg_right hε2 hε0.le
      norm_num at this ⊢
      linarith
    have hc' : 0.999 ≤ Real.cos ε := by norm_num at hε2 ⊢; linarith
    have p1 : 0.998 * ε ≤ Real.cos ε * Real.sin ε := by
      calc _ ≤ 0.999 * (0.999 * ε) := by norm_num; linarith
        _ ≤ _ := mul_le_mul hc' hs' (by positivity) (by linarith)
    have p2 : 0.99 * ε ≤ Real.cos θ2 * Real.sin ε * Real.cos ε := by
      calc _ ≤ 0.995 * (0.998 * ε) := by norm_num; linarith
        _ ≤ Real.cos θ2 * (Real.cos ε * Real.sin ε) := mul_le_mul hc p1 (by positivity) (by linarith)
        _ = _ := by ring
    rw [abs_of_nonpos (by linarith)]
    have : 0.006 * as2r ≤ 0.99 * ε + 0.998 * ε := by rw [hε]; norm_num; linarith
    linarith

/-- C88: so the precision of one milliarcsecond over 1000-3000 stated for the long-term model cannot hold in both
    directions: whatever rotation the true precession from 2000 to 3000 may be, one of the two matrices is wrong by more
    than that for some direction. -/
theorem C88_precl_documented (P : Mat) (hP : IsRotation P) :
    ∃ v : Vec, len v = 1 ∧ (0.001 / 3600 * (pi / 180) < len (dmxv (precl 2000 3000) v - P *ᵥ v) ∨
      0.001 / 3600 * (pi / 180) < len (dmxv (precl 3000 2000) v - Pᵀ *ᵥ v)) := by
  by_contra hcon
  push Not at hcon
  obtain ⟨v, hv, h⟩ := C88_precl_not_reversible
  have h1 := (hcon v hv).1
  set M := precl 2000 3000
  set N := precl 3000 2000
  have hM := (C24_rotations 2000 3000).2.1
  have hN := (C24_rotations 3000 2000).2.1
  have hPv : len (P *ᵥ v) = 1 := by rw [len_mulVec hP, hv]
  have h2 := (hcon (P *ᵥ v) hPv).2
  rw [mulVec_mulVec, hP.transpose_mul_self, one_mulVec] at h2
  have e : dmxv N (dmxv M v) - v = N *ᵥ (dmxv M v - P *ᵥ v) + (dmxv N (P *ᵥ v) - v) := by
    rw [mulVec_sub, ← dmxv_eq, ← dmxv_eq]; abel
  rw [e] at h
  have h3 := h.trans (len_add_le _ _)
  rw [len_mulVec hN] at h3
  simp only [as2r_eq] at h1 h2 h3
  have := as2r_pos
  linarith

/-! ## Two models -/

private noncomputable def precZetaQ (T t : ℝ) : ℝ :=
  2306.2181 + (1.39656 - 0.000139 * T) * T + ((0.30188 - 0.000344 * T) + 0.017998 * t) * t
private noncomputable def precZQ (T t : ℝ) : ℝ :=
  2306.2181 + (1.39656 - 0.000139 * T) * T + ((1.09468 + 0.000066 * T) + 0.018203 * t) * t
private noncomputable def precThQ (T t : ℝ) : ℝ :=
  2004.3109 + (-0.85330 - 0.000217 * T) * T + ((-0.42665 - 0.000217 * T) + (-0.041833) * t) * t
private noncomputable def llZetaQ (T t : ℝ) : ℝ := llW T + (30.2226 + (-0.2523 + (-0.3840 + (-0.0014 + 0.0007 * T) * T) * T) * T +
    (18.0183 + (-0.1326 + (0.0006 + 0.0005 * T) * T) * T + (-0.0583 + (-0.0001 + 0.0007 * T) * T +
    (-0.0285 + -0.0002 * t) * t) * t) * t) * t
private noncomputable def llZQ (T t : ℝ) : ℝ := llW T + (109.5270 + (0.2446 + (-1.3913 + (-0.0134 + 0.0026 * T) * T) * T) * T +
    (18.2667 + (-1.1400 + (-0.0173 + 0.0044 * T) * T) * T + (-0.2821 + (-0.0093 + 0.0032 * T) * T +
    (-0.0301 + 0.0006 * T - 0.0001 * t) * t) * t) * t) * t
private noncomputable def llThQ (T t : ℝ) : ℝ :=
    20042.0207 + (-85.3131 + (-0.2111 + (0.3642 + (0.0008 + -0.0005 * T) * T) * T) * T) * T +
    (-42.6566 + (-0.2111 + (0.5463 + (0.0017 + -0.0012 * T) * T) * T) * T +
    (-41.8238 + (0.0359 + (0.0027 + -0.0001 * T) * T) * T + (-0.0731 + (0.0019 + 0.0009 * T) * T +
    (-0.0127 + 0.0011 * T + 0.0004 * t) * t) * t) * t) * t

/-- C88: between epochs in 1900-2100 the IAU 1976 and the long-term matrices differ by at most 0.38" per century. -/
theorem C88_models_agree {a b : ℝ} (ha : a ∈ Set.Icc (1900 : ℝ) 2100) (hb : b ∈ Set.Icc (1900 : ℝ) 2100) (v : Vec) :
    len (dmxv (prec a b) v - dmxv (precl a b) v) ≤ 0.38 * |(b - a) / 100| / 3600 * (pi / 180) * len v := by
  rw [dmxv_eq, dmxv_eq, prec_eul, precl_eul, as2r_eq]
  refine (eul_near _ _ _ _ _ _ v).trans (mul_le_mul_of_nonneg_right ?_ (len_nonneg' v))
  obtain ⟨T, hTd⟩ : ∃ T, T = (a - 2000) / 100 := ⟨_, rfl⟩
  obtain ⟨t, htd⟩ : ∃ t, t = (b - a) / 100 := ⟨_, rfl⟩
  have eT : (a - 2000) / 1000 = T / 10 := by rw [hTd]; ring
  have et : (b - a) / 1000 = t / 10 := by rw [htd]; ring
  rw [eT, et, ← hTd, ← htd]
  have hT : |T| ≤ 1 := by rw [hTd, abs_le]; constructor <;> linarith [ha.1, ha.2]
  have hs : |T + t| ≤ 1 := by rw [hTd, htd, abs_le]; constructor <;> linarith [hb.1, hb.2]
  have m := fun i j => abs_le.1 (mono_bound hT hs i j)
  rw [← sub_mul, ← sub_mul, ← sub_mul, abs_mul, abs_mul, abs_mul, abs_of_pos as2r_pos, ← add_mul, ← add_mul]
  refine mul_le_mul_of_nonneg_right ?_ as2r_pos.le
  have key : ∀ {x c : ℝ}, |x| ≤ c → |x * t| ≤ c * |t| := by
    intro x c h; rw [abs_mul]; exact mul_le_mul_of_nonneg_right h (abs_nonneg t)
  have b1 : |precZeta T t - llZeta (T / 10) (t / 10)| ≤ 0.131 * |t| := by
    have e : precZeta T t - llZeta (T / 10) (t / 10) = (precZetaQ T t - llZetaQ (T / 10) (t / 10) / 10) * t := by
      unfold precZeta llZeta precZetaQ llZetaQ; ring
    rw [e]
    refine key ?_
    unfold precZetaQ llZetaQ llW
    rw [abs_le]
    constructor <;> linarith [(m 1 0).1, (m 1 0).2, (m 2 0).1, (m 2 0).2, (m 3 0).1, (m 3 0).2, (m 4 0).1, (m 4 0).2, (m 5 0).1, (m 5 0).2, (m 0 1).1, (m 0 1).2, (m 1 1).1, (m 1 1).2, (m 2 1).1, (m 2 1).2, (m 3 1).1, (m 3 1).2, (m 4 1).1, (m 4 1).2, (m 0 2).1, (m 0 2).2, (m 1 2).1, (m 1 2).2, (m 2 2).1, (m 2 2).2, (m 3 2).1, (m 3 2).2, (m 0 3).1, (m 0 3).2, (m 1 3).1, (m 1 3).2, (m 2 3).1, (m 2 3).2, (m 0 4).1, (m 0 4).2, (m 1 4).1, (m 1 4).2, (m 0 5).1, (m 0 5).2]
  have b2 : |precZ T t - llZ (T / 10) (t / 10)| ≤ 0.131 * |t| := by
    have e : precZ T t - llZ (T / 10) (t / 10) = (precZQ T t - llZQ (T / 10) (t / 10) / 10) * t := by
      unfold precZ llZ precZQ llZQ; ring
    rw [e]
    refine key ?_
    unfold precZQ llZQ llW
    rw [abs_le]
    constructor <;> linarith [(m 1 0).1, (m 1 0).2, (m 2 0).1, (m 2 0).2, (m 3 0).1, (m 3 0).2, (m 4 0).1, (m 4 0).2, (m 5 0).1, (m 5 0).2, (m 0 1).1, (m 0 1).2, (m 1 1).1, (m 1 1).2, (m 2 1).1, (m 2 1).2, (m 3 1).1, (m 3 1).2, (m 4 1).1, (m 4 1).2, (m 0 2).1, (m 0 2).2, (m 1 2).1, (m 1 2).2, (m 2 2).1, (m 2 2).2, (m 3 2).1, (m 3 2).2, (m 0 3).1, (m 0 3).2, (m 1 3).1, (m 1 3).2, (m 2 3).1, (m 2 3).2, (m 0 4).1, (m 0 4).2, (m 1 4).1, (m 1 4).2, (m 0 5).1, (m 0 5).2]
  have b3 : |precTh T t - llTh (T / 10) (t / 10)| ≤ 0.112 * |t| := by
    have e : precTh T t - llTh (T / 10) (t / 10) = (precThQ T t - llThQ (T / 10) (t / 10) / 10) * t := by
      unfold precTh llTh precThQ llThQ; ring
    rw [e]
    refine key ?_
    unfold precThQ llThQ
    rw [abs_le]
    constructor <;> linarith [(m 1 0).1, (m 1 0).2, (m 2 0).1, (m 2 0).2, (m 3 0).1, (m 3 0).2, (m 4 0).1, (m 4 0).2, (m 5 0).1, (m 5 0).2, (m 0 1).1, (m 0 1).2, (m 1 1).1, (m 1 1).2, (m 2 1).1, (m 2 1).2, (m 3 1).1, (m 3 1).2, (m 4 1).1, (m 4 1).2, (m 0 2).1, (m 0 2).2, (m 1 2).1, (m 1 2).2, (m 2 2).1, (m 2 2).2, (m 3 2).1, (m 3 2).2, (m 0 3).1, (m 0 3).2, (m 1 3).1, (m 1 3).2, (m 2 3).1, (m 2 3).2, (m 0 4).1, (m 0 4).2, (m 1 4).1, (m 1 4).2, (m 0 5).1, (m 0 5).2]
  linarith [abs_nonneg t]

example : (1900 : ℝ) ∈ Set.Icc (1900 : ℝ) 2100 ∧ (2100 : ℝ) ∈ Set.Icc (1900 : ℝ) 2100 ∧
    (1000 : ℝ) ∈ Set.Icc (1000 : ℝ) 3000 := by norm_num

end Sla.Props
