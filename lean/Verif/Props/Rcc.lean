import Verif.Model.Rcc
import Verif.Lemmas.CMath
import Mathlib.Analysis.Real.Pi.Bounds
import Mathlib.Tactic.Linarith
import Mathlib.Tactic.Positivity

/-
Property theorems C73 (clock correction TDB - TT) and C74 (wait).
-/
namespace Sla.Props
open Real (pi)

/-! ## C73 -/

/-- The coefficients of the power `t^k` (counts as documented in src/rcc.cc:96-101). -/
def fbGroup (k : ℕ) : List FbRow :=
  match k with
  | 0 => fbCoeffs.take 474
  | 1 => (fbCoeffs.drop 474).take 205
  | 2 => (fbCoeffs.drop 679).take 85
  | 3 => (fbCoeffs.drop 764).take 20
  | _ => (fbCoeffs.drop 784).take 3

/-- Value of one row at `t` Julian millennia from J2000: amplitude in seconds times the sine of the linear phase. -/
noncomputable def fbTerm (t : ℝ) (r : FbRow) : ℝ :=
  (r.amp : ℝ) / 10 ^ 12 * Real.sin ((r.freq : ℝ) / 10 ^ 9 * t + (r.phase : ℝ) / 10 ^ 9)

/-- Topocentric terms of Moyer and Murray as functions of the angles: local solar time, mean longitude and mean anomaly
    of the Sun, elongation of the Moon, mean longitudes of Jupiter and Saturn. -/
noncomputable def topocentric (s L g D J S cda cdp : ℝ) : ℝ :=
  (0.00029e-10 * Real.sin (s + L - S) + 0.00100e-10 * Real.sin (s - 2 * g) + 0.00133e-10 * Real.sin (s - D)
    + 0.00133e-10 * Real.sin (s + L - J) - 0.00229e-10 * Real.sin (s + 2 * L + g)
    + 0.05312e-10 * Real.sin (s - g) - 0.13677e-10 * Real.sin (s + 2 * L) + 3.17679e-10 * Real.sin s) * cda
  - (0.02200e-10 * Real.cos (L + g) + 1.31840e-10 * Real.cos L) * cdp

/-- Adjustment to JPL planetary masses. -/
noncomputable def massAdjustment (t : ℝ) : ℝ :=
  0.00065e-6 * Real.sin (6069.776754 * t + 4.021194) + 0.00033e-6 * Real.sin (213.299095 * t + 5.543132) -
    0.00196e-6 * Real.sin (6208.294251 * t + 5.696701) - 0.00173e-6 * Real.sin (74.781599 * t + 2.435900) +
    0.03638e-6 * t ^ 2

/-- An argument that is linear in time, degrees and arcseconds per millennium, in radians (not reduced). -/
noncomputable def linearArg (deg rate t : ℝ) : ℝ := (deg + rate * t / 3600) * (pi / 180)

private theorem foldl_fb (t : ℝ) (L : List FbRow) (w : ℝ) : L.foldl (fbStep t) w = w + (L.map (fbTerm t)).sum := by
  induction L generalizing w with
  | nil => simp
  | cons r L ih =>
    rw [List.foldl_cons, ih, List.map_cons, List.sum_cons]
    unfold fbStep fbTerm
    have e1 : (r.amp : ℝ) * 1e-12 = (r.amp : ℝ) / 10 ^ 12 := by norm_num; ring
    have e2 : (r.freq : ℝ) * 1e-9 = (r.freq : ℝ) / 10 ^ 9 := by norm_num; ring
    have e3 : (r.phase : ℝ) * 1e-9 = (r.phase : ℝ) / 10 ^ 9 := by norm_num; ring
    rw [e1, e2, e3]; ring

private theorem loop_sum (t : ℝ) (hi lo : ℕ) : fbLoop t hi lo = (((fbCoeffs.take (hi + 1)).drop lo).map (fbTerm t)).sum := by
  unfold fbLoop
  rw [foldl_fb, zero_add, List.map_reverse, List.sum_reverse]

private theorem groups : (fbCoeffs.take 474).drop 0 = fbGroup 0 ∧ (fbCoeffs.take 679).drop 474 = fbGroup 1 ∧
    (fbCoeffs.take 764).drop 679 = fbGroup 2 ∧ (fbCoeffs.take 784).drop 764 = fbGroup 3 ∧
    (fbCoeffs.take 787).drop 784 = fbGroup 4 := by
  decide +kernel

private theorem rccArg_eq (deg rate t : ℝ) : ∃ k : ℤ, rccArg deg rate (t / 3600) = linearArg deg rate t + k * (2 * pi) := by
  obtain ⟨k, hk⟩ := cfmod_eq (deg + rate * (t / 3600)) 360
  refine ⟨-k, ?_⟩
  unfold rccArg linearArg
  rw [hk]; push_cast; ring

private theorem sin_turn {x y : ℝ} (k : ℤ) (h : x = y + k * (2 * pi)) : Real.sin x = Real.sin y := by
  rw [h]; exact Real.sin_add_int_mul_two_pi _ _

private theorem cos_turn {x y : ℝ} (k : ℤ) (h : x = y + k * (2 * pi)) : Real.cos x = Real.cos y := by
  rw [h]; exact Real.cos_add_int_mul_two_pi _ _

/-- The topocentric part with the unreduced arguments. -/
private noncomputable def topoT (t ut1 cl cda cdp : ℝ) : ℝ :=
  topocentric (2 * pi * ut1 - cl) (linearArg 280.46645683 1296027711.03429 t) (linearArg 357.52910918 1295965810.481 t)
    (linearArg 297.85019547 16029616012.09 t) (linearArg 34.35151874 109306899.89453 t)
    (linearArg 50.0774443 44046398.47038 t) cda cdp

private theorem topo_eq (t ut1 cl cda cdp : ℝ) : rccTopo t ut1 cl cda cdp = topoT t ut1 cl cda cdp := by
  obtain ⟨k0, h0⟩ := cfmod_eq ut1 1
  obtain ⟨k1, h1⟩ := rccArg_eq 280.46645683 1296027711.03429 t
  obtain ⟨k2, h2⟩ := rccArg_eq 357.52910918 1295965810.481 t
  obtain ⟨k3, h3⟩ := rccArg_eq 297.85019547 16029616012.09 t
  obtain ⟨k4, h4⟩ := rccArg_eq 34.35151874 109306899.89453 t
  obtain ⟨k5, h5⟩ := rccArg_eq 50.0774443 44046398.47038 t
  unfold rccTopo topoT topocentric
  simp only
  rw [h0, h1, h2, h3, h4, h5]
  generalize linearArg 280.46645683 1296027711.03429 t = L
  generalize linearArg 357.52910918 1295965810.481 t = g
  generalize linearArg 297.85019547 16029616012.09 t = D
  generalize linearArg 34.35151874 109306899.89453 t = J
  generalize linearArg 50.0774443 44046398.47038 t = S
  rw [sin_turn (x := (ut1 - 1 * (k0 : ℝ)) * (2 * pi) - cl + (L + k1 * (2 * pi)) - (S + k5 * (2 * pi)))
      (y := 2 * pi * ut1 - cl + L - S) (-k0 + k1 - k5) (by push_cast; ring),
    sin_turn (x := (ut1 - 1 * (k0 : ℝ)) * (2 * pi) - cl - 2 * (g + k2 * (2 * pi)))
      (y := 2 * pi * ut1 - cl - 2 * g) (-k0 - 2 * k2) (by push_cast; ring),
    sin_turn (x := (ut1 - 1 * (k0 : ℝ)) * (2 * pi) - cl - (D + k3 * (2 * pi)))
      (y := 2 * pi * ut1 - cl - D) (-k0 - k3) (by push_cast; ring),
    sin_turn (x := (ut1 - 1 * (k0 : ℝ)) * (2 * pi) - cl + (L + k1 * (2 * pi)) - (J + k4 * (2 * pi)))
      (y := 2 * pi * ut1 - cl + L - J) (-k0 + k1 - k4) (by push_cast; ring),
    sin_turn (x := (ut1 - 1 * (k0 : ℝ)) * (2 * pi) - cl + 2 * (L + k1 * (2 * pi)) + (g + k2 * (2 * pi)))
      (y := 2 * pi * ut1 - cl + 2 * L + g) (-k0 + 2 * k1 + k2) (by push_cast; ring),
    cos_turn (x := L + k1 * (2 * pi) + (g + k2 * (2 * pi))) (y := L + g) (k1 + k2) (by push_cast; ring),
    sin_turn (x := (ut1 - 1 * (k0 : ℝ)) * (2 * pi) - cl - (g + k2 * (2 * pi)))
      (y := 2 * pi * ut1 - cl - g) (-k0 - k2) (by push_cast; ring),
    sin_turn (x := (ut1 - 1 * (k0 : ℝ)) * (2 * pi) - cl + 2 * (L + k1 * (2 * pi)))
      (y := 2 * pi * ut1 - cl + 2 * L) (-k0 + 2 * k1) (by push_cast; ring),
    cos_turn (x := L + k1 * (2 * pi)) (y := L) k1 rfl,
    sin_turn (x := (ut1 - 1 * (k0 : ℝ)) * (2 * pi) - cl) (y := 2 * pi * ut1 - cl) (-k0) (by push_cast; ring)]
  ring

attribute [local irreducible] fbCoeffs in
/-- C73: at every date, place and time of day the correction is the sum of the published series: reducing the
    arguments to one turn and the time of day to a fraction never matters. -/
theorem C73_series (tdb ut1 cl cda cdp : ℝ) :
    let t := (tdb - 51544.5) / 365250
    rcc tdb ut1 cl cda cdp =
      topocentric (2 * pi * ut1 - cl) (linearArg 280.46645683 1296027711.03429 t)
        (linearArg 357.52910918 1295965810.481 t) (linearArg 297.85019547 16029616012.09 t)
        (linearArg 34.35151874 109306899.89453 t) (linearArg 50.0774443 44046398.47038 t) cda cdp
      + ∑ k ∈ Finset.range 5, t ^ k * ((fbGroup k).map (fbTerm t)).sum
      + massAdjustment t := by
  intro t
  obtain ⟨g0, g1, g2, g3, g4⟩ := groups
  unfold rcc
  simp only
  rw [loop_sum, loop_sum, loop_sum, loop_sum, loop_sum, topo_eq]
  rw [g0, g1, g2, g3, g4]
  change topoT t ut1 cl cda cdp + _ + _ = topoT t ut1 cl cda cdp + _ + _
  simp only [Finset.sum_range_succ, Finset.sum_range_zero]
  unfold massAdjustment
  simp only [t]
  ring

private theorem sin_diff (x y : ℝ) : |Real.sin x - Real.sin y| ≤ |x - y| := by
  rw [Real.sin_sub_sin, abs_mul, abs_mul, abs_of_pos (by norm_num : (0 : ℝ) < 2)]
  have h1 : |Real.sin ((x - y) / 2)| ≤ |(x - y) / 2| := Real.abs_sin_le_abs
  have h2 := Real.abs_cos_le_one ((x + y) / 2)
  have h3 : |(x - y) / 2| = |x - y| / 2 := by rw [abs_div, abs_of_pos (by norm_num : (0 : ℝ) < 2)]
  have h4 := abs_nonneg (Real.sin ((x - y) / 2))
  nlinarith [abs_nonneg (Real.cos ((x + y) / 2))]

private theorem cos_diff (x y : ℝ) : |Real.cos x - Real.cos y| ≤ |x - y| := by
  have := sin_diff (x + pi / 2) (y + pi / 2)
  rw [Real.sin_add_pi_div_two, Real.sin_add_pi_div_two] at this
  convert this using 2; ring

/-- The topocentric part is bounded by the distances from the axis and from the equator. -/
private theorem topocentric_bound (s L g D J S cda cdp : ℝ) :
    |topocentric s L g D J S cda cdp| ≤ 3.37292e-10 * |cda| + 1.3404e-10 * |cdp| := by
  unfold topocentric
  have h1 := abs_le.1 (Real.abs_sin_le_one (s + L - S))
  have h2 := abs_le.1 (Real.abs_sin_le_one (s - 2 * g))
  have h3 := abs_le.1 (Real.abs_sin_le_one (s - D))
  have h4 := abs_le.1 (Real.abs_sin_le_one (s + L - J))
  have h5 := abs_le.1 (Real.abs_sin_le_one (s + 2 * L + g))
  have h6 := abs_le.1 (Real.abs_cos_le_one (L + g))
  have h7 := abs_le.1 (Real.abs_sin_le_one (s - g))
  have h8 := abs_le.1 (Real.abs_sin_le_one (s + 2 * L))
  have h9 := abs_le.1 (Real.abs_cos_le_one L)
  have h10 := abs_le.1 (Real.abs_sin_le_one s)
  refine (abs_sub _ _).trans ?_
  rw [abs_mul, abs_mul]
  refine add_le_add (mul_le_mul_of_nonneg_right ?_ (abs_nonneg _)) (mul_le_mul_of_nonneg_right ?_ (abs_nonneg _))
  · rw [abs_le]; constructor <;> linarith
  · rw [abs_le]; constructor <;> linarith

private theorem topocentric_zero (s L g D J S : ℝ) : topocentric s L g D J S 0 0 = 0 := by
  unfold topocentric; ring

/-- C73: the effect of the place is linear in the place, at most 3.37292e-10 s per km from the axis plus 1.3404e-10 s
    per km from the equator, and so below 2.33 microseconds for clocks within 6400 km of the Earth's centre. -/
theorem C73_topocentric (tdb ut1 cl cda cdp : ℝ) :
    (∀ ut1' cl', |rcc tdb ut1 cl cda cdp - rcc tdb ut1' cl' 0 0| ≤ 3.37292e-10 * |cda| + 1.3404e-10 * |cdp|) ∧
    (cda ^ 2 + cdp ^ 2 ≤ 6400 ^ 2 → ∀ ut1' cl', |rcc tdb ut1 cl cda cdp - rcc tdb ut1' cl' 0 0| ≤ 2.33e-6) ∧
    (∀ k, rcc tdb ut1 cl (k * cda) (k * cdp) - rcc tdb ut1 cl 0 0 =
      k * (rcc tdb ut1 cl cda cdp - rcc tdb ut1 cl 0 0)) := by
  have key : ∀ ut1' cl', |rcc tdb ut1 cl cda cdp - rcc tdb ut1' cl' 0 0| ≤ 3.37292e-10 * |cda| + 1.3404e-10 * |cdp| := by
    intro ut1' cl'
    rw [C73_series, C73_series]
    rw [topocentric_zero]
    rw [zero_add, add_assoc, add_sub_cancel_right]
    exact topocentric_bound _ _ _ _ _ _ _ _
  refine ⟨key, fun h ut1' cl' => (key ut1' cl').trans ?_, fun k => ?_⟩
  · rw [← sq_abs cda, ← sq_abs cdp] at h
    have h1 := abs_nonneg cda
    have h2 := abs_nonneg cdp
    have : (3.37292 * |cda| + 1.3404 * |cdp|) ^ 2 ≤ 23300 ^ 2 := by
      nlinarith [sq_nonneg (3.37292 * |cdp| - 1.3404 * |cda|)]
    have := abs_le_of_sq_le_sq this (by norm_num)
    have := (abs_le.1 this).2
    norm_num at *
    linarith
  · rw [C73_series, C73_series, C73_series]
    rw [topocentric_zero]
    unfold topocentric
    ring

/-- C73: whole days of UT1 and whole turns of longitude make no difference, and longitude and UT1 only enter through
    local time. -/
theorem C73_local_time (tdb ut1 cl cda cdp : ℝ) :
    (∀ n : ℤ, rcc tdb (ut1 + n) cl cda cdp = rcc tdb ut1 cl cda cdp) ∧
    (∀ n : ℤ, rcc tdb ut1 (cl + 2 * pi * n) cda cdp = rcc tdb ut1 cl cda cdp) ∧
    (∀ x : ℝ, rcc tdb (ut1 + x) (cl + 2 * pi * x) cda cdp = rcc tdb ut1 cl cda cdp) := by
  have turn : ∀ (n : ℤ) (s L g D J S : ℝ), topocentric (s + n * (2 * pi)) L g D J S cda cdp = topocentric s L g D J S cda cdp := by
    intro n s L g D J S
    unfold topocentric
    rw [sin_turn (x := s + n * (2 * pi) + L - S) (y := s + L - S) n (by ring), sin_turn (x := s + n * (2 * pi) - 2 * g) (y := s - 2 * g) n (by ring), sin_turn (x := s + n * (2 * pi) - D) (y := s - D) n (by ring),
      sin_turn (x := s + n * (2 * pi) + L - J) (y := s + L - J) n (by ring), sin_turn (x := s + n * (2 * pi) + 2 * L + g) (y := s + 2 * L + g) n (by ring), sin_turn (x := s + n * (2 * pi) - g) (y := s - g) n (by ring),
      sin_turn (x := s + n * (2 * pi) + 2 * L) (y := s + 2 * L) n (by ring), sin_turn (x := s + n * (2 * pi)) (y := s) n rfl]
  refine ⟨fun n => ?_, fun n => ?_, fun x => ?_⟩
  · rw [C73_series, C73_series]
    rw [← turn n (2 * pi * ut1 - cl)]
    congr 3; ring
  · rw [C73_series, C73_series]
    rw [← turn (-n) (2 * pi * ut1 - cl)]
    congr 3; push_cast; ring
  · rw [C73_series, C73_series]
    congr 3; ring

/-! ### Bounds -/

private theorem fbTerm_bound (t : ℝ) (r : FbRow) : |fbTerm t r| ≤ |(r.amp : ℝ)| / 10 ^ 12 := by
  unfold fbTerm
  rw [abs_mul, abs_div, abs_of_pos (by positivity : (0 : ℝ) < 10 ^ 12)]
  exact mul_le_of_le_one_right (by positivity) (Real.abs_sin_le_one _)

private theorem group_bound (t : ℝ) (L : List FbRow) :
    |(L.map (fbTerm t)).sum| ≤ (((L.map fun r => |r.amp|).sum : ℤ) : ℝ) / 10 ^ 12 := by
  induction L with
  | nil => simp
  | cons r L ih =>
    simp only [List.map_cons, List.sum_cons]
    have h := fbTerm_bound t r
    refine (abs_add_le _ _).trans ?_
    push_cast at ih ⊢
    rw [add_div]
    linarith

private theorem amp_sums : fbGroup 0 = ⟨1656674564, 6283075849991, 6240054195⟩ :: (fbGroup 0).tail ∧
    ((fbGroup 0).tail.map fun r => |r.amp|).sum = 63485288 ∧
    ((fbGroup 1).map fun r => |r.amp|).sum = 105387506 ∧ ((fbGroup 2).map fun r => |r.amp|).sum = 5000461 ∧
    ((fbGroup 3).map fun r => |r.amp|).sum = 157937 ∧ ((fbGroup 4).map fun r => |r.amp|).sum = 4338 := by
  decide +kernel

attribute [local irreducible] fbGroup in
/-- C73: at every date the correction is the annual term of amplitude 1.656674564 ms up to an error that is at most
    63.49 microseconds plus a polynomial in the distance from J2000 (in millennia) plus the topocentric part. -/
theorem C73_annual (tdb ut1 cl cda cdp : ℝ) :
    let t := (tdb - 51544.5) / 365250
    |rcc tdb ut1 cl cda cdp - 1656.674564e-6 * Real.sin (6283.075849991 * t + 6.240054195)| ≤
      6.349e-5 + 1.0538751e-4 * |t| + 5.036842e-6 * |t| ^ 2 + 1.57938e-7 * |t| ^ 3 + 4.339e-9 * |t| ^ 4 +
      3.37292e-10 * |cda| + 1.3404e-10 * |cdp| := by
  intro t
  have hs := C73_series tdb ut1 cl cda cdp
  simp only at hs
  change rcc tdb ut1 cl cda cdp = topocentric _ (linearArg 280.46645683 1296027711.03429 t)
        (linearArg 357.52910918 1295965810.481 t) (linearArg 297.85019547 16029616012.09 t)
        (linearArg 34.35151874 109306899.89453 t) (linearArg 50.0774443 44046398.47038 t) cda cdp
      + ∑ k ∈ Finset.range 5, t ^ k * ((fbGroup k).map (fbTerm t)).sum + massAdjustment t at hs
  have ht := topocentric_bound (2 * pi * ut1 - cl) (linearArg 280.46645683 1296027711.03429 t)
        (linearArg 357.52910918 1295965810.481 t) (linearArg 297.85019547 16029616012.09 t)
        (linearArg 34.35151874 109306899.89453 t) (linearArg 50.0774443 44046398.47038 t) cda cdp
  generalize topocentric (2 * pi * ut1 - cl) (linearArg 280.46645683 1296027711.03429 t)
        (linearArg 357.52910918 1295965810.481 t) (linearArg 297.85019547 16029616012.09 t)
        (linearArg 34.35151874 109306899.89453 t) (linearArg 50.0774443 44046398.47038 t) cda cdp = w at *
  obtain ⟨a0, a1, a2, a3, a4, a5⟩ := amp_sums
  have b0 := group_bound t (fbGroup 0).tail
  have b1 := group_bound t (fbGroup 1)
  have b2 := group_bound t (fbGroup 2)
  have b3 := group_bound t (fbGroup 3)
  have b4 := group_bound t (fbGroup 4)
  rw [a1] at b0
  rw [a2] at b1
  rw [a3] at b2
  rw [a4] at b3
  rw [a5] at b4
  simp only [Finset.sum_range_succ, Finset.sum_range_zero] at hs
  rw [a0, List.map_cons, List.sum_cons] at hs
  generalize ((fbGroup 0).tail.map (fbTerm t)).sum = w0 at *
  generalize ((fbGroup 1).map (fbTerm t)).sum = w1 at *
  generalize ((fbGroup 2).map (fbTerm t)).sum = w2 at *
  generalize ((fbGroup 3).map (fbTerm t)).sum = w3 at *
  generalize ((fbGroup 4).map (fbTerm t)).sum = w4 at *
  have hf : fbTerm t ⟨1656674564, 6283075849991, 6240054195⟩ =
      1656.674564e-6 * Real.sin (6283.075849991 * t + 6.240054195) := by
    unfold fbTerm
    norm_num
  rw [hf] at hs
  generalize 1656.674564e-6 * Real.sin (6283.075849991 * t + 6.240054195) = A at *
  have pw : ∀ (n : ℕ) (w B : ℝ), |w| ≤ B → |t ^ n * w| ≤ B * |t| ^ n := by
    intro n w B h
    rw [abs_mul, abs_pow, mul_comm]
    exact mul_le_mul_of_nonneg_right h (by positivity)
  have p1 := pw 1 _ _ b1
  have p2 := pw 2 _ _ b2
  have p3 := pw 3 _ _ b3
  have p4 := pw 4 _ _ b4
  have hm : |massAdjustment t - 0.03638e-6 * t ^ 2| ≤ 4.67e-9 := by
    unfold massAdjustment
    have h1 := abs_le.1 (Real.abs_sin_le_one (6069.776754 * t + 4.021194))
    have h2 := abs_le.1 (Real.abs_sin_le_one (213.299095 * t + 5.543132))
    have h3 := abs_le.1 (Real.abs_sin_le_one (6208.294251 * t + 5.696701))
    have h4 := abs_le.1 (Real.abs_sin_le_one (74.781599 * t + 2.435900))
    rw [abs_le]
    constructor <;> linarith
  have h2 : t ^ 2 = |t| ^ 2 := (sq_abs t).symm
  have q1 := abs_nonneg t
  have q2 : 0 ≤ |t| ^ 2 := by positivity
  have q3 : 0 ≤ |t| ^ 3 := by positivity
  have q4 : 0 ≤ |t| ^ 4 := by positivity
  rw [hs]
  rw [pow_one] at p1
  rw [abs_le] at *
  norm_num at *
  constructor <;> nlinarith
/-! ### Rate of change -/

private theorem pow_diff (x y : ℝ) (hx : |x| ≤ 1) (hy : |y| ≤ 1) (n : ℕ) : |x ^ n - y ^ n| ≤ n * |x - y| := by
  induction n with
  | zero => simp
  | succ n ih =>
    have e : x ^ (n + 1) - y ^ (n + 1) = x * (x ^ n - y ^ n) + y ^ n * (x - y) := by ring
    rw [e]
    refine (abs_add_le _ _).trans ?_
    rw [abs_mul, abs_mul, abs_pow]
    have h1 : |x| * |x ^ n - y ^ n| ≤ |x ^ n - y ^ n| := mul_le_of_le_one_left (abs_nonneg _) hx
    have h2 : |y| ^ n * |x - y| ≤ |x - y| := mul_le_of_le_one_left (abs_nonneg _) (pow_le_one₀ (abs_nonneg _) hy)
    push_cast
    linarith

private def rateOf (n : ℕ) (r : FbRow) : ℤ := |r.amp| * ((n : ℤ) * 10 ^ 9 + |r.freq|)

private theorem term_lip (n : ℕ) (r : FbRow) (x y : ℝ) (hx : |x| ≤ 1) (hy : |y| ≤ 1) :
    |x ^ n * fbTerm x r - y ^ n * fbTerm y r| ≤ (rateOf n r : ℝ) / 10 ^ 21 * |x - y| := by
  unfold fbTerm
  set sx := Real.sin ((r.freq : ℝ) / 10 ^ 9 * x + (r.phase : ℝ) / 10 ^ 9) with hsx
  set sy := Real.sin ((r.freq : ℝ) / 10 ^ 9 * y + (r.phase : ℝ) / 10 ^ 9) with hsy
  have hd : |sx - sy| ≤ |(r.freq : ℝ)| / 10 ^ 9 * |x - y| := by
    refine (sin_diff _ _).trans (le_of_eq ?_)
    have : (r.freq : ℝ) / 10 ^ 9 * x + (r.phase : ℝ) / 10 ^ 9 - ((r.freq : ℝ) / 10 ^ 9 * y + (r.phase : ℝ) / 10 ^ 9) =
      (r.freq : ℝ) / 10 ^ 9 * (x - y) := by ring
    rw [this, abs_mul, abs_div, abs_of_pos (by positivity : (0 : ℝ) < 10 ^ 9)]
  have hs : |sy| ≤ 1 := Real.abs_sin_le_one _
  have hp := pow_diff x y hx hy n
  have hxn : |x ^ n| ≤ 1 := by rw [abs_pow]; exact pow_le_one₀ (abs_nonneg _) hx
  have e : x ^ n * ((r.amp : ℝ) / 10 ^ 12 * sx) - y ^ n * ((r.amp : ℝ) / 10 ^ 12 * sy) =
      (r.amp : ℝ) / 10 ^ 12 * (x ^ n * (sx - sy) + (x ^ n - y ^ n) * sy) := by ring
  rw [e, abs_mul, abs_div, abs_of_pos (by positivity : (0 : ℝ) < 10 ^ 12)]
  have h1 : |x ^ n * (sx - sy)| ≤ |sx - sy| := by
    rw [abs_mul]; exact mul_le_of_le_one_left (abs_nonneg _) hxn
  have h2 : |(x ^ n - y ^ n) * sy| ≤ |x ^ n - y ^ n| := by
    rw [abs_mul]; exact mul_le_of_le_one_right (abs_nonneg _) hs
  have h3 := abs_add_le (x ^ n * (sx - sy)) ((x ^ n - y ^ n) * sy)
  have h4 : |x ^ n * (sx - sy) + (x ^ n - y ^ n) * sy| ≤ (n + |(r.freq : ℝ)| / 10 ^ 9) * |x - y| := by linarith
  refine (mul_le_mul_of_nonneg_left h4 (by positivity)).trans (le_of_eq ?_)
  unfold rateOf
  push_cast
  ring

private theorem group_lip (n : ℕ) (L : List FbRow) (x y : ℝ) (hx : |x| ≤ 1) (hy : |y| ≤ 1) :
    |x ^ n * (L.map (fbTerm x)).sum - y ^ n * (L.map (fbTerm y)).sum| ≤
      (((L.map (rateOf n)).sum : ℤ) : ℝ) / 10 ^ 21 * |x - y| := by
  induction L with
  | nil => simp
  | cons r L ih =>
    simp only [List.map_cons, List.sum_cons]
    have h := term_lip n r x y hx hy
    have e : x ^ n * (fbTerm x r + (L.map (fbTerm x)).sum) - y ^ n * (fbTerm y r + (L.map (fbTerm y)).sum) =
      (x ^ n * fbTerm x r - y ^ n * fbTerm y r) + (x ^ n * (L.map (fbTerm x)).sum - y ^ n * (L.map (fbTerm y)).sum) := by
      ring
    rw [e]
    refine (abs_add_le _ _).trans ((add_le_add h ih).trans (le_of_eq ?_))
    push_cast; ring

private theorem rate_sums :
    ((fbGroup 0).map (rateOf 0)).sum +
    ((fbGroup 1).map (rateOf 1)).sum +
    ((fbGroup 2).map (rateOf 2)).sum +
    ((fbGroup 3).map (rateOf 3)).sum +
    ((fbGroup 4).map (rateOf 4)).sum ≤ 11641000000000000000000 := by
  decide +kernel

private theorem linearArg_diff (deg rate x y : ℝ) : linearArg deg rate x - linearArg deg rate y = rate / 3600 * (pi / 180) * (x - y) := by
  unfold linearArg; ring

private theorem mul_sin_diff (c x y d : ℝ) (hc : 0 ≤ c) (h : |x - y| ≤ d) : |c * Real.sin x - c * Real.sin y| ≤ c * d := by
  rw [← mul_sub, abs_mul, abs_of_nonneg hc]
  exact mul_le_mul_of_nonneg_left ((sin_diff x y).trans h) hc

private theorem mul_cos_diff (c x y d : ℝ) (hc : 0 ≤ c) (h : |x - y| ≤ d) : |c * Real.cos x - c * Real.cos y| ≤ c * d := by
  rw [← mul_sub, abs_mul, abs_of_nonneg hc]
  exact mul_le_mul_of_nonneg_left ((cos_diff x y).trans h) hc

/-- How the topocentric part changes with its angles. -/
private theorem topocentric_diff (s L g D J S s' L' g' D' J' S' cda cdp : ℝ) :
    |topocentric s L g D J S cda cdp - topocentric s' L' g' D' J' S' cda cdp| ≤
    (3.37292e-10 * |s - s'| + 0.28e-10 * |L - L'| + 0.058e-10 * |g - g'| + 0.00133e-10 * |D - D'| +
      0.00133e-10 * |J - J'| + 0.00029e-10 * |S - S'|) * |cda| +
    (1.3404e-10 * |L - L'| + 0.022e-10 * |g - g'|) * |cdp| := by
  have hs := abs_le.1 (le_refl |s - s'|)
  have hL := abs_le.1 (le_refl |L - L'|)
  have hg := abs_le.1 (le_refl |g - g'|)
  have hD := abs_le.1 (le_refl |D - D'|)
  have hJ := abs_le.1 (le_refl |J - J'|)
  have hS := abs_le.1 (le_refl |S - S'|)
  have k1 := mul_sin_diff 0.00029e-10 (s + L - S) (s' + L' - S') (|s - s'| + |L - L'| + |S - S'|) (by norm_num) (by
    rw [abs_le]; constructor <;> linarith)
  have k2 := mul_sin_diff 0.00100e-10 (s - 2 * g) (s' - 2 * g') (|s - s'| + 2 * |g - g'|) (by norm_num) (by
    rw [abs_le]; constructor <;> linarith)
  have k3 := mul_sin_diff 0.00133e-10 (s - D) (s' - D') (|s - s'| + |D - D'|) (by norm_num) (by
    rw [abs_le]; constructor <;> linarith)
  have k4 := mul_sin_diff 0.00133e-10 (s + L - J) (s' + L' - J') (|s - s'| + |L - L'| + |J - J'|) (by norm_num) (by
    rw [abs_le]; constructor <;> linarith)
  have k5 := mul_sin_diff 0.00229e-10 (s + 2 * L + g) (s' + 2 * L' + g') (|s - s'| + 2 * |L - L'| + |g - g'|) (by norm_num) (by
    rw [abs_le]; constructor <;> linarith)
  have k6 := mul_cos_diff 0.02200e-10 (L + g) (L' + g') (|L - L'| + |g - g'|) (by norm_num) (by
    rw [abs_le]; constructor <;> linarith)
  have k7 := mul_sin_diff 0.05312e-10 (s - g) (s' - g') (|s - s'| + |g - g'|) (by norm_num) (by
    rw [abs_le]; constructor <;> linarith)
  have k8 := mul_sin_diff 0.13677e-10 (s + 2 * L) (s' + 2 * L') (|s - s'| + 2 * |L - L'|) (by norm_num) (by
    rw [abs_le]; constructor <;> linarith)
  have k9 := mul_cos_diff 1.31840e-10 L L' (|L - L'|) (by norm_num) le_rfl
  have k10 := mul_sin_diff 3.17679e-10 s s' (|s - s'|) (by norm_num) le_rfl
  have e : topocentric s L g D J S cda cdp - topocentric s' L' g' D' J' S' cda cdp =
    ((0.00029e-10 * Real.sin (s + L - S) - 0.00029e-10 * Real.sin (s' + L' - S')) +
     (0.00100e-10 * Real.sin (s - 2 * g) - 0.00100e-10 * Real.sin (s' - 2 * g')) +
     (0.00133e-10 * Real.sin (s - D) - 0.00133e-10 * Real.sin (s' - D')) +
     (0.00133e-10 * Real.sin (s + L - J) - 0.00133e-10 * Real.sin (s' + L' - J')) -
     (0.00229e-10 * Real.sin (s + 2 * L + g) - 0.00229e-10 * Real.sin (s' + 2 * L' + g')) +
     (0.05312e-10 * Real.sin (s - g) - 0.05312e-10 * Real.sin (s' - g')) -
     (0.13677e-10 * Real.sin (s + 2 * L) - 0.13677e-10 * Real.sin (s' + 2 * L')) +
     (3.17679e-10 * Real.sin s - 3.17679e-10 * Real.sin s')) * cda -
    ((0.02200e-10 * Real.cos (L + g) - 0.02200e-10 * Real.cos (L' + g')) +
     (1.31840e-10 * Real.cos L - 1.31840e-10 * Real.cos L')) * cdp := by
    unfold topocentric; ring
  rw [e]
  refine (abs_sub _ _).trans ?_
  rw [abs_mul, abs_mul]
  have n1 := abs_nonneg (s - s')
  have n2 := abs_nonneg (L - L')
  have n3 := abs_nonneg (g - g')
  have n4 := abs_nonneg (D - D')
  have n5 := abs_nonneg (J - J')
  have n6 := abs_nonneg (S - S')
  rw [abs_le] at k1 k2 k3 k4 k5 k6 k7 k8 k9 k10
  refine add_le_add (mul_le_mul_of_nonneg_right ?_ (abs_nonneg _)) (mul_le_mul_of_nonneg_right ?_ (abs_nonneg _))
  · rw [abs_le]; constructor <;> linarith
  · rw [abs_le]; constructor <;> linarith

private theorem mass_lip (x y : ℝ) (hx : |x| ≤ 1) (hy : |y| ≤ 1) : |massAdjustment x - massAdjustment y| ≤ 0.0001 * |x - y| := by
  have lin : ∀ a b : ℝ, 0 ≤ a → |a * x + b - (a * y + b)| ≤ a * |x - y| := by
    intro a b ha
    rw [show a * x + b - (a * y + b) = a * (x - y) by ring, abs_mul, abs_of_nonneg ha]
  have k1 := mul_sin_diff 0.00065e-6 _ _ _ (by norm_num) (lin 6069.776754 4.021194 (by norm_num))
  have k2 := mul_sin_diff 0.00033e-6 _ _ _ (by norm_num) (lin 213.299095 5.543132 (by norm_num))
  have k3 := mul_sin_diff 0.00196e-6 _ _ _ (by norm_num) (lin 6208.294251 5.696701 (by norm_num))
  have k4 := mul_sin_diff 0.00173e-6 _ _ _ (by norm_num) (lin 74.781599 2.435900 (by norm_num))
  have k5 := pow_diff x y hx hy 2
  have n := abs_nonneg (x - y)
  unfold massAdjustment
  push_cast at k5
  rw [abs_le] at *
  norm_num at *
  constructor <;> linarith

attribute [local irreducible] fbGroup in
/-- C73: between the years 1000 and 3000, for clocks within 6400 km of axis and equator, the correction changes by at
    most 31.9 microseconds per day of TDB plus 13.6 microseconds per day of UT1. -/
theorem C73_rate (tdb tdb' ut1 ut1' cl cda cdp : ℝ) (h : |tdb - 51544.5| ≤ 365250) (h' : |tdb' - 51544.5| ≤ 365250)
    (ha : |cda| ≤ 6400) (hp : |cdp| ≤ 6400) :
    |rcc tdb ut1 cl cda cdp - rcc tdb' ut1' cl cda cdp| ≤ 3.19e-5 * |tdb - tdb'| + 1.36e-5 * |ut1 - ut1'| := by
  have e1 := C73_series tdb ut1 cl cda cdp
  have e2 := C73_series tdb' ut1' cl cda cdp
  simp only at e1 e2
  have hx : |(tdb - 51544.5) / 365250| ≤ 1 := by
    rw [abs_div, abs_of_pos (by norm_num : (0 : ℝ) < 365250), div_le_one (by norm_num)]; exact h
  have hy : |(tdb' - 51544.5) / 365250| ≤ 1 := by
    rw [abs_div, abs_of_pos (by norm_num : (0 : ℝ) < 365250), div_le_one (by norm_num)]; exact h'
  have hxy : |tdb - tdb'| = 365250 * |(tdb - 51544.5) / 365250 - (tdb' - 51544.5) / 365250| := by
    rw [← sub_div, abs_div, abs_of_pos (by norm_num : (0 : ℝ) < 365250)]
    rw [show tdb - 51544.5 - (tdb' - 51544.5) = tdb - tdb' by ring]; ring
  rw [e1, e2, hxy]
  clear e1 e2 hxy h h'
  generalize (tdb - 51544.5) / 365250 = x at *
  generalize (tdb' - 51544.5) / 365250 = y at *
  have kt := topocentric_diff (2 * pi * ut1 - cl) (linearArg 280.46645683 1296027711.03429 x)
        (linearArg 357.52910918 1295965810.481 x) (linearArg 297.85019547 16029616012.09 x)
        (linearArg 34.35151874 109306899.89453 x) (linearArg 50.0774443 44046398.47038 x)
        (2 * pi * ut1' - cl) (linearArg 280.46645683 1296027711.03429 y)
        (linearArg 357.52910918 1295965810.481 y) (linearArg 297.85019547 16029616012.09 y)
        (linearArg 34.35151874 109306899.89453 y) (linearArg 50.0774443 44046398.47038 y) cda cdp
  generalize topocentric (2 * pi * ut1 - cl) (linearArg 280.46645683 1296027711.03429 x)
        (linearArg 357.52910918 1295965810.481 x) (linearArg 297.85019547 16029616012.09 x)
        (linearArg 34.35151874 109306899.89453 x) (linearArg 50.0774443 44046398.47038 x) cda cdp = w at *
  generalize topocentric (2 * pi * ut1' - cl) (linearArg 280.46645683 1296027711.03429 y)
        (linearArg 357.52910918 1295965810.481 y) (linearArg 297.85019547 16029616012.09 y)
        (linearArg 34.35151874 109306899.89453 y) (linearArg 50.0774443 44046398.47038 y) cda cdp = w' at *
  have km := mass_lip x y hx hy
  generalize massAdjustment x = m at *
  generalize massAdjustment y = m' at *
  have r := rate_sums
  have g0 := group_lip 0 (fbGroup 0) x y hx hy
  have g1 := group_lip 1 (fbGroup 1) x y hx hy
  have g2 := group_lip 2 (fbGroup 2) x y hx hy
  have g3 := group_lip 3 (fbGroup 3) x y hx hy
  have g4 := group_lip 4 (fbGroup 4) x y hx hy
  generalize ((fbGroup 0).map (rateOf 0)).sum = A0 at *
  generalize ((fbGroup 1).map (rateOf 1)).sum = A1 at *
  generalize ((fbGroup 2).map (rateOf 2)).sum = A2 at *
  generalize ((fbGroup 3).map (rateOf 3)).sum = A3 at *
  generalize ((fbGroup 4).map (rateOf 4)).sum = A4 at *
  simp only [Finset.sum_range_succ, Finset.sum_range_zero]
  generalize x ^ 0 * ((fbGroup 0).map (fbTerm x)).sum = x0 at *
  generalize x ^ 1 * ((fbGroup 1).map (fbTerm x)).sum = x1 at *
  generalize x ^ 2 * ((fbGroup 2).map (fbTerm x)).sum = x2 at *
  generalize x ^ 3 * ((fbGroup 3).map (fbTerm x)).sum = x3 at *
  generalize x ^ 4 * ((fbGroup 4).map (fbTerm x)).sum = x4 at *
  generalize y ^ 0 * ((fbGroup 0).map (fbTerm y)).sum = y0 at *
  generalize y ^ 1 * ((fbGroup 1).map (fbTerm y)).sum = y1 at *
  generalize y ^ 2 * ((fbGroup 2).map (fbTerm y)).sum = y2 at *
  generalize y ^ 3 * ((fbGroup 3).map (fbTerm y)).sum = y3 at *
  generalize y ^ 4 * ((fbGroup 4).map (fbTerm y)).sum = y4 at *
  have hr : ((A0 : ℝ) + A1 + A2 + A3 + A4) / 10 ^ 21 ≤ 11.641 := by
    have : ((A0 : ℝ) + A1 + A2 + A3 + A4) ≤ 11641000000000000000000 := by exact_mod_cast r
    rw [div_le_iff₀ (by positivity)]
    linarith
  have hr' := mul_le_mul_of_nonneg_right hr (abs_nonneg (x - y))
  have e : ((A0 : ℝ) + A1 + A2 + A3 + A4) / 10 ^ 21 * |x - y| = (A0 : ℝ) / 10 ^ 21 * |x - y| + (A1 : ℝ) / 10 ^ 21 * |x - y| +
    (A2 : ℝ) / 10 ^ 21 * |x - y| + (A3 : ℝ) / 10 ^ 21 * |x - y| + (A4 : ℝ) / 10 ^ 21 * |x - y| := by ring
  rw [e] at hr'
  -- topocentric part
  have hw : |w - w'| ≤ 0.01 * |x - y| + 1.36e-5 * |ut1 - ut1'| := by
    refine kt.trans ?_
    have hpi := Real.pi_pos
    have hpi4 := Real.pi_lt_d4
    have n := abs_nonneg (x - y)
    have nu := abs_nonneg (ut1 - ut1')
    have lin : ∀ deg rate B : ℝ, 0 ≤ rate → rate / 3600 * (3.1416 / 180) ≤ B →
        |linearArg deg rate x - linearArg deg rate y| ≤ B * |x - y| := by
      intro deg rate B hr hB
      rw [linearArg_diff, abs_mul, abs_of_nonneg (by positivity)]
      refine mul_le_mul_of_nonneg_right (le_trans ?_ hB) n
      have : pi / 180 ≤ 3.1416 / 180 := by linarith
      exact mul_le_mul_of_nonneg_left this (by positivity)
    have l1 := lin 280.46645683 1296027711.03429 6284 (by norm_num) (by norm_num)
    have l2 := lin 357.52910918 1295965810.481 6284 (by norm_num) (by norm_num)
    have l3 := lin 297.85019547 16029616012.09 77715 (by norm_num) (by norm_num)
    have l4 := lin 34.35151874 109306899.89453 530 (by norm_num) (by norm_num)
    have l5 := lin 50.0774443 44046398.47038 214 (by norm_num) (by norm_num)
    have l0 : |2 * pi * ut1 - cl - (2 * pi * ut1' - cl)| ≤ 6.2832 * |ut1 - ut1'| := by
      rw [show 2 * pi * ut1 - cl - (2 * pi * ut1' - cl) = 2 * pi * (ut1 - ut1') by ring, abs_mul,
        abs_of_pos (by positivity)]
      exact mul_le_mul_of_nonneg_right (by linarith) nu
    have c1 : (3.37292e-10 * |2 * pi * ut1 - cl - (2 * pi * ut1' - cl)| +
        0.28e-10 * |linearArg 280.46645683 1296027711.03429 x - linearArg 280.46645683 1296027711.03429 y| +
        0.058e-10 * |linearArg 357.52910918 1295965810.481 x - linearArg 357.52910918 1295965810.481 y| +
        0.00133e-10 * |linearArg 297.85019547 16029616012.09 x - linearArg 297.85019547 16029616012.09 y| +
        0.00133e-10 * |linearArg 34.35151874 109306899.89453 x - linearArg 34.35151874 109306899.89453 y| +
        0.00029e-10 * |linearArg 50.0774443 44046398.47038 x - linearArg 50.0774443 44046398.47038 y|) ≤
        2.1194e-9 * |ut1 - ut1'| + 2.3e-7 * |x - y| := by
      clear kt ha hp r
      linarith
    have c2 : (1.3404e-10 * |linearArg 280.46645683 1296027711.03429 x - linearArg 280.46645683 1296027711.03429 y| +
        0.022e-10 * |linearArg 357.52910918 1295965810.481 x - linearArg 357.52910918 1295965810.481 y|) ≤ 9e-7 * |x - y| := by
      clear kt ha hp r
      linarith
    have d1 := mul_le_mul c1 ha (abs_nonneg _) (by positivity)
    have d2 := mul_le_mul c2 hp (abs_nonneg _) (by positivity)
    refine (add_le_add d1 d2).trans ?_
    clear kt r d1 d2 c1 c2
    linarith
  have n := abs_nonneg (x - y)
  have nu := abs_nonneg (ut1 - ut1')
  rw [abs_le] at g0 g1 g2 g3 g4 km hw ⊢
  norm_num at *
  constructor <;> linarith

/-- C73: adding the correction keeps the order of clock readings: if UT1 advances with the clock, the later reading
    (in days) has the later coordinate time (in seconds). -/
theorem C73_monotone (d d' off cl cda cdp : ℝ) (h : |d - 51544.5| ≤ 365250) (h' : |d' - 51544.5| ≤ 365250)
    (ha : |cda| ≤ 6400) (hp : |cdp| ≤ 6400) (hd : d < d') :
    86400 * d + rcc d (d + off) cl cda cdp < 86400 * d' + rcc d' (d' + off) cl cda cdp := by
  have k := C73_rate d d' (d + off) (d' + off) cl cda cdp h h' ha hp
  rw [show d + off - (d' + off) = d - d' by ring, abs_of_neg (by linarith : d - d' < 0)] at k
  have := (abs_le.1 k).2
  norm_num at *
  linarith

/-- Two dates and a clock that meet the hypotheses of C73_rate and C73_monotone. -/
example : |(51544 : ℝ) - 51544.5| ≤ 365250 ∧ |(60000 : ℝ) - 51544.5| ≤ 365250 ∧ |(5330 : ℝ)| ≤ 6400 ∧ |(-3400 : ℝ)| ≤ 6400 ∧
    (5330 : ℝ) ^ 2 + (-3400) ^ 2 ≤ 6400 ^ 2 := by
  norm_num [abs_le]

/-! ## C74 -/

/-- C74: the delay is the nearest whole number of seconds (halves upwards) and never negative; it is within half a
    second of the request whenever the request is not negative. -/
theorem C74_wait (s : ℝ) (h : |s| < 2147483647) : ∃ n : ℤ, waitSeconds s = some n ∧ 0 ≤ n ∧
    (s < 1 / 2 → n = 0) ∧ (0 ≤ s → s - 1 / 2 < n ∧ (n : ℝ) ≤ s + 1 / 2) := by
  obtain ⟨hl, hu⟩ := abs_lt.1 h
  by_cases hs : 0 ≤ s
  · have hf1 := Int.floor_le (s + 1 / 2)
    have hf2 := Int.lt_floor_add_one (s + 1 / 2)
    have h0 : 0 ≤ ⌊s + 1 / 2⌋ := Int.floor_nonneg.2 (by linarith)
    have h1 : ⌊s + 1 / 2⌋ ≤ 2147483647 := by
      have : (⌊s + 1 / 2⌋ : ℝ) < 2147483648 := by linarith
      have : ⌊s + 1 / 2⌋ < 2147483648 := by exact_mod_cast this
      omega
    refine ⟨⌊s + 1 / 2⌋, ?_, h0, fun hs2 => ?_, fun _ => ⟨by linarith, by linarith⟩⟩
    · unfold waitSeconds cround
      simp only [if_pos hs]
      rw [if_pos ⟨by omega, h1⟩, max_eq_left h0]
    · exact Int.floor_eq_zero_iff.2 ⟨by linarith, by linarith⟩
  · have hs' := not_le.1 hs
    have hf1 := Int.ceil_lt_add_one (s - 1 / 2)
    have hf2 := Int.le_ceil (s - 1 / 2)
    have h0 : ⌈s - 1 / 2⌉ ≤ 0 := Int.ceil_le.2 (by push_cast; linarith)
    have h1 : -2147483648 ≤ ⌈s - 1 / 2⌉ := by
      have : (-2147483649 : ℝ) < ⌈s - 1 / 2⌉ := by linarith
      have : (-2147483649 : ℤ) < ⌈s - 1 / 2⌉ := by exact_mod_cast this
      omega
    refine ⟨0, ?_, le_rfl, fun _ => rfl, fun h => absurd h hs⟩
    unfold waitSeconds cround
    simp only [if_neg hs]
    rw [if_pos ⟨h1, by omega⟩, max_eq_right h0]

/-- C74: fractions of a second are not honoured: a request for 0.4 s does not wait at all and a request for 1.5 s waits
    2 s. -/
theorem C74_fractions : waitSeconds 0.4 = some 0 ∧ waitSeconds 1.5 = some 2 := by
  unfold waitSeconds cround
  have h1 : ⌊(0.4 : ℝ) + 1 / 2⌋ = 0 := Int.floor_eq_zero_iff.2 ⟨by norm_num, by norm_num⟩
  have h2 : ⌊(1.5 : ℝ) + 1 / 2⌋ = 2 := by norm_num
  simp only [if_pos (by norm_num : (0 : ℝ) ≤ 0.4), if_pos (by norm_num : (0 : ℝ) ≤ 1.5), h1, h2]
  norm_num

example : |(3.7 : ℝ)| < 2147483647 := by norm_num [abs_lt]

end Sla.Props
