/- C65 to C68: `moon`, `earth`, `ecor`. -/
import Verif.Model.Earth
import Verif.Spec.Sphere
import Verif.Lemmas.Calendar
import Verif.Lemmas.Coords
import Verif.Props.Calendar
import Verif.Props.Spherical
import Verif.Props.Eterms
import Mathlib.Analysis.SpecialFunctions.Trigonometric.Deriv
import Mathlib.Analysis.SpecialFunctions.Trigonometric.Bounds
import Mathlib.Analysis.Real.Pi.Bounds

noncomputable section
namespace Sla.Props

open Real Sla.Spec Matrix _root_.Spec

/-! ### The time argument -/

private theorem y4_eq (year : ℤ) : (year.tmod 4 + 4).tmod 4 = year % 4 := by
  rcases Int.lt_or_le year 0 with h | h
  · obtain ⟨n, hn⟩ : ∃ n : ℤ, year = -n := ⟨-year, by ring⟩
    subst hn
    have hn : 0 ≤ n := by omega
    rw [Int.neg_tmod, Int.tmod_eq_emod_of_nonneg hn, Int.tmod_eq_emod_of_nonneg (by omega)]
    omega
  · rw [Int.tmod_eq_emod_of_nonneg h, Int.tmod_eq_emod_of_nonneg (by omega)]
    omega

/-- Whole days since J1900.0 less a half day, as an integer expression. -/
private theorem years_eq (year day : ℤ) (f : ℝ) : yearsSince1900 year day f =
    (((1461 * (year - 1900) + (4 * (day - if year % 4 = 0 then 1 else 0) - year % 4 - 2) : ℤ) : ℝ) + 4 * f) / 1461 := by
  have h : (1 : ℤ).tdiv (year % 4 + 1) = if year % 4 = 0 then 1 else 0 := by
    rcases (by omega : year % 4 = 0 ∨ year % 4 = 1 ∨ year % 4 = 2 ∨ year % 4 = 3) with h | h | h | h <;> rw [h] <;> rfl
  simp only [yearsSince1900, yearFraction, y4_eq, h]
  push_cast
  ring

private theorem years_clyd {D : YMD} (h : D.Valid) (hy : -4699 ≤ D.year) (f : ℝ) :
    yearsSince1900 (clydExpr D.year D.month D.day).1 (clydExpr D.year D.month D.day).2 f =
      ((cldjExpr D.year D.month D.day : ℤ) + f - 15019.5) / 365.25 := by
  have hge : -2399598 ≤ cldjExpr D.year D.month D.day := by
    rw [cldjExpr_eq h.1 h.2.1 (by omega)]
    obtain ⟨h1, h2, h3, -⟩ := h
    obtain ⟨y, m, d⟩ := D
    dsimp only at *
    rcases monthLength_cases h1 h2 with h|h|h|h|h|h|h|h|h|h|h|h <;> subst h <;> norm_num <;> omega
  rw [clydExpr_eq_post, clydJ_eq h.1 h.2.1 (by omega)]
  set m := cldjExpr D.year D.month D.day with hm
  obtain ⟨k, L, hk, hL, hL', e⟩ : ∃ k L : Int, 0 ≤ k ∧ 1 ≤ L ∧ L ≤ 1461 ∧ m + 2401416 = 1461 * k + L :=
    ⟨(m + 2401416 - 1) / 1461, (m + 2401416 - 1) % 1461 + 1, by omega, by omega, by omega, by omega⟩
  have key : (1461 * ((clydPost (m + 2401416)).1 - 1900) + (4 * ((clydPost (m + 2401416)).2 -
      if (clydPost (m + 2401416)).1 % 4 = 0 then 1 else 0) - (clydPost (m + 2401416)).1 % 4 - 2) : ℤ) =
      4 * m - 60078 := by
    rw [e, clydPost_eq hk hL hL']
    split_ifs <;> dsimp only at * <;> omega
  rw [years_eq, key]
  push_cast
  ring

/-! ### Reduction of angles -/

private def Turn (x y : ℝ) : Prop := ∃ n : ℤ, x = y + n * (2 * π)

private theorem Turn.sin {x y : ℝ} (h : Turn x y) : Real.sin x = Real.sin y := by
  obtain ⟨n, rfl⟩ := h; exact Real.sin_add_int_mul_two_pi y n

private theorem Turn.cos {x y : ℝ} (h : Turn x y) : Real.cos x = Real.cos y := by
  obtain ⟨n, rfl⟩ := h; exact Real.cos_add_int_mul_two_pi y n

private theorem Turn.add {x y x' y' : ℝ} (h : Turn x y) (h' : Turn x' y') : Turn (x + x') (y + y') := by
  obtain ⟨n, rfl⟩ := h
  obtain ⟨m, rfl⟩ := h'
  exact ⟨n + m, by push_cast; ring⟩

private theorem Turn.int_mul {x y : ℝ} (h : Turn x y) (k : ℤ) : Turn (k * x) (k * y) := by
  obtain ⟨n, rfl⟩ := h; exact ⟨k * n, by push_cast; ring⟩

private theorem turn_refl (x : ℝ) : Turn x x := ⟨0, by simp⟩

/-- The arguments as functions of the time alone. -/
private def lin (t : ℝ) : MoonArgs where
  elp := d2r * (270.434164 + 4812.678831 * t)
  em := d2r * (358.475833 + 359.990498 * t)
  emp := d2r * (296.104608 + 4771.988491 * t)
  d := d2r * (350.737486 + 4452.671142 * t)
  f := d2r * (11.250889 + 4832.020251 * t)
  om := 0

private theorem turn_deg {x y : ℝ} (n : ℤ) (h : x = y + 360 * n) : Turn (d2r * cfmod x 360) (d2r * y) := by
  refine ⟨n - ctrunc (x / 360), ?_⟩
  simp only [cfmod, d2r]; push_cast; rw [h]; ring

private theorem theta_turn (year day : ℤ) (f : ℝ) (k : MoonTerm) :
    Turn (k.theta (moonArgs (fun x => cfmod x 360) (yearFraction year day f) (yearsSince1900 year day f)))
      (k.theta (lin (yearsSince1900 year day f))) := by
  have hy : yearsSince1900 year day f = ((year - 1900 : ℤ) : ℝ) + yearFraction year day f := rfl
  refine ((Turn.add (Turn.int_mul ?_ _) (Turn.int_mul ?_ _)).add (Turn.int_mul ?_ _)).add (Turn.int_mul ?_ _) <;>
    simp only [moonArgs, lin]
  · exact turn_deg 0 (by simp)
  · exact turn_deg (-13 * (year - 1900)) (by rw [hy]; push_cast; ring)
  · exact turn_deg (-12 * (year - 1900)) (by rw [hy]; push_cast; ring)
  · exact turn_deg (-13 * (year - 1900)) (by rw [hy]; push_cast; ring)

private theorem elp_turn (year day : ℤ) (f : ℝ) :
    Turn (moonArgs (fun x => cfmod x 360) (yearFraction year day f) (yearsSince1900 year day f)).elp
      (lin (yearsSince1900 year day f)).elp := by
  have hy : yearsSince1900 year day f = ((year - 1900 : ℤ) : ℝ) + yearFraction year day f := rfl
  exact turn_deg (-13 * (year - 1900)) (by rw [hy]; push_cast; ring)

private def moonAt (t : ℝ) : VectorPV :=
  ⟨moonEquator t (ds2c6 (moonSpherical (lin t))).pos, moonEquator t (ds2c6 (moonSpherical (lin t))).vel⟩

private theorem moon_eq (year day : ℤ) (f : ℝ) : moon year day f = moonAt (yearsSince1900 year day f) := by
  have h1 := theta_turn year day f
  have h2 := elp_turn year day f
  set a := moonArgs (fun x => cfmod x 360) (yearFraction year day f) (yearsSince1900 year day f) with ha
  set b := lin (yearsSince1900 year day f) with hb
  have s : moonSinTerm a = moonSinTerm b := by
    funext s k; simp only [moonSinTerm, (h1 k).sin, (h1 k).cos]
  have c : moonCosTerm a = moonCosTerm b := by
    funext s k; simp only [moonCosTerm, (h1 k).sin, (h1 k).cos]
  have key : ds2c6 (moonSpherical a) = ds2c6 (moonSpherical b) := by
    have hl := (turn_refl ((moonL.reverse.foldl (moonSinTerm b) (0, 0)).1 * d2r)).add h2
    simp only [ds2c6, moonSpherical, s, c, hl.sin, hl.cos]
  simp only [moon, moonAt, ← ha, ← hb, key]

private def earthT (t : ℝ) : VectorPV := earthAt (4.881628 + 2 * π * t + 0.00013420 * t) (4.72 + 83.9971 * t) t

private theorem earthAt_turn {x x' y y' : ℝ} (h : Turn x x') (h' : Turn y y') (t : ℝ) : earthAt x y t = earthAt x' y' t := by
  obtain ⟨n, rfl⟩ := h
  have e1 : x' + n * (2 * π) - (4.908230 + 3.0005e-4 * t) = (x' - (4.908230 + 3.0005e-4 * t)) + n * (2 * π) := by ring
  set m := x' - (4.908230 + 3.0005e-4 * t)
  have e2 : 2 * (m + n * (2 * π)) = 2 * m + (2 * n : ℤ) * (2 * π) := by push_cast; ring
  have e3 : ∀ a b : ℝ, m + n * (2 * π) + a + b = (m + a + b) + n * (2 * π) := fun a b => by ring
  have e4 : ∀ a b : ℝ, a + n * (2 * π) + (4.908230 + 3.0005e-4 * t) =
      (a + (4.908230 + 3.0005e-4 * t)) + n * (2 * π) := fun a b => by ring
  simp only [earthAt, e1, e2, h'.sin, h'.cos, Real.sin_add_int_mul_two_pi, e3, e4 _ 0, Real.cos_add_int_mul_two_pi]
  rfl

private theorem turn_rad {x y : ℝ} (n : ℤ) (h : x = y + 2 * π * n) : Turn (cfmod x (2 * π)) y := by
  refine ⟨n - ctrunc (x / (2 * π)), ?_⟩
  simp only [cfmod]; push_cast; rw [h]; ring

private theorem earth_eq (year day : ℤ) (f : ℝ) : earth year day f = earthT (yearsSince1900 year day f) := by
  have hy : yearsSince1900 year day f = ((year - 1900 : ℤ) : ℝ) + yearFraction year day f := rfl
  simp only [earth, earthT]
  refine earthAt_turn (turn_rad (-(year - 1900)) ?_) (turn_rad 0 (by simp)) _
  rw [hy]; push_cast; ring

/-- The results are functions of the instant alone. With year and day from `clyd`, they are functions of the Modified
    Julian Date `cldj` plus the fraction, for all dates from -4699 on (not only from 1900 to 2100). -/
theorem C65_instant : ∃ M E : ℝ → VectorPV, ∀ D : YMD, D.Valid → -4699 ≤ D.year → ∀ (f old : ℝ) (a b : ℤ),
    moon (clyd D.year D.month D.day a b).2.1 (clyd D.year D.month D.day a b).2.2 f =
      M ((cldj D.year D.month D.day old).2 + f) ∧
    earth (clyd D.year D.month D.day a b).2.1 (clyd D.year D.month D.day a b).2.2 f =
      E ((cldj D.year D.month D.day old).2 + f) := by
  refine ⟨fun m => moonAt ((m - 15019.5) / 365.25), fun m => earthT ((m - 15019.5) / 365.25), fun D h hy f old a b => ?_⟩
  have h1 : clyd D.year D.month D.day a b = (validateGregorianDay D.year D.month D.day, clydExpr D.year D.month D.day) := by
    unfold clyd; rw [if_pos (by omega), if_pos ⟨h.1, h.2.1⟩]
  have h2 : (cldj D.year D.month D.day old).2 = (cldjExpr D.year D.month D.day : ℤ) := by
    unfold cldj; rw [if_pos hy, if_pos ⟨h.1, h.2.1⟩]
  rw [h1, h2, moon_eq, earth_eq, years_clyd h hy]
  exact ⟨rfl, rfl⟩

example : (⟨1969, 7, 20⟩ : YMD).Valid := by decide

/-- `earth` for the year and day that `clyd` gives, in terms of the date and time. -/
theorem earth_of_date {D : YMD} (h : D.Valid) (hy : -4699 ≤ D.year) (f old : ℝ) (a b : ℤ) :
    earth (clyd D.year D.month D.day a b).2.1 (clyd D.year D.month D.day a b).2.2 f =
      (fun T : ℝ => earthAt (4.881628 + 2 * π * T + 0.00013420 * T) (4.72 + 83.9971 * T) T)
        (((cldj D.year D.month D.day old).2 + f - 15019.5) / 365.25) := by
  have h1 : clyd D.year D.month D.day a b = (validateGregorianDay D.year D.month D.day, clydExpr D.year D.month D.day) := by
    unfold clyd; rw [if_pos (by omega), if_pos ⟨h.1, h.2.1⟩]
  have h2 : (cldj D.year D.month D.day old).2 = (cldjExpr D.year D.month D.day : ℤ) := by
    unfold cldj; rw [if_pos hy, if_pos ⟨h.1, h.2.1⟩]
  rw [h1, h2, earth_eq, years_clyd h hy]
  rfl

/-- `moon` likewise. -/
theorem moon_of_date {D : YMD} (h : D.Valid) (hy : -4699 ≤ D.year) (f old : ℝ) (a b : ℤ) :
    moon (clyd D.year D.month D.day a b).2.1 (clyd D.year D.month D.day a b).2.2 f =
      (fun T : ℝ => (⟨moonEquator T (ds2c6 (moonSpherical (moonArgs id T T))).pos,
        moonEquator T (ds2c6 (moonSpherical (moonArgs id T T))).vel⟩ : VectorPV))
        (((cldj D.year D.month D.day old).2 + f - 15019.5) / 365.25) := by
  have h1 : clyd D.year D.month D.day a b = (validateGregorianDay D.year D.month D.day, clydExpr D.year D.month D.day) := by
    unfold clyd; rw [if_pos (by omega), if_pos ⟨h.1, h.2.1⟩]
  have h2 : (cldj D.year D.month D.day old).2 = (cldjExpr D.year D.month D.day : ℤ) := by
    unfold cldj; rw [if_pos hy, if_pos ⟨h.1, h.2.1⟩]
  have e : ∀ T, moonArgs id T T = lin T := fun T => by
    simp only [moonArgs, lin, id_eq, MoonArgs.mk.injEq]
    refine ⟨?_, ?_, ?_, ?_, ?_, ?_⟩ <;> first | trivial | ring
  rw [h1, h2, moon_eq, years_clyd h hy]
  simp only [e]
  rfl

/-- A day may be carried into the fraction, and a year of 365 days (366 if its number is divisible by four) into the day;
    for all integers, negative ones included. -/
theorem C65_carry (year day : ℤ) (f : ℝ) :
    moon year (day + 1) f = moon year day (f + 1) ∧ earth year (day + 1) f = earth year day (f + 1) ∧
    moon (year + 1) day f = moon year (day + if year % 4 = 0 then 366 else 365) f ∧
    earth (year + 1) day f = earth year (day + if year % 4 = 0 then 366 else 365) f := by
  have h1 : yearsSince1900 year (day + 1) f = yearsSince1900 year day (f + 1) := by
    rw [years_eq, years_eq]; push_cast; ring
  have h2 : yearsSince1900 (year + 1) day f = yearsSince1900 year (day + if year % 4 = 0 then 366 else 365) f := by
    rw [years_eq, years_eq]
    congr 3
    split_ifs <;> omega
  simp only [moon_eq, earth_eq, h1, h2, and_self]

/-- The rates of both bodies are taken over the same independent variable: a day of the fraction is 1/365.25 of it. -/
private theorem years_fraction (year day : ℤ) (f : ℝ) : HasDerivAt (fun f => yearsSince1900 year day f) (1 / 365.25) f := by
  have : (fun f => yearsSince1900 year day f) = fun f => (((1461 * (year - 1900) +
      (4 * (day - if year % 4 = 0 then 1 else 0) - year % 4 - 2) : ℤ) : ℝ) + 4 * f) / 1461 := funext (years_eq year day)
  rw [this]
  exact ((((hasDerivAt_id f).const_mul 4).const_add _).div_const 1461).congr_deriv (by norm_num)

/-! ### `moon` -/

private theorem d2r_bounds : 0.01745 < d2r ∧ d2r < 0.017454 := by
  have h1 := Real.pi_gt_d4
  have h2 := Real.pi_lt_d4
  simp only [d2r]
  constructor <;> linarith

private theorem abs_mul_le' {x y X Y : ℝ} (hx : |x| ≤ X) (hy : |y| ≤ Y) : |x * y| ≤ X * Y := by
  rw [abs_mul]; exact mul_le_mul hx hy (abs_nonneg _) ((abs_nonneg x).trans hx)

private theorem lin_deriv (a b t : ℝ) : HasDerivAt (fun t => d2r * (a + b * t)) (d2r * b) t := by
  simpa using (((hasDerivAt_id t).const_mul b).const_add a).const_mul d2r

private theorem theta_deriv (k : MoonTerm) (t : ℝ) : HasDerivAt (fun t => k.theta (lin t)) (d2r * k.thetad) t :=
  (((((lin_deriv _ _ t).const_mul (k.m : ℝ)).add ((lin_deriv _ _ t).const_mul (k.mp : ℝ))).add
    ((lin_deriv _ _ t).const_mul (k.d : ℝ))).add ((lin_deriv _ _ t).const_mul (k.f : ℝ))).congr_deriv
    (by simp only [MoonTerm.thetad]; ring)

private theorem sin_fold (l : List MoonTerm) (t : ℝ) : ∀ s : ℝ → ℝ × ℝ, HasDerivAt (fun t => (s t).1) (d2r * (s t).2) t →
    HasDerivAt (fun t => (l.foldl (moonSinTerm (lin t)) (s t)).1) (d2r * (l.foldl (moonSinTerm (lin t)) (s t)).2) t := by
  induction l with
  | nil => intro s hs; exact hs
  | cons k l ih =>
    intro s hs
    refine ih (fun t => moonSinTerm (lin t) (s t) k) ?_
    exact (hs.add ((theta_deriv k t).sin.const_mul k.c)).congr_deriv (by simp only [moonSinTerm]; ring)

private theorem cos_fold (l : List MoonTerm) (t : ℝ) : ∀ s : ℝ → ℝ × ℝ, HasDerivAt (fun t => (s t).1) (d2r * (s t).2) t →
    HasDerivAt (fun t => (l.foldl (moonCosTerm (lin t)) (s t)).1) (d2r * (l.foldl (moonCosTerm (lin t)) (s t)).2) t := by
  induction l with
  | nil => intro s hs; exact hs
  | cons k l ih =>
    intro s hs
    refine ih (fun t => moonCosTerm (lin t) (s t) k) ?_
    exact (hs.add ((theta_deriv k t).cos.const_mul k.c)).congr_deriv (by simp only [moonCosTerm]; ring)

private def sph (t : ℝ) : SphericalPV := moonSpherical (lin t)

private def parallax (t : ℝ) : ℝ := ((moonP.reverse.foldl (moonCosTerm (lin t)) (0, 0)).1 + 0.950724) * d2r

private theorem sph_bounds (t : ℝ) : 0.01533 ≤ parallax t ∧ parallax t ≤ 0.01786 ∧ 0.01532 ≤ Real.sin (parallax t) ∧
    0.00238 ≤ (sph t).dist ∧ (sph t).dist ≤ 0.00279 ∧ |(sph t).ddist| ≤ 6.9e-10 := by
  obtain ⟨d1, d2⟩ := d2r_bounds
  have e : moonP.reverse.foldl (moonCosTerm (lin t)) (0, 0) = ((moonP.map fun k => k.c * Real.cos (k.theta (lin t))).sum,
      -(moonP.map fun k => k.c * Real.sin (k.theta (lin t)) * k.thetad).sum) := by
    simp only [moonP, List.reverse_cons, List.reverse_nil, List.nil_append, List.cons_append, List.foldl, moonCosTerm,
      List.map, List.sum_cons, List.sum_nil]
    ext <;> dsimp only <;> ring
  have hc : ∀ x, |Real.cos x| ≤ 1 := Real.abs_cos_le_one
  have hs : ∀ x, |Real.sin x| ≤ 1 := Real.abs_sin_le_one
  have h1 : |(moonP.reverse.foldl (moonCosTerm (lin t)) (0, 0)).1| ≤ 0.072016 := by
    rw [e]
    simp only [moonP, List.map, List.sum_cons, List.sum_nil, MoonTerm.c]
    have a1 := abs_le.mp (hc (MoonTerm.theta ⟨51818, 0, 1, 0, 0, 0⟩ (lin t)))
    have a2 := abs_le.mp (hc (MoonTerm.theta ⟨9531, 0, -1, 2, 0, 0⟩ (lin t)))
    have a3 := abs_le.mp (hc (MoonTerm.theta ⟨7843, 0, 0, 2, 0, 0⟩ (lin t)))
    have a4 := abs_le.mp (hc (MoonTerm.theta ⟨2824, 0, 2, 0, 0, 0⟩ (lin t)))
    rw [abs_le]
    constructor <;> norm_num <;> linarith [a1.1, a1.2, a2.1, a2.2, a3.1, a3.2, a4.1, a4.2]
  have h2 : |(moonP.reverse.foldl (moonCosTerm (lin t)) (0, 0)).2| ≤ 384 := by
    rw [e]
    simp only [moonP, List.map, List.sum_cons, List.sum_nil, MoonTerm.c, MoonTerm.thetad]
    have a1 := abs_le.mp (hs (MoonTerm.theta ⟨51818, 0, 1, 0, 0, 0⟩ (lin t)))
    have a2 := abs_le.mp (hs (MoonTerm.theta ⟨9531, 0, -1, 2, 0, 0⟩ (lin t)))
    have a3 := abs_le.mp (hs (MoonTerm.theta ⟨7843, 0, 0, 2, 0, 0⟩ (lin t)))
    have a4 := abs_le.mp (hs (MoonTerm.theta ⟨2824, 0, 2, 0, 0, 0⟩ (lin t)))
    rw [abs_le]
    constructor <;> norm_num <;> linarith [a1.1, a1.2, a2.1, a2.2, a3.1, a3.2, a4.1, a4.2]
  set vp := moonP.reverse.foldl (moonCosTerm (lin t)) (0, 0) with hvp
  have hpar : parallax t = (vp.1 + 0.950724) * d2r := rfl
  have hp1 : 0.01533 ≤ parallax t := by
    rw [hpar]; have := (abs_le.mp h1).1; clear * - this d1; nlinarith
  have hp2 : parallax t ≤ 0.01786 := by
    rw [hpar]; have := (abs_le.mp h1).2; have h0 := (abs_le.mp h1).1; clear * - this d2 d1 h0; nlinarith
  have hs1 : Real.sin (parallax t) ≤ 0.01786 := (Real.sin_le (by linarith)).trans hp2
  have hs2 : 0.01532 ≤ Real.sin (parallax t) := by
    have := Real.sin_gt_sub_cube (by linarith : 0 < parallax t)
    have h3 : parallax t ^ 3 ≤ 0.01786 ^ 3 := pow_le_pow_left₀ (by linarith) hp2 3
    norm_num at h3 ⊢; linarith
  have hdist : (sph t).dist = 4.2635212653763e-5 / Real.sin (parallax t) := rfl
  have hD1 : 0.00238 ≤ (sph t).dist := by
    rw [hdist, le_div_iff₀ (by linarith)]; norm_num at hs1 ⊢; linarith
  have hD2 : (sph t).dist ≤ 0.00279 := by
    rw [hdist, div_le_iff₀ (by linarith)]; norm_num at hs2 ⊢; linarith
  refine ⟨hp1, hp2, hs2, hD1, hD2, ?_⟩
  have e : (sph t).ddist = -((sph t).dist * (vp.2 * moonRate)) / Real.sin (parallax t) := by
    have : (sph t).ddist = -(sph t).dist * (vp.2 * moonRate) / Real.sin (parallax t) := rfl
    rw [this]; ring
  rw [e, abs_div, abs_neg, abs_of_pos (by linarith : 0 < Real.sin (parallax t)), div_le_iff₀ (by linarith)]
  have hD : |(sph t).dist| ≤ 0.00279 := by rw [abs_of_nonneg (by linarith)]; exact hD2
  have hr : |moonRate| ≤ 0.017454 ^ 2 / (86400 * 365.25) := by
    have : 0 ≤ moonRate := by rw [moonRate]; positivity
    rw [abs_of_nonneg this, moonRate]
    have := pow_le_pow_left₀ (by linarith) d2.le 2
    exact div_le_div_of_nonneg_right this (by norm_num)
  have := abs_mul_le' hD (abs_mul_le' h2 hr)
  norm_num at this hs2 ⊢
  linarith

private theorem sph_deriv (t : ℝ) :
    HasDerivAt (fun t => (sph t).long) (31557600 * (sph t).dlong) t ∧
    HasDerivAt (fun t => (sph t).lat) (31557600 * (sph t).dlat) t ∧
    HasDerivAt (fun t => (sph t).dist) (31557600 * ((sph t).ddist * Real.cos (parallax t))) t := by
  have hl := fun l => sin_fold l t (fun _ => (0, 0)) (by simpa using hasDerivAt_const t (0 : ℝ))
  have hc := cos_fold moonP.reverse t (fun _ => (0, 0)) (by simpa using hasDerivAt_const t (0 : ℝ))
  have hd : d2r ≠ 0 := by have := d2r_bounds.1; intro h; rw [h] at this; norm_num at this
  have hp : Real.sin (parallax t) ≠ 0 := by have := (sph_bounds t).2.2.1; intro h; rw [h] at this; norm_num at this
  refine ⟨?_, ?_, ?_⟩
  · refine (((hl moonL.reverse).mul_const d2r).add (lin_deriv 270.434164 4812.678831 t)).congr_deriv ?_
    simp only [sph, moonSpherical, moonRate]
    field_simp
    ring
  · refine ((hl moonB.reverse).mul_const d2r).congr_deriv ?_
    simp only [sph, moonSpherical, moonRate]
    ring
  · have h1 := ((hc.add_const 0.950724).mul_const d2r).sin
    have h2 := (hasDerivAt_const t (4.2635212653763e-5 : ℝ)).div h1 hp
    refine h2.congr_deriv ?_
    simp only [sph, moonSpherical, moonRate, parallax]
    rw [parallax] at hp
    field_simp
    ring

private theorem len_pos (s : SphericalPV) (h : 0 ≤ s.dist) : len (ds2c6 s).pos = s.dist := by
  have hs := Real.sin_sq_add_cos_sq s.lat
  have hl := Real.sin_sq_add_cos_sq s.long
  rw [← abs_of_nonneg (len_nonneg (ds2c6 s).pos), ← abs_of_nonneg h, ← sq_eq_sq_iff_abs_eq_abs, len_sq]
  simp only [ds2c6, dotProduct, Fin.sum_univ_three]
  simp
  linear_combination (s.dist ^ 2) * hs + (s.dist ^ 2 * Real.cos s.lat ^ 2) * hl

private theorem dot_pos (s : SphericalPV) : (ds2c6 s).pos ⬝ᵥ (ds2c6 s).vel = s.dist * s.ddist := by
  have hs := Real.sin_sq_add_cos_sq s.lat
  have hl := Real.sin_sq_add_cos_sq s.long
  simp only [ds2c6, dotProduct, Fin.sum_univ_three]
  simp
  linear_combination (s.dist * s.ddist) * hs + (s.dist * Real.cos s.lat * (Real.cos s.lat * s.ddist - s.dist * s.dlat * Real.sin s.lat)) * hl

private theorem equator_len (t : ℝ) (v : Vec) : len (moonEquator t v) = len v := by
  rw [len, len]
  congr 1
  have hs := Real.sin_sq_add_cos_sq (d2r * (23.45229 - 0.00013 * t))
  simp only [moonEquator, dotProduct, Fin.sum_univ_three]
  simp
  linear_combination (v 1 ^ 2 + v 2 ^ 2) * hs

private theorem equator_dot (t : ℝ) (u v : Vec) : moonEquator t u ⬝ᵥ moonEquator t v = u ⬝ᵥ v := by
  have hs := Real.sin_sq_add_cos_sq (d2r * (23.45229 - 0.00013 * t))
  simp only [moonEquator, dotProduct, Fin.sum_univ_three]
  simp
  linear_combination (u 1 * v 1 + u 2 * v 2) * hs

private theorem ecl_deriv (t : ℝ) (i : Fin 3) : HasDerivAt (fun t => (ds2c6 (sph t)).pos i)
    (31557600 * ((ds2c6 (sph t)).vel i + ((Real.cos (parallax t) - 1) * (sph t).ddist) *
      direction (sph t).long (sph t).lat i)) t := by
  obtain ⟨h1, h2, h3⟩ := sph_deriv t
  obtain ⟨-, hv⟩ := C26_ds2c6 _ _ _ t _ _ _ h1 h2 h3
  have hpos : (fun t => (ds2c6 (sph t)).pos i) = fun t => ((sph t).dist • direction (sph t).long (sph t).lat) i := by
    funext t
    rw [direction_eq]
    fin_cases i <;> simp [ds2c6] <;> ring
  rw [hpos]
  refine ((hasDerivAt_pi.mp hv) i).congr_deriv ?_
  rw [direction_eq]
  fin_cases i <;> simp [ds2c6] <;> ring

/-- For every year, day and fraction: the Moon's distance is between 0.00238 and 0.00279 AU, and the returned velocity is
    the derivative per second of the returned position to within 1.2e-13 AU per second (2 centimetres per second, against
    a speed of a kilometre per second). -/
theorem C66_moon (year day : ℤ) (f : ℝ) :
    0.00238 ≤ len (moon year day f).pos ∧ len (moon year day f).pos ≤ 0.00279 ∧
    ∃ p' : Vec, (∀ i, HasDerivAt (fun f => (moon year day f).pos i) (86400 * p' i) f) ∧
      len (p' - (moon year day f).vel) ≤ 1.2e-13 := by
  set t := yearsSince1900 year day f with ht
  obtain ⟨hp1, hp2, hs2, hD1, hD2, hrd⟩ := sph_bounds t
  obtain ⟨d1, d2⟩ := d2r_bounds
  have hm : ∀ f, (moon year day f).pos = moonEquator (yearsSince1900 year day f) (ds2c6 (sph (yearsSince1900 year day f))).pos :=
    fun f => by rw [moon_eq]; rfl
  have hmv : (moon year day f).vel = moonEquator t (ds2c6 (sph t)).vel := by rw [moon_eq]; rfl
  have hlp : len (ds2c6 (sph t)).pos = (sph t).dist := len_pos _ (by linarith)
  refine ⟨by rw [hm, equator_len, ← ht, hlp]; exact hD1, by rw [hm, equator_len, ← ht, hlp]; exact hD2, ?_⟩
  set k := (Real.cos (parallax t) - 1) * (sph t).ddist with hk
  set n := direction (sph t).long (sph t).lat with hn
  set x := (ds2c6 (sph t)).pos with hx
  set v := (ds2c6 (sph t)).vel with hv
  set e := d2r * (23.45229 - 0.00013 * t) with he
  set w : Vec := ![0, x 1 * Real.sin e + x 2 * Real.cos e, -(x 1 * Real.cos e - x 2 * Real.sin e)] with hw
  set ε := d2r * 0.00013 / 31557600 with hε
  have heps : HasDerivAt (fun t => d2r * (23.45229 - 0.00013 * t)) (-(31557600 * ε)) t := by
    have := (((hasDerivAt_id t).const_mul 0.00013).const_sub 23.45229).const_mul d2r
    exact this.congr_deriv (by rw [hε]; ring)
  have hd := ecl_deriv t
  refine ⟨moonEquator t (v + k • n) + ε • w, fun i => ?_, ?_⟩
  · have key : HasDerivAt (fun t => moonEquator t (ds2c6 (sph t)).pos i)
        (31557600 * (moonEquator t (v + k • n) + ε • w) i) t := by
      have s1 := heps.sin
      have c1 := heps.cos
      fin_cases i
      · exact (hd 0).congr_deriv (by simp [moonEquator, hw, hk, hn]; try ring)
      · exact (((hd 1).mul c1).sub ((hd 2).mul s1)).congr_deriv
          (by simp [moonEquator, hw, hk, hn, hx, hv, he]; ring)
      · exact (((hd 1).mul s1).add ((hd 2).mul c1)).congr_deriv
          (by simp [moonEquator, hw, hk, hn, hx, hv, he]; ring)
    have hf : (fun f => (moon year day f).pos i) = (fun t => moonEquator t (ds2c6 (sph t)).pos i) ∘
        fun f => yearsSince1900 year day f := by
      funext f; rw [hm]; rfl
    rw [hf]
    exact (key.comp f (years_fraction year day f)).congr_deriv (by ring)
  · have hlin : moonEquator t (v + k • n) = moonEquator t v + k • moonEquator t n := by
      funext i; fin_cases i <;> simp [moonEquator] <;> ring
    rw [hmv, hlin, show moonEquator t v + k • moonEquator t n + ε • w - moonEquator t v = k • moonEquator t n + ε • w by abel]
    refine (len_add_le _ _).trans ?_
    rw [len_smul, len_smul, equator_len, hn, len_direction, mul_one]
    have lw : len w ≤ 0.00279 := by
      refine le_trans (le_of_sq_le_sq ?_ (len_nonneg _)) (hlp.le.trans hD2)
      have hs := Real.sin_sq_add_cos_sq e
      rw [len_sq, len_sq, hw]
      simp only [dotProduct, Fin.sum_univ_three]
      simp
      nlinarith [sq_nonneg (x 0)]
    have hc : |Real.cos (parallax t) - 1| ≤ 0.01786 ^ 2 / 2 := by
      have h1 := Real.one_sub_sq_div_two_le_cos (x := parallax t)
      have h2 := Real.cos_le_one (parallax t)
      have h3 : parallax t ^ 2 ≤ 0.01786 ^ 2 := pow_le_pow_left₀ (by linarith) hp2 2
      rw [abs_le]; constructor <;> linarith
    have m1 := abs_mul_le' hc hrd
    have he1 : |ε| ≤ 0.017454 * 0.00013 / 31557600 := by
      rw [abs_of_nonneg (by rw [hε]; positivity), hε]
      have : d2r * 0.00013 ≤ 0.017454 * 0.00013 := by linarith
      linarith
    have m2 : |ε| * len w ≤ 0.017454 * 0.00013 / 31557600 * 0.00279 := mul_le_mul he1 lw (len_nonneg _) (by norm_num)
    rw [← hk] at m1
    refine (add_le_add m1 m2).trans (by norm_num)

/-- The exact size of the radial part of that difference: the rate of the distance is the radial velocity times the cosine
    of the parallax (which the code leaves out), the sine of the parallax being the Earth's radius over the distance. -/
theorem C66_radial (year day : ℤ) (f : ℝ) :
    HasDerivAt (fun f => len (moon year day f).pos)
      (86400 * (((moon year day f).pos ⬝ᵥ (moon year day f).vel) / len (moon year day f).pos *
        √(1 - (4.2635212653763e-5 / len (moon year day f).pos) ^ 2))) f := by
  have hm : ∀ f, len (moon year day f).pos = (sph (yearsSince1900 year day f)).dist := fun f => by
    rw [moon_eq]
    have := (sph_bounds (yearsSince1900 year day f)).2.2.2.1
    exact (equator_len _ _).trans (len_pos _ (by change 0 ≤ (sph (yearsSince1900 year day f)).dist; linarith))
  set t := yearsSince1900 year day f with ht
  obtain ⟨hp1, hp2, hs2, hD1, hD2, hrd⟩ := sph_bounds t
  have hdot : (moon year day f).pos ⬝ᵥ (moon year day f).vel = (sph t).dist * (sph t).ddist := by
    rw [moon_eq]; exact (equator_dot _ _ _).trans (dot_pos _)
  have hf : (fun f => len (moon year day f).pos) = (fun t => (sph t).dist) ∘ fun f => yearsSince1900 year day f :=
    funext hm
  have hr : 4.2635212653763e-5 / (sph t).dist = Real.sin (parallax t) := by
    have hdist : (sph t).dist = 4.2635212653763e-5 / Real.sin (parallax t) := rfl
    rw [hdist, div_div_cancel₀ (by norm_num)]
  have hc : √(1 - Real.sin (parallax t) ^ 2) = Real.cos (parallax t) := by
    rw [← Real.cos_sq', Real.sqrt_sq]
    refine Real.cos_nonneg_of_mem_Icc ⟨?_, ?_⟩ <;> linarith [Real.pi_gt_three]
  rw [hf, hm, hdot, hr, hc, mul_div_cancel_left₀ _ (by linarith)]
  exact ((sph_deriv t).2.2.comp f (years_fraction year day f)).congr_deriv (by ring)

/-! ### `earth` -/

/-- The true anomaly of the truncated equation of the centre, and its cosine to second order in the eccentricity. -/
private def anom (e m : ℝ) : ℝ := m + 2 * e * Real.sin m + 1.25 * (e * e) * Real.sin (2 * m)

private theorem cos_anom {e : ℝ} (m : ℝ) (h0 : 0 ≤ e) (h1 : e ≤ 0.01684) :
    |Real.cos (anom e m) - (Real.cos m - 2 * e * Real.sin m ^ 2)| ≤ 0.00131 ∧
    |Real.cos (anom e m) - Real.cos m| ≤ 0.0347 := by
  set s := Real.sin m with hs
  set c := Real.cos m with hc
  have s1 : |s| ≤ 1 := Real.abs_sin_le_one m
  have c1 : |c| ≤ 1 := Real.abs_cos_le_one m
  set δ := 2 * e * s + 1.25 * (e * e) * Real.sin (2 * m) with hδ
  have hee : |e| ≤ 0.01684 := by rw [abs_of_nonneg h0]; exact h1
  have hδ1 : |δ| ≤ 0.03404 := by
    have a := abs_mul_le' hee s1
    have b := abs_mul_le' (abs_mul_le' hee hee) (Real.abs_sin_le_one (2 * m))
    rw [abs_le] at a b ⊢
    rw [hδ]
    constructor <;> norm_num at a b ⊢ <;> linarith [a.1, a.2, b.1, b.2]
  have hA : anom e m = m + δ := by rw [anom, hδ]; ring
  have hcos : |Real.cos δ - 1| ≤ 0.03404 ^ 2 / 2 := by
    have h1 := Real.one_sub_sq_div_two_le_cos (x := δ)
    have h2 := Real.cos_le_one δ
    have h3 : δ ^ 2 ≤ 0.03404 ^ 2 := sq_le_sq.mpr (by rw [abs_of_pos (by norm_num : (0 : ℝ) < 0.03404)]; exact hδ1)
    rw [abs_le]; constructor <;> linarith
  have hsin : |Real.sin δ - δ| ≤ 0.03404 ^ 3 / 4 := by
    have h1 := Real.sin_bound (x := δ) (by linarith)
    have h4 : |δ| ^ 5 ≤ 0.03404 ^ 5 := pow_le_pow_left₀ (abs_nonneg _) hδ1 5
    have h3 : |δ ^ 3| ≤ 0.03404 ^ 3 := by rw [abs_pow]; exact pow_le_pow_left₀ (abs_nonneg _) hδ1 3
    have h5 : |δ| ^ 5 / 100 ≤ 0.0000001 :=
      (div_le_div_of_nonneg_right h4 (by norm_num)).trans (by norm_num)
    rw [abs_le] at h1 h3 ⊢
    constructor <;> norm_num at h3 ⊢ <;> linarith [h1.1, h1.2, h3.1, h3.2]
  have e1 : Real.cos (anom e m) - (c - 2 * e * s ^ 2) =
      c * (Real.cos δ - 1) + -(s * (Real.sin δ - δ)) + -(2.5 * (e * e * (s * (s * c)))) := by
    rw [hA, Real.cos_add, ← hs, ← hc]
    have : s * δ = 2 * e * s ^ 2 + 2.5 * (e * e * (s * (s * c))) := by
      rw [hδ, Real.sin_two_mul, ← hs, ← hc]; ring
    linear_combination -this
  constructor
  · rw [e1]
    have a := abs_mul_le' c1 hcos
    have b := abs_mul_le' s1 hsin
    have d := abs_mul_le' (abs_mul_le' hee hee) (abs_mul_le' s1 (abs_mul_le' s1 c1))
    rw [abs_le] at a b d ⊢
    constructor <;> norm_num at a b d ⊢ <;> linarith [a.1, a.2, b.1, b.2, d.1, d.2]
  · rw [show Real.cos (anom e m) - c = c * (Real.cos δ - 1) + -(s * Real.sin δ) by rw [hA, Real.cos_add]; ring]
    have hsd : |Real.sin δ| ≤ 0.03405 := by
      rw [abs_le] at hsin hδ1 ⊢
      constructor <;> norm_num at hsin hδ1 ⊢ <;> linarith [hsin.1, hsin.2, hδ1.1, hδ1.2]
    have a := abs_mul_le' c1 hcos
    have b := abs_mul_le' s1 hsd
    rw [abs_le] at a b ⊢
    constructor <;> norm_num at a b ⊢ <;> linarith [a.1, a.2, b.1, b.2]

/-- The area law, to third order in the eccentricity: with the rate of the mean anomaly `n`, the rate of the true anomaly
    times one less the squared eccentricity, against the orbital speed times the square of 1 + e cos v. -/
private theorem area_law {e : ℝ} (m n S : ℝ) (h0 : 0.01666 ≤ e) (h1 : e ≤ 0.01684) (hn : |n - 6.28302| ≤ 0.000001)
    (hS : |S - 6.284065| ≤ 0.000001) :
    |(1 - e * e) * (n * (1 + 2 * e * Real.cos m + 2.5 * (e * e) * Real.cos (2 * m))) -
      S * (1 + e * Real.cos (anom e m)) ^ 2| ≤ 0.0007 ∧
    |(1 - e * e) * (n * (1 + 2 * e * Real.cos m + 2.5 * (e * e) * Real.cos (2 * m)) + 3.0005e-4) -
      S * (1 + e * Real.cos (anom e m)) ^ 2| ≤ 0.0007 := by
  obtain ⟨r1, r2⟩ := cos_anom m (by linarith) h1
  set C := Real.cos (anom e m) with hC
  set c := Real.cos m with hc
  have hs2 : Real.sin m ^ 2 = 1 - c ^ 2 := Real.sin_sq m
  rw [hs2] at r1
  rw [Real.cos_two_mul, ← hc]
  have c1 : |c| ≤ 1 := Real.abs_cos_le_one m
  have C1 : |C| ≤ 1 := Real.abs_cos_le_one _
  set ρ := C - (c - 2 * e * (1 - c ^ 2)) with hρ
  have hee : |e| ≤ 0.01684 := by rw [abs_of_nonneg (by linarith)]; exact h1
  have hSa : |S| ≤ 6.29 := by rw [abs_le] at hS ⊢; constructor <;> linarith [hS.1, hS.2]
  have hna : |n| ≤ 6.29 := by rw [abs_le] at hn ⊢; constructor <;> linarith [hn.1, hn.2]
  have hnS : |n - S| ≤ 0.001065 := by
    rw [abs_le] at hn hS ⊢; constructor <;> linarith [hn.1, hn.2, hS.1, hS.2]
  have t1 := abs_mul_le' (abs_mul_le' hee hSa) r1
  have t2 := abs_mul_le' (abs_mul_le' (abs_mul_le' hee hee) hSa) (abs_mul_le' r2 ((abs_add_le C c).trans (add_le_add C1 c1)))
  have t3 := abs_mul_le' (abs_mul_le' hna (abs_mul_le' (abs_mul_le' hee hee) hee)) c1
  have hc2 : |5 * c ^ 2 - 2.5| ≤ 2.5 := by
    have := sq_nonneg c
    have h2 : c ^ 2 ≤ 1 := by rw [← sq_abs]; exact pow_le_one₀ (abs_nonneg _) c1
    rw [abs_le]; constructor <;> linarith
  have t4 := abs_mul_le' (abs_mul_le' hna (abs_mul_le' (abs_mul_le' hee hee) (abs_mul_le' hee hee))) hc2
  have t5 := abs_mul_le' hnS (abs_mul_le' hee c1)
  have t6 := abs_mul_le' hnS (abs_mul_le' (abs_mul_le' hee hee) hc2)
  have q1 : 0.01666 ^ 2 ≤ e * e := by rw [sq]; exact mul_self_le_mul_self (by norm_num) h0
  have q2 : e * e ≤ 0.01684 ^ 2 := by rw [sq]; exact mul_self_le_mul_self (by linarith) h1
  -- constant part
  have k1 : -0.000194 ≤ (n - S) + (e * e) * (4 * S - 3.5 * n + 2.5 * (n - S)) ∧
      (n - S) + (e * e) * (4 * S - 3.5 * n + 2.5 * (n - S)) ≤ -0.000133 := by
    rw [abs_le] at hn hS
    obtain ⟨n1, n2⟩ := hn
    obtain ⟨S1, S2⟩ := hS
    have w1 : 3.1399 ≤ 4 * S - 3.5 * n + 2.5 * (n - S) := by linarith
    have w2 : 4 * S - 3.5 * n + 2.5 * (n - S) ≤ 3.1435 := by linarith
    have p1 : 0.01666 ^ 2 * 3.1399 ≤ (e * e) * (4 * S - 3.5 * n + 2.5 * (n - S)) :=
      mul_le_mul q1 w1 (by norm_num) (by positivity)
    have p2 : (e * e) * (4 * S - 3.5 * n + 2.5 * (n - S)) ≤ 0.01684 ^ 2 * 3.1435 :=
      mul_le_mul q2 w2 (by linarith) (by norm_num)
    norm_num at p1 p2 n1 n2 S1 S2
    constructor <;> norm_num <;> linarith
  have e0 : (1 - e * e) * (n * (1 + 2 * e * c + 2.5 * (e * e) * (2 * c ^ 2 - 1))) - S * (1 + e * C) ^ 2 =
      ((n - S) + (e * e) * (4 * S - 3.5 * n + 2.5 * (n - S))) + 2 * ((n - S) * (e * c)) +
      (n - S) * (e * e * (5 * c ^ 2 - 2.5)) - 2 * (e * S * ρ) - e * e * S * ((C - c) * (C + c)) -
      2 * (n * (e * e * e) * c) - n * (e * e * (e * e)) * (5 * c ^ 2 - 2.5) := by
    rw [hρ]; ring
  have e1 : (1 - e * e) * (n * (1 + 2 * e * c + 2.5 * (e * e) * (2 * c ^ 2 - 1)) + 3.0005e-4) - S * (1 + e * C) ^ 2 =
      (1 - e * e) * (n * (1 + 2 * e * c + 2.5 * (e * e) * (2 * c ^ 2 - 1))) - S * (1 + e * C) ^ 2 +
      (1 - e * e) * 3.0005e-4 := by ring
  rw [e1, e0]
  rw [abs_le] at t1 t2 t3 t4 t5 t6
  clear * - t1 t2 t3 t4 t5 t6 k1 q1 q2
  obtain ⟨k1, k2⟩ := k1
  constructor <;> rw [abs_le] <;> constructor <;> norm_num at * <;>
    linarith [t1.1, t1.2, t2.1, t2.2, t3.1, t3.2, t4.1, t4.2, t5.1, t5.2, t6.1, t6.2]

private def ecc (t : ℝ) : ℝ := 0.016751 - 4.2e-7 * t
private def peri (t : ℝ) : ℝ := 4.908230 + 3.0005e-4 * t
private def mean (t : ℝ) : ℝ := 4.881628 + 2 * π * t + 0.00013420 * t - peri t
private def true (t : ℝ) : ℝ := anom (ecc t) (mean t)
private def rad (t : ℝ) : ℝ := (1 - ecc t * ecc t) / (1 + ecc t * Real.cos (true t))
private def obl (t : ℝ) : ℝ := 0.40931975 - 2.27e-6 * t
private def lun (t : ℝ) : ℝ := 4.72 + 83.9971 * t

private theorem earthT_eq (t : ℝ) : earthT t =
    ⟨![-rad t * Real.cos (true t + peri t) - 3.12e-5 * Real.cos (lun t),
       (-rad t * Real.sin (true t + peri t) - 3.12e-5 * Real.sin (lun t)) * Real.cos (obl t),
       -rad t * Real.sin (true t + peri t) * Real.sin (obl t)],
     ![1.9913e-7 * (Real.sin (true t + peri t) + ecc t * Real.sin (peri t)) + 8.31e-11 * Real.sin (lun t),
       (-1.9913e-7 * (Real.cos (true t + peri t) + ecc t * Real.cos (peri t)) - 8.31e-11 * Real.cos (lun t)) * Real.cos (obl t),
       -1.9913e-7 * (Real.cos (true t + peri t) + ecc t * Real.cos (peri t)) * Real.sin (obl t)]⟩ := rfl

private theorem ecc_bounds {t : ℝ} (ht : |t| ≤ 200) : 0.01666 ≤ ecc t ∧ ecc t ≤ 0.01684 := by
  rw [abs_le] at ht
  simp only [ecc]
  constructor <;> norm_num <;> linarith [ht.1, ht.2]

private theorem lin_deriv' (a b t : ℝ) : HasDerivAt (fun t => a + b * t) b t := by
  simpa using ((hasDerivAt_id t).const_mul b).const_add a

private theorem ecc_deriv (t : ℝ) : HasDerivAt ecc (-4.2e-7) t :=
  ((((hasDerivAt_id t).const_mul 4.2e-7)).const_sub 0.016751).congr_deriv (by norm_num)

private theorem obl_deriv (t : ℝ) : HasDerivAt obl (-2.27e-6) t :=
  ((((hasDerivAt_id t).const_mul 2.27e-6)).const_sub 0.40931975).congr_deriv (by norm_num)

private def nn : ℝ := 2 * π + 0.00013420 - 3.0005e-4

private theorem mean_deriv (t : ℝ) : HasDerivAt mean nn t := by
  have := (((lin_deriv' 4.881628 (2 * π) t).add ((hasDerivAt_id t).const_mul 0.00013420))).sub (lin_deriv' 4.908230 3.0005e-4 t)
  exact this.congr_deriv (by simp only [nn]; ring)

private def trueRate (t : ℝ) : ℝ :=
  nn * (1 + 2 * ecc t * Real.cos (mean t) + 2.5 * (ecc t * ecc t) * Real.cos (2 * mean t)) +
    -4.2e-7 * (2 * Real.sin (mean t) + 2.5 * ecc t * Real.sin (2 * mean t))

private theorem true_deriv (t : ℝ) : HasDerivAt true (trueRate t) t := by
  have he := ecc_deriv t
  have hm := mean_deriv t
  have := (hm.add ((he.const_mul 2).mul hm.sin)).add (((he.mul he).const_mul 1.25).mul (hm.const_mul 2).sin)
  refine this.congr_deriv ?_
  simp only [trueRate, Pi.mul_apply]
  ring

private def radRate (t : ℝ) : ℝ :=
  ((1 - ecc t * ecc t) * trueRate t * (ecc t * Real.sin (true t)) + 4.2e-7 * (2 * ecc t * (1 + ecc t * Real.cos (true t)) +
    (1 - ecc t * ecc t) * Real.cos (true t))) / (1 + ecc t * Real.cos (true t)) ^ 2

private theorem den_pos {t : ℝ} (ht : |t| ≤ 200) : 0.983 ≤ 1 + ecc t * Real.cos (true t) ∧
    1 + ecc t * Real.cos (true t) ≤ 1.017 := by
  obtain ⟨h1, h2⟩ := ecc_bounds ht
  have := abs_mul_le' (by rw [abs_of_nonneg (by linarith)]; exact h2 : |ecc t| ≤ 0.01684) (Real.abs_cos_le_one (true t))
  rw [abs_le] at this
  constructor <;> linarith [this.1, this.2]

private theorem rad_deriv {t : ℝ} (ht : |t| ≤ 200) : HasDerivAt rad (radRate t) t := by
  have he := ecc_deriv t
  have hv := true_deriv t
  have hd : 1 + ecc t * Real.cos (true t) ≠ 0 := by have := (den_pos ht).1; intro h; rw [h] at this; norm_num at this
  have := ((he.mul he).const_sub 1).div ((he.mul hv.cos).const_add 1) hd
  refine this.congr_deriv ?_
  simp only [radRate, Pi.mul_apply]
  rw [div_left_inj' (pow_ne_zero 2 hd)]
  ring

/-- The rates of distance and longitude against the Keplerian ones. -/
private theorem rates {t : ℝ} (ht : |t| ≤ 200) :
    |radRate t - 1.9913e-7 * 31557600 * ecc t * Real.sin (true t)| ≤ 0.00002 ∧
    |rad t * (trueRate t + 3.0005e-4) - 1.9913e-7 * 31557600 * (1 + ecc t * Real.cos (true t))| ≤ 0.000715 := by
  obtain ⟨h1, h2⟩ := ecc_bounds ht
  obtain ⟨D1, D2⟩ := den_pos ht
  have hn : |nn - 6.28302| ≤ 0.000001 := by
    have p1 := Real.pi_gt_d20
    have p2 := Real.pi_lt_d20
    simp only [nn]
    rw [abs_le]; constructor <;> norm_num at p1 p2 ⊢ <;> linarith
  obtain ⟨a1, a2⟩ := area_law (mean t) nn (1.9913e-7 * 31557600) h1 h2 hn (by norm_num [abs_le])
  have ht' : anom (ecc t) (mean t) = true t := rfl
  rw [ht'] at a1 a2
  set S : ℝ := 1.9913e-7 * 31557600 with hS
  set e := ecc t
  set v := true t
  set D := 1 + e * Real.cos v with hD
  set u := 2 * Real.sin (mean t) + 2.5 * e * Real.sin (2 * mean t) with hu
  have hu1 : |u| ≤ 2.1 := by
    have b1 := abs_le.mp (Real.abs_sin_le_one (mean t))
    have b2 := abs_mul_le' (by rw [abs_of_nonneg (by linarith)]; exact h2 : |e| ≤ 0.01684) (Real.abs_sin_le_one (2 * mean t))
    rw [abs_le] at b2 ⊢
    rw [hu]
    constructor <;> norm_num at b2 ⊢ <;> linarith [b1.1, b1.2, b2.1, b2.2]
  have ev : trueRate t = nn * (1 + 2 * e * Real.cos (mean t) + 2.5 * (e * e) * Real.cos (2 * mean t)) + -4.2e-7 * u := rfl
  set w := nn * (1 + 2 * e * Real.cos (mean t) + 2.5 * (e * e) * Real.cos (2 * mean t)) with hw
  have hee : |e| ≤ 0.01684 := by rw [abs_of_nonneg (by linarith)]; exact h2
  have h1e : |1 - e * e| ≤ 1 := by
    have := mul_self_nonneg e
    have h3 : e * e ≤ 0.01684 * 0.01684 := mul_self_le_mul_self (by linarith) h2
    rw [abs_le]; constructor <;> norm_num at h3 ⊢ <;> linarith
  have q := abs_mul_le' h1e hu1
  have hDD : 0.966 ≤ D ^ 2 := by
    have := pow_le_pow_left₀ (by norm_num) D1 2
    norm_num at this ⊢; linarith
  constructor
  · have er : radRate t = ((1 - e * e) * trueRate t * (e * Real.sin v) + 4.2e-7 * (2 * e * D + (1 - e * e) * Real.cos v)) / D ^ 2 := rfl
    rw [er, ev, show ((1 - e * e) * (w + -4.2e-7 * u) * (e * Real.sin v) + 4.2e-7 * (2 * e * D + (1 - e * e) * Real.cos v)) / D ^ 2 -
        S * e * Real.sin v = (((1 - e * e) * w - S * D ^ 2 + -(4.2e-7 * ((1 - e * e) * u))) * (e * Real.sin v) +
          4.2e-7 * (2 * (e * D) + (1 - e * e) * Real.cos v)) / D ^ 2 by
      have : D ^ 2 ≠ 0 := by positivity
      field_simp
      ring, abs_div, abs_of_pos (by linarith : (0 : ℝ) < D ^ 2), div_le_iff₀ (by linarith)]
    have x1 : |(1 - e * e) * w - S * D ^ 2 + -(4.2e-7 * ((1 - e * e) * u))| ≤ 0.000702 := by
      rw [abs_le] at a1 q ⊢
      constructor <;> norm_num at a1 q ⊢ <;> linarith [a1.1, a1.2, q.1, q.2]
    have x2 := abs_mul_le' x1 (abs_mul_le' hee (Real.abs_sin_le_one v))
    have x3 := abs_mul_le' hee (by rw [abs_of_nonneg (by linarith)]; exact D2 : |D| ≤ 1.017)
    have x4 := abs_mul_le' h1e (Real.abs_cos_le_one v)
    rw [abs_le] at x2 x3 x4 ⊢
    clear * - x2 x3 x4 hDD
    constructor <;> norm_num at * <;> linarith [x2.1, x2.2, x3.1, x3.2, x4.1, x4.2]
  · have er : rad t = (1 - e * e) / D := rfl
    rw [er, ev, show (1 - e * e) / D * (w + -4.2e-7 * u + 3.0005e-4) - S * D =
        ((1 - e * e) * (w + 3.0005e-4) - S * D ^ 2 + -(4.2e-7 * ((1 - e * e) * u))) / D by
      have : D ≠ 0 := by positivity
      field_simp
      ring, abs_div, abs_of_pos (by linarith : (0 : ℝ) < D), div_le_iff₀ (by linarith)]
    rw [abs_le] at a2 q ⊢
    clear * - a2 q D1
    constructor <;> norm_num at * <;> linarith [a2.1, a2.2, q.1, q.2]

private theorem vec_len (x y z : ℝ) : len ![x, y, z] = Real.sqrt (x ^ 2 + y ^ 2 + z ^ 2) := by
  rw [len]; congr 1; simp [dotProduct, Fin.sum_univ_three]; ring

private theorem vec_len_le {x y z L : ℝ} (hL : 0 ≤ L) (h : x ^ 2 + y ^ 2 + z ^ 2 ≤ L ^ 2) : len ![x, y, z] ≤ L := by
  rw [vec_len]; exact (Real.sqrt_le_sqrt h).trans (by rw [Real.sqrt_sq hL])

private theorem rad_bounds {t : ℝ} (ht : |t| ≤ 200) : 0.98315 ≤ rad t ∧ rad t ≤ 1.01685 := by
  obtain ⟨h1, h2⟩ := ecc_bounds ht
  obtain ⟨D1, D2⟩ := den_pos ht
  have hc := abs_le.mp (Real.abs_cos_le_one (true t))
  rw [rad, le_div_iff₀ (by linarith), div_le_iff₀ (by linarith)]
  constructor <;> nlinarith [hc.1, hc.2]

set_option maxHeartbeats 2000000 in
/-- From 1700 to 2100 (in Julian years within 200 of J1900.0): the Earth's distance from the Sun is between 0.983 and
    1.017 AU, its speed between 1.956e-7 and 2.026e-7 AU per second, and the velocity is the derivative of the position to
    within 2.5e-11 AU per second, or 3.8 metres per second. -/
theorem C67_earth (year day : ℤ) (f : ℝ) (h : |(year : ℝ) - 1900 + (day + f) / 365.25| ≤ 199.9) :
    0.983 ≤ len (earth year day f).pos ∧ len (earth year day f).pos ≤ 1.017 ∧
    1.956e-7 ≤ len (earth year day f).vel ∧ len (earth year day f).vel ≤ 2.026e-7 ∧
    ∃ p' : Vec, (∀ i, HasDerivAt (fun f => (earth year day f).pos i) (86400 * p' i) f) ∧
      len (p' - (earth year day f).vel) ≤ 2.5e-11 := by
  have ht : |yearsSince1900 year day f| ≤ 200 := by
    rw [years_eq]
    have e : (((1461 * (year - 1900) + (4 * (day - if year % 4 = 0 then 1 else 0) - year % 4 - 2) : ℤ) : ℝ) + 4 * f) / 1461 =
        ((year : ℝ) - 1900 + (day + f) / 365.25) + ((-4 * (if year % 4 = 0 then 1 else 0) - year % 4 - 2 : ℤ) : ℝ) / 1461 := by
      push_cast; ring
    have b : (-6 : ℤ) ≤ -4 * (if year % 4 = 0 then 1 else 0) - year % 4 - 2 ∧
        -4 * (if year % 4 = 0 then 1 else 0) - year % 4 - 2 ≤ (0 : ℤ) := by
      split_ifs <;> omega
    have b1 : (-6 : ℝ) ≤ ((-4 * (if year % 4 = 0 then 1 else 0) - year % 4 - 2 : ℤ) : ℝ) := by exact_mod_cast b.1
    have b2 : ((-4 * (if year % 4 = 0 then 1 else 0) - year % 4 - 2 : ℤ) : ℝ) ≤ 0 := by exact_mod_cast b.2
    rw [e]
    rw [abs_le] at h ⊢
    constructor <;> linarith [h.1, h.2]
  have hm : ∀ f, earth year day f = earthT (yearsSince1900 year day f) := earth_eq year day
  set t := yearsSince1900 year day f with htdef
  obtain ⟨r1, r2⟩ := rates ht
  obtain ⟨R1, R2⟩ := rad_bounds ht
  obtain ⟨e1, e2⟩ := ecc_bounds ht
  obtain ⟨D1, D2⟩ := den_pos ht
  have hrd := rad_deriv ht
  have hvd := true_deriv t
  have hpd := lin_deriv' 4.908230 3.0005e-4 t
  have hLd : HasDerivAt (fun t => true t + peri t) (trueRate t + 3.0005e-4) t := hvd.add hpd
  have hld : HasDerivAt lun 83.9971 t := lin_deriv' 4.72 83.9971 t
  have hod := obl_deriv t
  set L := true t + peri t with hL
  have gs : Real.sin (peri t) = Real.sin L * Real.cos (true t) - Real.cos L * Real.sin (true t) := by
    rw [← Real.sin_sub, hL, add_sub_cancel_left]
  have gc : Real.cos (peri t) = Real.cos L * Real.cos (true t) + Real.sin L * Real.sin (true t) := by
    rw [← Real.cos_sub, hL, add_sub_cancel_left]
  set D := 1 + ecc t * Real.cos (true t) with hD
  set A := radRate t - 1.9913e-7 * 31557600 * ecc t * Real.sin (true t) with hA
  set T := rad t * (trueRate t + 3.0005e-4) - 1.9913e-7 * 31557600 * D with hT
  have sL := Real.sin_sq_add_cos_sq L
  have sO := Real.sin_sq_add_cos_sq (obl t)
  have sM := Real.sin_sq_add_cos_sq (lun t)
  have sV := Real.sin_sq_add_cos_sq (true t)
  set X1 : Vec := ![-rad t * Real.cos L, -rad t * Real.sin L * Real.cos (obl t), -rad t * Real.sin L * Real.sin (obl t)] with hX1
  set X2 : Vec := ![-3.12e-5 * Real.cos (lun t), -3.12e-5 * Real.sin (lun t) * Real.cos (obl t), 0] with hX2
  have hpos : (earth year day f).pos = X1 + X2 := by
    rw [hm, ← htdef, earthT_eq, hX1, hX2]
    funext i
    fin_cases i <;> simp [← hL] <;> ring
  have lX1 : len X1 = rad t := by
    rw [hX1, vec_len, show (-rad t * Real.cos L) ^ 2 + (-rad t * Real.sin L * Real.cos (obl t)) ^ 2 +
      (-rad t * Real.sin L * Real.sin (obl t)) ^ 2 = rad t ^ 2 by
        linear_combination (rad t ^ 2) * sL + (rad t ^ 2 * Real.sin L ^ 2) * sO, Real.sqrt_sq (by linarith)]
  have hco : Real.cos (obl t) ^ 2 ≤ 1 := by nlinarith [sq_nonneg (Real.sin (obl t))]
  have lX2 : len X2 ≤ 3.12e-5 := by
    rw [hX2]
    refine vec_len_le (by norm_num) ?_
    have : (Real.sin (lun t) * Real.cos (obl t)) ^ 2 ≤ Real.sin (lun t) ^ 2 := by
      rw [mul_pow]; exact mul_le_of_le_one_right (sq_nonneg _) hco
    nlinarith
  set V1 : Vec := ![1.9913e-7 * (D * Real.sin L - ecc t * Real.sin (true t) * Real.cos L),
    -1.9913e-7 * (D * Real.cos L + ecc t * Real.sin (true t) * Real.sin L) * Real.cos (obl t),
    -1.9913e-7 * (D * Real.cos L + ecc t * Real.sin (true t) * Real.sin L) * Real.sin (obl t)] with hV1
  set V2 : Vec := ![8.31e-11 * Real.sin (lun t), -8.31e-11 * Real.cos (lun t) * Real.cos (obl t), 0] with hV2
  have hvel : (earth year day f).vel = V1 + V2 := by
    rw [hm, ← htdef, earthT_eq, hV1, hV2]
    funext i
    fin_cases i <;> simp [-mul_eq_mul_left_iff, -mul_eq_mul_right_iff, ← hL, gs, gc, hD] <;> ring
  have lV1 : len V1 = 1.9913e-7 * Real.sqrt (D ^ 2 + (ecc t * Real.sin (true t)) ^ 2) := by
    rw [hV1, vec_len, show (1.9913e-7 * (D * Real.sin L - ecc t * Real.sin (true t) * Real.cos L)) ^ 2 +
      (-1.9913e-7 * (D * Real.cos L + ecc t * Real.sin (true t) * Real.sin L) * Real.cos (obl t)) ^ 2 +
      (-1.9913e-7 * (D * Real.cos L + ecc t * Real.sin (true t) * Real.sin L) * Real.sin (obl t)) ^ 2 =
      1.9913e-7 ^ 2 * (D ^ 2 + (ecc t * Real.sin (true t)) ^ 2) by
        linear_combination (1.9913e-7 ^ 2 * (D ^ 2 + (ecc t * Real.sin (true t)) ^ 2)) * sL +
          (1.9913e-7 ^ 2 * (D * Real.cos L + ecc t * Real.sin (true t) * Real.sin L) ^ 2) * sO,
      Real.sqrt_mul (by norm_num), Real.sqrt_sq (by norm_num)]
  have lV2 : len V2 ≤ 8.31e-11 := by
    rw [hV2]
    refine vec_len_le (by norm_num) ?_
    have : (Real.cos (lun t) * Real.cos (obl t)) ^ 2 ≤ Real.cos (lun t) ^ 2 := by
      rw [mul_pow]; exact mul_le_of_le_one_right (sq_nonneg _) hco
    nlinarith
  have speed1 : 0.98315 ≤ Real.sqrt (D ^ 2 + (ecc t * Real.sin (true t)) ^ 2) := by
    have hc := abs_le.mp (Real.abs_cos_le_one (true t))
    refine Real.le_sqrt_of_sq_le ?_
    rw [hD]; nlinarith [hc.1, hc.2]
  have speed2 : Real.sqrt (D ^ 2 + (ecc t * Real.sin (true t)) ^ 2) ≤ 1.01685 := by
    have hc := abs_le.mp (Real.abs_cos_le_one (true t))
    have hq : D ^ 2 + (ecc t * Real.sin (true t)) ^ 2 = 1 + 2 * (ecc t * Real.cos (true t)) + ecc t ^ 2 := by
      rw [hD]; linear_combination (ecc t ^ 2) * sV
    have h1 : ecc t * Real.cos (true t) ≤ 0.01685 := by nlinarith [hc.1, hc.2]
    have h2 : ecc t ^ 2 ≤ 0.01685 ^ 2 := by nlinarith
    rw [Real.sqrt_le_left (by norm_num), hq]
    norm_num at h1 h2 ⊢; linarith
  have tri : ∀ u v : Vec, len u - len v ≤ len (u + v) := fun u v => by
    have := len_sub_le (u + v) v
    rw [add_sub_cancel_right] at this; linarith
  refine ⟨?_, ?_, ?_, ?_, ?_⟩
  · rw [hpos]; have := tri X1 X2; rw [lX1] at this; norm_num at lX2 R1 this ⊢; linarith
  · rw [hpos]; have := len_add_le X1 X2; rw [lX1] at this; norm_num at lX2 R2 this ⊢; linarith
  · rw [hvel]; have := tri V1 V2; rw [lV1] at this; norm_num at lV2 speed1 this ⊢; linarith
  · rw [hvel]; have := len_add_le V1 V2; rw [lV1] at this; norm_num at lV2 speed2 this ⊢; linarith
  set Y1 : Vec := ![-A * Real.cos L + T * Real.sin L, (-A * Real.sin L - T * Real.cos L) * Real.cos (obl t),
    (-A * Real.sin L - T * Real.cos L) * Real.sin (obl t)] with hY1
  set Y2 : Vec := ![Real.sin (lun t), -Real.cos (lun t) * Real.cos (obl t), 0] with hY2
  set Y3 : Vec := ![0, (-rad t * Real.sin L - 3.12e-5 * Real.sin (lun t)) * Real.sin (obl t),
    rad t * Real.sin L * Real.cos (obl t)] with hY3
  have key : ∀ i, HasDerivAt (fun t => (earthT t).pos i)
      (31557600 * ((V1 + V2 + (1 / 31557600 : ℝ) • (Y1 + (3.12e-5 * 83.9971 - 8.31e-11 * 31557600 : ℝ) • Y2 + (2.27e-6 : ℝ) • Y3)) i)) t := by
    intro i
    have hs := hLd.sin
    have hc := hLd.cos
    fin_cases i
    · refine (((hrd.neg).mul hc).sub (hld.cos.const_mul 3.12e-5)).congr_deriv ?_
      simp [hV1, hV2, hY1, hY2, hY3, hA, hT, ← hL]
      ring
    · refine ((((hrd.neg).mul hs).sub (hld.sin.const_mul 3.12e-5)).mul hod.cos).congr_deriv ?_
      simp [hV1, hV2, hY1, hY2, hY3, hA, hT, ← hL]
      ring
    · refine (((hrd.neg).mul hs).mul hod.sin).congr_deriv ?_
      simp [hV1, hV2, hY1, hY2, hY3, hA, hT, ← hL]
      ring
  refine ⟨V1 + V2 + (1 / 31557600 : ℝ) • (Y1 + (3.12e-5 * 83.9971 - 8.31e-11 * 31557600 : ℝ) • Y2 + (2.27e-6 : ℝ) • Y3), fun i => ?_, ?_⟩
  · have hf : (fun f => (earth year day f).pos i) = (fun t => (earthT t).pos i) ∘ fun f => yearsSince1900 year day f := by
      funext f; rw [hm]; rfl
    rw [hf]
    exact ((key i).comp f (years_fraction year day f)).congr_deriv (by ring)
  · rw [hvel, add_sub_cancel_left, len_smul, abs_of_pos (by norm_num)]
    have y1 : len Y1 ≤ 0.00002 + 0.000715 := by
      rw [hY1]
      refine vec_len_le (by norm_num) ?_
      rw [show (-A * Real.cos L + T * Real.sin L) ^ 2 + ((-A * Real.sin L - T * Real.cos L) * Real.cos (obl t)) ^ 2 +
        ((-A * Real.sin L - T * Real.cos L) * Real.sin (obl t)) ^ 2 = A ^ 2 + T ^ 2 by
          linear_combination (A ^ 2 + T ^ 2) * sL + (-A * Real.sin L - T * Real.cos L) ^ 2 * sO]
      have a := sq_le_sq.mpr (r1.trans (le_abs_self _))
      have b := sq_le_sq.mpr (r2.trans (le_abs_self _))
      norm_num at a b ⊢; linarith
    have y2 : len Y2 ≤ 1 := by
      rw [hY2]
      refine vec_len_le (by norm_num) ?_
      have : (Real.cos (lun t) * Real.cos (obl t)) ^ 2 ≤ Real.cos (lun t) ^ 2 := by
        rw [mul_pow]; exact mul_le_of_le_one_right (sq_nonneg _) hco
      nlinarith
    have y3 : len Y3 ≤ 3 := by
      rw [hY3]
      refine vec_len_le (by norm_num) ?_
      have b1 : |-rad t * Real.sin L - 3.12e-5 * Real.sin (lun t)| ≤ 2 := by
        have q1 := abs_mul_le' (by rw [abs_of_nonneg (by linarith)]; exact R2 : |rad t| ≤ 1.01685) (Real.abs_sin_le_one L)
        have q2 := Real.abs_sin_le_one (lun t)
        rw [abs_le] at q1 q2 ⊢
        constructor <;> norm_num <;> linarith [q1.1, q1.2, q2.1, q2.2]
      have b2 := abs_mul_le' b1 (Real.abs_sin_le_one (obl t))
      have b3 := abs_mul_le' (abs_mul_le' (by rw [abs_of_nonneg (by linarith)]; exact R2 : |rad t| ≤ 1.01685)
        (Real.abs_sin_le_one L)) (Real.abs_cos_le_one (obl t))
      have s2 := sq_le_sq.mpr (b2.trans (le_abs_self _))
      have s3 := sq_le_sq.mpr (b3.trans (le_abs_self _))
      norm_num at s2 s3 ⊢; linarith
    have l1 := len_add_le (Y1 + (3.12e-5 * 83.9971 - 8.31e-11 * 31557600 : ℝ) • Y2) ((2.27e-6 : ℝ) • Y3)
    have l2 := len_add_le Y1 ((3.12e-5 * 83.9971 - 8.31e-11 * 31557600 : ℝ) • Y2)
    rw [len_smul] at l1 l2
    have m2 : |(3.12e-5 * 83.9971 - 8.31e-11 * 31557600 : ℝ)| * len Y2 ≤ 0.000002 * 1 :=
      mul_le_mul (by norm_num [abs_le]) y2 (len_nonneg _) (by norm_num)
    have m3 : |(2.27e-6 : ℝ)| * len Y3 ≤ 2.27e-6 * 3 :=
      mul_le_mul (by norm_num [abs_le]) y3 (len_nonneg _) (by norm_num)
    generalize len (Y1 + (3.12e-5 * 83.9971 - 8.31e-11 * 31557600 : ℝ) • Y2 + (2.27e-6 : ℝ) • Y3) = z1 at *
    generalize |(3.12e-5 * 83.9971 - 8.31e-11 * 31557600 : ℝ)| * len Y2 = z2 at *
    generalize |(2.27e-6 : ℝ)| * len Y3 = z3 at *
    norm_num at *
    linarith

example : |((2000 : ℤ) : ℝ) - 1900 + (((100 : ℤ) : ℝ) + 0.5) / 365.25| ≤ 199.9 := by norm_num [abs_le]

/-- The two corrections are the components of the Earth's velocity and position along the direction of the star: the
    velocity, in kilometres per second, is positive when the Earth recedes from the star (the direction of the star and the
    velocity are more than a right angle apart), and the light time, in seconds, is positive when the Earth is nearer to the
    star than the Sun is. -/
theorem C68_ecor (dir : Spherical) (year day : ℤ) (f : ℝ) :
    (ecor dir year day f).1 = -1.4959787066e8 * ((earth year day f).vel ⬝ᵥ direction dir.a dir.b) ∧
    (ecor dir year day f).2 = 499.0047837 * ((earth year day f).pos ⬝ᵥ direction dir.a dir.b) := by
  simp only [ecor, dvdv_eq, dcs2c_eq, and_self]

/-- The opposite direction has the opposite corrections. -/
theorem C68_opposite (dir : Spherical) (year day : ℤ) (f : ℝ) :
    ecor ⟨dir.a + Real.pi, -dir.b⟩ year day f = -ecor dir year day f := by
  have hd : direction (dir.a + Real.pi) (-dir.b) = -direction dir.a dir.b := by
    rw [direction_eq, direction_eq]
    funext i
    fin_cases i <;> simp [Real.cos_add_pi, Real.sin_add_pi]
  ext
  · rw [(C68_ecor _ _ _ _).1, hd, dotProduct_neg, mul_neg, Prod.fst_neg, (C68_ecor _ _ _ _).1]
  · rw [(C68_ecor _ _ _ _).2, hd, dotProduct_neg, mul_neg, Prod.snd_neg, (C68_ecor _ _ _ _).2]

/-- From 1700 to 2100 the velocity correction never exceeds 30.4 kilometres per second, nor the light time 507.6 seconds. -/
theorem C68_bounds (dir : Spherical) (year day : ℤ) (f : ℝ) (h : |(year : ℝ) - 1900 + (day + f) / 365.25| ≤ 199.9) :
    |(ecor dir year day f).1| ≤ 30.4 ∧ |(ecor dir year day f).2| ≤ 507.6 := by
  obtain ⟨-, h1, -, h2, -⟩ := C67_earth year day f h
  obtain ⟨e1, e2⟩ := C68_ecor dir year day f
  have d1 := abs_dot_le (e := (earth year day f).vel) (len_direction dir.a dir.b)
  have d2 := abs_dot_le (e := (earth year day f).pos) (len_direction dir.a dir.b)
  rw [dotProduct_comm] at d1 d2
  rw [e1, e2, abs_mul, abs_mul]
  constructor
  · rw [show |(-1.4959787066e8 : ℝ)| = 1.4959787066e8 by norm_num]
    refine (mul_le_mul_of_nonneg_left (d1.trans h2) (by norm_num)).trans (by norm_num)
  · rw [show |(499.0047837 : ℝ)| = 499.0047837 by norm_num]
    refine (mul_le_mul_of_nonneg_left (d2.trans h1) (by norm_num)).trans (by norm_num)

example : |((1985 : ℤ) : ℝ) - 1900 + (((200 : ℤ) : ℝ) + 0.25) / 365.25| ≤ 199.9 := by norm_num [abs_le]

end Sla.Props
