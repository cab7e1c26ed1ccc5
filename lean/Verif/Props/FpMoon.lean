/- C98: `moon` in single precision. -/
import Verif.Model.FpMoon
import Verif.Lemmas.FpMoonPos

noncomputable section
namespace Sla.Props
open Sla.Fp Real

/-- Arguments that differ by whole turns give the same vectors. -/
private theorem turns {a b : MoonArgs} (ke km kp kd kf : ℤ) (he : a.elp = b.elp + ke * (2 * π)) (hm : a.em = b.em + km * (2 * π))
    (hp : a.emp = b.emp + kp * (2 * π)) (hd : a.d = b.d + kd * (2 * π)) (hf : a.f = b.f + kf * (2 * π)) :
    Sla.ds2c6 (Sla.moonSpherical a) = Sla.ds2c6 (Sla.moonSpherical b) := by
  have ht : ∀ k : MoonTerm, k.theta a = k.theta b + (k.m * km + k.mp * kp + k.d * kd + k.f * kf : ℤ) * (2 * π) := by
    intro k; simp only [MoonTerm.theta, hm, hp, hd, hf]; push_cast; ring
  have s : Sla.moonSinTerm a = Sla.moonSinTerm b := by
    funext s k; simp only [Sla.moonSinTerm, ht k, Real.sin_add_int_mul_two_pi, Real.cos_add_int_mul_two_pi]
  have c : Sla.moonCosTerm a = Sla.moonCosTerm b := by
    funext s k; simp only [Sla.moonCosTerm, ht k, Real.sin_add_int_mul_two_pi, Real.cos_add_int_mul_two_pi]
  have e : ∀ x : ℝ, x + (b.elp + ke * (2 * π)) = x + b.elp + ke * (2 * π) := fun x => by ring
  simp only [Sla.ds2c6, Sla.moonSpherical, s, c, he, e, Real.sin_add_int_mul_two_pi, Real.cos_add_int_mul_two_pi]

private theorem args_turn (X : ℝ) (k : ℤ) :
    d2r * cfmod X 360 = d2r * (X + 360 * k) + ((-ctrunc (X / 360) - k : ℤ) : ℝ) * (2 * π) := by
  unfold cfmod d2r; push_cast; ring

/-- In single precision arithmetic `moon` gives each coordinate of the position to 8.5e-7 AU (127 km) and of the velocity to
    4.2e-12 AU per second (0.63 m/s) of the values in exact arithmetic, from 1900 to 2100. -/
theorem C98_moon (R : Rounding binary32) (D : Rounding binary64) {sn cs : ℝ → ℝ}
    (hs : ∀ x, |sn x - Real.sin x| ≤ 1.2e-7) (hc : ∀ x, |cs x - Real.cos x| ≤ 1.2e-7) {year day : ℤ} {f : ℝ}
    (hy : 1900 ≤ year) (hy' : year ≤ 2100) (hd : 1 ≤ day) (hd' : day ≤ 366) (hf : 0 ≤ f) (hf' : f ≤ 1) :
    (∀ i, |(Fp.moon R D sn cs year day f).pos i - (Sla.moon year day f).pos i| ≤ 8.5e-7) ∧
    (∀ i, |(Fp.moon R D sn cs year day f).vel i - (Sla.moon year day f).vel i| ≤ 4.2e-12) := by
  obtain ⟨h1, h2, h3, h4, h5, h6⟩ := year_near R hy hy' hd hd' hf hf'
  have hR := R.single
  have h360 : R 360 = 360 := by
    have := R.eq_self (rep_int (F := binary32) (n := 360) (by norm_num [binary32]) (by norm_num [binary32]))
    exact_mod_cast this
  have c1 : |R 132.678831 - 132.678831| ≤ 9.2e-6 := hR.lit (B := 132.678831) (by norm_num) (by norm_num)
  have c2 : |R 91.988491 - 91.988491| ≤ 9.2e-6 := hR.lit (B := 91.988491) (by norm_num) (by norm_num)
  have c3 : |R 132.671142 - 132.671142| ≤ 9.2e-6 := hR.lit (B := 132.671142) (by norm_num) (by norm_num)
  have c4 : |R (D 152.020251) - 152.020251| ≤ 9.2e-6 :=
    hR.round (e := 1e-13) (B := 152.020251) ((D.double _).trans (by norm_num)) (by norm_num) (by norm_num)
  obtain ⟨ke, e1, e2⟩ := arg_near hR h360 (c0 := 270.434164) (cI := 4680) h1 h2 h3 h4 h5 h6 (by norm_num) (by norm_num)
    (by norm_num) c1
  obtain ⟨kp, p1, p2⟩ := arg_near hR h360 (c0 := 296.104608) (cI := 4680) h1 h2 h3 h4 h5 h6 (by norm_num) (by norm_num)
    (by norm_num) c2
  obtain ⟨kd, d1, d2⟩ := arg_near hR h360 (c0 := 350.737486) (cI := 4320) h1 h2 h3 h4 h5 h6 (by norm_num) (by norm_num)
    (by norm_num) c3
  obtain ⟨kf, f1, f2⟩ := arg_near hR h360 (c0 := 11.250889) (cI := 4680) h1 h2 h3 h4 h5 h6 (by norm_num) (by norm_num)
    (by norm_num) c4
  obtain ⟨km, m1, m2⟩ := em_near hR h360 h2 h5 h6
  set Y := Sla.yearFraction year day f
  set T := Sla.yearsSince1900 year day f
  set b : MoonArgs := ⟨d2r * (270.434164 + 4680 * Y + 132.678831 * T + 360 * ke), d2r * (358.475833 + 359.990498 * T + 360 * km),
    d2r * (296.104608 + 4680 * Y + 91.988491 * T + 360 * kp), d2r * (350.737486 + 4320 * Y + 132.671142 * T + 360 * kd),
    d2r * (11.250889 + 4680 * Y + 152.020251 * T + 360 * kf), 0⟩ with hb
  have hn : ArgsNear (Fp.moonArgs R D (Fp.yearFraction R year day f) (Fp.yearsSince1900 R year day f)) b :=
    ⟨m1, p1, d1, f1, e1, m2, p2, d2, f2, e2⟩
  have key : Sla.ds2c6 (Sla.moonSpherical (Sla.moonArgs (fun x => cfmod x 360) Y T)) = Sla.ds2c6 (Sla.moonSpherical b) :=
    turns _ _ _ _ _ (args_turn _ ke) (args_turn _ km) (args_turn _ kp) (args_turn _ kd) (args_turn _ kf)
  have h := vectors_near hR hs hc (spherical_near hR hs hc hn) h2 (abs_le.2 ⟨by linarith, h6⟩)
  rw [← key] at h
  exact h

example (R : Rounding binary32) (D : Rounding binary64) :
    |(Fp.moon R D Real.sin Real.cos 1999 365 0.75).pos 1 - (Sla.moon 1999 365 0.75).pos 1| ≤ 8.5e-7 :=
  (C98_moon R D (fun x => by rw [sub_self, abs_zero]; norm_num) (fun x => by rw [sub_self, abs_zero]; norm_num) (by norm_num)
    (by norm_num) (by norm_num) (by norm_num) (by norm_num) (by norm_num)).1 1

end Sla.Props
