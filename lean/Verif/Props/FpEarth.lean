/- C97: `earth` and `ecor` in single precision. -/
import Verif.Model.FpEarth
import Verif.Lemmas.FpEarth
import Verif.Props.Earth

noncomputable section
namespace Sla.Props
open Sla.Fp Real

private theorem at_turns (n : ℤ) {y y' : ℝ} (m : ℤ) (h' : y = y' + m * (2 * π)) (x' t : ℝ) :
    Sla.earthAt (x' + n * (2 * π)) y t = Sla.earthAt x' y' t := by
  have hs : Real.sin y = Real.sin y' := by rw [h', Real.sin_add_int_mul_two_pi]
  have hc : Real.cos y = Real.cos y' := by rw [h', Real.cos_add_int_mul_two_pi]
  have e1 : x' + n * (2 * π) - (4.908230 + 3.0005e-4 * t) = (x' - (4.908230 + 3.0005e-4 * t)) + n * (2 * π) := by ring
  set m := x' - (4.908230 + 3.0005e-4 * t)
  have e2 : 2 * (m + n * (2 * π)) = 2 * m + (2 * n : ℤ) * (2 * π) := by push_cast; ring
  have e3 : ∀ a b : ℝ, m + n * (2 * π) + a + b = (m + a + b) + n * (2 * π) := fun a b => by ring
  have e4 : ∀ a b : ℝ, a + n * (2 * π) + (4.908230 + 3.0005e-4 * t) =
      (a + (4.908230 + 3.0005e-4 * t)) + n * (2 * π) := fun a b => by ring
  simp only [Sla.earthAt, e1, e2, hs, hc, Real.sin_add_int_mul_two_pi, e3, e4 _ 0, Real.cos_add_int_mul_two_pi]
  rfl

private theorem earth_near (R : Rounding binary32) (D : Rounding binary64) {sn cs : ℝ → ℝ}
    (hs : ∀ x, |sn x - Real.sin x| ≤ 1.2e-7) (hc : ∀ x, |cs x - Real.cos x| ≤ 1.2e-7) {year day : ℤ} {f : ℝ}
    (hy : 1900 ≤ year) (hy' : year ≤ 2100) (hd : 1 ≤ day) (hd' : day ≤ 366) (hf : 0 ≤ f) (hf' : f ≤ 1) :
    (∀ i, |(Fp.earth R D sn cs year day f).pos i - (Sla.earth year day f).pos i| ≤ 1e-5) ∧
    (∀ i, |(Fp.earth R D sn cs year day f).vel i - (Sla.earth year day f).vel i| ≤ 3e-12) ∧
    (∀ i, |(Sla.earth year day f).pos i| ≤ 1.021) ∧ ∀ i, |(Sla.earth year day f).vel i| ≤ 2.04e-7 := by
  obtain ⟨h1, h2, h3, h4, h5, h6⟩ := year_near R hy hy' hd hd' hf hf'
  obtain ⟨⟨k, hk, hk'⟩, m, hm⟩ := longitudes_near R.single h1 h2 h3 h4 h5 h6
  have h := earthAt_near R.single D.double hs hc hk hm h2 hk' h5 h6
  have e : Sla.earth year day f = Sla.earthAt (4.881628 + 2 * π * Sla.yearFraction year day f +
        0.00013420 * Sla.yearsSince1900 year day f + k * (2 * π))
      (4.72 + 83.9971 * Sla.yearsSince1900 year day f + m * (2 * π)) (Sla.yearsSince1900 year day f) := by
    rw [at_turns k m rfl]
    simp only [Sla.earth]
    obtain ⟨a, ha⟩ : ∃ a : ℤ, cfmod (4.881628 + 2 * π * Sla.yearFraction year day f +
        0.00013420 * Sla.yearsSince1900 year day f) (2 * π) = 4.881628 + 2 * π * Sla.yearFraction year day f +
        0.00013420 * Sla.yearsSince1900 year day f + a * (2 * π) :=
      ⟨-ctrunc ((4.881628 + 2 * π * Sla.yearFraction year day f +
        0.00013420 * Sla.yearsSince1900 year day f) / (2 * π)), by unfold cfmod; push_cast; ring⟩
    rw [ha]
    refine at_turns a (-ctrunc ((4.72 + 83.9971 * Sla.yearsSince1900 year day f) / (2 * π))) ?_ _ _
    unfold cfmod; push_cast; ring
  rw [e]
  exact h

/-- In single precision arithmetic `earth` gives each coordinate of the position to 1e-5 AU and of the velocity to 3e-12 AU
    per second of the values in exact arithmetic, from 1900 to 2100. -/
theorem C97_earth (R : Rounding binary32) (D : Rounding binary64) {sn cs : ℝ → ℝ}
    (hs : ∀ x, |sn x - Real.sin x| ≤ 1.2e-7) (hc : ∀ x, |cs x - Real.cos x| ≤ 1.2e-7) {year day : ℤ} {f : ℝ}
    (hy : 1900 ≤ year) (hy' : year ≤ 2100) (hd : 1 ≤ day) (hd' : day ≤ 366) (hf : 0 ≤ f) (hf' : f ≤ 1) :
    (∀ i, |(Fp.earth R D sn cs year day f).pos i - (Sla.earth year day f).pos i| ≤ 1e-5) ∧
    (∀ i, |(Fp.earth R D sn cs year day f).vel i - (Sla.earth year day f).vel i| ≤ 3e-12) :=
  let h := earth_near R D hs hc hy hy' hd hd' hf hf'
  ⟨h.1, h.2.1⟩

example (R : Rounding binary32) (D : Rounding binary64) :
    |(Fp.earth R D Real.sin Real.cos 1985 366 0.25).pos 2 - (Sla.earth 1985 366 0.25).pos 2| ≤ 1e-5 :=
  (C97_earth R D (fun x => by rw [sub_self, abs_zero]; norm_num) (fun x => by rw [sub_self, abs_zero]; norm_num) (by norm_num)
    (by norm_num) (by norm_num) (by norm_num) (by norm_num) (by norm_num)).1 2

/-! ### `ecor` -/

private theorem mbd {x y A B C : ℝ} (hx : |x| ≤ A) (hy : |y| ≤ B) (h : A * B ≤ C) : |x * y| ≤ C := by
  rw [abs_mul]
  exact (mul_le_mul hx hy (abs_nonneg _) ((abs_nonneg _).trans hx)).trans h
private theorem abd {x y A B C : ℝ} (hx : |x| ≤ A) (hy : |y| ≤ B) (h : A + B ≤ C) : |x + y| ≤ C :=
  (abs_add_le x y).trans ((add_le_add hx hy).trans h)

/-- A dot product of an inaccurate vector with an inaccurate direction. -/
theorem dot_dir_near {R : ℝ → ℝ} (hR : Single R) {a b v d : Vec} {δ V : ℝ} (ha : ∀ i, |a i - v i| ≤ δ)
    (hb : ∀ i, |b i - d i| ≤ 3.1e-7) (hV : ∀ i, |v i| ≤ V) (hδ : δ ≤ 1e-4 * V) (hd : d 0 ^ 2 + d 1 ^ 2 + d 2 ^ 2 = 1)
    (hV1 : 1e-20 ≤ V) :
    |Fp.dvdv R a b - Sla.dvdv v d| ≤ 1.7321 * δ + 1.6e-6 * V := by
  have hδ0 : 0 ≤ δ := (abs_nonneg _).trans (ha 0)
  have hd1 : ∀ i, |d i| ≤ 1 := by
    intro i
    rw [← sq_le_one_iff_abs_le_one]
    fin_cases i <;> dsimp <;> nlinarith [sq_nonneg (d 0), sq_nonneg (d 1), sq_nonneg (d 2)]
  have hb1 : ∀ i, |b i| ≤ 1.001 := fun i => by
    have := abd (hd1 i) (hb i) (C := 1.001) (by norm_num)
    rwa [add_sub_cancel] at this
  have ha1 : ∀ i, |a i| ≤ 1.001 * V := fun i => by
    have := abd (hV i) (ha i) (C := 1.001 * V) (by linarith)
    rwa [add_sub_cancel] at this
  have hsum : |d 0| + |d 1| + |d 2| ≤ 1.7321 := by
    refine abs_le_of_sq_le_sq' ?_ (by norm_num) |>.2
    have h0 := sq_abs (d 0)
    have h1 := sq_abs (d 1)
    have h2 := sq_abs (d 2)
    nlinarith [sq_nonneg (|d 0| - |d 1|), sq_nonneg (|d 0| - |d 2|), sq_nonneg (|d 1| - |d 2|)]
  -- the rounding errors of the dot product
  have p : ∀ i, |a i * b i| ≤ 1.0021 * V := fun i => mbd (ha1 i) (hb1 i) (by linarith)
  have r : ∀ i, |R (a i * b i) - a i * b i| ≤ 6.02e-8 * V := fun i => hR.lit (p i) (by linarith)
  have r1 : |R (R (a 0 * b 0) + R (a 1 * b 1)) - (a 0 * b 0 + a 1 * b 1)| ≤ 2.42e-7 * V :=
    hR.add (B := 2.0042 * V) (r 0) (r 1) (abd (p 0) (p 1) (by linarith)) (by linarith)
  have r2 : |Fp.dvdv R a b - (a 0 * b 0 + a 1 * b 1 + a 2 * b 2)| ≤ 4.9e-7 * V :=
    hR.add (B := 3.0063 * V) r1 (r 2) (abd (abd (p 0) (p 1) le_rfl) (p 2) (by linarith)) (by linarith)
  -- those of the arguments
  have q1 : ∀ i, |(a i - v i) * d i| ≤ δ * |d i| := fun i => mbd (ha i) le_rfl le_rfl
  have q2 : ∀ i, |a i * (b i - d i)| ≤ 3.11e-7 * V := fun i => mbd (ha1 i) (hb i) (by linarith)
  have q : |(a 0 * b 0 + a 1 * b 1 + a 2 * b 2) - (v 0 * d 0 + v 1 * d 1 + v 2 * d 2)| ≤ 1.7321 * δ + 9.33e-7 * V := by
    have e : (a 0 * b 0 + a 1 * b 1 + a 2 * b 2) - (v 0 * d 0 + v 1 * d 1 + v 2 * d 2) =
        ((a 0 - v 0) * d 0 + (a 1 - v 1) * d 1 + (a 2 - v 2) * d 2) +
        (a 0 * (b 0 - d 0) + a 1 * (b 1 - d 1) + a 2 * (b 2 - d 2)) := by ring
    rw [e]
    refine abd (abd (abd (q1 0) (q1 1) le_rfl) (q1 2) (C := 1.7321 * δ) ?_)
      (abd (abd (q2 0) (q2 1) le_rfl) (q2 2) (C := 9.33e-7 * V) (by linarith)) le_rfl
    nlinarith
  have := abd r2 q (C := 1.7321 * δ + 1.6e-6 * V) (by linarith)
  rw [sub_add_sub_cancel] at this
  exact this

private theorem dot_le {v d : Vec} {V : ℝ} (hV : ∀ i, |v i| ≤ V) (hd : ∀ i, |d i| ≤ 1) : |Sla.dvdv v d| ≤ 3 * V :=
  abd (abd (mbd (hV 0) (hd 0) le_rfl) (mbd (hV 1) (hd 1) le_rfl) le_rfl) (mbd (hV 2) (hd 2) le_rfl) (by linarith)

/-- In single precision arithmetic `ecor` gives the velocity to 1 m/s and the light time to 0.01 s of the values in exact
    arithmetic, from 1900 to 2100, for every direction. -/
theorem C97_ecor (R : Rounding binary32) (D : Rounding binary64) {sn cs : ℝ → ℝ}
    (hs : ∀ x, |sn x - Real.sin x| ≤ 1.2e-7) (hc : ∀ x, |cs x - Real.cos x| ≤ 1.2e-7) (dir : Spherical) {year day : ℤ} {f : ℝ}
    (hy : 1900 ≤ year) (hy' : year ≤ 2100) (hd : 1 ≤ day) (hd' : day ≤ 366) (hf : 0 ≤ f) (hf' : f ≤ 1) :
    |(Fp.ecor R D sn cs dir year day f).1 - (Sla.ecor dir year day f).1| ≤ 0.001 ∧
    |(Fp.ecor R D sn cs dir year day f).2 - (Sla.ecor dir year day f).2| ≤ 0.01 := by
  obtain ⟨h1, h2, h3, h4⟩ := earth_near R D hs hc hy hy' hd hd' hf hf'
  have hR := R.single
  simp only [Fp.ecor, Sla.ecor]
  generalize Fp.earth R D sn cs year day f = a at *
  generalize Sla.earth year day f = v at *
  have hds : ∀ i, |Sla.dcs2c dir i| ≤ 1 := by
    intro i
    fin_cases i
    · exact mbd (Real.abs_cos_le_one _) (Real.abs_cos_le_one _) (by norm_num)
    · exact mbd (Real.abs_sin_le_one _) (Real.abs_cos_le_one _) (by norm_num)
    · exact Real.abs_sin_le_one _
  have hb : ∀ i, |Fp.dcs2c R sn cs dir.a dir.b i - Sla.dcs2c dir i| ≤ 3.1e-7 := by
    intro i
    fin_cases i
    · exact hR.mul (X := 1) (Y := 1) (hc _) (hc _) (Real.abs_cos_le_one _) (Real.abs_cos_le_one _) (by norm_num)
    · exact hR.mul (X := 1) (Y := 1) (hs _) (hc _) (Real.abs_sin_le_one _) (Real.abs_cos_le_one _) (by norm_num)
    · exact (hs _).trans (by norm_num)
  have hn : Sla.dcs2c dir 0 ^ 2 + Sla.dcs2c dir 1 ^ 2 + Sla.dcs2c dir 2 ^ 2 = 1 := by
    simp only [Sla.dcs2c, Matrix.cons_val]
    nlinarith [Real.sin_sq_add_cos_sq dir.a, Real.sin_sq_add_cos_sq dir.b]
  have u1 := dot_dir_near hR h2 hb h4 (by norm_num) hn (by norm_num)
  have u2 := dot_dir_near hR h1 hb h3 (by norm_num) hn (by norm_num)
  have b1 := dot_le h4 hds
  have b2 := dot_le h3 hds
  generalize Fp.dvdv R a.vel (Fp.dcs2c R sn cs dir.a dir.b) = x at *
  generalize Fp.dvdv R a.pos (Fp.dcs2c R sn cs dir.a dir.b) = y at *
  generalize Sla.dvdv v.vel (Sla.dcs2c dir) = x' at *
  generalize Sla.dvdv v.pos (Sla.dcs2c dir) = y' at *
  have k1 : |R 1.4959787066e8 - 1.4959787066e8| ≤ 9 := hR.lit (B := 1.4959787066e8) (by norm_num) (by norm_num)
  have k1' : |-R 1.4959787066e8 - -1.4959787066e8| ≤ 9 := by rw [neg_sub_neg, abs_sub_comm]; exact k1
  have k2 : |R 499.0047837 - 499.0047837| ≤ 3e-5 := hR.lit (B := 499.0047837) (by norm_num) (by norm_num)
  constructor
  · exact hR.mul (X := 1.4959787066e8) (Y := 3 * 2.04e-7) k1' u1 (by norm_num) b1 (by norm_num)
  · exact hR.mul (X := 499.0047837) (Y := 3 * 1.021) k2 u2 (by norm_num) b2 (by norm_num)

example (R : Rounding binary32) (D : Rounding binary64) (dir : Spherical) :
    |(Fp.ecor R D Real.sin Real.cos dir 2100 59 1).1 - (Sla.ecor dir 2100 59 1).1| ≤ 0.001 :=
  (C97_ecor R D (fun x => by rw [sub_self, abs_zero]; norm_num) (fun x => by rw [sub_self, abs_zero]; norm_num) dir
    (by norm_num) (by norm_num) (by norm_num) (by norm_num) (by norm_num) (by norm_num)).1

end Sla.Props
