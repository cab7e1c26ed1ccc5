/- C108: `dmoon` in double precision. -/
import Verif.Model.FpDmoon
import Verif.Lemmas.FpDmoonPos
import Verif.Lemmas.MoonTurn
import Verif.Lemmas.FpCat
import Verif.Props.FpMoon
import Verif.Props.MoonAgree

noncomputable section
namespace Sla.Props
open Sla.Fp Real Sla.Spec _root_.Spec

/-- The two conventions for the spherical to rectangular conversion and the turned arguments. -/
private theorem dmoon_turned (date : ℝ) (k : Fin 6 → ℤ) :
    Sla.dmoon date = ⟨Sla.dmoonEquator date (Sla.dmoonRect (Sla.dmoonSpherical ((date - 15019.5) / 36525)
        (dmoonTurned ((date - 15019.5) / 36525) k) (Sla.dmoonRates ((date - 15019.5) / 36525)))).pos,
      Sla.dmoonEquator date (Sla.dmoonRect (Sla.dmoonSpherical ((date - 15019.5) / 36525)
        (dmoonTurned ((date - 15019.5) / 36525) k) (Sla.dmoonRates ((date - 15019.5) / 36525)))).vel⟩ := by
  have t : ∀ (X : ℝ) (k : ℤ), MTurn (d2r * cfmod X 360) (d2r * (X + 360 * k)) := fun X k =>
    ⟨-ctrunc (X / 360) - k, by unfold cfmod d2r; push_cast; ring⟩
  have h : MTurns (Sla.dmoonArgs (fun x => cfmod x 360) ((date - 15019.5) / 36525)) (dmoonTurned ((date - 15019.5) / 36525) k) :=
    ⟨t _ _, t _ _, t _ _, t _ _, t _ _, t _ _⟩
  unfold Sla.dmoon
  dsimp only
  rw [h.rect]

/-- From 1600 to 2200, double precision arithmetic gives each coordinate of the position of `dmoon` to 8.8e-14 AU (14 mm) and
    of the velocity to 4.6e-19 AU per second (0.07 µm/s) of the values in exact arithmetic. -/
theorem C108_dmoon (R : Rounding binary64) {sn cs : ℝ → ℝ} (hs : ∀ x, |sn x - Real.sin x| ≤ 2e-16)
    (hc : ∀ x, |cs x - Real.cos x| ≤ 2e-16) {date : ℝ} (h : |date - 15019.5| ≤ 109575) :
    (∀ i, |(Fp.dmoon R sn cs date).pos i - (Sla.dmoon date).pos i| ≤ 8.8e-14) ∧
    (∀ i, |(Fp.dmoon R sn cs date).vel i - (Sla.dmoon date).vel i| ≤ 4.6e-19) := by
  have ht := dmoonTime_near R.dbl h
  obtain ⟨k, ha⟩ := dmoonArgs_near R.dbl ht
  have hr := dmoonRates_near R.dbl ht
  have hd : |date - 51544.5| ≤ 146100 := by
    obtain ⟨h1, h2⟩ := abs_le.1 h
    exact abs_le.2 ⟨by linarith, by linarith⟩
  rw [dmoon_turned date k]
  exact dmoonVectors_near R.dbl hs hc (dmoonSpherical_near R.dbl hs hc ht ha hr) hd

example (R : Rounding binary64) :
    |(Fp.dmoon R Real.sin Real.cos 40422.84).vel 2 - (Sla.dmoon 40422.84).vel 2| ≤ 4.6e-19 :=
  (C108_dmoon R (fun x => by rw [sub_self, abs_zero]; norm_num) (fun x => by rw [sub_self, abs_zero]; norm_num)
    (by rw [abs_le]; constructor <;> norm_num)).2 2

/-- The length of a vector close to another. -/
private theorem len_near {v w : Vec} {e : ℝ} (h : ∀ i, |v i - w i| ≤ e) : len (v - w) ≤ 1.74 * e ∧ |len v - len w| ≤ 1.74 * e := by
  have h1 : len (v - w) ≤ 1.74 * e := len_le_of h
  refine ⟨h1, abs_le.2 ⟨?_, ?_⟩⟩
  · have := len_add_le v (w - v)
    rw [add_sub_cancel, show len (w - v) = len (v - w) by rw [← neg_sub, len_neg]] at this
    linarith
  · have := len_add_le w (v - w)
    rw [add_sub_cancel] at this
    linarith

/-- The Moon as computed is at the distance and has the speed of the Moon. -/
theorem C108_orbit (R : Rounding binary64) {sn cs : ℝ → ℝ} (hs : ∀ x, |sn x - Real.sin x| ≤ 2e-16)
    (hc : ∀ x, |cs x - Real.cos x| ≤ 2e-16) {date : ℝ} (h : |date - 15019.5| ≤ 109575) :
    0.002369 ≤ len (Fp.dmoon R sn cs date).pos ∧ len (Fp.dmoon R sn cs date).pos ≤ 0.002811 ∧
    5.09e-9 ≤ len (Fp.dmoon R sn cs date).vel ∧ len (Fp.dmoon R sn cs date).vel ≤ 9.01e-9 := by
  obtain ⟨h1, h2⟩ := C108_dmoon R hs hc h
  obtain ⟨o1, o2, o3, o4⟩ := C64_orbit date (h.trans (by norm_num))
  obtain ⟨a1, a2⟩ := abs_le.1 (len_near h1).2
  obtain ⟨b1, b2⟩ := abs_le.1 (len_near h2).2
  refine ⟨?_, ?_, ?_, ?_⟩ <;> norm_num at * <;> linarith

/-- The day of the year of a date of the years 1901 to 2099, and the date itself. -/
private theorem date_bounds {D : YMD} (hv : D.Valid) (hy : 1901 ≤ D.year) (hy' : D.year ≤ 2099) :
    1 ≤ ordinalDay (decide (isLeap D.year)) D.month D.day ∧ ordinalDay (decide (isLeap D.year)) D.month D.day ≤ 366 ∧
    15020 ≤ cldjExpr D.year D.month D.day ∧ cldjExpr D.year D.month D.day ≤ 88068 := by
  obtain ⟨h1, h2, h3, h4⟩ := hv
  obtain ⟨y, m, d⟩ := D
  dsimp only at *
  have h5 : d ≤ 31 := by
    rcases monthLength_cases h1 h2 with h|h|h|h|h|h|h|h|h|h|h|h <;> subst h <;> simp [monthLength] at h4 <;> (try split_ifs at h4) <;> omega
  rw [ordinalDay_eq h1 h2, cldjExpr_eq h1 h2 (by omega)]
  rcases monthLength_cases h1 h2 with h|h|h|h|h|h|h|h|h|h|h|h <;> subst h <;> norm_num <;> (try split_ifs) <;> omega

/-- The Moon of `moon`, computed in single precision, and of `dmoon`, computed in double precision, for the same date of the
    years 1901 to 2099: 5.5 arc minutes apart at most, at distances within 0.6 per cent and with velocities within 1.43e-10
    AU per second of each other. -/
theorem C108_moon (S : Rounding binary32) (R : Rounding binary64) {sn cs : ℝ → ℝ} (hs : ∀ x, |sn x - Real.sin x| ≤ 2e-16)
    (hc : ∀ x, |cs x - Real.cos x| ≤ 2e-16) {snf csf : ℝ → ℝ} (hsf : ∀ x, |snf x - Real.sin x| ≤ 1.2e-7)
    (hcf : ∀ x, |csf x - Real.cos x| ≤ 1.2e-7) {D : YMD} (hv : D.Valid) (hy : 1901 ≤ D.year) (hy' : D.year ≤ 2099)
    {f : ℝ} (hf : 0 ≤ f) (hf' : f ≤ 1) (old : ℝ) (a b : ℤ) :
    let c := clyd D.year D.month D.day a b
    let m := Fp.moon S R snf csf c.2.1 c.2.2 f
    let d := Fp.dmoon R sn cs ((cldj D.year D.month D.day old).2 + f)
    angleBetween m.pos d.pos ≤ 5.5 / 60 * (π / 180) ∧ |len m.pos - len d.pos| ≤ 0.006 * len d.pos ∧
      len (m.vel - d.vel) ≤ 1.43e-10 := by
  intro c m d
  obtain ⟨o1, o2, c1, c2⟩ := date_bounds hv hy hy'
  have hcl : c = (.ok, D.year, ordinalDay (decide (isLeap D.year)) D.month D.day) :=
    C05_clyd_gregorian D hv hy (Or.inl (by show D.year < 2100; omega)) a b
  have hcj : (cldj D.year D.month D.day old).2 = (cldjExpr D.year D.month D.day : ℝ) := by
    unfold cldj
    rw [if_pos (by omega), if_pos ⟨hv.1, hv.2.1⟩]
  have c1' : (15020 : ℝ) ≤ (cldjExpr D.year D.month D.day : ℝ) := by exact_mod_cast c1
  have c2' : (cldjExpr D.year D.month D.day : ℝ) ≤ 88068 := by exact_mod_cast c2
  have hd : |(cldj D.year D.month D.day old).2 + f - 15019.5| ≤ 73050 := by
    rw [hcj]; exact abs_le.2 ⟨by linarith, by linarith⟩
  obtain ⟨e1, e2, e3⟩ := C92_moon hv (by omega) f old a b hd
  obtain ⟨m1, m2⟩ := C98_moon S R hsf hcf (year := c.2.1) (day := c.2.2) (f := f) (by rw [hcl]; dsimp only; omega)
    (by rw [hcl]; dsimp only; omega) (by rw [hcl]; exact o1) (by rw [hcl]; exact o2) hf hf'
  obtain ⟨d1, d2⟩ := C108_dmoon R hs hc (date := (cldj D.year D.month D.day old).2 + f) (hd.trans (by norm_num))
  obtain ⟨q1, q2, -, -⟩ := C64_orbit ((cldj D.year D.month D.day old).2 + f) (hd.trans (by norm_num))
  change ∀ i, |m.pos i - (Sla.moon c.2.1 c.2.2 f).pos i| ≤ 8.5e-7 at m1
  change ∀ i, |m.vel i - (Sla.moon c.2.1 c.2.2 f).vel i| ≤ 4.2e-12 at m2
  change ∀ i, |d.pos i - _| ≤ _ at d1
  change ∀ i, |d.vel i - _| ≤ _ at d2
  change angleBetween (Sla.moon c.2.1 c.2.2 f).pos _ ≤ _ at e1
  change |len (Sla.moon c.2.1 c.2.2 f).pos - _| ≤ _ at e2
  change len ((Sla.moon c.2.1 c.2.2 f).vel - _) ≤ _ at e3
  generalize Sla.moon c.2.1 c.2.2 f = M at *
  generalize Sla.dmoon ((cldj D.year D.month D.day old).2 + f) = N at *
  clear_value m d
  obtain ⟨M1, M2⟩ := len_near m1
  obtain ⟨N1, N2⟩ := len_near d1
  obtain ⟨M3, -⟩ := len_near m2
  obtain ⟨N3, -⟩ := len_near d2
  obtain ⟨e2a, e2b⟩ := abs_le.1 e2
  obtain ⟨M2a, M2b⟩ := abs_le.1 M2
  obtain ⟨N2a, N2b⟩ := abs_le.1 N2
  have near : ∀ {v w : Vec} {e κ : ℝ}, 0.00235 ≤ len w → len (v - w) ≤ e → e ≤ 2e-6 → e / 0.00235 ≤ κ →
      angleBetween v w ≤ π / 2 * (1.002 * κ) := by
    intro v w e κ hw h he hκ
    have hL : 0 < len w := lt_of_lt_of_le (by norm_num) hw
    have hi : 0 < (len w)⁻¹ := inv_pos.2 hL
    have e0 : 0 ≤ e := (len_nonneg _).trans h
    have g := angle_of_near (v := (len w)⁻¹ • v) (w := (len w)⁻¹ • w) (d := e / 0.00235)
      (by rw [len_smul, abs_of_pos hi, inv_mul_cancel₀ hL.ne']; norm_num)
      (by
        rw [← smul_sub, len_smul, abs_of_pos hi, inv_mul_le_iff₀ hL, mul_div_assoc', le_div_iff₀ (by norm_num)]
        nlinarith)
      (by rw [div_le_iff₀ (by norm_num)]; linarith)
    rw [angle_scale hi, angle_symm, angle_scale hi, angle_symm] at g
    refine g.trans ?_
    have := Real.pi_pos
    gcongr
  have hM : 0.00235 ≤ len M.pos := by norm_num at *; linarith
  have hN : 0.00235 ≤ len N.pos := by norm_num at *; linarith
  have A1 := near (κ := 6.294e-4) hM M1 (by norm_num) (by norm_num)
  have A2 := near (κ := 1e-9) hN N1 (by norm_num) (by norm_num)
  refine ⟨?_, ?_, ?_⟩
  · have t1 := angle_triangle m.pos M.pos d.pos
    have t2 := angle_triangle M.pos N.pos d.pos
    rw [angle_symm N.pos] at t2
    have := Real.pi_pos
    have : π / 2 * (1.002 * 6.294e-4) + (2 / 60 * (π / 180) + π / 2 * (1.002 * 1e-9)) ≤ 5.5 / 60 * (π / 180) := by
      norm_num; linarith
    linarith
  · rw [abs_le]
    constructor <;> norm_num at * <;> linarith
  · have e : m.vel - d.vel = (m.vel - M.vel) + ((M.vel - N.vel) + (N.vel - d.vel)) := by abel
    rw [e]
    have t1 := len_add_le (m.vel - M.vel) ((M.vel - N.vel) + (N.vel - d.vel))
    have t2 := len_add_le (M.vel - N.vel) (N.vel - d.vel)
    rw [show len (N.vel - d.vel) = len (d.vel - N.vel) by rw [← neg_sub, len_neg]] at t2
    norm_num at *
    linarith

example : (⟨1969, 7, 20⟩ : YMD).Valid ∧ (1901 : ℤ) ≤ 1969 ∧ (1969 : ℤ) ≤ 2099 ∧ (0 : ℝ) ≤ 0.84 ∧ (0.84 : ℝ) ≤ 1 := by
  refine ⟨by decide, by norm_num, by norm_num, by norm_num, by norm_num⟩

end Sla.Props
