/- C109: `epv` in double precision. -/
import Verif.Model.FpEpv
import Verif.Lemmas.FpEpvNear
import Verif.Lemmas.FpCat
import Verif.Props.Epv
import Verif.Props.EpvEvp
import Verif.Props.FpEarth

noncomputable section
namespace Sla.Props
open Sla.Fp Real Sla.Spec _root_.Spec Matrix

/-- From 1900 to 2100, double precision arithmetic gives each coordinate of the four vectors of `epv` to the values in exact
    arithmetic: the heliocentric position to 4.7e-13 AU (71 mm), the barycentric position to 5.1e-13 AU (77 mm), and the
    velocities to 8.2e-15 and 8.8e-15 AU per day (15 nm/s). -/
theorem C109_epv (R : Rounding binary64) {sn cs : ℝ → ℝ} (hs : ∀ x, |sn x - Real.sin x| ≤ 2e-16)
    (hc : ∀ x, |cs x - Real.cos x| ≤ 2e-16) {date : ℝ} (h : |date - 51544.5| ≤ 36525) :
    (∀ i, |(Fp.epv R sn cs date).hpos i - (Sla.epv date).hpos i| ≤ 4.7e-13) ∧
    (∀ i, |(Fp.epv R sn cs date).hvelo i - (Sla.epv date).hvelo i| ≤ 8.2e-15) ∧
    (∀ i, |(Fp.epv R sn cs date).bpos i - (Sla.epv date).bpos i| ≤ 5.1e-13) ∧
    (∀ i, |(Fp.epv R sn cs date).bvelo i - (Sla.epv date).bvelo i| ≤ 8.8e-15) := epv_near R.dbl hs hc h

example (R : Rounding binary64) :
    |(Fp.epv R Real.sin Real.cos 53411.52501161).bvelo 1 - (Sla.epv 53411.52501161).bvelo 1| ≤ 8.8e-15 :=
  (C109_epv R (fun x => by rw [sub_self, abs_zero]; norm_num) (fun x => by rw [sub_self, abs_zero]; norm_num)
    (by rw [abs_le]; constructor <;> norm_num)).2.2.2 1

/-- The length of a vector close to another. -/
private theorem len_near {v w : Vec} {e : ℝ} (h : ∀ i, |v i - w i| ≤ e) : len (v - w) ≤ 1.74 * e ∧ |len v - len w| ≤ 1.74 * e := by
  have h1 : len (v - w) ≤ 1.74 * e := len_le_of h
  refine ⟨h1, abs_le.2 ⟨?_, ?_⟩⟩
  · have := len_add_le v (w - v)
    rw [add_sub_cancel, show len (w - v) = len (v - w) by rw [← neg_sub, len_neg]] at this
    linarith
  · have := len_add_le w (v - w)
    rw [add_sub_cancel] at this
    linarith

private theorem diff_near {a b c d : Vec} {e f : ℝ} (h1 : ∀ i, |a i - c i| ≤ e) (h2 : ∀ i, |b i - d i| ≤ f) :
    len (a - b) ≤ len (c - d) + (1.74 * e + 1.74 * f) := by
  have e1 : a - b = (c - d) + ((a - c) + (d - b)) := by abel
  rw [e1]
  have t1 := len_add_le (c - d) ((a - c) + (d - b))
  have t2 := len_add_le (a - c) (d - b)
  rw [show len (d - b) = len (b - d) by rw [← neg_sub, len_neg]] at t2
  have := (len_near h1).1
  have := (len_near h2).1
  linarith

/-- As computed, the Earth is at its distance from the Sun and has its speed, and the Sun is close to the barycentre and moves
    slowly. -/
theorem C109_orbit (R : Rounding binary64) {sn cs : ℝ → ℝ} (hs : ∀ x, |sn x - Real.sin x| ≤ 2e-16)
    (hc : ∀ x, |cs x - Real.cos x| ≤ 2e-16) {date : ℝ} (h : |date - 51544.5| ≤ 36525) :
    let e := Fp.epv R sn cs date
    0.9629 ≤ len e.hpos ∧ len e.hpos ≤ 1.0371 ∧ 0.01669 ≤ len e.hvelo ∧ len e.hvelo ≤ 0.01771 ∧
    len (e.bpos - e.hpos) ≤ 0.01531 ∧ len (e.bvelo - e.hvelo) ≤ 1.401e-5 := by
  intro e
  obtain ⟨h1, h2, h3, h4⟩ := C109_epv R hs hc h
  obtain ⟨o1, o2, o3, o4, o5, o6⟩ := C59_orbit date h
  obtain ⟨a1, a2⟩ := abs_le.1 (len_near h1).2
  obtain ⟨b1, b2⟩ := abs_le.1 (len_near h2).2
  have d1 := diff_near h3 h1
  have d2 := diff_near h4 h2
  refine ⟨?_, ?_, ?_, ?_, ?_, ?_⟩ <;> norm_num at * <;> linarith

/-- The day of the year of a date of the years 1901 to 2099, and the date itself. -/
theorem date_bounds {D : YMD} (hv : D.Valid) (hy : 1901 ≤ D.year) (hy' : D.year ≤ 2099) :
    1 ≤ ordinalDay (decide (isLeap D.year)) D.month D.day ∧ ordinalDay (decide (isLeap D.year)) D.month D.day ≤ 366 ∧
    15020 ≤ cldjExpr D.year D.month D.day ∧ cldjExpr D.year D.month D.day ≤ 88068 := by
  obtain ⟨h1, h2, h3, h4⟩ := hv
  obtain ⟨y, m, d⟩ := D
  dsimp only at *
  have h5 : d ≤ 31 := by
    rcases monthLength_cases h1 h2 with h|h|h|h|h|h|h|h|h|h|h|h <;> subst h <;> simp [monthLength] at h4 <;> (try split_ifs at h4) <;> omega
  rw [ordinalDay_eq h1 h2, cldjExpr_eq h1 h2 (by omega)]
  rcases monthLength_cases h1 h2 with h|h|h|h|h|h|h|h|h|h|h|h <;> subst h <;> norm_num <;> (try split_ifs) <;> omega

/-- Between 1901 and 2099 the Earth of `earth`, computed in single precision for the year and day that `clyd` gives and turned
    to the equinox of J2000, is within 0.00135 AU of the Earth of `epv`, computed in double precision for the date that `cldj`
    gives. -/
theorem C109_earth (S : Rounding binary32) (R : Rounding binary64) {sn cs : ℝ → ℝ} (hs : ∀ x, |sn x - Real.sin x| ≤ 2e-16)
    (hc : ∀ x, |cs x - Real.cos x| ≤ 2e-16) {snf csf : ℝ → ℝ} (hsf : ∀ x, |snf x - Real.sin x| ≤ 1.2e-7)
    (hcf : ∀ x, |csf x - Real.cos x| ≤ 1.2e-7) {D : YMD} (hv : D.Valid) (hy : 1901 ≤ D.year) (hy' : D.year ≤ 2099)
    {f : ℝ} (hf : 0 ≤ f) (hf' : f ≤ 1) (old : ℝ) (a b : ℤ) :
    let c := clyd D.year D.month D.day a b
    let date := (cldj D.year D.month D.day old).2 + f
    len ((Fp.epv R sn cs date).hpos - prec (epj date) 2000 *ᵥ (Fp.earth S R snf csf c.2.1 c.2.2 f).pos) ≤ 0.00135 := by
  intro c date
  obtain ⟨o1, o2, c1, c2⟩ := date_bounds hv hy hy'
  have hcl : c = (.ok, D.year, ordinalDay (decide (isLeap D.year)) D.month D.day) :=
    C05_clyd_gregorian D hv hy (Or.inl (by show D.year < 2100; omega)) a b
  have hcj : (cldj D.year D.month D.day old).2 = (cldjExpr D.year D.month D.day : ℝ) := by
    unfold cldj
    rw [if_pos (by omega), if_pos ⟨hv.1, hv.2.1⟩]
  have c1' : (15020 : ℝ) ≤ cldjExpr D.year D.month D.day := by exact_mod_cast c1
  have c2' : (cldjExpr D.year D.month D.day : ℝ) ≤ 88068 := by exact_mod_cast c2
  have hdate : date = cldjExpr D.year D.month D.day + f := by rw [← hcj]
  have hd : |date - 51544.5| ≤ 36525 := by rw [hdate, abs_le]; constructor <;> linarith
  have hd' : |date - 15019.5| ≤ 73050 := by rw [hdate, abs_le]; constructor <;> linarith
  have hj : epj date ∈ Set.Icc (1900 : ℝ) 2100 := by
    obtain ⟨k1, k2⟩ := abs_le.1 hd
    have e1 : -100 ≤ (date - 51544.5) / 365.25 := by rw [le_div_iff₀ (by norm_num)]; norm_num at *; linarith
    have e2 : (date - 51544.5) / 365.25 ≤ 100 := by rw [div_le_iff₀ (by norm_num)]; norm_num at *; linarith
    unfold epj
    exact ⟨by linarith, by linarith⟩
  have h1 := (len_near (C109_epv R hs hc hd).1).1
  have h2 := C100_agreement date hj
  have h3 := (C76_agreement D hv f old 0 a b hd' (by omega) le_rfl).1
  have h4 := (len_near (C97_earth S R hsf hcf (year := c.2.1) (day := c.2.2) (f := f) (by rw [hcl]; show 1900 ≤ D.year; omega)
    (by rw [hcl]; show D.year ≤ 2100; omega) (by rw [hcl]; exact o1) (by rw [hcl]; exact o2) hf hf').1).1
  have h5 := (C75_equinox date 2000 0 (by norm_num) le_rfl).1
  have hP : IsRotation (prec (epj date) 2000) := (C24_rotations (epj date) 2000).1
  set P := prec (epj date) 2000
  set x := (Fp.epv R sn cs date).hpos
  set y := (Sla.epv date).hpos
  set z := (evp date 2000).hpos
  set w := (evp date 0).hpos
  set u := (Sla.earth c.2.1 c.2.2 f).pos
  set v := (Fp.earth S R snf csf c.2.1 c.2.2 f).pos
  have e1 : x - P *ᵥ v = (x - y) + ((y - z) + (P *ᵥ (w - u) + P *ᵥ (u - v))) := by
    rw [Matrix.mulVec_sub, Matrix.mulVec_sub, ← h5]; abel
  have t1 := len_add_le (x - y) ((y - z) + (P *ᵥ (w - u) + P *ᵥ (u - v)))
  have t2 := len_add_le (y - z) (P *ᵥ (w - u) + P *ᵥ (u - v))
  have t3 := len_add_le (P *ᵥ (w - u)) (P *ᵥ (u - v))
  rw [len_mulVec hP, len_mulVec hP, show len (u - v) = len (v - u) by rw [← neg_sub, len_neg]] at t3
  rw [e1]
  norm_num at *
  linarith

example : (⟨1969, 7, 20⟩ : YMD).Valid ∧ (1901 : ℤ) ≤ 1969 ∧ (1969 : ℤ) ≤ 2099 ∧ (0 : ℝ) ≤ 0.84 ∧ (0.84 : ℝ) ≤ 1 := by
  refine ⟨by decide, by norm_num, by norm_num, by norm_num, by norm_num⟩

end Sla.Props
