import Verif.Lemmas.FpSeries
import Verif.Props.FpNut
import Verif.Props.Nut80
import Verif.Props.Rcc
import Verif.Props.PrecessionConsistency

/-
Property theorems C111 (`nutc80`), C112 (`precl`) and C113 (`rcc`) in double precision.
-/
namespace Sla.Props
open Sla.Fp Sla.Spec Matrix Real

/-! ## C111 -/

/-- C111: in double precision the nutation of 1980 in longitude and in obliquity and the mean obliquity are within 1.33e-14, 6.5e-15
    and 2.01e-16 rad of the exact ones for dates within 1000 years of J2000. -/
theorem C111_nutc80 (R : Rounding binary64) (sn cs : ℝ → ℝ) (hs : ∀ a, |sn a - Real.sin a| ≤ 2e-16)
    (hc : ∀ a, |cs a - Real.cos a| ≤ 2e-16) (tdb : ℝ) (h : |tdb - 51544.5| ≤ 365250) :
    |(Fp.nutc80 R sn cs tdb).psi - (Sla.nutc80 tdb).psi| ≤ 1.33e-14 ∧ |(Fp.nutc80 R sn cs tdb).eps - (Sla.nutc80 tdb).eps| ≤ 6.5e-15 ∧
      |(Fp.nutc80 R sn cs tdb).eps0 - (Sla.nutc80 tdb).eps0| ≤ 2.01e-16 := by
  obtain ⟨h1, h2, h3⟩ := nutc80_nb R hs hc h
  exact ⟨h1.err, h2.err, h3.err⟩

private theorem chain {a b c d o κ e f g : ℝ} (h : |b - d - o| ≤ κ) (h1 : |a - b| ≤ e) (h2 : |c - d| ≤ f) (hg : κ + e + f ≤ g) : |a - c - o| ≤ g := by
  rw [abs_le] at *
  constructor <;> linarith

/-- C111: within a century of J2000 the two nutations that the library computes differ, apart from the offset and rate of precession
    that only `nutc` includes, by no more than 0.0297 and 0.0132 arcsecond, and the obliquities by no more than 0.0425 arcsecond. -/
theorem C111_agreement (R : Rounding binary64) (sn cs : ℝ → ℝ) (hs : ∀ a, |sn a - Real.sin a| ≤ 2e-16)
    (hc : ∀ a, |cs a - Real.cos a| ≤ 2e-16) (tdb : ℝ) (h : |tdb - 51544.5| ≤ 36525) :
    let T := (tdb - 51544.5) / 36525
    |(Fp.nutc R sn cs tdb).psi - (Fp.nutc80 R sn cs tdb).psi - (-0.042888 - 0.29856 * T) / 3600 * (π / 180)| ≤ 0.0297 / 3600 * (π / 180) ∧
    |(Fp.nutc R sn cs tdb).eps - (Fp.nutc80 R sn cs tdb).eps - (-0.005171 - 0.02408 * T) / 3600 * (π / 180)| ≤ 0.0132 / 3600 * (π / 180) ∧
    |(Fp.nutc R sn cs tdb).eps0 - (Fp.nutc80 R sn cs tdb).eps0| ≤ 0.0425 / 3600 * (π / 180) := by
  intro T
  have h' : |tdb - 51544.5| ≤ 365250 := h.trans (by norm_num)
  obtain ⟨a1, a2, a3⟩ := C111_nutc80 R sn cs hs hc tdb h'
  obtain ⟨b1, b2, b3⟩ := C106_nutc R sn cs hs hc tdb h'
  obtain ⟨c1, c2⟩ := C72_agreement tdb h
  have c3 := (C72_obliquity tdb).2 h
  have p := Real.pi_gt_three
  refine ⟨chain c1 b1 a1 ?_, chain c2 b2 a2 ?_, ?_⟩
  · norm_num at *; linarith
  · norm_num at *; linarith
  · have := chain (o := 0) (by simpa using c3) b3 a3 (g := 0.0425 / 3600 * (π / 180)) (by norm_num at *; linarith)
    simpa using this

/-- C111: as computed, the nutation of 1980 stays below 19.5 and 10.1 arcseconds for two centuries around J2000. -/
theorem C111_bounded (R : Rounding binary64) (sn cs : ℝ → ℝ) (hs : ∀ a, |sn a - Real.sin a| ≤ 2e-16)
    (hc : ∀ a, |cs a - Real.cos a| ≤ 2e-16) (tdb : ℝ) (h : |tdb - 51544.5| ≤ 73050) :
    |(Fp.nutc80 R sn cs tdb).psi| ≤ 19.5 / 3600 * (π / 180) ∧ |(Fp.nutc80 R sn cs tdb).eps| ≤ 10.1 / 3600 * (π / 180) := by
  obtain ⟨a1, a2, -⟩ := C111_nutc80 R sn cs hs hc tdb (h.trans (by norm_num))
  obtain ⟨b1, b2⟩ := C72_bounded tdb
  have hT : |(tdb - 51544.5) / 36525| ≤ 2 := by
    rw [abs_div, div_le_iff₀ (by norm_num)]; norm_num at *; linarith
  have p := Real.pi_gt_three
  have q := Real.pi_lt_four
  generalize |(tdb - 51544.5) / 36525| = t at *
  have t1 := abs_sub_abs_le_abs_sub (Fp.nutc80 R sn cs tdb).psi (Sla.nutc80 tdb).psi
  have t2 := abs_sub_abs_le_abs_sub (Fp.nutc80 R sn cs tdb).eps (Sla.nutc80 tdb).eps
  have m1 : (19.4368 + 0.01823 * t) / 3600 * (π / 180) ≤ 19.4733 / 3600 * (π / 180) :=
    mul_le_mul_of_nonneg_right (by norm_num at *; linarith) (by positivity)
  have m2 : (10.0762 + 0.00141 * t) / 3600 * (π / 180) ≤ 10.0791 / 3600 * (π / 180) :=
    mul_le_mul_of_nonneg_right (by norm_num at *; linarith) (by positivity)
  constructor
  · norm_num at *; linarith
  · norm_num at *; linarith

/-! ## C112 -/

private theorem entry (M N : Mat) {κ : ℝ} (h : ∀ v, len (M *ᵥ v - N *ᵥ v) ≤ κ * len v) (i j : Fin 3) : |M i j - N i j| ≤ κ := by
  have h1 := (abs_le_len _ i).trans (h (Pi.single j 1))
  have hl : len (Pi.single j (1 : ℝ)) = 1 := by fin_cases j <;> simp [len, dotProduct, Pi.single_apply]
  rw [hl, mul_one] at h1
  simpa using h1

/-- C112: for epochs within 1000 years of J2000 and of each other to 2000 years every element of the long-term precession matrix is
    within 6.2e-15 of the exact one. -/
theorem C112_precl (R : Rounding binary64) (sn cs : ℝ → ℝ) (hs : ∀ a, |sn a - Real.sin a| ≤ 2e-16)
    (hc : ∀ a, |cs a - Real.cos a| ≤ 2e-16) {ep0 ep1 : ℝ} (h0 : |ep0 - 2000| ≤ 1000) (h1 : |ep1 - ep0| ≤ 2000) (i j : Fin 3) :
    |Fp.precl R sn cs ep0 ep1 i j - Sla.precl ep0 ep1 i j| ≤ 6.2e-15 := by
  obtain ⟨a1, a2, a3⟩ := preclAngles_near R.dbl h0 h1
  have d := C83_deuler R sn cs (ε := 2e-16) (by norm_num) (by norm_num) ['Z', 'Y', 'Z'] (-(preclAngles R ep0 ep1).1)
    (preclAngles R ep0 ep1).2.1 (-(preclAngles R ep0 ep1).2.2) (fun a _ => ⟨hs a, hc a⟩) i j
  have k := entry (eul (preclAngles R ep0 ep1).1 (preclAngles R ep0 ep1).2.1 (preclAngles R ep0 ep1).2.2) (Sla.precl ep0 ep1) (κ := 6.5e-16)
    (fun v => by
      rw [precl_exact]
      refine (eul_near _ _ _ _ _ _ v).trans (mul_le_mul_of_nonneg_right ?_ (len_nonneg v))
      have := a1.err
      have := a2.err
      have := a3.err
      norm_num at *; linarith) i j
  have t := abs_sub_le (Fp.precl R sn cs ep0 ep1 i j)
    (eul (preclAngles R ep0 ep1).1 (preclAngles R ep0 ep1).2.1 (preclAngles R ep0 ep1).2.2 i j) (Sla.precl ep0 ep1 i j)
  have d' : |Fp.precl R sn cs ep0 ep1 i j -
    eul (preclAngles R ep0 ep1).1 (preclAngles R ep0 ep1).2.1 (preclAngles R ep0 ep1).2.2 i j| ≤ 5.4e-15 := d.trans (by norm_num)
  norm_num at *
  linarith

/-- C112: a matrix whose elements are within `κ` of a rotation applied to a vector. -/
private theorem mulVec_near (M N : Mat) {κ : ℝ} (h : ∀ i j, |M i j - N i j| ≤ κ) (v : Vec) : len (M *ᵥ v - N *ᵥ v) ≤ 3.1 * κ * len v := by
  have κ0 : 0 ≤ κ := (abs_nonneg _).trans (h 0 0)
  rw [← sub_mulVec]
  have hb : ∀ i, |((M - N) *ᵥ v) i| ≤ κ * (1.75 * len v) := by
    intro i
    have e : ((M - N) *ᵥ v) i = (M - N) i 0 * v 0 + (M - N) i 1 * v 1 + (M - N) i 2 * v 2 := by
      simp [Matrix.mulVec, dotProduct, Fin.sum_univ_three]
    have l1 : |v 0| + |v 1| + |v 2| ≤ 1.75 * len v := by
      have hl : len v ^ 2 = |v 0| ^ 2 + |v 1| ^ 2 + |v 2| ^ 2 := by
        rw [len, Real.sq_sqrt (by simp only [dotProduct, Fin.sum_univ_three]; nlinarith [sq_nonneg (v 0), sq_nonneg (v 1), sq_nonneg (v 2)])]
        simp only [dotProduct, Fin.sum_univ_three, sq_abs]; ring
      have hn := len_nonneg v
      refine abs_le_of_sq_le_sq' ?_ (by positivity) |>.2
      nlinarith [sq_nonneg (|v 0| - |v 1|), sq_nonneg (|v 1| - |v 2|), sq_nonneg (|v 0| - |v 2|), sq_nonneg (len v)]
    have m : ∀ j, |(M - N) i j * v j| ≤ κ * |v j| := fun j => by
      rw [abs_mul]; exact mul_le_mul_of_nonneg_right (h i j) (abs_nonneg _)
    rw [e]
    have a1 := abs_add_le ((M - N) i 0 * v 0 + (M - N) i 1 * v 1) ((M - N) i 2 * v 2)
    have a2 := abs_add_le ((M - N) i 0 * v 0) ((M - N) i 1 * v 1)
    have := m 0
    have := m 1
    have := m 2
    nlinarith
  have := len_le_of (ε := κ * (1.75 * len v)) (v := (M - N) *ᵥ v) hb
  have hn := mul_nonneg κ0 (len_nonneg v)
  nlinarith

/-- C112: applied to any vector the computed matrix and the exact one agree to 2e-14 of its length. -/
theorem C112_vectors (R : Rounding binary64) (sn cs : ℝ → ℝ) (hs : ∀ a, |sn a - Real.sin a| ≤ 2e-16)
    (hc : ∀ a, |cs a - Real.cos a| ≤ 2e-16) {ep0 ep1 : ℝ} (h0 : |ep0 - 2000| ≤ 1000) (h1 : |ep1 - ep0| ≤ 2000) (v : Vec) :
    len (Sla.dmxv (Fp.precl R sn cs ep0 ep1) v - Sla.dmxv (Sla.precl ep0 ep1) v) ≤ 2e-14 * len v := by
  rw [dmxv_eq, dmxv_eq]
  have := mulVec_near _ _ (C112_precl R sn cs hs hc h0 h1) v
  have := len_nonneg v
  norm_num at *
  linarith

/-- C112: the defect of the long-term model shows as computed: there is a direction that the matrices from 2000 to 3000 and back do not
    return closer than 5.9 milliarcseconds, while every direction is returned to 33 milliarcseconds per square millennium and 5e-14. -/
theorem C112_there_and_back (R : Rounding binary64) (sn cs : ℝ → ℝ) (hs : ∀ a, |sn a - Real.sin a| ≤ 2e-16)
    (hc : ∀ a, |cs a - Real.cos a| ≤ 2e-16) :
    (∃ v : Vec, len v = 1 ∧ 0.0059 / 3600 * (π / 180) ≤
      len (Sla.dmxv (Fp.precl R sn cs 3000 2000) (Sla.dmxv (Fp.precl R sn cs 2000 3000) v) - v)) ∧
    ∀ a ∈ Set.Icc (1000 : ℝ) 3000, ∀ b ∈ Set.Icc (1000 : ℝ) 3000, ∀ v : Vec,
      len (Sla.dmxv (Fp.precl R sn cs b a) (Sla.dmxv (Fp.precl R sn cs a b) v) - v) ≤
        (0.033 * ((b - a) / 1000) ^ 2 / 3600 * (π / 180) + 5e-14) * len v := by
  have key : ∀ a ∈ Set.Icc (1000 : ℝ) 3000, ∀ b ∈ Set.Icc (1000 : ℝ) 3000, ∀ v : Vec,
      len ((Sla.dmxv (Fp.precl R sn cs b a) (Sla.dmxv (Fp.precl R sn cs a b) v) - v) -
        (Sla.dmxv (Sla.precl b a) (Sla.dmxv (Sla.precl a b) v) - v)) ≤ 5e-14 * len v := by
    intro a ha b hb v
    have ha' : |a - 2000| ≤ 1000 := by rw [abs_le]; constructor <;> linarith [ha.1, ha.2]
    have hb' : |b - 2000| ≤ 1000 := by rw [abs_le]; constructor <;> linarith [hb.1, hb.2]
    have hab : |b - a| ≤ 2000 := by rw [abs_le]; constructor <;> linarith [hb.1, hb.2, ha.1, ha.2]
    have hba : |a - b| ≤ 2000 := by rw [abs_sub_comm]; exact hab
    have k1 := C112_vectors R sn cs hs hc ha' hab v
    set w := Sla.dmxv (Fp.precl R sn cs a b) v with hw
    set w' := Sla.dmxv (Sla.precl a b) v with hw'
    have lw' : len w' = len v := by rw [hw', dmxv_eq]; exact len_mulVec (C24_rotations a b).2.1 v
    have k2 := C112_vectors R sn cs hs hc hb' hba w
    have e : (Sla.dmxv (Fp.precl R sn cs b a) w - v) - (Sla.dmxv (Sla.precl b a) w' - v) =
        (Sla.dmxv (Fp.precl R sn cs b a) w - Sla.dmxv (Sla.precl b a) w) + Sla.precl b a *ᵥ (w - w') := by
      rw [mulVec_sub, ← dmxv_eq, ← dmxv_eq]; abel
    rw [e]
    have k3 := len_add_le (Sla.dmxv (Fp.precl R sn cs b a) w - Sla.dmxv (Sla.precl b a) w) (Sla.precl b a *ᵥ (w - w'))
    rw [len_mulVec (C24_rotations b a).2.1] at k3
    have k4 := len_add_le (w - w') w'
    rw [sub_add_cancel, lw'] at k4
    have := len_nonneg v
    norm_num at *
    linarith
  have p := Real.pi_gt_three
  constructor
  · obtain ⟨v, hv, h⟩ := C88_precl_not_reversible
    refine ⟨v, hv, ?_⟩
    have k := key 2000 ⟨by norm_num, by norm_num⟩ 3000 ⟨by norm_num, by norm_num⟩ v
    rw [hv] at k
    set x := Sla.dmxv (Fp.precl R sn cs 3000 2000) (Sla.dmxv (Fp.precl R sn cs 2000 3000) v) - v
    set y := Sla.dmxv (Sla.precl 3000 2000) (Sla.dmxv (Sla.precl 2000 3000) v) - v
    have t := len_add_le x (-(x - y))
    rw [show x + -(x - y) = y by abel, len_neg] at t
    norm_num at *
    linarith
  · intro a ha b hb v
    have k := key a ha b hb v
    have h := C88_precl_there_and_back ha hb v
    set x := Sla.dmxv (Fp.precl R sn cs b a) (Sla.dmxv (Fp.precl R sn cs a b) v) - v
    set y := Sla.dmxv (Sla.precl b a) (Sla.dmxv (Sla.precl a b) v) - v
    have t := len_add_le (x - y) y
    rw [sub_add_cancel] at t
    linarith

/-! ## C113 -/

/-- C113: in double precision the clock correction is within 7.3e-15 s of the exact one, for dates within 1000 years of J2000, any
    time of day, longitudes within 10 rad and distances up to 10000 km. -/
theorem C113_rcc (R : Rounding binary64) (sn cs : ℝ → ℝ) (hs : ∀ a, |sn a - Real.sin a| ≤ 2e-16)
    (hc : ∀ a, |cs a - Real.cos a| ≤ 2e-16) (tdb ut1 cl cda cdp : ℝ) (h : |tdb - 51544.5| ≤ 365250) (h1 : |cl| ≤ 10) (h2 : |cda| ≤ 1e4)
    (h3 : |cdp| ≤ 1e4) : |Fp.rcc R sn cs tdb ut1 cl cda cdp - Sla.rcc tdb ut1 cl cda cdp| ≤ 7.3e-15 :=
  (rcc_nb R.dbl hs hc h ut1 h1 h2 h3).err.trans (by norm_num)

/-- C113: whole days in UT1 change no bit of the result. -/
theorem C113_whole_days (R : Rounding binary64) (sn cs : ℝ → ℝ) (tdb cl cda cdp : ℝ) {ut1 : ℝ} (n : ℕ) (h : 0 ≤ ut1) :
    Fp.rcc R sn cs tdb (ut1 + n) cl cda cdp = Fp.rcc R sn cs tdb ut1 cl cda cdp := by
  have e : cfmod (ut1 + n) 1 = cfmod ut1 1 := by
    rw [(cfmod_nonneg h one_pos).1, (cfmod_nonneg (show 0 ≤ ut1 + n by positivity) one_pos).1]
    simp
  unfold Fp.rcc Fp.rccTopo
  dsimp only
  rw [e]

/-- C113: as computed, the place of the observer on the Earth changes the correction by no more than 2.34 microseconds. -/
theorem C113_topocentric (R : Rounding binary64) (sn cs : ℝ → ℝ) (hs : ∀ a, |sn a - Real.sin a| ≤ 2e-16)
    (hc : ∀ a, |cs a - Real.cos a| ≤ 2e-16) (tdb ut1 cl cda cdp ut1' cl' : ℝ) (h : |tdb - 51544.5| ≤ 365250) (h1 : |cl| ≤ 10) (h1' : |cl'| ≤ 10)
    (h2 : cda ^ 2 + cdp ^ 2 ≤ 6400 ^ 2) :
    |Fp.rcc R sn cs tdb ut1 cl cda cdp - Fp.rcc R sn cs tdb ut1' cl' 0 0| ≤ 2.34e-6 := by
  have a1 : |cda| ≤ 1e4 := abs_le_of_sq_le_sq (by nlinarith [sq_nonneg cdp]) (by norm_num)
  have a2 : |cdp| ≤ 1e4 := abs_le_of_sq_le_sq (by nlinarith [sq_nonneg cda]) (by norm_num)
  have k1 := C113_rcc R sn cs hs hc tdb ut1 cl cda cdp h h1 a1 a2
  have k2 := C113_rcc R sn cs hs hc tdb ut1' cl' 0 0 h h1' (by norm_num) (by norm_num)
  have k3 := (C73_topocentric tdb ut1 cl cda cdp).2.1 h2 ut1' cl'
  rw [abs_le] at *
  constructor <;> norm_num at * <;> linarith

/-- C113: as computed, the correction follows the annual sine to 77.2 microseconds within a century of J2000. -/
theorem C113_annual (R : Rounding binary64) (sn cs : ℝ → ℝ) (hs : ∀ a, |sn a - Real.sin a| ≤ 2e-16)
    (hc : ∀ a, |cs a - Real.cos a| ≤ 2e-16) (tdb ut1 cl cda cdp : ℝ) (h : |tdb - 51544.5| ≤ 36525) (h1 : |cl| ≤ 10)
    (h2 : |cda| ≤ 6400) (h3 : |cdp| ≤ 6400) :
    |Fp.rcc R sn cs tdb ut1 cl cda cdp - 1656.674564e-6 * Real.sin (6283.075849991 * ((tdb - 51544.5) / 365250) + 6.240054195)| ≤ 7.72e-5 := by
  have k1 := C113_rcc R sn cs hs hc tdb ut1 cl cda cdp (h.trans (by norm_num)) h1 (h2.trans (by norm_num)) (h3.trans (by norm_num))
  have k2 := C73_annual tdb ut1 cl cda cdp
  dsimp only at k2
  have ht : |(tdb - 51544.5) / 365250| ≤ 0.1 := by
    rw [abs_div, div_le_iff₀ (by norm_num)]; norm_num at *; linarith
  have h0 := abs_nonneg ((tdb - 51544.5) / 365250)
  generalize (tdb - 51544.5) / 365250 = t at *
  have t2 : |t| ^ 2 ≤ 0.1 ^ 2 := pow_le_pow_left₀ h0 ht 2
  have t3 : |t| ^ 3 ≤ 0.1 ^ 3 := pow_le_pow_left₀ h0 ht 3
  have t4 : |t| ^ 4 ≤ 0.1 ^ 4 := pow_le_pow_left₀ h0 ht 4
  have t5 := abs_sub_le (Fp.rcc R sn cs tdb ut1 cl cda cdp) (Sla.rcc tdb ut1 cl cda cdp) (1656.674564e-6 * Real.sin (6283.075849991 * t + 6.240054195))
  norm_num at *
  linarith

example : |(60000 : ℝ) - 51544.5| ≤ 36525 ∧ |(0.3 : ℝ)| ≤ 10 ∧ |(5500 : ℝ)| ≤ 6400 ∧ |(1950 : ℝ) - 2000| ≤ 1000 ∧
    (∃ R : Rounding binary64, ∃ sn cs : ℝ → ℝ, (∀ a, |sn a - Real.sin a| ≤ 2e-16) ∧ ∀ a, |cs a - Real.cos a| ≤ 2e-16) := by
  refine ⟨by norm_num [abs_of_pos], by norm_num [abs_of_pos], by norm_num, by norm_num, ieee binary64, Real.sin, Real.cos, ?_, ?_⟩ <;>
    intro a <;> norm_num

end Sla.Props
