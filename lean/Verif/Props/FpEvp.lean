/- C110: `evp` in single and double precision. -/
import Verif.Lemmas.FpEvpNear
import Verif.Lemmas.FpCat
import Verif.Props.FpEpv
import Verif.Props.FpCoords

noncomputable section
namespace Sla.Props
open Sla.Fp Real Sla.Spec _root_.Spec Matrix

private theorem element (M N : Mat) {κ : ℝ} (h : ∀ v, len (M *ᵥ v - N *ᵥ v) ≤ κ * len v) (i j : Fin 3) : |M i j - N i j| ≤ κ := by
  have h1 := (abs_le_len _ i).trans (h (Pi.single j 1))
  have hl : len (Pi.single j (1 : ℝ)) = 1 := by fin_cases j <;> simp [len, dotProduct, Pi.single_apply]
  rw [hl, mul_one] at h1
  simpa using h1

private theorem day_range {date : ℝ} (h : |date - 15019.5| ≤ 73050) : |date - 51544.5| ≤ 365250 ∧ |Sla.epj date - 2000| ≤ 301 := by
  have h0 := abs_le.1 h
  have e1 : -300 ≤ (date - 51544.5) / 365.25 := by rw [le_div_iff₀ (by norm_num)]; norm_num at *; linarith
  have e2 : (date - 51544.5) / 365.25 ≤ 100 := by rw [div_le_iff₀ (by norm_num)]; norm_num at *; linarith
  rw [Sla.epj, abs_le, abs_le]
  refine ⟨⟨?_, ?_⟩, ?_, ?_⟩ <;> linarith

/-- The precession matrix from the computed epoch. -/
private theorem prec_from (R : Rounding binary64) {sn cs : ℝ → ℝ} (hs : ∀ a, |sn a - Real.sin a| ≤ 2e-16)
    (hc : ∀ a, |cs a - Real.cos a| ≤ 2e-16) {date deqx : ℝ} (h : |date - 15019.5| ≤ 73050) (hq : |deqx - 2000| ≤ 1000) (i j : Fin 3) :
    |Fp.prec R sn cs (Fp.epj R date) deqx i j - Sla.prec (Sla.epj date) deqx i j| ≤ 6.3e-15 := by
  obtain ⟨d1, d2⟩ := day_range h
  have d3 : |deqx - Sla.epj date| ≤ 2000 := by
    have := abs_sub_le deqx 2000 (Sla.epj date)
    rw [abs_sub_comm 2000] at this
    linarith
  obtain ⟨a1, a2, a3⟩ := precAngles_from R.dbl d2 d3 (epj_near R d1)
  have d := C83_deuler R sn cs (ε := 2e-16) (by norm_num) (by norm_num) ['Z', 'Y', 'Z'] (-(precAngles R (Fp.epj R date) deqx).1)
    (precAngles R (Fp.epj R date) deqx).2.1 (-(precAngles R (Fp.epj R date) deqx).2.2) (fun a _ => ⟨hs a, hc a⟩) i j
  have k := element (eul (precAngles R (Fp.epj R date) deqx).1 (precAngles R (Fp.epj R date) deqx).2.1 (precAngles R (Fp.epj R date) deqx).2.2)
    (Sla.prec (Sla.epj date) deqx) (κ := 8.5e-16) (fun v => by
      rw [prec_exact]
      refine (eul_near _ _ _ _ _ _ v).trans (mul_le_mul_of_nonneg_right ?_ (len_nonneg v))
      norm_num at *; linarith) i j
  have := abs_sub_le (Fp.prec R sn cs (Fp.epj R date) deqx i j)
    (eul (precAngles R (Fp.epj R date) deqx).1 (precAngles R (Fp.epj R date) deqx).2.1 (precAngles R (Fp.epj R date) deqx).2.2 i j)
    (Sla.prec (Sla.epj date) deqx i j)
  have d' : |Fp.prec R sn cs (Fp.epj R date) deqx i j -
    eul (precAngles R (Fp.epj R date) deqx).1 (precAngles R (Fp.epj R date) deqx).2.1 (precAngles R (Fp.epj R date) deqx).2.2 i j| ≤
      9.1 * 2e-16 + 1 / 2 ^ 48 := d
  norm_num at *; linarith

private theorem entry {M : Mat} (hM : IsRotation M) (i j : Fin 3) : |M i j| ≤ 1 := by
  have h1 := abs_le_len (M *ᵥ Pi.single j 1) i
  have hl : len (Pi.single j (1 : ℝ)) = 1 := by fin_cases j <;> simp [len, dotProduct, Pi.single_apply]
  rw [len_mulVec hM, hl] at h1
  simpa using h1

/-- A vector multiplied by a matrix close to a rotation. -/
private theorem mulVec_from (R : Rounding binary64) {M' M : Mat} (hM : IsRotation M) (h : ∀ i j, |M' i j - M i j| ≤ 6.3e-15) {v' v : Vec}
    {e V : ℝ} (hV : 1e-8 ≤ V) (hv : ∀ i, |v' i - v i| ≤ e) (hl : len v ≤ V) (he : e ≤ 1e-6 * V) (i : Fin 3) :
    |Fp.dmxv R M' v' i - (M *ᵥ v) i| ≤ 1.74 * e + 2.1e-14 * V := by
  have hR := R.dbl
  have hB : ∀ j, |M i j| ≤ 1 := fun j => entry hM i j
  have hv' : ∀ j, |v' j| ≤ 1.00001 * V := fun j => by
    have h1 := abs_add_le (v' j - v j) (v j)
    rw [sub_add_cancel] at h1
    have h2 := (abs_le_len v j).trans hl
    linarith [hv j]
  have p : ∀ j, Nb (R (M' i j * v' j)) (M i j * v' j) (6.5e-15 * V) (1.00001 * V) := fun j =>
    hR.nmul (A := 1) (B := 1.00001 * V) (e := 6.3e-15) (f := 0) ⟨h i j, hB j⟩ (Nb.self (hv' j)) (by linarith) (by linarith)
  have z : Nb (0 : ℝ) 0 0 0 := Nb.self (by simp)
  have s0 := hR.nadd (C := 1.00001 * V) (g := 6.7e-15 * V) z (p 0) (by linarith) (by linarith)
  have s1 := hR.nadd (C := 2.00002 * V) (g := 1.35e-14 * V) s0 (p 1) (by linarith) (by linarith)
  have s2 := hR.nadd (C := 3.00003 * V) (g := 2.1e-14 * V) s1 (p 2) (by linarith) (by linarith)
  have e1 : 0 + M i 0 * v' 0 + M i 1 * v' 1 + M i 2 * v' 2 = (M *ᵥ v') i := by
    simp [Matrix.mulVec, dotProduct, Fin.sum_univ_three]
  rw [e1] at s2
  have k1 : |Fp.dmxv R M' v' i - (M *ᵥ v') i| ≤ 2.1e-14 * V := s2.err
  have k2 := abs_le_len (M *ᵥ (v' - v)) i
  rw [len_mulVec hM] at k2
  have k3 : len (v' - v) ≤ 1.74 * e := len_le_of hv
  rw [Matrix.mulVec_sub] at k2
  have k4 := abs_sub_le (Fp.dmxv R M' v' i) ((M *ᵥ v') i) ((M *ᵥ v) i)
  have k5 : |(M *ᵥ v') i - (M *ᵥ v) i| ≤ len (v' - v) := k2
  linarith

/-- From 1700 to 2100, the arithmetic of `evp`, partly in single and partly in double precision, gives each coordinate of the
    vectors referred to the equinox of date to the values in exact arithmetic: the heliocentric position to 6.1e-8 AU (9.2 km),
    the barycentric position to 9.38e-8 AU (14.1 km), and the velocities to 3.03e-14 and 3.08e-14 AU per second (4.7 mm/s). -/
theorem C110_evp_date (S : Rounding binary32) (D : Rounding binary64) {snf csf sn cs : ℝ → ℝ} (hsf : ∀ x, |snf x - Real.sin x| ≤ 1.2e-7)
    (hcf : ∀ x, |csf x - Real.cos x| ≤ 1.2e-7) (hs : ∀ x, |sn x - Real.sin x| ≤ 2e-16) (hc : ∀ x, |cs x - Real.cos x| ≤ 2e-16)
    {date deqx : ℝ} (h : |date - 15019.5| ≤ 73050) (hd : deqx ≤ 0) :
    let e := Fp.evp S D snf csf sn cs date deqx
    let x := Sla.evp date deqx
    (∀ i, |e.hpos i - x.hpos i| ≤ 6.1e-8) ∧ (∀ i, |e.hvelo i - x.hvelo i| ≤ 3.03e-14) ∧
    (∀ i, |e.bpos i - x.bpos i| ≤ 9.38e-8) ∧ (∀ i, |e.bvelo i - x.bvelo i| ≤ 3.08e-14) :=
  evp_date_near S.single D.dbl hsf hcf hs hc h (epj_near D (day_range h).1) hd

private theorem sz {x : ℝ → ℝ} {ε : ℝ} (h : 0 ≤ ε) : ∀ a, |x a - x a| ≤ ε := fun a => by rwa [sub_self, abs_zero]

example (S : Rounding binary32) (D : Rounding binary64) :
    |(Fp.evp S D Real.sin Real.cos Real.sin Real.cos 50100 0).bpos 1 - (Sla.evp 50100 0).bpos 1| ≤ 9.38e-8 :=
  (C110_evp_date S D (sz (by norm_num)) (sz (by norm_num)) (sz (by norm_num)) (sz (by norm_num))
    (by rw [abs_le]; constructor <;> norm_num) le_rfl).2.2.1 1

/-- The same for the mean equinox of a given epoch within 1000 years of J2000, to 1.07e-7 AU, 5.3e-14 AU per second,
    1.64e-7 AU and 5.4e-14 AU per second. -/
theorem C110_evp_equinox (S : Rounding binary32) (D : Rounding binary64) {snf csf sn cs : ℝ → ℝ} (hsf : ∀ x, |snf x - Real.sin x| ≤ 1.2e-7)
    (hcf : ∀ x, |csf x - Real.cos x| ≤ 1.2e-7) (hs : ∀ x, |sn x - Real.sin x| ≤ 2e-16) (hc : ∀ x, |cs x - Real.cos x| ≤ 2e-16)
    {date deqx : ℝ} (h : |date - 15019.5| ≤ 73050) (hq : |deqx - 2000| ≤ 1000) :
    let e := Fp.evp S D snf csf sn cs date deqx
    let x := Sla.evp date deqx
    (∀ i, |e.hpos i - x.hpos i| ≤ 1.07e-7) ∧ (∀ i, |e.hvelo i - x.hvelo i| ≤ 5.3e-14) ∧
    (∀ i, |e.bpos i - x.bpos i| ≤ 1.64e-7) ∧ (∀ i, |e.bvelo i - x.bvelo i| ≤ 5.4e-14) := by
  intro e x
  have hpos : 0 < deqx := by have := abs_le.1 hq; linarith
  obtain ⟨q1, q2, q3, q4⟩ := C110_evp_date S D hsf hcf hs hc h (le_refl (0 : ℝ))
  obtain ⟨x1, x2, x3, x4, -⟩ := C75_equinox date deqx 0 hpos le_rfl
  obtain ⟨-, l1, -, l2, l3, l4⟩ := C75_distance date 0 (h.trans (by norm_num))
  have l5 : len (Sla.evp date 0).bpos ≤ 1.03 := by
    have := len_add_le ((Sla.evp date 0).bpos - (Sla.evp date 0).hpos) (Sla.evp date 0).hpos
    rw [sub_add_cancel] at this
    linarith
  have l6 : len (Sla.evp date 0).bvelo ≤ 2.04e-7 := by
    have := len_add_le ((Sla.evp date 0).bvelo - (Sla.evp date 0).hvelo) (Sla.evp date 0).hvelo
    rw [sub_add_cancel] at this
    linarith
  have hM := (C24_rotations (Sla.epj date) deqx).1
  have hN := fun i j => prec_from D hs hc h hq i j
  have e1 : ∀ v' : EarthPV, v' = Fp.evp S D snf csf sn cs date 0 →
      e = ⟨Fp.dmxv D (Fp.prec D sn cs (Fp.epj D date) deqx) v'.hpos, Fp.dmxv D (Fp.prec D sn cs (Fp.epj D date) deqx) v'.hvelo,
        Fp.dmxv D (Fp.prec D sn cs (Fp.epj D date) deqx) v'.bpos, Fp.dmxv D (Fp.prec D sn cs (Fp.epj D date) deqx) v'.bvelo⟩ := by
    rintro _ rfl
    simp only [e, Fp.evp, gt_iff_lt, hpos, if_true, lt_irrefl, if_false]
  rw [e1 _ rfl]
  simp only [x, x1, x2, x3, x4]
  refine ⟨fun i => (mulVec_from D hM hN (V := 1.0172) (by norm_num) q1 l1 (by norm_num) i).trans (by norm_num),
    fun i => (mulVec_from D hM hN (V := 2.029e-7) (by norm_num) q2 l2 (by norm_num) i).trans (by norm_num),
    fun i => (mulVec_from D hM hN (V := 1.03) (by norm_num) q3 l5 (by norm_num) i).trans (by norm_num),
    fun i => (mulVec_from D hM hN (V := 2.04e-7) (by norm_num) q4 l6 (by norm_num) i).trans (by norm_num)⟩

example (S : Rounding binary32) (D : Rounding binary64) :
    |(Fp.evp S D Real.sin Real.cos Real.sin Real.cos 50100 1990).bpos 1 - (Sla.evp 50100 1990).bpos 1| ≤ 1.64e-7 :=
  (C110_evp_equinox S D (sz (by norm_num)) (sz (by norm_num)) (sz (by norm_num)) (sz (by norm_num))
    (by rw [abs_le]; constructor <;> norm_num) (by norm_num)).2.2.1 1

private theorem len_close {v w : Vec} {e : ℝ} (h : ∀ i, |v i - w i| ≤ e) : len (v - w) ≤ 1.74 * e ∧ |len v - len w| ≤ 1.74 * e := by
  have h1 : len (v - w) ≤ 1.74 * e := len_le_of h
  refine ⟨h1, abs_le.2 ⟨?_, ?_⟩⟩
  · have := len_add_le v (w - v)
    rw [add_sub_cancel, show len (w - v) = len (v - w) by rw [← neg_sub, len_neg]] at this
    linarith
  · have := len_add_le w (v - w)
    rw [add_sub_cancel] at this
    linarith

/-- As computed, the Earth is at its distance from the Sun and has its speed. -/
theorem C110_distance (S : Rounding binary32) (D : Rounding binary64) {snf csf sn cs : ℝ → ℝ} (hsf : ∀ x, |snf x - Real.sin x| ≤ 1.2e-7)
    (hcf : ∀ x, |csf x - Real.cos x| ≤ 1.2e-7) (hs : ∀ x, |sn x - Real.sin x| ≤ 2e-16) (hc : ∀ x, |cs x - Real.cos x| ≤ 2e-16)
    {date deqx : ℝ} (h : |date - 15019.5| ≤ 73050) (hq : deqx ≤ 0 ∨ |deqx - 2000| ≤ 1000) :
    let e := Fp.evp S D snf csf sn cs date deqx
    0.9828 ≤ len e.hpos ∧ len e.hpos ≤ 1.0173 ∧ 1.9529e-7 ≤ len e.hvelo ∧ len e.hvelo ≤ 2.0291e-7 := by
  intro e
  have k : (∀ i, |e.hpos i - (Sla.evp date deqx).hpos i| ≤ 1.07e-7) ∧ (∀ i, |e.hvelo i - (Sla.evp date deqx).hvelo i| ≤ 5.3e-14) := by
    rcases hq with hq | hq
    · obtain ⟨h1, h2, -⟩ := C110_evp_date S D hsf hcf hs hc h hq
      exact ⟨fun i => (h1 i).trans (by norm_num), fun i => (h2 i).trans (by norm_num)⟩
    · obtain ⟨h1, h2, -⟩ := C110_evp_equinox S D hsf hcf hs hc h hq
      exact ⟨h1, h2⟩
  obtain ⟨l0, l1, l2, l3, -⟩ := C75_distance date deqx (h.trans (by norm_num))
  obtain ⟨a1, a2⟩ := abs_le.1 (len_close k.1).2
  obtain ⟨b1, b2⟩ := abs_le.1 (len_close k.2).2
  refine ⟨?_, ?_, ?_, ?_⟩ <;> linarith

/-- From 1900 to 2100 the heliocentric positions that `evp`, for the equinox of J2000, and `epv` compute are within 1.001e-3 AU of
    each other. -/
theorem C110_epv (S : Rounding binary32) (D : Rounding binary64) {snf csf sn cs : ℝ → ℝ} (hsf : ∀ x, |snf x - Real.sin x| ≤ 1.2e-7)
    (hcf : ∀ x, |csf x - Real.cos x| ≤ 1.2e-7) (hs : ∀ x, |sn x - Real.sin x| ≤ 2e-16) (hc : ∀ x, |cs x - Real.cos x| ≤ 2e-16)
    {date : ℝ} (h : |date - 51544.5| ≤ 36525) :
    len ((Fp.epv D sn cs date).hpos - (Fp.evp S D snf csf sn cs date 2000).hpos) ≤ 1.001e-3 := by
  have h0 := abs_le.1 h
  have hj : Sla.epj date ∈ Set.Icc (1900 : ℝ) 2100 := by
    have e1 : -100 ≤ (date - 51544.5) / 365.25 := by rw [le_div_iff₀ (by norm_num)]; norm_num at *; linarith
    have e2 : (date - 51544.5) / 365.25 ≤ 100 := by rw [div_le_iff₀ (by norm_num)]; norm_num at *; linarith
    unfold Sla.epj
    exact ⟨by linarith, by linarith⟩
  have h1 := (len_close (C109_epv D hs hc h).1).1
  have h2 := C100_agreement date hj
  have h3 := (len_close (C110_evp_equinox S D hsf hcf hs hc (date := date) (deqx := 2000)
    (by rw [abs_le]; constructor <;> linarith) (by norm_num)).1).1
  set x := (Fp.epv D sn cs date).hpos
  set y := (Sla.epv date).hpos
  set z := (Sla.evp date 2000).hpos
  set w := (Fp.evp S D snf csf sn cs date 2000).hpos
  have e1 : x - w = (x - y) + ((y - z) + (z - w)) := by abel
  rw [e1]
  have t1 := len_add_le (x - y) ((y - z) + (z - w))
  have t2 := len_add_le (y - z) (z - w)
  rw [show len (z - w) = len (w - z) by rw [← neg_sub, len_neg]] at t2
  linarith

example : |(53736 : ℝ) - 51544.5| ≤ 36525 := by norm_num [abs_le]

/-- Between 1901 and 2099, the Earth that `earth` computes in single precision for the year and day that `clyd` gives, and that of
    `evp` for the date that `cldj` gives and the equinox of date, are within 3.3e-4 AU, and their velocities within 1.9e-10 AU per
    second. -/
theorem C110_earth (S : Rounding binary32) (D : Rounding binary64) {snf csf sn cs : ℝ → ℝ} (hsf : ∀ x, |snf x - Real.sin x| ≤ 1.2e-7)
    (hcf : ∀ x, |csf x - Real.cos x| ≤ 1.2e-7) (hs : ∀ x, |sn x - Real.sin x| ≤ 2e-16) (hc : ∀ x, |cs x - Real.cos x| ≤ 2e-16)
    {d : YMD} (hv : d.Valid) (hy : 1901 ≤ d.year) (hy' : d.year ≤ 2099) {f : ℝ} (hf : 0 ≤ f) (hf' : f ≤ 1) (old deqx : ℝ) (hd : deqx ≤ 0)
    (a b : ℤ) :
    let c := clyd d.year d.month d.day a b
    let low := Fp.earth S D snf csf c.2.1 c.2.2 f
    let high := Fp.evp S D snf csf sn cs ((cldj d.year d.month d.day old).2 + f) deqx
    len (high.hpos - low.pos) ≤ 3.3e-4 ∧ len (high.hvelo - low.vel) ≤ 1.9e-10 := by
  intro c low high
  obtain ⟨o1, o2, c1, c2⟩ := date_bounds hv hy hy'
  have hcl : c = (.ok, d.year, ordinalDay (decide (isLeap d.year)) d.month d.day) :=
    C05_clyd_gregorian d hv hy (Or.inl (by show d.year < 2100; omega)) a b
  have hcj : (cldj d.year d.month d.day old).2 = (cldjExpr d.year d.month d.day : ℝ) := by
    unfold cldj
    rw [if_pos (by omega), if_pos ⟨hv.1, hv.2.1⟩]
  have c1' : (15020 : ℝ) ≤ cldjExpr d.year d.month d.day := by exact_mod_cast c1
  have c2' : (cldjExpr d.year d.month d.day : ℝ) ≤ 88068 := by exact_mod_cast c2
  have hd' : |(cldj d.year d.month d.day old).2 + f - 15019.5| ≤ 73050 := by rw [hcj, abs_le]; constructor <;> linarith
  obtain ⟨h1, h2⟩ := C76_agreement d hv f old deqx a b hd' (by omega) hd
  obtain ⟨h3, h4, -⟩ := C110_evp_date S D hsf hcf hs hc hd' hd
  obtain ⟨h5, h6⟩ := C97_earth S D hsf hcf (year := c.2.1) (day := c.2.2) (f := f) (by rw [hcl]; show 1900 ≤ d.year; omega)
    (by rw [hcl]; show d.year ≤ 2100; omega) (by rw [hcl]; exact o1) (by rw [hcl]; exact o2) hf hf'
  have main : ∀ {u v u' v' : Vec} {p q r : ℝ}, (∀ i, |u' i - u i| ≤ p) → (∀ i, |v' i - v i| ≤ q) → len (u - v) ≤ r →
      len (u' - v') ≤ r + 1.74 * p + 1.74 * q := by
    intro u v u' v' p q r hp hq hr
    have e1 : u' - v' = (u - v) + ((u' - u) + (v - v')) := by abel
    rw [e1]
    have t1 := len_add_le (u - v) ((u' - u) + (v - v'))
    have t2 := len_add_le (u' - u) (v - v')
    rw [show len (v - v') = len (v' - v) by rw [← neg_sub, len_neg]] at t2
    have := (len_close hp).1
    have := (len_close hq).1
    linarith
  exact ⟨(main h3 h5 h1).trans (by norm_num), (main h4 h6 h2).trans (by norm_num)⟩

example : (⟨1969, 7, 20⟩ : YMD).Valid ∧ (1901 : ℤ) ≤ 1969 ∧ (1969 : ℤ) ≤ 2099 ∧ (0 : ℝ) ≤ 0.84 ∧ (0.84 : ℝ) ≤ 1 := by
  refine ⟨by decide, by norm_num, by norm_num, by norm_num, by norm_num⟩

end Sla.Props
