import Verif.Lemmas.FpCat

/-
Property theorems C107: the E-terms of aberration, the old galactic coordinates and proper motion in double precision.
-/
namespace Sla.Props
open Sla.Fp Sla.Spec Matrix

private theorem mul_bound {a b A B : ℝ} (ha : |a| ≤ A) (hb : |b| ≤ B) : |a * b| ≤ A * B := by
  rw [abs_mul]; exact mul_le_mul ha hb (abs_nonneg _) ((abs_nonneg _).trans ha)

private theorem ulp53 : 1.5 * (1 / 2 ^ 53) ≤ (1.7e-16 : ℝ) := by norm_num

/-- C107: within 1000 years of 1950 each component of the E-terms in double precision is within 2e-20 of that of exact arithmetic
    (1e-14 of the size of the vector), plus 4e-6 times the error of the library's sine and cosine. -/
theorem C107_etrms (R : Rounding binary64) (sn cs : ℝ → ℝ) {ε : ℝ} (hε : ε ≤ 1e-3) (hs : ∀ a, |sn a - Real.sin a| ≤ ε)
    (hc : ∀ a, |cs a - Real.cos a| ≤ ε) (be : ℝ) (h : |be - 1950| ≤ 1000) (i : Fin 3) :
    |Fp.etrms R sn cs be i - Sla.etrms be i| ≤ 2e-20 + 4e-6 * ε := etrms_near R.dbl hε hs hc h i

private theorem size {be : ℝ} (h : |be - 1950| ≤ 1000) : len (Sla.etrms be) ≤ 2.5e-6 := C47_size be (h.trans (by norm_num))

private theorem plus_len {u e : Vec} (hu : len u = 1) (he : len e ≤ 2.5e-6) : 0.9999 ≤ len (u + e) := by
  have := len_sub_le (u + e) e
  rw [add_sub_cancel_right, hu] at this
  norm_num at *; linarith

private theorem minus_len {u e : Vec} (hu : len u = 1) (he : len e ≤ 2.5e-6) : 0.9999 ≤ len ((1 + u ⬝ᵥ e) • u - e) := by
  have h := len_add_le ((1 + u ⬝ᵥ e) • u - e) e
  have hd := abs_le.1 ((abs_dot_le hu).trans he)
  rw [sub_add_cancel, len_smul, hu, mul_one] at h
  have := le_abs_self (1 + u ⬝ᵥ e)
  norm_num at *; linarith [hd.1]

private theorem directions_from (R : Rounding binary64) (sn cs : ℝ → ℝ) (at2 : ℝ → ℝ → ℝ) {ε ε' c : ℝ} (hε : ε ≤ 1e-3) (hε' : ε' ≤ 0.1)
    (hs : ∀ a, |sn a - Real.sin a| ≤ ε) (hc : ∀ a, |cs a - Real.cos a| ≤ ε) (ha : Atan2Near at2 ε')
    (hrep : ∀ y x, binary64.Rep (at2 y x)) (s' s : Spherical) (hcd : len (direction s'.a s'.b - direction s.a s.b) ≤ c)
    (hc1 : c ≤ 0.036) (be : ℝ) (h : |be - 1950| ≤ 1000) :
    ∀ f ∈ [(Fp.addet R sn cs at2 s' be, Sla.addet s be), (Fp.subet R sn cs at2 s' be, Sla.subet s be)],
      angleBetween (direction f.1.a f.1.b) (direction f.2.a f.2.b) ≤ 6e-15 + 5 * ε + 3.2 * ε' + 1.5711 * c ∧
        0 ≤ f.1.a ∧ f.1.a < 2 * Real.pi ∧ |f.1.b| ≤ Real.pi / 2 + ε' := by
  have ε0 : 0 ≤ ε := (abs_nonneg _).trans (hs 0)
  have c0 : 0 ≤ c := (len_nonneg _).trans hcd
  have d0 := (dcs2c_near R sn cs hε hs hc s'.a s'.b).trans (add_le_add le_rfl ulp53)
  have d1 := len_add_le (Fp.dcs2c R sn cs s'.a s'.b - direction s'.a s'.b) (direction s'.a s'.b - direction s.a s.b)
  rw [sub_add_sub_cancel] at d1
  replace d1 := d1.trans (add_le_add d0 hcd)
  have hu : len (direction s.a s.b) = 1 := len_direction _ _
  have he := etrms_near R.dbl hε hs hc h
  have hl := size h
  have dδ : 3.1 * ε + 1.7e-16 + c ≤ 0.045 := by norm_num at *; linarith
  obtain ⟨⟨⟨k, hk, ek⟩, -⟩, ⟨⟨m, hm, em⟩, -⟩⟩ := C47_directions s be
  have w1 := plus_len hu hl
  have w2 := minus_len hu hl
  intro f hf
  simp only [List.mem_cons, List.not_mem_nil, or_false] at hf
  rcases hf with rfl | rfl
  · have d2 := plus_near R.dbl hu d1 dδ ε0 hl he
    obtain ⟨f1, f2, f3, f4, -⟩ := angles_of_near R hε' ha hrep hk ek (κ := 1.571) (le_trans (by norm_num) w1) d2
      (by norm_num at *; linarith) (by norm_num at *; linarith)
    exact ⟨f1.trans (by norm_num at *; linarith), f2, f3, f4⟩
  · have d2 := minus_near R.dbl hu d1 dδ ε0 hl he
    obtain ⟨f1, f2, f3, f4, -⟩ := angles_of_near R hε' ha hrep hm em (κ := 1.571) (le_trans (by norm_num) w2) d2
      (by norm_num at *; linarith) (by norm_num at *; linarith)
    exact ⟨f1.trans (by norm_num at *; linarith), f2, f3, f4⟩

/-- C107: `addet` and `subet` in double precision return a direction within 6e-15 rad of that given by exact arithmetic, plus 5
    times the error of the library's sine and cosine and 3.2 times that of its arctangent, with the right ascension in the range
    0 to 2 pi, for every direction and every epoch within 1000 years of 1950. -/
theorem C107_directions (R : Rounding binary64) (sn cs : ℝ → ℝ) (at2 : ℝ → ℝ → ℝ) {ε ε' : ℝ} (hε : ε ≤ 1e-3) (hε' : ε' ≤ 0.1)
    (hs : ∀ a, |sn a - Real.sin a| ≤ ε) (hc : ∀ a, |cs a - Real.cos a| ≤ ε) (ha : Atan2Near at2 ε')
    (hrep : ∀ y x, binary64.Rep (at2 y x)) (s : Spherical) (be : ℝ) (h : |be - 1950| ≤ 1000) :
    ∀ f ∈ [(Fp.addet R sn cs at2 s be, Sla.addet s be), (Fp.subet R sn cs at2 s be, Sla.subet s be)],
      angleBetween (direction f.1.a f.1.b) (direction f.2.a f.2.b) ≤ 6e-15 + 5 * ε + 3.2 * ε' ∧
        0 ≤ f.1.a ∧ f.1.a < 2 * Real.pi ∧ |f.1.b| ≤ Real.pi / 2 + ε' := by
  intro f hf
  have := directions_from R sn cs at2 (c := 0) hε hε' hs hc ha hrep s s (by rw [sub_self]; norm_num [len]) (by norm_num) be h f hf
  rwa [mul_zero, add_zero] at this

/-- C107: adding the E-terms and removing them again, in either order, in double precision moves a star by less than 1.6e-14 rad,
    plus 13 times the error of the library's sine and cosine and 8.3 times that of its arctangent. -/
theorem C107_round_trip (R : Rounding binary64) (sn cs : ℝ → ℝ) (at2 : ℝ → ℝ → ℝ) {ε ε' : ℝ} (hε : ε ≤ 1e-3) (hε' : ε' ≤ 8e-3)
    (hs : ∀ a, |sn a - Real.sin a| ≤ ε) (hc : ∀ a, |cs a - Real.cos a| ≤ ε) (ha : Atan2Near at2 ε')
    (hrep : ∀ y x, binary64.Rep (at2 y x)) (s : Spherical) (be : ℝ) (h : |be - 1950| ≤ 1000) :
    ∀ p ∈ [Fp.subet R sn cs at2 (Fp.addet R sn cs at2 s be) be, Fp.addet R sn cs at2 (Fp.subet R sn cs at2 s be) be],
      angleBetween (direction p.a p.b) (direction s.a s.b) ≤ 1.6e-14 + 13 * ε + 8.3 * ε' := by
  have ε0 : 0 ≤ ε := (abs_nonneg _).trans (hs 0)
  have ε0' : 0 ≤ ε' := (abs_nonneg _).trans (ha.1 0 0 (Or.inr le_rfl))
  have hε1 : ε' ≤ 0.1 := hε'.trans (by norm_num)
  have first := C107_directions R sn cs at2 hε hε1 hs hc ha hrep s be h
  have c1 := (chord_le_angle (len_direction _ _) (len_direction _ _)).trans (first (Fp.addet R sn cs at2 s be, Sla.addet s be) (by simp)).1
  have c2 := (chord_le_angle (len_direction _ _) (len_direction _ _)).trans (first (Fp.subet R sn cs at2 s be, Sla.subet s be) (by simp)).1
  have hb : 6e-15 + 5 * ε + 3.2 * ε' ≤ 0.036 := by norm_num at *; linarith
  have hp := Real.pi_lt_d2
  obtain ⟨r1, r2, r3⟩ := C47_round_trip s be (h.trans (by norm_num))
  have t1 := fp_angle_near (len_direction _ _) (by norm_num) (r1.trans r3)
  have t2 := fp_angle_near (len_direction _ _) (by norm_num) (r2.trans r3)
  intro p hpm
  simp only [List.mem_cons, List.not_mem_nil, or_false] at hpm
  rcases hpm with rfl | rfl
  · have a1 := (directions_from R sn cs at2 hε hε1 hs hc ha hrep (Fp.addet R sn cs at2 s be) (Sla.addet s be) c1 hb be h
      (Fp.subet R sn cs at2 (Fp.addet R sn cs at2 s be) be, Sla.subet (Sla.addet s be) be) (by simp)).1
    refine (angle_triangle _ _ _).trans ((add_le_add a1 t1).trans ?_)
    norm_num at *; linarith
  · have a1 := (directions_from R sn cs at2 hε hε1 hs hc ha hrep (Fp.subet R sn cs at2 s be) (Sla.subet s be) c2 hb be h
      (Fp.addet R sn cs at2 (Fp.subet R sn cs at2 s be) be, Sla.addet (Sla.subet s be) be) (by simp)).1
    refine (angle_triangle _ _ _).trans ((add_le_add a1 t2).trans ?_)
    norm_num at *; linarith

/-! ### Old galactic coordinates -/

private theorem lit_half (R : Rounding binary64) {x : ℝ} (h0 : 0 ≤ x) (h1 : x < 1) : |R x - x| ≤ 0.5 * (1 / 2 ^ 53) := by
  have h := R.abs_sub_le x (k := 0) (by norm_num [binary64]) (by rw [abs_of_nonneg h0]; simpa using h1)
  rw [abs_sub_comm]
  refine h.trans ?_
  norm_num [binary64]

private theorem neg_half (R : Rounding binary64) {x : ℝ} (h0 : 0 ≤ x) (h1 : x < 1) : |-R x - -x| ≤ 0.5 * (1 / 2 ^ 53) := by
  rw [show -R x - -x = -(R x - x) by ring, abs_neg]; exact lit_half R h0 h1

private theorem gal50_entries (R : Rounding binary64) (i j : Fin 3) : |Fp.gal50Mat R i j - Sla.gal50Mat i j| ≤ 0.5 * (1 / 2 ^ 53) := by
  fin_cases i <;> fin_cases j <;> simp only [Fp.gal50Mat, Sla.gal50Mat, Fin.zero_eta, Fin.mk_one, Fin.reduceFinMk, Matrix.of_apply,
    Matrix.cons_val_zero, Matrix.cons_val_one, Matrix.cons_val] <;>
    first
    | exact neg_half R (by norm_num) (by norm_num)
    | exact lit_half R (by norm_num) (by norm_num)

private theorem gal50_orth : (∀ i j, |(Sla.gal50Matᵀ * Sla.gal50Mat - 1) i j| ≤ 1e-10) ∧
    ∀ i j, |(Sla.gal50Mat * Sla.gal50Matᵀ - 1) i j| ≤ 1e-10 := by
  constructor <;> intro i j <;> fin_cases i <;> fin_cases j <;>
    simp [Sla.gal50Mat, Matrix.mul_apply, Matrix.vecMul, dotProduct, Fin.sum_univ_three] <;> rw [abs_le] <;> constructor <;> norm_num

/-- C107: in double precision `eg50` and `ge50` return a direction within 1.6e-14 rad of that given by exact arithmetic, plus 13
    times the error of the library's sine and cosine and 8.3 times that of its arctangent, with the longitude (right ascension)
    in the range 0 to 2 pi, 2 pi excluded, for every direction. -/
theorem C107_galactic (R : Rounding binary64) (sn cs : ℝ → ℝ) (at2 : ℝ → ℝ → ℝ) {ε ε' : ℝ} (hε : ε ≤ 1e-3) (hε' : ε' ≤ 8e-3)
    (hs : ∀ a, |sn a - Real.sin a| ≤ ε) (hc : ∀ a, |cs a - Real.cos a| ≤ ε) (ha : Atan2Near at2 ε')
    (hrep : ∀ y x, binary64.Rep (at2 y x)) (s : Spherical) :
    ∀ f ∈ [(Fp.eg50 R sn cs at2 s, Sla.eg50 s), (Fp.ge50 R sn cs at2 s, Sla.ge50 s)],
      angleBetween (direction f.1.a f.1.b) (direction f.2.a f.2.b) ≤ 1.6e-14 + 13 * ε + 8.3 * ε' ∧
        0 ≤ f.1.a ∧ f.1.a < 2 * Real.pi ∧ |f.1.b| ≤ Real.pi / 2 + ε' := by
  have ε0 : 0 ≤ ε := (abs_nonneg _).trans (hs 0)
  have ε0' : 0 ≤ ε' := (abs_nonneg _).trans (ha.1 0 0 (Or.inr le_rfl))
  have hε1 : ε' ≤ 0.1 := hε'.trans (by norm_num)
  have h50 : |(1950 : ℝ) - 1950| ≤ 1000 := by norm_num
  have hl := size h50
  have he := etrms_near R.dbl hε hs hc h50
  intro f hf
  simp only [List.mem_cons, List.not_mem_nil, or_false] at hf
  rcases hf with rfl | rfl
  · have c1 := (C107_directions R sn cs at2 hε hε1 hs hc ha hrep s 1950 h50
      (Fp.subet R sn cs at2 s 1950, Sla.subet s 1950) (by simp)).1
    set p' := Fp.subet R sn cs at2 s 1950 with hp'
    set p := Sla.subet s 1950 with hp
    have c2 := (chord_le_angle (len_direction _ _) (len_direction _ _)).trans c1
    have c3 := (dcs2c_near R sn cs hε hs hc p'.a p'.b).trans (add_le_add le_rfl ulp53)
    have c4 := len_add_le (Fp.dcs2c R sn cs p'.a p'.b - direction p'.a p'.b) (direction p'.a p'.b - direction p.a p.b)
    rw [sub_add_sub_cancel] at c4
    have c5 := c4.trans (add_le_add c3 c2)
    obtain ⟨t1, t2⟩ := table_step R (gal50_entries R) gal50_orth.1 gal50_orth.2 (len_direction _ _) c5 (by norm_num at *; linarith)
    have ex := (reduce_spec (Sla.gal50Mat *ᵥ direction p.a p.b)).1
    obtain ⟨f1, f2, f3, f4, f5⟩ := angles_of_near R hε1 ha hrep (len_nonneg _) ex (κ := 1.573) (le_trans (by norm_num) t2) t1
      (by norm_num at *; linarith) (by norm_num at *; linarith)
    have e1 : Fp.eg50 R sn cs at2 s = ⟨Fp.dranrm R (Fp.dcc2s R at2 (Fp.dmxv R (Fp.gal50Mat R) (Fp.dcs2c R sn cs p'.a p'.b))).1,
        (Fp.dcc2s R at2 (Fp.dmxv R (Fp.gal50Mat R) (Fp.dcs2c R sn cs p'.a p'.b))).2⟩ := by
      simp only [Fp.eg50, ← hp', f5]
    have e2 : Sla.eg50 s = ⟨Sla.dranrm (Sla.dcc2s (Sla.gal50Mat *ᵥ direction p.a p.b)).a,
        (Sla.dcc2s (Sla.gal50Mat *ᵥ direction p.a p.b)).b⟩ := by
      simp only [Sla.eg50, ← hp, dcs2c_eq, dmxv_eq, (reduce_spec _).2.2.2.2]
    simp only [e1, e2]
    exact ⟨f1.trans (by norm_num at *; linarith), f2, f3, f4⟩
  · have gT : ∀ i j, |(Fp.gal50Mat R)ᵀ i j - Sla.gal50Matᵀ i j| ≤ 0.5 * (1 / 2 ^ 53) := fun i j => gal50_entries R j i
    have c1 := (dcs2c_near R sn cs hε hs hc s.a s.b).trans (add_le_add le_rfl ulp53)
    obtain ⟨t1, t2⟩ := table_step R gT (by rw [Matrix.transpose_transpose]; exact gal50_orth.2)
      (by rw [Matrix.transpose_transpose]; exact gal50_orth.1) (len_direction s.a s.b) c1 (by norm_num at *; linarith)
    set r := Fp.dcc2s R at2 (Fp.dimxv R (Fp.gal50Mat R) (Fp.dcs2c R sn cs s.a s.b)) with hr
    set p := Sla.dcc2s (Sla.gal50Matᵀ *ᵥ direction s.a s.b) with hp
    have ex : Sla.gal50Matᵀ *ᵥ direction s.a s.b = len (Sla.gal50Matᵀ *ᵥ direction s.a s.b) • direction p.a p.b :=
      (C25_dcc2s _).1
    have c2 : angleBetween (direction r.1 r.2) (direction p.a p.b) ≤ _ :=
      raw_of_near R hε1 ha (len_nonneg _) ex t2 t1 (by norm_num at *; linarith)
    have c3 := (chord_le_angle (len_direction _ _) (len_direction _ _)).trans c2
    have c4 := (dcs2c_near R sn cs hε hs hc r.1 r.2).trans (add_le_add le_rfl ulp53)
    have c5 := len_add_le (Fp.dcs2c R sn cs r.1 r.2 - direction r.1 r.2) (direction r.1 r.2 - direction p.a p.b)
    rw [sub_add_sub_cancel] at c5
    have c6 := c5.trans (add_le_add c4 c3)
    have d2 := plus_near R.dbl (len_direction _ _) c6 (by norm_num at *; linarith) ε0 hl he
    obtain ⟨⟨k, hk, ek⟩, -⟩ := (C47_directions p 1950).1
    have w1 := plus_len (len_direction p.a p.b) hl
    obtain ⟨f1, f2, f3, f4, f5⟩ := angles_of_near R hε1 ha hrep hk ek (κ := 1.571) (le_trans (by norm_num) w1) d2
      (by norm_num at *; linarith) (by norm_num at *; linarith)
    set q := Fp.addet R sn cs at2 ⟨r.1, r.2⟩ 1950 with hq
    have e1 : Fp.ge50 R sn cs at2 s = ⟨Fp.dranrm R q.a, q.b⟩ := by
      have : Fp.drange R q.b = q.b := f5
      simp only [Fp.ge50, ← hr, ← hq, this]
    have e2 : direction (Sla.ge50 s).a (Sla.ge50 s).b = direction (Sla.addet p 1950).a (Sla.addet p 1950).b := by
      have hr := (reduce_spec (fun i => Sla.dcs2c p i + Sla.etrms 1950 i)).2.2.2.2
      simp only [Sla.ge50, dimxv_eq, dcs2c_eq, ← hp, Sla.addet, addetWith] at hr ⊢
      simp only [hr, direction_dranrm]
    have g0 : angleBetween (direction q.a q.b) (direction (Sla.addet p 1950).a (Sla.addet p 1950).b) ≤ _ := f1
    obtain ⟨g1, g2, g3⟩ := dranrm_again R (dranrm_rep R _) f2 f3 q.b
    have g1' : len (direction (Fp.dranrm R q.a) q.b - direction q.a q.b) ≤ 2.5e-16 := g1
    have g4 := fp_angle_near (len_direction _ _) (by norm_num) g1'
    have g5 := angle_triangle (direction (Fp.dranrm R q.a) q.b) (direction q.a q.b)
      (direction (Sla.addet p 1950).a (Sla.addet p 1950).b)
    simp only [e1, e2]
    refine ⟨?_, g2, g3, f4⟩
    have hp := Real.pi_lt_d2
    clear_value q
    clear f1 c1 c2 c3 c4 c5 c6 d2 t1 t2 w1 g1 g1' ex ek gT
    norm_num at *
    linarith

/-! ### Proper motion -/

private theorem vfr_near (R : Rounding binary64) : |Fp.vfr R - Sla.vfr| ≤ 6e-22 ∧ |Sla.vfr| ≤ 1.0228e-6 := by
  have hR := R.dbl
  have b1 : |(365.25 * 86400 / 149597870 : ℝ)| ≤ 0.211 := by norm_num [abs_le]
  have b2 : |(4.8481368111e-6 : ℝ)| ≤ 4.8482e-6 := by norm_num [abs_le]
  have h1 : |R (365.25 * 86400) - 365.25 * 86400| ≤ 3.8e-9 := hR.lit (B := 31557600) (by norm_num [abs_le]) (by norm_num)
  have h2 : |R (365.25 * 86400) / 149597870 - 365.25 * 86400 / 149597870| ≤ 2.6e-17 := by
    rw [← sub_div, abs_div, abs_of_pos (show (0 : ℝ) < 149597870 by norm_num), div_le_iff₀ (by norm_num)]
    exact h1.trans (by norm_num)
  have h3 : |R (R (365.25 * 86400) / 149597870) - 365.25 * 86400 / 149597870| ≤ 5.3e-17 := hR.round h2 b1 (by norm_num)
  have h4 : |R 4.8481368111e-6 - 4.8481368111e-6| ≤ 5.9e-22 := hR.lit b2 (by norm_num)
  refine ⟨hR.mul h3 h4 b1 b2 (by norm_num), by norm_num [Sla.vfr, abs_le]⟩

private theorem pm_len (s motion : Spherical) {w t : ℝ} (h : |t * w| ≤ 0.052) :
    0.94 ≤ len (direction s.a s.b + t • spaceMotion s motion w) := by
  have h1 := abs_dot_le (e := direction s.a s.b + t • spaceMotion s motion w) (len_direction s.a s.b)
  have e : direction s.a s.b ⬝ᵥ (direction s.a s.b + t • spaceMotion s motion w) = 1 + t * w := by
    simp only [spaceMotion, direction_eq, east_eq, north_eq, dotProduct, Fin.sum_univ_three, Pi.add_apply, Pi.smul_apply, smul_eq_mul,
      Matrix.cons_val_zero, Matrix.cons_val_one, Matrix.cons_val]
    have a1 := Real.sin_sq_add_cos_sq s.a
    have a2 := Real.sin_sq_add_cos_sq s.b
    have a3 : Real.sin s.a ^ 2 = 1 - Real.cos s.a ^ 2 := by linarith
    have a4 : Real.sin s.b ^ 2 = 1 - Real.cos s.b ^ 2 := by linarith
    ring_nf
    simp only [a3, a4]
    ring
  rw [e] at h1
  have h2 := le_abs_self (1 + t * w)
  have h3 := (abs_le.1 h).1
  norm_num at *; linarith

private theorem pm_vec (R : Rounding binary64) {ε : ℝ} (ε0 : 0 ≤ ε) (hε : ε ≤ 1e-3) {v u : Vec} (hu : len u = 1)
    (hv : len (v - u) ≤ 3.1 * ε + 1.7e-16) {ma mb w' w t ca sa sb cb CA SA SB CB : ℝ} (h1 : |ma| ≤ 1e-3) (h2 : |mb| ≤ 1e-3)
    (hw : |w' - w| ≤ 4.5e-19) (wb : |w| ≤ 5.12e-4) (ht : |t| ≤ 100) (k1 : |ca - CA| ≤ ε) (k2 : |sa - SA| ≤ ε) (k3 : |sb - SB| ≤ ε)
    (k4 : |cb - CB| ≤ ε) (b1 : |CA| ≤ 1) (b2 : |SA| ≤ 1) (b3 : |SB| ≤ 1) (b4 : |CB| ≤ 1) :
    len ((fun i => R (v i + R (R t * (![R (R (R (-ma * v 1) - R (R (mb * ca) * sb)) + R (w' * v 0)),
      R (R (R (ma * v 0) - R (R (mb * sa) * sb)) + R (w' * v 1)), R (R (mb * cb) + R (w' * v 2))] : Vec) i))) -
      fun i => u i + t * (![-ma * u 1 - mb * CA * SB + w * u 0, ma * u 0 - mb * SA * SB + w * u 1, mb * CB + w * u 2] : Vec) i) ≤
      4.4 * ε + 1e-15 := by
  have hR := R.dbl
  have ε2 : ε * ε ≤ 1e-3 * ε := mul_le_mul_of_nonneg_right hε ε0
  have ub : ∀ i, |u i| ≤ 1 := fun i => hu ▸ abs_le_len u i
  have vn : ∀ i, |v i - u i| ≤ 3.1 * ε + 1.7e-16 := fun i => (abs_le_len (v - u) i).trans hv
  have z : ∀ x : ℝ, |x - x| ≤ 0 := fun x => by simp
  have p1 : ∀ m, |m| ≤ 1e-3 → ∀ i, |R (m * v i) - m * u i| ≤ 3.2e-3 * ε + 3e-19 := by
    intro m hm i
    refine hR.mul (z m) (vn i) hm (ub i) ?_
    norm_num; linarith
  have p1b : ∀ m, |m| ≤ 1e-3 → ∀ i, |m * u i| ≤ 1e-3 := fun m hm i => (mul_bound hm (ub i)).trans (by norm_num)
  have p2 : ∀ c C : ℝ, |c - C| ≤ ε → |C| ≤ 1 → |R (mb * c) - mb * C| ≤ 1.01e-3 * ε + 1.3e-19 := by
    intro c C h hC
    refine hR.mul (z mb) h h2 hC ?_
    norm_num; linarith
  have p2b : ∀ C : ℝ, |C| ≤ 1 → |mb * C| ≤ 1e-3 := fun C hC => (mul_bound h2 hC).trans (by norm_num)
  have p3 : ∀ c C : ℝ, |c - C| ≤ ε → |C| ≤ 1 → |R (R (mb * c) * sb) - mb * C * SB| ≤ 2.1e-3 * ε + 2.6e-19 := by
    intro c C h hC
    refine hR.mul (p2 c C h hC) k3 (p2b C hC) b3 ?_
    norm_num at *; linarith
  have p3b : ∀ C : ℝ, |C| ≤ 1 → |mb * C * SB| ≤ 1e-3 := fun C hC => (mul_bound (p2b C hC) b3).trans (by norm_num)
  have p4 : ∀ i, |R (w' * v i) - w * u i| ≤ 1.7e-3 * ε + 6.5e-19 := by
    intro i
    refine hR.mul hw (vn i) wb (ub i) ?_
    norm_num; linarith
  have p4b : ∀ i, |w * u i| ≤ 5.12e-4 := fun i => (mul_bound wb (ub i)).trans (by norm_num)
  set E' : Vec := ![R (R (R (-ma * v 1) - R (R (mb * ca) * sb)) + R (w' * v 0)),
      R (R (R (ma * v 0) - R (R (mb * sa) * sb)) + R (w' * v 1)), R (R (mb * cb) + R (w' * v 2))] with hE'
  set E : Vec := ![-ma * u 1 - mb * CA * SB + w * u 0, ma * u 0 - mb * SA * SB + w * u 1, mb * CB + w * u 2] with hE
  have n1 : |-ma| ≤ 1e-3 := by rwa [abs_neg]
  have s2 : ∀ x y : ℝ, |x| ≤ 1e-3 → |y| ≤ 1e-3 → |x - y| ≤ 2e-3 := fun x y hx hy =>
    (abs_sub _ _).trans ((add_le_add hx hy).trans (by norm_num))
  have s3 : ∀ x y : ℝ, |x| ≤ 2e-3 → |y| ≤ 5.12e-4 → |x + y| ≤ 2.6e-3 := fun x y hx hy =>
    (abs_add_le _ _).trans ((add_le_add hx hy).trans (by norm_num))
  have em : ∀ i, |E' i - E i| ≤ 7.2e-3 * ε + 1.9e-18 ∧ |E i| ≤ 2.6e-3 := by
    have q1 : |R (R (-ma * v 1) - R (R (mb * ca) * sb)) - (-ma * u 1 - mb * CA * SB)| ≤ 5.4e-3 * ε + 9e-19 := by
      refine hR.sub (p1 _ n1 1) (p3 ca CA k1 b1) (s2 _ _ (p1b _ n1 1) (p3b CA b1)) ?_
      norm_num; linarith
    have q2 : |R (R (ma * v 0) - R (R (mb * sa) * sb)) - (ma * u 0 - mb * SA * SB)| ≤ 5.4e-3 * ε + 9e-19 := by
      refine hR.sub (p1 _ h1 0) (p3 sa SA k2 b2) (s2 _ _ (p1b _ h1 0) (p3b SA b2)) ?_
      norm_num; linarith
    have c1 := s3 _ _ (s2 _ _ (p1b _ n1 1) (p3b CA b1)) (p4b 0)
    have c2 := s3 _ _ (s2 _ _ (p1b _ h1 0) (p3b SA b2)) (p4b 1)
    have c3 := s3 _ _ ((p2b CB b4).trans (by norm_num)) (p4b 2)
    intro i
    fin_cases i
    · refine ⟨hR.add q1 (p4 0) c1 ?_, c1⟩
      norm_num; linarith
    · refine ⟨hR.add q2 (p4 1) c2 ?_, c2⟩
      norm_num; linarith
    · refine ⟨hR.add (p2 cb CB k4 b4) (p4 2) c3 ?_, c3⟩
      norm_num; linarith
  have ht' : |R t - t| ≤ 1.21e-14 := hR.lit ht (by norm_num)
  have key : ∀ i, |((fun i => R (v i + R (R t * E' i))) - (v + fun i => t * E i)) i| ≤ 0.73 * ε + 4.3e-16 := by
    intro i
    obtain ⟨e1, e2⟩ := em i
    have g1 : |R (R t * E' i) - t * E i| ≤ 0.725 * ε + 2.7e-16 := by
      refine hR.mul ht' e1 ht e2 ?_
      norm_num; linarith
    have g2 : |v i + t * E i| ≤ 1.27 := by
      have a1 := mul_bound ht e2
      have a2 := vn i
      have a3 := abs_sub_abs_le_abs_sub (v i) (u i)
      have a4 := ub i
      have := abs_add_le (v i) (t * E i)
      norm_num at *; linarith
    refine hR.add (z (v i)) g1 g2 ?_
    norm_num; linarith
  have k := len_le_of key
  have a := len_add_le ((fun i => R (v i + R (R t * E' i))) - (v + fun i => t * E i)) (v - u)
  have e : ((fun i => R (v i + R (R t * E' i))) - fun i => u i + t * E i) =
      (fun i => R (v i + R (R t * E' i))) - (v + fun i => t * E i) + (v - u) := by
    funext i; simp only [Pi.sub_apply, Pi.add_apply]; ring
  rw [e]
  refine (a.trans (add_le_add k hv)).trans ?_
  norm_num; linarith

/-- C107: `pm` in double precision returns a direction within 6.4e-15 rad of that given by exact arithmetic, plus 7.5 times the
    error of the library's sine and cosine and 3.2 times that of its arctangent, with the right ascension in the range 0 to
    2 pi, for proper motions up to 1 mrad per year (200 arcsec), parallaxes up to 1 arcsec, radial velocities up to 500 km/s
    and epochs up to a century apart. -/
theorem C107_pm (R : Rounding binary64) (sn cs : ℝ → ℝ) (at2 : ℝ → ℝ → ℝ) {ε ε' : ℝ} (hε : ε ≤ 1e-3) (hε' : ε' ≤ 0.1)
    (hs : ∀ a, |sn a - Real.sin a| ≤ ε) (hc : ∀ a, |cs a - Real.cos a| ≤ ε) (ha : Atan2Near at2 ε')
    (hrep : ∀ y x, binary64.Rep (at2 y x)) (s motion : Spherical) (px rv ep0 ep1 : ℝ) (h1 : |motion.a| ≤ 1e-3)
    (h2 : |motion.b| ≤ 1e-3) (hpx : |px| ≤ 1) (hrv : |rv| ≤ 500) (ht : |ep1 - ep0| ≤ 100) :
    let p' := Fp.pm R sn cs at2 s motion px rv ep0 ep1
    let p := Sla.pm s motion px rv ep0 ep1
    angleBetween (direction p'.a p'.b) (direction p.a p.b) ≤ 6.4e-15 + 7.5 * ε + 3.2 * ε' ∧
      0 ≤ p'.a ∧ p'.a < 2 * Real.pi ∧ |p'.b| ≤ Real.pi / 2 + ε' := by
  intro p' p
  have hR := R.dbl
  have ε0 : 0 ≤ ε := (abs_nonneg _).trans (hs 0)
  obtain ⟨v1, v2⟩ := vfr_near R
  have z : ∀ x : ℝ, |x - x| ≤ 0 := fun x => by simp
  have w1 := hR.mul v1 (z rv) v2 hrv (g := 3.7e-19) (by norm_num)
  have wb1 : |Sla.vfr * rv| ≤ 5.12e-4 := (mul_bound v2 hrv).trans (by norm_num)
  have w2 := hR.mul w1 (z px) wb1 hpx (g := 4.5e-19) (by norm_num)
  have wb : |Sla.vfr * rv * px| ≤ 5.12e-4 := (mul_bound wb1 hpx).trans (by norm_num)
  have d1 := (dcs2c_near R sn cs hε hs hc s.a s.b).trans (add_le_add le_rfl ulp53)
  have d2 := pm_vec R ε0 hε (len_direction s.a s.b) d1 h1 h2 w2 wb ht (hc s.a) (hs s.a) (hs s.b) (hc s.b)
    (Real.abs_cos_le_one _) (Real.abs_sin_le_one _) (Real.abs_sin_le_one _) (Real.abs_cos_le_one _)
  have e := pm_pos s motion (Sla.vfr * rv * px) (ep1 - ep0)
  simp only [dcs2c_eq] at e
  rw [e] at d2
  have hw : Sla.vfr * rv * px = rv * (365.25 * 86400 / 149597870) * (px * 4.8481368111e-6) := by simp only [Sla.vfr]; ring
  have wl := pm_len s motion (w := Sla.vfr * rv * px) (t := ep1 - ep0) ((mul_bound ht wb).trans (by norm_num))
  have u := pm_unit s motion px rv ep0 ep1
  simp only [← hw] at u
  obtain ⟨f1, f2, f3, f4, -⟩ := angles_of_near R hε' ha hrep (len_nonneg _) u.symm (κ := 1.6711) wl d2
    (by norm_num at *; linarith) (by norm_num at *; linarith)
  exact ⟨f1.trans (by norm_num at *; linarith), f2, f3, f4⟩

/-! ### Examples -/

private theorem example_at2 (R : Rounding binary64) : Atan2Near (fun y x => R (atan2 y x)) 4e-16 := by
  have key : ∀ y x, |R (atan2 y x) - atan2 y x| ≤ 4e-16 := by
    intro y x
    have hb : |atan2 y x| ≤ 3.15 := by
      have := Real.pi_lt_d2
      rw [abs_le]; constructor <;> linarith [(atan2_mem y x).1, (atan2_mem y x).2]
    exact R.dbl.lit hb (by norm_num)
  refine ⟨fun y x _ => key y x, fun x hx => Or.inl ?_⟩
  have e : atan2 0 x = Real.pi :=
    atan2_unique (r := -x) (by linarith) (by linarith [Real.pi_pos]) le_rfl (by simp) (by simp)
  rw [← e]; exact key 0 x

/-- With correctly rounded library functions the E-terms of 1875 are added and removed to 1e-13 rad. -/
example (R : Rounding binary64) (s : Spherical) :
    let sn := fun a => R (Real.sin a)
    let cs := fun a => R (Real.cos a)
    let at2 := fun y x => R (atan2 y x)
    let p := Fp.subet R sn cs at2 (Fp.addet R sn cs at2 s 1875) 1875
    angleBetween (direction p.a p.b) (direction s.a s.b) ≤ 1e-13 :=
  (C107_round_trip R _ _ _ (ε := 1.3e-16) (ε' := 4e-16) (by norm_num) (by norm_num)
    (fun a => R.dbl.lit (Real.abs_sin_le_one a) (by norm_num)) (fun a => R.dbl.lit (Real.abs_cos_le_one a) (by norm_num))
    (example_at2 R) (fun _ _ => R.rep _) s 1875 (by norm_num [abs_le]) _ (by simp)).trans (by norm_num)

/-- Barnard's star (10.4 arcsec per year, 0.547 arcsec, -110 km/s) from 2000 to 2050. -/
example (R : Rounding binary64) (s : Spherical) :
    let p' := Fp.pm R (fun a => R (Real.sin a)) (fun a => R (Real.cos a)) (fun y x => R (atan2 y x)) s ⟨-3.9e-6, 5.0e-5⟩ 0.547 (-110)
      2000 2050
    let p := Sla.pm s ⟨-3.9e-6, 5.0e-5⟩ 0.547 (-110) 2000 2050
    angleBetween (direction p'.a p'.b) (direction p.a p.b) ≤ 1e-14 :=
  (C107_pm R _ _ _ (ε := 1.3e-16) (ε' := 4e-16) (by norm_num) (by norm_num)
    (fun a => R.dbl.lit (Real.abs_sin_le_one a) (by norm_num)) (fun a => R.dbl.lit (Real.abs_cos_le_one a) (by norm_num))
    (example_at2 R) (fun _ _ => R.rep _) s _ _ _ _ _ (by norm_num [abs_le]) (by norm_num [abs_le]) (by norm_num [abs_le])
    (by norm_num [abs_le]) (by norm_num [abs_le])).1.trans (by norm_num)

end Sla.Props
