import Verif.Lemmas.FpNut
import Verif.Props.FpCoords
import Verif.Props.Precession

/-
Property theorems C106: nutation and the equation of the equinoxes in double precision.
-/
namespace Sla.Props
open Sla.Fp Sla.Spec Matrix Real

private theorem ngn {a x e : ℝ} (h : |a - x| ≤ e) : |-a - -x| ≤ e := by
  rwa [show -a - -x = -(a - x) by ring, abs_neg]

private theorem mlb {a b A B : ℝ} (ha : |a| ≤ A) (hb : |b| ≤ B) : |a * b| ≤ A * B := by
  rw [abs_mul]; exact mul_le_mul ha hb (abs_nonneg _) ((abs_nonneg _).trans ha)

/-! ### The nutation components -/

private theorem eps0_near {R : ℝ → ℝ} (hR : Dbl R) {t T : ℝ} (ht : |t - T| ≤ 2.5e-15) (b : |T| ≤ 10) :
    |R (R (R 84381.412 + R (R (-R 46.80927 + R (R (-R 0.000152 + R (R (R 0.0019989 + R (R (-R 0.00000051 +
      R (-R 0.000000025 * t)) * t)) * t)) * t)) * t)) * R 4.848136811095359935899141e-6) -
    (84381.412 + (-46.80927 + (-0.000152 + (0.0019989 + (-0.00000051 +
      -0.000000025 * T) * T) * T) * T) * T) * as2r| ≤ 3e-16 ∧
    |(84381.412 + (-46.80927 + (-0.000152 + (0.0019989 + (-0.00000051 +
      -0.000000025 * T) * T) * T) * T) * T) * as2r| ≤ 0.42 := by
  have l1 : |-R 0.000000025 - -0.000000025| ≤ 1e-23 := ngn (hR.lit (B := 0.000000025) (by norm_num [abs_of_pos]) (by norm_num))
  have m1 := hR.mul l1 ht (X := 0.000000025) (Y := 10) (g := 2e-22) (by norm_num [abs_of_pos]) b (by norm_num)
  have b1 : |-0.000000025 * T| ≤ 0.000000025 * 10 := mlb (by norm_num [abs_of_pos]) b
  have l2 : |-R 0.00000051 - -0.00000051| ≤ 1e-22 := ngn (hR.lit (B := 0.00000051) (by norm_num [abs_of_pos]) (by norm_num))
  have b2 : |-0.00000051 + -0.000000025 * T| ≤ 0.00000077 := (abs_add_le _ _).trans (by norm_num at *; linarith)
  have m2 := hR.add l2 m1 b2 (g := 5e-22) (by norm_num)
  have m3 := hR.mul m2 ht b2 b (g := 1e-20) (by norm_num)
  have b3 := mlb b2 b
  have l3 : |R 0.0019989 - 0.0019989| ≤ 2.5e-19 := hR.lit (B := 0.002) (by norm_num [abs_of_pos]) (by norm_num)
  have b4 : |0.0019989 + (-0.00000051 + -0.000000025 * T) * T| ≤ 0.0021 := (abs_add_le _ _).trans (by norm_num [abs_of_pos] at *; linarith)
  have m4 := hR.add l3 m3 b4 (g := 6e-19) (by norm_num)
  have m5 := hR.mul m4 ht b4 b (g := 1.5e-17) (by norm_num)
  have b5 := mlb b4 b
  have l4 : |-R 0.000152 - -0.000152| ≤ 1e-19 := ngn (hR.lit (B := 0.000152) (by norm_num [abs_of_pos]) (by norm_num))
  have b6 : |-0.000152 + (0.0019989 + (-0.00000051 + -0.000000025 * T) * T) * T| ≤ 0.022 :=
    (abs_add_le _ _).trans (by norm_num at *; linarith)
  have m6 := hR.add l4 m5 b6 (g := 2e-17) (by norm_num)
  have m7 := hR.mul m6 ht b6 b (g := 3e-16) (by norm_num)
  have b7 := mlb b6 b
  have l5 : |-R 46.80927 - -46.80927| ≤ 6e-15 := ngn (hR.lit (B := 46.80927) (by norm_num [abs_of_pos]) (by norm_num))
  have b8 : |-46.80927 + (-0.000152 + (0.0019989 + (-0.00000051 + -0.000000025 * T) * T) * T) * T| ≤ 47.1 :=
    (abs_add_le _ _).trans (by norm_num at *; linarith)
  have m8 := hR.add l5 m7 b8 (g := 1.3e-14) (by norm_num)
  have m9 := hR.mul m8 ht b8 b (g := 4e-13) (by norm_num)
  have b9 := mlb b8 b
  have l6 : |R 84381.412 - 84381.412| ≤ 1.02e-11 := hR.lit (B := 84382) (by norm_num [abs_of_pos]) (by norm_num)
  have b10 : |84381.412 + (-46.80927 + (-0.000152 + (0.0019989 + (-0.00000051 + -0.000000025 * T) * T) * T) * T) * T| ≤ 84900 :=
    (abs_add_le _ _).trans (by norm_num [abs_of_pos] at *; linarith)
  have m10 := hR.add l6 m9 b10 (g := 2.2e-11) (by norm_num)
  exact ⟨hR.mul m10 (as2r_round hR) b10 as2r_digits.2 (by norm_num), (mlb b10 as2r_digits.2).trans (by norm_num)⟩

private theorem unit_near {R : ℝ → ℝ} (hR : Dbl R) {t T : ℝ} (ht : |t - T| ≤ 2.5e-15) (hT : |T| ≤ 10) {d D a b e g : ℝ} (hd : |d - D| ≤ e)
    (hD : |D| ≤ 3e7) (ha : |a| ≤ 0.05) (hb : |b| ≤ 0.3) (he : e ≤ 1e-2) (hg : (e * 1.0000001 + 4e-6) * 4.849e-12 ≤ g) :
    |R (R (R (R (d * R 1.0e-6) - R a) - R (R b * t)) * R 4.848136811095359935899141e-6) - (D * 1.0e-6 - a - b * T) * as2r| ≤ g := by
  have e0 : 0 ≤ e := (abs_nonneg _).trans hd
  have k : |R 1.0e-6 - 1.0e-6| ≤ 1.21e-22 := hR.lit (B := 1.0e-6) (by norm_num) (by norm_num)
  have m1 : |R (d * R 1.0e-6) - D * 1.0e-6| ≤ (e * 1.00000001 + 1e-8) * 1e-6 :=
    hR.mul hd k hD (Y := 1.0e-6) (by norm_num) (by norm_num at *; linarith)
  have b1 : |D * 1.0e-6| ≤ 30 := (mlb hD (B := 1.0e-6) (by norm_num)).trans (by norm_num)
  have l1 : |R a - a| ≤ 6.1e-18 := hR.lit ha (by norm_num)
  have b2 : |D * 1.0e-6 - a| ≤ 30.05 := (abs_sub _ _).trans (by norm_num at *; linarith)
  have m2 : |R (R (d * R 1.0e-6) - R a) - (D * 1.0e-6 - a)| ≤ (e * 1.00000002 + 2e-8) * 1e-6 := hR.sub m1 l1 b2 (by norm_num at *; linarith)
  have l2 : |R b - b| ≤ 3.7e-17 := hR.lit hb (by norm_num)
  have m3 : |R (R b * t) - b * T| ≤ 2e-15 := hR.mul l2 ht hb hT (by norm_num)
  have b3 := mlb hb hT
  have b4 : |D * 1.0e-6 - a - b * T| ≤ 33.1 := (abs_sub _ _).trans (by norm_num at *; linarith)
  have m4 : |R (R (R (d * R 1.0e-6) - R a) - R (R b * t)) - (D * 1.0e-6 - a - b * T)| ≤ (e * 1.00000003 + 4e-8) * 1e-6 :=
    hR.sub m2 m3 b4 (by norm_num at *; linarith)
  exact hR.mul m4 (as2r_round hR) b4 as2r_digits.2 (by norm_num at *; linarith)

private theorem start_near {R : ℝ → ℝ} (hR : Dbl R) {sn : ℝ → ℝ} (hs : ∀ x, |sn x - Real.sin x| ≤ 2e-16) {a x : ℝ}
    (h : NearTurn 5.3e-11 a x) (ha : |a| ≤ 13) :
    |R (R (-R 153.1 * sn a) - R (R 1.9 * sn (R (2 * a)))) - (-153.1 * Real.sin x - 1.9 * Real.sin (2 * x))| ≤ 1e-6 ∧
      |-153.1 * Real.sin x - 1.9 * Real.sin (2 * x)| ≤ 200 := by
  have h2 : NearTurn 1.1e-10 (R (2 * a)) (2 * x) := by
    obtain ⟨k, hk⟩ := h
    refine ⟨2 * k, ?_⟩
    have b : |2 * a| ≤ 26 := by rw [abs_mul, abs_two]; linarith
    have r : |R (2 * a) - 2 * a| ≤ 3.2e-15 := hR.lit b (by norm_num)
    have e : R (2 * a) - (2 * x + ((2 * k : ℤ) : ℝ) * (2 * π)) = (R (2 * a) - 2 * a) + 2 * (a - (x + (k : ℝ) * (2 * π))) := by
      push_cast; ring
    rw [e]
    refine (abs_add_le _ _).trans ?_
    rw [abs_mul, abs_two]
    norm_num at *; linarith
  have s1 := h.sin hs
  have s2 := h2.sin hs
  have c1 := Real.abs_sin_le_one x
  have c2 := Real.abs_sin_le_one (2 * x)
  have l1 : |-R 153.1 - -153.1| ≤ 2e-14 := ngn (hR.lit (B := 153.1) (by norm_num [abs_of_pos]) (by norm_num))
  have l2 : |R 1.9 - 1.9| ≤ 3e-16 := hR.lit (B := 1.9) (by norm_num [abs_of_pos]) (by norm_num)
  have m1 := hR.mul l1 s1 (X := 153.1) (by norm_num [abs_of_pos]) c1 (g := 1e-8) (by norm_num)
  have m2 := hR.mul l2 s2 (X := 1.9) (by norm_num [abs_of_pos]) c2 (g := 1e-8) (by norm_num)
  have b1 : |-153.1 * Real.sin x| ≤ 153.1 * 1 := mlb (by norm_num [abs_of_pos]) c1
  have b2 : |1.9 * Real.sin (2 * x)| ≤ 1.9 * 1 := mlb (by norm_num [abs_of_pos]) c2
  have b3 : |-153.1 * Real.sin x - 1.9 * Real.sin (2 * x)| ≤ 200 := (abs_sub _ _).trans (by norm_num at *; linarith)
  exact ⟨hR.sub m1 m2 b3 (by norm_num), b3⟩

private theorem second {α β : Type} {P : α → β → Prop} {A : List α} {B : List β} (h : List.Forall₂ P A B) (hl : 2 ≤ A.length) (a : α) (b : β) :
    P (A.getD 1 a) (B.getD 1 b) := by
  cases h with
  | nil => simp at hl
  | cons h t =>
    cases t with
    | nil => simp at hl
    | cons h' t => simpa using h'

private theorem size_of {D a b T : ℝ} (ha : |a| ≤ 0.05) (hb : |b| ≤ 0.3) (hT : |T| ≤ 10) {B : ℝ} (hB : B ≤ 22.8)
    (h : |(D * 1.0e-6 - a - b * T) * as2r| ≤ B * as2r) : |D| ≤ 3e7 := by
  have p : 0 < as2r := by unfold as2r; positivity
  rw [abs_mul, abs_of_pos p] at h
  have h1 := le_of_mul_le_mul_right h p
  have b1 := mlb hb hT
  rw [abs_le] at *
  norm_num at *
  constructor <;> linarith

attribute [local irreducible] nutTerms in
/-- C106: in double precision the nutation in longitude, the nutation in obliquity and the mean obliquity are within 7.5e-15,
    3.7e-15 and 3e-16 rad of the exact ones for dates within 1000 years of J2000, with a library sine and cosine accurate to
    2e-16. -/
theorem C106_nutc (R : Rounding binary64) (sn cs : ℝ → ℝ) (hs : ∀ a, |sn a - Real.sin a| ≤ 2e-16)
    (hc : ∀ a, |cs a - Real.cos a| ≤ 2e-16) (tdb : ℝ) (h : |tdb - 51544.5| ≤ 365250) :
    |(Fp.nutc R sn cs tdb).psi - (Sla.nutc tdb).psi| ≤ 7.5e-15 ∧ |(Fp.nutc R sn cs tdb).eps - (Sla.nutc tdb).eps| ≤ 3.7e-15 ∧
      |(Fp.nutc R sn cs tdb).eps0 - (Sla.nutc tdb).eps0| ≤ 3e-16 := by
  have hR := R.dbl
  obtain ⟨ht, hT⟩ := centuries_near hR h
  have bd := C61_nutation_bounded tdb
  have hA := second (nutAngles_near hR ht hT) (by simp [Fp.nutAngles]) 0 0
  obtain ⟨i1, i2⟩ := start_near hR hs hA.1 hA.2
  obtain ⟨d1, d2⟩ := nutSeries_near hR hs hc ht hT i1 i2
  unfold Fp.nutc
  unfold Sla.nutc at bd ⊢
  dsimp only at bd ⊢
  obtain ⟨b1, b2⟩ := bd
  have e0 := (eps0_near hR ht hT).1
  generalize R (R (tdb - 51544.5) / 36525) = t at *
  generalize (tdb - 51544.5) / 36525 = T at *
  generalize nutTerms.reverse.foldl _ _ = D at *
  generalize nutTerms.reverse.foldl _ _ = d at *
  have k1 : |D.1| ≤ 3e7 := by
    refine size_of (a := 0.042888) (b := 0.29856) (T := T) (by norm_num [abs_of_pos]) (by norm_num [abs_of_pos]) hT
      (B := 19.5022 + 0.317 * |T|) (by norm_num at *; linarith) (b1.trans (le_of_eq ?_))
    unfold as2r; ring
  have k2 : |D.2| ≤ 3e7 := by
    refine size_of (a := 0.005171) (b := 0.02408) (T := T) (by norm_num [abs_of_pos]) (by norm_num [abs_of_pos]) hT
      (B := 10.0912 + 0.0256 * |T|) (by norm_num at *; linarith) (b2.trans (le_of_eq ?_))
    unfold as2r; ring
  exact ⟨unit_near hR ht hT d1 k1 (by norm_num [abs_of_pos]) (by norm_num [abs_of_pos]) (by norm_num) (by norm_num),
    unit_near hR ht hT d2 k2 (by norm_num [abs_of_pos]) (by norm_num [abs_of_pos]) (by norm_num) (by norm_num), e0⟩

/-! ### The nutation matrix -/

private theorem xzx (a b c : ℝ) (v : Vec) : Sla.deuler ['X', 'Z', 'X'] a b c *ᵥ v = rotX c *ᵥ (rotZ b *ᵥ (rotX a *ᵥ v)) := by
  rw [← dmxv_eq, C23_deuler]
  simp [turnSequence, axisOf, ← frameMat_mulVec, rotX_frame, rotZ_frame]

private theorem xzx_near (a b c a' b' c' : ℝ) (v : Vec) :
    len (Sla.deuler ['X', 'Z', 'X'] a b c *ᵥ v - Sla.deuler ['X', 'Z', 'X'] a' b' c' *ᵥ v) ≤
      (|a - a'| + |b - b'| + |c - c'|) * len v := by
  rw [xzx, xzx]
  have h1 := rotX_near a a' v
  have h2 := rotZ_near b b' (rotX a *ᵥ v)
  have h3 := rotX_near c c' (rotZ b *ᵥ (rotX a *ᵥ v))
  rw [rotation_len (rotZ_rotation _), rotation_len (rotX_rotation _)] at h3
  rw [rotation_len (rotX_rotation _)] at h2
  have k1 : len (rotX c' *ᵥ (rotZ b' *ᵥ (rotX a *ᵥ v)) - rotX c' *ᵥ (rotZ b' *ᵥ (rotX a' *ᵥ v))) ≤ |a - a'| * len v := by
    rw [← Matrix.mulVec_sub, ← Matrix.mulVec_sub, rotation_len (rotX_rotation _), rotation_len (rotZ_rotation _)]; exact h1
  have k2 : len (rotX c' *ᵥ (rotZ b *ᵥ (rotX a *ᵥ v)) - rotX c' *ᵥ (rotZ b' *ᵥ (rotX a *ᵥ v))) ≤ |b - b'| * len v := by
    rw [← Matrix.mulVec_sub, rotation_len (rotX_rotation _)]; exact h2
  have t1 := len_add_le (rotX c *ᵥ (rotZ b *ᵥ (rotX a *ᵥ v)) - rotX c' *ᵥ (rotZ b *ᵥ (rotX a *ᵥ v)))
    (rotX c' *ᵥ (rotZ b *ᵥ (rotX a *ᵥ v)) - rotX c' *ᵥ (rotZ b' *ᵥ (rotX a *ᵥ v)))
  have t2 := len_add_le (rotX c *ᵥ (rotZ b *ᵥ (rotX a *ᵥ v)) - rotX c' *ᵥ (rotZ b' *ᵥ (rotX a *ᵥ v)))
    (rotX c' *ᵥ (rotZ b' *ᵥ (rotX a *ᵥ v)) - rotX c' *ᵥ (rotZ b' *ᵥ (rotX a' *ᵥ v)))
  rw [sub_add_sub_cancel] at t1 t2
  linarith

private theorem element (M N : Mat) {κ : ℝ} (h : ∀ v, len (M *ᵥ v - N *ᵥ v) ≤ κ * len v) (i j : Fin 3) : |M i j - N i j| ≤ κ := by
  have h1 := (abs_le_len _ i).trans (h (Pi.single j 1))
  have hl : len (Pi.single j (1 : ℝ)) = 1 := by fin_cases j <;> simp [len, dotProduct, Pi.single_apply]
  rw [hl, mul_one] at h1
  simpa using h1

private theorem eps0_size (tdb : ℝ) (h : |tdb - 51544.5| ≤ 365250) (R : Rounding binary64) : |(Sla.nutc tdb).eps0| ≤ 0.42 := by
  obtain ⟨ht, hT⟩ := centuries_near R.dbl h
  exact (eps0_near R.dbl ht hT).2

private theorem psi_size (tdb : ℝ) (h : |tdb - 51544.5| ≤ 365250) : |(Sla.nutc tdb).psi| ≤ 1.2e-4 ∧ |(Sla.nutc tdb).eps| ≤ 1e-4 := by
  have hT : |(tdb - 51544.5) / 36525| ≤ 10 := by rw [abs_div, div_le_iff₀ (by norm_num)]; norm_num at *; linarith
  obtain ⟨h1, h2⟩ := C61_nutation_bounded tdb
  have p := Real.pi_lt_d2
  have p0 := Real.pi_pos
  generalize |(tdb - 51544.5) / 36525| = T at *
  have k1 : (19.5022 + 0.317 * T) / 3600 * (π / 180) ≤ (22.68 / 3600) * (3.15 / 180) :=
    mul_le_mul (by norm_num at *; linarith) (by linarith) (by positivity) (by norm_num)
  have k2 : (10.0912 + 0.0256 * T) / 3600 * (π / 180) ≤ (10.35 / 3600) * (3.15 / 180) :=
    mul_le_mul (by norm_num at *; linarith) (by linarith) (by positivity) (by norm_num)
  exact ⟨(h1.trans k1).trans (by norm_num), (h2.trans k2).trans (by norm_num)⟩

/-- The rotation about the rounded angles, and its distance from the exact nutation. -/
private theorem nut_parts (R : Rounding binary64) (sn cs : ℝ → ℝ) (hs : ∀ a, |sn a - Real.sin a| ≤ 2e-16)
    (hc : ∀ a, |cs a - Real.cos a| ≤ 2e-16) (tdb : ℝ) (h : |tdb - 51544.5| ≤ 365250) :
    ∃ Q, IsRotation Q ∧ (∀ i j, |Fp.nut R sn cs tdb i j - Q i j| ≤ 5.4e-15) ∧
      ∀ v, len (Q *ᵥ v - Sla.nut tdb *ᵥ v) ≤ 1.19e-14 * len v := by
  obtain ⟨h1, h2, h3⟩ := C106_nutc R sn cs hs hc tdb h
  have z := eps0_size tdb h R
  have y := (psi_size tdb h).2
  have b : |(Sla.nutc tdb).eps0 + (Sla.nutc tdb).eps| ≤ 0.43 := (abs_add_le _ _).trans (by norm_num at *; linarith)
  have r := R.dbl.add h3 h2 b (g := 4.06e-15) (by norm_num)
  refine ⟨_, C23_rotation ['X', 'Z', 'X'] (Fp.nutc R sn cs tdb).eps0 (-(Fp.nutc R sn cs tdb).psi)
    (-R ((Fp.nutc R sn cs tdb).eps0 + (Fp.nutc R sn cs tdb).eps)), fun i j => ?_, fun v => ?_⟩
  · exact (C83_deuler R sn cs (by norm_num) (by norm_num) _ _ _ _ (fun a _ => ⟨hs a, hc a⟩) i j).trans (by norm_num)
  · refine (xzx_near _ _ _ _ _ _ v).trans (mul_le_mul_of_nonneg_right ?_ (len_nonneg v))
    have := ngn h1
    have := ngn r
    norm_num at *; linarith

/-- C106: every element of the nutation matrix is within 1.8e-14 of the exact one. -/
theorem C106_nut (R : Rounding binary64) (sn cs : ℝ → ℝ) (hs : ∀ a, |sn a - Real.sin a| ≤ 2e-16)
    (hc : ∀ a, |cs a - Real.cos a| ≤ 2e-16) (tdb : ℝ) (h : |tdb - 51544.5| ≤ 365250) (i j : Fin 3) :
    |Fp.nut R sn cs tdb i j - Sla.nut tdb i j| ≤ 1.8e-14 := by
  obtain ⟨Q, -, h1, h2⟩ := nut_parts R sn cs hs hc tdb h
  have := abs_sub_le (Fp.nut R sn cs tdb i j) (Q i j) (Sla.nut tdb i j)
  have := h1 i j
  have := element _ _ h2 i j
  norm_num at *; linarith

private theorem prec_col (R : Rounding binary64) (sn cs : ℝ → ℝ) (hs : ∀ a, |sn a - Real.sin a| ≤ 2e-16)
    (hc : ∀ a, |cs a - Real.cos a| ≤ 2e-16) {je mjd : ℝ} (hj : |je - 2000| ≤ 1000) (h : |mjd - 51544.5| ≤ 365250) (i j : Fin 3) :
    |Fp.prec R sn cs je (Fp.epj R mjd) i j - Sla.prec je (Sla.epj mjd) i j| ≤ 6.9e-15 := by
  have he : |Sla.epj mjd - je| ≤ 2000 := by
    have h1 : |Sla.epj mjd - 2000| ≤ 1000 := by
      unfold Sla.epj
      rw [add_sub_cancel_left, abs_div, div_le_iff₀ (by norm_num)]; norm_num at *; linarith
    have := abs_sub_le (Sla.epj mjd) 2000 je
    rw [abs_sub_comm 2000 je] at this
    linarith
  obtain ⟨a1, a2, a3⟩ := precAngles_near R.dbl hj he (epj_near R h)
  have d := C83_deuler R sn cs (ε := 2e-16) (by norm_num) (by norm_num) ['Z', 'Y', 'Z'] (-(precAngles R je (Fp.epj R mjd)).1)
    (precAngles R je (Fp.epj R mjd)).2.1 (-(precAngles R je (Fp.epj R mjd)).2.2) (fun a _ => ⟨hs a, hc a⟩) i j
  have k := element (eul (precAngles R je (Fp.epj R mjd)).1 (precAngles R je (Fp.epj R mjd)).2.1 (precAngles R je (Fp.epj R mjd)).2.2)
    (Sla.prec je (Sla.epj mjd)) (κ := 1.5e-15) (fun v => by
      rw [prec_exact]
      refine (eul_near _ _ _ _ _ _ v).trans (mul_le_mul_of_nonneg_right ?_ (len_nonneg v))
      norm_num at *; linarith) i j
  have := abs_sub_le (Fp.prec R sn cs je (Fp.epj R mjd) i j)
    (eul (precAngles R je (Fp.epj R mjd)).1 (precAngles R je (Fp.epj R mjd)).2.1 (precAngles R je (Fp.epj R mjd)).2.2 i j)
    (Sla.prec je (Sla.epj mjd) i j)
  have d' : |Fp.prec R sn cs je (Fp.epj R mjd) i j -
    eul (precAngles R je (Fp.epj R mjd)).1 (precAngles R je (Fp.epj R mjd)).2.1 (precAngles R je (Fp.epj R mjd)).2.2 i j| ≤
      9.1 * 2e-16 + 1 / 2 ^ 48 := d
  norm_num at *; linarith

/-- C106: every element of the combined precession-nutation matrix is within 4.3e-14 of the exact one, for a mean epoch and a
    date within 1000 years of J2000. -/
theorem C106_prenut (R : Rounding binary64) (sn cs : ℝ → ℝ) (hs : ∀ a, |sn a - Real.sin a| ≤ 2e-16)
    (hc : ∀ a, |cs a - Real.cos a| ≤ 2e-16) (je mjd : ℝ) (hj : |je - 2000| ≤ 1000) (h : |mjd - 51544.5| ≤ 365250) (i j : Fin 3) :
    |Fp.prenut R sn cs je mjd i j - Sla.prenut je mjd i j| ≤ 4.3e-14 := by
  obtain ⟨Q, hQ, h1, h2⟩ := nut_parts R sn cs hs hc mjd h
  have hN : IsRotation (Sla.nut mjd) := (C24_rotations mjd 0).2.2.2.1
  have hP := (C24_rotations je (Sla.epj mjd)).1
  set p : Vec := fun k => Fp.prec R sn cs je (Fp.epj R mjd) k j with hp
  set p' : Vec := fun k => Sla.prec je (Sla.epj mjd) k j with hp'
  have l1 : len (p - p') ≤ 1.74 * 6.9e-15 := len_le_of fun k => prec_col R sn cs hs hc hj h k j
  have l2 : len p' = 1 := by
    have : p' = Sla.prec je (Sla.epj mjd) *ᵥ Pi.single j 1 := by ext k; simp [hp']
    rw [this, rotation_len hP]
    fin_cases j <;> simp [len, dotProduct, Pi.single_apply]
  have l3 : len p ≤ 1.001 := by
    have := len_add_le (p - p') p'
    rw [sub_add_cancel, l2] at this
    norm_num at *; linarith
  have hl := len_nonneg p
  have m := (rot_near R hN hQ (by norm_num) (by norm_num) h1 h2 p).1
  have m2 : len (Sla.nut mjd *ᵥ p - Sla.nut mjd *ᵥ p') = len (p - p') := by rw [← Matrix.mulVec_sub, rotation_len hN]
  have t := len_add_le (Fp.dmxv R (Fp.nut R sn cs mjd) p - Sla.nut mjd *ᵥ p) (Sla.nut mjd *ᵥ p - Sla.nut mjd *ᵥ p')
  rw [sub_add_sub_cancel, m2] at t
  have e : Fp.prenut R sn cs je mjd i j - Sla.prenut je mjd i j =
      (Fp.dmxv R (Fp.nut R sn cs mjd) p - Sla.nut mjd *ᵥ p') i := by
    rw [Pi.sub_apply]
    congr 1
    unfold Sla.prenut
    rw [dmxm_eq]; rfl
  rw [e]
  refine (abs_le_len _ i).trans (t.trans ?_)
  have tp := tiny_pow
  generalize (2 : ℝ) ^ (-1071 : ℤ) = τ at *
  norm_num at *; nlinarith

/-! ### The equation of the equinoxes -/

/-- C106: the equation of the equinoxes is within 7.6e-15 rad of the exact one. -/
theorem C106_eqeqx (R : Rounding binary64) (sn cs : ℝ → ℝ) (hs : ∀ a, |sn a - Real.sin a| ≤ 2e-16)
    (hc : ∀ a, |cs a - Real.cos a| ≤ 2e-16) (date : ℝ) (h : |date - 51544.5| ≤ 365250) :
    |Fp.eqeqx R sn cs date - Sla.eqeqx date| ≤ 7.6e-15 := by
  have hR := R.dbl
  obtain ⟨ht, hT⟩ := centuries_near hR h
  obtain ⟨h1, -, h3⟩ := C106_nutc R sn cs hs hc date h
  have hp := (psi_size date h).1
  unfold Fp.eqeqx Sla.eqeqx
  dsimp only
  generalize (Fp.nutc R sn cs date).psi = a at *
  generalize (Fp.nutc R sn cs date).eps0 = b at *
  generalize (Sla.nutc date).psi = A at *
  generalize (Sla.nutc date).eps0 = B at *
  generalize R (R (date - 51544.5) / 36525) = t at *
  generalize (date - 51544.5) / 36525 = T at *
  have c1 := cos_err hc h3
  have m1 := hR.mul h1 c1 hp (Real.abs_cos_le_one B) (g := 7.51e-15) (by norm_num)
  have b1 := mlb hp (Real.abs_cos_le_one B)
  -- the longitude of the node
  have g1 : |R 0.008 - 0.008| ≤ 1e-18 := hR.lit (B := 0.008) (by norm_num [abs_of_pos]) (by norm_num)
  have g2 := hR.mul g1 ht (X := 0.008) (by norm_num [abs_of_pos]) hT (g := 1e-16) (by norm_num)
  have k2 : |0.008 * T| ≤ 0.008 * 10 := mlb (by norm_num [abs_of_pos]) hT
  have g3 : |R 7.455 - 7.455| ≤ 1e-15 := hR.lit (B := 7.455) (by norm_num [abs_of_pos]) (by norm_num)
  have k3 : |7.455 + 0.008 * T| ≤ 8 := (abs_add_le _ _).trans (by norm_num [abs_of_pos] at *; linarith)
  have g4 := hR.add g3 g2 k3 (g := 3e-15) (by norm_num)
  have g5 := hR.mul g4 ht k3 hT (g := 1e-13) (by norm_num)
  have k5 := mlb k3 hT
  have g6 : |R (-5 * 1296000) - -5 * 1296000| ≤ 8e-10 := hR.lit (B := 6480000) (by norm_num [abs_of_neg]) (by norm_num)
  have g7 : |R 482890.539 - 482890.539| ≤ 1e-10 := hR.lit (B := 482890.539) (by norm_num [abs_of_pos]) (by norm_num)
  have g8 := hR.sub g6 g7 (B := 7e6) (by norm_num [abs_of_neg]) (g := 2e-9) (by norm_num)
  have k8 : |(-5 * 1296000 - 482890.539 : ℝ)| ≤ 6962891 := by norm_num [abs_of_neg]
  have k9 : |-5 * 1296000 - 482890.539 + (7.455 + 0.008 * T) * T| ≤ 7e6 := (abs_add_le _ _).trans (by norm_num at *; linarith)
  have g9 := hR.add g8 g5 k9 (g := 3e-9) (by norm_num)
  have g10 := hR.mul g9 ht k9 hT (g := 6e-8) (by norm_num)
  have k10 := mlb k9 hT
  have g11 : |R 450160.280 - 450160.280| ≤ 1e-10 := hR.lit (B := 450160.280) (by norm_num [abs_of_pos]) (by norm_num)
  have k11 : |450160.280 + (-5 * 1296000 - 482890.539 + (7.455 + 0.008 * T) * T) * T| ≤ 7.1e7 :=
    (abs_add_le _ _).trans (by norm_num [abs_of_pos] at *; linarith)
  have g12 := hR.add g11 g10 k11 (g := 1e-7) (by norm_num)
  have g13 := hR.mul (as2r_round' hR) g12 as2r_digits.2 k11 (g := 1e-12) (by norm_num)
  have k13 := mlb as2r_digits.2 k11
  generalize R (R 0.484813681109535994e-5 * R (R 450160.280 + _)) = om at *
  generalize as2r * (450160.280 + _) = OM at *
  have k14 : |OM + OM| ≤ 700 := (abs_add_le _ _).trans (by norm_num at *; linarith)
  have g14 := hR.add g13 g13 k14 (g := 3e-12) (by norm_num)
  have s1 := sin_err hs g13
  have s2 := sin_err hs g14
  have n1 : |R 0.00264 - 0.00264| ≤ 1e-18 := hR.lit (B := 0.00264) (by norm_num [abs_of_pos]) (by norm_num)
  have n2 : |R 0.000063 - 0.000063| ≤ 1e-19 := hR.lit (B := 0.000063) (by norm_num [abs_of_pos]) (by norm_num)
  have n3 := hR.mul n1 s1 (X := 0.00264) (by norm_num [abs_of_pos]) (Real.abs_sin_le_one _) (g := 1e-14) (by norm_num)
  have n4 := hR.mul n2 s2 (X := 0.000063) (by norm_num [abs_of_pos]) (Real.abs_sin_le_one _) (g := 1e-14) (by norm_num)
  have r3 : |0.00264 * Real.sin OM| ≤ 0.00264 * 1 := mlb (by norm_num [abs_of_pos]) (Real.abs_sin_le_one _)
  have r4 : |0.000063 * Real.sin (OM + OM)| ≤ 0.000063 * 1 := mlb (by norm_num [abs_of_pos]) (Real.abs_sin_le_one _)
  have r5 : |0.00264 * Real.sin OM + 0.000063 * Real.sin (OM + OM)| ≤ 0.0028 := (abs_add_le _ _).trans (by norm_num at *; linarith)
  have n5 := hR.add n3 n4 r5 (g := 3e-14) (by norm_num)
  have n6 := hR.mul (as2r_round' hR) n5 as2r_digits.2 r5 (g := 2e-19) (by norm_num)
  have r6 := mlb as2r_digits.2 r5
  refine hR.add m1 n6 (B := 1.3e-4) ((abs_add_le _ _).trans (by norm_num at *; linarith)) (by norm_num)

/-! ### The hypotheses can be met -/

/-- The sine and cosine rounded to nearest, at a date of 2023. -/
example (R : Rounding binary64) : |Fp.eqeqx R (fun a => R (Real.sin a)) (fun a => R (Real.cos a)) 60000 - Sla.eqeqx 60000| ≤ 7.6e-15 :=
  C106_eqeqx R _ _ (fun a => R.dbl.lit (Real.abs_sin_le_one a) (by norm_num)) (fun a => R.dbl.lit (Real.abs_cos_le_one a) (by norm_num))
    60000 (by norm_num [abs_of_pos])

example : |(1950 : ℝ) - 2000| ≤ 1000 ∧ |(60000 : ℝ) - 51544.5| ≤ 365250 := ⟨by norm_num [abs_of_neg], by norm_num [abs_of_pos]⟩

end Sla.Props
