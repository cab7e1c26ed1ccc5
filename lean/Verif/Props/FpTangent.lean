import Verif.Lemmas.FpErr64
import Verif.Model.FpTangent
import Verif.Props.Tangent
import Verif.Lemmas.EclipticMotion
import Verif.Props.FpCoords

/-
Property theorems C104: the tangent-plane projection in double precision.
-/
namespace Sla.Props
open Sla.Fp Sla.Spec Matrix

private theorem one_of_sin (x : ℝ) : |Real.sin x| ≤ 1 := Real.abs_sin_le_one x
private theorem one_of_cos (x : ℝ) : |Real.cos x| ≤ 1 := Real.abs_cos_le_one x

private theorem mul_one_bound {a b : ℝ} (ha : |a| ≤ 1) (hb : |b| ≤ 1) : |a * b| ≤ 1 := by
  rw [abs_mul]; nlinarith [abs_nonneg a, abs_nonneg b]

/-- The rounded difference of right ascension, through a library function. -/
private theorem diff_near {R : ℝ → ℝ} (hR : Dbl R) {f F : ℝ → ℝ} (hf : ∀ x, |f x - F x| ≤ 2e-16)
    (hF : ∀ x y, |F x - F y| ≤ |x - y|) {a b : ℝ} (ha : |a| ≤ 6.3) (hb : |b| ≤ 6.3) :
    |f (R (a - b)) - F (a - b)| ≤ 1.72e-15 := by
  have h1 : |R (a - b) - (a - b)| ≤ 1.5121e-15 :=
    hR.lit (B := 12.6) ((abs_sub _ _).trans (by norm_num at *; linarith)) (by norm_num)
  have h2 := hF (R (a - b)) (a - b)
  have h3 := hf (R (a - b))
  have h4 := abs_sub_le (f (R (a - b))) (F (R (a - b))) (F (a - b))
  norm_num at *; linarith

/-- The three numbers that `ds2tp` computes before classifying the star. -/
private theorem parts_near {R : ℝ → ℝ} (hR : Dbl R) {sn cs : ℝ → ℝ} (hs : ∀ x, |sn x - Real.sin x| ≤ 2e-16)
    (hc : ∀ x, |cs x - Real.cos x| ≤ 2e-16) {p t : Spherical} (hp : |p.a| ≤ 6.3) (ht : |t.a| ≤ 6.3) :
    let C := Real.sin p.b * Real.sin t.b + Real.cos p.b * Real.cos t.b * Real.cos (p.a - t.a)
    let X := Real.cos p.b * Real.sin (p.a - t.a)
    let Y := Real.sin p.b * Real.cos t.b - Real.cos p.b * Real.sin t.b * Real.cos (p.a - t.a)
    (|tpDenom R sn cs p t - C| ≤ 3.1e-15 ∧ |R (cs p.b * sn (R (p.a - t.a))) - X| ≤ 3.1e-15 ∧
      |R (R (sn p.b * cs t.b) - R (R (cs p.b * sn t.b) * cs (R (p.a - t.a)))) - Y| ≤ 3.1e-15) ∧
      |C| ≤ 1 ∧ |X| ≤ 1 ∧ |Y| ≤ 1 := by
  intro C X Y
  have d1 := diff_near hR hs Real.abs_sin_sub_sin_le hp ht
  have d2 := diff_near hR hc Real.abs_cos_sub_cos_le hp ht
  have s1 := one_of_sin p.b
  have s2 := one_of_sin t.b
  have c1 := one_of_cos p.b
  have c2 := one_of_cos t.b
  have sd := one_of_sin (p.a - t.a)
  have cd := one_of_cos (p.a - t.a)
  have eC : direction p.a p.b ⬝ᵥ direction t.a t.b = C := by
    rw [dot_tangent, direction_eq]; simp only [C]; rw [Real.cos_sub]; simp; ring
  have eY : direction p.a p.b ⬝ᵥ north t.a t.b = Y := by
    rw [dot_north, direction_eq]; simp only [Y]; rw [Real.cos_sub]; simp; ring
  have bXY : C ^ 2 + X ^ 2 + Y ^ 2 = 1 := by
    have h1 := Real.sin_sq_add_cos_sq p.b
    have h2 := Real.sin_sq_add_cos_sq t.b
    have h3 := Real.sin_sq_add_cos_sq (p.a - t.a)
    simp only [C, X, Y]
    grind
  have bC : |C| ≤ 1 := abs_le_one_iff_mul_self_le_one.2 (by nlinarith [sq_nonneg X, sq_nonneg Y])
  have bX : |X| ≤ 1 := abs_le_one_iff_mul_self_le_one.2 (by nlinarith [sq_nonneg C, sq_nonneg Y])
  have bY : |Y| ≤ 1 := abs_le_one_iff_mul_self_le_one.2 (by nlinarith [sq_nonneg X, sq_nonneg C])
  have m1 : |R (sn p.b * sn t.b) - Real.sin p.b * Real.sin t.b| ≤ 5.21e-16 := hR.mul (hs _) (hs _) s1 s2 (by norm_num)
  have m2 : |R (cs p.b * cs t.b) - Real.cos p.b * Real.cos t.b| ≤ 5.21e-16 := hR.mul (hc _) (hc _) c1 c2 (by norm_num)
  have m3 : |R (sn p.b * cs t.b) - Real.sin p.b * Real.cos t.b| ≤ 5.21e-16 := hR.mul (hs _) (hc _) s1 c2 (by norm_num)
  have m4 : |R (cs p.b * sn t.b) - Real.cos p.b * Real.sin t.b| ≤ 5.21e-16 := hR.mul (hc _) (hs _) c1 s2 (by norm_num)
  have n1 : |R (R (cs p.b * cs t.b) * cs (R (p.a - t.a))) - Real.cos p.b * Real.cos t.b * Real.cos (p.a - t.a)| ≤ 2.37e-15 :=
    hR.mul m2 d2 (mul_one_bound c1 c2) cd (by norm_num)
  have n2 : |R (R (cs p.b * sn t.b) * cs (R (p.a - t.a))) - Real.cos p.b * Real.sin t.b * Real.cos (p.a - t.a)| ≤ 2.37e-15 :=
    hR.mul m4 d2 (mul_one_bound c1 s2) cd (by norm_num)
  exact ⟨⟨hR.add m1 n1 bC (by norm_num), hR.mul (hc _) d1 c1 sd (by norm_num), hR.sub m3 n2 bY (by norm_num)⟩, bC, bX, bY⟩

private theorem tiny_near {R : ℝ → ℝ} (hR : Dbl R) : |R 1e-6 - 1e-6| ≤ 1.3e-22 :=
  hR.lit (B := 1e-6) (by norm_num) (by norm_num)

private theorem dot_eq (p t : Spherical) : direction p.a p.b ⬝ᵥ direction t.a t.b =
    Real.sin p.b * Real.sin t.b + Real.cos p.b * Real.cos t.b * Real.cos (p.a - t.a) := by
  rw [dot_tangent, direction_eq, Real.cos_sub]; simp; ring

/-- C104: in double precision `ds2tp` returns the right status unless the cosine of the distance of the star from the tangent point is
    within 4e-15 of one of the boundaries 1e-6, 0 and -1e-6. -/
theorem C104_status (R : Rounding binary64) {sn cs : ℝ → ℝ} (hs : ∀ x, |sn x - Real.sin x| ≤ 2e-16)
    (hc : ∀ x, |cs x - Real.cos x| ≤ 2e-16) {p t : Spherical} (hp : |p.a| ≤ 6.3) (ht : |t.a| ≤ 6.3)
    (h : ∀ b ∈ [(1e-6 : ℝ), 0, -1e-6], 4e-15 ≤ |direction p.a p.b ⬝ᵥ direction t.a t.b - b|) :
    (Fp.ds2tp R sn cs p t).1 = (Sla.ds2tp p t).1 := by
  obtain ⟨⟨hd, -⟩, -⟩ := parts_near R.dbl hs hc hp ht
  have ht := tiny_near R.dbl
  have h1 := h 1e-6 (by simp)
  have h2 := h 0 (by simp)
  have h3 := h (-1e-6) (by simp)
  clear h
  show (Fp.tppClassify R (tpDenom R sn cs p t)).1 = (Sla.tppClassify _).1
  rw [dot_eq] at h1 h2 h3
  generalize Real.sin p.b * Real.sin t.b + Real.cos p.b * Real.cos t.b * Real.cos (p.a - t.a) = C at *
  generalize tpDenom R sn cs p t = D at *
  unfold Fp.tppClassify Sla.tppClassify
  generalize R 1e-6 = T at *
  rw [abs_le] at hd ht
  rw [le_abs] at h1 h2 h3
  norm_num at *
  split_ifs <;> first
    | rfl
    | (exfalso; rcases h1 with h1 | h1 <;> rcases h2 with h2 | h2 <;> rcases h3 with h3 | h3 <;> linarith [hd.1, hd.2, ht.1, ht.2])

private theorem quot_near {R : ℝ → ℝ} (hR : Dbl R) {n N d D : ℝ} (hn : |n - N| ≤ 3.1e-15) (hN : |N| ≤ 1) (hd : |d - D| ≤ 3.1e-15)
    (h1 : 1e-6 ≤ |D|) (h2 : |D| ≤ 1) : |R (n / d) - N / D| ≤ 6.5e-15 / D ^ 2 := by
  obtain ⟨m, hm⟩ : ∃ m, m = |D| := ⟨_, rfl⟩
  rw [← hm] at h1 h2
  have m0 : 0 < m := lt_of_lt_of_le (by norm_num) h1
  have e2 : D ^ 2 = m ^ 2 := by rw [hm, sq_abs]
  rw [e2]
  refine hR.div (m := m) (Q := 1 / m) (E := 6.3e-15 / m ^ 2) hn hd hm.le (lt_of_lt_of_le (by norm_num) h1) ?_ ?_ ?_
  · rw [abs_div, ← hm]; exact div_le_div_of_nonneg_right hN m0.le
  · rw [show (6.3e-15 : ℝ) / m ^ 2 * (m - 3.1e-15) = 6.3e-15 * (m - 3.1e-15) / m ^ 2 by ring, le_div_iff₀ (by positivity), show (3.1e-15 + 1 / m * 3.1e-15) * m ^ 2 = 3.1e-15 * m * m + 3.1e-15 * m by
      field_simp]
    norm_num at *; nlinarith
  · rw [le_div_iff₀ (by positivity), show (6.3e-15 / m ^ 2 + 1.2e-16 * (1 / m + 6.3e-15 / m ^ 2) + 1e-200) * m ^ 2 =
      6.3e-15 + 1.2e-16 * (m + 6.3e-15) + 1e-200 * m ^ 2 by field_simp]
    have : m ^ 2 ≤ 1 := by nlinarith
    norm_num at *; nlinarith

/-- C104: in double precision `ds2tp` gives both coordinates to 6.5e-15 divided by the square of the cosine of the distance of the
    star from the tangent point, for stars in front of the plane and for those behind it. -/
theorem C104_ds2tp (R : Rounding binary64) {sn cs : ℝ → ℝ} (hs : ∀ x, |sn x - Real.sin x| ≤ 2e-16)
    (hc : ∀ x, |cs x - Real.cos x| ≤ 2e-16) {p t : Spherical} (hp : |p.a| ≤ 6.3) (ht : |t.a| ≤ 6.3) {c : ℝ}
    (hcos : c = direction p.a p.b ⬝ᵥ direction t.a t.b) (h : 1e-6 + 4e-15 ≤ |c|) :
    (Fp.ds2tp R sn cs p t).1 = (Sla.ds2tp p t).1 ∧
    |(Fp.ds2tp R sn cs p t).2.1 - (Sla.ds2tp p t).2.1| ≤ 6.5e-15 / c ^ 2 ∧
    |(Fp.ds2tp R sn cs p t).2.2 - (Sla.ds2tp p t).2.2| ≤ 6.5e-15 / c ^ 2 := by
  refine ⟨C104_status R hs hc hp ht ?_, ?_⟩
  · rw [← hcos]
    intro b hb
    have hb1 : |b| ≤ 1e-6 := by
      simp only [List.mem_cons, List.not_mem_nil, or_false] at hb
      rcases hb with rfl | rfl | rfl <;> norm_num [abs_of_pos]
    have := abs_sub_abs_le_abs_sub c b
    linarith
  obtain ⟨⟨hd, hx, hy⟩, bC, bX, bY⟩ := parts_near R.dbl hs hc hp ht
  have hT := tiny_near R.dbl
  rw [dot_eq] at hcos
  have e1 : (Fp.tppClassify R (tpDenom R sn cs p t)).2 = tpDenom R sn cs p t ∧ (Sla.tppClassify c).2 = c := by
    rw [← hcos] at hd
    clear hx hy bC bX bY hcos
    generalize tpDenom R sn cs p t = D at *
    unfold Fp.tppClassify Sla.tppClassify
    generalize R 1e-6 = T at *
    rw [abs_le] at hd hT
    rw [le_abs] at h
    norm_num at *
    constructor <;> split_ifs <;> first
      | rfl
      | (exfalso; rcases h with h | h <;> linarith [hd.1, hd.2, hT.1, hT.2])
  show |R (_ / (Fp.tppClassify R (tpDenom R sn cs p t)).2) - _ / (Sla.tppClassify _).2| ≤ _ ∧
    |R (_ / (Fp.tppClassify R (tpDenom R sn cs p t)).2) - _ / (Sla.tppClassify _).2| ≤ _
  rw [e1.1, ← hcos, e1.2]
  rw [← hcos] at hd bC
  have h6 : 1e-6 ≤ |c| := by norm_num at *; linarith
  exact ⟨quot_near R.dbl hx bX hd h6 bC, quot_near R.dbl hy bY hd h6 bC⟩

/-- A star at right ascension 1, on the equator like the tangent point at right ascension 0.5. -/
example (R : Rounding binary64) : |(Fp.ds2tp R Real.sin Real.cos ⟨1, 0⟩ ⟨0.5, 0⟩).2.1 - (Sla.ds2tp ⟨1, 0⟩ ⟨0.5, 0⟩).2.1| ≤ 1e-14 := by
  have hc : (0.87 : ℝ) ≤ Real.cos 0.5 := by
    have := Real.one_sub_sq_div_two_le_cos (x := 0.5)
    norm_num at this ⊢; linarith
  have e : direction 1 0 ⬝ᵥ direction 0.5 0 = Real.cos 0.5 := by
    have := dot_eq ⟨1, 0⟩ ⟨0.5, 0⟩
    simp only [Real.sin_zero, Real.cos_zero] at this
    rw [this]; norm_num
  have h0 : (0 : ℝ) < Real.cos 0.5 := lt_of_lt_of_le (by norm_num) hc
  refine (C104_ds2tp R (sn := Real.sin) (cs := Real.cos) (by intro x; norm_num) (by intro x; norm_num) (p := ⟨1, 0⟩) (t := ⟨0.5, 0⟩)
    (by norm_num) (by norm_num [abs_of_pos]) e.symm (by rw [abs_of_pos h0]; norm_num at *; linarith)).2.1.trans ?_
  rw [div_le_iff₀ (by positivity)]
  norm_num at *
  nlinarith

/-- C104: for a star within 1e-6 rad of 90 degrees from the tangent point, where the projection clamps its denominator to 1e-6 with the
    sign of the cosine, both coordinates (of the order of a million) are right to 3.5e-9. -/
theorem C104_limb (R : Rounding binary64) {sn cs : ℝ → ℝ} (hs : ∀ x, |sn x - Real.sin x| ≤ 2e-16)
    (hc : ∀ x, |cs x - Real.cos x| ≤ 2e-16) {p t : Spherical} (hp : |p.a| ≤ 6.3) (ht : |t.a| ≤ 6.3) {c : ℝ}
    (hcos : c = direction p.a p.b ⬝ᵥ direction t.a t.b) (h : 4e-15 ≤ |c|) (h' : |c| ≤ 1e-6 - 4e-15) :
    (Fp.ds2tp R sn cs p t).1 = (if 0 < c then TPPStatus.tooFar else TPPStatus.astarOnTp) ∧
    |(Fp.ds2tp R sn cs p t).2.1 - (Sla.ds2tp p t).2.1| ≤ 3.5e-9 ∧
    |(Fp.ds2tp R sn cs p t).2.2 - (Sla.ds2tp p t).2.2| ≤ 3.5e-9 := by
  obtain ⟨⟨hd, hx, hy⟩, -, bX, bY⟩ := parts_near R.dbl hs hc hp ht
  have hT := tiny_near R.dbl
  rw [dot_eq] at hcos
  have quot : ∀ {n N d D : ℝ}, |n - N| ≤ 3.1e-15 → |N| ≤ 1 → |d - D| ≤ 1.3e-22 → |D| = 1e-6 → |R (n / d) - N / D| ≤ 3.5e-9 := by
    intro n N d D hn hN hd hD
    refine R.dbl.div (m := 1e-6) (Q := 1e6) (E := 3.3e-9) hn hd hD.ge (by norm_num) ?_ (by norm_num) (by norm_num)
    rw [abs_div, hD, div_le_iff₀ (by norm_num)]
    norm_num at *; linarith
  have e1 : (Fp.tppClassify R (tpDenom R sn cs p t)).1 = (if 0 < c then TPPStatus.tooFar else TPPStatus.astarOnTp) ∧
      |(Fp.tppClassify R (tpDenom R sn cs p t)).2 - (Sla.tppClassify c).2| ≤ 1.3e-22 ∧ |(Sla.tppClassify c).2| = 1e-6 := by
    rw [← hcos] at hd
    clear hx hy bX bY hcos quot
    generalize tpDenom R sn cs p t = D at *
    unfold Fp.tppClassify Sla.tppClassify
    generalize R 1e-6 = T at *
    rw [abs_le] at hd h'
    have hT' := abs_le.1 hT
    obtain h | h := le_abs.1 h
    · rw [if_neg (by norm_num at *; linarith [hd.1, hd.2, hT'.1]), if_pos (by norm_num at *; linarith [hd.1]),
        if_pos (by norm_num at *; linarith), if_neg (by norm_num at *; linarith [h'.2]), if_pos (by norm_num at *; linarith)]
      exact ⟨rfl, hT, by norm_num⟩
    · rw [if_neg (by norm_num at *; linarith [hd.1, hd.2, hT'.1]), if_neg (by norm_num at *; linarith [hd.2]),
        if_pos (by norm_num at *; linarith [hd.1, hT'.1, hT'.2, h'.1]), if_neg (by norm_num at *; linarith),
        if_neg (by norm_num at *; linarith), if_neg (by norm_num at *; linarith), if_pos (by norm_num at *; linarith [h'.1])]
      refine ⟨rfl, ?_, by norm_num⟩
      show |-T - -1e-6| ≤ _
      rw [neg_sub_neg, abs_sub_comm]; exact hT
  obtain ⟨e0, e2, e3⟩ := e1
  refine ⟨e0, ?_⟩
  show |R (_ / (Fp.tppClassify R (tpDenom R sn cs p t)).2) - _ / (Sla.tppClassify _).2| ≤ _ ∧
    |R (_ / (Fp.tppClassify R (tpDenom R sn cs p t)).2) - _ / (Sla.tppClassify _).2| ≤ _
  rw [← hcos]
  exact ⟨quot hx bX e2 e3, quot hy bY e2 e3⟩

/-- A star half a millionth of a radian short of 90 degrees from the tangent point. -/
example (R : Rounding binary64) : (Fp.ds2tp R Real.sin Real.cos ⟨Real.pi / 2 - 5e-7, 0⟩ ⟨0, 0⟩).1 = .tooFar := by
  have e : direction (Real.pi / 2 - 5e-7) 0 ⬝ᵥ direction 0 0 = Real.sin 5e-7 := by
    have := dot_eq ⟨Real.pi / 2 - 5e-7, 0⟩ ⟨0, 0⟩
    simp only [Real.sin_zero, Real.cos_zero] at this
    rw [this, sub_zero, Real.cos_pi_div_two_sub]; norm_num
  have h1 : Real.sin 5e-7 < 5e-7 := Real.sin_lt (by norm_num)
  have h2 := Real.sin_gt_sub_cube (x := 5e-7) (by norm_num)
  have h3 : (4e-7 : ℝ) < Real.sin 5e-7 := by norm_num at *; linarith
  have h0 : 0 < Real.sin 5e-7 := lt_trans (by norm_num) h3
  have hpi := Real.pi_lt_d2
  have hpi' := Real.pi_gt_three
  have := (C104_limb R (sn := Real.sin) (cs := Real.cos) (by intro x; norm_num) (by intro x; norm_num)
    (p := ⟨Real.pi / 2 - 5e-7, 0⟩) (t := ⟨0, 0⟩) (by rw [abs_le]; norm_num at *; constructor <;> linarith) (by norm_num) e.symm
    (by rw [abs_of_pos h0]; norm_num at *; linarith) (by rw [abs_of_pos h0]; norm_num at *; linarith)).1
  rwa [if_pos h0] at this

/-! ### From the plane to the sphere -/

/-- Reduction to one turn of an argument of up to one and a half turns. -/
theorem dranrm_wide (R : Rounding binary64) {a : ℝ} (ha : binary64.Rep a) (h : |a| ≤ 9.6) :
    (∃ k : ℤ, |Fp.dranrm R a - (a + 2 * Real.pi * k)| ≤ 9.5e-16) ∧ 0 ≤ Fp.dranrm R a ∧ Fp.dranrm R a < 2 * Real.pi := by
  obtain ⟨r0, r1, ⟨k, hk⟩, -⟩ := C77_dranrm R a ha
  have p1 := Real.pi_gt_d20
  have p2 := Real.pi_lt_d20
  generalize Fp.dranrm R a = r at *
  obtain ⟨A, hA⟩ : ∃ A : ℝ, A = 884279719003555 / 2 ^ 47 := ⟨_, rfl⟩
  rw [← hA] at r1 hk
  have g1 : A < 2 * Real.pi := by rw [hA]; refine lt_trans ?_ (mul_lt_mul_of_pos_left p1 two_pos); norm_num
  have g2 : 2 * Real.pi < A + 2.5e-16 := by rw [hA]; refine lt_trans (mul_lt_mul_of_pos_left p2 two_pos) ?_; norm_num
  have g3 : 6.28 ≤ A := by rw [hA]; norm_num
  have g4 : A ≤ 6.29 := by rw [hA]; norm_num
  clear hA p1 p2
  have h51 : (1 : ℝ) / 2 ^ 51 ≤ 4.45e-16 := by norm_num
  have hk' := hk.trans h51
  clear hk h51
  have k1 : k ≤ 2 := by
    by_contra hc
    push Not at hc
    have : (3 : ℝ) ≤ k := by exact_mod_cast hc
    rw [abs_le] at h hk'
    norm_num at *
    nlinarith [hk'.1, hk'.2, h.1, h.2]
  have k2 : -2 ≤ k := by
    by_contra hc
    push Not at hc
    have : (k : ℝ) ≤ -3 := by exact_mod_cast (show k ≤ -3 by omega)
    rw [abs_le] at h hk'
    norm_num at *
    nlinarith [hk'.1, hk'.2, h.1, h.2]
  have e1 : (k : ℝ) ≤ 2 := by exact_mod_cast k1
  have e2 : (-2 : ℝ) ≤ k := by exact_mod_cast k2
  refine ⟨⟨-k, ?_⟩, r0, lt_of_le_of_lt r1 g1⟩
  push_cast
  have hw : |(2 * Real.pi - A) * k| ≤ 2.5e-16 * 2 := by
    rw [abs_mul]
    refine mul_le_mul ?_ (abs_le.2 ⟨e2, e1⟩) (abs_nonneg _) (by norm_num)
    rw [abs_of_pos (by linarith)]; linarith
  have : r - (a + 2 * Real.pi * -k) = r - (a - A * k) + (2 * Real.pi - A) * k := by ring
  rw [this]
  refine (abs_add_le _ _).trans ?_
  norm_num at *; linarith

/-- The point of the plane in the meridian of the tangent point. -/
private noncomputable def meridianPoint (b xi eta : ℝ) : Vec := ![Real.cos b - eta * Real.sin b, xi, Real.sin b + eta * Real.cos b]

private theorem meridian_len (b xi eta : ℝ) : len (meridianPoint b xi eta) = Real.sqrt (1 + xi ^ 2 + eta ^ 2) := by
  rw [len_eq]
  congr 1
  have := Real.sin_sq_add_cos_sq b
  simp [meridianPoint]
  grind

private theorem turn_plane (t : Spherical) (xi eta : ℝ) : planePoint t xi eta = rotZ (-t.a) *ᵥ meridianPoint t.b xi eta := by
  rw [planePoint_eq]
  funext i
  fin_cases i <;> simp [rotZ, meridianPoint, Matrix.mulVec, dotProduct, Fin.sum_univ_three] <;> ring

private theorem turn_dir (a l b : ℝ) : direction (l + a) b = rotZ (-a) *ᵥ direction l b := by
  rw [direction_eq, direction_eq, Real.cos_add, Real.sin_add]
  funext i
  fin_cases i <;> simp [rotZ, Matrix.mulVec, dotProduct, Fin.sum_univ_three] <;> ring

private theorem comp_near {R : ℝ → ℝ} (hR : Dbl R) {p q P Q eta L : ℝ} (hp : |p - P| ≤ 2e-16) (hq : |q - Q| ≤ 2e-16) (hQ : |Q| ≤ 1)
    (h1 : 1 ≤ L) (he : |eta| ≤ L) :
    (|P - eta * Q| ≤ L → |R (p - R (eta * q)) - (P - eta * Q)| ≤ 6.5e-16 * L) ∧
    (|P + eta * Q| ≤ L → |R (p + R (eta * q)) - (P + eta * Q)| ≤ 6.5e-16 * L) := by
  have m : |R (eta * q) - eta * Q| ≤ 3.21e-16 * L := by
    refine hR.mul (a := eta) (x := eta) (show |eta - eta| ≤ 0 by simp) hq he hQ ?_
    norm_num at *; linarith
  constructor <;> intro h
  · refine hR.sub hp m h ?_
    norm_num at *; linarith
  · refine hR.add hp m h ?_
    norm_num at *; linarith

/-- C104: in double precision `dtp2s` returns a direction within 8.5e-15 rad of the point of the tangent plane (plus pi times the
    error of the library's arctangent), whatever the coordinates in the plane, and in the documented ranges. -/
theorem C104_dtp2s (R : Rounding binary64) {sn cs : ℝ → ℝ} {at2 : ℝ → ℝ → ℝ} {ε : ℝ} (hε : ε ≤ 0.01)
    (hs : ∀ x, |sn x - Real.sin x| ≤ 2e-16) (hc : ∀ x, |cs x - Real.cos x| ≤ 2e-16) (ha : Atan2Near at2 ε) (xi eta : ℝ)
    {t : Spherical} (ht : |t.a| ≤ 6.3) :
    let p := Fp.dtp2s R sn cs at2 xi eta t
    angleBetween (direction p.a p.b) (planePoint t xi eta) ≤ Real.pi * ε + 8.5e-15 ∧
      angleBetween (direction p.a p.b) (direction (Sla.dtp2s xi eta t).a (Sla.dtp2s xi eta t).b) ≤ Real.pi * ε + 8.5e-15 ∧
      0 ≤ p.a ∧ p.a < 2 * Real.pi ∧ |p.b| ≤ Real.pi / 2 + ε := by
  intro p
  have ε0 : 0 ≤ ε := (abs_nonneg _).trans (ha.1 0 0 (Or.inr le_rfl))
  have hpi := Real.pi_lt_d6
  have hpp := Real.pi_pos
  set d := R (cs t.b - R (eta * sn t.b)) with hd
  set z := R (sn t.b + R (eta * cs t.b)) with hz
  obtain ⟨V, hV⟩ : ∃ V, V = meridianPoint t.b xi eta := ⟨_, rfl⟩
  obtain ⟨L, hL⟩ : ∃ L, L = Real.sqrt (1 + xi ^ 2 + eta ^ 2) := ⟨_, rfl⟩
  have lV : len V = L := by rw [hV, hL, meridian_len]
  have L1 : 1 ≤ L := by rw [hL, Real.one_le_sqrt]; nlinarith [sq_nonneg xi, sq_nonneg eta]
  have Le : |eta| ≤ L := by rw [hL]; apply Real.le_sqrt_of_sq_le; rw [sq_abs]; nlinarith [sq_nonneg xi]
  have bd : ∀ i, |V i| ≤ L := by
    intro i
    rw [← lV, len_eq]
    apply Real.le_sqrt_of_sq_le
    rw [sq_abs]
    fin_cases i <;> simp <;> nlinarith [sq_nonneg (V 0), sq_nonneg (V 1), sq_nonneg (V 2)]
  have V0 : V 0 = Real.cos t.b - eta * Real.sin t.b := by rw [hV]; rfl
  have V1 : V 1 = xi := by rw [hV]; rfl
  have V2 : V 2 = Real.sin t.b + eta * Real.cos t.b := by rw [hV]; rfl
  have n0 : |d - V 0| ≤ 6.5e-16 * L := by
    rw [V0]; exact (comp_near R.dbl (hc t.b) (hs t.b) (one_of_sin _) L1 Le).1 (V0 ▸ bd 0)
  have n2 : |z - V 2| ≤ 6.5e-16 * L := by
    rw [V2]; exact (comp_near R.dbl (hs t.b) (hc t.b) (one_of_cos _) L1 Le).2 (V2 ▸ bd 2)
  obtain ⟨v, hv⟩ : ∃ v : Vec, v = ![d, xi, z] := ⟨_, rfl⟩
  have v0 : v 0 = d := by rw [hv]; rfl
  have v1 : v 1 = xi := by rw [hv]; rfl
  have v2 : v 2 = z := by rw [hv]; rfl
  have near : len (v - V) ≤ 9.2e-16 * L := by
    rw [len_eq]
    refine Real.sqrt_le_iff.2 ⟨by positivity, ?_⟩
    simp only [Pi.sub_apply, v0, v1, v2, V1]
    have s0 := abs_le.1 n0
    have s2 := abs_le.1 n2
    have q0 : (d - V 0) * (d - V 0) ≤ (6.5e-16 * L) * (6.5e-16 * L) := by nlinarith [s0.1, s0.2]
    have q2 : (z - V 2) * (z - V 2) ≤ (6.5e-16 * L) * (6.5e-16 * L) := by nlinarith [s2.1, s2.2]
    norm_num at *; nlinarith [mul_self_nonneg L]
  have L0 : 0 < L := by linarith
  have hang : angleBetween v V ≤ Real.pi / 2 * (1.002 * 9.2e-16) := by
    have hi : 0 < L⁻¹ := inv_pos.2 L0
    have h1 : len (L⁻¹ • V) = 1 := by rw [len_smul, abs_of_pos hi, lV, inv_mul_cancel₀ L0.ne']
    have h2 : len (L⁻¹ • v - L⁻¹ • V) ≤ 9.2e-16 := by
      rw [← smul_sub, len_smul, abs_of_pos hi, inv_mul_le_iff₀ L0, mul_comm]; exact near
    have h3 := angle_of_near (by rw [h1]; norm_num) h2 (by norm_num)
    rwa [angle_scale hi, angle_symm, angle_scale hi, angle_symm] at h3
  have lv : 0.9 ≤ len v := by
    have h := len_add_le (V - v) v
    rw [sub_add_cancel, lV, ← len_neg', neg_sub] at h
    norm_num at *; nlinarith
  obtain ⟨k, hk, hb⟩ := at2_turn ha xi d
  have hsum : |R (at2 xi d + t.a) - (at2 xi d + t.a)| ≤ 1.16e-15 :=
    R.dbl.lit (B := 9.5) ((abs_add_le _ _).trans (by norm_num at *; linarith)) (by norm_num)
  have hrange : |R (at2 xi d + t.a)| ≤ 9.6 := by
    have h1 := abs_add_le (at2 xi d) t.a
    have h2 := abs_sub_abs_le_abs_sub (R (at2 xi d + t.a)) (at2 xi d + t.a)
    norm_num at *; linarith
  obtain ⟨⟨m, hm⟩, r0, r1⟩ := dranrm_wide R (R.rep (at2 xi d + t.a)) hrange
  have pa : p.a = Fp.dranrm R (R (at2 xi d + t.a)) := rfl
  have pb : p.b = at2 z (R (Real.sqrt (R (R (xi * xi) + R (d * d))))) := rfl
  rw [← pa] at hm r0 r1
  have ρ0 : 0 ≤ R (Real.sqrt (R (R (xi * xi) + R (d * d)))) := R.nonneg (Real.sqrt_nonneg _)
  have hel : |p.b - atan2 z (R (Real.sqrt (R (R (xi * xi) + R (d * d)))))| ≤ ε := by
    rw [pb]; exact ha.1 _ _ (Or.inr ρ0)
  have hlon : |p.a - t.a - (atan2 xi d + 2 * Real.pi * ((k + m : ℤ) : ℝ))| ≤ ε + 2.2e-15 := by
    push_cast
    clear_value p
    generalize R (at2 xi d + t.a) = s at *
    generalize at2 xi d = l at *
    generalize atan2 xi d = l0 at *
    clear pa pb hel hang near
    rw [abs_le] at hk hm hsum ⊢
    norm_num at *
    constructor <;> linarith [hk.1, hk.2, hm.1, hm.2, hsum.1, hsum.2]
  have hpol := polar_near R v lv (az := p.a - t.a) (el := p.b) (α := ε + 2.2e-15) (β := ε)
    (fun _ => ⟨k + m, by rw [v0, v1]; exact hlon⟩) (by rw [v0, v1, v2, add_comm (R (d * d))]; exact hel) (by norm_num at *; linarith)
    (by norm_num at *; linarith)
  have hfin : angleBetween (direction (p.a - t.a) p.b) V ≤ Real.pi * ε + 8.5e-15 := by
    have h := angle_triangle (direction (p.a - t.a) p.b) v V
    refine (h.trans (add_le_add hpol hang)).trans ?_
    clear * - hpi hpp
    norm_num at *
    nlinarith
  have hrot : angleBetween (direction p.a p.b) (planePoint t xi eta) ≤ Real.pi * ε + 8.5e-15 := by
    have e : direction p.a p.b = rotZ (-t.a) *ᵥ direction (p.a - t.a) p.b := by rw [← turn_dir, sub_add_cancel]
    rw [e, turn_plane, angle_rotation (rotZ_rotation _), ← hV]
    exact hfin
  refine ⟨hrot, ?_, r0, r1, ?_⟩
  · have h := (C34_dtp2s xi eta t).1
    rw [← h, angle_scale (by rw [← hL]; exact L0)] at hrot
    exact hrot
  · have hb : |atan2 z (R (Real.sqrt (R (R (xi * xi) + R (d * d)))))| ≤ Real.pi / 2 := by
      unfold atan2; exact Complex.abs_arg_le_pi_div_two_iff.2 ρ0
    have := abs_sub_abs_le_abs_sub p.b (atan2 z (R (Real.sqrt (R (R (xi * xi) + R (d * d))))))
    linarith

private theorem rounded_at2 (R : Rounding binary64) : Atan2Near (fun y x => R (atan2 y x)) 1e-15 := by
  have hn : ∀ y x, |R (atan2 y x) - atan2 y x| ≤ 1e-15 := fun y x => by
    have := atan2_mem y x
    have hp := Real.pi_lt_d6
    exact R.dbl.lit (B := 4) (abs_le.2 ⟨by linarith [this.1], by linarith [this.2]⟩) (by norm_num)
  refine ⟨fun y x _ => hn y x, fun x hx => Or.inl ?_⟩
  have e : atan2 0 x = Real.pi := by
    refine atan2_unique (r := -x) (by linarith) (by linarith [Real.pi_pos]) le_rfl (by simp) (by simp)
  have := hn 0 x
  rw [e] at this
  show |R (atan2 0 x) - Real.pi| ≤ 1e-15
  rwa [e]

/-- A point of the plane 3 radians east and 7 radians south of the tangent point. -/
example (R : Rounding binary64) : ∃ at2 : ℝ → ℝ → ℝ, Atan2Near at2 1e-15 ∧
    angleBetween (direction (Fp.dtp2s R Real.sin Real.cos at2 3 (-7) ⟨6, 1⟩).a (Fp.dtp2s R Real.sin Real.cos at2 3 (-7) ⟨6, 1⟩).b)
      (direction (Sla.dtp2s 3 (-7) ⟨6, 1⟩).a (Sla.dtp2s 3 (-7) ⟨6, 1⟩).b) ≤ 1.2e-14 := by
  have hat := rounded_at2 R
  refine ⟨_, hat, ((C104_dtp2s R (by norm_num) (by intro x; norm_num) (by intro x; norm_num) hat 3 (-7) (t := ⟨6, 1⟩)
    (by norm_num [abs_of_pos])).2.1).trans ?_⟩
  have hp := Real.pi_lt_d6
  norm_num at *; linarith

private theorem plane_diff (t : Spherical) (xi eta xi' eta' : ℝ) :
    len (planePoint t xi eta - planePoint t xi' eta') = Real.sqrt ((xi - xi') ^ 2 + (eta - eta') ^ 2) := by
  rw [turn_plane, turn_plane, ← Matrix.mulVec_sub, len_mulVec (rotZ_rotation _), len_eq]
  congr 1
  have := Real.sin_sq_add_cos_sq t.b
  simp [meridianPoint]
  grind

/-- C104: a star projected by `ds2tp` and brought back by `dtp2s`, both in double precision, is displaced by no more than 1.5e-14 rad
    divided by the cosine of its distance from the tangent point, plus 8.5e-15 rad and pi times the error of the arctangent. -/
theorem C104_round_trip (R : Rounding binary64) {sn cs : ℝ → ℝ} {at2 : ℝ → ℝ → ℝ} {ε : ℝ} (hε : ε ≤ 0.01)
    (hs : ∀ x, |sn x - Real.sin x| ≤ 2e-16) (hc : ∀ x, |cs x - Real.cos x| ≤ 2e-16) (ha : Atan2Near at2 ε)
    {p t : Spherical} (hp : |p.a| ≤ 6.3) (ht : |t.a| ≤ 6.3) {c : ℝ}
    (hcos : c = direction p.a p.b ⬝ᵥ direction t.a t.b) (h : 1e-6 + 4e-15 ≤ c) :
    let r := Fp.ds2tp R sn cs p t
    let q := Fp.dtp2s R sn cs at2 r.2.1 r.2.2 t
    r.1 = .ok ∧ angleBetween (direction q.a q.b) (direction p.a p.b) ≤ 1.5e-14 / c + (Real.pi * ε + 8.5e-15) := by
  intro r q
  have c0 : 0 < c := lt_of_lt_of_le (by norm_num) h
  obtain ⟨g1, g2, g3⟩ := C104_ds2tp R hs hc hp ht hcos (by rwa [abs_of_pos c0])
  have hok : (Sla.ds2tp p t).1 = .ok := (C34_status p t).1.2 (by rw [← hcos]; norm_num at *; linarith)
  have hpl := C34_ds2tp p t (Or.inl hok)
  rw [← hcos] at hpl
  refine ⟨g1.trans hok, ?_⟩
  obtain ⟨hq, -⟩ := C104_dtp2s R hε hs hc ha r.2.1 r.2.2 ht
  refine (angle_triangle _ (planePoint t r.2.1 r.2.2) _).trans ?_
  rw [add_comm]
  refine add_le_add ?_ hq
  have c1 : c ≤ 1 := by
    obtain ⟨-, bC, -⟩ := parts_near R.dbl hs hc hp ht
    rw [← dot_eq, ← hcos] at bC
    exact (le_abs_self c).trans bC
  have hlen : len (c • planePoint t (Sla.ds2tp p t).2.1 (Sla.ds2tp p t).2.2) = 1 := by
    rw [← hpl, len, direction_unit, Real.sqrt_one]
  have hd : len (c • planePoint t r.2.1 r.2.2 - c • planePoint t (Sla.ds2tp p t).2.1 (Sla.ds2tp p t).2.2) ≤ 9.2e-15 / c := by
    rw [← smul_sub, len_smul, plane_diff, abs_of_pos c0]
    have hB : 0 ≤ 6.5e-15 / c ^ 2 := by positivity
    have e1 : (r.2.1 - (Sla.ds2tp p t).2.1) ^ 2 ≤ (6.5e-15 / c ^ 2) ^ 2 := sq_le_sq' (abs_le.1 g2).1 (abs_le.1 g2).2
    have e2 : (r.2.2 - (Sla.ds2tp p t).2.2) ^ 2 ≤ (6.5e-15 / c ^ 2) ^ 2 := sq_le_sq' (abs_le.1 g3).1 (abs_le.1 g3).2
    have e3 : Real.sqrt ((r.2.1 - (Sla.ds2tp p t).2.1) ^ 2 + (r.2.2 - (Sla.ds2tp p t).2.2) ^ 2) ≤ 9.2e-15 / c ^ 2 := by
      refine Real.sqrt_le_iff.2 ⟨by positivity, ?_⟩
      refine (add_le_add e1 e2).trans ?_
      rw [div_pow, div_pow, ← add_div]
      refine div_le_div_of_nonneg_right (by norm_num) (by positivity)
    refine (mul_le_mul_of_nonneg_left e3 c0.le).trans (le_of_eq ?_)
    field_simp
  have hsmall : 9.2e-15 / c ≤ 0.5 := by rw [div_le_iff₀ c0]; norm_num at *; linarith
  have hang := angle_of_near (by rw [hlen]; norm_num) hd hsmall
  rw [angle_scale c0, angle_symm, angle_scale c0, angle_symm] at hang
  conv_lhs => rw [hpl, angle_scale c0]
  refine hang.trans ?_
  rw [show Real.pi / 2 * (1.002 * (9.2e-15 / c)) = (Real.pi / 2 * (1.002 * 9.2e-15)) / c by ring]
  refine div_le_div_of_nonneg_right ?_ c0.le
  have := Real.pi_lt_d6
  norm_num at *; linarith

/-- The star and the tangent point of the first example, brought back from the plane. -/
example (R : Rounding binary64) (q : Spherical) (hq : q = Fp.dtp2s R Real.sin Real.cos (fun y x => R (atan2 y x))
    (Fp.ds2tp R Real.sin Real.cos ⟨1, 0⟩ ⟨0.5, 0⟩).2.1 (Fp.ds2tp R Real.sin Real.cos ⟨1, 0⟩ ⟨0.5, 0⟩).2.2 ⟨0.5, 0⟩) :
    angleBetween (direction q.a q.b) (direction 1 0) ≤ 3e-14 := by
  have hc : (0.87 : ℝ) ≤ Real.cos 0.5 := by
    have := Real.one_sub_sq_div_two_le_cos (x := 0.5)
    norm_num at this ⊢; linarith
  have e : direction 1 0 ⬝ᵥ direction 0.5 0 = Real.cos 0.5 := by
    have := dot_eq ⟨1, 0⟩ ⟨0.5, 0⟩
    simp only [Real.sin_zero, Real.cos_zero] at this
    rw [this]; norm_num
  have h0 : (0 : ℝ) < Real.cos 0.5 := lt_of_lt_of_le (by norm_num) hc
  rw [hq]
  refine (C104_round_trip R (sn := Real.sin) (cs := Real.cos) (ε := 1e-15) (by norm_num) (by intro x; norm_num)
    (by intro x; norm_num) (rounded_at2 R) (p := ⟨1, 0⟩) (t := ⟨0.5, 0⟩)
    (by norm_num) (by norm_num [abs_of_pos]) e.symm (by norm_num at *; linarith)).2.trans ?_
  have h1 : 1.5e-14 / Real.cos 0.5 ≤ 1.73e-14 := by rw [div_le_iff₀ h0]; norm_num at *; linarith
  have hp := Real.pi_lt_d6
  norm_num at *; linarith

end Sla.Props
