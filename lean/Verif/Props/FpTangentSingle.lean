import Verif.Lemmas.FpErr
import Verif.Model.FpTangentSingle
import Verif.Props.Tangent
import Verif.Lemmas.EclipticMotion
import Verif.Props.FpCoords
import Verif.Props.FpRange
import Verif.Lemmas.FpTangentPoint

/-
Property theorems C132: the tangent-plane projection in single precision.
-/
namespace Sla.Props
open Sla.Fp Sla.Spec Matrix

private theorem one_of_sin (x : ℝ) : |Real.sin x| ≤ 1 := Real.abs_sin_le_one x
private theorem one_of_cos (x : ℝ) : |Real.cos x| ≤ 1 := Real.abs_cos_le_one x

private theorem mul_one_bound {a b : ℝ} (ha : |a| ≤ 1) (hb : |b| ≤ 1) : |a * b| ≤ 1 := by
  rw [abs_mul]; nlinarith [abs_nonneg a, abs_nonneg b]

/-- The rounded difference of right ascension, through a library function. -/
private theorem diff_near {R : ℝ → ℝ} (hR : Single R) {f F : ℝ → ℝ} (hf : ∀ x, |f x - F x| ≤ 1.2e-7)
    (hF : ∀ x y, |F x - F y| ≤ |x - y|) {a b : ℝ} (ha : |a| ≤ 6.3) (hb : |b| ≤ 6.3) :
    |f (R (a - b)) - F (a - b)| ≤ 1.032e-6 := by
  have h1 : |R (a - b) - (a - b)| ≤ 9.0726e-7 :=
    hR.lit (B := 12.6) ((abs_sub _ _).trans (by norm_num at *; linarith)) (by norm_num)
  have h2 := hF (R (a - b)) (a - b)
  have h3 := hf (R (a - b))
  have h4 := abs_sub_le (f (R (a - b))) (F (R (a - b))) (F (a - b))
  norm_num at *; linarith

/-- The three numbers that `s2tp` computes before classifying the star. -/
private theorem parts_near {R : ℝ → ℝ} (hR : Single R) {sn cs : ℝ → ℝ} (hs : ∀ x, |sn x - Real.sin x| ≤ 1.2e-7)
    (hc : ∀ x, |cs x - Real.cos x| ≤ 1.2e-7) {p t : Spherical} (hp : |p.a| ≤ 6.3) (ht : |t.a| ≤ 6.3) :
    let C := Real.sin p.b * Real.sin t.b + Real.cos p.b * Real.cos t.b * Real.cos (p.a - t.a)
    let X := Real.cos p.b * Real.sin (p.a - t.a)
    let Y := Real.sin p.b * Real.cos t.b - Real.cos p.b * Real.sin t.b * Real.cos (p.a - t.a)
    (|tpDenom R sn cs p t - C| ≤ 1.86e-6 ∧ |R (cs p.b * sn (R (p.a - t.a))) - X| ≤ 1.86e-6 ∧
      |R (R (sn p.b * cs t.b) - R (R (cs p.b * sn t.b) * cs (R (p.a - t.a)))) - Y| ≤ 1.86e-6) ∧
      |C| ≤ 1 ∧ |X| ≤ 1 ∧ |Y| ≤ 1 := by
  intro C X Y
  have d1 := diff_near hR hs Real.abs_sin_sub_sin_le hp ht
  have d2 := diff_near hR hc Real.abs_cos_sub_cos_le hp ht
  have s1 := one_of_sin p.b
  have s2 := one_of_sin t.b
  have c1 := one_of_cos p.b
  have c2 := one_of_cos t.b
  have sd := one_of_sin (p.a - t.a)
  have cd := one_of_cos (p.a - t.a)
  have eC : direction p.a p.b ⬝ᵥ direction t.a t.b = C := by
    rw [dot_tangent, direction_eq]; simp only [C]; rw [Real.cos_sub]; simp; ring
  have eY : direction p.a p.b ⬝ᵥ north t.a t.b = Y := by
    rw [dot_north, direction_eq]; simp only [Y]; rw [Real.cos_sub]; simp; ring
  have bXY : C ^ 2 + X ^ 2 + Y ^ 2 = 1 := by
    have h1 := Real.sin_sq_add_cos_sq p.b
    have h2 := Real.sin_sq_add_cos_sq t.b
    have h3 := Real.sin_sq_add_cos_sq (p.a - t.a)
    simp only [C, X, Y]
    grind
  have bC : |C| ≤ 1 := abs_le_one_iff_mul_self_le_one.2 (by nlinarith [sq_nonneg X, sq_nonneg Y])
  have bX : |X| ≤ 1 := abs_le_one_iff_mul_self_le_one.2 (by nlinarith [sq_nonneg C, sq_nonneg Y])
  have bY : |Y| ≤ 1 := abs_le_one_iff_mul_self_le_one.2 (by nlinarith [sq_nonneg X, sq_nonneg C])
  have m1 : |R (sn p.b * sn t.b) - Real.sin p.b * Real.sin t.b| ≤ 3.126e-7 := hR.mul (hs _) (hs _) s1 s2 (by norm_num)
  have m2 : |R (cs p.b * cs t.b) - Real.cos p.b * Real.cos t.b| ≤ 3.126e-7 := hR.mul (hc _) (hc _) c1 c2 (by norm_num)
  have m3 : |R (sn p.b * cs t.b) - Real.sin p.b * Real.cos t.b| ≤ 3.126e-7 := hR.mul (hs _) (hc _) s1 c2 (by norm_num)
  have m4 : |R (cs p.b * sn t.b) - Real.cos p.b * Real.sin t.b| ≤ 3.126e-7 := hR.mul (hc _) (hs _) c1 s2 (by norm_num)
  have n1 : |R (R (cs p.b * cs t.b) * cs (R (p.a - t.a))) - Real.cos p.b * Real.cos t.b * Real.cos (p.a - t.a)| ≤ 1.422e-6 :=
    hR.mul m2 d2 (mul_one_bound c1 c2) cd (by norm_num)
  have n2 : |R (R (cs p.b * sn t.b) * cs (R (p.a - t.a))) - Real.cos p.b * Real.sin t.b * Real.cos (p.a - t.a)| ≤ 1.422e-6 :=
    hR.mul m4 d2 (mul_one_bound c1 s2) cd (by norm_num)
  exact ⟨⟨hR.add m1 n1 bC (by norm_num), hR.mul (hc _) d1 c1 sd (by norm_num), hR.sub m3 n2 bY (by norm_num)⟩, bC, bX, bY⟩

private theorem tiny_near {R : ℝ → ℝ} (hR : Single R) : |R 1e-6 - 1e-6| ≤ 7.8e-14 :=
  hR.lit (B := 1e-6) (by norm_num) (by norm_num)

private theorem dot_eq (p t : Spherical) : direction p.a p.b ⬝ᵥ direction t.a t.b =
    Real.sin p.b * Real.sin t.b + Real.cos p.b * Real.cos t.b * Real.cos (p.a - t.a) := by
  rw [dot_tangent, direction_eq, Real.cos_sub]; simp; ring

/-- C132: in single precision `s2tp` returns the right status unless the cosine of the distance of the star from the tangent point is
    within 2.4e-6 of one of the boundaries 1e-6, 0 and -1e-6. -/
theorem C132_status (R : Rounding binary32) {sn cs : ℝ → ℝ} (hs : ∀ x, |sn x - Real.sin x| ≤ 1.2e-7)
    (hc : ∀ x, |cs x - Real.cos x| ≤ 1.2e-7) {p t : Spherical} (hp : |p.a| ≤ 6.3) (ht : |t.a| ≤ 6.3)
    (h : ∀ b ∈ [(1e-6 : ℝ), 0, -1e-6], 2.4e-6 ≤ |direction p.a p.b ⬝ᵥ direction t.a t.b - b|) :
    (Fp.s2tp R sn cs p t).1 = (Sla.ds2tp p t).1 := by
  obtain ⟨⟨hd, -⟩, -⟩ := parts_near R.single hs hc hp ht
  have ht := tiny_near R.single
  have h1 := h 1e-6 (by simp)
  have h2 := h 0 (by simp)
  have h3 := h (-1e-6) (by simp)
  clear h
  show (Fp.tppClassify R (tpDenom R sn cs p t)).1 = (Sla.tppClassify _).1
  rw [dot_eq] at h1 h2 h3
  generalize Real.sin p.b * Real.sin t.b + Real.cos p.b * Real.cos t.b * Real.cos (p.a - t.a) = C at *
  generalize tpDenom R sn cs p t = D at *
  unfold Fp.tppClassify Sla.tppClassify
  generalize R 1e-6 = T at *
  rw [abs_le] at hd ht
  rw [le_abs] at h1 h2 h3
  norm_num at *
  split_ifs <;> first
    | rfl
    | (exfalso; rcases h1 with h1 | h1 <;> rcases h2 with h2 | h2 <;> rcases h3 with h3 | h3 <;> linarith [hd.1, hd.2, ht.1, ht.2])

private theorem quot_near {R : ℝ → ℝ} (hR : Single R) {n N d D : ℝ} (hn : |n - N| ≤ 1.86e-6) (hN : |N| ≤ 1) (hd : |d - D| ≤ 1.86e-6)
    (h1 : 1e-4 ≤ |D|) (h2 : |D| ≤ 1) : |R (n / d) - N / D| ≤ 3.9e-6 / D ^ 2 := by
  obtain ⟨m, hm⟩ : ∃ m, m = |D| := ⟨_, rfl⟩
  rw [← hm] at h1 h2
  have m0 : 0 < m := lt_of_lt_of_le (by norm_num) h1
  have e2 : D ^ 2 = m ^ 2 := by rw [hm, sq_abs]
  rw [e2]
  refine hR.div (m := m) (Q := 1 / m) (E := 3.78e-6 / m ^ 2) hn hd hm.le (lt_of_lt_of_le (by norm_num) h1) ?_ ?_ ?_
  · rw [abs_div, ← hm]; exact div_le_div_of_nonneg_right hN m0.le
  · rw [show (3.78e-6 : ℝ) / m ^ 2 * (m - 1.86e-6) = 3.78e-6 * (m - 1.86e-6) / m ^ 2 by ring, le_div_iff₀ (by positivity), show (1.86e-6 + 1 / m * 1.86e-6) * m ^ 2 = 1.86e-6 * m * m + 1.86e-6 * m by
      field_simp]
    norm_num at *; nlinarith
  · rw [le_div_iff₀ (by positivity), show (3.78e-6 / m ^ 2 + 6e-8 * (1 / m + 3.78e-6 / m ^ 2) + 1e-40) * m ^ 2 =
      3.78e-6 + 6e-8 * (m + 3.78e-6) + 1e-40 * m ^ 2 by field_simp]
    have : m ^ 2 ≤ 1 := by nlinarith
    norm_num at *; nlinarith

/-- C132: in single precision `s2tp` gives both coordinates to 3.9e-6 divided by the square of the cosine of the distance of the
    star from the tangent point, for stars in front of the plane and for those behind it. -/
theorem C132_s2tp (R : Rounding binary32) {sn cs : ℝ → ℝ} (hs : ∀ x, |sn x - Real.sin x| ≤ 1.2e-7)
    (hc : ∀ x, |cs x - Real.cos x| ≤ 1.2e-7) {p t : Spherical} (hp : |p.a| ≤ 6.3) (ht : |t.a| ≤ 6.3) {c : ℝ}
    (hcos : c = direction p.a p.b ⬝ᵥ direction t.a t.b) (h : 1e-4 ≤ |c|) :
    (Fp.s2tp R sn cs p t).1 = (Sla.ds2tp p t).1 ∧
    |(Fp.s2tp R sn cs p t).2.1 - (Sla.ds2tp p t).2.1| ≤ 3.9e-6 / c ^ 2 ∧
    |(Fp.s2tp R sn cs p t).2.2 - (Sla.ds2tp p t).2.2| ≤ 3.9e-6 / c ^ 2 := by
  refine ⟨C132_status R hs hc hp ht ?_, ?_⟩
  · rw [← hcos]
    intro b hb
    have hb1 : |b| ≤ 1e-6 := by
      simp only [List.mem_cons, List.not_mem_nil, or_false] at hb
      rcases hb with rfl | rfl | rfl <;> norm_num [abs_of_pos]
    have := abs_sub_abs_le_abs_sub c b
    norm_num at *; linarith
  obtain ⟨⟨hd, hx, hy⟩, bC, bX, bY⟩ := parts_near R.single hs hc hp ht
  have hT := tiny_near R.single
  rw [dot_eq] at hcos
  have e1 : (Fp.tppClassify R (tpDenom R sn cs p t)).2 = tpDenom R sn cs p t ∧ (Sla.tppClassify c).2 = c := by
    rw [← hcos] at hd
    clear hx hy bC bX bY hcos
    generalize tpDenom R sn cs p t = D at *
    unfold Fp.tppClassify Sla.tppClassify
    generalize R 1e-6 = T at *
    rw [abs_le] at hd hT
    rw [le_abs] at h
    norm_num at *
    constructor <;> split_ifs <;> first
      | rfl
      | (exfalso; rcases h with h | h <;> linarith [hd.1, hd.2, hT.1, hT.2])
  show |R (_ / (Fp.tppClassify R (tpDenom R sn cs p t)).2) - _ / (Sla.tppClassify _).2| ≤ _ ∧
    |R (_ / (Fp.tppClassify R (tpDenom R sn cs p t)).2) - _ / (Sla.tppClassify _).2| ≤ _
  rw [e1.1, ← hcos, e1.2]
  rw [← hcos] at hd bC
  have h6 := h
  exact ⟨quot_near R.single hx bX hd h6 bC, quot_near R.single hy bY hd h6 bC⟩

/-- A star at right ascension 1, on the equator like the tangent point at right ascension 0.5. -/
example (R : Rounding binary32) : |(Fp.s2tp R Real.sin Real.cos ⟨1, 0⟩ ⟨0.5, 0⟩).2.1 - (Sla.ds2tp ⟨1, 0⟩ ⟨0.5, 0⟩).2.1| ≤ 6e-6 := by
  have hc : (0.87 : ℝ) ≤ Real.cos 0.5 := by
    have := Real.one_sub_sq_div_two_le_cos (x := 0.5)
    norm_num at this ⊢; linarith
  have e : direction 1 0 ⬝ᵥ direction 0.5 0 = Real.cos 0.5 := by
    have := dot_eq ⟨1, 0⟩ ⟨0.5, 0⟩
    simp only [Real.sin_zero, Real.cos_zero] at this
    rw [this]; norm_num
  have h0 : (0 : ℝ) < Real.cos 0.5 := lt_of_lt_of_le (by norm_num) hc
  refine (C132_s2tp R (sn := Real.sin) (cs := Real.cos) (by intro x; norm_num) (by intro x; norm_num) (p := ⟨1, 0⟩) (t := ⟨0.5, 0⟩)
    (by norm_num) (by norm_num [abs_of_pos]) e.symm (by rw [abs_of_pos h0]; norm_num at *; linarith)).2.1.trans ?_
  rw [div_le_iff₀ (by positivity)]
  norm_num at *
  nlinarith

/-! ### From the plane to the sphere -/

/-- Reduction to one turn of an argument of up to one and a half turns. -/
theorem ranorm_wide (R : Rounding binary32) {a : ℝ} (ha : binary32.Rep a) (h : |a| ≤ 9.6) :
    (∃ k : ℤ, |Fp.dranrm R a - (a + 2 * Real.pi * k)| ≤ 5.95e-7) ∧ 0 ≤ Fp.dranrm R a ∧ Fp.dranrm R a ≤ 13176795 / 2 ^ 21 := by
  obtain ⟨r0, r1, ⟨k, hk⟩, -⟩ := C77_ranorm R a ha
  have p1 := Real.pi_gt_d20
  have p2 := Real.pi_lt_d20
  refine ⟨?_, r0, r1⟩
  generalize Fp.dranrm R a = r at *
  obtain ⟨A, hA⟩ : ∃ A : ℝ, A = 13176795 / 2 ^ 21 := ⟨_, rfl⟩
  rw [← hA] at r1 hk
  have g1 : A - 1.76e-7 < 2 * Real.pi := by rw [hA]; refine lt_trans ?_ (mul_lt_mul_of_pos_left p1 two_pos); norm_num
  have g2 : 2 * Real.pi < A := by rw [hA]; refine lt_trans (mul_lt_mul_of_pos_left p2 two_pos) ?_; norm_num
  have g3 : 6.28 ≤ A := by rw [hA]; norm_num
  have g4 : A ≤ 6.29 := by rw [hA]; norm_num
  clear hA p1 p2
  have h51 : (1 : ℝ) / 2 ^ 22 ≤ 2.39e-7 := by norm_num
  have hk' := hk.trans h51
  clear hk h51
  have k1 : k ≤ 2 := by
    by_contra hc
    push Not at hc
    have : (3 : ℝ) ≤ k := by exact_mod_cast hc
    rw [abs_le] at h hk'
    norm_num at *
    nlinarith [hk'.1, hk'.2, h.1, h.2]
  have k2 : -2 ≤ k := by
    by_contra hc
    push Not at hc
    have : (k : ℝ) ≤ -3 := by exact_mod_cast (show k ≤ -3 by omega)
    rw [abs_le] at h hk'
    norm_num at *
    nlinarith [hk'.1, hk'.2, h.1, h.2]
  have e1 : (k : ℝ) ≤ 2 := by exact_mod_cast k1
  have e2 : (-2 : ℝ) ≤ k := by exact_mod_cast k2
  refine ⟨-k, ?_⟩
  push_cast
  have hw : |(2 * Real.pi - A) * k| ≤ 1.76e-7 * 2 := by
    rw [abs_mul]
    refine mul_le_mul ?_ (abs_le.2 ⟨e2, e1⟩) (abs_nonneg _) (by norm_num)
    rw [abs_of_neg (by linarith)]; linarith
  have : r - (a + 2 * Real.pi * -k) = r - (a - A * k) + (2 * Real.pi - A) * k := by ring
  rw [this]
  refine (abs_add_le _ _).trans ?_
  norm_num at *; linarith

/-- The radius in the plane of the equator. -/
private theorem radius_near (R : Rounding binary32) (x y : ℝ) {ρ : ℝ} (ρ0 : 0 ≤ ρ) (hρ : ρ * ρ = x * x + y * y) :
    |R (Real.sqrt (R (R (x * x) + R (y * y)))) - ρ| ≤ 1.82e-7 * ρ + 1.1e-10 := by
  have hR := R.single
  have q0 := mul_self_nonneg x
  have q1 := mul_self_nonneg y
  have a0 := hR (x * x)
  have a1 := hR (y * y)
  rw [abs_of_nonneg q0] at a0
  rw [abs_of_nonneg q1] at a1
  have b0 : 0 ≤ R (x * x) := R.nonneg q0
  have b1 : 0 ≤ R (y * y) := R.nonneg q1
  have a3 := hR (R (x * x) + R (y * y))
  rw [abs_of_nonneg (add_nonneg b0 b1)] at a3
  have b3 : 0 ≤ R (R (x * x) + R (y * y)) := R.nonneg (add_nonneg b0 b1)
  have hS : |R (R (x * x) + R (y * y)) - ρ * ρ| ≤ 1.21e-7 * (ρ * ρ) + 3.1e-40 := by
    generalize R (R (x * x) + R (y * y)) = s3 at *
    generalize R (x * x) = s0 at *
    generalize R (y * y) = s1 at *
    generalize x * x = t0 at *
    generalize y * y = t1 at *
    generalize ρ * ρ = Q at *
    rw [abs_le] at a0 a1 a3 ⊢
    norm_num at *
    constructor <;> linarith [a0.1, a0.2, a1.1, a1.2, a3.1, a3.2]
  generalize R (R (x * x) + R (y * y)) = S at *
  have r1 := Real.sqrt_nonneg S
  have r2 := Real.mul_self_sqrt b3
  obtain ⟨e, he⟩ : ∃ e, e = |Real.sqrt S - ρ| := ⟨_, rfl⟩
  have e0 : 0 ≤ e := he ▸ abs_nonneg _
  have e3 : e * (Real.sqrt S + ρ) = |S - ρ * ρ| := by
    rw [he, ← abs_of_nonneg (add_nonneg r1 ρ0), ← abs_mul]
    congr 1
    nlinarith
  have e4 : e ≤ Real.sqrt S + ρ := by rw [he, abs_le]; constructor <;> linarith
  have r3 : e ≤ 1.21e-7 * ρ + 1e-10 := by
    by_contra hc
    push Not at hc
    rcases le_or_gt 1e-20 ρ with h | h
    · have h1 : e * ρ ≤ e * (Real.sqrt S + ρ) := mul_le_mul_of_nonneg_left (by linarith) e0
      have h2 : (1.21e-7 * ρ + 1e-10) * ρ ≤ e * ρ := mul_le_mul_of_nonneg_right hc.le ρ0
      norm_num at *; nlinarith
    · have h1 : e * e ≤ e * (Real.sqrt S + ρ) := mul_le_mul_of_nonneg_left e4 e0
      have h2 : (1e-10 : ℝ) ≤ e := le_trans (by norm_num; positivity) hc.le
      have h3 : (1e-10 : ℝ) * 1e-10 ≤ e * e := mul_le_mul h2 h2 (by norm_num) e0
      have h4 : ρ * ρ ≤ 1e-20 * 1e-20 := mul_le_mul h.le h.le ρ0 (by norm_num)
      norm_num at *; linarith
  have h5 := hR (Real.sqrt S)
  rw [abs_of_nonneg r1] at h5
  have h6 := abs_sub_le (R (Real.sqrt S)) (Real.sqrt S) ρ
  rw [← he] at h6
  have h7 : Real.sqrt S ≤ ρ + e := by
    have := le_abs_self (Real.sqrt S - ρ)
    linarith
  norm_num at *; linarith

/-- Longitude and latitude computed from a vector point in its direction. -/
private theorem polar_near32 (R : Rounding binary32) (v : Vec) (h : 0.9 ≤ len v) {az el α β : ℝ}
    (haz : ∃ k : ℤ, |az - (atan2 (v 1) (v 0) + 2 * Real.pi * k)| ≤ α)
    (hel : |el - atan2 (v 2) (R (Real.sqrt (R (R (v 0 * v 0) + R (v 1 * v 1)))))| ≤ β) (h1 : α + β ≤ 0.4) :
    angleBetween (direction az el) v ≤ Real.pi / 2 * (1.002 * (α + β + 2.9e-7)) := by
  have hL : (0 : ℝ) < len v := lt_of_lt_of_le (by norm_num) h
  have p0 := mul_self_nonneg (v 0); have p1 := mul_self_nonneg (v 1); have p2 := mul_self_nonneg (v 2)
  obtain ⟨ρ, hρ⟩ : ∃ ρ, ρ = Real.sqrt (v 0 * v 0 + v 1 * v 1) := ⟨_, rfl⟩
  have ρ0 : 0 ≤ ρ := hρ ▸ Real.sqrt_nonneg _
  have hρρ : ρ * ρ = v 0 * v 0 + v 1 * v 1 := by rw [hρ, Real.mul_self_sqrt (by linarith)]
  have hLL : len v * len v = ρ * ρ + v 2 * v 2 := by
    rw [len_eq, Real.mul_self_sqrt (by linarith), hρρ]
  have hρL : ρ ≤ len v := by
    refine (le_abs_self ρ).trans (abs_le_of_sq_le_sq ?_ hL.le)
    rw [sq, sq, hLL]; linarith
  have hrad := radius_near R (v 0) (v 1) ρ0 hρρ
  generalize R (Real.sqrt (R (R (v 0 * v 0) + R (v 1 * v 1)))) = ρ' at *
  have hrad' : |ρ' - ρ| ≤ 1.83e-7 * len v := hrad.trans (by norm_num at *; linarith)
  obtain ⟨j, hj⟩ := atan2_turn_near (x := ρ) (y := v 2) (x' := ρ') (y' := v 2) (L := len v) (d := 1.83e-7 * len v) hL
    (by rw [sq, hLL]) (by positivity) (by
      have h1 := pow_le_pow_left₀ (abs_nonneg _) hrad' 2
      rw [sq_abs] at h1
      rw [sub_self]; linarith) (by norm_num at *; linarith)
  have hv : v = len v • direction (atan2 (v 1) (v 0)) (atan2 (v 2) ρ) := by
    have q1 := polar_cos (v 2) ρ
    have q2 := polar_sin (v 2) ρ
    rw [hρρ, ← len_eq] at q1 q2
    have q3 := polar_cos (v 1) (v 0)
    have q4 := polar_sin (v 1) (v 0)
    rw [← hρ] at q3 q4
    rw [direction_eq]
    funext i
    fin_cases i
    · simp only [Fin.zero_eta, Pi.smul_apply, cons_val_zero, smul_eq_mul]
      rw [mul_left_comm, q1, mul_comm, q3]
    · simp only [Fin.mk_one, Pi.smul_apply, smul_eq_mul]
      change v 1 = len v * (Real.sin _ * Real.cos _)
      rw [mul_left_comm, q1, mul_comm, q4]
    · simp only [Fin.reduceFinMk, Pi.smul_apply, cons_val, smul_eq_mul]
      rw [q2]
  have hpi := Real.pi_lt_d6
  have hj' : |atan2 (v 2) ρ' - (atan2 (v 2) ρ + 2 * Real.pi * j)| ≤ 2.9e-7 := by
    refine hj.trans ?_
    rw [mul_div_assoc, div_self hL.ne']
    norm_num at hpi ⊢; linarith
  have hb : |el - (atan2 (v 2) ρ + 2 * Real.pi * j)| ≤ β + 2.9e-7 := (abs_sub_le _ _ _).trans (add_le_add hel hj')
  obtain ⟨k, hk⟩ := haz
  have ed : direction (atan2 (v 1) (v 0)) (atan2 (v 2) ρ) =
      direction (atan2 (v 1) (v 0) + 2 * Real.pi * k) (atan2 (v 2) ρ + 2 * Real.pi * j) := by
    rw [direction_period, direction_eq, direction_eq]
    rw [show atan2 (v 2) ρ + 2 * Real.pi * j = atan2 (v 2) ρ + j * (2 * Real.pi) by ring,
      Real.cos_add_int_mul_two_pi, Real.sin_add_int_mul_two_pi]
  have hch := (chord_le az _ el _).trans (add_le_add hk hb)
  have hang := angle_of_near (by rw [len_direction]; norm_num) hch (by norm_num at h1 ⊢; linarith)
  rw [← ed, ← angle_scale hL, ← hv] at hang
  refine hang.trans (le_of_eq (by ring))

/-- The point of the plane in the meridian of the tangent point. -/
private noncomputable def meridianPoint (b xi eta : ℝ) : Vec := ![Real.cos b - eta * Real.sin b, xi, Real.sin b + eta * Real.cos b]

private theorem meridian_len (b xi eta : ℝ) : len (meridianPoint b xi eta) = Real.sqrt (1 + xi ^ 2 + eta ^ 2) := by
  rw [len_eq]
  congr 1
  have := Real.sin_sq_add_cos_sq b
  simp [meridianPoint]
  grind

private theorem turn_plane (t : Spherical) (xi eta : ℝ) : planePoint t xi eta = rotZ (-t.a) *ᵥ meridianPoint t.b xi eta := by
  rw [planePoint_eq]
  funext i
  fin_cases i <;> simp [rotZ, meridianPoint, Matrix.mulVec, dotProduct, Fin.sum_univ_three] <;> ring

private theorem turn_dir (a l b : ℝ) : direction (l + a) b = rotZ (-a) *ᵥ direction l b := by
  rw [direction_eq, direction_eq, Real.cos_add, Real.sin_add]
  funext i
  fin_cases i <;> simp [rotZ, Matrix.mulVec, dotProduct, Fin.sum_univ_three] <;> ring

private theorem comp_near {R : ℝ → ℝ} (hR : Single R) {p q P Q eta L : ℝ} (hp : |p - P| ≤ 1.2e-7) (hq : |q - Q| ≤ 1.2e-7) (hQ : |Q| ≤ 1)
    (h1 : 1 ≤ L) (he : |eta| ≤ L) :
    (|P - eta * Q| ≤ L → |R (p - R (eta * q)) - (P - eta * Q)| ≤ 3.9e-7 * L) ∧
    (|P + eta * Q| ≤ L → |R (p + R (eta * q)) - (P + eta * Q)| ≤ 3.9e-7 * L) := by
  have m : |R (eta * q) - eta * Q| ≤ 1.926e-7 * L := by
    refine hR.mul (a := eta) (x := eta) (show |eta - eta| ≤ 0 by simp) hq he hQ ?_
    norm_num at *; linarith
  constructor <;> intro h
  · refine hR.sub hp m h ?_
    norm_num at *; linarith
  · refine hR.add hp m h ?_
    norm_num at *; linarith

/-- C132: in single precision `tp2s` returns a direction within 3.3e-6 rad of the point of the tangent plane (plus 3.15 times the error
    of the library's arctangent), whatever the coordinates in the plane; the right ascension lies between zero and the `float` nearest
    to two pi. -/
theorem C132_tp2s (R : Rounding binary32) {sn cs : ℝ → ℝ} {at2 : ℝ → ℝ → ℝ} {ε : ℝ} (hε : ε ≤ 0.01)
    (hs : ∀ x, |sn x - Real.sin x| ≤ 1.2e-7) (hc : ∀ x, |cs x - Real.cos x| ≤ 1.2e-7) (ha : Atan2Near at2 ε) (xi eta : ℝ)
    {t : Spherical} (ht : |t.a| ≤ 6.3) :
    let p := Fp.tp2s R sn cs at2 xi eta t
    angleBetween (direction p.a p.b) (planePoint t xi eta) ≤ 3.15 * ε + 3.3e-6 ∧
      angleBetween (direction p.a p.b) (direction (Sla.dtp2s xi eta t).a (Sla.dtp2s xi eta t).b) ≤ 3.15 * ε + 3.3e-6 ∧
      0 ≤ p.a ∧ p.a ≤ 13176795 / 2 ^ 21 ∧ |p.b| ≤ Real.pi / 2 + ε := by
  intro p
  have ε0 : 0 ≤ ε := (abs_nonneg _).trans (ha.1 0 0 (Or.inr le_rfl))
  have hpi := Real.pi_lt_d6
  have hpp := Real.pi_pos
  set d := R (cs t.b - R (eta * sn t.b)) with hd
  set z := R (sn t.b + R (eta * cs t.b)) with hz
  obtain ⟨V, hV⟩ : ∃ V, V = meridianPoint t.b xi eta := ⟨_, rfl⟩
  obtain ⟨L, hL⟩ : ∃ L, L = Real.sqrt (1 + xi ^ 2 + eta ^ 2) := ⟨_, rfl⟩
  have lV : len V = L := by rw [hV, hL, meridian_len]
  have L1 : 1 ≤ L := by rw [hL, Real.one_le_sqrt]; nlinarith [sq_nonneg xi, sq_nonneg eta]
  have Le : |eta| ≤ L := by rw [hL]; apply Real.le_sqrt_of_sq_le; rw [sq_abs]; nlinarith [sq_nonneg xi]
  have bd : ∀ i, |V i| ≤ L := by
    intro i
    rw [← lV, len_eq]
    apply Real.le_sqrt_of_sq_le
    rw [sq_abs]
    fin_cases i <;> simp <;> nlinarith [sq_nonneg (V 0), sq_nonneg (V 1), sq_nonneg (V 2)]
  have V0 : V 0 = Real.cos t.b - eta * Real.sin t.b := by rw [hV]; rfl
  have V1 : V 1 = xi := by rw [hV]; rfl
  have V2 : V 2 = Real.sin t.b + eta * Real.cos t.b := by rw [hV]; rfl
  have n0 : |d - V 0| ≤ 3.9e-7 * L := by
    rw [V0]; exact (comp_near R.single (hc t.b) (hs t.b) (one_of_sin _) L1 Le).1 (V0 ▸ bd 0)
  have n2 : |z - V 2| ≤ 3.9e-7 * L := by
    rw [V2]; exact (comp_near R.single (hs t.b) (hc t.b) (one_of_cos _) L1 Le).2 (V2 ▸ bd 2)
  obtain ⟨v, hv⟩ : ∃ v : Vec, v = ![d, xi, z] := ⟨_, rfl⟩
  have v0 : v 0 = d := by rw [hv]; rfl
  have v1 : v 1 = xi := by rw [hv]; rfl
  have v2 : v 2 = z := by rw [hv]; rfl
  have near : len (v - V) ≤ 5.52e-7 * L := by
    rw [len_eq]
    refine Real.sqrt_le_iff.2 ⟨by positivity, ?_⟩
    simp only [Pi.sub_apply, v0, v1, v2, V1]
    have s0 := abs_le.1 n0
    have s2 := abs_le.1 n2
    have q0 : (d - V 0) * (d - V 0) ≤ (3.9e-7 * L) * (3.9e-7 * L) := by nlinarith [s0.1, s0.2]
    have q2 : (z - V 2) * (z - V 2) ≤ (3.9e-7 * L) * (3.9e-7 * L) := by nlinarith [s2.1, s2.2]
    norm_num at *; nlinarith [mul_self_nonneg L]
  have L0 : 0 < L := by linarith
  have hang : angleBetween v V ≤ Real.pi / 2 * (1.002 * 5.52e-7) := by
    have hi : 0 < L⁻¹ := inv_pos.2 L0
    have h1 : len (L⁻¹ • V) = 1 := by rw [len_smul, abs_of_pos hi, lV, inv_mul_cancel₀ L0.ne']
    have h2 : len (L⁻¹ • v - L⁻¹ • V) ≤ 5.52e-7 := by
      rw [← smul_sub, len_smul, abs_of_pos hi, inv_mul_le_iff₀ L0, mul_comm]; exact near
    have h3 := angle_of_near (by rw [h1]; norm_num) h2 (by norm_num)
    rwa [angle_scale hi, angle_symm, angle_scale hi, angle_symm] at h3
  have lv : 0.9 ≤ len v := by
    have h := len_add_le (V - v) v
    rw [sub_add_cancel, lV, ← len_neg', neg_sub] at h
    norm_num at *; nlinarith
  obtain ⟨k, hk, hb⟩ := at2_turn ha xi d
  have hsum : |R (at2 xi d + t.a) - (at2 xi d + t.a)| ≤ 5.71e-7 :=
    R.single.lit (B := 9.5) ((abs_add_le _ _).trans (by norm_num at *; linarith)) (by norm_num)
  have hrange : |R (at2 xi d + t.a)| ≤ 9.6 := by
    have h1 := abs_add_le (at2 xi d) t.a
    have h2 := abs_sub_abs_le_abs_sub (R (at2 xi d + t.a)) (at2 xi d + t.a)
    norm_num at *; linarith
  obtain ⟨⟨m, hm⟩, r0, r1⟩ := ranorm_wide R (R.rep (at2 xi d + t.a)) hrange
  have pa : p.a = Fp.dranrm R (R (at2 xi d + t.a)) := rfl
  have pb : p.b = at2 z (R (Real.sqrt (R (R (xi * xi) + R (d * d))))) := rfl
  rw [← pa] at hm r0 r1
  have ρ0 : 0 ≤ R (Real.sqrt (R (R (xi * xi) + R (d * d)))) := R.nonneg (Real.sqrt_nonneg _)
  have hel : |p.b - atan2 z (R (Real.sqrt (R (R (xi * xi) + R (d * d)))))| ≤ ε := by
    rw [pb]; exact ha.1 _ _ (Or.inr ρ0)
  have hlon : |p.a - t.a - (atan2 xi d + 2 * Real.pi * ((k + m : ℤ) : ℝ))| ≤ ε + 1.17e-6 := by
    push_cast
    clear_value p
    generalize R (at2 xi d + t.a) = s at *
    generalize at2 xi d = l at *
    generalize atan2 xi d = l0 at *
    clear pa pb hel hang near
    rw [abs_le] at hk hm hsum ⊢
    norm_num at *
    constructor <;> linarith [hk.1, hk.2, hm.1, hm.2, hsum.1, hsum.2]
  have hpol := polar_near32 R v lv (az := p.a - t.a) (el := p.b) (α := ε + 1.17e-6) (β := ε)
    ⟨k + m, by rw [v0, v1]; exact hlon⟩ (by rw [v0, v1, v2, add_comm (R (d * d))]; exact hel) (by norm_num at *; linarith)
  have hfin : angleBetween (direction (p.a - t.a) p.b) V ≤ 3.15 * ε + 3.3e-6 := by
    have h := angle_triangle (direction (p.a - t.a) p.b) v V
    refine (h.trans (add_le_add hpol hang)).trans ?_
    clear * - hpi hpp ε0
    have h1 := mul_le_mul_of_nonneg_right hpi.le (by positivity : 0 ≤ 1.002 * (ε + 1.17e-6 + ε + 2.9e-7))
    norm_num at *
    linarith
  have hrot : angleBetween (direction p.a p.b) (planePoint t xi eta) ≤ 3.15 * ε + 3.3e-6 := by
    have e : direction p.a p.b = rotZ (-t.a) *ᵥ direction (p.a - t.a) p.b := by rw [← turn_dir, sub_add_cancel]
    rw [e, turn_plane, angle_rotation (rotZ_rotation _), ← hV]
    exact hfin
  refine ⟨hrot, ?_, r0, r1, ?_⟩
  · have h := (C34_dtp2s xi eta t).1
    rw [← h, angle_scale (by rw [← hL]; exact L0)] at hrot
    exact hrot
  · have hb : |atan2 z (R (Real.sqrt (R (R (xi * xi) + R (d * d)))))| ≤ Real.pi / 2 := by
      unfold atan2; exact Complex.abs_arg_le_pi_div_two_iff.2 ρ0
    have := abs_sub_abs_le_abs_sub p.b (atan2 z (R (Real.sqrt (R (R (xi * xi) + R (d * d))))))
    linarith

/-- A point of the plane 3 radians east and 7 radians south of the tangent point, with the arctangent rounded to `float`. -/
example (R : Rounding binary32) : ∃ at2 : ℝ → ℝ → ℝ, Atan2Near at2 3e-7 ∧
    angleBetween (direction (Fp.tp2s R Real.sin Real.cos at2 3 (-7) ⟨6, 1⟩).a (Fp.tp2s R Real.sin Real.cos at2 3 (-7) ⟨6, 1⟩).b)
      (direction (Sla.dtp2s 3 (-7) ⟨6, 1⟩).a (Sla.dtp2s 3 (-7) ⟨6, 1⟩).b) ≤ 4.3e-6 := by
  have hn : ∀ y x, |R (atan2 y x) - atan2 y x| ≤ 3e-7 := fun y x => by
    have := atan2_mem y x
    have hp := Real.pi_lt_d6
    exact R.single.lit (B := 4) (abs_le.2 ⟨by linarith [this.1], by linarith [this.2]⟩) (by norm_num)
  have hat : Atan2Near (fun y x => R (atan2 y x)) 3e-7 := by
    refine ⟨fun y x _ => hn y x, fun x hx => Or.inl ?_⟩
    have e : atan2 0 x = Real.pi := by
      refine atan2_unique (r := -x) (by linarith) (by linarith [Real.pi_pos]) le_rfl (by simp) (by simp)
    have := hn 0 x
    rw [e] at this
    show |R (atan2 0 x) - Real.pi| ≤ 3e-7
    rwa [e]
  refine ⟨_, hat, ((C132_tp2s R (by norm_num) (by intro x; norm_num) (by intro x; norm_num) hat 3 (-7) (t := ⟨6, 1⟩)
    (by norm_num [abs_of_pos])).2.1).trans (by norm_num)⟩

end Sla.Props
