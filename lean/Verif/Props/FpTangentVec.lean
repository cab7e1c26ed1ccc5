import Verif.Lemmas.FpTangentVec
import Verif.Lemmas.Fp
import Verif.Lemmas.FpErr64
import Verif.Props.Tangent

/-
C122: the tangent-plane projection of vectors, in double and in single precision.
-/
namespace Sla.Props
open Sla.Fp

/-- The tangent point is far enough from the axis for the squares not to underflow, or is exactly at a pole. -/
def OffAxis (ρ : ℝ) (t : Vec) : Prop := ρ ≤ Real.sqrt (t 0 * t 0 + t 1 * t 1) ∨ t 0 = 0 ∧ t 1 = 0

private theorem le_axis (x y : ℝ) : |x| ≤ Real.sqrt (x * x + y * y) ∧ |y| ≤ Real.sqrt (x * x + y * y) := by
  refine ⟨Real.abs_le_sqrt ?_, Real.abs_le_sqrt ?_⟩ <;> nlinarith [mul_self_nonneg x, mul_self_nonneg y]

/-- `dv2tp` undoes `dtp2v` up to the square of the length of the tangent vector. -/
theorem plane_exact (xi eta : ℝ) (t : Vec) (hr : 0 < Real.sqrt (t 0 * t 0 + t 1 * t 1)) (h1 : |xi| ≤ 1) (h2 : |eta| ≤ 1)
    (hL : |t 0 * t 0 + t 1 * t 1 + t 2 * t 2 - 1| ≤ 0.001) :
    let p := dtp2v xi eta t
    0.51 ≤ p 0 * t 0 + p 1 * t 1 + p 2 * t 2 ∧ (∀ i, |p i| ≤ 1.01) ∧
    dv2tp p t = (.ok, xi / (t 0 * t 0 + t 1 * t 1 + t 2 * t 2), eta) := by
  have hx2 : xi * xi ≤ 1 := by nlinarith [abs_le.1 h1]
  have he2 : eta * eta ≤ 1 := by nlinarith [abs_le.1 h2]
  have hx0 := mul_self_nonneg xi
  have he0 := mul_self_nonneg eta
  obtain ⟨l1, l2⟩ := abs_le.1 hL
  have hs0 : 0 ≤ t 0 * t 0 + t 1 * t 1 := by linarith [mul_self_nonneg (t 0), mul_self_nonneg (t 1)]
  have er := Real.mul_self_sqrt hs0
  have ef := Real.mul_self_sqrt (show 0 ≤ 1 + xi * xi + eta * eta by linarith)
  have hf1 : 1 ≤ Real.sqrt (1 + xi * xi + eta * eta) := by rw [Real.one_le_sqrt]; linarith
  have hf2 : Real.sqrt (1 + xi * xi + eta * eta) ≤ 1.7321 := by
    rw [Real.sqrt_le_iff]; norm_num; linarith
  have p0 : dtp2v xi eta t 0 = (t 0 - (xi * t 1 + eta * t 0 * t 2) / Real.sqrt (t 0 * t 0 + t 1 * t 1)) / Real.sqrt (1 + xi * xi + eta * eta) := by
    simp [dtp2v, hr.ne']
  have p1 : dtp2v xi eta t 1 = (t 1 + (xi * t 0 - eta * t 1 * t 2) / Real.sqrt (t 0 * t 0 + t 1 * t 1)) / Real.sqrt (1 + xi * xi + eta * eta) := by
    simp [dtp2v, hr.ne']
  have p2 : dtp2v xi eta t 2 = (t 2 + eta * Real.sqrt (t 0 * t 0 + t 1 * t 1)) / Real.sqrt (1 + xi * xi + eta * eta) := by
    simp [dtp2v, hr.ne']
  simp only []
  unfold dv2tp
  simp only [if_neg hr.ne', p0, p1, p2]
  have key : ∀ i, dtp2v xi eta t i = ![dtp2v xi eta t 0, dtp2v xi eta t 1, dtp2v xi eta t 2] i := by
    intro i; fin_cases i <;> rfl
  rw [forall_congr' (fun i => by rw [key i])]
  simp only [p0, p1, p2]
  clear p0 p1 p2 key
  generalize t 0 = x at *
  generalize t 1 = y at *
  generalize t 2 = z at *
  generalize Real.sqrt (x * x + y * y) = r at *
  generalize Real.sqrt (1 + xi * xi + eta * eta) = f at *
  have hf0 : 0 < f := by linarith
  have hrne := hr.ne'
  have hfne := hf0.ne'
  set L := x * x + y * y + z * z with hLd
  have dot : (x - (xi * y + eta * x * z) / r) / f * x + (y + (xi * x - eta * y * z) / r) / f * y + (z + eta * r) / f * z = L / f := by
    field_simp
    rw [hLd]
    linear_combination (eta * z) * er
  have sq : ((x - (xi * y + eta * x * z) / r) / f) ^ 2 + ((y + (xi * x - eta * y * z) / r) / f) ^ 2 + ((z + eta * r) / f) ^ 2 =
      (L + xi * xi + eta * eta * L) / (f * f) := by
    field_simp
    rw [hLd]
    linear_combination (-xi ^ 2 + 2 * eta * z * r - eta ^ 2 * z ^ 2 + eta ^ 2 * r ^ 2) * er
  have hq : 0.51 ≤ L / f := by
    rw [le_div_iff₀ hf0]; norm_num at *; linarith
  have hsq : (L + xi * xi + eta * eta * L) / (f * f) ≤ 1.01 ^ 2 := by
    rw [ef, div_le_iff₀ (by linarith)]
    have : eta * eta * L ≤ eta * eta * 1.001 := mul_le_mul_of_nonneg_left (by linarith) he0
    norm_num at *; linarith
  have hcl : tppClassify (L / f) = (.ok, L / f) := by
    unfold Sla.tppClassify
    rw [if_pos (by norm_num at hq ⊢; linarith)]
  have hL0 : L ≠ 0 := by
    have : 0 < L := by linarith
    exact this.ne'
  refine ⟨by rw [dot]; exact hq, ?_, ?_⟩
  · rw [← sq] at hsq
    generalize (x - (xi * y + eta * x * z) / r) / f = A at *
    generalize (y + (xi * x - eta * y * z) / r) / f = B at *
    generalize (z + eta * r) / f = C at *
    intro i
    have a1 := sq_nonneg A
    have a2 := sq_nonneg B
    have a3 := sq_nonneg C
    fin_cases i
    · exact abs_le_of_sq_le_sq (a := A) (by linarith) (by norm_num)
    · exact abs_le_of_sq_le_sq (a := B) (by linarith) (by norm_num)
    · exact abs_le_of_sq_le_sq (a := C) (by linarith) (by norm_num)
  · rw [dot, hcl]
    refine Prod.ext rfl (Prod.ext ?_ ?_)
    · show _ / (L / f * r) = _
      field_simp
      rw [← sub_eq_zero]
      linear_combination (-xi) * er
    · show _ / (L / f * r) = _
      field_simp
      rw [hLd, ← sub_eq_zero]
      linear_combination (-z ^ 2 * eta) * er

/-- The quantities of the tangent point, at a pole or not. -/
private theorem setup_d (R : Rounding binary64) (t : Vec) (hr : OffAxis 1e-80 t) (h1 : Real.sqrt (t 0 * t 0 + t 1 * t 1) ≤ 1.001) :
    ∃ x' x r' r : ℝ, Nb x' x (1.3e-16 * r) r ∧ |t 1| ≤ r ∧ Nb r' r (3.8e-16 * r) r ∧ 1e-80 ≤ r ∧ r ≤ 1.001 ∧
      Nb (R (R (t 0 * t 0) + R (t 1 * t 1))) (t 0 * t 0 + t 1 * t 1) (2.51e-16 * r) (1.001 * r) ∧ |x - t 0| ≤ 1e-20 ∧
      (∀ (P : ℝ → ℝ → Prop), P x' r' → P (if R (Real.sqrt (R (R (t 0 * t 0) + R (t 1 * t 1)))) = 0 then R 1e-20 else t 0)
        (if R (Real.sqrt (R (R (t 0 * t 0) + R (t 1 * t 1)))) = 0 then R 1e-20 else R (Real.sqrt (R (R (t 0 * t 0) + R (t 1 * t 1)))))) ∧
      (∀ (P : ℝ → ℝ → Prop), P x r → P (if Real.sqrt (t 0 * t 0 + t 1 * t 1) = 0 then 1e-20 else t 0)
        (if Real.sqrt (t 0 * t 0 + t 1 * t 1) = 0 then 1e-20 else Real.sqrt (t 0 * t 0 + t 1 * t 1))) := by
  rcases hr with hr | ⟨z0, z1⟩
  · obtain ⟨a1, a2⟩ := axis_near_d R.dbl hr
    obtain ⟨b1, b2⟩ := le_axis (t 0) (t 1)
    have hs0 : 0 ≤ t 0 * t 0 + t 1 * t 1 := by linarith [mul_self_nonneg (t 0), mul_self_nonneg (t 1)]
    have es := Real.mul_self_sqrt hs0
    have hp : 0 < Real.sqrt (t 0 * t 0 + t 1 * t 1) := lt_of_lt_of_le (by norm_num) hr
    have hne : R (Real.sqrt (R (R (t 0 * t 0) + R (t 1 * t 1)))) ≠ 0 := by
      intro h
      rw [h, zero_sub, abs_neg, abs_of_pos hp] at a2
      norm_num at a2; linarith
    refine ⟨t 0, t 0, R (Real.sqrt (R (R (t 0 * t 0) + R (t 1 * t 1)))), Real.sqrt (t 0 * t 0 + t 1 * t 1),
      ⟨by rw [sub_self, abs_zero]; positivity, b1⟩, b2, ⟨a2, by rw [abs_of_pos hp]⟩, le_trans (by norm_num) hr, h1, ⟨?_, ?_⟩, by norm_num, ?_, ?_⟩
    · refine a1.trans ?_
      have : t 0 * t 0 + t 1 * t 1 ≤ 1.001 * Real.sqrt (t 0 * t 0 + t 1 * t 1) := by
        rw [← es, Real.sqrt_mul_self hp.le]; exact mul_le_mul_of_nonneg_right h1 hp.le
      norm_num at this ⊢; linarith
    · rw [abs_of_nonneg hs0]
      nlinarith
    · intro P hP; rw [if_neg hne, if_neg hne]; exact hP
    · intro P hP; rw [if_neg hp.ne', if_neg hp.ne']; exact hP
  · have hz : R (Real.sqrt (R (R (t 0 * t 0) + R (t 1 * t 1)))) = 0 := by
      rw [z0, z1]; simp [R.zero]
    have hz' : Real.sqrt (t 0 * t 0 + t 1 * t 1) = 0 := by rw [z0, z1]; simp
    have n1 := R.dbl.nlit (x := 1e-20) (B := 1e-20) (g := 1.3e-16 * 1e-20) (by norm_num) (by norm_num)
    refine ⟨R 1e-20, 1e-20, R 1e-20, 1e-20, n1, by rw [z1]; norm_num, n1.mono (by norm_num) le_rfl, ?_, by norm_num, ⟨?_, ?_⟩, ?_, ?_, ?_⟩
    · norm_num
    · rw [z0, z1]; simp [R.zero]; norm_num
    · rw [z0, z1]; norm_num
    · rw [z0]; norm_num
    · intro P hP; rw [if_pos hz, if_pos hz]; exact hP
    · intro P hP; rw [if_pos hz', if_pos hz']; exact hP

/-- **C122**: every component that `dtp2v` returns is within 5.81e-15 of what exact arithmetic gives, for all plane coordinates up to one
radian and all tangent points, near a pole and at a pole too. -/
theorem C122_dtp2v (R : Rounding binary64) (xi eta : ℝ) (t : Vec) (h1 : |xi| ≤ 1) (h2 : |eta| ≤ 1) (hz : |t 2| ≤ 1.001)
    (hr : OffAxis 1e-80 t) (hr1 : Real.sqrt (t 0 * t 0 + t 1 * t 1) ≤ 1.001) (i : Fin 3) :
    |Fp.dtp2v R xi eta t i - dtp2v xi eta t i| ≤ 5.81e-15 := by
  obtain ⟨x', x, r', r, a1, a2, a3, a4, a5, a6, -, a7, a8⟩ := setup_d R t hr hr1
  obtain ⟨f1, f2⟩ := secant_near_d R.dbl h1 h2
  obtain ⟨c0, c1, c2⟩ := dtp2v_core_d R.dbl h1 h2 hz f1 f2 a1 a2 a3 a4 a5
  unfold Fp.dtp2v dtp2v
  refine a7 (fun u v => |![R (R (u - R (R (R (xi * t 1) + R (R (eta * u) * t 2)) / v)) / R (Real.sqrt (R (R (1 + R (xi * xi)) + R (eta * eta))))),
    R (R (t 1 + R (R (R (xi * u) - R (R (eta * t 1) * t 2)) / v)) / R (Real.sqrt (R (R (1 + R (xi * xi)) + R (eta * eta))))), R (R (t 2 + R (eta * v)) / R (Real.sqrt (R (R (1 + R (xi * xi)) + R (eta * eta)))))] i - _| ≤ _) ?_
  refine a8 (fun u v => |_ - ![(u - (xi * t 1 + eta * u * t 2) / v) / Real.sqrt (1 + xi * xi + eta * eta), (t 1 + (xi * u - eta * t 1 * t 2) / v) / Real.sqrt (1 + xi * xi + eta * eta), (t 2 + eta * v) / Real.sqrt (1 + xi * xi + eta * eta)] i| ≤ _) ?_
  fin_cases i
  · exact c0
  · exact c1
  · exact c2

/-- **C122**: for points within 59 degrees of the tangent point, `dv2tp` reports success, as in exact arithmetic, and the plane
coordinates are within 3.54e-14. -/
theorem C122_dv2tp (R : Rounding binary64) (p t : Vec) (hp : ∀ i, |p i| ≤ 1.001) (hz : |t 2| ≤ 1.001)
    (hr : OffAxis 1e-80 t) (hr1 : Real.sqrt (t 0 * t 0 + t 1 * t 1) ≤ 1.001) (hd : 0.51 ≤ p 0 * t 0 + p 1 * t 1 + p 2 * t 2) :
    (Fp.dv2tp R p t).1 = .ok ∧ (dv2tp p t).1 = .ok ∧ |(Fp.dv2tp R p t).2.1 - (dv2tp p t).2.1| ≤ 3.54e-14 ∧
    |(Fp.dv2tp R p t).2.2 - (dv2tp p t).2.2| ≤ 3.54e-14 := by
  obtain ⟨x', x, r', r, a1, a2, a3, a4, a5, a6, a9, a7, a8⟩ := setup_d R t hr hr1
  have hm : 0.5 ≤ p 0 * x + p 1 * t 1 + p 2 * t 2 := by
    have k1 : |p 0 * (x - t 0)| ≤ 1.001 * 1e-20 := by
      rw [abs_mul]; exact mul_le_mul (hp 0) a9 (abs_nonneg _) (by norm_num)
    have k2 := (abs_le.1 k1).1
    have k3 : p 0 * x = p 0 * t 0 + p 0 * (x - t 0) := by ring
    rw [k3]; norm_num at k2 hd ⊢; linarith
  obtain ⟨c0, c1, c2⟩ := dv2tp_core_d R.dbl (Nb.self (hp 0)) (Nb.self (hp 1)) (Nb.self (hp 2)) hz a1 a2 a3 a4 a5 a6 hm
  have c3 : Sla.tppClassify (p 0 * x + p 1 * t 1 + p 2 * t 2) = (.ok, p 0 * x + p 1 * t 1 + p 2 * t 2) := by
    unfold Sla.tppClassify; rw [if_pos (by norm_num at hm ⊢; linarith)]
  have F1 : Fp.dv2tp R p t = (.ok, R (R (R (p 1 * x') - R (p 0 * t 1)) / R (R (R (R (p 0 * x') + R (p 1 * t 1)) + R (p 2 * t 2)) * r')),
      R (R (R (p 2 * R (R (t 0 * t 0) + R (t 1 * t 1))) - R (t 2 * R (R (p 0 * x') + R (p 1 * t 1)))) / R (R (R (R (p 0 * x') + R (p 1 * t 1)) + R (p 2 * t 2)) * r'))) := by
    unfold Fp.dv2tp
    simp only []
    refine a7 (fun u v => ((Fp.tppClassify R (R (R (R (p 0 * u) + R (p 1 * t 1)) + R (p 2 * t 2)))).1,
      R (R (R (p 1 * u) - R (p 0 * t 1)) / R ((Fp.tppClassify R (R (R (R (p 0 * u) + R (p 1 * t 1)) + R (p 2 * t 2)))).2 * v)),
      R (R (R (p 2 * R (R (t 0 * t 0) + R (t 1 * t 1))) - R (t 2 * R (R (p 0 * u) + R (p 1 * t 1)))) / R ((Fp.tppClassify R (R (R (R (p 0 * u) + R (p 1 * t 1)) + R (p 2 * t 2)))).2 * v))) = _) ?_
    rw [c0]
  have F2 : dv2tp p t = (.ok, (p 1 * x - p 0 * t 1) / ((p 0 * x + p 1 * t 1 + p 2 * t 2) * r),
      (p 2 * (t 0 * t 0 + t 1 * t 1) - t 2 * (p 0 * x + p 1 * t 1)) / ((p 0 * x + p 1 * t 1 + p 2 * t 2) * r)) := by
    unfold dv2tp
    simp only []
    refine a8 (fun u v => ((Sla.tppClassify (p 0 * u + p 1 * t 1 + p 2 * t 2)).1,
      (p 1 * u - p 0 * t 1) / ((Sla.tppClassify (p 0 * u + p 1 * t 1 + p 2 * t 2)).2 * v),
      (p 2 * (t 0 * t 0 + t 1 * t 1) - t 2 * (p 0 * u + p 1 * t 1)) / ((Sla.tppClassify (p 0 * u + p 1 * t 1 + p 2 * t 2)).2 * v)) = _) ?_
    rw [c3]
  rw [F1, F2]
  exact ⟨rfl, rfl, c1, c2⟩

/-- **C122**: the plane coordinates come back from `dtp2v` followed by `dv2tp` within 2.9e-13, off the poles. -/
theorem C122_round_trip_double (R : Rounding binary64) (xi eta : ℝ) (t : Vec) (h1 : |xi| ≤ 1) (h2 : |eta| ≤ 1)
    (hr : 1e-80 ≤ Real.sqrt (t 0 * t 0 + t 1 * t 1)) (hL : |t 0 * t 0 + t 1 * t 1 + t 2 * t 2 - 1| ≤ 1e-15) :
    let q := Fp.dv2tp R (Fp.dtp2v R xi eta t) t
    q.1 = .ok ∧ |q.2.1 - xi| ≤ 2.9e-13 ∧ |q.2.2 - eta| ≤ 2.9e-13 := by
  have hs0 : 0 ≤ t 0 * t 0 + t 1 * t 1 := by linarith [mul_self_nonneg (t 0), mul_self_nonneg (t 1)]
  obtain ⟨l1, l2⟩ := abs_le.1 hL
  norm_num at l1 l2
  have hr1 : Real.sqrt (t 0 * t 0 + t 1 * t 1) ≤ 1.001 := by
    rw [Real.sqrt_le_iff]; norm_num; nlinarith [mul_self_nonneg (t 2)]
  have hz : |t 2| ≤ 1.001 := abs_le_of_sq_le_sq (by norm_num; nlinarith) (by norm_num)
  have hp : 0 < Real.sqrt (t 0 * t 0 + t 1 * t 1) := lt_of_lt_of_le (by norm_num) hr
  obtain ⟨g1, g2, g3⟩ := plane_exact xi eta t hp h1 h2 (hL.trans (by norm_num))
  obtain ⟨x', x, r', r, a1, a2, a3, a4, a5, a6, a9, a7, a8⟩ := setup_d R t (Or.inl hr) hr1
  have hb := C122_dtp2v R xi eta t h1 h2 hz (Or.inl hr) hr1
  generalize Fp.dtp2v R xi eta t = P' at *
  generalize dtp2v xi eta t = P at *
  have hm : 0.5 ≤ P 0 * x + P 1 * t 1 + P 2 * t 2 := by
    have k1 : |P 0 * (x - t 0)| ≤ 1.01 * 1e-20 := by
      rw [abs_mul]; exact mul_le_mul (g2 0) a9 (abs_nonneg _) (by norm_num)
    have k2 := (abs_le.1 k1).1
    have k3 : P 0 * x = P 0 * t 0 + P 0 * (x - t 0) := by ring
    rw [k3]; norm_num at k2 g1 ⊢; linarith
  obtain ⟨c0, c1, c2⟩ := dv2tp_core_rt_d R.dbl (⟨hb 0, g2 0⟩ : Nb (P' 0) (P 0) _ _) (⟨hb 1, g2 1⟩ : Nb (P' 1) (P 1) _ _)
    (⟨hb 2, g2 2⟩ : Nb (P' 2) (P 2) _ _) hz a1 a2 a3 a4 a5 a6 hm
  have c3 : Sla.tppClassify (P 0 * x + P 1 * t 1 + P 2 * t 2) = (.ok, P 0 * x + P 1 * t 1 + P 2 * t 2) := by
    unfold Sla.tppClassify; rw [if_pos (by norm_num at hm ⊢; linarith)]
  have F1 : Fp.dv2tp R P' t = (.ok, R (R (R (P' 1 * x') - R (P' 0 * t 1)) / R (R (R (R (P' 0 * x') + R (P' 1 * t 1)) + R (P' 2 * t 2)) * r')),
      R (R (R (P' 2 * R (R (t 0 * t 0) + R (t 1 * t 1))) - R (t 2 * R (R (P' 0 * x') + R (P' 1 * t 1)))) / R (R (R (R (P' 0 * x') + R (P' 1 * t 1)) + R (P' 2 * t 2)) * r'))) := by
    unfold Fp.dv2tp
    simp only []
    refine a7 (fun u v => ((Fp.tppClassify R (R (R (R (P' 0 * u) + R (P' 1 * t 1)) + R (P' 2 * t 2)))).1,
      R (R (R (P' 1 * u) - R (P' 0 * t 1)) / R ((Fp.tppClassify R (R (R (R (P' 0 * u) + R (P' 1 * t 1)) + R (P' 2 * t 2)))).2 * v)),
      R (R (R (P' 2 * R (R (t 0 * t 0) + R (t 1 * t 1))) - R (t 2 * R (R (P' 0 * u) + R (P' 1 * t 1)))) / R ((Fp.tppClassify R (R (R (R (P' 0 * u) + R (P' 1 * t 1)) + R (P' 2 * t 2)))).2 * v))) = _) ?_
    rw [c0]
  have F2 : dv2tp P t = (.ok, (P 1 * x - P 0 * t 1) / ((P 0 * x + P 1 * t 1 + P 2 * t 2) * r),
      (P 2 * (t 0 * t 0 + t 1 * t 1) - t 2 * (P 0 * x + P 1 * t 1)) / ((P 0 * x + P 1 * t 1 + P 2 * t 2) * r)) := by
    unfold dv2tp
    simp only []
    refine a8 (fun u v => ((Sla.tppClassify (P 0 * u + P 1 * t 1 + P 2 * t 2)).1,
      (P 1 * u - P 0 * t 1) / ((Sla.tppClassify (P 0 * u + P 1 * t 1 + P 2 * t 2)).2 * v),
      (P 2 * (t 0 * t 0 + t 1 * t 1) - t 2 * (P 0 * u + P 1 * t 1)) / ((Sla.tppClassify (P 0 * u + P 1 * t 1 + P 2 * t 2)).2 * v)) = _) ?_
    rw [c3]
  rw [F2] at g3
  have q1 := congrArg (fun s => s.2.1) g3
  have q2 := congrArg (fun s => s.2.2) g3
  simp only [] at q1 q2
  rw [q1] at c1
  rw [q2] at c2
  simp only []
  rw [F1]
  refine ⟨rfl, ?_, c2.trans (by norm_num)⟩
  have hx : |xi / (t 0 * t 0 + t 1 * t 1 + t 2 * t 2) - xi| ≤ 1.05 * 1e-15 := by
    have hLp : 0 < t 0 * t 0 + t 1 * t 1 + t 2 * t 2 := by linarith
    have hid : ∀ L : ℝ, 0 < L → xi / L - xi = xi * (1 - L) / L := fun L hL => by
      have := hL.ne'
      field_simp
    rw [hid _ hLp, abs_div, abs_mul, abs_of_pos hLp, div_le_iff₀ hLp, abs_sub_comm]
    have k1 : |xi| * |t 0 * t 0 + t 1 * t 1 + t 2 * t 2 - 1| ≤ 1 * 1e-15 := mul_le_mul h1 hL (abs_nonneg _) (by norm_num)
    norm_num at k1 ⊢; linarith
  exact (abs_sub_le _ _ _).trans ((add_le_add c1 hx).trans (by norm_num))

/-- The quantities of the tangent point, at a pole or not. -/
private theorem setup_s (R : Rounding binary32) (t : Vec) (hr : OffAxis 1e-15 t) (h1 : Real.sqrt (t 0 * t 0 + t 1 * t 1) ≤ 1.001) :
    ∃ x' x r' r : ℝ, Nb x' x (6.1e-8 * r) r ∧ |t 1| ≤ r ∧ Nb r' r (1.9e-7 * r) r ∧ 1e-20 ≤ r ∧ r ≤ 1.001 ∧
      Nb (R (R (t 0 * t 0) + R (t 1 * t 1))) (t 0 * t 0 + t 1 * t 1) (1.22e-7 * r) (1.001 * r) ∧ |x - t 0| ≤ 1e-20 ∧
      (∀ (P : ℝ → ℝ → Prop), P x' r' → P (if R (Real.sqrt (R (R (t 0 * t 0) + R (t 1 * t 1)))) = 0 then R 1e-20 else t 0)
        (if R (Real.sqrt (R (R (t 0 * t 0) + R (t 1 * t 1)))) = 0 then R 1e-20 else R (Real.sqrt (R (R (t 0 * t 0) + R (t 1 * t 1)))))) ∧
      (∀ (P : ℝ → ℝ → Prop), P x r → P (if Real.sqrt (t 0 * t 0 + t 1 * t 1) = 0 then 1e-20 else t 0)
        (if Real.sqrt (t 0 * t 0 + t 1 * t 1) = 0 then 1e-20 else Real.sqrt (t 0 * t 0 + t 1 * t 1))) := by
  rcases hr with hr | ⟨z0, z1⟩
  · obtain ⟨a1, a2⟩ := axis_near_s R.single hr
    obtain ⟨b1, b2⟩ := le_axis (t 0) (t 1)
    have hs0 : 0 ≤ t 0 * t 0 + t 1 * t 1 := by linarith [mul_self_nonneg (t 0), mul_self_nonneg (t 1)]
    have es := Real.mul_self_sqrt hs0
    have hp : 0 < Real.sqrt (t 0 * t 0 + t 1 * t 1) := lt_of_lt_of_le (by norm_num) hr
    have hne : R (Real.sqrt (R (R (t 0 * t 0) + R (t 1 * t 1)))) ≠ 0 := by
      intro h
      rw [h, zero_sub, abs_neg, abs_of_pos hp] at a2
      norm_num at a2; linarith
    refine ⟨t 0, t 0, R (Real.sqrt (R (R (t 0 * t 0) + R (t 1 * t 1)))), Real.sqrt (t 0 * t 0 + t 1 * t 1),
      ⟨by rw [sub_self, abs_zero]; positivity, b1⟩, b2, ⟨a2, by rw [abs_of_pos hp]⟩, le_trans (by norm_num) hr, h1, ⟨?_, ?_⟩, by norm_num, ?_, ?_⟩
    · refine a1.trans ?_
      have : t 0 * t 0 + t 1 * t 1 ≤ 1.001 * Real.sqrt (t 0 * t 0 + t 1 * t 1) := by
        rw [← es, Real.sqrt_mul_self hp.le]; exact mul_le_mul_of_nonneg_right h1 hp.le
      norm_num at this ⊢; linarith
    · rw [abs_of_nonneg hs0]
      nlinarith
    · intro P hP; rw [if_neg hne, if_neg hne]; exact hP
    · intro P hP; rw [if_neg hp.ne', if_neg hp.ne']; exact hP
  · have hz : R (Real.sqrt (R (R (t 0 * t 0) + R (t 1 * t 1)))) = 0 := by
      rw [z0, z1]; simp [R.zero]
    have hz' : Real.sqrt (t 0 * t 0 + t 1 * t 1) = 0 := by rw [z0, z1]; simp
    have n1 := R.single.nlit (x := 1e-20) (B := 1e-20) (g := 6.1e-8 * 1e-20) (by norm_num) (by norm_num)
    refine ⟨R 1e-20, 1e-20, R 1e-20, 1e-20, n1, by rw [z1]; norm_num, n1.mono (by norm_num) le_rfl, ?_, by norm_num, ⟨?_, ?_⟩, ?_, ?_, ?_⟩
    · norm_num
    · rw [z0, z1]; simp [R.zero]; norm_num
    · rw [z0, z1]; norm_num
    · rw [z0]; norm_num
    · intro P hP; rw [if_pos hz, if_pos hz]; exact hP
    · intro P hP; rw [if_pos hz', if_pos hz']; exact hP

/-- **C122**: every component that `tp2v` returns is within 2.88e-6 of what exact arithmetic gives, for all plane coordinates up to one
radian and all tangent points, near a pole and at a pole too. -/
theorem C122_tp2v (R : Rounding binary32) (xi eta : ℝ) (t : Vec) (h1 : |xi| ≤ 1) (h2 : |eta| ≤ 1) (hz : |t 2| ≤ 1.001)
    (hr : OffAxis 1e-15 t) (hr1 : Real.sqrt (t 0 * t 0 + t 1 * t 1) ≤ 1.001) (i : Fin 3) :
    |Fp.dtp2v R xi eta t i - dtp2v xi eta t i| ≤ 2.88e-6 := by
  obtain ⟨x', x, r', r, a1, a2, a3, a4, a5, a6, -, a7, a8⟩ := setup_s R t hr hr1
  obtain ⟨f1, f2⟩ := secant_near_s R.single h1 h2
  obtain ⟨c0, c1, c2⟩ := dtp2v_core_s R.single h1 h2 hz f1 f2 a1 a2 a3 a4 a5
  unfold Fp.dtp2v dtp2v
  refine a7 (fun u v => |![R (R (u - R (R (R (xi * t 1) + R (R (eta * u) * t 2)) / v)) / R (Real.sqrt (R (R (1 + R (xi * xi)) + R (eta * eta))))),
    R (R (t 1 + R (R (R (xi * u) - R (R (eta * t 1) * t 2)) / v)) / R (Real.sqrt (R (R (1 + R (xi * xi)) + R (eta * eta))))), R (R (t 2 + R (eta * v)) / R (Real.sqrt (R (R (1 + R (xi * xi)) + R (eta * eta)))))] i - _| ≤ _) ?_
  refine a8 (fun u v => |_ - ![(u - (xi * t 1 + eta * u * t 2) / v) / Real.sqrt (1 + xi * xi + eta * eta), (t 1 + (xi * u - eta * t 1 * t 2) / v) / Real.sqrt (1 + xi * xi + eta * eta), (t 2 + eta * v) / Real.sqrt (1 + xi * xi + eta * eta)] i| ≤ _) ?_
  fin_cases i
  · exact c0
  · exact c1
  · exact c2

/-- **C122**: for points within 59 degrees of the tangent point, `v2tp` reports success, as in exact arithmetic, and the plane
coordinates are within 1.77e-5. -/
theorem C122_v2tp (R : Rounding binary32) (p t : Vec) (hp : ∀ i, |p i| ≤ 1.001) (hz : |t 2| ≤ 1.001)
    (hr : OffAxis 1e-15 t) (hr1 : Real.sqrt (t 0 * t 0 + t 1 * t 1) ≤ 1.001) (hd : 0.51 ≤ p 0 * t 0 + p 1 * t 1 + p 2 * t 2) :
    (Fp.dv2tp R p t).1 = .ok ∧ (dv2tp p t).1 = .ok ∧ |(Fp.dv2tp R p t).2.1 - (dv2tp p t).2.1| ≤ 1.77e-5 ∧
    |(Fp.dv2tp R p t).2.2 - (dv2tp p t).2.2| ≤ 1.77e-5 := by
  obtain ⟨x', x, r', r, a1, a2, a3, a4, a5, a6, a9, a7, a8⟩ := setup_s R t hr hr1
  have hm : 0.5 ≤ p 0 * x + p 1 * t 1 + p 2 * t 2 := by
    have k1 : |p 0 * (x - t 0)| ≤ 1.001 * 1e-20 := by
      rw [abs_mul]; exact mul_le_mul (hp 0) a9 (abs_nonneg _) (by norm_num)
    have k2 := (abs_le.1 k1).1
    have k3 : p 0 * x = p 0 * t 0 + p 0 * (x - t 0) := by ring
    rw [k3]; norm_num at k2 hd ⊢; linarith
  obtain ⟨c0, c1, c2⟩ := dv2tp_core_s R.single (Nb.self (hp 0)) (Nb.self (hp 1)) (Nb.self (hp 2)) hz a1 a2 a3 a4 a5 a6 hm
  have c3 : Sla.tppClassify (p 0 * x + p 1 * t 1 + p 2 * t 2) = (.ok, p 0 * x + p 1 * t 1 + p 2 * t 2) := by
    unfold Sla.tppClassify; rw [if_pos (by norm_num at hm ⊢; linarith)]
  have F1 : Fp.dv2tp R p t = (.ok, R (R (R (p 1 * x') - R (p 0 * t 1)) / R (R (R (R (p 0 * x') + R (p 1 * t 1)) + R (p 2 * t 2)) * r')),
      R (R (R (p 2 * R (R (t 0 * t 0) + R (t 1 * t 1))) - R (t 2 * R (R (p 0 * x') + R (p 1 * t 1)))) / R (R (R (R (p 0 * x') + R (p 1 * t 1)) + R (p 2 * t 2)) * r'))) := by
    unfold Fp.dv2tp
    simp only []
    refine a7 (fun u v => ((Fp.tppClassify R (R (R (R (p 0 * u) + R (p 1 * t 1)) + R (p 2 * t 2)))).1,
      R (R (R (p 1 * u) - R (p 0 * t 1)) / R ((Fp.tppClassify R (R (R (R (p 0 * u) + R (p 1 * t 1)) + R (p 2 * t 2)))).2 * v)),
      R (R (R (p 2 * R (R (t 0 * t 0) + R (t 1 * t 1))) - R (t 2 * R (R (p 0 * u) + R (p 1 * t 1)))) / R ((Fp.tppClassify R (R (R (R (p 0 * u) + R (p 1 * t 1)) + R (p 2 * t 2)))).2 * v))) = _) ?_
    rw [c0]
  have F2 : dv2tp p t = (.ok, (p 1 * x - p 0 * t 1) / ((p 0 * x + p 1 * t 1 + p 2 * t 2) * r),
      (p 2 * (t 0 * t 0 + t 1 * t 1) - t 2 * (p 0 * x + p 1 * t 1)) / ((p 0 * x + p 1 * t 1 + p 2 * t 2) * r)) := by
    unfold dv2tp
    simp only []
    refine a8 (fun u v => ((Sla.tppClassify (p 0 * u + p 1 * t 1 + p 2 * t 2)).1,
      (p 1 * u - p 0 * t 1) / ((Sla.tppClassify (p 0 * u + p 1 * t 1 + p 2 * t 2)).2 * v),
      (p 2 * (t 0 * t 0 + t 1 * t 1) - t 2 * (p 0 * u + p 1 * t 1)) / ((Sla.tppClassify (p 0 * u + p 1 * t 1 + p 2 * t 2)).2 * v)) = _) ?_
    rw [c3]
  rw [F1, F2]
  exact ⟨rfl, rfl, c1, c2⟩

/-- **C122**: the plane coordinates come back from `tp2v` followed by `v2tp` within 1.43e-4, off the poles. -/
theorem C122_round_trip_single (R : Rounding binary32) (xi eta : ℝ) (t : Vec) (h1 : |xi| ≤ 1) (h2 : |eta| ≤ 1)
    (hr : 1e-15 ≤ Real.sqrt (t 0 * t 0 + t 1 * t 1)) (hL : |t 0 * t 0 + t 1 * t 1 + t 2 * t 2 - 1| ≤ 2e-7) :
    let q := Fp.dv2tp R (Fp.dtp2v R xi eta t) t
    q.1 = .ok ∧ |q.2.1 - xi| ≤ 1.43e-4 ∧ |q.2.2 - eta| ≤ 1.43e-4 := by
  have hs0 : 0 ≤ t 0 * t 0 + t 1 * t 1 := by linarith [mul_self_nonneg (t 0), mul_self_nonneg (t 1)]
  obtain ⟨l1, l2⟩ := abs_le.1 hL
  norm_num at l1 l2
  have hr1 : Real.sqrt (t 0 * t 0 + t 1 * t 1) ≤ 1.001 := by
    rw [Real.sqrt_le_iff]; norm_num; nlinarith [mul_self_nonneg (t 2)]
  have hz : |t 2| ≤ 1.001 := abs_le_of_sq_le_sq (by norm_num; nlinarith) (by norm_num)
  have hp : 0 < Real.sqrt (t 0 * t 0 + t 1 * t 1) := lt_of_lt_of_le (by norm_num) hr
  obtain ⟨g1, g2, g3⟩ := plane_exact xi eta t hp h1 h2 (hL.trans (by norm_num))
  obtain ⟨x', x, r', r, a1, a2, a3, a4, a5, a6, a9, a7, a8⟩ := setup_s R t (Or.inl hr) hr1
  have hb := C122_tp2v R xi eta t h1 h2 hz (Or.inl hr) hr1
  generalize Fp.dtp2v R xi eta t = P' at *
  generalize dtp2v xi eta t = P at *
  have hm : 0.5 ≤ P 0 * x + P 1 * t 1 + P 2 * t 2 := by
    have k1 : |P 0 * (x - t 0)| ≤ 1.01 * 1e-20 := by
      rw [abs_mul]; exact mul_le_mul (g2 0) a9 (abs_nonneg _) (by norm_num)
    have k2 := (abs_le.1 k1).1
    have k3 : P 0 * x = P 0 * t 0 + P 0 * (x - t 0) := by ring
    rw [k3]; norm_num at k2 g1 ⊢; linarith
  obtain ⟨c0, c1, c2⟩ := dv2tp_core_rt_s R.single (⟨hb 0, g2 0⟩ : Nb (P' 0) (P 0) _ _) (⟨hb 1, g2 1⟩ : Nb (P' 1) (P 1) _ _)
    (⟨hb 2, g2 2⟩ : Nb (P' 2) (P 2) _ _) hz a1 a2 a3 a4 a5 a6 hm
  have c3 : Sla.tppClassify (P 0 * x + P 1 * t 1 + P 2 * t 2) = (.ok, P 0 * x + P 1 * t 1 + P 2 * t 2) := by
    unfold Sla.tppClassify; rw [if_pos (by norm_num at hm ⊢; linarith)]
  have F1 : Fp.dv2tp R P' t = (.ok, R (R (R (P' 1 * x') - R (P' 0 * t 1)) / R (R (R (R (P' 0 * x') + R (P' 1 * t 1)) + R (P' 2 * t 2)) * r')),
      R (R (R (P' 2 * R (R (t 0 * t 0) + R (t 1 * t 1))) - R (t 2 * R (R (P' 0 * x') + R (P' 1 * t 1)))) / R (R (R (R (P' 0 * x') + R (P' 1 * t 1)) + R (P' 2 * t 2)) * r'))) := by
    unfold Fp.dv2tp
    simp only []
    refine a7 (fun u v => ((Fp.tppClassify R (R (R (R (P' 0 * u) + R (P' 1 * t 1)) + R (P' 2 * t 2)))).1,
      R (R (R (P' 1 * u) - R (P' 0 * t 1)) / R ((Fp.tppClassify R (R (R (R (P' 0 * u) + R (P' 1 * t 1)) + R (P' 2 * t 2)))).2 * v)),
      R (R (R (P' 2 * R (R (t 0 * t 0) + R (t 1 * t 1))) - R (t 2 * R (R (P' 0 * u) + R (P' 1 * t 1)))) / R ((Fp.tppClassify R (R (R (R (P' 0 * u) + R (P' 1 * t 1)) + R (P' 2 * t 2)))).2 * v))) = _) ?_
    rw [c0]
  have F2 : dv2tp P t = (.ok, (P 1 * x - P 0 * t 1) / ((P 0 * x + P 1 * t 1 + P 2 * t 2) * r),
      (P 2 * (t 0 * t 0 + t 1 * t 1) - t 2 * (P 0 * x + P 1 * t 1)) / ((P 0 * x + P 1 * t 1 + P 2 * t 2) * r)) := by
    unfold dv2tp
    simp only []
    refine a8 (fun u v => ((Sla.tppClassify (P 0 * u + P 1 * t 1 + P 2 * t 2)).1,
      (P 1 * u - P 0 * t 1) / ((Sla.tppClassify (P 0 * u + P 1 * t 1 + P 2 * t 2)).2 * v),
      (P 2 * (t 0 * t 0 + t 1 * t 1) - t 2 * (P 0 * u + P 1 * t 1)) / ((Sla.tppClassify (P 0 * u + P 1 * t 1 + P 2 * t 2)).2 * v)) = _) ?_
    rw [c3]
  rw [F2] at g3
  have q1 := congrArg (fun s => s.2.1) g3
  have q2 := congrArg (fun s => s.2.2) g3
  simp only [] at q1 q2
  rw [q1] at c1
  rw [q2] at c2
  simp only []
  rw [F1]
  refine ⟨rfl, ?_, c2.trans (by norm_num)⟩
  have hx : |xi / (t 0 * t 0 + t 1 * t 1 + t 2 * t 2) - xi| ≤ 1.05 * 2e-7 := by
    have hLp : 0 < t 0 * t 0 + t 1 * t 1 + t 2 * t 2 := by linarith
    have hid : ∀ L : ℝ, 0 < L → xi / L - xi = xi * (1 - L) / L := fun L hL => by
      have := hL.ne'
      field_simp
    rw [hid _ hLp, abs_div, abs_mul, abs_of_pos hLp, div_le_iff₀ hLp, abs_sub_comm]
    have k1 : |xi| * |t 0 * t 0 + t 1 * t 1 + t 2 * t 2 - 1| ≤ 1 * 2e-7 := mul_le_mul h1 hL (abs_nonneg _) (by norm_num)
    norm_num at k1 ⊢; linarith
  exact (abs_sub_le _ _ _).trans ((add_le_add c1 hx).trans (by norm_num))

/-- A tangent point in the plane x = 0, a star on it, plane coordinates of a tenth and two tenths. -/
example : let t : Vec := ![0, 0.6, 0.8]
    |(0.1 : ℝ)| ≤ 1 ∧ |(0.2 : ℝ)| ≤ 1 ∧ (∀ i, |t i| ≤ 1.001) ∧ OffAxis 1e-15 t ∧ Real.sqrt (t 0 * t 0 + t 1 * t 1) ≤ 1.001 ∧
      0.51 ≤ t 0 * t 0 + t 1 * t 1 + t 2 * t 2 ∧ |t 0 * t 0 + t 1 * t 1 + t 2 * t 2 - 1| ≤ 1e-15 := by
  have h : Real.sqrt (0.6 * 0.6) = 0.6 := Real.sqrt_mul_self (by norm_num)
  refine ⟨by norm_num, by norm_num, ?_, Or.inl ?_, ?_, ?_, ?_⟩
  · intro i; fin_cases i <;> norm_num
  · simp only [Matrix.cons_val_zero, Matrix.cons_val_one, zero_mul, zero_add, h]; norm_num
  · simp only [Matrix.cons_val_zero, Matrix.cons_val_one, zero_mul, zero_add, h]; norm_num
  · simp; norm_num
  · simp; norm_num

/-- A pole as tangent point. -/
example : OffAxis 1e-80 ![0, 0, 1] := Or.inr ⟨rfl, rfl⟩

end Sla.Props
