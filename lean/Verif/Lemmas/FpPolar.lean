import Verif.Model.FpPolar
import Verif.Lemmas.FpScaled

/-
Running error bounds for the spherical coordinates and rates of a position and velocity, generated.
-/
namespace Sla.Fp

variable {D : ℝ → ℝ}

private theorem sqrt_rel {a b k : ℝ} (hb : 0 < b) (h : |a - b| ≤ k * b) : |Real.sqrt a - Real.sqrt b| ≤ k * Real.sqrt b := by
  have sa := Real.sqrt_nonneg a
  have sb := Real.sqrt_pos.2 hb
  have eb := Real.mul_self_sqrt hb.le
  have key : |Real.sqrt a - Real.sqrt b| * Real.sqrt b ≤ |a - b| := by
    rcases le_total 0 a with ha | ha
    · have ea := Real.mul_self_sqrt ha
      have e2 : a - b = (Real.sqrt a - Real.sqrt b) * (Real.sqrt a + Real.sqrt b) := by linear_combination -ea + eb
      rw [e2, abs_mul, abs_of_nonneg (add_nonneg sa sb.le)]
      exact mul_le_mul_of_nonneg_left (by linarith) (abs_nonneg _)
    · rw [Real.sqrt_eq_zero_of_nonpos ha, zero_sub, abs_neg, abs_of_nonneg sb.le, abs_of_nonpos (by linarith : a - b ≤ 0)]
      linarith
  have h3 : |Real.sqrt a - Real.sqrt b| * Real.sqrt b ≤ k * Real.sqrt b * Real.sqrt b := by rw [mul_assoc, eb]; exact key.trans h
  exact le_of_mul_le_mul_right h3 sb

/-- A rounded sum of squares, and its rounded root, when the terms have relative errors. -/
theorem Prec.root {U T τ k k' : ℝ} (h : Prec U T D) {v q : ℝ} (hq : 0 < q) (hv : |v - q * q| ≤ k * (q * q)) (hT : T ≤ τ * q)
    (hk : k + U * (1 + k) + τ ≤ k') : |D (Real.sqrt v) - q| ≤ k' * q := by
  have h1 := sqrt_rel (mul_pos hq hq) hv
  rw [Real.sqrt_mul_self hq.le] at h1
  refine (h.around h1 (abs_of_pos hq).le).trans ?_
  have := mul_le_mul_of_nonneg_right hk hq.le
  nlinarith

set_option maxHeartbeats 1000000 in
/-- Away from the axis, with the distance `r` from it, the distance `q` from the origin and the bound `V` of the velocity. -/
theorem dc62s_near_d (hP : Prec 1.2e-16 1e-200 D) {x y z xd yd zd r q V : ℝ} (h1 : x * x + y * y = r * r) (h2 : x * x + y * y + z * z = q * q)
    (r0 : 1e-60 ≤ r) (rq : r ≤ q) (q1 : q ≤ 1e60) (v0 : 1e-60 ≤ V) (hxd' : |xd| ≤ V) (hyd' : |yd| ≤ V) (hzd' : |zd| ≤ V) :
    |D (D (x * x) + D (y * y)) - r * r| ≤ 2.41e-16 * (r * r) ∧
    |D (D (D (x * x) + D (y * y)) + D (z * z)) - q * q| ≤ 4.82e-16 * (q * q) ∧
    |D (Real.sqrt (D (D (x * x) + D (y * y)))) - r| ≤ 3.62e-16 * r ∧
    |D (Real.sqrt (D (D (D (x * x) + D (y * y)) + D (z * z)))) - q| ≤ 6.03e-16 * q ∧
    |D (D (D (x * yd) - D (y * xd)) / D (D (x * x) + D (y * y))) - (x * yd - y * xd) / (r * r)| ≤ 1.21e-15 * (V / r) ∧
    |D (D (D (zd * D (D (x * x) + D (y * y))) - D (z * D (D (x * xd) + D (y * yd)))) /
      D (D (D (D (x * x) + D (y * y)) + D (z * z)) * D (Real.sqrt (D (D (x * x) + D (y * y)))))) -
      (zd * (r * r) - z * (x * xd + y * yd)) / (q * q * r)| ≤ 4.72e-15 * (V / q) ∧
    |D (D (D (D (x * xd) + D (y * yd)) + D (z * zd)) / D (Real.sqrt (D (D (D (x * x) + D (y * y)) + D (z * z))))) -
      (x * xd + y * yd + z * zd) / q| ≤ 3.15e-15 * V := by
  have hρ : (0 : ℝ) < 1e-60 := by norm_num
  have p0 : 0 < r := hρ.trans_le r0
  have p1 : 0 < q := p0.trans_le rq
  have p2 : 0 < V := hρ.trans_le v0
  have p3 : 0 < (r * r) := by positivity
  have p4 : 0 < (q * q) := by positivity
  have p5 : 0 < (r * V) := by positivity
  have p6 : 0 < (V * (r * r)) := by positivity
  have p7 : 0 < (q * (r * V)) := by positivity
  have p8 : 0 < (q * V) := by positivity
  have p9 : 0 < ((q * q) * r) := by positivity
  have p10 : 0 < ((r * V) / (r * r)) := by positivity
  have p11 : 0 < ((q * (r * V)) / ((q * q) * r)) := by positivity
  have p12 : 0 < ((q * V) / q) := by positivity
  have b1 : 1e-60 * 1e-60 ≤ r * r := mul_le_mul r0 r0 hρ.le p0.le
  have b2 : 1e-60 * 1e-60 ≤ r * V := mul_le_mul r0 v0 hρ.le p0.le
  have b3 : 1e-60 * (1e-60 * 1e-60) ≤ V * (r * r) := mul_le_mul v0 b1 (by norm_num) p2.le
  have b4 : r * r ≤ q * q := mul_le_mul rq rq p0.le p1.le
  have c1 : V * (r * r) ≤ q * (r * V) := by
    have := mul_le_mul_of_nonneg_right rq p5.le
    linarith
  have c2 : r * V ≤ q * V := mul_le_mul_of_nonneg_right rq p2.le
  have b5 : 1e-60 * (1e-60 * 1e-60) ≤ q * q * r := by
    have : 1e-60 * 1e-60 * 1e-60 ≤ q * q * r := mul_le_mul (b1.trans b4) r0 hρ.le p4.le
    linarith
  have b6 : V / q ≤ V / r := div_le_div_of_nonneg_left p2.le p0 rq
  have b7 : 1e-60 / 1e60 ≤ V / q := div_le_div₀ p2.le v0 p1 q1
  have u1 : r * V / (r * r) = V / r := by field_simp
  have u2 : q * (r * V) / (q * q * r) = V / q := by field_simp
  have u3 : q * V / q = V := by field_simp
  have t3 : 1e-200 ≤ 1e-20 * (r * r) := by norm_num at b1 ⊢; linarith
  have t4 : 1e-200 ≤ 1e-20 * (q * q) := by norm_num at b1 b4 ⊢; linarith
  have t5 : 1e-200 ≤ 1e-20 * (r * V) := by norm_num at b2 ⊢; linarith
  have t6 : 1e-200 ≤ 1e-20 * (V * (r * r)) := by norm_num at b3 ⊢; linarith
  have t7 : 1e-200 ≤ 1e-20 * (q * (r * V)) := by norm_num at b3 c1 ⊢; linarith
  have t8 : 1e-200 ≤ 1e-20 * (q * V) := by norm_num at b2 c2 ⊢; linarith
  have t9 : 1e-200 ≤ 1e-20 * (q * q * r) := by norm_num at b5 ⊢; linarith
  have t10 : 1e-200 ≤ 1e-20 * (r * V / (r * r)) := by rw [u1]; norm_num at b6 b7 ⊢; linarith
  have t11 : 1e-200 ≤ 1e-20 * (q * (r * V) / (q * q * r)) := by rw [u2]; norm_num at b7 ⊢; linarith
  have t12 : 1e-200 ≤ 1e-20 * (q * V / q) := by rw [u3]; norm_num at v0 ⊢; linarith
  have t0 : 1e-200 ≤ 1e-20 * r := by norm_num at r0 ⊢; linarith
  have t1 : 1e-200 ≤ 1e-20 * q := by norm_num at r0 rq ⊢; linarith
  have x0 := mul_self_nonneg x
  have y0 := mul_self_nonneg y
  have z0 := mul_self_nonneg z
  have lx : |x| ≤ r := abs_le_of_sq_le_sq (by nlinarith) p0.le
  have ly : |y| ≤ r := abs_le_of_sq_le_sq (by nlinarith) p0.le
  have lz : |z| ≤ q := abs_le_of_sq_le_sq (by nlinarith) p1.le
  have self1 : ∀ {a M : ℝ}, |a| ≤ M → Nb a a (0 * M) (1 * M) := fun h => by rw [zero_mul, one_mul]; exact Nb.self h
  have hx := self1 lx
  have hy := self1 ly
  have hz := self1 lz
  have hxd := self1 hxd'
  have hyd := self1 hyd'
  have hzd := self1 hzd'
  have e1 : |D (D (x * x) + D (y * y)) - r * r| ≤ 2.41e-16 * (r * r) := by
    have a1 := hP.2 (x * x)
    have a2 := hP.2 (y * y)
    rw [abs_of_nonneg x0] at a1
    rw [abs_of_nonneg y0] at a2
    have a3 : |D (x * x) + D (y * y) - r * r| ≤ 1.2e-16 * (r * r) + 2 * 1e-200 := by
      rw [← h1, show D (x * x) + D (y * y) - (x * x + y * y) = (D (x * x) - x * x) + (D (y * y) - y * y) by ring]
      refine (abs_add_le _ _).trans ?_
      linarith
    have a4 := hP.around a3 (abs_of_pos p3).le
    norm_num at a4 t3 ⊢; linarith
  have e2 : |D (D (D (x * x) + D (y * y)) + D (z * z)) - q * q| ≤ 4.82e-16 * (q * q) := by
    have a1 := hP.2 (z * z)
    rw [abs_of_nonneg z0] at a1
    generalize D (D (x * x) + D (y * y)) = s at *
    have a3 : |s + D (z * z) - q * q| ≤ 3.61e-16 * (q * q) + 1e-200 := by
      rw [← h2, h1, show s + D (z * z) - (r * r + z * z) = (s - r * r) + (D (z * z) - z * z) by ring]
      refine (abs_add_le _ _).trans ?_
      rw [h1] at h2
      norm_num at a1 e1 ⊢; linarith
    have a4 := hP.around a3 (abs_of_pos p4).le
    norm_num at a4 t4 ⊢; linarith
  have e3 := hP.root (k' := 3.62e-16) p0 e1 t0 (by norm_num)
  have e4 := hP.root (k' := 6.03e-16) p1 e2 t1 (by norm_num)
  have hs1 : Nb _ _ (2.41e-16 * (r * r)) (1 * (r * r)) := ⟨e1, by rw [one_mul, abs_of_pos p3]⟩
  have hs2 : Nb _ _ (4.82e-16 * (q * q)) (1 * (q * q)) := ⟨e2, by rw [one_mul, abs_of_pos p4]⟩
  have hrx : Nb _ _ (3.62e-16 * r) (1 * r) := ⟨e3, by rw [one_mul, abs_of_pos p0]⟩
  have hds : Nb _ _ (6.03e-16 * q) (1 * q) := ⟨e4, by rw [one_mul, abs_of_pos p1]⟩
  have m1 : 1 * (r * r) ≤ |r * r| := by rw [one_mul, abs_of_pos p3]
  have m2 : 1 * (q * q * r) ≤ |q * q * r| := by rw [one_mul, abs_of_pos p9]
  have m3 : 1 * q ≤ |q| := by rw [one_mul, abs_of_pos p1]
  have n1 : Nb _ _ (1.21e-16 * (r * V)) (1 * (r * V)) := (hP.smul hx hxd p0.le p2.le t5 (by norm_num)).mono le_rfl (mul_le_mul_of_nonneg_right (by norm_num) p5.le)
  have n2 : Nb _ _ (1.21e-16 * (r * V)) (1 * (r * V)) := (hP.smul hy hyd p0.le p2.le t5 (by norm_num)).mono le_rfl (mul_le_mul_of_nonneg_right (by norm_num) p5.le)
  have n3 : Nb _ _ (4.83e-16 * (r * V)) (2 * (r * V)) := (hP.sadd n1 n2 p5.le t5 (by norm_num)).mono le_rfl (mul_le_mul_of_nonneg_right (by norm_num) p5.le)
  have n4 : Nb _ _ (1.21e-16 * (r * V)) (1 * (r * V)) := (hP.smul hx hyd p0.le p2.le t5 (by norm_num)).mono le_rfl (mul_le_mul_of_nonneg_right (by norm_num) p5.le)
  have n5 : Nb _ _ (1.21e-16 * (r * V)) (1 * (r * V)) := (hP.smul hy hxd p0.le p2.le t5 (by norm_num)).mono le_rfl (mul_le_mul_of_nonneg_right (by norm_num) p5.le)
  have n6 : Nb _ _ (4.83e-16 * (r * V)) (2 * (r * V)) := (hP.ssub n4 n5 p5.le t5 (by norm_num)).mono le_rfl (mul_le_mul_of_nonneg_right (by norm_num) p5.le)
  have dl : Nb _ _ (1.21e-15 * ((r * V) / (r * r))) (2 * ((r * V) / (r * r))) := (hP.sdiv (m := 1) (C := 2) (E := 9.66e-16) n6 hs1 p5.le p3 (by norm_num) m1 (by norm_num) (by norm_num) (by norm_num) (by norm_num) t10 (by norm_num) (by norm_num)).mono le_rfl (mul_le_mul_of_nonneg_right (by norm_num) p10.le)
  have n7 : Nb _ _ (3.62e-16 * (V * (r * r))) (1 * (V * (r * r))) := (hP.smul hzd hs1 p2.le p3.le t6 (by norm_num)).mono le_rfl (mul_le_mul_of_nonneg_right (by norm_num) p6.le)
  have n8 := Prec.unit n7 c1 (by norm_num) (by norm_num)
  have n9 : Nb _ _ (7.24e-16 * (q * (r * V))) (2 * (q * (r * V))) := (hP.smul hz n3 p1.le p5.le t7 (by norm_num)).mono le_rfl (mul_le_mul_of_nonneg_right (by norm_num) p7.le)
  have n10 : Nb _ _ (1.45e-15 * (q * (r * V))) (3 * (q * (r * V))) := (hP.ssub n8 n9 p7.le t7 (by norm_num)).mono le_rfl (mul_le_mul_of_nonneg_right (by norm_num) p7.le)
  have n11 : Nb _ _ (9.65e-16 * ((q * q) * r)) (1 * ((q * q) * r)) := (hP.smul hs2 hrx p4.le p0.le t9 (by norm_num)).mono le_rfl (mul_le_mul_of_nonneg_right (by norm_num) p9.le)
  have db : Nb _ _ (4.72e-15 * ((q * (r * V)) / ((q * q) * r))) (3 * ((q * (r * V)) / ((q * q) * r))) := (hP.sdiv (m := 1) (C := 3) (E := 4.35e-15) n10 n11 p7.le p9 (by norm_num) m2 (by norm_num) (by norm_num) (by norm_num) (by norm_num) t11 (by norm_num) (by norm_num)).mono le_rfl (mul_le_mul_of_nonneg_right (by norm_num) p11.le)
  have n12 := Prec.unit n3 c2 (by norm_num) (by norm_num)
  have n13 : Nb _ _ (1.21e-16 * (q * V)) (1 * (q * V)) := (hP.smul hz hzd p1.le p2.le t8 (by norm_num)).mono le_rfl (mul_le_mul_of_nonneg_right (by norm_num) p8.le)
  have n14 : Nb _ _ (9.65e-16 * (q * V)) (3 * (q * V)) := (hP.sadd n12 n13 p8.le t8 (by norm_num)).mono le_rfl (mul_le_mul_of_nonneg_right (by norm_num) p8.le)
  have dd : Nb _ _ (3.15e-15 * ((q * V) / q)) (3 * ((q * V) / q)) := (hP.sdiv (m := 1) (C := 3) (E := 2.78e-15) n14 hds p8.le p1 (by norm_num) m3 (by norm_num) (by norm_num) (by norm_num) (by norm_num) t12 (by norm_num) (by norm_num)).mono le_rfl (mul_le_mul_of_nonneg_right (by norm_num) p12.le)
  have f1 := dl.err
  have f2 := db.err
  have f3 := dd.err
  rw [u1] at f1
  rw [u2] at f2
  rw [u3] at f3
  exact ⟨e1, e2, e3, e4, f1, f2, f3⟩

set_option maxHeartbeats 1000000 in
/-- Away from the axis, with the distance `r` from it, the distance `q` from the origin and the bound `V` of the velocity. -/
theorem dc62s_near_s (hP : Prec 6e-8 1e-40 D) {x y z xd yd zd r q V : ℝ} (h1 : x * x + y * y = r * r) (h2 : x * x + y * y + z * z = q * q)
    (r0 : 1e-9 ≤ r) (rq : r ≤ q) (q1 : q ≤ 1e12) (v0 : 1e-9 ≤ V) (hxd' : |xd| ≤ V) (hyd' : |yd| ≤ V) (hzd' : |zd| ≤ V) :
    |D (D (x * x) + D (y * y)) - r * r| ≤ 1.21e-7 * (r * r) ∧
    |D (D (D (x * x) + D (y * y)) + D (z * z)) - q * q| ≤ 2.42e-7 * (q * q) ∧
    |D (Real.sqrt (D (D (x * x) + D (y * y)))) - r| ≤ 1.82e-7 * r ∧
    |D (Real.sqrt (D (D (D (x * x) + D (y * y)) + D (z * z)))) - q| ≤ 3.03e-7 * q ∧
    |D (D (D (x * yd) - D (y * xd)) / D (D (x * x) + D (y * y))) - (x * yd - y * xd) / (r * r)| ≤ 6.05e-7 * (V / r) ∧
    |D (D (D (zd * D (D (x * x) + D (y * y))) - D (z * D (D (x * xd) + D (y * yd)))) /
      D (D (D (D (x * x) + D (y * y)) + D (z * z)) * D (Real.sqrt (D (D (x * x) + D (y * y)))))) -
      (zd * (r * r) - z * (x * xd + y * yd)) / (q * q * r)| ≤ 2.38e-6 * (V / q) ∧
    |D (D (D (D (x * xd) + D (y * yd)) + D (z * zd)) / D (Real.sqrt (D (D (D (x * x) + D (y * y)) + D (z * z))))) -
      (x * xd + y * yd + z * zd) / q| ≤ 1.59e-6 * V := by
  have hρ : (0 : ℝ) < 1e-9 := by norm_num
  have p0 : 0 < r := hρ.trans_le r0
  have p1 : 0 < q := p0.trans_le rq
  have p2 : 0 < V := hρ.trans_le v0
  have p3 : 0 < (r * r) := by positivity
  have p4 : 0 < (q * q) := by positivity
  have p5 : 0 < (r * V) := by positivity
  have p6 : 0 < (V * (r * r)) := by positivity
  have p7 : 0 < (q * (r * V)) := by positivity
  have p8 : 0 < (q * V) := by positivity
  have p9 : 0 < ((q * q) * r) := by positivity
  have p10 : 0 < ((r * V) / (r * r)) := by positivity
  have p11 : 0 < ((q * (r * V)) / ((q * q) * r)) := by positivity
  have p12 : 0 < ((q * V) / q) := by positivity
  have b1 : 1e-9 * 1e-9 ≤ r * r := mul_le_mul r0 r0 hρ.le p0.le
  have b2 : 1e-9 * 1e-9 ≤ r * V := mul_le_mul r0 v0 hρ.le p0.le
  have b3 : 1e-9 * (1e-9 * 1e-9) ≤ V * (r * r) := mul_le_mul v0 b1 (by norm_num) p2.le
  have b4 : r * r ≤ q * q := mul_le_mul rq rq p0.le p1.le
  have c1 : V * (r * r) ≤ q * (r * V) := by
    have := mul_le_mul_of_nonneg_right rq p5.le
    linarith
  have c2 : r * V ≤ q * V := mul_le_mul_of_nonneg_right rq p2.le
  have b5 : 1e-9 * (1e-9 * 1e-9) ≤ q * q * r := by
    have : 1e-9 * 1e-9 * 1e-9 ≤ q * q * r := mul_le_mul (b1.trans b4) r0 hρ.le p4.le
    linarith
  have b6 : V / q ≤ V / r := div_le_div_of_nonneg_left p2.le p0 rq
  have b7 : 1e-9 / 1e12 ≤ V / q := div_le_div₀ p2.le v0 p1 q1
  have u1 : r * V / (r * r) = V / r := by field_simp
  have u2 : q * (r * V) / (q * q * r) = V / q := by field_simp
  have u3 : q * V / q = V := by field_simp
  have t3 : 1e-40 ≤ 1e-12 * (r * r) := by norm_num at b1 ⊢; linarith
  have t4 : 1e-40 ≤ 1e-12 * (q * q) := by norm_num at b1 b4 ⊢; linarith
  have t5 : 1e-40 ≤ 1e-12 * (r * V) := by norm_num at b2 ⊢; linarith
  have t6 : 1e-40 ≤ 1e-12 * (V * (r * r)) := by norm_num at b3 ⊢; linarith
  have t7 : 1e-40 ≤ 1e-12 * (q * (r * V)) := by norm_num at b3 c1 ⊢; linarith
  have t8 : 1e-40 ≤ 1e-12 * (q * V) := by norm_num at b2 c2 ⊢; linarith
  have t9 : 1e-40 ≤ 1e-12 * (q * q * r) := by norm_num at b5 ⊢; linarith
  have t10 : 1e-40 ≤ 1e-12 * (r * V / (r * r)) := by rw [u1]; norm_num at b6 b7 ⊢; linarith
  have t11 : 1e-40 ≤ 1e-12 * (q * (r * V) / (q * q * r)) := by rw [u2]; norm_num at b7 ⊢; linarith
  have t12 : 1e-40 ≤ 1e-12 * (q * V / q) := by rw [u3]; norm_num at v0 ⊢; linarith
  have t0 : 1e-40 ≤ 1e-12 * r := by norm_num at r0 ⊢; linarith
  have t1 : 1e-40 ≤ 1e-12 * q := by norm_num at r0 rq ⊢; linarith
  have x0 := mul_self_nonneg x
  have y0 := mul_self_nonneg y
  have z0 := mul_self_nonneg z
  have lx : |x| ≤ r := abs_le_of_sq_le_sq (by nlinarith) p0.le
  have ly : |y| ≤ r := abs_le_of_sq_le_sq (by nlinarith) p0.le
  have lz : |z| ≤ q := abs_le_of_sq_le_sq (by nlinarith) p1.le
  have self1 : ∀ {a M : ℝ}, |a| ≤ M → Nb a a (0 * M) (1 * M) := fun h => by rw [zero_mul, one_mul]; exact Nb.self h
  have hx := self1 lx
  have hy := self1 ly
  have hz := self1 lz
  have hxd := self1 hxd'
  have hyd := self1 hyd'
  have hzd := self1 hzd'
  have e1 : |D (D (x * x) + D (y * y)) - r * r| ≤ 1.21e-7 * (r * r) := by
    have a1 := hP.2 (x * x)
    have a2 := hP.2 (y * y)
    rw [abs_of_nonneg x0] at a1
    rw [abs_of_nonneg y0] at a2
    have a3 : |D (x * x) + D (y * y) - r * r| ≤ 6e-8 * (r * r) + 2 * 1e-40 := by
      rw [← h1, show D (x * x) + D (y * y) - (x * x + y * y) = (D (x * x) - x * x) + (D (y * y) - y * y) by ring]
      refine (abs_add_le _ _).trans ?_
      linarith
    have a4 := hP.around a3 (abs_of_pos p3).le
    norm_num at a4 t3 ⊢; linarith
  have e2 : |D (D (D (x * x) + D (y * y)) + D (z * z)) - q * q| ≤ 2.42e-7 * (q * q) := by
    have a1 := hP.2 (z * z)
    rw [abs_of_nonneg z0] at a1
    generalize D (D (x * x) + D (y * y)) = s at *
    have a3 : |s + D (z * z) - q * q| ≤ 1.81e-7 * (q * q) + 1e-40 := by
      rw [← h2, h1, show s + D (z * z) - (r * r + z * z) = (s - r * r) + (D (z * z) - z * z) by ring]
      refine (abs_add_le _ _).trans ?_
      rw [h1] at h2
      norm_num at a1 e1 ⊢; linarith
    have a4 := hP.around a3 (abs_of_pos p4).le
    norm_num at a4 t4 ⊢; linarith
  have e3 := hP.root (k' := 1.82e-7) p0 e1 t0 (by norm_num)
  have e4 := hP.root (k' := 3.03e-7) p1 e2 t1 (by norm_num)
  have hs1 : Nb _ _ (1.21e-7 * (r * r)) (1 * (r * r)) := ⟨e1, by rw [one_mul, abs_of_pos p3]⟩
  have hs2 : Nb _ _ (2.42e-7 * (q * q)) (1 * (q * q)) := ⟨e2, by rw [one_mul, abs_of_pos p4]⟩
  have hrx : Nb _ _ (1.82e-7 * r) (1 * r) := ⟨e3, by rw [one_mul, abs_of_pos p0]⟩
  have hds : Nb _ _ (3.03e-7 * q) (1 * q) := ⟨e4, by rw [one_mul, abs_of_pos p1]⟩
  have m1 : 1 * (r * r) ≤ |r * r| := by rw [one_mul, abs_of_pos p3]
  have m2 : 1 * (q * q * r) ≤ |q * q * r| := by rw [one_mul, abs_of_pos p9]
  have m3 : 1 * q ≤ |q| := by rw [one_mul, abs_of_pos p1]
  have n1 : Nb _ _ (6.01e-8 * (r * V)) (1 * (r * V)) := (hP.smul hx hxd p0.le p2.le t5 (by norm_num)).mono le_rfl (mul_le_mul_of_nonneg_right (by norm_num) p5.le)
  have n2 : Nb _ _ (6.01e-8 * (r * V)) (1 * (r * V)) := (hP.smul hy hyd p0.le p2.le t5 (by norm_num)).mono le_rfl (mul_le_mul_of_nonneg_right (by norm_num) p5.le)
  have n3 : Nb _ _ (2.41e-7 * (r * V)) (2 * (r * V)) := (hP.sadd n1 n2 p5.le t5 (by norm_num)).mono le_rfl (mul_le_mul_of_nonneg_right (by norm_num) p5.le)
  have n4 : Nb _ _ (6.01e-8 * (r * V)) (1 * (r * V)) := (hP.smul hx hyd p0.le p2.le t5 (by norm_num)).mono le_rfl (mul_le_mul_of_nonneg_right (by norm_num) p5.le)
  have n5 : Nb _ _ (6.01e-8 * (r * V)) (1 * (r * V)) := (hP.smul hy hxd p0.le p2.le t5 (by norm_num)).mono le_rfl (mul_le_mul_of_nonneg_right (by norm_num) p5.le)
  have n6 : Nb _ _ (2.41e-7 * (r * V)) (2 * (r * V)) := (hP.ssub n4 n5 p5.le t5 (by norm_num)).mono le_rfl (mul_le_mul_of_nonneg_right (by norm_num) p5.le)
  have dl : Nb _ _ (6.05e-7 * ((r * V) / (r * r))) (2 * ((r * V) / (r * r))) := (hP.sdiv (m := 1) (C := 2) (E := 4.84e-7) n6 hs1 p5.le p3 (by norm_num) m1 (by norm_num) (by norm_num) (by norm_num) (by norm_num) t10 (by norm_num) (by norm_num)).mono le_rfl (mul_le_mul_of_nonneg_right (by norm_num) p10.le)
  have n7 : Nb _ _ (1.82e-7 * (V * (r * r))) (1 * (V * (r * r))) := (hP.smul hzd hs1 p2.le p3.le t6 (by norm_num)).mono le_rfl (mul_le_mul_of_nonneg_right (by norm_num) p6.le)
  have n8 := Prec.unit n7 c1 (by norm_num) (by norm_num)
  have n9 : Nb _ _ (3.62e-7 * (q * (r * V))) (2 * (q * (r * V))) := (hP.smul hz n3 p1.le p5.le t7 (by norm_num)).mono le_rfl (mul_le_mul_of_nonneg_right (by norm_num) p7.le)
  have n10 : Nb _ _ (7.25e-7 * (q * (r * V))) (3 * (q * (r * V))) := (hP.ssub n8 n9 p7.le t7 (by norm_num)).mono le_rfl (mul_le_mul_of_nonneg_right (by norm_num) p7.le)
  have n11 : Nb _ _ (4.85e-7 * ((q * q) * r)) (1 * ((q * q) * r)) := (hP.smul hs2 hrx p4.le p0.le t9 (by norm_num)).mono le_rfl (mul_le_mul_of_nonneg_right (by norm_num) p9.le)
  have db : Nb _ _ (2.38e-6 * ((q * (r * V)) / ((q * q) * r))) (3 * ((q * (r * V)) / ((q * q) * r))) := (hP.sdiv (m := 1) (C := 3) (E := 2.19e-6) n10 n11 p7.le p9 (by norm_num) m2 (by norm_num) (by norm_num) (by norm_num) (by norm_num) t11 (by norm_num) (by norm_num)).mono le_rfl (mul_le_mul_of_nonneg_right (by norm_num) p11.le)
  have n12 := Prec.unit n3 c2 (by norm_num) (by norm_num)
  have n13 : Nb _ _ (6.01e-8 * (q * V)) (1 * (q * V)) := (hP.smul hz hzd p1.le p2.le t8 (by norm_num)).mono le_rfl (mul_le_mul_of_nonneg_right (by norm_num) p8.le)
  have n14 : Nb _ _ (4.82e-7 * (q * V)) (3 * (q * V)) := (hP.sadd n12 n13 p8.le t8 (by norm_num)).mono le_rfl (mul_le_mul_of_nonneg_right (by norm_num) p8.le)
  have dd : Nb _ _ (1.59e-6 * ((q * V) / q)) (3 * ((q * V) / q)) := (hP.sdiv (m := 1) (C := 3) (E := 1.4e-6) n14 hds p8.le p1 (by norm_num) m3 (by norm_num) (by norm_num) (by norm_num) (by norm_num) t12 (by norm_num) (by norm_num)).mono le_rfl (mul_le_mul_of_nonneg_right (by norm_num) p12.le)
  have f1 := dl.err
  have f2 := db.err
  have f3 := dd.err
  rw [u1] at f1
  rw [u2] at f2
  rw [u3] at f3
  exact ⟨e1, e2, e3, e4, f1, f2, f3⟩

end Sla.Fp
