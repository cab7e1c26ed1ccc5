import Verif.Model.FpBearing
import Verif.Lemmas.FpPolar

/-
Running error bounds for the bearing of one vector from another, generated.
-/
namespace Sla.Fp

variable {D : ℝ → ℝ}

set_option maxHeartbeats 1000000 in
/-- The two arguments of `atan2` in `dpav`: the distance `r` of the first vector from the axis, its length `q`, and the bound `w` of the second. -/
theorem dpav_near (hP : Prec 1.2e-16 1e-200 D) {x y z x2 y2 z2 r q w l : ℝ} (h1 : x * x + y * y = r * r) (h2 : x * x + y * y + z * z = q * q)
    (r0 : 1e-60 ≤ r) (rq : r ≤ q) (q1 : q ≤ 1e60) (r1 : 1e-40 ≤ r / q) (w0 : 1e-60 ≤ w) (hx2' : |x2| ≤ w) (hy2' : |y2| ≤ w) (hz2' : |z2| ≤ w)
    (el : l = D (Real.sqrt (D (D (D (x * x) + D (y * y)) + D (z * z))))) :
    l ≠ 0 ∧ |D (D (y2 * D (x / l)) - D (x2 * D (y / l))) - (y2 * (x / q) - x2 * (y / q))| ≤ 1.94e-15 * (w * (r / q)) ∧
    |D (D (z2 * D (D (D (x / l) * D (x / l)) + D (D (y / l) * D (y / l)))) - D (D (z / l) * D (D (x2 * D (x / l)) + D (y2 * D (y / l))))) -
      (z2 * (x / q * (x / q) + y / q * (y / q)) - z / q * (x2 * (x / q) + y2 * (y / q)))| ≤ 7.79e-15 * (w * (r / q)) := by
  have near := (dc62s_near_d hP h1 h2 r0 rq q1 (V := 1) (by norm_num) (xd := 0) (yd := 0) (zd := 0) (by norm_num) (by norm_num) (by norm_num)).2.2.2.1
  rw [← el] at near
  have hρ : (0 : ℝ) < 1e-60 := by norm_num
  have p1 : 0 < r := hρ.trans_le r0
  have p0 : 0 < q := p1.trans_le rq
  have p2 : 0 < w := hρ.trans_le w0
  have p3 : 0 < r / q := by positivity
  have p4 : 0 < q / q := by positivity
  have p5 : 0 < w * (r / q) := by positivity
  have p6 : 0 < r / q * (r / q) := by positivity
  have p7 : 0 < w * (r / q * (r / q)) := by positivity
  have p8 : 0 < q / q * (w * (r / q)) := by positivity
  have qq : q / q = 1 := div_self p0.ne'
  have rl : r / q ≤ 1 := (div_le_one p0).2 rq
  have b1 : 1e-40 * 1e-40 ≤ r / q * (r / q) := mul_le_mul r1 r1 (by norm_num) p3.le
  have b2 : 1e-60 * 1e-40 ≤ w * (r / q) := mul_le_mul w0 r1 (by norm_num) p2.le
  have b3 : 1e-60 * (1e-40 * 1e-40) ≤ w * (r / q * (r / q)) := mul_le_mul w0 b1 (by norm_num) p2.le
  have t3 : 1e-200 ≤ 1e-20 * (r / q) := by norm_num at r1 ⊢; linarith
  have t4 : 1e-200 ≤ 1e-20 * (q / q) := by rw [qq]; norm_num
  have t5 : 1e-200 ≤ 1e-20 * (w * (r / q)) := by norm_num at b2 ⊢; linarith
  have t6 : 1e-200 ≤ 1e-20 * (r / q * (r / q)) := by norm_num at b1 ⊢; linarith
  have t7 : 1e-200 ≤ 1e-20 * (w * (r / q * (r / q))) := by norm_num at b3 ⊢; linarith
  have t8 : 1e-200 ≤ 1e-20 * (q / q * (w * (r / q))) := by rw [qq, one_mul]; exact t5
  have c1 : w * (r / q * (r / q)) ≤ w * (r / q) := mul_le_mul_of_nonneg_left (mul_le_of_le_one_left p3.le rl) p2.le
  have c2 : q / q * (w * (r / q)) ≤ w * (r / q) := by rw [qq, one_mul]
  have x0 := mul_self_nonneg x
  have y0 := mul_self_nonneg y
  have z0 := mul_self_nonneg z
  have lx : |x| ≤ r := abs_le_of_sq_le_sq (by nlinarith) p1.le
  have ly : |y| ≤ r := abs_le_of_sq_le_sq (by nlinarith) p1.le
  have lz : |z| ≤ q := abs_le_of_sq_le_sq (by nlinarith) p0.le
  have self1 : ∀ {a M : ℝ}, |a| ≤ M → Nb a a (0 * M) (1 * M) := fun h => by rw [zero_mul, one_mul]; exact Nb.self h
  have hx := self1 lx
  have hy := self1 ly
  have hz := self1 lz
  have hx2 := self1 hx2'
  have hy2 := self1 hy2'
  have hz2 := self1 hz2'
  have hl : Nb l q (6.03e-16 * q) (1 * q) := ⟨near, by rw [one_mul, abs_of_pos p0]⟩
  have m1 : 1 * q ≤ |q| := by rw [one_mul, abs_of_pos p0]
  have n1 : Nb _ _ (7.25e-16 * (r / q)) (1 * (r / q)) := (hP.sdiv (m := 1) (C := 1) (E := 6.04e-16) hx hl p1.le p0 (by norm_num) m1 (by norm_num) (by norm_num) (by norm_num) (by norm_num) t3 (by norm_num) (by norm_num)).mono le_rfl (mul_le_mul_of_nonneg_right (by norm_num) p3.le)
  have n2 : Nb _ _ (7.25e-16 * (r / q)) (1 * (r / q)) := (hP.sdiv (m := 1) (C := 1) (E := 6.04e-16) hy hl p1.le p0 (by norm_num) m1 (by norm_num) (by norm_num) (by norm_num) (by norm_num) t3 (by norm_num) (by norm_num)).mono le_rfl (mul_le_mul_of_nonneg_right (by norm_num) p3.le)
  have n3 : Nb _ _ (7.25e-16 * (q / q)) (1 * (q / q)) := (hP.sdiv (m := 1) (C := 1) (E := 6.04e-16) hz hl p0.le p0 (by norm_num) m1 (by norm_num) (by norm_num) (by norm_num) (by norm_num) t4 (by norm_num) (by norm_num)).mono le_rfl (mul_le_mul_of_nonneg_right (by norm_num) p4.le)
  have n4 : Nb _ _ (8.46e-16 * (w * (r / q))) (1 * (w * (r / q))) := (hP.smul hy2 n1 p2.le p3.le t5 (by norm_num)).mono le_rfl (mul_le_mul_of_nonneg_right (by norm_num) p5.le)
  have n5 : Nb _ _ (8.46e-16 * (w * (r / q))) (1 * (w * (r / q))) := (hP.smul hx2 n2 p2.le p3.le t5 (by norm_num)).mono le_rfl (mul_le_mul_of_nonneg_right (by norm_num) p5.le)
  have sq : Nb _ _ (1.94e-15 * (w * (r / q))) (2 * (w * (r / q))) := (hP.ssub n4 n5 p5.le t5 (by norm_num)).mono le_rfl (mul_le_mul_of_nonneg_right (by norm_num) p5.le)
  have n6 : Nb _ _ (1.58e-15 * ((r / q) * (r / q))) (1 * ((r / q) * (r / q))) := (hP.smul n1 n1 p3.le p3.le t6 (by norm_num)).mono le_rfl (mul_le_mul_of_nonneg_right (by norm_num) p6.le)
  have n7 : Nb _ _ (1.58e-15 * ((r / q) * (r / q))) (1 * ((r / q) * (r / q))) := (hP.smul n2 n2 p3.le p3.le t6 (by norm_num)).mono le_rfl (mul_le_mul_of_nonneg_right (by norm_num) p6.le)
  have n8 : Nb _ _ (3.41e-15 * ((r / q) * (r / q))) (2 * ((r / q) * (r / q))) := (hP.sadd n6 n7 p6.le t6 (by norm_num)).mono le_rfl (mul_le_mul_of_nonneg_right (by norm_num) p6.le)
  have n9 : Nb _ _ (3.66e-15 * (w * ((r / q) * (r / q)))) (2 * (w * ((r / q) * (r / q)))) := (hP.smul hz2 n8 p2.le p6.le t7 (by norm_num)).mono le_rfl (mul_le_mul_of_nonneg_right (by norm_num) p7.le)
  have n10 := Prec.unit n9 c1 (by norm_num) (by norm_num)
  have n11 : Nb _ _ (8.46e-16 * (w * (r / q))) (1 * (w * (r / q))) := (hP.smul hx2 n1 p2.le p3.le t5 (by norm_num)).mono le_rfl (mul_le_mul_of_nonneg_right (by norm_num) p5.le)
  have n12 : Nb _ _ (8.46e-16 * (w * (r / q))) (1 * (w * (r / q))) := (hP.smul hy2 n2 p2.le p3.le t5 (by norm_num)).mono le_rfl (mul_le_mul_of_nonneg_right (by norm_num) p5.le)
  have n13 : Nb _ _ (1.94e-15 * (w * (r / q))) (2 * (w * (r / q))) := (hP.sadd n11 n12 p5.le t5 (by norm_num)).mono le_rfl (mul_le_mul_of_nonneg_right (by norm_num) p5.le)
  have n14 : Nb _ _ (3.64e-15 * ((q / q) * (w * (r / q)))) (2 * ((q / q) * (w * (r / q)))) := (hP.smul n3 n13 p4.le p5.le t8 (by norm_num)).mono le_rfl (mul_le_mul_of_nonneg_right (by norm_num) p8.le)
  have n15 := Prec.unit n14 c2 (by norm_num) (by norm_num)
  have cq : Nb _ _ (7.79e-15 * (w * (r / q))) (4 * (w * (r / q))) := (hP.ssub n10 n15 p5.le t5 (by norm_num)).mono le_rfl (mul_le_mul_of_nonneg_right (by norm_num) p5.le)
  refine ⟨?_, sq.err, cq.err⟩
  rintro rfl
  rw [zero_sub, abs_neg, abs_of_pos p0] at near
  norm_num at near
  linarith

end Sla.Fp
