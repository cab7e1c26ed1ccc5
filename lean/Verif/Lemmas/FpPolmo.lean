import Verif.Model.FpPolmo
import Verif.Lemmas.FpRefractionVec

/-
Running error bounds for polar motion, generated.
-/
namespace Sla.Fp

variable {D : ℝ → ℝ}

private theorem hypot_lip (a b c d : ℝ) : |Real.sqrt (a * a + b * b) - Real.sqrt (c * c + d * d)| ≤ |a - c| + |b - d| := by
  have e : ∀ x y : ℝ, Real.sqrt (x * x + y * y) = ‖(⟨x, y⟩ : ℂ)‖ := fun x y => by rw [Complex.norm_def, Complex.normSq_mk]
  rw [e, e]
  refine (abs_norm_sub_norm_le _ _).trans ?_
  exact Complex.norm_le_abs_re_add_abs_im _

/-- A quotient that does not exceed one. -/
private theorem ratio_near (hD : Dbl D) {a x b c e f g : ℝ} (ha : |a - x| ≤ e) (hb : |b - c| ≤ f) (hx : |x| ≤ c) (hc : 0.01 ≤ c) (hf : f ≤ 1e-5)
    (hg : 100.2 * (e + f) + 1.2e-16 * (1 + 100.2 * (e + f)) + 1e-200 ≤ g) : Nb (D (a / b)) (x / c) g 1 := by
  have c0 : 0 < c := lt_of_lt_of_le (by norm_num) hc
  have h1 : |x / c| ≤ 1 := by rw [abs_div, abs_of_pos c0]; exact (div_le_one c0).2 hx
  have b0 : 0.00999 ≤ b := by
    have := (abs_le.1 hb).1
    norm_num at this hf hc ⊢; linarith
  have bp : 0 < b := lt_of_lt_of_le (by norm_num) b0
  have e1 : a / b - x / c = ((a - x) - x / c * (b - c)) / b := by field_simp; ring
  have h2 : |(a - x) - x / c * (b - c)| ≤ e + f := by
    refine (abs_sub _ _).trans (add_le_add ha ?_)
    rw [abs_mul]
    calc |x / c| * |b - c| ≤ 1 * f := mul_le_mul h1 hb (abs_nonneg _) one_pos.le
      _ = f := one_mul f
  have ef : 0 ≤ e + f := (abs_nonneg _).trans h2
  have h3 : |a / b - x / c| ≤ 100.2 * (e + f) := by
    rw [e1, abs_div, abs_of_pos bp, div_le_iff₀ bp]
    refine h2.trans ?_
    have : 1 ≤ 100.2 * b := by norm_num at b0 ⊢; linarith
    nlinarith
  exact hD.nround ⟨h3, h1⟩ le_rfl (by linarith)

theorem polmo_site_near (hD : Dbl D) {cl' cl sl' sl cp' cp sp' sp sx' sx cx' cx sy' sy cy' cy : ℝ} (hcl : Nb cl' cl 2e-16 1) (hsl : Nb sl' sl 2e-16 1) (hcp : Nb cp' cp 2e-16 1) (hsp : Nb sp' sp 2e-16 1)
    (hsx : Nb sx' sx 2e-16 1e-3) (hcx : Nb cx' cx 2e-16 1) (hsy : Nb sy' sy 2e-16 1e-3) (hcy : Nb cy' cy 2e-16 1) :
    |D (D (D (cl' * cp') * cx') - D (D (D (-D (sl' * cp') * sy') + D (sp' * cy')) * sx')) -
      (cl * cp * cx - (-(sl * cp) * sy + sp * cy) * sx)| ≤ 1.17e-15 ∧
    |D (D (D (sl' * cp') * cy') + D (sp' * sy')) - (sl * cp * cy + sp * sy)| ≤ 1.17e-15 ∧
    |D (D (D (cl' * cp') * sx') + D (D (D (-D (sl' * cp') * sy') + D (sp' * cy')) * cx')) -
      (cl * cp * sx + (-(sl * cp) * sy + sp * cy) * cx)| ≤ 1.5e-15 := by
  have n1 : Nb _ _ 5.21e-16 1 := hD.nmul hcl hcp (by norm_num) (by norm_num)
  have n2 : Nb _ _ 5.21e-16 1 := hD.nmul hsl hcp (by norm_num) (by norm_num)
  have n3 : Nb _ _ 2.01e-16 0.001 := hD.nmul n2.neg hsy (by norm_num) (by norm_num)
  have n4 : Nb _ _ 5.21e-16 1 := hD.nmul hsp hcy (by norm_num) (by norm_num)
  have n5 : Nb _ _ 8.43e-16 1.001 := hD.nadd n3 n4 (by norm_num) (by norm_num)
  have n6 : Nb _ _ 8.42e-16 1 := hD.nmul n1 hcx (by norm_num) (by norm_num)
  have n7 : Nb _ _ 2.02e-16 1.001e-3 := hD.nmul n5 hsx (by norm_num) (by norm_num)
  have xt : Nb _ _ 1.17e-15 1.002 := hD.nsub n6 n7 (by norm_num) (by norm_num)
  have n8 : Nb _ _ 8.42e-16 1 := hD.nmul n2 hcy (by norm_num) (by norm_num)
  have n9 : Nb _ _ 2.01e-16 0.001 := hD.nmul hsp hsy (by norm_num) (by norm_num)
  have yt : Nb _ _ 1.17e-15 1.001 := hD.nadd n8 n9 (by norm_num) (by norm_num)
  have n10 : Nb _ _ 2.01e-16 0.001 := hD.nmul n1 hsx (by norm_num) (by norm_num)
  have n11 : Nb _ _ 1.17e-15 1.001 := hD.nmul n5 hcx (by norm_num) (by norm_num)
  have zt : Nb _ _ 1.5e-15 1.002 := hD.nadd n10 n11 (by norm_num) (by norm_num)
  exact ⟨xt.err, yt.err, zt.err⟩

set_option maxHeartbeats 400000 in
/-- The cosine of the latitude and the components of the pole, at least 0.01 from the axis. -/
theorem polmo_pole_near (hD : Dbl D) {sx' sx cx' cx sy' sy cy' cy x' x y' y z' z c c' : ℝ}
    (hsx : Nb sx' sx 2e-16 1e-3) (hcx : Nb cx' cx 2e-16 1) (hsy : Nb sy' sy 2e-16 1e-3) (hcy : Nb cy' cy 2e-16 1)
    (hx : |x' - x| ≤ 1.17e-15) (hy : |y' - y| ≤ 1.17e-15) (hz' : |z' - z| ≤ 1.5e-15) (hu : x * x + y * y + z * z = 1)
    (ec : c = Real.sqrt (x * x + y * y)) (ec' : c' = D (Real.sqrt (D (D (x' * x') + D (y' * y'))))) (c0 : 0.01 ≤ c) :
    |c' - c| ≤ 2.72e-15 ∧
    |D (D (D (D (D (-sx' * cy') * D (x' / c')) + D (sy' * D (y' / c'))) * z') - D (D (cx' * cy') * c')) -
      ((-sx * cy * (x / c) + sy * (y / c)) * z - cx * cy * c)| ≤ 4.7e-15 ∧
    |D (D (-D (-sx' * cy') * D (y' / c')) + D (sy' * D (x' / c'))) - (-(-sx * cy) * (y / c) + sy * (x / c))| ≤ 1.19e-15 := by
  have x0 := mul_self_nonneg x
  have y0 := mul_self_nonneg y
  have z0 := mul_self_nonneg z
  have lz : |z| ≤ 1 := abs_le_of_sq_le_sq (by nlinarith) one_pos.le
  have lx1 : |x| ≤ 1 := abs_le_of_sq_le_sq (by nlinarith) one_pos.le
  have ly1 : |y| ≤ 1 := abs_le_of_sq_le_sq (by nlinarith) one_pos.le
  have lx : |x| ≤ c := by rw [ec]; exact Real.abs_le_sqrt (by nlinarith)
  have ly : |y| ≤ c := by rw [ec]; exact Real.abs_le_sqrt (by nlinarith)
  have lc : c ≤ 1 := by rw [ec]; exact Real.sqrt_le_one.mpr (by linarith)
  have cp : 0 < c := lt_of_lt_of_le (by norm_num) c0
  have small : x' * x' + y' * y' ≤ 1.001 := by
    have h1 : x' * x' - x * x ≤ 1e-4 := by
      have e : x' * x' - x * x = (x' - x) * (x' - x) + 2 * x * (x' - x) := by ring
      have a1 := abs_le.1 hx
      have a2 := abs_le.1 lx1
      norm_num at a1
      rw [e]; nlinarith
    have h2 : y' * y' - y * y ≤ 1e-4 := by
      have e : y' * y' - y * y = (y' - y) * (y' - y) + 2 * y * (y' - y) := by ring
      have a1 := abs_le.1 hy
      have a2 := abs_le.1 ly1
      norm_num at a1
      rw [e]; nlinarith
    norm_num at h1 h2 ⊢; linarith
  have hcc : |c' - c| ≤ 2.72e-15 := by
    have h1 := (modulus2_near hD small).err
    rw [← ec'] at h1
    have h2 := hypot_lip x' y' x y
    rw [← ec] at h2
    have h3 := abs_sub_le c' (Real.sqrt (x' * x' + y' * y')) c
    norm_num at h1 h2 h3 hx hy ⊢; linarith
  have hc : Nb c' c 2.72e-15 1 := ⟨hcc, by rw [abs_of_pos cp]; exact lc⟩
  have hz : Nb z' z 1.5e-15 1 := ⟨hz', lz⟩
  have hsinl : Nb (D (y' / c')) (y / c) 3.9e-13 1 := ratio_near hD hy hcc ly c0 (by norm_num) (by norm_num)
  have hcosl : Nb (D (x' / c')) (x / c) 3.9e-13 1 := ratio_near hD hx hcc lx c0 (by norm_num) (by norm_num)
  have n1 : Nb _ _ 2.01e-16 0.001 := hD.nmul hsx.neg hcy (by norm_num) (by norm_num)
  have n2 : Nb _ _ 5.21e-16 1 := hD.nmul hcx hcy (by norm_num) (by norm_num)
  have n3 : Nb _ _ 5.92e-16 0.001 := hD.nmul n1 hcosl (by norm_num) (by norm_num)
  have n4 : Nb _ _ 5.91e-16 0.001 := hD.nmul hsy hsinl (by norm_num) (by norm_num)
  have n5 : Nb _ _ 1.19e-15 0.002 := hD.nadd n3 n4 (by norm_num) (by norm_num)
  have n6 : Nb _ _ 1.2e-15 0.002 := hD.nmul n5 hz (by norm_num) (by norm_num)
  have n7 : Nb _ _ 3.37e-15 1 := hD.nmul n2 hc (by norm_num) (by norm_num)
  have xnt : Nb _ _ 4.7e-15 1.002 := hD.nsub n6 n7 (by norm_num) (by norm_num)
  have n8 : Nb _ _ 5.92e-16 0.001 := hD.nmul n1.neg hsinl (by norm_num) (by norm_num)
  have n9 : Nb _ _ 5.91e-16 0.001 := hD.nmul hsy hcosl (by norm_num) (by norm_num)
  have ynt : Nb _ _ 1.19e-15 0.002 := hD.nadd n8 n9 (by norm_num) (by norm_num)
  exact ⟨hcc, xnt.err, ynt.err⟩

end Sla.Fp
