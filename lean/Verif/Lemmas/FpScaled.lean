import Verif.Lemmas.FpNear
import Verif.Lemmas.FpAngle

/-
Running error bounds in proportion to a unit `M`, for single and double precision at once.
-/
namespace Sla.Fp

/-- Relative error `U`, absolute error `T` of underflow. -/
def Prec (U T : ℝ) (R : ℝ → ℝ) : Prop := 0 ≤ U ∧ ∀ x, |R x - x| ≤ U * |x| + T

theorem Dbl.prec {R : ℝ → ℝ} (h : Dbl R) : Prec 1.2e-16 1e-200 R := ⟨by norm_num, h⟩
theorem Single.prec {R : ℝ → ℝ} (h : Single R) : Prec 6e-8 1e-40 R := ⟨by norm_num, h⟩

namespace Prec
variable {U T τ : ℝ} {R : ℝ → ℝ} {a b x y e f g A B C M N E : ℝ}

theorem around (h : Prec U T R) (ha : |a - x| ≤ e) (hx : |x| ≤ A) : |R a - x| ≤ e + U * (A + e) + T := by
  have h1 := h.2 a
  have h2 : |a| ≤ A + e := by
    have := abs_add_le x (a - x)
    rw [add_sub_cancel] at this
    linarith
  have h3 := mul_le_mul_of_nonneg_left h2 h.1
  have := abs_sub_le (R a) a x
  linarith

theorem snd (h : Prec U T R) (h1 : Nb a x (e * M) (A * M)) (hM : 0 ≤ M) (hT : T ≤ τ * M) (hg : e + U * (A + e) + τ ≤ g) :
    Nb (R a) x (g * M) (A * M) := by
  refine ⟨(h.around h1.err h1.bd).trans ?_, h1.bd⟩
  have := mul_le_mul_of_nonneg_right hg hM
  nlinarith

theorem sadd (h : Prec U T R) (h1 : Nb a x (e * M) (A * M)) (h2 : Nb b y (f * M) (B * M)) (hM : 0 ≤ M) (hT : T ≤ τ * M)
    (hg : e + f + U * (A + B + (e + f)) + τ ≤ g) : Nb (R (a + b)) (x + y) (g * M) ((A + B) * M) := by
  refine h.snd (e := e + f) ⟨?_, ?_⟩ hM hT hg
  · rw [add_sub_add_comm, add_mul]
    exact (abs_add_le _ _).trans (add_le_add h1.err h2.err)
  · rw [add_mul]; exact (abs_add_le _ _).trans (add_le_add h1.bd h2.bd)

theorem ssub (h : Prec U T R) (h1 : Nb a x (e * M) (A * M)) (h2 : Nb b y (f * M) (B * M)) (hM : 0 ≤ M) (hT : T ≤ τ * M)
    (hg : e + f + U * (A + B + (e + f)) + τ ≤ g) : Nb (R (a - b)) (x - y) (g * M) ((A + B) * M) := by
  rw [sub_eq_add_neg, sub_eq_add_neg]
  exact h.sadd h1 h2.neg hM hT hg

theorem smul (h : Prec U T R) (h1 : Nb a x (e * M) (A * M)) (h2 : Nb b y (f * N) (B * N)) (hM : 0 ≤ M) (hN : 0 ≤ N)
    (hT : T ≤ τ * (M * N)) (hg : A * f + B * e + e * f + U * (A * B + (A * f + B * e + e * f)) + τ ≤ g) :
    Nb (R (a * b)) (x * y) (g * (M * N)) (A * B * (M * N)) := by
  refine h.snd (e := A * f + B * e + e * f) ⟨?_, ?_⟩ (mul_nonneg hM hN) hT hg
  · rw [show a * b - x * y = x * (b - y) + y * (a - x) + (a - x) * (b - y) by ring]
    refine (abs_add_le _ _).trans ?_
    have k1 : |x * (b - y)| ≤ A * M * (f * N) := by
      rw [abs_mul]; exact mul_le_mul h1.bd h2.err (abs_nonneg _) ((abs_nonneg _).trans h1.bd)
    have k2 : |y * (a - x)| ≤ B * N * (e * M) := by
      rw [abs_mul]; exact mul_le_mul h2.bd h1.err (abs_nonneg _) ((abs_nonneg _).trans h2.bd)
    have k3 : |(a - x) * (b - y)| ≤ e * M * (f * N) := by
      rw [abs_mul]; exact mul_le_mul h1.err h2.err (abs_nonneg _) ((abs_nonneg _).trans h1.err)
    have := abs_add_le (x * (b - y)) (y * (a - x))
    linarith
  · rw [abs_mul]
    refine (mul_le_mul h1.bd h2.bd (abs_nonneg _) ((abs_nonneg _).trans h1.bd)).trans (le_of_eq (by ring))

theorem sdiv (h : Prec U T R) (h1 : Nb a x (e * M) (A * M)) (h2 : Nb b y (f * N) (B * N)) (hM : 0 ≤ M) (hN : 0 < N) {m : ℝ} (hm0 : 0 < m) (hm : m * N ≤ |y|)
    (hf : f < m) (hA0 : 0 ≤ A) (hE0 : 0 ≤ E) (hC : A ≤ C * m) (hT : T ≤ τ * (M / N)) (hE : e + C * f ≤ E * (m - f)) (hg : E + U * (C + E) + τ ≤ g) :
    Nb (R (a / b)) (x / y) (g * (M / N)) (C * (M / N)) := by
  have hQ : 0 ≤ M / N := div_nonneg hM hN.le
  have hMQ : M = M / N * N := (div_mul_cancel₀ M hN.ne').symm
  have hy : 0 < |y| := (mul_pos hm0 hN).trans_le hm
  have hy0 : y ≠ 0 := abs_pos.1 hy
  have hC0 : 0 ≤ C := by
    by_contra hc; push Not at hc; nlinarith
  have hb : |x / y| ≤ C * (M / N) := by
    rw [abs_div, div_le_iff₀ hy]
    calc |x| ≤ A * M := h1.bd
      _ ≤ C * m * M := mul_le_mul_of_nonneg_right hC hM
      _ = C * (M / N) * (m * N) := by rw [hMQ]; field_simp
      _ ≤ _ := mul_le_mul_of_nonneg_left hm (mul_nonneg hC0 hQ)
  refine h.snd (e := E) ⟨?_, hb⟩ hQ hT hg
  have hb1 : (m - f) * N ≤ |b| := by
    have := abs_sub_abs_le_abs_sub y b
    rw [abs_sub_comm] at this
    have := h2.err
    linarith
  have hbp : 0 < |b| := (mul_pos (by linarith) hN).trans_le hb1
  have hb0 : b ≠ 0 := abs_pos.1 hbp
  have e1 : a / b - x / y = ((a - x) - x / y * (b - y)) / b := by field_simp; ring
  rw [e1, abs_div, div_le_iff₀ hbp]
  have k1 : |(a - x) - x / y * (b - y)| ≤ e * M + C * (M / N) * (f * N) := by
    refine (abs_sub _ _).trans (add_le_add h1.err ?_)
    rw [abs_mul]; exact mul_le_mul hb h2.err (abs_nonneg _) (mul_nonneg hC0 hQ)
  calc |(a - x) - x / y * (b - y)| ≤ e * M + C * (M / N) * (f * N) := k1
    _ = (e + C * f) * M := by rw [hMQ]; field_simp
    _ ≤ E * (m - f) * M := mul_le_mul_of_nonneg_right hE hM
    _ = E * (M / N) * ((m - f) * N) := by rw [hMQ]; field_simp
    _ ≤ E * (M / N) * |b| := mul_le_mul_of_nonneg_left hb1 (mul_nonneg hE0 hQ)

/-- A coarser unit. -/
theorem unit (h1 : Nb a x (e * M) (A * M)) (hMN : M ≤ N) (he : 0 ≤ e) (hA : 0 ≤ A) : Nb a x (e * N) (A * N) :=
  h1.mono (mul_le_mul_of_nonneg_left hMN he) (mul_le_mul_of_nonneg_left hMN hA)

end Prec
end Sla.Fp
