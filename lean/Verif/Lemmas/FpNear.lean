import Verif.Lemmas.FpErr64

/-
Errors and magnitudes kept together: `Nb a x e B` says that the computed `a` is within `e` of `x` and `x` is at most `B`.
-/
namespace Sla.Fp

structure Nb (a x e B : ℝ) : Prop where
  err : |a - x| ≤ e
  bd : |x| ≤ B

namespace Nb
variable {a b x y e f g A B C : ℝ}

theorem mono (h : Nb a x e A) (hg : e ≤ g) (hC : A ≤ C) : Nb a x g C := ⟨h.err.trans hg, h.bd.trans hC⟩

theorem neg (h : Nb a x e A) : Nb (-a) (-x) e A :=
  ⟨by rw [neg_sub_neg, abs_sub_comm]; exact h.err, by rw [abs_neg]; exact h.bd⟩

theorem self (h : |x| ≤ B) : Nb x x 0 B := ⟨by simp, h⟩

theorem sin {sn : ℝ → ℝ} {ε : ℝ} (hs : ∀ x, |sn x - Real.sin x| ≤ ε) (h : Nb a x e A) (hg : ε + e ≤ g) :
    Nb (sn a) (Real.sin x) g 1 := ⟨(sin_err hs h.err).trans hg, Real.abs_sin_le_one x⟩

theorem cos {cs : ℝ → ℝ} {ε : ℝ} (hc : ∀ x, |cs x - Real.cos x| ≤ ε) (h : Nb a x e A) (hg : ε + e ≤ g) :
    Nb (cs a) (Real.cos x) g 1 := ⟨(cos_err hc h.err).trans hg, Real.abs_cos_le_one x⟩

end Nb

namespace Dbl
variable {R : ℝ → ℝ} {a b x y e f g A B C : ℝ}

theorem nlit (hR : Dbl R) (h : |x| ≤ B) (hg : 1.2e-16 * B + 1e-200 ≤ g) : Nb (R x) x g B := ⟨hR.lit h hg, h⟩

theorem nadd (hR : Dbl R) (h1 : Nb a x e A) (h2 : Nb b y f B) (hC : A + B ≤ C)
    (hg : e + f + 1.2e-16 * (C + (e + f)) + 1e-200 ≤ g) : Nb (R (a + b)) (x + y) g C :=
  have hb : |x + y| ≤ C := (abs_add_le x y).trans ((add_le_add h1.bd h2.bd).trans hC)
  ⟨hR.add h1.err h2.err hb hg, hb⟩

theorem nsub (hR : Dbl R) (h1 : Nb a x e A) (h2 : Nb b y f B) (hC : A + B ≤ C)
    (hg : e + f + 1.2e-16 * (C + (e + f)) + 1e-200 ≤ g) : Nb (R (a - b)) (x - y) g C :=
  have hb : |x - y| ≤ C := (abs_sub x y).trans ((add_le_add h1.bd h2.bd).trans hC)
  ⟨hR.sub h1.err h2.err hb hg, hb⟩

theorem nmul (hR : Dbl R) (h1 : Nb a x e A) (h2 : Nb b y f B) (hC : A * B ≤ C)
    (hg : A * f + B * e + e * f + 1.2e-16 * (A * B + (A * f + B * e + e * f)) + 1e-200 ≤ g) : Nb (R (a * b)) (x * y) g C :=
  ⟨hR.mul h1.err h2.err h1.bd h2.bd hg, by
    rw [abs_mul]; exact (mul_le_mul h1.bd h2.bd (abs_nonneg _) ((abs_nonneg _).trans h1.bd)).trans hC⟩

theorem ndiv (hR : Dbl R) {m E : ℝ} (h1 : Nb a x e A) (h2 : Nb b y f B) (hm : m ≤ |y|) (hmf : f < m) (hC : A ≤ C * m)
    (hE : e + C * f ≤ E * (m - f)) (hg : E + 1.2e-16 * (C + E) + 1e-200 ≤ g) : Nb (R (a / b)) (x / y) g C := by
  have hm0 : 0 < m := ((abs_nonneg _).trans h2.err).trans_lt hmf
  have hC0 : 0 ≤ C := by
    by_contra hc
    push Not at hc
    have := ((abs_nonneg _).trans h1.bd).trans hC
    nlinarith
  have hQ : |x / y| ≤ C := by
    rw [abs_div, div_le_iff₀ (hm0.trans_le hm)]
    exact (h1.bd.trans hC).trans (mul_le_mul_of_nonneg_left hm hC0)
  exact ⟨hR.div h1.err h2.err hm hmf hQ hE hg, hQ⟩

/-- Division by a constant. -/
theorem ndivc (hR : Dbl R) {n : ℝ} (h1 : Nb a x e A) (hn : 0 < n) (hC : A ≤ C * n) (hg : e + 1.2e-16 * (A + e) + 1e-200 * n ≤ g * n) :
    Nb (R (a / n)) (x / n) g C := by
  have hQ : ∀ {z D : ℝ}, |z| ≤ D → |z / n| ≤ D / n := fun h => by
    rw [abs_div, abs_of_pos hn]; exact div_le_div_of_nonneg_right h hn.le
  refine ⟨hR.round (e := e / n) (B := A / n) (by rw [← sub_div]; exact hQ h1.err) (hQ h1.bd) ?_, (hQ h1.bd).trans (by rwa [div_le_iff₀ hn])⟩
  rw [← mul_le_mul_iff_left₀ hn]
  have e1 : e / n * n = e := div_mul_cancel₀ _ hn.ne'
  have e2 : A / n * n = A := div_mul_cancel₀ _ hn.ne'
  have : (e / n + 1.2e-16 * (A / n + e / n) + 1e-200) * n = e / n * n + 1.2e-16 * (A / n * n + e / n * n) + 1e-200 * n := by ring
  rw [this, e1, e2]
  exact hg

end Dbl
end Sla.Fp
