import Verif.Lemmas.FpNear
import Verif.Lemmas.FpCoords

/-
Running error bounds with magnitudes (`Nb`) for single precision, and angles: `Na a x e A` says that the computed `a` is within
`e` of the angle `x` up to full turns and is at most `A`.
-/
namespace Sla.Fp
open Real (pi)

namespace Single
variable {R : ℝ → ℝ} {a b x y e f g A B C : ℝ}

theorem nlit (hR : Single R) (h : |x| ≤ B) (hg : 6e-8 * B + 1e-40 ≤ g) : Nb (R x) x g B := ⟨hR.lit h hg, h⟩

theorem nadd (hR : Single R) (h1 : Nb a x e A) (h2 : Nb b y f B) (hC : A + B ≤ C)
    (hg : e + f + 6e-8 * (C + (e + f)) + 1e-40 ≤ g) : Nb (R (a + b)) (x + y) g C :=
  have hb : |x + y| ≤ C := (abs_add_le x y).trans ((add_le_add h1.bd h2.bd).trans hC)
  ⟨hR.add h1.err h2.err hb hg, hb⟩

theorem nsub (hR : Single R) (h1 : Nb a x e A) (h2 : Nb b y f B) (hC : A + B ≤ C)
    (hg : e + f + 6e-8 * (C + (e + f)) + 1e-40 ≤ g) : Nb (R (a - b)) (x - y) g C :=
  have hb : |x - y| ≤ C := (abs_sub x y).trans ((add_le_add h1.bd h2.bd).trans hC)
  ⟨hR.sub h1.err h2.err hb hg, hb⟩

theorem nmul (hR : Single R) (h1 : Nb a x e A) (h2 : Nb b y f B) (hC : A * B ≤ C)
    (hg : A * f + B * e + e * f + 6e-8 * (A * B + (A * f + B * e + e * f)) + 1e-40 ≤ g) : Nb (R (a * b)) (x * y) g C :=
  ⟨hR.mul h1.err h2.err h1.bd h2.bd hg, by
    rw [abs_mul]; exact (mul_le_mul h1.bd h2.bd (abs_nonneg _) ((abs_nonneg _).trans h1.bd)).trans hC⟩

theorem ndiv (hR : Single R) {m E : ℝ} (h1 : Nb a x e A) (h2 : Nb b y f B) (hm : m ≤ |y|) (hmf : f < m) (hC : A ≤ C * m)
    (hE : e + C * f ≤ E * (m - f)) (hg : E + 6e-8 * (C + E) + 1e-40 ≤ g) : Nb (R (a / b)) (x / y) g C := by
  have hm0 : 0 < m := ((abs_nonneg _).trans h2.err).trans_lt hmf
  have hC0 : 0 ≤ C := by
    by_contra hc
    push Not at hc
    have := ((abs_nonneg _).trans h1.bd).trans hC
    nlinarith
  have hQ : |x / y| ≤ C := by
    rw [abs_div, div_le_iff₀ (hm0.trans_le hm)]
    exact (h1.bd.trans hC).trans (mul_le_mul_of_nonneg_left hm hC0)
  exact ⟨hR.div h1.err h2.err hm hmf hQ hE hg, hQ⟩

/-- Division by a constant. -/
theorem ndivc (hR : Single R) {n : ℝ} (h1 : Nb a x e A) (hn : 0 < n) (hC : A ≤ C * n) (hg : e + 6e-8 * (A + e) + 1e-40 * n ≤ g * n) :
    Nb (R (a / n)) (x / n) g C := by
  have hQ : ∀ {z D : ℝ}, |z| ≤ D → |z / n| ≤ D / n := fun h => by
    rw [abs_div, abs_of_pos hn]; exact div_le_div_of_nonneg_right h hn.le
  refine ⟨hR.round (e := e / n) (B := A / n) (by rw [← sub_div]; exact hQ h1.err) (hQ h1.bd) ?_, (hQ h1.bd).trans (by rwa [div_le_iff₀ hn])⟩
  rw [← mul_le_mul_iff_left₀ hn]
  have e1 : e / n * n = e := div_mul_cancel₀ _ hn.ne'
  have e2 : A / n * n = A := div_mul_cancel₀ _ hn.ne'
  have : (e / n + 6e-8 * (A / n + e / n) + 1e-40) * n = e / n * n + 6e-8 * (A / n * n + e / n * n) + 1e-40 * n := by ring
  rw [this, e1, e2]
  exact hg

end Single

theorem Single.nround {R : ℝ → ℝ} {a x e g B C : ℝ} (hR : Single R) (h : Nb a x e B) (hC : B ≤ C) (hg : e + 6e-8 * (B + e) + 1e-40 ≤ g) :
    Nb (R a) x g C := ⟨hR.round h.err h.bd hg, h.bd.trans hC⟩

theorem Dbl.nround {R : ℝ → ℝ} {a x e g B C : ℝ} (hR : Dbl R) (h : Nb a x e B) (hC : B ≤ C) (hg : e + 1.2e-16 * (B + e) + 1e-200 ≤ g) :
    Nb (R a) x g C := ⟨hR.round h.err h.bd hg, h.bd.trans hC⟩

theorem Nb.sqrt {a x e g : ℝ} (h : Nb a x e 1) (hx : 0.5 ≤ x) (ha : 0.5 ≤ a) (hg : e ≤ g) : Nb (Real.sqrt a) (Real.sqrt x) g 1 := by
  have hx1 : x ≤ 1 := (le_abs_self x).trans h.bd
  have s1 : 0.5 ≤ Real.sqrt a := Real.le_sqrt_of_sq_le (by norm_num at *; linarith)
  have s2 : 0.5 ≤ Real.sqrt x := Real.le_sqrt_of_sq_le (by norm_num at *; linarith)
  refine ⟨?_, by rw [abs_of_nonneg (Real.sqrt_nonneg _)]; exact Real.sqrt_le_one.2 hx1⟩
  have e1 : (Real.sqrt a - Real.sqrt x) * (Real.sqrt a + Real.sqrt x) = a - x := by
    have := Real.sq_sqrt (show 0 ≤ a by linarith)
    have := Real.sq_sqrt (show 0 ≤ x by linarith)
    ring_nf; linarith
  have h1 := h.err
  rw [← e1, abs_mul, abs_of_nonneg (show 0 ≤ Real.sqrt a + Real.sqrt x by linarith)] at h1
  have := abs_nonneg (Real.sqrt a - Real.sqrt x)
  nlinarith

/-- Angles up to full turns. -/
structure Na (a x e A : ℝ) : Prop where
  err : ∃ n : ℤ, |a - (x + n * (2 * pi))| ≤ e
  bd : |a| ≤ A

namespace Na
variable {R : ℝ → ℝ} {a b x y e f g A B C : ℝ}

theorem of_nb (h : Nb a x e B) (hA : B + e ≤ A) : Na a x e A := by
  refine ⟨⟨0, by simpa using h.err⟩, ?_⟩
  have := abs_add_le x (a - x)
  rw [add_sub_cancel] at this
  linarith [h.err, h.bd]

theorem mono (h : Na a x e A) (hg : e ≤ g) (hC : A ≤ C) : Na a x g C := by
  obtain ⟨⟨n, hn⟩, h2⟩ := h
  exact ⟨⟨n, hn.trans hg⟩, h2.trans hC⟩

theorem add (h1 : Na a x e A) (h2 : Na b y f B) : Na (a + b) (x + y) (e + f) (A + B) := by
  obtain ⟨⟨n, hn⟩, h1⟩ := h1
  obtain ⟨⟨m, hm⟩, h2⟩ := h2
  refine ⟨⟨n + m, ?_⟩, (abs_add_le a b).trans (add_le_add h1 h2)⟩
  have : a + b - (x + y + ((n + m : ℤ) : ℝ) * (2 * pi)) = (a - (x + n * (2 * pi))) + (b - (y + m * (2 * pi))) := by
    push_cast; ring
  rw [this]
  exact (abs_add_le _ _).trans (add_le_add hn hm)

theorem neg (h : Na a x e A) : Na (-a) (-x) e A := by
  obtain ⟨⟨n, hn⟩, h2⟩ := h
  refine ⟨⟨-n, ?_⟩, by rwa [abs_neg]⟩
  have : -a - (-x + ((-n : ℤ) : ℝ) * (2 * pi)) = -(a - (x + n * (2 * pi))) := by push_cast; ring
  rw [this, abs_neg]
  exact hn

theorem sub (h1 : Na a x e A) (h2 : Na b y f B) : Na (a - b) (x - y) (e + f) (A + B) := by
  rw [sub_eq_add_neg, sub_eq_add_neg]; exact h1.add h2.neg

theorem sin {sn : ℝ → ℝ} {ε : ℝ} (hs : ∀ x, |sn x - Real.sin x| ≤ ε) (h : Na a x e A) (hg : ε + e ≤ g) :
    Nb (sn a) (Real.sin x) g 1 := by
  obtain ⟨⟨n, hn⟩, -⟩ := h
  have := (sin_err hs hn).trans hg
  rw [Real.sin_add_int_mul_two_pi] at this
  exact ⟨this, Real.abs_sin_le_one x⟩

theorem cos {cs : ℝ → ℝ} {ε : ℝ} (hc : ∀ x, |cs x - Real.cos x| ≤ ε) (h : Na a x e A) (hg : ε + e ≤ g) :
    Nb (cs a) (Real.cos x) g 1 := by
  obtain ⟨⟨n, hn⟩, -⟩ := h
  have := (cos_err hc hn).trans hg
  rw [Real.cos_add_int_mul_two_pi] at this
  exact ⟨this, Real.abs_cos_le_one x⟩

/-- Rounding to single precision. -/
theorem single (hR : Single R) (h : Na a x e A) (hg : e + 6e-8 * A + 1e-40 ≤ g) (hC : A + 6e-8 * A + 1e-40 ≤ C) :
    Na (R a) x g C := by
  obtain ⟨⟨n, hn⟩, h2⟩ := h
  have h1 := hR a
  refine ⟨⟨n, ?_⟩, ?_⟩
  · have := abs_add_le (R a - a) (a - (x + n * (2 * pi)))
    rw [sub_add_sub_cancel] at this
    linarith
  · have := abs_add_le (R a - a) a
    rw [sub_add_cancel] at this
    linarith

/-- Rounding to double precision. -/
theorem dbl (hR : Dbl R) (h : Na a x e A) (hg : e + 1.2e-16 * A + 1e-200 ≤ g) (hC : A + 1.2e-16 * A + 1e-200 ≤ C) :
    Na (R a) x g C := by
  obtain ⟨⟨n, hn⟩, h2⟩ := h
  have h1 := hR a
  refine ⟨⟨n, ?_⟩, ?_⟩
  · have := abs_add_le (R a - a) (a - (x + n * (2 * pi)))
    rw [sub_add_sub_cancel] at this
    linarith
  · have := abs_add_le (R a - a) a
    rw [sub_add_cancel] at this
    linarith

/-- The remainder by an approximation of a full turn. -/
theorem fmod {q δ : ℝ} (h : Na a x e A) (hq : |q - 2 * pi| ≤ δ) (hq6 : 6 ≤ q) (hq' : q ≤ C) (hg : 6 * e + A * δ ≤ 6 * g) :
    Na (cfmod a q) x g C := by
  obtain ⟨⟨n, hn⟩, h2⟩ := h
  have hq0 : 0 < q := by linarith
  refine ⟨⟨n - ctrunc (a / q), ?_⟩, ?_⟩
  · have e1 : cfmod a q - (x + ((n - ctrunc (a / q) : ℤ) : ℝ) * (2 * pi)) =
        (a - (x + n * (2 * pi))) + -((q - 2 * pi) * ctrunc (a / q)) := by
      unfold cfmod; push_cast; ring
    rw [e1]
    have h3 := abs_ctrunc_le (a / q)
    have h4 : |a / q| ≤ A / 6 := by
      rw [abs_div, abs_of_pos hq0]
      exact div_le_div₀ ((abs_nonneg _).trans h2) h2 (by norm_num) hq6
    have h5 : |(q - 2 * pi) * (ctrunc (a / q) : ℝ)| ≤ δ * (A / 6) := by
      rw [abs_mul]
      exact mul_le_mul hq (h3.trans h4) (abs_nonneg _) ((abs_nonneg _).trans hq)
    have h6 := abs_add_le (a - (x + n * (2 * pi))) (-((q - 2 * pi) * (ctrunc (a / q) : ℝ)))
    rw [abs_neg] at h6
    linarith
  · exact (abs_cfmod a q hq0).2.le.trans hq'

end Na

end Sla.Fp
