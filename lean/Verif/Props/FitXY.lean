import Verif.Model.FitXY
import Verif.Spec.LeastSquares
import Verif.Props.Linear
import Verif.Props.Fit
import Mathlib.Algebra.BigOperators.Fin
import Mathlib.Algebra.Order.BigOperators.Group.Finset
import Mathlib.Tactic.LinearCombination
import Mathlib.Tactic.Linarith

/-
C40-C42: `fitxy` and `pxy`.
-/
namespace Sla.Props
open Matrix Sla Sla.Spec

variable {n : ℕ}

/-- The coefficients returned by the code as a plane model. -/
def planeModel (m : FitCoeffs) : PlaneModel := ⟨m.a, m.b, m.c, m.d, m.e, m.f⟩

/-- The sum of squared residuals of a set of samples. -/
noncomputable def ssr (s : Fin n → XYSample) (m : PlaneModel) : ℝ :=
  sumSquares (fun i => (s i).xe) (fun i => (s i).ye) (fun i => (s i).xm) (fun i => (s i).ym) m

theorem foldl_add_finRange (f : Fin n → ℝ) : (List.finRange n).foldl (fun acc i => acc + f i) 0 = ∑ i, f i := by
  have key : ∀ (l : List (Fin n)) (x : ℝ), l.foldl (fun acc i => acc + f i) x = x + (l.map f).sum := by
    intro l
    induction l with
    | nil => simp
    | cons a l ih => intro x; rw [List.foldl_cons, ih, List.map_cons, List.sum_cons, add_assoc]
  rw [key, zero_add, Fin.sum_univ_def]

theorem accumulate_eq (s : Fin n → XYSample) (f : XYSample → ℝ) : accumulate s f = ∑ i, f (s i) :=
  foldl_add_finRange fun i => f (s i)

theorem fitSdr2_eq (s : Fin n → XYSample) (g a b c d : ℝ) : fitSdr2 s g a b c d =
    ∑ i, ((a + b * (s i).xm - c * (s i).ym - (s i).xe * g) ^ 2 + (d + c * (s i).xm + b * (s i).ym - (s i).ye) ^ 2) := by
  unfold fitSdr2
  rw [← foldl_add_finRange]
  congr 1
  funext acc i
  ring

/-- Orthogonality of the residuals makes a model optimal. -/
theorem optimal_of_orthogonal (u v : Fin n → ℝ) (du dv : Fin n → ℝ) (h : ∑ i, (u i * du i + v i * dv i) = 0) :
    ∑ i, ((u i + du i) ^ 2 + (v i + dv i) ^ 2) = ∑ i, (u i ^ 2 + v i ^ 2) + ∑ i, (du i ^ 2 + dv i ^ 2) := by
  have : ∀ i, (u i + du i) ^ 2 + (v i + dv i) ^ 2 =
      (u i ^ 2 + v i ^ 2) + 2 * (u i * du i + v i * dv i) + (du i ^ 2 + dv i ^ 2) := fun i => by ring
  simp only [this, Finset.sum_add_distrib, ← Finset.mul_sum]
  have h' : ∑ i, u i * du i + ∑ i, v i * dv i = 0 := by rw [← Finset.sum_add_distrib]; exact h
  linear_combination 2 * h'

/-! ### Six coefficients -/

/-- What the branch computes: the normal equations hold. -/
theorem fitxySix_normal (s : Fin n → XYSample) (ws : Fin 3 → ℤ) (model m : FitCoeffs)
    (h : fitxySix s ws model = some (.ok, m)) :
    fitMat3 s *ᵥ ![m.a, m.b, m.c] =
      ![accumulate s (·.xe), accumulate s (fun p => p.xe * p.xm), accumulate s (fun p => p.xe * p.ym)] ∧
    fitMat3 s *ᵥ ![m.d, m.e, m.f] =
      ![accumulate s (·.ye), accumulate s (fun p => p.ye * p.xm), accumulate s (fun p => p.ye * p.ym)] ∧
    (fitMat3 s).det ≠ 0 := by
  unfold fitxySix at h
  by_cases hn : n ≥ 3
  swap
  · rw [if_neg hn] at h; simp at h
  rw [if_pos hn] at h
  dsimp only at h
  obtain ⟨r, hr, -, h2⟩ := C43_dmat (fitMat3 s)
    ![accumulate s (·.xe), accumulate s (fun p => p.xe * p.xm), accumulate s (fun p => p.xe * p.ym)] ws
  rw [hr, Option.map_some, Option.some.injEq] at h
  by_cases hs : r.singular = false
  swap
  · rw [if_neg hs] at h; simp at h
  rw [if_pos hs, Prod.mk.injEq] at h
  obtain ⟨-, h⟩ := h
  obtain ⟨-, hinv, -, hdet, hsol⟩ := h2 hs
  have e1 : (![r.vec 0, r.vec 1, r.vec 2] : Fin 3 → ℝ) = r.vec := by
    funext i; fin_cases i <;> rfl
  subst h
  refine ⟨?_, ?_, hdet⟩
  · exact (hsol _).2 e1
  · dsimp only
    have e2 : ∀ y : Fin 3 → ℝ, (![y 0, y 1, y 2] : Fin 3 → ℝ) = y := by
      intro y; funext i; fin_cases i <;> rfl
    rw [e2, Matrix.mulVec_mulVec, hinv, Matrix.one_mulVec]

theorem normal3 (s : Fin n → XYSample) (a b c : ℝ) (t : XYSample → ℝ)
    (h : fitMat3 s *ᵥ ![a, b, c] =
      ![accumulate s t, accumulate s (fun p => t p * p.xm), accumulate s (fun p => t p * p.ym)]) (α β γ : ℝ) :
    ∑ i, (a + b * (s i).xm + c * (s i).ym - t (s i)) * (α + β * (s i).xm + γ * (s i).ym) = 0 := by
  have h0 := congrFun h 0
  have h1 := congrFun h 1
  have h2 := congrFun h 2
  simp only [fitMat3, accumulate_eq, Matrix.mulVec, dotProduct, Fin.sum_univ_three] at h0 h1 h2
  simp at h0 h1 h2
  have e : ∀ i, (a + b * (s i).xm + c * (s i).ym - t (s i)) * (α + β * (s i).xm + γ * (s i).ym) =
      α * (a * 1 + (s i).xm * b + (s i).ym * c - t (s i)) +
      β * ((s i).xm * a + (s i).xm * (s i).xm * b + (s i).xm * (s i).ym * c - t (s i) * (s i).xm) +
      γ * ((s i).ym * a + (s i).xm * (s i).ym * b + (s i).ym * (s i).ym * c - t (s i) * (s i).ym) := fun i => by ring
  rw [Finset.sum_congr rfl fun i _ => e i]
  simp only [Finset.sum_add_distrib, ← Finset.mul_sum, Finset.sum_sub_distrib, ← Finset.sum_mul, Finset.sum_const,
    Finset.card_univ, Fintype.card_fin, nsmul_eq_mul, mul_one]
  linear_combination α * h0 + β * h1 + γ * h2

/-- The Gram matrix is positive definite when regular. -/
theorem gram3_kernel (s : Fin n → XYSample) (hd : (fitMat3 s).det ≠ 0) (α β γ : ℝ)
    (h : ∀ i, α + β * (s i).xm + γ * (s i).ym = 0) : α = 0 ∧ β = 0 ∧ γ = 0 := by
  have hz : fitMat3 s *ᵥ ![α, β, γ] = 0 := by
    funext j
    simp only [fitMat3, accumulate_eq, Matrix.mulVec, dotProduct, Fin.sum_univ_three]
    have e0 : ∑ i, (α + β * (s i).xm + γ * (s i).ym) = 0 := Finset.sum_eq_zero fun i _ => h i
    have e1 : ∑ i, (s i).xm * (α + β * (s i).xm + γ * (s i).ym) = 0 := Finset.sum_eq_zero fun i _ => by rw [h i, mul_zero]
    have e2 : ∑ i, (s i).ym * (α + β * (s i).xm + γ * (s i).ym) = 0 := Finset.sum_eq_zero fun i _ => by rw [h i, mul_zero]
    have f1 : ∀ i, (s i).xm * (α + β * (s i).xm + γ * (s i).ym) =
      α * (s i).xm + β * ((s i).xm * (s i).xm) + γ * ((s i).xm * (s i).ym) := fun i => by ring
    have f2 : ∀ i, (s i).ym * (α + β * (s i).xm + γ * (s i).ym) =
      α * (s i).ym + β * ((s i).xm * (s i).ym) + γ * ((s i).ym * (s i).ym) := fun i => by ring
    simp only [f1, f2, Finset.sum_add_distrib, ← Finset.mul_sum, Finset.sum_const, Finset.card_univ, Fintype.card_fin,
      nsmul_eq_mul] at e0 e1 e2
    fin_cases j <;> simp <;> linarith
  by_contra hne
  have : ∃ v ≠ 0, fitMat3 s *ᵥ v = 0 := by
    refine ⟨_, ?_, hz⟩
    intro e
    exact hne ⟨by simpa using congrFun e 0, by simpa using congrFun e 1, by simpa using congrFun e 2⟩
  exact hd (Matrix.exists_mulVec_eq_zero_iff.1 this)

/-- C40: when the six-coefficient fit succeeds, its model has the least sum of squared residuals of all linear models, and
    every other model has a strictly larger one. -/
theorem C40_optimum (s : Fin n → XYSample) (ws : Fin 3 → ℤ) (model m : FitCoeffs)
    (h : fitxySix s ws model = some (.ok, m)) (m' : PlaneModel) (hne : m' ≠ planeModel m) :
    ssr s (planeModel m) < ssr s m' := by
  obtain ⟨h1, h2, hd⟩ := fitxySix_normal s ws model m h
  have n1 := normal3 s m.a m.b m.c (·.xe) h1 (m'.a - m.a) (m'.b - m.b) (m'.c - m.c)
  have n2 := normal3 s m.d m.e m.f (·.ye) h2 (m'.d - m.d) (m'.e - m.e) (m'.f - m.f)
  have key := optimal_of_orthogonal (fun i => m.a + m.b * (s i).xm + m.c * (s i).ym - (s i).xe)
    (fun i => m.d + m.e * (s i).xm + m.f * (s i).ym - (s i).ye)
    (fun i => (m'.a - m.a) + (m'.b - m.b) * (s i).xm + (m'.c - m.c) * (s i).ym)
    (fun i => (m'.d - m.d) + (m'.e - m.e) * (s i).xm + (m'.f - m.f) * (s i).ym)
    (by rw [Finset.sum_add_distrib, n1, n2, add_zero])
  have e : ssr s m' = ssr s (planeModel m) +
      ∑ i, (((m'.a - m.a) + (m'.b - m.b) * (s i).xm + (m'.c - m.c) * (s i).ym) ^ 2 +
        ((m'.d - m.d) + (m'.e - m.e) * (s i).xm + (m'.f - m.f) * (s i).ym) ^ 2) := by
    unfold ssr sumSquares planeModel
    rw [← key]
    apply Finset.sum_congr rfl
    intro i _
    ring
  rw [e]
  have hnn : ∀ i ∈ Finset.univ, 0 ≤ (((m'.a - m.a) + (m'.b - m.b) * (s i).xm + (m'.c - m.c) * (s i).ym) ^ 2 +
        ((m'.d - m.d) + (m'.e - m.e) * (s i).xm + (m'.f - m.f) * (s i).ym) ^ 2) := fun i _ => by positivity
  have hpos : 0 < ∑ i, (((m'.a - m.a) + (m'.b - m.b) * (s i).xm + (m'.c - m.c) * (s i).ym) ^ 2 +
        ((m'.d - m.d) + (m'.e - m.e) * (s i).xm + (m'.f - m.f) * (s i).ym) ^ 2) := by
    refine lt_of_le_of_ne (Finset.sum_nonneg hnn) (Ne.symm fun h0 => hne ?_)
    rw [Finset.sum_eq_zero_iff_of_nonneg hnn] at h0
    have hu : ∀ i, (m'.a - m.a) + (m'.b - m.b) * (s i).xm + (m'.c - m.c) * (s i).ym = 0 ∧
        (m'.d - m.d) + (m'.e - m.e) * (s i).xm + (m'.f - m.f) * (s i).ym = 0 := by
      intro i
      have := h0 i (Finset.mem_univ i)
      constructor <;> nlinarith [sq_nonneg ((m'.a - m.a) + (m'.b - m.b) * (s i).xm + (m'.c - m.c) * (s i).ym),
        sq_nonneg ((m'.d - m.d) + (m'.e - m.e) * (s i).xm + (m'.f - m.f) * (s i).ym)]
    obtain ⟨k1, k2, k3⟩ := gram3_kernel s hd _ _ _ fun i => (hu i).1
    obtain ⟨k4, k5, k6⟩ := gram3_kernel s hd _ _ _ fun i => (hu i).2
    cases m'
    simp only [planeModel, PlaneModel.mk.injEq]
    simp only at k1 k2 k3 k4 k5 k6
    refine ⟨?_, ?_, ?_, ?_, ?_, ?_⟩ <;> linarith
  linarith

/-- C40: status.  The call is free of undefined behaviour; fewer than three samples are reported as insufficient and the
    model is untouched; measured points on one straight line are reported as having no solution. -/
theorem C40_status (s : Fin n → XYSample) (ws : Fin 3 → ℤ) (model : FitCoeffs) :
    (∃ r, fitxySix s ws model = some r ∧ (r.1 = .insufficient ↔ n < 3) ∧ (r.1 ≠ .ok → r.2 = model)) ∧
    ((∃ α β γ : ℝ, (α ≠ 0 ∨ β ≠ 0 ∨ γ ≠ 0) ∧ ∀ i, α + β * (s i).xm + γ * (s i).ym = 0) → n ≥ 3 →
      fitxySix s ws model = some (.none, model)) := by
  by_cases hn : n ≥ 3
  swap
  · refine ⟨⟨(.insufficient, model), by unfold fitxySix; rw [if_neg hn], ?_, fun _ => rfl⟩, fun _ h => absurd h hn⟩
    simp; omega
  obtain ⟨r, hr, -, h2⟩ := C43_dmat (fitMat3 s)
    ![accumulate s (·.xe), accumulate s (fun p => p.xe * p.xm), accumulate s (fun p => p.xe * p.ym)] ws
  constructor
  · unfold fitxySix
    rw [if_pos hn]
    dsimp only
    rw [hr, Option.map_some]
    refine ⟨_, rfl, ?_, ?_⟩
    · split_ifs <;> simp <;> omega
    · split_ifs <;> simp
  · rintro ⟨α, β, γ, hne, h⟩ -
    unfold fitxySix
    rw [if_pos hn]
    dsimp only
    rw [hr, Option.map_some]
    have : ¬ r.singular = false := by
      intro hs
      obtain ⟨k1, k2, k3⟩ := gram3_kernel s (h2 hs).2.2.2.1 α β γ h
      simp [k1, k2, k3] at hne
    rw [if_neg this]

/-! ### Four coefficients -/

/-- The two families of solid-body models. -/
theorem solidBody_iff (m : PlaneModel) :
    SolidBody m ↔ (m.f = m.b ∧ m.c = -m.e) ∨ (m.f = -m.b ∧ m.c = m.e) := by
  unfold SolidBody
  constructor
  · rintro ⟨h1, h2⟩
    -- (f - b)(f + b) = (e - c)(e + c) and b c = - e f
    have h3 : (m.f ^ 2 - m.b ^ 2) * (m.b ^ 2 + m.e ^ 2) = 0 := by
      have : m.b * m.c = -(m.e * m.f) := by linarith
      have h5 : m.b ^ 2 * m.c ^ 2 = m.e ^ 2 * m.f ^ 2 := by
        calc m.b ^ 2 * m.c ^ 2 = (m.b * m.c) ^ 2 := by ring
          _ = (m.e * m.f) ^ 2 := by rw [this]; ring
          _ = _ := by ring
      nlinarith
    rcases mul_eq_zero.1 h3 with h | h
    · have hc : m.c ^ 2 = m.e ^ 2 := by linarith
      rcases sq_eq_sq_iff_eq_or_eq_neg.1 (by linarith : m.f ^ 2 = m.b ^ 2) with hf | hf
      · rw [hf] at h2
        by_cases hb : m.b = 0
        · rcases sq_eq_sq_iff_eq_or_eq_neg.1 hc with h6 | h6
          · exact Or.inr ⟨by rw [hf, hb]; simp, h6⟩
          · exact Or.inl ⟨hf, h6⟩
        · refine Or.inl ⟨hf, ?_⟩
          have : m.b * (m.c + m.e) = 0 := by linarith
          have := (mul_eq_zero.1 this).resolve_left hb
          linarith
      · rw [hf] at h2
        by_cases hb : m.b = 0
        · rcases sq_eq_sq_iff_eq_or_eq_neg.1 hc with h6 | h6
          · exact Or.inr ⟨hf, h6⟩
          · exact Or.inl ⟨by rw [hf, hb]; simp, h6⟩
        · refine Or.inr ⟨hf, ?_⟩
          have : m.b * (m.c - m.e) = 0 := by linarith
          have := (mul_eq_zero.1 this).resolve_left hb
          linarith
    · have hb : m.b = 0 := by nlinarith [sq_nonneg m.b, sq_nonneg m.e]
      have he : m.e = 0 := by nlinarith [sq_nonneg m.b, sq_nonneg m.e]
      rw [hb, he] at h1
      have hc : m.c = 0 := by nlinarith [sq_nonneg m.c, sq_nonneg m.f]
      have hf : m.f = 0 := by nlinarith [sq_nonneg m.c, sq_nonneg m.f]
      left; rw [hb, he, hc, hf]; simp
  · rintro (⟨h1, h2⟩ | ⟨h1, h2⟩)
    · rw [h1, h2]; constructor <;> ring
    · rw [h1, h2]; constructor <;> ring

theorem det4 (N x y t : ℝ) : (!![N, x, -y, 0; x, t, 0, y; y, 0, -t, -x; 0, y, x, N] : NMat 4).det =
    -(N * t - x ^ 2 - y ^ 2) ^ 2 := by
  rw [Matrix.det_succ_row_zero]
  simp [Fin.sum_univ_succ, Matrix.det_fin_three, Matrix.submatrix_apply, Fin.succAbove]
  ring

/-- Optimality of one pass within its family. -/
theorem pass_optimal (s : Fin n → XYSample) (g a b c d : ℝ) (h : fitMat4 s *ᵥ ![a, b, c, d] = fitVec4 s g)
    (a' b' c' d' : ℝ) : fitSdr2 s g a b c d ≤ fitSdr2 s g a' b' c' d' := by
  have h0 := congrFun h 0
  have h1 := congrFun h 1
  have h2 := congrFun h 2
  have h3 := congrFun h 3
  simp only [fitMat4, fitVec4, accumulate_eq, Matrix.mulVec, dotProduct, Fin.sum_univ_four] at h0 h1 h2 h3
  simp at h0 h1 h2 h3
  have key := optimal_of_orthogonal (fun i => a + b * (s i).xm - c * (s i).ym - (s i).xe * g)
    (fun i => d + c * (s i).xm + b * (s i).ym - (s i).ye)
    (fun i => (a' - a) + (b' - b) * (s i).xm - (c' - c) * (s i).ym)
    (fun i => (d' - d) + (c' - c) * (s i).xm + (b' - b) * (s i).ym) (by
      have e : ∀ i, (a + b * (s i).xm - c * (s i).ym - (s i).xe * g) * ((a' - a) + (b' - b) * (s i).xm - (c' - c) * (s i).ym) +
          (d + c * (s i).xm + b * (s i).ym - (s i).ye) * ((d' - d) + (c' - c) * (s i).xm + (b' - b) * (s i).ym) =
          (a' - a) * (a * 1 + (s i).xm * b - (s i).ym * c - (s i).xe * g) +
          (b' - b) * ((s i).xm * a + ((s i).xm * (s i).xm + (s i).ym * (s i).ym) * b + (s i).ym * d -
            ((s i).xe * g * (s i).xm + (s i).ye * (s i).ym)) -
          (c' - c) * ((s i).ym * a - ((s i).xm * (s i).xm + (s i).ym * (s i).ym) * c - (s i).xm * d -
            ((s i).xe * g * (s i).ym - (s i).ye * (s i).xm)) +
          (d' - d) * ((s i).ym * b + (s i).xm * c + d * 1 - (s i).ye) := fun i => by ring
      rw [Finset.sum_congr rfl fun i _ => e i]
      simp only [Finset.sum_add_distrib, ← Finset.mul_sum, Finset.sum_sub_distrib, ← Finset.sum_mul, Finset.sum_const,
        Finset.card_univ, Fintype.card_fin, nsmul_eq_mul, mul_one] at h0 h1 h2 h3 ⊢
      linear_combination (a' - a) * h0 + (b' - b) * h1 - (c' - c) * h2 + (d' - d) * h3)
  rw [fitSdr2_eq, fitSdr2_eq]
  have e : ∑ i, ((a' + b' * (s i).xm - c' * (s i).ym - (s i).xe * g) ^ 2 + (d' + c' * (s i).xm + b' * (s i).ym - (s i).ye) ^ 2) =
      ∑ i, ((a + b * (s i).xm - c * (s i).ym - (s i).xe * g + ((a' - a) + (b' - b) * (s i).xm - (c' - c) * (s i).ym)) ^ 2 +
      (d + c * (s i).xm + b * (s i).ym - (s i).ye + ((d' - d) + (c' - c) * (s i).xm + (b' - b) * (s i).ym)) ^ 2) := by
    apply Finset.sum_congr rfl; intro i _; ring
  rw [e, key]
  have : 0 ≤ ∑ i, (((a' - a) + (b' - b) * (s i).xm - (c' - c) * (s i).ym) ^ 2 +
      ((d' - d) + (c' - c) * (s i).xm + (b' - b) * (s i).ym) ^ 2) := Finset.sum_nonneg fun i _ => by positivity
  linarith

theorem ssr_direct (s : Fin n → XYSample) (a b c d : ℝ) : ssr s ⟨a, b, -c, d, c, b⟩ = fitSdr2 s 1 a b c d := by
  rw [fitSdr2_eq]
  unfold ssr sumSquares
  apply Finset.sum_congr rfl; intro i _; ring

theorem ssr_flipped (s : Fin n → XYSample) (a b c d : ℝ) : ssr s ⟨-a, -b, c, d, c, b⟩ = fitSdr2 s (-1) a b c d := by
  rw [fitSdr2_eq]
  unfold ssr sumSquares
  apply Finset.sum_congr rfl; intro i _; ring

theorem fitSdr2_nonneg (s : Fin n → XYSample) (g a b c d : ℝ) : 0 ≤ fitSdr2 s g a b c d := by
  rw [fitSdr2_eq]
  exact Finset.sum_nonneg fun i _ => by positivity

/-- The branch in closed form. -/
theorem fitxyFour_cases (s : Fin n → XYSample) (ws ws' : Fin 4 → ℤ) (junk : ℝ) (model : FitCoeffs) (hn : n ≥ 2) :
    ((fitMat4 s).det ≠ 0 ∧ ∃ v w : Fin 4 → ℝ, fitMat4 s *ᵥ v = fitVec4 s 1 ∧ fitMat4 s *ᵥ w = fitVec4 s (-1) ∧
      fitxyFour s ws ws' junk model = some (.ok,
        if fitSdr2 s 1 (v 0) (v 1) (v 2) (v 3) ≤ fitSdr2 s (-1) (w 0) (w 1) (w 2) (w 3) ∨ n = 2 then
          ⟨v 0, v 1, -v 2, v 3, v 2, v 1⟩ else ⟨-w 0, -w 1, w 2, w 3, w 2, w 1⟩)) ∨
    ((∃ r, dmat (fitMat4 s) (fitVec4 s 1) ws = some r ∧ r.singular = true) ∧
      fitxyFour s ws ws' junk model = some (if n = 2 then (.ok, ⟨0, 0, 0, 0, 0, 0⟩) else (.none, model))) := by
  obtain ⟨r, hr, -, h2⟩ := C43_dmat (fitMat4 s) (fitVec4 s 1) ws
  obtain ⟨r', hr', -, h2'⟩ := C43_dmat (fitMat4 s) (fitVec4 s (-1)) ws'
  have hsing := dmat_singular_indep _ _ _ _ _ r r' hr hr'
  by_cases hs : r.singular = false
  · left
    have hs' : r'.singular = false := hsing ▸ hs
    obtain ⟨-, -, -, hdet, hsol⟩ := h2 hs
    obtain ⟨-, -, -, -, hsol'⟩ := h2' hs'
    refine ⟨hdet, r.vec, r'.vec, (hsol _).2 rfl, (hsol' _).2 rfl, ?_⟩
    unfold fitxyFour
    rw [if_pos hn]
    simp only [fitPass, if_true, hr, Option.map_some, hs, Option.bind_some, one_ne_zero, if_false, hr', hs', true_and,
      false_and]
    have := fitSdr2_nonneg s 1 (r.vec 0) (r.vec 1) (r.vec 2) (r.vec 3)
    congr 1
    simp only [ge_iff_le, this, true_and]
    split_ifs <;> rfl
  · right
    have hs1 : r.singular = true := by simpa using hs
    have hs1' : r'.singular = true := hsing ▸ hs1
    refine ⟨⟨r, hr, hs1⟩, ?_⟩
    unfold fitxyFour
    rw [if_pos hn]
    simp only [fitPass, if_true, hr, Option.map_some, hs1, Option.bind_some, one_ne_zero, if_false, hr', hs1',
      false_and, Bool.true_eq_false, and_false]
    congr 1
    by_cases h : n = 2
    · simp [h]
    · have : ¬ (0 : ℝ) ≤ -1 := by norm_num
      simp [h, this]

/-- C41: when the four-coefficient fit of three or more samples succeeds, its model is a solid-body transformation and no
    solid-body transformation, reflected or not, has a smaller sum of squared residuals. -/
theorem C41_optimum (s : Fin n → XYSample) (ws ws' : Fin 4 → ℤ) (junk : ℝ) (model m : FitCoeffs) (hn : n ≥ 3)
    (h : fitxyFour s ws ws' junk model = some (.ok, m)) :
    SolidBody (planeModel m) ∧ ∀ m', SolidBody m' → ssr s (planeModel m) ≤ ssr s m' := by
  have hn2 : ¬ n = 2 := by omega
  rcases fitxyFour_cases s ws ws' junk model (by omega) with ⟨-, v, w, hv, hw, e⟩ | ⟨-, e⟩
  swap
  · rw [e] at h; simp [hn2] at h
  rw [e, Option.some.injEq, Prod.mk.injEq] at h
  obtain ⟨-, h⟩ := h
  have ev : ∀ y : Fin 4 → ℝ, (![y 0, y 1, y 2, y 3] : Fin 4 → ℝ) = y := by
    intro y; funext i; fin_cases i <;> rfl
  have pv := pass_optimal s 1 (v 0) (v 1) (v 2) (v 3) (by rw [ev]; exact hv)
  have pw := pass_optimal s (-1) (w 0) (w 1) (w 2) (w 3) (by rw [ev]; exact hw)
  have fam : ∀ m', SolidBody m' → (∃ a b c d, ssr s m' = fitSdr2 s 1 a b c d) ∨ (∃ a b c d, ssr s m' = fitSdr2 s (-1) a b c d) := by
    intro m' hm
    rcases (solidBody_iff m').1 hm with ⟨h1, h2⟩ | ⟨h1, h2⟩
    · left
      refine ⟨m'.a, m'.b, m'.e, m'.d, ?_⟩
      rw [← ssr_direct]
      congr 1
      cases m'; simp_all
    · right
      refine ⟨-m'.a, -m'.b, m'.e, m'.d, ?_⟩
      rw [← ssr_flipped]
      congr 1
      cases m'; simp_all
  by_cases hc : fitSdr2 s 1 (v 0) (v 1) (v 2) (v 3) ≤ fitSdr2 s (-1) (w 0) (w 1) (w 2) (w 3)
  · rw [if_pos (Or.inl hc)] at h
    subst h
    refine ⟨(solidBody_iff _).2 (Or.inl ⟨rfl, rfl⟩), fun m' hm => ?_⟩
    unfold planeModel
    dsimp only
    rw [ssr_direct]
    rcases fam m' hm with ⟨a, b, c, d, e⟩ | ⟨a, b, c, d, e⟩
    · rw [e]; exact pv a b c d
    · rw [e]; exact hc.trans (pw a b c d)
  · rw [if_neg (by rintro (h | h); exacts [hc h, hn2 h])] at h
    subst h
    refine ⟨(solidBody_iff _).2 (Or.inr ⟨by simp [planeModel], by simp [planeModel]⟩), fun m' hm => ?_⟩
    unfold planeModel
    dsimp only
    rw [ssr_flipped]
    rcases fam m' hm with ⟨a, b, c, d, e⟩ | ⟨a, b, c, d, e⟩
    · rw [e]; exact (not_le.1 hc).le.trans (pv a b c d)
    · rw [e]; exact pw a b c d

/-- C41: status.  The call is free of undefined behaviour; it reports insufficient data exactly for fewer than two samples;
    for three or more samples measured all at one point it reports that there is no solution. -/
theorem C41_status (s : Fin n → XYSample) (ws ws' : Fin 4 → ℤ) (junk : ℝ) (model : FitCoeffs) :
    (∃ r, fitxyFour s ws ws' junk model = some r ∧ (r.1 = .insufficient ↔ n < 2) ∧ (r.1 ≠ .ok → r.2 = model)) ∧
    (n ≥ 3 → (∃ x y, ∀ i, (s i).xm = x ∧ (s i).ym = y) → fitxyFour s ws ws' junk model = some (.none, model)) := by
  by_cases hn : n ≥ 2
  swap
  · refine ⟨⟨(.insufficient, model), by unfold fitxyFour; rw [if_neg hn], ?_, fun _ => rfl⟩, fun h => absurd h (by omega)⟩
    simp; omega
  constructor
  · rcases fitxyFour_cases s ws ws' junk model hn with ⟨-, v, w, -, -, e⟩ | ⟨-, e⟩
    · exact ⟨_, e, by simp; omega, by simp⟩
    · refine ⟨_, e, ?_, ?_⟩
      · split_ifs <;> simp <;> omega
      · split_ifs <;> simp
  · rintro h3 ⟨x, y, hxy⟩
    rcases fitxyFour_cases s ws ws' junk model hn with ⟨hd, -⟩ | ⟨-, e⟩
    · exfalso
      apply hd
      unfold fitMat4
      simp only [det4]
      have e1 : accumulate s (·.xm) = n * x := by
        rw [accumulate_eq]; simp [hxy]
      have e2 : accumulate s (·.ym) = n * y := by
        rw [accumulate_eq]; simp [hxy]
      have e3 : accumulate s (fun p => p.xm * p.xm + p.ym * p.ym) = n * (x * x + y * y) := by
        rw [accumulate_eq]; simp [hxy]; ring
      rw [e1, e2, e3]; ring
    · rw [e, if_neg (by omega)]

/-- C41: with exactly two samples measured at different points a successful fit is the one unreflected solid-body model
    that reproduces both samples exactly, unless the normal equations were found to be singular, in which case success is
    reported with a model whose coefficients are all zero. -/
theorem C41_two_samples (s : Fin 2 → XYSample) (ws ws' : Fin 4 → ℤ) (junk : ℝ) (model : FitCoeffs) :
    ∃ m, fitxyFour s ws ws' junk model = some (.ok, m) ∧
      ((SolidBody (planeModel m) ∧ ssr s (planeModel m) = 0 ∧ ¬((s 0).xm = (s 1).xm ∧ (s 0).ym = (s 1).ym)) ∨
        ((∃ r, dmat (fitMat4 s) (fitVec4 s 1) ws = some r ∧ r.singular = true) ∧ m = ⟨0, 0, 0, 0, 0, 0⟩)) := by
  rcases fitxyFour_cases s ws ws' junk model le_rfl with ⟨hd, v, w, hv, -, e⟩ | ⟨hs, e⟩
  · rw [if_pos (Or.inr rfl)] at e
    refine ⟨_, e, Or.inl ⟨(solidBody_iff _).2 (Or.inl ⟨rfl, rfl⟩), ?_, ?_⟩⟩
    · unfold planeModel
      dsimp only
      rw [ssr_direct]
      have ev : ∀ y : Fin 4 → ℝ, (![y 0, y 1, y 2, y 3] : Fin 4 → ℝ) = y := by
        intro y; funext i; fin_cases i <;> rfl
      have pv := pass_optimal s 1 (v 0) (v 1) (v 2) (v 3) (by rw [ev]; exact hv)
      refine le_antisymm ?_ (fitSdr2_nonneg _ _ _ _ _ _)
      have hne : ((s 1).xm - (s 0).xm) ^ 2 + ((s 1).ym - (s 0).ym) ^ 2 ≠ 0 := by
        intro h0
        apply hd
        unfold fitMat4
        simp only [det4, accumulate_eq, Fin.sum_univ_two]
        have hx : (s 1).xm = (s 0).xm := by nlinarith [sq_nonneg ((s 1).xm - (s 0).xm), sq_nonneg ((s 1).ym - (s 0).ym)]
        have hy : (s 1).ym = (s 0).ym := by nlinarith [sq_nonneg ((s 1).xm - (s 0).xm), sq_nonneg ((s 1).ym - (s 0).ym)]
        rw [hx, hy]; push_cast; ring
      generalize hD : ((s 1).xm - (s 0).xm) ^ 2 + ((s 1).ym - (s 0).ym) ^ 2 = D at hne
      let dx := (s 1).xm - (s 0).xm
      let dy := (s 1).ym - (s 0).ym
      let ex := (s 1).xe - (s 0).xe
      let ey := (s 1).ye - (s 0).ye
      let b := (ex * dx + ey * dy) / D
      let c := (ey * dx - ex * dy) / D
      have hb : b * dx - c * dy = ex := by
        simp only [b, c]; field_simp; rw [← hD]; simp only [dx, dy]; ring
      have hc : c * dx + b * dy = ey := by
        simp only [b, c]; field_simp; rw [← hD]; simp only [dx, dy]; ring
      refine (pv ((s 0).xe - b * (s 0).xm + c * (s 0).ym) b c ((s 0).ye - c * (s 0).xm - b * (s 0).ym)).trans ?_
      rw [fitSdr2_eq, Fin.sum_univ_two]
      have k1 : (s 0).xe - b * (s 0).xm + c * (s 0).ym + b * (s 1).xm - c * (s 1).ym - (s 1).xe * 1 = 0 := by
        simp only [dx, dy, ex] at hb; linarith
      have k2 : (s 0).ye - c * (s 0).xm - b * (s 0).ym + c * (s 1).xm + b * (s 1).ym - (s 1).ye = 0 := by
        simp only [dx, dy, ey] at hc; linarith
      rw [k1, k2]
      apply le_of_eq; ring
    · rintro ⟨hx, hy⟩
      apply hd
      unfold fitMat4
      simp only [det4, accumulate_eq, Fin.sum_univ_two, hx, hy]
      push_cast; ring
  · refine ⟨_, e, Or.inr ⟨hs, rfl⟩⟩

/-- C41: in particular two samples measured at the same point are reported as a successful fit with a zero model. -/
theorem C41_coincident (s : Fin 2 → XYSample) (ws ws' : Fin 4 → ℤ) (junk : ℝ) (model : FitCoeffs)
    (h : (s 0).xm = (s 1).xm ∧ (s 0).ym = (s 1).ym) :
    fitxyFour s ws ws' junk model = some (.ok, ⟨0, 0, 0, 0, 0, 0⟩) := by
  obtain ⟨m, e, ⟨-, -, h'⟩ | ⟨-, rfl⟩⟩ := C41_two_samples s ws ws' junk model
  · exact absurd h h'
  · exact e

/-! ### Residuals -/

/-- C42: the predicted points are the model applied to the measured points, and the three residuals are the RMS of the
    differences in X, in Y and their root sum of squares. -/
theorem C42_pxy (s : Fin n → XYSample) (m : FitCoeffs) :
    (∀ i, (pxy s m).predicted i =
      (m.a + m.b * (s i).xm + m.c * (s i).ym, m.d + m.e * (s i).xm + m.f * (s i).ym)) ∧
    0 ≤ (pxy s m).xRms ∧ 0 ≤ (pxy s m).yRms ∧ 0 ≤ (pxy s m).rms ∧
    n * (pxy s m).xRms ^ 2 = ∑ i, ((s i).xe - ((pxy s m).predicted i).1) ^ 2 ∧
    n * (pxy s m).yRms ^ 2 = ∑ i, ((s i).ye - ((pxy s m).predicted i).2) ^ 2 ∧
    (pxy s m).rms ^ 2 = (pxy s m).xRms ^ 2 + (pxy s m).yRms ^ 2 ∧
    n * (pxy s m).rms ^ 2 = ssr s (planeModel m) := by
  have hp : (0 : ℝ) < max 1 (n : ℝ) := lt_of_lt_of_le one_pos (le_max_left _ _)
  have hmul : ∀ f : Fin n → ℝ, (n : ℝ) * (∑ i, f i / max 1 (n : ℝ)) = ∑ i, f i := by
    intro f
    rcases Nat.eq_zero_or_pos n with rfl | hpos
    · simp
    · have : max (1 : ℝ) n = n := max_eq_right (by exact_mod_cast hpos)
      have hn0 : (n : ℝ) ≠ 0 := by exact_mod_cast hpos.ne'
      rw [this, ← Finset.sum_div]; field_simp
  have hx : (n : ℝ) * (pxy s m).xRms ^ 2 = ∑ i, ((s i).xe - ((pxy s m).predicted i).1) ^ 2 := by
    simp only [pxy, accumulate_eq]
    rw [Real.sq_sqrt (div_nonneg (Finset.sum_nonneg fun i _ => mul_self_nonneg _) hp.le), Finset.sum_div, hmul]
    apply Finset.sum_congr rfl; intro i _; ring
  have hy : (n : ℝ) * (pxy s m).yRms ^ 2 = ∑ i, ((s i).ye - ((pxy s m).predicted i).2) ^ 2 := by
    simp only [pxy, accumulate_eq]
    rw [Real.sq_sqrt (div_nonneg (Finset.sum_nonneg fun i _ => mul_self_nonneg _) hp.le), Finset.sum_div, hmul]
    apply Finset.sum_congr rfl; intro i _; ring
  have hr : (pxy s m).rms ^ 2 = (pxy s m).xRms ^ 2 + (pxy s m).yRms ^ 2 := by
    show Real.sqrt ((pxy s m).xRms * (pxy s m).xRms + (pxy s m).yRms * (pxy s m).yRms) ^ 2 = _
    rw [Real.sq_sqrt (add_nonneg (mul_self_nonneg _) (mul_self_nonneg _))]; ring
  refine ⟨fun i => rfl, Real.sqrt_nonneg _, Real.sqrt_nonneg _, Real.sqrt_nonneg _, hx, hy, hr, ?_⟩
  rw [hr, mul_add, hx, hy, ← Finset.sum_add_distrib]
  unfold ssr sumSquares planeModel
  apply Finset.sum_congr rfl; intro i _
  show ((s i).xe - (m.a + m.b * (s i).xm + m.c * (s i).ym)) ^ 2 + ((s i).ye - (m.d + m.e * (s i).xm + m.f * (s i).ym)) ^ 2 = _
  ring

/-- C42: no samples. -/
theorem C42_no_samples (s : Fin 0 → XYSample) (m : FitCoeffs) :
    (pxy s m).xRms = 0 ∧ (pxy s m).yRms = 0 ∧ (pxy s m).rms = 0 := by
  simp [pxy, accumulate]

/-- C42 with C40: the model fitted has a smaller RMS than every other model. -/
theorem C42_fit_rms (s : Fin n → XYSample) (ws : Fin 3 → ℤ) (model m : FitCoeffs)
    (h : fitxySix s ws model = some (.ok, m)) (m' : FitCoeffs) (hne : m' ≠ m) : (pxy s m).rms < (pxy s m').rms := by
  have h1 := C40_optimum s ws model m h (planeModel m') (by
    intro e; apply hne
    simp only [planeModel, PlaneModel.mk.injEq] at e
    exact FitCoeffs.ext e.1 e.2.1 e.2.2.1 e.2.2.2.1 e.2.2.2.2.1 e.2.2.2.2.2)
  obtain ⟨-, -, -, -, -, -, -, e1⟩ := C42_pxy s m
  obtain ⟨-, -, -, p', -, -, -, e2⟩ := C42_pxy s m'
  rw [← e1, ← e2] at h1
  have hn : (0 : ℝ) ≤ n := Nat.cast_nonneg n
  have := lt_of_mul_lt_mul_left h1 hn
  exact lt_of_pow_lt_pow_left₀ 2 p' this

/-! ### Examples -/

/-- Four samples at the ends of a cross, expected twice as large. -/
def cross : Fin 4 → XYSample := ![⟨2, 0, 1, 0⟩, ⟨0, 2, 0, 1⟩, ⟨-2, 0, -1, 0⟩, ⟨0, -2, 0, -1⟩]

theorem cross_mat3 : fitMat3 cross = Matrix.diagonal ![4, 2, 2] := by
  unfold fitMat3
  simp only [accumulate_eq, Fin.sum_univ_four]
  ext i j
  fin_cases i <;> fin_cases j <;> simp [cross] <;> norm_num

theorem cross_mat4 : fitMat4 cross = Matrix.diagonal ![4, 4, -4, 4] := by
  unfold fitMat4
  simp only [accumulate_eq, Fin.sum_univ_four]
  ext i j
  fin_cases i <;> fin_cases j <;> simp [cross] <;> norm_num

/-- The fits of the cross succeed. -/
example (ws : Fin 3 → ℤ) (model : FitCoeffs) : ∃ m, fitxySix cross ws model = some (.ok, m) := by
  unfold fitxySix
  rw [if_pos (by norm_num)]
  dsimp only
  rw [cross_mat3]
  obtain ⟨r, hr, hs⟩ := dmat_diagonal ![4, 2, 2] (by intro i; fin_cases i <;> norm_num)
    ![accumulate cross (·.xe), accumulate cross (fun p => p.xe * p.xm), accumulate cross (fun p => p.xe * p.ym)] ws
  rw [hr, Option.map_some, if_pos hs]
  exact ⟨_, rfl⟩

example (ws ws' : Fin 4 → ℤ) (junk : ℝ) (model : FitCoeffs) : ∃ m, fitxyFour cross ws ws' junk model = some (.ok, m) := by
  rcases fitxyFour_cases cross ws ws' junk model (by norm_num) with ⟨-, v, w, -, -, e⟩ | ⟨⟨r, hr, hs⟩, -⟩
  · exact ⟨_, e⟩
  · obtain ⟨r', hr', hs'⟩ := dmat_diagonal ![4, 4, -4, 4] (by intro i; fin_cases i <;> norm_num [abs_of_pos]) (fitVec4 cross 1) ws
    rw [cross_mat4, hr'] at hr
    cases hr
    rw [hs] at hs'; exact absurd hs' (by simp)

/-- Collinear points exist. -/
example : ∃ α β γ : ℝ, (α ≠ 0 ∨ β ≠ 0 ∨ γ ≠ 0) ∧ ∀ i : Fin 3, α + β * ((![0, 1, 2] : Fin 3 → ℝ) i) + γ * 0 = 0 :=
  ⟨0, 0, 1, by simp, by simp⟩

end Sla.Props
