import Verif.Model.Svd
import Mathlib.Algebra.BigOperators.Fin
import Mathlib.Algebra.BigOperators.Intervals
import Mathlib.Algebra.Order.BigOperators.Group.Finset
import Mathlib.LinearAlgebra.Matrix.NonsingularInverse
import Mathlib.LinearAlgebra.Matrix.Notation
import Mathlib.Tactic.LinearCombination
import Mathlib.Tactic.Linarith

/-
C44: `svdsol` and `svdcov`.
-/
namespace Sla.Props
open Matrix Sla

variable {m n : ℕ}

/-- The matrix held in a flat array with row length `np`. -/
def matOf (m n np : ℕ) (u : FMem) : Matrix (Fin m) (Fin n) ℝ := fun i j => u (i * np + j)
/-- The vector held in an array. -/
def vecOf (n : ℕ) (x : FMem) : Fin n → ℝ := fun i => x i

theorem foldl_range_add (f : ℕ → ℝ) (n : ℕ) : (List.range n).foldl (fun s i => s + f i) 0 = ∑ i : Fin n, f i := by
  induction n with
  | zero => simp
  | succ n ih => rw [List.range_succ, List.foldl_append, ih, Fin.sum_univ_castSucc]; simp

theorem foldl_range_set (f : ℕ → ℝ) (x : FMem) (n : ℕ) :
    (List.range n).foldl (fun x k => FMem.set x k (f k)) x = fun j => if j < n then f j else x j := by
  induction n with
  | zero => simp
  | succ n ih =>
    rw [List.range_succ, List.foldl_append, ih]
    funext j
    simp only [List.foldl_cons, List.foldl_nil, FMem.set]
    by_cases h : j = n
    · simp [h]
    · have : (j < n + 1) ↔ j < n := by omega
      simp [h, this]

/-- The weights 1/w, zero for a zero singular value. -/
noncomputable def pinv (n : ℕ) (w : FMem) : Fin n → ℝ := fun j => if w j = 0 then 0 else 1 / w j

theorem svdsol_eq (m n np : ℕ) (b u w v ws x : FMem) :
    vecOf n (svdsol m n np b u w v ws x).2 =
      matOf n n np v *ᵥ (Matrix.diagonal (pinv n w) *ᵥ ((matOf m n np u)ᵀ *ᵥ vecOf m b)) := by
  unfold svdsol svdsolDiv
  simp only [foldl_range_add, foldl_range_set]
  funext k
  simp only [vecOf, k.2, if_true]
  apply Finset.sum_congr rfl
  intro l _
  rw [Matrix.mulVec_diagonal]
  simp only [l.2, if_true, pinv, matOf, Matrix.mulVec, dotProduct, Matrix.transpose_apply]
  by_cases h : w l = 0
  · simp [h, vecOf]
  · simp [h, vecOf, div_eq_inv_mul]

/-- Squared length of a vector. -/
def normSq {k : ℕ} (x : Fin k → ℝ) : ℝ := x ⬝ᵥ x

theorem normSq_nonneg {k : ℕ} (x : Fin k → ℝ) : 0 ≤ normSq x := by
  unfold normSq dotProduct
  exact Finset.sum_nonneg fun _ _ => mul_self_nonneg _

theorem normSq_eq_zero {k : ℕ} {x : Fin k → ℝ} (h : normSq x = 0) : x = 0 := by
  unfold normSq dotProduct at h
  rw [Finset.sum_eq_zero_iff_of_nonneg fun _ _ => mul_self_nonneg _] at h
  funext i
  exact mul_self_eq_zero.1 (h i (Finset.mem_univ i))

theorem normSq_add {k : ℕ} (x y : Fin k → ℝ) (h : x ⬝ᵥ y = 0) : normSq (x + y) = normSq x + normSq y := by
  unfold normSq
  rw [add_dotProduct, dotProduct_add, dotProduct_add, dotProduct_comm y x, h]; ring

/-- Pseudo-inverse identities of the solution. -/
theorem svd_identities (U : Matrix (Fin m) (Fin n) ℝ) (w : FMem) (V : Matrix (Fin n) (Fin n) ℝ)
    (hU : Uᵀ * U = 1) (hV : Vᵀ * V = 1) (b : Fin m → ℝ) :
    let A := U * Matrix.diagonal (vecOf n w) * Vᵀ
    let x := V *ᵥ (Matrix.diagonal (pinv n w) *ᵥ (Uᵀ *ᵥ b))
    Aᵀ *ᵥ (A *ᵥ x - b) = 0 ∧ ∀ z, A *ᵥ z = 0 → x ⬝ᵥ z = 0 := by
  intro A x
  have hw : Matrix.diagonal (vecOf n w) * (Matrix.diagonal (vecOf n w) * Matrix.diagonal (pinv n w)) =
      Matrix.diagonal (vecOf n w) := by
    rw [Matrix.diagonal_mul_diagonal, Matrix.diagonal_mul_diagonal]
    congr 1
    funext j
    by_cases h : w j = 0 <;> simp [vecOf, pinv, h]
  constructor
  · have : Aᵀ * (A * (V * (Matrix.diagonal (pinv n w) * Uᵀ))) = Aᵀ := by
      have e1 : Aᵀ = V * (Matrix.diagonal (vecOf n w) * Uᵀ) := by
        simp only [A, Matrix.transpose_mul, Matrix.transpose_transpose, Matrix.diagonal_transpose]
      have e2 : A * (V * (Matrix.diagonal (pinv n w) * Uᵀ)) =
          U * (Matrix.diagonal (vecOf n w) * Matrix.diagonal (pinv n w) * Uᵀ) := by
        calc A * (V * (Matrix.diagonal (pinv n w) * Uᵀ)) =
            U * Matrix.diagonal (vecOf n w) * (Vᵀ * V) * (Matrix.diagonal (pinv n w) * Uᵀ) := by
              simp only [A, Matrix.mul_assoc]
          _ = _ := by rw [hV, Matrix.mul_one]; simp only [Matrix.mul_assoc]
      rw [e2, e1]
      calc V * (Matrix.diagonal (vecOf n w) * Uᵀ) * (U * (Matrix.diagonal (vecOf n w) * Matrix.diagonal (pinv n w) * Uᵀ)) =
          V * (Matrix.diagonal (vecOf n w) * (Uᵀ * U) * (Matrix.diagonal (vecOf n w) * Matrix.diagonal (pinv n w)) * Uᵀ) := by
            simp only [Matrix.mul_assoc]
        _ = _ := by rw [hU, Matrix.mul_one, hw]
    rw [Matrix.mulVec_sub]
    have e3 : Aᵀ *ᵥ (A *ᵥ x) = Aᵀ *ᵥ b := by
      simp only [x, Matrix.mulVec_mulVec, Matrix.mul_assoc]
      rw [this]
    rw [e3, sub_self]
  · intro z hz
    -- diag(w) Vᵀ z = 0
    have h1 : Matrix.diagonal (vecOf n w) *ᵥ (Vᵀ *ᵥ z) = 0 := by
      have : Uᵀ *ᵥ (A *ᵥ z) = Matrix.diagonal (vecOf n w) *ᵥ (Vᵀ *ᵥ z) := by
        simp only [A, Matrix.mulVec_mulVec]
        congr 1
        calc Uᵀ * (U * Matrix.diagonal (vecOf n w) * Vᵀ) = (Uᵀ * U) * (Matrix.diagonal (vecOf n w) * Vᵀ) := by
              simp only [Matrix.mul_assoc]
          _ = _ := by rw [hU, Matrix.one_mul]
      rw [← this, hz, Matrix.mulVec_zero]
    have h2 : x ⬝ᵥ z = (Matrix.diagonal (pinv n w) *ᵥ (Uᵀ *ᵥ b)) ⬝ᵥ (Vᵀ *ᵥ z) := by
      simp only [x]
      rw [Matrix.dotProduct_mulVec, Matrix.vecMul_transpose]
    rw [h2]
    unfold dotProduct
    apply Finset.sum_eq_zero
    intro j _
    have := congrFun h1 j
    rw [Matrix.mulVec_diagonal] at this ⊢
    simp only [Pi.zero_apply, vecOf] at this
    rcases mul_eq_zero.1 this with h | h
    · simp [pinv, h]
    · rw [h, mul_zero]

/-- C44: for every decomposition A = U diag(w) Vᵀ with orthonormal columns in U and V, `svdsol` returns a least-squares
    solution of A x = b, and of all least-squares solutions it is the one and only shortest. -/
theorem C44_svdsol (m n np : ℕ) (b u w v ws x : FMem) (hU : (matOf m n np u)ᵀ * matOf m n np u = 1)
    (hV : (matOf n n np v)ᵀ * matOf n n np v = 1) :
    let A := matOf m n np u * Matrix.diagonal (vecOf n w) * (matOf n n np v)ᵀ
    let X := vecOf n (svdsol m n np b u w v ws x).2
    (∀ y, normSq (A *ᵥ X - vecOf m b) ≤ normSq (A *ᵥ y - vecOf m b)) ∧
    ∀ y, normSq (A *ᵥ y - vecOf m b) = normSq (A *ᵥ X - vecOf m b) → y ≠ X → normSq X < normSq y := by
  intro A X
  obtain ⟨h1, h2⟩ := svd_identities (matOf m n np u) w (matOf n n np v) hU hV (vecOf m b)
  have hX : X = matOf n n np v *ᵥ (Matrix.diagonal (pinv n w) *ᵥ ((matOf m n np u)ᵀ *ᵥ vecOf m b)) :=
    svdsol_eq m n np b u w v ws x
  rw [← hX] at h1 h2
  have key : ∀ y, normSq (A *ᵥ y - vecOf m b) = normSq (A *ᵥ X - vecOf m b) + normSq (A *ᵥ (y - X)) := by
    intro y
    have : A *ᵥ y - vecOf m b = (A *ᵥ X - vecOf m b) + A *ᵥ (y - X) := by
      rw [Matrix.mulVec_sub]; abel
    rw [this]
    apply normSq_add
    rw [Matrix.dotProduct_mulVec, ← Matrix.mulVec_transpose]
    rw [h1, zero_dotProduct]
  refine ⟨fun y => by rw [key y]; linarith [normSq_nonneg (A *ᵥ (y - X))], fun y hy hne => ?_⟩
  have h0 : normSq (A *ᵥ (y - X)) = 0 := by have := key y; linarith
  have hz : A *ᵥ (y - X) = 0 := normSq_eq_zero h0
  have := h2 _ hz
  have e : normSq y = normSq X + normSq (y - X) := by
    have e1 : y = X + (y - X) := by abel
    conv_lhs => rw [e1]
    exact normSq_add _ _ this
  rw [e]
  have : 0 < normSq (y - X) := by
    refine lt_of_le_of_ne (normSq_nonneg _) (Ne.symm fun h => hne ?_)
    exact sub_eq_zero.1 (normSq_eq_zero h)
  linarith

/-- C44: with a square system and no zero singular value this is the solution of the equations. -/
theorem C44_square (n np : ℕ) (b u w v ws x : FMem) (hU : (matOf n n np u)ᵀ * matOf n n np u = 1)
    (hV : (matOf n n np v)ᵀ * matOf n n np v = 1) (hw : ∀ j : Fin n, w j ≠ 0) :
    (matOf n n np u * Matrix.diagonal (vecOf n w) * (matOf n n np v)ᵀ) *ᵥ vecOf n (svdsol n n np b u w v ws x).2 =
      vecOf n b := by
  rw [svdsol_eq]
  simp only [Matrix.mulVec_mulVec]
  have hU' : matOf n n np u * (matOf n n np u)ᵀ = 1 := mul_eq_one_comm.1 hU
  have hd : Matrix.diagonal (vecOf n w) * Matrix.diagonal (pinv n w) = 1 := by
    rw [Matrix.diagonal_mul_diagonal, ← Matrix.diagonal_one]
    congr 1; funext j; simp [vecOf, pinv, hw j]
  have : matOf n n np u * Matrix.diagonal (vecOf n w) * (matOf n n np v)ᵀ *
      (matOf n n np v * (Matrix.diagonal (pinv n w) * (matOf n n np u)ᵀ)) = 1 := by
    calc _ = matOf n n np u * (Matrix.diagonal (vecOf n w) * ((matOf n n np v)ᵀ * matOf n n np v) *
          Matrix.diagonal (pinv n w)) * (matOf n n np u)ᵀ := by simp only [Matrix.mul_assoc]
      _ = 1 := by rw [hV, Matrix.mul_one, hd, Matrix.mul_one, hU']
  simp only [Matrix.mul_assoc] at this ⊢
  rw [this, Matrix.one_mulVec]

/-! ### Covariance -/

/-- The value stored for row `i`, column `j`. -/
noncomputable def covEntry (n np : ℕ) (w v : FMem) (i j : ℕ) : ℝ :=
  ∑ k : Fin n, v (i * np + k) * v (j * np + k) * (pinv n w k * pinv n w k)

theorem covEntry_symm (n np : ℕ) (w v : FMem) (i j : ℕ) : covEntry n np w v i j = covEntry n np w v j i := by
  unfold covEntry
  apply Finset.sum_congr rfl; intro k _; ring

theorem cell_inj {nc i j i' j' : ℕ} (hj : j < nc) (hj' : j' < nc) (h : i * nc + j = i' * nc + j') : i = i' ∧ j = j' := by
  have h1 : (i * nc + j) / nc = i := by
    rw [Nat.mul_comm, Nat.mul_add_div (by omega), Nat.div_eq_of_lt hj, Nat.add_zero]
  have h2 : (i' * nc + j') / nc = i' := by
    rw [Nat.mul_comm, Nat.mul_add_div (by omega), Nat.div_eq_of_lt hj', Nat.add_zero]
  have : i = i' := by rw [← h1, ← h2, h]
  subst this
  exact ⟨rfl, by omega⟩

theorem svdcov_eq (n np nc : ℕ) (w v ws cvm : FMem) (hnc : n ≤ nc) :
    (∀ i j : ℕ, i < n → j < n → (svdcov n np nc w v ws cvm).2 (i * nc + j) = covEntry n np w v i j) ∧
    ∀ c, (∀ i j : ℕ, i < n → j < n → c ≠ i * nc + j) → (svdcov n np nc w v ws cvm).2 c = cvm c := by
  unfold svdcov svdcovDiv
  simp only [foldl_range_set]
  have hs2 : ∀ i j, (List.range n).foldl (fun s2 k => s2 + v (i * np + k) * v (j * np + k) *
      (if k < n then if w k ≠ 0 then 1 / (w k * w k) else 0 else ws k)) 0 = covEntry n np w v i j := by
    intro i j
    rw [foldl_range_add (fun k => v (i * np + k) * v (j * np + k) *
      (if k < n then if w k ≠ 0 then 1 / (w k * w k) else 0 else ws k))]
    unfold covEntry
    apply Finset.sum_congr rfl; intro k _
    simp only [k.2, if_true, pinv]
    by_cases h : w k = 0
    · simp [h]
    · simp only [ne_eq, h, not_false_eq_true, if_true, if_false]; rw [div_mul_div_comm, one_mul]
  simp only [hs2]
  -- the inner loop
  have inner : ∀ (i p : ℕ) (cvm : FMem), i < n → p ≤ i + 1 → ∀ c,
      (List.range p).foldl (fun cvm j => FMem.set (FMem.set cvm (i * nc + j) (covEntry n np w v i j)) (j * nc + i)
        (covEntry n np w v i j)) cvm c =
      if ∃ j < p, c = i * nc + j then covEntry n np w v i (c - i * nc)
      else if ∃ j < p, c = j * nc + i then covEntry n np w v (c / nc) i else cvm c := by
    intro i p cvm hi
    induction p with
    | zero => intro _ c; simp
    | succ p ih =>
      intro hp c
      rw [List.range_succ, List.foldl_append]
      simp only [List.foldl_cons, List.foldl_nil, FMem.set]
      rw [ih (by omega)]
      by_cases h2 : c = p * nc + i
      · rw [if_pos h2]
        have hdiv : c / nc = p := by
          rw [h2, Nat.mul_comm, Nat.mul_add_div (by omega), Nat.div_eq_of_lt (by omega), Nat.add_zero]
        by_cases h1 : ∃ j < p + 1, c = i * nc + j
        · rw [if_pos h1]
          obtain ⟨j, hj, e⟩ := h1
          obtain ⟨e1, e2⟩ := cell_inj (nc := nc) (by omega) (by omega) (e.symm.trans h2)
          subst e1
          have : c - i * nc = i := by omega
          rw [this]
        · rw [if_neg h1, if_pos ⟨p, by omega, h2⟩, hdiv, covEntry_symm]
      · rw [if_neg h2]
        by_cases h3 : c = i * nc + p
        · rw [if_pos h3, if_pos ⟨p, by omega, h3⟩]
          have : c - i * nc = p := by omega
          rw [this]
        · rw [if_neg h3]
          have e1 : (∃ j < p + 1, c = i * nc + j) ↔ ∃ j < p, c = i * nc + j := by
            constructor
            · rintro ⟨j, hj, e⟩
              exact ⟨j, lt_of_le_of_ne (by omega) (by rintro rfl; exact h3 e), e⟩
            · rintro ⟨j, hj, e⟩; exact ⟨j, by omega, e⟩
          have e2 : (∃ j < p + 1, c = j * nc + i) ↔ ∃ j < p, c = j * nc + i := by
            constructor
            · rintro ⟨j, hj, e⟩
              exact ⟨j, lt_of_le_of_ne (by omega) (by rintro rfl; exact h2 e), e⟩
            · rintro ⟨j, hj, e⟩; exact ⟨j, by omega, e⟩
          simp only [e1, e2]
  have outer : ∀ (q : ℕ), q ≤ n →
      (∀ i j : ℕ, i < q → j < q → (List.range q).foldl (fun cvm i => (List.range (i + 1)).foldl (fun cvm j =>
        FMem.set (FMem.set cvm (i * nc + j) (covEntry n np w v i j)) (j * nc + i) (covEntry n np w v i j)) cvm) cvm
          (i * nc + j) = covEntry n np w v i j) ∧
      ∀ c, (∀ i j : ℕ, i < q → j < q → c ≠ i * nc + j) →
        (List.range q).foldl (fun cvm i => (List.range (i + 1)).foldl (fun cvm j =>
        FMem.set (FMem.set cvm (i * nc + j) (covEntry n np w v i j)) (j * nc + i) (covEntry n np w v i j)) cvm) cvm c =
          cvm c := by
    intro q
    induction q with
    | zero => intro _; exact ⟨fun i j hi => absurd hi (by omega), fun c _ => by simp⟩
    | succ q ih =>
      intro hq
      obtain ⟨ih1, ih2⟩ := ih (by omega)
      rw [List.range_succ, List.foldl_append]
      simp only [List.foldl_cons, List.foldl_nil]
      constructor
      · intro i j hi hj
        rw [inner q (q + 1) _ (by omega) le_rfl]
        by_cases h1 : ∃ j' < q + 1, i * nc + j = q * nc + j'
        · rw [if_pos h1]
          obtain ⟨j', hj', e⟩ := h1
          obtain ⟨e1, e2⟩ := cell_inj (by omega) (by omega) e
          subst e1
          congr 1; omega
        · rw [if_neg h1]
          have hiq : i < q := by
            by_contra h
            have : i = q := by omega
            subst this
            exact h1 ⟨j, hj, rfl⟩
          by_cases h2 : ∃ j' < q + 1, i * nc + j = j' * nc + q
          · rw [if_pos h2]
            obtain ⟨j', hj', e⟩ := h2
            obtain ⟨e1, e2⟩ := cell_inj (by omega) (by omega) e
            subst e1 e2
            have : (i * nc + j) / nc = i := by
              rw [Nat.mul_comm, Nat.mul_add_div (by omega), Nat.div_eq_of_lt (by omega), Nat.add_zero]
            rw [this]
          · rw [if_neg h2]
            have hjq : j < q := by
              by_contra h
              have : j = q := by omega
              subst this
              exact h2 ⟨i, hi, rfl⟩
            exact ih1 i j hiq hjq
      · intro c hc
        rw [inner q (q + 1) _ (by omega) le_rfl, if_neg, if_neg]
        · exact ih2 c fun i j hi hj => hc i j (by omega) (by omega)
        · rintro ⟨j, hj, e⟩; exact hc j q hj (by omega) e
        · rintro ⟨j, hj, e⟩; exact hc q j (by omega) hj e
  exact outer n le_rfl

/-- C44: `svdcov` stores V W⁻² Vᵀ (zero weight for zero singular values) in the n x n part of the array and leaves every
    other cell untouched. -/
theorem C44_svdcov (n np nc : ℕ) (w v ws cvm : FMem) (hnc : n ≤ nc) :
    matOf n n nc (svdcov n np nc w v ws cvm).2 =
      matOf n n np v * Matrix.diagonal (fun j => pinv n w j ^ 2) * (matOf n n np v)ᵀ ∧
    ∀ c, (∀ i j : ℕ, i < n → j < n → c ≠ i * nc + j) → (svdcov n np nc w v ws cvm).2 c = cvm c := by
  obtain ⟨h1, h2⟩ := svdcov_eq n np nc w v ws cvm hnc
  refine ⟨?_, h2⟩
  ext i j
  show (svdcov n np nc w v ws cvm).2 (i * nc + j) = _
  rw [h1 i j i.2 j.2, Matrix.mul_apply]
  unfold covEntry
  apply Finset.sum_congr rfl; intro k _
  rw [Matrix.mul_diagonal, Matrix.transpose_apply]
  simp only [matOf]; ring

/-- C44: the covariance matrix is symmetric and positive semidefinite. -/
theorem C44_covariance (n np nc : ℕ) (w v ws cvm : FMem) (hnc : n ≤ nc) :
    (matOf n n nc (svdcov n np nc w v ws cvm).2)ᵀ = matOf n n nc (svdcov n np nc w v ws cvm).2 ∧
    ∀ z, 0 ≤ z ⬝ᵥ (matOf n n nc (svdcov n np nc w v ws cvm).2 *ᵥ z) := by
  rw [(C44_svdcov n np nc w v ws cvm hnc).1]
  constructor
  · simp only [Matrix.transpose_mul, Matrix.transpose_transpose, Matrix.diagonal_transpose, Matrix.mul_assoc]
  · intro z
    have : z ⬝ᵥ ((matOf n n np v * Matrix.diagonal (fun j => pinv n w j ^ 2) * (matOf n n np v)ᵀ) *ᵥ z) =
        ((matOf n n np v)ᵀ *ᵥ z) ⬝ᵥ (Matrix.diagonal (fun j => pinv n w j ^ 2) *ᵥ ((matOf n n np v)ᵀ *ᵥ z)) := by
      rw [← Matrix.mulVec_mulVec, ← Matrix.mulVec_mulVec, Matrix.dotProduct_mulVec, Matrix.mulVec_transpose]
    rw [this]
    apply Finset.sum_nonneg
    intro j _
    rw [Matrix.mulVec_diagonal]
    have := mul_nonneg (sq_nonneg (pinv n w j)) (mul_self_nonneg (((matOf n n np v)ᵀ *ᵥ z) j))
    linarith

/-- C44: with no zero singular value it is the inverse of AᵀA for every matrix A with that decomposition. -/
theorem C44_inverse (m n np nc : ℕ) (u w v ws cvm : FMem) (hnc : n ≤ nc) (hU : (matOf m n np u)ᵀ * matOf m n np u = 1)
    (hV : (matOf n n np v)ᵀ * matOf n n np v = 1) (hw : ∀ j : Fin n, w j ≠ 0) :
    let A := matOf m n np u * Matrix.diagonal (vecOf n w) * (matOf n n np v)ᵀ
    matOf n n nc (svdcov n np nc w v ws cvm).2 * (Aᵀ * A) = 1 := by
  intro A
  rw [(C44_svdcov n np nc w v ws cvm hnc).1]
  have hV' : matOf n n np v * (matOf n n np v)ᵀ = 1 := mul_eq_one_comm.1 hV
  have e1 : Aᵀ * A = matOf n n np v * (Matrix.diagonal (fun j => vecOf n w j ^ 2) * (matOf n n np v)ᵀ) := by
    calc Aᵀ * A = matOf n n np v * (Matrix.diagonal (vecOf n w) * ((matOf m n np u)ᵀ * matOf m n np u) *
          Matrix.diagonal (vecOf n w) * (matOf n n np v)ᵀ) := by
          simp only [A, Matrix.transpose_mul, Matrix.transpose_transpose, Matrix.diagonal_transpose, Matrix.mul_assoc]
      _ = _ := by
          rw [hU, Matrix.mul_one, Matrix.diagonal_mul_diagonal]
          congr 3; funext j; ring
  rw [e1]
  calc _ = matOf n n np v * (Matrix.diagonal (fun j => pinv n w j ^ 2) * ((matOf n n np v)ᵀ * matOf n n np v) *
        Matrix.diagonal (fun j => vecOf n w j ^ 2)) * (matOf n n np v)ᵀ := by simp only [Matrix.mul_assoc]
    _ = matOf n n np v * (matOf n n np v)ᵀ := by
        rw [hV, Matrix.mul_one, Matrix.diagonal_mul_diagonal]
        have : Matrix.diagonal (fun j => pinv n w j ^ 2 * vecOf n w j ^ 2) = 1 := by
          rw [← Matrix.diagonal_one]
          congr 1; funext j
          simp only [pinv, hw j, if_false, vecOf]
          have := hw j
          field_simp
        rw [this, Matrix.mul_one]
    _ = 1 := hV'

/-- C44: neither `svdsol` nor `svdcov` ever divides by zero: what they store does not depend on the value such a division would
    have. -/
theorem C44_no_zero_division (dv : ℝ → ℝ → ℝ) (hdv : ∀ x y, y ≠ 0 → dv x y = x / y) (m n np nc : ℕ) (b u w v ws x cvm : FMem) :
    svdsolDiv dv m n np b u w v ws x = svdsol m n np b u w v ws x ∧ svdcovDiv dv n np nc w v ws cvm = svdcov n np nc w v ws cvm := by
  have e1 : ∀ s j, (if w j ≠ 0 then dv s (w j) else 0) = if w j ≠ 0 then s / w j else 0 := by
    intro s j
    split_ifs with h
    · exact hdv _ _ h
    · rfl
  have e2 : ∀ j, (if w j ≠ 0 then dv 1 (w j * w j) else 0) = if w j ≠ 0 then 1 / (w j * w j) else 0 := by
    intro j
    split_ifs with h
    · exact hdv _ _ (mul_ne_zero h h)
    · rfl
  constructor
  · unfold svdsol svdsolDiv
    simp only [e1]
  · unfold svdcov svdcovDiv
    simp only [e2]

/-- A division that gives 7 for a zero divisor. -/
example : ∀ x y : ℝ, y ≠ 0 → (if y = 0 then 7 else x / y) = x / y := fun x y h => if_neg h

/-- A 2 x 1 example of the hypotheses: the single column (3/5, 4/5) stored with row length 2. -/
example : (matOf 2 1 2 (fun c => if c = 0 then 3 / 5 else if c = 2 then 4 / 5 else 7))ᵀ *
    matOf 2 1 2 (fun c => if c = 0 then 3 / 5 else if c = 2 then 4 / 5 else 7) = 1 := by
  ext i j
  have hi : i = 0 := Subsingleton.elim _ _
  have hj : j = 0 := Subsingleton.elim _ _
  subst hi hj
  simp [Matrix.mul_apply, matOf, Fin.sum_univ_two]
  norm_num
example : (matOf 1 1 2 (fun _ => 1))ᵀ * matOf 1 1 2 (fun _ => 1) = 1 := by
  ext i j
  have hi : i = 0 := Subsingleton.elim _ _
  have hj : j = 0 := Subsingleton.elim _ _
  subst hi hj
  simp [Matrix.mul_apply, matOf]

end Sla.Props
