import Verif.Lemmas.SvdFinal
import Verif.Lemmas.SvdWitness
import Verif.Props.Svd
import Mathlib.Tactic.NormNum
import Mathlib.LinearAlgebra.Matrix.NonsingularInverse
import Mathlib.Analysis.InnerProductSpace.PiL2
import Mathlib.Analysis.Normed.Module.FiniteDimension

/-
C45, C69, C70, C71: `svd`.
-/
namespace Sla.Props
open Matrix Sla Finset

variable {m n : ℕ}

/-- Length of a vector. -/
noncomputable def vlen {k : ℕ} (x : Fin k → ℝ) : ℝ := Real.sqrt (x ⬝ᵥ x)

/-- Frobenius norm of a matrix: the square root of the sum of the squares of its elements. -/
noncomputable def fnorm (A : Matrix (Fin m) (Fin n) ℝ) : ℝ := Real.sqrt (∑ r, ∑ c, A r c ^ 2)

/-- The test `an + |x| == an` as computed with relative rounding error `u`: it accepts zero, and nothing above `u an`. -/
structure NegligibleTest (u : ℝ) (negl : ℝ → ℝ → Bool) : Prop where
  zero : ∀ an, negl an 0 = true
  small : ∀ an x, 0 ≤ an → negl an x = true → |x| ≤ u * an

theorem neglExact_test : NegligibleTest 0 neglExact where
  zero := fun an => by simp [neglExact]
  small := fun an x _ h => by
    simp only [neglExact, decide_eq_true_eq] at h
    linarith [abs_nonneg x]

/-- C45: too few rows. -/
theorem C45_shape (negl : ℝ → ℝ → Bool) (h : m < n) (a v : Arr2) (w ws : FMem) :
    svd negl m n a v w ws = some ⟨a, v, w, ws, -1⟩ := by
  unfold svd; rw [if_pos h]

/-- C45: for every other matrix the routine ends, without reading outside the arrays and without dividing by zero in the shift; the
    status is zero or the index of a singular value other than the first, and with status zero the singular values are
    non-negative. -/
theorem C45_total {negl : ℝ → ℝ → Bool} {u : ℝ} (hn : NegligibleTest u negl) (h : n ≤ m) (a v : Arr2) (w ws : FMem) :
    ∃ st, svd negl m n a v w ws = some st ∧
      ((st.status = 0 ∧ ∀ j < n, 0 ≤ st.w j) ∨ (0 < st.status ∧ st.status < n)) := by
  rw [svd_eq negl h]
  rcases Nat.eq_zero_or_pos n with h0 | h0
  · subst h0
    exact ⟨_, rfl, Or.inl ⟨rfl, fun j hj => absurd hj (by omega)⟩⟩
  · obtain ⟨st, e1, -, e3⟩ := svdDiagonalise_ok (hn.zero _) _ (reduced_ok h h0 a v w ws) rfl
    exact ⟨st, e1, e3⟩

example : ∃ st, svd neglExact 1 1 (fun _ _ => 0) (fun _ _ => 7) (fun _ => 7) (fun _ => 7) = some st ∧ st.status = 0 := by
  obtain ⟨st, h1, h2⟩ := C45_total neglExact_test (le_refl 1) (fun _ _ => 0) (fun _ _ => 7) (fun _ => 7) (fun _ => 7)
  exact ⟨st, h1, by omega⟩

/-- C69: whatever the status, the columns of the arrays U and V are orthonormal. -/
theorem C69_orthonormal {negl : ℝ → ℝ → Bool} {u : ℝ} (hn : NegligibleTest u negl) (h : n ≤ m) (a v : Arr2) (w ws : FMem)
    {st : SvdState} (hs : svd negl m n a v w ws = some st) :
    (toMat m n st.a)ᵀ * toMat m n st.a = 1 ∧ (toMat n n st.v)ᵀ * toMat n n st.v = 1 ∧
      toMat n n st.v * (toMat n n st.v)ᵀ = 1 := by
  rw [svd_eq negl h] at hs
  rcases Nat.eq_zero_or_pos n with h0 | h0
  · subst h0
    exact ⟨Subsingleton.elim _ _, Subsingleton.elim _ _, Subsingleton.elim _ _⟩
  · obtain ⟨st', e1, e2, -⟩ := svdDiagonalise_ok (hn.zero _) _ (reduced_ok h h0 a v w ws) rfl
    rw [hs] at e1
    obtain rfl := Option.some.inj e1
    have hv := ortho_iff.1 e2.right
    exact ⟨ortho_iff.1 e2.left, hv, mul_eq_one_comm.1 hv⟩

/-- A vector as a sequence. -/
def ext0 {k : ℕ} (x : Fin k → ℝ) : ℕ → ℝ := fun i => if h : i < k then x ⟨i, h⟩ else 0

theorem ext0_fin {k : ℕ} (x : Fin k → ℝ) (i : Fin k) : ext0 x i = x i := by simp [ext0]

theorem nrm_ext0 {k : ℕ} (x : Fin k → ℝ) : nrm k (ext0 x) = vlen x := by
  unfold nrm vlen
  rw [sum_range]
  simp only [ext0_fin, dotProduct, sq]

theorem frob_eq (a : Arr2) : frob m n a = fnorm (toMat m n a) := by
  unfold frob fnorm
  rw [sum_range]
  simp only [sum_range, toMat]

theorem bil_ext0 (a : Arr2) (y : Fin m → ℝ) (x : Fin n → ℝ) : bil m n a (ext0 y) (ext0 x) = y ⬝ᵥ (toMat m n a *ᵥ x) := by
  unfold bil
  simp only [sum_range, ext0_fin, dotProduct, mulVec, toMat, mul_sum, mul_assoc]

theorem form_ext0 (st : SvdState) (y : Fin m → ℝ) (x : Fin n → ℝ) :
    form n 0 st.w st.ws (dotCol m (ext0 y) st.a) (dotCol n (ext0 x) st.v) =
      y ⬝ᵥ ((toMat m n st.a * diagonal (fun j : Fin n => st.w j) * (toMat n n st.v)ᵀ) *ᵥ x) := by
  unfold form dotCol
  rw [sum_range_zero, add_zero, ← mulVec_mulVec, ← mulVec_mulVec, dotProduct_mulVec, ← mulVec_transpose]
  simp only [sum_range, ext0_fin, dotProduct, mulVec_diagonal]
  refine sum_congr rfl fun j _ => ?_
  simp only [mulVec, dotProduct, transpose_apply, toMat]
  have e1 : ∑ i : Fin m, y i * st.a i j = ∑ i : Fin m, st.a i j * y i := sum_congr rfl fun _ _ => mul_comm _ _
  have e2 : ∑ i : Fin n, x i * st.v i j = ∑ i : Fin n, st.v i j * x i := sum_congr rfl fun _ _ => mul_comm _ _
  rw [e1, e2]; ring

/-- C70: with status zero, the product U W Vᵀ reproduces the matrix with an error, in the operator norm, of at most 60 n u times
    its Frobenius norm, if its columns are not linearly dependent to that accuracy. -/
theorem C70_backward {negl : ℝ → ℝ → Bool} {u σ : ℝ} (hn : NegligibleTest u negl) (hu : 0 ≤ u) (h : n ≤ m)
    (a v : Arr2) (w ws : FMem) (hσ : ∀ x : Fin n → ℝ, σ * vlen x ≤ vlen (toMat m n a *ᵥ x))
    (hu2 : (60 * n + 2) * u * fnorm (toMat m n a) < σ)
    {st : SvdState} (hs : svd negl m n a v w ws = some st) (h0 : st.status = 0) (y : Fin m → ℝ) (x : Fin n → ℝ) :
    |y ⬝ᵥ ((toMat m n a - toMat m n st.a * diagonal (fun j : Fin n => st.w j) * (toMat n n st.v)ᵀ) *ᵥ x)| ≤
      60 * n * u * fnorm (toMat m n a) * (vlen y * vlen x) := by
  rw [svd_eq negl h] at hs
  rcases Nat.eq_zero_or_pos n with hn0 | hn0
  · subst hn0
    simp [Subsingleton.elim x 0]
  obtain ⟨an0, an1⟩ := house_an h a w ws
  rw [frob_eq] at an1
  have hF : 0 ≤ fnorm (toMat m n a) := Real.sqrt_nonneg _
  have key := svdDiagonalise_near (hn.zero (house m n a w ws).an) (A := a) (δ := u * (2 * fnorm (toMat m n a))) (σ := σ)
    (fun z hz => (hn.small _ z an0 hz).trans (mul_le_mul_of_nonneg_left an1 hu)) ?_ (by nlinarith) _ (reduced_ok h hn0 a v w ws) rfl ?_
    st hs h0
  · have := key (ext0 y) (ext0 x)
    rw [bil_ext0, form_ext0, nrm_ext0, nrm_ext0] at this
    rw [sub_mulVec, dotProduct_sub]
    calc _ ≤ _ := this
      _ = _ := by ring
  · intro z
    have := hσ (fun i => z i)
    have e1 : nrm n z = vlen (fun i : Fin n => z i) := by
      unfold nrm vlen; rw [sum_range]; simp only [dotProduct, sq]
    have e2 : nrm m (fun r => ∑ c ∈ range n, a r c * z c) = vlen (toMat m n a *ᵥ fun i : Fin n => z i) := by
      unfold nrm vlen; rw [sum_range]; simp only [dotProduct, sq, mulVec, toMat, sum_range]
    rw [e1, e2]; exact this
  · intro y x
    rw [← reduced_bil h a v w ws, sub_self, abs_zero, zero_mul]

theorem vlen_eq {k : ℕ} (x : Fin k → ℝ) : vlen x = ‖WithLp.toLp 2 x‖ := by
  rw [EuclideanSpace.norm_eq]
  simp [vlen, dotProduct, sq]

/-- A matrix with independent columns has a smallest singular value. -/
theorem exists_sigma (A : Matrix (Fin m) (Fin n) ℝ) (h : ∀ x, A *ᵥ x = 0 → x = 0) :
    ∃ σ, 0 < σ ∧ ∀ x : Fin n → ℝ, σ * vlen x ≤ vlen (A *ᵥ x) := by
  obtain ⟨K, hK, hf⟩ := LinearMap.exists_antilipschitzWith (Matrix.toLpLin 2 2 A) (by
    rw [LinearMap.ker_eq_bot']
    intro x hx
    have : A *ᵥ x.ofLp = 0 := by
      have := congrArg WithLp.ofLp hx
      simpa using this
    ext i
    rw [h _ this]; rfl)
  refine ⟨1 / K, by positivity, fun x => ?_⟩
  have h1 := hf.le_mul_dist (WithLp.toLp 2 x) 0
  rw [dist_zero_right, map_zero, dist_zero_right] at h1
  have h2 : (Matrix.toLpLin 2 2 A) (WithLp.toLp 2 x) = WithLp.toLp 2 (A *ᵥ x) := by simp
  rw [h2, ← vlen_eq, ← vlen_eq] at h1
  rw [one_div, inv_mul_le_iff₀ (by exact_mod_cast hK)]
  exact h1

/-- C70 in exact arithmetic: with status zero and linearly independent columns, A = U W Vᵀ. -/
theorem C70_exact (h : n ≤ m) (a v : Arr2) (w ws : FMem) (hA : ∀ x, toMat m n a *ᵥ x = 0 → x = 0)
    {st : SvdState} (hs : svd neglExact m n a v w ws = some st) (hst : st.status = 0) :
    toMat m n a = toMat m n st.a * diagonal (fun j : Fin n => st.w j) * (toMat n n st.v)ᵀ := by
  obtain ⟨σ, h0, hσ⟩ := exists_sigma _ hA
  rw [← sub_eq_zero]
  ext i j
  have := C70_backward neglExact_test le_rfl h a v w ws hσ (by rw [mul_zero, zero_mul]; exact h0) hs hst
    (Pi.single i 1) (Pi.single j 1)
  rw [mul_zero, zero_mul, zero_mul, single_one_dotProduct, mulVec_single_one, abs_nonpos_iff] at this
  exact this

/-- C70: the numbers in `w` are the singular values: their squares are the eigenvalues of AᵀA, with the columns of V as
    eigenvectors, and so are they of AAᵀ with the columns of U. -/
theorem C70_singular_values (h : n ≤ m) (a v : Arr2) (w ws : FMem) (hA : ∀ x, toMat m n a *ᵥ x = 0 → x = 0)
    {st : SvdState} (hs : svd neglExact m n a v w ws = some st) (hst : st.status = 0) (j : Fin n) :
    ((toMat m n a)ᵀ * toMat m n a) *ᵥ (fun i : Fin n => st.v i j) = st.w j ^ 2 • (fun i : Fin n => st.v i j) ∧
    (toMat m n a * (toMat m n a)ᵀ) *ᵥ (fun i : Fin m => st.a i j) = st.w j ^ 2 • (fun i : Fin m => st.a i j) ∧
    0 < st.w j := by
  have hE := C70_exact h a v w ws hA hs hst
  obtain ⟨o1, o2, o3⟩ := C69_orthonormal neglExact_test h a v w ws hs
  set U := toMat m n st.a with hU
  set V := toMat n n st.v with hV
  set W := diagonal (fun j : Fin n => st.w j) with hW
  have e1 : toMat m n a * V = U * W := by rw [hE, Matrix.mul_assoc, o2, Matrix.mul_one]
  have e2 : (toMat m n a)ᵀ * U = V * W := by
    rw [hE, transpose_mul, transpose_mul, transpose_transpose, hW, diagonal_transpose, Matrix.mul_assoc, Matrix.mul_assoc, o1,
      Matrix.mul_one]
  have c1 : ∀ {p q : ℕ} (M : Matrix (Fin p) (Fin q) ℝ) (N : Matrix (Fin q) (Fin n) ℝ), M *ᵥ (fun i => N i j) = fun i => (M * N) i j :=
    fun M N => rfl
  have c2 : ∀ {p : ℕ} (N : Matrix (Fin p) (Fin n) ℝ), (fun i => (N * W * W) i j) = st.w j ^ 2 • fun i => N i j := by
    intro p N
    funext i
    rw [hW, mul_diagonal, mul_diagonal, Pi.smul_apply, smul_eq_mul]; ring
  refine ⟨?_, ?_, ?_⟩
  · have : (fun i : Fin n => st.v i j) = fun i => V i j := rfl
    rw [this, c1, Matrix.mul_assoc, e1, ← Matrix.mul_assoc, e2, c2]
  · have : (fun i : Fin m => st.a i j) = fun i => U i j := rfl
    rw [this, c1, Matrix.mul_assoc, e2, ← Matrix.mul_assoc, e1, c2]
  · obtain ⟨st', g1, g2⟩ := C45_total neglExact_test h a v w ws
    rw [hs] at g1
    obtain rfl := Option.some.inj g1
    have hn : 0 ≤ st.w j := by
      rcases g2 with g | g
      · exact g.2 j j.2
      · omega
    refine lt_of_le_of_ne hn fun h0 => ?_
    have hz : toMat m n a *ᵥ (fun i => V i j) = 0 := by
      rw [c1, e1]
      funext i
      rw [hW, mul_diagonal, ← h0, mul_zero]; rfl
    have hv := hA _ hz
    have := congrFun (congrFun o2 j) j
    rw [mul_apply, one_apply_eq] at this
    simp only [transpose_apply] at this
    have h1 : ∀ i, V i j = 0 := fun i => congrFun hv i
    simp [h1] at this

/-- C70: `svd` followed by `svdsol` gives the least-squares solution. -/
theorem C70_least_squares (h : n ≤ m) (a v : Arr2) (w ws : FMem) (hA : ∀ x, toMat m n a *ᵥ x = 0 → x = 0)
    {st : SvdState} (hs : svd neglExact m n a v w ws = some st) (hst : st.status = 0) (np : ℕ) (u' v' b ws' x : FMem)
    (hu : ∀ r < m, ∀ c < n, u' (r * np + c) = st.a r c) (hv : ∀ r < n, ∀ c < n, v' (r * np + c) = st.v r c) :
    let X := vecOf n (svdsol m n np b u' st.w v' ws' x).2
    ∀ y, y ≠ X → normSq (toMat m n a *ᵥ X - vecOf m b) < normSq (toMat m n a *ᵥ y - vecOf m b) := by
  intro X y hy
  have eu : matOf m n np u' = toMat m n st.a := by ext i j; exact hu i i.2 j j.2
  have ev : matOf n n np v' = toMat n n st.v := by ext i j; exact hv i i.2 j j.2
  obtain ⟨o1, o2, -⟩ := C69_orthonormal neglExact_test h a v w ws hs
  have key := C44_svdsol m n np b u' st.w v' ws' x (by rw [eu, o1]) (by rw [ev, o2])
  have hE := C70_exact h a v w ws hA hs hst
  have e3 : matOf m n np u' * diagonal (vecOf n st.w) * (matOf n n np v')ᵀ = toMat m n a := by rw [eu, ev]; exact hE.symm
  simp only [e3] at key
  obtain ⟨k1, k2⟩ := key
  refine lt_of_le_of_ne (k1 y) fun e => ?_
  -- two minimisers: the middle would be better
  have hne : toMat m n a *ᵥ (y - X) ≠ 0 := fun h0 => hy (sub_eq_zero.1 (hA _ h0))
  have k3 := k1 ((1 / 2 : ℝ) • (X + y))
  have k4 : normSq (toMat m n a *ᵥ ((1 / 2 : ℝ) • (X + y)) - vecOf m b) =
      (1 / 2) * normSq (toMat m n a *ᵥ X - vecOf m b) + (1 / 2) * normSq (toMat m n a *ᵥ y - vecOf m b) -
        (1 / 4) * normSq (toMat m n a *ᵥ (y - X)) := by
    rw [mulVec_smul, mulVec_add, mulVec_sub]
    unfold normSq dotProduct
    rw [mul_sum, mul_sum, mul_sum, ← sum_add_distrib, ← sum_sub_distrib]
    refine sum_congr rfl fun i _ => ?_
    simp only [Pi.sub_apply, Pi.smul_apply, Pi.add_apply, smul_eq_mul]
    ring
  have k5 : 0 < normSq (toMat m n a *ᵥ (y - X)) := by
    have h6 : 0 ≤ normSq (toMat m n a *ᵥ (y - X)) := by
      unfold normSq dotProduct
      exact sum_nonneg fun i _ => mul_self_nonneg _
    refine lt_of_le_of_ne h6 fun h0 => hne ?_
    unfold normSq dotProduct at h0
    funext i
    exact mul_self_eq_zero.1 ((sum_eq_zero_iff_of_nonneg fun i _ => mul_self_nonneg _).1 h0.symm i (mem_univ i))
  change normSq (toMat m n a *ᵥ X - vecOf m b) ≤ normSq (toMat m n a *ᵥ ((1 / 2 : ℝ) • (X + y)) - vecOf m b) at k3
  rw [k4] at k3
  linarith

/-- The hypotheses of C69 and C70 hold of the column (3, 4), whose singular value is 5. -/
example : ∃ st, svd neglExact 2 1 (fun r _ => if r = 0 then 3 else 4) (fun _ _ => 7) (fun _ => 7) (fun _ => 7) = some st ∧
    st.status = 0 ∧ st.w 0 = 5 := by
  obtain ⟨st, h1, h2⟩ := C45_total neglExact_test (show 1 ≤ 2 by norm_num) (fun r _ => if r = 0 then 3 else 4) (fun _ _ => 7)
    (fun _ => 7) (fun _ => 7)
  have h0 : st.status = 0 := by omega
  refine ⟨st, h1, h0, ?_⟩
  obtain ⟨g1, -, g3⟩ := C70_singular_values (show 1 ≤ 2 by norm_num) (fun r _ => if r = 0 then 3 else 4) (fun _ _ => 7)
    (fun _ => 7) (fun _ => 7) (by
      intro x hx
      have := congrFun hx 0
      simp [mulVec, dotProduct, toMat] at this
      funext i
      rw [Subsingleton.elim i 0]; simpa using this) h1 h0 0
  obtain ⟨-, o2, -⟩ := C69_orthonormal neglExact_test (show 1 ≤ 2 by norm_num) _ _ _ _ h1
  have o := congrFun (congrFun o2 0) 0
  have g := congrFun g1 0
  simp [mulVec, dotProduct, toMat, mul_apply] at o g
  simp only [Fin.val_zero] at g3
  have hv : st.v 0 0 ≠ 0 := fun e => by rw [e] at o; norm_num at o
  have : st.w 0 ^ 2 = 25 := by
    rcases g with h | h
    · linarith
    · exact absurd h hv
  nlinarith

/-- C71: a matrix of less than full rank.  In exact arithmetic, with status zero, the squares of the singular values of
    ((0, 3, 0), (0, 4, 5), (0, 0, 0)) add up to 59 instead of 50, and the product U W Vᵀ is not the matrix. -/
theorem C71_rank_deficient (v : Arr2) (w ws : FMem) :
    ∃ st, svd neglExact 3 3 badA v w ws = some st ∧ st.status = 0 ∧
      toMat 3 3 badA = !![0, 3, 0; 0, 4, 5; 0, 0, 0] ∧
      st.w 0 ^ 2 + st.w 1 ^ 2 + st.w 2 ^ 2 = 59 ∧ fnorm (toMat 3 3 badA) ^ 2 = 50 ∧
      toMat 3 3 badA ≠ toMat 3 3 st.a * diagonal (fun j : Fin 3 => st.w j) * (toMat 3 3 st.v)ᵀ := by
  obtain ⟨st, h1, h2, h3⟩ := bad_run v w ws
  have hA : toMat 3 3 badA = !![0, 3, 0; 0, 4, 5; 0, 0, 0] := by
    ext i j; fin_cases i <;> fin_cases j <;> simp [toMat, badA]
  refine ⟨st, h1, h2, hA, h3, ?_, fun e => ?_⟩
  · have : fnorm (toMat 3 3 badA) = Real.sqrt 50 := by
      rw [hA]
      unfold fnorm
      congr 1
      simp [Fin.sum_univ_three]; norm_num
    rw [this, Real.sq_sqrt (by norm_num)]
  · obtain ⟨o1, o2, -⟩ := C69_orthonormal neglExact_test le_rfl badA v w ws h1
    have t1 : trace ((toMat 3 3 badA)ᵀ * toMat 3 3 badA) = 50 := by
      rw [hA]; simp [trace, mul_apply, Fin.sum_univ_three]; norm_num
    have t2 : trace ((toMat 3 3 badA)ᵀ * toMat 3 3 badA) = 59 := by
      rw [e, transpose_mul, transpose_mul, transpose_transpose, diagonal_transpose]
      rw [trace_mul_comm]
      set U := toMat 3 3 st.a
      set V := toMat 3 3 st.v
      set W := diagonal (fun j : Fin 3 => st.w j) with hW
      have : U * W * Vᵀ * (V * (W * Uᵀ)) = U * (W * W) * Uᵀ := by
        rw [Matrix.mul_assoc (U * W), ← Matrix.mul_assoc Vᵀ, o2, Matrix.one_mul]
        simp only [Matrix.mul_assoc]
      rw [this, trace_mul_comm, ← Matrix.mul_assoc, o1, Matrix.one_mul, hW, diagonal_mul_diagonal, trace_diagonal,
        Fin.sum_univ_three]
      simp only [Fin.val_zero, Fin.val_one, Fin.val_two]
      linarith
    rw [t1] at t2; norm_num at t2

end Sla.Props
