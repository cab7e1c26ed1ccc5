import Verif.Lemmas.SvdReduce
import Verif.Lemmas.SvdAcc

/-
`svd`: the reduction and the QR iterations together.
-/
namespace Sla
open Finset Matrix

theorem ortho_iff {m n : ℕ} {a : Arr2} : Ortho m n a ↔ (toMat m n a)ᵀ * toMat m n a = 1 := by
  constructor
  · intro h
    ext p q
    rw [mul_apply, one_apply]
    have := h p p.2 q q.2
    rw [sum_range] at this
    simp only [transpose_apply, toMat]
    rw [this]
    simp only [Fin.ext_iff]
  · intro h p hp q hq
    have := congrFun (congrFun h ⟨p, hp⟩) ⟨q, hq⟩
    rw [mul_apply, one_apply] at this
    simp only [transpose_apply, toMat, Fin.ext_iff] at this
    rw [sum_range]
    exact this

/-- The state after the reduction to bidiagonal form and the accumulation. -/
noncomputable def reduced (m n : ℕ) (a v : Arr2) (w ws : FMem) : SvdState :=
  let F := house m n a w ws
  ⟨forDown n (accLeftStep m n F.w) F.a, (forDown n (accRightStep n F.a F.ws) (v, F.g, n)).1, F.w, F.ws, 0⟩

theorem svd_eq (negl : ℝ → ℝ → Bool) {m n : ℕ} (hnm : n ≤ m) (a v : Arr2) (w ws : FMem) :
    svd negl m n a v w ws = svdDiagonalise (negl (house m n a w ws).an) m n (reduced m n a v w ws) := by
  unfold svd
  rw [if_neg (by omega)]
  rfl

theorem reduced_ok {m n : ℕ} (hnm : n ≤ m) (hn : 0 < n) (a v : Arr2) (w ws : FMem) : SvdOk m n (reduced m n a v w ws) := by
  obtain ⟨h1, h2, -, h4⟩ := svd_reduce hnm a v w ws
  exact ⟨ortho_iff.2 h1, ortho_iff.2 h2, h4 hn⟩

theorem sum_bidiag (n : ℕ) (w ws α β : ℕ → ℝ) :
    ∑ p ∈ range n, ∑ q ∈ range n, α p * bidiag w ws p q * β q = form n (n - 1) w ws α β := by
  have e1 : ∀ p ∈ range n, ∑ q ∈ range n, α p * bidiag w ws p q * β q =
      w p * α p * β p + (if p < n - 1 then ws (p + 1) * α p * β (p + 1) else 0) := by
    intro p hp
    rw [mem_range] at hp
    have e2 : ∀ q ∈ range n, α p * bidiag w ws p q * β q =
        (if q = p then w p * α p * β p else 0) + (if q = p + 1 then ws (p + 1) * α p * β (p + 1) else 0) := by
      intro q _
      unfold bidiag
      by_cases h1 : p = q
      · subst h1; simp [-mul_eq_mul_left_iff, -mul_eq_mul_right_iff]; ring
      · rw [if_neg h1, if_neg (Ne.symm h1)]
        by_cases h2 : p + 1 = q
        · subst h2; simp [-mul_eq_mul_left_iff, -mul_eq_mul_right_iff]; ring
        · rw [if_neg h2, if_neg (Ne.symm h2)]; simp
    rw [sum_congr rfl e2, sum_add_distrib, sum_ite_eq', sum_ite_eq', if_pos (mem_range.2 hp)]
    congr 1
    simp only [mem_range]
    exact if_congr (by omega) rfl rfl
  rw [sum_congr rfl e1, sum_add_distrib]
  unfold form
  congr 1
  rw [← sum_subset (s₁ := range (n - 1)) (s₂ := range n)]
  · exact sum_congr rfl fun j hj => by rw [if_pos (mem_range.1 hj)]
  · intro j hj; rw [mem_range] at hj ⊢; omega
  · intro j _ hj; rw [mem_range] at hj; rw [if_neg hj]

theorem reduced_bil {m n : ℕ} (hnm : n ≤ m) (a v : Arr2) (w ws : FMem) (y x : ℕ → ℝ) :
    bil m n a y x = form n (n - 1) (reduced m n a v w ws).w (reduced m n a v w ws).ws (dotCol m y (reduced m n a v w ws).a)
      (dotCol n x (reduced m n a v w ws).v) := by
  obtain ⟨-, -, h3, -⟩ := svd_reduce hnm a v w ws
  set st := reduced m n a v w ws with hst
  change toMat m n a = toMat m n st.a * toMat n n (bidiag st.w st.ws) * (toMat n n st.v)ᵀ at h3
  have e : ∀ r < m, ∀ c < n, a r c = ∑ p ∈ range n, ∑ q ∈ range n, st.a r p * bidiag st.w st.ws p q * st.v c q := by
    intro r hr c hc
    have := congrFun (congrFun h3 ⟨r, hr⟩) ⟨c, hc⟩
    simp only [mul_apply, toMat, transpose_apply] at this
    rw [this, sum_comm, sum_range]
    refine sum_congr rfl fun q _ => ?_
    rw [sum_range, sum_mul]
  rw [← sum_bidiag]
  unfold bil dotCol
  calc ∑ r ∈ range m, ∑ c ∈ range n, y r * a r c * x c
      = ∑ r ∈ range m, ∑ c ∈ range n, ∑ p ∈ range n, ∑ q ∈ range n,
          y r * st.a r p * bidiag st.w st.ws p q * (x c * st.v c q) := by
        refine sum_congr rfl fun r hr => sum_congr rfl fun c hc => ?_
        rw [e r (mem_range.1 hr) c (mem_range.1 hc), mul_sum, sum_mul]
        refine sum_congr rfl fun p _ => ?_
        rw [mul_sum, sum_mul]
        exact sum_congr rfl fun q _ => by ring
    _ = ∑ p ∈ range n, ∑ q ∈ range n, ∑ r ∈ range m, ∑ c ∈ range n,
          y r * st.a r p * bidiag st.w st.ws p q * (x c * st.v c q) := by
        rw [show (∑ r ∈ range m, ∑ c ∈ range n, ∑ p ∈ range n, ∑ q ∈ range n,
          y r * st.a r p * bidiag st.w st.ws p q * (x c * st.v c q)) = ∑ r ∈ range m, ∑ p ∈ range n, ∑ q ∈ range n, ∑ c ∈ range n,
          y r * st.a r p * bidiag st.w st.ws p q * (x c * st.v c q) from sum_congr rfl fun r _ => by
            rw [sum_comm]; exact sum_congr rfl fun p _ => sum_comm]
        rw [sum_comm]
        exact sum_congr rfl fun p _ => sum_comm
    _ = ∑ p ∈ range n, ∑ q ∈ range n, (∑ r ∈ range m, y r * st.a r p) * bidiag st.w st.ws p q * ∑ c ∈ range n, x c * st.v c q := by
        refine sum_congr rfl fun p _ => sum_congr rfl fun q _ => ?_
        rw [sum_mul, sum_mul]
        refine sum_congr rfl fun r _ => ?_
        rw [mul_sum]

/-- The Frobenius norm. -/
noncomputable def frob (m n : ℕ) (a : Arr2) : ℝ := Real.sqrt (∑ r ∈ range m, ∑ c ∈ range n, a r c ^ 2)

theorem bil_le (m n : ℕ) (a : Arr2) (y x : ℕ → ℝ) : |bil m n a y x| ≤ frob m n a * (nrm m y * nrm n x) := by
  apply abs_le_of_sq_le_sq _ (mul_nonneg (Real.sqrt_nonneg _) (mul_nonneg (nrm_nonneg _ _) (nrm_nonneg _ _)))
  have h1 : bil m n a y x = ∑ z ∈ range m ×ˢ range n, a z.1 z.2 * (y z.1 * x z.2) := by
    unfold bil
    rw [sum_product]
    exact sum_congr rfl fun r _ => sum_congr rfl fun c _ => by ring
  rw [h1]
  refine (sum_mul_sq_le_sq_mul_sq _ _ _).trans (le_of_eq ?_)
  rw [mul_pow, mul_pow, nrm_sq, nrm_sq, Real.sq_sqrt (sum_nonneg fun _ _ => sum_nonneg fun _ _ => sq_nonneg _), sum_product,
    sum_product]
  congr 1
  rw [sum_mul_sum]
  exact sum_congr rfl fun r _ => sum_congr rfl fun c _ => by ring

theorem Ortho.nrm_col {rows n : ℕ} {a : Arr2} (h : Ortho rows n a) {j : ℕ} (hj : j < n) : nrm rows (fun r => a r j) = 1 := by
  unfold nrm
  have := h j hj j hj
  rw [if_pos rfl] at this
  rw [Real.sqrt_eq_one, ← this]
  exact sum_congr rfl fun _ _ => sq _

theorem form_single {n k p q : ℕ} (hp : p < n) (hk : k < n) (w ws α β : ℕ → ℝ) (hα : ∀ j < n, α j = if j = p then 1 else 0)
    (hβ : ∀ j < n, β j = if j = q then 1 else 0) :
    form n k w ws α β = (if p = q then w p else 0) + (if p + 1 = q ∧ p < k then ws q else 0) := by
  unfold form
  congr 1
  · rw [sum_eq_single p]
    · rw [hα p hp, hβ p hp, if_pos rfl]
      by_cases h : p = q <;> simp [h]
    · intro j hj hjp
      rw [hα j (mem_range.1 hj), if_neg hjp]; ring
    · intro h; rw [mem_range] at h; exact absurd hp h
  · by_cases hpk : p < k
    · rw [sum_eq_single p]
      · rw [hα p hp, hβ (p + 1) (by omega), if_pos rfl]
        by_cases h : p + 1 = q
        · rw [if_pos h, if_pos ⟨h, hpk⟩, h]; ring
        · rw [if_neg h, if_neg (by tauto)]; ring
      · intro j hj hjp
        rw [mem_range] at hj
        rw [hα j (by omega), if_neg hjp]; ring
      · intro h; rw [mem_range] at h; exact absurd hpk h
    · rw [if_neg (by tauto)]
      apply sum_eq_zero
      intro j hj
      rw [mem_range] at hj
      rw [hα j (by omega), if_neg (by omega)]; ring

/-- The elements of the bidiagonal form do not exceed the norm of the matrix. -/
theorem reduced_le {m n : ℕ} (hnm : n ≤ m) (a v : Arr2) (w ws : FMem) {i : ℕ} (hi : i < n) :
    |(house m n a w ws).w i| ≤ frob m n a ∧ |(house m n a w ws).ws i| ≤ frob m n a := by
  have hok := reduced_ok hnm (by omega) a v w ws
  set st := reduced m n a v w ws with hst
  change |st.w i| ≤ frob m n a ∧ |st.ws i| ≤ frob m n a
  have key : ∀ p q, p < n → q < n → |(if p = q then st.w p else 0) + (if p + 1 = q ∧ p < n - 1 then st.ws q else 0)| ≤ frob m n a := by
    intro p q hp hq
    have h1 := bil_le m n a (fun r => st.a r p) (fun c => st.v c q)
    rw [hok.left.nrm_col hp, hok.right.nrm_col hq, mul_one, mul_one, reduced_bil hnm a v w ws, ← hst,
      form_single hp (by omega)] at h1
    · exact h1
    · intro j hj
      have := hok.left p hp j hj
      simp only [dotCol]
      rw [this]; simp only [eq_comm]
    · intro j hj
      have := hok.right q hq j hj
      simp only [dotCol]
      rw [this]; simp only [eq_comm]
  constructor
  · have := key i i hi hi
    rwa [if_pos rfl, if_neg (by omega), add_zero] at this
  · rcases Nat.eq_zero_or_pos i with h0 | h0
    · subst h0
      rw [hok.first, abs_zero]; exact Real.sqrt_nonneg _
    · have := key (i - 1) i (by omega) hi
      rwa [if_neg (by omega), if_pos ⟨by omega, by omega⟩, zero_add] at this

/-- The bound of the negligibility test. -/
theorem house_an {m n : ℕ} (hnm : n ≤ m) (a : Arr2) (w ws : FMem) :
    0 ≤ (house m n a w ws).an ∧ (house m n a w ws).an ≤ 2 * frob m n a := by
  have key := forRange_ind (Nat.zero_le n) (houseStep m n) { a := a, w := w, ws := ws, g := 0, scale := 0, an := 0 }
    (fun k st => 0 ≤ st.an ∧ ∀ M, 0 ≤ M → (∀ i < k, |st.w i| + |st.ws i| ≤ M) → st.an ≤ M) ⟨le_rfl, fun M h _ => h⟩ ?_
  · refine ⟨key.1, key.2 _ (mul_nonneg zero_le_two (Real.sqrt_nonneg _)) fun i hi => ?_⟩
    have := reduced_le hnm a (fun _ _ => 0) w ws hi
    change |(house m n a w ws).w i| + |(house m n a w ws).ws i| ≤ _
    linarith [this.1, this.2]
  · rintro k st - hk ⟨g1, g2⟩
    obtain ⟨-, -, -, -, -, -, h7, h8, -⟩ := houseStep_spec (m := m) (by omega) hk st
    have e : (houseStep m n st k).an = max st.an (|(houseStep m n st k).w k| + |(houseStep m n st k).ws k|) := rfl
    refine ⟨by rw [e]; exact le_max_of_le_left g1, fun M hM h => ?_⟩
    rw [e]
    refine max_le (g2 M hM fun i hi => ?_) (h k (by omega))
    have := h i (by omega)
    rwa [h7 i (by omega), h8 i hi] at this

end Sla
