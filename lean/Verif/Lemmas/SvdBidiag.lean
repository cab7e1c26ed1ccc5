import Verif.Lemmas.SvdReflect

/-
The Householder reduction of `svd` and the accumulation of its transformations: A = U B Vᵀ.
-/
namespace Sla
open Finset Matrix

/-- The `m` x `n` matrix held in an array. -/
def toMat (m n : ℕ) (a : Arr2) : Matrix (Fin m) (Fin n) ℝ := fun r c => a r c

/-- The left-hand reflection stored in column `i` of `a` and in `w[i]`. -/
noncomputable def leftRefl (m : ℕ) (a : Arr2) (w : ℝ) (i : ℕ) : Matrix (Fin m) (Fin m) ℝ :=
  refl (if w = 0 then 0 else 1 / (a i i * w)) (fun k : Fin m => if i ≤ (k : ℕ) then a k i else 0)

/-- The right-hand reflection stored in row `i` of `a` and in `ws[i + 1]`. -/
noncomputable def rightRefl (n : ℕ) (a : Arr2) (g : ℝ) (i : ℕ) : Matrix (Fin n) (Fin n) ℝ :=
  refl (if g = 0 then 0 else 1 / (a i (i + 1) * g)) (fun k : Fin n => if i + 1 ≤ (k : ℕ) then a i k else 0)

theorem absSum_eq_zero {lo hi : ℕ} {x : ℕ → ℝ} (h : absSum lo hi x = 0) {k : ℕ} (h1 : lo ≤ k) (h2 : k < hi) : x k = 0 := by
  have := (sum_eq_zero_iff_of_nonneg fun k _ => abs_nonneg (x k)).1 h k (mem_Ico.2 ⟨h1, h2⟩)
  exact abs_eq_zero.1 this

/-- The left-hand half of a pass. -/
theorem houseLeft_spec {m n i : ℕ} (him : i < m) (hin : i < n) (a L : Arr2)
    (h1 : ∀ r c, i ≤ r → c < i → L r c = 0) (h2 : ∀ r c, i ≤ r → i ≤ c → L r c = a r c) :
    let a1 := (houseLeft m n i a).1
    let w := (houseLeft m n i a).2.2 * (houseLeft m n i a).2.1
    leftRefl m a1 w i * leftRefl m a1 w i = 1 ∧
    leftRefl m a1 w i * toMat m n L = toMat m n (fun r c => if r < i then L r c else if c < i then 0
      else if c = i then (if r = i then w else 0) else a1 r c) ∧
    (w ≠ 0 → a1 i i ≠ 0) ∧
    ∀ r c, (r < i ∨ c < i) → a1 r c = a r c := by
  by_cases h : absSum i m (fun k => a k i) = 0
  · rw [houseLeft_zero a h]
    simp only [mul_zero, zero_mul, leftRefl, if_true]
    have e1 : ∀ u : Fin m → ℝ, refl 0 u = 1 := fun u => by rw [refl, zero_smul, add_zero]
    rw [e1]
    refine ⟨Matrix.one_mul _, ?_, by simp, by simp⟩
    rw [Matrix.one_mul]
    ext r c
    simp only [toMat]
    by_cases hr : (r : ℕ) < i
    · rw [if_pos hr]
    · rw [if_neg hr]
      push Not at hr
      by_cases hc : (c : ℕ) < i
      · rw [if_pos hc, h1 r c hr hc]
      · rw [if_neg hc]
        push Not at hc
        rw [h2 r c hr hc]
        by_cases hc' : (c : ℕ) = i
        · rw [if_pos hc', hc']
          have : a r i = 0 := absSum_eq_zero h hr r.2
          rw [this]; simp
        · rw [if_neg hc']
  · rw [houseLeft_eq him hin a h]
    simp only
    set S := absSum i m (fun k => a k i) with hS
    set G := houseG i m (fun k => a k i) with hG
    set H := houseH i m (fun k => a k i) with hH
    set U := houseU i m (fun k => a k i) with hU
    have hG0 : G ≠ 0 := houseG_ne h
    have hH0 : H ≠ 0 := (houseH_neg h).ne
    have hU0 : U i ≠ 0 := houseU_lo_ne h
    have hUG : U i * G = H := houseU_mul_G h
    have hUU : ∑ k ∈ Ico i m, U k * U k = -2 * H := houseU_sq him h
    have hUx : ∑ k ∈ Ico i m, U k * a k i = -H * S := houseU_dot him h
    have hw : S * G ≠ 0 := mul_ne_zero h hG0
    have hl : ∀ a1 : Arr2, (∀ r, i ≤ r → r < m → a1 r i = U r * S) →
        leftRefl m a1 (S * G) i = refl (1 / (S * S * H)) (fun k : Fin m => if i ≤ (k : ℕ) then U k * S else 0) := by
      intro a1 e
      unfold leftRefl
      rw [if_neg hw, e i le_rfl him]
      congr 1
      · rw [← hUG]; ring
      · funext k
        by_cases hk : i ≤ (k : ℕ)
        · rw [if_pos hk, if_pos hk, e k hk k.2]
        · rw [if_neg hk, if_neg hk]
    rw [hl _ (fun r e1 e2 => by simp only [e1, e2, and_self, if_true])]
    refine ⟨refl_sq ?_, ?_, ?_, ?_⟩
    · have : ∑ k : Fin m, (if i ≤ (k : ℕ) then U k * S else 0) * (if i ≤ (k : ℕ) then U k * S else 0) =
          ∑ k ∈ Ico i m, U k * S * (U k * S) := by
        rw [← sum_fin_ge]
        apply sum_congr rfl
        intro k _
        split_ifs <;> simp
      rw [this]
      have : ∑ k ∈ Ico i m, U k * S * (U k * S) = S * S * (-2 * H) := by
        rw [← hUU, mul_sum]
        apply sum_congr rfl
        intro k _; ring
      rw [this]
      field_simp
      ring
    · ext r c
      rw [refl_mul_apply]
      simp only [toMat]
      have hsum : ∑ k : Fin m, (if i ≤ (k : ℕ) then U k * S else 0) * L k c =
          if (c : ℕ) < i then 0 else S * ∑ k ∈ Ico i m, U k * a k c := by
        by_cases hc : (c : ℕ) < i
        · rw [if_pos hc]
          apply sum_eq_zero
          intro k _
          by_cases hk : i ≤ (k : ℕ)
          · rw [h1 k c hk hc, mul_zero]
          · rw [if_neg hk, zero_mul]
        · rw [if_neg hc, mul_sum, ← sum_fin_ge]
          apply sum_congr rfl
          intro k _
          by_cases hk : i ≤ (k : ℕ)
          · rw [if_pos hk, if_pos hk, h2 k c hk (by omega)]; ring
          · rw [if_neg hk, if_neg hk, zero_mul]
      rw [hsum]
      by_cases hr : (r : ℕ) < i
      · rw [if_pos hr, if_neg (show ¬ i ≤ (r : ℕ) by omega), mul_zero, add_zero]
      · have hr' : i ≤ (r : ℕ) := by omega
        rw [if_neg hr, if_pos hr']
        by_cases hc : (c : ℕ) < i
        · rw [if_pos hc, if_pos hc, h1 r c hr' hc]; ring
        · rw [if_neg hc, if_neg hc, h2 r c hr' (by omega)]
          by_cases hc' : (c : ℕ) = i
          · rw [if_pos hc', hc', hUx]
            have hx : (1 / (S * S * H) * (S * (-H * S)) * (U r * S)) = -(U r * S) := by field_simp
            rw [hx]
            by_cases hri : (r : ℕ) = i
            · rw [if_pos hri, hri, hU, houseU_lo, ← hS, ← hG]
              field_simp; ring
            · rw [if_neg hri, hU, houseU, if_neg hri, ← hS]
              field_simp; ring
          · rw [if_neg hc', if_pos ⟨hr', r.2⟩, if_neg hc', if_pos ⟨by omega, c.2⟩]
            field_simp
    · intro _
      simp only [le_refl, him, and_self, if_true]
      exact mul_ne_zero hU0 h
    · intro r c hrc
      by_cases hr : i ≤ r ∧ r < m
      · rw [if_pos hr, if_neg (by omega), if_neg (by omega)]
      · rw [if_neg hr]

/-- The right-hand half of a pass. -/
theorem houseRight_spec {m n i : ℕ} (him : i < m) (a M : Arr2) (ws : FMem)
    (h1 : ∀ r c, r < i → i < c → M r c = 0) (h2 : ∀ r c, i ≤ r → i < c → M r c = a r c) :
    let a2 := (houseRight m n i a ws).1
    let g := (houseRight m n i a ws).2.2.2 * (houseRight m n i a ws).2.2.1
    rightRefl n a2 g i * rightRefl n a2 g i = 1 ∧
    toMat m n M * rightRefl n a2 g i = toMat m n (fun r c => if c ≤ i then M r c else if r < i then 0
      else if r = i then (if c = i + 1 then g else 0) else a2 r c) ∧
    (g ≠ 0 → a2 i (i + 1) ≠ 0) ∧
    (∀ r c, (r < i ∨ c ≤ i) → a2 r c = a r c) ∧ ∀ j ≤ i, (houseRight m n i a ws).2.1 j = ws j := by
  by_cases h : absSum (i + 1) n (fun k => a i k) = 0
  · rw [houseRight_zero a ws h]
    simp only [mul_zero, rightRefl, if_true]
    have e1 : ∀ u : Fin n → ℝ, refl 0 u = 1 := fun u => by rw [refl, zero_smul, add_zero]
    rw [e1]
    refine ⟨Matrix.one_mul _, ?_, by simp, by simp, by simp⟩
    rw [Matrix.mul_one]
    ext r c
    simp only [toMat]
    by_cases hc : (c : ℕ) ≤ i
    · rw [if_pos hc]
    · rw [if_neg hc]
      push Not at hc
      by_cases hr : (r : ℕ) < i
      · rw [if_pos hr, h1 r c hr hc]
      · rw [if_neg hr]
        push Not at hr
        rw [h2 r c hr hc]
        by_cases hr' : (r : ℕ) = i
        · rw [if_pos hr', hr']
          have : a i c = 0 := absSum_eq_zero (x := fun k => a i k) h hc c.2
          rw [this]; simp
        · rw [if_neg hr']
  · have hin : i + 1 < n := by
      by_contra hc
      apply h
      unfold absSum
      rw [Ico_eq_empty (by omega), sum_empty]
    rw [houseRight_eq him a ws h]
    simp only
    set S := absSum (i + 1) n (fun k => a i k) with hS
    set G := houseG (i + 1) n (fun k => a i k) with hG
    set H := houseH (i + 1) n (fun k => a i k) with hH
    set U := houseU (i + 1) n (fun k => a i k) with hU
    have hG0 : G ≠ 0 := houseG_ne h
    have hH0 : H ≠ 0 := (houseH_neg h).ne
    have hU0 : U (i + 1) ≠ 0 := houseU_lo_ne h
    have hUG : U (i + 1) * G = H := houseU_mul_G h
    have hUU : ∑ k ∈ Ico (i + 1) n, U k * U k = -2 * H := houseU_sq hin h
    have hUx : ∑ k ∈ Ico (i + 1) n, U k * a i k = -H * S := houseU_dot hin h
    have hw : S * G ≠ 0 := mul_ne_zero h hG0
    have hl : ∀ a1 : Arr2, (∀ c, i + 1 ≤ c → c < n → a1 i c = U c * S) →
        rightRefl n a1 (S * G) i = refl (1 / (S * S * H)) (fun k : Fin n => if i + 1 ≤ (k : ℕ) then U k * S else 0) := by
      intro a1 e
      unfold rightRefl
      rw [if_neg hw, e (i + 1) le_rfl hin]
      congr 1
      · rw [← hUG]; ring
      · funext k
        by_cases hk : i + 1 ≤ (k : ℕ)
        · rw [if_pos hk, if_pos hk, e k hk k.2]
        · rw [if_neg hk, if_neg hk]
    rw [hl _ (fun c e1 e2 => by rw [if_pos (by omega), if_pos rfl])]
    refine ⟨refl_sq ?_, ?_, ?_, ?_, ?_⟩
    · have : ∑ k : Fin n, (if i + 1 ≤ (k : ℕ) then U k * S else 0) * (if i + 1 ≤ (k : ℕ) then U k * S else 0) =
          ∑ k ∈ Ico (i + 1) n, U k * S * (U k * S) := by
        rw [← sum_fin_ge]
        apply sum_congr rfl
        intro k _
        split_ifs <;> simp
      rw [this]
      have : ∑ k ∈ Ico (i + 1) n, U k * S * (U k * S) = S * S * (-2 * H) := by
        rw [← hUU, mul_sum]
        apply sum_congr rfl
        intro k _; ring
      rw [this]
      field_simp
      ring
    · ext r c
      rw [mul_refl_apply]
      simp only [toMat]
      have hsum : ∑ k : Fin n, M r k * (if i + 1 ≤ (k : ℕ) then U k * S else 0) =
          if (r : ℕ) < i then 0 else S * ∑ k ∈ Ico (i + 1) n, U k * a r k := by
        by_cases hr : (r : ℕ) < i
        · rw [if_pos hr]
          apply sum_eq_zero
          intro k _
          by_cases hk : i + 1 ≤ (k : ℕ)
          · rw [h1 r k hr hk, zero_mul]
          · rw [if_neg hk, mul_zero]
        · rw [if_neg hr, mul_sum, ← sum_fin_ge]
          apply sum_congr rfl
          intro k _
          by_cases hk : i + 1 ≤ (k : ℕ)
          · rw [if_pos hk, if_pos hk, h2 r k (by omega) hk]; ring
          · rw [if_neg hk, if_neg hk, mul_zero]
      rw [hsum]
      by_cases hc : (c : ℕ) ≤ i
      · rw [if_pos hc, if_neg (show ¬ i + 1 ≤ (c : ℕ) by omega), mul_zero, add_zero]
      · have hc' : i < (c : ℕ) := by omega
        rw [if_neg hc, if_pos (show i + 1 ≤ (c : ℕ) by omega)]
        by_cases hr : (r : ℕ) < i
        · rw [if_pos hr, if_pos hr, h1 r c hr hc']; ring
        · rw [if_neg hr, if_neg hr, h2 r c (by omega) hc']
          by_cases hr' : (r : ℕ) = i
          · rw [if_pos hr', hr', hUx]
            have hx : (1 / (S * S * H) * (S * (-H * S)) * (U c * S)) = -(U c * S) := by field_simp
            rw [hx]
            by_cases hci : (c : ℕ) = i + 1
            · rw [if_pos hci, hci, hU, houseU_lo, ← hS, ← hG]
              field_simp; ring
            · rw [if_neg hci, hU, houseU, if_neg hci, ← hS]
              field_simp; ring
          · rw [if_neg hr', if_pos ⟨hc', c.2⟩, if_neg hr', if_pos ⟨by omega, r.2⟩]
            have : ∑ k ∈ Ico (i + 1) n, U k * a r k = ∑ k ∈ Ico (i + 1) n, a r k * U k :=
              sum_congr rfl fun k _ => mul_comm _ _
            rw [this]
            field_simp
    · intro _
      rw [if_pos (by omega), if_pos trivial]
      exact mul_ne_zero hU0 h
    · intro r c hrc
      by_cases hc : i < c ∧ c < n
      · rw [if_pos hc, if_neg (by omega), if_neg (by omega)]
      · rw [if_neg hc]
    · intro j hj
      rw [if_neg (by omega)]

/-! ### The whole reduction -/

/-- The matrix represented by the variables after `i` passes: bidiagonal in the first `i` rows and columns. -/
noncomputable def logical (i : ℕ) (st : HouseState) : Arr2 := fun r c =>
  if c < i then (if r = c then st.w c else if r + 1 = c then st.ws c else 0)
  else if r < i then (if r + 1 = i ∧ c = i then st.scale * st.g else 0)
  else st.a r c

/-- One pass. -/
theorem houseStep_spec {m n i : ℕ} (him : i < m) (hin : i < n) (st : HouseState) :
    let st' := houseStep m n st i
    let P := leftRefl m st'.a (st'.w i) i
    let Q := rightRefl n st'.a (st'.scale * st'.g) i
    P * P = 1 ∧ Q * Q = 1 ∧ toMat m n (logical i st) = P * toMat m n (logical (i + 1) st') * Q ∧
    (st'.w i ≠ 0 → st'.a i i ≠ 0) ∧ (st'.scale * st'.g ≠ 0 → st'.a i (i + 1) ≠ 0) ∧
    (∀ r c, (r < i ∨ c < i) → st'.a r c = st.a r c) ∧ (∀ j, j ≠ i → st'.w j = st.w j) ∧
    (∀ j < i, st'.ws j = st.ws j) ∧ st'.ws i = st.scale * st.g := by
  obtain ⟨l1, l2, l3, l4⟩ := houseLeft_spec him hin st.a (logical i st)
    (fun r c h1 h2 => by simp only [logical]; rw [if_pos h2, if_neg (by omega), if_neg (by omega)])
    (fun r c h1 h2 => by simp only [logical]; rw [if_neg (by omega), if_neg (by omega)])
  set left := houseLeft m n i st.a with hleft
  set ws := FMem.set st.ws i (st.scale * st.g) with hws
  obtain ⟨r1, r2, r3, r4, r5⟩ := houseRight_spec (n := n) him left.1 (fun r c => if r < i then logical i st r c
      else if c < i then 0 else if c = i then (if r = i then left.2.2 * left.2.1 else 0) else left.1 r c) ws
    (fun r c h1 h2 => by
      simp only [logical]; rw [if_pos h1, if_neg (by omega), if_pos h1, if_neg (by omega)])
    (fun r c h1 h2 => by rw [if_neg (by omega), if_neg (by omega), if_neg (by omega)])
  set right := houseRight m n i left.1 ws with hright
  have e : houseStep m n st i = ⟨right.1, FMem.set st.w i (left.2.2 * left.2.1), right.2.1, right.2.2.1, right.2.2.2,
    max st.an (|FMem.set st.w i (left.2.2 * left.2.1) i| + |right.2.1 i|)⟩ := rfl
  intro st'
  have ew : st'.w i = left.2.2 * left.2.1 := by
    simp only [st', e, FMem.set, if_true]
  have ea : st'.a = right.1 := by simp only [st', e]
  have es : st'.scale * st'.g = right.2.2.2 * right.2.2.1 := by simp only [st', e]
  have els : st'.ws = right.2.1 := by simp only [st', e]
  have ePl : leftRefl m st'.a (st'.w i) i = leftRefl m left.1 (left.2.2 * left.2.1) i := by
    rw [ew, ea]
    unfold leftRefl
    rw [r4 i i (Or.inr le_rfl)]
    congr 1
    funext k
    rw [r4 k i (Or.inr le_rfl)]
  have eQ : rightRefl n st'.a (st'.scale * st'.g) i = rightRefl n right.1 (right.2.2.2 * right.2.2.1) i := by
    rw [es, ea]
  have ewsi : st'.ws i = st.scale * st.g := by
    rw [els, r5 i le_rfl, hws, FMem.set, if_pos rfl]
  intro P Q
  have hP : P * P = 1 := by rw [show P = _ from ePl]; exact l1
  have hQ : Q * Q = 1 := by rw [show Q = _ from eQ]; exact r1
  have ewsl : ∀ j < i, st'.ws j = st.ws j := by
    intro j hj
    rw [els, r5 j hj.le, hws, FMem.set, if_neg (by omega)]
  have ewl : ∀ j, j ≠ i → st'.w j = st.w j := by
    intro j hj
    simp only [st', e, FMem.set, hj, if_false]
  refine ⟨hP, hQ, ?_, ?_, ?_, ?_, ewl, ewsl, ewsi⟩
  · have hlog : toMat m n (logical (i + 1) st') = P * toMat m n (logical i st) * Q := by
      rw [show P = _ from ePl, show Q = _ from eQ, l2, r2]
      ext r c
      simp only [toMat, logical]
      by_cases hc : (c : ℕ) ≤ i
      · rw [if_pos (by omega), if_pos hc]
        by_cases hr : (r : ℕ) < i
        · rw [if_pos hr]
          by_cases hc2 : (c : ℕ) < i
          · rw [if_pos hc2, ewl c (by omega), ewsl c hc2]
          · rw [if_neg hc2, if_pos hr, if_neg (by omega)]
            have hci : (c : ℕ) = i := by omega
            rw [hci, ewsi]
            by_cases hri : (r : ℕ) + 1 = i
            · rw [if_pos hri, if_pos (by simpa using hri)]
            · rw [if_neg hri, if_neg (by tauto)]
        · rw [if_neg hr]
          by_cases hc2 : (c : ℕ) < i
          · rw [if_pos hc2, if_neg (by omega), if_neg (by omega)]
          · have hci : (c : ℕ) = i := by omega
            rw [if_neg hc2, if_pos hci, hci]
            by_cases hri : (r : ℕ) = i
            · rw [if_pos hri, if_pos hri, ew]
            · rw [if_neg hri, if_neg hri, if_neg (by omega)]
      · rw [if_neg (by omega), if_neg hc]
        by_cases hr : (r : ℕ) < i
        · rw [if_pos (by omega), if_pos hr, if_neg (by omega)]
        · rw [if_neg hr]
          by_cases hri : (r : ℕ) = i
          · rw [if_pos (by omega), if_pos hri, es]
            by_cases hci : (c : ℕ) = i + 1
            · rw [if_pos (by omega), if_pos hci]
            · rw [if_neg (by omega), if_neg hci]
          · rw [if_neg (by omega), if_neg hri, ea]
    rw [hlog]
    calc toMat m n (logical i st) = (P * P) * toMat m n (logical i st) * (Q * Q) := by
          rw [hP, hQ, Matrix.one_mul, Matrix.mul_one]
      _ = _ := by simp only [Matrix.mul_assoc]
  · rw [ew, ea]
    intro h
    rw [r4 i i (Or.inr le_rfl)]
    exact l3 h
  · rw [es, ea]; exact r3
  · intro r c hrc
    rw [ea, r4 r c (by omega), l4 r c hrc]

end Sla
