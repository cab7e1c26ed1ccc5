import Verif.Lemmas.SvdBidiag

/-
`svd`: the chain of reflections and the accumulation of the transformations.
-/
namespace Sla
open Finset Matrix

/-- The identity. -/
noncomputable def delta : Arr2 := fun r c => if r = c then 1 else 0

/-- The bidiagonal matrix with diagonal `w` and superdiagonal `ws[1], ws[2], ...`. -/
noncomputable def bidiag (w ws : FMem) : Arr2 := fun r c => if r = c then w c else if r + 1 = c then ws c else 0

theorem refl_zero {m : ℕ} (t : ℝ) {u : Fin m → ℝ} (h : t = 0 ∨ u = 0) : refl t u = 1 := by
  rcases h with rfl | rfl
  · rw [refl, zero_smul, add_zero]
  · have : vecMulVec (0 : Fin m → ℝ) (0 : Fin m → ℝ) = 0 := by ext; simp [vecMulVec_apply]
    rw [refl, this, smul_zero, add_zero]

theorem rightRefl_last {n i : ℕ} (h : n ≤ i + 1) (a : Arr2) (g : ℝ) : rightRefl n a g i = 1 := by
  unfold rightRefl
  refine refl_zero _ (Or.inr ?_)
  funext k
  have := k.2
  rw [if_neg (by omega)]; rfl

theorem leftRefl_congr {m i : ℕ} {a b : Arr2} (w : ℝ) (him : i < m) (h : ∀ r < m, a r i = b r i) :
    leftRefl m a w i = leftRefl m b w i := by
  unfold leftRefl
  rw [h i him]
  congr 1
  funext k
  rw [h k k.2]

theorem rightRefl_congr {n i : ℕ} {a b : Arr2} (g : ℝ) (h : ∀ c, a i c = b i c) :
    rightRefl n a g i = rightRefl n b g i := by
  unfold rightRefl
  simp only [h]

/-- The facts about the reflection of index `i` left in the arrays. -/
structure StepFacts (m n : ℕ) (a : Arr2) (w g : ℝ) (i : ℕ) (L L' : Matrix (Fin m) (Fin n) ℝ) : Prop where
  left_sq : leftRefl m a w i * leftRefl m a w i = 1
  right_sq : rightRefl n a g i * rightRefl n a g i = 1
  step : L = leftRefl m a w i * L' * rightRefl n a g i
  left_ne : w ≠ 0 → a i i ≠ 0
  right_ne : g ≠ 0 → a i (i + 1) ≠ 0

/-- The reduction as a chain of reflections stored in the final arrays. -/
theorem house_chain {m n : ℕ} (hnm : n ≤ m) (a : Arr2) (w ws : FMem) :
    let F := house m n a w ws
    ∃ L : ℕ → Matrix (Fin m) (Fin n) ℝ, L 0 = toMat m n a ∧ L n = toMat m n (bidiag F.w F.ws) ∧
      (∀ i < n, StepFacts m n F.a (F.w i) (if i + 1 < n then F.ws (i + 1) else F.scale * F.g) i (L i) (L (i + 1))) ∧
      (0 < n → F.ws 0 = 0) := by
  have key := forRange_ind (Nat.zero_le n) (houseStep m n) { a := a, w := w, ws := ws, g := 0, scale := 0, an := 0 }
    (fun k st => ∃ L : ℕ → Matrix (Fin m) (Fin n) ℝ, L 0 = toMat m n a ∧ L k = toMat m n (logical k st) ∧
      (∀ i < k, StepFacts m n st.a (st.w i) (if i + 1 < k then st.ws (i + 1) else st.scale * st.g) i (L i) (L (i + 1))) ∧
      (0 < k → st.ws 0 = 0) ∧ (k = 0 → st.scale * st.g = 0)) ?_ ?_
  · obtain ⟨L, h1, h2, h3, h4, -⟩ := key
    refine ⟨L, h1, ?_, h3, h4⟩
    rw [h2]
    ext r c
    simp only [toMat, logical, bidiag, c.2, if_true]
    rfl
  · refine ⟨fun _ => toMat m n a, rfl, ?_, fun i hi => absurd hi (by omega), fun h => absurd h (by omega), fun _ => by simp⟩
    ext r c
    simp only [toMat, logical]
    rw [if_neg (by omega), if_neg (by omega)]
  · rintro k st - hk ⟨L, h1, h2, h3, h4, h5⟩
    obtain ⟨q1, q2, q3, q4, q5, q6, q7, q8, q9⟩ := houseStep_spec (m := m) (n := n) (i := k) (by omega) hk st
    generalize houseStep m n st k = st' at *
    refine ⟨fun i => if i ≤ k then L i else toMat m n (logical (k + 1) st'), ?_, ?_, ?_, ?_, fun h => absurd h (by omega)⟩
    · simp [h1]
    · simp
    · intro i hi
      by_cases hik : i = k
      · subst hik
        simp only [lt_irrefl, if_false, le_refl, if_true]
        rw [if_neg (by omega)]
        exact ⟨q1, q2, by rw [h2]; exact q3, q4, q5⟩
      · have hlt : i < k := by omega
        have e1 : (if i ≤ k then L i else toMat m n (logical (k + 1) st')) = L i := if_pos hlt.le
        have e2 : (if i + 1 ≤ k then L (i + 1) else toMat m n (logical (k + 1) st')) = L (i + 1) := if_pos (by omega)
        have e3 : (if i + 1 < k + 1 then st'.ws (i + 1) else st'.scale * st'.g) =
            if i + 1 < k then st.ws (i + 1) else st.scale * st.g := by
          rw [if_pos (by omega)]
          by_cases h : i + 1 < k
          · rw [if_pos h, q8 _ h]
          · rw [if_neg h, show i + 1 = k by omega, q9]
        simp only [e1, e2, e3, q7 i hik]
        obtain ⟨s1, s2, s3, s4, s5⟩ := h3 i hlt
        have f1 := leftRefl_congr (st.w i) (show i < m by omega) fun r _ => q6 r i (Or.inr hlt)
        have f2 := rightRefl_congr (n := n) (if i + 1 < k then st.ws (i + 1) else st.scale * st.g)
          fun c => q6 i c (Or.inl hlt)
        refine ⟨?_, ?_, ?_, ?_, ?_⟩
        · rw [f1]; exact s1
        · rw [f2]; exact s2
        · rw [f1, f2]; exact s3
        · rw [q6 i i (Or.inl hlt)]; exact s4
        · rw [q6 i (i + 1) (Or.inl hlt)]; exact s5
    · intro _
      by_cases h : k = 0
      · subst h; rw [q9]; exact h5 rfl
      · rw [q8 0 (by omega)]; exact h4 (by omega)

/-! ### Left-hand transformations -/

/-- Columns from `i` onwards have been accumulated. -/
noncomputable def accLeftPart (i : ℕ) (a : Arr2) : Arr2 := fun r c => if c < i then delta r c else if r < i then 0 else a r c

theorem axpyColsDiv (m n i : ℕ) (g : ℝ) (b : Arr2) :
    forRange (i + 1) n (fun a j =>
        let s := forRange (i + 1) m (fun s k => s + a k i * a k j) 0
        let f := (s / a i i) / g
        forRange i m (fun a k => set2 a k j (a k j + f * a k i)) a) b =
      fun r c => if i < c ∧ c < n ∧ i ≤ r ∧ r < m then
        b r c + ((∑ k ∈ Ico (i + 1) m, b k i * b k c) / b i i) / g * b r i else b r c := by
  rw [outerCols (i + 1) n i _ b
    (fun r c => if i ≤ r ∧ r < m then b r c + ((∑ k ∈ Ico (i + 1) m, b k i * b k c) / b i i) / g * b r i else b r c)
    (Or.inl (by omega))]
  · funext r c
    by_cases h1 : i < c ∧ c < n
    · rw [if_pos (by omega)]
      by_cases h2 : i ≤ r ∧ r < m
      · rw [if_pos h2, if_pos (by omega)]
      · rw [if_neg h2, if_neg (by omega)]
    · rw [if_neg (by omega), if_neg (by omega)]
  · intro a' j hj1 hj2 e1 e2
    simp only
    rw [forRange_sum (i + 1) m (fun k => a' k i * a' k j),
      colLoop i m j (fun a k => a k j + ((∑ k ∈ Ico (i + 1) m, a' k i * a' k j) / a' i i) / g * a k i) a'
        (fun a'' k _ _ e => by rw [e, e])]
    funext r c
    simp only [e1, e2]
    by_cases h1 : c = j
    · subst h1
      simp [e1]
    · simp [h1]

theorem accLeftStep_spec {m n i : ℕ} (him : i < m) (w : FMem) (a : Arr2) (hne : w i ≠ 0 → a i i ≠ 0) :
    toMat m n (accLeftPart i (accLeftStep m n w a i)) = leftRefl m a (w i) i * toMat m n (accLeftPart (i + 1) a) ∧
    ∀ r c, c < i → accLeftStep m n w a i r c = a r c := by
  have hz : (if i ≠ n - 1 then forRange (i + 1) n (fun a j => set2 a i j 0) a else a) =
      fun r c => if r = i ∧ i + 1 ≤ c ∧ c < n then 0 else a r c := by
    rw [rowLoop (i + 1) n i (fun _ _ => 0) a (fun _ _ _ _ _ => rfl)]
    by_cases e : i = n - 1
    · rw [if_neg (by simpa using e)]
      funext r c; rw [if_neg (by omega)]
    · rw [if_pos e]
  unfold accLeftStep
  simp only [hz]
  set b : Arr2 := fun r c => if r = i ∧ i + 1 ≤ c ∧ c < n then 0 else a r c with hb
  have hbi : ∀ r, b r i = a r i := fun r => by simp only [hb]; rw [if_neg (by omega)]
  have hbo : ∀ r c, r ≠ i → b r c = a r c := fun r c h => by simp only [hb]; rw [if_neg (by tauto)]
  have hbr : ∀ c, i < c → c < n → b i c = 0 := fun c h1 h2 => by simp only [hb]; rw [if_pos ⟨trivial, by omega, h2⟩]
  have hbl : ∀ r c, c < i → b r c = a r c := fun r c h => by simp only [hb]; rw [if_neg (by omega)]
  clear_value b
  by_cases hg : w i = 0
  · simp only [hg, ne_eq, not_true_eq_false, if_false]
    rw [colLoop i m i (fun _ _ => 0) b (fun _ _ _ _ _ => rfl)]
    constructor
    · rw [show leftRefl m a 0 i = 1 from refl_zero _ (Or.inl (if_pos rfl)), Matrix.one_mul]
      ext r c
      have hr := r.2
      have hc := c.2
      simp only [toMat, accLeftPart, set2, le_refl, him, and_self, if_true, delta]
      clear hz hb
      grind
    · intro r c hc
      simp only [set2]
      rw [if_neg (by omega), if_neg (by omega), hbl r c hc]
  · simp only [ne_eq, hg, not_false_eq_true, if_true]
    have hai := hne hg
    have hif : (if ¬ i = n - 1 then forRange (i + 1) n (fun a j =>
        forRange i m (fun a_1 k => set2 a_1 k j (a_1 k j + forRange (i + 1) m (fun s k => s + a k i * a k j) 0 /
          a i i / w i * a_1 k i)) a) b else b) =
        fun r c => if i < c ∧ c < n ∧ i ≤ r ∧ r < m then
        b r c + ((∑ k ∈ Ico (i + 1) m, b k i * b k c) / b i i) / w i * b r i else b r c := by
      rw [show forRange (i + 1) n (fun a j =>
        forRange i m (fun a_1 k => set2 a_1 k j (a_1 k j + forRange (i + 1) m (fun s k => s + a k i * a k j) 0 /
          a i i / w i * a_1 k i)) a) b = _ from axpyColsDiv m n i (w i) b]
      by_cases e : i = n - 1
      · rw [if_neg (by simpa using e)]
        funext r c; rw [if_neg (by omega)]
      · rw [if_pos e]
    rw [hif, colLoop i m i (fun a' k => a' k i / w i) _ (fun a'' k _ _ e => by rw [e])]
    constructor
    · ext r c
      have hr := r.2
      have hc := c.2
      unfold leftRefl
      rw [refl_mul_apply, if_neg hg]
      simp only [toMat, accLeftPart, set2, le_refl, him, and_self, if_true, lt_irrefl, false_and, if_false, hbi]
      by_cases h1 : (c : ℕ) < i
      · have hs : ∑ x : Fin m, ((if i ≤ (x : ℕ) then a x i else 0) * if (c : ℕ) < i + 1 then delta x c
            else if (x : ℕ) < i + 1 then 0 else a x c) = 0 := by
          apply sum_eq_zero
          intro k _
          rw [if_pos (show (c : ℕ) < i + 1 by omega), delta]
          by_cases hk : i ≤ (k : ℕ)
          · rw [if_neg (show ¬ (k : ℕ) = c by omega), mul_zero]
          · rw [if_neg hk, zero_mul]
        rw [hs, if_pos h1, if_pos (show (c : ℕ) < i + 1 by omega)]; ring
      · rw [if_neg h1]
        by_cases h2 : (c : ℕ) = i
        · have hs : ∑ x : Fin m, ((if i ≤ (x : ℕ) then a x i else 0) * if (c : ℕ) < i + 1 then delta x c
              else if (x : ℕ) < i + 1 then 0 else a x c) = a i i := by
            rw [sum_eq_single (⟨i, him⟩ : Fin m)]
            · rw [if_pos (show (c : ℕ) < i + 1 by omega), delta, if_pos (le_refl i), if_pos h2.symm, mul_one]
            · intro k _ hk
              rw [if_pos (show (c : ℕ) < i + 1 by omega), delta,
                if_neg (show ¬ (k : ℕ) = c by intro h; exact hk (Fin.ext (by simpa [h2] using h))), mul_zero]
            · intro h; exact absurd (mem_univ _) h
          rw [hs, if_pos (show (c : ℕ) < i + 1 by omega), h2, delta]
          by_cases h3 : (r : ℕ) = i
          · rw [h3, if_neg (by omega), if_pos (by omega), if_pos rfl, if_pos le_rfl]
            field_simp; ring
          · rw [if_neg h3]
            by_cases h4 : (r : ℕ) < i
            · rw [if_pos h4, if_neg (by omega)]; ring
            · rw [if_neg h4, if_neg (by tauto), if_pos (by omega), if_pos (by omega)]
              field_simp; ring
        · have hs : ∑ x : Fin m, ((if i ≤ (x : ℕ) then a x i else 0) * if (c : ℕ) < i + 1 then delta x c
              else if (x : ℕ) < i + 1 then 0 else a x c) = ∑ k ∈ Ico (i + 1) m, a k i * a k c := by
            rw [← sum_fin_ge]
            apply sum_congr rfl
            intro k _
            rw [if_neg (show ¬ (c : ℕ) < i + 1 by omega)]
            by_cases hk : i + 1 ≤ (k : ℕ)
            · rw [if_pos (by omega), if_neg (by omega), if_pos hk]
            · rw [if_pos (show (k : ℕ) < i + 1 by omega), if_neg hk, mul_zero]
          have hs2 : ∑ k ∈ Ico (i + 1) m, a k i * b k c = ∑ k ∈ Ico (i + 1) m, a k i * a k c := by
            apply sum_congr rfl
            intro k hk
            rw [mem_Ico] at hk
            rw [hbo k c (by omega)]
          rw [hs, hs2, if_neg (show ¬ (c : ℕ) < i + 1 by omega)]
          by_cases h4 : (r : ℕ) < i
          · rw [if_pos h4, if_pos (by omega), if_neg (by omega)]; ring
          · rw [if_neg h4, if_neg (by tauto), if_neg (by tauto), if_pos (by omega), if_pos (show i ≤ (r : ℕ) by omega)]
            by_cases h3 : (r : ℕ) = i
            · rw [if_pos (by omega), h3, hbr c (by omega) hc]
              field_simp
            · rw [if_neg (by omega), hbo r c h3]
              field_simp
    · intro r c hc
      simp only [set2]
      rw [if_neg (by omega), if_neg (by omega), if_neg (by omega), hbl r c hc]

/-! ### Right-hand transformations -/

/-- Rows and columns from `i` onwards have been accumulated. -/
noncomputable def accRightPart (i : ℕ) (v : Arr2) : Arr2 := fun r c => if r < i ∨ c < i then delta r c else v r c

theorem axpyColsV (n i : ℕ) (a b : Arr2) :
    forRange (i + 1) n (fun v j =>
        let s := forRange (i + 1) n (fun s k => s + a i k * v k j) 0
        forRange (i + 1) n (fun v k => set2 v k j (v k j + s * v k i)) v) b =
      fun r c => if i < c ∧ c < n ∧ i < r ∧ r < n then
        b r c + (∑ k ∈ Ico (i + 1) n, a i k * b k c) * b r i else b r c := by
  rw [outerCols (i + 1) n i _ b
    (fun r c => if i < r ∧ r < n then b r c + (∑ k ∈ Ico (i + 1) n, a i k * b k c) * b r i else b r c)
    (Or.inl (by omega))]
  · funext r c
    by_cases h1 : i < c ∧ c < n
    · rw [if_pos (by omega)]
      by_cases h2 : i < r ∧ r < n
      · rw [if_pos h2, if_pos (by omega)]
      · rw [if_neg h2, if_neg (by omega)]
    · rw [if_neg (by omega), if_neg (by omega)]
  · intro a' j hj1 hj2 e1 e2
    simp only
    rw [forRange_sum (i + 1) n (fun k => a i k * a' k j),
      colLoop (i + 1) n j (fun v k => v k j + (∑ k ∈ Ico (i + 1) n, a i k * a' k j) * v k i) a'
        (fun a'' k _ _ e => by rw [e, e])]
    funext r c
    simp only [e1, e2]
    by_cases h1 : c = j
    · subst h1
      simp [e1, Nat.succ_le_iff]
    · simp [h1]

theorem crossLoop (lo hi i : ℕ) (v : Arr2) :
    forRange lo hi (fun v j => set2 (set2 v i j 0) j i 0) v =
      fun r c => if (r = i ∧ lo ≤ c ∧ c < hi) ∨ (c = i ∧ lo ≤ r ∧ r < hi) then 0 else v r c := by
  rcases Nat.lt_or_ge hi lo with h | h
  · rw [forRange_self (by omega)]
    funext r c
    rw [if_neg (by omega)]
  · refine forRange_ind h _ _ (fun k t => t = fun r c => if (r = i ∧ lo ≤ c ∧ c < k) ∨ (c = i ∧ lo ≤ r ∧ r < k)
      then 0 else v r c) ?_ ?_
    · funext r c; rw [if_neg (by omega)]
    · rintro k t h1 h2 rfl
      funext r c
      simp only [set2]
      grind

theorem accRightStep_spec {n i : ℕ} (hin : i < n) (a : Arr2) (ws : FMem) (v : Arr2) (g : ℝ) (l : ℕ)
    (hl : i + 1 < n → l = i + 1 ∧ g = ws (i + 1)) (hne : i + 1 < n → ws (i + 1) ≠ 0 → a i (i + 1) ≠ 0) :
    toMat n n (accRightPart i (accRightStep n a ws (v, g, l) i).1) =
      rightRefl n a (ws (i + 1)) i * toMat n n (accRightPart (i + 1) v) ∧
    (accRightStep n a ws (v, g, l) i).2 = (ws i, i) := by
  refine ⟨?_, rfl⟩
  by_cases hlast : i = n - 1
  · rw [rightRefl_last (by omega), Matrix.one_mul]
    unfold accRightStep
    simp only [hlast, ne_eq, not_true_eq_false, if_false]
    ext r c
    have hr := r.2
    have hc := c.2
    simp only [toMat, accRightPart, set2, delta]
    grind
  · obtain ⟨rfl, rfl⟩ := hl (by omega)
    unfold accRightStep
    simp only [hlast, ne_eq, not_false_eq_true, if_true]
    rw [crossLoop]
    by_cases hg : ws (i + 1) = 0
    · simp only [hg, not_true_eq_false, if_false]
      rw [show rightRefl n a 0 i = 1 from refl_zero _ (Or.inl (if_pos rfl)), Matrix.one_mul]
      ext r c
      have hr := r.2
      have hc := c.2
      simp only [toMat, accRightPart, set2, delta]
      grind
    · simp only [hg, not_false_eq_true, if_true]
      have hai := hne (by omega) hg
      rw [colLoop (i + 1) n i (fun _ j => (a i j / a i (i + 1)) / ws (i + 1)) v (fun _ _ _ _ _ => rfl), axpyColsV n i a]
      ext r c
      have hr := r.2
      have hc := c.2
      unfold rightRefl
      rw [refl_mul_apply, if_neg hg]
      simp only [toMat, accRightPart, set2]
      by_cases h1 : (c : ℕ) ≤ i
      · have hs : ∑ x : Fin n, ((if i + 1 ≤ (x : ℕ) then a i x else 0) * if (x : ℕ) < i + 1 ∨ (c : ℕ) < i + 1 then delta x c
            else v x c) = 0 := by
          apply sum_eq_zero
          intro k _
          rw [if_pos (Or.inr (by omega)), delta]
          by_cases hk : i + 1 ≤ (k : ℕ)
          · rw [if_neg (show ¬ (k : ℕ) = c by omega), mul_zero]
          · rw [if_neg hk, zero_mul]
        rw [hs, mul_zero, zero_mul, add_zero]
        simp only [delta]
        grind
      · have hs : ∑ x : Fin n, ((if i + 1 ≤ (x : ℕ) then a i x else 0) * if (x : ℕ) < i + 1 ∨ (c : ℕ) < i + 1 then delta x c
            else v x c) = ∑ k ∈ Ico (i + 1) n, a i k * v k c := by
          rw [← sum_fin_ge]
          apply sum_congr rfl
          intro k _
          by_cases hk : i + 1 ≤ (k : ℕ)
          · rw [if_pos hk, if_neg (by omega), if_pos hk]
          · rw [if_neg hk, if_neg hk, zero_mul]
        have hs2 : ∑ k ∈ Ico (i + 1) n, a i k * (if (c : ℕ) = i ∧ i + 1 ≤ k ∧ k < n then
            (a i k / a i (i + 1)) / ws (i + 1) else v k c) = ∑ k ∈ Ico (i + 1) n, a i k * v k c := by
          apply sum_congr rfl
          intro k hk
          rw [if_neg (by omega)]
        rw [hs]
        by_cases h2 : (r : ℕ) ≤ i
        · simp only [delta]
          grind
        · have e1 : ¬ ((r : ℕ) < i ∨ (c : ℕ) < i) := by omega
          have e2 : ¬ ((r : ℕ) = i ∧ (c : ℕ) = i) := by omega
          have e3 : ¬ (((r : ℕ) = i ∧ i + 1 ≤ (c : ℕ) ∧ (c : ℕ) < n) ∨ ((c : ℕ) = i ∧ i + 1 ≤ (r : ℕ) ∧ (r : ℕ) < n)) := by
            omega
          have e4 : i < (c : ℕ) ∧ (c : ℕ) < n ∧ i < (r : ℕ) ∧ (r : ℕ) < n := by omega
          have e5 : ¬ ((c : ℕ) = i ∧ i + 1 ≤ (r : ℕ) ∧ (r : ℕ) < n) := by omega
          have e6 : ¬ ((r : ℕ) < i + 1 ∨ (c : ℕ) < i + 1) := by omega
          have e7 : i + 1 ≤ (r : ℕ) := by omega
          rw [if_neg e1, if_neg e2, if_neg e3, if_pos e4, if_neg e5, hs2, if_neg e6, if_pos e7, if_pos ⟨trivial, e7, hr⟩]
          field_simp

end Sla
