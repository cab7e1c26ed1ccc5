import Verif.Lemmas.SvdAccum

/-
`svd`: the result of the reduction to bidiagonal form.
-/
namespace Sla
open Finset Matrix

/-- The arrays after the first three loops: A = U B Vᵀ with orthonormal columns. -/
theorem svd_reduce {m n : ℕ} (hnm : n ≤ m) (a v : Arr2) (w ws : FMem) :
    let F := house m n a w ws
    let V := toMat n n (forDown n (accRightStep n F.a F.ws) (v, F.g, n)).1
    let U := toMat m n (forDown n (accLeftStep m n F.w) F.a)
    Uᵀ * U = 1 ∧ Vᵀ * V = 1 ∧ toMat m n a = U * toMat n n (bidiag F.w F.ws) * Vᵀ ∧ (0 < n → F.ws 0 = 0) := by
  intro F V U
  obtain ⟨L, hL0, hLn, hL, hws0⟩ := house_chain hnm a w ws
  change L n = toMat m n (bidiag F.w F.ws) at hLn
  change ∀ i < n, StepFacts m n F.a (F.w i) (if i + 1 < n then F.ws (i + 1) else F.scale * F.g) i (L i) (L (i + 1)) at hL
  -- the left-hand accumulation
  obtain ⟨Us, hUn, hU0, hUs⟩ : ∃ Us : ℕ → Matrix (Fin m) (Fin n) ℝ, Us n = toMat m n delta ∧ Us 0 = U ∧
      ∀ j < n, Us j = leftRefl m F.a (F.w j) j * Us (j + 1) := by
    have := forDown_ind n (accLeftStep m n F.w) F.a (fun i t => ∃ Us : ℕ → Matrix (Fin m) (Fin n) ℝ,
      Us n = toMat m n delta ∧ Us i = toMat m n (accLeftPart i t) ∧
      (∀ j, i ≤ j → j < n → Us j = leftRefl m F.a (F.w j) j * Us (j + 1)) ∧ ∀ r c, c < i → t r c = F.a r c) ?_ ?_
    · obtain ⟨Us, h1, h2, h3, -⟩ := this
      refine ⟨Us, h1, ?_, fun j hj => h3 j (Nat.zero_le j) hj⟩
      rw [h2]
      ext r c
      simp [toMat, accLeftPart, U]
    · refine ⟨fun _ => toMat m n delta, rfl, ?_, fun j h1 h2 => absurd h2 (by omega), fun _ _ _ => rfl⟩
      ext r c
      simp [toMat, accLeftPart]
    · rintro i t hi ⟨Us, h1, h2, h3, h4⟩
      obtain ⟨s1, s2⟩ := accLeftStep_spec (m := m) (n := n) (i := i) (by omega) F.w t
        (by rw [h4 i i (by omega)]; exact (hL i hi).left_ne)
      rw [leftRefl_congr (F.w i) (by omega : i < m) fun r _ => h4 r i (by omega)] at s1
      refine ⟨fun j => if j = i then toMat m n (accLeftPart i (accLeftStep m n F.w t i)) else Us j, ?_, by simp, ?_, ?_⟩
      · simp only; rw [if_neg (by omega), h1]
      · intro j hj1 hj2
        simp only
        rw [if_neg (show ¬ j + 1 = i by omega)]
        by_cases hji : j = i
        · subst hji
          rw [if_pos rfl, s1, h2]
        · rw [if_neg hji]; exact h3 j (by omega) hj2
      · intro r c hc
        rw [s2 r c hc, h4 r c (by omega)]
  -- the right-hand accumulation
  obtain ⟨Vs, hVn, hV0, hVs⟩ : ∃ Vs : ℕ → Matrix (Fin n) (Fin n) ℝ, Vs n = 1 ∧ Vs 0 = V ∧
      ∀ j < n, Vs j = rightRefl n F.a (F.ws (j + 1)) j * Vs (j + 1) := by
    have := forDown_ind n (accRightStep n F.a F.ws) (v, F.g, n) (fun i t => ∃ Vs : ℕ → Matrix (Fin n) (Fin n) ℝ,
      Vs n = 1 ∧ Vs i = toMat n n (accRightPart i t.1) ∧
      (∀ j, i ≤ j → j < n → Vs j = rightRefl n F.a (F.ws (j + 1)) j * Vs (j + 1)) ∧
      (i < n → t.2.2 = i ∧ t.2.1 = F.ws i)) ?_ ?_
    · obtain ⟨Vs, h1, h2, h3, -⟩ := this
      refine ⟨Vs, h1, ?_, fun j hj => h3 j (Nat.zero_le j) hj⟩
      rw [h2]
      ext r c
      simp [toMat, accRightPart, V]
    · refine ⟨fun _ => 1, rfl, ?_, fun j h1 h2 => absurd h2 (by omega), fun h => absurd h (by omega)⟩
      ext r c
      simp [toMat, accRightPart, delta, Matrix.one_apply, Fin.ext_iff]
    · rintro i ⟨v', g', l'⟩ hi ⟨Vs, h1, h2, h3, h4⟩
      obtain ⟨s1, s2⟩ := accRightStep_spec hi F.a F.ws v' g' l' h4 (fun h => by
        have := (hL i hi).right_ne
        rwa [if_pos h] at this)
      refine ⟨fun j => if j = i then toMat n n (accRightPart i (accRightStep n F.a F.ws (v', g', l') i).1) else Vs j, ?_, by simp,
        ?_, ?_⟩
      · simp only; rw [if_neg (by omega), h1]
      · intro j hj1 hj2
        simp only
        rw [if_neg (show ¬ j + 1 = i by omega)]
        by_cases hji : j = i
        · subst hji
          rw [if_pos rfl, s1, h2]
        · rw [if_neg hji]; exact h3 j (by omega) hj2
      · intro _; rw [s2]; exact ⟨rfl, rfl⟩
  have hR : ∀ i < n, rightRefl n F.a (if i + 1 < n then F.ws (i + 1) else F.scale * F.g) i =
      rightRefl n F.a (F.ws (i + 1)) i := by
    intro i hi
    by_cases h : i + 1 < n
    · rw [if_pos h]
    · rw [rightRefl_last (by omega), rightRefl_last (by omega)]
  have hPt : ∀ i, (leftRefl m F.a (F.w i) i)ᵀ = leftRefl m F.a (F.w i) i := fun i => refl_transpose _ _
  have hQt : ∀ i, (rightRefl n F.a (F.ws (i + 1)) i)ᵀ = rightRefl n F.a (F.ws (i + 1)) i := fun i => refl_transpose _ _
  have hall : ∀ d ≤ n, (Us (n - d))ᵀ * Us (n - d) = 1 ∧ (Vs (n - d))ᵀ * Vs (n - d) = 1 ∧
      L (n - d) = Us (n - d) * toMat n n (bidiag F.w F.ws) * (Vs (n - d))ᵀ := by
    intro d
    induction d with
    | zero =>
      intro _
      rw [Nat.sub_zero, hUn, hVn, hLn]
      refine ⟨?_, by simp, ?_⟩
      · ext r c
        rw [Matrix.mul_apply]
        simp only [toMat, Matrix.transpose_apply, delta]
        rw [sum_eq_single (⟨c, by have := c.2; omega⟩ : Fin m)]
        · rw [Matrix.one_apply]; simp [Fin.ext_iff, eq_comm]
        · intro k _ hk
          rw [if_neg (show ¬ (k : ℕ) = c by intro h; exact hk (Fin.ext h)), mul_zero]
        · intro h; exact absurd (mem_univ _) h
      · rw [Matrix.transpose_one, Matrix.mul_one]
        ext r c
        rw [Matrix.mul_apply]
        simp only [toMat, delta]
        by_cases hr : (r : ℕ) < n
        · rw [sum_eq_single (⟨r, hr⟩ : Fin n)]
          · rw [if_pos rfl, one_mul]
          · intro k _ hk
            rw [if_neg (show ¬ (r : ℕ) = k by intro h; exact hk (Fin.ext h.symm)), zero_mul]
          · intro h; exact absurd (mem_univ _) h
        · rw [sum_eq_zero]
          · have := c.2
            simp only [bidiag]; rw [if_neg (by omega), if_neg (by omega)]
          · intro k _
            have := k.2
            rw [if_neg (by omega), zero_mul]
    | succ d ih =>
      intro hd
      obtain ⟨i1, i2, i3⟩ := ih (by omega)
      have hi : n - (d + 1) < n := by omega
      have hs : n - (d + 1) + 1 = n - d := by omega
      obtain ⟨q1, q2, q3, -, -⟩ := hL _ hi
      rw [hR _ hi] at q2 q3
      have u := hUs _ hi
      have vv := hVs _ hi
      rw [hs] at q2 q3 u vv
      have pt := hPt (n - (d + 1))
      have qt := hQt (n - (d + 1))
      rw [hs] at qt
      generalize leftRefl m F.a (F.w (n - (d + 1))) (n - (d + 1)) = P at *
      generalize rightRefl n F.a (F.ws (n - d)) (n - (d + 1)) = Q at *
      refine ⟨?_, ?_, ?_⟩
      · rw [u, Matrix.transpose_mul, pt]
        calc (Us (n - d))ᵀ * P * (P * Us (n - d)) = (Us (n - d))ᵀ * (P * P) * Us (n - d) := by simp only [Matrix.mul_assoc]
          _ = 1 := by rw [q1, Matrix.mul_one, i1]
      · rw [vv, Matrix.transpose_mul, qt]
        calc (Vs (n - d))ᵀ * Q * (Q * Vs (n - d)) = (Vs (n - d))ᵀ * (Q * Q) * Vs (n - d) := by simp only [Matrix.mul_assoc]
          _ = 1 := by rw [q2, Matrix.mul_one, i2]
      · rw [q3, i3, u, vv, Matrix.transpose_mul, qt]
        simp only [Matrix.mul_assoc]
  obtain ⟨e1, e2, e3⟩ := hall n le_rfl
  rw [Nat.sub_self, hU0, hV0] at *
  exact ⟨e1, e2, by rw [← hL0, e3], hws0⟩

end Sla
