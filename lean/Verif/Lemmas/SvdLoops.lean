import Verif.Model.SvdRoutine
import Mathlib.Algebra.BigOperators.Intervals
import Mathlib.Algebra.BigOperators.Ring.Finset
import Mathlib.Tactic.Ring

/-
Closed forms of the loops of `svd`.
-/
namespace Sla

theorem forRange_succ {σ : Type} {lo hi : ℕ} (h : lo ≤ hi) (body : σ → ℕ → σ) (s : σ) :
    forRange lo (hi + 1) body s = body (forRange lo hi body s) hi := by
  unfold forRange
  rw [show hi + 1 - lo = (hi - lo) + 1 by omega, List.range'_1_concat, List.foldl_append]
  simp only [List.foldl_cons, List.foldl_nil]
  rw [show lo + (hi - lo) = hi by omega]

theorem forRange_self {σ : Type} {lo hi : ℕ} (h : hi ≤ lo) (body : σ → ℕ → σ) (s : σ) : forRange lo hi body s = s := by
  unfold forRange
  rw [show hi - lo = 0 by omega]; rfl

/-- Loop invariants of upward loops. -/
theorem forRange_ind {σ : Type} {lo hi : ℕ} (h : lo ≤ hi) (body : σ → ℕ → σ) (s : σ) (P : ℕ → σ → Prop) (h0 : P lo s)
    (hs : ∀ k t, lo ≤ k → k < hi → P k t → P (k + 1) (body t k)) : P hi (forRange lo hi body s) := by
  induction hi, h using Nat.le_induction with
  | base => rw [forRange_self le_rfl]; exact h0
  | succ hi hle ih =>
    rw [forRange_succ hle]
    exact hs hi _ hle (by omega) (ih fun k t h1 h2 => hs k t h1 (by omega))

theorem forDown_succ {σ : Type} (n : ℕ) (body : σ → ℕ → σ) (s : σ) :
    forDown (n + 1) body s = forDown n body (body s n) := by
  unfold forDown
  rw [List.range_succ, List.reverse_append]; rfl

/-- Loop invariants of downward loops. -/
theorem forDown_ind {σ : Type} (n : ℕ) (body : σ → ℕ → σ) (s : σ) (P : ℕ → σ → Prop) (h0 : P n s)
    (hs : ∀ i t, i < n → P (i + 1) t → P i (body t i)) : P 0 (forDown n body s) := by
  induction n generalizing s with
  | zero => exact h0
  | succ n ih =>
    rw [forDown_succ]
    exact ih _ (hs n s (by omega) h0) fun i t hi => hs i t (by omega)

theorem forRange_sum (lo hi : ℕ) (F : ℕ → ℝ) : forRange lo hi (fun t k => t + F k) 0 = ∑ k ∈ Finset.Ico lo hi, F k := by
  rcases Nat.lt_or_ge hi lo with h | h
  · rw [forRange_self (by omega), Finset.Ico_eq_empty (by omega), Finset.sum_empty]
  · exact forRange_ind h _ _ (fun k t => t = ∑ k ∈ Finset.Ico lo k, F k) (by simp) fun k t h1 _ e => by
      rw [Finset.sum_Ico_succ_top h1, e]

/-- Replacing elements of one column. -/
theorem colLoop (lo hi j : ℕ) (F : Arr2 → ℕ → ℝ) (a : Arr2)
    (hF : ∀ a' k, lo ≤ k → k < hi → (∀ c, a' k c = a k c) → F a' k = F a k) :
    forRange lo hi (fun a k => set2 a k j (F a k)) a = fun r c => if c = j ∧ lo ≤ r ∧ r < hi then F a r else a r c := by
  rcases Nat.lt_or_ge hi lo with h | h
  · rw [forRange_self (by omega)]
    funext r c
    rw [if_neg (by omega)]
  · refine forRange_ind h _ _ (fun k t => t = fun r c => if c = j ∧ lo ≤ r ∧ r < k then F a r else a r c) ?_ ?_
    · funext r c; rw [if_neg (by omega)]
    · rintro k t h1 h2 rfl
      funext r c
      simp only [set2]
      rw [hF _ k h1 h2 (fun c => by rw [if_neg (by omega)])]
      by_cases e : r = k ∧ c = j
      · rw [if_pos e, if_pos (by omega), e.1]
      · rw [if_neg e]
        by_cases e2 : c = j ∧ lo ≤ r ∧ r < k
        · rw [if_pos e2, if_pos (by omega)]
        · rw [if_neg e2, if_neg (by omega)]

/-- Replacing elements of one row. -/
theorem rowLoop (lo hi i : ℕ) (F : Arr2 → ℕ → ℝ) (a : Arr2)
    (hF : ∀ a' k, lo ≤ k → k < hi → (∀ r, a' r k = a r k) → F a' k = F a k) :
    forRange lo hi (fun a k => set2 a i k (F a k)) a = fun r c => if r = i ∧ lo ≤ c ∧ c < hi then F a c else a r c := by
  rcases Nat.lt_or_ge hi lo with h | h
  · rw [forRange_self (by omega)]
    funext r c
    rw [if_neg (by omega)]
  · refine forRange_ind h _ _ (fun k t => t = fun r c => if r = i ∧ lo ≤ c ∧ c < k then F a c else a r c) ?_ ?_
    · funext r c; rw [if_neg (by omega)]
    · rintro k t h1 h2 rfl
      funext r c
      simp only [set2]
      rw [hF _ k h1 h2 (fun c => by rw [if_neg (by omega)])]
      by_cases e : r = i ∧ c = k
      · rw [if_pos e, if_pos (by omega), e.2]
      · rw [if_neg e]
        by_cases e2 : r = i ∧ lo ≤ c ∧ c < k
        · rw [if_pos e2, if_pos (by omega)]
        · rw [if_neg e2, if_neg (by omega)]

/-- Replacing whole columns, each new column depending on itself and on column `i` outside the range. -/
theorem outerCols (lo hi i : ℕ) (G : Arr2 → ℕ → Arr2) (a : Arr2) (H : ℕ → ℕ → ℝ) (hlo : i < lo ∨ hi ≤ i)
    (hG : ∀ a' j, lo ≤ j → j < hi → (∀ r, a' r j = a r j) → (∀ r, a' r i = a r i) →
      G a' j = fun r c => if c = j then H r c else a' r c) :
    forRange lo hi G a = fun r c => if lo ≤ c ∧ c < hi then H r c else a r c := by
  rcases Nat.lt_or_ge hi lo with h | h
  · rw [forRange_self (by omega)]
    funext r c
    rw [if_neg (by omega)]
  · refine forRange_ind h _ _ (fun k t => t = fun r c => if lo ≤ c ∧ c < k then H r c else a r c) ?_ ?_
    · funext r c; rw [if_neg (by omega)]
    · rintro k t h1 h2 rfl
      rw [hG _ k h1 h2 (fun r => by rw [if_neg (by omega)]) (fun r => by rw [if_neg (by omega)])]
      funext r c
      by_cases e : c = k
      · rw [if_pos e, if_pos (by omega)]
      · rw [if_neg e]
        by_cases e2 : lo ≤ c ∧ c < k
        · rw [if_pos e2, if_pos (by omega)]
        · rw [if_neg e2, if_neg (by omega)]

/-- Replacing whole rows, each new row depending on itself and on row `i` outside the range. -/
theorem outerRows (lo hi i : ℕ) (G : Arr2 → ℕ → Arr2) (a : Arr2) (H : ℕ → ℕ → ℝ) (hlo : i < lo ∨ hi ≤ i)
    (hG : ∀ a' j, lo ≤ j → j < hi → (∀ c, a' j c = a j c) → (∀ c, a' i c = a i c) →
      G a' j = fun r c => if r = j then H r c else a' r c) :
    forRange lo hi G a = fun r c => if lo ≤ r ∧ r < hi then H r c else a r c := by
  rcases Nat.lt_or_ge hi lo with h | h
  · rw [forRange_self (by omega)]
    funext r c
    rw [if_neg (by omega)]
  · refine forRange_ind h _ _ (fun k t => t = fun r c => if lo ≤ r ∧ r < k then H r c else a r c) ?_ ?_
    · funext r c; rw [if_neg (by omega)]
    · rintro k t h1 h2 rfl
      rw [hG _ k h1 h2 (fun r => by rw [if_neg (by omega)]) (fun r => by rw [if_neg (by omega)])]
      funext r c
      by_cases e : r = k
      · rw [if_pos e, if_pos (by omega)]
      · rw [if_neg e]
        by_cases e2 : lo ≤ r ∧ r < k
        · rw [if_pos e2, if_pos (by omega)]
        · rw [if_neg e2, if_neg (by omega)]

theorem fmemLoop (lo hi : ℕ) (F : ℕ → ℝ) (x : FMem) :
    forRange lo hi (fun x k => FMem.set x k (F k)) x = fun j => if lo ≤ j ∧ j < hi then F j else x j := by
  rcases Nat.lt_or_ge hi lo with h | h
  · rw [forRange_self (by omega)]
    funext j
    rw [if_neg (by omega)]
  · refine forRange_ind h _ _ (fun k t => t = fun j => if lo ≤ j ∧ j < k then F j else x j) ?_ ?_
    · funext j; rw [if_neg (by omega)]
    · rintro k t h1 h2 rfl
      funext j
      simp only [FMem.set]
      by_cases e : j = k
      · rw [if_pos e, if_pos (by omega), e]
      · rw [if_neg e]
        by_cases e2 : lo ≤ j ∧ j < k
        · rw [if_pos e2, if_pos (by omega)]
        · rw [if_neg e2, if_neg (by omega)]

/-- Rotating two columns. -/
theorem rotCols_eq (rows p q : ℕ) (c s : ℝ) (a : Arr2) (hpq : p ≠ q) :
    rotCols rows p q c s a = fun r k => if r < rows then
      if k = p then a r p * c + a r q * s else if k = q then -a r p * s + a r q * c else a r k
      else a r k := by
  unfold rotCols
  refine forRange_ind (Nat.zero_le _) _ _ (fun j t => t = fun r k => if r < j then
      if k = p then a r p * c + a r q * s else if k = q then -a r p * s + a r q * c else a r k
      else a r k) ?_ ?_
  · funext r k; simp
  · rintro j t _ _ rfl
    funext r k
    simp only [set2, lt_irrefl, if_false]
    by_cases e : r = j
    · subst e
      simp only [true_and, lt_irrefl, if_false, Nat.lt_succ_self, if_true]
      by_cases e1 : k = q
      · subst e1; simp [hpq.symm]
      · simp [e1]
    · simp only [e, false_and, if_false]
      have : r < j + 1 ↔ r < j := by omega
      simp only [this]

end Sla
