import Verif.Lemmas.SvdLoops
import Mathlib.Tactic.LinearCombination
import Mathlib.Tactic.FieldSimp
import Mathlib.Tactic.Linarith

/-
The Householder reduction of `svd`: closed forms of one pass.
-/
namespace Sla
open Finset

/-- Columns `i < c < n`, rows `i <= r < m`: adding multiples of column `i`. -/
theorem axpyCols (m n i : ℕ) (h : ℝ) (b : Arr2) (lo : ℕ) :
    forRange (i + 1) n (fun a j =>
        let s := forRange lo m (fun s k => s + a k i * a k j) 0
        let f := s / h
        forRange i m (fun a k => set2 a k j (a k j + f * a k i)) a) b =
      fun r c => if i < c ∧ c < n ∧ i ≤ r ∧ r < m then b r c + (∑ k ∈ Ico lo m, b k i * b k c) / h * b r i else b r c := by
  rw [outerCols (i + 1) n i _ b
    (fun r c => if i ≤ r ∧ r < m then b r c + (∑ k ∈ Ico lo m, b k i * b k c) / h * b r i else b r c) (Or.inl (by omega))]
  · funext r c
    by_cases h1 : i < c ∧ c < n
    · rw [if_pos (by omega)]
      by_cases h2 : i ≤ r ∧ r < m
      · rw [if_pos h2, if_pos (by omega)]
      · rw [if_neg h2, if_neg (by omega)]
    · rw [if_neg (by omega), if_neg (by omega)]
  · intro a' j hj1 hj2 e1 e2
    simp only
    rw [forRange_sum lo m (fun k => a' k i * a' k j),
      colLoop i m j (fun a k => a k j + (∑ k ∈ Ico lo m, a' k i * a' k j) / h * a k i) a' (fun a'' k _ _ e => by rw [e, e])]
    funext r c
    simp only [e1, e2]
    by_cases h1 : c = j
    · subst h1
      simp [e1]
    · simp [h1]

/-- Rows `i < r < m`, columns `i < c < n`: adding multiples of the vector `t`. -/
theorem axpyRows (m n i : ℕ) (t : ℕ → ℝ) (b : Arr2) :
    forRange (i + 1) m (fun a j =>
        let s := forRange (i + 1) n (fun s k => s + a j k * a i k) 0
        forRange (i + 1) n (fun a k => set2 a j k (a j k + s * t k)) a) b =
      fun r c => if i < c ∧ c < n ∧ i < r ∧ r < m then b r c + (∑ k ∈ Ico (i + 1) n, b r k * b i k) * t c else b r c := by
  rw [outerRows (i + 1) m i _ b
    (fun r c => if i < c ∧ c < n then b r c + (∑ k ∈ Ico (i + 1) n, b r k * b i k) * t c else b r c) (Or.inl (by omega))]
  · funext r c
    by_cases h1 : i < r ∧ r < m
    · rw [if_pos (by omega)]
      by_cases h2 : i < c ∧ c < n
      · rw [if_pos h2, if_pos (by omega)]
      · rw [if_neg h2, if_neg (by omega)]
    · rw [if_neg (by omega), if_neg (by omega)]
  · intro a' j hj1 hj2 e1 e2
    simp only
    rw [forRange_sum (i + 1) n (fun k => a' j k * a' i k),
      rowLoop (i + 1) n j (fun a k => a j k + (∑ k ∈ Ico (i + 1) n, a' j k * a' i k) * t k) a'
        (fun a'' k _ _ e => by rw [e])]
    funext r c
    simp only [e1, e2]
    by_cases h1 : r = j
    · subst h1
      simp only [true_and, if_true, e1, Nat.succ_le_iff]
    · simp [h1]

/-- Scaling one column and summing the squares. -/
theorem scaleCol (lo m i : ℕ) (hlo : lo ≤ m) (scale : ℝ) (a : Arr2) :
    forRange lo m (fun (p : Arr2 × ℝ) k => let x := p.1 k i / scale; (set2 p.1 k i x, p.2 + x * x)) (a, 0) =
      (fun r c => if c = i ∧ lo ≤ r ∧ r < m then a r i / scale else a r c,
        ∑ k ∈ Ico lo m, (a k i / scale) * (a k i / scale)) := by
  refine forRange_ind hlo _ _ (fun k t => t = ((fun r c => if c = i ∧ lo ≤ r ∧ r < k then a r i / scale else a r c),
        ∑ k ∈ Ico lo k, (a k i / scale) * (a k i / scale))) ?_ ?_
  · simp only [Ico_self, sum_empty, Prod.mk.injEq, and_true]
    funext r c; rw [if_neg (by omega)]
  · rintro k t h1 h2 rfl
    simp only [lt_irrefl, and_false, if_false, Prod.mk.injEq]
    refine ⟨?_, by rw [sum_Ico_succ_top h1]⟩
    funext r c
    simp only [set2]
    by_cases e : r = k ∧ c = i
    · rw [if_pos e, if_pos (by omega), e.1]
    · rw [if_neg e]
      by_cases e2 : c = i ∧ lo ≤ r ∧ r < k
      · rw [if_pos e2, if_pos (by omega)]
      · rw [if_neg e2, if_neg (by omega)]

/-- Scaling one row and summing the squares. -/
theorem scaleRow (lo n i : ℕ) (hlo : lo ≤ n) (scale : ℝ) (a : Arr2) :
    forRange lo n (fun (p : Arr2 × ℝ) k => let x := p.1 i k / scale; (set2 p.1 i k x, p.2 + x * x)) (a, 0) =
      (fun r c => if r = i ∧ lo ≤ c ∧ c < n then a i c / scale else a r c,
        ∑ k ∈ Ico lo n, (a i k / scale) * (a i k / scale)) := by
  refine forRange_ind hlo _ _ (fun k t => t = ((fun r c => if r = i ∧ lo ≤ c ∧ c < k then a i c / scale else a r c),
        ∑ k ∈ Ico lo k, (a i k / scale) * (a i k / scale))) ?_ ?_
  · simp only [Ico_self, sum_empty, Prod.mk.injEq, and_true]
    funext r c; rw [if_neg (by omega)]
  · rintro k t h1 h2 rfl
    simp only [lt_irrefl, and_false, if_false, Prod.mk.injEq]
    refine ⟨?_, by rw [sum_Ico_succ_top h1]⟩
    funext r c
    simp only [set2]
    by_cases e : r = i ∧ c = k
    · rw [if_pos e, if_pos (by omega), e.2]
    · rw [if_neg e]
      by_cases e2 : r = i ∧ lo ≤ c ∧ c < k
      · rw [if_pos e2, if_pos (by omega)]
      · rw [if_neg e2, if_neg (by omega)]

/-- The sum of the magnitudes of a vector. -/
noncomputable def absSum (lo hi : ℕ) (x : ℕ → ℝ) : ℝ := ∑ k ∈ Ico lo hi, |x k|
/-- The sum of the squares of the scaled vector. -/
noncomputable def houseS (lo hi : ℕ) (x : ℕ → ℝ) : ℝ :=
  ∑ k ∈ Ico lo hi, (x k / absSum lo hi x) * (x k / absSum lo hi x)
/-- The variable `g` after the reduction of a vector. -/
noncomputable def houseG (lo hi : ℕ) (x : ℕ → ℝ) : ℝ :=
  -csign (Real.sqrt (houseS lo hi x)) (x lo / absSum lo hi x)
/-- The variable `h`. -/
noncomputable def houseH (lo hi : ℕ) (x : ℕ → ℝ) : ℝ :=
  x lo / absSum lo hi x * houseG lo hi x - houseS lo hi x
/-- The Householder vector, scaled. -/
noncomputable def houseU (lo hi : ℕ) (x : ℕ → ℝ) (r : ℕ) : ℝ :=
  if r = lo then x lo / absSum lo hi x - houseG lo hi x else x r / absSum lo hi x

theorem houseLeft_zero {m n i : ℕ} (a : Arr2) (h : absSum i m (fun k => a k i) = 0) :
    houseLeft m n i a = (a, 0, 0) := by
  unfold houseLeft
  simp only
  rw [forRange_sum i m (fun k => |a k i|)]
  have h' : ∑ k ∈ Ico i m, |a k i| = 0 := h
  rw [h']
  simp

theorem houseLeft_eq {m n i : ℕ} (him : i < m) (hin : i < n) (a : Arr2) (h : absSum i m (fun k => a k i) ≠ 0) :
    houseLeft m n i a =
      (fun r c => if i ≤ r ∧ r < m then
          if c = i then houseU i m (fun k => a k i) r * absSum i m (fun k => a k i)
          else if i < c ∧ c < n then a r c + (∑ k ∈ Ico i m, houseU i m (fun k => a k i) k * a k c) /
            houseH i m (fun k => a k i) * houseU i m (fun k => a k i) r
          else a r c
        else a r c, houseG i m (fun k => a k i), absSum i m (fun k => a k i)) := by
  unfold houseLeft
  simp only
  rw [if_pos him, forRange_sum i m (fun k => |a k i|)]
  rw [if_pos (by exact h)]
  rw [scaleCol i m i him.le]
  simp only [le_refl, him, and_self, true_and, if_true]
  have hS : ∑ k ∈ Ico i m, a k i / (∑ k ∈ Ico i m, |a k i|) * (a k i / ∑ k ∈ Ico i m, |a k i|) =
    houseS i m (fun k => a k i) := rfl
  have hA : (∑ k ∈ Ico i m, |a k i|) = absSum i m (fun k => a k i) := rfl
  rw [hS, hA]
  have hG : -csign (Real.sqrt (houseS i m fun k => a k i)) (a i i / absSum i m fun k => a k i) =
    houseG i m (fun k => a k i) := rfl
  rw [hG]
  have hH : a i i / absSum i m (fun k => a k i) * houseG i m (fun k => a k i) - houseS i m (fun k => a k i) =
    houseH i m (fun k => a k i) := rfl
  rw [hH, axpyCols m n i (houseH i m (fun k => a k i)) _ i]
  have hcol : ∀ r, i ≤ r → r < m → set2 (fun r c => if c = i ∧ i ≤ r ∧ r < m then a r i / absSum i m (fun k => a k i)
      else a r c) i i (a i i / absSum i m (fun k => a k i) - houseG i m (fun k => a k i)) r i =
      houseU i m (fun k => a k i) r := by
    intro r h1 h2
    simp only [set2, houseU, and_true, true_and, h1, h2, if_true]
  have hoth : ∀ r c, c ≠ i → set2 (fun r c => if c = i ∧ i ≤ r ∧ r < m then a r i / absSum i m (fun k => a k i)
      else a r c) i i (a i i / absSum i m (fun k => a k i) - houseG i m (fun k => a k i)) r c = a r c := by
    intro r c hc
    simp only [set2, hc, and_false, false_and, if_false]
  have hout : ∀ r c, ¬ (i ≤ r ∧ r < m) → set2 (fun r c => if c = i ∧ i ≤ r ∧ r < m then a r i / absSum i m (fun k => a k i)
      else a r c) i i (a i i / absSum i m (fun k => a k i) - houseG i m (fun k => a k i)) r c = a r c := by
    intro r c hr
    simp only [set2]
    rw [if_neg (by omega), if_neg (by omega)]
  generalize set2 (fun r c => if c = i ∧ i ≤ r ∧ r < m then a r i / absSum i m (fun k => a k i)
      else a r c) i i (a i i / absSum i m (fun k => a k i) - houseG i m (fun k => a k i)) = b at *
  have hif : (if i ≠ n - 1 then (fun r c => if i < c ∧ c < n ∧ i ≤ r ∧ r < m then
      b r c + (∑ k ∈ Ico i m, b k i * b k c) / (houseH i m fun k => a k i) * b r i else b r c) else b) =
      fun r c => if i < c ∧ c < n ∧ i ≤ r ∧ r < m then
      b r c + (∑ k ∈ Ico i m, b k i * b k c) / (houseH i m fun k => a k i) * b r i else b r c := by
    by_cases e : i = n - 1
    · rw [if_neg (by simpa using e)]
      funext r c; rw [if_neg (by omega)]
    · rw [if_pos e]
  rw [hif, colLoop i m i (fun a' k => a' k i * absSum i m (fun k => a k i)) _ (fun a'' k _ _ e => by rw [e])]
  refine Prod.ext ?_ rfl
  funext r c
  simp only [lt_irrefl, false_and, if_false]
  by_cases hr : i ≤ r ∧ r < m
  · rw [if_pos hr]
    by_cases hc : c = i
    · rw [if_pos ⟨hc, hr⟩, if_pos hc, hcol r hr.1 hr.2]
    · rw [if_neg (by tauto), if_neg hc]
      by_cases hc2 : i < c ∧ c < n
      · rw [if_pos (by tauto), if_pos hc2, hoth r c hc, hcol r hr.1 hr.2]
        congr 3
        apply sum_congr rfl
        intro k hk
        rw [mem_Ico] at hk
        rw [hcol k hk.1 hk.2, hoth k c hc]
      · rw [if_neg (by tauto), if_neg hc2, hoth r c hc]
  · rw [if_neg hr, if_neg (by tauto), if_neg (by tauto), hout r c hr]

theorem houseRight_zero {m n i : ℕ} (a : Arr2) (ws : FMem) (h : absSum (i + 1) n (fun k => a i k) = 0) :
    houseRight m n i a ws = (a, ws, 0, 0) := by
  unfold houseRight
  simp only
  rw [forRange_sum (i + 1) n (fun k => |a i k|)]
  have h' : ∑ k ∈ Ico (i + 1) n, |a i k| = 0 := h
  rw [h']
  simp

theorem houseRight_eq {m n i : ℕ} (him : i < m) (a : Arr2) (ws : FMem)
    (h : absSum (i + 1) n (fun k => a i k) ≠ 0) :
    houseRight m n i a ws =
      (fun r c => if i < c ∧ c < n then
          if r = i then houseU (i + 1) n (fun k => a i k) c * absSum (i + 1) n (fun k => a i k)
          else if i < r ∧ r < m then a r c + (∑ k ∈ Ico (i + 1) n, a r k * houseU (i + 1) n (fun k => a i k) k) *
            (houseU (i + 1) n (fun k => a i k) c / houseH (i + 1) n (fun k => a i k))
          else a r c
        else a r c,
        (fun j => if i < j ∧ j < n then houseU (i + 1) n (fun k => a i k) j / houseH (i + 1) n (fun k => a i k) else ws j),
        houseG (i + 1) n (fun k => a i k), absSum (i + 1) n (fun k => a i k)) := by
  have hin : i + 1 < n := by
    by_contra hc
    apply h
    unfold absSum
    rw [Ico_eq_empty (by omega), sum_empty]
  unfold houseRight
  simp only
  rw [if_pos (by omega), forRange_sum (i + 1) n (fun k => |a i k|)]
  rw [if_pos (by exact h)]
  rw [scaleRow (i + 1) n i hin.le]
  simp only [le_refl, hin, and_self, true_and, if_true]
  have hS : ∑ k ∈ Ico (i + 1) n, a i k / (∑ k ∈ Ico (i + 1) n, |a i k|) * (a i k / ∑ k ∈ Ico (i + 1) n, |a i k|) =
    houseS (i + 1) n (fun k => a i k) := rfl
  have hA : (∑ k ∈ Ico (i + 1) n, |a i k|) = absSum (i + 1) n (fun k => a i k) := rfl
  rw [hS, hA]
  have hG : -csign (Real.sqrt (houseS (i + 1) n fun k => a i k)) (a i (i + 1) / absSum (i + 1) n fun k => a i k) =
    houseG (i + 1) n (fun k => a i k) := rfl
  rw [hG]
  have hH : a i (i + 1) / absSum (i + 1) n (fun k => a i k) * houseG (i + 1) n (fun k => a i k) -
    houseS (i + 1) n (fun k => a i k) = houseH (i + 1) n (fun k => a i k) := rfl
  rw [hH]
  have hrow : ∀ c, i + 1 ≤ c → c < n → set2 (fun r c => if r = i ∧ i + 1 ≤ c ∧ c < n then
      a i c / absSum (i + 1) n (fun k => a i k) else a r c) i (i + 1)
      (a i (i + 1) / absSum (i + 1) n (fun k => a i k) - houseG (i + 1) n (fun k => a i k)) i c =
      houseU (i + 1) n (fun k => a i k) c := by
    intro r h1 h2
    simp only [set2, houseU, true_and, h1, h2, if_true, and_self]
  have hoth : ∀ r c, r ≠ i → set2 (fun r c => if r = i ∧ i + 1 ≤ c ∧ c < n then
      a i c / absSum (i + 1) n (fun k => a i k) else a r c) i (i + 1)
      (a i (i + 1) / absSum (i + 1) n (fun k => a i k) - houseG (i + 1) n (fun k => a i k)) r c = a r c := by
    intro r c hc
    simp only [set2, hc, false_and, if_false]
  have hout : ∀ r c, ¬ (i < c ∧ c < n) → set2 (fun r c => if r = i ∧ i + 1 ≤ c ∧ c < n then
      a i c / absSum (i + 1) n (fun k => a i k) else a r c) i (i + 1)
      (a i (i + 1) / absSum (i + 1) n (fun k => a i k) - houseG (i + 1) n (fun k => a i k)) r c = a r c := by
    intro r c hr
    simp only [set2]
    rw [if_neg (by omega), if_neg (by omega)]
  generalize set2 (fun r c => if r = i ∧ i + 1 ≤ c ∧ c < n then
      a i c / absSum (i + 1) n (fun k => a i k) else a r c) i (i + 1)
      (a i (i + 1) / absSum (i + 1) n (fun k => a i k) - houseG (i + 1) n (fun k => a i k)) = b at *
  rw [fmemLoop (i + 1) n (fun k => b i k / houseH (i + 1) n (fun k => a i k)) ws]
  set t : FMem := fun j => if i + 1 ≤ j ∧ j < n then b i j / houseH (i + 1) n (fun k => a i k) else ws j with ht
  rw [axpyRows m n i t b]
  have hif : (if i ≠ m - 1 then (fun r c => if i < c ∧ c < n ∧ i < r ∧ r < m then
      b r c + (∑ k ∈ Ico (i + 1) n, b r k * b i k) * t c else b r c) else b) =
      fun r c => if i < c ∧ c < n ∧ i < r ∧ r < m then
      b r c + (∑ k ∈ Ico (i + 1) n, b r k * b i k) * t c else b r c := by
    by_cases e : i = m - 1
    · rw [if_neg (by simpa using e)]
      funext r c; rw [if_neg (by omega)]
    · rw [if_pos e]
  rw [hif, rowLoop (i + 1) n i (fun a' k => a' i k * absSum (i + 1) n (fun k => a i k)) _ (fun a'' k _ _ e => by rw [e])]
  refine Prod.ext ?_ (Prod.ext ?_ rfl)
  · funext r c
    simp only [lt_irrefl, false_and, and_false, if_false]
    by_cases hr : i < c ∧ c < n
    · rw [if_pos hr]
      by_cases hc : r = i
      · rw [if_pos ⟨hc, hr⟩, if_pos hc, hrow c hr.1 hr.2]
      · rw [if_neg (by tauto), if_neg hc]
        by_cases hc2 : i < r ∧ r < m
        · rw [if_pos (by tauto), if_pos hc2, hoth r c hc, ht]
          simp only
          rw [if_pos (by omega), hrow c hr.1 hr.2]
          congr 2
          apply sum_congr rfl
          intro k hk
          rw [mem_Ico] at hk
          rw [hrow k hk.1 hk.2, hoth r k hc]
        · rw [if_neg (by tauto), if_neg hc2, hoth r c hc]
    · rw [if_neg hr, if_neg (by omega), if_neg (by tauto), hout r c hr]
  · funext j
    simp only [ht]
    by_cases hj : i < j ∧ j < n
    · rw [if_pos hj, if_pos (by omega), hrow j hj.1 hj.2]
    · rw [if_neg hj, if_neg (by omega)]

end Sla
