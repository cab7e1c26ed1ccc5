import Verif.Lemmas.SvdLoops
import Mathlib.Tactic.LinearCombination
import Mathlib.Tactic.FieldSimp
import Mathlib.Tactic.Linarith
import Mathlib.Tactic.Positivity
import Mathlib.Algebra.Order.BigOperators.Ring.Finset

/-
`svd`: the QR transformation of the bidiagonal form.
-/
namespace Sla
open Finset

/-- The products of a test vector with the columns of an array. -/
noncomputable def dotCol (rows : ℕ) (y : ℕ → ℝ) (a : Arr2) (j : ℕ) : ℝ := ∑ r ∈ range rows, y r * a r j

/-- The rotation of two elements of a sequence. -/
noncomputable def rotSeq (p q : ℕ) (c s : ℝ) (x : ℕ → ℝ) : ℕ → ℝ := fun k =>
  if k = p then x p * c + x q * s else if k = q then -x p * s + x q * c else x k

theorem dotCol_rot (rows p q : ℕ) (hpq : p ≠ q) (c s : ℝ) (y : ℕ → ℝ) (a : Arr2) :
    dotCol rows y (rotCols rows p q c s a) = rotSeq p q c s (dotCol rows y a) := by
  funext k
  unfold dotCol rotSeq
  rw [rotCols_eq rows p q c s a hpq]
  by_cases h1 : k = p
  · rw [if_pos h1, sum_mul, sum_mul, ← sum_add_distrib]
    apply sum_congr rfl
    intro r hr
    beta_reduce
    rw [if_pos (mem_range.1 hr), if_pos h1]; ring
  · rw [if_neg h1]
    by_cases h2 : k = q
    · rw [if_pos h2, neg_mul, sum_mul, sum_mul, ← sub_eq_neg_add, ← sum_sub_distrib]
      apply sum_congr rfl
      intro r hr
      beta_reduce
      rw [if_pos (mem_range.1 hr), if_neg h1, if_pos h2]; ring
    · rw [if_neg h2]
      apply sum_congr rfl
      intro r hr
      beta_reduce
      rw [if_pos (mem_range.1 hr), if_neg h1, if_neg h2]

/-- The first `n` columns are orthonormal. -/
def Ortho (rows n : ℕ) (a : Arr2) : Prop :=
  ∀ p < n, ∀ q < n, ∑ r ∈ range rows, a r p * a r q = if p = q then 1 else 0

theorem Ortho.rot {rows n p q : ℕ} {a : Arr2} (h : Ortho rows n a) (hp : p < n) (hq : q < n) (hpq : p ≠ q) {c s : ℝ}
    (hcs : c * c + s * s = 1) : Ortho rows n (rotCols rows p q c s a) := by
  intro i hi j hj
  -- products of rotated columns, by bilinearity
  have e1 : ∀ (b : Arr2) i j, ∑ r ∈ range rows, b r i * b r j = dotCol rows (fun r => b r i) b j := fun _ _ _ => rfl
  have e2 : ∀ (b b' : Arr2) i j, dotCol rows (fun r => b r i) b' j = dotCol rows (fun r => b' r j) b i := fun b b' i j =>
    sum_congr rfl fun _ _ => mul_comm _ _
  rw [e1, dotCol_rot rows p q hpq]
  have e3 : ∀ k, dotCol rows (fun r => rotCols rows p q c s a r i) a k =
      rotSeq p q c s (dotCol rows (fun r => a r k) a) i := by
    intro k
    rw [e2, dotCol_rot rows p q hpq]
  have e4 : ∀ k l, k < n → l < n → dotCol rows (fun r => a r k) a l = if k = l then 1 else 0 := fun k l hk hl => h k hk l hl
  simp only [rotSeq, e3]
  rw [e4 p p hp hp, e4 p q hp hq, e4 q p hq hp, e4 q q hq hq, e4 p i hp hi, e4 q i hq hi, e4 j i hj hi, e4 j p hj hp,
    e4 j q hj hq]
  have hqp : ¬ q = p := fun e => hpq e.symm
  by_cases i1 : i = p
  · subst i1
    by_cases j1 : j = i
    · subst j1; simp [hpq, hqp]; linarith
    · by_cases j2 : j = q
      · subst j2; simp [hpq, hqp]; ring
      · have : ¬ i = j := fun e => j1 e.symm
        simp [j1, j2, this]
  · by_cases i2 : i = q
    · subst i2
      by_cases j1 : j = p
      · subst j1; simp [hpq, hqp]; ring
      · by_cases j2 : j = i
        · subst j2; simp [hpq, hqp]; linarith
        · have : ¬ i = j := fun e => j2 e.symm
          simp [j1, j2, this]
    · have i1' : ¬ p = i := fun e => i1 e.symm
      have i2' : ¬ q = i := fun e => i2 e.symm
      by_cases j1 : j = p
      · subst j1; simp [i1, i2, i1', i2']
      · by_cases j2 : j = q
        · subst j2; simp [i1, i2, i1', i2', j1]
        · simp [i1, i2, j1, j2, eq_comm]

/-- The bilinear form of the bidiagonal matrix with diagonal `w` and superdiagonal `ws[1] ... ws[k]`. -/
noncomputable def form (n k : ℕ) (w ws α β : ℕ → ℝ) : ℝ :=
  ∑ j ∈ range n, w j * α j * β j + ∑ j ∈ range k, ws (j + 1) * α j * β (j + 1)

theorem sum_two {n p q : ℕ} (hp : p < n) (hq : q < n) (hpq : p ≠ q) (d : ℕ → ℝ) (h : ∀ j, j ≠ p → j ≠ q → d j = 0) :
    ∑ j ∈ range n, d j = d p + d q := by
  rw [← sum_subset (s₁ := {p, q}), sum_pair hpq]
  · intro j hj
    simp only [mem_insert, mem_singleton] at hj
    rw [mem_range]; omega
  · intro j _ hj
    simp only [mem_insert, mem_singleton] at hj
    exact h j (by tauto) (by tauto)

theorem sum_three {k i : ℕ} (hi : i < k) (d : ℕ → ℝ) (h : ∀ j, j + 1 ≠ i → j ≠ i → j ≠ i + 1 → d j = 0) :
    ∑ j ∈ range k, d j = (if 0 < i then d (i - 1) else 0) + d i + (if i + 1 < k then d (i + 1) else 0) := by
  have e : ∀ j ∈ range k, d j = (if j = i - 1 then (if 0 < i then d j else 0) else 0) + (if j = i then d j else 0) +
      (if j = i + 1 then d j else 0) := by
    intro j _
    by_cases h1 : j + 1 = i
    · rw [if_pos (by omega), if_pos (by omega), if_neg (by omega), if_neg (by omega)]; ring
    · by_cases h2 : j = i
      · rw [if_pos h2, if_neg (show ¬ j = i + 1 by omega)]
        by_cases h3 : 0 < i
        · rw [if_neg (by omega)]; ring
        · rw [if_neg h3]; simp
      · rw [if_neg h2]
        by_cases h3 : j = i + 1
        · rw [if_pos h3, if_neg (by omega)]; ring
        · rw [if_neg h3, h j h1 h2 h3]; simp
  rw [sum_congr rfl e, sum_add_distrib, sum_add_distrib, sum_ite_eq', sum_ite_eq', sum_ite_eq']
  rw [if_pos (mem_range.2 (by omega)), if_pos (mem_range.2 hi)]
  simp only [mem_range]

/-- One step of the chase: the rotations of columns `i`, `i + 1` of V by `c, s` and of U by `c', s'` do not change the matrix,
    if the diagonals and the bulge are updated accordingly. -/
theorem chase {n k i : ℕ} (hk : k < n) (hi : i < k) (W W' WS WS' α β : ℕ → ℝ) (c s c' s' H : ℝ)
    (hcs : c * c + s * s = 1) (hcs' : c' * c' + s' * s' = 1)
    (hW : ∀ j, j ≠ i → j ≠ i + 1 → W' j = W j) (hWS : ∀ j, j ≠ i → j ≠ i + 1 → j ≠ i + 2 → WS' j = WS j)
    (hb : 0 < i → WS' i * c = WS i ∧ WS' i * s = H)
    (h1 : W i * c + WS (i + 1) * s = W' i * c') (h2 : W (i + 1) * s = W' i * s')
    (h3 : WS' (i + 1) = c' * (-W i * s + WS (i + 1) * c) + s' * (W (i + 1) * c))
    (h4 : W' (i + 1) = -s' * (-W i * s + WS (i + 1) * c) + c' * (W (i + 1) * c))
    (h5 : i + 1 < k → WS' (i + 2) = c' * WS (i + 2)) :
    form n k W' WS' (rotSeq i (i + 1) c' s' α) (rotSeq i (i + 1) c s β) +
      (if i + 1 < k then s' * WS (i + 2) * rotSeq i (i + 1) c' s' α i * rotSeq i (i + 1) c s β (i + 2) else 0) =
    form n k W WS α β + (if 0 < i then H * α (i - 1) * β (i + 1) else 0) := by
  set α' := rotSeq i (i + 1) c' s' α with hα
  set β' := rotSeq i (i + 1) c s β with hβ
  have a0 : ∀ j, j ≠ i → j ≠ i + 1 → α' j = α j := fun j e1 e2 => by rw [hα, rotSeq, if_neg e1, if_neg e2]
  have a1 : α' i = α i * c' + α (i + 1) * s' := by rw [hα, rotSeq, if_pos rfl]
  have a2 : α' (i + 1) = -α i * s' + α (i + 1) * c' := by rw [hα, rotSeq, if_neg (by omega), if_pos rfl]
  have b0 : ∀ j, j ≠ i → j ≠ i + 1 → β' j = β j := fun j e1 e2 => by rw [hβ, rotSeq, if_neg e1, if_neg e2]
  have b1 : β' i = β i * c + β (i + 1) * s := by rw [hβ, rotSeq, if_pos rfl]
  have b2 : β' (i + 1) = -β i * s + β (i + 1) * c := by rw [hβ, rotSeq, if_neg (by omega), if_pos rfl]
  clear_value α' β'
  have s1 := sum_two (n := n) (p := i) (q := i + 1) (by omega) (by omega) (by omega)
    (fun j => W' j * α' j * β' j - W j * α j * β j)
    (fun j e1 e2 => by rw [hW j e1 e2, a0 j e1 e2, b0 j e1 e2, sub_self])
  have s2 := sum_three hi (fun j => WS' (j + 1) * α' j * β' (j + 1) - WS (j + 1) * α j * β (j + 1))
    (fun j e1 e2 e3 => by
      rw [hWS (j + 1) (by omega) (by omega) (by omega), a0 j e2 e3, b0 (j + 1) (by omega) (by omega), sub_self])
  rw [sum_sub_distrib] at s1 s2
  have t1 : (if 0 < i then WS' (i - 1 + 1) * α' (i - 1) * β' (i - 1 + 1) - WS (i - 1 + 1) * α (i - 1) * β (i - 1 + 1) else 0) =
      if 0 < i then H * α (i - 1) * β (i + 1) else 0 := by
    by_cases h : 0 < i
    · rw [if_pos h, if_pos h, show i - 1 + 1 = i by omega, a0 (i - 1) (by omega) (by omega), b1]
      obtain ⟨g1, g2⟩ := hb h
      linear_combination (α (i - 1) * β i) * g1 + (α (i - 1) * β (i + 1)) * g2
    · rw [if_neg h, if_neg h]
  have t2 : (if i + 1 < k then WS' (i + 1 + 1) * α' (i + 1) * β' (i + 1 + 1) -
      WS (i + 1 + 1) * α (i + 1) * β (i + 1 + 1) else 0) +
      (if i + 1 < k then s' * WS (i + 2) * α' i * β' (i + 2) else 0) = 0 := by
    by_cases h : i + 1 < k
    · rw [if_pos h, if_pos h, show i + 1 + 1 = i + 2 by omega, b0 (i + 2) (by omega) (by omega), h5 h, a1, a2]
      linear_combination (WS (i + 2) * β (i + 2) * α (i + 1)) * hcs'
    · rw [if_neg h, if_neg h, add_zero]
  rw [t1] at s2
  have main : W' i * α' i * β' i - W i * α i * β i + (W' (i + 1) * α' (i + 1) * β' (i + 1) - W (i + 1) * α (i + 1) * β (i + 1)) +
      (WS' (i + 1) * α' i * β' (i + 1) - WS (i + 1) * α i * β (i + 1)) = 0 := by
    -- the rows of the middle matrix
    have r1 : W' i * α' i = (W i * c + WS (i + 1) * s) * α i + W (i + 1) * s * α (i + 1) := by
      rw [a1, h1, h2]; ring
    have r2 : W' (i + 1) * α' (i + 1) + WS' (i + 1) * α' i =
        (-W i * s + WS (i + 1) * c) * α i + W (i + 1) * c * α (i + 1) := by
      rw [a1, a2, h3, h4]
      linear_combination ((-W i * s + WS (i + 1) * c) * α i + W (i + 1) * c * α (i + 1)) * hcs'
    have r3 : β' i * c - β' (i + 1) * s = β i := by rw [b1, b2]; linear_combination (β i) * hcs
    have r4 : β' i * s + β' (i + 1) * c = β (i + 1) := by rw [b1, b2]; linear_combination (β (i + 1)) * hcs
    rw [← r3, ← r4]
    linear_combination (β' i) * r1 + (β' (i + 1)) * r2
  unfold form
  linarith [s1, s2, t2, main]

end Sla
