import Verif.Model.Linear
import Mathlib.LinearAlgebra.Matrix.NonsingularInverse
import Mathlib.LinearAlgebra.Matrix.Adjugate
import Mathlib.LinearAlgebra.Matrix.ToLinearEquiv
import Mathlib.LinearAlgebra.Matrix.Determinant.Basic
import Mathlib.Data.Real.Basic
import Mathlib.Tactic.Linarith
import Mathlib.Tactic.FieldSimp
import Mathlib.Tactic.LinearCombination

/-
The loops of `dmat` in closed form and its loop invariant.
-/
namespace Sla
open Matrix

variable {n : ℕ}

theorem dmatPivot_spec (m : NMat n) (k : Fin n) :
    (dmatPivot m k).1 = |m (dmatPivot m k).2 k| ∧ k ≤ (dmatPivot m k).2 ∧ ∀ i, k ≤ i → |m i k| ≤ (dmatPivot m k).1 := by
  unfold dmatPivot
  have key : ∀ (l : List (Fin n)), (∀ i ∈ l, k < i) → ∀ s : ℝ × Fin n, s.1 = |m s.2 k| → k ≤ s.2 →
      let r := l.foldl (fun s i => let t0 := |m i k|; if t0 > s.1 then (t0, i) else s) s
      r.1 = |m r.2 k| ∧ k ≤ r.2 ∧ s.1 ≤ r.1 ∧ ∀ i ∈ l, |m i k| ≤ r.1 := by
    intro l
    induction l with
    | nil => intro _ s h1 h2; exact ⟨h1, h2, le_refl _, by simp⟩
    | cons i l ih =>
      intro hl s h1 h2
      simp only [List.foldl_cons]
      by_cases h : |m i k| > s.1
      · rw [if_pos h]
        obtain ⟨a, b, c, d⟩ := ih (fun j hj => hl j (by simp [hj])) (|m i k|, i) rfl (hl i (by simp)).le
        refine ⟨a, b, h.le.trans c, fun j hj => ?_⟩
        rcases List.mem_cons.1 hj with rfl | hj
        · exact c
        · exact d j hj
      · rw [if_neg h]
        obtain ⟨a, b, c, d⟩ := ih (fun j hj => hl j (by simp [hj])) s h1 h2
        refine ⟨a, b, c, fun j hj => ?_⟩
        rcases List.mem_cons.1 hj with rfl | hj
        · exact (not_lt.1 h).trans c
        · exact d j hj
  obtain ⟨a, b, c, d⟩ := key ((List.finRange n).filter fun i => k < i) (by simp) (|m k k|, k) rfl (le_refl _)
  refine ⟨a, b, fun i hi => ?_⟩
  rcases hi.eq_or_lt with rfl | hi
  · exact c
  · exact d i (by simp [hi])

theorem dmatSwapRows_eq (m : NMat n) (k q : Fin n) : dmatSwapRows m k q = fun a b => m (Equiv.swap k q a) b := by
  have key : ∀ (l : List (Fin n)), l.Nodup → ∀ m : NMat n,
      l.foldl (fun m j => let t1 := m k j; setE (setE m k j (m q j)) q j t1) m =
        fun a b => if b ∈ l then m (Equiv.swap k q a) b else m a b := by
    intro l
    induction l with
    | nil => intro _ m; funext a b; simp
    | cons j l ih =>
      intro hl m
      obtain ⟨h1, h2⟩ := List.nodup_cons.1 hl
      rw [List.foldl_cons, ih h2]
      funext a b
      by_cases hb : b = j
      · subst hb
        simp only [h1, if_false, List.mem_cons, true_or, if_true]
        unfold setE
        by_cases ha : a = q
        · subst ha; simp
        · by_cases hk : a = k
          · subst hk; simp [ha]
          · simp [ha, hk, Equiv.swap_apply_of_ne_of_ne hk ha]
      · simp [setE, hb]
  unfold dmatSwapRows
  rw [key _ (List.nodup_finRange n)]
  funext a b
  simp

theorem dmatSwapCols_eq (m : NMat n) (p q : Fin n) : dmatSwapCols m p q = fun a b => m a (Equiv.swap p q b) := by
  have key : ∀ (l : List (Fin n)), l.Nodup → ∀ m : NMat n,
      l.foldl (fun m i => let t3 := m i p; setE (setE m i p (m i q)) i q t3) m =
        fun a b => if a ∈ l then m a (Equiv.swap p q b) else m a b := by
    intro l
    induction l with
    | nil => intro _ m; funext a b; simp
    | cons j l ih =>
      intro hl m
      obtain ⟨h1, h2⟩ := List.nodup_cons.1 hl
      rw [List.foldl_cons, ih h2]
      funext a b
      by_cases ha : a = j
      · subst ha
        simp only [h1, if_false, List.mem_cons, true_or, if_true]
        unfold setE
        by_cases hb : b = q
        · subst hb; simp
        · by_cases hk : b = p
          · subst hk; simp [hb]
          · simp [hb, hk, Equiv.swap_apply_of_ne_of_ne hk hb]
      · simp [setE, ha]
  unfold dmatSwapCols
  rw [key _ (List.nodup_finRange n)]
  funext a b
  simp

theorem dmatScale_eq (m : NMat n) (k : Fin n) (x : ℝ) :
    dmatScale m k x = fun a b => if a = k ∧ b ≠ k then m k b * x else m a b := by
  have key : ∀ (l : List (Fin n)), l.Nodup → ∀ m : NMat n,
      l.foldl (fun m j => if j ≠ k then setE m k j (m k j * x) else m) m =
        fun a b => if b ∈ l ∧ a = k ∧ b ≠ k then m k b * x else m a b := by
    intro l
    induction l with
    | nil => intro _ m; funext a b; simp
    | cons j l ih =>
      intro hl m
      obtain ⟨h1, h2⟩ := List.nodup_cons.1 hl
      rw [List.foldl_cons, ih h2]
      funext a b
      by_cases hb : b = j
      · subst hb
        by_cases hk : b = k
        · simp [hk]
        · simp [h1, hk, setE]
      · by_cases hk : j = k
        · have hbk : b ≠ k := hk ▸ hb
          simp [hk, hbk]
        · simp [hk, hb, setE]
  unfold dmatScale
  rw [key _ (List.nodup_finRange n)]
  funext a b
  simp

theorem dmatElimRow_eq (m : NMat n) (k i : Fin n) (hik : i ≠ k) (x : ℝ) :
    dmatElimRow m k i x = fun a b => if a = i ∧ b ≠ k then m i b - x * m k b else m a b := by
  have key : ∀ (l : List (Fin n)), l.Nodup → ∀ m : NMat n,
      l.foldl (fun m j => if j ≠ k then setE m i j (m i j - x * m k j) else m) m =
        fun a b => if b ∈ l ∧ a = i ∧ b ≠ k then m i b - x * m k b else m a b := by
    intro l
    induction l with
    | nil => intro _ m; funext a b; simp
    | cons j l ih =>
      intro hl m
      obtain ⟨h1, h2⟩ := List.nodup_cons.1 hl
      rw [List.foldl_cons, ih h2]
      funext a b
      by_cases hb : b = j
      · subst hb
        by_cases hk : b = k
        · simp [hk]
        · simp [h1, hk, setE]
      · by_cases hk : j = k
        · have hbk : b ≠ k := hk ▸ hb
          simp [hk, hbk]
        · simp [hk, hb, setE]
  unfold dmatElimRow
  rw [key _ (List.nodup_finRange n)]
  funext a b
  simp

theorem dmatElim_eq (m : NMat n) (v : Fin n → ℝ) (k : Fin n) (y : ℝ) :
    dmatElim m v k y = ((fun a b => if a ≠ k ∧ b ≠ k then m a b - m a k * m k b else m a b),
      fun a => if a ≠ k then v a - m a k * y else v a) := by
  have key : ∀ (l : List (Fin n)), l.Nodup → ∀ (m : NMat n) (v : Fin n → ℝ),
      l.foldl (fun s i => let aik := s.1 i k
        if i ≠ k then (dmatElimRow s.1 k i aik, setV s.2 i (s.2 i - aik * y)) else s) (m, v) =
        ((fun a b => if a ∈ l ∧ a ≠ k ∧ b ≠ k then m a b - m a k * m k b else m a b),
          fun a => if a ∈ l ∧ a ≠ k then v a - m a k * y else v a) := by
    intro l
    induction l with
    | nil => intro _ m v; refine Prod.ext ?_ ?_ <;> simp <;> rfl
    | cons j l ih =>
      intro hl m v
      obtain ⟨h1, h2⟩ := List.nodup_cons.1 hl
      rw [List.foldl_cons]
      by_cases hj : j = k
      · subst hj
        show List.foldl _ (if j ≠ j then (dmatElimRow m j j (m j j), setV v j (v j - m j j * y)) else (m, v)) l = _
        rw [if_neg (by simp), ih h2]
        refine Prod.ext ?_ ?_
        · funext a b
          by_cases ha : a = j <;> simp [ha]
        · funext a
          by_cases ha : a = j <;> simp [ha]
      · show List.foldl _ (if j ≠ k then (dmatElimRow m k j (m j k), setV v j (v j - m j k * y)) else (m, v)) l = _
        rw [if_pos hj, ih h2, dmatElimRow_eq _ _ _ hj]
        refine Prod.ext ?_ ?_
        · funext a b
          by_cases ha : a = j
          · subst ha
            by_cases hb : b = k <;> simp [h1, hj, hb]
          · have : ¬ k = j := fun e => hj e.symm
            simp [ha, this]
        · funext a
          by_cases ha : a = j
          · subst ha; simp [h1, hj, setV]
          · simp [ha, setV]
  unfold dmatElim
  rw [key _ (List.nodup_finRange n)]
  simp only [List.mem_finRange, true_and]
  rfl

theorem dmatColumn_eq (m : NMat n) (k : Fin n) (x : ℝ) :
    dmatColumn m k x = fun a b => if a ≠ k ∧ b = k then -m a k * x else m a b := by
  have key : ∀ (l : List (Fin n)), l.Nodup → ∀ m : NMat n,
      l.foldl (fun m i => if i ≠ k then setE m i k (-m i k * x) else m) m =
        fun a b => if a ∈ l ∧ a ≠ k ∧ b = k then -m a k * x else m a b := by
    intro l
    induction l with
    | nil => intro _ m; funext a b; simp
    | cons j l ih =>
      intro hl m
      obtain ⟨h1, h2⟩ := List.nodup_cons.1 hl
      rw [List.foldl_cons, ih h2]
      funext a b
      by_cases ha : a = j
      · subst ha
        by_cases hk : a = k
        · simp [hk]
        · by_cases hb : b = k <;> simp [h1, hk, hb, setE]
      · by_cases hk : j = k
        · have hak : a ≠ k := hk ▸ ha
          simp [hk, hak]
        · simp [hk, ha, setE]
  unfold dmatColumn
  rw [key _ (List.nodup_finRange n)]
  funext a b
  simp

/-- The matrix after elimination in column `k`. -/
noncomputable def elimMat (M : NMat n) (k : Fin n) : NMat n := fun a b =>
  if a = k then (if b = k then 1 / M k k else M k b * (1 / M k k))
  else if b = k then -M a k * (1 / M k k) else M a b - M a k * (M k b * (1 / M k k))

/-- The vector after elimination in column `k`. -/
noncomputable def elimVec (M : NMat n) (v : Fin n → ℝ) (k : Fin n) : Fin n → ℝ := fun a =>
  if a = k then v k * (1 / M k k) else v a - M a k * (v k * (1 / M k k))

theorem elim_eq (M : NMat n) (v : Fin n → ℝ) (k : Fin n) :
    dmatColumn (dmatElim (dmatScale (setE M k k (1 / M k k)) k (1 / M k k)) (setV v k (v k * (1 / M k k))) k
      (v k * (1 / M k k))).1 k (1 / M k k) = elimMat M k ∧
    (dmatElim (dmatScale (setE M k k (1 / M k k)) k (1 / M k k)) (setV v k (v k * (1 / M k k))) k
      (v k * (1 / M k k))).2 = elimVec M v k := by
  generalize hx : 1 / M k k = x
  rw [dmatColumn_eq, dmatElim_eq, dmatScale_eq]
  constructor
  · funext a b
    unfold elimMat
    rw [hx]
    by_cases ha : a = k
    · by_cases hb : b = k
      · subst ha; subst hb; simp [setE]
      · subst ha; simp [hb, setE]
    · by_cases hb : b = k
      · subst hb; simp [ha, setE]
      · simp [ha, hb, setE]
  · funext a
    unfold elimVec
    rw [hx]
    by_cases ha : a = k
    · simp [ha, setV]
    · simp [ha, setV, setE]

/-- The rows after the exchange. -/
def swapMat (M : NMat n) (k q : Fin n) : NMat n := fun a b => M (Equiv.swap k q a) b
def swapVec (v : Fin n → ℝ) (k q : Fin n) : Fin n → ℝ := fun a => v (Equiv.swap k q a)

theorem swapVec_eq (v : Fin n → ℝ) (k q : Fin n) :
    (if q ≠ k then (let t2 := v k; setV (setV v k (v q)) q t2) else v) = swapVec v k q := by
  unfold swapVec
  by_cases h : q = k
  · subst h; simp
  · rw [if_pos h]
    funext a
    unfold setV
    by_cases ha : a = q
    · subst ha; simp
    · by_cases hk : a = k
      · subst hk; simp [ha]
      · simp [ha, hk, Equiv.swap_apply_of_ne_of_ne hk ha]

theorem swapMat_eq (M : NMat n) (k q : Fin n) :
    (if q ≠ k then dmatSwapRows M k q else M) = swapMat M k q := by
  unfold swapMat
  by_cases h : q = k
  · subst h; funext a b; simp
  · rw [if_pos h, dmatSwapRows_eq]

/-- One pass of the main loop in closed form. -/
theorem dmatStep_eq (eps : ℝ) (s : DmatState n) (k : Fin n) :
    dmatStep eps s k =
      let q := (dmatPivot s.mat k).2
      let M := swapMat s.mat k q
      let v := swapVec s.vec k q
      let d := (if q ≠ k then -s.det else s.det) * M k k
      let ws : Fin n → ℤ := fun a => if a = k then (q : ℕ) else s.ws a
      if (dmatPivot s.mat k).1 < eps then { s with singular := true }
      else if |d| < eps then { mat := M, vec := v, det := d, ws := ws, singular := true }
      else { mat := elimMat M k, vec := elimVec M v k, det := d, ws := ws, singular := s.singular } := by
  unfold dmatStep
  simp only [swapMat_eq, swapVec_eq]
  simp only [elim_eq]

/-! ### The invariant -/

/-- The transposition recorded in the workspace at pass `p`. -/
def wsSwap (ws : Fin n → ℤ) (p : Fin n) : Equiv.Perm (Fin n) :=
  if h : 0 ≤ ws p ∧ (ws p).toNat < n then Equiv.swap p ⟨(ws p).toNat, h.2⟩ else 1

/-- The product of the recorded transpositions of a list of passes. -/
def wsPerm (ws : Fin n → ℤ) (l : List (Fin n)) : Equiv.Perm (Fin n) := (l.map (wsSwap ws)).prod

/-- The columns already processed replaced by unit vectors. -/
def leftPart (k : ℕ) (M : NMat n) : NMat n := fun a c => if c.val < k then (if a = c then 1 else 0) else M a c
/-- The columns not yet processed replaced by unit vectors. -/
def rightPart (k : ℕ) (M : NMat n) : NMat n := fun a c => if c.val < k then M a c else (if a = c then 1 else 0)

/-- After `k` passes. -/
structure DmatInv (A : NMat n) (b : Fin n → ℝ) (k : ℕ) (s : DmatState n) : Prop where
  range : ∀ p : Fin n, p.val < k → 0 ≤ s.ws p ∧ (s.ws p).toNat < n
  left : leftPart k s.mat = rightPart k s.mat * A.submatrix (wsPerm s.ws ((List.finRange n).take k)) id
  vec : s.vec = rightPart k s.mat *ᵥ (b ∘ wsPerm s.ws ((List.finRange n).take k))
  det : s.det * (rightPart k s.mat).det = ((Equiv.Perm.sign (wsPerm s.ws ((List.finRange n).take k)) : ℤ) : ℝ)

theorem swap_lt_iff {k q c : Fin n} (hq : k ≤ q) : (Equiv.swap k q c).val < k.val ↔ c.val < k.val := by
  by_cases h1 : c = k
  · subst h1
    simp only [Equiv.swap_apply_left, lt_self_iff_false, iff_false, not_lt]
    exact hq
  · by_cases h2 : c = q
    · subst h2
      simp only [Equiv.swap_apply_right, lt_self_iff_false, false_iff, not_lt]
      exact hq
    · rw [Equiv.swap_apply_of_ne_of_ne h1 h2]

theorem swap_of_lt {k q c : Fin n} (hq : k ≤ q) (hc : c.val < k.val) : Equiv.swap k q c = c := by
  apply Equiv.swap_apply_of_ne_of_ne
  · rintro rfl; exact absurd hc (lt_irrefl _)
  · rintro rfl; exact absurd hc (not_lt.2 hq)

theorem leftPart_swap (M : NMat n) {k q : Fin n} (hq : k ≤ q) :
    leftPart k.val (swapMat M k q) = (leftPart k.val M).submatrix (Equiv.swap k q) id := by
  funext a c
  simp only [leftPart, swapMat, Matrix.submatrix_apply, id]
  by_cases hc : c.val < k.val
  · rw [if_pos hc, if_pos hc]
    have := swap_of_lt hq hc
    have e : (Equiv.swap k q a = c) ↔ a = c := by
      rw [Equiv.swap_apply_eq_iff, this]
    simp [e]
  · rw [if_neg hc, if_neg hc]

theorem rightPart_swap (M : NMat n) {k q : Fin n} (hq : k ≤ q) :
    rightPart k.val (swapMat M k q) = (rightPart k.val M).submatrix (Equiv.swap k q) (Equiv.swap k q) := by
  funext a c
  simp only [rightPart, swapMat, Matrix.submatrix_apply]
  by_cases hc : c.val < k.val
  · rw [if_pos hc, if_pos ((swap_lt_iff hq).2 hc), swap_of_lt hq hc]
  · rw [if_neg hc, if_neg (fun h => hc ((swap_lt_iff hq).1 h))]
    simp

/-- The elementary matrix of one elimination. -/
noncomputable def elimE (M : NMat n) (k : Fin n) : NMat n :=
  Matrix.updateCol 1 k (fun a => if a = k then 1 / M k k else -M a k * (1 / M k k))

theorem elimE_det (M : NMat n) (k : Fin n) : (elimE M k).det = 1 / M k k := by
  unfold elimE
  rw [← Matrix.cramer_apply, Matrix.cramer_one]
  simp

theorem elimE_mulVec (M : NMat n) (k : Fin n) (v : Fin n → ℝ) : elimE M k *ᵥ v = elimVec M v k := by
  funext a
  simp only [Matrix.mulVec, dotProduct, elimE, Matrix.updateCol_apply, elimVec]
  have : ∀ c, (if c = k then (if a = k then 1 / M k k else -M a k * (1 / M k k)) else (1 : NMat n) a c) * v c =
      (if c = k then (if a = k then 1 / M k k else -M a k * (1 / M k k)) * v k else 0) +
      (if c = a then (if a = k then 0 else v a) else 0) := by
    intro c
    by_cases h1 : c = k
    · subst h1
      by_cases h2 : a = c
      · subst h2; simp
      · have h3 : ¬ c = a := fun e => h2 e.symm
        simp [h2, h3]
    · by_cases h2 : c = a
      · subst h2; simp [h1]
      · have : ¬ a = c := fun e => h2 e.symm
        simp [h1, h2, this]
  rw [Finset.sum_congr rfl fun c _ => this c, Finset.sum_add_distrib]
  simp only [Finset.sum_ite_eq', Finset.mem_univ, if_true]
  by_cases h : a = k
  · simp [h]; ring
  · simp [h]; ring

theorem elimE_mul (M : NMat n) (k : Fin n) (X : NMat n) (a c : Fin n) :
    (elimE M k * X) a c = if a = k then X k c * (1 / M k k) else X a c - M a k * (X k c * (1 / M k k)) := by
  have := congrFun (elimE_mulVec M k (fun d => X d c)) a
  simpa [elimVec, Matrix.mul_apply, Matrix.mulVec, dotProduct] using this

theorem leftPart_elim (M : NMat n) (k : Fin n) (hk : M k k ≠ 0) :
    leftPart (k.val + 1) (elimMat M k) = elimE M k * leftPart k.val M := by
  funext a c
  rw [elimE_mul]
  simp only [leftPart, elimMat]
  rcases lt_trichotomy c k with h | h | h
  · have h1 : c.val < k.val := h
    have h2 : c.val < k.val + 1 := by omega
    have h3 : ¬ k = c := fun e => by subst e; exact absurd h (lt_irrefl _)
    simp only [h1, h2, h3, if_true, if_false]
    by_cases ha : a = k
    · subst ha; simp [h3]
    · simp [ha]
  · subst h
    simp only [lt_self_iff_false, if_false, Nat.lt_succ_self, if_true]
    by_cases ha : a = c
    · subst ha; simp [hk]
    · simp only [ha, if_false]; field_simp; ring
  · have h1 : ¬ c.val < k.val := not_lt.2 h.le
    have h2 : ¬ c.val < k.val + 1 := by have : k.val < c.val := h; omega
    have h3 : ¬ c = k := fun e => by subst e; exact absurd h (lt_irrefl _)
    simp only [h1, h2, h3, if_false]

theorem rightPart_elim (M : NMat n) (k : Fin n) :
    rightPart (k.val + 1) (elimMat M k) = elimE M k * rightPart k.val M := by
  funext a c
  rw [elimE_mul]
  simp only [rightPart, elimMat]
  rcases lt_trichotomy c k with h | h | h
  · have h1 : c.val < k.val := h
    have h2 : c.val < k.val + 1 := by omega
    have h3 : ¬ c = k := fun e => by subst e; exact absurd h (lt_irrefl _)
    simp only [h1, h2, h3, if_true, if_false]
  · subst h
    simp only [lt_self_iff_false, if_false, Nat.lt_succ_self, if_true]
    by_cases ha : a = c
    · simp [ha]
    · simp [ha]
  · have h1 : ¬ c.val < k.val := not_lt.2 h.le
    have h2 : ¬ c.val < k.val + 1 := by have : k.val < c.val := h; omega
    have h3 : ¬ k = c := fun e => by subst e; exact absurd h (lt_irrefl _)
    simp only [h1, h2, h3, if_false]
    by_cases ha : a = k
    · subst ha; simp [h3]
    · simp [ha]

theorem wsPerm_congr {ws ws' : Fin n → ℤ} {l : List (Fin n)} (h : ∀ p ∈ l, ws p = ws' p) : wsPerm ws l = wsPerm ws' l := by
  unfold wsPerm
  congr 1
  apply List.map_congr_left
  intro p hp
  have := h p hp
  unfold wsSwap
  simp only [this]

theorem take_finRange (k : Fin n) : (List.finRange n).take (k.val + 1) = (List.finRange n).take k.val ++ [k] := by
  rw [List.take_add_one]
  congr 1
  simp

theorem mem_take_finRange {k : ℕ} {p : Fin n} (h : p ∈ (List.finRange n).take k) : p.val < k := by
  rw [List.mem_take_iff_getElem] at h
  obtain ⟨i, hi, rfl⟩ := h
  simp only [List.getElem_finRange, Fin.val_cast]
  omega

theorem dmatInv_init (A : NMat n) (b : Fin n → ℝ) (ws : Fin n → ℤ) :
    DmatInv A b 0 { mat := A, vec := b, det := 1, ws := ws, singular := false } := by
  have hR : rightPart 0 A = 1 := by
    funext a c; simp [rightPart, Matrix.one_apply]
  have hL : leftPart 0 A = A := by
    funext a c; simp [leftPart]
  constructor
  · simp
  · rw [hR, hL]; funext a c; simp [wsPerm]
  · rw [hR]; funext a; simp [wsPerm]
  · rw [hR]; simp [wsPerm]

/-- A pass keeps the invariant when the pivot is not zero. -/
theorem dmatInv_step (A : NMat n) (b : Fin n → ℝ) (k : Fin n) (s : DmatState n) (h : DmatInv A b k.val s) (sg : Bool)
    (h0 : (dmatPivot s.mat k).1 ≠ 0) :
    let q := (dmatPivot s.mat k).2
    let M := swapMat s.mat k q
    DmatInv A b (k.val + 1)
      { mat := elimMat M k, vec := elimVec M (swapVec s.vec k q) k, det := (if q ≠ k then -s.det else s.det) * M k k,
        ws := fun a => if a = k then (q : ℕ) else s.ws a, singular := sg } := by
  obtain ⟨hp1, hp2, -⟩ := dmatPivot_spec s.mat k
  rw [hp1] at h0
  generalize (dmatPivot s.mat k).2 = q at *
  have hM0 : swapMat s.mat k q k k ≠ 0 := by
    simp only [swapMat, Equiv.swap_apply_left]
    exact abs_ne_zero.1 h0
  have hws : wsPerm (fun a => if a = k then ((q : ℕ) : ℤ) else s.ws a) ((List.finRange n).take (k.val + 1)) =
      wsPerm s.ws ((List.finRange n).take k.val) * Equiv.swap k q := by
    rw [take_finRange]
    have e1 : wsPerm (fun a => if a = k then ((q : ℕ) : ℤ) else s.ws a) ((List.finRange n).take k.val) =
        wsPerm s.ws ((List.finRange n).take k.val) := by
      apply wsPerm_congr
      intro p hp
      have := mem_take_finRange hp
      have : p ≠ k := by rintro rfl; exact absurd this (lt_irrefl _)
      simp [this]
    have e2 : wsSwap (fun a => if a = k then ((q : ℕ) : ℤ) else s.ws a) k = Equiv.swap k q := by
      unfold wsSwap
      simp
    unfold wsPerm at e1 ⊢
    rw [List.map_append, List.prod_append, e1]
    simp [e2]
  generalize hσ : wsPerm s.ws ((List.finRange n).take k.val) = σ at *
  have hLs := leftPart_swap s.mat hp2
  have hRs := rightPart_swap s.mat hp2
  have hleft := h.left
  have hvec := h.vec
  have hdet := h.det
  rw [hσ] at hleft hvec hdet
  dsimp only
  generalize hM : swapMat s.mat k q = M at *
  constructor
  · intro p hp
    dsimp only
    by_cases e : p = k
    · simp [e]
    · rw [if_neg e]
      exact h.range p (by have : p.val ≠ k.val := fun h => e (Fin.ext h); omega)
  · dsimp only
    rw [hws, leftPart_elim M k hM0, rightPart_elim, hLs, hRs, hleft, Matrix.mul_assoc]
    congr 1
    have : A.submatrix (⇑(σ * Equiv.swap k q)) id = (A.submatrix σ id).submatrix (Equiv.swap k q) id := by
      rfl
    rw [this, Matrix.submatrix_mul_equiv]
  · dsimp only
    rw [hws, rightPart_elim, ← elimE_mulVec, hRs, ← Matrix.mulVec_mulVec]
    congr 1
    have : swapVec s.vec k q = s.vec ∘ Equiv.swap k q := rfl
    rw [this, hvec, Matrix.submatrix_mulVec_equiv]
    congr 2
    funext a
    simp
  · dsimp only
    rw [hws, rightPart_elim, Matrix.det_mul, elimE_det, hRs, Matrix.det_submatrix_equiv_self]
    simp only [Equiv.Perm.sign_mul, Units.val_mul, Int.cast_mul]
    rw [← hdet]
    by_cases e : q = k
    · subst e; simp; field_simp
    · have : Equiv.Perm.sign (Equiv.swap k q) = -1 := Equiv.Perm.sign_swap (fun h => e h.symm)
      rw [this]
      simp [e]; field_simp

/-- While the matrix is non-singular the pivot found is not zero. -/
theorem dmatPivot_ne_zero (A : NMat n) (b : Fin n → ℝ) (k : Fin n) (s : DmatState n) (h : DmatInv A b k.val s)
    (hA : A.det ≠ 0) : (dmatPivot s.mat k).1 ≠ 0 := by
  intro h0
  obtain ⟨-, -, hmax⟩ := dmatPivot_spec s.mat k
  rw [h0] at hmax
  have hz : ∀ i, k ≤ i → s.mat i k = 0 := fun i hi => abs_nonpos_iff.1 (hmax i hi)
  have hR : (rightPart k.val s.mat).det ≠ 0 := by
    intro e
    have := h.det
    rw [e, mul_zero] at this
    rcases Int.units_eq_one_or (Equiv.Perm.sign (wsPerm s.ws ((List.finRange n).take k.val))) with h | h <;>
      rw [h] at this <;> norm_num at this
  have hL : (leftPart k.val s.mat).det ≠ 0 := by
    rw [h.left, Matrix.det_mul, Matrix.det_permute]
    refine mul_ne_zero hR (mul_ne_zero ?_ hA)
    rcases Int.units_eq_one_or (Equiv.Perm.sign (wsPerm s.ws ((List.finRange n).take k.val))) with h | h <;>
      rw [h] <;> norm_num
  apply hL
  rw [← Matrix.exists_mulVec_eq_zero_iff]
  refine ⟨fun c => if c.val < k.val then -s.mat c k else if c = k then 1 else 0, ?_, ?_⟩
  · intro e
    have := congrFun e k
    simp at this
  · funext a
    simp only [Matrix.mulVec, dotProduct, leftPart, Pi.zero_apply]
    have : ∀ c, (if c.val < k.val then (if a = c then (1 : ℝ) else 0) else s.mat a c) *
        (if c.val < k.val then -s.mat c k else if c = k then 1 else 0) =
        (if c = a then (if a.val < k.val then -s.mat a k else 0) else 0) + (if c = k then s.mat a k else 0) := by
      intro c
      by_cases hc : c.val < k.val
      · have h3 : ¬ c = k := by rintro rfl; exact absurd hc (lt_irrefl _)
        by_cases hac : a = c
        · subst hac; simp [hc, h3]
        · have : ¬ c = a := fun e => hac e.symm
          simp [hc, h3, hac, this]
      · by_cases hck : c = k
        · subst hck
          by_cases hac : c = a
          · subst hac; simp
          · simp [hac]
        · by_cases hac : c = a
          · subst hac; simp [hc, hck]
          · simp [hc, hck, hac]
    rw [Finset.sum_congr rfl fun c _ => this c, Finset.sum_add_distrib]
    simp only [Finset.sum_ite_eq', Finset.mem_univ, if_true]
    by_cases ha : a.val < k.val
    · simp [ha]
    · rw [if_neg ha, hz a (not_lt.1 ha)]; simp

/-! ### The whole loop -/

/-- The state after `k` passes. -/
noncomputable def dmatAfter (eps : ℝ) (A : NMat n) (b : Fin n → ℝ) (ws : Fin n → ℤ) (k : ℕ) : DmatState n :=
  ((List.finRange n).take k).foldl (dmatStep eps) { mat := A, vec := b, det := 1, ws := ws, singular := false }

theorem dmatAfter_succ (eps : ℝ) (A : NMat n) (b : Fin n → ℝ) (ws : Fin n → ℤ) (k : Fin n) :
    dmatAfter eps A b ws (k.val + 1) = dmatStep eps (dmatAfter eps A b ws k.val) k := by
  unfold dmatAfter
  rw [take_finRange, List.foldl_append]
  rfl

theorem dmatLoop_eq (eps : ℝ) (A : NMat n) (b : Fin n → ℝ) (ws : Fin n → ℤ) :
    dmatLoop eps A b ws = dmatAfter eps A b ws n := by
  unfold dmatLoop dmatAfter
  rw [List.take_of_length_le (by simp)]

theorem dmatAfter_inv {eps : ℝ} (he : 0 < eps) (A : NMat n) (b : Fin n → ℝ) (ws : Fin n → ℤ) (k : ℕ) (hk : k ≤ n)
    (hs : (dmatAfter eps A b ws k).singular = false) : DmatInv A b k (dmatAfter eps A b ws k) := by
  induction k with
  | zero => exact dmatInv_init A b ws
  | succ k ih =>
    have e := dmatAfter_succ eps A b ws ⟨k, hk⟩
    dsimp only at e
    rw [e] at hs ⊢
    rw [dmatStep_eq] at hs ⊢
    dsimp only at hs ⊢
    generalize hst : dmatAfter eps A b ws k = s at *
    by_cases h1 : (dmatPivot s.mat ⟨k, hk⟩).1 < eps
    · rw [if_pos h1] at hs; simp at hs
    · rw [if_neg h1] at hs ⊢
      generalize hd : (if (dmatPivot s.mat ⟨k, hk⟩).2 ≠ ⟨k, hk⟩ then -s.det else s.det) *
        swapMat s.mat ⟨k, hk⟩ (dmatPivot s.mat ⟨k, hk⟩).2 ⟨k, hk⟩ ⟨k, hk⟩ = d at hs ⊢
      by_cases h2 : |d| < eps
      · rw [if_pos h2] at hs; simp at hs
      · rw [if_neg h2] at hs ⊢
        rw [← hd]
        exact dmatInv_step A b ⟨k, hk⟩ s (ih (by omega) hs) s.singular (he.trans_le (not_lt.1 h1)).ne'

theorem wsSwap_mul_self (ws : Fin n → ℤ) (p : Fin n) : wsSwap ws p * wsSwap ws p = 1 := by
  unfold wsSwap
  split_ifs
  · exact Equiv.swap_mul_self _ _
  · simp

theorem wsPerm_reverse (ws : Fin n → ℤ) (l : List (Fin n)) : wsPerm ws l.reverse = (wsPerm ws l)⁻¹ := by
  induction l with
  | nil => simp [wsPerm]
  | cons p l ih =>
    unfold wsPerm at *
    simp only [List.reverse_cons, List.map_append, List.prod_append, List.map_cons, List.map_nil, List.prod_cons,
      List.prod_nil, mul_one, ih, _root_.mul_inv_rev]
    congr 1
    exact eq_inv_of_mul_eq_one_left (wsSwap_mul_self ws p)

theorem dmatUnscramble_eq (ws : Fin n → ℤ) (m : NMat n) (h : ∀ p : Fin n, 0 ≤ ws p ∧ (ws p).toNat < n) :
    dmatUnscramble ws m = some (m.submatrix id ⇑(wsPerm ws (List.finRange n))⁻¹) := by
  rw [← wsPerm_reverse]
  unfold dmatUnscramble
  generalize (List.finRange n).reverse = l
  induction l generalizing m with
  | nil => rfl
  | cons p l ih =>
    rw [List.foldl_cons, Option.bind_some, dif_pos (h p), ih]
    congr 1
    have e : (if p ≠ ⟨(ws p).toNat, (h p).2⟩ then dmatSwapCols m p ⟨(ws p).toNat, (h p).2⟩ else m) =
        m.submatrix id (wsSwap ws p) := by
      have e2 : wsSwap ws p = Equiv.swap p ⟨(ws p).toNat, (h p).2⟩ := by
        unfold wsSwap; rw [dif_pos (h p)]
      rw [e2]
      by_cases hp : p = ⟨(ws p).toNat, (h p).2⟩
      · rw [if_neg (by simpa using hp), ← hp]
        funext a b; simp
      · rw [if_pos hp, dmatSwapCols_eq]
        rfl
    rw [e]
    funext a b
    simp [wsPerm]

/-- The whole of `dmat`. -/
theorem dmatEps_spec {eps : ℝ} (he : 0 < eps) (A : NMat n) (b : Fin n → ℝ) (ws : Fin n → ℤ) :
    ∃ r, dmatEps eps A b ws = some r ∧ (r.singular = true → r.det = 0) ∧
      (r.singular = false → r.mat * A = 1 ∧ r.vec = r.mat *ᵥ b ∧ r.det = A.det) := by
  unfold dmatEps
  rw [dmatLoop_eq]
  dsimp only
  by_cases hs : (dmatAfter eps A b ws n).singular = true
  · rw [if_pos hs]
    exact ⟨_, rfl, fun _ => rfl, fun h => by simp at h⟩
  · rw [if_neg hs]
    have hs' : (dmatAfter eps A b ws n).singular = false := by simpa using hs
    have h := dmatAfter_inv he A b ws n le_rfl hs'
    generalize dmatAfter eps A b ws n = s at *
    rw [dmatUnscramble_eq _ _ (fun p => h.range p p.2)]
    refine ⟨_, rfl, fun h => by simp at h, fun _ => ?_⟩
    dsimp only
    have hL : leftPart n s.mat = 1 := by
      funext a c; simp [leftPart, Matrix.one_apply]
    have hR : rightPart n s.mat = s.mat := by
      funext a c; simp [rightPart]
    obtain ⟨-, h1, h2, h3⟩ := h
    have ht : (List.finRange n).take n = List.finRange n := List.take_of_length_le (by simp)
    rw [ht] at h1 h2 h3
    generalize wsPerm s.ws (List.finRange n) = σ at *
    rw [hL, hR] at h1
    rw [hR] at h2 h3
    refine ⟨?_, ?_, ?_⟩
    · have : A = (A.submatrix σ id).submatrix (σ⁻¹ : Equiv.Perm (Fin n)) id := by
        funext a c; simp
      rw [this, Matrix.submatrix_mul_equiv, ← h1]
      simp
    · rw [h2]
      have := Matrix.submatrix_mulVec_equiv s.mat (b ∘ σ ∘ ⇑(σ⁻¹)) id (σ⁻¹ : Equiv.Perm (Fin n))
      funext a
      have h4 := congrFun this a
      have e1 : (b ∘ ⇑σ ∘ ⇑σ⁻¹) = b := by funext x; simp
      rw [e1] at h4
      rw [h4]
      simp only [Function.comp, id]
      congr 2
      
    · have hd := congrArg Matrix.det h1
      rw [Matrix.det_one, Matrix.det_mul, Matrix.det_permute] at hd
      have hsg : ((Equiv.Perm.sign σ : ℤ) : ℝ) * ((Equiv.Perm.sign σ : ℤ) : ℝ) = 1 := by
        rcases Int.units_eq_one_or (Equiv.Perm.sign σ) with h | h <;> rw [h] <;> norm_num
      generalize ((Equiv.Perm.sign σ : ℤ) : ℝ) = g at *
      calc s.det = s.det * (s.mat.det * (g * A.det)) := by rw [← hd, mul_one]
        _ = (s.det * s.mat.det) * g * A.det := by ring
        _ = A.det := by rw [h3, hsg, one_mul]

/-- For a sufficiently small threshold a non-singular matrix passes every test. -/
theorem dmatAfter_complete (A : NMat n) (b : Fin n → ℝ) (ws : Fin n → ℤ) (hA : A.det ≠ 0) (k : ℕ) (hk : k ≤ n) :
    ∃ e > 0, ∃ s : DmatState n, s.singular = false ∧ s.det ≠ 0 ∧ DmatInv A b k s ∧
      ∀ eps, 0 < eps → eps ≤ e → dmatAfter eps A b ws k = s := by
  induction k with
  | zero => exact ⟨1, one_pos, _, rfl, one_ne_zero, dmatInv_init A b ws, fun _ _ _ => rfl⟩
  | succ k ih =>
    obtain ⟨e, he, s, hs, hd, hinv, hall⟩ := ih (by omega)
    have hp := dmatPivot_ne_zero A b ⟨k, hk⟩ s hinv hA
    obtain ⟨hp1, -, -⟩ := dmatPivot_spec s.mat ⟨k, hk⟩
    have hpos : 0 < (dmatPivot s.mat ⟨k, hk⟩).1 := by
      have : 0 ≤ (dmatPivot s.mat ⟨k, hk⟩).1 := by rw [hp1]; exact abs_nonneg _
      exact lt_of_le_of_ne this (Ne.symm hp)
    have hnew := dmatInv_step A b ⟨k, hk⟩ s hinv s.singular hp
    dsimp only at hnew
    have hd' : ((if (dmatPivot s.mat ⟨k, hk⟩).2 ≠ ⟨k, hk⟩ then -s.det else s.det) *
        swapMat s.mat ⟨k, hk⟩ (dmatPivot s.mat ⟨k, hk⟩).2 ⟨k, hk⟩ ⟨k, hk⟩) ≠ 0 := by
      apply mul_ne_zero
      · split_ifs
        · exact neg_ne_zero.2 hd
        · exact hd
      · simp only [swapMat, Equiv.swap_apply_left]
        rw [hp1] at hp
        exact abs_ne_zero.1 hp
    refine ⟨min e (min (dmatPivot s.mat ⟨k, hk⟩).1 (abs ((if (dmatPivot s.mat ⟨k, hk⟩).2 ≠ ⟨k, hk⟩ then -s.det else s.det) *
        swapMat s.mat ⟨k, hk⟩ (dmatPivot s.mat ⟨k, hk⟩).2 ⟨k, hk⟩ ⟨k, hk⟩))), ?_, _, ?_, ?_, hnew, ?_⟩
    · exact lt_min he (lt_min hpos (abs_pos.2 hd'))
    · exact hs
    · exact hd'
    · intro eps h0 h1
      have e1 := dmatAfter_succ eps A b ws ⟨k, hk⟩
      dsimp only at e1
      rw [e1, hall eps h0 (h1.trans (min_le_left _ _)), dmatStep_eq]
      dsimp only
      rw [if_neg (not_lt.2 (h1.trans ((min_le_right _ _).trans (min_le_left _ _)))),
        if_neg (not_lt.2 (h1.trans ((min_le_right _ _).trans (min_le_right _ _))))]

end Sla

namespace Sla
variable {n : ℕ}

/-- The matrix, determinant and flag do not depend on the vector or on the initial workspace. -/
theorem dmatAfter_indep (eps : ℝ) (A : NMat n) (b b' : Fin n → ℝ) (ws ws' : Fin n → ℤ) (k : ℕ) (hk : k ≤ n) :
    (dmatAfter eps A b ws k).mat = (dmatAfter eps A b' ws' k).mat ∧
    (dmatAfter eps A b ws k).det = (dmatAfter eps A b' ws' k).det ∧
    (dmatAfter eps A b ws k).singular = (dmatAfter eps A b' ws' k).singular := by
  induction k with
  | zero => exact ⟨rfl, rfl, rfl⟩
  | succ k ih =>
    have e := dmatAfter_succ eps A b ws ⟨k, hk⟩
    have e' := dmatAfter_succ eps A b' ws' ⟨k, hk⟩
    dsimp only at e e'
    obtain ⟨h1, h2, h3⟩ := ih (by omega)
    rw [e, e', dmatStep_eq, dmatStep_eq]
    dsimp only
    rw [h1, h2]
    split_ifs <;> simp_all

theorem dmat_singular_indep (A : NMat n) (b b' : Fin n → ℝ) (ws ws' : Fin n → ℤ) (r r' : DmatResult n)
    (h : dmat A b ws = some r) (h' : dmat A b' ws' = some r') : r.singular = r'.singular := by
  have e := (dmatAfter_indep 1e-20 A b b' ws ws' n le_rfl).2.2
  have key : ∀ (b : Fin n → ℝ) (ws : Fin n → ℤ) (r : DmatResult n), dmat A b ws = some r →
      r.singular = (dmatAfter 1e-20 A b ws n).singular := by
    intro b ws r h
    unfold dmat dmatEps at h
    rw [dmatLoop_eq] at h
    dsimp only at h
    by_cases hs : (dmatAfter 1e-20 A b ws n).singular = true
    · rw [if_pos hs, Option.some.injEq] at h
      rw [← h, hs]
    · rw [if_neg hs, Option.map_eq_some_iff] at h
      obtain ⟨m, -, rfl⟩ := h
      simpa using hs
  rw [key b ws r h, key b' ws' r' h', e]

end Sla

namespace Sla
variable {n : ℕ}

/-- A diagonal matrix with entries of magnitude at least 1 is never reported (used for examples). -/
theorem dmat_diagonal (d : Fin n → ℝ) (hd : ∀ i, 1 ≤ |d i|) (b : Fin n → ℝ) (ws : Fin n → ℤ) :
    ∃ r, dmat (Matrix.diagonal d) b ws = some r ∧ r.singular = false := by
  have key : ∀ k ≤ n, (dmatAfter 1e-20 (Matrix.diagonal d) b ws k).singular = false ∧
      1 ≤ |(dmatAfter 1e-20 (Matrix.diagonal d) b ws k).det| ∧
      (dmatAfter 1e-20 (Matrix.diagonal d) b ws k).mat =
        fun a c => if a = c then (if a.val < k then 1 / d a else d a) else 0 := by
    intro k
    induction k with
    | zero =>
      intro _
      refine ⟨rfl, by simp [dmatAfter], ?_⟩
      funext a c
      simp [dmatAfter, Matrix.diagonal_apply]
    | succ k ih =>
      intro hk
      obtain ⟨h1, h2, h3⟩ := ih (by omega)
      have e := dmatAfter_succ 1e-20 (Matrix.diagonal d) b ws ⟨k, hk⟩
      dsimp only at e
      rw [e, dmatStep_eq]
      generalize dmatAfter 1e-20 (Matrix.diagonal d) b ws k = s at *
      obtain ⟨p1, p2, p3⟩ := dmatPivot_spec s.mat ⟨k, hk⟩
      have hkk : s.mat ⟨k, hk⟩ ⟨k, hk⟩ = d ⟨k, hk⟩ := by rw [h3]; simp
      have hq : (dmatPivot s.mat ⟨k, hk⟩).2 = ⟨k, hk⟩ := by
        by_contra hne
        have := p3 ⟨k, hk⟩ le_rfl
        rw [p1, hkk] at this
        have h0 : s.mat (dmatPivot s.mat ⟨k, hk⟩).2 ⟨k, hk⟩ = 0 := by
          generalize (dmatPivot s.mat ⟨k, hk⟩).2 = q at *
          rw [h3]; simp [hne]
        rw [h0, abs_zero] at this
        linarith [hd ⟨k, hk⟩]
      rw [hq] at p1
      dsimp only
      rw [p1, hq, hkk]
      have hsw : swapMat s.mat ⟨k, hk⟩ ⟨k, hk⟩ = s.mat := by
        funext a c; simp [swapMat]
      rw [hsw, hkk]
      have hk1 := hd ⟨k, hk⟩
      have hd1 : 1 ≤ |s.det * d ⟨k, hk⟩| := by
        rw [abs_mul]; nlinarith
      rw [if_neg (by norm_num; linarith)]
      simp only [ne_eq, not_true, if_false]
      rw [if_neg (not_lt.2 (le_trans (by norm_num) hd1))]
      refine ⟨h1, hd1, ?_⟩
      funext a c
      simp only [elimMat, hkk]
      rw [h3]
      have hz : d ⟨k, hk⟩ ≠ 0 := by
        intro h0; rw [h0, abs_zero] at hk1; linarith
      by_cases ha : a = ⟨k, hk⟩
      · subst ha
        by_cases hc : c = ⟨k, hk⟩
        · subst hc; simp
        · have : ¬ (⟨k, hk⟩ : Fin n) = c := fun e => hc e.symm
          simp [hc, this]
      · have hv : a.val ≠ k := fun e => ha (Fin.ext e)
        by_cases hc : c = ⟨k, hk⟩
        · subst hc; simp [ha]
        · have e2 : (a.val < k + 1) ↔ a.val < k := by omega
          simp [ha, hc, e2]
  obtain ⟨h1, -, -⟩ := key n le_rfl
  obtain ⟨r, hr, -, -⟩ := dmatEps_spec (eps := 1e-20) (by norm_num) (Matrix.diagonal d) b ws
  refine ⟨r, hr, ?_⟩
  unfold dmatEps at hr
  rw [dmatLoop_eq] at hr
  dsimp only at hr
  rw [h1] at hr
  simp only [Bool.false_eq_true, if_false, Option.map_eq_some_iff] at hr
  obtain ⟨m, -, rfl⟩ := hr
  rfl

end Sla
