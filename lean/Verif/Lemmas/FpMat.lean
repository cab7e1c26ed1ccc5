import Verif.Model.FpMat
import Verif.Lemmas.Linear

/-
The loops of `dmat` with rounding in closed form.
-/
namespace Sla.Fp
open Matrix

variable {n : ℕ}

theorem dmatScale_eq (R : ℝ → ℝ) (m : NMat n) (k : Fin n) (x : ℝ) :
    Fp.dmatScale R m k x = fun a b => if a = k ∧ b ≠ k then R (m k b * x) else m a b := by
  have key : ∀ (l : List (Fin n)), l.Nodup → ∀ m : NMat n,
      l.foldl (fun m j => if j ≠ k then setE m k j (R (m k j * x)) else m) m =
        fun a b => if b ∈ l ∧ a = k ∧ b ≠ k then R (m k b * x) else m a b := by
    intro l
    induction l with
    | nil => intro _ m; funext a b; simp
    | cons j l ih =>
      intro hl m
      obtain ⟨h1, h2⟩ := List.nodup_cons.1 hl
      rw [List.foldl_cons, ih h2]
      funext a b
      by_cases hb : b = j
      · subst hb
        by_cases hk : b = k
        · simp [hk]
        · simp [h1, hk, setE]
      · by_cases hk : j = k
        · have hbk : b ≠ k := hk ▸ hb
          simp [hk, hbk]
        · simp [hk, hb, setE]
  unfold Fp.dmatScale
  rw [key _ (List.nodup_finRange n)]
  funext a b
  simp

theorem dmatElimRow_eq (R : ℝ → ℝ) (m : NMat n) (k i : Fin n) (hik : i ≠ k) (x : ℝ) :
    Fp.dmatElimRow R m k i x = fun a b => if a = i ∧ b ≠ k then R (m i b - R (x * m k b)) else m a b := by
  have key : ∀ (l : List (Fin n)), l.Nodup → ∀ m : NMat n,
      l.foldl (fun m j => if j ≠ k then setE m i j (R (m i j - R (x * m k j))) else m) m =
        fun a b => if b ∈ l ∧ a = i ∧ b ≠ k then R (m i b - R (x * m k b)) else m a b := by
    intro l
    induction l with
    | nil => intro _ m; funext a b; simp
    | cons j l ih =>
      intro hl m
      obtain ⟨h1, h2⟩ := List.nodup_cons.1 hl
      rw [List.foldl_cons, ih h2]
      funext a b
      by_cases hb : b = j
      · subst hb
        by_cases hk : b = k
        · simp [hk]
        · simp [h1, hk, setE]
      · by_cases hk : j = k
        · have hbk : b ≠ k := hk ▸ hb
          simp [hk, hbk]
        · simp [hk, hb, setE]
  unfold Fp.dmatElimRow
  rw [key _ (List.nodup_finRange n)]
  funext a b
  simp

theorem dmatElim_eq (R : ℝ → ℝ) (m : NMat n) (v : Fin n → ℝ) (k : Fin n) (y : ℝ) :
    Fp.dmatElim R m v k y = ((fun a b => if a ≠ k ∧ b ≠ k then R (m a b - R (m a k * m k b)) else m a b),
      fun a => if a ≠ k then R (v a - R (m a k * y)) else v a) := by
  have key : ∀ (l : List (Fin n)), l.Nodup → ∀ (m : NMat n) (v : Fin n → ℝ),
      l.foldl (fun s i => let aik := s.1 i k
        if i ≠ k then (Fp.dmatElimRow R s.1 k i aik, setV s.2 i (R (s.2 i - R (aik * y)))) else s) (m, v) =
        ((fun a b => if a ∈ l ∧ a ≠ k ∧ b ≠ k then R (m a b - R (m a k * m k b)) else m a b),
          fun a => if a ∈ l ∧ a ≠ k then R (v a - R (m a k * y)) else v a) := by
    intro l
    induction l with
    | nil => intro _ m v; refine Prod.ext ?_ ?_ <;> simp <;> rfl
    | cons j l ih =>
      intro hl m v
      obtain ⟨h1, h2⟩ := List.nodup_cons.1 hl
      rw [List.foldl_cons]
      by_cases hj : j = k
      · subst hj
        show List.foldl _ (if j ≠ j then (Fp.dmatElimRow R m j j (m j j), setV v j (R (v j - R (m j j * y)))) else (m, v)) l = _
        rw [if_neg (by simp), ih h2]
        refine Prod.ext ?_ ?_
        · funext a b
          by_cases ha : a = j <;> simp [ha]
        · funext a
          by_cases ha : a = j <;> simp [ha]
      · show List.foldl _ (if j ≠ k then (Fp.dmatElimRow R m k j (m j k), setV v j (R (v j - R (m j k * y)))) else (m, v)) l = _
        rw [if_pos hj, ih h2, dmatElimRow_eq _ _ _ _ hj]
        refine Prod.ext ?_ ?_
        · funext a b
          by_cases ha : a = j
          · subst ha
            by_cases hb : b = k <;> simp [h1, hj, hb]
          · have : ¬ k = j := fun e => hj e.symm
            simp [ha, this]
        · funext a
          by_cases ha : a = j
          · subst ha; simp [h1, hj, setV]
          · simp [ha, setV]
  unfold Fp.dmatElim
  rw [key _ (List.nodup_finRange n)]
  simp only [List.mem_finRange, true_and]
  rfl

theorem dmatColumn_eq (R : ℝ → ℝ) (m : NMat n) (k : Fin n) (x : ℝ) :
    Fp.dmatColumn R m k x = fun a b => if a ≠ k ∧ b = k then R (-m a k * x) else m a b := by
  have key : ∀ (l : List (Fin n)), l.Nodup → ∀ m : NMat n,
      l.foldl (fun m i => if i ≠ k then setE m i k (R (-m i k * x)) else m) m =
        fun a b => if a ∈ l ∧ a ≠ k ∧ b = k then R (-m a k * x) else m a b := by
    intro l
    induction l with
    | nil => intro _ m; funext a b; simp
    | cons j l ih =>
      intro hl m
      obtain ⟨h1, h2⟩ := List.nodup_cons.1 hl
      rw [List.foldl_cons, ih h2]
      funext a b
      by_cases ha : a = j
      · subst ha
        by_cases hk : a = k
        · simp [hk]
        · by_cases hb : b = k <;> simp [h1, hk, hb, setE]
      · by_cases hk : j = k
        · have hak : a ≠ k := hk ▸ ha
          simp [hk, hak]
        · simp [hk, ha, setE]
  unfold Fp.dmatColumn
  rw [key _ (List.nodup_finRange n)]
  funext a b
  simp

/-- The matrix after elimination in column `k`, rounded. -/
noncomputable def elimMat (R : ℝ → ℝ) (M : NMat n) (k : Fin n) : NMat n := fun a b =>
  if a = k then (if b = k then R (1 / M k k) else R (M k b * R (1 / M k k)))
  else if b = k then R (-M a k * R (1 / M k k)) else R (M a b - R (M a k * R (M k b * R (1 / M k k))))

/-- The vector after elimination in column `k`, rounded. -/
noncomputable def elimVec (R : ℝ → ℝ) (M : NMat n) (v : Fin n → ℝ) (k : Fin n) : Fin n → ℝ := fun a =>
  if a = k then R (v k * R (1 / M k k)) else R (v a - R (M a k * R (v k * R (1 / M k k))))

theorem elim_eq (R : ℝ → ℝ) (M : NMat n) (v : Fin n → ℝ) (k : Fin n) :
    Fp.dmatColumn R (Fp.dmatElim R (Fp.dmatScale R (setE M k k (R (1 / M k k))) k (R (1 / M k k))) (setV v k (R (v k * R (1 / M k k)))) k
      (R (v k * R (1 / M k k)))).1 k (R (1 / M k k)) = elimMat R M k ∧
    (Fp.dmatElim R (Fp.dmatScale R (setE M k k (R (1 / M k k))) k (R (1 / M k k))) (setV v k (R (v k * R (1 / M k k)))) k
      (R (v k * R (1 / M k k)))).2 = elimVec R M v k := by
  generalize hx : R (1 / M k k) = x
  rw [Fp.dmatColumn_eq, Fp.dmatElim_eq, Fp.dmatScale_eq]
  constructor
  · funext a b
    unfold Fp.elimMat
    rw [hx]
    by_cases ha : a = k
    · by_cases hb : b = k
      · subst ha; subst hb; simp [setE]
      · subst ha; simp [hb, setE]
    · by_cases hb : b = k
      · subst hb; simp [ha, setE]
      · simp [ha, hb, setE]
  · funext a
    unfold Fp.elimVec
    rw [hx]
    by_cases ha : a = k
    · simp [ha, setV]
    · simp [ha, setV, setE]

/-- One pass of the main loop in closed form. -/
theorem dmatStep_eq (R : ℝ → ℝ) (eps : ℝ) (s : DmatState n) (k : Fin n) :
    Fp.dmatStep R eps s k =
      let q := (dmatPivot s.mat k).2
      let M := swapMat s.mat k q
      let v := swapVec s.vec k q
      let d := R ((if q ≠ k then -s.det else s.det) * M k k)
      let ws : Fin n → ℤ := fun a => if a = k then (q : ℕ) else s.ws a
      open Classical in
      if (dmatPivot s.mat k).1 < eps then { s with singular := true }
      else if |d| < eps then { mat := M, vec := v, det := d, ws := ws, singular := true }
      else { mat := Fp.elimMat R M k, vec := Fp.elimVec R M v k, det := d, ws := ws, singular := s.singular } := by
  unfold Fp.dmatStep
  simp only [swapMat_eq, swapVec_eq]
  simp only [Fp.elim_eq]

/-- The state after `k` passes. -/
noncomputable def dmatAfter (R : ℝ → ℝ) (eps : ℝ) (A : NMat n) (b : Fin n → ℝ) (ws : Fin n → ℤ) (k : ℕ) : DmatState n :=
  ((List.finRange n).take k).foldl (Fp.dmatStep R eps) { mat := A, vec := b, det := 1, ws := ws, singular := false }

theorem dmatAfter_succ (R : ℝ → ℝ) (eps : ℝ) (A : NMat n) (b : Fin n → ℝ) (ws : Fin n → ℤ) (k : Fin n) :
    Fp.dmatAfter R eps A b ws (k.val + 1) = Fp.dmatStep R eps (Fp.dmatAfter R eps A b ws k.val) k := by
  unfold Fp.dmatAfter
  rw [take_finRange, List.foldl_append]
  rfl

theorem dmatLoop_eq (R : ℝ → ℝ) (eps : ℝ) (A : NMat n) (b : Fin n → ℝ) (ws : Fin n → ℤ) :
    Fp.dmatLoop R eps A b ws = Fp.dmatAfter R eps A b ws n := by
  unfold Fp.dmatLoop Fp.dmatAfter
  rw [List.take_of_length_le (by simp)]

/-- Unless the matrix is reported as singular, every pass has recorded a row. -/
theorem dmatAfter_ws (R : ℝ → ℝ) (eps : ℝ) (A : NMat n) (b : Fin n → ℝ) (ws : Fin n → ℤ) (k : ℕ) (hk : k ≤ n)
    (hs : (Fp.dmatAfter R eps A b ws k).singular = false) (p : Fin n) (hp : p.val < k) :
    0 ≤ (Fp.dmatAfter R eps A b ws k).ws p ∧ ((Fp.dmatAfter R eps A b ws k).ws p).toNat < n := by
  induction k with
  | zero => omega
  | succ k ih =>
    have e := Fp.dmatAfter_succ R eps A b ws ⟨k, hk⟩
    dsimp only at e
    rw [e, Fp.dmatStep_eq] at hs ⊢
    dsimp only at hs ⊢
    have ih := ih (by omega)
    generalize Fp.dmatAfter R eps A b ws k = s at *
    generalize (if (dmatPivot s.mat ⟨k, hk⟩).2 ≠ ⟨k, hk⟩ then -s.det else s.det) = d at *
    split_ifs at hs ⊢ with h1 h2
    dsimp only at hs ⊢
    by_cases hpk : p = ⟨k, hk⟩
    · rw [if_pos hpk]; simp
    · rw [if_neg hpk]
      exact ih hs (by have : p.val ≠ k := fun e => hpk (Fin.ext e)
                      omega)

/-- `singular` is never reset. -/
theorem dmatStep_singular (R : ℝ → ℝ) (eps : ℝ) (s : DmatState n) (k : Fin n) (h : s.singular = true) :
    (Fp.dmatStep R eps s k).singular = true := by
  rw [Fp.dmatStep_eq]
  dsimp only
  split_ifs <;> simp [h]

theorem dmatAfter_singular (R : ℝ → ℝ) (eps : ℝ) (A : NMat n) (b : Fin n → ℝ) (ws : Fin n → ℤ) {j : ℕ}
    (h : (Fp.dmatAfter R eps A b ws j).singular = true) (k : ℕ) (hjk : j ≤ k) (hk : k ≤ n) :
    (Fp.dmatAfter R eps A b ws k).singular = true := by
  induction k, hjk using Nat.le_induction with
  | base => exact h
  | succ k _ ih =>
    have e := Fp.dmatAfter_succ R eps A b ws ⟨k, hk⟩
    dsimp only at e
    rw [e]
    exact Fp.dmatStep_singular _ _ _ _ (ih (by omega))

/-- The result in terms of the state after all passes. -/
theorem dmat_eq (R : ℝ → ℝ) (A : NMat n) (b : Fin n → ℝ) (ws : Fin n → ℤ) :
    Fp.dmat R A b ws = some (let s := Fp.dmatAfter R (R 1e-20) A b ws n
      if s.singular then { mat := s.mat, vec := s.vec, det := 0, singular := true }
      else { mat := s.mat.submatrix id ⇑(wsPerm s.ws (List.finRange n))⁻¹, vec := s.vec, det := s.det, singular := false }) := by
  unfold Fp.dmat
  rw [Fp.dmatLoop_eq]
  dsimp only
  by_cases hs : (Fp.dmatAfter R (R 1e-20) A b ws n).singular = true
  · rw [if_pos hs, if_pos hs]
  · have hs' : (Fp.dmatAfter R (R 1e-20) A b ws n).singular = false := by simpa using hs
    have h := Fp.dmatAfter_ws R (R 1e-20) A b ws n le_rfl hs'
    rw [if_neg hs, if_neg hs, dmatUnscramble_eq _ _ (fun p => h p p.2)]
    rfl

end Sla.Fp
