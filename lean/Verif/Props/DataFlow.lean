import Verif.Lemmas.SvdFlow
import Verif.Lemmas.Linear
import Verif.Props.Svd
import Verif.Props.SvdRoutine

/-
C95: what the linear algebra routines read and write.
-/
namespace Sla.Props
open Sla

variable {m n : ℕ}

/-- C95: what `svd` returns depends on the m x n elements of the matrix only.  Cells of the array outside them, and the contents of
    the arrays `v`, `w` and `ws` before the call, have no influence on the status and on the contents of the arrays afterwards. -/
theorem C95_svd_reads {negl : ℝ → ℝ → Bool} {u : ℝ} (hn : NegligibleTest u negl) (h : n ≤ m) (a b v v' : Arr2) (w w' ws ws' : FMem)
    (hab : ∀ i j, i < m → j < n → a i j = b i j) :
    ∃ s t, svd negl m n a v w ws = some s ∧ svd negl m n b v' w' ws' = some t ∧ s.status = t.status ∧
      (∀ i j, i < m → j < n → s.a i j = t.a i j) ∧ (∀ i j, i < n → j < n → s.v i j = t.v i j) ∧
      (∀ i, i < n → s.w i = t.w i) ∧ ∀ i, i < n → s.ws i = t.ws i := by
  obtain ⟨s, hs, -⟩ := C45_total hn h a v w ws
  obtain ⟨t, ht, -⟩ := C45_total hn h b v' w' ws'
  refine ⟨s, t, hs, ht, ?_⟩
  have key := svd_flow negl h hab v v' w w' ws ws'
  rw [hs, ht] at key
  cases key with
  | some k => exact ⟨k.status, fun i j hi hj => k.a.eq i j ⟨hi, hj⟩, fun i j hi hj => k.v.eq i j ⟨hi, hj⟩, k.w.eq, k.ws.eq⟩

/-- C95: `svd` writes the m x n elements of `a`, the n x n elements of `v` and the n elements of `w` and `ws` only. -/
theorem C95_svd_writes (negl : ℝ → ℝ → Bool) (a v : Arr2) (w ws : FMem) {s : SvdState} (hs : svd negl m n a v w ws = some s) :
    (∀ i j, ¬(i < m ∧ j < n) → s.a i j = a i j) ∧ (∀ i j, ¬(i < n ∧ j < n) → s.v i j = v i j) ∧
      (∀ i, n ≤ i → s.w i = w i) ∧ ∀ i, n ≤ i → s.ws i = ws i := by
  rcases Nat.lt_or_ge m n with h | h
  · rw [C45_shape negl h] at hs
    obtain rfl := Option.some.inj hs
    exact ⟨fun _ _ _ => rfl, fun _ _ _ => rfl, fun _ _ => rfl, fun _ _ => rfl⟩
  · have key := svd_flow negl h (a := a) (b := a) (fun _ _ _ _ => rfl) v v w w ws ws
    rw [hs] at key
    cases key with
    | some k => exact ⟨k.a.left, k.v.left, fun i hi => k.w.left i (by omega), fun i hi => k.ws.left i (by omega)⟩

/-- C95: the solution found by `svdsol` depends on the right-hand side, on the m x n elements of U, the n x n elements of V and the n
    singular values only; it is written to the first n elements of `x`, and the workspace to the first n of `ws`. -/
theorem C95_svdsol (np : ℕ) (b b' u u' w w' v v' ws ws' x x' : FMem) (hb : ∀ i < m, b i = b' i)
    (hu : ∀ i < m, ∀ j < n, u (i * np + j) = u' (i * np + j)) (hw : ∀ j < n, w j = w' j)
    (hv : ∀ i < n, ∀ j < n, v (i * np + j) = v' (i * np + j)) :
    (∀ i < n, (svdsol m n np b u w v ws x).2 i = (svdsol m n np b' u' w' v' ws' x').2 i) ∧
    (∀ i, n ≤ i → (svdsol m n np b u w v ws x).2 i = x i) ∧ ∀ i, n ≤ i → (svdsol m n np b u w v ws x).1 i = ws i := by
  refine ⟨fun i hi => ?_, fun i hi => ?_, fun i hi => ?_⟩
  · have e : matOf n n np v = matOf n n np v' := by ext i j; exact hv i i.2 j j.2
    have e2 : matOf m n np u = matOf m n np u' := by ext i j; exact hu i i.2 j j.2
    have e3 : vecOf m b = vecOf m b' := by ext i; exact hb i i.2
    have e4 : pinv n w = pinv n w' := by ext j; simp only [pinv]; rw [hw j j.2]
    have := congrFun (svdsol_eq m n np b u w v ws x) ⟨i, hi⟩
    have h2 := congrFun (svdsol_eq m n np b' u' w' v' ws' x') ⟨i, hi⟩
    rw [e, e2, e3, e4, ← h2] at this
    exact this
  · unfold svdsol svdsolDiv
    simp only [foldl_range_add, foldl_range_set]
    rw [if_neg (by omega)]
  · unfold svdsol svdsolDiv
    simp only [foldl_range_add, foldl_range_set]
    rw [if_neg (by omega)]

/-- C95: the covariances found by `svdcov` depend on the n x n elements of V and the n singular values only; they are written to the n x n
    elements of the array, and the workspace to the first n of `ws`. -/
theorem C95_svdcov (np nc : ℕ) (hnc : n ≤ nc) (w w' v v' ws ws' cvm cvm' : FMem) (hw : ∀ j < n, w j = w' j)
    (hv : ∀ i < n, ∀ j < n, v (i * np + j) = v' (i * np + j)) :
    (∀ i < n, ∀ j < n, (svdcov n np nc w v ws cvm).2 (i * nc + j) = (svdcov n np nc w' v' ws' cvm').2 (i * nc + j)) ∧
    (∀ c, (∀ i < n, ∀ j < n, c ≠ i * nc + j) → (svdcov n np nc w v ws cvm).2 c = cvm c) ∧
    ∀ i, n ≤ i → (svdcov n np nc w v ws cvm).1 i = ws i := by
  refine ⟨fun i hi j hj => ?_, fun c hc => (svdcov_eq n np nc w v ws cvm hnc).2 c fun i j hi hj => hc i hi j hj, fun i hi => ?_⟩
  · rw [(svdcov_eq n np nc w v ws cvm hnc).1 i j hi hj, (svdcov_eq n np nc w' v' ws' cvm' hnc).1 i j hi hj]
    unfold covEntry
    refine Finset.sum_congr rfl fun k _ => ?_
    rw [hv i hi k k.2, hv j hj k k.2]
    simp only [pinv]
    rw [hw k k.2]
  · unfold svdcov svdcovDiv
    simp only [foldl_range_set]
    rw [if_neg (by omega)]

/-- The states of two runs of `dmat` that differ in the workspace. -/
private def SameRun (k : ℕ) (s t : DmatState n) : Prop :=
  s.mat = t.mat ∧ s.vec = t.vec ∧ s.det = t.det ∧ s.singular = t.singular ∧ (s.singular = false → ∀ p : Fin n, p.val < k → s.ws p = t.ws p)

private theorem sameRun_step (eps : ℝ) (k : Fin n) {s t : DmatState n} (h : SameRun k.val s t) :
    SameRun (k.val + 1) (dmatStep eps s k) (dmatStep eps t k) := by
  obtain ⟨m1, v1, d1, w1, g1⟩ := s
  obtain ⟨m2, v2, d2, w2, g2⟩ := t
  obtain ⟨h1, h2, h3, h4, h5⟩ := h
  dsimp only at h1 h2 h3 h4 h5
  subst h1 h2 h3 h4
  unfold dmatStep
  dsimp only
  by_cases c1 : (dmatPivot m1 k).1 < eps
  · rw [if_pos c1, if_pos c1]
    exact ⟨rfl, rfl, rfl, rfl, fun h => absurd h (by simp)⟩
  · rw [if_neg c1, if_neg c1]
    have hw : ∀ (q : Fin n), g1 = false → ∀ p : Fin n, p.val < k.val + 1 →
        (if p = k then ((q : ℕ) : ℤ) else w1 p) = if p = k then ((q : ℕ) : ℤ) else w2 p := fun q h p hp => by
      by_cases e : p = k
      · rw [if_pos e, if_pos e]
      · rw [if_neg e, if_neg e]
        exact h5 h p (lt_of_le_of_ne (Nat.lt_succ_iff.1 hp) fun h => e (Fin.ext h))
    split_ifs
    · exact ⟨rfl, rfl, rfl, rfl, fun h => absurd h (by simp)⟩
    · exact ⟨rfl, rfl, rfl, rfl, hw _⟩
    · exact ⟨rfl, rfl, rfl, rfl, fun h => absurd h (by simp)⟩
    · exact ⟨rfl, rfl, rfl, rfl, hw _⟩

/-- C95: the results of `dmat` do not depend on the contents of the workspace before the call. -/
theorem C95_dmat (A : NMat n) (b : Fin n → ℝ) (ws ws' : Fin n → ℤ) : dmat A b ws = dmat A b ws' := by
  have key : ∀ l : List (Fin n), ∀ k, ∀ s t : DmatState n, SameRun k s t → (∀ i (h : i < l.length), (l[i]).val = k + i) →
      SameRun (k + l.length) (l.foldl (dmatStep 1e-20) s) (l.foldl (dmatStep 1e-20) t) := by
    intro l
    induction l with
    | nil => intro k s t h _; exact h
    | cons p l ih =>
      intro k s t h hl
      have h0 := hl 0 (by simp)
      simp only [List.getElem_cons_zero, Nat.add_zero] at h0
      rw [List.foldl_cons, List.foldl_cons, List.length_cons, show k + (l.length + 1) = (k + 1) + l.length by omega]
      refine ih (k + 1) _ _ ?_ fun i hi => ?_
      · rw [← h0]; exact sameRun_step _ p (by rw [h0]; exact h)
      · have := hl (i + 1) (by simp; omega)
        simp only [List.getElem_cons_succ] at this
        omega
  have run : SameRun n (dmatLoop 1e-20 A b ws) (dmatLoop 1e-20 A b ws') := by
    have := key (List.finRange n) 0 { mat := A, vec := b, det := 1, ws := ws, singular := false }
      { mat := A, vec := b, det := 1, ws := ws', singular := false } ⟨rfl, rfl, rfl, rfl, fun _ p hp => by omega⟩ (fun i hi => by simp)
    rw [List.length_finRange, Nat.zero_add] at this
    exact this
  obtain ⟨h1, h2, h3, h4, h5⟩ := run
  unfold dmat dmatEps
  dsimp only
  by_cases hs : (dmatLoop 1e-20 A b ws).singular = true
  · rw [if_pos hs, if_pos (by rw [← h4]; exact hs), h1, h2]
  · rw [if_neg hs, if_neg (by rw [← h4]; exact hs), h1, h2, h3]
    have : (dmatLoop 1e-20 A b ws).ws = (dmatLoop 1e-20 A b ws').ws := funext fun p => h5 (by simpa using hs) p p.2
    rw [this]

/-- Two arrays that agree on a 2 x 1 matrix but nowhere else. -/
example : ∃ a b : Arr2, (∀ i j, i < 2 → j < 1 → a i j = b i j) ∧ a 2 0 ≠ b 2 0 ∧ a 0 1 ≠ b 0 1 := by
  refine ⟨fun i j => if i < 2 ∧ j < 1 then i + 1 else 7, fun i j => if i < 2 ∧ j < 1 then i + 1 else 8, fun i j hi hj => ?_, ?_, ?_⟩
  · dsimp only; rw [if_pos ⟨hi, hj⟩, if_pos ⟨hi, hj⟩]
  · norm_num
  · norm_num

end Sla.Props
