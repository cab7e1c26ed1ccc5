import Verif.Lemmas.FpMat
import Verif.Lemmas.Fp

/-
C118: `dmat` and `smat` in the arithmetic of the machine.
-/
namespace Sla.Props
open Sla.Fp Matrix

variable {n : ℕ}

/-- **C118**: whatever the arithmetic does, `dmat` and `smat` never use an element of the workspace they have not written or that
is out of range, they always return, and the determinant of a matrix reported as singular is zero. -/
theorem C118_safe (R : ℝ → ℝ) (A : NMat n) (b : Fin n → ℝ) (ws : Fin n → ℤ) :
    ∃ r, Fp.dmat R A b ws = some r ∧ (r.singular = true → r.det = 0) := by
  rw [Fp.dmat_eq]
  refine ⟨_, rfl, ?_⟩
  dsimp only
  split_ifs <;> simp

/-- What the workspace holds before the call has no influence on the result. -/
theorem C118_workspace (R : ℝ → ℝ) (A : NMat n) (b : Fin n → ℝ) (ws ws' : Fin n → ℤ) :
    Fp.dmat R A b ws = Fp.dmat R A b ws' := by
  have key : ∀ k ≤ n, (Fp.dmatAfter R (R 1e-20) A b ws k).singular = (Fp.dmatAfter R (R 1e-20) A b ws' k).singular ∧
      (Fp.dmatAfter R (R 1e-20) A b ws k).mat = (Fp.dmatAfter R (R 1e-20) A b ws' k).mat ∧
      (Fp.dmatAfter R (R 1e-20) A b ws k).vec = (Fp.dmatAfter R (R 1e-20) A b ws' k).vec ∧
      (Fp.dmatAfter R (R 1e-20) A b ws k).det = (Fp.dmatAfter R (R 1e-20) A b ws' k).det ∧
      ((Fp.dmatAfter R (R 1e-20) A b ws k).singular = false → ∀ p : Fin n, p.val < k →
        (Fp.dmatAfter R (R 1e-20) A b ws k).ws p = (Fp.dmatAfter R (R 1e-20) A b ws' k).ws p) := by
    intro k
    induction k with
    | zero => intro _; exact ⟨rfl, rfl, rfl, rfl, fun _ p hp => absurd hp (by omega)⟩
    | succ k ih =>
      intro hk
      obtain ⟨h1, h2, h3, h4, h5⟩ := ih (by omega)
      have e := Fp.dmatAfter_succ R (R 1e-20) A b ws ⟨k, hk⟩
      have e' := Fp.dmatAfter_succ R (R 1e-20) A b ws' ⟨k, hk⟩
      dsimp only at e e'
      rw [e, e', Fp.dmatStep_eq, Fp.dmatStep_eq]
      generalize Fp.dmatAfter R (R 1e-20) A b ws k = s at *
      generalize Fp.dmatAfter R (R 1e-20) A b ws' k = t at *
      dsimp only
      rw [← h2, ← h3, ← h4, ← h1]
      generalize (if (dmatPivot s.mat ⟨k, hk⟩).2 ≠ ⟨k, hk⟩ then -s.det else s.det) = d at *
      split_ifs with c1 c2
      · exact ⟨rfl, rfl, rfl, rfl, by simp⟩
      · exact ⟨rfl, rfl, rfl, rfl, by simp⟩
      · refine ⟨rfl, rfl, rfl, rfl, fun hs p hp => ?_⟩
        dsimp only at hs ⊢
        by_cases hpk : p = ⟨k, hk⟩
        · rw [if_pos hpk, if_pos hpk]
        · rw [if_neg hpk, if_neg hpk]
          exact h5 hs p (by have : p.val ≠ k := fun e => hpk (Fin.ext e)
                            omega)
  obtain ⟨h1, h2, h3, h4, h5⟩ := key n le_rfl
  rw [Fp.dmat_eq, Fp.dmat_eq]
  dsimp only
  rw [← h1, ← h2, ← h3, ← h4]
  by_cases hs : (Fp.dmatAfter R (R 1e-20) A b ws n).singular = true
  · rw [if_pos hs, if_pos hs]
  · rw [if_neg hs, if_neg hs, wsPerm_congr (fun p _ => h5 (by simpa using hs) p p.2)]

private theorem eps_pos {F : Fmt} (hF : F = binary32 ∨ F = binary64) (R : Rounding F) : 0 < R 1e-20 := by
  have key : F.Rep ((1 : ℤ) * (2 : ℝ) ^ (-70 : ℤ)) := by
    apply rep_of_mul
    · rcases hF with rfl | rfl <;> norm_num [binary32, binary64]
    · rcases hF with rfl | rfl <;> norm_num [binary32, binary64]
  exact lt_of_lt_of_le (by norm_num) (R.rep_le (x := 1e-20) (by norm_num) key)

private theorem eps_le {F : Fmt} (hF : F = binary32 ∨ F = binary64) (R : Rounding F) : R 1e-20 ≤ 2 ^ (-60 : ℤ) := by
  have key : F.Rep ((1 : ℤ) * (2 : ℝ) ^ (-60 : ℤ)) := by
    apply rep_of_mul
    · rcases hF with rfl | rfl <;> norm_num [binary32, binary64]
    · rcases hF with rfl | rfl <;> norm_num [binary32, binary64]
  exact (R.le_rep (x := 1e-20) (by norm_num) key).trans (by norm_num)

private theorem rep_one {F : Fmt} (hF : F = binary32 ∨ F = binary64) : F.Rep 1 := by
  have : F.Rep ((1 : ℤ) : ℝ) := by
    apply rep_int
    · rcases hF with rfl | rfl <;> norm_num [binary32, binary64]
    · rcases hF with rfl | rfl <;> norm_num [binary32, binary64]
  simpa using this

private theorem col_zero {F : Fmt} (R : Rounding F) (eps : ℝ) (h0 : 0 < eps) (A : NMat n) (b : Fin n → ℝ) (ws : Fin n → ℤ)
    (j : Fin n) (hj : ∀ i, A i j = 0) : ∀ k ≤ j.val, (Fp.dmatAfter R eps A b ws k).singular = true ∨
      ∀ i, (Fp.dmatAfter R eps A b ws k).mat i j = 0 := by
  intro k
  induction k with
  | zero => intro _; exact Or.inr hj
  | succ k ih =>
    intro hk
    have hkn : k < n := by omega
    have e := Fp.dmatAfter_succ R eps A b ws ⟨k, hkn⟩
    dsimp only at e
    rcases ih (by omega) with h | h
    · left; rw [e]; exact Fp.dmatStep_singular _ _ _ _ h
    · rw [e, Fp.dmatStep_eq]
      generalize Fp.dmatAfter R eps A b ws k = s at *
      dsimp only
      split_ifs
      all_goals first
        | exact Or.inl rfl
        | (right
           intro i
           have hM : ∀ a, swapMat s.mat ⟨k, hkn⟩ (dmatPivot s.mat ⟨k, hkn⟩).2 a j = 0 := fun a => h _
           have hne : j ≠ ⟨k, hkn⟩ := by
             intro e; have := congrArg Fin.val e; dsimp only at this; omega
           dsimp only [Fp.elimMat]
           by_cases hi : i = ⟨k, hkn⟩
           · simp [hi, hne, hM]
           · simp [hi, hne, hM])

/-- **C118**: a matrix with a column of zeros is reported as singular, in either precision. -/
theorem C118_zero_column {F : Fmt} (hF : F = binary32 ∨ F = binary64) (R : Rounding F) (A : NMat n) (b : Fin n → ℝ)
    (ws : Fin n → ℤ) (j : Fin n) (hj : ∀ i, A i j = 0) :
    ∃ r, Fp.dmat R A b ws = some r ∧ r.singular = true ∧ r.det = 0 := by
  have h := col_zero R (R 1e-20) (eps_pos hF R) A b ws j hj j.val le_rfl
  have hs : (Fp.dmatAfter R (R 1e-20) A b ws (j.val + 1)).singular = true := by
    rw [Fp.dmatAfter_succ]
    rcases h with h | h
    · exact Fp.dmatStep_singular _ _ _ _ h
    · rw [Fp.dmatStep_eq]
      dsimp only
      rw [if_pos]
      rw [(dmatPivot_spec _ j).1, h, abs_zero]
      exact eps_pos hF R
  have hn := Fp.dmatAfter_singular R (R 1e-20) A b ws hs n j.2 le_rfl
  rw [Fp.dmat_eq]
  refine ⟨_, rfl, ?_, ?_⟩ <;> simp [hn]

/-- A matrix of order three whose middle column is zero. -/
example (R : Rounding binary32) : ∃ r, Fp.dmat R (fun i j : Fin 3 => if j = 1 then 0 else (i : ℝ) + 2 * j) (fun _ => 1) (fun _ => 7) = some r ∧
    r.singular = true ∧ r.det = 0 := C118_zero_column (Or.inl rfl) R _ _ _ 1 (by simp)

private theorem row_zero {F : Fmt} (R : Rounding F) (eps : ℝ) (h0 : 0 < eps) (A : NMat n) (b : Fin n → ℝ) (ws : Fin n → ℤ)
    (i : Fin n) (hi : ∀ j, A i j = 0) : ∀ k ≤ n, (Fp.dmatAfter R eps A b ws k).singular = true ∨
      ∃ i : Fin n, k ≤ i.val ∧ ∀ j, (Fp.dmatAfter R eps A b ws k).mat i j = 0 := by
  intro k
  induction k with
  | zero => intro _; exact Or.inr ⟨i, Nat.zero_le _, hi⟩
  | succ k ih =>
    intro hk
    have e := Fp.dmatAfter_succ R eps A b ws ⟨k, hk⟩
    dsimp only at e
    rcases ih (by omega) with h | ⟨i, hik, h⟩
    · left; rw [e]; exact Fp.dmatStep_singular _ _ _ _ h
    · rw [e, Fp.dmatStep_eq]
      generalize Fp.dmatAfter R eps A b ws k = s at *
      obtain ⟨p1, p2, p3⟩ := dmatPivot_spec s.mat ⟨k, hk⟩
      dsimp only
      generalize (if (dmatPivot s.mat ⟨k, hk⟩).2 ≠ ⟨k, hk⟩ then -s.det else s.det) = d at *
      split_ifs with c1 c2
      · exact Or.inl rfl
      · exact Or.inl rfl
      · right
        generalize (dmatPivot s.mat ⟨k, hk⟩).2 = q at *
        have hqi : q ≠ i := by
          rintro rfl
          rw [p1, h, abs_zero] at c1
          exact c1 h0
        have hM : ∀ j, swapMat s.mat ⟨k, hk⟩ q (Equiv.swap ⟨k, hk⟩ q i) j = 0 := by
          intro j; simp [swapMat, h]
        have hne : Equiv.swap ⟨k, hk⟩ q i ≠ ⟨k, hk⟩ := by
          intro e
          have := congrArg (Equiv.swap ⟨k, hk⟩ q) e
          rw [Equiv.swap_apply_self, Equiv.swap_apply_left] at this
          exact hqi this.symm
        refine ⟨Equiv.swap ⟨k, hk⟩ q i, ?_, ?_⟩
        · have h1 : k ≤ (Equiv.swap ⟨k, hk⟩ q i).val := by
            have := (swap_lt_iff (c := i) p2).not.2 (by dsimp only; omega)
            dsimp only at this; omega
          have h2 : (Equiv.swap ⟨k, hk⟩ q i).val ≠ k := fun e => hne (Fin.ext e)
          omega
        · intro j
          dsimp only [Fp.elimMat]
          by_cases hj : j = ⟨k, hk⟩
          · rw [if_neg hne, if_pos hj, hM]; simp
          · rw [if_neg hne, if_neg hj, hM, hM]; simp

/-- **C118**: a matrix with a row of zeros is reported as singular, in either precision. -/
theorem C118_zero_row {F : Fmt} (hF : F = binary32 ∨ F = binary64) (R : Rounding F) (A : NMat n) (b : Fin n → ℝ)
    (ws : Fin n → ℤ) (i : Fin n) (hi : ∀ j, A i j = 0) :
    ∃ r, Fp.dmat R A b ws = some r ∧ r.singular = true ∧ r.det = 0 := by
  have hn : (Fp.dmatAfter R (R 1e-20) A b ws n).singular = true := by
    rcases row_zero R (R 1e-20) (eps_pos hF R) A b ws i hi n le_rfl with h | ⟨i, hi, -⟩
    · exact h
    · have := i.2; omega
  rw [Fp.dmat_eq]
  refine ⟨_, rfl, ?_, ?_⟩ <;> simp [hn]

/-- A matrix of order three whose first row is zero. -/
example (R : Rounding binary64) : ∃ r, Fp.dmat R (fun i j : Fin 3 => if i = 0 then 0 else (i : ℝ) + 2 * j) (fun _ => 1) (fun _ => 7) = some r ∧
    r.singular = true ∧ r.det = 0 := C118_zero_row (Or.inr rfl) R _ _ _ 0 (by simp)

private theorem abs_ge_one {F : Fmt} (hF : F = binary32 ∨ F = binary64) (R : Rounding F) {x : ℝ} (h : 1 ≤ |x|) : 1 ≤ |R x| := by
  rw [← R.abs_eq]; exact R.rep_le h (rep_one hF)

private theorem diag_after {F : Fmt} (hF : F = binary32 ∨ F = binary64) (R : Rounding F) (d b : Fin n → ℝ) (ws : Fin n → ℤ)
    (hd : ∀ i, F.Rep (d i)) (hd1 : ∀ i, 1 ≤ |d i|) (hb : ∀ i, F.Rep (b i)) : ∀ k ≤ n,
    (Fp.dmatAfter R (R 1e-20) (Matrix.diagonal d) b ws k).singular = false ∧
      (Fp.dmatAfter R (R 1e-20) (Matrix.diagonal d) b ws k).det = ((List.finRange n).take k).foldl (fun t i => R (t * d i)) 1 ∧
      1 ≤ |(Fp.dmatAfter R (R 1e-20) (Matrix.diagonal d) b ws k).det| ∧
      ((Fp.dmatAfter R (R 1e-20) (Matrix.diagonal d) b ws k).mat =
        fun a c => if a = c then (if a.val < k then R (1 / d a) else d a) else 0) ∧
      ((Fp.dmatAfter R (R 1e-20) (Matrix.diagonal d) b ws k).vec = fun a => if a.val < k then R (b a * R (1 / d a)) else b a) ∧
      ∀ p : Fin n, p.val < k → (Fp.dmatAfter R (R 1e-20) (Matrix.diagonal d) b ws k).ws p = (p.val : ℤ) := by
  intro k
  induction k with
  | zero =>
    intro _
    refine ⟨rfl, by simp [Fp.dmatAfter], by simp [Fp.dmatAfter], ?_, ?_, fun p hp => absurd hp (by omega)⟩
    · funext a c
      simp [Fp.dmatAfter, Matrix.diagonal_apply]
    · funext a
      simp [Fp.dmatAfter]
  | succ k ih =>
    intro hk
    obtain ⟨h1, hdet, h2, h3, h4, h5⟩ := ih (by omega)
    have e := Fp.dmatAfter_succ R (R 1e-20) (Matrix.diagonal d) b ws ⟨k, hk⟩
    have et := take_finRange (n := n) ⟨k, hk⟩
    dsimp only at e et
    rw [e, et, List.foldl_append, ← hdet, Fp.dmatStep_eq]
    generalize Fp.dmatAfter R (R 1e-20) (Matrix.diagonal d) b ws k = s at *
    obtain ⟨p1, p2, p3⟩ := dmatPivot_spec s.mat ⟨k, hk⟩
    have hkk : s.mat ⟨k, hk⟩ ⟨k, hk⟩ = d ⟨k, hk⟩ := by rw [h3]; simp
    have hq : (dmatPivot s.mat ⟨k, hk⟩).2 = ⟨k, hk⟩ := by
      by_contra hne
      have := p3 ⟨k, hk⟩ le_rfl
      rw [p1, hkk] at this
      have h0 : s.mat (dmatPivot s.mat ⟨k, hk⟩).2 ⟨k, hk⟩ = 0 := by
        generalize (dmatPivot s.mat ⟨k, hk⟩).2 = q at *
        rw [h3]; simp [hne]
      rw [h0, abs_zero] at this
      linarith [hd1 ⟨k, hk⟩]
    rw [hq] at p1
    dsimp only
    rw [p1, hq, hkk]
    have hsw : swapMat s.mat ⟨k, hk⟩ ⟨k, hk⟩ = s.mat := by
      funext a c; simp [swapMat]
    have hsv : swapVec s.vec ⟨k, hk⟩ ⟨k, hk⟩ = s.vec := by
      funext a; simp [swapVec]
    rw [hsw, hsv, hkk]
    have hk1 := hd1 ⟨k, hk⟩
    have hdd : 1 ≤ |R (s.det * d ⟨k, hk⟩)| := abs_ge_one hF R (by rw [abs_mul]; nlinarith)
    have hep := eps_le hF R
    have h60 : (2 : ℝ) ^ (-60 : ℤ) ≤ 1 := by norm_num
    rw [if_neg (by linarith)]
    simp only [ne_eq, not_true, if_false]
    rw [if_neg (by linarith)]
    refine ⟨h1, rfl, hdd, ?_, ?_, ?_⟩
    · funext a c
      simp only [Fp.elimMat, hkk]
      rw [h3]
      by_cases ha : a = ⟨k, hk⟩
      · subst ha
        by_cases hc : c = ⟨k, hk⟩
        · subst hc; simp
        · have : ¬ (⟨k, hk⟩ : Fin n) = c := fun e => hc e.symm
          simp [hc, this]
      · have hv : a.val ≠ k := fun e => ha (Fin.ext e)
        by_cases hc : c = ⟨k, hk⟩
        · subst hc; simp [ha]
        · have e2 : (a.val < k + 1) ↔ a.val < k := by omega
          by_cases hac : a = c
          · subst hac
            have hrr := R.eq_self (R.rep (1 / d a))
            rw [one_div] at hrr
            by_cases hlt : a.val < k
            · simp [ha, e2, hlt, hrr]
            · simp [ha, e2, hlt, R.eq_self (hd a)]
          · simp [ha, hc, hac]
    · funext a
      simp only [Fp.elimVec, hkk]
      rw [h3, h4]
      by_cases ha : a = ⟨k, hk⟩
      · subst ha; simp
      · have hv : a.val ≠ k := fun e => ha (Fin.ext e)
        have e2 : (a.val < k + 1) ↔ a.val < k := by omega
        by_cases hlt : a.val < k
        · have hrr := R.eq_self (R.rep (b a * R (1 / d a)))
          rw [one_div] at hrr
          simp [ha, e2, hlt, hrr]
        · simp [ha, e2, hlt, R.eq_self (hb a)]
    · intro p hp
      dsimp only
      by_cases hpk : p = ⟨k, hk⟩
      · rw [if_pos hpk, hpk]
      · rw [if_neg hpk]
        exact h5 p (by have : p.val ≠ k := fun e => hpk (Fin.ext e)
                       omega)

/-- **C118**: a diagonal matrix with elements of magnitude at least one is never reported as singular; each element of its inverse
is the correctly rounded reciprocal, each unknown is the known term times that reciprocal, rounded, and the determinant is the
running product of the elements, each product rounded. -/
theorem C118_diagonal {F : Fmt} (hF : F = binary32 ∨ F = binary64) (R : Rounding F) (d b : Fin n → ℝ) (ws : Fin n → ℤ)
    (hd : ∀ i, F.Rep (d i)) (hd1 : ∀ i, 1 ≤ |d i|) (hb : ∀ i, F.Rep (b i)) :
    Fp.dmat R (Matrix.diagonal d) b ws = some
      { mat := Matrix.diagonal fun i => R (1 / d i), vec := fun i => R (b i * R (1 / d i)),
        det := (List.finRange n).foldl (fun t i => R (t * d i)) 1, singular := false } := by
  obtain ⟨h1, hdet, -, h3, h4, h5⟩ := diag_after hF R d b ws hd hd1 hb n le_rfl
  rw [List.take_of_length_le (by simp)] at hdet
  have hw : wsPerm (Fp.dmatAfter R (R 1e-20) (Matrix.diagonal d) b ws n).ws (List.finRange n) = 1 := by
    have e : wsPerm (Fp.dmatAfter R (R 1e-20) (Matrix.diagonal d) b ws n).ws (List.finRange n) =
        wsPerm (fun p : Fin n => (p.val : ℤ)) (List.finRange n) := wsPerm_congr fun p _ => h5 p p.2
    rw [e]
    unfold wsPerm
    apply List.prod_eq_one
    intro x hx
    obtain ⟨p, -, rfl⟩ := List.mem_map.1 hx
    unfold wsSwap
    split_ifs with hp
    · have : (⟨((p.val : ℤ)).toNat, hp.2⟩ : Fin n) = p := Fin.ext (by simp)
      rw [this, Equiv.swap_self]; rfl
    · rfl
  rw [Fp.dmat_eq]
  dsimp only
  rw [h1, hw, hdet, h3, h4]
  simp only [Bool.false_eq_true, if_false, Fin.is_lt, if_true]
  congr 2

/-- The system 3 x = 1, −4 y = 2 in double precision. -/
example (R : Rounding binary64) : ∃ r, Fp.dmat R (Matrix.diagonal ![3, -4]) ![1, 2] (fun _ => 0) = some r ∧ r.singular = false ∧
    r.det = R (R (1 * 3) * -4) ∧ r.vec 0 = R (1 * R (1 / 3)) := by
  have hr : ∀ m : ℤ, |m| ≤ 4 → binary64.Rep (m : ℝ) := fun m hm =>
    rep_int (by norm_num [binary64]) (hm.trans (by norm_num [binary64]))
  refine ⟨_, C118_diagonal (Or.inr rfl) R _ _ _ ?_ ?_ ?_, rfl, ?_, ?_⟩
  · intro i; fin_cases i
    · simpa using hr 3 (by norm_num)
    · simpa using hr (-4) (by norm_num)
  · intro i; fin_cases i <;> norm_num
  · intro i; fin_cases i
    · simpa using hr 1 (by norm_num)
    · simpa using hr 2 (by norm_num)
  · simp [List.finRange_succ]
  · simp

/-- All elements of a matrix of order two equal: what `dmat` computes, given what the roundings give. -/
private theorem equal_rows (R : ℝ → ℝ) (a x y z δ D : ℝ) (b : Fin 2 → ℝ) (ws : Fin 2 → ℤ) (ha : R (1 * a) = a) (hx : R (1 / a) = x)
    (hy : R (a * x) = y) (hz : R (a * y) = z) (hδ : R (a - z) = δ) (hD : R (a * δ) = D)
    (h1 : R 1e-20 ≤ |a|) (h2 : R 1e-20 ≤ |δ|) (h3 : R 1e-20 ≤ |D|) :
    ∃ r, Fp.dmat R (Matrix.of fun _ _ => a) b ws = some r ∧ r.singular = false ∧ r.det = D := by
  have s1 : (Fp.dmatAfter R (R 1e-20) (Matrix.of fun _ _ : Fin 2 => a) b ws 1).singular = false ∧
      (Fp.dmatAfter R (R 1e-20) (Matrix.of fun _ _ : Fin 2 => a) b ws 1).det = a ∧
      (Fp.dmatAfter R (R 1e-20) (Matrix.of fun _ _ : Fin 2 => a) b ws 1).mat 1 1 = δ := by
    have e := Fp.dmatAfter_succ R (R 1e-20) (Matrix.of fun _ _ : Fin 2 => a) b ws 0
    have e0 : Fp.dmatAfter R (R 1e-20) (Matrix.of fun _ _ : Fin 2 => a) b ws 0 =
      { mat := Matrix.of fun _ _ => a, vec := b, det := 1, ws := ws, singular := false } := by simp [Fp.dmatAfter]
    simp only [Fin.val_zero, zero_add] at e
    rw [e, e0, Fp.dmatStep_eq]
    have hp : dmatPivot (Matrix.of fun _ _ : Fin 2 => a) 0 = (|a|, 0) := by
      simp [dmatPivot, List.finRange_succ]
    dsimp only
    rw [hp]
    have hM : swapMat (Matrix.of fun _ _ : Fin 2 => a) 0 0 = Matrix.of fun _ _ => a := by funext i j; rfl
    dsimp only
    rw [hM]
    have h00 : (Matrix.of fun _ _ : Fin 2 => a) 0 0 = a := rfl
    simp only [ne_eq, not_true, if_false]
    rw [h00, ha, if_neg (not_lt.2 h1), if_neg (not_lt.2 h1)]
    refine ⟨rfl, rfl, ?_⟩
    have h10 : ¬ (1 : Fin 2) = 0 := by decide
    dsimp only [Fp.elimMat]
    rw [if_neg h10, if_neg h10]
    dsimp only [Matrix.of_apply]
    rw [hx, hy, hz, hδ]
  have s2 : (Fp.dmatAfter R (R 1e-20) (Matrix.of fun _ _ : Fin 2 => a) b ws 2).singular = false ∧
      (Fp.dmatAfter R (R 1e-20) (Matrix.of fun _ _ : Fin 2 => a) b ws 2).det = D := by
    have e := Fp.dmatAfter_succ R (R 1e-20) (Matrix.of fun _ _ : Fin 2 => a) b ws 1
    obtain ⟨t1, t2, t3⟩ := s1
    simp only [Fin.val_one, Nat.reduceAdd] at e
    rw [e, Fp.dmatStep_eq]
    generalize Fp.dmatAfter R (R 1e-20) (Matrix.of fun _ _ : Fin 2 => a) b ws 1 = s at *
    have hp : dmatPivot s.mat 1 = (|s.mat 1 1|, 1) := by
      simp [dmatPivot, List.finRange_succ]
    dsimp only
    rw [hp]
    dsimp only
    have hM : swapMat s.mat 1 1 = s.mat := by funext i j; simp [swapMat]
    rw [hM]
    simp only [ne_eq, not_true, if_false]
    rw [t3, t2, hD, if_neg (not_lt.2 h2), if_neg (not_lt.2 h3)]
    exact ⟨t1, rfl⟩
  rw [Fp.dmat_eq]
  refine ⟨_, rfl, ?_, ?_⟩ <;> simp [s2.1, s2.2]

/-- **C118** (defect): the matrix of order two with all elements equal to 49 has equal rows and determinant zero, but `dmat`
does not report it: it returns a determinant of 49·2⁻⁴⁷. -/
theorem C118_equal_rows_missed (R : Rounding binary64) (b : Fin 2 → ℝ) (ws : Fin 2 → ℤ) :
    (Matrix.det (Matrix.of fun _ _ : Fin 2 => (49 : ℝ)) = 0) ∧
    ∃ r, Fp.dmat R (Matrix.of fun _ _ => 49) b ws = some r ∧ r.singular = false ∧ r.det = 49 * 2 ^ (-47 : ℤ) := by
  refine ⟨by rw [Matrix.det_fin_two]; simp, ?_⟩
  have hrep : ∀ (m e : ℤ), -1074 ≤ e → |m| ≤ 2 ^ 53 → R ((m : ℝ) * 2 ^ e) = (m : ℝ) * 2 ^ e := fun m e he hm =>
    R.eq_self (rep_of_mul (by norm_num [binary64]; exact he) (by norm_num [binary64] at hm ⊢; exact hm))
  have hep := eps_le (Or.inr rfl) R
  have h60 : (2 : ℝ) ^ (-60 : ℤ) ≤ 49 * 2 ^ (-47 : ℤ) := by norm_num
  refine equal_rows R 49 (5882252574524729 * 2 ^ (-58 : ℤ)) ((2 ^ 53 - 1) * 2 ^ (-53 : ℤ)) ((49 * 2 ^ 47 - 1) * 2 ^ (-47 : ℤ))
    (2 ^ (-47 : ℤ)) _ b ws ?_ ?_ ?_ ?_ ?_ ?_ ?_ ?_ ?_
  · have := hrep 49 0 (by norm_num) (by norm_num)
    norm_num at this ⊢; exact this
  · have := R.eq_of_near (x := 1 / 49) (m := 5882252574524729) (e := -58) (by norm_num [binary64]) (by norm_num [binary64])
      (by norm_num [binary64]) (by norm_num [abs_lt])
    rw [this]; norm_num
  · have := R.eq_of_near (x := 49 * (5882252574524729 * 2 ^ (-58 : ℤ))) (m := 2 ^ 53 - 1) (e := -53) (by norm_num [binary64])
      (by norm_num [binary64]) (by norm_num [binary64]) (by norm_num [abs_lt])
    rw [this]; norm_num
  · have := R.eq_of_near (x := 49 * ((2 ^ 53 - 1) * 2 ^ (-53 : ℤ))) (m := 49 * 2 ^ 47 - 1) (e := -47) (by norm_num [binary64])
      (by norm_num [binary64]) (by norm_num [binary64]) (by norm_num [abs_lt])
    rw [this]; norm_num
  · have := hrep 1 (-47) (by norm_num) (by norm_num)
    norm_num at this ⊢; exact this
  · have := hrep 49 (-47) (by norm_num) (by norm_num)
    norm_num at this ⊢; exact this
  · have : (49 : ℝ) * 2 ^ (-47 : ℤ) ≤ |49| := by norm_num
    linarith
  · have : (2 : ℝ) ^ (-60 : ℤ) ≤ |2 ^ (-47 : ℤ)| := by norm_num
    linarith
  · have : (2 : ℝ) ^ (-60 : ℤ) ≤ |49 * 2 ^ (-47 : ℤ)| := by norm_num
    linarith

/-- **C118** (defect): the same in single precision, where the matrix of order two with all elements equal to 41 goes unnoticed. -/
theorem C118_equal_rows_missed_single (R : Rounding binary32) (b : Fin 2 → ℝ) (ws : Fin 2 → ℤ) :
    (Matrix.det (Matrix.of fun _ _ : Fin 2 => (41 : ℝ)) = 0) ∧
    ∃ r, Fp.dmat R (Matrix.of fun _ _ => 41) b ws = some r ∧ r.singular = false ∧ r.det = 41 * 2 ^ (-18 : ℤ) := by
  refine ⟨by rw [Matrix.det_fin_two]; simp, ?_⟩
  have hrep : ∀ (m e : ℤ), -149 ≤ e → |m| ≤ 2 ^ 24 → R ((m : ℝ) * 2 ^ e) = (m : ℝ) * 2 ^ e := fun m e he hm =>
    R.eq_self (rep_of_mul (by norm_num [binary32]; exact he) (by norm_num [binary32] at hm ⊢; exact hm))
  have hep := eps_le (Or.inl rfl) R
  refine equal_rows R 41 (13094412 * 2 ^ (-29 : ℤ)) ((2 ^ 24 - 1) * 2 ^ (-24 : ℤ)) ((41 * 2 ^ 18 - 1) * 2 ^ (-18 : ℤ))
    (2 ^ (-18 : ℤ)) _ b ws ?_ ?_ ?_ ?_ ?_ ?_ ?_ ?_ ?_
  · have := hrep 41 0 (by norm_num) (by norm_num)
    norm_num at this ⊢; exact this
  · have := R.eq_of_near (x := 1 / 41) (m := 13094412) (e := -29) (by norm_num [binary32]) (by norm_num [binary32])
      (by norm_num [binary32]) (by norm_num [abs_lt])
    rw [this]; norm_num
  · have := R.eq_of_near (x := 41 * (13094412 * 2 ^ (-29 : ℤ))) (m := 2 ^ 24 - 1) (e := -24) (by norm_num [binary32])
      (by norm_num [binary32]) (by norm_num [binary32]) (by norm_num [abs_lt])
    rw [this]; norm_num
  · have := R.eq_of_near (x := 41 * ((2 ^ 24 - 1) * 2 ^ (-24 : ℤ))) (m := 41 * 2 ^ 18 - 1) (e := -18) (by norm_num [binary32])
      (by norm_num [binary32]) (by norm_num [binary32]) (by norm_num [abs_lt])
    rw [this]; norm_num
  · have := hrep 1 (-18) (by norm_num) (by norm_num)
    norm_num at this ⊢; exact this
  · have := hrep 41 (-18) (by norm_num) (by norm_num)
    norm_num at this ⊢; exact this
  · have : (2 : ℝ) ^ (-60 : ℤ) ≤ |41| := by norm_num
    linarith
  · have : (2 : ℝ) ^ (-60 : ℤ) ≤ |2 ^ (-18 : ℤ)| := by norm_num
    linarith
  · have : (2 : ℝ) ^ (-60 : ℤ) ≤ |41 * 2 ^ (-18 : ℤ)| := by norm_num
    linarith

end Sla.Props
