import Verif.Model.Combinat
import Mathlib.Data.Nat.Choose.Basic
import Mathlib.Tactic.Linarith

namespace Sla

@[simp] theorem IntMem.set_same (a : IntMem) (i : Nat) (v : Int) : a.set i v i = v := by simp [IntMem.set]
theorem IntMem.set_ne (a : IntMem) {i k : Nat} (v : Int) (h : k ≠ i) : a.set i v k = a k := by
  simp [IntMem.set, h]

theorem combnFill_apply (cnt j : Nat) (list : IntMem) (i : Nat) :
    combnFill cnt j list i = if j ≤ i ∧ i < cnt then (i : Int) + 1 else list i := by
  fun_induction combnFill cnt j list with
  | case1 j list h ih =>
    rw [ih]
    by_cases hij : i = j
    · subst hij; simp [h]
    · rw [IntMem.set_ne _ _ hij]
      have : (j + 1 ≤ i ∧ i < cnt) ↔ (j ≤ i ∧ i < cnt) := by omega
      simp only [this]
  | case2 j list h =>
    rw [if_neg (by omega)]

/-- The first `k` elements are an ascending selection from `1..n`. -/
def Comb (k n : Nat) (l : IntMem) : Prop :=
  1 ≤ l 0 ∧ (∀ i, i + 1 < k → l i < l (i + 1)) ∧ l (k - 1) ≤ n

/-- Rank in the combinatorial number system. -/
def crank : Nat → IntMem → Nat
  | 0, _ => 0
  | k + 1, l => crank k l + ((l k).toNat - 1).choose (k + 1)

theorem crank_congr (k : Nat) (l l' : IntMem) (h : ∀ i < k, l i = l' i) : crank k l = crank k l' := by
  induction k with
  | zero => rfl
  | succ k ih => rw [crank, crank, ih (fun i hi => h i (by omega)), h k (by omega)]

theorem crank_shift (i m : Nat) (l l' : IntMem) (h : ∀ j, i ≤ j → j < i + m → l j = l' j) :
    crank (i + m) l + crank i l' = crank (i + m) l' + crank i l := by
  induction m with
  | zero => simp [Nat.add_comm]
  | succ m ih =>
    have := ih (fun j h1 h2 => h j h1 (by omega))
    rw [← Nat.add_assoc, crank, crank, h (i + m) (by omega) (by omega)]
    omega

theorem crank_first (k : Nat) (l : IntMem) (h : ∀ j < k, l j = (j : Int) + 1) : crank k l = 0 := by
  induction k with
  | zero => rfl
  | succ k ih =>
    rw [crank, ih (fun j hj => h j (by omega)), h k (by omega)]
    have : ((k : Int) + 1).toNat - 1 = k := by omega
    rw [this, Nat.choose_eq_zero_of_lt (by omega)]

theorem crank_consecutive (i : Nat) (l : IntMem) (h1 : 1 ≤ l 0) (h : ∀ j < i, l j = l 0 + j) :
    crank i l + 1 = ((l 0).toNat - 1 + i).choose i := by
  induction i with
  | zero => simp [crank]
  | succ i ih =>
    have e := ih (fun j hj => h j (by omega))
    rw [crank, h i (by omega)]
    have : ((l 0 + (i : Int)).toNat - 1) = (l 0).toNat - 1 + i := by omega
    rw [this, ← Nat.add_assoc ((l 0).toNat - 1) i 1, Nat.choose_succ_succ']
    omega

theorem crank_lt (k : Nat) (l : IntMem) (h1 : 1 ≤ l 0) (hs : ∀ i, i + 1 < k + 1 → l i < l (i + 1)) :
    crank (k + 1) l < ((l k).toNat).choose (k + 1) := by
  induction k with
  | zero =>
    have : (l 0).toNat = (l 0).toNat - 1 + 1 := by omega
    rw [crank, crank]; simp only [Nat.zero_add, Nat.choose_one_right]; omega
  | succ k ih =>
    have e := ih (fun i hi => hs i (by omega))
    have hk := hs k (by omega)
    have hpos : ∀ j, j ≤ k → 1 ≤ l j := by
      intro j hj
      induction j with
      | zero => exact h1
      | succ j ihj => have := ihj (by omega); have := hs j (by omega); omega
    have hp := hpos k (Nat.le_refl _)
    obtain ⟨m, hm⟩ : ∃ m, (l (k + 1)).toNat = m + 1 := ⟨(l (k+1)).toNat - 1, by omega⟩
    rw [crank, hm, Nat.choose_succ_succ' m (k + 1)]
    have : (l k).toNat ≤ m := by omega
    have := Nat.choose_le_choose (k + 1) this
    simp only [Nat.add_sub_cancel]
    omega

theorem Comb.mono_pos {k n : Nat} {l : IntMem} (h : Comb k n l) : ∀ j, j < k → 1 ≤ l j := by
  intro j hj
  induction j with
  | zero => exact h.1
  | succ j ih => have := ih (by omega); have := h.2.1 j hj; omega

theorem crank_lt_choose {k n : Nat} {l : IntMem} (hk : 1 ≤ k) (h : Comb k n l) : crank k l < n.choose k := by
  obtain ⟨k, rfl⟩ : ∃ m, k = m + 1 := ⟨k - 1, by omega⟩
  have h3 := h.2.2
  simp only [Nat.add_sub_cancel] at h3
  refine Nat.lt_of_lt_of_le (crank_lt k l h.1 h.2.1) (Nat.choose_le_choose _ (by omega))

/-- The rank determines the combination. -/
theorem crank_inj (k : Nat) (l l' : IntMem) (h1 : 1 ≤ l 0) (h1' : 1 ≤ l' 0)
    (hs : ∀ i, i + 1 < k → l i < l (i + 1)) (hs' : ∀ i, i + 1 < k → l' i < l' (i + 1))
    (h : crank k l = crank k l') : ∀ i < k, l i = l' i := by
  induction k with
  | zero => intro i hi; omega
  | succ k ih =>
    have a := crank_lt k l h1 hs
    have a' := crank_lt k l' h1' hs'
    have hpos : ∀ j, j ≤ k → 1 ≤ l j ∧ 1 ≤ l' j := by
      intro j hj
      induction j with
      | zero => exact ⟨h1, h1'⟩
      | succ j ihj =>
        have := ihj (by omega); have := hs j (by omega); have := hs' j (by omega); omega
    have hp := hpos k (Nat.le_refl _)
    have top : l k = l' k := by
      rcases lt_trichotomy (l k) (l' k) with hlt | heq | hgt
      · exfalso
        have hle : (l k).toNat ≤ (l' k).toNat - 1 := by omega
        have := Nat.choose_le_choose (k + 1) hle
        have e : crank (k+1) l' = crank k l' + ((l' k).toNat - 1).choose (k + 1) := rfl
        omega
      · exact heq
      · exfalso
        have hle : (l' k).toNat ≤ (l k).toNat - 1 := by omega
        have := Nat.choose_le_choose (k + 1) hle
        have e : crank (k+1) l = crank k l + ((l k).toNat - 1).choose (k + 1) := rfl
        omega
    have hk : crank k l = crank k l' := by
      have e : crank (k+1) l = crank k l + ((l k).toNat - 1).choose (k + 1) := rfl
      have e' : crank (k+1) l' = crank k l' + ((l' k).toNat - 1).choose (k + 1) := rfl
      rw [top] at e; omega
    have := ih (fun i hi => hs i (by omega)) (fun i hi => hs' i (by omega)) hk
    intro i hi
    rcases Nat.lt_succ_iff_lt_or_eq.1 hi with h | h
    · exact this i h
    · subst h; exact top

/-- One step of the search loop. -/
theorem combnLoop_spec (k n i : Nat) (l : IntMem) (hl : Comb k n l) (hi : 1 ≤ i) (hik : i ≤ k)
    (hc : ∀ j < i, l j = l 0 + j) :
    ((combnLoop k n i l).1 = .ok ∧ Comb k n (combnLoop k n i l).2 ∧
        crank k (combnLoop k n i l).2 = crank k l + 1 ∨
      (combnLoop k n i l).1 = .noMore ∧ (∀ j < k, (combnLoop k n i l).2 j = (j : Int) + 1) ∧
        crank k l + 1 = n.choose k) ∧
    ∀ j, k ≤ j → (combnLoop k n i l).2 j = l j := by
  fun_induction combnLoop k n i l with
  | case1 i list_i nmax h =>
    have hpos := hl.mono_pos
    have hli : list_i = l (i - 1) := rfl
    have hlast : list_i = l 0 + ((i - 1 : Nat) : Int) := hc (i - 1) (by omega)
    clear_value list_i
    set l' := combnFill (i - 1) 0 (l.set (i - 1) (list_i + 1)) with hl'
    have hap : ∀ j, l' j = if j < i - 1 then (j : Int) + 1 else if j = i - 1 then list_i + 1 else l j := by
      intro j
      rw [hl', combnFill_apply]; simp [IntMem.set]
    clear_value l'
    refine ⟨Or.inl ⟨rfl, ⟨?_, ?_, ?_⟩, ?_⟩, ?_⟩
    · show 1 ≤ l' 0
      rw [hap]; split
      · omega
      · split
        · have := hpos (i - 1) (by omega); omega
        · omega
    · intro j hj
      show l' j < l' (j + 1)
      rw [hap, hap]
      have hmono := hl.2.1 j hj
      rcases Nat.lt_trichotomy j (i - 1) with h1 | h1 | h1
      · rw [if_pos h1]
        split
        · omega
        · rw [if_pos (by omega)]; have := hl.1; omega
      · rw [if_neg (by omega), if_pos h1, if_neg (by omega), if_neg (by omega)]
        have : nmax = l i := if_neg (by omega)
        rw [show j + 1 = i by omega]; omega
      · rw [if_neg (by omega), if_neg (by omega), if_neg (by omega), if_neg (by omega)]; exact hmono
    · show l' (k - 1) ≤ n
      rw [hap, if_neg (by omega)]
      split
      · have : nmax = n + 1 := if_pos (by omega)
        omega
      · exact hl.2.2
    · show crank k l' = crank k l + 1
      obtain ⟨m, rfl⟩ := Nat.exists_eq_add_of_le hik
      have a := crank_shift i m l l' (by
        intro j h1 h2; rw [hap, if_neg (by omega), if_neg (by omega)])
      have b := crank_consecutive i l hl.1 hc
      obtain ⟨i', rfl⟩ : ∃ t, i = t + 1 := ⟨i - 1, by omega⟩
      have c : crank (i' + 1) l' = (((l 0).toNat - 1) + (i' + 1)).choose (i' + 1) := by
        rw [crank, crank_first i' l' (by intro j hj; rw [hap, if_pos (by omega)])]
        rw [hap, if_neg (by omega), if_pos (by omega)]
        simp only [Nat.add_sub_cancel] at hlast
        have := hl.1
        rw [Nat.zero_add]; congr 1; omega
      omega
    · intro j hj
      show l' j = l j
      rw [hap, if_neg (by omega), if_neg (by omega)]
  | case2 i list_i nmax h hge =>
    have hik' : i = k := by omega
    have hlast : list_i = l 0 + ((i - 1 : Nat) : Int) := hc (i - 1) (by omega)
    have hn : nmax = n + 1 := if_pos hge
    have h3 := hl.2.2
    have h1 := hl.1
    rw [← hik'] at h3
    have hli : list_i = l (i - 1) := rfl
    refine ⟨Or.inr ⟨rfl, ?_, ?_⟩, ?_⟩
    · intro j hj
      show combnFill k 0 l j = _
      rw [combnFill_apply, if_pos (by omega)]
    · have b := crank_consecutive i l hl.1 hc
      rw [← hik', b]; congr 1; omega
    · intro j hj
      show combnFill k 0 l j = _
      rw [combnFill_apply, if_neg (by omega)]
  | case3 i list_i nmax h hge ih =>
    apply ih (by omega) (by omega)
    intro j hj
    rcases Nat.lt_succ_iff_lt_or_eq.1 hj with h' | h'
    · exact hc j h'
    · subst h'
      have hlast : list_i = l 0 + ((j - 1 : Nat) : Int) := hc (j - 1) (by omega)
      have hn : nmax = l j := if_neg hge
      have := hl.2.1 (j - 1) (by omega)
      rw [show j - 1 + 1 = j by omega] at this
      have hli : list_i = l (j - 1) := rfl
      omega

theorem comb_fill (k n : Nat) (hk : 1 ≤ k) (hkn : k ≤ n) (l : IntMem) (h : ∀ j < k, l j = (j : Int) + 1) :
    Comb k n l ∧ crank k l = 0 := by
  refine ⟨⟨?_, ?_, ?_⟩, crank_first k l h⟩
  · rw [h 0 (by omega)]; omega
  · intro i hi; rw [h i (by omega), h (i+1) (by omega)]; omega
  · rw [h (k-1) (by omega)]; omega

end Sla
