import Verif.Lemmas.Combn
import Verif.Spec.Combinat
import Mathlib.Data.Nat.ModEq

/-
Property theorems C09, C10: combn.
-/
namespace Sla.Props
open Spec

/-- Contents of the caller's memory after `j` calls. -/
def combnMem (k n : Nat) (l : IntMem) : Nat → IntMem
  | 0 => l
  | j + 1 => (combn k n (combnMem k n l j)).2

/-- Status of call number `j + 1`. -/
def combnStatus (k n : Nat) (l : IntMem) (j : Nat) : CPStatus := (combn k n (combnMem k n l j)).1

/-- List delivered by call number `j + 1`. -/
def combnOut (k n : Nat) (l : IntMem) (j : Nat) : List Int := arr k (combnMem k n l (j + 1))

private theorem isComb_of (k n : Nat) (hk : 1 ≤ k) (l : IntMem) (h : Comb k n l) : IsCombination k n (arr k l) := by
  have hmono : ∀ i j, i < j → j < k → l i < l j := by
    intro i j hij hj
    induction j with
    | zero => omega
    | succ j ih =>
      have h1 := h.2.1 j hj
      rcases Nat.lt_succ_iff_lt_or_eq.1 hij with h2 | h2
      · exact lt_trans (ih h2 (by omega)) h1
      · subst h2; exact h1
  refine ⟨by simp [arr], ?_, ?_⟩
  · unfold arr
    rw [List.pairwise_map]
    refine List.Pairwise.imp_of_mem ?_ List.pairwise_lt_range
    intro a b _ hb hab
    exact hmono a b hab (by simpa using hb)
  · intro x hx
    simp only [arr, List.mem_map, List.mem_range] at hx
    obtain ⟨i, hi, rfl⟩ := hx
    refine ⟨h.mono_pos i hi, ?_⟩
    rcases Nat.lt_or_ge i (k - 1) with h2 | h2
    · exact le_trans (le_of_lt (hmono i (k - 1) h2 (by omega))) h.2.2
    · rw [show i = k - 1 by omega]; exact h.2.2

private theorem comb_of (k n : Nat) (hk : 1 ≤ k) (L : List Int) (h : IsCombination k n L) :
    ∃ l : IntMem, Comb k n l ∧ arr k l = L := by
  obtain ⟨hlen, hp, hb⟩ := h
  have hlt : ∀ i, i < k → i < L.length := fun i hi => by omega
  refine ⟨fun i => L.getD i 0, ⟨?_, ?_, ?_⟩, ?_⟩
  · have h0 := hlt 0 (by omega)
    simp only [List.getD, List.getElem?_eq_getElem h0, Option.getD_some]
    exact (hb _ (List.getElem_mem h0)).1
  · intro i hi
    have h0 := hlt i (by omega)
    have h1 := hlt (i+1) (by omega)
    simp only [List.getD, List.getElem?_eq_getElem h0, List.getElem?_eq_getElem h1, Option.getD_some]
    exact List.pairwise_iff_getElem.1 hp i (i+1) h0 h1 (by omega)
  · have h0 := hlt (k-1) (by omega)
    simp only [List.getD, List.getElem?_eq_getElem h0, Option.getD_some]
    exact (hb _ (List.getElem_mem h0)).2
  · unfold arr
    apply List.ext_getElem
    · simp [hlen]
    · intro i h1 h2
      simp [List.getD, List.getElem?_eq_getElem h2]

private theorem arr_eq_iff (k : Nat) (a b : IntMem) : arr k a = arr k b ↔ ∀ i < k, a i = b i := by
  unfold arr
  rw [List.map_inj_left]
  simp

/-- One call on a valid list. -/
private theorem combn_step (k n : Nat) (hk : 1 ≤ k) (hkn : k ≤ n) (l : IntMem) (h : Comb k n l) :
    ((combn k n l).1 = .ok ∧ Comb k n (combn k n l).2 ∧ crank k (combn k n l).2 = crank k l + 1 ∨
      (combn k n l).1 = .noMore ∧ (∀ j < k, (combn k n l).2 j = (j : Int) + 1) ∧
        crank k l + 1 = n.choose k) := by
  have e : combn k n l = combnLoop k n 1 l := by
    unfold combn
    rw [if_neg (by omega), if_neg (by have := h.1; omega)]
    simp
  rw [e]
  exact (combnLoop_spec k n 1 l h (by omega) hk (by intro j hj; have : j = 0 := by omega
                                                    subst this; simp)).1

/-- Invariant over all calls: the list is valid and its rank is the call number modulo the count. -/
private theorem combn_inv (k n : Nat) (hk : 1 ≤ k) (hkn : k ≤ n) (l : IntMem) (h0 : l 0 < 1) (j : Nat) :
    Comb k n (combnMem k n l (j + 1)) ∧ crank k (combnMem k n l (j + 1)) = j % n.choose k ∧
    combnStatus k n l j = (if j ≠ 0 ∧ j % n.choose k = 0 then .noMore else .ok) := by
  have hC : 0 < n.choose k := Nat.choose_pos hkn
  induction j with
  | zero =>
    have e : combn k n l = (.ok, combnFill k 0 l) := by
      unfold combn
      rw [if_neg (by omega), if_pos h0]; simp
    have f := comb_fill k n hk hkn (combnFill k 0 l) (by
      intro j hj; rw [combnFill_apply, if_pos (by omega)])
    refine ⟨?_, ?_, ?_⟩
    · show Comb k n (combn k n l).2; rw [e]; exact f.1
    · show crank k (combn k n l).2 = _; rw [e]; simpa using f.2
    · show (combn k n l).1 = _; rw [e]; simp
  | succ j ih =>
    obtain ⟨hv, hr, -⟩ := ih
    have hs := combn_step k n hk hkn _ hv
    have hlt : j % n.choose k < n.choose k := Nat.mod_lt _ hC
    show Comb k n (combn k n (combnMem k n l (j+1))).2 ∧
      crank k (combn k n (combnMem k n l (j+1))).2 = _ ∧ (combn k n (combnMem k n l (j+1))).1 = _
    rcases hs with ⟨h1, h2, h3⟩ | ⟨h1, h2, h3⟩
    · have h4 := crank_lt_choose hk h2
      rw [h3, hr] at h4
      have hm : (j + 1) % n.choose k = j % n.choose k + 1 := by
        rw [Nat.add_mod, Nat.mod_eq_of_lt (a := j % n.choose k + 1 % n.choose k)]
        · rw [Nat.mod_eq_of_lt (a := 1)]; omega
        · rw [Nat.mod_eq_of_lt (a := 1)] <;> omega
      refine ⟨h2, by rw [h3, hr, hm], ?_⟩
      rw [h1, hm, if_neg (by omega)]
    · have f := comb_fill k n hk hkn _ h2
      have hm : (j + 1) % n.choose k = 0 := by
        rw [hr] at h3
        rw [Nat.add_mod]
        rcases Nat.lt_or_ge 1 (n.choose k) with hc | hc
        · rw [Nat.mod_eq_of_lt hc, h3, Nat.mod_self]
        · have : n.choose k = 1 := by omega
          rw [this]; simp [Nat.mod_one]
      refine ⟨f.1, by rw [f.2, hm], ?_⟩
      rw [h1, if_pos ⟨by omega, hm⟩]

/-- C09: every call delivers an ascending selection of `k` numbers from `1..n`. -/
theorem C09_combn_valid (k n : Nat) (hk : 1 ≤ k) (hkn : k ≤ n) (l : IntMem) (h0 : l 0 < 1) (j : Nat) :
    IsCombination k n (combnOut k n l j) :=
  isComb_of k n hk _ (combn_inv k n hk hkn l h0 j).1

/-- C09: among the first `C(n,k)` calls each combination appears exactly once. -/
theorem C09_combn_exactly_once (k n : Nat) (hk : 1 ≤ k) (hkn : k ≤ n) (l : IntMem) (h0 : l 0 < 1)
    (L : List Int) (hL : IsCombination k n L) : ∃! j, j < n.choose k ∧ combnOut k n l j = L := by
  obtain ⟨m, hm, rfl⟩ := comb_of k n hk L hL
  have hlt := crank_lt_choose hk hm
  have key : ∀ j, j < n.choose k → (combnOut k n l j = arr k m ↔ j = crank k m) := by
    intro j hj
    obtain ⟨hv, hr, -⟩ := combn_inv k n hk hkn l h0 j
    rw [Nat.mod_eq_of_lt hj] at hr
    unfold combnOut
    rw [arr_eq_iff]
    constructor
    · intro h; rw [← hr, crank_congr k _ _ h]
    · intro h
      exact crank_inj k _ _ hv.1 hm.1 hv.2.1 hm.2.1 (by rw [hr, h])
  refine ⟨crank k m, ⟨hlt, (key _ hlt).2 rfl⟩, ?_⟩
  rintro j ⟨hj, h⟩
  exact (key j hj).1 h

/-- C09: status and period.  The first `C(n,k)` calls report OK; call `C(n,k)+1` and every `C(n,k)`-th call
    after it report NO_MORE; the lists repeat with period `C(n,k)`. -/
theorem C09_combn_status (k n : Nat) (hk : 1 ≤ k) (hkn : k ≤ n) (l : IntMem) (h0 : l 0 < 1) (j : Nat) :
    (combnStatus k n l j = .noMore ↔ j ≠ 0 ∧ n.choose k ∣ j) ∧
    (combnStatus k n l j = .ok ↔ ¬ (j ≠ 0 ∧ n.choose k ∣ j)) ∧
    combnOut k n l (j + n.choose k) = combnOut k n l j := by
  obtain ⟨hv, hr, hst⟩ := combn_inv k n hk hkn l h0 j
  obtain ⟨hv', hr', -⟩ := combn_inv k n hk hkn l h0 (j + n.choose k)
  rw [hst, Nat.dvd_iff_mod_eq_zero]
  refine ⟨?_, ?_, ?_⟩
  · split <;> simp_all
  · split <;> simp_all
  · unfold combnOut
    rw [arr_eq_iff]
    exact crank_inj k _ _ hv'.1 hv.1 hv'.2.1 hv.2.1 (by rw [hr, hr', Nat.add_mod_right])

/-- C09: the first list is `1..k`; so is the one delivered with NO_MORE. -/
theorem C09_combn_first (k n : Nat) (hk : 1 ≤ k) (hkn : k ≤ n) (l : IntMem) (h0 : l 0 < 1) :
    combnOut k n l 0 = (List.range k).map (fun i : Nat => (i : Int) + 1) ∧
    combnOut k n l (n.choose k) = combnOut k n l 0 := by
  have e : combn k n l = (.ok, combnFill k 0 l) := by
    unfold combn
    rw [if_neg (by omega), if_pos h0]; simp
  refine ⟨?_, ?_⟩
  · show arr k (combn k n l).2 = _
    rw [e]
    unfold arr
    rw [List.map_inj_left]
    intro i hi
    show combnFill k 0 l i = _
    rw [combnFill_apply, if_pos ⟨Nat.zero_le _, by simpa using hi⟩]
  · have := (C09_combn_status k n hk hkn l h0 0).2.2
    simpa using this

/-- C10: invalid arguments are reported and nothing is changed. -/
theorem C10_combn_bad_arg (nsel ncand : Int) (l : IntMem) :
    (nsel < 1 ∨ ncand < 1 ∨ ncand < nsel → combn nsel ncand l = (.invalidArg, l)) ∧
    ((combn nsel ncand l).1 = .invalidArg → nsel < 1 ∨ ncand < 1 ∨ ncand < nsel) := by
  have hloop : ∀ k n i l, (combnLoop k n i l).1 ≠ .invalidArg := by
    intro k n i l
    fun_induction combnLoop k n i l <;> simp_all
  refine ⟨fun h => ?_, fun h => ?_⟩
  · unfold combn; rw [if_pos h]
  · unfold combn at h
    split at h
    · assumption
    · split at h
      · cases h
      · exact absurd h (hloop _ _ _ _)

/-- C10: restart. -/
theorem C10_combn_restart (k n : Nat) (hk : 1 ≤ k) (hkn : k ≤ n) (l : IntMem) (h0 : l 0 < 1) :
    (combn k n l).1 = .ok ∧ arr k (combn k n l).2 = (List.range k).map (fun i : Nat => (i : Int) + 1) := by
  refine ⟨?_, (C09_combn_first k n hk hkn l h0).1⟩
  have := ((C09_combn_status k n hk hkn l h0 0).2.1).2 (by simp)
  exact this

private theorem combnLoop_frame (k : Nat) (n : Int) (i : Nat) (l : IntMem) (hik : i ≤ k) (hi : 1 ≤ i) :
    ∀ j, k ≤ j → (combnLoop k n i l).2 j = l j := by
  fun_induction combnLoop k n i l with
  | case1 i list_i nmax h =>
    intro j hj
    show combnFill (i - 1) 0 (l.set (i - 1) (list_i + 1)) j = l j
    rw [combnFill_apply, if_neg (by omega), IntMem.set_ne _ _ (by omega)]
  | case2 i list_i nmax h hge =>
    intro j hj
    show combnFill k 0 l j = l j
    rw [combnFill_apply, if_neg (by omega)]
  | case3 i list_i nmax h hge ih => exact ih (by omega) (by omega)

/-- C10: for arbitrary arguments and memory contents (also ones no call sequence produces) nothing outside
    the first `nsel` elements is written. -/
theorem C10_combn_frame (nsel ncand : Int) (l : IntMem) (j : Nat) (hj : nsel ≤ j) :
    (combn nsel ncand l).2 j = l j := by
  unfold combn
  split
  · rfl
  · split
    · show combnFill nsel.toNat 0 l j = l j
      rw [combnFill_apply, if_neg (by omega)]
    · exact combnLoop_frame _ _ _ _ (by omega) (by omega) j (by omega)

private theorem combnLoop_reads (k : Nat) (n : Int) (i : Nat) (l l' : IntMem) (hik : i ≤ k) (hi : 1 ≤ i)
    (h : ∀ j < k, l j = l' j) : (combnLoop k n i l).1 = (combnLoop k n i l').1 ∧
      ∀ j < k, (combnLoop k n i l).2 j = (combnLoop k n i l').2 j := by
  fun_induction combnLoop k n i l with
  | case1 i list_i nmax hc =>
    have e1 : l' (i - 1) = list_i := (h (i - 1) (by omega)).symm
    have e2 : (if i ≥ k then n + 1 else l' i) = nmax := by
      show _ = (if i ≥ k then n + 1 else l i)
      split
      · rfl
      · rw [h i (by omega)]
    rw [combnLoop]; simp only [e1, e2, if_pos hc]
    refine ⟨trivial, fun j hj => ?_⟩
    rw [combnFill_apply, combnFill_apply]
    split
    · rfl
    · unfold IntMem.set; split
      · rfl
      · exact h j hj
  | case2 i list_i nmax hc hge =>
    have e1 : l' (i - 1) = list_i := (h (i - 1) (by omega)).symm
    have e2 : (if i ≥ k then n + 1 else l' i) = nmax := by
      show _ = (if i ≥ k then n + 1 else l i)
      rw [if_pos hge, if_pos hge]
    rw [combnLoop]; simp only [e1, e2, if_neg hc, if_pos hge]
    refine ⟨trivial, fun j hj => ?_⟩
    rw [combnFill_apply, combnFill_apply, if_pos (by omega), if_pos (by omega)]
  | case3 i list_i nmax hc hge ih =>
    have e1 : l' (i - 1) = list_i := (h (i - 1) (by omega)).symm
    have e2 : (if i ≥ k then n + 1 else l' i) = nmax := by
      show _ = (if i ≥ k then n + 1 else l i)
      split
      · rfl
      · rw [h i (by omega)]
    have := ih (by omega) (by omega)
    rw [combnLoop.eq_def k n i l']; simp only [e1, e2, if_neg hc, if_neg hge]
    exact this

/-- C10: nothing outside the first `nsel` elements influences the result. -/
theorem C10_combn_reads (nsel ncand : Int) (l l' : IntMem) (hn : 1 ≤ nsel)
    (h : ∀ j : Nat, (j : Int) < nsel → l j = l' j) :
    (combn nsel ncand l).1 = (combn nsel ncand l').1 ∧
      ∀ j : Nat, (j : Int) < nsel → (combn nsel ncand l).2 j = (combn nsel ncand l').2 j := by
  unfold combn
  split
  · exact ⟨rfl, h⟩
  · rw [← h 0 (by omega)]
    split
    · refine ⟨rfl, fun j hj => ?_⟩
      show combnFill _ 0 l j = combnFill _ 0 l' j
      rw [combnFill_apply, combnFill_apply, if_pos (by omega), if_pos (by omega)]
    · obtain ⟨a, b⟩ := combnLoop_reads nsel.toNat ncand 1 l l' (by omega) (by omega)
        (fun j hj => h j (by omega))
      exact ⟨a, fun j hj => b j (by omega)⟩

example : IsCombination 3 5 [1, 3, 4] := by unfold IsCombination; decide
example : (1 : Nat) ≤ 3 ∧ 3 ≤ 5 ∧ (fun _ => 0 : IntMem) 0 < 1 := by decide
example : combnOut 2 4 (fun _ => 0) 3 = [1, 4] := by decide +kernel

end Sla.Props
