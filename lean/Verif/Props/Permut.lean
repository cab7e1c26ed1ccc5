import Verif.Lemmas.Permut
import Verif.Spec.Combinat
import Mathlib.Data.List.Permutation
import Mathlib.Data.Finset.Card
import Mathlib.Data.Fintype.Card

/-
Property theorems C11, C12: permut.
-/
namespace Sla.Props
open Spec

/-- Result of call number `j + 1` (`none` if some call left the bounds of its arrays). -/
def permutRun (n : Nat) (s o : IntMem) : Nat → Option (CPStatus × IntMem × IntMem)
  | 0 => permut n s o
  | j + 1 => do
    let (_, s, o) ← permutRun n s o j
    permut n s o

/-- Permutation delivered by call number `j + 1`. -/
def permutOut (n : Nat) (s o : IntMem) (j : Nat) : Option (List Int) :=
  (permutRun n s o j).map fun r => arr n r.2.2

/-- Status of call number `j + 1`. -/
def permutStatus (n : Nat) (s o : IntMem) (j : Nat) : Option CPStatus :=
  (permutRun n s o j).map fun r => r.1

private theorem decInv_ones (n : Nat) (o : IntMem) : DecInv n n (permutOnes n 0 o) := by
  intro x
  have h : ∀ m ≤ n, cnt (fun v => v == x) (permutOnes n 0 o) m = if x = 1 then m else 0 := by
    intro m hm
    induction m with
    | zero => simp [cnt]
    | succ m ih =>
      rw [cnt, ih (by omega), permutOnes_apply, if_pos (show 0 ≤ m ∧ m < n by omega)]
      by_cases h : x = 1
      · subst h; simp
      · have : ((1 : Int) == x) = false := by simp; omega
        simp [this, h]
  rw [h n (Nat.le_refl _)]
  split
  · rfl
  · rw [if_neg (by omega)]

private theorem count_arr (o : IntMem) (n : Nat) (x : Int) :
    (arr n o).count x = cnt (fun v => v == x) o n := by
  induction n with
  | zero => rfl
  | succ n ih =>
    unfold arr at *
    rw [List.range_succ, List.map_append, List.count_append, ih, cnt]
    simp [List.count_singleton, Bool.toNat]

private theorem isPerm_of (n : Nat) (hn : 1 ≤ n) (o : IntMem) (h : DecInv n 1 o) : IsPermutation n (arr n o) := by
  unfold IsPermutation
  rw [List.perm_iff_count]
  intro x
  rw [count_arr, h x]
  have hnd : ((List.range n).map fun i : Nat => (i : Int) + 1).Nodup := by
    refine List.Nodup.map ?_ List.nodup_range
    intro a b hab; simpa using hab
  have hmem : x ∈ ((List.range n).map fun i : Nat => (i : Int) + 1) ↔ 1 ≤ x ∧ x ≤ n := by
    simp only [List.mem_map, List.mem_range]
    constructor
    · rintro ⟨i, hi, rfl⟩; omega
    · rintro ⟨h1, h2⟩; exact ⟨(x - 1).toNat, by omega, by omega⟩
  split
  · rename_i hx
    rw [List.count_eq_one_of_mem hnd (hmem.2 (by omega))]
  · rename_i hx
    split
    · rename_i hx2
      rw [List.count_eq_one_of_mem hnd (hmem.2 (by push_cast at hx2; omega))]
    · rename_i hx2
      rw [List.count_eq_zero_of_not_mem]
      rw [hmem]; push_cast at hx2; omega

/-- One call from a consistent state. -/
private theorem permut_step (n : Nat) (hn : 1 ≤ n) (s o : IntMem) (v : Nat) (hd : Digits n s) (hv : sval n s = v) :
    ∃ st s' o', permut n s o = some (st, s', o') ∧ Digits n s' ∧
      sval n s' = (((v + 1) % n.factorial : Nat) : Int) ∧
      st = (if (v + 1) % n.factorial = 0 then .noMore else .ok) ∧
      permutDecode n s' n (permutOnes n 0 o) = some o' ∧ DecInv n 1 o' := by
  have hb := sval_bounds n s hd
  have h00 := hd 0 (by omega)
  have hs0 : s 0 = 0 := by simp only [Int.natCast_zero] at h00; omega
  have hF : 0 < n.factorial := Nat.factorial_pos n
  set s1 := s.set 0 (s 0 + 1) with hs1
  have hv1 : sval n s1 = v + 1 := by
    rw [hs1, sval_set n 0 s _ (by omega), hv]; simp
  have hspec := permutCarry_spec n 1 .ok s1 (by omega) (by omega) (by
    intro i hi
    rw [hs1]
    by_cases h : i = 0
    · subst h; rw [IntMem.set_same, if_pos rfl]; simp [hs0]
    · rw [IntMem.set_ne _ _ h, if_neg (by omega)]; exact hd i hi)
  obtain ⟨hd', hcase, -⟩ := hspec
  have hb' := sval_bounds n _ hd'
  obtain ⟨r, r1, r2, -, -, -⟩ := permutDecode_spec n (permutCarry n 1 .ok s1).2 n (permutOnes n 0 o) hn
    (Nat.le_refl _) hd' (decInv_ones n o)
  refine ⟨(permutCarry n 1 .ok s1).1, (permutCarry n 1 .ok s1).2, r, ?_, hd', ?_, ?_, r1, r2⟩
  · unfold permut
    rw [if_neg (by omega)]
    simp only [Int.toNat_natCast]
    rw [if_neg (by omega), ← hs1]
    simp [r1]
  · rcases hcase with ⟨-, h2⟩ | ⟨-, h2⟩
    · rw [h2, hv1] at hb' ⊢
      rw [Nat.mod_eq_of_lt (by omega)]; push_cast; rfl
    · rw [h2, hv1] at hb' ⊢
      have : v + 1 = n.factorial := by omega
      rw [this, Nat.mod_self]; push_cast; omega
  · rcases hcase with ⟨h1, h2⟩ | ⟨h1, h2⟩
    · rw [h2, hv1] at hb'
      rw [Nat.mod_eq_of_lt (by omega), if_neg (by omega), h1]
    · rw [h2, hv1] at hb'
      have : v + 1 = n.factorial := by omega
      rw [this, Nat.mod_self, if_pos rfl, h1]

/-- The first call. -/
private theorem permut_first (n : Nat) (hn : 1 ≤ n) (s o : IntMem) (h0 : s 0 < 0) :
    ∃ s' o', permut n s o = some (.ok, s', o') ∧ Digits n s' ∧ sval n s' = 0 ∧
      permutDecode n s' n (permutOnes n 0 o) = some o' ∧ DecInv n 1 o' := by
  set s0 := permutClear n 1 (s.set 0 (-1)) with hs0
  set s1 := s0.set 0 (s0 0 + 1) with hs1
  have h1 : ∀ i < n, s1 i = 0 := by
    intro i hi
    rw [hs1, IntMem.set]
    split
    · rw [hs0, permutClear_apply, if_neg (by omega), IntMem.set_same]; rfl
    · rw [hs0, permutClear_apply, if_pos (by omega)]
  have hcarry : ∀ j, 1 ≤ j → permutCarry n j .ok s1 = (.ok, s1) := by
    intro j hj
    have : ∀ m j, 1 ≤ j → n + 1 - j = m → permutCarry n j .ok s1 = (.ok, s1) := by
      intro m
      induction m with
      | zero =>
        intro j hj hm
        rw [permutCarry, if_neg (by omega)]
      | succ m ih =>
        intro j hj hm
        rw [permutCarry, if_pos (by omega), if_neg (by rw [h1 (j-1) (by omega)]; omega)]
        exact ih (j+1) (by omega) (by omega)
    exact this _ j hj rfl
  have hd : Digits n s1 := by intro i hi; rw [h1 i hi]; omega
  have hv : sval n s1 = 0 := by
    have : ∀ m ≤ n, sval m s1 = 0 := by
      intro m hm
      induction m with
      | zero => rfl
      | succ m ih => rw [sval, ih (by omega), h1 m (by omega)]; simp
    exact this n (Nat.le_refl _)
  obtain ⟨r, r1, r2, -, -, -⟩ := permutDecode_spec n s1 n (permutOnes n 0 o) hn
    (Nat.le_refl _) hd (decInv_ones n o)
  refine ⟨s1, r, ?_, hd, hv, r1, r2⟩
  unfold permut
  rw [if_neg (by omega)]
  simp only [Int.toNat_natCast]
  rw [if_pos h0, ← hs0, ← hs1, hcarry 1 (by omega)]
  simp [r1]

private theorem permut_inv (n : Nat) (hn : 1 ≤ n) (s o : IntMem) (h0 : s 0 < 0) (j : Nat) :
    ∃ st s' o' oo, permutRun n s o j = some (st, s', o') ∧ Digits n s' ∧
      sval n s' = ((j % n.factorial : Nat) : Int) ∧
      st = (if j ≠ 0 ∧ j % n.factorial = 0 then .noMore else .ok) ∧
      permutDecode n s' n (permutOnes n 0 oo) = some o' ∧ DecInv n 1 o' := by
  have hF : 0 < n.factorial := Nat.factorial_pos n
  induction j with
  | zero =>
    obtain ⟨s', o', h1, h2, h3, h4, h5⟩ := permut_first n hn s o h0
    exact ⟨.ok, s', o', o, h1, h2, by simpa using h3, by simp, h4, h5⟩
  | succ j ih =>
    obtain ⟨st, s', o', oo, h1, h2, h3, -, -, -⟩ := ih
    obtain ⟨st2, s2, o2, g1, g2, g3, g4, g5, g6⟩ := permut_step n hn s' o' (j % n.factorial) h2 h3
    have hm : (j % n.factorial + 1) % n.factorial = (j + 1) % n.factorial := by
      rw [Nat.add_mod, Nat.mod_mod, ← Nat.add_mod]
    refine ⟨st2, s2, o2, o', ?_, g2, by rw [g3, hm], ?_, g5, g6⟩
    · rw [permutRun, h1]; simpa using g1
    · rw [g4, hm]; simp

private theorem arr_congr_ones (n : Nat) (o oo : IntMem) (i : Nat) (hi : i < n) :
    permutOnes n 0 o i = permutOnes n 0 oo i := by
  rw [permutOnes_apply, permutOnes_apply, if_pos (by omega), if_pos (by omega)]

/-- Decoding looks at the first `n` elements only. -/
private theorem permutScan_congr (o oo : IntMem) (n fuel slot : Nat) (h : ∀ i < n, o i = oo i)
    (hs : slot - 1 + fuel ≤ n) (h1 : 1 ≤ slot) : permutScan o fuel slot = permutScan oo fuel slot := by
  induction fuel generalizing slot with
  | zero => rfl
  | succ fuel ih =>
    rw [permutScan, permutScan, h (slot - 1) (by omega), ih (slot + 1) (by omega) (by omega)]

private theorem permutScan_ge (o : IntMem) (fuel slot p : Nat) (h : permutScan o fuel slot = some p) :
    slot ≤ p ∧ p < slot + fuel := by
  induction fuel generalizing slot with
  | zero => simp [permutScan] at h
  | succ fuel ih =>
    rw [permutScan] at h
    split at h
    · have := ih _ h; omega
    · simp at h; omega

private theorem permutSkip_congr (o oo : IntMem) (n c slot : Nat) (h : ∀ i < n, o i = oo i)
    (hs : slot ≤ n) : permutSkip n o c slot = permutSkip n oo c slot := by
  induction c generalizing slot with
  | zero => rfl
  | succ c ih =>
    rw [permutSkip, permutSkip, permutScan_congr o oo n (n - slot) (slot + 1) h (by omega) (by omega)]
    rcases hq : permutScan oo (n - slot) (slot + 1) with _ | p
    · rfl
    · have := permutScan_ge _ _ _ _ hq
      show permutSkip n o c p = permutSkip n oo c p
      exact ih p (by omega)

private theorem permutDecode_congr (n : Nat) (s s' : IntMem) (l : Nat) (o oo : IntMem)
    (h : ∀ i < n, o i = oo i) (hs : ∀ i < l, s i = s' i) (r : IntMem)
    (hr : permutDecode n s l o = some r) :
    ∃ r', permutDecode n s' l oo = some r' ∧ ∀ i < n, r i = r' i := by
  induction l generalizing o oo with
  | zero => cases hr; exact ⟨oo, rfl, h⟩
  | succ l ih =>
    cases l with
    | zero => cases hr; exact ⟨oo, rfl, h⟩
    | succ l =>
      rw [permutDecode] at hr ⊢
      rw [← hs (l + 1) (by omega), ← permutSkip_congr o oo n _ 0 h (by omega)]
      rcases hq : permutSkip n o (s (l + 1) + 1).toNat 0 with _ | p
      · rw [hq] at hr; cases hr
      · rw [hq] at hr
        simp only [Option.bind_eq_bind, Option.bind_some] at hr ⊢
        split at hr
        · cases hr
        rename_i hp
        rw [if_neg hp]
        refine ih (o.set (p - 1) ((l + 2 : Nat) : Int)) (oo.set (p - 1) ((l + 2 : Nat) : Int)) ?_
          (fun i hi => hs i (by omega)) hr
        intro i hi
        unfold IntMem.set
        split
        · rfl
        · exact h i hi

/-- C11: every call stays within its arrays and delivers a permutation of `1..n`. -/
theorem C11_permut_valid (n : Nat) (hn : 1 ≤ n) (s o : IntMem) (h0 : s 0 < 0) (j : Nat) :
    ∃ L, permutOut n s o j = some L ∧ IsPermutation n L := by
  obtain ⟨st, s', o', oo, h1, -, -, -, -, h6⟩ := permut_inv n hn s o h0 j
  exact ⟨arr n o', by simp [permutOut, h1], isPerm_of n hn o' h6⟩

private theorem arr_eq_iff (k : Nat) (a b : IntMem) : arr k a = arr k b ↔ ∀ i < k, a i = b i := by
  unfold arr
  rw [List.map_inj_left]
  simp

/-- Two calls deliver the same permutation exactly when their numbers agree modulo `n!`. -/
private theorem permut_out_eq (n : Nat) (hn : 1 ≤ n) (s o : IntMem) (h0 : s 0 < 0) (i j : Nat) :
    permutOut n s o i = permutOut n s o j ↔ i % n.factorial = j % n.factorial := by
  obtain ⟨st, s', o', oo, h1, h2, h3, -, h5, h6⟩ := permut_inv n hn s o h0 i
  obtain ⟨tt, t', p', pp, g1, g2, g3, -, g5, g6⟩ := permut_inv n hn s o h0 j
  simp only [permutOut, h1, g1, Option.map_some, Option.some.injEq, arr_eq_iff]
  constructor
  · intro h
    -- decode both from the same initial array
    obtain ⟨r, r1, r2⟩ := permutDecode_congr n t' t' n (permutOnes n 0 pp) (permutOnes n 0 oo)
      (fun i hi => arr_congr_ones n pp oo i hi) (fun _ _ => rfl) p' g5
    have hrr : r = o' := by
      funext q
      rcases Nat.lt_or_ge q n with hq | hq
      · rw [← r2 q hq, h q hq]
      · obtain ⟨a, a1, -, a3, -, -⟩ := permutDecode_spec n t' n (permutOnes n 0 oo) hn (Nat.le_refl _) g2
          (decInv_ones n oo)
        obtain ⟨b, b1, -, b3, -, -⟩ := permutDecode_spec n s' n (permutOnes n 0 oo) hn (Nat.le_refl _) h2
          (decInv_ones n oo)
        rw [r1] at a1; rw [h5] at b1
        cases a1; cases b1
        rw [a3 q hq, b3 q hq]
    subst hrr
    have hdig := permutDecode_inj n s' t' n (permutOnes n 0 oo) r (Nat.le_refl _) h2 g2 (decInv_ones n oo) h5 r1
    have := sval_congr n s' t' hdig
    rw [h3, g3] at this
    exact_mod_cast this
  · intro h
    have hdig := sval_inj n s' t' h2 g2 (by rw [h3, g3, h])
    obtain ⟨r, r1, r2⟩ := permutDecode_congr n s' t' n (permutOnes n 0 oo) (permutOnes n 0 pp)
      (fun i hi => arr_congr_ones n oo pp i hi) hdig o' h5
    rw [g5] at r1
    cases r1
    exact r2

/-- C11: among the first `n!` calls each permutation appears exactly once. -/
theorem C11_permut_exactly_once (n : Nat) (hn : 1 ≤ n) (s o : IntMem) (h0 : s 0 < 0) (L : List Int)
    (hL : IsPermutation n L) : ∃! j, j < n.factorial ∧ permutOut n s o j = some L := by
  set base := (List.range n).map fun i : Nat => (i : Int) + 1 with hbase
  have hnd : base.Nodup := by
    refine List.Nodup.map ?_ List.nodup_range
    intro a b hab; simpa using hab
  set f : Nat → List Int := fun j => (permutOut n s o j).getD [] with hf
  have hfs : ∀ j, permutOut n s o j = some (f j) := by
    intro j
    obtain ⟨M, h1, -⟩ := C11_permut_valid n hn s o h0 j
    simp [hf, h1]
  have hinj : Set.InjOn f (Finset.range n.factorial : Set Nat) := by
    intro i hi j hj hij
    have : permutOut n s o i = permutOut n s o j := by rw [hfs i, hfs j, hij]
    rw [permut_out_eq n hn s o h0] at this
    rw [Finset.coe_range, Set.mem_Iio] at hi hj
    rwa [Nat.mod_eq_of_lt hi, Nat.mod_eq_of_lt hj] at this
  have himg : (Finset.range n.factorial).image f = base.permutations.toFinset := by
    apply Finset.eq_of_subset_of_card_le
    · intro M hM
      obtain ⟨j, -, rfl⟩ := Finset.mem_image.1 hM
      obtain ⟨M, h1, h2⟩ := C11_permut_valid n hn s o h0 j
      rw [hfs j] at h1
      rw [List.mem_toFinset, List.mem_permutations, Option.some.inj h1]
      exact h2
    · rw [Finset.card_image_of_injOn hinj, Finset.card_range]
      refine le_trans (List.toFinset_card_le _) ?_
      rw [List.length_permutations, hbase, List.length_map, List.length_range]
  have hmem : L ∈ (Finset.range n.factorial).image f := by
    rw [himg, List.mem_toFinset, List.mem_permutations]; exact hL
  obtain ⟨j, hj, hjL⟩ := Finset.mem_image.1 hmem
  refine ⟨j, ⟨Finset.mem_range.1 hj, by rw [hfs j, hjL]⟩, ?_⟩
  rintro i ⟨hi, hiL⟩
  rw [hfs i] at hiL
  exact hinj (by simpa using hi) hj (by rw [hjL]; exact Option.some.inj hiL)

/-- C11: status and period. -/
theorem C11_permut_status (n : Nat) (hn : 1 ≤ n) (s o : IntMem) (h0 : s 0 < 0) (j : Nat) :
    permutStatus n s o j = some (if j ≠ 0 ∧ n.factorial ∣ j then .noMore else .ok) ∧
    permutOut n s o (j + n.factorial) = permutOut n s o j := by
  obtain ⟨st, s', o', oo, h1, -, -, h4, -, -⟩ := permut_inv n hn s o h0 j
  refine ⟨?_, ?_⟩
  · simp [permutStatus, h1, h4, Nat.dvd_iff_mod_eq_zero]
  · rw [permut_out_eq n hn s o h0, Nat.add_mod_right]

/-- C12: bad argument. -/
theorem C12_permut_bad_arg (n : Int) (s o : IntMem) :
    (n < 1 → permut n s o = some (.invalidArg, s, o)) ∧
    (∀ s' o', permut n s o = some (.invalidArg, s', o') → n < 1) := by
  have hcarry : ∀ n j st s, st ≠ .invalidArg → (permutCarry n j st s).1 ≠ .invalidArg := by
    intro n j st s
    fun_induction permutCarry n j st s <;> simp_all
  refine ⟨fun h => by unfold permut; rw [if_pos h], fun s' o' h => ?_⟩
  unfold permut at h
  split at h
  · assumption
  · exfalso
    simp only [Option.bind_eq_bind, Option.bind_eq_some_iff] at h
    obtain ⟨r, -, h⟩ := h
    simp only [Option.pure_def, Option.some.injEq, Prod.mk.injEq] at h
    exact hcarry _ _ _ _ (by decide) h.1

/-- C12: with a negative first state element the sequence restarts: the result does not depend on what the
    arrays held. -/
theorem C12_permut_restart (n : Nat) (hn : 1 ≤ n) (s o s2 o2 : IntMem) (h : s 0 < 0) (h2 : s2 0 < 0) :
    permutOut n s o 0 = permutOut n s2 o2 0 ∧ permutStatus n s o 0 = some .ok := by
  obtain ⟨s', o', a1, a2, a3, a4, -⟩ := permut_first n hn s o h
  obtain ⟨t', p', b1, b2, b3, b4, -⟩ := permut_first n hn s2 o2 h2
  have hdig := sval_inj n s' t' a2 b2 (by rw [a3, b3])
  obtain ⟨r, r1, r2⟩ := permutDecode_congr n s' t' n (permutOnes n 0 o) (permutOnes n 0 o2)
      (fun i hi => arr_congr_ones n o o2 i hi) hdig o' a4
  rw [b4] at r1
  cases r1
  refine ⟨?_, ?_⟩
  · simp only [permutOut, permutRun, a1, b1, Option.map_some, Option.some.injEq, arr_eq_iff]
    exact r2
  · simp [permutStatus, permutRun, a1]

private theorem permutCarry_frame (n j : Nat) (st : CPStatus) (s : IntMem) (k : Nat) (hk : n ≤ k) (hj : 1 ≤ j) :
    (permutCarry n j st s).2 k = s k := by
  fun_induction permutCarry n j st s with
  | case1 j st s hle hge s' hjn ih => rw [ih (by omega)]; exact IntMem.set_ne _ _ (by omega)
  | case2 j st s hle hge s' hjn ih =>
    rw [ih (by omega), IntMem.set_ne _ _ (by omega)]; exact IntMem.set_ne _ _ (by omega)
  | case3 j st s hle hge ih => exact ih (by omega)
  | case4 j st s hle => rfl

private theorem permutSkip_ge (n : Nat) (o : IntMem) (c slot p : Nat) (hs : slot ≤ n)
    (h : permutSkip n o c slot = some p) : p ≤ n ∧ (1 ≤ c → 1 ≤ p) := by
  induction c generalizing slot with
  | zero => simp [permutSkip] at h; omega
  | succ c ih =>
    rw [permutSkip] at h
    rcases hq : permutScan o (n - slot) (slot + 1) with _ | q
    · rw [hq] at h; cases h
    · rw [hq] at h
      have h3 := permutScan_ge _ _ _ _ hq
      have h4 := ih q (by omega) h
      refine ⟨h4.1, fun _ => ?_⟩
      rcases Nat.eq_zero_or_pos c with hc | hc
      · subst hc; simp [permutSkip] at h; omega
      · exact h4.2 hc

private theorem permutDecode_frame (n : Nat) (s : IntMem) (l : Nat) (o r : IntMem) (hn : 1 ≤ n)
    (h : permutDecode n s l o = some r) (k : Nat) (hk : n ≤ k) : r k = o k := by
  induction l generalizing o with
  | zero => cases h; rfl
  | succ l ih =>
    cases l with
    | zero => cases h; rfl
    | succ l =>
      rw [permutDecode] at h
      rcases hq : permutSkip n o (s (l + 1) + 1).toNat 0 with _ | p
      · rw [hq] at h; cases h
      · rw [hq] at h
        simp only [Option.bind_eq_bind, Option.bind_some] at h
        split at h
        · cases h
        rw [ih _ h]
        have := permutSkip_ge n o _ 0 p (by omega) hq
        exact IntMem.set_ne _ _ (by omega)

/-- C12: whatever the arrays contain, a call that completes writes only to the first `n` elements of each. -/
theorem C12_permut_frame (n : Nat) (hn : 1 ≤ n) (s o s' o' : IntMem) (st : CPStatus)
    (h : permut n s o = some (st, s', o')) (k : Nat) (hk : n ≤ k) : s' k = s k ∧ o' k = o k := by
  unfold permut at h
  rw [if_neg (by omega)] at h
  simp only [Int.toNat_natCast, Option.bind_eq_bind, Option.bind_eq_some_iff] at h
  obtain ⟨r, hr, h⟩ := h
  simp only [Option.pure_def, Option.some.injEq, Prod.mk.injEq] at h
  obtain ⟨-, h2, h3⟩ := h
  subst h3
  refine ⟨?_, ?_⟩
  · rw [← h2, permutCarry_frame _ _ _ _ _ hk (by omega), IntMem.set_ne _ _ (by omega)]
    split
    · rw [permutClear_apply, if_neg (by omega), IntMem.set_ne _ _ (by omega)]
    · rfl
  · rw [permutDecode_frame n _ n _ _ hn hr k hk, permutOnes_apply, if_neg (by omega)]

/-- C12: with any non-negative state contents (also ones that no call sequence produces) the call stays within
    its arrays and delivers a permutation. -/
theorem C12_permut_safe (n : Nat) (hn : 1 ≤ n) (s o : IntMem) (h : ∀ i < n, 0 ≤ s i) :
    ∃ st s' o', permut n s o = some (st, s', o') ∧ IsPermutation n (arr n o') := by
  have hd := permutCarry_digits n 1 .ok (s.set 0 (s 0 + 1)) (by omega) (by
    intro i hi
    unfold IntMem.set
    split
    · have := h 0 (by omega); omega
    · exact h i hi) (by intro i h1; omega)
  obtain ⟨r, r1, r2, -, -, -⟩ := permutDecode_spec n _ n (permutOnes n 0 o) hn (Nat.le_refl _) hd (decInv_ones n o)
  refine ⟨(permutCarry n 1 .ok (s.set 0 (s 0 + 1))).1, (permutCarry n 1 .ok (s.set 0 (s 0 + 1))).2, r, ?_,
    isPerm_of n hn r r2⟩
  unfold permut
  rw [if_neg (by omega)]
  simp only [Int.toNat_natCast]
  rw [if_neg (by have := h 0 (by omega); omega)]
  simp only [r1]
  rfl

/-- C12: a negative digit beyond the first element makes the code write to `order[-1]`. -/
theorem C12_permut_corrupt_state :
    permut 2 (fun i => if i = 0 then 0 else -5) (fun _ => 0) = none := by decide +kernel

example : IsPermutation 3 [2, 3, 1] := by unfold IsPermutation; decide
example : (fun _ => -1 : IntMem) 0 < 0 := by decide
example : permutOut 3 (fun _ => -1) (fun _ => 0) 0 = some [3, 2, 1] ∧
    permutOut 3 (fun _ => -1) (fun _ => 0) 5 = some [1, 2, 3] := by decide +kernel

end Sla.Props
