import Verif.Lemmas.Combn
import Mathlib.Data.Nat.Factorial.Basic
import Mathlib.Tactic.Ring

namespace Sla

/-! ### The mixed-radix counter -/

/-- Value of the state number. -/
def sval : Nat → IntMem → Int
  | 0, _ => 0
  | j + 1, s => sval j s + s j * (j.factorial : Int)

/-- All digits in range. -/
def Digits (n : Nat) (s : IntMem) : Prop := ∀ i < n, 0 ≤ s i ∧ s i ≤ i

theorem sval_congr (n : Nat) (s s' : IntMem) (h : ∀ i < n, s i = s' i) : sval n s = sval n s' := by
  induction n with
  | zero => rfl
  | succ n ih => rw [sval, sval, ih (fun i hi => h i (by omega)), h n (by omega)]

theorem sval_set (n i : Nat) (s : IntMem) (v : Int) (h : i < n) :
    sval n (s.set i v) = sval n s + (v - s i) * (i.factorial : Int) := by
  induction n with
  | zero => omega
  | succ n ih =>
    rw [sval, sval]
    by_cases hi : i = n
    · subst hi
      rw [IntMem.set_same, sval_congr i (s.set i v) s (fun j hj => IntMem.set_ne _ _ (by omega))]
      ring
    · rw [ih (by omega), IntMem.set_ne _ _ (by omega)]; ring

theorem sval_bounds (n : Nat) (s : IntMem) (h : Digits n s) : 0 ≤ sval n s ∧ sval n s < (n.factorial : Int) := by
  induction n with
  | zero => simp [sval]
  | succ n ih =>
    obtain ⟨h1, h2⟩ := ih (fun i hi => h i (by omega))
    obtain ⟨h3, h4⟩ := h n (by omega)
    rw [sval, Nat.factorial_succ]
    have hp : (0 : Int) ≤ (n.factorial : Int) := by positivity
    push_cast
    constructor
    · have := mul_nonneg h3 hp; omega
    · nlinarith

theorem sval_inj (n : Nat) (s s' : IntMem) (h : Digits n s) (h' : Digits n s') (he : sval n s = sval n s') :
    ∀ i < n, s i = s' i := by
  induction n with
  | zero => intro i hi; omega
  | succ n ih =>
    have b := sval_bounds n s (fun i hi => h i (by omega))
    have b' := sval_bounds n s' (fun i hi => h' i (by omega))
    rw [sval, sval] at he
    have top : s n = s' n := by
      rcases lt_trichotomy (s n) (s' n) with hlt | heq | hgt
      · exfalso
        have : (s n + 1) * (n.factorial : Int) ≤ s' n * (n.factorial : Int) :=
          mul_le_mul_of_nonneg_right (by omega) (by positivity)
        linarith
      · exact heq
      · exfalso
        have : (s' n + 1) * (n.factorial : Int) ≤ s n * (n.factorial : Int) :=
          mul_le_mul_of_nonneg_right (by omega) (by positivity)
        linarith
    rw [top] at he
    have := ih (fun i hi => h i (by omega)) (fun i hi => h' i (by omega)) (by linarith)
    intro i hi
    rcases Nat.lt_succ_iff_lt_or_eq.1 hi with h | h
    · exact this i h
    · subst h; exact top

theorem permutClear_apply (n i : Nat) (s : IntMem) (k : Nat) :
    permutClear n i s k = if i ≤ k ∧ k < n then 0 else s k := by
  fun_induction permutClear n i s with
  | case1 i s h ih =>
    rw [ih]
    by_cases hk : k = i
    · subst hk; simp [h]
    · rw [IntMem.set_ne _ _ hk]
      have : (i + 1 ≤ k ∧ k < n) ↔ (i ≤ k ∧ k < n) := by omega
      simp only [this]
  | case2 i s h => rw [if_neg (by omega)]

theorem permutOnes_apply (n i : Nat) (s : IntMem) (k : Nat) :
    permutOnes n i s k = if i ≤ k ∧ k < n then 1 else s k := by
  fun_induction permutOnes n i s with
  | case1 i s h ih =>
    rw [ih]
    by_cases hk : k = i
    · subst hk; simp [h]
    · rw [IntMem.set_ne _ _ hk]
      have : (i + 1 ≤ k ∧ k < n) ↔ (i ≤ k ∧ k < n) := by omega
      simp only [this]
  | case2 i s h => rw [if_neg (by omega)]

/-- The carry loop, from digit `j - 1` which may be one too large. -/
theorem permutCarry_spec (n j : Nat) (st : CPStatus) (s : IntMem) (hj : 1 ≤ j) (hjn : j ≤ n + 1)
    (hd : ∀ i < n, 0 ≤ s i ∧ s i ≤ (if i + 1 = j then (i : Int) + 1 else i)) :
    Digits n (permutCarry n j st s).2 ∧
    (((permutCarry n j st s).1 = st ∧ sval n (permutCarry n j st s).2 = sval n s) ∨
     ((permutCarry n j st s).1 = .noMore ∧ sval n (permutCarry n j st s).2 = sval n s - (n.factorial : Int))) ∧
    ∀ k, n ≤ k → (permutCarry n j st s).2 k = s k := by
  fun_induction permutCarry n j st s with
  | case1 j st s hle hge s' hjn' ih =>
    have hjn2 : j = n := by omega
    have hs' : ∀ k, s' k = if k = j - 1 then 0 else s k := by
      intro k; show IntMem.set s (j-1) 0 k = _; rfl
    have hval : sval n s' = sval n s - (n.factorial : Int) := by
      show sval n (IntMem.set s (j-1) 0) = _
      rw [sval_set n (j-1) s 0 (by omega)]
      have h1 := hd (j - 1) (by omega)
      rw [if_pos (by omega)] at h1
      have : s (j - 1) = j := by omega
      rw [this]
      obtain ⟨m, rfl⟩ : ∃ m, j = m + 1 := ⟨j - 1, by omega⟩
      rw [← hjn2, Nat.factorial_succ]; push_cast; simp; ring
    have := ih (by omega) (by omega) (by
      intro i hi
      rw [if_neg (by omega), hs']
      split
      · omega
      · have := hd i hi; rw [if_neg (by omega)] at this; exact this)
    refine ⟨this.1, ?_, ?_⟩
    · right
      rcases this.2.1 with h | h
      · exact ⟨h.1, by rw [h.2, hval]⟩
      · -- the loop is finished, so the state is unchanged
        rw [permutCarry, if_neg (by omega)] at h ⊢
        refine ⟨rfl, hval⟩
    · intro k hk
      rw [this.2.2 k hk, hs', if_neg (by omega)]
  | case2 j st s hle hge s' hjn' ih =>
    have hs' : ∀ k, (IntMem.set s' j (s' j + 1)) k = if k = j then s j + 1 else if k = j - 1 then 0 else s k := by
      intro k
      show (if k = j then (if j = j - 1 then 0 else s j) + 1 else if k = j - 1 then 0 else s k) = _
      rw [if_neg (show ¬ j = j - 1 by omega)]
    have hval : sval n (IntMem.set s' j (s' j + 1)) = sval n s := by
      rw [sval_set n j s' _ (by omega)]
      show sval n (IntMem.set s (j-1) 0) + _ = _
      rw [sval_set n (j-1) s 0 (by omega)]
      have h1 := hd (j - 1) (by omega)
      rw [if_pos (by omega)] at h1
      have : s (j - 1) = j := by omega
      rw [this]
      obtain ⟨m, rfl⟩ : ∃ m, j = m + 1 := ⟨j - 1, by omega⟩
      rw [Nat.factorial_succ]; push_cast; simp; ring
    have := ih (by omega) (by omega) (by
      intro i hi
      rw [hs']
      split
      · rename_i h; subst h; have := hd i hi; rw [if_neg (by omega)] at this; rw [if_pos rfl]; omega
      · split
        · split <;> omega
        · have := hd i hi; rw [if_neg (by omega)] at this; rw [if_neg (by omega)]; exact this)
    refine ⟨this.1, ?_, ?_⟩
    · rcases this.2.1 with h | h
      · left; exact ⟨h.1, by rw [h.2, hval]⟩
      · right; exact ⟨h.1, by rw [h.2, hval]⟩
    · intro k hk
      rw [this.2.2 k hk, hs', if_neg (by omega), if_neg (by omega)]
  | case3 j st s hle hge ih =>
    apply ih (by omega) (by omega)
    intro i hi
    have := hd i hi
    split
    · omega
    · split at this
      · rw [show i = j - 1 by omega] at this ⊢; omega
      · exact this
  | case4 j st s hle =>
    refine ⟨?_, Or.inl ⟨rfl, rfl⟩, fun k _ => rfl⟩
    intro i hi
    have := hd i hi
    rw [if_neg (by omega)] at this
    exact this

/-- From any state with non-negative entries the carry loop produces digits in range. -/
theorem permutCarry_digits (n j : Nat) (st : CPStatus) (s : IntMem) (hj : 1 ≤ j)
    (h0 : ∀ i < n, 0 ≤ s i) (hd : ∀ i, i + 1 < j → i < n → s i ≤ i) : Digits n (permutCarry n j st s).2 := by
  fun_induction permutCarry n j st s with
  | case1 j st s hle hge s' hjn' ih =>
    have hs' : ∀ k, s' k = if k = j - 1 then 0 else s k := fun k => rfl
    refine ih (by omega) (fun i hi => ?_) (fun i h1 h2 => ?_)
    · rw [hs']; split
      · omega
      · exact h0 i hi
    · rw [hs']; split
      · omega
      · exact hd i (by omega) h2
  | case2 j st s hle hge s' hjn' ih =>
    have hs' : ∀ k, (IntMem.set s' j (s' j + 1)) k = if k = j then s j + 1 else if k = j - 1 then 0 else s k := by
      intro k
      show (if k = j then (if j = j - 1 then 0 else s j) + 1 else if k = j - 1 then 0 else s k) = _
      rw [if_neg (show ¬ j = j - 1 by omega)]
    refine ih (by omega) (fun i hi => ?_) (fun i h1 h2 => ?_)
    · rw [hs']; split
      · have := h0 j (by omega); omega
      · split
        · omega
        · exact h0 i hi
    · rw [hs', if_neg (by omega)]; split
      · omega
      · exact hd i (by omega) h2
  | case3 j st s hle hge ih =>
    refine ih (by omega) h0 (fun i h1 h2 => ?_)
    rcases Nat.lt_or_ge (i + 1) j with h | h
    · exact hd i h h2
    · have : i = j - 1 := by omega
      subst this; omega
  | case4 j st s hle => exact fun i hi => ⟨h0 i hi, hd i (by omega) hi⟩

/-! ### Decoding -/

/-- Number of positions below `p` with contents satisfying `P`. -/
def cnt (P : Int → Bool) (o : IntMem) : Nat → Nat
  | 0 => 0
  | p + 1 => cnt P o p + (P (o p)).toNat

theorem cnt_congr (P : Int → Bool) (o o' : IntMem) (p : Nat) (h : ∀ q < p, o q = o' q) :
    cnt P o p = cnt P o' p := by
  induction p with
  | zero => rfl
  | succ p ih => rw [cnt, cnt, ih (fun q hq => h q (by omega)), h p (by omega)]

theorem cnt_set (P : Int → Bool) (o : IntMem) (p q : Nat) (v : Int) (h : q < p) :
    cnt P (o.set q v) p + (P (o q)).toNat = cnt P o p + (P v).toNat := by
  induction p with
  | zero => omega
  | succ p ih =>
    rw [cnt, cnt]
    by_cases hq : q = p
    · subst hq
      rw [IntMem.set_same, cnt_congr P (o.set q v) o q (fun j hj => IntMem.set_ne _ _ (by omega))]
      omega
    · have := ih (by omega)
      rw [IntMem.set_ne _ _ (by omega)]; omega

theorem cnt_mono (P : Int → Bool) (o : IntMem) {p q : Nat} (h : p ≤ q) : cnt P o p ≤ cnt P o q := by
  induction q with
  | zero => have : p = 0 := by omega
            subst this; exact Nat.le_refl _
  | succ q ih =>
    rcases Nat.lt_or_eq_of_le h with h | h
    · exact Nat.le_trans (ih (by omega)) (by rw [cnt]; omega)
    · subst h; exact Nat.le_refl _

/-- The slot is unfilled. -/
def free (v : Int) : Bool := decide (v ≤ 1)

theorem permutScan_spec (o : IntMem) (fuel slot : Nat) (h : cnt free o slot < cnt free o (slot + fuel)) :
    ∃ p, permutScan o fuel (slot + 1) = some p ∧ slot < p ∧ p ≤ slot + fuel ∧ o (p - 1) ≤ 1 ∧
      cnt free o (p - 1) = cnt free o slot := by
  induction fuel generalizing slot with
  | zero => simp at h
  | succ fuel ih =>
    rw [permutScan]
    simp only [Nat.add_sub_cancel]
    split
    · rename_i hgt
      have hc : cnt free o (slot + 1) = cnt free o slot := by
        rw [cnt]; simp [free, hgt]
      obtain ⟨p, h1, h2, h3, h4, h5⟩ := ih (slot + 1) (by rw [hc]; rwa [Nat.add_assoc, Nat.add_comm 1])
      exact ⟨p, h1, by omega, by omega, h4, by rw [h5, hc]⟩
    · rename_i hgt
      exact ⟨slot + 1, rfl, by omega, by omega, by simpa using hgt, by simp⟩

theorem permutSkip_spec (n : Nat) (o : IntMem) (c slot : Nat) (hs : slot ≤ n)
    (h : cnt free o slot + (c + 1) ≤ cnt free o n) :
    ∃ p, permutSkip n o (c + 1) slot = some p ∧ 1 ≤ p ∧ p ≤ n ∧ o (p - 1) ≤ 1 ∧
      cnt free o (p - 1) = cnt free o slot + c := by
  induction c generalizing slot with
  | zero =>
    obtain ⟨p, h1, h2, h3, h4, h5⟩ := permutScan_spec o (n - slot) slot (by
      rw [show slot + (n - slot) = n by omega]; omega)
    refine ⟨p, ?_, by omega, by omega, h4, by omega⟩
    rw [permutSkip, h1]; simp [permutSkip]
  | succ c ih =>
    obtain ⟨p, h1, h2, h3, h4, h5⟩ := permutScan_spec o (n - slot) slot (by
      rw [show slot + (n - slot) = n by omega]; omega)
    have hc : cnt free o p = cnt free o slot + 1 := by
      rw [show p = p - 1 + 1 by omega, cnt, h5]; simp [free, h4]
    obtain ⟨p', g1, g2, g3, g4, g5⟩ := ih p (by omega) (by omega)
    refine ⟨p', ?_, g2, g3, g4, by omega⟩
    rw [permutSkip, h1]
    simpa using g1

/-- The counts while numbers `> l` have been placed. -/
def DecInv (n l : Nat) (o : IntMem) : Prop :=
  ∀ x : Int, cnt (fun v => v == x) o n = if x = 1 then l else if (l : Int) < x ∧ x ≤ n then 1 else 0

theorem cnt_pos_of (P : Int → Bool) (o : IntMem) (n q : Nat) (hq : q < n) (h : P (o q) = true) : 1 ≤ cnt P o n := by
  have := cnt_mono P o (Nat.succ_le_of_lt hq)
  rw [Nat.succ_eq_add_one, cnt, h] at this
  simp at this; omega

theorem cnt_eq_of_iff (P Q : Int → Bool) (o : IntMem) (n : Nat) (h : ∀ q < n, P (o q) = Q (o q)) :
    cnt P o n = cnt Q o n := by
  induction n with
  | zero => rfl
  | succ n ih => rw [cnt, cnt, ih (fun q hq => h q (by omega)), h n (by omega)]

theorem DecInv.ge_one {n l : Nat} {o : IntMem} (h : DecInv n l o) : ∀ q < n, 1 ≤ o q := by
  intro q hq
  by_contra hlt
  have := cnt_pos_of (fun v => v == o q) o n q hq (by simp)
  rw [h (o q), if_neg (by omega), if_neg (by omega)] at this
  omega

theorem DecInv.free {n l : Nat} {o : IntMem} (h : DecInv n l o) : cnt free o n = l := by
  rw [cnt_eq_of_iff Sla.free (fun v => v == 1) o n]
  · rw [h 1, if_pos rfl]
  · intro q hq
    have := h.ge_one q hq
    have e : (o q ≤ 1) ↔ (o q = 1) := by omega
    simp only [Sla.free, e]; rfl

/-- Decoding succeeds and leaves every number once. -/
theorem permutDecode_spec (n : Nat) (s : IntMem) (l : Nat) (o : IntMem) (hl : 1 ≤ l) (hln : l ≤ n)
    (hd : Digits n s) (ho : DecInv n l o) :
    ∃ r, permutDecode n s l o = some r ∧ DecInv n 1 r ∧ (∀ q, n ≤ q → r q = o q) ∧
      (∀ q, 1 < o q → r q = o q) ∧ (∀ q, r q = o q ∨ r q ≤ l) := by
  induction l generalizing o with
  | zero => omega
  | succ l ih =>
    cases l with
    | zero => exact ⟨o, rfl, ho, fun _ _ => rfl, fun _ _ => rfl, fun _ => Or.inl rfl⟩
    | succ l =>
      have hdl := hd (l + 1) (by omega)
      obtain ⟨c, hc⟩ : ∃ c : Nat, s (l + 1) = c := ⟨(s (l+1)).toNat, by omega⟩
      have e : (s (l + 1) + 1).toNat = c + 1 := by omega
      obtain ⟨p, h1, h2, h3, h4, h5⟩ := permutSkip_spec n o c 0 (by omega) (by
        rw [ho.free]; simp only [cnt]; omega)
      have hp1 : o (p - 1) = 1 := by have := ho.ge_one (p - 1) (by omega); omega
      have hinv : DecInv n (l + 1) (o.set (p - 1) ((l + 2 : Nat) : Int)) := by
        intro x
        have hset := cnt_set (fun v => v == x) o n (p - 1) ((l + 2 : Nat) : Int) (by omega)
        have hx := ho x
        rw [hx, hp1] at hset
        push_cast at *
        by_cases hx1 : x = 1
        · subst hx1
          have e2 : ((l : Int) + 2 == 1) = false := by simp; omega
          rw [if_pos rfl, e2] at hset; rw [if_pos rfl]; simp at hset; omega
        · rw [if_neg hx1] at hset ⊢
          have e1 : ((1 : Int) == x) = false := by simp; omega
          rw [e1] at hset
          by_cases hx2 : x = (l : Int) + 2
          · subst hx2
            rw [if_neg (by omega)] at hset
            rw [if_pos (by omega)]; simp at hset; simpa using hset
          · have e2 : ((l : Int) + 2 == x) = false := by simp; omega
            rw [e2] at hset
            have : ((l : Int) + 1 + 1 < x ∧ x ≤ n) ↔ ((l : Int) + 1 < x ∧ x ≤ n) := by omega
            simp only [this] at hset
            simpa using hset
      obtain ⟨r, r1, r2, r3, r4, r5⟩ := ih (o.set (p - 1) ((l + 2 : Nat) : Int)) (by omega) (by omega) hinv
      refine ⟨r, ?_, r2, ?_, ?_, ?_⟩
      · rw [permutDecode, e, h1]; simpa [show ¬ p = 0 by omega] using r1
      · intro q hq; rw [r3 q hq, IntMem.set_ne _ _ (by omega)]
      · intro q hq
        have hne : q ≠ p - 1 := by intro h; subst h; omega
        rw [r4 q (by rw [IntMem.set_ne _ _ hne]; exact hq), IntMem.set_ne _ _ hne]
      · intro q
        rcases r5 q with h | h
        · by_cases hq : q = p - 1
          · subst hq; right; rw [h, IntMem.set_same]
          · left; rw [h, IntMem.set_ne _ _ hq]
        · right; push_cast at *; omega

/-- Decoding is injective in the digits. -/
theorem permutDecode_inj (n : Nat) (s s' : IntMem) (l : Nat) (o r : IntMem) (hln : l ≤ n)
    (hd : Digits n s) (hd' : Digits n s') (ho : DecInv n l o)
    (h : permutDecode n s l o = some r) (h' : permutDecode n s' l o = some r) : ∀ i < l, s i = s' i := by
  induction l generalizing o with
  | zero => intro i hi; omega
  | succ l ih =>
    cases l with
    | zero =>
      intro i hi
      have : i = 0 := by omega
      subst this
      have a := hd 0 (by omega); have b := hd' 0 (by omega)
      simp only [Int.natCast_zero] at a b
      omega
    | succ l =>
      have main : ∀ t : IntMem, Digits n t → permutDecode n t (l + 2) o = some r →
          ∃ p, 1 ≤ p ∧ p ≤ n ∧ o (p - 1) = 1 ∧ (cnt free o (p - 1) : Int) = t (l + 1) ∧
            DecInv n (l + 1) (o.set (p - 1) ((l + 2 : Nat) : Int)) ∧
            permutDecode n t (l + 1) (o.set (p - 1) ((l + 2 : Nat) : Int)) = some r ∧
            r (p - 1) = ((l + 2 : Nat) : Int) ∧
            ∀ q, r q = ((l + 2 : Nat) : Int) → q = p - 1 ∨ o q = ((l + 2 : Nat) : Int) := by
        intro t ht hdec
        have hdl := ht (l + 1) (by omega)
        obtain ⟨c, hc⟩ : ∃ c : Nat, t (l + 1) = c := ⟨(t (l+1)).toNat, by omega⟩
        have e : (t (l + 1) + 1).toNat = c + 1 := by omega
        obtain ⟨p, h1, h2, h3, h4, h5⟩ := permutSkip_spec n o c 0 (by omega) (by
          rw [ho.free]; simp only [cnt]; omega)
        have hp1 : o (p - 1) = 1 := by have := ho.ge_one (p - 1) (by omega); omega
        have hinv : DecInv n (l + 1) (o.set (p - 1) ((l + 2 : Nat) : Int)) := by
          intro x
          have hset := cnt_set (fun v => v == x) o n (p - 1) ((l + 2 : Nat) : Int) (by omega)
          have hx := ho x
          rw [hx, hp1] at hset
          push_cast at *
          by_cases hx1 : x = 1
          · subst hx1
            have e2 : ((l : Int) + 2 == 1) = false := by simp; omega
            rw [if_pos rfl, e2] at hset; rw [if_pos rfl]; simp at hset; omega
          · rw [if_neg hx1] at hset ⊢
            have e1 : ((1 : Int) == x) = false := by simp; omega
            rw [e1] at hset
            by_cases hx2 : x = (l : Int) + 2
            · subst hx2
              rw [if_neg (by omega)] at hset
              rw [if_pos (by omega)]; simp at hset; simpa using hset
            · have e2 : ((l : Int) + 2 == x) = false := by simp; omega
              rw [e2] at hset
              have : ((l : Int) + 1 + 1 < x ∧ x ≤ n) ↔ ((l : Int) + 1 < x ∧ x ≤ n) := by omega
              simp only [this] at hset
              simpa using hset
        have hdec' : permutDecode n t (l + 1) (o.set (p - 1) ((l + 2 : Nat) : Int)) = some r := by
          rw [permutDecode, e, h1] at hdec; simpa [show ¬ p = 0 by omega] using hdec
        obtain ⟨r', r1, r2, r3, r4, r5⟩ := permutDecode_spec n t (l + 1) _ (by omega) (by omega) ht hinv
        have hr : r' = r := by rw [r1] at hdec'; exact Option.some.inj hdec'
        subst hr
        refine ⟨p, h2, h3, hp1, by rw [h5]; simp [cnt, hc], hinv, hdec', ?_, ?_⟩
        · rw [r4 _ (by rw [IntMem.set_same]; push_cast; omega), IntMem.set_same]
        · intro q hq
          by_cases hqp : q = p - 1
          · left; exact hqp
          · right
            rcases r5 q with h | h
            · rw [h, IntMem.set_ne _ _ hqp] at hq; exact hq
            · rw [hq] at h; push_cast at h; omega
      obtain ⟨p, a1, a2, a3, a4, a5, a6, a7, a8⟩ := main s hd h
      obtain ⟨p', b1, b2, b3, b4, b5, b6, b7, b8⟩ := main s' hd' h'
      have hpp : p = p' := by
        rcases a8 (p' - 1) b7 with h | h
        · omega
        · rw [b3] at h; push_cast at h; omega
      subst hpp
      have := ih _ (by omega) a5 a6 b6
      intro i hi
      rcases Nat.lt_succ_iff_lt_or_eq.1 hi with h | h
      · exact this i h
      · subst h; rw [← a4, ← b4]

end Sla
