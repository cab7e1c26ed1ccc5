import Verif.Model.Checked32
import Verif.Lemmas.Calendar32
import Verif.Lemmas.Permut

namespace Sla
open Spec

local macro "step32" : tactic => `(tactic|
  (first
    | rw [I32.bind_add (by unfold I32.InRange; omega)]
    | rw [I32.bind_sub (by unfold I32.InRange; omega)]
    | rw [I32.bind_mul (by unfold I32.InRange; omega)]
    | rw [I32.bind_div (by omega) (by omega) (by unfold I32.InRange; omega)]
    | rw [I32.bind_mod (by omega) (by omega) (by unfold I32.InRange; omega)]
    | rw [I32.bind_chk (by unfold I32.InRange; omega)]
    | rw [I32.sub_eq (by unfold I32.InRange; omega)]))

theorem djcalExpr32_eq {n : Int} (h : -2395521 ≤ n) (h' : n ≤ 534459923) :
    djcalExpr32 n = some (djclExpr (n + 2400001)) := by
  rw [djclExpr_eq (by omega)]
  dsimp only
  unfold djcalExpr32
  step32; step32
  generalize hj : n + 2400001 = jd
  have : 4480 ≤ jd ∧ jd ≤ 536859924 := by omega
  clear hj h h'
  step32; step32; step32
  generalize hq : (4 * jd - 17918) / 146097 = q
  have hq' : 0 ≤ q ∧ q ≤ 14698 := by omega
  have e6 : 6 * q = 2 * q * 3 := by ring
  rw [e6]
  step32; step32; step32; step32; step32
  generalize hr : (2 * q * 3 / 4 + 1) / 2 = r
  have hr' : 0 ≤ r ∧ r ≤ 11024 ∧ 4 * r ≤ 3 * q + 2 := by omega
  step32; step32; step32; step32
  generalize hn : 4 * (jd + r - 37) = n4
  have hn' : 237 ≤ n4 ∧ n4 ≤ 2147483647 := by omega
  step32
  generalize hc : (n4 - 237) % 1461 = c
  have hc' : 0 ≤ c ∧ c < 1461 := by omega
  clear hq hr this e6
  step32; step32; step32
  generalize hd : 10 * (c / 4) + 5 = nd
  have hd' : 0 ≤ nd ∧ nd ≤ 3655 := by omega
  clear hn hc hd
  step32; step32; step32; step32; step32; step32; step32; step32; step32
  rfl

theorem djcalExpr32_none {n : Int} (h : 534459924 ≤ n) (h' : n ≤ 1000000000) : djcalExpr32 n = none := by
  unfold djcalExpr32
  step32; step32
  generalize hj : n + 2400001 = jd
  have hjd : 536859925 ≤ jd := by omega
  clear hj h h'
  by_cases hb : jd ≤ 536870911
  · step32; step32; step32
    generalize hq : (4 * jd - 17918) / 146097 = q
    have hq' : q = 14698 ∨ q = 14699 := by omega
    clear hq
    have hr : 14698 ≤ q ∧ q ≤ 14699 := by omega
    step32; step32; step32; step32; step32
    have hr' : 11024 ≤ (2 * q * 3 / 4 + 1) / 2 ∧ (2 * q * 3 / 4 + 1) / 2 ≤ 11025 := by
      rcases hq' with rfl | rfl <;> norm_num
    clear hr hq'
    generalize (2 * q * 3 / 4 + 1) / 2 = r at *
    step32; step32
    have : I32.mul 4 (jd + r - 37) = none := by
      unfold I32.mul I32.chk; rw [if_neg (by unfold I32.InRange; omega)]
    rw [this]; rfl
  · have : I32.mul 4 jd = none := by
      unfold I32.mul I32.chk; rw [if_neg (by unfold I32.InRange; omega)]
    rw [this]; rfl

theorem combnLoop32_eq (k : Nat) (n : Int) (i : Nat) (l : IntMem) (hi : 1 ≤ i) (hik : i ≤ k) (hn : 0 ≤ n)
    (hn' : n < 2147483647) (hl : ∀ j < k, 1 ≤ l j ∧ l j ≤ 2147483647) :
    combnLoop32 k n i l = some (combnLoop k n i l) := by
  induction hm : k - i generalizing i with
  | zero =>
    have hx := hl (i - 1) (by omega)
    unfold combnLoop32 combnLoop
    simp only [if_pos (show i ≥ k by omega)]
    rw [I32.add_eq (by unfold I32.InRange; omega), Option.bind_some,
      I32.sub_eq (by unfold I32.InRange; omega), Option.bind_some]
    split
    · rw [I32.add_eq (by unfold I32.InRange; omega)]; rfl
    · rfl
  | succ m ih =>
    have hx := hl (i - 1) (by omega)
    have hy := hl i (by omega)
    unfold combnLoop32 combnLoop
    simp only [if_neg (show ¬ i ≥ k by omega), Option.bind_some]
    rw [I32.sub_eq (by unfold I32.InRange; omega), Option.bind_some]
    split
    · rw [I32.add_eq (by unfold I32.InRange; omega)]; rfl
    · exact ih (i + 1) (by omega) (by omega) (by omega)

theorem permutCarry32_eq (n j : Nat) (st : CPStatus) (s : IntMem) (hj : 1 ≤ j) (hn : n < 2147483647)
    (hs : ∀ i, j ≤ i → i < n → -2147483648 ≤ s i ∧ s i < 2147483647) :
    permutCarry32 n j st s = some (permutCarry n j st s) := by
  induction hm : n + 1 - j generalizing j st s with
  | zero =>
    unfold permutCarry32 permutCarry
    rw [if_neg (by omega), if_neg (by omega)]
  | succ m ih =>
    unfold permutCarry32 permutCarry
    rw [if_pos (show j ≤ n by omega), if_pos (show j ≤ n by omega)]
    have hJ : I32.add (j : Int) 1 = some ((j : Int) + 1) := I32.add_eq (by unfold I32.InRange; omega)
    by_cases h1 : s (j - 1) ≥ j
    · simp only [if_pos h1]
      by_cases h2 : j ≥ n
      · simp only [if_pos h2, Option.bind_some, hJ]
        exact ih (j + 1) _ _ (by omega) (fun i a b => by omega) (by omega)
      · simp only [if_neg h2]
        have e : (s.set (j - 1) 0) j = s j := IntMem.set_ne _ _ (by omega)
        have hb := hs j (le_refl _) (by omega)
        rw [e, I32.add_eq (by unfold I32.InRange; omega)]
        simp only [Option.map_some, Option.bind_some, hJ]
        refine ih (j + 1) _ _ (by omega) (fun i a b => ?_) (by omega)
        rw [IntMem.set_ne _ _ (by omega), IntMem.set_ne _ _ (by omega)]
        exact hs i (by omega) b
    · simp only [if_neg h1, Option.bind_some, hJ]
      exact ih (j + 1) _ _ (by omega) (fun i a b => hs i (by omega) b) (by omega)

end Sla
