import Verif.Lemmas.Calendar

namespace Sla
open Spec

theorem I32.div_nonneg {a b : Int} (ha : 0 ≤ a) (hb : 0 < b) (h : I32.InRange a) :
    I32.div a b = some (a / b) := by
  have : a.tdiv b = a / b := Int.tdiv_eq_ediv_of_nonneg ha
  rw [I32.div_eq (by omega), this]
  rw [this]
  unfold I32.InRange at *
  have h1 : a / b ≤ a := Int.ediv_le_self b ha
  have h2 : 0 ≤ a / b := Int.ediv_nonneg ha (by omega)
  omega

theorem I32.mod_nonneg {a b : Int} (ha : 0 ≤ a) (hb : 0 < b) (h : I32.InRange a) :
    I32.mod a b = some (a % b) := by
  have h0 := I32.div_nonneg ha hb h
  have : a.tdiv b = a / b := Int.tdiv_eq_ediv_of_nonneg ha
  rw [I32.mod_eq (by omega), Int.tmod_eq_emod_of_nonneg ha]
  rw [this]
  unfold I32.InRange at *
  have h1 : a / b ≤ a := Int.ediv_le_self b ha
  have h2 : 0 ≤ a / b := Int.ediv_nonneg ha (by omega)
  omega

section
variable {β : Type} {a b : Int} {f : Int → Option β}
theorem I32.bind_add (h : I32.InRange (a + b)) : (I32.add a b >>= f) = f (a + b) := by
  rw [I32.add_eq h]; rfl
theorem I32.bind_sub (h : I32.InRange (a - b)) : (I32.sub a b >>= f) = f (a - b) := by
  rw [I32.sub_eq h]; rfl
theorem I32.bind_mul (h : I32.InRange (a * b)) : (I32.mul a b >>= f) = f (a * b) := by
  rw [I32.mul_eq h]; rfl
theorem I32.bind_div (ha : 0 ≤ a) (hb : 0 < b) (h : I32.InRange a) :
    (I32.div a b >>= f) = f (a / b) := by
  rw [I32.div_nonneg ha hb h]; rfl
theorem I32.bind_mod (ha : 0 ≤ a) (hb : 0 < b) (h : I32.InRange a) :
    (I32.mod a b >>= f) = f (a % b) := by
  rw [I32.mod_nonneg ha hb h]; rfl
theorem I32.bind_chk (h : I32.InRange a) : (I32.chk a >>= f) = f a := by
  rw [I32.chk_eq h]; rfl
end

/-- Discharge the checked operation at the head of a `do` block. -/
local macro "step32" : tactic => `(tactic|
  (first
    | rw [I32.bind_add (by unfold I32.InRange; omega)]
    | rw [I32.bind_sub (by unfold I32.InRange; omega)]
    | rw [I32.bind_mul (by unfold I32.InRange; omega)]
    | rw [I32.bind_div (by omega) (by omega) (by unfold I32.InRange; omega)]
    | rw [I32.bind_mod (by omega) (by omega) (by unfold I32.InRange; omega)]
    | rw [I32.bind_chk (by unfold I32.InRange; omega)]
    | rw [I32.sub_eq (by unfold I32.InRange; omega)]))

theorem cldjExpr32_eq {y m d : Int} (hm1 : 1 ≤ m) (hm2 : m ≤ 12) (hy : -4711 ≤ y) (hy' : y - (12 - m) / 10 ≤ 1465160)
    (hd : -1000000000 ≤ d) (hd' : d ≤ 1000000000) :
    cldjExpr32 y m d = some (cldjExpr y m d) := by
  rw [cldjExpr_eq hm1 hm2 hy]
  unfold cldjExpr32
  repeat step32

theorem cldjExpr32_none {y m d : Int} (hm1 : 1 ≤ m) (hm2 : m ≤ 12) (hy : 1465160 < y - (12 - m) / 10) (hy' : y ≤ 2147483647) :
    cldjExpr32 y m d = none := by
  unfold cldjExpr32
  step32; step32
  have hk : 0 ≤ (12 - m) / 10 ∧ (12 - m) / 10 ≤ 1 := by omega
  generalize (12 - m) / 10 = k at *
  step32
  by_cases h : I32.InRange (y - k + 4712)
  · rw [I32.bind_add h]
    have : I32.mul 1461 (y - k + 4712) = none := by
      unfold I32.mul I32.chk; rw [if_neg (by unfold I32.InRange; omega)]
    rw [this]; rfl
  · have : I32.add (y - k) 4712 = none := by unfold I32.add I32.chk; rw [if_neg h]
    rw [this]; rfl

theorem clydExpr32_none {y m d : Int} (hm1 : 1 ≤ m) (hm2 : m ≤ 12) (hy : 1465072 < y - (14 - m) / 12) (hy' : y ≤ 2147483647) :
    clydExpr32 y m d = none := by
  unfold clydExpr32
  step32; step32
  have hk : 0 ≤ (14 - m) / 12 ∧ (14 - m) / 12 ≤ 1 := by omega
  generalize (14 - m) / 12 = k at *
  step32
  by_cases h : I32.InRange (y - k + 4800)
  · rw [I32.bind_add h]
    have : I32.mul 1461 (y - k + 4800) = none := by
      unfold I32.mul I32.chk; rw [if_neg (by unfold I32.InRange; omega)]
    rw [this]; rfl
  · have : I32.add (y - k) 4800 = none := by unfold I32.add I32.chk; rw [if_neg h]
    rw [this]; rfl

theorem djclExpr32_none {n : Int} (h : 534459924 ≤ n) (h' : n ≤ 1000000000) : djclExpr32 n = none := by
  unfold djclExpr32
  step32; step32
  generalize hj : n + 2400001 = jd
  have hjd : 536859925 ≤ jd := by omega
  clear hj h h'
  by_cases hb : jd ≤ 536870911
  · step32; step32; step32
    generalize hq : (4 * jd - 17918) / 146097 = q
    have hq' : q = 14698 ∨ q = 14699 := by omega
    clear hq
    have hr : 14698 ≤ q ∧ q ≤ 14699 := by omega
    step32; step32; step32; step32
    have hr' : 11024 ≤ (6 * q / 4 + 1) / 2 ∧ (6 * q / 4 + 1) / 2 ≤ 11025 := by
      rcases hq' with rfl | rfl <;> norm_num
    clear hr hq'
    generalize (6 * q / 4 + 1) / 2 = r at *
    step32; step32
    have : I32.mul 4 (jd + r - 37) = none := by
      unfold I32.mul I32.chk; rw [if_neg (by unfold I32.InRange; omega)]
    rw [this]; rfl
  · have : I32.mul 4 jd = none := by
      unfold I32.mul I32.chk; rw [if_neg (by unfold I32.InRange; omega)]
    rw [this]; rfl

theorem djclExpr32_eq {n : Int} (h : -2395521 ≤ n) (h' : n ≤ 534459923) :
    djclExpr32 n = some (djclExpr (n + 2400001)) := by
  rw [djclExpr_eq (by omega)]
  dsimp only
  unfold djclExpr32
  step32; step32
  generalize hj : n + 2400001 = jd
  have : 4480 ≤ jd ∧ jd ≤ 536859924 := by omega
  clear hj h h'
  step32; step32; step32
  generalize hq : (4 * jd - 17918) / 146097 = q
  have hq' : 0 ≤ q ∧ q ≤ 14698 := by omega
  step32; step32; step32; step32
  generalize hr : (6 * q / 4 + 1) / 2 = r
  have hr' : 0 ≤ r ∧ r ≤ 11024 ∧ 4 * r ≤ 3 * q + 2 := by omega
  step32; step32; step32; step32
  generalize hn : 4 * (jd + r - 37) = n4
  have hn' : 237 ≤ n4 ∧ n4 ≤ 2147483647 := by omega
  step32
  generalize hc : (n4 - 237) % 1461 = c
  have hc' : 0 ≤ c ∧ c < 1461 := by omega
  clear hq hr this
  step32; step32; step32
  generalize hd : 10 * (c / 4) + 5 = nd
  have hd' : 0 ≤ nd ∧ nd ≤ 3655 := by omega
  clear hn hc hd
  step32; step32; step32; step32; step32; step32; step32; step32; step32
  rfl

theorem clydExpr32_eq {y m d : Int} (hm1 : 1 ≤ m) (hm2 : m ≤ 12) (hy : -4711 ≤ y) (hy' : y - (14 - m) / 12 ≤ 1465072)
    (hd : -1000 ≤ d) (hd' : d ≤ 1000000000) :
    clydExpr32 y m d = some (clydExpr y m d) := by
  have hJ := clydJ_eq (d := d) hm1 hm2 hy
  rw [clydExpr_eq_post]
  unfold clydExpr32
  step32; step32
  have hi : 0 ≤ (14 - m) / 12 ∧ (14 - m) / 12 ≤ 1 ∧ (m ≤ 2 → (14 - m) / 12 = 1) := by omega
  have hJ' : clydJ y m d = 1461 * (y - (14 - m) / 12 + 4800) / 4 + 367 * (m - 2 + 12 * ((14 - m) / 12)) / 12
      - 3 * ((y - (14 - m) / 12 + 4900) / 100) / 4 + d - 30660 := by
    unfold clydJ
    rw [Int.tdiv_eq_ediv_of_nonneg (a := 14 - m) (by omega),
      Int.tdiv_eq_ediv_of_nonneg (a := 1461 * _) (by omega),
      Int.tdiv_eq_ediv_of_nonneg (a := 367 * _) (by omega),
      Int.tdiv_eq_ediv_of_nonneg (a := _ + 4900) (by omega),
      Int.tdiv_eq_ediv_of_nonneg (a := 3 * _) (by omega)]
  rw [hJ']
  have hJ0 : 1 ≤ clydJ y m d := by rw [hJ']; omega
  rw [hJ'] at hJ0
  clear hJ hJ'
  generalize (14 - m) / 12 = i at *
  iterate 17 step32
  generalize hj : 1461 * (y - i + 4800) / 4 + 367 * (m - 2 + 12 * i) / 12
      - 3 * ((y - i + 4900) / 100) / 4 + d - 30660 = j at *
  have hj1 : j ≤ 1600000000 := by omega
  clear hj
  step32; step32
  obtain ⟨k, L, hk, hL, hL', hk1, hk2⟩ : ∃ k L : Int, 0 ≤ k ∧ 1 ≤ L ∧ L ≤ 1461 ∧ j = 1461 * k + L ∧
      (j - 1) / 1461 = k :=
    ⟨(j - 1) / 1461, (j - 1) % 1461 + 1, by omega, by omega, by omega, by omega, rfl⟩
  rw [hk2]
  unfold clydPost
  have e0 : (j - 1).tdiv 1461 = k := by rw [Int.tdiv_eq_ediv_of_nonneg (by omega), hk2]
  simp only [e0]
  step32; step32
  have e1 : j - 1461 * k = L := by omega
  simp only [e1]
  clear hi hm1 hm2 hy hy' hd hd' hJ0 e0 hk2 e1
  step32; step32; step32; step32
  have e2 : (L - 1).tdiv 365 - L.tdiv 1461 = (L - 1) / 365 - L / 1461 := by
    rw [Int.tdiv_eq_ediv_of_nonneg (by omega), Int.tdiv_eq_ediv_of_nonneg (by omega)]
  rw [e2]
  obtain ⟨N, hN⟩ : ∃ N, N = (L - 1) / 365 - L / 1461 := ⟨_, rfl⟩
  rw [← hN]
  have hN0 : 0 ≤ N ∧ N ≤ 3 ∧ 365 * N + 1 ≤ L ∧ L ≤ 365 * N + 366 := by omega
  clear hN e2
  step32; step32; step32; step32; step32; step32
  have e3 : (80 * (L - 365 * N + 30)).tdiv 2447 = 80 * (L - 365 * N + 30) / 2447 :=
    Int.tdiv_eq_ediv_of_nonneg (by omega)
  rw [e3, Int.tdiv_eq_ediv_of_nonneg (a := 80 * (L - 365 * N + 30) / 2447) (by omega),
    Int.tdiv_eq_ediv_of_nonneg (a := 4 - N) (by omega)]
  generalize hq : 80 * (L - 365 * N + 30) / 2447 / 11 = q
  have hq' : 0 ≤ q ∧ q ≤ 1 := by omega
  clear hq e3
  iterate 5 step32
  step32
  generalize hv : (4 - N) / 4 = v
  have hv' : 0 ≤ v ∧ v ≤ 1 := by omega
  step32
  have hvq : I32.InRange (v * (1 - q)) := by
    rcases (by omega : v = 0 ∨ v = 1) with rfl | rfl <;> unfold I32.InRange <;> omega
  rw [I32.bind_mul hvq]
  have hvq' : 0 ≤ v * (1 - q) ∧ v * (1 - q) ≤ 1 := by
    rcases (by omega : v = 0 ∨ v = 1) with rfl | rfl <;> omega
  generalize v * (1 - q) = vq at *
  step32; step32; step32; step32
  rfl

end Sla
