import Verif.Lemmas.Checked32
import Verif.Model.Earth
import Verif.Props.Angles
import Verif.Props.Calendar
import Verif.Props.Combn
import Verif.Props.Permut

/-
Property theorems C96: `int` arithmetic and conversions to `int` outside the calendar functions of C08.
-/
noncomputable section
namespace Sla.Props
open Spec

/-- C96: with fewer than 2^31 - 1 candidates `combn` is defined on fresh lists and on lists of positive entries, and delivers
    what exact arithmetic delivers. -/
theorem C96_combn (k n : Int) (l : IntMem) (hn : n < 2147483647)
    (hl : l 0 < 1 ∨ ∀ j : Nat, j < k → 1 ≤ l j ∧ l j ≤ 2147483647) : combn32 k n l = some (combn k n l) := by
  unfold combn32 combn
  split
  · rfl
  · rename_i h
    push Not at h
    split
    · rfl
    · rename_i h0
      rcases hl with hl | hl
      · exact absurd hl h0
      · exact combnLoop32_eq _ _ 1 l (le_refl _) (by omega) (by omega) hn (fun j hj => hl j (by omega))

/-- C96: so every call of a sequence of calls is defined. -/
theorem C96_combn_sequence (k n : Nat) (hk : 1 ≤ k) (hkn : k ≤ n) (hn : n < 2147483647) (l : IntMem) (h0 : l 0 < 1)
    (j : Nat) : combn32 k n (combnMem k n l j) = some (combn k n (combnMem k n l j)) := by
  apply C96_combn _ _ _ (by omega)
  cases j with
  | zero => exact Or.inl h0
  | succ j =>
    right
    intro i hi
    have h := (C09_combn_valid k n hk hkn l h0 j).2.2 (combnMem k n l (j + 1) i) (by
      unfold combnOut arr
      exact List.mem_map.2 ⟨i, List.mem_range.2 (by omega), rfl⟩)
    omega

/-- C96: with 2^31 - 1 candidates and one selection every call after the first is undefined (`ncand + 1` overflows). -/
theorem C96_combn_overflow (l : IntMem) (h : 1 ≤ l 0) : combn32 1 2147483647 l = none := by
  unfold combn32
  rw [if_neg (by omega), if_neg (by omega)]
  unfold combnLoop32
  simp only [show ((1 : Int).toNat) = 1 from rfl, ge_iff_le, le_refl, if_true]
  have : I32.add 2147483647 1 = none := by decide
  rw [this]; rfl

/-- C96: `permut` is defined (as far as arithmetic is concerned) when starting, and otherwise unless a digit handed in is
    2^31 - 1, for fewer than 2^31 - 1 elements. -/
theorem C96_permut (n : Int) (s o : IntMem) (hn : n < 2147483647)
    (hs : s 0 < 0 ∨ ∀ i : Nat, i < n → -2147483648 ≤ s i ∧ s i < 2147483647) : permut32 n s o = permut n s o := by
  unfold permut32 permut
  split
  · rfl
  · rename_i h
    set s0 : IntMem := if s 0 < 0 then permutClear n.toNat 1 (s.set 0 (-1)) else s with hs0
    have hs0' : ∀ i : Nat, i < n → -2147483648 ≤ s0 i ∧ s0 i < 2147483647 := by
      intro i hi
      rw [hs0]
      split
      · rw [permutClear_apply]
        split
        · omega
        · unfold IntMem.set
          split
          · omega
          · omega
      · exact hs.resolve_left (by assumption) i hi
    have h00 := hs0' 0 (by omega)
    simp only
    rw [I32.bind_add (by unfold I32.InRange; omega), permutCarry32_eq _ _ _ _ (le_refl _) (by omega) (fun i a b => by
      rw [IntMem.set_ne _ _ (by omega)]; exact hs0' i (by omega))]
    rfl

/-- The state after a call consists of digits. -/
private theorem permut_digits (n : Nat) (hn : 1 ≤ n) (s o s' o' : IntMem) (st : CPStatus)
    (hs : s 0 < 0 ∨ ∀ i < n, 0 ≤ s i) (h : permut n s o = some (st, s', o')) : Digits n s' := by
  have key : ∀ s0 : IntMem, (-1 ≤ s0 0) → (∀ i < n, i ≠ 0 → 0 ≤ s0 i) →
      Digits n (permutCarry n 1 .ok (s0.set 0 (s0 0 + 1))).2 := by
    intro s0 a b
    apply permutCarry_digits n 1 .ok _ (le_refl _)
    · intro i hi
      unfold IntMem.set
      split
      · omega
      · exact b i hi (by assumption)
    · intro i h1; omega
  unfold permut at h
  rw [if_neg (by omega)] at h
  simp only [Int.toNat_natCast] at h
  set s0 : IntMem := if s 0 < 0 then permutClear n 1 (s.set 0 (-1)) else s with hs0
  have k := key s0 (by
      rw [hs0]; split
      · rw [permutClear_apply, if_neg (by omega), IntMem.set_same]
      · omega) (fun i hi hi0 => by
      rw [hs0]; split
      · rw [permutClear_apply, if_pos (by omega)]
      · rcases hs with hs | hs
        · omega
        · exact hs i hi)
  cases hd : permutDecode n (permutCarry n 1 .ok (s0.set 0 (s0 0 + 1))).2 n (permutOnes n 0 o) with
  | none => rw [hd] at h; simp at h
  | some r =>
    rw [hd] at h
    simp only [Option.pure_def, Option.bind_eq_bind, Option.bind_some, Option.some.injEq, Prod.mk.injEq] at h
    rw [← h.2.1]; exact k

/-- Result of call number `j + 1` of `permut` in 32-bit arithmetic. -/
def permutRun32 (n : Nat) (s o : IntMem) : Nat → Option (CPStatus × IntMem × IntMem)
  | 0 => permut32 n s o
  | j + 1 => (permutRun32 n s o j).bind fun r => permut32 n r.2.1 r.2.2

/-- C96: so every call of a sequence of calls is defined. -/
theorem C96_permut_sequence (n : Nat) (hn : 1 ≤ n) (hn' : n < 2147483647) (s o : IntMem) (h0 : s 0 < 0)
    (j : Nat) :
    permutRun32 n s o j = permutRun n s o j ∧ ∃ r, permutRun n s o j = some r ∧ Digits n r.2.1 := by
  induction j with
  | zero =>
    have e : permutRun32 n s o 0 = permutRun n s o 0 :=
      C96_permut n s o (by omega) (Or.inl h0)
    refine ⟨e, ?_⟩
    have := C11_permut_valid n hn s o h0 0
    unfold permutOut at this
    cases hr : permutRun n s o 0 with
    | none => rw [hr] at this; simp at this
    | some r => exact ⟨r, rfl, permut_digits n hn s o r.2.1 r.2.2 r.1 (Or.inl h0) hr⟩
  | succ j ih =>
    obtain ⟨e, r, hr, hd⟩ := ih
    have e2 : permut32 n r.2.1 r.2.2 = permut n r.2.1 r.2.2 :=
      C96_permut n _ _ (by omega) (Or.inr fun i hi => by have := hd i (by omega); omega)
    refine ⟨?_, ?_⟩
    · rw [permutRun32, permutRun, e, hr]; simpa using e2
    · obtain ⟨st, s', o', h1, -⟩ := C12_permut_safe n hn r.2.1 r.2.2 (fun i hi => (hd i hi).1)
      have h2 : permutRun n s o (j + 1) = some (st, s', o') := by
        rw [permutRun, hr]; simpa using h1
      exact ⟨_, h2, permut_digits n hn _ _ s' o' st (Or.inr fun i hi => (hd i hi).1) h1⟩

/-- C96: a first digit of 2^31 - 1 makes the call undefined. -/
theorem C96_permut_overflow (n : Int) (hn : 1 ≤ n) (s o : IntMem) (h : s 0 = 2147483647) : permut32 n s o = none := by
  unfold permut32
  have e : I32.add (s 0) 1 = none := by rw [h]; decide
  rw [if_neg (by omega), if_neg (by omega)]
  change (I32.add (s 0) 1 >>= _) = none
  rw [e]; rfl

private theorem bind_to_none {α β : Type} (x : Option α) : (x.bind fun _ => (none : Option β)) = none := by
  cases x <;> rfl

private theorem permutCarry32_none (m j : Nat) (st : CPStatus) (s : IntMem) (h : m + j = 2147483647) :
    permutCarry32 2147483647 j st s = none := by
  induction m generalizing j st s with
  | zero =>
    have hj : j = 2147483647 := by omega
    unfold permutCarry32
    rw [if_pos (by omega)]
    have : I32.add (j : Int) 1 = none := by rw [hj]; decide
    rw [this]
    exact bind_to_none _
  | succ m ih =>
    unfold permutCarry32
    rw [if_pos (by omega)]
    have : ∀ p : CPStatus × IntMem, permutCarry32 2147483647 (j + 1) p.1 p.2 = none := fun p =>
      ih (j + 1) p.1 p.2 (by omega)
    simp only [this]
    simp only [bind_to_none]

/-- C96: with 2^31 - 1 elements every call is undefined (the loop variable overflows). -/
theorem C96_permut_full (s o : IntMem) : permut32 2147483647 s o = none := by
  unfold permut32
  rw [if_neg (by omega)]
  have : ∀ (st : CPStatus) (s : IntMem), permutCarry32 2147483647 1 st s = none := fun st s =>
    permutCarry32_none 2147483646 1 st s (by omega)
  simp only [show ((2147483647 : Int).toNat) = 2147483647 from rfl, this]
  exact bind_to_none _

private theorem ctrunc_div32 (a b : Int) (ha : 0 ≤ a) (hb : 0 < b) : ctrunc ((a : ℝ) / (b : ℝ)) = a / b := by
  have hbr : (0 : ℝ) < (b : ℝ) := by exact_mod_cast hb
  rw [ctrunc_of_nonneg (div_nonneg (by exact_mod_cast ha) hbr.le), Int.floor_eq_iff, le_div_iff₀ hbr,
    div_lt_iff₀ hbr]
  constructor
  · exact_mod_cast Int.ediv_mul_le a hb.ne'
  · exact_mod_cast Int.lt_ediv_add_one_mul_self a hb

private theorem nrs_pow (ndp : Int) : dd2tfNrs ndp = 10 ^ ndp.toNat := by
  unfold dd2tfNrs
  have : ∀ (k : Nat) (x : Int), (List.replicate k (10 : Int)).foldl (· * ·) x = x * 10 ^ k := by
    intro k
    induction k with
    | zero => intro x; simp
    | succ k ih => intro x; rw [List.replicate_succ, List.foldl_cons, ih]; ring
  rw [this]; ring

/-- `dd2tf32` is defined exactly when the hours fit. -/
private theorem dd2tf32_eq (ndp : Int) (days : ℝ) (h9 : ndp ≤ 9) :
    dd2tf32 ndp days = if (dd2tf ndp days).hours ≤ 2147483647 then some (dd2tf ndp days) else none := by
  obtain ⟨N, hNdef⟩ : ∃ N : Int, N = 10 ^ ndp.toNat := ⟨_, rfl⟩
  have hN : 0 < N := by rw [hNdef]; positivity
  have hN9 : N ≤ 1000000000 := by
    rw [hNdef]
    calc (10 : Int) ^ ndp.toNat ≤ 10 ^ 9 := pow_le_pow_right₀ (by norm_num) (by omega)
      _ = _ := by norm_num
  obtain ⟨u, hudef⟩ : ∃ u : Int, u = cround ((N : ℝ) * 86400 * |days|) := ⟨_, rfl⟩
  have hNr : (0 : ℝ) < (N : ℝ) := by exact_mod_cast hN
  have hu : 0 ≤ u := by rw [hudef]; exact cround_nonneg (by positivity)
  have e1 : ∀ a b : Int, (a : ℝ) - ((a / b : Int) : ℝ) * (b : ℝ) = ((a % b : Int) : ℝ) := by
    intro a b; rw [Int.emod_def]; push_cast; ring
  have c2 : (N : ℝ) * 60 = ((N * 60 : Int) : ℝ) := by push_cast; ring
  have c3 : ((N * 60 : Int) : ℝ) * 60 = ((N * 60 * 60 : Int) : ℝ) := by push_cast; ring
  obtain ⟨r1, hr1⟩ : ∃ r1, r1 = u % (N * 60 * 60) := ⟨_, rfl⟩
  have hr1' : 0 ≤ r1 ∧ r1 < N * 60 * 60 := by
    rw [hr1]; exact ⟨Int.emod_nonneg _ (by positivity), Int.emod_lt_of_pos _ (by positivity)⟩
  obtain ⟨r2, hr2⟩ : ∃ r2, r2 = r1 % (N * 60) := ⟨_, rfl⟩
  have hr2' : 0 ≤ r2 ∧ r2 < N * 60 := by
    rw [hr2]; exact ⟨Int.emod_nonneg _ (by positivity), Int.emod_lt_of_pos _ (by positivity)⟩
  have hr3' : 0 ≤ r2 % N ∧ r2 % N < N := ⟨Int.emod_nonneg _ hN.ne', Int.emod_lt_of_pos _ hN⟩
  have hh : 0 ≤ u / (N * 60 * 60) := Int.ediv_nonneg hu (by positivity)
  have hm : 0 ≤ r1 / (N * 60) ∧ r1 / (N * 60) ≤ 59 := by
    refine ⟨Int.ediv_nonneg hr1'.1 (by positivity), ?_⟩
    have : r1 / (N * 60) < 60 := Int.ediv_lt_of_lt_mul (by positivity) (by linarith)
    omega
  have hs : 0 ≤ r2 / N ∧ r2 / N ≤ 59 := by
    refine ⟨Int.ediv_nonneg hr2'.1 hN.le, ?_⟩
    have : r2 / N < 60 := Int.ediv_lt_of_lt_mul hN (by linarith)
    omega
  have hfr : min (((r2 % N : Int) : ℝ)) ((N : ℝ) - 1) = ((r2 % N : Int) : ℝ) := by
    apply min_eq_left
    have : r2 % N ≤ N - 1 := by omega
    have h : ((r2 % N : Int) : ℝ) ≤ ((N - 1 : Int) : ℝ) := by exact_mod_cast this
    push_cast at h; exact h
  have i32 : ∀ z : Int, 0 ≤ z → z ≤ 2147483647 → I32.chk z = some z := fun z a b =>
    I32.chk_eq (by unfold I32.InRange; omega)
  unfold dd2tf32 dd2tf
  rw [C13_nrs_overflow, if_pos h9]
  simp only [nrs_pow, ← hNdef, ← hudef, Option.bind_some]
  simp only [c2, c3, ctrunc_div32 u _ hu (by positivity : 0 < N * 60 * 60), e1, ← hr1,
    ctrunc_div32 r1 _ hr1'.1 (by positivity : 0 < N * 60), ← hr2, ctrunc_div32 r2 _ hr2'.1 hN, hfr, nint32,
    cround_intCast]
  rw [i32 _ hm.1 (by omega), i32 _ hs.1 (by omega), i32 _ hr3'.1 (by omega), max_eq_left hh]
  by_cases h : u / (N * 60 * 60) ≤ 2147483647
  · rw [i32 _ hh h, if_pos h]; simp only [Option.bind_some, max_eq_left hh]
  · rw [if_neg h]
    have : I32.chk (u / (N * 60 * 60)) = none := by
      unfold I32.chk; rw [if_neg (by unfold I32.InRange; omega)]
    rw [this]; rfl

/-- C96: `dd2tf` is defined, and delivers what exact integers deliver, exactly when there are at most nine decimal places and
    the rounded interval is less than 2^31 hours. -/
theorem C96_dd2tf (ndp : Int) (days : ℝ) :
    (ndp ≤ 9 ∧ 24 * |days| + 1 / (7200 * 10 ^ ndp.toNat) < 2147483648 → dd2tf32 ndp days = some (dd2tf ndp days)) ∧
    (ndp > 9 ∨ 24 * |days| + 1 / (7200 * 10 ^ ndp.toNat) ≥ 2147483648 → dd2tf32 ndp days = none) := by
  obtain ⟨a1, a2, a3, a4, a5, a6, a7, a8, hv⟩ := C13_dd2tf_fields ndp days
  obtain ⟨N, hNdef⟩ : ∃ N : Int, N = 10 ^ ndp.toNat := ⟨_, rfl⟩
  have hNc : ((10 : ℝ) ^ ndp.toNat) = (N : ℝ) := by rw [hNdef]; push_cast; rfl
  rw [← hNdef] at hv a7
  have hN : 0 < N := by rw [hNdef]; positivity
  have hNr : (0 : ℝ) < (N : ℝ) := by exact_mod_cast hN
  have e : 24 * |days| + 1 / (7200 * (N : ℝ)) = ((N : ℝ) * 86400 * |days| + 1 / 2) / (N * 3600) := by
    field_simp; ring
  rw [hNc, e]
  have hiff : ((N : ℝ) * 86400 * |days| + 1 / 2) / (N * 3600) < 2147483648 ↔ (dd2tf ndp days).hours ≤ 2147483647 := by
    rw [div_lt_iff₀ (by positivity)]
    have h1 : (N : ℝ) * 86400 * |days| + 1 / 2 < 2147483648 * (N * 3600) ↔
        ⌊(N : ℝ) * 86400 * |days| + 1 / 2⌋ < 2147483648 * (N * 3600) := by
      rw [Int.floor_lt]; push_cast; rfl
    rw [h1, ← hv]
    generalize (dd2tf ndp days).hours = h at *
    generalize (dd2tf ndp days).minutes = m at *
    generalize (dd2tf ndp days).seconds = s at *
    generalize (dd2tf ndp days).fraction = f at *
    constructor
    · intro hlt
      by_contra hc
      have : 2147483648 * (N * 3600) ≤ h * (N * 3600) := by
        apply mul_le_mul_of_nonneg_right (by omega) (by omega)
      have h2 : 0 ≤ m * N := mul_nonneg a2 hN.le
      have h3 : 0 ≤ s * N := mul_nonneg a4 hN.le
      nlinarith
    · intro hle
      have h1 : h * N ≤ 2147483647 * N := mul_le_mul_of_nonneg_right hle hN.le
      have h2 : m * N ≤ 59 * N := mul_le_mul_of_nonneg_right a3 hN.le
      have h3 : s * N ≤ 59 * N := mul_le_mul_of_nonneg_right a5 hN.le
      nlinarith
  constructor
  · rintro ⟨h9, h⟩
    rw [dd2tf32_eq ndp days h9, if_pos (hiff.1 h)]
  · intro h
    by_cases h9 : ndp ≤ 9
    · have h' := h.resolve_left (by omega)
      rw [dd2tf32_eq ndp days h9, if_neg (fun hc => absurd (hiff.2 hc) (not_lt.2 h'))]
    · unfold dd2tf32
      rw [C13_nrs_overflow, if_neg h9]; rfl

/-- C96: conversion of angles to fields is defined for any angle that occurs in practice. -/
theorem C96_angles (ndp : Int) (angle : ℝ) (h9 : ndp ≤ 9) :
    (|angle| ≤ 500000000 → dr2tf32 ndp angle = some (dr2tf ndp angle)) ∧
    (|angle| ≤ 37000000 → dr2af32 ndp angle = some (dr2af ndp angle)) := by
  have hp := Real.pi_gt_d2
  have hsmall : (1 : ℝ) / (7200 * 10 ^ ndp.toNat) ≤ 1 := by
    rw [div_le_one (by positivity)]
    have : (1 : ℝ) ≤ 10 ^ ndp.toNat := one_le_pow₀ (by norm_num)
    linarith
  constructor
  · intro h
    refine (C96_dd2tf ndp _).1 ⟨h9, ?_⟩
    rw [abs_div, abs_of_pos (show (0 : ℝ) < 2 * Real.pi by positivity)]
    have : |angle| / (2 * Real.pi) ≤ 500000000 / 6.28 :=
      div_le_div₀ (by norm_num) h (by norm_num) (by linarith)
    have h2 : (500000000 / 6.28 : ℝ) ≤ 80000000 := by norm_num
    linarith
  · intro h
    refine (C96_dd2tf ndp _).1 ⟨h9, ?_⟩
    rw [abs_mul, abs_of_pos (show (0 : ℝ) < 15 / (2 * Real.pi) by positivity)]
    have h1 : 15 / (2 * Real.pi) ≤ 15 / 6.28 :=
      div_le_div₀ (by norm_num) (le_refl _) (by norm_num) (by linarith)
    have : |angle| * (15 / (2 * Real.pi)) ≤ 37000000 * (15 / 6.28) :=
      mul_le_mul h h1 (by positivity) (by norm_num)
    have h2 : (37000000 * (15 / 6.28) : ℝ) ≤ 89000000 := by norm_num
    linarith

/-- Day and fraction of `djcal`. -/
private theorem djcal_parts (N r : Int) (hN : 0 < N) :
    let f0 := cfmod (r : ℝ) (N : ℝ)
    let f := if f0 < 0 then f0 + (N : ℝ) else f0
    f = ((r % N : Int) : ℝ) ∧ ((r : ℝ) - f) / N = ((r / N : Int) : ℝ) := by
  intro f0 f
  have hNr : (0 : ℝ) < (N : ℝ) := by exact_mod_cast hN
  have hfl : ⌊(r : ℝ) / (N : ℝ)⌋ = r / N := by
    rw [Int.floor_eq_iff, le_div_iff₀ hNr, div_lt_iff₀ hNr]
    constructor
    · exact_mod_cast Int.ediv_mul_le r hN.ne'
    · exact_mod_cast Int.lt_ediv_add_one_mul_self r hN
  have hmod : (r : ℝ) - N * ((r / N : Int) : ℝ) = ((r % N : Int) : ℝ) := by
    rw [Int.emod_def]; push_cast; ring
  have hf : f = ((r % N : Int) : ℝ) := by
    rw [← hmod, ← hfl]; exact cfmod_wrap _ hNr
  refine ⟨hf, ?_⟩
  rw [hf, ← hmod]; field_simp; ring

/-- C96: `djcal` is defined, and delivers what exact integers deliver, up to nine decimal places and as long
    as the rounded date is before MJD 534459924. -/
theorem C96_djcal (ndp : Int) (mjd : ℝ) (h9 : ndp ≤ 9)
    (h : mjd < 534459924 - 1 / (2 * 10 ^ ndp.toNat)) :
    djcal32 ndp mjd = some (djcal ndp mjd) := by
  unfold djcal32 djcal
  by_cases hg : mjd ≤ -2395520 ∨ mjd ≥ 1.0e9
  · rw [if_pos hg, if_pos (by norm_num at hg ⊢; exact hg)]
  · rw [if_neg hg, if_neg (by norm_num at hg ⊢; exact hg)]
    push Not at hg
    obtain ⟨N, hNdef⟩ : ∃ N : Int, N = 10 ^ (max ndp 0).toNat := ⟨_, rfl⟩
    have hN : 0 < N := by rw [hNdef]; positivity
    have hN9 : N ≤ 1000000000 := by
      rw [hNdef]
      calc (10 : Int) ^ (max ndp 0).toNat ≤ 10 ^ 9 := pow_le_pow_right₀ (by norm_num) (by omega)
        _ = _ := by norm_num
    have hNr : (0 : ℝ) < (N : ℝ) := by exact_mod_cast hN
    simp only [← hNdef]
    rw [I32.chk_eq (by unfold I32.InRange; omega), Option.bind_some]
    obtain ⟨r, hr⟩ : ∃ r : Int, r = cround (mjd * N) := ⟨_, rfl⟩
    simp only [← hr]
    obtain ⟨p1, p2⟩ := djcal_parts N r hN
    rw [p1] at p2
    rw [p1, p2, cround_intCast]
    have habs : |(r : ℝ) - mjd * N| ≤ 1 / 2 := by rw [hr]; exact abs_cround_sub_le _
    rw [abs_le] at habs
    have hlo : -2395520 * N ≤ r := by
      have h1 : -2395520 * (N : ℝ) < mjd * N := mul_lt_mul_of_pos_right hg.1 hNr
      have h2 : ((-2395520 * N - 1 : Int) : ℝ) < r := by push_cast; linarith
      have h3 : -2395520 * N - 1 < r := by exact_mod_cast h2
      omega
    have hNp : (10 : ℝ) ^ ndp.toNat = N := by
      rw [hNdef, show (max ndp 0).toNat = ndp.toNat by omega]; push_cast; rfl
    have hhi : r < 534459924 * N := by
      rw [hNp] at h
      have h1 : mjd * N < (534459924 - 1 / (2 * (N : ℝ))) * N := mul_lt_mul_of_pos_right h hNr
      have h4 : (534459924 - 1 / (2 * (N : ℝ))) * N = 534459924 * N - 1 / 2 := by field_simp
      have h2 : (r : ℝ) < ((534459924 * N : Int) : ℝ) := by push_cast; linarith
      exact_mod_cast h2
    have q1 : -2395520 ≤ r / N := (Int.le_ediv_iff_mul_le hN).2 hlo
    have q2 : r / N ≤ 534459923 := by
      have := Int.ediv_lt_of_lt_mul hN hhi
      omega
    have q3 := Int.emod_nonneg r hN.ne'
    have q4 := Int.emod_lt_of_pos r hN
    rw [djcalExpr32_eq (by omega) q2, Option.bind_some, djcalExpr_eq]
    unfold nint32
    rw [cround_intCast, I32.chk_eq (by unfold I32.InRange; omega)]
    rfl

/-- C96: `djcal` accepts dates up to MJD 1e9 but is undefined if the rounded date is MJD 534459924 or later, and with more
    than nine decimal places. -/
theorem C96_djcal_undefined (ndp : Int) (mjd : ℝ) (h1 : -2395520 < mjd) (h2 : mjd < 1e9)
    (h : ndp > 9 ∨ mjd ≥ 534459924 - 1 / (2 * 10 ^ ndp.toNat)) : djcal32 ndp mjd = none := by
  unfold djcal32
  rw [if_neg (by push Not; exact ⟨h1, by norm_num at h2 ⊢; exact h2⟩)]
  obtain ⟨N, hNdef⟩ : ∃ N : Int, N = 10 ^ (max ndp 0).toNat := ⟨_, rfl⟩
  rw [← hNdef]
  by_cases h9 : ndp > 9
  · have : 10000000000 ≤ N := by
      rw [hNdef]
      calc (10000000000 : Int) = 10 ^ 10 := by norm_num
        _ ≤ _ := pow_le_pow_right₀ (by norm_num) (by omega)
    have : I32.chk N = none := by unfold I32.chk; rw [if_neg (by unfold I32.InRange; omega)]
    rw [this]; rfl
  · have hm := h.resolve_left h9
    have hN : 0 < N := by rw [hNdef]; positivity
    have hN9 : N ≤ 1000000000 := by
      rw [hNdef]
      calc (10 : Int) ^ (max ndp 0).toNat ≤ 10 ^ 9 := pow_le_pow_right₀ (by norm_num) (by omega)
        _ = _ := by norm_num
    have hNr : (0 : ℝ) < (N : ℝ) := by exact_mod_cast hN
    rw [I32.chk_eq (by unfold I32.InRange; omega), Option.bind_some]
    obtain ⟨r, hr⟩ : ∃ r : Int, r = cround (mjd * N) := ⟨_, rfl⟩
    simp only [← hr]
    obtain ⟨p1, p2⟩ := djcal_parts N r hN
    rw [p1] at p2
    rw [p1, p2, cround_intCast]
    have habs : |(r : ℝ) - mjd * N| ≤ 1 / 2 := by rw [hr]; exact abs_cround_sub_le _
    rw [abs_le] at habs
    have hNp : (10 : ℝ) ^ ndp.toNat = N := by
      rw [hNdef, show (max ndp 0).toNat = ndp.toNat by omega]; push_cast; rfl
    have hlo : 534459924 * N ≤ r := by
      rw [hNp] at hm
      have h1 : (534459924 - 1 / (2 * (N : ℝ))) * N ≤ mjd * N := mul_le_mul_of_nonneg_right hm hNr.le
      have h4 : (534459924 - 1 / (2 * (N : ℝ))) * N = 534459924 * N - 1 / 2 := by field_simp
      have hN1 : (1 : ℝ) ≤ N := by exact_mod_cast hN
      rw [hr, cround, if_pos (by linarith), Int.le_floor]
      push_cast; linarith
    have q1 : 534459924 ≤ r / N := (Int.le_ediv_iff_mul_le hN).2 hlo
    have q2 : r / N ≤ 1000000000 := by
      apply Int.ediv_le_of_le_mul hN
      have h1 : mjd * N ≤ 1000000000 * (N : ℝ) := mul_le_mul_of_nonneg_right (by norm_num at h2; linarith) hNr.le
      have h2 : (r : ℝ) < ((1000000000 * N + 1 : Int) : ℝ) := by push_cast; linarith
      have h3 : r < 1000000000 * N + 1 := by exact_mod_cast h2
      omega
    rw [djcalExpr32_none q1 q2]; rfl

private theorem quot4 (y : Int) : 0 ≤ y ∧ y.tdiv 4 = y / 4 ∧ y.tmod 4 = y % 4 ∨
    y < 0 ∧ y.tdiv 4 = -((-y) / 4) ∧ y.tmod 4 = -((-y) % 4) := by
  by_cases h : 0 ≤ y
  · exact Or.inl ⟨h, Int.tdiv_eq_ediv_of_nonneg h, Int.tmod_eq_emod_of_nonneg h⟩
  · right
    obtain ⟨x, rfl⟩ : ∃ x, y = -x := ⟨-y, by ring⟩
    rw [Int.neg_tdiv, Int.neg_tmod, neg_neg, Int.tdiv_eq_ediv_of_nonneg (by omega), Int.tmod_eq_emod_of_nonneg (by omega)]
    exact ⟨by omega, rfl, rfl⟩

/-- C96: the time argument of `earth` and `moon` is computed without overflow. -/
theorem C96_year (year day : Int) (fraction : ℝ) (hy : -2147481748 ≤ year) (hy' : year ≤ 2147483647)
    (hd : -536870910 ≤ day) (hd' : day ≤ 536870911) :
    ∃ q : Int, yearQuarters32 year day = some (year - 1900, q) ∧
      yearFraction year day fraction = ((q : ℝ) + 4 * fraction) / 1461 := by
  have h4 := quot4 year
  have ht : I32.InRange (year.tdiv 4) := by unfold I32.InRange; omega
  have hr : -3 ≤ year.tmod 4 ∧ year.tmod 4 ≤ 3 := by omega
  refine ⟨_, ?_, rfl⟩
  unfold yearQuarters32
  rw [I32.bind_sub (by unfold I32.InRange; omega), I32.mod_eq (by omega) ht]
  simp only [Option.bind_eq_bind, Option.bind_some]
  generalize year.tmod 4 = r at *
  have h5 := quot4 (r + 4)
  rw [I32.add_eq (by unfold I32.InRange; omega), Option.bind_some,
    I32.mod_eq (by omega) (by unfold I32.InRange; omega), Option.bind_some]
  have hy4 : 0 ≤ (r + 4).tmod 4 ∧ (r + 4).tmod 4 ≤ 3 := by omega
  generalize (r + 4).tmod 4 = y4 at *
  obtain ⟨q, hq, hq1⟩ : ∃ q, q = (1 : Int).tdiv (y4 + 1) ∧ (q = 1 ∧ y4 = 0 ∨ q = 0) := by
    refine ⟨_, rfl, ?_⟩
    rcases (by omega : y4 = 0 ∨ y4 = 1 ∨ y4 = 2 ∨ y4 = 3) with rfl | rfl | rfl | rfl <;> decide
  rw [I32.add_eq (by unfold I32.InRange; omega), Option.bind_some,
    I32.div_eq (by omega) (by rw [← hq]; unfold I32.InRange; omega), ← hq, Option.bind_some,
    I32.sub_eq (by unfold I32.InRange; omega), Option.bind_some,
    I32.mul_eq (by unfold I32.InRange; omega), Option.bind_some,
    I32.sub_eq (by unfold I32.InRange; omega), Option.bind_some,
    I32.sub_eq (by unfold I32.InRange; omega), Option.bind_some]
  rfl

/-- C96: one day later, or one year earlier, it overflows. -/
theorem C96_year_overflow (day : Int) :
    yearQuarters32 2001 536870912 = none ∧ yearQuarters32 (-2147481749) day = none := by
  constructor
  · decide
  · unfold yearQuarters32
    have : I32.sub (-2147481749) 1900 = none := by decide
    rw [this]; rfl

example : ((fun _ => 0 : IntMem) 0 < 1) ∧ (1 : Nat) ≤ 3 ∧ 3 ≤ 10 := by decide
example : (1 : Int) ≤ (fun _ => 1 : IntMem) 0 := by decide
example : ∀ i : Nat, ((i : Int) < 5) → (-2147483648 : Int) ≤ (fun _ => -1 : IntMem) i ∧ (fun _ => -1 : IntMem) i < 2147483647 := by
  intro i _; norm_num
example : (9 : Int) ≤ 9 ∧ 24 * |(1000000 : ℝ)| + 1 / (7200 * 10 ^ (9 : Int).toNat) < 2147483648 := by
  refine ⟨le_refl _, ?_⟩
  rw [abs_of_pos (by norm_num), show (9 : Int).toNat = 9 from rfl]
  norm_num
example : (-2395520 : ℝ) < 600000000 ∧ (600000000 : ℝ) < 1e9 ∧ ((0 : Int) > 9 ∨ (600000000 : ℝ) ≥ 534470911) := by norm_num

end Sla.Props
