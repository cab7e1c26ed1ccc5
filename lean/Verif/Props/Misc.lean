/- C55: `gresid`. C60: `veri`, `vers`. C63: `random`. -/
import Verif.Model.Misc
import Verif.Lemmas.CMath
import Mathlib.Analysis.SpecialFunctions.Pow.Real
import Mathlib.Analysis.SpecialFunctions.Log.Base

noncomputable section
namespace Sla.Props

open Real

/-! ## C55 -/

/-- The `k`-th pair of uniforms at or after position `p`, as a point of the square [-1,1]². -/
def pointAt (u : ℕ → ℝ) (p k : ℕ) : ℝ × ℝ := (2 * u (p + 2 * k) - 1, 2 * u (p + 2 * k + 1) - 1)

/-- Squared distance from the origin. -/
def sq2 (q : ℝ × ℝ) : ℝ := q.1 ^ 2 + q.2 ^ 2

private theorem loop_some (u : ℕ → ℝ) : ∀ (fuel p : ℕ) x y r q, gresidLoop u fuel p = some (x, y, r, q) →
    ∃ k, k < fuel ∧ (x, y) = pointAt u p k ∧ r = sq2 (pointAt u p k) ∧ q = p + 2 * (k + 1) ∧ r < 1 ∧
      ∀ j < k, 1 ≤ sq2 (pointAt u p j) := by
  intro fuel
  induction fuel with
  | zero => intro p x y r q h; cases h
  | succ n ih =>
    intro p x y r q h
    simp only [gresidLoop] at h
    by_cases hc : (2 * u p - 1) * (2 * u p - 1) + (2 * u (p + 1) - 1) * (2 * u (p + 1) - 1) ≥ 1
    · rw [if_pos hc] at h
      obtain ⟨k, h1, h2, h3, h4, h5, h6⟩ := ih _ _ _ _ _ h
      have shift : ∀ j, pointAt u (p + 2) j = pointAt u p (j + 1) := by
        intro j
        simp only [pointAt]
        rw [show p + 2 + 2 * j = p + 2 * (j + 1) by ring]
      refine ⟨k + 1, by omega, by rw [h2, shift], by rw [h3, shift], by omega, h5, fun j hj => ?_⟩
      cases j with
      | zero => simp only [sq2, pointAt]; ring_nf at hc ⊢; linarith
      | succ j => rw [← shift]; exact h6 j (by omega)
    · rw [if_neg hc] at h
      simp only [Option.some.injEq, Prod.mk.injEq] at h
      obtain ⟨rfl, rfl, rfl, rfl⟩ := h
      refine ⟨0, by omega, by simp [pointAt], by simp [pointAt, sq2]; ring, by ring, by linarith, by simp⟩

private theorem loop_enough (u : ℕ → ℝ) : ∀ (k fuel p : ℕ), k < fuel → sq2 (pointAt u p k) < 1 →
    gresidLoop u fuel p ≠ none := by
  intro k
  induction k with
  | zero =>
    intro fuel p hf hk
    obtain ⟨f, rfl⟩ := Nat.exists_eq_succ_of_ne_zero (by omega : fuel ≠ 0)
    simp only [gresidLoop]
    rw [if_neg (by simp only [sq2, pointAt] at hk; ring_nf at hk ⊢; linarith)]
    simp
  | succ k ih =>
    intro fuel p hf hk
    obtain ⟨f, rfl⟩ := Nat.exists_eq_succ_of_ne_zero (by omega : fuel ≠ 0)
    simp only [gresidLoop]
    split
    · refine ih f (p + 2) (by omega) ?_
      simp only [pointAt] at hk ⊢
      rw [show p + 2 + 2 * k = p + 2 * (k + 1) by ring]
      exact hk
    · simp

/-- A call returns if and only if the second deviate of a pair is waiting or some later pair of uniforms falls inside the
    unit circle. -/
theorem C55_terminates (u : ℕ → ℝ) (s : Gresid) (d : ℝ) :
    (∃ fuel, gresid fuel u s d ≠ none) ↔ s.first = false ∨ ∃ k, sq2 (pointAt u s.pos k) < 1 := by
  constructor
  · rintro ⟨fuel, h⟩
    by_cases hf : s.first = true
    · right
      simp only [gresid, if_pos hf] at h
      cases hl : gresidLoop u fuel s.pos with
      | none => rw [hl] at h; simp at h
      | some t =>
        obtain ⟨x, y, r, q⟩ := t
        obtain ⟨k, -, -, h3, -, h5, -⟩ := loop_some u _ _ _ _ _ _ hl
        exact ⟨k, by rw [← h3]; exact h5⟩
    · left; simpa using hf
  · rintro (h | ⟨k, hk⟩)
    · exact ⟨0, by simp [gresid, h]⟩
    · refine ⟨k + 1, ?_⟩
      have := loop_enough u k (k + 1) s.pos (by omega) hk
      by_cases hf : s.first = true
      · simp only [gresid, if_pos hf]
        cases hl : gresidLoop u (k + 1) s.pos with
        | none => exact absurd hl this
        | some t =>
          simp only
          split <;> simp
      · simp [gresid, hf]

example : sq2 (pointAt (fun _ => 3 / 4) 0 0) < 1 := by norm_num [sq2, pointAt]
example : ¬ ∃ k, sq2 (pointAt (fun _ => 0) 0 k) < 1 := by
  rintro ⟨k, hk⟩
  norm_num [sq2, pointAt] at hk

/-- How the two deviates of a pair come from a point of the unit disc. -/
structure IsPair (q : ℝ × ℝ) (g1 g2 : ℝ) : Prop where
  /-- squared length of the pair of deviates -/
  length : g1 ^ 2 + g2 ^ 2 = -2 * log (sq2 q)
  /-- same direction as the point, with the two components exchanged -/
  parallel : g1 * q.1 = g2 * q.2
  sign1 : 0 ≤ g1 * q.2
  sign2 : 0 ≤ g2 * q.1

/-- Two consecutive calls starting at the beginning of a pair: the first consumes uniforms up to and including the first
    pair inside the unit circle, and the second none. The returned values are the two deviates of that pair times the
    standard deviations of the respective calls. -/
theorem C55_pair (fuel fuel' : ℕ) (u : ℕ → ℝ) (s s1 : Gresid) (d1 d2 : ℝ) (o1 : Option ℝ) (hs : s.first = true)
    (h : gresid fuel u s d1 = some (o1, s1)) :
    ∃ k o2 s2, gresid fuel' u s1 d2 = some (o2, s2) ∧ s1.first = false ∧ s2.first = true ∧
      s1.pos = s.pos + 2 * (k + 1) ∧ s2.pos = s1.pos ∧
      (∀ j < k, 1 ≤ sq2 (pointAt u s.pos j)) ∧ sq2 (pointAt u s.pos k) < 1 ∧
      (pointAt u s.pos k = (0, 0) → o1 = none ∧ o2 = none) ∧
      (1e-20 ≤ sq2 (pointAt u s.pos k) → ∃ g1 g2, IsPair (pointAt u s.pos k) g1 g2 ∧ o1 = some (g1 * d1) ∧
        o2 = some (g2 * d2)) := by
  simp only [gresid, if_pos hs] at h
  cases hl : gresidLoop u fuel s.pos with
  | none => rw [hl] at h; simp at h
  | some t =>
    obtain ⟨x, y, r, q⟩ := t
    obtain ⟨k, -, h2, h3, h4, h5, h6⟩ := loop_some u _ _ _ _ _ _ hl
    have hx : x = (pointAt u s.pos k).1 := by rw [← h2]
    have hy : y = (pointAt u s.pos k).2 := by rw [← h2]
    rw [hl] at h
    simp only at h
    by_cases hr : r = 0
    · rw [if_pos hr] at h
      obtain ⟨rfl, rfl⟩ : none = o1 ∧ (⟨q, false, none⟩ : Gresid) = s1 := by simpa using h
      refine ⟨k, none, ⟨q, true, none⟩, by simp [gresid], rfl, rfl, h4, rfl, h6, by rw [← h3]; exact h5,
        fun _ => ⟨rfl, rfl⟩, fun hb => ?_⟩
      rw [← h3, hr] at hb; norm_num at hb
    · rw [if_neg hr] at h
      set w := Real.sqrt (-2 * Real.log r / max r 1e-20) with hw
      obtain ⟨rfl, rfl⟩ : some (y * w * d1) = o1 ∧ (⟨q, false, some (x * w)⟩ : Gresid) = s1 := by simpa using h
      refine ⟨k, some (x * w * d2), ⟨q, true, some (x * w)⟩, by simp [gresid], rfl, rfl, h4, rfl, h6,
        by rw [← h3]; exact h5, fun h0 => ?_, fun hb => ?_⟩
      · exact absurd (by rw [h3, h0]; simp [sq2]) hr
      · have hmax : max r 1e-20 = r := max_eq_left (by rw [h3]; exact hb)
        have hpos : 0 < r := by rw [h3]; exact lt_of_lt_of_le (by norm_num) hb
        have hlog : Real.log r ≤ 0 := Real.log_nonpos hpos.le h5.le
        have hw2 : w ^ 2 = -2 * Real.log r / r := by
          rw [hw, hmax, Real.sq_sqrt]
          exact div_nonneg (by linarith) hpos.le
        have hw0 : 0 ≤ w := Real.sqrt_nonneg _
        have hr2 : x ^ 2 + y ^ 2 = r := by rw [h3, sq2, ← hx, ← hy]
        refine ⟨y * w, x * w, ⟨?_, ?_, ?_, ?_⟩, rfl, rfl⟩
        · rw [← h3]
          calc (y * w) ^ 2 + (x * w) ^ 2 = (x ^ 2 + y ^ 2) * w ^ 2 := by ring
            _ = -2 * Real.log r := by rw [hr2, hw2]; field_simp
        · rw [← hx, ← hy]; ring
        · rw [← hy]; nlinarith [mul_nonneg hw0 (mul_self_nonneg y)]
        · rw [← hx]; nlinarith [mul_nonneg hw0 (mul_self_nonneg x)]

example : (Gresid.init).first = true := rfl

/-- The floor of 1e-20 is never reached by single-precision uniforms, which make the coordinates multiples of 2^-24: the
    point is then the origin or at least 2^-48 from it in squared distance. -/
theorem C55_floor (u : ℕ → ℝ) (p k : ℕ) (a b : ℤ) (ha : u (p + 2 * k) = a / 2 ^ 25) (hb : u (p + 2 * k + 1) = b / 2 ^ 25) :
    pointAt u p k = (0, 0) ∨ 1e-20 ≤ sq2 (pointAt u p k) := by
  have e1 : 2 * u (p + 2 * k) - 1 = ((a - 2 ^ 24 : ℤ) : ℝ) / 2 ^ 24 := by rw [ha]; push_cast; ring
  have e2 : 2 * u (p + 2 * k + 1) - 1 = ((b - 2 ^ 24 : ℤ) : ℝ) / 2 ^ 24 := by rw [hb]; push_cast; ring
  by_cases h : a - 2 ^ 24 = 0 ∧ b - 2 ^ 24 = 0
  · left
    simp only [pointAt, e1, e2, h.1, h.2]; simp
  · right
    have h1 : 1 ≤ (a - 2 ^ 24) ^ 2 + (b - 2 ^ 24) ^ 2 := by
      by_contra hc
      have s1 := sq_nonneg (a - 2 ^ 24)
      have s2 := sq_nonneg (b - 2 ^ 24)
      exact h ⟨pow_eq_zero_iff (two_ne_zero) |>.mp (by omega), pow_eq_zero_iff (two_ne_zero) |>.mp (by omega)⟩
    have h2 : (1 : ℝ) ≤ ((a - 2 ^ 24 : ℤ) : ℝ) ^ 2 + ((b - 2 ^ 24 : ℤ) : ℝ) ^ 2 := by exact_mod_cast h1
    simp only [sq2, pointAt, e1, e2, div_pow]
    rw [← add_div, le_div_iff₀ (by positivity)]
    refine le_trans ?_ h2
    norm_num

example : (1 / 2 : ℝ) = ((2 ^ 24 : ℤ) : ℝ) / 2 ^ 25 := by norm_num

/-- Histories of every length: after `2 m` calls from the start the outputs are those of `m` consecutive accepted pairs,
    every uniform number being used at most once and in order, and the uniforms are only drawn on the calls of even
    number (counting from zero). `p i` is the position at the start of pair `i` and `k i` its number of rejections. -/
theorem C55_history (fuel : ℕ) (u : ℕ → ℝ) (m : ℕ) (ds : List ℝ) (hlen : ds.length = 2 * m) (s s' : Gresid)
    (hs : s.first = true) (os : List (Option ℝ)) (h : gresidCalls fuel u s ds = some (os, s')) :
    os.length = 2 * m ∧ s'.first = true ∧ ∃ p k : ℕ → ℕ, p 0 = s.pos ∧ p m = s'.pos ∧
      ∀ i < m, p (i + 1) = p i + 2 * (k i + 1) ∧ (∀ j < k i, 1 ≤ sq2 (pointAt u (p i) j)) ∧
        sq2 (pointAt u (p i) (k i)) < 1 ∧
        (pointAt u (p i) (k i) = (0, 0) → os[2 * i]? = some none ∧ os[2 * i + 1]? = some none) ∧
        (1e-20 ≤ sq2 (pointAt u (p i) (k i)) → ∃ g1 g2, IsPair (pointAt u (p i) (k i)) g1 g2 ∧
          os[2 * i]? = some ((ds[2 * i]?).map (g1 * ·)) ∧ os[2 * i + 1]? = some ((ds[2 * i + 1]?).map (g2 * ·))) := by
  induction m generalizing ds s os with
  | zero =>
    obtain rfl : ds = [] := List.length_eq_zero_iff.mp (by simpa using hlen)
    simp only [gresidCalls, Option.some.injEq, Prod.mk.injEq] at h
    obtain ⟨rfl, rfl⟩ := h
    exact ⟨rfl, hs, fun _ => s.pos, fun _ => 0, rfl, rfl, fun i hi => absurd hi (by omega)⟩
  | succ m ih =>
    match ds, hlen with
    | d1 :: d2 :: ds, hlen =>
      simp only [gresidCalls] at h
      cases e1 : gresid fuel u s d1 with
      | none => rw [e1] at h; simp at h
      | some t1 =>
        obtain ⟨o1, s1⟩ := t1
        obtain ⟨k0, o2, s2, e2, -, hs2, hp1, hp2, hrej, hacc, hzero, hpair⟩ :=
          C55_pair fuel fuel u s s1 d1 d2 o1 hs e1
        rw [e1] at h
        simp only [e2] at h
        cases e3 : gresidCalls fuel u s2 ds with
        | none => rw [e3] at h; simp at h
        | some t3 =>
          obtain ⟨os', s3⟩ := t3
          rw [e3] at h
          simp only [Option.some.injEq, Prod.mk.injEq] at h
          obtain ⟨rfl, rfl⟩ := h
          obtain ⟨hl, hf, p, k, p0, pm, hi⟩ := ih ds (by simp only [List.length_cons] at hlen; omega) s2 hs2 os' e3
          refine ⟨by simp [hl]; ring, hf, fun i => match i with | 0 => s.pos | i + 1 => p i,
            fun i => match i with | 0 => k0 | i + 1 => k i, rfl, pm, fun i him => ?_⟩
          cases i with
          | zero =>
            refine ⟨by simp only [p0]; omega, hrej, hacc, ?_, ?_⟩
            · intro hz
              obtain ⟨rfl, rfl⟩ := hzero hz
              simp
            · intro hb
              obtain ⟨g1, g2, hp, rfl, rfl⟩ := hpair hb
              exact ⟨g1, g2, hp, by simp, by simp⟩
          | succ i =>
            obtain ⟨q1, q2, q3, q4, q5⟩ := hi i (by omega)
            refine ⟨q1, q2, q3, ?_, ?_⟩
            · intro hz
              obtain ⟨z1, z2⟩ := q4 hz
              rw [show 2 * (i + 1) = 2 * i + 1 + 1 by ring]
              simpa using ⟨z1, z2⟩
            · intro hb
              obtain ⟨g1, g2, hp, z1, z2⟩ := q5 hb
              refine ⟨g1, g2, hp, ?_, ?_⟩
              · rw [show 2 * (i + 1) = 2 * i + 1 + 1 by ring]; simpa using z1
              · rw [show 2 * (i + 1) = 2 * i + 1 + 1 by ring]; simpa using z2

example : ([1, 2] : List ℝ).length = 2 * 1 := rfl

/-! ## C63 -/

private theorem sqrt10 : (10 : ℝ) ^ (1 / 2 : ℝ) < 3.1623 ∧ (3.1622 : ℝ) < (10 : ℝ) ^ (1 / 2 : ℝ) := by
  rw [← Real.sqrt_eq_rpow]
  constructor
  · rw [Real.sqrt_lt' (by norm_num)]; norm_num
  · rw [Real.lt_sqrt (by norm_num)]; norm_num

/-- The integer seed is odd, has six or seven digits, and depends on the magnitude of the argument only. -/
theorem C63_seed (seed : ℝ) : randomSeed seed % 2 = 1 ∧ 316219 ≤ randomSeed seed ∧ randomSeed seed ≤ 3162301 ∧
    randomSeed (-seed) = randomSeed seed := by
  have ha : (0 : ℝ) < |seed| + 1 := by positivity
  set a := |seed| + 1 with hadef
  set L := Real.logb 10 a with hL
  set n := cround L with hn
  have hnL := abs_le.mp (abs_cround_sub_le L)
  have haL : (10 : ℝ) ^ L = a := Real.rpow_logb (by norm_num) (by norm_num) ha
  have hq : a / (10 : ℝ) ^ (n - 6) = (10 : ℝ) ^ (L - n) * 10 ^ 6 := by
    rw [← haL, ← Real.rpow_intCast, ← Real.rpow_sub (by norm_num), ← Real.rpow_natCast,
      ← Real.rpow_add (by norm_num)]
    congr 1; push_cast; ring
  have up : (10 : ℝ) ^ (L - n) ≤ 10 ^ (1 / 2 : ℝ) := Real.rpow_le_rpow_of_exponent_le (by norm_num) (by
    have := hnL.1; rw [← hn] at this; linarith)
  have lo : (10 : ℝ) ^ (-(1 / 2) : ℝ) ≤ (10 : ℝ) ^ (L - n) := Real.rpow_le_rpow_of_exponent_le (by norm_num) (by
    have := hnL.2; rw [← hn] at this; linarith)
  have inv : (10 : ℝ) ^ (-(1 / 2) : ℝ) = (10 : ℝ) ^ (1 / 2 : ℝ) / 10 := by
    rw [eq_div_iff (by norm_num)]
    nth_rw 2 [show (10 : ℝ) = (10 : ℝ) ^ (1 : ℝ) by simp]
    rw [← Real.rpow_add (by norm_num)]
    norm_num
  have b1 : a / (10 : ℝ) ^ (n - 6) < 3162300 := by rw [hq]; linarith [sqrt10.1]
  have b2 : 316220 < a / (10 : ℝ) ^ (n - 6) := by rw [hq]; rw [inv] at lo; linarith [sqrt10.2]
  have hr := abs_le.mp (abs_cround_sub_le (a / (10 : ℝ) ^ (n - 6)))
  set q := cround (a / (10 : ℝ) ^ (n - 6)) with hqd
  have c1 : q ≤ 3162300 := by
    have : (q : ℝ) < 3162301 := by linarith [hr.2]
    have : q < 3162301 := by exact_mod_cast this
    omega
  have c2 : 316220 ≤ q := by
    have : (316219 : ℝ) < q := by linarith [hr.1]
    have : (316219 : ℤ) < q := by exact_mod_cast this
    omega
  have e : randomSeed seed = if q % 2 = 0 then q + 1 else q := rfl
  refine ⟨?_, ?_, ?_, by simp only [randomSeed, abs_neg]⟩ <;> rw [e] <;> split_ifs <;> omega

/-- The numbers returned by any sequence of calls are the engine's sequence for the first call's seed: later seed
    arguments have no effect. -/
theorem C63_first_seed_only (e : Engine) (x : ℝ) (xs ys : List ℝ) (h : xs.length = ys.length) :
    randomCalls e none (x :: xs) = randomCalls e none (x :: ys) ∧
    ∀ i < (x :: xs).length, (randomCalls e none (x :: xs))[i]? =
      some (e.next ((fun g => (e.next g).2)^[i] (e.seed (randomSeed x)))).1 := by
  have key : ∀ (zs : List ℝ) (g : e.State) (i : ℕ), i < zs.length →
      (randomCalls e (some g) zs)[i]? = some (e.next ((fun g => (e.next g).2)^[i] g)).1 := by
    intro zs
    induction zs with
    | nil => intro g i hi; simp at hi
    | cons z zs ih =>
      intro g i hi
      cases i with
      | zero => simp [randomCalls, random]
      | succ i =>
        simp only [randomCalls, random, List.getElem?_cons_succ, Function.iterate_succ, Function.comp]
        exact ih _ i (by simpa using hi)
  have len : ∀ (zs : List ℝ) s, (randomCalls e s zs).length = zs.length := by
    intro zs
    induction zs with
    | nil => intro s; rfl
    | cons z zs ih => intro s; simp [randomCalls, ih]
  have main : ∀ (zs : List ℝ) (i : ℕ), i < (x :: zs).length → (randomCalls e none (x :: zs))[i]? =
      some (e.next ((fun g => (e.next g).2)^[i] (e.seed (randomSeed x)))).1 := by
    intro zs i hi
    cases i with
    | zero => simp [randomCalls, random]
    | succ i =>
      simp only [randomCalls, random, List.getElem?_cons_succ, Function.iterate_succ, Function.comp]
      exact key zs _ i (by simpa using hi)
  refine ⟨?_, main xs⟩
  refine List.ext_getElem? fun i => ?_
  by_cases hi : i < (x :: xs).length
  · rw [main xs i hi, main ys i (by simpa [h] using hi)]
  · rw [List.getElem?_eq_none (by rw [len]; omega), List.getElem?_eq_none (by rw [len]; simp at hi ⊢; omega)]

example : ([1, 2] : List ℝ).length = ([5, 6] : List ℝ).length := rfl

/-! ## C60 -/

/-- The number's three decimal fields are the version. -/
theorem C60_number (major minor release : ℕ) (h1 : minor < 1000) (h2 : release < 1000) :
    veri major minor release / 1000000 = major ∧ veri major minor release / 1000 % 1000 = minor ∧
    veri major minor release % 1000 = release ∧ (veri major minor release < 2 ^ 31 ↔
      major < 2147 ∨ major = 2147 ∧ (minor < 483 ∨ minor = 483 ∧ release < 648)) := by
  simp only [veri]
  refine ⟨by omega, by omega, by omega, by omega⟩

example : (5 : ℕ) < 1000 ∧ (7 : ℕ) < 1000 := by norm_num

private theorem split_at (c : Char) (a a' b b' : List Char) (ha : c ∉ a) (ha' : c ∉ a') (h : a ++ c :: b = a' ++ c :: b') :
    a = a' ∧ b = b' := by
  induction a generalizing a' with
  | nil =>
    cases a' with
    | nil => simpa using h
    | cons x xs => simp at h; simp [h.1] at ha'
  | cons y ys ih =>
    cases a' with
    | nil => simp at h; simp [h.1] at ha
    | cons x xs =>
      simp only [List.cons_append, List.cons.injEq] at h
      obtain ⟨rfl, h⟩ := h
      simp only [List.mem_cons, not_or] at ha ha'
      obtain ⟨rfl, rfl⟩ := ih xs ha.2 ha'.2 h
      exact ⟨rfl, rfl⟩

private theorem digits_inj {a b : ℕ} (h : Nat.toDigits 10 a = Nat.toDigits 10 b) : a = b := by
  rw [← Nat.ofDigitChars_ten_toDigits (n := a), h, Nat.ofDigitChars_ten_toDigits]

/-- The text determines the version, whatever the sizes of the fields: number and text agree on which versions are the
    same, provided minor and release number are below 1000. -/
theorem C60_text (m n r m' n' r' : ℕ) :
    (vers m n r = vers m' n' r' ↔ (m, n, r) = (m', n', r')) ∧
    (n < 1000 → r < 1000 → n' < 1000 → r' < 1000 →
      (veri m n r = veri m' n' r' ↔ vers m n r = vers m' n' r')) := by
  have nd : ∀ k, '.' ∉ Nat.toDigits 10 k := fun k h => by
    have := Nat.isDigit_of_mem_toDigits (by norm_num) (by norm_num) h
    exact absurd this (by decide)
  have nm : ∀ k, '-' ∉ Nat.toDigits 10 k := fun k h => by
    have := Nat.isDigit_of_mem_toDigits (by norm_num) (by norm_num) h
    exact absurd this (by decide)
  have key : vers m n r = vers m' n' r' ↔ (m, n, r) = (m', n', r') := by
    constructor
    · intro h
      obtain ⟨h1, h2⟩ := split_at '.' _ _ _ _ (nd m) (nd m') h
      obtain ⟨h3, h4⟩ := split_at '-' _ _ _ _ (nm n) (nm n') h2
      rw [digits_inj h1, digits_inj h3, digits_inj h4]
    · intro h
      simp only [Prod.mk.injEq] at h
      obtain ⟨rfl, rfl, rfl⟩ := h
      rfl
  refine ⟨key, fun h1 h2 h3 h4 => ?_⟩
  rw [key]
  simp only [veri, Prod.mk.injEq]
  constructor
  · intro h; refine ⟨by omega, by omega, by omega⟩
  · rintro ⟨rfl, rfl, rfl⟩; rfl

/-- The configured version (src/slalib.h:39-41). -/
theorem C60_current : veri 2 5 7 = 2005007 ∧ vers 2 5 7 = "2.5-7".toList := by
  constructor <;> decide

/-- With a field of 1000 or more the number no longer determines the version. -/
theorem C60_ambiguous : veri 2 5 1000 = veri 2 6 0 ∧ vers 2 5 1000 ≠ vers 2 6 0 := by
  constructor <;> decide

end Sla.Props
