import Verif.Lemmas.SvdFinal
import Mathlib.Tactic.NormNum

/-
`svd`: a run with a zero singular value (the cancellation of `ws[l]`, src/svd.cc:275-294), in exact arithmetic.
-/
namespace Sla
open Finset

/-! ### Householder transformation of a vector with one element -/

section
variable {lo hi : ℕ} {x : ℕ → ℝ}

theorem lone_abs (hl : lo < hi) (h : ∀ k, lo < k → k < hi → x k = 0) : absSum lo hi x = |x lo| := by
  unfold absSum
  rw [sum_eq_single lo]
  · intro k hk hne
    rw [mem_Ico] at hk
    rw [h k (by omega) hk.2, abs_zero]
  · intro hh; rw [mem_Ico] at hh; omega

theorem lone_S (hl : lo < hi) (h : ∀ k, lo < k → k < hi → x k = 0) (h0 : x lo ≠ 0) : houseS lo hi x = 1 := by
  unfold houseS
  rw [lone_abs hl h, sum_eq_single lo]
  · rw [div_mul_div_comm, abs_mul_abs_self]
    exact div_self (mul_ne_zero h0 h0)
  · intro k hk hne
    rw [mem_Ico] at hk
    rw [h k (by omega) hk.2]; simp
  · intro hh; rw [mem_Ico] at hh; omega

theorem lone_pos (hl : lo < hi) (h : ∀ k, lo < k → k < hi → x k = 0) (h0 : 0 < x lo) :
    absSum lo hi x = x lo ∧ houseG lo hi x = -1 ∧ houseH lo hi x = -2 ∧ houseU lo hi x lo = 2 ∧
      ∀ r, lo < r → r < hi → houseU lo hi x r = 0 := by
  have e1 := lone_abs hl h
  rw [abs_of_pos h0] at e1
  have e2 := lone_S hl h h0.ne'
  have e3 : houseG lo hi x = -1 := by
    unfold houseG
    rw [e1, e2, div_self h0.ne', Real.sqrt_one]
    norm_num [csign]
  refine ⟨e1, e3, ?_, ?_, ?_⟩
  · unfold houseH; rw [e1, e2, e3, div_self h0.ne']; norm_num
  · unfold houseU; rw [if_pos rfl, e1, e3, div_self h0.ne']; norm_num
  · intro r h1 h2
    unfold houseU; rw [if_neg (by omega), h r h1 h2, zero_div]

theorem lone_neg (hl : lo < hi) (h : ∀ k, lo < k → k < hi → x k = 0) (h0 : x lo < 0) :
    absSum lo hi x = -x lo ∧ houseG lo hi x = 1 ∧ houseH lo hi x = -2 ∧ houseU lo hi x lo = -2 ∧
      ∀ r, lo < r → r < hi → houseU lo hi x r = 0 := by
  have e1 := lone_abs hl h
  rw [abs_of_neg h0] at e1
  have e2 := lone_S hl h h0.ne
  have e4 : x lo / -x lo = -1 := by rw [div_neg, div_self h0.ne]
  have e3 : houseG lo hi x = 1 := by
    unfold houseG
    rw [e1, e2, e4, Real.sqrt_one]
    norm_num [csign]
  refine ⟨e1, e3, ?_, ?_, ?_⟩
  · unfold houseH; rw [e1, e2, e3, e4]; norm_num
  · unfold houseU; rw [if_pos rfl, e1, e3, e4]; norm_num
  · intro r h1 h2
    unfold houseU; rw [if_neg (by omega), h r h1 h2, zero_div]

end

/-! ### The reduction of the matrix -/

/-- The matrix ((0, 3, 0), (0, 4, 5), (0, 0, 0)). -/
noncomputable def badA : Arr2 := fun r c =>
  if r = 0 ∧ c = 1 then 3 else if r = 1 ∧ c = 1 then 4 else if r = 1 ∧ c = 2 then 5 else 0

theorem step0 (w ws : FMem) : ∃ st, houseStep 3 3 ⟨badA, w, ws, 0, 0, 0⟩ 0 = st ∧ st.w 0 = 0 ∧ st.ws 0 = 0 ∧
    st.g = -1 ∧ st.scale = 3 ∧ st.a 1 1 = -4 ∧ st.a 1 2 = 5 ∧ st.a 2 1 = 0 ∧ st.a 2 2 = 0 := by
  refine ⟨_, rfl, ?_⟩
  have hl : houseLeft 3 3 0 badA = (badA, 0, 0) :=
    houseLeft_zero badA (sum_eq_zero fun k _ => by simp [badA])
  unfold houseStep
  rw [hl]
  simp only
  obtain ⟨e1, e2, e3, e4, e5⟩ := lone_pos (lo := 1) (hi := 3) (x := fun k => badA 0 k) (by norm_num)
    (fun k h1 h2 => by obtain rfl : k = 2 := by omega
                       simp [badA]) (by simp [badA])
  rw [houseRight_eq (by norm_num) _ _ (by rw [e1]; simp [badA])]
  have b : badA 0 1 = 3 := by simp [badA]
  simp only [e1, e2, e3, zero_add]
  have s1 : ∀ r, ∑ k ∈ Ico 1 3, badA r k * houseU 1 3 (fun k => badA 0 k) k = badA r 1 * 2 := by
    intro r
    rw [sum_Ico_succ_top (by norm_num), sum_Ico_succ_top (by norm_num), Ico_self, sum_empty, e4, e5 2 (by norm_num) (by norm_num)]
    ring
  simp only [s1, e4, e5 2 (by norm_num) (by norm_num), b]
  norm_num [badA, FMem.set]

theorem step1 (st : HouseState) (g1 : st.g = -1) (g2 : st.scale = 3) (a11 : st.a 1 1 = -4) (a12 : st.a 1 2 = 5)
    (a21 : st.a 2 1 = 0) (a22 : st.a 2 2 = 0) (w0 : st.w 0 = 0) (ws0 : st.ws 0 = 0) :
    ∃ st', houseStep 3 3 st 1 = st' ∧ st'.w 0 = 0 ∧ st'.w 1 = 4 ∧ st'.ws 0 = 0 ∧ st'.ws 1 = -3 ∧
      st'.g = 1 ∧ st'.scale = 5 ∧ st'.a 2 2 = 0 := by
  refine ⟨_, rfl, ?_⟩
  obtain ⟨e1, e2, e3, e4, e5⟩ := lone_neg (lo := 1) (hi := 3) (x := fun k => st.a k 1) (by norm_num)
    (fun k h1 h2 => by obtain rfl : k = 2 := by omega
                       exact a21) (by rw [a11]; norm_num)
  have hl := houseLeft_eq (m := 3) (n := 3) (i := 1) (by norm_num) (by norm_num) st.a (by rw [e1, a11]; norm_num)
  have s1 : ∑ k ∈ Ico 1 3, houseU 1 3 (fun k => st.a k 1) k * st.a k 2 = -10 := by
    rw [sum_Ico_succ_top (by norm_num), sum_Ico_succ_top (by norm_num), Ico_self, sum_empty, e4, e5 2 (by norm_num) (by norm_num), a12]
    ring
  obtain ⟨b, hb⟩ : ∃ b, (houseLeft 3 3 1 st.a).1 = b := ⟨_, rfl⟩
  have b12 : b 1 2 = -5 := by rw [← hb, hl]; simp [s1, e3, e4, a12]; norm_num
  have b22 : b 2 2 = 0 := by rw [← hb, hl]; simp [s1, e3, e5 2, a22]
  unfold houseStep
  simp only [hb]
  obtain ⟨f1, f2, f3, f4, f5⟩ := lone_neg (lo := 2) (hi := 3) (x := fun k => b 1 k) (by norm_num)
    (fun k h1 h2 => by omega) (by rw [b12]; norm_num)
  rw [houseRight_eq (by norm_num) _ _ (by rw [f1, b12]; norm_num)]
  rw [hl]
  have s2 : ∑ k ∈ Ico 2 3, b 2 k * houseU 2 3 (fun k => b 1 k) k = 0 := by
    rw [sum_Ico_succ_top (by norm_num), Ico_self, sum_empty, b22]; ring
  norm_num [FMem.set, e1, e2, f1, f2, a11, b12, b22, w0, ws0, g1, g2, s2]

theorem step2 (st : HouseState) (g1 : st.g = 1) (g2 : st.scale = 5) (a22 : st.a 2 2 = 0) (w0 : st.w 0 = 0) (w1 : st.w 1 = 4)
    (ws0 : st.ws 0 = 0) (ws1 : st.ws 1 = -3) :
    ∃ st', houseStep 3 3 st 2 = st' ∧ st'.w 0 = 0 ∧ st'.w 1 = 4 ∧ st'.w 2 = 0 ∧ st'.ws 0 = 0 ∧ st'.ws 1 = -3 ∧ st'.ws 2 = 5 := by
  refine ⟨_, rfl, ?_⟩
  have hl : houseLeft 3 3 2 st.a = (st.a, 0, 0) := houseLeft_zero st.a (by simp [absSum, a22])
  unfold houseStep
  rw [hl]
  simp only
  rw [houseRight_zero _ _ (by simp [absSum])]
  norm_num [FMem.set, w0, w1, ws0, ws1, g1, g2]

theorem badA_house (w ws : FMem) : ∃ F, house 3 3 badA w ws = F ∧ F.w 0 = 0 ∧ F.w 1 = 4 ∧ F.w 2 = 0 ∧ F.ws 0 = 0 ∧ F.ws 1 = -3 ∧
    F.ws 2 = 5 := by
  obtain ⟨s0, h0, p1, p2, p3, p4, p5, p6, p7, p8⟩ := step0 w ws
  obtain ⟨s1, h1, q1, q2, q3, q4, q5, q6, q7⟩ := step1 s0 p3 p4 p5 p6 p7 p8 p1 p2
  obtain ⟨s2, h2, r⟩ := step2 s1 q5 q6 q7 q1 q2 q3 q4
  refine ⟨s2, ?_, r⟩
  rw [← h2, ← h1, ← h0]
  rfl

/-! ### The QR iterations -/

theorem neglExact_iff {an x : ℝ} : neglExact an x = true ↔ x = 0 := by
  simp [neglExact]

/-- A QR transformation of a 2 x 2 block. -/
theorem sweep_two {m n l : ℕ} {st st' : SvdState} (e : svdSweep m n l (l + 1) st = some st') :
    (∀ j, j ≠ l → j ≠ l + 1 → st'.w j = st.w j ∧ st'.ws j = st.ws j) ∧ st'.ws l = 0 ∧ st'.status = st.status ∧
    st'.w l ^ 2 + st'.w (l + 1) ^ 2 + st'.ws (l + 1) ^ 2 = st.w l ^ 2 + st.w (l + 1) ^ 2 + st.ws (l + 1) ^ 2 ∧
    st'.w l * st'.w (l + 1) = st.w l * st.w (l + 1) ∧
    ∃ f z, svdShift st.w st.ws l (l + 1) = some f ∧ z ^ 2 = f ^ 2 + st.ws (l + 1) ^ 2 ∧
      z ^ 2 * (st'.w l * st'.ws (l + 1)) = (st.w l * f + st.ws (l + 1) * st.ws (l + 1)) *
        (-st.w l * st.ws (l + 1) + st.ws (l + 1) * f) + st.w (l + 1) * st.ws (l + 1) * (st.w (l + 1) * f) := by
  unfold svdSweep at e
  obtain ⟨f, hf, rfl⟩ := Option.map_eq_some_iff.1 e
  rw [forRange_succ le_rfl, forRange_self le_rfl]
  obtain ⟨c, s, c', s', u, u', -, -, -, -, z1, z2, ews, ew, f1, f2, f3, f4, f5, f6⟩ := sweepStep_facts m n
    { a := st.a, v := st.v, w := st.w, ws := st.ws, f := f, x := st.w l, c := 1, s := 1 } l
  set t := sweepStep m n { a := st.a, v := st.v, w := st.w, ws := st.ws, f := f, x := st.w l, c := 1, s := 1 } l
  simp only [one_mul] at f1 f2 f3 f4 f5 f6 ews ew
  simp only
  refine ⟨?_, ?_, trivial, ?_, ?_, f, z1, hf, ?_, ?_⟩
  · intro j h1 h2
    simp only [FMem.set, ew, ews]
    rw [if_neg h2, if_neg h1, if_neg h2, if_neg h1, if_neg h1]
    exact ⟨rfl, rfl⟩
  · simp [FMem.set]
  · have : ((FMem.set t.w (l + 1) t.x) l) = z2 := by simp [FMem.set, ew]
    rw [this]
    have : ((FMem.set t.w (l + 1) t.x) (l + 1)) = t.x := by simp [FMem.set]
    rw [this]
    have : ((FMem.set (FMem.set t.ws l 0) (l + 1) t.f) (l + 1)) = t.f := by simp [FMem.set]
    rw [this, f5, f6]
    have h2 : z2 ^ 2 = (st.w l * c + st.ws (l + 1) * s) ^ 2 + (st.w (l + 1) * s) ^ 2 := by
      rw [f3, f4]; linear_combination (-(z2 ^ 2)) * u'
    rw [h2]
    linear_combination (((-st.w l * s + st.ws (l + 1) * c) ^ 2 + (st.w (l + 1) * c) ^ 2)) * u' +
      (st.w l ^ 2 + st.w (l + 1) ^ 2 + st.ws (l + 1) ^ 2) * u
  · have : ((FMem.set t.w (l + 1) t.x) l) = z2 := by simp [FMem.set, ew]
    rw [this]
    have : ((FMem.set t.w (l + 1) t.x) (l + 1)) = t.x := by simp [FMem.set]
    rw [this, f6]
    have h3 : z2 * (-s' * (-st.w l * s + st.ws (l + 1) * c) + c' * (st.w (l + 1) * c)) =
        -(st.w (l + 1) * s) * (-st.w l * s + st.ws (l + 1) * c) + (st.w l * c + st.ws (l + 1) * s) * (st.w (l + 1) * c) := by
      rw [f3, f4]; ring
    rw [h3]
    linear_combination (st.w l * st.w (l + 1)) * u
  · rw [← f1, ← f2]; linear_combination (-(z1 ^ 2)) * u
  · have : ((FMem.set t.w (l + 1) t.x) l) = z2 := by simp [FMem.set, ew]
    rw [this]
    have : ((FMem.set (FMem.set t.ws l 0) (l + 1) t.f) (l + 1)) = t.f := by simp [FMem.set]
    rw [this, f5]
    have h3 : z2 * (c' * (-st.w l * s + st.ws (l + 1) * c) + s' * (st.w (l + 1) * c)) =
        (st.w l * c + st.ws (l + 1) * s) * (-st.w l * s + st.ws (l + 1) * c) + st.w (l + 1) * s * (st.w (l + 1) * c) := by
      rw [f3, f4]; ring
    rw [h3]
    calc z1 ^ 2 * ((st.w l * c + st.ws (l + 1) * s) * (-st.w l * s + st.ws (l + 1) * c) + st.w (l + 1) * s * (st.w (l + 1) * c))
        = (st.w l * (z1 * c) + st.ws (l + 1) * (z1 * s)) * (-st.w l * (z1 * s) + st.ws (l + 1) * (z1 * c)) +
          st.w (l + 1) * (z1 * s) * (st.w (l + 1) * (z1 * c)) := by ring
      _ = _ := by rw [f1, f2]

/-- The shift of an isolated 2 x 2 block is exact: the next superdiagonal element vanishes. -/
theorem sweep_two_exact {m n l : ℕ} {st st' : SvdState} (e : svdSweep m n l (l + 1) st = some st') (h0 : st.ws l = 0)
    (h1 : st.ws (l + 1) ≠ 0) (h2 : st.w l ≠ 0)
    (h3 : |st.w l ^ 2 - st.w (l + 1) ^ 2 - st.ws (l + 1) ^ 2| ≤ 1.0e15 * |2 * st.ws (l + 1) * st.w l|) :
    st'.w l * st'.ws (l + 1) = 0 := by
  obtain ⟨-, -, -, -, -, f, z, hf, hz, hp⟩ := sweep_two e
  have hz0 : z ^ 2 ≠ 0 := by
    rw [hz]
    have := pow_pos (abs_pos.2 h1) 2
    rw [sq_abs] at this
    nlinarith [sq_nonneg f]
  suffices h : z ^ 2 * (st'.w l * st'.ws (l + 1)) = 0 from (mul_eq_zero.1 h).resolve_left hz0
  rw [hp]
  unfold svdShift at hf
  simp only [Nat.add_sub_cancel, h0] at hf
  rw [if_neg (by simp [h1, h2])] at hf
  generalize hx : st.w l = x at *
  generalize hy : st.w (l + 1) = y at *
  generalize hh : st.ws (l + 1) = h at *
  set q := ((x - y) * (x + y) + (0 - h) * (0 + h)) / (2 * h * x) with hq
  have hq1 : q * (2 * h * x) = x ^ 2 - y ^ 2 - h ^ 2 := by
    rw [hq, div_mul_cancel₀ _ (by simp [h1, h2])]; ring
  have hq2 : |q| ≤ 1.0e15 := by
    have hpos : 0 < |2 * h * x| := abs_pos.2 (by simp [h1, h2])
    rw [← hq1, abs_mul] at h3
    exact le_of_mul_le_mul_right h3 hpos
  rw [if_neg (not_lt.2 hq2)] at hf
  have hs : Real.sqrt (q * q + 1) ^ 2 = q * q + 1 := Real.sq_sqrt (by nlinarith [mul_self_nonneg q])
  have hsp : 0 < Real.sqrt (q * q + 1) := Real.sqrt_pos.2 (by nlinarith [mul_self_nonneg q])
  have ht : (csign (Real.sqrt (q * q + 1)) q) ^ 2 = q * q + 1 := by
    unfold csign
    split_ifs
    · rw [sq_abs, hs]
    · rw [neg_sq, sq_abs, hs]
  have hne := csign_add_ne (f := q) hsp
  rw [if_neg hne] at hf
  have hf' := Option.some.inj hf
  set t := q + csign (Real.sqrt (q * q + 1)) q with htdef
  have ht2 : t ^ 2 = 2 * q * t + 1 := by
    have : csign (Real.sqrt (q * q + 1)) q = t - q := by rw [htdef]; ring
    rw [this] at ht
    linear_combination ht
  have hft : f = h * t := by
    rw [← hf', div_eq_iff h2]
    have : x / t = x * (t - 2 * q) := by
      rw [div_eq_iff hne]; linear_combination (-x) * ht2
    rw [this]
    linear_combination -hq1
  rw [hft]
  linear_combination (x * h * h * h) * ht2 + (t * h ^ 2) * hq1

/-- Convergence at once. -/
theorem svdIterate_conv {negl : ℝ → Bool} {m n k : ℕ} (r : ℕ) {st : SvdState} (h : negl (st.ws k) = true) :
    svdIterate negl m n k (r + 1) st = some (svdFlip n k st) := by
  have : svdSplit negl st.w st.ws k = some (k, false) := by
    cases k with
    | zero => rw [svdSplit, if_pos h]
    | succ k => rw [svdSplit, if_pos h]
  rw [svdIterate, this]
  simp

theorem svdFlip_facts (n k : ℕ) (st : SvdState) : (∀ j, (svdFlip n k st).w j ^ 2 = st.w j ^ 2) ∧
    (svdFlip n k st).ws = st.ws ∧ (svdFlip n k st).status = st.status := by
  unfold svdFlip
  split_ifs
  · refine ⟨fun j => ?_, rfl, rfl⟩
    simp only [FMem.set]
    by_cases h : j = k
    · subst h; simp
    · rw [if_neg h]
  · exact ⟨fun _ => rfl, rfl, rfl⟩

/-- The first iteration for `k = 2`: cancellation and a QR transformation. -/
theorem bad_iter1 (an : ℝ) (r : ℕ) (hr : 0 < r) (st : SvdState) (w0 : st.w 0 = 0) (w1 : st.w 1 = 4) (w2 : st.w 2 = 0)
    (ws1 : st.ws 1 = -3) (ws2 : st.ws 2 = 5) : ∃ st', svdIterate (neglExact an) 3 3 2 (r + 1) st =
      svdIterate (neglExact an) 3 3 2 r st' ∧ st'.status = st.status ∧ st'.w 0 = 0 ∧ st'.ws 0 = st.ws 0 ∧ st'.ws 1 = 0 ∧
      st'.w 1 ^ 2 + st'.w 2 ^ 2 + st'.ws 2 ^ 2 = 59 ∧ st'.w 1 * st'.w 2 = 15 ∧ st'.w 1 * st'.ws 2 = -5625 / 881 := by
  have hsplit : svdSplit (neglExact an) st.w st.ws 2 = some (1, true) := by
    rw [svdSplit, if_neg (by rw [neglExact_iff, ws2]; norm_num), if_neg (by rw [neglExact_iff, w1]; norm_num),
      svdSplit, if_neg (by rw [neglExact_iff, ws1]; norm_num), if_pos (by rw [neglExact_iff, w0])]
  -- the cancellation
  obtain ⟨cs, hcs, c0, c1, c2⟩ : ∃ cs, svdCancel (neglExact an) 3 1 2 st.a st.w st.ws = cs ∧ cs.w 0 = 0 ∧ cs.w 1 = 5 ∧
      cs.w 2 = 3 := by
    refine ⟨_, rfl, ?_⟩
    unfold svdCancel
    rw [forRange_succ (by norm_num), forRange_succ le_rfl, forRange_self le_rfl]
    have q25 : Real.sqrt (-3 * -3 + 4 * 4) = 5 := by
      rw [show (-3 * -3 + 4 * 4 : ℝ) = 5 ^ 2 by norm_num]; exact Real.sqrt_sq (by norm_num)
    have q9 : Real.sqrt (3 * 3 + 0 * 0) = 3 := by
      rw [show (3 * 3 + 0 * 0 : ℝ) = 3 ^ 2 by norm_num]; exact Real.sqrt_sq (by norm_num)
    have e1 : cancelStep (neglExact an) 3 (1 - 1) st.ws ⟨st.a, st.w, 1, false⟩ 1 =
        ⟨rotCols 3 0 1 (4 / 5) (3 / 5) st.a, FMem.set st.w 1 5, 3 / 5, false⟩ := by
      unfold cancelStep
      rw [if_neg (by simp)]
      simp only [one_mul, ws1, w1]
      rw [if_neg (by rw [neglExact_iff]; norm_num), q25]
      norm_num
    rw [e1]
    have e2 : cancelStep (neglExact an) 3 (1 - 1) st.ws ⟨rotCols 3 0 1 (4 / 5) (3 / 5) st.a, FMem.set st.w 1 5, 3 / 5, false⟩ 2 =
        ⟨rotCols 3 0 2 0 (-1) (rotCols 3 0 1 (4 / 5) (3 / 5) st.a), FMem.set (FMem.set st.w 1 5) 2 3, -1, false⟩ := by
      unfold cancelStep
      rw [if_neg (by simp)]
      have g : FMem.set st.w 1 5 2 = 0 := by simp [FMem.set, w2]
      simp only [ws2, g]
      rw [show (3 / 5 * 5 : ℝ) = 3 by norm_num, if_neg (by rw [neglExact_iff]; norm_num), q9]
      norm_num
    rw [e2]
    simp [FMem.set, w0]
  -- the QR transformation
  have hshift : svdShift cs.w st.ws 1 2 = some (16 / 5) := by
    unfold svdShift
    norm_num [c1, c2, ws1, ws2, csign]
  obtain ⟨st', hst'⟩ : ∃ st', svdSweep 3 3 1 2 { st with a := cs.a, w := cs.w } = some st' := by
    unfold svdSweep
    simp only [hshift]
    exact ⟨_, rfl⟩
  obtain ⟨t1, t2, t3, t4, t5, f, z, t6, t7, t8⟩ := sweep_two (l := 1) hst'
  refine ⟨st', ?_, t3, ?_, (t1 0 (by norm_num) (by norm_num)).2, t2, ?_, ?_, ?_⟩
  · rw [svdIterate, hsplit]
    simp only [if_true, hcs]
    rw [if_neg (by norm_num), if_neg (by omega), hst']
    rfl
  · rw [(t1 0 (by norm_num) (by norm_num)).1]; exact c0
  · norm_num [c1, c2, ws2] at t4 ⊢; linarith
  · norm_num [c1, c2] at t5 ⊢; linarith
  · simp only at t6 t7 t8
    norm_num at t6 t7 t8
    rw [hshift] at t6
    have t6' := Option.some.inj t6
    rw [← t6', c1, c2, ws2] at t8
    rw [← t6', ws2] at t7
    rw [t7] at t8
    linarith

/-- The second iteration: the block is diagonal. -/
theorem bad_iter2 (an : ℝ) (r : ℕ) (hr : 0 < r) (st : SvdState) (h1 : st.ws 1 = 0)
    (h2 : st.w 1 ^ 2 + st.w 2 ^ 2 + st.ws 2 ^ 2 = 59) (h3 : st.w 1 * st.w 2 = 15) (h4 : st.w 1 * st.ws 2 = -5625 / 881) :
    ∃ st', svdIterate (neglExact an) 3 3 2 (r + 1) st = svdIterate (neglExact an) 3 3 2 r st' ∧ st'.status = st.status ∧
      st'.w 0 = st.w 0 ∧ st'.ws 0 = st.ws 0 ∧ st'.ws 1 = 0 ∧ st'.ws 2 = 0 ∧ st'.w 1 ^ 2 + st'.w 2 ^ 2 = 59 := by
  have w1 : st.w 1 ≠ 0 := fun e => by rw [e, zero_mul] at h3; norm_num at h3
  have ws2 : st.ws 2 ≠ 0 := fun e => by rw [e, mul_zero] at h4; norm_num at h4
  have hsplit : svdSplit (neglExact an) st.w st.ws 2 = some (1, false) := by
    rw [svdSplit, if_neg (by rw [neglExact_iff]; exact ws2), if_neg (by rw [neglExact_iff]; exact w1),
      svdSplit, if_pos (by rw [neglExact_iff, h1])]
  obtain ⟨f, hf⟩ := svdShift_some (w := st.w) (ws := st.ws) (l := 1) (k := 2) ws2 w1 w1
  obtain ⟨st', hst'⟩ : ∃ st', svdSweep 3 3 1 2 st = some st' := by
    unfold svdSweep; rw [hf]; exact ⟨_, rfl⟩
  obtain ⟨t1, t2, t3, t4, t5, -⟩ := sweep_two (l := 1) hst'
  have t6 := sweep_two_exact (l := 1) hst' h1 ws2 w1 (by
    show |st.w 1 ^ 2 - st.w 2 ^ 2 - st.ws 2 ^ 2| ≤ 1.0e15 * |2 * st.ws 2 * st.w 1|
    have e1 : 2 * st.ws 2 * st.w 1 = -11250 / 881 := by linarith
    rw [e1]
    have e2 : |st.w 1 ^ 2 - st.w 2 ^ 2 - st.ws 2 ^ 2| ≤ 59 := by
      rw [abs_le]; constructor <;> nlinarith [sq_nonneg (st.w 1), sq_nonneg (st.w 2), sq_nonneg (st.ws 2)]
    refine e2.trans ?_
    rw [abs_of_neg (by norm_num)]; norm_num)
  simp only [Nat.reduceAdd] at t1 t2 t3 t4 t5 t6
  have w1' : st'.w 1 ≠ 0 := fun e => by rw [e, zero_mul, h3] at t5; norm_num at t5
  have ws2' : st'.ws 2 = 0 := (mul_eq_zero.1 t6).resolve_left w1'
  refine ⟨st', ?_, t3, (t1 0 (by norm_num) (by norm_num)).1, (t1 0 (by norm_num) (by norm_num)).2, t2, ws2', ?_⟩
  · rw [svdIterate, hsplit]
    simp only [Bool.false_eq_true, if_false]
    rw [if_neg (by norm_num), if_neg (by omega), hst']
    rfl
  · rw [ws2', h2] at t4; linarith

/-- The whole run. -/
theorem bad_run (v : Arr2) (w ws : FMem) : ∃ st, svd neglExact 3 3 badA v w ws = some st ∧ st.status = 0 ∧
    st.w 0 ^ 2 + st.w 1 ^ 2 + st.w 2 ^ 2 = 59 := by
  rw [svd_eq neglExact le_rfl]
  obtain ⟨F, hF, w0, w1, w2, ws0, ws1, ws2⟩ := badA_house w ws
  subst hF
  set an := (house 3 3 badA w ws).an
  set st0 := reduced 3 3 badA v w ws with hst0
  have hs0 : st0.status = 0 := rfl
  obtain ⟨st1, i1, a1, a2, a3, a4, a5, a6, a7⟩ := bad_iter1 an 29 (by norm_num) st0 w0 w1 w2 ws1 ws2
  obtain ⟨st2, i2, b1, b2, b3, b4, b5, b6⟩ := bad_iter2 an 28 (by norm_num) st1 a4 a5 a6 a7
  have i3 := svdIterate_conv (m := 3) (n := 3) (k := 2) (negl := neglExact an) 27 (st := st2) (by rw [neglExact_iff, b5])
  obtain ⟨c1, c2, c3⟩ := svdFlip_facts 3 2 st2
  have i4 := svdIterate_conv (m := 3) (n := 3) (k := 1) (negl := neglExact an) 29 (st := svdFlip 3 2 st2)
    (by rw [neglExact_iff, c2, b4])
  obtain ⟨d1, d2, d3⟩ := svdFlip_facts 3 1 (svdFlip 3 2 st2)
  have i5 := svdIterate_conv (m := 3) (n := 3) (k := 0) (negl := neglExact an) 29 (st := svdFlip 3 1 (svdFlip 3 2 st2))
    (by rw [neglExact_iff, d2, c2, b3, a3]; exact ws0)
  obtain ⟨e1, e2, e3⟩ := svdFlip_facts 3 0 (svdFlip 3 1 (svdFlip 3 2 st2))
  refine ⟨svdFlip 3 0 (svdFlip 3 1 (svdFlip 3 2 st2)), ?_, ?_, ?_⟩
  · unfold svdDiagonalise
    rw [forDown_succ, forDown_succ, forDown_succ]
    simp only [Option.bind_some]
    rw [i1, i2, i3]
    simp only [Option.bind_some]
    rw [i4]
    simp only [Option.bind_some]
    rw [i5]
    rfl
  · rw [e3, d3, c3, b1, a1, hs0]
  · simp only [e1, d1, c1]
    rw [b2, a2]; linarith

end Sla
