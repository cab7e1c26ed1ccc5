import Verif.Lemmas.SvdFinal
import Verif.Lemmas.SvdWitness

/-
`svd` with two columns: the shift is the eigenvalue itself, so that one QR transformation is enough.
-/
namespace Sla
open Finset

/-- The bound of the negligibility test is not below the elements of the bidiagonal form. -/
theorem house_an_ge {m n : ℕ} (hnm : n ≤ m) (a : Arr2) (w ws : FMem) :
    ∀ i < n, |(house m n a w ws).w i| + |(house m n a w ws).ws i| ≤ (house m n a w ws).an := by
  refine forRange_ind (Nat.zero_le n) (houseStep m n) { a := a, w := w, ws := ws, g := 0, scale := 0, an := 0 }
    (fun k st => ∀ i < k, |st.w i| + |st.ws i| ≤ st.an) (fun i hi => absurd hi (by omega)) ?_
  intro k st _ hk g i hi
  obtain ⟨-, -, -, -, -, -, h7, h8, -⟩ := houseStep_spec (m := m) (by omega) hk st
  have e : (houseStep m n st k).an = max st.an (|(houseStep m n st k).w k| + |(houseStep m n st k).ws k|) := rfl
  rw [e]
  rcases Nat.lt_or_ge i k with h | h
  · rw [h7 i (by omega), h8 i h]; exact le_max_of_le_left (g i h)
  · obtain rfl : i = k := by omega
    exact le_max_right _ _

/-- After one QR transformation of an isolated 2 x 2 block, the product of the first diagonal element and the superdiagonal one
    is next to nothing, even if the square root in the shift is replaced by the absolute value. -/
theorem sweep_two_small {m n l : ℕ} {st st' : SvdState} (e : svdSweep m n l (l + 1) st = some st') (h0 : st.ws l = 0)
    (h1 : st.ws (l + 1) ≠ 0) (h2 : st.w l ≠ 0) :
    |st'.w l * st'.ws (l + 1)| ≤ 1e-60 * |st.w l * st.ws (l + 1)| := by
  by_cases h3 : |st.w l ^ 2 - st.w (l + 1) ^ 2 - st.ws (l + 1) ^ 2| ≤ 1.0e15 * |2 * st.ws (l + 1) * st.w l|
  · rw [sweep_two_exact e h0 h1 h2 h3, abs_zero]
    positivity
  rw [not_le] at h3
  obtain ⟨-, -, -, -, -, f, z, hf, hz, hp⟩ := sweep_two e
  unfold svdShift at hf
  simp only [Nat.add_sub_cancel, h0] at hf
  rw [if_neg (by simp [h1, h2])] at hf
  generalize st'.w l * st'.ws (l + 1) = P at *
  generalize hx : st.w l = x at *
  generalize hy : st.w (l + 1) = y at *
  generalize hh : st.ws (l + 1) = h at *
  set q := ((x - y) * (x + y) + (0 - h) * (0 + h)) / (2 * h * x) with hq
  have hq1 : q * (2 * h * x) = x ^ 2 - y ^ 2 - h ^ 2 := by
    rw [hq, div_mul_cancel₀ _ (by simp [h1, h2])]; ring
  have hq2 : 1.0e15 < |q| := by
    have hpos : 0 < |2 * h * x| := abs_pos.2 (by simp [h1, h2])
    rw [← hq1, abs_mul q] at h3
    exact lt_of_mul_lt_mul_right h3 hpos.le
  rw [if_pos hq2] at hf
  have hq0 : q ≠ 0 := by
    intro e; rw [e, abs_zero] at hq2; norm_num at hq2
  have hcs : csign |q| q = q := by
    unfold csign
    split_ifs with hs
    · rw [abs_abs, abs_of_nonneg hs]
    · rw [abs_abs, abs_of_neg (not_le.1 hs)]; ring
  rw [hcs, if_neg (by rw [← two_mul]; simpa using hq0)] at hf
  have hf' := Option.some.inj hf
  have hft : f = h * (2 * q + 1 / (2 * q)) := by
    rw [← hf', div_eq_iff h2]
    have e1 : x / (q + q) = x * (1 / (2 * q)) := by rw [← two_mul]; ring
    rw [e1]
    linear_combination -hq1
  obtain ⟨t, ht⟩ : ∃ t, t = 1 / (2 * q) := ⟨_, rfl⟩
  have htq : 2 * q * t = 1 := by rw [ht]; field_simp
  rw [← ht] at hft
  -- the product
  have hP : (h * h) * (((2 * q + t) ^ 2 + 1) * P) = (h * h) * (x * h * t ^ 2) := by
    have e1 : (h * h) * (((2 * q + t) ^ 2 + 1) * P) = z ^ 2 * P := by rw [hz, hft]; ring
    rw [e1, hp, hft]
    linear_combination (h ^ 2 * (2 * q + t)) * hq1 + (x * h ^ 3) * htq
  have hP2 : ((2 * q + t) ^ 2 + 1) * P = x * h * t ^ 2 := mul_left_cancel₀ (mul_ne_zero h1 h1) hP
  have b1 : (1e30 : ℝ) ≤ q ^ 2 := by
    rw [← sq_abs]
    have := pow_le_pow_left₀ (by norm_num : (0:ℝ) ≤ 1.0e15) hq2.le 2
    norm_num at this ⊢; exact this
  have b2 : 4 * q ^ 2 * t ^ 2 = 1 := by
    have : (2 * q * t) ^ 2 = 1 := by rw [htq]; norm_num
    linarith
  have b3 : t ^ 2 ≤ 1e-30 := by
    nlinarith [sq_nonneg t]
  have b4 : (1e30 : ℝ) ≤ (2 * q + t) ^ 2 + 1 := by
    nlinarith [sq_nonneg t]
  have b5 : ((2 * q + t) ^ 2 + 1) * |P| = |x * h| * t ^ 2 := by
    rw [← abs_of_nonneg (show (0:ℝ) ≤ (2 * q + t) ^ 2 + 1 by positivity), ← abs_mul, hP2, abs_mul, abs_of_nonneg (sq_nonneg t)]
  have b6 : 1e30 * |P| ≤ |x * h| * 1e-30 := by
    calc 1e30 * |P| ≤ ((2 * q + t) ^ 2 + 1) * |P| := mul_le_mul_of_nonneg_right b4 (abs_nonneg _)
      _ = |x * h| * t ^ 2 := b5
      _ ≤ |x * h| * 1e-30 := mul_le_mul_of_nonneg_left b3 (abs_nonneg _)
  norm_num at b6 ⊢
  linarith

/-- Cancellation of the last superdiagonal element. -/
theorem cancel_two {negl : ℝ → Bool} {m n : ℕ} (hn : negl 0 = true) {A : Arr2} {e δ : ℝ} (hδ : ∀ x, negl x = true → |x| ≤ δ)
    {st : SvdState} (hok : SvdOk m 2 st) (hn2 : n = 2) (h1 : negl (st.w 0) = true) (h2 : negl (st.ws 1) = false) (hN : Near m n A 1 e st) :
    Near m n A 0 (e + 2 * δ) { st with a := (svdCancel negl m 1 1 st.a st.w st.ws).a, w := (svdCancel negl m 1 1 st.a st.w st.ws).w } := by
  subst hn2
  have hok' := svdCancel_spec hn (n := 2) (l := 1) (k := 1) (by norm_num) le_rfl (by norm_num) hok.left st.w st.ws
  have hs : svdCancel negl m 1 1 st.a st.w st.ws = cancelStep negl m 0 st.ws { a := st.a, w := st.w, s := 1, stop := false } 1 := by
    unfold svdCancel
    rw [forRange_succ le_rfl, forRange_self le_rfl]
  have hh : st.ws 1 ≠ 0 := fun e => by rw [e, hn] at h2; cases h2
  rw [hs] at hok' ⊢
  unfold cancelStep at hok' ⊢
  simp only [one_mul, h2, Bool.false_eq_true, if_false] at hok' ⊢
  have hw0 := hδ _ h1
  intro y x
  have k1 := hN y x
  have a1 := hok.left.dotCol_le y (show 0 < 2 by norm_num)
  have a2 := hok'.1.dotCol_le y (show 0 < 2 by norm_num)
  have a3 := hok.right.dotCol_le x (show 0 < 2 by norm_num)
  simp only
  rw [dotCol_rot _ _ _ (by norm_num)] at a2 ⊢
  have p0 := nrm_nonneg m y
  have p1 := nrm_nonneg 2 x
  generalize dotCol m y st.a = α at *
  generalize dotCol 2 x st.v = β at *
  generalize nrm m y = Y at *
  generalize nrm 2 x = X at *
  have hpos : 0 < st.ws 1 * st.ws 1 + st.w 1 * st.w 1 := by
    have := mul_self_pos.2 hh
    nlinarith [mul_self_nonneg (st.w 1)]
  have hz : Real.sqrt (st.ws 1 * st.ws 1 + st.w 1 * st.w 1) ≠ 0 := (Real.sqrt_pos.2 hpos).ne'
  generalize Real.sqrt (st.ws 1 * st.ws 1 + st.w 1 * st.w 1) = H at *
  have hδ0 : 0 ≤ δ := le_trans (abs_nonneg _) hw0
  have e1 : |st.w 0 * α 0 * β 0| ≤ δ * (Y * X) := by
    rw [abs_mul, abs_mul, mul_assoc]
    exact mul_le_mul hw0 (mul_le_mul a1 a3 (abs_nonneg _) p0) (mul_nonneg (abs_nonneg _) (abs_nonneg _)) hδ0
  have e2 : |st.w 0 * rotSeq 0 1 (st.w 1 / H) (-st.ws 1 / H) α 0 * β 0| ≤ δ * (Y * X) := by
    rw [abs_mul, abs_mul, mul_assoc]
    exact mul_le_mul hw0 (mul_le_mul a2 a3 (abs_nonneg _) p0) (mul_nonneg (abs_nonneg _) (abs_nonneg _)) hδ0
  have f1 : form 2 1 st.w st.ws α β = st.w 0 * α 0 * β 0 + st.w 1 * α 1 * β 1 + st.ws 1 * α 0 * β 1 := by
    simp [form, sum_range_succ]
  have f2 : form 2 0 (FMem.set st.w 1 H) st.ws (rotSeq 0 1 (st.w 1 / H) (-st.ws 1 / H) α) β =
      st.w 0 * rotSeq 0 1 (st.w 1 / H) (-st.ws 1 / H) α 0 * β 0 + (st.w 1 * α 1 * β 1 + st.ws 1 * α 0 * β 1) := by
    have : rotSeq 0 1 (st.w 1 / H) (-st.ws 1 / H) α 1 = (st.ws 1 * α 0 + st.w 1 * α 1) / H := by
      simp [rotSeq]; ring
    simp only [form, sum_range_succ, range_zero, sum_empty, zero_add, add_zero, FMem.set]
    rw [this]
    simp only [zero_ne_one, if_false, if_true]
    field_simp
    ring
  rw [f1] at k1
  rw [f2]
  have t := abs_sub_abs_le_abs_sub (st.w 0 * α 0 * β 0) 0
  rw [abs_le] at *
  constructor <;> nlinarith

/-- The iterations for the last of two singular values. -/
theorem svdIterate_two {negl : ℝ → Bool} {m : ℕ} {A : Arr2} {δ an : ℝ} (hn : negl 0 = true) (hδ : ∀ x, negl x = true → |x| ≤ δ)
    (hsmall : ∀ x, |x| ≤ 1e-30 * an → negl x = true) {st : SvdState} (hok : SvdOk m 2 st) (hw : |st.w 0| ≤ an) (hws : |st.ws 1| ≤ an)
    (hN : Near m 2 A 1 0 st) (r : ℕ) :
    ∃ st', svdIterate negl m 2 1 (r + 3) st = some st' ∧ SvdOk m 2 st' ∧ st'.status = st.status ∧ 0 ≤ st'.w 1 ∧
      Near m 2 A 0 (2 * δ) st' := by
  have hδ0 : 0 ≤ δ := by have := hδ 0 hn; rwa [abs_zero] at this
  -- an iteration with a negligible element
  have fin : ∀ (r : ℕ) (st : SvdState), SvdOk m 2 st → Near m 2 A 1 0 st → (negl (st.ws 1) = true ∨ negl (st.w 0) = true) →
      ∃ st', svdIterate negl m 2 1 (r + 1) st = some st' ∧ SvdOk m 2 st' ∧ st'.status = st.status ∧ 0 ≤ st'.w 1 ∧
        Near m 2 A 0 (2 * δ) st' := by
    intro r st hok hN hc
    by_cases h1 : negl (st.ws 1) = true
    · rw [svdIterate_conv r h1]
      obtain ⟨f1, f2, -, f4⟩ := svdFlip_ok (k := 1) hok
      refine ⟨_, rfl, f1, f4, f2, ?_⟩
      have hd := hN.drop hok (by norm_num) (le_refl 1) (hδ _ h1)
      intro y x
      have e := svdFlip_form (m := m) (n := 2) (k := 1) st y x
      simp only [Nat.sub_self] at e
      rw [e]
      have h2 := hd y x
      simp only at h2
      rw [form_pred _ _ _ _ (fun _ => by simp [FMem.set]),
        form_congr (w' := st.w) (ws' := st.ws) _ _ (fun _ _ => rfl) (fun j hj1 hj2 => by simp only [FMem.set]; rw [if_neg (by omega)])] at h2
      refine h2.trans (mul_le_mul_of_nonneg_right ?_ (mul_nonneg (nrm_nonneg m y) (nrm_nonneg 2 x)))
      linarith
    · have h1' : negl (st.ws 1) = false := by simpa using h1
      have h2 := hc.resolve_left h1
      have hsp : svdSplit negl st.w st.ws 1 = some (1, true) := by
        rw [svdSplit, if_neg h1, if_pos h2]
      rw [svdIterate, hsp]
      simp only [if_true]
      have hcs := svdCancel_spec hn (n := 2) (l := 1) (k := 1) (by norm_num) le_rfl (by norm_num) hok.left st.w st.ws
      have hN2 := cancel_two hn hδ hok rfl h2 h1' hN
      rw [zero_add] at hN2
      obtain ⟨f1, f2, -, f4⟩ := svdFlip_ok (k := 1) (m := m) (n := 2)
        (st := { st with a := (svdCancel negl m 1 1 st.a st.w st.ws).a, w := (svdCancel negl m 1 1 st.a st.w st.ws).w })
        ⟨hcs.1, hok.right, hok.first⟩
      refine ⟨_, rfl, f1, f4, f2, ?_⟩
      intro y x
      have e := svdFlip_form (m := m) (n := 2) (k := 1)
        { st with a := (svdCancel negl m 1 1 st.a st.w st.ws).a, w := (svdCancel negl m 1 1 st.a st.w st.ws).w } y x
      simp only [Nat.sub_self] at e
      rw [e]
      exact hN2 y x
  by_cases hc : negl (st.ws 1) = true ∨ negl (st.w 0) = true
  · exact fin (r + 2) st hok hN hc
  -- one transformation
  rw [not_or] at hc
  obtain ⟨c1, c2⟩ := hc
  have n1 : st.ws 1 ≠ 0 := fun e => c1 (by rw [e, hn])
  have n2 : st.w 0 ≠ 0 := fun e => c2 (by rw [e, hn])
  have hsp : svdSplit negl st.w st.ws 1 = some (0, false) := by
    rw [svdSplit, if_neg c1, if_neg c2, svdSplit, hok.first, if_pos hn]
  obtain ⟨f, hf⟩ := svdShift_some (l := 0) (k := 1) n1 n2 n2
  obtain ⟨st2, e2⟩ : ∃ st2, svdSweep m 2 0 1 st = some st2 := by
    unfold svdSweep; rw [hf]; exact ⟨_, rfl⟩
  obtain ⟨w1, w2, w3⟩ := svdSweep_ok (show 0 < 1 by norm_num) (show 1 < 2 by norm_num) hok e2
  have hN2 : Near m 2 A 1 0 st2 := by
    intro y x
    rw [svdSweep_form (show 0 < 1 by norm_num) (show 1 < 2 by norm_num) e2]
    have hd := hN.drop hok (by norm_num) (Nat.zero_le 1) (δ := 0) (by rw [hok.first, abs_zero])
    have := hd y x
    rwa [add_zero] at this
  have hsm := sweep_two_small e2 hok.first n1 n2
  have han : 0 ≤ an := le_trans (abs_nonneg _) hw
  obtain ⟨st', g1, g2, g3, g4⟩ := fin (r + 1) st2 w1 hN2 (by
    by_contra hc
    rw [not_or] at hc
    have k1 : 1e-30 * an < |st2.ws 1| := lt_of_not_ge fun h => hc.1 (hsmall _ h)
    have k2 : 1e-30 * an < |st2.w 0| := lt_of_not_ge fun h => hc.2 (hsmall _ h)
    have k0 : 0 ≤ 1e-30 * an := by positivity
    rw [zero_add, abs_mul, abs_mul] at hsm
    have k3 : 1e-30 * an * (1e-30 * an) < |st2.w 0| * |st2.ws 1| := mul_lt_mul'' k2 k1 k0 k0
    have k4 : |st.w 0| * |st.ws 1| ≤ an * an := mul_le_mul hw hws (abs_nonneg _) han
    norm_num at *
    nlinarith)
  refine ⟨st', ?_, g2, by rw [g3, w3], g4⟩
  rw [svdIterate, hsp]
  simp only [Bool.false_eq_true, if_false, zero_ne_one]
  rw [if_neg (by omega), e2]
  exact g1

end Sla
