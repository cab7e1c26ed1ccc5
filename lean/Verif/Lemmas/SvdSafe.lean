import Verif.Lemmas.SvdSweep

/-
`svd`: the QR iterations end without undefined behaviour and keep the columns orthonormal.
-/
namespace Sla
open Finset

theorem unit_rot {f h : ℝ} (hz : Real.sqrt (f * f + h * h) ≠ 0) :
    f / Real.sqrt (f * f + h * h) * (f / Real.sqrt (f * f + h * h)) +
      h / Real.sqrt (f * f + h * h) * (h / Real.sqrt (f * f + h * h)) = 1 := by
  have hs : Real.sqrt (f * f + h * h) * Real.sqrt (f * f + h * h) = f * f + h * h :=
    Real.mul_self_sqrt (by nlinarith [mul_self_nonneg f, mul_self_nonneg h])
  rw [div_mul_div_comm, div_mul_div_comm, ← add_div, hs, div_self]
  rw [← hs]; exact mul_ne_zero hz hz

/-- The rotations of a pass of the QR loop. -/
theorem sweepStep_rot (m n : ℕ) (st : SweepState) (i : ℕ) : ∃ c s c' s' : ℝ, c * c + s * s = 1 ∧ c' * c' + s' * s' = 1 ∧
    (sweepStep m n st i).v = rotCols n i (i + 1) c s st.v ∧ (sweepStep m n st i).a = rotCols m i (i + 1) c' s' st.a := by
  have h1 : ∀ f h : ℝ, (if Real.sqrt (f * f + h * h) ≠ 0 then f / Real.sqrt (f * f + h * h) else 1) *
      (if Real.sqrt (f * f + h * h) ≠ 0 then f / Real.sqrt (f * f + h * h) else 1) +
      (if Real.sqrt (f * f + h * h) ≠ 0 then h / Real.sqrt (f * f + h * h) else 0) *
      (if Real.sqrt (f * f + h * h) ≠ 0 then h / Real.sqrt (f * f + h * h) else 0) = 1 := by
    intro f h
    by_cases hz : Real.sqrt (f * f + h * h) ≠ 0
    · simp only [if_pos hz]; exact unit_rot hz
    · simp only [if_neg hz]; norm_num
  have h2 : ∀ f h c s : ℝ, c * c + s * s = 1 →
      (if Real.sqrt (f * f + h * h) ≠ 0 then f / Real.sqrt (f * f + h * h) else c) *
      (if Real.sqrt (f * f + h * h) ≠ 0 then f / Real.sqrt (f * f + h * h) else c) +
      (if Real.sqrt (f * f + h * h) ≠ 0 then h / Real.sqrt (f * f + h * h) else s) *
      (if Real.sqrt (f * f + h * h) ≠ 0 then h / Real.sqrt (f * f + h * h) else s) = 1 := by
    intro f h c s hcs
    by_cases hz : Real.sqrt (f * f + h * h) ≠ 0
    · simp only [if_pos hz]; exact unit_rot hz
    · simp only [if_neg hz]; exact hcs
  exact ⟨_, _, _, _, h1 _ _, h2 _ _ _ _ (h1 _ _), rfl, rfl⟩

/-- The invariant of the QR iterations. -/
structure SvdOk (m n : ℕ) (st : SvdState) : Prop where
  left : Ortho m n st.a
  right : Ortho n n st.v
  first : st.ws 0 = 0

theorem svdSplit_spec {negl : ℝ → Bool} (hn : negl 0 = true) {w ws : FMem} (h0 : ws 0 = 0) (k : ℕ) :
    ∃ l c, svdSplit negl w ws k = some (l, c) ∧ l ≤ k ∧ (c = false → negl (ws l) = true) ∧
      (c = true → 0 < l ∧ negl (w (l - 1)) = true ∧ negl (ws l) = false) ∧
      ∀ j, l < j → j ≤ k → negl (ws j) = false ∧ negl (w (j - 1)) = false := by
  induction k with
  | zero =>
    refine ⟨0, false, ?_, le_rfl, fun _ => by rw [h0, hn], fun h => (by cases h), fun j h1 h2 => absurd h1 (by omega)⟩
    rw [svdSplit, h0, hn]; rfl
  | succ k ih =>
    by_cases h1 : negl (ws (k + 1)) = true
    · refine ⟨k + 1, false, ?_, le_rfl, fun _ => h1, fun h => (by cases h), fun j h1 h2 => absurd h1 (by omega)⟩
      rw [svdSplit, if_pos h1]
    · have h1' : negl (ws (k + 1)) = false := by simpa using h1
      by_cases h2 : negl (w k) = true
      · refine ⟨k + 1, true, ?_, le_rfl, fun h => (by cases h), fun _ => ⟨by omega, h2, h1'⟩,
          fun j h1 h2 => absurd h1 (by omega)⟩
        rw [svdSplit, if_neg h1, if_pos h2]
      · have h2' : negl (w k) = false := by simpa using h2
        obtain ⟨l, c, e1, e2, e3, e4, e5⟩ := ih
        refine ⟨l, c, ?_, by omega, e3, e4, ?_⟩
        · rw [svdSplit, if_neg h1, if_neg h2, e1]
        · intro j hj1 hj2
          rcases Nat.lt_or_ge k j with h | h
          · obtain rfl : j = k + 1 := by omega
            exact ⟨h1', h2'⟩
          · exact e5 j hj1 h

theorem svdCancel_spec {negl : ℝ → Bool} (hn : negl 0 = true) {m n l k : ℕ} (hl : 0 < l) (hlk : l ≤ k) (hk : k < n)
    {a : Arr2} (ha : Ortho m n a) (w ws : FMem) :
    Ortho m n (svdCancel negl m l k a w ws).a ∧
    (∀ j, (svdCancel negl m l k a w ws).w j = w j ∨ 0 < (svdCancel negl m l k a w ws).w j) ∧
    (∀ j, j < l ∨ k < j → (svdCancel negl m l k a w ws).w j = w j) := by
  unfold svdCancel
  refine forRange_ind (by omega) _ _ (fun _ (st : CancelState) => Ortho m n st.a ∧ (∀ j, st.w j = w j ∨ 0 < st.w j) ∧
    ∀ j, j < l ∨ k < j → st.w j = w j) ⟨ha, fun _ => Or.inl rfl, fun _ _ => rfl⟩ ?_
  rintro i st hi1 hi2 ⟨g1, g2, g3⟩
  unfold cancelStep
  simp only
  split_ifs with h1 h2
  · exact ⟨g1, g2, g3⟩
  · exact ⟨g1, g2, g3⟩
  · set f := st.s * ws i with hf
    have hf0 : f ≠ 0 := fun e => h2 (by rw [e, hn])
    have hpos : 0 < f * f + st.w i * st.w i := by
      have := mul_self_pos.2 hf0
      nlinarith [mul_self_nonneg (st.w i)]
    have hz : Real.sqrt (f * f + st.w i * st.w i) ≠ 0 := (Real.sqrt_pos.2 hpos).ne'
    refine ⟨g1.rot (by omega) (by omega) (by omega) ?_, ?_, ?_⟩
    · have := unit_rot hz
      rw [neg_div, neg_mul_neg]; linarith
    · intro j
      simp only [FMem.set]
      by_cases hj : j = i
      · rw [if_pos hj]; exact Or.inr (Real.sqrt_pos.2 hpos)
      · rw [if_neg hj]; exact g2 j
    · intro j hj
      simp only [FMem.set]
      rw [if_neg (by omega)]; exact g3 j hj

theorem csign_add_ne {g f : ℝ} (hg : 0 < g) : f + csign g f ≠ 0 := by
  unfold csign
  split_ifs with h
  · have := abs_nonneg g; rw [abs_of_pos hg]; linarith
  · rw [abs_of_pos hg]; push Not at h; linarith

/-- No division by zero in the shift. -/
theorem svdShift_some {w ws : FMem} {l k : ℕ} (h1 : ws k ≠ 0) (h2 : w (k - 1) ≠ 0) (h3 : w l ≠ 0) :
    ∃ f, svdShift w ws l k = some f := by
  unfold svdShift
  simp only
  rw [if_neg (by simp [h1, h2, h3])]
  rw [if_neg (csign_add_ne ?_)]
  · exact ⟨_, rfl⟩
  · split_ifs with h
    · linarith
    · apply Real.sqrt_pos.2
      nlinarith [mul_self_nonneg (((w (k - 1) - w k) * (w (k - 1) + w k) + (ws (k - 1) - ws k) * (ws (k - 1) + ws k)) / (2 * ws k * w (k - 1)))]

theorem svdSweep_ok {m n l k : ℕ} (hlk : l < k) (hk : k < n) {st st' : SvdState} (h : SvdOk m n st)
    (e : svdSweep m n l k st = some st') :
    SvdOk m n st' ∧ (∀ j, k < j → st'.w j = st.w j) ∧ st'.status = st.status := by
  unfold svdSweep at e
  obtain ⟨f, -, rfl⟩ := Option.map_eq_some_iff.1 e
  clear e
  have key := forRange_ind hlk.le (sweepStep m n)
    { a := st.a, v := st.v, w := st.w, ws := st.ws, f := f, x := st.w l, c := 1, s := 1 }
    (fun _ t => Ortho m n t.a ∧ Ortho n n t.v ∧ (0 < l → t.ws 0 = 0) ∧ ∀ j, k < j → t.w j = st.w j)
    ⟨h.left, h.right, fun _ => h.first, fun _ _ => rfl⟩ ?_
  · obtain ⟨k1, k2, k3, k4⟩ := key
    refine ⟨⟨k1, k2, ?_⟩, ?_, rfl⟩
    · simp only [FMem.set]
      rw [if_neg (by omega)]
      by_cases hl : 0 = l
      · rw [if_pos hl]
      · rw [if_neg hl]; exact k3 (by omega)
    · intro j hj
      simp only [FMem.set]
      rw [if_neg (by omega)]; exact k4 j hj
  · rintro i t hi1 hi2 ⟨g1, g2, g3, g4⟩
    obtain ⟨c, s, c', s', e1, e2, e3, e4⟩ := sweepStep_rot m n t i
    refine ⟨?_, ?_, ?_, ?_⟩
    · rw [e4]; exact g1.rot (by omega) (by omega) (by omega) e2
    · rw [e3]; exact g2.rot (by omega) (by omega) (by omega) e1
    · intro hl
      simp only [sweepStep, FMem.set]
      rw [if_neg (by omega)]; exact g3 hl
    · intro j hj
      simp only [sweepStep, FMem.set]
      rw [if_neg (by omega)]; exact g4 j hj

theorem flip_eq (n k : ℕ) (v : Arr2) : forRange 0 n (fun v j => set2 v j k (-v j k)) v =
    fun r c => if r < n ∧ c = k then -v r c else v r c := by
  refine forRange_ind (Nat.zero_le n) _ _ (fun i t => t = fun r c => if r < i ∧ c = k then -v r c else v r c) (by simp) ?_
  rintro i t - - rfl
  funext r c
  simp only [set2]
  grind

theorem Ortho.flip {rows n : ℕ} {v : Arr2} (h : Ortho rows n v) (k : ℕ) :
    Ortho rows n (forRange 0 rows (fun v j => set2 v j k (-v j k)) v) := by
  intro p hp q hq
  rw [flip_eq]
  have h1 := h p hp q hq
  have e : ∀ r ∈ range rows, (if r < rows ∧ p = k then -v r p else v r p) * (if r < rows ∧ q = k then -v r q else v r q) =
      (if p = k then -1 else 1) * (if q = k then -1 else 1) * (v r p * v r q) := by
    intro r hr
    have := mem_range.1 hr
    simp only [this, true_and]
    split_ifs <;> ring
  simp only
  rw [sum_congr rfl e, ← mul_sum, h1]
  by_cases hpq : p = q
  · subst hpq; split_ifs <;> ring
  · rw [if_neg hpq, mul_zero]

theorem svdFlip_ok {m n k : ℕ} {st : SvdState} (h : SvdOk m n st) :
    SvdOk m n (svdFlip n k st) ∧ 0 ≤ (svdFlip n k st).w k ∧ (∀ j, j ≠ k → (svdFlip n k st).w j = st.w j) ∧
      (svdFlip n k st).status = st.status := by
  unfold svdFlip
  split_ifs with h1
  · refine ⟨⟨h.left, h.right.flip k, h.first⟩, ?_, ?_, rfl⟩
    · simp only [FMem.set, if_true]; linarith
    · intro j hj; simp only [FMem.set]; rw [if_neg hj]
  · exact ⟨h, not_lt.1 h1, fun _ _ => rfl, rfl⟩

theorem svdIterate_ok {negl : ℝ → Bool} (hn : negl 0 = true) {m n k : ℕ} (hk : k < n) (r : ℕ) (st : SvdState)
    (h : SvdOk m n st) : ∃ st', svdIterate negl m n k (r + 1) st = some st' ∧ SvdOk m n st' ∧ (∀ j, k < j → st'.w j = st.w j) ∧
      ((st'.status = st.status ∧ 0 ≤ st'.w k) ∨ (0 < k ∧ st'.status = k)) := by
  induction r using Nat.strong_induction_on generalizing st with
  | _ r ih =>
  obtain ⟨l, c, e1, e2, e3, e4, e5⟩ := svdSplit_spec hn (w := st.w) h.first k
  rw [svdIterate, e1]
  simp only
  -- after the cancellation
  obtain ⟨st1, es, o1, o2, o3, o4, o5⟩ : ∃ st1 : SvdState, (if c = true then
      { st with a := (svdCancel negl m l k st.a st.w st.ws).a, w := (svdCancel negl m l k st.a st.w st.ws).w } else st) = st1 ∧
      SvdOk m n st1 ∧ (∀ j, st1.w j = st.w j ∨ 0 < st1.w j) ∧ (∀ j, k < j → st1.w j = st.w j) ∧ st1.status = st.status ∧
      st1.ws = st.ws := by
    refine ⟨_, rfl, ?_⟩
    by_cases hc : c = true
    · rw [if_pos hc]
      obtain ⟨c1, c2, c3⟩ := svdCancel_spec hn (e4 hc).1 e2 hk h.left st.w st.ws
      exact ⟨⟨c1, h.right, h.first⟩, c2, fun j hj => c3 j (Or.inr hj), rfl, rfl⟩
    · rw [if_neg hc]
      exact ⟨h, fun _ => Or.inl rfl, fun _ _ => rfl, rfl, rfl⟩
  rw [es]
  by_cases hl : l = k
  · rw [if_pos hl]
    obtain ⟨f1, f2, f3, f4⟩ := svdFlip_ok (k := k) o1
    exact ⟨_, rfl, f1, fun j hj => by rw [f3 j (by omega), o3 j hj], Or.inl ⟨by rw [f4, o4], f2⟩⟩
  · rw [if_neg hl]
    have hne : ∀ x, negl x = false → x ≠ 0 := fun x hx e => by rw [e, hn] at hx; cases hx
    have hwne : ∀ j, l ≤ j → j < k → st1.w j ≠ 0 := by
      intro j h1 h2
      rcases o2 j with h3 | h3
      · rw [h3]
        have := (e5 (j + 1) (by omega) (by omega)).2
        exact hne _ (by simpa using this)
      · exact h3.ne'
    have hshift := svdShift_some (w := st1.w) (ws := st1.ws) (l := l) (k := k)
      (by rw [o5]; exact hne _ (e5 k (by omega) le_rfl).1) (hwne (k - 1) (by omega) (by omega)) (hwne l le_rfl (by omega))
    obtain ⟨f, hf⟩ := hshift
    have hsweep : ∀ st2 : SvdState, st2.w = st1.w → st2.ws = st1.ws → ∃ st3, svdSweep m n l k st2 = some st3 := by
      intro st2 g1 g2
      unfold svdSweep
      rw [g1, g2, hf]
      exact ⟨_, rfl⟩
    rcases Nat.eq_zero_or_pos r with hr | hr
    · subst hr
      rw [if_pos rfl]
      obtain ⟨st3, h3⟩ := hsweep { st1 with status := (k : ℤ) } rfl rfl
      rw [h3]
      obtain ⟨w1, w2, w3⟩ := svdSweep_ok (m := m) (st := { st1 with status := (k : ℤ) }) (show l < k by omega) hk ⟨o1.left, o1.right, o1.first⟩ h3
      refine ⟨st3, rfl, w1, fun j hj => by rw [w2 j hj]; exact o3 j hj, Or.inr ⟨by omega, w3⟩⟩
    · rw [if_neg (by omega)]
      obtain ⟨st3, h3⟩ := hsweep st1 rfl rfl
      rw [h3]
      obtain ⟨w1, w2, w3⟩ := svdSweep_ok (show l < k by omega) hk o1 h3
      obtain ⟨r', rfl⟩ : ∃ r', r = r' + 1 := ⟨r - 1, by omega⟩
      obtain ⟨st4, i1, i2, i3, i4⟩ := ih r' (by omega) st3 w1
      refine ⟨st4, i1, i2, fun j hj => by rw [i3 j hj, w2 j hj, o3 j hj], ?_⟩
      rw [w3, o4] at i4
      exact i4

theorem svdDiagonalise_ok {negl : ℝ → Bool} (hn : negl 0 = true) {m n : ℕ} (st : SvdState) (h : SvdOk m n st)
    (hs : st.status = 0) : ∃ st', svdDiagonalise negl m n st = some st' ∧ SvdOk m n st' ∧
      ((st'.status = 0 ∧ ∀ j < n, 0 ≤ st'.w j) ∨ (0 < st'.status ∧ st'.status < n)) := by
  unfold svdDiagonalise
  have := forDown_ind n (fun st k => Option.bind st (svdIterate negl m n k 30)) (some st)
    (fun i t => ∃ st', t = some st' ∧ SvdOk m n st' ∧
      ((st'.status = 0 ∧ ∀ j, i ≤ j → j < n → 0 ≤ st'.w j) ∨ (0 < st'.status ∧ st'.status < n)))
    ⟨st, rfl, h, Or.inl ⟨hs, fun j h1 h2 => absurd h1 (by omega)⟩⟩ ?_
  · obtain ⟨st', e1, e2, e3⟩ := this
    refine ⟨st', e1, e2, e3.imp (fun g => ⟨g.1, fun j hj => g.2 j (Nat.zero_le j) hj⟩) id⟩
  · rintro k t hk ⟨st1, rfl, g1, g2⟩
    obtain ⟨st2, i1, i2, i3, i4⟩ := svdIterate_ok hn hk 29 st1 g1
    refine ⟨st2, i1, i2, ?_⟩
    rcases i4 with ⟨j1, j2⟩ | ⟨j1, j2⟩
    · rcases g2 with ⟨q1, q2⟩ | q
      · refine Or.inl ⟨by rw [j1, q1], fun j hj1 hj2 => ?_⟩
        rcases Nat.lt_or_ge k j with hh | hh
        · rw [i3 j hh]; exact q2 j hh hj2
        · obtain rfl : j = k := by omega
          exact j2
      · rw [← j1] at q; exact Or.inr q
    · exact Or.inr (by omega)

end Sla
