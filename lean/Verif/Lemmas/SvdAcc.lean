import Verif.Lemmas.SvdSafe
import Mathlib.Algebra.Order.Chebyshev

/-
`svd`: the QR iterations keep the product of the matrices, up to the elements treated as negligible.
-/
namespace Sla
open Finset

/-! ### One QR transformation -/

/-- The matrix held by the variables in the middle of the QR transformation: the diagonal. -/
noncomputable def midW (i : ℕ) (st : SweepState) : ℕ → ℝ := fun j => if j = i then st.x else st.w j

/-- The matrix held by the variables in the middle of the QR transformation: the superdiagonal. -/
noncomputable def midWS (l i : ℕ) (st : SweepState) : ℕ → ℝ := fun j =>
  if j = l then 0 else if j = i then st.f else if j = i + 1 then st.c * st.ws j else st.ws j

/-- The matrix held by the variables in the middle of the QR transformation: the element outside the two diagonals. -/
noncomputable def midB (l i k : ℕ) (st : SweepState) (α β : ℕ → ℝ) : ℝ :=
  if i < k then (if l < i then st.s * st.ws (i + 1) * α (i - 1) * β (i + 1) else 0) else 0

theorem sqrt_mul_div {f h : ℝ} (hz : Real.sqrt (f * f + h * h) ≠ 0) :
    Real.sqrt (f * f + h * h) * (f / Real.sqrt (f * f + h * h)) = f ∧
    Real.sqrt (f * f + h * h) * (h / Real.sqrt (f * f + h * h)) = h :=
  ⟨mul_div_cancel₀ _ hz, mul_div_cancel₀ _ hz⟩

theorem sqrt_eq_zero' {f h : ℝ} (hz : ¬ Real.sqrt (f * f + h * h) ≠ 0) : f = 0 ∧ h = 0 := by
  rw [not_not, Real.sqrt_eq_zero (by nlinarith [mul_self_nonneg f, mul_self_nonneg h])] at hz
  constructor <;> nlinarith [mul_self_nonneg f, mul_self_nonneg h]

/-- A pass of the QR loop, with the rotations and what they do. -/
theorem sweepStep_facts (m n : ℕ) (st : SweepState) (i : ℕ) : ∃ c s c' s' : ℝ, c * c + s * s = 1 ∧ c' * c' + s' * s' = 1 ∧
    (sweepStep m n st i).v = rotCols n i (i + 1) c s st.v ∧ (sweepStep m n st i).a = rotCols m i (i + 1) c' s' st.a ∧
    (sweepStep m n st i).c = c' ∧ (sweepStep m n st i).s = s' ∧
    ∃ z1 z2, (sweepStep m n st i).ws = FMem.set st.ws i z1 ∧ (sweepStep m n st i).w = FMem.set st.w i z2 ∧
    z1 * c = st.f ∧ z1 * s = st.s * st.ws (i + 1) ∧
    st.x * c + st.c * st.ws (i + 1) * s = z2 * c' ∧ st.w (i + 1) * s = z2 * s' ∧
    (sweepStep m n st i).f = c' * (-st.x * s + st.c * st.ws (i + 1) * c) + s' * (st.w (i + 1) * c) ∧
    (sweepStep m n st i).x = -s' * (-st.x * s + st.c * st.ws (i + 1) * c) + c' * (st.w (i + 1) * c) := by
  -- the right-hand rotation
  obtain ⟨c, s, hc, hs, u1, p1, p2⟩ : ∃ c s : ℝ,
      (if Real.sqrt (st.f * st.f + st.s * st.ws (i + 1) * (st.s * st.ws (i + 1))) ≠ 0 then
        st.f / Real.sqrt (st.f * st.f + st.s * st.ws (i + 1) * (st.s * st.ws (i + 1))) else 1) = c ∧
      (if Real.sqrt (st.f * st.f + st.s * st.ws (i + 1) * (st.s * st.ws (i + 1))) ≠ 0 then
        st.s * st.ws (i + 1) / Real.sqrt (st.f * st.f + st.s * st.ws (i + 1) * (st.s * st.ws (i + 1))) else 0) = s ∧
      c * c + s * s = 1 ∧ Real.sqrt (st.f * st.f + st.s * st.ws (i + 1) * (st.s * st.ws (i + 1))) * c = st.f ∧
      Real.sqrt (st.f * st.f + st.s * st.ws (i + 1) * (st.s * st.ws (i + 1))) * s = st.s * st.ws (i + 1) := by
    refine ⟨_, _, rfl, rfl, ?_⟩
    by_cases hz : Real.sqrt (st.f * st.f + st.s * st.ws (i + 1) * (st.s * st.ws (i + 1))) ≠ 0
    · simp only [if_pos hz]
      exact ⟨unit_rot hz, sqrt_mul_div hz⟩
    · simp only [if_neg hz]
      obtain ⟨q1, q2⟩ := sqrt_eq_zero' hz
      rw [not_not] at hz
      rw [hz]
      exact ⟨by norm_num, by rw [q1]; ring, by rw [q2]; ring⟩
  -- the left-hand rotation
  obtain ⟨f, hf⟩ : ∃ f, st.x * c + st.c * st.ws (i + 1) * s = f := ⟨_, rfl⟩
  obtain ⟨h, hh⟩ : ∃ h, st.w (i + 1) * s = h := ⟨_, rfl⟩
  obtain ⟨c', s', hc', hs', u1', p1', p2'⟩ : ∃ c' s' : ℝ,
      (if Real.sqrt (f * f + h * h) ≠ 0 then f / Real.sqrt (f * f + h * h) else c) = c' ∧
      (if Real.sqrt (f * f + h * h) ≠ 0 then h / Real.sqrt (f * f + h * h) else s) = s' ∧
      c' * c' + s' * s' = 1 ∧ Real.sqrt (f * f + h * h) * c' = f ∧ Real.sqrt (f * f + h * h) * s' = h := by
    refine ⟨_, _, rfl, rfl, ?_⟩
    by_cases hz : Real.sqrt (f * f + h * h) ≠ 0
    · simp only [if_pos hz]
      exact ⟨unit_rot hz, sqrt_mul_div hz⟩
    · simp only [if_neg hz]
      obtain ⟨q1, q2⟩ := sqrt_eq_zero' hz
      rw [not_not] at hz
      rw [hz]
      exact ⟨u1, by rw [q1]; ring, by rw [q2]; ring⟩
  refine ⟨c, s, c', s', u1, u1', ?_, ?_, ?_, ?_, Real.sqrt (st.f * st.f + st.s * st.ws (i + 1) * (st.s * st.ws (i + 1))),
    Real.sqrt (f * f + h * h), ?_, ?_, p1, p2, ?_, ?_, ?_, ?_⟩
  · simp only [sweepStep]; rw [hc, hs]
  · simp only [sweepStep]; rw [hc, hs, hf, hh, hc', hs']
  · simp only [sweepStep]; rw [hc, hs, hf, hh, hc']
  · simp only [sweepStep]; rw [hc, hs, hf, hh, hs']
  · rfl
  · simp only [sweepStep]; rw [hc, hs, hf, hh]
  · rw [hf, p1']
  · rw [hh, p2']
  · simp only [sweepStep]; rw [hc, hs, hf, hh, hc', hs']
  · simp only [sweepStep]; rw [hc, hs, hf, hh, hc', hs']

theorem sweepStep_mid {m n l i k : ℕ} (hli : l ≤ i) (hik : i < k) (hk : k < n) (st : SweepState)
    (y x : ℕ → ℝ) :
    form n k (midW (i + 1) (sweepStep m n st i)) (midWS l (i + 1) (sweepStep m n st i)) (dotCol m y (sweepStep m n st i).a)
        (dotCol n x (sweepStep m n st i).v) +
      midB l (i + 1) k (sweepStep m n st i) (dotCol m y (sweepStep m n st i).a) (dotCol n x (sweepStep m n st i).v) =
    form n k (midW i st) (midWS l i st) (dotCol m y st.a) (dotCol n x st.v) +
      midB l i k st (dotCol m y st.a) (dotCol n x st.v) := by
  obtain ⟨c, s, c', s', u, u', ev, ea, ec, es, z1, z2, ews, ew, f1, f2, f3, f4, f5, f6⟩ := sweepStep_facts m n st i
  rw [ev, ea, dotCol_rot m i (i + 1) (by omega), dotCol_rot n i (i + 1) (by omega)]
  have key := chase (n := n) (k := k) (i := i) hk hik (midW i st) (midW (i + 1) (sweepStep m n st i)) (midWS l i st)
    (midWS l (i + 1) (sweepStep m n st i)) (dotCol m y st.a) (dotCol n x st.v) c s c' s'
    (if l < i then st.s * st.ws (i + 1) else 0) u u' ?_ ?_ ?_ ?_ ?_ ?_ ?_ ?_
  · have eB : midB l (i + 1) k (sweepStep m n st i) (rotSeq i (i + 1) c' s' (dotCol m y st.a))
        (rotSeq i (i + 1) c s (dotCol n x st.v)) =
        if i + 1 < k then s' * midWS l i st (i + 2) * rotSeq i (i + 1) c' s' (dotCol m y st.a) i *
          rotSeq i (i + 1) c s (dotCol n x st.v) (i + 2) else 0 := by
      unfold midB midWS
      by_cases hk2 : i + 1 < k
      · rw [if_pos hk2, if_pos hk2, if_pos (show l < i + 1 by omega), es, ews]
        simp only [FMem.set]
        rw [if_neg (show ¬ i + 1 + 1 = i by omega), if_neg (show ¬ i + 2 = l by omega), if_neg (show ¬ i + 2 = i by omega),
          if_neg (show ¬ i + 2 = i + 1 by omega), show i + 1 - 1 = i by omega]
      · rw [if_neg hk2, if_neg hk2]
    have eB' : midB l i k st (dotCol m y st.a) (dotCol n x st.v) =
        if 0 < i then (if l < i then st.s * st.ws (i + 1) else 0) * dotCol m y st.a (i - 1) * dotCol n x st.v (i + 1) else 0 := by
      unfold midB
      rw [if_pos hik]
      by_cases hl : l < i
      · rw [if_pos hl, if_pos hl, if_pos (by omega)]
      · rw [if_neg hl, if_neg hl]; simp
    rw [eB, eB']
    exact key
  · intro j e1 e2
    simp only [midW, ew, FMem.set]
    rw [if_neg e1, if_neg e2, if_neg e1]
  · intro j e1 e2 e3
    simp only [midWS, ews, FMem.set]
    rw [if_neg e1, if_neg e2, if_neg e1, if_neg e2, if_neg (show ¬ j = i + 1 + 1 by omega)]
  · intro hi0
    simp only [midWS, ews, FMem.set]
    by_cases hl : i = l
    · rw [if_pos hl, if_pos hl, if_neg (by omega)]; simp
    · rw [if_neg hl, if_neg hl, if_neg (show ¬ i = i + 1 by omega), if_neg (show ¬ i = i + 1 + 1 by omega),
        if_pos (show l < i by omega)]
      simp only [if_true]
      exact ⟨f1, f2⟩
  · simp only [midW, midWS, ew, FMem.set, if_true]
    rw [if_neg (show ¬ i + 1 = l by omega), if_neg (show ¬ i + 1 = i by omega), if_neg (show ¬ i = i + 1 by omega)]
    exact f3
  · simp only [midW, ew, FMem.set, if_true]
    rw [if_neg (show ¬ i + 1 = i by omega), if_neg (show ¬ i = i + 1 by omega)]
    exact f4
  · simp only [midW, midWS, if_true]
    rw [if_neg (show ¬ i + 1 = l by omega), if_neg (show ¬ i + 1 = l by omega), if_neg (show ¬ i + 1 = i by omega),
      if_neg (show ¬ i + 1 = i by omega)]
    exact f5
  · simp only [midW, midWS, if_true]
    rw [if_neg (show ¬ i + 1 = l by omega), if_neg (show ¬ i + 1 = i by omega), if_neg (show ¬ i + 1 = i by omega)]
    exact f6
  · intro hk2
    simp only [midWS, ews, ec, FMem.set]
    rw [if_neg (show ¬ i + 2 = l by omega), if_neg (show ¬ i + 2 = i + 1 by omega)]
    simp only [if_true]
    rw [if_neg (show ¬ i + 2 = i by omega)]
    rw [if_neg (show ¬ i + 2 = l by omega), if_neg (show ¬ i + 2 = i by omega), if_neg (show ¬ i + 2 = i + 1 by omega)]

theorem form_congr {n k : ℕ} {w w' ws ws' : ℕ → ℝ} (α β : ℕ → ℝ) (h1 : ∀ j < n, w j = w' j) (h2 : ∀ j, 0 < j → j ≤ k → ws j = ws' j) :
    form n k w ws α β = form n k w' ws' α β := by
  unfold form
  congr 1
  · exact sum_congr rfl fun j hj => by rw [h1 j (mem_range.1 hj)]
  · exact sum_congr rfl fun j hj => by rw [h2 (j + 1) (by omega) (by have := mem_range.1 hj; omega)]

/-- The QR transformation keeps the matrix with `ws[l]` replaced by zero. -/
theorem svdSweep_form {m n l k : ℕ} (hlk : l < k) (hk : k < n) {st st' : SvdState} (e : svdSweep m n l k st = some st')
    (y x : ℕ → ℝ) :
    form n k st'.w st'.ws (dotCol m y st'.a) (dotCol n x st'.v) =
      form n k st.w (FMem.set st.ws l 0) (dotCol m y st.a) (dotCol n x st.v) := by
  unfold svdSweep at e
  obtain ⟨f, -, rfl⟩ := Option.map_eq_some_iff.1 e
  clear e
  have key := forRange_ind hlk.le (sweepStep m n)
    { a := st.a, v := st.v, w := st.w, ws := st.ws, f := f, x := st.w l, c := 1, s := 1 }
    (fun i t => form n k (midW i t) (midWS l i t) (dotCol m y t.a) (dotCol n x t.v) +
      midB l i k t (dotCol m y t.a) (dotCol n x t.v) =
      form n k st.w (FMem.set st.ws l 0) (dotCol m y st.a) (dotCol n x st.v)) ?_ ?_
  · rw [← key]
    unfold midB
    rw [if_neg (lt_irrefl k), add_zero]
    apply form_congr
    · intro j _
      simp only [FMem.set, midW]
    · intro j hj0 hjk
      simp only [FMem.set, midWS]
      grind
  · unfold midB
    rw [if_neg (lt_irrefl l), ite_self, add_zero]
    apply form_congr
    · intro j _
      simp only [midW]
      grind
    · intro j _ _
      simp only [midWS, FMem.set]
      grind
  · intro i t hi1 hi2 g2
    rw [sweepStep_mid hi1 hi2 hk t, g2]

/-! ### Norms -/

/-- The length of a vector. -/
noncomputable def nrm (n : ℕ) (x : ℕ → ℝ) : ℝ := Real.sqrt (∑ i ∈ range n, x i ^ 2)

theorem nrm_nonneg (n : ℕ) (x : ℕ → ℝ) : 0 ≤ nrm n x := Real.sqrt_nonneg _

theorem nrm_sq (n : ℕ) (x : ℕ → ℝ) : nrm n x ^ 2 = ∑ i ∈ range n, x i ^ 2 :=
  Real.sq_sqrt (sum_nonneg fun _ _ => sq_nonneg _)

theorem cauchy (n : ℕ) (x y : ℕ → ℝ) : |∑ i ∈ range n, x i * y i| ≤ nrm n x * nrm n y := by
  apply abs_le_of_sq_le_sq _ (mul_nonneg (nrm_nonneg _ _) (nrm_nonneg _ _))
  rw [mul_pow, nrm_sq, nrm_sq]
  exact sum_mul_sq_le_sq_mul_sq _ _ _

theorem Ortho.dotCol_le {rows n : ℕ} {a : Arr2} (h : Ortho rows n a) (y : ℕ → ℝ) {j : ℕ} (hj : j < n) :
    |dotCol rows y a j| ≤ nrm rows y := by
  have h1 := cauchy rows y (fun r => a r j)
  have h2 : nrm rows (fun r => a r j) = 1 := by
    unfold nrm
    have := h j hj j hj
    rw [if_pos rfl] at this
    rw [Real.sqrt_eq_one, ← this]
    exact sum_congr rfl fun _ _ => sq _
  rw [h2, mul_one] at h1
  exact h1

/-- The bilinear form of a matrix. -/
noncomputable def bil (m n : ℕ) (A : Arr2) (y x : ℕ → ℝ) : ℝ := ∑ r ∈ range m, ∑ c ∈ range n, y r * A r c * x c

/-- The arrays represent the matrix with an error of at most `e`, in the operator norm; superdiagonal elements above `K` count as
    zero. -/
def Near (m n : ℕ) (A : Arr2) (K : ℕ) (e : ℝ) (st : SvdState) : Prop := ∀ y x : ℕ → ℝ,
  |bil m n A y x - form n K st.w st.ws (dotCol m y st.a) (dotCol n x st.v)| ≤ e * (nrm m y * nrm n x)

/-- Back substitution. -/
noncomputable def back (w g : ℕ → ℝ) (j : ℕ) : ℕ → ℝ
  | 0 => 1
  | d + 1 => -g (j - d) * back w g j d / w (j - (d + 1))

/-- If the matrix has no singular value below `σ`, the diagonal elements are not below `σ - e`. -/
theorem Near.lower {m n K : ℕ} {A : Arr2} {e σ : ℝ} {st : SvdState} (h : Near m n A K e st) (hok : SvdOk m n st) (hK : K < n)
    (hσ : e < σ) (h0 : 0 ≤ e) (hA : ∀ x : ℕ → ℝ, σ * nrm n x ≤ nrm m (fun r => ∑ c ∈ range n, A r c * x c)) :
    ∀ j < n, σ - e ≤ |st.w j| := by
  intro j
  induction j using Nat.strong_induction_on with
  | _ j ih =>
  intro hj
  -- the vector with B ξ = w[j] e_j
  obtain ⟨ξ, hξ⟩ : ∃ ξ : ℕ → ℝ, ξ = fun i => if i ≤ j then back st.w (fun i => if i ≤ K then st.ws i else 0) j (j - i) else 0 :=
    ⟨_, rfl⟩
  have hξj : ξ j = 1 := by rw [hξ]; simp [back]
  have hξgt : ∀ i, j < i → ξ i = 0 := fun i hi => by rw [hξ]; simp only; rw [if_neg (by omega)]
  have hξlt : ∀ i, i < j → st.w i * ξ i + (if i < K then st.ws (i + 1) else 0) * ξ (i + 1) = 0 := by
    intro i hi
    have hw : st.w i ≠ 0 := by
      have := ih i hi (by omega)
      intro e0; rw [e0, abs_zero] at this; linarith
    rw [hξ]
    simp only
    rw [if_pos (show i ≤ j by omega), if_pos (show i + 1 ≤ j by omega), show j - i = (j - (i + 1)) + 1 by omega, back,
      show j - (j - (i + 1)) = i + 1 by omega, show j - (j - (i + 1) + 1) = i by omega]
    simp only [Nat.succ_le_iff]
    rw [mul_div_cancel₀ _ hw]
    ring
  have hform : ∀ α : ℕ → ℝ, form n K st.w st.ws α ξ = st.w j * α j := by
    intro α
    unfold form
    have e1 : ∑ i ∈ range K, st.ws (i + 1) * α i * ξ (i + 1) =
        ∑ i ∈ range n, (if i < K then st.ws (i + 1) else 0) * α i * ξ (i + 1) := by
      rw [← sum_subset (s₁ := range K) (s₂ := range n)]
      · exact sum_congr rfl fun i hi => by rw [if_pos (mem_range.1 hi)]
      · intro i hi; rw [mem_range] at hi ⊢; omega
      · intro i _ hi; rw [mem_range] at hi; rw [if_neg hi]; ring
    rw [e1, ← sum_add_distrib, sum_eq_single j]
    · rw [hξj, hξgt (j + 1) (by omega)]; ring
    · intro i _ hij
      rcases Nat.lt_or_ge i j with h1 | h1
      · linear_combination (α i) * hξlt i h1
      · rw [hξgt i (by omega), hξgt (i + 1) (by omega)]; ring
    · intro hh; rw [mem_range] at hh; exact absurd hj hh
  -- x = V ξ
  set x : ℕ → ℝ := fun c => ∑ i ∈ range n, st.v c i * ξ i with hx
  have hβ : ∀ i < n, dotCol n x st.v i = ξ i := by
    intro i hi
    unfold dotCol
    simp only [hx, sum_mul]
    rw [sum_comm, sum_eq_single i]
    · have := hok.right i hi i hi
      rw [if_pos rfl] at this
      calc ∑ c ∈ range n, st.v c i * ξ i * st.v c i = ξ i * ∑ c ∈ range n, st.v c i * st.v c i := by
            rw [mul_sum]; exact sum_congr rfl fun _ _ => by ring
        _ = ξ i := by rw [this, mul_one]
    · intro k hk hki
      have := hok.right k (mem_range.1 hk) i hi
      rw [if_neg hki] at this
      calc ∑ c ∈ range n, st.v c k * ξ k * st.v c i = ξ k * ∑ c ∈ range n, st.v c k * st.v c i := by
            rw [mul_sum]; exact sum_congr rfl fun _ _ => by ring
        _ = 0 := by rw [this, mul_zero]
    · intro hh; rw [mem_range] at hh; exact absurd hi hh
  have hxn : 1 ≤ nrm n x := by
    have e1 : nrm n x ^ 2 = ∑ i ∈ range n, ξ i ^ 2 := by
      rw [nrm_sq]
      calc ∑ c ∈ range n, x c ^ 2 = ∑ c ∈ range n, ∑ i ∈ range n, x c * (st.v c i * ξ i) :=
            sum_congr rfl fun c _ => by rw [← mul_sum, sq]
        _ = ∑ i ∈ range n, ξ i * dotCol n x st.v i := by
            rw [sum_comm]
            refine sum_congr rfl fun i _ => ?_
            unfold dotCol
            rw [mul_sum]; exact sum_congr rfl fun _ _ => by ring
        _ = ∑ i ∈ range n, ξ i ^ 2 := sum_congr rfl fun i hi => by rw [hβ i (mem_range.1 hi), sq]
    have e2 : ξ j ^ 2 ≤ ∑ i ∈ range n, ξ i ^ 2 :=
      single_le_sum (f := fun i => ξ i ^ 2) (fun _ _ => sq_nonneg _) (mem_range.2 hj)
    rw [hξj, ← e1] at e2
    have := nrm_nonneg n x
    nlinarith
  -- y = A x
  set y : ℕ → ℝ := fun r => ∑ c ∈ range n, A r c * x c with hy
  have hyn := hA x
  have hbil : bil m n A y x = nrm m y ^ 2 := by
    rw [nrm_sq]
    unfold bil
    refine sum_congr rfl fun r _ => ?_
    rw [sq]
    calc ∑ c ∈ range n, y r * A r c * x c = y r * ∑ c ∈ range n, A r c * x c := by
          rw [mul_sum]; exact sum_congr rfl fun _ _ => by ring
      _ = y r * y r := rfl
  have hn := h y x
  have hfe : form n K st.w st.ws (dotCol m y st.a) (dotCol n x st.v) = form n K st.w st.ws (dotCol m y st.a) ξ := by
    unfold form
    congr 1
    · exact sum_congr rfl fun i hi => by rw [hβ i (mem_range.1 hi)]
    · exact sum_congr rfl fun i hi => by rw [hβ (i + 1) (by have := mem_range.1 hi; omega)]
  rw [hbil, hfe, hform] at hn
  have hα := hok.left.dotCol_le y hj
  have hy0 := nrm_nonneg m y
  have hpos : 0 < nrm m y := lt_of_lt_of_le (mul_pos (by linarith) (by linarith)) hyn
  have h1 : nrm m y ^ 2 ≤ e * (nrm m y * nrm n x) + |st.w j| * nrm m y := by
    have g1 := (abs_le.1 hn).2
    have g2 := le_abs_self (st.w j * dotCol m y st.a j)
    rw [abs_mul] at g2
    have g3 := mul_le_mul_of_nonneg_left hα (abs_nonneg (st.w j))
    linarith
  have h2 : nrm m y ≤ e * nrm n x + |st.w j| := by
    by_contra hc
    push Not at hc
    nlinarith
  nlinarith

/-! ### The iterations -/

theorem form_drop {n k l : ℕ} (hl : 0 < l) (hlk : l ≤ k) (w : ℕ → ℝ) (ws : FMem) (α β : ℕ → ℝ) :
    form n k w ws α β = form n k w (FMem.set ws l 0) α β + ws l * α (l - 1) * β l := by
  unfold form
  rw [add_assoc]
  congr 1
  rw [← sub_eq_iff_eq_add', ← sum_sub_distrib, sum_eq_single (l - 1)]
  · simp only [FMem.set]
    rw [show l - 1 + 1 = l by omega]; simp
  · intro j _ hj
    simp only [FMem.set]
    rw [if_neg (by omega)]; ring
  · intro h; rw [mem_range] at h; omega

theorem svdFlip_form {m n k : ℕ} (st : SvdState) (y x : ℕ → ℝ) :
    form n (k - 1) (svdFlip n k st).w (svdFlip n k st).ws (dotCol m y (svdFlip n k st).a) (dotCol n x (svdFlip n k st).v) =
      form n (k - 1) st.w st.ws (dotCol m y st.a) (dotCol n x st.v) := by
  unfold svdFlip
  split_ifs with h
  · have e : ∀ j, dotCol n x (forRange 0 n (fun v j => set2 v j k (-v j k)) st.v) j =
        if j = k then -dotCol n x st.v j else dotCol n x st.v j := by
      intro j
      rw [flip_eq]
      unfold dotCol
      by_cases hj : j = k
      · rw [if_pos hj, ← sum_neg_distrib]
        refine sum_congr rfl fun r hr => ?_
        simp only
        rw [if_pos ⟨mem_range.1 hr, hj⟩]; ring
      · rw [if_neg hj]
        refine sum_congr rfl fun r _ => ?_
        simp only
        rw [if_neg (by tauto)]
    unfold form
    simp only [e]
    congr 1
    · refine sum_congr rfl fun j _ => ?_
      simp only [FMem.set]
      by_cases hj : j = k
      · subst hj; simp
      · rw [if_neg hj, if_neg hj]
    · refine sum_congr rfl fun j hj => ?_
      rw [mem_range] at hj
      rw [if_neg (by omega)]
  · rfl

theorem Near.drop {m n k l : ℕ} {A : Arr2} {e δ : ℝ} {st : SvdState} (h : Near m n A k e st) (hok : SvdOk m n st) (hk : k < n)
    (hlk : l ≤ k) (hδ : |st.ws l| ≤ δ) : Near m n A k (e + δ) { st with ws := FMem.set st.ws l 0 } := by
  intro y x
  have h1 := h y x
  have hp := mul_nonneg (nrm_nonneg m y) (nrm_nonneg n x)
  have hδ0 : 0 ≤ δ := le_trans (abs_nonneg _) hδ
  rcases Nat.eq_zero_or_pos l with h0 | h0
  · subst h0
    have : form n k st.w (FMem.set st.ws 0 0) (dotCol m y st.a) (dotCol n x st.v) =
        form n k st.w st.ws (dotCol m y st.a) (dotCol n x st.v) :=
      form_congr _ _ (fun _ _ => rfl) fun j hj _ => by simp only [FMem.set]; rw [if_neg (by omega)]
    simp only
    rw [this]
    nlinarith
  · rw [form_drop h0 hlk] at h1
    have a1 := hok.left.dotCol_le y (show l - 1 < n by omega)
    have a2 := hok.right.dotCol_le x (show l < n by omega)
    have a3 : |st.ws l * dotCol m y st.a (l - 1) * dotCol n x st.v l| ≤ δ * (nrm m y * nrm n x) := by
      rw [abs_mul, abs_mul, mul_assoc]
      exact mul_le_mul hδ (mul_le_mul a1 a2 (abs_nonneg _) (nrm_nonneg _ _)) (mul_nonneg (abs_nonneg _) (abs_nonneg _)) hδ0
    simp only
    rw [abs_le] at h1 a3 ⊢
    constructor <;> nlinarith

theorem form_pred {n k : ℕ} (w ws α β : ℕ → ℝ) (h : 0 < k → ws k = 0) : form n k w ws α β = form n (k - 1) w ws α β := by
  rcases Nat.eq_zero_or_pos k with h0 | h0
  · subst h0; rfl
  · obtain ⟨k', rfl⟩ : ∃ k', k = k' + 1 := ⟨k - 1, by omega⟩
    unfold form
    rw [sum_range_succ, h h0, Nat.add_sub_cancel]; ring

theorem svdIterate_near {negl : ℝ → Bool} (hn : negl 0 = true) {m n k : ℕ} (hk : k < n) {A : Arr2} {δ σ : ℝ}
    (hδ : ∀ x, negl x = true → |x| ≤ δ)
    (hA : ∀ x : ℕ → ℝ, σ * nrm n x ≤ nrm m (fun r => ∑ c ∈ range n, A r c * x c)) (r : ℕ) (st : SvdState) (e : ℝ)
    (he : 0 ≤ e) (hσ : e + (r + 1) * δ + δ < σ) (h : SvdOk m n st) (hs : st.status = 0) (hN : Near m n A k e st)
    (st' : SvdState) (hr : svdIterate negl m n k (r + 1) st = some st') (hs' : st'.status = 0) :
    Near m n A (k - 1) (e + (r + 1) * δ) st' := by
  have hδ0 : 0 ≤ δ := by have := hδ 0 hn; rwa [abs_zero] at this
  induction r using Nat.strong_induction_on generalizing st e with
  | _ r ih =>
  obtain ⟨l, c, e1, e2, e3, e4, e5⟩ := svdSplit_spec hn (w := st.w) h.first k
  rw [svdIterate, e1] at hr
  simp only at hr
  have hr0 : (0 : ℝ) ≤ r := Nat.cast_nonneg r
  -- no diagonal element is negligible
  have hc : c = false := by
    by_contra hc
    have hc' : c = true := by simpa using hc
    obtain ⟨g1, g2, -⟩ := e4 hc'
    have h1 := hδ _ g2
    have h2 := hN.lower h hk (by nlinarith) he hA (l - 1) (by omega)
    nlinarith
  subst hc
  simp only [Bool.false_eq_true, if_false] at hr
  have hd := hN.drop h hk e2 (hδ _ (e3 rfl))
  by_cases hl : l = k
  · rw [if_pos hl] at hr
    obtain rfl := Option.some.inj hr
    subst hl
    intro y x
    rw [svdFlip_form]
    have h1 := hd y x
    simp only at h1
    rw [form_pred _ _ _ _ (fun _ => by simp [FMem.set]),
      form_congr (w' := st.w) (ws' := st.ws) _ _ (fun _ _ => rfl) (fun j hj1 hj2 => by simp only [FMem.set]; rw [if_neg (by omega)])] at h1
    refine h1.trans (mul_le_mul_of_nonneg_right ?_ (mul_nonneg (nrm_nonneg m y) (nrm_nonneg n x)))
    nlinarith
  · rw [if_neg hl] at hr
    rcases Nat.eq_zero_or_pos r with hr1 | hr1
    · subst hr1
      rw [if_pos rfl] at hr
      obtain ⟨st2, g1, g2⟩ := Option.bind_eq_some_iff.1 hr
      have g3 := svdSweep_ok (m := m) (st := { st with status := (k : ℤ) }) (show l < k by omega) hk ⟨h.left, h.right, h.first⟩ g1
      obtain rfl := Option.some.inj g2
      have := g3.2.2
      rw [hs'] at this
      simp only at this
      omega
    · rw [if_neg (by omega)] at hr
      obtain ⟨st2, g1, g2⟩ := Option.bind_eq_some_iff.1 hr
      obtain ⟨w1, w2, w3⟩ := svdSweep_ok (show l < k by omega) hk h g1
      obtain ⟨r', rfl⟩ : ∃ r', r = r' + 1 := ⟨r - 1, by omega⟩
      push_cast at hσ hr0 ⊢
      have hN2 : Near m n A k (e + δ) st2 := by
        intro y x
        rw [svdSweep_form (show l < k by omega) hk g1]
        exact hd y x
      have := ih r' (by omega) st2 (e + δ) (by linarith) (by linarith) w1 (by rw [w3, hs]) hN2 g2
      rw [show e + (↑r' + 1 + 1) * δ = e + δ + (↑r' + 1) * δ by ring]
      exact this

theorem svdDiagonalise_near {negl : ℝ → Bool} (hn : negl 0 = true) {m n : ℕ} {A : Arr2} {δ σ : ℝ}
    (hδ : ∀ x, negl x = true → |x| ≤ δ)
    (hA : ∀ x : ℕ → ℝ, σ * nrm n x ≤ nrm m (fun r => ∑ c ∈ range n, A r c * x c)) (hσ : (30 * n + 1) * δ < σ)
    (st : SvdState) (h : SvdOk m n st) (hs : st.status = 0) (hN : Near m n A (n - 1) 0 st)
    (st' : SvdState) (hr : svdDiagonalise negl m n st = some st') (hs' : st'.status = 0) :
    Near m n A 0 (30 * n * δ) st' := by
  have hδ0 : 0 ≤ δ := by have := hδ 0 hn; rwa [abs_zero] at this
  unfold svdDiagonalise at hr
  have key := forDown_ind n (fun st k => Option.bind st (svdIterate negl m n k 30)) (some st)
    (fun i t => ∃ st', t = some st' ∧ SvdOk m n st' ∧ 0 ≤ st'.status ∧
      (st'.status = 0 → Near m n A (i - 1) (30 * ((n : ℝ) - i) * δ) st'))
    ⟨st, rfl, h, hs.ge, fun _ => by simpa using hN⟩ ?_
  · obtain ⟨st2, k1, -, -, k3⟩ := key
    rw [hr] at k1
    obtain rfl := Option.some.inj k1
    simpa using k3 hs'
  · rintro k t hk ⟨st1, rfl, g1, g2, g3⟩
    obtain ⟨st2, i1, i2, -, i4⟩ := svdIterate_ok hn hk 29 st1 g1
    refine ⟨st2, i1, i2, ?_, ?_⟩
    · rcases i4 with ⟨j1, -⟩ | ⟨-, j1⟩ <;> rw [j1]
      · exact g2
      · exact Int.natCast_nonneg k
    · intro hs2
      rcases i4 with ⟨j1, -⟩ | ⟨j0, j1⟩
      · have hs1 : st1.status = 0 := by rw [← j1, hs2]
        have hkn : ((k : ℝ) + 1) ≤ n := by exact_mod_cast hk
        have hk0 : (0 : ℝ) ≤ k := Nat.cast_nonneg k
        have := svdIterate_near hn hk hδ hA 29 st1 (30 * ((n : ℝ) - ((k + 1 : ℕ) : ℝ)) * δ)
          (by push_cast; exact mul_nonneg (by linarith) hδ0) (by push_cast; nlinarith) g1 hs1 (g3 hs1) st2 i1 hs2
        intro y x
        refine (this y x).trans (mul_le_mul_of_nonneg_right ?_ (mul_nonneg (nrm_nonneg m y) (nrm_nonneg n x)))
        push_cast
        nlinarith
      · rw [j1] at hs2; omega

end Sla
