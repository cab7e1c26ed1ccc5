import Verif.Lemmas.SvdTwo
import Verif.Props.SvdRoutine

/-
C101: `svd` with one or two columns.
-/
namespace Sla.Props
open Matrix Sla Finset

variable {m n : ℕ}

private theorem last_step {negl : ℝ → Bool} (hn : negl 0 = true) {A : Arr2} {e : ℝ} {st : SvdState} (h : SvdOk m n st)
    (hN : Near m n A 0 e st) : ∃ st', svdIterate negl m n 0 30 st = some st' ∧ st'.status = st.status ∧ 0 ≤ st'.w 0 ∧
      (∀ j, j ≠ 0 → st'.w j = st.w j) ∧ Near m n A 0 e st' := by
  obtain ⟨-, f2, f3, f4⟩ := svdFlip_ok (k := 0) h
  refine ⟨_, svdIterate_conv 29 (by rw [h.first, hn]), f4, f2, f3, fun y x => ?_⟩
  have e := svdFlip_form (m := m) (n := n) (k := 0) st y x
  simp only [Nat.zero_sub] at e
  rw [e]; exact hN y x

/-- C101: a matrix with one or two columns, of full rank or not, is always decomposed: the status is zero, the singular values
    are non-negative, and the product U W Vᵀ reproduces the matrix with an error, in the operator norm, of at most 4 u times its
    Frobenius norm.  The test `an + |x| == an` may be any that accepts all numbers below 1e-30 an and none above u an. -/
theorem C101_two_columns {negl : ℝ → ℝ → Bool} {u : ℝ} (hn : NegligibleTest u negl)
    (hs : ∀ an x, |x| ≤ 1e-30 * an → negl an x = true) (h : n ≤ m) (h2 : n ≤ 2) (a v : Arr2) (w ws : FMem) :
    ∃ st, svd negl m n a v w ws = some st ∧ st.status = 0 ∧ (∀ j < n, 0 ≤ st.w j) ∧
      ∀ (y : Fin m → ℝ) (x : Fin n → ℝ),
        |y ⬝ᵥ ((toMat m n a - toMat m n st.a * diagonal (fun j : Fin n => st.w j) * (toMat n n st.v)ᵀ) *ᵥ x)| ≤
          4 * u * fnorm (toMat m n a) * (vlen y * vlen x) := by
  have hu : 0 ≤ u := by have := hn.small 1 0 zero_le_one (hn.zero 1); rw [abs_zero] at this; linarith
  rw [svd_eq negl h]
  rcases Nat.eq_zero_or_pos n with h0 | h0
  · subst h0
    refine ⟨_, rfl, rfl, fun j hj => absurd hj (by omega), fun y x => ?_⟩
    simp only [Subsingleton.elim x 0, mulVec_zero, dotProduct_zero, abs_zero]
    have : 0 ≤ fnorm (toMat m 0 a) := Real.sqrt_nonneg _
    exact mul_nonneg (by positivity) (mul_nonneg (Real.sqrt_nonneg _) (Real.sqrt_nonneg _))
  obtain ⟨an0, an1⟩ := house_an h a w ws
  rw [frob_eq] at an1
  have hge := house_an_ge h a w ws
  have hok := reduced_ok h h0 a v w ws
  have hN : Near m n a (n - 1) 0 (reduced m n a v w ws) := fun y x => by
    rw [← reduced_bil h a v w ws, sub_self, abs_zero, zero_mul]
  have hz := hn.zero (house m n a w ws).an
  have hst : (reduced m n a v w ws).status = 0 := rfl
  have hw : (reduced m n a v w ws).w = (house m n a w ws).w := rfl
  have hws : (reduced m n a v w ws).ws = (house m n a w ws).ws := rfl
  have hδ := fun x => hn.small (house m n a w ws).an x an0
  have hsm := hs (house m n a w ws).an
  generalize reduced m n a v w ws = st0 at *
  rw [← hw, ← hws] at hge
  clear hw hws
  generalize (house m n a w ws).an = an at *
  -- the end
  suffices key : ∃ st, svdDiagonalise (negl an) m n st0 = some st ∧ st.status = 0 ∧ (∀ j < n, 0 ≤ st.w j) ∧ Near m n a 0 (2 * (u * an)) st by
    obtain ⟨st, k1, k2, k3, k4⟩ := key
    refine ⟨st, k1, k2, k3, fun y x => ?_⟩
    have := k4 (ext0 y) (ext0 x)
    rw [bil_ext0, form_ext0, nrm_ext0, nrm_ext0] at this
    rw [sub_mulVec, dotProduct_sub]
    refine this.trans (mul_le_mul_of_nonneg_right ?_ (mul_nonneg (Real.sqrt_nonneg _) (Real.sqrt_nonneg _)))
    have := mul_le_mul_of_nonneg_left an1 hu
    linarith
  obtain rfl | rfl : n = 1 ∨ n = 2 := by omega
  · obtain ⟨st1, e1, e2, e3, -, e5⟩ := last_step hz hok hN
    refine ⟨st1, ?_, by rw [e2, hst], fun j hj => ?_, fun y x => ?_⟩
    · unfold svdDiagonalise
      rw [forDown_succ]
      simp only [Option.bind_some, e1]
      rfl
    · obtain rfl : j = 0 := by omega
      exact e3
    · refine (e5 y x).trans (mul_le_mul_of_nonneg_right ?_ (mul_nonneg (nrm_nonneg m y) (nrm_nonneg 1 x)))
      positivity
  · have g0 := hge 0 (by norm_num)
    have g1 := hge 1 (by norm_num)
    obtain ⟨st1, e1, e2, e3, e4, e5⟩ := svdIterate_two hz hδ hsm hok (by linarith [abs_nonneg (st0.ws 0)])
      (by linarith [abs_nonneg (st0.w 1)]) hN 27
    obtain ⟨st2, d1, d2, d3, d4, d5⟩ := last_step hz e2 e5
    refine ⟨st2, ?_, by rw [d2, e3, hst], fun j hj => ?_, d5⟩
    · unfold svdDiagonalise
      rw [forDown_succ, forDown_succ]
      simp only [Option.bind_some, e1, d1]
      rfl
    · obtain rfl | rfl : j = 0 ∨ j = 1 := by omega
      · exact d3
      · rw [d4 1 one_ne_zero]; exact e4

/-- C101: so a fit with one or two parameters by `svd` and `svdsol` always succeeds: the solution is the shortest of the least-squares
    solutions of a problem whose matrix differs from the given one by at most 4 u times its norm. -/
theorem C101_least_squares {negl : ℝ → ℝ → Bool} {u : ℝ} (hn : NegligibleTest u negl)
    (hs : ∀ an x, |x| ≤ 1e-30 * an → negl an x = true) (h : n ≤ m) (h2 : n ≤ 2) (a v : Arr2) (w ws : FMem) :
    ∃ st, svd negl m n a v w ws = some st ∧ st.status = 0 ∧ ∃ A : Matrix (Fin m) (Fin n) ℝ,
      (∀ (y : Fin m → ℝ) (x : Fin n → ℝ), |y ⬝ᵥ ((toMat m n a - A) *ᵥ x)| ≤ 4 * u * fnorm (toMat m n a) * (vlen y * vlen x)) ∧
      ∀ (np : ℕ) (u' v' b ws' x : FMem), (∀ r < m, ∀ c < n, u' (r * np + c) = st.a r c) →
        (∀ r < n, ∀ c < n, v' (r * np + c) = st.v r c) →
        let X := vecOf n (svdsol m n np b u' st.w v' ws' x).2
        (∀ y, normSq (A *ᵥ X - vecOf m b) ≤ normSq (A *ᵥ y - vecOf m b)) ∧
        ∀ y, normSq (A *ᵥ y - vecOf m b) = normSq (A *ᵥ X - vecOf m b) → y ≠ X → normSq X < normSq y := by
  obtain ⟨st, e1, e2, -, e4⟩ := C101_two_columns hn hs h h2 a v w ws
  refine ⟨st, e1, e2, _, e4, fun np u' v' b ws' x hu hv => ?_⟩
  have eu : matOf m n np u' = toMat m n st.a := by ext i j; exact hu i i.2 j j.2
  have ev : matOf n n np v' = toMat n n st.v := by ext i j; exact hv i i.2 j j.2
  obtain ⟨o1, o2, -⟩ := C69_orthonormal hn h a v w ws e1
  have key := C44_svdsol m n np b u' st.w v' ws' x (by rw [eu, o1]) (by rw [ev, o2])
  have e3 : matOf m n np u' * diagonal (vecOf n st.w) * (matOf n n np v')ᵀ =
      toMat m n st.a * diagonal (fun j : Fin n => st.w j) * (toMat n n st.v)ᵀ := by rw [eu, ev]; rfl
  simp only [e3] at key
  exact key

/-- A test as double precision makes it, up to a factor of two in the limit. -/
noncomputable def neglDouble (an x : ℝ) : Bool := decide (|x| ≤ (1 / 2 ^ 53) * |an|)

example : NegligibleTest (1 / 2 ^ 53) neglDouble ∧ ∀ an x, |x| ≤ 1e-30 * an → neglDouble an x = true := by
  refine ⟨⟨fun an => ?_, fun an x h0 h => ?_⟩, fun an x h => ?_⟩
  · simp [neglDouble]
  · simp only [neglDouble, decide_eq_true_eq] at h
    rwa [abs_of_nonneg h0] at h
  · simp only [neglDouble, decide_eq_true_eq]
    have h0 : 0 ≤ an := by
      by_contra hc
      have := abs_nonneg x
      rw [not_le] at hc
      nlinarith
    rw [abs_of_nonneg h0]
    norm_num at *
    nlinarith

end Sla.Props
