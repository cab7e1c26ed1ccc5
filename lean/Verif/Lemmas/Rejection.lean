/- Sources that split into an independent value and a fresh copy of themselves, and rejection sampling from them. -/
import Mathlib.Probability.ProductMeasure
import Mathlib.Probability.ConditionalProbability
import Mathlib.MeasureTheory.Measure.Prod

open MeasureTheory ProbabilityTheory Set
open scoped ENNReal

namespace Sla.Rejection

variable {S X : Type*} [MeasurableSpace S] [MeasurableSpace X]

/-- The state after `k` values have been taken from the source `G`. -/
def st (G : S → X × S) : ℕ → S → S
  | 0, s => s
  | k + 1, s => st G k (G s).2

/-- The `k`-th value. -/
def out (G : S → X × S) (k : ℕ) (s : S) : X := (G (st G k s)).1

omit [MeasurableSpace S] [MeasurableSpace X] in
theorem out_succ (G : S → X × S) (k : ℕ) (s : S) : out G (k + 1) s = out G k (G s).2 := rfl

omit [MeasurableSpace S] [MeasurableSpace X] in
theorem st_succ' (G : S → X × S) (k : ℕ) (s : S) : st G (k + 1) s = (G (st G k s)).2 := by
  induction k generalizing s with
  | zero => rfl
  | succ k ih => exact ih _

variable {G : S → X × S} (hG : Measurable G)
include hG

theorem measurable_st (k : ℕ) : Measurable (st G k) := by
  induction k with
  | zero => exact measurable_id
  | succ k ih => exact ih.comp (measurable_snd.comp hG)

theorem measurable_out (k : ℕ) : Measurable (out G k) :=
  measurable_fst.comp (hG.comp (measurable_st hG k))

variable {D : Set X}

private theorem meas_before (hD : MeasurableSet D) (k : ℕ) : MeasurableSet {s | ∀ j < k, out G j s ∉ D} := by
  simp only [ofPred_forall]
  exact MeasurableSet.iInter fun i => MeasurableSet.iInter fun _ => (measurable_out hG i hD).compl

private theorem meas_never (hD : MeasurableSet D) : MeasurableSet {s | ∀ j, out G j s ∉ D} := by
  simp only [ofPred_forall]
  exact MeasurableSet.iInter fun i => (measurable_out hG i hD).compl

variable {μ : Measure S} {ν : Measure X} [IsProbabilityMeasure μ] [IsProbabilityMeasure ν]
  (hμ : μ.map G = ν.prod μ)
include hμ

omit [IsProbabilityMeasure ν] in
theorem step (A : Set X) (hA : MeasurableSet A) (B : Set S) (hB : MeasurableSet B) :
    μ {s | (G s).1 ∈ A ∧ (G s).2 ∈ B} = ν A * μ B := by
  have := Measure.map_apply (μ := μ) hG (hA.prod hB)
  rw [hμ, Measure.prod_prod] at this
  rw [this]
  rfl

omit [IsProbabilityMeasure ν] in
private theorem boxes (N : ℕ) (t : ℕ → Set X) (ht : ∀ i, MeasurableSet (t i)) :
    μ {s | ∀ i < N, out G i s ∈ t i} = ∏ i ∈ Finset.range N, ν (t i) := by
  induction N generalizing t with
  | zero => simp
  | succ N ih =>
    rw [Finset.prod_range_succ', ← ih (fun i => t (i + 1)) (fun i => ht _), mul_comm,
      ← step hG hμ (t 0) (ht 0) _ (by
        simp only [ofPred_forall]
        exact MeasurableSet.iInter fun i => MeasurableSet.iInter fun _ => measurable_out hG i (ht _))]
    congr 1
    ext s
    simp only [mem_ofPred_eq]
    constructor
    · intro h
      exact ⟨h 0 (by omega), fun i hi => h (i + 1) (by omega)⟩
    · rintro ⟨h0, h1⟩ i hi
      cases i with
      | zero => exact h0
      | succ i => exact h1 i (by omega)

/-- The values are independent and identically distributed. -/
theorem map_out : μ.map (fun s k => out G k s) = Measure.infinitePi fun _ : ℕ => ν := by
  classical
  refine Measure.eq_infinitePi _ fun s t ht => ?_
  rw [Measure.map_apply (measurable_pi_lambda _ fun k => measurable_out hG k)
    (MeasurableSet.pi s.countable_toSet fun i _ => ht i)]
  obtain ⟨N, hN⟩ : ∃ N, s ⊆ Finset.range N :=
    ⟨s.sup id + 1, fun i hi => Finset.mem_range.2 (Nat.lt_succ_of_le (Finset.le_sup (f := id) hi))⟩
  have := boxes hG hμ N (fun i => if i ∈ s then t i else univ) (fun i => by
    split
    · exact ht i
    · exact MeasurableSet.univ)
  rw [← Finset.prod_subset hN (f := fun i => ν (if i ∈ s then t i else univ)) (fun i _ hi => by simp [hi])] at this
  rw [Finset.prod_congr rfl (g := fun i => ν (t i)) (fun i hi => by simp [hi])] at this
  rw [← this]
  congr 1
  ext x
  simp only [mem_preimage, Set.mem_pi, Finset.mem_coe, mem_ofPred_eq]
  constructor
  · intro h i _
    split
    · exact h i ‹_›
    · trivial
  · intro h i hi
    have := h i (Finset.mem_range.1 (hN hi))
    rwa [if_pos hi] at this

variable (hD : MeasurableSet D)
include hD

omit [IsProbabilityMeasure ν] in
private theorem round (A : Set X) (hA : MeasurableSet A) (B : Set S) (hB : MeasurableSet B) (k : ℕ) :
    μ {s | (∀ j < k, out G j s ∉ D) ∧ out G k s ∈ D ∩ A ∧ st G (k + 1) s ∈ B} =
      ν Dᶜ ^ k * (ν (D ∩ A) * μ B) := by
  induction k with
  | zero =>
    rw [pow_zero, one_mul, ← step hG hμ _ (hD.inter hA) _ hB]
    simp only [not_lt_zero, IsEmpty.forall_iff, implies_true, true_and]
    rfl
  | succ k ih =>
    rw [pow_succ', mul_assoc, ← ih, ← step hG hμ _ hD.compl _ (by
      exact MeasurableSet.inter (meas_before hG hD k) (MeasurableSet.inter (measurable_out hG k (hD.inter hA))
        (measurable_st hG (k + 1) hB)))]
    congr 1
    ext s
    simp only [mem_ofPred_eq]
    constructor
    · rintro ⟨h1, h2, h3⟩
      exact ⟨h1 0 (by omega), fun j hj => h1 (j + 1) (by omega), h2, h3⟩
    · rintro ⟨h0, h1, h2, h3⟩
      refine ⟨fun j hj => ?_, h2, h3⟩
      cases j with
      | zero => exact h0
      | succ j => exact h1 j (by omega)

private theorem rounds (A : Set X) (hA : MeasurableSet A) (B : Set S) (hB : MeasurableSet B) :
    μ {s | ∃ k, (∀ j < k, out G j s ∉ D) ∧ out G k s ∈ D ∩ A ∧ st G (k + 1) s ∈ B} = ν[|D] A * μ B := by
  rw [ofPred_exists, measure_iUnion]
  · simp only [round hG hμ hD A hA B hB]
    rw [ENNReal.tsum_mul_right, ENNReal.tsum_geometric, prob_compl_eq_one_sub hD,
      ENNReal.sub_sub_cancel ENNReal.one_ne_top prob_le_one, ← mul_assoc, ProbabilityTheory.cond_apply hD]
  · intro i j hij
    rw [Function.onFun, Set.disjoint_left]
    rintro s ⟨hi1, hi2, -⟩ ⟨hj1, hj2, -⟩
    rcases lt_or_gt_of_ne hij with h | h
    · exact hj1 i h hi2.1
    · exact hi1 j h hj2.1
  · intro k
    exact MeasurableSet.inter (meas_before hG hD k) (MeasurableSet.inter (measurable_out hG k (hD.inter hA))
      (measurable_st hG (k + 1) hB))

/-- Almost surely some value is accepted. -/
theorem accepts (h0 : ν D ≠ 0) : ∀ᵐ s ∂μ, ∃ k, out G k s ∈ D := by
  have h1 := rounds hG hμ hD univ MeasurableSet.univ univ MeasurableSet.univ
  have : IsProbabilityMeasure ν[|D] := cond_isProbabilityMeasure h0
  rw [measure_univ, measure_univ, one_mul] at h1
  have h2 : μ {s | ∃ k, out G k s ∈ D} = 1 := by
    refine le_antisymm prob_le_one ?_
    rw [← h1]
    refine measure_mono ?_
    rintro s ⟨k, -, hk, -⟩
    exact ⟨k, hk.1⟩
  have hm : MeasurableSet {s | ∃ k, out G k s ∈ D} := by
    rw [ofPred_exists]
    exact MeasurableSet.iUnion fun k => measurable_out hG k hD
  exact (prob_compl_eq_zero_iff hm).2 h2

omit hD hG hμ

omit [MeasurableSpace S] [MeasurableSpace X] in
theorem exists_stop (G : S → X × S) (D : Set X) (s : S) : ∃ k, out G k s ∈ D ∨ ∀ j, out G j s ∉ D := by
  by_cases h : ∃ k, out G k s ∈ D
  · exact h.imp fun _ => Or.inl
  · exact ⟨0, Or.inr (not_exists.1 h)⟩

open Classical in
/-- The number of rejections before the first acceptance (zero if there is none). -/
noncomputable def rej (G : S → X × S) (D : Set X) (s : S) : ℕ := Nat.find (exists_stop G D s)

/-- The first accepted value and the state after it. -/
noncomputable def accept (G : S → X × S) (D : Set X) (s : S) : X × S :=
  (out G (rej G D s) s, st G (rej G D s + 1) s)

omit [MeasurableSpace S] [MeasurableSpace X] in
theorem rej_eq {G : S → X × S} {D : Set X} {s : S} {k : ℕ} (h : out G k s ∈ D) (h' : ∀ j < k, out G j s ∉ D) :
    rej G D s = k := by
  classical
  unfold rej
  rw [Nat.find_eq_iff]
  refine ⟨Or.inl h, fun j hj => ?_⟩
  rintro (h1 | h1)
  · exact h' j hj h1
  · exact h1 k h

include hG hD

theorem measurable_accept : Measurable (accept G D) := by
  classical
  exact Measurable.find (f := fun k s => (out G k s, st G (k + 1) s))
    (p := fun k s => out G k s ∈ D ∨ ∀ j, out G j s ∉ D)
    (fun k => (measurable_out hG k).prodMk (measurable_st hG (k + 1)))
    (fun k => MeasurableSet.union (measurable_out hG k hD) (meas_never hG hD)) (exists_stop G D)

include hμ

/-- The first accepted value has the conditional law, and is independent of the state after it, which is as fresh as at
    the start. -/
theorem map_accept (h0 : ν D ≠ 0) : μ.map (accept G D) = ν[|D].prod μ := by
  have : IsProbabilityMeasure ν[|D] := cond_isProbabilityMeasure h0
  refine (Measure.prod_eq fun A B hA hB => ?_).symm
  rw [Measure.map_apply (measurable_accept hG hD) (hA.prod hB), ← rounds hG hμ hD A hA B hB]
  refine measure_congr ?_
  filter_upwards [accepts hG hμ hD h0] with s hs
  classical
  obtain ⟨k, hk, hk'⟩ : ∃ k, out G k s ∈ D ∧ ∀ j < k, out G j s ∉ D :=
    ⟨Nat.find hs, Nat.find_spec hs, fun j hj => Nat.find_min hs hj⟩
  have e := rej_eq hk hk'
  refine propext ?_
  change accept G D s ∈ A ×ˢ B ↔ _
  simp only [accept, e, mem_prod]
  constructor
  · rintro ⟨h1, h2⟩
    exact ⟨k, hk', ⟨hk, h1⟩, h2⟩
  · rintro ⟨k', h1, h2, h3⟩
    have : rej G D s = k' := rej_eq h2.1 h1
    obtain rfl : k = k' := by omega
    exact ⟨h2.2, h3⟩

end Sla.Rejection
