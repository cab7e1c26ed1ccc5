/- C85: the residuals of `gresid` are normally distributed. -/
import Verif.Props.Misc
import Verif.Lemmas.BoxMuller
import Verif.Lemmas.Rejection
import Mathlib.Probability.Independence.InfinitePi
import Mathlib.MeasureTheory.Measure.Lebesgue.EqHaar

noncomputable section
namespace Sla.Props

open MeasureTheory ProbabilityTheory Set
open Sla.Rejection Sla.BoxMuller
open scoped ENNReal Pointwise

/-! ## Streams -/

section Streams

variable {X : Type*} [MeasurableSpace X] (κ : Measure X) [IsProbabilityMeasure κ]

/-- The law of a stream of independent values, each with law `κ`. -/
abbrev streamLaw : Measure (ℕ → X) := Measure.infinitePi fun _ : ℕ => κ

private def cons (q : X × (ℕ → X)) : ℕ → X
  | 0 => q.1
  | n + 1 => q.2 n

private theorem measurable_cons : Measurable (cons : X × (ℕ → X) → ℕ → X) := by
  refine measurable_pi_lambda _ fun n => ?_
  cases n with
  | zero => exact measurable_fst
  | succ n => exact (measurable_pi_apply n).comp measurable_snd

private theorem map_cons : (κ.prod (streamLaw κ)).map cons = streamLaw κ := by
  classical
  refine Measure.eq_infinitePi _ fun s t ht => ?_
  rw [Measure.map_apply measurable_cons (MeasurableSet.pi s.countable_toSet fun i _ => ht i)]
  obtain ⟨N, hN⟩ : ∃ N, s ⊆ Finset.range N :=
    ⟨s.sup id + 1, fun i hi => Finset.mem_range.2 (Nat.lt_succ_of_le (Finset.le_sup (f := id) hi))⟩
  have hN' : s ⊆ Finset.range (N + 1) := hN.trans (Finset.range_subset_range.2 (Nat.le_succ N))
  set t' : ℕ → Set X := fun i => if i ∈ s then t i else univ with ht'
  have mt' : ∀ i, MeasurableSet (t' i) := fun i => by
    simp only [ht']
    split
    · exact ht i
    · exact MeasurableSet.univ
  have e1 : ∏ i ∈ s, κ (t i) = ∏ i ∈ Finset.range (N + 1), κ (t' i) := by
    rw [← Finset.prod_subset hN' (fun i _ hi => by simp [ht', hi])]
    exact Finset.prod_congr rfl fun i hi => by simp [ht', hi]
  have e2 : cons ⁻¹' (s : Set ℕ).pi t = t' 0 ×ˢ (Finset.range N : Set ℕ).pi fun i => t' (i + 1) := by
    ext q
    simp only [mem_preimage, Set.mem_pi, Finset.mem_coe, mem_prod, Finset.mem_range]
    constructor
    · intro h
      have : ∀ i, cons q i ∈ t' i := fun i => by
        simp only [ht']
        split
        · exact h i ‹_›
        · trivial
      exact ⟨this 0, fun i _ => this (i + 1)⟩
    · rintro ⟨h0, h1⟩ i hi
      have hi' := Finset.mem_range.1 (hN' hi)
      have : cons q i ∈ t' i := by
        cases i with
        | zero => exact h0
        | succ i => exact h1 i (by omega)
      simpa [ht', hi] using this
  rw [e1, e2, Measure.prod_prod, Measure.infinitePi_pi _ (fun i _ => mt' _), Finset.prod_range_succ', mul_comm]

private theorem map_uncons :
    (streamLaw κ).map (fun v => (v 0, fun n => v (n + 1))) = κ.prod (streamLaw κ) := by
  have hm : Measurable fun v : ℕ → X => (v 0, fun n => v (n + 1)) := by fun_prop
  conv_lhs => rw [← map_cons κ]
  rw [Measure.map_map hm measurable_cons]
  exact Measure.map_id

/-- The first two values and the rest. -/
def takeTwo (v : ℕ → X) : (X × X) × (ℕ → X) := ((v 0, v 1), fun n => v (n + 2))

theorem measurable_takeTwo : Measurable (takeTwo : (ℕ → X) → _) := by
  unfold takeTwo
  fun_prop

theorem map_takeTwo : (streamLaw κ).map takeTwo = (κ.prod κ).prod (streamLaw κ) := by
  have hm : Measurable fun v : ℕ → X => (v 0, fun n => v (n + 1)) := by fun_prop
  have e : (takeTwo : (ℕ → X) → _) = MeasurableEquiv.prodAssoc.symm ∘
      Prod.map id (fun v : ℕ → X => (v 0, fun n => v (n + 1))) ∘ fun v => (v 0, fun n => v (n + 1)) := rfl
  rw [e, ← Measure.map_map MeasurableEquiv.prodAssoc.symm.measurable ((measurable_id.prodMap hm).comp hm),
    ← Measure.map_map (measurable_id.prodMap hm) hm, map_uncons,
    ← Measure.map_prod_map _ _ measurable_id hm, map_uncons, Measure.map_id, ← Measure.prodAssoc_prod,
    Measure.map_map MeasurableEquiv.prodAssoc.symm.measurable MeasurableEquiv.prodAssoc.measurable]
  simp

omit [MeasurableSpace X] in
theorem st_takeTwo (k : ℕ) (v : ℕ → X) : st takeTwo k v = fun n => v (n + 2 * k) := by
  induction k generalizing v with
  | zero => rfl
  | succ k ih =>
    rw [st, ih]
    funext n
    simp only [takeTwo]
    congr 1

omit [MeasurableSpace X] in
theorem out_takeTwo (k : ℕ) (v : ℕ → X) : out takeTwo k v = (v (2 * k), v (2 * k + 1)) := by
  rw [out, st_takeTwo]
  simp [takeTwo, add_comm]

/-- Pairs laid out one after the other. -/
def interleave (z : ℕ → X × X) (n : ℕ) : X := if n % 2 = 0 then (z (n / 2)).1 else (z (n / 2)).2

theorem measurable_interleave : Measurable (interleave : (ℕ → X × X) → ℕ → X) := by
  refine measurable_pi_lambda _ fun n => ?_
  unfold interleave
  split <;> fun_prop

theorem map_interleave : (streamLaw (κ.prod κ)).map interleave = streamLaw κ := by
  have h := map_out (X := X × X) measurable_takeTwo (map_takeTwo κ)
  rw [streamLaw, ← h, Measure.map_map measurable_interleave
    (measurable_pi_lambda _ fun k => measurable_out measurable_takeTwo k)]
  convert Measure.map_id
  funext v n
  simp only [Function.comp, interleave, out_takeTwo, id]
  split
  · congr 1
    omega
  · congr 1
    omega

end Streams

/-! ## Uniform points -/

/-- The law of the uniform numbers. -/
abbrev unifLaw : Measure ℝ := volume.restrict (Icc 0 1)

instance : IsProbabilityMeasure unifLaw := ⟨by simp⟩

/-- The uniform law on the unit disc. -/
def discLaw : Measure (ℝ × ℝ) := (ENNReal.ofReal Real.pi)⁻¹ • volume.restrict disc

private def toPoint (q : ℝ × ℝ) : ℝ × ℝ := (2 * q.1 - 1, 2 * q.2 - 1)

private theorem measurable_toPoint : Measurable toPoint := by
  unfold toPoint
  fun_prop

private def sqLaw : Measure (ℝ × ℝ) := (unifLaw.prod unifLaw).map toPoint

private instance : IsProbabilityMeasure sqLaw := Measure.isProbabilityMeasure_map measurable_toPoint.aemeasurable

private theorem map_affine :
    unifLaw.map (fun x : ℝ => 2 * x - 1) = (2 : ℝ≥0∞)⁻¹ • volume.restrict (Icc (-1) 1) := by
  have hm : Measurable fun x : ℝ => 2 * x - 1 := by fun_prop
  have h1 : (volume : Measure ℝ).map (fun x : ℝ => 2 * x - 1) = (2 : ℝ≥0∞)⁻¹ • volume := by
    have e : (fun x : ℝ => 2 * x - 1) = (fun x => x - 1) ∘ (fun x => 2 * x) := rfl
    rw [e, ← Measure.map_map (by fun_prop) (by fun_prop), Real.map_volume_mul_left (by norm_num : (2 : ℝ) ≠ 0),
      Measure.map_smul, map_sub_right_eq_self]
    congr 1
    rw [abs_of_pos (by norm_num), ENNReal.ofReal_inv_of_pos (by norm_num)]
    norm_num
  have h2 : (fun x : ℝ => 2 * x - 1) ⁻¹' Icc (-1) 1 = Icc 0 1 := by
    ext x
    simp only [mem_preimage, mem_Icc]
    constructor <;> rintro ⟨a, b⟩ <;> constructor <;> linarith
  rw [unifLaw, ← h2, ← Measure.restrict_map hm measurableSet_Icc, h1, Measure.restrict_smul]

private theorem sqLaw_eq : sqLaw = (4 : ℝ≥0∞)⁻¹ • volume.restrict (Icc (-1) 1 ×ˢ Icc (-1) 1) := by
  have hm : Measurable fun x : ℝ => 2 * x - 1 := by fun_prop
  have e : toPoint = Prod.map (fun x : ℝ => 2 * x - 1) (fun x : ℝ => 2 * x - 1) := rfl
  rw [sqLaw, e, ← Measure.map_prod_map _ _ hm hm, map_affine, Measure.prod_smul_left, Measure.prod_smul_right,
    Measure.prod_restrict, smul_smul, ← Measure.volume_eq_prod]
  congr 1
  rw [← ENNReal.mul_inv (by simp) (by simp)]
  norm_num

private theorem disc_sub : disc ⊆ Icc (-1) 1 ×ˢ Icc (-1) 1 := by
  rintro ⟨x, y⟩ h
  have h' : x ^ 2 + y ^ 2 < 1 := h
  simp only [mem_prod, mem_Icc]
  refine ⟨⟨?_, ?_⟩, ?_, ?_⟩ <;> nlinarith

private theorem sqLaw_disc : sqLaw disc = (4 : ℝ≥0∞)⁻¹ * ENNReal.ofReal Real.pi := by
  rw [sqLaw_eq, Measure.smul_apply, Measure.restrict_apply measurableSet_disc, inter_eq_left.2 disc_sub, volume_disc,
    smul_eq_mul]

private theorem sqLaw_disc_ne : sqLaw disc ≠ 0 := by
  rw [sqLaw_disc]
  simp [Real.pi_pos]

private theorem cond_sqLaw : sqLaw[|disc] = discLaw := by
  rw [ProbabilityTheory.cond, sqLaw_disc, sqLaw_eq, Measure.restrict_smul,
    Measure.restrict_restrict measurableSet_disc, inter_eq_left.2 disc_sub, smul_smul, discLaw]
  congr 1
  rw [ENNReal.mul_inv (by simp) (by simp), inv_inv, mul_comm, ← mul_assoc,
    ENNReal.inv_mul_cancel (by norm_num) (by norm_num), one_mul]

instance : IsProbabilityMeasure discLaw := by
  rw [← cond_sqLaw]
  exact cond_isProbabilityMeasure sqLaw_disc_ne

private theorem discLaw_small : discLaw {q | sq2 q < 1e-20} = ENNReal.ofReal 1e-20 := by
  have e : {q : ℝ × ℝ | sq2 q < 1e-20} = (1e-10 : ℝ) • disc := by
    ext q
    rw [Set.mem_smul_set_iff_inv_smul_mem₀ (by norm_num)]
    simp only [mem_ofPred_eq, sq2, disc, Prod.smul_fst, Prod.smul_snd, smul_eq_mul]
    constructor <;> intro h <;> norm_num at h ⊢ <;> nlinarith
  have hsub : {q : ℝ × ℝ | sq2 q < 1e-20} ⊆ disc := fun q hq => by
    have : sq2 q < 1e-20 := hq
    exact lt_trans this (by norm_num)
  have hm : MeasurableSet {q : ℝ × ℝ | sq2 q < 1e-20} := by
    unfold sq2
    exact measurableSet_lt (by fun_prop) measurable_const
  rw [discLaw, Measure.smul_apply, Measure.restrict_apply hm, inter_eq_left.2 hsub, e, Measure.addHaar_smul,
    volume_disc, smul_eq_mul, mul_comm, mul_assoc, ENNReal.mul_inv_cancel (by simp [Real.pi_pos]) (by simp), mul_one]
  congr 1
  simp [Module.finrank_prod]
  norm_num

/-- A point and the rest of the uniforms. -/
private def draw (u : ℕ → ℝ) : (ℝ × ℝ) × (ℕ → ℝ) := (toPoint (takeTwo u).1, (takeTwo u).2)

private theorem measurable_draw : Measurable draw :=
  (measurable_toPoint.comp (measurable_fst.comp measurable_takeTwo)).prodMk (measurable_snd.comp measurable_takeTwo)

private theorem map_draw : (streamLaw unifLaw).map draw = sqLaw.prod (streamLaw unifLaw) := by
  have e : draw = Prod.map toPoint id ∘ takeTwo := rfl
  rw [e, ← Measure.map_map (measurable_toPoint.prodMap measurable_id) measurable_takeTwo, map_takeTwo,
    ← Measure.map_prod_map _ _ measurable_toPoint measurable_id, Measure.map_id]
  rfl

private theorem st_draw (k : ℕ) (u : ℕ → ℝ) : st draw k u = fun n => u (n + 2 * k) := by
  induction k generalizing u with
  | zero => rfl
  | succ k ih =>
    rw [st, ih]
    funext n
    simp only [draw, takeTwo]
    congr 1

private theorem out_draw (k p : ℕ) (u : ℕ → ℝ) : out draw k (fun n => u (n + p)) = pointAt u p k := by
  rw [out, st_draw]
  simp only [draw, takeTwo, toPoint, pointAt]
  ring_nf

/-- The accepted points, one after the other. -/
private def accepted (u : ℕ → ℝ) : (ℝ × ℝ) × (ℕ → ℝ) := accept draw disc u

private theorem measurable_accepted : Measurable accepted := measurable_accept measurable_draw measurableSet_disc

private theorem map_accepted : (streamLaw unifLaw).map accepted = discLaw.prod (streamLaw unifLaw) := by
  rw [← cond_sqLaw]
  exact map_accept measurable_draw map_draw measurableSet_disc sqLaw_disc_ne

/-- The deviates belonging to a stream of uniforms. -/
private def deviates (u : ℕ → ℝ) : ℕ → ℝ := interleave fun k => bm (out accepted k u)

private theorem measurable_deviates : Measurable deviates :=
  measurable_interleave.comp (measurable_pi_lambda _ fun k => measurable_bm.comp (measurable_out measurable_accepted k))

private theorem map_deviates : (streamLaw unifLaw).map deviates = streamLaw (gaussianReal 0 1) := by
  have e : deviates = interleave ∘ (fun (z : ℕ → ℝ × ℝ) k => bm (z k)) ∘ fun u k => out accepted k u := rfl
  have m1 : Measurable fun (u : ℕ → ℝ) k => out accepted k u :=
    measurable_pi_lambda _ fun k => measurable_out measurable_accepted k
  have m2 : Measurable fun (z : ℕ → ℝ × ℝ) k => bm (z k) :=
    measurable_pi_lambda _ fun k => measurable_bm.comp (measurable_pi_apply k)
  rw [e, ← Measure.map_map measurable_interleave (m2.comp m1), ← Measure.map_map m2 m1,
    map_out measurable_accepted map_accepted,
    Measure.infinitePi_map_pi (μ := fun _ : ℕ => discLaw) (f := fun _ => bm) (fun _ => measurable_bm)]
  simp only [map_bm discLaw rfl]
  exact map_interleave _

/-! ## The calls -/

private theorem isPair_eq (q : ℝ × ℝ) (g1 g2 : ℝ) (h : IsPair q g1 g2) (h0 : 0 < sq2 q) : (g1, g2) = bm q := by
  obtain ⟨x, y⟩ := q
  obtain ⟨hl, hp, h1, h2⟩ := h
  simp only [sq2] at *
  set s := x ^ 2 + y ^ 2 with hs
  set c := (g1 * y + g2 * x) / s with hc
  have hcs : c * s = g1 * y + g2 * x := by rw [hc]; field_simp
  have e1 : g1 = y * c := by
    have : s * (g1 - y * c) = 0 := by
      have : s * (g1 - y * c) = s * g1 - y * (c * s) := by ring
      rw [this, hcs, hs]
      linear_combination x * hp
    rcases mul_eq_zero.1 this with h | h
    · exact absurd h h0.ne'
    · linarith
  have e2 : g2 = x * c := by
    have : s * (g2 - x * c) = 0 := by
      have : s * (g2 - x * c) = s * g2 - x * (c * s) := by ring
      rw [this, hcs, hs]
      linear_combination -y * hp
    rcases mul_eq_zero.1 this with h | h
    · exact absurd h h0.ne'
    · linarith
  have hc0 : 0 ≤ c := div_nonneg (by linarith) h0.le
  have e3 : c = √(-2 * Real.log s / s) := by
    rw [← hl, e1, e2, show (y * c) ^ 2 + (x * c) ^ 2 = c ^ 2 * s by rw [hs]; ring, mul_div_cancel_right₀ _ h0.ne',
      Real.sqrt_sq hc0]
  simp only [bm]
  rw [← hs, ← e3, ← e1, ← e2]

private theorem accepted_eq (u : ℕ → ℝ) (p k : ℕ) (h : sq2 (pointAt u p k) < 1)
    (h' : ∀ j < k, 1 ≤ sq2 (pointAt u p j)) :
    accepted (fun n => u (n + p)) = (pointAt u p k, fun n => u (n + (p + 2 * (k + 1)))) := by
  have e : rej draw disc (fun n => u (n + p)) = k := by
    refine rej_eq ?_ fun j hj => ?_
    · rw [out_draw]
      exact h
    · rw [out_draw]
      exact not_lt.2 (h' j hj)
  rw [accepted, accept, e, out_draw, st_draw]
  congr 1
  funext n
  congr 1
  ring

private theorem deviates_zero (u : ℕ → ℝ) : deviates u 0 = (bm (accepted u).1).1 := rfl
private theorem deviates_one (u : ℕ → ℝ) : deviates u 1 = (bm (accepted u).1).2 := rfl
private theorem deviates_add (u : ℕ → ℝ) (n : ℕ) : deviates u (n + 2) = deviates (accepted u).2 n := by
  simp only [deviates, interleave, Nat.add_mod_right, Nat.add_div_right n two_pos]
  rfl

private theorem out_add (u : ℕ → ℝ) (n : ℕ) :
    out accepted ((n + 2) / 2) u = out accepted (n / 2) (accepted u).2 := by
  rw [Nat.add_div_right n two_pos]
  rfl

private theorem calls_values (fuel : ℕ) (u : ℕ → ℝ) : ∀ (m : ℕ) (ds : List ℝ) (_ : ds.length ≤ m) (s s' : Gresid)
    (_ : s.first = true) (os : List (Option ℝ)) (_ : gresidCalls fuel u s ds = some (os, s')) (n : ℕ)
    (_ : n < ds.length) (_ : 1e-20 ≤ sq2 (out accepted (n / 2) fun k => u (k + s.pos))),
    os[n]? = some ((ds[n]?).map (· * deviates (fun k => u (k + s.pos)) n)) := by
  intro m
  induction m using Nat.strong_induction_on with
  | _ m ih =>
  intro ds hm s s' hs os h n hn hfl
  match ds, hm, h, hn with
  | d1 :: ds, hm, h, hn =>
    simp only [gresidCalls] at h
    cases e1 : gresid fuel u s d1 with
    | none => rw [e1] at h; simp at h
    | some t1 =>
    obtain ⟨o1, s1⟩ := t1
    rw [e1] at h
    simp only at h
    match ds, hm, h, hn with
    | [], hm, h, hn =>
      obtain rfl : n = 0 := by simpa using hn
      obtain ⟨k, o2, s2, e2, -, hs2, hp1, hp2, hrej, hacc, hzero, hpair⟩ :=
        C55_pair fuel fuel u s s1 d1 d1 o1 hs e1
      have ea := accepted_eq u s.pos k hacc hrej
      have hz : 1e-20 ≤ sq2 (pointAt u s.pos k) := by
        have := hfl
        simp only [Nat.zero_div, out, st, ea] at this
        exact this
      obtain ⟨g1, g2, hg, ho1, -⟩ := hpair hz
      have hb := isPair_eq _ _ _ hg (lt_of_lt_of_le (by norm_num) hz)
      simp only [gresidCalls, Option.some.injEq, Prod.mk.injEq] at h
      obtain ⟨rfl, rfl⟩ := h
      rw [deviates_zero, ea, ← hb, ho1]
      simp [mul_comm]
    | d2 :: ds, hm, h, hn =>
      obtain ⟨k, o2, s2, e2, -, hs2, hp1, hp2, hrej, hacc, hzero, hpair⟩ :=
        C55_pair fuel fuel u s s1 d1 d2 o1 hs e1
      have ea := accepted_eq u s.pos k hacc hrej
      simp only [gresidCalls, e2] at h
      cases e3 : gresidCalls fuel u s2 ds with
      | none => rw [e3] at h; simp at h
      | some t3 =>
      obtain ⟨os', s3⟩ := t3
      rw [e3] at h
      simp only [Option.some.injEq, Prod.mk.injEq] at h
      obtain ⟨rfl, rfl⟩ := h
      have hpos : s2.pos = s.pos + 2 * (k + 1) := by rw [hp2, hp1]
      match n, hn, hfl with
      | 0, hn, hfl =>
        have hz : 1e-20 ≤ sq2 (pointAt u s.pos k) := by
          have := hfl
          simp only [Nat.zero_div, out, st, ea] at this
          exact this
        obtain ⟨g1, g2, hg, ho1, -⟩ := hpair hz
        have hb := isPair_eq _ _ _ hg (lt_of_lt_of_le (by norm_num) hz)
        rw [deviates_zero, ea, ← hb, ho1]
        simp [mul_comm]
      | 1, hn, hfl =>
        have hz : 1e-20 ≤ sq2 (pointAt u s.pos k) := by
          have := hfl
          rw [show 1 / 2 = 0 from rfl] at this
          simp only [out, st, ea] at this
          exact this
        obtain ⟨g1, g2, hg, -, ho2⟩ := hpair hz
        have hb := isPair_eq _ _ _ hg (lt_of_lt_of_le (by norm_num) hz)
        rw [deviates_one, ea, ← hb, ho2]
        simp [mul_comm]
      | n + 2, hn, hfl =>
        rw [out_add, ea, ← hpos] at hfl
        have := ih (m - 2) (by simp only [List.length_cons] at hm; omega) ds
          (by simp only [List.length_cons] at hm; omega) s2 s3 hs2 os' e3 n
          (by simp only [List.length_cons] at hn; omega) hfl
        rw [deviates_add, ea, ← hpos]
        simpa using this

private theorem loop_mono (u : ℕ → ℝ) (t) : ∀ (fuel fuel' p : ℕ), fuel ≤ fuel' → gresidLoop u fuel p = some t →
    gresidLoop u fuel' p = some t := by
  intro fuel
  induction fuel with
  | zero => intro _ _ _ h; cases h
  | succ f ih =>
    intro fuel' p hle h
    obtain ⟨f', rfl⟩ := Nat.exists_eq_succ_of_ne_zero (by omega : fuel' ≠ 0)
    simp only [gresidLoop] at h ⊢
    split at h
    · rw [if_pos ‹_›]
      exact ih f' _ (by omega) h
    · rw [if_neg ‹_›]
      exact h

private theorem gresid_mono (u : ℕ → ℝ) (s : Gresid) (d : ℝ) (t) (fuel fuel' : ℕ) (hle : fuel ≤ fuel')
    (h : gresid fuel u s d = some t) : gresid fuel' u s d = some t := by
  simp only [gresid] at h ⊢
  split at h
  · rw [if_pos ‹_›]
    cases hl : gresidLoop u fuel s.pos with
    | none => rw [hl] at h; simp at h
    | some q =>
      rw [loop_mono u q fuel fuel' _ hle hl]
      rw [hl] at h
      exact h
  · rw [if_neg ‹_›]
    exact h

private theorem calls_mono (u : ℕ → ℝ) (fuel fuel' : ℕ) (hle : fuel ≤ fuel') : ∀ (ds : List ℝ) (s : Gresid) (t),
    gresidCalls fuel u s ds = some t → gresidCalls fuel' u s ds = some t := by
  intro ds
  induction ds with
  | nil => intro s t h; exact h
  | cons d ds ih =>
    intro s t h
    simp only [gresidCalls] at h ⊢
    cases e1 : gresid fuel u s d with
    | none => rw [e1] at h; simp at h
    | some t1 =>
      rw [gresid_mono u s d t1 fuel fuel' hle e1]
      rw [e1] at h
      simp only at h ⊢
      cases e2 : gresidCalls fuel u t1.2 ds with
      | none => rw [e2] at h; simp at h
      | some t2 =>
        rw [ih _ _ e2]
        rw [e2] at h
        exact h

/-- Points of the disc keep turning up. -/
private def Good (v : ℕ → ℝ) : Prop := ∀ i, ∃ k, out draw k (st accepted i v) ∈ disc

private theorem good_tail {v : ℕ → ℝ} (h : Good v) : Good (accepted v).2 := fun i => h (i + 1)

private theorem calls_return (u : ℕ → ℝ) : ∀ (ds : List ℝ) (s : Gresid),
    ((s.first = true ∧ Good fun n => u (n + s.pos)) ∨
      (s.first = false ∧ Good fun n => u (n + s.pos))) → ∃ fuel t, gresidCalls fuel u s ds = some t := by
  intro ds
  induction ds with
  | nil => intro s _; exact ⟨0, _, rfl⟩
  | cons d ds ih =>
    intro s h
    have key : ∃ fuel o s1, gresid fuel u s d = some (o, s1) ∧ ((s1.first = true ∧ Good fun n => u (n + s1.pos)) ∨
        (s1.first = false ∧ Good fun n => u (n + s1.pos))) := by
      rcases h with ⟨hf, hg⟩ | ⟨hf, hg⟩
      · obtain ⟨k, hk⟩ := hg 0
        have hk' : sq2 (pointAt u s.pos k) < 1 := by
          rw [← out_draw]
          exact hk
        obtain ⟨fuel, hfuel⟩ := (C55_terminates u s d).2 (Or.inr ⟨k, hk'⟩)
        obtain ⟨⟨o, s1⟩, e⟩ := Option.ne_none_iff_exists'.1 hfuel
        obtain ⟨k, o2, s2, e2, hf1, hs2, hp1, hp2, hrej, hacc, -, -⟩ := C55_pair fuel fuel u s s1 d d o hf e
        refine ⟨fuel, o, s1, e, Or.inr ⟨hf1, ?_⟩⟩
        have := good_tail hg
        rw [accepted_eq u s.pos k hacc hrej] at this
        rw [hp1]
        exact this
      · exact ⟨0, s.next.map (· * d), { s with first := true }, by simp [gresid, hf], Or.inl ⟨rfl, hg⟩⟩
    obtain ⟨f1, o, s1, e1, h1⟩ := key
    obtain ⟨f2, t, e2⟩ := ih s1 h1
    refine ⟨max f1 f2, (o :: t.1, t.2), ?_⟩
    simp only [gresidCalls]
    rw [gresid_mono u s d _ f1 _ (le_max_left _ _) e1]
    simp only
    rw [calls_mono u f2 _ (le_max_right _ _) ds s1 t e2]

private theorem map_st (i : ℕ) : (streamLaw unifLaw).map (st accepted i) = streamLaw unifLaw := by
  induction i with
  | zero => exact Measure.map_id
  | succ i ih =>
    have e : st accepted (i + 1) = st accepted i ∘ Prod.snd ∘ accepted := rfl
    rw [e, ← Measure.map_map (measurable_st measurable_accepted i) (measurable_snd.comp measurable_accepted),
      ← Measure.map_map measurable_snd measurable_accepted, map_accepted, Measure.map_snd_prod, measure_univ, one_smul,
      ih]

private theorem good_ae : ∀ᵐ v ∂(streamLaw unifLaw), Good v := by
  unfold Good
  rw [ae_all_iff]
  intro i
  have h := accepts measurable_draw map_draw measurableSet_disc sqLaw_disc_ne
  rw [← map_st i] at h
  exact ae_of_ae_map (measurable_st measurable_accepted i).aemeasurable h

/-- The residuals are normally distributed. Let the numbers drawn from the generator be independent and uniform on
    [0,1]. Then there are independent standard normal deviates, one for each call, such that: almost surely every history
    of calls returns; and except with probability at most 1e-20 the n-th call returns the n-th deviate times the standard
    deviation passed in that call. -/
theorem C85_normal {Ω : Type*} [MeasurableSpace Ω] (P : Measure Ω) [IsProbabilityMeasure P] (u : ℕ → Ω → ℝ)
    (hm : ∀ n, Measurable (u n)) (hi : iIndepFun u P) (hu : ∀ n, P.map (u n) = volume.restrict (Icc 0 1)) :
    ∃ G : ℕ → Ω → ℝ, (∀ n, Measurable (G n)) ∧ iIndepFun G P ∧ (∀ n, P.map (G n) = gaussianReal 0 1) ∧
      (∀ᵐ ω ∂P, ∀ ds, ∃ fuel os s', gresidCalls fuel (fun k => u k ω) Gresid.init ds = some (os, s')) ∧
      ∀ n, P {ω | ∃ fuel ds os s', gresidCalls fuel (fun k => u k ω) Gresid.init ds = some (os, s') ∧
        n < ds.length ∧ os[n]? ≠ some ((ds[n]?).map (· * G n ω))} ≤ ENNReal.ofReal 1e-20 := by
  have mu : Measurable fun ω k => u k ω := measurable_pi_lambda _ hm
  have law : P.map (fun ω k => u k ω) = streamLaw unifLaw := by
    rw [hi.map_fun_eq_infinitePi_map hm]
    simp only [hu]
  have mG : ∀ n, Measurable fun ω => deviates (fun k => u k ω) n := fun n =>
    (measurable_pi_apply n).comp (measurable_deviates.comp mu)
  have lawG : P.map (fun ω n => deviates (fun k => u k ω) n) = streamLaw (gaussianReal 0 1) := by
    rw [← map_deviates, ← law, Measure.map_map measurable_deviates mu]
    rfl
  have marg : ∀ n, P.map (fun ω => deviates (fun k => u k ω) n) = gaussianReal 0 1 := by
    intro n
    have := Measure.infinitePi_map_eval (fun _ : ℕ => gaussianReal 0 1) n
    rw [← this]
    change _ = (streamLaw (gaussianReal 0 1)).map _
    rw [← lawG, Measure.map_map (measurable_pi_apply n) (measurable_pi_lambda _ mG)]
    rfl
  refine ⟨fun n ω => deviates (fun k => u k ω) n, mG, ?_, marg, ?_, fun n => ?_⟩
  · rw [iIndepFun_iff_map_fun_eq_infinitePi_map mG, lawG]
    simp only [marg]
  · have hg : ∀ᵐ ω ∂P, Good fun k => u k ω := by
      have h := good_ae
      rw [← law] at h
      exact ae_of_ae_map mu.aemeasurable h
    filter_upwards [hg] with ω hω ds
    obtain ⟨fuel, t, ht⟩ := calls_return (fun k => u k ω) ds Gresid.init (Or.inl ⟨rfl, hω⟩)
    exact ⟨fuel, t.1, t.2, ht⟩
  · have hs : MeasurableSet {q : ℝ × ℝ | sq2 q < 1e-20} := by
      unfold sq2
      exact measurableSet_lt (by fun_prop) measurable_const
    have mz : Measurable fun ω => out accepted (n / 2) (fun k => u k ω) :=
      (measurable_out measurable_accepted _).comp mu
    have lawZ : P.map (fun ω => out accepted (n / 2) (fun k => u k ω)) = discLaw := by
      have := Measure.infinitePi_map_eval (fun _ : ℕ => discLaw) (n / 2)
      rw [← this, ← map_out measurable_accepted map_accepted, ← law, Measure.map_map (measurable_pi_apply _)
        (measurable_pi_lambda _ fun k => measurable_out measurable_accepted k), Measure.map_map _ mu]
      · rfl
      · exact (measurable_pi_apply _).comp (measurable_pi_lambda _ fun k => measurable_out measurable_accepted k)
    calc _ ≤ P ((fun ω => out accepted (n / 2) (fun k => u k ω)) ⁻¹' {q | sq2 q < 1e-20}) := by
          refine measure_mono ?_
          rintro ω ⟨fuel, ds, os, s', h, hn, hne⟩
          by_contra hc
          exact hne (calls_values fuel (fun k => u k ω) _ ds le_rfl Gresid.init s' rfl os h n hn (not_lt.1 hc))
      _ = ENNReal.ofReal 1e-20 := by rw [← Measure.map_apply mz hs, lawZ, discLaw_small]

example : iIndepFun (fun (n : ℕ) (ω : ℕ → ℝ) => ω n) (streamLaw unifLaw) ∧
    ∀ n, (streamLaw unifLaw).map (fun ω : ℕ → ℝ => ω n) = volume.restrict (Icc 0 1) :=
  ⟨iIndepFun_infinitePi (X := fun _ x => x) fun _ => measurable_id,
    fun n => Measure.infinitePi_map_eval (fun _ : ℕ => unifLaw) n⟩

/-- The distribution of the value returned by one call of a history: its probability of falling in any set differs by at
    most 1e-20 from that of a normal deviate with mean zero and the standard deviation passed in that call. -/
theorem C85_distribution {Ω : Type*} [MeasurableSpace Ω] (P : Measure Ω) [IsProbabilityMeasure P] (u : ℕ → Ω → ℝ)
    (hm : ∀ n, Measurable (u n)) (hi : iIndepFun u P) (hu : ∀ n, P.map (u n) = volume.restrict (Icc 0 1))
    (ds : List ℝ) (n : ℕ) (d : ℝ) (hd : ds[n]? = some d) (A : Set ℝ) (hA : MeasurableSet A) :
    let returned := P {ω | ∃ fuel os s', gresidCalls fuel (fun k => u k ω) Gresid.init ds = some (os, s') ∧
      ∃ x ∈ A, os[n]? = some (some x)}
    let normal := gaussianReal 0 ⟨d ^ 2, sq_nonneg d⟩ A
    returned ≤ normal + ENNReal.ofReal 1e-20 ∧ normal ≤ returned + ENNReal.ofReal 1e-20 := by
  intro returned normal
  obtain ⟨G, mG, -, lawG, hret, hval⟩ := C85_normal P u hm hi hu
  have hn : n < ds.length := (List.getElem?_eq_some_iff.1 hd).1
  have e : normal = P {ω | d * G n ω ∈ A} := by
    have h1 : (gaussianReal 0 1).map (d * ·) = gaussianReal 0 ⟨d ^ 2, sq_nonneg d⟩ := by
      rw [gaussianReal_map_const_mul, mul_zero, mul_one]
      rfl
    rw [show normal = gaussianReal 0 ⟨d ^ 2, sq_nonneg d⟩ A from rfl, ← h1, ← lawG n,
      Measure.map_map (by fun_prop) (mG n), Measure.map_apply ((measurable_const_mul d).comp (mG n)) hA]
    rfl
  rw [e]
  constructor
  · refine (measure_mono ?_).trans ((measure_union_le _ _).trans (add_le_add_right (hval n) _))
    rintro ω ⟨fuel, os, s', h, x, hx, ho⟩
    by_cases hb : os[n]? = some ((ds[n]?).map (· * G n ω))
    · left
      rw [hb, hd] at ho
      obtain rfl : d * G n ω = x := by simpa using ho
      exact hx
    · exact Or.inr ⟨fuel, ds, os, s', h, hn, hb⟩
  · have h0 : P {ω | ∀ ds, ∃ fuel os s', gresidCalls fuel (fun k => u k ω) Gresid.init ds = some (os, s')}ᶜ = 0 := hret
    calc P {ω | d * G n ω ∈ A} ≤ P (({ω | ∃ fuel os s', gresidCalls fuel (fun k => u k ω) Gresid.init ds =
            some (os, s') ∧ ∃ x ∈ A, os[n]? = some (some x)} ∪ {ω | ∃ fuel ds os s',
            gresidCalls fuel (fun k => u k ω) Gresid.init ds = some (os, s') ∧
            n < ds.length ∧ os[n]? ≠ some ((ds[n]?).map (· * G n ω))}) ∪
            {ω | ∀ ds, ∃ fuel os s', gresidCalls fuel (fun k => u k ω) Gresid.init ds = some (os, s')}ᶜ) := by
          refine measure_mono fun ω hω => ?_
          by_cases hr : ∀ ds, ∃ fuel os s', gresidCalls fuel (fun k => u k ω) Gresid.init ds = some (os, s')
          · left
            obtain ⟨fuel, os, s', h⟩ := hr ds
            by_cases hb : os[n]? = some ((ds[n]?).map (· * G n ω))
            · left
              exact ⟨fuel, os, s', h, d * G n ω, hω, by rw [hb, hd]; rfl⟩
            · exact Or.inr ⟨fuel, ds, os, s', h, hn, hb⟩
          · exact Or.inr hr
      _ ≤ _ := (measure_union_le _ _).trans (by
          rw [h0, add_zero]
          exact (measure_union_le _ _).trans (add_le_add_right (hval n) _))

example : ([1, 2, 3] : List ℝ)[2]? = some 3 := rfl

end Sla.Props
