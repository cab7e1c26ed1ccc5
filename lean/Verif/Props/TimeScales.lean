import Verif.Model.TimeScales
import Verif.Props.Calendar
import Verif.Spec.LeapSeconds
import Mathlib.Data.List.Sort
import Mathlib.Tactic.IntervalCases

/-
Property theorems C07: dat, dtt.
-/
namespace Sla.Props
open Spec

/-- The if-chain of `dat`, from 1972, as a list of thresholds. -/
private def thresholds : List Int :=
  [57754, 57204, 56109, 54832, 53736, 51179, 50630, 50083, 49534, 49169, 48804, 48257, 47892, 47161,
   46247, 45516, 45151, 44786, 44239, 43874, 43509, 43144, 42778, 42413, 42048, 41683, 41499, 41317]

private theorem thresholds_dates :
    thresholds = (leapSecondDates.map fun D => cldjExpr D.year D.month D.day).reverse := by decide

private noncomputable def chain (u d : ℝ) : List Int → ℝ
  | [] => d
  | t :: ts => if u ≥ (t : ℝ) then 9 + ((ts.length + 1 : Nat) : ℝ) else chain u d ts

private theorem chain_eq (u d : ℝ) (L : List Int) (hs : L.Pairwise (· > ·))
    (hu : ∃ t ∈ L, (t : ℝ) ≤ u) : chain u d L = 9 + ((L.countP fun t : Int => decide ((t : ℝ) ≤ u) : Nat) : ℝ) := by
  induction L with
  | nil => obtain ⟨t, h, -⟩ := hu; cases h
  | cons t ts ih =>
    rw [List.pairwise_cons] at hs
    unfold chain
    split
    · rename_i h
      have hall : ∀ x ∈ ts, decide ((x : ℝ) ≤ u) = true := by
        intro x hx
        have h1 : (x : ℝ) < (t : ℝ) := by exact_mod_cast hs.1 x hx
        simp only [decide_eq_true_eq]; linarith
      rw [List.countP_cons, if_pos (by simpa using h), List.countP_eq_length.2 hall]
    · rename_i h
      rw [List.countP_cons, if_neg (by simpa using h), ih hs.2]
      · simp
      · obtain ⟨x, hx, hxu⟩ := hu
        rcases List.mem_cons.1 hx with rfl | hx
        · exact absurd hxu h
        · exact ⟨x, hx, hxu⟩

private theorem mjd_eq (D : YMD) (hy : -4699 ≤ D.year) (h : D.Valid) (old : ℝ) :
    (cldj D.year D.month D.day old).2 = ((cldjExpr D.year D.month D.day : Int) : ℝ) := by
  unfold cldj; rw [if_pos hy, if_pos ⟨h.1, h.2.1⟩]

private theorem dates_ok : ∀ D ∈ leapSecondDates, -4699 ≤ D.year ∧ D.Valid := by decide

/-- C07: from 1972 January 1 on, TAI-UTC is 9 s plus the number of leap-second days (their MJDs as given by
    `cldj`) that are not later than `utc`. -/
theorem C07_dat_counts_leap_seconds (utc : ℝ) (h : (cldj 1972 1 1 0).2 ≤ utc) :
    dat utc = 9 + ((leapSecondDates.countP fun D =>
      decide ((cldj D.year D.month D.day 0).2 ≤ utc) : Nat) : ℝ) := by
  have e : (leapSecondDates.countP fun D => decide ((cldj D.year D.month D.day 0).2 ≤ utc))
      = thresholds.countP fun t : Int => decide ((t : ℝ) ≤ utc) := by
    rw [thresholds_dates, List.countP_reverse, List.countP_map]
    apply List.countP_congr
    intro D hD
    simp only [Function.comp, mjd_eq D (dates_ok D hD).1 (dates_ok D hD).2]
  rw [e]
  have h' : (41317 : ℝ) ≤ utc := by
    have e : cldjExpr 1972 1 1 = 41317 := by decide
    simpa [cldj, e] using h
  rw [← chain_eq utc 0 thresholds (by decide) ⟨41317, by decide, by exact_mod_cast h'⟩]
  unfold dat thresholds
  simp only [chain, List.length_cons, List.length_nil]
  push_cast
  norm_num
  simp only [h', if_true]

/-- C07: dat is constant between table dates and non-decreasing from 1972 on. -/
theorem C07_dat_monotone (u v : ℝ) (h : (cldj 1972 1 1 0).2 ≤ u) (huv : u ≤ v) : dat u ≤ dat v := by
  rw [C07_dat_counts_leap_seconds u h, C07_dat_counts_leap_seconds v (le_trans h huv)]
  have : (leapSecondDates.countP fun D => decide ((cldj D.year D.month D.day 0).2 ≤ u)) ≤
      leapSecondDates.countP fun D => decide ((cldj D.year D.month D.day 0).2 ≤ v) := by
    apply List.countP_mono_left
    intro D _ hD
    simp only [decide_eq_true_eq] at *
    linarith
  have : ((leapSecondDates.countP fun D => decide ((cldj D.year D.month D.day 0).2 ≤ u) : Nat) : ℝ) ≤
      ((leapSecondDates.countP fun D => decide ((cldj D.year D.month D.day 0).2 ≤ v) : Nat) : ℝ) := by
    exact_mod_cast this
  linarith

/-- C07: exactly one second is added at each table date after the first: for consecutive dates the values
    differ by one, and the value is constant in between. -/
theorem C07_dat_steps (i : Nat) (hi : i + 1 < leapSecondDates.length) (u v : ℝ)
    (h1 : (cldj leapSecondDates[i].year leapSecondDates[i].month leapSecondDates[i].day 0).2 ≤ u)
    (h2 : u < (cldj leapSecondDates[i+1].year leapSecondDates[i+1].month leapSecondDates[i+1].day 0).2)
    (h3 : (cldj leapSecondDates[i+1].year leapSecondDates[i+1].month leapSecondDates[i+1].day 0).2 ≤ v)
    (h4 : ∀ h : i + 2 < leapSecondDates.length,
      v < (cldj leapSecondDates[i+2].year leapSecondDates[i+2].month leapSecondDates[i+2].day 0).2) :
    dat u = 10 + i ∧ dat v = dat u + 1 := by
  have key : ∀ (j : Nat) (hj : j < leapSecondDates.length) (w : ℝ),
      (cldj leapSecondDates[j].year leapSecondDates[j].month leapSecondDates[j].day 0).2 ≤ w →
      (∀ h : j + 1 < leapSecondDates.length,
        w < (cldj leapSecondDates[j+1].year leapSecondDates[j+1].month leapSecondDates[j+1].day 0).2) →
      dat w = 10 + j := by
    intro j hj w hw1 hw2
    have hm : ∀ D ∈ leapSecondDates, (cldj D.year D.month D.day 0).2
          = ((cldjExpr D.year D.month D.day : Int) : ℝ) :=
      fun D hD => mjd_eq D (dates_ok D hD).1 (dates_ok D hD).2 0
    have hsorted : leapSecondDates.Pairwise
        fun A B => cldjExpr A.year A.month A.day < cldjExpr B.year B.month B.day := by decide
    have hle : ∀ k (hk : k < leapSecondDates.length), k ≤ j →
        (cldj leapSecondDates[k].year leapSecondDates[k].month leapSecondDates[k].day 0).2 ≤ w := by
      intro k hk hkj
      rcases Nat.lt_or_eq_of_le hkj with h | h
      · refine le_trans (le_of_lt ?_) hw1
        rw [hm _ (List.getElem_mem hk), hm _ (List.getElem_mem hj)]
        exact_mod_cast List.pairwise_iff_getElem.1 hsorted k j hk hj h
      · subst h; exact hw1
    have hgt : ∀ k (hk : k < leapSecondDates.length), j < k →
        w < (cldj leapSecondDates[k].year leapSecondDates[k].month leapSecondDates[k].day 0).2 := by
      intro k hk hkj
      have hj1 : j + 1 < leapSecondDates.length := by omega
      rcases Nat.lt_or_eq_of_le (Nat.succ_le_of_lt hkj) with h | h
      · refine lt_trans (hw2 hj1) ?_
        rw [hm _ (List.getElem_mem hk), hm _ (List.getElem_mem hj1)]
        exact_mod_cast List.pairwise_iff_getElem.1 hsorted (j+1) k hj1 hk h
      · subst h; exact hw2 hk
    have h0 : (cldj 1972 1 1 0).2 ≤ w := hle 0 (by decide) (Nat.zero_le _)
    rw [C07_dat_counts_leap_seconds w h0]
    rw [← List.take_append_drop (j+1) leapSecondDates, List.countP_append,
      (List.countP_eq_length (l := leapSecondDates.take (j+1))).2, List.countP_eq_zero.2, List.length_take]
    · rw [Nat.min_eq_left (by omega)]; push_cast; ring
    · intro D hD
      obtain ⟨k, hk, rfl⟩ := List.mem_iff_getElem.1 hD
      have hk' := hk
      rw [List.length_drop] at hk'
      rw [List.getElem_drop]
      simp only [decide_eq_true_eq, not_le]
      exact hgt _ (by omega) (by omega)
    · intro D hD
      obtain ⟨k, hk, rfl⟩ := List.mem_iff_getElem.1 hD
      have hk' := hk
      rw [List.length_take] at hk'
      rw [List.getElem_take]
      simp only [decide_eq_true_eq]
      exact hle _ (by omega) (by omega)
  have a := key i (by omega) u h1 (fun _ => h2)
  have b := key (i+1) hi v h3 h4
  refine ⟨a, ?_⟩
  rw [a, b]; push_cast; ring

private theorem dat_early (u : ℝ) (h : u < 41317) : dat u =
    if u ≥ 39887 then 4.21317 + (u - 39126) * 0.002592
    else if u ≥ 39126 then 4.31317 + (u - 39126) * 0.002592
    else if u ≥ 39004 then 3.84013 + (u - 38761) * 0.001296
    else if u ≥ 38942 then 3.74013 + (u - 38761) * 0.001296
    else if u ≥ 38820 then 3.64013 + (u - 38761) * 0.001296
    else if u ≥ 38761 then 3.54013 + (u - 38761) * 0.001296
    else if u ≥ 38639 then 3.44013 + (u - 38761) * 0.001296
    else if u ≥ 38486 then 3.34013 + (u - 38761) * 0.001296
    else if u ≥ 38395 then 3.24013 + (u - 38761) * 0.001296
    else if u ≥ 38334 then 1.945858 + (u - 37665) * 0.0011232
    else if u ≥ 37665 then 1.845858 + (u - 37665) * 0.0011232
    else if u ≥ 37512 then 1.372818 + (u - 37300) * 0.001296
    else if u ≥ 37300 then 1.422818 + (u - 37300) * 0.001296
    else 1.417818 + (u - 37300) * 0.001296 := by
  unfold dat; iterate 28 rw [if_neg (by linarith)]

/-- C07: before 1972 dat is the published piecewise linear function, the pieces starting at the MJDs that
    `cldj` gives for their calendar days. -/
theorem C07_dat_rubber_seconds (i : Nat) (hi : i + 1 < rubberSeconds.length) (u : ℝ)
    (h1 : (cldj rubberSeconds[i].1.year rubberSeconds[i].1.month rubberSeconds[i].1.day 0).2 ≤ u)
    (h2 : u < (cldj rubberSeconds[i+1].1.year rubberSeconds[i+1].1.month rubberSeconds[i+1].1.day 0).2) :
    dat u = (rubberSeconds[i].2.1 : ℝ) + (u - (rubberSeconds[i].2.2.1 : ℝ)) * (rubberSeconds[i].2.2.2 : ℝ) := by
  have hok : ∀ D ∈ rubberSeconds.map Prod.fst, -4699 ≤ D.year ∧ D.Valid := by decide
  have hm : ∀ p ∈ rubberSeconds, (cldj p.1.year p.1.month p.1.day 0).2
        = ((cldjExpr p.1.year p.1.month p.1.day : Int) : ℝ) :=
    fun p hp => mjd_eq p.1 (hok _ (List.mem_map_of_mem hp)).1 (hok _ (List.mem_map_of_mem hp)).2 0
  rw [hm _ (List.getElem_mem _)] at h1 h2
  have hmap : rubberSeconds.map (fun p => cldjExpr p.1.year p.1.month p.1.day)
    = [37300, 37512, 37665, 38334, 38395, 38486, 38639, 38761, 38820, 38942, 39004, 39126, 39887, 41317] := by
    decide
  have hget : ∀ k (hk : k < rubberSeconds.length),
      cldjExpr rubberSeconds[k].1.year rubberSeconds[k].1.month rubberSeconds[k].1.day
        = ([37300, 37512, 37665, 38334, 38395, 38486, 38639, 38761, 38820, 38942, 39004, 39126, 39887,
            41317] : List Int).getD k 0 := by
    intro k hk
    rw [← hmap]; simp [List.getD, List.getElem?_eq_getElem hk]
  rw [hget i (by omega)] at h1
  rw [hget (i+1) hi] at h2
  have hi' : i < 13 := by have : rubberSeconds.length = 14 := rfl
                          omega
  clear hget hmap hm hok
  interval_cases i <;> norm_num [List.getD] at h1 <;> norm_num [List.getD] at h2 <;> rw [dat_early u (by linarith)]
  all_goals
    repeat rw [if_neg (by linarith)]
    try rw [if_pos (by linarith)]
    norm_num [rubberSeconds]

/-- C07: UTC was stepped backwards in 1961 and 1968, so dat is not monotone before 1972. -/
theorem C07_dat_not_monotone_before_1972 : ∃ u v : ℝ, u < v ∧ dat v < dat u := by
  refine ⟨39886.999, 39887, by norm_num, ?_⟩
  unfold dat; norm_num

/-- C07: dtt. -/
theorem C07_dtt (utc : ℝ) : dtt utc - dat utc = 32.184 := by unfold dtt; ring

example : (cldj 1972 1 1 0).2 ≤ 57800 := by
  have e : cldjExpr 1972 1 1 = 41317 := by decide
  simp [cldj, e]; norm_num

example : (0 : Nat) + 1 < leapSecondDates.length ∧ 0 + 1 < rubberSeconds.length := by decide

end Sla.Props
