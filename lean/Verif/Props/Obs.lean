/- C56: `obs`. -/
import Verif.Model.Obs
import Verif.Spec.Regions
import Mathlib.Data.List.Infix
import Mathlib.Tactic.NormNum
import Mathlib.Tactic.Linarith
import Mathlib.Tactic.Positivity

namespace Sla.Props

open Real Sla.Obs

private theorem count : observatories.length = 85 := by decide +kernel

/-- By number: exactly the numbers 0..84 (or a negative one, see below) succeed, and different numbers give different
    stations, told apart by their identifiers. -/
theorem C56_number (n m : ℤ) (hn : 0 ≤ n) (hm : 0 ≤ m) (id id' : Option (List Char)) :
    ((obs n id).1 = true ↔ n < 85) ∧ obs n id = obs n id' ∧
    (n < 85 → m < 85 → (obs n id).2.id = (obs m id').2.id → n = m) := by
  have hlen : ∀ k : ℤ, 0 ≤ k → k < 85 → ∃ h : k.toNat < observatories.length,
      obsSelect k id = some observatories[k.toNat] ∧ obsSelect k id' = some observatories[k.toNat] := by
    intro k h0 h1
    have h : k.toNat < observatories.length := by rw [count]; omega
    exact ⟨h, by simp [obsSelect, h0, h1, h], by simp [obsSelect, h0, h1, h]⟩
  refine ⟨⟨fun h => ?_, fun h => ?_⟩, ?_, fun h1 h2 h => ?_⟩
  · by_contra hc
    have : obsSelect n id = none := by simp [obsSelect, hn, hc]
    simp [obs, this] at h
  · obtain ⟨_, e, _⟩ := hlen n hn h
    simp [obs, e]
  · simp only [obs, obsSelect, if_pos hn]
  · obtain ⟨l1, e1, -⟩ := hlen n hn h1
    obtain ⟨l2, -, e2⟩ := hlen m hm h2
    simp only [obs, e1, e2] at h
    have nd : (observatories.map Station.id).Nodup := by decide +kernel
    have := List.nodup_iff_injective_get.mp nd
      (a₁ := ⟨n.toNat, by simpa using l1⟩) (a₂ := ⟨m.toNat, by simpa using l2⟩) (by simpa using h)
    simp only [Fin.mk.injEq] at this
    omega

example : (0 : ℤ) ≤ 84 ∧ (84 : ℤ) < 85 := by norm_num

private theorem strncmp_iff (a b : List Char) : strncmpEq a b a.length = true ↔ a <+: b := by
  induction a generalizing b with
  | nil => simp [strncmpEq]
  | cons x xs ih =>
    cases b with
    | nil => simp [strncmpEq]
    | cons y ys =>
      simp only [List.length_cons, strncmpEq, Bool.and_eq_true, beq_iff_eq, ih, List.cons_prefix_cons]

private theorem search_spec (id : List Char) (l : List Station) :
    (∀ i (h : i < l.length), (id <+: l[i].id.toList) → (∀ j (hj : j < i), ¬ id <+: (l[j]'(hj.trans h)).id.toList) →
      search id l = some l[i]) ∧
    ((∀ s ∈ l, ¬ id <+: s.id.toList) → search id l = none) := by
  induction l with
  | nil => exact ⟨fun i h => absurd h (by simp), fun _ => rfl⟩
  | cons p ps ih =>
    refine ⟨fun i h hi hj => ?_, fun h => ?_⟩
    · by_cases hp : id <+: p.id.toList
      · cases i with
        | zero => simp [search, (strncmp_iff _ _).mpr hp]
        | succ i => exact absurd hp (hj 0 (by omega))
      · cases i with
        | zero => exact absurd hi hp
        | succ i =>
          simp only [search]
          rw [if_neg (by rw [strncmp_iff]; exact hp)]
          exact ih.1 i (by simpa using h) hi (fun j hjj => hj (j + 1) (by omega))
    · simp only [search]
      rw [if_neg (by rw [strncmp_iff]; exact h p (by simp))]
      exact ih.2 fun s hs => h s (by simp [hs])

/-- By identifier (negative number): the result is that of the first station, in number order, whose identifier starts
    with the given text; failure when there is none, or for a null pointer. -/
theorem C56_identifier (n : ℤ) (hn : n < 0) (id : List Char) :
    (∀ k : ℕ, k < 85 → id <+: (obs k none).2.id.toList → (∀ j : ℕ, j < k → ¬ id <+: (obs j none).2.id.toList) →
      obs n (some id) = obs k none) ∧
    ((∀ k : ℕ, k < 85 → ¬ id <+: (obs k none).2.id.toList) → (obs n (some id)).1 = false) ∧
    (obs n none).1 = false := by
  have hk : ∀ k : ℕ, (hk : k < 85) → obsSelect k none = some (observatories[k]'(by rw [count]; exact hk)) := by
    intro k hk
    have : (k : ℤ) < 85 := by exact_mod_cast hk
    have h0 : (0 : ℤ) ≤ k := by positivity
    simp only [obsSelect, if_pos h0, if_pos this, Int.toNat_natCast]
    exact List.getElem?_eq_getElem _
  have hneg : ¬ (0 ≤ n) := by omega
  refine ⟨fun k h hi hj => ?_, fun h => ?_, ?_⟩
  · have e : obsSelect n (some id) = obsSelect k none := by
      rw [hk k h]
      simp only [obsSelect, if_neg hneg]
      refine (search_spec id observatories).1 k (by rw [count]; exact h) ?_ ?_
      · simpa only [obs, hk k h] using hi
      · intro j hjk
        have := hj j hjk
        simpa only [obs, hk j (hjk.trans h)] using this
    simp only [obs, e]
  · have e : obsSelect n (some id) = none := by
      simp only [obsSelect, if_neg hneg]
      refine (search_spec id observatories).2 fun s hs => ?_
      obtain ⟨k, hl, rfl⟩ := List.getElem_of_mem hs
      have hk85 : k < 85 := by rw [count] at hl; exact hl
      have := h k hk85
      simpa only [obs, hk k hk85] using this
    simp [obs, e]
  · simp [obs, obsSelect, hneg]

example : (-1 : ℤ) < 0 ∧ (7 : ℕ) < 85 := by norm_num

/-- Every station is found under its full identifier, and the empty text finds station 0. -/
theorem C56_full_identifier (n : ℤ) (hn : n < 0) :
    (∀ k : ℕ, k < 85 → obs n (some (obs k none).2.id.toList) = obs k none) ∧ obs n (some []) = obs 0 none := by
  have hneg : ¬ (0 ≤ n) := by omega
  have all : ∀ s ∈ observatories, search s.id.toList observatories = some s := by decide +kernel
  constructor
  · intro k hk
    have h1 : (k : ℤ) < 85 := by exact_mod_cast hk
    have h0 : (0 : ℤ) ≤ k := by positivity
    have hl : k < observatories.length := by rw [count]; exact hk
    have e : obsSelect k none = some observatories[k] := by
      simp only [obsSelect, if_pos h0, if_pos h1, Int.toNat_natCast]
      exact List.getElem?_eq_getElem _
    have e' : obsSelect n (some observatories[k].id.toList) = some observatories[k] := by
      simp only [obsSelect, if_neg hneg]
      exact all _ (List.getElem_mem hl)
    simp only [obs, e, e']
  · have e : obsSelect n (some []) = obsSelect 0 none := by
      simp only [obsSelect, if_neg hneg]
      decide +kernel
    simp only [obs, e]

/-- On failure the texts are "?" and the numbers 0; on success the identifier has 1 to 10 characters, none of them a
    lower-case letter, the name at most 40, the longitude (west positive) is within half a turn, the latitude strictly
    between the poles, and the height positive. -/
theorem C56_fields (n : ℤ) (id : Option (List Char)) :
    ((obs n id).1 = false → (obs n id).2 = ⟨"?", "?", 0, 0, 0⟩) ∧
    ((obs n id).1 = true →
      0 < (obs n id).2.id.toList.length ∧ (obs n id).2.id.toList.length ≤ 10 ∧
      (∀ c ∈ (obs n id).2.id.toList, c.isLower = false) ∧ (obs n id).2.name.toList.length ≤ 40 ∧
      |(obs n id).2.long| < π ∧ |(obs n id).2.lat| < π / 2 ∧ 0 < (obs n id).2.height) := by
  have table : ∀ s ∈ observatories, 0 < s.id.toList.length ∧ s.id.toList.length ≤ 10 ∧
      (∀ c ∈ s.id.toList, c.isLower = false) ∧ s.name.toList.length ≤ 40 ∧ |s.long| < 648000 ∧ |s.lat| < 324000 ∧
      0 < s.height := by decide +kernel
  have mem : ∀ l s, search l observatories = some s → s ∈ observatories := by
    intro l s
    generalize observatories = t
    induction t with
    | nil => intro h; cases h
    | cons p ps ih =>
      intro h
      simp only [search] at h
      by_cases hc : strncmpEq l p.id.toList l.length = true
      · rw [if_pos hc] at h; cases h; simp
      · rw [if_neg hc] at h; exact List.mem_cons_of_mem _ (ih h)
  have sel : ∀ s, obsSelect n id = some s → s ∈ observatories := by
    intro s h
    by_cases h0 : 0 ≤ n
    · by_cases h1 : n < 85
      · simp only [obsSelect, if_pos h0, if_pos h1] at h
        exact List.mem_of_getElem? h
      · simp [obsSelect, h0, h1] at h
    · cases id with
      | none => simp [obsSelect, h0] at h
      | some l => simp only [obsSelect, if_neg h0] at h; exact mem l s h
  cases e : obsSelect n id with
  | none => simp [obs, e]
  | some s =>
    obtain ⟨h1, h2, h3, h4, h5, h6, h7⟩ := table s (sel s e)
    simp only [obs, e]
    refine ⟨fun h => (by cases h), fun _ => ⟨h1, h2, h3, h4, ?_, ?_, ?_⟩⟩
    · have : |(s.long : ℝ)| < 648000 := by exact_mod_cast h5
      rw [abs_mul, abs_of_pos (by positivity)]
      calc π / 648000 * |(s.long : ℝ)| < π / 648000 * 648000 := mul_lt_mul_of_pos_left this (by positivity)
        _ = π := by ring
    · have : |(s.lat : ℝ)| < 324000 := by exact_mod_cast h6
      rw [abs_mul, abs_of_pos (by positivity)]
      calc π / 648000 * |(s.lat : ℝ)| < π / 648000 * 324000 := mul_lt_mul_of_pos_left this (by positivity)
        _ = π / 2 := by ring
    · exact_mod_cast h7

example : (obs 3 none).1 = true ∧ (obs 85 none).1 = false := by
  have e : (obsSelect 3 none).isSome := by decide +kernel
  constructor
  · cases h : obsSelect 3 none with
    | none => rw [h] at e; cases e
    | some s => simp [obs, h]
  · simp [obs, obsSelect]

/-- Every station lies in the country or region it belongs to, with the latitude positive to the north and the longitude
    positive to the west, in radians. -/
theorem C56_regions (n : ℤ) (id : Option (List Char)) (h : (obs n id).1 = true) :
    ∃ r ∈ Spec.regions, (obs n id).2.id ∈ r.stations ∧
      r.south * (π / 180) < (obs n id).2.lat ∧ (obs n id).2.lat < r.north * (π / 180) ∧
      r.west * (π / 180) < -(obs n id).2.long ∧ -(obs n id).2.long < r.east * (π / 180) := by
  have table : ∀ s ∈ observatories, ∃ r ∈ Spec.regions, s.id ∈ r.stations ∧ r.south * 3600 < s.lat ∧ s.lat < r.north * 3600 ∧
      r.west * 3600 < -s.long ∧ -s.long < r.east * 3600 := by decide +kernel
  have mem : ∀ l s, search l observatories = some s → s ∈ observatories := by
    intro l s
    generalize observatories = t
    induction t with
    | nil => intro h; cases h
    | cons p ps ih =>
      intro h
      simp only [search] at h
      by_cases hc : strncmpEq l p.id.toList l.length = true
      · rw [if_pos hc] at h; cases h; simp
      · rw [if_neg hc] at h; exact List.mem_cons_of_mem _ (ih h)
  have sel : ∀ s, obsSelect n id = some s → s ∈ observatories := by
    intro s h
    by_cases h0 : 0 ≤ n
    · by_cases h1 : n < 85
      · simp only [obsSelect, if_pos h0, if_pos h1] at h
        exact List.mem_of_getElem? h
      · simp [obsSelect, h0, h1] at h
    · cases id with
      | none => simp [obsSelect, h0] at h
      | some l => simp only [obsSelect, if_neg h0] at h; exact mem l s h
  cases e : obsSelect n id with
  | none => simp [obs, e] at h
  | some s =>
    obtain ⟨r, hr, h1, h2, h3, h4, h5⟩ := table s (sel s e)
    have k : ∀ x y : ℚ, x * 3600 < y → (x : ℝ) * (π / 180) < π / 648000 * y := by
      intro x y hxy
      have h' : (x : ℝ) * 3600 < y := by exact_mod_cast hxy
      calc (x : ℝ) * (π / 180) = π / 648000 * (x * 3600) := by ring
        _ < _ := mul_lt_mul_of_pos_left h' (by positivity)
    have k' : ∀ x y : ℚ, y < x * 3600 → π / 648000 * (y : ℝ) < x * (π / 180) := by
      intro x y hxy
      have h' : (y : ℝ) < x * 3600 := by exact_mod_cast hxy
      calc π / 648000 * (y : ℝ) < π / 648000 * (x * 3600) := mul_lt_mul_of_pos_left h' (by positivity)
        _ = _ := by ring
    simp only [obs, e]
    refine ⟨r, hr, h1, k _ _ h2, k' _ _ h3, ?_, ?_⟩
    · have := k _ _ h4
      rwa [Rat.cast_neg, mul_neg] at this
    · have := k' _ _ h5
      rwa [Rat.cast_neg, mul_neg] at this

/-- Of the regions, one in each quarter of the globe: no two of the four signs can be exchanged unnoticed. -/
example : (∃ r ∈ Spec.regions, r.north < 0 ∧ 0 < r.west) ∧ (∃ r ∈ Spec.regions, r.north < 0 ∧ r.east < 0) ∧
    (∃ r ∈ Spec.regions, 0 < r.south ∧ 0 < r.west) ∧ ∃ r ∈ Spec.regions, 0 < r.south ∧ r.east < 0 := by decide +kernel

end Sla.Props
