import Verif.Model.Angles
import Verif.Lemmas.CMath
import Mathlib.Tactic.NormNum
import Mathlib.Tactic.Positivity

/-
Property theorems C13-C17: decomposition of angles, normalisation, sidereal time, epochs.
-/
namespace Sla.Props
open Real (pi pi_pos)

/-! ## C13 -/

private theorem foldl_replicate (k : Nat) (a : Int) : (List.replicate k (10 : Int)).foldl (· * ·) a = a * 10 ^ k := by
  induction k generalizing a with
  | zero => simp
  | succ k ih => rw [List.replicate_succ, List.foldl_cons, ih]; ring

private theorem nrs_eq (ndp : Int) : dd2tfNrs ndp = 10 ^ ndp.toNat := by
  unfold dd2tfNrs; rw [foldl_replicate]; ring

private theorem ctrunc_div (a b : Int) (ha : 0 ≤ a) (hb : 0 < b) : ctrunc ((a : ℝ) / (b : ℝ)) = a / b := by
  have hbr : (0 : ℝ) < (b : ℝ) := by exact_mod_cast hb
  rw [ctrunc_of_nonneg (div_nonneg (by exact_mod_cast ha) hbr.le), Int.floor_eq_iff, le_div_iff₀ hbr,
    div_lt_iff₀ hbr]
  constructor
  · exact_mod_cast Int.ediv_mul_le a hb.ne'
  · exact_mod_cast Int.lt_ediv_add_one_mul_self a hb

/-- The fields as integer quotients of the rounded interval. -/
private theorem dd2tf_eq (ndp : Int) (days : ℝ) :
    let N : Int := 10 ^ ndp.toNat
    let u : Int := cround ((N : ℝ) * 86400 * |days|)
    dd2tf ndp days = ⟨u / (N * 60 * 60), u % (N * 60 * 60) / (N * 60), u % (N * 60 * 60) % (N * 60) / N,
      u % (N * 60 * 60) % (N * 60) % N, decide (days ≥ 0)⟩ := by
  intro N u
  have hN : 0 < N := by positivity
  have hu : 0 ≤ u := cround_nonneg (by positivity)
  have hNr : (0 : ℝ) < (N : ℝ) := by exact_mod_cast hN
  have e1 : ∀ a b : Int, (a : ℝ) - ((a / b : Int) : ℝ) * (b : ℝ) = ((a % b : Int) : ℝ) := by
    intro a b; rw [Int.emod_def]; push_cast; ring
  have c1 : (N : ℝ) * 60 * 60 = ((N * 60 * 60 : Int) : ℝ) := by push_cast; ring
  have c2 : (N : ℝ) * 60 = ((N * 60 : Int) : ℝ) := by push_cast; ring
  set r1 := u % (N * 60 * 60) with hr1
  have hr1' : 0 ≤ r1 ∧ r1 < N * 60 * 60 := ⟨Int.emod_nonneg _ (by positivity), Int.emod_lt_of_pos _ (by positivity)⟩
  set r2 := r1 % (N * 60) with hr2
  have hr2' : 0 ≤ r2 ∧ r2 < N * 60 := ⟨Int.emod_nonneg _ (by positivity), Int.emod_lt_of_pos _ (by positivity)⟩
  have hr3' : 0 ≤ r2 % N ∧ r2 % N < N := ⟨Int.emod_nonneg _ hN.ne', Int.emod_lt_of_pos _ hN⟩
  have hh : 0 ≤ u / (N * 60 * 60) := Int.ediv_nonneg hu (by positivity)
  have hm : 0 ≤ r1 / (N * 60) ∧ r1 / (N * 60) ≤ 59 := by
    refine ⟨Int.ediv_nonneg hr1'.1 (by positivity), ?_⟩
    have : r1 / (N * 60) < 60 := Int.ediv_lt_of_lt_mul (by positivity) (by linarith)
    omega
  have hs : 0 ≤ r2 / N ∧ r2 / N ≤ 59 := by
    refine ⟨Int.ediv_nonneg hr2'.1 hN.le, ?_⟩
    have : r2 / N < 60 := Int.ediv_lt_of_lt_mul hN (by linarith)
    omega
  unfold dd2tf
  simp only [nrs_eq]
  change ConvResult.mk _ _ _ _ _ = _
  have hu' : cround (((10 ^ ndp.toNat : Int) : ℝ) * 86400 * |days|) = u := rfl
  rw [hu']
  change ConvResult.mk (max (cround ((ctrunc ((u : ℝ) / ((N : ℝ) * 60 * 60)) : Int) : ℝ)) 0)
    (max (min (cround ((ctrunc (((u : ℝ) - ((ctrunc ((u : ℝ) / ((N : ℝ) * 60 * 60)) : Int) : ℝ) * ((N : ℝ) * 60 * 60)) /
        ((N : ℝ) * 60)) : Int) : ℝ)) 59) 0)
    (max (min (cround ((ctrunc ((((u : ℝ) - ((ctrunc ((u : ℝ) / ((N : ℝ) * 60 * 60)) : Int) : ℝ) * ((N : ℝ) * 60 * 60)) -
        ((ctrunc (((u : ℝ) - ((ctrunc ((u : ℝ) / ((N : ℝ) * 60 * 60)) : Int) : ℝ) * ((N : ℝ) * 60 * 60)) /
        ((N : ℝ) * 60)) : Int) : ℝ) * ((N : ℝ) * 60)) / (N : ℝ)) : Int) : ℝ)) 59) 0)
    (max (cround (min ((((u : ℝ) - ((ctrunc ((u : ℝ) / ((N : ℝ) * 60 * 60)) : Int) : ℝ) * ((N : ℝ) * 60 * 60)) -
        ((ctrunc (((u : ℝ) - ((ctrunc ((u : ℝ) / ((N : ℝ) * 60 * 60)) : Int) : ℝ) * ((N : ℝ) * 60 * 60)) /
        ((N : ℝ) * 60)) : Int) : ℝ) * ((N : ℝ) * 60)) - ((ctrunc ((((u : ℝ) - ((ctrunc ((u : ℝ) / ((N : ℝ) * 60 * 60)) : Int) : ℝ) * ((N : ℝ) * 60 * 60)) -
        ((ctrunc (((u : ℝ) - ((ctrunc ((u : ℝ) / ((N : ℝ) * 60 * 60)) : Int) : ℝ) * ((N : ℝ) * 60 * 60)) /
        ((N : ℝ) * 60)) : Int) : ℝ) * ((N : ℝ) * 60)) / (N : ℝ)) : Int) : ℝ) * (N : ℝ)) ((N : ℝ) - 1))) 0)
    (decide (days ≥ 0)) = _
  rw [c1, ctrunc_div u _ hu (by positivity), e1, ← hr1, c2, ctrunc_div r1 _ hr1'.1 (by positivity), e1, ← hr2,
    ctrunc_div r2 _ hr2'.1 hN, e1]
  have hfr : min (((r2 % N : Int) : ℝ)) ((N : ℝ) - 1) = ((r2 % N : Int) : ℝ) := by
    apply min_eq_left
    have : r2 % N ≤ N - 1 := by omega
    have h : ((r2 % N : Int) : ℝ) ≤ ((N - 1 : Int) : ℝ) := by exact_mod_cast this
    push_cast at h; exact h
  rw [hfr]
  simp only [cround_intCast]
  rw [max_eq_left hh, min_eq_left hm.2, max_eq_left hm.1, min_eq_left hs.2, max_eq_left hs.1, max_eq_left hr3'.1]

/-- C13: ranges of the fields, sign, and value: the fields are the decomposition of `|days|` rounded to the
    nearest `10^-ndp` second. -/
theorem C13_dd2tf_fields (ndp : Int) (days : ℝ) :
    let r := dd2tf ndp days
    let N : Int := 10 ^ ndp.toNat
    0 ≤ r.hours ∧ 0 ≤ r.minutes ∧ r.minutes ≤ 59 ∧ 0 ≤ r.seconds ∧ r.seconds ≤ 59 ∧
    0 ≤ r.fraction ∧ r.fraction < N ∧ (r.sign = false ↔ days < 0) ∧
    ((r.hours * 60 + r.minutes) * 60 + r.seconds) * N + r.fraction = ⌊(N : ℝ) * 86400 * |days| + 1 / 2⌋ := by
  intro r N
  have hN : 0 < N := by positivity
  have hr : r = _ := dd2tf_eq ndp days
  have hu0 : (0 : ℝ) ≤ (N : ℝ) * 86400 * |days| := by positivity
  have hu : (0 : Int) ≤ cround ((N : ℝ) * 86400 * |days|) := cround_nonneg hu0
  have hfl : cround ((N : ℝ) * 86400 * |days|) = ⌊(N : ℝ) * 86400 * |days| + 1 / 2⌋ := by
    unfold cround; rw [if_pos hu0]
  rw [← hfl]
  set u : Int := cround ((N : ℝ) * 86400 * |days|) with hudef
  rw [hr]
  dsimp only
  simp only [show (10:Int)^ndp.toNat = N from rfl]
  set r1 := u % (N * 60 * 60) with hr1
  have hr1' : 0 ≤ r1 ∧ r1 < N * 60 * 60 := ⟨Int.emod_nonneg _ (by positivity), Int.emod_lt_of_pos _ (by positivity)⟩
  set r2 := r1 % (N * 60) with hr2
  have hr2' : 0 ≤ r2 ∧ r2 < N * 60 := ⟨Int.emod_nonneg _ (by positivity), Int.emod_lt_of_pos _ (by positivity)⟩
  have hr3' : 0 ≤ r2 % N ∧ r2 % N < N := ⟨Int.emod_nonneg _ hN.ne', Int.emod_lt_of_pos _ hN⟩
  refine ⟨Int.ediv_nonneg hu (by positivity), Int.ediv_nonneg hr1'.1 (by positivity), ?_,
    Int.ediv_nonneg hr2'.1 hN.le, ?_, hr3'.1, hr3'.2, by simp, ?_⟩
  · have : r1 / (N * 60) < 60 := Int.ediv_lt_of_lt_mul (by positivity) (by linarith)
    omega
  · have : r2 / N < 60 := Int.ediv_lt_of_lt_mul hN (by linarith)
    omega
  · have a := Int.emod_add_mul_ediv u (N * 60 * 60)
    have b := Int.emod_add_mul_ediv r1 (N * 60)
    have c := Int.emod_add_mul_ediv r2 N
    rw [← hr1] at a; rw [← hr2] at b
    linarith

/-- C13: the decomposition is unique, so the previous theorem determines every field. -/
theorem C13_fields_unique (N h m s f h' m' s' f' : Int)
    (b : 0 ≤ m ∧ m ≤ 59 ∧ 0 ≤ s ∧ s ≤ 59 ∧ 0 ≤ f ∧ f < N)
    (b' : 0 ≤ m' ∧ m' ≤ 59 ∧ 0 ≤ s' ∧ s' ≤ 59 ∧ 0 ≤ f' ∧ f' < N)
    (e : ((h * 60 + m) * 60 + s) * N + f = ((h' * 60 + m') * 60 + s') * N + f') :
    h = h' ∧ m = m' ∧ s = s' ∧ f = f' := by
  have hN : 0 < N := by omega
  have e1 := congrArg (· / N) e
  have e2 := congrArg (· % N) e
  simp only [Int.mul_add_emod_self_right] at e2
  have d : ∀ x f : Int, 0 ≤ f → f < N → (x * N + f) / N = x := by
    intro x f h1 h2
    rw [Int.add_comm, Int.add_mul_ediv_right _ _ hN.ne', Int.ediv_eq_zero_of_lt h1 h2, zero_add]
  have d2 : ∀ x f : Int, 0 ≤ f → f < N → (x * N + f) % N = f := by
    intro x f h1 h2
    rw [Int.add_comm, Int.add_mul_emod_self_right, Int.emod_eq_of_lt h1 h2]
  have e1 : ((h * 60 + m) * 60 + s) = ((h' * 60 + m') * 60 + s') := by
    have := congrArg (· / N) e
    simpa only [d _ f b.2.2.2.2.1 b.2.2.2.2.2, d _ f' b'.2.2.2.2.1 b'.2.2.2.2.2] using this
  have e2 : f = f' := by
    have := congrArg (· % N) e
    simpa only [d2 _ f b.2.2.2.2.1 b.2.2.2.2.2, d2 _ f' b'.2.2.2.2.1 b'.2.2.2.2.2] using this
  omega

/-- C13: in 32-bit arithmetic the scale factor is defined exactly up to 9 decimal places. -/
theorem C13_nrs_overflow (ndp : Int) : dd2tfNrs32 ndp = (if ndp ≤ 9 then some (10 ^ ndp.toNat) else none) := by
  have hnone : ∀ k, (List.replicate k (10 : Int)).foldl (fun r x => r >>= fun r => I32.mul r x) none = none := by
    intro k
    induction k with
    | zero => rfl
    | succ k ih => rw [List.replicate_succ, List.foldl_cons]; exact ih
  unfold dd2tfNrs32
  split
  · rename_i h
    have hk : ndp.toNat ≤ 9 := by omega
    generalize ndp.toNat = k at *
    have : k = 0 ∨ k = 1 ∨ k = 2 ∨ k = 3 ∨ k = 4 ∨ k = 5 ∨ k = 6 ∨ k = 7 ∨ k = 8 ∨ k = 9 := by omega
    rcases this with h|h|h|h|h|h|h|h|h|h <;> subst h <;> decide
  · rename_i h
    obtain ⟨m, hm⟩ : ∃ m, ndp.toNat = 10 + m := ⟨ndp.toNat - 10, by omega⟩
    rw [hm, List.replicate_add, List.foldl_append]
    have : (List.replicate 10 (10 : Int)).foldl (fun r x => r >>= fun r => I32.mul r x) (some 1) = none := by decide
    rw [this]
    exact hnone m

example : (dd2tf 3 (-1/2)).sign = false := by rw [(C13_dd2tf_fields 3 (-1/2)).2.2.2.2.2.2.2.1]; norm_num

/-! ## C14 -/

/-- C14: the composing functions report the highest-priority bad field (seconds, then minutes, then hours for
    `dtf2d`; degrees, then minutes, then seconds for `daf2r`) and always return the value. -/
theorem C14_dtf2d_status (h m : Int) (s : ℝ) :
    ((dtf2d h m s).1 = .ok ↔ (0 ≤ h ∧ h ≤ 23) ∧ (0 ≤ m ∧ m ≤ 59) ∧ 0 ≤ s ∧ s < 60) ∧
    ((dtf2d h m s).1 = .badSeconds ↔ s < 0 ∨ 60 ≤ s) ∧
    ((dtf2d h m s).1 = .badMinutes ↔ (0 ≤ s ∧ s < 60) ∧ (m < 0 ∨ 59 < m)) ∧
    ((dtf2d h m s).1 = .badHours ↔ (0 ≤ s ∧ s < 60) ∧ (0 ≤ m ∧ m ≤ 59) ∧ (h < 0 ∨ 23 < h)) ∧
    (dtf2d h m s).2 = ((h : ℝ) * 3600 + (m : ℝ) * 60 + s) / 86400 ∧
    dtf2r h m s = ((dtf2d h m s).1, (dtf2d h m s).2 * (2 * pi)) := by
  have hs : (s < 0 ∨ s ≥ 60) ↔ ¬ (0 ≤ s ∧ s < 60) := by
    constructor
    · rintro (h | h) ⟨h1, h2⟩ <;> linarith
    · intro h; by_contra hc; push Not at hc; exact h hc
  have hm : (m < 0 ∨ m > 59) ↔ ¬ (0 ≤ m ∧ m ≤ 59) := by omega
  have hh : (h < 0 ∨ h > 23) ↔ ¬ (0 ≤ h ∧ h ≤ 23) := by omega
  have hs' : (s < 0 ∨ 60 ≤ s) ↔ ¬ (0 ≤ s ∧ s < 60) := hs
  have hm' : (m < 0 ∨ 59 < m) ↔ ¬ (0 ≤ m ∧ m ≤ 59) := hm
  have hh' : (h < 0 ∨ 23 < h) ↔ ¬ (0 ≤ h ∧ h ≤ 23) := hh
  rw [hs', hm', hh']
  unfold dtf2r dtf2d
  simp only [hs, hm, hh]
  refine ⟨?_, ?_, ?_, ?_, by ring, trivial⟩ <;>
  · by_cases a : (0 ≤ s ∧ s < 60) <;> by_cases b : (0 ≤ m ∧ m ≤ 59) <;> by_cases c : (0 ≤ h ∧ h ≤ 23) <;>
      simp only [a, b, c, not_true, not_false_iff, if_true, if_false, and_true, true_and, and_false, false_and,
        reduceCtorEq]

theorem C14_daf2r_status (d m : Int) (s : ℝ) :
    ((daf2r d m s).1 = .ok ↔ (0 ≤ d ∧ d ≤ 359) ∧ (0 ≤ m ∧ m ≤ 59) ∧ 0 ≤ s ∧ s < 60) ∧
    ((daf2r d m s).1 = .badDegrees ↔ d < 0 ∨ 359 < d) ∧
    ((daf2r d m s).1 = .badArcminutes ↔ (0 ≤ d ∧ d ≤ 359) ∧ (m < 0 ∨ 59 < m)) ∧
    ((daf2r d m s).1 = .badArcseconds ↔ (0 ≤ d ∧ d ≤ 359) ∧ (0 ≤ m ∧ m ≤ 59) ∧ (s < 0 ∨ 60 ≤ s)) ∧
    (daf2r d m s).2 = ((d : ℝ) + (m : ℝ) / 60 + s / 3600) * (pi / 180) := by
  have hs : (s < 0 ∨ s ≥ 60) ↔ ¬ (0 ≤ s ∧ s < 60) := by
    constructor
    · rintro (h | h) ⟨h1, h2⟩ <;> linarith
    · intro h; by_contra hc; push Not at hc; exact h hc
  have hm : (m < 0 ∨ m > 59) ↔ ¬ (0 ≤ m ∧ m ≤ 59) := by omega
  have hh : (d < 0 ∨ d > 359) ↔ ¬ (0 ≤ d ∧ d ≤ 359) := by omega
  have hs' : (s < 0 ∨ 60 ≤ s) ↔ ¬ (0 ≤ s ∧ s < 60) := hs
  have hm' : (m < 0 ∨ 59 < m) ↔ ¬ (0 ≤ m ∧ m ≤ 59) := hm
  have hh' : (d < 0 ∨ 359 < d) ↔ ¬ (0 ≤ d ∧ d ≤ 359) := hh
  rw [hs', hm', hh']
  unfold daf2r
  simp only [hs, hm, hh]
  refine ⟨?_, ?_, ?_, ?_, by ring⟩ <;>
  · by_cases a : (0 ≤ s ∧ s < 60) <;> by_cases b : (0 ≤ m ∧ m ≤ 59) <;> by_cases c : (0 ≤ d ∧ d ≤ 359) <;>
      simp only [a, b, c, not_true, not_false_iff, if_true, if_false, and_true, true_and, and_false, false_and,
        reduceCtorEq]

/-- The sign of a decomposition as a factor. -/
def signOf (r : ConvResult) : ℝ := if r.sign then 1 else -1

/-- The seconds field with its decimals. -/
noncomputable def secondsOf (ndp : Int) (r : ConvResult) : ℝ := (r.seconds : ℝ) + (r.fraction : ℝ) / 10 ^ ndp.toNat

private theorem dd2tf_value (ndp : Int) (days : ℝ) :
    |signOf (dd2tf ndp days) * ((((dd2tf ndp days).hours : ℝ) * 3600 + ((dd2tf ndp days).minutes : ℝ) * 60 +
        secondsOf ndp (dd2tf ndp days)) / 86400) - days| ≤ 1 / 2 / 10 ^ ndp.toNat / 86400 ∧
    0 ≤ secondsOf ndp (dd2tf ndp days) ∧ secondsOf ndp (dd2tf ndp days) < 60 := by
  obtain ⟨h1, h2, h3, h4, h5, h6, h7, h8, h9⟩ := C13_dd2tf_fields ndp days
  set r := dd2tf ndp days
  have hN : (0 : ℝ) < 10 ^ ndp.toNat := by positivity
  set N : ℝ := 10 ^ ndp.toNat with hNdef
  push_cast at h9
  rw [← hNdef] at h9
  set U : Int := ⌊N * 86400 * |days| + 1 / 2⌋
  have hU1 := Int.floor_le (N * 86400 * |days| + 1 / 2)
  have hU2 := Int.lt_floor_add_one (N * 86400 * |days| + 1 / 2)
  have hval : (((r.hours : ℝ) * 60 + r.minutes) * 60 + r.seconds) * N + r.fraction = (U : ℝ) := by
    rw [← h9]; push_cast; rfl
  have e : ((r.hours : ℝ) * 3600 + (r.minutes : ℝ) * 60 + secondsOf ndp r) / 86400 = U / (N * 86400) := by
    rw [← hval]; unfold secondsOf; rw [← hNdef]; field_simp; ring
  refine ⟨?_, ?_, ?_⟩
  · rw [e]
    have habs : abs ((U : ℝ) / (N * 86400) - |days|) ≤ 1 / 2 / N / 86400 := by
      have : (U : ℝ) / (N * 86400) - |days| = (U - N * 86400 * |days|) / (N * 86400) := by field_simp
      rw [this, abs_div, abs_of_pos (by positivity : (0:ℝ) < N * 86400), div_div, div_le_div_iff_of_pos_right (by positivity)]
      rw [abs_le]; constructor <;> linarith
    have hs : signOf r * |days| = days := by
      unfold signOf
      by_cases hd : days < 0
      · have : r.sign = false := h8.2 hd
        simp [this, abs_of_neg hd]
      · have : r.sign = true := by
          cases hq : r.sign
          · exact absurd (h8.1 hq) hd
          · rfl
        simp [this, abs_of_nonneg (not_lt.1 hd)]
    have hs1 : |signOf r| = 1 := by unfold signOf; split <;> simp
    calc |signOf r * ((U : ℝ) / (N * 86400)) - days|
        = abs (signOf r * ((U : ℝ) / (N * 86400)) - signOf r * |days|) := by rw [hs]
      _ = abs ((U : ℝ) / (N * 86400) - |days|) := by rw [← mul_sub, abs_mul, hs1, one_mul]
      _ ≤ _ := habs
  · unfold secondsOf
    have a : (0 : ℝ) ≤ r.seconds := by exact_mod_cast h4
    have b : (0 : ℝ) ≤ r.fraction := by exact_mod_cast h6
    positivity
  · unfold secondsOf
    have a : (r.seconds : ℝ) ≤ 59 := by exact_mod_cast h5
    have b : (r.fraction : ℝ) < N := by
      have : (r.fraction : ℝ) < ((10 ^ ndp.toNat : Int) : ℝ) := by exact_mod_cast h7
      push_cast at this; exact this
    have : (r.fraction : ℝ) / N < 1 := by rw [div_lt_one hN]; exact b
    linarith

/-- C14: days → h,m,s → days returns the input within half a unit of the last place, and the fields are accepted
    unless the hours reach 24. -/
theorem C14_days_round_trip (ndp : Int) (days : ℝ) :
    let r := dd2tf ndp days
    let c := dtf2d r.hours r.minutes (secondsOf ndp r)
    c.1 = (if r.hours ≤ 23 then .ok else .badHours) ∧
    |signOf r * c.2 - days| ≤ 1 / 2 / 10 ^ ndp.toNat / 86400 := by
  intro r c
  obtain ⟨h1, h2, h3, h4, h5, h6, h7, h8, h9⟩ := C13_dd2tf_fields ndp days
  obtain ⟨a, b1, b2⟩ := dd2tf_value ndp days
  obtain ⟨s1, s2, s3, s4, s5, -⟩ := C14_dtf2d_status r.hours r.minutes (secondsOf ndp r)
  refine ⟨?_, ?_⟩
  · split
    · rename_i h; exact s1.2 ⟨⟨h1, h⟩, ⟨h2, h3⟩, b1, b2⟩
    · rename_i h; exact s4.2 ⟨⟨b1, b2⟩, ⟨h2, h3⟩, Or.inr (by omega)⟩
  · show |signOf r * (dtf2d r.hours r.minutes (secondsOf ndp r)).2 - days| ≤ _
    rw [s5]; exact a

/-- C14: radians → h,m,s → radians. -/
theorem C14_hms_round_trip (ndp : Int) (angle : ℝ) :
    let r := dr2tf ndp angle
    let c := dtf2r r.hours r.minutes (secondsOf ndp r)
    c.1 = (if r.hours ≤ 23 then .ok else .badHours) ∧
    |signOf r * c.2 - angle| ≤ 1 / 2 / 10 ^ ndp.toNat * (2 * pi / 86400) := by
  intro r c
  obtain ⟨a, b⟩ := C14_days_round_trip ndp (angle / (2 * pi))
  have e := (C14_dtf2d_status r.hours r.minutes (secondsOf ndp r)).2.2.2.2.2
  have hc : c = _ := e
  rw [hc]
  refine ⟨a, ?_⟩
  have hp : (0 : ℝ) < 2 * pi := by positivity
  have : signOf r * ((dtf2d r.hours r.minutes (secondsOf ndp r)).2 * (2 * pi)) - angle
      = (signOf r * (dtf2d r.hours r.minutes (secondsOf ndp r)).2 - angle / (2 * pi)) * (2 * pi) := by
    field_simp
  dsimp only
  rw [this, abs_mul, abs_of_pos hp]
  calc _ ≤ (1 / 2 / 10 ^ ndp.toNat / 86400) * (2 * pi) := mul_le_mul_of_nonneg_right b hp.le
    _ = _ := by ring

/-- C14: radians → degrees, arcminutes, arcseconds → radians. -/
theorem C14_dms_round_trip (ndp : Int) (angle : ℝ) :
    let r := dr2af ndp angle
    let c := daf2r r.hours r.minutes (secondsOf ndp r)
    c.1 = (if r.hours ≤ 359 then .ok else .badDegrees) ∧
    |signOf r * c.2 - angle| ≤ 1 / 2 / 10 ^ ndp.toNat * (pi / 648000) := by
  intro r c
  obtain ⟨h1, h2, h3, h4, h5, h6, h7, h8, h9⟩ := C13_dd2tf_fields ndp (angle * (15 / (2 * pi)))
  obtain ⟨a, b1, b2⟩ := dd2tf_value ndp (angle * (15 / (2 * pi)))
  obtain ⟨s1, s2, s3, s4, s5⟩ := C14_daf2r_status r.hours r.minutes (secondsOf ndp r)
  have hp : (0 : ℝ) < 2 * pi / 15 := by positivity
  refine ⟨?_, ?_⟩
  · split
    · rename_i h; exact s1.2 ⟨⟨h1, h⟩, ⟨h2, h3⟩, b1, b2⟩
    · rename_i h; exact s2.2 (Or.inr (by omega))
  · show |signOf r * (daf2r r.hours r.minutes (secondsOf ndp r)).2 - angle| ≤ _
    rw [s5]
    have : signOf r * (((r.hours : ℝ) + (r.minutes : ℝ) / 60 + secondsOf ndp r / 3600) * (pi / 180)) - angle
      = (signOf r * (((r.hours : ℝ) * 3600 + (r.minutes : ℝ) * 60 + secondsOf ndp r) / 86400)
          - angle * (15 / (2 * pi))) * (2 * pi / 15) := by
      field_simp; ring
    rw [this, abs_mul, abs_of_pos hp]
    calc _ ≤ (1 / 2 / 10 ^ ndp.toNat / 86400) * (2 * pi / 15) := mul_le_mul_of_nonneg_right a hp.le
      _ = _ := by ring

/-! ## C15 -/

private theorem dranrm_eq (a : ℝ) : dranrm a = a - 2 * pi * ⌊a / (2 * pi)⌋ :=
  cfmod_wrap a (by positivity)

/-- C15: dranrm returns the unique angle in [0, 2pi) that differs from its argument by whole turns. -/
theorem C15_dranrm (a : ℝ) : 0 ≤ dranrm a ∧ dranrm a < 2 * pi ∧ ∃ k : Int, dranrm a = a + 2 * pi * k := by
  have hp : (0 : ℝ) < 2 * pi := by positivity
  rw [dranrm_eq]
  have h1 := Int.floor_le (a / (2 * pi))
  have h2 := Int.lt_floor_add_one (a / (2 * pi))
  rw [le_div_iff₀ hp] at h1
  rw [div_lt_iff₀ hp] at h2
  refine ⟨by nlinarith, by nlinarith, -⌊a / (2 * pi)⌋, by push_cast; ring⟩

theorem C15_dranrm_unique (a b : ℝ) (hb : 0 ≤ b) (hb' : b < 2 * pi) (k : Int) (h : b = a + 2 * pi * k) :
    dranrm a = b := by
  have hp : (0 : ℝ) < 2 * pi := by positivity
  obtain ⟨h1, h2, m, hm⟩ := C15_dranrm a
  have e : dranrm a - b = 2 * pi * ((m - k : Int) : ℝ) := by rw [hm, h]; push_cast; ring
  have hk : m - k = 0 := by
    by_contra hne
    rcases lt_or_gt_of_ne hne with hlt | hgt
    · have : ((m - k : Int) : ℝ) ≤ -1 := by exact_mod_cast (by omega : m - k ≤ -1)
      nlinarith
    · have : (1 : ℝ) ≤ ((m - k : Int) : ℝ) := by exact_mod_cast (by omega : 1 ≤ m - k)
      nlinarith
  rw [hk] at e; simp at e; linarith

/-- C15: dranrm is idempotent and periodic, and is the identity on [0, 2pi). -/
theorem C15_dranrm_laws (a : ℝ) : dranrm (dranrm a) = dranrm a ∧ (∀ k : Int, dranrm (a + 2 * pi * k) = dranrm a) ∧
    (0 ≤ a → a < 2 * pi → dranrm a = a) := by
  obtain ⟨h1, h2, m, hm⟩ := C15_dranrm a
  refine ⟨C15_dranrm_unique _ _ h1 h2 0 (by simp), fun k => C15_dranrm_unique _ _ h1 h2 (m - k) ?_, fun h h' =>
    C15_dranrm_unique _ _ h h' 0 (by simp)⟩
  rw [hm]; push_cast; ring

private theorem drange_nonneg {a : ℝ} (ha : 0 ≤ a) :
    drange a = (if cfmod a (2 * pi) ≥ pi then cfmod a (2 * pi) - 2 * pi else cfmod a (2 * pi)) := by
  have hp : (0 : ℝ) < 2 * pi := by positivity
  obtain ⟨-, h1, h2⟩ := cfmod_nonneg ha hp
  unfold drange csign
  simp only [abs_of_nonneg h1, if_pos ha, abs_of_pos hp]

private theorem cfmod_neg_arg (a : ℝ) : cfmod (-a) (2 * pi) = -cfmod a (2 * pi) := by
  unfold cfmod
  have : ctrunc (-a / (2 * pi)) = -ctrunc (a / (2 * pi)) := by
    rw [neg_div]
    generalize a / (2 * pi) = x
    rcases lt_trichotomy x 0 with h | h | h
    · rw [ctrunc_of_neg h, ctrunc_of_nonneg (by linarith), Int.floor_neg]
    · subst h; simp [ctrunc]
    · rw [ctrunc_of_nonneg h.le, ctrunc_of_neg (by linarith), Int.ceil_neg]
  rw [this]; push_cast; ring

/-- C15: drange is odd (except that 0 is its own negative). -/
theorem C15_drange_odd (a : ℝ) : drange (-a) = -drange a := by
  have key : ∀ a : ℝ, 0 < a → drange (-a) = -drange a := by
    intro a ha
    have hp : (0 : ℝ) < 2 * pi := by positivity
    unfold drange csign
    simp only [cfmod_neg_arg, abs_neg]
    rw [if_neg (not_le.2 (by linarith : -a < 0)), if_pos ha.le]
    split <;> ring
  rcases lt_trichotomy a 0 with h | h | h
  · have := key (-a) (by linarith)
    rw [neg_neg] at this; rw [this, neg_neg]
  · subst h; simp [drange, cfmod, ctrunc, pi_pos.not_ge]
  · exact key a h

/-- C15: drange returns an angle in [-pi, pi] that differs from its argument by whole turns; the end points
    occur only as `-pi` for positive and `+pi` for negative arguments. -/
theorem C15_drange (a : ℝ) : -pi ≤ drange a ∧ drange a ≤ pi ∧ (∃ k : Int, drange a = a + 2 * pi * k) ∧
    (0 ≤ a → drange a < pi) ∧ (a ≤ 0 → -pi < drange a) := by
  have hpi := pi_pos
  have key : ∀ a : ℝ, 0 ≤ a → -pi ≤ drange a ∧ drange a < pi ∧ (∃ k : Int, drange a = a + 2 * pi * k) := by
    intro a ha
    have hp : (0 : ℝ) < 2 * pi := by positivity
    obtain ⟨h0, h1, h2⟩ := cfmod_nonneg ha hp
    rw [drange_nonneg ha]
    split
    · refine ⟨by linarith, by linarith, -⌊a / (2 * pi)⌋ - 1, by rw [h0]; push_cast; ring⟩
    · rename_i h; push Not at h
      refine ⟨by linarith, h, -⌊a / (2 * pi)⌋, by rw [h0]; push_cast; ring⟩
  rcases le_total 0 a with h | h
  · obtain ⟨h1, h2, h3⟩ := key a h
    refine ⟨h1, h2.le, h3, fun _ => h2, fun h' => ?_⟩
    have : a = 0 := le_antisymm h' h
    subst this
    simp [drange, cfmod, ctrunc, hpi.not_ge, hpi]
  · obtain ⟨h1, h2, k, hk⟩ := key (-a) (by linarith)
    rw [C15_drange_odd] at h1 h2 hk
    refine ⟨by linarith, by linarith, ⟨-k, by push_cast; linarith⟩, fun h' => ?_, fun _ => by linarith⟩
    have : a = 0 := le_antisymm h h'
    subst this
    simp [drange, cfmod, ctrunc, hpi.not_ge, hpi]

/-- C15: drange is the identity on (-pi, pi), idempotent, and periodic where the result is not an end point. -/
theorem C15_drange_laws (a : ℝ) : (|a| < pi → drange a = a) ∧
    (|drange a| < pi → drange (drange a) = drange a ∧ ∀ k : Int, drange (a + 2 * pi * k) = drange a) := by
  have hpi := pi_pos
  have uniq : ∀ x y : ℝ, |y| < pi → (∃ k : Int, y = x + 2 * pi * k) → drange x = y := by
    rintro x y hy ⟨k, hk⟩
    obtain ⟨h1, h2, ⟨m, hm⟩, -, -⟩ := C15_drange x
    obtain ⟨hy1, hy2⟩ := abs_lt.1 hy
    have e : drange x - y = 2 * pi * ((m - k : Int) : ℝ) := by rw [hm, hk]; push_cast; ring
    have hk : m - k = 0 := by
      by_contra hne
      rcases lt_or_gt_of_ne hne with hlt | hgt
      · have : ((m - k : Int) : ℝ) ≤ -1 := by exact_mod_cast (by omega : m - k ≤ -1)
        nlinarith
      · have : (1 : ℝ) ≤ ((m - k : Int) : ℝ) := by exact_mod_cast (by omega : 1 ≤ m - k)
        nlinarith
    rw [hk] at e; simp at e; linarith
  refine ⟨fun h => uniq a a h ⟨0, by simp⟩, fun h => ⟨uniq _ _ h ⟨0, by simp⟩, fun k => uniq _ _ h ?_⟩⟩
  obtain ⟨m, hm⟩ := (C15_drange a).2.2.1
  exact ⟨m - k, by rw [hm]; push_cast; ring⟩

example : |(1 : ℝ)| < pi := by rw [abs_one]; linarith [Real.pi_gt_three]
example : (0 : ℝ) ≤ 1 ∧ (1 : ℝ) < 2 * pi := ⟨by norm_num, by linarith [Real.pi_gt_three]⟩

/-! ## C16 -/

/-- C16: both sidereal time functions return an angle in [0, 2pi). -/
theorem C16_range (ut1 date fdate : ℝ) : (0 ≤ gmst ut1 ∧ gmst ut1 < 2 * pi) ∧
    (0 ≤ gmsta date fdate ∧ gmsta date fdate < 2 * pi) :=
  ⟨⟨(C15_dranrm _).1, (C15_dranrm _).2.1⟩, ⟨(C15_dranrm _).1, (C15_dranrm _).2.1⟩⟩

private theorem dranrm_congr (a b : ℝ) (k : Int) (h : a = b + 2 * pi * k) : dranrm a = dranrm b := by
  rw [h]; exact (C15_dranrm_laws b).2.1 k

private theorem cfmod_one (a : ℝ) : ∃ k : Int, cfmod a 1 = a + k := ⟨-ctrunc (a / 1), by unfold cfmod; push_cast; ring⟩

/-- C16: gmsta of any split of an instant into two parts equals gmst of the instant. -/
theorem C16_gmsta_eq_gmst (date fdate : ℝ) : gmsta date fdate = gmst (date + fdate) := by
  unfold gmsta gmst
  obtain ⟨k1, h1⟩ := cfmod_one date
  obtain ⟨k2, h2⟩ := cfmod_one fdate
  obtain ⟨k3, h3⟩ := cfmod_one (date + fdate)
  split
  · apply dranrm_congr _ _ (k1 + k2 - k3)
    rw [h1, h2, h3]; push_cast
    have : date + (fdate - 51544.5) = date + fdate - 51544.5 := by ring
    rw [this]; ring
  · apply dranrm_congr _ _ (k1 + k2 - k3)
    rw [h1, h2, h3]; push_cast
    have : fdate + (date - 51544.5) = date + fdate - 51544.5 := by ring
    rw [this]; ring

/-- C16: hence the split does not matter. -/
theorem C16_split_independent (d f d' f' : ℝ) (h : d + f = d' + f') : gmsta d f = gmsta d' f' := by
  rw [C16_gmsta_eq_gmst, C16_gmsta_eq_gmst, h]

/-- C16: sidereal time at 0h UT on a whole-day MJD is the bare polynomial. -/
theorem C16_gmst_at_midnight (n : Int) : ∃ k : Int, gmst n =
    (24110.54841 + (8640184.812866 + (0.093104 - 6.2e-6 * (((n : ℝ) - 51544.5) / 36525)) *
      (((n : ℝ) - 51544.5) / 36525)) * (((n : ℝ) - 51544.5) / 36525)) * (2 * pi / 86400) + 2 * pi * k := by
  obtain ⟨-, -, k, hk⟩ := C15_dranrm (cfmod (n : ℝ) 1 * (2 * pi) +
    (24110.54841 + (8640184.812866 + (0.093104 - 6.2e-6 * (((n : ℝ) - 51544.5) / 36525)) *
      (((n : ℝ) - 51544.5) / 36525)) * (((n : ℝ) - 51544.5) / 36525)) * (2 * pi / 86400))
  refine ⟨k, ?_⟩
  unfold gmst
  rw [hk]
  have : cfmod (n : ℝ) 1 = 0 := by
    unfold cfmod ctrunc; simp
  rw [this]; ring

example : (51544 : ℝ) + 0.5 = 51540 + 4.5 := by norm_num

/-! ## C17 -/

/-- C17: Julian epochs and MJDs are inverse. -/
theorem C17_julian_inverse (x : ℝ) : epj (epj2d x) = x ∧ epj2d (epj x) = x := by
  unfold epj epj2d; constructor <;> ring

/-- C17: Besselian epochs and MJDs are inverse. -/
theorem C17_besselian_inverse (x : ℝ) : epb (epb2d x) = x ∧ epb2d (epb x) = x := by
  unfold epb epb2d; constructor <;> ring

/-- C17: all four are strictly increasing. -/
theorem C17_strict_mono : StrictMono epj ∧ StrictMono epj2d ∧ StrictMono epb ∧ StrictMono epb2d := by
  refine ⟨?_, ?_, ?_, ?_⟩ <;> intro a b h
  · unfold epj
    have : (a - 51544.5) / 365.25 < (b - 51544.5) / 365.25 :=
      div_lt_div_of_pos_right (by linarith) (by norm_num)
    linarith
  · unfold epj2d; linarith
  · unfold epb
    have : (a - 15019.81352) / 365.242198781 < (b - 15019.81352) / 365.242198781 :=
      div_lt_div_of_pos_right (by linarith) (by norm_num)
    linarith
  · unfold epb2d
    have : (a - 1900) * 365.242198781 < (b - 1900) * (365.242198781 : ℝ) :=
      mul_lt_mul_of_pos_right (by linarith) (by norm_num)
    linarith

/-- Reference points: J2000.0 is MJD 51544.5 and B1900.0 is MJD 15019.81352. -/
theorem C17_anchors : epj 51544.5 = 2000 ∧ epb 15019.81352 = 1900 := by
  unfold epj epb; norm_num

/-- C17: epco for the recognised letters. -/
theorem C17_epco (e : ℝ) : epco 'B' 'B' e = e ∧ epco 'J' 'J' e = e ∧
    epb2d (epco 'B' 'J' e) = epj2d e ∧ epj2d (epco 'J' 'B' e) = epb2d e ∧
    epco 'J' 'B' (epco 'B' 'J' e) = e ∧ epco 'B' 'J' (epco 'J' 'B' e) = e := by
  have h1 : ∀ e, epco 'B' 'J' e = epb (epj2d e) := by intro e; simp [epco]
  have h2 : ∀ e, epco 'J' 'B' e = epj (epb2d e) := by intro e; simp [epco]
  refine ⟨by simp [epco], by simp [epco], ?_, ?_, ?_, ?_⟩
  · rw [h1, (C17_besselian_inverse _).2]
  · rw [h2, (C17_julian_inverse _).2]
  · rw [h1, h2, (C17_besselian_inverse _).2, (C17_julian_inverse _).1]
  · rw [h1, h2, (C17_julian_inverse _).2, (C17_besselian_inverse _).1]

/-- C17: the documented lower case letters: `b` as result and `j` as given are recognised; `j` as result and
    `b` as given are not (the function returns 0). -/
theorem C17_epco_lower_case (e : ℝ) (g r : Char) :
    epco 'b' g e = epco 'B' g e ∧ epco r 'j' e = epco r 'J' e ∧ epco 'j' g e = 0 ∧ epco r 'b' e = 0 := by
  refine ⟨by simp [epco], by simp [epco], by simp [epco], ?_⟩
  unfold epco; simp

end Sla.Props
