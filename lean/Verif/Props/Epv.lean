/- C59: `epv`. -/
import Verif.Model.Epv
import Verif.Spec.Sphere
import Verif.Lemmas.Coords
import Verif.Props.Eterms
import Mathlib.Analysis.SpecialFunctions.Trigonometric.Deriv
import Mathlib.Analysis.Real.Pi.Bounds

noncomputable section
namespace Sla.Props

open Real Sla.Epv Sla.Spec Matrix

private theorem fold_deriv (step : ℝ → ℝ × ℝ → Term → ℝ × ℝ)
    (hstep : ∀ k (s : ℝ → ℝ × ℝ), (∀ t, HasDerivAt (fun t => (s t).1) (s t).2 t) →
      ∀ t, HasDerivAt (fun t => (step t (s t) k).1) (step t (s t) k).2 t) :
    ∀ (l : List Term) (s : ℝ → ℝ × ℝ), (∀ t, HasDerivAt (fun t => (s t).1) (s t).2 t) →
      ∀ t, HasDerivAt (fun t => (l.foldl (step t) (s t)).1) (l.foldl (step t) (s t)).2 t := by
  intro l
  induction l with
  | nil => intro s hs; exact hs
  | cons k l ih =>
    intro s hs
    exact ih (fun t => step t (s t) k) (hstep k s hs)

private theorem cos_deriv (b c t : ℝ) : HasDerivAt (fun t => Real.cos (b + c * t)) (-Real.sin (b + c * t) * c) t := by
  have h : HasDerivAt (fun t => b + c * t) c t := by simpa using ((hasDerivAt_id t).const_mul c).const_add b
  exact (Real.hasDerivAt_cos _).comp t h

private theorem term0_deriv (k : Term) (s : ℝ → ℝ × ℝ) (hs : ∀ t, HasDerivAt (fun t => (s t).1) (s t).2 t) (t : ℝ) :
    HasDerivAt (fun t => (term0 t (s t) k).1) (term0 t (s t) k).2 t := by
  have := (hs t).add ((cos_deriv k.b k.c t).const_mul k.a)
  exact this.congr_deriv (by simp only [term0]; ring)

private theorem term1_deriv (k : Term) (s : ℝ → ℝ × ℝ) (hs : ∀ t, HasDerivAt (fun t => (s t).1) (s t).2 t) (t : ℝ) :
    HasDerivAt (fun t => (term1 t (s t) k).1) (term1 t (s t) k).2 t := by
  have := (hs t).add (((hasDerivAt_id t).const_mul k.a).mul (cos_deriv k.b k.c t))
  exact this.congr_deriv (by simp only [term1, id_eq]; ring)

private theorem term2_deriv (k : Term) (s : ℝ → ℝ × ℝ) (hs : ∀ t, HasDerivAt (fun t => (s t).1) (s t).2 t) (t : ℝ) :
    HasDerivAt (fun t => (term2 t (s t) k).1) (term2 t (s t) k).2 t := by
  have := (hs t).add ((((hasDerivAt_id t).mul (hasDerivAt_id t)).const_mul k.a).mul (cos_deriv k.b k.c t))
  exact this.congr_deriv (by simp only [term2, id_eq, Pi.mul_apply]; ring)

private theorem helio_deriv (j : Fin 3) (t : ℝ) : HasDerivAt (fun t => (helio t j).1) (helio t j).2 t :=
  fold_deriv term2 term2_deriv _ _ (fold_deriv term1 term1_deriv _ _ (fold_deriv term0 term0_deriv _ (fun _ => (0, 0))
    (fun t => hasDerivAt_const t 0))) t

private theorem bary_deriv (j : Fin 3) (t : ℝ) : HasDerivAt (fun t => (bary t j).1) (bary t j).2 t :=
  fold_deriv term2 term2_deriv _ _ (fold_deriv term1 term1_deriv _ _ (fold_deriv term0 term0_deriv _ (fun t => helio t j)
    (helio_deriv j))) t

private theorem per_day (f f' : ℝ → ℝ) (h : ∀ t, HasDerivAt f (f' t) t) (date : ℝ) :
    HasDerivAt (fun d => f ((d - 51544.5) / 365.25)) (f' ((date - 51544.5) / 365.25) / 365.25) date := by
  have h1 : HasDerivAt (fun d : ℝ => (d - 51544.5) / 365.25) (1 / 365.25) date :=
    ((hasDerivAt_id date).sub_const _).div_const _
  have := (h ((date - 51544.5) / 365.25)).comp date h1
  exact this.congr_deriv (by ring)

private theorem icrs_deriv (x y z : ℝ → ℝ) (x' y' z' : ℝ) (t : ℝ) (hx : HasDerivAt x x' t) (hy : HasDerivAt y y' t)
    (hz : HasDerivAt z z' t) (i : Fin 3) : HasDerivAt (fun t => toIcrs (x t) (y t) (z t) i) (toIcrs x' y' z' i) t := by
  fin_cases i
  · exact (hx.add (hy.const_mul _)).add (hz.const_mul _)
  · exact ((hx.const_mul _).add (hy.const_mul _)).add (hz.const_mul _)
  · exact (hy.const_mul _).add (hz.const_mul _)

/-- At every date the returned velocities are the derivatives, per day, of the returned positions. -/
theorem C59_epv (date : ℝ) (i : Fin 3) :
    HasDerivAt (fun d => (epv d).hpos i) ((epv date).hvelo i) date ∧
    HasDerivAt (fun d => (epv d).bpos i) ((epv date).bvelo i) date :=
  ⟨icrs_deriv _ _ _ _ _ _ date (per_day _ _ (helio_deriv 0) date) (per_day _ _ (helio_deriv 1) date)
    (per_day _ _ (helio_deriv 2) date) i,
   icrs_deriv _ _ _ _ _ _ date (per_day _ _ (bary_deriv 0) date) (per_day _ _ (bary_deriv 1) date)
    (per_day _ _ (bary_deriv 2) date) i⟩

/-- The numbers of terms used match the tables: no term is left out and none is read beyond the initialised ones. -/
theorem C59_tables (j : Fin 3) : (e0 j).length = ne0 j ∧ (e1 j).length = ne1 j ∧ (e2 j).length = ne2 j ∧
    (s0 j).length = ns0 j ∧ (s1 j).length = ns1 j ∧ (s2 j).length = ns2 j := by
  revert j; decide +kernel

/-! Bounds on the series. -/

private def amp (l : List Term) : ℤ := (l.map fun k => |sci k.am k.ae|).sum
private def ampc (l : List Term) : ℤ := (l.map fun k => |sci k.am k.ae * sci k.cm k.ce|).sum

private theorem abs_a (k : Term) : |k.a| = (|sci k.am k.ae| : ℤ) / 10 ^ 33 := by
  rw [Term.a, abs_div, abs_of_pos (by positivity : (0 : ℝ) < 10 ^ 33), Int.cast_abs]

private theorem abs_ac (k : Term) : |k.a * k.c| = (|sci k.am k.ae * sci k.cm k.ce| : ℤ) / 10 ^ 66 := by
  rw [Term.a, Term.c, div_mul_div_comm, abs_div, abs_of_pos (by positivity : (0 : ℝ) < 10 ^ 33 * 10 ^ 33), Int.cast_abs]
  push_cast; ring

private theorem fold_bound (step : ℝ × ℝ → Term → ℝ × ℝ) (A B C : ℝ)
    (h1 : ∀ s k, |(step s k).1 - s.1| ≤ |k.a| * A)
    (h2 : ∀ s k, |(step s k).2 - s.2| ≤ |k.a| * B + |k.a * k.c| * C) :
    ∀ (l : List Term) (s : ℝ × ℝ), |(l.foldl step s).1 - s.1| ≤ amp l / 10 ^ 33 * A ∧
      |(l.foldl step s).2 - s.2| ≤ amp l / 10 ^ 33 * B + ampc l / 10 ^ 66 * C := by
  intro l
  induction l with
  | nil => intro s; simp [amp, ampc]
  | cons k l ih =>
    intro s
    obtain ⟨i1, i2⟩ := ih (step s k)
    have e1 : (amp (k :: l) : ℝ) / 10 ^ 33 = |k.a| + amp l / 10 ^ 33 := by
      rw [abs_a, amp, List.map_cons, List.sum_cons, ← amp]; push_cast; ring
    have e2 : (ampc (k :: l) : ℝ) / 10 ^ 66 = |k.a * k.c| + ampc l / 10 ^ 66 := by
      rw [abs_ac, ampc, List.map_cons, List.sum_cons, ← ampc]; push_cast; ring
    rw [List.foldl_cons, e1, e2]
    constructor
    · have := abs_add_le ((l.foldl step (step s k)).1 - (step s k).1) ((step s k).1 - s.1)
      rw [sub_add_sub_cancel] at this
      have := h1 s k
      linarith
    · have := abs_add_le ((l.foldl step (step s k)).2 - (step s k).2) ((step s k).2 - s.2)
      rw [sub_add_sub_cancel] at this
      have := h2 s k
      linarith

private theorem cos_le (p : ℝ) : |Real.cos p| ≤ 1 := Real.abs_cos_le_one p
private theorem sin_le (p : ℝ) : |Real.sin p| ≤ 1 := Real.abs_sin_le_one p

private theorem fold0_bound (t : ℝ) (l : List Term) (s : ℝ × ℝ) :
    |(l.foldl (term0 t) s).1 - s.1| ≤ amp l / 10 ^ 33 ∧ |(l.foldl (term0 t) s).2 - s.2| ≤ ampc l / 10 ^ 66 := by
  have := fold_bound (term0 t) 1 0 1 (fun s k => by
      simp only [term0, add_sub_cancel_left, abs_mul]
      exact mul_le_mul_of_nonneg_left (cos_le _) (abs_nonneg _)) (fun s k => by
      simp only [term0, sub_sub_cancel_left, abs_neg]
      rw [abs_mul (k.a * k.c), mul_zero, zero_add]
      exact mul_le_mul_of_nonneg_left (sin_le _) (abs_nonneg _)) l s
  simpa using this

private theorem fold1_bound {t T : ℝ} (ht : |t| ≤ T) (l : List Term) (s : ℝ × ℝ) :
    |(l.foldl (term1 t) s).1 - s.1| ≤ amp l / 10 ^ 33 * T ∧
    |(l.foldl (term1 t) s).2 - s.2| ≤ amp l / 10 ^ 33 * 1 + ampc l / 10 ^ 66 * T := by
  refine fold_bound (term1 t) T 1 T (fun s k => ?_) (fun s k => ?_) l s
  · simp only [term1, add_sub_cancel_left, abs_mul, mul_assoc]
    exact mul_le_mul_of_nonneg_left
      (le_trans (mul_le_of_le_one_right (abs_nonneg _) (cos_le _)) ht) (abs_nonneg _)
  · simp only [term1, add_sub_cancel_left]
    rw [show k.a * (Real.cos (k.b + k.c * t) - k.c * t * Real.sin (k.b + k.c * t)) =
      k.a * Real.cos (k.b + k.c * t) + -(k.a * k.c * (t * Real.sin (k.b + k.c * t))) by ring]
    refine (abs_add_le _ _).trans (add_le_add ?_ ?_)
    · rw [abs_mul]; exact mul_le_mul_of_nonneg_left (cos_le _) (abs_nonneg _)
    · rw [abs_neg, abs_mul]
      refine mul_le_mul_of_nonneg_left ?_ (abs_nonneg _)
      rw [abs_mul]; exact le_trans (mul_le_of_le_one_right (abs_nonneg _) (sin_le _)) ht

private theorem fold2_bound {t T : ℝ} (ht : |t| ≤ T) (l : List Term) (s : ℝ × ℝ) :
    |(l.foldl (term2 t) s).1 - s.1| ≤ amp l / 10 ^ 33 * (T * T) ∧
    |(l.foldl (term2 t) s).2 - s.2| ≤ amp l / 10 ^ 33 * (2 * T) + ampc l / 10 ^ 66 * (T * T) := by
  have hT : 0 ≤ T := (abs_nonneg t).trans ht
  have htt : |t * t| ≤ T * T := by rw [abs_mul]; exact mul_le_mul ht ht (abs_nonneg _) hT
  refine fold_bound (term2 t) (T * T) (2 * T) (T * T) (fun s k => ?_) (fun s k => ?_) l s
  · simp only [term2, add_sub_cancel_left]
    rw [mul_assoc, abs_mul]
    refine mul_le_mul_of_nonneg_left ?_ (abs_nonneg _)
    rw [abs_mul]; exact le_trans (mul_le_of_le_one_right (abs_nonneg _) (cos_le _)) htt
  · simp only [term2, add_sub_cancel_left]
    rw [show k.a * t * (2 * Real.cos (k.b + k.c * t) - k.c * t * Real.sin (k.b + k.c * t)) =
      k.a * (2 * t * Real.cos (k.b + k.c * t)) + -(k.a * k.c * (t * t * Real.sin (k.b + k.c * t))) by ring]
    refine (abs_add_le _ _).trans (add_le_add ?_ ?_)
    · rw [abs_mul]
      refine mul_le_mul_of_nonneg_left ?_ (abs_nonneg _)
      rw [abs_mul]
      refine le_trans (mul_le_of_le_one_right (abs_nonneg _) (cos_le _)) ?_
      rw [abs_mul, abs_two]; linarith
    · rw [abs_neg, abs_mul]
      refine mul_le_mul_of_nonneg_left ?_ (abs_nonneg _)
      rw [abs_mul]; exact le_trans (mul_le_of_le_one_right (abs_nonneg _) (sin_le _)) htt

/-- The three stages of one vector, for a hundred years before and after J2000, from the state `s`. -/
private theorem stages {t : ℝ} (ht : |t| ≤ 100) (l0 l1 l2 : List Term) (s : ℝ × ℝ) :
    |(l2.foldl (term2 t) (l1.foldl (term1 t) (l0.foldl (term0 t) s))).1 - s.1| ≤
      amp l0 / 10 ^ 33 + amp l1 / 10 ^ 33 * 100 + amp l2 / 10 ^ 33 * 10000 ∧
    |(l2.foldl (term2 t) (l1.foldl (term1 t) (l0.foldl (term0 t) s))).2 - s.2| ≤
      ampc l0 / 10 ^ 66 + (amp l1 / 10 ^ 33 + ampc l1 / 10 ^ 66 * 100) +
        (amp l2 / 10 ^ 33 * 200 + ampc l2 / 10 ^ 66 * 10000) := by
  obtain ⟨a1, a2⟩ := fold0_bound t l0 s
  obtain ⟨b1, b2⟩ := fold1_bound ht l1 (l0.foldl (term0 t) s)
  obtain ⟨c1, c2⟩ := fold2_bound ht l2 (l1.foldl (term1 t) (l0.foldl (term0 t) s))
  constructor
  · rw [abs_le] at a1 b1 c1 ⊢
    constructor <;> linarith [a1.1, a1.2, b1.1, b1.2, c1.1, c1.2]
  · rw [abs_le] at a2 b2 c2 ⊢
    constructor <;> linarith [a2.1, a2.2, b2.1, b2.2, c2.1, c2.2]

private def main0 : Fin 3 → List Term := ![e0x.take 1, e0y.take 1, []]
private def rest0 : Fin 3 → List Term := ![e0x.drop 1, e0y.drop 1, e0z]

private def bp : Fin 3 → ℤ := ![14534 * 10 ^ 27, 33324 * 10 ^ 27, 250 * 10 ^ 27]
private def bv : Fin 3 → ℤ := ![112 * 10 ^ 63, 112 * 10 ^ 63, 2 * 10 ^ 63]

private theorem sums : ∀ j, amp (rest0 j) + amp (e1 j) * 100 + amp (e2 j) * 10000 ≤ bp j ∧
    ampc (rest0 j) + (amp (e1 j) * 10 ^ 33 + ampc (e1 j) * 100) +
      (amp (e2 j) * 10 ^ 33 * 200 + ampc (e2 j) * 10000) ≤ bv j := by
  decide +kernel

private theorem sumsS : ∀ j, amp (s0 j) + amp (s1 j) * 100 + amp (s2 j) * 10000 ≤
      (![10720, 10770, 320] : Fin 3 → ℤ) j * 10 ^ 27 ∧
    ampc (s0 j) + (amp (s1 j) * 10 ^ 33 + ampc (s1 j) * 100) +
      (amp (s2 j) * 10 ^ 33 * 200 + ampc (s2 j) * 10000) ≤ (![3580, 3580, 96] : Fin 3 → ℤ) j * 10 ^ 60 := by
  decide +kernel

private theorem helio_near {t : ℝ} (ht : |t| ≤ 100) (j : Fin 3) :
    |(helio t j).1 - ((main0 j).foldl (term0 t) (0, 0)).1| ≤ (bp j : ℝ) / 10 ^ 33 ∧
    |(helio t j).2 - ((main0 j).foldl (term0 t) (0, 0)).2| ≤ (bv j : ℝ) / 10 ^ 66 := by
  have e : (e0 j) = main0 j ++ rest0 j := by
    fin_cases j
    · exact (List.take_append_drop 1 e0x).symm
    · exact (List.take_append_drop 1 e0y).symm
    · rfl
  obtain ⟨t0, t1, t2, -⟩ := C59_tables j
  have h : helio t j = (e2 j).foldl (term2 t) ((e1 j).foldl (term1 t)
      ((rest0 j).foldl (term0 t) ((main0 j).foldl (term0 t) (0, 0)))) := by
    simp only [helio]
    rw [← t0, ← t1, ← t2, List.take_length, List.take_length, List.take_length, e, List.foldl_append]
  obtain ⟨q1, q2⟩ := stages ht (rest0 j) (e1 j) (e2 j) ((main0 j).foldl (term0 t) (0, 0))
  obtain ⟨n1, n2⟩ := sums j
  have n1' : ((amp (rest0 j) + amp (e1 j) * 100 + amp (e2 j) * 10000 : ℤ) : ℝ) ≤ bp j := by exact_mod_cast n1
  have n2' : ((ampc (rest0 j) + (amp (e1 j) * 10 ^ 33 + ampc (e1 j) * 100) +
      (amp (e2 j) * 10 ^ 33 * 200 + ampc (e2 j) * 10000) : ℤ) : ℝ) ≤ bv j := by exact_mod_cast n2
  push_cast at n1' n2'
  rw [h]
  constructor
  · refine q1.trans ?_
    rw [le_div_iff₀ (by positivity)]
    refine le_trans (le_of_eq ?_) n1'
    field_simp
  · refine q2.trans ?_
    rw [le_div_iff₀ (by positivity)]
    refine le_trans (le_of_eq ?_) n2'
    ring

private theorem bary_near {t : ℝ} (ht : |t| ≤ 100) (j : Fin 3) :
    |(bary t j).1 - (helio t j).1| ≤ ((![10720, 10770, 320] : Fin 3 → ℤ) j : ℝ) / 10 ^ 6 ∧
    |(bary t j).2 - (helio t j).2| ≤ ((![3580, 3580, 96] : Fin 3 → ℤ) j : ℝ) / 10 ^ 6 := by
  obtain ⟨-, -, -, t0, t1, t2⟩ := C59_tables j
  have h : bary t j = (s2 j).foldl (term2 t) ((s1 j).foldl (term1 t) ((s0 j).foldl (term0 t) (helio t j))) := by
    simp only [bary]
    rw [← t0, ← t1, ← t2, List.take_length, List.take_length, List.take_length]
  obtain ⟨q1, q2⟩ := stages ht (s0 j) (s1 j) (s2 j) (helio t j)
  obtain ⟨n1, n2⟩ := sumsS j
  have n1' : ((amp (s0 j) + amp (s1 j) * 100 + amp (s2 j) * 10000 : ℤ) : ℝ) ≤
      (((![10720, 10770, 320] : Fin 3 → ℤ) j * 10 ^ 27 : ℤ) : ℝ) := by exact_mod_cast n1
  have n2' : ((ampc (s0 j) + (amp (s1 j) * 10 ^ 33 + ampc (s1 j) * 100) +
      (amp (s2 j) * 10 ^ 33 * 200 + ampc (s2 j) * 10000) : ℤ) : ℝ) ≤
      (((![3580, 3580, 96] : Fin 3 → ℤ) j * 10 ^ 60 : ℤ) : ℝ) := by exact_mod_cast n2
  push_cast at n1' n2'
  rw [h]
  constructor
  · refine q1.trans ?_
    have : amp (s0 j) / 10 ^ 33 + amp (s1 j) / 10 ^ 33 * 100 + amp (s2 j) / 10 ^ 33 * 10000 =
      ((amp (s0 j) : ℝ) + amp (s1 j) * 100 + amp (s2 j) * 10000) / 10 ^ 33 := by ring
    rw [this, div_le_div_iff₀ (by positivity) (by positivity)]
    nlinarith [n1']
  · refine q2.trans ?_
    have : ampc (s0 j) / 10 ^ 66 + (amp (s1 j) / 10 ^ 33 + ampc (s1 j) / 10 ^ 66 * 100) +
        (amp (s2 j) / 10 ^ 33 * 200 + ampc (s2 j) / 10 ^ 66 * 10000) =
      ((ampc (s0 j) : ℝ) + (amp (s1 j) * 10 ^ 33 + ampc (s1 j) * 100) +
      (amp (s2 j) * 10 ^ 33 * 200 + ampc (s2 j) * 10000)) / 10 ^ 66 := by ring
    rw [this, div_le_div_iff₀ (by positivity) (by positivity)]
    nlinarith [n2']

private theorem vec_len (x y z : ℝ) : len ![x, y, z] = Real.sqrt (x ^ 2 + y ^ 2 + z ^ 2) := by
  rw [len]; congr 1; simp [dotProduct, Fin.sum_univ_three]; ring

private theorem icrs_len (x y z : ℝ) : (1 - 1e-12) * len ![x, y, z] ≤ len (toIcrs x y z) ∧
    len (toIcrs x y z) ≤ (1 + 1e-12) * len ![x, y, z] := by
  have e : len (toIcrs x y z) = Real.sqrt ((x + 0.000000211284 * y + (-0.000000091603) * z) ^ 2 +
      (-0.000000230286 * x + 0.917482137087 * y + (-0.397776982902) * z) ^ 2 +
      (0.397776982902 * y + 0.917482137087 * z) ^ 2) := vec_len _ _ _
  rw [e, vec_len]
  have hxy := abs_le.mp (show |x * y| ≤ (x ^ 2 + y ^ 2) / 2 by
    rw [abs_le]; constructor <;> nlinarith [sq_nonneg (x + y), sq_nonneg (x - y)])
  have hxz := abs_le.mp (show |x * z| ≤ (x ^ 2 + z ^ 2) / 2 by
    rw [abs_le]; constructor <;> nlinarith [sq_nonneg (x + z), sq_nonneg (x - z)])
  have hyz := abs_le.mp (show |y * z| ≤ (y ^ 2 + z ^ 2) / 2 by
    rw [abs_le]; constructor <;> nlinarith [sq_nonneg (y + z), sq_nonneg (y - z)])
  have hx := sq_nonneg x
  have hy := sq_nonneg y
  have hz := sq_nonneg z
  constructor
  · refine Real.le_sqrt_of_sq_le ?_
    rw [mul_pow, Real.sq_sqrt (by positivity)]
    nlinarith [hxy.1, hxy.2, hxz.1, hxz.2, hyz.1, hyz.2]
  · rw [Real.sqrt_le_left (by positivity), mul_pow, Real.sq_sqrt (by positivity)]
    nlinarith [hxy.1, hxy.2, hxz.1, hxz.2, hyz.1, hyz.2]

/-- A vector within the given component bounds of a circle of radius `R` in the xy plane. -/
private theorem near_circle (R c s x y z α β γ ρ : ℝ) (hR : 0 ≤ R) (hcs : c ^ 2 + s ^ 2 = 1) (hx : |x - R * c| ≤ α)
    (hy : |y - R * s| ≤ β) (hz : |z| ≤ γ) (hρ0 : 0 ≤ ρ) (hρ : α ^ 2 + β ^ 2 + γ ^ 2 ≤ ρ ^ 2) :
    R - ρ ≤ len ![x, y, z] ∧ len ![x, y, z] ≤ R + ρ := by
  have e1 : len ![R * c, R * s, 0] = R := by
    rw [vec_len, show (R * c) ^ 2 + (R * s) ^ 2 + 0 ^ 2 = R ^ 2 * (c ^ 2 + s ^ 2) by ring, hcs, mul_one, Real.sqrt_sq hR]
  have e2 : len ![x - R * c, y - R * s, z] ≤ ρ := by
    rw [vec_len, Real.sqrt_le_left hρ0]
    refine le_trans ?_ hρ
    have a1 := sq_le_sq' (by linarith [(abs_le.mp hx).1]) (abs_le.mp hx).2
    have a2 := sq_le_sq' (by linarith [(abs_le.mp hy).1]) (abs_le.mp hy).2
    have a3 := sq_le_sq' (by linarith [(abs_le.mp hz).1]) (abs_le.mp hz).2
    linarith
  have s1 : ![x, y, z] = ![R * c, R * s, 0] + ![x - R * c, y - R * s, z] := by
    ext i; fin_cases i <;> simp
  have s2 : ![R * c, R * s, 0] = ![x, y, z] - ![x - R * c, y - R * s, z] := by
    ext i; fin_cases i <;> simp
  constructor
  · have := len_sub_le ![x, y, z] ![x - R * c, y - R * s, z]
    rw [← s2, e1] at this
    linarith
  · have := len_add_le ![R * c, R * s, 0] ![x - R * c, y - R * s, z]
    rw [← s1, e1] at this
    linarith

private theorem shift_small (θ : ℝ) : |Real.cos (θ - 1.5708267801194) - Real.sin θ| ≤ 0.0000305 ∧
    |Real.sin (θ - 1.5708267801194) + Real.cos θ| ≤ 0.0000305 := by
  have hp1 := Real.pi_gt_d20
  have hp2 := Real.pi_lt_d20
  set δ := 1.5708267801194 - π / 2 with hδ
  have hd : |δ| ≤ 0.0000305 := by
    rw [abs_le, hδ]; norm_num at *; constructor <;> linarith
  have e1 : Real.cos (θ - 1.5708267801194) = Real.sin (θ - δ) := by
    rw [show θ - 1.5708267801194 = (θ - δ) - π / 2 by rw [hδ]; ring, Real.cos_sub_pi_div_two]
  have e2 : Real.sin (θ - 1.5708267801194) = -Real.cos (θ - δ) := by
    rw [show θ - 1.5708267801194 = (θ - δ) - π / 2 by rw [hδ]; ring, Real.sin_sub_pi_div_two]
  constructor
  · rw [e1]
    refine le_trans (Real.abs_sin_sub_sin_le _ _) ?_
    rw [show θ - δ - θ = -δ by ring, abs_neg]; exact hd
  · rw [e2, show -Real.cos (θ - δ) + Real.cos θ = -(Real.cos (θ - δ) - Real.cos θ) by ring, abs_neg]
    refine le_trans (Real.abs_cos_sub_cos_le _ _) ?_
    rw [show θ - δ - θ = -δ by ring, abs_neg]; exact hd

private theorem main_x (t : ℝ) : (main0 0).foldl (term0 t) (0, 0) =
    (0.9998292878132 * Real.cos (1.753485171504 + 6.283075850446 * t),
      -(0.9998292878132 * 6.283075850446 * Real.sin (1.753485171504 + 6.283075850446 * t))) := by
  have h : main0 0 = [⟨9998292878132, 0, 1753485171504, 1, 6283075850446, 1⟩] := by rfl
  rw [h]
  have t20 : (0 + 20 : ℤ).toNat = 20 := rfl
  have t21 : (1 + 20 : ℤ).toNat = 21 := rfl
  simp only [List.foldl, term0, Term.a, Term.b, Term.c, sci, t20, t21]
  norm_num

private theorem main_y (t : ℝ) : (main0 1).foldl (term0 t) (0, 0) =
    (0.9998921098898 * Real.cos (0.1826583913846 + 6.283075850446 * t),
      -(0.9998921098898 * 6.283075850446 * Real.sin (0.1826583913846 + 6.283075850446 * t))) := by
  have h : main0 1 = [⟨9998921098898, 0, 1826583913846, 0, 6283075850446, 1⟩] := by rfl
  rw [h]
  have t20 : (0 + 20 : ℤ).toNat = 20 := rfl
  have t21 : (1 + 20 : ℤ).toNat = 21 := rfl
  simp only [List.foldl, term0, Term.a, Term.b, Term.c, sci, t20, t21]
  norm_num

/-- For a century either side of J2000 (1900 to 2100) the Earth is between 0.963 and 1.037 AU from the Sun, moves at
    0.0167 to 0.0177 AU per day about it, and the Sun is within 0.0153 AU of the barycentre and moves at less than
    1.4e-5 AU per day. -/
theorem C59_orbit (date : ℝ) (h : |date - 51544.5| ≤ 36525) :
    0.963 ≤ len (epv date).hpos ∧ len (epv date).hpos ≤ 1.037 ∧
    0.0167 ≤ len (epv date).hvelo ∧ len (epv date).hvelo ≤ 0.0177 ∧
    len ((epv date).bpos - (epv date).hpos) ≤ 0.0153 ∧ len ((epv date).bvelo - (epv date).hvelo) ≤ 1.4e-5 := by
  set t := (date - 51544.5) / 365.25 with htdef
  have ht : |t| ≤ 100 := by
    rw [htdef, abs_div, abs_of_pos (by norm_num : (0 : ℝ) < 365.25), div_le_iff₀ (by norm_num)]
    norm_num at *; linarith
  set θ := 1.753485171504 + 6.283075850446 * t with hθ
  have hθ' : 0.1826583913846 + 6.283075850446 * t = θ - 1.5708267801194 := by rw [hθ]; ring
  obtain ⟨x1, x2⟩ := helio_near ht 0
  obtain ⟨y1, y2⟩ := helio_near ht 1
  obtain ⟨z1, z2⟩ := helio_near ht 2
  rw [main_x, ← hθ] at x1 x2
  rw [main_y, hθ'] at y1 y2
  have hz0 : (main0 2).foldl (term0 t) (0, 0) = (0, 0) := by rfl
  rw [hz0, sub_zero] at z1 z2
  obtain ⟨d1, d2⟩ := shift_small θ
  have vbp0 : (bp 0 : ℝ) / 10 ^ 33 = 0.014534 := by rw [show bp 0 = 14534 * 10 ^ 27 from rfl]; norm_num
  have vbp1 : (bp 1 : ℝ) / 10 ^ 33 = 0.033324 := by rw [show bp 1 = 33324 * 10 ^ 27 from rfl]; norm_num
  have vbp2 : (bp 2 : ℝ) / 10 ^ 33 = 0.00025 := by rw [show bp 2 = 250 * 10 ^ 27 from rfl]; norm_num
  have vbv0 : (bv 0 : ℝ) / 10 ^ 66 = 0.112 := by rw [show bv 0 = 112 * 10 ^ 63 from rfl]; norm_num
  have vbv1 : (bv 1 : ℝ) / 10 ^ 66 = 0.112 := by rw [show bv 1 = 112 * 10 ^ 63 from rfl]; norm_num
  have vbv2 : (bv 2 : ℝ) / 10 ^ 66 = 0.002 := by rw [show bv 2 = 2 * 10 ^ 63 from rfl]; norm_num
  rw [vbp0] at x1; rw [vbp1] at y1; rw [vbp2] at z1; rw [vbv0] at x2; rw [vbv1] at y2; rw [vbv2] at z2
  have c1 := abs_le.mp (cos_le θ)
  have s1 := abs_le.mp (sin_le θ)
  rw [abs_le] at x1 x2 y1 y2 d1 d2
  simp only at x1 x2 y1 y2
  have hx : |(helio t 0).1 - 1 * Real.cos θ| ≤ 0.01471 := by
    clear * - x1 c1; rw [abs_le]; norm_num at *; constructor <;> linarith [x1.1, x1.2, c1.1, c1.2]
  have hy : |(helio t 1).1 - 1 * Real.sin θ| ≤ 0.03347 := by
    clear * - y1 d1 s1; rw [abs_le]; norm_num at *; constructor <;> linarith [y1.1, y1.2, d1.1, d1.2, s1.1, s1.2]
  have hvx : |(helio t 0).2 - 6.283075850446 * -Real.sin θ| ≤ 0.1132 := by
    clear * - x2 s1; rw [abs_le]; norm_num at *; constructor <;> linarith [x2.1, x2.2, s1.1, s1.2]
  have hvy : |(helio t 1).2 - 6.283075850446 * Real.cos θ| ≤ 0.1132 := by
    clear * - y2 d2 c1; rw [abs_le]; norm_num at *; constructor <;> linarith [y2.1, y2.2, d2.1, d2.2, c1.1, c1.2]
  have hcs : Real.cos θ ^ 2 + Real.sin θ ^ 2 = 1 := Real.cos_sq_add_sin_sq θ
  have hsc : (-Real.sin θ) ^ 2 + Real.cos θ ^ 2 = 1 := by rw [neg_sq]; exact Real.sin_sq_add_cos_sq θ
  obtain ⟨p1, p2⟩ := near_circle 1 _ _ _ _ _ _ _ _ 0.0366 zero_le_one hcs hx hy z1 (by norm_num) (by norm_num)
  obtain ⟨v1, v2⟩ := near_circle 6.283075850446 _ _ _ _ _ _ _ _ 0.1602 (by norm_num) hsc hvx hvy z2 (by norm_num)
    (by norm_num)
  have scale : ∀ a b c : ℝ, len ![a / 365.25, b / 365.25, c / 365.25] = len ![a, b, c] / 365.25 := by
    intro a b c
    rw [show ![a / 365.25, b / 365.25, c / 365.25] = (1 / 365.25 : ℝ) • ![a, b, c] by
      ext i; fin_cases i <;> simp <;> ring, len_smul, abs_of_pos (by norm_num)]
    ring
  have i1 := icrs_len (helio t 0).1 (helio t 1).1 (helio t 2).1
  have i2 := icrs_len ((helio t 0).2 / 365.25) ((helio t 1).2 / 365.25) ((helio t 2).2 / 365.25)
  rw [scale] at i2
  have linS : ∀ a b c a' b' c' : ℝ, toIcrs a b c - toIcrs a' b' c' = toIcrs (a - a') (b - b') (c - c') := by
    intro a b c a' b' c'
    ext i; fin_cases i <;> simp [toIcrs] <;> ring
  have small : ∀ a b c α β γ ρ : ℝ, |a| ≤ α → |b| ≤ β → |c| ≤ γ → 0 ≤ ρ → α ^ 2 + β ^ 2 + γ ^ 2 ≤ ρ ^ 2 →
      len ![a, b, c] ≤ ρ := by
    intro a b c α β γ ρ ha hb hc h0 hρ
    have := (near_circle 0 1 0 a b c α β γ ρ le_rfl (by norm_num) (by simpa using ha) (by simpa using hb) hc h0 hρ).2
    linarith
  obtain ⟨bx1, bx2⟩ := bary_near ht 0
  obtain ⟨by1, by2⟩ := bary_near ht 1
  obtain ⟨bz1, bz2⟩ := bary_near ht 2
  rw [show (![10720, 10770, 320] : Fin 3 → ℤ) 0 = 10720 from rfl] at bx1
  rw [show (![10720, 10770, 320] : Fin 3 → ℤ) 1 = 10770 from rfl] at by1
  rw [show (![10720, 10770, 320] : Fin 3 → ℤ) 2 = 320 from rfl] at bz1
  rw [show (![3580, 3580, 96] : Fin 3 → ℤ) 0 = 3580 from rfl] at bx2
  rw [show (![3580, 3580, 96] : Fin 3 → ℤ) 1 = 3580 from rfl] at by2
  rw [show (![3580, 3580, 96] : Fin 3 → ℤ) 2 = 96 from rfl] at bz2
  have q1 := small _ _ _ _ _ _ 0.0152 bx1 by1 bz1 (by norm_num) (by norm_num)
  have q2 := small _ _ _ _ _ _ 0.00507 bx2 by2 bz2 (by norm_num) (by norm_num)
  have j1 := icrs_len ((bary t 0).1 - (helio t 0).1) ((bary t 1).1 - (helio t 1).1) ((bary t 2).1 - (helio t 2).1)
  have j2 := icrs_len ((bary t 0).2 / 365.25 - (helio t 0).2 / 365.25) ((bary t 1).2 / 365.25 - (helio t 1).2 / 365.25)
    ((bary t 2).2 / 365.25 - (helio t 2).2 / 365.25)
  rw [← sub_div, ← sub_div, ← sub_div, scale] at j2
  have epvdef : epv date = ⟨toIcrs (helio t 0).1 (helio t 1).1 (helio t 2).1,
    toIcrs ((helio t 0).2 / 365.25) ((helio t 1).2 / 365.25) ((helio t 2).2 / 365.25),
    toIcrs (bary t 0).1 (bary t 1).1 (bary t 2).1,
    toIcrs ((bary t 0).2 / 365.25) ((bary t 1).2 / 365.25) ((bary t 2).2 / 365.25)⟩ := rfl
  rw [epvdef]
  simp only
  rw [linS, linS, ← sub_div, ← sub_div, ← sub_div]
  refine ⟨?_, ?_, ?_, ?_, ?_, ?_⟩
  · refine le_trans ?_ i1.1; clear * - p1; norm_num at p1 ⊢; linarith
  · refine le_trans i1.2 ?_; clear * - p2; norm_num at p2 ⊢; linarith
  · refine le_trans ?_ i2.1; clear * - v1; norm_num at v1 ⊢; linarith
  · refine le_trans i2.2 ?_; clear * - v2; norm_num at v2 ⊢; linarith
  · refine le_trans j1.2 ?_; clear * - q1; norm_num at q1 ⊢; linarith
  · refine le_trans j2.2 ?_; clear * - q2; norm_num at q2 ⊢; linarith

example : |(60000 : ℝ) - 51544.5| ≤ 36525 := by norm_num [abs_le]

end Sla.Props
