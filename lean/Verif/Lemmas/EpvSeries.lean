import Verif.Lemmas.EpvMatch

/-
The series of `epv` as sums: leading terms and bounds on the rest.
-/
noncomputable section
namespace Sla.EvpL
open Real Epv

/-- The sum of the terms of a table. -/
def ser (l : List Term) (t : ℝ) : ℝ := (l.map fun k => k.a * cos (k.b + k.c * t)).sum
/-- The sum of the absolute amplitudes, in units of 10^-33. -/
def serAmp (l : List Term) : ℤ := (l.map fun k => |sci k.am k.ae|).sum

theorem ser_append (l m : List Term) (t : ℝ) : ser (l ++ m) t = ser l t + ser m t := by simp [ser]

theorem fold0_ser (t : ℝ) (l : List Term) : ∀ s : ℝ × ℝ, (l.foldl (term0 t) s).1 = s.1 + ser l t := by
  induction l with
  | nil => intro s; simp [ser]
  | cons k l ih => intro s; rw [List.foldl_cons, ih]; simp only [term0, ser, List.map_cons, List.sum_cons]; ring

theorem fold1_ser (t : ℝ) (l : List Term) : ∀ s : ℝ × ℝ, (l.foldl (term1 t) s).1 = s.1 + t * ser l t := by
  induction l with
  | nil => intro s; simp [ser]
  | cons k l ih => intro s; rw [List.foldl_cons, ih]; simp only [term1, ser, List.map_cons, List.sum_cons]; ring

theorem fold2_ser (t : ℝ) (l : List Term) : ∀ s : ℝ × ℝ, (l.foldl (term2 t) s).1 = s.1 + t * t * ser l t := by
  induction l with
  | nil => intro s; simp [ser]
  | cons k l ih => intro s; rw [List.foldl_cons, ih]; simp only [term2, ser, List.map_cons, List.sum_cons]; ring

theorem ser_le (l : List Term) (t : ℝ) : |ser l t| ≤ (serAmp l : ℝ) / 10 ^ 33 := by
  induction l with
  | nil => simp [ser, serAmp]
  | cons k l ih =>
    have e1 : (serAmp (k :: l) : ℝ) / 10 ^ 33 = |k.a| + serAmp l / 10 ^ 33 := by
      rw [Term.a, abs_div, abs_of_pos (by positivity : (0 : ℝ) < 10 ^ 33), ← Int.cast_abs, serAmp, List.map_cons, List.sum_cons, ← serAmp]
      push_cast; ring
    rw [e1]
    have e2 : ser (k :: l) t = k.a * cos (k.b + k.c * t) + ser l t := by simp [ser]
    rw [e2]
    refine (abs_add_le _ _).trans (add_le_add ?_ ih)
    rw [abs_mul]
    exact mul_le_of_le_one_right (abs_nonneg _) (abs_cos_le_one _)

theorem tables_full (j : Fin 3) : (e0 j).length = ne0 j ∧ (e1 j).length = ne1 j ∧ (e2 j).length = ne2 j := by
  revert j; decide +kernel

theorem helio_ser (t : ℝ) (j : Fin 3) : (helio t j).1 = ser (e0 j) t + t * ser (e1 j) t + t * t * ser (e2 j) t := by
  obtain ⟨t0, t1, t2⟩ := tables_full j
  simp only [helio]
  rw [← t0, ← t1, ← t2, List.take_length, List.take_length, List.take_length, fold2_ser, fold1_ser, fold0_ser]
  ring

def lead0 : Fin 3 → ℕ := ![5, 5, 0]
def lead1 : Fin 3 → ℕ := ![2, 2, 0]

theorem rest_sums (j : Fin 3) : serAmp ((e0 j).drop (lead0 j)) + serAmp ((e1 j).drop (lead1 j)) * 100 + serAmp (e2 j) * 10000 ≤
    (![2585, 2629, 2446] : Fin 3 → ℤ) j * 10 ^ 26 := by
  revert j; decide +kernel

/-- The components of the Sun to Earth vector less the leading terms, from 1900 to 2100. -/
theorem helio_lead {t : ℝ} (ht : |t| ≤ 100) (j : Fin 3) :
    |(helio t j).1 - (ser ((e0 j).take (lead0 j)) t + t * ser ((e1 j).take (lead1 j)) t)| ≤
      ((![2585, 2629, 2446] : Fin 3 → ℤ) j : ℝ) / 10 ^ 7 := by
  have h0 := ser_append ((e0 j).take (lead0 j)) ((e0 j).drop (lead0 j)) t
  have h1 := ser_append ((e1 j).take (lead1 j)) ((e1 j).drop (lead1 j)) t
  rw [List.take_append_drop] at h0 h1
  rw [helio_ser, h0, h1]
  have n : ((serAmp ((e0 j).drop (lead0 j)) + serAmp ((e1 j).drop (lead1 j)) * 100 + serAmp (e2 j) * 10000 : ℤ) : ℝ) ≤
      (((![2585, 2629, 2446] : Fin 3 → ℤ) j * 10 ^ 26 : ℤ) : ℝ) := by exact_mod_cast rest_sums j
  push_cast at n
  have a0 := ser_le ((e0 j).drop (lead0 j)) t
  have a1 := abs_mul_le' ht (ser_le ((e1 j).drop (lead1 j)) t)
  have a2 := abs_mul_le' (abs_mul_le' ht ht) (ser_le (e2 j) t)
  generalize ser ((e0 j).drop (lead0 j)) t = x0 at *
  have e : ser ((e0 j).take (lead0 j)) t + x0 + t * (ser ((e1 j).take (lead1 j)) t + ser ((e1 j).drop (lead1 j)) t) + t * t * ser (e2 j) t -
    (ser ((e0 j).take (lead0 j)) t + t * ser ((e1 j).take (lead1 j)) t) =
    x0 + t * ser ((e1 j).drop (lead1 j)) t + t * t * ser (e2 j) t := by ring
  rw [e]
  refine (abs_add_le' (abs_add_le' a0 a1) a2).trans ?_
  rw [le_div_iff₀ (by norm_num)]
  nlinarith [n]

theorem lead_x (t : ℝ) : ser ((e0 0).take (lead0 0)) t + t * ser ((e1 0).take (lead1 0)) t =
    0.9998292878132 * cos (1.753485171504 + 6.283075850446 * t) + 0.008352579567414 * cos (1.710344404582 + 12.56615170089 * t) +
    0.005611445335148 + 1.046664295572e-4 * cos (1.667225416770 + 18.84922755134 * t) +
    3.110842534677e-5 * cos (0.6687513390251 + 83.99684731857 * t) +
    t * (1.234046326004e-6 + 5.150068824701e-7 * cos (6.002664557501 + 12.56615170089 * t)) := by
  have h0 : (e0 0).take (lead0 0) = [⟨9998292878132, 0, 1753485171504, 1, 6283075850446, 1⟩,
    ⟨8352579567414, -2, 1710344404582, 1, 1256615170089, 2⟩, ⟨5611445335148, -2, 0, 0, 0, 0⟩,
    ⟨1046664295572, -3, 1667225416770, 1, 1884922755134, 2⟩, ⟨3110842534677, -4, 6687513390251, 0, 8399684731857, 2⟩] := by rfl
  have h1 : (e1 0).take (lead1 0) = [⟨1234046326004, -5, 0, 0, 0, 0⟩, ⟨5150068824701, -6, 6002664557501, 1, 1256615170089, 2⟩] := by rfl
  rw [h0, h1]
  have t14 : (-6 + 20 : ℤ).toNat = 14 := rfl
  have t15 : (-5 + 20 : ℤ).toNat = 15 := rfl
  have t16 : (-4 + 20 : ℤ).toNat = 16 := rfl
  have t17 : (-3 + 20 : ℤ).toNat = 17 := rfl
  have t18 : (-2 + 20 : ℤ).toNat = 18 := rfl
  have t20 : (0 + 20 : ℤ).toNat = 20 := rfl
  have t21 : (1 + 20 : ℤ).toNat = 21 := rfl
  have t22 : (2 + 20 : ℤ).toNat = 22 := rfl
  simp only [ser, List.map_cons, List.map_nil, List.sum_cons, List.sum_nil, Term.a, Term.b, Term.c, sci, t14, t15, t16, t17, t18, t20, t21, t22]
  norm_num
  ring

theorem lead_y (t : ℝ) : ser ((e0 1).take (lead0 1)) t + t * ser ((e1 1).take (lead1 1)) t =
    0.9998921098898 * cos (0.1826583913846 + 6.283075850446 * t) + -0.02442700893735 +
    0.008352929742915 * cos (0.1395277998680 + 12.56615170089 * t) +
    1.046697300177e-4 * cos (0.09641423109763 + 18.84922755134 * t) +
    3.110841876663e-5 * cos (5.381140401712 + 83.99684731857 * t) +
    t * (9.304690546528e-7 + 5.150715570663e-7 * cos (4.431807116294 + 12.56615170089 * t)) := by
  have h0 : (e0 1).take (lead0 1) = [⟨9998921098898, 0, 1826583913846, 0, 6283075850446, 1⟩, ⟨-2442700893735, -1, 0, 0, 0, 0⟩,
    ⟨8352929742915, -2, 1395277998680, 0, 1256615170089, 2⟩, ⟨1046697300177, -3, 9641423109763, -1, 1884922755134, 2⟩,
    ⟨3110841876663, -4, 5381140401712, 1, 8399684731857, 2⟩] := by rfl
  have h1 : (e1 1).take (lead1 1) = [⟨9304690546528, -6, 0, 0, 0, 0⟩, ⟨5150715570663, -6, 4431807116294, 1, 1256615170089, 2⟩] := by rfl
  rw [h0, h1]
  have t14 : (-6 + 20 : ℤ).toNat = 14 := rfl
  have t16 : (-4 + 20 : ℤ).toNat = 16 := rfl
  have t17 : (-3 + 20 : ℤ).toNat = 17 := rfl
  have t18 : (-2 + 20 : ℤ).toNat = 18 := rfl
  have t19 : (-1 + 20 : ℤ).toNat = 19 := rfl
  have t20 : (0 + 20 : ℤ).toNat = 20 := rfl
  have t21 : (1 + 20 : ℤ).toNat = 21 := rfl
  have t22 : (2 + 20 : ℤ).toNat = 22 := rfl
  simp only [ser, List.map_cons, List.map_nil, List.sum_cons, List.sum_nil, Term.a, Term.b, Term.c, sci, t14, t16, t17, t18, t19, t20, t21, t22]
  norm_num
  ring

/-! ### The Earth in the ecliptic of J2000 -/

/-- The elliptic motion of the Earth-Moon barycentre of `evp`, from the equinox of J2000. -/
def ellipse (T : ℝ) : Vec :=
  polar (cos (mA T + evpPhi (mE T) (mG T))) (sin (mA T + evpPhi (mE T) (mG T)))
    ((1 - mE T * mE T) / (1 + mE T * cos (mG T + evpPhi (mE T) (mG T)))) 0 0
/-- The displacement by the Moon. -/
def wobble (T : ℝ) : Vec := polar (cos (eMoon (T + 1) - gp T)) (sin (eMoon (T + 1) - gp T)) (-3.12e-5) 0 0

theorem moon_match {T : ℝ} (hT : |T| ≤ 1) :
    |-3.12e-5 * cos (eMoon (T + 1) - gp T) - 3.110842534677e-5 * cos (0.6687513390251 + 83.99684731857 * (100 * T))| ≤ 2e-7 ∧
    |-3.12e-5 * sin (eMoon (T + 1) - gp T) - 3.110841876663e-5 * cos (5.381140401712 + 83.99684731857 * (100 * T))| ≤ 2e-7 := by
  have hg := gp_near hT
  have p1 := pi_gt_d20
  have p2 := pi_lt_d20
  have t0 : 0 ≤ T ^ 2 := sq_nonneg T
  have t2 : T ^ 2 ≤ 1 := by rw [← sq_abs]; exact pow_le_one₀ (abs_nonneg _) hT
  obtain ⟨h1, h2⟩ := abs_le.mp hT
  obtain ⟨g1, g2⟩ := abs_le.mp hg
  constructor
  · obtain ⟨u, hu⟩ : ∃ u, u = eMoon (T + 1) - gp T - 2675 * π - (0.6687513390251 + 83.99684731857 * (100 * T)) := ⟨_, rfl⟩
    have hub : |u| ≤ 0.0019 := by
      rw [hu, eMoon]
      generalize T ^ 2 = w at *
      rw [abs_le]; constructor <;> linarith
    have e : eMoon (T + 1) - gp T = 0.6687513390251 + 83.99684731857 * (100 * T) + u + π + (1337 : ℤ) * (2 * π) := by
      rw [hu]; push_cast; ring
    rw [e, cos_add_int_mul_two_pi, cos_add_pi]
    have k := amp_match (p := 3.12e-5) (a := 3.110842534677e-5) (u := u) (ψ := 0.6687513390251 + 83.99684731857 * (100 * T))
    rw [neg_mul_neg]
    refine k.trans ?_
    rw [abs_of_nonneg (by norm_num), abs_of_nonneg (by norm_num)]
    linarith
  · obtain ⟨u, hu⟩ : ∃ u, u = eMoon (T + 1) - gp T - 2673 * π - π / 2 - (5.381140401712 + 83.99684731857 * (100 * T)) := ⟨_, rfl⟩
    have hub : |u| ≤ 0.0019 := by
      rw [hu, eMoon]
      generalize T ^ 2 = w at *
      rw [abs_le]; constructor <;> linarith
    have e : eMoon (T + 1) - gp T = 5.381140401712 + 83.99684731857 * (100 * T) + u + π / 2 + π + (1336 : ℤ) * (2 * π) := by
      rw [hu]; push_cast; ring
    rw [e, sin_add_int_mul_two_pi, sin_add_pi, sin_add_pi_div_two]
    have k := amp_match (p := 3.12e-5) (a := 3.110841876663e-5) (u := u) (ψ := 5.381140401712 + 83.99684731857 * (100 * T))
    rw [neg_mul_neg]
    refine k.trans ?_
    rw [abs_of_nonneg (by norm_num), abs_of_nonneg (by norm_num)]
    linarith

theorem lead_match {T : ℝ} (hT : |T| ≤ 1) :
    |(helio (100 * T) 0).1 - (ellipse T + wobble T) 0| ≤ 2.98e-4 ∧
    |(helio (100 * T) 1).1 - (ellipse T + wobble T) 1| ≤ 3.03e-4 ∧
    |(helio (100 * T) 2).1 - (ellipse T + wobble T) 2| ≤ 2.446e-4 := by
  have ht : |100 * T| ≤ 100 := by rw [abs_mul, abs_of_pos (by norm_num)]; linarith
  have hx := helio_lead ht 0
  have hy := helio_lead ht 1
  have hz := helio_lead ht 2
  rw [lead_x] at hx
  rw [lead_y] at hy
  obtain ⟨e1, e2, -⟩ := mE_range hT
  obtain ⟨k1, k2⟩ := kepler_series (e := mE T) (by linarith) (by linarith) (mG T)
  obtain ⟨i1, i2⟩ := series_ident (mE T) (mA T) (mG T)
  obtain ⟨a1, a2⟩ := annual hT
  obtain ⟨c1, c2⟩ := constant hT
  obtain ⟨s1, s2⟩ := semiannual hT
  obtain ⟨d1, d2⟩ := third hT
  obtain ⟨m1, m2⟩ := moon_match hT
  have cA := abs_cos_le_one (mA T)
  have sA := abs_sin_le_one (mA T)
  have n1 := abs_mul_le' cA k1
  have n2 := abs_mul_le' sA k2
  have n3 := abs_mul_le' sA k1
  have n4 := abs_mul_le' cA k2
  refine ⟨?_, ?_, ?_⟩
  · have ex : (ellipse T + wobble T) 0 = (1 - mE T * mE T) / (1 + mE T * cos (mG T + evpPhi (mE T) (mG T))) *
        (cos (mA T) * cos (evpPhi (mE T) (mG T)) - sin (mA T) * sin (evpPhi (mE T) (mG T))) + -3.12e-5 * cos (eMoon (T + 1) - gp T) := by
      simp only [ellipse, wobble, polar, Pi.add_apply, Matrix.cons_val_zero, cos_add (mA T)]; ring
    rw [ex]
    generalize (1 - mE T * mE T) / (1 + mE T * cos (mG T + evpPhi (mE T) (mG T))) = ρ at *
    have ey : ρ * (cos (mA T) * cos (evpPhi (mE T) (mG T)) - sin (mA T) * sin (evpPhi (mE T) (mG T))) =
      cos (mA T) * (ρ * cos (evpPhi (mE T) (mG T)) - (1 - mE T * cos (mG T) - mE T ^ 2 * sin (mG T) ^ 2)) -
      sin (mA T) * (ρ * sin (evpPhi (mE T) (mG T)) - (2 * mE T * sin (mG T) + 0.5 * mE T ^ 2 * (sin (mG T) * cos (mG T)))) +
      (cos (mA T) * (1 - mE T * cos (mG T) - mE T ^ 2 * sin (mG T) ^ 2) -
       sin (mA T) * (2 * mE T * sin (mG T) + 0.5 * mE T ^ 2 * (sin (mG T) * cos (mG T)))) := by ring
    rw [ey, i1]
    clear ey i1 i2 ex k1 k2 n3 n4 a2 c2 s2 d2 m2 hy hz e1 e2 ht cA sA hT
    generalize cos (mA T) * (ρ * cos (evpPhi (mE T) (mG T)) - (1 - mE T * cos (mG T) - mE T ^ 2 * sin (mG T) ^ 2)) = x1 at *
    generalize sin (mA T) * (ρ * sin (evpPhi (mE T) (mG T)) - (2 * mE T * sin (mG T) + 0.5 * mE T ^ 2 * (sin (mG T) * cos (mG T)))) = x2 at *
    norm_num at *
    rw [abs_le] at *
    constructor <;> linarith
  · have ex : (ellipse T + wobble T) 1 = (1 - mE T * mE T) / (1 + mE T * cos (mG T + evpPhi (mE T) (mG T))) *
        (sin (mA T) * cos (evpPhi (mE T) (mG T)) + cos (mA T) * sin (evpPhi (mE T) (mG T))) + -3.12e-5 * sin (eMoon (T + 1) - gp T) := by
      simp only [ellipse, wobble, polar, Pi.add_apply, Matrix.cons_val_one, Matrix.cons_val_zero, sin_add (mA T)]; ring
    rw [ex]
    generalize (1 - mE T * mE T) / (1 + mE T * cos (mG T + evpPhi (mE T) (mG T))) = ρ at *
    have ey : ρ * (sin (mA T) * cos (evpPhi (mE T) (mG T)) + cos (mA T) * sin (evpPhi (mE T) (mG T))) =
      sin (mA T) * (ρ * cos (evpPhi (mE T) (mG T)) - (1 - mE T * cos (mG T) - mE T ^ 2 * sin (mG T) ^ 2)) +
      cos (mA T) * (ρ * sin (evpPhi (mE T) (mG T)) - (2 * mE T * sin (mG T) + 0.5 * mE T ^ 2 * (sin (mG T) * cos (mG T)))) +
      (sin (mA T) * (1 - mE T * cos (mG T) - mE T ^ 2 * sin (mG T) ^ 2) +
       cos (mA T) * (2 * mE T * sin (mG T) + 0.5 * mE T ^ 2 * (sin (mG T) * cos (mG T)))) := by ring
    rw [ey, i2]
    clear ey i1 i2 ex k1 k2 n1 n2 a1 c1 s1 d1 m1 hx hz e1 e2 ht cA sA hT
    generalize sin (mA T) * (ρ * cos (evpPhi (mE T) (mG T)) - (1 - mE T * cos (mG T) - mE T ^ 2 * sin (mG T) ^ 2)) = x1 at *
    generalize cos (mA T) * (ρ * sin (evpPhi (mE T) (mG T)) - (2 * mE T * sin (mG T) + 0.5 * mE T ^ 2 * (sin (mG T) * cos (mG T)))) = x2 at *
    norm_num at *
    rw [abs_le] at *
    constructor <;> linarith
  · have ez : (ellipse T + wobble T) 2 = 0 := by simp [ellipse, wobble, polar]
    rw [ez, sub_zero]
    simp [lead0, lead1, ser] at hz
    norm_num at hz ⊢
    exact hz

end Sla.EvpL
