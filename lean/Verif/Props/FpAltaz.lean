import Verif.Model.FpAltaz
import Verif.Lemmas.FpAltaz
import Verif.Props.FpHorizon

/-
Property theorems C126: an altazimuth mount in double precision.
-/
namespace Sla.Props
open Sla.Fp Sla.Spec Matrix

private theorem root_zero (R : Rounding binary64) {t : ℝ} (ht : 0 ≤ t) : R (Real.sqrt (R t)) = 0 ↔ R t = 0 := by
  constructor
  · intro h
    by_contra h0
    have hp : 0 < R t := lt_of_le_of_ne (R.nonneg ht) (Ne.symm h0)
    obtain ⟨m, e, -, he, hm⟩ := R.rep t
    have hm1 : (1 : ℝ) ≤ m := by
      have h1 : 0 < (m : ℝ) := by
        rw [hm] at hp
        exact (mul_pos_iff_of_pos_right (two_zpow_pos e)).1 hp
      exact_mod_cast Int.add_one_le_iff.2 (by exact_mod_cast h1 : (0 : ℤ) < m)
    have hge : (2 : ℝ) ^ (-1074 : ℤ) ≤ R t := by
      rw [hm]
      have h2 := two_zpow_le (show (-1074 : ℤ) ≤ e from he)
      have h3 := two_zpow_pos e
      nlinarith
    have hs : (2 : ℝ) ^ (-537 : ℤ) ≤ Real.sqrt (R t) := by
      refine Real.le_sqrt_of_sq_le (le_trans (le_of_eq ?_) hge)
      rw [← zpow_natCast, ← zpow_mul]; norm_num
    have hrep : binary64.Rep ((2 : ℝ) ^ (-537 : ℤ)) := ⟨1, -537, by norm_num [binary64], by norm_num [binary64], by simp⟩
    have := R.rep_le hs hrep
    rw [h] at this
    exact absurd this (not_le.2 (two_zpow_pos _))
  · intro h; rw [h, Real.sqrt_zero, R.zero]

/-- C126: azimuth and elevation.  They are those that `de2h` gives (C93), so they point at the star to within 5.7e-15 rad and the errors
    of the library, wherever the star is: the different test for the zenith makes no difference. -/
theorem C126_position (R : Rounding binary64) (sn cs : ℝ → ℝ) (at2 : ℝ → ℝ → ℝ) {ε ε' : ℝ} (hε : ε ≤ 1e-3) (hε' : ε' ≤ 0.1)
    (hs : ∀ a, |sn a - Real.sin a| ≤ ε) (hc : ∀ a, |cs a - Real.cos a| ≤ ε) (ha : Atan2Near at2 ε')
    (dir : Spherical) (phi : ℝ) :
    let m := Fp.altaz R sn cs at2 dir phi
    m.azimuth = (Fp.de2h R sn cs at2 dir phi).az ∧ m.elevation = (Fp.de2h R sn cs at2 dir phi).el ∧
    angleBetween (horizonDirection m.azimuth m.elevation phi) (direction (-dir.a) dir.b) ≤ 5.7e-15 + 12 * ε + 3.2 * ε' ∧
      0 ≤ m.azimuth ∧ m.azimuth < 2 * Real.pi ∧ |m.elevation| ≤ Real.pi / 2 + ε' := by
  intro m
  have hx : R (R (-R (cs dir.a * cs dir.b) * sn phi) + R (sn dir.b * cs phi)) = horizonVector R sn cs dir.a dir.b phi 0 := by
    show _ = R (R (R (-cs dir.a * cs dir.b) * sn phi) + R (sn dir.b * cs phi))
    rw [neg_mul (cs dir.a), R.odd]
  have hy : R (-sn dir.a * cs dir.b) = horizonVector R sn cs dir.a dir.b phi 1 := rfl
  have hz : R (R (R (cs dir.a * cs dir.b) * cs phi) + R (sn dir.b * sn phi)) = horizonVector R sn cs dir.a dir.b phi 2 := rfl
  have e2 : m.elevation = (Fp.de2h R sn cs at2 dir phi).el := by
    simp only [m, Fp.altaz, Fp.de2h]
    rw [hx, hy, hz]
  have e1 : m.azimuth = (Fp.de2h R sn cs at2 dir phi).az := by
    simp only [m, Fp.altaz, Fp.de2h]
    rw [hx, hy]
    generalize horizonVector R sn cs dir.a dir.b phi = v
    have h0 : 0 ≤ R (v 0 * v 0) + R (v 1 * v 1) := add_nonneg (R.nonneg (mul_self_nonneg _)) (R.nonneg (mul_self_nonneg _))
    by_cases h : R (R (v 0 * v 0) + R (v 1 * v 1)) = 0
    · rw [if_pos h, if_pos ((root_zero R h0).2 h), if_neg (lt_irrefl _)]
    · rw [if_neg h, if_neg (mt (root_zero R h0).1 h)]
  have h := C93_de2h R sn cs at2 hε hε' hs hc ha dir phi
  dsimp only at h
  rw [e1, e2]
  exact ⟨rfl, rfl, h⟩

/-- C126: the rates.  At a distance `d` from the zenith or nadir with sin d ≥ 1e-9 (0.2 milliarcseconds) the velocities and accelerations
    that come out differ from the true ones (C31) by no more than 6.84e-15 / sin² d and the like: they lose accuracy towards
    the zenith only as their own size grows. -/
theorem C126_rates (R : Rounding binary64) (sn cs : ℝ → ℝ) (at2 : ℝ → ℝ → ℝ)
    (hs : ∀ a, |sn a - Real.sin a| ≤ 2e-16) (hc : ∀ a, |cs a - Real.cos a| ≤ 2e-16) (dir : Spherical) (phi : ℝ)
    (hz : 1e-9 ≤ Real.cos (Sla.altaz dir phi).elevation) :
    let m := Fp.altaz R sn cs at2 dir phi
    let t := Sla.altaz dir phi
    let r := Real.cos t.elevation
    |m.el_velocity - t.el_velocity| ≤ 5.87e-15 / r ∧ |m.el_acceleration - t.el_acceleration| ≤ 3.31e-14 / r ^ 2 ∧
    |m.az_velocity - t.az_velocity| ≤ 9.03e-15 / r ^ 2 ∧ |m.az_acceleration - t.az_acceleration| ≤ 7.27e-14 / r ^ 3 ∧
    |m.pa_velocity - t.pa_velocity| ≤ 6.84e-15 / r ^ 2 ∧ |m.pa_acceleration - t.pa_acceleration| ≤ 5.11e-14 / r ^ 3 := by
  obtain ⟨h, d⟩ := dir
  intro m t r
  have he := altaz_eq h d phi
  have hr : r = Real.sqrt (hx h d phi * hx h d phi + hy h d * hy h d) := by
    simp only [r, t]
    rw [he]; exact (el_facts h d phi).1
  have hr0 : 1e-9 ≤ r := hz
  have hrr : hx h d phi * hx h d phi + hy h d * hy h d = r * r := by
    rw [hr, Real.mul_self_sqrt (h_rsq _ _ _)]
  have r0 : 0 < r := lt_of_lt_of_le (by norm_num) hr0
  have rr : 1e-18 ≤ r * r := by
    refine le_trans (by norm_num) (mul_le_mul hr0 hr0 (by norm_num) r0.le)
  have ns : ∀ a, Nb (sn a) (Real.sin a) 2e-16 1 := fun a => ⟨hs a, Real.abs_sin_le_one a⟩
  have nc : ∀ a, Nb (cs a) (Real.cos a) 2e-16 1 := fun a => ⟨hc a, Real.abs_cos_le_one a⟩
  obtain ⟨vx, vy, vz, -, -⟩ := altaz_vec_near R.dbl (nc h) (ns h) (nc d) (ns d) (nc phi) (ns phi)
  rw [show -(Real.cos h * Real.cos d) * Real.sin phi + Real.sin d * Real.cos phi = hx h d phi by unfold hx; ring] at vx
  rw [show -Real.sin h * Real.cos d = hy h d by unfold hy; ring] at vy
  rw [show Real.cos h * Real.cos d * Real.cos phi + Real.sin d * Real.sin phi = Props.hz h d phi by unfold Props.hz; ring] at vz
  obtain ⟨g2, q1, q2, q3, q4, q5, q6⟩ := altaz_rates_near R.dbl.prec vx vy vz (nc phi) (ns phi) (h_unit h d phi) hr0 hrr rfl rfl
  have hcl : ¬ R (R (R (R (-R (cs h * cs d) * sn phi) + R (sn d * cs phi)) * R (R (-R (cs h * cs d) * sn phi) + R (sn d * cs phi))) +
      R (R (-sn h * cs d) * R (-sn h * cs d))) < R 1e-30 := by
    have k1 := (abs_le.1 (R.dbl 1e-30)).2
    rw [abs_of_pos (by norm_num)] at k1
    rw [not_lt]
    refine le_trans ?_ g2
    norm_num at k1 rr ⊢; linarith
  have hcl' : ¬ hx h d phi * hx h d phi + hy h d * hy h d < 1e-30 := by rw [hrr]; norm_num at rr ⊢; linarith
  have et : t = _ := he
  dsimp only at et
  rw [if_neg hcl'] at et
  simp only [hrr, Real.sqrt_mul_self r0.le] at et
  simp only [m, Fp.altaz, altazDivisors, if_neg hcl]
  rw [et]
  exact ⟨q3, q5, q2, q4, q1, q6⟩

/-- C126: the parallactic angle is the bearing of the zenith from the star: going from the star at that angle by the true distance
    arrives within 4e-15 rad of the zenith, plus the error of `atan2`.  At the zenith itself, where the code falls back on
    pi minus the hour angle, any bearing will do. -/
theorem C126_pangle (R : Rounding binary64) (sn cs : ℝ → ℝ) (at2 : ℝ → ℝ → ℝ) {ε' : ℝ}
    (hs : ∀ a, |sn a - Real.sin a| ≤ 2e-16) (hc : ∀ a, |cs a - Real.cos a| ≤ 2e-16) (ha : Atan2Near at2 ε')
    (dir : Spherical) (phi : ℝ) :
    let q := (Fp.altaz R sn cs at2 dir phi).pangle
    let z := angleBetween (direction (-dir.a) dir.b) (direction 0 phi)
    len (direction 0 phi - (Real.cos z • direction (-dir.a) dir.b +
      Real.sin z • (Real.cos q • north (-dir.a) dir.b + Real.sin q • east (-dir.a)))) ≤ 4e-15 + ε' := by
  intro q
  have ε0' : 0 ≤ ε' := (abs_nonneg _).trans (ha.1 0 0 (Or.inr le_rfl))
  have ns : ∀ a, Nb (sn a) (Real.sin a) 2e-16 1 := fun a => ⟨hs a, Real.abs_sin_le_one a⟩
  have nc : ∀ a, Nb (cs a) (Real.cos a) 2e-16 1 := fun a => ⟨hc a, Real.abs_cos_le_one a⟩
  obtain ⟨-, -, -, vc, vs⟩ := altaz_vec_near R.dbl (nc dir.a) (ns dir.a) (nc dir.b) (ns dir.b) (nc phi) (ns phi)
  set X := R (R (cs dir.b * sn phi) - R (cs dir.a * R (sn dir.b * cs phi))) with hX
  set Y := R (sn dir.a * cs phi) with hY
  have hq : q = (open Classical in if R (R (X * X) + R (Y * Y)) > 0 then at2 Y X else R (R 3.1415926535897932384626433832795 - dir.a)) := rfl
  have hx1 : ∀ x : ℝ, |x - X| ≤ 2e-100 → |x - (Real.sin phi * Real.cos dir.b - Real.cos phi * Real.sin dir.b * Real.cos (0 - -dir.a))| ≤ 1.7e-15 := by
    intro x hx
    rw [zero_sub, neg_neg, show Real.sin phi * Real.cos dir.b - Real.cos phi * Real.sin dir.b * Real.cos dir.a =
      Real.cos dir.b * Real.sin phi - Real.cos dir.a * (Real.sin dir.b * Real.cos phi) by ring]
    refine (abs_sub_le x X _).trans ((add_le_add hx vc).trans (by norm_num))
  have hy1 : ∀ y : ℝ, |y - Y| ≤ 2e-100 → |y - Real.sin (0 - -dir.a) * Real.cos phi| ≤ 6e-16 := by
    intro y hy
    rw [zero_sub, neg_neg]
    refine (abs_sub_le y Y _).trans ((add_le_add hy vs).trans (by norm_num))
  have hd : ∀ x y : ℝ, |x - X| ≤ 2e-100 → |y - Y| ≤ 2e-100 →
      (x - (Real.sin phi * Real.cos dir.b - Real.cos phi * Real.sin dir.b * Real.cos (0 - -dir.a))) ^ 2 +
      (y - Real.sin (0 - -dir.a) * Real.cos phi) ^ 2 ≤ (2e-15) ^ 2 := by
    intro x y hx hy
    have hx2 := pow_le_pow_left₀ (abs_nonneg _) (hx1 x hx) 2
    have hy2 := pow_le_pow_left₀ (abs_nonneg _) (hy1 y hy) 2
    rw [sq_abs] at hx2 hy2
    refine (add_le_add hx2 hy2).trans (by norm_num)
  have z0 : ∀ v : ℝ, |v - v| ≤ 2e-100 := fun v => by rw [sub_self, abs_zero]; norm_num
  by_cases hpos : R (R (X * X) + R (Y * Y)) > 0
  · rw [if_pos hpos] at hq
    obtain ⟨k, hk, -⟩ := at2_turn ha Y X
    have hp := bear_point ⟨-dir.a, dir.b⟩ ⟨0, phi⟩ (by norm_num) (hd X Y (z0 _) (z0 _)) ε0' (β := q) (fun _ => by rw [hq]; exact ⟨k, hk⟩)
    refine hp.trans (by norm_num)
  · have hsm : ∀ A B : ℝ, ¬ R (R (A * A) + R (B * B)) > 0 → |0 - A| ≤ 2e-100 := by
      intro A B h
      have nA := R.nonneg (mul_self_nonneg A)
      have nB := R.nonneg (mul_self_nonneg B)
      have k1 := (abs_le.1 (R.dbl (R (A * A) + R (B * B)))).1
      rw [abs_of_nonneg (add_nonneg nA nB)] at k1
      have k2 := (abs_le.1 (R.dbl (A * A))).1
      rw [abs_of_nonneg (mul_self_nonneg A)] at k2
      have k3 : A * A ≤ 4e-200 := by
        push Not at h
        have := mul_self_nonneg A
        norm_num at k1 k2 ⊢; linarith
      rw [zero_sub, abs_neg]
      exact abs_le_of_sq_le_sq (by rw [sq]; norm_num at k3 ⊢; linarith) (by norm_num)
    have sx := hsm X Y hpos
    have sy := hsm Y X (by rwa [add_comm])
    have hp := bear_point ⟨-dir.a, dir.b⟩ ⟨0, phi⟩ (by norm_num) (hd 0 0 sx sy) ε0' (β := q) (fun h => by simp at h)
    refine hp.trans (by norm_num)

/-! ### The clamp -/

private theorem grow (R : Rounding binary64) {a A B : ℝ} (h : |a| ≤ A) (hB : 1.0001 * A + 1e-200 ≤ B) : |R a| ≤ B := by
  have h1 := R.dbl a
  have h2 := abs_add_le (R a - a) a
  rw [sub_add_cancel] at h2
  have := abs_nonneg a
  norm_num at h1 hB ⊢; linarith

private theorem grow_mul (R : Rounding binary64) {a b A B C : ℝ} (ha : |a| ≤ A) (hb : |b| ≤ B) (hC : 1.0001 * (A * B) + 1e-200 ≤ C) : |R (a * b)| ≤ C :=
  grow R (by rw [abs_mul]; exact mul_le_mul ha hb (abs_nonneg _) ((abs_nonneg _).trans ha)) hC

private theorem grow_add (R : Rounding binary64) {a b A B C : ℝ} (ha : |a| ≤ A) (hb : |b| ≤ B) (hC : 1.0001 * (A + B) + 1e-200 ≤ C) : |R (a + b)| ≤ C :=
  grow R ((abs_add_le _ _).trans (add_le_add ha hb)) hC

private theorem rates_bounded (R : Rounding binary64) {x y z cp sp ρ s r' : ℝ} (hs0 : 0.9999e-15 ≤ s) (hs1 : s ≤ 1.5) (hρ : ρ = s * s)
    (hx : |x| ≤ 1.001 * s) (hy : |y| ≤ 1.001 * s) (hz : |z| ≤ 1.01) (hcp : |cp| ≤ 1.0001) (hsp : |sp| ≤ 1.0001)
    (hr : 0.999 * s ≤ r' ∧ r' ≤ 1.001 * s) :
    let pv := R (R (-x * cp) / ρ)
    let ev := R (R (cp * y) / r')
    let edr := R (ev / r')
    |pv| ≤ 1.01e15 ∧ |R (sp + R (z * pv))| ≤ 1.03e15 ∧ |ev| ≤ 1.01 ∧
    |R (edr * R (R (z * sp) + R (R (2 - ρ) * pv)))| ≤ 2.2e30 ∧ |R (R (-r' * pv) * R (sp + R (z * pv)))| ≤ 1.1e15 ∧
    |R (edr * R (sp + R (R (2 * z) * pv)))| ≤ 2.2e30 := by
  intro pv ev edr
  have s0 : 0 < s := lt_of_lt_of_le (by norm_num) hs0
  have r0 : 0 < r' := lt_of_lt_of_le (by positivity) hr.1
  have hρ0 : 0 < ρ := by rw [hρ]; positivity
  have p1 : |R (-x * cp)| ≤ 1.0014 * s :=
    grow_mul R (A := 1.001 * s) (B := 1.0001) (by rwa [abs_neg]) hcp (by norm_num at hs0 ⊢; linarith)
  have p2 : |R (cp * y)| ≤ 1.0014 * s :=
    grow_mul R (A := 1.0001) (B := 1.001 * s) hcp hy (by norm_num at hs0 ⊢; linarith)
  have hpv : |pv * s| ≤ 1.002 := by
    have k1 : |R (-x * cp) / ρ| ≤ 1.0014 / s := by
      rw [abs_div, abs_of_pos hρ0, div_le_div_iff₀ hρ0 s0, hρ]
      nlinarith
    have k2 := grow R (B := 1.002 / s) k1 (by
      rw [← sub_nonneg]
      have : 1.002 / s - (1.0001 * (1.0014 / s) + 1e-200) = (1.002 - 1.0001 * 1.0014 - 1e-200 * s) / s := by field_simp; ring
      rw [this]
      exact div_nonneg (by norm_num at hs1 ⊢; linarith) s0.le)
    rw [abs_mul, abs_of_pos s0]
    calc |pv| * s ≤ 1.002 / s * s := mul_le_mul_of_nonneg_right k2 s0.le
      _ = _ := by field_simp
  have kk : 1 / s ≤ 1.0002e15 := by
    rw [div_le_iff₀ s0]; norm_num at hs0 ⊢; linarith
  have hpv' : |pv| ≤ 1.003e15 := by
    have e : |pv| = |pv * s| * (1 / s) := by rw [abs_mul, abs_of_pos s0]; field_simp
    rw [e]
    calc |pv * s| * (1 / s) ≤ 1.002 * 1.0002e15 := mul_le_mul hpv kk (by positivity) (by norm_num)
      _ ≤ _ := by norm_num
  have hev : |ev| ≤ 1.004 := by
    have k1 : |R (cp * y) / r'| ≤ 1.0034 := by
      rw [abs_div, abs_of_pos r0, div_le_iff₀ r0]
      have := hr.1
      norm_num at p2 this ⊢; linarith
    exact grow R k1 (by norm_num)
  have hedr : |edr| ≤ 1.006e15 := by
    have k1 : |ev / r'| ≤ 1.0054e15 := by
      rw [abs_div, abs_of_pos r0, div_le_iff₀ r0]
      have := hr.1
      norm_num at hev this hs0 ⊢; linarith
    exact grow R k1 (by norm_num)
  have hz1 : |R (z * pv)| ≤ 1.014e15 := grow_mul R hz hpv' (by norm_num)
  have hav : |R (sp + R (z * pv))| ≤ 1.015e15 := grow_add R hsp hz1 (by norm_num)
  have h2a : |R (2 - ρ)| ≤ 2.0003 := by
    have k : |2 - ρ| ≤ 2 := by
      rw [abs_le, hρ]; constructor <;> nlinarith
    exact grow R k (by norm_num)
  have h2b : |R (R (2 - ρ) * pv)| ≤ 2.01e15 := grow_mul R h2a hpv' (by norm_num)
  have h3 : |R (z * sp)| ≤ 1.02 := grow_mul R hz hsp (by norm_num)
  have h4 : |R (R (z * sp) + R (R (2 - ρ) * pv))| ≤ 2.02e15 := grow_add R h3 h2b (by norm_num)
  have h5 : |R (2 * z)| ≤ 2.021 := grow_mul R (A := 2) (by norm_num) hz (by norm_num)
  have h6 : |R (R (2 * z) * pv)| ≤ 2.03e15 := grow_mul R h5 hpv' (by norm_num)
  have h7 : |R (sp + R (R (2 * z) * pv))| ≤ 2.04e15 := grow_add R hsp h6 (by norm_num)
  have h8 : |R (-r' * pv)| ≤ 1.004 := by
    refine grow R (A := 1.0031) ?_ (by norm_num)
    rw [abs_mul, abs_neg, abs_of_pos r0]
    calc r' * |pv| ≤ 1.001 * s * |pv| := mul_le_mul_of_nonneg_right hr.2 (abs_nonneg _)
      _ = 1.001 * |pv * s| := by rw [abs_mul, abs_of_pos s0]; ring
      _ ≤ _ := by norm_num at hpv ⊢; linarith
  refine ⟨hpv'.trans (by norm_num), hav.trans (by norm_num), hev.trans (by norm_num), ?_, ?_, ?_⟩
  · exact grow_mul R hedr h4 (by norm_num)
  · exact grow_mul R h8 hav (by norm_num)
  · exact grow_mul R hedr h7 (by norm_num)

/-- C126: the two divisors of the rates are never zero, wherever the star is. -/
theorem C126_divisors (R : Rounding binary64) (x y : ℝ) : 0.99e-30 ≤ (altazDivisors R x y).1 ∧ 0.99e-15 ≤ (altazDivisors R x y).2 := by
  have c1 := (abs_le.1 (R.dbl 1e-30)).1
  rw [abs_of_pos (by norm_num)] at c1
  have key : ∀ ρ, R 1e-30 ≤ ρ → 0.99e-30 ≤ ρ ∧ 0.99e-15 ≤ R (Real.sqrt ρ) := by
    intro ρ h
    have h1 : 0.999e-30 ≤ ρ := by norm_num at c1 ⊢; linarith
    have h2 : 0.999e-15 ≤ Real.sqrt ρ := Real.le_sqrt_of_sq_le (le_trans (by norm_num) h1)
    have c2 := (abs_le.1 (R.dbl (Real.sqrt ρ))).1
    rw [abs_of_nonneg (Real.sqrt_nonneg _)] at c2
    constructor
    · norm_num at h1 ⊢; linarith
    · norm_num at c2 h2 ⊢; linarith
  unfold altazDivisors
  dsimp only
  split_ifs with h
  · exact key _ le_rfl
  · exact key _ (not_lt.1 h)

set_option maxHeartbeats 1000000 in
/-- C126: everywhere, the zenith and nadir included, the rates stay finite: the divisors are not zero (`C126_divisors`) and nothing exceeds the figures
    that belong to a distance of 1e-15 rad, at which the code holds the mount. -/
theorem C126_zenith (R : Rounding binary64) (sn cs : ℝ → ℝ) (at2 : ℝ → ℝ → ℝ)
    (hs : ∀ a, |sn a - Real.sin a| ≤ 2e-16) (hc : ∀ a, |cs a - Real.cos a| ≤ 2e-16) (dir : Spherical) (phi : ℝ) :
    let m := Fp.altaz R sn cs at2 dir phi
    |m.el_velocity| ≤ 1.01 ∧ |m.az_velocity| ≤ 1.03e15 ∧ |m.pa_velocity| ≤ 1.01e15 ∧ |m.el_acceleration| ≤ 1.1e15 ∧
      |m.az_acceleration| ≤ 2.2e30 ∧ |m.pa_acceleration| ≤ 2.2e30 := by
  obtain ⟨h, d⟩ := dir
  intro m
  have ns : ∀ a, Nb (sn a) (Real.sin a) 2e-16 1 := fun a => ⟨hs a, Real.abs_sin_le_one a⟩
  have nc : ∀ a, Nb (cs a) (Real.cos a) 2e-16 1 := fun a => ⟨hc a, Real.abs_cos_le_one a⟩
  have near : ∀ {a b e : ℝ}, |a - b| ≤ e → |b| ≤ 1 → e ≤ 1e-5 → |a| ≤ 1.0001 := by
    intro a b e h1 h2 h3
    have := abs_add_le (a - b) b
    rw [sub_add_cancel] at this
    norm_num at h3 ⊢; linarith
  have ls : ∀ a, |sn a| ≤ 1.0001 := fun a => near (hs a) (Real.abs_sin_le_one a) (by norm_num)
  have lc : ∀ a, |cs a| ≤ 1.0001 := fun a => near (hc a) (Real.abs_cos_le_one a) (by norm_num)
  obtain ⟨vx, vy, vz, -, -⟩ := altaz_vec_near R.dbl (nc h) (ns h) (nc d) (ns d) (nc phi) (ns phi)
  rw [show -(Real.cos h * Real.cos d) * Real.sin phi + Real.sin d * Real.cos phi = hx h d phi by unfold hx; ring] at vx
  rw [show -Real.sin h * Real.cos d = hy h d by unfold hy; ring] at vy
  rw [show Real.cos h * Real.cos d * Real.cos phi + Real.sin d * Real.sin phi = hz h d phi by unfold hz; ring] at vz
  have hu := h_unit h d phi
  simp only [m, Fp.altaz, altazDivisors]
  generalize R (R (-R (cs h * cs d) * sn phi) + R (sn d * cs phi)) = x at *
  generalize R (-sn h * cs d) = y at *
  generalize R (R (R (cs h * cs d) * cs phi) + R (sn d * sn phi)) = z at *
  have x0 := mul_self_nonneg (hx h d phi)
  have y0 := mul_self_nonneg (hy h d)
  have z0 := mul_self_nonneg (hz h d phi)
  have bz : |z| ≤ 1.0001 := near vz (abs_le_of_sq_le_sq (by nlinarith) one_pos.le) (by norm_num)
  have bx : |x| ≤ 1.0001 := near vx (abs_le_of_sq_le_sq (by nlinarith) one_pos.le) (by norm_num)
  have by' : |y| ≤ 1.0001 := near vy (abs_le_of_sq_le_sq (by nlinarith) one_pos.le) (by norm_num)
  have sx := mul_self_nonneg x
  have sy := mul_self_nonneg y
  set q := R (R (x * x) + R (y * y)) with hq
  have nx := R.nonneg sx
  have ny := R.nonneg sy
  have d1 := abs_le.1 (R.dbl (x * x))
  have d2 := abs_le.1 (R.dbl (y * y))
  have d3 := abs_le.1 (R.dbl (R (x * x) + R (y * y)))
  rw [abs_of_nonneg sx] at d1
  rw [abs_of_nonneg sy] at d2
  rw [abs_of_nonneg (add_nonneg nx ny), ← hq] at d3
  have c1 := abs_le.1 (R.dbl 1e-30)
  rw [abs_of_pos (by norm_num)] at c1
  have xx : x * x ≤ 1.0005 := by nlinarith [abs_mul_abs_self x, abs_nonneg x]
  have yy : y * y ≤ 1.0005 := by nlinarith [abs_mul_abs_self y, abs_nonneg y]
  -- the clamped square and its root
  have hρ : ∃ ρ, ρ = (open Classical in if q < R 1e-30 then R 1e-30 else q) ∧ R 1e-30 ≤ ρ ∧ q ≤ ρ ∧ ρ ≤ 2.002 := by
    refine ⟨_, rfl, ?_⟩
    split_ifs with hlt
    · exact ⟨le_rfl, hlt.le, by norm_num at c1 ⊢; linarith⟩
    · exact ⟨not_lt.1 hlt, le_rfl, by norm_num at d1 d2 d3 xx yy ⊢; linarith⟩
  obtain ⟨ρ, eρ, ρ1, ρ2, ρ3⟩ := hρ
  have e1 : (open Classical in if q < R 1e-30 then (R 1e-30, R (Real.sqrt (R 1e-30))) else (q, R (Real.sqrt q))).1 = ρ := by
    rw [eρ]; split_ifs <;> rfl
  have e2 : (open Classical in if q < R 1e-30 then (R 1e-30, R (Real.sqrt (R 1e-30))) else (q, R (Real.sqrt q))).2 = R (Real.sqrt ρ) := by
    rw [eρ]; split_ifs <;> rfl
  rw [e1, e2]
  have ρ0 : 0.99999e-30 ≤ ρ := by norm_num at c1 ⊢; linarith
  have ρp : 0 ≤ ρ := le_trans (by norm_num) ρ0
  obtain ⟨s, hs'⟩ : ∃ s, s = Real.sqrt ρ := ⟨_, rfl⟩
  rw [← hs']
  have ss : ρ = s * s := by rw [hs', Real.mul_self_sqrt ρp]
  have s0 : 0 ≤ s := by rw [hs']; exact Real.sqrt_nonneg _
  have s1 : 0.9999e-15 ≤ s := by
    rw [hs']; exact Real.le_sqrt_of_sq_le (le_trans (by norm_num) ρ0)
  have s2 : s ≤ 1.5 := by nlinarith
  have hx2 : |x| ≤ 1.001 * s := by
    refine abs_le_of_sq_le_sq ?_ (by positivity)
    have : x * x ≤ 1.001 * ρ := by norm_num at d1 d3 ρ0 ⊢; linarith
    nlinarith
  have hy2 : |y| ≤ 1.001 * s := by
    refine abs_le_of_sq_le_sq ?_ (by positivity)
    have : y * y ≤ 1.001 * ρ := by norm_num at d2 d3 ρ0 ⊢; linarith
    nlinarith
  have c2 := abs_le.1 (R.dbl s)
  rw [abs_of_nonneg s0] at c2
  have hr : 0.999 * s ≤ R s ∧ R s ≤ 1.001 * s := by
    obtain ⟨c3, c4⟩ := c2
    constructor
    · norm_num at c3 s1 ⊢; linarith
    · norm_num at c4 s1 ⊢; linarith
  obtain ⟨k1, k2, k3, k4, k5, k6⟩ := rates_bounded R s1 s2 ss hx2 hy2 (bz.trans (by norm_num)) (lc phi) (ls phi) hr
  exact ⟨k3, k2, k1, k5, k4, k6⟩

/-- The hypotheses are met: a star on the meridian, 0.2 rad from the zenith. -/
example : (1e-9 : ℝ) ≤ Real.cos (Sla.altaz ⟨0, 0.7⟩ 0.5).elevation := by
  rw [altaz_eq]
  dsimp only
  rw [(el_facts 0 0.7 0.5).1]
  have h : hx 0 0.7 0.5 = Real.sin 0.2 := by
    rw [show (0.2 : ℝ) = 0.7 - 0.5 by norm_num, Real.sin_sub]
    simp [hx]; ring
  have h2 : hy 0 0.7 = 0 := by simp [hy]
  rw [h, h2, mul_zero, add_zero, Real.sqrt_mul_self (Real.sin_nonneg_of_nonneg_of_le_pi (by norm_num) (by linarith [Real.pi_gt_three]))]
  have := Real.mul_le_sin (x := 0.2) (by norm_num) (by linarith [Real.pi_gt_three])
  refine le_trans ?_ this
  rw [div_mul_eq_mul_div, le_div_iff₀ Real.pi_pos]
  linarith [Real.pi_lt_four]

end Sla.Props
