import Verif.Lemmas.FpPolmo
import Verif.Lemmas.FpCoords
import Verif.Lemmas.FpErr64
import Verif.Lemmas.PrecMotion
import Verif.Props.FpSeparation
import Verif.Props.Observer

/-
C125: polar motion in double precision.
-/
namespace Sla.Props
open Sla.Fp Sla.Spec Matrix

private theorem atan2_swap {y x : ℝ} (hx : 0 < x) : atan2 y x = Real.pi / 2 - atan2 x y := by
  have h1 := polar_cos x y
  have h2 := polar_sin x y
  have h3 := atan2_nonneg (y := x) (x := y) hx.le
  have h4 := (atan2_mem x y).2
  have hp := Real.pi_pos
  refine atan2_unique (r := Real.sqrt (y * y + x * x)) (Real.sqrt_pos.2 (by nlinarith [mul_self_nonneg y, mul_pos hx hx])) (by linarith) (by linarith) ?_ ?_
  · rw [Real.sin_pi_div_two_sub]; exact h1.symm
  · rw [Real.cos_pi_div_two_sub]; exact h2.symm

/-- Two neighbouring points of the right half plane. -/
private theorem right_near {y y' x x' L d : ℝ} (hx : 0 < x) (hx' : 0 < x') (hL : 0 < L) (hLx : L ≤ x) (hdL : d < L)
    (hd0 : 0 ≤ d) (hd : (x' - x) ^ 2 + (y' - y) ^ 2 ≤ d ^ 2) : |atan2 y' x' - atan2 y x| ≤ Real.pi / 2 * d / L := by
  have s0 : 0 ≤ x * x + y * y := by nlinarith [mul_self_nonneg x, mul_self_nonneg y]
  have hM : x ≤ Real.sqrt (x * x + y * y) := Real.le_sqrt_of_sq_le (by nlinarith [mul_self_nonneg y])
  have h := fp_atan2_near (s := x) (s' := x') (c := y) (c' := y') (L := Real.sqrt (x * x + y * y)) (d := d) hx.le hx'.le (by linarith)
    (Real.sq_sqrt s0).symm hd0 (by linarith) hd
  rw [atan2_swap hx, atan2_swap hx', show Real.pi / 2 - atan2 x' y' - (Real.pi / 2 - atan2 x y) = -(atan2 x' y' - atan2 x y) by ring, abs_neg,
    le_div_iff₀ hL]
  exact (mul_le_mul_of_nonneg_left (hLx.trans hM) (abs_nonneg _)).trans h

set_option maxHeartbeats 1000000 in
/-- C125: for coordinates of the pole up to 1e-3 rad and a site at least 0.01 rad from the pole `polmo` in double precision succeeds, returns
    the direction of the site to 7e-15 rad and the azimuth correction to 9.7e-15 rad over the cosine of the latitude, besides the error of
    `atan2`. -/
theorem C125_polmo (R : Rounding binary64) (sn cs : ℝ → ℝ) (at2 : ℝ → ℝ → ℝ) {ε : ℝ} (hε : ε ≤ 0.1)
    (hs : ∀ a, |sn a - Real.sin a| ≤ 2e-16) (hc : ∀ a, |cs a - Real.cos a| ≤ 2e-16) (ha : Atan2Near at2 ε)
    (long phi x y : ℝ) (hx : |x| ≤ 1e-3) (hy : |y| ≤ 1e-3)
    (h0 : 0.01 ≤ Real.sqrt (polarMotion x y (direction long phi) 0 * polarMotion x y (direction long phi) 0 +
      polarMotion x y (direction long phi) 1 * polarMotion x y (direction long phi) 1)) :
    ∃ r r', polmo long phi x y = some r ∧ Fp.polmo R sn cs at2 long phi x y = some r' ∧
      angleBetween (direction r'.long r'.phi) (direction r.long r.phi) ≤ 3.15 * ε + 7.1e-15 ∧ |r'.long| ≤ Real.pi + ε ∧
      |r'.daz - r.daz| ≤ ε + 9.7e-15 / Real.cos r.phi := by
  have ε0 : 0 ≤ ε := (abs_nonneg _).trans (ha.1 0 0 (Or.inr le_rfl))
  obtain ⟨hnone, hsome⟩ := C57_polmo long phi x y
  set v := polarMotion x y (direction long phi) with hv
  have e0 : Real.cos long * Real.cos phi * Real.cos x - (-(Real.sin long * Real.cos phi) * Real.sin y + Real.sin phi * Real.cos y) * Real.sin x = v 0 := by
    rw [hv, direction_eq]
    simp [polarMotion, turnFrame, ex, ey, cross_apply, dotProduct, Fin.sum_univ_three]; ring
  have e1 : Real.sin long * Real.cos phi * Real.cos y + Real.sin phi * Real.sin y = v 1 := by
    rw [hv, direction_eq]
    simp [polarMotion, turnFrame, ex, ey, cross_apply, dotProduct, Fin.sum_univ_three]; ring
  have e2 : Real.cos long * Real.cos phi * Real.sin x + (-(Real.sin long * Real.cos phi) * Real.sin y + Real.sin phi * Real.cos y) * Real.cos x = v 2 := by
    rw [hv, direction_eq]
    simp [polarMotion, turnFrame, ex, ey, cross_apply, dotProduct, Fin.sum_univ_three]; ring
  have hvu : v 0 * v 0 + v 1 * v 1 + v 2 * v 2 = 1 := by
    rw [← e0, ← e1, ← e2]
    have q1 := Real.sin_sq_add_cos_sq long
    have q2 := Real.sin_sq_add_cos_sq phi
    have q3 := Real.sin_sq_add_cos_sq x
    have q4 := Real.sin_sq_add_cos_sq y
    generalize Real.sin long = a at *
    generalize Real.cos long = b at *
    generalize Real.sin phi = c at *
    generalize Real.cos phi = d at *
    generalize Real.sin x = e at *
    generalize Real.cos x = f at *
    generalize Real.sin y = g at *
    generalize Real.cos y = h at *
    linear_combination (b ^ 2 * d ^ 2 + (-(a * d) * g + c * h) ^ 2) * q3 + (a ^ 2 * d ^ 2 + c ^ 2) * q4 + d ^ 2 * q1 + q2
  have hlv : len v = 1 := by rw [len_eq, hvu, Real.sqrt_one]
  set c := Real.sqrt (v 0 * v 0 + v 1 * v 1) with hcd
  have c0 : 0 < c := lt_of_lt_of_le (by norm_num) h0
  -- the exact result
  obtain ⟨r, hr⟩ : ∃ r, polmo long phi x y = some r := by
    rcases h : polmo long phi x y with _ | r
    · exfalso
      rcases hnone.1 h with h | h <;> rw [h] at hcd <;> simp [ez] at hcd <;> exact c0.ne' hcd
    · exact ⟨r, rfl⟩
  have hdir := (hsome r hr).1
  have sb : ∀ a : ℝ, |a| ≤ 1e-3 → |Real.sin a| ≤ 1e-3 := fun a h => (Real.abs_sin_le_abs (x := a)).trans h
  have nsx : Nb (sn x) (Real.sin x) 2e-16 1e-3 := ⟨hs x, sb x hx⟩
  have nsy : Nb (sn y) (Real.sin y) 2e-16 1e-3 := ⟨hs y, sb y hy⟩
  have ns : ∀ a, Nb (sn a) (Real.sin a) 2e-16 1 := fun a => ⟨hs a, Real.abs_sin_le_one a⟩
  have nc : ∀ a, Nb (cs a) (Real.cos a) 2e-16 1 := fun a => ⟨hc a, Real.abs_cos_le_one a⟩
  obtain ⟨m0, m1, m2⟩ := polmo_site_near R.dbl (nc long) (ns long) (nc phi) (ns phi) nsx (nc x) nsy (nc y)
  rw [e0] at m0
  rw [e1] at m1
  rw [e2] at m2
  set v' := polmoSite R sn cs long phi x y with hv'
  have m0' : |v' 0 - v 0| ≤ 1.17e-15 := m0
  have m1' : |v' 1 - v 1| ≤ 1.17e-15 := m1
  have m2' : |v' 2 - v 2| ≤ 1.5e-15 := m2
  clear m0 m1 m2
  set c' := R (Real.sqrt (R (R (v' 0 * v' 0) + R (v' 1 * v' 1)))) with hc'
  obtain ⟨k0, k1, k2⟩ := polmo_pole_near R.dbl nsx (nc x) nsy (nc y) m0' m1' m2' hvu hcd hc' h0
  have c0' : c' ≠ 0 := by
    intro h
    rw [h, zero_sub, abs_neg, abs_of_pos c0] at k0
    norm_num at k0 h0; linarith
  have hlen : len (v' - v) ≤ 2.24e-15 :=
    len_le_of_abs (v := v' - v) m0' m1' m2' (by norm_num) (by norm_num)
  -- the point of the pole
  have hz1 : |v 2| ≤ 1 := abs_le_of_sq_le_sq (by nlinarith [mul_self_nonneg (v 0), mul_self_nonneg (v 1)]) one_pos.le
  have hX : |v 0 / c| ≤ 1 := by
    rw [abs_div, abs_of_pos c0, div_le_one c0, hcd]; exact Real.abs_le_sqrt (by nlinarith [mul_self_nonneg (v 1)])
  have hY : |v 1 / c| ≤ 1 := by
    rw [abs_div, abs_of_pos c0, div_le_one c0, hcd]; exact Real.abs_le_sqrt (by nlinarith [mul_self_nonneg (v 0)])
  have hcosr : Real.cos r.phi = c := by
    have hb := (hsome r hr).2.2.2.1
    have hp : 0 ≤ Real.cos r.phi := Real.cos_nonneg_of_neg_pi_div_two_le_of_le (by linarith [(abs_lt.1 hb).1]) (abs_lt.1 hb).2.le
    rw [hcd, ← hdir, direction_eq]
    simp only [cons_val_zero, cons_val_one]
    rw [show Real.cos r.long * Real.cos r.phi * (Real.cos r.long * Real.cos r.phi) + Real.sin r.long * Real.cos r.phi * (Real.sin r.long * Real.cos r.phi) =
      Real.cos r.phi * Real.cos r.phi by linear_combination Real.cos r.phi ^ 2 * Real.sin_sq_add_cos_sq r.long, Real.sqrt_mul_self hp]
  have hneg : (-Real.sin x * Real.cos y * (v 0 / c) + Real.sin y * (v 1 / c)) * v 2 - Real.cos x * Real.cos y * c ≤ -(0.79 * c) := by
    have a1 : |(-Real.sin x * Real.cos y * (v 0 / c) + Real.sin y * (v 1 / c)) * v 2| ≤ 2e-3 := by
      rw [abs_mul]
      have b1 : |-Real.sin x * Real.cos y * (v 0 / c)| ≤ 1e-3 := by
        rw [abs_mul, abs_mul, abs_neg]
        calc |Real.sin x| * |Real.cos y| * |v 0 / c| ≤ 1e-3 * 1 * 1 :=
              mul_le_mul (mul_le_mul (sb x hx) (Real.abs_cos_le_one y) (abs_nonneg _) (by norm_num)) hX (abs_nonneg _) (by norm_num)
          _ = 1e-3 := by norm_num
      have b2 : |Real.sin y * (v 1 / c)| ≤ 1e-3 := by
        rw [abs_mul]
        calc |Real.sin y| * |v 1 / c| ≤ 1e-3 * 1 := mul_le_mul (sb y hy) hY (abs_nonneg _) (by norm_num)
          _ = 1e-3 := by norm_num
      have b3 : |-Real.sin x * Real.cos y * (v 0 / c) + Real.sin y * (v 1 / c)| ≤ 2e-3 := by
        refine (abs_add_le _ _).trans ?_
        norm_num at b1 b2 ⊢; linarith
      calc _ ≤ 2e-3 * 1 := mul_le_mul b3 hz1 (abs_nonneg _) (by norm_num)
        _ = 2e-3 := by norm_num
    have cosb : ∀ a : ℝ, |a| ≤ 1e-3 → 0.999 ≤ Real.cos a := fun a h => by
      have h1 := Real.one_sub_sq_div_two_le_cos (x := a)
      have h2 := abs_le.1 h
      norm_num at h2 ⊢
      nlinarith
    have a2 : 0.998 ≤ Real.cos x * Real.cos y := by
      have := mul_le_mul (cosb x hx) (cosb y hy) (by norm_num) (by linarith [cosb x hx, show (0 : ℝ) ≤ 0.999 by norm_num])
      norm_num at this ⊢; linarith
    have a3 := mul_le_mul_of_nonneg_right a2 c0.le
    have a4 := (abs_le.1 a1).2
    norm_num at a3 a4 h0 ⊢; linarith
  set X := (-Real.sin x * Real.cos y * (v 0 / c) + Real.sin y * (v 1 / c)) * v 2 - Real.cos x * Real.cos y * c with hXd
  set Y := -(-Real.sin x * Real.cos y) * (v 1 / c) + Real.sin y * (v 0 / c) with hYd
  set X' := R (R (R (R (R (-sn x * cs y) * R (v' 0 / c')) + R (sn y * R (v' 1 / c'))) * v' 2) - R (R (cs x * cs y) * c')) with hX'd
  set Y' := R (R (-R (-sn x * cs y) * R (v' 1 / c')) + R (sn y * R (v' 0 / c'))) with hY'd
  have L0 : 0 < 0.79 * c := by positivity
  have pX : 0 < -X := by linarith
  have pX' : 0 < -X' := by
    have := (abs_le.1 k1).2
    norm_num at this hneg h0 ⊢; linarith
  have hrd : r.daz = atan2 (-Y) (-X) := by
    have h := hr
    unfold polmo at h
    simp only [e0, e1, e2] at h
    rw [if_neg (by rw [← hcd]; exact c0.ne')] at h
    have h := Option.some.inj h
    rw [← h]
    simp only [← hcd]
    rw [← hXd, ← hYd, if_pos (Or.inl (by linarith))]
  refine ⟨r, ⟨at2 (v' 1) (v' 0), at2 (v' 2) c', at2 (-Y') (-X')⟩, hr, ?_, ?_, ?_, ?_⟩
  · have nz : v' 0 ≠ 0 ∨ v' 1 ≠ 0 := by
      by_contra h
      push Not at h
      apply c0'
      rw [hc', h.1, h.2]; simp [R.zero]
    unfold Fp.polmo
    simp only [← hv', ← hc']
    rw [if_neg c0', if_pos nz, ← hX'd, ← hY'd, if_pos (Or.inl (by linarith))]
  · obtain ⟨k, hk, -⟩ := at2_turn ha (v' 1) (v' 0)
    have hl : 0.9 ≤ len v' := by
      have h1 := len_add_le v' (v - v')
      rw [add_sub_cancel, hlv, show v - v' = -(v' - v) by abel, show len (-(v' - v)) = len (v' - v) by unfold len; rw [neg_dotProduct_neg]] at h1
      norm_num at hlen ⊢; linarith
    have hp := Fp.polar_near R v' hl (az := at2 (v' 1) (v' 0)) (el := at2 (v' 2) c') (α := ε) (β := ε) (fun _ => ⟨k, hk⟩)
      (ha.1 _ _ (Or.inr (R.nonneg (Real.sqrt_nonneg _)))) ε0 (by norm_num at hε ⊢; linarith)
    have h2 := angle_of_near (v := v') (w := v) (by rw [hlv]; norm_num) hlen (by norm_num)
    have h3 := angle_triangle (direction (at2 (v' 1) (v' 0)) (at2 (v' 2) c')) v' v
    rw [hdir]
    refine h3.trans ((add_le_add hp h2).trans ?_)
    have hpi := Real.pi_lt_d4
    have := mul_le_mul_of_nonneg_right hpi.le ε0
    norm_num at hpi this ⊢; nlinarith
  · obtain ⟨k, -, hb⟩ := at2_turn ha (v' 1) (v' 0)
    exact hb
  · have h1 := ha.1 (-Y') (-X') (Or.inr pX'.le)
    have hsq : (-X' - -X) ^ 2 + (-Y' - -Y) ^ 2 ≤ 4.85e-15 ^ 2 := by
      have hx2 := pow_le_pow_left₀ (abs_nonneg _) k1 2
      have hy2 := pow_le_pow_left₀ (abs_nonneg _) k2 2
      rw [sq_abs] at hx2 hy2
      rw [show (-X' - -X) ^ 2 = (X' - X) ^ 2 by ring, show (-Y' - -Y) ^ 2 = (Y' - Y) ^ 2 by ring]
      exact (add_le_add hx2 hy2).trans (by norm_num)
    have h2 := right_near pX pX' L0 (by linarith) (by norm_num at h0 ⊢; linarith) (by norm_num) hsq
    have h3 := abs_sub_le (at2 (-Y') (-X')) (atan2 (-Y') (-X')) (atan2 (-Y) (-X))
    rw [hrd, hcosr]
    refine h3.trans (add_le_add h1 (h2.trans ?_))
    rw [div_le_div_iff₀ L0 c0]
    have hpi := Real.pi_lt_d4
    have := mul_le_mul_of_nonneg_right hpi.le c0.le
    norm_num at this ⊢; linarith

/-- A site on the equator, with coordinates of the pole of 0.2 arcseconds. -/
example : |(1e-6 : ℝ)| ≤ 1e-3 ∧ 0.01 ≤ Real.sqrt (polarMotion 1e-6 1e-6 (direction 0 0) 0 * polarMotion 1e-6 1e-6 (direction 0 0) 0 +
    polarMotion 1e-6 1e-6 (direction 0 0) 1 * polarMotion 1e-6 1e-6 (direction 0 0) 1) := by
  refine ⟨by rw [abs_of_pos] <;> norm_num, ?_⟩
  have h : Real.sqrt (Real.cos 1e-6 * Real.cos 1e-6) = |Real.cos 1e-6| := Real.sqrt_mul_self_eq_abs _
  have h1 := Real.one_sub_sq_div_two_le_cos (x := 1e-6)
  have e0 : polarMotion 1e-6 1e-6 (direction 0 0) 0 = Real.cos 1e-6 := by
    rw [direction_eq]; simp [polarMotion, turnFrame, ex, ey, cross_apply, dotProduct, Fin.sum_univ_three]
  have e1 : polarMotion 1e-6 1e-6 (direction 0 0) 1 = 0 := by
    rw [direction_eq]; simp [polarMotion, turnFrame, ex, ey, cross_apply, dotProduct, Fin.sum_univ_three]
  rw [e0, e1, mul_zero, add_zero, h]
  refine le_trans ?_ ((h1).trans (le_abs_self _))
  norm_num

end Sla.Props
