import Verif.Model.FpAxis
import Verif.Lemmas.FpErr64
import Verif.Props.Fit

/-
Property theorems C115 (`pcd`, `unpcd`) and C116 (`invf`, `xy2xy`): plate measurements in double precision.
-/
namespace Sla.Props
open Sla.Fp Sla.Spec

/-! ## C115 -/

/-- C115: in double precision `pcd` gives each coordinate to 7e-16 of `(1 + |disco| r²)` times that coordinate, apart from underflow. -/
theorem C115_pcd (R : Rounding binary64) (disco x y : ℝ) (hd : |disco| ≤ 1e50) (hx : |x| ≤ 1e50) (hy : |y| ≤ 1e50) :
    |(Fp.pcd R disco x y).1 - (Sla.pcd disco x y).1| ≤ 7e-16 * (1 + |disco| * (x ^ 2 + y ^ 2)) * |x| + 1e-95 ∧
    |(Fp.pcd R disco x y).2 - (Sla.pcd disco x y).2| ≤ 7e-16 * (1 + |disco| * (x ^ 2 + y ^ 2)) * |y| + 1e-95 := by
  have X0 := mul_self_nonneg x
  have Y0 := mul_self_nonneg y
  obtain ⟨S, hS⟩ : ∃ S, S = x * x + y * y := ⟨_, rfl⟩
  have S0 : 0 ≤ S := by rw [hS]; linarith
  have eS : x ^ 2 + y ^ 2 = S := by rw [hS]; ring
  have d0 := abs_nonneg disco
  have a1 : |R (x * x) - x * x| ≤ 1.2e-16 * (x * x) + 1e-200 := by have := R.dbl (x * x); rwa [abs_of_nonneg X0] at this
  have a2 : |R (y * y) - y * y| ≤ 1.2e-16 * (y * y) + 1e-200 := by have := R.dbl (y * y); rwa [abs_of_nonneg Y0] at this
  have a3 : |R (R (x * x) + R (y * y)) - S| ≤ 2.41e-16 * S + 3.1e-200 := by
    have h := R.dbl (R (x * x) + R (y * y))
    have p0 : 0 ≤ R (x * x) + R (y * y) := add_nonneg (R.nonneg X0) (R.nonneg Y0)
    rw [abs_of_nonneg p0] at h
    rw [abs_le] at *
    norm_num at *
    constructor <;> linarith
  obtain ⟨s, hs⟩ : ∃ s, s = R (R (x * x) + R (y * y)) := ⟨_, rfl⟩
  rw [← hs] at a3
  have a4 : |R (disco * s) - disco * S| ≤ 3.62e-16 * (|disco| * S) + 4e-150 := by
    have h := R.dbl (disco * s)
    have h1 : |disco * s - disco * S| ≤ |disco| * (2.41e-16 * S + 3.1e-200) := by
      rw [← mul_sub, abs_mul]; exact mul_le_mul_of_nonneg_left a3 d0
    have h2 : |disco * s| ≤ |disco| * S + |disco| * (2.41e-16 * S + 3.1e-200) := by
      have := abs_sub_abs_le_abs_sub (disco * s) (disco * S)
      have e : |disco * S| = |disco| * S := by rw [abs_mul, abs_of_nonneg S0]
      linarith
    have h3 := abs_sub_le (R (disco * s)) (disco * s) (disco * S)
    have h4 : |disco| * (2.41e-16 * S + 3.1e-200) ≤ 2.41e-16 * (|disco| * S) + 3.1e-150 := by
      have : |disco| * 3.1e-200 ≤ 1e50 * 3.1e-200 := mul_le_mul_of_nonneg_right hd (by norm_num)
      have e : (1e50 : ℝ) * 3.1e-200 = 3.1e-150 := by norm_num
      linarith
    have h5 : 0 ≤ |disco| * S := mul_nonneg d0 S0
    norm_num at *; linarith
  obtain ⟨P, hP⟩ : ∃ P, P = |disco| * S := ⟨_, rfl⟩
  have P0 : 0 ≤ P := by rw [hP]; exact mul_nonneg d0 S0
  have bP : |disco * S| = P := by rw [abs_mul, abs_of_nonneg S0, hP]
  rw [← hP] at a4
  have a5 : |R (1 + R (disco * s)) - (1 + disco * S)| ≤ 4.83e-16 * (1 + P) + 5e-150 := by
    have h := R.dbl (1 + R (disco * s))
    have h1 := abs_add_le (1 : ℝ) (R (disco * s))
    have h2 := abs_sub_abs_le_abs_sub (R (disco * s)) (disco * S)
    have h3 := abs_sub_le (R (1 + R (disco * s))) (1 + R (disco * s)) (1 + disco * S)
    rw [show (1 + R (disco * s)) - (1 + disco * S) = R (disco * s) - disco * S by ring] at h3
    rw [abs_one] at h1
    norm_num at *; linarith
  obtain ⟨f, hf⟩ : ∃ f, f = R (1 + R (disco * s)) := ⟨_, rfl⟩
  rw [← hf] at a5
  have key : ∀ z : ℝ, |z| ≤ 1e50 → |R (z * f) - z * (1 + disco * S)| ≤ 7e-16 * (1 + P) * |z| + 1e-95 := by
    intro z hz
    have z0 := abs_nonneg z
    have h := R.dbl (z * f)
    have h1 : |z * f - z * (1 + disco * S)| ≤ |z| * (4.83e-16 * (1 + P) + 5e-150) := by
      rw [← mul_sub, abs_mul]; exact mul_le_mul_of_nonneg_left a5 z0
    have h2 := abs_sub_abs_le_abs_sub (z * f) (z * (1 + disco * S))
    have h3 : |z * (1 + disco * S)| ≤ |z| * (1 + P) := by
      rw [abs_mul]
      refine mul_le_mul_of_nonneg_left ?_ z0
      have := abs_add_le (1 : ℝ) (disco * S)
      rwa [abs_one, bP] at this
    have h4 := abs_sub_le (R (z * f)) (z * f) (z * (1 + disco * S))
    have h5 : |z| * (4.83e-16 * (1 + P) + 5e-150) ≤ 4.83e-16 * (|z| * (1 + P)) + 5e-100 := by
      have : |z| * 5e-150 ≤ 1e50 * 5e-150 := mul_le_mul_of_nonneg_right hz (by norm_num)
      have e : (1e50 : ℝ) * 5e-150 = 5e-100 := by norm_num
      linarith
    have h6 : 0 ≤ |z| * (1 + P) := mul_nonneg z0 (by linarith)
    rw [show 7e-16 * (1 + P) * |z| = 7e-16 * (|z| * (1 + P)) by ring]
    norm_num at *; linarith
  rw [eS, ← hP]
  have e : Sla.pcd disco x y = (x * (1 + disco * S), y * (1 + disco * S)) := by unfold Sla.pcd; rw [hS]
  have e' : Fp.pcd R disco x y = (R (x * f), R (y * f)) := by unfold Fp.pcd; rw [hf, hs]
  rw [e, e']
  exact ⟨key x hx, key y hy⟩

/-- A number that is small enough against a positive number of the format is lost when added to it. -/
private theorem absorbed (R : Rounding binary64) {d r : ℝ} (hd : binary64.Rep d) (d0 : 0 < d) (hr : |r| ≤ d / 2 ^ 55) : R (d + r) = d := by
  obtain ⟨m', e', hm', -, hy⟩ := R.rep (d + r)
  have near := R.nearest (d + r) d hd
  rw [show d + r - d = r by ring] at near
  have near' : |R (d + r) - d| ≤ d / 2 ^ 54 := by
    have h1 := abs_sub_le (R (d + r)) (d + r) d
    rw [show d + r - d = r by ring, abs_sub_comm (R (d + r)) (d + r)] at h1
    have : d / 2 ^ 54 = 2 * (d / 2 ^ 55) := by ring
    linarith
  obtain ⟨m, e, hm, -, hx⟩ := hd
  obtain ⟨k, hk⟩ := mul_zpow_lower m (min_le_left e e')
  obtain ⟨k', hk'⟩ := mul_zpow_lower m' (min_le_right e e')
  have l1 := rep_lt (F := binary64) (e := e) hm
  have l2 := rep_lt (F := binary64) (e := e') hm'
  rw [← hx, abs_of_pos d0] at l1
  rw [← hy] at l2
  have near2 := abs_le.1 near'
  have l3 : d * (1 - 1 / 2 ^ 54) < 2 ^ 53 * (2 : ℝ) ^ e' := by
    have := le_abs_self (R (d + r))
    have e3 : d * (1 - 1 / 2 ^ 54) = d - d / 2 ^ 54 := by ring
    have e4 : ((2 : ℝ) ^ binary64.prec) = 2 ^ 53 := rfl
    rw [e4] at l2
    linarith
  have l4 : d * (1 - 1 / 2 ^ 54) < 2 ^ 53 * (2 : ℝ) ^ (min e e') := by
    rcases min_choice e e' with h | h
    · rw [h]
      have e4 : ((2 : ℝ) ^ binary64.prec) = 2 ^ 53 := rfl
      rw [e4] at l1
      have : d * (1 - 1 / 2 ^ 54) ≤ d := by nlinarith
      linarith
    · rw [h]; exact l3
  have p := two_zpow_pos (min e e')
  have ed : R (d + r) - d = (k' - k) * (2 : ℝ) ^ (min e e') := by rw [hy, hk', sub_mul, ← hk, ← hx]
  rw [ed, abs_mul, abs_of_pos p] at near'
  have : |((k' : ℝ) - k)| < 1 := by
    by_contra hc
    rw [not_lt] at hc
    have h1 := mul_le_mul_of_nonneg_right hc p.le
    norm_num at *
    linarith
  have h0 : k' = k := by
    have : |(k' - k : ℤ)| < 1 := by
      have h2 : ((|k' - k| : ℤ) : ℝ) < ((1 : ℤ) : ℝ) := by push_cast; exact this
      exact_mod_cast h2
    have := Int.abs_lt_one_iff.1 this
    omega
  rw [hy, hk', h0, ← hk, ← hx]

private theorem rel {R : ℝ → ℝ} (hR : Dbl R) {x : ℝ} (hx : 1e-180 ≤ x) : |R x - x| ≤ 1.3e-16 * x := by
  have h := hR x
  have : 0 < x := lt_of_lt_of_le (by norm_num) hx
  rw [abs_of_pos this] at h
  norm_num at *; linarith

private theorem crude (R : Rounding binary64) {x : ℝ} (hx : 1e-180 ≤ x) : 0.999 * x ≤ R x ∧ R x ≤ 1.001 * x := by
  have h := abs_le.1 (rel R.dbl hx)
  have : 0 < x := lt_of_lt_of_le (by norm_num) hx
  norm_num at *
  constructor <;> linarith

/-- The discriminant for a small coefficient: the term `r` is lost against its root. -/
private theorem small_coeff (R : Rounding binary64) {c rp : ℝ} (h1 : 1e-60 ≤ c) (h2 : c ≤ 1e-40) (h3 : 0 ≤ rp) (h4 : rp ≤ 102) :
    let q := R (1 / R (3 * c))
    let r := R (rp / R (2 * c))
    let w := R (R (R (q * q) * q) + R (r * r))
    0 ≤ w ∧ 0 < R (Real.sqrt w) ∧ |r| ≤ R (Real.sqrt w) / 2 ^ 55 := by
  intro q r w
  have c0 : 0 < c := lt_of_lt_of_le (by norm_num) h1
  obtain ⟨k, hk⟩ : ∃ k, k = 1 / c := ⟨_, rfl⟩
  have k1 : 1e40 ≤ k := by rw [hk, le_div_iff₀ c0]; norm_num at *; linarith
  have k0 : 0 < k := lt_of_lt_of_le (by norm_num) k1
  have ck : c * k = 1 := by rw [hk]; field_simp
  obtain ⟨a1, a2⟩ := crude R (x := 3 * c) (by norm_num at *; linarith)
  obtain ⟨b1, b2⟩ := crude R (x := 2 * c) (by norm_num at *; linarith)
  have a0 : 0 < R (3 * c) := lt_of_lt_of_le (by positivity) a1
  have b0 : 0 < R (2 * c) := lt_of_lt_of_le (by positivity) b1
  have q1 : 0.332 * k ≤ 1 / R (3 * c) := by
    rw [le_div_iff₀ a0]
    have := mul_le_mul_of_nonneg_left a2 (by positivity : 0 ≤ 0.332 * k)
    nlinarith
  have q2 : 0.331 * k ≤ q := by
    refine le_trans ?_ (crude R (x := 1 / R (3 * c)) (by norm_num at *; linarith)).1
    norm_num at q1 ⊢; linarith
  have q0 : 0 < q := lt_of_lt_of_le (by positivity) q2
  have r0 : 0 ≤ r := R.nonneg (div_nonneg h3 b0.le)
  have r1 : r ≤ 52 * k := by
    have u : rp / R (2 * c) ≤ 51.5 * k := by
      rw [div_le_iff₀ b0]
      have := mul_le_mul_of_nonneg_left b1 (by positivity : 0 ≤ 51.5 * k)
      nlinarith
    have := R.mono u
    have := (crude R (x := 51.5 * k) (by norm_num at *; linarith)).2
    have e : r = R (rp / R (2 * c)) := rfl
    norm_num at *; linarith
  have kk : 1e40 * k ≤ k * k := mul_le_mul_of_nonneg_right k1 k0.le
  have qq : 0.1095 * (k * k) ≤ q * q := by nlinarith
  have qq2 : 0.109 * (k * k) ≤ R (q * q) := by
    have := (crude R (x := q * q) (by norm_num at *; linarith)).1
    norm_num at *; linarith
  have kkk : 1e80 * k ≤ k * k * k := by
    have := mul_le_mul_of_nonneg_right kk k0.le
    have : 1e40 * k * k = 1e40 * (k * k) := by ring
    norm_num at *; linarith
  have q3 : 0.036 * (k * k * k) ≤ R (q * q) * q := by
    have := mul_le_mul qq2 q2 (by positivity) (le_trans (by positivity) qq2)
    norm_num at *; nlinarith
  have q4 : 0.0359 * (k * k * k) ≤ R (R (q * q) * q) := by
    have := (crude R (x := R (q * q) * q) (by norm_num at *; linarith)).1
    norm_num at *; linarith
  have rr : 0 ≤ R (r * r) := R.nonneg (mul_self_nonneg r)
  have w1 : 0.0358 * (k * k * k) ≤ w := by
    have := (crude R (x := R (R (q * q) * q) + R (r * r)) (by norm_num at *; linarith)).1
    have e : w = R (R (R (q * q) * q) + R (r * r)) := rfl
    norm_num at *; linarith
  have w2 : 0.189e20 * k ≤ Real.sqrt w := by
    refine Real.le_sqrt_of_sq_le (le_trans ?_ w1)
    have : (1e40 : ℝ) * (k * k) ≤ k * k * k := by
      have := mul_le_mul_of_nonneg_right k1 (by positivity : 0 ≤ k * k)
      linarith
    have e : (0.189e20 * k) ^ 2 = 0.035721e40 * (k * k) := by norm_num; ring
    rw [e]
    norm_num at *; linarith
  have d1 : 0.188e20 * k ≤ R (Real.sqrt w) := by
    have := (crude R (x := Real.sqrt w) (by norm_num at *; linarith)).1
    norm_num at *; linarith
  refine ⟨le_trans (by positivity) w1, lt_of_lt_of_le (by positivity) d1, ?_⟩
  rw [abs_of_nonneg r0, le_div_iff₀ (by positivity)]
  norm_num at *; linarith

/-- C115: in double precision `unpcd` with a positive coefficient below 1e-40 destroys the coordinates: whatever the library's `pow`,
    `cos` and `atan2`, every point at a distance between 0.01 and 100 is moved to the origin.  The exact result is the point itself
    to 1e-34. -/
theorem C115_unpcd_collapse (R : Rounding binary64) (cs : ℝ → ℝ) (at2 pw : ℝ → ℝ → ℝ) (disco x y : ℝ) (h1 : 1e-60 ≤ disco) (h2 : disco ≤ 1e-40)
    (h3 : 0.01 ≤ Real.sqrt (x * x + y * y)) (h4 : Real.sqrt (x * x + y * y) ≤ 100) :
    Fp.unpcd R cs at2 pw disco x y = (0, 0) ∧
    |(Sla.unpcd disco x y).1 - x| ≤ 1e-34 ∧ |(Sla.unpcd disco x y).2 - y| ≤ 1e-34 := by
  obtain ⟨ρ, hρ⟩ : ∃ ρ, ρ = Real.sqrt (x * x + y * y) := ⟨_, rfl⟩
  have c0 : 0 < disco := lt_of_lt_of_le (by norm_num) h1
  rw [← hρ] at h3 h4
  have ρ0 : 0 < ρ := lt_of_lt_of_le (by norm_num) h3
  have eρ : ρ ^ 2 = x ^ 2 + y ^ 2 := by
    rw [hρ, Real.sq_sqrt (by nlinarith [mul_self_nonneg x, mul_self_nonneg y])]; ring
  constructor
  · obtain ⟨rp, hrp⟩ : ∃ rp, rp = R (Real.sqrt (R (R (x * x) + R (y * y)))) := ⟨_, rfl⟩
    have p1 : |rp - ρ| ≤ 0.01 * ρ := by
      have X0 := mul_self_nonneg x
      have Y0 := mul_self_nonneg y
      have S1 : ρ ^ 2 = x * x + y * y := by rw [eρ]; ring
      have S2 : 0.0001 ≤ ρ ^ 2 := by nlinarith
      have a1 := R.dbl (x * x)
      have a2 := R.dbl (y * y)
      rw [abs_of_nonneg X0] at a1
      rw [abs_of_nonneg Y0] at a2
      have a1' := abs_le.1 a1
      have a2' := abs_le.1 a2
      have l1 : 0.998 * ρ ^ 2 ≤ R (x * x) + R (y * y) := by norm_num at *; linarith
      have l2 : R (x * x) + R (y * y) ≤ 1.002 * ρ ^ 2 := by norm_num at *; linarith
      obtain ⟨m1, m2⟩ := crude R (x := R (x * x) + R (y * y)) (by norm_num at *; linarith)
      have t1 : 0.998 * ρ ≤ Real.sqrt (R (R (x * x) + R (y * y))) := Real.le_sqrt_of_sq_le (by nlinarith)
      have t2 : Real.sqrt (R (R (x * x) + R (y * y))) ≤ 1.002 * ρ := by
        rw [Real.sqrt_le_left (by positivity)]; nlinarith
      obtain ⟨m3, m4⟩ := crude R (x := Real.sqrt (R (R (x * x) + R (y * y)))) (by norm_num at *; linarith)
      rw [← hrp] at m3 m4
      rw [abs_le]
      norm_num at *
      constructor <;> linarith
    have p2 := abs_le.1 p1
    have rp0 : 0 < rp := by norm_num at *; linarith
    obtain ⟨w0, d0, hr⟩ := small_coeff R h1 h2 rp0.le (rp := rp) (by norm_num at *; linarith)
    have root : Fp.unpcdRoot R cs at2 pw disco rp = 0 := by
      unfold Fp.unpcdRoot
      simp only
      rw [if_pos w0]
      have hd := R.rep (Real.sqrt (R (R (R (R (1 / R (3 * disco)) * R (1 / R (3 * disco))) * R (1 / R (3 * disco))) +
        R (R (rp / R (2 * disco)) * R (rp / R (2 * disco))))))
      generalize R (Real.sqrt (R (R (R (R (1 / R (3 * disco)) * R (1 / R (3 * disco))) * R (1 / R (3 * disco))) +
        R (R (rp / R (2 * disco)) * R (rp / R (2 * disco)))))) = d at *
      generalize R (rp / R (2 * disco)) = r at *
      have e1 : R (r + d) = d := by rw [add_comm]; exact absorbed R hd d0 hr
      have e2 : R (r - d) = -d := by
        rw [show r - d = -(d + -r) by ring, R.odd, absorbed R hd d0 (by rwa [abs_neg])]
      rw [e1, e2]
      unfold Fp.ucbrt csign
      rw [abs_neg, if_pos (by exact d0.le), if_neg (by simpa using d0), add_neg_cancel, R.zero]
    unfold Fp.unpcd
    simp only [← hrp]
    rw [if_pos ⟨rp0.ne', c0.ne'⟩, root]
    simp
  · have h := C37_pcd_unpcd disco x y
    obtain ⟨u, hu⟩ : ∃ u, u = Sla.unpcd disco x y := ⟨_, rfl⟩
    rw [← hu] at h ⊢
    rw [C37_pcd] at h
    obtain ⟨e1, e2⟩ := Prod.mk.injEq _ _ _ _ ▸ h
    have g0 : 0 ≤ disco * (u.1 ^ 2 + u.2 ^ 2) := by positivity
    have g1 : u.1 ^ 2 + u.2 ^ 2 ≤ ρ ^ 2 := by
      rw [eρ, ← e1, ← e2]
      nlinarith [sq_nonneg u.1, sq_nonneg u.2, mul_nonneg g0 (sq_nonneg u.1), mul_nonneg g0 (sq_nonneg u.2), mul_nonneg (mul_nonneg g0 g0) (sq_nonneg u.1), mul_nonneg (mul_nonneg g0 g0) (sq_nonneg u.2)]
    have g2 : ρ ^ 2 ≤ 100 ^ 2 := pow_le_pow_left₀ ρ0.le h4 2
    have g3 : disco * (u.1 ^ 2 + u.2 ^ 2) ≤ 1e-36 := by
      have := mul_le_mul h2 (g1.trans g2) (by positivity) (by norm_num)
      norm_num at this ⊢; linarith
    have fin : ∀ a b : ℝ, a ^ 2 ≤ 100 ^ 2 → (1 + disco * (u.1 ^ 2 + u.2 ^ 2)) * a = b → |a - b| ≤ 1e-34 := by
      intro a b ha hb
      have ha' : |a| ≤ 100 := abs_le_of_sq_le_sq ha (by norm_num)
      rw [← hb, show a - (1 + disco * (u.1 ^ 2 + u.2 ^ 2)) * a = -(disco * (u.1 ^ 2 + u.2 ^ 2) * a) by ring, abs_neg, abs_mul, abs_of_nonneg g0]
      have := mul_le_mul g3 ha' (abs_nonneg _) (by norm_num)
      norm_num at this ⊢; linarith
    exact ⟨fin _ _ (by nlinarith [sq_nonneg u.2]) e1, fin _ _ (by nlinarith [sq_nonneg u.1]) e2⟩

/-- The hypotheses are met by a plate coordinate of one projection radius. -/
example (R : Rounding binary64) : Fp.unpcd R Real.cos atan2 (fun a b => a ^ b) 1e-50 1 0 = (0, 0) :=
  (C115_unpcd_collapse R _ _ _ 1e-50 1 0 (by norm_num) (by norm_num) (by norm_num) (by norm_num)).1

/-! ## C116 -/

/-- With gradual underflow a difference is rounded to zero only if it is zero. -/
private theorem sub_zero_of {R : Rounding binary64} {x y : ℝ} (hx : binary64.Rep x) (hy : binary64.Rep y) (h : R (x - y) = 0) : x - y = 0 := by
  have main : ∀ {x y : ℝ}, binary64.Rep x → binary64.Rep y → R (x - y) = 0 → x - y ≤ 0 := by
    intro x y hx hy h
    by_contra hc
    rw [not_le] at hc
    obtain ⟨m, e, -, he, rfl⟩ := hx
    obtain ⟨m', e', -, he', rfl⟩ := hy
    obtain ⟨k, hk⟩ := mul_zpow_lower m he
    obtain ⟨k', hk'⟩ := mul_zpow_lower m' he'
    rw [hk, hk', ← sub_mul] at hc h
    have p := two_zpow_pos binary64.emin
    have k0 : 0 < (k : ℝ) - k' := (mul_pos_iff_of_pos_right p).1 hc
    have k1 : (1 : ℝ) ≤ (k : ℝ) - k' := by
      have : k' < k := by exact_mod_cast (sub_pos.1 k0)
      have : k' + 1 ≤ k := this
      have : ((k' + 1 : ℤ) : ℝ) ≤ k := by exact_mod_cast this
      push_cast at this; linarith
    have r1 : (2 : ℝ) ^ binary64.emin ≤ R (((k : ℝ) - k') * 2 ^ binary64.emin) :=
      R.rep_le (by nlinarith) ⟨1, binary64.emin, by norm_num [binary64], le_rfl, by simp⟩
    rw [h] at r1
    linarith
  refine le_antisymm (main hx hy h) ?_
  have := main hy hx (by rw [← neg_sub, R.odd, h, neg_zero])
  linarith

/-- C116: a singular model is always reported as such in double precision, and leaves the output alone; a model reported as
    singular has a determinant that is zero to the rounding of its two products. -/
theorem C116_status (R : Rounding binary64) (m o : FitCoeffs) :
    (m.b * m.f - m.c * m.e = 0 → Fp.invf R m o = (false, o)) ∧
    ((Fp.invf R m o).1 = false → |m.b * m.f - m.c * m.e| ≤ 1 / 2 ^ 53 * (|m.b * m.f| + |m.c * m.e|) + 2 ^ (-1074 : ℤ) ∧ (Fp.invf R m o).2 = o) := by
  constructor
  · intro h
    have e : m.b * m.f = m.c * m.e := by linarith
    unfold Fp.invf
    simp [e]
  · intro h
    unfold Fp.invf at h ⊢
    simp only at h ⊢
    split_ifs at h ⊢ with hd
    refine ⟨?_, rfl⟩
    rw [not_not] at hd
    have e : R (m.b * m.f) = R (m.c * m.e) := by
      have : R (R (m.b * m.f) - R (m.c * m.e)) = 0 → R (m.b * m.f) - R (m.c * m.e) = 0 := by
        intro h0
        exact sub_zero_of (R := R) (R.rep (m.b * m.f)) (R.rep (m.c * m.e)) h0
      linarith [this hd]
    have e1 := R.error_le (m.b * m.f)
    have e2 := R.error_le (m.c * m.e)
    rw [e] at e1
    have t := abs_sub_le (m.b * m.f) (R (m.c * m.e)) (m.c * m.e)
    rw [abs_sub_comm (R (m.c * m.e))] at t
    have c1 : (2 : ℝ) ^ (-(binary64.prec : ℤ)) = 1 / 2 ^ 53 := by norm_num [binary64]
    have c2 : (2 : ℝ) ^ (binary64.emin - 1) = 1 / 2 * 2 ^ (-1074 : ℤ) := by
      rw [show binary64.emin - 1 = -1 + -1074 by norm_num [binary64], zpow_split]; norm_num
    rw [c1, c2] at e1 e2
    linarith

/-- C116: there is a model with a non-zero determinant that is reported as singular. -/
theorem C116_false_singular (R : Rounding binary64) (o : FitCoeffs) : ∃ m : FitCoeffs, m.b * m.f - m.c * m.e ≠ 0 ∧
    (∀ x ∈ [m.a, m.b, m.c, m.d, m.e, m.f], binary64.Rep x) ∧ Fp.invf R m o = (false, o) := by
  have r1 : binary64.Rep (1 + 2 ^ (-51 : ℤ)) := ⟨2 ^ 52 + 2, -52, by norm_num [binary64], by norm_num [binary64], by norm_num⟩
  refine ⟨⟨0, 1 + 2 ^ (-52 : ℤ), 1 + 2 ^ (-51 : ℤ), 0, 1, 1 + 2 ^ (-52 : ℤ)⟩, by norm_num, ?_, ?_⟩
  · have r0 : binary64.Rep 0 := rep_zero
    have r2 : binary64.Rep (1 + 2 ^ (-52 : ℤ)) := ⟨2 ^ 52 + 1, -52, by norm_num [binary64], by norm_num [binary64], by norm_num⟩
    have r3 : binary64.Rep 1 := ⟨1, 0, by norm_num [binary64], by norm_num [binary64], by norm_num⟩
    intro x hx
    simp only [List.mem_cons, List.not_mem_nil, or_false] at hx
    rcases hx with rfl | rfl | rfl | rfl | rfl | rfl <;> assumption
  · have e1 : R ((1 + 2 ^ (-52 : ℤ)) * (1 + 2 ^ (-52 : ℤ))) = 1 + 2 ^ (-51 : ℤ) := by
      rw [R.eq_of_near (m := 2 ^ 52 + 2) (e := -52) (by norm_num [binary64]) (by norm_num [binary64]) (by norm_num [binary64])
        (by rw [abs_lt]; constructor <;> norm_num)]
      norm_num
    have e2 : R ((1 + 2 ^ (-51 : ℤ)) * 1) = 1 + 2 ^ (-51 : ℤ) := by rw [mul_one, R.eq_self r1]
    unfold Fp.invf
    simp only [e1, e2, sub_self, R.zero]
    simp

/-- A difference of two products. -/
private theorem prod_diff (R : Rounding binary64) (p q : ℝ) :
    |R (R p - R q) - (p - q)| ≤ 2.5e-16 * (|p| + |q|) + 4e-200 := by
  have h1 := R.dbl p
  have h2 := R.dbl q
  have h3 := R.dbl (R p - R q)
  have h4 : |(R p - R q) - (p - q)| ≤ 1.2e-16 * (|p| + |q|) + 2e-200 := by
    rw [show (R p - R q) - (p - q) = (R p - p) - (R q - q) by ring]
    have := abs_sub (R p - p) (R q - q)
    linarith
  have h5 := abs_sub_le (R (R p - R q)) (R p - R q) (p - q)
  have h6 := abs_sub_abs_le_abs_sub (R p - R q) (p - q)
  have h7 := abs_sub p q
  have := abs_nonneg p
  have := abs_nonneg q
  norm_num at h3 h4 ⊢; linarith

private theorem quot_rel (R : Rounding binary64) {n N d D κ E : ℝ} (hD : D ≠ 0) (κ1 : 1 ≤ κ) (κ2 : κ ≤ 1e12) (hd : |d - D| ≤ 2.5001e-16 * κ * |D|)
    (hn : |n - N| ≤ E) : |R (n / d) - N / D| ≤ 3.8e-16 * κ * |N / D| + 1.001 * (E / |D|) + 1e-200 := by
  have D0 : 0 < |D| := abs_pos.2 hD
  have E0 : 0 ≤ E := (abs_nonneg _).trans hn
  have hκ : 2.5001e-16 * κ ≤ 2.51e-4 := by norm_num at *; linarith
  have d1 : 0.9997 * |D| ≤ |d| := by
    have := abs_sub_abs_le_abs_sub D d
    rw [abs_sub_comm] at this
    have := mul_le_mul_of_nonneg_right hκ D0.le
    norm_num at this hd ⊢; linarith
  have d0 : 0 < |d| := lt_of_lt_of_le (by positivity) d1
  have hd0 : d ≠ 0 := abs_pos.1 d0
  obtain ⟨Q, hQ⟩ : ∃ Q, Q = |N / D| := ⟨_, rfl⟩
  have Q0 : 0 ≤ Q := by rw [hQ]; exact abs_nonneg _
  obtain ⟨G, hG⟩ : ∃ G, G = E / |D| := ⟨_, rfl⟩
  have G0 : 0 ≤ G := by rw [hG]; positivity
  have k1 : |n / d - N / D| ≤ 1.0004 * G + 2.5014e-16 * κ * Q := by
    have e : n / d - N / D = (n - N) / d - N / D * ((d - D) / d) := by field_simp; ring
    rw [e]
    refine (abs_sub _ _).trans ?_
    rw [abs_mul, abs_div, abs_div (d - D), ← hQ]
    have t1 : |n - N| / |d| ≤ 1.0004 * G := by
      rw [div_le_iff₀ d0]
      have e1 : E = G * |D| := by rw [hG]; field_simp
      have := mul_le_mul_of_nonneg_left d1 G0
      have := mul_nonneg G0 d0.le
      norm_num at *; linarith
    have t2 : |d - D| / |d| ≤ 2.5014e-16 * κ := by
      rw [div_le_iff₀ d0]
      have := mul_le_mul_of_nonneg_left d1 (by linarith : 0 ≤ κ)
      have := mul_nonneg (by linarith : 0 ≤ κ) d0.le
      norm_num at *; linarith
    have := mul_le_mul_of_nonneg_left t2 Q0
    linarith
  have k2 := R.dbl (n / d)
  have k3 := abs_sub_abs_le_abs_sub (n / d) (N / D)
  have k4 := abs_sub_le (R (n / d)) (n / d) (N / D)
  rw [← hQ] at k3
  have k5 : Q ≤ κ * Q := by nlinarith
  have k6 : κ * Q ≤ 1e12 * Q := mul_le_mul_of_nonneg_right κ2 Q0
  rw [← hQ, ← hG, show 3.8e-16 * κ * Q = 3.8e-16 * (κ * Q) by ring]
  rw [show 2.5014e-16 * κ * Q = 2.5014e-16 * (κ * Q) by ring] at k1
  norm_num at *; linarith

/-- C116: accuracy of the inverted model in double precision: with `κ` at least the ratio of the sum of the magnitudes of the two
    products in the determinant to the determinant, the four coefficients of the linear part are right to `3.8e-16 κ` of themselves, and
    the zero points to `6.5e-16 κ` of the sum of the magnitudes of their two terms. -/
theorem C116_accuracy (R : Rounding binary64) (m o : FitCoeffs) {κ D : ℝ} (hD : D = m.b * m.f - m.c * m.e) (h0 : 1e-100 ≤ |D|)
    (hκ : |m.b * m.f| + |m.c * m.e| ≤ κ * |D|) (h2 : κ ≤ 1e12) :
    let i := (Fp.invf R m o).2
    let I := (Sla.invf m o).2
    (Fp.invf R m o).1 = true ∧
    (|i.b - I.b| ≤ 3.8e-16 * κ * |I.b| + 1e-200 ∧ |i.c - I.c| ≤ 3.8e-16 * κ * |I.c| + 1e-200 ∧
      |i.e - I.e| ≤ 3.8e-16 * κ * |I.e| + 1e-200 ∧ |i.f - I.f| ≤ 3.8e-16 * κ * |I.f| + 1e-200) ∧
    |i.a - I.a| ≤ 6.5e-16 * κ * ((|m.c * m.d| + |m.a * m.f|) / |D|) + 1e-99 ∧
    |i.d - I.d| ≤ 6.5e-16 * κ * ((|m.a * m.e| + |m.b * m.d|) / |D|) + 1e-99 := by
  intro i I
  have D0 : 0 < |D| := lt_of_lt_of_le (by norm_num) h0
  have Dn : D ≠ 0 := abs_pos.1 D0
  have κ1 : 1 ≤ κ := by
    have := abs_sub (m.b * m.f) (m.c * m.e)
    rw [← hD] at this
    by_contra hc
    rw [not_le] at hc
    nlinarith
  obtain ⟨d, hd⟩ : ∃ d, d = R (R (m.b * m.f) - R (m.c * m.e)) := ⟨_, rfl⟩
  have dd : |d - D| ≤ 2.5001e-16 * κ * |D| := by
    have h := prod_diff R (m.b * m.f) (m.c * m.e)
    rw [← hd, ← hD] at h
    have : |D| ≤ κ * |D| := by nlinarith
    rw [mul_assoc]
    norm_num at *; linarith
  have dn : d ≠ 0 := by
    intro h
    rw [h, zero_sub, abs_neg] at dd
    norm_num at *; nlinarith
  have eI : I = ⟨(m.c * m.d - m.a * m.f) / D, m.f / D, -m.c / D, (m.a * m.e - m.b * m.d) / D, -m.e / D, m.b / D⟩ := by
    show (Sla.invf m o).2 = _
    unfold Sla.invf
    simp only [← hD]
    rw [if_pos Dn]
  have ei : Fp.invf R m o = (true, ⟨R (R (R (m.c * m.d) - R (m.a * m.f)) / d), R (m.f / d), R (-m.c / d),
      R (R (R (m.a * m.e) - R (m.b * m.d)) / d), R (-m.e / d), R (m.b / d)⟩) := by
    unfold Fp.invf
    simp only [← hd]
    rw [if_pos dn]
  have lin : ∀ n : ℝ, |R (n / d) - n / D| ≤ 3.8e-16 * κ * |n / D| + 1e-200 := fun n => by
    have := quot_rel R Dn κ1 h2 dd (n := n) (N := n) (E := 0) (by simp)
    simpa using this
  have zer : ∀ p q : ℝ, |R (R (R p - R q) / d) - (p - q) / D| ≤ 6.5e-16 * κ * ((|p| + |q|) / |D|) + 1e-99 := fun p q => by
    refine (quot_rel R Dn κ1 h2 dd (prod_diff R p q)).trans ?_
    have t1 : |(p - q) / D| ≤ (|p| + |q|) / |D| := by
      rw [abs_div]; exact div_le_div_of_nonneg_right (abs_sub p q) D0.le
    have t2 : (2.5e-16 * (|p| + |q|) + 4e-200) / |D| = 2.5e-16 * ((|p| + |q|) / |D|) + 4e-200 / |D| := by ring
    have t3 : 4e-200 / |D| ≤ 4e-100 := by
      rw [div_le_iff₀ D0]; norm_num at *; linarith
    rw [t2]
    have t4 : 0 ≤ (|p| + |q|) / |D| := by positivity
    generalize (|p| + |q|) / |D| = T at *
    have t5 : T ≤ κ * T := by nlinarith
    have t6 := mul_le_mul_of_nonneg_left t1 (by positivity : 0 ≤ 3.8e-16 * κ)
    rw [mul_assoc, mul_assoc] at t6
    rw [mul_assoc, mul_assoc]
    norm_num at *; linarith
  have ei2 : i = _ := congrArg Prod.snd ei
  rw [ei2, eI]
  exact ⟨by rw [ei], ⟨lin _, lin _, lin _, lin _⟩, zer _ _, zer _ _⟩

/-- C116: in double precision `xy2xy` gives each coordinate to 4e-16 of the sum of the magnitudes of its three terms. -/
theorem C116_xy2xy (R : Rounding binary64) (x y : ℝ) (m : FitCoeffs) :
    |(Fp.xy2xy R x y m).1 - (Sla.xy2xy x y m).1| ≤ 4e-16 * (|m.a| + |m.b * x| + |m.c * y|) + 1e-199 ∧
    |(Fp.xy2xy R x y m).2 - (Sla.xy2xy x y m).2| ≤ 4e-16 * (|m.d| + |m.e * x| + |m.f * y|) + 1e-199 := by
  have key : ∀ a p q : ℝ, |R (R (a + R p) + R q) - (a + p + q)| ≤ 4e-16 * (|a| + |p| + |q|) + 1e-199 := by
    intro a p q
    have h1 := R.dbl p
    have h2 := R.dbl q
    have h3 := R.dbl (a + R p)
    have h4 := R.dbl (R (a + R p) + R q)
    have n1 := abs_add_le a (R p)
    have n2 := abs_sub_abs_le_abs_sub (R p) p
    have n3 := abs_add_le (R (a + R p)) (R q)
    have n4 := abs_sub_abs_le_abs_sub (R (a + R p)) (a + R p)
    have n5 := abs_sub_abs_le_abs_sub (R q) q
    have e : R (R (a + R p) + R q) - (a + p + q) = (R (R (a + R p) + R q) - (R (a + R p) + R q)) + ((R (a + R p) - (a + R p)) + ((R p - p) + (R q - q))) := by ring
    rw [e]
    have t1 := abs_add_le (R (R (a + R p) + R q) - (R (a + R p) + R q)) ((R (a + R p) - (a + R p)) + ((R p - p) + (R q - q)))
    have t2 := abs_add_le (R (a + R p) - (a + R p)) ((R p - p) + (R q - q))
    have t3 := abs_add_le (R p - p) (R q - q)
    have := abs_nonneg a
    have := abs_nonneg p
    have := abs_nonneg q
    norm_num at h1 h2 h3 h4 ⊢; linarith
  exact ⟨key _ _ _, key _ _ _⟩

/-- A plate with a small rotation. -/
example : let m : FitCoeffs := ⟨-2.6, 1.01, 0.02, 3.1, -0.02, 0.99⟩
    (1e-100 : ℝ) ≤ |m.b * m.f - m.c * m.e| ∧ |m.b * m.f| + |m.c * m.e| ≤ 1 * |m.b * m.f - m.c * m.e| := by
  norm_num [abs_of_pos]

end Sla.Props
