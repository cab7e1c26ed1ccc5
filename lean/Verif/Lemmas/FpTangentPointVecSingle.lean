import Verif.Model.FpTangentPointVecSingle
import Verif.Lemmas.FpAltaz
import Verif.Lemmas.FpTangentPointSingle

/-
Running error bounds for the tangent point of a star given by direction cosines, generated.
-/
namespace Sla.Fp

variable {D : ℝ → ℝ}

/-- What is assumed of the unit of error in single precision. -/
def Kas (κ : ℝ) : Prop := 5e-7 ≤ κ ∧ κ ≤ 1e-4

namespace Kas
variable {κ a b x y e f g A B C M N P E : ℝ}

theorem u (h : Kas κ) : 6e-8 ≤ 0.12 * κ := by have := h.1; norm_num at this ⊢; linarith

theorem rnd (h : Kas κ) (hP : Prec 6e-8 1e-40 D) (h1 : Nb a x (e * κ * P) (A * P)) (e0 : 0 ≤ e) (A0 : 0 ≤ A) (hN : 1e-25 ≤ P)
    (hg : e + 0.12 * (A + 1e-4 * e) + 1e-5 ≤ g) : Nb (D a) x (g * κ * P) (A * P) := by
  obtain ⟨k1, k2⟩ := h
  have hu := u ⟨k1, k2⟩
  have κ0 : 0 ≤ κ := le_trans (by norm_num) k1
  have h2 : e * κ ≤ 1e-4 * e := by nlinarith
  have hT : (1e-40 : ℝ) ≤ 1e-5 * κ * P := by
    calc (1e-40 : ℝ) ≤ 1e-5 * 5e-7 * 1e-25 := by norm_num
      _ ≤ 1e-5 * κ * P := mul_le_mul (mul_le_mul_of_nonneg_left k1 (by norm_num)) hN (by norm_num) (mul_nonneg (by norm_num) κ0)
  have hp : 0 ≤ P := le_trans (by norm_num) hN
  refine hP.snd (τ := 1e-5 * κ) h1 hp hT ?_
  have h3 : (6e-8 : ℝ) * (A + e * κ) ≤ 0.12 * κ * (A + 1e-4 * e) :=
    mul_le_mul hu (by linarith) (by positivity) (by positivity)
  have := mul_le_mul_of_nonneg_right hg κ0
  nlinarith

theorem add (h : Kas κ) (hP : Prec 6e-8 1e-40 D) (h1 : Nb a x (e * κ * P) (A * P)) (h2 : Nb b y (f * κ * P) (B * P))
    (hn : 0 ≤ e + f ∧ 0 ≤ A + B) (hN : 1e-25 ≤ P) (hg : e + f + 0.12 * (A + B + 1e-4 * (e + f)) + 1e-5 ≤ g) :
    Nb (D (a + b)) (x + y) (g * κ * P) ((A + B) * P) := by
  refine h.rnd hP ⟨?_, ?_⟩ hn.1 hn.2 hN hg
  · rw [add_sub_add_comm, add_mul, add_mul]
    exact (abs_add_le _ _).trans (add_le_add h1.err h2.err)
  · rw [add_mul]; exact (abs_add_le _ _).trans (add_le_add h1.bd h2.bd)

theorem sub (h : Kas κ) (hP : Prec 6e-8 1e-40 D) (h1 : Nb a x (e * κ * P) (A * P)) (h2 : Nb b y (f * κ * P) (B * P))
    (hn : 0 ≤ e + f ∧ 0 ≤ A + B) (hN : 1e-25 ≤ P) (hg : e + f + 0.12 * (A + B + 1e-4 * (e + f)) + 1e-5 ≤ g) :
    Nb (D (a - b)) (x - y) (g * κ * P) ((A + B) * P) := by
  rw [sub_eq_add_neg, sub_eq_add_neg]; exact h.add hP h1 h2.neg hn hN hg

theorem mul (h : Kas κ) (hP : Prec 6e-8 1e-40 D) (h1 : Nb a x (e * κ * M) (A * M)) (h2 : Nb b y (f * κ * N) (B * N))
    (hMN : M * N ≤ P) (hM : 0 ≤ M) (hN' : 0 ≤ N) (hn : (0 ≤ e ∧ 0 ≤ f) ∧ 0 ≤ A ∧ 0 ≤ B) (hN : 1e-25 ≤ P)
    (hg : A * f + B * e + 1e-4 * (e * f) + 0.12 * (A * B + 1e-4 * (A * f + B * e + 1e-4 * (e * f))) + 1e-5 ≤ g) :
    Nb (D (a * b)) (x * y) (g * κ * P) (A * B * P) := by
  obtain ⟨⟨e0, f0⟩, A0, B0⟩ := hn
  obtain ⟨k1, k2⟩ := h
  have κ0 : 0 ≤ κ := le_trans (by norm_num) k1
  have ef : 0 ≤ e * f := mul_nonneg e0 f0
  refine rnd ⟨k1, k2⟩ hP (e := A * f + B * e + 1e-4 * (e * f)) ⟨?_, ?_⟩ (by positivity) (by positivity) hN hg
  · rw [show a * b - x * y = x * (b - y) + y * (a - x) + (a - x) * (b - y) by ring]
    have q1 : |x * (b - y)| ≤ A * M * (f * κ * N) := by
      rw [abs_mul]; exact mul_le_mul h1.bd h2.err (abs_nonneg _) ((abs_nonneg _).trans h1.bd)
    have q2 : |y * (a - x)| ≤ B * N * (e * κ * M) := by
      rw [abs_mul]; exact mul_le_mul h2.bd h1.err (abs_nonneg _) ((abs_nonneg _).trans h2.bd)
    have q3 : |(a - x) * (b - y)| ≤ e * κ * M * (f * κ * N) := by
      rw [abs_mul]; exact mul_le_mul h1.err h2.err (abs_nonneg _) ((abs_nonneg _).trans h1.err)
    have q4 : e * κ * M * (f * κ * N) ≤ 1e-4 * (e * f) * κ * (M * N) := by
      have : κ * (e * f * κ * (M * N)) ≤ 1e-4 * (e * f * κ * (M * N)) :=
        mul_le_mul_of_nonneg_right k2 (mul_nonneg (mul_nonneg ef κ0) (mul_nonneg hM hN'))
      nlinarith
    have q5 : (A * f + B * e + 1e-4 * (e * f)) * κ * (M * N) ≤ (A * f + B * e + 1e-4 * (e * f)) * κ * P :=
      mul_le_mul_of_nonneg_left hMN (by positivity)
    have := abs_add_le (x * (b - y) + y * (a - x)) ((a - x) * (b - y))
    have := abs_add_le (x * (b - y)) (y * (a - x))
    linarith
  · rw [abs_mul]
    refine (mul_le_mul h1.bd h2.bd (abs_nonneg _) ((abs_nonneg _).trans h1.bd)).trans ?_
    calc A * M * (B * N) = A * B * (M * N) := by ring
      _ ≤ _ := mul_le_mul_of_nonneg_left hMN (mul_nonneg A0 B0)

/-- Division by a quantity equal to its unit. -/
theorem div (h : Kas κ) (hP : Prec 6e-8 1e-40 D) (h1 : Nb a x (e * κ * M) (A * M)) (h2 : Nb b N (f * κ * N) (B * N))
    (hMN : M ≤ P * N) (hM : 0 ≤ M) (hN' : 0 < N) (hn : (0 ≤ e ∧ 0 ≤ f) ∧ 0 ≤ A) (hf : f ≤ 100) (hN : 1e-25 ≤ P)
    (hg : 1.02 * (e + A * f) + 0.12 * (A + 1e-4 * (1.02 * (e + A * f))) + 1e-5 ≤ g) :
    Nb (D (a / b)) (x / N) (g * κ * P) (A * P) := by
  obtain ⟨⟨e0, f0⟩, A0⟩ := hn
  obtain ⟨k1, k2⟩ := h
  have κ0 : 0 ≤ κ := le_trans (by norm_num) k1
  have hp : 0 ≤ P := le_trans (by norm_num) hN
  have hfk : f * κ ≤ 1e-2 := by
    calc f * κ ≤ 100 * 1e-4 := mul_le_mul hf k2 κ0 (by norm_num)
      _ = _ := by norm_num
  have hb : 0.99 * N ≤ b := by
    have h3 := (abs_le.1 h2.err).1
    have h4 := mul_le_mul_of_nonneg_right hfk hN'.le
    norm_num at h4 ⊢; linarith
  have hb0 : 0 < b := lt_of_lt_of_le (by positivity) hb
  have hq : |x / N| ≤ A * P := by
    rw [abs_div, abs_of_pos hN', div_le_iff₀ hN']
    calc |x| ≤ A * M := h1.bd
      _ ≤ A * (P * N) := mul_le_mul_of_nonneg_left hMN A0
      _ = _ := by ring
  refine rnd ⟨k1, k2⟩ hP (e := 1.02 * (e + A * f)) ⟨?_, hq⟩ (by positivity) A0 hN hg
  have e1 : a / b - x / N = ((a - x) - x / N * (b - N)) / b := by field_simp; ring
  rw [e1, abs_div, abs_of_pos hb0, div_le_iff₀ hb0]
  have q1 : |(a - x) - x / N * (b - N)| ≤ e * κ * M + A * P * (f * κ * N) := by
    refine (abs_sub _ _).trans (add_le_add h1.err ?_)
    rw [abs_mul]; exact mul_le_mul hq h2.err (abs_nonneg _) (by positivity)
  have q2 : e * κ * M ≤ e * κ * (P * N) := mul_le_mul_of_nonneg_left hMN (by positivity)
  have q3 : (e + A * f) * κ * P * N ≤ (e + A * f) * κ * P * (1.02 * b) :=
    mul_le_mul_of_nonneg_left (by norm_num at hb ⊢; linarith) (by positivity)
  calc _ ≤ e * κ * M + A * P * (f * κ * N) := q1
    _ ≤ (e + A * f) * κ * P * N := by linarith
    _ ≤ _ := q3
    _ = _ := by ring

theorem cv (h : Kas κ) (h1 : Nb a x (e * κ * M) (A * M)) (hMN : M ≤ P) (hn : 0 ≤ e ∧ 0 ≤ A) : Nb a x (e * κ * P) (A * P) := by
  have κ0 : 0 ≤ κ := le_trans (by norm_num) h.1
  exact h1.mono (mul_le_mul_of_nonneg_left hMN (mul_nonneg hn.1 κ0)) (mul_le_mul_of_nonneg_left hMN hn.2)

end Kas

set_option maxHeartbeats 1000000 in
/-- The first quantities of `tpv2c`. -/
theorem tpv2c_first (hS : Single D) {xi eta x y z f : ℝ} (hx : |xi| ≤ 1) (he : |eta| ≤ 1) (hz : |z| ≤ 1) (hxy' : x * x + y * y ≤ 1.0001)
    (hrb : |(x * x + y * y) * (eta * eta + 1) - z * z * (xi * xi)| ≤ 2.0002) (hf' : f = Real.sqrt (xi * xi + (eta * eta + 1))) :
    |D (D (D (D (x * x) + D (y * y)) * D (D (eta * eta) + 1)) - D (D (z * z) * D (xi * xi))) -
      ((x * x + y * y) * (eta * eta + 1) - z * z * (xi * xi))| ≤ 1.15e-6 ∧
    |D (z * D (Real.sqrt (D (D (xi * xi) + D (D (eta * eta) + 1))))) - z * f| ≤ 6.3e-7 ∧
    |D (D (D (D (D (x * x) + D (y * y)) * D (D (eta * eta) + 1)) - D (D (z * z) * D (xi * xi))) + D (xi * xi)) -
      ((x * x + y * y) * (eta * eta + 1) - z * z * (xi * xi) + xi * xi)| ≤ 1.4e-6 ∧
    |D (D (eta * eta) + 1) - (eta * eta + 1)| ≤ 1.81e-7 ∧ |z * f| ≤ 1.733 := by
  have nx : Nb xi xi 0 1 := ⟨by simp, hx⟩
  have ne : Nb eta eta 0 1 := ⟨by simp, he⟩
  have nz : Nb z z 0 1 := ⟨by simp, hz⟩
  have n1_ : Nb (1 : ℝ) 1 0 1 := ⟨by simp, by norm_num⟩
  have hxy : |x * x + y * y| ≤ 1.0001 := by rw [abs_of_nonneg (add_nonneg (mul_self_nonneg x) (mul_self_nonneg y))]; exact hxy'
  have px : Nb x x 0 1.0001 := ⟨by simp, by
    refine abs_le_of_sq_le_sq ?_ (by norm_num)
    have := mul_self_nonneg y
    norm_num at hxy' ⊢; nlinarith⟩
  have py : Nb y y 0 1.0001 := ⟨by simp, by
    refine abs_le_of_sq_le_sq ?_ (by norm_num)
    have := mul_self_nonneg x
    norm_num at hxy' ⊢; nlinarith⟩
  have hxi2 : Nb _ _ 6.01e-8 1 := hS.nmul nx nx (by norm_num) (by norm_num)
  have n1 : Nb _ _ 6.01e-8 1 := hS.nmul ne ne (by norm_num) (by norm_num)
  have hT : Nb _ _ 1.81e-7 2 := hS.nadd n1 n1_ (by norm_num) (by norm_num)
  have w : Nb _ _ 4.22e-7 3 := hS.nadd hxi2 hT (by norm_num) (by norm_num)
  have n2 : Nb _ _ 6.01e-8 1.001 := hS.nmul px px (by norm_num) (by norm_num)
  have n3 : Nb _ _ 6.01e-8 1.001 := hS.nmul py py (by norm_num) (by norm_num)
  have hrx0 : Nb _ _ 2.41e-7 2.002 := hS.nadd n2 n3 (by norm_num) (by norm_num)
  have hrx : Nb (D (D (x * x) + D (y * y))) (x * x + y * y) 2.41e-7 1.0001 := ⟨hrx0.err, hxy⟩
  have n4 : Nb _ _ 7.84e-7 2.001 := hS.nmul hrx hT (by norm_num) (by norm_num)
  have n5 : Nb _ _ 6.01e-8 1 := hS.nmul nz nz (by norm_num) (by norm_num)
  have n6 : Nb _ _ 1.81e-7 1 := hS.nmul n5 hxi2 (by norm_num) (by norm_num)
  have hr20 : Nb _ _ 1.15e-6 3.001 := hS.nsub n4 n6 (by norm_num) (by norm_num)
  have hr2 : Nb (D (D (D (D (x * x) + D (y * y)) * D (D (eta * eta) + 1)) - D (D (z * z) * D (xi * xi)))) ((x * x + y * y) * (eta * eta + 1) - z * z * (xi * xi)) 1.15e-6 2.0002 := ⟨hr20.err, hrb⟩
  have hh2 : Nb _ _ 1.4e-6 3.001 := hS.nadd hr2 hxi2 (by norm_num) (by norm_num)
  have x0 := mul_self_nonneg xi
  have y0 := mul_self_nonneg eta
  have xx : xi * xi ≤ 1 := by nlinarith [abs_mul_abs_self xi, abs_nonneg xi]
  have yy : eta * eta ≤ 1 := by nlinarith [abs_mul_abs_self eta, abs_nonneg eta]
  have f0 : 0 ≤ f := by rw [hf']; exact Real.sqrt_nonneg _
  have ff : f * f = xi * xi + (eta * eta + 1) := by rw [hf', Real.mul_self_sqrt (by linarith)]
  have f1 : 1 ≤ f := by rw [hf', Real.one_le_sqrt]; linarith
  have f2 : f ≤ 1.7321 := by
    rw [hf']; refine Real.sqrt_le_iff.2 ⟨by norm_num, ?_⟩
    norm_num at xx yy ⊢; linarith
  have hf : Nb (D (Real.sqrt (D (D (xi * xi) + D (D (eta * eta) + 1))))) f 5.26e-7 1.7321 := by
    have h1 := w.err
    rw [← ff] at h1
    clear hh2 hr2 hr20 hrx hrx0 hT w
    generalize D (D (xi * xi) + D (D (eta * eta) + 1)) = W at *
    have hW : 0 ≤ W := by
      have := (abs_le.1 h1).1
      norm_num at this ⊢; nlinarith
    have q1 := Real.sqrt_nonneg W
    have q2 := Real.mul_self_sqrt hW
    have h3 : |Real.sqrt W - f| ≤ 4.22e-7 := by
      have q3 : |Real.sqrt W - f| * (Real.sqrt W + f) = |W - f * f| := by
        rw [← abs_of_nonneg (add_nonneg q1 f0), ← abs_mul]
        congr 1
        nlinarith
      have := mul_nonneg (abs_nonneg (Real.sqrt W - f)) q1
      have := mul_le_mul_of_nonneg_left f1 (abs_nonneg (Real.sqrt W - f))
      nlinarith
    exact hS.nround ⟨h3, by rw [abs_of_nonneg f0]; exact f2⟩ le_rfl (by norm_num)
  have sf : Nb _ _ 6.3e-7 1.733 := hS.nmul nz hf (by norm_num) (by norm_num)
  refine ⟨hr2.err, sf.err, hh2.err, hT.err, ?_⟩
  have := sf.bd
  norm_num at this ⊢; linarith

set_option maxHeartbeats 1000000 in
/-- The root and the two solutions. -/
theorem tpv2c_solutions (hS : Single D) {xi eta x y ρ H S T r sf κ r2' sf' h2' T' : ℝ} (he : |eta| ≤ 1)
    (hρ : x * x + y * y = ρ * ρ) (ρ0 : 0 < ρ) (ρ1 : ρ ≤ 1.0001) (hH : H * H = r * r + xi * xi) (H0 : 0 < H) (hSe : S = ρ * H) (hT1 : 1 ≤ T) (hT2 : T ≤ 2)
    (hρH' : ρ ≤ H) (hr0 : 0.12 ≤ r) (hrρ : r ≤ 1.4143 * ρ) (hH2 : H ≤ 2) (hκ : κ = 1e-6 / (r * ρ))
    (f1 : |r2' - r * r| ≤ 1.15e-6) (f2 : |sf' - sf| ≤ 6.3e-7) (f3 : |h2' - H * H| ≤ 1.4e-6) (f4 : |T' - T| ≤ 1.81e-7)
    (f5 : |sf| ≤ 1.733) : 0 < r2' ∧ ∀ s : ℝ, s = 1 ∨ s = -1 →
      |D (D (D (D (sf' * eta) + s * D (Real.sqrt r2')) / D (T' * D (Real.sqrt (D (D (D (x * x) + D (y * y)) * h2'))))) *
        D (D (x * (s * D (Real.sqrt r2'))) + D (y * xi))) - (sf * eta + s * r) / (T * S) * (x * (s * r) + y * xi)| ≤ 3.44e-5 / (r * ρ) ∧
      |D (D (D (D (sf' * eta) + s * D (Real.sqrt r2')) / D (T' * D (Real.sqrt (D (D (D (x * x) + D (y * y)) * h2'))))) *
        D (D (y * (s * D (Real.sqrt r2'))) - D (x * xi))) - (sf * eta + s * r) / (T * S) * (y * (s * r) - x * xi)| ≤ 3.44e-5 / (r * ρ) ∧
      |D (D (sf' - D (eta * (s * D (Real.sqrt r2')))) / T') - (sf - eta * (s * r)) / T| ≤ 4.75e-6 / (r * ρ) := by
  have r0 : 0 < r := lt_of_lt_of_le (by norm_num) hr0
  have ρl : 0.084 ≤ ρ := by norm_num at hr0 hrρ ⊢; linarith
  have rp : 0 < r * ρ := mul_pos r0 ρ0
  have rρl : 0.01 ≤ r * ρ := le_trans (by norm_num) (mul_le_mul hr0 ρl (by norm_num) r0.le)
  have rρu : r * ρ ≤ 2 := by
    have : r * ρ ≤ 1.4143 * 1.0001 * 1.0001 := mul_le_mul (hrρ.trans (mul_le_mul_of_nonneg_left ρ1 (by norm_num))) ρ1 ρ0.le (by norm_num)
    norm_num at this ⊢; linarith
  have hk : Kas κ := by
    rw [hκ]
    constructor
    · rw [le_div_iff₀ rp]; norm_num at rρu ⊢; linarith
    · rw [div_le_iff₀ rp]; norm_num at rρl ⊢; linarith
  have κ0 : 0 ≤ κ := le_trans (by norm_num) hk.1
  have k15 := hk.1
  have hP := hS.prec
  have rr0 : 0.0144 ≤ r * r := le_trans (by norm_num) (mul_le_mul hr0 hr0 (by norm_num) r0.le)
  have r2p : 0 < r2' := by
    have := (abs_le.1 f1).1
    norm_num at this rr0 ⊢; linarith
  refine ⟨r2p, ?_⟩
  have S0 : 0 < S := by rw [hSe]; exact mul_pos ρ0 H0
  have T0 : 0 < T := by linarith
  have ρρ0 : 0 < ρ * ρ := mul_pos ρ0 ρ0
  have HH0 : 0 < H * H := mul_pos H0 H0
  have SS0 : 0 < S * S := mul_pos S0 S0
  have TS0 : 0 < T * S := mul_pos T0 S0
  have c0 : 0 < 1 / S := by positivity
  have l1 : (1e-25 : ℝ) ≤ 1 := by norm_num
  have lρ : (1e-25 : ℝ) ≤ ρ := le_trans (by norm_num) ρl
  have lH : (1e-25 : ℝ) ≤ H := lρ.trans hρH'
  have lρρ : (1e-25 : ℝ) ≤ ρ * ρ := le_trans (by norm_num) (mul_le_mul ρl ρl (by norm_num) ρ0.le)
  have lHH : (1e-25 : ℝ) ≤ H * H := lρρ.trans (mul_le_mul hρH' hρH' ρ0.le H0.le)
  have lS' : 0.007 ≤ S := by
    rw [hSe]
    exact le_trans (by norm_num) (mul_le_mul ρl (ρl.trans hρH') (by norm_num) ρ0.le)
  have lS : (1e-25 : ℝ) ≤ S := le_trans (by norm_num) lS'
  have lSS : (1e-25 : ℝ) ≤ S * S := le_trans (by norm_num) (mul_le_mul lS' lS' (by norm_num) S0.le)
  have lTS : (1e-25 : ℝ) ≤ T * S := le_trans (by norm_num) (mul_le_mul hT1 lS' (by norm_num) T0.le)
  have lT : (1e-25 : ℝ) ≤ T := le_trans (by norm_num) hT1
  have lc : (1e-25 : ℝ) ≤ 1 / S := by
    rw [le_div_iff₀ S0]
    have : S ≤ 1.0001 * 2 := by rw [hSe]; exact mul_le_mul ρ1 hH2 H0.le (by norm_num)
    norm_num at this ⊢; linarith
  have u11 : (1 : ℝ) * 1 ≤ 1 := by norm_num
  have hρH : ρ * H ≤ S := hSe.ge
  have hρHS : ρ * ρ * (H * H) ≤ S * S := by rw [hSe]; exact le_of_eq (by ring)
  have hcN : (1 : ℝ) ≤ 1 / S * (T * S) := by
    have : 1 / S * (T * S) = T := by field_simp
    rw [this]; exact hT1
  have hcS : 1 / S * S ≤ 1 := by rw [one_div_mul_cancel S0.ne']
  have h1T : (1 : ℝ) ≤ 1 * T := by rw [one_mul]; exact hT1
  have kx : Nb x x (0 * κ * ρ) (1 * ρ) := ⟨by simp, by
    rw [one_mul]; refine abs_le_of_sq_le_sq ?_ ρ0.le
    nlinarith [mul_self_nonneg y]⟩
  have ky : Nb y y (0 * κ * ρ) (1 * ρ) := ⟨by simp, by
    rw [one_mul]; refine abs_le_of_sq_le_sq ?_ ρ0.le
    nlinarith [mul_self_nonneg x]⟩
  have kxi : Nb xi xi (0 * κ * H) (1 * H) := ⟨by simp, by
    rw [one_mul]; refine abs_le_of_sq_le_sq ?_ H0.le
    nlinarith [mul_self_nonneg r]⟩
  have hrH : r ≤ H := by
    refine (le_abs_self r).trans (abs_le_of_sq_le_sq ?_ H0.le)
    nlinarith [mul_self_nonneg xi]
  have ke : Nb eta eta (0 * κ * 1) (1 * 1) := ⟨by simp, by rw [mul_one]; exact he⟩
  have ksf : Nb sf' sf (1.26 * κ * 1) (1.733 * 1) := ⟨f2.trans (by norm_num at k15 ⊢; linarith), by rw [mul_one]; exact f5⟩
  have kT : Nb T' T (0.362 * κ * T) (1 * T) := ⟨f4.trans (by
    have : (5e-7 : ℝ) * 1 ≤ κ * T := mul_le_mul k15 hT1 zero_le_one κ0
    norm_num at this ⊢; linarith), by rw [one_mul, abs_of_pos T0]⟩
  have hκρ : 7.07e-7 ≤ κ * (ρ * ρ) := by
    rw [hκ, div_mul_eq_mul_div, le_div_iff₀ rp]
    have := mul_le_mul_of_nonneg_right hrρ ρ0.le
    norm_num at this ⊢; linarith
  have khh : Nb h2' (H * H) (1.99 * κ * (H * H)) (1 * (H * H)) := ⟨f3.trans (by
    have : κ * (ρ * ρ) ≤ κ * (H * H) := mul_le_mul_of_nonneg_left (mul_le_mul hρH' hρH' ρ0.le H0.le) κ0
    norm_num at hκρ this ⊢; linarith), by rw [one_mul, abs_of_pos HH0]⟩
  have n1 : Nb _ _ (0.121 * κ * (ρ * ρ)) (1 * (ρ * ρ)) := (hk.mul hP kx kx le_rfl ρ0.le ρ0.le (by norm_num) lρρ (by norm_num)).mono le_rfl (mul_le_mul_of_nonneg_right (by norm_num) ρρ0.le)
  have n2 : Nb _ _ (0.121 * κ * (ρ * ρ)) (1 * (ρ * ρ)) := (hk.mul hP ky ky le_rfl ρ0.le ρ0.le (by norm_num) lρρ (by norm_num)).mono le_rfl (mul_le_mul_of_nonneg_right (by norm_num) ρρ0.le)
  have krx0 : Nb _ _ (0.483 * κ * (ρ * ρ)) (2 * (ρ * ρ)) := (hk.add hP n1 n2 (by norm_num) lρρ (by norm_num)).mono le_rfl (mul_le_mul_of_nonneg_right (by norm_num) ρρ0.le)
  have krx : Nb (D (D (x * x) + D (y * y))) (ρ * ρ) (0.483 * κ * (ρ * ρ)) (1 * (ρ * ρ)) := ⟨by rw [← hρ]; rw [← hρ] at krx0; exact krx0.err, by rw [one_mul, abs_of_pos ρρ0]⟩
  have kqq : Nb _ _ (2.6 * κ * (S * S)) (1 * (S * S)) := (hk.mul hP krx khh hρHS ρρ0.le HH0.le (by norm_num) lSS (by norm_num)).mono le_rfl (mul_le_mul_of_nonneg_right (by norm_num) SS0.le)
  have kS : Nb (D (Real.sqrt (D (D (D (x * x) + D (y * y)) * h2')))) S (2.73 * κ * S) (1 * S) := by
    have h1 := kqq.err
    rw [show ρ * ρ * (H * H) = S * S by rw [hSe]; ring] at h1
    generalize D (D (D (x * x) + D (y * y)) * h2') = Q' at *
    have h2 : 2.6 * κ ≤ 1e-2 := by have := hk.2; norm_num at this ⊢; linarith
    have hQ : 0 ≤ Q' := by
      have h3 := (abs_le.1 h1).1
      have h4 := mul_le_mul_of_nonneg_right h2 SS0.le
      norm_num at h3 h4 ⊢; linarith
    have q1 := Real.sqrt_nonneg Q'
    have q2 := Real.mul_self_sqrt hQ
    have q3 : |Real.sqrt Q' - S| * (Real.sqrt Q' + S) = |Q' - S * S| := by
      rw [← abs_of_nonneg (add_nonneg q1 S0.le), ← abs_mul]
      congr 1
      nlinarith
    have q5 : |Real.sqrt Q' - S| * S ≤ 2.6 * κ * S * S := by
      have := mul_nonneg (abs_nonneg (Real.sqrt Q' - S)) q1
      nlinarith
    exact hk.rnd hP ⟨le_of_mul_le_mul_right q5 S0, by rw [one_mul, abs_of_pos S0]⟩ (by norm_num) (by norm_num) lS (by norm_num)
  have hsq : |Real.sqrt r2' - r| ≤ 1.15 * κ * ρ := by
    have q1 := Real.sqrt_nonneg r2'
    have q2 := Real.mul_self_sqrt r2p.le
    have q3 : |Real.sqrt r2' - r| * (Real.sqrt r2' + r) = |r2' - r * r| := by
      rw [← abs_of_nonneg (add_nonneg q1 r0.le), ← abs_mul]
      congr 1
      nlinarith
    have q5 : |Real.sqrt r2' - r| * r ≤ 1.15e-6 := by
      have := mul_nonneg (abs_nonneg (Real.sqrt r2' - r)) q1
      nlinarith
    have e1 : 1.15 * κ * ρ = 1.15 * 1e-6 / r := by rw [hκ]; field_simp
    rw [e1, le_div_iff₀ r0]
    exact q5.trans (by norm_num)
  have krH : Nb (D (Real.sqrt r2')) r (1.28 * κ * H) (1 * H) :=
    hk.rnd hP ⟨hsq.trans (mul_le_mul_of_nonneg_left hρH' (mul_nonneg (by norm_num) κ0)), by rw [one_mul, abs_of_pos r0]; exact hrH⟩
      (by norm_num) (by norm_num) lH (by norm_num)
  have kr1 : Nb (D (Real.sqrt r2')) r (1.33 * κ * 1) (1.4145 * 1) := by
    have h1 : |Real.sqrt r2' - r| ≤ 1.16 * κ * 1 := by
      refine hsq.trans ?_
      have := mul_le_mul_of_nonneg_left ρ1 (mul_nonneg (by norm_num : (0 : ℝ) ≤ 1.15) κ0)
      norm_num at this ⊢; linarith
    have h2 : |r| ≤ 1.4145 * 1 := by
      rw [abs_of_pos r0]
      have := hrρ.trans (mul_le_mul_of_nonneg_left ρ1 (by norm_num))
      norm_num at this ⊢; linarith
    exact (hk.rnd (g := 1.33) hP ⟨h1, h2⟩ (by norm_num) (by norm_num) l1 (by norm_num))
  have fin : ∀ e : ℝ, e * κ * 1 = e * 1e-6 / (r * ρ) := fun e => by rw [hκ]; ring
  have kden : Nb _ _ (3.22 * κ * (T * S)) (1 * (T * S)) := (hk.mul hP kT kS le_rfl T0.le S0.le (by norm_num) lTS (by norm_num)).mono le_rfl (mul_le_mul_of_nonneg_right (by norm_num) TS0.le)
  have n31 : Nb _ _ (1.47 * κ * 1) (1.733 * 1) := (hk.mul hP ksf ke u11 zero_le_one zero_le_one (by norm_num) l1 (by norm_num)).mono le_rfl (mul_le_mul_of_nonneg_right (by norm_num) zero_le_one)
  have n32 : Nb _ _ (3.18 * κ * 1) (3.148 * 1) := (hk.add hP n31 kr1 (by norm_num) l1 (by norm_num)).mono le_rfl (mul_le_mul_of_nonneg_right (by norm_num) zero_le_one)
  have n33 : Nb _ _ (14 * κ * (1 / S)) (3.148 * (1 / S)) := (hk.div hP n32 kden hcN zero_le_one TS0 (by norm_num) (by norm_num) lc (by norm_num)).mono le_rfl (mul_le_mul_of_nonneg_right (by norm_num) c0.le)
  have n34 : Nb _ _ (1.41 * κ * S) (1 * S) := (hk.mul hP kx krH hρH ρ0.le H0.le (by norm_num) lS (by norm_num)).mono le_rfl (mul_le_mul_of_nonneg_right (by norm_num) S0.le)
  have n35 : Nb _ _ (0.121 * κ * S) (1 * S) := (hk.mul hP ky kxi hρH ρ0.le H0.le (by norm_num) lS (by norm_num)).mono le_rfl (mul_le_mul_of_nonneg_right (by norm_num) S0.le)
  have n36 : Nb _ _ (1.78 * κ * S) (2 * S) := (hk.add hP n34 n35 (by norm_num) lS (by norm_num)).mono le_rfl (mul_le_mul_of_nonneg_right (by norm_num) S0.le)
  have n37 : Nb _ _ (1.41 * κ * S) (1 * S) := (hk.mul hP ky krH hρH ρ0.le H0.le (by norm_num) lS (by norm_num)).mono le_rfl (mul_le_mul_of_nonneg_right (by norm_num) S0.le)
  have n38 : Nb _ _ (0.121 * κ * S) (1 * S) := (hk.mul hP kx kxi hρH ρ0.le H0.le (by norm_num) lS (by norm_num)).mono le_rfl (mul_le_mul_of_nonneg_right (by norm_num) S0.le)
  have n39 : Nb _ _ (1.78 * κ * S) (2 * S) := (hk.sub hP n37 n38 (by norm_num) lS (by norm_num)).mono le_rfl (mul_le_mul_of_nonneg_right (by norm_num) S0.le)
  have oa1 : Nb _ _ (34.4 * κ * 1) (6.296 * 1) := (hk.mul hP n33 n36 hcS c0.le S0.le (by norm_num) l1 (by norm_num)).mono le_rfl (mul_le_mul_of_nonneg_right (by norm_num) zero_le_one)
  have ob1 : Nb _ _ (34.4 * κ * 1) (6.296 * 1) := (hk.mul hP n33 n39 hcS c0.le S0.le (by norm_num) l1 (by norm_num)).mono le_rfl (mul_le_mul_of_nonneg_right (by norm_num) zero_le_one)
  have n40 : Nb _ _ (1.5 * κ * 1) (1.415 * 1) := (hk.mul hP ke kr1 u11 zero_le_one zero_le_one (by norm_num) l1 (by norm_num)).mono le_rfl (mul_le_mul_of_nonneg_right (by norm_num) zero_le_one)
  have n41 : Nb _ _ (3.14 * κ * 1) (3.148 * 1) := (hk.sub hP ksf n40 (by norm_num) l1 (by norm_num)).mono le_rfl (mul_le_mul_of_nonneg_right (by norm_num) zero_le_one)
  have oc1 : Nb _ _ (4.75 * κ * 1) (3.148 * 1) := (hk.div hP n41 kT h1T zero_le_one T0 (by norm_num) (by norm_num) l1 (by norm_num)).mono le_rfl (mul_le_mul_of_nonneg_right (by norm_num) zero_le_one)
  have n42 : Nb _ _ (1.47 * κ * 1) (1.733 * 1) := (hk.mul hP ksf ke u11 zero_le_one zero_le_one (by norm_num) l1 (by norm_num)).mono le_rfl (mul_le_mul_of_nonneg_right (by norm_num) zero_le_one)
  have n43 : Nb _ _ (3.18 * κ * 1) (3.148 * 1) := (hk.add hP n42 kr1.neg (by norm_num) l1 (by norm_num)).mono le_rfl (mul_le_mul_of_nonneg_right (by norm_num) zero_le_one)
  have n44 : Nb _ _ (14 * κ * (1 / S)) (3.148 * (1 / S)) := (hk.div hP n43 kden hcN zero_le_one TS0 (by norm_num) (by norm_num) lc (by norm_num)).mono le_rfl (mul_le_mul_of_nonneg_right (by norm_num) c0.le)
  have n45 : Nb _ _ (1.41 * κ * S) (1 * S) := (hk.mul hP kx krH.neg hρH ρ0.le H0.le (by norm_num) lS (by norm_num)).mono le_rfl (mul_le_mul_of_nonneg_right (by norm_num) S0.le)
  have n46 : Nb _ _ (0.121 * κ * S) (1 * S) := (hk.mul hP ky kxi hρH ρ0.le H0.le (by norm_num) lS (by norm_num)).mono le_rfl (mul_le_mul_of_nonneg_right (by norm_num) S0.le)
  have n47 : Nb _ _ (1.78 * κ * S) (2 * S) := (hk.add hP n45 n46 (by norm_num) lS (by norm_num)).mono le_rfl (mul_le_mul_of_nonneg_right (by norm_num) S0.le)
  have n48 : Nb _ _ (1.41 * κ * S) (1 * S) := (hk.mul hP ky krH.neg hρH ρ0.le H0.le (by norm_num) lS (by norm_num)).mono le_rfl (mul_le_mul_of_nonneg_right (by norm_num) S0.le)
  have n49 : Nb _ _ (0.121 * κ * S) (1 * S) := (hk.mul hP kx kxi hρH ρ0.le H0.le (by norm_num) lS (by norm_num)).mono le_rfl (mul_le_mul_of_nonneg_right (by norm_num) S0.le)
  have n50 : Nb _ _ (1.78 * κ * S) (2 * S) := (hk.sub hP n48 n49 (by norm_num) lS (by norm_num)).mono le_rfl (mul_le_mul_of_nonneg_right (by norm_num) S0.le)
  have oa2 : Nb _ _ (34.4 * κ * 1) (6.296 * 1) := (hk.mul hP n44 n47 hcS c0.le S0.le (by norm_num) l1 (by norm_num)).mono le_rfl (mul_le_mul_of_nonneg_right (by norm_num) zero_le_one)
  have ob2 : Nb _ _ (34.4 * κ * 1) (6.296 * 1) := (hk.mul hP n44 n50 hcS c0.le S0.le (by norm_num) l1 (by norm_num)).mono le_rfl (mul_le_mul_of_nonneg_right (by norm_num) zero_le_one)
  have n51 : Nb _ _ (1.5 * κ * 1) (1.415 * 1) := (hk.mul hP ke kr1.neg u11 zero_le_one zero_le_one (by norm_num) l1 (by norm_num)).mono le_rfl (mul_le_mul_of_nonneg_right (by norm_num) zero_le_one)
  have n52 : Nb _ _ (3.14 * κ * 1) (3.148 * 1) := (hk.sub hP ksf n51 (by norm_num) l1 (by norm_num)).mono le_rfl (mul_le_mul_of_nonneg_right (by norm_num) zero_le_one)
  have oc2 : Nb _ _ (4.75 * κ * 1) (3.148 * 1) := (hk.div hP n52 kT h1T zero_le_one T0 (by norm_num) (by norm_num) l1 (by norm_num)).mono le_rfl (mul_le_mul_of_nonneg_right (by norm_num) zero_le_one)
  intro s hs
  rcases hs with rfl | rfl
  · rw [one_mul, one_mul]
    refine ⟨?_, ?_, ?_⟩
    · exact (oa1.err.trans_eq (fin _)).trans (div_le_div_of_nonneg_right (by norm_num) rp.le)
    · exact (ob1.err.trans_eq (fin _)).trans (div_le_div_of_nonneg_right (by norm_num) rp.le)
    · exact (oc1.err.trans_eq (fin _)).trans (div_le_div_of_nonneg_right (by norm_num) rp.le)
  · rw [neg_one_mul, neg_one_mul]
    refine ⟨?_, ?_, ?_⟩
    · exact (oa2.err.trans_eq (fin _)).trans (div_le_div_of_nonneg_right (by norm_num) rp.le)
    · exact (ob2.err.trans_eq (fin _)).trans (div_le_div_of_nonneg_right (by norm_num) rp.le)
    · exact (oc2.err.trans_eq (fin _)).trans (div_le_div_of_nonneg_right (by norm_num) rp.le)

end Sla.Fp
