import Verif.Model.FpAltaz
import Verif.Lemmas.FpScaled
import Verif.Lemmas.FpSphere

/-
Running error bounds for the rates of an altazimuth mount, generated.  All errors are in proportion to `κ = 1e-15 / r`, where `r` is the
distance from the vertical, so that they can be carried up to the zenith.
-/
namespace Sla.Fp

variable {D : ℝ → ℝ}

/-- What is assumed of the unit of error. -/
def Kap (κ : ℝ) : Prop := 1e-15 ≤ κ ∧ κ ≤ 1e-6

namespace Kap
variable {κ a b x y e f g A B C M N P E : ℝ}

theorem u (h : Kap κ) : 1.2e-16 ≤ 0.12 * κ := by have := h.1; norm_num at this ⊢; linarith

theorem rnd (h : Kap κ) (hP : Prec 1.2e-16 1e-200 D) (h1 : Nb a x (e * κ * P) (A * P)) (e0 : 0 ≤ e) (A0 : 0 ≤ A) (hN : 1e-30 ≤ P)
    (hg : e + 0.12 * (A + 1e-6 * e) + 1e-5 ≤ g) : Nb (D a) x (g * κ * P) (A * P) := by
  obtain ⟨k1, k2⟩ := h
  have hu := u ⟨k1, k2⟩
  have κ0 : 0 ≤ κ := le_trans (by norm_num) k1
  have h2 : e * κ ≤ 1e-6 * e := by nlinarith
  have hT : (1e-200 : ℝ) ≤ 1e-5 * κ * P := by
    calc (1e-200 : ℝ) ≤ 1e-5 * 1e-15 * 1e-30 := by norm_num
      _ ≤ 1e-5 * κ * P := mul_le_mul (mul_le_mul_of_nonneg_left k1 (by norm_num)) hN (by norm_num) (mul_nonneg (by norm_num) κ0)
  have hp : 0 ≤ P := le_trans (by norm_num) hN
  refine hP.snd (τ := 1e-5 * κ) h1 hp hT ?_
  have h3 : (1.2e-16 : ℝ) * (A + e * κ) ≤ 0.12 * κ * (A + 1e-6 * e) :=
    mul_le_mul hu (by linarith) (by positivity) (by positivity)
  have := mul_le_mul_of_nonneg_right hg κ0
  nlinarith

theorem add (h : Kap κ) (hP : Prec 1.2e-16 1e-200 D) (h1 : Nb a x (e * κ * P) (A * P)) (h2 : Nb b y (f * κ * P) (B * P))
    (hn : 0 ≤ e + f ∧ 0 ≤ A + B) (hN : 1e-30 ≤ P) (hg : e + f + 0.12 * (A + B + 1e-6 * (e + f)) + 1e-5 ≤ g) :
    Nb (D (a + b)) (x + y) (g * κ * P) ((A + B) * P) := by
  refine h.rnd hP ⟨?_, ?_⟩ hn.1 hn.2 hN hg
  · rw [add_sub_add_comm, add_mul, add_mul]
    exact (abs_add_le _ _).trans (add_le_add h1.err h2.err)
  · rw [add_mul]; exact (abs_add_le _ _).trans (add_le_add h1.bd h2.bd)

theorem sub (h : Kap κ) (hP : Prec 1.2e-16 1e-200 D) (h1 : Nb a x (e * κ * P) (A * P)) (h2 : Nb b y (f * κ * P) (B * P))
    (hn : 0 ≤ e + f ∧ 0 ≤ A + B) (hN : 1e-30 ≤ P) (hg : e + f + 0.12 * (A + B + 1e-6 * (e + f)) + 1e-5 ≤ g) :
    Nb (D (a - b)) (x - y) (g * κ * P) ((A + B) * P) := by
  rw [sub_eq_add_neg, sub_eq_add_neg]; exact h.add hP h1 h2.neg hn hN hg

theorem mul (h : Kap κ) (hP : Prec 1.2e-16 1e-200 D) (h1 : Nb a x (e * κ * M) (A * M)) (h2 : Nb b y (f * κ * N) (B * N))
    (hMN : M * N ≤ P) (hM : 0 ≤ M) (hN' : 0 ≤ N) (hn : (0 ≤ e ∧ 0 ≤ f) ∧ 0 ≤ A ∧ 0 ≤ B) (hN : 1e-30 ≤ P)
    (hg : A * f + B * e + 1e-6 * (e * f) + 0.12 * (A * B + 1e-6 * (A * f + B * e + 1e-6 * (e * f))) + 1e-5 ≤ g) :
    Nb (D (a * b)) (x * y) (g * κ * P) (A * B * P) := by
  obtain ⟨⟨e0, f0⟩, A0, B0⟩ := hn
  obtain ⟨k1, k2⟩ := h
  have κ0 : 0 ≤ κ := le_trans (by norm_num) k1
  have ef : 0 ≤ e * f := mul_nonneg e0 f0
  refine rnd ⟨k1, k2⟩ hP (e := A * f + B * e + 1e-6 * (e * f)) ⟨?_, ?_⟩ (by positivity) (by positivity) hN hg
  · rw [show a * b - x * y = x * (b - y) + y * (a - x) + (a - x) * (b - y) by ring]
    have q1 : |x * (b - y)| ≤ A * M * (f * κ * N) := by
      rw [abs_mul]; exact mul_le_mul h1.bd h2.err (abs_nonneg _) ((abs_nonneg _).trans h1.bd)
    have q2 : |y * (a - x)| ≤ B * N * (e * κ * M) := by
      rw [abs_mul]; exact mul_le_mul h2.bd h1.err (abs_nonneg _) ((abs_nonneg _).trans h2.bd)
    have q3 : |(a - x) * (b - y)| ≤ e * κ * M * (f * κ * N) := by
      rw [abs_mul]; exact mul_le_mul h1.err h2.err (abs_nonneg _) ((abs_nonneg _).trans h1.err)
    have q4 : e * κ * M * (f * κ * N) ≤ 1e-6 * (e * f) * κ * (M * N) := by
      have : κ * (e * f * κ * (M * N)) ≤ 1e-6 * (e * f * κ * (M * N)) :=
        mul_le_mul_of_nonneg_right k2 (mul_nonneg (mul_nonneg ef κ0) (mul_nonneg hM hN'))
      nlinarith
    have q5 : (A * f + B * e + 1e-6 * (e * f)) * κ * (M * N) ≤ (A * f + B * e + 1e-6 * (e * f)) * κ * P :=
      mul_le_mul_of_nonneg_left hMN (by positivity)
    have := abs_add_le (x * (b - y) + y * (a - x)) ((a - x) * (b - y))
    have := abs_add_le (x * (b - y)) (y * (a - x))
    linarith
  · rw [abs_mul]
    refine (mul_le_mul h1.bd h2.bd (abs_nonneg _) ((abs_nonneg _).trans h1.bd)).trans ?_
    calc A * M * (B * N) = A * B * (M * N) := by ring
      _ ≤ _ := mul_le_mul_of_nonneg_left hMN (mul_nonneg A0 B0)

/-- Division by a quantity equal to its unit. -/
theorem div (h : Kap κ) (hP : Prec 1.2e-16 1e-200 D) (h1 : Nb a x (e * κ * M) (A * M)) (h2 : Nb b N (f * κ * N) (B * N))
    (hMN : M ≤ P * N) (hM : 0 ≤ M) (hN' : 0 < N) (hn : (0 ≤ e ∧ 0 ≤ f) ∧ 0 ≤ A) (hf : f ≤ 100) (hN : 1e-30 ≤ P)
    (hg : 1.0002 * (e + A * f) + 0.12 * (A + 1e-6 * (1.0002 * (e + A * f))) + 1e-5 ≤ g) :
    Nb (D (a / b)) (x / N) (g * κ * P) (A * P) := by
  obtain ⟨⟨e0, f0⟩, A0⟩ := hn
  obtain ⟨k1, k2⟩ := h
  have κ0 : 0 ≤ κ := le_trans (by norm_num) k1
  have hp : 0 ≤ P := le_trans (by norm_num) hN
  have hfk : f * κ ≤ 1e-4 := by
    calc f * κ ≤ 100 * 1e-6 := mul_le_mul hf k2 κ0 (by norm_num)
      _ = _ := by norm_num
  have hb : 0.9999 * N ≤ b := by
    have h3 := (abs_le.1 h2.err).1
    have h4 := mul_le_mul_of_nonneg_right hfk hN'.le
    norm_num at h4 ⊢; linarith
  have hb0 : 0 < b := lt_of_lt_of_le (by positivity) hb
  have hq : |x / N| ≤ A * P := by
    rw [abs_div, abs_of_pos hN', div_le_iff₀ hN']
    calc |x| ≤ A * M := h1.bd
      _ ≤ A * (P * N) := mul_le_mul_of_nonneg_left hMN A0
      _ = _ := by ring
  refine rnd ⟨k1, k2⟩ hP (e := 1.0002 * (e + A * f)) ⟨?_, hq⟩ (by positivity) A0 hN hg
  have e1 : a / b - x / N = ((a - x) - x / N * (b - N)) / b := by field_simp; ring
  rw [e1, abs_div, abs_of_pos hb0, div_le_iff₀ hb0]
  have q1 : |(a - x) - x / N * (b - N)| ≤ e * κ * M + A * P * (f * κ * N) := by
    refine (abs_sub _ _).trans (add_le_add h1.err ?_)
    rw [abs_mul]; exact mul_le_mul hq h2.err (abs_nonneg _) (by positivity)
  have q2 : e * κ * M ≤ e * κ * (P * N) := mul_le_mul_of_nonneg_left hMN (by positivity)
  have q3 : (e + A * f) * κ * P * N ≤ (e + A * f) * κ * P * (1.0002 * b) :=
    mul_le_mul_of_nonneg_left (by norm_num at hb ⊢; linarith) (by positivity)
  calc _ ≤ e * κ * M + A * P * (f * κ * N) := q1
    _ ≤ (e + A * f) * κ * P * N := by linarith
    _ ≤ _ := q3
    _ = _ := by ring

theorem cv (h : Kap κ) (h1 : Nb a x (e * κ * M) (A * M)) (hMN : M ≤ P) (hn : 0 ≤ e ∧ 0 ≤ A) : Nb a x (e * κ * P) (A * P) := by
  have κ0 : 0 ≤ κ := le_trans (by norm_num) h.1
  exact h1.mono (mul_le_mul_of_nonneg_left hMN (mul_nonneg hn.1 κ0)) (mul_le_mul_of_nonneg_left hMN hn.2)

end Kap

/-- The components of the direction, and the arguments of the parallactic angle. -/
theorem altaz_vec_near (hD : Dbl D) {ca' ca sa' sa cd' cd sd' sd cp' cp sp' sp : ℝ} (hca : Nb ca' ca 2e-16 1) (hsa : Nb sa' sa 2e-16 1)
    (hcd : Nb cd' cd 2e-16 1) (hsd : Nb sd' sd 2e-16 1) (hcp : Nb cp' cp 2e-16 1) (hsp : Nb sp' sp 2e-16 1) :
    |D (D (-D (ca' * cd') * sp') + D (sd' * cp')) - (-(ca * cd) * sp + sd * cp)| ≤ 1.61e-15 ∧ |D (-sa' * cd') - -sa * cd| ≤ 5.21e-16 ∧
    |D (D (D (ca' * cd') * cp') + D (sd' * sp')) - (ca * cd * cp + sd * sp)| ≤ 1.61e-15 ∧
    |D (D (cd' * sp') - D (ca' * D (sd' * cp'))) - (cd * sp - ca * (sd * cp))| ≤ 1.61e-15 ∧ |D (sa' * cp') - sa * cp| ≤ 5.21e-16 := by
  have n1 : Nb _ _ 5.21e-16 1 := hD.nmul hca hcd (by norm_num) (by norm_num)
  have n2 : Nb _ _ 5.21e-16 1 := hD.nmul hsd hcp (by norm_num) (by norm_num)
  have n3 : Nb _ _ 8.42e-16 1 := hD.nmul n1.neg hsp (by norm_num) (by norm_num)
  have hx : Nb _ _ 1.61e-15 2 := hD.nadd n3 n2 (by norm_num) (by norm_num)
  have hy : Nb _ _ 5.21e-16 1 := hD.nmul hsa.neg hcd (by norm_num) (by norm_num)
  have n4 : Nb _ _ 8.42e-16 1 := hD.nmul n1 hcp (by norm_num) (by norm_num)
  have n5 : Nb _ _ 5.21e-16 1 := hD.nmul hsd hsp (by norm_num) (by norm_num)
  have hz : Nb _ _ 1.61e-15 2 := hD.nadd n4 n5 (by norm_num) (by norm_num)
  have n6 : Nb _ _ 5.21e-16 1 := hD.nmul hcd hsp (by norm_num) (by norm_num)
  have n7 : Nb _ _ 8.42e-16 1 := hD.nmul hca n2 (by norm_num) (by norm_num)
  have hc : Nb _ _ 1.61e-15 2 := hD.nsub n6 n7 (by norm_num) (by norm_num)
  have hs : Nb _ _ 5.21e-16 1 := hD.nmul hsa hcp (by norm_num) (by norm_num)
  exact ⟨hx.err, hy.err, hz.err, hc.err, hs.err⟩

set_option maxHeartbeats 1000000 in
/-- The rates, at a distance `r ≥ 1e-9` from the vertical. -/
theorem altaz_rates_near (hP : Prec 1.2e-16 1e-200 D) {x' x y' y z' z cp' cp sp' sp r r2' r' : ℝ}
    (hx : |x' - x| ≤ 1.61e-15) (hy : |y' - y| ≤ 5.21e-16) (hz : |z' - z| ≤ 1.61e-15) (hcp : Nb cp' cp 2e-16 1) (hsp : Nb sp' sp 2e-16 1)
    (hu : x * x + y * y + z * z = 1) (hr0 : 1e-9 ≤ r) (hrr : x * x + y * y = r * r)
    (e2 : r2' = D (D (x' * x') + D (y' * y'))) (er : r' = D (Real.sqrt r2')) :
    0.99 * (r * r) ≤ r2' ∧
    |D (D (-x' * cp') / r2') - -x * cp / (r * r)| ≤ 6.84e-15 / r ^ 2 ∧
    |D (sp' + D (z' * D (D (-x' * cp') / r2'))) - (sp + z * (-x * cp / (r * r)))| ≤ 9.03e-15 / r ^ 2 ∧
    |D (D (cp' * y') / r') - cp * y / r| ≤ 5.87e-15 / r ∧
    |D (D (D (D (cp' * y') / r') / r') * D (D (z' * sp') + D (D (2 - r2') * D (D (-x' * cp') / r2')))) -
      cp * y / r / r * (z * sp + (2 - r * r) * (-x * cp / (r * r)))| ≤ 7.27e-14 / r ^ 3 ∧
    |D (D (-r' * D (D (-x' * cp') / r2')) * D (sp' + D (z' * D (D (-x' * cp') / r2')))) -
      -r * (-x * cp / (r * r)) * (sp + z * (-x * cp / (r * r)))| ≤ 3.31e-14 / r ^ 2 ∧
    |D (D (D (D (cp' * y') / r') / r') * D (sp' + D (D (2 * z') * D (D (-x' * cp') / r2')))) -
      cp * y / r / r * (sp + 2 * z * (-x * cp / (r * r)))| ≤ 5.11e-14 / r ^ 3 := by
  have r0 : 0 < r := lt_of_lt_of_le (by norm_num) hr0
  have x0 := mul_self_nonneg x
  have y0 := mul_self_nonneg y
  have z0 := mul_self_nonneg z
  have rle : r ≤ 1 := by nlinarith
  obtain ⟨s, es⟩ : ∃ s, s = 1 / r := ⟨_, rfl⟩
  have rs : r * s = 1 := by rw [es]; field_simp
  have s0 : 0 < s := by rw [es]; positivity
  have sge : 1 ≤ s := by nlinarith
  have rr0 : 0 < r * r := mul_pos r0 r0
  have ss0 : 0 < s * s := mul_pos s0 s0
  obtain ⟨κ, ek⟩ : ∃ κ, κ = 1e-15 * s := ⟨_, rfl⟩
  have kr : κ * r = 1e-15 := by rw [ek, mul_assoc, mul_comm s, rs, mul_one]
  have hk : Kap κ := by
    constructor
    · rw [ek]; linarith
    · have : s ≤ 1e9 := by
        rw [es, div_le_iff₀ r0]; norm_num at hr0 ⊢; linarith
      rw [ek]; norm_num at this ⊢; linarith
  have κ0 : 0 ≤ κ := le_trans (by norm_num) hk.1
  have l1 : (1e-30 : ℝ) ≤ 1 := by norm_num
  have lr : (1e-30 : ℝ) ≤ r := le_trans (by norm_num) hr0
  have lrr : (1e-30 : ℝ) ≤ r * r := by
    have := mul_le_mul hr0 hr0 (by norm_num) r0.le
    exact le_trans (by norm_num) this
  have ls : (1e-30 : ℝ) ≤ s := le_trans (by norm_num) sge
  have lss : (1e-30 : ℝ) ≤ s * s := by nlinarith
  have bx : |x| ≤ r := abs_le_of_sq_le_sq (by nlinarith) r0.le
  have by' : |y| ≤ r := abs_le_of_sq_le_sq (by nlinarith) r0.le
  have bz : |z| ≤ 1 := abs_le_of_sq_le_sq (by nlinarith) one_pos.le
  have k15 := hk.1
  have kx : Nb x' x (1.61 * κ * r) (1 * r) := ⟨hx.trans (by rw [mul_assoc, kr]; norm_num), by rw [one_mul]; exact bx⟩
  have ky : Nb y' y (0.521 * κ * r) (1 * r) := ⟨hy.trans (by rw [mul_assoc, kr]; norm_num), by rw [one_mul]; exact by'⟩
  have kz : Nb z' z (1.61 * κ * 1) (1 * 1) := ⟨hz.trans (by norm_num at k15 ⊢; linarith), by rw [one_mul]; exact bz⟩
  have kcp : Nb cp' cp (0.2 * κ * 1) (1 * 1) := ⟨hcp.err.trans (by norm_num at k15 ⊢; linarith), by rw [one_mul]; exact hcp.bd⟩
  have ksp : Nb sp' sp (0.2 * κ * 1) (1 * 1) := ⟨hsp.err.trans (by norm_num at k15 ⊢; linarith), by rw [one_mul]; exact hsp.bd⟩
  have k22 : Nb (2 : ℝ) 2 (0 * κ * 1) (2 * 1) := ⟨by simp, by norm_num⟩
  have n1 : Nb _ _ (3.35 * κ * (r * r)) (1 * (r * r)) := (hk.mul hP kx kx le_rfl r0.le r0.le (by norm_num) lrr (by norm_num)).mono le_rfl (mul_le_mul_of_nonneg_right (by norm_num) rr0.le)
  have n2 : Nb _ _ (1.17 * κ * (r * r)) (1 * (r * r)) := (hk.mul hP ky ky le_rfl r0.le r0.le (by norm_num) lrr (by norm_num)).mono le_rfl (mul_le_mul_of_nonneg_right (by norm_num) rr0.le)
  have k2 : Nb _ _ (4.77 * κ * (r * r)) (2 * (r * r)) := (hk.add hP n1 n2 (by norm_num) lrr (by norm_num)).mono le_rfl (mul_le_mul_of_nonneg_right (by norm_num) rr0.le)
  rw [← e2, hrr] at k2
  have h2 : Nb r2' (r * r) (4.77 * κ * (r * r)) (1 * (r * r)) := ⟨k2.err, by rw [one_mul, abs_of_pos rr0]⟩
  have g2 : 0.99 * (r * r) ≤ r2' := by
    have q1 := (abs_le.1 h2.err).1
    have q2 : 4.77 * κ ≤ 0.01 := by
      have := hk.2
      norm_num at this ⊢; linarith
    have := mul_le_mul_of_nonneg_right q2 rr0.le
    norm_num at this ⊢; linarith
  have r20 : 0 ≤ r2' := le_trans (by positivity) g2
  have hsq : |Real.sqrt r2' - r| ≤ 4.77 * κ * r := by
    have q1 := Real.sqrt_nonneg r2'
    have q2 := Real.mul_self_sqrt r20
    have q3 : |Real.sqrt r2' - r| * (Real.sqrt r2' + r) = |r2' - r * r| := by
      rw [← abs_of_nonneg (add_nonneg q1 r0.le), ← abs_mul]
      congr 1
      nlinarith
    have q4 := h2.err
    have q5 : |Real.sqrt r2' - r| * r ≤ 4.77 * κ * r * r := by
      have := mul_nonneg (abs_nonneg (Real.sqrt r2' - r)) q1
      nlinarith
    exact le_of_mul_le_mul_right q5 r0
  have hr : Nb r' r (4.9 * κ * r) (1 * r) := by
    rw [er]
    exact hk.rnd hP ⟨hsq, by rw [one_mul, abs_of_pos r0]⟩ (by norm_num) (by norm_num) lr (by norm_num)
  have ur1 : r * 1 ≤ r := by rw [mul_one]
  have u1r : 1 * r ≤ r := by rw [one_mul]
  have u11 : (1 : ℝ) * 1 ≤ 1 := by norm_num
  have u11s : 1 * s ≤ s := by rw [one_mul]
  have us : r ≤ s * (r * r) := by rw [← mul_assoc, mul_comm s, rs, one_mul]
  have u1s : (1 : ℝ) ≤ s := sge
  have u1rr : r ≤ 1 * r := by rw [one_mul]
  have us1 : (1 : ℝ) ≤ s * r := by rw [mul_comm, rs]
  have urr1 : r * r ≤ 1 := by nlinarith
  have urs : r * s ≤ 1 := rs.le
  have n1 : Nb _ _ (1.94 * κ * r) (1 * r) := (hk.mul hP kx.neg kcp ur1 r0.le zero_le_one (by norm_num) lr (by norm_num)).mono le_rfl (mul_le_mul_of_nonneg_right (by norm_num) r0.le)
  have pv : Nb _ _ (6.84 * κ * s) (1 * s) := (hk.div hP n1 h2 us r0.le rr0 (by norm_num) (by norm_num) ls (by norm_num)).mono le_rfl (mul_le_mul_of_nonneg_right (by norm_num) s0.le)
  have n2 := hk.cv ksp u1s (by norm_num)
  have n3 : Nb _ _ (8.58 * κ * s) (1 * s) := (hk.mul hP kz pv u11s zero_le_one s0.le (by norm_num) ls (by norm_num)).mono le_rfl (mul_le_mul_of_nonneg_right (by norm_num) s0.le)
  have av : Nb _ _ (9.03 * κ * s) (2 * s) := (hk.add hP n2 n3 (by norm_num) ls (by norm_num)).mono le_rfl (mul_le_mul_of_nonneg_right (by norm_num) s0.le)
  have n4 : Nb _ _ (0.842 * κ * r) (1 * r) := (hk.mul hP kcp ky u1r zero_le_one r0.le (by norm_num) lr (by norm_num)).mono le_rfl (mul_le_mul_of_nonneg_right (by norm_num) r0.le)
  have ev : Nb _ _ (5.87 * κ * 1) (1 * 1) := (hk.div hP n4 hr u1rr r0.le r0 (by norm_num) (by norm_num) l1 (by norm_num)).mono le_rfl (mul_le_mul_of_nonneg_right (by norm_num) zero_le_one)
  have edr : Nb _ _ (10.9 * κ * s) (1 * s) := (hk.div hP ev hr us1 zero_le_one r0 (by norm_num) (by norm_num) ls (by norm_num)).mono le_rfl (mul_le_mul_of_nonneg_right (by norm_num) s0.le)
  have n5 := hk.cv h2 urr1 (by norm_num)
  have n6 : Nb _ _ (1.94 * κ * 1) (1 * 1) := (hk.mul hP kz ksp u11 zero_le_one zero_le_one (by norm_num) l1 (by norm_num)).mono le_rfl (mul_le_mul_of_nonneg_right (by norm_num) zero_le_one)
  have n7 := hk.cv n6 u1s (by norm_num)
  have n8 : Nb _ _ (5.14 * κ * 1) (3 * 1) := (hk.sub hP k22 n5 (by norm_num) l1 (by norm_num)).mono le_rfl (mul_le_mul_of_nonneg_right (by norm_num) zero_le_one)
  have n9 : Nb _ _ (26.1 * κ * s) (3 * s) := (hk.mul hP n8 pv u11s zero_le_one s0.le (by norm_num) ls (by norm_num)).mono le_rfl (mul_le_mul_of_nonneg_right (by norm_num) s0.le)
  have n10 : Nb _ _ (28.6 * κ * s) (4 * s) := (hk.add hP n7 n9 (by norm_num) ls (by norm_num)).mono le_rfl (mul_le_mul_of_nonneg_right (by norm_num) s0.le)
  have aa : Nb _ _ (72.7 * κ * (s * s)) (4 * (s * s)) := (hk.mul hP edr n10 le_rfl s0.le s0.le (by norm_num) lss (by norm_num)).mono le_rfl (mul_le_mul_of_nonneg_right (by norm_num) ss0.le)
  have n11 : Nb _ _ (11.9 * κ * 1) (1 * 1) := (hk.mul hP hr.neg pv urs r0.le s0.le (by norm_num) l1 (by norm_num)).mono le_rfl (mul_le_mul_of_nonneg_right (by norm_num) zero_le_one)
  have ea : Nb _ _ (33.1 * κ * s) (2 * s) := (hk.mul hP n11 av u11s zero_le_one s0.le (by norm_num) ls (by norm_num)).mono le_rfl (mul_le_mul_of_nonneg_right (by norm_num) s0.le)
  have n12 : Nb _ _ (3.47 * κ * 1) (2 * 1) := (hk.mul hP k22 kz u11 zero_le_one zero_le_one (by norm_num) l1 (by norm_num)).mono le_rfl (mul_le_mul_of_nonneg_right (by norm_num) zero_le_one)
  have n13 : Nb _ _ (17.4 * κ * s) (2 * s) := (hk.mul hP n12 pv u11s zero_le_one s0.le (by norm_num) ls (by norm_num)).mono le_rfl (mul_le_mul_of_nonneg_right (by norm_num) s0.le)
  have n14 : Nb _ _ (18 * κ * s) (3 * s) := (hk.add hP n2 n13 (by norm_num) ls (by norm_num)).mono le_rfl (mul_le_mul_of_nonneg_right (by norm_num) s0.le)
  have pa : Nb _ _ (51.1 * κ * (s * s)) (3 * (s * s)) := (hk.mul hP edr n14 le_rfl s0.le s0.le (by norm_num) lss (by norm_num)).mono le_rfl (mul_le_mul_of_nonneg_right (by norm_num) ss0.le)
  have fin1 : ∀ e : ℝ, e * κ * 1 = e * 1e-15 / r := fun e => by rw [ek, es]; ring
  have fin2 : ∀ e : ℝ, e * κ * s = e * 1e-15 / r ^ 2 := fun e => by rw [ek, es]; ring
  have fin3 : ∀ e : ℝ, e * κ * (s * s) = e * 1e-15 / r ^ 3 := fun e => by rw [ek, es]; ring
  have pw2 : 0 < r ^ 2 := pow_pos r0 2
  have pw3 : 0 < r ^ 3 := pow_pos r0 3
  refine ⟨g2, ?_, ?_, ?_, ?_, ?_, ?_⟩
  · refine (pv.err.trans_eq (fin2 _)).trans (div_le_div_of_nonneg_right (by norm_num) pw2.le)
  · refine (av.err.trans_eq (fin2 _)).trans (div_le_div_of_nonneg_right (by norm_num) pw2.le)
  · refine (ev.err.trans_eq (fin1 _)).trans (div_le_div_of_nonneg_right (by norm_num) r0.le)
  · refine (aa.err.trans_eq (fin3 _)).trans (div_le_div_of_nonneg_right (by norm_num) pw3.le)
  · refine (ea.err.trans_eq (fin2 _)).trans (div_le_div_of_nonneg_right (by norm_num) pw2.le)
  · refine (pa.err.trans_eq (fin3 _)).trans (div_le_div_of_nonneg_right (by norm_num) pw3.le)

end Sla.Fp
