import Verif.Model.TimeScales
import Verif.Model.Angles
import Mathlib.Order.Monotone.Basic
import Mathlib.Tactic.Linarith
import Mathlib.Tactic.NormNum
import Mathlib.Tactic.Positivity
import Mathlib.Tactic.SplitIfs

/-
Property theorems C89: dt, the estimate of ET-UT.
-/
namespace Sla.Props
open Sla

private theorem dt_late {x : ℝ} (h : 1708.185161980887 ≤ x) : dt x = 5.156 + 13.3066 * ((x - 1819) / 100) ^ 2 := by
  unfold dt; rw [if_pos h]; ring

private theorem dt_mid {x : ℝ} (h : x < 1708.185161980887) (h' : 979.0258204760233 ≤ x) :
    dt x = 25.5 * ((x - 1800) / 100) ^ 2 := by
  unfold dt; rw [if_neg (not_le.2 h), if_pos h']; ring

private theorem dt_early {x : ℝ} (h : x < 979.0258204760233) :
    dt x = 1360 + 320 * ((x - 1800) / 100) + 44.3 * ((x - 1800) / 100) ^ 2 := by
  unfold dt; rw [if_neg (by linarith), if_neg (not_le.2 h)]; ring

/-- C89: the estimate decreases strictly until 1819 (also across both changes of model) and increases strictly from
    then on. -/
theorem C89_shape : StrictAntiOn dt (Set.Iic 1819) ∧ StrictMonoOn dt (Set.Ici 1819) := by
  constructor
  · intro x hx y hy hxy
    have hy' : y ≤ 1819 := hy
    rcases lt_or_ge y 979.0258204760233 with hy1 | hy1
    · rw [dt_early hy1, dt_early (hxy.trans hy1)]; nlinarith
    rcases lt_or_ge y 1708.185161980887 with hy2 | hy2
    · rw [dt_mid hy2 hy1]
      rcases lt_or_ge x 979.0258204760233 with hx1 | hx1
      · rw [dt_early hx1]; nlinarith
      · rw [dt_mid (hxy.trans hy2) hx1]; nlinarith
    · rw [dt_late hy2]
      rcases lt_or_ge x 979.0258204760233 with hx1 | hx1
      · rw [dt_early hx1]; nlinarith
      rcases lt_or_ge x 1708.185161980887 with hx2 | hx2
      · rw [dt_mid hx2 hx1]; nlinarith
      · rw [dt_late hx2]; nlinarith
  · intro x hx y hy hxy
    have hx' : 1819 ≤ x := hx
    rw [dt_late (by linarith), dt_late (by linarith)]; nlinarith

/-- C89: the least value of the estimate is 5.156 s, in 1819 and only then. -/
theorem C89_least (x : ℝ) : 5.156 ≤ dt x ∧ (dt x = 5.156 ↔ x = 1819) := by
  have e : dt 1819 = 5.156 := by rw [dt_late (by norm_num)]; norm_num
  rcases lt_trichotomy x 1819 with h | h | h
  · have := C89_shape.1 (Set.mem_Iic.2 h.le) (Set.mem_Iic.2 le_rfl) h
    rw [e] at this
    exact ⟨this.le, fun h' => absurd h' this.ne', fun h' => absurd h' h.ne⟩
  · subst h; exact ⟨e.ge, fun _ => rfl, fun _ => e⟩
  · have := C89_shape.2 (Set.mem_Ici.2 le_rfl) (Set.mem_Ici.2 h.le) h
    rw [e] at this
    exact ⟨this.le, fun h' => absurd h' this.ne', fun h' => absurd h' h.ne'⟩

private theorem sq_lip {a b K L d : ℝ} (h : |a| ≤ K) (h' : |b| ≤ K) (hL : 2 * K * |d| ≤ L) (he : a - b = d) :
    |a ^ 2 - b ^ 2| ≤ L := by
  have : a ^ 2 - b ^ 2 = (a + b) * d := by rw [← he]; ring
  rw [this, abs_mul]
  have h3 : |a + b| ≤ 2 * K := (abs_add_le a b).trans (by linarith)
  exact (mul_le_mul_of_nonneg_right h3 (abs_nonneg d)).trans hL

private theorem lip_late {x y M : ℝ} (hx : 1708.185161980887 ≤ x) (hy : 1708.185161980887 ≤ y) (hM : 0.1 ≤ M)
    (h1 : |x - 1800| ≤ 100 * M) (h2 : |y - 1800| ≤ 100 * M) : |dt x - dt y| ≤ 0.886 * M * |x - y| := by
  rw [dt_late hx, dt_late hy]
  have e : 5.156 + 13.3066 * ((x - 1819) / 100) ^ 2 - (5.156 + 13.3066 * ((y - 1819) / 100) ^ 2) =
      13.3066 / 10000 * ((x + y - 3638) * (x - y)) := by ring
  rw [e, abs_mul, abs_mul, abs_of_pos (by norm_num : (0 : ℝ) < 13.3066 / 10000)]
  have h3 : |x + y - 3638| ≤ 200 * M + 38 := by
    rw [abs_le] at *; constructor <;> linarith [h1.1, h1.2, h2.1, h2.2]
  nlinarith [abs_nonneg (x - y), mul_le_mul_of_nonneg_right h3 (abs_nonneg (x - y)),
    mul_le_mul_of_nonneg_right hM (abs_nonneg (x - y))]

private theorem lip_mid {x y M : ℝ} (hx : x ≤ 1708.185161980887)
    (h1 : |x - 1800| ≤ 100 * M) (h2 : |y - 1800| ≤ 100 * M) :
    |25.5 * ((x - 1800) / 100) ^ 2 - 25.5 * ((y - 1800) / 100) ^ 2| ≤ 0.886 * M * |x - y| := by
  have e : 25.5 * ((x - 1800) / 100) ^ 2 - 25.5 * ((y - 1800) / 100) ^ 2 =
      25.5 / 10000 * ((x + y - 3600) * (x - y)) := by ring
  rw [e, abs_mul, abs_mul, abs_of_pos (by norm_num : (0 : ℝ) < 25.5 / 10000)]
  have h3 : |x + y - 3600| ≤ 200 * M := by
    rw [abs_le] at *; constructor <;> linarith [h1.1, h1.2, h2.1, h2.2]
  have hM : 0 ≤ M := by linarith [(abs_nonneg _).trans h1]
  nlinarith [abs_nonneg (x - y), mul_le_mul_of_nonneg_right h3 (abs_nonneg (x - y)),
    mul_nonneg hM (abs_nonneg (x - y))]

private theorem lip_early {x y M : ℝ} (hx : x ≤ 979.0258204760233) (hy : y ≤ 979.0258204760233)
    (h1 : |x - 1800| ≤ 100 * M) (h2 : |y - 1800| ≤ 100 * M) :
    |1360 + 320 * ((x - 1800) / 100) + 44.3 * ((x - 1800) / 100) ^ 2 -
      (1360 + 320 * ((y - 1800) / 100) + 44.3 * ((y - 1800) / 100) ^ 2)| ≤ 0.886 * M * |x - y| := by
  have e : 1360 + 320 * ((x - 1800) / 100) + 44.3 * ((x - 1800) / 100) ^ 2 -
      (1360 + 320 * ((y - 1800) / 100) + 44.3 * ((y - 1800) / 100) ^ 2) =
      44.3 / 10000 * ((x + y - 3600 + 320 / 0.443) * (x - y)) := by ring
  rw [e, abs_mul, abs_mul, abs_of_pos (by norm_num : (0 : ℝ) < 44.3 / 10000)]
  have h3 : |x + y - 3600 + 320 / 0.443| ≤ 200 * M := by
    rw [abs_le] at *
    constructor
    · linarith [h1.1, h2.1, (by norm_num : (0 : ℝ) ≤ 320 / 0.443)]
    · linarith [h1.1, h2.1, (by norm_num : (320 : ℝ) / 0.443 ≤ 723)]
  nlinarith [abs_nonneg (x - y), mul_le_mul_of_nonneg_right h3 (abs_nonneg (x - y))]

/-- C89: the estimate is continuous up to 2e-13 s: for epochs within M centuries of 1800, two values differ by at most
    0.886 M seconds per year of separation, plus 2e-13 s.  (The constant is the steepness of the earliest model.) -/
theorem C89_continuous (M : ℝ) (hM : 0.1 ≤ M) (x y : ℝ) (hx : |x - 1800| ≤ 100 * M) (hy : |y - 1800| ≤ 100 * M) :
    |dt x - dt y| ≤ 0.886 * M * |x - y| + 2e-13 := by
  wlog hxy : x ≤ y generalizing x y with H
  · rw [abs_sub_comm (dt x), abs_sub_comm x]; exact H y x hy hx (le_of_not_ge hxy)
  have B1 : (1708.185161980887 : ℝ) - 1800 = -91.814838019113 := by norm_num
  have j1 : |25.5 * (((1708.185161980887 : ℝ) - 1800) / 100) ^ 2 - dt 1708.185161980887| ≤ 1e-13 := by
    rw [dt_late le_rfl, abs_le]; constructor <;> norm_num
  have j2 : |1360 + 320 * (((979.0258204760233 : ℝ) - 1800) / 100) + 44.3 * ((979.0258204760233 - 1800) / 100) ^ 2 -
      dt 979.0258204760233| ≤ 1e-13 := by
    rw [dt_mid (by norm_num) le_rfl, abs_le]; constructor <;> norm_num
  have hM0 : 0 ≤ 0.886 * M := by linarith
  rcases lt_or_ge y 979.0258204760233 with hy1 | hy1
  · rw [dt_early hy1, dt_early (hxy.trans_lt hy1)]
    linarith [lip_early (hxy.trans hy1.le) hy1.le hx hy]
  have step_early : x < 979.0258204760233 →
      |dt x - dt 979.0258204760233| ≤ 0.886 * M * |x - 979.0258204760233| + 1e-13 := by
    intro h
    have hb : |(979.0258204760233 : ℝ) - 1800| ≤ 100 * M := by
      rw [abs_of_nonpos (by norm_num)]; rw [abs_of_nonpos (by linarith)] at hx; linarith
    have := lip_early h.le le_rfl hx hb
    rw [dt_early h]
    exact (abs_sub_le _ _ _).trans (add_le_add this j2)
  have split : ∀ b, x ≤ b → b ≤ y → |x - b| + |b - y| = |x - y| := by
    intro b h1 h2
    rw [abs_of_nonpos (by linarith), abs_of_nonpos (by linarith), abs_of_nonpos (by linarith)]; ring
  have inside : ∀ b, x ≤ b → b ≤ y → |b - 1800| ≤ 100 * M := by
    intro b h1 h2; rw [abs_le] at *; constructor <;> linarith [hx.1, hy.2]
  have step_mid : ∀ a, 979.0258204760233 ≤ a → a < 1708.185161980887 → |a - 1800| ≤ 100 * M →
      1708.185161980887 ≤ y → |(1708.185161980887 : ℝ) - 1800| ≤ 100 * M →
      |dt a - dt 1708.185161980887| ≤ 0.886 * M * |a - 1708.185161980887| + 1e-13 := by
    intro a h1 h2 h3 h4 h5
    rw [dt_mid h2 h1]
    exact (abs_sub_le _ _ _).trans (add_le_add (lip_mid h2.le h3 h5) j1)
  rcases lt_or_ge y 1708.185161980887 with hy2 | hy2
  · rcases lt_or_ge x 979.0258204760233 with hx1 | hx1
    · have h2 : |dt 979.0258204760233 - dt y| ≤ 0.886 * M * |979.0258204760233 - y| := by
        rw [dt_mid (by norm_num) le_rfl, dt_mid hy2 hy1]
        exact lip_mid (by norm_num) (inside _ hx1.le hy1) hy
      have h3 := abs_sub_le (dt x) (dt 979.0258204760233) (dt y)
      rw [← split _ hx1.le hy1, mul_add]
      linarith [step_early hx1]
    · rw [dt_mid (hxy.trans_lt hy2) hx1, dt_mid hy2 hy1]
      linarith [lip_mid (hxy.trans hy2.le) hx hy]
  · rcases lt_or_ge x 1708.185161980887 with hx2 | hx2
    · have hb2 := inside 1708.185161980887 hx2.le hy2
      have h4 := lip_late (x := 1708.185161980887) le_rfl hy2 hM hb2 hy
      rcases lt_or_ge x 979.0258204760233 with hx1 | hx1
      · have h5 := step_mid 979.0258204760233 le_rfl (by norm_num) (inside _ hx1.le hy1) hy2 hb2
        have h6 := abs_sub_le (dt x) (dt 979.0258204760233) (dt 1708.185161980887)
        have h7 := abs_sub_le (dt x) (dt 1708.185161980887) (dt y)
        rw [← split _ hx2.le hy2, mul_add]
        have e : |x - 979.0258204760233| + |979.0258204760233 - 1708.185161980887| = |x - 1708.185161980887| := by
          rw [abs_of_nonpos (by linarith), abs_of_nonpos (by norm_num), abs_of_nonpos (by linarith)]; ring
        rw [← e, mul_add]
        linarith [step_early hx1]
      · have h5 := step_mid x hx1 hx2 hx hy2 hb2
        have h7 := abs_sub_le (dt x) (dt 1708.185161980887) (dt y)
        rw [← split _ hx2.le hy2, mul_add]
        linarith
    · linarith [lip_late hx2 (hx2.trans hxy) hM hx hy]

private theorem ite_step (P : ℝ → Prop) {u T t a b : ℝ} (h : u < T) (ha : t ≤ u → u < T → P a) (hb : u < t → P b) :
    P (if u ≥ t then a else b) := by
  split_ifs with h'
  · exact ha h' h
  · exact hb (not_le.1 h')

/-- C89: the estimate against the table of leap seconds: from 1960 to the end of 2069 it is within the documented 20 s
    of TT-UTC as given by `dtt`. -/
theorem C89_against_leap_seconds (utc : ℝ) (h1 : 36934 ≤ utc) (h2 : utc ≤ 77112) :
    |dt (epj utc) - dtt utc| ≤ 20 := by
  have hlate : dt (epj utc) = 5.156 + 13.3066 * ((utc - 51544.5) / 36525 + 1.81) ^ 2 := by
    rw [dt_late (by unfold epj; rw [← sub_le_iff_le_add', le_div_iff₀ (by norm_num)]; linarith)]
    unfold epj; ring
  have hlo : 5.156 + 13.3066 * (3.4 * ((utc - 51544.5) / 36525 + 1.81) - 2.89) ≤ dt (epj utc) := by
    rw [hlate]; nlinarith [sq_nonneg ((utc - 51544.5) / 36525 + 1.81 - 1.7)]
  have hz1 : (1.40 : ℝ) ≤ (utc - 51544.5) / 36525 + 1.81 := by
    rw [← sub_le_iff_le_add, le_div_iff₀ (by norm_num)]; linarith
  have hz2 : (utc - 51544.5) / 36525 + 1.81 ≤ 2.51 := by
    rw [← le_sub_iff_add_le, div_le_iff₀ (by norm_num)]; linarith
  have hup : dt (epj utc) ≤ 5.156 + 13.3066 * (3.91 * ((utc - 51544.5) / 36525 + 1.81) - 1.40 * 2.51) := by
    rw [hlate]; nlinarith [mul_nonneg (sub_nonneg.2 hz1) (sub_nonneg.2 hz2)]
  have hup' : utc ≤ 51545 → dt (epj utc) ≤ 5.156 + 13.3066 * (3.22 * ((utc - 51544.5) / 36525 + 1.81) - 1.40 * 1.82) := by
    intro h
    have hz3 : (utc - 51544.5) / 36525 + 1.81 ≤ 1.82 := by
      rw [← le_sub_iff_add_le, div_le_iff₀ (by norm_num)]; linarith
    rw [hlate]; nlinarith [mul_nonneg (sub_nonneg.2 hz1) (sub_nonneg.2 hz3)]
  generalize dt (epj utc) = d at *
  clear hz1 hz2 hlate
  have hup'' : utc < 51179 → d ≤ 5.156 + 13.3066 * (3.22 * ((utc - 51544.5) / 36525 + 1.81) - 1.40 * 1.82) :=
    fun h => hup' (by linarith)
  clear hup'
  have hmain : ∀ D, D = dat utc → -20 ≤ d - (32.184 + D) ∧ d - (32.184 + D) ≤ 20 := by
    intro D hD
    rw [hD]
    unfold dat
    have hT : utc < 77113 := by linarith
    iterate 6
      refine ite_step (fun D => -20 ≤ d - (32.184 + D) ∧ d - (32.184 + D) ≤ 20) hT
        (fun l r => by clear hup''; constructor <;> linarith) (fun hT' => ?_)
      replace hT := hT'
      clear hT'
    replace hup'' := hup'' hT
    clear hup
    iterate 35
      refine ite_step (fun D => -20 ≤ d - (32.184 + D) ∧ d - (32.184 + D) ≤ 20) hT
        (fun l r => by constructor <;> linarith) (fun hT' => ?_)
      replace hT := hT'
      clear hT'
    constructor <;> linarith
  exact abs_le.2 (hmain _ rfl)

/- The hypotheses are met, e.g. by 1990 January 1. -/
example : |dt (epj 47892) - dtt 47892| ≤ 20 := C89_against_leap_seconds 47892 (by norm_num) (by norm_num)
/- The years around the first change of model. -/
example : |dt 1708 - dt 1709| ≤ 0.886 * 1 * |1708 - 1709| + 2e-13 :=
  C89_continuous 1 (by norm_num) _ _ (by norm_num [abs_le]) (by norm_num [abs_le])
example : dt 500 > dt 1500 := C89_shape.1 (by norm_num) (by norm_num) (by norm_num)

end Sla.Props
