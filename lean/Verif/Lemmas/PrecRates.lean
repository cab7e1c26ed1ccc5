import Verif.Lemmas.EulerMotion
import Verif.Model.Precession
import Mathlib.Analysis.Real.Pi.Bounds

/-
The precession angles as polynomials in centuries, their rates, and how far the angular velocity of the frame of date
depends on the epoch from which it is precessed.
-/
namespace Sla
open Matrix Spec

/-! ## The polynomials, in arcseconds, and their rates per century -/

noncomputable def precZeta (T t : ℝ) : ℝ := (2306.2181 + (1.39656 - 0.000139 * T) * T + ((0.30188 - 0.000344 * T) + 0.017998 * t) * t) * t
noncomputable def precZeta' (T t : ℝ) : ℝ := 2306.2181 + (1.39656 - 0.000139 * T) * T + (2 * ((0.30188 - 0.000344 * T)) + 3 * 0.017998 * t) * t
noncomputable def precZ (T t : ℝ) : ℝ := (2306.2181 + (1.39656 - 0.000139 * T) * T + ((1.09468 + 0.000066 * T) + 0.018203 * t) * t) * t
noncomputable def precZ' (T t : ℝ) : ℝ := 2306.2181 + (1.39656 - 0.000139 * T) * T + (2 * ((1.09468 + 0.000066 * T)) + 3 * 0.018203 * t) * t
noncomputable def precTh (T t : ℝ) : ℝ := (2004.3109 + (-0.85330 - 0.000217 * T) * T + ((-0.42665 - 0.000217 * T) + (-0.041833) * t) * t) * t
noncomputable def precTh' (T t : ℝ) : ℝ := 2004.3109 + (-0.85330 - 0.000217 * T) * T + (2 * ((-0.42665 - 0.000217 * T)) + 3 * (-0.041833) * t) * t

noncomputable def prebnZeta (T t : ℝ) : ℝ := (2303.5548 + (1.39720 + 0.000059 * T) * T + ((0.30242 - 0.000269 * T) + 0.017996 * t) * t) * t
noncomputable def prebnZeta' (T t : ℝ) : ℝ := 2303.5548 + (1.39720 + 0.000059 * T) * T + (2 * ((0.30242 - 0.000269 * T)) + 3 * 0.017996 * t) * t
noncomputable def prebnZ (T t : ℝ) : ℝ := (2303.5548 + (1.39720 + 0.000059 * T) * T + ((1.09478 + 0.000387 * T) + 0.018324 * t) * t) * t
noncomputable def prebnZ' (T t : ℝ) : ℝ := 2303.5548 + (1.39720 + 0.000059 * T) * T + (2 * ((1.09478 + 0.000387 * T)) + 3 * 0.018324 * t) * t
noncomputable def prebnTh (T t : ℝ) : ℝ := (2005.1125 + (-0.85294 - 0.000365 * T) * T + ((-0.42647 - 0.000365 * T) + (-0.041802) * t) * t) * t
noncomputable def prebnTh' (T t : ℝ) : ℝ := 2005.1125 + (-0.85294 - 0.000365 * T) * T + (2 * ((-0.42647 - 0.000365 * T)) + 3 * (-0.041802) * t) * t

theorem mono_bound {T t : ℝ} (hT : |T| ≤ 1) (hs : |T + t| ≤ 1) (i j : ℕ) : |T ^ i * t ^ j| ≤ 2 ^ j := by
  have ht : |t| ≤ 2 := by rw [abs_le] at *; constructor <;> linarith
  rw [abs_mul, abs_pow, abs_pow]
  calc |T| ^ i * |t| ^ j ≤ 1 ^ i * 2 ^ j := by gcongr
    _ = 2 ^ j := by simp

private theorem main_bound {T t : ℝ} (hT : |T| ≤ 1) (hs : |T + t| ≤ 1) :
    |T ^ 1 * t ^ 2 + 2 / 3 * (T ^ 0 * t ^ 3)| ≤ 4 / 3 := by
  rw [abs_le] at *
  obtain ⟨a1, a2⟩ := hT
  obtain ⟨b1, b2⟩ := hs
  obtain ⟨h, rfl⟩ : ∃ h, t = 2 * h := ⟨t / 2, by ring⟩
  have hh : h ≤ 1 := by linarith
  have hl : -1 ≤ h := by linarith
  have k1 : 0 ≤ (1 - h) ^ 2 * (1 + 2 * h) ∨ h < 0 := by
    rcases le_or_gt 0 h with h0 | h0
    · left; positivity
    · right; exact h0
  constructor
  · rcases le_or_gt 0 h with h0 | h0
    · nlinarith [mul_nonneg (sq_nonneg h) (by linarith : 0 ≤ T + 1), mul_nonneg (sq_nonneg h) h0]
    · nlinarith [mul_nonneg (sq_nonneg h) (by linarith : 0 ≤ T + 2 * h + 1), mul_nonneg (sq_nonneg (1 + h)) (by linarith : 0 ≤ 1 - h), mul_nonneg (sq_nonneg h) (by linarith : 0 ≤ -h), sq_nonneg (1 + h)]
  · rcases le_or_gt 0 h with h0 | h0
    · nlinarith [mul_nonneg (sq_nonneg h) (by linarith : 0 ≤ 1 - T - 2 * h), mul_nonneg (sq_nonneg (1 - h)) h0, sq_nonneg (1 - h)]
    · nlinarith [mul_nonneg (sq_nonneg h) (by linarith : 0 ≤ 1 - T), mul_nonneg (sq_nonneg h) (by linarith : 0 ≤ -h)]

theorem precRate_x {T t : ℝ} (hT : |T| ≤ 1) (hs : |T + t| ≤ 1) :
    |precTh' T t * precZ T t - precZeta' T t * precTh T t + 2.350443e-11 * (-(precTh' T t * precZ T t ^ 3) / 6 + precZeta' T t * precTh T t ^ 3 / 6 + precZeta' T t * precTh T t * precZ T t ^ 2 / 2)| ≤ 2.32 := by
  have e : precTh' T t * precZ T t - precZeta' T t * precTh T t + 2.350443e-11 * (-(precTh' T t * precZ T t ^ 3) / 6 + precZeta' T t * precTh T t ^ 3 / 6 + precZeta' T t * precTh T t * precZ T t ^ 2 / 2) =
      (8354663/1000000000) * (T ^ 0 * t ^ 2) +
      (-8625101330715662567631700376453/2000000000000000000000000000000000) * (T ^ 0 * t ^ 3) +
      (75314362400766350198539541819317/1250000000000000000000000000000000) * (T ^ 0 * t ^ 4) +
      (1244184401080783668964930019374953/200000000000000000000000000000000000) * (T ^ 0 * t ^ 5) +
      (14251523908843714253044270126609/2000000000000000000000000000000000000) * (T ^ 0 * t ^ 6) +
      (75850717515123627356561560523/20000000000000000000000000000000000000) * (T ^ 0 * t ^ 7) +
      (941868922257849891848514381/100000000000000000000000000000000000000) * (T ^ 0 * t ^ 8) +
      (215637055349843337714971357/500000000000000000000000000000000000000) * (T ^ 0 * t ^ 9) +
      (-13377497866429915050355501/10000000000000000000000000000000000000000) * (T ^ 0 * t ^ 10) +
      (-4263007671590359305651279/200000000000000000000000000000000000000000) * (T ^ 0 * t ^ 11) +
      (-39432691/10000000000) * (T ^ 1 * t ^ 2) +
      (1320667805209833999163491805752539/10000000000000000000000000000000000) * (T ^ 1 * t ^ 3) +
      (-4995303176783813253752252393969/100000000000000000000000000000000000) * (T ^ 1 * t ^ 4) +
      (6004603131918878548576094315301/1000000000000000000000000000000000000) * (T ^ 1 * t ^ 5) +
      (110391195526233643606415790013/20000000000000000000000000000000000000) * (T ^ 1 * t ^ 6) +
      (33717566840515451610546209/2500000000000000000000000000000000000) * (T ^ 1 * t ^ 7) +
      (-58436741243143058453640813/500000000000000000000000000000000000000) * (T ^ 1 * t ^ 8) +
      (-4788300899830651385930929/2000000000000000000000000000000000000000) * (T ^ 1 * t ^ 9) +
      (75726275516123501093/50000000000000000000000000000000000000000) * (T ^ 1 * t ^ 10) +
      (-99366701/100000000000) * (T ^ 2 * t ^ 2) +
      (-1825576213689479756348469302699/100000000000000000000000000000000000) * (T ^ 2 * t ^ 3) +
      (-1769927046713935435772522067/15625000000000000000000000000000000) * (T ^ 2 * t ^ 4) +
      (-232405722278912759888810913/800000000000000000000000000000000000) * (T ^ 2 * t ^ 5) +
      (-159605237783134026428537259/50000000000000000000000000000000000000) * (T ^ 2 * t ^ 6) +
      (-5229068919737864733991341/50000000000000000000000000000000000000) * (T ^ 2 * t ^ 7) +
      (9653440217906197019229/10000000000000000000000000000000000000000) * (T ^ 2 * t ^ 8) +
      (-14956582883726085693789/100000000000000000000000000000000000000000) * (T ^ 2 * t ^ 9) +
      (-26691/200000000000) * (T ^ 3 * t ^ 2) +
      (-82930267156364485374219033991/1000000000000000000000000000000000000) * (T ^ 3 * t ^ 3) +
      (-381353922336960783459051023/10000000000000000000000000000000000000) * (T ^ 3 * t ^ 4) +
      (-74455976496540962872173753/25000000000000000000000000000000000000) * (T ^ 3 * t ^ 5) +
      (-9380358858449224980221/31250000000000000000000000000000000000) * (T ^ 3 * t ^ 6) +
      (-847707500510779476229/78125000000000000000000000000000000000) * (T ^ 3 * t ^ 7) +
      (27144738446922211953/50000000000000000000000000000000000000000) * (T ^ 3 * t ^ 8) +
      (-119983082761709898390563871/5000000000000000000000000000000000000) * (T ^ 4 * t ^ 3) +
      (399760660386186001164389/25000000000000000000000000000000000000) * (T ^ 4 * t ^ 4) +
      (-111510045144961472315373/400000000000000000000000000000000000000) * (T ^ 4 * t ^ 5) +
      (378322330097059804371/20000000000000000000000000000000000000000) * (T ^ 4 * t ^ 6) +
      (-50872988795191455731/200000000000000000000000000000000000000000) * (T ^ 4 * t ^ 7) +
      (274328449498405548285017/100000000000000000000000000000000000000) * (T ^ 5 * t ^ 3) +
      (-64286833727496157227/200000000000000000000000000000000000000) * (T ^ 5 * t ^ 4) +
      (247242142609810364247/10000000000000000000000000000000000000000) * (T ^ 5 * t ^ 5) +
      (2818173148228229203/200000000000000000000000000000000000000000) * (T ^ 5 * t ^ 6) +
      (-75736876434406727213/1000000000000000000000000000000000000000) * (T ^ 6 * t ^ 3) +
      (-865607959611092761/2500000000000000000000000000000000000000) * (T ^ 6 * t ^ 4) +
      (-479956088543326143/200000000000000000000000000000000000000000) * (T ^ 6 * t ^ 5) +
      (-43974433314817229/400000000000000000000000000000000000000) * (T ^ 7 * t ^ 3) +
      (308652546005503/4000000000000000000000000000000000000000) * (T ^ 7 * t ^ 4) +
      (2026006771696593/200000000000000000000000000000000000000000) * (T ^ 8 * t ^ 3) := by
    simp only [precZ, precTh, precZeta, precZ', precTh', precZeta']; ring
  rw [e]
  have m := mono_bound hT hs
  clear e hT hs
  rw [abs_le]
  constructor
  · linarith [(abs_le.1 (m 0 2)).1, (abs_le.1 (m 0 3)).2, (abs_le.1 (m 0 4)).1, (abs_le.1 (m 0 5)).1, (abs_le.1 (m 0 6)).1, (abs_le.1 (m 0 7)).1, (abs_le.1 (m 0 8)).1, (abs_le.1 (m 0 9)).1, (abs_le.1 (m 0 10)).2, (abs_le.1 (m 0 11)).2, (abs_le.1 (m 1 2)).2, (abs_le.1 (m 1 3)).1, (abs_le.1 (m 1 4)).2, (abs_le.1 (m 1 5)).1, (abs_le.1 (m 1 6)).1, (abs_le.1 (m 1 7)).1, (abs_le.1 (m 1 8)).2, (abs_le.1 (m 1 9)).2, (abs_le.1 (m 1 10)).1, (abs_le.1 (m 2 2)).2, (abs_le.1 (m 2 3)).2, (abs_le.1 (m 2 4)).2, (abs_le.1 (m 2 5)).2, (abs_le.1 (m 2 6)).2, (abs_le.1 (m 2 7)).2, (abs_le.1 (m 2 8)).1, (abs_le.1 (m 2 9)).2, (abs_le.1 (m 3 2)).2, (abs_le.1 (m 3 3)).2, (abs_le.1 (m 3 4)).2, (abs_le.1 (m 3 5)).2, (abs_le.1 (m 3 6)).2, (abs_le.1 (m 3 7)).2, (abs_le.1 (m 3 8)).1, (abs_le.1 (m 4 3)).2, (abs_le.1 (m 4 4)).1, (abs_le.1 (m 4 5)).2, (abs_le.1 (m 4 6)).1, (abs_le.1 (m 4 7)).2, (abs_le.1 (m 5 3)).1, (abs_le.1 (m 5 4)).2, (abs_le.1 (m 5 5)).1, (abs_le.1 (m 5 6)).1, (abs_le.1 (m 6 3)).2, (abs_le.1 (m 6 4)).2, (abs_le.1 (m 6 5)).2, (abs_le.1 (m 7 3)).2, (abs_le.1 (m 7 4)).1, (abs_le.1 (m 8 3)).1]
  · linarith [(abs_le.1 (m 0 2)).2, (abs_le.1 (m 0 3)).1, (abs_le.1 (m 0 4)).2, (abs_le.1 (m 0 5)).2, (abs_le.1 (m 0 6)).2, (abs_le.1 (m 0 7)).2, (abs_le.1 (m 0 8)).2, (abs_le.1 (m 0 9)).2, (abs_le.1 (m 0 10)).1, (abs_le.1 (m 0 11)).1, (abs_le.1 (m 1 2)).1, (abs_le.1 (m 1 3)).2, (abs_le.1 (m 1 4)).1, (abs_le.1 (m 1 5)).2, (abs_le.1 (m 1 6)).2, (abs_le.1 (m 1 7)).2, (abs_le.1 (m 1 8)).1, (abs_le.1 (m 1 9)).1, (abs_le.1 (m 1 10)).2, (abs_le.1 (m 2 2)).1, (abs_le.1 (m 2 3)).1, (abs_le.1 (m 2 4)).1, (abs_le.1 (m 2 5)).1, (abs_le.1 (m 2 6)).1, (abs_le.1 (m 2 7)).1, (abs_le.1 (m 2 8)).2, (abs_le.1 (m 2 9)).1, (abs_le.1 (m 3 2)).1, (abs_le.1 (m 3 3)).1, (abs_le.1 (m 3 4)).1, (abs_le.1 (m 3 5)).1, (abs_le.1 (m 3 6)).1, (abs_le.1 (m 3 7)).1, (abs_le.1 (m 3 8)).2, (abs_le.1 (m 4 3)).1, (abs_le.1 (m 4 4)).2, (abs_le.1 (m 4 5)).1, (abs_le.1 (m 4 6)).2, (abs_le.1 (m 4 7)).1, (abs_le.1 (m 5 3)).2, (abs_le.1 (m 5 4)).1, (abs_le.1 (m 5 5)).2, (abs_le.1 (m 5 6)).2, (abs_le.1 (m 6 3)).1, (abs_le.1 (m 6 4)).1, (abs_le.1 (m 6 5)).1, (abs_le.1 (m 7 3)).1, (abs_le.1 (m 7 4)).2, (abs_le.1 (m 8 3)).2]

theorem precRate_y {T t : ℝ} (hT : |T| ≤ 1) (hs : |T + t| ≤ 1) :
    |precTh' T t - precTh' (T + t) 0 + 2.350443e-11 * (precZeta' T t * precTh T t * precZ T t - precTh' T t * precZ T t ^ 2 / 2) - 9.16e-6 * t ^ 4| ≤ 0.0001465 := by
  have e : precTh' T t - precTh' (T + t) 0 + 2.350443e-11 * (precZeta' T t * precTh T t * precZ T t - precTh' T t * precZ T t ^ 2 / 2) - 9.16e-6 * t ^ 4 =
      (-179366021080524214202593/200000000000000000000000000000) * (T ^ 0 * t ^ 2) +
      (8199540933471942887091009/125000000000000000000000000000) * (T ^ 0 * t ^ 3) +
      (-13293580776819398651355281/20000000000000000000000000000000) * (T ^ 0 * t ^ 4) +
      (513668936255627604645507/100000000000000000000000000000000) * (T ^ 0 * t ^ 5) +
      (-45690175015298471403/80000000000000000000000000000000) * (T ^ 0 * t ^ 6) +
      (-166777020763714060587/10000000000000000000000000000000000) * (T ^ 0 * t ^ 7) +
      (-95539318007874334803/200000000000000000000000000000000000) * (T ^ 0 * t ^ 8) +
      (98394944077382320035043437/1000000000000000000000000000000) * (T ^ 1 * t ^ 2) +
      (-19672649100524533999497/312500000000000000000000000000) * (T ^ 1 * t ^ 3) +
      (210681593119059885178431/50000000000000000000000000000000) * (T ^ 1 * t ^ 4) +
      (1640919907506574484829/1000000000000000000000000000000000) * (T ^ 1 * t ^ 5) +
      (-396669700054771082001/10000000000000000000000000000000000) * (T ^ 1 * t ^ 6) +
      (903096992570222763/100000000000000000000000000000000000) * (T ^ 1 * t ^ 7) +
      (-189284383261661944807641/4000000000000000000000000000000) * (T ^ 2 * t ^ 2) +
      (-3235065468982680777/78125000000000000000000000000) * (T ^ 2 * t ^ 3) +
      (-1821946540003550851017/1000000000000000000000000000000000) * (T ^ 2 * t ^ 4) +
      (6570333630812641467/10000000000000000000000000000000000) * (T ^ 2 * t ^ 5) +
      (-331029629065782621/200000000000000000000000000000000000) * (T ^ 2 * t ^ 6) +
      (-1935096285845254183467/50000000000000000000000000000000) * (T ^ 3 * t ^ 2) +
      (1828209867213463131/62500000000000000000000000000000) * (T ^ 3 * t ^ 3) +
      (-2080091033259221859/5000000000000000000000000000000000) * (T ^ 3 * t ^ 4) +
      (-3461559065271219/100000000000000000000000000000000000) * (T ^ 3 * t ^ 5) +
      (2019174202006327689/2000000000000000000000000000000000) * (T ^ 4 * t ^ 2) +
      (4263387733016559/1250000000000000000000000000000000) * (T ^ 4 * t ^ 3) +
      (9497350313082951/200000000000000000000000000000000000) * (T ^ 4 * t ^ 4) +
      (7963567572314109/10000000000000000000000000000000000) * (T ^ 5 * t ^ 2) +
      (-3048545724987/6250000000000000000000000000000000) * (T ^ 5 * t ^ 3) +
      (-9854601297051/200000000000000000000000000000000000) * (T ^ 6 * t ^ 2) := by
    simp only [precZ, precTh, precZeta, precZ', precTh', precZeta']; ring
  rw [e]
  have m := mono_bound hT hs
  have M := main_bound hT hs
  have M2 := abs_le.1 M
  clear e hT hs
  rw [abs_le]
  constructor
  · linarith [M2.1, (abs_le.1 (m 0 2)).2, (abs_le.1 (m 0 3)).2, (abs_le.1 (m 0 4)).2, (abs_le.1 (m 0 5)).1, (abs_le.1 (m 0 6)).2, (abs_le.1 (m 0 7)).2, (abs_le.1 (m 0 8)).2, (abs_le.1 (m 1 3)).2, (abs_le.1 (m 1 4)).1, (abs_le.1 (m 1 5)).1, (abs_le.1 (m 1 6)).2, (abs_le.1 (m 1 7)).1, (abs_le.1 (m 2 2)).2, (abs_le.1 (m 2 3)).2, (abs_le.1 (m 2 4)).2, (abs_le.1 (m 2 5)).1, (abs_le.1 (m 2 6)).2, (abs_le.1 (m 3 2)).2, (abs_le.1 (m 3 3)).1, (abs_le.1 (m 3 4)).2, (abs_le.1 (m 3 5)).2, (abs_le.1 (m 4 2)).1, (abs_le.1 (m 4 3)).1, (abs_le.1 (m 4 4)).1, (abs_le.1 (m 5 2)).1, (abs_le.1 (m 5 3)).2, (abs_le.1 (m 6 2)).2]
  · linarith [M2.2, (abs_le.1 (m 0 2)).1, (abs_le.1 (m 0 3)).1, (abs_le.1 (m 0 4)).1, (abs_le.1 (m 0 5)).2, (abs_le.1 (m 0 6)).1, (abs_le.1 (m 0 7)).1, (abs_le.1 (m 0 8)).1, (abs_le.1 (m 1 3)).1, (abs_le.1 (m 1 4)).2, (abs_le.1 (m 1 5)).2, (abs_le.1 (m 1 6)).1, (abs_le.1 (m 1 7)).2, (abs_le.1 (m 2 2)).1, (abs_le.1 (m 2 3)).1, (abs_le.1 (m 2 4)).1, (abs_le.1 (m 2 5)).2, (abs_le.1 (m 2 6)).1, (abs_le.1 (m 3 2)).1, (abs_le.1 (m 3 3)).2, (abs_le.1 (m 3 4)).1, (abs_le.1 (m 3 5)).1, (abs_le.1 (m 4 2)).2, (abs_le.1 (m 4 3)).2, (abs_le.1 (m 4 4)).2, (abs_le.1 (m 5 2)).2, (abs_le.1 (m 5 3)).1, (abs_le.1 (m 6 2)).1]

theorem precRate_z {T t : ℝ} (hT : |T| ≤ 1) (hs : |T + t| ≤ 1) :
    |precZ' T t + precZeta' T t - 2 * precZeta' (T + t) 0 - 2.350443e-11 * (precZeta' T t * precTh T t ^ 2) / 2| ≤ 0.0000708 := by
  have e : precZ' T t + precZeta' T t - 2 * precZeta' (T + t) 0 - 2.350443e-11 * (precZeta' T t * precTh T t ^ 2) / 2 =
      (91257514257356865007777/200000000000000000000000000000) * (T ^ 0 * t ^ 2) +
      (17849416871307661687480551/1000000000000000000000000000000) * (T ^ 0 * t ^ 3) +
      (8012219529063915105187437/4000000000000000000000000000000) * (T ^ 0 * t ^ 4) +
      (130635288899941851307731/100000000000000000000000000000000) * (T ^ 0 * t ^ 5) +
      (117219800751479016065991/2000000000000000000000000000000000) * (T ^ 0 * t ^ 6) +
      (-175340409250817005833/5000000000000000000000000000000000) * (T ^ 0 * t ^ 7) +
      (-111046084880755026519/100000000000000000000000000000000000) * (T ^ 0 * t ^ 8) +
      (13386964256050344101973093/500000000000000000000000000000) * (T ^ 1 * t ^ 2) +
      (886644086627314333993341/10000000000000000000000000000000) * (T ^ 1 * t ^ 3) +
      (59340252369950708757759/20000000000000000000000000000000) * (T ^ 1 * t ^ 4) +
      (-570056605122708955761/200000000000000000000000000000000) * (T ^ 1 * t ^ 5) +
      (-369908646804858646407/5000000000000000000000000000000000) * (T ^ 1 * t ^ 6) +
      (131454793855415613/50000000000000000000000000000000000) * (T ^ 1 * t ^ 7) +
      (266179161689854363878831/4000000000000000000000000000000) * (T ^ 2 * t ^ 2) +
      (-2108715630526904826021/50000000000000000000000000000000) * (T ^ 2 * t ^ 3) +
      (-1856903019529730934369/1000000000000000000000000000000000) * (T ^ 2 * t ^ 4) +
      (-1425764071324022997/10000000000000000000000000000000000) * (T ^ 2 * t ^ 5) +
      (-1708985468595469761/200000000000000000000000000000000000) * (T ^ 2 * t ^ 6) +
      (-83114735219352883431/6250000000000000000000000000000) * (T ^ 3 * t ^ 2) +
      (-1567511337763478037/100000000000000000000000000000000) * (T ^ 3 * t ^ 3) +
      (-4129984516585286541/10000000000000000000000000000000000) * (T ^ 3 * t ^ 4) +
      (11707517793639171/100000000000000000000000000000000000) * (T ^ 3 * t ^ 5) +
      (-15171919108281699309/2000000000000000000000000000000000) * (T ^ 4 * t ^ 2) +
      (20219349204189807/10000000000000000000000000000000000) * (T ^ 4 * t ^ 3) +
      (123242956679661/200000000000000000000000000000000000) * (T ^ 4 * t ^ 4) +
      (-839486457151293/5000000000000000000000000000000000) * (T ^ 5 * t ^ 2) +
      (53458445036241/100000000000000000000000000000000000) * (T ^ 5 * t ^ 3) +
      (15384521449353/200000000000000000000000000000000000) * (T ^ 6 * t ^ 2) := by
    simp only [precZ, precTh, precZeta, precZ', precTh', precZeta']; ring
  rw [e]
  have m := mono_bound hT hs
  have M := main_bound hT hs
  have M2 := abs_le.1 M
  clear e hT hs
  rw [abs_le]
  constructor
  · linarith [M2.1, (abs_le.1 (m 0 2)).1, (abs_le.1 (m 0 3)).1, (abs_le.1 (m 0 4)).1, (abs_le.1 (m 0 5)).1, (abs_le.1 (m 0 6)).1, (abs_le.1 (m 0 7)).2, (abs_le.1 (m 0 8)).2, (abs_le.1 (m 1 3)).1, (abs_le.1 (m 1 4)).1, (abs_le.1 (m 1 5)).2, (abs_le.1 (m 1 6)).2, (abs_le.1 (m 1 7)).1, (abs_le.1 (m 2 2)).1, (abs_le.1 (m 2 3)).2, (abs_le.1 (m 2 4)).2, (abs_le.1 (m 2 5)).2, (abs_le.1 (m 2 6)).2, (abs_le.1 (m 3 2)).2, (abs_le.1 (m 3 3)).2, (abs_le.1 (m 3 4)).2, (abs_le.1 (m 3 5)).1, (abs_le.1 (m 4 2)).2, (abs_le.1 (m 4 3)).1, (abs_le.1 (m 4 4)).1, (abs_le.1 (m 5 2)).2, (abs_le.1 (m 5 3)).1, (abs_le.1 (m 6 2)).1]
  · linarith [M2.2, (abs_le.1 (m 0 2)).2, (abs_le.1 (m 0 3)).2, (abs_le.1 (m 0 4)).2, (abs_le.1 (m 0 5)).2, (abs_le.1 (m 0 6)).2, (abs_le.1 (m 0 7)).1, (abs_le.1 (m 0 8)).1, (abs_le.1 (m 1 3)).2, (abs_le.1 (m 1 4)).2, (abs_le.1 (m 1 5)).1, (abs_le.1 (m 1 6)).1, (abs_le.1 (m 1 7)).2, (abs_le.1 (m 2 2)).2, (abs_le.1 (m 2 3)).1, (abs_le.1 (m 2 4)).1, (abs_le.1 (m 2 5)).1, (abs_le.1 (m 2 6)).1, (abs_le.1 (m 3 2)).1, (abs_le.1 (m 3 3)).1, (abs_le.1 (m 3 4)).1, (abs_le.1 (m 3 5)).2, (abs_le.1 (m 4 2)).1, (abs_le.1 (m 4 3)).2, (abs_le.1 (m 4 4)).2, (abs_le.1 (m 5 2)).1, (abs_le.1 (m 5 3)).2, (abs_le.1 (m 6 2)).2]

theorem prebnRate_x {T t : ℝ} (hT : |T| ≤ 1) (hs : |T + t| ≤ 1) :
    |prebnTh' (T + 1) t * prebnZ (T + 1) t - prebnZeta' (T + 1) t * prebnTh (T + 1) t + 2.350443e-11 * (-(prebnTh' (T + 1) t * prebnZ (T + 1) t ^ 3) / 6 + prebnZeta' (T + 1) t * prebnTh (T + 1) t ^ 3 / 6 + prebnZeta' (T + 1) t * prebnTh (T + 1) t * prebnZ (T + 1) t ^ 2 / 2)| ≤ 3.36 := by
  have e : prebnTh' (T + 1) t * prebnZ (T + 1) t - prebnZeta' (T + 1) t * prebnTh (T + 1) t + 2.350443e-11 * (-(prebnTh' (T + 1) t * prebnZ (T + 1) t ^ 3) / 6 + prebnZeta' (T + 1) t * prebnTh (T + 1) t ^ 3 / 6 + prebnZeta' (T + 1) t * prebnTh (T + 1) t * prebnZ (T + 1) t ^ 2 / 2) =
      (-1352234959/100000000000) * (T ^ 0 * t ^ 2) +
      (5314554287806404216888906528260543917247/40000000000000000000000000000000000000000) * (T ^ 0 * t ^ 3) +
      (481052374368859119960994380775864731099/8000000000000000000000000000000000000000) * (T ^ 0 * t ^ 4) +
      (248622895932769580098312072306715301201/40000000000000000000000000000000000000000) * (T ^ 0 * t ^ 5) +
      (285161361449058642395616374848273967/40000000000000000000000000000000000000000) * (T ^ 0 * t ^ 6) +
      (241763533702016294994369135781249/50000000000000000000000000000000000000000) * (T ^ 0 * t ^ 7) +
      (1011889490347824321024509582463/100000000000000000000000000000000000000000) * (T ^ 0 * t ^ 8) +
      (10789358295674814850624305303/25000000000000000000000000000000000000000) * (T ^ 0 * t ^ 9) +
      (-1673416837993452569161029/1250000000000000000000000000000000000000) * (T ^ 0 * t ^ 10) +
      (-133321034805457419556029/6250000000000000000000000000000000000000) * (T ^ 0 * t ^ 11) +
      (-70717481/25000000000) * (T ^ 1 * t ^ 2) +
      (52592782314588720373879701394892692333/400000000000000000000000000000000000000) * (T ^ 1 * t ^ 3) +
      (-1627910432292942601738913582704359143/40000000000000000000000000000000000000000) * (T ^ 1 * t ^ 4) +
      (120875616764093916989003031393364443/20000000000000000000000000000000000000000) * (T ^ 1 * t ^ 5) +
      (305725747039487566463450755879171/40000000000000000000000000000000000000000) * (T ^ 1 * t ^ 6) +
      (768672997508995790416925877621/50000000000000000000000000000000000000000) * (T ^ 1 * t ^ 7) +
      (-11359305741767848862415236091/100000000000000000000000000000000000000000) * (T ^ 1 * t ^ 8) +
      (-15091899347625238519613001/6250000000000000000000000000000000000000) * (T ^ 1 * t ^ 9) +
      (-254249211533742914823/625000000000000000000000000000000000000) * (T ^ 1 * t ^ 10) +
      (-150401481/100000000000) * (T ^ 2 * t ^ 2) +
      (-41981042356747878332361214352811679/10000000000000000000000000000000000000000) * (T ^ 2 * t ^ 3) +
      (-2707195158192834546351284831034033/40000000000000000000000000000000000000000) * (T ^ 2 * t ^ 4) +
      (157608875181889098744179909883/320000000000000000000000000000000000000) * (T ^ 2 * t ^ 5) +
      (-35146835742665703082725786853/20000000000000000000000000000000000000000) * (T ^ 2 * t ^ 6) +
      (-5152545831404251612024202031/50000000000000000000000000000000000000000) * (T ^ 2 * t ^ 7) +
      (-5134297405638008593438371/100000000000000000000000000000000000000000) * (T ^ 2 * t ^ 8) +
      (-13136879553862280596407/25000000000000000000000000000000000000000) * (T ^ 2 * t ^ 9) +
      (-8979/25000000000) * (T ^ 3 * t ^ 2) +
      (-737871749946677250329570396732041/10000000000000000000000000000000000000000) * (T ^ 3 * t ^ 3) +
      (-535781239760274896556774757259/8000000000000000000000000000000000000000) * (T ^ 3 * t ^ 4) +
      (-5542911308776096772261309967/2000000000000000000000000000000000000000) * (T ^ 3 * t ^ 5) +
      (-44168581973161132588917537/20000000000000000000000000000000000000000) * (T ^ 3 * t ^ 6) +
      (-2179658145288265747248429/50000000000000000000000000000000000000000) * (T ^ 3 * t ^ 7) +
      (-554746743641202713817/100000000000000000000000000000000000000000) * (T ^ 3 * t ^ 8) +
      (-176951805487688960132094803187/4000000000000000000000000000000000000000) * (T ^ 4 * t ^ 3) +
      (-249964446605272845253880807/8000000000000000000000000000000000000000) * (T ^ 4 * t ^ 4) +
      (-2157869764053246101776857/1600000000000000000000000000000000000000) * (T ^ 4 * t ^ 5) +
      (-16058743260868485886181/40000000000000000000000000000000000000000) * (T ^ 4 * t ^ 6) +
      (-111813233105963155013/25000000000000000000000000000000000000000) * (T ^ 4 * t ^ 7) +
      (-156474987393098479383564957/10000000000000000000000000000000000000000) * (T ^ 5 * t ^ 3) +
      (-2219233626642510069297/320000000000000000000000000000000000000) * (T ^ 5 * t ^ 4) +
      (-4630914943758008150277/20000000000000000000000000000000000000000) * (T ^ 5 * t ^ 5) +
      (-292247848976430017/40000000000000000000000000000000000000000) * (T ^ 5 * t ^ 6) +
      (-6914989177872222797639/2000000000000000000000000000000000000000) * (T ^ 6 * t ^ 3) +
      (-13049046130582030483/40000000000000000000000000000000000000000) * (T ^ 6 * t ^ 4) +
      (-593535118706586159/40000000000000000000000000000000000000000) * (T ^ 6 * t ^ 5) +
      (-3881394324203847039/10000000000000000000000000000000000000000) * (T ^ 7 * t ^ 3) +
      (2829149065994507/40000000000000000000000000000000000000000) * (T ^ 7 * t ^ 4) +
      (-473054396028729/40000000000000000000000000000000000000000) * (T ^ 8 * t ^ 3) := by
    simp only [prebnZ, prebnTh, prebnZeta, prebnZ', prebnTh', prebnZeta']; ring
  rw [e]
  have m := mono_bound hT hs
  clear e hT hs
  rw [abs_le]
  constructor
  · linarith [(abs_le.1 (m 0 2)).2, (abs_le.1 (m 0 3)).1, (abs_le.1 (m 0 4)).1, (abs_le.1 (m 0 5)).1, (abs_le.1 (m 0 6)).1, (abs_le.1 (m 0 7)).1, (abs_le.1 (m 0 8)).1, (abs_le.1 (m 0 9)).1, (abs_le.1 (m 0 10)).2, (abs_le.1 (m 0 11)).2, (abs_le.1 (m 1 2)).2, (abs_le.1 (m 1 3)).1, (abs_le.1 (m 1 4)).2, (abs_le.1 (m 1 5)).1, (abs_le.1 (m 1 6)).1, (abs_le.1 (m 1 7)).1, (abs_le.1 (m 1 8)).2, (abs_le.1 (m 1 9)).2, (abs_le.1 (m 1 10)).2, (abs_le.1 (m 2 2)).2, (abs_le.1 (m 2 3)).2, (abs_le.1 (m 2 4)).2, (abs_le.1 (m 2 5)).1, (abs_le.1 (m 2 6)).2, (abs_le.1 (m 2 7)).2, (abs_le.1 (m 2 8)).2, (abs_le.1 (m 2 9)).2, (abs_le.1 (m 3 2)).2, (abs_le.1 (m 3 3)).2, (abs_le.1 (m 3 4)).2, (abs_le.1 (m 3 5)).2, (abs_le.1 (m 3 6)).2, (abs_le.1 (m 3 7)).2, (abs_le.1 (m 3 8)).2, (abs_le.1 (m 4 3)).2, (abs_le.1 (m 4 4)).2, (abs_le.1 (m 4 5)).2, (abs_le.1 (m 4 6)).2, (abs_le.1 (m 4 7)).2, (abs_le.1 (m 5 3)).2, (abs_le.1 (m 5 4)).2, (abs_le.1 (m 5 5)).2, (abs_le.1 (m 5 6)).2, (abs_le.1 (m 6 3)).2, (abs_le.1 (m 6 4)).2, (abs_le.1 (m 6 5)).2, (abs_le.1 (m 7 3)).2, (abs_le.1 (m 7 4)).1, (abs_le.1 (m 8 3)).2]
  · linarith [(abs_le.1 (m 0 2)).1, (abs_le.1 (m 0 3)).2, (abs_le.1 (m 0 4)).2, (abs_le.1 (m 0 5)).2, (abs_le.1 (m 0 6)).2, (abs_le.1 (m 0 7)).2, (abs_le.1 (m 0 8)).2, (abs_le.1 (m 0 9)).2, (abs_le.1 (m 0 10)).1, (abs_le.1 (m 0 11)).1, (abs_le.1 (m 1 2)).1, (abs_le.1 (m 1 3)).2, (abs_le.1 (m 1 4)).1, (abs_le.1 (m 1 5)).2, (abs_le.1 (m 1 6)).2, (abs_le.1 (m 1 7)).2, (abs_le.1 (m 1 8)).1, (abs_le.1 (m 1 9)).1, (abs_le.1 (m 1 10)).1, (abs_le.1 (m 2 2)).1, (abs_le.1 (m 2 3)).1, (abs_le.1 (m 2 4)).1, (abs_le.1 (m 2 5)).2, (abs_le.1 (m 2 6)).1, (abs_le.1 (m 2 7)).1, (abs_le.1 (m 2 8)).1, (abs_le.1 (m 2 9)).1, (abs_le.1 (m 3 2)).1, (abs_le.1 (m 3 3)).1, (abs_le.1 (m 3 4)).1, (abs_le.1 (m 3 5)).1, (abs_le.1 (m 3 6)).1, (abs_le.1 (m 3 7)).1, (abs_le.1 (m 3 8)).1, (abs_le.1 (m 4 3)).1, (abs_le.1 (m 4 4)).1, (abs_le.1 (m 4 5)).1, (abs_le.1 (m 4 6)).1, (abs_le.1 (m 4 7)).1, (abs_le.1 (m 5 3)).1, (abs_le.1 (m 5 4)).1, (abs_le.1 (m 5 5)).1, (abs_le.1 (m 5 6)).1, (abs_le.1 (m 6 3)).1, (abs_le.1 (m 6 4)).1, (abs_le.1 (m 6 5)).1, (abs_le.1 (m 7 3)).1, (abs_le.1 (m 7 4)).2, (abs_le.1 (m 8 3)).1]

theorem prebnRate_y {T t : ℝ} (hT : |T| ≤ 1) (hs : |T + t| ≤ 1) :
    |prebnTh' (T + 1) t - prebnTh' ((T + 1) + t) 0 + 2.350443e-11 * (prebnZeta' (T + 1) t * prebnTh (T + 1) t * prebnZ (T + 1) t - prebnTh' (T + 1) t * prebnZ (T + 1) t ^ 2 / 2) - 9.16e-6 * t ^ 4| ≤ 0.000541 := by
  have e : prebnTh' (T + 1) t - prebnTh' ((T + 1) + t) 0 + 2.350443e-11 * (prebnZeta' (T + 1) t * prebnTh (T + 1) t * prebnZ (T + 1) t - prebnTh' (T + 1) t * prebnZ (T + 1) t ^ 2 / 2) - 9.16e-6 * t ^ 4 =
      (3974474421363149140721877562637/40000000000000000000000000000000000) * (T ^ 0 * t ^ 2) +
      (656174783833492866966400647393/10000000000000000000000000000000000) * (T ^ 0 * t ^ 3) +
      (-134698759996614763036497186329/200000000000000000000000000000000000) * (T ^ 0 * t ^ 4) +
      (513418487583822091713188823/100000000000000000000000000000000000) * (T ^ 0 * t ^ 5) +
      (24099315678751123055997/100000000000000000000000000000000000) * (T ^ 0 * t ^ 6) +
      (-2047162943144257011/125000000000000000000000000000000) * (T ^ 0 * t ^ 7) +
      (-2982124252410583833/6250000000000000000000000000000000) * (T ^ 0 * t ^ 8) +
      (1968509699606222143238507347413/20000000000000000000000000000000000) * (T ^ 1 * t ^ 2) +
      (-465875538509218086691361739/10000000000000000000000000000000000) * (T ^ 1 * t ^ 3) +
      (211072801673834987821715961/50000000000000000000000000000000000) * (T ^ 1 * t ^ 4) +
      (314013329855604681005919/100000000000000000000000000000000000) * (T ^ 1 * t ^ 5) +
      (-1945771692271046273043/50000000000000000000000000000000000) * (T ^ 1 * t ^ 6) +
      (556718847095241/125000000000000000000000000000000) * (T ^ 1 * t ^ 7) +
      (-56028019324815587226921069/1600000000000000000000000000000000) * (T ^ 2 * t ^ 2) +
      (-188728286819220315974253/5000000000000000000000000000000000) * (T ^ 2 * t ^ 3) +
      (-129918995045653093849797/100000000000000000000000000000000000) * (T ^ 2 * t ^ 4) +
      (94925812712597798169/100000000000000000000000000000000000) * (T ^ 2 * t ^ 5) +
      (-759970102868123283/100000000000000000000000000000000000) * (T ^ 2 * t ^ 6) +
      (-92129195604855796283241/2000000000000000000000000000000000) * (T ^ 3 * t ^ 2) +
      (81338650451881612023/5000000000000000000000000000000000) * (T ^ 3 * t ^ 3) +
      (-30292837834347765009/50000000000000000000000000000000000) * (T ^ 3 * t ^ 4) +
      (2724190257905073/100000000000000000000000000000000000) * (T ^ 3 * t ^ 5) +
      (-88913986717902153081/8000000000000000000000000000000000) * (T ^ 4 * t ^ 2) +
      (67804377466465689/10000000000000000000000000000000000) * (T ^ 4 * t ^ 3) +
      (-4544004701830269/200000000000000000000000000000000000) * (T ^ 4 * t ^ 4) +
      (-14844013936690779/20000000000000000000000000000000000) * (T ^ 5 * t ^ 2) +
      (2723183302269/10000000000000000000000000000000000) * (T ^ 5 * t ^ 3) +
      (-597278122059/40000000000000000000000000000000000) * (T ^ 6 * t ^ 2) := by
    simp only [prebnZ, prebnTh, prebnZeta, prebnZ', prebnTh', prebnZeta']; ring
  rw [e]
  have m := mono_bound hT hs
  have M := main_bound hT hs
  have M2 := abs_le.1 M
  clear e hT hs
  rw [abs_le]
  constructor
  · linarith [M2.1, (abs_le.1 (m 0 2)).1, (abs_le.1 (m 0 3)).1, (abs_le.1 (m 0 4)).2, (abs_le.1 (m 0 5)).1, (abs_le.1 (m 0 6)).1, (abs_le.1 (m 0 7)).2, (abs_le.1 (m 0 8)).2, (abs_le.1 (m 1 3)).2, (abs_le.1 (m 1 4)).1, (abs_le.1 (m 1 5)).1, (abs_le.1 (m 1 6)).2, (abs_le.1 (m 1 7)).1, (abs_le.1 (m 2 2)).2, (abs_le.1 (m 2 3)).2, (abs_le.1 (m 2 4)).2, (abs_le.1 (m 2 5)).1, (abs_le.1 (m 2 6)).2, (abs_le.1 (m 3 2)).2, (abs_le.1 (m 3 3)).1, (abs_le.1 (m 3 4)).2, (abs_le.1 (m 3 5)).1, (abs_le.1 (m 4 2)).2, (abs_le.1 (m 4 3)).1, (abs_le.1 (m 4 4)).2, (abs_le.1 (m 5 2)).2, (abs_le.1 (m 5 3)).1, (abs_le.1 (m 6 2)).2]
  · linarith [M2.2, (abs_le.1 (m 0 2)).2, (abs_le.1 (m 0 3)).2, (abs_le.1 (m 0 4)).1, (abs_le.1 (m 0 5)).2, (abs_le.1 (m 0 6)).2, (abs_le.1 (m 0 7)).1, (abs_le.1 (m 0 8)).1, (abs_le.1 (m 1 3)).1, (abs_le.1 (m 1 4)).2, (abs_le.1 (m 1 5)).2, (abs_le.1 (m 1 6)).1, (abs_le.1 (m 1 7)).2, (abs_le.1 (m 2 2)).1, (abs_le.1 (m 2 3)).1, (abs_le.1 (m 2 4)).1, (abs_le.1 (m 2 5)).2, (abs_le.1 (m 2 6)).1, (abs_le.1 (m 3 2)).1, (abs_le.1 (m 3 3)).2, (abs_le.1 (m 3 4)).1, (abs_le.1 (m 3 5)).2, (abs_le.1 (m 4 2)).1, (abs_le.1 (m 4 3)).2, (abs_le.1 (m 4 4)).1, (abs_le.1 (m 5 2)).1, (abs_le.1 (m 5 3)).2, (abs_le.1 (m 6 2)).1]

theorem prebnRate_z {T t : ℝ} (hT : |T| ≤ 1) (hs : |T + t| ≤ 1) :
    |prebnZ' (T + 1) t + prebnZeta' (T + 1) t - 2 * prebnZeta' ((T + 1) + t) 0 - 2.350443e-11 * (prebnZeta' (T + 1) t * prebnTh (T + 1) t ^ 2) / 2| ≤ 0.0001763 := by
  have e : prebnZ' (T + 1) t + prebnZeta' (T + 1) t - 2 * prebnZeta' ((T + 1) + t) 0 - 2.350443e-11 * (prebnZeta' (T + 1) t * prebnTh (T + 1) t ^ 2) / 2 =
      (214741407166994261597510124823/8000000000000000000000000000000000) * (T ^ 0 * t ^ 2) +
      (17818746098359243839248106657/1000000000000000000000000000000000) * (T ^ 0 * t ^ 3) +
      (79900223506593477720623978967/40000000000000000000000000000000000) * (T ^ 0 * t ^ 4) +
      (1046124917377227597756537/800000000000000000000000000000000) * (T ^ 0 * t ^ 5) +
      (1465313019536971607362929/25000000000000000000000000000000000) * (T ^ 0 * t ^ 6) +
      (-876283217937294580863/25000000000000000000000000000000000) * (T ^ 0 * t ^ 7) +
      (-13858655593147786971/12500000000000000000000000000000000) * (T ^ 0 * t ^ 8) +
      (21382750127615292058376426637/800000000000000000000000000000000) * (T ^ 1 * t ^ 2) +
      (195380633064659900028317529/2000000000000000000000000000000000) * (T ^ 1 * t ^ 3) +
      (14862450190516812787536609/5000000000000000000000000000000000) * (T ^ 1 * t ^ 4) +
      (-50281287189866958811353/20000000000000000000000000000000000) * (T ^ 1 * t ^ 5) +
      (-927085731464973312351/12500000000000000000000000000000000) * (T ^ 1 * t ^ 6) +
      (-207827221509522063/25000000000000000000000000000000000) * (T ^ 1 * t ^ 7) +
      (586407870756360635977698777/8000000000000000000000000000000000) * (T ^ 2 * t ^ 2) +
      (-28496257569115839037341/1000000000000000000000000000000000) * (T ^ 2 * t ^ 3) +
      (-28732761133685501377323/20000000000000000000000000000000000) * (T ^ 2 * t ^ 4) +
      (-17667752970169602681/20000000000000000000000000000000000) * (T ^ 2 * t ^ 5) +
      (-511615320045525981/25000000000000000000000000000000000) * (T ^ 2 * t ^ 6) +
      (-4897686051119541624033/2000000000000000000000000000000000) * (T ^ 3 * t ^ 2) +
      (-3112772512150044243/100000000000000000000000000000000) * (T ^ 3 * t ^ 3) +
      (-944378503681618221/1000000000000000000000000000000000) * (T ^ 3 * t ^ 4) +
      (71330724716097/20000000000000000000000000000000000) * (T ^ 3 * t ^ 5) +
      (-106665882865820781303/8000000000000000000000000000000000) * (T ^ 4 * t ^ 2) +
      (-507415132072191/250000000000000000000000000000000) * (T ^ 4 * t ^ 3) +
      (-4163797371212289/40000000000000000000000000000000000) * (T ^ 4 * t ^ 4) +
      (-10479462217931007/4000000000000000000000000000000000) * (T ^ 5 * t ^ 2) +
      (263035725687/400000000000000000000000000000000) * (T ^ 5 * t ^ 3) +
      (-739005134073/8000000000000000000000000000000000) * (T ^ 6 * t ^ 2) := by
    simp only [prebnZ, prebnTh, prebnZeta, prebnZ', prebnTh', prebnZeta']; ring
  rw [e]
  have m := mono_bound hT hs
  have M := main_bound hT hs
  have M2 := abs_le.1 M
  clear e hT hs
  rw [abs_le]
  constructor
  · linarith [M2.1, (abs_le.1 (m 0 2)).1, (abs_le.1 (m 0 3)).2, (abs_le.1 (m 0 4)).1, (abs_le.1 (m 0 5)).1, (abs_le.1 (m 0 6)).1, (abs_le.1 (m 0 7)).2, (abs_le.1 (m 0 8)).2, (abs_le.1 (m 1 3)).1, (abs_le.1 (m 1 4)).1, (abs_le.1 (m 1 5)).2, (abs_le.1 (m 1 6)).2, (abs_le.1 (m 1 7)).2, (abs_le.1 (m 2 2)).1, (abs_le.1 (m 2 3)).2, (abs_le.1 (m 2 4)).2, (abs_le.1 (m 2 5)).2, (abs_le.1 (m 2 6)).2, (abs_le.1 (m 3 2)).2, (abs_le.1 (m 3 3)).2, (abs_le.1 (m 3 4)).2, (abs_le.1 (m 3 5)).1, (abs_le.1 (m 4 2)).2, (abs_le.1 (m 4 3)).2, (abs_le.1 (m 4 4)).2, (abs_le.1 (m 5 2)).2, (abs_le.1 (m 5 3)).1, (abs_le.1 (m 6 2)).2]
  · linarith [M2.2, (abs_le.1 (m 0 2)).2, (abs_le.1 (m 0 3)).1, (abs_le.1 (m 0 4)).2, (abs_le.1 (m 0 5)).2, (abs_le.1 (m 0 6)).2, (abs_le.1 (m 0 7)).1, (abs_le.1 (m 0 8)).1, (abs_le.1 (m 1 3)).2, (abs_le.1 (m 1 4)).2, (abs_le.1 (m 1 5)).1, (abs_le.1 (m 1 6)).1, (abs_le.1 (m 1 7)).1, (abs_le.1 (m 2 2)).2, (abs_le.1 (m 2 3)).1, (abs_le.1 (m 2 4)).1, (abs_le.1 (m 2 5)).1, (abs_le.1 (m 2 6)).1, (abs_le.1 (m 3 2)).1, (abs_le.1 (m 3 3)).1, (abs_le.1 (m 3 4)).1, (abs_le.1 (m 3 5)).2, (abs_le.1 (m 4 2)).1, (abs_le.1 (m 4 3)).1, (abs_le.1 (m 4 4)).1, (abs_le.1 (m 5 2)).1, (abs_le.1 (m 5 3)).2, (abs_le.1 (m 6 2)).1]

end Sla
