import Verif.Model.FpCode
import Verif.Lemmas.Fp
import Verif.Props.FpTime

/-
Property theorems C90: time and angle fields in single precision.
-/
namespace Sla.Props
open Sla.Fp

private theorem rep32 {n : ℤ} (h0 : 0 ≤ n) (h : n ≤ 2 ^ 24) : binary32.Rep (n : ℝ) :=
  rep_int (by norm_num [binary32]) (by rw [abs_of_nonneg h0]; simpa [binary32] using h)

/-- `float` nearest to the literal for one arcsecond. -/
theorem fp_arcsec32 (S : Rounding binary32) : S 0.484813681109535994e-5 = 10661166 / 2 ^ 41 := by
  have h := S.eq_of_near (x := 0.484813681109535994e-5) (m := 10661166) (e := -41)
    (by simp [binary32]) (by norm_num [binary32]) (by norm_num [binary32])
    (by rw [abs_lt]; norm_num)
  rw [h]; norm_num

/-- The factor of `cr2af`. -/
theorem fp_factor32 (S : Rounding binary32) (D : Rounding binary64) :
    S (D (15 / D 6.283185307179586476925287)) = 10013163 / 2 ^ 22 := by
  rw [fp_factor64]
  have h := S.eq_of_near (x := 5375776068021243 / 2 ^ 51) (m := 10013163) (e := -22)
    (by simp [binary32]) (by norm_num [binary32]) (by norm_num [binary32])
    (by rw [abs_lt]; norm_num)
  rw [h]; norm_num

/-- The interval that `ctf2d` computes from integer fields and the float nearest to the seconds. -/
private theorem ctf2d_near (S : Rounding binary32) (p : ℕ) (h m s f : Int) (hh : 0 ≤ h) (hh' : h ≤ 23) (hm : 0 ≤ m)
    (hm' : m ≤ 59) (hs : 0 ≤ s) (hs' : s ≤ 59) (hf : 0 ≤ f) (hf' : f < 10 ^ p) :
    let d := Fp.dtf2d S h m (S ((s : ℝ) + f / 10 ^ p))
    0 ≤ d ∧ d ≤ 1 ∧ |86400 * d - (((h : ℝ) * 60 + m) * 60 + (s + f / 10 ^ p))| ≤ 0.0091 := by
  intro d
  have hP : (0 : ℝ) < 10 ^ p := by positivity
  have hfr : (0 : ℝ) ≤ (f : ℝ) / 10 ^ p := by have : (0 : ℝ) ≤ f := by exact_mod_cast hf
                                              positivity
  have hfr' : (f : ℝ) / 10 ^ p < 1 := by rw [div_lt_one hP]; exact_mod_cast hf'
  have hsr : (0 : ℝ) ≤ s ∧ (s : ℝ) ≤ 59 := ⟨by exact_mod_cast hs, by exact_mod_cast hs'⟩
  obtain ⟨x, hx⟩ : ∃ x : ℝ, x = (s : ℝ) + f / 10 ^ p := ⟨_, rfl⟩
  have hx0 : 0 ≤ x := by rw [hx]; linarith [hsr.1]
  have hx1 : x < 60 := by rw [hx]; linarith [hsr.2]
  rw [← hx]
  have e1 : S ((h : Int) : ℝ) = h := S.eq_self (rep32 hh (by norm_num; omega))
  have e2 : S (60 * (h : ℝ)) = ((60 * h : Int) : ℝ) := by
    rw [show (60 : ℝ) * h = ((60 * h : Int) : ℝ) by push_cast; ring]
    exact S.eq_self (rep32 (by omega) (by norm_num; omega))
  have e3 : S ((m : Int) : ℝ) = m := S.eq_self (rep32 hm (by norm_num; omega))
  have e4 : S (((60 * h : Int) : ℝ) + m) = ((60 * h + m : Int) : ℝ) := by
    rw [show ((60 * h : Int) : ℝ) + m = ((60 * h + m : Int) : ℝ) by push_cast; ring]
    exact S.eq_self (rep32 (by omega) (by norm_num; omega))
  have e5 : S (60 * ((60 * h + m : Int) : ℝ)) = ((60 * (60 * h + m) : Int) : ℝ) := by
    rw [show (60 : ℝ) * ((60 * h + m : Int) : ℝ) = ((60 * (60 * h + m) : Int) : ℝ) by push_cast; ring]
    exact S.eq_self (rep32 (by omega) (by norm_num; omega))
  have hd : d = S (S (((60 * (60 * h + m) : Int) : ℝ) + S x) / 86400) := by
    show Fp.dtf2d S h m (S ((s : ℝ) + f / 10 ^ p)) = _
    unfold Fp.dtf2d
    rw [← hx, e1, e2, e3, e4, e5]
  obtain ⟨a, ha⟩ : ∃ a : ℝ, a = ((60 * (60 * h + m) : Int) : ℝ) := ⟨_, rfl⟩
  have ha0 : 0 ≤ a := by rw [ha]; exact_mod_cast (by omega : 0 ≤ 60 * (60 * h + m))
  have ha1 : a ≤ 86340 := by rw [ha]; exact_mod_cast (by omega : 60 * (60 * h + m) ≤ 86340)
  have ha2 : ((h : ℝ) * 60 + m) * 60 = a := by rw [ha]; push_cast; ring
  rw [← ha] at hd
  rw [ha2]
  have hR0 := S.nonneg hx0
  have hR1 : S x ≤ 60 := S.le_rep hx1.le (by exact_mod_cast rep32 (n := 60) (by norm_num) (by norm_num))
  have hRe := S.abs_sub_le x (k := 6) (by norm_num [binary32]) (by rw [abs_of_nonneg hx0]; norm_num; linarith)
  have hb0 : 0 ≤ S (a + S x) := S.nonneg (by linarith)
  have hb1 : S (a + S x) ≤ 86400 := S.le_rep (by linarith) (by exact_mod_cast rep32 (n := 86400) (by norm_num) (by norm_num))
  have hbe := S.abs_sub_le (a + S x) (k := 17) (by norm_num [binary32])
    (by rw [abs_of_nonneg (by linarith)]; norm_num; linarith)
  obtain ⟨b, hb⟩ : ∃ b, b = S (a + S x) := ⟨_, rfl⟩
  rw [← hb] at hb0 hb1 hbe hd
  have hc0 : 0 ≤ b / 86400 := by positivity
  have hc1 : b / 86400 ≤ 1 := by rw [div_le_one (by norm_num)]; exact hb1
  have hce := S.abs_sub_le (b / 86400) (k := 1) (by norm_num [binary32])
    (by rw [abs_of_nonneg hc0]; norm_num; linarith)
  rw [← hd] at hce
  refine ⟨by rw [hd]; exact S.nonneg hc0, by
    rw [hd]; exact S.le_rep hc1 (by exact_mod_cast rep32 (n := 1) (by norm_num) (by norm_num)), ?_⟩
  clear * - hRe hbe hce
  rw [abs_le] at *
  norm_num [binary32] at *
  constructor <;> linarith [hRe.1, hRe.2, hbe.1, hbe.2, hce.1, hce.2]

private theorem pow_one_or {n : ℕ} (h : n ≤ 1) : (10 : ℝ) ^ n ≤ 10 := by
  calc (10 : ℝ) ^ n ≤ 10 ^ 1 := pow_le_pow_right₀ (by norm_num) h
    _ = 10 := by norm_num

/-- C90: fields to days and back in single precision (`ctf2d`, `cd2tf`) is the identity with no or one decimal place. -/
theorem C90_days_round_trip (S : Rounding binary32) (D : Rounding binary64) (ndp : Int) (hp : ndp ≤ 1) (h m s f : Int)
    (hh : 0 ≤ h) (hh' : h ≤ 23) (hm : 0 ≤ m) (hm' : m ≤ 59) (hs : 0 ≤ s) (hs' : s ≤ 59) (hf : 0 ≤ f)
    (hf' : f < 10 ^ ndp.toNat) :
    Fp.cd2tf D ndp (Fp.dtf2d S h m (S ((s : ℝ) + f / 10 ^ ndp.toNat))) = ⟨h, m, s, f, true⟩ := by
  obtain ⟨d0, -, de⟩ := ctf2d_near S ndp.toNat h m s f hh hh' hm hm' hs hs' hf hf'
  unfold Fp.cd2tf
  generalize Fp.dtf2d S h m (S ((s : ℝ) + f / 10 ^ ndp.toNat)) = d at *
  have hN9 : (10 : ℤ) ^ ndp.toNat ≤ 10 ^ 1 := pow_le_pow_right₀ (by norm_num) (by omega)
  have hN0 : (0 : ℝ) < 10 ^ ndp.toNat := by positivity
  have hNr : (10 : ℝ) ^ ndp.toNat ≤ 10 := pow_one_or (by omega)
  refine dd2tf_of_near D ndp (by omega) d d0 h m s f hh hm hm' hs hs' hf hf' ?_ ?_
  · generalize (10 : ℤ) ^ ndp.toNat = N at *
    nlinarith
  · push_cast
    generalize (10 : ℝ) ^ ndp.toNat = N at *
    have e : N * 86400 * d - ((((h : ℝ) * 60 + m) * 60 + s) * N + f) =
        N * (86400 * d - (((h : ℝ) * 60 + m) * 60 + (s + f / N))) := by field_simp; ring
    rw [e, abs_mul, abs_of_pos hN0]
    calc N * |86400 * d - (((h : ℝ) * 60 + m) * 60 + (s + f / N))| ≤ 10 * 0.0091 :=
          mul_le_mul hNr de (abs_nonneg _) (by norm_num)
      _ ≤ 3 / 8 := by norm_num

/-- C90: the same through radians (`ctf2r`, `cr2tf`). -/
theorem C90_hms_round_trip (S : Rounding binary32) (D : Rounding binary64) (ndp : Int) (hp : ndp ≤ 1) (h m s f : Int)
    (hh : 0 ≤ h) (hh' : h ≤ 23) (hm : 0 ≤ m) (hm' : m ≤ 59) (hs : 0 ≤ s) (hs' : s ≤ 59) (hf : 0 ≤ f)
    (hf' : f < 10 ^ ndp.toNat) :
    Fp.cr2tf S D ndp (Fp.dtf2r S h m (S ((s : ℝ) + f / 10 ^ ndp.toNat))) = ⟨h, m, s, f, true⟩ := by
  obtain ⟨d0, d1, de⟩ := ctf2d_near S ndp.toNat h m s f hh hh' hm hm' hs hs' hf hf'
  unfold Fp.cr2tf Fp.dtf2r Fp.cd2tf
  rw [fp_2pi32]
  generalize Fp.dtf2d S h m (S ((s : ℝ) + f / 10 ^ ndp.toNat)) = d at *
  have hN9 : (10 : ℤ) ^ ndp.toNat ≤ 10 ^ 1 := pow_le_pow_right₀ (by norm_num) (by omega)
  have hN0 : (0 : ℝ) < 10 ^ ndp.toNat := by positivity
  have hNr : (10 : ℝ) ^ ndp.toNat ≤ 10 := pow_one_or (by omega)
  obtain ⟨A, hA⟩ : ∃ A : ℝ, A = 13176795 / 2 ^ 21 := ⟨_, rfl⟩
  have hA1 : 6.28 < A := by rw [hA]; norm_num
  have hA2 : A < 6.29 := by rw [hA]; norm_num
  rw [← hA]
  have hr0 : 0 ≤ S (d * A) := S.nonneg (mul_nonneg d0 (by linarith))
  have hre := S.abs_sub_le (d * A) (k := 3) (by norm_num [binary32])
    (by rw [abs_of_nonneg (mul_nonneg d0 (by linarith))]; norm_num at hA2 ⊢; nlinarith)
  obtain ⟨r, hr⟩ : ∃ r, r = S (d * A) := ⟨_, rfl⟩
  rw [← hr] at hr0 hre ⊢
  have hA0 : 0 < A := by linarith
  have hq0 : 0 ≤ r / A := by positivity
  have hqd : |r / A - d| ≤ 1 / 2 ^ 24 := by
    have e : r / A - d = (r - d * A) / A := by field_simp
    rw [e, abs_div, abs_of_pos hA0, div_le_iff₀ hA0, abs_sub_comm]
    refine hre.trans ?_
    norm_num [binary32] at hA1 ⊢
    linarith
  have hqe := S.abs_sub_le (r / A) (k := 1) (by norm_num [binary32])
    (by rw [abs_of_nonneg hq0]; rw [abs_le] at hqd; norm_num at hqd ⊢; linarith [hqd.2])
  have hd' : |86400 * S (r / A) - (((h : ℝ) * 60 + m) * 60 + (s + f / 10 ^ ndp.toNat))| ≤ 0.02 := by
    generalize S (r / A) = q at *
    generalize r / A = q' at *
    generalize (((h : ℝ) * 60 + m) * 60 + (s + f / 10 ^ ndp.toNat)) = t at *
    clear * - hqd hqe de
    rw [abs_le] at *
    norm_num [binary32] at *
    constructor <;> linarith [hqd.1, hqd.2, hqe.1, hqe.2, de.1, de.2]
  have hR0 := S.nonneg hq0
  generalize S (r / A) = q at *
  refine dd2tf_of_near D ndp (by omega) q hR0 h m s f hh hm hm' hs hs' hf hf' ?_ ?_
  · generalize (10 : ℤ) ^ ndp.toNat = N at *
    nlinarith
  · push_cast
    generalize (10 : ℝ) ^ ndp.toNat = N at *
    have e : N * 86400 * q - ((((h : ℝ) * 60 + m) * 60 + s) * N + f) =
        N * (86400 * q - (((h : ℝ) * 60 + m) * 60 + (s + f / N))) := by field_simp; ring
    rw [e, abs_mul, abs_of_pos hN0]
    calc N * |86400 * q - (((h : ℝ) * 60 + m) * 60 + (s + f / N))| ≤ 10 * 0.02 :=
          mul_le_mul hNr hd' (abs_nonneg _) (by norm_num)
      _ ≤ 3 / 8 := by norm_num

/-- C90: whole arcseconds to radians and back in single precision (`caf2r`, `cr2af`) is the identity. -/
theorem C90_dms_round_trip (S : Rounding binary32) (D : Rounding binary64) (ndp : Int) (hp : ndp ≤ 0) (d m s : Int)
    (hd : 0 ≤ d) (hd' : d ≤ 359) (hm : 0 ≤ m) (hm' : m ≤ 59) (hs : 0 ≤ s) (hs' : s ≤ 59) :
    Fp.cr2af S D ndp (Fp.daf2r S d m s) = ⟨d, m, s, 0, true⟩ := by
  have hn0 : ndp.toNat = 0 := by omega
  have hsr : (0 : ℝ) ≤ s ∧ (s : ℝ) ≤ 59 := ⟨by exact_mod_cast hs, by exact_mod_cast hs'⟩
  unfold Fp.cr2af Fp.daf2r Fp.cd2tf
  rw [fp_factor32, fp_arcsec32]
  have e1 : S ((d : Int) : ℝ) = d := S.eq_self (rep32 hd (by norm_num; omega))
  have e2 : S ((d : ℝ) * 60) = ((d * 60 : Int) : ℝ) := by
    rw [show (d : ℝ) * 60 = ((d * 60 : Int) : ℝ) by push_cast; ring]
    exact S.eq_self (rep32 (by omega) (by norm_num; omega))
  have e3 : S ((m : Int) : ℝ) = m := S.eq_self (rep32 hm (by norm_num; omega))
  have e4 : S (((d * 60 : Int) : ℝ) + m) = ((d * 60 + m : Int) : ℝ) := by
    rw [show ((d * 60 : Int) : ℝ) + m = ((d * 60 + m : Int) : ℝ) by push_cast; ring]
    exact S.eq_self (rep32 (by omega) (by norm_num; omega))
  have e5 : S (((d * 60 + m : Int) : ℝ) * 60) = (((d * 60 + m) * 60 : Int) : ℝ) := by
    rw [show ((d * 60 + m : Int) : ℝ) * 60 = (((d * 60 + m) * 60 : Int) : ℝ) by push_cast; ring]
    exact S.eq_self (rep32 (by omega) (by norm_num; omega))
  have e6 : S ((((d * 60 + m) * 60 : Int) : ℝ) + s) = (((d * 60 + m) * 60 + s : Int) : ℝ) := by
    rw [show (((d * 60 + m) * 60 : Int) : ℝ) + s = (((d * 60 + m) * 60 + s : Int) : ℝ) by push_cast; ring]
    exact S.eq_self (rep32 (by omega) (by norm_num; omega))
  rw [e1, e2, e3, e4, e5, e6]
  obtain ⟨b, hb⟩ : ∃ b : ℝ, b = (((d * 60 + m) * 60 + s : Int) : ℝ) := ⟨_, rfl⟩
  have hb0 : 0 ≤ b := by rw [hb]; exact_mod_cast (by omega : 0 ≤ (d * 60 + m) * 60 + s)
  have hb1 : b ≤ 1296000 := by rw [hb]; exact_mod_cast (by omega : (d * 60 + m) * 60 + s ≤ 1296000)
  rw [← hb]
  have hr0 : 0 ≤ b * (10661166 / 2 ^ 41) := by positivity
  have hre := S.abs_sub_le (b * (10661166 / 2 ^ 41)) (k := 3) (by norm_num [binary32])
    (by rw [abs_of_nonneg hr0]; norm_num; linarith)
  have hRr0 := S.nonneg hr0
  obtain ⟨r, hr⟩ : ∃ r, r = S (b * (10661166 / 2 ^ 41)) := ⟨_, rfl⟩
  rw [← hr] at hre hRr0 ⊢
  have hq0 : 0 ≤ r * (10013163 / 2 ^ 22) := by positivity
  have hqe := S.abs_sub_le (r * (10013163 / 2 ^ 22)) (k := 4) (by norm_num [binary32])
    (by
      rw [abs_of_nonneg hq0]
      clear * - hre hb1
      rw [abs_le] at hre
      norm_num [binary32] at *
      linarith [hre.1, hre.2])
  have hR0' := S.nonneg hq0
  obtain ⟨q, hq⟩ : ∃ q, q = S (r * (10013163 / 2 ^ 22)) := ⟨_, rfl⟩
  rw [← hq] at hqe hR0' ⊢
  have hd' : |86400 * q - b| ≤ 0.2 := by
    clear * - hqe hre hb0 hb1
    rw [abs_le] at *
    norm_num [binary32] at *
    constructor <;> linarith [hre.1, hre.2, hqe.1, hqe.2]
  refine dd2tf_of_near D ndp (by omega) q hR0' d m s 0 hd hm hm' hs hs' le_rfl (by positivity) ?_ ?_
  · rw [hn0]; norm_num; omega
  · rw [hn0]
    have e : (((((d * 60 + m) * 60 + s) * 10 ^ 0 + 0 : Int)) : ℝ) = b := by rw [hb]; push_cast; ring
    rw [e, pow_zero, one_mul]
    exact hd'.trans (by norm_num)

private theorem near32 (S : Rounding binary32) (x : ℝ) (m e : ℤ) (h1 : -149 ≤ e) (h2 : 2 ^ 23 < m) (h3 : m < 2 ^ 24)
    (h4 : |x - (m : ℝ) * 2 ^ e| < 1 / 2 * 2 ^ e) : S x = (m : ℝ) * 2 ^ e := S.eq_of_near h1 h2 h3 h4

private theorem int32 (S : Rounding binary32) (x : ℝ) (n : ℤ) (hx : x = n) (h0 : 0 ≤ n) (h : n ≤ 2 ^ 24) : S x = n := by
  rw [hx]; exact S.eq_self (rep32 h0 h)

/-- C90: with two decimals the round trip through days can change the last digit:
    22h 17m 42.41s comes back as 42.40. -/
theorem C90_days_two_decimals (S : Rounding binary32) (D : Rounding binary64) :
    Fp.cd2tf D 2 (Fp.dtf2d S 22 17 (S ((42 : Int) + (41 : Int) / 10 ^ 2))) = ⟨22, 17, 42, 40, true⟩ := by
  have hd : Fp.dtf2d S 22 17 (S ((42 : Int) + (41 : Int) / 10 ^ 2)) = ((15585413 : ℤ) : ℝ) * 2 ^ (-24 : ℤ) := by
    unfold Fp.dtf2d
    rw [int32 S ((22 : Int) : ℝ) 22 rfl (by norm_num) (by norm_num), int32 S ((17 : Int) : ℝ) 17 rfl (by norm_num) (by norm_num),
      int32 S (60 * ((22 : Int) : ℝ)) 1320 (by norm_num) (by norm_num) (by norm_num),
      int32 S (((1320 : Int) : ℝ) + ((17 : Int) : ℝ)) 1337 (by norm_num) (by norm_num) (by norm_num),
      int32 S (60 * ((1337 : Int) : ℝ)) 80220 (by norm_num) (by norm_num) (by norm_num),
      near32 S (((42 : Int) : ℝ) + ((41 : Int) : ℝ) / 10 ^ 2) 11117527 (-18) (by norm_num) (by norm_num) (by norm_num)
        (by rw [abs_lt]; norm_num),
      near32 S (((80220 : Int) : ℝ) + ((11117527 : ℤ) : ℝ) * 2 ^ (-18 : ℤ)) 10273588 (-7) (by norm_num) (by norm_num)
        (by norm_num) (by rw [abs_lt]; norm_num),
      near32 S (((10273588 : ℤ) : ℝ) * 2 ^ (-7 : ℤ) / 86400) 15585413 (-24) (by norm_num) (by norm_num)
        (by norm_num) (by rw [abs_lt]; norm_num)]
  rw [hd]
  exact dd2tf_of_near D 2 (by norm_num) _ (by norm_num) 22 17 42 40 (by norm_num) (by norm_num) (by norm_num) (by norm_num)
    (by norm_num) (by norm_num) (by decide) (by decide)
    (by rw [show (2 : Int).toNat = 2 from rfl, abs_le]; norm_num)

/-- C90: likewise through radians: 22h 17m 45.16s comes back as 45.15. -/
theorem C90_hms_two_decimals (S : Rounding binary32) (D : Rounding binary64) :
    Fp.cr2tf S D 2 (Fp.dtf2r S 22 17 (S ((45 : Int) + (16 : Int) / 10 ^ 2))) = ⟨22, 17, 45, 15, true⟩ := by
  have hd : Fp.dtf2d S 22 17 (S ((45 : Int) + (16 : Int) / 10 ^ 2)) = ((15585947 : ℤ) : ℝ) * 2 ^ (-24 : ℤ) := by
    unfold Fp.dtf2d
    rw [int32 S ((22 : Int) : ℝ) 22 rfl (by norm_num) (by norm_num), int32 S ((17 : Int) : ℝ) 17 rfl (by norm_num) (by norm_num),
      int32 S (60 * ((22 : Int) : ℝ)) 1320 (by norm_num) (by norm_num) (by norm_num),
      int32 S (((1320 : Int) : ℝ) + ((17 : Int) : ℝ)) 1337 (by norm_num) (by norm_num) (by norm_num),
      int32 S (60 * ((1337 : Int) : ℝ)) 80220 (by norm_num) (by norm_num) (by norm_num),
      near32 S (((45 : Int) : ℝ) + ((16 : Int) : ℝ) / 10 ^ 2) 11838423 (-18) (by norm_num) (by norm_num) (by norm_num)
        (by rw [abs_lt]; norm_num),
      near32 S (((80220 : Int) : ℝ) + ((11838423 : ℤ) : ℝ) * 2 ^ (-18 : ℤ)) 10273940 (-7) (by norm_num) (by norm_num)
        (by norm_num) (by rw [abs_lt]; norm_num),
      near32 S (((10273940 : ℤ) : ℝ) * 2 ^ (-7 : ℤ) / 86400) 15585947 (-24) (by norm_num) (by norm_num)
        (by norm_num) (by rw [abs_lt]; norm_num)]
  unfold Fp.cr2tf Fp.dtf2r Fp.cd2tf
  rw [hd, fp_2pi32,
    near32 S (((15585947 : ℤ) : ℝ) * 2 ^ (-24 : ℤ) * (13176795 / 2 ^ 21)) 12241174 (-21) (by norm_num) (by norm_num)
        (by norm_num) (by rw [abs_lt]; norm_num),
    near32 S (((12241174 : ℤ) : ℝ) * 2 ^ (-21 : ℤ) / (13176795 / 2 ^ 21)) 15585946 (-24) (by norm_num) (by norm_num)
        (by norm_num) (by rw [abs_lt]; norm_num)]
  exact dd2tf_of_near D 2 (by norm_num) _ (by norm_num) 22 17 45 15 (by norm_num) (by norm_num) (by norm_num) (by norm_num)
    (by norm_num) (by norm_num) (by decide) (by decide)
    (by rw [show (2 : Int).toNat = 2 from rfl, abs_le]; norm_num)

/-- C90: with one decimal the round trip of an angle can change the last digit: 280d 22m 54.8s comes back as 54.9. -/
theorem C90_dms_one_decimal (S : Rounding binary32) (D : Rounding binary64) :
    Fp.cr2af S D 1 (Fp.daf2r S 280 22 (S ((54 : Int) + (8 : Int) / 10 ^ 1))) = ⟨280, 22, 54, 9, true⟩ := by
  unfold Fp.cr2af Fp.daf2r Fp.cd2tf
  rw [fp_factor32, fp_arcsec32,
    int32 S ((280 : Int) : ℝ) 280 rfl (by norm_num) (by norm_num), int32 S ((22 : Int) : ℝ) 22 rfl (by norm_num) (by norm_num),
    int32 S (((280 : Int) : ℝ) * 60) 16800 (by norm_num) (by norm_num) (by norm_num),
    int32 S (((16800 : Int) : ℝ) + ((22 : Int) : ℝ)) 16822 (by norm_num) (by norm_num) (by norm_num),
    int32 S (((16822 : Int) : ℝ) * 60) 1009320 (by norm_num) (by norm_num) (by norm_num),
    near32 S (((54 : Int) : ℝ) + ((8 : Int) : ℝ) / 10 ^ 1) 14365491 (-18) (by norm_num) (by norm_num) (by norm_num)
        (by rw [abs_lt]; norm_num),
    near32 S (((1009320 : Int) : ℝ) + ((14365491 : ℤ) : ℝ) * 2 ^ (-18 : ℤ)) 16149997 (-4) (by norm_num) (by norm_num)
        (by norm_num) (by rw [abs_lt]; norm_num),
    near32 S (((16149997 : ℤ) : ℝ) * 2 ^ (-4 : ℤ) * (10661166 / 2 ^ 41)) 10262597 (-21) (by norm_num) (by norm_num)
        (by norm_num) (by rw [abs_lt]; norm_num),
    near32 S (((10262597 : ℤ) : ℝ) * 2 ^ (-21 : ℤ) * (10013163 / 2 ^ 22)) 12250073 (-20) (by norm_num) (by norm_num)
        (by norm_num) (by rw [abs_lt]; norm_num)]
  exact dd2tf_of_near D 1 (by norm_num) _ (by norm_num) 280 22 54 9 (by norm_num) (by norm_num) (by norm_num) (by norm_num)
    (by norm_num) (by norm_num) (by decide) (by decide)
    (by rw [show (1 : Int).toNat = 1 from rfl, abs_le]; norm_num)

private theorem value_aux (D : Rounding binary64) (ndp : Int) (hp : ndp ≤ 9) (q t K : ℝ) (hK : 0 < K) (hK1 : K ≤ 1296000)
    (hq : |q * (86400 / K) - t| ≤ 1.1e-7 * |t| + 2 ^ (-130 : ℤ)) (hx : (10 : ℝ) ^ ndp.toNat * K * |t| < 2 ^ 51) :
    let r := Fp.dd2tf D ndp q
    let N : Int := 10 ^ ndp.toNat
    let x : ℝ := (10 : ℝ) ^ ndp.toNat * K * |t|
    0 ≤ r.hours ∧ 0 ≤ r.minutes ∧ r.minutes ≤ 59 ∧ 0 ≤ r.seconds ∧ r.seconds ≤ 59 ∧
    0 ≤ r.fraction ∧ r.fraction < N ∧ (r.sign = false ↔ q < 0) ∧
    |((((r.hours * 60 + r.minutes) * 60 + r.seconds) * N + r.fraction : Int) : ℝ) - x| ≤ 1 / 2 + 1.2e-7 * x + 1e-20 := by
  intro r N x
  have hN0 : (0 : ℝ) < 10 ^ ndp.toNat := by positivity
  have hN9 : (10 : ℝ) ^ ndp.toNat ≤ 10 ^ 9 := pow_le_pow_right₀ (by norm_num) (by omega)
  have h1 : |(10 : ℝ) ^ ndp.toNat * 86400 * |q| - x| ≤ 1.1e-7 * x + 1e-21 := by
    have e : (10 : ℝ) ^ ndp.toNat * 86400 * |q| - x = (10 : ℝ) ^ ndp.toNat * K * (|q * (86400 / K)| - |t|) := by
      rw [abs_mul, abs_of_pos (by positivity : 0 < 86400 / K)]; show _ - (10 : ℝ) ^ ndp.toNat * K * |t| = _; field_simp
    rw [e, abs_mul, abs_of_pos (by positivity)]
    have h2 := (abs_abs_sub_abs_le (q * (86400 / K)) t).trans hq
    have h3 : (10 : ℝ) ^ ndp.toNat * K ≤ 10 ^ 9 * 1296000 := mul_le_mul hN9 hK1 hK.le (by norm_num)
    calc (10 : ℝ) ^ ndp.toNat * K * |(|q * (86400 / K)| - |t|)|
        ≤ (10 : ℝ) ^ ndp.toNat * K * (1.1e-7 * |t| + 2 ^ (-130 : ℤ)) := mul_le_mul_of_nonneg_left h2 (by positivity)
      _ = 1.1e-7 * x + (10 : ℝ) ^ ndp.toNat * K * 2 ^ (-130 : ℤ) := by
          show _ = 1.1e-7 * ((10 : ℝ) ^ ndp.toNat * K * |t|) + _; ring
      _ ≤ 1.1e-7 * x + 10 ^ 9 * 1296000 * 2 ^ (-130 : ℤ) := by
          have := mul_le_mul_of_nonneg_right h3 (by positivity : (0 : ℝ) ≤ 2 ^ (-130 : ℤ)); linarith
      _ ≤ 1.1e-7 * x + 1e-21 := by
          have : (10 : ℝ) ^ 9 * 1296000 * 2 ^ (-130 : ℤ) ≤ 1e-21 := by norm_num
          linarith
  have hx0 : 0 ≤ x := by positivity
  have hx' : x < 2 ^ 51 := hx
  have h4 := abs_le.1 h1
  have hd : (10 : ℝ) ^ ndp.toNat * 86400 * |q| < 2 ^ 52 := by
    norm_num at hx' ⊢; linarith [h4.2]
  obtain ⟨b1, b2, b3, b4, b5, b6, b7, b8, b9⟩ := C79_dd2tf D ndp hp q hd
  refine ⟨b1, b2, b3, b4, b5, b6, b7, b8, ?_⟩
  have h5 := abs_sub_le ((((r.hours * 60 + r.minutes) * 60 + r.seconds) * N + r.fraction : Int) : ℝ)
    ((10 : ℝ) ^ ndp.toNat * 86400 * |q|) x
  refine h5.trans ((add_le_add b9 h1).trans ?_)
  generalize (10 : ℝ) ^ ndp.toNat * 86400 * |q| = y at *
  have : y / 2 ^ 53 ≤ 2e-16 * x + 1e-36 := by
    rw [div_le_iff₀ (by positivity)]; norm_num at h4 ⊢; linarith [h4.2]
  linarith

private theorem float_aux (S : Rounding binary32) (t c : ℝ) (hc : |c - 1| ≤ 5e-8) :
    |S (t * c) - t| ≤ 1.1e-7 * |t| + 2 ^ (-130 : ℤ) := by
  have h1 := S.error_le (t * c)
  have h2 : |t * c - t| ≤ 5e-8 * |t| := by
    rw [show t * c - t = t * (c - 1) by ring, abs_mul]; linarith [mul_le_mul_of_nonneg_left hc (abs_nonneg t)]
  have h3 := abs_sub_le (S (t * c)) (t * c) t
  rw [abs_sub_comm (S (t * c)) (t * c)] at h3
  have h4 : |t * c| ≤ (1 + 5e-8) * |t| := by
    have := abs_sub_abs_le_abs_sub (t * c) t; linarith
  have e1 : (2 : ℝ) ^ (-(binary32.prec : ℤ)) = 1 / 2 ^ 24 := by norm_num [binary32]
  have e2 : (2 : ℝ) ^ (binary32.emin - 1) ≤ 2 ^ (-130 : ℤ) := two_zpow_le (by norm_num [binary32])
  rw [e1] at h1
  have h5 : 1 / 2 ^ 24 * |t * c| ≤ 5.97e-8 * |t| := by
    have : 1 / 2 ^ 24 * |t * c| ≤ 1 / 2 ^ 24 * ((1 + 5e-8) * |t|) := mul_le_mul_of_nonneg_left h4 (by positivity)
    refine this.trans ?_
    have := abs_nonneg t
    norm_num; linarith
  refine (h3.trans (add_le_add (h1.trans (add_le_add h5 e2)) h2)).trans ?_
  have := abs_nonneg t
  generalize (2 : ℝ) ^ (-130 : ℤ) = ε
  linarith

private theorem float_neg (S : Rounding binary32) {x : ℝ} (h : x < -1.42e-45) : S x < 0 := by
  have h1 := S.le_rep (x := x) (y := -(2 : ℝ) ^ (-149 : ℤ))
    (h.le.trans (by norm_num)) ⟨-1, -149, by norm_num [binary32], by norm_num [binary32], by norm_num⟩
  have : (0 : ℝ) < 2 ^ (-149 : ℤ) := by positivity
  linarith

/-- C90: `cr2tf` of any `float` (up to 9 decimals, fewer than 2^51 units in the last place) gives fields in their ranges;
    together they are the angle in units of the last place up to half a unit and 1.2e-7 of the angle.  The sign is that of
    the angle unless the angle is so small that the number of turns underflows. -/
theorem C90_cr2tf (S : Rounding binary32) (D : Rounding binary64) (ndp : Int) (hp : ndp ≤ 9) (angle : ℝ)
    (hx : (10 : ℝ) ^ ndp.toNat * 86400 * |angle / (2 * Real.pi)| < 2 ^ 51) :
    let r := Fp.cr2tf S D ndp angle
    let N : Int := 10 ^ ndp.toNat
    let x : ℝ := (10 : ℝ) ^ ndp.toNat * 86400 * |angle / (2 * Real.pi)|
    0 ≤ r.hours ∧ 0 ≤ r.minutes ∧ r.minutes ≤ 59 ∧ 0 ≤ r.seconds ∧ r.seconds ≤ 59 ∧
    0 ≤ r.fraction ∧ r.fraction < N ∧ (r.sign = false → angle < 0) ∧ (angle < -1e-44 → r.sign = false) ∧
    |((((r.hours * 60 + r.minutes) * 60 + r.seconds) * N + r.fraction : Int) : ℝ) - x| ≤ 1 / 2 + 1.2e-7 * x + 1e-20 := by
  intro r N x
  obtain ⟨t, ht⟩ : ∃ t, t = angle / (2 * Real.pi) := ⟨_, rfl⟩
  have hpi := Real.pi_pos
  have hat : angle = t * (2 * Real.pi) := by rw [ht]; field_simp
  have hA : S (angle / S 6.283185307179586476925287) = S (t * (2 * Real.pi * (2 ^ 21 / 13176795))) := by
    rw [fp_2pi32, hat]; congr 1; ring
  have hA1 : |2 * Real.pi * (2 ^ 21 / 13176795) - 1| ≤ 3e-8 := by
    rw [abs_le]; constructor <;> linarith [Real.pi_gt_d20, Real.pi_lt_d20]
  obtain ⟨c, hc⟩ : ∃ c, c = 2 * Real.pi * (2 ^ 21 / 13176795) := ⟨_, rfl⟩
  rw [← hc] at hA hA1
  have hq : |S (t * c) - t| ≤ 1.1e-7 * |t| + 2 ^ (-130 : ℤ) := float_aux S t c (hA1.trans (by norm_num))
  have hc0 : 0.9 < c := by linarith [(abs_le.1 hA1).1]
  obtain ⟨b1, b2, b3, b4, b5, b6, b7, b8, b9⟩ := value_aux D ndp hp (S (t * c)) t 86400 (by norm_num) (by norm_num)
    (by rw [div_self (by norm_num), mul_one]; exact hq) (by rw [ht]; exact hx)
  have hr : r = Fp.dd2tf D ndp (S (t * c)) := by
    show Fp.cr2tf S D ndp angle = _; unfold Fp.cr2tf Fp.cd2tf; rw [hA]
  rw [← hr] at b1 b2 b3 b4 b5 b6 b7 b8 b9
  refine ⟨b1, b2, b3, b4, b5, b6, b7, ?_, ?_, by rw [ht] at b9; exact b9⟩
  · rw [b8]; intro h
    by_contra hn
    have : 0 ≤ t := by rw [ht]; exact div_nonneg (not_lt.1 hn) (by linarith)
    linarith [S.nonneg (mul_nonneg this (by linarith : 0 ≤ c))]
  · rw [b8]; intro h
    exact float_neg S (by rw [hat] at h; nlinarith [Real.pi_lt_d20])

/-- C90: the same for `cr2af`, in units of the last place of arcseconds. -/
theorem C90_cr2af (S : Rounding binary32) (D : Rounding binary64) (ndp : Int) (hp : ndp ≤ 9) (angle : ℝ)
    (hx : (10 : ℝ) ^ ndp.toNat * 1296000 * |angle / (2 * Real.pi)| < 2 ^ 51) :
    let r := Fp.cr2af S D ndp angle
    let N : Int := 10 ^ ndp.toNat
    let x : ℝ := (10 : ℝ) ^ ndp.toNat * 1296000 * |angle / (2 * Real.pi)|
    0 ≤ r.hours ∧ 0 ≤ r.minutes ∧ r.minutes ≤ 59 ∧ 0 ≤ r.seconds ∧ r.seconds ≤ 59 ∧
    0 ≤ r.fraction ∧ r.fraction < N ∧ (r.sign = false → angle < 0) ∧ (angle < -1e-44 → r.sign = false) ∧
    |((((r.hours * 60 + r.minutes) * 60 + r.seconds) * N + r.fraction : Int) : ℝ) - x| ≤ 1 / 2 + 1.2e-7 * x + 1e-20 := by
  intro r N x
  obtain ⟨t, ht⟩ : ∃ t, t = angle / (2 * Real.pi) := ⟨_, rfl⟩
  have hpi := Real.pi_pos
  have hat : angle = t * (2 * Real.pi) := by rw [ht]; field_simp
  have hA : S (angle * S (D (15 / D 6.283185307179586476925287))) =
      S (t * 15 * (2 * Real.pi * (10013163 / 2 ^ 22 / 15))) := by
    rw [fp_factor32, hat]; congr 1; ring
  have hA1 : |2 * Real.pi * (10013163 / 2 ^ 22 / 15) - 1| ≤ 5e-8 := by
    rw [abs_le]; constructor <;> linarith [Real.pi_gt_d20, Real.pi_lt_d20]
  obtain ⟨c, hc⟩ : ∃ c, c = 2 * Real.pi * (10013163 / 2 ^ 22 / 15) := ⟨_, rfl⟩
  rw [← hc] at hA hA1
  have hq0 : |S (t * 15 * c) - t * 15| ≤ 1.1e-7 * |t * 15| + 2 ^ (-130 : ℤ) := float_aux S (t * 15) c hA1
  have hq : |S (t * 15 * c) * (86400 / 1296000) - t| ≤ 1.1e-7 * |t| + 2 ^ (-130 : ℤ) := by
    have e : S (t * 15 * c) * (86400 / 1296000) - t = (S (t * 15 * c) - t * 15) / 15 := by ring
    rw [e, abs_div, abs_of_pos (by norm_num : (0 : ℝ) < 15), div_le_iff₀ (by norm_num)]
    rw [abs_mul, abs_of_pos (by norm_num : (0 : ℝ) < 15)] at hq0
    have : (0 : ℝ) < 2 ^ (-130 : ℤ) := by positivity
    linarith
  have hc0 : 0.9 < c := by linarith [(abs_le.1 hA1).1]
  obtain ⟨b1, b2, b3, b4, b5, b6, b7, b8, b9⟩ := value_aux D ndp hp (S (t * 15 * c)) t 1296000 (by norm_num) (by norm_num)
    hq (by rw [ht]; exact hx)
  have hr : r = Fp.dd2tf D ndp (S (t * 15 * c)) := by
    show Fp.cr2af S D ndp angle = _; unfold Fp.cr2af Fp.cd2tf; rw [hA]
  rw [← hr] at b1 b2 b3 b4 b5 b6 b7 b8 b9
  refine ⟨b1, b2, b3, b4, b5, b6, b7, ?_, ?_, by rw [ht] at b9; exact b9⟩
  · rw [b8]; intro h
    by_contra hn
    have : 0 ≤ t := by rw [ht]; exact div_nonneg (not_lt.1 hn) (by linarith)
    linarith [S.nonneg (mul_nonneg (mul_nonneg this (by norm_num : (0 : ℝ) ≤ 15)) (by linarith : 0 ≤ c))]
  · rw [b8]; intro h
    exact float_neg S (by rw [hat] at h; nlinarith [Real.pi_lt_d20])

/- One decimal at the very end of the day; the last whole arcsecond of the circle. -/
example : Fp.cd2tf (ieee binary64) 1 (Fp.dtf2d (ieee binary32) 23 59 ((ieee binary32) ((59 : Int) + (9 : Int) / 10 ^ 1)))
    = ⟨23, 59, 59, 9, true⟩ :=
  C90_days_round_trip (ieee binary32) (ieee binary64) 1 (by norm_num) 23 59 59 9 (by norm_num) (by norm_num) (by norm_num)
    (by norm_num) (by norm_num) (by norm_num) (by norm_num) (by decide)
example : Fp.cr2af (ieee binary32) (ieee binary64) 0 (Fp.daf2r (ieee binary32) 359 59 (59 : Int)) = ⟨359, 59, 59, 0, true⟩ :=
  C90_dms_round_trip (ieee binary32) (ieee binary64) 0 le_rfl 359 59 59 (by norm_num) (by norm_num) (by norm_num)
    (by norm_num) (by norm_num) (by norm_num)
example : (10 : ℝ) ^ (3 : Int).toNat * 1296000 * |(-3 : ℝ) / (2 * Real.pi)| < 2 ^ 51 := by
  rw [abs_div, abs_of_pos (by positivity : 0 < 2 * Real.pi), show (3 : Int).toNat = 3 from rfl, mul_div_assoc',
    div_lt_iff₀ (by positivity)]
  norm_num
  linarith [Real.pi_gt_three]

end Sla.Props
