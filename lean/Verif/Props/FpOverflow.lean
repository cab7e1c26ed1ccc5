import Verif.Lemmas.FpOverflow

/-
Property theorems C94: nothing overflows.
-/
namespace Sla.Props
open Sla.Fp Sla.Spec

variable {F : Fmt} {R : Rounding F} {Ω : ℝ} {ρ : ℝ → ℝ} {K : ℕ}

theorem room64 {R : Rounding binary64} (h : Overflowing R largest64 ρ) : Room R largest64 ρ 1023 :=
  ⟨h, by
    unfold largest64
    rw [show (1023 : ℕ) = 52 + 971 by norm_num, pow_add]
    exact mul_le_mul_of_nonneg_right (by norm_num) (by positivity), by simp [binary64]⟩

theorem room32 {R : Rounding binary32} (h : Overflowing R largest32 ρ) : Room R largest32 ρ 127 :=
  ⟨h, by unfold largest32; norm_num, by simp [binary32]⟩

theorem one_le (R : Rounding F) (hF : F.emin ≤ 0) {x : ℝ} (h : 1 ≤ x) : 1 ≤ R x :=
  R.rep_le h (by simpa using rep_two_pow hF 0)

private theorem abs_csign (a b : ℝ) : |csign a b| = |a| := by
  unfold csign; split_ifs
  · exact abs_abs a
  · rw [abs_neg, abs_abs]

/-! ### Angles -/

theorem drange_same (hr : Room R Ω ρ K) (hK : 4 ≤ K) (a : ℝ) : Fp.drange ρ a = Fp.drange R a := by
  have h1 : Same 2 _ _ := Same.lit hr (a := 3.141592653589793238462643) (by norm_num [abs_of_pos]) (by omega)
  have h2 : Same 3 _ _ := Same.lit hr (a := 6.283185307179586476925287) (by norm_num [abs_of_pos]) (by omega)
  have p2 := one_le R hr.small (x := 6.283185307179586476925287) (by norm_num)
  have h3 := (Same.fmod' a h2 (by linarith)).rnd hr (by omega)
  have h4 : Same 3 (csign (ρ 6.283185307179586476925287) a) (csign (R 6.283185307179586476925287) a) :=
    ⟨by rw [h2.1], by rw [abs_csign]; exact h2.2⟩
  have h5 := (h3.sub h4).rnd hr (by simp; omega)
  unfold Fp.drange
  dsimp only
  rw [h5.1, h3.1, h1.1]

theorem dranrm_same (hr : Room R Ω ρ K) (hK : 4 ≤ K) (a : ℝ) : Fp.dranrm ρ a = Fp.dranrm R a := by
  have h2 : Same 3 _ _ := Same.lit hr (a := 6.283185307179586476925287) (by norm_num [abs_of_pos]) (by omega)
  have p2 := one_le R hr.small (x := 6.283185307179586476925287) (by norm_num)
  have h3 := (Same.fmod' a h2 (by linarith)).rnd hr (by omega)
  have h5 := (h3.add h2).rnd hr (by simp; omega)
  unfold Fp.dranrm
  dsimp only
  rw [h5.1, h3.1]

/-- C94: no operation of `drange`, `dranrm`, `range` and `ranorm` overflows, whatever the angle. -/
theorem C94_angles (D : Rounding binary64) (S : Rounding binary32) (δ σ : ℝ → ℝ) (hD : Overflowing D largest64 δ)
    (hS : Overflowing S largest32 σ) (angle : ℝ) :
    Fp.drange δ angle = Fp.drange D angle ∧ Fp.dranrm δ angle = Fp.dranrm D angle ∧
    Fp.drange σ angle = Fp.drange S angle ∧ Fp.dranrm σ angle = Fp.dranrm S angle :=
  ⟨drange_same (room64 hD) (by norm_num) _, dranrm_same (room64 hD) (by norm_num) _,
   drange_same (room32 hS) (by norm_num) _, dranrm_same (room32 hS) (by norm_num) _⟩

/-! ### Fields -/

private theorem nrs_eq (ndp : ℤ) : dd2tfNrs ndp = 10 ^ ndp.toNat := by
  unfold dd2tfNrs
  generalize ndp.toNat = n
  have : ∀ (n : ℕ) (a : ℤ), (List.replicate n (10 : ℤ)).foldl (· * ·) a = a * 10 ^ n := by
    intro n
    induction n with
    | zero => intro a; simp
    | succ n ih => intro a; rw [List.replicate_succ, List.foldl_cons, ih, pow_succ]; ring
  rw [this, one_mul]

private theorem nrs_bounds {ndp : ℤ} (h : ndp ≤ 9) : (1 : ℝ) ≤ ((dd2tfNrs ndp : ℤ) : ℝ) ∧ |((dd2tfNrs ndp : ℤ) : ℝ)| ≤ 2 ^ 30 := by
  rw [nrs_eq]
  push_cast
  have h1 : (1 : ℝ) ≤ 10 ^ ndp.toNat := one_le_pow₀ (by norm_num)
  refine ⟨h1, ?_⟩
  rw [abs_of_pos (by linarith)]
  have : (10 : ℝ) ^ ndp.toNat ≤ 10 ^ 9 := pow_le_pow_right₀ (by norm_num) (by omega)
  refine this.trans (by norm_num)

private theorem dd2tf_same {R : Rounding binary64} (hr : Room R Ω ρ 1023) {ndp : ℤ} (hn : ndp ≤ 9) {days : ℝ} (hd : |days| ≤ 2 ^ 800) :
    Fp.dd2tf ρ ndp days = Fp.dd2tf R ndp days := by
  obtain ⟨n1, n2⟩ := nrs_bounds hn
  have rs := Same.lit hr n2 (by norm_num)
  have c60 : Same 6 (60 : ℝ) 60 := Same.of (by norm_num)
  have rm := (rs.mul c60).rnd hr (by norm_num)
  have rh := (rm.mul c60).rnd hr (by norm_num)
  have o1 := one_le R hr.small n1
  have o2 := one_le R hr.small (x := R ((dd2tfNrs ndp : ℤ) : ℝ) * 60) (by linarith)
  have o3 := one_le R hr.small (x := R (R ((dd2tfNrs ndp : ℤ) : ℝ) * 60) * 60) (by linarith)
  have i0 := (((rs.mul (Same.of (a := 86400) (n := 17) (by norm_num))).rnd hr (by norm_num)).mul (Same.of hd).abs).rnd hr (by norm_num)
  have i1 := i0.round.rnd hr (by norm_num)
  have h1 := (i1.div rh.1 o3).rnd hr (by norm_num)
  have h2 := h1.trunc.rnd hr (by norm_num)
  have i2 := (i1.sub ((h2.mul rh).rnd hr (by norm_num))).rnd hr (by norm_num)
  have m1 := (i2.div rm.1 o2).rnd hr (by norm_num)
  have m2 := m1.trunc.rnd hr (by norm_num)
  have i3 := (i2.sub ((m2.mul rm).rnd hr (by norm_num))).rnd hr (by norm_num)
  have s1 := (i3.div rs.1 o1).rnd hr (by norm_num)
  have s2 := s1.trunc.rnd hr (by norm_num)
  have f1 := (i3.sub ((s2.mul rs).rnd hr (by norm_num))).rnd hr (by norm_num)
  have r1 := (rs.sub (Same.of (a := 1) (n := 0) (by norm_num))).rnd hr (by norm_num)
  unfold Fp.dd2tf
  dsimp only
  rw [f1.1, s2.1, m2.1, h2.1, r1.1]

private theorem small_int {n : ℤ} (h : |n| ≤ 2 ^ 31) : |(n : ℝ)| ≤ 2 ^ 31 := by
  have : ((|n| : ℤ) : ℝ) ≤ ((2 ^ 31 : ℤ) : ℝ) := by exact_mod_cast h
  norm_num at this ⊢; exact this

private theorem dtf2d_same (hr : Room R Ω ρ K) {k : ℕ} (hk : 44 ≤ k) (hK : k + 5 ≤ K) {hours minutes : ℤ} {seconds : ℝ} (h1 : |hours| ≤ 2 ^ 31)
    (h2 : |minutes| ≤ 2 ^ 31) (h3 : |seconds| ≤ 2 ^ k) :
    Same (k + 1) (Fp.dtf2d ρ hours minutes seconds) (Fp.dtf2d R hours minutes seconds) := by
  have c60 : Same 6 (60 : ℝ) 60 := Same.of (by norm_num)
  have a1 := (c60.mul (Same.lit hr (small_int h1) (by omega))).rnd hr (by omega)
  have a2 := (a1.add (Same.lit hr (small_int h2) (by omega))).rnd hr (by norm_num; omega)
  have a3 := (c60.mul a2).rnd hr (by norm_num; omega)
  have a4 := ((a3.weaken (n := k) (by norm_num; omega)).add (Same.of h3)).rnd hr (by simp; omega)
  rw [max_self] at a4
  have a5 := (a4.div (c := 86400) rfl (by norm_num)).rnd hr (by omega)
  exact a5

private theorem dtf2r_same (hr : Room R Ω ρ K) {k : ℕ} (hk : 44 ≤ k) (hK : k + 5 ≤ K) {hours minutes : ℤ} {seconds : ℝ} (h1 : |hours| ≤ 2 ^ 31)
    (h2 : |minutes| ≤ 2 ^ 31) (h3 : |seconds| ≤ 2 ^ k) :
    Fp.dtf2r ρ hours minutes seconds = Fp.dtf2r R hours minutes seconds :=
  (((dtf2d_same hr hk hK h1 h2 h3).mul (Same.lit hr (n := 3) (by norm_num [abs_of_pos]) (by omega))).rnd hr (by omega)).1

private theorem daf2r_same (hr : Room R Ω ρ K) {k : ℕ} (hk : 44 ≤ k) (hK : k + 5 ≤ K) {degrees minutes : ℤ} {seconds : ℝ} (h1 : |degrees| ≤ 2 ^ 31)
    (h2 : |minutes| ≤ 2 ^ 31) (h3 : |seconds| ≤ 2 ^ k) :
    Fp.daf2r ρ degrees minutes seconds = Fp.daf2r R degrees minutes seconds := by
  have c60 : Same 6 (60 : ℝ) 60 := Same.of (by norm_num)
  have a1 := ((Same.lit hr (small_int h1) (by omega)).mul c60).rnd hr (by omega)
  have a2 := (a1.add (Same.lit hr (small_int h2) (by omega))).rnd hr (by norm_num; omega)
  have a3 := (a2.mul c60).rnd hr (by norm_num; omega)
  have a4 := ((a3.weaken (n := k) (by norm_num; omega)).add (Same.of h3)).rnd hr (by simp; omega)
  rw [max_self] at a4
  exact ((a4.mul (Same.lit hr (n := 0) (by norm_num [abs_of_pos]) (by omega))).rnd hr (by omega)).1

/-- C94: with at most nine decimals and angles up to 2^796, no operation of `dd2tf`, `dr2tf`, `dr2af` overflows. -/
theorem C94_fields (R : Rounding binary64) (ρ : ℝ → ℝ) (h : Overflowing R largest64 ρ) (ndp : ℤ) (x : ℝ) (hn : ndp ≤ 9)
    (hx : |x| ≤ 2 ^ 796) :
    Fp.dd2tf ρ ndp x = Fp.dd2tf R ndp x ∧ Fp.dr2tf ρ ndp x = Fp.dr2tf R ndp x ∧ Fp.dr2af ρ ndp x = Fp.dr2af R ndp x := by
  have hr := room64 h
  have p2 := one_le R hr.small (x := 6.283185307179586476925287) (by norm_num)
  have h2 : Same 3 _ _ := Same.lit hr (a := 6.283185307179586476925287) (by norm_num [abs_of_pos]) (by norm_num)
  refine ⟨dd2tf_same hr hn ((Same.of hx).weaken (n := 800) (by norm_num)).2, ?_, ?_⟩
  · have a := ((Same.of hx).div h2.1 p2).rnd hr (by norm_num)
    unfold Fp.dr2tf
    rw [a.1]
    exact dd2tf_same hr hn ((Same.of a.2).weaken (n := 800) (by norm_num)).2
  · have c := ((Same.of (a := 15) (n := 4) (by norm_num)).div h2.1 p2).rnd hr (by norm_num)
    have a := ((Same.of hx).mul c).rnd hr (by norm_num)
    unfold Fp.dr2af
    rw [a.1]
    exact dd2tf_same hr hn a.2

/-- C94: for fields of type `int`, and seconds up to 2^1018 (`float`: 2^122), no operation of `dtf2d`, `dtf2r`, `daf2r`, `ctf2d`,
    `ctf2r` and `caf2r` overflows. -/
theorem C94_composition (D : Rounding binary64) (S : Rounding binary32) (δ σ : ℝ → ℝ) (hD : Overflowing D largest64 δ)
    (hS : Overflowing S largest32 σ) (n m : ℤ) (s t : ℝ) (hn : |n| ≤ 2 ^ 31) (hm : |m| ≤ 2 ^ 31) (hs : |s| ≤ 2 ^ 1018)
    (ht : |t| ≤ 2 ^ 122) :
    Fp.dtf2d δ n m s = Fp.dtf2d D n m s ∧ Fp.dtf2r δ n m s = Fp.dtf2r D n m s ∧ Fp.daf2r δ n m s = Fp.daf2r D n m s ∧
    Fp.dtf2d σ n m t = Fp.dtf2d S n m t ∧ Fp.dtf2r σ n m t = Fp.dtf2r S n m t ∧ Fp.daf2r σ n m t = Fp.daf2r S n m t :=
  ⟨(dtf2d_same (room64 hD) (by norm_num) (by norm_num) hn hm hs).1, dtf2r_same (room64 hD) (by norm_num) (by norm_num) hn hm hs,
   daf2r_same (room64 hD) (by norm_num) (by norm_num) hn hm hs,
   (dtf2d_same (room32 hS) (by norm_num) (by norm_num) hn hm ht).1, dtf2r_same (room32 hS) (by norm_num) (by norm_num) hn hm ht,
   daf2r_same (room32 hS) (by norm_num) (by norm_num) hn hm ht⟩

/-- C94: no operation of `djcl` overflows, whatever the date, nor of `djcal` with at most nine decimals. -/
theorem C94_calendar (R : Rounding binary64) (ρ : ℝ → ℝ) (h : Overflowing R largest64 ρ) (ndp : ℤ) (hn : ndp ≤ 9) (mjd : ℝ) :
    Fp.djcl ρ mjd = Fp.djcl R mjd ∧ Fp.djcal ρ ndp mjd = Fp.djcal R ndp mjd := by
  have hr := room64 h
  unfold Fp.djcl Fp.djcal
  by_cases hb : mjd ≤ -2395520 ∨ mjd ≥ 1e9
  · rw [if_pos hb, if_pos hb, if_pos hb, if_pos hb]; exact ⟨rfl, rfl⟩
  rw [if_neg hb, if_neg hb, if_neg hb, if_neg hb]
  push Not at hb
  have hm : |mjd| ≤ 2 ^ 30 := by rw [abs_le]; constructor <;> norm_num at * <;> linarith [hb.1, hb.2]
  constructor
  · have f0 := (Same.fmod' mjd (Same.of (a := 1) (n := 0) (by norm_num)) one_pos).rnd hr (by norm_num)
    have f1 := (f0.add (Same.of (a := 1) (n := 0) (by norm_num))).rnd hr (by norm_num)
    have f : Same 1 (if ρ (cfmod mjd 1) < 0 then ρ (ρ (cfmod mjd 1) + 1) else ρ (cfmod mjd 1))
        (if R (cfmod mjd 1) < 0 then R (R (cfmod mjd 1) + 1) else R (cfmod mjd 1)) := by
      rw [f1.1, f0.1]
      split_ifs
      · exact Same.of f1.2
      · exact Same.of (f0.2.trans (by norm_num))
    have d := ((((Same.of hm).sub f).rnd hr (by norm_num)).round).rnd hr (by norm_num)
    dsimp only
    rw [d.1, f.1]
  · have n2 : |(((10 ^ (max ndp 0).toNat : ℤ) : ℤ) : ℝ)| ≤ 2 ^ 30 := by
      push_cast
      rw [abs_of_pos (by positivity)]
      have : (10 : ℝ) ^ (max ndp 0).toNat ≤ 10 ^ 9 := pow_le_pow_right₀ (by norm_num) (by omega)
      exact this.trans (by norm_num)
    have n1 : (1 : ℝ) ≤ (((10 ^ (max ndp 0).toNat : ℤ) : ℤ) : ℝ) := by push_cast; exact one_le_pow₀ (by norm_num)
    have fd := Same.lit hr n2 (by norm_num)
    have o1 := one_le R hr.small n1
    dsimp only
    generalize (((10 ^ (max ndp 0).toNat : ℤ) : ℤ) : ℝ) = N at *
    have df := ((((Same.of hm).mul fd).rnd hr (by norm_num)).round).rnd hr (by norm_num)
    have f0 := (df.fmod fd.1 (by linarith)).rnd hr (by norm_num)
    have f1 := (f0.add fd).rnd hr (by norm_num)
    have f : Same 62 (if ρ (cfmod (ρ (cround (ρ (mjd * ρ N)))) (ρ N)) < 0 then ρ (ρ (cfmod (ρ (cround (ρ (mjd * ρ N)))) (ρ N)) + ρ N)
          else ρ (cfmod (ρ (cround (ρ (mjd * ρ N)))) (ρ N)))
        (if R (cfmod (R (cround (R (mjd * R N)))) (R N)) < 0 then R (R (cfmod (R (cround (R (mjd * R N)))) (R N)) + R N)
          else R (cfmod (R (cround (R (mjd * R N)))) (R N))) := by
      rw [f1.1, f0.1]
      split_ifs
      · exact Same.of f1.2
      · exact Same.of (f0.2.trans (by norm_num))
    have d := ((((df.sub f).rnd hr (by norm_num)).div fd.1 o1)).rnd hr (by norm_num)
    rw [d.1, f.1]

/-! ### Epochs and sidereal time -/

/-- C94: for dates and epochs up to 2^1000, no operation of `epj`, `epj2d`, `epb`, `epb2d` overflows; for dates up to 2^200 none of
    `gmst` and `gmsta` does. -/
theorem C94_epochs (R : Rounding binary64) (ρ : ℝ → ℝ) (h : Overflowing R largest64 ρ) (x y z : ℝ) (hx : |x| ≤ 2 ^ 1000)
    (hy : |y| ≤ 2 ^ 200) (hz : |z| ≤ 2 ^ 200) :
    Fp.epj ρ x = Fp.epj R x ∧ Fp.epj2d ρ x = Fp.epj2d R x ∧ Fp.epb ρ x = Fp.epb R x ∧ Fp.epb2d ρ x = Fp.epb2d R x ∧
    Fp.gmst ρ y = Fp.gmst R y ∧ Fp.gmsta ρ y z = Fp.gmsta R y z := by
  have hr := room64 h
  have X := Same.of hx
  have k1 : Same 16 (51544.5 : ℝ) 51544.5 := Same.of (by norm_num [abs_of_pos])
  have k2 : Same 11 (2000 : ℝ) 2000 := Same.of (by norm_num)
  have k3 : Same 11 (1900 : ℝ) 1900 := Same.of (by norm_num)
  have k4 := Same.lit hr (a := 15019.81352) (n := 16) (by norm_num [abs_of_pos]) (by norm_num)
  have k5 := Same.lit hr (a := 365.242198781) (n := 9) (by norm_num [abs_of_pos]) (by norm_num)
  have o5 := one_le R hr.small (x := 365.242198781) (by norm_num)
  have l1 := Same.lit hr (a := 24110.54841) (n := 16) (by norm_num [abs_of_pos]) (by norm_num)
  have l2 := Same.lit hr (a := 8640184.812866) (n := 24) (by norm_num [abs_of_pos]) (by norm_num)
  have l3 := Same.lit hr (a := 0.093104) (n := 0) (by norm_num [abs_of_pos]) (by norm_num)
  have l4 := Same.lit hr (a := 6.2e-6) (n := 0) (by norm_num [abs_of_pos]) (by norm_num)
  have l5 := Same.lit hr (a := 7.272205216643039903848711535369e-5) (n := 0) (by norm_num [abs_of_pos]) (by norm_num)
  have l6 := Same.lit hr (a := 7.272205216643039903848712e-5) (n := 0) (by norm_num [abs_of_pos]) (by norm_num)
  have l7 := Same.lit hr (a := 6.283185307179586476925286766559) (n := 3) (by norm_num [abs_of_pos]) (by norm_num)
  have c1 : Same 0 (1 : ℝ) 1 := Same.of (by norm_num)
  refine ⟨?_, ?_, ?_, ?_, ?_, ?_⟩
  · exact ((k2.add ((((X.sub k1).rnd hr (by norm_num)).div rfl (by norm_num)).rnd hr (by norm_num))).rnd hr (by norm_num)).1
  · exact ((k1.add ((((X.sub k2).rnd hr (by norm_num)).mul (Same.of (n := 9) (by norm_num [abs_of_pos]))).rnd hr (by norm_num))).rnd hr
      (by norm_num)).1
  · exact ((k3.add ((((X.sub k4).rnd hr (by norm_num)).div k5.1 o5).rnd hr (by norm_num))).rnd hr (by norm_num)).1
  · exact ((k4.add ((((X.sub k3).rnd hr (by norm_num)).mul k5).rnd hr (by norm_num))).rnd hr (by norm_num)).1
  · have jc := (((Same.of hy).sub k1).rnd hr (by norm_num)).div (c := 36525) rfl (by norm_num) |>.rnd hr (by norm_num)
    have p1 := ((l3.sub ((l4.mul jc).rnd hr (by norm_num))).rnd hr (by norm_num)).mul jc |>.rnd hr (by norm_num)
    have p2 := ((l2.add p1).rnd hr (by norm_num)).mul jc |>.rnd hr (by norm_num)
    have p3 := ((l1.add p2).rnd hr (by norm_num)).mul l5 |>.rnd hr (by norm_num)
    have p4 := ((Same.fmod' y c1 one_pos).rnd hr (by norm_num)).mul l7 |>.rnd hr (by norm_num)
    have p5 := (p4.add p3).rnd hr (by norm_num)
    unfold Fp.gmst
    dsimp only
    rw [p5.1, dranrm_same hr (by norm_num)]
  · have A : ∀ d1 d2 : ℝ, |d1| ≤ 2 ^ 200 → |d2| ≤ 2 ^ 200 → Fp.dranrm ρ (ρ (ρ 7.272205216643039903848712e-5 * ρ (ρ (ρ 24110.54841 +
        ρ (ρ (ρ 8640184.812866 + ρ (ρ (ρ 0.093104 - ρ (ρ 6.2e-6 * ρ (ρ (d1 + ρ (d2 - 51544.5)) / 36525))) *
        ρ (ρ (d1 + ρ (d2 - 51544.5)) / 36525))) * ρ (ρ (d1 + ρ (d2 - 51544.5)) / 36525))) +
        ρ (86400 * ρ (ρ (cfmod d1 1) + ρ (cfmod d2 1)))))) = Fp.dranrm R (R (R 7.272205216643039903848712e-5 * R (R (R 24110.54841 +
        R (R (R 8640184.812866 + R (R (R 0.093104 - R (R 6.2e-6 * R (R (d1 + R (d2 - 51544.5)) / 36525))) *
        R (R (d1 + R (d2 - 51544.5)) / 36525))) * R (R (d1 + R (d2 - 51544.5)) / 36525))) +
        R (86400 * R (R (cfmod d1 1) + R (cfmod d2 1)))))) := by
      intro d1 d2 h1 h2
      have jc := (((Same.of h1).add (((Same.of h2).sub k1).rnd hr (by norm_num))).rnd hr (by norm_num)).div (c := 36525) rfl (by norm_num)
        |>.rnd hr (by norm_num)
      have p1 := ((l3.sub ((l4.mul jc).rnd hr (by norm_num))).rnd hr (by norm_num)).mul jc |>.rnd hr (by norm_num)
      have p2 := ((l2.add p1).rnd hr (by norm_num)).mul jc |>.rnd hr (by norm_num)
      have p3 := (l1.add p2).rnd hr (by norm_num)
      have p4 := (((Same.fmod' d1 c1 one_pos).rnd hr (by norm_num)).add ((Same.fmod' d2 c1 one_pos).rnd hr (by norm_num))).rnd hr (by norm_num)
      have p5 := ((Same.of (a := 86400) (n := 17) (by norm_num)).mul p4).rnd hr (by norm_num)
      have p6 := (l6.mul ((p3.add p5).rnd hr (by norm_num))).rnd hr (by norm_num)
      rw [p6.1, dranrm_same hr (by norm_num)]
    unfold Fp.gmsta
    dsimp only
    apply A
    · split_ifs <;> assumption
    · split_ifs <;> assumption

/-! ### Vectors -/

theorem acc3_same (hr : Room R Ω ρ K) {n : ℕ} (hK : n + 3 ≤ K) {f g : Fin 3 → ℝ} (h : ∀ i, Same n (f i) (g i)) :
    Same (n + 3) (Fp.acc3 ρ f) (Fp.acc3 R g) := by
  have a1 := ((Same.of (a := 0) (n := n) (by simp)).add (h 0)).rnd hr (by simp; omega)
  have a2 := (a1.add (h 1)).rnd hr (by simp; omega)
  have a3 := (a2.add (h 2)).rnd hr (by simp; omega)
  exact a3.weaken (by simp)

theorem dmxv_same (hr : Room R Ω ρ K) {p q : ℕ} (hK : p + q + 3 ≤ K) {M : Mat} {v : Vec} (hM : ∀ i j, |M i j| ≤ 2 ^ p)
    (hv : ∀ i, |v i| ≤ 2 ^ q) : Fp.dmxv ρ M v = Fp.dmxv R M v ∧ Fp.dimxv ρ M v = Fp.dimxv R M v := by
  constructor <;> funext i
  · exact (acc3_same hr (n := p + q) (by omega) fun j => ((Same.of (hM i j)).mul (Same.of (hv j))).rnd hr (by omega)).1
  · exact (acc3_same hr (n := p + q) (by omega) fun j => ((Same.of (hM j i)).mul (Same.of (hv j))).rnd hr (by omega)).1

theorem dmxm_same (hr : Room R Ω ρ K) {p q : ℕ} (hK : p + q + 3 ≤ K) {M N : Mat} (hM : ∀ i j, |M i j| ≤ 2 ^ p)
    (hN : ∀ i j, |N i j| ≤ 2 ^ q) : Fp.dmxm ρ M N = Fp.dmxm R M N ∧ ∀ i j, |Fp.dmxm R M N i j| ≤ 2 ^ (p + q + 3) := by
  have key : ∀ i j, Same (p + q + 3) (Fp.dmxm ρ M N i j) (Fp.dmxm R M N i j) := fun i j =>
    acc3_same hr (n := p + q) (by omega) fun k => ((Same.of (hM i k)).mul (Same.of (hN k j))).rnd hr (by omega)
  exact ⟨funext fun i => funext fun j => (key i j).1, fun i j => (key i j).2⟩

theorem dvdv_same (hr : Room R Ω ρ K) {p q : ℕ} (hK : p + q + 2 ≤ K) {u v : Vec} (hu : ∀ i, |u i| ≤ 2 ^ p)
    (hv : ∀ i, |v i| ≤ 2 ^ q) : Fp.dvdv ρ u v = Fp.dvdv R u v := by
  have m := fun i => ((Same.of (hu i)).mul (Same.of (hv i))).rnd hr (by omega)
  exact ((((m 0).add (m 1)).rnd hr (by simp; omega)).add (m 2) |>.rnd hr (by simp; omega)).1

private theorem dvxv_same (hr : Room R Ω ρ K) {p q : ℕ} (hK : p + q + 1 ≤ K) {u v : Vec} (hu : ∀ i, |u i| ≤ 2 ^ p)
    (hv : ∀ i, |v i| ≤ 2 ^ q) : Fp.dvxv ρ u v = Fp.dvxv R u v ∧ ∀ i, |Fp.dvxv R u v i| ≤ 2 ^ (p + q + 1) := by
  have m := fun i j => ((Same.of (hu i)).mul (Same.of (hv j))).rnd hr (by omega)
  have d := fun i j k l => ((m i j).sub (m k l)).rnd hr (by simp; omega)
  simp only [max_self] at d
  unfold Fp.dvxv
  rw [(d 1 2 2 1).1, (d 2 0 0 2).1, (d 0 1 1 0).1]
  refine ⟨rfl, fun i => ?_⟩
  fin_cases i
  · exact (d 1 2 2 1).2
  · exact (d 2 0 0 2).2
  · exact (d 0 1 1 0).2

private theorem modulus_same (hr : Room R Ω ρ K) {p : ℕ} (hK : p + p + 3 ≤ K) {v : Vec} (hv : ∀ i, |v i| ≤ 2 ^ p) :
    Same (p + p + 3) (Fp.dvn ρ v).1 (Fp.dvn R v).1 :=
  ((acc3_same hr (n := p + p) (by omega) fun i => ((Same.of (hv i)).mul (Same.of (hv i))).rnd hr (by omega)).sqrt).rnd hr (by omega)

/-- A component that is not tiny makes a modulus that is not. -/
private theorem modulus_ge (R : Rounding F) {t : ℤ} (ht : F.emin ≤ t) (ht2 : F.emin ≤ 2 * t) {v : Vec} {i : Fin 3} (h : (2 : ℝ) ^ t ≤ |v i|) :
    (2 : ℝ) ^ t ≤ (Fp.dvn R v).1 := by
  have rp : ∀ e : ℤ, F.emin ≤ e → F.Rep ((2 : ℝ) ^ e) := fun e he => by
    have := rep_of_mul (F := F) (k := 1) (e := e) he (by rw [abs_one]; exact one_le_pow₀ (by norm_num))
    simpa using this
  have sq : (2 : ℝ) ^ (2 * t) ≤ R (v i * v i) := by
    refine R.rep_le ?_ (rp _ ht2)
    rw [two_mul, zpow_split, ← abs_mul_abs_self (v i)]
    exact mul_self_le_mul_self (two_zpow_pos t).le h
  have pos : ∀ j, 0 ≤ R (v j * v j) := fun j => R.nonneg (mul_self_nonneg _)
  have acc : R (v i * v i) ≤ Fp.acc3 R fun j => R (v j * v j) := by
    unfold Fp.acc3
    have e0 : R (v 0 * v 0) ≤ R (0 + R (v 0 * v 0)) := by rw [zero_add]; exact R.rep_le le_rfl (R.rep _)
    have e1 : R (0 + R (v 0 * v 0)) ≤ R (R (0 + R (v 0 * v 0)) + R (v 1 * v 1)) := R.rep_le (by linarith [pos 1]) (R.rep _)
    have e1' : R (v 1 * v 1) ≤ R (R (0 + R (v 0 * v 0)) + R (v 1 * v 1)) := R.rep_le (by linarith [pos 0]) (R.rep _)
    have e2 : R (R (0 + R (v 0 * v 0)) + R (v 1 * v 1)) ≤ R (R (R (0 + R (v 0 * v 0)) + R (v 1 * v 1)) + R (v 2 * v 2)) :=
      R.rep_le (by linarith [pos 2]) (R.rep _)
    have e2' : R (v 2 * v 2) ≤ R (R (R (0 + R (v 0 * v 0)) + R (v 1 * v 1)) + R (v 2 * v 2)) :=
      R.rep_le (by linarith [pos 0, pos 1]) (R.rep _)
    fin_cases i
    · exact e0.trans (e1.trans e2)
    · exact e1'.trans e2
    · exact e2'
  refine R.rep_le ?_ (rp _ ht)
  apply Real.le_sqrt_of_sq_le
  rw [pow_two, ← zpow_split, ← two_mul]
  exact sq.trans acc

private theorem dvn_same (hr : Room R Ω ρ K) {p t : ℕ} (hK : p + p + 3 ≤ K) (ht : F.emin ≤ 2 * -(t : ℤ)) (htK : p + t ≤ K)
    (hs : -(F.emin + t) ≤ K) {v : Vec} (hv : ∀ i, |v i| ≤ 2 ^ p) : Fp.dvn ρ v = Fp.dvn R v := by
  have hF := hr.small
  have hm := modulus_same hr hK hv
  have hge : ∀ i, (2 : ℝ) ^ (-(t : ℤ)) ≤ |v i| → (2 : ℝ) ^ (-(t : ℤ)) ≤ (Fp.dvn R v).1 := fun i hi => modulus_ge R (by omega) ht hi
  have hrep : F.Rep (Fp.dvn R v).1 := R.rep _
  have e : ∀ σ : ℝ → ℝ, Fp.dvn σ v = ((Fp.dvn σ v).1, fun i => σ (v i / if (Fp.dvn σ v).1 ≤ 0 then 1 else (Fp.dvn σ v).1)) := fun σ => rfl
  rw [e ρ, e R, hm.1]
  refine Prod.ext rfl (funext fun i => ?_)
  dsimp only
  have final : |v i / if (Fp.dvn R v).1 ≤ 0 then 1 else (Fp.dvn R v).1| ≤ 2 ^ K := by
    split_ifs with h0
    · rw [div_one]; exact (hv i).trans (pow_le_pow_right₀ (by norm_num) (by omega))
    · rw [not_le] at h0
      generalize (Fp.dvn R v).1 = M at *
      rw [abs_div, abs_of_pos h0, div_le_iff₀ h0]
      by_cases hi : (2 : ℝ) ^ (-(t : ℤ)) ≤ |v i|
      · have h1 := hge i hi
        calc |v i| ≤ 2 ^ p := hv i
          _ = 2 ^ (p + t) * 2 ^ (-(t : ℤ)) := by
            rw [pow_add, zpow_neg, zpow_natCast, mul_assoc, mul_inv_cancel₀ (by positivity), mul_one]
          _ ≤ 2 ^ K * M := mul_le_mul (pow_le_pow_right₀ (by norm_num) htK) h1 (two_zpow_pos _).le (by positivity)
      · rw [not_le] at hi
        have h2 : (2 : ℝ) ^ F.emin ≤ M := by
          obtain ⟨m, e, -, he, rfl⟩ := hrep
          have hm1 : (1 : ℤ) ≤ m := by
            by_contra hc
            have : (m : ℝ) ≤ 0 := by exact_mod_cast (by omega : m ≤ 0)
            have := mul_nonpos_of_nonpos_of_nonneg this (two_zpow_pos e).le
            linarith
          have hm2 : (1 : ℝ) ≤ m := by exact_mod_cast hm1
          calc (2 : ℝ) ^ F.emin ≤ 2 ^ e := two_zpow_le he
            _ = 1 * 2 ^ e := (one_mul _).symm
            _ ≤ m * 2 ^ e := mul_le_mul_of_nonneg_right hm2 (two_zpow_pos e).le
        calc |v i| ≤ 2 ^ (-(t : ℤ)) := hi.le
          _ ≤ 2 ^ ((K : ℤ) + F.emin) := two_zpow_le (by omega)
          _ = 2 ^ K * 2 ^ F.emin := by rw [zpow_split, zpow_natCast]
          _ ≤ 2 ^ K * M := mul_le_mul_of_nonneg_left h2 (by positivity)
  exact hr.agree _ (final.trans hr.room)

/-- C94: for vectors with components up to 2^510 (`float`: 2^62) and a matrix and a vector whose elements are up to 2^p and 2^q with
    p + q at most 1020 (`float`: 124), no operation of `dvdv`, `dvxv`, `dvn`, `dmxv`, `dimxv`, `dmxm` and of their single precision
    twins overflows. -/
theorem C94_vectors (D : Rounding binary64) (δ : ℝ → ℝ) (hD : Overflowing D largest64 δ) (u v : Vec)
    (hu : ∀ i, |u i| ≤ 2 ^ 510) (hv : ∀ i, |v i| ≤ 2 ^ 510) (p q : ℕ) (hpq : p + q ≤ 1020) (M N : Mat) (w : Vec)
    (hM : ∀ i j, |M i j| ≤ 2 ^ p) (hN : ∀ i j, |N i j| ≤ 2 ^ q) (hw : ∀ i, |w i| ≤ 2 ^ q) :
    Fp.dvdv δ u v = Fp.dvdv D u v ∧ Fp.dvxv δ u v = Fp.dvxv D u v ∧ Fp.dvn δ v = Fp.dvn D v ∧
    Fp.dmxv δ M w = Fp.dmxv D M w ∧ Fp.dimxv δ M w = Fp.dimxv D M w ∧ Fp.dmxm δ M N = Fp.dmxm D M N :=
  have hr := room64 hD
  ⟨dvdv_same hr (by norm_num) hu hv, (dvxv_same hr (by norm_num) hu hv).1,
    dvn_same hr (t := 400) (by norm_num) (by norm_num [binary64]) (by norm_num) (by norm_num [binary64]) hv,
    (dmxv_same hr (by omega) hM hw).1, (dmxv_same hr (by omega) hM hw).2, (dmxm_same hr (by omega) hM hN).1⟩

/-- The same in single precision. -/
theorem C94_vectors_single (S : Rounding binary32) (σ : ℝ → ℝ) (hS : Overflowing S largest32 σ) (u v : Vec)
    (hu : ∀ i, |u i| ≤ 2 ^ 62) (hv : ∀ i, |v i| ≤ 2 ^ 62) (p q : ℕ) (hpq : p + q ≤ 124) (M N : Mat) (w : Vec)
    (hM : ∀ i j, |M i j| ≤ 2 ^ p) (hN : ∀ i j, |N i j| ≤ 2 ^ q) (hw : ∀ i, |w i| ≤ 2 ^ q) :
    Fp.dvdv σ u v = Fp.dvdv S u v ∧ Fp.dvxv σ u v = Fp.dvxv S u v ∧ Fp.dvn σ v = Fp.dvn S v ∧
    Fp.dmxv σ M w = Fp.dmxv S M w ∧ Fp.dimxv σ M w = Fp.dimxv S M w ∧ Fp.dmxm σ M N = Fp.dmxm S M N :=
  have hr := room32 hS
  ⟨dvdv_same hr (by norm_num) hu hv, (dvxv_same hr (by norm_num) hu hv).1,
    dvn_same hr (t := 60) (by norm_num) (by norm_num [binary32]) (by norm_num) (by norm_num [binary32]) hv,
    (dmxv_same hr (by omega) hM hw).1, (dmxv_same hr (by omega) hM hw).2, (dmxm_same hr (by omega) hM hN).1⟩

private theorem dsepv_same {R : Rounding binary64} (hr : Room R Ω ρ 1023) (at2 : ℝ → ℝ → ℝ) {u v : Vec} (hu : ∀ i, |u i| ≤ 2 ^ 254)
    (hv : ∀ i, |v i| ≤ 2 ^ 254) : Fp.dsepv ρ at2 u v = Fp.dsepv R at2 u v := by
  obtain ⟨h1, h2⟩ := dvxv_same hr (by norm_num) hu hv
  have h3 := dvn_same hr (p := 509) (t := 400) (by norm_num) (by norm_num [binary64]) (by norm_num) (by norm_num [binary64]) h2
  unfold Fp.dsepv
  rw [h1, h3, dvdv_same hr (by norm_num) hu hv]

/-- C94: for components up to 2^254 no operation of `dsepv` overflows, for components up to 2^510 none of `dcc2s`; and none of `sepv`,
    whose arguments are of type `float`, ever, provided the library's arc tangent is at most 4. -/
theorem C94_separation (D : Rounding binary64) (S : Rounding binary32) (δ σ : ℝ → ℝ) (hD : Overflowing D largest64 δ)
    (hS : Overflowing S largest32 σ) (at2 : ℝ → ℝ → ℝ) (ha : ∀ y x, |at2 y x| ≤ 4) (u v a b w : Vec) (hu : ∀ i, |u i| ≤ 2 ^ 254)
    (hv : ∀ i, |v i| ≤ 2 ^ 254) (hab : ∀ i, |a i| ≤ largest32 ∧ |b i| ≤ largest32) (hw : ∀ i, |w i| ≤ 2 ^ 510) :
    Fp.dsepv δ at2 u v = Fp.dsepv D at2 u v ∧ Fp.sepv σ δ at2 a b = Fp.sepv S D at2 a b ∧ Fp.dcc2s δ at2 w = Fp.dcc2s D at2 w := by
  have hr := room64 hD
  have l32 : largest32 ≤ 2 ^ 254 := by
    have : (2 : ℝ) ^ 254 = 2 ^ 126 * 2 ^ 128 := by rw [← pow_add]
    unfold largest32; rw [this]; norm_num
  refine ⟨dsepv_same hr at2 hu hv, ?_, ?_⟩
  · unfold Fp.sepv
    rw [dsepv_same hr at2 (fun i => (hab i).1.trans l32) (fun i => (hab i).2.trans l32)]
    refine (Same.lit (room32 hS) (n := 2) ?_ (by norm_num)).1
    unfold Fp.dsepv
    dsimp only
    split_ifs
    · exact (ha _ _).trans (by norm_num)
    · simp
  · have m := fun i => ((Same.of (hw i)).mul (Same.of (hw i))).rnd hr (by norm_num)
    have r := ((((m 0).add (m 1)).rnd hr (by norm_num)).sqrt).rnd hr (by norm_num)
    unfold Fp.dcc2s
    dsimp only
    rw [r.1]

/-- C94: beyond that range `dvn` does overflow: arithmetic that returns something else for results above the largest `double` gives
    another modulus of the vector (2^512, 0, 0). -/
theorem C94_dvn_overflows (R : Rounding binary64) : ∃ ρ, Overflowing R largest64 ρ ∧ (Fp.dvn ρ ![2 ^ 512, 0, 0]).1 = 0 ∧
    (Fp.dvn R ![2 ^ 512, 0, 0]).1 = 2 ^ 512 := by
  have hb : largest64 < 2 ^ 512 * 2 ^ 512 := by
    unfold largest64
    rw [← pow_add, show 512 + 512 = 53 + 971 by norm_num, pow_add]
    exact mul_lt_mul_of_pos_right (by norm_num) (by positivity)
  obtain ⟨ρ, h, h0, h1⟩ : ∃ ρ, Overflowing R largest64 ρ ∧ ρ 0 = 0 ∧ ρ (2 ^ 512 * 2 ^ 512) = 0 := by
    refine ⟨fun x => if |x| ≤ largest64 then R x else 0, fun x hx => if_pos hx, ?_, if_neg ?_⟩
    · dsimp only
      rw [R.zero, ite_self]
    · rw [not_le, abs_of_pos (by positivity)]; exact hb
  refine ⟨ρ, h, ?_, ?_⟩
  · unfold Fp.dvn Fp.acc3
    simp only [Matrix.cons_val_zero, Matrix.cons_val_one, Matrix.cons_val, h1, h0, mul_zero, add_zero, Real.sqrt_zero]
  · have hF : binary64.emin ≤ 0 := by simp [binary64]
    have r1 : R ((2 : ℝ) ^ 512 * 2 ^ 512) = 2 ^ 512 * 2 ^ 512 := by rw [← pow_add]; exact R.eq_self (rep_two_pow hF _)
    unfold Fp.dvn Fp.acc3
    simp only [Matrix.cons_val_zero, Matrix.cons_val_one, Matrix.cons_val, mul_zero, add_zero, zero_add, R.zero, r1]
    rw [Real.sqrt_mul_self (by positivity)]
    exact R.eq_self (rep_two_pow hF _)

/-! ### Rotations and spherical trigonometry -/

private theorem identity_le (i j : Fin 3) : |identity3 i j| ≤ 2 ^ 1 := by
  fin_cases i <;> fin_cases j <;> norm_num [identity3]

private theorem rotation_le {s c : ℝ} (hs : |s| ≤ 2) (hc : |c| ≤ 2) {ch : Char} {M : Mat} (h : eulerRotation ch s c = some M) (i j : Fin 3) :
    |M i j| ≤ 2 ^ 1 := by
  have hs' : |-s| ≤ 2 := by rwa [abs_neg]
  have hc' : |-c| ≤ 2 := by rwa [abs_neg]
  unfold eulerRotation at h
  split_ifs at h
  all_goals
    cases h
    fin_cases i <;> fin_cases j <;> simp [identity3] <;> assumption

private theorem step_same (hr : Room R Ω ρ K) {k : ℕ} (hK : k + 4 ≤ K) {sn cs : ℝ → ℝ} (hs : ∀ a, |sn a| ≤ 2) (hc : ∀ a, |cs a| ≤ 2)
    (order : List Char) (phi theta psi : ℝ) {st : ℕ × Mat} (hst : ∀ i j, |st.2 i j| ≤ 2 ^ k) (n : ℕ) :
    Fp.eulerStep ρ sn cs order phi theta psi st n = Fp.eulerStep R sn cs order phi theta psi st n ∧
      ∀ i j, |(Fp.eulerStep R sn cs order phi theta psi st n).2 i j| ≤ 2 ^ (k + 4) := by
  unfold Fp.eulerStep
  dsimp only
  have weak : (2 : ℝ) ^ (1 + k + 3) ≤ 2 ^ (k + 4) := pow_le_pow_right₀ (by norm_num) (by omega)
  have weak' : (2 : ℝ) ^ k ≤ 2 ^ (k + 4) := pow_le_pow_right₀ (by norm_num) (by omega)
  by_cases h : n < st.1
  · simp only [if_pos h]
    generalize (if n = 0 then phi else if n = 1 then theta else psi) = x
    cases hM : eulerRotation (order.getD n '\x00') (sn x) (cs x) with
    | some M =>
      obtain ⟨e, b⟩ := dmxm_same hr (p := 1) (q := k) (by omega) (rotation_le (hs _) (hc _) hM) hst
      exact ⟨Prod.ext rfl e, fun i j => (b i j).trans weak⟩
    | none =>
      obtain ⟨e, b⟩ := dmxm_same hr (p := 1) (q := k) (by omega) identity_le hst
      exact ⟨Prod.ext rfl e, fun i j => (b i j).trans weak⟩
  · simp only [if_neg h]
    exact ⟨trivial, fun i j => (hst i j).trans weak'⟩

theorem deuler_same (hr : Room R Ω ρ K) (hK : 13 ≤ K) {sn cs : ℝ → ℝ} (hs : ∀ a, |sn a| ≤ 2) (hc : ∀ a, |cs a| ≤ 2)
    (order : List Char) (phi theta psi : ℝ) :
    Fp.deuler ρ sn cs order phi theta psi = Fp.deuler R sn cs order phi theta psi ∧
      ∀ i j, |Fp.deuler R sn cs order phi theta psi i j| ≤ 2 ^ 13 := by
  unfold Fp.deuler
  dsimp only
  simp only [List.foldl_cons, List.foldl_nil]
  generalize (if order.length > 3 then 3 else order.length) = l
  obtain ⟨e1, b1⟩ := step_same hr (k := 1) (by omega) hs hc order phi theta psi (st := (l, identity3)) identity_le 0
  obtain ⟨e2, b2⟩ := step_same hr (k := 1 + 4) (by omega) hs hc order phi theta psi b1 1
  obtain ⟨e3, b3⟩ := step_same hr (k := 1 + 4 + 4) (by omega) hs hc order phi theta psi b2 2
  rw [e1, e2, e3]
  exact ⟨rfl, b3⟩

private theorem vector_same (hr : Room R Ω ρ K) (hK : 5 ≤ K) {sn cs : ℝ → ℝ} (hs : ∀ a, |sn a| ≤ 2) (hc : ∀ a, |cs a| ≤ 2) (a b p : ℝ) :
    Fp.horizonVector ρ sn cs a b p = Fp.horizonVector R sn cs a b p ∧ ∀ i, |Fp.horizonVector R sn cs a b p i| ≤ 2 ^ 4 := by
  have S : ∀ x, Same 1 (sn x) (sn x) := fun x => Same.of (by simpa using hs x)
  have C : ∀ x, Same 1 (cs x) (cs x) := fun x => Same.of (by simpa using hc x)
  have x := ((((((C a).neg.mul (C b)).rnd hr (by omega)).mul (S p)).rnd hr (by omega)).add (((S b).mul (C p)).rnd hr (by omega))).rnd hr (by norm_num; omega)
  have y := ((S a).neg.mul (C b)).rnd hr (by omega)
  have z := ((((((C a).mul (C b)).rnd hr (by omega)).mul (C p)).rnd hr (by omega)).add (((S b).mul (S p)).rnd hr (by omega))).rnd hr (by norm_num; omega)
  unfold Fp.horizonVector
  dsimp only
  rw [x.1, y.1, z.1]
  refine ⟨rfl, fun i => ?_⟩
  fin_cases i
  · exact x.2
  · exact y.2.trans (by norm_num)
  · exact z.2

/-- C94: with library sines and cosines at most 2 and arc tangents at most 4, no operation of `deuler`, `dcs2c`, `dsep`, `de2h`, `dh2e`, `zd`
    and `pa` overflows, whatever the angles; nor of `dbear` for right ascensions up to 2^1000. -/
theorem C94_spherical (R : Rounding binary64) (ρ : ℝ → ℝ) (h : Overflowing R largest64 ρ) (sn cs : ℝ → ℝ) (at2 : ℝ → ℝ → ℝ)
    (hs : ∀ a, |sn a| ≤ 2) (hc : ∀ a, |cs a| ≤ 2) (ha : ∀ y x, |at2 y x| ≤ 4) (order : List Char) (a b c d : ℝ) :
    Fp.deuler ρ sn cs order a b c = Fp.deuler R sn cs order a b c ∧
    Fp.dcs2c ρ sn cs a b = Fp.dcs2c R sn cs a b ∧
    Fp.dsep ρ sn cs at2 a b c d = Fp.dsep R sn cs at2 a b c d ∧
    Fp.de2h ρ sn cs at2 ⟨a, b⟩ c = Fp.de2h R sn cs at2 ⟨a, b⟩ c ∧
    Fp.dh2e ρ sn cs at2 a b c = Fp.dh2e R sn cs at2 a b c ∧
    Fp.zd ρ sn cs at2 ⟨a, b⟩ c = Fp.zd R sn cs at2 ⟨a, b⟩ c ∧
    Fp.pa ρ sn cs at2 ⟨a, b⟩ c = Fp.pa R sn cs at2 ⟨a, b⟩ c ∧
    (|a| ≤ 2 ^ 1000 → |c| ≤ 2 ^ 1000 → Fp.dbear ρ sn cs at2 ⟨a, b⟩ ⟨c, d⟩ = Fp.dbear R sn cs at2 ⟨a, b⟩ ⟨c, d⟩) := by
  have hr := room64 h
  have S : ∀ x, Same 1 (sn x) (sn x) := fun x => Same.of (by simpa using hs x)
  have C : ∀ x, Same 1 (cs x) (cs x) := fun x => Same.of (by simpa using hc x)
  have v2 : ∀ a b, Fp.dcs2c ρ sn cs a b = Fp.dcs2c R sn cs a b ∧ ∀ i, |Fp.dcs2c R sn cs a b i| ≤ 2 ^ 254 := fun a b => by
    have x := ((C a).mul (C b)).rnd hr (by norm_num)
    have y := ((S a).mul (C b)).rnd hr (by norm_num)
    unfold Fp.dcs2c
    rw [x.1, y.1]
    refine ⟨rfl, fun i => ?_⟩
    fin_cases i
    · exact (Same.weaken (n := 254) (Same.of x.2) (by norm_num)).2
    · exact (Same.weaken (n := 254) (Same.of y.2) (by norm_num)).2
    · exact ((S b).weaken (n := 254) (by norm_num)).2
  obtain ⟨e, b4⟩ := vector_same hr (by norm_num) hs hc a b c
  have m := fun i => ((Same.of (b4 i)).mul (Same.of (b4 i))).rnd hr (by norm_num)
  have r := ((((m 0).add (m 1)).rnd hr (by norm_num)).sqrt).rnd hr (by norm_num)
  refine ⟨(deuler_same hr (by norm_num) hs hc order a b c).1, (v2 a b).1, ?_, ?_, ?_, ?_, ?_, ?_⟩
  · unfold Fp.dsep
    rw [(v2 a b).1, (v2 c d).1, dsepv_same hr at2 (v2 a b).2 (v2 c d).2]
  · have t := ((Same.of (n := 2) ((ha (Fp.horizonVector R sn cs a b c 1) (Fp.horizonVector R sn cs a b c 0)).trans (by norm_num))).add
      (Same.lit hr (a := 6.283185307179586476925286766559) (n := 3) (by norm_num [abs_of_pos]) (by norm_num))).rnd hr (by norm_num)
    unfold Fp.de2h
    dsimp only
    rw [e, r.1, t.1]
  · unfold Fp.dh2e
    dsimp only
    rw [e, r.1]
  · have x := ((((((C a).mul (C b)).rnd hr (by norm_num)).mul (S c)).rnd hr (by norm_num)).sub (((S b).mul (C c)).rnd hr (by norm_num))).rnd hr (by norm_num)
    have y := ((S a).mul (C b)).rnd hr (by norm_num)
    have z := ((((((C a).mul (C b)).rnd hr (by norm_num)).mul (C c)).rnd hr (by norm_num)).add (((S b).mul (S c)).rnd hr (by norm_num))).rnd hr (by norm_num)
    have q := ((((x.mul x).rnd hr (by norm_num)).add ((y.mul y).rnd hr (by norm_num))).rnd hr (by norm_num)).sqrt.rnd hr (by norm_num)
    unfold Fp.zd
    dsimp only
    rw [q.1, z.1]
  · have y := ((C c).mul (S a)).rnd hr (by norm_num)
    have x := ((((S c).mul (C b)).rnd hr (by norm_num)).sub (((((C c).mul (S b)).rnd hr (by norm_num)).mul (C a)).rnd hr (by norm_num))).rnd hr (by norm_num)
    unfold Fp.pa
    dsimp only
    rw [x.1, y.1]
  · intro h1 h2
    have q := ((Same.of h2).sub (Same.of h1)).rnd hr (by norm_num)
    have x := ((((S d).mul (C b)).rnd hr (by norm_num)).sub (((((C d).mul (S b)).rnd hr (by norm_num)).mul (C (R (c - a)))).rnd hr (by norm_num))).rnd hr (by norm_num)
    have y := ((S (R (c - a))).mul (C d)).rnd hr (by norm_num)
    unfold Fp.dbear
    dsimp only
    rw [q.1, x.1, y.1]

/-- Arithmetic that overflows exists: it need not be the ideal one. -/
example (R : Rounding binary64) : ∃ ρ, Overflowing R largest64 ρ ∧ ρ (2 * largest64) ≠ R (2 * largest64) := by
  have hp : 0 < largest64 := by unfold largest64; norm_num
  refine ⟨fun x => if |x| ≤ largest64 then R x else R x + 1, fun x hx => if_pos hx, ?_⟩
  dsimp only
  rw [if_neg (by rw [not_le, abs_of_pos (by linarith)]; linarith)]
  linarith

example : |(0.3 : ℝ)| ≤ 2 ^ 796 ∧ (4 : ℤ) ≤ 9 ∧ ∀ i, |(![1, 2, 3] : Vec) i| ≤ 2 ^ 510 := by
  have one : (1 : ℝ) ≤ 2 ^ 796 := one_le_pow₀ (by norm_num)
  refine ⟨by rw [abs_of_pos (by norm_num)]; exact le_trans (by norm_num) one, by norm_num, fun i => ?_⟩
  have : (4 : ℝ) ≤ 2 ^ 510 := by
    calc (4 : ℝ) = 2 ^ 2 := by norm_num
      _ ≤ 2 ^ 510 := pow_le_pow_right₀ (by norm_num) (by norm_num)
  fin_cases i <;> refine le_trans ?_ this <;> norm_num

end Sla.Props
