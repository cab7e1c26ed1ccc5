/- C100: `epv` and `evp` agree. -/
import Verif.Lemmas.EpvSeries
import Verif.Props.Evp
import Verif.Props.EclipticMotion

noncomputable section
namespace Sla.Props

open Real Sla.Spec Sla.EvpL Matrix

/-! ### Frames -/

private theorem ecmat_turn (date : ℝ) : ecmat date = rotX (ecmatPhi date) := by
  apply Matrix.ext_of_mulVec_single
  intro i
  rw [ecmat, ← dmxv_eq, C23_deuler, ← rotX_frame, frameMat_mulVec]
  simp [axisOf, turnSequence]

private theorem equator_turn (φ : ℝ) (v : Vec) : evpEquator φ 0 v = (rotX φ)ᵀ *ᵥ v := by
  ext i; fin_cases i <;> simp [evpEquator, rotX, mulVec, dotProduct, Fin.sum_univ_three] <;> ring

private theorem turn_polar (p L ρ γ : ℝ) : rotZ p *ᵥ polar (cos L) (sin L) ρ 0 γ = polar (cos (L - p)) (sin (L - p)) ρ 0 γ := by
  ext i; fin_cases i <;> simp [polar, rotZ, mulVec, dotProduct, Fin.sum_univ_three, cos_sub, sin_sub] <;> ring

private theorem len_triangle (u v w : Vec) : len (u - w) ≤ len (u - v) + len (v - w) := by
  have : u - w = (u - v) + (v - w) := by abel
  rw [this]; exact len_add_le _ _

private theorem len_swap (u v : Vec) : len (u - v) = len (v - u) := by rw [← len_neg', neg_sub]

private theorem mul_transpose_self' {R : Mat} (h : IsRotation R) : R * Rᵀ = 1 := mul_eq_one_comm.1 h.transpose_mul_self

/-- From the ecliptic of date to the equator of J2000, by `ecmat` and `prec`, or by the general precession. -/
private theorem to_j2000 {date : ℝ} (h : epj date ∈ Set.Icc (1900 : ℝ) 2100) (v : Vec) :
    len ((prec (epj date) 2000) *ᵥ ((ecmat date)ᵀ *ᵥ v) -
      (ecmat 51544.5)ᵀ *ᵥ (rotZ (generalPrecession 2000 (epj date) / 3600 * (π / 180)) *ᵥ v)) ≤
      47.1 * |(epj date - 2000) / 100| / 3600 * (π / 180) * len v := by
  have e1 : epj2d (epj date) = date := by unfold epj2d epj; ring
  have e2 : epj2d 2000 = 51544.5 := by unfold epj2d; ring
  have hM : IsRotation (ecmat date) := by rw [ecmat_turn]; exact rotX_rotation _
  have hE : IsRotation (ecmat 51544.5) := by rw [ecmat_turn]; exact rotX_rotation _
  have hP : IsRotation (prec 2000 (epj date)) := (C24_rotations 2000 (epj date)).1
  have k := C99_ecliptic (a := 2000) (by norm_num) h ((prec (epj date) 2000) *ᵥ ((ecmat date)ᵀ *ᵥ v))
  rw [e1, e2] at k
  simp only [dmxv_eq] at k
  rw [← frameMat_mulVec, rotZ_frame] at k
  have hp : prec (epj date) 2000 = (prec 2000 (epj date))ᵀ := (C88_reversible 2000 (epj date) 0).1
  have i1 : prec 2000 (epj date) *ᵥ (prec (epj date) 2000 *ᵥ ((ecmat date)ᵀ *ᵥ v)) = (ecmat date)ᵀ *ᵥ v := by
    rw [hp, mulVec_mulVec, mul_transpose_self' hP, one_mulVec]
  have i2 : ecmat date *ᵥ ((ecmat date)ᵀ *ᵥ v) = v := by
    rw [mulVec_mulVec, mul_transpose_self' hM, one_mulVec]
  rw [i1, i2] at k
  obtain ⟨u, hu⟩ : ∃ u, u = prec (epj date) 2000 *ᵥ ((ecmat date)ᵀ *ᵥ v) := ⟨_, rfl⟩
  rw [← hu] at k ⊢
  have hl : len u = len v := by
    rw [hu, hp, len_mulVec hP.transpose, len_mulVec hM.transpose]
  rw [hl] at k
  generalize generalPrecession 2000 (epj date) / 3600 * (π / 180) = p at *
  refine le_trans (le_of_eq ?_) k
  rw [← len_mulVec hE (u - _), mulVec_sub, mulVec_mulVec, mul_transpose_self' hE, one_mulVec,
    ← len_mulVec (rotZ_rotation (-p)) (_ - _), mulVec_sub, mulVec_mulVec v, len_swap]
  congr 2
  have : rotZ (-p) * rotZ p = 1 := by
    ext i j; fin_cases i <;> fin_cases j <;> simp [rotZ, Matrix.mul_apply, Fin.sum_univ_three] <;> nlinarith [cs_sq p]
  rw [this, one_mulVec]

private theorem len_of_comp {v : Vec} {a b c X : ℝ} (h0 : |v 0| ≤ a) (h1 : |v 1| ≤ b) (h2 : |v 2| ≤ c) (hX : 0 ≤ X)
    (h : a ^ 2 + b ^ 2 + c ^ 2 ≤ X ^ 2) : len v ≤ X := by
  rw [len_eq]
  refine Real.sqrt_le_iff.2 ⟨hX, le_trans ?_ h⟩
  have q0 := sq_le_sq' (abs_le.mp h0).1 (abs_le.mp h0).2
  have q1 := sq_le_sq' (abs_le.mp h1).1 (abs_le.mp h1).2
  have q2 := sq_le_sq' (abs_le.mp h2).1 (abs_le.mp h2).2
  linarith [q0, q1, q2, sq (v 0), sq (v 1), sq (v 2)]

private theorem comp_le_len (v : Vec) (i : Fin 3) : |v i| ≤ len v := by
  rw [len_eq]
  apply Real.abs_le_sqrt
  fin_cases i <;> simp only [Fin.zero_eta, Fin.mk_one, Fin.reduceFinMk] <;>
    nlinarith [mul_self_nonneg (v 0), mul_self_nonneg (v 1), mul_self_nonneg (v 2)]

private theorem comp_mul {k K L x : ℝ} (hk : |k| ≤ K) (hx : |x| ≤ L) : |k * x| ≤ K * L := abs_mul_le' hk hx

/-- The matrix in `epv` is the ecliptic to equator matrix of J2000. -/
private theorem icrs_near (v : Vec) : len (Epv.toIcrs (v 0) (v 1) (v 2) - (ecmat 51544.5)ᵀ *ᵥ v) ≤ 6e-6 * len v := by
  have e : ecmatPhi 51544.5 = 84381.448 * as2r := by
    simp only [ecmatPhi]; norm_num; ring
  obtain ⟨hc, hs⟩ := obliquity_cs
  rw [ecmat_turn, e]
  unfold rotX
  have hL := len_nonneg v
  have l0 := comp_le_len v 0
  have l1 := comp_le_len v 1
  have l2 := comp_le_len v 2
  generalize len v = L at *
  have c1 : |0.917482137087 - cos (84381.448 * as2r)| ≤ 1.2e-6 := by rw [abs_le] at *; constructor <;> linarith
  have s1 : |0.397776982902 - sin (84381.448 * as2r)| ≤ 2.1e-6 := by rw [abs_le] at *; constructor <;> linarith
  generalize cos (84381.448 * as2r) = c at *
  generalize sin (84381.448 * as2r) = t at *
  have hv : Epv.toIcrs (v 0) (v 1) (v 2) - (!![1, 0, 0; 0, c, t; 0, -t, c] : Mat)ᵀ *ᵥ v =
      ![0.000000211284 * v 1 - 0.000000091603 * v 2,
        -0.000000230286 * v 0 + (0.917482137087 - c) * v 1 - (0.397776982902 - t) * v 2,
        (0.397776982902 - t) * v 1 + (0.917482137087 - c) * v 2] := by
    ext i; fin_cases i <;> simp [Epv.toIcrs, mulVec, dotProduct, Fin.sum_univ_three] <;> ring
  have m1 := comp_mul (K := 0.000000211284) (by rw [abs_of_nonneg] <;> norm_num) l1
  have m2 := comp_mul (K := 0.000000091603) (by rw [abs_of_nonneg] <;> norm_num) l2
  have m3 := comp_mul (k := -0.000000230286) (K := 0.000000230286) (by rw [abs_of_nonpos] <;> norm_num) l0
  have m4 := comp_mul c1 l1
  have m5 := comp_mul s1 l2
  have m6 := comp_mul s1 l1
  have m7 := comp_mul c1 l2
  rw [hv]
  refine len_of_comp (a := 4e-7 * L) (b := 4e-6 * L) (c := 4e-6 * L) ?_ ?_ ?_ (by positivity) ?_
  · exact (abs_sub_le' m1 m2).trans (by linarith)
  · exact (abs_sub_le' (abs_add_le' m3 m4) m5).trans (by linarith)
  · exact (abs_add_le' m6 m7).trans (by linarith)
  · nlinarith [sq_nonneg L]

private theorem icrs_le (v : Vec) : len (Epv.toIcrs (v 0) (v 1) (v 2)) ≤ 1.000006 * len v := by
  have hE : IsRotation (ecmat 51544.5) := by rw [ecmat_turn]; exact rotX_rotation _
  have k := icrs_near v
  have e : Epv.toIcrs (v 0) (v 1) (v 2) = (Epv.toIcrs (v 0) (v 1) (v 2) - (ecmat 51544.5)ᵀ *ᵥ v) + (ecmat 51544.5)ᵀ *ᵥ v := by abel
  rw [e]
  refine (len_add_le _ _).trans ?_
  rw [len_mulVec hE.transpose]
  linarith

private theorem icrs_sub (u v : Vec) : Epv.toIcrs (u 0) (u 1) (u 2) - Epv.toIcrs (v 0) (v 1) (v 2) =
    Epv.toIcrs ((u - v) 0) ((u - v) 1) ((u - v) 2) := by
  ext i; fin_cases i <;> simp [Epv.toIcrs] <;> ring

/-! ### The orbit -/

/-- The heliocentric position of `evp` in the ecliptic of date, its longitude reckoned from the equinox of J2000. -/
private theorem orbit_near {T : ℝ} (hT : |T| ≤ 1) : len (rotZ (gp T) *ᵥ (eclAt (T + 1)).hpos - (ellipse T + wobble T)) ≤ 2.41e-4 := by
  have ht : |T + 1| ≤ 2 := by rw [abs_le] at *; constructor <;> linarith
  have hm := (moon_near ht).1
  have hl := pertL_bound ht (evpElements id (T + 1)).sec (evpElements id (T + 1)).args
  obtain ⟨hr, -, -⟩ := pert_bounds (T + 1) (evpElements id (T + 1)).sec (evpElements id (T + 1)).args
  obtain ⟨e1, e2, -⟩ := mE_range hT
  obtain ⟨-, -, p3, p4⟩ := ell_bounds (e := mE T) (by linarith) (by linarith) (mG T + evpPhi (mE T) (mG T))
  have hw : wobble T = rotZ (gp T) *ᵥ (eDis (T + 1)).pos := by rw [wobble, eDis, turn_polar]
  have he : (embAt (T + 1)).pos = polar (cos (evpPoly (evpFel 0) (T + 1) + evpPhi (mE T) (mG T) +
      (evpPert (T + 1) (evpElements id (T + 1)).sec (evpElements id (T + 1)).args).l))
      (sin (evpPoly (evpFel 0) (T + 1) + evpPhi (mE T) (mG T) +
      (evpPert (T + 1) (evpElements id (T + 1)).sec (evpElements id (T + 1)).args).l))
      ((1 - mE T * mE T) / (1 + mE T * cos (mG T + evpPhi (mE T) (mG T))) *
        (1 + (evpPert (T + 1) (evpElements id (T + 1)).sec (evpElements id (T + 1)).args).r)) 0 0 := by
    rw [embAt, emb_polar]; rfl
  rw [(helio_eq _).1, mulVec_add]
  have e : rotZ (gp T) *ᵥ (embAt (T + 1)).pos + rotZ (gp T) *ᵥ (moonAt (T + 1)).pos - (ellipse T + wobble T) =
      (rotZ (gp T) *ᵥ (embAt (T + 1)).pos - ellipse T) + rotZ (gp T) *ᵥ ((moonAt (T + 1)).pos - (eDis (T + 1)).pos) := by
    rw [hw, mulVec_sub]; abel
  rw [e]
  refine (len_add_le _ _).trans ?_
  rw [len_mulVec (rotZ_rotation _)]
  suffices h : len (rotZ (gp T) *ᵥ (embAt (T + 1)).pos - ellipse T) ≤ 2.32e-4 by linarith
  rw [he, turn_polar, ellipse]
  generalize (evpPert (T + 1) (evpElements id (T + 1)).sec (evpElements id (T + 1)).args).l = l at *
  generalize (evpPert (T + 1) (evpElements id (T + 1)).sec (evpElements id (T + 1)).args).r = r at *
  generalize (1 - mE T * mE T) / (1 + mE T * cos (mG T + evpPhi (mE T) (mG T))) = ρ at *
  have ρ1 : 0.98 ≤ ρ := by linarith
  have ρ2 : ρ ≤ 1.01677 := by linarith
  obtain ⟨r1, r2⟩ := abs_le.mp hr
  refine polar_dist' (by norm_num) ?_ ?_
  · nlinarith [mul_self_nonneg ρ]
  · have a1 : ρ * (1 + r) - ρ = ρ * r := by ring
    have a2 : evpPoly (evpFel 0) (T + 1) + evpPhi (mE T) (mG T) + l - gp T - (mA T + evpPhi (mE T) (mG T)) = l := by rw [mA]; ring
    rw [a1, a2]
    have b1 : |ρ * r| ≤ 1.01677 * 6.8e-5 := abs_mul_le' (by rw [abs_of_nonneg] <;> linarith) hr
    have b2 := sq_le_sq' (abs_le.mp b1).1 (abs_le.mp b1).2
    have b3 := sq_le_sq' (abs_le.mp hl).1 (abs_le.mp hl).2
    have b4 : ρ * (1 + r) * ρ ≤ 1.03395 := by
      have : ρ * ρ ≤ 1.01677 * 1.01677 := mul_self_le_mul_self (by linarith) ρ2
      nlinarith
    have b5 := mul_le_mul b4 b3 (sq_nonneg l) (by norm_num)
    refine (add_le_add b2 b5).trans (by norm_num)

/-- C100. From 1900 to 2100 the two independent ephemerides of the Earth agree: the heliocentric position given by `epv`, and
    that given by `evp` for the equinox of J2000, differ by at most 0.001 AU. -/
theorem C100_agreement (date : ℝ) (h : epj date ∈ Set.Icc (1900 : ℝ) 2100) :
    len ((epv date).hpos - (evp date 2000).hpos) ≤ 1e-3 := by
  obtain ⟨T, hT⟩ : ∃ T, T = (epj date - 2000) / 100 := ⟨_, rfl⟩
  have hTb : |T| ≤ 1 := by rw [hT, abs_le]; constructor <;> linarith [h.1, h.2]
  have t1 : (date - 15019.5) / 36525 = T + 1 := by rw [hT, epj]; ring
  have t2 : (date - 51544.5) / 365.25 = 100 * T := by rw [hT, epj]; ring
  have hd : |date - 15019.5| ≤ 73050 := by
    have : date - 15019.5 = 36525 * (T + 1) := by rw [← t1]; ring
    rw [this]; rw [abs_le] at *; constructor <;> linarith
  have hd5 : |date - 15019.5| ≤ 182625 := hd.trans (by norm_num)
  have hp := pi_lt_d6
  -- `evp`
  have h1 : (evp date 2000).hpos = prec (epj date) 2000 *ᵥ
      evpEquator (evpPoly evpEps (T + 1)) (evpEqcor date) (eclAt (T + 1)).hpos := by
    rw [(C75_equinox date 2000 0 (by norm_num) le_rfl).1, evp_of_date hd5 le_rfl, t1]
  have hε := evp_obliquity hd5
  rw [t1, abs_sub_comm] at hε
  have hδ := evp_eqcor_le hd
  have ht5 : |T + 1| ≤ 5 := by rw [abs_le] at *; constructor <;> linarith
  obtain ⟨-, hsz, -⟩ := helio_size ht5
  have k0 := evp_equator_near (ε := evpPoly evpEps (T + 1)) (ε' := ecmatPhi date) (δ := evpEqcor date) (eclAt (T + 1)).hpos
  have hlen := len_nonneg (eclAt (T + 1)).hpos
  have k1 : len (evpEquator (evpPoly evpEps (T + 1)) (evpEqcor date) (eclAt (T + 1)).hpos -
      (ecmat date)ᵀ *ᵥ (eclAt (T + 1)).hpos) ≤ 1.64e-5 := by
    rw [ecmat_turn, ← equator_turn]
    refine k0.trans ?_
    have : |evpPoly evpEps (T + 1) - ecmatPhi date| + |evpEqcor date| ≤ 1.6e-5 := by linarith
    exact (mul_le_mul this hsz hlen (by norm_num)).trans (by norm_num)
  have k2 := to_j2000 h (eclAt (T + 1)).hpos
  have ep : generalPrecession 2000 (epj date) / 3600 * (π / 180) = gp T := by
    rw [hT, generalPrecession, gp]; ring
  rw [ep, ← hT] at k2
  have hE : IsRotation (ecmat 51544.5) := by rw [ecmat_turn]; exact rotX_rotation _
  have hP : IsRotation (prec (epj date) 2000) := (C24_rotations (epj date) 2000).1
  have k3 := orbit_near hTb
  -- `epv`
  obtain ⟨x, hx⟩ : ∃ x : Vec, x = fun j => (Epv.helio (100 * T) j).1 := ⟨_, rfl⟩
  have h2 : (epv date).hpos = Epv.toIcrs (x 0) (x 1) (x 2) := by
    simp only [epv, t2, hx]
  obtain ⟨m0, m1, m2⟩ := lead_match hTb
  obtain ⟨w, hw⟩ : ∃ w, w = ellipse T + wobble T := ⟨_, rfl⟩
  rw [← hw] at m0 m1 m2 k3
  have k4 : len (x - w) ≤ 4.905e-4 := by
    refine len_of_comp (a := 2.98e-4) (b := 3.03e-4) (c := 2.446e-4) ?_ ?_ ?_ (by norm_num) (by norm_num)
    · rw [hx]; exact m0
    · rw [hx]; exact m1
    · rw [hx]; exact m2
  have k5 : len (rotZ (gp T) *ᵥ (eclAt (T + 1)).hpos) ≤ 1.0171 := by rw [len_mulVec (rotZ_rotation _)]; linarith
  generalize rotZ (gp T) *ᵥ (eclAt (T + 1)).hpos = y at *
  have k6 : len (Epv.toIcrs (x 0) (x 1) (x 2) - Epv.toIcrs (y 0) (y 1) (y 2)) ≤ 7.316e-4 := by
    rw [icrs_sub]
    refine (icrs_le _).trans ?_
    have := len_triangle x w y
    rw [len_swap w y] at this
    linarith
  have k7 := icrs_near y
  have k8 : len (prec (epj date) 2000 *ᵥ evpEquator (evpPoly evpEps (T + 1)) (evpEqcor date) (eclAt (T + 1)).hpos -
      prec (epj date) 2000 *ᵥ ((ecmat date)ᵀ *ᵥ (eclAt (T + 1)).hpos)) ≤ 1.64e-5 := by
    rw [← mulVec_sub, len_mulVec hP]; exact k1
  have k9 : 47.1 * |T| / 3600 * (π / 180) * len (eclAt (T + 1)).hpos ≤ 2.3226e-4 := by
    have : 47.1 * |T| / 3600 * (π / 180) ≤ 2.28352e-4 := by
      have := pi_pos
      have q : |T| * π ≤ 3.141593 := by nlinarith [abs_nonneg T]
      have : 47.1 * |T| / 3600 * (π / 180) = 47.1 / 648000 * (|T| * π) := by ring
      rw [this]; linarith
    exact (mul_le_mul this hsz hlen (by norm_num)).trans (by norm_num)
  rw [h1, h2]
  rw [len_swap] at k8 k2
  generalize prec (epj date) 2000 *ᵥ evpEquator (evpPoly evpEps (T + 1)) (evpEqcor date) (eclAt (T + 1)).hpos = A at *
  generalize prec (epj date) 2000 *ᵥ ((ecmat date)ᵀ *ᵥ (eclAt (T + 1)).hpos) = B at *
  generalize (ecmat 51544.5)ᵀ *ᵥ y = C at *
  have j1 := len_triangle (Epv.toIcrs (x 0) (x 1) (x 2)) (Epv.toIcrs (y 0) (y 1) (y 2)) A
  have j2 := len_triangle (Epv.toIcrs (y 0) (y 1) (y 2)) C A
  have j3 := len_triangle C B A
  linarith

example : ∃ date : ℝ, epj date ∈ Set.Icc (1900 : ℝ) 2100 ∧ epj date ≠ 2000 := ⟨60000, by norm_num [epj], by norm_num [epj]⟩

end Sla.Props
