import Verif.Lemmas.FpEvpVec
import Verif.Props.Evp

/-
`evp` in single and double precision: to the equator, the precession, and the whole (the chains of bounds are generated).
-/
namespace Sla.Fp
open Real (pi)
open Sla.Spec _root_.Spec Matrix Sla.Props
variable {S D snf csf sn cs : ℝ → ℝ}

theorem evpEqcor_near (hD : Dbl D) {date : ℝ} (he : |epj D date - Sla.epj date| ≤ 6.1e-13) (hj : |Sla.epj date - 1900| ≤ 200) :
    Nb (evpEqcor D date) (Sla.evpEqcor date) 3.78e-18 1.803e-5 := by
  have n1 : Nb _ _ 2.35e-13 1950 := hD.nlit (x := 1949.9997904423) (by norm_num) (by norm_num)
  have hb : |Sla.epj date - 1949.9997904423| ≤ 250.1 := by
    have h1 := abs_le.1 hj
    rw [abs_le]
    constructor <;> linarith
  have n2 : Nb (D (epj D date - D 1949.9997904423)) (Sla.epj date - 1949.9997904423) 8.76e-13 250.1 := ⟨hD.sub he n1.err hb (by norm_num), hb⟩
  have n3 : Nb _ _ 4.21e-18 0.035 := hD.nlit (x := 0.035) (by norm_num) (by norm_num)
  have n4 : Nb _ _ 1.03e-19 8.5e-4 := hD.nlit (x := 0.00085) (by norm_num) (by norm_num)
  have n5 : Nb _ _ 7.96e-16 0.2126 := hD.nmul n4 n2 (by norm_num) (by norm_num)
  have n6 : Nb _ _ 8.3e-16 0.2476 := hD.nadd n3 n5 (by norm_num) (by norm_num)
  have hpi : |D 0.7272205216643e-4 - pi / 43200| ≤ 1.5e-17 := by
    have h1 : |D 0.7272205216643e-4 - 0.7272205216643e-4| ≤ 1e-20 := hD.lit (B := 7.28e-5) (by norm_num) (by norm_num)
    have h2 := Real.pi_gt_d20
    have h3 := Real.pi_lt_d20
    rw [abs_le] at *
    constructor <;> linarith
  have hpi' : Nb (D 0.7272205216643e-4) (pi / 43200) 1.5e-17 7.28e-5 := ⟨hpi, by
    have h3 := Real.pi_lt_d20
    rw [abs_of_pos (by positivity)]
    linarith⟩
  have r : Nb _ _ 3.78e-18 1.803e-5 := hD.nmul hpi' n6 (by norm_num) (by norm_num)
  exact r

private theorem equator_hpos (hD : Dbl D) (hs : ∀ x, |sn x - Real.sin x| ≤ 2e-16) (hc : ∀ x, |cs x - Real.cos x| ≤ 2e-16)
    {deps' deps q' q : ℝ} {v' v : Vec} (hd : Nb deps' deps 1.49e-16 0.4106) (hq : Nb q' q 3.78e-18 1.803e-5)
    (h0 : Nb (v' 0) (v 0) 6.07e-8 1.02) (h1 : Nb (v' 1) (v 1) 6.07e-8 1.02) (h2 : Nb (v' 2) (v 2) 2.25e-11 3.735e-5) (i : Fin 3) :
    |evpEquator D sn cs deps' q' v' i - Sla.evpEquator deps q v i| ≤ 6.1e-8 := by
  have s : Nb _ _ 3.49e-16 1 := hd.sin hs (by norm_num)
  have co : Nb _ _ 3.49e-16 1 := hd.cos hc (by norm_num)
  have n1 : Nb _ _ 6.08e-8 1.02 := hD.nmul co h1 (by norm_num) (by norm_num)
  have n2 : Nb _ _ 2.26e-11 3.735e-5 := hD.nmul s h2 (by norm_num) (by norm_num)
  have ya : Nb _ _ 6.09e-8 1.021 := hD.nsub n1 n2 (by norm_num) (by norm_num)
  have n3 : Nb _ _ 6.08e-8 1.02 := hD.nmul s h1 (by norm_num) (by norm_num)
  have n4 : Nb _ _ 2.26e-11 3.735e-5 := hD.nmul co h2 (by norm_num) (by norm_num)
  have r2 : Nb _ _ 6.09e-8 1.021 := hD.nadd n3 n4 (by norm_num) (by norm_num)
  have n5 : Nb _ _ 1.1e-12 1.841e-5 := hD.nmul hq ya (by norm_num) (by norm_num)
  have r0 : Nb _ _ 6.08e-8 1.021 := hD.nsub h0 n5 (by norm_num) (by norm_num)
  have n6 : Nb _ _ 1.1e-12 1.84e-5 := hD.nmul hq h0 (by norm_num) (by norm_num)
  have r1 : Nb _ _ 6.1e-8 1.022 := hD.nadd ya n6 (by norm_num) (by norm_num)
  fin_cases i
  · exact r0.err.trans (by norm_num)
  · exact r1.err.trans (by norm_num)
  · exact r2.err.trans (by norm_num)

private theorem equator_hvelo (hD : Dbl D) (hs : ∀ x, |sn x - Real.sin x| ≤ 2e-16) (hc : ∀ x, |cs x - Real.cos x| ≤ 2e-16)
    {deps' deps q' q : ℝ} {v' v : Vec} (hd : Nb deps' deps 1.49e-16 0.4106) (hq : Nb q' q 3.78e-18 1.803e-5)
    (h0 : Nb (v' 0) (v 0) 3e-14 2.144e-7) (h1 : Nb (v' 1) (v 1) 3e-14 2.144e-7) (h2 : Nb (v' 2) (v 2) 9.35e-18 8.963e-12) (i : Fin 3) :
    |evpEquator D sn cs deps' q' v' i - Sla.evpEquator deps q v i| ≤ 3.03e-14 := by
  have s : Nb _ _ 3.49e-16 1 := hd.sin hs (by norm_num)
  have co : Nb _ _ 3.49e-16 1 := hd.cos hc (by norm_num)
  have n1 : Nb _ _ 3.01e-14 2.144e-7 := hD.nmul co h1 (by norm_num) (by norm_num)
  have n2 : Nb _ _ 9.36e-18 8.963e-12 := hD.nmul s h2 (by norm_num) (by norm_num)
  have ya : Nb _ _ 3.02e-14 2.145e-7 := hD.nsub n1 n2 (by norm_num) (by norm_num)
  have n3 : Nb _ _ 3.01e-14 2.144e-7 := hD.nmul s h1 (by norm_num) (by norm_num)
  have n4 : Nb _ _ 9.36e-18 8.963e-12 := hD.nmul co h2 (by norm_num) (by norm_num)
  have r2 : Nb _ _ 3.02e-14 2.145e-7 := hD.nadd n3 n4 (by norm_num) (by norm_num)
  have n5 : Nb _ _ 5.45e-19 3.868e-12 := hD.nmul hq ya (by norm_num) (by norm_num)
  have r0 : Nb _ _ 3.01e-14 2.145e-7 := hD.nsub h0 n5 (by norm_num) (by norm_num)
  have n6 : Nb _ _ 5.41e-19 3.866e-12 := hD.nmul hq h0 (by norm_num) (by norm_num)
  have r1 : Nb _ _ 3.03e-14 2.146e-7 := hD.nadd ya n6 (by norm_num) (by norm_num)
  fin_cases i
  · exact r0.err.trans (by norm_num)
  · exact r1.err.trans (by norm_num)
  · exact r2.err.trans (by norm_num)

private theorem equator_bpos (hD : Dbl D) (hs : ∀ x, |sn x - Real.sin x| ≤ 2e-16) (hc : ∀ x, |cs x - Real.cos x| ≤ 2e-16)
    {deps' deps q' q : ℝ} {v' v : Vec} (hd : Nb deps' deps 1.49e-16 0.4106) (hq : Nb q' q 3.78e-18 1.803e-5)
    (h0 : Nb (v' 0) (v 0) 8.74e-8 1.032) (h1 : Nb (v' 1) (v 1) 8.74e-8 1.032) (h2 : Nb (v' 2) (v 2) 6.11e-9 0.0107) (i : Fin 3) :
    |evpEquator D sn cs deps' q' v' i - Sla.evpEquator deps q v i| ≤ 9.38e-8 := by
  have s : Nb _ _ 3.49e-16 1 := hd.sin hs (by norm_num)
  have co : Nb _ _ 3.49e-16 1 := hd.cos hc (by norm_num)
  have n1 : Nb _ _ 8.75e-8 1.032 := hD.nmul co h1 (by norm_num) (by norm_num)
  have n2 : Nb _ _ 6.12e-9 0.0107 := hD.nmul s h2 (by norm_num) (by norm_num)
  have ya : Nb _ _ 9.37e-8 1.043 := hD.nsub n1 n2 (by norm_num) (by norm_num)
  have n3 : Nb _ _ 8.75e-8 1.032 := hD.nmul s h1 (by norm_num) (by norm_num)
  have n4 : Nb _ _ 6.12e-9 0.0107 := hD.nmul co h2 (by norm_num) (by norm_num)
  have r2 : Nb _ _ 9.37e-8 1.043 := hD.nadd n3 n4 (by norm_num) (by norm_num)
  have n5 : Nb _ _ 1.69e-12 1.881e-5 := hD.nmul hq ya (by norm_num) (by norm_num)
  have r0 : Nb _ _ 8.75e-8 1.033 := hD.nsub h0 n5 (by norm_num) (by norm_num)
  have n6 : Nb _ _ 1.58e-12 1.861e-5 := hD.nmul hq h0 (by norm_num) (by norm_num)
  have r1 : Nb _ _ 9.38e-8 1.044 := hD.nadd ya n6 (by norm_num) (by norm_num)
  fin_cases i
  · exact r0.err.trans (by norm_num)
  · exact r1.err.trans (by norm_num)
  · exact r2.err.trans (by norm_num)

private theorem equator_bvelo (hD : Dbl D) (hs : ∀ x, |sn x - Real.sin x| ≤ 2e-16) (hc : ∀ x, |cs x - Real.cos x| ≤ 2e-16)
    {deps' deps q' q : ℝ} {v' v : Vec} (hd : Nb deps' deps 1.49e-16 0.4106) (hq : Nb q' q 3.78e-18 1.803e-5)
    (h0 : Nb (v' 0) (v 0) 3.05e-14 2.148e-7) (h1 : Nb (v' 1) (v 1) 3.05e-14 2.148e-7) (h2 : Nb (v' 2) (v 2) 2.15e-17 1.496e-11) (i : Fin 3) :
    |evpEquator D sn cs deps' q' v' i - Sla.evpEquator deps q v i| ≤ 3.08e-14 := by
  have s : Nb _ _ 3.49e-16 1 := hd.sin hs (by norm_num)
  have co : Nb _ _ 3.49e-16 1 := hd.cos hc (by norm_num)
  have n1 : Nb _ _ 3.06e-14 2.148e-7 := hD.nmul co h1 (by norm_num) (by norm_num)
  have n2 : Nb _ _ 2.16e-17 1.496e-11 := hD.nmul s h2 (by norm_num) (by norm_num)
  have ya : Nb _ _ 3.07e-14 2.149e-7 := hD.nsub n1 n2 (by norm_num) (by norm_num)
  have n3 : Nb _ _ 3.06e-14 2.148e-7 := hD.nmul s h1 (by norm_num) (by norm_num)
  have n4 : Nb _ _ 2.16e-17 1.496e-11 := hD.nmul co h2 (by norm_num) (by norm_num)
  have r2 : Nb _ _ 3.07e-14 2.149e-7 := hD.nadd n3 n4 (by norm_num) (by norm_num)
  have n5 : Nb _ _ 5.54e-19 3.875e-12 := hD.nmul hq ya (by norm_num) (by norm_num)
  have r0 : Nb _ _ 3.06e-14 2.149e-7 := hD.nsub h0 n5 (by norm_num) (by norm_num)
  have n6 : Nb _ _ 5.5e-19 3.873e-12 := hD.nmul hq h0 (by norm_num) (by norm_num)
  have r1 : Nb _ _ 3.08e-14 2.15e-7 := hD.nadd ya n6 (by norm_num) (by norm_num)
  fin_cases i
  · exact r0.err.trans (by norm_num)
  · exact r1.err.trans (by norm_num)
  · exact r2.err.trans (by norm_num)

theorem evp_time (hD : Dbl D) {date : ℝ} (h : |date - 15019.5| ≤ 73050) :
    Nb (D (D (date - 15019.5) / 36525)) ((date - 15019.5) / 36525) 5e-16 2 := by
  have h1 : Nb (D (date - 15019.5)) (date - 15019.5) 8.77e-12 73050 := hD.nlit h (by norm_num)
  exact hD.ndivc h1 (by norm_num) (by norm_num) (by norm_num)

/-- The vectors referred to the equator and equinox of date. -/
theorem evp_date_near (hS : Single S) (hD : Dbl D) (hsf : ∀ x, |snf x - Real.sin x| ≤ 1.2e-7) (hcf : ∀ x, |csf x - Real.cos x| ≤ 1.2e-7)
    (hs : ∀ x, |sn x - Real.sin x| ≤ 2e-16) (hc : ∀ x, |cs x - Real.cos x| ≤ 2e-16) {date deqx : ℝ} (h : |date - 15019.5| ≤ 73050)
    (he : |epj D date - Sla.epj date| ≤ 6.1e-13) (hd : deqx ≤ 0) :
    (∀ i, |(Fp.evp S D snf csf sn cs date deqx).hpos i - (Sla.evp date deqx).hpos i| ≤ 6.1e-8) ∧
    (∀ i, |(Fp.evp S D snf csf sn cs date deqx).hvelo i - (Sla.evp date deqx).hvelo i| ≤ 3.03e-14) ∧
    (∀ i, |(Fp.evp S D snf csf sn cs date deqx).bpos i - (Sla.evp date deqx).bpos i| ≤ 9.38e-8) ∧
    (∀ i, |(Fp.evp S D snf csf sn cs date deqx).bvelo i - (Sla.evp date deqx).bvelo i| ≤ 3.08e-14) := by
  have hj : |Sla.epj date - 1900| ≤ 200 := by
    have e1 : Sla.epj date - 1900 = (date - 15019.5) / 365.25 := by rw [Sla.epj]; ring
    rw [e1, abs_div, abs_of_pos (show (0 : ℝ) < 365.25 by norm_num), div_le_iff₀ (by norm_num)]
    linarith
  have ht := evp_time hD h
  have hx := evpElements_near hS hD ht
  have hp := evpPert_near hS hsf hcf ht hx
  have hm := evpMoonPert_near hS hD hsf hcf hx
  have ho := evpOrbit_near hS hD hsf hcf hx.ecc (hx.forbel 0) hx.dml hp
  have P := evpHelioPos_near hS hD hsf hcf hs hc ho (hx.forbel 1) (hx.forbel 2) hm
  have V := evpHelioVel_near hS hD hsf hcf hs hc ho (hx.forbel 1) (hx.forbel 2) hm
  have hq := evpEqcor_near hD he hj
  rw [evp_of_date (h.trans (by norm_num)) hd]
  simp only [Fp.evp, gt_iff_lt, not_lt.2 hd, if_false]
  have BP := evpPlanetsPos_near hS hD hsf hcf hx (v' := (Fp.evpEcliptic S D snf csf sn cs (D (D (date - 15019.5) / 36525)) (evpElements S D (D (D (date - 15019.5) / 36525)))).hpos)
    (v := (EvpL.eclAt ((date - 15019.5) / 36525)).hpos) P.1 P.2.1 P.2.2
  have BV := evpPlanetsVel_near hS hD hsf hcf hx (v' := (Fp.evpEcliptic S D snf csf sn cs (D (D (date - 15019.5) / 36525)) (evpElements S D (D (D (date - 15019.5) / 36525)))).hvelo)
    (v := (EvpL.eclAt ((date - 15019.5) / 36525)).hvelo) V.1 V.2.1 V.2.2
  exact ⟨equator_hpos hD hs hc hx.deps hq P.1 P.2.1 P.2.2, equator_hvelo hD hs hc hx.deps hq V.1 V.2.1 V.2.2,
    equator_bpos hD hs hc hx.deps hq BP.1 BP.2.1 BP.2.2, equator_bvelo hD hs hc hx.deps hq BV.1 BV.2.1 BV.2.2⟩

theorem precAngles_from (hD : Dbl D) {ep0 ep0' ep1 : ℝ} (h0 : |ep0 - 2000| ≤ 301) (h1 : |ep1 - ep0| ≤ 2000) (he : |ep0' - ep0| ≤ 6.1e-13) :
    let a := precAngles D ep0' ep1
    let x := precAnglesExact ep0 ep1
    |a.1 - x.1| ≤ 2.9e-16 ∧ |a.2.1 - x.2.1| ≤ 2.55e-16 ∧ |a.2.2 - x.2.2| ≤ 2.94e-16 := by
  have AS : Nb (D 0.484813681109535994e-5) as2r 6e-22 4.85e-6 := by
    have h1 : |D 0.484813681109535994e-5 - 0.484813681109535994e-5| ≤ 5.9e-22 := hD.lit (B := 4.85e-6) (by norm_num) (by norm_num)
    have h2 := Real.pi_gt_d20
    have h3 := Real.pi_lt_d20
    have h4 : as2r = pi / 648000 := by rw [as2r]
    rw [h4]
    refine ⟨?_, ?_⟩ <;> rw [abs_le] at * <;> constructor <;> linarith
  have a0 : Nb (D (ep0' - 2000)) (ep0 - 2000) 6.5e-13 301 := ⟨hD.sub (f := 0) he (by simp) h0 (by norm_num), h0⟩
  have a1 : Nb (D (ep1 - ep0')) (ep1 - ep0) 8.51e-13 2000 := ⟨hD.sub (e := 0) (by simp) he h1 (by norm_num), h1⟩
  have t0 : Nb _ _ 6.87e-15 3.01 := hD.ndivc (n := 100) a0 (by norm_num) (by norm_num) (by norm_num)
  have t : Nb _ _ 1.1e-14 20 := hD.ndivc (n := 100) a1 (by norm_num) (by norm_num) (by norm_num)
  have a2 : Nb (D 0.484813681109535994e-5) as2r 6e-22 4.85e-6 := ⟨AS.err, AS.bd⟩
  have tas : Nb _ _ 7.7e-20 9.7e-5 := hD.nmul t a2 (by norm_num) (by norm_num)
  have n1 : Nb _ _ 2.77e-13 2306.22 := hD.nlit (x := 2306.2181) (by norm_num) (by norm_num)
  have n2 : Nb _ _ 1.68e-16 1.39656e0 := hD.nlit (x := 1.39656) (by norm_num) (by norm_num)
  have n3 : Nb _ _ 1.67e-20 1.39e-4 := hD.nlit (x := 0.000139) (by norm_num) (by norm_num)
  have n4 : Nb _ _ 1.06e-18 4.184e-4 := hD.nmul n3 t0 (by norm_num) (by norm_num)
  have n5 : Nb _ _ 3.37e-16 1.397 := hD.nsub n2 n4 (by norm_num) (by norm_num)
  have n6 : Nb _ _ 1.12e-14 4.205 := hD.nmul n5 t0 (by norm_num) (by norm_num)
  have w : Nb _ _ 5.66e-13 2311 := hD.nadd n1 n6 (by norm_num) (by norm_num)
  have n7 : Nb _ _ 3.63e-17 3.0188e-1 := hD.nlit (x := 0.30188) (by norm_num) (by norm_num)
  have n8 : Nb _ _ 4.13e-20 3.44e-4 := hD.nlit (x := 0.000344) (by norm_num) (by norm_num)
  have n9 : Nb _ _ 2.62e-18 1.036e-3 := hD.nmul n8 t0 (by norm_num) (by norm_num)
  have n10 : Nb _ _ 7.53e-17 0.303 := hD.nsub n7 n9 (by norm_num) (by norm_num)
  have n11 : Nb _ _ 2.16e-18 1.7998e-2 := hD.nlit (x := 0.017998) (by norm_num) (by norm_num)
  have n12 : Nb _ _ 2.85e-16 0.36 := hD.nmul n11 t (by norm_num) (by norm_num)
  have n13 : Nb _ _ 4.4e-16 0.663 := hD.nadd n10 n12 (by norm_num) (by norm_num)
  have n14 : Nb _ _ 1.77e-14 13.26 := hD.nmul n13 t (by norm_num) (by norm_num)
  have n15 : Nb _ _ 8.63e-13 2325 := hD.nadd w n14 (by norm_num) (by norm_num)
  have ze : Nb _ _ 2.9e-16 0.2256 := hD.nmul n15 tas (by norm_num) (by norm_num)
  have n16 : Nb _ _ 1.32e-16 1.09468e0 := hD.nlit (x := 1.09468) (by norm_num) (by norm_num)
  have n17 : Nb _ _ 7.93e-21 6.6e-5 := hD.nlit (x := 0.000066) (by norm_num) (by norm_num)
  have n18 : Nb _ _ 5.02e-19 1.987e-4 := hD.nmul n17 t0 (by norm_num) (by norm_num)
  have n19 : Nb _ _ 2.64e-16 1.095 := hD.nadd n16 n18 (by norm_num) (by norm_num)
  have n20 : Nb _ _ 2.19e-18 1.8203e-2 := hD.nlit (x := 0.018203) (by norm_num) (by norm_num)
  have n21 : Nb _ _ 2.88e-16 0.3641 := hD.nmul n20 t (by norm_num) (by norm_num)
  have n22 : Nb _ _ 7.28e-16 1.46 := hD.nadd n19 n21 (by norm_num) (by norm_num)
  have n23 : Nb _ _ 3.42e-14 29.2 := hD.nmul n22 t (by norm_num) (by norm_num)
  have n24 : Nb _ _ 8.82e-13 2341 := hD.nadd w n23 (by norm_num) (by norm_num)
  have z : Nb _ _ 2.94e-16 0.2271 := hD.nmul n24 tas (by norm_num) (by norm_num)
  have n25 : Nb _ _ 2.41e-13 2004.32 := hD.nlit (x := 2004.3109) (by norm_num) (by norm_num)
  have n26 : Nb _ _ 1.03e-16 0.8533 := hD.nlit (x := 0.85330) (by norm_num) (by norm_num)
  have n27 : Nb _ _ 2.61e-20 2.17e-4 := hD.nlit (x := 0.000217) (by norm_num) (by norm_num)
  have n28 : Nb _ _ 1.65e-18 6.532e-4 := hD.nmul n27 t0 (by norm_num) (by norm_num)
  have n29 : Nb _ _ 2.08e-16 0.854 := hD.nsub n26.neg n28 (by norm_num) (by norm_num)
  have n30 : Nb _ _ 6.81e-15 2.571 := hD.nmul n29 t0 (by norm_num) (by norm_num)
  have n31 : Nb _ _ 4.89e-13 2007 := hD.nadd n25 n30 (by norm_num) (by norm_num)
  have n32 : Nb _ _ 5.12e-17 4.2665e-1 := hD.nlit (x := 0.42665) (by norm_num) (by norm_num)
  have n33 : Nb _ _ 2.61e-20 2.17e-4 := hD.nlit (x := 0.000217) (by norm_num) (by norm_num)
  have n34 : Nb _ _ 1.65e-18 6.532e-4 := hD.nmul n33 t0 (by norm_num) (by norm_num)
  have n35 : Nb _ _ 1.05e-16 0.4274 := hD.nsub n32.neg n34 (by norm_num) (by norm_num)
  have n36 : Nb _ _ 5.02e-18 4.1833e-2 := hD.nlit (x := 0.041833) (by norm_num) (by norm_num)
  have n37 : Nb _ _ 6.61e-16 0.8367 := hD.nmul n36 t (by norm_num) (by norm_num)
  have n38 : Nb _ _ 9.18e-16 1.265 := hD.nsub n35 n37 (by norm_num) (by norm_num)
  have n39 : Nb _ _ 3.54e-14 25.3 := hD.nmul n38 t (by norm_num) (by norm_num)
  have n40 : Nb _ _ 7.69e-13 2033 := hD.nadd n31 n39 (by norm_num) (by norm_num)
  have th : Nb _ _ 2.55e-16 0.1973 := hD.nmul n40 tas (by norm_num) (by norm_num)
  exact ⟨ze.err, th.err, z.err⟩

end Sla.Fp
