import Verif.Lemmas.FpEpv

/-
The sums of `epv` in double precision over the tables (generated).
-/
namespace Sla.Fp
open Sla.Epv
variable {R : ℝ → ℝ} {sn cs : ℝ → ℝ}

private theorem sums_e0x : EpvSums e0x (10142 * 10 ^ 29) (64413 * 10 ^ 64) (63932 * 10 ^ 62) (41403 * 10 ^ 98) (41709 * 10 ^ 100) 501 := by decide +kernel
private theorem sums_e1x : EpvSums e1x (17867 * 10 ^ 23) (69547 * 10 ^ 58) (68687 * 10 ^ 56) (87660 * 10 ^ 92) (88279 * 10 ^ 94) 79 := by decide +kernel
private theorem sums_e2x : EpvSums e2x (74027 * 10 ^ 18) (36401 * 10 ^ 54) (36077 * 10 ^ 52) (48918 * 10 ^ 88) (49161 * 10 ^ 90) 5 := by decide +kernel
private theorem sums_s0x : EpvSums s0x (10712 * 10 ^ 27) (42572 * 10 ^ 61) (35759 * 10 ^ 59) (23246 * 10 ^ 94) (26090 * 10 ^ 96) 212 := by decide +kernel
private theorem sums_s1x : EpvSums s1x (62487 * 10 ^ 21) (26409 * 10 ^ 56) (23034 * 10 ^ 54) (16713 * 10 ^ 89) (18363 * 10 ^ 91) 50 := by decide +kernel
private theorem sums_s2x : EpvSums s2x (86978 * 10 ^ 17) (37117 * 10 ^ 52) (32081 * 10 ^ 50) (17979 * 10 ^ 85) (20136 * 10 ^ 87) 9 := by decide +kernel
private theorem sums_e0y : EpvSums e0y (10331 * 10 ^ 29) (64265 * 10 ^ 64) (63937 * 10 ^ 62) (41305 * 10 ^ 98) (41510 * 10 ^ 100) 501 := by decide +kernel
private theorem sums_e1y : EpvSums e1y (14772 * 10 ^ 23) (69005 * 10 ^ 58) (68321 * 10 ^ 56) (87371 * 10 ^ 92) (87881 * 10 ^ 94) 80 := by decide +kernel
private theorem sums_e2y : EpvSums e2y (83503 * 10 ^ 18) (36630 * 10 ^ 54) (36268 * 10 ^ 52) (49040 * 10 ^ 88) (49265 * 10 ^ 90) 5 := by decide +kernel
private theorem sums_s0y : EpvSums s0y (10760 * 10 ^ 27) (40989 * 10 ^ 61) (35762 * 10 ^ 59) (22713 * 10 ^ 94) (24837 * 10 ^ 96) 213 := by decide +kernel
private theorem sums_s1y : EpvSums s1y (49726 * 10 ^ 21) (25994 * 10 ^ 56) (23097 * 10 ^ 54) (16688 * 10 ^ 89) (18266 * 10 ^ 91) 50 := by decide +kernel
private theorem sums_s2y : EpvSums s2y (88813 * 10 ^ 17) (37758 * 10 ^ 52) (32203 * 10 ^ 50) (18096 * 10 ^ 85) (20420 * 10 ^ 87) 9 := by decide +kernel
private theorem sums_e0z : EpvSums e0z (83207 * 10 ^ 23) (29541 * 10 ^ 60) (29485 * 10 ^ 58) (24151 * 10 ^ 95) (24170 * 10 ^ 97) 137 := by decide +kernel
private theorem sums_e1z : EpvSums e1z (23524 * 10 ^ 23) (14716 * 10 ^ 59) (14567 * 10 ^ 57) (94477 * 10 ^ 92) (95420 * 10 ^ 94) 12 := by decide +kernel
private theorem sums_e2z : EpvSums e2z (10140 * 10 ^ 19) (62738 * 10 ^ 54) (61932 * 10 ^ 52) (39944 * 10 ^ 88) (40451 * 10 ^ 90) 3 := by decide +kernel
private theorem sums_s0z : EpvSums s0z (31249 * 10 ^ 25) (10821 * 10 ^ 60) (94636 * 10 ^ 57) (63568 * 10 ^ 92) (67784 * 10 ^ 94) 69 := by decide +kernel
private theorem sums_s1z : EpvSums s1z (12513 * 10 ^ 21) (46041 * 10 ^ 55) (38705 * 10 ^ 53) (19852 * 10 ^ 88) (22929 * 10 ^ 90) 14 := by decide +kernel
private theorem sums_s2z : EpvSums s2z (64850 * 10 ^ 16) (27326 * 10 ^ 51) (22486 * 10 ^ 49) (11205 * 10 ^ 84) (13404 * 10 ^ 86) 2 := by decide +kernel

/-- Component 0. -/
theorem epv_x (hR : Dbl R) (hs : ∀ x, |sn x - Real.sin x| ≤ 2e-16) (hc : ∀ x, |cs x - Real.cos x| ≤ 2e-16) {t t' : ℝ}
    (ht : Nb t' t 2.41e-14 100) : EpvStage (epvHelio R sn cs t' 0) (helio t 0) 4.635e-13 1.017 2.964e-12 6.396 ∧
      EpvStage (epvBary R sn cs t' 0) (bary t 0) 4.983e-13 1.03 3.18e-12 6.402 := by
  have z : EpvStage ((0, 0) : ℝ × ℝ) (0, 0) 0 0 0 0 := ⟨⟨by simp, by simp⟩, ⟨by simp, by simp⟩⟩
  have e0x_ := (sums_e0x.stage0 (B := 1.04) (C := 6.47) (e2 := 4.527e-13) (b2 := 1.015) (ev2 := 2.897e-12) (bv2 := 6.394) hR hs hc ht z
    (by norm_num) (by norm_num) (by norm_num) (by norm_num) (by norm_num) (by norm_num) (by norm_num) (by norm_num) (by norm_num) (by norm_num))
  have e1x_ := (sums_e1x.stage1 (B := 1.04) (C := 6.47) (e2 := 4.628e-13) (b2 := 1.016) (ev2 := 2.96e-12) (bv2 := 6.395) hR hs hc ht e0x_
    (by norm_num) (by norm_num) (by norm_num) (by norm_num) (by norm_num) (by norm_num) (by norm_num) (by norm_num) (by norm_num) (by norm_num))
  have e2x_ := (sums_e2x.stage2 (B := 1.04) (C := 6.47) (e2 := 4.635e-13) (b2 := 1.017) (ev2 := 2.964e-12) (bv2 := 6.396) hR hs hc ht e1x_
    (by norm_num) (by norm_num) (by norm_num) (by norm_num) (by norm_num) (by norm_num) (by norm_num) (by norm_num) (by norm_num) (by norm_num))
  have s0x_ := (sums_s0x.stage0 (B := 1.04) (C := 6.47) (e2 := 4.907e-13) (b2 := 1.028) (ev2 := 3.132e-12) (bv2 := 6.4) hR hs hc ht e2x_
    (by norm_num) (by norm_num) (by norm_num) (by norm_num) (by norm_num) (by norm_num) (by norm_num) (by norm_num) (by norm_num) (by norm_num))
  have s1x_ := (sums_s1x.stage1 (B := 1.04) (C := 6.47) (e2 := 4.971e-13) (b2 := 1.029) (ev2 := 3.172e-12) (bv2 := 6.401) hR hs hc ht s0x_
    (by norm_num) (by norm_num) (by norm_num) (by norm_num) (by norm_num) (by norm_num) (by norm_num) (by norm_num) (by norm_num) (by norm_num))
  have s2x_ := (sums_s2x.stage2 (B := 1.04) (C := 6.47) (e2 := 4.983e-13) (b2 := 1.03) (ev2 := 3.18e-12) (bv2 := 6.402) hR hs hc ht s1x_
    (by norm_num) (by norm_num) (by norm_num) (by norm_num) (by norm_num) (by norm_num) (by norm_num) (by norm_num) (by norm_num) (by norm_num))
  have t0 : (e0 0).take (ne0 0) = e0x := List.take_of_length_le (sums_e0x.len.le)
  have t1 : (e1 0).take (ne1 0) = e1x := List.take_of_length_le (sums_e1x.len.le)
  have t2 : (e2 0).take (ne2 0) = e2x := List.take_of_length_le (sums_e2x.len.le)
  have t3 : (s0 0).take (ns0 0) = s0x := List.take_of_length_le (sums_s0x.len.le)
  have t4 : (s1 0).take (ns1 0) = s1x := List.take_of_length_le (sums_s1x.len.le)
  have t5 : (s2 0).take (ns2 0) = s2x := List.take_of_length_le (sums_s2x.len.le)
  unfold epvBary bary epvHelio helio
  rw [t0, t1, t2, t3, t4, t5]
  exact ⟨e2x_, s2x_⟩

/-- Component 1. -/
theorem epv_y (hR : Dbl R) (hs : ∀ x, |sn x - Real.sin x| ≤ 2e-16) (hc : ∀ x, |cs x - Real.cos x| ≤ 2e-16) {t t' : ℝ}
    (ht : Nb t' t 2.41e-14 100) : EpvStage (epvHelio R sn cs t' 1) (helio t 1) 4.641e-13 1.036 2.959e-12 6.396 ∧
      EpvStage (epvBary R sn cs t' 1) (bary t 1) 4.996e-13 1.049 3.176e-12 6.402 := by
  have z : EpvStage ((0, 0) : ℝ × ℝ) (0, 0) 0 0 0 0 := ⟨⟨by simp, by simp⟩, ⟨by simp, by simp⟩⟩
  have e0y_ := (sums_e0y.stage0 (B := 1.06) (C := 6.47) (e2 := 4.53e-13) (b2 := 1.034) (ev2 := 2.891e-12) (bv2 := 6.394) hR hs hc ht z
    (by norm_num) (by norm_num) (by norm_num) (by norm_num) (by norm_num) (by norm_num) (by norm_num) (by norm_num) (by norm_num) (by norm_num))
  have e1y_ := (sums_e1y.stage1 (B := 1.06) (C := 6.47) (e2 := 4.634e-13) (b2 := 1.035) (ev2 := 2.955e-12) (bv2 := 6.395) hR hs hc ht e0y_
    (by norm_num) (by norm_num) (by norm_num) (by norm_num) (by norm_num) (by norm_num) (by norm_num) (by norm_num) (by norm_num) (by norm_num))
  have e2y_ := (sums_e2y.stage2 (B := 1.06) (C := 6.47) (e2 := 4.641e-13) (b2 := 1.036) (ev2 := 2.959e-12) (bv2 := 6.396) hR hs hc ht e1y_
    (by norm_num) (by norm_num) (by norm_num) (by norm_num) (by norm_num) (by norm_num) (by norm_num) (by norm_num) (by norm_num) (by norm_num))
  have s0y_ := (sums_s0y.stage0 (B := 1.06) (C := 6.47) (e2 := 4.919e-13) (b2 := 1.047) (ev2 := 3.128e-12) (bv2 := 6.4) hR hs hc ht e2y_
    (by norm_num) (by norm_num) (by norm_num) (by norm_num) (by norm_num) (by norm_num) (by norm_num) (by norm_num) (by norm_num) (by norm_num))
  have s1y_ := (sums_s1y.stage1 (B := 1.06) (C := 6.47) (e2 := 4.984e-13) (b2 := 1.048) (ev2 := 3.168e-12) (bv2 := 6.401) hR hs hc ht s0y_
    (by norm_num) (by norm_num) (by norm_num) (by norm_num) (by norm_num) (by norm_num) (by norm_num) (by norm_num) (by norm_num) (by norm_num))
  have s2y_ := (sums_s2y.stage2 (B := 1.06) (C := 6.47) (e2 := 4.996e-13) (b2 := 1.049) (ev2 := 3.176e-12) (bv2 := 6.402) hR hs hc ht s1y_
    (by norm_num) (by norm_num) (by norm_num) (by norm_num) (by norm_num) (by norm_num) (by norm_num) (by norm_num) (by norm_num) (by norm_num))
  have t0 : (e0 1).take (ne0 1) = e0y := List.take_of_length_le (sums_e0y.len.le)
  have t1 : (e1 1).take (ne1 1) = e1y := List.take_of_length_le (sums_e1y.len.le)
  have t2 : (e2 1).take (ne2 1) = e2y := List.take_of_length_le (sums_e2y.len.le)
  have t3 : (s0 1).take (ns0 1) = s0y := List.take_of_length_le (sums_s0y.len.le)
  have t4 : (s1 1).take (ns1 1) = s1y := List.take_of_length_le (sums_s1y.len.le)
  have t5 : (s2 1).take (ns2 1) = s2y := List.take_of_length_le (sums_s2y.len.le)
  unfold epvBary bary epvHelio helio
  rw [t0, t1, t2, t3, t4, t5]
  exact ⟨e2y_, s2y_⟩

/-- Component 2. -/
theorem epv_z (hR : Dbl R) (hs : ∀ x, |sn x - Real.sin x| ≤ 2e-16) (hc : ∀ x, |cs x - Real.cos x| ≤ 2e-16) {t t' : ℝ}
    (ht : Nb t' t 2.41e-14 100) : EpvStage (epvHelio R sn cs t' 2) (helio t 2) 1.176e-16 2.447e-4 2.075e-15 1.774e-3 ∧
      EpvStage (epvBary R sn cs t' 2) (bary t 2) 1.301e-16 5.586e-4 2.1e-15 1.871e-3 := by
  have z : EpvStage ((0, 0) : ℝ × ℝ) (0, 0) 0 0 0 0 := ⟨⟨by simp, by simp⟩, ⟨by simp, by simp⟩⟩
  have e0z_ := (sums_e0z.stage0 (B := 5.64e-4) (C := 1.89e-3) (e2 := 2.727e-17) (b2 := 8.321e-6) (ev2 := 1.491e-15) (bv2 := 2.949e-4) hR hs hc ht z
    (by norm_num) (by norm_num) (by norm_num) (by norm_num) (by norm_num) (by norm_num) (by norm_num) (by norm_num) (by norm_num) (by norm_num))
  have e1z_ := (sums_e1z.stage1 (B := 5.64e-4) (C := 1.89e-3) (e2 := 1.17e-16) (b2 := 2.436e-4) (ev2 := 2.071e-15) (bv2 := 1.767e-3) hR hs hc ht e0z_
    (by norm_num) (by norm_num) (by norm_num) (by norm_num) (by norm_num) (by norm_num) (by norm_num) (by norm_num) (by norm_num) (by norm_num))
  have e2z_ := (sums_e2z.stage2 (B := 5.64e-4) (C := 1.89e-3) (e2 := 1.176e-16) (b2 := 2.447e-4) (ev2 := 2.075e-15) (bv2 := 1.774e-3) hR hs hc ht e1z_
    (by norm_num) (by norm_num) (by norm_num) (by norm_num) (by norm_num) (by norm_num) (by norm_num) (by norm_num) (by norm_num) (by norm_num))
  have s0z_ := (sums_s0z.stage0 (B := 5.64e-4) (C := 1.89e-3) (e2 := 1.289e-16) (b2 := 5.572e-4) (ev2 := 2.095e-15) (bv2 := 1.869e-3) hR hs hc ht e2z_
    (by norm_num) (by norm_num) (by norm_num) (by norm_num) (by norm_num) (by norm_num) (by norm_num) (by norm_num) (by norm_num) (by norm_num))
  have s1z_ := (sums_s1z.stage1 (B := 5.64e-4) (C := 1.89e-3) (e2 := 1.299e-16) (b2 := 5.585e-4) (ev2 := 2.099e-15) (bv2 := 1.87e-3) hR hs hc ht s0z_
    (by norm_num) (by norm_num) (by norm_num) (by norm_num) (by norm_num) (by norm_num) (by norm_num) (by norm_num) (by norm_num) (by norm_num))
  have s2z_ := (sums_s2z.stage2 (B := 5.64e-4) (C := 1.89e-3) (e2 := 1.301e-16) (b2 := 5.586e-4) (ev2 := 2.1e-15) (bv2 := 1.871e-3) hR hs hc ht s1z_
    (by norm_num) (by norm_num) (by norm_num) (by norm_num) (by norm_num) (by norm_num) (by norm_num) (by norm_num) (by norm_num) (by norm_num))
  have t0 : (e0 2).take (ne0 2) = e0z := List.take_of_length_le (sums_e0z.len.le)
  have t1 : (e1 2).take (ne1 2) = e1z := List.take_of_length_le (sums_e1z.len.le)
  have t2 : (e2 2).take (ne2 2) = e2z := List.take_of_length_le (sums_e2z.len.le)
  have t3 : (s0 2).take (ns0 2) = s0z := List.take_of_length_le (sums_s0z.len.le)
  have t4 : (s1 2).take (ns1 2) = s1z := List.take_of_length_le (sums_s1z.len.le)
  have t5 : (s2 2).take (ns2 2) = s2z := List.take_of_length_le (sums_s2z.len.le)
  unfold epvBary bary epvHelio helio
  rw [t0, t1, t2, t3, t4, t5]
  exact ⟨e2z_, s2z_⟩

end Sla.Fp
