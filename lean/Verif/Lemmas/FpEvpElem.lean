import Verif.Lemmas.FpAngle
import Verif.Model.FpEvp
import Mathlib.Analysis.Real.Pi.Bounds

/-
`evp` in single and double precision: the elements and arguments (the chains of bounds are generated).
-/
namespace Sla.Fp
open Real (pi)
variable {S D : ℝ → ℝ}

theorem twoPi_near (hD : Dbl D) : |evpTwoPi D - 2 * pi| ≤ 1.5e-14 := by
  have h1 : |D 6.2831853071796 - 6.2831853071796| ≤ 7.6e-16 := hD.lit (B := 6.3) (by norm_num) (by norm_num)
  have h2 := Real.pi_gt_d20
  have h3 := Real.pi_lt_d20
  rw [evpTwoPi, abs_le] at *
  constructor <;> linarith

theorem twoPi_le (hD : Dbl D) : 6 ≤ evpTwoPi D ∧ evpTwoPi D ≤ 6.283186 := by
  have h1 : |D 6.2831853071796 - 6.2831853071796| ≤ 7.6e-16 := hD.lit (B := 6.3) (by norm_num) (by norm_num)
  rw [evpTwoPi]
  rw [abs_le] at h1
  constructor <;> linarith

theorem twoPiF_near (hS : Single S) : |evpTwoPiF S - 2 * pi| ≤ 7e-7 := by
  have h1 : |S 6.283185 - 6.283185| ≤ 3.78e-7 := hS.lit (B := 6.2832) (by norm_num) (by norm_num)
  have h2 := Real.pi_gt_d20
  have h3 := Real.pi_lt_d20
  rw [evpTwoPiF, abs_le] at *
  constructor <;> linarith

theorem twoPiF_le (hS : Single S) : 6 ≤ evpTwoPiF S ∧ evpTwoPiF S ≤ 6.283186 := by
  have h1 : |S 6.283185 - 6.283185| ≤ 3.78e-7 := hS.lit (B := 6.2832) (by norm_num) (by norm_num)
  rw [evpTwoPiF]
  rw [abs_le] at h1
  constructor <;> linarith

theorem evpPoly_near (hD : Dbl D) {dt t : ℝ} (hdt : Nb dt t 5e-16 2) (c : Fin 3 → ℝ) (h0 : |c 0| ≤ 7) (h1 : |c 1| ≤ 16000) (h2 : |c 2| ≤ 1e-4) :
    Na (cfmod (evpPoly D c dt) (evpTwoPi D)) (Sla.evpPoly c t) 1.04e-10 6.283186 := by
  have n1 : Nb _ _ 8.41e-16 7 := hD.nlit h0 (by norm_num)
  have n2 : Nb _ _ 1.93e-12 16000 := hD.nlit h1 (by norm_num)
  have n3 : Nb _ _ 1.21e-20 0.0001 := hD.nlit h2 (by norm_num)
  have n4 : Nb _ _ 1.58e-11 32000 := hD.nmul hdt n2 (by norm_num) (by norm_num)
  have n5 : Nb _ _ 1.97e-11 32010 := hD.nadd n1 n4 (by norm_num) (by norm_num)
  have n6 : Nb _ _ 2.49e-15 4 := hD.nmul hdt hdt (by norm_num) (by norm_num)
  have n7 : Nb _ _ 3.46e-19 0.0004 := hD.nmul n6 n3 (by norm_num) (by norm_num)
  have n8 : Nb _ _ 2.36e-11 32020 := hD.nadd n5 n7 (by norm_num) (by norm_num)
  have r : Na _ _ 1.04e-10 6.283186e0 := (Na.of_nb (A := 32021) n8 (by norm_num)).fmod (twoPi_near hD) (twoPi_le hD).1 (twoPi_le hD).2 (by norm_num)
  exact r

theorem evpArg_near (hS : Single S) (hD : Dbl D) {dt t a b : ℝ} (hdt : Nb dt t 5e-16 2) (h0 : |a| ≤ 7) (h1 : |b| ≤ 16000) :
    Na (S (cfmod (D (D a + D (dt * D b))) (evpTwoPi D))) (a + t * b) 3.78e-7 6.2832e0 := by
  have n1 : Nb _ _ 8.41e-16 7 := hD.nlit h0 (by norm_num)
  have n2 : Nb _ _ 1.93e-12 16000 := hD.nlit h1 (by norm_num)
  have n3 : Nb _ _ 1.58e-11 32000 := hD.nmul hdt n2 (by norm_num) (by norm_num)
  have n4 : Nb _ _ 1.97e-11 32010 := hD.nadd n1 n3 (by norm_num) (by norm_num)
  have n5 : Na _ _ 9.98e-11 6.283186e0 := (Na.of_nb (A := 32011) n4 (by norm_num)).fmod (twoPi_near hD) (twoPi_le hD).1 (twoPi_le hD).2 (by norm_num)
  have r : Na _ _ 3.78e-7 6.2832e0 := n5.single hS (by norm_num) (by norm_num)
  exact r

theorem evpSec_near (hS : Single S) {dt t a b : ℝ} (hdt : Nb dt t 5e-16 2) (h0 : |a| ≤ 5.51) (h1 : |b| ≤ 15.6) :
    Na (cfmod (S (S a + S (S dt * S b))) (evpTwoPiF S)) (a + t * b) 1.25e-5 6.283186 := by
  have n1 : Nb _ _ 1.21e-7 2 := hS.nround hdt (by norm_num) (by norm_num)
  have n2 : Nb _ _ 3.31e-7 5.51 := hS.nlit h0 (by norm_num)
  have n3 : Nb _ _ 9.37e-7 15.6 := hS.nlit h1 (by norm_num)
  have n4 : Nb _ _ 5.64e-6 31.2 := hS.nmul n1 n3 (by norm_num) (by norm_num)
  have n5 : Nb _ _ 8.18e-6 36.71 := hS.nadd n2 n4 (by norm_num) (by norm_num)
  have r : Na _ _ 1.25e-5 6.283186e0 := (Na.of_nb (A := 36.711) n5 (by norm_num)).fmod (twoPiF_near hS) (twoPiF_le hS).1 (twoPiF_le hS).2 (by norm_num)
  exact r

theorem evpPolyF_ecc (hS : Single S) (hD : Dbl D) {dt t : ℝ} (hdt : Nb dt t 5e-16 2) (c : Fin 3 → ℝ) (h0 : |c 0| ≤ 1.676e-2) (h1 : |c 1| ≤ 4.18e-5)
    (h2 : |c 2| ≤ 1.27e-7) : Nb (cfmod (evpPolyF S D c dt) (evpTwoPiF S)) (Sla.evpPoly c t) 3.06e-9 1.686e-2 := by
  have n1 : Nb _ _ 1.21e-7 2 := hS.nround hdt (by norm_num) (by norm_num)
  have n2 : Nb _ _ 2.49e-15 4 := hD.nmul hdt hdt (by norm_num) (by norm_num)
  have n3 : Nb _ _ 2.41e-7 4 := hS.nround n2 (by norm_num) (by norm_num)
  have n4 : Nb _ _ 1.01e-9 1.676e-2 := hS.nlit h0 (by norm_num)
  have n5 : Nb _ _ 2.51e-12 4.18e-5 := hS.nlit h1 (by norm_num)
  have n6 : Nb _ _ 7.63e-15 1.27e-7 := hS.nlit h2 (by norm_num)
  have n7 : Nb _ _ 1.51e-11 8.36e-5 := hS.nmul n1 n5 (by norm_num) (by norm_num)
  have n8 : Nb _ _ 2.04e-9 1.685e-2 := hS.nadd n4 n7 (by norm_num) (by norm_num)
  have n9 : Nb _ _ 9.17e-14 5.08e-7 := hS.nmul n3 n6 (by norm_num) (by norm_num)
  have r : Nb _ _ 3.06e-9 1.686e-2 := hS.nadd n8 n9 (by norm_num) (by norm_num)
  have hq := (twoPiF_le hS).1
  rw [cfmod_small]
  · exact r
  · have h3 := r.err
    have h4 := r.bd
    have h5 := abs_add_le (evpPolyF S D c dt - Sla.evpPoly c t) (Sla.evpPoly c t)
    rw [sub_add_cancel] at h5
    have h6 : |evpPolyF S D c dt - Sla.evpPoly c t| ≤ 3.06e-9 := h3
    have h7 : |Sla.evpPoly c t| ≤ 1.686e-2 := h4
    linarith

theorem evpPolyF_lon (hS : Single S) (hD : Dbl D) {dt t : ℝ} (hdt : Nb dt t 5e-16 2) (c : Fin 3 → ℝ) (h0 : |c 0| ≤ 3) (h1 : |c 1| ≤ 0.0342)
    (h2 : |c 2| ≤ 2.3e-5) : Nb (cfmod (evpPolyF S D c dt) (evpTwoPiF S)) (Sla.evpPoly c t) 5.63e-7 3.07 := by
  have n1 : Nb _ _ 1.21e-7 2 := hS.nround hdt (by norm_num) (by norm_num)
  have n2 : Nb _ _ 2.49e-15 4 := hD.nmul hdt hdt (by norm_num) (by norm_num)
  have n3 : Nb _ _ 2.41e-7 4 := hS.nround n2 (by norm_num) (by norm_num)
  have n4 : Nb _ _ 1.81e-7 3 := hS.nlit h0 (by norm_num)
  have n5 : Nb _ _ 2.06e-9 0.0342 := hS.nlit h1 (by norm_num)
  have n6 : Nb _ _ 1.39e-12 2.3e-5 := hS.nlit h2 (by norm_num)
  have n7 : Nb _ _ 1.24e-8 0.0684 := hS.nmul n1 n5 (by norm_num) (by norm_num)
  have n8 : Nb _ _ 3.78e-7 3.069 := hS.nadd n4 n7 (by norm_num) (by norm_num)
  have n9 : Nb _ _ 1.67e-11 9.2e-5 := hS.nmul n3 n6 (by norm_num) (by norm_num)
  have r : Nb _ _ 5.63e-7 3.07 := hS.nadd n8 n9 (by norm_num) (by norm_num)
  have hq := (twoPiF_le hS).1
  rw [cfmod_small]
  · exact r
  · have h3 := r.err
    have h4 := r.bd
    have h5 := abs_add_le (evpPolyF S D c dt - Sla.evpPoly c t) (Sla.evpPoly c t)
    rw [sub_add_cancel] at h5
    have h6 : |evpPolyF S D c dt - Sla.evpPoly c t| ≤ 5.63e-7 := h3
    have h7 : |Sla.evpPoly c t| ≤ 3.07 := h4
    linarith

theorem evpPolyF_inc (hS : Single S) (hD : Dbl D) {dt t : ℝ} (hdt : Nb dt t 5e-16 2) (c : Fin 3 → ℝ) (h0 : |c 0| ≤ 0.0559) (h1 : |c 1| ≤ 3.46e-4)
    (h2 : |c 2| ≤ 7.4e-7) : Nb (cfmod (evpPolyF S D c dt) (evpTwoPiF S)) (Sla.evpPoly c t) 1.03e-8 5.661e-2 := by
  have n1 : Nb _ _ 1.21e-7 2 := hS.nround hdt (by norm_num) (by norm_num)
  have n2 : Nb _ _ 2.49e-15 4 := hD.nmul hdt hdt (by norm_num) (by norm_num)
  have n3 : Nb _ _ 2.41e-7 4 := hS.nround n2 (by norm_num) (by norm_num)
  have n4 : Nb _ _ 3.36e-9 0.0559 := hS.nlit h0 (by norm_num)
  have n5 : Nb _ _ 2.08e-11 3.46e-4 := hS.nlit h1 (by norm_num)
  have n6 : Nb _ _ 4.45e-14 7.4e-7 := hS.nlit h2 (by norm_num)
  have n7 : Nb _ _ 1.25e-10 6.92e-4 := hS.nmul n1 n5 (by norm_num) (by norm_num)
  have n8 : Nb _ _ 6.89e-9 0.0566 := hS.nadd n4 n7 (by norm_num) (by norm_num)
  have n9 : Nb _ _ 5.34e-13 2.96e-6 := hS.nmul n3 n6 (by norm_num) (by norm_num)
  have r : Nb _ _ 1.03e-8 5.661e-2 := hS.nadd n8 n9 (by norm_num) (by norm_num)
  have hq := (twoPiF_le hS).1
  rw [cfmod_small]
  · exact r
  · have h3 := r.err
    have h4 := r.bd
    have h5 := abs_add_le (evpPolyF S D c dt - Sla.evpPoly c t) (Sla.evpPoly c t)
    rw [sub_add_cancel] at h5
    have h6 : |evpPolyF S D c dt - Sla.evpPoly c t| ≤ 1.03e-8 := h3
    have h7 : |Sla.evpPoly c t| ≤ 5.661e-2 := h4
    linarith

theorem evpPoly_eps (hD : Dbl D) {dt t : ℝ} (hdt : Nb dt t 5e-16 2) (c : Fin 3 → ℝ) (h0 : |c 0| ≤ 0.41) (h1 : |c 1| ≤ 2.28e-4) (h2 : |c 2| ≤ 2.9e-8) :
    Nb (cfmod (evpPoly D c dt) (evpTwoPi D)) (Sla.evpPoly c t) 1.49e-16 0.4106 := by
  have n1 : Nb _ _ 4.93e-17 0.41 := hD.nlit h0 (by norm_num)
  have n2 : Nb _ _ 2.74e-20 2.28e-4 := hD.nlit h1 (by norm_num)
  have n3 : Nb _ _ 3.49e-24 2.9e-8 := hD.nlit h2 (by norm_num)
  have n4 : Nb _ _ 2.24e-19 4.56e-4 := hD.nmul hdt n2 (by norm_num) (by norm_num)
  have n5 : Nb _ _ 9.88e-17 0.4105 := hD.nadd n1 n4 (by norm_num) (by norm_num)
  have n6 : Nb _ _ 2.49e-15 4 := hD.nmul hdt hdt (by norm_num) (by norm_num)
  have n7 : Nb _ _ 1.01e-22 1.16e-7 := hD.nmul n6 n3 (by norm_num) (by norm_num)
  have r : Nb _ _ 1.49e-16 0.4106 := hD.nadd n5 n7 (by norm_num) (by norm_num)
  have hq := (twoPi_le hD).1
  rw [cfmod_small]
  · exact r
  · have h5 := abs_add_le (evpPoly D c dt - Sla.evpPoly c t) (Sla.evpPoly c t)
    rw [sub_add_cancel] at h5
    have h6 : |evpPoly D c dt - Sla.evpPoly c t| ≤ 1.49e-16 := r.err
    have h7 : |Sla.evpPoly c t| ≤ 0.4106 := r.bd
    linarith

/-- The computed elements `x'` and the exact ones. -/
structure EvpElem (x' x : EvpElements) : Prop where
  dml : Na x'.dml x.dml 1.04e-10 6.283186
  forbel : ∀ k, Na (x'.forbel k) (x.forbel k) 3.78e-7 6.2831864e0
  deps : Nb x'.deps x.deps 1.49e-16 0.4106
  ecc : Nb (x'.sorbel 0) (x.sorbel 0) 3.06e-9 1.686e-2
  lon : ∀ k : Fin 17, 1 ≤ k → k ≤ 8 → Nb (x'.sorbel k) (x.sorbel k) 5.63e-7 3.07
  inc : ∀ k : Fin 17, 9 ≤ k → Nb (x'.sorbel k) (x.sorbel k) 1.03e-8 5.661e-2
  sec : ∀ k, Na (x'.sec k) (x.sec k) 1.25e-5 6.283186
  args : ∀ k, Na (x'.args k) (x.args k) 3.78e-7 6.2832e0
  argm : ∀ k, Na (x'.argm k) (x.argm k) 3.78e-7 6.2832e0

private theorem fel_le (k : Fin 8) : |evpFel k 0| ≤ 7 ∧ |evpFel k 1| ≤ 16000 ∧ |evpFel k 2| ≤ 1e-4 := by
  fin_cases k <;> refine ⟨?_, ?_, ?_⟩ <;> simp [evpFel, abs_le] <;> norm_num

private theorem sel_le (k : Fin 17) : |evpSel k 0| ≤ (if k = 0 then 1.676e-2 else if k ≤ 8 then 3 else 0.0559) ∧
    |evpSel k 1| ≤ (if k = 0 then 4.18e-5 else if k ≤ 8 then 0.0342 else 3.46e-4) ∧
    |evpSel k 2| ≤ (if k = 0 then 1.27e-7 else if k ≤ 8 then 2.3e-5 else 7.4e-7) := by
  fin_cases k <;> refine ⟨?_, ?_, ?_⟩ <;> simp [evpSel, abs_le] <;> norm_num

private theorem sec_le (k : Fin 4) : |evpSec k 1| ≤ 5.51 ∧ |evpSec k 2| ≤ 15.6 := by
  fin_cases k <;> refine ⟨?_, ?_⟩ <;> simp [evpSec, abs_le] <;> norm_num

private theorem args_le (k : Fin 15) : |evpArgs k 0| ≤ 7 ∧ |evpArgs k 1| ≤ 16000 := by
  fin_cases k <;> refine ⟨?_, ?_⟩ <;> simp [evpArgs, abs_le] <;> norm_num

private theorem argm_le (k : Fin 3) : |evpArgm k 0| ≤ 7 ∧ |evpArgm k 1| ≤ 16000 := by
  fin_cases k <;> refine ⟨?_, ?_⟩ <;> simp [evpArgm, abs_le] <;> norm_num

theorem evpElements_near (hS : Single S) (hD : Dbl D) {dt t : ℝ} (hdt : Nb dt t 5e-16 2) :
    EvpElem (evpElements S D dt) (Sla.evpElements id t) where
  dml := evpPoly_near hD hdt _ (fel_le 0).1 (fel_le 0).2.1 (fel_le 0).2.2
  forbel := fun k => (evpPoly_near hD hdt _ (fel_le _).1 (fel_le _).2.1 (fel_le _).2.2).single hS (by norm_num) (by norm_num)
  deps := evpPoly_eps hD hdt _ (by norm_num [evpEps]) (by norm_num [evpEps, abs_le]) (by simp [evpEps, abs_le]; norm_num)
  ecc := evpPolyF_ecc hS hD hdt _ (sel_le 0).1 (sel_le 0).2.1 (sel_le 0).2.2
  lon := fun k h1 h2 => by
    have h := sel_le k
    rw [if_neg (by omega), if_pos h2, if_neg (by omega), if_pos h2, if_neg (by omega), if_pos h2] at h
    exact evpPolyF_lon hS hD hdt _ h.1 h.2.1 h.2.2
  inc := fun k h1 => by
    have h := sel_le k
    rw [if_neg (by omega), if_neg (by omega), if_neg (by omega), if_neg (by omega), if_neg (by omega), if_neg (by omega)] at h
    exact evpPolyF_inc hS hD hdt _ h.1 h.2.1 h.2.2
  sec := fun k => evpSec_near hS hdt (sec_le k).1 (sec_le k).2
  args := fun k => evpArg_near hS hD hdt (args_le k).1 (args_le k).2
  argm := fun k => evpArg_near hS hD hdt (argm_le k).1 (argm_le k).2

end Sla.Fp
