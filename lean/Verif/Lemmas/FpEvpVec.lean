import Verif.Lemmas.FpEvpOrbit

/-
`evp` in single and double precision: the vectors referred to the ecliptic (the chains of bounds are generated).
-/
namespace Sla.Fp
open Real (pi)
variable {S D snf csf sn cs : ℝ → ℝ}

private theorem Nb.sub_neg {a x y e B : ℝ} (h : Nb a (x - y) e B) : Nb a (x + -y) e B := by rwa [← sub_eq_add_neg]
private theorem Nb.assoc {a x y z e B : ℝ} (h : Nb a (x + y + z) e B) : Nb a (x + (y + z)) e B := by rwa [← add_assoc]
private theorem Nb.sub_assoc {a x y z e B : ℝ} (h : Nb a (x - y + z) e B) : Nb a (x + (-y + z)) e B := by
  rwa [← add_assoc, ← sub_eq_add_neg]
private theorem Nb.comm {a x y e B : ℝ} (h : Nb a (x * y) e B) : Nb a (y * x) e B := by rwa [mul_comm]

theorem evpHelioPos_near (hS : Single S) (hD : Dbl D) (hsf : ∀ x, |snf x - Real.sin x| ≤ 1.2e-7) (hcf : ∀ x, |csf x - Real.cos x| ≤ 1.2e-7)
    (hs : ∀ x, |sn x - Real.sin x| ≤ 2e-16) (hc : ∀ x, |cs x - Real.cos x| ≤ 2e-16) {o : EvpOrbit} {e g dml lm' lm fm' fm : ℝ} {p m' m : EvpPert} (ho : EvpOrbitNear D o e g dml p)
    (hlm : Na lm' lm 3.78e-7 6.2831864e0) (hfm : Na fm' fm 3.78e-7 6.2831864e0)
    (hp : EvpPertNear m' m 2.64e-7 0.33 6.98e-13 8.7e-7 1.32e-7 0.1638 3.46e-13 4.32e-7) :
    Nb (evpHelioPos S D snf csf sn cs o lm' fm' m' 0) ((evpEmb id e g dml p).pos 0 + (evpMoon lm fm m).pos 0) 6.07e-8 1.02 ∧
    Nb (evpHelioPos S D snf csf sn cs o lm' fm' m' 1) ((evpEmb id e g dml p).pos 1 + (evpMoon lm fm m).pos 1) 6.07e-8 1.02 ∧
    Nb (evpHelioPos S D snf csf sn cs o lm' fm' m' 2) ((evpEmb id e g dml p).pos 2 + (evpMoon lm fm m).pos 2) 2.25e-11 3.735e-5 := by
  have n1 : Nb 1 1 0 1 := Nb.self (by norm_num)
  have s : Nb _ _ 3.85e-8 1 := ho.dtl.sin hs (by norm_num)
  have co : Nb _ _ 3.85e-8 1 := ho.dtl.cos hc (by norm_num)
  have tl : Na _ _ 1.04e-6 6.6132e0 := (hlm.add (Na.of_nb (A := 3.3001e-1) hp.l (by norm_num))).single hS (by norm_num) (by norm_num)
  have n2 : Nb _ _ 1.16e-6 1 := tl.sin hsf (by norm_num)
  have n3 : Nb _ _ 1.16e-6 1 := tl.cos hcf (by norm_num)
  have n4 : Nb _ _ 2.02e-7 1.164 := hS.nadd n1 hp.r (by norm_num) (by norm_num)
  have hm : 0.836 ≤ |1 + m.r| := by
    have h := abs_le.1 hp.r.bd
    exact le_trans (by linarith) (le_abs_self _)
  have n5 : Nb _ _ 1.88e-12 3.12214e-5 := hS.nlit (x := 3.122140e-5) (by norm_num) (by norm_num)
  have sg : Nb _ _ 1.36e-11 3.735e-5 := hS.ndiv (m := 0.836) (E := 1.13e-11) n5 n4 hm (by norm_num) (by norm_num) (by norm_num) (by norm_num)
  have n6 : Nb _ _ 5.39e-9 8.97875e-2 := hS.nlit (x := 8.978749e-2) (by norm_num) (by norm_num)
  have n7 : Nb _ _ 4.98e-7 1 := hfm.sin hsf (by norm_num)
  have fl : Nb _ _ 5.55e-8 8.979e-2 := hS.nmul n6 n7 (by norm_num) (by norm_num)
  have n8 : Nb _ _ 1.76e-7 1 := fl.cos hcf (by norm_num)
  have a : Nb _ _ 2.25e-11 3.735e-5 := hS.nmul sg n8 (by norm_num) (by norm_num)
  have n9 : Nb _ _ 6.06e-8 1.019 := hD.nmul ho.dr co (by norm_num) (by norm_num)
  have n10 : Nb _ _ 6.81e-11 3.735e-5 := hS.nmul a n3 (by norm_num) (by norm_num)
  have r0 : Nb _ _ 6.07e-8 1.02 := hD.nsub n9 n10 (by norm_num) (by norm_num)
  have n11 : Nb _ _ 6.06e-8 1.019 := hD.nmul ho.dr s (by norm_num) (by norm_num)
  have n12 : Nb _ _ 6.81e-11 3.735e-5 := hS.nmul a n2 (by norm_num) (by norm_num)
  have r1 : Nb _ _ 6.07e-8 1.02 := hD.nsub n11 n12 (by norm_num) (by norm_num)
  have n13 : Nb _ _ 1.76e-7 1 := fl.sin hsf (by norm_num)
  have r2 : Nb _ _ 2.25e-11 3.735e-5 := hS.nmul sg n13 (by norm_num) (by norm_num)
  have e2 : (evpEmb id e g dml p).pos 2 + (evpMoon lm fm m).pos 2 = (evpMoon lm fm m).pos 2 := by
    rw [show (evpEmb id e g dml p).pos 2 = 0 from rfl, zero_add]
  rw [e2]
  exact ⟨r0.sub_neg, r1.sub_neg, r2.neg⟩

theorem evpHelioVel_near (hS : Single S) (hD : Dbl D) (hsf : ∀ x, |snf x - Real.sin x| ≤ 1.2e-7) (hcf : ∀ x, |csf x - Real.cos x| ≤ 1.2e-7)
    (hs : ∀ x, |sn x - Real.sin x| ≤ 2e-16) (hc : ∀ x, |cs x - Real.cos x| ≤ 2e-16) {o : EvpOrbit} {e g dml lm' lm fm' fm : ℝ} {p m' m : EvpPert} (ho : EvpOrbitNear D o e g dml p)
    (hlm : Na lm' lm 3.78e-7 6.2831864e0) (hfm : Na fm' fm 3.78e-7 6.2831864e0)
    (hp : EvpPertNear m' m 2.64e-7 0.33 6.98e-13 8.7e-7 1.32e-7 0.1638 3.46e-13 4.32e-7) :
    Nb (evpHelioVel S D snf csf sn cs o lm' fm' m' 0) ((evpEmb id e g dml p).vel 0 + (evpMoon lm fm m).vel 0) 3e-14 2.144e-7 ∧
    Nb (evpHelioVel S D snf csf sn cs o lm' fm' m' 1) ((evpEmb id e g dml p).vel 1 + (evpMoon lm fm m).vel 1) 3e-14 2.144e-7 ∧
    Nb (evpHelioVel S D snf csf sn cs o lm' fm' m' 2) ((evpEmb id e g dml p).vel 2 + (evpMoon lm fm m).vel 2) 9.35e-18 8.963e-12 := by
  have n1 : Nb 1 1 0 1 := Nb.self (by norm_num)
  have s : Nb _ _ 3.85e-8 1 := ho.dtl.sin hs (by norm_num)
  have co : Nb _ _ 3.85e-8 1 := ho.dtl.cos hc (by norm_num)
  have tl : Na _ _ 1.04e-6 6.6132e0 := (hlm.add (Na.of_nb (A := 3.3001e-1) hp.l (by norm_num))).single hS (by norm_num) (by norm_num)
  have n2 : Nb _ _ 1.16e-6 1 := tl.sin hsf (by norm_num)
  have n3 : Nb _ _ 1.16e-6 1 := tl.cos hcf (by norm_num)
  have n4 : Nb _ _ 2.02e-7 1.164 := hS.nadd n1 hp.r (by norm_num) (by norm_num)
  have hm : 0.836 ≤ |1 + m.r| := by
    have h := abs_le.1 hp.r.bd
    exact le_trans (by linarith) (le_abs_self _)
  have n5 : Nb _ _ 1.88e-12 3.12214e-5 := hS.nlit (x := 3.122140e-5) (by norm_num) (by norm_num)
  have sg : Nb _ _ 1.36e-11 3.735e-5 := hS.ndiv (m := 0.836) (E := 1.13e-11) n5 n4 hm (by norm_num) (by norm_num) (by norm_num) (by norm_num)
  have n6 : Nb _ _ 5.32e-15 3.508e-9 := hD.nmul ho.drd co (by norm_num) (by norm_num)
  have n7 : Nb _ _ 2.42e-14 2.105e-7 := hD.nmul ho.drld s (by norm_num) (by norm_num)
  have xh : Nb _ _ 2.96e-14 2.141e-7 := hD.nsub n6 n7 (by norm_num) (by norm_num)
  have n8 : Nb _ _ 5.32e-15 3.508e-9 := hD.nmul ho.drd s (by norm_num) (by norm_num)
  have n9 : Nb _ _ 2.42e-14 2.105e-7 := hD.nmul ho.drld co (by norm_num) (by norm_num)
  have yh : Nb _ _ 2.96e-14 2.141e-7 := hD.nadd n8 n9 (by norm_num) (by norm_num)
  have n10 : Nb _ _ 1.6e-13 2.6617e-6 := hS.nlit (x := 2.661699e-6) (by norm_num) (by norm_num)
  have n11 : Nb _ _ 1.07e-12 3.532e-6 := hS.nadd n10 hp.ld (by norm_num) (by norm_num)
  have a : Nb _ _ 9.6e-17 1.32e-10 := hS.nmul sg n11 (by norm_num) (by norm_num)
  have b : Nb _ _ 1.98e-17 1.614e-11 := hS.nmul sg hp.rd (by norm_num) (by norm_num)
  have n12 : Nb _ _ 2.58e-16 1.32e-10 := hS.nmul a n2 (by norm_num) (by norm_num)
  have n13 : Nb _ _ 2.99e-14 2.143e-7 := hD.nadd xh n12 (by norm_num) (by norm_num)
  have n14 : Nb _ _ 3.95e-17 1.614e-11 := hS.nmul b n3 (by norm_num) (by norm_num)
  have r0 : Nb _ _ 3e-14 2.144e-7 := hD.nadd n13 n14 (by norm_num) (by norm_num)
  have n15 : Nb _ _ 2.58e-16 1.32e-10 := hS.nmul a n3 (by norm_num) (by norm_num)
  have n16 : Nb _ _ 2.99e-14 2.143e-7 := hD.nsub yh n15 (by norm_num) (by norm_num)
  have n17 : Nb _ _ 3.95e-17 1.614e-11 := hS.nmul b n2 (by norm_num) (by norm_num)
  have r1 : Nb _ _ 3e-14 2.144e-7 := hD.nadd n16 n17 (by norm_num) (by norm_num)
  have n18 : Nb _ _ 1.44e-14 2.39949e-7 := hS.nlit (x := 2.399485e-7) (by norm_num) (by norm_num)
  have n19 : Nb _ _ 4.34e-18 8.963e-12 := hS.nmul sg n18 (by norm_num) (by norm_num)
  have n20 : Nb _ _ 4.98e-7 1 := hfm.cos hcf (by norm_num)
  have r2 : Nb _ _ 9.35e-18 8.963e-12 := hS.nmul n19 n20 (by norm_num) (by norm_num)
  have e2 : (evpEmb id e g dml p).vel 2 + (evpMoon lm fm m).vel 2 = (evpMoon lm fm m).vel 2 := by
    rw [show (evpEmb id e g dml p).vel 2 = 0 from rfl, zero_add]
  rw [e2]
  exact ⟨r0.assoc, r1.sub_assoc, r2.neg⟩

private theorem planetPos (hS : Single S) (hD : Dbl D) (hsf : ∀ x, |snf x - Real.sin x| ≤ 1.2e-7) (hcf : ∀ x, |csf x - Real.cos x| ≤ 1.2e-7)
    {P L' L w' w e' e n' n i' i : ℝ} (hP0 : 1e-12 ≤ P)
    (hL : Na L' L 3.78e-7 6.2831864e0) (hw : Nb w' w 5.63e-7 3.07) (he : Nb e' e 1.03e-8 5.661e-2) (hn : Nb n' n 5.63e-7 3.07) (hi : Nb i' i 1.03e-8 5.661e-2) :
    let tl := cfmod (S (L' + S (S (2 * e') * snf (S (L' - w'))))) (evpTwoPiF S)
    let flat := S (i' * snf (S (L' - n')))
    let a := S (S (D P) * S (1 - S (e' * csf (S (L' - w')))))
    let b := S (a * csf flat)
    let tl' := L + 2 * e * Real.sin (L - w)
    let flat' := i * Real.sin (L - n)
    let a' := P * (1 - e * Real.cos (L - w))
    let b' := a' * Real.cos flat'
    Nb (S (b * csf tl)) (b' * Real.cos tl') (2.62e-6 * P) (1.057 * P) ∧ Nb (S (b * snf tl)) (b' * Real.sin tl') (2.62e-6 * P) (1.057 * P) ∧
    Nb (S (a * snf flat)) (a' * Real.sin flat') (6e-7 * P) (1.057 * P) := by
  have n1 : Nb 2 2 0 2 := Nb.self (by norm_num)
  have Lw : Na _ _ 1.51e-6 9.3533e0 := (hL.sub (Na.of_nb (A := 3.0701e0) hw (by norm_num))).single hS (by norm_num) (by norm_num)
  have n2 : Nb _ _ 2.74e-8 0.1133 := hS.nmul n1 he (by norm_num) (by norm_num)
  have n3 : Nb _ _ 1.63e-6 1 := Lw.sin hsf (by norm_num)
  have n4 : Nb _ _ 2.19e-7 0.1133 := hS.nmul n2 n3 (by norm_num) (by norm_num)
  have n5 : Na _ _ 9.81e-7 6.3965e0 := (hL.add (Na.of_nb (A := 1.1331e-1) n4 (by norm_num))).single hS (by norm_num) (by norm_num)
  have tl : Na _ _ 1.73e-6 6.283186e0 := n5.fmod (twoPiF_near hS) (twoPiF_le hS).1 (twoPiF_le hS).2 (by norm_num)
  have Ln : Na _ _ 1.51e-6 9.3533e0 := (hL.sub (Na.of_nb (A := 3.0701e0) hn (by norm_num))).single hS (by norm_num) (by norm_num)
  have n6 : Nb 1 1 0 1 := Nb.self (by norm_num)
  have n7 : Nb _ _ 1.63e-6 1 := Ln.sin hsf (by norm_num)
  have flat : Nb _ _ 1.06e-7 5.661e-2 := hS.nmul hi n7 (by norm_num) (by norm_num)
  have n8 : Nb _ _ 1.63e-6 1 := Lw.cos hcf (by norm_num)
  have n9 : Nb _ _ 1.06e-7 5.661e-2 := hS.nmul he n8 (by norm_num) (by norm_num)
  have u : Nb _ _ 1.7e-7 1.057 := hS.nsub n6 n9 (by norm_num) (by norm_num)
  have cf : Nb _ _ 2.26e-7 1 := flat.cos hcf (by norm_num)
  have sf0 : Nb _ _ 2.26e-7 1 := flat.sin hsf (by norm_num)
  have st : Nb _ _ 1.85e-6 1 := tl.sin hsf (by norm_num)
  have ct : Nb _ _ 1.85e-6 1 := tl.cos hcf (by norm_num)
  have c0 : Nb (D P) P (1.21e-16 * P) P := hD.nlit (abs_of_pos (by linarith)).le (by linarith)
  have c1 : Nb (S (D P)) P (6.01e-8 * P) (1 * P) := hS.nround c0 (by linarith) (by linarith)
  have a : Nb _ _ (2.97e-7 * P) (1.057 * P) := hS.nmul c1 u (by linarith) (by linarith)
  have b : Nb _ _ (6e-7 * P) (1.057 * P) := hS.nmul a cf (by linarith) (by linarith)
  have r0 : Nb _ _ (2.62e-6 * P) (1.057 * P) := hS.nmul b ct (by linarith) (by linarith)
  have r1 : Nb _ _ (2.62e-6 * P) (1.057 * P) := hS.nmul b st (by linarith) (by linarith)
  have r2 : Nb _ _ (6e-7 * P) (1.057 * P) := hS.nmul a sf0 (by linarith) (by linarith)
  exact ⟨r0, r1, r2⟩

private theorem planetVel (hS : Single S) (hD : Dbl D) (hsf : ∀ x, |snf x - Real.sin x| ≤ 1.2e-7) (hcf : ∀ x, |csf x - Real.cos x| ≤ 1.2e-7)
    {P L' L w' w e' e n' n i' i : ℝ} (hP0 : 1e-12 ≤ P)
    (hL : Na L' L 3.78e-7 6.2831864e0) (hw : Nb w' w 5.63e-7 3.07) (he : Nb e' e 1.03e-8 5.661e-2) (hn : Nb n' n 5.63e-7 3.07) (hi : Nb i' i 1.03e-8 5.661e-2) :
    let tl := cfmod (S (L' + S (S (2 * e') * snf (S (L' - w'))))) (evpTwoPiF S)
    let tl' := L + 2 * e * Real.sin (L - w)
    Nb (S (S (D P) * S (snf tl + S (e' * snf w')))) (P * (Real.sin tl' + e * Real.sin w)) (2.1e-6 * P) (1.057 * P) ∧
    Nb (S (S (D P) * S (csf tl + S (e' * csf w')))) (P * (Real.cos tl' + e * Real.cos w)) (2.1e-6 * P) (1.057 * P) ∧
    Nb (S (S (S (D P) * i') * csf (S (L' - n')))) (P * i * Real.cos (L - n)) (1.13e-7 * P) (5.661e-2 * P) := by
  have n1 : Nb 2 2 0 2 := Nb.self (by norm_num)
  have Lw : Na _ _ 1.51e-6 9.3533e0 := (hL.sub (Na.of_nb (A := 3.0701e0) hw (by norm_num))).single hS (by norm_num) (by norm_num)
  have n2 : Nb _ _ 2.74e-8 0.1133 := hS.nmul n1 he (by norm_num) (by norm_num)
  have n3 : Nb _ _ 1.63e-6 1 := Lw.sin hsf (by norm_num)
  have n4 : Nb _ _ 2.19e-7 0.1133 := hS.nmul n2 n3 (by norm_num) (by norm_num)
  have n5 : Na _ _ 9.81e-7 6.3965e0 := (hL.add (Na.of_nb (A := 1.1331e-1) n4 (by norm_num))).single hS (by norm_num) (by norm_num)
  have tl : Na _ _ 1.73e-6 6.283186e0 := n5.fmod (twoPiF_near hS) (twoPiF_le hS).1 (twoPiF_le hS).2 (by norm_num)
  have Ln : Na _ _ 1.51e-6 9.3533e0 := (hL.sub (Na.of_nb (A := 3.0701e0) hn (by norm_num))).single hS (by norm_num) (by norm_num)
  have n6 : Nb _ _ 1.85e-6 1 := tl.sin hsf (by norm_num)
  have n7 : Nb _ _ 6.83e-7 1 := hw.sin hsf (by norm_num)
  have n8 : Nb _ _ 5.24e-8 5.661e-2 := hS.nmul he n7 (by norm_num) (by norm_num)
  have sx : Nb _ _ 1.97e-6 1.057 := hS.nadd n6 n8 (by norm_num) (by norm_num)
  have n9 : Nb _ _ 1.85e-6 1 := tl.cos hcf (by norm_num)
  have n10 : Nb _ _ 6.83e-7 1 := hw.cos hcf (by norm_num)
  have n11 : Nb _ _ 5.24e-8 5.661e-2 := hS.nmul he n10 (by norm_num) (by norm_num)
  have cx : Nb _ _ 1.97e-6 1.057 := hS.nadd n9 n11 (by norm_num) (by norm_num)
  have cn : Nb _ _ 1.63e-6 1 := Ln.cos hcf (by norm_num)
  have c0 : Nb (D P) P (1.21e-16 * P) P := hD.nlit (abs_of_pos (by linarith)).le (by linarith)
  have c1 : Nb (S (D P)) P (6.01e-8 * P) (1 * P) := hS.nround c0 (by linarith) (by linarith)
  have r0 : Nb _ _ (2.1e-6 * P) (1.057 * P) := hS.nmul c1 sx (by linarith) (by linarith)
  have r1 : Nb _ _ (2.1e-6 * P) (1.057 * P) := hS.nmul c1 cx (by linarith) (by linarith)
  have n101 : Nb _ _ (1.71e-8 * P) (5.661e-2 * P) := hS.nmul c1 hi (by linarith) (by linarith)
  have r2 : Nb _ _ (1.13e-7 * P) (5.661e-2 * P) := hS.nmul n101 cn (by linarith) (by linarith)
  exact ⟨r0, r1, r2⟩

theorem evpPlanetsPos_near (hS : Single S) (hD : Dbl D) (hsf : ∀ x, |snf x - Real.sin x| ≤ 1.2e-7) (hcf : ∀ x, |csf x - Real.cos x| ≤ 1.2e-7) {x' x : EvpElements}
    (hx : EvpElem x' x) {v' v : Vec} (h0 : Nb (v' 0) (v 0) 6.07e-8 1.02) (h1 : Nb (v' 1) (v 1) 6.07e-8 1.02)
    (h2 : Nb (v' 2) (v 2) 2.25e-11 3.735e-5) :
    let s' := (List.finRange 4).foldl (evpPlanetPos S D snf csf x') fun i => D (v' i * D 0.99999696)
    let s := evpPlanets ((0.99999696 : ℝ) • v) fun k => (evpPlanet id x k).pos
    Nb (s' 0) (s 0) 8.74e-8 1.032 ∧ Nb (s' 1) (s 1) 8.74e-8 1.032 ∧ Nb (s' 2) (s 2) 6.11e-9 0.0107 := by
  have hpl := fun (k : Fin 4) (hk0 : 1e-12 ≤ evpPam k) => planetPos hS hD hsf hcf hk0 (hx.forbel ⟨k + 3, by omega⟩)
    (hx.lon ⟨k + 1, by omega⟩ (show (1 : ℕ) ≤ k + 1 by omega) (show (k : ℕ) + 1 ≤ 8 by omega)) (hx.inc ⟨k + 9, by omega⟩ (show (9 : ℕ) ≤ k + 9 by omega))
    (hx.lon ⟨k + 5, by omega⟩ (show (1 : ℕ) ≤ k + 5 by omega) (show (k : ℕ) + 5 ≤ 8 by omega)) (hx.inc ⟨k + 13, by omega⟩ (show (9 : ℕ) ≤ k + 13 by omega))
  have p0 : evpPam 0 = 4.960906e-3 := rfl
  have t0 := hpl 0 (by rw [p0]; norm_num)
  have p1 : evpPam 1 = 2.727436e-3 := rfl
  have t1 := hpl 1 (by rw [p1]; norm_num)
  have p2 : evpPam 2 = 8.392311e-4 := rfl
  have t2 := hpl 2 (by rw [p2]; norm_num)
  have p3 : evpPam 3 = 1.556861e-3 := rfl
  have t3 := hpl 3 (by rw [p3]; norm_num)
  clear hpl
  have n1 : Nb _ _ 1.2e-16 9.99997e-1 := hD.nlit (x := 0.99999696) (by norm_num) (by norm_num)
  have n2 : Nb _ _ 6.07e-8 1.02 := hD.nmul h0 n1 (by norm_num) (by norm_num)
  have n3 : Nb _ _ 1.3e-8 5.244e-3 := (t0.1).mono (by rw [p0]; norm_num) (by rw [p0]; norm_num)
  have n4 : Nb _ _ 7.38e-8 1.026 := hD.nsub n2.comm n3 (by norm_num) (by norm_num)
  have n5 : Nb _ _ 7.15e-9 2.883e-3 := (t1.1).mono (by rw [p1]; norm_num) (by rw [p1]; norm_num)
  have n6 : Nb _ _ 8.1e-8 1.029 := hD.nsub n4.sub_neg n5 (by norm_num) (by norm_num)
  have n7 : Nb _ _ 2.2e-9 8.871e-4 := (t2.1).mono (by rw [p2]; norm_num) (by rw [p2]; norm_num)
  have n8 : Nb _ _ 8.33e-8 1.03 := hD.nsub n6.sub_neg n7 (by norm_num) (by norm_num)
  have n9 : Nb _ _ 4.08e-9 1.646e-3 := (t3.1).mono (by rw [p3]; norm_num) (by rw [p3]; norm_num)
  have n10 : Nb _ _ 8.74e-8 1.032 := hD.nsub n8.sub_neg n9 (by norm_num) (by norm_num)
  have s0 := n10.sub_neg
  have n11 : Nb _ _ 1.2e-16 9.99997e-1 := hD.nlit (x := 0.99999696) (by norm_num) (by norm_num)
  have n12 : Nb _ _ 6.07e-8 1.02 := hD.nmul h1 n11 (by norm_num) (by norm_num)
  have n13 : Nb _ _ 1.3e-8 5.244e-3 := (t0.2.1).mono (by rw [p0]; norm_num) (by rw [p0]; norm_num)
  have n14 : Nb _ _ 7.38e-8 1.026 := hD.nsub n12.comm n13 (by norm_num) (by norm_num)
  have n15 : Nb _ _ 7.15e-9 2.883e-3 := (t1.2.1).mono (by rw [p1]; norm_num) (by rw [p1]; norm_num)
  have n16 : Nb _ _ 8.1e-8 1.029 := hD.nsub n14.sub_neg n15 (by norm_num) (by norm_num)
  have n17 : Nb _ _ 2.2e-9 8.871e-4 := (t2.2.1).mono (by rw [p2]; norm_num) (by rw [p2]; norm_num)
  have n18 : Nb _ _ 8.33e-8 1.03 := hD.nsub n16.sub_neg n17 (by norm_num) (by norm_num)
  have n19 : Nb _ _ 4.08e-9 1.646e-3 := (t3.2.1).mono (by rw [p3]; norm_num) (by rw [p3]; norm_num)
  have n20 : Nb _ _ 8.74e-8 1.032 := hD.nsub n18.sub_neg n19 (by norm_num) (by norm_num)
  have s1 := n20.sub_neg
  have n21 : Nb _ _ 1.2e-16 9.99997e-1 := hD.nlit (x := 0.99999696) (by norm_num) (by norm_num)
  have n22 : Nb _ _ 2.25e-11 3.735e-5 := hD.nmul h2 n21 (by norm_num) (by norm_num)
  have n23 : Nb _ _ 2.98e-9 5.244e-3 := (t0.2.2).mono (by rw [p0]; norm_num) (by rw [p0]; norm_num)
  have n24 : Nb _ _ 3.01e-9 5.282e-3 := hD.nsub n22.comm n23 (by norm_num) (by norm_num)
  have n25 : Nb _ _ 1.64e-9 2.883e-3 := (t1.2.2).mono (by rw [p1]; norm_num) (by rw [p1]; norm_num)
  have n26 : Nb _ _ 4.66e-9 8.165e-3 := hD.nsub n24.sub_neg n25 (by norm_num) (by norm_num)
  have n27 : Nb _ _ 5.04e-10 8.871e-4 := (t2.2.2).mono (by rw [p2]; norm_num) (by rw [p2]; norm_num)
  have n28 : Nb _ _ 5.17e-9 9.053e-3 := hD.nsub n26.sub_neg n27 (by norm_num) (by norm_num)
  have n29 : Nb _ _ 9.35e-10 1.646e-3 := (t3.2.2).mono (by rw [p3]; norm_num) (by rw [p3]; norm_num)
  have n30 : Nb _ _ 6.11e-9 0.0107 := hD.nsub n28.sub_neg n29 (by norm_num) (by norm_num)
  have s2 := n30.sub_neg
  have hf : List.finRange 4 = [0, 1, 2, 3] := rfl
  intro s' s
  refine ⟨?_, ?_, ?_⟩ <;> simp only [s', s, hf, evpPlanets, List.foldl_cons, List.foldl_nil]
  · exact s0
  · exact s1
  · exact s2

theorem evpPlanetsVel_near (hS : Single S) (hD : Dbl D) (hsf : ∀ x, |snf x - Real.sin x| ≤ 1.2e-7) (hcf : ∀ x, |csf x - Real.cos x| ≤ 1.2e-7) {x' x : EvpElements}
    (hx : EvpElem x' x) {v' v : Vec} (h0 : Nb (v' 0) (v 0) 3e-14 2.144e-7) (h1 : Nb (v' 1) (v 1) 3e-14 2.144e-7)
    (h2 : Nb (v' 2) (v 2) 9.35e-18 8.963e-12) :
    let s' := (List.finRange 4).foldl (evpPlanetVel S D snf csf x') fun i => D (v' i * D 0.99999696)
    let s := evpPlanets ((0.99999696 : ℝ) • v) fun k => (evpPlanet id x k).vel
    Nb (s' 0) (s 0) 3.05e-14 2.148e-7 ∧ Nb (s' 1) (s 1) 3.05e-14 2.148e-7 ∧ Nb (s' 2) (s 2) 2.15e-17 1.496e-11 := by
  have hpl := fun (k : Fin 4) (hk0 : 1e-12 ≤ evpPamv k) => planetVel hS hD hsf hcf hk0 (hx.forbel ⟨k + 3, by omega⟩)
    (hx.lon ⟨k + 1, by omega⟩ (show (1 : ℕ) ≤ k + 1 by omega) (show (k : ℕ) + 1 ≤ 8 by omega)) (hx.inc ⟨k + 9, by omega⟩ (show (9 : ℕ) ≤ k + 9 by omega))
    (hx.lon ⟨k + 5, by omega⟩ (show (1 : ℕ) ≤ k + 5 by omega) (show (k : ℕ) + 5 ≤ 8 by omega)) (hx.inc ⟨k + 13, by omega⟩ (show (9 : ℕ) ≤ k + 13 by omega))
  have p0 : evpPamv 0 = 8.326827e-11 := rfl
  have t0 := hpl 0 (by rw [p0]; norm_num)
  have p1 : evpPamv 1 = 1.843484e-11 := rfl
  have t1 := hpl 1 (by rw [p1]; norm_num)
  have p2 : evpPamv 2 = 1.988712e-12 := rfl
  have t2 := hpl 2 (by rw [p2]; norm_num)
  have p3 : evpPamv 3 = 1.881276e-12 := rfl
  have t3 := hpl 3 (by rw [p3]; norm_num)
  clear hpl
  have n1 : Nb _ _ 1.2e-16 9.99997e-1 := hD.nlit (x := 0.99999696) (by norm_num) (by norm_num)
  have n2 : Nb _ _ 3e-14 2.144e-7 := hD.nmul h0 n1 (by norm_num) (by norm_num)
  have n3 : Nb _ _ 1.75e-16 8.802e-11 := (t0.1).mono (by rw [p0]; norm_num) (by rw [p0]; norm_num)
  have n4 : Nb _ _ 3.02e-14 2.145e-7 := hD.nadd n2.comm n3 (by norm_num) (by norm_num)
  have n5 : Nb _ _ 3.88e-17 1.949e-11 := (t1.1).mono (by rw [p1]; norm_num) (by rw [p1]; norm_num)
  have n6 : Nb _ _ 3.03e-14 2.146e-7 := hD.nadd n4 n5 (by norm_num) (by norm_num)
  have n7 : Nb _ _ 4.18e-18 2.103e-12 := (t2.1).mono (by rw [p2]; norm_num) (by rw [p2]; norm_num)
  have n8 : Nb _ _ 3.04e-14 2.147e-7 := hD.nadd n6 n7 (by norm_num) (by norm_num)
  have n9 : Nb _ _ 3.96e-18 1.989e-12 := (t3.1).mono (by rw [p3]; norm_num) (by rw [p3]; norm_num)
  have n10 : Nb _ _ 3.05e-14 2.148e-7 := hD.nadd n8 n9 (by norm_num) (by norm_num)
  have s0 := n10
  have n11 : Nb _ _ 1.2e-16 9.99997e-1 := hD.nlit (x := 0.99999696) (by norm_num) (by norm_num)
  have n12 : Nb _ _ 3e-14 2.144e-7 := hD.nmul h1 n11 (by norm_num) (by norm_num)
  have n13 : Nb _ _ 1.75e-16 8.802e-11 := (t0.2.1).mono (by rw [p0]; norm_num) (by rw [p0]; norm_num)
  have n14 : Nb _ _ 3.02e-14 2.145e-7 := hD.nsub n12.comm n13 (by norm_num) (by norm_num)
  have n15 : Nb _ _ 3.88e-17 1.949e-11 := (t1.2.1).mono (by rw [p1]; norm_num) (by rw [p1]; norm_num)
  have n16 : Nb _ _ 3.03e-14 2.146e-7 := hD.nsub n14.sub_neg n15 (by norm_num) (by norm_num)
  have n17 : Nb _ _ 4.18e-18 2.103e-12 := (t2.2.1).mono (by rw [p2]; norm_num) (by rw [p2]; norm_num)
  have n18 : Nb _ _ 3.04e-14 2.147e-7 := hD.nsub n16.sub_neg n17 (by norm_num) (by norm_num)
  have n19 : Nb _ _ 3.96e-18 1.989e-12 := (t3.2.1).mono (by rw [p3]; norm_num) (by rw [p3]; norm_num)
  have n20 : Nb _ _ 3.05e-14 2.148e-7 := hD.nsub n18.sub_neg n19 (by norm_num) (by norm_num)
  have s1 := n20.sub_neg
  have n21 : Nb _ _ 1.2e-16 9.99997e-1 := hD.nlit (x := 0.99999696) (by norm_num) (by norm_num)
  have n22 : Nb _ _ 9.35e-18 8.963e-12 := hD.nmul h2 n21 (by norm_num) (by norm_num)
  have n23 : Nb _ _ 9.41e-18 4.714e-12 := (t0.2.2).mono (by rw [p0]; norm_num) (by rw [p0]; norm_num)
  have n24 : Nb _ _ 1.88e-17 1.368e-11 := hD.nsub n22.comm n23 (by norm_num) (by norm_num)
  have n25 : Nb _ _ 2.09e-18 1.044e-12 := (t1.2.2).mono (by rw [p1]; norm_num) (by rw [p1]; norm_num)
  have n26 : Nb _ _ 2.09e-17 1.473e-11 := hD.nsub n24.sub_neg n25 (by norm_num) (by norm_num)
  have n27 : Nb _ _ 2.25e-19 1.126e-13 := (t2.2.2).mono (by rw [p2]; norm_num) (by rw [p2]; norm_num)
  have n28 : Nb _ _ 2.12e-17 1.485e-11 := hD.nsub n26.sub_neg n27 (by norm_num) (by norm_num)
  have n29 : Nb _ _ 2.13e-19 1.065e-13 := (t3.2.2).mono (by rw [p3]; norm_num) (by rw [p3]; norm_num)
  have n30 : Nb _ _ 2.15e-17 1.496e-11 := hD.nsub n28.sub_neg n29 (by norm_num) (by norm_num)
  have s2 := n30.sub_neg
  have hf : List.finRange 4 = [0, 1, 2, 3] := rfl
  intro s' s
  refine ⟨?_, ?_, ?_⟩ <;> simp only [s', s, hf, evpPlanets, List.foldl_cons, List.foldl_nil]
  · exact s0
  · exact s1
  · exact s2

end Sla.Fp
