import Verif.Lemmas.FpEvpElem

/-
`evp` in single and double precision: the perturbations and the orbit of the Earth-Moon barycentre (the chains of bounds are
generated).
-/
namespace Sla.Fp
open Real (pi)
variable {S D snf csf sn cs : ℝ → ℝ}

/-- Two folds in step. -/
theorem foldl_rel {ι α β : Type} (P : ℕ → α → β → Prop) {N : ℕ} {f : α → ι → α} {g : β → ι → β}
    (hs : ∀ n k a b, n < N → P n a b → P (n + 1) (f a k) (g b k)) :
    ∀ (l : List ι) (n : ℕ) (a : α) (b : β), n + l.length ≤ N → P n a b → P (n + l.length) (l.foldl f a) (l.foldl g b)
  | [], _, _, _, _, h => by simpa using h
  | k :: l, n, a, b, hN, h => by
    have hN' : n + 1 + l.length ≤ N := by simp only [List.length_cons] at hN; omega
    have := foldl_rel P hs l (n + 1) (f a k) (g b k) hN' (hs n k a b (by simp only [List.length_cons] at hN; omega) h)
    rw [List.foldl_cons, List.foldl_cons, List.length_cons, show n + (l.length + 1) = n + 1 + l.length by omega]
    exact this

private theorem amps_le (k : Fin 15) : |evpAmps k 0| ≤ 3.5e-5 ∧ |evpAmps k 1| ≤ 2.05e-5 ∧ |evpAmps k 2| ≤ 9.3e-6 ∧
    |evpAmps k 3| ≤ 1.63e-5 ∧ |evpAmps k 4| ≤ 3.74e-7 := by
  fin_cases k <;> refine ⟨?_, ?_, ?_, ?_, ?_⟩ <;> simp [evpAmps, abs_le] <;> norm_num

private theorem pert_term (hS : Single S) (hsf : ∀ x, |snf x - Real.sin x| ≤ 1.2e-7) (hcf : ∀ x, |csf x - Real.cos x| ≤ 1.2e-7)
    {w x a b d e f : ℝ} (ha : Na w x 3.78e-7 6.2832e0) (h0 : |a| ≤ 3.5e-5) (h1 : |b| ≤ 2.05e-5) (h2 : |d| ≤ 9.3e-6) (h3 : |e| ≤ 1.63e-5)
    (h4 : |f| ≤ 3.74e-7) :
    Nb (S (S (S a * csf w) + S (S b * snf w))) (a * Real.cos x + b * Real.sin x) 3.78e-11 5.55e-5 ∧
    Nb (S (S (S (S b * csf w) - S (S a * snf w)) * S f)) ((b * Real.cos x - a * Real.sin x) * f) 1.67e-17 2.076e-11 ∧
    Nb (S (S (S d * csf w) + S (S e * snf w))) (d * Real.cos x + e * Real.sin x) 1.74e-11 2.56e-5 ∧
    Nb (S (S (S (S e * csf w) - S (S d * snf w)) * S f)) ((e * Real.cos x - d * Real.sin x) * f) 7.66e-18 9.575e-12 := by
  have s : Nb _ _ 4.98e-7 1 := ha.sin hsf (by norm_num)
  have c : Nb _ _ 4.98e-7 1 := ha.cos hcf (by norm_num)
  have a0 : Nb _ _ 2.11e-12 3.5e-5 := hS.nlit h0 (by norm_num)
  have a1 : Nb _ _ 1.24e-12 2.05e-5 := hS.nlit h1 (by norm_num)
  have a2 : Nb _ _ 5.59e-13 9.3e-6 := hS.nlit h2 (by norm_num)
  have a3 : Nb _ _ 9.79e-13 1.63e-5 := hS.nlit h3 (by norm_num)
  have a4 : Nb _ _ 2.25e-14 3.74e-7 := hS.nlit h4 (by norm_num)
  have n1 : Nb _ _ 2.17e-11 3.5e-5 := hS.nmul a0 c (by norm_num) (by norm_num)
  have n2 : Nb _ _ 1.27e-11 2.05e-5 := hS.nmul a1 s (by norm_num) (by norm_num)
  have l : Nb _ _ 3.78e-11 5.55e-5 := hS.nadd n1 n2 (by norm_num) (by norm_num)
  have n3 : Nb _ _ 1.27e-11 2.05e-5 := hS.nmul a1 c (by norm_num) (by norm_num)
  have n4 : Nb _ _ 2.17e-11 3.5e-5 := hS.nmul a0 s (by norm_num) (by norm_num)
  have n5 : Nb _ _ 3.78e-11 5.55e-5 := hS.nsub n3 n4 (by norm_num) (by norm_num)
  have ld : Nb _ _ 1.67e-17 2.076e-11 := hS.nmul n5 a4 (by norm_num) (by norm_num)
  have n6 : Nb _ _ 5.75e-12 9.3e-6 := hS.nmul a2 c (by norm_num) (by norm_num)
  have n7 : Nb _ _ 1.01e-11 1.63e-5 := hS.nmul a3 s (by norm_num) (by norm_num)
  have r : Nb _ _ 1.74e-11 2.56e-5 := hS.nadd n6 n7 (by norm_num) (by norm_num)
  have n8 : Nb _ _ 1.01e-11 1.63e-5 := hS.nmul a3 c (by norm_num) (by norm_num)
  have n9 : Nb _ _ 5.75e-12 9.3e-6 := hS.nmul a2 s (by norm_num) (by norm_num)
  have n10 : Nb _ _ 1.74e-11 2.56e-5 := hS.nsub n8 n9 (by norm_num) (by norm_num)
  have rd : Nb _ _ 7.66e-18 9.575e-12 := hS.nmul n10 a4 (by norm_num) (by norm_num)
  exact ⟨l, ld, r, rd⟩

/-- Computed perturbations. -/
structure EvpPertNear (p' p : EvpPert) (el Bl eld Bld er Br erd Brd : ℝ) : Prop where
  l : Nb p'.l p.l el Bl
  ld : Nb p'.ld p.ld eld Bld
  r : Nb p'.r p.r er Br
  rd : Nb p'.rd p.rd erd Brd

theorem evpPert_near (hS : Single S) (hsf : ∀ x, |snf x - Real.sin x| ≤ 1.2e-7) (hcf : ∀ x, |csf x - Real.cos x| ≤ 1.2e-7)
    {dt t : ℝ} (hdt : Nb dt t 5e-16 2) {x' x : EvpElements} (hx : EvpElem x' x) :
    EvpPertNear (evpPert S snf csf (S dt) x'.sec x'.args) (Sla.evpPert t x.sec x.args) 1.92e-9 8.751e-4 5.32e-16 3.114e-10 6.08e-10 3.84e-4 2.45e-16 1.437e-10 := by
  have n1 : Nb _ _ 1.21e-7 2 := hS.nround hdt (by norm_num) (by norm_num)
  have n2 : Nb _ _ 7.74e-14 1.2896e-6 := hS.nlit (x := evpSec 0 0) (by simp [evpSec, abs_le]; norm_num) (by norm_num)
  have n3 : Nb _ _ 1.87e-12 3.10281e-5 := hS.nlit (x := evpSec 1 0) (by simp [evpSec, abs_le]; norm_num) (by norm_num)
  have n4 : Nb _ _ 5.48e-13 9.12419e-6 := hS.nlit (x := evpSec 2 0) (by simp [evpSec, abs_le]; norm_num) (by norm_num)
  have n5 : Nb _ _ 5.88e-14 9.79324e-7 := hS.nlit (x := evpSec 3 0) (by simp [evpSec, abs_le]; norm_num) (by norm_num)
  have n6 : Nb _ _ 1.27e-5 1 := (hx.sec 0).sin hsf (by norm_num)
  have n7 : Nb _ _ 1.27e-5 1 := (hx.sec 1).sin hsf (by norm_num)
  have n8 : Nb _ _ 1.27e-5 1 := (hx.sec 2).sin hsf (by norm_num)
  have n9 : Nb _ _ 1.27e-5 1 := (hx.sec 3).sin hsf (by norm_num)
  have n10 : Nb _ _ 4.66e-15 7.75702e-8 := hS.nlit (x := (-7.757020e-8)) (by norm_num) (by norm_num)
  have n11 : Nb _ _ 1.66e-11 1.29e-6 := hS.nmul n2 n6 (by norm_num) (by norm_num)
  have n12 : Nb _ _ 3.98e-10 3.103e-5 := hS.nmul n3 n7 (by norm_num) (by norm_num)
  have n13 : Nb _ _ 4.17e-10 3.232e-5 := hS.nadd n11 n12 (by norm_num) (by norm_num)
  have n14 : Nb _ _ 2.81e-14 1.552e-7 := hS.nmul n1 n10 (by norm_num) (by norm_num)
  have n15 : Nb _ _ 1.14e-12 9.28e-6 := hS.nadd n4 n14 (by norm_num) (by norm_num)
  have n16 : Nb _ _ 1.2e-10 9.28e-6 := hS.nmul n15 n8 (by norm_num) (by norm_num)
  have n17 : Nb _ _ 5.4e-10 4.16e-5 := hS.nadd n13 n16 (by norm_num) (by norm_num)
  have n18 : Nb _ _ 1.26e-11 9.794e-7 := hS.nmul n5 n9 (by norm_num) (by norm_num)
  have p : Nb _ _ 5.56e-10 4.258e-5 := hS.nadd n17 n18 (by norm_num) (by norm_num)
  have h := foldl_rel (N := 15) (fun n p' p => EvpPertNear p' p (5.56e-10 + n * 9.04e-11) (4.258e-5 + n * 5.55e-5) (n * 3.542e-17) (n * 2.076e-11)
    (n * 4.049e-11) (n * 2.56e-5) (n * 1.63e-17) (n * 9.575e-12)) (f := fun p k =>
    let c := csf (x'.args k)
    let s := snf (x'.args k)
    { l := S (p.l + S (S (S (evpAmps k 0) * c) + S (S (evpAmps k 1) * s)))
      ld := if k < 10 then S (p.ld + S (S (S (S (evpAmps k 1) * c) - S (S (evpAmps k 0) * s)) * S (evpAmps k 4))) else p.ld
      r := S (p.r + S (S (S (evpAmps k 2) * c) + S (S (evpAmps k 3) * s)))
      rd := if k < 10 then S (p.rd + S (S (S (S (evpAmps k 3) * c) - S (S (evpAmps k 2) * s)) * S (evpAmps k 4))) else p.rd : EvpPert })
    (g := fun p k =>
    let c := Real.cos (x.args k)
    let s := Real.sin (x.args k)
    { l := p.l + (evpAmps k 0 * c + evpAmps k 1 * s)
      ld := if k < 10 then p.ld + (evpAmps k 1 * c - evpAmps k 0 * s) * evpAmps k 4 else p.ld
      r := p.r + (evpAmps k 2 * c + evpAmps k 3 * s)
      rd := if k < 10 then p.rd + (evpAmps k 3 * c - evpAmps k 2 * s) * evpAmps k 4 else p.rd : EvpPert })
    (fun n k a b hn h => by
      obtain ⟨t1, t2, t3, t4⟩ := pert_term hS hsf hcf (hx.args k) (amps_le k).1 (amps_le k).2.1 (amps_le k).2.2.1 (amps_le k).2.2.2.1 (amps_le k).2.2.2.2
      have hn1 : (n : ℝ) ≤ 14 := by exact_mod_cast Nat.lt_succ_iff.1 hn
      have hn0 : (0 : ℝ) ≤ n := Nat.cast_nonneg n
      constructor
      · refine hS.nadd (C := 4.258e-5 + ((n + 1 : ℕ) : ℝ) * 5.55e-5) h.l t1 ?_ ?_ <;> push_cast <;> linarith
      · dsimp only
        split_ifs
        · refine hS.nadd (C := ((n + 1 : ℕ) : ℝ) * 2.076e-11) h.ld t2 ?_ ?_ <;> push_cast <;> linarith
        · refine h.ld.mono ?_ ?_ <;> push_cast <;> linarith
      · refine hS.nadd (C := ((n + 1 : ℕ) : ℝ) * 2.56e-5) h.r t3 ?_ ?_ <;> push_cast <;> linarith
      · dsimp only
        split_ifs
        · refine hS.nadd (C := ((n + 1 : ℕ) : ℝ) * 9.575e-12) h.rd t4 ?_ ?_ <;> push_cast <;> linarith
        · refine h.rd.mono ?_ ?_ <;> push_cast <;> linarith)
    (List.finRange 15) 0 ⟨_, 0, 0, 0⟩ ⟨_, 0, 0, 0⟩ (by simp)
    ⟨p.mono (by norm_num) (by norm_num), ⟨by simp, by simp⟩, ⟨by simp, by simp⟩, ⟨by simp, by simp⟩⟩
  rw [List.length_finRange] at h
  have h1 := h.l.mono (g := 1.92e-9) (C := 8.751e-4) (by norm_num) (by norm_num)
  have h2 := h.ld.mono (g := 5.32e-16) (C := 3.114e-10) (by norm_num) (by norm_num)
  have h3 := h.r.mono (g := 6.08e-10) (C := 3.84e-4) (by norm_num) (by norm_num)
  have h4 := h.rd.mono (g := 2.45e-16) (C := 1.437e-10) (by norm_num) (by norm_num)
  exact ⟨h1, h2, h3, h4⟩

private theorem ampm_le (k : Fin 3) : |evpAmpm k 0| ≤ 0.11 ∧ |evpAmpm k 1| ≤ 2.9e-7 ∧ |evpAmpm k 2| ≤ 0.0546 ∧ |evpAmpm k 3| ≤ 1.44e-7 := by
  fin_cases k <;> refine ⟨?_, ?_, ?_, ?_⟩ <;> simp [evpAmpm, abs_le] <;> norm_num

private theorem moon_term (hS : Single S) (hD : Dbl D) (hsf : ∀ x, |snf x - Real.sin x| ≤ 1.2e-7) (hcf : ∀ x, |csf x - Real.cos x| ≤ 1.2e-7)
    {w x a b d e : ℝ} (ha : Na w x 3.78e-7 6.2832e0) (h0 : |a| ≤ 0.11) (h1 : |b| ≤ 2.9e-7) (h2 : |d| ≤ 0.0546) (h3 : |e| ≤ 1.44e-7) :
    Nb (S (S (D a) * snf w)) (a * Real.sin x) 6.8e-8 0.11 ∧ Nb (S (S (D b) * csf w)) (b * Real.cos x) 1.8e-13 2.9e-7 ∧
    Nb (S (S (D d) * csf w)) (d * Real.cos x) 3.38e-8 0.0546 ∧ Nb (S (S (D e) * snf w)) (e * Real.sin x) 8.91e-14 1.44e-7 := by
  have s : Nb _ _ 4.98e-7 1 := ha.sin hsf (by norm_num)
  have c : Nb _ _ 4.98e-7 1 := ha.cos hcf (by norm_num)
  have n1 : Nb _ _ 1.33e-17 0.11 := hD.nlit h0 (by norm_num)
  have n2 : Nb _ _ 6.61e-9 0.11 := hS.nround n1 (by norm_num) (by norm_num)
  have n3 : Nb _ _ 3.49e-23 2.9e-7 := hD.nlit h1 (by norm_num)
  have n4 : Nb _ _ 1.75e-14 2.9e-7 := hS.nround n3 (by norm_num) (by norm_num)
  have n5 : Nb _ _ 6.56e-18 0.0546 := hD.nlit h2 (by norm_num)
  have n6 : Nb _ _ 3.28e-9 0.0546 := hS.nround n5 (by norm_num) (by norm_num)
  have n7 : Nb _ _ 1.73e-23 1.44e-7 := hD.nlit h3 (by norm_num)
  have n8 : Nb _ _ 8.65e-15 1.44e-7 := hS.nround n7 (by norm_num) (by norm_num)
  have l : Nb _ _ 6.8e-8 0.11 := hS.nmul n2 s (by norm_num) (by norm_num)
  have ld : Nb _ _ 1.8e-13 2.9e-7 := hS.nmul n4 c (by norm_num) (by norm_num)
  have r : Nb _ _ 3.38e-8 0.0546 := hS.nmul n6 c (by norm_num) (by norm_num)
  have rd : Nb _ _ 8.91e-14 1.44e-7 := hS.nmul n8 s (by norm_num) (by norm_num)
  exact ⟨l, ld, r, rd⟩

theorem evpMoonPert_near (hS : Single S) (hD : Dbl D) (hsf : ∀ x, |snf x - Real.sin x| ≤ 1.2e-7) (hcf : ∀ x, |csf x - Real.cos x| ≤ 1.2e-7)
    {x' x : EvpElements} (hx : EvpElem x' x) :
    EvpPertNear (evpMoonPert S D snf csf x'.argm) (Sla.evpMoonPert x.argm) 2.64e-7 0.33 6.98e-13 8.7e-7 1.32e-7 0.1638 3.46e-13 4.32e-7 := by
  have h := foldl_rel (N := 3) (fun n p' p => EvpPertNear p' p (n * 8.789e-8) (n * 0.11) (n * 2.325e-13) (n * 2.9e-7)
    (n * 4.368e-8) (n * 0.0546) (n * 1.152e-13) (n * 1.44e-7)) (f := fun p k =>
    let s := snf (x'.argm k)
    let c := csf (x'.argm k)
    (⟨S (p.l + S (S (D (evpAmpm k 0)) * s)), S (p.ld + S (S (D (evpAmpm k 1)) * c)),
     S (p.r + S (S (D (evpAmpm k 2)) * c)), S (p.rd - S (S (D (evpAmpm k 3)) * s))⟩ : EvpPert))
    (g := fun p k =>
    let s := Real.sin (x.argm k)
    let c := Real.cos (x.argm k)
    (⟨p.l + evpAmpm k 0 * s, p.ld + evpAmpm k 1 * c, p.r + evpAmpm k 2 * c, p.rd - evpAmpm k 3 * s⟩ : EvpPert))
    (fun n k a b hn h => by
      obtain ⟨t1, t2, t3, t4⟩ := moon_term hS hD hsf hcf (hx.argm k) (ampm_le k).1 (ampm_le k).2.1 (ampm_le k).2.2.1 (ampm_le k).2.2.2
      have hn1 : (n : ℝ) ≤ 2 := by exact_mod_cast Nat.lt_succ_iff.1 hn
      have hn0 : (0 : ℝ) ≤ n := Nat.cast_nonneg n
      constructor
      · refine hS.nadd (C := ((n + 1 : ℕ) : ℝ) * 0.11) h.l t1 ?_ ?_ <;> push_cast <;> linarith
      · refine hS.nadd (C := ((n + 1 : ℕ) : ℝ) * 2.9e-7) h.ld t2 ?_ ?_ <;> push_cast <;> linarith
      · refine hS.nadd (C := ((n + 1 : ℕ) : ℝ) * 0.0546) h.r t3 ?_ ?_ <;> push_cast <;> linarith
      · refine hS.nsub (C := ((n + 1 : ℕ) : ℝ) * 1.44e-7) h.rd t4 ?_ ?_ <;> push_cast <;> linarith)
    (List.finRange 3) 0 ⟨0, 0, 0, 0⟩ ⟨0, 0, 0, 0⟩ (by simp)
    ⟨⟨by simp, by simp⟩, ⟨by simp, by simp⟩, ⟨by simp, by simp⟩, ⟨by simp, by simp⟩⟩
  rw [List.length_finRange] at h
  have h1 := h.l.mono (g := 2.64e-7) (C := 0.33) (by norm_num) (by norm_num)
  have h2 := h.ld.mono (g := 6.98e-13) (C := 8.7e-7) (by norm_num) (by norm_num)
  have h3 := h.r.mono (g := 1.32e-7) (C := 0.1638) (by norm_num) (by norm_num)
  have h4 := h.rd.mono (g := 3.46e-13) (C := 4.32e-7) (by norm_num) (by norm_num)
  exact ⟨h1, h2, h3, h4⟩

/-- The exact values that correspond to the fields of `EvpOrbit`, and the radius vector. -/
noncomputable def orbPsi (e g : ℝ) : ℝ := (1 - e * e) / (1 + e * Real.cos (g + Sla.evpPhi e g))
noncomputable def orbRd (e g : ℝ) (p : EvpPert) : ℝ :=
  (1 + p.r) * (1.990969e-7 * e * Real.sin (g + Sla.evpPhi e g) / Real.sqrt (1 - e * e) + orbPsi e g * p.rd)
noncomputable def orbRld (e g : ℝ) (p : EvpPert) : ℝ :=
  (1 + p.r) * orbPsi e g * (1.990987e-7 + (e + e) * 1.990969e-7 * ((1 + e * e * 1.5) * Real.cos (g + Sla.evpPhi e g) +
    e * (1.25 - Real.sin (g + Sla.evpPhi e g) * Real.sin (g + Sla.evpPhi e g) * 0.5)) + p.ld)

/-- The computed orbit. -/
structure EvpOrbitNear (D : ℝ → ℝ) (o : EvpOrbit) (e g dml : ℝ) (p : EvpPert) : Prop where
  dr : Nb (D (o.dpsi * o.d1pdro)) (orbPsi e g * (1 + p.r)) 2.13e-8 1.019
  drd : Nb o.drd (orbRd e g p) 5.18e-15 3.508e-9
  drld : Nb o.drld (orbRld e g p) 1.6e-14 2.105e-7
  dtl : Na o.dtl (dml + Sla.evpPhi e g + p.l) 3.84e-8 6.283186

private theorem abs_mul_le {a b A : ℝ} (h : |a| ≤ A) (h' : |b| ≤ 1) : |a * b| ≤ A := by
  rw [abs_mul]
  have := abs_nonneg a
  nlinarith

theorem evpOrbit_near (hS : Single S) (hD : Dbl D) (hsf : ∀ x, |snf x - Real.sin x| ≤ 1.2e-7) (hcf : ∀ x, |csf x - Real.cos x| ≤ 1.2e-7)
    {e' e g' g dml' dml : ℝ} {p' p : EvpPert} (he : Nb e' e 3.06e-9 1.686e-2) (hg : Na g' g 3.78e-7 6.2831864e0)
    (hl : Na dml' dml 1.04e-10 6.283186)
    (hp : EvpPertNear p' p 1.92e-9 8.751e-4 5.32e-16 3.114e-10 6.08e-10 3.84e-4 2.45e-16 1.437e-10) :
    EvpOrbitNear D (evpOrbit S D snf csf e' g' dml' p') e g dml p := by
  have one : Nb 1 1 0 1 := Nb.self (by norm_num)
  have esq : Nb _ _ 1.21e-10 2.843e-4 := hS.nmul he he (by norm_num) (by norm_num)
  have twoE : Nb _ _ 8.15e-9 3.372e-2 := hS.nadd he he (by norm_num) (by norm_num)
  have twoG : Na _ _ 1.51e-6 12.567 := (hg.add hg).single hS (by norm_num) (by norm_num)
  have thrG : Na _ _ 3.02e-6 18.851 := (hg.add twoG).single hS (by norm_num) (by norm_num)
  have n1 : Nb _ _ 1.73e-11 3.554e-5 := hS.nmul esq (Nb.self (x := 0.125) (B := 0.125) (by norm_num)) (by norm_num) (by norm_num)
  have n2 : Nb _ _ 6.01e-8 1.000036e0 := hS.nsub one n1 (by norm_num) (by norm_num)
  have n3 : Nb _ _ 4.98e-7 1 := hg.sin hsf (by norm_num)
  have n4 : Nb _ _ 6.19e-7 1.000036e0 := hS.nmul n2 n3 (by norm_num) (by norm_num)
  have n5 : Nb _ _ 2.55e-9 1.054e-2 := hS.nmul he (Nb.self (x := 0.625) (B := 0.625) (by norm_num)) (by norm_num) (by norm_num)
  have n6 : Nb _ _ 1.63e-6 1 := twoG.sin hsf (by norm_num)
  have n7 : Nb _ _ 2.04e-8 1.054e-2 := hS.nmul n5 n6 (by norm_num) (by norm_num)
  have n8 : Nb _ _ 3.26e-8 5.41667e-1 := hS.nlit (x := 0.54166667) (by norm_num) (by norm_num)
  have n9 : Nb _ _ 8.41e-11 1.54e-4 := hS.nmul esq n8 (by norm_num) (by norm_num)
  have n10 : Nb _ _ 3.14e-6 1 := thrG.sin hsf (by norm_num)
  have n11 : Nb _ _ 5.77e-10 1.54e-4 := hS.nmul n9 n10 (by norm_num) (by norm_num)
  have n12 : Nb _ _ 7.01e-7 1.0106e0 := hS.nadd n4 n7 (by norm_num) (by norm_num)
  have n13 : Nb _ _ 7.63e-7 1.0108e0 := hS.nadd n12 n11 (by norm_num) (by norm_num)
  have phi : Nb _ _ 3.61e-8 3.409e-2 := hS.nmul twoE n13 (by norm_num) (by norm_num)
  have f : Na _ _ 7.94e-7 6.3173e0 := (hg.add (Na.of_nb (A := 3.4091e-2) phi (by norm_num))).single hS (by norm_num) (by norm_num)
  have sF : Nb _ _ 9.14e-7 1 := f.sin hsf (by norm_num)
  have cF : Nb _ _ 9.14e-7 1 := f.cos hcf (by norm_num)
  have dpar0 : Nb _ _ 1.22e-10 1.00029e0 := hD.nsub one esq (by norm_num) (by norm_num)
  have ec : Nb _ _ 1.95e-8 1.686e-2 := hS.nmul he cF (by norm_num) (by norm_num)
  have den : Nb _ _ 1.96e-8 1.017 := hD.nadd one ec (by norm_num) (by norm_num)
  have hm : 0.983 ≤ |1 + e * Real.cos (g + Sla.evpPhi e g)| := by
    have h := abs_mul_le he.bd (Real.abs_cos_le_one (g + Sla.evpPhi e g))
    rw [abs_le] at h
    exact le_trans (by linarith) (le_abs_self _)
  have he2 : e * e ≤ 2.9e-4 := by
    have h := abs_le.1 he.bd
    nlinarith
  have dpar : Nb (D (1 - S (e' * e'))) (1 - e * e) 1.22e-10 1 := ⟨dpar0.err, by rw [abs_of_nonneg (by linarith)]; linarith [mul_self_nonneg e]⟩
  have dpsi : Nb _ _ 2.06e-8 1.018 := hD.ndiv (m := 0.983) (E := 2.05e-8) dpar den hm (by norm_num) (by norm_num) (by norm_num) (by norm_num)
  have n14 : Nb _ _ 1.2e-14 1.99097e-7 := hS.nlit (x := 1.990969e-7) (by norm_num) (by norm_num)
  have n15 : Nb _ _ 2.44e-15 6.714e-9 := hS.nmul twoE n14 (by norm_num) (by norm_num)
  have n16 : Nb _ _ 2.08e-10 4.265e-4 := hS.nmul esq (Nb.self (x := 1.5) (B := 1.5) (by norm_num)) (by norm_num) (by norm_num)
  have n17 : Nb _ _ 6.03e-8 1.0005e0 := hS.nadd one n16 (by norm_num) (by norm_num)
  have n18 : Nb _ _ 1.04e-6 1.0005e0 := hS.nmul n17 cF (by norm_num) (by norm_num)
  have n19 : Nb _ _ 1.89e-6 1 := hS.nmul sF sF (by norm_num) (by norm_num)
  have n20 : Nb _ _ 9.76e-7 0.5 := hS.nmul n19 (Nb.self (x := 0.5) (B := 0.5) (by norm_num)) (by norm_num) (by norm_num)
  have n21 : Nb _ _ 1.09e-6 1.75 := hS.nsub (Nb.self (x := 1.25) (B := 1.25) (by norm_num)) n20 (by norm_num) (by norm_num)
  have n22 : Nb _ _ 2.56e-8 2.951e-2 := hS.nmul he n21 (by norm_num) (by norm_num)
  have n23 : Nb _ _ 1.13e-6 1.031 := hS.nadd n18 n22 (by norm_num) (by norm_num)
  have phid : Nb _ _ 1.06e-14 6.923e-9 := hS.nmul n15 n23 (by norm_num) (by norm_num)
  have par : Nb _ _ 6.02e-8 1 := hS.nround dpar (by norm_num) (by norm_num)
  have hpar : 0.9996 ≤ S (D (1 - S (e' * e'))) := by
    have h := abs_le.1 par.err
    linarith
  have sq : Nb _ _ 6.02e-8 1 := Nb.sqrt par (by linarith) (by linarith) le_rfl
  have sq2 : Nb _ _ 1.21e-7 1 := hS.nround sq (by norm_num) (by norm_num)
  have hsq : 0.9996 ≤ |Real.sqrt (1 - e * e)| := by
    rw [abs_of_nonneg (Real.sqrt_nonneg _)]
    exact Real.le_sqrt_of_sq_le (by norm_num; linarith)
  have n24 : Nb _ _ 1.2e-14 1.99097e-7 := hS.nlit (x := 1.990969e-7) (by norm_num) (by norm_num)
  have n25 : Nb _ _ 1.02e-15 3.357e-9 := hS.nmul n24 he (by norm_num) (by norm_num)
  have n26 : Nb _ _ 4.29e-15 3.357e-9 := hS.nmul n25 sF (by norm_num) (by norm_num)
  have psid : Nb _ _ 4.91e-15 3.359e-9 := hS.ndiv (m := 0.9996) (E := 4.7e-15) n26 sq2 hsq (by norm_num) (by norm_num) (by norm_num) (by norm_num)
  have d1 : Nb _ _ 6.09e-10 1.00039e0 := hD.nadd one hp.r (by norm_num) (by norm_num)
  have n27 : Nb _ _ 2.53e-16 1.463e-10 := hD.nmul dpsi hp.rd (by norm_num) (by norm_num)
  have n28 : Nb _ _ 5.17e-15 3.506e-9 := hD.nadd psid n27 (by norm_num) (by norm_num)
  have drd : Nb _ _ 5.18e-15 3.508e-9 := hD.nmul d1 n28 (by norm_num) (by norm_num)
  have n29 : Nb _ _ 2.13e-8 1.019 := hD.nmul d1 dpsi (by norm_num) (by norm_num)
  have n30 : Nb _ _ 2.39e-23 1.99099e-7 := hD.nlit (x := 1.990987e-7) (by norm_num) (by norm_num)
  have n31 : Nb _ _ 1.07e-14 2.061e-7 := hD.nadd n30 phid (by norm_num) (by norm_num)
  have n32 : Nb _ _ 1.13e-14 2.065e-7 := hD.nadd n31 hp.ld (by norm_num) (by norm_num)
  have drld : Nb _ _ 1.6e-14 2.105e-7 := hD.nmul n29 n32 (by norm_num) (by norm_num)
  have n33 : Na _ _ 3.63e-8 6.3173e0 := (hl.add (Na.of_nb (A := 3.4091e-2) phi (by norm_num))).dbl hD (by norm_num) (by norm_num)
  have n34 : Na _ _ 3.83e-8 6.3182e0 := (n33.add (Na.of_nb (A := 8.7511e-4) hp.l (by norm_num))).dbl hD (by norm_num) (by norm_num)
  have dtl : Na _ _ 3.84e-8 6.283186e0 := n34.fmod (twoPi_near hD) (twoPi_le hD).1 (twoPi_le hD).2 (by norm_num)
  have dr : Nb _ _ 2.13e-8 1.019 := hD.nmul dpsi d1 (by norm_num) (by norm_num)
  exact ⟨dr, drd, drld, dtl⟩

end Sla.Fp
