import Verif.Lemmas.FpDmoon

/-
Error analysis of `dmoon` in double precision: the ecliptic coordinates and the vectors.
-/
namespace Sla.Fp
open Real (pi)

variable {R : ℝ → ℝ} {sn cs : ℝ → ℝ}

/-- The three series. -/
private theorem series_all (hR : Dbl R) (hs : ∀ x, |sn x - Real.sin x| ≤ 2e-16) (hc : ∀ x, |cs x - Real.cos x| ≤ 2e-16)
    {a b r q : MoonArgs} {eo Bo ep Bp t T : ℝ} (ht : Nb t T 7.22e-16 3) (ha : DArgsNear a b 1.85e-11 6.301 eo Bo)
    (hr : DArgsNear r q 5.44e-12 8433.6 ep Bp) :
    Nb (dmoonL.reverse.foldl (dmoonSinTerm R sn cs t a r) (0, 0)).1
      (dmoonL.reverse.foldl (Sla.dmoonSinTerm T b q) (0, 0)).1 2.6e-10 9.353 ∧
    Nb (dmoonL.reverse.foldl (dmoonSinTerm R sn cs t a r) (0, 0)).2
      (dmoonL.reverse.foldl (Sla.dmoonSinTerm T b q) (0, 0)).2 4.35e-6 117900 ∧
    Nb (dmoonB.reverse.foldl (dmoonSinTerm R sn cs t a r) (0, 0)).1
      (dmoonB.reverse.foldl (Sla.dmoonSinTerm T b q) (0, 0)).1 1.44e-10 6.186 ∧
    Nb (dmoonB.reverse.foldl (dmoonSinTerm R sn cs t a r) (0, 0)).2
      (dmoonB.reverse.foldl (Sla.dmoonSinTerm T b q) (0, 0)).2 1.95e-6 65170 ∧
    Nb (dmoonP.reverse.foldl (dmoonCosTerm R sn cs t a r) (0, 0)).1
      (dmoonP.reverse.foldl (Sla.dmoonCosTerm T b q) (0, 0)).1 2.17e-12 1.045 ∧
    Nb (dmoonP.reverse.foldl (dmoonCosTerm R sn cs t a r) (0, 0)).2
      (dmoonP.reverse.foldl (Sla.dmoonCosTerm T b q) (0, 0)).2 3.58e-8 981.3 := by
  obtain ⟨tL, tB, tP, l1, l2, l3, l4, b1, b2, b3, b4, p1, p2, p3, p4, nL, nB, nP⟩ := dtable_sums
  have sL := dsin_series (B := 9.36) (C := 117900) hR hs hc ht ha hr dmoonL.reverse tL (by rw [l1]; norm_num) (by rw [l2, nL]; norm_num)
    (by norm_num) (by rw [l3]; norm_num) (by rw [l4, nL]; norm_num) (by norm_num)
  unfold DSeriesNear at sL
  rw [l1, l2, l3, l4, nL] at sL
  have sB := dsin_series (B := 6.19) (C := 65170) hR hs hc ht ha hr dmoonB.reverse tB (by rw [b1]; norm_num) (by rw [b2, nB]; norm_num)
    (by norm_num) (by rw [b3]; norm_num) (by rw [b4, nB]; norm_num) (by norm_num)
  unfold DSeriesNear at sB
  rw [b1, b2, b3, b4, nB] at sB
  have sP := dcos_series (B := 1.05) (C := 981.3) hR hs hc ht ha hr dmoonP.reverse tP (by rw [p1]; norm_num) (by rw [p2, nP]; norm_num)
    (by norm_num) (by rw [p3]; norm_num) (by rw [p4, nP]; norm_num) (by norm_num)
  unfold DSeriesNear at sP
  rw [p1, p2, p3, p4, nP] at sP
  exact ⟨⟨sL.1.1.trans (by norm_num), sL.1.2.trans (by norm_num)⟩, ⟨sL.2.1.trans (by norm_num), sL.2.2.trans (by norm_num)⟩, ⟨sB.1.1.trans (by norm_num), sB.1.2.trans (by norm_num)⟩, ⟨sB.2.1.trans (by norm_num), sB.2.2.trans (by norm_num)⟩, ⟨sP.1.1.trans (by norm_num), sP.1.2.trans (by norm_num)⟩, ⟨sP.2.1.trans (by norm_num), sP.2.2.trans (by norm_num)⟩⟩

/-- From the parallax to the distance. -/
private theorem ddist_near (hR : Dbl R) (hs : ∀ x, |sn x - Real.sin x| ≤ 2e-16) (hc : ∀ x, |cs x - Real.cos x| ≤ 2e-16)
    {X Y X' Y' : ℝ} (h1 : Nb X Y 2.17e-12 1.045) (h2 : Nb X' Y' 3.58e-8 981.3) (h3 : |Y - 0.950724| ≤ 0.0775) :
    Nb (R (R 4.2635212653763e-5 / sn (R (dmoonDeg R * X)))) (4.2635212653763e-5 / Real.sin (d2r * Y)) 7.01e-15 2.798e-3 ∧
    Nb (R (R (R (-R (R 4.2635212653763e-5 / sn (R (dmoonDeg R * X))) * R (R (dmoonDeg R * X') / 3155760000)) *
        cs (R (dmoonDeg R * X))) / sn (R (dmoonDeg R * X))))
      (-(4.2635212653763e-5 / Real.sin (d2r * Y)) * (d2r * Y' / 3155760000) * Real.cos (d2r * Y) / Real.sin (d2r * Y))
      4.18e-20 9.976e-10 := by
  have hd := dmoonDeg_near hR
  have hp : Nb _ _ 3.79e-14 1.824e-2 := hR.nmul hd h1 (by norm_num) (by norm_num)
  have n1 : Nb _ _ 6.25e-10 17.13 := hR.nmul hd h2 (by norm_num) (by norm_num)
  have hdp : Nb _ _ 1.99e-19 5.429e-9 := hR.ndivc (n := 3155760000) n1 (by norm_num) (by norm_num) (by norm_num)
  have hv := abs_le.1 h3
  have g1 := d2r_gt
  have lp : 0.01524 ≤ d2r * Y := by nlinarith
  have up : d2r * Y ≤ 0.0183 := (le_abs_self _).trans (hp.bd.trans (by norm_num))
  have hm : 0.015238 ≤ |Real.sin (d2r * Y)| := by
    have h1 := Real.sin_gt_sub_cube (by linarith : 0 < d2r * Y)
    have h2 : (d2r * Y) ^ 3 ≤ 0.0183 ^ 3 := pow_le_pow_left₀ (by linarith) up 3
    exact le_trans (by norm_num at *; linarith) (le_abs_self _)
  have hsp : Nb _ _ 3.81e-14 1 := hp.sin hs (by norm_num)
  have hcp : Nb _ _ 3.81e-14 1 := hp.cos hc (by norm_num)
  have n2 : Nb _ _ 5.12e-21 4.26353e-5 := hR.nlit (x := 4.2635212653763e-5) (by norm_num) (by norm_num)
  have hr : Nb _ _ 7.01e-15 2.798e-3 := hR.ndiv (m := 0.015238) (E := 7e-15) n2 hsp hm (by norm_num) (by norm_num) (by norm_num) (by norm_num)
  have n3 : Nb _ _ 5.95e-22 1.52e-11 := hR.nmul hr.neg hdp (by norm_num) (by norm_num)
  have n4 : Nb _ _ 5.96e-22 1.52e-11 := hR.nmul n3 hcp (by norm_num) (by norm_num)
  have hdr : Nb _ _ 4.18e-20 9.976e-10 := hR.ndiv (m := 0.015238) (E := 4.17e-20) n4 hsp hm (by norm_num) (by norm_num) (by norm_num) (by norm_num)
  exact ⟨hr, hdr⟩

/-- Ecliptic coordinates close to each other. -/
structure DEclNear (x y : SphericalPV) : Prop where
  long : Nb x.long y.long 2.31e-11 6.465
  lat : Nb x.lat y.lat 2.53e-12 0.1083
  dist : Nb x.dist y.dist 7.01e-15 2.798e-3
  dlong : Nb x.dlong y.dlong 2.42e-17 3.328e-6
  dlat : Nb x.dlat y.dlat 1.1e-17 3.616e-7
  ddist : Nb x.ddist y.ddist 4.18e-20 9.976e-10

theorem dmoonSpherical_near (hR : Dbl R) (hs : ∀ x, |sn x - Real.sin x| ≤ 2e-16) (hc : ∀ x, |cs x - Real.cos x| ≤ 2e-16)
    {t T : ℝ} (ht : Nb t T 7.22e-16 3) {a b r q : MoonArgs} (h : DArgsNear a b 1.84e-11 6.3 1.84e-11 6.3)
    (h' : DArgsNear r q 4.1e-12 8433.5 1.65e-14 33.76) :
    DEclNear (dmoonSpherical R sn cs t a r) (Sla.dmoonSpherical T b q) := by
  have hd := dmoonDeg_near hR
  have ho := h.om
  have hdo := h'.om
  obtain ⟨wom, dwom⟩ := wom_near hR ht ho hdo
  have ha := dmoonPeriodic_near hR hs hc ht h h'
  have hr := dmoonPeriodicRates_near hR hs hc ht h h'
  obtain ⟨l1, l2, b1, b2, p1, p2⟩ := series_all hR hs hc ht ha hr
  have p3 := dcos_rest hR hs hc ht ha hr
  have n1 : Nb _ _ 4.54e-12 0.1633 := hR.nmul hd l1 (by norm_num) (by norm_num)
  have el : Nb _ _ 2.31e-11 6.465 := hR.nadd ha.elp n1 (by norm_num) (by norm_num)
  have n2 : Nb _ _ 7.6e-8 2058 := hR.nmul hd l2 (by norm_num) (by norm_num)
  have n3 : Nb _ _ 7.61e-8 10500 := hR.nadd hr.elp n2 (by norm_num) (by norm_num)
  have del : Nb _ _ 2.42e-17 3.328e-6 := hR.ndivc (n := 3155760000) n3 (by norm_num) (by norm_num) (by norm_num)
  have co : Nb _ _ 1.85e-11 1 := ho.cos hc (by norm_num)
  have so : Nb _ _ 1.85e-11 1 := ho.sin hs (by norm_num)
  have cw : Nb _ _ 1.86e-11 1 := wom.cos hc (by norm_num)
  have sw : Nb _ _ 1.86e-11 1 := wom.sin hs (by norm_num)
  have n4 : Nb 1 1 0 1 := Nb.self (by norm_num)
  have n5 : Nb _ _ 5.6e-20 4.664e-4 := hR.nlit (x := 0.0004664) (by norm_num) (by norm_num)
  have n6 : Nb _ _ 8.63e-15 4.664e-4 := hR.nmul n5 co (by norm_num) (by norm_num)
  have n7 : Nb _ _ 8.76e-15 1.001 := hR.nsub n4 n6 (by norm_num) (by norm_num)
  have n8 : Nb _ _ 9.05e-21 7.54e-5 := hR.nlit (x := 0.0000754) (by norm_num) (by norm_num)
  have n9 : Nb _ _ 1.41e-15 7.54e-5 := hR.nmul n8 cw (by norm_num) (by norm_num)
  have bf : Nb _ _ 1.03e-14 1.002 := hR.nsub n7 n9 (by norm_num) (by norm_num)
  have n10 : Nb _ _ 5.6e-20 4.664e-4 := hR.nlit (x := 0.0004664) (by norm_num) (by norm_num)
  have n11 : Nb _ _ 1.15e-17 1.575e-2 := hR.nmul n10 hdo (by norm_num) (by norm_num)
  have n12 : Nb _ _ 2.92e-13 1.575e-2 := hR.nmul n11 so (by norm_num) (by norm_num)
  have n13 : Nb _ _ 9.05e-21 7.54e-5 := hR.nlit (x := 0.0000754) (by norm_num) (by norm_num)
  have n14 : Nb _ _ 2.17e-18 2.55e-3 := hR.nmul n13 dwom (by norm_num) (by norm_num)
  have n15 : Nb _ _ 4.75e-14 2.55e-3 := hR.nmul n14 sw (by norm_num) (by norm_num)
  have dbf : Nb _ _ 3.4e-13 0.0183 := hR.nadd n12 n15 (by norm_num) (by norm_num)
  have n16 : Nb _ _ 2.52e-12 0.108 := hR.nmul hd b1 (by norm_num) (by norm_num)
  have b : Nb _ _ 2.53e-12 0.1083 := hR.nmul n16 bf (by norm_num) (by norm_num)
  have n17 : Nb _ _ 1.96e-6 65310 := hR.nmul b2 bf (by norm_num) (by norm_num)
  have n18 : Nb _ _ 4.74e-12 0.1133 := hR.nmul b1 dbf (by norm_num) (by norm_num)
  have n19 : Nb _ _ 1.97e-6 65320 := hR.nadd n17 n18 (by norm_num) (by norm_num)
  have n20 : Nb _ _ 3.44e-8 1141 := hR.nmul hd n19 (by norm_num) (by norm_num)
  have db : Nb _ _ 1.1e-17 3.616e-7 := hR.ndivc (n := 3155760000) n20 (by norm_num) (by norm_num) (by norm_num)
  obtain ⟨d1, d2⟩ := ddist_near hR hs hc p1 p2 p3
  exact ⟨el, b, d1, del, db, d2⟩

/-- The ecliptic vectors. -/
private theorem rect_near (hR : Dbl R) (hs : ∀ x, |sn x - Real.sin x| ≤ 2e-16) (hc : ∀ x, |cs x - Real.cos x| ≤ 2e-16)
    {x y : SphericalPV} (h : DEclNear x y) :
    Nb ((dmoonRect R sn cs x).pos 0) ((Sla.dmoonRect y).pos 0) 7.92e-14 2.798e-3 ∧
    Nb ((dmoonRect R sn cs x).pos 1) ((Sla.dmoonRect y).pos 1) 7.92e-14 2.798e-3 ∧
    Nb ((dmoonRect R sn cs x).pos 2) ((Sla.dmoonRect y).pos 2) 7.87e-15 3.031e-4 ∧
    Nb ((dmoonRect R sn cs x).vel 0) ((Sla.dmoonRect y).vel 0) 4.09e-19 1.042e-8 ∧
    Nb ((dmoonRect R sn cs x).vel 1) ((Sla.dmoonRect y).vel 1) 4.09e-19 1.042e-8 ∧
    Nb ((dmoonRect R sn cs x).vel 2) ((Sla.dmoonRect y).vel 2) 4.31e-20 1.121e-9 := by
  have sel : Nb _ _ 2.32e-11 1 := h.long.sin hs (by norm_num)
  have cel : Nb _ _ 2.32e-11 1 := h.long.cos hc (by norm_num)
  have n1 : Nb _ _ 2.54e-12 1 := h.lat.sin hs (by norm_num)
  have cb : Nb _ _ 2.54e-12 1 := h.lat.cos hc (by norm_num)
  have sb : Nb (sn x.lat) (Real.sin y.lat) 2.54e-12 0.1083 := ⟨n1.err, Real.abs_sin_le_abs.trans h.lat.bd⟩
  have rcb : Nb _ _ 1.42e-14 2.798e-3 := hR.nmul h.dist cb (by norm_num) (by norm_num)
  have px : Nb _ _ 7.92e-14 2.798e-3 := hR.nmul rcb cel (by norm_num) (by norm_num)
  have py : Nb _ _ 7.92e-14 2.798e-3 := hR.nmul rcb sel (by norm_num) (by norm_num)
  have pz : Nb _ _ 7.87e-15 3.031e-4 := hR.nmul h.dist sb (by norm_num) (by norm_num)
  have rbd : Nb _ _ 3.34e-20 1.012e-9 := hR.nmul h.dist h.dlat (by norm_num) (by norm_num)
  have n2 : Nb _ _ 6.19e-21 1.096e-10 := hR.nmul rbd sb (by norm_num) (by norm_num)
  have n3 : Nb _ _ 4.44e-20 9.976e-10 := hR.nmul cb h.ddist (by norm_num) (by norm_num)
  have w : Nb _ _ 5.06e-20 1.108e-9 := hR.nsub n2 n3 (by norm_num) (by norm_num)
  have n4 : Nb _ _ 3.32e-19 9.312e-9 := hR.nmul py.neg h.dlong (by norm_num) (by norm_num)
  have n5 : Nb _ _ 7.64e-20 1.108e-9 := hR.nmul w cel (by norm_num) (by norm_num)
  have vx : Nb _ _ 4.09e-19 1.042e-8 := hR.nsub n4 n5 (by norm_num) (by norm_num)
  have n6 : Nb _ _ 3.32e-19 9.312e-9 := hR.nmul px h.dlong (by norm_num) (by norm_num)
  have n7 : Nb _ _ 7.64e-20 1.108e-9 := hR.nmul w sel (by norm_num) (by norm_num)
  have vy : Nb _ _ 4.09e-19 1.042e-8 := hR.nsub n6 n7 (by norm_num) (by norm_num)
  have n8 : Nb _ _ 3.6e-20 1.012e-9 := hR.nmul rbd cb (by norm_num) (by norm_num)
  have n9 : Nb _ _ 7.07e-21 1.081e-10 := hR.nmul sb h.ddist (by norm_num) (by norm_num)
  have vz : Nb _ _ 4.31e-20 1.121e-9 := hR.nadd n8 n9 (by norm_num) (by norm_num)
  exact ⟨px, py, pz, vx, vy, vz⟩

/-- The equinox correction and the obliquity. -/
private theorem obliquity_near (hR : Dbl R) (hs : ∀ x, |sn x - Real.sin x| ≤ 2e-16) (hc : ∀ x, |cs x - Real.cos x| ≤ 2e-16)
    {date : ℝ} (hd : |date - 51544.5| ≤ 146100) :
    let t := R (R (date - 51544.5) / 36525)
    let T := (date - 51544.5) / 36525
    let Q := R (R 7.272205216643039903848712e-5 * R (R 0.035 + R (R 0.00085 * R (R (2000 + R (t * 100)) - R 1949.9997904423))))
    let q := Real.pi / 43200 * (0.035 + 0.00085 * (2000 + T * 100 - 1949.9997904423))
    let E := R (R 4.848136811095359935899141e-6 *
      R (R 84381.448 + R (R (-R 46.8150 + R (R (-R 0.00059 + R (R 0.001813 * t)) * t)) * t)))
    let e := Real.pi / 648000 * (84381.448 + (-46.8150 + (-0.00059 + 0.001813 * T) * T) * T)
    Nb Q q 9.32e-20 3.037e-5 ∧ Nb (sn E) (Real.sin e) 3.99e-16 1 ∧ Nb (cs E) (Real.cos e) 3.99e-16 1 ∧
    Nb (R (Q * sn E)) (q * Real.sin e) 1.09e-19 3.037e-5 ∧ Nb (R (Q * cs E)) (q * Real.cos e) 1.09e-19 3.037e-5 := by
  intro t T Q q E e
  have h0 : Nb (R (date - 51544.5)) (date - 51544.5) 2e-11 146100 := hR.nlit hd (by norm_num)
  have ht : Nb _ _ 1.03e-15 4 := hR.ndivc (n := 36525) h0 (by norm_num) (by norm_num) (by norm_num)
  have n1 : Nb 100 100 0 100 := Nb.self (by norm_num)
  have n2 : Nb 2000 2000 0 2000 := Nb.self (by norm_num)
  have n3 : Nb _ _ 1.52e-13 400 := hR.nmul ht n1 (by norm_num) (by norm_num)
  have n4 : Nb _ _ 4.41e-13 2400 := hR.nadd n2 n3 (by norm_num) (by norm_num)
  have n5 : Nb _ _ 2.35e-13 1950 := hR.nlit (x := 1949.9997904423) (by norm_num) (by norm_num)
  have n6 : Nb _ _ 1.2e-12 4350 := hR.nsub n4 n5 (by norm_num) (by norm_num)
  have bd := abs_le.1 ht.bd
  have hj : Nb _ _ 1.2e-12 450.1 := ⟨n6.err, abs_le.2 ⟨by linarith, by linarith⟩⟩
  have s0 : Nb (R 7.272205216643039903848712e-5) (Real.pi / 43200) 8.8e-21 7.2723e-5 := by
    have p1 := Real.pi_gt_d20
    have p2 := Real.pi_lt_d20
    have b : |Real.pi / 43200| ≤ 7.2723e-5 := by rw [abs_of_pos (by positivity)]; linarith
    exact ⟨hR.round (e := 1e-24) (abs_le.2 ⟨by linarith, by linarith⟩) b (by norm_num), b⟩
  have n7 : Nb _ _ 4.21e-18 0.035 := hR.nlit (x := 0.035) (by norm_num) (by norm_num)
  have n8 : Nb _ _ 1.03e-19 8.5e-4 := hR.nlit (x := 0.00085) (by norm_num) (by norm_num)
  have n9 : Nb _ _ 1.12e-15 0.3826 := hR.nmul n8 hj (by norm_num) (by norm_num)
  have n10 : Nb _ _ 1.18e-15 0.4176 := hR.nadd n7 n9 (by norm_num) (by norm_num)
  have eq : Nb _ _ 9.32e-20 3.037e-5 := hR.nmul s0 n10 (by norm_num) (by norm_num)
  have a0 : Nb (R 4.848136811095359935899141e-6) (Real.pi / 648000) 5.9e-22 4.8482e-6 := ⟨as2r_round hR, as2r_digits.2⟩
  have n11 : Nb _ _ 1.02e-11 84381.5 := hR.nlit (x := 84381.448) (by norm_num) (by norm_num)
  have n12 : Nb _ _ 5.62e-15 46.815 := hR.nlit (x := 46.8150) (by norm_num) (by norm_num)
  have n13 : Nb _ _ 7.09e-20 5.9e-4 := hR.nlit (x := 0.00059) (by norm_num) (by norm_num)
  have n14 : Nb _ _ 2.18e-19 1.813e-3 := hR.nlit (x := 0.001813) (by norm_num) (by norm_num)
  have n15 : Nb _ _ 3.61e-18 7.252e-3 := hR.nmul n14 ht (by norm_num) (by norm_num)
  have n16 : Nb _ _ 4.63e-18 7.842e-3 := hR.nadd n13.neg n15 (by norm_num) (by norm_num)
  have n17 : Nb _ _ 3.04e-17 3.137e-2 := hR.nmul n16 ht (by norm_num) (by norm_num)
  have n18 : Nb _ _ 1.13e-14 46.85 := hR.nadd n12.neg n17 (by norm_num) (by norm_num)
  have n19 : Nb _ _ 1.16e-13 187.4 := hR.nmul n18 ht (by norm_num) (by norm_num)
  have n20 : Nb _ _ 2.05e-11 84568.9 := hR.nadd n11 n19 (by norm_num) (by norm_num)
  have eps : Nb _ _ 1.99e-16 0.4101 := hR.nmul a0 n20 (by norm_num) (by norm_num)
  have se : Nb _ _ 3.99e-16 1 := eps.sin hs (by norm_num)
  have ce : Nb _ _ 3.99e-16 1 := eps.cos hc (by norm_num)
  have es : Nb _ _ 1.09e-19 3.037e-5 := hR.nmul eq se (by norm_num) (by norm_num)
  have ec : Nb _ _ 1.09e-19 3.037e-5 := hR.nmul eq ce (by norm_num) (by norm_num)
  exact ⟨eq, se, ce, es, ec⟩

/-- The vectors. -/
theorem dmoonVectors_near (hR : Dbl R) (hs : ∀ x, |sn x - Real.sin x| ≤ 2e-16) (hc : ∀ x, |cs x - Real.cos x| ≤ 2e-16)
    {x y : SphericalPV} (h : DEclNear x y) {date : ℝ} (hd : |date - 51544.5| ≤ 146100) :
    (∀ i, |dmoonEquator R sn cs date (dmoonRect R sn cs x).pos i - Sla.dmoonEquator date (Sla.dmoonRect y).pos i| ≤ 8.8e-14) ∧
    (∀ i, |dmoonEquator R sn cs date (dmoonRect R sn cs x).vel i - Sla.dmoonEquator date (Sla.dmoonRect y).vel i| ≤ 4.6e-19) := by
  obtain ⟨px, py, pz, vx, vy, vz⟩ := rect_near hR hs hc h
  obtain ⟨eq, se, ce, es, ec⟩ := obliquity_near hR hs hc hd
  have n1 : Nb _ _ 2.41e-18 8.498e-8 := hR.nmul ec py (by norm_num) (by norm_num)
  have n2 : Nb _ _ 7.93e-14 2.799e-3 := hR.nsub px n1 (by norm_num) (by norm_num)
  have n3 : Nb _ _ 2.4e-19 9.206e-9 := hR.nmul es pz (by norm_num) (by norm_num)
  have xp : Nb _ _ 7.94e-14 0.0028 := hR.nadd n2 n3 (by norm_num) (by norm_num)
  have n4 : Nb _ _ 2.41e-18 8.498e-8 := hR.nmul eq px (by norm_num) (by norm_num)
  have n5 : Nb _ _ 7.93e-14 2.798e-3 := hR.nmul py ce (by norm_num) (by norm_num)
  have n6 : Nb _ _ 7.94e-14 2.799e-3 := hR.nadd n4 n5 (by norm_num) (by norm_num)
  have n7 : Nb _ _ 7.88e-15 3.031e-4 := hR.nmul pz se (by norm_num) (by norm_num)
  have yp : Nb _ _ 8.73e-14 3.103e-3 := hR.nsub n6 n7 (by norm_num) (by norm_num)
  have n8 : Nb _ _ 7.93e-14 2.798e-3 := hR.nmul py se (by norm_num) (by norm_num)
  have n9 : Nb _ _ 7.88e-15 3.031e-4 := hR.nmul pz ce (by norm_num) (by norm_num)
  have zp : Nb _ _ 8.72e-14 3.102e-3 := hR.nadd n8 n9 (by norm_num) (by norm_num)
  have n10 : Nb _ _ 1.25e-23 3.165e-13 := hR.nmul ec vy (by norm_num) (by norm_num)
  have n11 : Nb _ _ 4.1e-19 1.043e-8 := hR.nsub vx n10 (by norm_num) (by norm_num)
  have n12 : Nb _ _ 1.31e-24 3.405e-14 := hR.nmul es vz (by norm_num) (by norm_num)
  have xv : Nb _ _ 4.11e-19 1.044e-8 := hR.nadd n11 n12 (by norm_num) (by norm_num)
  have n13 : Nb _ _ 1.25e-23 3.165e-13 := hR.nmul eq vx (by norm_num) (by norm_num)
  have n14 : Nb _ _ 4.1e-19 1.042e-8 := hR.nmul vy ce (by norm_num) (by norm_num)
  have n15 : Nb _ _ 4.11e-19 1.043e-8 := hR.nadd n13 n14 (by norm_num) (by norm_num)
  have n16 : Nb _ _ 4.32e-20 1.121e-9 := hR.nmul vz se (by norm_num) (by norm_num)
  have yv : Nb _ _ 4.55e-19 1.156e-8 := hR.nsub n15 n16 (by norm_num) (by norm_num)
  have n17 : Nb _ _ 4.1e-19 1.042e-8 := hR.nmul vy se (by norm_num) (by norm_num)
  have n18 : Nb _ _ 4.32e-20 1.121e-9 := hR.nmul vz ce (by norm_num) (by norm_num)
  have zv : Nb _ _ 4.54e-19 1.155e-8 := hR.nadd n17 n18 (by norm_num) (by norm_num)
  constructor <;> intro i <;> fin_cases i
  · exact xp.err.trans (by norm_num)
  · exact yp.err.trans (by norm_num)
  · exact zp.err.trans (by norm_num)
  · exact xv.err.trans (by norm_num)
  · exact yv.err.trans (by norm_num)
  · exact zv.err.trans (by norm_num)

end Sla.Fp
