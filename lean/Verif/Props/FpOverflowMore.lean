import Verif.Props.FpOverflow
import Verif.Model.FpCoords
import Verif.Model.FpTangent
import Verif.Model.FpObs
import Verif.Model.FpNut

/-
Property theorems C94, continued: nothing overflows in the coordinate conversions, the projection, the observer functions and the
nutation.
-/
namespace Sla.Props
open Sla.Fp Sla.Spec

variable {F : Fmt} {R : Rounding F} {Ω : ℝ} {ρ : ℝ → ℝ} {K : ℕ}

/-- Bound an expression from the leaves: `hr` is the room, literals are below `2^24`. -/
local macro "same" hr:ident : tactic => `(tactic|
  (apply Same.weaken
   on_goal 1 =>
     repeat' first
      | with_reducible assumption
      | with_reducible apply Same.rnd $hr
      | with_reducible apply Same.mul
      | with_reducible apply Same.add
      | with_reducible apply Same.sub
      | with_reducible apply Same.neg
      | with_reducible apply Same.sqrt
      | with_reducible apply Same.div _ rfl (by norm_num)
      | with_reducible exact Same.of (n := 24) (by norm_num [abs_of_pos, abs_of_neg])
   all_goals norm_num))

/-! ### Coordinate conversions -/

private theorem precAngles_same {R : Rounding binary64} (hr : Room R Ω ρ 1023) {a b : ℝ} (ha : Same 200 a a) (hb : Same 200 b b) :
    Fp.precAngles ρ a b = Fp.precAngles R a b ∧ Fp.prebnAngles ρ a b = Fp.prebnAngles R a b := by
  constructor
  · have h1 : Same 1000 (Fp.precAngles ρ a b).1 (Fp.precAngles R a b).1 := by unfold Fp.precAngles; dsimp only; same hr
    have h2 : Same 1000 (Fp.precAngles ρ a b).2.1 (Fp.precAngles R a b).2.1 := by unfold Fp.precAngles; dsimp only; same hr
    have h3 : Same 1000 (Fp.precAngles ρ a b).2.2 (Fp.precAngles R a b).2.2 := by unfold Fp.precAngles; dsimp only; same hr
    exact Prod.ext h1.1 (Prod.ext h2.1 h3.1)
  · have h1 : Same 1000 (Fp.prebnAngles ρ a b).1 (Fp.prebnAngles R a b).1 := by unfold Fp.prebnAngles; dsimp only; same hr
    have h2 : Same 1000 (Fp.prebnAngles ρ a b).2.1 (Fp.prebnAngles R a b).2.1 := by unfold Fp.prebnAngles; dsimp only; same hr
    have h3 : Same 1000 (Fp.prebnAngles ρ a b).2.2 (Fp.prebnAngles R a b).2.2 := by unfold Fp.prebnAngles; dsimp only; same hr
    exact Prod.ext h1.1 (Prod.ext h2.1 h3.1)

section
variable {D : Rounding binary64} {δ : ℝ → ℝ} {sn cs : ℝ → ℝ}

private theorem prec_same (hr : Room D Ω δ 1023) (hs : ∀ a, |sn a| ≤ 2) (hc : ∀ a, |cs a| ≤ 2) {a b : ℝ} (ha : Same 200 a a)
    (hb : Same 200 b b) : (Fp.prec δ sn cs a b = Fp.prec D sn cs a b ∧ ∀ i j, |Fp.prec D sn cs a b i j| ≤ 2 ^ 13) ∧
    (Fp.prebn δ sn cs a b = Fp.prebn D sn cs a b ∧ ∀ i j, |Fp.prebn D sn cs a b i j| ≤ 2 ^ 13) := by
  obtain ⟨h1, h2⟩ := precAngles_same hr ha hb
  unfold Fp.prec Fp.prebn
  rw [h1, h2]
  exact ⟨deuler_same hr (by norm_num) hs hc _ _ _ _, deuler_same hr (by norm_num) hs hc _ _ _ _⟩

private theorem ecmat_same (hr : Room D Ω δ 1023) (hs : ∀ a, |sn a| ≤ 2) (hc : ∀ a, |cs a| ≤ 2) {a : ℝ} (ha : Same 200 a a) :
    Fp.ecmat δ sn cs a = Fp.ecmat D sn cs a ∧ ∀ i j, |Fp.ecmat D sn cs a i j| ≤ 2 ^ 13 := by
  have h : Same 1000 (Fp.ecmatPhi δ a) (Fp.ecmatPhi D a) := by unfold Fp.ecmatPhi; dsimp only; same hr
  unfold Fp.ecmat
  rw [h.1]
  exact deuler_same hr (by norm_num) hs hc _ _ _ _

private theorem epj_same (hr : Room D Ω δ 1023) {a : ℝ} (ha : Same 150 a a) : Same 200 (Fp.epj δ a) (Fp.epj D a) := by
  unfold Fp.epj; same hr

private theorem dcs2c_same (hr : Room R Ω ρ K) (hK : 2 ≤ K) (hs : ∀ a, |sn a| ≤ 2) (hc : ∀ a, |cs a| ≤ 2) (a b : ℝ) :
    Fp.dcs2c ρ sn cs a b = Fp.dcs2c R sn cs a b ∧ ∀ i, |Fp.dcs2c R sn cs a b i| ≤ 2 ^ 2 := by
  have S : ∀ x, Same 1 (sn x) (sn x) := fun x => Same.of (by simpa using hs x)
  have C : ∀ x, Same 1 (cs x) (cs x) := fun x => Same.of (by simpa using hc x)
  have x := ((C a).mul (C b)).rnd hr hK
  have y := ((S a).mul (C b)).rnd hr hK
  unfold Fp.dcs2c
  rw [x.1, y.1]
  refine ⟨rfl, fun i => ?_⟩
  fin_cases i
  · exact x.2
  · exact y.2
  · exact ((S b).weaken (by norm_num)).2

private theorem mxv_le (hr : Room R Ω ρ K) {p q n : ℕ} (hK : p + q + 3 ≤ K) (hn : p + q + 3 ≤ n) {M : Mat} {v : Vec} (hM : ∀ i j, |M i j| ≤ 2 ^ p)
    (hv : ∀ i, |v i| ≤ 2 ^ q) : (Fp.dmxv ρ M v = Fp.dmxv R M v ∧ ∀ i, |Fp.dmxv R M v i| ≤ 2 ^ n) ∧
      (Fp.dimxv ρ M v = Fp.dimxv R M v ∧ ∀ i, |Fp.dimxv R M v i| ≤ 2 ^ n) := by
  obtain ⟨h1, h2⟩ := dmxv_same hr hK hM hv
  refine ⟨⟨h1, fun i => ?_⟩, h2, fun i => ?_⟩
  · exact ((acc3_same hr (n := p + q) (by omega) fun j => ((Same.of (hM i j)).mul (Same.of (hv j))).rnd hr (by omega)).weaken hn).2
  · exact ((acc3_same hr (n := p + q) (by omega) fun j => ((Same.of (hM j i)).mul (Same.of (hv j))).rnd hr (by omega)).weaken hn).2

private theorem dcc2s_same (hr : Room D Ω δ 1023) (at2 : ℝ → ℝ → ℝ) {w : Vec} (hw : ∀ i, |w i| ≤ 2 ^ 100) :
    Fp.dcc2s δ at2 w = Fp.dcc2s D at2 w := by
  have m := fun i => ((Same.of (hw i)).mul (Same.of (hw i))).rnd hr (by norm_num)
  have r := ((((m 0).add (m 1)).rnd hr (by norm_num)).sqrt).rnd hr (by norm_num)
  unfold Fp.dcc2s
  dsimp only
  rw [r.1]

private theorem galMat_same (hr : Room D Ω δ 1023) : (Fp.galMat δ = Fp.galMat D ∧ ∀ i j, |Fp.galMat D i j| ≤ 2 ^ 13) ∧
    (Fp.supMat δ = Fp.supMat D ∧ ∀ i j, |Fp.supMat D i j| ≤ 2 ^ 13) := by
  have key : (∀ i j, Same 13 (Fp.galMat δ i j) (Fp.galMat D i j)) ∧ ∀ i j, Same 13 (Fp.supMat δ i j) (Fp.supMat D i j) := by
    have l : ∀ a : ℝ, |a| ≤ 2 ^ 13 → Same 13 (δ a) (D a) := fun a h => Same.lit hr h (by norm_num)
    constructor <;> intro i j <;> (try unfold Fp.galMat) <;> (try unfold Fp.supMat) <;> fin_cases i <;> fin_cases j <;>
      simp only [Matrix.of_apply, Matrix.cons_val', Matrix.cons_val_zero, Matrix.cons_val_one, Matrix.cons_val, Fin.zero_eta, Fin.mk_one,
        Fin.reduceFinMk, Matrix.cons_val_fin_one] <;>
      first
      | exact l _ (by norm_num [abs_of_pos])
      | exact (l _ (by norm_num [abs_of_pos])).neg
      | exact Same.of (by norm_num)
  exact ⟨⟨funext fun i => funext fun j => (key.1 i j).1, fun i j => (key.1 i j).2⟩,
    ⟨funext fun i => funext fun j => (key.2 i j).1, fun i j => (key.2 i j).2⟩⟩

end

/-- C94: for epochs and dates up to 2^150, with library sines and cosines at most 2, no operation of `prec`, `prebn`, `ecmat`, `preces`,
    `eqecl`, `ecleq`, `eqgal`, `galeq`, `galsup` and `supgal` overflows, whatever the direction. -/
theorem C94_coordinates (D : Rounding binary64) (δ : ℝ → ℝ) (h : Overflowing D largest64 δ) (sn cs : ℝ → ℝ) (at2 : ℝ → ℝ → ℝ)
    (hs : ∀ a, |sn a| ≤ 2) (hc : ∀ a, |cs a| ≤ 2) (system : ℤ) (a b : ℝ) (ha : |a| ≤ 2 ^ 150) (hb : |b| ≤ 2 ^ 150) (p : Spherical) :
    Fp.prec δ sn cs a b = Fp.prec D sn cs a b ∧ Fp.prebn δ sn cs a b = Fp.prebn D sn cs a b ∧
    Fp.ecmat δ sn cs a = Fp.ecmat D sn cs a ∧
    Fp.preces δ sn cs at2 system a b p = Fp.preces D sn cs at2 system a b p ∧
    Fp.eqecl δ sn cs at2 p a = Fp.eqecl D sn cs at2 p a ∧ Fp.ecleq δ sn cs at2 p a = Fp.ecleq D sn cs at2 p a ∧
    Fp.eqgal δ sn cs at2 p = Fp.eqgal D sn cs at2 p ∧ Fp.galeq δ sn cs at2 p = Fp.galeq D sn cs at2 p ∧
    Fp.galsup δ sn cs at2 p = Fp.galsup D sn cs at2 p ∧ Fp.supgal δ sn cs at2 p = Fp.supgal D sn cs at2 p := by
  have hr := room64 h
  have A := (Same.of ha).weaken (n := 200) (by norm_num)
  have B := (Same.of hb).weaken (n := 200) (by norm_num)
  obtain ⟨⟨p1, p2⟩, ⟨p3, p4⟩⟩ := prec_same hr hs hc A B
  obtain ⟨e1, e2⟩ := ecmat_same hr hs hc A
  obtain ⟨⟨g1, g2⟩, ⟨g3, g4⟩⟩ := galMat_same hr
  obtain ⟨v1, v2⟩ := dcs2c_same hr (by norm_num) hs hc p.a p.b
  have J := epj_same hr (Same.of ha)
  obtain ⟨⟨j1, j2⟩, -⟩ := prec_same hr hs hc (Same.of (a := 2000) (n := 200) ((by norm_num : |(2000 : ℝ)| ≤ 2 ^ 200))) (Same.of J.2)
  have dr : ∀ a, Fp.dranrm δ a = Fp.dranrm D a := dranrm_same hr (by norm_num)
  have dn : ∀ a, Fp.drange δ a = Fp.drange D a := drange_same hr (by norm_num)
  have one : ∀ {M : Mat}, (∀ i j, |M i j| ≤ 2 ^ 13) → ∀ {v : Vec} {q : ℕ}, (∀ i, |v i| ≤ 2 ^ q) → q ≤ 40 →
      (Fp.dmxv δ M v = Fp.dmxv D M v ∧ ∀ i, |Fp.dmxv D M v i| ≤ 2 ^ (q + 16)) ∧
      (Fp.dimxv δ M v = Fp.dimxv D M v ∧ ∀ i, |Fp.dimxv D M v i| ≤ 2 ^ (q + 16)) := fun hM _ _ hv hq =>
    mxv_le hr (by omega) (by omega) hM hv
  have fin : ∀ {w : Vec} {q : ℕ}, (∀ i, |w i| ≤ 2 ^ q) → q ≤ 100 → Fp.dcc2s δ at2 w = Fp.dcc2s D at2 w := fun hw hq =>
    dcc2s_same hr at2 fun i => (hw i).trans (pow_le_pow_right₀ (by norm_num) hq)
  refine ⟨p1, p3, e1, ?_, ?_, ?_, ?_, ?_, ?_, ?_⟩
  · unfold Fp.preces
    split_ifs with h1 h2
    · have m := (one p4 v2 (by norm_num)).1
      dsimp only
      rw [p3, v1, m.1, fin m.2 (by norm_num), dr]
    · have m := (one p2 v2 (by norm_num)).1
      dsimp only
      rw [p1, v1, m.1, fin m.2 (by norm_num), dr]
    · rfl
  · have m := (one j2 v2 (by norm_num)).1
    have m' := (one e2 m.2 (by norm_num)).1
    unfold Fp.eqecl
    dsimp only
    rw [J.1, j1, e1, v1, m.1, m'.1, fin m'.2 (by norm_num), dr, dn]
  · have m := (one e2 v2 (by norm_num)).2
    have m' := (one j2 m.2 (by norm_num)).2
    unfold Fp.ecleq
    dsimp only
    rw [J.1, j1, e1, v1, m.1, m'.1, fin m'.2 (by norm_num), dr, dn]
  · have m := (one g2 v2 (by norm_num)).1
    unfold Fp.eqgal
    dsimp only
    rw [g1, v1, m.1, fin m.2 (by norm_num), dr, dn]
  · have m := (one g2 v2 (by norm_num)).2
    unfold Fp.galeq
    dsimp only
    rw [g1, v1, m.1, fin m.2 (by norm_num), dr, dn]
  · have m := (one g4 v2 (by norm_num)).1
    unfold Fp.galsup
    dsimp only
    rw [g3, v1, m.1, fin m.2 (by norm_num), dr, dn]
  · have m := (one g4 v2 (by norm_num)).2
    unfold Fp.supgal
    dsimp only
    rw [g3, v1, m.1, fin m.2 (by norm_num), dr, dn]

/-! ### The tangent plane -/

/-- A quotient by a number that is not small. -/
private theorem quot_same {m k : ℕ} {a b c d : ℝ} (h : Same m a b) (h' : c = d) (hd : 1 ≤ 2 ^ k * |d|) : Same (m + k) (a / c) (b / d) := by
  refine ⟨by rw [h.1, h'], ?_⟩
  have h0 : 0 < |d| := by
    by_contra hc
    have : |d| = 0 := le_antisymm (not_lt.1 hc) (abs_nonneg _)
    rw [this, mul_zero] at hd
    linarith
  rw [abs_div, div_le_iff₀ h0, pow_add, mul_assoc]
  calc |b| ≤ 2 ^ m := h.2
    _ = 2 ^ m * 1 := (mul_one _).symm
    _ ≤ _ := mul_le_mul_of_nonneg_left hd (by positivity)

/-- C94: for right ascensions up to 2^1000 no operation of `ds2tp` overflows, with library sines and cosines at most 2: the clamp keeps
    the divisor away from zero.  For plane coordinates up to 2^500 and right ascensions of the tangent point up to 2^1000 none of `dtp2s`
    does, with library arc tangents at most 4. -/
theorem C94_tangent (D : Rounding binary64) (δ : ℝ → ℝ) (h : Overflowing D largest64 δ) (sn cs : ℝ → ℝ) (at2 : ℝ → ℝ → ℝ)
    (hs : ∀ a, |sn a| ≤ 2) (hc : ∀ a, |cs a| ≤ 2) (ha : ∀ y x, |at2 y x| ≤ 4) (p t : Spherical) (hp : |p.a| ≤ 2 ^ 1000) (ht : |t.a| ≤ 2 ^ 1000)
    (xi eta : ℝ) (h1 : |xi| ≤ 2 ^ 500) (h2 : |eta| ≤ 2 ^ 500) :
    Fp.ds2tp δ sn cs p t = Fp.ds2tp D sn cs p t ∧ Fp.dtp2s δ sn cs at2 xi eta t = Fp.dtp2s D sn cs at2 xi eta t := by
  have hr := room64 h
  have S : ∀ x, Same 1 (sn x) (sn x) := fun x => Same.of (by simpa using hs x)
  have C : ∀ x, Same 1 (cs x) (cs x) := fun x => Same.of (by simpa using hc x)
  constructor
  · have d := ((Same.of hp).sub (Same.of ht)).rnd hr (by norm_num)
    have m : Same 20 (δ 1e-6) (D 1e-6) := Same.lit hr (by norm_num [abs_of_pos]) (by norm_num)
    have sml : 1 ≤ 2 ^ 20 * D 1e-6 := by
      have := D.rep_le (x := 1e-6) (y := (2 : ℝ) ^ (-20 : ℤ)) (by norm_num) (by
        have := rep_of_mul (F := binary64) (k := 1) (e := -20) (by simp [binary64]) (by rw [abs_one]; exact one_le_pow₀ (by norm_num))
        simpa using this)
      norm_num at this ⊢; linarith
    have q : Same 4 (Fp.tpDenom δ sn cs p t) (Fp.tpDenom D sn cs p t) := by
      have s1 := S p.b; have s2 := S t.b; have c1 := C p.b; have c2 := C t.b; have c3 := C (D (p.a - t.a))
      unfold Fp.tpDenom
      rw [d.1]
      same hr
    have e : Fp.tppClassify δ (Fp.tpDenom δ sn cs p t) = Fp.tppClassify D (Fp.tpDenom D sn cs p t) := by
      unfold Fp.tppClassify
      rw [q.1, m.1]
    have b : 1 ≤ 2 ^ 20 * |(Fp.tppClassify D (Fp.tpDenom D sn cs p t)).2| := by
      unfold Fp.tppClassify
      have m0 : 0 < D 1e-6 := by nlinarith
      split_ifs with k1 k2 k3
      · rw [abs_of_pos (m0.trans k1)]; linarith
      · rw [abs_of_pos m0]; exact sml
      · rw [abs_neg, abs_of_pos m0]; exact sml
      · dsimp only
        rw [abs_of_neg (by linarith)]; linarith
    have x1 := ((C p.b).mul (S (D (p.a - t.a)))).rnd hr (by norm_num)
    have x2 : Same 4 (δ (δ (sn p.b * cs t.b) - δ (δ (cs p.b * sn t.b) * cs (D (p.a - t.a)))))
        (D (D (sn p.b * cs t.b) - D (D (cs p.b * sn t.b) * cs (D (p.a - t.a))))) := by
      have s1 := S p.b; have s2 := S t.b; have c1 := C p.b; have c2 := C t.b; have c3 := C (D (p.a - t.a))
      same hr
    unfold Fp.ds2tp
    dsimp only
    rw [d.1, e]
    generalize Fp.tppClassify D (Fp.tpDenom D sn cs p t) = c at *
    have y1 := (quot_same x1 (rfl : c.2 = c.2) b).rnd hr (by norm_num)
    have y2 := (quot_same x2 (rfl : c.2 = c.2) b).rnd hr (by norm_num)
    rw [y1.1, y2.1]
  · have s := S t.b
    have c := C t.b
    have X := Same.of h1
    have Y := Same.of h2
    have d : Same 510 (δ (cs t.b - δ (eta * sn t.b))) (D (cs t.b - D (eta * sn t.b))) := by same hr
    have n : Same 510 (δ (sn t.b + δ (eta * cs t.b))) (D (sn t.b + D (eta * cs t.b))) := by same hr
    have r : Same 1023 (δ (Real.sqrt (δ (δ (xi * xi) + δ (δ (cs t.b - δ (eta * sn t.b)) * δ (cs t.b - δ (eta * sn t.b)))))))
        (D (Real.sqrt (D (D (xi * xi) + D (D (cs t.b - D (eta * sn t.b)) * D (cs t.b - D (eta * sn t.b))))))) := by same hr
    have k := ((Same.of (n := 2) ((ha xi (D (cs t.b - D (eta * sn t.b)))).trans (by norm_num))).add (Same.of ht)).rnd hr (by norm_num)
    unfold Fp.dtp2s
    dsimp only
    rw [r.1, n.1, d.1, k.1, dranrm_same hr (by norm_num)]

/-! ### Observers -/

/-- A power of two below a number is below the rounded number. -/
private theorem rnd_ge (R : Rounding F) {k : ℕ} (hF : F.emin ≤ -(k : ℤ)) {x : ℝ} (h : 1 ≤ 2 ^ k * x) : 1 ≤ 2 ^ k * R x := by
  have e : (2 : ℝ) ^ (-(k : ℤ)) * 2 ^ k = 1 := by rw [zpow_neg, zpow_natCast]; exact inv_mul_cancel₀ (by positivity)
  have p : (0 : ℝ) < 2 ^ k := by positivity
  have := R.rep_le (x := x) (y := (2 : ℝ) ^ (-(k : ℤ))) (by
      refine le_of_mul_le_mul_right ?_ p
      rw [e]; linarith) (by
    have := rep_of_mul (F := F) (k := 1) (e := -(k : ℤ)) hF (by rw [abs_one]; exact one_le_pow₀ (by norm_num))
    simpa using this)
  have := mul_le_mul_of_nonneg_right this p.le
  rw [e] at this
  linarith

/-- C94: in single precision no operation of `rvlsrd`, `rvlsrk`, `rvgalc` and `rvlg` overflows, whatever the direction, nor of `rverot` for
    right ascensions and sidereal times up to 2^120, with library sines and cosines at most 2. -/
theorem C94_velocities (D : Rounding binary64) (S : Rounding binary32) (δ σ : ℝ → ℝ) (hD : Overflowing D largest64 δ)
    (hS : Overflowing S largest32 σ) (sn cs : ℝ → ℝ) (hs : ∀ a, |sn a| ≤ 2) (hc : ∀ a, |cs a| ≤ 2) (p : Spherical) (phi st : ℝ) :
    Fp.rvlsrd σ δ sn cs p = Fp.rvlsrd S D sn cs p ∧ Fp.rvlsrk σ δ sn cs p = Fp.rvlsrk S D sn cs p ∧
    Fp.rvgalc σ δ sn cs p = Fp.rvgalc S D sn cs p ∧ Fp.rvlg σ δ sn cs p = Fp.rvlg S D sn cs p ∧
    (|p.a| ≤ 2 ^ 120 → |st| ≤ 2 ^ 120 → Fp.rverot σ sn cs phi p st = Fp.rverot S sn cs phi p st) := by
  have hr := room64 hD
  have hq := room32 hS
  obtain ⟨v1, v2⟩ := dcs2c_same hq (by norm_num) hs hc p.a p.b
  have tab : ∀ x y z : ℝ, |x| ≤ 2 ^ 8 → |y| ≤ 2 ^ 8 → |z| ≤ 2 ^ 8 →
      Fp.dvdv σ (Fp.floats σ δ ![x, y, z]) (Fp.dcs2c σ sn cs p.a p.b) = Fp.dvdv S (Fp.floats S D ![x, y, z]) (Fp.dcs2c S sn cs p.a p.b) := by
    intro x y z hx hy hz
    have l : ∀ a : ℝ, |a| ≤ 2 ^ 8 → Same 8 (σ (δ a)) (S (D a)) := fun a h => ((Same.of h).rnd hr (by norm_num)).rnd hq (by norm_num)
    have k : ∀ i, Same 8 (Fp.floats σ δ ![x, y, z] i) (Fp.floats S D ![x, y, z] i) := fun i => by
      fin_cases i
      · exact l x hx
      · exact l y hy
      · exact l z hz
    rw [v1, show Fp.floats σ δ ![x, y, z] = Fp.floats S D ![x, y, z] from funext fun i => (k i).1]
    exact dvdv_same hq (by norm_num) (fun i => (k i).2) v2
  refine ⟨tab _ _ _ ?_ ?_ ?_, tab _ _ _ ?_ ?_ ?_, tab _ _ _ ?_ ?_ ?_, tab _ _ _ ?_ ?_ ?_, fun ha hb => ?_⟩
  any_goals norm_num [abs_of_pos]
  have d := ((Same.of hb).sub (Same.of ha)).rnd hq (by norm_num)
  have s : ∀ x, Same 1 (sn x) (sn x) := fun x => Same.of (by simpa using hs x)
  have c : ∀ x, Same 1 (cs x) (cs x) := fun x => Same.of (by simpa using hc x)
  have s1 := s (S (st - p.a)); have c1 := c phi; have c2 := c p.b
  have r : Same 100 (Fp.rverot σ sn cs phi p st) (Fp.rverot S sn cs phi p st) := by
    unfold Fp.rverot
    rw [d.1]
    same hq
  exact r.1

/-- C94: with a library cosine within 0.01 of the cosine no operation of `airmas` overflows, whatever the zenith distance; and, with the
    sine within 0.01 too and heights up to 2^900, none of `geoc` and `pvobs`. -/
theorem C94_observer (D : Rounding binary64) (δ : ℝ → ℝ) (h : Overflowing D largest64 δ) (sn cs : ℝ → ℝ)
    (hs : ∀ a, |sn a - Real.sin a| ≤ 0.01) (hc : ∀ a, |cs a - Real.cos a| ≤ 0.01) (zd latitude height lst : ℝ) (hh : |height| ≤ 2 ^ 900) :
    Fp.airmas δ cs zd = Fp.airmas D cs zd ∧ Fp.geoc δ sn cs latitude height = Fp.geoc D sn cs latitude height ∧
    Fp.pvobs δ sn cs latitude height lst = Fp.pvobs D sn cs latitude height lst := by
  have hr := room64 h
  have s2 : ∀ a, |sn a| ≤ 2 := fun a => by
    have := Real.abs_sin_le_one a
    have := hs a
    rw [abs_le] at *; norm_num at *; constructor <;> linarith
  have c2 : ∀ a, |cs a| ≤ 2 := fun a => by
    have := Real.abs_cos_le_one a
    have := hc a
    rw [abs_le] at *; norm_num at *; constructor <;> linarith
  have S : ∀ x, Same 1 (sn x) (sn x) := fun x => Same.of (by simpa using s2 x)
  have C : ∀ x, Same 1 (cs x) (cs x) := fun x => Same.of (by simpa using c2 x)
  have air : Fp.airmas δ cs zd = Fp.airmas D cs zd := by
    have l : Same 1 (δ 1.52) (D 1.52) := Same.lit hr (by norm_num [abs_of_pos]) (by norm_num)
    have up : D 1.52 ≤ 1.53125 := D.le_rep (by norm_num) (by
      have := rep_of_mul (F := binary64) (k := 49) (e := -5) (by simp [binary64]) (by norm_num [binary64])
      norm_num at this ⊢; exact this)
    have h0 : 0 ≤ D 1.52 := D.nonneg (by norm_num)
    have big : 1 ≤ 2 ^ 6 * |cs (min (D 1.52) |zd|)| := by
      have z0 : 0 ≤ min (D 1.52) |zd| := le_min h0 (abs_nonneg _)
      have z1 : min (D 1.52) |zd| ≤ 1.53125 := (min_le_left _ _).trans up
      have p := Real.pi_gt_d4
      have p' := Real.pi_lt_d4
      have k : Real.cos 1.53125 ≤ Real.cos (min (D 1.52) |zd|) := Real.cos_le_cos_of_nonneg_of_le_pi z0 (by norm_num at *; linarith) z1
      have k2 : 0.03 ≤ Real.cos 1.53125 := by
        rw [← Real.sin_pi_div_two_sub]
        have := Real.sin_gt_sub_cube (x := Real.pi / 2 - 1.53125) (by norm_num at *; linarith)
        have b1 : 0.0394 ≤ Real.pi / 2 - 1.53125 := by norm_num at *; linarith
        have b2 : Real.pi / 2 - 1.53125 ≤ 0.04 := by norm_num at *; linarith
        generalize Real.pi / 2 - 1.53125 = x at *
        have : x ^ 3 ≤ 0.04 ^ 3 := pow_le_pow_left₀ (by norm_num at *; linarith) b2 3
        norm_num at *; linarith
      have := hc (min (D 1.52) |zd|)
      have g : 0.02 ≤ cs (min (D 1.52) |zd|) := by rw [abs_le] at this; norm_num at *; linarith
      have := le_abs_self (cs (min (D 1.52) |zd|))
      norm_num at *; linarith
    have e : min (δ 1.52) |zd| = min (D 1.52) |zd| := by rw [l.1]
    have q := (quot_same (Same.of (a := 1) (n := 0) (by norm_num)) (rfl : cs (min (D 1.52) |zd|) = _) big).rnd hr (by norm_num)
    have w := (q.sub (Same.of (a := 1) (n := 0) (by norm_num))).rnd hr (by norm_num)
    have r : Same 500 (Fp.airmas δ cs zd) (Fp.airmas D cs zd) := by
      unfold Fp.airmas
      dsimp only
      rw [e]
      generalize δ (δ (1 / cs (min (D 1.52) |zd|)) - 1) = x at *
      generalize D (D (1 / cs (min (D 1.52) |zd|)) - 1) = y at *
      same hr
    exact r.1
  have ob : Same 1 (Fp.geocB δ) (Fp.geocB D) ∧ 1 / 2 ≤ Fp.geocB D := by
    have l := Same.lit hr (a := 298.257) (n := 9) (by norm_num [abs_of_pos]) (by norm_num)
    have l1 : 256 ≤ D 298.257 := D.rep_le (by norm_num) (by
      have := rep_of_mul (F := binary64) (k := 1) (e := 8) (by simp [binary64]) (by norm_num [binary64])
      norm_num at this ⊢; exact this)
    have q1 : Same 0 (δ (1 / δ 298.257)) (D (1 / D 298.257)) := ((Same.of (a := 1) (n := 0) (by norm_num)).div l.1 (by linarith)).rnd hr (by norm_num)
    have q2 : D (1 / D 298.257) ≤ 1 / 256 := D.le_rep (one_div_le_one_div_of_le (by norm_num) l1) (by
      have := rep_of_mul (F := binary64) (k := 1) (e := -8) (by simp [binary64]) (by norm_num [binary64])
      norm_num at this ⊢; exact this)
    have q3 : 0 ≤ D (1 / D 298.257) := D.nonneg (by positivity)
    have b1 : |1 - D (1 / D 298.257)| ≤ 2 ^ 0 := by rw [abs_le]; norm_num at *; constructor <;> linarith
    have b2 : Same 0 (δ (1 - δ (1 / δ 298.257))) (D (1 - D (1 / D 298.257))) := by rw [q1.1]; exact (Same.of b1).rnd hr (by norm_num)
    have b3 : 0.75 ≤ D (1 - D (1 / D 298.257)) := D.rep_le (by norm_num at *; linarith) (by
      have := rep_of_mul (F := binary64) (k := 3) (e := -2) (by simp [binary64]) (by norm_num [binary64])
      norm_num at this ⊢; exact this)
    unfold Fp.geocB
    dsimp only
    refine ⟨((b2.mul b2).rnd hr (by norm_num)).weaken (by norm_num), D.rep_le ?_ (by
      have := rep_of_mul (F := binary64) (k := 1) (e := -1) (by simp [binary64]) (by norm_num [binary64])
      norm_num at this ⊢; exact this)⟩
    generalize D (1 - D (1 / D 298.257)) = x at *
    norm_num at *; nlinarith
  have gc : ∀ i : Fin 2, Same 960 (![(Fp.geoc δ sn cs latitude height).1, (Fp.geoc δ sn cs latitude height).2] i)
      (![(Fp.geoc D sn cs latitude height).1, (Fp.geoc D sn cs latitude height).2] i) := by
    obtain ⟨B, b⟩ := ob
    have s := S latitude
    have c := C latitude
    have H := Same.of hh
    have rad : Same 10 (δ (Real.sqrt (δ (δ (cs latitude * cs latitude) + δ (δ (Fp.geocB δ * sn latitude) * sn latitude)))))
        (D (Real.sqrt (D (D (cs latitude * cs latitude) + D (D (Fp.geocB D * sn latitude) * sn latitude))))) := by same hr
    have low : 1 ≤ 2 ^ 3 * D (Real.sqrt (D (D (cs latitude * cs latitude) + D (D (Fp.geocB D * sn latitude) * sn latitude)))) := by
      have e1 := hs latitude
      have e2 := hc latitude
      have u := Real.sin_sq_add_cos_sq latitude
      generalize Real.sin latitude = si at *
      generalize Real.cos latitude = co at *
      generalize sn latitude = x at *
      generalize cs latitude = y at *
      generalize Fp.geocB D = β at *
      have n1 : 0 ≤ D (y * y) := D.nonneg (mul_self_nonneg y)
      have n2 : 0 ≤ D (D (β * x) * x) := by
        apply D.nonneg
        rcases le_total 0 x with h | h
        · exact mul_nonneg (D.nonneg (mul_nonneg (by linarith) h)) h
        · exact mul_nonneg_of_nonpos_of_nonpos (by
            exact D.nonpos (mul_nonpos_of_nonneg_of_nonpos (by linarith) h)) h
      refine rnd_ge D (k := 3) (by simp [binary64]) ?_
      have key : 1 ≤ 2 ^ 4 * (D (y * y) + D (D (β * x) * x)) := by
        by_cases hy : 0.5 ≤ |y|
        · have : 1 ≤ 2 ^ 2 * D (y * y) := rnd_ge D (k := 2) (by simp [binary64]) (by
            rw [← abs_mul_abs_self y]
            have := mul_self_le_mul_self (by norm_num) hy
            norm_num at this ⊢; linarith)
          norm_num at *; linarith
        · rw [not_le] at hy
          have hx : 0.7 ≤ |x| := by
            by_contra hx
            rw [not_le] at hx
            have f1 : |co| ≤ 0.51 := by have := abs_sub_abs_le_abs_sub co y; rw [abs_sub_comm] at this; norm_num at *; linarith
            have f2 : |si| ≤ 0.71 := by have := abs_sub_abs_le_abs_sub si x; rw [abs_sub_comm] at this; norm_num at *; linarith
            have g1 : co ^ 2 ≤ 0.51 ^ 2 := by rw [← sq_abs]; exact pow_le_pow_left₀ (abs_nonneg _) f1 2
            have g2 : si ^ 2 ≤ 0.71 ^ 2 := by rw [← sq_abs]; exact pow_le_pow_left₀ (abs_nonneg _) f2 2
            norm_num at *; linarith
          have : 1 ≤ 2 ^ 3 * D (D (β * x) * x) := by
            refine rnd_ge D (k := 3) (by simp [binary64]) ?_
            have k1 : 1 ≤ 2 ^ 2 * D (β * |x|) := rnd_ge D (k := 2) (by simp [binary64]) (by norm_num at *; nlinarith)
            have k2 : D (β * x) * x = D (β * |x|) * |x| := by
              rcases le_total 0 x with h | h
              · rw [abs_of_nonneg h]
              · rw [abs_of_nonpos h, mul_neg, mul_neg, D.odd]; ring
            rw [k2]
            norm_num at *; nlinarith
          norm_num at *; linarith
      have key2 := rnd_ge D (k := 4) (by simp [binary64]) key
      have k3 : 1 / 4 ≤ Real.sqrt (D (D (y * y) + D (D (β * x) * x))) := Real.le_sqrt_of_sq_le (by norm_num at *; linarith)
      norm_num at *; linarith
    generalize hq : δ (Real.sqrt (δ (δ (cs latitude * cs latitude) + δ (δ (Fp.geocB δ * sn latitude) * sn latitude)))) = q at *
    generalize hQ : D (Real.sqrt (D (D (cs latitude * cs latitude) + D (D (Fp.geocB D * sn latitude) * sn latitude)))) = Q at *
    have cc : Same 3 (δ (1 / q)) (D (1 / Q)) := (quot_same (Same.of (a := 1) (n := 0) (by norm_num)) rad.1 (low.trans (by
      have := le_abs_self Q
      exact mul_le_mul_of_nonneg_left this (by norm_num)))).rnd hr (by norm_num)
    have au : δ 1.49597870e11 = D 1.49597870e11 := (Same.lit hr (a := 1.49597870e11) (n := 40) (by norm_num [abs_of_pos]) (by norm_num)).1
    have au1 := one_le D hr.small (x := 1.49597870e11) (by norm_num)
    unfold Fp.geoc
    dsimp only
    rw [hq, hQ]
    have r1 : Same 960 (δ (δ (δ (δ 6378140 * δ (1 / q)) + height) * cs latitude)) (D (D (D (D 6378140 * D (1 / Q)) + height) * cs latitude)) := by
      same hr
    have r2 : Same 960 (δ (δ (δ (δ 6378140 * δ (Fp.geocB δ * δ (1 / q))) + height) * sn latitude))
        (D (D (D (D 6378140 * D (Fp.geocB D * D (1 / Q))) + height) * sn latitude)) := by
      same hr
    intro i
    fin_cases i
    · exact (r1.div au au1).rnd hr (by norm_num)
    · exact (r2.div au au1).rnd hr (by norm_num)
  have g1 : Same 960 (Fp.geoc δ sn cs latitude height).1 (Fp.geoc D sn cs latitude height).1 := gc 0
  have g2 : Same 960 (Fp.geoc δ sn cs latitude height).2 (Fp.geoc D sn cs latitude height).2 := gc 1
  refine ⟨air, Prod.ext g1.1 g2.1, ?_⟩
  have s := S lst
  have c := C lst
  unfold Fp.pvobs
  dsimp only
  generalize Fp.geoc δ sn cs latitude height = g at *
  generalize Fp.geoc D sn cs latitude height = G at *
  have k1 : Same 1000 (δ (g.1 * cs lst)) (D (G.1 * cs lst)) := by same hr
  have k2 : Same 1000 (δ (g.1 * sn lst)) (D (G.1 * sn lst)) := by same hr
  have k3 : Same 1000 (δ (-δ (δ 7.292115855306589e-5 * g.1) * sn lst)) (D (-D (D 7.292115855306589e-5 * G.1) * sn lst)) := by same hr
  have k4 : Same 1000 (δ (δ (δ 7.292115855306589e-5 * g.1) * cs lst)) (D (D (D 7.292115855306589e-5 * G.1) * cs lst)) := by same hr
  rw [k1.1, k2.1, k3.1, k4.1, g2.1]

/-! ### Nutation -/

section
variable {D : Rounding binary64} {δ : ℝ → ℝ} {sn cs : ℝ → ℝ}

private theorem nutAngle_same (hr : Room D Ω δ 1023) {deg a b : ℝ} (hd : |deg| ≤ 2 ^ 9) (h : Same 1000 a b) :
    Same 60 (Fp.nutAngle δ deg a) (Fp.nutAngle D deg b) := by
  have g := Same.lit hr hd (by norm_num)
  have m : Same 21 (cfmod a 1296000) (cfmod b 1296000) :=
    ⟨by rw [h.1], (Same.fmod' b (Same.of (a := 1296000) (n := 21) (by norm_num)) (by norm_num)).2⟩
  unfold Fp.nutAngle
  same hr

private theorem nutAngles_same (hr : Room D Ω δ 1023) {t t' : ℝ} (h : Same 200 t t') : Fp.nutAngles δ t = Fp.nutAngles D t' ∧
    ∀ a ∈ Fp.nutAngles D t', |a| ≤ 2 ^ 60 := by
  have big : ∀ {c : ℝ}, |c| ≤ 2 ^ 31 → Same 31 (δ c) (D c) := fun h => Same.lit hr h (by norm_num)
  have lin : ∀ {c : ℝ}, |c| ≤ 2 ^ 31 → Same 1000 (δ (δ c * t)) (D (D c * t')) := fun hb => by have := big hb; same hr
  have poly : ∀ {c0 c1 c2 c3 d0 d1 d2 d3 : ℝ}, Same 31 c0 d0 → Same 31 c1 d1 → Same 31 c2 d2 → Same 31 c3 d3 →
      Same 1000 (Fp.nutPoly δ t c0 c1 c2 c3) (Fp.nutPoly D t' d0 d1 d2 d3) := fun _ _ _ _ => by unfold Fp.nutPoly; same hr
  have key : List.Forall₂ (fun a b => Same 60 a b) (Fp.nutAngles δ t) (Fp.nutAngles D t') := by
    unfold Fp.nutAngles
    refine .cons (nutAngle_same hr ?_ (poly ?_ ?_ ?_ ?_)) (.cons (nutAngle_same hr ?_ (poly ?_ ?_ ?_ ?_))
      (.cons (nutAngle_same hr ?_ (poly ?_ ?_ ?_ ?_)) (.cons (nutAngle_same hr ?_ (poly ?_ ?_ ?_ ?_))
      (.cons (nutAngle_same hr ?_ (poly ?_ ?_ ?_ ?_)) (.cons (nutAngle_same hr ?_ (lin ?_)) (.cons (nutAngle_same hr ?_ (lin ?_))
      (.cons (nutAngle_same hr ?_ (lin ?_)) (.cons (nutAngle_same hr ?_ (lin ?_)) .nil))))))))
    all_goals first
      | exact big (by norm_num [abs_of_pos])
      | exact (big (by norm_num [abs_of_pos])).neg
      | norm_num [abs_of_pos]
  generalize Fp.nutAngles δ t = A at *
  generalize Fp.nutAngles D t' = B at *
  induction key with
  | nil => exact ⟨rfl, by simp⟩
  | cons h _ ih =>
    refine ⟨by rw [h.1, ih.1], fun a ha => ?_⟩
    rcases List.mem_cons.1 ha with rfl | ha
    · exact h.2
    · exact ih.2 a ha

private theorem sum_same (hr : Room D Ω δ 1023) (L : List (ℤ × ℝ)) (hL : ∀ q ∈ L, |q.1| ≤ 2 ^ 31 ∧ |q.2| ≤ 2 ^ 60) {n : ℕ} {s : ℝ}
    (hn : 100 ≤ n) (hs : |s| ≤ 2 ^ n) (hl : n + L.length ≤ 1000) :
    L.foldl (fun s p => δ (s + δ ((p.1 : ℝ) * p.2))) s = L.foldl (fun s p => D (s + D ((p.1 : ℝ) * p.2))) s := by
  induction L generalizing s n with
  | nil => rfl
  | cons q L ih =>
    obtain ⟨h1, h2⟩ := hL q (by simp)
    have q1 : |(q.1 : ℝ)| ≤ 2 ^ 31 := by
      have : ((|q.1| : ℤ) : ℝ) ≤ ((2 ^ 31 : ℤ) : ℝ) := by exact_mod_cast h1
      norm_num at this ⊢; exact this
    have m := ((Same.of q1).mul (Same.of h2)).rnd hr (by norm_num)
    simp only [List.length_cons] at hl
    have a := ((Same.of hs).add (m.weaken (n := n) (by omega))).rnd hr (by simp; omega)
    rw [max_self] at a
    simp only [List.foldl_cons]
    rw [a.1]
    exact ih (fun q hq => hL q (List.mem_cons_of_mem _ hq)) (n := n + 1) (by omega) a.2 (by omega)

private theorem theta_same (hr : Room D Ω δ 1023) {fa : List ℤ} {A : List ℝ} (hf : ∀ f ∈ fa, |f| ≤ 2 ^ 31) (hl : fa.length ≤ 9)
    (hA : ∀ a ∈ A, |a| ≤ 2 ^ 60) : Fp.nutTheta δ fa A = Fp.nutTheta D fa A := by
  have hz : ∀ q ∈ fa.zip A, |q.1| ≤ 2 ^ 31 ∧ |q.2| ≤ 2 ^ 60 := fun q hq => ⟨hf _ (List.of_mem_zip hq).1, hA _ (List.of_mem_zip hq).2⟩
  have hl' : (fa.zip A).length ≤ 9 := by rw [List.length_zip]; exact (min_le_left _ _).trans hl
  unfold Fp.nutTheta
  cases h : fa.zip A with
  | nil => rfl
  | cons q L =>
    rw [h] at hz hl'
    obtain ⟨h1, h2⟩ := hz q (by simp)
    have q1 : |(q.1 : ℝ)| ≤ 2 ^ 31 := by
      have : ((|q.1| : ℤ) : ℝ) ≤ ((2 ^ 31 : ℤ) : ℝ) := by exact_mod_cast h1
      norm_num at this ⊢; exact this
    have m := (((Same.of q1).mul (Same.of h2)).rnd hr (by norm_num)).weaken (n := 100) (by norm_num)
    simp only [List.length_cons] at hl'
    dsimp only
    rw [m.1]
    exact sum_same hr L (fun q hq => hz q (List.mem_cons_of_mem _ hq)) (by norm_num) m.2 (by omega)

private def small (q : Int × Int × Int × Int) : Bool := |q.1| ≤ 2 ^ 28 ∧ |q.2.1| ≤ 2 ^ 28 ∧ |q.2.2.1| ≤ 2 ^ 28 ∧ |q.2.2.2| ≤ 2 ^ 28

private theorem tenth_le {k : ℤ} (h : |k| ≤ 2 ^ 28) : |tenth k| ≤ 2 ^ 28 := by
  have : ((|k| : ℤ) : ℝ) ≤ ((2 ^ 28 : ℤ) : ℝ) := by exact_mod_cast h
  unfold tenth
  rw [abs_div, abs_of_pos (by norm_num : (0 : ℝ) < 10)]
  rw [Int.cast_abs] at this
  norm_num at this ⊢
  linarith [abs_nonneg (k : ℝ)]

private theorem incr_same (hr : Room D Ω δ 1023) {t t' c s : ℝ} (ht : Same 200 t t') (hc : |c| ≤ 2) (hs : |s| ≤ 2)
    {q : Int × Int × Int × Int} (hq : small q = true) : Same 400 (Fp.nutIncr δ t c s q) (Fp.nutIncr D t' c s q) := by
  unfold small at hq
  obtain ⟨h1, h2, h3, h4⟩ := of_decide_eq_true hq
  have k1 := Same.of (tenth_le h1)
  have k2 := Same.of (tenth_le h2)
  have k3 := Same.of (tenth_le h3)
  have k4 := Same.of (tenth_le h4)
  have C : Same 1 c c := Same.of (by simpa using hc)
  have S : Same 1 s s := Same.of (by simpa using hs)
  unfold Fp.nutIncr
  same hr

private theorem series_same (hr : Room D Ω δ 1023) (hs : ∀ a, |sn a| ≤ 2) (hc : ∀ a, |cs a| ≤ 2) {t t' : ℝ} (ht : Same 200 t t')
    {A : List ℝ} (hA : ∀ a ∈ A, |a| ≤ 2 ^ 60) (L : List NutTerm)
    (hL : ∀ r ∈ L, small r.p = true ∧ small r.e = true ∧ r.fa.length ≤ 9 ∧ ∀ f ∈ r.fa, |f| ≤ 2 ^ 31) {n : ℕ} {x y : ℝ} (hn : 400 ≤ n)
    (hx : |x| ≤ 2 ^ n) (hy : |y| ≤ 2 ^ n) (hl : n + L.length ≤ 700) :
    L.foldl (Fp.nutStep δ sn cs t A) (x, y) = L.foldl (Fp.nutStep D sn cs t' A) (x, y) ∧
      |(L.foldl (Fp.nutStep D sn cs t' A) (x, y)).1| ≤ 2 ^ 700 ∧ |(L.foldl (Fp.nutStep D sn cs t' A) (x, y)).2| ≤ 2 ^ 700 := by
  induction L generalizing x y n with
  | nil =>
    simp only [List.length_nil] at hl
    exact ⟨rfl, ((Same.of hx).weaken (by omega)).2, ((Same.of hy).weaken (by omega)).2⟩
  | cons r L ih =>
    obtain ⟨r1, r2, r3, r4⟩ := hL r (by simp)
    simp only [List.length_cons] at hl
    have th := theta_same hr r4 r3 hA
    have i1 := incr_same hr ht (hc (Fp.nutTheta D r.fa A)) (hs (Fp.nutTheta D r.fa A)) r1
    have i2 := incr_same hr ht (hc (Fp.nutTheta D r.fa A)) (hs (Fp.nutTheta D r.fa A)) r2
    have a1 := ((Same.of hx).add (i1.weaken hn)).rnd hr (by simp; omega)
    have a2 := ((Same.of hy).add (i2.weaken hn)).rnd hr (by simp; omega)
    rw [max_self] at a1 a2
    have e : Fp.nutStep δ sn cs t A (x, y) r = Fp.nutStep D sn cs t' A (x, y) r := by
      unfold Fp.nutStep
      dsimp only
      rw [th, a1.1, a2.1]
    rw [List.foldl_cons, List.foldl_cons, e]
    exact ih (fun r hr => hL r (List.mem_cons_of_mem _ hr)) (n := n + 1) (by omega) a1.2 a2.2 (by omega)

private theorem table_small : (∀ r ∈ nutTerms.reverse, small r.p = true ∧ small r.e = true ∧ r.fa.length ≤ 9 ∧ ∀ f ∈ r.fa, |f| ≤ 2 ^ 31) ∧
    nutTerms.reverse.length = 194 := by
  decide +kernel

attribute [local irreducible] nutTerms in
private theorem nutc_same (hr : Room D Ω δ 1023) (hs : ∀ a, |sn a| ≤ 2) (hc : ∀ a, |cs a| ≤ 2) {a : ℝ} (ha : Same 100 a a) :
    Fp.nutc δ sn cs a = Fp.nutc D sn cs a ∧ |(Fp.nutc D sn cs a).psi| ≤ 2 ^ 800 ∧ |(Fp.nutc D sn cs a).eps| ≤ 2 ^ 800 ∧
      |(Fp.nutc D sn cs a).eps0| ≤ 2 ^ 1000 := by
  have h1 : Same 110 (δ (δ (a - 51544.5) / 36525)) (D (D (a - 51544.5) / 36525)) := by same hr
  have ht := h1.weaken (n := 200) (by norm_num)
  obtain ⟨e1, e2⟩ := nutAngles_same hr ht
  obtain ⟨t1, t2⟩ := table_small
  have s1 : ∀ x, Same 1 (sn x) (sn x) := fun x => Same.of (by simpa using hs x)
  unfold Fp.nutc
  dsimp only
  rw [e1]
  generalize δ (δ (a - 51544.5) / 36525) = t at *
  generalize D (D (a - 51544.5) / 36525) = t' at *
  have m : |(Fp.nutAngles D t').getD 1 0| ≤ 2 ^ 60 := e2 _ (by simp [Fp.nutAngles])
  clear e1
  generalize Fp.nutAngles D t' = A at *
  generalize A.getD 1 0 = ms at *
  have M := Same.of m
  have dbl := ((Same.of (a := 2) (n := 1) (by norm_num)).mul M).rnd hr (by norm_num)
  have u1 := s1 ms
  have u2 := s1 (D (2 * ms))
  have st : Same 100 (δ (δ (-δ 153.1 * sn ms) - δ (δ 1.9 * sn (δ (2 * ms))))) (D (D (-D 153.1 * sn ms) - D (D 1.9 * sn (D (2 * ms))))) := by
    rw [dbl.1]
    same hr
  rw [st.1]
  obtain ⟨f1, f2, f3⟩ := series_same hr hs hc ht e2 nutTerms.reverse t1 (n := 400) le_rfl ((Same.of st.2).weaken (by norm_num)).2
    (y := 0) (by norm_num) (by rw [t2]; norm_num)
  rw [f1]
  clear f1
  generalize nutTerms.reverse.foldl _ _ = d at *
  have F2 := Same.of f2
  have F3 := Same.of f3
  have p1 : Same 800 (δ (δ (δ (δ (d.1 * δ 1.0e-6) - δ 0.042888) - δ (δ 0.29856 * t)) * δ 4.848136811095359935899141e-6))
      (D (D (D (D (d.1 * D 1.0e-6) - D 0.042888) - D (D 0.29856 * t')) * D 4.848136811095359935899141e-6)) := by same hr
  have p2 : Same 800 (δ (δ (δ (δ (d.2 * δ 1.0e-6) - δ 0.005171) - δ (δ 0.02408 * t)) * δ 4.848136811095359935899141e-6))
      (D (D (D (D (d.2 * D 1.0e-6) - D 0.005171) - D (D 0.02408 * t')) * D 4.848136811095359935899141e-6)) := by same hr
  clear ht
  have p3 : Same 1000 (δ (δ (δ 84381.412 + δ (δ (-δ 46.80927 + δ (δ (-δ 0.000152 + δ (δ (δ 0.0019989 + δ (δ (-δ 0.00000051 +
      δ (-δ 0.000000025 * t)) * t)) * t)) * t)) * t)) * δ 4.848136811095359935899141e-6))
      (D (D (D 84381.412 + D (D (-D 46.80927 + D (D (-D 0.000152 + D (D (D 0.0019989 + D (D (-D 0.00000051 +
      D (-D 0.000000025 * t')) * t')) * t')) * t')) * t')) * D 4.848136811095359935899141e-6)) := by same hr
  rw [p1.1, p2.1, p3.1]
  exact ⟨rfl, p1.2, p2.2, p3.2⟩

end

attribute [local irreducible] Fp.nutc in
/-- C94: for dates up to 2^100 and epochs up to 2^150, with library sines and cosines at most 2, no operation of `nutc` (all 194 terms of
    the series), `nut`, `prenut` and `eqeqx` overflows. -/
theorem C94_nutation (D : Rounding binary64) (δ : ℝ → ℝ) (h : Overflowing D largest64 δ) (sn cs : ℝ → ℝ)
    (hs : ∀ a, |sn a| ≤ 2) (hc : ∀ a, |cs a| ≤ 2) (je date : ℝ) (hj : |je| ≤ 2 ^ 150) (hd : |date| ≤ 2 ^ 100) :
    Fp.nutc δ sn cs date = Fp.nutc D sn cs date ∧ Fp.nut δ sn cs date = Fp.nut D sn cs date ∧
    Fp.prenut δ sn cs je date = Fp.prenut D sn cs je date ∧ Fp.eqeqx δ sn cs date = Fp.eqeqx D sn cs date := by
  have hr := room64 h
  have A := Same.of hd
  obtain ⟨n1, n2, n3, n4⟩ := nutc_same hr hs hc A
  have N2 := Same.of n2
  have N3 := Same.of n3
  have N4 := Same.of n4
  have sum := (N4.add (N3.weaken (n := 1000) (by norm_num))).rnd hr (by norm_num)
  have nut : Fp.nut δ sn cs date = Fp.nut D sn cs date ∧ ∀ i j, |Fp.nut D sn cs date i j| ≤ 2 ^ 13 := by
    unfold Fp.nut
    dsimp only
    rw [n1, sum.1]
    exact deuler_same hr (by norm_num) hs hc _ _ _ _
  have J := epj_same hr (A.weaken (n := 150) (by norm_num))
  obtain ⟨⟨j1, j2⟩, -⟩ := prec_same hr hs hc ((Same.of hj).weaken (n := 200) (by norm_num)) (Same.of J.2)
  refine ⟨n1, nut.1, ?_, ?_⟩
  · unfold Fp.prenut
    rw [nut.1, J.1, j1]
    exact (dmxm_same hr (by norm_num) nut.2 j2).1
  · have ht : Same 110 (δ (δ (date - 51544.5) / 36525)) (D (D (date - 51544.5) / 36525)) := by same hr
    unfold Fp.eqeqx
    dsimp only
    rw [n1]
    generalize δ (δ (date - 51544.5) / 36525) = t at *
    generalize D (D (date - 51544.5) / 36525) = t' at *
    have om : Same 600 (δ (δ 0.484813681109535994e-5 * δ (δ 450160.280 + δ (δ (δ (δ (-5 * 1296000) - δ 482890.539) +
        δ (δ (δ 7.455 + δ (δ 0.008 * t)) * t)) * t)))) (D (D 0.484813681109535994e-5 * D (D 450160.280 + D (D (D (D (-5 * 1296000) -
        D 482890.539) + D (D (D 7.455 + D (D 0.008 * t')) * t')) * t'))) ) := by
      same hr
    rw [om.1]
    generalize D (D 0.484813681109535994e-5 * _) = o at *
    have O := Same.of om.2
    have two := (O.add O).rnd hr (by norm_num)
    rw [two.1]
    have c1 : Same 1 (cs (Fp.nutc D sn cs date).eps0) (cs (Fp.nutc D sn cs date).eps0) := Same.of (by simpa using hc _)
    have s1 : Same 1 (sn o) (sn o) := Same.of (by simpa using hs _)
    have s2 : Same 1 (sn (D (o + o))) (sn (D (o + o))) := Same.of (by simpa using hs _)
    generalize sn (D (o + o)) = q2 at *
    generalize sn o = q1 at *
    generalize cs (Fp.nutc D sn cs date).eps0 = q0 at *
    have : Same 1000 (δ (δ ((Fp.nutc D sn cs date).psi * q0) + δ (δ 0.484813681109535994e-5 * δ (δ (δ 0.00264 * q1) + δ (δ 0.000063 * q2)))))
        (D (D ((Fp.nutc D sn cs date).psi * q0) + D (D 0.484813681109535994e-5 * D (D (D 0.00264 * q1) + D (D 0.000063 * q2))))) := by
      same hr
    exact this.1

/-! ### The hypotheses can be met -/

example (D : Rounding binary64) : ∃ δ, Overflowing D largest64 δ ∧ δ (2 * largest64) ≠ D (2 * largest64) ∧
    Fp.nutc δ Real.sin Real.cos 53736 = Fp.nutc D Real.sin Real.cos 53736 ∧
    Fp.prec δ Real.sin Real.cos 1950 2000 = Fp.prec D Real.sin Real.cos 1950 2000 ∧
    Fp.pvobs δ Real.sin Real.cos 0.5 3000 1 = Fp.pvobs D Real.sin Real.cos 0.5 3000 1 := by
  have hp : 0 < largest64 := by unfold largest64; norm_num
  have h1 : Overflowing D largest64 (fun x => if |x| ≤ largest64 then D x else D x + 1) := fun x hx => if_pos hx
  have s : ∀ a, |Real.sin a| ≤ 2 := fun a => (Real.abs_sin_le_one a).trans (by norm_num)
  have c : ∀ a, |Real.cos a| ≤ 2 := fun a => (Real.abs_cos_le_one a).trans (by norm_num)
  refine ⟨_, h1, ?_, (C94_nutation D _ h1 _ _ s c 2000 _ (by norm_num) (by norm_num)).1,
    (C94_coordinates D _ h1 _ _ (fun _ _ => 0) s c 0 1950 2000 (by norm_num) (by norm_num) ⟨0, 0⟩).1,
    (C94_observer D _ h1 _ _ (fun a => by rw [sub_self, abs_zero]; norm_num) (fun a => by rw [sub_self, abs_zero]; norm_num) 0 _ _ _
      (by rw [abs_of_pos (by norm_num)]; exact (by norm_num : (3000 : ℝ) ≤ 2 ^ 12).trans (pow_le_pow_right₀ (by norm_num) (by norm_num)))).2.2⟩
  rw [if_neg (by rw [not_le, abs_of_pos (by linarith)]; linarith)]
  linarith

end Sla.Props
