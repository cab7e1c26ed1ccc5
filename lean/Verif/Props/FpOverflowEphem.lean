import Verif.Props.FpOverflowMore
import Verif.Model.FpMoon

/-
Property theorems C94, continued: nothing overflows in the single precision ephemerides of the Earth and the Moon, for years and day
numbers up to ten thousand.
-/
namespace Sla.Props
open Sla.Fp Sla.Spec

variable {Ω : ℝ} {S : Rounding binary32} {D : Rounding binary64} {σ δ : ℝ → ℝ} {sn cs : ℝ → ℝ}

/-- Bound an expression from the leaves: `hr` is the room, literals are below `2^24`. -/
local macro "same" hr:ident : tactic => `(tactic|
  (apply Same.weaken
   on_goal 1 =>
     repeat' first
      | with_reducible assumption
      | with_reducible apply Same.rnd $hr
      | with_reducible apply Same.mul
      | with_reducible apply Same.add
      | with_reducible apply Same.sub
      | with_reducible apply Same.neg
      | with_reducible apply Same.sqrt
      | with_reducible apply Same.div _ rfl (by norm_num)
      | with_reducible exact Same.of (n := 13) (by norm_num [abs_of_pos, abs_of_neg])
   all_goals norm_num))

private theorem y4_range (year : ℤ) : 0 ≤ (year.tmod 4 + 4).tmod 4 ∧ (year.tmod 4 + 4).tmod 4 ≤ 3 := by
  rcases Int.lt_or_le year 0 with h | h
  · obtain ⟨n, hn⟩ : ∃ n : ℤ, year = -n := ⟨-year, by ring⟩
    subst hn
    have hn : 0 ≤ n := by omega
    rw [Int.neg_tmod, Int.tmod_eq_emod_of_nonneg hn, Int.tmod_eq_emod_of_nonneg (by omega)]
    omega
  · rw [Int.tmod_eq_emod_of_nonneg h, Int.tmod_eq_emod_of_nonneg (by omega)]
    omega

private theorem cast_le {k : ℤ} {n : ℕ} (h : |k| ≤ 2 ^ n) : |(k : ℝ)| ≤ 2 ^ n := by
  rw [← Int.cast_abs]; exact_mod_cast h

private theorem rnd_le (R : Rounding binary32) {x : ℝ} {k : ℤ} {e : ℤ} (he : -149 ≤ e) (hk : |k| ≤ 2 ^ 24) (h : |x| ≤ k * (2 : ℝ) ^ e) :
    |R x| ≤ k * (2 : ℝ) ^ e := by
  have rp : binary32.Rep ((k : ℝ) * (2 : ℝ) ^ e) := rep_of_mul (by simpa [binary32] using he) (by simpa [binary32] using hk)
  rw [abs_le] at h ⊢
  refine ⟨?_, R.le_rep h.2 rp⟩
  have := R.le_rep (x := -x) (by linarith) rp
  rw [R.odd] at this
  linarith

private theorem rnd_nat (R : Rounding binary32) {k : ℤ} (hk : |k| ≤ 2 ^ 24) : R (k : ℝ) = k := by
  refine R.eq_self ?_
  have := rep_of_mul (F := binary32) (k := k) (e := 0) (by simp [binary32]) (by simpa [binary32] using hk)
  simpa using this

/-- The date is at most 2^14 years. -/
private theorem year_same (hr : Room S Ω σ 127) {year day : ℤ} {f : ℝ} (hy : |year| ≤ 10000) (hd : |day| ≤ 10000) (hf : |f| ≤ 1000) :
    Same 5 (Fp.yearFraction σ year day f) (Fp.yearFraction S year day f) ∧
      Same 14 (Fp.yearsSince1900 σ year day f) (Fp.yearsSince1900 S year day f) := by
  have e4 : S 4 = 4 := by simpa using rnd_nat S (k := 4) (by norm_num)
  have e5 : S 1461 = 1461 := by simpa using rnd_nat S (k := 1461) (by norm_num)
  obtain ⟨y0, y3⟩ := y4_range year
  have key : Same 5 (Fp.yearFraction σ year day f) (Fp.yearFraction S year day f) := by
    unfold Fp.yearFraction
    dsimp only
    generalize (year.tmod 4 + 4).tmod 4 = y at *
    have d1 : 0 ≤ (1 : ℤ).tdiv (y + 1) ∧ (1 : ℤ).tdiv (y + 1) ≤ 1 := by
      have : y = 0 ∨ y = 1 ∨ y = 2 ∨ y = 3 := by omega
      rcases this with rfl | rfl | rfl | rfl <;> decide
    obtain ⟨n, hn⟩ : ∃ n : ℤ, n = 4 * (day - (1 : ℤ).tdiv (y + 1)) - y - 2 := ⟨_, rfl⟩
    rw [← hn]
    have b : |n| ≤ 40016 := by rw [abs_le] at *; omega
    have c : Same 16 (n : ℝ) (n : ℝ) := Same.of (cast_le (b.trans (by norm_num)))
    have F : Same 10 f f := Same.of (hf.trans (by norm_num))
    have l4 : Same 3 (σ 4) (S 4) := Same.lit hr (by norm_num) (by norm_num)
    have l5 : Same 11 (σ 1461) (S 1461) := Same.lit hr (by norm_num) (by norm_num)
    have t : Same 20 (σ (σ (n : ℝ) + σ (σ 4 * f))) (S (S (n : ℝ) + S (S 4 * f))) := by same hr
    have u := (t.div l5.1 (by rw [e5]; norm_num)).rnd hr (by norm_num)
    refine ⟨u.1, ?_⟩
    rw [e4, e5, rnd_nat S (b.trans (by norm_num))]
    have nb : |(n : ℝ)| ≤ 40016 := by rw [← Int.cast_abs]; exact_mod_cast b
    have q1 : |S (4 * f)| ≤ 4000 := by
      have := rnd_le S (x := 4 * f) (k := 4000) (e := 0) (by norm_num) (by norm_num)
        (by rw [abs_mul, abs_of_pos (by norm_num : (0 : ℝ) < 4)]; norm_num; linarith)
      simpa using this
    have q2 : |S (n + S (4 * f))| ≤ 44016 := by
      have := rnd_le S (x := n + S (4 * f)) (k := 44016) (e := 0) (by norm_num) (by norm_num)
        ((abs_add_le _ _).trans (by norm_num; linarith))
      simpa using this
    have := rnd_le S (x := S (n + S (4 * f)) / 1461) (k := 1) (e := 5) (by norm_num) (by norm_num)
      (by rw [abs_div, abs_of_pos (by norm_num : (0 : ℝ) < 1461), div_le_iff₀ (by norm_num)]; norm_num; linarith)
    simpa using this
  refine ⟨key, ?_⟩
  unfold Fp.yearsSince1900
  have b : |year - 1900| ≤ 11900 := by rw [abs_le] at *; omega
  have nb : |((year - 1900 : ℤ) : ℝ)| ≤ 11900 := by rw [← Int.cast_abs]; exact_mod_cast b
  generalize year - 1900 = n at *
  have c : Same 14 (n : ℝ) (n : ℝ) := Same.of (nb.trans (by norm_num))
  have t : Same 20 (σ (σ (n : ℝ) + Fp.yearFraction σ year day f)) (S (S (n : ℝ) + Fp.yearFraction S year day f)) := by same hr
  refine ⟨t.1, ?_⟩
  rw [rnd_nat S (b.trans (by norm_num))]
  have k := key.2
  have := rnd_le S (x := n + Fp.yearFraction S year day f) (k := 1) (e := 14) (by norm_num) (by norm_num)
      ((abs_add_le _ _).trans (by norm_num at k ⊢; linarith))
  simpa using this

/-- A single precision quotient by a number away from zero. -/
private theorem quot_same {m k : ℕ} {a b c d : ℝ} (h : Same m a b) (h' : c = d) (hd : 1 ≤ 2 ^ k * |d|) : Same (m + k) (a / c) (b / d) := by
  subst h'
  refine ⟨by rw [h.1], ?_⟩
  have h0 : 0 < |c| := by
    rcases (abs_nonneg c).lt_or_eq with h | h
    · exact h
    · rw [← h, mul_zero] at hd; linarith
  rw [abs_div, div_le_iff₀ h0, pow_add, mul_assoc]
  calc |b| ≤ 2 ^ m := h.2
    _ = 2 ^ m * 1 := (mul_one _).symm
    _ ≤ _ := mul_le_mul_of_nonneg_left hd (by positivity)

private theorem fmod_le {m n : ℕ} {a b c : ℝ} (h : Same m a b) (hc : 0 < c) (hn : c ≤ 2 ^ n) : Same n (cfmod a c) (cfmod b c) :=
  ⟨by rw [h.1], (Same.fmod' b (Same.of (a := c) (n := n) (by rwa [abs_of_pos hc])) hc).2⟩

private theorem earthAt_same (hr : Room S Ω σ 127) (hD : Room D largest64 δ 1023) (hs : ∀ a, |sn a| ≤ 2) (hc : ∀ a, |cs a| ≤ 2)
    {elm elmm t t' : ℝ} (h1 : |elm| ≤ 2 ^ 3) (ht : Same 14 t t') :
    Fp.earthAt σ δ sn cs elm elmm t = Fp.earthAt S D sn cs elm elmm t' ∧
      (∀ i, |(Fp.earthAt S D sn cs elm elmm t').pos i| ≤ 2 ^ 40) ∧ ∀ i, |(Fp.earthAt S D sn cs elm elmm t').vel i| ≤ 2 ^ 40 := by
  have s1 : ∀ x, Same 1 (sn x) (sn x) := fun x => Same.of (by simpa using hs x)
  have c1 : ∀ x, Same 1 (cs x) (cs x) := fun x => Same.of (by simpa using hc x)
  have l : ∀ {x : ℝ}, |x| ≤ 1 → Same 0 (σ (δ x)) (S (D x)) := fun h =>
    ((Same.of (n := 0) (by simpa using h)).rnd hD (by norm_num)).rnd hr (by norm_num)
  have E := Same.of (n := 3) h1
  have k1 := l (x := 1.9913e-7) (by norm_num [abs_of_pos])
  have k2 := l (x := 3.12e-5) (by norm_num [abs_of_pos])
  have k3 := l (x := 8.31e-11) (by norm_num [abs_of_pos])
  have g : Same 30 (σ (σ 4.908230 + σ (σ 3.0005e-4 * t))) (S (S 4.908230 + S (S 3.0005e-4 * t'))) := by same hr
  have ob : Same 40 (σ (σ 0.40931975 - σ (σ 2.27e-6 * t))) (S (S 0.40931975 - S (S 2.27e-6 * t'))) := by same hr
  have e : Same 40 (σ (σ 0.016751 - σ (σ 4.2e-7 * t))) (S (S 0.016751 - S (S 4.2e-7 * t'))) := by same hr
  have e' : |S (S 0.016751 - S (S 4.2e-7 * t'))| ≤ 2 ^ (-4 : ℤ) := by
    have a1 : |S 0.016751| ≤ 2 ^ (-5 : ℤ) := by
      have := rnd_le S (x := 0.016751) (k := 1) (e := -5) (by norm_num) (by norm_num) (by norm_num [abs_of_pos])
      simpa using this
    have a2 : |S 4.2e-7| ≤ 2 ^ (-21 : ℤ) := by
      have := rnd_le S (x := 4.2e-7) (k := 1) (e := -21) (by norm_num) (by norm_num) (by norm_num [abs_of_pos])
      simpa using this
    have a3 : |S (S 4.2e-7 * t')| ≤ 2 ^ (-7 : ℤ) := by
      have := rnd_le S (x := S 4.2e-7 * t') (k := 1) (e := -7) (by norm_num) (by norm_num) (by
        rw [abs_mul]
        calc _ ≤ (2 : ℝ) ^ (-21 : ℤ) * 2 ^ 14 := mul_le_mul a2 ht.2 (abs_nonneg _) (by positivity)
          _ = _ := by norm_num)
      simpa using this
    have := rnd_le S (x := S 0.016751 - S (S 4.2e-7 * t')) (k := 1) (e := -4) (by norm_num) (by norm_num)
      ((abs_sub _ _).trans (by norm_num at *; linarith))
    simpa using this
  unfold Fp.earthAt
  dsimp only
  rw [g.1, ob.1, e.1]
  generalize S (S 0.016751 - S (S 4.2e-7 * t')) = q at *
  generalize S (S 4.908230 + S (S 3.0005e-4 * t')) = γ at *
  generalize S (S 0.40931975 - S (S 2.27e-6 * t')) = o at *
  have Q : Same 0 q q := Same.of (e'.trans (by norm_num))
  have G := Same.of g.2
  clear g e
  have em : Same 31 (σ (elm - γ)) (S (elm - γ)) := by same hr
  rw [em.1]
  generalize S (elm - γ) = m at *
  have M := Same.of em.2
  clear em
  have m2 : Same 44 (σ (2 * m)) (S (2 * m)) := by same hr
  have sa := s1 m; have sb := s1 (S (2 * m))
  have v : Same 50 (σ (σ (m + σ (σ (2 * q) * sn m)) + σ (σ (1.25 * σ (q * q)) * sn (σ (2 * m)))))
      (S (S (m + S (S (2 * q) * sn m)) + S (S (1.25 * S (q * q)) * sn (S (2 * m))))) := by
    rw [m2.1]
    same hr
  rw [v.1]
  generalize S (S (m + S (S (2 * q) * sn m)) + S (S (1.25 * S (q * q)) * sn (S (2 * m)))) = v' at *
  have V := Same.of v.2
  clear v
  have el : Same 52 (σ (v' + γ)) (S (v' + γ)) := by same hr
  rw [el.1]
  generalize S (v' + γ) = θ at *
  have ca := c1 v'
  have num : Same 2 (σ (1 - σ (q * q))) (S (1 - S (q * q))) :=
    (((Same.of (a := 1) (n := 0) (by norm_num)).sub ((Q.mul Q).rnd hr (by norm_num))).rnd hr (by norm_num)).weaken (by norm_num)
  have den : Same 3 (σ (1 + σ (q * cs v'))) (S (1 + S (q * cs v'))) :=
    (((Same.of (a := 1) (n := 0) (by norm_num)).add ((Q.mul ca).rnd hr (by norm_num))).rnd hr (by norm_num)).weaken (by norm_num)
  have low : 1 ≤ 2 ^ 1 * |S (1 + S (q * cs v'))| := by
    have a := rnd_le S (x := q * cs v') (k := 1) (e := -3) (by norm_num) (by norm_num) (by
      rw [abs_mul]
      calc _ ≤ (2 : ℝ) ^ (-4 : ℤ) * 2 := mul_le_mul e' (hc _) (abs_nonneg _) (by positivity)
        _ = _ := by norm_num)
    have b := S.rep_le (x := 1 + S (q * cs v')) (y := (2 : ℝ) ^ (-1 : ℤ)) (by
        have := (abs_le.1 a).1
        norm_num at this ⊢; linarith) (by
      have := rep_of_mul (F := binary32) (k := 1) (e := -1) (by simp [binary32]) (by norm_num [binary32])
      simpa using this)
    have := le_abs_self (S (1 + S (q * cs v')))
    norm_num at b ⊢
    linarith
  have r := (quot_same num den.1 low).rnd hr (by norm_num)
  rw [r.1]
  generalize S (S (1 - S (q * q)) / S (1 + S (q * cs v'))) = r' at *
  have RR := Same.of r.2
  have u1 := s1 θ; have u2 := c1 θ; have u3 := s1 elmm; have u4 := c1 elmm; have u5 := s1 o; have u6 := c1 o; have u7 := s1 γ; have u8 := c1 γ
  have x0 : Same 40 (σ (σ (-r' * cs θ) - σ (σ (δ 3.12e-5) * cs elmm))) (S (S (-r' * cs θ) - S (S (D 3.12e-5) * cs elmm))) := by same hr
  have x1 : Same 40 (σ (σ (σ (-r' * sn θ) - σ (σ (δ 3.12e-5) * sn elmm)) * cs o)) (S (S (S (-r' * sn θ) - S (S (D 3.12e-5) * sn elmm)) * cs o)) := by
    same hr
  have x2 : Same 40 (σ (σ (-r' * sn θ) * sn o)) (S (S (-r' * sn θ) * sn o)) := by same hr
  have v0 : Same 40 (σ (σ (σ (δ 1.9913e-7) * σ (sn θ + σ (q * sn γ))) + σ (σ (δ 8.31e-11) * sn elmm)))
      (S (S (S (D 1.9913e-7) * S (sn θ + S (q * sn γ))) + S (S (D 8.31e-11) * sn elmm))) := by same hr
  have v1 : Same 40 (σ (σ (σ (-σ (δ 1.9913e-7) * σ (cs θ + σ (q * cs γ))) - σ (σ (δ 8.31e-11) * cs elmm)) * cs o))
      (S (S (S (-S (D 1.9913e-7) * S (cs θ + S (q * cs γ))) - S (S (D 8.31e-11) * cs elmm)) * cs o)) := by same hr
  have v2 : Same 40 (σ (σ (-σ (δ 1.9913e-7) * σ (cs θ + σ (q * cs γ))) * sn o)) (S (S (-S (D 1.9913e-7) * S (cs θ + S (q * cs γ))) * sn o)) := by
    same hr
  rw [x0.1, x1.1, x2.1, v0.1, v1.1, v2.1]
  refine ⟨rfl, fun i => ?_, fun i => ?_⟩
  · fin_cases i
    · exact x0.2
    · exact x1.2
    · exact x2.2
  · fin_cases i
    · exact v0.2
    · exact v1.2
    · exact v2.2

private theorem earth_same (hr : Room S Ω σ 127) (hD : Room D largest64 δ 1023) (hs : ∀ a, |sn a| ≤ 2) (hc : ∀ a, |cs a| ≤ 2)
    {year day : ℤ} {f : ℝ} (hy : |year| ≤ 10000) (hd : |day| ≤ 10000) (hf : |f| ≤ 1000) :
    Fp.earth σ δ sn cs year day f = Fp.earth S D sn cs year day f ∧
      (∀ i, |(Fp.earth S D sn cs year day f).pos i| ≤ 2 ^ 40) ∧ ∀ i, |(Fp.earth S D sn cs year day f).vel i| ≤ 2 ^ 40 := by
  obtain ⟨h1, h2⟩ := year_same hr hy hd hf
  have tp : Same 3 (σ 6.28318530718) (S 6.28318530718) := Same.lit hr (by norm_num [abs_of_pos]) (by norm_num)
  have t0 : 0 < S 6.28318530718 := lt_of_lt_of_le one_pos (S.rep_le (by norm_num) (by
    have := rep_of_mul (F := binary32) (k := 1) (e := 0) (by simp [binary32]) (by norm_num [binary32])
    simpa using this))
  have a1 : Same 60 (σ (σ (σ 4.881628 + σ (σ 6.28318530718 * Fp.yearFraction σ year day f)) + σ (σ 0.00013420 * Fp.yearsSince1900 σ year day f)))
      (S (S (S 4.881628 + S (S 6.28318530718 * Fp.yearFraction S year day f)) + S (S 0.00013420 * Fp.yearsSince1900 S year day f))) := by
    same hr
  have a2 : Same 60 (σ (σ 4.72 + σ (σ 83.9971 * Fp.yearsSince1900 σ year day f))) (S (S 4.72 + S (S 83.9971 * Fp.yearsSince1900 S year day f))) := by
    same hr
  unfold Fp.earth
  dsimp only
  rw [a1.1, a2.1, tp.1]
  refine earthAt_same hr hD hs hc ?_ h2
  exact (fmod_le (Same.of a1.2) t0 ((le_abs_self _).trans tp.2)).2

private theorem dir_same (hr : Room S Ω σ 127) (hs : ∀ a, |sn a| ≤ 2) (hc : ∀ a, |cs a| ≤ 2) (a b : ℝ) :
    Fp.dcs2c σ sn cs a b = Fp.dcs2c S sn cs a b ∧ ∀ i, |Fp.dcs2c S sn cs a b i| ≤ 2 ^ 2 := by
  have s1 : ∀ x, Same 1 (sn x) (sn x) := fun x => Same.of (by simpa using hs x)
  have c1 : ∀ x, Same 1 (cs x) (cs x) := fun x => Same.of (by simpa using hc x)
  have key : ∀ i, Same 2 (Fp.dcs2c σ sn cs a b i) (Fp.dcs2c S sn cs a b i) := fun i => by
    fin_cases i
    · exact ((c1 a).mul (c1 b)).rnd hr (by norm_num)
    · exact ((s1 a).mul (c1 b)).rnd hr (by norm_num)
    · exact (s1 b).weaken (by norm_num)
  exact ⟨funext fun i => (key i).1, fun i => (key i).2⟩

/-- C94: in single precision no operation of `earth` and `ecor` overflows, for years and day numbers up to ten thousand and fractions up to a
    thousand days, whatever the direction, with library sines and cosines at most 2. -/
theorem C94_earth (S : Rounding binary32) (D : Rounding binary64) (σ δ : ℝ → ℝ) (hS : Overflowing S largest32 σ)
    (hD : Overflowing D largest64 δ) (sn cs : ℝ → ℝ) (hs : ∀ a, |sn a| ≤ 2) (hc : ∀ a, |cs a| ≤ 2) (year day : ℤ) (f : ℝ)
    (hy : |year| ≤ 10000) (hd : |day| ≤ 10000) (hf : |f| ≤ 1000) (p : Spherical) :
    Fp.earth σ δ sn cs year day f = Fp.earth S D sn cs year day f ∧ Fp.ecor σ δ sn cs p year day f = Fp.ecor S D sn cs p year day f := by
  have hr := room32 hS
  obtain ⟨e1, e2, e3⟩ := earth_same hr (room64 hD) hs hc hy hd hf
  obtain ⟨v1, v2⟩ := dir_same hr hs hc p.a p.b
  have dot : ∀ {u : Vec}, (∀ i, |u i| ≤ 2 ^ 40) →
      Same 60 (Fp.dvdv σ u (Fp.dcs2c S sn cs p.a p.b)) (Fp.dvdv S u (Fp.dcs2c S sn cs p.a p.b)) := by
    intro u hu
    have a0 := Same.of (hu 0); have a1 := Same.of (hu 1); have a2 := Same.of (hu 2)
    have b0 := Same.of (v2 0); have b1 := Same.of (v2 1); have b2 := Same.of (v2 2)
    unfold Fp.dvdv
    same hr
  refine ⟨e1, ?_⟩
  have k1 : Same 28 (σ 1.4959787066e8) (S 1.4959787066e8) := Same.lit hr (by norm_num [abs_of_pos]) (by norm_num)
  have k2 : Same 9 (σ 499.0047837) (S 499.0047837) := Same.lit hr (by norm_num [abs_of_pos]) (by norm_num)
  unfold Fp.ecor
  dsimp only
  rw [e1, v1, (k1.neg.mul (dot e3)).rnd hr (by norm_num) |>.1, (k2.mul (dot e2)).rnd hr (by norm_num) |>.1]

/-! ### The Moon -/

private theorem args_same (hr : Room S Ω σ 127) (hD : Room D largest64 δ 1023) {y y' t t' : ℝ} (hy : Same 5 y y') (ht : Same 14 t t') :
    Fp.moonArgs σ δ y t = Fp.moonArgs S D y' t' ∧ |(Fp.moonArgs S D y' t').elp| ≤ 2 ^ 12 ∧ |(Fp.moonArgs S D y' t').em| ≤ 2 ^ 12 ∧
      |(Fp.moonArgs S D y' t').emp| ≤ 2 ^ 12 ∧ |(Fp.moonArgs S D y' t').d| ≤ 2 ^ 12 ∧ |(Fp.moonArgs S D y' t').f| ≤ 2 ^ 12 := by
  have e : S 360 = 360 := by simpa using rnd_nat S (k := 360) (by norm_num)
  have n : Same 9 (σ 360) (S 360) := Same.lit hr (by norm_num) (by norm_num)
  have g : Same 0 (σ 1.745329252e-2) (S 1.745329252e-2) := Same.lit hr (by norm_num [abs_of_pos]) (by norm_num)
  have ff : Same 8 (σ (δ 152.020251)) (S (D 152.020251)) :=
    ((Same.of (n := 8) (by norm_num [abs_of_pos])).rnd hD (by norm_num)).rnd hr (by norm_num)
  have red : ∀ {a b : ℝ}, Same 100 a b → Same 12 (σ (σ 1.745329252e-2 * cfmod a (σ 360))) (S (S 1.745329252e-2 * cfmod b (S 360))) := by
    intro a b h
    rw [n.1, e]
    exact ((g.mul (fmod_le h (n := 9) (by norm_num) (by norm_num))).rnd hr (by norm_num)).weaken (by norm_num)
  have b1 : Same 12 (Fp.moonArgs σ δ y t).elp (Fp.moonArgs S D y' t').elp := red (by same hr)
  have b2 : Same 12 (Fp.moonArgs σ δ y t).em (Fp.moonArgs S D y' t').em := red (by same hr)
  have b3 : Same 12 (Fp.moonArgs σ δ y t).emp (Fp.moonArgs S D y' t').emp := red (by same hr)
  have b4 : Same 12 (Fp.moonArgs σ δ y t).d (Fp.moonArgs S D y' t').d := red (by same hr)
  have b5 : Same 12 (Fp.moonArgs σ δ y t).f (Fp.moonArgs S D y' t').f := red (by same hr)
  refine ⟨?_, b1.2, b2.2, b3.2, b4.2, b5.2⟩
  have ext : ∀ x z : MoonArgs, x.elp = z.elp → x.em = z.em → x.emp = z.emp → x.d = z.d → x.f = z.f → x.om = z.om → x = z := by
    rintro ⟨⟩ ⟨⟩
    simp_all
  exact ext _ _ b1.1 b2.1 b3.1 b4.1 b5.1 rfl

private def mild (k : MoonTerm) : Bool := |k.m| ≤ 2 ^ 7 ∧ |k.mp| ≤ 2 ^ 7 ∧ |k.d| ≤ 2 ^ 7 ∧ |k.f| ≤ 2 ^ 7 ∧ |k.coeff| ≤ 2 ^ 23

private theorem four_same (hr : Room S Ω σ 127) {k : MoonTerm} (hk : mild k = true) {a b c d a' b' c' d' : ℝ} (ha : Same 13 a a') (hb : Same 13 b b')
    (hc : Same 13 c c') (hd : Same 13 d d') : Same 24 (σ (σ (σ (σ (k.m * a) + σ (k.mp * b)) + σ (k.d * c)) + σ (k.f * d)))
      (S (S (S (S (k.m * a') + S (k.mp * b')) + S (k.d * c')) + S (k.f * d'))) := by
  unfold mild at hk
  obtain ⟨h1, h2, h3, h4, -⟩ := of_decide_eq_true hk
  have k1 := Same.of (cast_le h1); have k2 := Same.of (cast_le h2); have k3 := Same.of (cast_le h3); have k4 := Same.of (cast_le h4)
  same hr

private theorem mild_c {k : MoonTerm} (hk : mild k = true) : |k.c| ≤ 2 ^ 4 := by
  unfold mild at hk
  obtain ⟨-, -, -, -, h⟩ := of_decide_eq_true hk
  have := cast_le h
  unfold MoonTerm.c
  rw [abs_div, abs_of_pos (by norm_num : (0 : ℝ) < 1000000), div_le_iff₀ (by norm_num)]
  norm_num at this ⊢
  linarith

/-- A series of pairs: each term adds one to the exponent. -/
private theorem fold_same {f g : ℝ × ℝ → MoonTerm → ℝ × ℝ} (L : List MoonTerm) (h : ∀ k ∈ L, ∀ s : ℝ × ℝ, ∀ n : ℕ, 31 ≤ n → n + 1 ≤ 127 →
      |s.1| ≤ 2 ^ n → |s.2| ≤ 2 ^ n → f s k = g s k ∧ |(g s k).1| ≤ 2 ^ (n + 1) ∧ |(g s k).2| ≤ 2 ^ (n + 1))
    {s : ℝ × ℝ} {n : ℕ} (hn : 31 ≤ n) (hl : n + L.length ≤ 81) (h1 : |s.1| ≤ 2 ^ n) (h2 : |s.2| ≤ 2 ^ n) :
    L.foldl f s = L.foldl g s ∧ |(L.foldl g s).1| ≤ 2 ^ 81 ∧ |(L.foldl g s).2| ≤ 2 ^ 81 := by
  induction L generalizing s n with
  | nil =>
    simp only [List.length_nil] at hl
    exact ⟨rfl, ((Same.of h1).weaken (by omega)).2, ((Same.of h2).weaken (by omega)).2⟩
  | cons k L ih =>
    simp only [List.length_cons] at hl
    obtain ⟨e, b1, b2⟩ := h k (by simp) s n hn (by omega) h1 h2
    rw [List.foldl_cons, List.foldl_cons, e]
    exact ih (fun k hk => h k (List.mem_cons_of_mem _ hk)) (n := n + 1) (by omega) (by omega) b1 b2

private theorem terms_same (hr : Room S Ω σ 127) (hs : ∀ a, |sn a| ≤ 2) (hc : ∀ a, |cs a| ≤ 2) {a : MoonArgs} (h2 : |a.em| ≤ 2 ^ 12)
    (h3 : |a.emp| ≤ 2 ^ 12) (h4 : |a.d| ≤ 2 ^ 12) (h5 : |a.f| ≤ 2 ^ 12) {k : MoonTerm} (hk : mild k = true) {s : ℝ × ℝ} {n : ℕ} (hn : 31 ≤ n)
    (hn' : n + 1 ≤ 127) (b1 : |s.1| ≤ 2 ^ n) (b2 : |s.2| ≤ 2 ^ n) :
    (Fp.moonSinTerm σ sn cs a s k = Fp.moonSinTerm S sn cs a s k ∧ |(Fp.moonSinTerm S sn cs a s k).1| ≤ 2 ^ (n + 1) ∧
      |(Fp.moonSinTerm S sn cs a s k).2| ≤ 2 ^ (n + 1)) ∧
    (Fp.moonCosTerm σ sn cs a s k = Fp.moonCosTerm S sn cs a s k ∧ |(Fp.moonCosTerm S sn cs a s k).1| ≤ 2 ^ (n + 1) ∧
      |(Fp.moonCosTerm S sn cs a s k).2| ≤ 2 ^ (n + 1)) := by
  have w : ∀ {x : ℝ}, |x| ≤ 2 ^ 12 → Same 13 x x := fun h => (Same.of h).weaken (by norm_num)
  have l : ∀ {x : ℝ}, |x| ≤ 2 ^ 13 → Same 13 (σ x) (S x) := fun h => Same.lit hr h (by norm_num)
  have th : Same 24 (Fp.moonTheta σ k a) (Fp.moonTheta S k a) := four_same hr hk (w h2) (w h3) (w h4) (w h5)
  have td : Same 24 (Fp.moonThetad σ k) (Fp.moonThetad S k) :=
    four_same hr hk (l (by norm_num [abs_of_pos])) (l (by norm_num [abs_of_pos])) (l (by norm_num [abs_of_pos])) (l (by norm_num [abs_of_pos]))
  have C := Same.lit hr (mild_c hk) (by norm_num)
  have s1 : ∀ x, Same 1 (sn x) (sn x) := fun x => Same.of (by simpa using hs x)
  have c1 : ∀ x, Same 1 (cs x) (cs x) := fun x => Same.of (by simpa using hc x)
  have t1 := (((C.mul (s1 (Fp.moonTheta S k a))).rnd hr (by norm_num))).weaken (n := 31) (by norm_num)
  have t2 := (((C.mul (c1 (Fp.moonTheta S k a))).rnd hr (by norm_num))).weaken (n := 31) (by norm_num)
  have t3 := ((((C.mul (s1 (Fp.moonTheta S k a))).rnd hr (by norm_num))).mul td |>.rnd hr (by norm_num)).weaken (n := 31) (by norm_num)
  have t4 := ((((C.mul (c1 (Fp.moonTheta S k a))).rnd hr (by norm_num))).mul td |>.rnd hr (by norm_num)).weaken (n := 31) (by norm_num)
  have B1 := Same.of b1
  have B2 := Same.of b2
  have p1 := (B1.add (t1.weaken hn)).rnd hr (by simp; omega)
  have p2 := (B2.add (t4.weaken hn)).rnd hr (by simp; omega)
  have p3 := (B1.add (t2.weaken hn)).rnd hr (by simp; omega)
  have p4 := (B2.sub (t3.weaken hn)).rnd hr (by simp; omega)
  rw [max_self] at p1 p2 p3 p4
  unfold Fp.moonSinTerm Fp.moonCosTerm
  rw [th.1]
  exact ⟨⟨by rw [p1.1, p2.1], p1.2, p2.2⟩, ⟨by rw [p3.1, p4.1], p3.2, p4.2⟩⟩

private theorem tables : (∀ k ∈ moonL.reverse, mild k = true) ∧ (∀ k ∈ moonB.reverse, mild k = true) ∧ (∀ k ∈ moonP.reverse, mild k = true) ∧
    moonL.reverse.length ≤ 50 ∧ moonB.reverse.length ≤ 50 ∧ moonP.reverse.length ≤ 50 := by
  decide +kernel

/-- A series whose terms stay below multiples of 2^-24 stays below their sum. -/
private theorem small_sum (S : Rounding binary32) {a : MoonArgs} (hc : ∀ x, |cs x| ≤ 2) (L : List MoonTerm) {w : ℤ} (hw : 0 ≤ w)
    (hs : w + (L.map fun k => 36 * |k.coeff|).sum ≤ 2 ^ 24) {s : ℝ × ℝ} (h : |s.1| ≤ w * (2 : ℝ) ^ (-24 : ℤ)) :
    |(L.foldl (Fp.moonCosTerm S sn cs a) s).1| ≤ (w + (L.map fun k => 36 * |k.coeff|).sum : ℤ) * (2 : ℝ) ^ (-24 : ℤ) := by
  induction L generalizing s w with
  | nil => simpa using h
  | cons k L ih =>
    have nn : 0 ≤ (L.map fun k : MoonTerm => 36 * |k.coeff|).sum := List.sum_nonneg (by
      intro x hx
      obtain ⟨k, -, rfl⟩ := List.mem_map.1 hx
      positivity)
    rw [List.map_cons, List.sum_cons] at hs
    rw [List.map_cons, List.sum_cons, List.foldl_cons, ← add_assoc]
    have k0 := abs_nonneg k.coeff
    refine ih (by omega) (by omega) ?_
    have p : (0 : ℝ) < 2 ^ (-24 : ℤ) := by positivity
    have c1 : |S k.c| ≤ (17 * |k.coeff| : ℤ) * (2 : ℝ) ^ (-24 : ℤ) := by
      refine rnd_le S (by norm_num) (by rw [abs_of_nonneg (by omega)]; omega) ?_
      unfold MoonTerm.c
      rw [abs_div, abs_of_pos (by norm_num : (0 : ℝ) < 1000000), div_le_iff₀ (by norm_num)]
      push_cast
      have := abs_nonneg (k.coeff : ℝ)
      norm_num
      linarith
    have c2 : |S (S k.c * cs (Fp.moonTheta S k a))| ≤ (36 * |k.coeff| : ℤ) * (2 : ℝ) ^ (-24 : ℤ) := by
      refine rnd_le S (by norm_num) (by rw [abs_of_nonneg (by omega)]; omega) ?_
      rw [abs_mul]
      refine (mul_le_mul c1 (hc _) (abs_nonneg _) ((abs_nonneg _).trans c1)).trans ?_
      push_cast
      have := abs_nonneg (k.coeff : ℝ)
      nlinarith
    refine rnd_le S (by norm_num) (by rw [abs_of_nonneg (by omega)]; omega) ((abs_add_le _ _).trans ?_)
    push_cast at *
    linarith

/-- The sine of the parallax is at least 2^-8. -/
private theorem parallax (S : Rounding binary32) {a : MoonArgs} (hs : ∀ x, |sn x - Real.sin x| ≤ 0.001) (hc : ∀ x, |cs x| ≤ 2) :
    1 ≤ 2 ^ 8 * |sn (S (S ((moonP.reverse.foldl (Fp.moonCosTerm S sn cs a) (0, 0)).1 + S 0.950724) * S 1.745329252e-2))| := by
  have b := small_sum S (sn := sn) (a := a) hc moonP.reverse (w := 0) le_rfl (by decide +kernel) (s := (0, 0)) (by simp)
  rw [show (0 + (moonP.reverse.map fun k => 36 * |k.coeff|).sum : ℤ) = 2592576 by decide +kernel] at b
  generalize (moonP.reverse.foldl (Fp.moonCosTerm S sn cs a) (0, 0)).1 = v at *
  have rp : ∀ {k e : ℤ}, |k| ≤ 2 ^ 24 → -149 ≤ e → binary32.Rep ((k : ℝ) * (2 : ℝ) ^ e) := fun {k e} h he =>
    rep_of_mul (by simpa [binary32] using he) (by simpa [binary32] using h)
  have q1 : (3 : ℤ) * (2 : ℝ) ^ (-2 : ℤ) ≤ S 0.950724 := S.rep_le (by norm_num) (rp (by norm_num) (by norm_num))
  have q2 : S 0.950724 ≤ (1 : ℤ) * (2 : ℝ) ^ (0 : ℤ) := S.le_rep (by norm_num) (rp (by norm_num) (by norm_num))
  rw [abs_le] at b
  have q3 : (1 : ℤ) * (2 : ℝ) ^ (-1 : ℤ) ≤ S (v + S 0.950724) := S.rep_le (by norm_num at *; linarith) (rp (by norm_num) (by norm_num))
  have q4 : S (v + S 0.950724) ≤ (1 : ℤ) * (2 : ℝ) ^ (1 : ℤ) := S.le_rep (by norm_num at *; linarith) (rp (by norm_num) (by norm_num))
  have q5 : (1 : ℤ) * (2 : ℝ) ^ (-6 : ℤ) ≤ S 1.745329252e-2 := S.rep_le (by norm_num) (rp (by norm_num) (by norm_num))
  have q6 : S 1.745329252e-2 ≤ (1 : ℤ) * (2 : ℝ) ^ (-5 : ℤ) := S.le_rep (by norm_num) (rp (by norm_num) (by norm_num))
  generalize S (v + S 0.950724) = x at *
  generalize S 1.745329252e-2 = g at *
  have q7 : (1 : ℤ) * (2 : ℝ) ^ (-7 : ℤ) ≤ S (x * g) := S.rep_le (by norm_num at *; nlinarith) (rp (by norm_num) (by norm_num))
  have q8 : S (x * g) ≤ (1 : ℤ) * (2 : ℝ) ^ (-4 : ℤ) := S.le_rep (by norm_num at *; nlinarith) (rp (by norm_num) (by norm_num))
  generalize S (x * g) = p at *
  have p0 : 0 < p := lt_of_lt_of_le (by norm_num) q7
  have t := Real.sin_gt_sub_cube p0
  have h := (abs_le.1 (hs p)).1
  refine le_trans ?_ (mul_le_mul_of_nonneg_left (le_abs_self _) (by norm_num))
  norm_num at q7 q8 h ⊢
  have c : p ^ 3 ≤ p * (1 / 16) ^ 2 := by
    rw [pow_succ' p 2]
    exact mul_le_mul_of_nonneg_left (pow_le_pow_left₀ p0.le q8 2) p0.le
  norm_num at c
  linarith

private theorem ds2c6_same (hr : Room S Ω σ 127) (hs : ∀ a, |sn a| ≤ 2) (hc : ∀ a, |cs a| ≤ 2) {v : SphericalPV} (h3 : |v.dist| ≤ 2 ^ 9)
    (h4 : |v.dlong| ≤ 2 ^ 83) (h5 : |v.dlat| ≤ 2 ^ 83) (h6 : |v.ddist| ≤ 2 ^ 100) :
    Fp.ds2c6 σ sn cs v = Fp.ds2c6 S sn cs v ∧ (∀ i, |(Fp.ds2c6 S sn cs v).pos i| ≤ 2 ^ 110) ∧ ∀ i, |(Fp.ds2c6 S sn cs v).vel i| ≤ 2 ^ 110 := by
  have H3 := Same.of h3; have H4 := Same.of h4; have H5 := Same.of h5; have H6 := Same.of h6
  have s1 : Same 1 (sn v.lat) (sn v.lat) := Same.of (by simpa using hs _)
  have s2 : Same 1 (sn v.long) (sn v.long) := Same.of (by simpa using hs _)
  have c1 : Same 1 (cs v.lat) (cs v.lat) := Same.of (by simpa using hc _)
  have c2 : Same 1 (cs v.long) (cs v.long) := Same.of (by simpa using hc _)
  have key : (∀ i, Same 110 ((Fp.ds2c6 σ sn cs v).pos i) ((Fp.ds2c6 S sn cs v).pos i)) ∧
      ∀ i, Same 110 ((Fp.ds2c6 σ sn cs v).vel i) ((Fp.ds2c6 S sn cs v).vel i) := by
    unfold Fp.ds2c6
    dsimp only
    constructor
    · intro i
      fin_cases i <;> dsimp <;> same hr
    · intro i
      fin_cases i <;> dsimp <;> same hr
  refine ⟨?_, fun i => (key.1 i).2, fun i => (key.2 i).2⟩
  have ext : ∀ x z : VectorPV, (∀ i, x.pos i = z.pos i) → (∀ i, x.vel i = z.vel i) → x = z := by
    rintro ⟨p, q⟩ ⟨p', q'⟩ h h'
    have e1 : p = p' := funext h
    have e2 : q = q' := funext h'
    rw [e1, e2]
  exact ext _ _ (fun i => (key.1 i).1) fun i => (key.2 i).1

/-- C94: in single precision no operation of `moon` overflows, for years and day numbers up to ten thousand and fractions up to a thousand
    days, with a library sine within 0.001 of the sine and cosines at most 2: the parallax stays away from zero. -/
theorem C94_moon (S : Rounding binary32) (D : Rounding binary64) (σ δ : ℝ → ℝ) (hS : Overflowing S largest32 σ)
    (hD : Overflowing D largest64 δ) (sn cs : ℝ → ℝ) (hs : ∀ a, |sn a - Real.sin a| ≤ 0.001) (hc : ∀ a, |cs a| ≤ 2) (year day : ℤ) (f : ℝ)
    (hy : |year| ≤ 10000) (hd : |day| ≤ 10000) (hf : |f| ≤ 1000) :
    Fp.moon σ δ sn cs year day f = Fp.moon S D sn cs year day f := by
  have hr := room32 hS
  have hs2 : ∀ a, |sn a| ≤ 2 := fun a => by
    have := Real.abs_sin_le_one a
    have := hs a
    rw [abs_le] at *; norm_num at *; constructor <;> linarith
  obtain ⟨h1, h2⟩ := year_same hr hy hd hf
  obtain ⟨a1, a2, a3, a4, a5, a6⟩ := args_same hr (room64 hD) h1 h2
  have sph : Fp.moonSpherical σ sn cs (Fp.moonArgs S D (Fp.yearFraction S year day f) (Fp.yearsSince1900 S year day f)) =
      Fp.moonSpherical S sn cs (Fp.moonArgs S D (Fp.yearFraction S year day f) (Fp.yearsSince1900 S year day f)) ∧
      |(Fp.moonSpherical S sn cs (Fp.moonArgs S D (Fp.yearFraction S year day f) (Fp.yearsSince1900 S year day f))).dist| ≤ 2 ^ 9 ∧
      |(Fp.moonSpherical S sn cs (Fp.moonArgs S D (Fp.yearFraction S year day f) (Fp.yearsSince1900 S year day f))).dlong| ≤ 2 ^ 83 ∧
      |(Fp.moonSpherical S sn cs (Fp.moonArgs S D (Fp.yearFraction S year day f) (Fp.yearsSince1900 S year day f))).dlat| ≤ 2 ^ 83 ∧
      |(Fp.moonSpherical S sn cs (Fp.moonArgs S D (Fp.yearFraction S year day f) (Fp.yearsSince1900 S year day f))).ddist| ≤ 2 ^ 100 := by
    generalize Fp.moonArgs S D (Fp.yearFraction S year day f) (Fp.yearsSince1900 S year day f) = a at *
    obtain ⟨m1, m2, m3, n1, n2, n3⟩ := tables
    have z : |((0 : ℝ), (0 : ℝ)).1| ≤ 2 ^ 31 ∧ |((0 : ℝ), (0 : ℝ)).2| ≤ 2 ^ 31 := by norm_num
    obtain ⟨l1, l2, l3⟩ := fold_same (f := Fp.moonSinTerm σ sn cs a) (g := Fp.moonSinTerm S sn cs a) moonL.reverse
      (fun k hk s n i1 i2 i3 i4 => (terms_same hr hs2 hc a3 a4 a5 a6 (m1 k hk) i1 i2 i3 i4).1) (n := 31) le_rfl (by omega) z.1 z.2
    obtain ⟨b1, b2, b3⟩ := fold_same (f := Fp.moonSinTerm σ sn cs a) (g := Fp.moonSinTerm S sn cs a) moonB.reverse
      (fun k hk s n i1 i2 i3 i4 => (terms_same hr hs2 hc a3 a4 a5 a6 (m2 k hk) i1 i2 i3 i4).1) (n := 31) le_rfl (by omega) z.1 z.2
    obtain ⟨p1, p2, p3⟩ := fold_same (f := Fp.moonCosTerm σ sn cs a) (g := Fp.moonCosTerm S sn cs a) moonP.reverse
      (fun k hk s n i1 i2 i3 i4 => (terms_same hr hs2 hc a3 a4 a5 a6 (m3 k hk) i1 i2 i3 i4).2) (n := 31) le_rfl (by omega) z.1 z.2
    have low := parallax S (a := a) hs hc
    unfold Fp.moonSpherical
    dsimp only
    rw [l1, b1, p1]
    generalize moonL.reverse.foldl (Fp.moonSinTerm S sn cs a) (0, 0) = vl at *
    generalize moonB.reverse.foldl (Fp.moonSinTerm S sn cs a) (0, 0) = vb at *
    generalize moonP.reverse.foldl (Fp.moonCosTerm S sn cs a) (0, 0) = vp at *
    have L2 := Same.of l2; have L3 := Same.of l3; have B2 := Same.of b2; have B3 := Same.of b3; have P2 := Same.of p2; have P3 := Same.of p3
    have A := Same.of a2
    have g : Same 0 (σ 1.745329252e-2) (S 1.745329252e-2) := Same.lit hr (by norm_num [abs_of_pos]) (by norm_num)
    have glow : 1 ≤ 2 ^ 6 * |S 1.745329252e-2| := by
      have : (1 : ℤ) * (2 : ℝ) ^ (-6 : ℤ) ≤ S 1.745329252e-2 := S.rep_le (by norm_num)
        (rep_of_mul (by simp [binary32]) (by norm_num [binary32]))
      have := le_abs_self (S 1.745329252e-2)
      norm_num at *; linarith
    have rt : Same 0 (σ 9.652743551e-12) (S 9.652743551e-12) := Same.lit hr (by norm_num [abs_of_pos]) (by norm_num)
    have k : Same 0 (σ 4.2635212653763e-5) (S 4.2635212653763e-5) := Same.lit hr (by norm_num [abs_of_pos]) (by norm_num)
    have w : Same 13 (σ 4812.678831) (S 4812.678831) := Same.lit hr (by norm_num [abs_of_pos]) (by norm_num)
    have el : Same 90 (σ (σ (vl.1 * σ 1.745329252e-2) + a.elp)) (S (S (vl.1 * S 1.745329252e-2) + a.elp)) := by same hr
    have q := (quot_same w g.1 glow).rnd hr (by norm_num)
    have eld : Same 83 (σ (σ 9.652743551e-12 * σ (vl.2 + σ (σ 4812.678831 / σ 1.745329252e-2))))
        (S (S 9.652743551e-12 * S (vl.2 + S (S 4812.678831 / S 1.745329252e-2)))) := by same hr
    have b : Same 83 (σ (vb.1 * σ 1.745329252e-2)) (S (vb.1 * S 1.745329252e-2)) := by same hr
    have bd : Same 83 (σ (vb.2 * σ 9.652743551e-12)) (S (vb.2 * S 9.652743551e-12)) := by same hr
    have p : Same 90 (σ (σ (vp.1 + σ 0.950724) * σ 1.745329252e-2)) (S (S (vp.1 + S 0.950724) * S 1.745329252e-2)) := by same hr
    have pd : Same 83 (σ (vp.2 * σ 9.652743551e-12)) (S (vp.2 * S 9.652743551e-12)) := by same hr
    have r := (quot_same k (rfl : sn (S (S (vp.1 + S 0.950724) * S 1.745329252e-2)) = _) low).rnd hr (by norm_num)
    have rd := (quot_same ((r.neg.mul pd).rnd hr (by norm_num)) (rfl : sn (S (S (vp.1 + S 0.950724) * S 1.745329252e-2)) = _) low).rnd hr
      (by norm_num)
    rw [p.1, el.1, eld.1, b.1, bd.1, rd.1, r.1]
    exact ⟨rfl, (r.weaken (by norm_num)).2, eld.2, bd.2, (rd.weaken (by norm_num)).2⟩
  obtain ⟨c1, c2, c3⟩ := ds2c6_same hr hs2 hc sph.2.1 sph.2.2.1 sph.2.2.2.1 sph.2.2.2.2
  have eq : ∀ {v : Vec}, (∀ i, |v i| ≤ 2 ^ 110) →
      Fp.moonEquator σ sn cs (Fp.yearsSince1900 σ year day f) v = Fp.moonEquator S sn cs (Fp.yearsSince1900 S year day f) v := by
    intro v hv
    generalize Fp.yearsSince1900 σ year day f = t at *
    generalize Fp.yearsSince1900 S year day f = t' at *
    have e : Same 90 (σ (σ 1.745329252e-2 * σ (σ 23.45229 - σ (σ 0.00013 * t)))) (S (S 1.745329252e-2 * S (S 23.45229 - S (S 0.00013 * t')))) := by
      same hr
    unfold Fp.moonEquator
    dsimp only
    rw [e.1]
    generalize S (S 1.745329252e-2 * S (S 23.45229 - S (S 0.00013 * t'))) = o at *
    have v1 := Same.of (hv 1); have v2 := Same.of (hv 2)
    have s1 : Same 1 (sn o) (sn o) := Same.of (by simpa using hs2 _)
    have k1 : Same 1 (cs o) (cs o) := Same.of (by simpa using hc _)
    have x1 : Same 120 (σ (σ (v 1 * cs o) - σ (v 2 * sn o))) (S (S (v 1 * cs o) - S (v 2 * sn o))) := by same hr
    have x2 : Same 120 (σ (σ (v 1 * sn o) + σ (v 2 * cs o))) (S (S (v 1 * sn o) + S (v 2 * cs o))) := by same hr
    rw [x1.1, x2.1]
  unfold Fp.moon
  dsimp only
  rw [a1, sph.1, c1, eq c2, eq c3]

/-! ### The hypotheses can be met -/

example (S : Rounding binary32) (D : Rounding binary64) : ∃ σ δ, Overflowing S largest32 σ ∧ Overflowing D largest64 δ ∧
    σ (2 * largest32) ≠ S (2 * largest32) ∧ Fp.moon σ δ Real.sin Real.cos 1988 199 0.5 = Fp.moon S D Real.sin Real.cos 1988 199 0.5 ∧
    Fp.earth σ δ Real.sin Real.cos 9999 366 0.5 = Fp.earth S D Real.sin Real.cos 9999 366 0.5 := by
  have hp : 0 < largest32 := by unfold largest32; norm_num
  have h1 : Overflowing S largest32 (fun x => if |x| ≤ largest32 then S x else S x + 1) := fun x hx => if_pos hx
  have h2 : Overflowing D largest64 D := fun x _ => rfl
  have s : ∀ a, |Real.sin a| ≤ 2 := fun a => (Real.abs_sin_le_one a).trans (by norm_num)
  have c : ∀ a, |Real.cos a| ≤ 2 := fun a => (Real.abs_cos_le_one a).trans (by norm_num)
  refine ⟨_, D, h1, h2, ?_, C94_moon S D _ D h1 h2 _ _ (fun a => by rw [sub_self, abs_zero]; norm_num) c _ _ _ (by norm_num) (by norm_num)
    (by norm_num [abs_of_pos]), (C94_earth S D _ D h1 h2 _ _ s c _ _ _ (by norm_num) (by norm_num) (by norm_num [abs_of_pos]) ⟨0, 0⟩).1⟩
  rw [if_neg (by rw [not_le, abs_of_pos (by linarith)]; linarith)]
  linarith

end Sla.Props
