import Verif.Model.Moon

/-
The vectors of `dmoon` do not depend on whole turns in its arguments.
-/
noncomputable section
namespace Sla.Props

open Real

def MTurn (x y : ℝ) : Prop := ∃ n : ℤ, x = y + n * (2 * π)

theorem MTurn.sin {x y : ℝ} (h : MTurn x y) : Real.sin x = Real.sin y := by
  obtain ⟨n, rfl⟩ := h; exact Real.sin_add_int_mul_two_pi y n

theorem MTurn.cos {x y : ℝ} (h : MTurn x y) : Real.cos x = Real.cos y := by
  obtain ⟨n, rfl⟩ := h; exact Real.cos_add_int_mul_two_pi y n

theorem MTurn.add_right {x y : ℝ} (h : MTurn x y) (z : ℝ) : MTurn (x + z) (y + z) := by
  obtain ⟨n, rfl⟩ := h; exact ⟨n, by ring⟩

theorem MTurn.add {x y x' y' : ℝ} (h : MTurn x y) (h' : MTurn x' y') : MTurn (x + x') (y + y') := by
  obtain ⟨n, rfl⟩ := h
  obtain ⟨m, rfl⟩ := h'
  exact ⟨n + m, by push_cast; ring⟩

theorem MTurn.int_mul {x y : ℝ} (h : MTurn x y) (k : ℤ) : MTurn (k * x) (k * y) := by
  obtain ⟨n, rfl⟩ := h; exact ⟨k * n, by push_cast; ring⟩

theorem mturn_cfmod (x : ℝ) : MTurn (d2r * cfmod x 360) (d2r * id x) := by
  refine ⟨-ctrunc (x / 360), ?_⟩
  simp only [cfmod, d2r, id_eq]; push_cast; ring

structure MTurns (a b : MoonArgs) : Prop where
  elp : MTurn a.elp b.elp
  em : MTurn a.em b.em
  emp : MTurn a.emp b.emp
  d : MTurn a.d b.d
  f : MTurn a.f b.f
  om : MTurn a.om b.om

theorem mturns_args (t : ℝ) : MTurns (dmoonArgs (fun x => cfmod x 360) t) (dmoonArgs id t) :=
  ⟨mturn_cfmod _, mturn_cfmod _, mturn_cfmod _, mturn_cfmod _, mturn_cfmod _, mturn_cfmod _⟩

theorem MTurns.wom {a b : MoonArgs} (h : MTurns a b) (t : ℝ) : MTurn (dmoonWom t a) (dmoonWom t b) :=
  h.om.add_right _

theorem MTurns.periodic {a b : MoonArgs} (h : MTurns a b) (t : ℝ) :
    MTurns (dmoonPeriodic t a) (dmoonPeriodic t b) := by
  have s1 := h.om.sin
  have s2 := (h.wom t).sin
  refine ⟨?_, ?_, ?_, ?_, ?_, h.om⟩ <;> simp only [dmoonPeriodic, s1, s2]
  · exact h.elp.add_right _
  · exact h.em.add_right _
  · exact h.emp.add_right _
  · exact h.d.add_right _
  · exact h.f.add_right _

theorem MTurns.rates {a b : MoonArgs} (h : MTurns a b) (t : ℝ) (r : MoonArgs) :
    dmoonPeriodicRates t a r = dmoonPeriodicRates t b r := by
  simp only [dmoonPeriodicRates, h.om.cos, (h.wom t).cos]

theorem MTurns.theta {a b : MoonArgs} (h : MTurns a b) (k : MoonTerm) : MTurn (k.theta a) (k.theta b) :=
  (((h.em.int_mul k.m).add (h.emp.int_mul k.mp)).add (h.d.int_mul k.d)).add (h.f.int_mul k.f)

theorem MTurns.sinTerm {a b : MoonArgs} (h : MTurns a b) (t : ℝ) (r : MoonArgs) :
    dmoonSinTerm t a r = dmoonSinTerm t b r := by
  funext s k
  simp only [dmoonSinTerm, (h.theta k).sin, (h.theta k).cos]

theorem MTurns.cosTerm {a b : MoonArgs} (h : MTurns a b) (t : ℝ) (r : MoonArgs) :
    dmoonCosTerm t a r = dmoonCosTerm t b r := by
  funext s k
  simp only [dmoonCosTerm, (h.theta k).sin, (h.theta k).cos]

theorem dmoonRect_congr {s s' : SphericalPV} (h : MTurn s.long s'.long) (h1 : s.lat = s'.lat) (h2 : s.dist = s'.dist)
    (h3 : s.dlong = s'.dlong) (h4 : s.dlat = s'.dlat) (h5 : s.ddist = s'.ddist) : dmoonRect s = dmoonRect s' := by
  simp only [dmoonRect, h.sin, h.cos, h1, h2, h3, h4, h5]

theorem MTurns.rect {a b : MoonArgs} (h : MTurns a b) (t : ℝ) (r : MoonArgs) :
    dmoonRect (dmoonSpherical t a r) = dmoonRect (dmoonSpherical t b r) := by
  have hp := h.periodic t
  have e1 := hp.sinTerm t (dmoonPeriodicRates t b r)
  have e2 := hp.cosTerm t (dmoonPeriodicRates t b r)
  have e3 := h.rates t r
  refine dmoonRect_congr ?_ ?_ ?_ ?_ ?_ ?_ <;> simp only [dmoonSpherical, e1, e2, e3, h.om.cos, h.om.sin, (h.wom t).cos, (h.wom t).sin]
  exact hp.elp.add_right _

end Sla.Props
