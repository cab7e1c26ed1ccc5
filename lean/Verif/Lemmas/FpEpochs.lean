import Verif.Model.FpEpochs
import Verif.Lemmas.FpNear
import Verif.Lemmas.FpAngle

/-
Running error bounds for the time scales and epochs, generated.
-/
namespace Sla.Fp

variable {D : ℝ → ℝ}

private theorem nb_ite {c : Prop} [Decidable c] {a b x y e B : ℝ} (h1 : c → Nb a x e B) (h2 : ¬ c → Nb b y e B) :
    Nb (if c then a else b) (if c then x else y) e B := by
  by_cases h : c
  · rw [if_pos h, if_pos h]; exact h1 h
  · rw [if_neg h, if_neg h]; exact h2 h

private theorem eq_ite {c : Prop} [Decidable c] {a b y : ℝ} (h2 : ¬ c → b = y) : (if c then a else b) = if c then a else y := by
  by_cases h : c
  · rw [if_pos h, if_pos h]
  · rw [if_neg h, if_neg h]; exact h2 h

private theorem drift_near (hD : Dbl D) {utc a b c : ℝ} (ha : |a| ≤ 4.4) (hc : |c| ≤ 0.0026) (hb : |utc - b| ≤ 41200) :
    Nb (D (D a + D (D (utc - b) * D c))) (a + (utc - b) * c) 5.27e-14 111.6 := by
  have hu : Nb (utc - b) (utc - b) 0 41200 := Nb.self hb
  have n1 : Nb _ _ 4.95e-12 41200 := hD.nround hu (by norm_num) (by norm_num)
  have n2 : Nb _ _ 3.13e-19 0.0026 := hD.nlit hc (by norm_num)
  have n3 : Nb _ _ 3.87e-14 107.2 := hD.nmul n1 n2 (by norm_num) (by norm_num)
  have n4 : Nb _ _ 5.29e-16 4.4 := hD.nlit ha (by norm_num)
  have o : Nb _ _ 5.27e-14 111.6 := hD.nadd n4 n3 (by norm_num) (by norm_num)
  exact o

/-- TAI − UTC. -/
theorem dat_near (hD : Dbl D) {utc : ℝ} (h0 : 0 ≤ utc) : Nb (dat D utc) (Sla.dat utc) 5.27e-14 111.6 := by
  have hi : ∀ n : ℝ, |n| ≤ 37 → Nb n n 5.27e-14 111.6 := fun n hn => (Nb.self hn).mono (by norm_num) (by norm_num)
  unfold dat Sla.dat
  refine nb_ite (fun _ => hi _ (by norm_num)) (fun _ => ?_)
  refine nb_ite (fun _ => hi _ (by norm_num)) (fun _ => ?_)
  refine nb_ite (fun _ => hi _ (by norm_num)) (fun _ => ?_)
  refine nb_ite (fun _ => hi _ (by norm_num)) (fun _ => ?_)
  refine nb_ite (fun _ => hi _ (by norm_num)) (fun _ => ?_)
  refine nb_ite (fun _ => hi _ (by norm_num)) (fun _ => ?_)
  refine nb_ite (fun _ => hi _ (by norm_num)) (fun _ => ?_)
  refine nb_ite (fun _ => hi _ (by norm_num)) (fun _ => ?_)
  refine nb_ite (fun _ => hi _ (by norm_num)) (fun _ => ?_)
  refine nb_ite (fun _ => hi _ (by norm_num)) (fun _ => ?_)
  refine nb_ite (fun _ => hi _ (by norm_num)) (fun _ => ?_)
  refine nb_ite (fun _ => hi _ (by norm_num)) (fun _ => ?_)
  refine nb_ite (fun _ => hi _ (by norm_num)) (fun _ => ?_)
  refine nb_ite (fun _ => hi _ (by norm_num)) (fun _ => ?_)
  refine nb_ite (fun _ => hi _ (by norm_num)) (fun _ => ?_)
  refine nb_ite (fun _ => hi _ (by norm_num)) (fun _ => ?_)
  refine nb_ite (fun _ => hi _ (by norm_num)) (fun _ => ?_)
  refine nb_ite (fun _ => hi _ (by norm_num)) (fun _ => ?_)
  refine nb_ite (fun _ => hi _ (by norm_num)) (fun _ => ?_)
  refine nb_ite (fun _ => hi _ (by norm_num)) (fun _ => ?_)
  refine nb_ite (fun _ => hi _ (by norm_num)) (fun _ => ?_)
  refine nb_ite (fun _ => hi _ (by norm_num)) (fun _ => ?_)
  refine nb_ite (fun _ => hi _ (by norm_num)) (fun _ => ?_)
  refine nb_ite (fun _ => hi _ (by norm_num)) (fun _ => ?_)
  refine nb_ite (fun _ => hi _ (by norm_num)) (fun _ => ?_)
  refine nb_ite (fun _ => hi _ (by norm_num)) (fun _ => ?_)
  refine nb_ite (fun _ => hi _ (by norm_num)) (fun _ => ?_)
  refine nb_ite (fun _ => hi _ (by norm_num)) (fun k => ?_)
  refine nb_ite (fun _ => drift_near hD (by norm_num) (by norm_num) (by rw [abs_le]; constructor <;> linarith)) (fun _ => ?_)
  refine nb_ite (fun _ => drift_near hD (by norm_num) (by norm_num) (by rw [abs_le]; constructor <;> linarith)) (fun _ => ?_)
  refine nb_ite (fun _ => drift_near hD (by norm_num) (by norm_num) (by rw [abs_le]; constructor <;> linarith)) (fun _ => ?_)
  refine nb_ite (fun _ => drift_near hD (by norm_num) (by norm_num) (by rw [abs_le]; constructor <;> linarith)) (fun _ => ?_)
  refine nb_ite (fun _ => drift_near hD (by norm_num) (by norm_num) (by rw [abs_le]; constructor <;> linarith)) (fun _ => ?_)
  refine nb_ite (fun _ => drift_near hD (by norm_num) (by norm_num) (by rw [abs_le]; constructor <;> linarith)) (fun _ => ?_)
  refine nb_ite (fun _ => drift_near hD (by norm_num) (by norm_num) (by rw [abs_le]; constructor <;> linarith)) (fun _ => ?_)
  refine nb_ite (fun _ => drift_near hD (by norm_num) (by norm_num) (by rw [abs_le]; constructor <;> linarith)) (fun _ => ?_)
  refine nb_ite (fun _ => drift_near hD (by norm_num) (by norm_num) (by rw [abs_le]; constructor <;> linarith)) (fun _ => ?_)
  refine nb_ite (fun _ => drift_near hD (by norm_num) (by norm_num) (by rw [abs_le]; constructor <;> linarith)) (fun _ => ?_)
  refine nb_ite (fun _ => drift_near hD (by norm_num) (by norm_num) (by rw [abs_le]; constructor <;> linarith)) (fun _ => ?_)
  refine nb_ite (fun _ => drift_near hD (by norm_num) (by norm_num) (by rw [abs_le]; constructor <;> linarith)) (fun _ => ?_)
  refine nb_ite (fun _ => drift_near hD (by norm_num) (by norm_num) (by rw [abs_le]; constructor <;> linarith)) (fun _ => ?_)
  exact drift_near hD (by norm_num) (by norm_num) (by rw [abs_le]; constructor <;> linarith)

theorem dtt_near (hD : Dbl D) {utc : ℝ} (h0 : 0 ≤ utc) : |dtt D utc - Sla.dtt utc| ≤ 7.39e-14 := by
  have hdat := dat_near hD h0
  unfold dtt Sla.dtt
  have n1 : Nb _ _ 3.87e-15 32.184 := hD.nlit (x := 32.184) (by norm_num) (by norm_num)
  have o : Nb _ _ 7.39e-14 143.8 := hD.nadd n1 hdat (by norm_num) (by norm_num)
  exact o.err

/-- From 1972 on the leap seconds are whole numbers. -/
theorem dat_whole {utc : ℝ} (h : 41317 ≤ utc) : dat D utc = Sla.dat utc := by
  unfold dat Sla.dat
  refine eq_ite (fun _ => ?_)
  refine eq_ite (fun _ => ?_)
  refine eq_ite (fun _ => ?_)
  refine eq_ite (fun _ => ?_)
  refine eq_ite (fun _ => ?_)
  refine eq_ite (fun _ => ?_)
  refine eq_ite (fun _ => ?_)
  refine eq_ite (fun _ => ?_)
  refine eq_ite (fun _ => ?_)
  refine eq_ite (fun _ => ?_)
  refine eq_ite (fun _ => ?_)
  refine eq_ite (fun _ => ?_)
  refine eq_ite (fun _ => ?_)
  refine eq_ite (fun _ => ?_)
  refine eq_ite (fun _ => ?_)
  refine eq_ite (fun _ => ?_)
  refine eq_ite (fun _ => ?_)
  refine eq_ite (fun _ => ?_)
  refine eq_ite (fun _ => ?_)
  refine eq_ite (fun _ => ?_)
  refine eq_ite (fun _ => ?_)
  refine eq_ite (fun _ => ?_)
  refine eq_ite (fun _ => ?_)
  refine eq_ite (fun _ => ?_)
  refine eq_ite (fun _ => ?_)
  refine eq_ite (fun _ => ?_)
  refine eq_ite (fun _ => ?_)
  rw [if_pos h, if_pos h]

private theorem dt_modern (hD : Dbl D) {epoch : ℝ} (h : |epoch - 1800| ≤ 300) :
    |D (D 5.156 + D (D (D 13.3066 * D (D (D (epoch - 1800) / 100) - D 0.19)) * D (D (D (epoch - 1800) / 100) - D 0.19))) - (5.156 + 13.3066 * ((epoch - 1800) / 100 - 0.19) * ((epoch - 1800) / 100 - 0.19))| ≤ 1.63e-13 := by
  have hu : Nb (epoch - 1800) (epoch - 1800) 0 300 := Nb.self h
  have n1 : Nb _ _ 3.61e-14 300 := hD.nround hu (by norm_num) (by norm_num)
  have c : Nb _ _ 7.22e-16 3 := hD.ndivc (n := 100) n1 (by norm_num) (by norm_num) (by norm_num)
  have n2 : Nb _ _ 2.29e-17 0.19 := hD.nlit (x := 0.19) (by norm_num) (by norm_num)
  have n3 : Nb _ _ 1.13e-15 3.19 := hD.nsub c n2 (by norm_num) (by norm_num)
  have n4 : Nb _ _ 6.19e-16 5.156 := hD.nlit (x := 5.156) (by norm_num) (by norm_num)
  have n5 : Nb _ _ 1.6e-15 1.33066e1 := hD.nlit (x := 13.3066) (by norm_num) (by norm_num)
  have n6 : Nb _ _ 2.53e-14 42.45 := hD.nmul n5 n3 (by norm_num) (by norm_num)
  have n7 : Nb _ _ 1.45e-13 135.5 := hD.nmul n6 n3 (by norm_num) (by norm_num)
  have o : Nb _ _ 1.63e-13 140.7 := hD.nadd n4 n7 (by norm_num) (by norm_num)
  exact o.err

private theorem dt_late (hD : Dbl D) {epoch : ℝ} (h : |epoch - 1800| ≤ 1200) :
    |D (D 5.156 + D (D (D 13.3066 * D (D (D (epoch - 1800) / 100) - D 0.19)) * D (D (D (epoch - 1800) / 100) - D 0.19))) - (5.156 + 13.3066 * ((epoch - 1800) / 100 - 0.19) * ((epoch - 1800) / 100 - 0.19))| ≤ 2.38e-12 := by
  have hu : Nb (epoch - 1800) (epoch - 1800) 0 1200 := Nb.self h
  have n1 : Nb _ _ 1.45e-13 1200 := hD.nround hu (by norm_num) (by norm_num)
  have c : Nb _ _ 2.9e-15 12 := hD.ndivc (n := 100) n1 (by norm_num) (by norm_num) (by norm_num)
  have n2 : Nb _ _ 2.29e-17 0.19 := hD.nlit (x := 0.19) (by norm_num) (by norm_num)
  have n3 : Nb _ _ 4.39e-15 12.19 := hD.nsub c n2 (by norm_num) (by norm_num)
  have n4 : Nb _ _ 6.19e-16 5.156 := hD.nlit (x := 5.156) (by norm_num) (by norm_num)
  have n5 : Nb _ _ 1.6e-15 1.33066e1 := hD.nlit (x := 13.3066) (by norm_num) (by norm_num)
  have n6 : Nb _ _ 9.74e-14 162.3 := hD.nmul n5 n3 (by norm_num) (by norm_num)
  have n7 : Nb _ _ 2.14e-12 1979 := hD.nmul n6 n3 (by norm_num) (by norm_num)
  have o : Nb _ _ 2.38e-12 1985 := hD.nadd n4 n7 (by norm_num) (by norm_num)
  exact o.err

private theorem dt_middle (hD : Dbl D) {epoch : ℝ} (h : |epoch - 1800| ≤ 822) :
    |D (D (25.5 * D (D (epoch - 1800) / 100)) * D (D (epoch - 1800) / 100)) - (25.5 * ((epoch - 1800) / 100) * ((epoch - 1800) / 100))| ≤ 1.25e-12 := by
  have hu : Nb (epoch - 1800) (epoch - 1800) 0 822 := Nb.self h
  have n1 : Nb _ _ 9.87e-14 822 := hD.nround hu (by norm_num) (by norm_num)
  have c : Nb _ _ 1.98e-15 8.22 := hD.ndivc (n := 100) n1 (by norm_num) (by norm_num) (by norm_num)
  have n2 : Nb 25.5 25.5 0 25.5 := Nb.self (by norm_num)
  have n3 : Nb _ _ 7.57e-14 209.7 := hD.nmul n2 c (by norm_num) (by norm_num)
  have o : Nb _ _ 1.25e-12 1724 := hD.nmul n3 c (by norm_num) (by norm_num)
  exact o.err

private theorem dt_early (hD : Dbl D) {epoch : ℝ} (h : |epoch - 1800| ≤ 3800) :
    |D (1360 + D (D (320 + D (D 44.3 * D (D (epoch - 1800) / 100))) * D (D (epoch - 1800) / 100))) - (1360 + (320 + 44.3 * ((epoch - 1800) / 100)) * ((epoch - 1800) / 100))| ≤ 7.72e-11 := by
  have hu : Nb (epoch - 1800) (epoch - 1800) 0 3800 := Nb.self h
  have n1 : Nb _ _ 4.57e-13 3800 := hD.nround hu (by norm_num) (by norm_num)
  have c : Nb _ _ 9.14e-15 38 := hD.ndivc (n := 100) n1 (by norm_num) (by norm_num) (by norm_num)
  have n2 : Nb 1360 1360 0 1360 := Nb.self (by norm_num)
  have n3 : Nb 320 320 0 320 := Nb.self (by norm_num)
  have n4 : Nb _ _ 5.32e-15 44.3 := hD.nlit (x := 44.3) (by norm_num) (by norm_num)
  have n5 : Nb _ _ 8.1e-13 1684 := hD.nmul n4 c (by norm_num) (by norm_num)
  have n6 : Nb _ _ 1.06e-12 2004 := hD.nadd n3 n5 (by norm_num) (by norm_num)
  have n7 : Nb _ _ 6.78e-11 76160 := hD.nmul n6 c (by norm_num) (by norm_num)
  have o : Nb _ _ 7.72e-11 77520 := hD.nadd n2 n7 (by norm_num) (by norm_num)
  exact o.err

private theorem seam_late {epoch : ℝ} (h : |epoch - 1708.185161980887| ≤ 2.1e-13) :
    |25.5 * ((epoch - 1800) / 100) * ((epoch - 1800) / 100) - (5.156 + 13.3066 * ((epoch - 1800) / 100 - 0.19) * ((epoch - 1800) / 100 - 0.19))| ≤ 1e-12 := by
  obtain ⟨d, hd⟩ : ∃ d, d = epoch - 1708.185161980887 := ⟨_, rfl⟩
  have he : epoch = 1708.185161980887 + d := by rw [hd]; ring
  rw [← hd] at h
  subst he
  obtain ⟨h1, h2⟩ := abs_le.1 h
  have h3 : 0 ≤ d * d := mul_self_nonneg d
  have h4 : d * d ≤ 1e-24 := by nlinarith
  rw [abs_le]
  constructor <;> norm_num at * <;> nlinarith

private theorem seam_early {epoch : ℝ} (h : |epoch - 979.0258204760233| ≤ 1.2e-13) :
    |1360 + (320 + 44.3 * ((epoch - 1800) / 100)) * ((epoch - 1800) / 100) - 25.5 * ((epoch - 1800) / 100) * ((epoch - 1800) / 100)| ≤ 2e-12 := by
  obtain ⟨d, hd⟩ : ∃ d, d = epoch - 979.0258204760233 := ⟨_, rfl⟩
  have he : epoch = 979.0258204760233 + d := by rw [hd]; ring
  rw [← hd] at h
  subst he
  obtain ⟨h1, h2⟩ := abs_le.1 h
  have h3 : 0 ≤ d * d := mul_self_nonneg d
  have h4 : d * d ≤ 1e-24 := by nlinarith
  rw [abs_le]
  constructor <;> norm_num at * <;> nlinarith

/-- From 390 BC and before to AD 3000. -/
theorem dt_near (hD : Dbl D) {epoch : ℝ} (h0 : -2000 ≤ epoch) (h1 : epoch ≤ 3000) :
    |dt D epoch - Sla.dt epoch| ≤ 8.02e-11 ∧ (1709 ≤ epoch → epoch ≤ 2100 → |dt D epoch - Sla.dt epoch| ≤ 1.63e-13) := by
  have l1 := hD.nlit (x := 1708.185161980887) (B := 1709) (g := 2.1e-13) (by norm_num) (by norm_num)
  have l2 := hD.nlit (x := 979.0258204760233) (B := 980) (g := 1.2e-13) (by norm_num) (by norm_num)
  obtain ⟨a1, a2⟩ := abs_le.1 l1.err
  obtain ⟨b1, b2⟩ := abs_le.1 l2.err
  have w0 := dt_early hD (epoch := epoch) (by rw [abs_le]; constructor <;> linarith)
  have wm : 978 ≤ epoch → epoch ≤ 1709 → _ := fun p q => dt_middle hD (epoch := epoch) (by rw [abs_le]; constructor <;> linarith)
  have wl : 1700 ≤ epoch → _ := fun p => dt_late hD (epoch := epoch) (by rw [abs_le]; constructor <;> linarith)
  unfold dt Sla.dt
  simp only []
  generalize D 1708.185161980887 = T1 at *
  generalize D 979.0258204760233 = T2 at *
  norm_num at a1 a2 b1 b2
  refine ⟨?_, ?_⟩
  · have tri : ∀ a b c : ℝ, |a - c| ≤ |a - b| + |b - c| := fun a b c => abs_sub_le a b c
    by_cases c1 : epoch ≥ T1
    · rw [if_pos c1]
      have q1 := wl (by linarith)
      by_cases c2 : epoch ≥ 1708.185161980887
      · rw [if_pos c2]; exact q1.trans (by norm_num)
      · rw [if_neg c2, if_pos (by norm_num at c1 ⊢; linarith)]
        have q2 := seam_late (epoch := epoch) (by rw [abs_le]; norm_num at c1 c2 ⊢; constructor <;> linarith)
        rw [abs_sub_comm] at q2
        refine (tri _ _ _).trans ((add_le_add q1 q2).trans (by norm_num))
    · rw [if_neg c1]
      by_cases c2 : epoch ≥ 1708.185161980887
      · rw [if_pos c2, if_pos (by norm_num at c2 ⊢; linarith)]
        have q1 := wm (by norm_num at c2; linarith) (by norm_num at c1; linarith)
        have q2 := seam_late (epoch := epoch) (by rw [abs_le]; norm_num at c1 c2 ⊢; constructor <;> linarith)
        refine (tri _ _ _).trans ((add_le_add q1 q2).trans (by norm_num))
      · rw [if_neg c2]
        by_cases c3 : epoch ≥ T2
        · rw [if_pos c3]
          have q1 := wm (by linarith) (by norm_num at c1; linarith)
          by_cases c4 : epoch ≥ 979.0258204760233
          · rw [if_pos c4]; exact q1.trans (by norm_num)
          · rw [if_neg c4]
            have q2 := seam_early (epoch := epoch) (by rw [abs_le]; norm_num at c3 c4 ⊢; constructor <;> linarith)
            rw [abs_sub_comm] at q2
            refine (tri _ _ _).trans ((add_le_add q1 q2).trans (by norm_num))
        · rw [if_neg c3]
          by_cases c4 : epoch ≥ 979.0258204760233
          · rw [if_pos c4]
            have q2 := seam_early (epoch := epoch) (by rw [abs_le]; norm_num at c3 c4 ⊢; constructor <;> linarith)
            refine (tri _ _ _).trans ((add_le_add w0 q2).trans (by norm_num))
          · rw [if_neg c4]; exact w0.trans (by norm_num)
  · intro p q
    rw [if_pos (by norm_num at p ⊢; linarith), if_pos (by norm_num at p ⊢; linarith)]
    exact dt_modern hD (by rw [abs_le]; constructor <;> linarith)

theorem epco_B (hD : Dbl D) {e : ℝ} (h : |e - 2000| ≤ 2001) : |epb D (epj2d D e) - Sla.epb (Sla.epj2d e)| ≤ 2.05e-12 := by
  have hu : Nb (e - 2000) (e - 2000) 0 2001 := Nb.self h
  unfold epb epj2d Sla.epb Sla.epj2d
  have n1 : Nb 51544.5 51544.5 0 51544.5 := Nb.self (by norm_num)
  have n2 : Nb _ _ 2.41e-13 2001 := hD.nround hu (by norm_num) (by norm_num)
  have n3 : Nb 365.25 365.25 0 365.25 := Nb.self (by norm_num)
  have n4 : Nb _ _ 1.76e-10 730900 := hD.nmul n2 n3 (by norm_num) (by norm_num)
  have n5 : Nb _ _ 2.7e-10 782500 := hD.nadd n1 n4 (by norm_num) (by norm_num)
  have n6 : Nb _ _ 1.81e-12 15019.9 := hD.nlit (x := 15019.81352) (by norm_num) (by norm_num)
  have n7 : Nb _ _ 3.68e-10 797600 := hD.nsub n5 n6 (by norm_num) (by norm_num)
  have q : Nb _ _ 4.39e-14 3.65243e2 := hD.nlit (x := 365.242198781) (by norm_num) (by norm_num)
  have n8 : Nb _ _ 1.55e-12 2186 := hD.ndiv (m := 365) (E := 1.28e-12) n7 q (by norm_num) (by norm_num) (by norm_num) (by norm_num) (by norm_num)
  have n9 : Nb 1900 1900 0 1900 := Nb.self (by norm_num)
  have o : Nb _ _ 2.05e-12 4086 := hD.nadd n9 n8 (by norm_num) (by norm_num)
  exact o.err

theorem epco_J (hD : Dbl D) {e : ℝ} (h : |e - 2000| ≤ 2001) : |epj D (epb2d D e) - Sla.epj (Sla.epb2d e)| ≤ 2.1e-12 := by
  have hu : Nb (e - 1900) (e - 1900) 0 2101 := Nb.self (by
    have := abs_le.1 h
    rw [abs_le]; constructor <;> linarith)
  unfold epj epb2d Sla.epj Sla.epb2d
  have n1 : Nb _ _ 1.81e-12 15019.9 := hD.nlit (x := 15019.81352) (by norm_num) (by norm_num)
  have n2 : Nb _ _ 2.53e-13 2101 := hD.nround hu (by norm_num) (by norm_num)
  have n3 : Nb _ _ 4.39e-14 3.65243e2 := hD.nlit (x := 365.242198781) (by norm_num) (by norm_num)
  have n4 : Nb _ _ 2.77e-10 767400 := hD.nmul n2 n3 (by norm_num) (by norm_num)
  have n5 : Nb _ _ 3.73e-10 782500 := hD.nadd n1 n4 (by norm_num) (by norm_num)
  have n6 : Nb 51544.5 51544.5 0 51544.5 := Nb.self (by norm_num)
  have n7 : Nb _ _ 4.74e-10 834100 := hD.nsub n5 n6 (by norm_num) (by norm_num)
  have n8 : Nb _ _ 1.58e-12 2284 := hD.ndivc (n := 365.25) n7 (by norm_num) (by norm_num) (by norm_num)
  have n9 : Nb 2000 2000 0 2000 := Nb.self (by norm_num)
  have o : Nb _ _ 2.1e-12 4284 := hD.nadd n9 n8 (by norm_num) (by norm_num)
  exact o.err

end Sla.Fp
