import Verif.Model.FpEpv
import Verif.Lemmas.FpNear

/-
Errors of the series of `epv` in double precision.
-/
namespace Sla.Fp
open Sla.Epv
variable {R : ℝ → ℝ} {sn cs : ℝ → ℝ}

/-- A running sum in double precision. -/
theorem fold_dbl {K : Type*} (hR : Dbl R) {u u' : K → ℝ} {er bd : K → ℤ} {α β B : ℝ} (l : List K) (hα : 0 ≤ α) (hβ : 0 ≤ β)
    (her : ∀ k, 0 ≤ er k) (hbd : ∀ k, 0 ≤ bd k) (h : ∀ k ∈ l, |u' k - u k| ≤ α * er k + 1e-170 ∧ |u k| ≤ β * bd k) :
    ∀ (s s' e b : ℝ), |s' - s| ≤ e → |s| ≤ b → b + β * ((l.map bd).sum : ℤ) ≤ B →
      e + α * ((l.map er).sum : ℤ) + l.length * (1.22e-16 * B) ≤ 0.01 * B → 1e-20 ≤ B →
      Nb (l.foldl (fun s k => R (s + u' k)) s') (l.foldl (fun s k => s + u k) s)
        (e + α * ((l.map er).sum : ℤ) + l.length * (1.22e-16 * B)) (b + β * ((l.map bd).sum : ℤ)) := by
  induction l with
  | nil => intro s s' e b h1 h2 _ _ _; simpa using (⟨h1, h2⟩ : Nb s' s e b)
  | cons k l ih =>
    intro s s' e b h1 h2 h3 h4 h5
    obtain ⟨hk1, hk2⟩ := h k (by simp)
    have hl : ∀ k ∈ l, |u' k - u k| ≤ α * er k + 1e-170 ∧ |u k| ≤ β * bd k := fun k hk => h k (by simp [hk])
    have n1 : 0 ≤ α * ((l.map er).sum : ℤ) := mul_nonneg hα (Int.cast_nonneg (List.sum_nonneg (by simp; intro a _; exact her a)))
    have n2 : 0 ≤ β * ((l.map bd).sum : ℤ) := mul_nonneg hβ (Int.cast_nonneg (List.sum_nonneg (by simp; intro a _; exact hbd a)))
    have n3 : 0 ≤ (l.length : ℝ) * (1.22e-16 * B) := by positivity
    rw [List.map_cons, List.sum_cons, Int.cast_add, mul_add] at h3 h4
    rw [List.map_cons, List.sum_cons, Int.cast_add, mul_add, List.map_cons, List.sum_cons, Int.cast_add, mul_add]
    rw [List.length_cons, Nat.cast_add, Nat.cast_one, add_mul, one_mul] at h4 ⊢
    rw [List.foldl_cons, List.foldl_cons]
    have hb : |s + u k| ≤ b + β * bd k := (abs_add_le _ _).trans (add_le_add h2 hk2)
    have he : |R (s' + u' k) - (s + u k)| ≤ e + α * er k + 1.22e-16 * B := by
      refine hR.add h1 hk1 hb ?_
      linarith
    exact (ih hl (s + u k) (R (s' + u' k)) (e + α * er k + 1.22e-16 * B) (b + β * bd k) he hb (by linarith)
      (by linarith) h5).mono (by linarith) (by linarith)

theorem epv_foldl_pair {K : Type*} {f g : ℝ → K → ℝ} (l : List K) (x y : ℝ) :
    l.foldl (fun s k => (f s.1 k, g s.2 k)) (x, y) = (l.foldl f x, l.foldl g y) := by
  induction l generalizing x y with
  | nil => rfl
  | cons k l ih => exact ih _ _

/-! The terms. The amplitude, phase and frequency of a term are `a`, `b` and `c`; the argument is at most `P`. -/

section terms
variable {a b c t t' P : ℝ}

structure EpvTerm (hR : Dbl R) (a b c P t' t : ℝ) : Prop where
  hb : 0 ≤ b
  hc : 0 ≤ c
  hP : P = b + 100 * c
  hP' : P ≤ 1e5
  ha : |a| ≤ 10
  ht : Nb t' t 2.41e-14 100

variable {hR : Dbl R}

theorem EpvTerm.ct (h : EpvTerm hR a b c P t' t) : Nb (R (R c * t')) (c * t) (4.83e-16 * P + 1e-190) P := by
  obtain ⟨hb, hc, hP, hP', ha, ht⟩ := h
  have h1 : Nb (R c) c (1.2e-16 * c + 1e-200) c := hR.nlit (abs_of_nonneg hc).le le_rfl
  refine hR.nmul h1 ht (by linarith) ?_
  rw [hP]
  linarith

theorem EpvTerm.arg (h : EpvTerm hR a b c P t' t) : Nb (R (R b + R (R c * t'))) (b + c * t) (6.03e-16 * P + 1e-189) P := by
  have h2 := h.ct
  obtain ⟨hb, hc, hP, hP', ha, ht⟩ := h
  have h0 : Nb (R b) b (1.2e-16 * b + 1e-200) b := hR.nlit (abs_of_nonneg hb).le le_rfl
  have h1 : Nb (R c) c (1.2e-16 * c + 1e-200) c := hR.nlit (abs_of_nonneg hc).le le_rfl
  have h3 : Nb (R (R c * t')) (c * t) (4.82e-14 * c + 1e-190) (100 * c) := by
    refine hR.nmul h1 ht (by linarith) ?_
    linarith
  refine hR.nadd h0 h3 hP.ge ?_
  rw [hP]
  linarith

theorem EpvTerm.cos (h : EpvTerm hR a b c P t' t) (hc : ∀ x, |cs x - Real.cos x| ≤ 2e-16) :
    Nb (cs (R (R b + R (R c * t')))) (Real.cos (b + c * t)) (6.03e-16 * P + 2.01e-16) 1 :=
  Nb.cos hc h.arg (by linarith)

theorem EpvTerm.sin (h : EpvTerm hR a b c P t' t) (hs : ∀ x, |sn x - Real.sin x| ≤ 2e-16) :
    Nb (sn (R (R b + R (R c * t')))) (Real.sin (b + c * t)) (6.03e-16 * P + 2.01e-16) 1 :=
  Nb.sin hs h.arg (by linarith)

theorem EpvTerm.P0 (h : EpvTerm hR a b c P t' t) : 0 ≤ P := by have := h.hb; have := h.hc; rw [h.hP]; linarith

theorem EpvTerm.amp (_ : EpvTerm hR a b c P t' t) : Nb (R a) a (1.2e-16 * |a| + 1e-200) |a| := hR.nlit le_rfl le_rfl

theorem EpvTerm.pos0 (h : EpvTerm hR a b c P t' t) (hc : ∀ x, |cs x - Real.cos x| ≤ 2e-16) :
    Nb (R (R a * cs (R (R b + R (R c * t'))))) (a * Real.cos (b + c * t)) (6.04e-16 * (|a| * (P + 3)) + 1e-180) |a| := by
  have hP := h.P0
  have := mul_nonneg (abs_nonneg a) hP
  have := h.hP'
  have := abs_nonneg a
  refine hR.nmul h.amp (h.cos hc) (by linarith) ?_
  linarith

theorem EpvTerm.vel0 (h : EpvTerm hR a b c P t' t) (hs : ∀ x, |sn x - Real.sin x| ≤ 2e-16) :
    Nb (R (R (R a * R c) * sn (R (R b + R (R c * t'))))) (a * c * Real.sin (b + c * t))
      (6.04e-16 * (|a| * c * (P + 3)) + 1e-180) (|a| * c) := by
  have hP := h.P0
  have h0 := h.hc
  have h1 := mul_nonneg (abs_nonneg a) h0
  have h2 := mul_nonneg h1 hP
  have h3 := h.hP'
  have h4 := h.ha
  have h5 : c ≤ 1e3 := by have := h.hP; have := h.hb; linarith
  have hc1 : Nb (R c) c (1.2e-16 * c + 1e-200) c := hR.nlit (abs_of_nonneg h0).le le_rfl
  have h6 : Nb (R (R a * R c)) (a * c) (3.61e-16 * (|a| * c) + 1e-190) (|a| * c) := by
    refine hR.nmul h.amp hc1 le_rfl ?_
    linarith
  refine hR.nmul h6 (h.sin hs) (by linarith) ?_
  linarith

theorem EpvTerm.at (h : EpvTerm hR a b c P t' t) : Nb (R (R a * t')) (a * t) (4.82e-14 * |a| + 1e-190) (100 * |a|) := by
  have := abs_nonneg a
  refine hR.nmul h.amp h.ht (by linarith) ?_
  linarith

theorem EpvTerm.pos1 (h : EpvTerm hR a b c P t' t) (hc : ∀ x, |cs x - Real.cos x| ≤ 2e-16) :
    Nb (R (R (R a * t') * cs (R (R b + R (R c * t'))))) (a * t * Real.cos (b + c * t))
      (6.04e-14 * (|a| * (P + 3)) + 1e-180) (100 * |a|) := by
  have hP := h.P0
  have := mul_nonneg (abs_nonneg a) hP
  have := h.hP'
  have := abs_nonneg a
  refine hR.nmul h.at (h.cos hc) (by linarith) ?_
  linarith

/-- The product of the argument and its sine. -/
theorem EpvTerm.ctsin (h : EpvTerm hR a b c P t' t) (hs : ∀ x, |sn x - Real.sin x| ≤ 2e-16) :
    Nb (R (R (R c * t') * sn (R (R b + R (R c * t'))))) (c * t * Real.sin (b + c * t))
      (6.031e-16 * P ^ 2 + 8.1e-16 * P + 1e-180) P := by
  have hP := h.P0
  have h3 := h.hP'
  have h4 : 0 ≤ P ^ 2 := by positivity
  have h5 : P ^ 2 ≤ 1e10 := by nlinarith
  refine hR.nmul h.ct (h.sin hs) (by linarith) ?_
  nlinarith

theorem EpvTerm.vel1 (h : EpvTerm hR a b c P t' t) (hs : ∀ x, |sn x - Real.sin x| ≤ 2e-16)
    (hc : ∀ x, |cs x - Real.cos x| ≤ 2e-16) :
    Nb (R (R a * R (cs (R (R b + R (R c * t'))) - R (R (R c * t') * sn (R (R b + R (R c * t')))))))
      (a * (Real.cos (b + c * t) - c * t * Real.sin (b + c * t)))
      (6.04e-16 * (|a| * (P + 3) ^ 2) + 1e-170) (|a| * (P + 3)) := by
  have hP := h.P0
  have h0 := abs_nonneg a
  have h1 := mul_nonneg h0 hP
  have h2 := mul_nonneg h1 hP
  have h3 := h.hP'
  have h5 : P ^ 2 ≤ 1e10 := by nlinarith
  have h6 := mul_nonneg h2 hP
  have g : Nb (R (cs (R (R b + R (R c * t'))) - R (R (R c * t') * sn (R (R b + R (R c * t'))))))
      (Real.cos (b + c * t) - c * t * Real.sin (b + c * t)) (6.032e-16 * P ^ 2 + 15.4e-16 * P + 3.3e-16) (P + 1) := by
    refine hR.nsub (h.cos hc) (h.ctsin hs) (by linarith) ?_
    nlinarith
  refine hR.nmul h.amp g (by nlinarith) ?_
  nlinarith [h.ha]

theorem EpvTerm.tt (h : EpvTerm hR a b c P t' t) : Nb (R (t' * t')) (t * t) 6.03e-12 1e4 :=
  hR.nmul h.ht h.ht (by norm_num) (by norm_num)

theorem EpvTerm.pos2 (h : EpvTerm hR a b c P t' t) (hc : ∀ x, |cs x - Real.cos x| ≤ 2e-16) :
    Nb (R (R (R a * R (t' * t')) * cs (R (R b + R (R c * t'))))) (a * (t * t) * Real.cos (b + c * t))
      (6.04e-12 * (|a| * (P + 3)) + 1e-180) (1e4 * |a|) := by
  have hP := h.P0
  have := mul_nonneg (abs_nonneg a) hP
  have := h.hP'
  have := abs_nonneg a
  have g : Nb (R (R a * R (t' * t'))) (a * (t * t)) (8.44e-12 * |a| + 1e-190) (1e4 * |a|) := by
    refine hR.nmul h.amp h.tt (by linarith) ?_
    linarith
  refine hR.nmul g (h.cos hc) (by linarith) ?_
  linarith

theorem EpvTerm.vel2 (h : EpvTerm hR a b c P t' t) (hs : ∀ x, |sn x - Real.sin x| ≤ 2e-16)
    (hc : ∀ x, |cs x - Real.cos x| ≤ 2e-16) :
    Nb (R (R (R a * t') * R (R (2 * cs (R (R b + R (R c * t')))) - R (R (R c * t') * sn (R (R b + R (R c * t')))))))
      (a * t * (2 * Real.cos (b + c * t) - c * t * Real.sin (b + c * t)))
      (6.04e-14 * (|a| * (P + 3) ^ 2) + 1e-170) (100 * (|a| * (P + 3))) := by
  have hP := h.P0
  have h0 := abs_nonneg a
  have h1 := mul_nonneg h0 hP
  have h2 := mul_nonneg h1 hP
  have h3 := h.hP'
  have h5 : P ^ 2 ≤ 1e10 := by nlinarith
  have h6 := mul_nonneg h2 hP
  have g2 : Nb (R (2 * cs (R (R b + R (R c * t'))))) (2 * Real.cos (b + c * t)) (12.07e-16 * P + 6.5e-16) 2 := by
    have h22 : Nb (2 : ℝ) 2 0 2 := Nb.self (by norm_num)
    refine hR.nmul h22 (h.cos hc) (by norm_num) ?_
    linarith
  have g : Nb (R (R (2 * cs (R (R b + R (R c * t')))) - R (R (R c * t') * sn (R (R b + R (R c * t'))))))
      (2 * Real.cos (b + c * t) - c * t * Real.sin (b + c * t)) (6.032e-16 * P ^ 2 + 21.5e-16 * P + 9e-16) (P + 2) := by
    refine hR.nsub g2 (h.ctsin hs) (by linarith) ?_
    nlinarith
  refine hR.nmul h.at g (by nlinarith) ?_
  nlinarith [h.ha]

end terms

/-! EpvSums over the tables, in integers: units of 1e-33 for amplitudes, phases and frequencies. -/

def iA (k : Term) : ℤ := |sci k.am k.ae|
def iP (k : Term) : ℤ := sci k.bm k.be + 100 * sci k.cm k.ce + 3 * 10 ^ 33
def iAP (k : Term) : ℤ := iA k * |iP k|
def iAC (k : Term) : ℤ := iA k * |sci k.cm k.ce|
def iACP (k : Term) : ℤ := iAC k * |iP k|
def iAPP (k : Term) : ℤ := iA k * |iP k| ^ 2

/-- What the terms of the tables have in common. -/
def EpvTermOk (k : Term) : Prop :=
  0 ≤ sci k.bm k.be ∧ 0 ≤ sci k.cm k.ce ∧ iP k ≤ 10 ^ 38 ∧ iA k ≤ 10 ^ 34

instance : DecidablePred EpvTermOk := fun k => by unfold EpvTermOk; infer_instance

theorem epv_termNear {hR : Dbl R} {k : Term} (h : EpvTermOk k) {t t' : ℝ} (ht : Nb t' t 2.41e-14 100) :
    EpvTerm hR k.a k.b k.c (k.b + 100 * k.c) t' t := by
  obtain ⟨h1, h2, h3, h4⟩ := h
  have h1' : (0 : ℝ) ≤ (sci k.bm k.be : ℝ) := by exact_mod_cast h1
  have h2' : (0 : ℝ) ≤ (sci k.cm k.ce : ℝ) := by exact_mod_cast h2
  have h3' : (iP k : ℝ) ≤ 10 ^ 38 := by exact_mod_cast h3
  have h4' : (iA k : ℝ) ≤ 10 ^ 34 := by exact_mod_cast h4
  rw [iP] at h3'
  push_cast at h3'
  rw [iA, Int.cast_abs] at h4'
  refine ⟨div_nonneg h1' (by positivity), div_nonneg h2' (by positivity), rfl, ?_, ?_, ht⟩
  · unfold Term.b Term.c
    rw [mul_div_assoc', ← add_div, div_le_iff₀ (by positivity)]
    norm_num at *
    linarith
  · unfold Term.a
    rw [abs_div, abs_of_pos (by positivity : (0 : ℝ) < 10 ^ 33), div_le_iff₀ (by positivity)]
    norm_num at *
    linarith

theorem epv_abs_a (k : Term) : |k.a| = 1e-33 * (iA k : ℝ) := by
  rw [Term.a, abs_div, abs_of_pos (by positivity : (0 : ℝ) < 10 ^ 33), iA, Int.cast_abs]; ring

theorem epv_P_eq {k : Term} (h : EpvTermOk k) : k.b + 100 * k.c + 3 = 1e-33 * (|iP k| : ℤ) := by
  obtain ⟨h1, h2, -, -⟩ := h
  rw [abs_of_nonneg (by unfold iP; positivity), iP, Term.b, Term.c]; push_cast; ring

theorem epv_c_eq {k : Term} (h : EpvTermOk k) : k.c = 1e-33 * (|sci k.cm k.ce| : ℤ) := by
  rw [abs_of_nonneg h.2.1, Term.c]; ring

/-- A stage of the sums: the position and the rate, with their errors and bounds, after the terms of a list. -/
structure EpvStage (s' s : ℝ × ℝ) (e b ev bv : ℝ) : Prop where
  p : Nb s'.1 s.1 e b
  v : Nb s'.2 s.2 ev bv

section stages
variable {t t' B C : ℝ} {s s' : ℝ × ℝ} {e b ev bv : ℝ} {l : List Term}

theorem stage0 (hR : Dbl R) (hs : ∀ x, |sn x - Real.sin x| ≤ 2e-16) (hc : ∀ x, |cs x - Real.cos x| ≤ 2e-16)
    (ht : Nb t' t 2.41e-14 100) (hl : ∀ k ∈ l, EpvTermOk k) (h : EpvStage s' s e b ev bv)
    (h1 : b + 1e-33 * ((l.map iA).sum : ℤ) ≤ B)
    (h2 : e + 6.04e-82 * ((l.map iAP).sum : ℤ) + l.length * (1.22e-16 * B) ≤ 0.01 * B) (h3 : 1e-20 ≤ B)
    (h4 : bv + 1e-66 * ((l.map iAC).sum : ℤ) ≤ C)
    (h5 : ev + 6.04e-115 * ((l.map iACP).sum : ℤ) + l.length * (1.22e-16 * C) ≤ 0.01 * C) (h6 : 1e-20 ≤ C) :
    EpvStage (l.foldl (epvTerm0 R sn cs t') s') (l.foldl (term0 t) s)
      (e + 6.04e-82 * ((l.map iAP).sum : ℤ) + l.length * (1.22e-16 * B)) (b + 1e-33 * ((l.map iA).sum : ℤ))
      (ev + 6.04e-115 * ((l.map iACP).sum : ℤ) + l.length * (1.22e-16 * C)) (bv + 1e-66 * ((l.map iAC).sum : ℤ)) := by
  obtain ⟨sp, sv⟩ := s
  obtain ⟨sp', sv'⟩ := s'
  have f1 : epvTerm0 R sn cs t' = fun s k => (R (s.1 + R (R k.a * cs (R (R k.b + R (R k.c * t'))))),
      R (s.2 + -R (R (R k.a * R k.c) * sn (R (R k.b + R (R k.c * t')))))) := by
    funext s k; simp only [epvTerm0, sub_eq_add_neg]
  have f2 : term0 t = fun s k => (s.1 + k.a * Real.cos (k.b + k.c * t), s.2 + -(k.a * k.c * Real.sin (k.b + k.c * t))) := by
    funext s k; simp only [term0, sub_eq_add_neg]
  rw [f1, f2, epv_foldl_pair (f := fun s (k : Term) => R (s + R (R k.a * cs (R (R k.b + R (R k.c * t'))))))
    (g := fun s (k : Term) => R (s + -R (R (R k.a * R k.c) * sn (R (R k.b + R (R k.c * t')))))),
    epv_foldl_pair (f := fun s (k : Term) => s + k.a * Real.cos (k.b + k.c * t))
    (g := fun s (k : Term) => s + -(k.a * k.c * Real.sin (k.b + k.c * t)))]
  constructor
  · refine fold_dbl hR l (by norm_num) (by norm_num) (fun k => by unfold iAP iA; positivity) (fun k => by unfold iA; positivity)
      (fun k hk => ?_) _ _ _ _ h.p.err h.p.bd h1 h2 h3
    have g := (epv_termNear (hR := hR) (hl k hk) ht).pos0 hc
    rw [epv_P_eq (hl k hk), epv_abs_a] at g
    refine ⟨g.err.trans ?_, g.bd⟩
    rw [iAP]; push_cast; linarith
  · refine fold_dbl hR l (by norm_num) (by norm_num) (fun k => by unfold iACP iAC iA; positivity)
      (fun k => by unfold iAC iA; positivity) (fun k hk => ?_) _ _ _ _ h.v.err h.v.bd h4 h5 h6
    have g := ((epv_termNear (hR := hR) (hl k hk) ht).vel0 hs).neg
    rw [epv_P_eq (hl k hk), epv_abs_a] at g
    have hc' := epv_c_eq (hl k hk)
    refine ⟨g.err.trans ?_, g.bd.trans ?_⟩
    · rw [iACP, iAC, hc']; push_cast; linarith
    · rw [iAC, hc']; push_cast; linarith

theorem stage1 (hR : Dbl R) (hs : ∀ x, |sn x - Real.sin x| ≤ 2e-16) (hc : ∀ x, |cs x - Real.cos x| ≤ 2e-16)
    (ht : Nb t' t 2.41e-14 100) (hl : ∀ k ∈ l, EpvTermOk k) (h : EpvStage s' s e b ev bv)
    (h1 : b + 1e-31 * ((l.map iA).sum : ℤ) ≤ B)
    (h2 : e + 6.04e-80 * ((l.map iAP).sum : ℤ) + l.length * (1.22e-16 * B) ≤ 0.01 * B) (h3 : 1e-20 ≤ B)
    (h4 : bv + 1e-66 * ((l.map iAP).sum : ℤ) ≤ C)
    (h5 : ev + 6.04e-115 * ((l.map iAPP).sum : ℤ) + l.length * (1.22e-16 * C) ≤ 0.01 * C) (h6 : 1e-20 ≤ C) :
    EpvStage (l.foldl (epvTerm1 R sn cs t') s') (l.foldl (term1 t) s)
      (e + 6.04e-80 * ((l.map iAP).sum : ℤ) + l.length * (1.22e-16 * B)) (b + 1e-31 * ((l.map iA).sum : ℤ))
      (ev + 6.04e-115 * ((l.map iAPP).sum : ℤ) + l.length * (1.22e-16 * C)) (bv + 1e-66 * ((l.map iAP).sum : ℤ)) := by
  obtain ⟨sp, sv⟩ := s
  obtain ⟨sp', sv'⟩ := s'
  have f1 : epvTerm1 R sn cs t' = fun s k => (R (s.1 + R (R (R k.a * t') * cs (R (R k.b + R (R k.c * t'))))),
      R (s.2 + R (R k.a * R (cs (R (R k.b + R (R k.c * t'))) - R (R (R k.c * t') * sn (R (R k.b + R (R k.c * t')))))))) := rfl
  have f2 : term1 t = fun s k => (s.1 + k.a * t * Real.cos (k.b + k.c * t),
      s.2 + k.a * (Real.cos (k.b + k.c * t) - k.c * t * Real.sin (k.b + k.c * t))) := rfl
  rw [f1, f2, epv_foldl_pair (f := fun s (k : Term) => R (s + R (R (R k.a * t') * cs (R (R k.b + R (R k.c * t'))))))
    (g := fun s (k : Term) => R (s + R (R k.a * R (cs (R (R k.b + R (R k.c * t'))) - R (R (R k.c * t') * sn (R (R k.b + R (R k.c * t')))))))),
    epv_foldl_pair (f := fun s (k : Term) => s + k.a * t * Real.cos (k.b + k.c * t))
    (g := fun s (k : Term) => s + k.a * (Real.cos (k.b + k.c * t) - k.c * t * Real.sin (k.b + k.c * t)))]
  constructor
  · refine fold_dbl hR l (by norm_num) (by norm_num) (fun k => by unfold iAP iA; positivity) (fun k => by unfold iA; positivity)
      (fun k hk => ?_) _ _ _ _ h.p.err h.p.bd h1 h2 h3
    have g := (epv_termNear (hR := hR) (hl k hk) ht).pos1 hc
    rw [epv_P_eq (hl k hk), epv_abs_a] at g
    refine ⟨g.err.trans ?_, g.bd.trans ?_⟩
    · rw [iAP]; push_cast; linarith
    · linarith
  · refine fold_dbl hR l (by norm_num) (by norm_num) (fun k => by unfold iAPP iA; positivity)
      (fun k => by unfold iAP iA; positivity) (fun k hk => ?_) _ _ _ _ h.v.err h.v.bd h4 h5 h6
    have g := (epv_termNear (hR := hR) (hl k hk) ht).vel1 hs hc
    rw [epv_P_eq (hl k hk), epv_abs_a] at g
    refine ⟨g.err.trans ?_, g.bd.trans ?_⟩
    · rw [iAPP]; push_cast; linarith
    · rw [iAP]; push_cast; linarith

theorem stage2 (hR : Dbl R) (hs : ∀ x, |sn x - Real.sin x| ≤ 2e-16) (hc : ∀ x, |cs x - Real.cos x| ≤ 2e-16)
    (ht : Nb t' t 2.41e-14 100) (hl : ∀ k ∈ l, EpvTermOk k) (h : EpvStage s' s e b ev bv)
    (h1 : b + 1e-29 * ((l.map iA).sum : ℤ) ≤ B)
    (h2 : e + 6.04e-78 * ((l.map iAP).sum : ℤ) + l.length * (1.22e-16 * B) ≤ 0.01 * B) (h3 : 1e-20 ≤ B)
    (h4 : bv + 1e-64 * ((l.map iAP).sum : ℤ) ≤ C)
    (h5 : ev + 6.04e-113 * ((l.map iAPP).sum : ℤ) + l.length * (1.22e-16 * C) ≤ 0.01 * C) (h6 : 1e-20 ≤ C) :
    EpvStage (l.foldl (epvTerm2 R sn cs t') s') (l.foldl (term2 t) s)
      (e + 6.04e-78 * ((l.map iAP).sum : ℤ) + l.length * (1.22e-16 * B)) (b + 1e-29 * ((l.map iA).sum : ℤ))
      (ev + 6.04e-113 * ((l.map iAPP).sum : ℤ) + l.length * (1.22e-16 * C)) (bv + 1e-64 * ((l.map iAP).sum : ℤ)) := by
  obtain ⟨sp, sv⟩ := s
  obtain ⟨sp', sv'⟩ := s'
  have f1 : epvTerm2 R sn cs t' = fun s k => (R (s.1 + R (R (R k.a * R (t' * t')) * cs (R (R k.b + R (R k.c * t'))))),
      R (s.2 + R (R (R k.a * t') * R (R (2 * cs (R (R k.b + R (R k.c * t')))) - R (R (R k.c * t') * sn (R (R k.b + R (R k.c * t')))))))) := rfl
  have f2 : term2 t = fun s k => (s.1 + k.a * (t * t) * Real.cos (k.b + k.c * t),
      s.2 + k.a * t * (2 * Real.cos (k.b + k.c * t) - k.c * t * Real.sin (k.b + k.c * t))) := rfl
  rw [f1, f2, epv_foldl_pair (f := fun s (k : Term) => R (s + R (R (R k.a * R (t' * t')) * cs (R (R k.b + R (R k.c * t'))))))
    (g := fun s (k : Term) => R (s + R (R (R k.a * t') * R (R (2 * cs (R (R k.b + R (R k.c * t')))) - R (R (R k.c * t') * sn (R (R k.b + R (R k.c * t')))))))),
    epv_foldl_pair (f := fun s (k : Term) => s + k.a * (t * t) * Real.cos (k.b + k.c * t))
    (g := fun s (k : Term) => s + k.a * t * (2 * Real.cos (k.b + k.c * t) - k.c * t * Real.sin (k.b + k.c * t)))]
  constructor
  · refine fold_dbl hR l (by norm_num) (by norm_num) (fun k => by unfold iAP iA; positivity) (fun k => by unfold iA; positivity)
      (fun k hk => ?_) _ _ _ _ h.p.err h.p.bd h1 h2 h3
    have g := (epv_termNear (hR := hR) (hl k hk) ht).pos2 hc
    rw [epv_P_eq (hl k hk), epv_abs_a] at g
    refine ⟨g.err.trans ?_, g.bd.trans ?_⟩
    · rw [iAP]; push_cast; linarith
    · linarith
  · refine fold_dbl hR l (by norm_num) (by norm_num) (fun k => by unfold iAPP iA; positivity)
      (fun k => by unfold iAP iA; positivity) (fun k hk => ?_) _ _ _ _ h.v.err h.v.bd h4 h5 h6
    have g := (epv_termNear (hR := hR) (hl k hk) ht).vel2 hs hc
    rw [epv_P_eq (hl k hk), epv_abs_a] at g
    refine ⟨g.err.trans ?_, g.bd.trans ?_⟩
    · rw [iAPP]; push_cast; linarith
    · rw [iAP]; push_cast; linarith

end stages

/-- Bounds on the sums over a table and its length. -/
structure EpvSums (l : List Term) (A AP AC ACP APP : ℤ) (n : ℕ) : Prop where
  a : (l.map iA).sum ≤ A
  ap : (l.map iAP).sum ≤ AP
  ac : (l.map iAC).sum ≤ AC
  acp : (l.map iACP).sum ≤ ACP
  app : (l.map iAPP).sum ≤ APP
  len : l.length = n
  ok : ∀ k ∈ l, EpvTermOk k

instance (l : List Term) (A AP AC ACP APP : ℤ) (n : ℕ) : Decidable (EpvSums l A AP AC ACP APP n) :=
  decidable_of_iff ((l.map iA).sum ≤ A ∧ (l.map iAP).sum ≤ AP ∧ (l.map iAC).sum ≤ AC ∧ (l.map iACP).sum ≤ ACP ∧
    (l.map iAPP).sum ≤ APP ∧ l.length = n ∧ ∀ k ∈ l, EpvTermOk k)
    ⟨fun ⟨a, b, c, d, e, f, g⟩ => ⟨a, b, c, d, e, f, g⟩, fun h => ⟨h.a, h.ap, h.ac, h.acp, h.app, h.len, h.ok⟩⟩

section table
variable {t t' B C e2 b2 ev2 bv2 : ℝ} {s s' : ℝ × ℝ} {e b ev bv : ℝ} {l : List Term} {A AP AC ACP APP : ℤ} {n : ℕ}

theorem EpvSums.stage0 (k : EpvSums l A AP AC ACP APP n) (hR : Dbl R) (hs : ∀ x, |sn x - Real.sin x| ≤ 2e-16)
    (hc : ∀ x, |cs x - Real.cos x| ≤ 2e-16) (ht : Nb t' t 2.41e-14 100) (h : EpvStage s' s e b ev bv)
    (h1 : b + 1e-33 * (A : ℝ) ≤ b2) (h2 : b2 ≤ B) (h3 : e + 6.04e-82 * (AP : ℝ) + n * (1.22e-16 * B) ≤ e2) (h4 : e2 ≤ 0.01 * B)
    (h5 : 1e-20 ≤ B) (h6 : bv + 1e-66 * (AC : ℝ) ≤ bv2) (h7 : bv2 ≤ C)
    (h8 : ev + 6.04e-115 * (ACP : ℝ) + n * (1.22e-16 * C) ≤ ev2) (h9 : ev2 ≤ 0.01 * C) (h10 : 1e-20 ≤ C) :
    EpvStage (l.foldl (epvTerm0 R sn cs t') s') (l.foldl (term0 t) s) e2 b2 ev2 bv2 := by
  have a1 : (((l.map iA).sum : ℤ) : ℝ) ≤ (A : ℝ) := Int.cast_le.2 k.a
  have a2 : (((l.map iAP).sum : ℤ) : ℝ) ≤ (AP : ℝ) := Int.cast_le.2 k.ap
  have a3 : (((l.map iAC).sum : ℤ) : ℝ) ≤ (AC : ℝ) := Int.cast_le.2 k.ac
  have a4 : (((l.map iACP).sum : ℤ) : ℝ) ≤ (ACP : ℝ) := Int.cast_le.2 k.acp
  have a5 : (l.length : ℝ) = n := by rw [k.len]
  have g := Sla.Fp.stage0 (B := B) (C := C) hR hs hc ht k.ok h (by linarith) (by rw [a5]; linarith) h5 (by linarith)
    (by rw [a5]; linarith) h10
  rw [a5] at g
  exact ⟨g.p.mono (by linarith) (by linarith), g.v.mono (by linarith) (by linarith)⟩

theorem EpvSums.stage1 (k : EpvSums l A AP AC ACP APP n) (hR : Dbl R) (hs : ∀ x, |sn x - Real.sin x| ≤ 2e-16)
    (hc : ∀ x, |cs x - Real.cos x| ≤ 2e-16) (ht : Nb t' t 2.41e-14 100) (h : EpvStage s' s e b ev bv)
    (h1 : b + 1e-31 * (A : ℝ) ≤ b2) (h2 : b2 ≤ B) (h3 : e + 6.04e-80 * (AP : ℝ) + n * (1.22e-16 * B) ≤ e2) (h4 : e2 ≤ 0.01 * B)
    (h5 : 1e-20 ≤ B) (h6 : bv + 1e-66 * (AP : ℝ) ≤ bv2) (h7 : bv2 ≤ C)
    (h8 : ev + 6.04e-115 * (APP : ℝ) + n * (1.22e-16 * C) ≤ ev2) (h9 : ev2 ≤ 0.01 * C) (h10 : 1e-20 ≤ C) :
    EpvStage (l.foldl (epvTerm1 R sn cs t') s') (l.foldl (term1 t) s) e2 b2 ev2 bv2 := by
  have a1 : (((l.map iA).sum : ℤ) : ℝ) ≤ (A : ℝ) := Int.cast_le.2 k.a
  have a2 : (((l.map iAP).sum : ℤ) : ℝ) ≤ (AP : ℝ) := Int.cast_le.2 k.ap
  have a3 : (((l.map iAP).sum : ℤ) : ℝ) ≤ (AP : ℝ) := Int.cast_le.2 k.ap
  have a4 : (((l.map iAPP).sum : ℤ) : ℝ) ≤ (APP : ℝ) := Int.cast_le.2 k.app
  have a5 : (l.length : ℝ) = n := by rw [k.len]
  have g := Sla.Fp.stage1 (B := B) (C := C) hR hs hc ht k.ok h (by linarith) (by rw [a5]; linarith) h5 (by linarith)
    (by rw [a5]; linarith) h10
  rw [a5] at g
  exact ⟨g.p.mono (by linarith) (by linarith), g.v.mono (by linarith) (by linarith)⟩

theorem EpvSums.stage2 (k : EpvSums l A AP AC ACP APP n) (hR : Dbl R) (hs : ∀ x, |sn x - Real.sin x| ≤ 2e-16)
    (hc : ∀ x, |cs x - Real.cos x| ≤ 2e-16) (ht : Nb t' t 2.41e-14 100) (h : EpvStage s' s e b ev bv)
    (h1 : b + 1e-29 * (A : ℝ) ≤ b2) (h2 : b2 ≤ B) (h3 : e + 6.04e-78 * (AP : ℝ) + n * (1.22e-16 * B) ≤ e2) (h4 : e2 ≤ 0.01 * B)
    (h5 : 1e-20 ≤ B) (h6 : bv + 1e-64 * (AP : ℝ) ≤ bv2) (h7 : bv2 ≤ C)
    (h8 : ev + 6.04e-113 * (APP : ℝ) + n * (1.22e-16 * C) ≤ ev2) (h9 : ev2 ≤ 0.01 * C) (h10 : 1e-20 ≤ C) :
    EpvStage (l.foldl (epvTerm2 R sn cs t') s') (l.foldl (term2 t) s) e2 b2 ev2 bv2 := by
  have a1 : (((l.map iA).sum : ℤ) : ℝ) ≤ (A : ℝ) := Int.cast_le.2 k.a
  have a2 : (((l.map iAP).sum : ℤ) : ℝ) ≤ (AP : ℝ) := Int.cast_le.2 k.ap
  have a3 : (((l.map iAP).sum : ℤ) : ℝ) ≤ (AP : ℝ) := Int.cast_le.2 k.ap
  have a4 : (((l.map iAPP).sum : ℤ) : ℝ) ≤ (APP : ℝ) := Int.cast_le.2 k.app
  have a5 : (l.length : ℝ) = n := by rw [k.len]
  have g := Sla.Fp.stage2 (B := B) (C := C) hR hs hc ht k.ok h (by linarith) (by rw [a5]; linarith) h5 (by linarith)
    (by rw [a5]; linarith) h10
  rw [a5] at g
  exact ⟨g.p.mono (by linarith) (by linarith), g.v.mono (by linarith) (by linarith)⟩

end table

end Sla.Fp
