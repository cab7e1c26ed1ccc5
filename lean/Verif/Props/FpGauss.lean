import Verif.Lemmas.FpGauss

/-
Property theorems C135: Gaussian residuals in single precision.
-/
namespace Sla.Props
open Sla.Fp

/-- C135: two calls of `gresid` in single precision, the first of which draws.  Up to relative errors of 5.1e-7 they return `Y W d1` and
    `X W d2`, where `X` and `Y` are the coordinates of the first point of the stream that falls inside the circle, and `W` is the factor
    of the polar method for a squared radius `r` within 2.5e-7 of that point's; skipped points are not inside by more than 3e-7.  The
    second call draws nothing. -/
theorem C135_pair (R : Rounding binary32) {lg : ℝ → ℝ} (hlg : ∀ v, 0 < v → v < 1 → |lg v - Real.log v| ≤ 1.2e-7 * |Real.log v|)
    {u : ℕ → ℝ} (hu : ∀ i, binary32.Rep (u i) ∧ 0 ≤ u i) {fuel : ℕ} {s s1 s2 : Gresid} (hs : s.first = true) {d1 d2 g1 : ℝ} {o2 : Option ℝ}
    (h1 : Fp.gresid R lg fuel u s d1 = some (some g1, s1)) (h2 : Fp.gresid R lg fuel u s1 d2 = some (o2, s2)) :
    ∃ (k : ℕ) (X Y r g2 : ℝ), X = 2 * u (s.pos + 2 * k) - 1 ∧ Y = 2 * u (s.pos + 2 * k + 1) - 1 ∧
      0 < r ∧ r < 1 ∧ |r - (X ^ 2 + Y ^ 2)| ≤ 2.5e-7 * (X ^ 2 + Y ^ 2) ∧
      |g1 - Y * Real.sqrt (-2 * Real.log r / r) * d1| ≤ 5.1e-7 * |Y * Real.sqrt (-2 * Real.log r / r) * d1| + 1e-40 ∧
      o2 = some g2 ∧
      |g2 - X * Real.sqrt (-2 * Real.log r / r) * d2| ≤ 5.1e-7 * |X * Real.sqrt (-2 * Real.log r / r) * d2| + 1e-40 ∧
      s2.first = true ∧ s2.pos = s.pos + 2 * k + 2 ∧
      ∀ j < k, 1 - 3e-7 ≤ (2 * u (s.pos + 2 * j) - 1) ^ 2 + (2 * u (s.pos + 2 * j + 1) - 1) ^ 2 := by
  unfold Fp.gresid at h1
  rw [if_pos hs] at h1
  cases hl : Fp.gresidLoop R u fuel s.pos with
  | none => rw [hl] at h1; simp at h1
  | some t =>
    obtain ⟨x, y, r, q⟩ := t
    rw [hl] at h1
    dsimp only at h1
    split_ifs at h1 with hr
    · simp at h1
    · simp only [Option.some.injEq, Prod.mk.injEq] at h1
      obtain ⟨e1, rfl⟩ := h1
      obtain ⟨k, hq, hx, hy, hrr, hr1, hsk⟩ := gresidLoop_spec R u fuel s.pos hl
      obtain ⟨-, hp⟩ := pair_near R hlg (hu (s.pos + 2 * k)).1 (hu (s.pos + 2 * k + 1)).1 (hu _).2 (hu _).2 rfl rfl hx hy hrr hr1
      obtain ⟨r0, n1, n2, n3, -, -⟩ := hp hr
      unfold Fp.gresid at h2
      simp only [Bool.false_eq_true, if_false, Option.map_some, Option.some.injEq, Prod.mk.injEq] at h2
      obtain ⟨rfl, rfl⟩ := h2
      refine ⟨k, _, _, r, _, rfl, rfl, r0, hr1, ?_, ?_, rfl, scale_near R n3, rfl, hq, ?_⟩
      · rw [sq, sq]; exact n1
      · rw [← e1]; exact scale_near R n2
      · intro j hj
        have h3 := hsk j hj
        have far : ∀ i, 2 * u i - 1 = 0 ∨ 1 / 2 ^ 24 ≤ |2 * u i - 1| := fun i => by
          by_cases h : 2 * u i - 1 = 0
          · exact Or.inl h
          · exact Or.inr (dev_far (hu i).1 (hu i).2 h)
        have h4 := radius_near R (dev_near R (hu (s.pos + 2 * j)).1 (hu _).2) (dev_near R (hu (s.pos + 2 * j + 1)).1 (hu _).2) (far _) (far _)
        have h5 := h4.abs_le
        have h6 := h3.trans ((le_abs_self _).trans h5)
        rw [abs_of_nonneg (add_nonneg (mul_self_nonneg _) (mul_self_nonneg _))] at h6
        rw [sq, sq]
        norm_num at h6 ⊢
        linarith

/-- The stream 3/4, 1/2, ... meets the hypotheses: two calls with exact rounding data return deviates along the first axis. -/
example (R : Rounding binary32) {lg : ℝ → ℝ} (hlg : ∀ v, 0 < v → v < 1 → |lg v - Real.log v| ≤ 1.2e-7 * |Real.log v|) :
    ∃ g1 s1 o2 s2, Fp.gresid R lg 1 (fun i => if i = 0 then 3 / 4 else 1 / 2) Gresid.init 1 = some (some g1, s1) ∧
      Fp.gresid R lg 1 (fun i => if i = 0 then 3 / 4 else 1 / 2) s1 1 = some (o2, s2) ∧ |g1| ≤ 1e-40 := by
  have e0 : ∀ {a : ℝ} (m e : ℤ), |m| < 2 ^ 24 → -149 ≤ e → a = m * 2 ^ e → R a = a := fun m e h1 h2 h3 => R.eq_self ⟨m, e, h1, h2, h3⟩
  have hl : Fp.gresidLoop R (fun i => if i = 0 then 3 / 4 else 1 / 2) 1 0 = some (1 / 2, 0, 1 / 4, 2) := by
    simp only [Fp.gresidLoop]
    have a1 : R (2 * (3 / 4)) = 2 * (3 / 4) := e0 3 (-1) (by norm_num) (by norm_num) (by norm_num)
    have a2 : R 1 = 1 := e0 1 0 (by norm_num) (by norm_num) (by norm_num)
    have a3 : R (1 / 2) = 1 / 2 := e0 1 (-1) (by norm_num) (by norm_num) (by norm_num)
    have a4 : R (1 / 4) = 1 / 4 := e0 1 (-2) (by norm_num) (by norm_num) (by norm_num)
    norm_num [a1, a2, a3, a4] at *
    norm_num [a1, a2, a3, a4]
  have hu : ∀ i : ℕ, binary32.Rep (if i = 0 then 3 / 4 else 1 / 2 : ℝ) ∧ (0 : ℝ) ≤ (if i = 0 then 3 / 4 else 1 / 2) := by
    intro i
    split_ifs
    · exact ⟨⟨3, -2, by norm_num [binary32], by norm_num [binary32], by norm_num⟩, by norm_num⟩
    · exact ⟨⟨1, -1, by norm_num [binary32], by norm_num [binary32], by norm_num⟩, by norm_num⟩
  have h1 : ∃ g1 s1, Fp.gresid R lg 1 (fun i => if i = 0 then 3 / 4 else 1 / 2) Gresid.init 1 = some (some g1, s1) ∧ s1.first = false := by
    unfold Fp.gresid
    rw [if_pos (show Gresid.init.first = true from rfl), show Gresid.init.pos = 0 from rfl, hl]
    dsimp only
    rw [if_neg (by norm_num)]
    exact ⟨_, _, rfl, rfl⟩
  obtain ⟨g1, s1, h1, f1⟩ := h1
  have h2 : ∃ o2 s2, Fp.gresid R lg 1 (fun i => if i = 0 then 3 / 4 else 1 / 2) s1 1 = some (o2, s2) := by
    unfold Fp.gresid
    rw [f1]
    exact ⟨_, _, rfl⟩
  obtain ⟨o2, s2, h2⟩ := h2
  refine ⟨g1, s1, o2, s2, h1, h2, ?_⟩
  obtain ⟨k, X, Y, r, g2, -, hY, -, -, -, hg, -⟩ := C135_pair R hlg hu rfl h1 h2
  have : Y = 0 := by rw [hY]; simp
  rw [this] at hg
  simpa using hg

/-- C135: over any history of calls from the start, every value `gresid` returns in single precision is at most 8.25 standard deviations
    in size, except that it is a NaN if the stream contains two halves in succession: the guard against division by zero in the code
    does not prevent that, and is never used otherwise. -/
theorem C135_bounded (R : Rounding binary32) {lg : ℝ → ℝ} (hlg : ∀ v, 0 < v → v < 1 → |lg v - Real.log v| ≤ 1.2e-7 * |Real.log v|)
    {u : ℕ → ℝ} (hu : ∀ i, binary32.Rep (u i) ∧ 0 ≤ u i) {fuel : ℕ} {ds : List ℝ} {gs : List (Option ℝ)} {s' : Gresid}
    (h : Fp.gresidCalls R lg fuel u Gresid.init ds = some (gs, s')) :
    List.Forall₂ (fun d o => (∀ g, o = some g → |g| ≤ 8.25 * |d| + 1e-40) ∧ (o = none → ∃ p, u p = 1 / 2 ∧ u (p + 1) = 1 / 2)) ds gs := by
  have sc : ∀ g d : ℝ, |g| ≤ 8.246 → |R (g * d)| ≤ 8.25 * |d| + 1e-40 := by
    intro g d hg
    have q1 := R.single (g * d)
    have q2 : |g * d| ≤ 8.246 * |d| := by rw [abs_mul]; exact mul_le_mul_of_nonneg_right hg (abs_nonneg _)
    have q3 := abs_add_le (R (g * d) - g * d) (g * d)
    rw [sub_add_cancel] at q3
    have := abs_nonneg d
    norm_num at q1 q2 q3 this ⊢; linarith [abs_nonneg d]
  have key : ∀ (ds : List ℝ) (gs : List (Option ℝ)) (s : Gresid),
      (s.first = false → (∀ g, s.next = some g → |g| ≤ 8.246) ∧ (s.next = none → ∃ p, u p = 1 / 2 ∧ u (p + 1) = 1 / 2)) →
      ∀ s', Fp.gresidCalls R lg fuel u s ds = some (gs, s') →
      List.Forall₂ (fun d o => (∀ g, o = some g → |g| ≤ 8.25 * |d| + 1e-40) ∧ (o = none → ∃ p, u p = 1 / 2 ∧ u (p + 1) = 1 / 2)) ds gs := by
    intro ds
    induction ds with
    | nil =>
      intro gs s _ s' h
      simp only [Fp.gresidCalls, Option.some.injEq, Prod.mk.injEq] at h
      rw [← h.1]; exact .nil
    | cons d ds ih =>
      intro gs s hinv s' h
      simp only [Fp.gresidCalls] at h
      cases h1 : Fp.gresid R lg fuel u s d with
      | none => rw [h1] at h; simp at h
      | some t =>
        obtain ⟨o, s1⟩ := t
        rw [h1] at h
        dsimp only at h
        cases h2 : Fp.gresidCalls R lg fuel u s1 ds with
        | none => rw [h2] at h; simp at h
        | some t2 =>
          obtain ⟨os, s2⟩ := t2
          rw [h2] at h
          simp only [Option.some.injEq, Prod.mk.injEq] at h
          rw [← h.1]
          have main : ((∀ g, o = some g → |g| ≤ 8.25 * |d| + 1e-40) ∧ (o = none → ∃ p, u p = 1 / 2 ∧ u (p + 1) = 1 / 2)) ∧
              (s1.first = false → (∀ g, s1.next = some g → |g| ≤ 8.246) ∧ (s1.next = none → ∃ p, u p = 1 / 2 ∧ u (p + 1) = 1 / 2)) := by
            unfold Fp.gresid at h1
            cases hf : s.first with
            | false =>
              rw [hf] at h1
              simp only [Bool.false_eq_true, if_false, Option.some.injEq, Prod.mk.injEq] at h1
              obtain ⟨rfl, rfl⟩ := h1
              obtain ⟨i1, i2⟩ := hinv hf
              refine ⟨⟨?_, ?_⟩, fun h => by simp at h⟩
              · intro g hg
                cases hn : s.next with
                | none => rw [hn] at hg; simp at hg
                | some n =>
                  rw [hn] at hg
                  simp only [Option.map_some, Option.some.injEq] at hg
                  rw [← hg]; exact sc n d (i1 n hn)
              · intro hg
                exact i2 (by simpa using hg)
            | true =>
              rw [hf, if_pos rfl] at h1
              cases hl : Fp.gresidLoop R u fuel s.pos with
              | none => rw [hl] at h1; simp at h1
              | some t =>
                obtain ⟨x, y, r, q⟩ := t
                rw [hl] at h1
                dsimp only at h1
                obtain ⟨k, -, hx, hy, hrr, hr1, -⟩ := gresidLoop_spec R u fuel s.pos hl
                obtain ⟨hz, hp⟩ := pair_near R hlg (hu (s.pos + 2 * k)).1 (hu (s.pos + 2 * k + 1)).1 (hu _).2 (hu _).2 rfl rfl hx hy hrr hr1
                split_ifs at h1 with hr
                · simp only [Option.some.injEq, Prod.mk.injEq] at h1
                  obtain ⟨rfl, rfl⟩ := h1
                  obtain ⟨z1, z2⟩ := hz hr
                  have w : ∃ p, u p = 1 / 2 ∧ u (p + 1) = 1 / 2 := ⟨s.pos + 2 * k, by linarith, by linarith⟩
                  exact ⟨⟨fun g hg => by simp at hg, fun _ => w⟩, fun _ => ⟨fun g hg => by simp at hg, fun _ => w⟩⟩
                · simp only [Option.some.injEq, Prod.mk.injEq] at h1
                  obtain ⟨rfl, rfl⟩ := h1
                  obtain ⟨-, -, n2, n3, b2, b3⟩ := hp hr
                  have c2 := n2.abs_le
                  have c3 := n3.abs_le
                  refine ⟨⟨?_, fun hg => by simp at hg⟩, fun _ => ⟨?_, fun hg => by simp at hg⟩⟩
                  · intro g hg
                    simp only [Option.some.injEq] at hg
                    rw [← hg]
                    refine sc _ d ?_
                    norm_num at b2 c2 ⊢; linarith
                  · intro g hg
                    simp only [Option.some.injEq] at hg
                    rw [← hg]
                    norm_num at b3 c3 ⊢; linarith
          exact .cons main.1 (ih os s1 main.2 s2 h2)
  exact key ds gs Gresid.init (fun h => by simp [Gresid.init] at h) s' h

/-- C135: the exception occurs: if the next two numbers of the stream are both one half, `gresid` returns a NaN and keeps a NaN for the
    following call, whatever the standard deviations. -/
theorem C135_nan (R : Rounding binary32) (lg : ℝ → ℝ) {u : ℕ → ℝ} {s : Gresid} (hs : s.first = true) (h0 : u s.pos = 1 / 2)
    (h1 : u (s.pos + 1) = 1 / 2) (fuel : ℕ) (d1 d2 : ℝ) :
    Fp.gresidCalls R lg (fuel + 1) u s [d1, d2] = some ([none, none], ⟨s.pos + 2, true, none⟩) := by
  have a1 : R 1 = 1 := R.eq_self ⟨1, 0, by norm_num [binary32], by norm_num [binary32], by norm_num⟩
  have hl : Fp.gresidLoop R u (fuel + 1) s.pos = some (0, 0, 0, s.pos + 2) := by
    simp only [Fp.gresidLoop, h0, h1]
    norm_num [a1]
  simp [Fp.gresidCalls, Fp.gresid, hs, hl]

/-- The start of the program and a stream of halves meet the hypotheses, and those of `C135_bounded`, which is then about two NaNs. -/
example (R : Rounding binary32) {lg : ℝ → ℝ} (hlg : ∀ v, 0 < v → v < 1 → |lg v - Real.log v| ≤ 1.2e-7 * |Real.log v|) :
    List.Forall₂ (fun (d : ℝ) (o : Option ℝ) => (∀ g, o = some g → |g| ≤ 8.25 * |d| + 1e-40) ∧
      (o = none → ∃ p : ℕ, (fun _ : ℕ => (1 / 2 : ℝ)) p = 1 / 2 ∧ (fun _ : ℕ => (1 / 2 : ℝ)) (p + 1) = 1 / 2)) [2, 3] [none, none] :=
  C135_bounded R hlg (u := fun _ => 1 / 2)
    (fun _ => ⟨⟨1, -1, by norm_num [binary32], by norm_num [binary32], by norm_num⟩, by norm_num⟩)
    (C135_nan R lg (s := Gresid.init) rfl rfl rfl 0 2 3)

/-- The stream 3/4, 1/2, ...: both values are finite, so the bound of `C135_bounded` is about numbers. -/
example (R : Rounding binary32) {lg : ℝ → ℝ} (hlg : ∀ v, 0 < v → v < 1 → |lg v - Real.log v| ≤ 1.2e-7 * |Real.log v|) {g1 g2 : ℝ} {s : Gresid}
    (h : Fp.gresidCalls R lg 1 (fun i => if i = 0 then 3 / 4 else 1 / 2) Gresid.init [2, 3] = some ([some g1, some g2], s)) :
    |g1| ≤ 16.51 ∧ |g2| ≤ 24.76 := by
  have h1 := C135_bounded R hlg (u := fun i => if i = 0 then 3 / 4 else 1 / 2) (by
    intro i
    split_ifs
    · exact ⟨⟨3, -2, by norm_num [binary32], by norm_num [binary32], by norm_num⟩, by norm_num⟩
    · exact ⟨⟨1, -1, by norm_num [binary32], by norm_num [binary32], by norm_num⟩, by norm_num⟩) h
  rw [List.forall₂_cons, List.forall₂_cons] at h1
  have q1 := h1.1.1 g1 rfl
  have q2 := h1.2.1.1 g2 rfl
  norm_num at q1 q2 ⊢
  constructor <;> linarith

end Sla.Props
