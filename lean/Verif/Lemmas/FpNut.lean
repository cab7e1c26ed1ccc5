import Verif.Lemmas.FpErr64
import Verif.Lemmas.Fp
import Verif.Model.FpNut

/-
Running error bounds for the nutation series in double precision, for dates within 1000 years of J2000.
-/
namespace Sla.Fp
open Real

variable {R : ℝ → ℝ}

/-! ### Angles up to whole turns -/

/-- `a` is within `e` of `x` plus a whole number of turns. -/
def NearTurn (e a x : ℝ) : Prop := ∃ k : ℤ, |a - (x + k * (2 * π))| ≤ e

theorem NearTurn.cos {cs : ℝ → ℝ} {ε e a x : ℝ} (hc : ∀ x, |cs x - Real.cos x| ≤ ε) (h : NearTurn e a x) :
    |cs a - Real.cos x| ≤ ε + e := by
  obtain ⟨k, hk⟩ := h
  have := cos_err hc hk
  rwa [Real.cos_add_int_mul_two_pi] at this

theorem NearTurn.sin {sn : ℝ → ℝ} {ε e a x : ℝ} (hs : ∀ x, |sn x - Real.sin x| ≤ ε) (h : NearTurn e a x) :
    |sn a - Real.sin x| ≤ ε + e := by
  obtain ⟨k, hk⟩ := h
  have := sin_err hs hk
  rwa [Real.sin_add_int_mul_two_pi] at this

private theorem mulb {a b A B : ℝ} (ha : |a| ≤ A) (hb : |b| ≤ B) : |a * b| ≤ A * B := by
  rw [abs_mul]; exact mul_le_mul ha hb (abs_nonneg _) ((abs_nonneg _).trans ha)

private theorem negn {a x e : ℝ} (h : |a - x| ≤ e) : |-a - -x| ≤ e := by
  rwa [show -a - -x = -(a - x) by ring, abs_neg]

/-! ### Constants -/

theorem as2r_digits : |(4.848136811095359935899141e-6 : ℝ) - as2r| ≤ 1e-25 ∧ |as2r| ≤ 4.8482e-6 := by
  have p1 := Real.pi_gt_d20
  have p2 := Real.pi_lt_d20
  have e : |as2r| = as2r := abs_of_pos (by unfold as2r; positivity)
  rw [e]
  unfold as2r
  constructor
  · rw [abs_le]; constructor <;> norm_num at * <;> linarith
  · norm_num at *; linarith

theorem as2r_round (hR : Dbl R) : |R 4.848136811095359935899141e-6 - as2r| ≤ 5.9e-22 :=
  hR.round as2r_digits.1 as2r_digits.2 (by norm_num)

theorem as2r_round' (hR : Dbl R) : |R 0.484813681109535994e-5 - as2r| ≤ 6e-22 := by
  refine hR.round (e := 1e-23) ?_ as2r_digits.2 (by norm_num)
  have p1 := Real.pi_gt_d20
  have p2 := Real.pi_lt_d20
  unfold as2r
  rw [abs_le]; constructor <;> norm_num at * <;> linarith

private theorem deg_round (hR : Dbl R) : |R 1.745329251994329576923691e-2 - π / 180| ≤ 2.2e-18 ∧ |π / 180| ≤ 0.0174534 := by
  have p1 := Real.pi_gt_d20
  have p2 := Real.pi_lt_d20
  have b : |π / 180| ≤ 0.0174534 := by rw [abs_of_pos (by positivity)]; norm_num at *; linarith
  refine ⟨hR.round (e := 1e-21) ?_ b (by norm_num), b⟩
  rw [abs_le]; constructor <;> norm_num at * <;> linarith

/-! ### The fundamental angles -/

/-- The interval in centuries. -/
theorem centuries_near (hR : Dbl R) {date : ℝ} (h : |date - 51544.5| ≤ 365250) :
    |R (R (date - 51544.5) / 36525) - (date - 51544.5) / 36525| ≤ 2.5e-15 ∧ |(date - 51544.5) / 36525| ≤ 10 := by
  have b : |(date - 51544.5) / 36525| ≤ 10 := by
    rw [abs_div, div_le_iff₀ (by norm_num)]; norm_num at *; linarith
  have h1 : |R (date - 51544.5) - (date - 51544.5)| ≤ 4.4e-11 := hR.lit h (by norm_num)
  exact ⟨hR.div (f := 0) (m := 36525) (Q := 10) (E := 1.21e-15) h1 (by simp) (by norm_num) (by norm_num) b (by norm_num) (by norm_num), b⟩

private theorem poly_near (hR : Dbl R) {t T : ℝ} (ht : |t - T| ≤ 2.5e-15) (hT : |T| ≤ 10) {c0 c1 c2 c3 d0 d1 d2 d3 : ℝ}
    (h0 : |c0 - d0| ≤ 2.09e-7) (h1 : |c1 - d1| ≤ 3.9e-15) (h2 : |c2 - d2| ≤ 6.3e-18) (h3 : |c3 - d3| ≤ 3.1e-20)
    (b0 : |d0| ≤ 1.7396e9) (b1 : |d1| ≤ 32) (b2 : |d2| ≤ 0.052) (b3 : |d3| ≤ 0.00025) :
    |nutPoly R t c0 c1 c2 c3 - T * (d0 + T * (d1 + T * (d2 + T * d3)))| ≤ 1.07e-5 := by
  unfold nutPoly
  have a1 := hR.mul ht h3 hT b3 (g := 1.4e-18) (by norm_num)
  have k1 := mulb hT b3
  have k2 : |d2 + T * d3| ≤ 0.0546 := (abs_add_le _ _).trans (by norm_num at *; linarith)
  have a2 := hR.add h2 a1 k2 (g := 1.5e-17) (by norm_num)
  have a3 := hR.mul ht a2 hT k2 (g := 3.6e-16) (by norm_num)
  have k3 := mulb hT k2
  have k4 : |d1 + T * (d2 + T * d3)| ≤ 32.6 := (abs_add_le _ _).trans (by norm_num at *; linarith)
  have a4 := hR.add h1 a3 k4 (g := 8.3e-15) (by norm_num)
  have a5 := hR.mul ht a4 hT k4 (g := 2.1e-13) (by norm_num)
  have k5 := mulb hT k4
  have k6 : |d0 + T * (d1 + T * (d2 + T * d3))| ≤ 1.73961e9 := (abs_add_le _ _).trans (by norm_num at *; linarith)
  have a6 := hR.add h0 a5 k6 (g := 4.18e-7) (by norm_num)
  exact hR.mul ht a6 hT k6 (by norm_num)

private theorem line_near (hR : Dbl R) {t T : ℝ} (ht : |t - T| ≤ 2.5e-15) (hT : |T| ≤ 10) {c : ℝ} (b : |c| ≤ 2.2e8) :
    |R (R c * t) - c * T| ≤ 1.07e-5 :=
  hR.mul (hR.lit b (g := 2.7e-8) (by norm_num)) ht b hT (by norm_num)

private theorem angle_near (hR : Dbl R) {deg p q : ℝ} (hd : |deg| ≤ 360) (h : |p - q| ≤ 1.07e-5) :
    NearTurn 5.3e-11 (nutAngle R deg p) (Sla.nutAngle deg q) ∧ |nutAngle R deg p| ≤ 13 := by
  obtain ⟨g1, g2⟩ := deg_round hR
  have s1 := as2r_round hR
  have s2 := as2r_digits.2
  have hm := (abs_cfmod p 1296000 (by norm_num)).2
  have d1 : |R (R deg * R 1.745329251994329576923691e-2) - deg * (π / 180)| ≤ 2.4e-15 :=
    hR.mul (hR.lit hd (g := 4.4e-14) (by norm_num)) g1 hd g2 (by norm_num)
  have d2 : |R (cfmod p 1296000 * R 4.848136811095359935899141e-6) - cfmod p 1296000 * as2r| ≤ 1.6e-15 :=
    hR.mul (e := 0) (by simp) s1 hm.le s2 (by norm_num)
  have b1 := mulb hd g2
  have b2 := mulb hm.le s2
  have b3 : |deg * (π / 180) + cfmod p 1296000 * as2r| ≤ 12.99 := (abs_add_le _ _).trans (by norm_num at *; linarith)
  have d3 := hR.add d1 d2 b3 (g := 6e-15) (by norm_num)
  constructor
  · refine ⟨ctrunc (q / 1296000) - ctrunc (p / 1296000), ?_⟩
    have e : deg * (π / 180) + cfmod p 1296000 * as2r - (Sla.nutAngle deg q +
        ((ctrunc (q / 1296000) - ctrunc (p / 1296000) : ℤ) : ℝ) * (2 * π)) = (p - q) * as2r := by
      unfold Sla.nutAngle cfmod as2r
      push_cast; ring
    have b4 := mulb h s2
    rw [← e] at b4
    have := abs_add_le (nutAngle R deg p - (deg * (π / 180) + cfmod p 1296000 * as2r)) (deg * (π / 180) + cfmod p 1296000 * as2r -
      (Sla.nutAngle deg q + ((ctrunc (q / 1296000) - ctrunc (p / 1296000) : ℤ) : ℝ) * (2 * π)))
    rw [sub_add_sub_cancel] at this
    refine this.trans ((add_le_add d3 b4).trans (by norm_num))
  · have := abs_add_le (nutAngle R deg p - (deg * (π / 180) + cfmod p 1296000 * as2r)) (deg * (π / 180) + cfmod p 1296000 * as2r)
    rw [sub_add_cancel] at this
    refine this.trans ((add_le_add d3 b3).trans (by norm_num))

/-- Each of the nine angles is right to 5.3e-11 rad, up to whole turns. -/
theorem nutAngles_near (hR : Dbl R) {t T : ℝ} (ht : |t - T| ≤ 2.5e-15) (hT : |T| ≤ 10) :
    List.Forall₂ (fun a x => NearTurn 5.3e-11 a x ∧ |a| ≤ 13) (nutAngles R t) (Sla.nutAngles T) := by
  have l : ∀ {x B g : ℝ}, |x| ≤ B → 1.2e-16 * B + 1e-200 ≤ g → |R x - x| ≤ g := fun h h' => hR.lit h h'
  have n : ∀ {x B g : ℝ}, |x| ≤ B → 1.2e-16 * B + 1e-200 ≤ g → |-R x - -x| ≤ g := fun h h' => negn (hR.lit h h')
  unfold nutAngles Sla.nutAngles
  refine .cons (angle_near hR (by norm_num [abs_of_pos]) ?_) (.cons (angle_near hR (by norm_num [abs_of_pos]) ?_)
    (.cons (angle_near hR (by norm_num [abs_of_pos]) ?_) (.cons (angle_near hR (by norm_num [abs_of_pos]) ?_)
    (.cons (angle_near hR (by norm_num [abs_of_pos]) ?_) (.cons (angle_near hR (by norm_num [abs_of_pos]) (line_near hR ht hT ?_))
    (.cons (angle_near hR (by norm_num [abs_of_pos]) (line_near hR ht hT ?_))
    (.cons (angle_near hR (by norm_num [abs_of_pos]) (line_near hR ht hT ?_))
    (.cons (angle_near hR (by norm_num [abs_of_pos]) (line_near hR ht hT ?_)) .nil))))))))
  · exact poly_near hR ht hT (l (B := 1.7396e9) (by norm_num [abs_of_pos]) (by norm_num)) (l (B := 32) (by norm_num [abs_of_pos]) (by norm_num))
      (l (B := 0.052) (by norm_num [abs_of_pos]) (by norm_num)) (n (B := 0.00025) (by norm_num [abs_of_pos]) (by norm_num))
      (by norm_num [abs_of_pos]) (by norm_num [abs_of_pos]) (by norm_num [abs_of_pos]) (by norm_num [abs_of_pos])
  · exact poly_near hR ht hT (l (B := 1.7396e9) (by norm_num [abs_of_pos]) (by norm_num)) (n (B := 32) (by norm_num [abs_of_pos]) (by norm_num))
      (l (B := 0.052) (by norm_num [abs_of_pos]) (by norm_num)) (n (B := 0.00025) (by norm_num [abs_of_pos]) (by norm_num))
      (by norm_num [abs_of_pos]) (by norm_num [abs_of_pos]) (by norm_num [abs_of_pos]) (by norm_num [abs_of_pos])
  · exact poly_near hR ht hT (l (B := 1.7396e9) (by norm_num [abs_of_pos]) (by norm_num)) (n (B := 32) (by norm_num [abs_of_pos]) (by norm_num))
      (n (B := 0.052) (by norm_num [abs_of_pos]) (by norm_num)) (l (B := 0.00025) (by norm_num [abs_of_pos]) (by norm_num))
      (by norm_num [abs_of_pos]) (by norm_num [abs_of_pos]) (by norm_num [abs_of_pos]) (by norm_num [abs_of_pos])
  · exact poly_near hR ht hT (l (B := 1.7396e9) (by norm_num [abs_of_pos]) (by norm_num)) (n (B := 32) (by norm_num [abs_of_pos]) (by norm_num))
      (l (B := 0.052) (by norm_num [abs_of_pos]) (by norm_num)) (n (B := 0.00025) (by norm_num [abs_of_pos]) (by norm_num))
      (by norm_num [abs_of_pos]) (by norm_num [abs_of_pos]) (by norm_num [abs_of_pos]) (by norm_num [abs_of_pos])
  · exact poly_near hR ht hT (n (B := 1.7396e9) (by norm_num [abs_of_pos]) (by norm_num)) (l (B := 32) (by norm_num [abs_of_pos]) (by norm_num))
      (l (B := 0.052) (by norm_num [abs_of_pos]) (by norm_num)) (n (B := 0.00025) (by norm_num [abs_of_pos]) (by norm_num))
      (by norm_num [abs_of_pos]) (by norm_num [abs_of_pos]) (by norm_num [abs_of_pos]) (by norm_num [abs_of_pos])
  all_goals norm_num [abs_of_pos]

/-! ### The argument of a term -/

/-- Sum of the magnitudes of the multipliers. -/
def weight (fa : List Int) : Int := (fa.map (|·|)).sum

theorem weight_nonneg (fa : List Int) : 0 ≤ weight fa :=
  List.sum_nonneg (by intro x hx; obtain ⟨y, -, rfl⟩ := List.mem_map.1 hx; exact abs_nonneg y)

private theorem weight_cons (f : Int) (fa : List Int) : weight (f :: fa) = |f| + weight fa := by simp [weight]

/-- The rounded sum against the exact sum of the rounded angles. -/
private theorem sum_near (hR : Dbl R) {W : ℝ} (hW : W ≤ 500) (fa : List Int) (A : List ℝ) (hA : ∀ a ∈ A, |a| ≤ 13) {s σ E : ℝ}
    (hs : |s - σ| ≤ E) (hw : |σ| + 13 * (weight fa : ℝ) ≤ W) (hE : E + fa.length * (3e-16 * (W + 1)) ≤ 1) :
    |(fa.zip A).foldl (fun s p => R (s + R ((p.1 : ℝ) * p.2))) s - (fa.zip A).foldl (fun s p => s + (p.1 : ℝ) * p.2) σ| ≤
      E + fa.length * (3e-16 * (W + 1)) := by
  have hW0 : 0 ≤ W := le_trans (by have := weight_nonneg fa; have : (0 : ℝ) ≤ weight fa := by exact_mod_cast this
                                   positivity) hw
  have c0 : 0 ≤ 3e-16 * (W + 1) := by positivity
  induction fa generalizing A s σ E with
  | nil => simpa using hs
  | cons f fa ih =>
    have hE0 : 0 ≤ E := (abs_nonneg _).trans hs
    cases A with
    | nil =>
      simp only [List.zip_nil_right, List.foldl_nil]
      have : (0 : ℝ) ≤ ((f :: fa).length : ℝ) * (3e-16 * (W + 1)) := by positivity
      linarith
    | cons a A =>
      simp only [List.zip_cons_cons, List.foldl_cons]
      have ha := hA a (by simp)
      rw [weight_cons] at hw
      push_cast at hw
      have hw0 : (0 : ℝ) ≤ weight fa := by exact_mod_cast weight_nonneg fa
      have b1 : |(f : ℝ) * a| ≤ 13 * |(f : ℝ)| := by
        rw [abs_mul, mul_comm]; exact mul_le_mul_of_nonneg_right ha (abs_nonneg _)
      have b2 : |σ + f * a| ≤ W := (abs_add_le _ _).trans (by linarith)
      have b3 : |(f : ℝ) * a| ≤ W := b1.trans (by have := abs_nonneg σ; linarith)
      have hl : (E : ℝ) ≤ 1 := by
        have : (0 : ℝ) ≤ ((f :: fa).length : ℝ) * (3e-16 * (W + 1)) := by positivity
        linarith
      have r1 : |R ((f : ℝ) * a) - f * a| ≤ 1.2e-16 * W + 1e-200 := hR.lit b3 le_rfl
      have r2 : |R (s + R ((f : ℝ) * a)) - (σ + f * a)| ≤ E + 3e-16 * (W + 1) := by
        refine hR.add hs r1 b2 ?_
        norm_num at *; linarith
      have hlen : ((f :: fa).length : ℝ) = fa.length + 1 := by simp
      rw [hlen] at hE ⊢
      refine (ih A (fun x hx => hA x (List.mem_cons_of_mem _ hx)) r2 ?_ (by linarith)).trans (by linarith)
      have := abs_add_le σ (f * a)
      linarith

/-- The exact sum of the rounded angles against that of the exact ones. -/
private theorem sum_turn {δ : ℝ} (fa : List Int) (A X : List ℝ) (h : List.Forall₂ (fun a x => NearTurn δ a x ∧ |a| ≤ 13) A X)
    {s σ e : ℝ} (hδ : 0 ≤ δ) (hs : NearTurn e s σ) :
    NearTurn (e + weight fa * δ) ((fa.zip A).foldl (fun s p => s + (p.1 : ℝ) * p.2) s)
      ((fa.zip X).foldl (fun s p => s + (p.1 : ℝ) * p.2) σ) := by
  induction fa generalizing A X s σ e with
  | nil => simpa [weight] using hs
  | cons f fa ih =>
    have w0 : (0 : ℝ) ≤ weight fa := by exact_mod_cast weight_nonneg fa
    cases h with
    | nil =>
      obtain ⟨k, hk⟩ := hs
      refine ⟨k, ?_⟩
      simp only [List.zip_nil_right, List.foldl_nil]
      have : (0 : ℝ) ≤ (weight (f :: fa) : ℝ) * δ := mul_nonneg (by exact_mod_cast weight_nonneg (f :: fa)) hδ
      linarith
    | @cons a x A X hax hAX =>
      simp only [List.zip_cons_cons, List.foldl_cons]
      obtain ⟨⟨m, hm⟩, -⟩ := hax
      obtain ⟨k, hk⟩ := hs
      have h1 : NearTurn (e + |(f : ℝ)| * δ) (s + f * a) (σ + f * x) := by
        refine ⟨k + f * m, ?_⟩
        have e1 : s + f * a - (σ + f * x + ((k + f * m : ℤ) : ℝ) * (2 * π)) = (s - (σ + k * (2 * π))) + f * (a - (x + m * (2 * π))) := by
          push_cast; ring
        rw [e1]
        refine (abs_add_le _ _).trans (add_le_add hk ?_)
        rw [abs_mul]; exact mul_le_mul_of_nonneg_left hm (abs_nonneg _)
      have := ih A X hAX h1
      rw [weight_cons]
      push_cast
      rwa [add_mul, ← add_assoc]

private theorem all_left {δ : ℝ} {A X : List ℝ} (h : List.Forall₂ (fun a x => NearTurn δ a x ∧ |a| ≤ 13) A X) : ∀ a ∈ A, |a| ≤ 13 := by
  induction h with
  | nil => simp
  | cons h _ ih =>
    intro a ha
    rcases List.mem_cons.1 ha with rfl | ha
    · exact h.2
    · exact ih a ha

/-- The argument of a term is right to 5.3e-11 rad per unit of its multipliers. -/
theorem nutTheta_near (hR : Dbl R) {t T : ℝ} (ht : |t - T| ≤ 2.5e-15) (hT : |T| ≤ 10) {fa : List Int} (hw : weight fa ≤ 29)
    (hl : fa.length ≤ 9) : NearTurn (weight fa * 5.3e-11 + 1.1e-12) (nutTheta R fa (nutAngles R t)) (Sla.nutTheta fa (Sla.nutAngles T)) := by
  have hA := nutAngles_near hR ht hT
  have hA' := all_left hA
  generalize nutAngles R t = A at *
  generalize Sla.nutAngles T = X at *
  obtain ⟨k, hk⟩ := sum_turn fa A X hA (s := 0) (σ := 0) (e := 0) (by norm_num) ⟨0, by simp⟩
  have w0 : (0 : ℝ) ≤ weight fa := by exact_mod_cast weight_nonneg fa
  have w1 : (weight fa : ℝ) ≤ 29 := by exact_mod_cast hw
  have key : |nutTheta R fa A - (fa.zip A).foldl (fun s p => s + (p.1 : ℝ) * p.2) 0| ≤ 1.1e-12 := by
    unfold nutTheta
    cases fa with
    | nil => norm_num
    | cons f fa =>
      cases A with
      | nil => norm_num
      | cons a A =>
        simp only [List.zip_cons_cons, List.foldl_cons, zero_add]
        rw [weight_cons] at w1
        push_cast at w1
        have w2 : (0 : ℝ) ≤ weight fa := by exact_mod_cast weight_nonneg fa
        have ha := hA' a (by simp)
        have b1 : |(f : ℝ) * a| ≤ 13 * |(f : ℝ)| := by
          rw [abs_mul, mul_comm]; exact mul_le_mul_of_nonneg_right ha (abs_nonneg _)
        have r1 : |R ((f : ℝ) * a) - f * a| ≤ 5e-14 := hR.lit (B := 377) (b1.trans (by linarith)) (by norm_num)
        have hl' : (fa.length : ℝ) ≤ 8 := by
          have : fa.length ≤ 8 := by rw [List.length_cons] at hl; omega
          exact_mod_cast this
        have hm := mul_le_mul_of_nonneg_right hl' (show (0 : ℝ) ≤ 3e-16 * (377 + 1) by norm_num)
        refine (sum_near hR (W := 377) (by norm_num) fa A (fun x hx => hA' x (List.mem_cons_of_mem _ hx)) r1 (by linarith) ?_).trans ?_
        · norm_num at hm ⊢; linarith
        · norm_num at hm ⊢; linarith
  refine ⟨k, ?_⟩
  have := abs_add_le (nutTheta R fa A - (fa.zip A).foldl (fun s p => s + (p.1 : ℝ) * p.2) 0)
    ((fa.zip A).foldl (fun s p => s + (p.1 : ℝ) * p.2) 0 - ((fa.zip X).foldl (fun s p => s + (p.1 : ℝ) * p.2) 0 + k * (2 * π)))
  rw [sub_add_sub_cancel] at this
  refine this.trans ((add_le_add key hk).trans (by linarith))

/-! ### The series -/

/-- Ten times the largest value of a term of the series within ten centuries of J2000. -/
def amplitude (q : Int × Int × Int × Int) : Int := |q.1| + |q.2.1| + 10 * (|q.2.2.1| + |q.2.2.2|)

private theorem coef_near (hR : Dbl R) {t T : ℝ} (ht : |t - T| ≤ 2.5e-15) (hT : |T| ≤ 10) (a b : ℝ) :
    |R (R a + R (R b * t)) - (a + b * T)| ≤ 7.5e-16 * (|a| + 10 * |b|) + 1e-197 ∧ |a + b * T| ≤ |a| + 10 * |b| := by
  have b0 : |b * T| ≤ |b| * 10 := mulb le_rfl hT
  have b1 : |a + b * T| ≤ |a| + 10 * |b| := (abs_add_le _ _).trans (by linarith)
  have ha := abs_nonneg a
  have hb := abs_nonneg b
  refine ⟨?_, b1⟩
  have h1 : |R a - a| ≤ 1.2e-16 * |a| + 1e-200 := hR.lit le_rfl le_rfl
  have h2 : |R b - b| ≤ 1.2e-16 * |b| + 1e-200 := hR.lit le_rfl le_rfl
  have h3 : |R (R b * t) - b * T| ≤ 5e-15 * |b| + 1e-198 := hR.mul h2 ht le_rfl hT (by norm_num; linarith)
  exact hR.add h1 h3 b1 (by norm_num; linarith)

private theorem prod_near (hR : Dbl R) {u U c C B κ : ℝ} (hu : |u - U| ≤ 7.5e-16 * B + 1e-197) (hU : |U| ≤ B) (hc : |c - C| ≤ κ)
    (hC : |C| ≤ 1) (hκ : κ ≤ 1e-8) : |R (u * c) - U * C| ≤ B * κ + 9e-16 * B + 1e-196 := by
  have B0 : 0 ≤ B := (abs_nonneg _).trans hU
  have κ0 : 0 ≤ κ := (abs_nonneg _).trans hc
  have h1 : (7.5e-16 * B + 1e-197) * κ ≤ (7.5e-16 * B + 1e-197) * 1e-8 := mul_le_mul_of_nonneg_left hκ (by positivity)
  have h2 : B * κ ≤ B * 1e-8 := mul_le_mul_of_nonneg_left hκ B0
  refine hR.mul hu hc hU hC ?_
  norm_num at *; linarith

private theorem incr_near (hR : Dbl R) {t T : ℝ} (ht : |t - T| ≤ 2.5e-15) (hT : |T| ≤ 10) {c C s S κ : ℝ} (hc : |c - C| ≤ κ)
    (hs : |s - S| ≤ κ) (hC : |C| ≤ 1) (hS : |S| ≤ 1) (hκ : κ ≤ 1e-8) (q : Int × Int × Int × Int) :
    |nutIncr R t c s q - ((tenth q.1 + tenth q.2.2.1 * T) * C + (tenth q.2.1 + tenth q.2.2.2 * T) * S)| ≤
      (amplitude q : ℝ) / 10 * (κ + 1.1e-15) + 1e-195 ∧
    |(tenth q.1 + tenth q.2.2.1 * T) * C + (tenth q.2.1 + tenth q.2.2.2 * T) * S| ≤ (amplitude q : ℝ) / 10 := by
  have e : (amplitude q : ℝ) / 10 = (|tenth q.1| + 10 * |tenth q.2.2.1|) + (|tenth q.2.1| + 10 * |tenth q.2.2.2|) := by
    unfold amplitude tenth
    simp only [abs_div, abs_of_pos (show (0 : ℝ) < 10 by norm_num)]
    push_cast
    ring
  rw [e]
  unfold nutIncr
  obtain ⟨u1, u2⟩ := coef_near hR ht hT (tenth q.1) (tenth q.2.2.1)
  obtain ⟨v1, v2⟩ := coef_near hR ht hT (tenth q.2.1) (tenth q.2.2.2)
  have p1 := prod_near hR u1 u2 hc hC hκ
  have p2 := prod_near hR v1 v2 hs hS hκ
  have m1 := mulb u2 hC
  have m2 := mulb v2 hS
  have κ0 : 0 ≤ κ := (abs_nonneg _).trans hc
  have U0 : 0 ≤ |tenth q.1| + 10 * |tenth q.2.2.1| := by positivity
  have V0 : 0 ≤ |tenth q.2.1| + 10 * |tenth q.2.2.2| := by positivity
  generalize |tenth q.1| + 10 * |tenth q.2.2.1| = U at *
  generalize |tenth q.2.1| + 10 * |tenth q.2.2.2| = V at *
  have b : |(tenth q.1 + tenth q.2.2.1 * T) * C + (tenth q.2.1 + tenth q.2.2.2 * T) * S| ≤ U + V :=
    (abs_add_le _ _).trans (by linarith)
  refine ⟨hR.add p1 p2 b ?_, b⟩
  have h2 : U * κ ≤ U * 1e-8 := mul_le_mul_of_nonneg_left hκ U0
  have h3 : V * κ ≤ V * 1e-8 := mul_le_mul_of_nonneg_left hκ V0
  rw [mul_add, add_mul]
  norm_num at *; linarith

/-- One series: `sel` selects its coefficients. -/
private theorem series_near (hR : Dbl R) {sn cs : ℝ → ℝ} (hs : ∀ x, |sn x - Real.sin x| ≤ 2e-16)
    (hc : ∀ x, |cs x - Real.cos x| ≤ 2e-16) {t T : ℝ} (ht : |t - T| ≤ 2.5e-15) (hT : |T| ≤ 10)
    (sel : NutTerm → Int × Int × Int × Int) (L : List NutTerm) (hL : ∀ r ∈ L, weight r.fa ≤ 29 ∧ r.fa.length ≤ 9) {x X E : ℝ}
    (hx : |x - X| ≤ E) (hX : |X| + (((L.map fun r => amplitude (sel r)).sum : Int) : ℝ) / 10 ≤ 3e7)
    (hE : E + (((L.map fun r => amplitude (sel r) * weight r.fa).sum : Int) : ℝ) / 10 * 5.3e-11 +
      (((L.map fun r => amplitude (sel r)).sum : Int) : ℝ) / 10 * 1.2e-12 + L.length * 4e-9 ≤ 1) :
    |L.foldl (fun x r => R (x + nutIncr R t (cs (nutTheta R r.fa (nutAngles R t))) (sn (nutTheta R r.fa (nutAngles R t))) (sel r))) x -
      L.foldl (fun x r => x + ((tenth (sel r).1 + tenth (sel r).2.2.1 * T) * Real.cos (Sla.nutTheta r.fa (Sla.nutAngles T)) +
        (tenth (sel r).2.1 + tenth (sel r).2.2.2 * T) * Real.sin (Sla.nutTheta r.fa (Sla.nutAngles T)))) X| ≤
      E + (((L.map fun r => amplitude (sel r) * weight r.fa).sum : Int) : ℝ) / 10 * 5.3e-11 +
      (((L.map fun r => amplitude (sel r)).sum : Int) : ℝ) / 10 * 1.2e-12 + L.length * 4e-9 := by
  have amp0 : ∀ q, 0 ≤ amplitude q := fun q => by unfold amplitude; positivity
  induction L generalizing x X E with
  | nil => simpa using hx
  | cons r L ih =>
    simp only [List.foldl_cons]
    simp only [List.map_cons, List.sum_cons, List.length_cons] at hE hX ⊢
    obtain ⟨w1, w2⟩ := hL r (by simp)
    have hθ := nutTheta_near hR ht hT w1 w2
    have a0 : (0 : ℝ) ≤ amplitude (sel r) := by exact_mod_cast amp0 (sel r)
    have w0 : (0 : ℝ) ≤ weight r.fa := by exact_mod_cast weight_nonneg r.fa
    have w1' : (weight r.fa : ℝ) ≤ 29 := by exact_mod_cast w1
    have s0 : (0 : ℝ) ≤ ((L.map fun r => amplitude (sel r)).sum : Int) := by
      exact_mod_cast List.sum_nonneg (by intro y hy; obtain ⟨z, -, rfl⟩ := List.mem_map.1 hy; exact amp0 _)
    have s1 : (0 : ℝ) ≤ ((L.map fun r => amplitude (sel r) * weight r.fa).sum : Int) := by
      exact_mod_cast List.sum_nonneg (by
        intro y hy; obtain ⟨z, -, rfl⟩ := List.mem_map.1 hy; exact mul_nonneg (amp0 _) (weight_nonneg _))
    have l0 : (0 : ℝ) ≤ (L.length : ℝ) := Nat.cast_nonneg _
    obtain ⟨i1, i2⟩ := incr_near hR ht hT (hθ.cos hc) (hθ.sin hs) (Real.abs_cos_le_one _) (Real.abs_sin_le_one _)
      (by norm_num at *; linarith) (sel r)
    rw [Int.cast_add] at hX hE ⊢
    rw [Int.cast_add, Int.cast_mul, Nat.cast_add, Nat.cast_one] at hE ⊢
    generalize (((L.map fun r => amplitude (sel r)).sum : Int) : ℝ) = s2 at *
    generalize (((L.map fun r => amplitude (sel r) * weight r.fa).sum : Int) : ℝ) = s3 at *
    generalize nutIncr R t (cs (nutTheta R r.fa (nutAngles R t))) (sn (nutTheta R r.fa (nutAngles R t))) (sel r) = i at *
    generalize (tenth (sel r).1 + tenth (sel r).2.2.1 * T) * Real.cos (Sla.nutTheta r.fa (Sla.nutAngles T)) +
        (tenth (sel r).2.1 + tenth (sel r).2.2.2 * T) * Real.sin (Sla.nutTheta r.fa (Sla.nutAngles T)) = I at *
    have i1' : |i - I| ≤ (amplitude (sel r) : ℝ) * weight r.fa / 10 * 5.3e-11 + (amplitude (sel r) : ℝ) / 10 * 1.15e-12 + 1e-195 := by
      refine i1.trans ?_
      have : (amplitude (sel r) : ℝ) / 10 * (2e-16 + (weight r.fa * 5.3e-11 + 1.1e-12) + 1.1e-15) =
        (amplitude (sel r) : ℝ) * weight r.fa / 10 * 5.3e-11 + (amplitude (sel r) : ℝ) / 10 * (2e-16 + 1.1e-12 + 1.1e-15) := by ring
      rw [this]
      have := mul_le_mul_of_nonneg_left (show (2e-16 + 1.1e-12 + 1.1e-15 : ℝ) ≤ 1.15e-12 by norm_num)
        (show 0 ≤ (amplitude (sel r) : ℝ) / 10 by positivity)
      linarith
    have aw : 0 ≤ (amplitude (sel r) : ℝ) * weight r.fa := mul_nonneg a0 w0
    have bX : |X + I| ≤ 3e7 := (abs_add_le _ _).trans (by linarith)
    have E0 : 0 ≤ E := (abs_nonneg _).trans hx
    have step : |R (x + i) - (X + I)| ≤ E + (amplitude (sel r) : ℝ) * weight r.fa / 10 * 5.3e-11 +
        (amplitude (sel r) : ℝ) / 10 * 1.2e-12 + 4e-9 := by
      refine hR.add hx i1' bX ?_
      clear ih hθ hL amp0 i1 i1' i2 hs hc
      generalize ((amplitude (sel r) : Int) : ℝ) = a at *
      generalize ((weight r.fa : Int) : ℝ) = w at *
      generalize (L.length : ℝ) = n at *
      norm_num at *; linarith
    refine (ih (fun r hr => hL r (List.mem_cons_of_mem _ hr)) step ?_ ?_).trans ?_
    · have := abs_add_le X I
      linarith
    · linarith
    · linarith

private theorem tables : (∀ r ∈ nutTerms.reverse, weight r.fa ≤ 29 ∧ r.fa.length ≤ 9) ∧ nutTerms.reverse.length = 194 ∧
    (nutTerms.reverse.map fun r => amplitude r.p).sum = 196430624 ∧
    (nutTerms.reverse.map fun r => amplitude r.p * weight r.fa).sum = 282402812 ∧
    (nutTerms.reverse.map fun r => amplitude r.e).sum = 101006828 ∧
    (nutTerms.reverse.map fun r => amplitude r.e * weight r.fa).sum = 138338728 := by
  decide +kernel

private theorem fold_fst {sn cs : ℝ → ℝ} {t : ℝ} {A : List ℝ} (L : List NutTerm) (st : ℝ × ℝ) :
    L.foldl (nutStep R sn cs t A) st =
      (L.foldl (fun x r => R (x + nutIncr R t (cs (nutTheta R r.fa A)) (sn (nutTheta R r.fa A)) r.p)) st.1,
       L.foldl (fun x r => R (x + nutIncr R t (cs (nutTheta R r.fa A)) (sn (nutTheta R r.fa A)) r.e)) st.2) := by
  induction L generalizing st with
  | nil => rfl
  | cons r L ih => rw [List.foldl_cons, ih]; rfl

private theorem fold_exact {T : ℝ} {A : List ℝ} (L : List NutTerm) (st : ℝ × ℝ) :
    L.foldl (Sla.nutStep T A) st =
      (L.foldl (fun x r => x + ((tenth r.p.1 + tenth r.p.2.2.1 * T) * Real.cos (Sla.nutTheta r.fa A) +
        (tenth r.p.2.1 + tenth r.p.2.2.2 * T) * Real.sin (Sla.nutTheta r.fa A))) st.1,
       L.foldl (fun x r => x + ((tenth r.e.1 + tenth r.e.2.2.1 * T) * Real.cos (Sla.nutTheta r.fa A) +
        (tenth r.e.2.1 + tenth r.e.2.2.2 * T) * Real.sin (Sla.nutTheta r.fa A))) st.2) := by
  induction L generalizing st with
  | nil => rfl
  | cons r L ih => rw [List.foldl_cons, ih]; rfl

attribute [local irreducible] nutTerms in
/-- Both sums of the series, in microarcseconds. -/
theorem nutSeries_near (hR : Dbl R) {sn cs : ℝ → ℝ} (hs : ∀ x, |sn x - Real.sin x| ≤ 2e-16)
    (hc : ∀ x, |cs x - Real.cos x| ≤ 2e-16) {t T : ℝ} (ht : |t - T| ≤ 2.5e-15) (hT : |T| ≤ 10) {x X : ℝ} (hx : |x - X| ≤ 1e-6)
    (hX : |X| ≤ 200) :
    let d := nutTerms.reverse.foldl (nutStep R sn cs t (nutAngles R t)) (x, 0)
    let D := nutTerms.reverse.foldl (Sla.nutStep T (Sla.nutAngles T)) (X, 0)
    |d.1 - D.1| ≤ 1.53e-3 ∧ |d.2 - D.2| ≤ 7.5e-4 := by
  obtain ⟨t1, t2, t3, t4, t5, t6⟩ := tables
  rw [fold_fst, fold_exact]
  have h1 := series_near hR hs hc ht hT NutTerm.p nutTerms.reverse t1 hx
  have h2 := series_near hR hs hc ht hT NutTerm.e nutTerms.reverse t1 (x := 0) (X := 0) (E := 0) (by simp)
  rw [t3, t4, t2] at h1
  rw [t5, t6, t2] at h2
  refine ⟨(h1 (by norm_num; linarith) (by norm_num)).trans (by norm_num), (h2 (by norm_num) (by norm_num)).trans (by norm_num)⟩

end Sla.Fp
