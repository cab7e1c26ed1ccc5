import Verif.Model.Nut80
import Verif.Props.Precession

/-
Property theorems C72: the IAU 1980 nutation, and its agreement with the newer theory of `nutc`.
-/
namespace Sla.Props
open Real (pi)

/-! ## The series -/

/-- The fundamental arguments of the IAU 1980 theory, not reduced to one turn, in radians. -/
noncomputable def arguments80 (T : ℝ) : List ℝ :=
  [485866.733 + (1325 * 1296000 + 715922.633) * T + 31.310 * T ^ 2 + 0.064 * T ^ 3,
   1287099.804 + (99 * 1296000 + 1292581.224) * T - 0.577 * T ^ 2 - 0.012 * T ^ 3,
   335778.877 + (1342 * 1296000 + 295263.137) * T - 13.257 * T ^ 2 + 0.011 * T ^ 3,
   1072261.307 + (1236 * 1296000 + 1105601.328) * T - 6.891 * T ^ 2 + 0.019 * T ^ 3,
   450160.280 - (5 * 1296000 + 482890.539) * T + 7.455 * T ^ 2 + 0.008 * T ^ 3].map
    fun q : ℝ => q / 3600 * (pi / 180)

/-- Argument of a term: the integer combination of the fundamental arguments. -/
noncomputable def combination (fa : List Int) (args : List ℝ) : ℝ :=
  (List.zipWith (fun (k : Int) x => (k : ℝ) * x) fa args).sum

private theorem drange_cong {a b : ℝ} (h : a = b) : Cong (drange a) b := by
  obtain ⟨-, -, ⟨k, hk⟩, -, -⟩ := C15_drange a
  exact ⟨k, by rw [hk, h]; ring⟩

private theorem angles80_cong (T : ℝ) : List.Forall₂ Cong (nut80Angles T) (arguments80 T) := by
  unfold nut80Angles arguments80 as2r
  simp only [List.map_cons, List.map_nil]
  repeat' first | apply List.Forall₂.cons | apply List.Forall₂.nil
  all_goals exact drange_cong (by ring)

private theorem foldl80 (T : ℝ) (L : List Nut80Term) (st : ℝ × ℝ) :
    L.foldl (nut80Step T (nut80Angles T)) st =
    (st.1 + (L.map fun r => (r.p.1 + r.p.2 * T) * Real.sin (combination r.fa (arguments80 T)) / 10).sum,
     st.2 + (L.map fun r => (r.e.1 + r.e.2 * T) * Real.cos (combination r.fa (arguments80 T)) / 10).sum) := by
  induction L generalizing st with
  | nil => simp
  | cons r L ih =>
    rw [List.foldl_cons, ih]
    have hc : Cong (nutTheta r.fa (nut80Angles T)) (combination r.fa (arguments80 T)) := by
      have := theta_cong r.fa _ _ (angles80_cong T) 0 0 ⟨0, by simp⟩
      rwa [zero_add] at this
    obtain ⟨h1, h2⟩ := cos_cong hc
    simp only [List.map_cons, List.sum_cons]
    unfold nut80Step tenth
    simp only [h1, h2]
    refine Prod.ext ?_ ?_ <;> simp only <;> ring

attribute [local irreducible] nut80Terms in
/-- C72: at every date the components are the published trigonometric series in the unreduced arguments. -/
theorem C72_series (tdb : ℝ) :
    let T := (tdb - 51544.5) / 36525
    (nutc80 tdb).psi = (nut80Terms.map fun r =>
      (r.p.1 + r.p.2 * T) * Real.sin (combination r.fa (arguments80 T)) / 10).sum / 10000 / 3600 * (pi / 180) ∧
    (nutc80 tdb).eps = (nut80Terms.map fun r =>
      (r.e.1 + r.e.2 * T) * Real.cos (combination r.fa (arguments80 T)) / 10).sum / 10000 / 3600 * (pi / 180) := by
  intro T
  unfold nutc80
  simp only
  rw [foldl80]
  unfold as2r
  simp only [T]
  constructor <;> ring

private theorem sum80_sin (T : ℝ) (f : Nut80Term → ℝ) (hf : ∀ r, |f r| ≤ 1) (P : Nut80Term → Int × Int)
    (L : List Nut80Term) :
    |(L.map fun r => ((P r).1 + (P r).2 * T) * f r / 10).sum| ≤
      (((L.map fun r => |(P r).1|).sum : Int) : ℝ) / 10 + (((L.map fun r => |(P r).2|).sum : Int) : ℝ) / 10 * |T| := by
  induction L with
  | nil => simp
  | cons r L ih =>
    simp only [List.map_cons, List.sum_cons]
    refine (abs_add_le _ _).trans ?_
    have h1 : |(((P r).1 : ℝ) + (P r).2 * T) * f r / 10| ≤ |((P r).1 : ℝ)| / 10 + |((P r).2 : ℝ)| / 10 * |T| := by
      rw [abs_div, abs_mul, abs_of_pos (by norm_num : (0 : ℝ) < 10)]
      have := abs_add_le ((P r).1 : ℝ) ((P r).2 * T)
      rw [abs_mul] at this
      have h2 := mul_le_mul_of_nonneg_left (hf r) (abs_nonneg (((P r).1 : ℝ) + (P r).2 * T))
      linarith
    push_cast
    push_cast at ih
    linarith

private theorem table80_sums : (nut80Terms.map fun r => |r.p.1|).sum = 1943680 ∧
    (nut80Terms.map fun r => |r.p.2|).sum = 1823 ∧
    (nut80Terms.map fun r => |r.e.1|).sum = 1007620 ∧ (nut80Terms.map fun r => |r.e.2|).sum = 141 := by
  decide +kernel

private theorem scale80 {S B : ℝ} (h : |S| ≤ B * 10000) : |S / 10000 / 3600 * (pi / 180)| ≤ B / 3600 * (pi / 180) := by
  have hpi := Real.pi_pos
  have hc : (0 : ℝ) < 1 / 10000 / 3600 * (pi / 180) := by positivity
  have e1 : S / 10000 / 3600 * (pi / 180) = S * (1 / 10000 / 3600 * (pi / 180)) := by ring
  have e2 : B / 3600 * (pi / 180) = B * 10000 * (1 / 10000 / 3600 * (pi / 180)) := by ring
  rw [e1, e2, abs_mul, abs_of_pos hc]
  exact mul_le_mul_of_nonneg_right h hc.le

/-- C72: the components are small at every date. -/
theorem C72_bounded (tdb : ℝ) :
    let t := |(tdb - 51544.5) / 36525|
    |(nutc80 tdb).psi| ≤ (19.4368 + 0.01823 * t) / 3600 * (pi / 180) ∧
    |(nutc80 tdb).eps| ≤ (10.0762 + 0.00141 * t) / 3600 * (pi / 180) := by
  intro t
  obtain ⟨e1, e2⟩ := C72_series tdb
  obtain ⟨s1, s2, s3, s4⟩ := table80_sums
  have b1 := sum80_sin ((tdb - 51544.5) / 36525)
    (fun r => Real.sin (combination r.fa (arguments80 ((tdb - 51544.5) / 36525)))) (fun r => Real.abs_sin_le_one _)
    (fun r => r.p) nut80Terms
  have b2 := sum80_sin ((tdb - 51544.5) / 36525)
    (fun r => Real.cos (combination r.fa (arguments80 ((tdb - 51544.5) / 36525)))) (fun r => Real.abs_cos_le_one _)
    (fun r => r.e) nut80Terms
  rw [s1, s2] at b1
  rw [s3, s4] at b2
  rw [e1, e2]
  exact ⟨scale80 (b1.trans (le_of_eq (by push_cast; ring))) , scale80 (b2.trans (le_of_eq (by push_cast; ring)))⟩

/-! ## Agreement with the newer theory -/

/-- Change the sign of the argument of a row. -/
private def flip (r : Nut80Term) : Nut80Term := ⟨r.fa.map fun k => -k, (-r.p.1, -r.p.2), r.e⟩

/-- Is the first non-zero multiplier negative? -/
private def negFirst : List Int → Bool
  | [] => false
  | k :: l => if k = 0 then negFirst l else decide (k < 0)

private def canon (r : Nut80Term) : Nut80Term := if negFirst r.fa then flip r else r

/-- The row of the IAU 1980 table with the given argument (zero coefficients if there is none). -/
private def look (fa : List Int) : Nut80Term :=
  match nut80Terms.find? (fun r => decide (r.fa = fa)) with
  | some r => r
  | none =>
    match nut80Terms.find? (fun r => decide (r.fa = fa.map fun k => -k)) with
    | some r => flip r
    | none => ⟨fa, (0, 0), (0, 0)⟩

/-- The row of the IAU 1980 table that corresponds to a term of the newer table. -/
private def partner (r : NutTerm) : Nut80Term :=
  if r.fa.drop 5 = [0, 0, 0, 0] then look (r.fa.take 5) else ⟨[0, 0, 0, 0, 0], (0, 0), (0, 0)⟩

private def nonzero (r : Nut80Term) : Bool := !(decide (r.p = (0, 0)) && decide (r.e = (0, 0)))

/-- Every row of the IAU 1980 table has exactly one partner. -/
private theorem partners : (((nutTerms.map partner).map canon).filter nonzero).isPerm (nut80Terms.map canon) = true := by
  decide +kernel

/-- Largest differences between the two sets of fundamental arguments, 1900-2100, in units of 0.01 arcsecond. -/
private def argDiff : List Int := [280, 540, 150, 130, 15]

private def weight (fa : List Int) : Int := (List.zipWith (fun k d => |k| * d) fa argDiff).sum

private def Shaped (r : NutTerm) : Bool :=
  !(nonzero (partner r)) || (decide (r.fa = (partner r).fa ++ [0, 0, 0, 0]) && decide ((partner r).fa.length = 5))

private theorem shaped : nutTerms.all Shaped = true := by decide +kernel

private theorem diff_sums :
    (nutTerms.map fun r => |r.p.1| + |r.p.2.1 - 100 * (partner r).p.1|).sum = 291262 ∧
    (nutTerms.map fun r => |r.p.2.2.1| + |r.p.2.2.2 - 100 * (partner r).p.2|).sum = 2254 ∧
    (nutTerms.map fun r => |r.e.2.1| + |r.e.1 - 100 * (partner r).e.1|).sum = 129244 ∧
    (nutTerms.map fun r => |r.e.2.2.2| + |r.e.2.2.1 - 100 * (partner r).e.2|).sum = 916 ∧
    (nutTerms.map fun r => (|(partner r).p.1| + |(partner r).p.2|) * weight (partner r).fa).sum ≤ 141041165 ∧
    (nutTerms.map fun r => (|(partner r).e.1| + |(partner r).e.2|) * weight (partner r).fa).sum ≤ 59229495 := by
  decide +kernel

private theorem combination_neg (fa : List Int) (A : List ℝ) :
    combination (fa.map fun k => -k) A = -combination fa A := by
  unfold combination
  induction fa generalizing A with
  | nil => simp
  | cons k fa ih =>
    cases A with
    | nil => simp
    | cons a A =>
      simp only [List.map_cons, List.zipWith_cons_cons, List.sum_cons, ih A]
      push_cast; ring

/-- Values of the terms of the IAU 1980 table. -/
private noncomputable def vp (T : ℝ) (A : List ℝ) (q : Nut80Term) : ℝ := (q.p.1 + q.p.2 * T) * Real.sin (combination q.fa A)
private noncomputable def ve (T : ℝ) (A : List ℝ) (q : Nut80Term) : ℝ := (q.e.1 + q.e.2 * T) * Real.cos (combination q.fa A)

private theorem v_canon (T : ℝ) (A : List ℝ) (q : Nut80Term) : vp T A (canon q) = vp T A q ∧ ve T A (canon q) = ve T A q := by
  unfold canon
  split_ifs
  · unfold vp ve flip
    simp only [combination_neg, Real.sin_neg, Real.cos_neg]
    push_cast
    exact ⟨by ring, trivial⟩
  · exact ⟨rfl, rfl⟩

private theorem v_zero (T : ℝ) (A : List ℝ) (q : Nut80Term) (h : nonzero q = false) : vp T A q = 0 ∧ ve T A q = 0 := by
  unfold nonzero at h
  simp only [Bool.not_eq_false', Bool.and_eq_true, decide_eq_true_eq] at h
  unfold vp ve
  rw [h.1, h.2]; simp

private theorem sum_filter (v : Nut80Term → ℝ) (hv : ∀ q, nonzero q = false → v q = 0) (L : List Nut80Term) :
    ((L.filter nonzero).map v).sum = (L.map v).sum := by
  induction L with
  | nil => rfl
  | cons q L ih =>
    rw [List.filter_cons]
    split_ifs with h
    · simp [ih]
    · simp [ih, hv q (by simpa using h)]

private theorem sum_partner (v : Nut80Term → ℝ) (hv : ∀ q, nonzero q = false → v q = 0) (hc : ∀ q, v (canon q) = v q) :
    (nutTerms.map fun r => v (partner r)).sum = (nut80Terms.map v).sum := by
  have hp := List.isPerm_iff.1 partners
  have h1 := (hp.map v).sum_eq
  rw [sum_filter v hv] at h1
  simp only [List.map_map, Function.comp_def, hc] at h1
  exact h1

private theorem sin_diff (x y : ℝ) : |Real.sin x - Real.sin y| ≤ |x - y| := by
  rw [Real.sin_sub_sin, abs_mul, abs_mul, abs_of_pos (by norm_num : (0 : ℝ) < 2)]
  have h1 : |Real.sin ((x - y) / 2)| ≤ |(x - y) / 2| := Real.abs_sin_le_abs
  have h2 := Real.abs_cos_le_one ((x + y) / 2)
  have h3 : |(x - y) / 2| = |x - y| / 2 := by rw [abs_div, abs_of_pos (by norm_num : (0 : ℝ) < 2)]
  have h4 := abs_nonneg (Real.sin ((x - y) / 2))
  nlinarith [abs_nonneg (Real.cos ((x + y) / 2))]

private theorem cos_diff (x y : ℝ) : |Real.cos x - Real.cos y| ≤ |x - y| := by
  have := sin_diff (x + pi / 2) (y + pi / 2)
  rw [Real.sin_add_pi_div_two, Real.sin_add_pi_div_two] at this
  convert this using 2; ring

/-- One hundredth of an arcsecond in radians. -/
private noncomputable def cas : ℝ := 0.01 / 3600 * (pi / 180)

private theorem cas_pos : 0 < cas := by
  have := Real.pi_pos
  unfold cas; positivity

private theorem mul_diff (k : Int) (a b d : ℝ) (h : |a - b| ≤ d) : |(k : ℝ) * a - k * b| ≤ ((|k| : Int) : ℝ) * d := by
  rw [← mul_sub, abs_mul]; push_cast
  exact mul_le_mul_of_nonneg_left h (abs_nonneg _)

private theorem args_diff (T : ℝ) (hT : |T| ≤ 1) : ∃ a b c d e a' b' c' d' e' u v w x : ℝ,
    fundamentalArguments T = [a, b, c, d, e, u, v, w, x] ∧ arguments80 T = [a', b', c', d', e'] ∧
    |a - a'| ≤ 280 * cas ∧ |b - b'| ≤ 540 * cas ∧ |c - c'| ≤ 150 * cas ∧ |d - d'| ≤ 130 * cas ∧
    |e - e'| ≤ 15 * cas := by
  unfold fundamentalArguments arguments80
  simp only [List.map_cons, List.map_nil]
  refine ⟨_, _, _, _, _, _, _, _, _, _, _, _, _, _, rfl, rfl, ?_⟩
  have hpi := Real.pi_pos
  have key : ∀ c x y : ℝ, (∀ z, z = (x - y) * 3600 → |z| ≤ 0.01 * c) → |x * (pi / 180) - y * (pi / 180)| ≤ c * cas := by
    intro c x y h
    have h := h _ rfl
    have e1 : x * (pi / 180) - y * (pi / 180) = ((x - y) * 3600) * (1 / 3600 * (pi / 180)) := by ring
    rw [e1, abs_mul, abs_of_pos (by positivity : 0 < 1 / 3600 * (pi / 180))]
    refine (mul_le_mul_of_nonneg_right h (by positivity)).trans (le_of_eq ?_)
    unfold cas; ring
  obtain ⟨hl, hu⟩ := abs_le.1 hT
  have h2 : 0 ≤ T ^ 2 ∧ T ^ 2 ≤ 1 := ⟨by positivity, by nlinarith⟩
  have h3 : -1 ≤ T ^ 3 ∧ T ^ 3 ≤ 1 := ⟨by nlinarith, by nlinarith⟩
  have h4 : 0 ≤ T ^ 4 ∧ T ^ 4 ≤ 1 := ⟨by positivity, by nlinarith⟩
  refine ⟨?_, ?_, ?_, ?_, ?_⟩ <;>
  · apply key
    intro z hz
    ring_nf at hz
    rw [abs_le]
    constructor <;> linarith

private theorem theta_diff (T : ℝ) (hT : |T| ≤ 1) (fa : List Int) (hl : fa.length = 5) :
    |combination (fa ++ [0, 0, 0, 0]) (fundamentalArguments T) - combination fa (arguments80 T)| ≤ (weight fa : ℝ) * cas := by
  obtain ⟨a, b, c, d, e, a', b', c', d', e', u, v, w, x, h1, h2, ha, hb, hc, hd, he⟩ := args_diff T hT
  rw [h1, h2]
  match fa, hl with
  | [k1, k2, k3, k4, k5], _ =>
    unfold combination weight argDiff
    simp only [List.cons_append, List.nil_append, List.zipWith_cons_cons, List.sum_cons,
      List.sum_nil, List.zipWith_nil_right]
    have e1 := mul_diff k1 _ _ _ ha
    have e2 := mul_diff k2 _ _ _ hb
    have e3 := mul_diff k3 _ _ _ hc
    have e4 := mul_diff k4 _ _ _ hd
    have e5 := mul_diff k5 _ _ _ he
    push_cast at e1 e2 e3 e4 e5 ⊢
    rw [abs_le] at *
    constructor <;> linarith

/-- Difference of corresponding terms; `f` is the function (sine or cosine) of the older table, `g` the other. -/
private theorem term_diff (T x y w : ℝ) (hT : |T| ≤ 1) (a b c d p s : Int) (f : ℝ → ℝ) (hf1 : ∀ x, |f x| ≤ 1)
    (hf : (p ≠ 0 ∨ s ≠ 0) → |f x - f y| ≤ w) (g : ℝ) (hg : |g| ≤ 1) :
    |((a + c * T) * g + (b + d * T) * f x) - 100 * ((p + s * T) * f y)| ≤
      ((|a| + |b - 100 * p| + (|c| + |d - 100 * s|) : Int) : ℝ) + 100 * ((|p| + |s| : Int) : ℝ) * w := by
  have e : ((a + c * T) * g + (b + d * T) * f x) - 100 * ((p + s * T) * f y) =
      a * g + c * T * g + (b - 100 * p) * f x + (d - 100 * s) * T * f x + 100 * (p + s * T) * (f x - f y) := by ring
  have m2 : ∀ u v : ℝ, |v| ≤ 1 → |u * v| ≤ |u| := fun u v h => by
    rw [abs_mul]; exact mul_le_of_le_one_right (abs_nonneg _) h
  have m3 : ∀ u v z : ℝ, |v| ≤ 1 → |z| ≤ 1 → |u * v * z| ≤ |u| := fun u v z h h' => (m2 _ _ h').trans (m2 _ _ h)
  have last : |100 * (p + s * T) * (f x - f y)| ≤ 100 * (|(p : ℝ)| + |(s : ℝ)|) * w := by
    by_cases hz : p ≠ 0 ∨ s ≠ 0
    · rw [abs_mul, abs_mul, abs_of_pos (by norm_num : (0 : ℝ) < 100)]
      have := abs_add_le (p : ℝ) (s * T)
      have := m2 (s : ℝ) T hT
      exact mul_le_mul (by linarith) (hf hz) (abs_nonneg _) (by positivity)
    · push Not at hz
      rw [hz.1, hz.2]; simp
  rw [e]
  push_cast
  have h1 := m2 (a : ℝ) g hg
  have h2 := m3 (c : ℝ) T g hT hg
  have h3 := m2 ((b : ℝ) - 100 * p) (f x) (hf1 x)
  have h4 := m3 ((d : ℝ) - 100 * s) T (f x) hT (hf1 x)
  rw [abs_le] at *
  constructor <;> linarith

private theorem sum_diff (X Y : NutTerm → ℝ) (B : NutTerm → ℝ) (h : ∀ r ∈ nutTerms, |X r - 100 * Y r| ≤ B r) :
    |(nutTerms.map X).sum - 100 * (nutTerms.map Y).sum| ≤ (nutTerms.map B).sum := by
  revert h
  generalize nutTerms = L
  intro h
  induction L with
  | nil => simp
  | cons r L ih =>
    simp only [List.map_cons, List.sum_cons]
    have h1 := h r List.mem_cons_self
    have h2 := ih fun r hr => h r (List.mem_cons_of_mem _ hr)
    rw [abs_le] at *
    constructor <;> linarith

private theorem cast_sum (f g : NutTerm → Int) (h : NutTerm → Int) (k : NutTerm → Int) (u : ℝ) (L : List NutTerm) :
    (L.map fun r => ((f r + g r : Int) : ℝ) + 100 * (h r : ℝ) * ((k r : ℝ) * u)).sum =
    (((L.map f).sum : Int) : ℝ) + (((L.map g).sum : Int) : ℝ) + 100 * (((L.map fun r => h r * k r).sum : Int) : ℝ) * u := by
  induction L with
  | nil => simp
  | cons r L ih =>
    simp only [List.map_cons, List.sum_cons, ih]
    push_cast; ring

private theorem partner_shape (r : NutTerm) (hr : r ∈ nutTerms) (hn : nonzero (partner r) = true) :
    r.fa = (partner r).fa ++ [0, 0, 0, 0] ∧ (partner r).fa.length = 5 := by
  have := List.all_eq_true.1 shaped r hr
  unfold Shaped at this
  simpa [hn] using this

private theorem nonzero_of (q : Nut80Term) (h : (q.p.1 ≠ 0 ∨ q.p.2 ≠ 0) ∨ (q.e.1 ≠ 0 ∨ q.e.2 ≠ 0)) : nonzero q = true := by
  unfold nonzero
  rcases q with ⟨fa, ⟨p, s⟩, ⟨e, z⟩⟩
  simp only [Prod.mk.injEq] at *
  grind

private theorem pull {α : Type} (f : α → ℝ) (L : List α) : (L.map fun r => f r / 10).sum = (L.map f).sum / 10 := by
  induction L with
  | nil => simp
  | cons r L ih => simp only [List.map_cons, List.sum_cons, ih]; ring

private theorem swap (T : ℝ) (L : List NutTerm) :
    (L.map fun r => (r.e.2.1 + r.e.2.2.2 * T) * Real.sin (termArgument r T) +
      (r.e.1 + r.e.2.2.1 * T) * Real.cos (termArgument r T)).sum =
    (L.map fun r => (r.e.1 + r.e.2.2.1 * T) * Real.cos (termArgument r T) +
        (r.e.2.1 + r.e.2.2.2 * T) * Real.sin (termArgument r T)).sum := by
  congr 1; apply List.map_congr_left; intro r _; ring

private theorem fin80 (x B : ℝ) (hx : |x| ≤ B) : |x / 3600 * (pi / 180)| ≤ B / 3600 * (pi / 180) := by
  have := Real.pi_pos
  have hc : (0 : ℝ) < 1 / 3600 * (pi / 180) := by positivity
  have q1 : x / 3600 * (pi / 180) = x * (1 / 3600 * (pi / 180)) := by ring
  have q2 : B / 3600 * (pi / 180) = B * (1 / 3600 * (pi / 180)) := by ring
  rw [q1, q2, abs_mul, abs_of_pos hc]
  exact mul_le_mul_of_nonneg_right hx hc.le

attribute [local irreducible] nutTerms nut80Terms in
/-- C72: for dates 1900-2100 the two nutation theories agree, apart from the documented correction of the precession
    rate, to 0.0296 arcsec in longitude and 0.0131 arcsec in obliquity. -/
theorem C72_agreement (tdb : ℝ) (h : |tdb - 51544.5| ≤ 36525) :
    let T := (tdb - 51544.5) / 36525
    |(nutc tdb).psi - (nutc80 tdb).psi - (-0.042888 - 0.29856 * T) / 3600 * (pi / 180)| ≤ 0.0296 / 3600 * (pi / 180) ∧
    |(nutc tdb).eps - (nutc80 tdb).eps - (-0.005171 - 0.02408 * T) / 3600 * (pi / 180)| ≤ 0.0131 / 3600 * (pi / 180) := by
  intro T
  have hT : |T| ≤ 1 := by
    simp only [T]; rw [abs_div, abs_of_pos (by norm_num : (0 : ℝ) < 36525), div_le_one (by norm_num)]; exact h
  obtain ⟨e1, e2⟩ := C61_nutation_series tdb
  obtain ⟨f1, f2⟩ := C72_series tdb
  obtain ⟨s1, s2, s3, s4, s5, s6⟩ := diff_sums
  have hpi := Real.pi_pos
  have hcas := cas_pos
  have hcas' : cas < 0.00000004849 := by
    have := Real.pi_lt_d4
    unfold cas; linarith
  -- longitude
  have d1 := sum_diff
    (fun r => (r.p.1 + r.p.2.2.1 * T) * Real.cos (termArgument r T) + (r.p.2.1 + r.p.2.2.2 * T) * Real.sin (termArgument r T))
    (fun r => vp T (arguments80 T) (partner r))
    (fun r => (((|r.p.1| + |r.p.2.1 - 100 * (partner r).p.1|) + (|r.p.2.2.1| + |r.p.2.2.2 - 100 * (partner r).p.2|) : Int) : ℝ) +
      100 * ((|(partner r).p.1| + |(partner r).p.2| : Int) : ℝ) * ((weight (partner r).fa : ℝ) * cas))
    (fun r hr => term_diff T _ _ _ hT _ _ _ _ _ _ Real.sin Real.abs_sin_le_one (fun hz => (sin_diff _ _).trans (by
      obtain ⟨q1, q2⟩ := partner_shape r hr (nonzero_of _ (Or.inl hz))
      have := theta_diff T hT _ q2
      rw [← q1] at this
      exact this)) _ (Real.abs_cos_le_one _))
  rw [cast_sum, s1, s2, sum_partner _ (fun q hq => (v_zero T _ q hq).1) (fun q => (v_canon T _ q).1)] at d1
  -- obliquity
  have d2 := sum_diff
    (fun r => (r.e.2.1 + r.e.2.2.2 * T) * Real.sin (termArgument r T) + (r.e.1 + r.e.2.2.1 * T) * Real.cos (termArgument r T))
    (fun r => ve T (arguments80 T) (partner r))
    (fun r => (((|r.e.2.1| + |r.e.1 - 100 * (partner r).e.1|) + (|r.e.2.2.2| + |r.e.2.2.1 - 100 * (partner r).e.2|) : Int) : ℝ) +
      100 * ((|(partner r).e.1| + |(partner r).e.2| : Int) : ℝ) * ((weight (partner r).fa : ℝ) * cas))
    (fun r hr => term_diff T _ _ _ hT _ _ _ _ _ _ Real.cos Real.abs_cos_le_one (fun hz => (cos_diff _ _).trans (by
      obtain ⟨q1, q2⟩ := partner_shape r hr (nonzero_of _ (Or.inr hz))
      have := theta_diff T hT _ q2
      rw [← q1] at this
      exact this)) _ (Real.abs_sin_le_one _))
  rw [cast_sum, s3, s4, sum_partner _ (fun q hq => (v_zero T _ q hq).2) (fun q => (v_canon T _ q).2)] at d2
  have s5' : (((nutTerms.map fun r => (|(partner r).p.1| + |(partner r).p.2|) * weight (partner r).fa).sum : Int) : ℝ) ≤
      141041165 := by exact_mod_cast s5
  have s6' : (((nutTerms.map fun r => (|(partner r).e.1| + |(partner r).e.2|) * weight (partner r).fa).sum : Int) : ℝ) ≤
      59229495 := by exact_mod_cast s6
  have w1 := mul_le_mul_of_nonneg_right s5' hcas.le
  have w2 := mul_le_mul_of_nonneg_right s6' hcas.le
  generalize (((nutTerms.map fun r => (|(partner r).p.1| + |(partner r).p.2|) * weight (partner r).fa).sum : Int) : ℝ) = W1 at *
  generalize (((nutTerms.map fun r => (|(partner r).e.1| + |(partner r).e.2|) * weight (partner r).fa).sum : Int) : ℝ) = W2 at *
  push_cast at d1 d2
  have g1 := Real.abs_sin_le_one ((fundamentalArguments T).getD 1 0)
  have g2 := Real.abs_sin_le_one (2 * (fundamentalArguments T).getD 1 0)
  rw [swap] at d2
  rw [pull] at e1 e2 f1 f2
  change |_ - 100 * (nut80Terms.map fun q => (q.p.1 + q.p.2 * T) * Real.sin (combination q.fa (arguments80 T))).sum| ≤ _ at d1
  change |_ - 100 * (nut80Terms.map fun q => (q.e.1 + q.e.2 * T) * Real.cos (combination q.fa (arguments80 T))).sum| ≤ _ at d2
  rw [e1, e2, f1, f2]
  generalize (nutTerms.map (_ : NutTerm → ℝ)).sum = X1 at *
  generalize (nutTerms.map (_ : NutTerm → ℝ)).sum = X2 at *
  generalize (nut80Terms.map (_ : Nut80Term → ℝ)).sum = Y1 at *
  generalize (nut80Terms.map (_ : Nut80Term → ℝ)).sum = Y2 at *
  generalize Real.sin ((fundamentalArguments T).getD 1 0) = a1 at *
  generalize Real.sin (2 * (fundamentalArguments T).getD 1 0) = a2 at *
  change |((X1 / 10 - 153.1 * a1 - 1.9 * a2) / 1000000 - 0.042888 - 0.29856 * T) / 3600 * (pi / 180) -
    Y1 / 10 / 10000 / 3600 * (pi / 180) - _| ≤ _ ∧ |(X2 / 10 / 1000000 - 0.005171 - 0.02408 * T) / 3600 * (pi / 180) -
    Y2 / 10 / 10000 / 3600 * (pi / 180) - _| ≤ _
  rw [abs_le] at d1 d2 g1 g2
  constructor
  · refine le_trans (le_of_eq (congrArg abs ?_)) (fin80 (((X1 - 100 * Y1) / 10 - 153.1 * a1 - 1.9 * a2) / 1000000) _ ?_)
    · ring
    · rw [abs_le]; constructor <;> linarith
  · refine le_trans (le_of_eq (congrArg abs ?_)) (fin80 ((X2 - 100 * Y2) / 10 / 1000000) _ ?_)
    · ring
    · rw [abs_le]; constructor <;> linarith

/-- C72: the mean obliquity of `nutc80` is the one `ecmat` turns by, at every date, and for dates 1900-2100 within
    0.0424 arcsec of that of `nutc`. -/
theorem C72_obliquity (tdb : ℝ) : ecmat tdb = deuler ['X'] (nutc80 tdb).eps0 0 0 ∧
    (|tdb - 51544.5| ≤ 36525 → |(nutc tdb).eps0 - (nutc80 tdb).eps0| ≤ 0.0424 / 3600 * (pi / 180)) := by
  refine ⟨rfl, fun h => ?_⟩
  have hT : |(tdb - 51544.5) / 36525| ≤ 1 := by
    rw [abs_div, abs_of_pos (by norm_num : (0 : ℝ) < 36525), div_le_one (by norm_num)]; exact h
  change |(84381.412 + (-46.80927 + (-0.000152 + (0.0019989 + (-0.00000051 + -0.000000025 * ((tdb - 51544.5) / 36525)) *
    ((tdb - 51544.5) / 36525)) * ((tdb - 51544.5) / 36525)) * ((tdb - 51544.5) / 36525)) *
    ((tdb - 51544.5) / 36525)) * as2r - as2r * (84381.448 + (-46.8150 + (-0.00059 + 0.001813 *
    ((tdb - 51544.5) / 36525)) * ((tdb - 51544.5) / 36525)) * ((tdb - 51544.5) / 36525))| ≤ _
  generalize (tdb - 51544.5) / 36525 = T at *
  obtain ⟨hl, hu⟩ := abs_le.1 hT
  have h2 : 0 ≤ T ^ 2 ∧ T ^ 2 ≤ 1 := ⟨by positivity, by nlinarith⟩
  have h3 : -1 ≤ T ^ 3 ∧ T ^ 3 ≤ 1 := ⟨by nlinarith, by nlinarith⟩
  have h4 : 0 ≤ T ^ 4 ∧ T ^ 4 ≤ 1 := ⟨by positivity, by nlinarith⟩
  have h5 : -1 ≤ T ^ 5 ∧ T ^ 5 ≤ 1 := ⟨by nlinarith, by nlinarith⟩
  refine le_trans (le_of_eq (congrArg abs ?_)) (fin80 (-0.036 + 0.00573 * T + 0.000438 * T ^ 2 + 0.0001859 * T ^ 3 -
    0.00000051 * T ^ 4 - 0.000000025 * T ^ 5) _ ?_)
  · unfold as2r; ring
  · rw [abs_le]; constructor <;> linarith

/-- C72: the equation of the equinoxes is small at every date: at most 19.505" + 0.317" per century from J2000. -/
theorem C72_equinoxes (date : ℝ) :
    |eqeqx date| ≤ (19.505 + 0.317 * |(date - 51544.5) / 36525|) / 3600 * (pi / 180) := by
  obtain ⟨h, -⟩ := C61_nutation_bounded date
  unfold eqeqx
  simp only
  generalize as2r * (450160.280 + (-5 * 1296000 - 482890.539 + (7.455 + 0.008 * ((date - 51544.5) / 36525)) *
    ((date - 51544.5) / 36525)) * ((date - 51544.5) / 36525)) = om
  have h1 := Real.abs_cos_le_one (nutc date).eps0
  have h2 := Real.abs_sin_le_one om
  have h3 := Real.abs_sin_le_one (om + om)
  have h4 : |(nutc date).psi * Real.cos (nutc date).eps0| ≤ |(nutc date).psi| := by
    rw [abs_mul]; exact mul_le_of_le_one_right (abs_nonneg _) h1
  have h5 : |as2r * (0.00264 * Real.sin om + 0.000063 * Real.sin (om + om))| ≤ 0.0028 / 3600 * (pi / 180) := by
    have := fin80 (0.00264 * Real.sin om + 0.000063 * Real.sin (om + om)) 0.0028 (by
      rw [abs_le] at *; constructor <;> linarith)
    convert this using 2
    unfold as2r; ring
  refine (abs_add_le _ _).trans (((add_le_add (h4.trans h) h5)).trans (le_of_eq ?_))
  ring

/-- A date that meets the hypothesis of C72_agreement and C72_obliquity. -/
example : |(58849 : ℝ) - 51544.5| ≤ 36525 := by rw [abs_le]; constructor <;> norm_num

/-- The tables have the published numbers of terms. -/
example : nut80Terms.length = 106 ∧ nutTerms.length = 194 := by decide +kernel

end Sla.Props
