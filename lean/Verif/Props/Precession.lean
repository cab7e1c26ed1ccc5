import Verif.Model.Precession
import Verif.Props.Vectors
import Verif.Props.Angles

/-
Property theorems C24 (rotation matrices of precession, nutation, ecliptic) and C61 (nutation series).
-/
namespace Sla.Props
open Matrix Spec
open Real (pi)

/-! ## C24 -/

/-- C24: all six matrices are proper rotations, whatever the epochs. -/
theorem C24_rotations (a b : ℝ) : IsRotation (prec a b) ∧ IsRotation (precl a b) ∧ IsRotation (prebn a b) ∧
    IsRotation (nut a) ∧ IsRotation (prenut a b) ∧ IsRotation (ecmat a) := by
  have hn : ∀ a, IsRotation (nut a) := fun a => C23_rotation _ _ _ _
  have hp : ∀ a b, IsRotation (prec a b) := fun a b => C23_rotation _ _ _ _
  refine ⟨hp a b, C23_rotation _ _ _ _, C23_rotation _ _ _ _, hn a, ?_, C23_rotation _ _ _ _⟩
  unfold prenut
  rw [dmxm_eq]
  exact (hn b).mul (hp a (epj b))

/-- C24: no precession between equal epochs. -/
theorem C24_equal_epochs (a : ℝ) : prec a a = 1 ∧ precl a a = 1 ∧ prebn a a = 1 := by
  refine ⟨?_, ?_, ?_⟩
  · unfold prec; exact C23_identity _ _ _ _ (Or.inl ⟨by simp, by simp, by simp⟩)
  · unfold precl; exact C23_identity _ _ _ _ (Or.inl ⟨by simp, by simp, by simp⟩)
  · unfold prebn; exact C23_identity _ _ _ _ (Or.inl ⟨by simp, by simp, by simp⟩)

/-- C24: the combined matrix applies precession first and nutation second. -/
theorem C24_prenut (je mjd : ℝ) (v : Vec) : dmxv (prenut je mjd) v = dmxv (nut mjd) (dmxv (prec je (epj mjd)) v) :=
  C18_composition _ _ _

/-- C24: the ecliptic matrix turns the frame about the X axis (the equinox) by the mean obliquity. -/
theorem C24_ecmat (date : ℝ) (v : Vec) :
    let t := (date - 51544.5) / 36525
    dmxv (ecmat date) v = turnFrame ex
      ((84381.448 - 46.8150 * t - 0.00059 * t ^ 2 + 0.001813 * t ^ 3) / 3600 * (pi / 180)) v := by
  intro t
  unfold ecmat
  rw [C23_deuler]
  have : ecmatPhi date = (84381.448 - 46.8150 * t - 0.00059 * t ^ 2 + 0.001813 * t ^ 3) / 3600 * (pi / 180) := by
    unfold ecmatPhi as2r; simp only [t]; ring
  rw [← this]
  simp [turnSequence, axisOf]

/-- C24: the nutation matrix turns by the mean obliquity about X, by minus the nutation in longitude about Z, and
    back by the true obliquity about X. -/
theorem C24_nut (tdb : ℝ) (v : Vec) : dmxv (nut tdb) v =
    turnFrame ex (-((nutc tdb).eps0 + (nutc tdb).eps)) (turnFrame ez (-(nutc tdb).psi)
      (turnFrame ex (nutc tdb).eps0 v)) := by
  unfold nut; rw [C23_deuler]; simp [turnSequence, axisOf]

/-! ## C61 -/

/-- Bounds on the coefficients of a term: constant part and secular part, longitude and obliquity
    (0.1 microarcsecond). -/
private def pConst (r : NutTerm) : Int := |r.p.1| + |r.p.2.1|
private def pSec (r : NutTerm) : Int := |r.p.2.2.1| + |r.p.2.2.2|
private def eConst (r : NutTerm) : Int := |r.e.1| + |r.e.2.1|
private def eSec (r : NutTerm) : Int := |r.e.2.2.1| + |r.e.2.2.2|

private theorem term_bound (a b c d : Int) (t th : ℝ) :
    |(tenth a + tenth c * t) * Real.cos th + (tenth b + tenth d * t) * Real.sin th| ≤
      ((|a| + |b| : Int) : ℝ) / 10 + ((|c| + |d| : Int) : ℝ) / 10 * |t| := by
  have hc := Real.abs_cos_le_one th
  have hs := Real.abs_sin_le_one th
  unfold tenth
  have h1 : |((a : ℝ) / 10 + (c : ℝ) / 10 * t) * Real.cos th| ≤ |(a : ℝ)| / 10 + |(c : ℝ)| / 10 * |t| := by
    rw [abs_mul]
    calc _ ≤ |((a : ℝ) / 10 + (c : ℝ) / 10 * t)| * 1 := mul_le_mul_of_nonneg_left hc (abs_nonneg _)
      _ ≤ _ := by
        rw [mul_one]
        refine (abs_add_le _ _).trans ?_
        rw [abs_mul, abs_div, abs_div, abs_of_pos (by norm_num : (0:ℝ) < 10)]
  have h2 : |((b : ℝ) / 10 + (d : ℝ) / 10 * t) * Real.sin th| ≤ |(b : ℝ)| / 10 + |(d : ℝ)| / 10 * |t| := by
    rw [abs_mul]
    calc _ ≤ |((b : ℝ) / 10 + (d : ℝ) / 10 * t)| * 1 := mul_le_mul_of_nonneg_left hs (abs_nonneg _)
      _ ≤ _ := by
        rw [mul_one]
        refine (abs_add_le _ _).trans ?_
        rw [abs_mul, abs_div, abs_div, abs_of_pos (by norm_num : (0:ℝ) < 10)]
  refine (abs_add_le _ _).trans ((add_le_add h1 h2).trans (le_of_eq ?_))
  push_cast; ring

private theorem series_bound (t : ℝ) (ang : List ℝ) (L : List NutTerm) (st : ℝ × ℝ) :
    |(L.foldl (nutStep t ang) st).1| ≤ |st.1| + (((L.map pConst).sum : Int) : ℝ) / 10 +
      (((L.map pSec).sum : Int) : ℝ) / 10 * |t| ∧
    |(L.foldl (nutStep t ang) st).2| ≤ |st.2| + (((L.map eConst).sum : Int) : ℝ) / 10 +
      (((L.map eSec).sum : Int) : ℝ) / 10 * |t| := by
  induction L generalizing st with
  | nil => simp
  | cons r L ih =>
    rw [List.foldl_cons]
    obtain ⟨h1, h2⟩ := ih (nutStep t ang st r)
    simp only [List.map_cons, List.sum_cons]
    have k1 : |(nutStep t ang st r).1| ≤ |st.1| + ((pConst r : Int) : ℝ) / 10 + ((pSec r : Int) : ℝ) / 10 * |t| := by
      unfold nutStep
      refine (abs_add_le _ _).trans ?_
      have := term_bound r.p.1 r.p.2.1 r.p.2.2.1 r.p.2.2.2 t (nutTheta r.fa ang)
      unfold pConst pSec
      linarith
    have k2 : |(nutStep t ang st r).2| ≤ |st.2| + ((eConst r : Int) : ℝ) / 10 + ((eSec r : Int) : ℝ) / 10 * |t| := by
      unfold nutStep
      refine (abs_add_le _ _).trans ?_
      have := term_bound r.e.1 r.e.2.1 r.e.2.2.1 r.e.2.2.2 t (nutTheta r.fa ang)
      unfold eConst eSec
      linarith
    constructor
    · refine h1.trans ?_; push_cast; linarith
    · refine h2.trans ?_; push_cast; linarith

private theorem table_sums : (nutTerms.reverse.map pConst).sum = 194591524 ∧ (nutTerms.reverse.map pSec).sum = 183910 ∧
    (nutTerms.reverse.map eConst).sum = 100860148 ∧ (nutTerms.reverse.map eSec).sum = 14668 := by
  decide +kernel

attribute [local irreducible] nutTerms in
private theorem nutc_eq (tdb : ℝ) :
    let T := (tdb - 51544.5) / 36525
    let ms := (nutAngles T).getD 1 0
    let d := nutTerms.reverse.foldl (nutStep T (nutAngles T)) (-153.1 * Real.sin ms - 1.9 * Real.sin (2 * ms), 0)
    (nutc tdb).psi = (d.1 * 1e-6 - 0.042888 - 0.29856 * T) * as2r ∧
    (nutc tdb).eps = (d.2 * 1e-6 - 0.005171 - 0.02408 * T) * as2r := by
  intro T ms d
  have : (1e-6 : ℝ) = 1.0e-6 := by norm_num
  rw [this]
  unfold nutc
  exact ⟨rfl, rfl⟩

/-- C61: the nutation components are small at every date: at most 19.5022" + 0.317" per century from J2000 in
    longitude and 10.0912" + 0.0256" per century in obliquity. -/
theorem C61_nutation_bounded (tdb : ℝ) :
    let t := |(tdb - 51544.5) / 36525|
    |(nutc tdb).psi| ≤ (19.5022 + 0.317 * t) / 3600 * (pi / 180) ∧
    |(nutc tdb).eps| ≤ (10.0912 + 0.0256 * t) / 3600 * (pi / 180) := by
  intro t
  obtain ⟨e1, e2⟩ := nutc_eq tdb
  obtain ⟨s1, s2, s3, s4⟩ := table_sums
  rw [e1, e2]
  change |(_ : ℝ)| ≤ (19.5022 + 0.317 * |(tdb - 51544.5) / 36525|) / 3600 * (pi / 180) ∧
    |(_ : ℝ)| ≤ (10.0912 + 0.0256 * |(tdb - 51544.5) / 36525|) / 3600 * (pi / 180)
  generalize (tdb - 51544.5) / 36525 = T
  generalize hms : (nutAngles T).getD 1 0 = ms
  obtain ⟨b1, b2⟩ := series_bound T (nutAngles T) nutTerms.reverse
    (-153.1 * Real.sin ms - 1.9 * Real.sin (2 * ms), 0)
  rw [s1, s2] at b1
  rw [s3, s4] at b2
  generalize nutTerms.reverse.foldl (nutStep T (nutAngles T))
    (-153.1 * Real.sin ms - 1.9 * Real.sin (2 * ms), 0) = d at *
  have hdp : |(-153.1 * Real.sin ms - 1.9 * Real.sin (2 * ms) : ℝ)| ≤ 155 := by
    have h1 := Real.abs_sin_le_one ms
    have h2 := Real.abs_sin_le_one (2 * ms)
    rw [abs_le] at h1 h2 ⊢
    constructor <;> linarith
  have hpi := Real.pi_pos
  have has : 0 < as2r := by unfold as2r; positivity
  have has' : as2r = pi / 648000 := rfl
  have hT := abs_nonneg T
  have key : ∀ d a b A B : ℝ, |d| ≤ A + B * |T| → 0 ≤ a → 0 ≤ b →
      |(d * 1e-6 - a - b * T) * as2r| ≤ (A * 1e-6 + a + (B * 1e-6 + b) * |T|) * as2r := by
    intro d a b A B hd ha hb
    rw [abs_mul, abs_of_pos has]
    refine mul_le_mul_of_nonneg_right ?_ has.le
    have : |b * T| = b * |T| := by rw [abs_mul, abs_of_nonneg hb]
    have h := abs_le.1 (this.le)
    have hd' := abs_le.1 hd
    have m1 : (A + B * |T|) * 1e-6 = A * 1e-6 + B * 1e-6 * |T| := by ring
    rw [abs_le]; constructor <;> linarith
  have b1' : |d.1| ≤ 19459307.4 + 18391 * |T| := by
    refine b1.trans ?_
    have : |((-153.1 * Real.sin ms - 1.9 * Real.sin (2 * ms), 0) : ℝ × ℝ).1| ≤ 155 := hdp
    push_cast
    linarith
  have b2' : |d.2| ≤ 10086014.8 + 1466.8 * |T| := by
    refine b2.trans ?_
    simp only [abs_zero]
    push_cast
    linarith
  constructor
  · refine (key _ _ _ _ _ b1' (by norm_num) (by norm_num)).trans ?_
    have : (19.5022 + 0.317 * |T|) / 3600 * (pi / 180) = (19.5022 + 0.317 * |T|) * as2r := by rw [has']; ring
    rw [this]
    exact mul_le_mul_of_nonneg_right (by linarith) has.le
  · refine (key _ _ _ _ _ b2' (by norm_num) (by norm_num)).trans ?_
    have : (10.0912 + 0.0256 * |T|) / 3600 * (pi / 180) = (10.0912 + 0.0256 * |T|) * as2r := by rw [has']; ring
    rw [this]
    exact mul_le_mul_of_nonneg_right (by linarith) has.le

/-- The fundamental arguments without reduction to one turn, in radians (degrees plus arcseconds). -/
noncomputable def fundamentalArguments (T : ℝ) : List ℝ :=
  [(134.96340251, T * (1717915923.2178 + T * (31.8792 + T * (0.051635 + T * -0.00024470)))),
   (357.52910918, T * (129596581.0481 + T * (-0.5532 + T * (0.000136 + T * -0.00001149)))),
   (93.27209062, T * (1739527262.8478 + T * (-12.7512 + T * (-0.001037 + T * 0.00000417)))),
   (297.85019547, T * (1602961601.209 + T * (-6.3706 + T * (0.006539 + T * -0.00003169)))),
   (125.04455501, T * (-6962890.5431 + T * (7.4722 + T * (0.007702 + T * -0.00005939)))),
   (181.97980085, 210664136.433548 * T), (355.43299958, 68905077.493988 * T),
   (34.35151874, 10925660.377991 * T), (50.07744430, 4399609.855732 * T)].map
    fun q : ℝ × ℝ => (q.1 + q.2 / 3600) * (pi / 180)

/-- Argument of a term: the integer combination of the fundamental arguments. -/
noncomputable def termArgument (r : NutTerm) (T : ℝ) : ℝ :=
  (List.zipWith (fun (k : Int) x => (k : ℝ) * x) r.fa (fundamentalArguments T)).sum

private theorem nutAngle_eq (deg arcsec : ℝ) : ∃ k : Int, nutAngle deg arcsec = (deg + arcsec / 3600) * (pi / 180) + k * (2 * pi) := by
  refine ⟨-ctrunc (arcsec / 1296000), ?_⟩
  unfold nutAngle cfmod as2r
  push_cast; ring

/-- Equal up to whole turns. -/
def Cong (x y : ℝ) : Prop := ∃ k : Int, x = y + k * (2 * pi)

private theorem nutAngles_cong (T : ℝ) : List.Forall₂ Cong (nutAngles T) (fundamentalArguments T) := by
  unfold nutAngles fundamentalArguments
  simp only [List.map_cons, List.map_nil]
  repeat' first | apply List.Forall₂.cons | apply List.Forall₂.nil
  all_goals exact nutAngle_eq _ _

theorem theta_cong (fa : List Int) (a b : List ℝ) (h : List.Forall₂ Cong a b) (s s' : ℝ) (hs : Cong s s') :
    Cong ((fa.zip a).foldl (fun s p => s + (p.1 : ℝ) * p.2) s)
      (s' + (List.zipWith (fun (k : Int) x => (k : ℝ) * x) fa b).sum) := by
  induction fa generalizing a b s s' with
  | nil => simpa using hs
  | cons f fa ih =>
    cases h with
    | nil => simpa using hs
    | @cons x y a b hxy hab =>
      simp only [List.zip_cons_cons, List.foldl_cons, List.zipWith_cons_cons, List.sum_cons]
      have := ih a b hab (s + f * x) (s' + f * y) (by
        obtain ⟨k, hk⟩ := hs
        obtain ⟨m, hm⟩ := hxy
        exact ⟨k + f * m, by rw [hk, hm]; push_cast; ring⟩)
      rwa [add_assoc] at this

theorem cos_cong {x y : ℝ} (h : Cong x y) : Real.cos x = Real.cos y ∧ Real.sin x = Real.sin y := by
  obtain ⟨k, rfl⟩ := h
  exact ⟨Real.cos_add_int_mul_two_pi _ _, Real.sin_add_int_mul_two_pi _ _⟩

private theorem foldl_sum (T : ℝ) (L : List NutTerm) (st : ℝ × ℝ) :
    L.foldl (nutStep T (nutAngles T)) st =
    (st.1 + (L.map fun r => ((r.p.1 + r.p.2.2.1 * T) * Real.cos (termArgument r T) +
        (r.p.2.1 + r.p.2.2.2 * T) * Real.sin (termArgument r T)) / 10).sum,
     st.2 + (L.map fun r => ((r.e.1 + r.e.2.2.1 * T) * Real.cos (termArgument r T) +
        (r.e.2.1 + r.e.2.2.2 * T) * Real.sin (termArgument r T)) / 10).sum) := by
  induction L generalizing st with
  | nil => simp
  | cons r L ih =>
    rw [List.foldl_cons, ih]
    have hc : Cong (nutTheta r.fa (nutAngles T)) (termArgument r T) := by
      have := theta_cong r.fa _ _ (nutAngles_cong T) 0 0 ⟨0, by simp⟩
      rwa [zero_add] at this
    obtain ⟨h1, h2⟩ := cos_cong hc
    simp only [List.map_cons, List.sum_cons]
    unfold nutStep tenth
    simp only [h1, h2]
    refine Prod.ext ?_ ?_ <;> simp only <;> ring

/-- C61: reducing the fundamental arguments with fmod does not matter: at every date the components are the
    trigonometric series of the published form in the unreduced arguments. -/
theorem C61_nutation_series (tdb : ℝ) :
    let T := (tdb - 51544.5) / 36525
    let g := (fundamentalArguments T).getD 1 0
    (nutc tdb).psi = (((nutTerms.map fun r => ((r.p.1 + r.p.2.2.1 * T) * Real.cos (termArgument r T) +
        (r.p.2.1 + r.p.2.2.2 * T) * Real.sin (termArgument r T)) / 10).sum
        - 153.1 * Real.sin g - 1.9 * Real.sin (2 * g)) / 1000000 - 0.042888 - 0.29856 * T) / 3600 * (pi / 180) ∧
    (nutc tdb).eps = (((nutTerms.map fun r => ((r.e.1 + r.e.2.2.1 * T) * Real.cos (termArgument r T) +
        (r.e.2.1 + r.e.2.2.2 * T) * Real.sin (termArgument r T)) / 10).sum) / 1000000
        - 0.005171 - 0.02408 * T) / 3600 * (pi / 180) := by
  intro T g
  obtain ⟨e1, e2⟩ := nutc_eq tdb
  rw [e1, e2]
  change (_ * 1e-6 - 0.042888 - 0.29856 * T) * as2r = _ ∧ (_ * 1e-6 - 0.005171 - 0.02408 * T) * as2r = _
  have hg : Cong ((nutAngles T).getD 1 0) g := nutAngle_eq _ _
  have hg2 : Cong (2 * (nutAngles T).getD 1 0) (2 * g) := by
    obtain ⟨k, hk⟩ := hg; exact ⟨2 * k, by rw [hk]; push_cast; ring⟩
  rw [foldl_sum]
  simp only [List.map_reverse, List.sum_reverse]
  rw [(cos_cong hg).2, (cos_cong hg2).2]
  unfold as2r
  generalize (nutTerms.map fun r => ((r.p.1 + r.p.2.2.1 * T) * Real.cos (termArgument r T) +
        (r.p.2.1 + r.p.2.2.2 * T) * Real.sin (termArgument r T)) / 10).sum = S1
  generalize (nutTerms.map fun r => ((r.e.1 + r.e.2.2.1 * T) * Real.cos (termArgument r T) +
        (r.e.2.1 + r.e.2.2.2 * T) * Real.sin (termArgument r T)) / 10).sum = S2
  constructor <;> ring

end Sla.Props
