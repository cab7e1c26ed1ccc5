import Verif.Model.Precession

/-
src/nutc80.cc: nutation by the IAU 1980 theory. The 106 terms are generated from the source text by a script, one
row per numbered term, in source order (106 down to 1).
Simplifications: a term of the source is one assignment to `dp` and / or one to `de`; here it is one row, with
coefficient zero for the assignment that is not there. The argument of a term is written in the source with the
multiples `el2`, `el3`, `f2`, ... (lines 82-90); here it is the integer combination of the five arguments.
-/
noncomputable section
namespace Sla
open Real (pi)

/-- One numbered term of src/nutc80.cc:97-429: multipliers of `el`, `elp`, `f`, `d`, `om`; coefficient of the sine in
    `dp` and of the cosine in `de`, constant and per century, in tenths of the source's unit (0.0001 arcsecond). -/
structure Nut80Term where
  fa : List Int
  p : Int × Int
  e : Int × Int
deriving DecidableEq

/-- src/nutc80.cc:97-134: terms 106 to 89. -/
def nut80Terms0 : List Nut80Term := [
  ⟨[0, 1, 0, 1, 0], (10, 0), (0, 0)⟩,
  ⟨[0, 0, 2, 4, 2], (-10, 0), (0, 0)⟩,
  ⟨[2, 0, 0, 2, 0], (10, 0), (0, 0)⟩,
  ⟨[1, 0, -2, 2, 0], (-10, 0), (0, 0)⟩,
  ⟨[1, 1, 0, -2, 1], (-10, 0), (0, 0)⟩,
  ⟨[0, -1, 2, 0, 1], (-10, 0), (0, 0)⟩,
  ⟨[1, 0, -2, -2, 0], (-10, 0), (0, 0)⟩,
  ⟨[0, 1, 0, 2, 0], (-10, 0), (0, 0)⟩,
  ⟨[0, 0, 2, -1, 2], (-10, 0), (0, 0)⟩,
  ⟨[0, 0, -2, 0, 1], (-10, 0), (0, 0)⟩,
  ⟨[-1, -1, 0, 2, 1], (10, 0), (0, 0)⟩,
  ⟨[0, 1, 2, 0, 1], (10, 0), (0, 0)⟩,
  ⟨[1, 0, 2, -2, 0], (-10, 0), (0, 0)⟩,
  ⟨[3, 0, 2, -2, 2], (10, 0), (0, 0)⟩,
  ⟨[0, 0, 4, -2, 2], (10, 0), (0, 0)⟩,
  ⟨[1, 0, 0, 2, 1], (-10, 0), (0, 0)⟩,
  ⟨[2, 0, 2, 2, 2], (-10, 0), (0, 0)⟩,
  ⟨[2, 0, 2, -2, 1], (10, 0), (-10, 0)⟩]

/-- src/nutc80.cc:135-196: terms 88 to 71. -/
def nut80Terms1 : List Nut80Term := [
  ⟨[1, -1, 0, -2, 0], (10, 0), (0, 0)⟩,
  ⟨[-1, 0, 4, 0, 2], (10, 0), (0, 0)⟩,
  ⟨[-2, 0, 2, 4, 2], (-10, 0), (10, 0)⟩,
  ⟨[1, 0, 2, 2, 1], (-10, 0), (10, 0)⟩,
  ⟨[1, 1, 2, -2, 2], (10, 0), (-10, 0)⟩,
  ⟨[2, 0, 0, -4, 0], (-10, 0), (0, 0)⟩,
  ⟨[-1, 0, 2, 4, 2], (-20, 0), (10, 0)⟩,
  ⟨[-2, 0, 2, 2, 2], (10, 0), (-10, 0)⟩,
  ⟨[1, 0, 0, -4, 0], (-10, 0), (0, 0)⟩,
  ⟨[-1, 0, 0, 0, 2], (10, 0), (-10, 0)⟩,
  ⟨[0, 0, 2, 1, 2], (20, 0), (-10, 0)⟩,
  ⟨[3, 0, 0, 0, 0], (20, 0), (0, 0)⟩,
  ⟨[1, 0, 0, 0, 2], (-20, 0), (10, 0)⟩,
  ⟨[2, 0, 0, 0, 1], (20, 0), (-10, 0)⟩,
  ⟨[-1, 0, 2, -2, 1], (-20, 0), (10, 0)⟩,
  ⟨[1, 1, 2, 0, 2], (20, 0), (-10, 0)⟩,
  ⟨[0, -1, 2, 2, 2], (-30, 0), (10, 0)⟩,
  ⟨[3, 0, 2, 0, 2], (-30, 0), (10, 0)⟩]

/-- src/nutc80.cc:197-254: terms 70 to 53. -/
def nut80Terms2 : List Nut80Term := [
  ⟨[-2, 0, 0, 0, 1], (-20, 0), (10, 0)⟩,
  ⟨[-1, -1, 2, 2, 2], (-30, 0), (10, 0)⟩,
  ⟨[1, -1, 2, 0, 2], (-30, 0), (10, 0)⟩,
  ⟨[1, 0, 2, 0, 0], (30, 0), (0, 0)⟩,
  ⟨[1, 1, 0, 0, 0], (-30, 0), (0, 0)⟩,
  ⟨[0, 0, 0, 1, 0], (-40, 0), (0, 0)⟩,
  ⟨[1, 0, -2, 0, 0], (40, 0), (0, 0)⟩,
  ⟨[0, 1, 0, -2, 0], (-40, 0), (0, 0)⟩,
  ⟨[2, 0, 2, 0, 1], (-50, 0), (30, 0)⟩,
  ⟨[1, -1, 0, 0, 0], (50, 0), (0, 0)⟩,
  ⟨[0, 0, 0, -2, 1], (-50, 0), (30, 0)⟩,
  ⟨[1, 0, 2, -2, 1], (60, 0), (-30, 0)⟩,
  ⟨[0, 0, 2, 2, 1], (-70, 0), (30, 0)⟩,
  ⟨[0, 0, 0, 2, 1], (-60, 0), (30, 0)⟩,
  ⟨[2, 0, 2, -2, 2], (60, 0), (-30, 0)⟩,
  ⟨[1, 0, 0, 2, 0], (60, 0), (0, 0)⟩,
  ⟨[1, 0, 2, 2, 2], (-80, 0), (30, 0)⟩,
  ⟨[0, -1, 2, 0, 2], (-70, 0), (30, 0)⟩]

/-- src/nutc80.cc:255-321: terms 52 to 35. -/
def nut80Terms3 : List Nut80Term := [
  ⟨[0, 1, 2, 0, 2], (70, 0), (-30, 0)⟩,
  ⟨[1, 1, 0, -2, 0], (-70, 0), (0, 0)⟩,
  ⟨[-1, 0, 2, 2, 1], (-100, 0), (50, 0)⟩,
  ⟨[1, 0, 0, -2, 1], (-130, 0), (70, 0)⟩,
  ⟨[-1, 0, 0, 2, 1], (160, 0), (-80, 0)⟩,
  ⟨[-1, 0, 2, 0, 1], (210, 0), (-100, 0)⟩,
  ⟨[0, 0, 2, 0, 0], (260, 0), (-10, 0)⟩,
  ⟨[2, 0, 2, 0, 2], (-310, 0), (130, 0)⟩,
  ⟨[1, 0, 2, -2, 2], (290, 0), (-120, 0)⟩,
  ⟨[2, 0, 0, 0, 0], (290, 0), (-10, 0)⟩,
  ⟨[0, 0, 2, 2, 2], (-380, 0), (160, 0)⟩,
  ⟨[1, 0, 2, 0, 1], (-510, 0), (270, 0)⟩,
  ⟨[-1, 0, 2, 2, 2], (-590, 0), (260, 0)⟩,
  ⟨[-1, 0, 0, 0, 1], (-580, -1), (320, 0)⟩,
  ⟨[1, 0, 0, 0, 1], (630, 1), (-330, 0)⟩,
  ⟨[0, 0, 0, 2, 0], (630, 0), (-20, 0)⟩,
  ⟨[-1, 0, 2, 0, 2], (1230, 0), (-530, 0)⟩,
  ⟨[1, 0, 0, -2, 0], (-1580, 0), (-10, 0)⟩]

/-- src/nutc80.cc:322-378: terms 34 to 17. -/
def nut80Terms4 : List Nut80Term := [
  ⟨[1, 0, 2, 0, 2], (-3010, 0), (1290, -1)⟩,
  ⟨[0, 0, 2, 0, 1], (-3860, -4), (2000, 0)⟩,
  ⟨[1, 0, 0, 0, 0], (7120, 1), (-70, 0)⟩,
  ⟨[0, 0, 2, 0, 2], (-22740, -2), (9770, -5)⟩,
  ⟨[0, 1, 2, -2, 0], (-10, 0), (0, 0)⟩,
  ⟨[-1, 0, 0, 1, 1], (10, 0), (0, 0)⟩,
  ⟨[0, 1, 0, 0, 2], (10, 0), (0, 0)⟩,
  ⟨[0, 1, -2, 2, 0], (-10, 0), (0, 0)⟩,
  ⟨[0, 0, -2, 2, 1], (10, 0), (0, 0)⟩,
  ⟨[2, 1, 0, -2, 0], (10, 0), (0, 0)⟩,
  ⟨[1, 0, 0, -1, 0], (-40, 0), (0, 0)⟩,
  ⟨[0, 1, 2, -2, 1], (40, 0), (-20, 0)⟩,
  ⟨[2, 0, 0, -2, 1], (40, 0), (-20, 0)⟩,
  ⟨[0, -1, 2, -2, 1], (-50, 0), (30, 0)⟩,
  ⟨[-2, 0, 0, 2, 1], (-60, 0), (30, 0)⟩,
  ⟨[0, -1, 0, 0, 1], (-120, 0), (60, 0)⟩,
  ⟨[0, 2, 2, -2, 2], (-160, 1), (70, 0)⟩,
  ⟨[0, 1, 0, 0, 1], (-150, 0), (90, 0)⟩]

/-- src/nutc80.cc:379-429: terms 16 to 1. -/
def nut80Terms5 : List Nut80Term := [
  ⟨[0, 2, 0, 0, 0], (170, -1), (0, 0)⟩,
  ⟨[0, 0, 2, -2, 0], (-220, 0), (0, 0)⟩,
  ⟨[2, 0, 0, -2, 0], (480, 0), (10, 0)⟩,
  ⟨[0, 0, 2, -2, 1], (1290, 1), (-700, 0)⟩,
  ⟨[0, -1, 2, -2, 2], (2170, -5), (-950, 3)⟩,
  ⟨[0, 1, 2, -2, 2], (-5170, 12), (2240, -6)⟩,
  ⟨[0, 1, 0, 0, 0], (14260, -34), (540, -1)⟩,
  ⟨[0, 0, 2, -2, 2], (-131870, -16), (57360, -31)⟩,
  ⟨[2, 0, -2, 0, 1], (10, 0), (0, 0)⟩,
  ⟨[0, -2, 2, -2, 1], (-20, 0), (10, 0)⟩,
  ⟨[1, -1, 0, -1, 0], (-30, 0), (0, 0)⟩,
  ⟨[-2, 0, 2, 0, 2], (-30, 0), (10, 0)⟩,
  ⟨[2, 0, -2, 0, 0], (110, 0), (0, 0)⟩,
  ⟨[-2, 0, 2, 0, 1], (460, 0), (-240, 0)⟩,
  ⟨[0, 0, 0, 0, 2], (20620, 2), (-8950, 5)⟩,
  ⟨[0, 0, 0, 0, 1], (-1719960, -1742), (920250, 89)⟩]

/-- The whole series, src/nutc80.cc:97-429. -/
def nut80Terms : List Nut80Term :=
  nut80Terms0 ++ nut80Terms1 ++ nut80Terms2 ++ nut80Terms3 ++ nut80Terms4 ++ nut80Terms5

/-- The five fundamental arguments, src/nutc80.cc:59-80, each reduced with `drange`. -/
def nut80Angles (centuries : ℝ) : List ℝ := [
  drange (as2r * (485866.733 + (1325 * 1296000 + 715922.633 + (31.310 + 0.064 * centuries) * centuries) * centuries)),
  drange (as2r * (1287099.804 + (99 * 1296000 + 1292581.224 + (-0.577 - 0.012 * centuries) * centuries) * centuries)),
  drange (as2r * (335778.877 + (1342 * 1296000 + 295263.137 + (-13.257 + 0.011 * centuries) * centuries) * centuries)),
  drange (as2r * (1072261.307 + (1236 * 1296000 + 1105601.328 + (-6.891 + 0.019 * centuries) * centuries) * centuries)),
  drange (as2r * (450160.280 + (-5 * 1296000 - 482890.539 + (7.455 + 0.008 * centuries) * centuries) * centuries))]

/-- One numbered term of src/nutc80.cc:97-429; the state is `(dp, de)`. -/
def nut80Step (centuries : ℝ) (angles : List ℝ) (st : ℝ × ℝ) (r : Nut80Term) : ℝ × ℝ :=
  (st.1 + (tenth r.p.1 + tenth r.p.2 * centuries) * Real.sin (nutTheta r.fa angles),
   st.2 + (tenth r.e.1 + tenth r.e.2 * centuries) * Real.cos (nutTheta r.fa angles))

/-- src/nutc80.cc:45-437 `nutc80` -/
def nutc80 (tdb : ℝ) : NutResult :=
  let centuries := (tdb - 51544.5) / 36525
  let d := nut80Terms.foldl (nut80Step centuries (nut80Angles centuries)) (0, 0)
  { psi := d.1 * (as2r / 1.0e4)
    eps := d.2 * (as2r / 1.0e4)
    eps0 := as2r * (84381.448 + (-46.8150 + (-0.00059 + 0.001813 * centuries) * centuries) * centuries) }

end Sla
