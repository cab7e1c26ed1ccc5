/-
The coefficient tables of `dmoon` and `moon` (src/dmoon.cc, src/moon.cc), generated from the source text.
-/
import Mathlib.Data.List.Basic
import Mathlib.Data.Int.Notation

namespace Sla

/-- One term: coefficient in millionths of a degree; multiples of the Sun's mean anomaly, the Moon's mean anomaly, the
    mean elongation and the distance from the node in the argument; power of the eccentricity factor (0 in `moon`). -/
structure MoonTerm where
  coeff : ℤ
  m : ℤ
  mp : ℤ
  d : ℤ
  f : ℤ
  e : ℤ

/-- src/dmoon.cc:152-216 `TL`, `ITL`: terms of the longitude series. -/
def dmoonL : List MoonTerm := [
  ⟨6288750, 0, 1, 0, 0, 0⟩,
  ⟨1274018, 0, -1, 2, 0, 0⟩,
  ⟨658309, 0, 0, 2, 0, 0⟩,
  ⟨213616, 0, 2, 0, 0, 0⟩,
  ⟨-185596, 1, 0, 0, 0, 1⟩,
  ⟨-114336, 0, 0, 0, 2, 0⟩,
  ⟨58793, 0, -2, 2, 0, 0⟩,
  ⟨57212, -1, -1, 2, 0, 1⟩,
  ⟨53320, 0, 1, 2, 0, 0⟩,
  ⟨45874, -1, 0, 2, 0, 1⟩,
  ⟨41024, -1, 1, 0, 0, 1⟩,
  ⟨-34718, 0, 0, 1, 0, 0⟩,
  ⟨-30465, 1, 1, 0, 0, 1⟩,
  ⟨15326, 0, 0, 2, -2, 0⟩,
  ⟨-12528, 0, 1, 0, 2, 0⟩,
  ⟨-10980, 0, -1, 0, 2, 0⟩,
  ⟨10674, 0, -1, 4, 0, 0⟩,
  ⟨10034, 0, 3, 0, 0, 0⟩,
  ⟨8548, 0, -2, 4, 0, 0⟩,
  ⟨-7910, 1, -1, 2, 0, 1⟩,
  ⟨-6783, 1, 0, 2, 0, 1⟩,
  ⟨5162, 0, 1, -1, 0, 0⟩,
  ⟨5000, 1, 0, 1, 0, 1⟩,
  ⟨4049, -1, 1, 2, 0, 1⟩,
  ⟨3996, 0, 2, 2, 0, 0⟩,
  ⟨3862, 0, 0, 4, 0, 0⟩,
  ⟨3665, 0, -3, 2, 0, 0⟩,
  ⟨2695, -1, 2, 0, 0, 1⟩,
  ⟨2602, 0, 1, -2, -2, 0⟩,
  ⟨2396, -1, -2, 2, 0, 1⟩,
  ⟨-2349, 0, 1, 1, 0, 0⟩,
  ⟨2249, -2, 0, 2, 0, 2⟩,
  ⟨-2125, 1, 2, 0, 0, 1⟩,
  ⟨-2079, 2, 0, 0, 0, 2⟩,
  ⟨2059, -2, -1, 2, 0, 2⟩,
  ⟨-1773, 0, 1, 2, -2, 0⟩,
  ⟨-1595, 0, 0, 2, 2, 0⟩,
  ⟨1220, -1, -1, 4, 0, 1⟩,
  ⟨-1110, 0, 2, 0, 2, 0⟩,
  ⟨892, 0, 1, -3, 0, 0⟩,
  ⟨-811, 1, 1, 2, 0, 1⟩,
  ⟨761, -1, -2, 4, 0, 1⟩,
  ⟨717, -2, 1, 0, 0, 2⟩,
  ⟨704, -2, 1, -2, 0, 2⟩,
  ⟨693, 1, -2, 2, 0, 1⟩,
  ⟨598, -1, 0, 2, -2, 1⟩,
  ⟨550, 0, 1, 4, 0, 0⟩,
  ⟨538, 0, 4, 0, 0, 0⟩,
  ⟨521, -1, 0, 4, 0, 1⟩,
  ⟨486, 0, 2, -1, 0, 0⟩]

/-- src/dmoon.cc:220-278 `TB`, `ITB`: terms of the latitude series. -/
def dmoonB : List MoonTerm := [
  ⟨5128189, 0, 0, 0, 1, 0⟩,
  ⟨280606, 0, 1, 0, 1, 0⟩,
  ⟨277693, 0, 1, 0, -1, 0⟩,
  ⟨173238, 0, 0, 2, -1, 0⟩,
  ⟨55413, 0, -1, 2, 1, 0⟩,
  ⟨46272, 0, -1, 2, -1, 0⟩,
  ⟨32573, 0, 0, 2, 1, 0⟩,
  ⟨17198, 0, 2, 0, 1, 0⟩,
  ⟨9267, 0, 1, 2, -1, 0⟩,
  ⟨8823, 0, 2, 0, -1, 0⟩,
  ⟨8247, -1, 0, 2, -1, 1⟩,
  ⟨4323, 0, -2, 2, -1, 0⟩,
  ⟨4200, 0, 1, 2, 1, 0⟩,
  ⟨3372, -1, 0, -2, 1, 1⟩,
  ⟨2472, -1, -1, 2, 1, 1⟩,
  ⟨2222, -1, 0, 2, 1, 1⟩,
  ⟨2072, -1, -1, 2, -1, 1⟩,
  ⟨1877, -1, 1, 0, 1, 1⟩,
  ⟨1828, 0, -1, 4, -1, 0⟩,
  ⟨-1803, 1, 0, 0, 1, 1⟩,
  ⟨-1750, 0, 0, 0, 3, 0⟩,
  ⟨1570, -1, 1, 0, -1, 1⟩,
  ⟨-1487, 0, 0, 1, 1, 0⟩,
  ⟨-1481, 1, 1, 0, 1, 1⟩,
  ⟨1417, -1, -1, 0, 1, 1⟩,
  ⟨1350, -1, 0, 0, 1, 1⟩,
  ⟨1330, 0, 0, -1, 1, 0⟩,
  ⟨1106, 0, 3, 0, 1, 0⟩,
  ⟨1020, 0, 0, 4, -1, 0⟩,
  ⟨833, 0, -1, 4, 1, 0⟩,
  ⟨781, 0, 1, 0, -3, 0⟩,
  ⟨670, 0, -2, 4, 1, 0⟩,
  ⟨606, 0, 0, 2, -3, 0⟩,
  ⟨597, 0, 2, 2, -1, 0⟩,
  ⟨492, -1, 1, 2, -1, 1⟩,
  ⟨450, 0, 2, -2, -1, 0⟩,
  ⟨439, 0, 3, 0, -1, 0⟩,
  ⟨423, 0, 2, 2, 1, 0⟩,
  ⟨422, 0, -3, 2, -1, 0⟩,
  ⟨-367, 1, -1, 2, 1, 1⟩,
  ⟨-353, 1, 0, 2, 1, 1⟩,
  ⟨331, 0, 0, 4, 1, 0⟩,
  ⟨317, -1, 1, 2, 1, 1⟩,
  ⟨306, -2, 0, 2, -1, 2⟩,
  ⟨-283, 0, 1, 0, 3, 0⟩]

/-- src/dmoon.cc:282-324 `TP`, `ITP`: terms of the parallax series. -/
def dmoonP : List MoonTerm := [
  ⟨950724, 0, 0, 0, 0, 0⟩,
  ⟨51818, 0, 1, 0, 0, 0⟩,
  ⟨9531, 0, -1, 2, 0, 0⟩,
  ⟨7843, 0, 0, 2, 0, 0⟩,
  ⟨2824, 0, 2, 0, 0, 0⟩,
  ⟨857, 0, 1, 2, 0, 0⟩,
  ⟨533, -1, 0, 2, 0, 1⟩,
  ⟨401, -1, -1, 2, 0, 1⟩,
  ⟨320, -1, 1, 0, 0, 1⟩,
  ⟨-271, 0, 0, 1, 0, 0⟩,
  ⟨-264, 1, 1, 0, 0, 1⟩,
  ⟨-198, 0, -1, 0, 2, 0⟩,
  ⟨173, 0, 3, 0, 0, 0⟩,
  ⟨167, 0, -1, 4, 0, 0⟩,
  ⟨-111, 1, 0, 0, 0, 1⟩,
  ⟨103, 0, -2, 4, 0, 0⟩,
  ⟨-84, 0, 2, -2, 0, 0⟩,
  ⟨-83, 1, 0, 2, 0, 1⟩,
  ⟨79, 0, 2, 2, 0, 0⟩,
  ⟨72, 0, 0, 4, 0, 0⟩,
  ⟨64, -1, 1, 2, 0, 1⟩,
  ⟨-63, 1, -1, 2, 0, 1⟩,
  ⟨41, 1, 0, 1, 0, 1⟩,
  ⟨35, -1, 2, 0, 0, 1⟩,
  ⟨-33, 0, 3, -2, 0, 0⟩,
  ⟨-30, 0, 1, 1, 0, 0⟩,
  ⟨-29, 0, 0, -2, 2, 0⟩,
  ⟨-29, 1, 2, 0, 0, 1⟩,
  ⟨26, -2, 0, 2, 0, 2⟩,
  ⟨-23, 0, 1, -2, 2, 0⟩,
  ⟨19, -1, -1, 4, 0, 1⟩]

/-- src/moon.cc:105-156 `TL`, `ITL`: terms of the longitude series. -/
def moonL : List MoonTerm := [
  ⟨6288750, 0, 1, 0, 0, 0⟩,
  ⟨1274018, 0, -1, 2, 0, 0⟩,
  ⟨658309, 0, 0, 2, 0, 0⟩,
  ⟨213616, 0, 2, 0, 0, 0⟩,
  ⟨-185596, 1, 0, 0, 0, 0⟩,
  ⟨-114336, 0, 0, 0, 2, 0⟩,
  ⟨58793, 0, -2, 2, 0, 0⟩,
  ⟨57212, -1, -1, 2, 0, 0⟩,
  ⟨53320, 0, 1, 2, 0, 0⟩,
  ⟨45874, -1, 0, 2, 0, 0⟩,
  ⟨41024, -1, 1, 0, 0, 0⟩,
  ⟨-34718, 0, 0, 1, 0, 0⟩,
  ⟨-30465, 1, 1, 0, 0, 0⟩,
  ⟨15326, 0, 0, 2, -2, 0⟩,
  ⟨-12528, 0, 1, 0, 2, 0⟩,
  ⟨-10980, 0, -1, 0, 2, 0⟩,
  ⟨10674, 0, -1, 4, 0, 0⟩,
  ⟨10034, 0, 3, 0, 0, 0⟩,
  ⟨8548, 0, -2, 4, 0, 0⟩,
  ⟨-7910, 1, -1, 2, 0, 0⟩,
  ⟨-6783, 1, 0, 2, 0, 0⟩,
  ⟨5162, 0, 1, -1, 0, 0⟩,
  ⟨5000, 1, 0, 1, 0, 0⟩,
  ⟨4049, -1, 1, 2, 0, 0⟩,
  ⟨3996, 0, 2, 2, 0, 0⟩,
  ⟨3862, 0, 0, 4, 0, 0⟩,
  ⟨3665, 0, -3, 2, 0, 0⟩,
  ⟨2695, -1, 2, 0, 0, 0⟩,
  ⟨2602, 0, 1, -2, -2, 0⟩,
  ⟨2396, -1, -2, 2, 0, 0⟩,
  ⟨-2349, 0, 1, 1, 0, 0⟩,
  ⟨2249, -2, 0, 2, 0, 0⟩,
  ⟨-2125, 1, 2, 0, 0, 0⟩,
  ⟨-2079, 2, 0, 0, 0, 0⟩,
  ⟨2059, -2, -1, 2, 0, 0⟩,
  ⟨-1773, 0, 1, 2, -2, 0⟩,
  ⟨-1595, 0, 0, 2, 2, 0⟩,
  ⟨1220, -1, -1, 4, 0, 0⟩,
  ⟨-1110, 0, 2, 0, 2, 0⟩]

/-- src/moon.cc:159-198 `TB`, `ITB`: terms of the latitude series. -/
def moonB : List MoonTerm := [
  ⟨5128189, 0, 0, 0, 1, 0⟩,
  ⟨280606, 0, 1, 0, 1, 0⟩,
  ⟨277693, 0, 1, 0, -1, 0⟩,
  ⟨173238, 0, 0, 2, -1, 0⟩,
  ⟨55413, 0, -1, 2, 1, 0⟩,
  ⟨46272, 0, -1, 2, -1, 0⟩,
  ⟨32573, 0, 0, 2, 1, 0⟩,
  ⟨17198, 0, 2, 0, 1, 0⟩,
  ⟨9267, 0, 1, 2, -1, 0⟩,
  ⟨8823, 0, 2, 0, -1, 0⟩,
  ⟨8247, -1, 0, 2, -1, 0⟩,
  ⟨4323, 0, -2, 2, -1, 0⟩,
  ⟨4200, 0, 1, 2, 1, 0⟩,
  ⟨3372, -1, 0, -2, 1, 0⟩,
  ⟨2472, -1, -1, 2, 1, 0⟩,
  ⟨2222, -1, 0, 2, 1, 0⟩,
  ⟨2072, -1, -1, 2, -1, 0⟩,
  ⟨1877, -1, 1, 0, 1, 0⟩,
  ⟨1828, 0, -1, 4, -1, 0⟩,
  ⟨-1803, 1, 0, 0, 1, 0⟩,
  ⟨-1750, 0, 0, 0, 3, 0⟩,
  ⟨1570, -1, 1, 0, -1, 0⟩,
  ⟨-1487, 0, 0, 1, 1, 0⟩,
  ⟨-1481, 1, 1, 0, 1, 0⟩,
  ⟨1417, -1, -1, 0, 1, 0⟩,
  ⟨1350, -1, 0, 0, 1, 0⟩,
  ⟨1330, 0, 0, -1, 1, 0⟩,
  ⟨1106, 0, 3, 0, 1, 0⟩,
  ⟨1020, 0, 0, 4, -1, 0⟩]

/-- src/moon.cc:201-210 `TP`, `ITP`: terms of the parallax series. -/
def moonP : List MoonTerm := [
  ⟨51818, 0, 1, 0, 0, 0⟩,
  ⟨9531, 0, -1, 2, 0, 0⟩,
  ⟨7843, 0, 0, 2, 0, 0⟩,
  ⟨2824, 0, 2, 0, 0, 0⟩]

end Sla
