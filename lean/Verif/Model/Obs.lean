/-
`sla::obs` (src/obs.cc): parameters of observing stations.

C strings are lists of characters without the terminating zero; `strlen` and `strncmp` need a terminated string, which
is a precondition on `id`. The table keeps angles as exact numbers of arcseconds; the conversion factor from arcseconds
to radians is taken as exactly pi/648000.
-/
import Mathlib.Data.List.Basic
import Mathlib.Data.Rat.Defs
import Mathlib.Analysis.SpecialFunctions.Trigonometric.Basic

namespace Sla

namespace Obs

/-- `west` of src/obs.cc:49-52, in arcseconds. -/
def west (degrees arcmins : ℤ) (arcsecs : ℚ) : ℚ := (60 * (60 * degrees + arcmins) : ℤ) + arcsecs

/-- `north` of src/obs.cc:53-55. -/
def north (degrees arcmins : ℤ) (arcsecs : ℚ) : ℚ := west degrees arcmins arcsecs

/-- `east` of src/obs.cc:56-58. -/
def east (degrees arcmins : ℤ) (arcsecs : ℚ) : ℚ := -west degrees arcmins arcsecs

/-- `south` of src/obs.cc:59-61. -/
def south (degrees arcmins : ℤ) (arcsecs : ℚ) : ℚ := -west degrees arcmins arcsecs

/-- One row of the table (src/slalib.h:248-254), angles in arcseconds. -/
structure Station where
  id : String
  name : String
  long : ℚ
  lat : ℚ
  height : ℚ
  deriving DecidableEq

/-- src/obs.cc:64-234 `observatories`. -/
def observatories : List Station := [
  ⟨"AAT", "Anglo-Australian 3.9m Telescope", east 149 3 57.91, south 31 16 37.34, 1164.0⟩,
  ⟨"LPO4.2", "William Herschel 4.2m Telescope", west 17 52 53.9, north 28 45 38.1, 2332.0⟩,
  ⟨"LPO2.5", "Isaac Newton 2.5m Telescope", west 17 52 39.5, north 28 45 43.2, 2336.0⟩,
  ⟨"LPO1", "Jacobus Kapteyn 1m Telescope", west 17 52 41.2, north 28 45 39.9, 2364.0⟩,
  ⟨"LICK120", "Lick 120 inch", west 121 38 13.689, north 37 20 34.931, 1286.0⟩,
  ⟨"MMT", "MMT 6.5m, Mt Hopkins", west 110 53 4.4, north 31 41 19.6, 2608.0⟩,
  ⟨"DAO72", "DAO Victoria BC 1.85 metre", west 123 25 1.18, north 48 31 11.9, 238.0⟩,
  ⟨"DUPONT", "Du Pont 2.5m Telescope, Las Campanas", west 70 42 9.0, south 29 0 11.0, 2280.0⟩,
  ⟨"MTHOP1.5", "Mt Hopkins 1.5 metre", west 110 52 39.0, north 31 40 51.4, 2344.0⟩,
  ⟨"STROMLO74", "Mount Stromlo 74 inch", east 149 0 27.59, south 35 19 14.3, 767.0⟩,
  ⟨"ANU2.3", "Siding Spring 2.3 metre", east 149 3 40.3, south 31 16 24.1, 1149.0⟩,
  ⟨"GBVA140", "Greenbank 140 foot", west 79 50 9.61, north 38 26 15.4, 881.0⟩,
  ⟨"TOLOLO4M", "Cerro Tololo 4 metre", west 70 48 53.6, south 30 9 57.8, 2235.0⟩,
  ⟨"TOLOLO1.5M", "Cerro Tololo 1.5 metre", west 70 48 54.5, south 30 9 56.3, 2225.0⟩,
  ⟨"TIDBINBLA", "Tidbinbilla 64 metre", east 148 58 48.2, south 35 24 14.3, 670.0⟩,
  ⟨"BLOEMF", "Bloemfontein 1.52 metre", east 26 24 18.0, south 29 2 18.0, 1387.0⟩,
  ⟨"BOSQALEGRE", "Bosque Alegre 1.54 metre", west 64 32 48.0, south 31 35 53.0, 1250.0⟩,
  ⟨"FLAGSTF61", "USNO 61 inch astrograph, Flagstaff", west 111 44 23.6, north 35 11 2.5, 2316.0⟩,
  ⟨"LOWELL72", "Perkins 72 inch, Lowell", west 111 32 9.3, north 35 5 48.6, 2198.0⟩,
  ⟨"HARVARD", "Harvard College Observatory 1.55m", west 71 33 29.32, north 42 30 19.0, 185.0⟩,
  ⟨"OKAYAMA", "Okayama 1.88 metre", east 133 35 47.29, north 34 34 26.1, 372.0⟩,
  ⟨"KPNO158", "Kitt Peak 158 inch", west 111 35 57.61, north 31 57 50.3, 2120.0⟩,
  ⟨"KPNO90", "Kitt Peak 90 inch", west 111 35 58.24, north 31 57 46.9, 2071.0⟩,
  ⟨"KPNO84", "Kitt Peak 84 inch", west 111 35 51.56, north 31 57 29.2, 2096.0⟩,
  ⟨"KPNO36FT", "Kitt Peak 36 foot", west 111 36 51.12, north 31 57 12.1, 1939.0⟩,
  ⟨"KOTTAMIA", "Kottamia 74 inch", east 31 49 30.0, north 29 55 54.0, 476.0⟩,
  ⟨"ESO3.6", "ESO 3.6 metre", west 70 43 36.0, south 29 15 36.0, 2428.0⟩,
  ⟨"MAUNAK88", "Mauna Kea 88 inch", west 155 28 9.96, north 19 49 22.77, 4213.6⟩,
  ⟨"UKIRT", "UK Infra Red Telescope", west 155 28 13.18, north 19 49 20.75, 4198.5⟩,
  ⟨"QUEBEC1.6", "Quebec 1.6 metre", west 71 9 9.7, north 45 27 20.6, 1114.0⟩,
  ⟨"MTEKAR", "Mt Ekar 1.82 metre", east 11 34 15.0, north 45 50 48.0, 1365.0⟩,
  ⟨"MTLEMMON60", "Mt Lemmon 60 inch", west 110 42 16.9, north 32 26 33.9, 2790.0⟩,
  ⟨"MCDONLD2.7", "McDonald 2.7 metre", west 104 1 17.60, north 30 40 17.7, 2075.0⟩,
  ⟨"MCDONLD2.1", "McDonald 2.1 metre", west 104 1 20.1, north 30 40 17.7, 2075.0⟩,
  ⟨"PALOMAR200", "Palomar 200 inch", west 116 51 50.0, north 33 21 22.0, 1706.0⟩,
  ⟨"PALOMAR60", "Palomar 60 inch", west 116 51 31.0, north 33 20 56.0, 1706.0⟩,
  ⟨"DUNLAP74", "David Dunlap 74 inch", west 79 25 20.0, north 43 51 46.0, 244.0⟩,
  ⟨"HPROV1.93", "Haute Provence 1.93 metre", east 5 42 46.75, north 43 55 53.3, 665.0⟩,
  ⟨"HPROV1.52", "Haute Provence 1.52 metre", east 5 42 43.82, north 43 56 0.2, 667.0⟩,
  ⟨"SANPM83", "San Pedro Martir 83 inch", west 115 27 47.0, north 31 2 38.0, 2830.0⟩,
  ⟨"SAAO74", "Sutherland 74 inch", east 20 48 44.3, south 32 22 43.4, 1771.0⟩,
  ⟨"TAUTNBG", "Tautenburg 2 metre", east 11 42 45, north 50 58 51, 331.0⟩,
  ⟨"CATALINA61", "Catalina 61 inch", west 110 43 55.1, north 32 25 0.7, 2510.0⟩,
  ⟨"STEWARD90", "Steward 90 inch", west 111 35 58.24, north 31 57 46.9, 2071.0⟩,
  ⟨"USSR6", "USSR 6 metre", east 41 26 30.0, north 43 39 12.0, 2100.0⟩,
  ⟨"ARECIBO", "Arecibo 1000 foot", west 66 45 11.1, north 18 20 36.6, 496.0⟩,
  ⟨"CAMB5KM", "Cambridge 5km", east 0 2 37.23, north 52 10 12.2, 17.0⟩,
  ⟨"CAMB1MILE", "Cambridge 1 mile", east 0 2 21.64, north 52 9 47.3, 17.0⟩,
  ⟨"EFFELSBERG", "Effelsberg 100 metre", east 6 53 1.5, north 50 31 28.6, 366.0⟩,
  ⟨"GBVA300", "Greenbank 300 foot", west 79 50 56.36, north 38 25 46.3, 894.0⟩,
  ⟨"JODRELL1", "Jodrell Bank 250 foot", west 2 18 25, north 53 14 10.5, 78.0⟩,
  ⟨"PARKES", "Parkes 64 metre", east 148 15 44.3591, south 32 59 59.8657, 391.79⟩,
  ⟨"VLA", "Very Large Array", west 107 37 3.82, north 34 4 43.5, 2124.0⟩,
  ⟨"SUGARGROVE", "Sugar Grove 150 foot", west 79 16 23.0, north 38 31 14.0, 705.0⟩,
  ⟨"USSR600", "USSR 600 foot", east 41 35 25.5, north 43 49 32.0, 973.0⟩,
  ⟨"NOBEYAMA", "Nobeyama 45 metre", east 138 29 12.0, north 35 56 19.0, 1350.0⟩,
  ⟨"JCMT", "JCMT 15 metre", west 155 28 37.3, north 19 49 22.22, 4124.75⟩,
  ⟨"ESONTT", "ESO 3.5 metre NTT", west 70 43 7.0, south 29 15 30.0, 2377.0⟩,
  ⟨"ST.ANDREWS", "St Andrews", west 2 48 52.5, north 56 20 12.0, 30.0⟩,
  ⟨"APO3.5", "Apache Point 3.5m", west 105 49 11.56, north 32 46 48.96, 2809.0⟩,
  ⟨"KECK1", "Keck 10m Telescope #1", west 155 28 28.99, north 19 49 33.41, 4160.0⟩,
  ⟨"TAUTSCHM", "Tautenberg 1.34 metre Schmidt", east 11 42 45.0, north 50 58 51.0, 331.0⟩,
  ⟨"PALOMAR48", "Palomar 48-inch Schmidt", west 116 51 32.0, north 33 21 26.0, 1706.0⟩,
  ⟨"UKST", "UK 1.2 metre Schmidt, Siding Spring", east 149 4 12.8, south 31 16 27.8, 1145.0⟩,
  ⟨"KISO", "Kiso 1.05 metre Schmidt, Japan", east 137 37 42.2, north 35 47 38.7, 1130.0⟩,
  ⟨"ESOSCHM", "ESO 1 metre Schmidt, La Silla", west 70 43 46.5, south 29 15 25.8, 2347.0⟩,
  ⟨"ATCA", "Australia Telescope Compact Array", east 149 33 0.5, south 30 18 46.385, 236.9⟩,
  ⟨"MOPRA", "ATNF Mopra Observatory", east 149 5 58.732, south 31 16 4.451, 850.0⟩,
  ⟨"SUBARU", "Subaru 8m telescope", west 155 28 33.67, north 19 49 31.81, 4163.0⟩,
  ⟨"CFHT", "Canada-France-Hawaii 3.6m Telescope", west 155 28 7.95, north 19 49 30.91, 4204.1⟩,
  ⟨"KECK2", "Keck 10m Telescope #2", west 155 28 27.24, north 19 49 35.62, 4159.6⟩,
  ⟨"GEMININ", "Gemini North 8-m telescope", west 155 28 8.57, north 19 49 25.69, 4213.4⟩,
  ⟨"FCRAO", "Five College Radio Astronomy Obs", west 72 20 42.0, north 42 23 30.0, 314.0⟩,
  ⟨"IRTF", "NASA IR Telescope Facility, Mauna Kea", west 155 28 19.2, north 19 49 34.39, 4168.1⟩,
  ⟨"CSO", "Caltech Sub-mm Observatory, Mauna Kea", west 155 28 31.79, north 19 49 20.78, 4080.0⟩,
  ⟨"VLT1", "ESO VLT, Paranal, Chile: UT1", west 70 24 11.642, south 24 37 33.117, 2635.43⟩,
  ⟨"VLT2", "ESO VLT, Paranal, Chile: UT2", west 70 24 10.855, south 24 37 31.465, 2635.43⟩,
  ⟨"VLT3", "ESO VLT, Paranal, Chile: UT3", west 70 24 9.896, south 24 37 30.3, 2635.43⟩,
  ⟨"VLT4", "ESO VLT, Paranal, Chile: UT4", west 70 24 8.000, south 24 37 31.0, 2635.43⟩,
  ⟨"GEMINIS", "Gemini South 8-m telescope", west 70 44 11.5, south 30 14 26.7, 2738.0⟩,
  ⟨"KOSMA3M", "KOSMA 3m telescope, Gornergrat", east 7 47 3.48, north 45 58 59.772, 3141.0⟩,
  ⟨"MAGELLAN1", "Magellan 1, 6.5m, Las Campanas", west 70 41 31.9, south 29 0 51.7, 2408.0⟩,
  ⟨"MAGELLAN2", "Magellan 2, 6.5m, Las Campanas", west 70 41 33.5, south 29 0 50.3, 2408.0⟩,
  ⟨"APEX", "APEX 12m telescope, Llano de Chajnantor", west 67 45 33.0, south 23 0 20.8, 5105.0⟩,
  ⟨"NANTEN2", "NANTEN2 4m telescope, Pampa la Bola", west 67 42 8.0, south 22 57 47.0, 4865.0⟩]

/-- `std::strncmp(a, b, n) == 0` on zero-terminated strings (used at src/obs.cc:248): comparison stops at the first
    difference, at the end of both strings or after `n` characters. -/
def strncmpEq : List Char → List Char → ℕ → Bool
  | _, _, 0 => true
  | [], [], _ + 1 => true
  | [], _ :: _, _ + 1 => false
  | _ :: _, [], _ + 1 => false
  | a :: as, b :: bs, n + 1 => a == b && strncmpEq as bs n

/-- The loop of src/obs.cc:244-252. -/
def search (id : List Char) : List Station → Option Station
  | [] => none
  | p :: ps => if strncmpEq id p.id.toList id.length then some p else search id ps

end Obs

/-- The structure filled in by `obs` (src/slalib.h:248-254). -/
structure Observatory where
  id : String
  name : String
  long : ℝ
  lat : ℝ
  height : ℝ

/-- Which row is selected (src/obs.cc:237-253); `id` is `none` for a null pointer. -/
def obsSelect (n : ℤ) (id : Option (List Char)) : Option Obs.Station :=
  if 0 ≤ n then
    if n < 85 then Obs.observatories[n.toNat]? else none
  else match id with
    | some id => Obs.search id Obs.observatories
    | none => none

/-- src/obs.cc:47-268 `obs`: return value and the filled-in structure. -/
noncomputable def obs (n : ℤ) (id : Option (List Char)) : Bool × Observatory :=
  match obsSelect n id with
  | some o => (true, ⟨o.id, o.name, Real.pi / 648000 * o.long, Real.pi / 648000 * o.lat, o.height⟩)
  | none => (false, ⟨"?", "?", 0, 0, 0⟩)

end Sla
