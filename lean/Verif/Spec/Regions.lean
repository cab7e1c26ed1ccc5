import Mathlib.Data.Rat.Defs

/-
Where the observing stations known to `obs` are, independently of its table: for each country or region the identifiers of the
stations in it and a box of latitudes and longitudes, in degrees (to the arcminute for two summits), north and east positive as geographers count.
-/
namespace Sla.Spec

structure Region where
  name : String
  stations : List String
  south : ℚ
  north : ℚ
  west : ℚ
  east : ℚ

def regions : List Region := [
  ⟨"New South Wales and Canberra", ["AAT", "STROMLO74", "ANU2.3", "TIDBINBLA", "PARKES", "UKST", "ATCA", "MOPRA"], -36, -30, 148, 150⟩,
  ⟨"Northern Chile", ["DUPONT", "TOLOLO4M", "TOLOLO1.5M", "ESO3.6", "ESONTT", "ESOSCHM", "GEMINIS",
    "MAGELLAN1", "MAGELLAN2", "APEX", "NANTEN2"], -31, -22, -71, -67⟩,
  ⟨"Cerro Paranal, Chile", ["VLT1", "VLT2", "VLT3", "VLT4"], -1478/60, -1477/60, -4225/60, -4224/60⟩,
  ⟨"Cordoba, Argentina", ["BOSQALEGRE"], -35, -29, -66, -61⟩,
  ⟨"South Africa", ["BLOEMF", "SAAO74"], -35, -22, 16, 33⟩,
  ⟨"Canary Islands", ["LPO4.2", "LPO2.5", "LPO1"], 27, 30, -19, -13⟩,
  ⟨"United States (contiguous)", ["LICK120", "MMT", "MTHOP1.5", "GBVA140", "FLAGSTF61", "LOWELL72", "HARVARD", "KPNO158", "KPNO90",
    "KPNO84", "KPNO36FT", "MTLEMMON60", "MCDONLD2.7", "MCDONLD2.1", "PALOMAR200", "PALOMAR60", "CATALINA61", "STEWARD90", "GBVA300",
    "VLA", "SUGARGROVE", "APO3.5", "PALOMAR48", "FCRAO"], 24, 50, -125, -66⟩,
  ⟨"Summit of Mauna Kea, Hawaii", ["MAUNAK88", "UKIRT", "JCMT", "KECK1", "SUBARU", "CFHT", "KECK2", "GEMININ", "IRTF", "CSO"], 1189/60, 1190/60, -9329/60, -9328/60⟩,
  ⟨"Puerto Rico", ["ARECIBO"], 17, 19, -68, -65⟩,
  ⟨"Canada", ["DAO72", "QUEBEC1.6", "DUNLAP74"], 41, 84, -141, -52⟩,
  ⟨"Baja California", ["SANPM83"], 22, 33, -118, -109⟩,
  ⟨"Japan", ["OKAYAMA", "NOBEYAMA", "KISO"], 30, 46, 129, 146⟩,
  ⟨"Egypt", ["KOTTAMIA"], 22, 32, 24, 37⟩,
  ⟨"Italy", ["MTEKAR"], 35, 48, 6, 19⟩,
  ⟨"France", ["HPROV1.93", "HPROV1.52"], 41, 52, -5, 10⟩,
  ⟨"Germany", ["TAUTNBG", "EFFELSBERG", "TAUTSCHM"], 47, 56, 5, 16⟩,
  ⟨"Switzerland", ["KOSMA3M"], 45, 48, 5, 11⟩,
  ⟨"Cambridge, England", ["CAMB5KM", "CAMB1MILE"], 52, 105/2, 0, 1/2⟩,
  ⟨"North-west England", ["JODRELL1"], 53, 54, -3, -2⟩,
  ⟨"Fife, Scotland", ["ST.ANDREWS"], 56, 113/2, -7/2, -5/2⟩,
  ⟨"Northern Caucasus", ["USSR6", "USSR600"], 43, 45, 40, 43⟩]

end Sla.Spec
