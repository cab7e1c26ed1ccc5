# Design: formal model of slalib-cpp

Source: `/repo/src` (C++ port of SLALIB).  The model is Lean 4 + Mathlib, in
`lean/Verif`.  Layout:

* `Verif/Model/*`  - the code, function by function; every definition cites file and lines.
* `Verif/Spec/*`   - small independent specifications (calendar successor, rotations, ...).
* `Verif/Lemmas/*` - helper lemmas.
* `Verif/Props/*`  - the property theorems named in `MANIFEST.json`, each with `example`s that
  show its hypotheses are satisfiable.

## Modelling conventions (part of the trusted base)

* **int**: mathematical `Int`, with `/` and `%` as C truncating division (`Int.tdiv`, `Int.tmod`).
  32-bit overflow is a separate concern: where a property is about it (C08, C96), the same expressions are
  evaluated in an `Option`-valued checked arithmetic in which leaving the 32-bit range is the distinct
  outcome `none` (undefined behaviour).
* **float/double**: exact real numbers in the models of namespace `Sla`: rounding, overflow to infinity, NaN and
  signed zero are *not* modelled there, unless a property says so.  A second set of models, `Sla.Fp`
  (`Model/Fp`, `Model/FpCode`, `Model/FpSphere`, `Model/FpCoords`, `Model/FpTangent`, `Model/FpObs`, `Model/FpNut`, `Model/FpCat`, `Model/FpEarth`, `Model/FpMoon`, `Model/FpDmoon`, `Model/FpEpv`, `Model/FpEvp`, `Model/FpSeries`, `Model/FpAxis`, `Model/FpMat`, `Model/FpRefraction`, `Model/FpEpochs`, `Model/FpTangentVec`, `Model/FpPolar`, `Model/FpBearing`, `Model/FpPolmo`, `Model/FpAltaz`, `Model/FpTangentPoint`, `Model/FpFit`, `Model/FpDispersion`, `Model/FpTangentPointVec`, `Model/FpAxisSingle`, `Model/FpTangentSingle`, `Model/FpTangentPointSingle`, `Model/FpTangentPointVecSingle`, `Model/FpGauss`, `Model/FpRandom`, `Model/FpHourAngle`, `Model/FpRefco`, `Model/FpDcmpf`), has every operation rounded: see "Floating point" below.  The single and double precision twins (`cc2s`/`dcc2s`, ...)
  therefore share one model; where their code differs they are modelled separately.
* `std::atan2(y,x)` is `Complex.arg (x + i y)` (range (-pi,pi], 0 at the origin);
  `std::fmod(a,b)` is `a - b*trunc(a/b)`; `round` is half away from zero; `std::sqrt`, `sin`, `cos`,
  `tan`, `asin`, `acos`, `exp`, `pow`, `log` are the real functions.  Where the C function would be given an
  argument outside its domain the model says what is excluded.
* Decimal literals approximating pi, 2pi, pi/2 and unit conversions built from them are replaced by the exact
  constant (stated at each definition); all other literals are the exact decimal rationals written in the source.
* Output parameters: a function returns the new value; "left untouched" is modelled by passing the old contents in.
* Arrays are functions/lists; aliasing is modelled only where a property is about it (C19), with an explicit
  flat memory.

## Floating point

`Model/Fp` defines the numbers of a binary format (`binary32`, `binary64`) as `m * 2^e` with `|m| < 2^prec` and
`emin <= e`, and `Rounding F` as any function that takes a real to a nearest number of the format and is odd.
`Lemmas/Fp` constructs one (`ieee F`, ties to even) so that the type is not empty.  `Model/FpCode` transcribes functions
that use basic arithmetic only, with one rounding for each operation, literal and conversion, in the order of the source.
Assumptions: no contraction to fused operations, no excess precision (both are what the x86-64 and AArch64 compilers do
with contraction turned off); `fmod`, `round`, `trunc`, `abs` are exact as the standard says; `sqrt` is correctly rounded.
Sine, cosine and arc tangent appear as arbitrary functions given as parameters (`Spec/FpLib`: signed zeros are not
modelled, so `atan2(0, x)` with negative `x` may be near either end of the range).  A rounding function has
no largest number, but gradual underflow is modelled.  The models take any function from reals to reals as the
rounding, so that C94 can say that overflow does not happen: with a function that agrees with the rounding only for results
up to the largest number (and is anything beyond), the outcome is the same.  NaN does not arise in the functions covered; the
sign of zero is not represented.

## Trusted base

Lean 4.33.0 kernel; Mathlib definitions; the axioms `propext`, `Classical.choice`, `Quot.sound` (checked with
`#print axioms` for each property theorem); the faithfulness of the hand-written model to the cited lines.
No own axioms, no `sorry`, no `native_decide`/`bv_decide`.

## Plan per property

| id | model | proof |
|----|-------|-------|
| C01 | `cldj` over Int with tdiv/tmod | spec: Gregorian `next` day; show cldj(next d) = cldj d + 1, anchor 1858-11-17, hence equality with the day count by induction |
| C02 | `djcl` over Int + real fraction | day number <-> date bijection: eliminate tdiv into ediv on the nonnegative range, solve with omega in 400-year cycles |
| C03 | status function | case analysis against the independent month-length spec |
| C04 | `caldj`, `calyd` | unfolding plus the spec of defaults |
| C05 | `clyd` | linear arithmetic with omega against a day-of-year spec; Julian-calendar spec outside the interval |
| C06 | `djcal` | rounding lemma + C02 |
| C07 | `dat`, `dtt` as if-chain | thresholds evaluated through `cldj` model; monotone by chain |
| C08 | checked 32-bit evaluation | interval bounds with omega; witness for overflow |
| C09,C10 | `combn` on lists | successor in an order on strictly ascending lists; induction |
| C11,C12 | `permut` state machine | mixed-radix counter; permutation decoding bijective |
| C13,C14 | `dd2tf`, `dtf2d`, ... | floor/round lemmas + omega |
| C15 | `drange`, `dranrm` | fmod lemma |
| C16 | `gmst`, `gmsta` | range from dranrm, congruence mod 2pi |
| C17 | epochs | field_simp |
| C18 | loops over Fin 3 | Mathlib `Matrix` |
| C19 | flat memory semantics of the loops | symbolic execution |
| C20-C23 | vectors, rotations | ring identities with sin^2+cos^2=1; `Matrix.specialOrthogonalGroup` |
| C24 | via deuler | corollaries of C23 |
| C25-C28 | spherical | `Complex.arg` lemmas |
| C29-C33 | horizon coordinates | as above, HasDerivAt for altaz |
| C34-C36 | tangent plane | algebra + arg lemmas |
| C37 | cubic | Cardano / trig identity |
| C38-C42 | fits | algebra, least squares orthogonality |
| C43 | Gauss-Jordan with pivoting, any n | loop invariant: row operations |
| C44,C45 | SVD | Mathlib matrices; termination by bounded iteration |
| C46-C58 | astronomy wrappers | compositions of the above |
| C59 | `epv` with its full tables | HasDerivAt of finite series; amplitude sums over the tables |
| C60 | formatting | direct |
| C61 | `nutc` series (full tables) | amplitude sums, derivative free |
| C62 | old galactic coordinates | composition of the E-term and rotation lemmas |
| C63 | `random`: seeding | integer arithmetic |
| C64 | `dmoon` | series with polynomial amplitudes; HasDerivAt term by term |
| C65-C68 | `moon`, `earth`, `ecor` | time argument through the calendar lemmas; equation of the centre with remainder bounds |
| C45, C69-C71 | `svd` as written, loops and labels | invariants "orthonormal factors, product unchanged" through Householder reduction, accumulation and QR sweeps; the negligibility test is a parameter `negl`; a rank-deficient counterexample is run by the kernel on exact rationals |
| C72 | `nutc80` | amplitude sums |
| C73 | `rcc` with its full tables | amplitude sums; monotonicity of clock time by a derivative bound |
| C74 | `wait` | rounding lemma |
| C75 | `evp` | Kepler remainder bounds; polar form of each motion; derivative of the sum against the velocity returned |
| C76 | `evp` and `earth` | both in polar form; differences of elements, equation of the centre, perturbation amplitudes |
| C77 | `Fp.drange`, `Fp.dranrm` | `fmod` is exact, Sterbenz' lemma |
| C78 | `Fp.djcl`, `Fp.djcal` | error bounds of one rounding against exact calendar |
| C79 | `Fp.dd2tf` ... | quotients of integers rounded do not cross an integer; error bounds below half a unit |
| C80 | `Fp.dvn`, `Fp.dmxv` ... | exactness, symmetry of rounding, error bounds |
| C81 | `Fp.epj` ... | composition of monotone maps; running error bounds |
| C82 | `Fp.gmst`, `Fp.gmsta` | running error bounds; exactness of `fmod` |
| C83 | `Fp.deuler`, `Fp.dmxv` | error of one product by Cauchy-Schwarz; induction over the chain |
| C84 | `Fp.dsepv`, `Fp.dsep`, `Fp.dcc2s` | a relative error d in the two legs moves the angle by at most pi/2 d |
| C85 | `gresid`, `gresidCalls` | rejection sampling from a source that splits; polar coordinates; product measures |
| C86 | `refroTropo`, `atmt`, `atms`, `refroQuads`, `quadLoop`, `refroNewton`, `refcoq`, `atmdsp` | differentiate; Snell's law; induction over halvings; Newton's method |
| C87 | `refz`, `refzStep`, `refv` | Newton's method on a convex function, second order Taylor estimates both ways |
| C88 | `prec`, `prebn`, `precl`, `preces` | identities of polynomials; angular velocity of the frame of date, mean value inequality, third order Taylor estimates |
| C89 | `dt`, `dtt` | parabolas on intervals; convexity |
| C90 | `Fp.cd2tf`, `Fp.cr2tf`, `Fp.cr2af`, `Fp.dtf2d` ... in `binary32` | as C79 |
| C91 | `Fp.dmxv` ... in `binary32`, `Fp.sepv`, `Fp.sep`, `Fp.euler` | as C80, C83; conversion of the double precision result |
| C92 | `moon`, `dmoon` | tables of the one are the first terms of the other; term by term bounds, integer sums over the tables by kernel evaluation; frames; angle from chord |
| C93 | `Fp.de2h`, `Fp.dh2e`, `Fp.zd`, `Fp.dbear`, `Fp.pa` | error of the vector, then of its polar angles, measured as an angle on the sky so that poles are not singular; rotation between the frames |
| C94 | all of `Fp` | bounds 2^n for every intermediate result, carried along with the equality of the two evaluations |
| C95 | `svd`, `svdsol`, `svdcov`, `dmat` | two runs side by side (relational loop invariants); known cells grow as they are written |
| C96 | `combn32`, `permut32`, `dd2tf32`, `djcal32`, `yearQuarters32` | equality with the exact models while in range; witnesses beyond |
| C97 | `Fp.earth`, `Fp.ecor` | running error bounds; the reduced angle is compared up to whole turns |
| C98 | `Fp.moon` | running error bounds; induction over the terms of a series, the sums over the tables computed by the kernel |
| C99 | `prec`, `ecmat`, `eqecl` | derivative of the product of rotations with respect to the epoch, mean value inequality for the length of a moving vector |
| C100 | `epv`, `evp`, `prec` | leading terms of the series matched with the Kepler ellipse expanded in the eccentricity, sums of the absolute amplitudes of the rest (kernel), C99 for the frames |
| C101 | `svd`, `svdsol` | a QR transformation of a 2 x 2 block leaves the product of diagonal and superdiagonal element below 1e-60; cancellation of the last element |
| C102 | `eqgal`, `galeq`, `galsup`, `supgal`, `preces`, `eqecl`, `ecleq` rounded | running error of the Euler angles; entries of the matrices (C83); direction of a vector (C93) |
| C103 | `pda2h`, `pdq2h` in the critical bands | C33 restated for the adjusted arguments; range of each adjustment |
| C104 | `ds2tp`, `dtp2s` in double precision | running error analysis; polar angles of a neighbouring vector, turned about the pole |
| C105 | `rverot`, `rvlsrd`, `rvlsrk`, `rvgalc`, `rvlg`, `airmas`, `geoc`, `pvobs` with rounding | running error analysis |
| C106 | `nutc`, `nut`, `prenut`, `eqeqx` with rounding | running error analysis, sums over the 194 terms |
| C107 | `etrms`, `addet`, `subet`, `eg50`, `ge50`, `pm` with rounding | running error analysis of the vectors, then of the angles |
| C108 | `dmoon` with rounding, and `moon` in `float` against it | running error analysis with generated bounds; sums over the tables by kernel evaluation |
| C109 | `epv` with rounding, and `earth` in `float` against it | error of a term in terms of its amplitude and argument; sums over the tables by kernel evaluation |
| C110 | `evp` in `float` and `double`, against `epv` and `earth` as computed | running error analysis with generated bounds, angles up to full turns; induction over the loops |
| C111 | `nutc80` in `double`, against `nutc` as computed | running error analysis with generated bounds; induction over the 106 terms |
| C112 | `precl` in `double`, there and back | running error analysis; C83, C88 |
| C113 | `rcc` in `double` | running error analysis with generated bounds; induction over the terms |
| C114 | `dav2m`, `dm2av` in `double` | running error analysis; atan2 of neighbouring points |
| C115 | `pcd`, `unpcd` in `double`: the collapse for small coefficients | relative error bounds; absorption of small addends |
| C116 | `invf`, `xy2xy` in `double` | error bounds relative to the condition of the determinant |
| C117 | `unpcd` in `double` | relative errors; angles of neighbouring points; uniqueness of the root near the point |
| C118 | `dmat`, `smat` with rounding | closed form of a pass; invariants over the passes (recorded rows, zero row, zero column, diagonal); explicit roundings for the counterexamples |
| C119 | `refz`, `refv` in double | running error bounds; continuity across the rounded threshold at 83 degrees; the exact inversion of C87 |
| C120 | `refcoq` in double | running error bounds; 10^y by the exponential; relative bounds for the squared wavelength |
| C121 | `dat`, `dtt`, `dt`, `epco` in double | running error bounds; continuity of the formulae of `dt` at their seams |
| C122 | `dtp2v`, `dv2tp`, `tp2v`, `v2tp` with rounding | running error bounds in proportion to the distance from the axis; exact inversion for tangent vectors of any length near one |
| C123 | `dc62s`, `cc62s` with rounding | running error bounds in units of the distances and the speed, for both precisions at once; latitude by the angle between neighbouring points; underflow of squares as witness |
| C124 | `dpav`, `pav` with rounding | running error bounds in units of the distance from the axis and the length of the second vector; the point reached along the computed bearing |
| C125 | `polmo` with rounding | running error bounds; quotients not exceeding one; angle between neighbouring points of the right half plane |
| C126 | `altaz` with rounding | running error bounds in proportion to 1e-15 / sin d; identity with `de2h`; bounds under the clamp |
| C127 | `dtps2c` with rounding | running error bounds in proportion to 1e-15 / r; angle of the rounded solutions; the count off the limit |
| C128 | `pxy` with rounding, any number of samples | induction over the rounded running sum; square root of a relative error; triangle inequality for root mean squares |
| C129 | `atmdsp` with rounding | running error bounds; exact cancellation for equal wavelengths |
| C130 | `dtpv2c` with rounding | running error bounds in units of rho, hypot(r, xi) and their product, in proportion to 2e-15 / (r rho) |
| C131 | `av2m`, `m2av` in `float` | running error analysis; atan2 of neighbouring points |
| C132 | `s2tp`, `tp2s` in `float` | running error analysis; directions of neighbouring vectors |
| C133 | `tps2c` in `float` | running error bounds in proportion to 1.2e-6 / r; angle of the rounded solutions; the count off the limit |
| C134 | `tpv2c` in `float` | running error bounds in proportion to 1e-6 / (r ρ); the count off the limit |
| C135 | `gresid` in `float` | relative error bounds; spacing of the uniforms keeps the radius above 2^-49; invariant over call histories |
| C136 | seed of `random` in `float` and `double` | bounds on powers of ten with a perturbed exponent; rounding of the quotient |
| C137 | `pda2h`, `pdq2h` in `double` | residual of the equation; angles modulo whole turns; error in the divisor |
| C138 | `refco` in `double` | series for arctan(1/4); tangents of nearby angles; rounding of the two constants |
| C139 | `dcmpf` in `double` | relative error of a root; sign of a rounded determinant; angles modulo whole turns |

## What is modelled, what is not

Every function with a source file `/repo/src/*.cc` has a model definition, except that single precision twins whose code is the
same line by line share the model of the double precision function (named in its comment). Not modelled:

* infinities and NaN; rounding outside the functions of `Model/FpCode`, `Model/FpSphere`, `Model/FpCoords`, `Model/FpTangent`, `Model/FpObs`, `Model/FpNut`, `Model/FpCat`, `Model/FpEarth`, `Model/FpMoon`, `Model/FpDmoon`, `Model/FpEpv` and `Model/FpEvp`, `Model/FpSeries`, `Model/FpAxis`, `Model/FpMat`, `Model/FpRefraction`, `Model/FpEpochs`, `Model/FpTangentVec`, `Model/FpPolar`, `Model/FpBearing`, `Model/FpPolmo`, `Model/FpAltaz`, `Model/FpTangentPoint`, `Model/FpFit`, `Model/FpDispersion`, `Model/FpTangentPointVec`, `Model/FpAxisSingle`, `Model/FpTangentSingle`, `Model/FpTangentPointSingle`, `Model/FpTangentPointVecSingle`, `Model/FpGauss`, `Model/FpRandom`, `Model/FpHourAngle`, `Model/FpRefco`, `Model/FpDcmpf` (see the conventions);
* the container classes and operators of `slalib.h` beyond their values (no allocation, no iterators), and the `assert`s in
  them, except as bounds in C19 and C45;
* the standard library: `rand`/`RAND_MAX` is an arbitrary source in C55/C63, `sleep` is the number of seconds passed to it,
  the C string functions are modelled on byte lists;
* the test program `tests/` and the build.

`Model/SvdRoutine` and `Model/Svd` are parametrised by the test "this off-diagonal element is negligible"
(`an + |x| == an` in floating point): theorems hold for every such test that accepts zero, or for the exact test
`x = 0` where they say so.

Deviations found between documentation and code are listed below as they are established.

## Mutation testing

`seeded/LOG.jsonl` has one line for each wrong program tried against the theorems in a scratch copy.

- An entry counts as caught when the build of the scratch copy fails outside `Model/`. `theorems_failed` names the declarations in
  which errors were reported. Often this is a lemma, and the property theorems that import it were then not reached.
- A failed build shows that the proof does not carry over to the wrong program. It does not by itself show that the theorem is
  false of it. For most entries this was judged by reading, not proved, and edits of numerical constants were not all compared
  with the tolerance of the theorem.
- Entries with `"result": "survived"` were not caught. Until entry 274 the tool recorded only caught edits; the earlier survivors
  were added afterwards from its output. The output of the first batch was not kept, so a survivor there could be missing.

## Code/documentation disagreements noted while reading

* `epco`: a lower-case `j` as the requested type, or a lower-case `b` as the given type, is not recognised.
* `fitxy` (4-coefficient, two coincident samples): returns success with an all-zero model.
* `djcl`/`djcal`: guard admits MJDs whose intermediate `4*jd` exceeds 32-bit int.
* `dm2av`: returns the null vector for a 180 degree rotation.
* `combn`: the documented last combination is written in descending order, the code's is ascending.
* `dtt`: "fixed value before 1972" is not what `dat` does.
* `clyd`: outside 1900 March 1 to 2100 February 28 the result is not the Gregorian day in year, and the comment on the lower
  limit of the year (-4699) differs from the test (-4711).
* `djcal`, `dd2tf`, `dr2tf`, `dr2af`: `10^ndp` leaves the 32-bit range from `ndp = 10`.
* `combn`: with 2^31-1 candidates `ncand + 1` overflows; `permut`: its loop variable overflows with 2^31-1 elements.
* `dd2tf`: the conversion of the hours to `int` is undefined from 2^31 hours.
* `cldj`: overflows for years from about 1465177.
* `dat`: not monotone at 1961-08-01 and 1968-02-01 (as in the published table).
* `dtf2d`, `daf2r`, ...: documented limit of minutes and seconds 60, the code refuses 60; the last failing field decides.
* `slalib.h` `Array`: the assertions do not reject a negative index.
* `polmo`: divides by zero at a pole.
* `dtps2c`: the result must not alias the argument; for a star at the pole with zero `xi` the second solution is wrong
  (`C36_pole_star`); a count of two does not mean that either is on the near side.
* `dtpv2c` and `dtps2c` disagree in the borderline case (`C36_dtpv2c_borderline`).
* `moon`: the rate of the distance lacks a factor `cos p` (`C66_radial`).
* `permut`: a negative digit of the state writes before the start of `order`.
* `dvn`: the unit vector must not share storage with the argument.
* `dc62s`: for the null position the distance returned is the speed (`C26_null`).
* `dpav` gives 0 for a point at a pole, `dbear` does not (`C28_pole`); `altaz` and `pa` disagree at the zenith.
* `pda2h`, `pdq2h`: compare angles without reducing them; exact only outside bands of 1e-12 around critical latitudes.
* `drange(pi)` is `-pi`.
* `unpcd`: undefined at a double root (`C37_double_root`); for coefficients between 1e-60 and 1e-40 the computed result
  is the origin (`C115_unpcd_collapse`).
* `dmat` and `smat` test for singularity with the absolute threshold 1e-20, far below rounding errors: a matrix with two equal rows is
  inverted without a report (all elements 49 in `double`, 41 in `float`: `C118_equal_rows_missed`,
  `C118_equal_rows_missed_single`).
* `dcmpf`: zero column (`C39_degenerate`).
* `dmat`: absolute threshold rejects small regular matrices (`C43_false_alarm`).
* `eqgal`, `galeq`: the matrix is orthogonal to 4.3e-11 only.
* `atmdsp`: not undone by swapping the two wavelengths.
* `refro`: the humidity term divides by zero for some inputs (`C54_singular`).
* `refz`, `refv`: the documented 1e-11 arcseconds at 80 degrees and 1 microarcsecond within 30 degrees fail at sea level
  (`C87_refz_documented`, `C87_refv_documented`).
* `precl`: not reversible although a precession must be.  Reversal needs the coefficient 139.7459 of src/precl.cc:52 to be
  30.2226 + 109.5270 = 139.7496 (two digits seem exchanged, perhaps in the source).  The documented precision of one
  milliarcsecond over 1000-3000 cannot hold in both directions (`C88_precl_not_reversible`, `C88_precl_documented`).
* `refro`: temperatures up to 500 K are accepted but the air is clamped at 320 K, and then index and gradient disagree
  (`C86_hot_air`).
* `gresid`: undefined for `x = y = 0` (in floats a NaN can be returned: `C135_nan`).
* `veri`: ambiguous for fields from 1000 (`C60_ambiguous`).
* `earth`: documented speed errors 47/26 E-10 AU/s should read E-12.
* `svd`: the status is a zero based index (but never 0 on failure); the cancellation loop omits an assignment of the original
  (C71).
* `wait`: rounds to whole seconds (C74).
* `evp`: positions are on the moving equinox of date, velocities are free of its motion; the rates of the perturbations from
  the eleventh on and the factor of the lunar parallax in the lunar rate are dropped, inside the documented accuracy.
* `dranrm`, `ranorm`: the result can be the whole turn (`C77_dranrm_full_turn`).
* `djcl`: the fraction can be 1 (`C78_djcl_whole_day`).
* `dr2af`: nine decimals of an arcsecond are not restored by the round trip through `daf2r` (`C79_dms_nine_decimals`).
* `dvn`: underflow makes small non-null vectors null (`C80_dvn_underflow`); components from 2^512 overflow (`C94_dvn_overflows`).
