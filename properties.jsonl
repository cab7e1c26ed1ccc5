{"id": "C01", "title": "cldj counts Gregorian days", "statement": "For every valid Gregorian calendar date from year -4699 on, sla::cldj() returns OK and an MJD equal to the number of days between that date and 1858 November 17: the MJD of the next calendar day is always exactly one more, across month ends, leap days, century rules and year 0, and 1858 Nov 17 is 0.", "quantifier": "all valid (year, month, day) with year >= -4699, no upper bound on the year (int overflow treated separately in C08)", "why_tests_cant": "There are infinitely many dates and the century/leap rules interact; a test samples dates, a successor-based proof fixes the value at every date.", "anchors": ["src/cldj.cc: cldj", "src/slalib.cc: validate_gregorian_day", "src/slalib.h: G2JStatus"]}
{"id": "C02", "title": "djcl is the exact inverse of cldj", "statement": "For every MJD in the accepted range sla::djcl() returns a calendar date that is valid in the Gregorian calendar together with a fraction in [0,1), and feeding that date to sla::cldj() and adding the fraction gives back the MJD; conversely every valid date survives cldj followed by djcl, with any fraction of day added in between.", "quantifier": "all real MJDs in (-2395520, 1e9) and all valid dates whose MJD lies in that range", "why_tests_cant": "About 2.4 billion day numbers times a continuum of fractions; integer-division formulas fail on isolated days that samples miss.", "anchors": ["src/djcl.cc: djcl", "src/cldj.cc: cldj"]}
{"id": "C03", "title": "Status and outputs of cldj for invalid dates", "statement": "sla::cldj() reports a year below -4699 as BAD_YEAR and otherwise a month outside 1..12 as BAD_MONTH, leaving the caller's mjd variable unchanged in both cases; otherwise it always assigns mjd and reports BAD_DAY exactly when the day does not exist in that month of the Gregorian calendar.", "quantifier": "all integer year, month, day triples and all prior contents of the output variable", "why_tests_cant": "The input space is all of Z^3 and the precedence between the three failures must hold on every combination.", "anchors": ["src/cldj.cc: cldj", "src/slalib.cc: validate_gregorian_day"]}
{"id": "C04", "title": "Two-digit year defaults", "statement": "sla::caldj() and sla::calyd() treat years 0..49 as 2000..2049 and 50..99 as 1950..1999 and pass every other year through unchanged, so they agree with sla::cldj()/sla::clyd() on the completed year for every month and day, including status and untouched outputs.", "quantifier": "all integer years, months, days and prior output contents", "why_tests_cant": "An equality of two functions over all of Z^3.", "anchors": ["src/caldj.cc: caldj", "src/calyd.cc: calyd", "src/slalib.cc: process_year_defaults"]}
{"id": "C05", "title": "clyd gives year and day-in-year", "statement": "For every Gregorian date from 1901 January 1 to 2100 February 28, sla::clyd() returns OK, the calendar year and the ordinal day in that year (1 = Jan 1). In March-December 1900 (which the documentation includes) the day returned is the Julian-calendar ordinal, one more than the Gregorian one; elsewhere the pair advances like a Julian calendar date. Bad year/month leave outputs unchanged; a bad day still returns values with BAD_DAY.", "quantifier": "all integer year, month, day", "why_tests_cant": "Leap-year arithmetic with truncating division over an unbounded year range.", "anchors": ["src/clyd.cc: clyd", "src/calyd.cc: calyd"]}
{"id": "C06", "title": "djcal is djcl after rounding", "statement": "sla::djcal(ndp, mjd) returns the calendar date of the instant obtained by rounding mjd to the nearest 10^-ndp day, with the fourth field in 0..10^ndp-1: date fields plus fraction reproduce the MJD within half a unit in the last place, and rounding up at midnight carries into the next day/month/year.", "quantifier": "all ndp >= 0 and all real MJDs in the accepted range", "why_tests_cant": "The carry at midnight of month/year ends occurs on a set no sampling hits reliably.", "anchors": ["src/djcal.cc: djcal", "src/cldj.cc: cldj"]}
{"id": "C07", "title": "Leap-second table of dat is consistent", "statement": "sla::dat(utc) is constant between table dates; every table date from 1972 on is the MJD that sla::cldj() assigns to a 1 January or 1 July; from 1972-01-01 on the value is a whole number of seconds, starts at 10 and increases by exactly one second at each table date, so it is non-decreasing in utc; sla::dtt() is dat() + 32.184 s for every utc.", "quantifier": "all real utc (as MJD)", "why_tests_cant": "A chain of comparisons over a continuum; a swapped or mistyped threshold only shows between two dates.", "anchors": ["src/dat.cc: dat", "src/dtt.cc: dtt"]}
{"id": "C08", "title": "No signed overflow in calendar arithmetic on its usable range", "statement": "With 32-bit int, every intermediate value of sla::cldj()/sla::clyd()/sla::djcl() stays inside the int range exactly up to February 1465161 (cldj), February 1465073 (clyd) and the day MJD 534459923 (djcl), for all months and all day numbers from -1000 to 1e9; the functions accept later dates (djcl up to MJD 1e9), for which they overflow.", "quantifier": "all int inputs in the stated ranges; all intermediate subexpressions", "why_tests_cant": "Overflow is undefined behaviour that a test may not observe and depends on every intermediate subexpression.", "anchors": ["src/cldj.cc: cldj", "src/clyd.cc: clyd", "src/djcl.cc: djcl"]}
{"id": "C09", "title": "combn enumerates every combination exactly once", "statement": "Starting from cand[0] < 1 and calling sla::combn() repeatedly, every call returns a strictly ascending list of nsel numbers from 1..ncand; the first C(ncand,nsel) calls return every such list exactly once with status OK, and call number C(ncand,nsel)+1 restarts with the first list and reports NO_MORE.", "quantifier": "all nsel, ncand with 1 <= nsel <= ncand and call sequences of every length", "why_tests_cant": "The cycle length grows combinatorially; only an induction covers all nsel, ncand and histories.", "anchors": ["src/combn.cc: combn", "src/slalib.h: CPStatus"]}
{"id": "C10", "title": "combn argument errors and restart", "statement": "sla::combn() with nsel < 1, ncand < 1 or nsel > ncand reports BAD_ARG without touching the list; a list whose first element is below 1 is replaced by 1..nsel; a call never writes outside the first nsel elements.", "quantifier": "all integers nsel, ncand and all list contents", "why_tests_cant": "Quantifies over all argument values and array contents.", "anchors": ["src/combn.cc: combn"]}
{"id": "C11", "title": "permut enumerates every permutation exactly once", "statement": "Starting from istate[0] = -1 and calling sla::permut() repeatedly, every call returns a permutation of 1..n; the first n! calls return every permutation exactly once with status OK, and call n!+1 restarts with the first one and reports NO_MORE.", "quantifier": "all n >= 1 and call sequences of every length", "why_tests_cant": "n! cycles cannot be run for general n; the mixed-radix counter must be proved correct by induction on n.", "anchors": ["src/permut.cc: permut"]}
{"id": "C12", "title": "permut argument errors and restart", "statement": "sla::permut() with n < 1 reports BAD_ARG and leaves both arrays untouched; istate[0] < 0 restarts the sequence; writes stay inside the first n elements of each array.", "quantifier": "all integers n and all array contents", "why_tests_cant": "Quantifies over all argument values and array contents.", "anchors": ["src/permut.cc: permut"]}
{"id": "C13", "title": "Time/angle decomposition fields are canonical", "statement": "sla::dd2tf(ndp, days) (and dr2tf, dr2af on top of it) returns sign, hours, minutes, seconds and fraction with minutes and seconds in 0..59 and 0 <= fraction < 10^ndp, whose value is |days| rounded to the nearest unit of 10^-ndp seconds (half away from zero), the sign being '-' exactly for negative input; a negative ndp behaves like 0. The scale factor 10^ndp is representable exactly for ndp <= 9; a larger ndp overflows.", "quantifier": "all ndp and all real interval values", "why_tests_cant": "Rounding carries (59.9999 -> next minute) hit measure-zero boundaries.", "anchors": ["src/dd2tf.cc: dd2tf", "src/dr2tf.cc: dr2tf", "src/dr2af.cc: dr2af", "src/cd2tf.cc: cd2tf"]}
{"id": "C14", "title": "Decompose then compose returns the angle", "statement": "Feeding the fields of sla::dd2tf()/dr2tf()/dr2af() back into sla::dtf2d()/dtf2r()/daf2r() gives the original value to within half a unit of the last place for every input whose fields are accepted, and the composing function reports OK exactly when all fields are in range, naming the first bad field in its documented precedence otherwise, while still returning the value.", "quantifier": "all field values and all real angles; ndp >= 0", "why_tests_cant": "Inverse-pair over a continuum with rounding; precedence over all combinations of bad fields.", "anchors": ["src/dtf2d.cc: dtf2d", "src/dtf2r.cc: dtf2r", "src/daf2r.cc: daf2r", "src/dd2tf.cc: dd2tf"]}
{"id": "C15", "title": "Angle normalisation", "statement": "sla::dranrm(a) is in [0, 2pi) and differs from a by a whole number of turns; sla::drange(a) is in [-pi, pi], differs from a by a whole number of turns, is odd in a and equals a on (-pi,pi); both are idempotent and periodic where the result is unique.", "quantifier": "all real angles", "why_tests_cant": "Boundary behaviour at odd multiples of pi and negative angles over all reals.", "anchors": ["src/drange.cc: drange", "src/dranrm.cc: dranrm", "src/range.cc: range", "src/ranorm.cc: ranorm"]}
{"id": "C16", "title": "Sidereal time functions agree", "statement": "sla::gmst(ut1) and sla::gmsta(date, ut1) return angles in [0, 2pi), and splitting one instant into any date/fraction pair with the same sum gives the same sidereal time.", "quantifier": "all real dates and all splits of the same instant", "why_tests_cant": "A continuum of splits; agreement is an identity, not a sample.", "anchors": ["src/gmst.cc: gmst", "src/gmsta.cc: gmsta"]}
{"id": "C17", "title": "Epoch conversions are mutually inverse", "statement": "sla::epj/epj2d and sla::epb/epb2d are exact inverses of each other, strictly increasing, and sla::epco(k0,k,e) composes them: converting between Besselian and Julian is the identity when both types coincide and converting there and back returns the epoch.", "quantifier": "all real epochs and dates, all pairs of type letters (upper and lower case)", "why_tests_cant": "Inverse-pair over all reals, and letter handling over all characters.", "anchors": ["src/epb.cc", "src/epb2d.cc", "src/epj.cc", "src/epj2d.cc", "src/epco.cc: epco"]}
{"id": "C18", "title": "Matrix-vector primitives implement linear algebra", "statement": "sla::dmxm/dmxv/dimxv compute the matrix product, matrix-vector product and transpose-vector product; dmxv(dmxm(A,B),v) = dmxv(A,dmxv(B,v)); for rotation matrices dimxv undoes dmxv and lengths, scalar products and vector products (dvdv, dvxv) are preserved.", "quantifier": "all 3x3 real matrices and 3-vectors", "why_tests_cant": "Identities over R^9 x R^9 x R^3.", "anchors": ["src/dmxm.cc", "src/dmxv.cc", "src/dimxv.cc", "src/dvdv.cc", "src/dvxv.cc"]}
{"id": "C19", "title": "Output arrays may alias input arrays", "statement": "sla::dmxm, dmxv, dimxv and dvxv give the same result when the output array is the same storage as (or overlaps) an input array as when it is distinct, and write nothing else.", "quantifier": "all memory contents and all placements of the argument arrays in memory, including overlaps", "why_tests_cant": "Quantifies over memory layouts.", "anchors": ["src/dmxm.cc", "src/dmxv.cc", "src/dimxv.cc", "src/dvxv.cc"]}
{"id": "C20", "title": "Vector normalisation", "statement": "sla::dvn(v) returns the length of v and a vector that is parallel to v with length one, or the null vector if v is null.", "quantifier": "all 3-vectors", "why_tests_cant": "All of R^3 including the exceptional null vector.", "anchors": ["src/dvn.cc: dvn", "src/vn.cc: vn"]}
{"id": "C21", "title": "Axial vector to matrix is the rotation it describes", "statement": "sla::dav2m(v) is a proper rotation (orthogonal, determinant +1) leaving v fixed, with rotation angle |v| in the documented sense, the identity for v = 0, and dav2m(-v) its inverse.", "quantifier": "all 3-vectors", "why_tests_cant": "Orthogonality is an identity over R^3.", "anchors": ["src/dav2m.cc: dav2m", "src/av2m.cc"]}
{"id": "C22", "title": "Axial vector and rotation matrix round trip", "statement": "sla::dm2av(sla::dav2m(v)) = v for every v with |v| < pi, and sla::dav2m(sla::dm2av(R)) = R for every proper rotation matrix R that is not a half turn.", "quantifier": "all vectors in the open ball of radius pi, all rotation matrices with trace > -1", "why_tests_cant": "Inverse pair between two continua, with a singular surface at 180 degrees.", "anchors": ["src/dm2av.cc: dm2av", "src/dav2m.cc: dav2m"]}
{"id": "C23", "title": "Euler rotations compose as documented", "statement": "sla::deuler(order, phi, theta, psi) is the product of up to three elementary rotations about the axes named by the letters (X/x/1, Y/y/2, Z/z/3), first letter applied first; processing stops at the first character not recognised; the result is always a proper rotation; the empty string gives the identity.", "quantifier": "all character strings and all real angles", "why_tests_cant": "Quantifies over every string and all angles.", "anchors": ["src/deuler.cc: deuler", "src/euler.cc"]}
{"id": "C24", "title": "Precession, nutation and ecliptic matrices are rotations", "statement": "The matrices returned by sla::prec, precl, prebn, nut, prenut and ecmat are proper rotations for all epochs; the precession matrices are the identity when both epochs coincide; prenut = nut x prec.", "quantifier": "all real epochs and dates", "why_tests_cant": "Identity over all epochs.", "anchors": ["src/prec.cc", "src/precl.cc", "src/prebn.cc", "src/nut.cc", "src/prenut.cc", "src/ecmat.cc"]}
{"id": "C25", "title": "Spherical and Cartesian coordinates", "statement": "sla::dcs2c returns a unit vector; sla::dcc2s of a vector returns longitude in (-pi,pi] and latitude in [-pi/2,pi/2] pointing in the same direction, (0,0) for the null vector and longitude 0 at the poles; dcc2s(dcs2c(a,b)) = (a,b) for a in (-pi,pi], |b| < pi/2.", "quantifier": "all real spherical coordinates and all 3-vectors", "why_tests_cant": "Inverse pair with singular points at the poles over a continuum.", "anchors": ["src/dcs2c.cc", "src/dcc2s.cc", "src/cs2c.cc", "src/cc2s.cc"]}
{"id": "C26", "title": "Spherical/Cartesian position-velocity conversion", "statement": "The velocity returned by sla::ds2c6 is the time derivative of the position for every trajectory with the given spherical rates; sla::dc62s inverts it for every point off the polar axis, and its rates are the derivatives of its coordinates along every Cartesian trajectory.", "quantifier": "all spherical positions and rates; all Cartesian position-velocity pairs off the polar axis", "why_tests_cant": "A derivative statement over all trajectories.", "anchors": ["src/ds2c6.cc", "src/dc62s.cc", "src/cs2c6.cc", "src/cc62s.cc"]}
{"id": "C27", "title": "Angular separation is a metric", "statement": "sla::dsepv(a,b) is the angle between the vectors, in [0,pi], symmetric, independent of the vectors' positive lengths, zero for parallel vectors, pi for opposite ones, and satisfies the triangle inequality; sla::dsep of two spherical positions is the same angle.", "quantifier": "all pairs and triples of non-null vectors / spherical positions", "why_tests_cant": "Triangle inequality over R^9.", "anchors": ["src/dsepv.cc", "src/dsep.cc", "src/sepv.cc", "src/sep.cc"]}
{"id": "C28", "title": "Bearing and position angle agree", "statement": "sla::dbear of two spherical positions equals sla::dpav of the corresponding direction vectors, lies in (-pi,pi], and is the bearing of the second point seen from the first (zero when due north). At a pole, where bearing is undefined, sla::dpav returns 0 while sla::dbear uses the given longitude.", "quantifier": "all pairs of spherical positions, first point strictly between the poles for the agreement", "why_tests_cant": "Equality of two independently coded functions over R^4.", "anchors": ["src/dbear.cc", "src/dpav.cc", "src/bear.cc", "src/pav.cc"]}
{"id": "C29", "title": "Equatorial/horizon conversion round trip", "statement": "sla::dh2e inverts sla::de2h: for every hour angle in (-pi,pi], declination strictly between the poles and observer latitude such that the zenith and nadir are excluded, converting to azimuth/elevation and back returns the start; azimuth is in [0,2pi), elevation in [-pi/2,pi/2].", "quantifier": "all directions and all latitudes", "why_tests_cant": "Inverse pair over a 3-dimensional continuum with singular directions.", "anchors": ["src/de2h.cc", "src/dh2e.cc", "src/e2h.cc", "src/h2e.cc"]}
{"id": "C30", "title": "Zenith distance consistent with elevation", "statement": "sla::zd(ha,dec,phi) is in [0,pi] and equals pi/2 minus the elevation returned by sla::de2h, i.e. the angle between the direction and the zenith.", "quantifier": "all hour angles, declinations, latitudes", "why_tests_cant": "Equality of two functions over R^3.", "anchors": ["src/zd.cc", "src/de2h.cc"]}
{"id": "C31", "title": "altaz rates are true derivatives", "statement": "For a telescope tracking at the unit hour-angle rate, the velocities and accelerations of azimuth, elevation and parallactic angle returned by sla::altaz are the first and second derivatives with respect to hour angle of the positions it returns, away from the zenith singularity.", "quantifier": "all hour angles, declinations and latitudes away from the zenith/nadir", "why_tests_cant": "Derivative statements over a continuum.", "anchors": ["src/altaz.cc: altaz"]}
{"id": "C32", "title": "Parallactic angle", "statement": "sla::pa(ha,dec,phi) is the angle at the star between the direction to the pole and the direction to the zenith (bearing of the zenith from the star), equal to the value in sla::altaz except exactly at the zenith and nadir, where sla::pa returns zero.", "quantifier": "all hour angles, declinations, latitudes", "why_tests_cant": "Equality over R^3.", "anchors": ["src/pa.cc", "src/altaz.cc", "src/dbear.cc"]}
{"id": "C33", "title": "Hour angle for a given azimuth or parallactic angle", "statement": "Every solution that sla::pda2h reports as valid is an hour angle at which the star has the requested azimuth, and every solution that sla::pdq2h reports as valid is an hour angle at which the parallactic angle is the requested one, up to the documented ambiguity; when none is reported none exists.", "quantifier": "all latitudes, declinations and azimuths / parallactic angles not within 1e-12 of the critical values (poles, equator, meridian, star through the zenith), which the functions step around", "why_tests_cant": "Existence and completeness over a continuum.", "anchors": ["src/pda2h.cc", "src/pdq2h.cc"]}
{"id": "C34", "title": "Tangent-plane projection round trip (spherical)", "statement": "sla::ds2tp and sla::dtp2s are inverse: projecting a point given by plane coordinates and tangent point back to the plane returns the plane coordinates with status OK; deprojecting a projected star returns the star's direction, right ascension in [0,2pi).", "quantifier": "all plane coordinates, tangent points, and stars in the front hemisphere", "why_tests_cant": "Inverse pair over R^4.", "anchors": ["src/ds2tp.cc", "src/dtp2s.cc", "src/s2tp.cc", "src/tp2s.cc"]}
{"id": "C35", "title": "Tangent-plane projection: vector and spherical forms agree", "statement": "sla::dv2tp/dtp2v on direction cosines and sla::ds2tp/dtp2s on spherical coordinates give the same plane coordinates, the same status, and the same directions, for every star and every tangent point off the poles; the status classifies the star by its angular distance from the tangent point.", "quantifier": "all directions and tangent points", "why_tests_cant": "Equality of independently coded functions over a continuum, including all status thresholds.", "anchors": ["src/dv2tp.cc", "src/dtp2v.cc", "src/ds2tp.cc", "src/dtp2s.cc"]}
{"id": "C36", "title": "Tangent point from plane coordinates and star", "statement": "Every tangent point that sla::dtps2c / sla::dtpv2c reports as a solution reproduces the given star at the given plane coordinates; the number of solutions reported (0,1,2) is as documented, and a star with no admissible tangent point yields 0. (Exceptions, shown by witnesses: a star exactly at a pole, and the borderline of coincident solutions in the vector form.)", "quantifier": "all plane coordinates and stars strictly between the poles", "why_tests_cant": "Soundness and completeness of a multi-valued inverse.", "anchors": ["src/dtps2c.cc", "src/dtpv2c.cc"]}
{"id": "C37", "title": "Pincushion distortion is invertible", "statement": "sla::pcd multiplies plane coordinates by 1 + d r^2; sla::unpcd returns coordinates that sla::pcd maps back to its input, for every coefficient (both signs) and every point; of several such points on the ray it returns the one nearest to its input, except at a double root, where it returns the far one; and unpcd(pcd(x,y)) = (x,y) wherever 3 d r^2 > -1.", "quantifier": "all real coefficients and coordinates", "why_tests_cant": "A cubic solved by three branches; continuum of inputs.", "anchors": ["src/pcd.cc", "src/unpcd.cc"]}
{"id": "C38", "title": "Linear model inversion", "statement": "If sla::invf succeeds, sla::xy2xy with the inverted coefficients undoes sla::xy2xy with the original coefficients in both orders, and inverting twice gives the original model; it fails exactly when the linear part is singular and then leaves the output untouched.", "quantifier": "all six-coefficient models and all points", "why_tests_cant": "Identities over R^6 x R^2.", "anchors": ["src/invf.cc", "src/xy2xy.cc"]}
{"id": "C39", "title": "Model decomposition recomposes", "statement": "The zero points, scales, perpendicularity and orientation returned by sla::dcmpf recompose, by the transformations documented in its comment, to the given coefficients for every model both of whose columns are non-zero; with a zero column the result does not recompose.", "quantifier": "all six-coefficient models", "why_tests_cant": "Identity over R^6 with branch cuts.", "anchors": ["src/dcmpf.cc"]}
{"id": "C40", "title": "Six-coefficient fit is the least-squares optimum", "statement": "When sla::fitxy with the six-coefficient model reports success, the returned model is the unique minimiser of the sum of squared residuals over all six-coefficient models; fewer than three samples are reported as insufficient and collinear measured points as having no solution, both leaving the model unchanged.", "quantifier": "all sample counts and sample sets, all competing models", "why_tests_cant": "Optimality over all competitors and unbounded sample count.", "anchors": ["src/fitxy.cc", "src/dmat.cc"]}
{"id": "C41", "title": "Four-coefficient fit is the least-squares optimum", "statement": "When sla::fitxy with the four-coefficient (solid body) model reports success for three or more samples, the returned model is a solid-body transformation (scale, rotation, optional reflection, shift) minimising the sum of squared residuals over all such transformations. Two samples at different points are reproduced exactly by an unreflected model; two coincident samples are reported as success with an all-zero model, three or more coincident ones as having no solution.", "quantifier": "all sample counts and sample sets, all competing solid-body models", "why_tests_cant": "Optimality over all competitors and both parities.", "anchors": ["src/fitxy.cc"]}
{"id": "C42", "title": "Fit residuals", "statement": "sla::pxy returns the predicted coordinates of every sample under the model and the RMS of the residuals in X, in Y and combined (root sum of squares), zero for no samples.", "quantifier": "all sample counts, sample sets and models", "why_tests_cant": "Unbounded sample count.", "anchors": ["src/pxy.cc", "src/xy2xy.cc"]}
{"id": "C43", "title": "Matrix inversion and linear solve", "statement": "When sla::dmat reports the matrix as non-singular, the returned matrix is the inverse of the input, the returned vector solves the linear system, and the returned determinant is the determinant of the input; when it reports singular, the determinant returned is zero; every exactly singular matrix is reported; the report depends otherwise only on the fixed threshold 1e-20, below which small but regular matrices are reported too.", "quantifier": "all n and all n x n real matrices and right-hand sides", "why_tests_cant": "In-place Gauss-Jordan with pivoting must be right for every size and pivot order.", "anchors": ["src/dmat.cc: dmat", "src/smat.cc: smat"]}
{"id": "C44", "title": "SVD solution and covariance", "statement": "Given a singular value decomposition, sla::svdsol returns the minimum-norm least-squares solution and sla::svdcov the covariance matrix V W^-2 V^T, symmetric positive semidefinite. Neither divides by zero, even when singular values are zero.", "quantifier": "all sizes m >= n and all decompositions with orthonormal factors", "why_tests_cant": "Optimality over all competitors and sizes.", "anchors": ["src/svdsol.cc", "src/svdcov.cc"]}
{"id": "C45", "title": "SVD status and termination", "statement": "sla::svd rejects matrices with fewer rows than columns with status -1, leaving all arrays untouched; for every other matrix it ends, never reads outside its arrays or divides by zero in the shift, and returns status zero or the (zero-based) index of a singular value, other than the first, that did not converge; with status zero the singular values are non-negative.", "quantifier": "all sizes and matrices, all rounding behaviours of the negligibility test", "why_tests_cant": "Termination and absence of undefined behaviour over all matrices and sizes.", "anchors": ["src/svd.cc: svd"]}
{"id": "C46", "title": "Coordinate-system conversions are inverse pairs", "statement": "sla::eqecl and sla::ecleq are exact inverses of each other at every date, and sla::eqgal/galeq and sla::galsup/supgal are inverse to within the rounding of their tabulated rotation matrices; longitudes are in [0,2pi) and latitudes in [-pi/2,pi/2].", "quantifier": "all directions and dates", "why_tests_cant": "Inverse pair over a continuum.", "anchors": ["src/eqecl.cc", "src/ecleq.cc", "src/eqgal.cc", "src/galeq.cc", "src/galsup.cc", "src/supgal.cc"]}
{"id": "C47", "title": "E-terms of aberration", "statement": "sla::addet and sla::subet add and remove the E-terms: subet(addet(p)) and addet(subet(p)) return p to third order in the E-terms, both leave the direction normalised (RA in [0,2pi)), and the E-term vector of sla::etrms is perpendicular-plane bounded by the aberration constant times eccentricity.", "quantifier": "all directions and epochs", "why_tests_cant": "Continuum of directions.", "anchors": ["src/addet.cc", "src/subet.cc", "src/etrms.cc"]}
{"id": "C48", "title": "Proper motion", "statement": "sla::pm with equal epochs returns the starting position (RA normalised); in general the returned direction is that of position + interval * space motion, so pure radial motion leaves the direction fixed and the initial rate of change of RA and Dec is the given proper motion.", "quantifier": "all positions, motions, parallaxes, velocities and epochs", "why_tests_cant": "Continuum of inputs.", "anchors": ["src/pm.cc"]}
{"id": "C49", "title": "Observer position and velocity", "statement": "sla::geoc and sla::pvobs: the observer's geocentric position satisfies the reference-ellipsoid equation at zero height, height moves the observer along the ellipsoid normal, and the velocity returned by pvobs is the derivative of the position under rotation at the sidereal rate, perpendicular to the rotation axis and to the position's axial direction.", "quantifier": "all latitudes, heights and sidereal times", "why_tests_cant": "Identity over R^3.", "anchors": ["src/geoc.cc", "src/pvobs.cc"]}
{"id": "C50", "title": "Radial velocity corrections are projections", "statement": "sla::rvlsrd, rvlsrk, rvgalc, rvlg, rverot return minus (or plus) the projection of a fixed (or rotation) velocity on the line of sight: magnitude bounded by the speed, opposite for antipodal directions, extremal at the apex.", "quantifier": "all directions (and latitudes, sidereal times for rverot)", "why_tests_cant": "Bound over the whole sphere.", "anchors": ["src/rvlsrd.cc", "src/rvlsrk.cc", "src/rvgalc.cc", "src/rvlg.cc", "src/rverot.cc"]}
{"id": "C51", "title": "Air mass", "statement": "sla::airmas is even in zenith distance, equals 1 at the zenith, is at least 1 and non-decreasing from the zenith to the clamp, and constant beyond it.", "quantifier": "all real zenith distances", "why_tests_cant": "Monotonicity over a continuum.", "anchors": ["src/airmas.cc"]}
{"id": "C52", "title": "Refraction application", "statement": "sla::refz and sla::refv: zero coefficients leave the direction unchanged; refraction never changes azimuth and depends only on the zenith distance; refz is continuous where it changes formula and constant in correction beyond 93 degrees.", "quantifier": "all zenith distances/vectors and coefficients", "why_tests_cant": "Continuity and limits.", "anchors": ["src/refz.cc", "src/refv.cc"]}
{"id": "C53", "title": "Refraction constants", "statement": "sla::refco's two constants reproduce exactly the refraction at the two sample zenith distances; sla::refcoq gives zero for zero pressure and respects its argument clamps; sla::atmdsp is the identity for equal wavelengths; swapping the wavelengths restores the tan Z coefficient exactly but the tan^3 Z coefficient only up to a factor that differs from 1, so it is not undone exactly.", "quantifier": "all weather, wavelength and height arguments", "why_tests_cant": "Continuum of arguments.", "anchors": ["src/refco.cc", "src/refcoq.cc", "src/atmdsp.cc", "src/refro.cc"]}
{"id": "C54", "title": "Refraction integral terminates and respects clamps", "statement": "sla::refro terminates for every input: its two adaptive quadratures double the strip count at most up to the fixed limit, so the number of integrand evaluations is bounded; the result is odd in zenith distance, zero at the zenith, held beyond 93 degrees, zero without air, and depends only on the clamped arguments. The humidity term nevertheless divides by zero at a lapse rate inside the accepted range.", "quantifier": "all real arguments including out-of-range ones and any tolerance", "why_tests_cant": "Termination over all inputs, including tolerance 0.", "anchors": ["src/refro.cc"]}
{"id": "C55", "title": "Gaussian generator transform", "statement": "sla::gresid returns the two components of a Box-Muller/polar pair alternately: for every accepted pair of uniforms the squared outputs satisfy x^2+y^2 = -2 s^2 ln(r^2), scaled by the standard deviation of each call, and the uniform generator is only consumed on every second call.", "quantifier": "all uniform streams and call sequences", "why_tests_cant": "Call histories of every length.", "anchors": ["src/gresid.cc", "src/random.cc"]}
{"id": "C56", "title": "Observatory lookup", "statement": "sla::obs by number returns distinct stations for 0..84 and false for every n >= 85; by identifier it returns the first station whose identifier starts with the given text; every station's full identifier finds that station's own data and the empty text station 0; on failure text fields are \"?\" and numbers 0; on success the texts fit their buffers, the longitude is within half a turn, the latitude strictly between the poles and the height positive, and the position is within the country or region the station belongs to, north and west positive.", "quantifier": "all integers n and all identifier strings", "why_tests_cant": "All strings.", "anchors": ["src/obs.cc"]}
{"id": "C57", "title": "Polar motion", "statement": "sla::polmo with zero polar motion returns the given longitude and latitude and zero azimuth correction; in general the corrected direction is the mean direction rotated by the polar-motion matrix and stays a unit vector.", "quantifier": "all longitudes, latitudes and pole coordinates away from the pole singularity", "why_tests_cant": "Continuum of inputs.", "anchors": ["src/polmo.cc"]}
{"id": "C58", "title": "Precession of coordinates", "statement": "sla::preces with equal epochs returns the same direction (RA in [0,2pi)); preserves angular separations between any two stars; an unsupported system yields (-99,-99).", "quantifier": "all directions, epochs and system values", "why_tests_cant": "Continuum of inputs.", "anchors": ["src/preces.cc", "src/prec.cc", "src/prebn.cc"]}
{"id": "C59", "title": "Earth ephemeris", "statement": "The heliocentric and barycentric velocities returned by sla::epv are the derivatives (per day) of the positions it returns, for every date; the term counts match the tables; from 1900 to 2100 the Earth is between 0.963 and 1.037 AU from the Sun, moves at 0.0167 to 0.0177 AU/day about it, and the Sun stays within 0.0153 AU of the barycentre and moves at less than 1.4e-5 AU/day.", "quantifier": "all dates (bounds: 1900 to 2100)", "why_tests_cant": "A derivative identity over all dates and thousands of series terms.", "anchors": ["src/epv.cc"]}
{"id": "C60", "title": "Version functions are consistent", "statement": "sla::veri and sla::vers report the same version: for all minor and release numbers below 1000 the number's decimal fields are the version, and two versions have the same number exactly when they have the same text.", "quantifier": "the single configuration (and every major/minor/release triple of the formatting code)", "why_tests_cant": "Formatting must agree for every version, not just the current one.", "anchors": ["src/veri.cc", "src/vers.cc"]}
{"id": "C61", "title": "Nutation series", "statement": "sla::nutc() evaluates, at every date, the published trigonometric series in the unreduced fundamental arguments (reducing the arguments to one turn with fmod never matters), and its components are bounded at every date: nutation in longitude by 19.5022 arcsec plus 0.317 arcsec per century from J2000, in obliquity by 10.0912 arcsec plus 0.0256 arcsec per century.", "quantifier": "all real dates", "why_tests_cant": "The bound and the independence from argument reduction must hold on the whole time axis; 194 terms with incommensurable periods never repeat.", "anchors": ["src/nutc.cc: nutc"]}
{"id": "C62", "title": "Old galactic coordinates", "statement": "sla::eg50 and sla::ge50 (B1950 FK4 equatorial to and from galactic, E-terms removed or added) undo each other to within 1.5e-11 radians of arc, longitudes and right ascensions are in [0,2pi), latitudes in [-pi/2,pi/2].", "quantifier": "all directions", "why_tests_cant": "Error bound over a continuum including the poles.", "anchors": ["src/eg50.cc", "src/ge50.cc"]}
{"id": "C63", "title": "Seeding of the uniform generator", "statement": "sla::random seeds its engine with an odd integer of six or seven digits that depends only on the magnitude of the seed argument of the very first call; the seed arguments of later calls have no effect on the sequence.", "quantifier": "all real seeds and all call sequences", "why_tests_cant": "Call histories of every length, all seeds.", "anchors": ["src/random.cc"]}
{"id": "C64", "title": "Moon ephemeris", "statement": "For every date within 2000 Julian years of 1900, sla::dmoon returns the position and velocity, rotated from ecliptic to equator, of a Moon that always moves eastward, between 0.00237 and 0.00281 AU away at 5.1e-9 to 9.0e-9 AU/s; and the velocity is the derivative of the position to within 2.5e-16 AU/s.", "quantifier": "all real dates within 730500 days of J1900.0", "why_tests_cant": "A derivative identity and bounds on a continuum; the series never repeats.", "anchors": ["src/dmoon.cc: dmoon"]}
{"id": "C65", "title": "Time argument of the low-precision ephemerides", "statement": "sla::moon and sla::earth called with the year and day in year that sla::clyd returns for a calendar date depend only on the instant (the Modified Julian Date plus fraction), for every calendar date the library accepts; and whole days may be moved between fraction and day, and 1461 days traded for four years, without changing the result.", "quantifier": "all calendar dates, all fractions, all integers", "why_tests_cant": "Equality for all dates, including the century years where the aligned Julian calendar departs from the Gregorian one.", "anchors": ["src/moon.cc: moon", "src/earth.cc: earth", "src/clyd.cc: clyd", "src/cldj.cc: cldj"]}
{"id": "C66", "title": "Low-precision Moon", "statement": "sla::moon returns, for all inputs, a position between 0.00238 and 0.00279 AU away and a velocity that is the derivative of the position to within 1.2e-13 AU/s; the radial component of the velocity is the derivative of the distance divided by the cosine of the parallax (the code omits that factor).", "quantifier": "all years, days and fractions", "why_tests_cant": "A derivative identity on a continuum with series terms of incommensurable periods.", "anchors": ["src/moon.cc: moon"]}
{"id": "C67", "title": "Low-precision Earth", "statement": "From 1700 to 2100, sla::earth returns a heliocentric position between 0.983 and 1.017 AU and a velocity between 1.956e-7 and 2.026e-7 AU/s that is the derivative of the position to within 2.5e-11 AU/s.", "quantifier": "all years, days and fractions within 199.9 years of 1900", "why_tests_cant": "A derivative identity on a continuum.", "anchors": ["src/earth.cc: earth"]}
{"id": "C68", "title": "Earth orbit corrections", "statement": "sla::ecor returns the components along the star of the velocity and position of the Earth, positive when the Earth recedes from the star and when it lies on the star's side of the Sun; opposite directions have opposite corrections; from 1700 to 2100 they never exceed 30.4 km/s and 507.6 s.", "quantifier": "all directions, years, days and fractions (bounds: within 199.9 years of 1900)", "why_tests_cant": "Sign conventions and bounds over all directions and dates.", "anchors": ["src/ecor.cc: ecor"]}
{"id": "C69", "title": "SVD factors are orthonormal", "statement": "After every call of sla::svd with at least as many rows as columns, whatever the status and however the negligibility tests fell, the columns of U and of V are orthonormal.", "quantifier": "all sizes, all matrices, all rounding behaviours of the negligibility test", "why_tests_cant": "An invariant of the whole iteration, for every matrix.", "anchors": ["src/svd.cc: svd"]}
{"id": "C70", "title": "SVD reproduces the matrix", "statement": "For every matrix with linearly independent columns for which sla::svd returns status zero, A = U W V^T, W holds the singular values (square roots of the eigenvalues of A^T A), and sla::svdsol applied to the factors returns the unique least-squares solution; if the negligibility test accepts elements up to a fraction u of its reference, the product differs from A by at most 60 n u |A| in the operator norm, provided the smallest singular value exceeds (60 n + 2) u |A|.", "quantifier": "all sizes, all matrices of full column rank, all u", "why_tests_cant": "An identity for all real matrices; convergence behaviour differs from matrix to matrix.", "anchors": ["src/svd.cc: svd", "src/svdsol.cc: svdsol"]}
{"id": "C71", "title": "SVD of rank-deficient matrices", "statement": "The factorisation is not guaranteed for matrices of less than full rank: in the cancellation of a superdiagonal element above a zero singular value the code does not scale the following superdiagonal elements, and in exact arithmetic the 3 x 3 matrix ((0,3,0),(0,4,5),(0,0,0)) yields, with status zero, singular values whose squares add up to 59 instead of 50.", "quantifier": "the given matrix, all initial contents of the output arrays", "why_tests_cant": "Requires the exact value of an iteration with irrational intermediate results.", "anchors": ["src/svd.cc: svd"]}
{"id": "C72", "title": "IAU 1980 nutation", "statement": "sla::nutc80 evaluates, at every date, the published 106-term series in the unreduced fundamental arguments; its components are bounded by 19.4368 arcsec plus 0.01823 arcsec per century from J2000 in longitude and 10.0762 plus 0.00141 arcsec per century in obliquity; its mean obliquity is the angle sla::ecmat turns by; from 1900 to 2100 it agrees with sla::nutc, apart from the corrections to precession that the newer theory includes, to 0.0296 arcsec in longitude and 0.0131 arcsec in obliquity, and in mean obliquity to 0.0424 arcsec; and sla::eqeqx never exceeds 19.505 arcsec plus 0.317 arcsec per century.", "quantifier": "all real dates (agreement: all real dates within a Julian century of J2000)", "why_tests_cant": "Incommensurable periods: no sample of dates bounds the series or the difference of two theories coded independently as 106 and 194 terms.", "anchors": ["src/nutc80.cc: nutc80", "src/nutc.cc: nutc", "src/ecmat.cc: ecmat", "src/eqeqx.cc: eqeqx"]}
{"id": "C73", "title": "Relativistic clock correction", "statement": "sla::rcc is, at every date, place and time of day, the published series in unreduced arguments; it is the annual term of amplitude 1.656674564 ms up to 63.49 microseconds plus a polynomial in the distance from J2000 plus the effect of the place; the effect of the place is linear in the place and below 2.33 microseconds within 6400 km of the centre of the Earth; whole days of UT1 and whole turns of longitude make no difference; between the years 1000 and 3000 the correction changes by at most 31.9 microseconds per day of TDB plus 13.6 microseconds per day of UT1, so that adding it to clock readings never reverses their order.", "quantifier": "all real dates, times, longitudes and distances (rate: all pairs of dates between 1000 and 3000, distances up to 6400 km)", "why_tests_cant": "787 incommensurable terms and two continuous time arguments; order preservation is a statement about all pairs of instants.", "anchors": ["src/rcc.cc: rcc"]}
{"id": "C74", "title": "Waiting", "statement": "sla::wait waits for the nearest whole number of seconds, halves upwards: within half a second of the request if that is not negative, and not at all for requests below half a second.", "quantifier": "all requests below 2^31-1 in magnitude", "why_tests_cant": "A continuum of requests; the effect is a delay.", "anchors": ["src/wait.cc: wait", "src/f77_utils.h: f_nint"]}
{"id": "C75", "title": "Higher-precision Earth ephemeris", "statement": "Within five centuries of 1900, the positions and velocities that sla::evp returns belong together: without a change of equinox, the rate of the heliocentric position is the heliocentric velocity plus the turning of the axes with the general precession about the pole of the ecliptic, to 2.6e-12 AU/s (0.39 m/s, inside the documented 0.42 m/s), and that of the barycentric position likewise to 4.1e-12 AU/s; the Earth is 0.9829 to 1.0172 AU from the Sun at 1.953e-7 to 2.029e-7 AU/s, in the ecliptic of date to 2.4e-5 AU, and the barycentre within 0.0106 AU of the Sun; a positive equinox turns all four vectors by the precession matrix from the date to that equinox, which for the equinox of date is no change.", "quantifier": "all dates within 182625 days of 1900 January 0.5, all equinoxes", "why_tests_cant": "A continuum of instants; the claim on velocities is about derivatives of series with incommensurable periods.", "anchors": ["src/evp.cc: evp", "src/prec.cc: prec", "src/ecmat.cc: ecmat"]}
{"id": "C76", "title": "The two Earth ephemerides agree", "statement": "For two centuries to either side of 1900, sla::earth called with the year and day that sla::clyd gives for a date and a fraction of a day, and sla::evp called with the date that sla::cldj gives plus that fraction and no change of equinox, agree in the heliocentric position of the Earth to 3.1e-4 AU (46000 km) and in its velocity to 1.8e-10 AU/s (27 m/s).", "quantifier": "all valid calendar dates within 73050 days of 1900 January 0.5 and all fractions", "why_tests_cant": "A continuum of instants; the worst case over four centuries of two series with incommensurable periods.", "anchors": ["src/evp.cc: evp", "src/earth.cc: earth", "src/clyd.cc: clyd", "src/cldj.cc: cldj"]}
{"id": "C77", "title": "Range reduction in floating point", "statement": "With IEEE rounding to nearest, sla::drange (double) and sla::range (float) are exact: the result differs from the argument by a whole multiple of the full turn constant of the format and lies in the closed interval between minus and plus the half turn constant. sla::dranrm and sla::ranorm return a number between zero and the full turn constant, exact for non-negative arguments and otherwise within one rounding; the upper end is attained: every negative argument above -2^-51 is returned as the whole turn by dranrm, contrary to the documented half-open range, and applying dranrm again changes it.", "quantifier": "all numbers of the format, every rule for breaking ties that is symmetric in sign", "why_tests_cant": "2^64 arguments; the failing ones are an interval around zero of relative measure nothing in any random sample of angles.", "anchors": ["src/drange.cc: drange", "src/range.cc: range", "src/dranrm.cc: dranrm", "src/ranorm.cc: ranorm"]}
{"id": "C78", "title": "Calendar conversions in double precision", "statement": "With IEEE rounding to nearest, sla::djcl returns for every double in its range the Gregorian date of the day that contains the instant and a fraction in [0,1] that restores the MJD up to 2^-54 day, exactly and below 1 from 1858 November 17 on; sla::cldj of the date plus the fraction is then the very same double. For negative MJDs above -2^-54 the fraction is 1, a whole day. sla::djcal with up to 9 decimals returns a valid date and an integer fraction below 10^ndp within half a unit plus one rounding error of the MJD.", "quantifier": "all doubles in the documented range, all symmetric rules for ties", "why_tests_cant": "2^62 doubles; the claim is that no combination of rounding errors moves an instant to the wrong day.", "anchors": ["src/djcl.cc: djcl", "src/djcal.cc: djcal", "src/cldj.cc: cldj"]}
{"id": "C79", "title": "Time and angle fields in double precision", "statement": "With IEEE rounding to nearest, the fields sla::dd2tf returns are always in range (never 60 seconds or minutes, no lost carry) and within half a unit of the last place plus one rounding error of the interval. Fields to days and back (sla::dtf2d, sla::dd2tf) and to radians and back as time (sla::dtf2r, sla::dr2tf) return the same fields for up to 9 decimals, and as angle (sla::daf2r, sla::dr2af) up to 8 decimals; with 9 decimals 347 16 58.797129613 comes back as 58.797129614.", "quantifier": "all fields, all numbers of decimals up to the stated one, all symmetric rules for ties", "why_tests_cant": "10^14 field values per number of decimals; a single bad one falsifies the identity.", "anchors": ["src/dd2tf.cc: dd2tf", "src/dtf2d.cc: dtf2d", "src/dr2tf.cc: dr2tf", "src/dtf2r.cc: dtf2r", "src/dr2af.cc: dr2af", "src/daf2r.cc: daf2r"]}
{"id": "C80", "title": "Vectors and matrices in floating point", "statement": "With IEEE rounding to nearest, products with the identity matrix (sla::dmxm, sla::dmxv, sla::dimxv) are exact; sla::dvdv is symmetric and sla::dvxv antisymmetric to the last bit, and the vector product of a vector with itself is exactly zero; sla::dsep and sla::dsepv do not depend on the order of the points and are exactly zero for equal points, whatever the trigonometric functions of the library return. sla::dvn returns modulus and direction with relative errors up to 2^-51 and a vector of length 1 up to 2^-50 for every vector of length at least 2^-500; for non-null vectors with components up to 2^-538 it returns modulus zero and the vector itself.", "quantifier": "all vectors and matrices of the format, all symmetric rules for ties", "why_tests_cant": "Universal statements about last bits.", "anchors": ["src/dmxm.cc: dmxm", "src/dmxv.cc: dmxv", "src/dimxv.cc: dimxv", "src/dvdv.cc: dvdv", "src/dvxv.cc: dvxv", "src/dvn.cc: dvn", "src/dsepv.cc: dsepv", "src/dsep.cc: dsep"]}
{"id": "C81", "title": "Epochs in double precision", "statement": "With IEEE rounding to nearest, sla::epj, sla::epj2d, sla::epb and sla::epb2d preserve order for all doubles. They are within 1e-12 year (epj), 1.1e-12 year (epb), 2.1e-10 day (epj2d) and 2.9e-10 day (epb2d) of the exact conversions for instants within about 2700 years of 2000; there and back restores a date to 7e-10 day and an epoch to 2e-12 year. Whole Julian epochs convert exactly both ways, and whole Besselian epochs 1650 to 2150 come back exactly.", "quantifier": "all doubles (monotonicity), all doubles in the stated spans, all symmetric rules for ties", "why_tests_cant": "Worst-case rounding over 2^62 arguments; monotonicity is a statement about all pairs.", "anchors": ["src/epj.cc: epj", "src/epj2d.cc: epj2d", "src/epb.cc: epb", "src/epb2d.cc: epb2d"]}
{"id": "C82", "title": "Sidereal time in double precision", "statement": "With IEEE rounding to nearest, the sidereal time that sla::gmst returns for an instant within 200 years of J2000 is within 1.5e-12 rad (2e-8 s of time) of the published formula modulo whole turns and lies between zero and the full turn constant; sla::gmsta, given date and fraction of a day separately, is within 1.7e-12 rad for any split of the date.", "quantifier": "all doubles in the stated spans, all symmetric rules for ties", "why_tests_cant": "Worst-case rounding over 2^62 (2^124 for the split form) arguments.", "anchors": ["src/gmst.cc: gmst", "src/gmsta.cc: gmsta", "src/dranrm.cc: dranrm"]}
{"id": "C83", "title": "Rotations in double precision", "statement": "With IEEE rounding to nearest, turning a vector by a matrix within e of a rotation (sla::dmxv, sla::dimxv) has a relative error of at most 3e+2^-50; a chain of n turns at most (1+3e+2^-50)^n-1, and products of matrices (sla::dmxm) likewise. sla::deuler returns for every axis order and all angles a matrix with elements right to 9.1e+2^-48 if the sines and cosines of the library are right to e.", "quantifier": "all vectors of length at least 2^-1000, all rotations, chains of any length", "why_tests_cant": "Error growth over chains of arbitrary length.", "anchors": ["src/dmxv.cc: dmxv", "src/dimxv.cc: dimxv", "src/dmxm.cc: dmxm", "src/deuler.cc: deuler"]}
{"id": "C84", "title": "Angular separation in double precision", "statement": "With IEEE rounding to nearest and an arc tangent right to e, sla::dsepv returns the angle between two vectors to 1.5e-15 rad plus e, equally for nearly parallel, perpendicular and nearly opposite vectors of any length not below 2^-200; sla::dsep does so to 2.2e-15 rad plus e plus 11.1 times the error of the sines and cosines; sla::dcc2s returns the longitude to e and the latitude to 7.1e-16 rad plus e.", "quantifier": "all pairs of vectors and directions, all symmetric rules for ties", "why_tests_cant": "The claim is the absence of cancellation at every angle: worst-case rounding over all pairs of vectors.", "anchors": ["src/dsepv.cc: dsepv", "src/dsep.cc: dsep", "src/dcc2s.cc: dcc2s", "src/dcs2c.cc: dcs2c"]}
{"id": "C85", "title": "Gaussian residuals are normally distributed", "statement": "If the numbers the generator supplies are independent and uniform on [0,1], then the values sla::gresid returns are, call by call, independent standard normal deviates times the standard deviation passed in each call, except that any one call deviates with probability at most 1e-20; almost surely every history of calls returns; and the probability that the n-th call's value falls in any given set differs from that of a normal deviate of mean zero and that standard deviation by at most 1e-20.", "quantifier": "all probability spaces carrying such a stream, all call histories, all sets of values", "why_tests_cant": "A distribution and an independence claim over infinitely many calls; a sample can only fail to refute it.", "anchors": ["src/gresid.cc: gresid"]}
{"id": "C86", "title": "The model atmosphere of the refraction routines and the refraction integral", "statement": "Within the argument limits and for temperatures below 320 K, the air sla::refro integrates through is a hydrostatic, moist atmosphere with the stated lapse rate: temperature, pressure and vapour pressure at the observer are those passed in, the refractive index is that of Owens/Rueger air of that state at every height, and r dn/dr is its derivative (also in the isothermal stratosphere); for a ray obeying Snell's law the integrand is the rate at which the ray turns; the two parts adjoin at the tropopause and carry the same ray constant; the search for the radius converges quadratically; the result is the composite Simpson rule for that integrand, all points weighted correctly however often the step was halved. sla::refcoq and sla::atmdsp use the refractivity of the same air. For an observer above 320 K, which the limits admit, index and gradient contradict each other.", "quantifier": "all arguments within the limits, all heights, all integrands, all numbers of halvings", "why_tests_cant": "That a closed formula satisfies a differential equation, and that reused sums keep the Simpson weights at every depth, cannot be seen from output values.", "anchors": ["src/refro.cc: refro, atms, atmt", "src/refcoq.cc: refcoq", "src/atmdsp.cc: atmdsp"]}
{"id": "C87", "title": "Inverting the refraction formula", "statement": "For constants of ordinary air (A >= 0, -A/410 <= B <= 0) and zenith distances up to 83 degrees, sla::refz returns a zenith distance between 0 and the unrefracted one which satisfies z + A tan z + B tan^3 z = zu to within K^3 (A tan zu)^4, K = A tan zu (1 + tan^2 zu), never falling below, so 1.3e-12 radians for A up to 4e-4; refraction removed by the formula and put back by sla::refz is undone to the same accuracy. sla::refv keeps the azimuth, keeps the length to (A tan zu)^4, satisfies the formula to second order, and agrees with sla::refz to the same order: a milliarcsecond up to 70 degrees for A up to 60 arcseconds. The documented 1e-11 arcseconds of sla::refz at 80 degrees and 1 microarcsecond of sla::refv within 30 degrees are not reached at sea level.", "quantifier": "all constants in the range, all zenith distances up to 83 degrees, all azimuths", "why_tests_cant": "An error bound over a continuum of zenith distances and constants; the error is far below what double precision shows.", "anchors": ["src/refz.cc: refz", "src/refv.cc: refv"]}
{"id": "C88", "title": "Precession is consistent: there and back, in stages, and between models", "statement": "sla::prec and sla::prebn between any two epochs are exact inverses of the same call with the epochs exchanged, so sla::preces to another epoch and back returns the position. For three epochs in 1900-2100 precessing in two stages agrees with one to 0.44 mas per century of the second stage (FK4 model, 1850-2050: 1.24 mas). sla::precl in 1000-3000 returns there and back to 0.033 arcseconds times the squared interval in millennia and is not reversible: some direction comes back from 2000-3000-2000 displaced by 6 mas or more, so that the documented precision of 1 mas over 1000-3000 cannot hold in both directions. In 1900-2100 sla::prec and sla::precl differ by at most 0.38 arcseconds per century.", "quantifier": "all epochs (reversal), all triples of epochs in the intervals, all directions", "why_tests_cant": "An identity between polynomials at every pair of epochs and a bound over a three-parameter continuum; a sign error in a small coefficient is below the tolerance of comparisons with tables.", "anchors": ["src/prec.cc: prec", "src/prebn.cc: prebn", "src/precl.cc: precl", "src/preces.cc: preces"]}
{"id": "C89", "title": "The estimate of ET-UT", "statement": "sla::dt falls strictly until 1819 and rises strictly afterwards, so it is never below 5.156 s and equals it only in 1819; the three models join without a jump: within M centuries of 1800 two values differ by at most 0.886 M seconds per year between them plus 2e-13 s; and from 1960 to 2070 it is within the documented 20 s of TT-UTC as sla::dtt gives it.", "quantifier": "all epochs, all UTC dates from 1960 to 2070", "why_tests_cant": "Continuity and monotonicity over all epochs, with break points given to sixteen digits; a sample does not see a jump between samples.", "anchors": ["src/dt.cc: dt", "src/dtt.cc: dtt", "src/dat.cc: dat"]}
{"id": "C90", "title": "Time and angle fields in single precision", "statement": "With IEEE rounding to nearest, hours, minutes and seconds with no or one decimal survive sla::ctf2d then sla::cd2tf, and sla::ctf2r then sla::cr2tf; whole arcseconds survive sla::caf2r then sla::cr2af. With one decimal more this fails (22h17m42.41s, 22h17m45.16s, 280d22m54.8s). For any float, sla::cr2tf and sla::cr2af return fields in their ranges which together are the angle up to half a unit of the last place and 1.2e-7 of the angle, with the right sign.", "quantifier": "all field values, all angles within the range of the fields, all symmetric rules for ties", "why_tests_cant": "86400 x 10 and 1296000 combinations times the rules for ties, and a worst case of rounding over all floats; the failures sit on isolated values.", "anchors": ["src/cd2tf.cc: cd2tf", "src/cr2tf.cc: cr2tf", "src/cr2af.cc: cr2af", "src/ctf2d.cc: ctf2d", "src/ctf2r.cc: ctf2r", "src/caf2r.cc: caf2r"]}
{"id": "C91", "title": "Vectors, rotations and separations in single precision", "statement": "With IEEE rounding to nearest, sla::mxv and sla::imxv with a matrix whose elements are within e of a rotation give the rotated vector to a relative 3e + 2^-21, errors grow over a chain of n matrices at most like (1 + 3e + 2^-21)^n - 1, also for the product formed by sla::mxm; sla::vdv and sla::vxv are right to 3.1 and 3.5 units of 2^-24 times the lengths; sla::vn is right to 2^-22 for lengths from 2^-50, and for components up to 2^-76 returns zero and the vector itself; sla::sepv and sla::sep are right to a relative 6e-8 plus the small absolute error of the double precision routines, for non-null vectors of any length; the elements of sla::euler are right to 6e-8.", "quantifier": "all vectors, all chains of any length, all symmetric rules for ties", "why_tests_cant": "Worst-case rounding over all vectors and error growth over chains of arbitrary length.", "anchors": ["src/mxv.cc: mxv", "src/imxv.cc: imxv", "src/mxm.cc: mxm", "src/vdv.cc: vdv", "src/vxv.cc: vxv", "src/vn.cc: vn", "src/sepv.cc: sepv", "src/sep.cc: sep", "src/euler.cc: euler"]}
{"id": "C92", "title": "The two ephemerides of the Moon agree", "statement": "For every valid calendar date and fraction of a day within 200 Julian years of 1900 January 0.5 (1700 to 2100), sla::moon called with the year and day from sla::clyd and sla::dmoon called with the Modified Julian Date from sla::cldj place the Moon within two arcminutes of each other, at distances that differ by at most half a percent, and with velocities that differ by at most 1.35e-10 AU per second (twenty metres per second, two percent of the speed).", "quantifier": "all valid dates and all fractions of a day in the four centuries", "why_tests_cant": "A bound on the difference of two trigonometric series of over a hundred terms, over a continuum of instants; a wrong sign or multiple in a small term may only show at instants never sampled.", "anchors": ["src/moon.cc: moon", "src/dmoon.cc: dmoon", "src/clyd.cc: clyd", "src/cldj.cc: cldj"]}
{"id": "C93", "title": "Horizon coordinates, zenith distance, bearing and parallactic angle in double precision", "statement": "With IEEE rounding to nearest, and sines, cosines within e and arc tangents within e' of the exact functions, for every hour angle, declination and latitude sla::de2h gives an azimuth in 0 to 2 pi and a direction within 5.7e-15 + 12e + 3.2e' rad of the star; sla::dh2e the same within 4.6e-15; the two after each other return the star to 1.1e-14 + 24e + 6.4e' rad, also at the poles, at the zenith and for angles that are many turns; sla::zd is right to 1.8e-15 + 12e + e' rad, also near the zenith and the nadir; and going from the first point along the bearing given by sla::dbear, or from the star along the parallactic angle given by sla::pa, by the true separation arrives within 2.2e-15 (1e-15) + 11.2e + e' rad of the second point (the zenith).", "quantifier": "all angles (for dbear: right ascensions at most 7 rad apart), all symmetric rules for ties, all library functions within the stated error", "why_tests_cant": "Worst-case rounding over a continuum, including the neighbourhoods of the singularities where azimuth and parallactic angle themselves are ill-conditioned.", "anchors": ["src/de2h.cc: de2h", "src/dh2e.cc: dh2e", "src/zd.cc: zd", "src/dbear.cc: dbear", "src/pa.cc: pa"]}
{"id": "C94", "title": "No overflow in floating-point arithmetic", "statement": "The results of C77-C84, C90, C91, C93, C97, C98, C102, C104, C105 and C106 hold for real IEEE arithmetic with a largest number: no operation of sla::drange, dranrm, range, ranorm, djcl, and of djcal with at most nine decimals, gives a result beyond it for any argument; none of dd2tf, dr2tf, dr2af for angles up to 2^796; of dtf2d, dtf2r, daf2r and their single precision twins for fields of type int and seconds up to 2^1018 (2^122); of epj, epj2d, epb, epb2d up to 2^1000, gmst, gmsta up to 2^200; of dvdv, dvxv, dvn, dcc2s for components up to 2^510 (2^62 in single precision), dsepv up to 2^254, sepv for any floats; of dmxv, dimxv, dmxm for elements up to 2^p and 2^q with p + q at most 1020 (124); of deuler, dcs2c, dsep, de2h, dh2e, zd, pa for any angles; of prec, prebn, ecmat, preces, eqecl, ecleq, eqgal, galeq, galsup, supgal for epochs and dates up to 2^150; of nutc, nut, prenut, eqeqx for dates up to 2^100; of ds2tp and dtp2s for right ascensions up to 2^1000 and plane coordinates up to 2^500; of rvlsrd, rvlsrk, rvgalc, rvlg, airmas for any arguments, rverot for hour angles up to 2^120, geoc and pvobs for heights up to 2^900; of earth, ecor and moon for years and days up to 10000 and fractions up to 1000. Beyond the range sla::dvn does overflow: at (2^512, 0, 0).", "quantifier": "all arguments in the ranges, all behaviours of the arithmetic on overflow", "why_tests_cant": "The largest intermediate result over all arguments, not the result, decides; a sample does not find it.", "anchors": ["src/drange.cc: drange", "src/dranrm.cc: dranrm", "src/range.cc: range", "src/ranorm.cc: ranorm", "src/djcl.cc: djcl", "src/djcal.cc: djcal", "src/dd2tf.cc: dd2tf", "src/dr2tf.cc: dr2tf", "src/dr2af.cc: dr2af", "src/dtf2d.cc: dtf2d", "src/gmst.cc: gmst", "src/gmsta.cc: gmsta", "src/dvn.cc: dvn", "src/dvxv.cc: dvxv", "src/dvdv.cc: dvdv", "src/dmxv.cc: dmxv", "src/dmxm.cc: dmxm", "src/dsepv.cc: dsepv", "src/sepv.cc: sepv", "src/deuler.cc: deuler", "src/de2h.cc: de2h", "src/dh2e.cc: dh2e", "src/prec.cc: prec", "src/preces.cc: preces", "src/eqecl.cc: eqecl", "src/nutc.cc: nutc", "src/prenut.cc: prenut", "src/eqeqx.cc: eqeqx", "src/ds2tp.cc: ds2tp", "src/dtp2s.cc: dtp2s", "src/pvobs.cc: pvobs", "src/airmas.cc: airmas", "src/earth.cc: earth", "src/ecor.cc: ecor", "src/moon.cc: moon"]}
{"id": "C95", "title": "What the linear algebra routines read and write", "statement": "What sla::svd returns depends only on the m x n elements of the matrix: cells of the array outside them and the contents of v, w and ws before the call have no influence, and no cell outside the m x n elements of a, the n x n elements of v and the n elements of w and ws is written. The same holds for sla::svdsol and sla::svdcov (for any row lengths np and nc >= n), and the results of sla::dmat do not depend on the contents of the workspace before the call.", "quantifier": "all shapes, all matrices, all contents of the arrays before the call", "why_tests_cant": "A read of an uninitialised or neighbouring cell usually goes unnoticed in a test, because the cell happens to hold zero; independence of two runs cannot be observed in one.", "anchors": ["src/svd.cc: svd", "src/svdsol.cc: svdsol", "src/svdcov.cc: svdcov", "src/dmat.cc: dmat", "src/smat.cc: smat"]}
{"id": "C96", "title": "Defined int arithmetic in counting, fields, dates and time arguments", "statement": "Every call in a sequence of calls of sla::combn (started with list[0] < 1) and of sla::permut (started with state[0] < 0) is free of int overflow for all numbers of elements below 2^31-1; selecting one of 2^31-1 candidates overflows from the second call on, and so does any call of permut with 2^31-1 elements. sla::dd2tf performs no undefined int operation or conversion exactly when there are at most nine decimals and the rounded interval is below 2^31 hours; sla::dr2tf and sla::dr2af are defined for angles up to 5e8 and 3.7e7 radians. sla::djcal, which accepts dates up to MJD 1e9, is defined exactly up to nine decimals and as long as the date rounded to that many decimals is before MJD 534459924. The date arithmetic of sla::earth and sla::moon is defined for years from -2147481748 and days of year within -536870910..536870911, and overflows beyond.", "quantifier": "all argument values, all call sequences, all contents of the arrays", "why_tests_cant": "Overflow is undefined behaviour that usually shows no symptom in a test run, and the extreme argument values and array sizes cannot be enumerated.", "anchors": ["src/combn.cc: combn", "src/permut.cc: permut", "src/dd2tf.cc: dd2tf", "src/dr2tf.cc: dr2tf", "src/dr2af.cc: dr2af", "src/djcal.cc: djcal", "src/earth.cc: earth", "src/moon.cc: moon", "src/f77_utils.h: f_nint"]}
{"id": "C97", "title": "Position and velocity of the Earth in single precision", "statement": "With IEEE rounding to nearest, and sines and cosines of the library within 1.2e-7 of the exact functions, for every year from 1900 to 2100, day of the year and fraction of a day each coordinate given by sla::earth is within 1e-5 AU (position) and 3e-12 AU per second (velocity) of what the formulas give in exact arithmetic, and for every direction the corrections of sla::ecor are within 1 m/s and 0.01 s of the exact ones. The rounding errors thus stay well below the documented errors of the formulas themselves (1.3e-4 AU, 47e-10 AU/s, 0.007 km/s, 0.03 s).", "quantifier": "all years 1900-2100, all days, all fractions, all directions, all symmetric rules for ties, all library functions within the stated error", "why_tests_cant": "Worst-case accumulation of rounding errors in single precision over two centuries of a continuous argument, with an angle of seventeen thousand radians reduced by an inexact period.", "anchors": ["src/earth.cc: earth", "src/ecor.cc: ecor", "src/cs2c.cc: cs2c", "src/vdv.cc: vdv"]}
{"id": "C98", "title": "Position and velocity of the Moon in single precision", "statement": "With IEEE rounding to nearest, and sines and cosines of the library within 1.2e-7 of the exact functions, for every year from 1900 to 2100, day of the year and fraction of a day each coordinate given by sla::moon is within 8.5e-7 AU (127 km, about one arcminute at the distance of the Moon) and each component of the velocity within 4.2e-12 AU per second (0.63 m/s) of what the series give in exact arithmetic.", "quantifier": "all years 1900-2100, all days, all fractions, all symmetric rules for ties, all library functions within the stated error", "why_tests_cant": "Worst-case accumulation of rounding errors through seventy-two terms with arguments of tens of thousands of degrees, over two centuries of a continuous time argument.", "anchors": ["src/moon.cc: moon", "src/cs2c6.cc: cs2c6"]}
{"id": "C99", "title": "The equator moves, the ecliptic almost does not", "statement": "In 1900-2100 the precession matrix of sla::prec between two epochs, seen in the ecliptic frames of sla::ecmat at those epochs, is a turn about the pole of the ecliptic by the general precession in longitude (5029.0966\" per century at J2000, growing by 2.22226\" per century per century) up to a turn by at most 47.1\" per century between the epochs: for every vector the two routes to the ecliptic coordinates of the later epoch differ by at most that angle times its length. In the same sense the direction whose ecliptic coordinates of date sla::eqecl gives is within 47.1\" per century from J2000 of the one whose J2000 longitude is increased by the general precession.", "quantifier": "all epochs 1900-2100, all vectors and directions", "why_tests_cant": "A relation between three independently coded angle polynomials and a separately coded obliquity, over two continuous epochs and all directions; a wrong sign in one of the routines leaves each of them a rotation.", "anchors": ["src/prec.cc: prec", "src/ecmat.cc: ecmat", "src/eqecl.cc: eqecl"]}
{"id": "C100", "title": "The two ephemerides of the Earth agree", "statement": "sla::epv (a series of two thousand terms fitted to the JPL ephemeris, in the ICRS) and sla::evp (elements of the orbit with perturbations, in the mean equator and equinox asked for) are coded independently, yet for every date from 1900 to 2100 the heliocentric position of the Earth that sla::evp gives for the equinox of J2000 is within 0.001 AU (about 3.4 arcminutes, 0.06 degrees) of the one sla::epv gives.", "quantifier": "all dates 1900-2100", "why_tests_cant": "A bound on the difference of two functions of continuous time with hundreds of incommensurable periods; a wrong sign or digit in one of the larger of some seven thousand coefficients shows up only near the dates where the other terms do not hide it.", "anchors": ["src/epv.cc: epv", "src/evp.cc: evp", "src/prec.cc: prec"]}
{"id": "C101", "title": "A fit of one or two parameters always succeeds", "statement": "For every matrix with one or two columns and at least as many rows - of full rank, rank deficient or zero - sla::svd returns the status 0 (the iteration limit is never reached), non-negative singular values, and factors whose product reproduces the matrix with an error, in the operator norm, of at most 4 u times its Frobenius norm, where u is the rounding unit in the routine's own negligibility test. sla::svdsol then returns the shortest least-squares solution of a problem whose matrix is that close to the given one.", "quantifier": "all matrices with at most two columns, all right-hand sides, all negligibility tests between 1e-30 and u", "why_tests_cant": "Convergence of an iteration for all inputs, including the ill-conditioned ones for which the shift is computed by another formula, cannot be settled by running it on some.", "anchors": ["src/svd.cc: svd", "src/svdsol.cc: svdsol"]}
{"id": "C102", "title": "Coordinate conversions in double precision stay within nanoarcseconds of exact arithmetic", "statement": "In double precision sla::eqgal, sla::galeq, sla::galsup and sla::supgal return a direction within 6.5e-15 radian of the one that exact arithmetic on the published matrices gives; sla::preces one within 2.7e-14 radian, for both catalogue systems and epochs up to 2000 years apart; sla::eqecl and sla::ecleq one within 4.9e-14 radian for dates within 1000 years of J2000, so that converting to the ecliptic and back moves a star by less than 1e-13 radian. To each bound are added multiples (5, 49, 93 and 186; 3.2) of the errors of the library's sine and cosine, and of its arctangent. Longitudes and right ascensions returned are at least 0 and less than 2 pi. There are no exceptions at the poles or at the seam of longitude.", "quantifier": "all directions, all epochs and dates in the ranges, all roundings to nearest, all library functions of the stated accuracy", "why_tests_cant": "A loss of accuracy shows only for special directions (near the poles, on the seam, at cancellations in the matrix product), and tests compare with tolerances of 1e-12 at a few points.", "anchors": ["src/eqgal.cc: eqgal", "src/galeq.cc: galeq", "src/galsup.cc: galsup", "src/supgal.cc: supgal", "src/preces.cc: preces", "src/prec.cc: prec", "src/prebn.cc: prebn", "src/ecmat.cc: ecmat", "src/eqecl.cc: eqecl", "src/ecleq.cc: ecleq"]}
{"id": "C103", "title": "Hour angle for a given azimuth or parallactic angle at the critical values", "statement": "For every latitude and declination from pole to pole and every angle, including the poles, the equator, the meridian and stars through the zenith, the solutions that sla::pda2h (sla::pdq2h) reports as valid are exactly the hour angles at which a star has the requested azimuth (parallactic angle) for a latitude, a declination and an angle each within 2e-12 radian of those given, apart from an hour angle that takes that star exactly to the zenith or nadir. At the north pole, where every star has parallactic angle zero, sla::pdq2h asked for that angle reports a solution.", "quantifier": "all latitudes and declinations in [-pi/2, pi/2], all azimuths and parallactic angles", "why_tests_cant": "The critical bands are 1e-12 wide, and inside them the right answer is that of a neighbouring problem, so a test has no value to compare with.", "anchors": ["src/pda2h.cc: pda2h", "src/pdq2h.cc: pdq2h"]}
{"id": "C104", "title": "Tangent-plane projection in double precision", "statement": "Computed in IEEE double precision with library sine and cosine accurate to 2e-16, sla::ds2tp returns the status of exact arithmetic unless the cosine of the star's distance from the tangent point is within 4e-15 of a boundary (1e-6, 0, -1e-6), and for a cosine c of magnitude at least 1e-6+4e-15 each plane coordinate is within 6.5e-15/c^2 of the exact one. Where 4e-15 <= |c| <= 1e-6-4e-15 the status is 'too far' in front of the plane and 'antistar on tangent plane' behind it, and each coordinate is within 3.5e-9 of the exact (clamped) one. sla::dtp2s returns, for all plane coordinates, a direction within 8.5e-15 rad plus pi times the arctangent's error of the exact one, with right ascension in [0, 2pi). Projecting a star with c >= 1e-6+4e-15 and bringing it back displaces it by at most 1.5e-14/c + 8.5e-15 rad plus pi times the arctangent's error.", "quantifier": "all stars and tangent points with right ascensions of at most 6.3 in magnitude, all declinations, all plane coordinates, every rounding to nearest, all library functions of that accuracy", "why_tests_cant": "The error grows without bound as the star approaches 90 degrees from the tangent point; a test of some stars does not bound it.", "anchors": ["src/ds2tp.cc: ds2tp", "src/dtp2s.cc: dtp2s"]}
{"id": "C105", "title": "Observer velocities, air mass and place in floating point", "statement": "Computed in IEEE single precision with library sine and cosine accurate to 1.2e-7, sla::rverot is within 1e-6 km/s of the value of exact arithmetic, sla::rvlsrd and sla::rvlsrk within 3e-5 km/s, sla::rvgalc within 3e-4 km/s and sla::rvlg within 4e-4 km/s. Computed in IEEE double precision with library functions accurate to 2e-16, sla::airmas is within 4e-13 at every zenith distance, sla::geoc gives the distance from the axis within 1e-19 AU and from the equator within 1.3e-19 AU, and sla::pvobs gives each position coordinate within 1.3e-19 AU and each velocity coordinate within 1e-23 AU/s, for heights of up to 1000 km in magnitude.", "quantifier": "all directions, latitudes, sidereal times and zenith distances (for rverot: right ascension and sidereal time of at most 6.3 in magnitude; for geoc and pvobs: heights of at most 1000 km), every rounding to nearest, all library functions of that accuracy", "why_tests_cant": "The rounding of each operation and the errors of the library functions vary with the input; a test shows the error at a few places only, and near the horizon the reciprocal of the cosine magnifies it.", "anchors": ["src/rverot.cc: rverot", "src/rvlsrd.cc: rvlsrd", "src/rvlsrk.cc: rvlsrk", "src/rvgalc.cc: rvgalc", "src/rvlg.cc: rvlg", "src/airmas.cc: airmas", "src/geoc.cc: geoc", "src/pvobs.cc: pvobs"]}
{"id": "C106", "title": "Nutation in double precision", "statement": "Computed in IEEE double precision with library sine and cosine accurate to 2e-16, sla::nutc gives the nutation in longitude within 7.5e-15 rad, the nutation in obliquity within 3.7e-15 rad and the mean obliquity within 3e-16 rad of the values of exact arithmetic; every element of the matrix of sla::nut is within 1.8e-14 and of sla::prenut within 4.3e-14; sla::eqeqx is within 7.6e-15 rad. The rounding of the fundamental arguments, of up to 1.7e10 arcseconds, and the sum of 194 terms are included.", "quantifier": "all dates (and mean epochs, for prenut) within 1000 years of J2000, every rounding to nearest, all library functions of that accuracy", "why_tests_cant": "The rounding of 194 terms with arguments of thousands of turns depends on the date and on the library; a test compares with one table value and a tolerance.", "anchors": ["src/nutc.cc: nutc", "src/nut.cc: nut", "src/prenut.cc: prenut", "src/eqeqx.cc: eqeqx"]}
{"id": "C107", "title": "E-terms, old galactic coordinates and proper motion in double precision", "statement": "Computed in IEEE double precision with library sine and cosine accurate to 2e-16 and arctangent to 4e-16, sla::etrms gives each component within 2.1e-20 of exact arithmetic; sla::addet and sla::subet return a direction within 9e-15 rad of that of exact arithmetic, and undo each other within 2.2e-14 rad; sla::eg50 and sla::ge50 are within 2.2e-14 rad and sla::pm within 9.5e-15 rad. The right ascension or longitude is in the range 0 to 2 pi, and the poles and the seam of longitude are included.", "quantifier": "all directions; Besselian epochs within 1000 years of 1950 (etrms, addet, subet); proper motions up to 1 mrad/yr, parallaxes up to 1 arcsec, radial velocities up to 500 km/s, epochs up to 100 years apart (pm); every rounding to nearest, all library functions of that accuracy", "why_tests_cant": "The accuracy near the poles and the seam, where the angles themselves are ill-conditioned, depends on the rounding and the library; a test compares a few stars with a tolerance.", "anchors": ["src/etrms.cc: etrms", "src/addet.cc: addet", "src/subet.cc: subet", "src/eg50.cc: eg50", "src/ge50.cc: ge50", "src/pm.cc: pm"]}
{"id": "C108", "title": "The Moon in double precision, and against the Moon in single precision", "statement": "Computed in IEEE double precision with library sine and cosine accurate to 2e-16, sla::dmoon gives each coordinate of the position within 8.8e-14 AU (14 mm) and of the velocity within 4.6e-19 AU/s of exact arithmetic; the computed distance is between 0.002369 and 0.002811 AU and the computed speed between 5.09e-9 and 9.01e-9 AU/s. For the same date, given to one as a year and day by sla::clyd and to the other as a Modified Julian Date by sla::cldj, the Moon of sla::moon computed in single precision and that of sla::dmoon are within 5.5 arcmin on the sky, 0.6 per cent in distance and 1.43e-10 AU/s in velocity of each other.", "quantifier": "all dates from 1600 to 2200 (first part), all dates of the years 1901 to 2099 and all times of day (second part); every rounding to nearest, all library functions of that accuracy", "why_tests_cant": "The arguments of the series are remainders of angles of up to a million degrees and the sums have up to 50 terms, so the accuracy depends on every rounding; a test compares one or two dates with a tolerance.", "anchors": ["src/dmoon.cc: dmoon", "src/moon.cc: moon", "src/clyd.cc: clyd", "src/cldj.cc: cldj"]}
{"id": "C109", "title": "The Earth of epv in double precision, and against the Earth of earth in single precision", "statement": "Computed in IEEE double precision with library sine and cosine accurate to 2e-16, sla::epv gives each coordinate of the heliocentric position within 4.7e-13 AU (71 mm), of the barycentric position within 5.1e-13 AU, and of the two velocities within 8.2e-15 and 8.8e-15 AU/day of exact arithmetic. As computed, the Earth is between 0.9629 and 1.0371 AU from the Sun and moves at 0.01669 to 0.01771 AU/day about it, the Sun is within 0.01531 AU of the barycentre and moves at less than 1.401e-5 AU/day. For the same date, given to one as a year and day by sla::clyd and to the other as a Modified Julian Date by sla::cldj, the Earth of sla::earth computed in single precision and turned to J2000 is within 0.00135 AU of the Earth of sla::epv.", "quantifier": "all dates from 1900 to 2100 (first part), all dates of the years 1901 to 2099 and all times of day (second part); every rounding to nearest, all library functions of that accuracy", "why_tests_cant": "Some 2000 terms with arguments of up to 42000 radians are added up, so the accuracy depends on every rounding; a test compares one date with a tolerance.", "anchors": ["src/epv.cc: epv", "src/earth.cc: earth", "src/clyd.cc: clyd", "src/cldj.cc: cldj"]}
{"id": "C110", "title": "The Earth of evp in single and double precision, and against the Earths of epv and earth", "statement": "With its mixture of IEEE single and double precision, and library sine and cosine accurate to 1.2e-7 (float) and 2e-16 (double), sla::evp for the equinox of date gives each coordinate of the heliocentric position within 6.1e-8 AU (9.2 km), of the barycentric position within 9.38e-8 AU (14.1 km) and of the two velocities within 3.03e-14 and 3.08e-14 AU/s (4.7 mm/s) of exact arithmetic; for a given equinox within 1.07e-7 AU, 1.64e-7 AU, 5.3e-14 AU/s and 5.4e-14 AU/s. As computed, the Earth is between 0.9828 and 1.0173 AU from the Sun and its speed is between 1.9529e-7 and 2.0291e-7 AU/s. The heliocentric positions that sla::evp (equinox 2000) and sla::epv compute are within 1.001e-3 AU of each other. The Earth that sla::earth computes for the year and day of sla::clyd, and that of sla::evp for the date of sla::cldj and the equinox of date, are within 3.3e-4 AU, the velocities within 1.9e-10 AU/s.", "quantifier": "all dates from 1700 to 2100 and all equinoxes within 1000 years of J2000 (first part), 1900 to 2100 (epv), all dates of the years 1901 to 2099 and all times of day (earth); every rounding to nearest, all library functions of that accuracy", "why_tests_cant": "Angles of many turns are reduced in double precision and then rounded to float, and the effect on the position depends on every later operation; a test compares one date with a tolerance.", "anchors": ["src/evp.cc: evp", "src/epv.cc: epv", "src/earth.cc: earth", "src/prec.cc: prec"]}
{"id": "C111", "title": "The nutation of 1980 in double precision, and against the modern nutation as computed", "statement": "In IEEE double precision with library sine and cosine accurate to 2e-16, sla::nutc80 gives the nutation in longitude within 1.33e-14, the nutation in obliquity within 6.5e-15 and the mean obliquity within 2.01e-16 rad of exact arithmetic. As computed, the nutation stays below 19.5 and 10.1 arcseconds for 200 years around J2000. The nutations that sla::nutc and sla::nutc80 compute differ, apart from the offset and rate of precession that only sla::nutc includes, by no more than 0.0297 and 0.0132 arcsecond, and their obliquities by no more than 0.0425 arcsecond.", "quantifier": "all dates within 1000 years of J2000 (accuracy), 200 years (bounds), a century (agreement); every rounding to nearest, all library functions of that accuracy", "why_tests_cant": "The sum of 106 terms in units of a tenth of a milliarcsecond, with arguments reduced from thousands of turns, is compared by a test at one date.", "anchors": ["src/nutc80.cc: nutc80", "src/nutc.cc: nutc"]}
{"id": "C112", "title": "The long-term precession in double precision, and its failure to return as computed", "statement": "In IEEE double precision with library sine and cosine accurate to 2e-16 every element of the matrix that sla::precl computes is within 6.2e-15 of exact arithmetic, and the matrix moves any vector to within 2e-14 of its length of where the exact one does. As computed, precessing by sla::precl from a to b and back returns every vector to within (0.033 ((b-a)/1000)^2 arcsecond + 5e-14) of its length, but from 2000 to 3000 and back some direction is not returned closer than 0.0059 arcsecond: this is the model, not rounding.", "quantifier": "all epochs within 1000 years of J2000 and 2000 years of each other, all vectors; every rounding to nearest, all library functions of that accuracy", "why_tests_cant": "A test compares the elements of one matrix with a tolerance; whether a residual comes from rounding or from the polynomials needs a bound for both.", "anchors": ["src/precl.cc: precl", "src/deuler.cc: deuler"]}
{"id": "C113", "title": "The relativistic clock correction in double precision", "statement": "In IEEE double precision with library sine and cosine accurate to 2e-16, sla::rcc is within 7.3e-15 s of exact arithmetic. Adding whole days to a non-negative UT1 changes no bit of the result. As computed, the place of an observer on the Earth changes the correction by no more than 2.34 microseconds, and within a century of J2000 the correction follows the principal annual sine to 77.2 microseconds.", "quantifier": "all dates within 1000 years of J2000, all times of day, all longitudes within 10 rad and all distances up to 10000 km (6400 km for the last part); every rounding to nearest, all library functions of that accuracy", "why_tests_cant": "The series has hundreds of terms with arguments of thousands of radians; a test compares one date.", "anchors": ["src/rcc.cc: rcc"]}
{"id": "C114", "title": "Axial vectors and rotation matrices in double precision", "statement": "In IEEE double precision with library sine and cosine accurate to 2e-16, sla::dav2m forms every element of the rotation matrix to 1.05e-14. With an atan2 accurate to 5e-16, sla::dm2av recovers each component of the axial vector from a matrix whose elements are right to 1.1e-14 to 9e-14 times the ratio of the angle to its sine; so for the round trip sla::dav2m, sla::dm2av. Up to 120 degrees the round trip is good to 2.3e-13 in every component.", "quantifier": "all axial vectors of up to 7 rad that are zero or not shorter than 2^-500 (sla::dav2m), all of less than half a turn with the sine of the angle at least 1e-6 (sla::dm2av), all matrices near theirs; every rounding to nearest, all library functions of that accuracy", "why_tests_cant": "The axis is recovered from differences that vanish both for small angles and near half a turn; a test takes one vector.", "anchors": ["src/dav2m.cc: dav2m", "src/dm2av.cc: dm2av"]}
{"id": "C115", "title": "Pincushion distortion in double precision: removal with a small coefficient moves every point to the origin", "statement": "In IEEE double precision sla::pcd gives each coordinate to 7e-16 (1 + |c| r^2) of itself (c the coefficient, r the distance from the axis). sla::unpcd, its inverse in exact arithmetic, destroys the coordinates if the coefficient is positive but very small: whatever the library functions do, every point at a distance between 0.01 and 100 is moved to the origin exactly, where the exact result is the point itself to 1e-34 (the distance is found as the difference of two cube roots, in whose arguments it is lost to rounding).", "quantifier": "all coefficients and points up to 1e50 (sla::pcd); all coefficients from 1e-60 to 1e-40 and all points at distances from 0.01 to 100 (sla::unpcd); every rounding to nearest, all library functions", "why_tests_cant": "A test uses the coefficient of one telescope; the failure is confined to coefficients so small that the distortion should have no effect.", "anchors": ["src/pcd.cc: pcd", "src/unpcd.cc: unpcd"]}
{"id": "C116", "title": "Inversion and application of a plate model in double precision", "statement": "In IEEE double precision sla::invf reports every singular model as singular and then leaves its output alone; a model it reports as singular has a determinant that is zero to the rounding of its two products, and there is a model with non-zero determinant that it reports as singular. With k at least (|bf| + |ce|) / |bf - ce| and not above 1e12, the inversion succeeds, the four linear coefficients are right to 3.8e-16 k of themselves and the two zero points to 6.5e-16 k of the sum of the magnitudes of their two terms. sla::xy2xy gives each coordinate to 4e-16 of the sum of the magnitudes of its three terms.", "quantifier": "all models (status, sla::xy2xy), all models with determinant at least 1e-100 (accuracy), all points; every rounding to nearest", "why_tests_cant": "Whether the exact comparison of a rounded determinant with zero can miss a singular model, or reject a regular one, depends on the cancellation of two roundings; a test inverts one regular model.", "anchors": ["src/invf.cc: invf", "src/xy2xy.cc: xy2xy"]}
{"id": "C117", "title": "Removal of pincushion distortion in double precision", "statement": "In IEEE double precision, with a library cosine accurate to 2e-16, an atan2 to 5e-16 and a cube root by pow to 2.3e-16 of itself, sla::unpcd finds each coordinate of the undistorted point to 8e-15 of the scale of the distortion, 1 / sqrt |c| (c the coefficient), of the exact result; where the cubic has three roots it picks the same one as exact arithmetic would.", "quantifier": "all coefficients from 1e-6 to 1e6 of either sign, all points at the origin or not nearer than 1e-36 to it, with -0.1 <= c r^2 <= 1 (r the distorted distance; for negative c the limit of the distortion is -4/27); every rounding to nearest, all library functions of that accuracy", "why_tests_cant": "The two branches use different formulae, each with its own cancellation; a test inverts two points.", "anchors": ["src/unpcd.cc: unpcd"]}
{"id": "C118", "title": "Matrix inversion in the arithmetic of the machine", "statement": "In IEEE single and double precision sla::smat and sla::dmat: whatever the arithmetic does, always return, never use an element of the workspace that is unwritten or out of range, do not depend on what the workspace held, and return determinant zero with a report of singularity; report every matrix with a row or a column of zeros as singular; never report a diagonal matrix with elements of magnitude at least one, for which the inverse has the correctly rounded reciprocals, the solution the known terms times those, rounded, and the determinant is the rounded running product. A matrix with two equal rows may go unreported: all elements 49 (double) or 41 (float), order two.", "quantifier": "all orders, all matrices, right-hand sides and workspaces, every rounding to nearest (the first three claims: every function whatever in place of rounding); the two counterexamples for every right-hand side", "why_tests_cant": "Tests invert one matrix of order three; whether a bad index can ever be read back from the workspace depends on every branch of the elimination.", "anchors": ["src/dmat.cc: dmat", "src/smat.cc: smat"]}
{"id": "C119", "title": "Applying refraction, in the arithmetic of the machine", "statement": "In IEEE double precision, with a sine and cosine accurate to 2e-16 and for ordinary refraction constants (0 <= A <= 4e-4, B small and negative as sla::refco gives them), sla::refz stays within 5.7e-14 radians of what exact arithmetic gives for every zenith distance from 0 to 4 radians, and within 3.1e-15 where no high-zenith-distance model is used; it recovers the observed zenith distance up to nearly 83 degrees from the unrefracted one to 1.31e-12 radians; sla::refv stays within 1.02e-14 per component for every direction above or below the horizon.", "quantifier": "all zenith distances in the interval, all directions of length up to 1.0005, all ordinary A and B, every rounding to nearest and every sine and cosine of that accuracy", "why_tests_cant": "Tests compare a few zenith distances with stored numbers to 1e-12; the error near the switch of models at 83 degrees, below the horizon and for other constants is not seen.", "anchors": ["src/refz.cc: refz", "src/refv.cc: refv"]}
{"id": "C120", "title": "Refraction constants from the weather, in the arithmetic of the machine", "statement": "In IEEE double precision, with a power function accurate to 3e-16 of its value, sla::refcoq returns constants within 1.72e-18 and 3.94e-21 radians (wavelengths from 0.11 to 100 micrometres) or 1.41e-16 and 1.74e-18 radians (radio) of the exact formulae for every temperature from 230 to 320 K, pressure from 400 to 1200 mb and relative humidity; with no pressure both constants are exactly zero, whatever the other arguments.", "quantifier": "all temperatures, pressures and humidities in the ranges, all wavelengths, every rounding to nearest, every power function of that accuracy", "why_tests_cant": "Tests evaluate two cases against stored numbers; the quantifier ranges over a continuum of weather.", "anchors": ["src/refcoq.cc: refcoq"]}
{"id": "C121", "title": "Time scales and epochs in the arithmetic of the machine", "statement": "In IEEE double precision sla::dat returns the whole number of leap seconds exactly from 1972 on and is within 5.27e-14 s from 1858 on; sla::dtt is within 1.24e-14 s from 1972 on and 7.39e-14 s from 1858 on; sla::dt is within 8.02e-11 s of its formulae from 2001 BC to AD 3000, also at the two epochs where the formula changes, and within 1.63e-13 s from 1709 to 2100; sla::epco is within 2.1e-12 years whatever the letters, and an epoch changed to the other system and back is recovered within 4.3e-12 years.", "quantifier": "all dates and epochs in the ranges, all letters, every rounding to nearest", "why_tests_cant": "Tests evaluate single dates; a date between the decimal threshold and the double nearest to it takes the other formula, and no test hits it.", "anchors": ["src/dat.cc: dat", "src/dtt.cc: dtt", "src/dt.cc: dt", "src/epco.cc: epco"]}
{"id": "C122", "title": "Tangent-plane projection of vectors in the arithmetic of the machine", "statement": "In IEEE double (single) precision sla::dtp2v (sla::tp2v) returns components within 5.81e-15 (2.88e-6) of exact arithmetic for plane coordinates up to one radian; sla::dv2tp (sla::v2tp) reports success and returns coordinates within 3.54e-14 (1.77e-5) for points within 59 degrees of the tangent point; projecting back what was deprojected recovers the coordinates within 2.9e-13 (1.43e-4). The bounds hold near a pole as well as elsewhere, and (except the last) exactly at a pole.", "quantifier": "all plane coordinates, points and tangent points in the ranges (distance from the axis at least 1e-80, single 1e-15, or exactly zero), every rounding to nearest", "why_tests_cant": "Tests use one tangent point at middle latitude; near the pole the formulae divide by the small distance from the axis, and loss of accuracy there would not be seen.", "anchors": ["src/dtp2v.cc: dtp2v", "src/dv2tp.cc: dv2tp", "src/tp2v.cc: tp2v", "src/v2tp.cc: v2tp"]}
{"id": "C123", "title": "Spherical coordinates and rates in the arithmetic of the machine", "statement": "In IEEE double (single) precision sla::dc62s (sla::cc62s) returns, for a position off the z axis, the longitude with the error of the library's atan2, the latitude with that error plus 5.7e-16 (2.9e-7) rad, the distance within 6.1e-16 (3.1e-7) of itself, and the rates of longitude, latitude and distance within 1.21e-15, 4.72e-15 and 3.15e-15 (6.05e-7, 2.38e-6, 1.59e-6) of the speed divided by the distance from the axis, by the distance, and of the speed itself. On the axis the longitude and the angular rates are exactly zero. A position whose squares underflow is treated as the null vector and replaced by the velocity: the longitude of a position of 2^-600 on the x axis is reported as that of the velocity.", "quantifier": "all positions with distance from the axis at least 1e-60 (single 1e-9) and length up to 1e60 (1e12), all velocities with components up to V for any V at least 1e-60 (1e-9), every rounding to nearest; every position on the axis or with squares that underflow", "why_tests_cant": "Tests use one position and velocity of ordinary size; cancellation in the rates, the neighbourhood of the axis and the underflow of the squares are not exercised.", "anchors": ["src/dc62s.cc: dc62s", "src/cc62s.cc: cc62s"]}
{"id": "C124", "title": "Bearing between vectors in the arithmetic of the machine", "statement": "The bearing that sla::dpav computes in IEEE double precision leads from the first point to the second: going from the first point at that angle by the true separation arrives within 1.61e-14 rad of the second point, plus the error of the library's atan2, whatever the lengths of the two vectors and however close the first is to a pole; sla::pav returns the same angle within 1.9e-7 rad. Seen from exactly the pole, every point has bearing atan2(0, 1).", "quantifier": "all directions with the cosine of the first latitude at least 1e-40, lengths of the first vector from 1e-20 to 1e60 and of the second at least 1e-60, every rounding to nearest; every vector along the z axis", "why_tests_cant": "Tests use one pair of vectors; close pairs, where cancellation could spoil the angle, and the neighbourhood of the pole are not exercised.", "anchors": ["src/dpav.cc: dpav", "src/pav.cc: pav"]}
{"id": "C125", "title": "Polar motion in the arithmetic of the machine", "statement": "In IEEE double precision sla::polmo returns a true longitude and latitude whose direction is within 7.1e-15 rad (plus 3.15 times the error of the library's atan2) of the direction of the site turned by the polar motion, and an azimuth correction within 9.7e-15 rad divided by the cosine of the true latitude (plus the error of atan2) of that of exact arithmetic.", "quantifier": "all longitudes and latitudes, coordinates of the pole up to 1e-3 rad (206 arcseconds), true sites with cosine of latitude at least 0.01, every rounding to nearest, every library whose sine and cosine are within 2e-16", "why_tests_cant": "Tests use one site and one position of the pole; the growth of the error of the azimuth towards the poles is not seen.", "anchors": ["src/polmo.cc: polmo"]}
{"id": "C126", "title": "Altazimuth mount in the arithmetic of the machine", "statement": "In IEEE double precision sla::altaz returns exactly the azimuth and elevation of sla::de2h, which point at the star to within 5.7e-15 rad plus the errors of the library; its parallactic angle leads from the star to within 4e-15 rad (plus the error of atan2) of the zenith; at a distance d from the zenith or nadir with sin d at least 1e-9 its rates differ from those of exact arithmetic by at most 5.87e-15 / sin d (elevation velocity), 3.31e-14 / sin^2 d (elevation acceleration), 9.03e-15 / sin^2 d (azimuth velocity), 7.27e-14 / sin^3 d (azimuth acceleration), 6.84e-15 / sin^2 d (parallactic angle velocity) and 5.11e-14 / sin^3 d (its acceleration); and everywhere, zenith and nadir included, nothing is divided by zero and the rates stay below 1.03e15 (velocities) and 2.2e30 (accelerations).", "quantifier": "all hour angles, declinations and latitudes, every rounding to nearest, every library whose sine and cosine are within 2e-16", "why_tests_cant": "Tests check one star far from the zenith; how the rates degrade near the zenith and whether the clamp prevents a division by zero for every direction cannot be sampled.", "anchors": ["src/altaz.cc: altaz", "src/de2h.cc: de2h"]}
{"id": "C127", "title": "Tangent point of a star in the arithmetic of the machine", "statement": "For a star within 45 degrees of the tangent point in each plane coordinate and with r^2 = cos^2(dec)(1+eta^2) - sin^2(dec) xi^2, sla::dtps2c in IEEE double precision returns, whenever r is at least 1e-6, both tangent points to within 3.95e-14 / (r cos(dec)) rad plus 3.15 times the error of the library's atan2, with right ascensions in 0..2 pi, and the same number of useful solutions as exact arithmetic unless |sin(dec)| sqrt(1+xi^2+eta^2) is within 2e-15 of one; where r^2 is below -2.8e-15 it reports, like exact arithmetic, no solution.", "quantifier": "all plane coordinates up to one, all declinations short of the poles, right ascensions within 6.3, every rounding to nearest, every library whose sine and cosine are within 2e-16", "why_tests_cant": "Tests check one star; how the two solutions degrade as they merge and as the star approaches the pole, and where the number of solutions can be wrong, cannot be sampled.", "anchors": ["src/dtps2c.cc: dtps2c", "src/dranrm.cc: dranrm"]}
{"id": "C128", "title": "Residuals of a linear plate model in the arithmetic of the machine", "statement": "For any number n of samples, sla::pxy in IEEE double precision returns predicted coordinates within 4e-16 of the sum of the magnitudes of their terms, RMS residuals in X and Y that differ from the true root mean squares of expected minus returned predicted coordinates by at most (n + 6) 0.7e-16 in relative terms (plus 2.2e-100), and a total RMS within (n + 10) 0.73e-16 of the true one (plus 1e-89); against exact arithmetic throughout, the X and Y residuals gain at most a further 4.1e-16 of the largest magnitude of the terms of the model.", "quantifier": "every number of samples an int can hold, all samples and coefficients, every rounding to nearest", "why_tests_cant": "Tests use a handful of samples; how rounding accumulates over a loop of arbitrary length needs induction.", "anchors": ["src/pxy.cc: pxy", "src/xy2xy.cc: xy2xy"]}
{"id": "C129", "title": "Atmospheric dispersion in the arithmetic of the machine", "statement": "In IEEE double precision sla::atmdsp, in ordinary weather (230 to 320 K, 400 to 1200 mb, any humidity) and for two wavelengths from 0.11 to 100 micrometres, returns the tan z constant to within 1.41e-16 rad of exact arithmetic and, where the given constant differs from the refractivity by at least 1e-7, the tan^3 z constant to within 7.8e-16 rad; it returns both constants unchanged if either wavelength exceeds 100 micrometres, and unchanged to the last bit if the two wavelengths are equal, in any weather and with any library power function.", "quantifier": "constants up to 1e-3 and 1e-6 rad; every rounding to nearest; every library whose power of ten is within 3e-16 in relative terms", "why_tests_cant": "Tests compare a few wavelengths to a printed precision; exact return for equal wavelengths and the loss of precision in a difference of nearly equal refractivities concern every input.", "anchors": ["src/atmdsp.cc: atmdsp"]}
{"id": "C130", "title": "Tangent point from direction cosines in the arithmetic of the machine", "statement": "For a star given by direction cosines (x,y,z) with |z| at most one and rho^2 = x^2+y^2 at most 1.0001, and plane coordinates up to one, let r^2 = rho^2 (1+eta^2) - z^2 xi^2. Whenever r is at least 1e-4, sla::dtpv2c in IEEE double precision returns both tangent points with every component within 6.8e-14 / (r rho) of the exact one, and the same number of useful solutions as exact arithmetic unless |z| sqrt(1+xi^2+eta^2) is within 2e-15 of one; where r^2 is at most -3e-15 it reports, like exact arithmetic, no solution.", "quantifier": "all plane coordinates up to one, all stars off the polar axis by the stated root, every rounding to nearest", "why_tests_cant": "Tests check one star; how the two solutions degrade as they merge and near the pole, and where the number of solutions can be wrong, cannot be sampled.", "anchors": ["src/dtpv2c.cc: dtpv2c"]}
{"id": "C131", "title": "Axial vectors and rotation matrices in single precision", "statement": "In IEEE single precision with library sine and cosine accurate to 1.2e-7, sla::av2m forms every element of the rotation matrix to 6.3e-6. With an atan2 accurate to 3e-7, sla::m2av recovers each component of the axial vector from a matrix whose elements are right to 6.6e-6 to 5.4e-5 times the ratio of the angle to its sine; so for the round trip sla::av2m, sla::m2av.", "quantifier": "all axial vectors of up to 7 rad that are zero or not shorter than 1e-9 (sla::av2m), all of less than half a turn with the sine of the angle at least 0.01 (sla::m2av), all matrices near theirs; every rounding to nearest, all library functions of that accuracy", "why_tests_cant": "The axis is recovered from differences that vanish both for small angles and near half a turn; a test takes one vector.", "anchors": ["src/av2m.cc: av2m", "src/m2av.cc: m2av"]}
{"id": "C132", "title": "Gnomonic projection in single precision", "statement": "In IEEE single precision with library sine and cosine accurate to 1.2e-7, sla::s2tp returns the exact status unless the cosine c of the distance of the star from the tangent point is within 2.4e-6 of one of the limits 1e-6, 0 and -1e-6, and gives both plane coordinates to 3.9e-6 / c^2 whenever |c| is at least 1e-4. sla::tp2s returns a direction within 3.3e-6 rad of the point of the plane, plus 3.15 times the error of the library's atan2, with right ascension between zero and the float nearest to 2 pi.", "quantifier": "all declinations, all right ascensions within 6.3, all plane coordinates whose squares do not overflow, every rounding to nearest, every library of that accuracy", "why_tests_cant": "Tests project one star; the loss of accuracy away from the tangent point and the width of the zone of wrong status cannot be sampled.", "anchors": ["src/s2tp.cc: s2tp", "src/tp2s.cc: tp2s", "src/ranorm.cc: ranorm"]}
{"id": "C133", "title": "Tangent point of a star in single precision", "statement": "For a star within 45 degrees of the tangent point in each plane coordinate and with r^2 = cos^2(dec)(1+eta^2) - sin^2(dec) xi^2, sla::tps2c in IEEE single precision returns, whenever r is at least 0.01, both tangent points to within 2.37e-5 / (r cos(dec)) rad plus 3.15 times the error of the library's atan2, with right ascensions between zero and the float nearest to 2 pi, and the same number of useful solutions as exact arithmetic unless |sin(dec)| sqrt(1+xi^2+eta^2) is within 1.2e-6 of one; where r^2 is at most -1.68e-6 it reports, like exact arithmetic, no solution.", "quantifier": "all plane coordinates up to one, all declinations short of the poles, right ascensions within 6.3, every rounding to nearest, every library whose sine and cosine are within 1.2e-7", "why_tests_cant": "Tests check one star; how the two solutions degrade as they merge and as the star approaches the pole, and where the number of solutions can be wrong, cannot be sampled.", "anchors": ["src/tps2c.cc: tps2c", "src/ranorm.cc: ranorm"]}
{"id": "C134", "title": "Tangent point from direction cosines in single precision", "statement": "For a star within 45 degrees of the tangent point in each plane coordinate, given by direction cosines (x,y,z) with rho^2 = x^2+y^2 and r^2 = rho^2(1+eta^2) - z^2 xi^2, sla::tpv2c in IEEE single precision returns, whenever r is at least 0.12, both tangent points with every component within 3.5e-5 / (r rho) of exact arithmetic, and the same number of useful solutions unless |z| sqrt(1+xi^2+eta^2) is within 7e-7 of one; where r^2 is at most -2e-6 it reports, like exact arithmetic, no solution and returns no vector.", "quantifier": "all plane coordinates up to one, all direction cosines with |z| at most 1 and rho^2 at most 1.0001, every rounding to nearest", "why_tests_cant": "Tests check one star; how the two solutions degrade as they merge and as the star approaches the pole, and where the number of solutions can be wrong, cannot be sampled.", "anchors": ["src/tpv2c.cc: tpv2c"]}
{"id": "C135", "title": "Gaussian residuals in single precision", "statement": "In IEEE single precision, over any history of calls and any stream of float uniforms, sla::gresid returns values of at most 8.25 standard deviations. Pairs of calls return, to a relative error of 5.1e-7, the two deviates of the polar method for the first point of the stream inside the unit circle, with the squared radius taken to a relative error of 2.5e-7; points that are skipped are not inside the circle by more than 3e-7, and the second call of a pair draws nothing. The only exception is that a pair of uniforms both equal to one half makes both calls return a NaN: the code's guard against a zero radius does not prevent it.", "quantifier": "all streams of non-negative float numbers, all call histories and standard deviations, every rounding to nearest, every library logarithm with relative error at most 1.2e-7", "why_tests_cant": "The largest deviate and the NaN come from single points of 2^48 pairs of uniforms; the errors are over all streams and histories.", "anchors": ["src/gresid.cc: gresid"]}
{"id": "C136", "title": "Seeding of the uniform generator in floating point", "statement": "For every finite float argument, the integer with which sla::random seeds its engine on the first call, computed in IEEE arithmetic, is odd, lies between 316210 and 3162397 and is the same for an argument and its negative. It differs by at most two from the integer of exact arithmetic, unless the decimal logarithm of the magnitude plus one is within 2e-5 of half way between two integers.", "quantifier": "all arguments up to 3.5e38 in magnitude, every rounding to nearest, every library whose float log10 is within 1e-5 and whose double powers of ten have relative error at most 1e-15", "why_tests_cant": "2^32 arguments, and the range must hold for all of them for the conversions to int to be defined.", "anchors": ["src/random.cc: random", "src/f77_utils.h: f_nint"]}
{"id": "C137", "title": "Hour angle from azimuth or parallactic angle in double precision", "statement": "The hour angles that sla::pda2h and sla::pdq2h return in double precision satisfy the equation for the given azimuth (parallactic angle), latitude and declination to within 2e-11, and lie within 3.15 of zero. Where no solution is reported, no hour angle brings the left side of the equation above the magnitude of the right side by more than 3e-11. NaNs could only be returned where both sides are below 3e-11 for every hour angle, and are never returned for latitudes and declinations up to a right angle in magnitude. The validity flags tell whether the hour angle and the angle given, moved by at most 2.11e-12 and by whole turns, differ in sign (pda2h) or agree in sign (pdq2h).", "quantifier": "all double latitudes, declinations and azimuths or parallactic angles up to 10 rad in magnitude, every rounding to nearest, every library with sines and cosines within 2e-16 and asin and atan2 within 1e-15", "why_tests_cant": "The code moves critical inputs by 1e-12 and divides by a quantity that vanishes near the poles; samples do not settle what happens there.", "anchors": ["src/pda2h.cc: pda2h", "src/pdq2h.cc: pdq2h", "src/drange.cc: drange"]}
{"id": "C138", "title": "Refraction constants from two sample zenith distances in double precision", "statement": "The two constants that sla::refco computes in double precision reproduce the refraction that sla::refro returned for the two sample zenith distances: refa tan z + refb tan^3 z, with the exact tangent of the zenith distance used, is within 1e-15 of it at the first and within 9e-14 at the second, relative to the sum of the two refractions. The two zenith distances written in the code have tangents within 4e-16 of 1 and within 1.8e-14 of 4.", "quantifier": "every pair of refractions (the refraction routine may be any function), every rounding to nearest", "why_tests_cant": "The documentation promises perfect agreement at two zenith distances given as decimal constants; the agreement has to hold for every atmosphere, and 1.325817663668033 must be the arc tangent of 4.", "anchors": ["src/refco.cc: refco"]}
{"id": "C139", "title": "Scales and non-perpendicularity of a linear fit in double precision", "statement": "For a linear model x2 = a + b x1 + c y1, y2 = d + e x1 + f y1, the scales sla::dcmpf returns in double precision are the lengths of (b, e) and (c, f) to within 6e-16 relative, the x scale with the sign of the determinant b f - c e whenever its magnitude exceeds 1.3e-16 of |b f| + |c e|. The non-perpendicularity lies within 3.15 of zero and is the sum of the position angles of the two columns, the first reversed if the x scale is negative, to within 4e-15 and whole turns.", "quantifier": "all six coefficients (overflow excluded), every rounding to nearest, every library whose atan2 is within 1e-15", "why_tests_cant": "The sign of the x scale decides on handedness and flips with the rounding of two products; samples cannot show how close to singular the model may be.", "anchors": ["src/dcmpf.cc: dcmpf", "src/drange.cc: drange"]}
