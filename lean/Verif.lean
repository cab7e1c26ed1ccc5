import Verif.Props.Calendar
import Verif.Props.TimeScales
import Verif.Props.Combn
import Verif.Props.Permut
import Verif.Props.Angles
import Verif.Props.Vectors
import Verif.Props.Alias
import Verif.Props.Precession
import Verif.Props.Spherical
import Verif.Props.Horizon
import Verif.Props.HourAngle
import Verif.Props.Tangent
import Verif.Props.Fit
import Verif.Props.Linear
import Verif.Props.FitXY
import Verif.Props.Svd
import Verif.Props.Coords
import Verif.Props.Eterms
import Verif.Props.Observer
import Verif.Props.Refraction
import Verif.Props.Obs
import Verif.Props.Misc
import Verif.Props.Epv
import Verif.Props.Moon
import Verif.Props.Earth
import Verif.Props.SvdRoutine
import Verif.Props.Nut80
import Verif.Props.Rcc
import Verif.Props.Evp
import Verif.Props.FpRange
import Verif.Props.FpCalendar
import Verif.Props.FpTime
import Verif.Props.FpVectors
import Verif.Props.FpEpoch
import Verif.Props.FpSidereal
import Verif.Props.FpRotation
import Verif.Props.FpSeparation
import Verif.Props.Gaussian
import Verif.Props.Atmosphere
import Verif.Props.RefractionInverse
import Verif.Props.PrecessionConsistency
import Verif.Props.DeltaT
import Verif.Props.FpTimeSingle
import Verif.Props.FpSingle
import Verif.Props.MoonAgree
import Verif.Props.FpHorizon
import Verif.Props.FpOverflow
import Verif.Props.FpOverflowMore
import Verif.Props.FpOverflowEphem
import Verif.Props.DataFlow
import Verif.Props.Checked32
import Verif.Props.FpEarth
import Verif.Props.FpMoon
import Verif.Lemmas.EclipticMotion
import Verif.Props.EclipticMotion
import Verif.Lemmas.EpvKepler
import Verif.Lemmas.EpvMatch
import Verif.Lemmas.EpvSeries
import Verif.Props.EpvEvp
import Verif.Lemmas.SvdTwo
import Verif.Props.SvdTwo
import Verif.Model.FpCoords
import Verif.Lemmas.FpErr64
import Verif.Lemmas.FpCoords
import Verif.Props.FpCoords
import Verif.Props.HourAngleCritical
import Verif.Model.FpTangent
import Verif.Props.FpTangent
import Verif.Model.FpObs
import Verif.Props.FpObs
import Verif.Model.FpNut
import Verif.Lemmas.FpNut
import Verif.Props.FpNut
import Verif.Model.FpCat
import Verif.Lemmas.FpCat
import Verif.Props.FpCat
import Verif.Model.FpDmoon
import Verif.Lemmas.FpNear
import Verif.Lemmas.MoonTurn
import Verif.Lemmas.FpDmoon
import Verif.Lemmas.FpDmoonPos
import Verif.Props.FpDmoon
import Verif.Model.FpEpv
import Verif.Lemmas.FpEpv
import Verif.Lemmas.FpEpvSums
import Verif.Lemmas.FpEpvNear
import Verif.Props.FpEpv
import Verif.Model.FpEvp
import Verif.Lemmas.FpAngle
import Verif.Lemmas.FpEvpElem
import Verif.Lemmas.FpEvpOrbit
import Verif.Lemmas.FpEvpVec
import Verif.Lemmas.FpEvpNear
import Verif.Props.FpEvp
import Verif.Model.FpSeries
import Verif.Lemmas.FpNut80
import Verif.Lemmas.FpSeries
import Verif.Props.FpSeries
import Verif.Model.FpAxis
import Verif.Props.FpAxis
import Verif.Props.FpPlate
import Verif.Props.FpUnpcd
import Verif.Lemmas.FpMat
import Verif.Props.FpMat
import Verif.Lemmas.FpRefraction
import Verif.Lemmas.FpRefractionVec
import Verif.Props.FpRefraction
import Verif.Lemmas.FpRefcoq
import Verif.Props.FpRefcoq
import Verif.Lemmas.FpEpochs
import Verif.Props.FpEpochs
import Verif.Lemmas.FpTangentVec
import Verif.Props.FpTangentVec
import Verif.Lemmas.FpScaled
import Verif.Lemmas.FpPolar
import Verif.Props.FpPolar
import Verif.Lemmas.FpBearing
import Verif.Props.FpBearing
import Verif.Lemmas.FpPolmo
import Verif.Props.FpPolmo
import Verif.Lemmas.FpAltaz
import Verif.Props.FpAltaz
import Verif.Lemmas.FpTangentPoint
import Verif.Props.FpTangentPoint
import Verif.Props.FpFit
import Verif.Lemmas.FpDispersion
import Verif.Props.FpDispersion
import Verif.Lemmas.FpTangentPointVec
import Verif.Props.FpTangentPointVec
import Verif.Model.FpAxisSingle
import Verif.Props.FpAxisSingle
import Verif.Model.FpTangentSingle
import Verif.Props.FpTangentSingle
import Verif.Lemmas.FpTangentPointSingle
import Verif.Props.FpTangentPointSingle
import Verif.Lemmas.FpTangentPointVecSingle
import Verif.Props.FpTangentPointVecSingle
import Verif.Lemmas.FpGauss
import Verif.Props.FpGauss
import Verif.Props.FpRandom
import Verif.Props.FpHourAngle
import Verif.Props.FpRefco
import Verif.Props.FpDcmpf
