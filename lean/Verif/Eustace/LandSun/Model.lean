import Verif.Calendar
import Verif.Py
import Mathlib.Analysis.SpecialFunctions.Complex.Arg
import Mathlib.Algebra.Order.Floor.Ring

/-! The place of the sun for the model of air temperature over land, in IDL
(`src/eustace/surfaceairmodel/model_land_idl_setup_satellite.pro`).

Real numbers for floats of both precisions; `!radeg` is 180/π.  Left out are sunrise, sunset and the length of the day, which
`model_land_idl.pro` does not use, and the distance of the sun. -/

namespace Verif.Eustace.LandSun

open Verif Verif.Calendar

noncomputable section

/-- `lp` (model_land_idl_setup_satellite.pro 488-492, 502-506): no year, or year nought, is no leap year. -/
def leap (yr : ℕ) : Bool := if yr = 0 then false else (yr % 4 == 0 && yr % 100 != 0) || yr % 400 == 0

/-- `DayofYear` (model_land_idl_setup_satellite.pro 484-496).  Divisions are of integers. -/
def dayOfYear (mn dy yr : ℕ) : ℤ :=
  let k : ℤ := 2 - (if leap yr then 1 else 0)
  ((275 * mn / 9 : ℕ) : ℤ) - k * ((mn + 9) / 12 : ℕ) + dy - 30

/-- `md` (model_land_idl_setup_satellite.pro 508-509). -/
def monthLengths (yr : ℕ) : List ℤ := [31, if leap yr then 29 else 28, 31, 30, 31, 30, 31, 31, 30, 31, 30, 31]

/-- `modcum` before days which are not positive are taken out (model_land_idl_setup_satellite.pro 510-511). -/
def daysIn (doy : ℤ) : List ℤ → ℤ → List ℤ
  | [], _ => []
  | m :: rest, before => (doy - before) :: daysIn doy rest (before + m)

/-- The smallest of a list (model_land_idl_setup_satellite.pro 514). -/
def lowest : List ℤ → ℤ
  | [] => 0
  | x :: rest => rest.foldl min x

/-- `CalcMDY`: month and day (model_land_idl_setup_satellite.pro 498-517). -/
def calcMDY (doy : ℤ) (yr : ℕ) : ℕ × ℤ :=
  let modcum := (daysIn doy (monthLengths yr) 0).map fun x => if x ≤ 0 then 999 else x
  let dy := lowest modcum
  (modcum.findIdx (fun x => x == dy) + 1, dy)

/-- `calcJD` (model_land_idl_setup_satellite.pro 519-534). -/
def calcJD (yr mo : ℕ) (dy : ℤ) : ℝ :=
  let year : ℤ := if mo ≤ 2 then (yr : ℤ) - 1 else yr
  let month : ℤ := if mo ≤ 2 then (mo : ℤ) + 12 else mo
  let a := Int.tdiv year 100
  let b := 2 - a + Int.tdiv a 4
  (⌊(365.25 : ℝ) * (year + 4716)⌋ : ℝ) + (⌊(30.6001 : ℝ) * (month + 1)⌋ : ℝ) + dy + b - 1524.5

/-- `calcTimeJulianCent` (model_land_idl_setup_satellite.pro 536-540). -/
def calcTimeJulianCent (jd : ℝ) : ℝ := (jd - 2451545) / 36525

/-- `calcJDFromJulianCent` (model_land_idl_setup_satellite.pro 542-546). -/
def calcJDFromJulianCent (t : ℝ) : ℝ := t * 36525 + 2451545

/-- `WHILE (l0 GT 360.0d) DO l0 = l0-360.0d` (model_land_idl_setup_satellite.pro 551).  The first argument bounds the steps. -/
def whileHigh : ℕ → ℝ → ℝ
  | 0, l => l
  | fuel + 1, l => if 360 < l then whileHigh fuel (l - 360) else l

/-- `WHILE (l0 LT 0.0d) DO l0 = l0+360.0d` (model_land_idl_setup_satellite.pro 552). -/
def whileLow : ℕ → ℝ → ℝ
  | 0, l => l
  | fuel + 1, l => if l < 0 then whileLow fuel (l + 360) else l

/-- `calcGeomMeanLongSun` (model_land_idl_setup_satellite.pro 548-554). -/
def calcGeomMeanLongSun (t : ℝ) : ℝ :=
  let l0 := 280.46646 + t * (36000.76983 + 0.0003032 * t)
  let l1 := whileHigh ⌈|l0|⌉₊ l0
  whileLow ⌈|l1|⌉₊ l1

/-- `calcGeomMeanAnomalySun` (model_land_idl_setup_satellite.pro 556-560). -/
def calcGeomMeanAnomalySun (t : ℝ) : ℝ := 357.52911 + t * (35999.05029 - 0.0001537 * t)

/-- `calcEccentricityEarthOrbit` (model_land_idl_setup_satellite.pro 562-566). -/
def calcEccentricityEarthOrbit (t : ℝ) : ℝ := 0.016708634 - t * (0.000042037 + 0.0000001267 * t)

/-- `calcMeanObliquityOfEcliptic` (model_land_idl_setup_satellite.pro 611-616). -/
def calcMeanObliquityOfEcliptic (t : ℝ) : ℝ :=
  let seconds := 21.448 - t * (46.8150 + t * (0.00059 - t * 0.001813))
  23 + (26 + seconds / 60) / 60

/-- `calcObliquityCorrection` (model_land_idl_setup_satellite.pro 618-624). -/
def calcObliquityCorrection (t : ℝ) : ℝ :=
  let e0 := calcMeanObliquityOfEcliptic t
  let omega := 125.04 - 1934.136 * t
  e0 + 0.00256 * Real.cos (Real.pi / 180 * omega)

/-- `calcEquationOfTime`, in minutes (model_land_idl_setup_satellite.pro 645-661). -/
def calcEquationOfTime (t : ℝ) : ℝ :=
  let epsilon := calcObliquityCorrection t
  let l0 := calcGeomMeanLongSun t
  let e := calcEccentricityEarthOrbit t
  let m := calcGeomMeanAnomalySun t
  let y0 := Real.tan (Real.pi / 180 * epsilon / 2)
  let y := y0 * y0
  let sin2l0 := Real.sin (2 * (Real.pi / 180 * l0))
  let sinm := Real.sin (Real.pi / 180 * m)
  let cos2l0 := Real.cos (2 * (Real.pi / 180 * l0))
  let sin4l0 := Real.sin (4 * (Real.pi / 180 * l0))
  let sin2m := Real.sin (2 * (Real.pi / 180 * m))
  let etime := y * sin2l0 - 2 * e * sinm + 4 * e * y * sinm * cos2l0 - 0.5 * y * y * sin4l0 - 1.25 * e * e * sin2m
  180 / Real.pi * etime * 4

/-- `calcSolNoonUTC`, in minutes; west is positive (model_land_idl_setup_satellite.pro 734-743). -/
def calcSolNoonUTC (jd longitude : ℝ) : ℝ :=
  let t := calcTimeJulianCent jd
  let newt := calcTimeJulianCent (calcJDFromJulianCent t + 0.5 + longitude / 360)
  720 + longitude * 4 - calcEquationOfTime newt

open Classical in
/-- The third number of `sunrise`, noon in hours (model_land_idl_setup_satellite.pro 745-812), for one day.  The latitude is not used for
it, so the replacement of latitude nought is left out. -/
def sunriseNoon (doy : ℤ) (yr : ℕ) (inlon : ℝ) : Except PyErr ℝ :=
  let lon := if inlon = 0 then 0.0001 else inlon
  if doy ≤ 0 ∨ 366 < doy then .error .other
  else
    let md := calcMDY doy yr
    let jd := calcJD yr md.1 md.2
    .ok (calcSolNoonUTC jd (lon * (-1)) / 60)

/-- `jd` (model_land_idl_setup_satellite.pro 952-962), for years and months which are not negative. -/
def jd (i j : ℕ) (k : ℤ) : ℤ := 367 * i - ((7 * (i + (j + 9) / 12) / 4 : ℕ) : ℤ) + ((275 * j / 9 : ℕ) : ℤ) + k + 1721014

/-- `jday` (model_land_idl_setup_satellite.pro 968-974): `l` is -1, the division of integers going towards nought. -/
def jday (i : ℕ) (k : ℤ) : ℤ :=
  let j : ℤ := 1
  let l : ℤ := Int.tdiv (j - 14) 12
  let d := k - 32075 + Int.tdiv (1461 * (i + 4800 + l)) 4
  d + Int.tdiv (367 * (j - 2 - l * 12)) 12 - Int.tdiv (3 * Int.tdiv (i + 4900 + l) 100) 4

/-- Towards nought: `long` and the quotient of `mod`. -/
def trunc (x : ℝ) : ℤ := if 0 ≤ x then ⌊x⌋ else ⌈x⌉

/-- `x mod 360.d0`, which has the sign of `x`. -/
def mod360 (x : ℝ) : ℝ := x - 360 * trunc (x / 360)

/-- Longitudes and anomalies of `ephparms` (model_land_idl_setup_satellite.pro 1019-1050). -/
structure Eph where
  xls : ℝ
  gs : ℝ
  xlm : ℝ
  omega : ℝ

/-- `ephparms` (model_land_idl_setup_satellite.pro 1019-1050). -/
def ephparms (t : ℝ) : Eph where
  xls := mod360 (280.46592 + 0.9856473516 * t)
  gs := mod360 (357.52772 + 0.9856002831 * t)
  xlm := mod360 (218.31643 + 13.17639648 * t)
  omega := mod360 (125.04452 - 0.0529537648 * t)

/-- An angle in degrees divided by `!radeg`. -/
def rad (x : ℝ) : ℝ := x * Real.pi / 180

/-- `dpsi` of `nutate`, in degrees (model_land_idl_setup_satellite.pro 1068-1073, 1084). -/
def dpsi (p : Eph) : ℝ :=
  (-17.1996 * Real.sin (rad p.omega) + 0.2062 * Real.sin (rad (2 * p.omega)) - 1.3187 * Real.sin (rad (2 * p.xls))
    + 0.1426 * Real.sin (rad p.gs) - 0.2274 * Real.sin (rad (2 * p.xlm))) / 3600

/-- `eps` of `nutate`, in degrees (model_land_idl_setup_satellite.pro 1075-1082). -/
def eps (t : ℝ) (p : Eph) : ℝ :=
  23.439291 - 0.000000356 * t + (9.2025 * Real.cos (rad p.omega) + 0.5736 * Real.cos (rad (2 * p.xls))) / 3600

/-- Time of `sun2000`, in days (model_land_idl_setup_satellite.pro 834-837). -/
def sunTime (iyr : ℕ) (iday : ℤ) (sec : ℝ) : ℝ := jd iyr 1 iday - 2451545 + (sec - 43200) / 86400

/-- Apparent longitude of the sun in `sun2000` (model_land_idl_setup_satellite.pro 850-884). -/
def xlsa (t : ℝ) : ℝ :=
  let p := ephparms t
  let g2 := mod360 (50.40828 + 1.60213022 * t)
  let g4 := mod360 (19.38816 + 0.52402078 * t)
  let g5 := mod360 (20.35116 + 0.08309121 * t)
  let rs := 1.00014 - 0.01671 * Real.cos (rad p.gs) - 0.00014 * Real.cos (rad (2 * p.gs))
  let dls := (6893 - 0.00046543463 * t) * Real.sin (rad p.gs) + 72 * Real.sin (rad (2 * p.gs)) - 7 * Real.cos (rad (p.gs - g5))
    + 6 * Real.sin (rad (p.xlm - p.xls)) + 5 * Real.sin (rad (4 * p.gs - 8 * g4 + 3 * g5)) - 5 * Real.cos (rad (2 * p.gs - 2 * g2))
    - 4 * Real.sin (rad (p.gs - g2)) + 4 * Real.cos (rad (4 * p.gs - 8 * g4 + 3 * g5)) + 3 * Real.sin (rad (2 * p.gs - 2 * g2))
    - 3 * Real.sin (rad g5) - 3 * Real.sin (rad (2 * p.gs - 2 * g5))
  p.xls + dls / 3600 + dpsi p - 0.0056932 / rs

/-- A vector. -/
structure V3 where
  x : ℝ
  y : ℝ
  z : ℝ

/-- `sun2000` (model_land_idl_setup_satellite.pro 826-892). -/
def sun2000 (iyr : ℕ) (iday : ℤ) (sec : ℝ) : V3 :=
  let t := sunTime iyr iday sec
  let l := rad (xlsa t)
  let e := rad (eps t (ephparms t))
  ⟨Real.cos l, Real.sin l * Real.cos e, Real.sin l * Real.sin e⟩

/-- Time of `gha2000`, in days (model_land_idl_setup_satellite.pro 993-997). -/
def ghaTime (iyr : ℕ) (day : ℝ) : ℝ :=
  let iday := trunc day
  jday iyr iday - 2451545.5 + (day - iday)

open Classical in
/-- `gha2000` (model_land_idl_setup_satellite.pro 987-1017). -/
def gha2000 (iyr : ℕ) (day : ℝ) : ℝ :=
  let fday := day - trunc day
  let t := ghaTime iyr day
  let gmst := 100.4606184 + 0.9856473663 * t + 0.0000000000002908 * t * t
  let p := ephparms t
  let gha := mod360 (gmst + dpsi p * Real.cos (rad (eps t p)) + fday * 360)
  if gha < 0 then gha + 360 else gha

/-- `l_sun` (model_land_idl_setup_satellite.pro 900-923). -/
def lSun (iyr : ℕ) (iday : ℤ) (sec : ℝ) : V3 :=
  let su := sun2000 iyr iday sec
  let ghar := rad (gha2000 iyr (iday + sec / 86400))
  ⟨su.x * Real.cos ghar + su.y * Real.sin ghar, su.y * Real.cos ghar - su.x * Real.sin ghar, su.z⟩

/-- `rmat(i,*)` times the sun: the scalar product (model_land_idl_setup_satellite.pro 1158-1161). -/
def dot (a b : V3) : ℝ := a.x * b.x + a.y * b.y + a.z * b.z

/-- `crossp`, of the IDL library (model_land_idl_setup_satellite.pro 1146). -/
def crossp (a b : V3) : V3 := ⟨a.y * b.z - a.z * b.y, a.z * b.x - a.x * b.z, a.x * b.y - a.y * b.x⟩

/-- `atan(y, x)` of the IDL library. -/
def atan2 (y x : ℝ) : ℝ := Complex.arg ⟨x, y⟩

/-- Vertical (model_land_idl_setup_satellite.pro 1143). -/
def upOf (lon lat : ℝ) : V3 :=
  ⟨Real.cos (rad lat) * Real.cos (rad lon), Real.cos (rad lat) * Real.sin (rad lon), Real.sin (rad lat)⟩

/-- East (model_land_idl_setup_satellite.pro 1144-1145). -/
def eastOf (up : V3) : V3 :=
  let upxy := Real.sqrt (up.x * up.x + up.y * up.y)
  ⟨-up.y / upxy, up.x / upxy, 0⟩

open Classical in
/-- `lonlat2solz` for one place: angle from the zenith and azimuth, in degrees (model_land_idl_setup_satellite.pro 1120-1183).  The
geocentric place of 1148-1153 is not used and is left out. -/
def lonlat2solz (lon lat : ℝ) (year : ℕ) (day : ℤ) (msec : ℝ) : ℝ × ℝ :=
  let usun := lSun year day (msec / 1000)
  let up := upOf lon lat
  let ea := eastOf up
  let no := crossp up ea
  let sx := dot ea usun
  let sy := dot no usun
  let sz := dot up usun
  let solz := atan2 (Real.sqrt (sx * sx + sy * sy)) sz * (180 / Real.pi)
  let sola := if 0.05 < solz then atan2 sx sy * (180 / Real.pi) else 0
  (solz, if sola < 0 then sola + 360 else sola)

open Classical in
/-- The angle of the sun at noon in one cell with a land surface temperature (model_land_idl.pro 543-556). -/
def noonZenith (lon lat : ℝ) (year : ℕ) (doy : ℤ) : Except PyErr ℝ :=
  match sunriseNoon doy year lon with
  | .error e => .error e
  | .ok noon =>
    let noon2 := if noon < 0 then noon + 24 else noon
    .ok (lonlat2solz lon lat year doy (noon2 * 60 * 60 * 1000)).1

end

end Verif.Eustace.LandSun
