/-
A reference position of the sun, independent of the code: the motion of the sun on a Keplerian ellipse
with the mean elements found in the textbooks of spherical astronomy (equation of the centre to the
second order in the eccentricity). Nothing here is modelled on /repo.
-/
import Mathlib.Analysis.SpecialFunctions.Complex.Arg
import Mathlib.Analysis.SpecialFunctions.Trigonometric.Inverse

namespace SW.Ephem
open Real

/-- degrees to radians -/
noncomputable def deg (x : ℝ) : ℝ := x * (π / 180)

/-- Julian centuries between 1 January 2000, 12:00 UTC, and the instant `t` (nanoseconds since
1 January 1970, 0:00 UTC) -/
noncomputable def century (t : ℤ) : ℝ := ((t : ℝ) / 86400e9 - 10957.5) / 36525

variable (T : ℝ)

/-- mean longitude of the sun, corrected for aberration -/
noncomputable def meanLongitude : ℝ := deg (280.4665 - 0.0057 + 36000.7698 * T)
/-- mean anomaly -/
noncomputable def meanAnomaly : ℝ := deg (357.5291 + 35999.0503 * T)
/-- eccentricity of the orbit -/
noncomputable def eccentricity : ℝ := 0.0167086 - 0.000042 * T
/-- equation of the centre: true minus mean anomaly, to the second order in the eccentricity -/
noncomputable def center : ℝ :=
  2 * eccentricity T * sin (meanAnomaly T) + 5 / 4 * eccentricity T ^ 2 * sin (2 * meanAnomaly T)
/-- apparent longitude of the sun -/
noncomputable def longitude : ℝ := meanLongitude T + center T
/-- obliquity of the ecliptic -/
noncomputable def obliquity : ℝ := deg (23.4393 - 0.0130 * T)
/-- distance of the sun, in astronomical units: the equation of an ellipse -/
noncomputable def distance : ℝ :=
  (1 - eccentricity T ^ 2) / (1 + eccentricity T * cos (meanAnomaly T + center T))
/-- declination of the sun -/
noncomputable def declination : ℝ := arcsin (sin (obliquity T) * sin (longitude T))
/-- right ascension of the sun -/
noncomputable def rightAscension : ℝ :=
  Complex.arg ⟨cos (longitude T), cos (obliquity T) * sin (longitude T)⟩
/-- mean sidereal time at Greenwich -/
noncomputable def siderealTime : ℝ := deg (280.4606 + 360.98564737 * (36525 * T))
/-- west hour angle of the sun at Greenwich -/
noncomputable def hourAngle : ℝ := siderealTime T - rightAscension T
/-- equation of time in minutes (a turn is 1440 minutes), up to whole turns -/
noncomputable def equationOfTime : ℝ := (meanLongitude T - rightAscension T) * (1440 / (2 * π))

end SW.Ephem
