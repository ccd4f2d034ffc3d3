/-
C90: the earth turns once a day. Two places of the same latitude see the same sun, one after the other, when their mean solar clocks show the same time;
so does one place at the same hour of two days. What is left is the change of the declination and of the equation of time, 0.6 degrees a day.
-/
import Verif.Props.Seasons

namespace SW.Props
open SW.Spec Real Sunpos
open SW.Ephem (century declination equationOfTime distance hourAngle eccentricity meanAnomaly center longitude
  meanLongitude rightAscension ecc_bound)

/-- the mean solar time of longitude `l` at instant `t` (nanoseconds UTC), as an angle: 360 degrees a day, a degree for each degree of longitude -/
noncomputable def clockAngle (t : ℤ) (l : ℝ) : ℝ := 360 * ((t : ℝ) / 86400e9) + l

/-- the angle between the directions of the reference sun at two instants and two places, each in its own horizon -/
theorem ref_turn {t u : ℤ} (ht : |t| < 2 ^ 63) (hu : |u| < 2 ^ 63) (φ1 l1 φ2 l2 : ℝ) (m : ℤ) :
    arccos ((sunVec (rad φ1) (declination (century t)) (-(hourAngle (century t) + rad l1))).dot
      (sunVec (rad φ2) (declination (century u)) (-(hourAngle (century u) + rad l2))))
      ≤ rad (|φ1 - φ2| + |clockAngle t l1 - clockAngle u l2 - 360 * m| + 0.6 * daysBetween t u) := by
  have ct := century_bound ht
  have cu := century_bound hu
  have hdd := Ephem.drift_dec ct cu
  obtain ⟨k, hk⟩ := Ephem.drift_eot ct cu
  have hT := century_days t u
  have hp := pi_gt_d4
  rw [hT] at hdd hk
  have hD : 0 ≤ daysBetween t u := by unfold daysBetween; positivity
  -- the hour angles
  have hH : |(-(hourAngle (century t) + rad l1)) - (-(hourAngle (century u) + rad l2)) - ((-(k + m) : ℤ) : ℝ) * (2 * π)|
      ≤ rad |clockAngle t l1 - clockAngle u l2 - 360 * m| + rad 0.0000001 * daysBetween t u + 90 * (daysBetween t u / 36525) := by
    have e : (-(hourAngle (century t) + rad l1)) - (-(hourAngle (century u) + rad l2)) - ((-(k + m) : ℤ) : ℝ) * (2 * π)
        = -(rad (clockAngle t l1 - clockAngle u l2 - 360 * m))
          - ((meanLongitude (century t) - rightAscension (century t)) - (meanLongitude (century u) - rightAscension (century u)) - k * (2 * π))
          - ((360.98564737 * 36525 - 36000.7698 - 360 * 36525) * (π / 180)) * (century t - century u) := by
      unfold Ephem.hourAngle Ephem.siderealTime Ephem.meanLongitude Ephem.deg rad clockAngle Ephem.century
      push_cast; ring
    rw [e]
    refine (abs_sub _ _).trans ?_
    have a1 : |((360.98564737 * 36525 - 36000.7698 - 360 * 36525) * (π / 180)) * (century t - century u)|
        ≤ rad 0.0000001 * daysBetween t u := by
      rw [abs_mul, hT, abs_mul, abs_of_pos (by positivity : 0 < π / 180)]
      unfold rad
      have h0 : 0 ≤ π * daysBetween t u / 180 := by positivity
      have q : |(360.98564737 * 36525 - 36000.7698 - 360 * 36525 : ℝ)| / 36525 ≤ 0.0000001 := by
        rw [div_le_iff₀ (by norm_num), abs_le]; norm_num
      have := mul_le_mul_of_nonneg_right q h0
      linarith
    have a2 := (abs_sub (-(rad (clockAngle t l1 - clockAngle u l2 - 360 * m))) ((meanLongitude (century t) - rightAscension (century t))
      - (meanLongitude (century u) - rightAscension (century u)) - k * (2 * π)))
    rw [abs_neg, abs_rad] at a2
    linarith
  have s1 := angle_triangle (sunVec_sq (rad φ1) (declination (century t)) (-(hourAngle (century t) + rad l1)))
    (sunVec_sq (rad φ2) (declination (century t)) (-(hourAngle (century t) + rad l1)))
    (sunVec_sq (rad φ2) (declination (century u)) (-(hourAngle (century u) + rad l2)))
  have s2 := angle_triangle (sunVec_sq (rad φ2) (declination (century t)) (-(hourAngle (century t) + rad l1)))
    (sunVec_sq (rad φ2) (declination (century u)) (-(hourAngle (century t) + rad l1)))
    (sunVec_sq (rad φ2) (declination (century u)) (-(hourAngle (century u) + rad l2)))
  have q1 := angle_lat (rad φ1) (rad φ2) (declination (century t)) (-(hourAngle (century t) + rad l1))
  have q2 := angle_dec (rad φ2) (declination (century t)) (declination (century u)) (-(hourAngle (century t) + rad l1))
  have q3 := (angle_hour (rad φ2) (declination (century u)) _ _ _).trans hH
  rw [← rad_sub, abs_rad] at q1
  have hfin : rad 0.0000001 * daysBetween t u + 90 * (daysBetween t u / 36525)
      + 288.7 * (daysBetween t u / 36525) ≤ rad (0.6 * daysBetween t u) := by
    generalize daysBetween t u = D at *
    unfold rad
    have : 3.1415 * D ≤ π * D := mul_le_mul_of_nonneg_right (by norm_num at hp ⊢; linarith) hD
    norm_num at this ⊢
    nlinarith
  rw [rad_add, rad_add]
  linarith

/-- C90: two calls without refraction, of any use cases, algorithms and engines, at two instants and two places: the angle
between the directions they return, each in its own horizon, is at most the difference of the latitudes, plus that of the
mean solar times (as angles, up to whole turns), plus 0.6 degrees for each day between the instants, plus the errors of C54. -/
theorem C90_position {uc1 uc2 : UseCase} {w1 w2 : World XR} {times1 times2 : Times} {lat1 lon1 lat2 lon2 : Coord XR}
    {alg1 eng1 alg2 eng2 : String} {refr1 refr2 : PyVal} {s1 s2 : Sunpos XR} {e1 e2 : Dim → Nat} {t u : Int}
    {φ1 l1 φ2 l2 : ℝ} (m : ℤ)
    (h1 : call uc1 w1 times1 lat1 lon1 alg1 refr1 eng1 = .ok s1) (hr1 : refr1 ≠ .pyTrue)
    (h2 : call uc2 w2 times2 lat2 lon2 alg2 refr2 eng2 = .ok s2) (hr2 : refr2 ≠ .pyTrue)
    (ha1 : At s1 times1 e1 t φ1 l1) (ha2 : At s2 times2 e2 u φ2 l2) :
    ∃ z1 a1 z2 a2 : ℝ, s1.zenithDeg.get e1 = .fin z1 ∧ s1.azimuthDeg.get e1 = .fin a1 ∧
      s2.zenithDeg.get e2 = .fin z2 ∧ s2.azimuthDeg.get e2 = .fin a2 ∧
      arccos ((dirVec (rad z1) (rad a1)).dot (dirVec (rad z2) (rad a2)))
        ≤ rad (|φ1 - φ2| + |clockAngle t l1 - clockAngle u l2 - 360 * m| + 0.6 * daysBetween t u + positionError alg1 eng1 + positionError alg2 eng2) ∧
      |z1 - z2|
        ≤ |φ1 - φ2| + |clockAngle t l1 - clockAngle u l2 - 360 * m| + 0.6 * daysBetween t u + positionError alg1 eng1 + positionError alg2 eng2 := by
  obtain ⟨z1, a1, g1, g2, b1⟩ := C54_position h1 hr1 ha1
  obtain ⟨z2, a2, g3, g4, b2⟩ := C54_position h2 hr2 ha2
  obtain ⟨y1, hy1, r1, r1'⟩ := C13_range h1 ha1 (.inr (.inr hr1))
  obtain ⟨y2, hy2, r2, r2'⟩ := C13_range h2 ha2 (.inr (.inr hr2))
  obtain rfl : y1 = z1 := XR.fin_inj.1 (hy1.symm.trans g1)
  obtain rfl : y2 = z2 := XR.fin_inj.1 (hy2.symm.trans g3)
  have hr := ref_turn ha1.range ha2.range φ1 l1 φ2 l2 m
  have t1 := angle_triangle (dirVec_sq (rad y1) (rad a1)) (sunVec_sq (rad φ1) (declination (century t)) (-(hourAngle (century t) + rad l1)))
    (dirVec_sq (rad y2) (rad a2))
  have t2 := angle_triangle (sunVec_sq (rad φ1) (declination (century t)) (-(hourAngle (century t) + rad l1)))
    (sunVec_sq (rad φ2) (declination (century u)) (-(hourAngle (century u) + rad l2))) (dirVec_sq (rad y2) (rad a2))
  have comm : ∀ a b : Vec, a.dot b = b.dot a := fun a b => by simp only [Vec.dot]; ring
  rw [comm (sunVec (rad φ2) _ _)] at t2
  have hA : arccos ((dirVec (rad y1) (rad a1)).dot (dirVec (rad y2) (rad a2)))
        ≤ rad (|φ1 - φ2| + |clockAngle t l1 - clockAngle u l2 - 360 * m| + 0.6 * daysBetween t u + positionError alg1 eng1 + positionError alg2 eng2) := by
    rw [rad_add _ (positionError alg2 eng2), rad_add _ (positionError alg1 eng1)]; linarith
  refine ⟨y1, a1, y2, a2, g1, g2, g3, g4, hA, ?_⟩
  have e180 : rad 180 = π := by unfold rad; ring
  have hz := zen_le_angle (a := rad a1) (z := rad y1) (ζ := rad y2) (v := dirVec (rad y2) (rad a2)) (by unfold rad; positivity)
    (by rw [← e180]; exact rad_mono r1') (by unfold rad; positivity) (by rw [← e180]; exact rad_mono r2') (dirVec_sq _ _) rfl
  apply of_rad
  rw [rad_sub]
  exact hz.trans hA

/-- the apparent zenith angles of the reference sun at two instants and two places where it is up -/
theorem ref_turn_apparent {t u : ℤ} (ht : |t| < 2 ^ 63) (hu : |u| < 2 ^ 63) {φ1 l1 φ2 l2 ζ1 ζ2 : ℝ} (m : ℤ)
    (hup1 : cos (rad ζ1) = sin (rad φ1) * sin (declination (century t))
      + cos (rad φ1) * cos (declination (century t)) * cos (hourAngle (century t) + rad l1))
    (hup2 : cos (rad ζ2) = sin (rad φ2) * sin (declination (century u))
      + cos (rad φ2) * cos (declination (century u)) * cos (hourAngle (century u) + rad l2))
    (hζ1 : 0 ≤ ζ1 ∧ ζ1 ≤ 90) (hζ2 : 0 ≤ ζ2 ∧ ζ2 ≤ 90) :
    |(ζ1 - standardRefraction (90 - ζ1)) - (ζ2 - standardRefraction (90 - ζ2))|
      ≤ |φ1 - φ2| + |clockAngle t l1 - clockAngle u l2 - 360 * m| + 0.6 * daysBetween t u + 0.0001 := by
  have hr := ref_turn ht hu φ1 l1 φ2 l2 m
  have e90 : rad 90 = π / 2 := by unfold rad; ring
  have e180 : rad 180 = π := by unfold rad; ring
  have r1 := hζ1.2
  have r2 := hζ2.2
  have p1 : 0 ≤ rad ζ1 := by have := hζ1.1; unfold rad; positivity
  have p2 : 0 ≤ rad ζ2 := by have := hζ2.1; unfold rad; positivity
  have hp := pi_gt_d4
  -- the true zenith angles
  obtain ⟨a, ha⟩ : ∃ a, sunVec (rad φ1) (declination (century t)) (-(hourAngle (century t) + rad l1)) = dirVec (rad ζ1) a :=
    exists_dir (sunVec_sq _ _ _) (by rw [hup1]; simp only [sunVec, cos_neg])
      (sin_nonneg_of_nonneg_of_le_pi p1 (by rw [← e180]; exact rad_mono (by linarith)))
  have hz := (zen_le_angle (a := a) (z := rad ζ1) (ζ := rad ζ2)
    (v := sunVec (rad φ2) (declination (century u)) (-(hourAngle (century u) + rad l2))) p1
    (by rw [← e180]; exact rad_mono (by linarith)) p2 (by rw [← e180]; exact rad_mono (by linarith)) (sunVec_sq _ _ _)
    (by rw [hup2]; simp only [sunVec, cos_neg]))
  rw [← ha] at hz
  have hz := hz.trans hr
  have hl := standard_lip (e₁ := π / 2 - rad ζ1) (e₂ := π / 2 - rad ζ2)
    (by rw [← e90, ← rad_sub]; exact le_trans (by norm_num) (show (0 : ℝ) ≤ rad (90 - ζ1) by
      have : 0 ≤ 90 - ζ1 := by linarith
      unfold rad; positivity)) (by linarith)
    (by rw [← e90, ← rad_sub]; exact le_trans (by norm_num) (show (0 : ℝ) ≤ rad (90 - ζ2) by
      have : 0 ≤ 90 - ζ2 := by linarith
      unfold rad; positivity)) (by linarith)
  have eζ : ∀ ζ, (π / 2 - rad ζ) * (180 / π) = 90 - ζ := fun ζ => by unfold rad; field_simp; ring
  rw [eζ, eζ, show π / 2 - rad ζ1 - (π / 2 - rad ζ2) = -(rad ζ1 - rad ζ2) by ring, abs_neg] at hl
  apply of_rad
  have er : ∀ x, rad x = x * (π / 180) := fun x => by unfold rad; ring
  have e4 : 1.13e-6 ≤ rad 0.0001 := by unfold rad; norm_num at hp ⊢; linarith
  rw [rad_sub, rad_sub, rad_sub, rad_add, er (standardRefraction _), er (standardRefraction _)]
  rw [abs_le] at hl ⊢
  constructor <;> linarith [hl.1, hl.2]

/-- C90: with refraction (the default), where the sun of the ephemeris is above the horizon at both (2 degrees above it for
iqbal), the apparent zenith angles differ by at most as much plus the refraction errors of C68. -/
theorem C90_apparent {uc1 uc2 : UseCase} {w1 w2 : World XR} {times1 times2 : Times} {lat1 lon1 lat2 lon2 : Coord XR}
    {alg1 eng1 alg2 eng2 : String} {s1 s2 : Sunpos XR} {e1 e2 : Dim → Nat} {t u : Int}
    {φ1 l1 φ2 l2 ζ1 ζ2 : ℝ} (m : ℤ)
    (h1 : call uc1 w1 times1 lat1 lon1 alg1 .pyTrue eng1 = .ok s1)
    (h2 : call uc2 w2 times2 lat2 lon2 alg2 .pyTrue eng2 = .ok s2)
    (ha1 : At s1 times1 e1 t φ1 l1) (ha2 : At s2 times2 e2 u φ2 l2)
    (hup1 : cos (rad ζ1) = sin (rad φ1) * sin (declination (century t))
      + cos (rad φ1) * cos (declination (century t)) * cos (hourAngle (century t) + rad l1))
    (hup2 : cos (rad ζ2) = sin (rad φ2) * sin (declination (century u))
      + cos (rad φ2) * cos (declination (century u)) * cos (hourAngle (century u) + rad l2))
    (hζ1 : 0 ≤ ζ1 ∧ ζ1 ≤ 90 - lowestElevation alg1) (hζ2 : 0 ≤ ζ2 ∧ ζ2 ≤ 90 - lowestElevation alg2) :
    ∃ z1 z2 : ℝ, s1.zenithDeg.get e1 = .fin z1 ∧ s2.zenithDeg.get e2 = .fin z2 ∧
      |z1 - z2| ≤ |φ1 - φ2| + |clockAngle t l1 - clockAngle u l2 - 360 * m| + 0.6 * daysBetween t u
        + (positionError alg1 eng1 + refractionError alg1) + (positionError alg2 eng2 + refractionError alg2) + 0.0001 := by
  obtain ⟨z1, -, -, g1, -, -, -, b1⟩ := C68_accuracy h1 ha1 hup1 hζ1.1 hζ1.2
  obtain ⟨z2, -, -, g2, -, -, -, b2⟩ := C68_accuracy h2 ha2 hup2 hζ2.1 hζ2.2
  have hS := ref_turn_apparent ha1.range ha2.range m hup1 hup2 (le_ninety hζ1) (le_ninety hζ2)
  refine ⟨z1, z2, g1, g2, ?_⟩
  rw [abs_le] at *
  constructor <;> linarith [b1.1, b1.2, b2.1, b2.2, hS.1, hS.2]

/-- C90: the same in floating-point arithmetic, without refraction: two calls in any two arithmetics with the accuracy of
double precision. -/
theorem C90_float {A B : Arith} {uc1 uc2 : UseCase} {w1 : World (Rd A)} {w2 : World (Rd B)} {times1 times2 : Times}
    {lat1 lon1 : Coord (Rd A)} {lat2 lon2 : Coord (Rd B)} {alg1 eng1 alg2 eng2 : String} {refr1 refr2 : PyVal}
    {s1 : Sunpos (Rd A)} {s2 : Sunpos (Rd B)} {e1 e2 : Dim → Nat} {t u : Int} {φ1 l1 φ2 l2 ζ1 ζ2 : ℝ} (m : ℤ)
    (h1 : call uc1 w1 times1 lat1 lon1 alg1 refr1 eng1 = .ok s1) (hr1 : refr1 ≠ .pyTrue)
    (h2 : call uc2 w2 times2 lat2 lon2 alg2 refr2 eng2 = .ok s2) (hr2 : refr2 ≠ .pyTrue)
    (ha1 : AtRd s1 times1 e1 t φ1 l1) (ha2 : AtRd s2 times2 e2 u φ2 l2)
    (hφ1 : -90 ≤ φ1 ∧ φ1 ≤ 90) (hl1 : -180 ≤ l1 ∧ l1 < 180) (hφ2 : -90 ≤ φ2 ∧ φ2 ≤ 90) (hl2 : -180 ≤ l2 ∧ l2 < 180)
    (hpole1 : alg1 = "nrel" → |φ1| ≤ 90 - 1e-10) (hpole2 : alg2 = "nrel" → |φ2| ≤ 90 - 1e-10)
    (hup1 : cos (rad ζ1) = sin (rad φ1) * sin (declination (century t))
      + cos (rad φ1) * cos (declination (century t)) * cos (hourAngle (century t) + rad l1))
    (hup2 : cos (rad ζ2) = sin (rad φ2) * sin (declination (century u))
      + cos (rad φ2) * cos (declination (century u)) * cos (hourAngle (century u) + rad l2))
    (hs1 : 0.06 ≤ placeFactor alg1 eng1 φ1 * sin (rad ζ1)) (hs2 : 0.06 ≤ placeFactor alg2 eng2 φ2 * sin (rad ζ2)) :
    ∃ z1 a1 z2 a2 : ℝ, s1.zenithDeg.get e1 = Rd.fin z1 ∧ s1.azimuthDeg.get e1 = Rd.fin a1 ∧
      s2.zenithDeg.get e2 = Rd.fin z2 ∧ s2.azimuthDeg.get e2 = Rd.fin a2 ∧
      arccos ((dirVec (rad z1) (rad a1)).dot (dirVec (rad z2) (rad a2)))
        ≤ rad (|φ1 - φ2| + |clockAngle t l1 - clockAngle u l2 - 360 * m| + 0.6 * daysBetween t u
          + (positionError alg1 eng1 + 0.0021 / (placeFactor alg1 eng1 φ1 * sin (rad ζ1)))
          + (positionError alg2 eng2 + 0.0021 / (placeFactor alg2 eng2 φ2 * sin (rad ζ2)))) := by
  obtain ⟨z1, a1, g1, g2, b1⟩ := C64_position h1 hr1 ha1 hφ1 hl1 hpole1 (by rw [hup1]; simp only [sunVec, cos_neg]) hs1
  obtain ⟨z2, a2, g3, g4, b2⟩ := C64_position h2 hr2 ha2 hφ2 hl2 hpole2 (by rw [hup2]; simp only [sunVec, cos_neg]) hs2
  refine ⟨z1, a1, z2, a2, g1, g2, g3, g4, ?_⟩
  have hr := ref_turn ha1.range ha2.range φ1 l1 φ2 l2 m
  have t1 := angle_triangle (dirVec_sq (rad z1) (rad a1)) (sunVec_sq (rad φ1) (declination (century t)) (-(hourAngle (century t) + rad l1)))
    (dirVec_sq (rad z2) (rad a2))
  have t2 := angle_triangle (sunVec_sq (rad φ1) (declination (century t)) (-(hourAngle (century t) + rad l1)))
    (sunVec_sq (rad φ2) (declination (century u)) (-(hourAngle (century u) + rad l2))) (dirVec_sq (rad z2) (rad a2))
  have comm : ∀ a b : Vec, a.dot b = b.dot a := fun a b => by simp only [Vec.dot]; ring
  rw [comm (sunVec (rad φ2) _ _)] at t2
  rw [rad_add _ (positionError alg2 eng2 + _), rad_add _ (positionError alg1 eng1 + _)]; linarith

/-- C90: the same in floating-point arithmetic with refraction, the default. -/
theorem C90_float_apparent {A B : Arith} {uc1 uc2 : UseCase} {w1 : World (Rd A)} {w2 : World (Rd B)} {times1 times2 : Times}
    {lat1 lon1 : Coord (Rd A)} {lat2 lon2 : Coord (Rd B)} {alg1 eng1 alg2 eng2 : String}
    {s1 : Sunpos (Rd A)} {s2 : Sunpos (Rd B)} {e1 e2 : Dim → Nat} {t u : Int} {φ1 l1 φ2 l2 ζ1 ζ2 : ℝ} (m : ℤ)
    (h1 : call uc1 w1 times1 lat1 lon1 alg1 .pyTrue eng1 = .ok s1)
    (h2 : call uc2 w2 times2 lat2 lon2 alg2 .pyTrue eng2 = .ok s2)
    (ha1 : AtRd s1 times1 e1 t φ1 l1) (ha2 : AtRd s2 times2 e2 u φ2 l2)
    (hφ1 : -90 ≤ φ1 ∧ φ1 ≤ 90) (hl1 : -180 ≤ l1 ∧ l1 < 180) (hφ2 : -90 ≤ φ2 ∧ φ2 ≤ 90) (hl2 : -180 ≤ l2 ∧ l2 < 180)
    (hpole1 : alg1 = "nrel" → |φ1| ≤ 90 - 1e-10) (hpole2 : alg2 = "nrel" → |φ2| ≤ 90 - 1e-10)
    (hup1 : cos (rad ζ1) = sin (rad φ1) * sin (declination (century t))
      + cos (rad φ1) * cos (declination (century t)) * cos (hourAngle (century t) + rad l1))
    (hup2 : cos (rad ζ2) = sin (rad φ2) * sin (declination (century u))
      + cos (rad φ2) * cos (declination (century u)) * cos (hourAngle (century u) + rad l2))
    (hζ1 : 0 ≤ ζ1 ∧ ζ1 ≤ 90 - lowestElevation alg1) (hζ2 : 0 ≤ ζ2 ∧ ζ2 ≤ 90 - lowestElevation alg2)
    (hs1 : 0.06 ≤ placeFactor alg1 eng1 φ1 * sin (rad ζ1)) (hs2 : 0.06 ≤ placeFactor alg2 eng2 φ2 * sin (rad ζ2)) :
    ∃ z1 z2 : ℝ, s1.zenithDeg.get e1 = Rd.fin z1 ∧ s2.zenithDeg.get e2 = Rd.fin z2 ∧
      |z1 - z2| ≤ |φ1 - φ2| + |clockAngle t l1 - clockAngle u l2 - 360 * m| + 0.6 * daysBetween t u
        + (positionError alg1 eng1 + refractionError alg1 + 0.0019 / (placeFactor alg1 eng1 φ1 * sin (rad ζ1)))
        + (positionError alg2 eng2 + refractionError alg2 + 0.0019 / (placeFactor alg2 eng2 φ2 * sin (rad ζ2))) + 0.0001 := by
  obtain ⟨z1, -, -, g1, -, -, -, b1⟩ := C69_accuracy h1 ha1 hφ1 hl1 hpole1 hup1 hζ1.1 hζ1.2 hs1
  obtain ⟨z2, -, -, g2, -, -, -, b2⟩ := C69_accuracy h2 ha2 hφ2 hl2 hpole2 hup2 hζ2.1 hζ2.2 hs2
  have hS := ref_turn_apparent ha1.range ha2.range m hup1 hup2 (le_ninety hζ1) (le_ninety hζ2)
  refine ⟨z1, z2, g1, g2, ?_⟩
  rw [abs_le] at *
  constructor <;> linarith [b1.1, b1.2, b2.1, b2.2, hS.1, hS.2]

/-- C90: to the west the same sun is seen later: a place of the same latitude sees, `v` nanoseconds later, the sun at the same zenith angle if it is
`v / 240e9` degrees farther west (15 degrees an hour), across the date line too, to 0.6 degrees a day and the errors of C54. -/
theorem C90_later {uc1 uc2 : UseCase} {w1 w2 : World XR} {times1 times2 : Times} {lat1 lon1 lat2 lon2 : Coord XR}
    {alg1 eng1 alg2 eng2 : String} {refr1 refr2 : PyVal} {s1 s2 : Sunpos XR} {e1 e2 : Dim → Nat} {t : Int} {v : Nat}
    {φ l1 l2 : ℝ} {m : ℤ}
    (h1 : call uc1 w1 times1 lat1 lon1 alg1 refr1 eng1 = .ok s1) (hr1 : refr1 ≠ .pyTrue)
    (h2 : call uc2 w2 times2 lat2 lon2 alg2 refr2 eng2 = .ok s2) (hr2 : refr2 ≠ .pyTrue)
    (ha1 : At s1 times1 e1 t φ l1) (ha2 : At s2 times2 e2 (t + v) φ l2) (hl : l2 = l1 - v / 240e9 + 360 * m) :
    ∃ z1 a1 z2 a2 : ℝ, s1.zenithDeg.get e1 = .fin z1 ∧ s1.azimuthDeg.get e1 = .fin a1 ∧
      s2.zenithDeg.get e2 = .fin z2 ∧ s2.azimuthDeg.get e2 = .fin a2 ∧
      arccos ((dirVec (rad z1) (rad a1)).dot (dirVec (rad z2) (rad a2)))
        ≤ rad (0.6 * (v / 86400e9) + positionError alg1 eng1 + positionError alg2 eng2) ∧
      |z1 - z2| ≤ 0.6 * (v / 86400e9) + positionError alg1 eng1 + positionError alg2 eng2 := by
  obtain ⟨z1, a1, z2, a2, g1, g2, g3, g4, g5, g6⟩ := C90_position (-m) h1 hr1 h2 hr2 ha1 ha2
  have e1 : |φ - φ| + |clockAngle t l1 - clockAngle (t + v) l2 - 360 * (-m : ℤ)| + 0.6 * daysBetween t (t + v) = 0.6 * (v / 86400e9) := by
    have q1 : clockAngle t l1 - clockAngle (t + v) l2 - 360 * (-m : ℤ) = 0 := by
      unfold clockAngle; rw [hl]; push_cast; ring
    have q2 : daysBetween t (t + v) = v / 86400e9 := by
      unfold daysBetween; push_cast
      rw [show (t : ℝ) - (t + v) = -v by ring, abs_neg, abs_of_nonneg (Nat.cast_nonneg v)]
    rw [q1, q2, sub_self, abs_zero]; ring
  rw [e1] at g5 g6
  exact ⟨z1, a1, z2, a2, g1, g2, g3, g4, g5, g6⟩

/-- C90: one place at the same hour of another day: the sun has moved by at most 0.6 degrees for each day, to the errors of C54. -/
theorem C90_tomorrow {uc1 uc2 : UseCase} {w1 w2 : World XR} {times1 times2 : Times} {lat1 lon1 lat2 lon2 : Coord XR}
    {alg1 eng1 alg2 eng2 : String} {refr1 refr2 : PyVal} {s1 s2 : Sunpos XR} {e1 e2 : Dim → Nat} {t : Int} {n : Nat} {φ l : ℝ}
    (h1 : call uc1 w1 times1 lat1 lon1 alg1 refr1 eng1 = .ok s1) (hr1 : refr1 ≠ .pyTrue)
    (h2 : call uc2 w2 times2 lat2 lon2 alg2 refr2 eng2 = .ok s2) (hr2 : refr2 ≠ .pyTrue)
    (ha1 : At s1 times1 e1 t φ l) (ha2 : At s2 times2 e2 (t + n * 86400000000000) φ l) :
    ∃ z1 a1 z2 a2 : ℝ, s1.zenithDeg.get e1 = .fin z1 ∧ s1.azimuthDeg.get e1 = .fin a1 ∧
      s2.zenithDeg.get e2 = .fin z2 ∧ s2.azimuthDeg.get e2 = .fin a2 ∧
      arccos ((dirVec (rad z1) (rad a1)).dot (dirVec (rad z2) (rad a2)))
        ≤ rad (0.6 * n + positionError alg1 eng1 + positionError alg2 eng2) ∧
      |z1 - z2| ≤ 0.6 * n + positionError alg1 eng1 + positionError alg2 eng2 := by
  have hv : (t + n * 86400000000000 : ℤ) = t + (n * 86400000000000 : ℕ) := by push_cast; rfl
  rw [hv] at ha2
  have := C90_later (m := n) h1 hr1 h2 hr2 ha1 ha2 (by push_cast; norm_num; ring)
  have e : ((n * 86400000000000 : ℕ) : ℝ) / 86400e9 = n := by push_cast; norm_num
  rwa [e] at this

/-- C90: true solar time runs with the clock: between any two results it advances by the time that has passed plus 4 minutes for each degree of
longitude, to 0.57 minutes a day and the errors of the equation of time, with no jumps by whole days. -/
theorem C90_tst {uc1 uc2 : UseCase} {w1 w2 w1' w2' : World XR} {times1 times2 : Times} {lat1 lon1 lat2 lon2 : Coord XR}
    {alg1 eng1 alg2 eng2 : String} {refr1 refr2 : PyVal} {s1 s2 : Sunpos XR} {e1 e2 : Dim → Nat} {t u : Int} {φ1 l1 φ2 l2 : ℝ}
    (h1 : call uc1 w1 times1 lat1 lon1 alg1 refr1 eng1 = .ok s1) (h2 : call uc2 w2 times2 lat2 lon2 alg2 refr2 eng2 = .ok s2)
    (ha1 : At s1 times1 e1 t φ1 l1) (ha2 : At s2 times2 e2 u φ2 l2)
    (hutc1 : stampAt s1.timesUtc (e1 .time) = some t) (hutc2 : stampAt s2.timesUtc (e2 .time) = some u) :
    ∃ τ1 τ2 : Int, (s1.trueSolarTime w1').get e1 = some τ1 ∧ (s2.trueSolarTime w2').get e2 = some τ2 ∧
      |((τ2 : ℝ) - τ1) - (((u : ℝ) - t) + 240e9 * (l2 - l1))|
        ≤ (0.57 * daysBetween t u + eotError alg1 + eotError alg2) * 60e9 + 2 := by
  obtain ⟨q1, q2, g1, g2, k, hk⟩ := C70_eot h1 h2 ha1.time ha2.time ha1.range ha2.range
  obtain ⟨x1, y1, b1⟩ := C19_eot h1 ha1.time ha1.range
  obtain ⟨x2, y2, b2⟩ := C19_eot h2 ha2.time ha2.range
  rw [g1] at y1
  rw [g2] at y2
  cases y1
  cases y2
  obtain ⟨τ1, c1, d1, -⟩ := C30_tst w1' s1 hutc1 g1 ha1.lon
  obtain ⟨τ2, c2, d2, -⟩ := C30_tst w2' s2 hutc2 g2 ha2.lon
  refine ⟨τ1, τ2, c1, c2, ?_⟩
  have E1 : 0 ≤ eotError alg1 ∧ eotError alg1 ≤ 2.15 := by unfold eotError; split_ifs <;> norm_num
  have E2 : 0 ≤ eotError alg2 ∧ eotError alg2 ≤ 2.15 := by unfold eotError; split_ifs <;> norm_num
  have hD : 0 ≤ daysBetween t u := by unfold daysBetween; positivity
  have hq : |q1 - q2| ≤ 0.57 * daysBetween t u + eotError alg1 + eotError alg2 := by
    have b1 := abs_le.1 b1
    have b2 := abs_le.1 b2
    by_cases hbig : 1000 ≤ daysBetween t u
    · rw [abs_le]; norm_num; constructor <;> linarith [b1.1, b1.2, b2.1, b2.2, E1.1, E2.1]
    · push Not at hbig
      have hk' := abs_le.1 hk
      have hk0 : k = 0 := by
        have a1 : (k : ℝ) < 1 := by norm_num at hk' E1 E2; linarith [hk'.1, b1.2, b2.1, E1.2, E2.2]
        have a2 : (-1 : ℝ) < k := by norm_num at hk' E1 E2; linarith [hk'.2, b1.1, b2.2, E1.2, E2.2]
        have a1 : k < 1 := by exact_mod_cast a1
        have a2 : -1 < k := by exact_mod_cast a2
        omega
      rw [hk0] at hk
      simpa using hk
  have d1 := abs_lt.1 d1
  have d2 := abs_lt.1 d2
  have hq := abs_le.1 hq
  rw [abs_le]
  norm_num at d1 d2 hq ⊢
  constructor <;> linarith [d1.1, d1.2, d2.1, d2.2, hq.1, hq.2]

/-- C90: at one place true solar time runs forward: of two instants of one algorithm that are at least as far apart as two errors of the equation of
time (30 milliseconds more for each minute), the later one has the later true solar time. -/
theorem C90_forward {uc1 uc2 : UseCase} {w1 w2 w1' w2' : World XR} {times1 times2 : Times} {lat1 lon1 lat2 lon2 : Coord XR}
    {alg eng1 eng2 : String} {refr1 refr2 : PyVal} {s1 s2 : Sunpos XR} {e1 e2 : Dim → Nat} {t u : Int} {φ1 φ2 l : ℝ}
    (h1 : call uc1 w1 times1 lat1 lon1 alg refr1 eng1 = .ok s1) (h2 : call uc2 w2 times2 lat2 lon2 alg refr2 eng2 = .ok s2)
    (ha1 : At s1 times1 e1 t φ1 l) (ha2 : At s2 times2 e2 u φ2 l)
    (hutc1 : stampAt s1.timesUtc (e1 .time) = some t) (hutc2 : stampAt s2.timesUtc (e2 .time) = some u)
    (hlt : 2 * eotError alg * 60.03e9 ≤ (u : ℝ) - t) :
    ∃ τ1 τ2 : Int, (s1.trueSolarTime w1').get e1 = some τ1 ∧ (s2.trueSolarTime w2').get e2 = some τ2 ∧ τ1 < τ2 := by
  obtain ⟨τ1, τ2, c1, c2, hb⟩ := C90_tst (w1' := w1') (w2' := w2') h1 h2 ha1 ha2 hutc1 hutc2
  refine ⟨τ1, τ2, c1, c2, ?_⟩
  have E1 : 0.0147 ≤ eotError alg := by unfold eotError; split_ifs <;> norm_num
  have h0 : 0 ≤ (u : ℝ) - t := le_trans (by norm_num at E1 ⊢; linarith) hlt
  have hD : daysBetween t u = ((u : ℝ) - t) / 86400e9 := by
    unfold daysBetween; rw [abs_sub_comm, abs_of_nonneg h0]
  rw [hD] at hb
  have hb := (abs_le.1 hb).1
  have : (τ1 : ℝ) < τ2 := by
    generalize (u : ℝ) - t = v at *
    norm_num at hb hlt E1
    linarith
  exact_mod_cast this

/-! ### the hypotheses are met -/

/-- an hour later and 15 degrees west, across the date line, soltrack gives the same zenith angle to 0.07 degrees -/
example : ∃ s1 s2 : Sunpos XR, ∃ z1 z2 : ℝ,
    call .sites exWorld (oneTime 1704067200000000000) (.vec [.fin 40]) (.vec [.fin (-170)]) "soltrack" .pyFalse "numexpr" = .ok s1 ∧
    call .regularGrid exWorld (oneTime 1704070800000000000) (.vec [.fin 40]) (.vec [.fin 175]) "soltrack" .pyFalse "numpy" = .ok s2 ∧
    s1.zenithDeg.get (fun _ => 0) = .fin z1 ∧ s2.zenithDeg.get (fun _ => 0) = .fin z2 ∧ |z1 - z2| ≤ 0.07 := by
  obtain ⟨s1, h1, a1⟩ := single_call .sites (alg := "soltrack") (eng := "numexpr") (by simp [KnownPair]) .pyFalse
    (t := 1704067200000000000) (by norm_num) (φ := 40) (l := -170) (by norm_num) (by norm_num)
  obtain ⟨s2, h2, a2⟩ := single_call .regularGrid (alg := "soltrack") (eng := "numpy") (by simp [KnownPair]) .pyFalse
    (t := 1704070800000000000) (by norm_num) (φ := 40) (l := 175) (by norm_num) (by norm_num)
  obtain ⟨z1, -, z2, -, g1, -, g2, -, -, hz⟩ := C90_later (v := 3600000000000) (m := 1) h1 (by simp) h2 (by simp) a1 a2 (by norm_num)
  refine ⟨s1, s2, z1, z2, h1, h2, g1, g2, hz.trans ?_⟩
  simp only [positionError, String.reduceEq, if_true, if_false]
  norm_num

/-- two seconds later, soltrack's true solar time is later -/
example : ∃ s1 s2 : Sunpos XR, ∃ τ1 τ2 : Int,
    call .sites exWorld (oneTime 1704067200000000000) (.vec [.fin 40]) (.vec [.fin 10]) "soltrack" .pyTrue "numexpr" = .ok s1 ∧
    call .sites exWorld (oneTime 1704067202000000000) (.vec [.fin 40]) (.vec [.fin 10]) "soltrack" .pyTrue "numexpr" = .ok s2 ∧
    (s1.trueSolarTime exWorld).get (fun _ => 0) = some τ1 ∧ (s2.trueSolarTime exWorld).get (fun _ => 0) = some τ2 ∧ τ1 < τ2 := by
  obtain ⟨s1, h1, a1⟩ := single_call .sites (alg := "soltrack") (eng := "numexpr") (by simp [KnownPair]) .pyTrue
    (t := 1704067200000000000) (by norm_num) (φ := 40) (l := 10) (by norm_num) (by norm_num)
  obtain ⟨s2, h2, a2⟩ := single_call .sites (alg := "soltrack") (eng := "numexpr") (by simp [KnownPair]) .pyTrue
    (t := 1704067202000000000) (by norm_num) (φ := 40) (l := 10) (by norm_num) (by norm_num)
  obtain ⟨τ1, τ2, c1, c2, h⟩ := C90_forward (w1' := exWorld) (w2' := exWorld) (e1 := fun _ => 0) (e2 := fun _ => 0) h1 h2 a1 a2
    (by rw [(C12_naive h1 rfl).1]; rfl) (by rw [(C12_naive h2 rfl).1]; rfl)
    (by simp only [eotError, String.reduceEq, if_true, if_false]; norm_num)
  exact ⟨s1, s2, τ1, τ2, h1, h2, c1, c2, h⟩

/-- at 75 degrees north around midsummer, in exact arithmetic with refraction and in binary64 with and without: a day later the zenith angle is within a
degree (nrel) -/
example : (∃ (s1 s2 : Sunpos XR) (z1 z2 : ℝ),
      call .sites exWorld (oneTime 1718928000000000000) (.vec [.fin 75]) (.vec [.fin 10]) "nrel" .pyTrue "numexpr" = .ok s1 ∧
      call .sites exWorld (oneTime 1719014400000000000) (.vec [.fin 75]) (.vec [.fin 10]) "nrel" .pyTrue "numexpr" = .ok s2 ∧
      s1.zenithDeg.get (fun _ => 0) = .fin z1 ∧ s2.zenithDeg.get (fun _ => 0) = .fin z2 ∧ |z1 - z2| ≤ 1) ∧
    (∃ (w1 w2 : World (Rd Arith.binary64)) (s1 s2 : Sunpos (Rd Arith.binary64)) (z1 z2 : ℝ),
      call .sites w1 (oneTime 1718928000000000000) (.vec [Rd.fin 75]) (.vec [Rd.fin 10]) "nrel" .pyTrue "numexpr" = .ok s1 ∧
      call .sites w2 (oneTime 1719014400000000000) (.vec [Rd.fin 75]) (.vec [Rd.fin 10]) "nrel" .pyTrue "numexpr" = .ok s2 ∧
      s1.zenithDeg.get (fun _ => 0) = Rd.fin z1 ∧ s2.zenithDeg.get (fun _ => 0) = Rd.fin z2 ∧ |z1 - z2| ≤ 1) ∧
    (∃ (w1 w2 : World (Rd Arith.binary64)) (s1 s2 : Sunpos (Rd Arith.binary64)) (z1 a1 z2 a2 : ℝ),
      call .sites w1 (oneTime 1718928000000000000) (.vec [Rd.fin 75]) (.vec [Rd.fin 10]) "nrel" .pyFalse "numexpr" = .ok s1 ∧
      call .sites w2 (oneTime 1719014400000000000) (.vec [Rd.fin 75]) (.vec [Rd.fin 10]) "nrel" .pyFalse "numexpr" = .ok s2 ∧
      s1.zenithDeg.get (fun _ => 0) = Rd.fin z1 ∧ s2.zenithDeg.get (fun _ => 0) = Rd.fin z2 ∧
      s1.azimuthDeg.get (fun _ => 0) = Rd.fin a1 ∧ s2.azimuthDeg.get (fun _ => 0) = Rd.fin a2 ∧
      arccos ((dirVec (rad z1) (rad a1)).dot (dirVec (rad z2) (rad a2))) ≤ rad 1) := by
  have hk : KnownPair "nrel" "numexpr" := by simp [KnownPair]
  have r1 : |(1718928000000000000 : Int)| < 2 ^ 63 := by norm_num
  have r2 : |(1719014400000000000 : Int)| < 2 ^ 63 := by norm_num
  have j1 : AroundJune (codeDate (1718928000000000000 / 86400000000000)) := by
    have : codeDate (1718928000000000000 / 86400000000000) = ⟨2024, 6, 21⟩ := by decide +kernel
    rw [this]; exact .inl rfl
  have j2 : AroundJune (codeDate (1719014400000000000 / 86400000000000)) := by
    have : codeDate (1719014400000000000 / 86400000000000) = ⟨2024, 6, 22⟩ := by decide +kernel
    rw [this]; exact .inl rfl
  obtain ⟨y1, y1'⟩ := Seasons.ref_day r1 (φ := 75) (by norm_num) 10 (.inl ⟨by norm_num, j1⟩)
  obtain ⟨y2, y2'⟩ := Seasons.ref_day r2 (φ := 75) (by norm_num) 10 (.inl ⟨by norm_num, j2⟩)
  have f : FloatPlace "nrel" "numexpr" 75 := ⟨fun _ => by norm_num, fun h => absurd h (by decide)⟩
  have m1 := Seasons.slant f y1 (by norm_num at y1' ⊢; linarith)
  have m2 := Seasons.slant f y2 (by norm_num at y2' ⊢; linarith)
  have u1 := sunZenith_cos 1718928000000000000 75 10
  have u2 := sunZenith_cos 1719014400000000000 75 10
  have v1 := (sunZenith_range 1718928000000000000 75 10).1
  have v2 := (sunZenith_range 1719014400000000000 75 10).1
  have hlow : lowestElevation "nrel" = 0 := by simp [lowestElevation]
  have pf : placeFactor "nrel" "numexpr" 75 = 1 := by simp [placeFactor]
  have p9 : ∀ x : ℝ, 0.06 ≤ placeFactor "nrel" "numexpr" 75 * sin (rad x) → ∀ c : ℝ, 0 ≤ c → c ≤ 0.0021 →
      c / (placeFactor "nrel" "numexpr" 75 * sin (rad x)) ≤ 0.04 := by
    intro x hx c c0 c1
    rw [div_le_iff₀ (lt_of_lt_of_le (by norm_num) hx)]
    norm_num at hx c1 ⊢; linarith
  have hc : clockAngle 1718928000000000000 10 - clockAngle 1719014400000000000 10 - 360 * ((-1 : ℤ) : ℝ) = 0 := by
    unfold clockAngle; norm_num
  have hd : daysBetween 1718928000000000000 1719014400000000000 = 1 := by unfold daysBetween; norm_num
  have hpe : positionError "nrel" "numexpr" = 0.063 := by simp [positionError]
  obtain ⟨s1, c1, a1⟩ := single_call .sites hk .pyTrue r1 (φ := 75) (l := 10) (by norm_num) (by norm_num)
  obtain ⟨s2, c2, a2⟩ := single_call .sites hk .pyTrue r2 (φ := 75) (l := 10) (by norm_num) (by norm_num)
  obtain ⟨w3, s3, c3, a3⟩ := single_call_rd (A := Arith.binary64) .sites hk .pyTrue binary64_90 binary64_180 r1 (φ := 75) (l := 10) (by norm_num) (by norm_num)
  obtain ⟨w4, s4, c4, a4⟩ := single_call_rd (A := Arith.binary64) .sites hk .pyTrue binary64_90 binary64_180 r2 (φ := 75) (l := 10) (by norm_num) (by norm_num)
  obtain ⟨w5, s5, c5, a5⟩ := single_call_rd (A := Arith.binary64) .sites hk .pyFalse binary64_90 binary64_180 r1 (φ := 75) (l := 10) (by norm_num) (by norm_num)
  obtain ⟨w6, s6, c6, a6⟩ := single_call_rd (A := Arith.binary64) .sites hk .pyFalse binary64_90 binary64_180 r2 (φ := 75) (l := 10) (by norm_num) (by norm_num)
  have n1 : 0 ≤ sunZenith 1718928000000000000 75 10 ∧ sunZenith 1718928000000000000 75 10 ≤ 90 - lowestElevation "nrel" :=
    ⟨v1, by rw [hlow]; norm_num at y1' ⊢; linarith⟩
  have n2 : 0 ≤ sunZenith 1719014400000000000 75 10 ∧ sunZenith 1719014400000000000 75 10 ≤ 90 - lowestElevation "nrel" :=
    ⟨v2, by rw [hlow]; norm_num at y2' ⊢; linarith⟩
  have hre : refractionError "nrel" ≤ 0.02 := by simp [refractionError]; norm_num
  obtain ⟨z1, z2, g1, g2, b⟩ := C90_apparent (e1 := fun _ => 0) (e2 := fun _ => 0) (-1) c1 c2 a1 a2 u1 u2 n1 n2
  obtain ⟨z3, z4, g3, g4, b'⟩ := C90_float_apparent (e1 := fun _ => 0) (e2 := fun _ => 0) (-1) c3 c4 a3 a4 (by norm_num) (by norm_num)
    (by norm_num) (by norm_num) f.1 f.1 u1 u2 n1 n2 m1 m2
  obtain ⟨z5, a5', z6, a6', g5, g5', g6, g6', b''⟩ := C90_float (e1 := fun _ => 0) (e2 := fun _ => 0) (-1) c5 (by simp) c6 (by simp) a5 a6 (by norm_num)
    (by norm_num) (by norm_num) (by norm_num) f.1 f.1 u1 u2 m1 m2
  rw [hc, hd, hpe] at b b' b''
  refine ⟨⟨s1, s2, z1, z2, c1, c2, g1, g2, b.trans ?_⟩, ⟨w3, w4, s3, s4, z3, z4, c3, c4, g3, g4, b'.trans ?_⟩,
    ⟨w5, w6, s5, s6, z5, a5', z6, a6', c5, c6, g5, g6, g5', g6', b''.trans (rad_mono ?_)⟩⟩
  · rw [sub_self, abs_zero]; norm_num at hre ⊢; linarith
  · have k1 := p9 _ m1 0.0019 (by norm_num) (by norm_num)
    have k2 := p9 _ m2 0.0019 (by norm_num) (by norm_num)
    rw [sub_self, abs_zero]; norm_num at hre k1 k2 ⊢; linarith
  · have k1 := p9 _ m1 0.0021 (by norm_num) (by norm_num)
    have k2 := p9 _ m2 0.0021 (by norm_num) (by norm_num)
    rw [sub_self, abs_zero]; norm_num at k1 k2 ⊢; linarith

end SW.Props
