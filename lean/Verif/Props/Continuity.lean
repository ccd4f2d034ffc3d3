/-
C70: nearby inputs give nearby results. There are no jumps at midnight, at the end of a year, at the date line or
where one formula gives way to another: the results of two calls at two instants and two places differ by no more than
the sun moves between them (361 degrees a day and a degree per degree), plus the errors of C54.
-/
import Verif.Props.FloatRefr
import Verif.RDrift
import Mathlib.Analysis.InnerProductSpace.PiL2
import Mathlib.Geometry.Euclidean.Angle.Unoriented.TriangleInequality

namespace SW.Props
open SW.Spec Real Sunpos
open SW.Ephem (century declination equationOfTime distance hourAngle eccentricity meanAnomaly center longitude
  meanLongitude rightAscension ecc_bound)

/-- the vector of Mathlib's Euclidean space -/
noncomputable def Vec.toE (a : Vec) : EuclideanSpace ℝ (Fin 3) := !₂[a.up, a.south, a.east]

theorem Vec.inner_toE (a b : Vec) : inner ℝ a.toE b.toE = a.dot b := by
  simp only [Vec.toE, Vec.dot, PiLp.inner_apply, Fin.sum_univ_three, RCLike.inner_apply, conj_trivial]
  simp; ring

theorem Vec.norm_toE {a : Vec} (h : a.sq = 1) : ‖a.toE‖ = 1 := by
  have h1 := real_inner_self_eq_norm_sq a.toE
  rw [Vec.inner_toE] at h1
  have h2 : a.dot a = 1 := h
  rw [h2] at h1
  have h3 : ‖a.toE‖ ^ 2 = 1 ^ 2 := by rw [← h1]; norm_num
  exact (pow_left_inj₀ (norm_nonneg _) (by norm_num) (by norm_num)).1 h3

/-- the triangle inequality of angles between directions -/
theorem angle_triangle {a b c : Vec} (ha : a.sq = 1) (hb : b.sq = 1) (hc : c.sq = 1) :
    arccos (a.dot c) ≤ arccos (a.dot b) + arccos (b.dot c) := by
  have h := InnerProductGeometry.angle_le_angle_add_angle a.toE b.toE c.toE
  have e : ∀ {x y : Vec}, x.sq = 1 → y.sq = 1 → InnerProductGeometry.angle x.toE y.toE = arccos (x.dot y) := by
    intro x y hx hy
    unfold InnerProductGeometry.angle
    rw [Vec.norm_toE hx, Vec.norm_toE hy, Vec.inner_toE, mul_one, div_one]
  rwa [e ha hc, e ha hb, e hb hc] at h

/-- an angle whose cosine is at least that of `x` -/
theorem arccos_le_abs {x y : ℝ} (h : cos x ≤ y) : arccos y ≤ |x| := by
  rcases le_total |x| π with h1 | h1
  · calc arccos y ≤ arccos (cos x) := arccos_le_arccos h
      _ = arccos (cos |x|) := by rw [cos_abs]
      _ = |x| := arccos_cos (abs_nonneg _) h1
  · exact (arccos_le_pi _).trans h1

theorem angle_lat (φ1 φ2 δ ω : ℝ) : arccos ((sunVec φ1 δ ω).dot (sunVec φ2 δ ω)) ≤ |φ1 - φ2| := by
  apply arccos_le_abs
  have h1 := sin_sq_add_cos_sq δ
  have h2 := sin_sq_add_cos_sq ω
  have e : (sunVec φ1 δ ω).dot (sunVec φ2 δ ω)
      = (sin δ ^ 2 + cos δ ^ 2 * cos ω ^ 2) * cos (φ1 - φ2) + cos δ ^ 2 * sin ω ^ 2 := by
    rw [cos_sub]; simp only [sunVec, Vec.dot]; ring
  rw [e]
  have h3 : sin δ ^ 2 + cos δ ^ 2 * cos ω ^ 2 = 1 - cos δ ^ 2 * sin ω ^ 2 := by
    linear_combination h1 + cos δ ^ 2 * h2
  rw [h3]
  nlinarith [cos_le_one (φ1 - φ2), mul_nonneg (sq_nonneg (cos δ)) (sq_nonneg (sin ω))]

theorem angle_dec (φ δ1 δ2 ω : ℝ) : arccos ((sunVec φ δ1 ω).dot (sunVec φ δ2 ω)) ≤ |δ1 - δ2| := by
  apply arccos_le_abs
  have h1 := sin_sq_add_cos_sq φ
  have h2 := sin_sq_add_cos_sq ω
  have e : (sunVec φ δ1 ω).dot (sunVec φ δ2 ω) = cos (δ1 - δ2) := by
    rw [cos_sub]; simp only [sunVec, Vec.dot]
    linear_combination (sin δ1 * sin δ2 + cos δ1 * cos δ2 * cos ω ^ 2) * h1 + cos δ1 * cos δ2 * h2
  rw [e]

theorem angle_hour (φ δ ω1 ω2 : ℝ) (k : ℤ) :
    arccos ((sunVec φ δ ω1).dot (sunVec φ δ ω2)) ≤ |ω1 - ω2 - k * (2 * π)| := by
  apply arccos_le_abs
  have h1 := sin_sq_add_cos_sq φ
  have h2 := sin_sq_add_cos_sq δ
  have e : (sunVec φ δ ω1).dot (sunVec φ δ ω2) = sin δ ^ 2 + cos δ ^ 2 * cos (ω1 - ω2) := by
    rw [cos_sub]; simp only [sunVec, Vec.dot]
    linear_combination (sin δ ^ 2 + cos δ ^ 2 * cos ω1 * cos ω2) * h1
  rw [e, cos_sub_int_mul_two_pi]
  nlinarith [cos_le_one (ω1 - ω2), sq_nonneg (sin δ)]

/-- a direction has an azimuth -/
theorem exists_dir {v : Vec} {z : ℝ} (hv : v.sq = 1) (hu : v.up = cos z) (hs : 0 ≤ sin z) : ∃ a, v = dirVec z a := by
  obtain ⟨c, hc⟩ : ∃ c : ℂ, c = ⟨v.south, -v.east⟩ := ⟨_, rfl⟩
  have hn : ‖c‖ = sin z := by
    have h1 : ‖c‖ ^ 2 = sin z ^ 2 := by
      rw [Complex.sq_norm, hc, Complex.normSq_mk, sin_sq]
      have : v.up * v.up + v.south * v.south + v.east * v.east = 1 := hv
      rw [hu] at this
      linear_combination this
    exact (pow_left_inj₀ (norm_nonneg _) hs (by norm_num)).1 h1
  refine ⟨Complex.arg c, ?_⟩
  have h1 := Complex.norm_mul_cos_arg c
  have h2 := Complex.norm_mul_sin_arg c
  rw [hn] at h1 h2
  cases v
  simp only [dirVec, Vec.mk.injEq]
  refine ⟨hu, ?_, ?_⟩
  · rw [h1, hc]
  · rw [h2, hc]; simp

/-- days between two instants in nanoseconds -/
noncomputable def daysBetween (t u : ℤ) : ℝ := |(t : ℝ) - u| / 86400e9

theorem century_days (t u : ℤ) : |century t - century u| = daysBetween t u / 36525 := by
  unfold Ephem.century daysBetween
  rw [show ((t : ℝ) / 86400e9 - 10957.5) / 36525 - ((u : ℝ) / 86400e9 - 10957.5) / 36525
    = ((t : ℝ) - u) / (86400e9 * 36525) by ring, abs_div, div_div]
  congr 1
  norm_num

/-- the angle between the directions of the reference sun at two instants and two places, each in its own horizon -/
theorem ref_angle {t u : ℤ} (ht : |t| < 2 ^ 63) (hu : |u| < 2 ^ 63) (φ1 l1 φ2 l2 : ℝ) (m : ℤ) :
    arccos ((sunVec (rad φ1) (declination (century t)) (-(hourAngle (century t) + rad l1))).dot
      (sunVec (rad φ2) (declination (century u)) (-(hourAngle (century u) + rad l2))))
      ≤ rad (|φ1 - φ2| + |l1 - l2 - 360 * m| + 360.6 * daysBetween t u) := by
  have ct := century_bound ht
  have cu := century_bound hu
  have hdd := Ephem.drift_dec ct cu
  obtain ⟨k, hk⟩ := Ephem.drift_eot ct cu
  have hT := century_days t u
  have hp := pi_gt_d4
  rw [hT] at hdd hk
  have hD : 0 ≤ daysBetween t u := by unfold daysBetween; positivity
  -- the hour angles
  have hH : |(-(hourAngle (century t) + rad l1)) - (-(hourAngle (century u) + rad l2)) - ((-(k + m) : ℤ) : ℝ) * (2 * π)|
      ≤ rad |l1 - l2 - 360 * m| + rad (360 * daysBetween t u) + rad 0.0000001 * daysBetween t u
        + 90 * (daysBetween t u / 36525) := by
    have e : (-(hourAngle (century t) + rad l1)) - (-(hourAngle (century u) + rad l2)) - ((-(k + m) : ℤ) : ℝ) * (2 * π)
        = -(rad (l1 - l2 - 360 * m))
          - ((meanLongitude (century t) - rightAscension (century t)) - (meanLongitude (century u) - rightAscension (century u)) - k * (2 * π))
          - ((360.98564737 * 36525 - 36000.7698) * (π / 180)) * (century t - century u) := by
      unfold Ephem.hourAngle Ephem.siderealTime Ephem.meanLongitude Ephem.deg rad
      push_cast; ring
    rw [e]
    refine (abs_sub _ _).trans ?_
    have a1 : |((360.98564737 * 36525 - 36000.7698) * (π / 180)) * (century t - century u)|
        ≤ rad (360 * daysBetween t u) + rad 0.0000001 * daysBetween t u := by
      rw [abs_mul, hT, abs_of_nonneg (by norm_num; positivity)]
      unfold rad
      have : (360.98564737 * 36525 - 36000.7698) * (π / 180) * (daysBetween t u / 36525)
        = (360.98564737 * 36525 - 36000.7698) / 36525 * (π * daysBetween t u / 180) := by ring
      rw [this]
      have h0 : 0 ≤ π * daysBetween t u / 180 := by positivity
      have e2 : 360 * daysBetween t u * (π / 180) + 0.0000001 * (π / 180) * daysBetween t u
          = (360 + 0.0000001) * (π * daysBetween t u / 180) := by ring
      rw [e2]
      exact mul_le_mul_of_nonneg_right (by norm_num) h0
    have a2 := (abs_sub (-(rad (l1 - l2 - 360 * m))) ((meanLongitude (century t) - rightAscension (century t))
      - (meanLongitude (century u) - rightAscension (century u)) - k * (2 * π)))
    rw [abs_neg, abs_rad] at a2
    linarith
  have s1 := angle_triangle (sunVec_sq (rad φ1) (declination (century t)) (-(hourAngle (century t) + rad l1)))
    (sunVec_sq (rad φ2) (declination (century t)) (-(hourAngle (century t) + rad l1)))
    (sunVec_sq (rad φ2) (declination (century u)) (-(hourAngle (century u) + rad l2)))
  have s2 := angle_triangle (sunVec_sq (rad φ2) (declination (century t)) (-(hourAngle (century t) + rad l1)))
    (sunVec_sq (rad φ2) (declination (century u)) (-(hourAngle (century t) + rad l1)))
    (sunVec_sq (rad φ2) (declination (century u)) (-(hourAngle (century u) + rad l2)))
  have q1 := angle_lat (rad φ1) (rad φ2) (declination (century t)) (-(hourAngle (century t) + rad l1))
  have q2 := angle_dec (rad φ2) (declination (century t)) (declination (century u)) (-(hourAngle (century t) + rad l1))
  have q3 := (angle_hour (rad φ2) (declination (century u)) _ _ _).trans hH
  rw [← rad_sub, abs_rad] at q1
  have hfin : rad (360 * daysBetween t u) + rad 0.0000001 * daysBetween t u + 90 * (daysBetween t u / 36525)
      + 288.7 * (daysBetween t u / 36525) ≤ rad (360.6 * daysBetween t u) := by
    generalize daysBetween t u = D at *
    unfold rad
    have : 3.1415 * D ≤ π * D := mul_le_mul_of_nonneg_right (by norm_num at hp ⊢; linarith) hD
    norm_num at this ⊢
    nlinarith
  rw [rad_add, rad_add]
  linarith

/-- C70: two calls without refraction, of any use cases, algorithms and engines, at two instants and two places: the angle
between the directions they return, each in its own horizon, is at most the difference of the latitudes, plus that of the
longitudes (up to whole turns), plus 360.6 degrees for each day between the instants, plus the errors of C54. -/
theorem C70_position {uc1 uc2 : UseCase} {w1 w2 : World XR} {times1 times2 : Times} {lat1 lon1 lat2 lon2 : Coord XR}
    {alg1 eng1 alg2 eng2 : String} {refr1 refr2 : PyVal} {s1 s2 : Sunpos XR} {e1 e2 : Dim → Nat} {t u : Int}
    {φ1 l1 φ2 l2 : ℝ} (m : ℤ)
    (h1 : call uc1 w1 times1 lat1 lon1 alg1 refr1 eng1 = .ok s1) (hr1 : refr1 ≠ .pyTrue)
    (h2 : call uc2 w2 times2 lat2 lon2 alg2 refr2 eng2 = .ok s2) (hr2 : refr2 ≠ .pyTrue)
    (ha1 : At s1 times1 e1 t φ1 l1) (ha2 : At s2 times2 e2 u φ2 l2) :
    ∃ z1 a1 z2 a2 : ℝ, s1.zenithDeg.get e1 = .fin z1 ∧ s1.azimuthDeg.get e1 = .fin a1 ∧
      s2.zenithDeg.get e2 = .fin z2 ∧ s2.azimuthDeg.get e2 = .fin a2 ∧
      arccos ((dirVec (rad z1) (rad a1)).dot (dirVec (rad z2) (rad a2)))
        ≤ rad (|φ1 - φ2| + |l1 - l2 - 360 * m| + 360.6 * daysBetween t u + positionError alg1 eng1 + positionError alg2 eng2) ∧
      |z1 - z2|
        ≤ |φ1 - φ2| + |l1 - l2 - 360 * m| + 360.6 * daysBetween t u + positionError alg1 eng1 + positionError alg2 eng2 := by
  obtain ⟨z1, a1, g1, g2, b1⟩ := C54_position h1 hr1 ha1
  obtain ⟨z2, a2, g3, g4, b2⟩ := C54_position h2 hr2 ha2
  obtain ⟨y1, hy1, r1, r1'⟩ := C13_range h1 ha1 (.inr (.inr hr1))
  obtain ⟨y2, hy2, r2, r2'⟩ := C13_range h2 ha2 (.inr (.inr hr2))
  obtain rfl : y1 = z1 := XR.fin_inj.1 (hy1.symm.trans g1)
  obtain rfl : y2 = z2 := XR.fin_inj.1 (hy2.symm.trans g3)
  have hr := ref_angle ha1.range ha2.range φ1 l1 φ2 l2 m
  have t1 := angle_triangle (dirVec_sq (rad y1) (rad a1)) (sunVec_sq (rad φ1) (declination (century t)) (-(hourAngle (century t) + rad l1)))
    (dirVec_sq (rad y2) (rad a2))
  have t2 := angle_triangle (sunVec_sq (rad φ1) (declination (century t)) (-(hourAngle (century t) + rad l1)))
    (sunVec_sq (rad φ2) (declination (century u)) (-(hourAngle (century u) + rad l2))) (dirVec_sq (rad y2) (rad a2))
  have comm : ∀ a b : Vec, a.dot b = b.dot a := fun a b => by simp only [Vec.dot]; ring
  rw [comm (sunVec (rad φ2) _ _)] at t2
  have hA : arccos ((dirVec (rad y1) (rad a1)).dot (dirVec (rad y2) (rad a2)))
        ≤ rad (|φ1 - φ2| + |l1 - l2 - 360 * m| + 360.6 * daysBetween t u + positionError alg1 eng1 + positionError alg2 eng2) := by
    rw [rad_add _ (positionError alg2 eng2), rad_add _ (positionError alg1 eng1)]; linarith
  refine ⟨y1, a1, y2, a2, g1, g2, g3, g4, hA, ?_⟩
  have e180 : rad 180 = π := by unfold rad; ring
  have hz := zen_le_angle (a := rad a1) (z := rad y1) (ζ := rad y2) (v := dirVec (rad y2) (rad a2)) (by unfold rad; positivity)
    (by rw [← e180]; exact rad_mono r1') (by unfold rad; positivity) (by rw [← e180]; exact rad_mono r2') (dirVec_sq _ _) rfl
  apply of_rad
  rw [rad_sub]
  exact hz.trans hA

/-- C70: the declinations differ by at most 0.453 degrees for each day between the instants, plus the errors of C54. -/
theorem C70_declination {uc1 uc2 : UseCase} {w1 w2 : World XR} {times1 times2 : Times} {lat1 lon1 lat2 lon2 : Coord XR}
    {alg1 eng1 alg2 eng2 : String} {refr1 refr2 : PyVal} {s1 s2 : Sunpos XR} {e1 e2 : Dim → Nat} {t u : Int}
    (h1 : call uc1 w1 times1 lat1 lon1 alg1 refr1 eng1 = .ok s1)
    (h2 : call uc2 w2 times2 lat2 lon2 alg2 refr2 eng2 = .ok s2)
    (hk1 : stampAt times1.stamps (e1 .time) = some t) (hk2 : stampAt times2.stamps (e2 .time) = some u)
    (ht : |t| < 2 ^ 63) (hu : |u| < 2 ^ 63) :
    ∃ d1 d2 : ℝ, s1.decDeg.get e1 = .fin d1 ∧ s2.decDeg.get e2 = .fin d2 ∧
      |d1 - d2| ≤ 0.453 * daysBetween t u + decError alg1 + decError alg2 := by
  obtain ⟨d1, g1, b1⟩ := C54_declination h1 hk1 ht
  obtain ⟨d2, g2, b2⟩ := C54_declination h2 hk2 hu
  refine ⟨d1, d2, g1, g2, ?_⟩
  have hdd := Ephem.drift_dec (century_bound ht) (century_bound hu)
  rw [century_days] at hdd
  have hD : 0 ≤ daysBetween t u := by unfold daysBetween; positivity
  have hp := pi_gt_d4
  have hq : 288.7 * (daysBetween t u / 36525) ≤ rad (0.453 * daysBetween t u) := by
    generalize daysBetween t u = D at *
    unfold rad
    have : 3.1415 * D ≤ π * D := mul_le_mul_of_nonneg_right (by norm_num at hp ⊢; linarith) hD
    norm_num at this ⊢
    nlinarith
  apply of_rad
  rw [rad_sub, rad_add, rad_add]
  rw [abs_le] at *
  constructor <;> linarith [b1.1, b1.2, b2.1, b2.2, hdd.1, hdd.2]

/-- C70: the equations of time differ, up to whole days, by at most 0.57 minutes for each day between the instants, plus the
errors of C54. -/
theorem C70_eot {uc1 uc2 : UseCase} {w1 w2 : World XR} {times1 times2 : Times} {lat1 lon1 lat2 lon2 : Coord XR}
    {alg1 eng1 alg2 eng2 : String} {refr1 refr2 : PyVal} {s1 s2 : Sunpos XR} {e1 e2 : Dim → Nat} {t u : Int}
    (h1 : call uc1 w1 times1 lat1 lon1 alg1 refr1 eng1 = .ok s1)
    (h2 : call uc2 w2 times2 lat2 lon2 alg2 refr2 eng2 = .ok s2)
    (hk1 : stampAt times1.stamps (e1 .time) = some t) (hk2 : stampAt times2.stamps (e2 .time) = some u)
    (ht : |t| < 2 ^ 63) (hu : |u| < 2 ^ 63) :
    ∃ q1 q2 : ℝ, s1.eot.get e1 = .fin q1 ∧ s2.eot.get e2 = .fin q2 ∧
      ∃ k : ℤ, |q1 - q2 - 1440 * k| ≤ 0.57 * daysBetween t u + eotError alg1 + eotError alg2 := by
  obtain ⟨x1, g1, k1, b1⟩ := C54_eot h1 hk1 ht
  obtain ⟨x2, g2, k2, b2⟩ := C54_eot h2 hk2 hu
  obtain ⟨k, hk⟩ := Ephem.drift_eot (century_bound ht) (century_bound hu)
  rw [century_days] at hk
  have hp := pi_gt_d4
  have hD : 0 ≤ daysBetween t u := by unfold daysBetween; positivity
  refine ⟨x1, x2, g1, g2, k1 - k2 + k, ?_⟩
  have hq : |equationOfTime (century t) - equationOfTime (century u) - 1440 * k| ≤ 0.57 * daysBetween t u := by
    have e : equationOfTime (century t) - equationOfTime (century u) - 1440 * k
      = ((meanLongitude (century t) - rightAscension (century t)) - (meanLongitude (century u) - rightAscension (century u))
        - k * (2 * π)) * (1440 / (2 * π)) := by
      unfold Ephem.equationOfTime; field_simp
    rw [e, abs_mul, abs_of_pos (by positivity : 0 < 1440 / (2 * π))]
    refine (mul_le_mul_of_nonneg_right hk (by positivity)).trans ?_
    rw [mul_div_assoc', div_le_iff₀ (by positivity)]
    generalize daysBetween t u = D at *
    have : 3.1415 * D ≤ π * D := mul_le_mul_of_nonneg_right (by norm_num at hp ⊢; linarith) hD
    norm_num at this ⊢
    nlinarith
  push_cast
  rw [abs_le] at *
  constructor <;> linarith [b1.1, b1.2, b2.1, b2.2, hq.1, hq.2]

/-- the inverse square of the distance at two instants -/
theorem drift_ecf {T1 T2 : ℝ} (h1 : |T1| ≤ 3.24) (h2 : |T2| ≤ 3.24) :
    |1 / distance T1 ^ 2 - 1 / distance T2 ^ 2| ≤ 22.4 * |T1 - T2| := by
  have N := Ephem.drift_near h1 h2
  have p := pi_lt_d6
  have c1 := ecc_bound h1
  have c2 := ecc_bound h2
  have hc : |center T1 - center T2| ≤ 21.7 * |T1 - T2| := by
    have := N.4
    rwa [show longitude T1 - meanLongitude T1 - (longitude T2 - meanLongitude T2) = center T1 - center T2 by
      unfold Ephem.longitude; ring] at this
  have dg : |meanAnomaly T1 - meanAnomaly T2| ≤ 628.31 * |T1 - T2| := by
    have : meanAnomaly T1 - meanAnomaly T2 = (35999.0503 * (π / 180)) * (T1 - T2) := by
      unfold Ephem.meanAnomaly Ephem.deg; ring
    rw [this, abs_mul, abs_of_nonneg (by positivity)]
    refine mul_le_mul_of_nonneg_right ?_ (abs_nonneg _)
    norm_num at p ⊢; linarith
  have de : |eccentricity T1 - eccentricity T2| ≤ 4.2e-5 * |T1 - T2| := by
    have : eccentricity T1 - eccentricity T2 = -4.2e-5 * (T1 - T2) := by unfold Ephem.eccentricity; norm_num; ring
    rw [this, abs_mul]
    refine mul_le_mul_of_nonneg_right ?_ (abs_nonneg _)
    rw [abs_le]; norm_num
  have hD := abs_nonneg (T1 - T2)
  obtain ⟨ν1, hν1⟩ : ∃ ν, ν = meanAnomaly T1 + center T1 := ⟨_, rfl⟩
  obtain ⟨ν2, hν2⟩ : ∃ ν, ν = meanAnomaly T2 + center T2 := ⟨_, rfl⟩
  have hν : |cos ν1 - cos ν2| ≤ 650.01 * |T1 - T2| := by
    refine (abs_cos_sub_cos_le ν1 ν2).trans ?_
    rw [hν1, hν2, show meanAnomaly T1 + center T1 - (meanAnomaly T2 + center T2)
      = (meanAnomaly T1 - meanAnomaly T2) + (center T1 - center T2) by ring]
    refine (abs_add_le _ _).trans ?_
    norm_num at dg hc ⊢; linarith
  have hx : ∀ T, |T| ≤ 3.24 → 1 / distance T ^ 2
      = ((1 + eccentricity T * cos (meanAnomaly T + center T)) / (1 - eccentricity T ^ 2)) ^ 2 := by
    intro T hT
    unfold Ephem.distance
    rw [div_pow, div_pow, one_div_div]
  rw [hx _ h1, hx _ h2, ← hν1, ← hν2]
  generalize eccentricity T1 = E1 at *
  generalize eccentricity T2 = E2 at *
  have k1 := abs_cos_le_one ν1
  have k2 := abs_cos_le_one ν2
  generalize cos ν1 = C1 at *
  generalize cos ν2 = C2 at *
  generalize |T1 - T2| = D at *
  have da : |(1 + E1 * C1) - (1 + E2 * C2)| ≤ 10.953 * D := by
    rw [show (1 + E1 * C1) - (1 + E2 * C2) = (E1 - E2) * C1 + E2 * (C1 - C2) by ring]
    refine (abs_add_le _ _).trans ?_
    have a1 := Nrel.abs_mul_le' de k1
    have a2 := Nrel.abs_mul_le' (a := E2) (b := C1 - C2) (A := 0.01685) (B := 650.01 * D)
      (by rw [abs_le]; norm_num at c2 ⊢; constructor <;> linarith [c2.1, c2.2]) hν
    generalize |(E1 - E2) * C1| = X at *
    generalize |E2 * (C1 - C2)| = Y at *
    norm_num at a1 a2 ⊢; linarith
  have bb : ∀ {E : ℝ}, 0.01657 ≤ E ∧ E ≤ 0.01685 → 0 < 1 - E ^ 2 ∧ 0 ≤ 1 / (1 - E ^ 2) ∧ 1 / (1 - E ^ 2) ≤ 1.00029 := by
    intro E hE
    have : E ^ 2 ≤ 0.01685 ^ 2 := pow_le_pow_left₀ (le_trans (by norm_num) hE.1) hE.2 2
    have this : E ^ 2 ≤ 0.000284 := this.trans (by norm_num)
    have h0 : 0 < 1 - E ^ 2 := lt_of_lt_of_le (by norm_num) (sub_le_sub_left this 1)
    refine ⟨h0, by positivity, ?_⟩
    rw [div_le_iff₀ h0]
    norm_num at this ⊢; linarith
  obtain ⟨p1, q1, r1⟩ := bb c1
  obtain ⟨p2, q2, r2⟩ := bb c2
  have db : |1 / (1 - E1 ^ 2) - 1 / (1 - E2 ^ 2)| ≤ 1.5e-6 * D := by
    have : 1 / (1 - E1 ^ 2) - 1 / (1 - E2 ^ 2) = 1 / (1 - E1 ^ 2) * (1 / (1 - E2 ^ 2)) * ((E1 + E2) * (E1 - E2)) := by
      have := p1.ne'; have := p2.ne'
      field_simp; ring
    rw [this]
    have a1 := Nrel.abs_mul_le' (a := 1 / (1 - E1 ^ 2)) (b := 1 / (1 - E2 ^ 2)) (A := 1.00029) (B := 1.00029)
      (by rwa [abs_of_nonneg q1]) (by rwa [abs_of_nonneg q2])
    have a2 := Nrel.abs_mul_le' (a := E1 + E2) (b := E1 - E2) (A := 0.0337) (B := 4.2e-5 * D)
      (by rw [abs_le]; norm_num at c1 c2 ⊢; constructor <;> linarith [c1.1, c2.1, c1.2, c2.2]) de
    refine (Nrel.abs_mul_le' a1 a2).trans ?_
    norm_num; linarith
  have ha : ∀ {E C : ℝ}, 0.01657 ≤ E ∧ E ≤ 0.01685 → |C| ≤ 1 → |1 + E * C| ≤ 1.01685 := by
    intro E C hE hC
    refine (abs_add_le _ _).trans ?_
    have := Nrel.abs_mul_le' (a := E) (b := C) (A := 0.01685) (B := 1)
      (by rw [abs_le]; norm_num at hE ⊢; constructor <;> linarith [hE.1, hE.2]) hC
    rw [abs_one]
    generalize |E * C| = X at *
    norm_num at this ⊢; linarith
  have hA1 := ha c1 k1
  have hA2 := ha c2 k2
  rw [div_eq_mul_one_div, div_eq_mul_one_div (1 + E2 * C2)]
  generalize 1 / (1 - E1 ^ 2) = B1 at *
  generalize 1 / (1 - E2 ^ 2) = B2 at *
  generalize 1 + E1 * C1 = A1 at *
  generalize 1 + E2 * C2 = A2 at *
  have x1 := Nrel.abs_mul_le' hA1 (show |B1| ≤ 1.00029 by rwa [abs_of_nonneg q1])
  have x2 := Nrel.abs_mul_le' hA2 (show |B2| ≤ 1.00029 by rwa [abs_of_nonneg q2])
  have hd : |A1 * B1 - A2 * B2| ≤ 10.957 * D := by
    rw [show A1 * B1 - A2 * B2 = (A1 - A2) * B1 + A2 * (B1 - B2) by ring]
    refine (abs_add_le _ _).trans ?_
    have a1 := Nrel.abs_mul_le' da (show |B1| ≤ 1.00029 by rwa [abs_of_nonneg q1])
    have a2 := Nrel.abs_mul_le' hA2 db
    generalize |(A1 - A2) * B1| = X at *
    generalize |A2 * (B1 - B2)| = Y at *
    norm_num at a1 a2 ⊢; linarith
  rw [sq_sub_sq]
  have hs : |A1 * B1 + A2 * B2| ≤ 2.0344 := by
    refine (abs_add_le _ _).trans ?_
    generalize |A1 * B1| = X at *
    generalize |A2 * B2| = Y at *
    norm_num at x1 x2 ⊢; linarith
  refine (Nrel.abs_mul_le' hs hd).trans ?_
  norm_num; linarith

/-- C70: the eccentricity correction factors differ by at most 0.00062 for each day between the instants, plus the errors of
C54. -/
theorem C70_ecf {uc1 uc2 : UseCase} {w1 w2 : World XR} {times1 times2 : Times} {lat1 lon1 lat2 lon2 : Coord XR}
    {alg1 eng1 alg2 eng2 : String} {refr1 refr2 : PyVal} {s1 s2 : Sunpos XR} {e1 e2 : Dim → Nat} {t u : Int}
    (h1 : call uc1 w1 times1 lat1 lon1 alg1 refr1 eng1 = .ok s1)
    (h2 : call uc2 w2 times2 lat2 lon2 alg2 refr2 eng2 = .ok s2)
    (hk1 : stampAt times1.stamps (e1 .time) = some t) (hk2 : stampAt times2.stamps (e2 .time) = some u)
    (ht : |t| < 2 ^ 63) (hu : |u| < 2 ^ 63) :
    ∃ f1 f2 : ℝ, s1.ecf.get e1 = .fin f1 ∧ s2.ecf.get e2 = .fin f2 ∧
      |f1 - f2| ≤ 0.00062 * daysBetween t u + ecfError alg1 + ecfError alg2 := by
  obtain ⟨x1, g1, b1⟩ := C54_ecf h1 hk1 ht
  obtain ⟨x2, g2, b2⟩ := C54_ecf h2 hk2 hu
  have hd := drift_ecf (century_bound ht) (century_bound hu)
  rw [century_days] at hd
  have hD : 0 ≤ daysBetween t u := by unfold daysBetween; positivity
  refine ⟨x1, x2, g1, g2, ?_⟩
  have hq : 22.4 * (daysBetween t u / 36525) ≤ 0.00062 * daysBetween t u := by norm_num; linarith
  rw [abs_le] at *
  constructor <;> linarith [b1.1, b1.2, b2.1, b2.2, hd.1, hd.2]

/-- the apparent zenith angles of the reference sun at two instants and two places where it is up -/
theorem ref_apparent {t u : ℤ} (ht : |t| < 2 ^ 63) (hu : |u| < 2 ^ 63) {φ1 l1 φ2 l2 ζ1 ζ2 : ℝ} (m : ℤ)
    (hup1 : cos (rad ζ1) = sin (rad φ1) * sin (declination (century t))
      + cos (rad φ1) * cos (declination (century t)) * cos (hourAngle (century t) + rad l1))
    (hup2 : cos (rad ζ2) = sin (rad φ2) * sin (declination (century u))
      + cos (rad φ2) * cos (declination (century u)) * cos (hourAngle (century u) + rad l2))
    (hζ1 : 0 ≤ ζ1 ∧ ζ1 ≤ 90) (hζ2 : 0 ≤ ζ2 ∧ ζ2 ≤ 90) :
    |(ζ1 - standardRefraction (90 - ζ1)) - (ζ2 - standardRefraction (90 - ζ2))|
      ≤ |φ1 - φ2| + |l1 - l2 - 360 * m| + 360.6 * daysBetween t u + 0.0001 := by
  have hr := ref_angle ht hu φ1 l1 φ2 l2 m
  have e90 : rad 90 = π / 2 := by unfold rad; ring
  have e180 : rad 180 = π := by unfold rad; ring
  have r1 := hζ1.2
  have r2 := hζ2.2
  have p1 : 0 ≤ rad ζ1 := by have := hζ1.1; unfold rad; positivity
  have p2 : 0 ≤ rad ζ2 := by have := hζ2.1; unfold rad; positivity
  have hp := pi_gt_d4
  -- the true zenith angles
  obtain ⟨a, ha⟩ : ∃ a, sunVec (rad φ1) (declination (century t)) (-(hourAngle (century t) + rad l1)) = dirVec (rad ζ1) a :=
    exists_dir (sunVec_sq _ _ _) (by rw [hup1]; simp only [sunVec, cos_neg])
      (sin_nonneg_of_nonneg_of_le_pi p1 (by rw [← e180]; exact rad_mono (by linarith)))
  have hz := (zen_le_angle (a := a) (z := rad ζ1) (ζ := rad ζ2)
    (v := sunVec (rad φ2) (declination (century u)) (-(hourAngle (century u) + rad l2))) p1
    (by rw [← e180]; exact rad_mono (by linarith)) p2 (by rw [← e180]; exact rad_mono (by linarith)) (sunVec_sq _ _ _)
    (by rw [hup2]; simp only [sunVec, cos_neg]))
  rw [← ha] at hz
  have hz := hz.trans hr
  have hl := standard_lip (e₁ := π / 2 - rad ζ1) (e₂ := π / 2 - rad ζ2)
    (by rw [← e90, ← rad_sub]; exact le_trans (by norm_num) (show (0 : ℝ) ≤ rad (90 - ζ1) by
      have : 0 ≤ 90 - ζ1 := by linarith
      unfold rad; positivity)) (by linarith)
    (by rw [← e90, ← rad_sub]; exact le_trans (by norm_num) (show (0 : ℝ) ≤ rad (90 - ζ2) by
      have : 0 ≤ 90 - ζ2 := by linarith
      unfold rad; positivity)) (by linarith)
  have eζ : ∀ ζ, (π / 2 - rad ζ) * (180 / π) = 90 - ζ := fun ζ => by unfold rad; field_simp; ring
  rw [eζ, eζ, show π / 2 - rad ζ1 - (π / 2 - rad ζ2) = -(rad ζ1 - rad ζ2) by ring, abs_neg] at hl
  apply of_rad
  have er : ∀ x, rad x = x * (π / 180) := fun x => by unfold rad; ring
  have e4 : 1.13e-6 ≤ rad 0.0001 := by unfold rad; norm_num at hp ⊢; linarith
  rw [rad_sub, rad_sub, rad_sub, rad_add, er (standardRefraction _), er (standardRefraction _)]
  rw [abs_le] at hl ⊢
  constructor <;> linarith [hl.1, hl.2]

theorem le_ninety {alg : String} {ζ : ℝ} (h : 0 ≤ ζ ∧ ζ ≤ 90 - lowestElevation alg) : 0 ≤ ζ ∧ ζ ≤ 90 := by
  obtain ⟨h0, h⟩ := h
  unfold lowestElevation at h; split_ifs at h <;> exact ⟨h0, by linarith⟩

/-- C70: with refraction (the default), where the sun of the ephemeris is above the horizon at both (2 degrees above it for
iqbal), the apparent zenith angles differ by at most as much plus the refraction errors of C68. -/
theorem C70_apparent {uc1 uc2 : UseCase} {w1 w2 : World XR} {times1 times2 : Times} {lat1 lon1 lat2 lon2 : Coord XR}
    {alg1 eng1 alg2 eng2 : String} {s1 s2 : Sunpos XR} {e1 e2 : Dim → Nat} {t u : Int}
    {φ1 l1 φ2 l2 ζ1 ζ2 : ℝ} (m : ℤ)
    (h1 : call uc1 w1 times1 lat1 lon1 alg1 .pyTrue eng1 = .ok s1)
    (h2 : call uc2 w2 times2 lat2 lon2 alg2 .pyTrue eng2 = .ok s2)
    (ha1 : At s1 times1 e1 t φ1 l1) (ha2 : At s2 times2 e2 u φ2 l2)
    (hup1 : cos (rad ζ1) = sin (rad φ1) * sin (declination (century t))
      + cos (rad φ1) * cos (declination (century t)) * cos (hourAngle (century t) + rad l1))
    (hup2 : cos (rad ζ2) = sin (rad φ2) * sin (declination (century u))
      + cos (rad φ2) * cos (declination (century u)) * cos (hourAngle (century u) + rad l2))
    (hζ1 : 0 ≤ ζ1 ∧ ζ1 ≤ 90 - lowestElevation alg1) (hζ2 : 0 ≤ ζ2 ∧ ζ2 ≤ 90 - lowestElevation alg2) :
    ∃ z1 z2 : ℝ, s1.zenithDeg.get e1 = .fin z1 ∧ s2.zenithDeg.get e2 = .fin z2 ∧
      |z1 - z2| ≤ |φ1 - φ2| + |l1 - l2 - 360 * m| + 360.6 * daysBetween t u
        + (positionError alg1 eng1 + refractionError alg1) + (positionError alg2 eng2 + refractionError alg2) + 0.0001 := by
  obtain ⟨z1, -, -, g1, -, -, -, b1⟩ := C68_accuracy h1 ha1 hup1 hζ1.1 hζ1.2
  obtain ⟨z2, -, -, g2, -, -, -, b2⟩ := C68_accuracy h2 ha2 hup2 hζ2.1 hζ2.2
  have hS := ref_apparent ha1.range ha2.range m hup1 hup2 (le_ninety hζ1) (le_ninety hζ2)
  refine ⟨z1, z2, g1, g2, ?_⟩
  rw [abs_le] at *
  constructor <;> linarith [b1.1, b1.2, b2.1, b2.2, hS.1, hS.2]

/-- C70: the same in floating-point arithmetic, without refraction: two calls in any two arithmetics with the accuracy of
double precision. -/
theorem C70_float {A B : Arith} {uc1 uc2 : UseCase} {w1 : World (Rd A)} {w2 : World (Rd B)} {times1 times2 : Times}
    {lat1 lon1 : Coord (Rd A)} {lat2 lon2 : Coord (Rd B)} {alg1 eng1 alg2 eng2 : String} {refr1 refr2 : PyVal}
    {s1 : Sunpos (Rd A)} {s2 : Sunpos (Rd B)} {e1 e2 : Dim → Nat} {t u : Int} {φ1 l1 φ2 l2 ζ1 ζ2 : ℝ} (m : ℤ)
    (h1 : call uc1 w1 times1 lat1 lon1 alg1 refr1 eng1 = .ok s1) (hr1 : refr1 ≠ .pyTrue)
    (h2 : call uc2 w2 times2 lat2 lon2 alg2 refr2 eng2 = .ok s2) (hr2 : refr2 ≠ .pyTrue)
    (ha1 : AtRd s1 times1 e1 t φ1 l1) (ha2 : AtRd s2 times2 e2 u φ2 l2)
    (hφ1 : -90 ≤ φ1 ∧ φ1 ≤ 90) (hl1 : -180 ≤ l1 ∧ l1 < 180) (hφ2 : -90 ≤ φ2 ∧ φ2 ≤ 90) (hl2 : -180 ≤ l2 ∧ l2 < 180)
    (hpole1 : alg1 = "nrel" → |φ1| ≤ 90 - 1e-10) (hpole2 : alg2 = "nrel" → |φ2| ≤ 90 - 1e-10)
    (hup1 : cos (rad ζ1) = sin (rad φ1) * sin (declination (century t))
      + cos (rad φ1) * cos (declination (century t)) * cos (hourAngle (century t) + rad l1))
    (hup2 : cos (rad ζ2) = sin (rad φ2) * sin (declination (century u))
      + cos (rad φ2) * cos (declination (century u)) * cos (hourAngle (century u) + rad l2))
    (hs1 : 0.06 ≤ placeFactor alg1 eng1 φ1 * sin (rad ζ1)) (hs2 : 0.06 ≤ placeFactor alg2 eng2 φ2 * sin (rad ζ2)) :
    ∃ z1 a1 z2 a2 : ℝ, s1.zenithDeg.get e1 = Rd.fin z1 ∧ s1.azimuthDeg.get e1 = Rd.fin a1 ∧
      s2.zenithDeg.get e2 = Rd.fin z2 ∧ s2.azimuthDeg.get e2 = Rd.fin a2 ∧
      arccos ((dirVec (rad z1) (rad a1)).dot (dirVec (rad z2) (rad a2)))
        ≤ rad (|φ1 - φ2| + |l1 - l2 - 360 * m| + 360.6 * daysBetween t u
          + (positionError alg1 eng1 + 0.0021 / (placeFactor alg1 eng1 φ1 * sin (rad ζ1)))
          + (positionError alg2 eng2 + 0.0021 / (placeFactor alg2 eng2 φ2 * sin (rad ζ2)))) := by
  obtain ⟨z1, a1, g1, g2, b1⟩ := C64_position h1 hr1 ha1 hφ1 hl1 hpole1 (by rw [hup1]; simp only [sunVec, cos_neg]) hs1
  obtain ⟨z2, a2, g3, g4, b2⟩ := C64_position h2 hr2 ha2 hφ2 hl2 hpole2 (by rw [hup2]; simp only [sunVec, cos_neg]) hs2
  refine ⟨z1, a1, z2, a2, g1, g2, g3, g4, ?_⟩
  have hr := ref_angle ha1.range ha2.range φ1 l1 φ2 l2 m
  have t1 := angle_triangle (dirVec_sq (rad z1) (rad a1)) (sunVec_sq (rad φ1) (declination (century t)) (-(hourAngle (century t) + rad l1)))
    (dirVec_sq (rad z2) (rad a2))
  have t2 := angle_triangle (sunVec_sq (rad φ1) (declination (century t)) (-(hourAngle (century t) + rad l1)))
    (sunVec_sq (rad φ2) (declination (century u)) (-(hourAngle (century u) + rad l2))) (dirVec_sq (rad z2) (rad a2))
  have comm : ∀ a b : Vec, a.dot b = b.dot a := fun a b => by simp only [Vec.dot]; ring
  rw [comm (sunVec (rad φ2) _ _)] at t2
  rw [rad_add _ (positionError alg2 eng2 + _), rad_add _ (positionError alg1 eng1 + _)]; linarith

/-- C70: the same in floating-point arithmetic with refraction, the default. -/
theorem C70_float_apparent {A B : Arith} {uc1 uc2 : UseCase} {w1 : World (Rd A)} {w2 : World (Rd B)} {times1 times2 : Times}
    {lat1 lon1 : Coord (Rd A)} {lat2 lon2 : Coord (Rd B)} {alg1 eng1 alg2 eng2 : String}
    {s1 : Sunpos (Rd A)} {s2 : Sunpos (Rd B)} {e1 e2 : Dim → Nat} {t u : Int} {φ1 l1 φ2 l2 ζ1 ζ2 : ℝ} (m : ℤ)
    (h1 : call uc1 w1 times1 lat1 lon1 alg1 .pyTrue eng1 = .ok s1)
    (h2 : call uc2 w2 times2 lat2 lon2 alg2 .pyTrue eng2 = .ok s2)
    (ha1 : AtRd s1 times1 e1 t φ1 l1) (ha2 : AtRd s2 times2 e2 u φ2 l2)
    (hφ1 : -90 ≤ φ1 ∧ φ1 ≤ 90) (hl1 : -180 ≤ l1 ∧ l1 < 180) (hφ2 : -90 ≤ φ2 ∧ φ2 ≤ 90) (hl2 : -180 ≤ l2 ∧ l2 < 180)
    (hpole1 : alg1 = "nrel" → |φ1| ≤ 90 - 1e-10) (hpole2 : alg2 = "nrel" → |φ2| ≤ 90 - 1e-10)
    (hup1 : cos (rad ζ1) = sin (rad φ1) * sin (declination (century t))
      + cos (rad φ1) * cos (declination (century t)) * cos (hourAngle (century t) + rad l1))
    (hup2 : cos (rad ζ2) = sin (rad φ2) * sin (declination (century u))
      + cos (rad φ2) * cos (declination (century u)) * cos (hourAngle (century u) + rad l2))
    (hζ1 : 0 ≤ ζ1 ∧ ζ1 ≤ 90 - lowestElevation alg1) (hζ2 : 0 ≤ ζ2 ∧ ζ2 ≤ 90 - lowestElevation alg2)
    (hs1 : 0.06 ≤ placeFactor alg1 eng1 φ1 * sin (rad ζ1)) (hs2 : 0.06 ≤ placeFactor alg2 eng2 φ2 * sin (rad ζ2)) :
    ∃ z1 z2 : ℝ, s1.zenithDeg.get e1 = Rd.fin z1 ∧ s2.zenithDeg.get e2 = Rd.fin z2 ∧
      |z1 - z2| ≤ |φ1 - φ2| + |l1 - l2 - 360 * m| + 360.6 * daysBetween t u
        + (positionError alg1 eng1 + refractionError alg1 + 0.0019 / (placeFactor alg1 eng1 φ1 * sin (rad ζ1)))
        + (positionError alg2 eng2 + refractionError alg2 + 0.0019 / (placeFactor alg2 eng2 φ2 * sin (rad ζ2))) + 0.0001 := by
  obtain ⟨z1, -, -, g1, -, -, -, b1⟩ := C69_accuracy h1 ha1 hφ1 hl1 hpole1 hup1 hζ1.1 hζ1.2 hs1
  obtain ⟨z2, -, -, g2, -, -, -, b2⟩ := C69_accuracy h2 ha2 hφ2 hl2 hpole2 hup2 hζ2.1 hζ2.2 hs2
  have hS := ref_apparent ha1.range ha2.range m hup1 hup2 (le_ninety hζ1) (le_ninety hζ2)
  refine ⟨z1, z2, g1, g2, ?_⟩
  rw [abs_le] at *
  constructor <;> linarith [b1.1, b1.2, b2.1, b2.2, hS.1, hS.2]

/-- the last nanosecond of 2023 and the first of 2024 on both sides of the date line: soltrack's zenith angles are within
0.045 degrees of each other -/
example : ∃ s1 s2 : Sunpos XR, ∃ z1 z2 : ℝ,
    call .sites exWorld (oneTime 1704067199999999999) (.vec [.fin 40]) (.vec [.fin (-179.9999)]) "soltrack" .pyFalse "numexpr" = .ok s1 ∧
    call .sites exWorld (oneTime 1704067200000000000) (.vec [.fin 40]) (.vec [.fin 179.9999]) "soltrack" .pyFalse "numexpr" = .ok s2 ∧
    s1.zenithDeg.get (fun _ => 0) = .fin z1 ∧ s2.zenithDeg.get (fun _ => 0) = .fin z2 ∧ |z1 - z2| ≤ 0.045 := by
  obtain ⟨s1, h1, a1⟩ := single_call .sites (alg := "soltrack") (eng := "numexpr") (by simp [KnownPair]) .pyFalse
    (t := 1704067199999999999) (by norm_num) (φ := 40) (l := -179.9999) (by norm_num) (by norm_num)
  obtain ⟨s2, h2, a2⟩ := single_call .sites (alg := "soltrack") (eng := "numexpr") (by simp [KnownPair]) .pyFalse
    (t := 1704067200000000000) (by norm_num) (φ := 40) (l := 179.9999) (by norm_num) (by norm_num)
  obtain ⟨z1, -, z2, -, g1, -, g2, -, -, hz⟩ := C70_position (-1) h1 (by simp) h2 (by simp) a1 a2
  refine ⟨s1, s2, z1, z2, h1, h2, g1, g2, hz.trans ?_⟩
  simp only [positionError, daysBetween, String.reduceEq, if_true, if_false]
  norm_num [abs_of_nonneg, abs_of_nonpos]

end SW.Props
