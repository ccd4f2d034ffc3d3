/-
C70 in floating point: declination, equation of time, eccentricity correction factor and zenith angle.
-/
import Verif.Props.Continuity
import Verif.Props.TestsFloat

namespace SW.Props
open SW.Spec Real Sunpos
open SW.Ephem (century declination equationOfTime distance hourAngle meanLongitude rightAscension)

variable {A B : Arith}

/-- C70 in floating-point arithmetic: the declinations, equations of time (up to whole days) and eccentricity correction factors
returned at two instants differ by at most 0.453 degrees, 0.57 minutes and 0.00062 for each day between the instants, plus the errors
of C64. -/
theorem C70_float_time {uc1 uc2 : UseCase} {w1 : World (Rd A)} {w2 : World (Rd B)} {times1 times2 : Times}
    {lat1 lon1 : Coord (Rd A)} {lat2 lon2 : Coord (Rd B)} {alg1 eng1 alg2 eng2 : String} {refr1 refr2 : PyVal}
    {s1 : Sunpos (Rd A)} {s2 : Sunpos (Rd B)} {e1 e2 : Dim → Nat} {t u : Int}
    (h1 : call uc1 w1 times1 lat1 lon1 alg1 refr1 eng1 = .ok s1)
    (h2 : call uc2 w2 times2 lat2 lon2 alg2 refr2 eng2 = .ok s2)
    (hk1 : stampAt times1.stamps (e1 .time) = some t) (hk2 : stampAt times2.stamps (e2 .time) = some u)
    (ht : |t| < 2 ^ 63) (hu : |u| < 2 ^ 63) :
    ∃ d1 d2 q1 q2 f1 f2 : ℝ, s1.decDeg.get e1 = Rd.fin d1 ∧ s2.decDeg.get e2 = Rd.fin d2 ∧
      s1.eot.get e1 = Rd.fin q1 ∧ s2.eot.get e2 = Rd.fin q2 ∧ s1.ecf.get e1 = Rd.fin f1 ∧ s2.ecf.get e2 = Rd.fin f2 ∧
      |d1 - d2| ≤ 0.453 * daysBetween t u + (decError alg1 + 4e-8) + (decError alg2 + 4e-8) ∧
      (∃ k : ℤ, |q1 - q2 - 1440 * k| ≤ 0.57 * daysBetween t u + (eotError alg1 + 1.1e-6) + (eotError alg2 + 1.1e-6)) ∧
      |f1 - f2| ≤ 0.00062 * daysBetween t u + (ecfError alg1 + 2e-10) + (ecfError alg2 + 2e-10) := by
  obtain ⟨d1, f1, q1, g1, g2, g3, b1, b2, k1, b3⟩ := C64_time h1 hk1 ht
  obtain ⟨d2, f2, q2, g4, g5, g6, b4, b5, k2, b6⟩ := C64_time h2 hk2 hu
  have hdd := Ephem.drift_dec (century_bound ht) (century_bound hu)
  obtain ⟨k, hk⟩ := Ephem.drift_eot (century_bound ht) (century_bound hu)
  have hd := drift_ecf (century_bound ht) (century_bound hu)
  rw [century_days] at hdd hk hd
  have hD : 0 ≤ daysBetween t u := by unfold daysBetween; positivity
  have hp := pi_gt_d4
  refine ⟨d1, d2, q1, q2, f1, f2, g1, g4, g3, g6, g2, g5, ?_, ⟨k1 - k2 + k, ?_⟩, ?_⟩
  · have hq : 288.7 * (daysBetween t u / 36525) ≤ rad (0.453 * daysBetween t u) := by
      generalize daysBetween t u = D at *
      unfold rad
      have : 3.1415 * D ≤ π * D := mul_le_mul_of_nonneg_right (by norm_num at hp ⊢; linarith) hD
      norm_num at this ⊢
      nlinarith
    apply of_rad
    rw [rad_sub, rad_add _ (decError alg2 + 4e-8), rad_add _ (decError alg1 + 4e-8)]
    rw [abs_le] at *
    constructor <;> linarith [b1.1, b1.2, b4.1, b4.2, hdd.1, hdd.2]
  · have hq : |equationOfTime (century t) - equationOfTime (century u) - 1440 * k| ≤ 0.57 * daysBetween t u := by
      have e : equationOfTime (century t) - equationOfTime (century u) - 1440 * k
        = ((meanLongitude (century t) - rightAscension (century t)) - (meanLongitude (century u) - rightAscension (century u))
          - k * (2 * π)) * (1440 / (2 * π)) := by
        unfold Ephem.equationOfTime; field_simp
      rw [e, abs_mul, abs_of_pos (by positivity : 0 < 1440 / (2 * π))]
      refine (mul_le_mul_of_nonneg_right hk (by positivity)).trans ?_
      rw [mul_div_assoc', div_le_iff₀ (by positivity)]
      generalize daysBetween t u = D at *
      have : 3.1415 * D ≤ π * D := mul_le_mul_of_nonneg_right (by norm_num at hp ⊢; linarith) hD
      norm_num at this ⊢
      nlinarith
    push_cast
    rw [abs_le] at *
    constructor <;> linarith [b3.1, b3.2, b6.1, b6.2, hq.1, hq.2]
  · have hq : 22.4 * (daysBetween t u / 36525) ≤ 0.00062 * daysBetween t u := by norm_num; linarith
    rw [abs_le] at *
    constructor <;> linarith [b2.1, b2.2, b5.1, b5.2, hd.1, hd.2]

/-- the zenith angles of the reference sun at two instants and two places -/
theorem ref_zenith {t u : ℤ} (ht : |t| < 2 ^ 63) (hu : |u| < 2 ^ 63) (φ1 l1 φ2 l2 : ℝ) (m : ℤ) :
    |sunZenith t φ1 l1 - sunZenith u φ2 l2| ≤ |φ1 - φ2| + |l1 - l2 - 360 * m| + 360.6 * daysBetween t u := by
  have hr := ref_angle ht hu φ1 l1 φ2 l2 m
  have e180 : rad 180 = π := by unfold rad; ring
  obtain ⟨p1, p1'⟩ := sunZenith_range t φ1 l1
  obtain ⟨p2, p2'⟩ := sunZenith_range u φ2 l2
  have c1 := sunZenith_cos t φ1 l1
  have c2 := sunZenith_cos u φ2 l2
  generalize sunZenith t φ1 l1 = ζ1 at *
  generalize sunZenith u φ2 l2 = ζ2 at *
  have q1 : 0 ≤ rad ζ1 := by unfold rad; positivity
  have q2 : 0 ≤ rad ζ2 := by unfold rad; positivity
  obtain ⟨a, ha⟩ : ∃ a, sunVec (rad φ1) (declination (century t)) (-(hourAngle (century t) + rad l1)) = dirVec (rad ζ1) a :=
    exists_dir (sunVec_sq _ _ _) (by rw [c1]; simp only [sunVec, cos_neg])
      (sin_nonneg_of_nonneg_of_le_pi q1 (by rw [← e180]; exact rad_mono p1'))
  have hz := (zen_le_angle (a := a) (z := rad ζ1) (ζ := rad ζ2)
    (v := sunVec (rad φ2) (declination (century u)) (-(hourAngle (century u) + rad l2))) q1
    (by rw [← e180]; exact rad_mono p1') q2 (by rw [← e180]; exact rad_mono p2') (sunVec_sq _ _ _)
    (by rw [c2]; simp only [sunVec, cos_neg]))
  rw [← ha] at hz
  apply of_rad
  rw [rad_sub]
  exact hz.trans hr

/-- C70 in floating-point arithmetic without refraction: the zenith angles at two instants and two places differ by at most a degree for
each degree of latitude and longitude (across the date line too) and 360.6 degrees for each day between them, plus the errors. -/
theorem C70_float_zenith {uc1 uc2 : UseCase} {w1 : World (Rd A)} {w2 : World (Rd B)} {times1 times2 : Times}
    {lat1 lon1 : Coord (Rd A)} {lat2 lon2 : Coord (Rd B)} {alg1 eng1 alg2 eng2 : String} {refr1 refr2 : PyVal}
    {s1 : Sunpos (Rd A)} {s2 : Sunpos (Rd B)} {e1 e2 : Dim → Nat} {t u : Int} {φ1 l1 φ2 l2 ζ1 ζ2 : ℝ} (m : ℤ)
    (h1 : call uc1 w1 times1 lat1 lon1 alg1 refr1 eng1 = .ok s1) (hr1 : refr1 ≠ .pyTrue)
    (h2 : call uc2 w2 times2 lat2 lon2 alg2 refr2 eng2 = .ok s2) (hr2 : refr2 ≠ .pyTrue)
    (ha1 : AtRd s1 times1 e1 t φ1 l1) (ha2 : AtRd s2 times2 e2 u φ2 l2)
    (hφ1 : -90 ≤ φ1 ∧ φ1 ≤ 90) (hl1 : -180 ≤ l1 ∧ l1 < 180) (hφ2 : -90 ≤ φ2 ∧ φ2 ≤ 90) (hl2 : -180 ≤ l2 ∧ l2 < 180)
    (hpole1 : alg1 = "nrel" → |φ1| ≤ 90 - 1e-10) (hpole2 : alg2 = "nrel" → |φ2| ≤ 90 - 1e-10)
    (hup1 : cos (rad ζ1) = sin (rad φ1) * sin (declination (century t))
      + cos (rad φ1) * cos (declination (century t)) * cos (hourAngle (century t) + rad l1))
    (hup2 : cos (rad ζ2) = sin (rad φ2) * sin (declination (century u))
      + cos (rad φ2) * cos (declination (century u)) * cos (hourAngle (century u) + rad l2))
    (hζ1 : 0 ≤ ζ1 ∧ ζ1 ≤ 180) (hζ2 : 0 ≤ ζ2 ∧ ζ2 ≤ 180)
    (hs1 : 0.06 ≤ placeFactor alg1 eng1 φ1 * sin (rad ζ1)) (hs2 : 0.06 ≤ placeFactor alg2 eng2 φ2 * sin (rad ζ2)) :
    ∃ z1 z2 : ℝ, s1.zenithDeg.get e1 = Rd.fin z1 ∧ s2.zenithDeg.get e2 = Rd.fin z2 ∧
      |z1 - z2| ≤ |φ1 - φ2| + |l1 - l2 - 360 * m| + 360.6 * daysBetween t u
        + (positionError alg1 eng1 + 0.0014 / (placeFactor alg1 eng1 φ1 * sin (rad ζ1)))
        + (positionError alg2 eng2 + 0.0014 / (placeFactor alg2 eng2 φ2 * sin (rad ζ2))) := by
  have key : ∀ {v : Int} {φ l ζ : ℝ}, 0 ≤ ζ ∧ ζ ≤ 180 → cos (rad ζ) = sin (rad φ) * sin (declination (century v))
      + cos (rad φ) * cos (declination (century v)) * cos (hourAngle (century v) + rad l) → ζ = sunZenith v φ l := by
    intro v φ l ζ h0 hc
    have e180 : rad 180 = π := by unfold rad; ring
    unfold sunZenith
    rw [← hc, arccos_cos (by have := h0.1; unfold rad; positivity) (by rw [← e180]; exact rad_mono h0.2)]
    unfold rad; field_simp
  obtain rfl := key hζ1 hup1
  obtain rfl := key hζ2 hup2
  obtain ⟨z1, g1, b1⟩ := float_zenithDeg h1 hr1 ha1 hφ1 hl1 hpole1 hs1
  obtain ⟨z2, g2, b2⟩ := float_zenithDeg h2 hr2 ha2 hφ2 hl2 hpole2 hs2
  have hz := ref_zenith ha1.range ha2.range φ1 l1 φ2 l2 m
  have w : ∀ x : ℝ, 0.06 ≤ x → 0.00132 / x ≤ 0.0014 / x := fun x hx =>
    div_le_div_of_nonneg_right (by norm_num) (le_trans (by norm_num) hx)
  have w1 := w _ hs1
  have w2 := w _ hs2
  refine ⟨z1, z2, g1, g2, ?_⟩
  rw [abs_le] at *
  constructor <;> linarith [b1.1, b1.2, b2.1, b2.2, hz.1, hz.2]

/-- hypotheses of C70_float_time are met: the two sides of a New Year, in binary64 -/
example : ∃ (w1 w2 : World (Rd Arith.binary64)) (s1 s2 : Sunpos (Rd Arith.binary64)) (d1 d2 : ℝ),
    call .sites w1 (oneTime 1704067199999999999) (.vec [Rd.fin 40]) (.vec [Rd.fin 0]) "soltrack" .pyFalse "numpy" = .ok s1 ∧
    call .sites w2 (oneTime 1704067200000000000) (.vec [Rd.fin 40]) (.vec [Rd.fin 0]) "soltrack" .pyFalse "numpy" = .ok s2 ∧
    s1.decDeg.get (fun _ => 0) = Rd.fin d1 ∧ s2.decDeg.get (fun _ => 0) = Rd.fin d2 ∧ |d1 - d2| ≤ 0.03 := by
  have hk : KnownPair "soltrack" "numpy" := by simp [KnownPair]
  obtain ⟨w1, s1, h1, a1⟩ := single_call_rd (A := Arith.binary64) .sites hk .pyFalse binary64_90 binary64_180
    (t := 1704067199999999999) (by norm_num) (φ := 40) (l := 0) (by norm_num) (by norm_num)
  obtain ⟨w2, s2, h2, a2⟩ := single_call_rd (A := Arith.binary64) .sites hk .pyFalse binary64_90 binary64_180
    (t := 1704067200000000000) (by norm_num) (φ := 40) (l := 0) (by norm_num) (by norm_num)
  obtain ⟨d1, d2, -, -, -, -, e1, e2, -, -, -, -, hd, -⟩ := C70_float_time (e1 := fun _ => 0) (e2 := fun _ => 0) h1 h2 a1.time a2.time a1.range a2.range
  refine ⟨w1, w2, s1, s2, d1, d2, h1, h2, e1, e2, hd.trans ?_⟩
  have : decError "soltrack" ≤ 0.013 := by
    unfold decError; rw [if_neg (by decide), if_pos rfl]; norm_num
  have hD : daysBetween 1704067199999999999 1704067200000000000 ≤ 0.001 := by
    unfold daysBetween; push_cast; rw [abs_of_nonpos (by norm_num)]; norm_num
  norm_num at this hD ⊢
  linarith

end SW.Props
