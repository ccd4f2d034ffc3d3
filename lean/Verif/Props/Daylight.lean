/-
C65: the sun is up between sunrise and sunset. The times returned by sunrise and sunset are those of the sun that keeps,
all day, the declination and the equation of time of the instant of the object; here they are compared with the
position of the sun that any algorithm returns at any other instant of that day.
-/
import Verif.Props.Sunrise
import Verif.Props.Accuracy
import Verif.RDrift

namespace SW.Props
open SW.Spec Real Sunpos
open SW.Ephem (century declination equationOfTime distance hourAngle)

/-- How far from the horizon, degrees, the sun of `alg2` may be at the sunrise or sunset of `alg1` (which come from
an instant `x` days away): the motion of the sun in declination and in equation of time, and the errors of C54. -/
noncomputable def dayError (alg1 alg2 eng2 : String) (x : ℝ) : ℝ :=
  0.6 * x + decError alg1 + eotError alg1 / 4 + positionError alg2 eng2 + 0.02

theorem dayError_bound {alg1 alg2 eng2 : String} {x : ℝ} (h0 : 0 ≤ x) (h1 : x ≤ 1.001) :
    0 ≤ dayError alg1 alg2 eng2 x ∧ dayError alg1 alg2 eng2 x ≤ 3.825 := by
  have a1 : 0 ≤ decError alg1 ∧ decError alg1 ≤ 1.06 := by unfold decError; split_ifs <;> norm_num
  have a2 : 0 ≤ eotError alg1 ∧ eotError alg1 ≤ 2.15 := by unfold eotError; split_ifs <;> norm_num
  have a3 : 0 ≤ positionError alg2 eng2 ∧ positionError alg2 eng2 ≤ 1.605 := by
    unfold positionError; split_ifs <;> norm_num
  unfold dayError
  norm_num at h1 a1 a2 a3 ⊢
  constructor <;> linarith [a1.1, a1.2, a2.1, a2.2, a3.1, a3.2]

/-- the errors of C54 in radians -/
theorem error_rad (alg : String) :
    (if alg = "psa" then 5.42e-4 else if alg = "soltrack" then 1.22e-4 else if alg = "nrel" then 3.3e-4 else 0.0185)
      + (if alg = "psa" then 7.9e-4 else if alg = "soltrack" then 6.4e-5 else if alg = "nrel" then 5.1e-4 else 0.00935)
      ≤ rad (decError alg + eotError alg / 4) := by
  unfold decError eotError rad
  have p := pi_gt_d6
  by_cases h1 : alg = "psa"
  · rw [if_pos h1, if_pos h1, if_pos h1, if_pos h1]; norm_num at p ⊢; linarith
  · rw [if_neg h1, if_neg h1, if_neg h1, if_neg h1]
    by_cases h2 : alg = "soltrack"
    · rw [if_pos h2, if_pos h2, if_pos h2, if_pos h2]; norm_num at p ⊢; linarith
    · rw [if_neg h2, if_neg h2, if_neg h2, if_neg h2]
      by_cases h3 : alg = "nrel"
      · rw [if_pos h3, if_pos h3, if_pos h3, if_pos h3]; norm_num at p ⊢; linarith
      · rw [if_neg h3, if_neg h3, if_neg h3, if_neg h3]; norm_num at p ⊢; linarith

theorem century_diff (t u : ℤ) : |century u - century t| = |(u : ℝ) - t| / 86400e9 / 36525 := by
  have : century u - century t = ((u : ℝ) - t) / 86400e9 / 36525 := by unfold Ephem.century; ring
  rw [this, abs_div, abs_div, abs_of_pos (by norm_num : (0 : ℝ) < 86400e9), abs_of_pos (by norm_num : (0 : ℝ) < 36525)]

/-- the mean sun at the whole second and at the instant -/
theorem meanAngle_toSec (u : Int) : |meanAngle (toSec u) - (2 * π * ((u : ℝ) / 86400e9) - π)| ≤ 7.28e-5 := by
  have hr : 0 ≤ u - toSec u * 1000000000 ∧ u - toSec u * 1000000000 ≤ 999999999 := by
    unfold toSec; omega
  obtain ⟨q, hq⟩ : ∃ q, q = toSec u := ⟨_, rfl⟩
  rw [← hq] at hr ⊢
  have h1 : (0 : ℝ) ≤ (u : ℝ) - q * 1000000000 := by exact_mod_cast hr.1
  have h2 : (u : ℝ) - q * 1000000000 ≤ 999999999 := by exact_mod_cast hr.2
  have e : meanAngle q - (2 * π * ((u : ℝ) / 86400e9) - π) = -(π * (((u : ℝ) - q * 1000000000) / 43200e9)) := by
    unfold meanAngle; norm_num; ring
  have p := pi_lt_d6
  rw [e, abs_neg, abs_of_nonneg (by positivity)]
  have : ((u : ℝ) - q * 1000000000) / 43200e9 ≤ 2.3148149e-5 := by
    rw [div_le_iff₀ (by norm_num)]; norm_num at h2 ⊢; linarith
  refine (mul_le_mul p.le this (by positivity) (by norm_num)).trans (by norm_num)

/-- the sun at the instant `u`, against the sun that keeps the declination and the equation of time of `t` -/
theorem day_close {uc : UseCase} {w : World XR} {times : Times} {latitude longitude : Coord XR}
    {alg eng : String} {refr : PyVal} {s : Sunpos XR} {e : Dim → Nat} {t u : Int}
    (h : call uc w times latitude longitude alg refr eng = .ok s)
    (hk : stampAt times.stamps (e .time) = some t) (ht : |t| < 2 ^ 63) (hu : |u| < 2 ^ 63) (φ l : ℝ) :
    ∃ d x : ℝ, s.decDeg.get e = .fin d ∧ s.eot.get e = .fin x ∧
      Close (0.01037 * (|(u : ℝ) - t| / 86400e9) + rad (decError alg + eotError alg / 4) + 1.748e-4)
        (sunVec φ (declination (century u)) (-(hourAngle (century u) + rad l)))
        (sunVec φ (rad d) (-(2 * π * ((u : ℝ) / 86400e9) - π + x * (2 * π / 1440) + rad l))) := by
  obtain ⟨d, hd1, hd2⟩ := dec_rad h hk ht
  obtain ⟨x, hx1, k1, hx2⟩ := eot_rad h hk ht
  have herr := error_rad alg
  have hTu := century_bound hu
  have hTt := century_bound ht
  have D := Ephem.drift_dec hTu hTt
  obtain ⟨k2, E⟩ := Ephem.drift_eot hTu hTt
  rw [century_diff] at D E
  obtain ⟨k3, S⟩ := Ephem.sidereal_mean hTu (century_toSec u)
  have M := meanAngle_toSec u
  obtain ⟨X, hX⟩ : ∃ X, X = |(u : ℝ) - t| / 86400e9 := ⟨_, rfl⟩
  have hX0 : 0 ≤ X := by rw [hX]; positivity
  rw [← hX] at D E ⊢
  refine ⟨_, x, decDeg_fin hd1, hx1, ?_⟩
  rw [rad_deg]
  generalize (if alg = "psa" then (5.42e-4 : ℝ) else if alg = "soltrack" then 1.22e-4 else if alg = "nrel" then 3.3e-4 else 0.0185)
    = Ed at *
  generalize (if alg = "psa" then (7.9e-4 : ℝ) else if alg = "soltrack" then 6.4e-5 else if alg = "nrel" then 5.1e-4 else 0.00935)
    = Ee at *
  obtain ⟨ω, hω⟩ : ∃ ω, ω = 2 * π * ((u : ℝ) / 86400e9) - π + x * (2 * π / 1440) + rad l := ⟨_, rfl⟩
  rw [← hω]
  have c1 := close_dec φ (declination (century u)) (-(hourAngle (century u) + rad l)) (d - declination (century u))
  rw [add_sub_cancel] at c1
  have b1 : |d - declination (century u)| ≤ Ed + 288.7 * (X / 36525) := by
    rw [show d - declination (century u) = (d - declination (century t)) - (declination (century u) - declination (century t)) by ring]
    exact (abs_sub _ _).trans (add_le_add hd2 D)
  obtain ⟨y, hy⟩ : ∃ y, y = hourAngle (century u) + rad l - ω - (k2 - k1 - k3 : ℤ) * (2 * π) := ⟨_, rfl⟩
  have b2 : |y| ≤ 1.02e-4 + 7.28e-5 + Ee + 90 * (X / 36525) := by
    have e1 : y = (Ephem.meanLongitude (century u) - Ephem.rightAscension (century u)
          - (Ephem.meanLongitude (century t) - Ephem.rightAscension (century t)) - k2 * (2 * π))
        - (x * (2 * π / 1440) - (Ephem.meanLongitude (century t) - Ephem.rightAscension (century t)) - k1 * (2 * π))
        - (meanAngle (toSec u) + Ephem.meanLongitude (century u) - Ephem.siderealTime (century u) - k3 * (2 * π))
        + (meanAngle (toSec u) - (2 * π * ((u : ℝ) / 86400e9) - π)) := by
      rw [hy, hω]; unfold Ephem.hourAngle; push_cast; ring
    rw [e1]
    refine (abs_add_le _ _).trans ((add_le_add ((abs_sub _ _).trans (add_le_add ((abs_sub _ _).trans (add_le_add E hx2)) S)) M).trans ?_)
    linarith
  have c2 := close_hour φ d (-(hourAngle (century u) + rad l)) y
  have e2 : sunVec φ d (-(hourAngle (century u) + rad l) + y) = sunVec φ d (-ω) := by
    have : -(hourAngle (century u) + rad l) + y = -ω + ((-(k2 - k1 - k3) : ℤ) : ℝ) * (2 * π) := by
      rw [hy]; push_cast; ring
    rw [this]; unfold sunVec; rw [cos_add_int_mul_two_pi, sin_add_int_mul_two_pi]
  rw [e2] at c2
  refine ((c1.mono b1).trans (c2.mono b2)).mono ?_
  norm_num at herr ⊢; linarith

/-- the sine of a small angle in degrees -/
theorem sin_rad_ge {E : ℝ} (h0 : 0 ≤ E) (h1 : E ≤ 3.825) : rad E * 0.99888 ≤ sin (rad E) := by
  have p := pi_lt_d4
  have p0 := pi_pos
  have hr0 : 0 ≤ rad E := by unfold rad; positivity
  have hr : rad E ≤ 0.06677 := by
    unfold rad
    have : E * (π / 180) ≤ 3.825 * (3.1416 / 180) := by gcongr
    exact this.trans (by norm_num)
  rcases hr0.eq_or_lt with h | h
  · rw [← h]; simp
  · have := sin_gt_sub_cube h
    have h2 : rad E ^ 2 ≤ 0.06677 ^ 2 := pow_le_pow_left₀ hr0 hr 2
    have h3 : rad E ^ 3 = rad E * rad E ^ 2 := by ring
    have h4 : rad E * rad E ^ 2 ≤ rad E * 0.06677 ^ 2 := mul_le_mul_of_nonneg_left h2 hr0
    rw [h3] at this
    norm_num at h4 this ⊢; linarith

/-- a sun that is not below (above) the horizon of the day is nearly so for the other call -/
theorem day_up {uc1 uc2 : UseCase} {w1 w2 : World XR} {times1 times2 : Times} {lat1 lon1 lat2 lon2 : Coord XR}
    {alg1 eng1 alg2 eng2 : String} {refr1 refr2 : PyVal} {s1 s2 : Sunpos XR} {e1 e2 : Dim → Nat} {t u : Int} {φ l : ℝ}
    (h1 : call uc1 w1 times1 lat1 lon1 alg1 refr1 eng1 = .ok s1)
    (h2 : call uc2 w2 times2 lat2 lon2 alg2 refr2 eng2 = .ok s2) (hr2 : refr2 ≠ .pyTrue)
    (hk : stampAt times1.stamps (e1 .time) = some t) (ht : |t| < 2 ^ 63) (ha2 : At s2 times2 e2 u φ l)
    (hut : |(u : ℝ) - t| / 86400e9 ≤ 1.001) :
    ∃ d x z : ℝ, s1.decDeg.get e1 = .fin d ∧ s1.eot.get e1 = .fin x ∧ s2.zenithDeg.get e2 = .fin z ∧
      ∀ ω, ω = 2 * π * ((u : ℝ) / 86400e9) - π + x * (2 * π / 1440) + rad l →
        (-1e-7 ≤ sin (rad φ) * sin (rad d) + cos (rad φ) * cos (rad d) * cos ω →
          z ≤ 90 + dayError alg1 alg2 eng2 (|(u : ℝ) - t| / 86400e9)) ∧
        (sin (rad φ) * sin (rad d) + cos (rad φ) * cos (rad d) * cos ω ≤ 1e-7 →
          90 - dayError alg1 alg2 eng2 (|(u : ℝ) - t| / 86400e9) ≤ z) := by
  obtain ⟨d, x, hd, hx, c1⟩ := day_close (e := e1) h1 hk ht ha2.range (rad φ) l
  obtain ⟨z, a, B, hz, -, hB, hp, c2⟩ := position_close h2 hr2 ha2
  obtain ⟨z', hz', hz0, hz1⟩ := C13_range h2 ha2 (.inr (.inr hr2))
  obtain rfl : z' = z := XR.fin_inj.1 (hz'.symm.trans hz)
  refine ⟨d, x, z', hd, hx, hz, ?_⟩
  rintro ω rfl
  obtain ⟨X, hX⟩ : ∃ X, X = |(u : ℝ) - t| / 86400e9 := ⟨_, rfl⟩
  have hX0 : 0 ≤ X := by rw [hX]; positivity
  rw [← hX] at hut c1 ⊢
  obtain ⟨E0, E1⟩ := dayError_bound (alg1 := alg1) (alg2 := alg2) (eng2 := eng2) hX0 hut
  have hs := sin_rad_ge E0 E1
  have hup := (c2.trans c1) ⟨1, 0, 0⟩ (by simp [Vec.sq, Vec.dot])
  simp only [Vec.dot, dirVec, sunVec, one_mul, zero_mul, add_zero, cos_neg] at hup
  generalize sin (rad φ) * sin (rad d) + cos (rad φ) * cos (rad d) *
    cos (2 * π * ((u : ℝ) / 86400e9) - π + x * (2 * π / 1440) + rad l) = U at *
  have hsin : B + (0.01037 * X + rad (decError alg1 + eotError alg1 / 4) + 1.748e-4) + 1e-7
      ≤ sin (rad (dayError alg1 alg2 eng2 X)) := by
    refine le_trans ?_ hs
    have e : rad (dayError alg1 alg2 eng2 X) = rad 0.6 * X + rad (decError alg1 + eotError alg1 / 4)
      + rad (positionError alg2 eng2) + rad 0.02 := by unfold dayError rad; ring
    have hd0 : 0 ≤ decError alg1 + eotError alg1 / 4 ∧ decError alg1 + eotError alg1 / 4 ≤ 1.5975 := by
      unfold decError eotError; split_ifs <;> norm_num
    have hr : rad (decError alg1 + eotError alg1 / 4) ≤ 0.0279 := by
      have p := pi_lt_d4
      unfold rad
      have : (decError alg1 + eotError alg1 / 4) * (π / 180) ≤ 1.5975 * (3.1416 / 180) := by
        gcongr; exact hd0.2
      exact this.trans (by norm_num)
    have p := pi_gt_d6
    have r1 : 0.01047197 ≤ rad 0.6 := by unfold rad; norm_num at p ⊢; linarith
    have r2 : 3.4906e-4 ≤ rad 0.02 := by unfold rad; norm_num at p ⊢; linarith
    have r3 := mul_le_mul_of_nonneg_right r1 hX0
    rw [e]
    generalize rad (decError alg1 + eotError alg1 / 4) = p1 at *
    generalize rad (positionError alg2 eng2) = p2 at *
    generalize rad 0.6 * X = p3 at *
    generalize rad 0.02 = p4 at *
    norm_num at hp hr r2 r3 hB ⊢; linarith
  have p0 := pi_pos
  have hE' : rad (dayError alg1 alg2 eng2 X) ≤ π / 2 := by
    unfold rad; have : dayError alg1 alg2 eng2 X * (π / 180) ≤ 3.825 * (π / 180) := by gcongr
    norm_num at this ⊢; linarith
  have hE0 : 0 ≤ rad (dayError alg1 alg2 eng2 X) := by unfold rad; positivity
  obtain ⟨u1, u2⟩ := abs_le.1 hup
  constructor
  · intro hU
    by_contra hc
    push Not at hc
    have lt : cos (rad z') < cos (π / 2 + rad (dayError alg1 alg2 eng2 X)) := by
      refine cos_lt_cos_of_nonneg_of_le_pi (by positivity) ?_ ?_
      · unfold rad; have : z' * (π / 180) ≤ 180 * (π / 180) := by gcongr
        linarith
      · have : (90 + dayError alg1 alg2 eng2 X) * (π / 180) < z' * (π / 180) := by gcongr
        unfold rad; linarith
    rw [add_comm, cos_add_pi_div_two] at lt
    linarith
  · intro hU
    by_contra hc
    push Not at hc
    have lt : cos (π / 2 - rad (dayError alg1 alg2 eng2 X)) < cos (rad z') := by
      refine cos_lt_cos_of_nonneg_of_le_pi ?_ ?_ ?_
      · unfold rad; positivity
      · linarith
      · have : z' * (π / 180) < (90 - dayError alg1 alg2 eng2 X) * (π / 180) := by gcongr
        unfold rad; linarith
    rw [cos_pi_div_two_sub] at lt
    linarith

/-- an angle that is at most `ω` -/
theorem cos_ge_of_le {ω W η : ℝ} (h0 : 0 ≤ ω) (h1 : ω ≤ π) (h : |W| ≤ ω + η) (hη : 0 ≤ η) : cos ω - η ≤ cos W := by
  obtain ⟨V, hV⟩ : ∃ V, V = min |W| ω := ⟨_, rfl⟩
  have v0 : 0 ≤ V := by rw [hV]; exact le_min (abs_nonneg _) h0
  have v1 : V ≤ ω := by rw [hV]; exact min_le_right _ _
  have v2 : |(|W| - V)| ≤ η := by
    rw [hV]; rcases le_total |W| ω with hc | hc
    · rw [min_eq_left hc, sub_self, abs_zero]; exact hη
    · rw [min_eq_right hc, abs_of_nonneg (by linarith)]; linarith
  have c1 := cos_le_cos_of_nonneg_of_le_pi v0 h1 v1
  have c2 := abs_le.1 ((abs_cos_sub_cos_le |W| V).trans v2)
  rw [cos_abs] at c2
  linarith [c2.1]

/-- an angle between `ω` and a half turn -/
theorem cos_le_of_ge {ω W η : ℝ} (h0 : 0 ≤ ω) (h1 : ω ≤ π) (h : ω - η ≤ |W|) (h' : |W| ≤ π + η) (hη : 0 ≤ η) :
    cos W ≤ cos ω + η := by
  obtain ⟨V, hV⟩ : ∃ V, V = max ω (min |W| π) := ⟨_, rfl⟩
  have v0 : ω ≤ V := by rw [hV]; exact le_max_left _ _
  have v1 : V ≤ π := by rw [hV]; exact max_le h1 (min_le_right _ _)
  have v2 : |(|W| - V)| ≤ η := by
    rw [hV, abs_le]; rcases le_total |W| π with hc | hc
    · rw [min_eq_left hc]
      rcases le_total ω |W| with hd | hd
      · rw [max_eq_right hd]; constructor <;> linarith
      · rw [max_eq_left hd]; constructor <;> linarith
    · rw [min_eq_right hc, max_eq_right h1]; constructor <;> linarith
  have c1 := cos_le_cos_of_nonneg_of_le_pi h0 v1 v0
  have c2 := abs_le.1 ((abs_cos_sub_cos_le |W| V).trans v2)
  rw [cos_abs] at c2
  linarith [c2.2]

set_option maxHeartbeats 1000000 in
/-- C65: let `sunrise('utc')` and `sunset('utc')` of one call be, at the cell of the instant `t`, the latitude `φ` and
the longitude `l`, the instants `r` and `q`. Then the zenith angle that any other call (another algorithm, engine or
use case, without refraction) returns for the same place at an instant `u` is at most 90 degrees, up to the error
`dayError`, if `u` is between sunrise and sunset; and at least 90 degrees, up to the same error, if `u` is before
sunrise or after sunset and within 12 hours of solar noon (the middle of `r` and `q`). -/
theorem C65_day {uc1 uc2 : UseCase} {w w1 w2 : World XR} {times1 times2 : Times} {lat1 lon1 lat2 lon2 : Coord XR}
    {alg1 eng1 alg2 eng2 : String} {refr1 refr2 : PyVal} {s1 s2 : Sunpos XR} {e1 e2 : Dim → Nat} {t u r q : Int}
    {φ l : ℝ} {R S : DA (Option Int)}
    (h1 : call uc1 w1 times1 lat1 lon1 alg1 refr1 eng1 = .ok s1) (ha1 : At s1 times1 e1 t φ l)
    (hutc : stampAt s1.timesUtc (e1 .time) = some t) (hφ : |φ| < 90)
    (hR : s1.sunrise w "utc" = .ok (.time R)) (hS : s1.sunset w "utc" = .ok (.time S))
    (hr : R.get e1 = some r) (hq : S.get e1 = some q)
    (h2 : call uc2 w2 times2 lat2 lon2 alg2 refr2 eng2 = .ok s2) (hr2 : refr2 ≠ .pyTrue)
    (ha2 : At s2 times2 e2 u φ l) :
    ∃ z : ℝ, s2.zenithDeg.get e2 = .fin z ∧
      (r ≤ u → u ≤ q → z ≤ 90 + dayError alg1 alg2 eng2 (|(u : ℝ) - t| / 86400e9)) ∧
      (u ≤ r ∨ q ≤ u → r + q - 86400000000000 ≤ 2 * u → 2 * u ≤ r + q + 86400000000000 →
        90 - dayError alg1 alg2 eng2 (|(u : ℝ) - t| / 86400e9) ≤ z) := by
  obtain ⟨d, hd, hd', -⟩ := C17_declination (e := e1) h1 ha1.time ha1.range
  have hd90 : |d| < 90 := lt_of_le_of_lt hd' (by norm_num)
  obtain ⟨x, hx, -⟩ := C19_eot (e := e1) h1 ha1.time ha1.range
  obtain ⟨D, hD, hdl⟩ := daylight_get w s1
  obtain ⟨n1, -, n2⟩ := C28_sunset_minus_sunrise w s1 (u := "utc") (by decide) hR hS hD e1
  obtain ⟨v1, v2⟩ := wsr_fin ha1.lat hd hφ hd90
  have htt : |tan (rad φ) * tan (rad d)| ≤ 1 := by
    by_contra hc
    have := (n1 ((hdl e1).2 (v2 (not_le.1 hc)))).1
    rw [hr] at this; cases this
  have hw := v1 htt
  obtain ⟨ω, hω⟩ : ∃ ω, ω = arccos (-(tan (rad φ) * tan (rad d))) := ⟨_, rfl⟩
  have hcω : cos ω = -(tan (rad φ) * tan (rad d)) := by
    have := abs_le.1 htt
    rw [hω, cos_arccos (by linarith) (by linarith)]
  rw [← hω] at hw
  obtain ⟨ω0, ω1⟩ := wsr_mem hw
  have hv := (hdl e1).1 _ hw
  obtain ⟨v, hvd⟩ : ∃ v, v = 2 / 15 * (ω * (180 / π)) := ⟨_, rfl⟩
  rw [← hvd] at hv
  obtain ⟨τ, hτ, hτ1, -⟩ := C30_tst w s1 hutc hx ha1.lon
  obtain ⟨R', S', hR', hS'⟩ := (C27_sunset w s1).2.2.1 "tst" (by decide)
  obtain ⟨m, r', q', hm, hm1, hm2, hr', -, -, -, -, -, -, -, hrv⟩ := C29_symmetric w s1 hR' hS' hD hτ hv
  obtain ⟨k, hk1, hk2⟩ := (C31_utc w s1 hR' hR hx ha1.lon).2 _ hr'
  rw [hr] at hk1
  obtain rfl : r = r' - k := by cases hk1; rfl
  obtain ⟨hq1, hq2⟩ := n2 v _ hv hr
  rw [hq] at hq1
  obtain rfl : q = r' - k + ⌊v * 3600e9⌋ := by cases hq1; rfl
  -- the quantities in nanoseconds
  obtain ⟨y, hy⟩ : ∃ y, y = v / 2 * 3600e9 := ⟨_, rfl⟩
  obtain ⟨Δ, hΔ⟩ : ∃ Δ, Δ = (x + 4 * l) * 60e9 := ⟨_, rfl⟩
  have hπ := pi_pos
  have hyω : y * (2 * π / 86400e9) = ω := by rw [hy, hvd]; norm_num; field_simp; norm_num; ring
  have hy0 : 0 ≤ y := by rw [hy, hvd]; positivity
  have hy1 : y ≤ 43200e9 := by
    have : y * (2 * π / 86400e9) ≤ 43200e9 * (2 * π / 86400e9) := by
      rw [hyω]; norm_num; linarith
    exact le_of_mul_le_mul_right this (by positivity)
  have f1 := Int.floor_le (v * 3600e9)
  have f2 := Int.lt_floor_add_one (v * 3600e9)
  have hvy : v * 3600e9 = 2 * y := by rw [hy]; ring
  rw [hvy] at f1 f2 hq2 ⊢
  obtain ⟨fl, hfl⟩ : ∃ fl, fl = ⌊2 * y⌋ := ⟨_, rfl⟩
  rw [← hfl] at f1 f2 hq2 ⊢
  rw [← hy] at hrv
  rw [← hΔ] at hk2 hτ1
  obtain ⟨i1, i2⟩ := abs_le.1 hrv
  obtain ⟨i3, i4⟩ := abs_lt.1 hk2
  obtain ⟨i5, i6⟩ := abs_lt.1 hτ1
  push_cast at i1 i2
  have i7 : (m : ℝ) ≤ τ := by exact_mod_cast hm1
  have i8 : (τ : ℝ) < m + 86400000000000 := by exact_mod_cast hm2
  obtain ⟨g, hg⟩ : ∃ g : ℝ, g = (u : ℝ) + Δ - (m + 43200000000000) := ⟨_, rfl⟩
  -- bounds of the instant
  have in1 : r' - k ≤ u → u ≤ r' - k + fl → |g| ≤ y + 2 := by
    intro a b
    have a' : (r' : ℝ) - k ≤ u := by exact_mod_cast a
    have b' : (u : ℝ) ≤ r' - k + fl := by exact_mod_cast b
    rw [abs_le, hg]; constructor <;> linarith
  have out1 : u ≤ r' - k ∨ r' - k + fl ≤ u → y - 3 ≤ |g| := by
    rintro (a | a)
    · have a' : (u : ℝ) ≤ r' - k := by exact_mod_cast a
      have := neg_abs_le g
      rw [hg] at this ⊢; linarith
    · have a' : (r' : ℝ) - k + fl ≤ u := by exact_mod_cast a
      have := le_abs_self g
      rw [hg] at this ⊢; linarith
  have out2 : r' - k + (r' - k + fl) - 86400000000000 ≤ 2 * u → 2 * u ≤ r' - k + (r' - k + fl) + 86400000000000 →
      |g| ≤ 43200e9 + 3 := by
    intro a b
    have a' : (r' : ℝ) - k + (r' - k + fl) - 86400000000000 ≤ 2 * u := by exact_mod_cast a
    have b' : 2 * (u : ℝ) ≤ r' - k + (r' - k + fl) + 86400000000000 := by exact_mod_cast b
    rw [abs_le, hg]; norm_num; constructor <;> linarith
  have hut : |g| ≤ 43200e9 + 3 → |(u : ℝ) - t| / 86400e9 ≤ 1.001 := by
    intro a
    obtain ⟨a1, a2⟩ := abs_le.1 a
    rw [div_le_iff₀ (by norm_num), abs_le]
    rw [hg] at a1 a2
    norm_num at a1 a2 ⊢; constructor <;> linarith
  have hgy : |g| ≤ y + 2 → |g| ≤ 43200e9 + 3 := by
    intro a; norm_num at hy1 ⊢; linarith
  obtain ⟨j, hj⟩ : ∃ j, m = 86400000000000 * j := ⟨m / 86400000000000, by omega⟩
  have hW : 2 * π * ((u : ℝ) / 86400e9) - π + x * (2 * π / 1440) + rad l
      = g * (2 * π / 86400e9) + (j : ℤ) * (2 * π) := by
    rw [hg, hΔ, hj]; unfold rad; push_cast; norm_num; ring
  have c1 := (rtan_rad hφ).2
  have c2 := (rtan_rad hd90).2
  have hcc1 : cos (rad φ) * cos (rad d) ≤ 1 := mul_le_one₀ (cos_le_one _) c2.le (cos_le_one _)
  have hcc0 : 0 < cos (rad φ) * cos (rad d) := mul_pos c1 c2
  have hup : ∀ X : ℝ, sin (rad φ) * sin (rad d) + cos (rad φ) * cos (rad d) * X
      = cos (rad φ) * cos (rad d) * (X - cos ω) := by
    intro X; rw [hcω, tan_eq_sin_div_cos, tan_eq_sin_div_cos]; field_simp; ring
  have habs : |g * (2 * π / 86400e9)| = |g| * (2 * π / 86400e9) := by
    rw [abs_mul, abs_of_pos (by positivity : 0 < 2 * π / 86400e9)]
  have hs : 3 * (2 * π / 86400e9) ≤ 3e-13 := by
    have p := pi_lt_d4
    norm_num at p ⊢; linarith
  by_cases hb : |g| ≤ 43200e9 + 3
  · obtain ⟨d', x', z, hd1, hx1, hz, hall⟩ := day_up (e1 := e1) h1 h2 hr2 ha1.time ha1.range ha2 (hut hb)
    obtain rfl : d = d' := XR.fin_inj.1 (hd.symm.trans hd1)
    obtain rfl : x = x' := XR.fin_inj.1 (hx.symm.trans hx1)
    obtain ⟨g1, g2⟩ := hall _ rfl
    rw [hW, cos_add_int_mul_two_pi, hup] at g1 g2
    refine ⟨z, hz, fun a b => g1 ?_, fun a b c => g2 ?_⟩
    · have hc : cos ω - 3e-13 ≤ cos (g * (2 * π / 86400e9)) := by
        refine cos_ge_of_le ω0 ω1 ?_ (by norm_num)
        rw [habs]
        have := mul_le_mul_of_nonneg_right (in1 a b) (by positivity : 0 ≤ 2 * π / 86400e9)
        rw [add_mul, hyω] at this
        linarith [(by positivity : 0 ≤ 2 * π / 86400e9)]
      have := mul_le_mul_of_nonneg_left (sub_le_sub_right hc (cos ω)) hcc0.le
      refine le_trans ?_ this
      norm_num at hcc1 ⊢; linarith
    · have hc : cos (g * (2 * π / 86400e9)) ≤ cos ω + 3e-13 := by
        refine cos_le_of_ge ω0 ω1 ?_ ?_ (by norm_num) <;> rw [habs]
        · have := mul_le_mul_of_nonneg_right (out1 a) (by positivity : 0 ≤ 2 * π / 86400e9)
          rw [sub_mul, hyω] at this
          linarith
        · have := mul_le_mul_of_nonneg_right hb (by positivity : 0 ≤ 2 * π / 86400e9)
          rw [add_mul] at this
          have e : 43200e9 * (2 * π / 86400e9) = π := by norm_num; ring
          rw [e] at this
          linarith
      have := mul_le_mul_of_nonneg_left (sub_le_sub_right hc (cos ω)) hcc0.le
      refine le_trans this ?_
      norm_num at hcc1 ⊢; linarith
  · obtain ⟨z, hz, -⟩ := C13_range h2 ha2 (.inr (.inr hr2))
    refine ⟨z, hz, fun a b => absurd (hgy (in1 a b)) hb, fun _ b c => absurd (out2 b c) hb⟩

/-- C65, polar day and polar night: if `sunrise('utc')` of one call is NaT at the cell of the instant `t`, the latitude
`φ` and the longitude `l`, and the declination there is `d`, then at every instant `u` within a day of `t` the zenith
angle that any other call returns for that place is at most 90 degrees, up to the error `dayError`, if `φ` and `d` have
the same sign, and at least 90 degrees, up to that error, if they have opposite signs. -/
theorem C65_polar {uc1 uc2 : UseCase} {w w1 w2 : World XR} {times1 times2 : Times} {lat1 lon1 lat2 lon2 : Coord XR}
    {alg1 eng1 alg2 eng2 : String} {refr1 refr2 : PyVal} {s1 s2 : Sunpos XR} {e1 e2 : Dim → Nat} {t u : Int}
    {φ l d : ℝ} {R : DA (Option Int)}
    (h1 : call uc1 w1 times1 lat1 lon1 alg1 refr1 eng1 = .ok s1) (ha1 : At s1 times1 e1 t φ l)
    (hutc : stampAt s1.timesUtc (e1 .time) = some t) (hd : s1.decDeg.get e1 = .fin d)
    (hR : s1.sunrise w "utc" = .ok (.time R)) (hr : R.get e1 = none)
    (h2 : call uc2 w2 times2 lat2 lon2 alg2 refr2 eng2 = .ok s2) (hr2 : refr2 ≠ .pyTrue)
    (ha2 : At s2 times2 e2 u φ l) (hday : |u - t| ≤ 86400000000000) :
    ∃ z : ℝ, s2.zenithDeg.get e2 = .fin z ∧
      (0 < φ * d → z ≤ 90 + dayError alg1 alg2 eng2 (|(u : ℝ) - t| / 86400e9)) ∧
      (φ * d < 0 → 90 - dayError alg1 alg2 eng2 (|(u : ℝ) - t| / 86400e9) ≤ z) := by
  have hday' : |(u : ℝ) - t| / 86400e9 ≤ 1.001 := by
    have : |(u : ℝ) - t| ≤ 86400000000000 := by exact_mod_cast hday
    rw [div_le_iff₀ (by norm_num)]; norm_num; linarith
  obtain ⟨d', x, z, hd1, hx1, hz, hall⟩ := day_up (e1 := e1) h1 h2 hr2 ha1.time ha1.range ha2 hday'
  obtain rfl : d = d' := XR.fin_inj.1 (hd.symm.trans hd1)
  obtain ⟨d', hd2, hdb, -⟩ := C17_declination (e := e1) h1 ha1.time ha1.range
  obtain rfl : d = d' := XR.fin_inj.1 (hd.symm.trans hd2)
  have hd90 : |d| < 90 := lt_of_le_of_lt hdb (by norm_num)
  obtain ⟨-, hφ, -, -⟩ := at_cases h1 ha1
  have hπ := pi_pos
  -- the horizontal component of the motion is smaller
  have key : cos (rad φ) * cos (rad d) ≤ |sin (rad φ) * sin (rad d)| := by
    by_cases h90 : |φ| < 90
    · obtain ⟨v1, v2⟩ := wsr_fin ha1.lat hd h90 hd90
      have c1 := (rtan_rad h90).2
      have c2 := (rtan_rad hd90).2
      have htt : 1 < |tan (rad φ) * tan (rad d)| := by
        by_contra hc
        have hw := v1 (not_lt.1 hc)
        obtain ⟨τ, hτ, -⟩ := C30_tst w s1 hutc hx1 ha1.lon
        obtain ⟨D, hD, hdl⟩ := daylight_get w s1
        have hv := (hdl e1).1 _ hw
        obtain ⟨R', S', hR', hS'⟩ := (C27_sunset w s1).2.2.1 "tst" (by decide)
        obtain ⟨m, r', q', -, -, -, hr', -⟩ := C29_symmetric w s1 hR' hS' hD hτ hv
        obtain ⟨k, hk1, hk2⟩ := (C31_utc w s1 hR' hR hx1 ha1.lon).2 _ hr'
        rw [hr] at hk1; cases hk1
      rw [tan_eq_sin_div_cos, tan_eq_sin_div_cos, div_mul_div_comm, abs_div, abs_of_pos (mul_pos c1 c2),
        one_lt_div (mul_pos c1 c2)] at htt
      exact htt.le
    · have : cos (rad φ) = 0 := by
        have h3 : |φ| = 90 := le_antisymm (abs_le.2 hφ) (not_lt.1 h90)
        rcases eq_or_eq_neg_of_abs_eq h3 with rfl | rfl
        · have : rad 90 = π / 2 := by unfold rad; ring
          rw [this, cos_pi_div_two]
        · have : rad (-90) = -(π / 2) := by unfold rad; ring
          rw [this, cos_neg, cos_pi_div_two]
      rw [this, zero_mul]; exact abs_nonneg _
  obtain ⟨g1, g2⟩ := hall _ rfl
  have hcc0 : 0 ≤ cos (rad φ) * cos (rad d) := by
    refine mul_nonneg (cos_nonneg_of_mem_Icc ⟨?_, ?_⟩) (rtan_rad hd90).2.le <;> unfold rad <;>
      nlinarith [hφ.1, hφ.2]
  have hcos : ∀ W : ℝ, |cos (rad φ) * cos (rad d) * cos W| ≤ |sin (rad φ) * sin (rad d)| := by
    intro W
    rw [abs_mul, abs_of_nonneg hcc0]
    exact (mul_le_of_le_one_right hcc0 (abs_cos_le_one _)).trans key
  have sgn : ∀ {y : ℝ}, |y| ≤ 90 → (0 < y → 0 < sin (rad y)) ∧ (y < 0 → sin (rad y) < 0) := by
    intro y hy
    obtain ⟨a, b⟩ := abs_le.1 hy
    constructor
    · intro h; refine sin_pos_of_pos_of_lt_pi ?_ ?_ <;> unfold rad
      · positivity
      · nlinarith
    · intro h; refine sin_neg_of_neg_of_neg_pi_lt ?_ ?_ <;> unfold rad <;> nlinarith
  obtain ⟨p1, p2⟩ := sgn (abs_le.2 hφ)
  obtain ⟨p3, p4⟩ := sgn hd90.le
  refine ⟨z, hz, fun h => g1 ?_, fun h => g2 ?_⟩
  · have hs : 0 < sin (rad φ) * sin (rad d) := by
      rcases pos_and_pos_or_neg_and_neg_of_mul_pos h with ⟨a, b⟩ | ⟨a, b⟩
      · exact mul_pos (p1 a) (p3 b)
      · exact mul_pos_of_neg_of_neg (p2 a) (p4 b)
    have := hcos (2 * π * ((u : ℝ) / 86400e9) - π + x * (2 * π / 1440) + rad l)
    rw [abs_of_pos hs] at this
    have := (abs_le.1 this).1
    norm_num; linarith
  · have hs : sin (rad φ) * sin (rad d) < 0 := by
      rcases mul_neg_iff.1 h with ⟨a, b⟩ | ⟨a, b⟩
      · exact mul_neg_of_pos_of_neg (p1 a) (p4 b)
      · exact mul_neg_of_neg_of_pos (p2 a) (p3 b)
    have := hcos (2 * π * ((u : ℝ) / 86400e9) - π + x * (2 * π / 1440) + rad l)
    rw [abs_of_neg hs] at this
    have := (abs_le.1 this).2
    norm_num; linarith

/-! ### the hypotheses are met -/

/-- A day for C65_day: at an equatorial site, for any two algorithms, sunrise and sunset are instants, and any other
instant of `datetime64[ns]` has a cell at the same site. -/
example (uc1 uc2 : UseCase) {alg1 eng1 alg2 eng2 : String} (hk1 : KnownPair alg1 eng1) (hk2 : KnownPair alg2 eng2)
    {t : Int} (ht : |t| < 2 ^ 63) :
    ∃ (s1 : Sunpos XR) (R S : DA (Option Int)) (r q : Int),
      call uc1 exWorld (oneTime t) (.vec [.fin 0]) (.vec [.fin (-4.5)]) alg1 .pyTrue eng1 = .ok s1 ∧
      At s1 (oneTime t) (fun _ => 0) t 0 (-4.5) ∧ stampAt s1.timesUtc 0 = some t ∧
      s1.sunrise exWorld "utc" = .ok (.time R) ∧ s1.sunset exWorld "utc" = .ok (.time S) ∧
      R.get (fun _ => 0) = some r ∧ S.get (fun _ => 0) = some q ∧
      ∀ u : Int, |u| < 2 ^ 63 → ∃ s2 : Sunpos XR,
        call uc2 exWorld (oneTime u) (.vec [.fin 0]) (.vec [.fin (-4.5)]) alg2 .pyFalse eng2 = .ok s2 ∧
        At s2 (oneTime u) (fun _ => 0) u 0 (-4.5) := by
  obtain ⟨s, d, x, D, τ, T, r, hs, hlat, hlon, hd, hd', hx, hu, -, hD, hDv, hτ, hT, hr⟩ :=
    example_sunrise uc1 hk1 .pyTrue ht
  obtain ⟨s', hs', ha⟩ := single_call uc1 hk1 .pyTrue ht (φ := 0) (l := -4.5) (by norm_num) (by norm_num)
  obtain rfl : s = s' := Except.ok.inj (hs.symm.trans hs')
  obtain ⟨R, S, hR, hS⟩ := (C27_sunset exWorld s).2.2.1 "utc" (by decide)
  obtain ⟨k, hk, -⟩ := (C31_utc exWorld s hT hR hx hlon).2 _ hr
  obtain ⟨-, -, n⟩ := C28_sunset_minus_sunrise exWorld s (u := "utc") (by decide) hR hS hD (fun _ => 0)
  exact ⟨s, R, S, _, _, hs, ha, hu, hR, hS, hk, (n _ _ hDv hk).1, fun u hu =>
    single_call uc2 hk2 .pyFalse hu (φ := 0) (l := -4.5) (by norm_num) (by norm_num)⟩

/-- noon of 1 January 2000, UTC: the sun of the reference is well south of the equator -/
theorem dec_2000 : century 946728000000000000 = 0 ∧ declination 0 ≤ -0.38 := by
  refine ⟨by unfold Ephem.century; norm_num, ?_⟩
  have h0 : |(0 : ℝ)| ≤ 3.24 := by norm_num
  have L := abs_le.1 (Ephem.meanLongitude_num h0)
  have e := Ephem.ecc_bound h0
  have o := Ephem.obliquity_bound h0
  have c : |Ephem.center 0| ≤ 0.0346 := by
    unfold Ephem.center
    refine (abs_add_le _ _).trans ((add_le_add (abs_mul_sin_le _ _) (abs_mul_sin_le _ _)).trans ?_)
    have h1 : |2 * Ephem.eccentricity 0| ≤ 0.0337 := by
      rw [abs_le]; norm_num at e ⊢; constructor <;> linarith [e.1, e.2]
    have h2 : |5 / 4 * Ephem.eccentricity 0 ^ 2| ≤ 0.0004 := by
      rw [abs_le]; norm_num at e ⊢; constructor <;> nlinarith [e.1, e.2]
    norm_num at h1 h2 ⊢; linarith
  obtain ⟨c1, c2⟩ := abs_le.1 c
  have p1 := pi_gt_d4
  have p2 := pi_lt_d4
  have hl : sin (Ephem.longitude 0) ≤ -0.975 := by
    have e1 : sin (Ephem.longitude 0) = -cos (Ephem.longitude 0 - 3 * π / 2) := by
      have : Ephem.longitude 0 = (Ephem.longitude 0 - 3 * π / 2) + π + π / 2 := by ring
      rw [this, sin_add_pi_div_two, cos_add_pi]; congr 1; ring
    rw [e1]
    have b : |Ephem.longitude 0 - 3 * π / 2| ≤ 0.22 := by
      unfold Ephem.longitude
      rw [abs_le]; norm_num at L c1 c2 p1 p2 ⊢; constructor <;> linarith [L.1, L.2]
    have b2 : (Ephem.longitude 0 - 3 * π / 2) ^ 2 ≤ 0.22 ^ 2 := by
      rw [← sq_abs]; exact pow_le_pow_left₀ (abs_nonneg _) b 2
    have := one_sub_sq_div_two_le_cos (x := Ephem.longitude 0 - 3 * π / 2)
    norm_num at b2 this ⊢; linarith
  have ho : 0.396 ≤ sin (Ephem.obliquity 0) := by
    have h1 : sin 0.408 ≤ sin (Ephem.obliquity 0) := by
      refine sin_le_sin_of_le_of_le_pi_div_two ?_ ?_ o.1 <;> norm_num at o p1 ⊢ <;> linarith [o.1, o.2]
    refine le_trans ?_ h1
    have := sin_gt_sub_cube (x := 0.408) (by norm_num)
    norm_num at this ⊢; linarith
  have hb : sin (Ephem.obliquity 0) * sin (Ephem.longitude 0) ≤ -0.38 := by
    generalize sin (Ephem.obliquity 0) = a at *
    generalize sin (Ephem.longitude 0) = b at *
    norm_num at ho hl ⊢; nlinarith
  unfold Ephem.declination
  refine (arcsin_le_iff_le_sin' ⟨?_, ?_⟩).2 (hb.trans ?_)
  · norm_num at p1 ⊢; linarith
  · norm_num at p1 ⊢; linarith
  · rw [sin_neg]; have := sin_le (x := (0.38 : ℝ)) (by norm_num); linarith

/-- A polar night and a polar day for C65_polar: noon of 1 January 2000 at the latitudes 89 and -89, with every
algorithm. -/
example (uc : UseCase) {alg eng : String} (hk : KnownPair alg eng) {φ : ℝ} (hφ : φ = 89 ∨ φ = -89) :
    ∃ (s : Sunpos XR) (d : ℝ) (R : DA (Option Int)),
      call uc exWorld (oneTime 946728000000000000) (.vec [.fin φ]) (.vec [.fin (-4.5)]) alg .pyTrue eng = .ok s ∧
      At s (oneTime 946728000000000000) (fun _ => 0) 946728000000000000 φ (-4.5) ∧
      stampAt s.timesUtc 0 = some 946728000000000000 ∧
      s.decDeg.get (fun _ => 0) = .fin d ∧ d < 0 ∧
      s.sunrise exWorld "utc" = .ok (.time R) ∧ R.get (fun _ => 0) = none := by
  have h90 : |φ| < 90 := by rcases hφ with rfl | rfl <;> norm_num
  have ht : |(946728000000000000 : Int)| < 2 ^ 63 := by norm_num
  obtain ⟨s, hs, ha⟩ := single_call uc hk .pyTrue ht (φ := φ) (l := -4.5)
    ⟨by linarith [(abs_lt.1 h90).1], by linarith [(abs_lt.1 h90).2]⟩ (by norm_num)
  obtain ⟨d, hd, hdr⟩ := C54_declination (e := fun _ => 0) hs ha.time ha.range
  rw [dec_2000.1] at hdr
  have hdec := dec_2000.2
  have hdd := (abs_le.1 hdr).2
  have hE : rad (decError alg) ≤ rad 1.06 := by
    unfold rad
    have : decError alg ≤ 1.06 := by unfold decError; split_ifs <;> norm_num
    have hp := pi_pos
    gcongr
  have p1 := pi_gt_d4
  have p2 := pi_lt_d4
  have hd20 : d ≤ -20 := by
    by_contra hc
    push Not at hc
    have : rad (-20) < rad d := by unfold rad; have hp := pi_pos; gcongr
    unfold rad at hE hdd this
    norm_num at hE hdec p1 p2 this
    generalize decError alg * (π / 180) = p at *
    generalize d * (π / 180) = q at *
    linarith
  obtain ⟨d', hd2, hdb, -⟩ := C17_declination (e := fun _ => 0) hs ha.time ha.range
  obtain rfl : d = d' := XR.fin_inj.1 (hd.symm.trans hd2)
  have hd90 : |d| < 90 := lt_of_le_of_lt hdb (by norm_num)
  have htt : 1 < |tan (rad φ) * tan (rad d)| := by
    have e : tan (rad 89) = (tan (rad 1))⁻¹ := by
      rw [← tan_pi_div_two_sub]; congr 1; unfold rad; ring
    have h1 : 0 < tan (rad 1) := tan_pos_of_pos_of_lt_pi_div_two (by unfold rad; positivity)
      (by unfold rad; nlinarith)
    have h2 : tan (rad 1) < tan (rad (-d)) := tan_lt_tan_of_lt_of_lt_pi_div_two
      (by unfold rad; nlinarith) (by unfold rad; nlinarith [(abs_lt.1 hd90).1]) (by unfold rad; nlinarith)
    have h3 : 1 < tan (rad 89) * tan (rad (-d)) := by
      rw [e, inv_mul_eq_div, one_lt_div h1]; exact h2
    have en : ∀ y, rad (-y) = -rad y := fun y => by unfold rad; ring
    have : |tan (rad φ) * tan (rad d)| = |tan (rad 89) * tan (rad (-d))| := by
      rcases hφ with rfl | rfl
      · rw [en, tan_neg, mul_neg, abs_neg]
      · rw [en, en, tan_neg, tan_neg, mul_neg, neg_mul]
    rw [this]; exact h3.trans_le (le_abs_self _)
  have hw := (wsr_fin ha.lat hd h90 hd90).2 htt
  obtain ⟨D, hD, hdl⟩ := daylight_get exWorld s
  obtain ⟨R, S, hR, hS⟩ := (C27_sunset exWorld s).2.2.1 "utc" (by decide)
  obtain ⟨n, -⟩ := C28_sunset_minus_sunrise exWorld s (u := "utc") (by decide) hR hS hD (fun _ => 0)
  have hu := (C12_naive hs rfl).1
  exact ⟨s, d, R, hs, ha, by rw [hu]; rfl, hd, by linarith, hR, (n ((hdl _).2 hw)).1⟩

end SW.Props
