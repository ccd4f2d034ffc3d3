/-
C73: day and night in the default call (with refraction), against the reference ephemeris of Verif/Ephem.lean.
-/
import Verif.Props.RefrAccuracy
import Verif.RSign

namespace SW.Props
open SW.Spec Real Sunpos
open SW.Ephem (century declination hourAngle)

/-- how far below the horizon, in degrees, refraction may show the sun above it: 0.58 degrees (34.8 arcminutes), and 0.78
degrees for the formula of iqbal -/
noncomputable def horizonDip (alg : String) : ℝ := if alg = "iqbal" then 0.78 else 0.58

/-- the same in radians -/
noncomputable def dipRad (alg : String) : ℝ := if alg = "iqbal" then 0.0136 else 0.0101

/-- on which side of the horizon the refracted cell is -/
theorem refracted_side {alg eng : String} {uc uc' : UseCase} {w w' : World XR} {times times' : Times}
    {latitude longitude latitude' longitude' : Coord XR} {refr : PyVal} {s s' : Sunpos XR} {e e' : Dim → Nat} {t : Int} {φ l : ℝ}
    (h : call uc w times latitude longitude alg refr eng = .ok s) (hr : refr ≠ .pyTrue)
    (h' : call uc' w' times' latitude' longitude' alg .pyTrue eng = .ok s')
    (ha : At s times e t φ l) (ha' : At s' times' e' t φ l) :
    ∃ z0 : ℝ, s.zenith.get e = .fin z0 ∧ 0 ≤ z0 ∧ z0 ≤ π ∧
      (z0 < π / 2 → ∃ z : ℝ, s'.zenith.get e' = .fin z ∧ z < π / 2 ∧ z0 - 0.0112 ≤ z) ∧
      (π / 2 + dipRad alg ≤ z0 → (alg = "soltrack" → 1.2e-3 ≤ |π / 2 - z0 + 8.92e-2|) →
        ∃ z : ℝ, s'.zenith.get e' = .fin z ∧ π / 2 + 5e-6 < z ∧ z ≤ z0 + 0.0132) := by
  obtain ⟨ht, hφ, hl, hc⟩ := at_cases h ha
  obtain ⟨-, -, -, hc'⟩ := at_cases h' ha'
  rw [notTrue hr] at hc
  have hp := pi_gt_d2
  have psa : ∀ z : ℝ, 0 ≤ z → (z < π / 2 → Psa.refract z < π / 2 ∧ z - 0.0112 ≤ Psa.refract z) ∧
      (π / 2 + 0.0101 ≤ z → π / 2 + 5e-6 < Psa.refract z ∧ Psa.refract z ≤ z + 0.0132) := by
    intro z hz0
    rw [Psa.refract_real]
    split_ifs with hz
    · have hD : Refr.Dom (π / 2 - z) := ⟨hz, by linarith⟩
      have hb := Refr.corr_bounds (κ := 1.7802e-2) (by norm_num) (by norm_num) hD
      refine ⟨fun h1 => ⟨?_, ?_⟩, fun h1 => ⟨?_, ?_⟩⟩
      · have := Refr.up (κ := 1.7802e-2) (e := π / 2 - z) (by norm_num) (by norm_num) (by linarith) (by linarith); linarith
      · norm_num at *; linarith
      · have := Refr.down (κ := 1.7802e-2) (by norm_num) (by norm_num) hD (by linarith); linarith
      · norm_num at *; linarith
    · refine ⟨fun h1 => absurd (by norm_num; linarith) hz, fun h1 => ⟨?_, ?_⟩⟩ <;> norm_num at * <;> linarith
  rcases hc with ⟨rfl, rfl, hc⟩ | ⟨rfl, rfl, hc⟩ | ⟨rfl, hc⟩ | ⟨rfl, hc⟩ | ⟨rfl, hc⟩ <;>
    simp only [String.reduceEq, false_and, true_and, or_false, false_or] at hc' <;>
    simp only [dipRad, String.reduceEq, if_true, if_false, false_implies, forall_true_left]
  · rw [Psa.cellPy_eq] at hc hc'
    refine ⟨_, hc.1, (psa_zen_mem false _).1, (psa_zen_mem false _).2, fun hz => ⟨_, hc'.1, ?_⟩, fun hz => ⟨_, hc'.1, ?_⟩⟩
    · exact (psa _ (psa_zen_mem false _).1).1 hz
    · exact (psa _ (psa_zen_mem false _).1).2 hz
  · rw [Psa.cellNe_real] at hc hc'
    refine ⟨_, hc.1, (psa_zen_mem false _).1, (psa_zen_mem false _).2, fun hz => ⟨_, hc'.1, ?_⟩, fun hz => ⟨_, hc'.1, ?_⟩⟩
    · exact (psa _ (psa_zen_mem false _).1).1 hz
    · exact (psa _ (psa_zen_mem false _).1).2 hz
  · obtain ⟨E, hE⟩ : ∃ E, E = Soltrack.altP (rad φ) (Soltrack.decAt (toSec t)) (Soltrack.H0 (toSec t) + rad l) := ⟨_, rfl⟩
    have hpx := parallax_mem (k := 4.2635e-5) (arccos_nonneg (sin (rad φ) * sin (Soltrack.decAt (toSec t))
      + cos (rad φ) * cos (Soltrack.decAt (toSec t)) * cos (Soltrack.H0 (toSec t) + rad l)))
      (arccos_le_pi _) (by norm_num) (by norm_num)
    have hm : 0 ≤ π / 2 - E ∧ π / 2 - E ≤ π := by rw [hE, Soltrack.altP_eq]; exact ⟨hpx.1, hpx.2.1⟩
    have hz0 := hc.1.trans (Soltrack.zen_false _ _ _)
    rw [← hE] at hz0
    have hz1 : s'.zenith.get e' = HALFPI - Soltrack.refract (XR.fin E) := by rw [hc'.1, hE]; rfl
    refine ⟨_, hz0, hm.1, hm.2, fun hz => ?_, fun hz hpole => ?_⟩
    · have hD : SolRefr.Dom E := ⟨by norm_num; linarith, by linarith [hm.1]⟩
      rw [Soltrack.refract_fin hD, XR.HALFPI_fin, XR.sub_fin, HALFPI_real, Soltrack.refract_real] at hz1
      refine ⟨_, hz1, ?_, ?_⟩
      · have := SolRefr.up (κ := 1.7802e-2) (e := E) (by norm_num) (by norm_num) (by linarith) hD.2; linarith
      · have := (SolRefr.corr_bounds (κ := 1.7802e-2) (by norm_num) (by norm_num) hD).2
        norm_num at *; linarith
    · rw [sub_sub_cancel] at hpole
      obtain ⟨d1, d2, d3⟩ := SolRefr.down (e := E) (by linarith [hm.2]) (by linarith) hpole
      have hne : E + 8.92e-2 ≠ 0 := by
        intro h0; rw [h0, abs_zero] at hpole; norm_num at hpole
      rw [Soltrack.refract_fin' hne d1, XR.HALFPI_fin, XR.sub_fin, HALFPI_real, Soltrack.refract_real] at hz1
      exact ⟨_, hz1, by linarith, by linarith⟩
  · obtain ⟨z, hzz⟩ : ∃ z, z = Iqbal.zenR (rad φ) (Iqbal.decAt (toSec t)) (Iqbal.H0 (toSec t) + rad l) := ⟨_, rfl⟩
    have hz0 : 0 ≤ z := by rw [hzz]; exact arccos_nonneg _
    have hzπ : z ≤ π := by rw [hzz]; exact arccos_le_pi _
    have e1 : (iqbOut (toSec t) l φ false).zenith = z := hzz.symm
    have e2 : (iqbOut (toSec t) l φ PyVal.pyTrue.isTrue).zenith = z - Iqbal.refcor (π / 2 - z) := by
      rw [← Iqbal.refract_real, hzz]; rfl
    have hb := Iqbal.refcor_bounds (x := π / 2 - z) (by linarith) (by linarith)
    have c1 : s.zenith.get e = XR.fin (iqbOut (toSec t) l φ false).zenith := hc.1
    have c1' : s'.zenith.get e' = XR.fin (iqbOut (toSec t) l φ PyVal.pyTrue.isTrue).zenith := hc'.1
    rw [e1] at c1
    rw [e2] at c1'
    refine ⟨_, c1, hz0, hzπ, fun hz => ⟨_, c1', ?_, ?_⟩, fun hz => ⟨_, c1', ?_, ?_⟩⟩
    · have := Iqbal.up (x := π / 2 - z) (by linarith); linarith
    · have := hb.2 (by linarith); norm_num at *; linarith
    · have := Iqbal.down (x := π / 2 - z) (by linarith); norm_num at *; linarith
    · norm_num at *; linarith
  · have e1 : ∃ p d k : ℝ, (∀ r : Bool, (Nrel.cell (toSec t) l φ r).zenith
        = HALFPI - Nrel.withRefr r (Nrel.elev p d k)) := ⟨_, _, _, fun _ => rfl⟩
    obtain ⟨p, d, k, hk⟩ := e1
    obtain ⟨E, hE⟩ : ∃ E, E = Nrel.elev p d k := ⟨_, rfl⟩
    have hE1 : E ≤ π / 2 := by rw [hE]; exact arcsin_le_pi_div_two _
    have hE0 : -(π / 2) ≤ E := by rw [hE]; exact neg_pi_div_two_le_arcsin _
    have c1 : s.zenith.get e = XR.fin (Nrel.cell (toSec t) l φ false).zenith := hc.1
    have c1' : s'.zenith.get e' = XR.fin (Nrel.cell (toSec t) l φ PyVal.pyTrue.isTrue).zenith := hc'.1
    have e2 : (HALFPI - Nrel.withRefr false (Nrel.elev p d k) : ℝ) = π / 2 - E := by
      rw [HALFPI_real, hE]; rfl
    have e3 : (HALFPI - Nrel.withRefr PyVal.pyTrue.isTrue (Nrel.elev p d k) : ℝ) = π / 2 - Nrel.refract E := by
      rw [HALFPI_real, hE]; rfl
    rw [hk, e2] at c1
    rw [hk, e3, Nrel.refract_real] at c1'
    have hkb := Nrel.kap_bound
    have hk0 : 0 < (Nrel.kap : ℝ) := lt_of_lt_of_le (by norm_num) hkb.1
    have hk1 : (Nrel.kap : ℝ) ≤ 0.0179 := hkb.2.trans (by norm_num)
    refine ⟨_, c1, by linarith, by linarith, fun hz => ⟨_, c1', ?_⟩, fun hz => ⟨_, c1', ?_⟩⟩
    · have hD : Refr.Dom E := ⟨by norm_num; linarith, hE1⟩
      rw [if_pos hD.1]
      have hb := (Refr.corr_bounds hk0.le hk1 hD).2
      have := Refr.up hk0 hk1 (by linarith) hE1
      generalize Refr.corr Nrel.kap E = X at *
      constructor <;> norm_num at * <;> linarith
    · split_ifs with hlow
      · have hD : Refr.Dom E := ⟨hlow, hE1⟩
        have hb := (Refr.corr_bounds hk0.le hk1 hD).1
        have := Refr.down hk0.le hk1 hD (by linarith)
        generalize Refr.corr Nrel.kap E = X at *
        constructor <;> norm_num at * <;> linarith
      · constructor <;> norm_num at * <;> linarith


/-- the true zenith angle of a cell is that of the ephemeris to within the error of C54 -/
theorem zenith_near {alg eng : String} {uc : UseCase} {w : World XR} {times : Times}
    {latitude longitude : Coord XR} {refr : PyVal} {s : Sunpos XR} {e : Dim → Nat} {t : Int} {φ l ζ Z : ℝ}
    (h : call uc w times latitude longitude alg refr eng = .ok s) (hr : refr ≠ .pyTrue) (ha : At s times e t φ l)
    (hup : cos (rad ζ) = sin (rad φ) * sin (declination (century t))
      + cos (rad φ) * cos (declination (century t)) * cos (hourAngle (century t) + rad l))
    (hζ0 : 0 ≤ ζ) (hζ : ζ ≤ 180) (hZ : s.zenith.get e = .fin Z) (hZ0 : 0 ≤ Z) (hZπ : Z ≤ π) :
    |Z - rad ζ| ≤ rad (positionError alg eng) := by
  obtain ⟨z0, a, p1, p2, p3⟩ := C54_position h hr ha
  rw [zenithDeg_fin hZ, XR.fin_inj] at p1
  have hz0 : rad z0 = Z := by rw [← p1, rad_deg]
  have e180 : rad 180 = π := by unfold rad; ring
  have hang := zen_le_angle (a := rad a) (z := rad z0) (ζ := rad ζ) (v := sunVec (rad φ) (declination (century t)) (-(hourAngle (century t) + rad l)))
    (by rw [hz0]; exact hZ0) (by rw [hz0]; exact hZπ) (by unfold rad; positivity) (e180 ▸ rad_mono hζ) (sunVec_sq _ _ _)
    (by rw [hup]; simp only [sunVec, cos_neg])
  have hang := hang.trans p3
  rwa [hz0] at hang

theorem positionError_le {alg eng : String} (h : KnownPair alg eng) : 0 < positionError alg eng ∧ positionError alg eng ≤ 1.605 := by
  unfold positionError
  rcases alg_cases h with rfl | rfl | rfl | rfl <;> simp only [String.reduceEq, if_true, if_false] <;> (try split_ifs) <;> norm_num

/-- C73 (day): with refraction, the default, at every cell where the sun of the reference ephemeris is above the horizon by
more than the error of the algorithm, the returned zenith angle is below 90 degrees, the elevation and the cosine are
positive, the extraterrestrial irradiance is positive, and (unless the sun is within 2.5 degrees of the zenith) every airmass
is a number. -/
theorem C73_day {uc : UseCase} {w : World XR} {times : Times} {latitude longitude : Coord XR}
    {alg eng : String} {s : Sunpos XR} {e : Dim → Nat} {t : Int} {φ l ζ : ℝ}
    (h : call uc w times latitude longitude alg .pyTrue eng = .ok s) (ha : At s times e t φ l)
    (hup : cos (rad ζ) = sin (rad φ) * sin (declination (century t))
      + cos (rad φ) * cos (declination (century t)) * cos (hourAngle (century t) + rad l))
    (hζ0 : 0 ≤ ζ) (hζ : ζ < 90 - positionError alg eng) :
    ∃ z el c : ℝ, s.zenithDeg.get e = .fin z ∧ s.elevation.get e = .fin el ∧ s.cosz.get e = .fin c ∧
      z < 90 ∧ 0 < el ∧ 0 < c ∧
      (∀ isc : ℝ, 0 < isc → ∃ E v, s.eth (.fin isc) "none" = .ok E ∧ E.get e = .fin v ∧ 0 < v) ∧
      (2.5 ≤ ζ → ∀ p ∈ Parameterizations, ∃ M v, s.airmass p = .ok M ∧ M.get e = .fin v ∧ 1 ≤ v) := by
  obtain ⟨ht, hφ, hl, -⟩ := at_cases h ha
  obtain ⟨_, _, b, _, hacc, _, _⟩ := call_inv h
  have hkp := known_iff.2 ⟨b, hacc.names⟩
  obtain ⟨hpe0, hpe⟩ := positionError_le hkp
  obtain ⟨s0, h0, ha0⟩ := single_call uc (alg := alg) (eng := eng) hkp .pyFalse ha.range hφ hl
  obtain ⟨Z, hZ, hZ0, hZπ, hd, -⟩ := refracted_side h0 (by simp) h ha0 ha
  have hn := abs_le.1 (zenith_near h0 (by simp) ha0 hup hζ0 (by linarith) hZ hZ0 hZπ)
  have e90 : rad 90 = π / 2 := by unfold rad; ring
  have hpi := pi_gt_d4
  have hlt : rad ζ + rad (positionError alg eng) < π / 2 := by
    rw [← e90, ← rad_add]
    unfold rad
    have : (0 : ℝ) < π / 180 := by positivity
    nlinarith
  obtain ⟨z, hz, hz1, hz2⟩ := hd (by linarith)
  have hzd := zenithDeg_fin hz
  have hrz : rad (z * (180 / π)) = z := rad_deg z
  have hlt90 : z * (180 / π) < 90 := by
    rw [← mul_div_assoc, div_lt_iff₀ pi_pos]; linarith
  obtain ⟨el, c, g1, g2, g3, g4, -⟩ := C20_derived s e _ hzd
  have hc0 : 0 < c := by
    rw [g4, hrz]
    apply cos_pos_of_mem_Ioo
    exact ⟨by norm_num at hz2; linarith, hz1⟩
  refine ⟨_, el, c, hzd, g1, g2, hlt90, by linarith, hc0, ?_, ?_⟩
  · intro isc hi
    obtain ⟨x, k, hx, -, hE, k0, -, k2⟩ := C21_eth_none h ha.time ha.range hzd
    obtain ⟨E, hE1, hE2⟩ := hE isc
    refine ⟨E, _, hE1, hE2, mul_pos hi (lt_of_le_of_ne k0 fun h0 => ?_)⟩
    have := k2.1 h0.symm
    rw [← g4] at this; linarith
  · intro h25 p hp
    have hz0 : 0 ≤ z * (180 / π) := by
      refine mul_nonneg ?_ (by positivity)
      have h1 : rad 0.895 ≤ rad (ζ - positionError alg eng) := rad_mono (by norm_num at *; linarith)
      have h2 : rad 0.895 = 0.895 * (π / 180) := by unfold rad; ring
      rw [rad_sub, h2] at h1
      norm_num at h1 hz2 hpi; linarith [hn.1]
    obtain ⟨M, hM, hg⟩ := airmass_get hp s
    have hnan := C23_nan_iff hp (e := e) hM hzd hz0
    have hne : M.get e ≠ XR.nan := fun hh => absurd (hnan.1 hh) (by linarith)
    cases hv : M.get e with
    | nan => exact absurd hv hne
    | fin v => exact ⟨M, v, hM, hv, C23_at_least_one hM hv⟩

/-- C73 (night): with refraction, the default, at every cell where the sun of the reference ephemeris is below the horizon by
more than the refraction at the horizon (0.58 degrees, 0.78 for iqbal) and the error of the algorithm (and, for soltrack,
whose refraction formula has a pole 5.11 degrees below the horizon, C13, not within 0.1 degrees of there), the returned zenith
angle is above 90 degrees, the elevation and the cosine are negative, the extraterrestrial irradiance is zero, and every
airmass is NaN. -/
theorem C73_night {uc : UseCase} {w : World XR} {times : Times} {latitude longitude : Coord XR}
    {alg eng : String} {s : Sunpos XR} {e : Dim → Nat} {t : Int} {φ l ζ : ℝ}
    (h : call uc w times latitude longitude alg .pyTrue eng = .ok s) (ha : At s times e t φ l)
    (hup : cos (rad ζ) = sin (rad φ) * sin (declination (century t))
      + cos (rad φ) * cos (declination (century t)) * cos (hourAngle (century t) + rad l))
    (hζ : 90 + horizonDip alg + positionError alg eng ≤ ζ) (hζ1 : ζ ≤ 180)
    (hpole : alg = "soltrack" → 0.1 ≤ |ζ - 95.11|) :
    ∃ z el c : ℝ, s.zenithDeg.get e = .fin z ∧ s.elevation.get e = .fin el ∧ s.cosz.get e = .fin c ∧
      90 < z ∧ el < 0 ∧ c < 0 ∧
      (∀ isc : ℝ, ∃ E, s.eth (.fin isc) "none" = .ok E ∧ E.get e = .fin 0) ∧
      (∀ p ∈ Parameterizations, ∃ M, s.airmass p = .ok M ∧ M.get e = .nan) := by
  obtain ⟨ht, hφ, hl, -⟩ := at_cases h ha
  obtain ⟨_, _, b, _, hacc, _, _⟩ := call_inv h
  have hkp := known_iff.2 ⟨b, hacc.names⟩
  obtain ⟨hpe0, hpe⟩ := positionError_le hkp
  have hdip : 0.58 ≤ horizonDip alg := by unfold horizonDip; split_ifs <;> norm_num
  have hζ0 : 0 ≤ ζ := by norm_num at hdip; linarith
  obtain ⟨s0, h0, ha0⟩ := single_call uc (alg := alg) (eng := eng) hkp .pyFalse ha.range hφ hl
  obtain ⟨Z, hZ, hZ0, hZπ, -, hd⟩ := refracted_side h0 (by simp) h ha0 ha
  have hn := zenith_near h0 (by simp) ha0 hup hζ0 hζ1 hZ hZ0 hZπ
  have hn' := abs_le.1 hn
  have e90 : rad 90 = π / 2 := by unfold rad; ring
  have hpi := pi_gt_d4
  have hpi' := pi_lt_d4
  have hge : π / 2 + dipRad alg ≤ Z := by
    have h1 := rad_mono hζ
    rw [rad_add, rad_add, e90] at h1
    have h2 : dipRad alg ≤ rad (horizonDip alg) := by
      unfold dipRad horizonDip rad
      split_ifs <;> norm_num at * <;> linarith
    linarith
  have hp2 : alg = "soltrack" → 1.2e-3 ≤ |π / 2 - Z + 8.92e-2| := by
    intro hs
    have h1 := rad_mono (hpole hs)
    rw [← abs_rad, rad_sub] at h1
    have h2 : |rad ζ - rad 95.11| ≤ |π / 2 - Z + 8.92e-2| + |Z - rad ζ| + 2.1e-5 := by
      have h3 : rad ζ - rad 95.11 = -(π / 2 - Z + 8.92e-2) + (-(Z - rad ζ)) + (π / 2 + 8.92e-2 - rad 95.11) := by ring
      rw [h3]
      refine (abs_add_three _ _ _).trans ?_
      rw [abs_neg, abs_neg]
      have : |π / 2 + 8.92e-2 - rad 95.11| ≤ 2.1e-5 := by
        unfold rad; rw [abs_le]; constructor <;> norm_num at * <;> linarith
      linarith
    have h4 : positionError alg eng = 0.022 := by subst hs; simp [positionError]
    rw [h4] at hn
    have h5 : rad 0.022 ≤ 3.85e-4 := by unfold rad; norm_num at *; linarith
    have h6 : 1.745e-3 ≤ rad 0.1 := by unfold rad; norm_num at *; linarith
    norm_num at *; linarith
  obtain ⟨z, hz, hz1, hz2⟩ := hd hge hp2
  have hzd := zenithDeg_fin hz
  have hrz : rad (z * (180 / π)) = z := rad_deg z
  have hgt90 : 90 < z * (180 / π) := by
    rw [← mul_div_assoc, lt_div_iff₀ pi_pos]; norm_num at hz1; linarith
  obtain ⟨el, c, g1, g2, g3, g4, -⟩ := C20_derived s e _ hzd
  have hc0 : c < 0 := by
    rw [g4, hrz]
    apply cos_neg_of_pi_div_two_lt_of_lt
    · norm_num at hz1; linarith
    · norm_num at hz2; linarith
  refine ⟨_, el, c, hzd, g1, g2, hgt90, by linarith, hc0, ?_, ?_⟩
  · intro isc
    obtain ⟨x, k, hx, -, hE, k0, -, k2⟩ := C21_eth_none h ha.time ha.range hzd
    obtain ⟨E, hE1, hE2⟩ := hE isc
    refine ⟨E, hE1, ?_⟩
    rw [hE2, k2.2 (by rw [← g4]; exact hc0.le), mul_zero]
  · intro p hp
    obtain ⟨M, hM, hg⟩ := airmass_get hp s
    exact ⟨M, hM, (C23_nan_iff hp (e := e) hM hzd (by linarith)).2 hgt90⟩

end SW.Props
