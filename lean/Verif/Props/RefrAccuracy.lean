/-
C68: the apparent position of the sun (with refraction, the default) against the reference ephemeris of
Verif/Ephem.lean seen through the standard atmosphere of Verif/RefrSpec.lean.
-/
import Verif.Props.FloatAccuracy
import Verif.RefrSpec

namespace SW.Props
open SW.Spec Real Sunpos
open SW.Ephem (century declination hourAngle)

/-- largest difference, degrees, between the refraction of an algorithm and that of the standard atmosphere -/
noncomputable def refractionError (alg : String) : ℝ :=
  if alg = "psa" then 1e-4 else if alg = "soltrack" then 3e-4 else if alg = "nrel" then 0.003 else 0.06

/-- lowest true elevation, degrees, of the sun of the ephemeris at which the apparent zenith angle is compared: the
horizon, but for iqbal, whose position may be wrong by 1.605 degrees and whose refraction differs most near the horizon -/
noncomputable def lowestElevation (alg : String) : ℝ := if alg = "iqbal" then 2 else 0

/-- formula error in radians -/
noncomputable def refrErr (alg : String) : ℝ :=
  if alg = "psa" then 5.6e-7 else if alg = "soltrack" then 3.7e-6 else if alg = "nrel" then 4.28e-5 else 1.005e-3
/-- lowest computed elevation in radians -/
noncomputable def lowEl (alg : String) : ℝ := if alg = "iqbal" then 0.0068 else -1.4545e-2

/-- the refracted cell from the unrefracted one -/
theorem refracted {alg eng : String} {uc uc' : UseCase} {w w' : World XR} {times times' : Times}
    {latitude longitude latitude' longitude' : Coord XR} {refr : PyVal} {s s' : Sunpos XR} {e e' : Dim → Nat} {t : Int} {φ l : ℝ}
    (h : call uc w times latitude longitude alg refr eng = .ok s) (hr : refr ≠ .pyTrue)
    (h' : call uc' w' times' latitude' longitude' alg .pyTrue eng = .ok s')
    (ha : At s times e t φ l) (ha' : At s' times' e' t φ l) :
    s.azimuth.get e = s'.azimuth.get e' ∧ ∃ z0 : ℝ, s.zenith.get e = .fin z0 ∧ 0 ≤ z0 ∧ z0 ≤ π ∧
      (lowEl alg ≤ π / 2 - z0 → ∃ z : ℝ, s'.zenith.get e' = .fin z ∧
        |z - (z0 - standardRefraction ((π / 2 - z0) * (180 / π)) * (π / 180))| ≤ refrErr alg) := by
  obtain ⟨ht, hφ, hl, hc⟩ := at_cases h ha
  obtain ⟨-, -, -, hc'⟩ := at_cases h' ha'
  rw [notTrue hr] at hc
  have psa : ∀ z : ℝ, 0 ≤ z → -1.4545e-2 ≤ π / 2 - z →
      |Psa.refract z - (z - standardRefraction ((π / 2 - z) * (180 / π)) * (π / 180))| ≤ 5.6e-7 := by
    intro z hz0 hz
    have := RefrSpec.refr_near (κ := 1.7802e-2) (K := 0) (e := π / 2 - z) ⟨hz, by linarith⟩ (by norm_num) (by norm_num) (by norm_num)
    rw [Psa.refract_real, if_pos hz]
    generalize Refr.corr 1.7802e-2 (π / 2 - z) = X at *
    generalize standardRefraction ((π / 2 - z) * (180 / π)) * (π / 180) = Y at *
    rw [show π / 2 - (π / 2 - z + X) - (z - Y) = -(X - Y) by ring, abs_neg]
    norm_num at this ⊢; exact this
  rcases hc with ⟨rfl, rfl, hc⟩ | ⟨rfl, rfl, hc⟩ | ⟨rfl, hc⟩ | ⟨rfl, hc⟩ | ⟨rfl, hc⟩ <;>
    simp only [String.reduceEq, false_and, true_and, or_false, false_or] at hc'
  · rw [Psa.cellPy_eq] at hc hc'
    refine ⟨hc.2.trans hc'.2.symm, _, hc.1, (psa_zen_mem false _).1, (psa_zen_mem false _).2, fun hz => ⟨_, hc'.1, ?_⟩⟩
    simp only [lowEl, refrErr, String.reduceEq, if_true, if_false] at hz ⊢
    exact psa _ (psa_zen_mem false _).1 hz
  · rw [Psa.cellNe_real] at hc hc'
    refine ⟨hc.2.trans hc'.2.symm, _, hc.1, (psa_zen_mem false _).1, (psa_zen_mem false _).2, fun hz => ⟨_, hc'.1, ?_⟩⟩
    simp only [lowEl, refrErr, String.reduceEq, if_true, if_false] at hz ⊢
    exact psa _ (psa_zen_mem false _).1 hz
  · obtain ⟨E, hE⟩ : ∃ E, E = Soltrack.altP (rad φ) (Soltrack.decAt (toSec t)) (Soltrack.H0 (toSec t) + rad l) := ⟨_, rfl⟩
    have hp := parallax_mem (k := 4.2635e-5) (arccos_nonneg (sin (rad φ) * sin (Soltrack.decAt (toSec t))
      + cos (rad φ) * cos (Soltrack.decAt (toSec t)) * cos (Soltrack.H0 (toSec t) + rad l)))
      (arccos_le_pi _) (by norm_num) (by norm_num)
    have hm : 0 ≤ π / 2 - E ∧ π / 2 - E ≤ π := by rw [hE, Soltrack.altP_eq]; exact ⟨hp.1, hp.2.1⟩
    have hz0 := hc.1.trans (Soltrack.zen_false _ _ _)
    rw [← hE] at hz0
    refine ⟨hc.2.trans hc'.2.symm, _, hz0, hm.1, hm.2, fun hz => ?_⟩
    simp only [lowEl, refrErr, String.reduceEq, if_true, if_false, sub_sub_cancel] at hz ⊢
    have hD : SolRefr.Dom E := ⟨hz, by linarith [hm.1]⟩
    have hz1 : s'.zenith.get e' = HALFPI - Soltrack.refract (XR.fin E) := by rw [hc'.1, hE]; rfl
    rw [Soltrack.refract_fin hD, XR.HALFPI_fin, XR.sub_fin, HALFPI_real, Soltrack.refract_real] at hz1
    refine ⟨_, hz1, ?_⟩
    have n := RefrSpec.sol_near hD
    generalize SolRefr.corr 1.7802e-2 E = X at *
    generalize standardRefraction (E * (180 / π)) * (π / 180) = Y at *
    rw [show π / 2 - (E + X) - (π / 2 - E - Y) = -(X - Y) by ring, abs_neg]
    exact n
  · refine ⟨hc.2.trans hc'.2.symm, _, hc.1, arccos_nonneg _, arccos_le_pi _, fun hz => ⟨_, hc'.1, ?_⟩⟩
    simp only [lowEl, refrErr, String.reduceEq, if_true, if_false] at hz ⊢
    obtain ⟨z, hzz⟩ : ∃ z, z = Iqbal.zenR (rad φ) (Iqbal.decAt (toSec t)) (Iqbal.H0 (toSec t) + rad l) := ⟨_, rfl⟩
    have hz0 : 0 ≤ z := by rw [hzz]; exact arccos_nonneg _
    have e1 : (iqbOut (toSec t) l φ false).zenith = z := hzz.symm
    have e2 : (iqbOut (toSec t) l φ PyVal.pyTrue.isTrue).zenith = Iqbal.refract z := by rw [hzz]; rfl
    rw [e1] at hz ⊢
    rw [e2, Iqbal.refract_real]
    have n := RefrSpec.iqbal_near hz (by linarith)
    generalize Iqbal.refcor (π / 2 - z) = X at *
    generalize standardRefraction ((π / 2 - z) * (180 / π)) * (π / 180) = Y at *
    rw [show z - X - (z - Y) = -(X - Y) by ring, abs_neg]
    exact n
  · refine ⟨hc.2.trans hc'.2.symm, _, hc.1, (Nrel.zenith_mem _ _ _ _).1, (Nrel.zenith_mem _ _ _ _).2, fun hz => ⟨_, hc'.1, ?_⟩⟩
    simp only [lowEl, refrErr, String.reduceEq, if_true, if_false] at hz ⊢
    have e1 : ∃ p d k : ℝ, (∀ r : Bool, (Nrel.cell (toSec t) l φ r).zenith
        = HALFPI - Nrel.withRefr r (Nrel.elev p d k)) := ⟨_, _, _, fun _ => rfl⟩
    obtain ⟨p, d, k, hk⟩ := e1
    obtain ⟨E, hE⟩ : ∃ E, E = Nrel.elev p d k := ⟨_, rfl⟩
    have hE1 : E ≤ π / 2 := by rw [hE]; exact arcsin_le_pi_div_two _
    have e2 : Nrel.withRefr false (Nrel.elev p d k) = E := hE.symm
    have e3 : Nrel.withRefr PyVal.pyTrue.isTrue (Nrel.elev p d k) = Nrel.refract E := by rw [hE]; rfl
    rw [hk, e2, HALFPI_real, sub_sub_cancel] at hz
    rw [hk, hk, e2, e3, Nrel.refract_real, if_pos hz, HALFPI_real, sub_sub_cancel]
    have hkb := Nrel.kap_bound
    have n := RefrSpec.refr_near (κ := Nrel.kap) (K := 6.9e-5) (e := E) ⟨hz, hE1⟩ RefrSpec.kap_near
      (by norm_num at *; linarith) (by norm_num at *; linarith)
    generalize Refr.corr Nrel.kap E = X at *
    generalize standardRefraction (E * (180 / π)) * (π / 180) = Y at *
    rw [show π / 2 - (E + X) - (π / 2 - E - Y) = -(X - Y) by ring, abs_neg]
    refine n.trans ?_
    norm_num

/-- the zenith angles of two directions differ by at most the angle between them -/
theorem zen_le_angle {z a ζ : ℝ} {v : Vec} (hz0 : 0 ≤ z) (hz : z ≤ π) (hζ0 : 0 ≤ ζ) (hζ : ζ ≤ π) (hv : v.sq = 1)
    (hu : v.up = cos ζ) : |z - ζ| ≤ arccos ((dirVec z a).dot v) := by
  have h1 : (cos a * v.south - sin a * v.east) ^ 2 ≤ sin ζ ^ 2 := by
    have e1 : v.up * v.up + v.south * v.south + v.east * v.east = 1 := hv
    have e2 := sin_sq_add_cos_sq ζ
    have e3 := sin_sq_add_cos_sq a
    rw [hu] at e1
    nlinarith [sq_nonneg (sin a * v.south + cos a * v.east)]
  have hs : 0 ≤ sin ζ := sin_nonneg_of_nonneg_of_le_pi hζ0 hζ
  have h2 : cos a * v.south - sin a * v.east ≤ sin ζ := (abs_le.1 (abs_le_of_sq_le_sq h1 hs)).2
  have hsz : 0 ≤ sin z := sin_nonneg_of_nonneg_of_le_pi hz0 hz
  have h3 : (dirVec z a).dot v ≤ cos (z - ζ) := by
    have : (dirVec z a).dot v = cos z * cos ζ + sin z * (cos a * v.south - sin a * v.east) := by
      simp only [Vec.dot, dirVec, hu]; ring
    rw [this, cos_sub]
    have := mul_le_mul_of_nonneg_left h2 hsz
    linarith
  calc |z - ζ| = arccos (cos |z - ζ|) := (arccos_cos (abs_nonneg _) (by rw [abs_le]; constructor <;> linarith)).symm
    _ = arccos (cos (z - ζ)) := by rw [cos_abs]
    _ ≤ _ := arccos_le_arccos h3

/-- the apparent zenith angles, through the standard atmosphere, of two suns differ by no more than the true ones, but for
what the constants are rounded -/
theorem standard_lip {e₁ e₂ : ℝ} (h1 : -1.4545e-2 ≤ e₁) (h1' : e₁ ≤ π / 2) (h2 : -1.4545e-2 ≤ e₂) (h2' : e₂ ≤ π / 2) :
    |(e₁ + standardRefraction (e₁ * (180 / π)) * (π / 180)) - (e₂ + standardRefraction (e₂ * (180 / π)) * (π / 180))|
      ≤ |e₁ - e₂| + 1.13e-6 := by
  wlog hz : e₁ ≤ e₂ with H
  · have := H h2 h2' h1 h1' (le_of_lt (not_le.1 hz))
    rw [abs_sub_comm] at this
    rwa [abs_sub_comm e₁ e₂]
  have d1 : Refr.Dom e₁ := ⟨h1, h1'⟩
  have d2 : Refr.Dom e₂ := ⟨h2, h2'⟩
  have n1 := RefrSpec.refr_near (κ := 1.7802e-2) (K := 0) d1 (by norm_num) (by norm_num) (by norm_num)
  have n2 := RefrSpec.refr_near (κ := 1.7802e-2) (K := 0) d2 (by norm_num) (by norm_num) (by norm_num)
  obtain ⟨t1, a1, b1, -, c1⟩ := Refr.corr_eq (κ := 1.7802e-2) d1
  obtain ⟨t2, a2, b2, -, c2⟩ := Refr.corr_eq (κ := 1.7802e-2) d2
  obtain ⟨k1, k2⟩ := Refr.cot_diff d1 d2 hz
  rw [c1] at n1
  rw [c2] at n2
  generalize standardRefraction (e₁ * (180 / π)) * (π / 180) = X at *
  generalize standardRefraction (e₂ * (180 / π)) * (π / 180) = Y at *
  generalize Refr.cot e₁ = C at *
  generalize Refr.cot e₂ = D at *
  have n1 := abs_le.1 n1
  have n2 := abs_le.1 n2
  rw [abs_of_nonpos (by linarith : e₁ - e₂ ≤ 0), abs_le]
  clear c1 c2
  norm_num at n1 n2 b1 b2 ⊢
  constructor <;> linarith [n1.1, n1.2, n2.1, n2.2]

theorem of_rad {x y : ℝ} (h : |rad x| ≤ rad y) : |x| ≤ y := by
  rw [abs_rad] at h
  by_contra hc
  have e : ∀ x, rad x = x * (π / 180) := fun x => by unfold rad; ring
  rw [e, e] at h
  exact hc (le_of_mul_le_mul_right h (by positivity))

/-- C68: with refraction, a cell whose true solar elevation, in the reference ephemeris, is not below the horizon (2 degrees
for iqbal) has a zenith angle `z` and an azimuth `a` such that, for some true zenith angle `z0`,
- the direction of zenith angle `z0` and azimuth `a` is that of the sun of the ephemeris to within the error of C54;
- `z` is `z0` less the refraction of the standard atmosphere, to within 0.0001 (psa), 0.0003 (soltrack), 0.003 (nrel) and 0.06
  (iqbal) degrees;
- `z` is the apparent zenith angle of the sun of the ephemeris to within the sum of both errors. -/
theorem C68_accuracy {uc : UseCase} {w : World XR} {times : Times} {latitude longitude : Coord XR}
    {alg eng : String} {s : Sunpos XR} {e : Dim → Nat} {t : Int} {φ l ζ : ℝ}
    (h : call uc w times latitude longitude alg .pyTrue eng = .ok s) (ha : At s times e t φ l)
    (hup : cos (rad ζ) = sin (rad φ) * sin (declination (century t))
      + cos (rad φ) * cos (declination (century t)) * cos (hourAngle (century t) + rad l))
    (hζ0 : 0 ≤ ζ) (hζ : ζ ≤ 90 - lowestElevation alg) :
    ∃ z a z0 : ℝ, s.zenithDeg.get e = .fin z ∧ s.azimuthDeg.get e = .fin a ∧
      arccos ((dirVec (rad z0) (rad a)).dot
        (sunVec (rad φ) (declination (century t)) (-(hourAngle (century t) + rad l)))) ≤ rad (positionError alg eng) ∧
      |z - (z0 - standardRefraction (90 - z0))| ≤ refractionError alg ∧
      |z - (ζ - standardRefraction (90 - ζ))| ≤ positionError alg eng + refractionError alg := by
  obtain ⟨ht, hφ, hl, hcase⟩ := at_cases h ha
  obtain ⟨_, _, b, _, hacc, _, _⟩ := call_inv h
  obtain ⟨s0, h0, ha0⟩ := single_call uc (alg := alg) (eng := eng) (known_iff.2 ⟨b, hacc.names⟩) .pyFalse ha.range hφ hl
  obtain ⟨haz, Z, hZ, hZ0, hZπ, href⟩ := refracted h0 (by simp) h ha0 ha
  obtain ⟨z0, a, p1, p2, p3⟩ := C54_position h0 (by simp) ha0
  rw [zenithDeg_fin hZ, XR.fin_inj] at p1
  have hz0 : rad z0 = Z := by rw [← p1, rad_deg]
  have hrange : rad ζ ≤ π := by
    refine (rad_mono (show ζ ≤ 180 by unfold lowestElevation at hζ; split_ifs at hζ <;> linarith)).trans (le_of_eq ?_)
    unfold rad; ring
  have hr0 : 0 ≤ rad ζ := by unfold rad; positivity
  have hang := zen_le_angle (a := rad a) (z := rad z0) (ζ := rad ζ) (v := sunVec (rad φ) (declination (century t)) (-(hourAngle (century t) + rad l)))
    (by rw [hz0]; exact hZ0) (by rw [hz0]; exact hZπ) hr0 hrange (sunVec_sq _ _ _) (by rw [hup]; simp only [sunVec, cos_neg])
  have hang := hang.trans p3
  rw [hz0] at hang
  have hang' := abs_le.1 hang
  have hpi := pi_gt_d4
  have e90 : rad 90 = π / 2 := by unfold rad; ring
  have hlow : lowEl alg ≤ π / 2 - Z ∧ -1.4545e-2 ≤ π / 2 - Z ∧ -1.4545e-2 ≤ π / 2 - rad ζ := by
    have hζ' := rad_mono hζ
    rw [rad_sub, e90] at hζ'
    have hn : lowEl alg ≤ rad (lowestElevation alg) - rad (positionError alg eng) ∧
        -1.4545e-2 ≤ rad (lowestElevation alg) - rad (positionError alg eng) ∧ 0 ≤ rad (lowestElevation alg) := by
      have hpi' := pi_lt_d4
      rcases hcase with ⟨rfl, rfl, -⟩ | ⟨rfl, rfl, -⟩ | ⟨rfl, -⟩ | ⟨rfl, -⟩ | ⟨rfl, -⟩ <;>
        simp only [lowEl, lowestElevation, positionError, String.reduceEq, if_true, if_false, rad] <;>
        norm_num at hpi hpi' ⊢ <;>
        first | linarith | (constructor <;> linarith) | (refine ⟨?_, ?_, ?_⟩ <;> linarith)
    norm_num at hn ⊢
    refine ⟨?_, ?_, ?_⟩ <;> linarith [hang'.1, hang'.2, hn.1, hn.2.1, hn.2.2]
  obtain ⟨z, hz, hzr⟩ := href hlow.1
  have eaz : s.azimuthDeg.get e = .fin a := by
    have : s.azimuthDeg.get e = s0.azimuthDeg.get (fun _ => 0) := by
      show degrees (s.azimuth.get e) = degrees (s0.azimuth.get (fun _ => 0)); rw [haz]
    rw [this, p2]
  have ferr' : refrErr alg + 1.13e-6 ≤ rad (refractionError alg) := by
    rcases hcase with ⟨rfl, -⟩ | ⟨rfl, -⟩ | ⟨rfl, -⟩ | ⟨rfl, -⟩ | ⟨rfl, -⟩ <;>
      simp only [refrErr, refractionError, String.reduceEq, if_true, if_false, rad] <;> norm_num at hpi ⊢ <;> linarith
  have ferr : refrErr alg ≤ rad (refractionError alg) := by norm_num at ferr' ⊢; linarith
  have eS : (π / 2 - Z) * (180 / π) = 90 - z0 := by rw [← p1]; field_simp; ring
  refine ⟨_, a, z0, zenithDeg_fin hz, eaz, p3, ?_, ?_⟩
  · apply of_rad
    refine le_trans (le_of_eq ?_) (hzr.trans ferr)
    rw [rad_sub, rad_sub, rad_deg, hz0, eS]; congr 1
  · apply of_rad
    have hl := standard_lip (e₁ := π / 2 - Z) (e₂ := π / 2 - rad ζ) hlow.2.1 (by linarith) hlow.2.2 (by linarith)
    rw [show π / 2 - Z - (π / 2 - rad ζ) = -(Z - rad ζ) by ring, abs_neg] at hl
    have eζ : (π / 2 - rad ζ) * (180 / π) = 90 - ζ := by unfold rad; field_simp; ring
    rw [eζ] at hl
    rw [rad_sub, rad_sub, rad_deg, rad_add]
    have er : rad (standardRefraction (90 - ζ)) = standardRefraction (90 - ζ) * (π / 180) := by unfold rad; ring
    rw [er]
    have hzr' := abs_le.1 hzr
    have hl' := abs_le.1 hl
    rw [abs_le]
    constructor <;> linarith [hl'.1, hl'.2, hzr'.1, hzr'.2]

/-- C68: two calls with refraction, of any use cases, algorithms and engines, that have a cell at the same instant and place
return there zenith angles that differ by at most the sum of their errors, in degrees, when the true elevation of the sun is at
least that required of both. -/
theorem C68_agree {uc1 uc2 : UseCase} {w1 w2 : World XR} {times1 times2 : Times} {lat1 lon1 lat2 lon2 : Coord XR}
    {alg1 eng1 alg2 eng2 : String} {s1 s2 : Sunpos XR} {e1 e2 : Dim → Nat} {t : Int} {φ l ζ : ℝ}
    (h1 : call uc1 w1 times1 lat1 lon1 alg1 .pyTrue eng1 = .ok s1)
    (h2 : call uc2 w2 times2 lat2 lon2 alg2 .pyTrue eng2 = .ok s2)
    (ha1 : At s1 times1 e1 t φ l) (ha2 : At s2 times2 e2 t φ l)
    (hup : cos (rad ζ) = sin (rad φ) * sin (declination (century t))
      + cos (rad φ) * cos (declination (century t)) * cos (hourAngle (century t) + rad l))
    (hζ0 : 0 ≤ ζ) (hζ1 : ζ ≤ 90 - lowestElevation alg1) (hζ2 : ζ ≤ 90 - lowestElevation alg2) :
    ∃ z1 z2 : ℝ, s1.zenithDeg.get e1 = .fin z1 ∧ s2.zenithDeg.get e2 = .fin z2 ∧
      |z1 - z2| ≤ positionError alg1 eng1 + refractionError alg1 + (positionError alg2 eng2 + refractionError alg2) := by
  obtain ⟨z1, -, -, g1, -, -, -, b1⟩ := C68_accuracy h1 ha1 hup hζ0 hζ1
  obtain ⟨z2, -, -, g2, -, -, -, b2⟩ := C68_accuracy h2 ha2 hup hζ0 hζ2
  refine ⟨z1, z2, g1, g2, ?_⟩
  rw [abs_le] at *
  constructor <;> linarith [b1.1, b1.2, b2.1, b2.2]

/-- C68: refraction does not change the azimuth: a call with refraction and one without it return the same azimuth in cells of
the same instant and place, for every algorithm. -/
theorem C68_azimuth {alg eng : String} {uc uc' : UseCase} {w w' : World XR} {times times' : Times}
    {latitude longitude latitude' longitude' : Coord XR} {refr : PyVal} {s s' : Sunpos XR} {e e' : Dim → Nat} {t : Int} {φ l : ℝ}
    (h : call uc w times latitude longitude alg refr eng = .ok s)
    (h' : call uc' w' times' latitude' longitude' alg .pyTrue eng = .ok s')
    (ha : At s times e t φ l) (ha' : At s' times' e' t φ l) :
    s.azimuthDeg.get e = s'.azimuthDeg.get e' ∧ ∃ a : ℝ, s.azimuthDeg.get e = .fin a := by
  obtain ⟨a, h1, -⟩ := C14_range h ha
  refine ⟨?_, a, h1⟩
  show degrees (s.azimuth.get e) = degrees (s'.azimuth.get e')
  congr 1
  obtain ⟨ht, hφ, hl, hcase⟩ := at_cases h ha
  obtain ⟨_, _, b, _, hacc, _, _⟩ := call_inv h
  obtain ⟨s0, h0, ha0⟩ := single_call uc (alg := alg) (eng := eng) (known_iff.2 ⟨b, hacc.names⟩) .pyFalse ha.range hφ hl
  have r' := (refracted h0 (by simp) h' ha0 ha').1
  by_cases hr : refr = .pyTrue
  · subst hr
    exact (refracted h0 (by simp) h ha0 ha).1.symm.trans r'
  · exact (refracted h hr h' ha ha').1

/-- at every instant, and for every true zenith angle up to 60 degrees, there is a place where the sun of the ephemeris is at
that zenith angle, and every algorithm, in every use case, has there a cell to which C68 applies -/
example {t : Int} (ht : |t| < 2 ^ 63) {ζ : ℝ} (hζ0 : 0 ≤ ζ) (hζ : ζ ≤ 60) : ∃ φ l : ℝ,
    cos (rad ζ) = sin (rad φ) * sin (declination (century t))
      + cos (rad φ) * cos (declination (century t)) * cos (hourAngle (century t) + rad l) ∧
    (∀ alg, ζ ≤ 90 - lowestElevation alg) ∧
    ∀ (uc : UseCase) {alg eng : String}, KnownPair alg eng → ∃ s : Sunpos XR,
      call uc exWorld (oneTime t) (.vec [.fin φ]) (.vec [.fin l]) alg .pyTrue eng = .ok s ∧
      At s (oneTime t) (fun _ => 0) t φ l := by
  obtain ⟨l, hl, k, hk⟩ := exists_lon (hourAngle (century t)) 0
  have hd : |declination (century t)| ≤ 0.4154 := by
    obtain ⟨o1, o2⟩ := Ephem.obliquity_bound (century_bound ht)
    unfold Ephem.declination
    have hp := pi_gt_d2
    refine (Psa.arcsin_bound ⟨?_, ?_⟩).trans ?_ <;> norm_num at o1 o2 hp ⊢ <;> linarith
  have hd := abs_le.1 hd
  have hp := pi_gt_d4
  have h1 : rad ζ ≤ rad 60 := rad_mono hζ
  have h0 : 0 ≤ rad ζ := by unfold rad; positivity
  have h60 : rad 60 = π / 3 := by unfold rad; ring
  have hφ : -(π / 2) ≤ declination (century t) + rad ζ ∧ declination (century t) + rad ζ ≤ π / 2 := by
    constructor <;> norm_num at * <;> linarith
  refine ⟨(declination (century t) + rad ζ) * (180 / π), l, ?_, ?_, ?_⟩
  · rw [hk, cos_add_int_mul_two_pi, cos_zero, rad_deg, mul_one]
    have := cos_sub (declination (century t) + rad ζ) (declination (century t))
    rw [add_sub_cancel_left] at this
    rw [this]; ring
  · intro alg; unfold lowestElevation; split_ifs <;> linarith
  · intro uc alg eng hk
    exact single_call uc hk .pyTrue ht (rad_mem hφ.1 hφ.2) hl

end SW.Props
