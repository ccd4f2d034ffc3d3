/-
C69: the apparent position returned in floating-point arithmetic, with refraction (the default call), against the
reference ephemeris seen through the standard atmosphere. It puts C68 (formulas against the reference, exact arithmetic)
and C55, C60-C62 (floating-point against exact arithmetic) together.
-/
import Verif.Props.RefrAccuracy

namespace SW.Props
open SW.Spec Real Sunpos
open SW.Ephem (century declination hourAngle)

variable {A : Arith}

theorem placeFactor_nonneg (alg eng : String) {φ : ℝ} (hφ : -90 ≤ φ ∧ φ ≤ 90) : 0 ≤ placeFactor alg eng φ := by
  unfold placeFactor latFactor
  split_ifs
  · apply cos_nonneg_of_neg_pi_div_two_le_of_le
    · have := rad_mono hφ.1
      have e : rad (-90) = -(π / 2) := by unfold rad; ring
      rwa [e] at this
    · have := rad_mono hφ.2
      have e : rad 90 = π / 2 := by unfold rad; ring
      rwa [e] at this
  · norm_num
  · norm_num

/-- C55 and C60-C62 for all algorithms, with refraction, when the true zenith angle is at most 90.5 degrees -/
theorem near_refracted {uc uc' uc₀ : UseCase} {w : World (Rd A)} {w' w₀ : World XR} {times times' times₀ : Times}
    {latitude longitude : Coord (Rd A)} {latitude' longitude' latitude₀ longitude₀ : Coord XR} {alg eng : String}
    {refr₀ : PyVal} {s : Sunpos (Rd A)} {s' s₀ : Sunpos XR} {e e' e₀ : Dim → Nat} {t : Int} {φ l ζ : ℝ}
    (h : call uc w times latitude longitude alg .pyTrue eng = .ok s)
    (h' : call uc' w' times' latitude' longitude' alg .pyTrue eng = .ok s')
    (h₀ : call uc₀ w₀ times₀ latitude₀ longitude₀ alg refr₀ eng = .ok s₀) (hr₀ : refr₀ ≠ .pyTrue)
    (ha : AtRd s times e t φ l) (ha' : At s' times' e' t φ l) (ha₀ : At s₀ times₀ e₀ t φ l)
    (hpole : alg = "nrel" → |φ| ≤ 90 - 1e-10)
    (hζ : s₀.zenithDeg.get e₀ = XR.fin ζ) (hs : 0.003 ≤ placeFactor alg eng φ * sin (rad ζ)) (hlow : ζ ≤ 90.5) :
    ∃ z z' a a' : ℝ, ∃ k : ℤ, s.zenithDeg.get e = Rd.fin z ∧ s'.zenithDeg.get e' = XR.fin z' ∧
      s.azimuthDeg.get e = Rd.fin a ∧ s'.azimuthDeg.get e' = XR.fin a' ∧
      |z - z'| ≤ 0.00093 / (placeFactor alg eng φ * sin (rad ζ)) ∧
      |a - a' - k * 360| ≤ 0.00038 / (placeFactor alg eng φ * sin (rad ζ)) := by
  obtain ⟨b, hb, -⟩ := rd_time h ha.time
  have hthr : 0.00064 < |ζ - (90 + 1.4545e-2 * (180 / π))| := by
    have hp := pi_lt_d4
    have h1 : 57 ≤ 180 / π := by rw [le_div_iff₀ pi_pos]; norm_num at hp ⊢; linarith
    rw [abs_sub_comm]
    refine lt_of_lt_of_le ?_ (le_abs_self _)
    generalize 180 / π = X at *
    norm_num at h1 hlow ⊢; linarith
  have key : ∀ {p q : ℝ}, p ≤ 0.00093 → q ≤ 0.00038 →
      (∃ z z', s.zenithDeg.get e = Rd.fin z ∧ s'.zenithDeg.get e' = XR.fin z' ∧
        |z - z'| ≤ p / (placeFactor alg eng φ * sin (rad ζ))) →
      (∃ a a', ∃ k : ℤ, s.azimuthDeg.get e = Rd.fin a ∧ s'.azimuthDeg.get e' = XR.fin a' ∧ |a| ≤ 180 + 1e-10 ∧
        |a - a' - k * 360| ≤ q / (placeFactor alg eng φ * sin (rad ζ))) →
      ∃ z z' a a' : ℝ, ∃ k : ℤ, s.zenithDeg.get e = Rd.fin z ∧ s'.zenithDeg.get e' = XR.fin z' ∧
      s.azimuthDeg.get e = Rd.fin a ∧ s'.azimuthDeg.get e' = XR.fin a' ∧
      |z - z'| ≤ 0.00093 / (placeFactor alg eng φ * sin (rad ζ)) ∧
      |a - a' - k * 360| ≤ 0.00038 / (placeFactor alg eng φ * sin (rad ζ)) := by
    rintro p q hp hq ⟨z, z', h1, h2, h3⟩ ⟨a, a', k, h4, h5, -, h6⟩
    have h0 : 0 ≤ placeFactor alg eng φ * sin (rad ζ) := le_trans (by norm_num) hs
    exact ⟨z, z', a, a', k, h1, h2, h4, h5, h3.trans (div_le_div_of_nonneg_right hp h0), h6.trans (div_le_div_of_nonneg_right hq h0)⟩
  rcases alg_cases (known_iff.2 ⟨b, hb⟩) with rfl | rfl | rfl | rfl
  · have e1 : placeFactor "psa" eng φ = 1 := by simp [placeFactor]
    rw [e1, one_mul] at hs key ⊢
    obtain ⟨⟨z, z', h1, h2, h3, -⟩, h4⟩ := C55_psa_position h h' h₀ hr₀ ha ha' ha₀ hζ hs (fun _ => hthr)
    exact key (by norm_num) (by norm_num) ⟨z, z', h1, h2, h3⟩ h4
  · have e1 : placeFactor "soltrack" eng φ = latFactor eng φ := by simp [placeFactor]
    rw [e1] at hs key ⊢
    obtain ⟨h3, h4⟩ := C60_soltrack_position h h' h₀ hr₀ ha ha' ha₀ hζ hs (fun _ => hlow)
    exact key (by norm_num) le_rfl h3 h4
  · have e1 : placeFactor "iqbal" eng φ = 1 := by simp [placeFactor]
    rw [e1, one_mul] at hs key ⊢
    obtain ⟨⟨z, z', h1, h2, h3, -⟩, h4⟩ := C61_iqbal_position h h' h₀ hr₀ ha ha' ha₀ hζ hs
    exact key le_rfl (by norm_num) ⟨z, z', h1, h2, h3⟩ h4
  · have e1 : placeFactor "nrel" eng φ = 1 := by simp [placeFactor]
    rw [e1, one_mul] at hs key ⊢
    obtain ⟨h3, h4⟩ := C62_nrel_position h h' h₀ hr₀ ha ha' ha₀ (.inl (hpole rfl)) hζ (le_trans (by norm_num) hs)
      (fun _ => lt_trans (by norm_num) hthr)
    exact key (by norm_num) (by norm_num) h3 h4

/-- C69: in every arithmetic with the accuracy of double precision, with refraction, a cell whose true solar elevation, in
the reference ephemeris, is not below the horizon (2 degrees for iqbal) and where `κ sin ζ ≥ 0.06` (`ζ` the true zenith angle
of the sun of the ephemeris; `κ` is 1, or the cosine of the latitude for soltrack with numpy) has numbers for its zenith
angle `z` and azimuth `a`; and, for some true zenith angle `z0`,
- the direction of zenith angle `z0` and azimuth `a` is that of the sun of the ephemeris to within the error of C54 plus
  `0.00077 / (κ sin ζ)` degrees;
- `z` is `z0` less the refraction of the standard atmosphere to within the error of C68 plus `0.0019 / (κ sin ζ)` degrees;
- `z` is the apparent zenith angle of the sun of the ephemeris to within the sum of both errors and `0.0019 / (κ sin ζ)`. -/
theorem C69_accuracy {uc : UseCase} {w : World (Rd A)} {times : Times} {latitude longitude : Coord (Rd A)}
    {alg eng : String} {s : Sunpos (Rd A)} {e : Dim → Nat} {t : Int} {φ l ζ : ℝ}
    (h : call uc w times latitude longitude alg .pyTrue eng = .ok s)
    (ha : AtRd s times e t φ l) (hφ : -90 ≤ φ ∧ φ ≤ 90) (hl : -180 ≤ l ∧ l < 180)
    (hpole : alg = "nrel" → |φ| ≤ 90 - 1e-10)
    (hup : cos (rad ζ) = sin (rad φ) * sin (declination (century t))
      + cos (rad φ) * cos (declination (century t)) * cos (hourAngle (century t) + rad l))
    (hζ0 : 0 ≤ ζ) (hζ : ζ ≤ 90 - lowestElevation alg) (hs : 0.06 ≤ placeFactor alg eng φ * sin (rad ζ)) :
    ∃ z a z0 : ℝ, s.zenithDeg.get e = Rd.fin z ∧ s.azimuthDeg.get e = Rd.fin a ∧
      arccos ((dirVec (rad z0) (rad a)).dot
        (sunVec (rad φ) (declination (century t)) (-(hourAngle (century t) + rad l))))
        ≤ rad (positionError alg eng + 0.00077 / (placeFactor alg eng φ * sin (rad ζ))) ∧
      |z - (z0 - standardRefraction (90 - z0))| ≤ refractionError alg + 0.0019 / (placeFactor alg eng φ * sin (rad ζ)) ∧
      |z - (ζ - standardRefraction (90 - ζ))|
        ≤ positionError alg eng + refractionError alg + 0.0019 / (placeFactor alg eng φ * sin (rad ζ)) := by
  obtain ⟨b, hb, -⟩ := rd_time h ha.time
  have hkp := known_iff.2 ⟨b, hb⟩
  obtain ⟨s', h', ha'⟩ := single_call uc hkp .pyTrue ha.range hφ hl
  obtain ⟨s₀, h₀, ha₀⟩ := single_call uc hkp .pyFalse ha.range hφ hl
  have hr₀ : PyVal.pyFalse ≠ .pyTrue := by simp
  obtain ⟨z0, a0, B, hz0, haz0, hB, hB2, hc⟩ := position_close h₀ hr₀ ha₀
  obtain ⟨z1, hz1, hz2, hz3⟩ := C13_range h₀ ha₀ (.inr (.inr hr₀))
  obtain rfl : z1 = z0 := XR.fin_inj.1 (hz1.symm.trans hz0)
  obtain ⟨z', a', z9, hz', ha1, hpos, href, happ⟩ := C68_accuracy h' ha' hup hζ0 hζ
  -- the azimuth of the refracted call and the zenith angle of the other one
  obtain ⟨haz, Z, hZ, hZ0, hZπ, hrf⟩ := refracted h₀ hr₀ h' ha₀ ha'
  obtain rfl : a0 = a' := by
    have : s'.azimuthDeg.get (fun _ => 0) = s₀.azimuthDeg.get (fun _ => 0) := by
      show degrees (s'.azimuth.get _) = degrees (s₀.azimuth.get _); rw [haz]
    exact XR.fin_inj.1 (haz0.symm.trans (this.symm.trans ha1))
  rw [zenithDeg_fin hZ, XR.fin_inj] at hz0
  have eZ : rad z1 = Z := by rw [← hz0, rad_deg]
  have hv : (sunVec (rad φ) (declination (century t)) (-(hourAngle (century t) + rad l))).up = cos (rad ζ) := by
    rw [hup]; simp only [sunVec, cos_neg]
  have hang := (hc.angle (dirVec_sq _ _) (sunVec_sq _ _ _) (hB.trans (by norm_num))).trans hB2
  have e180 : rad 180 = π := by unfold rad; ring
  have e90 : rad 90 = π / 2 := by unfold rad; ring
  have hzz := (zen_le_angle (a := rad a0) (z := rad z1) (ζ := rad ζ) (by rw [eZ]; exact hZ0) (by rw [eZ]; exact hZπ)
    (by unfold rad; positivity) (by
      rw [← e180]; apply rad_mono; unfold lowestElevation at hζ; split_ifs at hζ <;> linarith) (sunVec_sq _ _ _) hv).trans hang
  rw [← rad_sub] at hzz
  have hzz := of_rad hzz
  have hpe : positionError alg eng ≤ 0.2 + lowestElevation alg := by
    have hh := alg_cases hkp
    unfold positionError lowestElevation
    rcases hh with rfl | rfl | rfl | rfl <;> simp only [String.reduceEq, if_true, if_false] <;> (try split_ifs) <;> norm_num
  have hlow : z1 ≤ 90.5 := by
    have := (abs_le.1 hzz).2
    norm_num at hpe ⊢; linarith
  -- at least half of the reference value
  have hk1 := placeFactor_le alg eng φ
  have hκ0 := placeFactor_nonneg alg eng hφ
  have hsin0 : 0 ≤ sin (rad z1) := sin_nonneg_of_nonneg_of_le_pi (by rw [eZ]; exact hZ0) (by rw [eZ]; exact hZπ)
  have hhalf : placeFactor alg eng φ * sin (rad ζ) / 2 ≤ placeFactor alg eng φ * sin (rad z1) := by
    generalize placeFactor alg eng φ = κ at *
    have hs0 : 0 < sin (rad ζ) := by
      by_contra hneg
      push Not at hneg
      have := mul_nonpos_of_nonneg_of_nonpos hκ0 hneg
      norm_num at hs; linarith
    have hn := sin_zen_near hc (sunVec_sq _ _ _) hv hs0 hsin0
    have h1 : κ * (sin (rad ζ) - B) ≤ κ * sin (rad z1) := mul_le_mul_of_nonneg_left hn hκ0
    have h2 : κ * B ≤ 1 * 0.03 := by
      have hB0 : 0 ≤ B := (abs_nonneg _).trans (hc _ (dirVec_sq 0 0))
      exact mul_le_mul hk1 hB hB0 (by norm_num)
    norm_num at hs h2; linarith
  obtain ⟨z, z2, a, a2, k, g1, g2, g3, g4, g5, g6⟩ := near_refracted h h' h₀ hr₀ ha ha' ha₀ hpole hz1
    (by norm_num at hs ⊢; linarith) hlow
  obtain rfl : z2 = z' := XR.fin_inj.1 (g2.symm.trans hz')
  obtain rfl : a2 = a0 := XR.fin_inj.1 (g4.symm.trans ha1)
  obtain ⟨x, hx⟩ : ∃ x, x = placeFactor alg eng φ * sin (rad ζ) := ⟨_, rfl⟩
  rw [← hx] at hs hhalf ⊢
  have hx0 : 0 < x := lt_of_lt_of_le (by norm_num) hs
  have hq : ∀ {c : ℝ}, 0 ≤ c → c / (placeFactor alg eng φ * sin (rad z1)) ≤ 2 * c / x := by
    intro c hc
    rw [div_le_div_iff₀ (by linarith) hx0]
    nlinarith
  have g5 : |z - z2| ≤ 0.0019 / x := (g5.trans (hq (by norm_num))).trans (div_le_div_of_nonneg_right (by norm_num) hx0.le)
  have g6 := g6.trans (hq (by norm_num))
  have ferr : refrErr alg ≤ rad (refractionError alg) := by
    have hpi := pi_gt_d4
    rcases alg_cases hkp with rfl | rfl | rfl | rfl <;>
      simp only [refrErr, refractionError, String.reduceEq, if_true, if_false, rad] <;> norm_num at hpi ⊢ <;> linarith
  refine ⟨z, a, z1, g1, g3, ?_, ?_, ?_⟩
  · have c1 := close_deg (z := z1) (z' := z1) (p := 0) (by simp) g6
    have hsz : |sin (rad z1)| ≤ 1 := abs_sin_le_one _
    have c2 : Close (rad (0.00076 / x)) (dirVec (rad z1) (rad a)) (dirVec (rad z1) (rad a2)) := by
      refine c1.mono ?_
      have : |sin (rad z1)| * rad (2 * 0.00038 / x) ≤ 1 * rad (2 * 0.00038 / x) :=
        mul_le_mul_of_nonneg_right hsz (by unfold rad; positivity)
      have e0 : rad 0 = 0 := by unfold rad; ring
      rw [one_mul] at this
      rw [e0, zero_add]
      refine this.trans (le_of_eq ?_)
      norm_num
    refine ((c2.trans hc).angle (dirVec_sq _ _) (sunVec_sq _ _ _) ?_).trans ?_
    · have h1 : 0.00076 / x ≤ 0.035 := by rw [div_le_iff₀ hx0]; norm_num at hs ⊢; linarith
      have h2 := rad_mono h1
      have hp := pi_lt_d4
      have h3 : rad 0.035 ≤ 0.001 := by unfold rad; norm_num at hp ⊢; linarith
      norm_num at hB h2 h3 ⊢; linarith
    · rw [rad_add, mul_add]
      have h1 : 1.001 * rad (0.00076 / x) ≤ rad (0.00077 / x) := by
        have e : 1.001 * rad (0.00076 / x) = rad (1.001 * 0.00076 / x) := by unfold rad; ring
        rw [e]
        exact rad_mono (div_le_div_of_nonneg_right (by norm_num) hx0.le)
      linarith
  · have hlowE : lowEl alg ≤ π / 2 - Z := by
      have h1 : 90 - z1 ≥ 90 - ζ - positionError alg eng := by linarith [(abs_le.1 hzz).2]
      have h2 : rad (lowestElevation alg - positionError alg eng) ≤ π / 2 - Z := by
        rw [← eZ, ← e90, ← rad_sub]; exact rad_mono (by linarith)
      refine le_trans ?_ h2
      have hpi := pi_gt_d4
      have hpi' := pi_lt_d4
      rcases alg_cases hkp with rfl | rfl | rfl | rfl <;>
        simp only [lowEl, lowestElevation, positionError, String.reduceEq, if_true, if_false, rad] <;>
        (try split_ifs) <;> norm_num at hpi hpi' ⊢ <;> linarith
    obtain ⟨y, hy, hyr⟩ := hrf hlowE
    have ey : y * (180 / π) = z2 := XR.fin_inj.1 ((zenithDeg_fin hy).symm.trans hz')
    have eS : (π / 2 - Z) * (180 / π) = 90 - z1 := by rw [← hz0]; field_simp; ring
    have h1 : |z2 - (z1 - standardRefraction (90 - z1))| ≤ refractionError alg := by
      apply of_rad
      refine le_trans (le_of_eq ?_) (hyr.trans ferr)
      rw [rad_sub, rad_sub, ← ey, rad_deg, eZ, eS]; congr 1
    exact (abs_sub_le _ z2 _).trans (by linarith)
  · exact (abs_sub_le _ z2 _).trans (by linarith)

/-- C69: two calls with refraction in two such arithmetics, of any use cases, algorithms and engines, return at the same
instant and place zenith angles that differ by at most the sum of these errors, in degrees. -/
theorem C69_agree {B : Arith} {uc1 uc2 : UseCase} {w1 : World (Rd A)} {w2 : World (Rd B)} {times1 times2 : Times}
    {lat1 lon1 : Coord (Rd A)} {lat2 lon2 : Coord (Rd B)} {alg1 eng1 alg2 eng2 : String}
    {s1 : Sunpos (Rd A)} {s2 : Sunpos (Rd B)} {e1 e2 : Dim → Nat} {t : Int} {φ l ζ : ℝ}
    (h1 : call uc1 w1 times1 lat1 lon1 alg1 .pyTrue eng1 = .ok s1)
    (h2 : call uc2 w2 times2 lat2 lon2 alg2 .pyTrue eng2 = .ok s2)
    (ha1 : AtRd s1 times1 e1 t φ l) (ha2 : AtRd s2 times2 e2 t φ l)
    (hφ : -90 ≤ φ ∧ φ ≤ 90) (hl : -180 ≤ l ∧ l < 180) (hpole : alg1 = "nrel" ∨ alg2 = "nrel" → |φ| ≤ 90 - 1e-10)
    (hup : cos (rad ζ) = sin (rad φ) * sin (declination (century t))
      + cos (rad φ) * cos (declination (century t)) * cos (hourAngle (century t) + rad l))
    (hζ0 : 0 ≤ ζ) (hζ1 : ζ ≤ 90 - lowestElevation alg1) (hζ2 : ζ ≤ 90 - lowestElevation alg2)
    (hs1 : 0.06 ≤ placeFactor alg1 eng1 φ * sin (rad ζ)) (hs2 : 0.06 ≤ placeFactor alg2 eng2 φ * sin (rad ζ)) :
    ∃ z1 z2 : ℝ, s1.zenithDeg.get e1 = Rd.fin z1 ∧ s2.zenithDeg.get e2 = Rd.fin z2 ∧
      |z1 - z2| ≤ (positionError alg1 eng1 + refractionError alg1 + 0.0019 / (placeFactor alg1 eng1 φ * sin (rad ζ)))
        + (positionError alg2 eng2 + refractionError alg2 + 0.0019 / (placeFactor alg2 eng2 φ * sin (rad ζ))) := by
  obtain ⟨z1, -, -, g1, -, -, -, b1⟩ := C69_accuracy h1 ha1 hφ hl (fun h => hpole (.inl h)) hup hζ0 hζ1 hs1
  obtain ⟨z2, -, -, g2, -, -, -, b2⟩ := C69_accuracy h2 ha2 hφ hl (fun h => hpole (.inr h)) hup hζ0 hζ2 hs2
  refine ⟨z1, z2, g1, g2, ?_⟩
  rw [abs_le] at *
  constructor <;> linarith [b1.1, b1.2, b2.1, b2.2]

/-- at every instant, and for every true zenith angle between 30 and 50 degrees, there is a place where the sun of the
ephemeris is at that zenith angle, and every algorithm, in every use case, has there, in the 53-bit arithmetic, a cell to which
C69 applies -/
example {t : Int} (ht : |t| < 2 ^ 63) {ζ : ℝ} (hζ0 : 30 ≤ ζ) (hζ : ζ ≤ 50) : ∃ φ l : ℝ,
    (-90 ≤ φ ∧ φ ≤ 90) ∧ (-180 ≤ l ∧ l < 180) ∧ |φ| ≤ 90 - 1e-10 ∧
    cos (rad ζ) = sin (rad φ) * sin (declination (century t))
      + cos (rad φ) * cos (declination (century t)) * cos (hourAngle (century t) + rad l) ∧
    (∀ alg, ζ ≤ 90 - lowestElevation alg) ∧ (∀ alg eng, 0.06 ≤ placeFactor alg eng φ * sin (rad ζ)) ∧
    ∀ (uc : UseCase) {alg eng : String}, KnownPair alg eng →
      ∃ (w : World (Rd Arith.binary64)) (s : Sunpos (Rd Arith.binary64)),
      call uc w (oneTime t) (.vec [Rd.fin φ]) (.vec [Rd.fin l]) alg .pyTrue eng = .ok s ∧
      AtRd s (oneTime t) (fun _ => 0) t φ l := by
  obtain ⟨l, hl, k, hk⟩ := exists_lon (hourAngle (century t)) 0
  have hd : |declination (century t)| ≤ 0.4154 := by
    obtain ⟨o1, o2⟩ := Ephem.obliquity_bound (century_bound ht)
    unfold Ephem.declination
    have hp := pi_gt_d2
    refine (Psa.arcsin_bound ⟨?_, ?_⟩).trans ?_ <;> norm_num at o1 o2 hp ⊢ <;> linarith
  have hd := abs_le.1 hd
  have hp := pi_gt_d4
  have hp' := pi_lt_d4
  have h1 : rad ζ ≤ rad 50 := rad_mono hζ
  have h0 : rad 30 ≤ rad ζ := rad_mono hζ0
  have h50 : rad 50 = 5 * π / 18 := by unfold rad; ring
  have h30 : rad 30 = π / 6 := by unfold rad; ring
  obtain ⟨u, hu⟩ : ∃ u, u = declination (century t) + rad ζ := ⟨_, rfl⟩
  have hub : 0 ≤ u ∧ u ≤ 1.2883 := by
    rw [hu]; constructor <;> norm_num at * <;> linarith
  have hφ : -(π / 2) ≤ u ∧ u ≤ π / 2 := by constructor <;> norm_num at * <;> linarith
  have hcu : 0.27 ≤ cos u := by
    rw [← sin_pi_div_two_sub]
    have h2 : sin 0.28 ≤ sin (π / 2 - u) := by
      apply sin_le_sin_of_le_of_le_pi_div_two <;> norm_num at * <;> linarith
    have h3 := sin_gt_sub_cube (x := 0.28) (by norm_num)
    norm_num at h2 h3 ⊢; linarith
  have hsz : 1 / 2 ≤ sin (rad ζ) := by
    rw [← sin_pi_div_six, ← h30]
    apply sin_le_sin_of_le_of_le_pi_div_two <;> norm_num at * <;> linarith
  have hur : rad (u * (180 / π)) = u := rad_deg u
  have hm := rad_mem hφ.1 hφ.2
  refine ⟨u * (180 / π), l, hm, hl, ?_, ?_, ?_, ?_, ?_⟩
  · apply of_rad
    rw [hur, abs_of_nonneg hub.1, rad]
    norm_num at *; linarith
  · rw [hk, cos_add_int_mul_two_pi, cos_zero, hur, mul_one]
    have := cos_sub u (declination (century t))
    rw [hu, add_sub_cancel_left, ← hu] at this
    rw [this]; ring
  · intro alg; unfold lowestElevation; split_ifs <;> linarith
  · intro alg eng
    have h2 : 0.27 ≤ placeFactor alg eng (u * (180 / π)) := by
      unfold placeFactor latFactor
      rw [hur]
      split_ifs <;> first | exact hcu | norm_num
    have := mul_le_mul h2 hsz (by norm_num) (by linarith)
    norm_num at this ⊢; linarith
  · intro uc alg eng hk
    exact single_call_rd (A := Arith.binary64) uc hk .pyTrue binary64_90 binary64_180 ht hm hl

end SW.Props
