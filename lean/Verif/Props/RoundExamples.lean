/-
The hypotheses of C66 are met: the stored fields of a call in the 53-bit arithmetic.
-/
import Verif.Props.FloatDaylight

namespace SW.Props
open SW.Spec Real Sunpos
open SW.Ephem (century declination equationOfTime distance hourAngle)

/-- the stored zenith angle, in radians, of an object whose zenith angle in degrees is a number -/
theorem stored_zenith {s : Sunpos (Rd Arith.binary64)} {e : Dim → Nat} {z : ℝ} (h : s.zenithDeg.get e = Rd.fin z)
    (hz : |z| ≤ 190) : ∃ ζ : ℝ, s.zenith.get e = Rd.fin ζ ∧ |ζ| ≤ 10 := by
  rw [rd_zenithDeg] at h
  rcases hn : s.zenith.get e with _ | ζ
  · rw [hn] at h; exact absurd h (by intro h; cases h)
  · refine ⟨ζ, rfl, ?_⟩
    rw [hn] at h
    have hp := pi_gt_d4
    have hp2 := pi_lt_d4
    have hp0 := pi_pos
    have hc : Ap (180 / Num.pi : Rd Arith.binary64) (180 / π) 57.3 2e-13 := by
      refine (Ap.div 3.1415 57.3 (Ap.nat (n := 180)) Ap.pi ?_ (by norm_num) ?_ (by norm_num)).mono (by norm_num) (by norm_num)
      · rw [abs_of_pos pi_pos]; norm_num at *; linarith
      · rw [abs_of_pos (by positivity), div_le_iff₀ pi_pos]; norm_num at *; linarith
    obtain ⟨-, r, hr, er⟩ := hc
    have h57 : 57.2 ≤ 180 / π := by rw [le_div_iff₀ pi_pos]; norm_num at *; linarith
    have hr57 : 57 ≤ r := by have := (abs_le.1 er).1; norm_num at this h57 ⊢; linarith
    unfold degrees at h
    rw [hr] at h
    have h' : (XR.fin (bits 52 (ζ * r))) = XR.fin z := h
    have h1 := bits_near 52 (ζ * r)
    rw [XR.fin_inj.1 h'] at h1
    have h2 : |ζ * r| ≤ 400 := by
      have a1 := abs_sub_abs_le_abs_sub (ζ * r) z
      rw [abs_sub_comm (ζ * r) z] at a1
      have a2 : (2 : ℝ) ^ (-((52 : ℕ) : ℤ) - 1) * |ζ * r| ≤ 0.5 * |ζ * r| := by gcongr; norm_num
      have a3 := h1.trans a2
      generalize |ζ * r| = X at *
      norm_num at a3 ⊢; linarith
    have hr0 : 0 < r := by linarith
    rw [abs_mul, abs_of_pos hr0] at h2
    by_contra hc
    push Not at hc
    have := mul_le_mul hc.le hr57 (by norm_num) (abs_nonneg ζ)
    linarith

/-- C66_zenith, C66_eth and C66_incidence apply to every object returned by a call at 60 degrees north, at every
instant: the stored zenith angle, eccentricity correction factor, declination, equation of time and true solar time are
within the bounds they need. -/
example (uc : UseCase) {alg eng : String} (hk : KnownPair alg eng) {t : Int} (ht : |t| < 2 ^ 63) :
    ∃ (w : World (Rd Arith.binary64)) (s : Sunpos (Rd Arith.binary64)) (ζ f d x : ℝ) (τ : Int),
      call uc w (oneTime t) (.vec [Rd.fin 60]) (.vec [Rd.fin (-4.5)]) alg .pyFalse eng = .ok s ∧
      s.zenith.get (fun _ => 0) = Rd.fin ζ ∧ |ζ| ≤ 10 ∧ s.ecf.get (fun _ => 0) = Rd.fin f ∧ |f| ≤ 2 ∧
      s.latitude.get (fun _ => 0) = Rd.fin 60 ∧ s.longitude.get (fun _ => 0) = Rd.fin (-4.5) ∧
      s.decDeg.get (fun _ => 0) = Rd.fin d ∧ |d| ≤ 30 ∧ s.eot.get (fun _ => 0) = Rd.fin x ∧ |x| ≤ 100 ∧
      stampAt s.timesUtc 0 = some t ∧ (s.trueSolarTime w).get (fun _ => 0) = some τ := by
  obtain ⟨w, s, ζ, h, ha, hζ, hs⟩ := example_float ht uc hk
  obtain ⟨-, d, x, -, -, -, hd, hx, -, -, -, -, bd, bx⟩ := float_time (e := fun _ => 0) h ha.time ht
  have hutc : stampAt s.timesUtc ((fun _ => 0 : Dim → Nat) .time) = some t := by rw [(C12_naive h rfl).1]; exact ha.time
  obtain ⟨τ, hτ, -⟩ := C66_tst (e := fun _ => 0) w s hutc ht hx (bx.trans (by norm_num)) ha.lon (by norm_num)
  obtain ⟨-, z, -, z', -, -, -, -, -, hz, -, -, -, hz0, hz1, ez, -⟩ :=
    float_near h (by decide) ha (by norm_num) (by norm_num) (fun _ => by norm_num) hζ hs
  have ez' : |z - z'| ≤ 1 := by
    refine ez.trans ?_
    rw [div_le_one (by norm_num at hs; linarith)]; norm_num at hs ⊢; linarith
  obtain ⟨q, hq, bq⟩ := stored_zenith hz (by
    have := abs_le.1 ez'
    rw [abs_le]; constructor <;> linarith)
  obtain ⟨b, hb, -⟩ := rd_time (e := fun _ => 0) h ha.time
  obtain ⟨s', h', ha'⟩ := single_call uc (known_iff.2 ⟨b, hb⟩) .pyFalse ht (φ := 40) (l := -4.5) (by norm_num) (by norm_num)
  obtain ⟨-, ⟨f, f', h4, h5, h6⟩, -⟩ := near_time (e := fun _ => 0) (e' := fun _ => 0) h h' ha.time ha'.time ht
  obtain ⟨f1, g1, g2, g3⟩ := C18_ecf (e := fun _ => 0) h' ha'.time ht
  obtain rfl : f' = f1 := XR.fin_inj.1 (h5.symm.trans g1)
  refine ⟨w, s, q, f, d, x, τ, h, hq, bq, h4, ?_, ha.lat, ha.lon, hd, bd.trans (by norm_num), hx, bx.trans (by norm_num), hutc, hτ⟩
  have := abs_le.1 h6
  norm_num at this g2 g3
  rw [abs_le]; constructor <;> linarith

set_option maxHeartbeats 1000000 in
/-- C66_airmass and C66_eth_corrected apply by day: at 80 degrees south at noon of 1 January 2000 every algorithm returns
a zenith angle between 1e-30 and 90 - 1e-13 degrees, and an exact object of the same zenith angle and eccentricity
correction factor exists. -/
example (uc : UseCase) {alg eng : String} (hk : KnownPair alg eng) :
    ∃ (w : World (Rd Arith.binary64)) (s : Sunpos (Rd Arith.binary64)) (s' : Sunpos XR) (ζ z f : ℝ),
      call uc w (oneTime 946728000000000000) (.vec [Rd.fin (-80)]) (.vec [Rd.fin (-4.5)]) alg .pyFalse eng = .ok s ∧
      s.zenith.get (fun _ => 0) = Rd.fin ζ ∧ |ζ| ≤ 10 ∧ s.zenithDeg.get (fun _ => 0) = Rd.fin z ∧
      s'.zenithDeg.get (fun _ => 0) = .fin z ∧ 1e-30 ≤ z ∧ z ≤ 90 - 1e-13 ∧
      s.ecf.get (fun _ => 0) = Rd.fin f ∧ s'.ecf.get (fun _ => 0) = .fin f ∧ |f| ≤ 1.1 := by
  have ht : |(946728000000000000 : Int)| < 2 ^ 63 := by norm_num
  obtain ⟨w, s, h, ha⟩ := single_call_rd (A := Arith.binary64) uc hk .pyFalse binary64_90 binary64_180 ht (φ := -80) (l := -4.5) (by norm_num) (by norm_num)
  have hdec := dec_2000.2
  have p1 := pi_gt_d4
  have p2 := pi_lt_d4
  have hπ := pi_pos
  have hc10 : rad (-80) = -(π / 2 - rad 10) := by unfold rad; ring
  have hr1 : 0.1745 ≤ rad 10 := by unfold rad; norm_num at p1 ⊢; linarith
  have hr2 : rad 10 ≤ 0.1746 := by unfold rad; norm_num at p2 ⊢; linarith
  have hs1 : sin (rad 10) ≤ 0.1746 := (sin_le (by linarith [hr1])).trans hr2
  have hs2 : 0.17 ≤ sin (rad 10) := by
    have := sin_gt_sub_cube (x := rad 10) (by norm_num at hr1; linarith)
    have h3 : (rad 10) ^ 3 ≤ 0.1746 ^ 3 := pow_le_pow_left₀ (by norm_num at hr1; linarith) hr2 3
    norm_num at h3 hr1 this ⊢; linarith
  have hcs : 0.98 ≤ cos (rad 10) := by
    have := one_sub_sq_div_two_le_cos (x := rad 10)
    have h3 : (rad 10) ^ 2 ≤ 0.1746 ^ 2 := pow_le_pow_left₀ (by norm_num at hr1; linarith) hr2 2
    norm_num at h3 this ⊢; linarith
  have hcφ : cos (rad (-80)) = sin (rad 10) := by rw [hc10, cos_neg, cos_pi_div_two_sub]
  have hsφ : sin (rad (-80)) = -cos (rad 10) := by rw [hc10, sin_neg, sin_pi_div_two_sub]
  obtain ⟨D, hD⟩ : ∃ D, D = declination (century 946728000000000000) := ⟨_, rfl⟩
  have hD1 : D ≤ -0.38 := by rw [hD, dec_2000.1]; exact hdec
  have hsdec : |sin D| ≤ 0.41 := by
    obtain ⟨o1, o2⟩ := Ephem.obliquity_bound (century_bound ht)
    have h1 : |sin (Ephem.obliquity (century 946728000000000000)) * sin (Ephem.longitude (century 946728000000000000))| ≤ 0.41 := by
      rw [abs_mul]
      have a1 : |sin (Ephem.obliquity (century 946728000000000000))| ≤ 0.41 :=
        (Real.abs_sin_le_abs).trans (by rw [abs_of_nonneg (by norm_num at o1; linarith)]; exact o2)
      have := mul_le_mul a1 (abs_sin_le_one (Ephem.longitude (century 946728000000000000))) (abs_nonneg _) (by norm_num)
      linarith
    have h2 := abs_le.1 h1
    rw [hD]
    unfold Ephem.declination
    rw [sin_arcsin (by norm_num at h2; linarith) (by norm_num at h2; linarith)]
    exact h1
  have hD0 : -(π / 2) ≤ D := by rw [hD]; unfold Ephem.declination; exact neg_pi_div_two_le_arcsin _
  have hsD : sin D ≤ -0.35 := by
    have h1 : sin D ≤ sin (-0.38) := sin_le_sin_of_le_of_le_pi_div_two hD0 (by norm_num at p1 ⊢; linarith) hD1
    have h2 := sin_gt_sub_cube (x := 0.38) (by norm_num)
    rw [sin_neg] at h1
    norm_num at h1 h2 ⊢; linarith
  obtain ⟨u, hu⟩ : ∃ u, u = (sunVec (rad (-80)) (declination (century 946728000000000000))
        (-(hourAngle (century 946728000000000000) + rad (-4.5)))).up := ⟨_, rfl⟩
  have hub : 0.16 ≤ u ∧ u ≤ 0.6 := by
    have e : u = cos (rad 10) * (-sin D) + sin (rad 10) * (cos D * cos (-(hourAngle (century 946728000000000000) + rad (-4.5)))) := by
      rw [hu]
      show sin (rad (-80)) * sin _ + cos (rad (-80)) * cos _ * cos _ = _
      rw [hsφ, hcφ, ← hD]; ring
    have a3 : |cos D * cos (-(hourAngle (century 946728000000000000) + rad (-4.5)))| ≤ 1 := by
      rw [abs_mul]; exact mul_le_one₀ (abs_cos_le_one _) (abs_nonneg _) (abs_cos_le_one _)
    rw [e]
    generalize cos D * cos (-(hourAngle (century 946728000000000000) + rad (-4.5))) = Q at *
    have b1 := abs_le.1 a3
    have b2 := abs_le.1 hsdec
    have b3 := cos_le_one (rad 10)
    generalize sin D = S at *
    generalize sin (rad 10) = X at *
    generalize cos (rad 10) = Y at *
    norm_num at hs1 hs2 hcs hsD b2 ⊢
    constructor <;> nlinarith
  obtain ⟨u1, u2⟩ := hub
  obtain ⟨ζ, hζ⟩ : ∃ ζ, ζ = arccos u * (180 / π) := ⟨_, rfl⟩
  have hcζ : cos (rad ζ) = u := by
    rw [hζ, rad_deg, cos_arccos (by norm_num at u1; linarith) (by norm_num at u2; linarith)]
  have hs : 0.06 ≤ placeFactor alg eng (-80) * sin (rad ζ) := by
    rw [hζ, rad_deg, sin_arccos]
    have h1 : 0.79 ≤ √(1 - u ^ 2) := by
      apply le_sqrt_of_sq_le
      norm_num at u1 u2 ⊢; nlinarith
    have h2 : 0.17 ≤ placeFactor alg eng (-80) := by
      unfold placeFactor latFactor
      rw [hcφ]
      split_ifs <;> norm_num at hs2 ⊢; linarith
    have := mul_le_mul h2 h1 (by norm_num) (by norm_num at h2; linarith)
    norm_num at this ⊢; linarith
  obtain ⟨-, z, -, z', a', B, -, -, -, hz, -, -, -, hz0, hz1, ez, -, hB, -, hcl⟩ :=
    float_near h (by decide) ha (by norm_num) (by norm_num) (fun _ => by rw [abs_of_neg] <;> norm_num) (hu.symm.trans hcζ.symm) hs
  have ez' : |z - z'| ≤ 0.03 := by
    refine ez.trans ?_
    rw [div_le_iff₀ (by norm_num at hs; linarith)]; norm_num at hs ⊢; linarith
  obtain ⟨e1, e2⟩ := abs_le.1 ez'
  have hzu := hcl ⟨1, 0, 0⟩ (by simp [Vec.sq, Vec.dot])
  simp only [Vec.dot, one_mul, zero_mul, add_zero] at hzu
  rw [← hu] at hzu
  have hup : (dirVec (rad z') (rad a')).up = cos (rad z') := rfl
  rw [hup] at hzu
  have hzc := abs_le.1 hzu
  have l1 : 0.13 ≤ cos (rad z') := by norm_num at hB u1 ⊢; linarith
  have l2 : cos (rad z') ≤ 0.63 := by norm_num at hB u2 ⊢; linarith
  have hz89 : z' ≤ 89 := by
    by_contra hc
    push Not at hc
    have k1 : cos (rad z') ≤ cos (rad 89) := by
      refine cos_le_cos_of_nonneg_of_le_pi (by unfold rad; positivity) (by unfold rad; nlinarith) (by unfold rad; gcongr)
    have k2 : cos (rad 89) = sin (rad 1) := by
      rw [← cos_pi_div_two_sub]; congr 1; unfold rad; ring
    have k3 : sin (rad 1) ≤ rad 1 := sin_le (by unfold rad; positivity)
    have k4 : rad 1 ≤ 0.1 := by unfold rad; norm_num at p2 ⊢; linarith
    norm_num at k4 l1; linarith
  have hz1' : 1 ≤ z' := by
    by_contra hc
    push Not at hc
    have k1 : cos (rad 1) ≤ cos (rad z') :=
      cos_le_cos_of_nonneg_of_le_pi (by unfold rad; positivity) (by unfold rad; nlinarith) (by unfold rad; gcongr)
    have k2 := one_sub_sq_div_two_le_cos (x := rad 1)
    have k4 : rad 1 ≤ 0.1 := by unfold rad; norm_num at p2 ⊢; linarith
    have k5 : 0 ≤ rad 1 := by unfold rad; positivity
    norm_num at k4 l2; nlinarith
  obtain ⟨q, hq, bq⟩ := stored_zenith hz (by
    norm_num at e1 e2
    rw [abs_le]; constructor <;> linarith)
  obtain ⟨b, hb, -⟩ := rd_time (e := fun _ => 0) h ha.time
  obtain ⟨s', h', ha'⟩ := single_call uc (known_iff.2 ⟨b, hb⟩) .pyFalse ht (φ := 40) (l := -4.5) (by norm_num) (by norm_num)
  obtain ⟨-, ⟨f, f', h4, h5, h6⟩, -⟩ := near_time (e := fun _ => 0) (e' := fun _ => 0) h h' ha.time ha'.time ht
  obtain ⟨f1, g1, g2, g3⟩ := C18_ecf (e := fun _ => 0) h' ha'.time ht
  obtain rfl : f' = f1 := XR.fin_inj.1 (h5.symm.trans g1)
  refine ⟨w, s, { s' with zenith := DA.scalar (.fin (rad z)), ecf := DA.scalar (.fin f) }, q, z, f, h, hq, bq, hz, ?_, ?_, ?_, h4, rfl, ?_⟩
  · show degrees (XR.fin (rad z)) = _
    have e : degrees (XR.fin (rad z)) = .fin (rad z * (180 / π)) := by unfold degrees; xr
    rw [e]; congr 1; unfold rad; field_simp
  · norm_num at e1 ⊢; linarith
  · norm_num at e2 ⊢; linarith
  · have := abs_le.1 h6
    norm_num at this g2 g3
    rw [abs_le]; norm_num; constructor <;> linarith

end SW.Props
