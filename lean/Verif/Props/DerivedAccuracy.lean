/-
C71: the true solar time, the cosine of incidence and the extraterrestrial irradiance against the reference ephemeris.
-/
import Verif.Props.Continuity
import Verif.Props.RoundMethods
import Verif.Props.FloatDaylight
import Verif.Props.Irradiance

namespace SW.Props
open SW.Spec Real Sunpos
open SW.Ephem (century declination equationOfTime distance hourAngle meanLongitude rightAscension siderealTime)

variable {A : Arith}

theorem emod_real (τ : ℤ) : ((τ % 86400000000000 : ℤ) : ℝ) = τ - 86400e9 * (τ / 86400000000000 : ℤ) := by
  have := Int.emod_def τ 86400000000000
  rw [this]; push_cast; norm_num

/-- A time of the day `τ` which is, to `ε` nanoseconds, the instant `t` plus an equation of time `x` and four minutes for each
degree of the longitude `l`, stands for the hour angle of the sun of the ephemeris, if `x` is its equation of time. -/
theorem solar_angle {t τ : ℤ} {x l ε E : ℝ} (ht : |t| < 2 ^ 63) {k : ℤ}
    (hx : |x - equationOfTime (century t) - 1440 * k| ≤ E) (hτ : |(τ : ℝ) - (t + (x + 4 * l) * 60e9)| ≤ ε) :
    ∃ k : ℤ, |rad (15 * (hoursOfDay τ - 12)) - (hourAngle (century t) + rad l) - k * (2 * π)|
      ≤ rad (E / 4) + 2.6e-5 + 7.3e-14 * ε := by
  have hT := century_bound ht
  have hp := pi_pos
  have hp6 := pi_lt_d6
  obtain ⟨q, hq⟩ : ∃ q : ℤ, q = τ / 86400000000000 := ⟨_, rfl⟩
  refine ⟨10957 + k - q, ?_⟩
  have hH : rad (15 * (hoursOfDay τ - 12)) = 2 * π * ((τ : ℝ) / 86400e9) - π - q * (2 * π) := by
    unfold hoursOfDay rad; rw [emod_real, ← hq]; norm_num; ring
  have hE : equationOfTime (century t) * (2 * π / 1440) = meanLongitude (century t) - rightAscension (century t) := by
    unfold equationOfTime; field_simp
  have hS : 2 * π * ((t : ℝ) / 86400e9) - π + meanLongitude (century t) - siderealTime (century t) - 10957 * (2 * π)
      = (π / 180) * (0.0002 - 0.00038925 * century t) := by
    have : (t : ℝ) / 86400e9 = 36525 * century t + 10957.5 := by unfold century; ring
    rw [this]; unfold meanLongitude siderealTime Ephem.deg; norm_num; ring
  have e : rad (15 * (hoursOfDay τ - 12)) - (hourAngle (century t) + rad l) - ((10957 + k - q : ℤ) : ℝ) * (2 * π)
      = (x - equationOfTime (century t) - 1440 * k) * (2 * π / 1440) + (π / 180) * (0.0002 - 0.00038925 * century t)
        + (2 * π / 86400e9) * ((τ : ℝ) - (t + (x + 4 * l) * 60e9)) := by
    rw [hH]; unfold hourAngle
    rw [sub_mul, sub_mul, hE, ← hS]; unfold rad; push_cast; norm_num; ring
  rw [e]
  have b1 : |(x - equationOfTime (century t) - 1440 * k) * (2 * π / 1440)| ≤ rad (E / 4) := by
    rw [abs_mul, abs_of_pos (by positivity : 0 < 2 * π / 1440)]
    unfold rad
    calc _ ≤ E * (2 * π / 1440) := by gcongr
      _ = _ := by ring
  have b2 : |(π / 180) * (0.0002 - 0.00038925 * century t)| ≤ 2.6e-5 := by
    rw [abs_mul, abs_of_pos (by positivity : 0 < π / 180)]
    have : |0.0002 - 0.00038925 * century t| ≤ 0.0014612 := by
      rw [abs_le] at hT ⊢; norm_num at hT ⊢; constructor <;> linarith [hT.1, hT.2]
    have hc : π / 180 ≤ 0.0174534 := by norm_num at hp6 ⊢; linarith
    exact (mul_le_mul hc this (abs_nonneg _) (by norm_num)).trans (by norm_num)
  have b3 : |(2 * π / 86400e9) * ((τ : ℝ) - (t + (x + 4 * l) * 60e9))| ≤ 7.3e-14 * ε := by
    rw [abs_mul, abs_of_pos (by positivity : 0 < 2 * π / 86400e9)]
    refine mul_le_mul ?_ hτ (abs_nonneg _) (by norm_num)
    norm_num at hp6 ⊢; linarith
  exact (abs_add_le _ _).trans (add_le_add ((abs_add_le _ _).trans (add_le_add b1 b2)) b3)

/-- C71: the true solar time is the instant plus the equation of time of the reference ephemeris and four minutes for each
degree of longitude, up to whole days, to the error of C54 and a nanosecond; and the hour angle that it stands for, 15 degrees for
each hour after noon, is that of the reference sun (sidereal time minus right ascension plus longitude). -/
theorem C71_tst {uc : UseCase} {w w' : World XR} {times : Times} {latitude longitude : Coord XR}
    {alg eng : String} {refr : PyVal} {s : Sunpos XR} {e : Dim → Nat} {t : Int} {l : ℝ}
    (h : call uc w times latitude longitude alg refr eng = .ok s)
    (hk : stampAt times.stamps (e .time) = some t) (ht : |t| < 2 ^ 63)
    (hutc : stampAt s.timesUtc (e .time) = some t) (hl : s.longitude.get e = .fin l) :
    ∃ τ : ℤ, (s.trueSolarTime w').get e = some τ ∧
      (∃ k : ℤ, |(τ : ℝ) - (t + (equationOfTime (century t) + 4 * l) * 60e9) - 86400e9 * k| ≤ eotError alg * 60e9 + 1) ∧
      ∃ k : ℤ, |rad (15 * (hoursOfDay τ - 12)) - (hourAngle (century t) + rad l) - k * (2 * π)|
        ≤ rad (eotError alg / 4) + 2.7e-5 := by
  obtain ⟨x, hx, k, hk'⟩ := C54_eot h hk ht
  obtain ⟨τ, h1, h2, -⟩ := C30_tst w' s hutc hx hl
  refine ⟨τ, h1, ⟨k, ?_⟩, ?_⟩
  · have e1 : (τ : ℝ) - (t + (equationOfTime (century t) + 4 * l) * 60e9) - 86400e9 * k
      = (x - equationOfTime (century t) - 1440 * k) * 60e9 + ((τ : ℝ) - (t + (x + 4 * l) * 60e9)) := by norm_num; ring
    rw [e1]
    refine (abs_add_le _ _).trans (add_le_add ?_ h2.le)
    rw [abs_mul, abs_of_pos (by norm_num : (0 : ℝ) < 60e9)]
    gcongr
  · obtain ⟨j, hj⟩ := solar_angle (l := l) ht hk' h2.le
    exact ⟨j, hj.trans (by norm_num; linarith)⟩

/-- C71: the true solar time in floating-point arithmetic. -/
theorem C71_tst_float {uc : UseCase} {w w' : World (Rd A)} {times : Times} {latitude longitude : Coord (Rd A)}
    {alg eng : String} {refr : PyVal} {s : Sunpos (Rd A)} {e : Dim → Nat} {t : Int} {l : ℝ}
    (h : call uc w times latitude longitude alg refr eng = .ok s)
    (hk : stampAt times.stamps (e .time) = some t) (ht : |t| < 2 ^ 63)
    (hutc : stampAt s.timesUtc (e .time) = some t) (hl : s.longitude.get e = Rd.fin l) (hlb : |l| ≤ 360) :
    ∃ τ : ℤ, (s.trueSolarTime w').get e = some τ ∧
      (∃ k : ℤ, |(τ : ℝ) - (t + (equationOfTime (century t) + 4 * l) * 60e9) - 86400e9 * k|
        ≤ eotError alg * 60e9 + 86000) ∧
      ∃ k : ℤ, |rad (15 * (hoursOfDay τ - 12)) - (hourAngle (century t) + rad l) - k * (2 * π)|
        ≤ rad (eotError alg / 4) + 2.7e-5 := by
  obtain ⟨-, -, x, -, -, hx, -, -, k, hk'⟩ := C64_time h hk ht
  obtain ⟨s', d, x1, d', x', -, -, h2, -, -, -, -, -, h8⟩ := float_time h hk ht
  obtain rfl : x = x1 := Rd.fin_inj.1 (hx.symm.trans h2)
  obtain ⟨τ, h1, h2⟩ := C66_tst w' s hutc ht hx (h8.trans (by norm_num)) hl hlb
  refine ⟨τ, h1, ⟨k, ?_⟩, ?_⟩
  · have e1 : (τ : ℝ) - (t + (equationOfTime (century t) + 4 * l) * 60e9) - 86400e9 * k
      = (x - equationOfTime (century t) - 1440 * k) * 60e9 + ((τ : ℝ) - (t + (x + 4 * l) * 60e9)) := by norm_num; ring
    rw [e1]
    refine (abs_add_le _ _).trans ((add_le_add ?_ h2).trans (b := (eotError alg + 1.1e-6) * 60e9 + 20000) (by norm_num; linarith))
    rw [abs_mul, abs_of_pos (by norm_num : (0 : ℝ) < 60e9)]
    gcongr
  · obtain ⟨j, hj⟩ := solar_angle (l := l) ht hk' h2
    refine ⟨j, hj.trans ?_⟩
    have : rad ((eotError alg + 1.1e-6) / 4) ≤ rad (eotError alg / 4) + 5e-9 := by
      have hp := pi_lt_d6
      unfold rad; norm_num at hp ⊢; linarith
    norm_num at this ⊢; linarith

/-- the sun at a nearby declination and hour angle (up to whole turns) -/
theorem close_both {φ δ δ' ω ω' a b : ℝ} (hδ : |δ - δ'| ≤ a) {k : ℤ} (hω : |ω - ω' - k * (2 * π)| ≤ b) :
    Close (a + b) (sunVec φ δ (-ω)) (sunVec φ δ' (-ω')) := by
  have c1 := close_dec φ δ (-ω) (δ' - δ)
  rw [add_sub_cancel, abs_sub_comm] at c1
  have c2 := close_hour φ δ' (-ω) (ω - ω' - k * (2 * π))
  have e2 : sunVec φ δ' (-ω + (ω - ω' - k * (2 * π))) = sunVec φ δ' (-ω') := by
    have : -ω + (ω - ω' - k * (2 * π)) = -ω' + ((-k : ℤ) : ℝ) * (2 * π) := by push_cast; ring
    rw [this]; unfold sunVec; rw [cos_add_int_mul_two_pi, sin_add_int_mul_two_pi]
  rw [e2] at c2
  exact (c1.mono hδ).trans (c2.mono hω)

/-- C71: the cosine of incidence, on a surface of any slope and azimuth, is that of the reference sun. -/
theorem C71_incidence {uc : UseCase} {w w' : World XR} {times : Times} {latitude longitude : Coord XR}
    {alg eng : String} {refr : PyVal} {s : Sunpos XR} {e : Dim → Nat} {t : Int} {φ l : ℝ} (β γ : ℝ)
    (h : call uc w times latitude longitude alg refr eng = .ok s)
    (ha : At s times e t φ l) (hutc : stampAt s.timesUtc (e .time) = some t) :
    ∃ v : ℝ, (s.incidence w' (.fin β) (.fin γ)).get e = .fin v ∧
      |v - (surfaceNormal (rad β) (rad γ)).dot (sunVec (rad φ) (declination (century t)) (-(hourAngle (century t) + rad l)))|
        ≤ rad (decError alg + eotError alg / 4) + 2.7e-5 := by
  obtain ⟨τ, h1, -, k, hk⟩ := C71_tst (w' := w') h ha.time ha.range hutc ha.lon
  obtain ⟨d, hd, ed⟩ := C54_declination h ha.time ha.range
  refine ⟨_, (C32_incidence w' s β γ ha.lat hd h1).1, ?_⟩
  have e1 : rad (15 * (12 - hoursOfDay τ)) = -rad (15 * (hoursOfDay τ - 12)) := by unfold rad; ring
  rw [e1]
  refine (close_both ed hk _ (surfaceNormal_sq _ _)).trans ?_
  rw [rad_add]; linarith

/-- C71: the cosine of incidence in floating-point arithmetic. -/
theorem C71_incidence_float {uc : UseCase} {w w' : World (Rd A)} {times : Times} {latitude longitude : Coord (Rd A)}
    {alg eng : String} {refr : PyVal} {s : Sunpos (Rd A)} {e : Dim → Nat} {t : Int} {φ l β γ : ℝ}
    (h : call uc w times latitude longitude alg refr eng = .ok s)
    (ha : AtRd s times e t φ l) (hutc : stampAt s.timesUtc (e .time) = some t)
    (hφ : |φ| ≤ 90) (hl : |l| ≤ 360) (hβ : |β| ≤ 360) (hγ : |γ| ≤ 360) :
    ∃ v : ℝ, (s.incidence w' (Rd.fin β) (Rd.fin γ)).get e = Rd.fin v ∧
      |v - (surfaceNormal (rad β) (rad γ)).dot (sunVec (rad φ) (declination (century t)) (-(hourAngle (century t) + rad l)))|
        ≤ rad (decError alg + eotError alg / 4) + 2.8e-5 := by
  obtain ⟨τ, h1, -, k, hk⟩ := C71_tst_float (w' := w') h ha.time ha.range hutc ha.lon hl
  obtain ⟨d, -, -, hd, -, -, ed, -, -⟩ := C64_time h ha.time ha.range
  obtain ⟨s', d1, x1, d', x', -, h2, -, -, -, -, -, h7, -⟩ := float_time h ha.time ha.range
  obtain rfl : d = d1 := Rd.fin_inj.1 (hd.symm.trans h2)
  obtain ⟨c, hc, ec⟩ := C66_incidence w' s ha.lat hφ hd (h7.trans (by norm_num)) h1 hβ hγ
  refine ⟨c, hc, ?_⟩
  have e1 : rad (15 * (12 - hoursOfDay τ)) = -rad (15 * (hoursOfDay τ - 12)) := by unfold rad; ring
  rw [e1] at ec
  have hcl := close_both (φ := rad φ) ed hk _ (surfaceNormal_sq (rad β) (rad γ))
  refine (abs_sub_le _ _ _).trans ((add_le_add ec hcl).trans ?_)
  have : rad (decError alg + 4e-8) ≤ rad (decError alg) + 1e-9 := by
    have hp := pi_lt_d6
    unfold rad; norm_num at hp ⊢; linarith
  rw [rad_add (decError alg) (eotError alg / 4)]; norm_num at this ⊢; linarith

/-- the zenith angle that the object stores (radians) is a number of moderate size -/
theorem float_stored {uc : UseCase} {w : World (Rd A)} {times : Times} {latitude longitude : Coord (Rd A)}
    {alg eng : String} {refr : PyVal} {s : Sunpos (Rd A)} {e : Dim → Nat} {t : Int} {φ l ζ : ℝ}
    (h : call uc w times latitude longitude alg refr eng = .ok s)
    (ha : AtRd s times e t φ l) (hφ : -90 ≤ φ ∧ φ ≤ 90) (hl : -180 ≤ l ∧ l < 180)
    (hpole : alg = "nrel" → |φ| ≤ 90 - 1e-10)
    (hv : (sunVec (rad φ) (declination (century t)) (-(hourAngle (century t) + rad l))).up = cos (rad ζ))
    (hlow : refr = .pyTrue → 0 ≤ ζ ∧ ζ ≤ 90 - lowestElevation alg)
    (hs : 0.06 ≤ placeFactor alg eng φ * sin (rad ζ)) :
    ∃ v : ℝ, s.zenith.get e = Rd.fin v ∧ |v| ≤ 10 := by
  obtain ⟨b, hb, -⟩ := rd_time h ha.time
  have hkp := known_iff.2 ⟨b, hb⟩
  obtain ⟨s', h', ha'⟩ := single_call uc hkp refr ha.range hφ hl
  obtain ⟨s₀, h₀, ha₀⟩ := single_call uc hkp .pyFalse ha.range hφ hl
  have hr₀ : PyVal.pyFalse ≠ .pyTrue := by simp
  obtain ⟨z0, a0, B, hz0, haz0, hB, hB2, hc⟩ := position_close h₀ hr₀ ha₀
  obtain ⟨z1, hz1, hz2, hz3⟩ := C13_range h₀ ha₀ (.inr (.inr hr₀))
  obtain rfl : z1 = z0 := XR.fin_inj.1 (hz1.symm.trans hz0)
  have hang := (hc.angle (dirVec_sq _ _) (sunVec_sq _ _ _) (hB.trans (by norm_num))).trans hB2
  have e180 : rad 180 = π := by unfold rad; ring
  have hZ0 : 0 ≤ rad z1 := by unfold rad; positivity
  have hZπ : rad z1 ≤ π := by rw [← e180]; exact rad_mono hz3
  have hz905 : refr = .pyTrue → z1 ≤ 90.5 := by
    intro hr
    obtain ⟨hζ0, hζ⟩ := hlow hr
    have hzz := (zen_le_angle (a := rad a0) (z := rad z1) (ζ := rad ζ) hZ0 hZπ
      (by unfold rad; positivity) (by
        rw [← e180]; apply rad_mono; unfold lowestElevation at hζ; split_ifs at hζ <;> linarith) (sunVec_sq _ _ _) hv).trans hang
    rw [← rad_sub] at hzz
    have hzz := of_rad hzz
    have hpe : positionError alg eng ≤ 0.2 + lowestElevation alg := by
      have hh := alg_cases hkp
      unfold positionError lowestElevation
      rcases hh with rfl | rfl | rfl | rfl <;> simp only [String.reduceEq, if_true, if_false] <;> (try split_ifs) <;> norm_num
    have := (abs_le.1 hzz).2
    norm_num at hpe ⊢; linarith
  have hk1 := placeFactor_le alg eng φ
  have hκ0 := placeFactor_nonneg alg eng hφ
  have hsin0 : 0 ≤ sin (rad z1) := sin_nonneg_of_nonneg_of_le_pi hZ0 hZπ
  have hhalf : 0.003 ≤ placeFactor alg eng φ * sin (rad z1) := by
    generalize placeFactor alg eng φ = κ at *
    have hs0 : 0 < sin (rad ζ) := by
      by_contra hneg
      push Not at hneg
      have := mul_nonpos_of_nonneg_of_nonpos hκ0 hneg
      norm_num at hs; linarith
    have hn := sin_zen_near hc (sunVec_sq _ _ _) hv hs0 hsin0
    have h1 : κ * (sin (rad ζ) - B) ≤ κ * sin (rad z1) := mul_le_mul_of_nonneg_left hn hκ0
    have h2 : κ * B ≤ 1 * 0.03 := by
      have hB0 : 0 ≤ B := (abs_nonneg _).trans (hc _ (dirVec_sq 0 0))
      exact mul_le_mul hk1 hB hB0 (by norm_num)
    norm_num at hs h2 ⊢; linarith
  have hthr : refr = .pyTrue → 0.00064 < |z1 - (90 + 1.4545e-2 * (180 / π))| := by
    intro hr
    have hlow := hz905 hr
    have hp := pi_lt_d4
    have h1 : 57 ≤ 180 / π := by rw [le_div_iff₀ pi_pos]; norm_num at hp ⊢; linarith
    rw [abs_sub_comm]
    refine lt_of_lt_of_le ?_ (le_abs_self _)
    generalize 180 / π = X at *
    norm_num at h1 hlow ⊢; linarith
  rcases alg_cases hkp with rfl | rfl | rfl | rfl
  · rw [show placeFactor "psa" eng φ = 1 by simp [placeFactor], one_mul] at hhalf
    exact (psa_position h h' h₀ hr₀ ha ha' ha₀ hz1 hhalf hthr).2
  · rw [show placeFactor "soltrack" eng φ = latFactor eng φ by simp [placeFactor]] at hhalf
    exact (soltrack_position h h' h₀ hr₀ ha ha' ha₀ hz1 hhalf hz905).2
  · rw [show placeFactor "iqbal" eng φ = 1 by simp [placeFactor], one_mul] at hhalf
    exact (iqbal_position h h' h₀ hr₀ ha ha' ha₀ hz1 hhalf).2
  · rw [show placeFactor "nrel" eng φ = 1 by simp [placeFactor], one_mul] at hhalf
    exact (nrel_position h h' h₀ hr₀ ha ha' ha₀ (.inl (hpole rfl)) hz1 (le_trans (by norm_num) hhalf)
      (fun hr => lt_trans (by norm_num) (hthr hr))).2

/-- the eccentricity correction factor of a call in floating-point arithmetic -/
theorem float_ecf {uc : UseCase} {w : World (Rd A)} {times : Times} {latitude longitude : Coord (Rd A)}
    {alg eng : String} {refr : PyVal} {s : Sunpos (Rd A)} {e : Dim → Nat} {t : Int} {f : ℝ}
    (h : call uc w times latitude longitude alg refr eng = .ok s)
    (hk : stampAt times.stamps (e .time) = some t) (ht : |t| < 2 ^ 63) (hf : s.ecf.get e = Rd.fin f) : 0 ≤ f ∧ f ≤ 1.05 := by
  obtain ⟨b, hb, -⟩ := rd_time h hk
  obtain ⟨s', h', ha'⟩ := single_call .sites (known_iff.2 ⟨b, hb⟩) .pyFalse ht (φ := 40) (l := -4.5) (by norm_num) (by norm_num)
  obtain ⟨-, ⟨f1, f', h4, h5, h6⟩, -⟩ := near_time (e' := fun _ => 0) h h' hk ha'.time ht
  obtain rfl : f1 = f := Rd.fin_inj.1 (h4.symm.trans hf)
  obtain ⟨x, hx, x1, x2⟩ := C18_ecf (e := fun _ => 0) h' ha'.time ht
  obtain rfl : x = f' := XR.fin_inj.1 (hx.symm.trans h5)
  rw [abs_le] at h6
  norm_num at h6 x1 x2 ⊢
  constructor <;> linarith [h6.1, h6.2]

theorem max_zero_lip (a b : ℝ) : |max 0 a - max 0 b| ≤ |a - b| := by
  have := abs_max_sub_max_le_abs a b 0
  rwa [max_comm a, max_comm b] at this

theorem cos_lip (a b : ℝ) : |cos a - cos b| ≤ |a - b| := by
  have := close_zen a b 0 ⟨1, 0, 0⟩ (by simp [Vec.sq, Vec.dot])
  simpa [Vec.dot, dirVec] using this

/-- the irradiance from a slightly wrong cosine and a slightly wrong eccentricity correction factor -/
theorem irradiance_close {isc x f c c' p q : ℝ} (hx : |x - f| ≤ q) (hc : |c - c'| ≤ p) (hx0 : 0 ≤ x) (hx1 : x ≤ 1.05) (hc' : c' ≤ 1) :
    |isc * (x * max 0 c) - isc * (f * max 0 c')| ≤ |isc| * (1.05 * p + q) := by
  rw [← mul_sub, abs_mul]
  refine mul_le_mul_of_nonneg_left ?_ (abs_nonneg _)
  have e : x * max 0 c - f * max 0 c' = x * (max 0 c - max 0 c') + (x - f) * max 0 c' := by ring
  rw [e]
  refine (abs_add_le _ _).trans (add_le_add ?_ ?_)
  · rw [abs_mul, abs_of_nonneg hx0]
    exact mul_le_mul hx1 ((max_zero_lip _ _).trans hc) (abs_nonneg _) (by norm_num)
  · rw [abs_mul, abs_of_nonneg (le_max_left 0 c')]
    refine (mul_le_mul hx (max_le zero_le_one hc') (le_max_left _ _) ((abs_nonneg _).trans hx)).trans ?_
    rw [mul_one]

/-- C71: without refraction the extraterrestrial irradiance on a horizontal plane is that of the reference ephemeris: the solar
constant over the square of the distance of the sun, times the cosine of its zenith angle where it is above the horizon. -/
theorem C71_eth {uc : UseCase} {w : World XR} {times : Times} {latitude longitude : Coord XR}
    {alg eng : String} {refr : PyVal} {s : Sunpos XR} {e : Dim → Nat} {t : Int} {φ l : ℝ} (isc : ℝ)
    (h : call uc w times latitude longitude alg refr eng = .ok s) (hr : refr ≠ .pyTrue) (ha : At s times e t φ l) :
    ∃ E v, s.eth (.fin isc) "none" = .ok E ∧ E.get e = .fin v ∧
      |v - isc * (1 / distance (century t) ^ 2 * max 0 (sin (rad φ) * sin (declination (century t))
        + cos (rad φ) * cos (declination (century t)) * cos (hourAngle (century t) + rad l)))|
      ≤ |isc| * (1.05 * rad (positionError alg eng) + ecfError alg) := by
  obtain ⟨z, a, B, hz, -, hB, hB2, hc⟩ := position_close h hr ha
  obtain ⟨x, k, hx, rfl, hE, -⟩ := C21_eth_none h ha.time ha.range hz
  obtain ⟨x', hx', x1, x2⟩ := C18_ecf h ha.time ha.range
  obtain rfl : x' = x := XR.fin_inj.1 (hx'.symm.trans hx)
  obtain ⟨x'', hx'', hf⟩ := C54_ecf h ha.time ha.range
  obtain rfl : x' = x'' := XR.fin_inj.1 (hx'.symm.trans hx'')
  obtain ⟨E, hE1, hE2⟩ := hE isc
  refine ⟨E, _, hE1, hE2, irradiance_close hf ?_ (le_trans (by norm_num) x1) (x2.trans (by norm_num)) ?_⟩
  · have := hc ⟨1, 0, 0⟩ (by simp [Vec.sq, Vec.dot])
    simp only [Vec.dot, dirVec, sunVec, one_mul, zero_mul, add_zero, cos_neg] at this
    have hB0 : 0 ≤ B := (abs_nonneg _).trans (hc _ (dirVec_sq 0 0))
    refine this.trans ?_
    norm_num at hB2; linarith
  · have := dot_le ⟨1, 0, 0⟩ (sunVec (rad φ) (declination (century t)) (-(hourAngle (century t) + rad l))) (by simp [Vec.sq, Vec.dot]) (sunVec_sq _ _ _)
    simp only [Vec.dot, sunVec, one_mul, zero_mul, add_zero, cos_neg] at this
    exact (abs_le.1 this).2

/-- C71: with refraction (the default), where the reference sun is above the horizon (2 degrees above it for iqbal), it is the
same with the zenith angle of the sun seen through the standard atmosphere. -/
theorem C71_eth_apparent {uc : UseCase} {w : World XR} {times : Times} {latitude longitude : Coord XR}
    {alg eng : String} {s : Sunpos XR} {e : Dim → Nat} {t : Int} {φ l ζ : ℝ} (isc : ℝ)
    (h : call uc w times latitude longitude alg .pyTrue eng = .ok s) (ha : At s times e t φ l)
    (hup : cos (rad ζ) = sin (rad φ) * sin (declination (century t))
      + cos (rad φ) * cos (declination (century t)) * cos (hourAngle (century t) + rad l))
    (hζ0 : 0 ≤ ζ) (hζ : ζ ≤ 90 - lowestElevation alg) :
    ∃ E v, s.eth (.fin isc) "none" = .ok E ∧ E.get e = .fin v ∧
      |v - isc * (1 / distance (century t) ^ 2 * max 0 (cos (rad (ζ - standardRefraction (90 - ζ)))))|
      ≤ |isc| * (1.05 * rad (positionError alg eng + refractionError alg) + ecfError alg) := by
  obtain ⟨z, a, -, hz, -, -, -, hzz⟩ := C68_accuracy h ha hup hζ0 hζ
  obtain ⟨x, k, hx, rfl, hE, -⟩ := C21_eth_none h ha.time ha.range hz
  obtain ⟨x', hx', x1, x2⟩ := C18_ecf h ha.time ha.range
  obtain rfl : x' = x := XR.fin_inj.1 (hx'.symm.trans hx)
  obtain ⟨x'', hx'', hf⟩ := C54_ecf h ha.time ha.range
  obtain rfl : x' = x'' := XR.fin_inj.1 (hx'.symm.trans hx'')
  obtain ⟨E, hE1, hE2⟩ := hE isc
  refine ⟨E, _, hE1, hE2, irradiance_close hf ?_ (le_trans (by norm_num) x1) (x2.trans (by norm_num)) (cos_le_one _)⟩
  refine (cos_lip _ _).trans ?_
  rw [← rad_sub, abs_rad]; exact rad_mono hzz

/-- C71: the same in floating-point arithmetic, without refraction. -/
theorem C71_eth_float {uc : UseCase} {w : World (Rd A)} {times : Times} {latitude longitude : Coord (Rd A)}
    {alg eng : String} {refr : PyVal} {s : Sunpos (Rd A)} {e : Dim → Nat} {t : Int} {φ l ζ isc : ℝ}
    (h : call uc w times latitude longitude alg refr eng = .ok s) (hr : refr ≠ .pyTrue)
    (ha : AtRd s times e t φ l) (hφ : -90 ≤ φ ∧ φ ≤ 90) (hl : -180 ≤ l ∧ l < 180)
    (hpole : alg = "nrel" → |φ| ≤ 90 - 1e-10)
    (hup : cos (rad ζ) = sin (rad φ) * sin (declination (century t))
      + cos (rad φ) * cos (declination (century t)) * cos (hourAngle (century t) + rad l))
    (hs : 0.06 ≤ placeFactor alg eng φ * sin (rad ζ)) (hi : |isc| ≤ 1e4) :
    ∃ E v, s.eth (Rd.fin isc) "none" = .ok E ∧ E.get e = Rd.fin v ∧
      |v - isc * (1 / distance (century t) ^ 2 * max 0 (cos (rad ζ)))|
      ≤ |isc| * (1.05 * rad (positionError alg eng + 0.0021 / (placeFactor alg eng φ * sin (rad ζ))) + (ecfError alg + 2e-10))
        + 5e-9 := by
  have hv : (sunVec (rad φ) (declination (century t)) (-(hourAngle (century t) + rad l))).up = cos (rad ζ) := by
    rw [hup]; simp only [sunVec, cos_neg]
  obtain ⟨z, a, B, hz, -, hB, hB2, hc⟩ := float_close h hr ha hφ hl hpole hv hs
  obtain ⟨y, hy, by10⟩ := float_stored h ha hφ hl hpole hv (fun h => absurd h hr) hs
  obtain ⟨-, f, -, -, hf, -, -, ef, -⟩ := C64_time h ha.time ha.range
  obtain ⟨f0, f1⟩ := float_ecf h ha.time ha.range hf
  obtain ⟨E, z', r, hE, hz', hr', er⟩ := C66_eth (isc := isc) s hy by10 hf (by rw [abs_le]; norm_num at f1 ⊢; constructor <;> linarith) hi
  obtain rfl : z = z' := Rd.fin_inj.1 (hz.symm.trans hz')
  refine ⟨E, r, hE, hr', ?_⟩
  have hB0 : 0 ≤ B := (abs_nonneg _).trans (hc _ (dirVec_sq 0 0))
  have hcc : |cos (rad z) - cos (rad ζ)| ≤ rad (positionError alg eng + 0.0021 / (placeFactor alg eng φ * sin (rad ζ))) := by
    have := hc ⟨1, 0, 0⟩ (by simp [Vec.sq, Vec.dot])
    rw [← hv]
    simp only [Vec.dot, dirVec, one_mul, zero_mul, add_zero] at this
    refine this.trans ?_
    norm_num at hB2 ⊢; linarith
  have key := irradiance_close (isc := isc) ef hcc f0 f1 (cos_le_one _)
  rw [mul_assoc] at er
  refine (abs_sub_le _ _ _).trans ((add_le_add er key).trans ?_)
  linarith

/-- C71: the same in floating-point arithmetic with refraction. -/
theorem C71_eth_float_apparent {uc : UseCase} {w : World (Rd A)} {times : Times} {latitude longitude : Coord (Rd A)}
    {alg eng : String} {s : Sunpos (Rd A)} {e : Dim → Nat} {t : Int} {φ l ζ isc : ℝ}
    (h : call uc w times latitude longitude alg .pyTrue eng = .ok s)
    (ha : AtRd s times e t φ l) (hφ : -90 ≤ φ ∧ φ ≤ 90) (hl : -180 ≤ l ∧ l < 180)
    (hpole : alg = "nrel" → |φ| ≤ 90 - 1e-10)
    (hup : cos (rad ζ) = sin (rad φ) * sin (declination (century t))
      + cos (rad φ) * cos (declination (century t)) * cos (hourAngle (century t) + rad l))
    (hζ0 : 0 ≤ ζ) (hζ : ζ ≤ 90 - lowestElevation alg)
    (hs : 0.06 ≤ placeFactor alg eng φ * sin (rad ζ)) (hi : |isc| ≤ 1e4) :
    ∃ E v, s.eth (Rd.fin isc) "none" = .ok E ∧ E.get e = Rd.fin v ∧
      |v - isc * (1 / distance (century t) ^ 2 * max 0 (cos (rad (ζ - standardRefraction (90 - ζ)))))|
      ≤ |isc| * (1.05 * rad (positionError alg eng + refractionError alg + 0.0019 / (placeFactor alg eng φ * sin (rad ζ)))
        + (ecfError alg + 2e-10)) + 5e-9 := by
  have hv : (sunVec (rad φ) (declination (century t)) (-(hourAngle (century t) + rad l))).up = cos (rad ζ) := by
    rw [hup]; simp only [sunVec, cos_neg]
  obtain ⟨z, a, -, hz, -, -, -, hzz⟩ := C69_accuracy h ha hφ hl hpole hup hζ0 hζ hs
  obtain ⟨y, hy, by10⟩ := float_stored h ha hφ hl hpole hv (fun _ => ⟨hζ0, hζ⟩) hs
  obtain ⟨-, f, -, -, hf, -, -, ef, -⟩ := C64_time h ha.time ha.range
  obtain ⟨f0, f1⟩ := float_ecf h ha.time ha.range hf
  obtain ⟨E, z', r, hE, hz', hr', er⟩ := C66_eth (isc := isc) s hy by10 hf (by rw [abs_le]; norm_num at f1 ⊢; constructor <;> linarith) hi
  obtain rfl : z = z' := Rd.fin_inj.1 (hz.symm.trans hz')
  refine ⟨E, r, hE, hr', ?_⟩
  have hcc : |cos (rad z) - cos (rad (ζ - standardRefraction (90 - ζ)))|
      ≤ rad (positionError alg eng + refractionError alg + 0.0019 / (placeFactor alg eng φ * sin (rad ζ))) := by
    refine (cos_lip _ _).trans ?_
    rw [← rad_sub, abs_rad]; exact rad_mono hzz
  have key := irradiance_close (isc := isc) ef hcc f0 f1 (cos_le_one _)
  rw [mul_assoc] at er
  refine (abs_sub_le _ _ _).trans ((add_le_add er key).trans ?_)
  linarith

/-! ### the hypotheses are met -/

/-- soltrack at 40 degrees north, at every instant: on every surface, the cosine of incidence is that of the reference sun to
0.00022, and the extraterrestrial irradiance for a solar constant of 1361 to 0.6 -/
example {t : Int} (ht : |t| < 2 ^ 63) (β γ : ℝ) : ∃ (s : Sunpos XR) (v : ℝ) (E : DA XR) (v' : ℝ),
    call .sites exWorld (oneTime t) (.vec [.fin 40]) (.vec [.fin (-4.5)]) "soltrack" .pyFalse "numexpr" = .ok s ∧
    (s.incidence exWorld (.fin β) (.fin γ)).get (fun _ => 0) = .fin v ∧
    |v - (surfaceNormal (rad β) (rad γ)).dot
      (sunVec (rad 40) (declination (century t)) (-(hourAngle (century t) + rad (-4.5))))| ≤ 0.00022 ∧
    s.eth (.fin 1361) "none" = .ok E ∧ E.get (fun _ => 0) = .fin v' ∧
    |v' - 1361 * (1 / distance (century t) ^ 2 * max 0 (sin (rad 40) * sin (declination (century t))
        + cos (rad 40) * cos (declination (century t)) * cos (hourAngle (century t) + rad (-4.5))))| ≤ 0.6 := by
  obtain ⟨s, h, ha⟩ := single_call .sites (alg := "soltrack") (eng := "numexpr") (by simp [KnownPair]) .pyFalse ht
    (φ := 40) (l := -4.5) (by norm_num) (by norm_num)
  have hu : stampAt s.timesUtc ((fun _ => 0 : Dim → Nat) .time) = some t := by rw [(C12_naive h rfl).1]; exact ha.time
  have hp := pi_lt_d4
  obtain ⟨v, hv, ev⟩ := C71_incidence (w' := exWorld) β γ h ha hu
  obtain ⟨E, v', hE, hv', ev'⟩ := C71_eth 1361 h (by simp) ha
  refine ⟨s, v, E, v', h, hv, ev.trans ?_, hE, hv', ev'.trans ?_⟩
  · simp only [decError, eotError, String.reduceEq, if_true, if_false]
    unfold rad; norm_num at hp ⊢; linarith
  · simp only [positionError, ecfError, String.reduceEq, if_true, if_false]
    unfold rad; norm_num at hp ⊢; linarith

/-- in the 53-bit arithmetic at 60 degrees north, at every instant, in every use case and for every algorithm -/
example (uc : UseCase) {alg eng : String} (hk : KnownPair alg eng) {t : Int} (ht : |t| < 2 ^ 63) :
    ∃ (w : World (Rd Arith.binary64)) (s : Sunpos (Rd Arith.binary64)) (ζ : ℝ) (τ : ℤ) (c : ℝ) (E : DA (Rd Arith.binary64)) (v : ℝ),
    call uc w (oneTime t) (.vec [Rd.fin 60]) (.vec [Rd.fin (-4.5)]) alg .pyFalse eng = .ok s ∧
    (s.trueSolarTime w).get (fun _ => 0) = some τ ∧
    (s.incidence w (Rd.fin 30) (Rd.fin 180)).get (fun _ => 0) = Rd.fin c ∧
    s.eth (Rd.fin 1361) "none" = .ok E ∧ E.get (fun _ => 0) = Rd.fin v ∧
    |v - 1361 * (1 / distance (century t) ^ 2 * max 0 (cos (rad ζ)))|
      ≤ |1361| * (1.05 * rad (positionError alg eng + 0.0021 / (placeFactor alg eng 60 * sin (rad ζ))) + (ecfError alg + 2e-10))
        + 5e-9 := by
  obtain ⟨w, s, ζ, h, ha, hv, hs⟩ := example_float ht uc hk
  have hu : stampAt s.timesUtc ((fun _ => 0 : Dim → Nat) .time) = some t := by rw [(C12_naive h rfl).1]; exact ha.time
  obtain ⟨τ, hτ, -⟩ := C71_tst_float (e := fun _ => 0) (w' := w) h ha.time ht hu ha.lon (by norm_num)
  obtain ⟨c, hc, -⟩ := C71_incidence_float (e := fun _ => 0) (β := 30) (γ := 180) (w' := w) h ha hu (by norm_num) (by norm_num)
    (by norm_num) (by norm_num)
  obtain ⟨E, v, hE, hv', ev⟩ := C71_eth_float (e := fun _ => 0) (isc := 1361) h (by simp) ha (by norm_num) (by norm_num)
    (fun _ => by norm_num) (by rw [← hv]; simp only [sunVec, cos_neg]) hs (by norm_num)
  exact ⟨w, s, ζ, τ, c, E, v, h, hτ, hc, hE, hv', ev⟩

end SW.Props
