/-
C64: the values returned in floating-point arithmetic, against the reference ephemeris of Verif/Ephem.lean.
C54 compares the formulas with the reference in exact arithmetic, C55 and C60-C62 compare floating-point with exact
results; here the two are put together, so that no exact call is left in the statement.
-/
import Verif.Props.Accuracy
import Verif.Props.RoundSol
import Verif.Props.RoundIqbal
import Verif.Props.RoundNrel

namespace SW.Props
open SW.Spec Real Sunpos
open SW.Ephem (century declination equationOfTime distance hourAngle)

variable {A : Arith}

theorem alg_cases {alg eng : String} (h : KnownPair alg eng) :
    alg = "psa" ∨ alg = "soltrack" ∨ alg = "iqbal" ∨ alg = "nrel" := by
  simp only [KnownPair, List.mem_cons, List.not_mem_nil, or_false] at h
  rcases h with ⟨rfl | rfl | rfl, -⟩ | ⟨rfl, -⟩ <;> simp

/-- C55 and C60-C62 for all algorithms -/
theorem near_time {uc uc' : UseCase} {w : World (Rd A)} {w' : World XR} {times times' : Times}
    {latitude longitude : Coord (Rd A)} {latitude' longitude' : Coord XR} {alg eng eng' : String}
    {refr refr' : PyVal} {s : Sunpos (Rd A)} {s' : Sunpos XR} {e e' : Dim → Nat} {t : Int}
    (h : call uc w times latitude longitude alg refr eng = .ok s)
    (h' : call uc' w' times' latitude' longitude' alg refr' eng' = .ok s')
    (hk : stampAt times.stamps (e .time) = some t) (hk' : stampAt times'.stamps (e' .time) = some t)
    (hrange : |t| < 2 ^ 63) :
    NearTime s s' e e' 4e-8 2e-10 1.1e-6 := by
  obtain ⟨b, hb, -⟩ := rd_time h hk
  have mono : ∀ {a b c : ℝ}, NearTime s s' e e' a b c → a ≤ 4e-8 → b ≤ 2e-10 → c ≤ 1.1e-6 →
      NearTime s s' e e' 4e-8 2e-10 1.1e-6 := by
    rintro a b c ⟨⟨d, d', h1, h2, h3⟩, ⟨f, f', h4, h5, h6⟩, ⟨q, q', h7, h8, h9⟩⟩ ha hb hc
    exact ⟨⟨d, d', h1, h2, h3.trans ha⟩, ⟨f, f', h4, h5, h6.trans hb⟩, ⟨q, q', h7, h8, h9.trans hc⟩⟩
  rcases alg_cases (known_iff.2 ⟨b, hb⟩) with rfl | rfl | rfl | rfl
  · exact mono (C55_psa_time h h' hk hk' hrange) (by norm_num) (by norm_num) (by norm_num)
  · exact mono (C60_soltrack_time h h' hk hk' hrange) (by norm_num) (by norm_num) (by norm_num)
  · exact mono (C61_iqbal_time h h' hk hk' hrange) (by norm_num) (by norm_num) (by norm_num)
  · exact mono (C62_nrel_time h h' hk hk' hrange) (by norm_num) (by norm_num) (by norm_num)

theorem rad_add (x y : ℝ) : rad (x + y) = rad x + rad y := by unfold rad; ring
theorem rad_sub (x y : ℝ) : rad (x - y) = rad x - rad y := by unfold rad; ring
theorem abs_rad (x : ℝ) : |rad x| = rad |x| := by
  have : ∀ x, rad x = x * (π / 180) := fun x => by unfold rad; ring
  rw [this, this, abs_mul, abs_of_pos (by positivity : (0 : ℝ) < π / 180)]
theorem rad_mono {x y : ℝ} (h : x ≤ y) : rad x ≤ rad y := by
  have : ∀ x, rad x = x * (π / 180) := fun x => by unfold rad; ring
  rw [this, this]; exact mul_le_mul_of_nonneg_right h (by positivity)

/-- C64: in every arithmetic with the accuracy of double precision, every algorithm returns, at every instant of
`datetime64[ns]`, numbers for the declination, the eccentricity correction factor and the equation of time, and they
are those of the sun of the reference ephemeris to within the errors of C54 and the last digits. -/
theorem C64_time {uc : UseCase} {w : World (Rd A)} {times : Times} {latitude longitude : Coord (Rd A)}
    {alg eng : String} {refr : PyVal} {s : Sunpos (Rd A)} {e : Dim → Nat} {t : Int}
    (h : call uc w times latitude longitude alg refr eng = .ok s)
    (hk : stampAt times.stamps (e .time) = some t) (hrange : |t| < 2 ^ 63) :
    ∃ d f q : ℝ, s.decDeg.get e = Rd.fin d ∧ s.ecf.get e = Rd.fin f ∧ s.eot.get e = Rd.fin q ∧
      |rad d - declination (century t)| ≤ rad (decError alg + 4e-8) ∧
      |f - 1 / distance (century t) ^ 2| ≤ ecfError alg + 2e-10 ∧
      ∃ k : ℤ, |q - equationOfTime (century t) - 1440 * k| ≤ eotError alg + 1.1e-6 := by
  obtain ⟨b, hb, -⟩ := rd_time h hk
  obtain ⟨s', h', ha'⟩ := single_call uc (known_iff.2 ⟨b, hb⟩) .pyFalse hrange (φ := 40) (l := -4.5) (by norm_num) (by norm_num)
  obtain ⟨⟨d, d', h1, h2, h3⟩, ⟨f, f', h4, h5, h6⟩, ⟨q, q', h7, h8, h9⟩⟩ := near_time (e' := fun _ => 0) h h' hk ha'.time hrange
  obtain ⟨d1, g1, g2⟩ := C54_declination (e := fun _ => 0) h' ha'.time hrange
  obtain ⟨f1, g3, g4⟩ := C54_ecf (e := fun _ => 0) h' ha'.time hrange
  obtain ⟨q1, g5, k, g6⟩ := C54_eot (e := fun _ => 0) h' ha'.time hrange
  obtain rfl : d' = d1 := XR.fin_inj.1 (h2.symm.trans g1)
  obtain rfl : f' = f1 := XR.fin_inj.1 (h5.symm.trans g3)
  obtain rfl : q' = q1 := XR.fin_inj.1 (h8.symm.trans g5)
  refine ⟨d, f, q, h1, h4, h7, ?_, ?_, k, ?_⟩
  · have := rad_mono h3
    rw [← abs_rad, rad_sub] at this
    rw [rad_add]
    exact (abs_sub_le _ (rad d') _).trans (by linarith)
  · exact (abs_sub_le _ f' _).trans (by linarith)
  · rw [show q - equationOfTime (century t) - 1440 * k = (q - q') + (q' - equationOfTime (century t) - 1440 * k) by ring]
    exact (abs_add_le _ _).trans (by linarith)

theorem close_az (z a ε : ℝ) : Close (|sin z| * |ε|) (dirVec z a) (dirVec z (a + ε)) := by
  apply close_of_sq (by positivity)
  rw [mul_pow, sq_abs, sq_abs]
  have h := chord ε
  have e : cos ε = cos (a + ε) * cos a + sin (a + ε) * sin a := by
    rw [← cos_sub]; congr 1; ring
  have h2 := sin_sq_add_cos_sq a
  have h3 := sin_sq_add_cos_sq (a + ε)
  have : (Vec.sq ⟨(dirVec z a).up - (dirVec z (a + ε)).up, (dirVec z a).south - (dirVec z (a + ε)).south,
      (dirVec z a).east - (dirVec z (a + ε)).east⟩) = sin z ^ 2 * (2 - 2 * cos ε) := by
    rw [e]
    simp only [Vec.sq, Vec.dot, dirVec]
    linear_combination sin z ^ 2 * h2 + sin z ^ 2 * h3
  rw [this]
  exact mul_le_mul_of_nonneg_left h (sq_nonneg _)

/-- two directions in degrees, the azimuths up to whole turns -/
theorem close_deg {z a z' a' p q : ℝ} {k : ℤ} (hz : |z - z'| ≤ p) (ha : |a - a' - k * 360| ≤ q) :
    Close (rad p + |sin (rad z')| * rad q) (dirVec (rad z) (rad a)) (dirVec (rad z') (rad a')) := by
  have c1 : Close (rad p) (dirVec (rad z) (rad a)) (dirVec (rad z') (rad a)) := by
    refine (close_zen (rad z) (rad z') (rad a)).mono ?_
    rw [← rad_sub, abs_rad]; exact rad_mono hz
  refine c1.trans ?_
  have c2 := (close_az (rad z') (rad a') (rad (a - a' - k * 360))).symm
  have e : dirVec (rad z') (rad a' + rad (a - a' - k * 360)) = dirVec (rad z') (rad a) := by
    have : rad a' + rad (a - a' - k * 360) = rad a + ((-k : ℤ) : ℝ) * (2 * π) := by
      unfold rad; push_cast; ring
    rw [this]; unfold dirVec
    rw [cos_add_int_mul_two_pi, sin_add_int_mul_two_pi]
  rw [e, abs_rad] at c2
  exact c2.mono (mul_le_mul_of_nonneg_left (rad_mono ha) (abs_nonneg _))

/-- the sine of the zenith angle of a direction near the one of zenith angle `ζ` -/
theorem sin_zen_near {B ζ z a : ℝ} {v : Vec} (hc : Close B (dirVec z a) v) (hv : v.sq = 1) (hup : v.up = cos ζ)
    (hs : 0 < sin ζ) (hz : 0 ≤ sin z) : sin ζ - B ≤ sin z := by
  have h2 : v.south ^ 2 + v.east ^ 2 = sin ζ ^ 2 := by
    have := sin_sq_add_cos_sq ζ
    simp only [Vec.sq, Vec.dot, hup] at hv
    linear_combination hv - this
  have hn : (⟨0, v.south / sin ζ, v.east / sin ζ⟩ : Vec).sq = 1 := by
    simp only [Vec.sq, Vec.dot]
    field_simp
    linear_combination h2
  have h := hc _ hn
  simp only [Vec.dot, dirVec] at h
  obtain ⟨p, hp⟩ : ∃ p, p = v.south / sin ζ := ⟨_, rfl⟩
  obtain ⟨q, hq⟩ : ∃ p, p = v.east / sin ζ := ⟨_, rfl⟩
  have hpv : v.south = p * sin ζ := by rw [hp]; field_simp
  have hqv : v.east = q * sin ζ := by rw [hq]; field_simp
  rw [← hp, ← hq, hpv, hqv] at h
  have hpq : p ^ 2 + q ^ 2 = 1 := by
    have : (p ^ 2 + q ^ 2) * sin ζ ^ 2 = 1 * sin ζ ^ 2 := by rw [hpv, hqv] at h2; linear_combination h2
    exact mul_right_cancel₀ (by positivity) this
  have h3 : p * cos a - q * sin a ≤ 1 := by
    nlinarith [sq_nonneg (p * sin a + q * cos a), sq_nonneg (p * cos a - q * sin a - 1), sin_sq_add_cos_sq a]
  have h4 : sin z * (p * cos a - q * sin a) ≤ sin z * 1 := mul_le_mul_of_nonneg_left h3 hz
  have h5 := (abs_le.1 h).1
  have h6 : p * (p * sin ζ) + q * (q * sin ζ) = sin ζ := by linear_combination sin ζ * hpq
  linarith

/-- what is left of the accuracy of the coordinates: the cosine of the latitude for soltrack with numpy, 1 otherwise -/
noncomputable def placeFactor (alg eng : String) (φ : ℝ) : ℝ := if alg = "soltrack" then latFactor eng φ else 1

theorem placeFactor_le (alg eng : String) (φ : ℝ) : placeFactor alg eng φ ≤ 1 := by
  unfold placeFactor; split_ifs
  · exact latFactor_le _ _
  · exact le_rfl

/-- C55 and C60-C62 for all algorithms, without refraction -/
theorem near_position {uc uc' : UseCase} {w : World (Rd A)} {w' : World XR} {times times' : Times}
    {latitude longitude : Coord (Rd A)} {latitude' longitude' : Coord XR} {alg eng : String} {refr : PyVal}
    {s : Sunpos (Rd A)} {s' : Sunpos XR} {e e' : Dim → Nat} {t : Int} {φ l ζ : ℝ}
    (h : call uc w times latitude longitude alg refr eng = .ok s)
    (h' : call uc' w' times' latitude' longitude' alg refr eng = .ok s') (hr : refr ≠ .pyTrue)
    (ha : AtRd s times e t φ l) (ha' : At s' times' e' t φ l)
    (hpole : alg = "nrel" → |φ| ≤ 90 - 1e-10)
    (hζ : s'.zenithDeg.get e' = XR.fin ζ) (hs : 0.003 ≤ placeFactor alg eng φ * sin (rad ζ)) :
    ∃ z a a' : ℝ, ∃ k : ℤ, s.zenithDeg.get e = Rd.fin z ∧ s.azimuthDeg.get e = Rd.fin a ∧
      s'.azimuthDeg.get e' = XR.fin a' ∧ |z - ζ| ≤ 0.00066 / (placeFactor alg eng φ * sin (rad ζ)) ∧
      |a - a' - k * 360| ≤ 0.00038 / (placeFactor alg eng φ * sin (rad ζ)) := by
  obtain ⟨b, hb, -⟩ := rd_time h ha.time
  have key : ∀ {p q : ℝ}, p ≤ 0.00066 → q ≤ 0.00038 →
      (∃ z z', s.zenithDeg.get e = Rd.fin z ∧ s'.zenithDeg.get e' = XR.fin z' ∧
        |z - z'| ≤ p / (placeFactor alg eng φ * sin (rad ζ))) →
      (∃ a a', ∃ k : ℤ, s.azimuthDeg.get e = Rd.fin a ∧ s'.azimuthDeg.get e' = XR.fin a' ∧ |a| ≤ 180 + 1e-10 ∧
        |a - a' - k * 360| ≤ q / (placeFactor alg eng φ * sin (rad ζ))) →
    ∃ z a a' : ℝ, ∃ k : ℤ, s.zenithDeg.get e = Rd.fin z ∧ s.azimuthDeg.get e = Rd.fin a ∧
      s'.azimuthDeg.get e' = XR.fin a' ∧ |z - ζ| ≤ 0.00066 / (placeFactor alg eng φ * sin (rad ζ)) ∧
      |a - a' - k * 360| ≤ 0.00038 / (placeFactor alg eng φ * sin (rad ζ)) := by
    rintro p q hp hq ⟨z, z', h1, h2, h3⟩ ⟨a, a', k, h4, h5, -, h6⟩
    obtain rfl : z' = ζ := XR.fin_inj.1 (h2.symm.trans hζ)
    have h0 : 0 ≤ placeFactor alg eng φ * sin (rad z') := le_trans (by norm_num) hs
    exact ⟨z, a, a', k, h1, h4, h5, h3.trans (div_le_div_of_nonneg_right hp h0), h6.trans (div_le_div_of_nonneg_right hq h0)⟩
  rcases alg_cases (known_iff.2 ⟨b, hb⟩) with rfl | rfl | rfl | rfl
  · have e1 : placeFactor "psa" eng φ = 1 := by simp [placeFactor]
    rw [e1, one_mul] at hs key ⊢
    obtain ⟨⟨z, z', h1, h2, h3, -⟩, h4⟩ := C55_psa_position h h' h' hr ha ha' ha' hζ hs (fun h => absurd h hr)
    exact key (by norm_num) (by norm_num) ⟨z, z', h1, h2, h3⟩ h4
  · have e1 : placeFactor "soltrack" eng φ = latFactor eng φ := by simp [placeFactor]
    rw [e1] at hs key ⊢
    obtain ⟨h3, h4⟩ := C60_soltrack_position h h' h' hr ha ha' ha' hζ hs (fun h => absurd h hr)
    exact key le_rfl le_rfl h3 h4
  · have e1 : placeFactor "iqbal" eng φ = 1 := by simp [placeFactor]
    rw [e1, one_mul] at hs key ⊢
    obtain ⟨⟨z, z', h1, h2, -, h3⟩, h4⟩ := C61_iqbal_position h h' h' hr ha ha' ha' hζ hs
    exact key (by norm_num) (by norm_num) ⟨z, z', h1, h2, h3 hr⟩ h4
  · have e1 : placeFactor "nrel" eng φ = 1 := by simp [placeFactor]
    rw [e1, one_mul] at hs key ⊢
    obtain ⟨h3, h4⟩ := C62_nrel_position h h' h' hr ha ha' ha' (.inl (hpole rfl)) hζ (le_trans (by norm_num) hs) (fun h => absurd h hr)
    exact key (by norm_num) (by norm_num) h3 h4

/-- the direction returned in floating-point arithmetic, in exact arithmetic, and that of the reference -/
theorem float_near {uc : UseCase} {w : World (Rd A)} {times : Times} {latitude longitude : Coord (Rd A)}
    {alg eng : String} {refr : PyVal} {s : Sunpos (Rd A)} {e : Dim → Nat} {t : Int} {φ l ζ : ℝ}
    (h : call uc w times latitude longitude alg refr eng = .ok s) (hr : refr ≠ .pyTrue)
    (ha : AtRd s times e t φ l) (hφ : -90 ≤ φ ∧ φ ≤ 90) (hl : -180 ≤ l ∧ l < 180)
    (hpole : alg = "nrel" → |φ| ≤ 90 - 1e-10)
    (hζ : (sunVec (rad φ) (declination (century t)) (-(hourAngle (century t) + rad l))).up = cos (rad ζ))
    (hs : 0.06 ≤ placeFactor alg eng φ * sin (rad ζ)) :
    ∃ (s' : Sunpos XR) (z a z' a' B : ℝ) (k : ℤ),
      call uc exWorld (oneTime t) (.vec [.fin φ]) (.vec [.fin l]) alg refr eng = .ok s' ∧
      At s' (oneTime t) (fun _ => 0) t φ l ∧
      s.zenithDeg.get e = Rd.fin z ∧ s.azimuthDeg.get e = Rd.fin a ∧
      s'.zenithDeg.get (fun _ => 0) = .fin z' ∧ s'.azimuthDeg.get (fun _ => 0) = .fin a' ∧ 0 ≤ z' ∧ z' ≤ 180 ∧
      |z - z'| ≤ 2 * 0.00066 / (placeFactor alg eng φ * sin (rad ζ)) ∧
      |a - a' - k * 360| ≤ 2 * 0.00038 / (placeFactor alg eng φ * sin (rad ζ)) ∧
      B ≤ 0.03 ∧ 1.001 * B ≤ rad (positionError alg eng) ∧
      Close B (dirVec (rad z') (rad a'))
        (sunVec (rad φ) (declination (century t)) (-(hourAngle (century t) + rad l))) := by
  obtain ⟨b, hb, -⟩ := rd_time h ha.time
  obtain ⟨s', h', ha'⟩ := single_call uc (known_iff.2 ⟨b, hb⟩) refr ha.range hφ hl
  obtain ⟨z', a', B, hz', ha1, hB, hB2, hc⟩ := position_close h' hr ha'
  obtain ⟨z1, hz1, hz2, hz3⟩ := C13_range h' ha' (.inr (.inr hr))
  obtain rfl : z1 = z' := XR.fin_inj.1 (hz1.symm.trans hz')
  have hk1 := placeFactor_le alg eng φ
  have hsin0 : 0 ≤ sin (rad z1) := by
    apply sin_nonneg_of_nonneg_of_le_pi
    · unfold rad; positivity
    · have := rad_mono hz3
      have e : rad 180 = π := by unfold rad; ring
      rwa [e] at this
  have hsl := sin_le_one (rad ζ)
  obtain ⟨κ, hκ⟩ : ∃ κ, κ = placeFactor alg eng φ := ⟨_, rfl⟩
  rw [← hκ] at hk1 hs ⊢
  have hκ0 : 0 ≤ κ := by
    rw [hκ]; unfold placeFactor latFactor
    split_ifs
    · apply cos_nonneg_of_neg_pi_div_two_le_of_le
      · have := rad_mono hφ.1
        have e : rad (-90) = -(π / 2) := by unfold rad; ring
        rwa [e] at this
      · have := rad_mono hφ.2
        have e : rad 90 = π / 2 := by unfold rad; ring
        rwa [e] at this
    · norm_num
    · norm_num
  have hs0 : 0 < sin (rad ζ) := by
    by_contra hneg
    push Not at hneg
    have := mul_nonpos_of_nonneg_of_nonpos hκ0 hneg
    norm_num at hs; linarith
  have hn := sin_zen_near hc (sunVec_sq _ _ _) hζ hs0 hsin0
  -- at least half of the reference value
  have hhalf : κ * sin (rad ζ) / 2 ≤ κ * sin (rad z1) := by
    have h1 : κ * (sin (rad ζ) - B) ≤ κ * sin (rad z1) := mul_le_mul_of_nonneg_left hn hκ0
    have h2 : κ * B ≤ 1 * 0.03 := by
      have hB0 : 0 ≤ B := (abs_nonneg _).trans (hc _ (dirVec_sq 0 0))
      exact mul_le_mul hk1 hB hB0 (by norm_num)
    norm_num at hs h2; linarith
  obtain ⟨z, a, a2, k, g1, g2, g3, g4, g5⟩ := near_position h h' hr ha ha' hpole hz' (by
    rw [← hκ]; norm_num at hs ⊢; linarith)
  obtain rfl : a2 = a' := XR.fin_inj.1 (g3.symm.trans ha1)
  rw [← hκ] at g4 g5
  obtain ⟨x, hx⟩ : ∃ x, x = κ * sin (rad ζ) := ⟨_, rfl⟩
  rw [← hx] at hs hhalf ⊢
  have hx0 : 0 < x := lt_of_lt_of_le (by norm_num) hs
  have hq : ∀ {c : ℝ}, 0 ≤ c → c / (κ * sin (rad z1)) ≤ 2 * c / x := by
    intro c hc
    rw [div_le_div_iff₀ (by linarith) hx0]
    nlinarith
  exact ⟨s', z, a, z1, a2, B, k, h', ha', g1, g2, hz', ha1, hz2, hz3, g4.trans (hq (by norm_num)), g5.trans (hq (by norm_num)), hB, hB2, hc⟩

/-- the chord between the direction returned in floating-point arithmetic and that of the reference -/
theorem float_close {uc : UseCase} {w : World (Rd A)} {times : Times} {latitude longitude : Coord (Rd A)}
    {alg eng : String} {refr : PyVal} {s : Sunpos (Rd A)} {e : Dim → Nat} {t : Int} {φ l ζ : ℝ}
    (h : call uc w times latitude longitude alg refr eng = .ok s) (hr : refr ≠ .pyTrue)
    (ha : AtRd s times e t φ l) (hφ : -90 ≤ φ ∧ φ ≤ 90) (hl : -180 ≤ l ∧ l < 180)
    (hpole : alg = "nrel" → |φ| ≤ 90 - 1e-10)
    (hζ : (sunVec (rad φ) (declination (century t)) (-(hourAngle (century t) + rad l))).up = cos (rad ζ))
    (hs : 0.06 ≤ placeFactor alg eng φ * sin (rad ζ)) :
    ∃ z a B : ℝ, s.zenithDeg.get e = Rd.fin z ∧ s.azimuthDeg.get e = Rd.fin a ∧ B ≤ 0.031 ∧
      1.001 * B ≤ rad (positionError alg eng + 0.0021 / (placeFactor alg eng φ * sin (rad ζ))) ∧
      Close B (dirVec (rad z) (rad a))
        (sunVec (rad φ) (declination (century t)) (-(hourAngle (century t) + rad l))) := by
  obtain ⟨s', z, a, z1, a2, B, k, -, -, g1, g2, -, -, -, -, g4, g5, hB, hB2, hc⟩ := float_near h hr ha hφ hl hpole hζ hs
  obtain ⟨x, hx⟩ : ∃ x, x = placeFactor alg eng φ * sin (rad ζ) := ⟨_, rfl⟩
  rw [← hx] at hs g4 g5 ⊢
  have hx0 : 0 < x := lt_of_lt_of_le (by norm_num) hs
  have c := close_deg g4 g5
  have hsz : |sin (rad z1)| ≤ 1 := abs_sin_le_one _
  have c' : Close (rad (0.00208 / x)) (dirVec (rad z) (rad a)) (dirVec (rad z1) (rad a2)) := by
    refine c.mono ?_
    have : |sin (rad z1)| * rad (2 * 0.00038 / x) ≤ 1 * rad (2 * 0.00038 / x) :=
      mul_le_mul_of_nonneg_right hsz (by unfold rad; positivity)
    rw [one_mul] at this
    refine (add_le_add le_rfl this).trans ?_
    rw [← rad_add, ← add_div]
    exact le_of_eq (by norm_num)
  refine ⟨z, a, _, g1, g2, ?_, ?_, c'.trans hc⟩
  · have h1 : 0.00208 / x ≤ 0.035 := by rw [div_le_iff₀ hx0]; norm_num at hs ⊢; linarith
    have h2 := rad_mono h1
    have hp := pi_lt_d4
    have h3 : rad 0.035 ≤ 0.001 := by unfold rad; norm_num at hp ⊢; linarith
    norm_num at hB h2 h3 ⊢; linarith
  · rw [rad_add, mul_add]
    have h1 : 1.001 * rad (0.00208 / x) ≤ rad (0.0021 / x) := by
      have e : 1.001 * rad (0.00208 / x) = rad (1.001 * 0.00208 / x) := by unfold rad; ring
      rw [e]
      exact rad_mono (div_le_div_of_nonneg_right (by norm_num) hx0.le)
    linarith

/-- C64: without refraction, in every arithmetic with the accuracy of double precision, the zenith and azimuth angles
are numbers, and the direction they describe makes an angle of at most the error of C54 plus `0.0021 / (κ sin ζ)` degrees
with the direction of the sun of the reference ephemeris, `ζ` being the zenith angle of the latter, wherever `κ sin ζ ≥ 0.06`
(`κ` is 1, or the cosine of the latitude for soltrack with numpy). -/
theorem C64_position {uc : UseCase} {w : World (Rd A)} {times : Times} {latitude longitude : Coord (Rd A)}
    {alg eng : String} {refr : PyVal} {s : Sunpos (Rd A)} {e : Dim → Nat} {t : Int} {φ l ζ : ℝ}
    (h : call uc w times latitude longitude alg refr eng = .ok s) (hr : refr ≠ .pyTrue)
    (ha : AtRd s times e t φ l) (hφ : -90 ≤ φ ∧ φ ≤ 90) (hl : -180 ≤ l ∧ l < 180)
    (hpole : alg = "nrel" → |φ| ≤ 90 - 1e-10)
    (hζ : (sunVec (rad φ) (declination (century t)) (-(hourAngle (century t) + rad l))).up = cos (rad ζ))
    (hs : 0.06 ≤ placeFactor alg eng φ * sin (rad ζ)) :
    ∃ z a : ℝ, s.zenithDeg.get e = Rd.fin z ∧ s.azimuthDeg.get e = Rd.fin a ∧
      arccos ((dirVec (rad z) (rad a)).dot
          (sunVec (rad φ) (declination (century t)) (-(hourAngle (century t) + rad l))))
        ≤ rad (positionError alg eng + 0.0021 / (placeFactor alg eng φ * sin (rad ζ))) := by
  obtain ⟨z, a, B, h1, h2, hB, hp, hc⟩ := float_close h hr ha hφ hl hpole hζ hs
  exact ⟨z, a, h1, h2, (hc.angle (dirVec_sq _ _) (sunVec_sq _ _ _) (hB.trans (by norm_num))).trans hp⟩

/-- C64: two calls in two such arithmetics, of any use cases, algorithms and engines, return directions whose angle
is at most the sum of these errors. -/
theorem C64_agree {B : Arith} {uc1 uc2 : UseCase} {w1 : World (Rd A)} {w2 : World (Rd B)} {times1 times2 : Times}
    {lat1 lon1 : Coord (Rd A)} {lat2 lon2 : Coord (Rd B)} {alg1 eng1 alg2 eng2 : String} {refr1 refr2 : PyVal}
    {s1 : Sunpos (Rd A)} {s2 : Sunpos (Rd B)} {e1 e2 : Dim → Nat} {t : Int} {φ l ζ : ℝ}
    (h1 : call uc1 w1 times1 lat1 lon1 alg1 refr1 eng1 = .ok s1) (hr1 : refr1 ≠ .pyTrue)
    (h2 : call uc2 w2 times2 lat2 lon2 alg2 refr2 eng2 = .ok s2) (hr2 : refr2 ≠ .pyTrue)
    (ha1 : AtRd s1 times1 e1 t φ l) (ha2 : AtRd s2 times2 e2 t φ l)
    (hφ : -90 ≤ φ ∧ φ ≤ 90) (hl : -180 ≤ l ∧ l < 180)
    (hpole : alg1 = "nrel" ∨ alg2 = "nrel" → |φ| ≤ 90 - 1e-10)
    (hζ : (sunVec (rad φ) (declination (century t)) (-(hourAngle (century t) + rad l))).up = cos (rad ζ))
    (hs1 : 0.06 ≤ placeFactor alg1 eng1 φ * sin (rad ζ)) (hs2 : 0.06 ≤ placeFactor alg2 eng2 φ * sin (rad ζ)) :
    ∃ z1 a1 z2 a2 : ℝ, s1.zenithDeg.get e1 = Rd.fin z1 ∧ s1.azimuthDeg.get e1 = Rd.fin a1 ∧
      s2.zenithDeg.get e2 = Rd.fin z2 ∧ s2.azimuthDeg.get e2 = Rd.fin a2 ∧
      arccos ((dirVec (rad z1) (rad a1)).dot (dirVec (rad z2) (rad a2))) ≤
        rad (positionError alg1 eng1 + 0.0021 / (placeFactor alg1 eng1 φ * sin (rad ζ)))
        + rad (positionError alg2 eng2 + 0.0021 / (placeFactor alg2 eng2 φ * sin (rad ζ))) := by
  obtain ⟨z1, a1, B1, hz1, hA1, hB1, hp1, hc1⟩ := float_close h1 hr1 ha1 hφ hl (fun h => hpole (.inl h)) hζ hs1
  obtain ⟨z2, a2, B2, hz2, hA2, hB2, hp2, hc2⟩ := float_close h2 hr2 ha2 hφ hl (fun h => hpole (.inr h)) hζ hs2
  refine ⟨z1, a1, z2, a2, hz1, hA1, hz2, hA2, ((hc1.trans hc2.symm).angle (dirVec_sq _ _) (dirVec_sq _ _) ?_).trans ?_⟩
  · norm_num at hB1 hB2 ⊢; linarith
  · linarith

/-- the hypotheses are met in the 53-bit arithmetic by every algorithm at every instant at 60 degrees north: there the
sun of the reference is more than 30 degrees from the zenith and the nadir -/
theorem example_float {t : Int} (ht : |t| < 2 ^ 63) (uc : UseCase) {alg eng : String} (hk : KnownPair alg eng) :
    ∃ (w : World (Rd Arith.binary64)) (s : Sunpos (Rd Arith.binary64)) (ζ : ℝ),
    call uc w (oneTime t) (.vec [Rd.fin 60]) (.vec [Rd.fin (-4.5)]) alg .pyFalse eng = .ok s ∧
    AtRd s (oneTime t) (fun _ => 0) t 60 (-4.5) ∧
    (sunVec (rad 60) (declination (century t)) (-(hourAngle (century t) + rad (-4.5)))).up = cos (rad ζ) ∧
    0.06 ≤ placeFactor alg eng 60 * sin (rad ζ) := by
  obtain ⟨w, s, h, ha⟩ := single_call_rd (A := Arith.binary64) uc hk .pyFalse binary64_90 binary64_180 ht (φ := 60) (l := -4.5) (by norm_num) (by norm_num)
  obtain ⟨u, hu⟩ : ∃ u, u = (sunVec (rad 60) (declination (century t)) (-(hourAngle (century t) + rad (-4.5)))).up := ⟨_, rfl⟩
  have e60 : rad 60 = π / 3 := by unfold rad; ring
  have hsd : |sin (declination (century t))| ≤ 0.41 := by
    obtain ⟨o1, o2⟩ := Ephem.obliquity_bound (century_bound ht)
    have h1 : |sin (Ephem.obliquity (century t)) * sin (Ephem.longitude (century t))| ≤ 0.41 := by
      rw [abs_mul]
      have a1 : |sin (Ephem.obliquity (century t))| ≤ 0.41 :=
        (Real.abs_sin_le_abs).trans (by rw [abs_of_nonneg (by norm_num at o1; linarith)]; exact o2)
      have := mul_le_mul a1 (abs_sin_le_one (Ephem.longitude (century t))) (abs_nonneg _) (by norm_num)
      linarith
    have h2 := abs_le.1 h1
    unfold Ephem.declination
    rw [sin_arcsin (by norm_num at h2; linarith) (by norm_num at h2; linarith)]
    exact h1
  have hub : |u| ≤ 0.87 := by
    rw [hu]
    show |sin (rad 60) * sin _ + cos (rad 60) * cos _ * cos _| ≤ 0.87
    rw [e60, sin_pi_div_three, cos_pi_div_three]
    refine (abs_add_le _ _).trans ?_
    rw [abs_mul, abs_mul, abs_mul]
    have q : |√3 / 2| ≤ 0.87 := by
      rw [abs_of_nonneg (by positivity), div_le_iff₀ (by norm_num), sqrt_le_left (by norm_num)]; norm_num
    have p1 := mul_le_mul q hsd (abs_nonneg _) (by norm_num)
    have p2 := mul_le_mul (abs_cos_le_one (declination (century t)))
      (abs_cos_le_one (-(hourAngle (century t) + rad (-4.5)))) (abs_nonneg _) (by norm_num)
    have p3 : |(1 / 2 : ℝ)| = 1 / 2 := by norm_num
    rw [p3, mul_assoc (1 / 2 : ℝ)]
    generalize |√3 / 2| * |sin (declination (century t))| = X at *
    generalize |cos (declination (century t))| * |cos (-(hourAngle (century t) + rad (-4.5)))| = Y at *
    norm_num at p1 p2 ⊢
    linarith
  have hb := abs_le.1 hub
  refine ⟨w, s, arccos u * (180 / π), h, ha, ?_, ?_⟩
  · rw [rad_deg, cos_arccos (by norm_num at hb; linarith) (by norm_num at hb; linarith), hu]
  · rw [rad_deg, sin_arccos]
    have h1 : 0.49 ≤ √(1 - u ^ 2) := by
      apply le_sqrt_of_sq_le
      have : u ^ 2 ≤ 0.87 ^ 2 := sq_le_sq' hb.1 hb.2
      norm_num at this ⊢; linarith
    have h2 : 1 / 2 ≤ placeFactor alg eng 60 := by
      unfold placeFactor latFactor
      rw [e60, cos_pi_div_three]
      split_ifs <;> norm_num
    have := mul_le_mul h2 h1 (by norm_num) (by linarith)
    norm_num at this ⊢; linarith

end SW.Props
