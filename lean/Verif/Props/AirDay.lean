/-
C77: airmass and daylight length are those of the reference sun.
-/
import Verif.Props.DerivedAccuracy
import Verif.Props.BenchReport
import Verif.Props.RoundIrradiance

namespace SW.Props
open SW.Spec Real Sunpos
open SW.Ephem (century declination hourAngle)

variable {A : Arith}

/-! ### specification -/

/-- the airmass at zenith angle `z` (degrees) by the four published formulas -/
noncomputable def airmassAt (p : String) (z : ℝ) : ℝ :=
  max 1 (1 / (cos (rad z) +
    if p = "kasten_1965" then 0.15 * (93.885 - z) ^ (-1.253 : ℝ)
    else if p = "kasten_and_young_1989" then 0.50572 * (96.07995 - z) ^ (-1.6364 : ℝ)
    else if p = "gueymard_2001" then 0.45665 * z ^ (0.07 : ℝ) * (96.4836 - z) ^ (-1.697 : ℝ)
    else 0.48353 * z ^ (0.095846 : ℝ) * (96.741 - z) ^ (-1.754 : ℝ)))

/-- the hours that the sun at declination `δ` (radians) is above the horizon of latitude `φ` (degrees) while the earth turns once, where it
rises and sets -/
noncomputable def daylightHours (φ δ : ℝ) : ℝ := 24 / π * arccos (-(tan (rad φ) * tan δ))

/-! ### airmass -/

theorem airmassAt_eq {p : String} (z : ℝ) : airmassAt p z = max 1 (1 / airRec p z) := by
  unfold airmassAt airRec
  split_ifs <;> simp only [Air.rec, rpow_zero, mul_one] <;> rfl

theorem am_lip {c a b k z0 : ℝ} (hc : 0 ≤ c) (ha : 0 ≤ a) (hb : 0 ≤ b) (hk : 91 ≤ k) (hz0 : 0 ≤ z0) (hz90 : z0 ≤ 90)
    (h1 : ∀ z, 0 ≤ z → z ≤ z0 → 1 ≤ Air.rec c a b k z) (h2 : AntitoneOn (Air.rec c a b k) (Set.Icc z0 90)) (h3 : 0 < Air.rec c a b k 90)
    {x y : ℝ} (hx : 0 ≤ x) (hxy : x ≤ y) (hy : y ≤ 90) :
    max 1 (1 / Air.rec c a b k y) - max 1 (1 / Air.rec c a b k x)
      ≤ max 1 (1 / Air.rec c a b k y) * max 1 (1 / Air.rec c a b k x) * rad (y - x) := by
  have hF : ∀ z, 0 ≤ z → z ≤ z0 → max 1 (1 / Air.rec c a b k z) = 1 := by
    intro z h h'
    refine max_eq_left ?_
    rw [div_le_one (by linarith [h1 z h h'])]; exact h1 z h h'
  have hrad : 0 ≤ rad (y - x) := by unfold rad; have := sub_nonneg.2 hxy; positivity
  rcases le_or_gt y z0 with hyz | hyz
  · rw [hF y (hx.trans hxy) hyz, hF x hx (hxy.trans hyz)]; linarith
  -- the part from z0 on
  have main : ∀ x', z0 ≤ x' → x' ≤ y → max 1 (1 / Air.rec c a b k y) - max 1 (1 / Air.rec c a b k x')
      ≤ max 1 (1 / Air.rec c a b k y) * max 1 (1 / Air.rec c a b k x') * rad (y - x') := by
    intro x' hx0 hx'
    have hanti : Air.rec c a b k y ≤ Air.rec c a b k x' := h2 ⟨hx0, hx'.trans hy⟩ ⟨hyz.le, hy⟩ hx'
    have hpos : 0 < Air.rec c a b k y := lt_of_lt_of_le h3 (h2 ⟨hyz.le, hy⟩ ⟨hz90, le_refl _⟩ hy)
    have hd : Air.rec c a b k x' - Air.rec c a b k y ≤ rad (y - x') := by
      have hx'0 : 0 ≤ x' := hz0.trans hx0
      have g1 : x' ^ a ≤ y ^ a := rpow_le_rpow hx'0 hx' ha
      have g2 : (k - x') ^ (-b) ≤ (k - y) ^ (-b) := rpow_le_rpow_of_nonpos (by linarith) (by linarith) (by linarith)
      have g3 : c * x' ^ a * (k - x') ^ (-b) ≤ c * y ^ a * (k - y) ^ (-b) := by
        refine mul_le_mul (mul_le_mul_of_nonneg_left g1 hc) g2 (rpow_nonneg (by linarith) _) (mul_nonneg hc (rpow_nonneg (by linarith) _))
      have g4 := (le_abs_self _).trans (cos_lip (x' * (π / 180)) (y * (π / 180)))
      have e : rad (y - x') = |x' * (π / 180) - y * (π / 180)| := by
        rw [← sub_mul, abs_mul, abs_of_pos (show 0 < π / 180 by positivity), abs_sub_comm, abs_of_nonneg (by linarith)]; unfold rad; ring
      rw [e]
      unfold Air.rec; linarith
    obtain ⟨f, hf⟩ : ∃ f, f = Air.rec c a b k y := ⟨_, rfl⟩
    obtain ⟨g, hg⟩ : ∃ g, g = Air.rec c a b k x' := ⟨_, rfl⟩
    rw [← hf, ← hg] at hanti hd
    rw [← hf] at hpos
    rw [← hf, ← hg]
    have hr0 : 0 ≤ rad (y - x') := by unfold rad; have := sub_nonneg.2 hx'; positivity
    have hgpos : 0 < g := by linarith
    rcases le_or_gt 1 f with hf1 | hf1
    · rw [max_eq_left ((div_le_one hpos).2 hf1), max_eq_left ((div_le_one hgpos).2 (hf1.trans hanti))]; linarith
    · rw [max_eq_right ((one_le_div hpos).2 hf1.le)]
      rcases le_or_gt 1 g with hg1 | hg1
      · rw [max_eq_left ((div_le_one hgpos).2 hg1), mul_one, div_mul_eq_mul_div, one_mul, div_sub_one hpos.ne']
        gcongr; linarith
      · rw [max_eq_right ((one_le_div hgpos).2 hg1.le), div_sub_div _ _ hpos.ne' hgpos.ne', one_div_mul_one_div, one_mul, mul_one, one_div_mul_eq_div]
        gcongr
  rcases le_or_gt x z0 with hxz | hxz
  · have := main z0 le_rfl hyz.le
    rw [hF z0 hz0 le_rfl] at this
    rw [hF x hx hxz]
    refine this.trans ?_
    have hm : (0:ℝ) ≤ max 1 (1 / Air.rec c a b k y) := le_trans zero_le_one (le_max_left _ _)
    gcongr
    exact rad_mono (by linarith)
  · exact main x hxz.le hxy

theorem airmass_near {p : String} (hp : p ∈ Parameterizations) {x y : ℝ} (hx : 0 ≤ x) (hx90 : x ≤ 90) (hy : 0 ≤ y) (hy90 : y ≤ 90) :
    |airmassAt p x - airmassAt p y| ≤ airmassAt p x * airmassAt p y * rad |x - y| := by
  have key : ∀ {x y : ℝ}, 0 ≤ x → x ≤ y → y ≤ 90 → |airmassAt p x - airmassAt p y| ≤ airmassAt p x * airmassAt p y * rad |x - y| := by
    intro x y hx hxy hy
    have hmono := (airRec_facts hp).1 ⟨hx, hxy.trans hy⟩ ⟨hx.trans hxy, hy⟩ hxy
    simp only at hmono
    rw [airmassAt_eq, airmassAt_eq, abs_sub_comm, abs_of_nonneg (by linarith), abs_sub_comm x y, abs_of_nonneg (by linarith), mul_comm (max 1 (1 / airRec p x))]
    simp only [Parameterizations, List.mem_cons, List.not_mem_nil, or_false] at hp
    rcases hp with rfl | rfl | rfl | rfl
    · obtain ⟨a1, a2, a3⟩ := Air.kasten
      exact am_lip (by norm_num) (by norm_num) (by norm_num) (by norm_num) (by norm_num) (by norm_num) a1 a2 (lt_of_lt_of_le (by norm_num) a3) hx hxy hy
    · obtain ⟨a1, a2, a3⟩ := Air.kastenYoung
      exact am_lip (by norm_num) (by norm_num) (by norm_num) (by norm_num) (by norm_num) (by norm_num) a1 a2 (lt_of_lt_of_le (by norm_num) a3) hx hxy hy
    · obtain ⟨a1, a2, a3⟩ := Air.gueymard2001
      exact am_lip (by norm_num) (by norm_num) (by norm_num) (by norm_num) (by norm_num) (by norm_num) a1 a2 (lt_of_lt_of_le (by norm_num) a3) hx hxy hy
    · obtain ⟨a1, a2, a3⟩ := Air.gueymard2003
      exact am_lip (by norm_num) (by norm_num) (by norm_num) (by norm_num) (by norm_num) (by norm_num) a1 a2 (lt_of_lt_of_le (by norm_num) a3) hx hxy hy
  rcases le_total x y with h | h
  · exact key hx h hy90
  · have := key hy h hx90
    rwa [abs_sub_comm, abs_sub_comm y x, mul_comm (airmassAt p y)] at this

theorem airmass_cell {p : String} (hp : p ∈ Parameterizations) (s : Sunpos XR) {e : Dim → Nat} {z : ℝ} (hz : s.zenithDeg.get e = .fin z)
    (h0 : 0 ≤ z) (h : z ≤ 90) : ∃ M, s.airmass p = .ok M ∧ M.get e = .fin (airmassAt p z) := by
  obtain ⟨M, hM, hg⟩ := airmass_get hp s
  have h4 : 0 < airRec p z := lt_of_lt_of_le (by norm_num) ((airRec_facts hp).2 z h0 h).1
  exact ⟨M, hM, by rw [hg, cosz_get hz, hz, recX_fin hp h0 h, amOf_day h h4.ne', airmassAt_eq]⟩

theorem airmass_pos (p : String) (z : ℝ) : 1 ≤ airmassAt p z := le_max_left _ _

/-! ### the zenith angle -/

theorem sunZenith_range (t : Int) (φ l : ℝ) : 0 ≤ sunZenith t φ l ∧ sunZenith t φ l ≤ 180 := by
  refine ⟨mul_nonneg (arccos_nonneg _) (by positivity), ?_⟩
  have := mul_le_mul_of_nonneg_right (arccos_le_pi (sin (rad φ) * sin (declination (century t)) + cos (rad φ) * cos (declination (century t)) * cos (hourAngle (century t) + rad l)))
    (show 0 ≤ 180 / π by positivity)
  have e : π * (180 / π) = 180 := by field_simp
  unfold sunZenith; linarith

theorem sunZenith_cos (t : Int) (φ l : ℝ) : cos (rad (sunZenith t φ l)) = sin (rad φ) * sin (declination (century t))
      + cos (rad φ) * cos (declination (century t)) * cos (hourAngle (century t) + rad l) := by
  unfold sunZenith
  have := sphere_le_one (rad φ) (declination (century t)) (hourAngle (century t) + rad l)
  rw [rad_deg, cos_arccos (abs_le.1 this).1 (abs_le.1 this).2]

/-- without refraction the zenith angle is that of the reference sun to the error of the position -/
theorem zenithDeg_near {uc : UseCase} {w : World XR} {times : Times} {latitude longitude : Coord XR}
    {alg eng : String} {refr : PyVal} {s : Sunpos XR} {e : Dim → Nat} {t : Int} {φ l : ℝ}
    (h : call uc w times latitude longitude alg refr eng = .ok s) (hr : refr ≠ .pyTrue) (ha : At s times e t φ l) :
    ∃ z : ℝ, s.zenithDeg.get e = .fin z ∧ 0 ≤ z ∧ z ≤ 180 ∧ |z - sunZenith t φ l| ≤ positionError alg eng := by
  obtain ⟨z, hz, z0, z1⟩ := C13_range h ha (.inr (.inr hr))
  obtain ⟨z', a, hz', -, -⟩ := C54_position h hr ha
  obtain ⟨-, hφ, hl, -⟩ := at_cases h ha
  obtain ⟨_, _, b, _, hacc, _, _⟩ := call_inv h
  obtain ⟨s', h', ha'⟩ := single_call .sites (alg := alg) (eng := eng) (known_iff.2 ⟨b, hacc.names⟩) .pyTrue ha.range hφ hl
  obtain ⟨Z, hZ, hZ0, hZπ, -⟩ := refracted_side h hr h' ha ha'
  obtain ⟨s0, s1⟩ := sunZenith_range t φ l
  have hn := zenith_near h hr ha (sunZenith_cos t φ l) s0 s1 hZ hZ0 hZπ
  refine ⟨z, hz, z0, z1, ?_⟩
  rw [zenithDeg_fin hZ, XR.fin_inj] at hz
  have : rad z = Z := by rw [← hz, rad_deg]
  rw [← this, ← rad_sub] at hn
  exact of_rad hn

/-- **C77** The airmass is that of the reference sun, to the error of the position (C54): without refraction, for each parameterization, at
every instant and place at which the reference sun is above the horizon by more than that error. -/
theorem C77_airmass {uc : UseCase} {w : World XR} {times : Times} {latitude longitude : Coord XR}
    {alg eng : String} {refr : PyVal} {s : Sunpos XR} {e : Dim → Nat} {t : Int} {φ l : ℝ} {p : String}
    (h : call uc w times latitude longitude alg refr eng = .ok s) (hr : refr ≠ .pyTrue) (ha : At s times e t φ l)
    (hp : p ∈ Parameterizations) (hζ : sunZenith t φ l ≤ 90 - positionError alg eng) :
    ∃ M m, s.airmass p = .ok M ∧ M.get e = .fin m ∧
      |m - airmassAt p (sunZenith t φ l)| ≤ m * airmassAt p (sunZenith t φ l) * rad (positionError alg eng) := by
  obtain ⟨z, hz, z0, z1, hd⟩ := zenithDeg_near h hr ha
  obtain ⟨s0, s1⟩ := sunZenith_range t φ l
  have hd' := abs_le.1 hd
  have hpe := (abs_nonneg _).trans hd
  obtain ⟨M, hM, hm⟩ := airmass_cell hp s hz z0 (by linarith)
  refine ⟨M, _, hM, hm, (airmass_near hp z0 (by linarith) s0 (by linarith)).trans ?_⟩
  have a1 := airmass_pos p z
  have a2 := airmass_pos p (sunZenith t φ l)
  exact mul_le_mul_of_nonneg_left (rad_mono hd) (by positivity)

/-- **C77** With refraction (the default) it is the airmass at the zenith angle of the reference sun seen through the standard atmosphere, where
that is above the horizon by more than the errors of position and refraction (C68) and not closer to the zenith. -/
theorem C77_airmass_apparent {uc : UseCase} {w : World XR} {times : Times} {latitude longitude : Coord XR}
    {alg eng : String} {s : Sunpos XR} {e : Dim → Nat} {t : Int} {φ l ζ : ℝ} {p : String}
    (h : call uc w times latitude longitude alg .pyTrue eng = .ok s) (ha : At s times e t φ l)
    (hp : p ∈ Parameterizations) (hlow : sunZenith t φ l ≤ 90 - lowestElevation alg)
    (hζ : ζ = sunZenith t φ l - standardRefraction (90 - sunZenith t φ l))
    (h0 : positionError alg eng + refractionError alg ≤ ζ) (h1 : ζ ≤ 90 - (positionError alg eng + refractionError alg)) :
    ∃ M m, s.airmass p = .ok M ∧ M.get e = .fin m ∧
      |m - airmassAt p ζ| ≤ m * airmassAt p ζ * rad (positionError alg eng + refractionError alg) := by
  obtain ⟨z, a, -, hz, -, -, -, hd⟩ := C68_accuracy h ha (sunZenith_cos t φ l) (sunZenith_range t φ l).1 hlow
  rw [← hζ] at hd
  have hd' := abs_le.1 hd
  have hpe := (abs_nonneg _).trans hd
  obtain ⟨M, hM, hm⟩ := airmass_cell hp s hz (by linarith) (by linarith)
  refine ⟨M, _, hM, hm, (airmass_near hp (by linarith) (by linarith) (by linarith) (by linarith)).trans ?_⟩
  have a1 := airmass_pos p z
  have a2 := airmass_pos p ζ
  exact mul_le_mul_of_nonneg_left (rad_mono hd) (by positivity)

/-- the airmass of an object in floating-point arithmetic -/
theorem airmass_float {p : String} (hp : p ∈ Parameterizations) (s : Sunpos (Rd A)) (s' : Sunpos XR) {e : Dim → Nat} {ζ z : ℝ}
    (hζ : s.zenith.get e = Rd.fin ζ) (hb : |ζ| ≤ 10) (hz : s.zenithDeg.get e = Rd.fin z) (h0 : 1e-30 ≤ z) (h1 : z ≤ 90 - 1e-13) :
    ∃ M m, s.airmass p = .ok M ∧ M.get e = Rd.fin m ∧ |m - airmassAt p z| ≤ 6e-8 := by
  obtain ⟨t, ht⟩ : ∃ t : Sunpos XR, t.zenithDeg.get e = .fin z := by
    refine ⟨{ s' with zenith := ⟨[], fun _ => .fin (z * (π / 180))⟩ }, ?_⟩
    have := zenithDeg_fin (s := { s' with zenith := ⟨[], fun _ => .fin (z * (π / 180))⟩ }) (e := e) (z := z * (π / 180)) rfl
    rw [this, XR.fin_inj]; field_simp
  obtain ⟨B, X, hB, hX, hg, -⟩ := C66_airmass hp s t hζ hb hz ht
  obtain ⟨r, v, hr, hv, -, hd⟩ := hg h0 h1
  obtain ⟨M, hM, hm⟩ := airmass_cell hp t ht (le_trans (by norm_num) h0) (h1.trans (by norm_num))
  obtain rfl := Except.ok.inj (hM.symm.trans hX)
  rw [hm, XR.fin_inj] at hv
  exact ⟨B, r, hB, hr, hv ▸ hd⟩

/-- the zenith angle, in degrees, is at least 3.4 where its sine is at least 0.06 -/
theorem zen_of_sin {ζ κ : ℝ} (hκ : κ ≤ 1) (h0 : 0 ≤ ζ) (h1 : ζ ≤ 180) (hs : 0.06 ≤ κ * sin (rad ζ)) : 3.4 ≤ ζ := by
  have hs0 : 0 ≤ sin (rad ζ) := sin_nonneg_of_nonneg_of_le_pi (by unfold rad; positivity) (by
    have : rad 180 = π := by unfold rad; ring
    rw [← this]; exact rad_mono h1)
  have h2 : κ * sin (rad ζ) ≤ 1 * sin (rad ζ) := mul_le_mul_of_nonneg_right hκ hs0
  have h3 : sin (rad ζ) ≤ rad ζ := sin_le (by unfold rad; positivity)
  have hp := pi_lt_d4
  have h4 : rad ζ ≤ ζ * 0.0174534 := by unfold rad; gcongr; norm_num at hp ⊢; linarith
  norm_num at hs h4 ⊢; linarith

/-- **C77** The same in floating-point arithmetic, without refraction, where `κ sin ζ ≥ 0.06` as in C64. -/
theorem C77_airmass_float {uc : UseCase} {w : World (Rd A)} {times : Times} {latitude longitude : Coord (Rd A)}
    {alg eng : String} {refr : PyVal} {s : Sunpos (Rd A)} {e : Dim → Nat} {t : Int} {φ l E : ℝ} {p : String}
    (h : call uc w times latitude longitude alg refr eng = .ok s) (hr : refr ≠ .pyTrue)
    (ha : AtRd s times e t φ l) (hφ : -90 ≤ φ ∧ φ ≤ 90) (hl : -180 ≤ l ∧ l < 180)
    (hpole : alg = "nrel" → |φ| ≤ 90 - 1e-10) (hp : p ∈ Parameterizations)
    (hs : 0.06 ≤ placeFactor alg eng φ * sin (rad (sunZenith t φ l)))
    (hE : E = positionError alg eng + 0.0021 / (placeFactor alg eng φ * sin (rad (sunZenith t φ l))))
    (hζ : sunZenith t φ l ≤ 90 - E) :
    ∃ M m, s.airmass p = .ok M ∧ M.get e = Rd.fin m ∧
      |m - airmassAt p (sunZenith t φ l)| ≤ (m + 6e-8) * airmassAt p (sunZenith t φ l) * rad E + 6e-8 := by
  have hv : (sunVec (rad φ) (declination (century t)) (-(hourAngle (century t) + rad l))).up = cos (rad (sunZenith t φ l)) := by
    rw [sunZenith_cos]; simp only [sunVec, cos_neg]
  obtain ⟨s', z, a, z1, a2, B, k, h', ha', g1, g2, hz1, -, z10, z11, g4, -, hB, hB2, hc⟩ := float_near h hr ha hφ hl hpole hv hs
  obtain ⟨y, hy, by10⟩ := float_stored h ha hφ hl hpole hv (fun h => absurd h hr) hs
  obtain ⟨z2, hz2, -, -, hd⟩ := zenithDeg_near h' hr ha'
  obtain rfl : z1 = z2 := XR.fin_inj.1 (hz1.symm.trans hz2)
  obtain ⟨s0, s1⟩ := sunZenith_range t φ l
  have hlow := zen_of_sin (placeFactor_le alg eng φ) s0 s1 hs
  obtain ⟨x, hx⟩ : ∃ x, x = placeFactor alg eng φ * sin (rad (sunZenith t φ l)) := ⟨_, rfl⟩
  rw [← hx] at hs hE g4
  have hx0 : 0 < x := lt_of_lt_of_le (by norm_num) hs
  have e1 : 0.0021 / x ≤ 0.035 := by rw [div_le_iff₀ hx0]; norm_num at hs ⊢; linarith
  have e2 : 2 * 0.00066 / x + 1e-6 ≤ 0.0021 / x := by
    rw [div_add' _ _ _ hx0.ne', div_le_div_iff_of_pos_right hx0]
    have : x ≤ 1 := by
      rw [hx]
      calc _ ≤ (1:ℝ) * 1 := mul_le_mul (placeFactor_le alg eng φ) (sin_le_one _) (by
            by_contra hn; push Not at hn
            have := mul_nonpos_of_nonneg_of_nonpos (placeFactor_nonneg alg eng hφ) hn.le
            linarith) (by norm_num)
        _ = 1 := one_mul _
    norm_num; linarith
  obtain ⟨b, hb, -⟩ := rd_time h ha.time
  have hpe := positionError_le (known_iff.2 ⟨b, hb⟩)
  have hzd : |z - sunZenith t φ l| ≤ E - 1e-6 := by
    refine (abs_sub_le _ z1 _).trans ?_
    rw [hE]; linarith
  have hzd' := abs_le.1 hzd
  have b0 : 1e-30 ≤ z := by norm_num at hlow hpe e1 hzd' ⊢; linarith [hzd'.1]
  have b1 : z ≤ 90 - 1e-13 := by norm_num at hzd' ⊢; linarith [hzd'.2]
  have b1' : z ≤ 90 := b1.trans (by norm_num)
  have b0' : 0 ≤ z := le_trans (by norm_num) b0
  obtain ⟨M, m, hM, hm, em⟩ := airmass_float hp s s' hy by10 g1 b0 b1
  refine ⟨M, m, hM, hm, ?_⟩
  have hn := airmass_near hp b0' b1' s0 (by have := (abs_nonneg _).trans hd; have : 0 ≤ 0.0021 / x := by positivity
                                            linarith)
  have a1 := airmass_pos p z
  have a2 := airmass_pos p (sunZenith t φ l)
  have hEz : |z - sunZenith t φ l| ≤ E := hzd.trans (by norm_num)
  have hn' : airmassAt p z * airmassAt p (sunZenith t φ l) * rad |z - sunZenith t φ l| ≤ (m + 6e-8) * airmassAt p (sunZenith t φ l) * rad E := by
    have r1 := rad_mono hEz
    have r0 : 0 ≤ rad |z - sunZenith t φ l| := by unfold rad; positivity
    have := (abs_le.1 em).1
    have : airmassAt p z ≤ m + 6e-8 := by linarith
    have : 0 ≤ m + 6e-8 := by linarith
    gcongr
  exact (abs_sub_le _ (airmassAt p z) _).trans (by linarith)

/-- **C77** The same in floating-point arithmetic with refraction. -/
theorem C77_airmass_float_apparent {uc : UseCase} {w : World (Rd A)} {times : Times} {latitude longitude : Coord (Rd A)}
    {alg eng : String} {s : Sunpos (Rd A)} {e : Dim → Nat} {t : Int} {φ l ζ E : ℝ} {p : String}
    (h : call uc w times latitude longitude alg .pyTrue eng = .ok s)
    (ha : AtRd s times e t φ l) (hφ : -90 ≤ φ ∧ φ ≤ 90) (hl : -180 ≤ l ∧ l < 180)
    (hpole : alg = "nrel" → |φ| ≤ 90 - 1e-10) (hp : p ∈ Parameterizations)
    (hlow : sunZenith t φ l ≤ 90 - lowestElevation alg)
    (hs : 0.06 ≤ placeFactor alg eng φ * sin (rad (sunZenith t φ l)))
    (hE : E = positionError alg eng + refractionError alg + 0.0019 / (placeFactor alg eng φ * sin (rad (sunZenith t φ l))))
    (hζ : ζ = sunZenith t φ l - standardRefraction (90 - sunZenith t φ l)) (h0 : E < ζ - 1e-12) (h1 : ζ + 1e-12 < 90 - E) :
    ∃ M m, s.airmass p = .ok M ∧ M.get e = Rd.fin m ∧
      |m - airmassAt p ζ| ≤ (m + 6e-8) * airmassAt p ζ * rad E + 6e-8 := by
  have hv : (sunVec (rad φ) (declination (century t)) (-(hourAngle (century t) + rad l))).up = cos (rad (sunZenith t φ l)) := by
    rw [sunZenith_cos]; simp only [sunVec, cos_neg]
  obtain ⟨s0, s1⟩ := sunZenith_range t φ l
  obtain ⟨z, a, -, g1, -, -, -, hd⟩ := C69_accuracy h ha hφ hl hpole (sunZenith_cos t φ l) s0 hlow hs
  obtain ⟨y, hy, by10⟩ := float_stored h ha hφ hl hpole hv (fun _ => ⟨s0, hlow⟩) hs
  obtain ⟨b, hb, -⟩ := rd_time h ha.time
  obtain ⟨s', -, -⟩ := single_call uc (known_iff.2 ⟨b, hb⟩) .pyTrue ha.range hφ hl
  rw [← hE, ← hζ] at hd
  have hd' := abs_le.1 hd
  have b0 : 1e-30 ≤ z := by norm_num at hd' h0 ⊢; linarith [hd'.1]
  have b1 : z ≤ 90 - 1e-13 := by norm_num at hd' h1 ⊢; linarith [hd'.2]
  have b1' : z ≤ 90 := b1.trans (by norm_num)
  have b0' : 0 ≤ z := le_trans (by norm_num) b0
  have hE0 := (abs_nonneg _).trans hd
  obtain ⟨M, m, hM, hm, em⟩ := airmass_float hp s s' hy by10 g1 b0 b1
  refine ⟨M, m, hM, hm, ?_⟩
  have hn := airmass_near hp b0' b1' (show 0 ≤ ζ by norm_num at h0; linarith) (by norm_num at h1; linarith)
  have a1 := airmass_pos p z
  have a2 := airmass_pos p ζ
  have hn' : airmassAt p z * airmassAt p ζ * rad |z - ζ| ≤ (m + 6e-8) * airmassAt p ζ * rad E := by
    have r1 := rad_mono hd
    have r0 : 0 ≤ rad |z - ζ| := by unfold rad; positivity
    have := (abs_le.1 em).1
    have : airmassAt p z ≤ m + 6e-8 := by linarith
    have : 0 ≤ m + 6e-8 := by linarith
    gcongr
  exact (abs_sub_le _ (airmassAt p z) _).trans (by linarith)

/-! ### daylight length -/

theorem cos_dec {x : ℝ} (h : |x| ≤ 0.43) : 0.907 ≤ cos x := by
  have h2 : x ^ 2 ≤ 0.43 ^ 2 := by rw [← sq_abs]; exact pow_le_pow_left₀ (abs_nonneg _) h 2
  have := one_sub_sq_div_two_le_cos (x := x)
  norm_num at h2 ⊢; linarith

theorem tan_near {x y : ℝ} (hx : |x| ≤ 0.43) (hy : |y| ≤ 0.43) : |tan x - tan y| ≤ 1.22 * |x - y| := by
  have c1 := cos_dec hx
  have c2 := cos_dec hy
  have p1 : 0 < cos x := lt_of_lt_of_le (by norm_num) c1
  have p2 : 0 < cos y := lt_of_lt_of_le (by norm_num) c2
  have e : tan x - tan y = sin (x - y) / (cos x * cos y) := by
    rw [tan_eq_sin_div_cos, tan_eq_sin_div_cos, div_sub_div _ _ p1.ne' p2.ne', sin_sub]
  rw [e, abs_div, abs_of_pos (mul_pos p1 p2), div_le_iff₀ (mul_pos p1 p2)]
  have h1 : (0.907:ℝ) * 0.907 ≤ cos x * cos y := mul_le_mul c1 c2 (by norm_num) p1.le
  have h2 : |sin (x - y)| ≤ |x - y| := abs_sin_le_abs
  have h3 : 1.22 * |x - y| * (0.907 * 0.907) ≤ 1.22 * |x - y| * (cos x * cos y) := mul_le_mul_of_nonneg_left h1 (by positivity)
  have := abs_nonneg (x - y)
  norm_num at h3 ⊢; linarith

theorem arccos_close {x y r : ℝ} (hr : r < 1) (hx : |x| ≤ r) (hy : |y| ≤ r) : |arccos x - arccos y| ≤ |x - y| / √(1 - r ^ 2) := by
  have hr0 : 0 ≤ r := (abs_nonneg _).trans hx
  have hs : 0 < √(1 - r ^ 2) := sqrt_pos.2 (by nlinarith)
  have := Convex.norm_image_sub_le_of_norm_hasDerivWithin_le (f := arccos) (f' := fun x => -(1 / √(1 - x ^ 2))) (s := Set.Icc (-r) r)
    (C := 1 / √(1 - r ^ 2)) (x := y) (y := x) (fun z hz => (hasDerivAt_arccos (by linarith [hz.1]) (by linarith [hz.2])).hasDerivWithinAt)
    (fun z hz => by
      have hz2 : z ^ 2 ≤ r ^ 2 := by nlinarith [hz.1, hz.2]
      rw [norm_neg, norm_eq_abs, abs_of_nonneg (by positivity)]
      exact one_div_le_one_div_of_le hs (sqrt_le_sqrt (by linarith)))
    (convex_Icc _ _) (abs_le.1 hy) (abs_le.1 hx)
  rw [norm_eq_abs, norm_eq_abs] at this
  rwa [div_eq_mul_one_div, mul_comm]

theorem dec_bound (t : Int) (ht : |t| < 2 ^ 63) : |declination (century t)| ≤ 0.43 := by
  obtain ⟨s, h, ha⟩ := single_call .sites (alg := "nrel") (eng := "numexpr") (by simp [KnownPair]) .pyFalse ht (φ := 40) (l := -4.5) (by norm_num) (by norm_num)
  obtain ⟨d, hd, d1, d2, -⟩ := C17_declination (e := fun _ => 0) h ha.time ht
  obtain ⟨d', hd', e'⟩ := C54_declination (e := fun _ => 0) h ha.time ht
  obtain rfl : d = d' := XR.fin_inj.1 (hd.symm.trans hd')
  have d2 := d2 (by simp)
  have hp := pi_lt_d4
  have h1 := rad_mono d2
  rw [← abs_rad] at h1
  have h2 : rad 23.8 ≤ 0.416 := by unfold rad; norm_num at hp ⊢; linarith
  have h3 : rad (decError "nrel") ≤ 0.01 := by simp only [decError, String.reduceEq, if_true, if_false]; unfold rad; norm_num at hp ⊢; linarith
  have h4 := abs_sub_abs_le_abs_sub (declination (century t)) (rad d)
  rw [abs_sub_comm (declination (century t)) (rad d)] at h4
  norm_num at h1 h2 h3 h4 e' ⊢; linarith

/-- **C77** Between the poles the daylight length is that of the reference sun: `ε` being what the error of the declination (C54) makes of
`tan φ tan δ`, it is a number within `24/π · ε/√(1 - r²)` hours of the hours that the reference sun, at its declination of that instant, is above
the horizon, wherever it rises and sets by a margin, `|tan φ tan δ| + ε ≤ r < 1`; and it is NaN wherever the reference sun does not rise or does not
set by the margin `ε`. -/
theorem C77_daylight {uc : UseCase} {w w' : World XR} {times : Times} {latitude longitude : Coord XR}
    {alg eng : String} {refr : PyVal} {s : Sunpos XR} {e : Dim → Nat} {t : Int} {φ ε : ℝ}
    (h : call uc w times latitude longitude alg refr eng = .ok s) (hk : stampAt times.stamps (e .time) = some t) (ht : |t| < 2 ^ 63)
    (hlat : s.latitude.get e = .fin φ) (hφ : |φ| < 90) (hε : ε = 1.22 * |tan (rad φ)| * rad (decError alg)) :
    ∃ D, s.daylightLength w' = .ok D ∧
      (∀ r, |tan (rad φ) * tan (declination (century t))| + ε ≤ r → r < 1 →
        ∃ v, D.get e = .fin v ∧ |v - daylightHours φ (declination (century t))| ≤ 24 / π * (ε / √(1 - r ^ 2))) ∧
      (1 + ε < |tan (rad φ) * tan (declination (century t))| → D.get e = .nan) := by
  obtain ⟨d, hd, d1, -⟩ := C17_declination h hk ht
  obtain ⟨d', hd', e'⟩ := C54_declination h hk ht
  obtain rfl : d = d' := XR.fin_inj.1 (hd.symm.trans hd')
  obtain ⟨D, hD, g1, g2⟩ := daylight_fin w' s hlat hd hφ (lt_of_le_of_lt d1 (by norm_num))
  have hdr : |rad d| ≤ 0.43 := by
    have hp := pi_lt_d4
    have h1 := rad_mono d1
    rw [← abs_rad] at h1
    have h2 : rad 24.5 ≤ 0.43 := by unfold rad; norm_num at hp ⊢; linarith
    linarith
  have hδ := dec_bound t ht
  have hdiff : |tan (rad φ) * tan (rad d) - tan (rad φ) * tan (declination (century t))| ≤ ε := by
    rw [← mul_sub, abs_mul, hε, mul_comm 1.22, mul_assoc]
    refine mul_le_mul_of_nonneg_left ((tan_near hdr hδ).trans ?_) (abs_nonneg _)
    exact mul_le_mul_of_nonneg_left e' (by norm_num)
  obtain ⟨x, hx⟩ : ∃ x, x = tan (rad φ) * tan (rad d) := ⟨_, rfl⟩
  obtain ⟨y, hy⟩ : ∃ y, y = tan (rad φ) * tan (declination (century t)) := ⟨_, rfl⟩
  unfold daylightHours
  rw [← hx] at g1 g2 hdiff
  rw [← hy] at hdiff ⊢
  refine ⟨D, hD, fun r hr hr1 => ?_, fun hgt => g2 ?_⟩
  · have hε0 := (abs_nonneg _).trans hdiff
    have hxr : |x| ≤ r := by have := abs_sub_abs_le_abs_sub x y; linarith
    refine ⟨_, g1 (hxr.trans hr1.le), ?_⟩
    rw [← mul_sub, abs_mul, abs_of_pos (show 0 < 24 / π by positivity)]
    refine mul_le_mul_of_nonneg_left ?_ (by positivity)
    refine (arccos_close hr1 (by rwa [abs_neg]) (by rw [abs_neg]; linarith)).trans ?_
    refine div_le_div_of_nonneg_right ?_ (sqrt_nonneg _)
    rw [neg_sub_neg, abs_sub_comm]; exact hdiff
  · have := abs_sub_abs_le_abs_sub y x
    rw [abs_sub_comm] at this
    linarith

/-- **C77** The same in floating-point arithmetic. -/
theorem C77_daylight_float {uc : UseCase} {w w' : World (Rd A)} {times : Times} {latitude longitude : Coord (Rd A)}
    {alg eng : String} {refr : PyVal} {s : Sunpos (Rd A)} {e : Dim → Nat} {t : Int} {φ ε : ℝ}
    (h : call uc w times latitude longitude alg refr eng = .ok s) (hk : stampAt times.stamps (e .time) = some t) (ht : |t| < 2 ^ 63)
    (hlat : s.latitude.get e = Rd.fin φ) (hφ : |φ| < 90)
    (hε : ε = 1.22 * |tan (rad φ)| * rad (decError alg + 4e-8) + 3e-13 / cos (rad φ)) :
    ∃ D, s.daylightLength w' = .ok D ∧
      (∀ r, |tan (rad φ) * tan (declination (century t))| + ε ≤ r → r < 1 →
        ∃ v, D.get e = Rd.fin v ∧ |v - daylightHours φ (declination (century t))| ≤ 24 / π * (ε / √(1 - r ^ 2)) + 1e-12) ∧
      (1 + ε < |tan (rad φ) * tan (declination (century t))| → D.get e = XR.nan) := by
  obtain ⟨d, -, -, hd, -, -, e', -, -⟩ := C64_time h hk ht
  have hδ := dec_bound t ht
  obtain ⟨b, hb, -⟩ := rd_time h hk
  have hkp := known_iff.2 ⟨b, hb⟩
  have hp := pi_lt_d4
  have hdr : |rad d| ≤ 0.43 := by
    obtain ⟨s', h', ha'⟩ := single_call .sites hkp .pyFalse ht (φ := 40) (l := -4.5) (by norm_num) (by norm_num)
    obtain ⟨d1, hd1, d2, -⟩ := C17_declination (e := fun _ => 0) h' ha'.time ht
    obtain ⟨⟨d3, d', h1, h2, h3⟩, -⟩ := near_time (e' := fun _ => 0) h h' hk ha'.time ht
    obtain rfl : d3 = d := Rd.fin_inj.1 (h1.symm.trans hd)
    obtain rfl : d1 = d' := XR.fin_inj.1 (hd1.symm.trans h2)
    have h4 : |d3| ≤ 24.6 := by
      have := abs_sub_abs_le_abs_sub d3 d1
      norm_num at d2 h3 ⊢; linarith
    have h1 := rad_mono h4
    rw [← abs_rad] at h1
    have h2 : rad 24.6 ≤ 0.43 := by unfold rad; norm_num at hp ⊢; linarith
    linarith
  have hd30 : |d| ≤ 30 := by
    by_contra hn
    push Not at hn
    have h1 := rad_mono hn.le
    rw [← abs_rad] at h1
    have hp' := pi_gt_d4
    have h2 : 0.5 ≤ rad 30 := by unfold rad; norm_num at hp' ⊢; linarith
    norm_num at hdr h2; linarith
  obtain ⟨R, G, D, -, -, hD, g1, g2⟩ := C66_sunrise_angle w' s hlat hφ.le hd hd30
  have hcφ : 0 < cos (rad φ) := by
    have := abs_lt.1 hφ
    apply cos_pos_of_mem_Ioo
    have hπ := pi_pos
    unfold rad
    constructor <;> nlinarith [this.1, this.2]
  have hcd := cos_dec hdr
  have hcd0 : 0 < cos (rad d) := lt_of_lt_of_le (by norm_num) hcd
  obtain ⟨c, hc⟩ : ∃ c, c = cos (rad φ) * cos (rad d) := ⟨_, rfl⟩
  have hc0 : 0 < c := hc ▸ mul_pos hcφ hcd0
  have hxe : sin (rad φ) * sin (rad d) = c * (tan (rad φ) * tan (rad d)) := by
    rw [hc, tan_eq_sin_div_cos, tan_eq_sin_div_cos]; field_simp
  have hdiff : |tan (rad φ) * tan (rad d) - tan (rad φ) * tan (declination (century t))| ≤ 1.22 * |tan (rad φ)| * rad (decError alg + 4e-8) := by
    rw [← mul_sub, abs_mul, mul_comm 1.22, mul_assoc]
    refine mul_le_mul_of_nonneg_left ((tan_near hdr hδ).trans ?_) (abs_nonneg _)
    exact mul_le_mul_of_nonneg_left e' (by norm_num)
  have hq : 2e-13 / c < 3e-13 / cos (rad φ) := by
    rw [hc, div_lt_div_iff₀ (mul_pos hcφ hcd0) hcφ]
    have : cos (rad φ) * 0.907 ≤ cos (rad φ) * cos (rad d) := mul_le_mul_of_nonneg_left hcd hcφ.le
    norm_num at this ⊢; linarith
  rw [hxe, ← hc] at g1 g2
  obtain ⟨x, hx⟩ : ∃ x, x = tan (rad φ) * tan (rad d) := ⟨_, rfl⟩
  obtain ⟨y, hy⟩ : ∃ y, y = tan (rad φ) * tan (declination (century t)) := ⟨_, rfl⟩
  unfold daylightHours
  rw [← hx] at g1 g2 hdiff
  rw [← hy] at hdiff ⊢
  obtain ⟨η, hη⟩ : ∃ η, η = 1.22 * |tan (rad φ)| * rad (decError alg + 4e-8) := ⟨_, rfl⟩
  obtain ⟨θ, hθ⟩ : ∃ θ, θ = 3e-13 / cos (rad φ) := ⟨_, rfl⟩
  rw [← hη] at hdiff hε
  rw [← hθ] at hε hq
  have hη0 := (abs_nonneg _).trans hdiff
  have hq0 : 0 < 2e-13 / c := by positivity
  -- the cosine of the angle
  have key : ∀ ω : ℝ, R.get e = Rd.fin ω → |cos ω + x| ≤ 2e-13 / c := by
    intro ω hω
    obtain ⟨-, -, h1, -⟩ := g1 ω hω
    rw [← mul_add, abs_mul, abs_of_pos hc0] at h1
    rw [le_div_iff₀ hc0, add_comm, mul_comm]; exact h1
  refine ⟨D, hD, fun r hr hr1 => ?_, fun hgt => ?_⟩
  · have hxr : |x| ≤ r - θ := by have := abs_sub_abs_le_abs_sub x y; linarith
    rcases hR : R.get e with _ | ω
    rotate_left
    · obtain ⟨w1, w2, -, -, v, -, hv, -, ev⟩ := g1 ω hR
      have hk := key ω hR
      refine ⟨v, hv, ?_⟩
      have hcr : |cos ω| ≤ r := by
        have := abs_sub_abs_le_abs_sub (cos ω) (-x)
        rw [abs_neg, sub_neg_eq_add] at this
        linarith
      have hw : |ω - arccos (cos ω)| ≤ 2e-14 := by
        rcases lt_or_ge ω 0 with hneg | hpos
        · rw [← cos_neg, arccos_cos (by linarith) (by norm_num at w1; linarith [pi_gt_three])]
          rw [abs_le]; norm_num at w1 ⊢; constructor <;> linarith
        · rcases le_or_gt ω π with hle | hgt
          · rw [arccos_cos hpos hle]; norm_num
          · have : cos ω = cos (2 * π - ω) := by rw [cos_two_pi_sub]
            rw [this, arccos_cos (by norm_num at w2; linarith [pi_gt_three]) (by linarith)]
            rw [abs_le]; norm_num at w2 ⊢; constructor <;> linarith
      have ha := arccos_close (x := cos ω) (y := -y) hr1 hcr (by rw [abs_neg]; linarith)
      have hcy : |cos ω - -y| ≤ ε := by
        rw [show cos ω - -y = (cos ω + x) - (x - y) by ring]
        refine (abs_sub _ _).trans ?_
        linarith
      have ha' := ha.trans (div_le_div_of_nonneg_right hcy (sqrt_nonneg _))
      have h24 : |ω * (24 / π) - 24 / π * arccos (-y)| ≤ 24 / π * (2e-14 + ε / √(1 - r ^ 2)) := by
        rw [mul_comm ω, ← mul_sub, abs_mul, abs_of_pos (show 0 < 24 / π by positivity)]
        refine mul_le_mul_of_nonneg_left ?_ (by positivity)
        exact (abs_sub_le _ (arccos (cos ω)) _).trans (add_le_add hw ha')
      have h8 : 24 / π ≤ 8 := by rw [div_le_iff₀ pi_pos]; linarith [pi_gt_three]
      refine (abs_sub_le _ (ω * (24 / π)) _).trans ?_
      rw [mul_add] at h24
      generalize 24 / π * (ε / √(1 - r ^ 2)) = Q at *
      generalize 24 / π = P at *
      norm_num at h24 ev ⊢; linarith
    · exfalso
      obtain ⟨h1, -⟩ := g2 hR
      rw [abs_mul, abs_of_pos hc0] at h1
      have : 1 ≤ |x| + 2e-13 / c := by
        rw [← sub_le_iff_le_add', le_div_iff₀ hc0]; linarith
      linarith
  · rcases hR : R.get e with _ | ω
    rotate_left
    · exfalso
      have hk := key ω hR
      have h1 := abs_sub_abs_le_abs_sub y x
      rw [abs_sub_comm] at h1
      have h2 := abs_sub_abs_le_abs_sub x (-cos ω)
      rw [abs_neg, sub_neg_eq_add, add_comm x] at h2
      have h3 := abs_cos_le_one ω
      linarith
    · exact (g2 hR).2.2

/-! ### the hypotheses are met -/

/-- at every instant there is a longitude at which it is noon: at 45 degrees north the sun is then between 20 and 70 degrees from the zenith -/
theorem noon_45 {t : Int} (ht : |t| < 2 ^ 63) : ∃ l : ℝ, (-180 ≤ l ∧ l < 180) ∧ 20 ≤ sunZenith t 45 l ∧ sunZenith t 45 l ≤ 70 := by
  obtain ⟨l, hl, k, hk⟩ := exists_lon (hourAngle (century t)) 0
  have hδ := abs_le.1 (dec_bound t ht)
  have p1 := pi_gt_d4
  have p2 := pi_lt_d4
  have e45 : rad 45 = π / 4 := by unfold rad; ring
  have e : sunZenith t 45 l = (rad 45 - declination (century t)) * (180 / π) := by
    unfold sunZenith
    rw [hk, zero_add, cos_int_mul_two_pi, mul_one, add_comm, ← cos_sub, arccos_cos] <;> rw [e45] <;> norm_num at hδ p1 p2 ⊢ <;> linarith [hδ.1, hδ.2]
  refine ⟨l, hl, ?_, ?_⟩
  · rw [e, e45, ← mul_div_assoc, le_div_iff₀ pi_pos]; norm_num at hδ p1 p2 ⊢; linarith [hδ.1, hδ.2]
  · rw [e, e45, ← mul_div_assoc, div_le_iff₀ pi_pos]; norm_num at hδ p1 p2 ⊢; linarith [hδ.1, hδ.2]

theorem sin_20 {ζ : ℝ} (h0 : 20 ≤ ζ) (h1 : ζ ≤ 90) : 0.22 ≤ sin (rad ζ) := by
  have h2 : rad ζ ≤ π / 2 := by
    have := rad_mono h1
    have e : rad 90 = π / 2 := by unfold rad; ring
    rwa [e] at this
  have h3 := mul_le_sin (x := rad ζ) (by unfold rad; positivity) h2
  have e : 2 / π * rad ζ = ζ / 90 := by unfold rad; field_simp; norm_num
  rw [e] at h3
  norm_num at h3 ⊢; linarith

theorem refraction_small {h : ℝ} (h0 : 20 ≤ h) (h1 : h ≤ 70) : |standardRefraction h| ≤ 0.1 := by
  have q0 : 0 ≤ 10.3 / (h + 5.11) := by positivity
  have q1 : 10.3 / (h + 5.11) ≤ 1 := by rw [div_le_one (by positivity)]; norm_num; linarith
  have hs := sin_20 (ζ := h + 10.3 / (h + 5.11)) (by linarith) (by linarith)
  have hs : 0.22 ≤ sin ((h + 10.3 / (h + 5.11)) * (π / 180)) := hs
  unfold standardRefraction
  generalize (h + 10.3 / (h + 5.11)) * (π / 180) = x at *
  have h0 : 0 < sin x := lt_of_lt_of_le (by norm_num) hs
  have : |cos x / sin x| ≤ 5 := by
    rw [abs_div, abs_of_pos h0, div_le_iff₀ h0]
    have := abs_cos_le_one x
    norm_num at hs; linarith
  rw [abs_mul, abs_of_pos (by norm_num)]
  norm_num at this ⊢; linarith

/-- at 45 degrees north, at every instant there is a longitude where the airmass, with and without refraction, in every use case, by every
algorithm and parameterization, is that of the reference sun -/
example (uc : UseCase) {alg eng p : String} (hk : KnownPair alg eng) (hp : p ∈ Parameterizations) {t : Int} (ht : |t| < 2 ^ 63) :
    ∃ (l : ℝ) (s s' : Sunpos XR) (M M' : DA XR) (m m' : ℝ),
    call uc exWorld (oneTime t) (.vec [.fin 45]) (.vec [.fin l]) alg .pyFalse eng = .ok s ∧
    call uc exWorld (oneTime t) (.vec [.fin 45]) (.vec [.fin l]) alg .pyTrue eng = .ok s' ∧
    s.airmass p = .ok M ∧ M.get (fun _ => 0) = .fin m ∧ s'.airmass p = .ok M' ∧ M'.get (fun _ => 0) = .fin m' ∧
    |m - airmassAt p (sunZenith t 45 l)| ≤ m * airmassAt p (sunZenith t 45 l) * rad (positionError alg eng) ∧
    |m' - airmassAt p (sunZenith t 45 l - standardRefraction (90 - sunZenith t 45 l))|
      ≤ m' * airmassAt p (sunZenith t 45 l - standardRefraction (90 - sunZenith t 45 l)) * rad (positionError alg eng + refractionError alg) := by
  obtain ⟨l, hl, z0, z1⟩ := noon_45 ht
  obtain ⟨s, h, ha⟩ := single_call uc hk .pyFalse ht (φ := 45) (l := l) (by norm_num) hl
  obtain ⟨s', h', ha'⟩ := single_call uc hk .pyTrue ht (φ := 45) (l := l) (by norm_num) hl
  obtain ⟨-, hpe⟩ := positionError_le hk
  have hre : refractionError alg ≤ 0.06 := by unfold refractionError; split_ifs <;> norm_num
  have hle : lowestElevation alg ≤ 2 := by unfold lowestElevation; split_ifs <;> norm_num
  have hr := abs_le.1 (refraction_small (h := 90 - sunZenith t 45 l) (by linarith) (by linarith))
  obtain ⟨M, m, hM, hm, em⟩ := C77_airmass h (by simp) ha hp (by norm_num at hpe; linarith)
  obtain ⟨M', m', hM', hm', em'⟩ := C77_airmass_apparent h' ha' hp (by linarith) rfl (by norm_num at hpe hre hr; linarith [hr.1, hr.2])
    (by norm_num at hpe hre hr; linarith [hr.1, hr.2])
  exact ⟨l, s, s', M, M', m, m', h, h', hM, hm, hM', hm', em, em'⟩

/-- the same in the 53-bit arithmetic -/
example (uc : UseCase) {alg eng p : String} (hk : KnownPair alg eng) (hp : p ∈ Parameterizations) {t : Int} (ht : |t| < 2 ^ 63) :
    ∃ (l : ℝ) (w w' : World (Rd Arith.binary64)) (s s' : Sunpos (Rd Arith.binary64)) (M M' : DA (Rd Arith.binary64)) (m m' : ℝ),
    call uc w (oneTime t) (.vec [Rd.fin 45]) (.vec [Rd.fin l]) alg .pyFalse eng = .ok s ∧
    call uc w' (oneTime t) (.vec [Rd.fin 45]) (.vec [Rd.fin l]) alg .pyTrue eng = .ok s' ∧
    s.airmass p = .ok M ∧ M.get (fun _ => 0) = Rd.fin m ∧ s'.airmass p = .ok M' ∧ M'.get (fun _ => 0) = Rd.fin m' := by
  obtain ⟨l, hl, z0, z1⟩ := noon_45 ht
  obtain ⟨w, s, h, ha⟩ := single_call_rd (A := Arith.binary64) uc hk .pyFalse binary64_90 binary64_180 ht (φ := 45) (l := l) (by norm_num) hl
  obtain ⟨w', s', h', ha'⟩ := single_call_rd (A := Arith.binary64) uc hk .pyTrue binary64_90 binary64_180 ht (φ := 45) (l := l) (by norm_num) hl
  obtain ⟨-, hpe⟩ := positionError_le hk
  have hre : refractionError alg ≤ 0.06 := by unfold refractionError; split_ifs <;> norm_num
  have hle : lowestElevation alg ≤ 2 := by unfold lowestElevation; split_ifs <;> norm_num
  have hr := abs_le.1 (refraction_small (h := 90 - sunZenith t 45 l) (by linarith) (by linarith))
  have hs := sin_20 z0 (by linarith)
  have hκ : 0.7 ≤ placeFactor alg eng 45 := by
    have e45 : rad 45 = π / 4 := by unfold rad; ring
    have : 0.7 ≤ √2 / 2 := by
      have : (1.4:ℝ) ≤ √2 := le_sqrt_of_sq_le (by norm_num)
      norm_num at this ⊢; linarith
    unfold placeFactor latFactor
    split_ifs <;> first | (rw [e45, cos_pi_div_four]; exact this) | norm_num
  have hx : 0.15 ≤ placeFactor alg eng 45 * sin (rad (sunZenith t 45 l)) := le_trans (by norm_num) (mul_le_mul hκ hs (by norm_num) (le_trans (by norm_num) hκ))
  have hq : ∀ c : ℝ, 0 ≤ c → c ≤ 0.0021 → c / (placeFactor alg eng 45 * sin (rad (sunZenith t 45 l))) ≤ 0.02 := by
    intro c c0 c1
    rw [div_le_iff₀ (lt_of_lt_of_le (by norm_num) hx)]
    norm_num at hx c1 ⊢; linarith
  have hq1 := hq 0.0021 (by norm_num) (by norm_num)
  have hq2 := hq 0.0019 (by norm_num) (by norm_num)
  obtain ⟨M, m, hM, hm, em⟩ := C77_airmass_float h (by simp) ha (by norm_num) hl (fun _ => by norm_num) hp (le_trans (by norm_num) hx) rfl
    (by norm_num at hpe hq1 ⊢; linarith)
  obtain ⟨M', m', hM', hm', em'⟩ := C77_airmass_float_apparent h' ha' (by norm_num) hl (fun _ => by norm_num) hp (by linarith)
    (le_trans (by norm_num) hx) rfl rfl (by norm_num at hpe hre hr hq2 ⊢; linarith [hr.1, hr.2])
    (by norm_num at hpe hre hr hq2 ⊢; linarith [hr.1, hr.2])
  exact ⟨l, w, w', s, s', M, M', m, m', h, h', hM, hm, hM', hm'⟩

/-- soltrack at 45 degrees north, at every instant: the daylight length is that of the reference sun to five seconds -/
example {t : Int} (ht : |t| < 2 ^ 63) : ∃ (s : Sunpos XR) (D : DA XR) (v : ℝ),
    call .sites exWorld (oneTime t) (.vec [.fin 45]) (.vec [.fin (-4.5)]) "soltrack" .pyTrue "numexpr" = .ok s ∧
    s.daylightLength exWorld = .ok D ∧ D.get (fun _ => 0) = .fin v ∧ |v - daylightHours 45 (declination (century t))| ≤ 5 / 3600 := by
  obtain ⟨s, h, ha⟩ := single_call .sites (alg := "soltrack") (eng := "numexpr") (by simp [KnownPair]) .pyTrue ht
    (φ := 45) (l := -4.5) (by norm_num) (by norm_num)
  have e45 : tan (rad 45) = 1 := by
    have : rad 45 = π / 4 := by unfold rad; ring
    rw [this, tan_pi_div_four]
  obtain ⟨D, hD, g, -⟩ := C77_daylight (e := fun _ => 0) (w' := exWorld) h ha.time ht ha.lat (by norm_num) rfl
  have hp := pi_lt_d4
  have hp' := pi_gt_d4
  have hε : 1.22 * |tan (rad 45)| * rad (decError "soltrack") ≤ 0.00015 := by
    rw [e45, abs_one]; simp only [decError, String.reduceEq, if_true, if_false]; unfold rad; norm_num at hp ⊢; linarith
  have ht0 : |tan (declination (century t))| ≤ 0.5246 := by
    have := tan_near (dec_bound t ht) (y := 0) (by norm_num)
    rw [tan_zero, sub_zero, sub_zero] at this
    have := dec_bound t ht
    norm_num at *; linarith
  obtain ⟨v, hv, ev⟩ := g 0.53 (by rw [e45, one_mul] at *; norm_num at hε ht0 ⊢; linarith) (by norm_num)
  refine ⟨s, D, v, h, hD, hv, ev.trans ?_⟩
  have hs : 0.84 ≤ √(1 - 0.53 ^ 2) := le_sqrt_of_sq_le (by norm_num)
  have hε0 : 0 ≤ 1.22 * |tan (rad 45)| * rad (decError "soltrack") := by
    have : 0 ≤ rad (decError "soltrack") := by simp only [decError, String.reduceEq, if_true, if_false]; unfold rad; positivity
    positivity
  have h1 : 1.22 * |tan (rad 45)| * rad (decError "soltrack") / √(1 - 0.53 ^ 2) ≤ 0.00015 / 0.84 := div_le_div₀ (by norm_num) hε (by norm_num) hs
  have h2 : 24 / π ≤ 7.64 := by rw [div_le_iff₀ pi_pos]; norm_num at hp' ⊢; linarith
  refine (mul_le_mul h2 h1 (by positivity) (by norm_num)).trans (by norm_num)

/-- and at the latitude 80 degrees, at noon of 1 January 2000, it is NaN by every algorithm, also in the 53-bit arithmetic -/
example {alg eng : String} (hk : KnownPair alg eng) : ∃ (w : World (Rd Arith.binary64)) (s : Sunpos (Rd Arith.binary64)) (D : DA (Rd Arith.binary64)),
    call .sites w (oneTime 946728000000000000) (.vec [Rd.fin 80]) (.vec [Rd.fin (-4.5)]) alg .pyTrue eng = .ok s ∧
    s.daylightLength w = .ok D ∧ D.get (fun _ => 0) = XR.nan := by
  obtain ⟨w, s, h, ha⟩ := single_call_rd (A := Arith.binary64) .sites hk .pyTrue binary64_90 binary64_180 (t := 946728000000000000) (by norm_num)
    (φ := 80) (l := -4.5) (by norm_num) (by norm_num)
  obtain ⟨D, hD, -, g⟩ := C77_daylight_float (e := fun _ => 0) (w' := w) h ha.time (by norm_num) ha.lat (by norm_num) rfl
  refine ⟨w, s, D, h, hD, g ?_⟩
  obtain ⟨hc, hd⟩ := dec_2000
  have hδ := dec_bound 946728000000000000 (by norm_num)
  rw [hc] at hδ ⊢
  have p1 := pi_gt_d4
  have p2 := pi_lt_d4
  have e80 : rad 80 = π / 2 - π / 18 := by unfold rad; ring
  have c1 : cos (rad 80) ≤ 0.175 := by
    rw [e80, cos_pi_div_two_sub]
    refine (sin_le (by positivity)).trans ?_
    norm_num at p2 ⊢; linarith
  have c0 : 0.1 ≤ cos (rad 80) := by
    rw [e80, cos_pi_div_two_sub]
    refine le_trans ?_ (mul_le_sin (by positivity) (by linarith))
    have : 2 / π * (π / 18) = 1 / 9 := by field_simp; norm_num
    rw [this]; norm_num
  have s0 : 0.9 ≤ sin (rad 80) := by
    rw [e80, sin_pi_div_two_sub]
    have := one_sub_sq_div_two_le_cos (x := π / 18)
    have h2 : π / 18 ≤ 0.2 := by norm_num at p2 ⊢; linarith
    have h3 : (π / 18) ^ 2 ≤ 0.2 ^ 2 := pow_le_pow_left₀ (by positivity) h2 2
    norm_num at h3 this ⊢; linarith
  have hT : 5 ≤ tan (rad 80) := by
    rw [tan_eq_sin_div_cos, le_div_iff₀ (lt_of_lt_of_le (by norm_num) c0)]
    norm_num at c1 s0 ⊢; linarith
  have hq : 3e-13 / cos (rad 80) ≤ 0.01 := by
    rw [div_le_iff₀ (lt_of_lt_of_le (by norm_num) c0)]; norm_num at c0 ⊢; linarith
  have ht : 0.38 ≤ |tan (declination 0)| := by
    rw [← abs_neg, ← tan_neg]
    refine le_trans ?_ (le_abs_self _)
    have : -declination 0 ≤ tan (-declination 0) := le_tan (by norm_num at hd ⊢; linarith) (by norm_num at hδ; linarith [(abs_le.1 hδ).1])
    norm_num at hd this ⊢; linarith
  have hdec : rad (decError alg + 4e-8) ≤ 0.02 := by
    have : decError alg ≤ 1.06 := by unfold decError; split_ifs <;> norm_num
    refine (rad_mono (show decError alg + 4e-8 ≤ 1.1 by norm_num at this ⊢; linarith)).trans ?_
    unfold rad; norm_num at p2 ⊢; linarith
  rw [abs_mul, abs_of_pos (show 0 < tan (rad 80) by linarith)]
  generalize tan (rad 80) = T at *
  generalize |tan (declination 0)| = U at *
  generalize rad (decError alg + 4e-8) = V at *
  have k1 : 1.22 * T * V ≤ 1.22 * T * 0.02 := mul_le_mul_of_nonneg_left hdec (by positivity)
  have k2 : T * 0.38 ≤ T * U := mul_le_mul_of_nonneg_left ht (by linarith)
  norm_num at k1 k2 hq ⊢; linarith

end SW.Props
