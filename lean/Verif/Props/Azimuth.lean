/-
C83: the azimuth is accurate, with and without refraction, in exact and in floating-point arithmetic.
-/
import Verif.Props.FloatAccuracy
import Verif.Props.Exact
import Verif.Props.ContinuityFloat

namespace SW.Props
open SW SW.Spec Real Sunpos
open SW.Ephem (century declination hourAngle)

/-- The largest difference of azimuth (degrees) between a direction at zenith angle `ζ` and a direction at most `E` from it
(degrees, `E` smaller than the angle from either vertical): the half-width of the sector that a circle of radius `E` fills. -/
noncomputable def azimuthSpread (E ζ : ℝ) : ℝ := arcsin (sin (rad E) / sin (rad ζ)) * (180 / π)

/-! ### geometry -/

theorem spread_core {z a ζ α E : ℝ} (hE : 0 ≤ E) (h1 : E < ζ) (h2 : ζ < π - E)
    (h : arccos ((dirVec z a).dot (dirVec ζ α)) ≤ E) (hz : 0 ≤ sin z) :
    ∃ k : ℤ, |a - α - k * (2 * π)| ≤ arcsin (sin E / sin ζ) := by
  have hp := pi_pos
  have hsζ : 0 < sin ζ := sin_pos_of_pos_of_lt_pi (by linarith) (by linarith)
  obtain ⟨k, hk⟩ : ∃ k, k = round ((a - α) / (2 * π)) := ⟨_, rfl⟩
  obtain ⟨d, hd⟩ : ∃ d, d = a - α - k * (2 * π) := ⟨_, rfl⟩
  have hdπ : |d| ≤ π := by
    have := abs_sub_round ((a - α) / (2 * π))
    rw [← hk] at this
    have e : d = ((a - α) / (2 * π) - k) * (2 * π) := by rw [hd]; field_simp
    rw [e, abs_mul, abs_of_pos (by linarith : 0 < 2 * π)]
    nlinarith
  have hcd : cos (a - α) = cos d := by rw [hd, cos_sub_int_mul_two_pi]
  have hdot : (dirVec z a).dot (dirVec ζ α) = cos z * cos ζ + sin z * sin ζ * cos d := by
    rw [← hcd, cos_sub]
    simp only [Vec.dot, dirVec]; ring
  rw [hdot] at h
  obtain ⟨D, hD⟩ : ∃ D, D = cos z * cos ζ + sin z * sin ζ * cos d := ⟨_, rfl⟩
  rw [← hD] at h
  have hid : D ^ 2 + (cos z * sin ζ * cos d - sin z * cos ζ) ^ 2 + (sin ζ * sin d) ^ 2 = 1 := by
    have e1 := sin_sq_add_cos_sq z
    have e2 := sin_sq_add_cos_sq ζ
    have e3 := sin_sq_add_cos_sq d
    rw [hD]
    have s1 : sin z ^ 2 = 1 - cos z ^ 2 := by linarith
    have s2 : sin ζ ^ 2 = 1 - cos ζ ^ 2 := by linarith
    have s3 : sin d ^ 2 = 1 - cos d ^ 2 := by linarith
    ring_nf
    rw [s1, s2, s3]
    ring
  have hD1 : D ≤ 1 := by nlinarith [sq_nonneg (cos z * sin ζ * cos d - sin z * cos ζ), sq_nonneg (sin ζ * sin d)]
  have hDm : -1 ≤ D := by nlinarith [sq_nonneg (cos z * sin ζ * cos d - sin z * cos ζ), sq_nonneg (sin ζ * sin d)]
  have hcE : cos E ≤ D := by
    have := cos_le_cos_of_nonneg_of_le_pi (arccos_nonneg D) (by linarith : E ≤ π) h
    rwa [cos_arccos hDm hD1] at this
  have hcE0 : 0 < cos E := cos_pos_of_mem_Ioo ⟨by linarith, by linarith⟩
  have hsE0 : 0 ≤ sin E := sin_nonneg_of_nonneg_of_le_pi hE (by linarith)
  have hcζ : |cos ζ| < cos E := by
    rw [abs_lt]
    constructor
    · rw [← cos_pi_sub]
      exact cos_lt_cos_of_nonneg_of_le_pi (by linarith) (by linarith) h2
    · exact cos_lt_cos_of_nonneg_of_le_pi hE (by linarith) h1
  have hd0 : 0 < cos d := by
    by_contra hneg
    push Not at hneg
    have b1 : sin z * sin ζ * cos d ≤ 0 := mul_nonpos_of_nonneg_of_nonpos (mul_nonneg hz hsζ.le) hneg
    have b2 : cos z * cos ζ ≤ |cos ζ| := by
      refine (le_abs_self _).trans ?_
      rw [abs_mul]
      have := abs_cos_le_one z
      have := abs_nonneg (cos ζ)
      nlinarith
    linarith
  have hdh : |d| < π / 2 := by
    by_contra hneg
    push Not at hneg
    have := cos_nonpos_of_pi_div_two_le_of_le hneg (by linarith)
    rw [cos_abs] at this
    linarith
  have hs : sin ζ * sin |d| ≤ sin E := by
    have b1 : (sin ζ * sin |d|) ^ 2 ≤ sin E ^ 2 := by
      have e1 : (sin ζ * sin |d|) ^ 2 = (sin ζ * sin d) ^ 2 := by
        rcases abs_cases d with ⟨h, -⟩ | ⟨h, -⟩ <;> rw [h]
        rw [sin_neg]; ring
      have e2 := sin_sq_add_cos_sq E
      have e3 : cos E ^ 2 ≤ D ^ 2 := by nlinarith
      rw [e1]
      nlinarith [sq_nonneg (cos z * sin ζ * cos d - sin z * cos ζ)]
    exact le_of_sq_le_sq b1 hsE0
  refine ⟨k, ?_⟩
  rw [← hd]
  have b : sin |d| ≤ sin E / sin ζ := by rw [le_div_iff₀ hsζ]; linarith
  rw [← arcsin_sin (by linarith [abs_nonneg d] : -(π / 2) ≤ |d|) hdh.le]
  exact monotone_arcsin b

theorem rad180 : rad 180 = π := by unfold rad; ring

theorem spread_deg {z a ζ α E : ℝ} (hE : 0 ≤ E) (h1 : E < ζ) (h2 : ζ < 180 - E)
    (h : arccos ((dirVec (rad z) (rad a)).dot (dirVec (rad ζ) (rad α))) ≤ rad E) (hz : 0 ≤ z ∧ z ≤ 180) :
    ∃ k : ℤ, |a - α - 360 * k| ≤ azimuthSpread E ζ := by
  have hp := pi_pos
  have hlt : ∀ {x y : ℝ}, x < y → rad x < rad y := by
    intro x y h; unfold rad; exact mul_lt_mul_of_pos_right h (by positivity)
  obtain ⟨k, hk⟩ := spread_core (by unfold rad; positivity) (hlt h1) (by have := hlt h2; rwa [rad_sub, rad180] at this) h
    (sin_nonneg_of_nonneg_of_le_pi (by have := hz.1; unfold rad; positivity) (by rw [← rad180]; exact rad_mono hz.2))
  refine ⟨k, ?_⟩
  have e : a - α - 360 * k = (rad a - rad α - k * (2 * π)) * (180 / π) := by unfold rad; field_simp; ring
  unfold azimuthSpread
  rw [e, abs_mul, abs_of_pos (by positivity : 0 < 180 / π)]
  exact mul_le_mul_of_nonneg_right hk (by positivity)

/-- the spread is at most 1.571 (half of pi) times `E / sin ζ` -/
theorem azimuthSpread_le {E ζ : ℝ} (hE : 0 ≤ E) (h1 : E < ζ) (h2 : ζ < 180 - E) :
    0 ≤ azimuthSpread E ζ ∧ azimuthSpread E ζ ≤ 1.571 * E / sin (rad ζ) := by
  have hp := pi_pos
  have hp4 := pi_lt_d4
  have hlt : ∀ {x y : ℝ}, x < y → rad x < rad y := by
    intro x y h; unfold rad; exact mul_lt_mul_of_pos_right h (by positivity)
  have q0 : 0 ≤ rad E := by unfold rad; positivity
  have q1 := hlt h1
  have q2 := hlt h2
  rw [rad_sub, rad180] at q2
  have hsζ : 0 < sin (rad ζ) := sin_pos_of_pos_of_lt_pi (by linarith) (by linarith)
  have hsE0 : 0 ≤ sin (rad E) := sin_nonneg_of_nonneg_of_le_pi q0 (by linarith)
  have hsE : sin (rad E) ≤ rad E := sin_le q0
  have hle : sin (rad E) ≤ sin (rad ζ) := by
    rcases le_total (rad ζ) (π / 2) with h | h
    · exact sin_le_sin_of_le_of_le_pi_div_two (by linarith) h q1.le
    · rw [← sin_pi_sub (rad ζ)]
      exact sin_le_sin_of_le_of_le_pi_div_two (by linarith) (by linarith) (by linarith)
  obtain ⟨x, hx⟩ : ∃ x, x = sin (rad E) / sin (rad ζ) := ⟨_, rfl⟩
  have hx0 : 0 ≤ x := by rw [hx]; positivity
  have hx1 : x ≤ 1 := by rw [hx, div_le_one hsζ]; exact hle
  have ha0 : 0 ≤ arcsin x := arcsin_nonneg.2 hx0
  have ha1 : arcsin x ≤ π / 2 := arcsin_le_pi_div_two x
  have hj : 2 / π * arcsin x ≤ sin (arcsin x) := mul_le_sin ha0 ha1
  rw [sin_arcsin (by linarith) hx1] at hj
  have hj2 : arcsin x ≤ π / 2 * x := by
    have : arcsin x = π / 2 * (2 / π * arcsin x) := by field_simp
    rw [this]
    exact mul_le_mul_of_nonneg_left hj (by positivity)
  unfold azimuthSpread
  rw [← hx]
  refine ⟨by positivity, ?_⟩
  refine (mul_le_mul_of_nonneg_right hj2 (by positivity)).trans ?_
  have e : π / 2 * x * (180 / π) = π / 2 * (sin (rad E) * (180 / π)) / sin (rad ζ) := by rw [hx]; field_simp
  rw [e]
  apply div_le_div_of_nonneg_right _ hsζ.le
  have e2 : sin (rad E) * (180 / π) ≤ E := by
    have : rad E * (180 / π) = E := by unfold rad; field_simp
    exact (mul_le_mul_of_nonneg_right hsE (by positivity)).trans this.le
  have e3 : 0 ≤ sin (rad E) * (180 / π) := by positivity
  refine mul_le_mul (by norm_num at hp4 ⊢; linarith) e2 e3 (by norm_num)

/-! ### refraction -/

theorem valueAt_azimuth {F : Type} [Scalar F] (b : Backend) (uc : UseCase) (o : Option Int) (x y : F) (r r' : Bool) :
    (b.valueAt uc o x y r).azimuth = (b.valueAt uc o x y r').azimuth := by
  cases o <;> cases b <;> rfl

/-- C83: refraction does not move the sun sideways: whatever is passed for it, the call returns just as well and the azimuth at
every cell is the same. -/
theorem C83_refraction {F : Type} [Scalar F] {uc : UseCase} {w : World F} {times : Times} {latitude longitude : Coord F}
    {alg eng : String} {refr : PyVal} {s : Sunpos F}
    (h : call uc w times latitude longitude alg refr eng = .ok s) (refr' : PyVal) :
    ∃ s', call uc w times latitude longitude alg refr' eng = .ok s' ∧ s'.latitude = s.latitude ∧ s'.longitude = s.longitude ∧
      s'.azimuth.dims = s.azimuth.dims ∧
      ∀ e, Within s.zenith e → Within s'.zenith e ∧ s'.azimuth.get e = s.azimuth.get e ∧ s'.azimuthDeg.get e = s.azimuthDeg.get e := by
  obtain ⟨lat, lon, b, utc, ha, hu, hr⟩ := call_inv h
  obtain ⟨s', h', hr'⟩ := call_ok refr' ha hu
  have hd : s'.zenith.dims = s.zenith.dims := by rw [hr'.zen_dims, hr.zen_dims]; cases uc <;> rfl
  have hla : s'.latitude = s.latitude := by rw [hr'.latitude, hr.latitude]
  have hlo : s'.longitude = s.longitude := by rw [hr'.longitude, hr.longitude]
  refine ⟨s', h', hla, hlo, by rw [hr'.azi_dims, hr.azi_dims, hd], ?_⟩
  intro e he
  obtain ⟨c1, c2, c3⟩ := cell_inv hr ha.len he
  have hz : s'.azimuth.get e = s.azimuth.get e := by
    rw [(hr'.cell e c1 c2 c3).2, (hr.cell e c1 c2 c3).2, hla, hlo]
    exact valueAt_azimuth _ _ _ _ _ _ _
  refine ⟨?_, hz, ?_⟩
  · unfold Within; rw [hd]; exact he
  · show degrees (s'.azimuth.get e) = degrees (s.azimuth.get e)
    rw [hz]

/-! ### accuracy in exact arithmetic -/

/-- C83: let the reference ephemeris see the sun of the cell at zenith angle `ζ` and azimuth `A` (degrees, zero towards south,
positive towards west), farther from the zenith and from the nadir than the error of the algorithm. Then, with or without refraction,
the azimuth returned is, up to full turns, within the spread of that error at `ζ`. -/
theorem C83_accuracy {uc : UseCase} {w : World XR} {times : Times} {latitude longitude : Coord XR}
    {alg eng : String} {refr : PyVal} {s : Sunpos XR} {e : Dim → Nat} {t : Int} {φ l ζ A : ℝ}
    (h : call uc w times latitude longitude alg refr eng = .ok s) (ha : At s times e t φ l)
    (hdir : sunVec (rad φ) (declination (century t)) (-(hourAngle (century t) + rad l)) = dirVec (rad ζ) (rad A))
    (h1 : positionError alg eng < ζ) (h2 : ζ < 180 - positionError alg eng) :
    ∃ a : ℝ, ∃ k : ℤ, s.azimuthDeg.get e = .fin a ∧ |a - A - 360 * k| ≤ azimuthSpread (positionError alg eng) ζ := by
  obtain ⟨s', h', hla, hlo, -, hc⟩ := C83_refraction h .pyFalse
  obtain ⟨c1, -, c2⟩ := hc e ha.within
  have ha' : At s' times e t φ l := ⟨c1, ha.time, ha.range, by rw [hla]; exact ha.lat, by rw [hlo]; exact ha.lon⟩
  obtain ⟨z, a, g1, g2, g3⟩ := C54_position h' (by simp) ha'
  obtain ⟨z', g4, hz⟩ := C13_range h' ha' (.inr (.inr (by simp)))
  obtain rfl : z' = z := XR.fin_inj.1 (g4.symm.trans g1)
  rw [hdir] at g3
  obtain ⟨lat, lon, b, utc, hacc, -, -⟩ := call_inv h
  obtain ⟨k, hk⟩ := spread_deg (positionError_le (known_iff.2 ⟨b, hacc.names⟩)).1.le h1 h2 g3 hz
  exact ⟨a, k, by rw [← c2]; exact g2, hk⟩

/-- C83: the azimuths of two algorithms, in any use cases and with or without refraction, differ by at most the sum of their spreads
(up to full turns). -/
theorem C83_agree {uc1 uc2 : UseCase} {w1 w2 : World XR} {times1 times2 : Times} {lat1 lon1 lat2 lon2 : Coord XR}
    {alg1 eng1 alg2 eng2 : String} {refr1 refr2 : PyVal} {s1 s2 : Sunpos XR} {e1 e2 : Dim → Nat} {t : Int} {φ l ζ : ℝ}
    (h1 : call uc1 w1 times1 lat1 lon1 alg1 refr1 eng1 = .ok s1) (h2 : call uc2 w2 times2 lat2 lon2 alg2 refr2 eng2 = .ok s2)
    (ha1 : At s1 times1 e1 t φ l) (ha2 : At s2 times2 e2 t φ l)
    (hζ : cos (rad ζ) = sin (rad φ) * sin (declination (century t))
      + cos (rad φ) * cos (declination (century t)) * cos (hourAngle (century t) + rad l))
    (g1 : positionError alg1 eng1 < ζ ∧ ζ < 180 - positionError alg1 eng1)
    (g2 : positionError alg2 eng2 < ζ ∧ ζ < 180 - positionError alg2 eng2) :
    ∃ a1 a2 : ℝ, ∃ k : ℤ, s1.azimuthDeg.get e1 = .fin a1 ∧ s2.azimuthDeg.get e2 = .fin a2 ∧
      |a1 - a2 - 360 * k| ≤ azimuthSpread (positionError alg1 eng1) ζ + azimuthSpread (positionError alg2 eng2) ζ := by
  obtain ⟨lat, lon, b, utc, hacc, -, -⟩ := call_inv h1
  have hp := (positionError_le (known_iff.2 ⟨b, hacc.names⟩)).1
  obtain ⟨α, hα⟩ : ∃ α, sunVec (rad φ) (declination (century t)) (-(hourAngle (century t) + rad l)) = dirVec (rad ζ) α :=
    exists_dir (sunVec_sq _ _ _) (by rw [hζ]; simp only [sunVec, cos_neg])
      (sin_nonneg_of_nonneg_of_le_pi (by have : 0 < ζ := hp.trans g1.1; unfold rad; positivity)
        (by rw [← rad180]; exact rad_mono (by linarith [g1.2])))
  obtain ⟨A, rfl⟩ : ∃ A, α = rad A := ⟨α * (180 / π), by unfold rad; field_simp⟩
  obtain ⟨a1, k1, c1, b1⟩ := C83_accuracy h1 ha1 hα g1.1 g1.2
  obtain ⟨a2, k2, c2, b2⟩ := C83_accuracy h2 ha2 hα g2.1 g2.2
  refine ⟨a1, a2, k1 - k2, c1, c2, ?_⟩
  push_cast
  rw [abs_le] at *
  constructor <;> linarith [b1.1, b1.2, b2.1, b2.2]

/-! ### accuracy in floating-point arithmetic -/

variable {A : Arith}

/-- C83 in floating-point arithmetic: with or without refraction the azimuth returned is, up to full turns, within the spread of the
error of the algorithm plus the rounding, at most 0.00076 degrees divided by `sin ζ` (and by the cosine of the latitude for soltrack
with numpy). -/
theorem C83_float {uc : UseCase} {w : World (Rd A)} {times : Times} {latitude longitude : Coord (Rd A)}
    {alg eng : String} {refr : PyVal} {s : Sunpos (Rd A)} {e : Dim → Nat} {t : Int} {φ l ζ α : ℝ}
    (h : call uc w times latitude longitude alg refr eng = .ok s)
    (ha : AtRd s times e t φ l) (hφ : -90 ≤ φ ∧ φ ≤ 90) (hl : -180 ≤ l ∧ l < 180)
    (hpole : alg = "nrel" → |φ| ≤ 90 - 1e-10)
    (hdir : sunVec (rad φ) (declination (century t)) (-(hourAngle (century t) + rad l)) = dirVec (rad ζ) (rad α))
    (hζ : 0 ≤ ζ ∧ ζ ≤ 180) (hs : 0.06 ≤ placeFactor alg eng φ * sin (rad ζ)) :
    ∃ a : ℝ, ∃ k : ℤ, s.azimuthDeg.get e = Rd.fin a ∧
      |a - α - 360 * k| ≤ azimuthSpread (positionError alg eng) ζ + 0.00076 / (placeFactor alg eng φ * sin (rad ζ)) := by
  obtain ⟨s', h', hla, hlo, -, hc⟩ := C83_refraction h .pyFalse
  obtain ⟨c1, -, c2⟩ := hc e ha.within
  have ha' : AtRd s' times e t φ l := ⟨c1, ha.time, ha.range, by rw [hla]; exact ha.lat, by rw [hlo]; exact ha.lon⟩
  have hup : (sunVec (rad φ) (declination (century t)) (-(hourAngle (century t) + rad l))).up = cos (rad ζ) := by
    rw [hdir]; rfl
  obtain ⟨sx, z, a, z', a', B, k, hx, hax, -, g2, -, g4, -, -, -, g8, -, -, -⟩ :=
    float_near h' (by simp) ha' hφ hl hpole hup hs
  obtain ⟨b, hb, -⟩ := rd_time h ha.time
  obtain ⟨p0, p1⟩ := positionError_le (known_iff.2 ⟨b, hb⟩)
  -- the sun is farther than 3 degrees from the vertical
  have hfar : positionError alg eng < ζ ∧ ζ < 180 - positionError alg eng := by
    have hk0 := placeFactor_nonneg alg eng hφ
    have hk1 := placeFactor_le alg eng φ
    have hsin : 0.06 ≤ sin (rad ζ) := by
      have : 0 ≤ sin (rad ζ) := sin_nonneg_of_nonneg_of_le_pi (by have := hζ.1; unfold rad; positivity)
        (by rw [← rad180]; exact rad_mono hζ.2)
      nlinarith
    have hsmall : ∀ x : ℝ, 0 ≤ x → x ≤ 1.605 → sin (rad x) < 0.06 := by
      intro x hx0 hx
      refine (sin_le (by unfold rad; positivity)).trans_lt ?_
      have hp4 := pi_lt_d4
      unfold rad
      have : x * (π / 180) ≤ 1.605 * (3.1416 / 180) :=
        mul_le_mul hx (by norm_num at hp4 ⊢; linarith) (by positivity) (by norm_num)
      norm_num at this ⊢
      linarith
    constructor
    · by_contra hneg
      push Not at hneg
      have := hsmall ζ hζ.1 (hneg.trans p1)
      linarith
    · by_contra hneg
      push Not at hneg
      have := hsmall (180 - ζ) (by linarith [hζ.2]) (by linarith)
      rw [rad_sub, rad180, sin_pi_sub] at this
      linarith
  obtain ⟨a2, k2, g9, g10⟩ := C83_accuracy hx hax hdir hfar.1 hfar.2
  obtain rfl : a2 = a' := XR.fin_inj.1 (g9.symm.trans g4)
  refine ⟨a, k + k2, by rw [← c2]; exact g2, ?_⟩
  push_cast
  rw [show (2 * 0.00038 : ℝ) = 0.00076 by norm_num] at g8
  rw [abs_le] at *
  constructor <;> linarith [g8.1, g8.2, g10.1, g10.2]

/-! ### the hypotheses are met -/

/-- seen from latitude 75 the sun is never nearer than 44 degrees to the zenith or the nadir -/
theorem sun_from_75 {t : Int} (ht : |t| < 2 ^ 63) (l : ℝ) :
    0.7 ≤ sin (rad (sunZenith t 75 l)) ∧ 1.605 < sunZenith t 75 l ∧ sunZenith t 75 l < 180 - 1.605 := by
  have hd := dec_bound t ht
  obtain ⟨z0, z1⟩ := sunZenith_range t 75 l
  have hc := sunZenith_cos t 75 l
  have p1 := pi_gt_d4
  have p2 := pi_lt_d4
  have hs : 0 ≤ sin (rad (sunZenith t 75 l)) :=
    sin_nonneg_of_nonneg_of_le_pi (by unfold rad; positivity) (by rw [← rad180]; exact rad_mono z1)
  have c75 : cos (rad 75) = sin (π / 12) := by
    rw [← cos_pi_div_two_sub]; congr 1; unfold rad; ring
  have c75' : sin (π / 12) ≤ 0.262 := (sin_le (by positivity)).trans (by norm_num at p2 ⊢; linarith)
  have c75'' : 0 ≤ sin (π / 12) := sin_nonneg_of_nonneg_of_le_pi (by positivity) (by linarith)
  have hsd : |sin (declination (century t))| ≤ 0.43 := abs_sin_le_abs.trans hd
  have b1 : |sin (rad 75) * sin (declination (century t))| ≤ 0.43 := by
    rw [abs_mul]
    exact (mul_le_of_le_one_left (abs_nonneg _) (abs_sin_le_one _)).trans hsd
  have b2 : |cos (rad 75) * cos (declination (century t)) * cos (hourAngle (century t) + rad l)| ≤ 0.262 := by
    rw [abs_mul, abs_mul, c75, abs_of_nonneg c75'']
    have u := abs_cos_le_one (declination (century t))
    have v := abs_cos_le_one (hourAngle (century t) + rad l)
    calc _ ≤ sin (π / 12) * 1 * 1 := by gcongr
      _ ≤ 0.262 := by rw [mul_one, mul_one]; exact c75'
  have b3 : |cos (rad (sunZenith t 75 l))| ≤ 0.7 := by
    rw [hc]; exact (abs_add_le _ _).trans (by norm_num at b1 b2 ⊢; linarith)
  have sq := sin_sq_add_cos_sq (rad (sunZenith t 75 l))
  have cq : cos (rad (sunZenith t 75 l)) ^ 2 ≤ 0.7 ^ 2 := by rw [← sq_abs]; gcongr
  have h7 : 0.7 ≤ sin (rad (sunZenith t 75 l)) := by
    generalize sin (rad (sunZenith t 75 l)) = S at *
    norm_num at cq ⊢
    nlinarith
  have hsmall : ∀ x : ℝ, 0 ≤ x → x ≤ 1.605 → sin (rad x) < 0.7 := by
    intro x hx0 hx
    refine (sin_le (by unfold rad; positivity)).trans_lt ?_
    unfold rad
    have : x * (π / 180) ≤ 1.605 * (3.1416 / 180) :=
      mul_le_mul hx (by norm_num at p2 ⊢; linarith) (by positivity) (by norm_num)
    norm_num at this ⊢
    linarith
  refine ⟨h7, ?_, ?_⟩
  · by_contra hneg
    push Not at hneg
    linarith [hsmall _ z0 hneg]
  · by_contra hneg
    push Not at hneg
    have := hsmall (180 - sunZenith t 75 l) (by linarith) (by linarith)
    rw [rad_sub, rad180, sin_pi_sub] at this
    linarith

/-- the direction of the reference sun has an azimuth -/
theorem sun_azimuth (t : Int) (φ l : ℝ) :
    ∃ A, sunVec (rad φ) (declination (century t)) (-(hourAngle (century t) + rad l)) = dirVec (rad (sunZenith t φ l)) (rad A) := by
  obtain ⟨z0, z1⟩ := sunZenith_range t φ l
  obtain ⟨α, hα⟩ : ∃ α, sunVec (rad φ) (declination (century t)) (-(hourAngle (century t) + rad l)) = dirVec (rad (sunZenith t φ l)) α :=
    exists_dir (sunVec_sq _ _ _) (by rw [sunZenith_cos]; simp only [sunVec, cos_neg])
      (sin_nonneg_of_nonneg_of_le_pi (by unfold rad; positivity) (by rw [← rad180]; exact rad_mono z1))
  exact ⟨α * (180 / π), by rw [rad_deg]; exact hα⟩

/-- hypotheses of C83_accuracy are met, by every algorithm, at every instant, at latitude 75: there the error of the azimuth is at
most 2.25 times that of the position -/
example (uc : UseCase) {alg eng : String} (hk : KnownPair alg eng) (refr : PyVal) {t : Int} (ht : |t| < 2 ^ 63) {l : ℝ}
    (hl : -180 ≤ l ∧ l < 180) :
    ∃ (s : Sunpos XR) (a A : ℝ) (k : ℤ), call uc exWorld (oneTime t) (.vec [.fin 75]) (.vec [.fin l]) alg refr eng = .ok s ∧
      sunVec (rad 75) (declination (century t)) (-(hourAngle (century t) + rad l)) = dirVec (rad (sunZenith t 75 l)) (rad A) ∧
      s.azimuthDeg.get (fun _ => 0) = .fin a ∧ |a - A - 360 * k| ≤ 2.25 * positionError alg eng := by
  obtain ⟨s, h, ha⟩ := single_call uc hk refr ht (φ := 75) (l := l) (by norm_num) hl
  obtain ⟨A, hA⟩ := sun_azimuth t 75 l
  obtain ⟨g1, g2, g3⟩ := sun_from_75 ht l
  obtain ⟨p0, p1⟩ := positionError_le hk
  obtain ⟨a, k, c1, c2⟩ := C83_accuracy (e := fun _ => 0) h ha hA (by linarith) (by linarith)
  refine ⟨s, a, A, k, h, hA, c1, c2.trans ((azimuthSpread_le p0.le (by linarith) (by linarith)).2.trans ?_)⟩
  rw [div_le_iff₀ (by linarith)]
  generalize sin (rad (sunZenith t 75 l)) = S at *
  generalize positionError alg eng = P at *
  norm_num at g1 ⊢
  nlinarith

/-- hypotheses of C83_agree (and of C83_refraction) are met: psa with refraction in a grid and soltrack without it in a transect, at
every instant, differ by at most 0.69 degrees in azimuth at latitude 75 -/
example {t : Int} (ht : |t| < 2 ^ 63) {l : ℝ} (hl : -180 ≤ l ∧ l < 180) :
    ∃ (s1 s2 : Sunpos XR) (a1 a2 : ℝ) (k : ℤ),
      call .regularGrid exWorld (oneTime t) (.vec [.fin 75]) (.vec [.fin l]) "psa" .pyTrue "numpy" = .ok s1 ∧
      call .transect exWorld (oneTime t) (.vec [.fin 75]) (.vec [.fin l]) "soltrack" .pyFalse "numexpr" = .ok s2 ∧
      s1.azimuthDeg.get (fun _ => 0) = .fin a1 ∧ s2.azimuthDeg.get (fun _ => 0) = .fin a2 ∧ |a1 - a2 - 360 * k| ≤ 0.69 := by
  have hk1 : KnownPair "psa" "numpy" := by simp [KnownPair]
  have hk2 : KnownPair "soltrack" "numexpr" := by simp [KnownPair]
  obtain ⟨s1, h1, ha1⟩ := single_call .regularGrid hk1 .pyTrue ht (φ := 75) (l := l) (by norm_num) hl
  obtain ⟨s2, h2, ha2⟩ := single_call .transect hk2 .pyFalse ht (φ := 75) (l := l) (by norm_num) hl
  obtain ⟨g1, g2, g3⟩ := sun_from_75 ht l
  obtain ⟨p0, p1⟩ := positionError_le hk1
  obtain ⟨q0, q1⟩ := positionError_le hk2
  obtain ⟨a1, a2, k, c1, c2, c3⟩ := C83_agree (e1 := fun _ => 0) (e2 := fun _ => 0) h1 h2 ha1 ha2 (sunZenith_cos t 75 l)
    ⟨by linarith, by linarith⟩ ⟨by linarith, by linarith⟩
  refine ⟨s1, s2, a1, a2, k, h1, h2, c1, c2, c3.trans ?_⟩
  have b1 := (azimuthSpread_le p0.le (ζ := sunZenith t 75 l) (by linarith) (by linarith)).2
  have b2 := (azimuthSpread_le q0.le (ζ := sunZenith t 75 l) (by linarith) (by linarith)).2
  have e1 : positionError "psa" "numpy" = 0.199 := by simp [positionError]
  have e2 : positionError "soltrack" "numexpr" = 0.022 := by simp [positionError]
  rw [e1, e2] at *
  have d1 : ∀ P : ℝ, 0 < P → 1.571 * P / sin (rad (sunZenith t 75 l)) ≤ 2.25 * P := by
    intro P hP
    rw [div_le_iff₀ (by linarith)]
    generalize sin (rad (sunZenith t 75 l)) = S at *
    norm_num at g1 ⊢
    nlinarith
  have d2 := d1 0.199 (by norm_num)
  have d3 := d1 0.022 (by norm_num)
  refine (add_le_add (b1.trans d2) (b2.trans d3)).trans ?_
  norm_num

/-- hypotheses of C83_float are met in binary64, by nrel, psa and iqbal with refraction, at every instant, at latitude 75 -/
example (uc : UseCase) {alg eng : String} (hk : KnownPair alg eng) (hns : alg ≠ "soltrack") {t : Int} (ht : |t| < 2 ^ 63) :
    ∃ (w : World (Rd Arith.binary64)) (s : Sunpos (Rd Arith.binary64)) (a A : ℝ) (k : ℤ),
      call uc w (oneTime t) (.vec [Rd.fin 75]) (.vec [Rd.fin 10]) alg .pyTrue eng = .ok s ∧
      sunVec (rad 75) (declination (century t)) (-(hourAngle (century t) + rad 10)) = dirVec (rad (sunZenith t 75 10)) (rad A) ∧
      s.azimuthDeg.get (fun _ => 0) = Rd.fin a ∧ |a - A - 360 * k| ≤ 2.25 * positionError alg eng + 0.0011 := by
  obtain ⟨w, s, h, ha⟩ := single_call_rd (A := Arith.binary64) uc hk .pyTrue binary64_90 binary64_180
    ht (φ := 75) (l := 10) (by norm_num) (by norm_num)
  obtain ⟨A, hA⟩ := sun_azimuth t 75 10
  obtain ⟨g1, g2, g3⟩ := sun_from_75 ht 10
  obtain ⟨p0, p1⟩ := positionError_le hk
  have e1 : placeFactor alg eng 75 = 1 := by simp [placeFactor, hns]
  obtain ⟨a, k, c1, c2⟩ := C83_float (e := fun _ => 0) h ha (by norm_num) (by norm_num)
    (fun _ => by rw [abs_of_pos (by norm_num)]; norm_num) hA (sunZenith_range _ _ _) (by rw [e1, one_mul]; norm_num at g1 ⊢; linarith)
  refine ⟨w, s, a, A, k, h, hA, c1, c2.trans ?_⟩
  have b1 := (azimuthSpread_le p0.le (ζ := sunZenith t 75 10) (by linarith) (by linarith)).2
  rw [e1, one_mul]
  have b2 : 1.571 * positionError alg eng / sin (rad (sunZenith t 75 10)) ≤ 2.25 * positionError alg eng := by
    rw [div_le_iff₀ (by linarith)]
    generalize sin (rad (sunZenith t 75 10)) = S at *
    generalize positionError alg eng = P at *
    norm_num at g1 ⊢
    nlinarith
  have b3 : 0.00076 / sin (rad (sunZenith t 75 10)) ≤ 0.0011 := by
    rw [div_le_iff₀ (by linarith)]
    norm_num at g1 ⊢; linarith
  linarith

end SW.Props
