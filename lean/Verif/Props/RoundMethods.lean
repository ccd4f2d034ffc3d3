/-
C66: the methods of the result object in floating-point arithmetic. `Rd A` is any arithmetic with the accuracy of double
precision (Verif/Round.lean); the object may come from a call or be any other.
-/
import Verif.Props.Incidence
import Verif.Props.Rounding

namespace SW
open Real

/-- NaN behaves in every arithmetic of the accuracy of double precision as `LawfulNan` asks, so the theorems that
assume these laws hold there too. -/
instance (A : Arith) : LawfulNan (Rd A) where
  add_l _ := rfl
  add_r x := by cases x <;> rfl
  sub_l _ := rfl
  sub_r x := by cases x <;> rfl
  mul_l _ := rfl
  mul_r x := by cases x <;> rfl
  div_l _ := rfl
  div_r x := by cases x <;> rfl
  neg := rfl
  sin := rfl
  cos := rfl
  tan := rfl
  arcsin := rfl
  arccos := rfl
  arctan := rfl
  sqrt := rfl
  absv := rfl
  exp := rfl
  log := rfl
  atan2_l _ := rfl
  atan2_r x := by cases x <;> rfl
  pmod_l _ := rfl
  cmod_l _ := rfl
  max_l _ := rfl
  max_r x := by cases x <;> rfl
  sq := rfl
  round6 := rfl
  f32 := rfl
  whereLt_l x a b := if_neg (by show ¬ (false = true); decide)
  whereLt_r x a b := if_neg (by cases x <;> (show ¬ (false = true); decide))
  whereLe_l x a b := if_neg (by show ¬ (false = true); decide)
  whereLe_r x a b := if_neg (by cases x <;> (show ¬ (false = true); decide))
  isNan := rfl
  toInt := rfl

namespace Ap
variable {R : Arith} {a b : Rd R} {x y M N ε δ : ℝ}

theorem max2 (h1 : Ap a x M ε) (h2 : Ap b y M ε) : Ap (Num.max2 a b : Rd R) (max x y) M ε := by
  obtain ⟨m1, r, rfl, e1⟩ := h1
  obtain ⟨m2, s, rfl, e2⟩ := h2
  refine ⟨?_, max r s, rfl, ?_⟩
  · rcases max_choice x y with h | h <;> rw [h] <;> assumption
  · obtain ⟨a1, a2⟩ := _root_.abs_le.1 e1
    obtain ⟨b1, b2⟩ := _root_.abs_le.1 e2
    rw [_root_.abs_le]
    constructor
    · have := max_le (a := x) (b := y) (c := max r s + ε) (by linarith [le_max_left r s]) (by linarith [le_max_right r s])
      linarith
    · have := max_le (a := r) (b := s) (c := max x y + ε) (by linarith [le_max_left x y]) (by linarith [le_max_right x y])
      linarith

end Ap

/-- radians of an angle in degrees -/
theorem radians_ap {A : Arith} {a : Rd A} {x M ε : ℝ} (h : Ap a x M ε) (hM : M ≤ 400) (hε : ε ≤ 1) :
    Ap (radians a : Rd A) (x * (π / 180)) (0.0175 * M) (0.0176 * ε + 2e-14) := by
  have M0 := h.M_nonneg
  have e0 := h.e_nonneg
  have hp := pi_lt_d4
  have hc : Ap (Num.pi / 180 : Rd A) (π / 180) 0.0175 2.4e-17 := by
    refine (Ap.div 180 0.0175 Ap.pi (Ap.nat (n := 180)) ?_ (by norm_num) ?_ (by norm_num)).mono (by norm_num) (by norm_num)
    · norm_num
    · rw [abs_of_pos (by positivity)]; norm_num at hp ⊢; linarith
  unfold radians
  refine (h.mul hc ?_).mono ?_ ?_
  · norm_num at *; nlinarith
  · norm_num at *; linarith
  · norm_num at *; nlinarith

/-- degrees of an angle of at most half a turn -/
theorem degrees_ap' {A : Arith} {a : Rd A} {x ε : ℝ} (h : Ap a x 3.15 ε) (hε : ε ≤ 1e-9) :
    Ap (degrees a : Rd A) (x * (180 / π)) 181 (57.31 * ε + 5e-13) := by
  have e0 := h.e_nonneg
  have hp := pi_gt_d4
  have hc : Ap (180 / Num.pi : Rd A) (180 / π) 57.3 7.6e-14 := by
    refine (Ap.div 3.1415 57.3 (Ap.nat (n := 180)) Ap.pi ?_ (by norm_num) ?_ (by norm_num)).mono (by norm_num) (by norm_num)
    · rw [abs_of_pos pi_pos]; norm_num at *; linarith
    · rw [abs_of_pos (by positivity), div_le_iff₀ pi_pos]; norm_num at *; linarith
  unfold degrees
  refine (h.mul hc ?_).mono ?_ ?_
  · norm_num at *; nlinarith
  · norm_num at *
  · norm_num at *; nlinarith

namespace Props
open SW.Spec Sunpos

variable {A : Arith}

/-! ### elevation, cosz, eth -/

/-- C66: where the zenith angle is a number `ζ` (radians, at most 10 in magnitude), the public zenith `z` is that
number in degrees, elevation is `90 - z` and cosz the cosine of `z`, to the last digits. -/
theorem C66_zenith (s : Sunpos (Rd A)) {e : Dim → Nat} {ζ : ℝ} (hz : s.zenith.get e = Rd.fin ζ) (hb : |ζ| ≤ 10) :
    ∃ z v c : ℝ, s.zenithDeg.get e = Rd.fin z ∧ s.elevation.get e = Rd.fin v ∧ s.cosz.get e = Rd.fin c ∧
      |z - ζ * (180 / π)| ≤ 5e-12 ∧ |v - (90 - z)| ≤ 1e-12 ∧ |c - cos (rad z)| ≤ 2e-13 := by
  have h0 := Ap.ofFin (R := A) ζ hb
  obtain ⟨m1, z, hz1, ez⟩ := degrees_ap h0 le_rfl (by norm_num)
  have ez : |z - ζ * (180 / π)| ≤ 5e-12 := ez.trans (by norm_num)
  have hzb : |z| ≤ 574 := (Ap.fin_bound m1 ez).trans (by norm_num)
  have hv : Ap ((90.0 : Rd A) - Rd.fin z) (90 - z) (90 + 574) 1e-12 := by
    refine ((Ap.lit (K := 90) (by norm_num) (by norm_num)).sub (Ap.ofFin z hzb) (by norm_num)).fit ?_ le_rfl (by norm_num)
    norm_num
  obtain ⟨-, v, hv1, ev⟩ := hv
  obtain ⟨-, c, hc1, ec⟩ := h0.cos (by norm_num)
  refine ⟨z, v, c, ?_, ?_, ?_, ez, ev, ?_⟩
  · rw [rd_zenithDeg, hz]; exact hz1
  · have : s.elevation.get e = (90.0 : Rd A) - s.zenithDeg.get e := rfl
    rw [this, rd_zenithDeg, hz, hz1]; exact hv1
  · have : s.cosz.get e = Num.cos (s.zenith.get e) := rfl
    rw [this, hz]; exact hc1
  · have h1 : |ζ - rad z| ≤ 9e-14 := by
      have hp := pi_pos
      have e1 : ζ - rad z = -((z - ζ * (180 / π)) * (π / 180)) := by unfold rad; field_simp; ring
      have hp4 := pi_lt_d4
      rw [e1, abs_neg]
      refine (Nrel.abs_mul_le' ez (B := 0.017454) ?_).trans (by norm_num)
      rw [abs_of_pos (by positivity)]; norm_num at hp4 ⊢; linarith
    have h2 := (abs_cos_sub_cos_le ζ (rad z)).trans h1
    refine (abs_sub_le c (cos ζ) _).trans ?_
    norm_num at ec h2 ⊢; linarith

/-- C66: the extraterrestrial irradiance, without airmass correction, is the solar constant times the eccentricity
correction factor times the positive part of the cosine of the zenith angle. -/
theorem C66_eth (s : Sunpos (Rd A)) {e : Dim → Nat} {ζ f isc : ℝ} (hz : s.zenith.get e = Rd.fin ζ) (hb : |ζ| ≤ 10)
    (hf : s.ecf.get e = Rd.fin f) (hfb : |f| ≤ 2) (hisc : |isc| ≤ 1e4) :
    ∃ (E : DA (Rd A)) (z r : ℝ), s.eth (Rd.fin isc) "none" = .ok E ∧ s.zenithDeg.get e = Rd.fin z ∧
      E.get e = Rd.fin r ∧ |r - isc * f * max 0 (cos (rad z))| ≤ 5e-9 := by
  obtain ⟨z, v, c, h1, -, h2, -, -, hc⟩ := C66_zenith s hz hb
  have hcA : Ap (Rd.fin c : Rd A) (cos (rad z)) 1 2e-13 := ⟨abs_cos_le_one _, c, rfl, hc⟩
  have hm : Ap (Num.max2 0.0 (Rd.fin c) : Rd A) (max 0 (cos (rad z))) 1 2e-13 := by
    refine Ap.max2 ?_ hcA
    exact (Ap.lit (K := 0) (by norm_num) (by norm_num)).fit (by norm_num) (by norm_num) (by norm_num)
  have h3 := ((Ap.ofFin (R := A) isc hisc).mul (Ap.ofFin f hfb) (by norm_num)).mul hm (by norm_num)
  obtain ⟨-, r, hr, er⟩ := h3.mul (Ap.lit (m := 10) (s := true) (e := 1) (K := 1) (by norm_num) (by norm_num)) (by norm_num)
  refine ⟨_, z, r, rfl, h1, ?_, ?_⟩
  · show Rd.fin isc * s.ecf.get e * Num.max2 0.0 (s.cosz.get e) * (1.0 : Rd A) = _
    rw [hf, h2]; exact hr
  · rw [show (1.0 : ℝ) = 1 by norm_num, mul_one] at er
    refine er.trans (by norm_num)

/-! ### true solar time -/

/-- C66: where times_utc is the instant `n`, the equation of time `x` minutes and the longitude `l` degrees,
true_solar_time is `n + (x + 4 l)` minutes to within 20 microseconds. -/
theorem C66_tst (w : World (Rd A)) (s : Sunpos (Rd A)) {e : Dim → Nat} {n : Int} {x l : ℝ}
    (hn : stampAt s.timesUtc (e .time) = some n) (hr : |n| < 2 ^ 63) (hx : s.eot.get e = Rd.fin x) (hxb : |x| ≤ 100)
    (hl : s.longitude.get e = Rd.fin l) (hlb : |l| ≤ 360) :
    ∃ τ : Int, (s.trueSolarTime w).get e = some τ ∧ |(τ : ℝ) - (n + (x + 4 * l) * 60e9)| ≤ 20000 := by
  have hn' : |(n : ℝ)| ≤ 9.3e18 := by
    have : |(n : ℝ)| < 2 ^ 63 := by exact_mod_cast hr
    exact this.le.trans (by norm_num)
  obtain ⟨m, hm, em⟩ := A.ofInt_spec n (by refine lt_trans hr ?_; norm_num)
  have hN : Ap (Rd.fin m : Rd A) (n : ℝ) 9.3e18 9.3e3 := by
    refine ⟨hn', m, rfl, em.trans ?_⟩
    norm_num at hn' ⊢; linarith
  have h1 : Ap ((Rd.fin x + 4 * Rd.fin l) * 60 * 1e9 : Rd A) ((x + 4 * l) * 60 * 1e9) (1540 * 60 * 1e9) 1 := by
    have := (((Ap.ofFin (R := A) x hxb).add ((Ap.nat (n := 4)).mul (Ap.ofFin l hlb) (by norm_num)) (by norm_num)).mul
      (Ap.nat (n := 60)) (by norm_num)).mul (Ap.lit (m := 1) (s := false) (e := 9) (K := 1e9) (by norm_num) (by norm_num)) (by norm_num)
    exact this.mono (by norm_num) (by norm_num)
  obtain ⟨-, q, hq, eq⟩ := hN.add h1 (by norm_num)
  refine ⟨rtrunc q, ?_, ?_⟩
  · have : (s.trueSolarTime w).get e = Scalar.toInt (stampFloat w (stampAt s.timesUtc (e .time))
        + (s.eot.get e + 4 * s.longitude.get e) * 60 * 1e9 : Rd A) := rfl
    rw [this, hn, hx, hl]
    show Scalar.toInt (Scalar.ofInt n + (Rd.fin x + 4 * Rd.fin l) * 60 * 1e9 : Rd A) = _
    rw [show (Scalar.ofInt n : Rd A) = Rd.fin m from hm, hq]; rfl
  · have h2 := rtrunc_near q
    have e1 : (n : ℝ) + (x + 4 * l) * 60 * 1e9 = n + (x + 4 * l) * 60e9 := by norm_num; ring
    rw [e1] at eq
    refine (abs_sub_le _ q _).trans ?_
    norm_num at eq h2 ⊢; linarith

/-! ### sunrise -/

theorem rd_wsrRad (x : ℝ) : (|x| ≤ 1 → wsrRad (Rd.fin x : Rd A) = A.arccos x) ∧
    (1 < |x| → wsrRad (Rd.fin x : Rd A) = XR.nan) := by
  have h1 : ∀ a b : ℝ, ∀ y : Rd A, (a ≤ b → Num.whereLe (Rd.fin a) (Rd.fin b) y Num.nan = y) ∧
      (b < a → Num.whereLe (Rd.fin a) (Rd.fin b) y (Num.nan : Rd A) = Num.nan) := by
    intro a b y
    refine ⟨fun h => if_pos ?_, fun h => if_neg ?_⟩
    · show decide (a ≤ b) = true
      rw [decide_eq_true_eq]; exact h
    · show ¬ decide (a ≤ b) = true
      rw [decide_eq_true_eq]; exact not_le.2 h
  have e1 : (1 : Rd A) = Rd.fin 1 := by
    obtain ⟨-, r, hr, e⟩ := Ap.one (R := A)
    have : r = 1 := by
      have := abs_nonpos_iff.1 e; linarith
    rw [hr, this]
  have e2 : (-1 : Rd A) = Rd.fin (-1) := by rw [e1]; rfl
  unfold wsrRad
  rw [e2, e1]
  constructor
  · intro h
    obtain ⟨a, b⟩ := abs_le.1 h
    rw [(h1 x 1 _).1 b, (h1 (-1) x _).1 a]; rfl
  · intro h
    rcases lt_abs.1 h with a | a
    · rw [(h1 x 1 _).2 a]
      by_cases hb : -1 ≤ x
      · rw [(h1 (-1) x _).1 hb]; rfl
      · rw [(h1 (-1) x _).2 (not_le.1 hb)]; rfl
    · rw [(h1 (-1) x _).2 (by linarith)]; rfl

/-- the tangent of an angle in degrees -/
theorem rd_tan {x : ℝ} (hx : |x| ≤ 90) : ∃ r : ℝ, (Num.tan (radians (Rd.fin x)) : Rd A) = Rd.fin r ∧ |r| ≤ 1e20 ∧
    |r * cos (rad x) - sin (rad x)| ≤ 3e-14 * (1 + |r|) := by
  obtain ⟨-, p, hp, ep⟩ := radians_ap (Ap.ofFin (R := A) x hx) (by norm_num) (by norm_num)
  have ep : |p - rad x| ≤ 2e-14 := ep.trans (by norm_num)
  have hx2 : |rad x| ≤ 2 := by
    have h4 := pi_lt_d4
    unfold rad
    refine (Nrel.abs_mul_le' hx (B := 0.0175) ?_).trans (by norm_num)
    rw [abs_of_pos (by positivity)]; norm_num at h4 ⊢; linarith
  have hpb : |p| ≤ 1e9 := (Ap.fin_bound hx2 ep).trans (by norm_num)
  obtain ⟨r, hr, hb, er⟩ := A.tan_spec p hpb
  refine ⟨r, ?_, hb, ?_⟩
  · rw [hp]; exact hr
  · have c1 := (abs_cos_sub_cos_le (rad x) p).trans ((abs_sub_comm _ _).trans_le ep)
    have s1 := (abs_sin_sub_sin_le p (rad x)).trans ep
    have e1 : r * cos (rad x) - sin (rad x) = (r * cos p - sin p) + (r * (cos (rad x) - cos p) + (sin p - sin (rad x))) := by ring
    rw [e1]
    have c2 : |r * (cos (rad x) - cos p)| ≤ |r| * 2e-14 := Nrel.abs_mul_le' le_rfl c1
    refine (abs_add_le _ _).trans ((add_le_add er ((abs_add_le _ _).trans (add_le_add c2 s1))).trans ?_)
    have := abs_nonneg r
    norm_num; linarith

set_option maxHeartbeats 1000000 in
/-- C66: for every latitude `φ`, the poles included, and every declination `d` (degrees, at most 30 in magnitude):
where sunrise('rad') is a number `ω`, it lies between 0 and half a turn and the sun of declination `d` is on the horizon
when its hour angle is `ω`, the vertical component of its direction vanishing to 2e-13; where it is not a number, the
sun does not rise or set, up to the same tolerance. sunrise('deg') and daylight_length are that angle in degrees and in
hours (24 hours a turn, twice the angle). -/
theorem C66_sunrise_angle (w : World (Rd A)) (s : Sunpos (Rd A)) {e : Dim → Nat} {φ d : ℝ}
    (hlat : s.latitude.get e = Rd.fin φ) (hφ : |φ| ≤ 90) (hdec : s.decDeg.get e = Rd.fin d) (hd : |d| ≤ 30) :
    ∃ R G D, s.sunrise w "rad" = .ok (.angle R) ∧ s.sunrise w "deg" = .ok (.angle G) ∧ s.daylightLength w = .ok D ∧
      (∀ ω : ℝ, R.get e = Rd.fin ω → -1e-14 ≤ ω ∧ ω ≤ π + 1e-14 ∧
        |sin (rad φ) * sin (rad d) + cos (rad φ) * cos (rad d) * cos ω| ≤ 2e-13 ∧
        ∃ g v : ℝ, G.get e = Rd.fin g ∧ D.get e = Rd.fin v ∧ |g - ω * (180 / π)| ≤ 5e-13 ∧ |v - ω * (24 / π)| ≤ 2e-13) ∧
      (R.get e = XR.nan → cos (rad φ) * cos (rad d) ≤ |sin (rad φ) * sin (rad d)| + 2e-13 ∧
        G.get e = XR.nan ∧ D.get e = XR.nan) := by
  refine ⟨s.wsr, degrees s.wsr, 2.0 / 15.0 * degrees s.wsr, rfl, rfl, rfl, ?_⟩
  obtain ⟨r1, h1, b1, e1⟩ := rd_tan (A := A) hφ
  obtain ⟨r2, h2, -, e2⟩ := rd_tan (A := A) (x := d) (hd.trans (by norm_num))
  have hπ := pi_pos
  have hπ4 := pi_lt_d4
  have hr2 : |r2| ≤ 1 := by
    have hc : 0.8 ≤ cos (rad d) := by
      have hs : (rad d) ^ 2 ≤ 0.524 ^ 2 := by
        rw [← sq_abs]
        refine pow_le_pow_left₀ (abs_nonneg _) ?_ 2
        unfold rad
        refine (Nrel.abs_mul_le' hd (B := 0.0174534) ?_).trans (by norm_num)
        rw [abs_of_pos (by positivity)]; norm_num at hπ4 ⊢; linarith
      have := one_sub_sq_div_two_le_cos (x := rad d)
      norm_num at hs this ⊢; linarith
    have hs : |sin (rad d)| ≤ 0.524 := by
      refine abs_sin_le_abs.trans ?_
      unfold rad
      refine (Nrel.abs_mul_le' hd (B := 0.0174534) ?_).trans (by norm_num)
      rw [abs_of_pos (by positivity)]; norm_num at hπ4 ⊢; linarith
    have h3 : |r2| * cos (rad d) ≤ |sin (rad d)| + 3e-14 * (1 + |r2|) := by
      have : |r2| * cos (rad d) = |r2 * cos (rad d)| := by
        rw [abs_mul, abs_of_pos (by norm_num at hc; linarith : 0 < cos (rad d))]
      rw [this]
      have := abs_sub_abs_le_abs_sub (r2 * cos (rad d)) (sin (rad d))
      linarith
    have h4 : |r2| * 0.8 ≤ |r2| * cos (rad d) := mul_le_mul_of_nonneg_left hc (abs_nonneg _)
    norm_num at h3 h4 hs ⊢; linarith
  have hprod : |(-r2) * r1| ≤ 1e30 := by
    rw [abs_mul, abs_neg]
    exact (mul_le_mul hr2 b1 (abs_nonneg _) (by norm_num)).trans (by norm_num)
  obtain ⟨T, hT, eT⟩ := A.mul_spec (-r2) r1 hprod
  have hw : s.wsr.get e = wsrRad (Rd.fin T) := by
    have : s.wsr.get e = wsrRad (-(Num.tan (radians (s.decDeg.get e))) * Num.tan (radians (s.latitude.get e)) : Rd A) := rfl
    rw [this, hlat, hdec, h1, h2]
    congr 1
  obtain ⟨w1, w2⟩ := rd_wsrRad (A := A) T
  obtain ⟨cφ, hcφ⟩ : ∃ c, c = cos (rad φ) := ⟨_, rfl⟩
  obtain ⟨sφ, hsφ⟩ : ∃ c, c = sin (rad φ) := ⟨_, rfl⟩
  obtain ⟨cd, hcd⟩ : ∃ c, c = cos (rad d) := ⟨_, rfl⟩
  obtain ⟨sd, hsd⟩ : ∃ c, c = sin (rad d) := ⟨_, rfl⟩
  have k1 : |cφ| ≤ 1 := by rw [hcφ]; exact abs_cos_le_one _
  have k2 : |sφ| ≤ 1 := by rw [hsφ]; exact abs_sin_le_one _
  have k3 : |cd| ≤ 1 := by rw [hcd]; exact abs_cos_le_one _
  rw [← hcφ, ← hsφ] at e1
  rw [← hcd, ← hsd] at e2
  rw [← hcφ, ← hsφ, ← hcd, ← hsd]
  have eT' : |T + r2 * r1| ≤ 1e-15 * |r2 * r1| + 1e-30 := by
    have : T - -r2 * r1 = T + r2 * r1 := by ring
    rw [this] at eT
    rwa [neg_mul, abs_neg] at eT
  obtain ⟨P, hP⟩ : ∃ P, P = r2 * r1 := ⟨_, rfl⟩
  have hPabs : |P| = |r2| * |r1| := by rw [hP, abs_mul]
  rw [← hP] at eT'
  have hPT : |P| ≤ |T| + 1e-15 * |P| + 1e-30 := by
    have := abs_sub_abs_le_abs_sub P (-T)
    rw [abs_neg, show P - -T = T + P by ring] at this
    linarith
  have e2' : |r2 * cd - sd| ≤ 6e-14 := e2.trans (by norm_num at hr2 ⊢; linarith)
  constructor
  · intro ω hω
    rw [hw] at hω
    have hTle : |T| ≤ 1 := by
      by_contra hc
      rw [w2 (not_le.1 hc)] at hω; cases hω
    rw [w1 hTle] at hω
    obtain ⟨q, hq, eq⟩ := A.arccos_spec T hTle
    obtain rfl : q = ω := XR.fin_inj.1 (hq.symm.trans hω)
    obtain ⟨a1, a2⟩ := abs_le.1 eq
    have hq0 : -1e-14 ≤ q := by linarith [arccos_nonneg T]
    have hq1 : q ≤ π + 1e-14 := by linarith [arccos_le_pi T]
    refine ⟨hq0, hq1, ?_, ?_⟩
    · have hcq : |cos q - T| ≤ 1e-14 := by
        have := (abs_cos_sub_cos_le q (arccos T)).trans eq
        rwa [cos_arccos (abs_le.1 hTle).1 (abs_le.1 hTle).2] at this
      have hP2 : |P| ≤ 1.1 := by norm_num at hPT ⊢; linarith
      have ea : |(r1 * cφ - sφ) * (r2 * cd)| ≤ 6.4e-14 := by
        have : (r1 * cφ - sφ) * (r2 * cd) = (r1 * cφ - sφ) * r2 * cd := by ring
        rw [this]
        have i1 : |(r1 * cφ - sφ) * r2| ≤ 6.4e-14 := by
          rw [abs_mul]
          refine (mul_le_mul_of_nonneg_right e1 (abs_nonneg r2)).trans ?_
          have : 3e-14 * (1 + |r1|) * |r2| = 3e-14 * (|r2| + |P|) := by rw [hPabs]; ring
          rw [this]
          norm_num at hP2 hr2 ⊢; linarith
        exact (Nrel.abs_mul_le' i1 k3).trans (by norm_num)
      have eb : |sφ * (r2 * cd - sd)| ≤ 6e-14 := (Nrel.abs_mul_le' k2 e2').trans (by norm_num)
      have ec : |cφ * cd * (T + P)| ≤ 1.2e-15 := by
        refine (Nrel.abs_mul_le' (Nrel.abs_mul_le' k1 k3) eT').trans ?_
        norm_num at hP2 ⊢; linarith
      have ed : |cφ * cd * (cos q - T)| ≤ 1e-14 := by
        refine (Nrel.abs_mul_le' (Nrel.abs_mul_le' k1 k3) hcq).trans ?_
        norm_num
      have key : sφ * sd + cφ * cd * cos q
          = (cφ * cd * (cos q - T) + cφ * cd * (T + P)) - (sφ * (r2 * cd - sd) + (r1 * cφ - sφ) * (r2 * cd)) := by
        rw [hP]; ring
      rw [key]
      refine (abs_sub _ _).trans ((add_le_add ((abs_add_le _ _).trans (add_le_add ed ec))
        ((abs_add_le _ _).trans (add_le_add eb ea))).trans (by norm_num))
    · have hqb : |q| ≤ 3.15 := by rw [abs_le]; norm_num at hπ4 hq0 hq1 ⊢; constructor <;> linarith
      have hg := degrees_ap' (Ap.ofFin (R := A) q hqb) (by norm_num)
      have hc : Ap ((2.0 : Rd A) / 15.0) (2.0 / 15.0) 0.1334 5e-16 := by
        refine (Ap.div 15 0.1334 (Ap.lit (K := 2) (by norm_num) (by norm_num)) (Ap.lit (K := 15) (by norm_num) (by norm_num))
          ?_ (by norm_num) ?_ (by norm_num)).mono (by norm_num) (by norm_num)
        · norm_num
        · rw [abs_of_pos (by norm_num)]; norm_num
      obtain ⟨-, v, hv, ev⟩ := hc.mul hg (by norm_num)
      obtain ⟨-, g, hg1, eg⟩ := hg
      have hwq : s.wsr.get e = Rd.fin q := by rw [hw, w1 hTle]; exact hq
      refine ⟨g, v, ?_, ?_, eg.trans (by norm_num), ?_⟩
      · show degrees (s.wsr.get e) = _
        rw [hwq]; exact hg1
      · show (2.0 : Rd A) / 15.0 * degrees (s.wsr.get e) = _
        rw [hwq]; exact hv
      · have e3 : (2.0 : ℝ) / 15.0 * (q * (180 / π)) = q * (24 / π) := by field_simp; norm_num; ring
        rw [e3] at ev
        exact ev.trans (by norm_num)
  · intro hn
    have hT1 : 1 < |T| := by
      by_contra hc
      rw [hw, w1 (not_lt.1 hc)] at hn
      obtain ⟨q, hq, -⟩ := A.arccos_spec T (not_lt.1 hc)
      rw [hq] at hn; cases hn
    refine ⟨?_, ?_, ?_⟩
    · have hP1 : 1 - 2e-15 ≤ |P| := by
        have := abs_sub_abs_le_abs_sub T (-P)
        rw [abs_neg, show T - -P = T + P by ring] at this
        have h5 : |T| - |P| ≤ 1e-15 * |P| + 1e-30 := this.trans eT'
        clear hPT eT' this
        generalize |P| = X at *
        generalize |T| = Y at *
        norm_num at h5 ⊢; linarith
      -- cφ ≤ |sφ| |r2| up to the tolerance
      have i1 : |r1| * |cφ| ≤ |sφ| + 3e-14 * (1 + |r1|) := by
        rw [← abs_mul]
        have := abs_sub_abs_le_abs_sub (r1 * cφ) sφ
        linarith
      have i2 : |r1| * |cφ| * |r2| ≤ (|sφ| + 3e-14 * (1 + |r1|)) * |r2| := mul_le_mul_of_nonneg_right i1 (abs_nonneg _)
      have i3 : |r1| * |cφ| * |r2| = |P| * |cφ| := by rw [hPabs]; ring
      have i4 : (|sφ| + 3e-14 * (1 + |r1|)) * |r2| = |sφ| * |r2| + 3e-14 * |r2| + 3e-14 * |P| := by rw [hPabs]; ring
      rw [i3, i4] at i2
      have hP0 : 0 < |P| := lt_of_lt_of_le (by norm_num) hP1
      have i5 : |cφ| ≤ |sφ| * |r2| + 7e-14 := by
        have a0 := mul_nonneg (abs_nonneg sφ) (abs_nonneg r2)
        have a1 : |sφ| * |r2| ≤ 1 * 1 := mul_le_mul k2 hr2 (abs_nonneg _) (by norm_num)
        by_contra hc
        push Not at hc
        have : |P| * (|sφ| * |r2| + 7e-14) < |P| * |cφ| := mul_lt_mul_of_pos_left hc hP0
        have : (1 - 2e-15) * (|sφ| * |r2|) ≤ |P| * (|sφ| * |r2|) := mul_le_mul_of_nonneg_right hP1 a0
        generalize |sφ| * |r2| = X at *
        norm_num at *; nlinarith
      have i6 : |r2| * |cd| ≤ |sd| + 6e-14 := by
        rw [← abs_mul]
        have := abs_sub_abs_le_abs_sub (r2 * cd) sd
        linarith
      have i7 : |cφ| * |cd| ≤ (|sφ| * |r2| + 7e-14) * |cd| := mul_le_mul_of_nonneg_right i5 (abs_nonneg _)
      have i8 : |sφ| * (|r2| * |cd|) ≤ |sφ| * (|sd| + 6e-14) := mul_le_mul_of_nonneg_left i6 (abs_nonneg _)
      have i9 := le_abs_self (cφ * cd)
      rw [abs_mul] at i9
      rw [abs_mul]
      have i10 : |sφ| * (|sd| + 6e-14) ≤ |sφ| * |sd| + 6e-14 := by
        norm_num at k2 ⊢; linarith
      have i11 : (|sφ| * |r2| + 7e-14) * |cd| = |sφ| * (|r2| * |cd|) + 7e-14 * |cd| := by ring
      rw [i11] at i7
      have i12 : 7e-14 * |cd| ≤ 7e-14 := by norm_num at k3 ⊢; linarith
      have i13 : cφ * cd ≤ |sφ| * |sd| + 6e-14 + 7e-14 := by linarith
      norm_num at i13 ⊢; linarith
    · show degrees (s.wsr.get e) = _
      rw [hn]; rfl
    · show (2.0 : Rd A) / 15.0 * degrees (s.wsr.get e) = _
      rw [hn]
      have hc : Ap ((2.0 : Rd A) / 15.0) (2.0 / 15.0) 0.1334 5e-16 := by
        refine (Ap.div 15 0.1334 (Ap.lit (K := 2) (by norm_num) (by norm_num)) (Ap.lit (K := 15) (by norm_num) (by norm_num))
          ?_ (by norm_num) ?_ (by norm_num)).mono (by norm_num) (by norm_num)
        · norm_num
        · rw [abs_of_pos (by norm_num)]; norm_num
      obtain ⟨-, c, hc, -⟩ := hc
      rw [hc]; rfl

/-! ### sunrise and sunset times -/

/-- the cast of hours to nanoseconds -/
theorem hours_cast {a : Rd A} {x : ℝ} (h : Ap a x 25 3e-13) :
    ∃ j : Int, Scalar.toInt (hoursToNs a : Rd A) = some j ∧ |(j : ℝ) - x * 3600e9| ≤ 3 := by
  unfold hoursToNs
  have h1 : Ap (a * 3600 * 1e9 : Rd A) (x * 3600 * 1e9) (25 * 3600 * 1e9) 1.5 :=
    ((h.mul (Ap.nat (n := 3600)) (by norm_num)).mul
      (Ap.lit (m := 1) (s := false) (e := 9) (K := 1e9) (by norm_num) (by norm_num)) (by norm_num)).mono (by norm_num) (by norm_num)
  obtain ⟨-, q, hq, eq⟩ := h1
  refine ⟨rtrunc q, by rw [hq]; rfl, ?_⟩
  have h2 := rtrunc_near q
  have e1 : x * 3600 * 1e9 = x * 3600e9 := by norm_num; ring
  rw [e1] at eq
  refine (abs_sub_le _ q _).trans ?_
  norm_num at eq h2 ⊢; linarith

/-- C66: where sunrise('rad') is a number `ω` (at most 3.15, see C66_sunrise_angle), true_solar_time is `τ`, the
equation of time `x` minutes and the longitude `l` degrees: sunrise('tst') is noon of the day of `τ` minus the angle
`ω` (24 hours a turn), sunset is twice that angle later, and the UTC times are the solar ones minus `x + 4 l` minutes,
all within 3 nanoseconds. -/
theorem C66_times (w : World (Rd A)) (s : Sunpos (Rd A)) {e : Dim → Nat} {ω x l : ℝ} {τ : Int} {R : DA (Rd A)}
    (hR : s.sunrise w "rad" = .ok (.angle R)) (hω : R.get e = Rd.fin ω) (hωb : |ω| ≤ 3.15)
    (hτ : (s.trueSolarTime w).get e = some τ)
    (hx : s.eot.get e = Rd.fin x) (hxb : |x| ≤ 100) (hl : s.longitude.get e = Rd.fin l) (hlb : |l| ≤ 360) :
    ∃ (rT rU sT sU : DA (Option Int)) (m r k j : Int),
      s.sunrise w "tst" = .ok (.time rT) ∧ s.sunrise w "utc" = .ok (.time rU) ∧
      s.sunset w "tst" = .ok (.time sT) ∧ s.sunset w "utc" = .ok (.time sU) ∧
      m % 86400000000000 = 0 ∧ m ≤ τ ∧ τ < m + 86400000000000 ∧
      rT.get e = some r ∧ |(r : ℝ) - (m + 43200e9 - ω * (43200e9 / π))| ≤ 3 ∧
      rU.get e = some (r - k) ∧ |(k : ℝ) - (x + 4 * l) * 60e9| ≤ 3 ∧
      sT.get e = some (r + j) ∧ sU.get e = some (r - k + j) ∧ |(j : ℝ) - ω * (86400e9 / π)| ≤ 3 := by
  have hRw : R = s.wsr := by
    have : (Except.ok (Event.angle s.wsr) : Except PyErr (Event (Rd A))) = .ok (.angle R) := hR
    injection this with h; injection h with h; exact h.symm
  rw [hRw] at hω
  have hp := pi_pos
  have hg := degrees_ap' (Ap.ofFin (R := A) ω hωb) (by norm_num)
  have hh : Ap (wsrHours (Rd.fin ω) : Rd A) (12 - ω * (12 / π)) 25 3e-13 := by
    have h1 : Ap (degrees (Rd.fin ω) / 15.0 : Rd A) (ω * (180 / π) / 15.0) 12.1 1e-13 := by
      refine (Ap.div 15 12.1 hg (Ap.lit (K := 15) (by norm_num) (by norm_num)) ?_ (by norm_num) ?_ (by norm_num)).mono
        (by norm_num) (by norm_num)
      · norm_num
      · rw [abs_div]
        have := hg.1
        rw [show |(15.0 : ℝ)| = 15 by norm_num]
        norm_num at this ⊢; linarith
    have h2 := (Ap.lit (R := A) (m := 120) (s := true) (e := 1) (K := 12) (by norm_num) (by norm_num)).sub h1 (by norm_num)
    have e1 : (12.0 : ℝ) - ω * (180 / π) / 15.0 = 12 - ω * (12 / π) := by field_simp; norm_num; ring
    have h3 := h2.mono (M' := 25) (ε' := 3e-13) (by norm_num) (by norm_num)
    rw [e1] at h3; exact h3
  have hd : Ap (2.0 / 15.0 * degrees (Rd.fin ω) : Rd A) (ω * (24 / π)) 25 3e-13 := by
    have hc : Ap ((2.0 : Rd A) / 15.0) (2.0 / 15.0) 0.1334 5e-16 := by
      refine (Ap.div 15 0.1334 (Ap.lit (K := 2) (by norm_num) (by norm_num)) (Ap.lit (K := 15) (by norm_num) (by norm_num))
        ?_ (by norm_num) ?_ (by norm_num)).mono (by norm_num) (by norm_num)
      · norm_num
      · rw [abs_of_pos (by norm_num)]; norm_num
    have h3 := (hc.mul hg (by norm_num)).mono (M' := 25) (ε' := 3e-13) (by norm_num) (by norm_num)
    have e3 : (2.0 : ℝ) / 15.0 * (ω * (180 / π)) = ω * (24 / π) := by field_simp; norm_num; ring
    rw [e3] at h3; exact h3
  obtain ⟨i, hi, ei⟩ := hours_cast hh
  obtain ⟨j, hj, ej⟩ := hours_cast hd
  have hk : ∃ k : Int, Scalar.toInt (minToNs (deltaMin (Rd.fin x) (Rd.fin l)) : Rd A) = some k ∧
      |(k : ℝ) - (x + 4 * l) * 60e9| ≤ 3 := by
    unfold minToNs deltaMin
    have h1 : Ap ((Rd.fin x + 4 * Rd.fin l) * 60 * 1e9 : Rd A) ((x + 4 * l) * 60 * 1e9) (1540 * 60 * 1e9) 1 :=
      ((((Ap.ofFin (R := A) x hxb).add ((Ap.nat (n := 4)).mul (Ap.ofFin l hlb) (by norm_num)) (by norm_num)).mul
      (Ap.nat (n := 60)) (by norm_num)).mul (Ap.lit (m := 1) (s := false) (e := 9) (K := 1e9) (by norm_num) (by norm_num))
      (by norm_num)).mono (by norm_num) (by norm_num)
    obtain ⟨-, q, hq, eq⟩ := h1
    refine ⟨rtrunc q, by
      have : (Scalar.toInt (Rd.fin q : Rd A)) = some (rtrunc q) := rfl
      rw [← this, ← hq], ?_⟩
    have h2 := rtrunc_near q
    have e1 : (x + 4 * l) * 60 * 1e9 = (x + 4 * l) * 60e9 := by norm_num; ring
    rw [e1] at eq
    refine (abs_sub_le _ q _).trans ?_
    norm_num at eq h2 ⊢; linarith
  obtain ⟨k, hk, ek⟩ := hk
  have hrT : (s.sunriseTst w).get e = some (i + τ / dayNs * dayNs) := by
    have : (s.sunriseTst w).get e = tadd (Scalar.toInt (hoursToNs (wsrHours (s.wsr.get e))))
      (floorDay ((s.trueSolarTime w).get e)) := rfl
    rw [this, hω, hτ, hi]; rfl
  have hrU : (s.sunriseUtc w).get e = some (i + τ / dayNs * dayNs - k) := by
    have : (s.sunriseUtc w).get e = tsub ((s.sunriseTst w).get e)
      (Scalar.toInt (minToNs (deltaMin (s.eot.get e) (s.longitude.get e)))) := rfl
    rw [this, hrT, hx, hl, hk]; rfl
  have hjd : ((hoursToNs (2.0 / 15.0 * degrees s.wsr)).map Scalar.toInt).get e = some j := by
    have : ((hoursToNs (2.0 / 15.0 * degrees s.wsr)).map Scalar.toInt).get e
      = Scalar.toInt (hoursToNs (2.0 / 15.0 * degrees (s.wsr.get e))) := rfl
    rw [this, hω, hj]
  have hday : dayNs = 86400000000000 := rfl
  refine ⟨_, _, _, _, τ / dayNs * dayNs, i + τ / dayNs * dayNs, k, j, rfl, rfl, rfl, rfl, ?_, ?_, ?_, hrT, ?_, hrU, ek, ?_, ?_, ?_⟩
  · rw [hday]; omega
  · rw [hday]; omega
  · rw [hday]; omega
  · have e1 : (12 - ω * (12 / π)) * 3600e9 = 43200e9 - ω * (43200e9 / π) := by field_simp; norm_num; ring
    rw [e1] at ei
    push_cast
    rw [show (i : ℝ) + (τ / dayNs : Int) * (dayNs : Int) - ((τ / dayNs : Int) * (dayNs : Int) + 43200e9 - ω * (43200e9 / π))
      = i - (43200e9 - ω * (43200e9 / π)) by ring]
    exact ei
  · show tadd ((s.sunriseTst w).get e) (((hoursToNs (2.0 / 15.0 * degrees s.wsr)).map Scalar.toInt).get e) = _
    rw [hrT, hjd]; rfl
  · show tadd ((s.sunriseUtc w).get e) (((hoursToNs (2.0 / 15.0 * degrees s.wsr)).map Scalar.toInt).get e) = _
    rw [hrU, hjd]; rfl
  · have e1 : ω * (24 / π) * 3600e9 = ω * (86400e9 / π) := by field_simp; norm_num; ring
    rw [e1] at ej; exact ej

/-- C66: where sunrise('rad') is NaN, the times of sunrise and sunset are NaT. -/
theorem C66_no_event (w : World (Rd A)) (s : Sunpos (Rd A)) {e : Dim → Nat} {R : DA (Rd A)}
    (hR : s.sunrise w "rad" = .ok (.angle R)) (hω : R.get e = XR.nan) (u : String)
    (hu : u = "tst" ∨ u = "utc" ∨ u = "local") :
    ∃ r t, s.sunrise w u = .ok (.time r) ∧ s.sunset w u = .ok (.time t) ∧ r.get e = none ∧ t.get e = none := by
  have hRw : R = s.wsr := by
    have : (Except.ok (Event.angle s.wsr) : Except PyErr (Event (Rd A))) = .ok (.angle R) := hR
    injection this with h; injection h with h; exact h.symm
  rw [hRw] at hω
  have h12 : ∃ r : ℝ, (12.0 : Rd A) = Rd.fin r := by
    obtain ⟨-, r, hr, -⟩ := Ap.lit (R := A) (m := 120) (s := true) (e := 1) (K := 12) (by norm_num) (by norm_num)
    exact ⟨r, hr⟩
  obtain ⟨r, hr⟩ := h12
  have h1 : Scalar.toInt (hoursToNs (wsrHours (XR.nan : Rd A)) : Rd A) = none := by
    unfold hoursToNs wsrHours
    rw [hr]; rfl
  have hT : (s.sunriseTst w).get e = none := by
    have : (s.sunriseTst w).get e = tadd (Scalar.toInt (hoursToNs (wsrHours (s.wsr.get e))))
      (floorDay ((s.trueSolarTime w).get e)) := rfl
    rw [this, hω, h1]; rfl
  have hU : (s.sunriseUtc w).get e = none := by
    have : (s.sunriseUtc w).get e = tsub ((s.sunriseTst w).get e)
      (Scalar.toInt (minToNs (deltaMin (s.eot.get e) (s.longitude.get e)))) := rfl
    rw [this, hT]; rfl
  have hL : (s.sunriseLocal w).get e = none := by
    have : (s.sunriseLocal w).get e = tadd ((s.sunriseUtc w).get e) (s.utcOffset.get e) := rfl
    rw [this, hU]; rfl
  have key : ∀ (a b : Option Int), a = none → tadd a b = none := by
    rintro a b rfl; rfl
  rcases hu with rfl | rfl | rfl
  · exact ⟨_, _, rfl, rfl, hT, key _ _ hT⟩
  · exact ⟨_, _, rfl, rfl, hU, key _ _ hU⟩
  · exact ⟨_, _, rfl, rfl, hL, key _ _ hL⟩

/-! ### incidence -/

/-- C66: where the latitude `φ`, the declination `d` (degrees) and true_solar_time `τ` are known, and the slope `β` and
the azimuth `γ` of a surface are within 360 degrees, incidence is the scalar product of the normal of the surface and
the direction of a sun of declination `d`, `15` degrees east of the meridian per hour before noon, to 1e-12. -/
theorem C66_incidence (w : World (Rd A)) (s : Sunpos (Rd A)) {e : Dim → Nat} {φ d β γ : ℝ} {τ : Int}
    (hφ : s.latitude.get e = Rd.fin φ) (hφb : |φ| ≤ 90) (hd : s.decDeg.get e = Rd.fin d) (hdb : |d| ≤ 90)
    (hτ : (s.trueSolarTime w).get e = some τ) (hβ : |β| ≤ 360) (hγ : |γ| ≤ 360) :
    ∃ c : ℝ, (s.incidence w (Rd.fin β) (Rd.fin γ)).get e = Rd.fin c ∧
      |c - (surfaceNormal (rad β) (rad γ)).dot (sunVec (rad φ) (rad d) (rad (15 * (12 - hoursOfDay τ))))| ≤ 1e-12 := by
  have hrw : (s.incidence w (Rd.fin β) (Rd.fin γ)).get e = coss (Rd.fin β) (Rd.fin γ) (s.latitude.get e) (s.decDeg.get e)
      (haDeg (hourOf (stampFloat w (tsub ((s.trueSolarTime w).get e)
        (floorDay ((s.trueSolarTime w).get e)))))) := rfl
  rw [hrw, hφ, hd, hτ, tod_eq]
  obtain ⟨n, hn⟩ : ∃ n, n = τ % 86400000000000 := ⟨_, rfl⟩
  have hn0 : 0 ≤ n := by omega
  have hn1 : n < 86400000000000 := by omega
  have hnR0 : (0 : ℝ) ≤ n := by exact_mod_cast hn0
  have hnR1 : (n : ℝ) ≤ 86400000000000 := by exact_mod_cast hn1.le
  have hN : Ap (Scalar.ofInt n : Rd A) (n : ℝ) 8.64e13 0 :=
    Ap.ofInt (by rw [_root_.abs_of_nonneg hn0]; norm_num; omega) (by rw [_root_.abs_of_nonneg hnR0]; norm_num at hnR1 ⊢; linarith)
  have hh : Ap (hourOf (Scalar.ofInt n) : Rd A) (hoursOfDay τ) 24 1e-13 := by
    unfold hourOf
    have h1 := hN.mul (Ap.lit (R := A) (m := 1) (s := true) (e := 9) (K := 1e-9) (by norm_num) (by norm_num)) (by norm_num)
    refine (Ap.div 3600 24 h1 (Ap.nat (n := 3600)) (by norm_num) (by norm_num) ?_ (by norm_num)).fit ?_ (by norm_num) (by norm_num)
    · rw [abs_of_nonneg (by positivity), div_le_iff₀ (by norm_num)]
      norm_num at hnR1 ⊢; linarith
    · unfold hoursOfDay; rw [← hn]; norm_num; ring
  have hha : Ap (haDeg (hourOf (Scalar.ofInt n)) : Rd A) (15 * (12 - hoursOfDay τ)) 180 4e-12 := by
    unfold haDeg
    have h1 := (Ap.nat (R := A) (n := 15)).mul ((Ap.nat (R := A) (n := 12)).sub hh (by norm_num)) (by norm_num)
    refine (h1.mono (M' := 540) (ε' := 4e-12) (by norm_num) (by norm_num)).bnd ?_ |>.congr rfl
    have e0 : hoursOfDay τ = (n : ℝ) / 3600e9 := by unfold hoursOfDay; rw [← hn]
    have h2 : 0 ≤ (n : ℝ) / 3600e9 := by positivity
    have h3 : (n : ℝ) / 3600e9 ≤ 24 := by rw [div_le_iff₀ (by norm_num)]; norm_num at hnR1 ⊢; linarith
    rw [e0, abs_le]
    constructor <;> linarith
  obtain ⟨h, hh1⟩ : ∃ h, h = 15 * (12 - hoursOfDay τ) := ⟨_, rfl⟩
  rw [← hn, ← hh1]
  rw [← hh1] at hha
  have trig : ∀ {a : Rd A} {x M ε : ℝ}, Ap a x M ε → M ≤ 400 → ε ≤ 4e-12 →
      Ap (Num.sin (radians a) : Rd A) (sin (rad x)) 1 1.1e-13 ∧ Ap (Num.cos (radians a) : Rd A) (cos (rad x)) 1 1.1e-13 := by
    intro a x M ε h1 h2 h3
    have h4 : Ap (radians a : Rd A) (rad x) 7 9.2e-14 := by
      refine (radians_ap h1 h2 (h3.trans (by norm_num))).fit rfl ?_ ?_
      · norm_num at h2 ⊢; linarith
      · norm_num at h3 ⊢; linarith
    exact ⟨(h4.sin (by norm_num)).mono le_rfl (by norm_num), (h4.cos (by norm_num)).mono le_rfl (by norm_num)⟩
  have trig' : ∀ {a : Rd A} {x M : ℝ}, Ap a x M 0 → M ≤ 400 →
      Ap (Num.sin (radians a) : Rd A) (sin (rad x)) 1 3.1e-14 ∧ Ap (Num.cos (radians a) : Rd A) (cos (rad x)) 1 3.1e-14 := by
    intro a x M h1 h2
    have h4 : Ap (radians a : Rd A) (rad x) 7 2.1e-14 := by
      refine (radians_ap h1 h2 (by norm_num)).fit rfl ?_ ?_
      · norm_num at h2 ⊢; linarith
      · norm_num
    exact ⟨(h4.sin (by norm_num)).mono le_rfl (by norm_num), (h4.cos (by norm_num)).mono le_rfl (by norm_num)⟩
  obtain ⟨sφ, cφ⟩ := trig' (Ap.ofFin (R := A) φ hφb) (by norm_num)
  obtain ⟨sd, cd⟩ := trig' (Ap.ofFin (R := A) d hdb) (by norm_num)
  obtain ⟨sβ, cβ⟩ := trig' (Ap.ofFin (R := A) β hβ) (by norm_num)
  obtain ⟨sγ, cγ⟩ := trig' (Ap.ofFin (R := A) γ hγ) (by norm_num)
  obtain ⟨sh, ch⟩ := trig hha (by norm_num) (by norm_num)
  show ∃ c : ℝ, coss (Rd.fin β) (Rd.fin γ) (Rd.fin φ) (Rd.fin d) (haDeg (hourOf (Scalar.ofInt n))) = Rd.fin c ∧ _
  unfold coss
  have a1 := ((sφ.mul cβ (by norm_num)).sub ((cφ.mul sβ (by norm_num)).mul cγ (by norm_num)) (by norm_num)).mul sd (by norm_num)
  have a2 := (((cφ.mul cβ (by norm_num)).add ((sφ.mul sβ (by norm_num)).mul cγ (by norm_num)) (by norm_num)).mul cd (by norm_num)).mul
    ch (by norm_num)
  have a3 := ((cd.mul sh (by norm_num)).mul sβ (by norm_num)).mul sγ (by norm_num)
  have a1 := a1.mono (M' := 3) (ε' := 3e-13) (by norm_num) (by norm_num)
  have a2 := a2.mono (M' := 3) (ε' := 4.7e-13) (by norm_num) (by norm_num)
  have a3 := a3.mono (M' := 3) (ε' := 2.1e-13) (by norm_num) (by norm_num)
  obtain ⟨-, c, hc, ec⟩ := (a1.add a2 (by norm_num)).add a3 (by norm_num)
  refine ⟨c, hc, ?_⟩
  have e1 := coss_real β γ φ d h
  rw [← e1]
  unfold coss
  simp only [radians_rad]
  refine le_trans ec ?_
  norm_num

end Props
end SW
