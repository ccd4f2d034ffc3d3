/-
True solar time, sunrise, sunset, daylight length (C25-C31).
-/
import Verif.Props.Irradiance

namespace SW.Props
open SW.Spec Real Sunpos

/-! ### C25: the sunrise angle -/

theorem rtan_rad {x : ℝ} (h : |x| < 90) : rtan (rad x) = tan (rad x) ∧ 0 < cos (rad x) := by
  have hp := pi_pos
  have h' := abs_lt.1 h
  have : 0 < cos (rad x) := by
    apply cos_pos_of_mem_Ioo
    unfold rad
    constructor <;> nlinarith
  exact ⟨by rw [rtan_of_cos_ne this.ne', tan_eq_sin_div_cos], this⟩

theorem wsr_get (s : Sunpos XR) (e : Dim → Nat) :
    s.wsr.get e = wsrRad (tantan (s.latitude.get e) (s.decDeg.get e)) := rfl

theorem wsrRad_fin (x : ℝ) : (|x| ≤ 1 → wsrRad (XR.fin x) = .fin (arccos x)) ∧
    (1 < |x| → wsrRad (XR.fin x) = .nan) := by
  have h1 : ∀ a b : ℝ, ∀ y : XR, (a ≤ b → Num.whereLe (XR.fin a) (XR.fin b) y Num.nan = y) ∧
      (b < a → Num.whereLe (XR.fin a) (XR.fin b) y Num.nan = XR.nan) := by
    intro a b y
    constructor
    · intro h
      show (if XR.cmp (· ≤ ·) (XR.fin a) (XR.fin b) = true then y else XR.nan) = _
      rw [if_pos]; simp only [XR.cmp, decide_eq_true_eq]; exact h
    · intro h
      show (if XR.cmp (· ≤ ·) (XR.fin a) (XR.fin b) = true then y else XR.nan) = _
      rw [if_neg]; simp only [XR.cmp, decide_eq_true_eq]; exact not_le.2 h
  unfold wsrRad
  rw [XR.one_fin, XR.neg_fin]
  constructor
  · intro h
    obtain ⟨a, b⟩ := abs_le.1 h
    rw [(h1 x 1 _).1 b, (h1 (-1) x _).1 a, XR.arccos_fin ⟨a, b⟩]
  · intro h
    rcases lt_abs.1 h with a | a
    · rw [(h1 x 1 _).2 a]
      by_cases hb : -1 ≤ x
      · rw [(h1 (-1) x _).1 hb]; rfl
      · rw [(h1 (-1) x _).2 (not_le.1 hb)]; rfl
    · rw [(h1 (-1) x _).2 (by linarith)]; rfl

theorem tantan_fin (φ d : ℝ) : tantan (XR.fin φ) (XR.fin d) = .fin (-rtan (rad d) * rtan (rad φ)) := by
  unfold tantan
  xr
  rfl

/-- the angle at a latitude and declination away from the poles -/
theorem wsr_fin {s : Sunpos XR} {e : Dim → Nat} {φ d : ℝ} (hlat : s.latitude.get e = .fin φ)
    (hdec : s.decDeg.get e = .fin d) (hφ : |φ| < 90) (hd : |d| < 90) :
    (|tan (rad φ) * tan (rad d)| ≤ 1 → s.wsr.get e = .fin (arccos (-(tan (rad φ) * tan (rad d))))) ∧
    (1 < |tan (rad φ) * tan (rad d)| → s.wsr.get e = .nan) := by
  rw [wsr_get, hlat, hdec, tantan_fin, (rtan_rad hφ).1, (rtan_rad hd).1]
  have : -tan (rad d) * tan (rad φ) = -(tan (rad φ) * tan (rad d)) := by ring
  rw [this, ← abs_neg]
  exact wsrRad_fin _

/-- A sun of declination `δ` is on the horizon of latitude `φ` when its hour angle is `±ω`
(radians): the vertical component of its direction is zero. -/
def OnHorizon (φ δ ω : ℝ) : Prop := sin φ * sin δ + cos φ * cos δ * cos ω = 0

theorem horizon_iff {φ δ ω : ℝ} (h1 : 0 < cos φ) (h2 : 0 < cos δ) :
    OnHorizon φ δ ω ↔ cos ω = -(tan φ * tan δ) := by
  unfold OnHorizon
  rw [tan_eq_sin_div_cos, tan_eq_sin_div_cos]
  constructor
  · intro h; field_simp; linarith
  · intro h; rw [h]; field_simp; ring

/-- the values of `sunrise('rad')` and `sunrise('deg')` at a cell -/
theorem sunrise_units (w : World XR) (s : Sunpos XR) : ∃ R D, s.sunrise w "rad" = .ok (.angle R) ∧
    s.sunrise w "deg" = .ok (.angle D) ∧ ∀ e, (∀ ω, R.get e = .fin ω ↔ s.wsr.get e = .fin ω) ∧
      (R.get e = .nan ↔ s.wsr.get e = .nan) ∧
      (∀ ω, s.wsr.get e = .fin ω → D.get e = .fin (ω * (180 / π))) ∧
      (s.wsr.get e = .nan → D.get e = .nan) := by
  refine ⟨s.wsr, degrees s.wsr, rfl, rfl, fun e => ⟨fun _ => Iff.rfl, Iff.rfl, ?_, ?_⟩⟩
  · intro ω h
    rw [degrees_get, h, XR.degrees_fin]; rfl
  · intro h
    rw [degrees_get, h]; rfl

/-- C25: for a latitude `φ` strictly between the poles and a declination `d` (degrees):
`sunrise('rad')` and `sunrise('deg')` are numbers exactly when `|tan φ tan d| ≤ 1`, and NaN otherwise;
the angle `ω` lies between 0 and 180 degrees, is the angle of `[0, π]` at which the sun is on the
horizon, and is 90 degrees on the equator. -/
theorem C25_sunrise_angle (w : World XR) (s : Sunpos XR) {e : Dim → Nat} {φ d : ℝ}
    (hlat : s.latitude.get e = .fin φ) (hdec : s.decDeg.get e = .fin d)
    (hφ : |φ| < 90) (hd : |d| < 90) :
    ∃ R D, s.sunrise w "rad" = .ok (.angle R) ∧ s.sunrise w "deg" = .ok (.angle D) ∧
      (1 < |tan (rad φ) * tan (rad d)| → R.get e = .nan ∧ D.get e = .nan ∧
        ∀ ω, ¬ OnHorizon (rad φ) (rad d) ω) ∧
      (|tan (rad φ) * tan (rad d)| ≤ 1 → ∃ ωd, D.get e = .fin ωd ∧ R.get e = .fin (rad ωd) ∧
        0 ≤ ωd ∧ ωd ≤ 180 ∧
        (∀ ω, 0 ≤ ω → ω ≤ π → (OnHorizon (rad φ) (rad d) ω ↔ ω = rad ωd)) ∧
        (φ = 0 → ωd = 90)) := by
  obtain ⟨R, D, hR, hD, hg⟩ := sunrise_units w s
  obtain ⟨g1, g2, g3, g4⟩ := hg e
  obtain ⟨h1, h2⟩ := wsr_fin hlat hdec hφ hd
  have c1 := (rtan_rad hφ).2
  have c2 := (rtan_rad hd).2
  refine ⟨R, D, hR, hD, ?_, ?_⟩
  · intro h
    refine ⟨g2.2 (h2 h), g4 (h2 h), fun ω hω => ?_⟩
    rw [horizon_iff c1 c2] at hω
    have := abs_cos_le_one ω
    rw [hω, abs_neg] at this
    linarith
  · intro h
    have hw := h1 h
    have ha := abs_le.1 h
    have hp := pi_pos
    refine ⟨_, g3 _ hw, ?_, ?_, ?_, ?_, ?_⟩
    · rw [rad_deg]; exact (g1 _).2 hw
    · have := arccos_nonneg (-(tan (rad φ) * tan (rad d))); positivity
    · exact (deg_mem ⟨arccos_nonneg _, arccos_le_pi _⟩).2
    · intro ω h0 hpi
      rw [rad_deg, horizon_iff c1 c2]
      constructor
      · intro hc; rw [← hc, arccos_cos h0 hpi]
      · rintro rfl
        rw [cos_arccos (by linarith [ha.2]) (by linarith [ha.1])]
    · rintro rfl
      have : rad 0 = 0 := by unfold rad; ring
      rw [this, tan_zero, zero_mul, neg_zero, arccos_zero]
      field_simp; norm_num

/-- C25 at the poles: there is no sunrise angle unless the declination vanishes to within 6.2e-17
(the reciprocal of the double `tan(radians(90))`). -/
theorem C25_pole (w : World XR) (s : Sunpos XR) {e : Dim → Nat} {φ d : ℝ}
    (hlat : s.latitude.get e = .fin φ) (hdec : s.decDeg.get e = .fin d)
    (hφ : φ = 90 ∨ φ = -90) (hd : |d| < 90) (hd' : 6.2e-17 ≤ |tan (rad d)|) :
    ∃ R D, s.sunrise w "rad" = .ok (.angle R) ∧ s.sunrise w "deg" = .ok (.angle D) ∧
      R.get e = .nan ∧ D.get e = .nan := by
  obtain ⟨R, D, hR, hD, hg⟩ := sunrise_units w s
  obtain ⟨g1, g2, g3, g4⟩ := hg e
  suffices s.wsr.get e = .nan from ⟨R, D, hR, hD, g2.2 this, g4 this⟩
  rw [wsr_get, hlat, hdec, tantan_fin, (rtan_rad hd).1]
  refine (wsrRad_fin _).2 ?_
  have hb : |rtan (rad φ)| = 16331239353195370 := by
    unfold rtan
    rcases hφ with rfl | rfl
    · have : rad 90 = π / 2 := by unfold rad; ring
      rw [this, if_pos cos_pi_div_two, sin_pi_div_two, if_pos one_pos]; norm_num
    · have : rad (-90) = -(π / 2) := by unfold rad; ring
      rw [this, if_pos (by rw [cos_neg, cos_pi_div_two]), sin_neg, sin_pi_div_two,
        if_neg (by norm_num)]; norm_num
  rw [abs_mul, abs_neg, hb]
  norm_num at hd' ⊢
  linarith

/-! ### C26: daylight length -/

theorem daylight_get (w : World XR) (s : Sunpos XR) : ∃ D, s.daylightLength w = .ok D ∧ ∀ e,
    (∀ ω, s.wsr.get e = .fin ω → D.get e = .fin (2 / 15 * (ω * (180 / π)))) ∧
    (s.wsr.get e = .nan → D.get e = .nan) := by
  refine ⟨_, rfl, fun e => ⟨?_, ?_⟩⟩
  · intro ω h
    show (2.0 / 15.0 : XR) * degrees (s.wsr.get e) = _
    rw [h]; xr; rw [XR.fin_inj]; norm_num; rfl
  · intro h
    show (2.0 / 15.0 : XR) * degrees (s.wsr.get e) = _
    rw [h, XR.sci_fin, XR.sci_fin, XR.div_fin (by norm_num)]; rfl

/-- daylight length from the sunrise angle -/
theorem daylight_fin (w : World XR) (s : Sunpos XR) {e : Dim → Nat} {φ d : ℝ}
    (hlat : s.latitude.get e = .fin φ) (hdec : s.decDeg.get e = .fin d) (hφ : |φ| < 90) (hd : |d| < 90) :
    ∃ D, s.daylightLength w = .ok D ∧
      (|tan (rad φ) * tan (rad d)| ≤ 1 →
        D.get e = .fin (24 / π * arccos (-(tan (rad φ) * tan (rad d))))) ∧
      (1 < |tan (rad φ) * tan (rad d)| → D.get e = .nan) := by
  obtain ⟨D, hD, hg⟩ := daylight_get w s
  obtain ⟨h1, h2⟩ := wsr_fin hlat hdec hφ hd
  refine ⟨D, hD, fun h => ?_, fun h => (hg e).2 (h2 h)⟩
  rw [(hg e).1 _ (h1 h), XR.fin_inj]; ring

/-- C26: the daylight length is NaN or between 0 and 24 hours, at every cell of every object. -/
theorem C26_range (w : World XR) (s : Sunpos XR) {D : DA XR} (h : s.daylightLength w = .ok D)
    {e : Dim → Nat} {v : ℝ} (hv : D.get e = .fin v) : 0 ≤ v ∧ v ≤ 24 := by
  obtain ⟨D', hD, hg⟩ := daylight_get w s
  rw [h] at hD
  obtain rfl := Except.ok.inj hD
  cases hw : s.wsr.get e with
  | nan => rw [(hg e).2 hw] at hv; cases hv
  | fin ω =>
    rw [(hg e).1 _ hw, XR.fin_inj] at hv
    have hω : 0 ≤ ω ∧ ω ≤ π := by
      rw [wsr_get] at hw
      cases ht : tantan (s.latitude.get e) (s.decDeg.get e) with
      | nan => rw [ht] at hw; cases hw
      | fin x =>
        rw [ht] at hw
        rcases le_or_gt |x| 1 with hx | hx
        · rw [(wsrRad_fin x).1 hx, XR.fin_inj] at hw
          rw [← hw]; exact ⟨arccos_nonneg _, arccos_le_pi _⟩
        · rw [(wsrRad_fin x).2 hx] at hw; cases hw
    have := deg_mem hω
    rw [← hv]
    constructor <;> linarith [this.1, this.2]

/-- C26: twelve hours on the equator. -/
theorem C26_equator (w : World XR) (s : Sunpos XR) {e : Dim → Nat} {d : ℝ}
    (hlat : s.latitude.get e = .fin 0) (hdec : s.decDeg.get e = .fin d) (hd : |d| < 90) :
    ∃ D, s.daylightLength w = .ok D ∧ D.get e = .fin 12 := by
  obtain ⟨D, hD, h1, -⟩ := daylight_fin w s hlat hdec (by norm_num) hd
  refine ⟨D, hD, ?_⟩
  have : rad 0 = 0 := by unfold rad; ring
  rw [this, tan_zero, zero_mul, abs_zero] at h1
  rw [h1 (by norm_num), neg_zero, arccos_zero, XR.fin_inj]
  field_simp; norm_num

/-- C26: under the same sun, the daylight lengths at opposite latitudes are numbers at the same
places and add up to 24 hours. -/
theorem C26_hemispheres (w w' : World XR) (s s' : Sunpos XR) {e e' : Dim → Nat} {φ d : ℝ}
    (hlat : s.latitude.get e = .fin φ) (hdec : s.decDeg.get e = .fin d)
    (hlat' : s'.latitude.get e' = .fin (-φ)) (hdec' : s'.decDeg.get e' = .fin d)
    (hφ : |φ| < 90) (hd : |d| < 90) :
    ∃ D D', s.daylightLength w = .ok D ∧ s'.daylightLength w' = .ok D' ∧
      ((∃ v v', D.get e = .fin v ∧ D'.get e' = .fin v' ∧ v + v' = 24) ∨
       (D.get e = .nan ∧ D'.get e' = .nan)) := by
  obtain ⟨D, hD, h1, h2⟩ := daylight_fin w s hlat hdec hφ hd
  obtain ⟨D', hD', h1', h2'⟩ := daylight_fin w' s' hlat' hdec' (by rwa [abs_neg]) hd
  have hr : rad (-φ) = -rad φ := by unfold rad; ring
  rw [hr, tan_neg, neg_mul, neg_neg, abs_neg] at h1'
  rw [hr, tan_neg, neg_mul, abs_neg] at h2'
  refine ⟨D, D', hD, hD', ?_⟩
  rcases le_or_gt |tan (rad φ) * tan (rad d)| 1 with h | h
  · refine .inl ⟨_, _, h1 h, h1' h, ?_⟩
    rw [arccos_neg]
    have := pi_ne_zero
    field_simp; ring
  · exact .inr ⟨h2 h, h2' h⟩

/-- C26: under the same northern sun the day is longer further north. -/
theorem C26_monotone (w w' : World XR) (s s' : Sunpos XR) {e e' : Dim → Nat} {φ φ' d : ℝ}
    (hlat : s.latitude.get e = .fin φ) (hdec : s.decDeg.get e = .fin d)
    (hlat' : s'.latitude.get e' = .fin φ') (hdec' : s'.decDeg.get e' = .fin d)
    (hφ : |φ| < 90) (hφ' : |φ'| < 90) (hd0 : 0 < d) (hd : d < 90) (hle : φ < φ') :
    ∃ D D', s.daylightLength w = .ok D ∧ s'.daylightLength w' = .ok D' ∧
      ∀ v v', D.get e = .fin v → D'.get e' = .fin v' → v < v' := by
  have hd' : |d| < 90 := by rw [abs_of_pos hd0]; exact hd
  obtain ⟨D, hD, h1, h2⟩ := daylight_fin w s hlat hdec hφ hd'
  obtain ⟨D', hD', h1', h2'⟩ := daylight_fin w' s' hlat' hdec' hφ' hd'
  refine ⟨D, D', hD, hD', fun v v' hv hv' => ?_⟩
  have a1 : |tan (rad φ) * tan (rad d)| ≤ 1 := by
    by_contra hc; rw [h2 (not_le.1 hc)] at hv; cases hv
  have a2 : |tan (rad φ') * tan (rad d)| ≤ 1 := by
    by_contra hc; rw [h2' (not_le.1 hc)] at hv'; cases hv'
  rw [h1 a1, XR.fin_inj] at hv
  rw [h1' a2, XR.fin_inj] at hv'
  rw [← hv, ← hv']
  have hp := pi_pos
  have b := abs_lt.1 hφ
  have b' := abs_lt.1 hφ'
  have t1 : 0 < tan (rad d) := tan_pos_of_pos_of_lt_pi_div_two (by unfold rad; positivity)
    (by unfold rad; nlinarith)
  have t2 : tan (rad φ) < tan (rad φ') := tan_lt_tan_of_lt_of_lt_pi_div_two
    (by unfold rad; nlinarith) (by unfold rad; nlinarith) (by unfold rad; nlinarith)
  have t3 : tan (rad φ) * tan (rad d) < tan (rad φ') * tan (rad d) := mul_lt_mul_of_pos_right t2 t1
  have t4 := arccos_lt_arccos (x := -(tan (rad φ') * tan (rad d))) (y := -(tan (rad φ) * tan (rad d)))
    (by linarith [(abs_le.1 a2).2]) (by linarith) (by linarith [(abs_le.1 a1).1])
  exact mul_lt_mul_of_pos_left t4 (by positivity)

/-! ### C27: units of sunset -/

/-- the time units -/
def TimeUnits : List String := ["tst", "utc", "local"]

/-- C27, in every arithmetic and for every object: sunset in degrees (the default) or radians is an
UnboundLocalError; in a time unit both methods return times; in any other unit both are
AssertionErrors. -/
theorem C27_sunset {F : Type} [Scalar F] (w : World F) (s : Sunpos F) :
    s.sunset w "deg" = .error .unboundLocalError ∧ s.sunset w "rad" = .error .unboundLocalError ∧
    (∀ u ∈ TimeUnits, ∃ R S, s.sunrise w u = .ok (.time R) ∧ s.sunset w u = .ok (.time S)) ∧
    (∃ R D, s.sunrise w "rad" = .ok (.angle R) ∧ s.sunrise w "deg" = .ok (.angle D)) ∧
    ∀ u, u ∉ TimeUnits → u ≠ "deg" → u ≠ "rad" →
      s.sunrise w u = .error .assertionError ∧ s.sunset w u = .error .assertionError := by
  refine ⟨rfl, rfl, ?_, ⟨_, _, rfl, rfl⟩, ?_⟩
  · intro u hu
    simp only [TimeUnits, List.mem_cons, List.not_mem_nil, or_false] at hu
    rcases hu with rfl | rfl | rfl <;> exact ⟨_, _, rfl, rfl⟩
  · intro u hu h1 h2
    simp only [TimeUnits, List.mem_cons, List.not_mem_nil, or_false, not_or] at hu
    obtain ⟨h3, h4, h5⟩ := hu
    constructor
    · unfold Sunpos.sunrise
      rw [if_neg h1, if_neg h2, if_neg h3, if_neg h4, if_neg h5]
    · unfold Sunpos.sunset
      rw [if_neg (by simp [h3, h4, h5]), if_neg (by simp [h1, h2])]

/-! ### C30: true solar time -/

theorem rtrunc_near (x : ℝ) : |(rtrunc x : ℝ) - x| < 1 := by
  unfold rtrunc
  rw [abs_lt]
  split_ifs with h
  · have := Int.floor_le x; have := Int.lt_floor_add_one x; constructor <;> linarith
  · have := Int.le_ceil x; have := Int.ceil_lt_add_one x; constructor <;> linarith

theorem rtrunc_mono {x y : ℝ} (h : x ≤ y) : rtrunc x ≤ rtrunc y := by
  unfold rtrunc
  split_ifs with h1 h2 h2
  · exact Int.floor_mono h
  · exact absurd (h1.trans h) h2
  · push Not at h1
    have a : ⌈x⌉ ≤ 0 := by rw [Int.ceil_le]; push_cast; exact h1.le
    have b : 0 ≤ ⌊y⌋ := Int.floor_nonneg.2 h2
    omega
  · exact Int.ceil_mono h

theorem rtrunc_nonneg {x : ℝ} (h : 0 ≤ x) : rtrunc x = ⌊x⌋ := if_pos h

/-- nanoseconds per minute and per hour, as the code's `60*1e9` and `3600*1e9` -/
theorem minToNs_fin (x : ℝ) : minToNs (XR.fin x) = .fin (x * 60e9) := by
  unfold minToNs; xr; rw [XR.fin_inj]; norm_num; ring
theorem hoursToNs_fin (x : ℝ) : hoursToNs (XR.fin x) = .fin (x * 3600e9) := by
  unfold hoursToNs; xr; rw [XR.fin_inj]; norm_num; ring
theorem deltaMin_fin (x l : ℝ) : deltaMin (XR.fin x) (XR.fin l) = .fin (x + 4 * l) := by
  unfold deltaMin; xr

theorem tst_get (w : World XR) (s : Sunpos XR) (e : Dim → Nat) :
    (s.trueSolarTime w).get e = Scalar.toInt (stampFloat w (stampAt s.timesUtc (e .time))
      + minToNs (deltaMin (s.eot.get e) (s.longitude.get e))) := rfl

/-- C30: where times_utc is the instant `n`, the equation of time `x` minutes and the longitude `l`
degrees, true_solar_time is the instant `n + (x + 4 l)` minutes truncated to a whole number of
nanoseconds. -/
theorem C30_tst (w : World XR) (s : Sunpos XR) {e : Dim → Nat} {n : Int} {x l : ℝ}
    (hn : stampAt s.timesUtc (e .time) = some n) (hx : s.eot.get e = .fin x)
    (hl : s.longitude.get e = .fin l) :
    ∃ τ : Int, (s.trueSolarTime w).get e = some τ ∧ |(τ : ℝ) - (n + (x + 4 * l) * 60e9)| < 1 ∧
      τ = rtrunc (n + (x + 4 * l) * 60e9) := by
  refine ⟨_, ?_, rtrunc_near _, rfl⟩
  rw [tst_get, hn, hx, hl, deltaMin_fin, minToNs_fin]
  rfl

/-- C30: where the equation of time or the longitude is NaN, true_solar_time is NaT. -/
theorem C30_nat (w : World XR) (s : Sunpos XR) {e : Dim → Nat}
    (h : s.eot.get e = .nan ∨ s.longitude.get e = .nan) : (s.trueSolarTime w).get e = none := by
  rw [tst_get]
  have : minToNs (deltaMin (s.eot.get e) (s.longitude.get e)) = .nan := by
    rcases h with h | h
    · rw [h]; unfold deltaMin minToNs; rfl
    · rw [h]; cases s.eot.get e <;> rfl
  rw [this]
  cases stampFloat w (stampAt s.timesUtc (e .time)) <;> rfl

/-- C30 for calls with naive times (or in any zone for which times_utc is the instant): true_solar_time
is NaT exactly where the time is NaT or the longitude is NaN. -/
theorem C30_nat_iff {uc : UseCase} {w : World XR} {times : Times} {latitude longitude : Coord XR}
    {alg eng : String} {refr : PyVal} {s : Sunpos XR} {e : Dim → Nat}
    (h : call uc w times latitude longitude alg refr eng = .ok s) (htz : times.tz = none)
    (he : e .time < times.stamps.length)
    (hrange : ∀ t, stampAt times.stamps (e .time) = some t → |t| < 2 ^ 63) :
    (s.trueSolarTime w).get e = none ↔
      stampAt times.stamps (e .time) = none ∨ s.longitude.get e = .nan := by
  have hu := (C12_naive h htz).1
  obtain ⟨lat, lon, b, utc, ha, -, hr⟩ := call_inv h
  constructor
  · intro hn
    by_contra hc
    push Not at hc
    obtain ⟨t, ht⟩ := Option.ne_none_iff_exists'.1 hc.1
    obtain ⟨x, hx, -⟩ := C19_eot h ht (hrange t ht)
    cases hl : s.longitude.get e with
    | nan => exact hc.2 hl
    | fin l =>
      obtain ⟨τ, hτ, -⟩ := C30_tst w s (e := e) (n := t) (by rw [hu]; exact ht) hx hl
      rw [hτ] at hn; cases hn
  · rintro (hn | hn)
    · refine C30_nat w s (.inl ?_)
      have := (hr.time e he (XR.fin 0) (XR.fin 0)).2.1
      unfold stampAt at hn
      rw [hn] at this
      exact this
    · exact C30_nat w s (.inr hn)

/-- C30: true solar time does not decrease towards the east, and increases by 4 minutes per degree
(up to truncation). -/
theorem C30_longitude (w : World XR) (s s' : Sunpos XR) {e e' : Dim → Nat} {n : Int} {x l l' : ℝ}
    (hn : stampAt s.timesUtc (e .time) = some n) (hx : s.eot.get e = .fin x)
    (hl : s.longitude.get e = .fin l)
    (hn' : stampAt s'.timesUtc (e' .time) = some n) (hx' : s'.eot.get e' = .fin x)
    (hl' : s'.longitude.get e' = .fin l') (hle : l ≤ l') :
    ∃ τ τ', (s.trueSolarTime w).get e = some τ ∧ (s'.trueSolarTime w).get e' = some τ' ∧ τ ≤ τ' ∧
      |((τ' - τ : Int) : ℝ) - (l' - l) * 240e9| < 2 := by
  obtain ⟨τ, h1, h2, h3⟩ := C30_tst w s hn hx hl
  obtain ⟨τ', h1', h2', h3'⟩ := C30_tst w s' hn' hx' hl'
  refine ⟨τ, τ', h1, h1', ?_, ?_⟩
  · rw [h3, h3']
    apply rtrunc_mono
    have : (x + 4 * l) * 60e9 ≤ (x + 4 * l') * 60e9 := by gcongr
    linarith
  · rw [abs_lt] at *
    push_cast
    constructor <;> norm_num at * <;> nlinarith [h2.1, h2.2, h2'.1, h2'.2]

/-! ### C29: sunrise and sunset in true solar time -/

theorem wsrHours_fin (ω : ℝ) : hoursToNs (wsrHours (XR.fin ω)) = .fin ((12 - ω * (180 / π) / 15) * 3600e9) := by
  have : wsrHours (XR.fin ω) = .fin (12 - ω * (180 / π) / 15) := by
    unfold wsrHours; xr; rw [XR.fin_inj, degrees_real]; norm_num
  rw [this, hoursToNs_fin]

theorem sunriseTst_get (w : World XR) (s : Sunpos XR) (e : Dim → Nat) :
    (s.sunriseTst w).get e = tadd (Scalar.toInt (hoursToNs (wsrHours (s.wsr.get e))))
      (floorDay ((s.trueSolarTime w).get e)) := rfl

theorem wsr_mem {s : Sunpos XR} {e : Dim → Nat} {ω : ℝ} (hw : s.wsr.get e = .fin ω) : 0 ≤ ω ∧ ω ≤ π := by
  rw [wsr_get] at hw
  cases ht : tantan (s.latitude.get e) (s.decDeg.get e) with
  | nan => rw [ht] at hw; cases hw
  | fin x =>
    rw [ht] at hw
    rcases le_or_gt |x| 1 with hx | hx
    · rw [(wsrRad_fin x).1 hx, XR.fin_inj] at hw
      rw [← hw]; exact ⟨arccos_nonneg _, arccos_le_pi _⟩
    · rw [(wsrRad_fin x).2 hx] at hw; cases hw

theorem sunset_time (w : World XR) (s : Sunpos XR) {u : String} (hu : u ∈ TimeUnits) :
    ∃ R S D, s.sunrise w u = .ok (.time R) ∧ s.sunset w u = .ok (.time S) ∧
      s.daylightLength w = .ok D ∧ ∀ e, S.get e = tadd (R.get e) (Scalar.toInt (hoursToNs (D.get e))) := by
  simp only [TimeUnits, List.mem_cons, List.not_mem_nil, or_false] at hu
  rcases hu with rfl | rfl | rfl <;> exact ⟨_, _, _, rfl, rfl, rfl, fun e => rfl⟩

/-- floors about noon -/
theorem floor_noon {y : ℝ} (N : ℤ) : -2 ≤ 2 * ⌊(N : ℝ) - y⌋ + ⌊2 * y⌋ - 2 * N ∧
    2 * ⌊(N : ℝ) - y⌋ + ⌊2 * y⌋ - 2 * N ≤ 0 := by
  have a := Int.floor_le ((N : ℝ) - y)
  have a' := Int.lt_floor_add_one ((N : ℝ) - y)
  have b := Int.floor_le (2 * y)
  have b' := Int.lt_floor_add_one (2 * y)
  have h1 : ((2 * ⌊(N : ℝ) - y⌋ + ⌊2 * y⌋ - 2 * N : ℤ) : ℝ) ≤ 0 := by push_cast; linarith
  have h2 : (-3 : ℝ) < ((2 * ⌊(N : ℝ) - y⌋ + ⌊2 * y⌋ - 2 * N : ℤ) : ℝ) := by push_cast; linarith
  have h1' : 2 * ⌊(N : ℝ) - y⌋ + ⌊2 * y⌋ - 2 * N ≤ 0 := by exact_mod_cast h1
  have h2' : -3 < 2 * ⌊(N : ℝ) - y⌋ + ⌊2 * y⌋ - 2 * N := by exact_mod_cast h2
  omega

/-- C29: where true_solar_time is the instant `τ` and the daylight length a number, there is the
midnight `m` that starts the day of `τ`, sunrise('tst') is an instant between `m` and noon,
sunset('tst') an instant between noon (less a nanosecond) and the next midnight, and the two are
symmetric about noon up to 2 ns. -/
theorem C29_symmetric (w : World XR) (s : Sunpos XR) {R S D : _}
    (hR : s.sunrise w "tst" = .ok (.time R)) (hS : s.sunset w "tst" = .ok (.time S))
    (hD : s.daylightLength w = .ok D) {e : Dim → Nat} {τ : Int} {v : ℝ}
    (hτ : (s.trueSolarTime w).get e = some τ) (hv : D.get e = .fin v) :
    ∃ m r q : Int, m % 86400000000000 = 0 ∧ m ≤ τ ∧ τ < m + 86400000000000 ∧
      R.get e = some r ∧ S.get e = some q ∧
      m ≤ r ∧ r ≤ m + 43200000000000 ∧ m + 43200000000000 - 1 ≤ q ∧ q ≤ m + 86400000000000 ∧
      -2 ≤ (r - (m + 43200000000000)) + (q - (m + 43200000000000)) ∧
      (r - (m + 43200000000000)) + (q - (m + 43200000000000)) ≤ 0 ∧
      |(((m + 43200000000000 - r : Int)) : ℝ) - v / 2 * 3600e9| ≤ 1 := by
  obtain ⟨R', S', D', hR', hS', hD', hg⟩ := sunset_time w s (u := "tst") (by decide)
  rw [hR] at hR'; rw [hS] at hS'; rw [hD] at hD'
  obtain rfl : R = R' := by cases hR'; rfl
  obtain rfl : S = S' := by cases hS'; rfl
  obtain rfl := Except.ok.inj hD'
  have hRg : ∀ e, R.get e = (s.sunriseTst w).get e := by
    have : s.sunrise w "tst" = .ok (.time (s.sunriseTst w)) := rfl
    rw [this] at hR; cases hR; intro e; rfl
  obtain ⟨D', hD', hdl⟩ := daylight_get w s
  rw [hD] at hD'
  obtain rfl := Except.ok.inj hD'
  cases hw : s.wsr.get e with
  | nan => rw [(hdl e).2 hw] at hv; cases hv
  | fin ω =>
    have hvω := (hdl e).1 _ hw
    rw [hv, XR.fin_inj] at hvω
    have hω := deg_mem (wsr_mem hw)
    obtain ⟨d, hd⟩ : ∃ d, d = ω * (180 / π) := ⟨_, rfl⟩
    rw [← hd] at hω hvω
    have hr : R.get e = some (rtrunc ((12 - d / 15) * 3600e9) + τ / dayNs * dayNs) := by
      rw [hRg, sunriseTst_get, hw, hτ, wsrHours_fin, ← hd]; rfl
    have hq : S.get e = some (rtrunc ((12 - d / 15) * 3600e9) + τ / dayNs * dayNs + rtrunc (v * 3600e9)) := by
      rw [hg, hr, hv, hoursToNs_fin]; rfl
    have hN : ∃ y : ℝ, y = d / 15 * 3600e9 := ⟨_, rfl⟩
    obtain ⟨y, hy⟩ := hN
    have e1 : (12 - d / 15) * 3600e9 = ((43200000000000 : ℤ) : ℝ) - y := by rw [hy]; norm_num; ring
    have e2 : v * 3600e9 = 2 * y := by rw [hvω, hy]; ring
    have y0 : 0 ≤ y := by rw [hy]; have := hω.1; positivity
    have y1 : y ≤ ((43200000000000 : ℤ) : ℝ) := by
      rw [hy]; have := hω.2; norm_num; linarith
    rw [e1, rtrunc_nonneg (by linarith)] at hr hq
    rw [e2, rtrunc_nonneg (by linarith)] at hq
    obtain ⟨f1, f2⟩ := floor_noon (y := y) 43200000000000
    have g1 : 0 ≤ ⌊((43200000000000 : ℤ) : ℝ) - y⌋ := Int.floor_nonneg.2 (by linarith)
    have g2 : ⌊((43200000000000 : ℤ) : ℝ) - y⌋ ≤ 43200000000000 := by
      have := Int.floor_mono (show ((43200000000000 : ℤ) : ℝ) - y ≤ ((43200000000000 : ℤ) : ℝ) by linarith)
      rwa [Int.floor_intCast] at this
    have g3 := Int.floor_le (((43200000000000 : ℤ) : ℝ) - y)
    have g4 := Int.lt_floor_add_one (((43200000000000 : ℤ) : ℝ) - y)
    have k1 : ⌊2 * y⌋ + ⌊((43200000000000 : ℤ) : ℝ) - y⌋ ≥ 43200000000000 - 1 := by
      have b := Int.floor_le (2 * y)
      have b' := Int.lt_floor_add_one (2 * y)
      have : ((43200000000000 - 2 : ℤ) : ℝ) < ((⌊2 * y⌋ + ⌊((43200000000000 : ℤ) : ℝ) - y⌋ : ℤ) : ℝ) := by
        push_cast at *; linarith
      have : (43200000000000 - 2 : ℤ) < ⌊2 * y⌋ + ⌊((43200000000000 : ℤ) : ℝ) - y⌋ := by exact_mod_cast this
      omega
    refine ⟨τ / dayNs * dayNs, _, _, ?_, ?_, ?_, hr, hq, ?_, ?_, ?_, ?_, ?_, ?_, ?_⟩
    all_goals unfold dayNs
    any_goals omega
    rw [hvω] at *
    have e3 : 2 / 15 * d / 2 * 3600e9 = y := by rw [hy]; ring
    rw [e3, abs_le]
    push_cast at g3 g4 ⊢
    constructor <;> linarith

/-! ### C28: sunset minus sunrise -/

/-- C28: in each time unit, at every cell of every object: where the daylight length is NaN both
sunrise and sunset are NaT; where it is the number `v` and sunrise is the instant `r`, sunset is
`r` plus `v` hours truncated to nanoseconds, not before `r`; where sunrise is NaT so is sunset. -/
theorem C28_sunset_minus_sunrise (w : World XR) (s : Sunpos XR) {u : String} (hu : u ∈ TimeUnits)
    {R S D : _} (hR : s.sunrise w u = .ok (.time R)) (hS : s.sunset w u = .ok (.time S))
    (hD : s.daylightLength w = .ok D) (e : Dim → Nat) :
    (D.get e = .nan → R.get e = none ∧ S.get e = none) ∧
    (R.get e = none → S.get e = none) ∧
    ∀ v r, D.get e = .fin v → R.get e = some r →
      S.get e = some (r + ⌊v * 3600e9⌋) ∧ r ≤ r + ⌊v * 3600e9⌋ := by
  obtain ⟨R', S', D', hR', hS', hD', hg⟩ := sunset_time w s hu
  rw [hR] at hR'; rw [hS] at hS'; rw [hD] at hD'
  obtain rfl : R = R' := by cases hR'; rfl
  obtain rfl : S = S' := by cases hS'; rfl
  obtain rfl := Except.ok.inj hD'
  have hnone : R.get e = none → S.get e = none := by
    intro h; rw [hg, h]; rfl
  refine ⟨?_, hnone, ?_⟩
  · intro hn
    suffices R.get e = none from ⟨this, hnone this⟩
    obtain ⟨D', hD', hdl⟩ := daylight_get w s
    rw [hD] at hD'
    obtain rfl := Except.ok.inj hD'
    have hw : s.wsr.get e = .nan := by
      cases hw : s.wsr.get e with
      | nan => rfl
      | fin ω => rw [(hdl e).1 _ hw] at hn; cases hn
    have h1 : (s.sunriseTst w).get e = none := by
      rw [sunriseTst_get, hw]; rfl
    have h2 : (s.sunriseUtc w).get e = none := by
      show tsub ((s.sunriseTst w).get e) _ = none
      rw [h1]; rfl
    have h3 : (s.sunriseLocal w).get e = none := by
      show tadd ((s.sunriseUtc w).get e) _ = none
      rw [h2]; rfl
    simp only [TimeUnits, List.mem_cons, List.not_mem_nil, or_false] at hu
    rcases hu with rfl | rfl | rfl
    · have : s.sunrise w "tst" = .ok (.time (s.sunriseTst w)) := rfl
      rw [this] at hR; cases hR; exact h1
    · have : s.sunrise w "utc" = .ok (.time (s.sunriseUtc w)) := rfl
      rw [this] at hR; cases hR; exact h2
    · have : s.sunrise w "local" = .ok (.time (s.sunriseLocal w)) := rfl
      rw [this] at hR; cases hR; exact h3
  · intro v r hv hr
    have h0 := (C26_range w s hD hv).1
    have h1 : 0 ≤ v * 3600e9 := by positivity
    have h2 : 0 ≤ ⌊v * 3600e9⌋ := Int.floor_nonneg.2 h1
    refine ⟨?_, by omega⟩
    rw [hg, hr, hv, hoursToNs_fin, ← rtrunc_nonneg h1]; rfl

/-! ### C31: conversions -/

/-- C31: where the equation of time is `x` minutes and the longitude `l` degrees, sunrise('utc') is
sunrise('tst') less `x + 4 l` minutes, truncated to nanoseconds (NaT where sunrise('tst') is). -/
theorem C31_utc (w : World XR) (s : Sunpos XR) {T U : _}
    (hT : s.sunrise w "tst" = .ok (.time T)) (hU : s.sunrise w "utc" = .ok (.time U))
    {e : Dim → Nat} {x l : ℝ} (hx : s.eot.get e = .fin x) (hl : s.longitude.get e = .fin l) :
    (T.get e = none → U.get e = none) ∧ ∀ r, T.get e = some r →
      ∃ k : Int, U.get e = some (r - k) ∧ |(k : ℝ) - (x + 4 * l) * 60e9| < 1 := by
  have h1 : s.sunrise w "tst" = .ok (.time (s.sunriseTst w)) := rfl
  have h2 : s.sunrise w "utc" = .ok (.time (s.sunriseUtc w)) := rfl
  rw [h1] at hT; cases hT
  rw [h2] at hU; cases hU
  have h3 : (s.sunriseUtc w).get e = tsub ((s.sunriseTst w).get e)
      (Scalar.toInt (minToNs (deltaMin (s.eot.get e) (s.longitude.get e)))) := rfl
  rw [h3, hx, hl, deltaMin_fin, minToNs_fin]
  constructor
  · intro h; rw [h]; rfl
  · intro r hr
    rw [hr]
    exact ⟨_, rfl, rtrunc_near _⟩

/-- C31: sunrise('local') less sunrise('utc') is the wall-clock reading less times_utc, in every
arithmetic. -/
theorem C31_local {F : Type} [Scalar F] (w : World F) (s : Sunpos F) {U L : _}
    (hU : s.sunrise w "utc" = .ok (.time U)) (hL : s.sunrise w "local" = .ok (.time L))
    {e : Dim → Nat} {wall utc : Int} (hw : stampAt s.times (e .time) = some wall)
    (hu : stampAt s.timesUtc (e .time) = some utc) :
    L.get e = (U.get e).map (fun r => r + (wall - utc)) := by
  have h1 : s.sunrise w "local" = .ok (.time (s.sunriseLocal w)) := rfl
  have h2 : s.sunrise w "utc" = .ok (.time (s.sunriseUtc w)) := rfl
  rw [h1] at hL; cases hL
  rw [h2] at hU; cases hU
  have h3 : (s.sunriseLocal w).get e = tadd ((s.sunriseUtc w).get e)
      (tsub (stampAt s.times (e .time)) (stampAt s.timesUtc (e .time))) := rfl
  rw [h3, hw, hu]
  cases (s.sunriseUtc w).get e <;> rfl

/-- C31: for a call with times in a zone object without attribute `zone`, sunrise('local') is the same
as sunrise('utc') at every cell whose time is not NaT, whatever the UTC offset of the zone. -/
theorem C31_no_zone_attribute {F : Type} [Scalar F] {uc : UseCase} {w : World F} {times : Times}
    {latitude longitude : Coord F} {alg eng : String} {refr : PyVal} {s : Sunpos F} {z : Tz}
    (h : call uc w times latitude longitude alg refr eng = .ok s)
    (htz : times.tz = some z) (hz : z.zone = .absent) {U L : _}
    (hU : s.sunrise w "utc" = .ok (.time U)) (hL : s.sunrise w "local" = .ok (.time L))
    {e : Dim → Nat} {t : Int} (ht : stampAt times.stamps (e .time) = some t) :
    L.get e = U.get e := by
  have hu := (C12_no_zone_attribute h htz hz).1
  obtain ⟨lat, lon, b, utc, ha, -, hr⟩ := call_inv h
  have hw : s.times = times.stamps.map (Option.map (fun u => u + z.off u)) := by
    rw [hr.times_eq]; simp [Times.wall, htz]
  have hs : stampAt (times.stamps.map (Option.map (fun u => u + z.off u))) (e .time)
      = some (t + z.off t) := by
    unfold stampAt at ht ⊢
    rw [List.getElem?_map]
    cases h : times.stamps[e .time]? with
    | none => rw [h] at ht; simp at ht
    | some a => rw [h] at ht; simp at ht; simp [ht]
  rw [C31_local w s hU hL (wall := t + z.off t) (utc := t + z.off t) (by rw [hw]; exact hs)
    (by rw [hu]; exact hs), sub_self]
  cases U.get e <;> simp

/-- C31: for a call with times in a pytz zone in which the wall-clock reading is unambiguous,
sunrise('local') is sunrise('utc') plus the UTC offset at the time of the cell. -/
theorem C31_pytz {F : Type} [Scalar F] {uc : UseCase} {w : World F} {times : Times}
    {latitude longitude : Coord F} {alg eng : String} {refr : PyVal} {s : Sunpos F} {z : Tz}
    {name : String} {e : Dim → Nat} {t : Int}
    (h : call uc w times latitude longitude alg refr eng = .ok s)
    (htz : times.tz = some z) (hz : z.zone = .name name)
    (hutc : name = "UTC" → ∀ v, z.off v = 0) (hw : LocalizeSound w name z.off)
    (ht : stampAt times.stamps (e .time) = some t)
    (hamb : ∀ v, v + z.off v = t + z.off t → v = t) {U L : _}
    (hU : s.sunrise w "utc" = .ok (.time U)) (hL : s.sunrise w "local" = .ok (.time L)) :
    L.get e = (U.get e).map (fun r => r + z.off t) := by
  have hk : times.stamps[e .time]? = some (some t) := by
    unfold stampAt at ht
    cases h : times.stamps[e .time]? with
    | none => rw [h] at ht; simp at ht
    | some a => rw [h] at ht; simp at ht; simp [ht]
  have h1 := C12_pytz h htz hz hutc hw hk hamb
  obtain ⟨lat, lon, b, utc, ha, -, hr⟩ := call_inv h
  rw [C31_local w s hU hL (wall := t + z.off t) (utc := t)
    (by rw [hr.times_eq]; simp [stampAt, Times.wall, htz, hk]) (by simp [stampAt, h1])]
  congr 1
  funext r; ring

/-! ### C33: dimensions -/

/-- What we assume of pandas here: localisation keeps the number of times. -/
def KeepsLength {F : Type} (w : World F) : Prop :=
  ∀ name wall utc, w.localize name wall = .ok utc → utc.length = wall.length

theorem dims_core {F : Type} [Scalar F] {uc : UseCase} {w : World F} {times : Times}
    {latitude longitude : Coord F} {alg eng : String} {refr : PyVal} {s : Sunpos F}
    (h : call uc w times latitude longitude alg refr eng = .ok s) {lat lon : List F}
    (hlat : Holds latitude lat) (hlon : Holds longitude lon) :
    s.zenith.dims = documentedDims uc times.stamps.length lat.length lon.length ∧
    s.ecf.dims = [(.time, times.stamps.length)] ∧ s.eot.dims = [(.time, times.stamps.length)] ∧
    s.declination.dims = [(.time, times.stamps.length)] ∧
    s.latitude.dims = [(uc.latDim, lat.length)] ∧ s.longitude.dims = [(uc.lonDim, lon.length)] ∧
    s.times.length = times.stamps.length ∧ (KeepsLength w → s.timesUtc.length = times.stamps.length) ∧
    uc.lenOk times.stamps.length lat.length lon.length := by
  obtain ⟨h1, -, h3, h4, h5⟩ := C05_shape h hlat hlon
  obtain ⟨lat', lon', b', utc, ha', hu, hr⟩ := call_inv h
  rw [holds_flat, ha'.lat_eq] at hlat
  rw [holds_flat, ha'.lon_eq] at hlon
  obtain rfl := Option.some.inj hlat
  obtain rfl := Option.some.inj hlon
  have hwall : times.wall.length = times.stamps.length := by
    unfold Times.wall; cases times.tz <;> simp
  refine ⟨h1, h3, h4, h5, by rw [hr.latitude]; rfl, by rw [hr.longitude]; rfl, ?_, ?_, ha'.len⟩
  · rw [hr.times_eq, hwall]
  · intro hw
    rw [hr.timesUtc, ← hwall]
    unfold localizeTimes at hu
    split at hu
    · cases hu
    · cases hu; rfl
    · exact hw _ _ _ hu

/-- dimensions of angles that do not depend on the longitude -/
def angleDims (uc : UseCase) (K J : Nat) : List (Dim × Nat) :=
  match uc with
  | .sites => [(.time, K), (.location, J)]
  | .regularGrid => [(.time, K), (.latitude, J)]
  | .transect => [(.time, K)]
/-- dimensions of the true solar time -/
def tstDims (uc : UseCase) (K I : Nat) : List (Dim × Nat) :=
  match uc with
  | .sites => [(.time, K), (.location, I)]
  | .regularGrid => [(.time, K), (.longitude, I)]
  | .transect => [(.time, K)]
/-- dimensions of `incidence`: not the documented order -/
def incidenceDims (uc : UseCase) (K J I : Nat) : List (Dim × Nat) :=
  match uc with
  | .sites => [(.location, J), (.time, K)]
  | .regularGrid => [(.latitude, J), (.time, K), (.longitude, I)]
  | .transect => [(.time, K)]

theorem dimUnion_nil (a : List (Dim × Nat)) : dimUnion [] a = a := by simp [dimUnion]
theorem dimUnion_nil_right (a : List (Dim × Nat)) : dimUnion a [] = a := by simp [dimUnion]
theorem dimUnion_self (a : List (Dim × Nat)) : dimUnion a a = a := by
  unfold dimUnion
  have : a.filter (fun q => !(a.any (fun p => p.1 == q.1))) = [] := by
    rw [List.filter_eq_nil_iff]
    intro q hq
    simp only [Bool.not_eq_true', Bool.not_eq_false]
    rw [List.any_eq_true]
    exact ⟨q, hq, by simp⟩
  rw [this, List.append_nil]

theorem amOf_dims {F : Type} [Scalar F] {z r : DA F} (h : r.dims = z.dims) : (amOf z r).dims = z.dims := by
  show dimUnion [] (dimUnion [] (dimUnion (dimUnion z.dims []) (dimUnion r.dims []))) = _
  rw [h]; simp only [dimUnion_nil, dimUnion_nil_right, dimUnion_self]

theorem airmass_dims {F : Type} [Scalar F] {s : Sunpos F} {ds : List (Dim × Nat)}
    (hz : s.zenithDeg.dims = ds) (hc : s.cosz.dims = ds) (p : String) (A : DA F)
    (h : s.airmass p = .ok A) : A.dims = ds := by
  have key : ∀ r : DA F, r.dims = ds → (amOf s.zenithDeg r).dims = ds := by
    intro r hr; rw [amOf_dims (hr.trans hz.symm), hz]
  by_cases hp : p ∈ Parameterizations
  · simp only [Parameterizations, List.mem_cons, List.not_mem_nil, or_false] at hp
    rcases hp with rfl | rfl | rfl | rfl <;> cases h <;> apply key
    · show dimUnion s.cosz.dims (dimUnion [] (dimUnion (dimUnion [] (dimUnion [] s.zenithDeg.dims)) [])) = _
      rw [hz, hc]; simp only [dimUnion_nil, dimUnion_nil_right, dimUnion_self]
    · show dimUnion s.cosz.dims (dimUnion [] (dimUnion (dimUnion [] (dimUnion [] s.zenithDeg.dims)) [])) = _
      rw [hz, hc]; simp only [dimUnion_nil, dimUnion_nil_right, dimUnion_self]
    · show dimUnion s.cosz.dims (dimUnion (dimUnion [] (dimUnion s.zenithDeg.dims []))
        (dimUnion (dimUnion [] (dimUnion [] s.zenithDeg.dims)) [])) = _
      rw [hz, hc]; simp only [dimUnion_nil, dimUnion_nil_right, dimUnion_self]
    · show dimUnion s.cosz.dims (dimUnion (dimUnion [] (dimUnion s.zenithDeg.dims []))
        (dimUnion (dimUnion [] (dimUnion [] s.zenithDeg.dims)) [])) = _
      rw [hz, hc]; simp only [dimUnion_nil, dimUnion_nil_right, dimUnion_self]
  · rw [C23_unknown hp] at h; cases h

theorem eth_dims {F : Type} [Scalar F] {s : Sunpos F} {ds : List (Dim × Nat)}
    (hz : s.zenithDeg.dims = ds) (hc : s.cosz.dims = ds) (he : dimUnion s.ecf.dims ds = ds)
    (isc : F) (c : String) (E : DA F)
    (h : s.eth isc c = .ok E) : E.dims = ds := by
  have base : (ethOf (DA.scalar isc) s.ecf s.cosz).dims = ds := by
    show dimUnion (dimUnion [] s.ecf.dims) (dimUnion [] s.cosz.dims) = _
    rw [hc, dimUnion_nil, dimUnion_nil, he]
  have mul : ∀ a b : DA F, a.dims = ds → b.dims = ds → (a * b).dims = ds := by
    intro a b ha hb
    show dimUnion a.dims b.dims = _
    rw [ha, hb, dimUnion_self]
  by_cases h0 : c = "none"
  · subst h0; cases h
    show dimUnion (ethOf (DA.scalar isc) s.ecf s.cosz).dims [] = _
    rw [base, dimUnion_nil_right]
  by_cases hcc : c ∈ Corrections
  · simp only [Corrections, List.mem_cons, List.not_mem_nil, or_false] at hcc
    rcases hcc with rfl | rfl | rfl
    · unfold Sunpos.eth at h
      rw [if_neg (by decide), if_pos rfl] at h
      split at h
      · rename_i am ham
        have := airmass_dims hz hc _ _ ham
        cases h
        refine mul _ _ base ?_
        show dimUnion [] (dimUnion [] (dimUnion [] (dimUnion [] (dimUnion [] am.dims)))) = _
        rw [this]; simp only [dimUnion_nil]
      · cases h
    · cases h
      refine mul _ _ base ?_
      show dimUnion [] (dimUnion [] (dimUnion [] (dimUnion [] s.zenithDeg.dims))) = _
      rw [hz]; simp only [dimUnion_nil]
    · unfold Sunpos.eth at h
      rw [if_neg (by decide), if_neg (by decide), if_neg (by decide), if_pos rfl] at h
      split at h
      · rename_i am ham
        have := airmass_dims hz hc _ _ ham
        cases h
        refine mul _ _ base ?_
        show dimUnion [] (dimUnion [] (dimUnion (dimUnion [] am.dims)
          (dimUnion [] (dimUnion [] am.dims)))) = _
        rw [this]; simp only [dimUnion_nil, dimUnion_self]
      · cases h
  · rw [C22_unknown _ _ h0 hcc] at h; cases h

theorem coss_dims {F : Type} [Scalar F] (a b : F) (lat dec ha : DA F) :
    (coss (DA.scalar a) (DA.scalar b) lat dec ha).dims =
      dimUnion (dimUnion (dimUnion lat.dims dec.dims) (dimUnion (dimUnion lat.dims dec.dims) ha.dims))
        (dimUnion dec.dims ha.dims) := by
  have hadd : ∀ x y : DA F, (x + y).dims = dimUnion x.dims y.dims := fun _ _ => rfl
  have hsub : ∀ x y : DA F, (x - y).dims = dimUnion x.dims y.dims := fun _ _ => rfl
  have hmul : ∀ x y : DA F, (x * y).dims = dimUnion x.dims y.dims := fun _ _ => rfl
  have hsin : ∀ x : DA F, (Num.sin x).dims = x.dims := fun _ => rfl
  have hcos : ∀ x : DA F, (Num.cos x).dims = x.dims := fun _ => rfl
  have hrad : ∀ x : DA F, (radians x).dims = x.dims := by
    intro x
    show dimUnion x.dims [] = _
    exact dimUnion_nil_right _
  have hsc : ∀ x : F, (DA.scalar x).dims = [] := fun _ => rfl
  unfold coss
  simp only [hadd, hsub, hmul, hsin, hcos, hrad, hsc, dimUnion_nil, dimUnion_nil_right, dimUnion_self]

theorem dims_all {F : Type} [Scalar F] {uc : UseCase} {w : World F} {s : Sunpos F} {K J I : Nat}
    (z : s.zenith.dims = documentedDims uc K J I)
    (e1 : s.ecf.dims = [(.time, K)]) (e2 : s.eot.dims = [(.time, K)])
    (d : s.declination.dims = [(.time, K)])
    (la : s.latitude.dims = [(uc.latDim, J)]) (lo : s.longitude.dims = [(uc.lonDim, I)])
    (n1 : s.times.length = K) (n2 : s.timesUtc.length = K) (hlen : uc.lenOk K J I) :
    s.elevation.dims = documentedDims uc K J I ∧ s.cosz.dims = documentedDims uc K J I ∧
    (∀ p A, s.airmass p = .ok A → A.dims = documentedDims uc K J I) ∧
    (∀ isc c E, s.eth isc c = .ok E → E.dims = documentedDims uc K J I) ∧
    (∀ u R, s.sunrise w u = .ok (.time R) → R.dims = documentedDims uc K J I) ∧
    (∀ u S, s.sunset w u = .ok (.time S) → S.dims = documentedDims uc K J I) ∧
    (∀ u R, s.sunrise w u = .ok (.angle R) → R.dims = angleDims uc K J) ∧
    (∀ D, s.daylightLength w = .ok D → D.dims = angleDims uc K J) ∧
    (s.trueSolarTime w).dims = tstDims uc K I ∧
    ∀ slope saz, (s.incidence w slope saz).dims = incidenceDims uc K J I := by
  have tst : (s.trueSolarTime w).dims = tstDims uc K I := by
    show dimUnion [(Dim.time, s.timesUtc.length)] (dimUnion (dimUnion (dimUnion s.eot.dims
      (dimUnion [] s.longitude.dims)) []) []) = _
    rw [n2, e2, lo]
    cases uc <;> rfl
  have ws : s.wsr.dims = angleDims uc K J := by
    have h1 : s.decDeg.dims = [(.time, K)] := by
      show dimUnion s.declination.dims [] = _
      rw [d]; rfl
    have h2 : (tantan s.latitude s.decDeg).dims = angleDims uc K J := by
      show dimUnion (dimUnion s.decDeg.dims []) (dimUnion s.latitude.dims []) = _
      rw [h1, la]; cases uc <;> rfl
    show dimUnion (dimUnion [] (tantan s.latitude s.decDeg).dims)
      (dimUnion (dimUnion (dimUnion (tantan s.latitude s.decDeg).dims [])
        (dimUnion (tantan s.latitude s.decDeg).dims [])) []) = _
    rw [h2]; simp only [dimUnion_nil, dimUnion_nil_right, dimUnion_self]
  have wd : (degrees s.wsr).dims = angleDims uc K J := by
    show dimUnion s.wsr.dims [] = _
    rw [ws, dimUnion_nil_right]
  have dl : ∀ D, s.daylightLength w = .ok D → D.dims = angleDims uc K J := by
    intro D h
    cases h
    show dimUnion [] (degrees s.wsr).dims = _
    rw [wd, dimUnion_nil]
  have st : (s.sunriseTst w).dims = documentedDims uc K J I := by
    show dimUnion (dimUnion (dimUnion (dimUnion [] (dimUnion (degrees s.wsr).dims [])) []) [])
      (s.trueSolarTime w).dims = _
    rw [wd, tst]; cases uc <;> rfl
  have su : (s.sunriseUtc w).dims = documentedDims uc K J I := by
    show dimUnion (s.sunriseTst w).dims (dimUnion (dimUnion (dimUnion s.eot.dims
      (dimUnion [] s.longitude.dims)) []) []) = _
    rw [st, e2, lo]; cases uc <;> rfl
  have sl : (s.sunriseLocal w).dims = documentedDims uc K J I := by
    show dimUnion (s.sunriseUtc w).dims [(.time, s.times.length)] = _
    rw [su, n1]; cases uc <;> rfl
  have units : ∀ u : String, u ∈ TimeUnits ∨ u = "deg" ∨ u = "rad" ∨
      (u ∉ TimeUnits ∧ u ≠ "deg" ∧ u ≠ "rad") := by intro u; tauto
  have sr : ∀ u R, s.sunrise w u = .ok (.time R) → R.dims = documentedDims uc K J I := by
    intro u R h
    rcases units u with hu | rfl | rfl | ⟨h1, h2, h3⟩
    · simp only [TimeUnits, List.mem_cons, List.not_mem_nil, or_false] at hu
      rcases hu with rfl | rfl | rfl
      · cases h; exact st
      · cases h; exact su
      · cases h; exact sl
    · cases h
    · cases h
    · rw [((C27_sunset w _).2.2.2.2 u h1 h2 h3).1] at h; cases h
  have zd : s.zenithDeg.dims = documentedDims uc K J I := by
    show dimUnion s.zenith.dims [] = _
    rw [z, dimUnion_nil_right]
  have inc : ∀ slope saz, (s.incidence w slope saz).dims = incidenceDims uc K J I := by
    intro slope saz
    have h1 : s.decDeg.dims = [(.time, K)] := by
      show dimUnion s.declination.dims [] = _
      rw [d]; rfl
    have h3 : (haDeg (hourOf (s.todFloat w))).dims = tstDims uc K I := by
      show dimUnion [] (dimUnion [] (dimUnion (dimUnion (s.trueSolarTime w).dims []) [])) = _
      rw [tst]; cases uc <;> rfl
    unfold Sunpos.incidence
    generalize haDeg (hourOf (s.todFloat w)) = ha at h3
    generalize s.decDeg = dec at h1
    generalize s.latitude = lat at la
    rw [coss_dims, h1, h3, la]
    cases uc
    · rfl
    · rfl
    · obtain ⟨rfl, rfl⟩ := hlen
      rfl
  refine ⟨?_, z, airmass_dims zd z, eth_dims zd z ?_, sr, ?_, ?_, dl, tst, inc⟩
  · show dimUnion [] s.zenithDeg.dims = _
    rw [zd, dimUnion_nil]
  · rw [e1]; cases uc <;> rfl
  · intro u S h
    rcases units u with hu | rfl | rfl | ⟨h1, h2, h3⟩
    · obtain ⟨R, S', hR, hS⟩ := (C27_sunset w s).2.2.1 u hu
      unfold Sunpos.sunset at h
      rw [if_pos (by simpa [TimeUnits] using hu), hR] at h
      obtain ⟨D, hD⟩ : ∃ D, s.daylightLength w = .ok D := ⟨_, rfl⟩
      rw [hD] at h
      cases h
      show dimUnion R.dims (dimUnion (dimUnion D.dims []) []) = _
      rw [sr u R hR, dl D hD]; cases uc <;> rfl
    · cases h
    · cases h
    · rw [((C27_sunset w _).2.2.2.2 u h1 h2 h3).2] at h; cases h
  · intro u R h
    rcases units u with hu | rfl | rfl | ⟨h1, h2, h3⟩
    · simp only [TimeUnits, List.mem_cons, List.not_mem_nil, or_false] at hu
      rcases hu with rfl | rfl | rfl <;> cases h
    · cases h; exact wd
    · cases h; exact ws
    · rw [((C27_sunset w _).2.2.2.2 u h1 h2 h3).1] at h; cases h

/-- C33: dimension names and lengths, in order, of what the methods of the object of a call return, in
every arithmetic: elevation, cosz, airmass and eth as documented for zenith; sunrise and sunset in time
units too; sunrise in angular units without the longitudes; but incidence with time after the
latitudes. -/
theorem C33_dims {F : Type} [Scalar F] {uc : UseCase} {w : World F} {times : Times}
    {latitude longitude : Coord F} {alg eng : String} {refr : PyVal} {s : Sunpos F}
    (h : call uc w times latitude longitude alg refr eng = .ok s) {lat lon : List F}
    (hlat : Holds latitude lat) (hlon : Holds longitude lon) (hw : KeepsLength w)
    {K J I : Nat} (hK : K = times.stamps.length) (hJ : J = lat.length) (hI : I = lon.length) :
    s.elevation.dims = documentedDims uc K J I ∧ s.cosz.dims = documentedDims uc K J I ∧
    (∀ p A, s.airmass p = .ok A → A.dims = documentedDims uc K J I) ∧
    (∀ isc c E, s.eth isc c = .ok E → E.dims = documentedDims uc K J I) ∧
    (∀ u R, s.sunrise w u = .ok (.time R) → R.dims = documentedDims uc K J I) ∧
    (∀ u S, s.sunset w u = .ok (.time S) → S.dims = documentedDims uc K J I) ∧
    (∀ u R, s.sunrise w u = .ok (.angle R) → R.dims = angleDims uc K J) ∧
    (∀ D, s.daylightLength w = .ok D → D.dims = angleDims uc K J) ∧
    (s.trueSolarTime w).dims = tstDims uc K I ∧
    ∀ slope saz, (s.incidence w slope saz).dims = incidenceDims uc K J I := by
  obtain ⟨z, e1, e2, d, la, lo, n1, n2, hl⟩ := dims_core h hlat hlon
  subst hK hJ hI
  exact dims_all z e1 e2 d la lo n1 (n2 hw) hl

/-! ### the hypotheses are met -/

example : KeepsLength exWorld := by
  intro n wall utc h
  simp only [exWorld, Except.ok.injEq] at h
  rw [← h, List.length_map]

/-- a cell for C25-C31: an equatorial site at one instant, in every use case and algorithm; the
daylight length there is 12 hours and every time is an instant -/
theorem example_sunrise (uc : UseCase) {alg eng : String} (hk : KnownPair alg eng) (refr : PyVal)
    {t : Int} (ht : |t| < 2 ^ 63) :
    ∃ (s : Sunpos XR) (d x : ℝ) (D : DA XR) (τ : Int) (T : DA (Option Int)) (r : Int),
      call uc exWorld (oneTime t) (.vec [.fin 0]) (.vec [.fin (-4.5)]) alg refr eng = .ok s ∧
      s.latitude.get (fun _ => 0) = .fin 0 ∧ s.longitude.get (fun _ => 0) = .fin (-4.5) ∧
      s.decDeg.get (fun _ => 0) = .fin d ∧ |d| < 90 ∧ s.eot.get (fun _ => 0) = .fin x ∧
      stampAt s.timesUtc 0 = some t ∧ stampAt s.times 0 = some t ∧
      s.daylightLength exWorld = .ok D ∧ D.get (fun _ => 0) = .fin 12 ∧
      (s.trueSolarTime exWorld).get (fun _ => 0) = some τ ∧
      s.sunrise exWorld "tst" = .ok (.time T) ∧ T.get (fun _ => 0) = some r := by
  obtain ⟨s, hs, ha⟩ := single_call uc hk refr ht (φ := 0) (l := -4.5) (by norm_num) (by norm_num)
  obtain ⟨d, hd, hd', -⟩ := C17_declination (e := fun _ => 0) hs ha.time ha.range
  obtain ⟨x, hx, -⟩ := C19_eot (e := fun _ => 0) hs ha.time ha.range
  have hd'' : |d| < 90 := lt_of_le_of_lt hd' (by norm_num)
  obtain ⟨D, hD, hD'⟩ := C26_equator exWorld s ha.lat hd hd''
  have hu := (C12_naive hs rfl).1
  obtain ⟨lat, lon, b, utc, hacc, -, hr⟩ := call_inv hs
  have hu' : stampAt s.timesUtc 0 = some t := by rw [hu]; rfl
  obtain ⟨τ, hτ, -⟩ := C30_tst exWorld s (e := fun _ => 0) hu' hx ha.lon
  obtain ⟨R, S, hR, hS⟩ := (C27_sunset exWorld s).2.2.1 "tst" (by decide)
  obtain ⟨m, r, q, -, -, -, h1, -⟩ := C29_symmetric exWorld s hR hS hD hτ hD'
  exact ⟨s, d, x, D, τ, R, r, hs, ha.lat, ha.lon, hd, hd'', hx, hu', by rw [hr.times_eq]; rfl, hD, hD', hτ, hR, h1⟩

/-- hypotheses of the polar night branch of C25 are met: latitude 89, declination 20 -/
example : 1 < |tan (rad 89) * tan (rad 20)| := by
  have hp := pi_gt_d6
  have hp' := pi_lt_d6
  have e : tan (rad 89) = (tan (rad 1))⁻¹ := by
    rw [← tan_pi_div_two_sub]; congr 1; unfold rad; ring
  have h1 : 0 < tan (rad 1) := tan_pos_of_pos_of_lt_pi_div_two (by unfold rad; positivity)
    (by unfold rad; nlinarith)
  have h2 : tan (rad 1) < tan (rad 20) := tan_lt_tan_of_lt_of_lt_pi_div_two
    (by unfold rad; nlinarith) (by unfold rad; nlinarith) (by unfold rad; nlinarith)
  have h3 : 1 < tan (rad 89) * tan (rad 20) := by
    rw [e, inv_mul_eq_div, one_lt_div h1]; exact h2
  rw [abs_of_pos (by linarith)]; exact h3

end SW.Props
