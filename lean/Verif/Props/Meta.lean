/-
C82: names, units and ranges of the results.
-/
import Verif.Meta
import Verif.Props.Tests

namespace SW.Props
open SW SW.Spec Real

/-- name that an array shows -/
def shownName {keep : Bool} : Meta keep → Option String
  | .scalar => none
  | .arr n _ => n
/-- attribute that an array shows -/
def shownAttr {keep : Bool} (k : String) : Meta keep → Option Attr
  | .scalar => none
  | .arr _ a => a k

/-- an array shows a name and a unit -/
def ShowsUnit {keep : Bool} (m : Meta keep) (name units : String) : Prop := shownName m = some name ∧ shownAttr "units" m = some (some units)

/-- the same of what a method returns -/
def ReturnsShowing {keep : Bool} (m : Except PyErr (Meta keep)) (name units : String) : Prop := ∃ x, m = .ok x ∧ ShowsUnit x name units

/-- the zone that local times should be labelled with: its name, or UTC if it has none -/
def zoneLabel (times : Times) : String := match times.tz with
  | none => "UTC"
  | some z => match z.zone with
    | .name n => n
    | _ => "UTC"

/-- unit of the events by the argument of `sunrise` and `sunset` -/
def eventUnits (times : Times) (u : String) : String :=
  if u = "deg" then "degrees" else if u = "rad" then "radians" else if u = "tst" then "TST" else if u = "utc" then "UTC" else zoneLabel times

theorem timezone_label {F : Type} [Scalar F] {uc : UseCase} {w : World F} {times : Times} {latitude longitude : Coord F} {alg eng : String}
    {refr : PyVal} {s : Sunpos F} (h : call uc w times latitude longitude alg refr eng = .ok s) : s.timezone = some (zoneLabel times) := by
  obtain ⟨_, _, _, _, _, hu, hr⟩ := call_inv h
  rw [hr.timezone]
  unfold localizeTimes at hu
  have e : timezoneOf times ≠ none := by intro hn; rw [hn] at hu; simp at hu
  revert e
  unfold timezoneOf zoneLabel
  cases times.tz with
  | none => intro _; rfl
  | some z =>
    simp only
    cases z.zone with
    | name n => intro _; rfl
    | pyNone => intro e; exact absurd rfl e
    | absent => intro _; rfl

theorem airmass_names {F : Type} [Scalar F] {s : Sunpos F} {p : String} :
    (p = "kasten_1965" ∨ p = "kasten_and_young_1989" ∨ p = "gueymard_2001" ∨ p = "gueymard_2003") ∧ (∃ d, s.airmass p = .ok d) ∨
    (s.airmass p = .error .valueError ∧ ∀ keep, Sunpos.airmassM keep p = .error .valueError) := by
  by_cases h1 : p = "kasten_1965"
  · exact .inl ⟨.inl h1, _, by rw [h1]; rfl⟩
  by_cases h2 : p = "kasten_and_young_1989"
  · exact .inl ⟨.inr (.inl h2), _, by rw [h2]; rfl⟩
  by_cases h3 : p = "gueymard_2001"
  · exact .inl ⟨.inr (.inr (.inl h3)), _, by rw [h3]; rfl⟩
  by_cases h4 : p = "gueymard_2003"
  · exact .inl ⟨.inr (.inr (.inr h4)), _, by rw [h4]; rfl⟩
  exact .inr ⟨by simp [Sunpos.airmass, h1, h2, h3, h4], fun keep => by simp [Sunpos.airmassM, h1, h2, h3, h4]⟩

theorem eth_names {F : Type} [Scalar F] {s : Sunpos F} {isc : F} {c : String} :
    (c = "none" ∨ c = "perez_1990" ∨ c = "skarveith_1998" ∨ c = "gonzalez_and_calbo_1999") ∧ (∃ d, s.eth isc c = .ok d) ∨
    (s.eth isc c = .error .valueError ∧ ∀ keep, Sunpos.ethM keep c = .error .valueError) := by
  by_cases h1 : c = "none"
  · exact .inl ⟨.inl h1, _, by rw [h1]; rfl⟩
  by_cases h2 : c = "perez_1990"
  · exact .inl ⟨.inr (.inl h2), _, by rw [h2]; rfl⟩
  by_cases h3 : c = "skarveith_1998"
  · exact .inl ⟨.inr (.inr (.inl h3)), _, by rw [h3]; rfl⟩
  by_cases h4 : c = "gonzalez_and_calbo_1999"
  · exact .inl ⟨.inr (.inr (.inr h4)), _, by rw [h4]; rfl⟩
  exact .inr ⟨by simp [Sunpos.eth, h1, h2, h3, h4], fun keep => by simp [Sunpos.ethM, h1, h2, h3, h4]⟩

theorem event_names {F : Type} [Scalar F] {s : Sunpos F} {w : World F} {u : String} :
    (u = "deg" ∨ u = "rad" ∨ u = "tst" ∨ u = "utc" ∨ u = "local") ∧ (∃ d, s.sunrise w u = .ok d) ∨
    (s.sunrise w u = .error .assertionError ∧ s.sunset w u = .error .assertionError ∧
      ∀ keep, s.sunriseM keep u = .error .assertionError ∧ s.sunsetM keep u = .error .assertionError) := by
  by_cases h1 : u = "deg"
  · exact .inl ⟨.inl h1, _, by rw [h1]; rfl⟩
  by_cases h2 : u = "rad"
  · exact .inl ⟨.inr (.inl h2), _, by rw [h2]; rfl⟩
  by_cases h3 : u = "tst"
  · exact .inl ⟨.inr (.inr (.inl h3)), _, by rw [h3]; rfl⟩
  by_cases h4 : u = "utc"
  · exact .inl ⟨.inr (.inr (.inr (.inl h4))), _, by rw [h4]; rfl⟩
  by_cases h5 : u = "local"
  · exact .inl ⟨.inr (.inr (.inr (.inr h5))), _, by rw [h5]; rfl⟩
  exact .inr ⟨by simp [Sunpos.sunrise, h1, h2, h3, h4, h5], by simp [Sunpos.sunset, h1, h2, h3, h4, h5],
    fun keep => ⟨by simp [Sunpos.sunriseM, h1, h2, h3, h4, h5], by simp [Sunpos.sunsetM, h1, h2, h3, h4, h5]⟩⟩

/-- **C82** Names and units. Whatever the version of xarray, every array that the object of a call returns shows the name of the quantity and the
unit in which the other theorems state its values: `sza` and `saa` are named after the alias (`dec` is not), the sunrise and sunset in local
time show the name of the time zone (UTC, if the zone object has none). Only the true solar time has no unit, and the daylight length has its unit
only if operations keep attributes. -/
theorem C82_units {F : Type} [Scalar F] {uc : UseCase} {w : World F} {times : Times} {latitude longitude : Coord F} {alg eng : String}
    {refr : PyVal} {s : Sunpos F} (h : call uc w times latitude longitude alg refr eng = .ok s) (keep : Bool) :
    (ShowsUnit (Sunpos.latitudeM keep) "latitude" "degrees north" ∧ ShowsUnit (Sunpos.longitudeM keep) "longitude" "degrees east" ∧
      ShowsUnit (Sunpos.ecfM keep) "ecf" "-" ∧ ShowsUnit (Sunpos.eotM keep) "eot" "minutes" ∧ ShowsUnit (Sunpos.decM keep) "declination" "degrees" ∧
      ShowsUnit (Sunpos.decAliasM keep) "declination" "degrees" ∧
      ShowsUnit (Sunpos.zenithM keep) "zenith" "degrees" ∧ ShowsUnit (Sunpos.szaM keep) "sza" "degrees" ∧
      ShowsUnit (Sunpos.elevationM keep) "elevation" "degrees" ∧
      ShowsUnit (Sunpos.azimuthM keep) "azimuth" "degrees" ∧ ShowsUnit (Sunpos.saaM keep) "saa" "degrees" ∧ ShowsUnit (Sunpos.coszM keep) "cosz" "-" ∧
      ShowsUnit (Sunpos.incidenceM keep) "incidence" "-") ∧
    (∀ p d, s.airmass p = .ok d → ReturnsShowing (Sunpos.airmassM keep p) "airmass" "-") ∧
    (∀ isc c d, s.eth isc c = .ok d → ReturnsShowing (Sunpos.ethM keep c) "eth" "W m-2") ∧
    (∀ u d, s.sunrise w u = .ok d → ReturnsShowing (s.sunriseM keep u) "wsr" (eventUnits times u)) ∧
    (∀ u d, s.sunset w u = .ok d → ReturnsShowing (s.sunsetM keep u) "wss" (eventUnits times u)) ∧
    (∃ x, s.daylightLengthM keep = .ok x ∧ shownName x = some "daylight_length" ∧
      shownAttr "units" x = if keep then some (some "hour") else none) ∧
    (shownName (Sunpos.trueSolarTimeM keep) = some "true_solar_time" ∧ shownAttr "units" (Sunpos.trueSolarTimeM keep) = none) ∧
    (∀ p e, s.airmass p = .error e → Sunpos.airmassM keep p = .error e) ∧ (∀ isc c e, s.eth isc c = .error e → Sunpos.ethM keep c = .error e) ∧
    (∀ u e, s.sunrise w u = .error e → s.sunriseM keep u = .error e) ∧ ∀ u e, s.sunset w u = .error e → s.sunsetM keep u = .error e := by
  have tz := timezone_label h
  refine ⟨?_, ?_, ?_, ?_, ?_, ?_, ?_, ?_, ?_, ?_, ?_⟩
  · refine ⟨?_, ?_, ?_, ?_, ?_, ?_, ?_, ?_, ?_, ?_, ?_, ?_, ?_⟩ <;> cases keep <;> exact ⟨rfl, rfl⟩
  · intro p d hd
    rcases airmass_names (s := s) (p := p) with ⟨rfl | rfl | rfl | rfl, -⟩ | ⟨he, -⟩
    · cases keep <;> exact ⟨_, rfl, rfl, rfl⟩
    · cases keep <;> exact ⟨_, rfl, rfl, rfl⟩
    · cases keep <;> exact ⟨_, rfl, rfl, rfl⟩
    · cases keep <;> exact ⟨_, rfl, rfl, rfl⟩
    · rw [he] at hd; cases hd
  · intro isc c d hd
    rcases eth_names (s := s) (isc := isc) (c := c) with ⟨rfl | rfl | rfl | rfl, -⟩ | ⟨he, -⟩
    · cases keep <;> exact ⟨_, rfl, rfl, rfl⟩
    · cases keep <;> exact ⟨_, rfl, rfl, rfl⟩
    · cases keep <;> exact ⟨_, rfl, rfl, rfl⟩
    · cases keep <;> exact ⟨_, rfl, rfl, rfl⟩
    · rw [he] at hd; cases hd
  · intro u d hd
    rcases event_names (s := s) (w := w) (u := u) with ⟨rfl | rfl | rfl | rfl | rfl, -⟩ | ⟨he, -⟩
    · cases keep <;> exact ⟨_, rfl, rfl, rfl⟩
    · cases keep <;> exact ⟨_, rfl, rfl, rfl⟩
    · cases keep <;> exact ⟨_, rfl, rfl, rfl⟩
    · cases keep <;> exact ⟨_, rfl, rfl, rfl⟩
    · cases keep <;> exact ⟨_, rfl, rfl, congrArg some tz⟩
    · rw [he] at hd; cases hd
  · intro u d hd
    rcases event_names (s := s) (w := w) (u := u) with ⟨rfl | rfl | rfl | rfl | rfl, -⟩ | ⟨-, he, -⟩
    · cases hd
    · cases hd
    · cases keep <;> exact ⟨_, rfl, rfl, rfl⟩
    · cases keep <;> exact ⟨_, rfl, rfl, rfl⟩
    · cases keep <;> exact ⟨_, rfl, rfl, congrArg some tz⟩
    · rw [he] at hd; cases hd
  · cases keep <;> exact ⟨_, rfl, rfl, rfl⟩
  · cases keep <;> exact ⟨rfl, rfl⟩
  · intro p e he
    rcases airmass_names (s := s) (p := p) with ⟨-, d, hd⟩ | ⟨h1, h2⟩
    · rw [hd] at he; cases he
    · rw [h1] at he; cases he; exact h2 keep
  · intro isc c e he
    rcases eth_names (s := s) (isc := isc) (c := c) with ⟨-, d, hd⟩ | ⟨h1, h2⟩
    · rw [hd] at he; cases he
    · rw [h1] at he; cases he; exact h2 keep
  · intro u e he
    rcases event_names (s := s) (w := w) (u := u) with ⟨-, d, hd⟩ | ⟨h1, -, h2⟩
    · rw [hd] at he; cases he
    · rw [h1] at he; cases he; exact (h2 keep).1
  · intro u e he
    rcases event_names (s := s) (w := w) (u := u) with ⟨rfl | rfl | rfl | rfl | rfl, -⟩ | ⟨-, h1, h2⟩
    · cases he; rfl
    · cases he; rfl
    · cases he
    · cases he
    · cases he
    · rw [h1] at he; cases he; exact (h2 keep).2

/-- what the attribute `range` says of a value -/
def InShownRange (r : String) (x : ℝ) : Prop :=
  if r = "[0, 180]" then 0 ≤ x ∧ x ≤ 180
  else if r = "[-90, 90]" then -90 ≤ x ∧ x ≤ 90
  else if r = "(-180 am, 180 pm)" then -180 ≤ x ∧ x ≤ 180
  else if r = "[-1, 1]" then -1 ≤ x ∧ x ≤ 1
  else False

/-- a value is in the range that its array shows -/
def RangeHolds {keep : Bool} (m : Meta keep) (v : XR) : Prop := ∃ r x, shownAttr "range" m = some (some r) ∧ v = .fin x ∧ InShownRange r x

/-- **C82** The ranges that zenith, elevation, azimuth and cosz show are right for psa and nrel, and for soltrack and iqbal without refraction. -/
theorem C82_ranges {uc : UseCase} {w : World XR} {times : Times} {latitude longitude : Coord XR}
    {alg eng : String} {refr : PyVal} {s : Sunpos XR} {e : Dim → Nat} {t : Int} {φ l : ℝ}
    (h : call uc w times latitude longitude alg refr eng = .ok s) (ha : At s times e t φ l)
    (hcase : alg = "psa" ∨ alg = "nrel" ∨ refr ≠ .pyTrue) (keep : Bool) :
    RangeHolds (Sunpos.zenithM keep) (s.zenithDeg.get e) ∧ RangeHolds (Sunpos.szaM keep) (s.zenithDeg.get e) ∧
      RangeHolds (Sunpos.elevationM keep) (s.elevation.get e) ∧ RangeHolds (Sunpos.azimuthM keep) (s.azimuthDeg.get e) ∧
      RangeHolds (Sunpos.saaM keep) (s.azimuthDeg.get e) ∧ RangeHolds (Sunpos.coszM keep) (s.cosz.get e) := by
  obtain ⟨z, hz, z0, z1⟩ := C13_range h ha hcase
  obtain ⟨a, hza, ha⟩ := C14_range h ha
  have a1 : -180 ≤ a ∧ a ≤ 180 := by
    rcases ha with ⟨-, a0, a1⟩ | ⟨-, a0, a1⟩
    · exact ⟨a0, a1.le⟩
    · exact ⟨a0.le, a1⟩
  obtain ⟨el, c, hel, hc, he, -, c0, c1, -⟩ := C20_derived s e z hz
  have r1 : InShownRange "[0, 180]" z := by simp [InShownRange, z0, z1]
  have r2 : InShownRange "[-90, 90]" el := by simp [InShownRange]; constructor <;> linarith
  have r3 : InShownRange "(-180 am, 180 pm)" a := by simp [InShownRange, a1]
  have r4 : InShownRange "[-1, 1]" c := by simp [InShownRange, c0, c1]
  cases keep <;> exact ⟨⟨_, _, rfl, hz, r1⟩, ⟨_, _, rfl, hz, r1⟩, ⟨_, _, rfl, hel, r2⟩, ⟨_, _, rfl, hza, r3⟩, ⟨_, _, rfl, hza, r3⟩, ⟨_, _, rfl, hc, r4⟩⟩

/-- a case that meets the hypotheses -/
example : ∃ s, call .sites exWorld (oneTime 0) (.vec [.fin 40]) (.vec [.fin (-4.5)]) "psa" .pyTrue "numpy" = .ok s ∧
    At s (oneTime 0) (fun _ => 0) 0 40 (-4.5) :=
  single_call .sites (by simp [KnownPair]) .pyTrue (by norm_num) (by norm_num) (by norm_num)

/-- **C82** Which other arrays show a range: the irradiance without correction and with two of the corrections shows that of the cosine, if
operations keep attributes. The airmass and the other irradiances show none. -/
theorem C82_other_ranges {F : Type} (s : Sunpos F) (keep : Bool) :
    (∀ p x, Sunpos.airmassM keep p = .ok x → shownAttr "range" x = none) ∧
    (∀ c x, Sunpos.ethM keep c = .ok x → shownAttr "range" x = if keep = true ∧ c ≠ "skarveith_1998" then some (some "[-1, 1]") else none) ∧
    (∀ u x, s.sunriseM keep u = .ok x → shownAttr "range" x = none) ∧ (∀ u x, s.sunsetM keep u = .ok x → shownAttr "range" x = none) ∧
    (∀ x, s.daylightLengthM keep = .ok x → shownAttr "range" x = none) ∧ shownAttr "range" (Sunpos.trueSolarTimeM keep) = none ∧
    shownAttr "range" (Sunpos.incidenceM keep) = none := by
  refine ⟨?_, ?_, ?_, ?_, ?_, ?_, ?_⟩
  · intro p x hx
    unfold Sunpos.airmassM at hx
    split_ifs at hx <;> cases hx <;> cases keep <;> rfl
  · intro c x hx
    unfold Sunpos.ethM at hx
    split_ifs at hx with h1 h2 h3 h4
    · cases hx; subst h1; cases keep <;> rfl
    · cases hx; subst h2; cases keep <;> rfl
    · cases hx; subst h3; cases keep <;> rfl
    · cases hx; subst h4; cases keep <;> rfl
  · intro u x hx
    unfold Sunpos.sunriseM at hx
    split_ifs at hx <;> cases hx <;> cases keep <;> rfl
  · intro u x hx
    unfold Sunpos.sunsetM at hx
    split_ifs at hx with h1
    rcases h1 with rfl | rfl | rfl <;> cases hx <;> cases keep <;> rfl
  · intro x hx
    cases hx; cases keep <;> rfl
  · cases keep <;> rfl
  · cases keep <;> rfl

/-- **C82** The range shown by the irradiance is wrong by day: with the default solar constant the irradiance of every call is over 1 wherever the sun
is 0.05 degrees above the horizon (zenith angle at most 89.95). -/
theorem C82_eth_range {uc : UseCase} {w : World XR} {times : Times} {latitude longitude : Coord XR}
    {alg eng : String} {refr : PyVal} {s : Sunpos XR} {e : Dim → Nat} {t : Int} {z : ℝ}
    (h : call uc w times latitude longitude alg refr eng = .ok s)
    (hk : stampAt times.stamps (e .time) = some t) (hrange : |t| < 2 ^ 63)
    (hz : s.zenithDeg.get e = .fin z) (h0 : 0 ≤ z) (h1 : z ≤ 89.95) :
    ∃ E x, s.eth (.fin 1361.1) "none" = .ok E ∧ Sunpos.ethM true "none" = .ok x ∧ ¬ RangeHolds x (E.get e) := by
  obtain ⟨x, k, hx, hk', hl, -, -, -⟩ := C21_eth_none h hk hrange hz
  obtain ⟨E, hE, hv⟩ := hl 1361.1
  obtain ⟨x', hx', x1, -⟩ := C18_ecf h hk hrange
  obtain rfl : x = x' := XR.fin_inj.1 (hx.symm.trans hx')
  refine ⟨E, _, hE, rfl, ?_⟩
  rintro ⟨r, y, hr, hy, hin⟩
  obtain rfl : "[-1, 1]" = r := Option.some.inj (Option.some.inj hr)
  rw [hv] at hy
  obtain rfl := XR.fin_inj.1 hy
  have p1 := pi_gt_d4
  have p2 := pi_lt_d4
  have e : rad z = π / 2 - rad (90 - z) := by unfold rad; ring
  have y0 : 8.72e-4 ≤ rad 0.05 := by unfold rad; norm_num at p1 ⊢; linarith
  have y1 : rad 0.05 ≤ 8.73e-4 := by unfold rad; norm_num at p2 ⊢; linarith
  have c1 : sin (rad 0.05) ≤ cos (rad z) := by
    rw [e, cos_pi_div_two_sub]
    refine sin_le_sin_of_le_of_le_pi_div_two ?_ ?_ ?_
    · norm_num at y0 y1 p1 p2 ⊢; linarith
    · unfold rad; nlinarith
    · unfold rad; norm_num at h1; nlinarith
  have c2 := sin_gt_sub_cube (x := rad 0.05) (by norm_num at y0 ⊢; linarith)
  have c3 : 8.71e-4 ≤ sin (rad 0.05) := by
    have : rad 0.05 ^ 3 ≤ 8.73e-4 ^ 3 := by
      refine pow_le_pow_left₀ ?_ y1 3
      norm_num at y0 ⊢; linarith
    norm_num at this y0 c2 ⊢; linarith
  have c4 : 8.71e-4 ≤ max 0 (cos (rad z)) := (c3.trans c1).trans (le_max_right _ _)
  have hin : 1361.1 * k ≤ 1 := by
    simp only [InShownRange, String.reduceEq, if_false, if_true] at hin
    exact hin.2
  have : 0.96 * 8.71e-4 ≤ k := by rw [hk']; gcongr
  norm_num at this hin
  linarith

/-- a case that meets the hypotheses: at any instant, the call at the place on the parallel of 45 degrees where it is noon -/
example {t : Int} (ht : |t| < 2 ^ 63) : ∃ (l : ℝ) (s : Sunpos XR) (z : ℝ),
    call .sites exWorld (oneTime t) (.vec [.fin 45]) (.vec [.fin l]) "psa" .pyFalse "numpy" = .ok s ∧
      stampAt (oneTime t).stamps 0 = some t ∧ s.zenithDeg.get (fun _ => 0) = .fin z ∧ 0 ≤ z ∧ z ≤ 89.95 := by
  obtain ⟨l, hl, z1, z2⟩ := noon_45 ht
  obtain ⟨s, h, ha⟩ := single_call .sites (alg := "psa") (eng := "numpy") (by simp [KnownPair]) .pyFalse ht (φ := 45) (l := l) (by norm_num) hl
  obtain ⟨z, hz, z0, -, hd⟩ := zenithDeg_near h (by simp) ha
  have hd := (abs_le.1 hd).2
  have hp := (positionError_le (alg := "psa") (eng := "numpy") (by simp [KnownPair])).2
  refine ⟨l, s, z, h, rfl, hz, z0, ?_⟩
  generalize positionError "psa" "numpy" = P at *
  norm_num at hd hp ⊢
  linarith

end SW.Props
