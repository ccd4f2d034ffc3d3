import Verif.Spec
import Verif.Master
import Verif.Props.Calls
import Verif.Props.Exact
import Verif.Props.Sunrise
import Verif.Props.Cli
import Verif.Props.Localize

/-!
Consequences of the properties C07, C28, C44, C50 and C80 in the words of their statements:

* C07: selecting (permuting, repeating, dropping, splitting) inputs selects the outputs,
* C28: sunrise and sunset are NaT exactly where the daylight length is NaN,
* C44: a call of nrel returns the same whatever the rounding to binary32 does,
* C50: at latitudes from -65 to 65 degrees the sunrise angle of every call is a number,
* C80: exchanged occurrences of a wall-clock reading give wrong true solar times.
-/

open Real

namespace SW.Props
open SW SW.Spec SW.Sunpos

/-! ### C07: selection -/

/-- `ys` is `xs` at the positions `idx`: `[xs[i] for i in idx]`, every position existing -/
def Picked {α : Type} (idx : List Nat) (xs ys : List α) : Prop :=
  List.Forall₂ (fun i y => xs[i]? = some y) idx ys

theorem Picked.length {α : Type} {idx : List Nat} {xs ys : List α} (h : Picked idx xs ys) :
    ys.length = idx.length := (List.Forall₂.length_eq h).symm

theorem Picked.get {α : Type} {idx : List Nat} {xs ys : List α} (h : Picked idx xs ys) {k : Nat}
    (hk : k < ys.length) : idx.getD k 0 < xs.length ∧ xs[idx.getD k 0]? = ys[k]? := by
  have hk' : k < idx.length := h.length ▸ hk
  have := List.Forall₂.get h hk' hk
  simp only [List.get_eq_getElem] at this
  rw [List.getD_eq_getElem?_getD, List.getElem?_eq_getElem hk', List.getElem?_eq_getElem hk, Option.getD_some]
  refine ⟨?_, this⟩
  by_contra hc
  rw [List.getElem?_eq_none (by omega)] at this
  cases this

theorem Picked.mem {α : Type} {idx : List Nat} {xs ys : List α} (h : Picked idx xs ys) {y : α}
    (hy : y ∈ ys) : y ∈ xs := by
  induction h with
  | nil => cases hy
  | cons h _ ih =>
    rcases List.mem_cons.1 hy with rfl | hy
    · exact List.mem_of_getElem? h
    · exact ih hy

/-- the position in the original arrays of the position `e'` in the selected ones: `ks` are the
selected times, `js` the selected locations or latitudes and `is` the selected longitudes -/
def original (ks js is : List Nat) (e' : Dim → Nat) : Dim → Nat
  | .time => ks.getD (e' .time) 0
  | .location => js.getD (e' .location) 0
  | .latitude => js.getD (e' .latitude) 0
  | .longitude => is.getD (e' .longitude) 0

/-- a selection keeps locations (`sites`) or points (`transect`) together -/
def Together (uc : UseCase) (ks js is : List Nat) : Prop :=
  match uc with
  | .sites => is = js
  | .regularGrid => True
  | .transect => js = ks ∧ is = ks

/-- C07: take any positions of the times, latitudes and longitudes of a call that returned, in any
order, repeated or dropped (locations and points kept together). The call of the selected inputs
(naive times) returns, its arrays have the sizes of the selection, and every cell has the values of
the cell selected. -/
theorem C07_select {F : Type} [Scalar F] {uc : UseCase} {w : World F} {times times' : Times}
    {lat lon lat' lon' : List F} {alg eng : String} {refr : PyVal} {s : Sunpos F}
    (h : call uc w times (.vec lat) (.vec lon) alg refr eng = .ok s) {ks js is : List Nat}
    (htog : Together uc ks js is) (hn' : times'.nested = false) (htz' : times'.tz = none)
    (hk : Picked ks times.stamps times'.stamps) (hj : Picked js lat lat') (hi : Picked is lon lon')
    (w' : World F) :
    ∃ s', call uc w' times' (.vec lat') (.vec lon') alg refr eng = .ok s' ∧
      s'.zenith.dims = documentedDims uc ks.length js.length is.length ∧
      ∀ e', Within s'.zenith e' →
        Within s.zenith (original ks js is e') ∧ SameAt s s' (original ks js is e') e' := by
  obtain ⟨lat0, lon0, b, utc, ha, -, hr⟩ := call_inv h
  have e1 : lat = lat0 := Option.some.inj ha.lat_eq
  have e2 : lon = lon0 := Option.some.inj ha.lon_eq
  subst e1 e2
  have hlen : Lengths uc times'.stamps.length lat'.length lon'.length := by
    rw [hk.length, hj.length, hi.length]
    cases uc with
    | sites => simp only [Together] at htog; simp [Lengths, htog]
    | regularGrid => simp [Lengths]
    | transect => simp only [Together] at htog; simp [Lengths, htog]
  obtain ⟨s', hs'⟩ := C05_naive_returns (uc := uc) (w := w') (times := times')
    (latitude := .vec lat') (longitude := .vec lon') (alg := alg) (eng := eng) refr hn' htz'
    (holds_flat.2 rfl) (holds_flat.2 rfl) hlen (known_iff.2 ⟨b, ha.names⟩)
    (fun x hx => ha.latOk x (hj.mem hx)) (fun x hx => ha.lonOk x (hi.mem hx))
  have hd' := (C05_shape hs' (holds_flat.2 rfl) (holds_flat.2 rfl)).1
  have hd := (C05_shape h (holds_flat.2 rfl) (holds_flat.2 rfl)).1
  refine ⟨s', hs', ?_, ?_⟩
  · rw [hd', hk.length, hj.length, hi.length]
  intro e' he'
  obtain ⟨lat1, lon1, b1, utc1, ha1, -, hr1⟩ := call_inv hs'
  have e1 : lat' = lat1 := Option.some.inj ha1.lat_eq
  have e2 : lon' = lon1 := Option.some.inj ha1.lon_eq
  subst e1 e2
  obtain ⟨c1, c2, c3⟩ := cell_inv hr1 ha1.len he'
  obtain ⟨k1, k2⟩ := hk.get c1
  obtain ⟨j1, j2⟩ := hj.get c2
  obtain ⟨i1, i2⟩ := hi.get c3
  have ot : original ks js is e' .time = ks.getD (e' .time) 0 := rfl
  have oj : original ks js is e' uc.latDim = js.getD (e' uc.latDim) 0 := by
    cases uc with
    | sites => rfl
    | regularGrid => rfl
    | transect => simp only [Together] at htog; rw [htog.1]; rfl
  have oi : original ks js is e' uc.lonDim = is.getD (e' uc.lonDim) 0 := by
    cases uc with
    | sites => simp only [Together] at htog; rw [htog]; rfl
    | regularGrid => rfl
    | transect => simp only [Together] at htog; rw [htog.2]; rfl
  have hin : Within s.zenith (original ks js is e') := by
    unfold Within
    rw [hd]
    cases uc <;> simp only [documentedDims, List.mem_cons, List.not_mem_nil, or_false, forall_eq_or_imp,
      forall_eq] <;> simp only [UseCase.latDim, UseCase.lonDim] at oj oi j1 i1 <;>
      simp only [ot, oj, oi, k1, j1, i1, and_self]
  refine ⟨hin, C07_pointwise h hs' hin he' ?_ ?_ ?_⟩
  · unfold stampAt; rw [ot, k2]
  · rw [hr.latitude, hr1.latitude]
    show lat.getD (original ks js is e' uc.latDim) Num.nan = lat'.getD (e' uc.latDim) Num.nan
    rw [oj, List.getD_eq_getElem?_getD, j2, ← List.getD_eq_getElem?_getD]
  · rw [hr.longitude, hr1.longitude]
    show lon.getD (original ks js is e' uc.lonDim) Num.nan = lon'.getD (e' uc.lonDim) Num.nan
    rw [oi, List.getD_eq_getElem?_getD, i2, ← List.getD_eq_getElem?_getD]

/-- hypotheses of C07_select are met: reversing and repeating -/
example : Picked [2, 0, 0] ([10, 11, 12] : List Nat) [12, 10, 10] ∧
    Together .sites [0] [2, 0, 0] [2, 0, 0] ∧ Together .transect [1, 0] [1, 0] [1, 0] := by
  simp [Picked, Together]

/-! ### C28: NaT exactly where the daylight length is NaN -/

/-- C28: at a cell whose time is an instant and whose true solar time is too (which by C30 fails only for
NaN longitudes), sunrise and sunset are NaT exactly where the daylight length is NaN. -/
theorem C28_nat_iff (w : World XR) (s : Sunpos XR) {u : String} (hu : u ∈ TimeUnits)
    {R S D : _} (hR : s.sunrise w u = .ok (.time R)) (hS : s.sunset w u = .ok (.time S))
    (hD : s.daylightLength w = .ok D) {e : Dim → Nat} {wall n τ : Int}
    (hw : stampAt s.times (e .time) = some wall) (hn : stampAt s.timesUtc (e .time) = some n)
    (hτ : (s.trueSolarTime w).get e = some τ) :
    (R.get e = none ↔ D.get e = .nan) ∧ (S.get e = none ↔ D.get e = .nan) := by
  obtain ⟨h1, h2, h3⟩ := C28_sunset_minus_sunrise w s hu hR hS hD e
  suffices ∀ v, D.get e = .fin v → R.get e ≠ none by
    have hfin : R.get e = none → D.get e = .nan := by
      intro hr
      cases hd : D.get e with
      | nan => rfl
      | fin v => exact absurd hr (this v hd)
    refine ⟨⟨hfin, fun h => (h1 h).1⟩, ?_, fun h => (h1 h).2⟩
    intro hs
    cases hd : D.get e with
    | nan => rfl
    | fin v =>
      obtain ⟨r, hr⟩ := Option.ne_none_iff_exists'.1 (this v hd)
      rw [(h3 v r hd hr).1] at hs
      cases hs
  intro v hv
  obtain ⟨D', hD', hdl⟩ := daylight_get w s
  rw [hD] at hD'
  obtain rfl := Except.ok.inj hD'
  obtain ⟨ω, hω⟩ : ∃ ω, s.wsr.get e = .fin ω := by
    cases hω : s.wsr.get e with
    | nan => rw [(hdl e).2 hω] at hv; cases hv
    | fin ω => exact ⟨ω, rfl⟩
  obtain ⟨x, hx⟩ : ∃ x, s.eot.get e = .fin x := by
    cases hx : s.eot.get e with
    | nan => rw [C30_nat w s (.inl hx)] at hτ; cases hτ
    | fin x => exact ⟨x, rfl⟩
  obtain ⟨l, hl⟩ : ∃ l, s.longitude.get e = .fin l := by
    cases hl : s.longitude.get e with
    | nan => rw [C30_nat w s (.inr hl)] at hτ; cases hτ
    | fin l => exact ⟨l, rfl⟩
  obtain ⟨r, hr⟩ : ∃ r, (s.sunriseTst w).get e = some r := by
    rw [sunriseTst_get, hω, hτ, wsrHours_fin]; exact ⟨_, rfl⟩
  obtain ⟨q, hq⟩ : ∃ q, (s.sunriseUtc w).get e = some q := by
    have : (s.sunriseUtc w).get e = tsub ((s.sunriseTst w).get e)
      (Scalar.toInt (minToNs (deltaMin (s.eot.get e) (s.longitude.get e)))) := rfl
    rw [this, hr, hx, hl, deltaMin_fin, minToNs_fin]; exact ⟨_, rfl⟩
  have hloc : (s.sunriseLocal w).get e = some (q + (wall - n)) := by
    have : (s.sunriseLocal w).get e = tadd ((s.sunriseUtc w).get e)
      (tsub (stampAt s.times (e .time)) (stampAt s.timesUtc (e .time))) := rfl
    rw [this, hq, hw, hn]; rfl
  simp only [TimeUnits, List.mem_cons, List.not_mem_nil, or_false] at hu
  rcases hu with rfl | rfl | rfl
  · have : s.sunrise w "tst" = .ok (.time (s.sunriseTst w)) := rfl
    rw [this] at hR; cases hR; rw [hr]; simp
  · have : s.sunrise w "utc" = .ok (.time (s.sunriseUtc w)) := rfl
    rw [this] at hR; cases hR; rw [hq]; simp
  · have : s.sunrise w "local" = .ok (.time (s.sunriseLocal w)) := rfl
    rw [this] at hR; cases hR; rw [hloc]; simp

/-- hypotheses of C28_nat_iff are met -/
example : ∃ (s : Sunpos XR) (n τ : Int), stampAt s.times 0 = some n ∧ stampAt s.timesUtc 0 = some n ∧
    (s.trueSolarTime exWorld).get (fun _ => 0) = some τ := by
  obtain ⟨s, d, x, D, τ, T, r, -, -, -, -, -, -, h1, h2, -, -, h3, -⟩ :=
    example_sunrise .sites (alg := "psa") (eng := "numpy") (by simp [KnownPair]) .pyTrue
      (t := 0) (by norm_num)
  exact ⟨s, 0, τ, h2, h1, h3⟩

/-! ### C50: between the latitudes -65 and 65 -/

/-- C50: in every call, at every cell with a time in the range of `datetime64[ns]` and a latitude from
-65 to 65 degrees, the sunrise angle is a number (so the polar branch of the command is not taken). -/
theorem C50_midlatitudes {uc : UseCase} {w : World XR} {times : Times} {latitude longitude : Coord XR}
    {alg eng : String} {refr : PyVal} {s : Sunpos XR} {e : Dim → Nat} {t : Int} {φ : ℝ}
    (h : call uc w times latitude longitude alg refr eng = .ok s)
    (hk : stampAt times.stamps (e .time) = some t) (hrange : |t| < 2 ^ 63)
    (hlat : s.latitude.get e = .fin φ) (hφ : |φ| ≤ 65) :
    ∃ A a, s.sunrise w "deg" = .ok (.angle A) ∧ A.get e = .fin a ∧ 0 ≤ a ∧ a ≤ 180 := by
  obtain ⟨d, hd, hd', -⟩ := C17_declination h hk hrange
  obtain ⟨R, D, -, hD, -, h2⟩ := C25_sunrise_angle w s hlat hd (by linarith) (by norm_num at hd' ⊢; linarith)
  obtain ⟨a, ha, -, h0, h1, -⟩ := h2 (rises hφ hd')
  exact ⟨D, a, hD, ha, h0, h1⟩

/-- hypotheses of C50_midlatitudes are met -/
example : ∃ s : Sunpos XR, call .sites exWorld (oneTime 0) (.vec [.fin 65]) (.vec [.fin 0]) "iqbal" .pyTrue
    "numpy" = .ok s ∧ s.latitude.get (fun _ => 0) = .fin 65 := by
  obtain ⟨s, hs, ha⟩ := single_call .sites (alg := "iqbal") (eng := "numpy") (by simp [KnownPair]) .pyTrue
    (t := 0) (by norm_num) (φ := 65) (l := 0) (by norm_num) (by norm_num)
  exact ⟨s, hs, ha.lat⟩

/-! ### C44: nrel and the rounding to binary32 -/

/-- the values of an accepted call -/
theorem call_values {F : Type} [Scalar F] {uc : UseCase} {w : World F} {times : Times}
    {latitude longitude : Coord F} {alg eng : String} {lat lon : List F} {b : Backend} (refr : PyVal)
    {utc : List (Option Int)} (ha : Accepted uc times latitude longitude alg eng lat lon b)
    (hu : localizeTimes w times = .ok utc) :
    ∃ s, call uc w times latitude longitude alg refr eng = .ok s ∧
      s.zenith.dims = documentedDims uc times.stamps.length lat.length lon.length ∧
      ∀ e : Dim → Nat, Within s.zenith e →
        ∃ v, v = b.valueAt uc (stampAt times.stamps (e .time)) (lon.getD (e uc.lonDim) Num.nan)
          (lat.getD (e uc.latDim) Num.nan) refr.isTrue ∧
        s.zenith.get e = v.zenith ∧ s.azimuth.get e = v.azimuth ∧ s.ecf.get e = v.ecf ∧
        s.eot.get e = v.eot ∧ s.declination.get e = v.declination := by
  obtain ⟨s, hs, hr⟩ := call_ok refr ha hu
  refine ⟨s, hs, ?_, ?_⟩
  · rw [hr.zen_dims]; cases uc <;> rfl
  intro e he
  obtain ⟨c1, c2, c3⟩ := cell_inv hr ha.len he
  obtain ⟨z, a⟩ := hr.cell e c1 c2 c3
  have hlat : s.latitude.get e = lat.getD (e uc.latDim) Num.nan := by rw [hr.latitude]; rfl
  have hlon : s.longitude.get e = lon.getD (e uc.lonDim) Num.nan := by rw [hr.longitude]; rfl
  obtain ⟨t1, t2, t3⟩ := hr.time e c1 (s.longitude.get e) (s.latitude.get e)
  rw [hlat, hlon] at z a t1 t2 t3
  exact ⟨_, rfl, z, a, t1, t2, t3⟩

/-- C44: a call of nrel that returns, returns the same in every cell whatever the rounding to binary32
does. -/
theorem C44_nrel_call {F : Type} (inst : Scalar F) (g : F → F) {uc : UseCase} {w : World F} {times : Times}
    {latitude longitude : Coord F} {eng : String} {refr : PyVal} {s : Sunpos F}
    (h : @call F inst uc w times latitude longitude "nrel" refr eng = .ok s) :
    ∃ s' : Sunpos F, @call F (withF32 inst g) uc w times latitude longitude "nrel" refr eng = .ok s' ∧
      s'.zenith.dims = s.zenith.dims ∧
      ∀ e, Within s.zenith e → SameAt s s' e e := by
  obtain ⟨lat, lon, b, utc, ha, hu, -⟩ := @call_inv F inst _ _ _ _ _ _ _ _ _ h
  have hb : b = .nrelNe := by
    have hn := ofNames_iff.1 ha.names
    cases b <;> simp at hn ⊢
  subst hb
  have ha' : @Accepted F (withF32 inst g) uc times latitude longitude "nrel" eng lat lon .nrelNe :=
    @Accepted.mk F (withF32 inst g) _ _ _ _ _ _ _ _ _ ha.nested ha.lat_eq ha.lon_eq ha.len ha.names ha.lonOk
      ha.latOk
  obtain ⟨s', hs', hd', hv'⟩ := @call_values F (withF32 inst g) _ w _ _ _ _ _ _ _ _ refr _ ha' hu
  obtain ⟨s0, hs, hd, hv⟩ := @call_values F inst _ w _ _ _ _ _ _ _ _ refr _ ha hu
  obtain rfl : s = s0 := Except.ok.inj (h.symm.trans hs)
  refine ⟨s', hs', hd'.trans hd.symm, ?_⟩
  intro e he
  obtain ⟨v, e1, z1, z2, z3, z4, z5⟩ := hv e he
  obtain ⟨v', e1', z1', z2', z3', z4', z5'⟩ := hv' e (by unfold Within at he ⊢; rw [hd']; rw [hd] at he; exact he)
  have : v' = v := by
    rw [e1, e1']
    cases stampAt times.stamps (e .time) with
    | none => rfl
    | some t => exact C44_nrel_binary64 inst g (toSec t) _ _ _
  subst this
  exact ⟨z1.trans z1'.symm, z2.trans z2'.symm, z3.trans z3'.symm, z4.trans z4'.symm, z5.trans z5'.symm⟩

/-- hypotheses of C44_nrel_call are met -/
example : ∃ s : Sunpos XR, call .sites exWorld (oneTime 0) (.vec [.fin 65]) (.vec [.fin 0]) "nrel" .pyTrue
    "numexpr" = .ok s := by
  obtain ⟨s, hs, -⟩ := single_call .sites (alg := "nrel") (eng := "numexpr") (by simp [KnownPair]) .pyTrue
    (t := 0) (by norm_num) (φ := 65) (l := 0) (by norm_num) (by norm_num)
  exact ⟨s, hs⟩

/-! ### C80: the true solar times of exchanged occurrences -/

/-- C80: with the second occurrence `d` of a wall-clock reading followed by the first occurrence `a` of the same or an earlier one,
the true solar times are those that the same call gives for naive times, less the time `d - c` between the two occurrences in the first row
and plus `b - a` in the second (to a nanosecond). -/
theorem C80_swapped_tst {off : Int → Int} (R : RegularZone off) {uc : UseCase} {w : World XR} {times : Times}
    {latitude longitude : Coord XR} {alg eng : String} {refr : PyVal} (hz : Zoned w times off) {s₀ : Sunpos XR}
    (h₀ : call uc w { times with tz := none } latitude longitude alg refr eng = .ok s₀) {a b c d : Int} (hab : Twins off a b)
    (hcd : Twins off c d) (hac : a ≤ c) (ht : times.stamps = [some d, some a]) (ha : |a| < 2 ^ 63) (hd : |d| < 2 ^ 63) :
    ∃ s, call uc w times latitude longitude alg refr eng = .ok s ∧
      ∀ (e : Dim → Nat) (l : ℝ), Within s₀.zenith e → s₀.longitude.get e = .fin l →
        ∃ τ τ₀ : Int, (s.trueSolarTime w).get e = some τ ∧ (s₀.trueSolarTime w).get e = some τ₀ ∧
          (e .time = 0 → |τ - (τ₀ - (d - c))| ≤ 1) ∧ (e .time = 1 → |τ - (τ₀ + (b - a))| ≤ 1) := by
  obtain ⟨s, hs, hu, -, -⟩ := C80_swapped R hz h₀ hab hcd hac ht
  refine ⟨s, hs, ?_⟩
  intro e l he hl
  obtain ⟨lat, lon, b0, utc, hacc, -, hr⟩ := call_inv h₀
  obtain ⟨lat', lon', b1, utc', hacc', -, hr'⟩ := call_inv hs
  obtain rfl : lat = lat' := Option.some.inj (hacc.lat_eq.symm.trans hacc'.lat_eq)
  obtain rfl : lon = lon' := Option.some.inj (hacc.lon_eq.symm.trans hacc'.lon_eq)
  obtain ⟨c1, -, -⟩ := cell_inv hr hacc.len he
  have hl' : s.longitude.get e = .fin l := by rw [hr'.longitude, ← hr.longitude]; exact hl
  have hu0 := (C12_naive h₀ rfl).1
  have hw : ∀ {x : Sunpos XR}, x.ecf.dims = [(.time, times.stamps.length)] → Within x.ecf e := by
    intro x hx; unfold Within; rw [hx]; simpa using c1
  obtain ⟨-, heot, -⟩ := C07_time_only (e := e) (e' := e) hs h₀ (hw hr'.ecf_dims) (hw hr.ecf_dims) rfl
  have key : ∀ n n' : Int, stampAt times.stamps (e .time) = some n → stampAt s.timesUtc (e .time) = some n' → |n| < 2 ^ 63 →
      ∃ τ τ₀ : Int, (s.trueSolarTime w).get e = some τ ∧ (s₀.trueSolarTime w).get e = some τ₀ ∧ |τ - (τ₀ + (n' - n))| ≤ 1 := by
    intro n n' hn hn' hb
    obtain ⟨x, hx, -⟩ := C19_eot (e := e) h₀ hn hb
    obtain ⟨τ₀, t1, t2, -⟩ := C30_tst w s₀ (e := e) (n := n) (by rw [hu0]; exact hn) hx hl
    obtain ⟨τ, t3, t4, -⟩ := C30_tst w s (e := e) hn' (heot.trans hx) hl'
    refine ⟨τ, τ₀, t3, t1, ?_⟩
    have h2 : ((|τ - (τ₀ + (n' - n))| : ℤ) : ℝ) < 2 := by
      push_cast
      rw [abs_lt] at *
      constructor <;> linarith [t2.1, t2.2, t4.1, t4.2]
    have h3 : |τ - (τ₀ + (n' - n))| < 2 := by exact_mod_cast h2
    omega
  have h2 : e .time = 0 ∨ e .time = 1 := by
    simp only [ht, List.length_cons, List.length_nil] at c1; omega
  rcases h2 with h0 | h0
  · obtain ⟨τ, τ₀, g1, g2, g3⟩ := key d c (by rw [h0, ht]; rfl) (by rw [h0, hu]; rfl) hd
    refine ⟨τ, τ₀, g1, g2, fun _ => ?_, fun h => by omega⟩
    rwa [show τ - (τ₀ - (d - c)) = τ - (τ₀ + (c - d)) by ring]
  · obtain ⟨τ, τ₀, g1, g2, g3⟩ := key a b (by rw [h0, ht]; rfl) (by rw [h0, hu]; rfl) ha
    exact ⟨τ, τ₀, g1, g2, fun h => by omega, fun _ => g3⟩

end SW.Props
