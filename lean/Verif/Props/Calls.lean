/-
Calls of `sites`, `regular_grid` and `transect`: dispatch, validation, shapes, NaT, pointwise
behaviour (C01-C08, C10-C12, C34, C44). Unless `XR` is mentioned the theorems hold for every
interpretation `F` of the floating point operations.
-/
import Verif.Master
import Verif.Spec

namespace SW.Props
open SW.Spec

variable {F : Type} [Scalar F]

/-! ### bridges from the specification to the model -/

theorem holds_flat {F : Type} {c : Coord F} {l : List F} : Holds c l ↔ c.flat? = some l := by
  cases c <;> simp [Holds, Coord.flat?, eq_comm]

theorem known_iff {alg eng : String} :
    KnownPair alg eng ↔ ∃ b, Backend.ofNames alg eng = some b := by
  constructor
  · intro h
    simp only [KnownPair, List.mem_cons, List.not_mem_nil, or_false] at h
    rcases h with ⟨rfl | rfl | rfl, rfl | rfl⟩ | ⟨rfl, rfl⟩
    · exact ⟨.psaPy, rfl⟩
    · exact ⟨.psaNe, rfl⟩
    · exact ⟨.soltrackPy, rfl⟩
    · exact ⟨.soltrackNe, rfl⟩
    · exact ⟨.iqbalPy, rfl⟩
    · exact ⟨.iqbalNe, rfl⟩
    · exact ⟨.nrelNe, rfl⟩
  · rintro ⟨b, h⟩
    rw [ofNames_iff] at h
    cases b <;> simp at h <;> obtain ⟨rfl, rfl⟩ := h <;> simp [KnownPair]

theorem lengths_iff {uc : UseCase} {K J I : Nat} : Lengths uc K J I ↔ uc.lenOk K J I := by
  cases uc <;> simp [Lengths, UseCase.lenOk] <;> omega

theorem latOk_XR {l : List XR} : LatOk l ↔ ∀ x ∈ l, LatAdm x := by
  refine forall_congr' fun x => forall_congr' fun _ => ?_
  cases x with
  | nan => simp [LatAdm, Scalar.isNan]
  | fin r =>
    have h1 : (-90 : XR) = XR.fin (-90) := rfl
    have h2 : (90.0 : XR) = XR.fin (90.0) := rfl
    have h3 : ((90.0 : ℝ)) = 90 := by norm_num
    simp [LatAdm, Scalar.isNan, Scalar.leB, XR.cmp, h1, h2, h3]

theorem lonOk_XR {l : List XR} : LonOk l ↔ ∀ x ∈ l, LonAdm x := by
  refine forall_congr' fun x => forall_congr' fun _ => ?_
  cases x with
  | nan => simp [LonAdm, Scalar.isNan]
  | fin r =>
    have h1 : (-180 : XR) = XR.fin (-180) := rfl
    have h2 : (180.0 : XR) = XR.fin (180.0) := rfl
    have h3 : ((180.0 : ℝ)) = 180 := by norm_num
    simp [LonAdm, Scalar.isNan, Scalar.leB, Scalar.ltB, XR.cmp, h1, h2, h3]

theorem known_accepts {uc : UseCase} {times : Times} {latitude longitude : Coord F}
    {alg eng alg' eng' : String} {lat lon : List F} {b : Backend}
    (h : Accepted uc times latitude longitude alg eng lat lon b) (hk : KnownPair alg' eng') :
    ∃ b', Accepted uc times latitude longitude alg' eng' lat lon b' := by
  obtain ⟨b', hb'⟩ := known_iff.1 hk
  exact ⟨b', h.nested, h.lat_eq, h.lon_eq, h.len, hb', h.lonOk, h.latOk⟩

/-- the cells of the object are the cells of its inputs -/
theorem cell_inv {s : Sunpos F} {uc : UseCase} {times : Times} {lat lon : List F}
    {alg eng : String} {refr : PyVal} {b : Backend} {utc : List (Option Int)} {e : Dim → Nat}
    (hr : Result s uc times lat lon alg eng refr b utc)
    (hl : uc.lenOk times.stamps.length lat.length lon.length)
    (h : Within s.zenith e) :
    e .time < times.stamps.length ∧ e uc.latDim < lat.length ∧ e uc.lonDim < lon.length := by
  unfold Within at h
  rw [hr.zen_dims] at h
  cases uc <;> simp [UseCase.lenOk, UseCase.latDim, UseCase.lonDim] at * <;> omega

/-! ### C01 -/

/-- C01: dispatch is total. If a call returns with some algorithm and engine, then with the same
other inputs it returns for exactly the documented pairs, and raises ValueError for all other
pairs of strings. -/
theorem C01_dispatch {uc : UseCase} {w : World F} {times : Times} {latitude longitude : Coord F}
    {alg₀ eng₀ : String} {refr₀ : PyVal} {s₀ : Sunpos F}
    (h₀ : call uc w times latitude longitude alg₀ refr₀ eng₀ = .ok s₀)
    (alg eng : String) (refr : PyVal) :
    ((∃ s, call uc w times latitude longitude alg refr eng = .ok s) ↔ KnownPair alg eng) ∧
    (¬ KnownPair alg eng →
      call uc w times latitude longitude alg refr eng = .error .valueError) := by
  obtain ⟨lat, lon, b, utc, ha, hu, -⟩ := call_inv h₀
  refine ⟨⟨?_, ?_⟩, ?_⟩
  · rintro ⟨s, hs⟩
    obtain ⟨_, _, b', _, ha', -, -⟩ := call_inv hs
    exact known_iff.2 ⟨b', ha'.names⟩
  · intro hk
    obtain ⟨b', ha'⟩ := known_accepts ha hk
    obtain ⟨s, hs, -⟩ := call_ok refr ha' hu
    exact ⟨s, hs⟩
  · intro hk
    refine call_rejected refr ha.nested ?_
    rintro ⟨_, _, b', ha'⟩
    exact hk (known_iff.2 ⟨b', ha'.names⟩)

/-- C01: an unknown pair is a ValueError whatever the (at most 1-dim) times and coordinates. -/
theorem C01_unknown_pair {uc : UseCase} {w : World F} {times : Times}
    {latitude longitude : Coord F} {alg eng : String} (refr : PyVal)
    (hn : times.nested = false) (hk : ¬ KnownPair alg eng) :
    call uc w times latitude longitude alg refr eng = .error .valueError := by
  refine call_rejected refr hn ?_
  rintro ⟨_, _, b', ha'⟩
  exact hk (known_iff.2 ⟨b', ha'.names⟩)

/-- C01: the object reports the algorithm, engine and refraction it was called with. -/
theorem C01_reports {uc : UseCase} {w : World F} {times : Times} {latitude longitude : Coord F}
    {alg eng : String} {refr : PyVal} {s : Sunpos F}
    (h : call uc w times latitude longitude alg refr eng = .ok s) :
    s.algorithm = alg ∧ s.engine = eng ∧ s.refraction = refr ∧ s.usecase = uc := by
  obtain ⟨_, _, _, _, _, _, hr⟩ := call_inv h
  exact ⟨hr.algorithm, hr.engine, hr.refraction, hr.usecase⟩

/-! ### C02, C03 -/

/-- C02, C03 for every arithmetic: accepted coordinates passed the comparisons, with the bounds
-90, 90 inclusive and -180 inclusive, 180 exclusive. -/
theorem C02_C03_any_arithmetic {uc : UseCase} {w : World F} {times : Times}
    {latitude longitude : Coord F} {alg eng : String} {refr : PyVal} {s : Sunpos F}
    (h : call uc w times latitude longitude alg refr eng = .ok s) :
    ∃ lat lon, Holds latitude lat ∧ Holds longitude lon ∧
      (∀ x ∈ lat, Scalar.isNan x = false → Scalar.leB (-90) x = true ∧ Scalar.leB x 90.0 = true) ∧
      (∀ x ∈ lon, Scalar.isNan x = false → Scalar.leB (-180) x = true ∧ Scalar.ltB x 180.0 = true) := by
  obtain ⟨lat, lon, b, utc, ha, hu, -⟩ := call_inv h
  exact ⟨lat, lon, holds_flat.2 ha.lat_eq, holds_flat.2 ha.lon_eq, ha.latOk, ha.lonOk⟩

/-- C02: accepted latitudes are NaN or in [-90, 90]. -/
theorem C02_accepted {uc : UseCase} {w : World XR} {times : Times} {latitude longitude : Coord XR}
    {alg eng : String} {refr : PyVal} {s : Sunpos XR} {lat : List XR}
    (h : call uc w times latitude longitude alg refr eng = .ok s) (hl : Holds latitude lat) :
    ∀ r, XR.fin r ∈ lat → -90 ≤ r ∧ r ≤ 90 := by
  obtain ⟨lat', lon, b, utc, ha, hu, -⟩ := call_inv h
  have : lat = lat' := by rw [holds_flat, ha.lat_eq] at hl; exact (Option.some.inj hl).symm
  subst this
  intro r hr
  exact latOk_XR.1 ha.latOk _ hr

/-- C02: a latitude outside the closed interval is a ValueError. -/
theorem C02_rejected {uc : UseCase} {w : World XR} {times : Times} {latitude longitude : Coord XR}
    {alg eng : String} (refr : PyVal) {lat : List XR} {r : ℝ}
    (hn : times.nested = false) (hl : Holds latitude lat) (hr : XR.fin r ∈ lat)
    (hout : r < -90 ∨ 90 < r) :
    call uc w times latitude longitude alg refr eng = .error .valueError := by
  refine call_rejected refr hn ?_
  rintro ⟨lat', lon, b', ha'⟩
  have : lat = lat' := by rw [holds_flat, ha'.lat_eq] at hl; exact (Option.some.inj hl).symm
  subst this
  have h : -90 ≤ r ∧ r ≤ 90 := latOk_XR.1 ha'.latOk _ hr
  rcases hout with h' | h' <;> linarith [h.1, h.2]

/-- C02: any admissible latitudes are accepted in place of accepted ones; in particular ±90 and
NaN. -/
theorem C02_admissible {uc : UseCase} {w : World XR} {times : Times}
    {latitude latitude' longitude : Coord XR} {alg eng : String} {refr : PyVal} {s : Sunpos XR}
    {lat lat' : List XR}
    (h : call uc w times latitude longitude alg refr eng = .ok s)
    (hl : Holds latitude lat) (hl' : Holds latitude' lat') (hlen : lat'.length = lat.length)
    (hadm : ∀ x ∈ lat', LatAdm x) :
    ∃ s', call uc w times latitude' longitude alg refr eng = .ok s' := by
  obtain ⟨lat₀, lon, b, utc, ha, hu, -⟩ := call_inv h
  have : lat = lat₀ := by rw [holds_flat, ha.lat_eq] at hl; exact (Option.some.inj hl).symm
  subst this
  obtain ⟨s', hs', -⟩ := call_ok (latitude := latitude') (lat := lat') refr
    ⟨ha.nested, holds_flat.1 hl', ha.lon_eq, by rw [hlen]; exact ha.len, ha.names, ha.lonOk,
      latOk_XR.2 hadm⟩ hu
  exact ⟨s', hs'⟩

/-- C03: accepted longitudes are NaN or in [-180, 180). -/
theorem C03_accepted {uc : UseCase} {w : World XR} {times : Times} {latitude longitude : Coord XR}
    {alg eng : String} {refr : PyVal} {s : Sunpos XR} {lon : List XR}
    (h : call uc w times latitude longitude alg refr eng = .ok s) (hl : Holds longitude lon) :
    ∀ r, XR.fin r ∈ lon → -180 ≤ r ∧ r < 180 := by
  obtain ⟨lat, lon', b, utc, ha, hu, -⟩ := call_inv h
  have : lon = lon' := by rw [holds_flat, ha.lon_eq] at hl; exact (Option.some.inj hl).symm
  subst this
  intro r hr
  exact lonOk_XR.1 ha.lonOk _ hr

/-- C03: a longitude outside the half-open interval is a ValueError. -/
theorem C03_rejected {uc : UseCase} {w : World XR} {times : Times} {latitude longitude : Coord XR}
    {alg eng : String} (refr : PyVal) {lon : List XR} {r : ℝ}
    (hn : times.nested = false) (hl : Holds longitude lon) (hr : XR.fin r ∈ lon)
    (hout : r < -180 ∨ 180 ≤ r) :
    call uc w times latitude longitude alg refr eng = .error .valueError := by
  refine call_rejected refr hn ?_
  rintro ⟨lat, lon', b', ha'⟩
  have : lon = lon' := by rw [holds_flat, ha'.lon_eq] at hl; exact (Option.some.inj hl).symm
  subst this
  have h : -180 ≤ r ∧ r < 180 := lonOk_XR.1 ha'.lonOk _ hr
  rcases hout with h' | h' <;> linarith [h.1, h.2]

/-- C03: longitude 180, which the documentation allows, is always a ValueError. -/
theorem C03_documented_180_rejected {uc : UseCase} {w : World XR} {times : Times}
    {latitude longitude : Coord XR} {alg eng : String} (refr : PyVal) {lon : List XR}
    (hn : times.nested = false) (hl : Holds longitude lon) (hr : XR.fin 180 ∈ lon) :
    call uc w times latitude longitude alg refr eng = .error .valueError :=
  C03_rejected refr hn hl hr (Or.inr le_rfl)

/-- C03: any admissible longitudes are accepted in place of accepted ones; in particular -180. -/
theorem C03_admissible {uc : UseCase} {w : World XR} {times : Times}
    {latitude longitude longitude' : Coord XR} {alg eng : String} {refr : PyVal} {s : Sunpos XR}
    {lon lon' : List XR}
    (h : call uc w times latitude longitude alg refr eng = .ok s)
    (hl : Holds longitude lon) (hl' : Holds longitude' lon') (hlen : lon'.length = lon.length)
    (hadm : ∀ x ∈ lon', LonAdm x) :
    ∃ s', call uc w times latitude longitude' alg refr eng = .ok s' := by
  obtain ⟨lat, lon₀, b, utc, ha, hu, -⟩ := call_inv h
  have : lon = lon₀ := by rw [holds_flat, ha.lon_eq] at hl; exact (Option.some.inj hl).symm
  subst this
  obtain ⟨s', hs', -⟩ := call_ok (longitude := longitude') (lon := lon') refr
    ⟨ha.nested, ha.lat_eq, holds_flat.1 hl', by rw [hlen]; exact ha.len, ha.names,
      lonOk_XR.2 hadm, ha.latOk⟩ hu
  exact ⟨s', hs'⟩

/-! ### C04 -/

/-- C04: wrong lengths are a ValueError, for every algorithm, engine, refraction and whatever the
coordinates contain. -/
theorem C04_lengths {uc : UseCase} {w : World F} {times : Times} {latitude longitude : Coord F}
    {alg eng : String} (refr : PyVal) {lat lon : List F}
    (hn : times.nested = false) (hlat : Holds latitude lat) (hlon : Holds longitude lon)
    (h : ¬ Lengths uc times.stamps.length lat.length lon.length) :
    call uc w times latitude longitude alg refr eng = .error .valueError := by
  refine call_rejected refr hn ?_
  rintro ⟨lat', lon', b', ha'⟩
  rw [holds_flat, ha'.lat_eq] at hlat
  rw [holds_flat, ha'.lon_eq] at hlon
  obtain rfl := Option.some.inj hlat
  obtain rfl := Option.some.inj hlon
  exact h (lengths_iff.2 ha'.len)

/-- C04: coordinates with two or more dimensions are a ValueError. -/
theorem C04_ndim {uc : UseCase} {w : World F} {times : Times} {latitude longitude : Coord F}
    {alg eng : String} (refr : PyVal) (hn : times.nested = false)
    (h : (∃ d, latitude = .nd d) ∨ (∃ d, longitude = .nd d)) :
    call uc w times latitude longitude alg refr eng = .error .valueError := by
  refine call_rejected refr hn ?_
  rintro ⟨lat', lon', b', ha'⟩
  rcases h with ⟨d, rfl⟩ | ⟨d, rfl⟩
  · have := ha'.lat_eq; simp [Coord.flat?] at this
  · have := ha'.lon_eq; simp [Coord.flat?] at this

/-! ### C05 -/

/-- C05: shapes and dimension names of what a call returns. -/
theorem C05_shape {uc : UseCase} {w : World F} {times : Times} {latitude longitude : Coord F}
    {alg eng : String} {refr : PyVal} {s : Sunpos F} {lat lon : List F}
    (h : call uc w times latitude longitude alg refr eng = .ok s)
    (hlat : Holds latitude lat) (hlon : Holds longitude lon) :
    s.zenith.dims = documentedDims uc times.stamps.length lat.length lon.length ∧
    s.azimuth.dims = documentedDims uc times.stamps.length lat.length lon.length ∧
    s.ecf.dims = [(.time, times.stamps.length)] ∧
    s.eot.dims = [(.time, times.stamps.length)] ∧
    s.declination.dims = [(.time, times.stamps.length)] := by
  obtain ⟨lat', lon', b', _, ha', _, hr⟩ := call_inv h
  rw [holds_flat, ha'.lat_eq] at hlat
  rw [holds_flat, ha'.lon_eq] at hlon
  obtain rfl := Option.some.inj hlat
  obtain rfl := Option.some.inj hlon
  have hz : s.zenith.dims = documentedDims uc times.stamps.length lat'.length lon'.length := by
    rw [hr.zen_dims]; cases uc <;> rfl
  exact ⟨hz, hr.azi_dims.trans hz, hr.ecf_dims, hr.eot_dims, hr.dec_dims⟩

/-- C05: with acceptable arguments and naive times a call always returns: no assertion of the
code and no broadcasting or assignment error can come out of it. -/
theorem C05_naive_returns {uc : UseCase} {w : World F} {times : Times}
    {latitude longitude : Coord F} {alg eng : String} (refr : PyVal) {lat lon : List F}
    (hn : times.nested = false) (htz : times.tz = none)
    (hlat : Holds latitude lat) (hlon : Holds longitude lon)
    (hlen : Lengths uc times.stamps.length lat.length lon.length) (hk : KnownPair alg eng)
    (hlatR : ∀ x ∈ lat, Scalar.isNan x = false →
      Scalar.leB (-90) x = true ∧ Scalar.leB x 90.0 = true)
    (hlonR : ∀ x ∈ lon, Scalar.isNan x = false →
      Scalar.leB (-180) x = true ∧ Scalar.ltB x 180.0 = true) :
    ∃ s, call uc w times latitude longitude alg refr eng = .ok s := by
  obtain ⟨b, hb⟩ := known_iff.1 hk
  have hu : localizeTimes w times = .ok times.wall := by
    simp [localizeTimes, timezoneOf, htz]
  obtain ⟨s, hs, -⟩ := call_ok (w := w) refr
    ⟨hn, holds_flat.1 hlat, holds_flat.1 hlon, lengths_iff.1 hlen, hb, hlonR, hlatR⟩ hu
  exact ⟨s, hs⟩

/-- C05: the only errors of a call are the documented ValueError, the TypeError for nested times,
and the failure of pandas to localise the wall-clock times in the time zone of the argument (which
cannot happen for naive times). -/
theorem C05_errors {uc : UseCase} {w : World F} {times : Times} {latitude longitude : Coord F}
    {alg eng : String} {refr : PyVal} {err : PyErr}
    (h : call uc w times latitude longitude alg refr eng = .error err) :
    err = .valueError ∨ (err = .typeError ∧ times.nested = true) ∨
    ∃ z, times.tz = some z ∧
      ((z.zone = .pyNone ∧ err = .typeError) ∨
       ∃ name, z.zone = .name name ∧ w.localize name times.wall = .error err) := by
  cases hn : times.nested with
  | true => rw [call_nested refr hn] at h; cases h; exact Or.inr (Or.inl ⟨rfl, rfl⟩)
  | false =>
    by_cases ha : ∃ lat lon b, Accepted uc times latitude longitude alg eng lat lon b
    · obtain ⟨lat, lon, b, ha⟩ := ha
      cases hu : localizeTimes w times with
      | ok utc =>
        obtain ⟨s', h1, h2⟩ := call_ok refr ha hu
        rw [h1] at h; cases h
      | error e' =>
        rw [call_localize_error refr ha hu] at h
        cases h
        right; right
        unfold localizeTimes at hu
        cases htz : times.tz with
        | none => simp [timezoneOf, htz] at hu
        | some z =>
          refine ⟨z, rfl, ?_⟩
          cases hz : z.zone with
          | absent => simp [timezoneOf, htz, hz] at hu
          | pyNone => simp [timezoneOf, htz, hz] at hu; exact Or.inl ⟨rfl, hu.symm⟩
          | name nm =>
            simp only [timezoneOf, htz, hz] at hu
            split at hu
            · rename_i heq; cases heq
            · cases hu
            · rename_i heq
              cases heq
              exact Or.inr ⟨_, rfl, hu⟩
    · rw [call_rejected refr hn ha] at h; cases h; exact Or.inl rfl

/-! ### C07: results are pointwise -/

/-- C07: the zenith and azimuth of a cell depend only on the time, latitude and longitude of the
cell, whatever the other cells hold and wherever it sits. -/
theorem C07_pointwise {uc : UseCase} {w w' : World F} {times times' : Times}
    {latitude longitude latitude' longitude' : Coord F}
    {alg eng : String} {refr : PyVal} {s s' : Sunpos F} {e e' : Dim → Nat}
    (h : call uc w times latitude longitude alg refr eng = .ok s)
    (h' : call uc w' times' latitude' longitude' alg refr eng = .ok s')
    (he : Within s.zenith e) (he' : Within s'.zenith e')
    (ht : stampAt times.stamps (e .time) = stampAt times'.stamps (e' .time))
    (hlat : s.latitude.get e = s'.latitude.get e')
    (hlon : s.longitude.get e = s'.longitude.get e') :
    SameAt s s' e e' := by
  obtain ⟨lat, lon, b, utc, ha, _, hr⟩ := call_inv h
  obtain ⟨lat', lon', b', utc', ha', _, hr'⟩ := call_inv h'
  obtain rfl : b = b' := Option.some.inj (ha.names.symm.trans ha'.names)
  obtain ⟨c1, c2, c3⟩ := cell_inv hr ha.len he
  obtain ⟨c1', c2', c3'⟩ := cell_inv hr' ha'.len he'
  obtain ⟨z, a⟩ := hr.cell e c1 c2 c3
  obtain ⟨z', a'⟩ := hr'.cell e' c1' c2' c3'
  obtain ⟨t1, t2, t3⟩ := hr.time e c1 (s.longitude.get e) (s.latitude.get e)
  obtain ⟨t1', t2', t3'⟩ := hr'.time e' c1' (s'.longitude.get e') (s'.latitude.get e')
  unfold stampAt at ht
  simp only [SameAt, z, z', a, a', t1, t1', t2, t2', t3, t3', ht, hlat, hlon, and_self]

/-- C07: ecf, eot and declination depend only on the time (and not even on the use case, the
coordinates or the refraction). -/
theorem C07_time_only {uc uc' : UseCase} {w w' : World F} {times times' : Times}
    {latitude longitude latitude' longitude' : Coord F}
    {alg eng : String} {refr refr' : PyVal} {s s' : Sunpos F} {e e' : Dim → Nat}
    (h : call uc w times latitude longitude alg refr eng = .ok s)
    (h' : call uc' w' times' latitude' longitude' alg refr' eng = .ok s')
    (he : Within s.ecf e) (he' : Within s'.ecf e')
    (ht : stampAt times.stamps (e .time) = stampAt times'.stamps (e' .time)) :
    SameTimeAt s s' e e' := by
  obtain ⟨lat, lon, b, utc, ha, _, hr⟩ := call_inv h
  obtain ⟨lat', lon', b', utc', ha', _, hr'⟩ := call_inv h'
  obtain rfl : b = b' := Option.some.inj (ha.names.symm.trans ha'.names)
  have c1 : e .time < times.stamps.length := by
    have := he; unfold Within at this; rw [hr.ecf_dims] at this; simpa using this
  have c1' : e' .time < times'.stamps.length := by
    have := he'; unfold Within at this; rw [hr'.ecf_dims] at this; simpa using this
  obtain ⟨t1, t2, t3⟩ := hr.time e c1 Num.nan Num.nan
  obtain ⟨t1', t2', t3'⟩ := hr'.time e' c1' Num.nan Num.nan
  unfold stampAt at ht
  unfold SameTimeAt
  rw [t1, t1', t2, t2', t3, t3', ht]
  cases (times'.stamps[e' .time]?).getD none with
  | none => exact ⟨rfl, rfl, rfl⟩
  | some t =>
    obtain ⟨q1, q2, q3⟩ := b.cell_time uc uc' (toSec t) (Num.nan : F) Num.nan Num.nan Num.nan
      refr.isTrue refr'.isTrue
    exact ⟨q1, q2, q3⟩

/-! ### C06: NaT -/

/-- C06: every value of a NaT row is NaN. -/
theorem C06_nat_rows {uc : UseCase} {w : World F} {times : Times}
    {latitude longitude : Coord F} {alg eng : String} {refr : PyVal} {s : Sunpos F}
    {e : Dim → Nat}
    (h : call uc w times latitude longitude alg refr eng = .ok s)
    (ht : times.stamps[e .time]? = some none) :
    (Within s.ecf e → s.ecf.get e = Num.nan ∧ s.eot.get e = Num.nan ∧
      s.declination.get e = Num.nan) ∧
    (Within s.zenith e → s.zenith.get e = Num.nan ∧ s.azimuth.get e = Num.nan) := by
  obtain ⟨lat, lon, b, utc, ha, _, hr⟩ := call_inv h
  constructor
  · intro he
    have c1 : e .time < times.stamps.length := by
      unfold Within at he; rw [hr.ecf_dims] at he; simpa using he
    obtain ⟨t1, t2, t3⟩ := hr.time e c1 Num.nan Num.nan
    simp only [ht, Option.getD_some, Backend.valueAt] at t1 t2 t3
    exact ⟨t1, t2, t3⟩
  · intro he
    obtain ⟨c1, c2, c3⟩ := cell_inv hr ha.len he
    obtain ⟨t1, t2⟩ := hr.cell e c1 c2 c3
    simp only [ht, Option.getD_some, Backend.valueAt] at t1 t2
    exact ⟨t1, t2⟩

/-- The entries of `l` whose time stamp is not NaT. -/
def dropNaT {α : Type} (stamps : List (Option Int)) (l : List α) : List α :=
  ((stamps.zip l).filter (fun p => p.1.isSome)).map Prod.snd

/-- C06: removing the NaT entries (with their coordinates, in a transect) leaves the other rows
alone: row `k` of the full call is row `k - (number of NaT before k)` of the reduced call. -/
theorem C06_other_rows {uc : UseCase} {w w' : World F} {times : Times}
    {lat lon : List F} {alg eng : String} {refr : PyVal} {s s' : Sunpos F}
    {e : Dim → Nat} {t : Int}
    (h : call uc w times (.vec lat) (.vec lon) alg refr eng = .ok s)
    (h' : call uc w' { times with stamps := times.stamps.filter Option.isSome }
      (.vec (if uc = .transect then dropNaT times.stamps lat else lat))
      (.vec (if uc = .transect then dropNaT times.stamps lon else lon)) alg refr eng = .ok s')
    (he : Within s.zenith e)
    (ht : times.stamps[e .time]? = some (some t)) :
    SameAt s s' e (Function.update e .time
      (e .time - ((times.stamps.take (e .time)).filter (fun o => o.isNone)).length)) := by
  have drop_eq : ∀ {α : Type} (ts : List (Option Int)) (l : List α),
      dropNaT ts l = maskSel ts l := by
    intro α ts
    induction ts with
    | nil => intro l; simp [dropNaT, maskSel]
    | cons a ts ih =>
      intro l
      cases l with
      | nil => cases a <;> simp [dropNaT, maskSel]
      | cons x l =>
        have := ih l
        cases a <;> simp [dropNaT, maskSel] at this ⊢ <;> exact this
  have hrank : e .time - ((times.stamps.take (e .time)).filter (fun o => o.isNone)).length
      = maskRank times.stamps (e .time) := by
    have hk : e .time < times.stamps.length := by
      by_contra hc
      rw [List.getElem?_eq_none (by omega)] at ht
      cases ht
    have h1 : (times.stamps.take (e .time)).length = e .time := by simp; omega
    have h2 : ∀ l : List (Option Int), (l.filter (fun o => o.isNone)).length
        + (l.filter Option.isSome).length = l.length := by
      intro l
      induction l with
      | nil => rfl
      | cons a l ih => cases a <;> simp <;> omega
    have := h2 (times.stamps.take (e .time))
    unfold maskRank
    omega
  rw [hrank]
  have hget : (times.stamps.filter Option.isSome)[maskRank times.stamps (e .time)]?
      = some (some t) := by
    have h0 : ∀ l : List (Option Int), l.filter Option.isSome = (l.filterMap id).map some := by
      intro l
      induction l with
      | nil => rfl
      | cons a l ih => cases a <;> simp [ih]
    rw [h0, List.getElem?_map, rank_get ht]; rfl
  obtain ⟨lat₀, lon₀, b, utc, ha, _, hr⟩ := call_inv h
  obtain ⟨lat', lon', b', utc', ha', _, hr'⟩ := call_inv h'
  obtain rfl : lat = lat₀ := Option.some.inj ha.lat_eq
  obtain rfl : lon = lon₀ := Option.some.inj ha.lon_eq
  obtain ⟨c1, c2, c3⟩ := cell_inv hr ha.len he
  have hk' : maskRank times.stamps (e .time) < (times.stamps.filter Option.isSome).length := by
    by_contra hc
    rw [List.getElem?_eq_none (by omega)] at hget
    cases hget
  have hl' : lat' = if uc = .transect then dropNaT times.stamps lat else lat :=
    (Option.some.inj ha'.lat_eq).symm
  have hn' : lon' = if uc = .transect then dropNaT times.stamps lon else lon :=
    (Option.some.inj ha'.lon_eq).symm
  have hlen := ha.len
  refine C07_pointwise h h' he ?_ ?_ ?_ ?_
  · unfold Within
    rw [hr'.zen_dims]
    cases uc <;> simp [UseCase.latDim, UseCase.lonDim] at * <;> simp_all
  · simp only [stampAt, ht, Function.update_self]
    rw [hget]
  · rw [hr.latitude, hr'.latitude]
    cases uc with
    | sites => simp [DA.along, hl', UseCase.latDim]
    | regularGrid => simp [DA.along, hl', UseCase.latDim]
    | transect =>
      simp only [UseCase.lenOk] at hlen
      simp only [DA.along, hl', UseCase.latDim, if_true, Function.update_self, drop_eq,
        List.getD_eq_getElem?_getD]
      rw [maskSel_get (by omega) ht]
  · rw [hr.longitude, hr'.longitude]
    cases uc with
    | sites => simp [DA.along, hn', UseCase.lonDim]
    | regularGrid => simp [DA.along, hn', UseCase.lonDim]
    | transect =>
      simp only [UseCase.lenOk] at hlen
      simp only [DA.along, hn', UseCase.lonDim, if_true, Function.update_self, drop_eq,
        List.getD_eq_getElem?_getD]
      rw [maskSel_get (by omega) ht]


/-! ### C08: agreement of the use cases, for every arithmetic -/

/-- C08: psa, nrel and the numpy engines give the same values in the three use cases, with any
floating point arithmetic. -/
theorem C08_usecases_agree {uc uc' : UseCase} {w w' : World F} {times times' : Times}
    {latitude longitude latitude' longitude' : Coord F}
    {alg eng : String} {refr : PyVal} {s s' : Sunpos F} {e e' : Dim → Nat}
    (h : call uc w times latitude longitude alg refr eng = .ok s)
    (h' : call uc' w' times' latitude' longitude' alg refr eng = .ok s')
    (hb : alg = "psa" ∨ alg = "nrel" ∨ eng = "numpy")
    (he : Within s.zenith e) (he' : Within s'.zenith e')
    (ht : stampAt times.stamps (e .time) = stampAt times'.stamps (e' .time))
    (hlat : s.latitude.get e = s'.latitude.get e')
    (hlon : s.longitude.get e = s'.longitude.get e') :
    SameAt s s' e e' := by
  obtain ⟨lat, lon, b, utc, ha, _, hr⟩ := call_inv h
  obtain ⟨lat', lon', b', utc', ha', _, hr'⟩ := call_inv h'
  obtain rfl : b = b' := Option.some.inj (ha.names.symm.trans ha'.names)
  obtain ⟨c1, c2, c3⟩ := cell_inv hr ha.len he
  obtain ⟨c1', c2', c3'⟩ := cell_inv hr' ha'.len he'
  obtain ⟨z, a⟩ := hr.cell e c1 c2 c3
  obtain ⟨z', a'⟩ := hr'.cell e' c1' c2' c3'
  obtain ⟨t1, t2, t3⟩ := hr.time e c1 (s.longitude.get e) (s.latitude.get e)
  obtain ⟨t1', t2', t3'⟩ := hr'.time e' c1' (s'.longitude.get e') (s'.latitude.get e')
  unfold stampAt at ht
  have hv : ∀ (o : Option Int) (x y : F) (r : Bool), b.valueAt uc o x y r = b.valueAt uc' o x y r := by
    intro o x y r
    cases o with
    | none => rfl
    | some t =>
      have hn := ofNames_iff.1 ha.names
      cases b <;> simp at hn <;> first | rfl | (obtain ⟨rfl, rfl⟩ := hn; simp at hb)
  simp only [SameAt, z, z', a, a', t1, t1', t2, t2', t3, t3', ht, hlat, hlon, hv, and_self]

/-- C08: soltrack (both engines) gives the same values in `regular_grid` and `transect`, and iqbal in
`sites` and `regular_grid`, with any floating point arithmetic. -/
theorem C08_usecases_agree_numexpr {uc uc' : UseCase} {w w' : World F} {times times' : Times}
    {latitude longitude latitude' longitude' : Coord F}
    {alg eng : String} {refr : PyVal} {s s' : Sunpos F} {e e' : Dim → Nat}
    (h : call uc w times latitude longitude alg refr eng = .ok s)
    (h' : call uc' w' times' latitude' longitude' alg refr eng = .ok s')
    (hb : (alg = "soltrack" ∧ uc ≠ .sites ∧ uc' ≠ .sites) ∨
      (alg = "iqbal" ∧ uc ≠ .transect ∧ uc' ≠ .transect))
    (he : Within s.zenith e) (he' : Within s'.zenith e')
    (ht : stampAt times.stamps (e .time) = stampAt times'.stamps (e' .time))
    (hlat : s.latitude.get e = s'.latitude.get e')
    (hlon : s.longitude.get e = s'.longitude.get e') :
    SameAt s s' e e' := by
  obtain ⟨lat, lon, b, utc, ha, _, hr⟩ := call_inv h
  obtain ⟨lat', lon', b', utc', ha', _, hr'⟩ := call_inv h'
  obtain rfl : b = b' := Option.some.inj (ha.names.symm.trans ha'.names)
  obtain ⟨c1, c2, c3⟩ := cell_inv hr ha.len he
  obtain ⟨c1', c2', c3'⟩ := cell_inv hr' ha'.len he'
  obtain ⟨z, a⟩ := hr.cell e c1 c2 c3
  obtain ⟨z', a'⟩ := hr'.cell e' c1' c2' c3'
  obtain ⟨t1, t2, t3⟩ := hr.time e c1 (s.longitude.get e) (s.latitude.get e)
  obtain ⟨t1', t2', t3'⟩ := hr'.time e' c1' (s'.longitude.get e') (s'.latitude.get e')
  unfold stampAt at ht
  have hv : ∀ (o : Option Int) (x y : F) (r : Bool), b.valueAt uc o x y r = b.valueAt uc' o x y r := by
    intro o x y r
    cases o with
    | none => rfl
    | some t =>
      have hn := ofNames_iff.1 ha.names
      cases b <;> simp at hn <;> first | rfl | (obtain ⟨rfl, rfl⟩ := hn)
      · simp at hb; simp [Backend.valueAt, Backend.cell, hb]
      · simp at hb; simp [Backend.valueAt, Backend.cell, hb]
  simp only [SameAt, z, z', a, a', t1, t1', t2, t2', t3, t3', ht, hlat, hlon, hv, and_self]

/-! ### C10, C11: the time argument -/

/-- C10: only the whole seconds of the times matter (floor, also before 1970). -/
theorem C10_subsecond {uc : UseCase} {w w' : World F} {times times' : Times}
    {latitude longitude : Coord F}
    {alg eng : String} {refr : PyVal} {s s' : Sunpos F} {e : Dim → Nat}
    (h : call uc w times latitude longitude alg refr eng = .ok s)
    (h' : call uc w' times' latitude longitude alg refr eng = .ok s')
    (ht : times.stamps.map (Option.map (fun ns => ns / 1000000000))
      = times'.stamps.map (Option.map (fun ns => ns / 1000000000)))
    (he : Within s.zenith e) :
    SameAt s s' e e := by
  obtain ⟨lat, lon, b, utc, ha, _, hr⟩ := call_inv h
  obtain ⟨lat', lon', b', utc', ha', _, hr'⟩ := call_inv h'
  obtain rfl : b = b' := Option.some.inj (ha.names.symm.trans ha'.names)
  obtain rfl : lat = lat' := Option.some.inj (ha.lat_eq.symm.trans ha'.lat_eq)
  obtain rfl : lon = lon' := Option.some.inj (ha.lon_eq.symm.trans ha'.lon_eq)
  obtain ⟨c1, c2, c3⟩ := cell_inv hr ha.len he
  have hlen : times.stamps.length = times'.stamps.length := by simpa using congrArg List.length ht
  have hlatE : s.latitude.get e = s'.latitude.get e := by rw [hr.latitude, hr'.latitude]
  have hlonE : s.longitude.get e = s'.longitude.get e := by rw [hr.longitude, hr'.longitude]
  obtain ⟨z, a⟩ := hr.cell e c1 c2 c3
  obtain ⟨z', a'⟩ := hr'.cell e (hlen ▸ c1) c2 c3
  obtain ⟨t1, t2, t3⟩ := hr.time e c1 (s.longitude.get e) (s.latitude.get e)
  obtain ⟨t1', t2', t3'⟩ := hr'.time e (hlen ▸ c1) (s'.longitude.get e) (s'.latitude.get e)
  have hg : Option.map toSec ((times.stamps[e .time]?).getD none)
      = Option.map toSec ((times'.stamps[e .time]?).getD none) := by
    rw [← stamps_getD, ← stamps_getD]
    have : times.stamps.map (Option.map toSec) = times'.stamps.map (Option.map toSec) := ht
    rw [this]
  have hv : ∀ (x y : F) (r : Bool), b.valueAt uc ((times.stamps[e .time]?).getD none) x y r
      = b.valueAt uc ((times'.stamps[e .time]?).getD none) x y r := by
    intro x y r
    revert hg
    cases (times.stamps[e .time]?).getD none <;> cases (times'.stamps[e .time]?).getD none <;>
      intro hg <;> simp_all [Backend.valueAt]
  simp only [SameAt, z, z', a, a', t1, t1', t2, t2', t3, t3', hlatE, hlonE, hv, and_self]

/-- C11: the five variables depend on the UTC instants only: not on the time zone object through
which the times are expressed (nor on pandas' localisation). -/
theorem C11_instants {uc : UseCase} {w w' : World F} {tz tz' : Option Tz} {nested nested' : Bool}
    {instants : List (Option Int)} {latitude longitude : Coord F}
    {alg eng : String} {refr : PyVal} {s s' : Sunpos F} {e : Dim → Nat}
    (h : call uc w ⟨nested, tz, instants⟩ latitude longitude alg refr eng = .ok s)
    (h' : call uc w' ⟨nested', tz', instants⟩ latitude longitude alg refr eng = .ok s')
    (he : Within s.zenith e) :
    SameAt s s' e e :=
  C10_subsecond h h' rfl he

/-! ### C12: times_utc -/

/-- C12: naive times: times_utc are the times. -/
theorem C12_naive {uc : UseCase} {w : World F} {times : Times} {latitude longitude : Coord F}
    {alg eng : String} {refr : PyVal} {s : Sunpos F}
    (h : call uc w times latitude longitude alg refr eng = .ok s) (htz : times.tz = none) :
    s.timesUtc = times.stamps ∧ s.timezone = some "UTC" := by
  obtain ⟨lat, lon, b, utc, ha, hu, hr⟩ := call_inv h
  have : localizeTimes w times = .ok times.stamps := by
    simp [localizeTimes, timezoneOf, htz, Times.wall]
  rw [this] at hu
  cases hu
  exact ⟨hr.timesUtc, by rw [hr.timezone]; simp [timezoneOf, htz]⟩

/-- What we assume of pandas: an instant returned for a wall-clock reading in the zone reads as that
wall-clock reading; NaT for NaT. -/
def LocalizeSound (w : World F) (name : String) (off : Int → Int) : Prop :=
  ∀ wall utc, w.localize name wall = .ok utc →
    List.Forall₂ (fun a b => match a, b with
      | none, none => True
      | some x, some u => u + off u = x
      | _, _ => False) wall utc

/-- C12: pytz zones: times_utc is the instant of the argument wherever its wall-clock reading is
unambiguous in the zone. -/
theorem C12_pytz {uc : UseCase} {w : World F} {times : Times} {latitude longitude : Coord F}
    {alg eng : String} {refr : PyVal} {s : Sunpos F} {z : Tz} {name : String} {k : Nat} {u : Int}
    (h : call uc w times latitude longitude alg refr eng = .ok s)
    (htz : times.tz = some z) (hz : z.zone = .name name)
    (hutc : name = "UTC" → ∀ v, z.off v = 0)
    (hw : LocalizeSound w name z.off)
    (hk : times.stamps[k]? = some (some u))
    (hamb : ∀ v, v + z.off v = u + z.off u → v = u) :
    s.timesUtc[k]? = some (some u) := by
  obtain ⟨lat, lon, b, utc, ha, hu, hr⟩ := call_inv h
  rw [hr.timesUtc]
  have hwall : times.wall[k]? = some (some (u + z.off u)) := by
    simp [Times.wall, htz, hk]
  by_cases hU : name = "UTC"
  · subst hU
    have : localizeTimes w times = .ok times.wall := by
      simp [localizeTimes, timezoneOf, htz, hz]
    rw [this] at hu
    cases hu
    rw [hwall, hutc rfl]; simp
  · have : localizeTimes w times = w.localize name times.wall := by
      simp only [localizeTimes, timezoneOf, htz, hz]
    rw [this] at hu
    have hf := hw _ _ hu
    have hk2 : k < utc.length := by
      rw [← hf.length_eq]
      by_contra hc
      rw [List.getElem?_eq_none (by omega)] at hwall
      cases hwall
    have hk1 : k < times.wall.length := by rw [hf.length_eq]; exact hk2
    have hrel := (List.forall₂_iff_get.1 hf).2 k hk1 hk2
    have e1 : times.wall.get ⟨k, hk1⟩ = some (u + z.off u) := by
      rw [List.getElem?_eq_getElem hk1] at hwall
      exact Option.some.inj hwall
    rw [e1] at hrel
    rw [List.getElem?_eq_getElem hk2]
    revert hrel
    simp only [List.get_eq_getElem]
    cases utc[k] with
    | none => intro hrel; exact hrel.elim
    | some v => intro hrel; rw [hamb v hrel]

/-- C12: a time zone object without attribute `zone` (zoneinfo, datetime.timezone): times_utc are the
wall-clock readings, i.e. the instants plus the UTC offset, and `timezone` says UTC. -/
theorem C12_no_zone_attribute {uc : UseCase} {w : World F} {times : Times}
    {latitude longitude : Coord F} {alg eng : String} {refr : PyVal} {s : Sunpos F} {z : Tz}
    (h : call uc w times latitude longitude alg refr eng = .ok s)
    (htz : times.tz = some z) (hz : z.zone = .absent) :
    s.timesUtc = times.stamps.map (Option.map (fun u => u + z.off u)) ∧
    s.timezone = some "UTC" := by
  obtain ⟨lat, lon, b, utc, ha, hu, hr⟩ := call_inv h
  have : localizeTimes w times = .ok times.wall := by
    simp [localizeTimes, timezoneOf, htz, hz]
  rw [this] at hu
  cases hu
  exact ⟨by rw [hr.timesUtc]; simp [Times.wall, htz], by rw [hr.timezone]; simp [timezoneOf, htz, hz]⟩

/-- C12: hence times_utc is the instant asked for only where the offset is zero. -/
theorem C12_no_zone_attribute_wrong {uc : UseCase} {w : World F} {times : Times}
    {latitude longitude : Coord F} {alg eng : String} {refr : PyVal} {s : Sunpos F} {z : Tz}
    {k : Nat} {u : Int}
    (h : call uc w times latitude longitude alg refr eng = .ok s)
    (htz : times.tz = some z) (hz : z.zone = .absent) (hk : times.stamps[k]? = some (some u)) :
    s.timesUtc[k]? = some (some u) ↔ z.off u = 0 := by
  rw [(C12_no_zone_attribute h htz hz).1, List.getElem?_map, hk]
  simp

/-- C12: with pytz.FixedOffset (attribute `zone` is None) an otherwise accepted call is a TypeError,
so no such call ever returns. -/
theorem C12_fixed_offset {uc : UseCase} {w : World F} {times : Times}
    {latitude longitude : Coord F} {alg eng : String} {refr : PyVal} {z : Tz}
    (htz : times.tz = some z) (hz : z.zone = .pyNone) :
    (∀ s, call uc w times latitude longitude alg refr eng ≠ .ok s) ∧
    ∀ s₀, call uc w { times with tz := none } latitude longitude alg refr eng = .ok s₀ →
      call uc w times latitude longitude alg refr eng = .error .typeError := by
  have hl : localizeTimes w times = .error .typeError := by
    simp [localizeTimes, timezoneOf, htz, hz]
  constructor
  · intro s h
    obtain ⟨lat, lon, b, utc, ha, hu, hr⟩ := call_inv h
    rw [hl] at hu; cases hu
  · intro s₀ h₀
    obtain ⟨lat, lon, b, utc, ha, hu, hr⟩ := call_inv h₀
    exact call_localize_error refr
      ⟨ha.nested, ha.lat_eq, ha.lon_eq, ha.len, ha.names, ha.lonOk, ha.latOk⟩ hl

/-! ### C34: refraction must be literally True -/

/-- C34: any argument other than `True` gives the results of `False`, while the object reports the
argument unchanged. -/
theorem C34_not_true {uc : UseCase} {w : World F} {times : Times} {latitude longitude : Coord F}
    {alg eng : String} {v : PyVal} {s s' : Sunpos F}
    (h : call uc w times latitude longitude alg v eng = .ok s)
    (h' : call uc w times latitude longitude alg .pyFalse eng = .ok s')
    (hv : v ≠ .pyTrue) :
    s.refraction = v ∧ ∀ e, Within s.zenith e → SameAt s s' e e := by
  obtain ⟨lat, lon, b, utc, ha, hu, hr⟩ := call_inv h
  obtain ⟨lat', lon', b', utc', ha', _, hr'⟩ := call_inv h'
  obtain rfl : b = b' := Option.some.inj (ha.names.symm.trans ha'.names)
  obtain rfl : lat = lat' := Option.some.inj (ha.lat_eq.symm.trans ha'.lat_eq)
  obtain rfl : lon = lon' := Option.some.inj (ha.lon_eq.symm.trans ha'.lon_eq)
  have hT : v.isTrue = PyVal.pyFalse.isTrue := by cases v <;> first | rfl | exact absurd rfl hv
  refine ⟨hr.refraction, fun e he => ?_⟩
  obtain ⟨c1, c2, c3⟩ := cell_inv hr ha.len he
  have hlatE : s.latitude.get e = s'.latitude.get e := by rw [hr.latitude, hr'.latitude]
  have hlonE : s.longitude.get e = s'.longitude.get e := by rw [hr.longitude, hr'.longitude]
  obtain ⟨z, a⟩ := hr.cell e c1 c2 c3
  obtain ⟨z', a'⟩ := hr'.cell e c1 c2 c3
  obtain ⟨t1, t2, t3⟩ := hr.time e c1 (s.longitude.get e) (s.latitude.get e)
  obtain ⟨t1', t2', t3'⟩ := hr'.time e c1 (s'.longitude.get e) (s'.latitude.get e)
  simp only [SameAt, z, z', a, a', t1, t1', t2, t2', t3, t3', hlatE, hlonE, hT, and_self]

/-- C34: refraction changes nothing but the zenith. -/
theorem C34_only_zenith {uc : UseCase} {w : World F} {times : Times} {latitude longitude : Coord F}
    {alg eng : String} {v v' : PyVal} {s s' : Sunpos F} {e : Dim → Nat}
    (h : call uc w times latitude longitude alg v eng = .ok s)
    (h' : call uc w times latitude longitude alg v' eng = .ok s')
    (he : Within s.zenith e) :
    s.azimuth.get e = s'.azimuth.get e ∧ SameTimeAt s s' e e := by
  obtain ⟨lat, lon, b, utc, ha, hu, hr⟩ := call_inv h
  obtain ⟨lat', lon', b', utc', ha', _, hr'⟩ := call_inv h'
  obtain rfl : b = b' := Option.some.inj (ha.names.symm.trans ha'.names)
  obtain rfl : lat = lat' := Option.some.inj (ha.lat_eq.symm.trans ha'.lat_eq)
  obtain rfl : lon = lon' := Option.some.inj (ha.lon_eq.symm.trans ha'.lon_eq)
  obtain ⟨c1, c2, c3⟩ := cell_inv hr ha.len he
  have hlatE : s.latitude.get e = s'.latitude.get e := by rw [hr.latitude, hr'.latitude]
  have hlonE : s.longitude.get e = s'.longitude.get e := by rw [hr.longitude, hr'.longitude]
  obtain ⟨_, a⟩ := hr.cell e c1 c2 c3
  obtain ⟨_, a'⟩ := hr'.cell e c1 c2 c3
  obtain ⟨t1, t2, t3⟩ := hr.time e c1 (s.longitude.get e) (s.latitude.get e)
  obtain ⟨t1', t2', t3'⟩ := hr'.time e c1 (s'.longitude.get e) (s'.latitude.get e)
  unfold SameTimeAt
  rw [a, a', t1, t1', t2, t2', t3, t3', hlatE, hlonE]
  cases (times.stamps[e .time]?).getD none with
  | none => exact ⟨rfl, rfl, rfl, rfl⟩
  | some t => cases b <;> exact ⟨rfl, rfl, rfl, rfl⟩

/-! ### C44: binary32 coordinates -/

/-- C44: for psa, soltrack and iqbal only the coordinates rounded to binary32 matter. -/
theorem C44_binary32 {uc : UseCase} {w w' : World F} {times times' : Times}
    {latitude longitude latitude' longitude' : Coord F}
    {alg eng : String} {refr : PyVal} {s s' : Sunpos F} {e e' : Dim → Nat}
    (h : call uc w times latitude longitude alg refr eng = .ok s)
    (h' : call uc w' times' latitude' longitude' alg refr eng = .ok s')
    (halg : alg ≠ "nrel")
    (he : Within s.zenith e) (he' : Within s'.zenith e')
    (ht : stampAt times.stamps (e .time) = stampAt times'.stamps (e' .time))
    (hlat : Num.f32 (s.latitude.get e) = Num.f32 (s'.latitude.get e'))
    (hlon : Num.f32 (s.longitude.get e) = Num.f32 (s'.longitude.get e')) :
    SameAt s s' e e' := by
  obtain ⟨lat, lon, b, utc, ha, _, hr⟩ := call_inv h
  obtain ⟨lat', lon', b', utc', ha', _, hr'⟩ := call_inv h'
  obtain rfl : b = b' := Option.some.inj (ha.names.symm.trans ha'.names)
  obtain ⟨c1, c2, c3⟩ := cell_inv hr ha.len he
  obtain ⟨c1', c2', c3'⟩ := cell_inv hr' ha'.len he'
  obtain ⟨z, a⟩ := hr.cell e c1 c2 c3
  obtain ⟨z', a'⟩ := hr'.cell e' c1' c2' c3'
  obtain ⟨t1, t2, t3⟩ := hr.time e c1 (s.longitude.get e) (s.latitude.get e)
  obtain ⟨t1', t2', t3'⟩ := hr'.time e' c1' (s'.longitude.get e') (s'.latitude.get e')
  unfold stampAt at ht
  have hv : ∀ (o : Option Int) (r : Bool),
      b.valueAt uc o (s.longitude.get e) (s.latitude.get e) r
        = b.valueAt uc o (s'.longitude.get e') (s'.latitude.get e') r := by
    intro o r
    cases o with
    | none => rfl
    | some t =>
      have hn := ofNames_iff.1 ha.names
      cases b
      · simp only [Backend.valueAt, Backend.cell, Psa.cellPy, hlat, hlon]
      · simp only [Backend.valueAt, Backend.cell, Psa.cellNe, hlat, hlon]
      · simp only [Backend.valueAt, Backend.cell, Soltrack.cellPy, hlat, hlon]
      · simp only [Backend.valueAt, Backend.cell, Soltrack.cellNe, hlat, hlon]
      · simp only [Backend.valueAt, Backend.cell, Iqbal.cellPy, hlat, hlon]
      · simp only [Backend.valueAt, Backend.cell, Iqbal.cellNe, hlat, hlon]
      · simp at hn; exact absurd hn.1 halg
  simp only [SameAt, z, z', a, a', t1, t1', t2, t2', t3, t3', ht, hv, and_self]


/-- the same arithmetic with another rounding to binary32 -/
@[reducible] def withF32 (inst : Scalar F) (g : F → F) : Scalar F :=
  { inst with f32 := g }

omit [Scalar F] in
/-- C44: nrel never rounds to binary32: its results are the same whatever that rounding does. -/
theorem C44_nrel_binary64 (inst : Scalar F) (g : F → F) (t : Int) (lon lat : F) (r : Bool) :
    @Nrel.cell F (withF32 inst g) t lon lat r = @Nrel.cell F inst t lon lat r := by
  -- `rfl`, checked by the kernel only (the elaborator's unifier is too slow on the nrel tables)
  run_tac do
    let g ← Lean.Elab.Tactic.getMainGoal
    let some (_, lhs, _) := (← g.getType).eq? | throwError "not an equality"
    g.assign (← Lean.Meta.mkEqRefl lhs)

/-! ### concrete instances: the hypotheses of the theorems above are met -/

section examples

/-- a world in which localisation is by a fixed offset of one hour -/
noncomputable def exWorld : World XR :=
  ⟨fun _ l => .ok (l.map (Option.map (fun x => x - 3600000000000))), XR.nan⟩
/-- 2020-01-01 00:00:00.5, NaT, and an instant before 1970 -/
def exTimes : Times := ⟨false, none, [some 1577836800500000000, none, some (-1)]⟩
/-- the same instants in a zone without attribute `zone` -/
def exTimesZoneinfo : Times :=
  ⟨false, some ⟨.absent, fun _ => 3600000000000⟩, exTimes.stamps⟩
/-- the same instants in a pytz zone -/
def exTimesPytz : Times :=
  ⟨false, some ⟨.name "Africa/Lagos", fun _ => 3600000000000⟩, exTimes.stamps⟩

private theorem ex_adm : ∀ x ∈ ([.fin 36.7, .fin (-90), .nan] : List XR),
    Scalar.isNan x = false → Scalar.leB (-90) x = true ∧ Scalar.leB x 90.0 = true := by
  apply latOk_XR.2
  simp only [List.mem_cons, List.not_mem_nil, or_false, forall_eq_or_imp, forall_eq, LatAdm]
  norm_num
private theorem ex_lon : ∀ x ∈ ([.fin (-180), .nan, .fin (-4.5)] : List XR),
    Scalar.isNan x = false → Scalar.leB (-180) x = true ∧ Scalar.ltB x 180.0 = true := by
  apply lonOk_XR.2
  simp only [List.mem_cons, List.not_mem_nil, or_false, forall_eq_or_imp, forall_eq, LonAdm]
  norm_num

/-- a call that returns exists for every use case and documented pair: with poles, NaN coordinates,
NaT, sub-second parts and dates before 1970. -/
theorem example_call (uc : UseCase) {alg eng : String} (hk : KnownPair alg eng) (refr : PyVal) :
    ∃ s, call uc exWorld exTimes (.vec [.fin 36.7, .fin (-90), .nan])
      (.vec [.fin (-180), .nan, .fin (-4.5)]) alg refr eng = .ok s :=
  C05_naive_returns refr rfl rfl rfl rfl (by cases uc <;> simp [Lengths, exTimes]) hk ex_adm ex_lon

example : KnownPair "iqbal" "numexpr" ∧ ¬ KnownPair "nrel" "numpy" ∧ ¬ KnownPair "PSA" "numpy" := by
  simp [KnownPair]

/-- zoneinfo and pytz arguments are accepted too -/
theorem example_call_tz (uc : UseCase) {alg eng : String} (hk : KnownPair alg eng) (refr : PyVal)
    {times : Times} (ht : times = exTimesZoneinfo ∨ times = exTimesPytz) :
    ∃ s, call uc exWorld times (.vec [.fin 36.7, .fin (-90), .nan])
      (.vec [.fin (-180), .nan, .fin (-4.5)]) alg refr eng = .ok s := by
  obtain ⟨s, hs⟩ := example_call uc hk refr
  obtain ⟨lat, lon, b, utc, ha, hu, -⟩ := call_inv hs
  obtain ⟨utc', hu'⟩ : ∃ utc', localizeTimes exWorld times = .ok utc' := by
    rcases ht with rfl | rfl
    · exact ⟨_, rfl⟩
    · exact ⟨_, rfl⟩
  have hl : times.stamps = exTimes.stamps := by rcases ht with rfl | rfl <;> rfl
  have hn : times.nested = false := by rcases ht with rfl | rfl <;> rfl
  obtain ⟨s', h', -⟩ := call_ok refr
    (⟨hn, ha.lat_eq, ha.lon_eq, by rw [hl]; exact ha.len, ha.names, ha.lonOk, ha.latOk⟩ :
      Accepted uc times _ _ alg eng lat lon b) hu'
  exact ⟨s', h'⟩

/-- the soundness assumption of C12 is met by a concrete localisation -/
example : LocalizeSound exWorld "Africa/Lagos" (fun _ => 3600000000000) := by
  intro wall utc h
  simp only [exWorld, Except.ok.injEq] at h
  subst h
  induction wall with
  | nil => exact .nil
  | cons a l ih => exact .cons (by cases a <;> simp) ih

/-- C12 on a concrete object: one hour off -/
example : ∃ s, call .sites exWorld exTimesZoneinfo (.vec [.fin 36.7, .fin (-90), .nan])
      (.vec [.fin (-180), .nan, .fin (-4.5)]) "nrel" .pyTrue "numexpr" = .ok s ∧
      s.timesUtc = [some 1577840400500000000, none, some 3599999999999] := by
  obtain ⟨s, hs⟩ := example_call_tz .sites (alg := "nrel") (eng := "numexpr") (by simp [KnownPair])
    .pyTrue (Or.inl rfl)
  exact ⟨s, hs, (C12_no_zone_attribute hs rfl rfl).1⟩

/-- a cell that exists, and the NaT row of C06 -/
example : ∃ s, call .regularGrid exWorld exTimes (.vec [.fin 36.7, .fin (-90), .nan])
      (.vec [.fin (-180), .nan, .fin (-4.5)]) "psa" .pyFalse "numpy" = .ok s ∧
      Within s.zenith (fun _ => 1) ∧ exTimes.stamps[1]? = some none ∧
      s.zenith.get (fun _ => 1) = XR.nan := by
  obtain ⟨s, hs⟩ := example_call .regularGrid (alg := "psa") (eng := "numpy") (by simp [KnownPair])
    .pyFalse
  have hd := (C05_shape hs rfl rfl).1
  have hw : Within s.zenith (fun _ => 1) := by
    unfold Within; rw [hd]; simp [documentedDims, exTimes]
  exact ⟨s, hs, hw, rfl, ((C06_nat_rows hs rfl).2 hw).1⟩

end examples

end SW.Props
