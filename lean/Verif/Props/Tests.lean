/-
C81: the project's own tests.
-/
import Verif.Tests
import Verif.Props.AirDay

namespace SW.Props
open SW SW.Spec SW.Tests Real Sunpos
open SW.Ephem (century declination hourAngle distance)

theorem isclose_fin {x y : ℝ} {a r : XR} {α ρ : ℝ} (ha : a = .fin α) (hr : r = .fin ρ) (h : |x - y| ≤ α + ρ * |y|) :
    isclose a r (.fin x) (.fin y) = true := by
  subst ha hr
  exact decide_eq_true (p := |x - y| ≤ α + ρ * |y|) h

theorem xr_two : (2.0 : XR) = .fin 2 := congrArg XR.fin (by rw [Nrel.lit_real]; norm_num)
theorem xr_zero : (0.0 : XR) = .fin 0 := congrArg XR.fin (by rw [Nrel.lit_real]; norm_num)
theorem xr_cent : (0.01 : XR) = .fin 0.01 := congrArg XR.fin (by rw [Nrel.lit_real]; norm_num)
theorem xr_ten : (10 : XR) = .fin 10 := congrArg XR.fin (by show ((10 : ℕ) : ℝ) = 10; norm_num)

theorem assert_allclose {F : Type} [Scalar F] {a b : DA F} {p q : F} (hd : a.dims = b.dims)
    (h : ∀ e : Dim → Nat, (∀ p ∈ a.dims, e p.1 < p.2) → isclose p q (a.get e) (b.get e) = true) :
    assertThat (allclose a b p q) = .ok () := by
  classical
  unfold assertThat allclose
  rw [if_pos]
  exact decide_eq_true ⟨hd, h⟩

/-- the time-only values of an algorithm against those of nrel -/
theorem time_passes {uc1 uc2 : UseCase} {w1 w2 : World XR} {times1 times2 : Times} {lat1 lon1 lat2 lon2 : Coord XR}
    {eng1 alg eng2 : String} {refr1 refr2 : PyVal} {s1 s2 : Sunpos XR} {e1 e2 : Dim → Nat} {t : Int}
    (h1 : call uc1 w1 times1 lat1 lon1 "nrel" refr1 eng1 = .ok s1)
    (h2 : call uc2 w2 times2 lat2 lon2 alg refr2 eng2 = .ok s2)
    (hk1 : stampAt times1.stamps (e1 .time) = some t) (hk2 : stampAt times2.stamps (e2 .time) = some t)
    (hrange : |t| < 2 ^ 63) :
    isclose 2.0 0.0 (s1.decDeg.get e1) (s2.decDeg.get e2) = true ∧
    isclose 10 0.0 (s1.eot.get e1) (s2.eot.get e2) = true ∧
    isclose 0.0 0.01 (s1.ecf.get e1) (s2.ecf.get e2) = true := by
  obtain ⟨d1, d2, hd1, hd2, hd⟩ := C63_declination h1 h2 hk1 hk2 hrange
  obtain ⟨x1, x2, hx1, hx2, k, hx⟩ := C63_eot h1 h2 hk1 hk2 hrange
  obtain ⟨f1, f2, hf1, hf2, hf⟩ := C63_ecf h1 h2 hk1 hk2 hrange
  obtain ⟨y1, hy1, b1⟩ := C19_eot h1 hk1 hrange
  obtain ⟨y2, hy2, b2⟩ := C19_eot h2 hk2 hrange
  obtain ⟨g2, hg2, c2, -⟩ := C18_ecf h2 hk2 hrange
  obtain rfl : x1 = y1 := XR.fin_inj.1 (hx1.symm.trans hy1)
  obtain rfl : x2 = y2 := XR.fin_inj.1 (hx2.symm.trans hy2)
  obtain rfl : f2 = g2 := XR.fin_inj.1 (hf2.symm.trans hg2)
  have e1 : decError "nrel" = 0.019 := by simp [decError]
  have e2 : eotError "nrel" = 0.117 := by simp [eotError]
  have e3 : ecfError "nrel" = 4.2e-4 := by simp [ecfError]
  have a1 : decError alg ≤ 1.06 := by unfold decError; split_ifs <;> norm_num
  have a2 : eotError alg ≤ 2.15 := by unfold eotError; split_ifs <;> norm_num
  have a3 : ecfError alg ≤ 0.0046 := by unfold ecfError; split_ifs <;> norm_num
  rw [e1] at hd; rw [e2] at hx; rw [e3] at hf
  rw [hd1, hd2, hx1, hx2, hf1, hf2]
  refine ⟨isclose_fin xr_two xr_zero ?_, isclose_fin xr_ten xr_zero ?_, isclose_fin xr_zero xr_cent ?_⟩
  · norm_num at hd a1 ⊢; linarith
  · obtain rfl : k = 0 := by
      have b1 := abs_le.1 b1
      have b2 := abs_le.1 b2
      have hx := abs_le.1 hx
      norm_num at hx a2 b1 b2
      have u1 : (-1 : ℝ) < k := by linarith
      have u2 : (k : ℝ) < 1 := by linarith
      have v1 : (-1 : ℤ) < k := by exact_mod_cast u1
      have v2 : k < (1 : ℤ) := by exact_mod_cast u2
      omega
    norm_num at hx a2 ⊢; linarith
  · rw [abs_of_pos (show 0 < f2 by norm_num at c2 ⊢; linarith)]
    norm_num at hf a3 c2 ⊢; linarith

/-- the zenith angle of an algorithm against that of nrel -/
theorem zenith_passes {uc1 uc2 : UseCase} {w1 w2 : World XR} {times1 times2 : Times} {lat1 lon1 lat2 lon2 : Coord XR}
    {eng1 alg eng2 : String} {refr1 refr2 : PyVal} {s1 s2 : Sunpos XR} {e1 e2 : Dim → Nat} {t : Int} {φ l : ℝ}
    (h1 : call uc1 w1 times1 lat1 lon1 "nrel" refr1 eng1 = .ok s1) (hr1 : refr1 ≠ .pyTrue)
    (h2 : call uc2 w2 times2 lat2 lon2 alg refr2 eng2 = .ok s2) (hr2 : refr2 ≠ .pyTrue)
    (ha1 : At s1 times1 e1 t φ l) (ha2 : At s2 times2 e2 t φ l) :
    isclose 2.0 0.0 (s1.zenithDeg.get e1) (s2.zenithDeg.get e2) = true := by
  obtain ⟨z1, hz1, -, -, b1⟩ := zenithDeg_near h1 hr1 ha1
  obtain ⟨z2, hz2, -, -, b2⟩ := zenithDeg_near h2 hr2 ha2
  obtain ⟨_, _, b, _, hacc, _, _⟩ := call_inv h2
  have p := positionError_le (known_iff.2 ⟨b, hacc.names⟩)
  have e1 : positionError "nrel" eng1 = 0.063 := by simp [positionError]
  rw [e1] at b1
  rw [hz1, hz2]
  refine isclose_fin xr_two xr_zero ?_
  rw [abs_le] at b1 b2
  rw [abs_le]
  norm_num at b1 b2 p ⊢
  constructor <;> linarith [b1.1, b1.2, b2.1, b2.2]

/-- cells of a call with sequences of numbers -/
theorem cell_at {uc : UseCase} {w : World XR} {times : Times} {ts : List Int} {lat lon : List ℝ} {latitude longitude : Coord XR} {alg eng : String} {refr : PyVal}
    {s : Sunpos XR} (h : call uc w times latitude longitude alg refr eng = .ok s)
    (hlat : Holds latitude (lat.map XR.fin)) (hlon : Holds longitude (lon.map XR.fin))
    (hts : times.stamps = ts.map some) (hr : ∀ t ∈ ts, |t| < 2 ^ 63) {e : Dim → Nat} (he : Within s.zenith e) :
    ∃ t φ l, ts[e .time]? = some t ∧ lat[e uc.latDim]? = some φ ∧ lon[e uc.lonDim]? = some l ∧ At s times e t φ l := by
  obtain ⟨lat', lon', b, utc, ha, hu, hres⟩ := call_inv h
  rw [holds_flat, ha.lat_eq] at hlat
  rw [holds_flat, ha.lon_eq] at hlon
  obtain rfl := Option.some.inj hlat
  obtain rfl := Option.some.inj hlon
  obtain ⟨c1, c2, c3⟩ := cell_inv hres ha.len he
  simp only [List.length_map, hts] at c1 c2 c3
  refine ⟨ts[e .time], lat[e uc.latDim], lon[e uc.lonDim], List.getElem?_eq_getElem c1, List.getElem?_eq_getElem c2,
    List.getElem?_eq_getElem c3, he, ?_, hr _ (List.getElem_mem c1), ?_, ?_⟩
  · unfold stampAt; rw [hts, List.getElem?_map, List.getElem?_eq_getElem c1]; rfl
  · rw [hres.latitude]
    show (lat.map XR.fin).getD (e uc.latDim) Num.nan = _
    simp [List.getD_eq_getElem?_getD, List.getElem?_eq_getElem c2]
  · rw [hres.longitude]
    show (lon.map XR.fin).getD (e uc.lonDim) Num.nan = _
    simp [List.getD_eq_getElem?_getD, List.getElem?_eq_getElem c3]

theorem degrees_dims {F : Type} [Scalar F] (a : DA F) : (degrees a).dims = a.dims := by
  show dimUnion a.dims [] = _; rw [dimUnion_nil_right]

theorem assertions_of {F : Type} [Scalar F] {get : DA F → Except PyErr (DA F)} {s1 s2 : Sunpos F} {Z1 Z2 D1 D2 Q1 Q2 E1 E2 A1 A2 : DA F}
    (z1 : get s1.zenithDeg = .ok Z1) (z2 : get s2.zenithDeg = .ok Z2) (d1 : get s1.decDeg = .ok D1) (d2 : get s2.decDeg = .ok D2)
    (q1 : get s1.eot = .ok Q1) (q2 : get s2.eot = .ok Q2) (e1 : get s1.ecf = .ok E1) (e2 : get s2.ecf = .ok E2)
    (a1 : get s1.azimuthDeg = .ok A1) (a2 : get s2.azimuthDeg = .ok A2)
    (hz : assertThat (allclose Z1 Z2 2.0 0.0) = .ok ()) (hd : assertThat (allclose D1 D2 2.0 0.0) = .ok ())
    (he : assertThat (allclose Q1 Q2 10 0.0) = .ok ()) (hf : assertThat (allclose E1 E2 0.0 0.01) = .ok ()) :
    assertions get s1 s2 = .ok () := by
  simp only [assertions, z1, z2, d1, d2, q1, q2, e1, e2, a1, a2, ok_bind, hz, hd, he, hf]
  rfl

/-- **C81** The tests of the algorithms against nrel pass, in exact arithmetic, whatever latitudes and longitudes are drawn, at whatever naive
times (the fixture has hours of 2024 and 2025), for each algorithm and engine. -/
theorem C81_algorithms (w : World XR) {times : Times} {ts : List Int} {lat lon : List ℝ} {alg eng : String} (hk : KnownPair alg eng)
    (hn : times.nested = false) (htz : times.tz = none) (hts : times.stamps = ts.map some) (hr : ∀ t ∈ ts, |t| < 2 ^ 63)
    (hlen : lat.length = lon.length) (hlat : ∀ φ ∈ lat, -90 ≤ φ ∧ φ ≤ 90) (hlon : ∀ l ∈ lon, -180 ≤ l ∧ l < 180) :
    algorithmTest w times (lat.map .fin) (lon.map .fin) alg eng = .ok () := by
  have ret : ∀ {alg eng : String}, KnownPair alg eng →
      ∃ s, call .sites w times (.vec (lat.map .fin)) (.vec (lon.map .fin)) alg .pyFalse eng = .ok s := fun hk =>
    C05_naive_returns .pyFalse hn htz rfl rfl (by simpa [Lengths] using hlen) hk
      (latOk_XR.2 (by simpa [LatAdm] using hlat)) (lonOk_XR.2 (by simpa [LonAdm] using hlon))
  obtain ⟨s1, h1⟩ := ret (alg := "nrel") (eng := "numexpr") (by simp [KnownPair])
  obtain ⟨s2, h2⟩ := ret hk
  unfold algorithmTest
  rw [h1, ok_bind, h2, ok_bind]
  obtain ⟨z1, f1, q1, d1, -⟩ := dims_core h1 rfl rfl
  obtain ⟨z2, f2, q2, d2, -⟩ := dims_core h2 rfl rfl
  have stamp : ∀ {e : Dim → Nat}, e .time < times.stamps.length → ∃ t, stampAt times.stamps (e .time) = some t ∧ |t| < 2 ^ 63 := by
    intro e he
    rw [hts, List.length_map] at he
    refine ⟨ts[e .time], ?_, hr _ (List.getElem_mem he)⟩
    unfold stampAt; rw [hts, List.getElem?_map, List.getElem?_eq_getElem he]; rfl
  have time : ∀ {e : Dim → Nat}, (∀ p ∈ [(Dim.time, times.stamps.length)], e p.1 < p.2) → e .time < times.stamps.length :=
    fun h => h _ List.mem_cons_self
  refine assertions_of rfl rfl rfl rfl rfl rfl rfl rfl rfl rfl (assert_allclose ?_ fun e he => ?_) (assert_allclose ?_ fun e he => ?_) (assert_allclose ?_ fun e he => ?_) (assert_allclose ?_ fun e he => ?_)
  · exact (degrees_dims _).trans ((z1.trans z2.symm).trans (degrees_dims _).symm)
  · have he : Within s1.zenith e := by rw [show s1.zenithDeg.dims = s1.zenith.dims from degrees_dims _] at he; exact he
    obtain ⟨t, φ, l, e1, e2, e3, ha1⟩ := cell_at h1 rfl rfl hts hr he
    obtain ⟨t', φ', l', e1', e2', e3', ha2⟩ := cell_at h2 rfl rfl hts hr (by unfold Within at he ⊢; rw [z1] at he; rw [z2]; exact he)
    obtain rfl := Option.some.inj (e1.symm.trans e1')
    obtain rfl := Option.some.inj (e2.symm.trans e2')
    obtain rfl := Option.some.inj (e3.symm.trans e3')
    exact zenith_passes h1 (by simp) h2 (by simp) ha1 ha2
  · exact (degrees_dims _).trans ((d1.trans d2.symm).trans (degrees_dims _).symm)
  · rw [show s1.decDeg.dims = s1.declination.dims from degrees_dims _, d1] at he
    obtain ⟨t, ht, hrt⟩ := stamp (time he)
    exact (time_passes h1 h2 ht ht hrt).1
  · exact q1.trans q2.symm
  · rw [q1] at he
    obtain ⟨t, ht, hrt⟩ := stamp (time he)
    exact (time_passes h1 h2 ht ht hrt).2.1
  · exact f1.trans f2.symm
  · rw [f1] at he
    obtain ⟨t, ht, hrt⟩ := stamp (time he)
    exact (time_passes h1 h2 ht ht hrt).2.2

theorem isclose_self {x : XR} {a r : XR} {α ρ y : ℝ} (hx : x = .fin y) (ha : a = .fin α) (hr : r = .fin ρ) (hα : 0 ≤ α) (hρ : 0 ≤ ρ) :
    isclose a r x x = true := by
  subst hx
  refine isclose_fin ha hr ?_
  rw [sub_self, abs_zero]; positivity

/-- what the tests take of an array over times and places, if there is a place: the first place -/
theorem getFirst_cells {F : Type} [Scalar F] {uc : UseCase} {a : DA F} {K J I : Nat} (hd : a.dims = documentedDims uc K J I) (hJ : 0 < J) (hI : 0 < I) :
    ∃ b, getFirst a = .ok b ∧ b.dims = [(.time, K)] ∧ ∀ e : Dim → Nat, ∃ e', b.get e = a.get e' ∧ e' .time = e .time ∧
      (uc ≠ .transect → e' uc.latDim = 0 ∧ e' uc.lonDim = 0) ∧ (uc = .transect → e' = e) := by
  have hJ' : ¬ J = 0 := by omega
  have hI' : ¬ I = 0 := by omega
  cases uc
  · refine ⟨⟨a.dims.filter (fun p => p.1 != .location), fun e => a.get (fun x => if x = .location then 0 else e x)⟩, ?_, ?_, ?_⟩
    · simp [getFirst, isel0, DA.names, hd, documentedDims, hJ']
    · simp [hd, documentedDims]
    · exact fun e => ⟨_, rfl, by simp, fun _ => ⟨by simp [UseCase.latDim], by simp [UseCase.lonDim]⟩, by simp⟩
  · refine ⟨⟨(a.dims.filter (fun p => p.1 != .latitude)).filter (fun p => p.1 != .longitude),
      fun e => a.get (fun x => if x = .latitude then 0 else (fun x => if x = .longitude then 0 else e x) x)⟩, ?_, ?_, ?_⟩
    · simp [getFirst, isel0, DA.names, hd, documentedDims, hJ', hI', ok_bind]
      omega
    · simp [hd, documentedDims]
    · exact fun e => ⟨_, rfl, by simp, fun _ => ⟨by simp [UseCase.latDim], by simp [UseCase.lonDim]⟩, by simp⟩
  · refine ⟨a, ?_, hd, fun e => ⟨e, rfl, rfl, fun h => absurd rfl h, fun _ => rfl⟩⟩
    simp [getFirst, DA.names, hd, documentedDims]

theorem getFirst_time {F : Type} [Scalar F] {a : DA F} {K : Nat} (hd : a.dims = [(.time, K)]) : getFirst a = .ok a := by
  simp [getFirst, DA.names, hd]

/-- two objects of one algorithm and engine whose first places are the same -/
theorem same_passes {uc1 uc2 : UseCase} {w1 w2 : World XR} {times : Times} {ts : List Int} {lat1 lon1 lat2 lon2 : Coord XR} {La1 Lo1 La2 Lo2 : List ℝ}
    {alg eng : String} {s1 s2 : Sunpos XR}
    (h1 : call uc1 w1 times lat1 lon1 alg .pyFalse eng = .ok s1) (h2 : call uc2 w2 times lat2 lon2 alg .pyFalse eng = .ok s2)
    (hla1 : Holds lat1 (La1.map XR.fin)) (hlo1 : Holds lon1 (Lo1.map XR.fin)) (hla2 : Holds lat2 (La2.map XR.fin)) (hlo2 : Holds lon2 (Lo2.map XR.fin))
    (hts : times.stamps = ts.map some) (hr : ∀ t ∈ ts, |t| < 2 ^ 63)
    {φ l : ℝ} (a1 : La1[0]? = some φ) (o1 : Lo1[0]? = some l) (a2 : La2[0]? = some φ) (o2 : Lo2[0]? = some l)
    (ht1 : uc1 = .transect → ts.length = 1) (ht2 : uc2 = .transect → ts.length = 1) :
    assertions getFirst s1 s2 = .ok () := by
  have pos : ∀ {L : List ℝ} {x : ℝ}, L[0]? = some x → 0 < (L.map XR.fin).length := by
    intro L x h; rw [List.length_map]; exact (List.getElem?_eq_some_iff.1 h).1
  obtain ⟨z1, f1, q1, d1, -⟩ := dims_core h1 hla1 hlo1
  obtain ⟨z2, f2, q2, d2, -⟩ := dims_core h2 hla2 hlo2
  have az1 : s1.azimuth.dims = s1.zenith.dims := by obtain ⟨_, _, _, _, _, _, hres⟩ := call_inv h1; exact hres.azi_dims
  have az2 : s2.azimuth.dims = s2.zenith.dims := by obtain ⟨_, _, _, _, _, _, hres⟩ := call_inv h2; exact hres.azi_dims
  obtain ⟨Z1, gz1, dz1, cz1⟩ := getFirst_cells (a := s1.zenithDeg) ((degrees_dims _).trans z1) (pos a1) (pos o1)
  obtain ⟨Z2, gz2, dz2, cz2⟩ := getFirst_cells (a := s2.zenithDeg) ((degrees_dims _).trans z2) (pos a2) (pos o2)
  obtain ⟨A1, ga1, -, -⟩ := getFirst_cells (a := s1.azimuthDeg) ((degrees_dims _).trans (az1.trans z1)) (pos a1) (pos o1)
  obtain ⟨A2, ga2, -, -⟩ := getFirst_cells (a := s2.azimuthDeg) ((degrees_dims _).trans (az2.trans z2)) (pos a2) (pos o2)
  -- the cell of the first place at one time
  have key : ∀ {uc : UseCase} {s : Sunpos XR} {w : World XR} {latitude longitude : Coord XR} {La Lo : List ℝ} {e e' : Dim → Nat},
      call uc w times latitude longitude alg .pyFalse eng = .ok s → Holds latitude (La.map XR.fin) → Holds longitude (Lo.map XR.fin) →
      La[0]? = some φ → Lo[0]? = some l → (uc = .transect → ts.length = 1) →
      s.zenith.dims = documentedDims uc times.stamps.length (La.map XR.fin).length (Lo.map XR.fin).length →
      e .time < times.stamps.length → e' .time = e .time → (uc ≠ .transect → e' uc.latDim = 0 ∧ e' uc.lonDim = 0) →
      ∃ t, ts[e .time]? = some t ∧ At s times e' t φ l := by
    intro uc s w latitude longitude La Lo e e' h hla hlo ha ho ht hd he het hp
    have h0 : e' uc.latDim = 0 ∧ e' uc.lonDim = 0 := by
      by_cases hu : uc = .transect
      · have := ht hu
        rw [hts, List.length_map, this] at he
        subst hu
        exact ⟨by show e' .time = 0; omega, by show e' .time = 0; omega⟩
      · exact hp hu
    have hw : Within s.zenith e' := by
      unfold Within; rw [hd]
      have p1 := pos ha
      have p2 := pos ho
      cases uc <;> simp [documentedDims, UseCase.latDim, UseCase.lonDim] at h0 ⊢ <;> simp [h0, het, he] <;> simp at p1 p2 <;> omega
    obtain ⟨t, φ', l', e1, e2, e3, hat⟩ := cell_at h hla hlo hts hr hw
    rw [h0.1, ha] at e2
    rw [h0.2, ho] at e3
    obtain rfl := Option.some.inj e2
    obtain rfl := Option.some.inj e3
    rw [het] at e1
    exact ⟨t, e1, hat⟩
  have stamp : ∀ {e : Dim → Nat}, e .time < times.stamps.length → ∃ t, stampAt times.stamps (e .time) = some t ∧ |t| < 2 ^ 63 := by
    intro e he
    rw [hts, List.length_map] at he
    refine ⟨ts[e .time], ?_, hr _ (List.getElem_mem he)⟩
    unfold stampAt; rw [hts, List.getElem?_map, List.getElem?_eq_getElem he]; rfl
  have time : ∀ {e : Dim → Nat}, (∀ p ∈ [(Dim.time, times.stamps.length)], e p.1 < p.2) → e .time < times.stamps.length :=
    fun h => h _ List.mem_cons_self
  have cells : ∀ {e : Dim → Nat}, e .time < times.stamps.length → ∃ e1 e2 t, Z1.get e = s1.zenithDeg.get e1 ∧ Z2.get e = s2.zenithDeg.get e2 ∧
      e1 .time = e .time ∧ e2 .time = e .time ∧ At s1 times e1 t φ l ∧ At s2 times e2 t φ l := by
    intro e he
    obtain ⟨e1, g1, t1, p1, -⟩ := cz1 e
    obtain ⟨e2, g2, t2, p2, -⟩ := cz2 e
    obtain ⟨t, k1, b1⟩ := key h1 hla1 hlo1 a1 o1 ht1 z1 he t1 p1
    obtain ⟨t', k2, b2⟩ := key h2 hla2 hlo2 a2 o2 ht2 z2 he t2 p2
    obtain rfl := Option.some.inj (k1.symm.trans k2)
    exact ⟨e1, e2, t, g1, g2, t1, t2, b1, b2⟩
  have same : ∀ {e1 e2 : Dim → Nat} {t : Int}, At s1 times e1 t φ l → At s2 times e2 t φ l → SameAt s1 s2 e1 e2 := by
    intro e1 e2 t b1 b2
    refine C08_usecases_agree_exact h1 h2 b1.within b2.within (b1.time.trans b2.time.symm) ?_ (b1.lat.trans b2.lat.symm) (b1.lon.trans b2.lon.symm)
    intro t' ht'
    obtain rfl := Option.some.inj (b1.time.symm.trans ht')
    exact b1.range
  have sameT : ∀ {e : Dim → Nat}, e .time < times.stamps.length → SameTimeAt s1 s2 e e := by
    intro e he
    refine C07_time_only h1 h2 ?_ ?_ rfl
    · unfold Within; rw [f1]; simpa using he
    · unfold Within; rw [f2]; simpa using he
  refine assertions_of gz1 gz2 (getFirst_time ((degrees_dims _).trans d1)) (getFirst_time ((degrees_dims _).trans d2)) (getFirst_time q1) (getFirst_time q2)
    (getFirst_time f1) (getFirst_time f2) ga1 ga2 (assert_allclose ?_ fun e he => ?_) (assert_allclose ?_ fun e he => ?_) (assert_allclose ?_ fun e he => ?_)
    (assert_allclose ?_ fun e he => ?_)
  · exact dz1.trans dz2.symm
  · rw [dz1] at he
    obtain ⟨e1, e2, t, g1, g2, -, -, b1, b2⟩ := cells (time he)
    obtain ⟨z, hz, -⟩ := C13_range h1 b1 (.inr (.inr (by simp)))
    have hs : s1.zenithDeg.get e1 = s2.zenithDeg.get e2 := congrArg (fun x : XR => degrees x) (same b1 b2).1
    rw [g1, g2, ← hs]
    exact isclose_self hz xr_two xr_zero (by norm_num) (by norm_num)
  · exact (degrees_dims _).trans ((d1.trans d2.symm).trans (degrees_dims _).symm)
  · rw [show s1.decDeg.dims = s1.declination.dims from degrees_dims _, d1] at he
    obtain ⟨t, ht, hrt⟩ := stamp (time he)
    obtain ⟨d, hd, -⟩ := C17_declination h1 ht hrt
    have hs := (sameT (time he)).2.2
    have hs : s1.decDeg.get e = s2.decDeg.get e := congrArg (fun x : XR => degrees x) hs
    rw [← hs]; exact isclose_self hd xr_two xr_zero (by norm_num) (by norm_num)
  · exact q1.trans q2.symm
  · rw [q1] at he
    obtain ⟨t, ht, hrt⟩ := stamp (time he)
    obtain ⟨x, hx, -⟩ := C19_eot h1 ht hrt
    rw [← (sameT (time he)).2.1]; exact isclose_self hx xr_ten xr_zero (by norm_num) (by norm_num)
  · exact f1.trans f2.symm
  · rw [f1] at he
    obtain ⟨t, ht, hrt⟩ := stamp (time he)
    obtain ⟨x, hx, -⟩ := C18_ecf h1 ht hrt
    rw [← (sameT (time he)).1]; exact isclose_self hx xr_zero xr_cent (by norm_num) (by norm_num)

/-- **C81** So do the tests of regular grids against sites, for each algorithm and engine: the first value of the grid is the first site. -/
theorem C81_grid (w : World XR) {times : Times} {ts : List Int} {lat lon : List ℝ} {alg eng : String} (hk : KnownPair alg eng)
    (hn : times.nested = false) (htz : times.tz = none) (hts : times.stamps = ts.map some) (hr : ∀ t ∈ ts, |t| < 2 ^ 63)
    (hlen : lat.length = lon.length) (hne : lat ≠ []) (hlat : ∀ φ ∈ lat, -90 ≤ φ ∧ φ ≤ 90) (hlon : ∀ l ∈ lon, -180 ≤ l ∧ l < 180) :
    gridTest w times (lat.map .fin) (lon.map .fin) alg eng = .ok () := by
  have ret : ∀ uc, uc ≠ .transect → ∃ s, call uc w times (.vec (lat.map .fin)) (.vec (lon.map .fin)) alg .pyFalse eng = .ok s := fun uc hu =>
    C05_naive_returns .pyFalse hn htz rfl rfl (by cases uc <;> simp [Lengths, hlen] at hu ⊢) hk
      (latOk_XR.2 (by simpa [LatAdm] using hlat)) (lonOk_XR.2 (by simpa [LonAdm] using hlon))
  obtain ⟨s1, h1⟩ := ret .sites (by simp)
  obtain ⟨s2, h2⟩ := ret .regularGrid (by simp)
  unfold gridTest
  rw [h1, ok_bind, h2, ok_bind]
  have p1 : 0 < lat.length := List.length_pos_of_ne_nil hne
  have p2 : 0 < lon.length := hlen ▸ p1
  exact same_passes h1 h2 rfl rfl rfl rfl hts hr (List.getElem?_eq_getElem p1) (List.getElem?_eq_getElem p2) (List.getElem?_eq_getElem p1)
    (List.getElem?_eq_getElem p2) (by simp) (by simp)

/-- **C81** And so do the tests of transects against sites, for any number of steps. -/
theorem C81_transect (w : World XR) {steps : List (Int × ℝ × ℝ)} {alg eng : String} (hk : KnownPair alg eng)
    (hr : ∀ p ∈ steps, |p.1| < 2 ^ 63 ∧ (-90 ≤ p.2.1 ∧ p.2.1 ≤ 90) ∧ (-180 ≤ p.2.2 ∧ p.2.2 < 180)) :
    transectTest w (steps.map fun p => (p.1, .fin p.2.1, .fin p.2.2)) alg eng = .ok () := by
  have step : ∀ p ∈ steps, transectStep w alg eng (p.1, XR.fin p.2.1, XR.fin p.2.2) = .ok () := by
    rintro ⟨t, φ, l⟩ hp
    obtain ⟨ht, hφ, hl⟩ := hr _ hp
    have ret : ∀ uc, ∃ s, call uc w ⟨false, none, [some t]⟩ (.scalar (XR.fin φ)) (.scalar (XR.fin l)) alg .pyFalse eng = .ok s := fun uc =>
      C05_naive_returns .pyFalse (lat := [XR.fin φ]) (lon := [XR.fin l]) rfl rfl rfl rfl (by cases uc <;> simp [Lengths]) hk
        (latOk_XR.2 (by simpa [LatAdm] using hφ)) (lonOk_XR.2 (by simpa [LonAdm] using hl))
    obtain ⟨s1, h1⟩ := ret .sites
    obtain ⟨s2, h2⟩ := ret .transect
    unfold transectStep
    simp only [h1, h2, ok_bind]
    exact same_passes (ts := [t]) (La1 := [φ]) (Lo1 := [l]) (La2 := [φ]) (Lo2 := [l]) h1 h2 rfl rfl rfl rfl rfl (by simpa using ht) rfl rfl rfl rfl (by simp) (by simp)
  unfold transectTest
  induction steps with
  | nil => rfl
  | cons p r ih =>
    show (transectStep w alg eng (p.1, XR.fin p.2.1, XR.fin p.2.2) >>= fun _ => List.forM _ (transectStep w alg eng)) = _
    rw [step p List.mem_cons_self, ok_bind]
    exact ih (fun q hq => hr q (List.mem_cons_of_mem _ hq)) (fun q hq => step q (List.mem_cons_of_mem _ hq))

/-! ### the azimuth -/

theorem angularDistance_fin (a b : ℝ) : angularDistance (XR.fin a) (XR.fin b) = .fin (arccos (rround6 (cos (rad a - rad b))) * (180 / π)) := by
  have hb := abs_le.1 (rround6_mem (abs_cos_le_one (rad a - rad b)))
  rw [cos_sub] at hb ⊢
  unfold angularDistance
  simp only [XR.radians_fin, radians_real, XR.cos_fin, XR.sin_fin, XR.mul_fin, XR.add_fin, XR.round6_fin]
  rw [show a * (π / 180) = rad a from rfl, show b * (π / 180) = rad b from rfl, XR.arccos_fin hb, XR.degrees_fin, degrees_real]

theorem cos_five : cos (rad 5) ≤ 0.9962 ∧ 0 ≤ rad 5 ∧ rad 5 ≤ π := by
  have p1 := pi_gt_d4
  have p2 := pi_lt_d4
  have hx : 0.08726 ≤ rad 5 ∧ rad 5 ≤ 0.08727 := by
    unfold rad; norm_num at p1 p2 ⊢; constructor <;> linarith
  generalize rad 5 = x at hx
  have hb := cos_bound (x := x) (by rw [abs_of_nonneg (by norm_num at hx ⊢; linarith [hx.1])]; norm_num at hx ⊢; linarith [hx.2])
  have h4 : |x| ^ 4 ≤ 6e-5 := by
    rw [abs_of_nonneg (by norm_num at hx ⊢; linarith [hx.1])]
    refine (pow_le_pow_left₀ (by norm_num at hx ⊢; linarith [hx.1]) hx.2 4).trans (by norm_num)
  have h2 : 0.08726 ^ 2 ≤ x ^ 2 := pow_le_pow_left₀ (by norm_num) hx.1 2
  have hb := abs_le.1 hb
  norm_num at hx h4 h2 hb p1 ⊢
  refine ⟨?_, ?_, ?_⟩ <;> linarith [hb.1, hb.2, hx.1, hx.2]

theorem five_degrees {c : ℝ} (hc : |c| ≤ 1) : (0.9963 ≤ c → arccos c * (180 / π) < 5) ∧ (c ≤ 0.9 → 5 ≤ arccos c * (180 / π)) := by
  have hp := pi_pos
  have e5 : rad 5 * (180 / π) = 5 := by unfold rad; field_simp
  obtain ⟨h1, h2, h3⟩ := cos_five
  have hm : 0 < 180 / π := by positivity
  refine ⟨fun h => ?_, fun h => ?_⟩
  · rw [← e5]
    refine mul_lt_mul_of_pos_right ?_ hm
    have : arccos c < arccos (cos (rad 5)) := by
      refine arccos_lt_arccos (by linarith [neg_one_le_cos (rad 5)]) ?_ (abs_le.1 hc).2
      norm_num at h h1 ⊢; linarith
    rwa [arccos_cos h2 h3] at this
  · rw [← e5]
    refine mul_le_mul_of_nonneg_right ?_ hm.le
    rw [← arccos_cos h2 h3]
    refine arccos_le_arccos ?_
    have h5 := one_sub_sq_div_two_le_cos (x := rad 5)
    have : rad 5 ≤ 0.1 := by unfold rad; have := pi_lt_d4; norm_num at this ⊢; linarith
    have : rad 5 ^ 2 ≤ 0.1 ^ 2 := pow_le_pow_left₀ h2 this 2
    norm_num at h this ⊢; linarith

/-- **C81** What the fifth assertion means to say of the azimuths does hold where the sun of nrel is 22 degrees or more from the zenith and
from the nadir: the distance that the test computes is below 5 degrees. -/
theorem C81_azimuth {uc1 uc2 : UseCase} {w1 w2 : World XR} {times1 times2 : Times} {lat1 lon1 lat2 lon2 : Coord XR}
    {alg eng : String} {s1 s2 : Sunpos XR} {e1 e2 : Dim → Nat} {t : Int} {φ l z : ℝ}
    (h1 : call uc1 w1 times1 lat1 lon1 "nrel" .pyFalse "numexpr" = .ok s1) (h2 : call uc2 w2 times2 lat2 lon2 alg .pyFalse eng = .ok s2)
    (ha1 : At s1 times1 e1 t φ l) (ha2 : At s2 times2 e2 t φ l) (hz : s1.zenithDeg.get e1 = .fin z) (hz1 : 22 ≤ z) (hz2 : z ≤ 158) :
    ∃ x, angularDistance (s1.azimuthDeg.get e1) (s2.azimuthDeg.get e2) = .fin x ∧ x < 5 := by
  obtain ⟨z1, a1, z2, a2, g1, b1, g2, b2, hang⟩ := C63_position h1 (by simp) h2 (by simp) ha1 ha2
  obtain rfl : z1 = z := XR.fin_inj.1 (g1.symm.trans hz)
  refine ⟨_, by rw [b1, b2]; exact angularDistance_fin a1 a2, (five_degrees (rround6_mem (abs_cos_le_one _))).1 ?_⟩
  obtain ⟨y1, hy1, -, -, n1⟩ := zenithDeg_near h1 (by simp) ha1
  obtain ⟨y2, hy2, y20, y21, n2⟩ := zenithDeg_near h2 (by simp) ha2
  obtain rfl : z1 = y1 := XR.fin_inj.1 (g1.symm.trans hy1)
  obtain rfl : z2 = y2 := XR.fin_inj.1 (g2.symm.trans hy2)
  obtain ⟨_, _, b, _, hacc, _, _⟩ := call_inv h2
  have p := positionError_le (known_iff.2 ⟨b, hacc.names⟩)
  have en : positionError "nrel" "numexpr" = 0.063 := by simp [positionError]
  rw [en] at n1 hang
  have p1 := pi_gt_d4
  have p2 := pi_lt_d4
  have hθ : rad (0.063 + positionError alg eng) ≤ 0.02912 := by
    unfold rad
    have h0 : 0.063 + positionError alg eng ≤ 1.668 := by norm_num at p ⊢; linarith
    have : π / 180 ≤ 0.0174539 := by norm_num at p2 ⊢; linarith
    refine (mul_le_mul h0 this (by positivity) (by norm_num)).trans (by norm_num)
  have hzz : |rad z1 - rad z2| ≤ rad (0.063 + positionError alg eng) := by
    rw [← rad_sub, abs_rad]
    refine rad_mono ?_
    rw [abs_le] at n1 n2 ⊢
    norm_num at n1 n2 ⊢
    constructor <;> linarith [n1.1, n1.2, n2.1, n2.2]
  have hθ0 := (abs_nonneg _).trans hzz
  have hs1 : 0.36 ≤ sin (rad z1) := by
    have h22 : 0.36 ≤ sin (rad 22) := by
      have hx : 0.3839 ≤ rad 22 ∧ rad 22 ≤ 0.384 := by unfold rad; norm_num at p1 p2 ⊢; constructor <;> linarith
      have : sin 0.3839 ≤ sin (rad 22) := sin_le_sin_of_le_of_le_pi_div_two (by norm_num at p1 ⊢; linarith) (by norm_num at hx p1 ⊢; linarith [hx.2]) hx.1
      refine le_trans ?_ this
      have := sin_gt_sub_cube (x := 0.3839) (by norm_num)
      norm_num at this ⊢; linarith
    refine h22.trans ?_
    have r0 : -(π / 2) ≤ rad 22 := by
      have : 0 ≤ rad 22 := by unfold rad; positivity
      linarith [pi_pos]
    rcases le_total z1 90 with h | h
    · refine sin_le_sin_of_le_of_le_pi_div_two r0 ?_ (rad_mono hz1)
      unfold rad; norm_num; nlinarith [pi_pos]
    · rw [← sin_pi_sub (rad z1)]
      have e : π - rad z1 = rad (180 - z1) := by unfold rad; ring
      rw [e]
      refine sin_le_sin_of_le_of_le_pi_div_two r0 ?_ (rad_mono (by linarith))
      unfold rad; norm_num; nlinarith [pi_pos]
  have hs2 : 0.33 ≤ sin (rad z2) := by
    have := abs_le.1 ((abs_sin_sub_sin_le (rad z1) (rad z2)).trans (hzz.trans hθ))
    norm_num at hs1 this ⊢; linarith [this.2]
  have hdot : (dirVec (rad z1) (rad a1)).dot (dirVec (rad z2) (rad a2))
      = cos (rad z1 - rad z2) - sin (rad z1) * sin (rad z2) * (1 - cos (rad a1 - rad a2)) := by
    rw [cos_sub, cos_sub]; simp only [Vec.dot, dirVec]; ring
  have hcos : cos (rad (0.063 + positionError alg eng)) ≤ (dirVec (rad z1) (rad a1)).dot (dirVec (rad z2) (rad a2)) := by
    generalize (dirVec (rad z1) (rad a1)).dot (dirVec (rad z2) (rad a2)) = d at hang
    generalize rad (0.063 + positionError alg eng) = θ at hang hθ hθ0
    rcases lt_or_ge d (-1) with h | h
    · exfalso
      rw [arccos_of_le_neg_one h.le] at hang
      norm_num at hang hθ p1; linarith
    · rcases le_or_gt d 1 with h' | h'
      · rw [← cos_arccos h h']
        exact cos_le_cos_of_nonneg_of_le_pi (arccos_nonneg _) (by norm_num at hθ p1 ⊢; linarith) hang
      · exact (cos_le_one _).trans h'.le
  rw [hdot] at hcos
  have hq := one_sub_sq_div_two_le_cos (x := rad (0.063 + positionError alg eng))
  have hsq : rad (0.063 + positionError alg eng) ^ 2 ≤ 0.02912 ^ 2 := pow_le_pow_left₀ hθ0 hθ 2
  have hc1 := cos_le_one (rad z1 - rad z2)
  have hc2 := cos_le_one (rad a1 - rad a2)
  have hr := abs_le.1 (rround6_near (cos (rad a1 - rad a2)))
  have hpr : 0.36 * 0.33 ≤ sin (rad z1) * sin (rad z2) := mul_le_mul hs1 hs2 (by norm_num) (by norm_num at hs1 ⊢; linarith)
  generalize cos (rad a1 - rad a2) = c at *
  generalize sin (rad z1) * sin (rad z2) = q at *
  generalize rad (0.063 + positionError alg eng) = θ at *
  have : 0.36 * 0.33 * (1 - c) ≤ q * (1 - c) := mul_le_mul_of_nonneg_right hpr (by linarith)
  norm_num at hsq hcos hr this ⊢
  linarith [hr.1]

/-- 31 March 2024, 6:00 UTC, one of the hours of the fixture: the declinations of the reference and of iqbal -/
def march31 : Int := 1711864800000000000

theorem dec_march31 : declination (century march31) ≤ rad 4.4 := by
  have hT : century march31 = 35423 / 146100 := by unfold Ephem.century march31; norm_num
  rw [hT]
  obtain ⟨T, hT⟩ : ∃ T : ℝ, T = 35423 / 146100 := ⟨_, rfl⟩
  rw [← hT]
  have p1 := pi_gt_d6
  have p2 := pi_lt_d6
  have h0 : |T| ≤ 3.24 := by rw [hT]; norm_num
  have e := Ephem.ecc_bound h0
  have c : |Ephem.center T| ≤ 0.0342 := by
    unfold Ephem.center
    refine (abs_add_le _ _).trans ((add_le_add (abs_mul_sin_le _ _) (abs_mul_sin_le _ _)).trans ?_)
    have h1 : |2 * Ephem.eccentricity T| ≤ 0.0337 := by
      rw [abs_le]; norm_num at e ⊢; constructor <;> linarith [e.1, e.2]
    have h2 : |5 / 4 * Ephem.eccentricity T ^ 2| ≤ 0.0004 := by
      rw [abs_le]; norm_num at e ⊢; constructor <;> nlinarith [e.1, e.2]
    norm_num at h1 h2 ⊢; linarith
  obtain ⟨c1, c2⟩ := abs_le.1 c
  have hl : Ephem.longitude T = (Ephem.longitude T - (25 : ℕ) * (2 * π)) + (25 : ℕ) * (2 * π) := by ring
  have hL : Ephem.longitude T - (25 : ℕ) * (2 * π) ≤ 0.1932 ∧ 0 ≤ Ephem.longitude T - (25 : ℕ) * (2 * π) := by
    unfold Ephem.longitude Ephem.meanLongitude Ephem.deg
    rw [hT] at c1 c2 ⊢
    norm_num at c1 c2 p1 p2 ⊢; constructor <;> linarith
  have hs : sin (Ephem.longitude T) ≤ 0.19208 ∧ 0 ≤ sin (Ephem.longitude T) := by
    rw [hl, sin_add_nat_mul_two_pi]
    generalize Ephem.longitude T - (25 : ℕ) * (2 * π) = x at hL
    refine ⟨?_, sin_nonneg_of_nonneg_of_le_pi hL.2 (by norm_num at hL p1 ⊢; linarith [hL.1])⟩
    have h1 : sin x ≤ sin 0.1932 := sin_le_sin_of_le_of_le_pi_div_two (by linarith [hL.2, pi_pos]) (by norm_num at p1 ⊢; linarith) hL.1
    refine h1.trans ?_
    have := abs_le.1 (sin_bound (x := 0.1932) (by norm_num))
    rw [abs_of_nonneg (by norm_num)] at this
    norm_num at this ⊢; linarith [this.2]
  have ho : sin (Ephem.obliquity T) ≤ 0.3992 := by
    have h1 : Ephem.obliquity T ≤ 0.4091 ∧ 0 ≤ Ephem.obliquity T := by
      unfold Ephem.obliquity Ephem.deg; rw [hT]
      norm_num at p1 p2 ⊢; constructor <;> linarith
    have h2 : sin (Ephem.obliquity T) ≤ sin 0.4091 := sin_le_sin_of_le_of_le_pi_div_two (by linarith [h1.2, pi_pos]) (by norm_num at p1 ⊢; linarith) h1.1
    refine h2.trans ?_
    have := abs_le.1 (sin_bound (x := 0.4091) (by norm_num))
    rw [abs_of_nonneg (by norm_num)] at this
    norm_num at this ⊢; linarith [this.2]
  have h44 : 0.07671 ≤ sin (rad 4.4) := by
    have hx : 0.076794 ≤ rad 4.4 ∧ rad 4.4 ≤ 0.0768 := by unfold rad; norm_num at p1 p2 ⊢; constructor <;> linarith
    have h1 : sin 0.076794 ≤ sin (rad 4.4) := sin_le_sin_of_le_of_le_pi_div_two (by norm_num at p1 ⊢; linarith) (by norm_num at hx p1 ⊢; linarith [hx.2]) hx.1
    refine le_trans ?_ h1
    have := abs_le.1 (sin_bound (x := 0.076794) (by norm_num))
    rw [abs_of_nonneg (by norm_num)] at this
    norm_num at this ⊢; linarith [this.1]
  unfold Ephem.declination
  refine (arcsin_le_iff_le_sin' ⟨?_, ?_⟩).2 ?_
  · unfold rad; linarith [pi_pos]
  · unfold rad; norm_num; linarith [pi_pos]
  · refine le_trans ?_ h44
    generalize sin (Ephem.obliquity T) = a at *
    generalize sin (Ephem.longitude T) = b at *
    norm_num at ho hs ⊢; nlinarith [hs.1, hs.2]

theorem iqbal_march31 {uc : UseCase} {w : World XR} {times : Times} {latitude longitude : Coord XR}
    {eng : String} {refr : PyVal} {s : Sunpos XR} {e : Dim → Nat}
    (h : call uc w times latitude longitude "iqbal" refr eng = .ok s) (hk : stampAt times.stamps (e .time) = some march31) :
    s.declination.get e = .fin 0.082453 := by
  obtain ⟨ht, o, -, -, h3, hc⟩ := time_cases h hk (by unfold march31; norm_num)
  simp only [String.reduceEq, false_and, true_and, false_or, or_false] at hc
  subst hc
  rw [h3]
  show XR.fin (Iqbal.decl (Iqbal.dayAngle (toSec march31) : ℝ)) = _
  have hd : (Iqbal.dayAngle (toSec march31) : ℝ) = π / 2 := by
    have e1 : Iqbal.doy (toSec march31) = 91 := by decide +kernel
    have e2 : Iqbal.hour (toSec march31) = 6 := by decide +kernel
    have e3 : Iqbal.minute (toSec march31) = 0 := by decide +kernel
    have e4 : Iqbal.second (toSec march31) = 0 := by decide +kernel
    unfold Iqbal.dayAngle Iqbal.stdTime
    rw [e1, e2, e3, e4]
    have k : ∀ n : Int, (Scalar.ofInt n : ℝ) = (n : ℝ) := fun _ => rfl
    simp only [k]
    have hp : (TWOPI : ℝ) = 2 * π := by unfold TWOPI; show _ * π = _; norm_num
    rw [hp]
    norm_num
    ring
  have c3 : cos (3 * (π / 2)) = 0 := by
    rw [show 3 * (π / 2) = π / 2 + π by ring, cos_add_pi, cos_pi_div_two, neg_zero]
  have s3 : sin (3 * (π / 2)) = -1 := by
    rw [show 3 * (π / 2) = π / 2 + π by ring, sin_add_pi, sin_pi_div_two]
  have e2 : 2 * (π / 2) = π := by ring
  rw [hd]
  refine congrArg XR.fin ?_
  have key : (0.006918 : ℝ) - 0.399912 * cos (π / 2) + 0.070257 * sin (π / 2) - 0.006758 * cos (2 * (π / 2)) + 0.000907 * sin (2 * (π / 2))
      - 0.002697 * cos (3 * (π / 2)) + 0.001480 * sin (3 * (π / 2)) = 0.082453 := by
    rw [c3, s3, e2, cos_pi, sin_pi, cos_pi_div_two, sin_pi_div_two]; norm_num
  refine Eq.trans ?_ key
  unfold Iqbal.decl
  have kc : ∀ x : ℝ, (Num.cos x : ℝ) = cos x := fun _ => rfl
  have ks : ∀ x : ℝ, (Num.sin x : ℝ) = sin x := fun _ => rfl
  simp only [kc, ks]

/-- the direction of the sun of iqbal at 6:00 on 31 March 2024, from latitude 4.68: north of the zenith -/
theorem iqbal_north {uc : UseCase} {w : World XR} {times : Times} {latitude longitude : Coord XR}
    {eng : String} {refr : PyVal} {s : Sunpos XR} {e : Dim → Nat} {l : ℝ}
    (h : call uc w times latitude longitude "iqbal" refr eng = .ok s) (hr : refr ≠ .pyTrue) (ha : At s times e march31 4.68 l) :
    ∃ a, s.azimuthDeg.get e = .fin a ∧ cos (rad a) < 0 := by
  obtain ⟨z, a, d, zg, -, h2, h3, h4, -⟩ := direction0 (by simp) h hr ha
  refine ⟨a, h2, ?_⟩
  have hd := decDeg_fin (iqbal_march31 h ha.time)
  obtain rfl : _ = d := XR.fin_inj.1 (hd.symm.trans h3)
  rw [rad_deg] at h4
  have hs := h4.south
  have s0 := sin_nonneg_of_nonneg_of_le_pi h4.zen_nonneg h4.zen_le
  have p1 := pi_gt_d6
  have p2 := pi_lt_d6
  have r : 0.0816 ≤ rad 4.68 ∧ rad 4.68 ≤ 0.0817 := by unfold rad; norm_num at p1 p2 ⊢; constructor <;> linarith
  have sφ : 0 ≤ sin (rad 4.68) := sin_nonneg_of_nonneg_of_le_pi (by norm_num at r ⊢; linarith [r.1]) (by norm_num at r p1 ⊢; linarith [r.2])
  have cδ : 0 ≤ cos 0.082453 := cos_nonneg_of_neg_pi_div_two_le_of_le (by norm_num at p1 ⊢; linarith) (by norm_num at p1 ⊢; linarith)
  have neg : sin (rad 4.68 - 0.082453) < 0 :=
    sin_neg_of_neg_of_neg_pi_lt (by norm_num at r ⊢; linarith [r.2]) (by norm_num at r p1 ⊢; linarith [r.1])
  rw [sin_sub] at neg
  have hc := cos_le_one (hourAngle0 "iqbal" march31 + rad l)
  by_contra hn
  have hn := not_lt.1 hn
  have q1 := mul_nonneg s0 hn
  have q2 := mul_le_mul_of_nonneg_left hc (mul_nonneg sφ cδ)
  linarith

/-- ... and that of nrel is south of it, not far from the meridian at the longitude where the reference has its sun on it -/
theorem nrel_south {uc : UseCase} {w : World XR} {times : Times} {latitude longitude : Coord XR}
    {eng : String} {refr : PyVal} {s : Sunpos XR} {e : Dim → Nat} {l : ℝ} {k : ℤ}
    (h : call uc w times latitude longitude "nrel" refr eng = .ok s) (hr : refr ≠ .pyTrue) (ha : At s times e march31 4.68 l)
    (hl : hourAngle (century march31) + rad l = 0 + k * (2 * π)) :
    ∃ a, s.azimuthDeg.get e = .fin a ∧ 0 ≤ cos (rad a) ∧ |sin (rad a)| ≤ 0.3 := by
  obtain ⟨z, a, B, h1, h2, -, hB, hc⟩ := position_close h hr ha
  obtain ⟨z', hz', z0, z1, -⟩ := zenithDeg_near h hr ha
  obtain rfl : z = z' := XR.fin_inj.1 (h1.symm.trans hz')
  refine ⟨a, h2, ?_⟩
  have en : positionError "nrel" eng = 0.063 := by simp [positionError]
  have p1 := pi_gt_d6
  have p2 := pi_lt_d6
  have hB' : B ≤ 0.0011 := by
    rw [en] at hB
    unfold rad at hB
    norm_num at hB p2 ⊢; linarith
  obtain ⟨δ, hδ⟩ : ∃ δ, δ = declination (century march31) := ⟨_, rfl⟩
  have d1 := dec_march31
  have d2 := abs_le.1 (dec_bound march31 ha.range)
  rw [← hδ] at hc d1 d2
  rw [hl] at hc
  have ez : (-(0 + (k : ℝ) * (2 * π))) = ((-k : ℤ) : ℝ) * (2 * π) := by push_cast; ring
  have c1 : cos (-(0 + (k : ℝ) * (2 * π))) = 1 := by rw [ez]; exact cos_int_mul_two_pi _
  have c0 : sin (-(0 + (k : ℝ) * (2 * π))) = 0 := by
    rw [ez, show ((-k : ℤ) : ℝ) * (2 * π) = ((-k * 2 : ℤ) : ℝ) * π by push_cast; ring]
    exact sin_int_mul_pi _
  have south := hc ⟨0, 1, 0⟩ (by simp [Vec.sq, Vec.dot])
  have east := hc ⟨0, 0, 1⟩ (by simp [Vec.sq, Vec.dot])
  simp only [Vec.dot, sunVec, dirVec, c0, c1, zero_mul, one_mul, mul_one, mul_zero, add_zero, sub_zero] at south east
  rw [zero_add] at south east
  rw [← sin_sub] at south
  have low : 0.0048 ≤ sin (rad 4.68 - δ) := by
    have g1 : 0.00488 ≤ rad 4.68 - δ := by unfold rad at d1 ⊢; norm_num at d1 p1 p2 ⊢; linarith
    have g2 : rad 4.68 - δ ≤ 0.6 := by unfold rad; norm_num at d2 p1 p2 ⊢; linarith [d2.1]
    have : sin 0.00488 ≤ sin (rad 4.68 - δ) := sin_le_sin_of_le_of_le_pi_div_two (by norm_num at p1 ⊢; linarith) (by norm_num at g2 p1 ⊢; linarith) g1
    refine le_trans ?_ this
    have := sin_gt_sub_cube (x := 0.00488) (by norm_num)
    norm_num at this ⊢; linarith
  have s0 : 0 ≤ sin (rad z) := sin_nonneg_of_nonneg_of_le_pi (by unfold rad; positivity) (by unfold rad; nlinarith [pi_pos])
  have south := abs_le.1 south
  have sc : 0.0037 ≤ sin (rad z) * cos (rad a) := by norm_num at low hB' ⊢; linarith [south.1]
  have ss : |sin (rad z) * sin (rad a)| ≤ 0.0011 := by rw [← abs_neg]; exact east.trans hB'
  have ca : 0 ≤ cos (rad a) := by
    by_contra hn
    have := mul_nonpos_of_nonneg_of_nonpos s0 (not_le.1 hn).le
    norm_num at sc; linarith
  refine ⟨ca, ?_⟩
  have one := sin_sq_add_cos_sq (rad a)
  rw [abs_mul, abs_of_nonneg s0] at ss
  have sq := sq_abs (sin (rad a))
  by_contra hn
  have hn := not_le.1 hn
  have c2 : cos (rad a) ≤ 0.954 := by
    by_contra hx
    have hx := not_le.1 hx
    norm_num at hx hn; nlinarith
  have a1 := mul_le_mul_of_nonneg_left c2 s0
  have a2 := mul_le_mul_of_nonneg_left hn.le s0
  norm_num at a1 a2 sc ss
  linarith

/-- **C81** The fifth assertion says nothing: there is a site at latitude 4.68 for which, at 6:00 on 31 March 2024, the azimuths of
nrel and of iqbal are over 5 degrees apart, so that the condition is false, and the test passes. -/
theorem C81_unasserted (w : World XR) {eng : String} (hk : KnownPair "iqbal" eng) :
    ∃ l : ℝ, (-180 ≤ l ∧ l < 180) ∧ algorithmTest w (oneTime march31) [.fin 4.68] [.fin l] "iqbal" eng = .ok () ∧
      ∃ s1 s2, call .sites w (oneTime march31) (.vec [.fin 4.68]) (.vec [.fin l]) "nrel" .pyFalse "numexpr" = .ok s1 ∧
        call .sites w (oneTime march31) (.vec [.fin 4.68]) (.vec [.fin l]) "iqbal" .pyFalse eng = .ok s2 ∧
        azimCondition s1.azimuthDeg s2.azimuthDeg = false := by
  obtain ⟨l, hl, k, hlk⟩ := exists_lon (hourAngle (century march31)) 0
  have hr : |march31| < 2 ^ 63 := by unfold march31; norm_num
  refine ⟨l, hl, ?_, ?_⟩
  · exact C81_algorithms w (times := oneTime march31) (ts := [march31]) (lat := [4.68]) (lon := [l]) hk rfl rfl rfl (by simpa using hr) rfl
      (by intro φ h; obtain rfl := List.mem_singleton.1 h; norm_num) (by simpa using hl)
  have ret : ∀ {alg eng : String}, KnownPair alg eng →
      ∃ s, call .sites w (oneTime march31) (.vec [.fin 4.68]) (.vec [.fin l]) alg .pyFalse eng = .ok s := fun hk =>
    C05_naive_returns .pyFalse rfl rfl rfl rfl (by simp [Lengths]) hk
      (latOk_XR.2 (by simp only [List.mem_singleton, forall_eq, LatAdm]; norm_num)) (lonOk_XR.2 (by simpa [LonAdm] using hl))
  obtain ⟨s1, h1⟩ := ret (alg := "nrel") (eng := "numexpr") (by simp [KnownPair])
  obtain ⟨s2, h2⟩ := ret hk
  refine ⟨s1, s2, h1, h2, ?_⟩
  have at0 : ∀ {alg eng : String} {s : Sunpos XR}, call .sites w (oneTime march31) (.vec [.fin 4.68]) (.vec [.fin l]) alg .pyFalse eng = .ok s →
      At s (oneTime march31) (fun _ => 0) march31 4.68 l := by
    intro alg eng s hs
    have hd := (C05_shape hs rfl rfl).1
    obtain ⟨lat, lon, b, utc, ha, _, hres⟩ := call_inv hs
    obtain rfl : [XR.fin 4.68] = lat := Option.some.inj ha.lat_eq
    obtain rfl : [XR.fin l] = lon := Option.some.inj ha.lon_eq
    refine ⟨?_, rfl, hr, ?_, ?_⟩
    · unfold Within; rw [hd]; simp [documentedDims, oneTime]
    · rw [hres.latitude]; rfl
    · rw [hres.longitude]; rfl
  obtain ⟨a1, b1, ca1, sa1⟩ := nrel_south h1 (by simp) (at0 h1) hlk
  obtain ⟨a2, b2, ca2⟩ := iqbal_north h2 (by simp) (at0 h2)
  classical
  unfold azimCondition
  refine decide_eq_false fun hall => ?_
  have h0 := hall.2 (fun _ => 0) (by
    have : s1.azimuthDeg.dims = documentedDims .sites 1 1 1 := (degrees_dims _).trans (C05_shape h1 rfl rfl).2.1
    rw [this]; simp [documentedDims])
  rw [b1, b2, angularDistance_fin] at h0
  have h5 := (five_degrees (rround6_mem (abs_cos_le_one (rad a1 - rad a2)))).2 ?_
  · have h5' : (5 : XR) = .fin 5 := congrArg XR.fin (by show ((5 : ℕ) : ℝ) = 5; norm_num)
    rw [h5'] at h0
    exact absurd (of_decide_eq_true h0 : _ < (5 : ℝ)) (not_lt.2 h5)
  · have hr6 := abs_le.1 (rround6_near (cos (rad a1 - rad a2)))
    have : cos (rad a1 - rad a2) ≤ 0.3 := by
      rw [cos_sub]
      have x1 := mul_nonpos_of_nonneg_of_nonpos ca1 ca2.le
      have x2 : sin (rad a1) * sin (rad a2) ≤ |sin (rad a1)| * |sin (rad a2)| := by rw [← abs_mul]; exact le_abs_self _
      have x3 := mul_le_of_le_one_right (abs_nonneg (sin (rad a1))) (abs_sin_le_one (rad a2))
      linarith
    norm_num at this hr6 ⊢; linarith [hr6.2]

/-- a case that meets the hypotheses of `C81_algorithms` and `C81_grid`: two times, two sites, psa -/
example : algorithmTest exWorld ⟨false, none, [some 1711864800000000000, some 1718972400000000000]⟩ [.fin 40, .fin (-33)] [.fin (-4), .fin 151] "psa" "numpy" = .ok () ∧
    gridTest exWorld ⟨false, none, [some 1711864800000000000, some 1718972400000000000]⟩ [.fin 40, .fin (-33)] [.fin (-4), .fin 151] "soltrack" "numexpr" = .ok () := by
  have h1 : ∀ t ∈ [(1711864800000000000 : Int), 1718972400000000000], |t| < 2 ^ 63 := by simp
  have h2 : ∀ φ ∈ [(40 : ℝ), -33], -90 ≤ φ ∧ φ ≤ 90 := by simp; norm_num
  have h3 : ∀ φ ∈ [(-4 : ℝ), 151], -180 ≤ φ ∧ φ < 180 := by simp; norm_num
  exact ⟨C81_algorithms exWorld (times := ⟨false, none, [some 1711864800000000000, some 1718972400000000000]⟩) (ts := [_, _]) (lat := [40, -33]) (lon := [-4, 151])
      (by simp [KnownPair]) rfl rfl rfl h1 rfl h2 h3,
    C81_grid exWorld (times := ⟨false, none, [some 1711864800000000000, some 1718972400000000000]⟩) (ts := [_, _]) (lat := [40, -33]) (lon := [-4, 151])
      (by simp [KnownPair]) rfl rfl rfl h1 rfl (by simp) h2 h3⟩

/-- ... and of `C81_transect` -/
example : transectTest exWorld [(1711864800000000000, .fin 40, .fin (-4)), (1718972400000000000, .fin (-33), .fin 151)] "iqbal" "numpy" = .ok () :=
  C81_transect exWorld (steps := [(1711864800000000000, 40, -4), (1718972400000000000, -33, 151)]) (by simp [KnownPair])
    (by simp; norm_num)

/-- ... and of `C81_azimuth`: a sun 60 degrees from the zenith or more, at the poles -/
example : ∃ s1 s2, call .sites exWorld (oneTime 0) (.vec [.fin 90]) (.vec [.fin 0]) "nrel" .pyFalse "numexpr" = .ok s1 ∧
    call .sites exWorld (oneTime 0) (.vec [.fin 90]) (.vec [.fin 0]) "iqbal" .pyFalse "numpy" = .ok s2 ∧
    At s1 (oneTime 0) (fun _ => 0) 0 90 0 ∧ At s2 (oneTime 0) (fun _ => 0) 0 90 0 ∧
    ∃ z, s1.zenithDeg.get (fun _ => 0) = .fin z ∧ 22 ≤ z ∧ z ≤ 158 := by
  obtain ⟨s1, h1, a1⟩ := single_call .sites (alg := "nrel") (eng := "numexpr") (by simp [KnownPair]) .pyFalse (t := 0) (by norm_num) (φ := 90) (l := 0) (by norm_num) (by norm_num)
  obtain ⟨s2, h2, a2⟩ := single_call .sites (alg := "iqbal") (eng := "numpy") (by simp [KnownPair]) .pyFalse (t := 0) (by norm_num) (φ := 90) (l := 0) (by norm_num) (by norm_num)
  refine ⟨s1, s2, h1, h2, a1, a2, ?_⟩
  obtain ⟨z, hz, z0, z1, hn⟩ := zenithDeg_near h1 (by simp) a1
  refine ⟨z, hz, ?_⟩
  have en : positionError "nrel" "numexpr" = 0.063 := by simp [positionError]
  rw [en] at hn
  have e90 : rad 90 = π / 2 := by unfold rad; ring
  have hc := sunZenith_cos 0 90 0
  rw [e90, sin_pi_div_two, cos_pi_div_two] at hc
  have hd := dec_bound 0 (by norm_num)
  have hs : |sin (declination (century 0))| ≤ 0.43 := abs_sin_le_abs.trans hd
  obtain ⟨r0, r1⟩ := sunZenith_range 0 90 0
  generalize sunZenith 0 90 0 = Z at hn hc r0 r1
  rw [one_mul, zero_mul, zero_mul, add_zero] at hc
  rw [← hc] at hs
  have far : ∀ x, 0 ≤ x → |cos (rad x)| ≤ 0.43 → 23 ≤ x := by
    intro x x0 hx
    by_contra hlt
    have hlt := not_le.1 hlt
    have h1 := one_sub_sq_div_two_le_cos (x := rad x)
    have p2 := pi_lt_d4
    have h2 : rad x ≤ 0.402 := by
      have := rad_mono hlt.le
      refine this.trans ?_
      unfold rad; norm_num at p2 ⊢; linarith
    have h3 : rad x ^ 2 ≤ 0.402 ^ 2 := pow_le_pow_left₀ (by unfold rad; positivity) h2 2
    have h4 := (abs_le.1 hx).2
    norm_num at h3 h4; linarith
  have f1 := far Z r0 hs
  have f2 := far (180 - Z) (by linarith) (by
    rw [rad_sub, show rad 180 = π by unfold rad; ring, cos_pi_sub, abs_neg]; exact hs)
  have hn := abs_le.1 hn
  norm_num at hn
  constructor <;> linarith [hn.1, hn.2]

end SW.Props
