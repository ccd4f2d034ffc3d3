/-
C81 in floating point.
-/
import Verif.Props.Tests
import Verif.Props.FloatNight

namespace SW.Props
open SW SW.Spec SW.Tests Real Sunpos
open SW.Ephem (century declination hourAngle distance)

variable {A : Arith}

theorem isclose_rd {a r : Rd A} {α ρ x y : ℝ} (ha : Ap a α 10 1e-13) (hr : Ap r ρ 1 1e-13) (hx : |x| ≤ 1000) (hy : |y| ≤ 1000)
    (h : |x - y| + 1e-8 ≤ α + ρ * |y|) : isclose a r (Rd.fin x) (Rd.fin y) = true := by
  have hX : Ap (Rd.fin x : Rd A) x 1000 0 := ⟨hx, x, rfl, by simp⟩
  have hY : Ap (Rd.fin y : Rd A) y 1000 0 := ⟨hy, y, rfl, by simp⟩
  have h1 : Ap (Num.absv (Rd.fin x - Rd.fin y : Rd A)) |x - y| 2000 1e-11 := by apf
  have h2 : Ap (a + r * Num.absv (Rd.fin y : Rd A)) (α + ρ * |y|) 1010 1e-9 := by apf
  obtain ⟨-, p, hp, e1⟩ := h1
  obtain ⟨-, q, hq, e2⟩ := h2
  unfold isclose
  rw [hp, hq]
  refine decide_eq_true (p := p ≤ q) ?_
  have e1 := abs_le.1 e1
  have e2 := abs_le.1 e2
  norm_num at e1 e2 h
  linarith [e1.2, e2.1]

/-- cells of a call with sequences of numbers -/
theorem cell_at_rd {uc : UseCase} {w : World (Rd A)} {times : Times} {ts : List Int} {lat lon : List ℝ} {latitude longitude : Coord (Rd A)}
    {alg eng : String} {refr : PyVal} {s : Sunpos (Rd A)} (h : call uc w times latitude longitude alg refr eng = .ok s)
    (hlat : Holds latitude (lat.map Rd.fin)) (hlon : Holds longitude (lon.map Rd.fin))
    (hts : times.stamps = ts.map some) (hr : ∀ t ∈ ts, |t| < 2 ^ 63) {e : Dim → Nat} (he : Within s.zenith e) :
    ∃ t φ l, ts[e .time]? = some t ∧ lat[e uc.latDim]? = some φ ∧ lon[e uc.lonDim]? = some l ∧ AtRd s times e t φ l := by
  obtain ⟨lat', lon', b, utc, ha, hu, hres⟩ := call_inv h
  rw [holds_flat, ha.lat_eq] at hlat
  rw [holds_flat, ha.lon_eq] at hlon
  obtain rfl := Option.some.inj hlat
  obtain rfl := Option.some.inj hlon
  obtain ⟨c1, c2, c3⟩ := cell_inv hres ha.len he
  simp only [List.length_map, hts] at c1 c2 c3
  refine ⟨ts[e .time], lat[e uc.latDim], lon[e uc.lonDim], List.getElem?_eq_getElem c1, List.getElem?_eq_getElem c2,
    List.getElem?_eq_getElem c3, he, ?_, hr _ (List.getElem_mem c1), ?_, ?_⟩
  · unfold stampAt; rw [hts, List.getElem?_map, List.getElem?_eq_getElem c1]; rfl
  · rw [hres.latitude]
    show (lat.map Rd.fin).getD (e uc.latDim) Num.nan = _
    simp [List.getD_eq_getElem?_getD, List.getElem?_eq_getElem c2]
  · rw [hres.longitude]
    show (lon.map Rd.fin).getD (e uc.lonDim) Num.nan = _
    simp [List.getD_eq_getElem?_getD, List.getElem?_eq_getElem c3]

theorem rd_lit_two : Ap (2.0 : Rd A) 2 10 1e-13 := (Ap.lit (K := 10) (by norm_num) (by norm_num)).fit (by norm_num) (by norm_num) (by norm_num)
theorem rd_lit_zero : Ap (0.0 : Rd A) 0 1 1e-13 := (Ap.lit (K := 1) (by norm_num) (by norm_num)).fit (by norm_num) (by norm_num) (by norm_num)
theorem rd_lit_zero' : Ap (0.0 : Rd A) 0 10 1e-13 := rd_lit_zero.mono (by norm_num) le_rfl
theorem rd_lit_cent : Ap (0.01 : Rd A) 0.01 1 1e-13 := (Ap.lit (K := 1) (by norm_num) (by norm_num)).fit (by norm_num) (by norm_num) (by norm_num)
theorem rd_lit_ten : Ap (10 : Rd A) 10 10 1e-13 := ⟨by norm_num, 10, congrArg XR.fin (by show ((10 : ℕ) : ℝ) = 10; norm_num), by norm_num⟩

/-- the time-only values of an algorithm against those of nrel -/
theorem time_passes_rd {uc1 uc2 : UseCase} {w1 w2 : World (Rd A)} {times1 times2 : Times} {lat1 lon1 lat2 lon2 : Coord (Rd A)}
    {eng1 alg eng2 : String} {refr1 refr2 : PyVal} {s1 s2 : Sunpos (Rd A)} {e1 e2 : Dim → Nat} {t : Int}
    (h1 : call uc1 w1 times1 lat1 lon1 "nrel" refr1 eng1 = .ok s1)
    (h2 : call uc2 w2 times2 lat2 lon2 alg refr2 eng2 = .ok s2)
    (hk1 : stampAt times1.stamps (e1 .time) = some t) (hk2 : stampAt times2.stamps (e2 .time) = some t)
    (hrange : |t| < 2 ^ 63) :
    isclose 2.0 0.0 (s1.decDeg.get e1) (s2.decDeg.get e2) = true ∧
    isclose 10 0.0 (s1.eot.get e1) (s2.eot.get e2) = true ∧
    isclose 0.0 0.01 (s1.ecf.get e1) (s2.ecf.get e2) = true := by
  obtain ⟨b1, hb1, -⟩ := rd_time h1 hk1
  obtain ⟨b2, hb2, -⟩ := rd_time h2 hk2
  obtain ⟨x1, c1, ha1⟩ := single_call .sites (known_iff.2 ⟨b1, hb1⟩) .pyFalse hrange (φ := 40) (l := -4.5) (by norm_num) (by norm_num)
  obtain ⟨x2, c2, ha2⟩ := single_call .sites (known_iff.2 ⟨b2, hb2⟩) .pyFalse hrange (φ := 40) (l := -4.5) (by norm_num) (by norm_num)
  obtain ⟨⟨d1, D1, g1, G1, n1⟩, ⟨f1, F1, i1, I1, o1⟩, ⟨q1, Q1, j1, J1, p1⟩⟩ := near_time (e' := fun _ => 0) h1 c1 hk1 ha1.time hrange
  obtain ⟨⟨d2, D2, g2, G2, n2⟩, ⟨f2, F2, i2, I2, o2⟩, ⟨q2, Q2, j2, J2, p2⟩⟩ := near_time (e' := fun _ => 0) h2 c2 hk2 ha2.time hrange
  obtain ⟨y1, y2, u1, u2, hd⟩ := C63_declination (e1 := fun _ => 0) (e2 := fun _ => 0) c1 c2 ha1.time ha2.time hrange
  rw [XR.fin_inj.1 (u1.symm.trans G1), XR.fin_inj.1 (u2.symm.trans G2)] at hd
  obtain ⟨y3, y4, u3, u4, k, hx⟩ := C63_eot (e1 := fun _ => 0) (e2 := fun _ => 0) c1 c2 ha1.time ha2.time hrange
  rw [XR.fin_inj.1 (u3.symm.trans J1), XR.fin_inj.1 (u4.symm.trans J2)] at hx
  obtain ⟨y5, y6, u5, u6, hf⟩ := C63_ecf (e1 := fun _ => 0) (e2 := fun _ => 0) c1 c2 ha1.time ha2.time hrange
  rw [XR.fin_inj.1 (u5.symm.trans I1), XR.fin_inj.1 (u6.symm.trans I2)] at hf
  obtain ⟨y7, u7, r1⟩ := C19_eot (e := fun _ => 0) c1 ha1.time hrange
  rw [XR.fin_inj.1 (u7.symm.trans J1)] at r1
  obtain ⟨y8, u8, r2⟩ := C19_eot (e := fun _ => 0) c2 ha2.time hrange
  rw [XR.fin_inj.1 (u8.symm.trans J2)] at r2
  obtain ⟨y9, u9, v1, v2⟩ := C18_ecf (e := fun _ => 0) c1 ha1.time hrange
  rw [XR.fin_inj.1 (u9.symm.trans I1)] at v1 v2
  obtain ⟨y10, u10, v3, v4⟩ := C18_ecf (e := fun _ => 0) c2 ha2.time hrange
  rw [XR.fin_inj.1 (u10.symm.trans I2)] at v3 v4
  obtain ⟨y11, u11, w1, -⟩ := C17_declination (e := fun _ => 0) c1 ha1.time hrange
  rw [XR.fin_inj.1 (u11.symm.trans G1)] at w1
  obtain ⟨y12, u12, w2, -⟩ := C17_declination (e := fun _ => 0) c2 ha2.time hrange
  rw [XR.fin_inj.1 (u12.symm.trans G2)] at w2
  have m1 : decError "nrel" = 0.019 := by simp [decError]
  have m2 : eotError "nrel" = 0.117 := by simp [eotError]
  have m3 : ecfError "nrel" = 4.2e-4 := by simp [ecfError]
  have a1 : decError alg ≤ 1.06 := by unfold decError; split_ifs <;> norm_num
  have a2 : eotError alg ≤ 2.15 := by unfold eotError; split_ifs <;> norm_num
  have a3 : ecfError alg ≤ 0.0046 := by unfold ecfError; split_ifs <;> norm_num
  rw [m1] at hd; rw [m2] at hx; rw [m3] at hf
  rw [g1, g2, i1, i2, j1, j2]
  rw [abs_le] at n1 n2 o1 o2 p1 p2 r1 r2 w1 w2 hd hx hf
  norm_num at n1 n2 o1 o2 p1 p2 r1 r2 w1 w2 hd hx hf a1 a2 a3 v1 v2 v3 v4
  obtain ⟨n1, n1'⟩ := n1
  obtain ⟨n2, n2'⟩ := n2
  obtain ⟨o1, o1'⟩ := o1
  obtain ⟨o2, o2'⟩ := o2
  obtain ⟨p1, p1'⟩ := p1
  obtain ⟨p2, p2'⟩ := p2
  obtain ⟨r1, r1'⟩ := r1
  obtain ⟨r2, r2'⟩ := r2
  obtain ⟨w1, w1'⟩ := w1
  obtain ⟨w2, w2'⟩ := w2
  obtain ⟨hd, hd'⟩ := hd
  obtain ⟨hx, hx'⟩ := hx
  obtain ⟨hf, hf'⟩ := hf
  refine ⟨isclose_rd rd_lit_two rd_lit_zero ?_ ?_ ?_, isclose_rd rd_lit_ten rd_lit_zero ?_ ?_ ?_, isclose_rd rd_lit_zero' rd_lit_cent ?_ ?_ ?_⟩
  · rw [abs_le]; constructor <;> linarith
  · rw [abs_le]; constructor <;> linarith
  · rw [zero_mul, add_zero, ← le_sub_iff_add_le, abs_le]; norm_num; constructor <;> linarith
  · rw [abs_le]; constructor <;> linarith
  · rw [abs_le]; constructor <;> linarith
  · obtain rfl : k = 0 := by
      have z1 : (-1 : ℝ) < k := by linarith
      have z2 : (k : ℝ) < 1 := by linarith
      have z1 : (-1 : ℤ) < k := by exact_mod_cast z1
      have z2 : k < (1 : ℤ) := by exact_mod_cast z2
      omega
    rw [zero_mul, add_zero, ← le_sub_iff_add_le, abs_le]
    norm_num at hx hx' ⊢; constructor <;> linarith
  · rw [abs_le]; constructor <;> linarith
  · rw [abs_le]; constructor <;> linarith
  · rw [zero_add, abs_of_pos (show 0 < f2 by linarith), ← le_sub_iff_add_le, abs_le]; norm_num; constructor <;> linarith

/-- the zenith angle in degrees against that of the reference -/
theorem float_zenithDeg {uc : UseCase} {w : World (Rd A)} {times : Times} {latitude longitude : Coord (Rd A)}
    {alg eng : String} {refr : PyVal} {s : Sunpos (Rd A)} {e : Dim → Nat} {t : Int} {φ l : ℝ}
    (h : call uc w times latitude longitude alg refr eng = .ok s) (hr : refr ≠ .pyTrue)
    (ha : AtRd s times e t φ l) (hφ : -90 ≤ φ ∧ φ ≤ 90) (hl : -180 ≤ l ∧ l < 180)
    (hpole : alg = "nrel" → |φ| ≤ 90 - 1e-10) (hs : 0.06 ≤ placeFactor alg eng φ * sin (rad (sunZenith t φ l))) :
    ∃ z : ℝ, s.zenithDeg.get e = Rd.fin z ∧
      |z - sunZenith t φ l| ≤ positionError alg eng + 0.00132 / (placeFactor alg eng φ * sin (rad (sunZenith t φ l))) := by
  obtain ⟨s', z, a, z', a', B, k, h', ha', hz, -, hz', -, z0, z1, hd, -⟩ := float_near h hr ha hφ hl hpole
    (by rw [sunZenith_cos]; simp only [sunVec, cos_neg]) hs
  obtain ⟨y, hy, -, -, hn⟩ := zenithDeg_near h' hr ha'
  obtain rfl : z' = y := XR.fin_inj.1 (hz'.symm.trans hy)
  refine ⟨z, hz, (abs_sub_le z z' _).trans ?_⟩
  rw [show (2 * 0.00066 : ℝ) = 0.00132 by norm_num] at hd
  linarith

/-- the zenith angle of an algorithm against that of nrel, if the sun is not near the zenith or the nadir -/
theorem zenith_passes_rd {uc1 uc2 : UseCase} {w1 w2 : World (Rd A)} {times1 times2 : Times} {lat1 lon1 lat2 lon2 : Coord (Rd A)}
    {eng1 alg eng2 : String} {refr1 refr2 : PyVal} {s1 s2 : Sunpos (Rd A)} {e1 e2 : Dim → Nat} {t : Int} {φ l : ℝ}
    (h1 : call uc1 w1 times1 lat1 lon1 "nrel" refr1 eng1 = .ok s1) (hr1 : refr1 ≠ .pyTrue)
    (h2 : call uc2 w2 times2 lat2 lon2 alg refr2 eng2 = .ok s2) (hr2 : refr2 ≠ .pyTrue)
    (ha1 : AtRd s1 times1 e1 t φ l) (ha2 : AtRd s2 times2 e2 t φ l) (hφ : |φ| ≤ 90 - 1e-10) (hl : -180 ≤ l ∧ l < 180)
    (hs : 0.06 ≤ placeFactor alg eng2 φ * sin (rad (sunZenith t φ l))) :
    isclose 2.0 0.0 (s1.zenithDeg.get e1) (s2.zenithDeg.get e2) = true := by
  obtain ⟨z0, z1⟩ := sunZenith_range t φ l
  have hφ' : -90 ≤ φ ∧ φ ≤ 90 := by
    have := abs_le.1 hφ
    norm_num at this; constructor <;> linarith [this.1, this.2]
  have hs1 : 0.06 ≤ placeFactor "nrel" eng1 φ * sin (rad (sunZenith t φ l)) := by
    have s0 : 0 ≤ sin (rad (sunZenith t φ l)) := sin_nonneg_of_nonneg_of_le_pi (by unfold rad; positivity) (by unfold rad; nlinarith [pi_pos])
    have := mul_le_mul_of_nonneg_right (placeFactor_le alg eng2 φ) s0
    rw [show placeFactor "nrel" eng1 φ = 1 by simp [placeFactor]]
    linarith
  obtain ⟨b2, hb2, -⟩ := rd_time h2 ha2.time
  have p := positionError_le (known_iff.2 ⟨b2, hb2⟩)
  have en : positionError "nrel" eng1 = 0.063 := by simp [positionError]
  obtain ⟨x1, i1, j1⟩ := float_zenithDeg h1 hr1 ha1 hφ' hl (fun _ => hφ) hs1
  obtain ⟨x2, i2, j2⟩ := float_zenithDeg h2 hr2 ha2 hφ' hl (fun _ => hφ) hs
  rw [en] at j1
  rw [i1, i2]
  have k1 : 0.00132 / (placeFactor "nrel" eng1 φ * sin (rad (sunZenith t φ l))) ≤ 0.00132 / 0.06 := by gcongr
  have k2 : 0.00132 / (placeFactor alg eng2 φ * sin (rad (sunZenith t φ l))) ≤ 0.00132 / 0.06 := by gcongr
  generalize 0.00132 / (placeFactor "nrel" eng1 φ * sin (rad (sunZenith t φ l))) = A1 at *
  generalize 0.00132 / (placeFactor alg eng2 φ * sin (rad (sunZenith t φ l))) = A2 at *
  rw [abs_le] at j1 j2
  norm_num at j1 j2 k1 k2 p
  obtain ⟨j1, j1'⟩ := j1
  obtain ⟨j2, j2'⟩ := j2
  refine isclose_rd rd_lit_two rd_lit_zero ?_ ?_ ?_
  · rw [abs_le]; constructor <;> linarith
  · rw [abs_le]; constructor <;> linarith
  · rw [zero_mul, add_zero, ← le_sub_iff_add_le, abs_le]; norm_num; constructor <;> linarith

set_option maxHeartbeats 1000000 in
/-- **C81** The tests of the algorithms against nrel pass in floating point too, in every arithmetic that rounds well (in binary64, say), if
in no line of the arrays the sun comes near the zenith or the nadir of the site (3.44 degrees; more for the numpy engine of soltrack near the
poles) and no latitude is a pole. -/
theorem C81_float (h90 : A.lit 900 true 1 = XR.fin 90) (h180 : A.lit 1800 true 1 = XR.fin 180) (w : World (Rd A)) {times : Times} {ts : List Int}
    {lat lon : List ℝ} {alg eng : String} (hk : KnownPair alg eng)
    (hn : times.nested = false) (htz : times.tz = none) (hts : times.stamps = ts.map some) (hr : ∀ t ∈ ts, |t| < 2 ^ 63)
    (hlen : lat.length = lon.length) (hlat : ∀ φ ∈ lat, |φ| ≤ 90 - 1e-10) (hlon : ∀ l ∈ lon, -180 ≤ l ∧ l < 180)
    (hsun : ∀ t ∈ ts, ∀ p ∈ lat.zip lon, 0.06 ≤ placeFactor alg eng p.1 * sin (rad (sunZenith t p.1 p.2))) :
    algorithmTest w times (lat.map Rd.fin) (lon.map Rd.fin) alg eng = .ok () := by
  have e90 : (-90 : Rd A) = Rd.fin (-90) := rfl
  have e180 : (-180 : Rd A) = Rd.fin (-180) := rfl
  have f90 : (90.0 : Rd A) = Rd.fin 90 := h90
  have f180 : (180.0 : Rd A) = Rd.fin 180 := h180
  have le : ∀ x y : ℝ, Scalar.leB (Rd.fin x : Rd A) (Rd.fin y) = true ↔ x ≤ y := by
    intro x y
    show XR.cmp (· ≤ ·) (XR.fin x) (XR.fin y) = true ↔ _
    simp [XR.cmp]
  have lt : ∀ x y : ℝ, Scalar.ltB (Rd.fin x : Rd A) (Rd.fin y) = true ↔ x < y := by
    intro x y
    show XR.cmp (· < ·) (XR.fin x) (XR.fin y) = true ↔ _
    simp [XR.cmp]
  have ret : ∀ {alg eng : String}, KnownPair alg eng →
      ∃ s, call .sites w times (.vec (lat.map Rd.fin)) (.vec (lon.map Rd.fin)) alg .pyFalse eng = .ok s := fun hk =>
    C05_naive_returns .pyFalse hn htz rfl rfl (by simpa [Lengths] using hlen) hk
      (by
        intro x hx _
        obtain ⟨φ, hφ, rfl⟩ := List.mem_map.1 hx
        have := abs_le.1 (hlat φ hφ)
        rw [e90, f90, le, le]; norm_num at this; constructor <;> linarith [this.1, this.2])
      (by
        intro x hx _
        obtain ⟨l, hl, rfl⟩ := List.mem_map.1 hx
        rw [e180, f180, le, lt]; exact hlon l hl)
  obtain ⟨s1, h1⟩ := ret (alg := "nrel") (eng := "numexpr") (by simp [KnownPair])
  obtain ⟨s2, h2⟩ := ret hk
  unfold algorithmTest
  rw [h1, ok_bind, h2, ok_bind]
  obtain ⟨z1, f1, q1, d1, -⟩ := dims_core h1 rfl rfl
  obtain ⟨z2, f2, q2, d2, -⟩ := dims_core h2 rfl rfl
  have stamp : ∀ {e : Dim → Nat}, e .time < times.stamps.length → ∃ t, stampAt times.stamps (e .time) = some t ∧ |t| < 2 ^ 63 := by
    intro e he
    rw [hts, List.length_map] at he
    refine ⟨ts[e .time], ?_, hr _ (List.getElem_mem he)⟩
    unfold stampAt; rw [hts, List.getElem?_map, List.getElem?_eq_getElem he]; rfl
  have time : ∀ {e : Dim → Nat}, (∀ p ∈ [(Dim.time, times.stamps.length)], e p.1 < p.2) → e .time < times.stamps.length :=
    fun h => h _ List.mem_cons_self
  refine assertions_of (Z1 := s1.zenithDeg) (Z2 := s2.zenithDeg) (D1 := s1.decDeg) (D2 := s2.decDeg) (Q1 := s1.eot) (Q2 := s2.eot) (E1 := s1.ecf) (E2 := s2.ecf)
    (A1 := s1.azimuthDeg) (A2 := s2.azimuthDeg) rfl rfl rfl rfl rfl rfl rfl rfl rfl rfl (assert_allclose ?_ fun e he => ?_) (assert_allclose ?_ fun e he => ?_) (assert_allclose ?_ fun e he => ?_) (assert_allclose ?_ fun e he => ?_)
  · exact (degrees_dims _).trans ((z1.trans z2.symm).trans (degrees_dims _).symm)
  · have he : Within s1.zenith e := by rw [show s1.zenithDeg.dims = s1.zenith.dims from degrees_dims _] at he; exact he
    obtain ⟨t, φ, l, e1, e2, e3, ha1⟩ := cell_at_rd h1 rfl rfl hts hr he
    obtain ⟨t', φ', l', e1', e2', e3', ha2⟩ := cell_at_rd h2 rfl rfl hts hr (by unfold Within at he ⊢; rw [z1] at he; rw [z2]; exact he)
    obtain rfl := Option.some.inj (e1.symm.trans e1')
    obtain rfl := Option.some.inj (e2.symm.trans e2')
    obtain rfl := Option.some.inj (e3.symm.trans e3')
    have hz : (φ, l) ∈ lat.zip lon := by
      refine List.mem_of_getElem? (i := e .location) ?_
      rw [List.getElem?_zip_eq_some]
      exact ⟨e2, e3⟩
    exact zenith_passes_rd h1 (by simp) h2 (by simp) ha1 ha2 (hlat φ (List.mem_of_getElem? e2)) (hlon l (List.mem_of_getElem? e3))
      (hsun t (List.mem_of_getElem? e1) _ hz)
  · exact (degrees_dims _).trans ((d1.trans d2.symm).trans (degrees_dims _).symm)
  · rw [show s1.decDeg.dims = s1.declination.dims from degrees_dims _, d1] at he
    obtain ⟨t, ht, hrt⟩ := stamp (time he)
    exact (time_passes_rd h1 h2 ht ht hrt).1
  · exact q1.trans q2.symm
  · rw [q1] at he
    obtain ⟨t, ht, hrt⟩ := stamp (time he)
    exact (time_passes_rd h1 h2 ht ht hrt).2.1
  · exact f1.trans f2.symm
  · rw [f1] at he
    obtain ⟨t, ht, hrt⟩ := stamp (time he)
    exact (time_passes_rd h1 h2 ht ht hrt).2.2

/-- a case that meets the hypotheses, in binary64: two hours at latitude 75, where the sun is over 40 degrees from the zenith -/
example (w : World (Rd Arith.binary64)) : algorithmTest w ⟨false, none, [some 1711864800000000000, some 1718972400000000000]⟩
    ([75].map Rd.fin) ([-4].map Rd.fin) "psa" "numpy" = .ok () := by
  refine C81_float binary64_90 binary64_180 w (ts := [1711864800000000000, 1718972400000000000]) (by simp [KnownPair]) rfl rfl rfl (by simp) rfl
    ?_ ?_ ?_
  · intro φ h; obtain rfl := List.mem_singleton.1 h; norm_num
  · intro φ h; obtain rfl := List.mem_singleton.1 h; norm_num
  · intro t ht p hp
    obtain rfl := List.mem_singleton.1 hp
    have htr : |t| < 2 ^ 63 := by
      rcases List.mem_cons.1 ht with rfl | ht
      · norm_num
      · obtain rfl := List.mem_singleton.1 ht; norm_num
    rw [show placeFactor "psa" "numpy" 75 = 1 by simp [placeFactor], one_mul]
    have hd := dec_bound t htr
    obtain ⟨z0, z1⟩ := sunZenith_range t 75 (-4)
    have hc := sunZenith_cos t 75 (-4)
    have p1 := pi_gt_d4
    have p2 := pi_lt_d4
    have hs : 0 ≤ sin (rad (sunZenith t 75 (-4))) := by
      refine sin_nonneg_of_nonneg_of_le_pi (by unfold rad; positivity) ?_
      unfold rad
      nlinarith
    have c75 : cos (rad 75) = sin (π / 12) := by
      rw [← cos_pi_div_two_sub]; congr 1; unfold rad; ring
    have c75' : sin (π / 12) ≤ 0.262 := (sin_le (by positivity)).trans (by norm_num at p2 ⊢; linarith)
    have c75'' : 0 ≤ sin (π / 12) := sin_nonneg_of_nonneg_of_le_pi (by positivity) (by linarith)
    have hsd : |sin (declination (century t))| ≤ 0.43 := abs_sin_le_abs.trans hd
    have b1 : |sin (rad 75) * sin (declination (century t))| ≤ 0.43 := by
      rw [abs_mul]
      exact (mul_le_of_le_one_left (abs_nonneg _) (abs_sin_le_one _)).trans hsd
    have b2 : |cos (rad 75) * cos (declination (century t)) * cos (hourAngle (century t) + rad (-4))| ≤ 0.262 := by
      rw [abs_mul, abs_mul, c75, abs_of_nonneg c75'']
      have u := abs_cos_le_one (declination (century t))
      have v := abs_cos_le_one (hourAngle (century t) + rad (-4))
      calc _ ≤ sin (π / 12) * 1 * 1 := by gcongr
        _ ≤ 0.262 := by rw [mul_one, mul_one]; exact c75'
    have b3 : |cos (rad (sunZenith t 75 (-4)))| ≤ 0.7 := by
      rw [hc]; exact (abs_add_le _ _).trans (by norm_num at b1 b2 ⊢; linarith)
    have sq := sin_sq_add_cos_sq (rad (sunZenith t 75 (-4)))
    have cq : cos (rad (sunZenith t 75 (-4))) ^ 2 ≤ 0.7 ^ 2 := by rw [← sq_abs]; gcongr
    generalize sin (rad (sunZenith t 75 (-4))) = S at *
    norm_num at cq ⊢
    nlinarith

end SW.Props
