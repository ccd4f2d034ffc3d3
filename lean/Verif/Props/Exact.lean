/-
Numeric properties of the results of calls, in exact real arithmetic (`XR`): agreement of the use
cases and engines, ranges, direction of the sun, bounds, refraction
(C08, C09, C13-C19, C35, C46).
-/
import Verif.Props.Calls
import Verif.RPsa
import Verif.RSoltrack
import Verif.RIqbal
import Verif.RNrel
import Verif.Nan

namespace SW.Props
open SW.Spec Real

/-! ### the bridge: from calls to cells -/

theorem toSec_inSec {t : Int} (h : |t| < 2 ^ 63) : InSec (toSec t) := by
  unfold InSec toSec
  rw [abs_lt] at h
  rw [abs_le]
  norm_num at h
  constructor <;> omega

/-- what a call stores at a cell -/
structure CellOf (s : Sunpos XR) (e : Dim → Nat) (o : Out XR) : Prop where
  zenith : s.zenith.get e = o.zenith
  azimuth : s.azimuth.get e = o.azimuth
  ecf : s.ecf.get e = o.ecf
  eot : s.eot.get e = o.eot
  dec : s.declination.get e = o.declination

theorem degrees_get (a : DA XR) (e : Dim → Nat) : (degrees a).get e = degrees (a.get e) := rfl

theorem zenithDeg_fin {s : Sunpos XR} {e : Dim → Nat} {z : ℝ} (h : s.zenith.get e = .fin z) :
    s.zenithDeg.get e = .fin (z * (180 / π)) := by
  show degrees (s.zenith.get e) = _; rw [h, XR.degrees_fin, degrees_real]
theorem azimuthDeg_fin {s : Sunpos XR} {e : Dim → Nat} {z : ℝ} (h : s.azimuth.get e = .fin z) :
    s.azimuthDeg.get e = .fin (z * (180 / π)) := by
  show degrees (s.azimuth.get e) = _; rw [h, XR.degrees_fin, degrees_real]
theorem decDeg_fin {s : Sunpos XR} {e : Dim → Nat} {z : ℝ} (h : s.declination.get e = .fin z) :
    s.decDeg.get e = .fin (z * (180 / π)) := by
  show degrees (s.declination.get e) = _; rw [h, XR.degrees_fin, degrees_real]
theorem rad_deg (z : ℝ) : rad (z * (180 / π)) = z := by
  unfold rad; field_simp

theorem at_cell {uc : UseCase} {w : World XR} {times : Times} {latitude longitude : Coord XR}
    {alg eng : String} {refr : PyVal} {s : Sunpos XR} {e : Dim → Nat} {t : Int} {φ l : ℝ}
    (h : call uc w times latitude longitude alg refr eng = .ok s) (ha : At s times e t φ l) :
    ∃ b, Backend.ofNames alg eng = some b ∧ InSec (toSec t) ∧ (-90 ≤ φ ∧ φ ≤ 90) ∧
      (-180 ≤ l ∧ l < 180) ∧ CellOf s e (b.cell uc (toSec t) (.fin l) (.fin φ) refr.isTrue) := by
  obtain ⟨lat, lon, b, utc, hacc, hu, hr⟩ := call_inv h
  obtain ⟨c1, c2, c3⟩ := cell_inv hr hacc.len ha.within
  obtain ⟨z, a⟩ := hr.cell e c1 c2 c3
  obtain ⟨t1, t2, t3⟩ := hr.time e c1 (s.longitude.get e) (s.latitude.get e)
  have ht := ha.time
  unfold stampAt at ht
  rw [ht, ha.lat, ha.lon] at z a t1 t2 t3
  have hlat := ha.lat
  have hlon := ha.lon
  rw [hr.latitude] at hlat
  rw [hr.longitude] at hlon
  simp only [DA.along] at hlat hlon
  refine ⟨b, hacc.names, toSec_inSec ha.range, ?_, ?_, ⟨z, a, t1, t2, t3⟩⟩
  · have := latOk_XR.1 hacc.latOk (lat[e uc.latDim]) (List.getElem_mem _)
    rw [List.getD_eq_getElem?_getD, List.getElem?_eq_getElem c2, Option.getD_some] at hlat
    rw [hlat] at this
    exact this
  · have := lonOk_XR.1 hacc.lonOk (lon[e uc.lonDim]) (List.getElem_mem _)
    rw [List.getD_eq_getElem?_getD, List.getElem?_eq_getElem c3, Option.getD_some] at hlon
    rw [hlon] at this
    exact this

theorem cell_psaPy {t : ℤ} (h : InSec t) (uc : UseCase) (x y : ℝ) (r : Bool) :
    Backend.psaPy.cell uc t (.fin x) (.fin y) r = (Psa.cellPy t x y r).fin := Psa.cellPy_fin h x y r
theorem cell_psaNe {t : ℤ} (h : InSec t) (uc : UseCase) (x y : ℝ) (r : Bool) :
    Backend.psaNe.cell uc t (.fin x) (.fin y) r = (Psa.cellNe t x y r).fin := Psa.cellNe_fin h x y r

/-- both engines of soltrack -/
noncomputable def solOut (t : ℤ) (x y : ℝ) (r : Bool) : Out XR :=
  ⟨HALFPI - Soltrack.withRefr r (XR.fin (Soltrack.altP (rad y) (Soltrack.decAt t)
      (Soltrack.H0 t + rad x))),
    XR.fin (Soltrack.aziR (rad y) (Soltrack.decAt t) (Soltrack.H0 t + rad x)),
    XR.fin (Soltrack.ecf (Soltrack.tJC (Soltrack.tJD (t : ℝ)))), XR.fin (Soltrack.decAt t),
    XR.fin (Soltrack.eotAt t)⟩
theorem cell_soltrackPy {t : ℤ} (h : InSec t) (uc : UseCase) (x : ℝ) {y : ℝ} (hy : -90 ≤ y ∧ y ≤ 90)
    (r : Bool) : Backend.soltrackPy.cell uc t (.fin x) (.fin y) r = solOut t x y r :=
  Soltrack.cellPy_eq h x y hy r
theorem cell_soltrackNe {t : ℤ} (h : InSec t) (uc : UseCase) (x y : ℝ)
    (r : Bool) : Backend.soltrackNe.cell uc t (.fin x) (.fin y) r = solOut t x y r :=
  Soltrack.cellNe_eq h _ x y r

/-- both engines of iqbal -/
noncomputable def iqbOut (t : ℤ) (x y : ℝ) (r : Bool) : Out ℝ :=
  ⟨Iqbal.withRefr r (Iqbal.zenR (rad y) (Iqbal.decAt t) (Iqbal.H0 t + rad x)),
    Iqbal.aziR (rad y) (Iqbal.decAt t) (Iqbal.H0 t + rad x),
    Iqbal.ecf (Iqbal.dayAngle t), Iqbal.decAt t, Iqbal.eotMinutes (Iqbal.dayAngle t)⟩
theorem cell_iqbalPy (t : ℤ) (uc : UseCase) (x y : ℝ)
    (r : Bool) : Backend.iqbalPy.cell uc t (.fin x) (.fin y) r = (iqbOut t x y r).fin :=
  Iqbal.cellPy_eq t x y r
theorem cell_iqbalNe (t : ℤ) (uc : UseCase) (x y : ℝ)
    (r : Bool) : Backend.iqbalNe.cell uc t (.fin x) (.fin y) r = (iqbOut t x y r).fin :=
  (Iqbal.cellNe_eq _ t x y r).trans (Iqbal.cellPy_eq t x y r)
theorem cell_nrel {t : ℤ} (h : InSec t) (uc : UseCase) (x y : ℝ) (r : Bool) :
    Backend.nrelNe.cell uc t (.fin x) (.fin y) r = (Nrel.cell t x y r).fin := Nrel.cell_fin h x y r

/-- case analysis on the algorithm and engine of a cell -/
theorem at_cases {uc : UseCase} {w : World XR} {times : Times} {latitude longitude : Coord XR}
    {alg eng : String} {refr : PyVal} {s : Sunpos XR} {e : Dim → Nat} {t : Int} {φ l : ℝ}
    (h : call uc w times latitude longitude alg refr eng = .ok s) (ha : At s times e t φ l) :
    InSec (toSec t) ∧ (-90 ≤ φ ∧ φ ≤ 90) ∧ (-180 ≤ l ∧ l < 180) ∧
    ((alg = "psa" ∧ eng = "numpy" ∧ CellOf s e (Psa.cellPy (toSec t) l φ refr.isTrue).fin) ∨
     (alg = "psa" ∧ eng = "numexpr" ∧ CellOf s e (Psa.cellNe (toSec t) l φ refr.isTrue).fin) ∨
     (alg = "soltrack" ∧ CellOf s e (solOut (toSec t) l φ refr.isTrue)) ∨
     (alg = "iqbal" ∧ CellOf s e (iqbOut (toSec t) l φ refr.isTrue).fin) ∨
     (alg = "nrel" ∧ CellOf s e (Nrel.cell (toSec t) l φ refr.isTrue).fin)) := by
  obtain ⟨b, hb, ht, hφ, hl, hc⟩ := at_cell h ha
  refine ⟨ht, hφ, hl, ?_⟩
  rw [ofNames_iff] at hb
  cases b <;> simp only [Prod.mk.injEq] at hb <;> obtain ⟨rfl, rfl⟩ := hb
  · rw [cell_psaPy ht] at hc; exact .inl ⟨rfl, rfl, hc⟩
  · rw [cell_psaNe ht] at hc; exact .inr (.inl ⟨rfl, rfl, hc⟩)
  · rw [cell_soltrackPy ht _ _ hφ] at hc; exact .inr (.inr (.inl ⟨rfl, hc⟩))
  · rw [cell_soltrackNe ht] at hc; exact .inr (.inr (.inl ⟨rfl, hc⟩))
  · rw [cell_iqbalPy] at hc; exact .inr (.inr (.inr (.inl ⟨rfl, hc⟩)))
  · rw [cell_iqbalNe] at hc; exact .inr (.inr (.inr (.inl ⟨rfl, hc⟩)))
  · rw [cell_nrel ht] at hc; exact .inr (.inr (.inr (.inr ⟨rfl, hc⟩)))

/-! ### C08: the use cases, exact arithmetic -/

theorem soltrackNe_q {t : ℤ} (h : InSec t) (q : Bool) (lon lat : XR) (r : Bool) :
    Soltrack.cellNe q t lon lat r = Soltrack.cellNe false t lon lat r := by
  have hc := Soltrack.tJC_bound h
  have hd0 : 0 < cos (Soltrack.decAt t) := Soltrack.cos_decR hc
  have hd : (Soltrack.timeNe (t : ℝ)).decl = Soltrack.decAt t := Soltrack.declNe_eq _
  have htan : ∀ q : Bool, (if q = true then XR.fin (sin (Soltrack.decAt t)) / XR.fin (cos (Soltrack.decAt t))
      else XR.fin (rtan (Soltrack.decAt t))) = XR.fin (tan (Soltrack.decAt t)) := by
    intro q
    rw [XR.div_fin hd0.ne', rtan_of_cos_ne hd0.ne', tan_eq_sin_div_cos]; cases q <;> rfl
  unfold Soltrack.cellNe
  simp only [XR.ofInt_fin, Soltrack.timeNe_fin h, hd, XR.sin_fin, XR.cos_fin, XR.tan_fin, htan]

theorem iqbalNe_q (t : ℤ) (q : Bool) (lon lat : XR) (r : Bool) :
    Iqbal.cellNe q t lon lat r = Iqbal.cellNe false t lon lat r := by
  have : (if q = true then Iqbal.lonHours (Num.f32 lon) else Num.f32 lon / 15.0) = Num.f32 lon / 15.0 := by
    cases q <;> rfl
  unfold Iqbal.cellNe
  simp only [this, Bool.false_eq_true, if_false]

/-- C08: in exact arithmetic every algorithm and engine gives the same five values for the same
instant, latitude and longitude in the three use cases (NaN coordinates and NaT included). -/
theorem C08_usecases_agree_exact {uc uc' : UseCase} {w w' : World XR} {times times' : Times}
    {latitude longitude latitude' longitude' : Coord XR}
    {alg eng : String} {refr : PyVal} {s s' : Sunpos XR} {e e' : Dim → Nat}
    (h : call uc w times latitude longitude alg refr eng = .ok s)
    (h' : call uc' w' times' latitude' longitude' alg refr eng = .ok s')
    (he : Within s.zenith e) (he' : Within s'.zenith e')
    (ht : stampAt times.stamps (e .time) = stampAt times'.stamps (e' .time))
    (hrange : ∀ t, stampAt times.stamps (e .time) = some t → |t| < 2 ^ 63)
    (hlat : s.latitude.get e = s'.latitude.get e')
    (hlon : s.longitude.get e = s'.longitude.get e') :
    SameAt s s' e e' := by
  obtain ⟨lat, lon, b, utc, ha, _, hr⟩ := call_inv h
  obtain ⟨lat', lon', b', utc', ha', _, hr'⟩ := call_inv h'
  obtain rfl : b = b' := Option.some.inj (ha.names.symm.trans ha'.names)
  obtain ⟨c1, c2, c3⟩ := cell_inv hr ha.len he
  obtain ⟨c1', c2', c3'⟩ := cell_inv hr' ha'.len he'
  obtain ⟨z, a⟩ := hr.cell e c1 c2 c3
  obtain ⟨z', a'⟩ := hr'.cell e' c1' c2' c3'
  obtain ⟨t1, t2, t3⟩ := hr.time e c1 (s.longitude.get e) (s.latitude.get e)
  obtain ⟨t1', t2', t3'⟩ := hr'.time e' c1' (s'.longitude.get e') (s'.latitude.get e')
  unfold stampAt at ht hrange
  have hv : ∀ (x y : XR) (r : Bool), b.valueAt uc ((times.stamps[e .time]?).getD none) x y r
      = b.valueAt uc' ((times.stamps[e .time]?).getD none) x y r := by
    intro x y r
    cases ho : (times.stamps[e .time]?).getD none with
    | none => rfl
    | some t =>
      have hs := toSec_inSec (hrange t ho)
      cases b
      · rfl
      · rfl
      · rfl
      · exact (soltrackNe_q hs _ x y r).trans (soltrackNe_q hs _ x y r).symm
      · rfl
      · exact (iqbalNe_q _ _ x y r).trans (iqbalNe_q _ _ x y r).symm
      · rfl
  rw [ht] at hv
  simp only [SameAt, z, z', a, a', t1, t1', t2, t2', t3, t3', ht, hv, hlat, hlon, and_self]

/-! ### C09: the engines -/

/-- C09: the two engines of soltrack and of iqbal give the same values at cells with the same
instant and coordinates. -/
theorem C09_engines_agree {uc uc' : UseCase} {w w' : World XR} {times times' : Times}
    {latitude longitude latitude' longitude' : Coord XR}
    {alg eng eng' : String} {refr : PyVal} {s s' : Sunpos XR} {e e' : Dim → Nat}
    {t : Int} {φ l : ℝ}
    (h : call uc w times latitude longitude alg refr eng = .ok s)
    (h' : call uc' w' times' latitude' longitude' alg refr eng' = .ok s')
    (halg : alg = "soltrack" ∨ alg = "iqbal")
    (ha : At s times e t φ l) (ha' : At s' times' e' t φ l) :
    SameAt s s' e e' := by
  obtain ⟨ht, hφ, hl, hc⟩ := at_cases h ha
  obtain ⟨-, -, -, hc'⟩ := at_cases h' ha'
  rcases halg with rfl | rfl
  · simp only [String.reduceEq, false_and, true_and, false_or, or_false] at hc hc'
    exact ⟨hc.1.trans hc'.1.symm, hc.2.trans hc'.2.symm, hc.3.trans hc'.3.symm,
      hc.4.trans hc'.4.symm, hc.5.trans hc'.5.symm⟩
  · simp only [String.reduceEq, false_and, true_and, false_or, or_false] at hc hc'
    exact ⟨hc.1.trans hc'.1.symm, hc.2.trans hc'.2.symm, hc.3.trans hc'.3.symm,
      hc.4.trans hc'.4.symm, hc.5.trans hc'.5.symm⟩

/-- C09: the two engines of psa give the same azimuth, ecf, eot and declination. Their zenith angles
are the same function `g` (the identity unless refraction is on) of `arccos c + k sin(arccos c)`
(parallax), where `c` is the cosine of the geometric zenith in the numexpr engine, and a multiple of
1e-6 at most 5e-7 away from it in the numpy engine. -/
theorem C09_psa (refr : PyVal) : ∃ g : ℝ → ℝ, (refr ≠ .pyTrue → ∀ z, g z = z) ∧
    ∀ {uc uc' : UseCase} {w w' : World XR} {times times' : Times}
    {latitude longitude latitude' longitude' : Coord XR}
    {s s' : Sunpos XR} {e e' : Dim → Nat} {t : Int} {φ l : ℝ},
    call uc w times latitude longitude "psa" refr "numexpr" = .ok s →
    call uc' w' times' latitude' longitude' "psa" refr "numpy" = .ok s' →
    At s times e t φ l → At s' times' e' t φ l →
    s.azimuth.get e = s'.azimuth.get e' ∧ SameTimeAt s s' e e' ∧
    ∃ c c' : ℝ, |c| ≤ 1 ∧ |c'| ≤ 1 ∧ |c' - c| ≤ 5e-7 ∧ (∃ n : ℤ, c' = n / 1000000) ∧
      s.zenith.get e = .fin (g (arccos c + 0.000042587565907513806 * sin (arccos c))) ∧
      s'.zenith.get e' = .fin (g (arccos c' + 0.000042587565907513806 * sin (arccos c'))) := by
  refine ⟨Psa.withRefr refr.isTrue, ?_, ?_⟩
  · intro h z
    have : refr.isTrue = false := by cases refr <;> first | rfl | exact absurd rfl h
    rw [this]; rfl
  intro uc uc' w w' times times' latitude longitude latitude' longitude' s s' e e' t φ l h h' ha ha'
  obtain ⟨ht, hφ, hl, hc⟩ := at_cases h ha
  obtain ⟨-, -, -, hc'⟩ := at_cases h' ha'
  simp only [String.reduceEq, false_and, true_and, false_or, or_false] at hc hc'
  rw [Psa.cellNe_real] at hc
  rw [Psa.cellPy_eq] at hc'
  refine ⟨hc.2.trans hc'.2.symm, ⟨hc.3.trans hc'.3.symm, hc.4.trans hc'.4.symm, hc.5.trans hc'.5.symm⟩, ?_⟩
  have hm := Psa.cosz_mem (Psa.phi φ) (Psa.haNe (toSec t) l) (Psa.timeNe ((toSec t : ℤ) : ℝ)).delta
  exact ⟨_, _, hm, rround6_mem hm, rround6_near _, ⟨_, rfl⟩, hc.1, hc'.1⟩

/-! ### single-cell calls: witnesses -/

/-- one instant -/
def oneTime (t : Int) : Times := ⟨false, none, [some t]⟩

/-- Every instant, latitude and longitude is a cell of some call, for every use case, algorithm,
engine and refraction. -/
theorem single_call (uc : UseCase) {alg eng : String} (hk : KnownPair alg eng) (refr : PyVal)
    {t : Int} (ht : |t| < 2 ^ 63) {φ l : ℝ} (hφ : -90 ≤ φ ∧ φ ≤ 90) (hl : -180 ≤ l ∧ l < 180) :
    ∃ s, call uc exWorld (oneTime t) (.vec [.fin φ]) (.vec [.fin l]) alg refr eng = .ok s ∧
      At s (oneTime t) (fun _ => 0) t φ l := by
  obtain ⟨s, hs⟩ := C05_naive_returns (uc := uc) (w := exWorld) (times := oneTime t)
    (latitude := .vec [.fin φ]) (longitude := .vec [.fin l]) (lat := [.fin φ]) (lon := [.fin l])
    refr rfl rfl rfl rfl (by cases uc <;> simp [Lengths, oneTime]) hk
    (latOk_XR.2 (by simpa [LatAdm] using hφ)) (lonOk_XR.2 (by simpa [LonAdm] using hl))
  refine ⟨s, hs, ?_⟩
  have hd := (C05_shape hs rfl rfl).1
  obtain ⟨lat, lon, b, utc, ha, _, hr⟩ := call_inv hs
  obtain rfl : [XR.fin φ] = lat := Option.some.inj ha.lat_eq
  obtain rfl : [XR.fin l] = lon := Option.some.inj ha.lon_eq
  refine ⟨?_, rfl, ht, ?_, ?_⟩
  · unfold Within; rw [hd]; cases uc <;> simp [documentedDims, oneTime]
  · rw [hr.latitude]; rfl
  · rw [hr.longitude]; rfl

/-- a longitude at which the hour angle is any given one -/
theorem exists_lon (H0 H : ℝ) : ∃ l : ℝ, (-180 ≤ l ∧ l < 180) ∧ ∃ k : ℤ, H0 + rad l = H + k * (2 * π) := by
  set x := (H - H0) * (180 / π) with hx
  have hf := Int.floor_le ((x + 180) / 360)
  have hf' := Int.lt_floor_add_one ((x + 180) / 360)
  set n := ⌊(x + 180) / 360⌋
  refine ⟨x - 360 * n, ⟨?_, ?_⟩, -n, ?_⟩
  · rw [le_div_iff₀ (by norm_num)] at hf; linarith
  · rw [div_lt_iff₀ (by norm_num)] at hf'; linarith
  · have := pi_ne_zero
    unfold rad; rw [hx]; push_cast; field_simp; ring

theorem rad_mem {φ : ℝ} (h1 : -(π / 2) ≤ φ) (h2 : φ ≤ π / 2) :
    (-90 ≤ φ * (180 / π) ∧ φ * (180 / π) ≤ 90) := by
  have hp := pi_pos
  rw [mul_div_assoc', le_div_iff₀ hp, div_le_iff₀ hp]
  constructor <;> nlinarith

/-- C09: the zenith angles of the two engines of psa are in general different: at every instant there
is a place where they are. -/
theorem C09_psa_zenith_differs {t : Int} (ht : |t| < 2 ^ 63) (uc : UseCase) :
    ∃ (φ l : ℝ) (s s' : Sunpos XR),
      call uc exWorld (oneTime t) (.vec [.fin φ]) (.vec [.fin l]) "psa" .pyFalse "numexpr" = .ok s ∧
      call uc exWorld (oneTime t) (.vec [.fin φ]) (.vec [.fin l]) "psa" .pyFalse "numpy" = .ok s' ∧
      ∃ z z' : ℝ, s.zenith.get (fun _ => 0) = .fin z ∧ s'.zenith.get (fun _ => 0) = .fin z' ∧ z ≠ z' := by
  have hs := toSec_inSec ht
  set δ := (Psa.timeNe ((toSec t : ℤ) : ℝ)).delta with hδ
  have hδb : |δ| ≤ 0.41 := Psa.delta_bound (Psa.jde_bound hs)
  obtain ⟨l, hl, k, hk⟩ := exists_lon (Psa.H0 (toSec t)) 0
  have hpi := pi_gt_d2
  have hpi2 := pi_lt_d2
  have hac : arccos 0.5000001 ≤ π / 3 := by
    have := arccos_le_arccos (x := 1 / 2) (y := 0.5000001) (by norm_num)
    have e : arccos (1 / 2) = π / 3 := by
      rw [← cos_pi_div_three, arccos_cos (by positivity) (by linarith)]
    linarith
  have hac0 := arccos_nonneg 0.5000001
  have hδ2 := abs_le.1 hδb
  set φ := δ + arccos 0.5000001 with hφ
  have hφ1 : -(π / 2) ≤ φ := by norm_num at *; linarith
  have hφ2 : φ ≤ π / 2 := by norm_num at *; linarith
  obtain ⟨s, hs1, ha⟩ := single_call uc (alg := "psa") (eng := "numexpr") (by simp [KnownPair]) .pyFalse
    ht (rad_mem hφ1 hφ2) hl
  obtain ⟨s', hs1', ha'⟩ := single_call uc (alg := "psa") (eng := "numpy") (by simp [KnownPair]) .pyFalse
    ht (rad_mem hφ1 hφ2) hl
  obtain ⟨-, -, -, hc⟩ := at_cases hs1 ha
  obtain ⟨-, -, -, hc'⟩ := at_cases hs1' ha'
  simp only [String.reduceEq, false_and, true_and, false_or, or_false] at hc hc'
  rw [Psa.cellNe_real] at hc
  rw [Psa.cellPy_eq] at hc'
  have hcos : Psa.cosz (cos (Psa.phi (φ * (180 / π)))) (sin (Psa.phi (φ * (180 / π)))) (Psa.haNe (toSec t) l) δ
      = 0.5000001 := by
    have e1 : Psa.phi (φ * (180 / π)) = φ := rad_deg φ
    have e2 : cos (Psa.haNe (toSec t) l) = 1 := by
      rw [Psa.haNe_eq]
      have hk' : Psa.H0 (toSec t) + l * (π / 180) = 0 + k * (2 * π) := hk
      rw [hk', cos_add_int_mul_two_pi, cos_zero]
    rw [Psa.cosz_real, e1, e2, mul_one, add_comm, ← cos_sub, hφ, add_sub_cancel_left,
      cos_arccos (by norm_num) (by norm_num)]
  rw [← hδ, hcos] at hc hc'
  refine ⟨_, _, s, s', hs1, hs1', _, _, hc.1, hc'.1, ?_⟩
  show Psa.parallax _ ≠ Psa.parallax _
  intro heq
  rw [Psa.parallax_real, Psa.parallax_real] at heq
  set c' := rround6 0.5000001 with hc'd
  have hcm : |c'| ≤ 1 := rround6_mem (by norm_num)
  have hcm' := abs_le.1 hcm
  have hne : arccos 0.5000001 = arccos c' := by
    have lip := abs_sin_sub_sin_le (arccos 0.5000001) (arccos c')
    have : arccos 0.5000001 - arccos c'
        = -(0.000042587565907513806 * (sin (arccos 0.5000001) - sin (arccos c'))) := by
      linear_combination heq
    have h2 : |arccos 0.5000001 - arccos c'| ≤ 0.000042587565907513806 * |arccos 0.5000001 - arccos c'| := by
      conv_lhs => rw [this]
      rw [abs_neg, abs_mul, abs_of_pos (by norm_num)]
      exact mul_le_mul_of_nonneg_left lip (by norm_num)
    have h3 := abs_nonneg (arccos 0.5000001 - arccos c')
    have : |arccos 0.5000001 - arccos c'| = 0 := by
      refine le_antisymm (not_lt.1 fun hh => ?_) h3
      have := mul_lt_mul_of_pos_right (show (0.000042587565907513806 : ℝ) < 1 by norm_num) hh
      linarith
    exact sub_eq_zero.1 (abs_eq_zero.1 this)
  have : (0.5000001 : ℝ) = c' := arccos_injOn (by constructor <;> norm_num) ⟨hcm'.1, hcm'.2⟩ hne
  have hn : c' = (rint (0.5000001 * 1000000) : ℝ) / 1000000 := rfl
  rw [hn] at this
  have h4 : ((10 * rint (0.5000001 * 1000000) : ℤ) : ℝ) = (5000001 : ℤ) := by
    push_cast; norm_num at this ⊢; linarith
  have h5 : 10 * rint (0.5000001 * 1000000) = 5000001 := by exact_mod_cast h4
  omega

/-! ### C13: range of the zenith -/

theorem deg_mem {z : ℝ} (h : 0 ≤ z ∧ z ≤ π) : 0 ≤ z * (180 / π) ∧ z * (180 / π) ≤ 180 := by
  have hp := pi_pos
  refine ⟨by have := h.1; positivity, ?_⟩
  rw [mul_div_assoc', div_le_iff₀ hp]; nlinarith [h.2]

theorem psa_zen_mem (r : Bool) (c : ℝ) :
    0 ≤ Psa.withRefr r (Psa.parallax (arccos c)) ∧ Psa.withRefr r (Psa.parallax (arccos c)) ≤ π := by
  have := parallax_mem (k := 0.000042587565907513806) (arccos_nonneg c) (arccos_le_pi c)
    (by norm_num) (by norm_num)
  rw [← Psa.parallax_real] at this
  exact Psa.withRefr_mem this.1 this.2.1 r

theorem notTrue {refr : PyVal} (h : refr ≠ .pyTrue) : refr.isTrue = false := by
  cases refr <;> first | rfl | exact absurd rfl h

/-- C13: the public zenith is a number in [0, 180] degrees for psa and nrel, and for all algorithms
without refraction. -/
theorem C13_range {uc : UseCase} {w : World XR} {times : Times} {latitude longitude : Coord XR}
    {alg eng : String} {refr : PyVal} {s : Sunpos XR} {e : Dim → Nat} {t : Int} {φ l : ℝ}
    (h : call uc w times latitude longitude alg refr eng = .ok s) (ha : At s times e t φ l)
    (hcase : alg = "psa" ∨ alg = "nrel" ∨ refr ≠ .pyTrue) :
    ∃ z, s.zenithDeg.get e = .fin z ∧ 0 ≤ z ∧ z ≤ 180 := by
  suffices ∃ z, s.zenith.get e = .fin z ∧ 0 ≤ z ∧ z ≤ π by
    obtain ⟨z, h1, h2⟩ := this
    exact ⟨_, zenithDeg_fin h1, deg_mem h2⟩
  obtain ⟨ht, hφ, hl, hc⟩ := at_cases h ha
  rcases hc with ⟨rfl, rfl, hc⟩ | ⟨rfl, rfl, hc⟩ | ⟨rfl, hc⟩ | ⟨rfl, hc⟩ | ⟨rfl, hc⟩
  · rw [Psa.cellPy_eq] at hc
    exact ⟨_, hc.1, psa_zen_mem _ _⟩
  · rw [Psa.cellNe_real] at hc
    exact ⟨_, hc.1, psa_zen_mem _ _⟩
  · simp only [String.reduceEq, false_or] at hcase
    rw [notTrue hcase] at hc
    refine ⟨_, hc.1.trans (Soltrack.zen_false _ _ _), ?_⟩
    rw [Soltrack.altP_eq]
    have := parallax_mem (k := 4.2635e-5) (arccos_nonneg (sin (rad φ) * sin (Soltrack.decAt (toSec t))
      + cos (rad φ) * cos (Soltrack.decAt (toSec t)) * cos (Soltrack.H0 (toSec t) + rad l)))
      (arccos_le_pi _) (by norm_num) (by norm_num)
    exact ⟨this.1, this.2.1⟩
  · simp only [String.reduceEq, false_or] at hcase
    rw [notTrue hcase] at hc
    exact ⟨_, hc.1, arccos_nonneg _, arccos_le_pi _⟩
  · exact ⟨_, hc.1, Nrel.zenith_mem _ _ _ _⟩

/-- C13: with refraction, iqbal leaves the documented range: at every instant there is a place where
its zenith angle is negative. -/
theorem C13_iqbal_negative {t : Int} (ht : |t| < 2 ^ 63) (uc : UseCase) {eng : String}
    (heng : eng = "numpy" ∨ eng = "numexpr") :
    ∃ (φ l : ℝ) (s : Sunpos XR),
      call uc exWorld (oneTime t) (.vec [.fin φ]) (.vec [.fin l]) "iqbal" .pyTrue eng = .ok s ∧
      ∃ z : ℝ, s.zenithDeg.get (fun _ => 0) = .fin z ∧ z < -0.01 := by
  obtain ⟨l, hl, k, hk⟩ := exists_lon (Iqbal.H0 (toSec t)) 0
  set δ := Iqbal.decAt (toSec t) with hδ
  have hδb := abs_le.1 (Iqbal.decl_bound (Iqbal.dayAngle (toSec t)))
  have hpi := pi_gt_d2
  have h1 : -(π / 2) ≤ δ := by
    have : -0.4232 ≤ δ := hδb.1
    norm_num at *; linarith
  have h2 : δ ≤ π / 2 := by
    have : δ ≤ 0.4232 := hδb.2
    norm_num at *; linarith
  obtain ⟨s, hs1, ha⟩ := single_call uc (alg := "iqbal") (eng := eng)
    (by rcases heng with rfl | rfl <;> simp [KnownPair]) .pyTrue ht (rad_mem h1 h2) hl
  obtain ⟨-, -, -, hc⟩ := at_cases hs1 ha
  simp only [String.reduceEq, false_and, true_and, false_or, or_false] at hc
  refine ⟨_, _, s, hs1, _, zenithDeg_fin hc.1, ?_⟩
  have hz : Iqbal.zenR (rad (δ * (180 / π))) δ (Iqbal.H0 (toSec t) + rad l) = 0 := by
    unfold Iqbal.zenR
    rw [hk, rad_deg, cos_add_int_mul_two_pi, cos_zero, mul_one, ← pow_two, ← pow_two,
      sin_sq_add_cos_sq, arccos_one]
  show Iqbal.refract (Iqbal.zenR _ _ _) * _ < _
  rw [← hδ, hz]
  have hr : (Iqbal.refract (0 : ℝ)) = -Iqbal.refcor (π / 2) := by
    show HALFPI - ((HALFPI - 0) + Iqbal.refcor (HALFPI - 0)) = _
    rw [sub_zero, HALFPI_real]; ring
  have hr2 : (Iqbal.refcor (π / 2)) = 0.061359 * (0.1594 + (1.1230 * (π / 2)) + (0.065656 * ((π / 2) * (π / 2))))
    / (1.0 + (28.9344 * (π / 2)) + (277.3971 * ((π / 2) * (π / 2)))) := rfl
  have hpi4 := pi_gt_d4
  have hpi4' := pi_lt_d4
  have hb : 1.7480e-4 < Iqbal.refcor (π / 2) := by
    rw [hr2, lt_div_iff₀ (by positivity)]
    norm_num at *; nlinarith
  rw [hr]
  have : 0.01 < Iqbal.refcor (π / 2) * (180 / π) := by
    rw [mul_div_assoc', lt_div_iff₀ pi_pos]
    norm_num at *; nlinarith
  linarith

/-- C13: how far iqbal can leave the documented range: less than 0.012 degrees. -/
theorem C13_iqbal_bounds {uc : UseCase} {w : World XR} {times : Times} {latitude longitude : Coord XR}
    {eng : String} {refr : PyVal} {s : Sunpos XR} {e : Dim → Nat} {t : Int} {φ l : ℝ}
    (h : call uc w times latitude longitude "iqbal" refr eng = .ok s) (ha : At s times e t φ l) :
    ∃ z, s.zenithDeg.get e = .fin z ∧ -0.012 ≤ z ∧ z ≤ 180.012 := by
  obtain ⟨ht, hφ, hl, hc⟩ := at_cases h ha
  simp only [String.reduceEq, false_and, true_and, false_or, or_false] at hc
  refine ⟨_, zenithDeg_fin hc.1, ?_⟩
  suffices H : -2e-4 ≤ (iqbOut (toSec t) l φ refr.isTrue).zenith ∧
      (iqbOut (toSec t) l φ refr.isTrue).zenith ≤ π + 2e-4 by
    have hp := pi_pos
    have := pi_gt_d2
    rw [mul_div_assoc', le_div_iff₀ hp, div_le_iff₀ hp]
    constructor <;> norm_num at * <;> nlinarith [H.1, H.2]
  show -2e-4 ≤ Iqbal.withRefr refr.isTrue (Iqbal.zenR _ _ _) ∧ Iqbal.withRefr refr.isTrue (Iqbal.zenR _ _ _) ≤ _
  generalize hz : Iqbal.zenR (rad φ) (Iqbal.decAt (toSec t)) (Iqbal.H0 (toSec t) + rad l) = z
  have hz0 : 0 ≤ z := by rw [← hz]; exact arccos_nonneg _
  have hz1 : z ≤ π := by rw [← hz]; exact arccos_le_pi _
  cases refr.isTrue
  · show -2e-4 ≤ z ∧ z ≤ _
    constructor <;> norm_num at * <;> linarith
  · show -2e-4 ≤ HALFPI - ((HALFPI - z) + Iqbal.refcor (HALFPI - z)) ∧
      HALFPI - ((HALFPI - z) + Iqbal.refcor (HALFPI - z)) ≤ π + 2e-4
    rw [HALFPI_real]
    set a := π / 2 - z with had
    have ha0 : -(π / 2) ≤ a := by linarith
    have ha1 : a ≤ π / 2 := by linarith
    have hr : Iqbal.refcor a = 0.061359 * (0.1594 + (1.1230 * a) + (0.065656 * (a * a)))
      / (1.0 + (28.9344 * a) + (277.3971 * (a * a))) := rfl
    have hpos : 0 < 1.0 + (28.9344 * a) + (277.3971 * (a * a)) := Iqbal.refden_pos a
    have hpi := pi_gt_d2
    have hpi' := pi_lt_d2
    have B1 : Iqbal.refcor a ≤ 0.03 := by
      rw [hr, div_le_iff₀ hpos]; norm_num at *; nlinarith [sq_nonneg (a + 0.05)]
    have B2 : -0.003 ≤ Iqbal.refcor a := by
      rw [hr, le_div_iff₀ hpos]; norm_num at *; nlinarith [sq_nonneg (a + 0.05)]
    have B3 : 1.5 ≤ a → Iqbal.refcor a ≤ 2e-4 := by
      intro h; rw [hr, div_le_iff₀ hpos]; norm_num at *; nlinarith
    have B4 : a ≤ -1.5 → -2e-4 ≤ Iqbal.refcor a := by
      intro h; rw [hr, le_div_iff₀ hpos]; norm_num at *; nlinarith
    have ez : π / 2 - (a + Iqbal.refcor a) = z - Iqbal.refcor a := by rw [had]; ring
    constructor
    · by_cases h : 1.5 ≤ a
      · have := B3 h; linarith
      · norm_num at *; linarith
    · by_cases h : a ≤ -1.5
      · have := B4 h; linarith
      · norm_num at *; linarith

/-- near the pole of soltrack's refraction formula the correction takes every large value -/
theorem soltrack_pole {B : ℝ} (hB3 : 3 ≤ B) : ∃ a h : ℝ, -0.1 ≤ a ∧ a ≤ 0 ∧ 0 < h ∧ h ≤ 0.002 ∧
    a - 4.2635e-5 * cos a = -8.92e-2 + h ∧ rtan (-8.92e-2 + h + 3.1376e-3 / h) = 2.967e-4 / B := by
  have hpi := pi_gt_d2
  have hpi' := pi_lt_d2
  obtain ⟨ε, hε⟩ : ∃ ε, ε = arctan (2.967e-4 / B) := ⟨_, rfl⟩
  have hq : 0 < 2.967e-4 / B := by positivity
  have hε0 : 0 < ε := hε ▸ arctan_pos.2 hq
  have hε1 : ε ≤ 1e-3 := by
    have h1 : ε ≤ 2.967e-4 / B := by
      have := abs_arctan_le (2.967e-4 / B)
      rwa [← hε, abs_of_pos hε0, abs_of_pos hq] at this
    have h2 : 2.967e-4 / B ≤ 1e-3 := by rw [div_le_iff₀ (by linarith)]; norm_num at hB3 ⊢; linarith
    linarith
  have htan : rtan (π + ε) = 2.967e-4 / B := by
    have hc0 : cos (π + ε) ≠ 0 := by
      rw [add_comm, cos_add_pi, neg_ne_zero, hε]
      exact (cos_arctan_pos _).ne'
    unfold rtan
    rw [if_neg hc0, add_comm, tan_add_pi, hε, tan_arctan]
  obtain ⟨S, hS⟩ : ∃ S, S = π + ε + 8.92e-2 := ⟨_, rfl⟩
  have hS1 : 3.2 ≤ S := by rw [hS]; norm_num at hpi hε0 hε1 ⊢; linarith
  have hS2 : S ≤ 3.3 := by rw [hS]; norm_num at hpi' hε0 hε1 ⊢; linarith
  obtain ⟨D, hD⟩ : ∃ D, D = √(S ^ 2 - 4 * 3.1376e-3) := ⟨_, rfl⟩
  have hD2 : D ^ 2 = S ^ 2 - 4 * 3.1376e-3 := by
    rw [hD]; exact sq_sqrt (by norm_num at hS1 hS2 ⊢; nlinarith)
  have hD0 : 0 ≤ D := hD ▸ sqrt_nonneg _
  obtain ⟨h, hh⟩ : ∃ h, h = (S - D) / 2 := ⟨_, rfl⟩
  have hroot : h * (S - h) = 3.1376e-3 := by rw [hh]; linear_combination -hD2 / 4
  have hSD : D < S := by by_contra hc; norm_num at hc hD2 hS1; nlinarith
  have hh0 : 0 < h := by rw [hh]; linarith
  have hh1 : h ≤ 0.002 := by
    by_contra hc
    have hhS : h ≤ S / 2 := by rw [hh]; linarith
    clear hh hD hD2 hSD hD0 htan hε hq
    norm_num at hc hS1 hroot; nlinarith
  have harg : -8.92e-2 + h + 3.1376e-3 / h = π + ε := by
    have : 3.1376e-3 / h = S - h := by rw [div_eq_iff hh0.ne', ← hroot]; ring
    rw [this, hS]; ring
  obtain ⟨a, ha1, ha2⟩ : ∃ a ∈ Set.Icc (-0.1 : ℝ) 0, a - 4.2635e-5 * cos a = -8.92e-2 + h := by
    have hcont : ContinuousOn (fun a : ℝ => a - 4.2635e-5 * cos a) (Set.Icc (-0.1) 0) := by fun_prop
    have := intermediate_value_Icc (by norm_num) hcont
    obtain ⟨a, h1, h2⟩ := this (show -8.92e-2 + h ∈ Set.Icc _ _ from by
      have := neg_one_le_cos (-0.1)
      constructor
      · show -0.1 - 4.2635e-5 * cos (-0.1) ≤ _; norm_num at this hh0 ⊢; linarith
      · show _ ≤ 0 - 4.2635e-5 * cos 0; rw [cos_zero]; norm_num at hh1 ⊢; linarith)
    exact ⟨a, h1, h2⟩
  exact ⟨a, h, ha1.1, ha1.2, hh0, hh1, ha2, by rw [harg, htan]⟩

/-- C13: with refraction, the zenith of soltrack is unbounded: at every instant and for every `M`
there is a place (with the sun about 5 degrees below the horizon, near the pole of the refraction
formula) where the returned zenith is below `-M` degrees. -/
theorem C13_soltrack_unbounded {t : Int} (ht : |t| < 2 ^ 63) (uc : UseCase) {eng : String}
    (heng : eng = "numpy" ∨ eng = "numexpr") (M : ℝ) :
    ∃ (φ l : ℝ) (s : Sunpos XR),
      call uc exWorld (oneTime t) (.vec [.fin φ]) (.vec [.fin l]) "soltrack" .pyTrue eng = .ok s ∧
      ∃ z : ℝ, s.zenithDeg.get (fun _ => 0) = .fin z ∧ z < -M := by
  have hs := toSec_inSec ht
  have hpi := pi_gt_d2
  have hpi' := pi_lt_d2
  obtain ⟨δ, hδ⟩ : ∃ δ, δ = Soltrack.decAt (toSec t) := ⟨_, rfl⟩
  have hδb := abs_le.1 (Soltrack.decR_bound (Soltrack.tJC_bound hs))
  have hδ1 : -0.41 ≤ δ := hδ ▸ hδb.1
  have hδ2 : δ ≤ 0.41 := hδ ▸ hδb.2
  clear hδb
  obtain ⟨B, hB⟩ : ∃ B, B = |M| + 3 := ⟨_, rfl⟩
  have hB3 : 3 ≤ B := by have := abs_nonneg M; linarith
  obtain ⟨a, h, ha0, ha0', hh0, hh1, ha2, htan⟩ := soltrack_pole hB3
  have hq : 0 < 2.967e-4 / B := by positivity
  -- the place: on the meridian of midnight
  obtain ⟨l, hl, k, hk⟩ := exists_lon (Soltrack.H0 (toSec t)) π
  obtain ⟨p, hp1, hp2, hp3⟩ : ∃ p, -(π / 2) ≤ p ∧ p ≤ π / 2 ∧ cos (p + δ) = -sin a := by
    by_cases hd : 0 ≤ δ
    · refine ⟨π / 2 + a - δ, by norm_num at ha0 hδ2 hpi ⊢; linarith, by linarith, ?_⟩
      rw [show π / 2 + a - δ + δ = a + π / 2 by ring, cos_add_pi_div_two]
    · refine ⟨-(π / 2 + a) - δ, by linarith, by norm_num at ha0 hδ1 hpi ⊢; linarith, ?_⟩
      rw [show -(π / 2 + a) - δ + δ = -(a + π / 2) by ring, cos_neg, cos_add_pi_div_two]
  obtain ⟨s, hs1, ha⟩ := single_call uc (alg := "soltrack") (eng := eng)
    (by rcases heng with rfl | rfl <;> simp [KnownPair]) .pyTrue ht (rad_mem hp1 hp2) hl
  obtain ⟨-, -, -, hc⟩ := at_cases hs1 ha
  simp only [String.reduceEq, false_and, true_and, false_or, or_false] at hc
  have hcosH : cos (Soltrack.H0 (toSec t) + rad l) = -1 := by
    rw [hk, cos_add_int_mul_two_pi, cos_pi]
  have halt : Soltrack.altP (rad (p * (180 / π))) δ (Soltrack.H0 (toSec t) + rad l) = -8.92e-2 + h := by
    unfold Soltrack.altP
    rw [hcosH, rad_deg]
    have e : sin p * sin δ + cos p * cos δ * -1 = sin a := by
      have := cos_add p δ; linarith
    rw [e, arcsin_sin (by norm_num at ha0 hpi ⊢; linarith) (by linarith), Soltrack.parallax_real, ha2]
  have hz' : s.zenith.get (fun _ => 0) = HALFPI - Soltrack.refract (XR.fin (-8.92e-2 + h)) := by
    rw [hc.1]; show HALFPI - Soltrack.withRefr true _ = _
    rw [← hδ, halt]; rfl
  have href : Soltrack.refract (XR.fin (-8.92e-2 + h)) = XR.fin (-8.92e-2 + h + B) := by
    unfold Soltrack.refract
    have e1 : (8.92e-2 : XR) = XR.fin 8.92e-2 := rfl
    have e2 : (3.1376e-3 : XR) = XR.fin 3.1376e-3 := rfl
    have e3 : (2.967e-4 : XR) = XR.fin 2.967e-4 := rfl
    have e4 : -8.92e-2 + h + 8.92e-2 = h := by ring
    rw [e1, e2, e3, XR.add_fin, e4, XR.div_fin hh0.ne', XR.add_fin, XR.tan_fin, htan,
      XR.div_fin hq.ne', XR.add_fin]
    congr 2
    have : B ≠ 0 := by linarith
    rw [div_div_eq_mul_div, mul_div_cancel_left₀ _ (by norm_num)]
  rw [href, XR.HALFPI_fin, XR.sub_fin, HALFPI_real] at hz'
  refine ⟨_, _, s, hs1, _, zenithDeg_fin hz', ?_⟩
  have hneg : π / 2 - (-8.92e-2 + h + B) < -|M| := by rw [hB]; norm_num at hpi' hh0 ⊢; linarith
  have hfac : 1 ≤ 180 / π := by rw [le_div_iff₀ pi_pos]; linarith
  have hM := le_abs_self M
  have hM0 := abs_nonneg M
  generalize π / 2 - (-8.92e-2 + h + B) = x at hneg
  nlinarith

/-! ### C14: range of the azimuth -/

theorem deg_bound {a : ℝ} : (-π ≤ a → -180 ≤ a * (180 / π)) ∧ (a < π → a * (180 / π) < 180) ∧
    (-π < a → -180 < a * (180 / π)) ∧ (a ≤ π → a * (180 / π) ≤ 180) := by
  have hp := pi_pos
  have e : a * (180 / π) = a * 180 / π := by ring
  rw [e]
  refine ⟨fun h => ?_, fun h => ?_, fun h => ?_, fun h => ?_⟩
  · rw [le_div_iff₀ hp]; linarith
  · rw [div_lt_iff₀ hp]; linarith
  · rw [lt_div_iff₀ hp]; linarith
  · rw [div_le_iff₀ hp]; linarith

/-- C14: the public azimuth is a number in [-180, 180) degrees for psa and iqbal, and in (-180, 180]
for soltrack and nrel. -/
theorem C14_range {uc : UseCase} {w : World XR} {times : Times} {latitude longitude : Coord XR}
    {alg eng : String} {refr : PyVal} {s : Sunpos XR} {e : Dim → Nat} {t : Int} {φ l : ℝ}
    (h : call uc w times latitude longitude alg refr eng = .ok s) (ha : At s times e t φ l) :
    ∃ a, s.azimuthDeg.get e = .fin a ∧
      ((alg = "psa" ∨ alg = "iqbal") ∧ -180 ≤ a ∧ a < 180 ∨
       (alg = "soltrack" ∨ alg = "nrel") ∧ -180 < a ∧ a ≤ 180) := by
  obtain ⟨ht, hφ, hl, hc⟩ := at_cases h ha
  rcases hc with ⟨rfl, rfl, hc⟩ | ⟨rfl, rfl, hc⟩ | ⟨rfl, hc⟩ | ⟨rfl, hc⟩ | ⟨rfl, hc⟩
  · rw [Psa.cellPy_eq] at hc
    have := Psa.azWrap_mem (Psa.phi φ) (Psa.haNe (toSec t) l) (Psa.timeNe ((toSec t : ℤ) : ℝ)).delta
    exact ⟨_, azimuthDeg_fin hc.2, .inl ⟨.inl rfl, deg_bound.1 this.1, deg_bound.2.1 this.2⟩⟩
  · rw [Psa.cellNe_real] at hc
    have := Psa.azWrap_mem (Psa.phi φ) (Psa.haNe (toSec t) l) (Psa.timeNe ((toSec t : ℤ) : ℝ)).delta
    exact ⟨_, azimuthDeg_fin hc.2, .inl ⟨.inl rfl, deg_bound.1 this.1, deg_bound.2.1 this.2⟩⟩
  · exact ⟨_, azimuthDeg_fin hc.2, .inr ⟨.inl rfl, deg_bound.2.2.1 (ratan2_mem _ _).1,
      deg_bound.2.2.2 (ratan2_mem _ _).2⟩⟩
  · have := Psa.azWrap_mem (rad φ) (Iqbal.H0 (toSec t) + rad l) (Iqbal.decAt (toSec t))
    exact ⟨_, azimuthDeg_fin hc.2, .inl ⟨.inr rfl, deg_bound.1 this.1, deg_bound.2.1 this.2⟩⟩
  · obtain ⟨h', X, k, -, hz, -⟩ := Nrel.cell_az ht l φ refr.isTrue
    refine ⟨_, azimuthDeg_fin hc.2, .inr ⟨.inr rfl, ?_⟩⟩
    rw [hz]
    exact ⟨deg_bound.2.2.1 (ratan2_mem _ _).1, deg_bound.2.2.2 (ratan2_mem _ _).2⟩

/-! ### C15, C16, C46: the direction of the sun -/

/-- hour angle at longitude zero of each algorithm -/
noncomputable def hourAngle0 (alg : String) (t : Int) : ℝ :=
  if alg = "psa" then Psa.H0 (toSec t) else if alg = "soltrack" then Soltrack.H0 (toSec t)
  else if alg = "iqbal" then Iqbal.H0 (toSec t) else Nrel.H0 (toSec t)

theorem seenAt_iff {φ δ H zg az : ℝ} : SeenAt φ δ H zg az ↔ Dir φ δ H zg az :=
  ⟨fun h => ⟨h.1, h.2, h.3, h.4, h.5⟩, fun h => ⟨h.1, h.2, h.3, h.4, h.5⟩⟩

/-- C15 with its hour angle -/
theorem direction0 {alg : String} (halg : alg = "psa" ∨ alg = "soltrack" ∨ alg = "iqbal")
    {uc : UseCase} {w : World XR} {times : Times} {latitude longitude : Coord XR}
    {eng : String} {refr : PyVal} {s : Sunpos XR} {e : Dim → Nat} {t : Int} {φ l : ℝ}
    (h : call uc w times latitude longitude alg refr eng = .ok s) (hr : refr ≠ .pyTrue)
    (ha : At s times e t φ l) :
    ∃ z a d zg : ℝ, s.zenithDeg.get e = .fin z ∧ s.azimuthDeg.get e = .fin a ∧
      s.decDeg.get e = .fin d ∧ SeenAt (rad φ) (rad d) (hourAngle0 alg t + rad l) zg (rad a) ∧
      (alg = "iqbal" → rad z = zg) ∧
      (alg = "soltrack" ∨ alg = "psa" ∧ eng = "numexpr" → zg ≤ rad z ∧ rad z ≤ zg + 4.3e-5) ∧
      (alg = "psa" ∧ eng = "numpy" → ∃ c, |c - cos zg| ≤ 5e-7 ∧ arccos c ≤ rad z ∧
        rad z ≤ arccos c + 4.3e-5) := by
  obtain ⟨ht, hφ, hl, hc⟩ := at_cases h ha
  rw [notTrue hr] at hc
  rcases hc with ⟨rfl, rfl, hc⟩ | ⟨rfl, rfl, hc⟩ | ⟨rfl, hc⟩ | ⟨rfl, hc⟩ | ⟨rfl, hc⟩
  · obtain ⟨zg, h1, h2⟩ := Psa.cellPy_dir ht l φ false
    refine ⟨_, _, _, zg, zenithDeg_fin hc.1, azimuthDeg_fin hc.2, decDeg_fin hc.5, ?_, by simp, by simp, ?_⟩
    · rw [rad_deg, rad_deg]; exact seenAt_iff.2 h1
    · rintro -
      rw [rad_deg, h2]
      have := parallax_mem (k := 0.000042587565907513806) (arccos_nonneg (rround6 (cos zg)))
        (arccos_le_pi _) (by norm_num) (by norm_num)
      refine ⟨_, rround6_near _, this.2.2.1, this.2.2.2.trans ?_⟩
      norm_num
  · obtain ⟨zg, h1, h2⟩ := Psa.cellNe_dir ht l φ false
    refine ⟨_, _, _, zg, zenithDeg_fin hc.1, azimuthDeg_fin hc.2, decDeg_fin hc.5, ?_, by simp, ?_, by simp⟩
    · rw [rad_deg, rad_deg]; exact seenAt_iff.2 h1
    · rintro -
      rw [rad_deg, h2]
      have := parallax_mem (k := 0.000042587565907513806) h1.zen_nonneg h1.zen_le (by norm_num) (by norm_num)
      refine ⟨this.2.2.1, this.2.2.2.trans ?_⟩
      norm_num
  · have hd : 0 < cos (Soltrack.decAt (toSec t)) := Soltrack.cos_decR (Soltrack.tJC_bound ht)
    have h1 := Soltrack.dir (p := rad φ) (h := Soltrack.H0 (toSec t) + rad l) hd
    have hz := hc.1.trans (Soltrack.zen_false _ _ _)
    refine ⟨_, _, _, arccos (sin (rad φ) * sin (Soltrack.decAt (toSec t)) +
      cos (rad φ) * cos (Soltrack.decAt (toSec t)) * cos (Soltrack.H0 (toSec t) + rad l)),
      zenithDeg_fin hz, azimuthDeg_fin hc.2, decDeg_fin hc.5, ?_, by simp, ?_, by simp⟩
    · rw [rad_deg, rad_deg]; exact seenAt_iff.2 h1
    · rintro -
      rw [rad_deg, Soltrack.altP_eq]
      have := parallax_mem (k := 4.2635e-5) h1.zen_nonneg h1.zen_le (by norm_num) (by norm_num)
      refine ⟨this.2.2.1, this.2.2.2.trans ?_⟩
      norm_num
  · have h1 := Iqbal.dir (p := rad φ) (h := Iqbal.H0 (toSec t) + rad l) (Iqbal.cos_decAt (toSec t))
    refine ⟨_, _, _, Iqbal.zenR (rad φ) (Iqbal.decAt (toSec t)) (Iqbal.H0 (toSec t) + rad l),
      zenithDeg_fin hc.1, azimuthDeg_fin hc.2, decDeg_fin hc.5, ?_, ?_, by simp, by simp⟩
    · rw [rad_deg, rad_deg]; exact seenAt_iff.2 h1
    · rintro -
      rw [rad_deg]; rfl
  · simp at halg

/-- C15: for psa, soltrack and iqbal there is one hour angle `H0 t` per instant such that without
refraction, at every place, the returned declination, azimuth and zenith are those of one sun at hour
angle `H0 t + longitude`, the zenith exactly for iqbal, up to a parallax towards the horizon of at
most 4.3e-5 rad for the others, and for the numpy engine of psa up to rounding of the cosine. -/
theorem C15_direction (alg : String) (halg : alg = "psa" ∨ alg = "soltrack" ∨ alg = "iqbal") :
    ∃ H0 : Int → ℝ, ∀ {uc : UseCase} {w : World XR} {times : Times} {latitude longitude : Coord XR}
      {eng : String} {refr : PyVal} {s : Sunpos XR} {e : Dim → Nat} {t : Int} {φ l : ℝ},
      call uc w times latitude longitude alg refr eng = .ok s → refr ≠ .pyTrue →
      At s times e t φ l →
      ∃ z a d zg : ℝ, s.zenithDeg.get e = .fin z ∧ s.azimuthDeg.get e = .fin a ∧
        s.decDeg.get e = .fin d ∧ SeenAt (rad φ) (rad d) (H0 t + rad l) zg (rad a) ∧
        (alg = "iqbal" → rad z = zg) ∧
        (alg = "soltrack" ∨ alg = "psa" ∧ eng = "numexpr" → zg ≤ rad z ∧ rad z ≤ zg + 4.3e-5) ∧
        (alg = "psa" ∧ eng = "numpy" → ∃ c, |c - cos zg| ≤ 5e-7 ∧ arccos c ≤ rad z ∧
          rad z ≤ arccos c + 4.3e-5) :=
  ⟨hourAngle0 alg, fun h hr ha => direction0 halg h hr ha⟩

/-- C46 with its hour angle -/
theorem topocentric0 {uc : UseCase} {w : World XR} {times : Times} {latitude longitude : Coord XR}
    {eng : String} {refr : PyVal} {s : Sunpos XR} {e : Dim → Nat} {t : Int} {φ l : ℝ}
    (h : call uc w times latitude longitude "nrel" refr eng = .ok s) (hr : refr ≠ .pyTrue)
    (ha : At s times e t φ l) :
      ∃ z a d ρ σ u : ℝ, s.zenithDeg.get e = .fin z ∧ s.azimuthDeg.get e = .fin a ∧
        s.decDeg.get e = .fin d ∧ 0 < ρ ∧ 0 ≤ σ ∧ σ ≤ 4.4e-5 ∧ 0 < cos u ∧
        (cos (rad φ) ≠ 0 → tan u = 0.99664719 * tan (rad φ)) ∧
        -- up
        ρ * cos (rad z) = (sin (rad φ) * sin (rad d) + cos (rad φ) * cos (rad d) * cos (hourAngle0 "nrel" t + rad l))
          - σ * (cos (rad φ) * cos u + sin (rad φ) * (0.99664719 * sin u)) ∧
        -- south
        ρ * (sin (rad z) * cos (rad a))
          = (sin (rad φ) * cos (rad d) * cos (hourAngle0 "nrel" t + rad l) - cos (rad φ) * sin (rad d))
          - σ * (sin (rad φ) * cos u - cos (rad φ) * (0.99664719 * sin u)) ∧
        -- west
        ρ * (sin (rad z) * sin (rad a)) = cos (rad d) * sin (hourAngle0 "nrel" t + rad l) := by
  obtain ⟨ht, hφ, hl, hc⟩ := at_cases h ha
  rw [notTrue hr] at hc
  simp only [String.reduceEq, false_and, true_and, false_or] at hc
  obtain ⟨zg, ρ, σ, u, -, -, h1, h2, h3, h4, h5, h6, h7, h8, h9⟩ := Nrel.cell_dir ht l φ false
  have hz : (Nrel.cell (toSec t) l φ false).zenith = zg := by
    rw [h6]; show π / 2 - (π / 2 - zg) = zg; ring
  refine ⟨_, _, _, ρ, σ, u, zenithDeg_fin hc.1, azimuthDeg_fin hc.2, decDeg_fin hc.5, h1, h2, h3, h4, h5,
    ?_, ?_, ?_⟩ <;> rw [rad_deg, rad_deg, hz] <;> try rw [rad_deg]
  · exact h7
  · exact h8
  · exact h9

/-- C46: nrel gives the topocentric direction: there is one geocentric hour angle `H0 t` per instant
such that, without refraction, the returned zenith and azimuth are those of the vector from the
observer to the sun, `ρ` times a unit vector, where the sun is at distance 1 in the direction given by
the returned (geocentric) declination and the hour angle `H0 t + longitude`, and the observer is in
the meridian plane at `σ * (cos u, 0.99664719 sin u)`, `u` being the reduced latitude of an ellipsoid
of axis ratio 0.99664719, and `σ ≤ 4.4e-5` the radius of the earth in units of the distance. -/
theorem C46_nrel_topocentric :
    ∃ H0 : Int → ℝ, ∀ {uc : UseCase} {w : World XR} {times : Times} {latitude longitude : Coord XR}
      {eng : String} {refr : PyVal} {s : Sunpos XR} {e : Dim → Nat} {t : Int} {φ l : ℝ},
      call uc w times latitude longitude "nrel" refr eng = .ok s → refr ≠ .pyTrue →
      At s times e t φ l →
      ∃ z a d ρ σ u : ℝ, s.zenithDeg.get e = .fin z ∧ s.azimuthDeg.get e = .fin a ∧
        s.decDeg.get e = .fin d ∧ 0 < ρ ∧ 0 ≤ σ ∧ σ ≤ 4.4e-5 ∧ 0 < cos u ∧
        (cos (rad φ) ≠ 0 → tan u = 0.99664719 * tan (rad φ)) ∧
        -- up
        ρ * cos (rad z) = (sin (rad φ) * sin (rad d) + cos (rad φ) * cos (rad d) * cos (H0 t + rad l))
          - σ * (cos (rad φ) * cos u + sin (rad φ) * (0.99664719 * sin u)) ∧
        -- south
        ρ * (sin (rad z) * cos (rad a))
          = (sin (rad φ) * cos (rad d) * cos (H0 t + rad l) - cos (rad φ) * sin (rad d))
          - σ * (sin (rad φ) * cos u - cos (rad φ) * (0.99664719 * sin u)) ∧
        -- west
        ρ * (sin (rad z) * sin (rad a)) = cos (rad d) * sin (H0 t + rad l) :=
  ⟨hourAngle0 "nrel", fun h hr ha => topocentric0 h hr ha⟩

/-- For every algorithm there is one hour angle `H0 t` per instant (the one of C15 and C46) such that
at every place, with or without refraction, the azimuth is strictly between -180 and 0 exactly when
the sun is east of the meridian (`sin (H0 t + longitude) < 0`), strictly between 0 and 180 exactly
when it is west of it, and 0, -180 or 180 exactly when it is on the meridian. -/
theorem C16_sign (alg : String) :
    ∃ H0 : Int → ℝ, ∀ {uc : UseCase} {w : World XR} {times : Times} {latitude longitude : Coord XR}
      {eng : String} {refr : PyVal} {s : Sunpos XR} {e : Dim → Nat} {t : Int} {φ l : ℝ},
      call uc w times latitude longitude alg refr eng = .ok s → At s times e t φ l →
      ∃ a d : ℝ, s.azimuthDeg.get e = .fin a ∧ s.decDeg.get e = .fin d ∧
        (sin (H0 t + rad l) < 0 ↔ -180 < a ∧ a < 0) ∧
        (0 < sin (H0 t + rad l) ↔ 0 < a ∧ a < 180) ∧
        (sin (H0 t + rad l) = 0 ↔ a = 0 ∨ a = 180 ∨ a = -180) ∧
        (alg ≠ "nrel" → ∃ zg, SeenAt (rad φ) (rad d) (H0 t + rad l) zg (rad a)) ∧
        (alg = "nrel" → ∃ ρ zg, 0 < ρ ∧ 0 ≤ zg ∧ zg ≤ π ∧
          ρ * (sin zg * sin (rad a)) = cos (rad d) * sin (H0 t + rad l)) := by
  refine ⟨hourAngle0 alg, ?_⟩
  intro uc w times latitude longitude eng refr s e t φ l h ha
  obtain ⟨ht, hφ, hl, hc⟩ := at_cases h ha
  have key : ∀ {S A : ℝ}, -π ≤ A ∧ A ≤ π →
      ((S < 0 ↔ -π < A ∧ A < 0) ∧ (0 < S ↔ 0 < A ∧ A < π) ∧ (S = 0 ↔ A = 0 ∨ A = π ∨ A = -π)) →
      (S < 0 ↔ -180 < A * (180 / π) ∧ A * (180 / π) < 0) ∧
      (0 < S ↔ 0 < A * (180 / π) ∧ A * (180 / π) < 180) ∧
      (S = 0 ↔ A * (180 / π) = 0 ∨ A * (180 / π) = 180 ∨ A * (180 / π) = -180) := by
    intro S A _ hS
    have hp := pi_pos
    have hp' := pi_ne_zero
    have e1 : A * (180 / π) < 0 ↔ A < 0 := by
      rw [mul_div_assoc', div_lt_iff₀ hp]; constructor <;> intro h <;> linarith
    have e2 : 0 < A * (180 / π) ↔ 0 < A := by
      rw [mul_div_assoc', lt_div_iff₀ hp]; constructor <;> intro h <;> linarith
    have e3 : -180 < A * (180 / π) ↔ -π < A := by
      rw [mul_div_assoc', lt_div_iff₀ hp]; constructor <;> intro h <;> linarith
    have e4 : A * (180 / π) < 180 ↔ A < π := by
      rw [mul_div_assoc', div_lt_iff₀ hp]; constructor <;> intro h <;> linarith
    have e5 : A * (180 / π) = 0 ↔ A = 0 := by
      rw [mul_div_assoc', div_eq_iff hp']; constructor <;> intro h <;> linarith
    have e6 : A * (180 / π) = 180 ↔ A = π := by
      rw [mul_div_assoc', div_eq_iff hp']; constructor <;> intro h <;> linarith
    have e7 : A * (180 / π) = -180 ↔ A = -π := by
      rw [mul_div_assoc', div_eq_iff hp']; constructor <;> intro h <;> linarith
    rw [e1, e2, e3, e4, e5, e6, e7]; exact hS
  have wrap : ∀ (p H δ : ℝ), _ := fun p H δ => key
    (S := sin H) (A := Psa.azWrap (Psa.az0 (cos p) (sin p) H δ))
    ⟨(Psa.azWrap_mem p H δ).1, (Psa.azWrap_mem p H δ).2.le⟩
    ⟨(Psa.azWrap_sign p H δ).1, (Psa.azWrap_sign p H δ).2.1, by
      have hm := Psa.azWrap_mem p H δ
      refine (Psa.azWrap_sign p H δ).2.2.trans ⟨?_, ?_⟩
      · rintro (h | h)
        · exact .inl h
        · exact .inr (.inr h)
      · rintro (h | h | h)
        · exact .inl h
        · exact absurd h hm.2.ne
        · exact .inr h⟩
  have at2 : ∀ (S X : ℝ), _ := fun S X => key (S := S) (A := ratan2 S X)
    ⟨(ratan2_mem S X).1.le, (ratan2_mem S X).2⟩
    ⟨(ratan2_sign S X).1, (ratan2_sign S X).2.1, by
      have hm := ratan2_mem S X
      refine (ratan2_sign S X).2.2.trans ⟨?_, ?_⟩
      · rintro (h | h)
        · exact .inl h
        · exact .inr (.inl h)
      · rintro (h | h | h)
        · exact .inl h
        · exact .inr h
        · exact absurd h hm.1.ne'⟩
  rcases hc with ⟨rfl, rfl, hc⟩ | ⟨rfl, rfl, hc⟩ | ⟨rfl, hc⟩ | ⟨rfl, hc⟩ | ⟨rfl, hc⟩
  · obtain ⟨zg, h1, -⟩ := Psa.cellPy_dir ht l φ refr.isTrue
    have haz : (Psa.cellPy (toSec t) l φ refr.isTrue).azimuth = Psa.azWrap (Psa.az0 (cos (Psa.phi φ))
      (sin (Psa.phi φ)) (Psa.haNe (toSec t) l) (Psa.timeNe ((toSec t : ℤ) : ℝ)).delta) := by
      rw [Psa.cellPy_eq]
    have hw := wrap (Psa.phi φ) (Psa.haNe (toSec t) l) (Psa.timeNe ((toSec t : ℤ) : ℝ)).delta
    rw [← haz, Psa.haNe_eq] at hw
    exact ⟨_, _, azimuthDeg_fin hc.2, decDeg_fin hc.5, hw.1, hw.2.1, hw.2.2,
      fun _ => ⟨zg, by rw [rad_deg, rad_deg]; exact seenAt_iff.2 h1⟩, by simp⟩
  · obtain ⟨zg, h1, -⟩ := Psa.cellNe_dir ht l φ refr.isTrue
    have haz : (Psa.cellNe (toSec t) l φ refr.isTrue).azimuth = Psa.azWrap (Psa.az0 (cos (Psa.phi φ))
      (sin (Psa.phi φ)) (Psa.haNe (toSec t) l) (Psa.timeNe ((toSec t : ℤ) : ℝ)).delta) := rfl
    have hw := wrap (Psa.phi φ) (Psa.haNe (toSec t) l) (Psa.timeNe ((toSec t : ℤ) : ℝ)).delta
    rw [← haz, Psa.haNe_eq] at hw
    exact ⟨_, _, azimuthDeg_fin hc.2, decDeg_fin hc.5, hw.1, hw.2.1, hw.2.2,
      fun _ => ⟨zg, by rw [rad_deg, rad_deg]; exact seenAt_iff.2 h1⟩, by simp⟩
  · have hd : 0 < cos (Soltrack.decAt (toSec t)) := Soltrack.cos_decR (Soltrack.tJC_bound ht)
    have h1 := Soltrack.dir (p := rad φ) (h := Soltrack.H0 (toSec t) + rad l) hd
    have hw := at2 (sin (Soltrack.H0 (toSec t) + rad l)) (cos (Soltrack.H0 (toSec t) + rad l) * sin (rad φ)
      - tan (Soltrack.decAt (toSec t)) * cos (rad φ))
    exact ⟨_, _, azimuthDeg_fin hc.2, decDeg_fin hc.5, hw.1, hw.2.1, hw.2.2,
      fun _ => ⟨_, by rw [rad_deg, rad_deg]; exact seenAt_iff.2 h1⟩, by simp⟩
  · have h1 := Iqbal.dir (p := rad φ) (h := Iqbal.H0 (toSec t) + rad l) (Iqbal.cos_decAt (toSec t))
    have hw := wrap (rad φ) (Iqbal.H0 (toSec t) + rad l) (Iqbal.decAt (toSec t))
    exact ⟨_, _, azimuthDeg_fin hc.2, decDeg_fin hc.5, hw.1, hw.2.1, hw.2.2,
      fun _ => ⟨_, by rw [rad_deg, rad_deg]; exact seenAt_iff.2 h1⟩, by simp⟩
  · obtain ⟨h', X, k, hk, haz, hs⟩ := Nrel.cell_az ht l φ refr.isTrue
    obtain ⟨zg, ρ, σ, u, z0, z1, r0, -, -, -, -, -, -, -, west⟩ := Nrel.cell_dir ht l φ refr.isTrue
    have hw := at2 (sin h') X
    have g1 : sin (hourAngle0 "nrel" t + rad l) < 0 ↔ sin h' < 0 := by
      show sin (Nrel.H0 (toSec t) + l * (π / 180)) < 0 ↔ _
      rw [← hs, mul_neg_iff]
      constructor
      · rintro (⟨-, h⟩ | ⟨h, -⟩)
        · exact h
        · linarith
      · exact fun h => .inl ⟨hk, h⟩
    have g2 : 0 < sin (hourAngle0 "nrel" t + rad l) ↔ 0 < sin h' := by
      show 0 < sin (Nrel.H0 (toSec t) + l * (π / 180)) ↔ _
      rw [← hs]; exact mul_pos_iff_of_pos_left hk
    have g3 : sin (hourAngle0 "nrel" t + rad l) = 0 ↔ sin h' = 0 := by
      show sin (Nrel.H0 (toSec t) + l * (π / 180)) = 0 ↔ _
      rw [← hs, mul_eq_zero]; exact or_iff_right hk.ne'
    rw [← g1, ← g2, ← g3] at hw
    rw [← haz] at hw
    refine ⟨_, _, azimuthDeg_fin hc.2, decDeg_fin hc.5, hw.1, hw.2.1, hw.2.2, by simp, fun _ => ?_⟩
    exact ⟨ρ, zg, r0, z0, z1, by rw [rad_deg, rad_deg]; exact west⟩

/-! ### C17, C18, C19: bounds of the variables along time -/

/-- the variables along time at position `e .time`, whatever the coordinates -/
theorem time_cases {uc : UseCase} {w : World XR} {times : Times} {latitude longitude : Coord XR}
    {alg eng : String} {refr : PyVal} {s : Sunpos XR} {e : Dim → Nat} {t : Int}
    (h : call uc w times latitude longitude alg refr eng = .ok s)
    (hk : stampAt times.stamps (e .time) = some t) (hrange : |t| < 2 ^ 63) :
    InSec (toSec t) ∧ ∃ o : Out XR,
      s.ecf.get e = o.ecf ∧ s.eot.get e = o.eot ∧ s.declination.get e = o.declination ∧
      ((alg = "psa" ∧ o = (Psa.cellNe (toSec t) 0 0 false).fin) ∨
       (alg = "soltrack" ∧ o = solOut (toSec t) 0 0 false) ∨
       (alg = "iqbal" ∧ o = (iqbOut (toSec t) 0 0 false).fin) ∨
       (alg = "nrel" ∧ o = (Nrel.cell (toSec t) 0 0 false).fin)) := by
  obtain ⟨lat, lon, b, utc, hacc, hu, hr⟩ := call_inv h
  have ht := toSec_inSec hrange
  unfold stampAt at hk
  have c1 : e .time < times.stamps.length := by
    by_contra hc
    rw [List.getElem?_eq_none (not_lt.1 hc)] at hk
    simp at hk
  obtain ⟨t1, t2, t3⟩ := hr.time e c1 (XR.fin 0) (XR.fin 0)
  rw [hk] at t1 t2 t3
  have hb := hacc.names
  rw [ofNames_iff] at hb
  have hv : b.valueAt uc (some t) (XR.fin 0) (XR.fin 0) refr.isTrue
    = b.cell uc (toSec t) (XR.fin 0) (XR.fin 0) refr.isTrue := rfl
  rw [hv] at t1 t2 t3
  cases b <;> simp only [Prod.mk.injEq] at hb <;> obtain ⟨rfl, rfl⟩ := hb
  · rw [cell_psaPy ht, Psa.cellPy_eq] at t1 t2 t3
    exact ⟨ht, (Psa.cellNe (toSec t) 0 0 false).fin, t1, t2, t3, .inl ⟨rfl, rfl⟩⟩
  · rw [cell_psaNe ht] at t1 t2 t3
    exact ⟨ht, (Psa.cellNe (toSec t) 0 0 false).fin, t1, t2, t3, .inl ⟨rfl, rfl⟩⟩
  · rw [cell_soltrackPy ht _ _ (by norm_num)] at t1 t2 t3
    exact ⟨ht, solOut (toSec t) 0 0 false, t1, t2, t3, .inr (.inl ⟨rfl, rfl⟩)⟩
  · rw [cell_soltrackNe ht] at t1 t2 t3
    exact ⟨ht, solOut (toSec t) 0 0 false, t1, t2, t3, .inr (.inl ⟨rfl, rfl⟩)⟩
  · rw [cell_iqbalPy] at t1 t2 t3
    exact ⟨ht, (iqbOut (toSec t) 0 0 false).fin, t1, t2, t3, .inr (.inr (.inl ⟨rfl, rfl⟩))⟩
  · rw [cell_iqbalNe] at t1 t2 t3
    exact ⟨ht, (iqbOut (toSec t) 0 0 false).fin, t1, t2, t3, .inr (.inr (.inl ⟨rfl, rfl⟩))⟩
  · rw [cell_nrel ht] at t1 t2 t3
    exact ⟨ht, (Nrel.cell (toSec t) 0 0 false).fin, t1, t2, t3, .inr (.inr (.inr ⟨rfl, rfl⟩))⟩

theorem deg_abs {d B C : ℝ} (h : |d| ≤ B) (hC : B * 180 ≤ C * 3.1415) (hC0 : 0 ≤ C) :
    |d * (180 / π)| ≤ C := by
  have hp := pi_pos
  have hp' := pi_gt_d4
  rw [abs_mul, abs_of_pos (by positivity : 0 < 180 / π), mul_div_assoc', div_le_iff₀ hp]
  norm_num at hp' hC ⊢
  nlinarith

/-- C17: the public declination is a number of absolute value at most 23.8 degrees (24.5 for iqbal). -/
theorem C17_declination {uc : UseCase} {w : World XR} {times : Times} {latitude longitude : Coord XR}
    {alg eng : String} {refr : PyVal} {s : Sunpos XR} {e : Dim → Nat} {t : Int}
    (h : call uc w times latitude longitude alg refr eng = .ok s)
    (hk : stampAt times.stamps (e .time) = some t) (hrange : |t| < 2 ^ 63) :
    ∃ d, s.decDeg.get e = .fin d ∧ |d| ≤ 24.5 ∧ (alg ≠ "iqbal" → |d| ≤ 23.8) ∧ 0 < cos (rad d) := by
  obtain ⟨ht, o, -, -, h3, hc⟩ := time_cases h hk hrange
  have hcos : ∀ d : ℝ, |d * (180 / π)| ≤ 24.5 → 0 < cos (rad (d * (180 / π))) := by
    intro d hd
    have := abs_le.1 hd
    apply cos_pos_of_mem_Ioo
    have hp := pi_pos
    unfold rad
    constructor <;> norm_num at this ⊢ <;> nlinarith
  rcases hc with ⟨rfl, rfl⟩ | ⟨rfl, rfl⟩ | ⟨rfl, rfl⟩ | ⟨rfl, rfl⟩
  · have hb : |(Psa.cellNe (toSec t) 0 0 false : Out ℝ).declination| ≤ 0.41 := Psa.delta_bound (Psa.jde_bound ht)
    have hb' := deg_abs hb (C := 24.5) (by norm_num) (by norm_num)
    exact ⟨_, decDeg_fin h3, hb', fun _ => deg_abs hb (by norm_num) (by norm_num), hcos _ hb'⟩
  · have hb : |Soltrack.decAt (toSec t)| ≤ 0.41 := Soltrack.decR_bound (Soltrack.tJC_bound ht)
    have hb' := deg_abs hb (C := 24.5) (by norm_num) (by norm_num)
    exact ⟨_, decDeg_fin h3, hb', fun _ => deg_abs hb (by norm_num) (by norm_num), hcos _ hb'⟩
  · have hb : |Iqbal.decAt (toSec t)| ≤ 0.4232 := Iqbal.decl_bound _
    have hb' := deg_abs hb (C := 24.5) (by norm_num) (by norm_num)
    exact ⟨_, decDeg_fin h3, hb', fun hh => absurd rfl hh, hcos _ hb'⟩
  · have hb : |(Nrel.cell (toSec t) 0 0 false : Out ℝ).declination| ≤ 0.4153 := Nrel.time_delta ht
    have hb' := deg_abs hb (C := 24.5) (by norm_num) (by norm_num)
    exact ⟨_, decDeg_fin h3, hb', fun _ => deg_abs hb (by norm_num) (by norm_num), hcos _ hb'⟩

/-- C18: the eccentricity correction factor is a number between 0.96 and 1.04. -/
theorem C18_ecf {uc : UseCase} {w : World XR} {times : Times} {latitude longitude : Coord XR}
    {alg eng : String} {refr : PyVal} {s : Sunpos XR} {e : Dim → Nat} {t : Int}
    (h : call uc w times latitude longitude alg refr eng = .ok s)
    (hk : stampAt times.stamps (e .time) = some t) (hrange : |t| < 2 ^ 63) :
    ∃ x, s.ecf.get e = .fin x ∧ 0.96 ≤ x ∧ x ≤ 1.04 := by
  obtain ⟨ht, o, h1, -, -, hc⟩ := time_cases h hk hrange
  rcases hc with ⟨rfl, rfl⟩ | ⟨rfl, rfl⟩ | ⟨rfl, rfl⟩ | ⟨rfl, rfl⟩
  · exact ⟨_, h1, Psa.ecf_bound (Psa.jdc_bound ht)⟩
  · exact ⟨_, h1, Soltrack.ecf_bound (Soltrack.tJC_bound ht)⟩
  · exact ⟨_, h1, Iqbal.ecf_bound _⟩
  · exact ⟨_, h1, ecf_bounds (Nrel.time_R ht).1 (Nrel.time_R ht).2⟩

/-- C19: the equation of time is a number of absolute value at most 20 minutes. -/
theorem C19_eot {uc : UseCase} {w : World XR} {times : Times} {latitude longitude : Coord XR}
    {alg eng : String} {refr : PyVal} {s : Sunpos XR} {e : Dim → Nat} {t : Int}
    (h : call uc w times latitude longitude alg refr eng = .ok s)
    (hk : stampAt times.stamps (e .time) = some t) (hrange : |t| < 2 ^ 63) :
    ∃ x, s.eot.get e = .fin x ∧ |x| ≤ 20 := by
  obtain ⟨ht, o, -, h2, -, hc⟩ := time_cases h hk hrange
  have le20 : ∀ {x : ℝ}, |x| ≤ 19.5 → |x| ≤ 20 := fun hx => hx.trans (by norm_num)
  rcases hc with ⟨rfl, rfl⟩ | ⟨rfl, rfl⟩ | ⟨rfl, rfl⟩ | ⟨rfl, rfl⟩
  · obtain ⟨x, k, hx, -, he⟩ := Psa.eot_spec (Psa.jde_bound ht)
    have e2 : (Psa.cellNe (toSec t) 0 0 false : Out ℝ).eot = 4 * (x * (180 / π)) := he
    refine ⟨_, h2, ?_⟩
    rw [e2, abs_mul, abs_of_pos (by norm_num : (0:ℝ) < 4)]
    have := deg_abs hx (C := 4.8) (by norm_num) (by norm_num)
    norm_num at this ⊢; linarith
  · exact ⟨_, h2, le20 (Soltrack.eot_eq ht).2⟩
  · exact ⟨_, h2, (Iqbal.eot_bound _).trans (by norm_num)⟩
  · exact ⟨_, h2, le20 (Nrel.time_eot ht)⟩

/-! ### C35: refraction -/

/-- What is claimed of the map from geometric to refracted elevation (radians): nothing happens below
the threshold of about -0.83 degrees; above it the sun is lowered by at most 1e-6 rad and raised by
at most 0.65 degrees; and the order of elevations at least 2e-19 rad (4e-14 arcseconds) apart is
preserved, by at least half their difference less 1e-19 on the same side of the threshold. -/
structure RefractionMap (f : ℝ → ℝ) : Prop where
  below : ∀ e, e < -1.4545e-2 → f e = e
  bounds : ∀ e, -(π / 2) ≤ e → e ≤ π / 2 → -1e-6 ≤ f e - e ∧ f e - e ≤ rad 0.65
  slope : ∀ e e', -1.4545e-2 ≤ e → e ≤ e' → e' ≤ π / 2 → f e + (e' - e) / 2 ≤ f e' + 1e-19
  order : ∀ e e', -(π / 2) ≤ e → e + 2.1e-19 ≤ e' → e' ≤ π / 2 → f e < f e'

theorem refractionMap {κ : ℝ} (h1 : 0.017 ≤ κ) (h2 : κ ≤ 0.0179) :
    RefractionMap (fun e => if -1.4545e-2 ≤ e then e + Refr.corr κ e else e) := by
  have h0 : 0 < κ := by norm_num at h1; linarith
  have slope : ∀ e e', -1.4545e-2 ≤ e → e ≤ e' → e' ≤ π / 2 →
      e + Refr.corr κ e + (e' - e) / 2 ≤ e' + Refr.corr κ e' + 1e-19 := by
    intro e e' a b c
    have := (Refr.refr_mono h0.le h2 ⟨a, b.trans c⟩ ⟨a.trans b, c⟩ b).1
    norm_num at this ⊢; linarith
  have hrad : 0.0111 ≤ rad 0.65 := by
    unfold rad; have := pi_gt_d2; norm_num at this ⊢; linarith
  refine ⟨?_, ?_, ?_, ?_⟩
  · intro e he; exact if_neg (not_le.2 he)
  · intro e he he'
    show -1e-6 ≤ (if _ then _ else _) - e ∧ (if _ then _ else _) - e ≤ _
    split_ifs with h
    · have := Refr.corr_bounds h0.le h2 ⟨h, he'⟩
      constructor <;> linarith [this.1, this.2]
    · rw [sub_self]; norm_num at hrad ⊢; linarith
  · intro e e' a b c
    show (if _ then _ else _) + _ ≤ (if _ then _ else _) + _
    rw [if_pos a, if_pos (a.trans b)]; exact slope e e' a b c
  · intro e e' a b c
    show (if _ then _ else _) < (if _ then _ else _)
    have hpi := pi_gt_d2
    by_cases hh : (-1.4545e-2 : ℝ) ≤ e
    · have hh' : (-1.4545e-2 : ℝ) ≤ e' := by norm_num at hh b ⊢; linarith
      rw [if_pos hh, if_pos hh']
      have := slope e e' hh (by norm_num at b ⊢; linarith) c
      norm_num at this b ⊢; linarith
    · rw [if_neg hh]
      split_ifs with h
      · by_cases hz : e' ≤ π / 2 - 0.0019
        · have := Refr.corr_pos h0 ⟨h, c⟩ hz
          norm_num at b ⊢; linarith
        · have := (Refr.corr_bounds h0.le h2 ⟨h, c⟩).1
          norm_num at *; linarith
      · norm_num at b ⊢; linarith

/-- C35: for psa and for nrel there is one refraction map, with the properties listed in
`RefractionMap`, that gives the refracted elevation of every cell from the unrefracted one. -/
theorem C35_refraction (alg : String) (halg : alg = "psa" ∨ alg = "nrel") :
    ∃ f : ℝ → ℝ, RefractionMap f ∧
    ∀ {uc uc' : UseCase} {w w' : World XR} {times times' : Times}
      {latitude longitude latitude' longitude' : Coord XR} {eng : String} {refr : PyVal}
      {s s' : Sunpos XR} {e e' : Dim → Nat} {t : Int} {φ l : ℝ},
      call uc w times latitude longitude alg refr eng = .ok s → refr ≠ .pyTrue →
      call uc' w' times' latitude' longitude' alg .pyTrue eng = .ok s' →
      At s times e t φ l → At s' times' e' t φ l →
      ∃ h h', s.elevation.get e = .fin h ∧ s'.elevation.get e' = .fin h' ∧ rad h' = f (rad h) ∧
        s.azimuth.get e = s'.azimuth.get e' := by
  have elev : ∀ {s : Sunpos XR} {e : Dim → Nat} {z : ℝ}, s.zenith.get e = .fin z →
      s.elevation.get e = .fin (90 - z * (180 / π)) := by
    intro s e z h
    show (90.0 : XR) - s.zenithDeg.get e = _
    rw [zenithDeg_fin h]
    show XR.fin (90.0 - _) = _
    norm_num
  have radE : ∀ z : ℝ, rad (90 - z * (180 / π)) = π / 2 - z := by
    intro z
    have : rad (90 - z * (180 / π)) = rad 90 - rad (z * (180 / π)) := by unfold rad; ring
    rw [this, rad_deg]; unfold rad; ring
  rcases halg with rfl | rfl
  · refine ⟨_, refractionMap (κ := 1.7802e-2) (by norm_num) (by norm_num), ?_⟩
    intro uc uc' w w' times times' latitude longitude latitude' longitude' eng refr s s' e e' t φ l h hr h' ha ha'
    obtain ⟨ht, hφ, hl, hc⟩ := at_cases h ha
    obtain ⟨-, -, -, hc'⟩ := at_cases h' ha'
    rw [notTrue hr] at hc
    simp only [String.reduceEq, false_and, true_and, or_false] at hc hc'
    have main : ∀ z : ℝ, s.zenith.get e = .fin (Psa.withRefr false z) →
        s'.zenith.get e' = .fin (Psa.withRefr true z) →
        ∃ h h', s.elevation.get e = .fin h ∧ s'.elevation.get e' = .fin h' ∧ rad h'
          = (fun e => if -1.4545e-2 ≤ e then e + Refr.corr 1.7802e-2 e else e) (rad h) := by
      intro z h1 h2
      refine ⟨_, _, elev h1, elev h2, ?_⟩
      rw [radE, radE]
      show π / 2 - Psa.refract z = (if (-1.4545e-2 : ℝ) ≤ π / 2 - z then
        (π / 2 - z) + Refr.corr 1.7802e-2 (π / 2 - z) else π / 2 - z)
      rw [Psa.refract_real, sub_sub_cancel]
    rcases hc with ⟨rfl, hc⟩ | ⟨rfl, hc⟩ <;>
      simp only [String.reduceEq, false_and, true_and, or_false, false_or] at hc'
    · rw [Psa.cellPy_eq] at hc hc'
      obtain ⟨a, b, h1, h2, h3⟩ := main _ hc.1 hc'.1
      exact ⟨a, b, h1, h2, h3, hc.2.trans hc'.2.symm⟩
    · rw [Psa.cellNe_real] at hc hc'
      obtain ⟨a, b, h1, h2, h3⟩ := main _ hc.1 hc'.1
      exact ⟨a, b, h1, h2, h3, hc.2.trans hc'.2.symm⟩
  · refine ⟨_, refractionMap (κ := Nrel.kap) ?_ ?_, ?_⟩
    · have := Nrel.kap_bound.1; norm_num at this ⊢; linarith
    · have := Nrel.kap_bound.2; norm_num at this ⊢; linarith
    intro uc uc' w w' times times' latitude longitude latitude' longitude' eng refr s s' e e' t φ l h hr h' ha ha'
    obtain ⟨ht, hφ, hl, hc⟩ := at_cases h ha
    obtain ⟨-, -, -, hc'⟩ := at_cases h' ha'
    rw [notTrue hr] at hc
    simp only [String.reduceEq, false_and, true_and, false_or] at hc hc'
    refine ⟨_, _, elev hc.1, elev hc'.1, ?_, hc.2.trans hc'.2.symm⟩
    rw [radE, radE]
    have e1 : ∀ (r : Bool), ∃ p d k : ℝ, (∀ r : Bool, (Nrel.cell (toSec t) l φ r).zenith
        = HALFPI - Nrel.withRefr r (Nrel.elev p d k)) := fun _ => ⟨_, _, _, fun _ => rfl⟩
    obtain ⟨p, d, k, hz⟩ := e1 true
    rw [hz, hz, HALFPI_real]
    have e2 : Nrel.withRefr false (Nrel.elev p d k) = Nrel.elev p d k := rfl
    have e3 : Nrel.withRefr PyVal.pyTrue.isTrue (Nrel.elev p d k) = Nrel.refract (Nrel.elev p d k) := rfl
    rw [e2, e3, Nrel.refract_real, sub_sub_cancel, sub_sub_cancel]

/-! ### C43: NaN coordinates -/

/-- C43: in every arithmetic with the laws of NaN, a NaN latitude or longitude makes zenith and
azimuth NaN in its cells. -/
theorem C43_nan_cell {F : Type} [Scalar F] [LawfulNan F] {uc : UseCase} {w : World F} {times : Times}
    {latitude longitude : Coord F} {alg eng : String} {refr : PyVal} {s : Sunpos F} {e : Dim → Nat}
    (h : call uc w times latitude longitude alg refr eng = .ok s) (he : Within s.zenith e)
    (hn : s.latitude.get e = Num.nan ∨ s.longitude.get e = Num.nan) :
    s.zenith.get e = Num.nan ∧ s.azimuth.get e = Num.nan ∧
    s.zenithDeg.get e = Num.nan ∧ s.azimuthDeg.get e = Num.nan := by
  obtain ⟨lat, lon, b, utc, hacc, hu, hr⟩ := call_inv h
  obtain ⟨c1, c2, c3⟩ := cell_inv hr hacc.len he
  obtain ⟨z, a⟩ := hr.cell e c1 c2 c3
  suffices s.zenith.get e = Num.nan ∧ s.azimuth.get e = Num.nan by
    refine ⟨this.1, this.2, ?_, ?_⟩
    · show degrees (s.zenith.get e) = _; rw [this.1]; unfold degrees; nan
    · show degrees (s.azimuth.get e) = _; rw [this.2]; unfold degrees; nan
  rw [z, a]
  cases (times.stamps[e .time]?).getD none with
  | none => exact ⟨rfl, rfl⟩
  | some t => exact Backend.cell_nan b uc _ _ (Or.comm.1 hn)

/-- C43: replacing coordinates by NaN (or by anything else) elsewhere leaves a cell alone, and leaves
ecf, eot and declination alone everywhere, in every arithmetic. -/
theorem C43_others {F : Type} [Scalar F] {uc : UseCase} {w : World F} {times : Times}
    {latitude longitude latitude' longitude' : Coord F} {alg eng : String} {refr : PyVal}
    {s s' : Sunpos F}
    (h : call uc w times latitude longitude alg refr eng = .ok s)
    (h' : call uc w times latitude' longitude' alg refr eng = .ok s') :
    (∀ e, Within s.ecf e → SameTimeAt s s' e e) ∧
    ∀ e, Within s.zenith e → Within s'.zenith e → s.latitude.get e = s'.latitude.get e →
      s.longitude.get e = s'.longitude.get e → SameAt s s' e e := by
  constructor
  · intro e he
    refine C07_time_only h h' he ?_ rfl
    obtain ⟨_, _, _, _, _, _, hr⟩ := call_inv h
    obtain ⟨_, _, _, _, _, _, hr'⟩ := call_inv h'
    unfold Within at *; rw [hr'.ecf_dims]; rw [hr.ecf_dims] at he; exact he
  · intro e he he' h1 h2
    exact C07_pointwise h h' he he' rfl h1 h2

end SW.Props
