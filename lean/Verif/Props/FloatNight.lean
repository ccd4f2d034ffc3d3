/-
C73 in floating-point arithmetic.
-/
import Verif.Props.DayNight
import Verif.Props.FloatRefr
import Verif.Props.RoundMethods
import Verif.Props.RoundIrradiance
import Verif.Props.DerivedAccuracy
import Verif.RdSign

namespace SW.Props
open SW.Spec Real Sunpos
open SW.Ephem (century declination hourAngle)

variable {A : Arith}

/-- the same call without refraction -/
theorem without_refraction {uc : UseCase} {w : World (Rd A)} {times : Times} {latitude longitude : Coord (Rd A)}
    {alg eng : String} {refr : PyVal} {s : Sunpos (Rd A)} {e : Dim → Nat} {t : Int} {φ l : ℝ}
    (h : call uc w times latitude longitude alg refr eng = .ok s) (ha : AtRd s times e t φ l) :
    ∃ s₀, call uc w times latitude longitude alg .pyFalse eng = .ok s₀ ∧ AtRd s₀ times e t φ l := by
  obtain ⟨lat, lon, b, utc, hacc, hu, hr⟩ := call_inv h
  obtain ⟨s₀, h₀, hr₀⟩ := call_ok .pyFalse hacc hu
  refine ⟨s₀, h₀, ?_, ha.time, ha.range, ?_, ?_⟩
  · have := ha.within
    unfold Within at this ⊢
    rw [hr.zen_dims] at this
    rw [hr₀.zen_dims]
    cases uc <;> exact this
  · rw [hr₀.latitude, ← hr.latitude]; exact ha.lat
  · rw [hr₀.longitude, ← hr.longitude]; exact ha.lon

theorem arcsin_fin {x : Rd A} {w : ℝ} (h : Num.arcsin x = Rd.fin w) : |w| ≤ 1.5709 := by
  cases x with
  | nan => cases h
  | fin r =>
    by_cases hr : |r| ≤ 1
    · obtain ⟨v, hv, ev⟩ := A.arcsin_spec r hr
      obtain rfl : v = w := XR.fin_inj.1 (hv.symm.trans h)
      have p1 := pi_lt_d4
      have h1 := neg_pi_div_two_le_arcsin r
      have h2 := arcsin_le_pi_div_two r
      have ev := abs_le.1 ev
      rw [abs_le]; constructor <;> norm_num at * <;> linarith
    · have := (A.arcsin_nan r (not_le.1 hr)).symm.trans h
      cases this

/-- the elevation behind a zenith angle -/
theorem elev_of_zenith {E : Rd A} {Z : ℝ} (h : (HALFPI - E : Rd A) = Rd.fin Z) (hE : ∀ w, E = Rd.fin w → |w| ≤ 1.58) :
    ∃ w, E = Rd.fin w ∧ |Z - (π / 2 - w)| ≤ 4e-14 := by
  obtain ⟨-, c, hc, -⟩ := HALFPI_ap (A := A)
  cases E with
  | nan => rw [hc] at h; cases h
  | fin w =>
    refine ⟨w, rfl, ?_⟩
    obtain ⟨-, r, hr, er⟩ := (HALFPI_ap (A := A)).sub (Ap.ofFin w (hE w rfl)) (by norm_num)
    obtain rfl : r = Z := XR.fin_inj.1 (hr.symm.trans h)
    exact er.trans (by norm_num)

theorem nrel_elev_fin {a b c : Rd A} {w : ℝ} (h : Nrel.elev a b c = Rd.fin w) : |w| ≤ 1.58 :=
  (arcsin_fin h).trans (by norm_num)

theorem sol_alt_fin {x : Rd A} {w : ℝ} (h : Soltrack.parallax (Num.arcsin x) = Rd.fin w) : |w| ≤ 1.58 := by
  cases hx : (Num.arcsin x : Rd A) with
  | nan =>
    rw [hx] at h
    cases h
  | fin a =>
    have ha := arcsin_fin hx
    have h1 : Ap (Num.arcsin x : Rd A) a 1.5709 0 := ⟨ha, a, hx, by simp⟩
    have h2 : Ap (Soltrack.parallax (Num.arcsin x) : Rd A) (Soltrack.parallax a) 1.579 1e-13 := by
      unfold Soltrack.parallax; apf
    obtain ⟨m, r, hr, er⟩ := h2
    obtain rfl : r = w := XR.fin_inj.1 (hr.symm.trans h)
    exact (Ap.fin_bound m er).trans (by norm_num)

/-- on which side of the horizon the refracted cell is -/
theorem float_side {uc : UseCase} {w : World (Rd A)} {times : Times} {latitude longitude : Coord (Rd A)}
    {alg eng : String} {refr : PyVal} {s s₀ : Sunpos (Rd A)} {e : Dim → Nat} {t : Int} {φ l Z : ℝ}
    (h : call uc w times latitude longitude alg .pyTrue eng = .ok s)
    (h₀ : call uc w times latitude longitude alg refr eng = .ok s₀) (hr : refr ≠ .pyTrue)
    (ha : AtRd s times e t φ l) (ha₀ : AtRd s₀ times e t φ l)
    (hZ : s₀.zenith.get e = Rd.fin Z) (hZ0 : 1e-12 ≤ Z) (hZ1 : Z ≤ π - 1e-12) :
    (Z ≤ π / 2 - 1.1e-5 → ∃ r, s.zenith.get e = Rd.fin r ∧ r < π / 2 - 5e-6 ∧ Z - 0.0133 ≤ r) ∧
    (π / 2 + dipRad alg + 1e-12 ≤ Z → (alg = "soltrack" → 1.201e-3 ≤ |π / 2 - Z + 8.92e-2|) →
      ∃ r, s.zenith.get e = Rd.fin r ∧ π / 2 + 4e-6 < r ∧ r ≤ Z + 0.0134) := by
  obtain ⟨b, hb, hz, -⟩ := rd_cell h ha
  obtain ⟨b', hb', hz₀, -⟩ := rd_cell h₀ ha₀
  obtain rfl : b = b' := Option.some.inj (hb.symm.trans hb')
  rw [notTrue hr, hZ] at hz₀
  have hz : s.zenith.get e = (b.cell uc (toSec t) (Rd.fin l) (Rd.fin φ) true).zenith := hz
  have psa : alg = "psa" → (b.cell uc (toSec t) (Rd.fin l) (Rd.fin φ) true).zenith = Psa.refract (Rd.fin Z : Rd A) →
      _ := fun hp hc => (⟨fun h1 => by
        obtain ⟨r, h2, h3, h4⟩ := Psa.up_rd (A := A) (z := Z) (by norm_num at *; linarith) (by norm_num at *; linarith)
        exact ⟨r, hz.trans (hc.trans h2), h3, by norm_num at *; linarith⟩, fun h1 _ => by
        subst hp
        simp only [dipRad, String.reduceEq, if_false] at h1
        obtain ⟨r, h2, h3, h4⟩ := Psa.down_rd (A := A) (z := Z) (by norm_num at *; linarith) (by norm_num at *; linarith)
        exact ⟨r, hz.trans (hc.trans h2), h3, by norm_num at *; linarith⟩⟩ :
    (Z ≤ π / 2 - 1.1e-5 → ∃ r, s.zenith.get e = Rd.fin r ∧ r < π / 2 - 5e-6 ∧ Z - 0.0133 ≤ r) ∧
    (π / 2 + dipRad alg + 1e-12 ≤ Z → (alg = "soltrack" → 1.201e-3 ≤ |π / 2 - Z + 8.92e-2|) →
      ∃ r, s.zenith.get e = Rd.fin r ∧ π / 2 + 4e-6 < r ∧ r ≤ Z + 0.0134))
  have iqb : alg = "iqbal" → (b.cell uc (toSec t) (Rd.fin l) (Rd.fin φ) true).zenith = Iqbal.refract (Rd.fin Z : Rd A) →
      _ := fun hp hc => (⟨fun h1 => by
        obtain ⟨r, h2, h3, h4⟩ := Iqbal.up_rd (A := A) (z := Z) (by norm_num at *; linarith) (by norm_num at *; linarith)
        exact ⟨r, hz.trans (hc.trans h2), h3, by norm_num at *; linarith⟩, fun h1 _ => by
        subst hp
        simp only [dipRad, if_true] at h1
        obtain ⟨r, h2, h3, h4⟩ := Iqbal.down_rd (A := A) (z := Z) (by norm_num at *; linarith) (by norm_num at *; linarith)
        exact ⟨r, hz.trans (hc.trans h2), h3, by norm_num at *; linarith⟩⟩ :
    (Z ≤ π / 2 - 1.1e-5 → ∃ r, s.zenith.get e = Rd.fin r ∧ r < π / 2 - 5e-6 ∧ Z - 0.0133 ≤ r) ∧
    (π / 2 + dipRad alg + 1e-12 ≤ Z → (alg = "soltrack" → 1.201e-3 ≤ |π / 2 - Z + 8.92e-2|) →
      ∃ r, s.zenith.get e = Rd.fin r ∧ π / 2 + 4e-6 < r ∧ r ≤ Z + 0.0134))
  have sol : alg = "soltrack" → (∃ x : Rd A,
      (b.cell uc (toSec t) (Rd.fin l) (Rd.fin φ) false).zenith = HALFPI - Soltrack.parallax (Num.arcsin x) ∧
      (b.cell uc (toSec t) (Rd.fin l) (Rd.fin φ) true).zenith = HALFPI - Soltrack.refract (Soltrack.parallax (Num.arcsin x))) →
      (Z ≤ π / 2 - 1.1e-5 → ∃ r, s.zenith.get e = Rd.fin r ∧ r < π / 2 - 5e-6 ∧ Z - 0.0133 ≤ r) ∧
    (π / 2 + dipRad alg + 1e-12 ≤ Z → (alg = "soltrack" → 1.201e-3 ≤ |π / 2 - Z + 8.92e-2|) →
      ∃ r, s.zenith.get e = Rd.fin r ∧ π / 2 + 4e-6 < r ∧ r ≤ Z + 0.0134) := by
    rintro hp ⟨x, c0, c1⟩
    obtain ⟨E, hE, eE⟩ := elev_of_zenith (hz₀.trans c0).symm (fun w hw => sol_alt_fin hw)
    have eE' := abs_le.1 eE
    rw [hE] at c1
    refine ⟨fun h1 => ?_, fun h1 h2 => ?_⟩
    · obtain ⟨r, h2, h3, h4⟩ := Soltrack.up_rd (A := A) (E := E) (by norm_num at *; linarith) (by norm_num at *; linarith)
      exact ⟨r, hz.trans (c1.trans h2), h3, by norm_num at *; linarith⟩
    · have h2 := h2 hp
      have h3 : 1.2e-3 ≤ |E + 8.92e-2| := by
        have : |π / 2 - Z + 8.92e-2| ≤ |E + 8.92e-2| + |Z - (π / 2 - E)| := by
          rw [show π / 2 - Z + 8.92e-2 = (E + 8.92e-2) - (Z - (π / 2 - E)) by ring]
          exact abs_sub _ _
        norm_num at *; linarith
      subst hp
      simp only [dipRad, String.reduceEq, if_false] at h1
      obtain ⟨r, h4, h5, h6⟩ := Soltrack.down_rd (A := A) (E := E) (by norm_num at *; linarith) (by norm_num at *; linarith) h3
      exact ⟨r, hz.trans (c1.trans h4), h5, by norm_num at *; linarith⟩
  cases b with
  | psaPy =>
    refine psa (by revert hb; unfold Backend.ofNames; split <;> simp) ?_
    rw [hz₀]; rfl
  | psaNe =>
    refine psa (by revert hb; unfold Backend.ofNames; split <;> simp) ?_
    rw [hz₀]; rfl
  | soltrackPy => exact sol (by revert hb; unfold Backend.ofNames; split <;> simp) ⟨_, rfl, rfl⟩
  | soltrackNe => exact sol (by revert hb; unfold Backend.ofNames; split <;> simp) ⟨_, rfl, rfl⟩
  | iqbalPy =>
    refine iqb (by revert hb; unfold Backend.ofNames; split <;> simp) ?_
    rw [hz₀]; rfl
  | iqbalNe =>
    refine iqb (by revert hb; unfold Backend.ofNames; split <;> simp) ?_
    rw [hz₀]; rfl
  | nrelNe =>
    have hp : alg = "nrel" := by revert hb; unfold Backend.ofNames; split <;> simp
    obtain ⟨x, y, k, c0, c1⟩ : ∃ x y k : Rd A, (Backend.nrelNe.cell uc (toSec t) (Rd.fin l) (Rd.fin φ) false).zenith
        = HALFPI - Nrel.elev x y k ∧ (Backend.nrelNe.cell uc (toSec t) (Rd.fin l) (Rd.fin φ) true).zenith
        = HALFPI - Nrel.refract (Nrel.elev x y k) := ⟨_, _, _, rfl, rfl⟩
    obtain ⟨E, hE, eE⟩ := elev_of_zenith (hz₀.trans c0).symm (fun w hw => nrel_elev_fin hw)
    have eE' := abs_le.1 eE
    rw [hE] at c1
    refine ⟨fun h1 => ?_, fun h1 _ => ?_⟩
    · obtain ⟨r, h2, h3, h4⟩ := Nrel.up_rd (A := A) (E := E) (by norm_num at *; linarith) (by norm_num at *; linarith)
      exact ⟨r, hz.trans (c1.trans h2), h3, by norm_num at *; linarith⟩
    · subst hp
      simp only [dipRad, String.reduceEq, if_false] at h1
      obtain ⟨r, h4, h5, h6⟩ := Nrel.down_rd (A := A) (E := E) (by norm_num at *; linarith) (by norm_num at *; linarith)
      exact ⟨r, hz.trans (c1.trans h4), h5, by norm_num at *; linarith⟩

theorem arccos_fin {x : Rd A} {w : ℝ} (h : Num.arccos x = Rd.fin w) : |w| ≤ 3.1417 := by
  cases x with
  | nan => cases h
  | fin r =>
    by_cases hr : |r| ≤ 1
    · obtain ⟨v, hv, ev⟩ := A.arccos_spec r hr
      obtain rfl : v = w := XR.fin_inj.1 (hv.symm.trans h)
      have p1 := pi_lt_d4
      have h1 := arccos_nonneg r
      have h2 := arccos_le_pi r
      have ev := abs_le.1 ev
      rw [abs_le]; constructor <;> norm_num at * <;> linarith
    · have := (A.arccos_nan r (not_le.1 hr)).symm.trans h
      cases this

theorem psa_zen_fin {x : Rd A} {w : ℝ} (h : Psa.parallax (Num.arccos x) = Rd.fin w) : |w| ≤ 4 := by
  cases hx : (Num.arccos x : Rd A) with
  | nan =>
    rw [hx] at h
    cases h
  | fin a =>
    have h1 : Ap (Num.arccos x : Rd A) a 3.1417 0 := ⟨arccos_fin hx, a, hx, by simp⟩
    have h2 : Ap (Psa.parallax (Num.arccos x) : Rd A) (Psa.parallax a) 3.15 1e-13 := by
      unfold Psa.parallax; apf
    obtain ⟨m, r, hr, er⟩ := h2
    obtain rfl : r = w := XR.fin_inj.1 (hr.symm.trans h)
    exact (Ap.fin_bound m er).trans (by norm_num)

/-- without refraction, a stored zenith angle that is a number is not large -/
theorem stored_bound {uc : UseCase} {w : World (Rd A)} {times : Times} {latitude longitude : Coord (Rd A)}
    {alg eng : String} {refr : PyVal} {s : Sunpos (Rd A)} {e : Dim → Nat} {t : Int} {φ l Z : ℝ}
    (h : call uc w times latitude longitude alg refr eng = .ok s) (hr : refr ≠ .pyTrue)
    (ha : AtRd s times e t φ l) (hZ : s.zenith.get e = Rd.fin Z) : |Z| ≤ 10 := by
  obtain ⟨b, -, hz, -⟩ := rd_cell h ha
  rw [notTrue hr, hZ] at hz
  have half : ∀ {E : Rd A}, (∀ w, E = Rd.fin w → |w| ≤ 1.58) → Rd.fin Z = (HALFPI - E : Rd A) → |Z| ≤ 10 := by
    intro E hE h
    obtain ⟨w, hw, ew⟩ := elev_of_zenith h.symm hE
    have h1 := abs_le.1 (hE w hw)
    have ew := abs_le.1 ew
    have p1 := pi_lt_d4
    have p2 := pi_pos
    rw [abs_le]; constructor <;> norm_num at * <;> linarith
  cases b with
  | psaPy => exact (psa_zen_fin hz.symm).trans (by norm_num)
  | psaNe => exact (psa_zen_fin hz.symm).trans (by norm_num)
  | soltrackPy => exact half (fun w hw => sol_alt_fin hw) hz
  | soltrackNe => exact half (fun w hw => sol_alt_fin hw) hz
  | iqbalPy => exact (arccos_fin hz.symm).trans (by norm_num)
  | iqbalNe => exact (arccos_fin hz.symm).trans (by norm_num)
  | nrelNe => exact half (fun w hw => nrel_elev_fin hw) hz

/-- the zenith angle without refraction, against the ephemeris -/
theorem float_zenith_near {uc : UseCase} {w : World (Rd A)} {times : Times} {latitude longitude : Coord (Rd A)}
    {alg eng : String} {refr : PyVal} {s : Sunpos (Rd A)} {e : Dim → Nat} {t : Int} {φ l ζ : ℝ}
    (h : call uc w times latitude longitude alg refr eng = .ok s) (hr : refr ≠ .pyTrue)
    (ha : AtRd s times e t φ l) (hφ : -90 ≤ φ ∧ φ ≤ 90) (hl : -180 ≤ l ∧ l < 180)
    (hpole : alg = "nrel" → |φ| ≤ 90 - 1e-10)
    (hup : cos (rad ζ) = sin (rad φ) * sin (declination (century t))
      + cos (rad φ) * cos (declination (century t)) * cos (hourAngle (century t) + rad l))
    (hζ0 : 0 ≤ ζ) (hζ1 : ζ ≤ 180) (hs : 0.06 ≤ placeFactor alg eng φ * sin (rad ζ)) :
    ∃ Z : ℝ, s.zenith.get e = Rd.fin Z ∧
      |Z * (180 / π) - ζ| ≤ positionError alg eng + 0.00133 / (placeFactor alg eng φ * sin (rad ζ)) := by
  obtain ⟨s', z, a, z', a', B, k, h', ha', hz, -, hz', -, z0, z1, hd, -⟩ := float_near h hr ha hφ hl hpole
    (by rw [hup]; simp only [sunVec, cos_neg]) hs
  obtain ⟨x, hx⟩ : ∃ x, x = placeFactor alg eng φ * sin (rad ζ) := ⟨_, rfl⟩
  rw [← hx] at hs hd ⊢
  have hx1 : x ≤ 1 := by
    have h1 := placeFactor_le alg eng φ
    have h2 := placeFactor_nonneg alg eng hφ
    have h3 := sin_le_one (rad ζ)
    rw [hx]; nlinarith
  have hx0 : 0 < x := lt_of_lt_of_le (by norm_num) hs
  have hzr : s'.zenith.get (fun _ => 0) = .fin (rad z') := by
    have h1 : degrees (s'.zenith.get (fun _ => 0)) = XR.fin z' := hz'
    cases hc : s'.zenith.get (fun _ => 0) with
    | nan => rw [hc] at h1; cases h1
    | fin r =>
      rw [hc, XR.degrees_fin, degrees_real, XR.fin_inj] at h1
      rw [← h1, rad_deg]
  have e180 : rad 180 = π := by unfold rad; ring
  have hn := zenith_near h' hr ha' hup hζ0 hζ1 hzr (by unfold rad; positivity) (e180 ▸ rad_mono z1)
  rw [← rad_sub] at hn
  have hn := of_rad hn
  cases hZ : s.zenith.get e with
  | nan =>
    have h1 : degrees (s.zenith.get e) = Rd.fin z := hz
    rw [hZ] at h1; cases h1
  | fin Z =>
    refine ⟨Z, rfl, ?_⟩
    have hbig : |Z| ≤ 10 := stored_bound h hr ha hZ
    obtain ⟨z2, -, -, h1, -, -, h2, -⟩ := C66_zenith s hZ hbig
    obtain rfl : z2 = z := Rd.fin_inj.1 (h1.symm.trans hz)
    have h3 : 0.00133 / x = 2 * 0.00066 / x + 0.00001 / x := by rw [← add_div]; norm_num
    have h4 : 0.00001 ≤ 0.00001 / x := by rw [le_div_iff₀ hx0]; norm_num at hx1 ⊢; linarith
    have e1 : Z * (180 / π) - ζ = -(z2 - Z * (180 / π)) + (z2 - z') + (z' - ζ) := by ring
    rw [e1]
    refine (abs_add_three _ _ _).trans ?_
    rw [abs_neg]
    norm_num at *; linarith

theorem float_ecf_low {uc : UseCase} {w : World (Rd A)} {times : Times} {latitude longitude : Coord (Rd A)}
    {alg eng : String} {refr : PyVal} {s : Sunpos (Rd A)} {e : Dim → Nat} {t : Int}
    (h : call uc w times latitude longitude alg refr eng = .ok s)
    (hk : stampAt times.stamps (e .time) = some t) (ht : |t| < 2 ^ 63) :
    ∃ f : ℝ, s.ecf.get e = Rd.fin f ∧ 0.95 ≤ f ∧ f ≤ 1.05 := by
  obtain ⟨b, hb, -⟩ := rd_time h hk
  obtain ⟨s', h', ha'⟩ := single_call .sites (known_iff.2 ⟨b, hb⟩) .pyFalse ht (φ := 40) (l := -4.5) (by norm_num) (by norm_num)
  obtain ⟨-, ⟨f1, f', h4, h5, h6⟩, -⟩ := near_time (e' := fun _ => 0) h h' hk ha'.time ht
  obtain ⟨x, hx, x1, x2⟩ := C18_ecf (e := fun _ => 0) h' ha'.time ht
  obtain rfl : x = f' := XR.fin_inj.1 (hx.symm.trans h5)
  rw [abs_le] at h6
  refine ⟨f1, h4, ?_⟩
  norm_num at h6 x1 x2 ⊢
  constructor <;> linarith [h6.1, h6.2]

/-- for every number there is an object with that zenith angle -/
theorem exists_zenithDeg (z : ℝ) (s : Sunpos XR) : ∃ t : Sunpos XR, ∀ e, t.zenithDeg.get e = .fin z := by
  refine ⟨{ s with zenith := DA.scalar (.fin (rad z)) }, fun e => ?_⟩
  rw [zenithDeg_fin (z := rad z) rfl]
  congr 1
  unfold rad; field_simp

theorem day_of {uc : UseCase} {w : World (Rd A)} {times : Times} {latitude longitude : Coord (Rd A)}
    {alg eng : String} {s : Sunpos (Rd A)} {e : Dim → Nat} {t : Int} {φ l r : ℝ}
    (h : call uc w times latitude longitude alg .pyTrue eng = .ok s)
    (ha : AtRd s times e t φ l) (hr : s.zenith.get e = Rd.fin r) (r2 : 0.016 ≤ r) (r1 : r ≤ π / 2 - 5e-6) :
    ∃ z el c : ℝ, s.zenithDeg.get e = Rd.fin z ∧ s.elevation.get e = Rd.fin el ∧ s.cosz.get e = Rd.fin c ∧
      z < 90 ∧ 0 < el ∧ 0 < c ∧
      (∀ isc : ℝ, 1 ≤ isc → isc ≤ 1e4 → ∃ E v, s.eth (Rd.fin isc) "none" = .ok E ∧ E.get e = Rd.fin v ∧ 0 < v) ∧
      (∀ p ∈ Parameterizations, ∃ M v, s.airmass p = .ok M ∧ M.get e = Rd.fin v ∧ 1 - 6e-8 ≤ v) := by
  obtain ⟨b, hb, -⟩ := rd_time h ha.time
  have hkp := known_iff.2 ⟨b, hb⟩
  have hp := pi_gt_d4
  have hp' := pi_lt_d4
  have hrb : |r| ≤ 10 := by rw [abs_le]; constructor <;> norm_num at * <;> linarith
  obtain ⟨z, el, c, hz, hel, hc, ez, eel, ec⟩ := C66_zenith s hr hrb
  have ez := abs_le.1 ez
  have eel := abs_le.1 eel
  have ec := abs_le.1 ec
  have hr1 : r * (180 / π) ≤ 90 - 2e-4 := by
    rw [← mul_div_assoc, div_le_iff₀ pi_pos]; norm_num at *; linarith
  have hr2 : 0.9 ≤ r * (180 / π) := by
    rw [← mul_div_assoc, le_div_iff₀ pi_pos]; norm_num at *; linarith
  have hzu : z ≤ 90 - 1.9e-4 := by norm_num at *; linarith
  have hzl : 0.8 ≤ z := by norm_num at *; linarith
  have hcos : 2e-6 ≤ cos (rad z) := by
    rw [← sin_pi_div_two_sub]
    have h1 : rad z ≤ rad (90 - 1.9e-4) := rad_mono hzu
    have h2 : rad (90 - 1.9e-4) = π / 2 - 1.9e-4 * (π / 180) := by unfold rad; ring
    have h3 : 0 ≤ rad z := by unfold rad; have := pi_pos; positivity
    have h4 := mul_le_sin (x := π / 2 - rad z) (by norm_num at *; linarith) (by linarith)
    refine le_trans ?_ h4
    have h5 : 2 / π * (1.9e-4 * (π / 180)) ≤ 2 / π * (π / 2 - rad z) :=
      mul_le_mul_of_nonneg_left (by linarith) (by positivity)
    refine le_trans ?_ h5
    have h6 : 2 / π * (1.9e-4 * (π / 180)) = 2 * 1.9e-4 / 180 := by field_simp
    rw [h6]; norm_num
  refine ⟨z, el, c, hz, hel, hc, by norm_num at *; linarith, by norm_num at *; linarith, by norm_num at *; linarith, ?_, ?_⟩
  · intro isc i1 i2
    obtain ⟨f, hf, f1, f2⟩ := float_ecf_low h ha.time ha.range
    obtain ⟨E, z', v, hE, hz', hv, ev⟩ := C66_eth s (isc := isc) hr hrb hf
      (by rw [abs_le]; constructor <;> norm_num at * <;> linarith) (by rw [abs_le]; constructor <;> norm_num at * <;> linarith)
    obtain rfl : z' = z := Rd.fin_inj.1 (hz'.symm.trans hz)
    refine ⟨E, v, hE, hv, ?_⟩
    have ev := abs_le.1 ev
    have h1 : 0.95 ≤ isc * f := by norm_num at *; nlinarith
    have h2 : 2e-6 ≤ max 0 (cos (rad z')) := hcos.trans (le_max_right _ _)
    have h3 := mul_le_mul h1 h2 (by norm_num) (by linarith)
    norm_num at *; linarith
  · intro p hp
    obtain ⟨s', -, -⟩ := single_call uc (alg := alg) (eng := eng) hkp .pyFalse ha.range (φ := 40) (l := -4.5) (by norm_num) (by norm_num)
    obtain ⟨T, hT⟩ := exists_zenithDeg z s'
    obtain ⟨B, X, hB, hX, hg, -⟩ := C66_airmass (e' := fun _ => 0) hp s T hr
      hrb hz (hT _)
    obtain ⟨r, v, h1, h2, -, h3⟩ := hg (by norm_num at *; linarith) (by norm_num at *; linarith)
    have h4 := C23_at_least_one hX h2
    have h3 := abs_le.1 h3
    exact ⟨B, r, hB, h1, by linarith⟩

theorem night_of {uc : UseCase} {w : World (Rd A)} {times : Times} {latitude longitude : Coord (Rd A)}
    {alg eng : String} {s : Sunpos (Rd A)} {e : Dim → Nat} {t : Int} {φ l r : ℝ}
    (h : call uc w times latitude longitude alg .pyTrue eng = .ok s)
    (ha : AtRd s times e t φ l) (hr : s.zenith.get e = Rd.fin r) (r1 : π / 2 + 4e-6 ≤ r) (r2 : r ≤ π - 0.016) :
    ∃ z el c : ℝ, s.zenithDeg.get e = Rd.fin z ∧ s.elevation.get e = Rd.fin el ∧ s.cosz.get e = Rd.fin c ∧
      90 < z ∧ el < 0 ∧ c < 0 ∧
      (∀ isc : ℝ, |isc| ≤ 1e4 → ∃ E v, s.eth (Rd.fin isc) "none" = .ok E ∧ E.get e = Rd.fin v ∧ |v| ≤ 5e-9) ∧
      (∀ p ∈ Parameterizations, ∃ M, s.airmass p = .ok M ∧ M.get e = XR.nan) := by
  obtain ⟨b, hb, -⟩ := rd_time h ha.time
  have hkp := known_iff.2 ⟨b, hb⟩
  have hp := pi_gt_d4
  have hp' := pi_lt_d4
  have hrb : |r| ≤ 10 := by rw [abs_le]; constructor <;> norm_num at * <;> linarith
  obtain ⟨z, el, c, hz, hel, hc, ez, eel, ec⟩ := C66_zenith s hr hrb
  have ez := abs_le.1 ez
  have eel := abs_le.1 eel
  have ec := abs_le.1 ec
  have hr1 : 90 + 2e-4 ≤ r * (180 / π) := by
    rw [← mul_div_assoc, le_div_iff₀ pi_pos]; norm_num at *; linarith
  have hr2 : r * (180 / π) ≤ 180 - 0.9 := by
    rw [← mul_div_assoc, div_le_iff₀ pi_pos]; norm_num at *; linarith
  have hzl : 90 + 1.9e-4 ≤ z := by norm_num at *; linarith
  have hzu : z ≤ 180 - 0.8 := by norm_num at *; linarith
  have hcos : cos (rad z) ≤ -2e-6 := by
    have h0 : cos (rad z) = -sin (rad z - π / 2) := by rw [sin_sub_pi_div_two]; ring
    rw [h0]
    have h1 : rad (90 + 1.9e-4) ≤ rad z := rad_mono hzl
    have h2 : rad (90 + 1.9e-4) = π / 2 + 1.9e-4 * (π / 180) := by unfold rad; ring
    have h3 : rad z ≤ rad 180 := rad_mono (by norm_num at *; linarith)
    have e180 : rad 180 = π := by unfold rad; ring
    have h4 := mul_le_sin (x := rad z - π / 2) (by norm_num at *; linarith) (by linarith)
    have h5 : 2 / π * (1.9e-4 * (π / 180)) ≤ 2 / π * (rad z - π / 2) :=
      mul_le_mul_of_nonneg_left (by linarith) (by positivity)
    have h6 : 2 / π * (1.9e-4 * (π / 180)) = 2 * 1.9e-4 / 180 := by field_simp
    rw [h6] at h5
    norm_num at h4 h5 ⊢; linarith
  refine ⟨z, el, c, hz, hel, hc, by norm_num at *; linarith, by norm_num at *; linarith, by norm_num at *; linarith, ?_, ?_⟩
  · intro isc hi
    obtain ⟨f, hf, f1, f2⟩ := float_ecf_low h ha.time ha.range
    obtain ⟨E, z', v, hE, hz', hv, ev⟩ := C66_eth s (isc := isc) hr hrb hf
      (by rw [abs_le]; constructor <;> norm_num at * <;> linarith) hi
    obtain rfl : z' = z := Rd.fin_inj.1 (hz'.symm.trans hz)
    refine ⟨E, v, hE, hv, ?_⟩
    rwa [max_eq_left (by linarith), mul_zero, sub_zero] at ev
  · intro p hp
    obtain ⟨s', -, -⟩ := single_call uc (alg := alg) (eng := eng) hkp .pyFalse ha.range (φ := 40) (l := -4.5) (by norm_num) (by norm_num)
    obtain ⟨T, hT⟩ := exists_zenithDeg z s'
    obtain ⟨B, X, hB, hX, -, hg⟩ := C66_airmass (e' := fun _ => 0) hp s T hr hrb hz (hT _)
    exact ⟨B, hB, (hg (by norm_num at *; linarith)).1⟩

/-- C73 (day, floating-point): the same in every arithmetic with the accuracy of double precision, the margin enlarged by
`0.003 / (κ sin ζ)` degrees, wherever `κ sin ζ ≥ 0.06` (`κ` is 1, or the cosine of the latitude for soltrack with numpy). -/
theorem C73_float_day {uc : UseCase} {w : World (Rd A)} {times : Times} {latitude longitude : Coord (Rd A)}
    {alg eng : String} {s : Sunpos (Rd A)} {e : Dim → Nat} {t : Int} {φ l ζ : ℝ}
    (h : call uc w times latitude longitude alg .pyTrue eng = .ok s)
    (ha : AtRd s times e t φ l) (hφ : -90 ≤ φ ∧ φ ≤ 90) (hl : -180 ≤ l ∧ l < 180)
    (hpole : alg = "nrel" → |φ| ≤ 90 - 1e-10)
    (hup : cos (rad ζ) = sin (rad φ) * sin (declination (century t))
      + cos (rad φ) * cos (declination (century t)) * cos (hourAngle (century t) + rad l))
    (hζ0 : 0 ≤ ζ) (hs : 0.06 ≤ placeFactor alg eng φ * sin (rad ζ))
    (hζ : ζ ≤ 90 - positionError alg eng - 0.003 / (placeFactor alg eng φ * sin (rad ζ))) :
    ∃ z el c : ℝ, s.zenithDeg.get e = Rd.fin z ∧ s.elevation.get e = Rd.fin el ∧ s.cosz.get e = Rd.fin c ∧
      z < 90 ∧ 0 < el ∧ 0 < c ∧
      (∀ isc : ℝ, 1 ≤ isc → isc ≤ 1e4 → ∃ E v, s.eth (Rd.fin isc) "none" = .ok E ∧ E.get e = Rd.fin v ∧ 0 < v) ∧
      (∀ p ∈ Parameterizations, ∃ M v, s.airmass p = .ok M ∧ M.get e = Rd.fin v ∧ 1 - 6e-8 ≤ v) := by
  obtain ⟨s₀, h₀, ha₀⟩ := without_refraction h ha
  obtain ⟨b, hb, -⟩ := rd_time h ha.time
  have hkp := known_iff.2 ⟨b, hb⟩
  obtain ⟨hpe0, hpe⟩ := positionError_le hkp
  obtain ⟨x, hx⟩ : ∃ x, x = placeFactor alg eng φ * sin (rad ζ) := ⟨_, rfl⟩
  have hx0 : 0 < x := by rw [hx]; exact lt_of_lt_of_le (by norm_num) hs
  have hk0 := placeFactor_nonneg alg eng hφ
  have hk1 := placeFactor_le alg eng φ
  have hsin : 0.06 ≤ sin (rad ζ) := by
    by_contra hc
    push Not at hc
    rcases le_or_gt 0 (sin (rad ζ)) with h1 | h1
    · have := mul_le_mul_of_nonneg_right hk1 h1
      linarith
    · have := mul_nonpos_of_nonneg_of_nonpos hk0 h1.le
      norm_num at hs; linarith
  have hx1 : x ≤ 1 := by
    have h3 := sin_le_one (rad ζ)
    rw [hx]; nlinarith
  have hdiv : 0.003 ≤ 0.003 / x := by rw [le_div_iff₀ hx0]; norm_num at hx1 ⊢; linarith
  have hdiv2 : 0.003 / x ≤ 0.05 := by
    rw [← hx] at hs
    rw [div_le_iff₀ hx0]; norm_num at hs ⊢; linarith
  have hdiv3 : 0.00133 / x = (0.00133 / 0.003) * (0.003 / x) := by ring
  rw [← hx] at hζ
  obtain ⟨Z, hZ, hn⟩ := float_zenith_near h₀ (by simp) ha₀ hφ hl hpole hup hζ0 (by norm_num at *; linarith) hs
  rw [← hx, hdiv3] at hn
  have hn := abs_le.1 hn
  generalize 0.003 / x = q at *
  have hp := pi_gt_d4
  have hp' := pi_lt_d4
  have hζl : 3.4 ≤ ζ := by
    have h1 : sin (rad ζ) ≤ rad ζ := sin_le (by unfold rad; positivity)
    have h2 : rad ζ = ζ * (π / 180) := rfl
    rw [h2] at h1
    have h3 : ζ * (π / 180) ≤ ζ * (3.1416 / 180) := mul_le_mul_of_nonneg_left (by norm_num at hp' ⊢; linarith) hζ0
    have h4 : 0.06 ≤ ζ * (3.1416 / 180) := hsin.trans (h1.trans h3)
    norm_num at h4 ⊢; linarith
  have eZ : Z = rad (Z * (180 / π)) := (rad_deg Z).symm
  have hZl : 1.7 * (π / 180) ≤ Z := by
    rw [eZ]; refine rad_mono ?_
    norm_num at *; linarith
  have hZu : Z ≤ (90 - 0.0016) * (π / 180) := by
    rw [eZ]; refine rad_mono ?_
    norm_num at *; linarith
  obtain ⟨hd, -⟩ := float_side h h₀ (by simp) ha ha₀ hZ (by norm_num at *; linarith) (by norm_num at *; linarith)
  obtain ⟨r, hr, r1, r2⟩ := hd (by norm_num at *; linarith)
  exact day_of h ha hr (by norm_num at hZl r2 hp ⊢; linarith) (by linarith)

/-- C73 (night, floating-point): the same in every arithmetic with the accuracy of double precision, the margin enlarged by
`0.003 / (κ sin ζ)` degrees, wherever `κ sin ζ ≥ 0.06`; the extraterrestrial irradiance is then zero to within rounding. -/
theorem C73_float_night {uc : UseCase} {w : World (Rd A)} {times : Times} {latitude longitude : Coord (Rd A)}
    {alg eng : String} {s : Sunpos (Rd A)} {e : Dim → Nat} {t : Int} {φ l ζ : ℝ}
    (h : call uc w times latitude longitude alg .pyTrue eng = .ok s)
    (ha : AtRd s times e t φ l) (hφ : -90 ≤ φ ∧ φ ≤ 90) (hl : -180 ≤ l ∧ l < 180)
    (hpole : alg = "nrel" → |φ| ≤ 90 - 1e-10)
    (hup : cos (rad ζ) = sin (rad φ) * sin (declination (century t))
      + cos (rad φ) * cos (declination (century t)) * cos (hourAngle (century t) + rad l))
    (hζ1 : ζ ≤ 180) (hs : 0.06 ≤ placeFactor alg eng φ * sin (rad ζ))
    (hζ : 90 + horizonDip alg + positionError alg eng + 0.003 / (placeFactor alg eng φ * sin (rad ζ)) ≤ ζ)
    (hsol : alg = "soltrack" → 0.15 ≤ |ζ - 95.11|) :
    ∃ z el c : ℝ, s.zenithDeg.get e = Rd.fin z ∧ s.elevation.get e = Rd.fin el ∧ s.cosz.get e = Rd.fin c ∧
      90 < z ∧ el < 0 ∧ c < 0 ∧
      (∀ isc : ℝ, |isc| ≤ 1e4 → ∃ E v, s.eth (Rd.fin isc) "none" = .ok E ∧ E.get e = Rd.fin v ∧ |v| ≤ 5e-9) ∧
      (∀ p ∈ Parameterizations, ∃ M, s.airmass p = .ok M ∧ M.get e = XR.nan) := by
  obtain ⟨s₀, h₀, ha₀⟩ := without_refraction h ha
  obtain ⟨b, hb, -⟩ := rd_time h ha.time
  have hkp := known_iff.2 ⟨b, hb⟩
  obtain ⟨hpe0, hpe⟩ := positionError_le hkp
  have hdip : 0.58 ≤ horizonDip alg := by unfold horizonDip; split_ifs <;> norm_num
  obtain ⟨x, hx⟩ : ∃ x, x = placeFactor alg eng φ * sin (rad ζ) := ⟨_, rfl⟩
  have hx0 : 0 < x := by rw [hx]; exact lt_of_lt_of_le (by norm_num) hs
  have hk0 := placeFactor_nonneg alg eng hφ
  have hk1 := placeFactor_le alg eng φ
  have hsin : 0.06 ≤ sin (rad ζ) := by
    by_contra hc
    push Not at hc
    rcases le_or_gt 0 (sin (rad ζ)) with h1 | h1
    · have := mul_le_mul_of_nonneg_right hk1 h1
      linarith
    · have := mul_nonpos_of_nonneg_of_nonpos hk0 h1.le
      norm_num at hs; linarith
  have hx1 : x ≤ 1 := by
    have h3 := sin_le_one (rad ζ)
    rw [hx]; nlinarith
  have hdiv : 0.003 ≤ 0.003 / x := by rw [le_div_iff₀ hx0]; norm_num at hx1 ⊢; linarith
  have hdiv2 : 0.003 / x ≤ 0.05 := by
    rw [← hx] at hs
    rw [div_le_iff₀ hx0]; norm_num at hs ⊢; linarith
  have hdiv3 : 0.00133 / x = (0.00133 / 0.003) * (0.003 / x) := by ring
  rw [← hx] at hζ
  have hζ0 : 0 ≤ ζ := by norm_num at *; linarith
  obtain ⟨Z, hZ, hn⟩ := float_zenith_near h₀ (by simp) ha₀ hφ hl hpole hup hζ0 hζ1 hs
  rw [← hx, hdiv3] at hn
  have hn0 := hn
  have hn := abs_le.1 hn
  generalize 0.003 / x = q at *
  have hp := pi_gt_d4
  have hp' := pi_lt_d4
  have hζu : ζ ≤ 180 - 3.4 := by
    have e180 : rad 180 = π := by unfold rad; ring
    have h0 := rad_mono hζ1
    have h1 : sin (π - rad ζ) ≤ π - rad ζ := sin_le (by linarith)
    rw [sin_pi_sub] at h1
    have h2 : π - rad ζ = (180 - ζ) * (π / 180) := by unfold rad; ring
    rw [h2] at h1
    have h3 : (180 - ζ) * (π / 180) ≤ (180 - ζ) * (3.1416 / 180) :=
      mul_le_mul_of_nonneg_left (by norm_num at hp' ⊢; linarith) (by linarith)
    have h4 : 0.06 ≤ (180 - ζ) * (3.1416 / 180) := hsin.trans (h1.trans h3)
    norm_num at h4 ⊢; linarith
  have eZ : Z = rad (Z * (180 / π)) := (rad_deg Z).symm
  have hZl : (90 + horizonDip alg + 0.001) * (π / 180) ≤ Z := by
    rw [eZ]; refine rad_mono ?_
    norm_num at *; linarith
  have hZu : Z ≤ (180 - 1.7) * (π / 180) := by
    rw [eZ]; refine rad_mono ?_
    norm_num at *; linarith
  have hdr : dipRad alg + 1e-12 ≤ (horizonDip alg + 0.001) * (π / 180) := by
    unfold dipRad horizonDip
    split_ifs <;> norm_num at * <;> linarith
  have hZl' : π / 2 + dipRad alg + 1e-12 ≤ Z := by
    refine le_trans ?_ hZl
    have : (90 + horizonDip alg + 0.001) * (π / 180) = π / 2 + (horizonDip alg + 0.001) * (π / 180) := by ring
    rw [this]; linarith
  have hd0 : 0 ≤ dipRad alg := by unfold dipRad; split_ifs <;> norm_num
  have hp2 : alg = "soltrack" → 1.201e-3 ≤ |π / 2 - Z + 8.92e-2| := by
    intro ht
    have h1 := hsol ht
    have h4 : positionError alg eng = 0.022 := by subst ht; simp [positionError]
    rw [h4] at hn0
    have h5 : 0.1 ≤ |Z * (180 / π) - 95.11| := by
      have h6 : |ζ - 95.11| ≤ |Z * (180 / π) - 95.11| + |Z * (180 / π) - ζ| := by
        have := abs_sub_le ζ (Z * (180 / π)) 95.11
        rw [abs_sub_comm ζ (Z * (180 / π))] at this; linarith
      norm_num at *; linarith
    have h7 := rad_mono h5
    rw [← abs_rad, rad_sub, rad_deg] at h7
    have h8 : |Z - rad 95.11| ≤ |π / 2 - Z + 8.92e-2| + 2.1e-5 := by
      have h9 : Z - rad 95.11 = -(π / 2 - Z + 8.92e-2) + (π / 2 + 8.92e-2 - rad 95.11) := by ring
      rw [h9]
      refine (abs_add_le _ _).trans ?_
      rw [abs_neg]
      have : |π / 2 + 8.92e-2 - rad 95.11| ≤ 2.1e-5 := by
        unfold rad; rw [abs_le]; constructor <;> norm_num at hp hp' ⊢ <;> linarith
      linarith
    have h10 : 1.745e-3 ≤ rad 0.1 := by unfold rad; norm_num at hp ⊢; linarith
    norm_num at *; linarith
  obtain ⟨-, hd⟩ := float_side h h₀ (by simp) ha ha₀ hZ (by norm_num at *; linarith) (by norm_num at *; linarith)
  obtain ⟨r, hr, r1, r2⟩ := hd hZl' hp2
  exact night_of h ha hr (by linarith) (by norm_num at hZu r2 hp' ⊢; linarith)

/-- at every instant there is a place where the sun of the ephemeris is 40 degrees from the zenith and, opposite to it, a place
where it is 140 degrees from it; both are more than 12 degrees from the poles -/
theorem day_night_places {t : Int} (ht : |t| < 2 ^ 63) {ζ : ℝ} (hζ : ζ = 40 ∨ ζ = 140) : ∃ φ l : ℝ,
    (-90 ≤ φ ∧ φ ≤ 90) ∧ (-180 ≤ l ∧ l < 180) ∧ |φ| ≤ 78 ∧
    cos (rad ζ) = sin (rad φ) * sin (declination (century t))
      + cos (rad φ) * cos (declination (century t)) * cos (hourAngle (century t) + rad l) ∧
    (∀ alg eng, 0.1 ≤ placeFactor alg eng φ * sin (rad ζ)) := by
  have hd : |declination (century t)| ≤ 0.4154 := by
    obtain ⟨o1, o2⟩ := Ephem.obliquity_bound (century_bound ht)
    unfold Ephem.declination
    have hp := pi_gt_d2
    refine (Psa.arcsin_bound ⟨?_, ?_⟩).trans ?_ <;> norm_num at o1 o2 hp ⊢ <;> linarith
  have hd := abs_le.1 hd
  have hp := pi_gt_d4
  have hp' := pi_lt_d4
  have h40 : rad 40 = 2 * π / 9 := by unfold rad; ring
  have h140 : rad 140 = π - rad 40 := by unfold rad; ring
  obtain ⟨u, hu⟩ : ∃ u, u = declination (century t) + rad 40 := ⟨_, rfl⟩
  have hub : 0 ≤ u ∧ u ≤ 1.1138 := by
    rw [hu]; constructor <;> norm_num at * <;> linarith
  have hφ : -(π / 2) ≤ u ∧ u ≤ π / 2 := by constructor <;> norm_num at * <;> linarith
  have hcu : 0.27 ≤ cos u := by
    rw [← sin_pi_div_two_sub]
    have h2 : sin 0.28 ≤ sin (π / 2 - u) := by
      apply sin_le_sin_of_le_of_le_pi_div_two <;> norm_num at * <;> linarith
    have h3 := sin_gt_sub_cube (x := 0.28) (by norm_num)
    norm_num at h2 h3 ⊢; linarith
  have hsz : 1 / 2 ≤ sin (rad 40) := by
    rw [← sin_pi_div_six]
    apply sin_le_sin_of_le_of_le_pi_div_two <;> norm_num at * <;> linarith
  have hur : rad (u * (180 / π)) = u := rad_deg u
  have hm := rad_mem hφ.1 hφ.2
  have h78 : |u * (180 / π)| ≤ 78 := by
    apply of_rad
    rw [hur, abs_of_nonneg hub.1, rad]
    norm_num at *; linarith
  have hcs := cos_sub u (declination (century t))
  rw [hu, add_sub_cancel_left, ← hu] at hcs
  have hpf : ∀ {v : ℝ}, cos (rad v) = cos u → ∀ alg eng, 0.1 ≤ placeFactor alg eng v * sin (rad 40) := by
    intro v hv alg eng
    have h2 : 0.27 ≤ placeFactor alg eng v := by
      unfold placeFactor latFactor
      rw [hv]
      split_ifs <;> first | exact hcu | norm_num
    have := mul_le_mul h2 hsz (by norm_num) (by linarith)
    norm_num at this ⊢; linarith
  rcases hζ with rfl | rfl
  · obtain ⟨l, hl, k, hk⟩ := exists_lon (hourAngle (century t)) 0
    refine ⟨u * (180 / π), l, hm, hl, h78, ?_, hpf (by rw [hur])⟩
    rw [hk, cos_add_int_mul_two_pi, cos_zero, hur, mul_one, hcs]; ring
  · obtain ⟨l, hl, k, hk⟩ := exists_lon (hourAngle (century t)) π
    have hneg : rad (-(u * (180 / π))) = -u := by
      rw [show rad (-(u * (180 / π))) = -rad (u * (180 / π)) by unfold rad; ring, hur]
    refine ⟨-(u * (180 / π)), l, ⟨by linarith [hm.2], by linarith [hm.1]⟩, hl, by rwa [abs_neg], ?_, ?_⟩
    · rw [hk, cos_add_int_mul_two_pi, cos_pi, hneg, h140, cos_pi_sub, cos_neg, sin_neg, hcs]; ring
    · rw [h140, sin_pi_sub]
      exact hpf (by rw [hneg, cos_neg])

/-- C73 applies, in exact arithmetic and in the 53-bit one, to every algorithm and use case, at every instant: there is a
place where it is day -/
example {t : Int} (ht : |t| < 2 ^ 63) : ∃ φ l : ℝ, ∀ (uc : UseCase) {alg eng : String}, KnownPair alg eng →
    (∃ (w : World XR) (s : Sunpos XR),
      call uc w (oneTime t) (.vec [.fin φ]) (.vec [.fin l]) alg .pyTrue eng = .ok s ∧
      ∃ z, s.zenithDeg.get (fun _ => 0) = .fin z ∧ z < 90) ∧
    (∃ (w : World (Rd Arith.binary64)) (s : Sunpos (Rd Arith.binary64)),
      call uc w (oneTime t) (.vec [Rd.fin φ]) (.vec [Rd.fin l]) alg .pyTrue eng = .ok s ∧
      ∃ z, s.zenithDeg.get (fun _ => 0) = Rd.fin z ∧ z < 90) := by
  obtain ⟨φ, l, hφ, hl, h78, hup, hpf⟩ := day_night_places ht (.inl rfl)
  refine ⟨φ, l, fun uc alg eng hk => ⟨?_, ?_⟩⟩
  · obtain ⟨s, h, ha⟩ := single_call uc hk .pyTrue ht hφ hl
    have := positionError_le hk
    obtain ⟨z, el, c, hz, -, -, h1, -⟩ := C73_day h ha hup (by norm_num) (by norm_num at *; linarith)
    exact ⟨_, s, h, z, hz, h1⟩
  · obtain ⟨w, s, h, ha⟩ := single_call_rd (A := Arith.binary64) uc hk .pyTrue binary64_90 binary64_180 ht hφ hl
    have := positionError_le hk
    have h0 := hpf alg eng
    have h2 : 0.003 / (placeFactor alg eng φ * sin (rad 40)) ≤ 0.03 := by
      rw [div_le_iff₀ (lt_of_lt_of_le (by norm_num) h0)]; norm_num at h0 ⊢; linarith
    obtain ⟨z, el, c, hz, -, -, h1, -⟩ := C73_float_day h ha hφ hl (fun _ => h78.trans (by norm_num)) hup (by norm_num)
      (le_trans (by norm_num) h0) (by norm_num at *; linarith)
    exact ⟨_, s, h, z, hz, h1⟩

/-- and a place where it is night -/
example {t : Int} (ht : |t| < 2 ^ 63) : ∃ φ l : ℝ, ∀ (uc : UseCase) {alg eng : String}, KnownPair alg eng →
    (∃ (w : World XR) (s : Sunpos XR),
      call uc w (oneTime t) (.vec [.fin φ]) (.vec [.fin l]) alg .pyTrue eng = .ok s ∧
      ∃ z, s.zenithDeg.get (fun _ => 0) = .fin z ∧ 90 < z) ∧
    (∃ (w : World (Rd Arith.binary64)) (s : Sunpos (Rd Arith.binary64)),
      call uc w (oneTime t) (.vec [Rd.fin φ]) (.vec [Rd.fin l]) alg .pyTrue eng = .ok s ∧
      ∃ z, s.zenithDeg.get (fun _ => 0) = Rd.fin z ∧ 90 < z) := by
  obtain ⟨φ, l, hφ, hl, h78, hup, hpf⟩ := day_night_places ht (.inr rfl)
  have hdip : ∀ alg, horizonDip alg ≤ 0.78 := fun alg => by unfold horizonDip; split_ifs <;> norm_num
  refine ⟨φ, l, fun uc alg eng hk => ⟨?_, ?_⟩⟩
  · obtain ⟨s, h, ha⟩ := single_call uc hk .pyTrue ht hφ hl
    have := positionError_le hk
    have h3 := hdip alg
    obtain ⟨z, el, c, hz, -, -, h1, -⟩ := C73_night h ha hup (by norm_num at *; linarith) (by norm_num)
      (fun _ => by norm_num [abs_of_pos])
    exact ⟨_, s, h, z, hz, h1⟩
  · obtain ⟨w, s, h, ha⟩ := single_call_rd (A := Arith.binary64) uc hk .pyTrue binary64_90 binary64_180 ht hφ hl
    have := positionError_le hk
    have h3 := hdip alg
    have h0 := hpf alg eng
    have h2 : 0.003 / (placeFactor alg eng φ * sin (rad 140)) ≤ 0.03 := by
      rw [div_le_iff₀ (lt_of_lt_of_le (by norm_num) h0)]; norm_num at h0 ⊢; linarith
    obtain ⟨z, el, c, hz, -, -, h1, -⟩ := C73_float_night h ha hφ hl (fun _ => h78.trans (by norm_num)) hup (by norm_num)
      (le_trans (by norm_num) h0) (by norm_num at *; linarith) (fun _ => by norm_num [abs_of_pos])
    exact ⟨_, s, h, z, hz, h1⟩

end SW.Props
