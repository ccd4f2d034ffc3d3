/-
The iqbal programs in exact arithmetic.
-/
import Verif.RSoltrack
import Verif.Iqbal

namespace SW.Iqbal
open Real

theorem stdTime_fin (t : ℤ) : (stdTime t : XR) = XR.fin (stdTime t) := by unfold stdTime; xrfl
theorem dayAngle_fin (t : ℤ) : (dayAngle t : XR) = XR.fin (dayAngle t) := by
  unfold dayAngle; rw [stdTime_fin]; xrfl
theorem ecf_fin (a : ℝ) : ecf (XR.fin a) = XR.fin (ecf a) := rfl
theorem eotHours_fin (a : ℝ) : eotHours (XR.fin a) = XR.fin (eotHours a) := by
  unfold eotHours; xrfl
theorem decl_fin (a : ℝ) : decl (XR.fin a) = XR.fin (decl a) := rfl
theorem RAD_fin : (RAD : XR) = XR.fin RAD := by unfold RAD; xrfl
theorem RAD_real : (RAD : ℝ) = π / 180 := by
  show π / 180.0 = _; norm_num
theorem latRad_fin (y : ℝ) : latRad (XR.fin y) = XR.fin (latRad y) := by
  unfold latRad; rw [RAD_fin]; rfl
theorem cosLat_fin (y : ℝ) : cosLat (XR.fin y) = XR.fin (cosLat y) := by
  unfold cosLat; rw [latRad_fin]; rfl
theorem sinLat_fin (y : ℝ) : sinLat (XR.fin y) = XR.fin (sinLat y) := by
  unfold sinLat; rw [latRad_fin]; rfl
theorem latRad_real (y : ℝ) : latRad y = y * (π / 180) := by
  show y * RAD = _; rw [RAD_real]
theorem cosLat_real (y : ℝ) : cosLat y = cos (y * (π / 180)) := by
  show cos (latRad y) = _; rw [latRad_real]
theorem sinLat_real (y : ℝ) : sinLat y = sin (y * (π / 180)) := by
  show sin (latRad y) = _; rw [latRad_real]
theorem lonHours_fin (x : ℝ) : lonHours (XR.fin x) = XR.fin (lonHours x) := by
  unfold lonHours; xrfl
theorem lonHours_real (x : ℝ) : lonHours x = x / 15 := by
  show x / 15.0 = _; norm_num
theorem hourAngle_fin (l : ℝ) : hourAngle (XR.fin l) = XR.fin (hourAngle l) := by
  unfold hourAngle; rw [RAD_fin]; rfl
theorem haPy_fin (s e l : ℝ) : haPy (XR.fin s) (XR.fin e) (XR.fin l) = XR.fin (haPy s e l) := by
  unfold haPy lat2Py lat1Py lat0
  xr
  rw [hourAngle_fin]
theorem haNe_fin (s e l : ℝ) : haNe (XR.fin s) (XR.fin e) (XR.fin l) = XR.fin (haNe s e l) := by
  unfold haNe lat2Ne lat1Ne lat0
  xr
  rw [hourAngle_fin]
theorem az0_fin (a b c d : ℝ) :
    az0 (XR.fin a) (XR.fin b) (XR.fin c) (XR.fin d) = XR.fin (az0 a b c d) := rfl
theorem azWrapPy_fin (a : ℝ) : azWrapPy (XR.fin a) = XR.fin (azWrapPy a) := by
  unfold azWrapPy; xrfl
theorem azWrapNe_fin (a : ℝ) : azWrapNe (XR.fin a) = XR.fin (azWrapNe a) := by
  unfold azWrapNe; xrfl
theorem eotMinutes_fin (a : ℝ) : eotMinutes (XR.fin a) = XR.fin (eotMinutes a) := by
  unfold eotMinutes; rw [eotHours_fin]; rfl

/-- the denominator of the refraction formula has no root -/
theorem refden_pos (a : ℝ) : 0 < 1.0 + (28.9344 * a) + (277.3971 * (a * a)) := by
  norm_num; nlinarith [sq_nonneg (a + 0.052154)]

theorem refcor_fin (a : ℝ) : refcor (XR.fin a) = XR.fin (refcor a) := by
  unfold refcor
  xr
  rw [XR.div_fin (refden_pos a).ne']
theorem refract_fin (a : ℝ) : refract (XR.fin a) = XR.fin (refract a) := by
  unfold refract; xr; rw [refcor_fin]; rfl
theorem withRefr_fin (r : Bool) (a : ℝ) : withRefr r (XR.fin a) = XR.fin (withRefr r a) := by
  cases r
  · rfl
  · exact refract_fin a

theorem cosz_real (p d h : ℝ) : cosz (cos p) (sin p) d h = sin p * sin d + cos p * cos d * cos h := by
  show sin d * sin p + cos d * cos p * cos h = _
  ring

theorem zenith_fin (p d h : ℝ) (r : Bool) :
    zenith r (XR.fin (cos p)) (XR.fin (sin p)) (XR.fin d) (XR.fin h)
      = XR.fin (zenith r (cos p) (sin p) d h) := by
  have hb : -1 ≤ cosz (cos p) (sin p) d h ∧ cosz (cos p) (sin p) d h ≤ 1 := by
    rw [cosz_real]; exact abs_le.1 (sphere_le_one p d h)
  have hc : cosz (XR.fin (cos p)) (XR.fin (sin p)) (XR.fin d) (XR.fin h)
    = XR.fin (cosz (cos p) (sin p) d h) := rfl
  unfold zenith
  rw [hc, XR.arccos_fin hb, withRefr_fin]
  rfl

/-- the wraps of the local apparent time agree -/
theorem ha_eq (s e l : ℝ) : haPy s e l = haNe s e l := by
  have e1 : ∀ x : ℝ, lat1Py x = lat1Ne x := by
    intro x
    show (if x < (0.0 : ℝ) then x + 24.0 else x) = if x < (0 : ℝ) then x + 24.0 else x
    norm_num
  have e2 : ∀ x : ℝ, lat2Py x = lat2Ne x := by
    intro x
    show (if (24.0 : ℝ) ≤ x then x - 24.0 else x) = if (24 : ℝ) ≤ x then x - 24.0 else x
    norm_num
  unfold haPy haNe
  rw [e1, e2]

theorem azWrap_eq (a : ℝ) : azWrapPy a = azWrapNe a := by
  show (if a < (0.0 : ℝ) then a + π else a - π) = if a < (0 : ℝ) then a + π else a - π
  norm_num

/-- hour angle at longitude 0 -/
noncomputable def H0 (t : ℤ) : ℝ :=
  (stdTime t + eotHours (dayAngle t) - 12) * 15 * (π / 180)

theorem haNe_turn (t : ℤ) (x : ℝ) : ∃ k : ℤ,
    haNe (stdTime t) (eotHours (dayAngle t)) (x / 15) = H0 t + x * (π / 180) + k * (2 * π) := by
  have e : haNe (stdTime t) (eotHours (dayAngle t)) (x / 15)
    = (lat2Ne (lat1Ne (stdTime t + x / 15 + eotHours (dayAngle t))) - 12.0) * 15.0 * RAD := rfl
  set w := stdTime t + x / 15 + eotHours (dayAngle t) with hw
  have h : ∃ k : ℤ, lat2Ne (lat1Ne w) = w + 24 * k := by
    have e1 : ∀ x : ℝ, lat1Ne x = if x < 0 then x + 24.0 else x := fun _ => rfl
    have e2 : ∀ x : ℝ, lat2Ne x = if 24 ≤ x then x - 24.0 else x := fun _ => rfl
    rw [e2, e1]
    norm_num
    split_ifs
    · exact ⟨0, by push_cast; ring⟩
    · exact ⟨1, by push_cast; ring⟩
    · exact ⟨-1, by push_cast; ring⟩
    · exact ⟨0, by push_cast; ring⟩
  obtain ⟨k, hk⟩ := h
  refine ⟨k, ?_⟩
  rw [e, hk, RAD_real, hw]; unfold H0; norm_num; ring

/-- declination at an instant -/
noncomputable def decAt (t : ℤ) : ℝ := decl (dayAngle t)

theorem decl_bound (a : ℝ) : |decl a| ≤ 0.4232 := by
  have e : decl a = 0.006918 + (-0.399912 * cos a + 0.070257 * sin a)
    + (-0.006758 * cos (2 * a) + 0.000907 * sin (2 * a))
    + (-0.002697 * cos (3 * a) + 0.001480 * sin (3 * a)) := by
    show 0.006918 - 0.399912 * cos a + 0.070257 * sin a
      - 0.006758 * cos (2 * a) + 0.000907 * sin (2 * a)
      - 0.002697 * cos (3 * a) + 0.001480 * sin (3 * a) = _
    ring
  have h1 := abs_le.1 (abs_cos_sin_le (-0.399912) 0.070257 a (m := 0.4061) (by norm_num) (by norm_num))
  have h2 := abs_le.1 (abs_cos_sin_le (-0.006758) 0.000907 (2 * a) (m := 0.0069) (by norm_num) (by norm_num))
  have h3 := abs_le.1 (abs_cos_sin_le (-0.002697) 0.001480 (3 * a) (m := 0.0031) (by norm_num) (by norm_num))
  rw [e, abs_le]
  norm_num at *
  constructor <;> linarith [h1.1, h1.2, h2.1, h2.2, h3.1, h3.2]

theorem ecf_bound (a : ℝ) : 0.96 ≤ ecf a ∧ ecf a ≤ 1.04 := by
  have e : ecf a = 1.00012825e+00 + (3.33572253e-02 * cos a + 1.99417932e-03 * sin a)
    + (6.97434604e-04 * cos (2 * a) + 1.14828177e-04 * sin (2 * a))
    + (1.74028675e-05 * cos (3 * a) + 1.13778023e-05 * sin (3 * a)) := by
    show 1.00012825e+00 + 3.33572253e-02 * cos a + 1.99417932e-03 * sin a
      + 6.97434604e-04 * cos (2 * a) + 1.14828177e-04 * sin (2 * a)
      + 1.74028675e-05 * cos (3 * a) + 1.13778023e-05 * sin (3 * a) = _
    ring
  have h1 := abs_le.1 (abs_cos_sin_le 3.33572253e-02 1.99417932e-03 a (m := 0.034) (by norm_num) (by norm_num))
  have h2 := abs_le.1 (abs_cos_sin_le 6.97434604e-04 1.14828177e-04 (2 * a) (m := 0.001) (by norm_num) (by norm_num))
  have h3 := abs_le.1 (abs_cos_sin_le 1.74028675e-05 1.13778023e-05 (3 * a) (m := 0.001) (by norm_num) (by norm_num))
  rw [e]
  norm_num at *
  constructor <;> linarith [h1.1, h1.2, h2.1, h2.2, h3.1, h3.2]

theorem eot_bound (a : ℝ) : |eotMinutes a| ≤ 19 := by
  have e : eotMinutes a = 0.00986571 + (0.58688718 * cos a + (-7.34538133) * sin a)
    + (-3.31493999 * cos (2 * a) + (-9.35366541) * sin (2 * a))
    + (-0.08151750 * cos (3 * a) + (-0.30892409) * sin (3 * a))
    + (-0.13532889 * cos (4 * a) + (-0.17336220) * sin (4 * a)) := by
    show (0.00986571 + 0.58688718 * cos a - 7.34538133 * sin a
      - 3.31493999 * cos (2 * a) - 9.35366541 * sin (2 * a)
      - 0.08151750 * cos (3 * a) - 0.30892409 * sin (3 * a)
      - 0.13532889 * cos (4 * a) - 0.17336220 * sin (4 * a)) / 60.0 * 60 = _
    norm_num; ring
  have h1 := abs_le.1 (abs_cos_sin_le 0.58688718 (-7.34538133) a (m := 7.4) (by norm_num) (by norm_num))
  have h2 := abs_le.1 (abs_cos_sin_le (-3.31493999) (-9.35366541) (2 * a) (m := 9.93) (by norm_num) (by norm_num))
  have h3 := abs_le.1 (abs_cos_sin_le (-0.08151750) (-0.30892409) (3 * a) (m := 0.33) (by norm_num) (by norm_num))
  have h4 := abs_le.1 (abs_cos_sin_le (-0.13532889) (-0.17336220) (4 * a) (m := 0.23) (by norm_num) (by norm_num))
  rw [e, abs_le]
  norm_num at *
  constructor <;> linarith [h1.1, h1.2, h2.1, h2.2, h3.1, h3.2, h4.1, h4.2]

theorem cos_decAt (t : ℤ) : 0 < cos (decAt t) := by
  have := abs_le.1 (decl_bound (dayAngle t))
  have hp := pi_gt_d2
  apply cos_pos_of_mem_Ioo
  unfold decAt
  constructor <;> norm_num at * <;> linarith [this.1, this.2]

/-- the azimuth formula -/
noncomputable def aziR (p d h : ℝ) : ℝ :=
  Psa.azWrap (Psa.az0 (cos p) (sin p) h d)

theorem aziR_eq (p d h : ℝ) : azWrapNe (az0 (cos p) (sin p) d h) = aziR p d h := by
  unfold aziR
  rw [Psa.azWrap_real]; rfl

theorem aziR_turn (p d h : ℝ) (k : ℤ) : aziR p d (h + k * (2 * π)) = aziR p d h := by
  unfold aziR
  rw [Psa.az0_real, Psa.az0_real, cos_add_int_mul_two_pi, sin_add_int_mul_two_pi]

/-- geometric zenith angle -/
noncomputable def zenR (p d h : ℝ) : ℝ := arccos (sin p * sin d + cos p * cos d * cos h)

theorem zenR_turn (p d h : ℝ) (k : ℤ) : zenR p d (h + k * (2 * π)) = zenR p d h := by
  unfold zenR; rw [cos_add_int_mul_two_pi]

/-- the results of the numpy engine, in closed form -/
theorem cellPy_eq (t : ℤ) (x y : ℝ) (r : Bool) :
    cellPy t (XR.fin x) (XR.fin y) r =
      ⟨XR.fin (withRefr r (zenR (y * (π / 180)) (decAt t) (H0 t + x * (π / 180)))),
       XR.fin (aziR (y * (π / 180)) (decAt t) (H0 t + x * (π / 180))),
       XR.fin (ecf (dayAngle t)), XR.fin (decAt t), XR.fin (eotMinutes (dayAngle t))⟩ := by
  obtain ⟨k, hk⟩ := haNe_turn t x
  unfold cellPy
  simp only [XR.f32_id, stdTime_fin, dayAngle_fin, cosLat_fin, sinLat_fin, decl_fin, eotHours_fin,
    lonHours_fin, haPy_fin, ecf_fin, eotMinutes_fin, az0_fin, azWrapPy_fin]
  rw [cosLat_real, sinLat_real, zenith_fin, lonHours_real, ha_eq, azWrap_eq, aziR_eq, hk]
  have e1 : zenith r (cos (y * (π / 180))) (sin (y * (π / 180))) (decl (dayAngle t))
      (H0 t + x * (π / 180) + k * (2 * π))
      = withRefr r (zenR (y * (π / 180)) (decAt t) (H0 t + x * (π / 180) + k * (2 * π))) := by
    show withRefr r (arccos (cosz _ _ _ _)) = _
    rw [cosz_real]; rfl
  have e2 : decl (dayAngle t : ℝ) = decAt t := rfl
  rw [e1, zenR_turn, aziR_turn, e2]

/-- the numexpr engine gives the same results -/
theorem cellNe_eq (q : Bool) (t : ℤ) (x y : ℝ) (r : Bool) :
    cellNe q t (XR.fin x) (XR.fin y) r = cellPy t (XR.fin x) (XR.fin y) r := by
  have hl : (if q = true then lonHours (XR.fin x) else XR.fin x / (15.0 : XR)) = XR.fin (x / 15) := by
    rw [lonHours_fin, lonHours_real]
    cases q
    · show XR.fin x / (15.0 : XR) = _
      xr; norm_num
    · rfl
  unfold cellNe cellPy
  simp only [XR.f32_id]
  rw [hl]
  simp only [XR.f32_id, stdTime_fin, dayAngle_fin, cosLat_fin, sinLat_fin, decl_fin, eotHours_fin,
    lonHours_fin, haPy_fin, haNe_fin, ecf_fin, eotMinutes_fin, az0_fin, azWrapPy_fin, azWrapNe_fin,
    lonHours_real, ha_eq, azWrap_eq]

theorem dir {p d h : ℝ} (hd : 0 < cos d) : Dir p d h (zenR p d h) (aziR p d h) := by
  have := Psa.dir (p := p) (h := h) hd
  rw [Psa.cosz_real] at this
  exact this

end SW.Iqbal
