/-
The soltrack programs in exact arithmetic.
-/
import Verif.RPsa
import Verif.Soltrack

namespace SW.Soltrack
open Real

theorem tJD_fin (u : ℝ) : tJD (XR.fin u) = XR.fin (tJD u) := by unfold tJD; xrfl
theorem tJC_fin (u : ℝ) : tJC (XR.fin u) = XR.fin (tJC u) := by unfold tJC; xrfl
theorem l0_fin (c : ℝ) : l0 (XR.fin c) = XR.fin (l0 c) := rfl
theorem ma_fin (c : ℝ) : ma (XR.fin c) = XR.fin (ma c) := rfl
theorem sec_fin (c : ℝ) : sec (XR.fin c) = XR.fin (sec c) := rfl
theorem dpsi_fin (c : ℝ) : dpsi (XR.fin c) = XR.fin (dpsi c) := rfl
theorem ecc_fin (c : ℝ) : ecc (XR.fin c) = XR.fin (ecc c) := rfl
theorem obliquity_fin (c : ℝ) : obliquity (XR.fin c) = XR.fin (obliquity c) := rfl
theorem agst_fin (d : ℝ) : agst (XR.fin d) = XR.fin (agst d) := by
  unfold agst gmst
  rw [tJC_fin, dpsi_fin, obliquity_fin]; rfl

/-! ### bounds -/

theorem tJD_bound {t : ℤ} (h : InSec t) : |tJD (t : ℝ)| ≤ 117710 := Psa.jde_bound h
theorem tJC_bound {t : ℤ} (h : InSec t) : |tJC (tJD (t : ℝ))| ≤ 3.23 := Psa.jdc_bound h

theorem ecc_eq (c : ℝ) : ecc c = Psa.ecc c := by
  show 0.016708634 - 0.000042037 * c - 0.0000001267 * c ^ 2
    = 0.016708634 - 0.000042037 * c - 0.0000001267 * c * c
  ring

theorem R_real (c : ℝ) :
    R c = 1.0000010178 * (1.0 - ecc c ^ 2) / (1.0 + ecc c * cos (ma c + sec c)) := rfl

theorem R_bound {c : ℝ} (h : |c| ≤ 3.23) : 0.982 ≤ R c ∧ R c ≤ 1.018 := by
  rw [R_real, ecc_eq]
  exact (orbit_bounds (Psa.ecc_bound h).1 (Psa.ecc_bound h).2).2

theorem R_fin {c : ℝ} (h : |c| ≤ 3.23) : R (XR.fin c) = XR.fin (R c) := by
  have hp := (orbit_bounds (θ := ma c + sec c) (Psa.ecc_bound h).1 (Psa.ecc_bound h).2).1
  rw [← ecc_eq] at hp
  unfold R
  rw [ecc_fin, ma_fin, sec_fin]
  xr
  rw [XR.div_fin hp.ne']
  rfl

theorem R_ne {c : ℝ} (h : |c| ≤ 3.23) : R c ≠ 0 := by
  have hR := R_bound h
  intro h0; rw [h0] at hR; norm_num at hR

theorem ecf_fin {c : ℝ} (h : |c| ≤ 3.23) : ecf (XR.fin c) = XR.fin (ecf c) := by
  unfold ecf
  rw [R_fin h]
  xr
  rw [XR.div_fin (pow_ne_zero 2 (R_ne h))]
  rfl

theorem ecf_bound {c : ℝ} (h : |c| ≤ 3.23) : 0.96 ≤ ecf c ∧ ecf c ≤ 1.04 :=
  ecf_bounds (R_bound h).1 (R_bound h).2

theorem Lraw_fin {c : ℝ} (h : |c| ≤ 3.23) : Lraw (XR.fin c) = XR.fin (Lraw c) := by
  unfold Lraw
  rw [R_fin h, l0_fin, sec_fin, dpsi_fin]
  xr
  rw [XR.div_fin (R_ne h)]
  rfl

theorem LPy_fin {c : ℝ} (h : |c| ≤ 3.23) : LPy (XR.fin c) = XR.fin (LPy c) := by
  unfold LPy; rw [Lraw_fin h]; xrfl
theorem LNe_fin {c : ℝ} (h : |c| ≤ 3.23) : LNe (XR.fin c) = XR.fin (LNe c) := by
  unfold LNe; rw [Lraw_fin h]; xrfl

theorem LPy_turn (c : ℝ) : ∃ k : ℤ, LPy c = Lraw c + k * (2 * π) := by
  obtain ⟨k, hk⟩ := rpmod_eq (Lraw c) TWOPI
  refine ⟨-k, ?_⟩
  show rpmod (Lraw c) TWOPI = _
  rw [hk, TWOPI_real]; push_cast; ring
theorem LNe_turn (c : ℝ) : ∃ k : ℤ, LNe c = Lraw c + k * (2 * π) := by
  obtain ⟨k, hk⟩ := rcmod_eq (Lraw c) TWOPI
  refine ⟨-k, ?_⟩
  show rcmod (Lraw c) TWOPI = _
  rw [hk, TWOPI_real]; push_cast; ring

theorem sin_LPy (c : ℝ) : sin (LPy c) = sin (Lraw c) := by
  obtain ⟨k, hk⟩ := LPy_turn c; rw [hk, sin_add_int_mul_two_pi]
theorem cos_LPy (c : ℝ) : cos (LPy c) = cos (Lraw c) := by
  obtain ⟨k, hk⟩ := LPy_turn c; rw [hk, cos_add_int_mul_two_pi]
theorem sin_LNe (c : ℝ) : sin (LNe c) = sin (Lraw c) := by
  obtain ⟨k, hk⟩ := LNe_turn c; rw [hk, sin_add_int_mul_two_pi]
theorem cos_LNe (c : ℝ) : cos (LNe c) = cos (Lraw c) := by
  obtain ⟨k, hk⟩ := LNe_turn c; rw [hk, cos_add_int_mul_two_pi]

theorem ob_bound {c : ℝ} (h : |c| ≤ 3.23) : 0.408 ≤ obliquity c ∧ obliquity c ≤ 0.41 := by
  have h := abs_le.1 h
  have hc := abs_le.1 (abs_cos_le_one (omg c))
  show 0.408 ≤ (0.409092804222 - 2.26965525e-4 * c - 2.86e-9 * c ^ 2) + (4.4615e-5 * cos (omg c)) ∧
    (0.409092804222 - 2.26965525e-4 * c - 2.86e-9 * c ^ 2) + (4.4615e-5 * cos (omg c)) ≤ 0.41
  norm_num at *
  constructor <;> nlinarith [h.1, h.2, hc.1, hc.2]

theorem sinoPy_real {o : ℝ} (h0 : 0 ≤ o) (h1 : o ≤ π) : sinoPy o = sin o := by
  have e : sinoPy o = √(1 - cos o ^ 2) := by
    show √((1.0 : ℝ) - cos o ^ 2) = _; norm_num
  rw [e, ← sin_eq_sqrt_one_sub_cos_sq h0 h1]

theorem sinoPy_fin (o : ℝ) : sinoPy (XR.fin o) = XR.fin (sinoPy o) := by
  unfold sinoPy
  xr
  rw [XR.sqrt_fin]; rfl
  norm_num; exact abs_cos_le_one o
theorem sinoNe_fin (o : ℝ) : sinoNe (XR.fin o) = XR.fin (sinoNe o) := rfl

theorem raPy_fin (o l : ℝ) : raPy (XR.fin o) (XR.fin l) = XR.fin (raPy o l) := by unfold raPy; xrfl
theorem raNe_fin (o l : ℝ) : raNe (XR.fin o) (XR.fin l) = XR.fin (raNe o l) := by unfold raNe; xrfl

theorem decl_fin {s l : ℝ} (h : |s| ≤ 1) : decl (XR.fin s) (XR.fin l) = XR.fin (decl s l) := by
  unfold decl; xr
  rw [XR.arcsin_fin]; rfl
  rw [← abs_le, abs_mul]
  exact mul_le_one₀ h (abs_nonneg _) (abs_sin_le_one _)

theorem xdegPy_fin (a b c d : ℝ) : xdegPy (XR.fin a) (XR.fin b) (XR.fin c) (XR.fin d)
    = XR.fin (xdegPy a b c d) := by unfold xdegPy; xrfl
theorem xdegNe_fin (a b c d : ℝ) : xdegNe (XR.fin a) (XR.fin b) (XR.fin c) (XR.fin d)
    = XR.fin (xdegNe a b c d) := by unfold xdegNe; xrfl
theorem eot0Py_fin (x : ℝ) : eot0Py (XR.fin x) = XR.fin (eot0Py x) := by unfold eot0Py; xrfl
theorem eot0Ne_fin (x : ℝ) : eot0Ne (XR.fin x) = XR.fin (eot0Ne x) := by unfold eot0Ne; xrfl
theorem eot1_fin (x : ℝ) : eot1 (XR.fin x) = XR.fin (eot1 x) := by unfold eot1; xrfl
theorem eot2_fin (x : ℝ) : eot2 (XR.fin x) = XR.fin (eot2 x) := by unfold eot2; xrfl

theorem xdeg_eq (a b c d : ℝ) : xdegPy a b c d = xdegNe a b c d := rfl

/-- the reduced right ascensions are the arctan2 up to turns -/
theorem raPy_turn (o l : ℝ) : ∃ k : ℤ,
    raPy o l = ratan2 (cos o * sin l) (cos l) + k * (2 * π) := by
  obtain ⟨k, hk⟩ := rpmod_eq (ratan2 (cos o * sin l) (cos l)) TWOPI
  refine ⟨-k, ?_⟩
  show rpmod (ratan2 (cos o * sin l) (cos l)) TWOPI = _
  rw [hk, TWOPI_real]; push_cast; ring
theorem raNe_eq (o l : ℝ) : raNe o l = ratan2 (cos o * sin l) (cos l) := by
  show rcmod (ratan2 (cos o * sin l) (cos l)) TWOPI = _
  apply rcmod_of_lt TWOPI_pos
  have := ratan2_mem (cos o * sin l) (cos l)
  rw [TWOPI_real, abs_lt]; constructor <;> linarith [this.1, this.2, pi_pos]

/-- the right ascension, without reduction -/
noncomputable def raR (c : ℝ) : ℝ := ratan2 (cos (obliquity c) * sin (Lraw c)) (cos (Lraw c))

theorem raPy_LPy (c : ℝ) : ∃ k : ℤ, raPy (obliquity c) (LPy c) = raR c + k * (2 * π) := by
  obtain ⟨k, hk⟩ := raPy_turn (obliquity c) (LPy c)
  exact ⟨k, by rw [hk, sin_LPy, cos_LPy]; rfl⟩
theorem raNe_LNe (c : ℝ) : raNe (obliquity c) (LNe c) = raR c := by
  rw [raNe_eq, sin_LNe, cos_LNe]; rfl

theorem raR_near {c : ℝ} (h : |c| ≤ 3.23) : ∃ η : ℝ, ∃ k : ℤ, |η| ≤ 0.0495 ∧
    raR c = Lraw c + η + k * (2 * π) := by
  have he := ob_bound h
  have hc := Psa.cos_ep_bound (e := obliquity c) ⟨by norm_num at *; linarith, by norm_num at *; linarith⟩
  exact ra_near (l := Lraw c) hc.1 hc.2

theorem sec_bound {c : ℝ} (h : |c| ≤ 3.23) : |sec c| ≤ 0.0341 := by
  have e : sec c = (3.34161088e-2 - 8.40725e-5 * c - 2.443e-7 * c ^ 2) * sin (ma c)
    + (3.489437e-4 - 1.76278e-6 * c) * sin (2 * ma c) := rfl
  rw [e]
  have h' := abs_le.1 h
  refine (abs_add_le _ _).trans ?_
  have h1 : |(3.34161088e-2 - 8.40725e-5 * c - 2.443e-7 * c ^ 2) * sin (ma c)| ≤ 0.0337 := by
    refine (abs_mul_sin_le _ _).trans ?_
    rw [abs_le]; norm_num at *; constructor <;> nlinarith [h'.1, h'.2]
  have h2 : |(3.489437e-4 - 1.76278e-6 * c) * sin (2 * ma c)| ≤ 0.00036 := by
    refine (abs_mul_sin_le _ _).trans ?_
    rw [abs_le]; norm_num at *; constructor <;> nlinarith [h'.1, h'.2]
  norm_num at *; linarith

theorem dpsi_bound (c : ℝ) : |dpsi c| ≤ 0.0001 := by
  have : |(-8.338601e-5 : ℝ) * sin (omg c)| ≤ |(-8.338601e-5 : ℝ)| := abs_mul_sin_le _ _
  have h2 : |(-8.338601e-5 : ℝ)| ≤ 0.0001 := by rw [abs_le]; norm_num
  exact this.trans h2

/-- argument of the reduction of the equation of time, degrees -/
noncomputable def xr0 (c : ℝ) : ℝ :=
  -0.0057183 + (l0 c - raR c + dpsi c * cos (obliquity c)) * (180 / π)

theorem eot_small {c : ℝ} (h : |c| ≤ 3.23) : ∃ s : ℝ, ∃ k : ℤ, |s| ≤ 19.5 ∧
    4 * xr0 c = s + 1440 * k := by
  obtain ⟨η, k, h1, h2⟩ := raR_near h
  have hL : Lraw c = (l0 c + sec c) + (-9.93087e-5 / R c) + dpsi c := rfl
  set w := -sec c + 9.93087e-5 / R c - dpsi c * (1 - cos (obliquity c)) - η with hw
  refine ⟨4 * (-0.0057183 + w * (180 / π)), -k, ?_, ?_⟩
  · have hs := abs_le.1 (sec_bound h)
    have hR := R_bound h
    have hq : 9.93087e-5 / R c ≤ 0.00011 := by
      rw [div_le_iff₀ (by norm_num at *; linarith)]; norm_num at *; linarith
    have hq0 : 0 ≤ 9.93087e-5 / R c := div_nonneg (by norm_num) (by norm_num at *; linarith)
    have hd := abs_le.1 (dpsi_bound c)
    have ho := ob_bound h
    have hc := Psa.cos_ep_bound (e := obliquity c) ⟨by norm_num at *; linarith, by norm_num at *; linarith⟩
    have hη := abs_le.1 h1
    have hdc : |dpsi c * (1 - cos (obliquity c))| ≤ 0.00001 := by
      rw [abs_mul, abs_of_nonneg (a := 1 - _) (by linarith [hc.2])]
      have h3 := abs_nonneg (dpsi c)
      have h4 := dpsi_bound c
      norm_num at *; nlinarith [hc.1, hc.2]
    have hdc' := abs_le.1 hdc
    have hwb : |w| ≤ 0.0838 := by
      rw [hw, abs_le]; norm_num at *
      constructor <;> linarith [hs.1, hs.2, hη.1, hη.2, hdc'.1, hdc'.2]
    have hpi : 180 / π ≤ 57.4 := by
      rw [div_le_iff₀ pi_pos]; have := pi_gt_d4; norm_num at *; linarith
    have hpi0 : 0 < 180 / π := by positivity
    have : |w * (180 / π)| ≤ 0.0838 * 57.4 := by
      rw [abs_mul, abs_of_pos hpi0]
      exact mul_le_mul hwb hpi hpi0.le (by norm_num)
    have h5 := abs_le.1 this
    rw [abs_le]; norm_num at *; constructor <;> linarith [h5.1, h5.2]
  · unfold xr0
    rw [h2, hL, hw]; push_cast
    field_simp; ring

theorem eot0_args (c : ℝ) : ∃ k : ℤ,
    -0.0057183 + xdegPy (l0 c) (raPy (obliquity c) (LPy c)) (dpsi c) (obliquity c)
      = xr0 c + 360 * k := by
  obtain ⟨k, hk⟩ := raPy_LPy c
  refine ⟨-k, ?_⟩
  have e : xdegPy (l0 c) (raPy (obliquity c) (LPy c)) (dpsi c) (obliquity c)
    = (l0 c - raPy (obliquity c) (LPy c) + dpsi c * cos (obliquity c)) * (180 / π) := rfl
  rw [e, hk]; unfold xr0; push_cast; field_simp; ring

theorem eot0Ne_arg (c : ℝ) :
    -0.0057183 + xdegNe (l0 c) (raNe (obliquity c) (LNe c)) (dpsi c) (obliquity c) = xr0 c := by
  rw [raNe_LNe]; rfl

/-- both engines reduce the equation of time to the same small value -/
theorem eot_spec {c : ℝ} (h : |c| ≤ 3.23) : ∃ s : ℝ, |s| ≤ 19.5 ∧ (∃ k : ℤ, 4 * xr0 c = s + 1440 * k) ∧
    eot2 (eot1 (eot0Py (xdegPy (l0 c) (raPy (obliquity c) (LPy c)) (dpsi c) (obliquity c)))) = s ∧
    eot2 (eot1 (eot0Ne (xdegNe (l0 c) (raNe (obliquity c) (LNe c)) (dpsi c) (obliquity c)))) = s := by
  obtain ⟨s, k, hs, hk⟩ := eot_small h
  have hs' : |s| ≤ 20 := hs.trans (by norm_num)
  refine ⟨s, hs, ⟨k, hk⟩, ?_, ?_⟩
  · obtain ⟨m, hm⟩ := eot0_args c
    set x := -0.0057183 + xdegPy (l0 c) (raPy (obliquity c) (LPy c)) (dpsi c) (obliquity c) with hx
    have e0 : eot0Py (xdegPy (l0 c) (raPy (obliquity c) (LPy c)) (dpsi c) (obliquity c))
      = rpmod x 360 * 4 := rfl
    obtain ⟨n, hn⟩ := rpmod_eq x 360
    have hmem := rpmod_mem (x := x) (y := 360) (by norm_num)
    have h1 : rpmod x 360 * 4 = s + 1440 * ((k + m - n : ℤ) : ℝ) := by
      rw [hn, hm]; push_cast; linarith
    have h2 : |rpmod x 360 * 4| ≤ 1460 := by rw [abs_le]; constructor <;> linarith [hmem.1, hmem.2]
    have := eot_wrap_lt_gt hs' h1 h2
    rw [e0]; exact this
  · have e0 : eot0Ne (xdegNe (l0 c) (raNe (obliquity c) (LNe c)) (dpsi c) (obliquity c))
      = rcmod (xr0 c) 360 * 4 := by rw [← eot0Ne_arg]; rfl
    obtain ⟨n, hn⟩ := rcmod_eq (xr0 c) 360
    have hmem := rcmod_mem (x := xr0 c) (y := 360) (by norm_num)
    have h1 : rcmod (xr0 c) 360 * 4 = s + 1440 * ((k - n : ℤ) : ℝ) := by
      rw [hn]; push_cast; linarith
    have h2 : |rcmod (xr0 c) 360 * 4| ≤ 1460 := by rw [abs_le]; constructor <;> linarith [hmem.1, hmem.2]
    have := eot_wrap_lt_gt hs' h1 h2
    rw [e0]; exact this

/-! ### the time-dependent results -/

/-- declination of both engines -/
noncomputable def decR (c : ℝ) : ℝ := arcsin (sin (obliquity c) * sin (Lraw c))

theorem ob_mem {c : ℝ} (h : |c| ≤ 3.23) : 0 ≤ obliquity c ∧ obliquity c ≤ π / 2 := by
  have := ob_bound h; have := pi_gt_d2; norm_num at *; constructor <;> linarith

theorem declPy_eq {c : ℝ} (h : |c| ≤ 3.23) : decl (sinoPy (obliquity c)) (LPy c) = decR c := by
  have ho := ob_mem h
  rw [sinoPy_real ho.1 (by linarith [ho.2, pi_pos])]
  show arcsin (sin (obliquity c) * sin (LPy c)) = _
  rw [sin_LPy]; rfl
theorem declNe_eq (c : ℝ) : decl (sinoNe (obliquity c)) (LNe c) = decR c := by
  show arcsin (sin (obliquity c) * sin (LNe c)) = _
  rw [sin_LNe]; rfl

theorem decR_bound {c : ℝ} (h : |c| ≤ 3.23) : |decR c| ≤ 0.41 :=
  (Psa.arcsin_bound (ob_mem h)).trans (ob_bound h).2

theorem cos_decR {c : ℝ} (h : |c| ≤ 3.23) : 0 < cos (decR c) := by
  have := abs_le.1 (decR_bound h)
  have hp := pi_gt_d2
  apply cos_pos_of_mem_Ioo
  constructor <;> norm_num at * <;> linarith [this.1, this.2]

theorem timePy_fin {t : ℤ} (h : InSec t) : timePy (XR.fin (t : ℝ)) =
    ⟨XR.fin (timePy (t : ℝ)).agst, XR.fin (timePy (t : ℝ)).ra, XR.fin (timePy (t : ℝ)).decl,
      XR.fin (timePy (t : ℝ)).ecf, XR.fin (timePy (t : ℝ)).eot⟩ := by
  have hc := tJC_bound h
  have ho := ob_mem hc
  have hs : |sinoPy (obliquity (tJC (tJD (t : ℝ))))| ≤ 1 := by
    rw [sinoPy_real ho.1 (by linarith [ho.2, pi_pos])]; exact abs_sin_le_one _
  simp only [timePy, tJD_fin, tJC_fin, agst_fin, obliquity_fin, LPy_fin hc, raPy_fin, sinoPy_fin,
    decl_fin hs, ecf_fin hc, l0_fin, dpsi_fin, xdegPy_fin, eot0Py_fin, eot1_fin, eot2_fin]

theorem timeNe_fin {t : ℤ} (h : InSec t) : timeNe (XR.fin (t : ℝ)) =
    ⟨XR.fin (timeNe (t : ℝ)).agst, XR.fin (timeNe (t : ℝ)).ra, XR.fin (timeNe (t : ℝ)).decl,
      XR.fin (timeNe (t : ℝ)).ecf, XR.fin (timeNe (t : ℝ)).eot⟩ := by
  have hc := tJC_bound h
  have hs : |sinoNe (obliquity (tJC (tJD (t : ℝ))))| ≤ 1 := abs_sin_le_one _
  simp only [timeNe, tJD_fin, tJC_fin, agst_fin, obliquity_fin, LNe_fin hc, raNe_fin, sinoNe_fin,
    decl_fin hs, ecf_fin hc, l0_fin, dpsi_fin, xdegNe_fin, eot0Ne_fin, eot1_fin, eot2_fin]

/-! ### zenith and azimuth -/

theorem azimuth_fin (a b c d : ℝ) : azimuth (XR.fin a) (XR.fin b) (XR.fin c) (XR.fin d)
    = XR.fin (azimuth a b c d) := rfl
theorem rad32_fin (y : ℝ) : rad32 (XR.fin y) = XR.fin (rad32 y) := by unfold rad32; xrfl
theorem rad32_real (y : ℝ) : rad32 y = y * (π / 180) := rfl

theorem sqrt_one_sub_fin {s : ℝ} (h : |s| ≤ 1) :
    Num.sqrt ((1.0 : XR) - Num.npow (XR.fin s) 2) = XR.fin (√(1 - s ^ 2)) := by
  xr
  rw [XR.sqrt_fin]
  · norm_num
  · norm_num; exact h

theorem cos_eq_sqrt {x : ℝ} (h : 0 ≤ cos x) : √(1 - sin x ^ 2) = cos x := by
  rw [← cos_sq', sqrt_sq h]

/-- altitude after the parallax correction -/
noncomputable def altP (p d h : ℝ) : ℝ := parallax (arcsin (sin p * sin d + cos p * cos d * cos h))

theorem parallax_real (a : ℝ) : parallax a = a - 4.2635e-5 * cos a := rfl

theorem altP_eq (p d h : ℝ) : π / 2 - altP p d h
    = arccos (sin p * sin d + cos p * cos d * cos h)
      + 4.2635e-5 * sin (arccos (sin p * sin d + cos p * cos d * cos h)) := by
  unfold altP
  rw [parallax_real, arccos_eq_pi_div_two_sub_arcsin, sin_pi_div_two_sub]; ring

theorem zenith_fin (p d h : ℝ) (r : Bool) :
    zenith r (XR.fin (sin p * sin d + cos p * cos d * cos h))
      = HALFPI - withRefr r (XR.fin (altP p d h)) := by
  have hb := abs_le.1 (sphere_le_one p d h)
  unfold zenith
  rw [XR.arcsin_fin hb]
  rfl

/-- hour angle at longitude 0 -/
noncomputable def H0 (t : ℤ) : ℝ := agst (tJD (t : ℝ)) - raR (tJC (tJD (t : ℝ)))

/-- declination at an instant -/
noncomputable def decAt (t : ℤ) : ℝ := decR (tJC (tJD (t : ℝ)))

/-- equation of time at an instant, minutes -/
noncomputable def eotAt (t : ℤ) : ℝ := (timeNe (t : ℝ)).eot

theorem eot_eq {t : ℤ} (h : InSec t) : (timePy (t : ℝ)).eot = eotAt t ∧ |eotAt t| ≤ 19.5 := by
  obtain ⟨s, h1, -, h2, h3⟩ := eot_spec (tJC_bound h)
  have e1 : (timePy (t : ℝ)).eot = s := h2
  have e2 : (timeNe (t : ℝ)).eot = s := h3
  unfold eotAt
  rw [e1, e2]; exact ⟨rfl, h1⟩

/-- the azimuth formula -/
noncomputable def aziR (p d h : ℝ) : ℝ := ratan2 (sin h) (cos h * sin p - tan d * cos p)

theorem azimuth_eq (p d h : ℝ) : azimuth (sin p) (cos p) (tan d) h = aziR p d h := rfl

theorem aziR_turn (p d h : ℝ) (k : ℤ) : aziR p d (h + k * (2 * π)) = aziR p d h := by
  unfold aziR; rw [cos_add_int_mul_two_pi, sin_add_int_mul_two_pi]

/-- the results of the numexpr engine, in closed form -/
theorem cellNe_eq {t : ℤ} (ht : InSec t) (q : Bool) (x y : ℝ) (r : Bool) :
    cellNe q t (XR.fin x) (XR.fin y) r =
      ⟨HALFPI - withRefr r (XR.fin (altP (y * (π / 180)) (decAt t) (H0 t + x * (π / 180)))),
       XR.fin (aziR (y * (π / 180)) (decAt t) (H0 t + x * (π / 180))),
       XR.fin (ecf (tJC (tJD (t : ℝ)))), XR.fin (decAt t), XR.fin (eotAt t)⟩ := by
  have hc := tJC_bound ht
  have hd0 : 0 < cos (decAt t) := cos_decR hc
  have hd : (timeNe (t : ℝ)).decl = decAt t := declNe_eq _
  have hra : (timeNe (t : ℝ)).ra = raR (tJC (tJD (t : ℝ))) := raNe_LNe _
  have hH : (timeNe (t : ℝ)).agst - (timeNe (t : ℝ)).ra = H0 t := by rw [hra]; rfl
  have htan : (if q = true then XR.fin (sin (decAt t)) / XR.fin (cos (decAt t))
      else XR.fin (rtan (decAt t))) = XR.fin (tan (decAt t)) := by
    rw [XR.div_fin hd0.ne', rtan_of_cos_ne hd0.ne', tan_eq_sin_div_cos]; cases q <;> rfl
  unfold cellNe
  simp only [XR.f32_id, XR.ofInt_fin, timeNe_fin ht]
  rw [hd]
  xr
  rw [hH, htan, DEG2RAD_real, azimuth_fin, ← XR.HALFPI_fin, ← zenith_fin]
  rfl

/-- the numpy engine gives the same results -/
theorem cellPy_eq {t : ℤ} (ht : InSec t) (x y : ℝ) (hy : -90 ≤ y ∧ y ≤ 90) (r : Bool) :
    cellPy t (XR.fin x) (XR.fin y) r =
      ⟨HALFPI - withRefr r (XR.fin (altP (y * (π / 180)) (decAt t) (H0 t + x * (π / 180)))),
       XR.fin (aziR (y * (π / 180)) (decAt t) (H0 t + x * (π / 180))),
       XR.fin (ecf (tJC (tJD (t : ℝ)))), XR.fin (decAt t), XR.fin (eotAt t)⟩ := by
  have hc := tJC_bound ht
  have hd0 : 0 < cos (decAt t) := cos_decR hc
  have hd : (timePy (t : ℝ)).decl = decAt t := declPy_eq hc
  obtain ⟨k, hk⟩ := raPy_LPy (tJC (tJD (t : ℝ)))
  have hra : (timePy (t : ℝ)).ra = raR (tJC (tJD (t : ℝ))) + k * (2 * π) := hk
  have hH : (timePy (t : ℝ)).agst - (timePy (t : ℝ)).ra = H0 t + ((-k : ℤ) : ℝ) * (2 * π) := by
    rw [hra]; show agst (tJD (t : ℝ)) - _ = _; unfold H0; push_cast; ring
  have hlat : 0 ≤ cos (y * (π / 180)) := by
    apply cos_nonneg_of_neg_pi_div_two_le_of_le <;> nlinarith [pi_pos, hy.1, hy.2]
  have hcosdec : cosdecPy (XR.fin (sin (decAt t))) = XR.fin (cos (decAt t)) := by
    unfold cosdecPy
    rw [sqrt_one_sub_fin (abs_sin_le_one _), cos_eq_sqrt hd0.le]
  have hcoslat : coslatPy (XR.fin (y * (π / 180))) = XR.fin (cos (y * (π / 180))) := by
    unfold coslatPy sinlatPy
    simp only [XR.f32_id, XR.sin_fin]
    rw [sqrt_one_sub_fin (abs_sin_le_one _), cos_eq_sqrt hlat]
  have hsinlat : sinlatPy (XR.fin (y * (π / 180))) = XR.fin (sin (y * (π / 180))) := rfl
  have hcos : cos (H0 t + ((-k : ℤ) : ℝ) * (2 * π) + x * (π / 180)) = cos (H0 t + x * (π / 180)) := by
    rw [show H0 t + ((-k : ℤ) : ℝ) * (2 * π) + x * (π / 180)
      = (H0 t + x * (π / 180)) + ((-k : ℤ) : ℝ) * (2 * π) by ring, cos_add_int_mul_two_pi]
  have hsin : sin (H0 t + ((-k : ℤ) : ℝ) * (2 * π) + x * (π / 180)) = sin (H0 t + x * (π / 180)) := by
    rw [show H0 t + ((-k : ℤ) : ℝ) * (2 * π) + x * (π / 180)
      = (H0 t + x * (π / 180)) + ((-k : ℤ) : ℝ) * (2 * π) by ring, sin_add_int_mul_two_pi]
  unfold cellPy
  simp only [XR.f32_id, XR.ofInt_fin, timePy_fin ht, rad32_fin, rad32_real]
  rw [hd, hcoslat, hsinlat]
  xr
  rw [hcosdec, hH, XR.div_fin hd0.ne', ← tan_eq_sin_div_cos, azimuth_fin, (eot_eq ht).1]
  have e1 : azimuth (sin (y * (π / 180))) (cos (y * (π / 180))) (tan (decAt t))
      (H0 t + ((-k : ℤ) : ℝ) * (2 * π) + x * (π / 180))
      = aziR (y * (π / 180)) (decAt t) (H0 t + x * (π / 180)) := by
    rw [azimuth_eq]; unfold aziR; rw [hcos, hsin]
  rw [e1, ← XR.HALFPI_fin, ← zenith_fin, ← hcos]
  rfl

theorem zen_false (p d h : ℝ) : (HALFPI : XR) - withRefr false (XR.fin (altP p d h))
    = XR.fin (π / 2 - altP p d h) := by
  rw [XR.HALFPI_fin, HALFPI_real]; rfl

/-- geometric zenith angle plus parallax, and the azimuth -/
theorem dir {p d h : ℝ} (hd : 0 < cos d) :
    Dir p d h (arccos (sin p * sin d + cos p * cos d * cos h)) (aziR p d h) := by
  refine dir_of_atan2 (u := sin p * cos h - tan d * cos p) (v := sin h) hd rfl rfl ?_ ?_
  · unfold aziR
    rw [mul_comm (cos h), ratan2_cos]
  · unfold aziR
    rw [mul_comm (cos h), ratan2_sin]

end SW.Soltrack
