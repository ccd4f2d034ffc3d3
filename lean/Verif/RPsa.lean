/-
The psa programs in exact arithmetic: no NaN appears, and what the results are.
-/
import Verif.Refr
import Verif.Psa

namespace SW
open Real

theorem XR.whereLe_true {a b : ℝ} {c d : XR} (h : a ≤ b) :
    Num.whereLe (XR.fin a) (XR.fin b) c d = c := by
  show (if XR.cmp (· ≤ ·) (XR.fin a) (XR.fin b) = true then c else d) = c
  simp [XR.cmp, h]
theorem XR.whereLe_false {a b : ℝ} {c d : XR} (h : ¬ a ≤ b) :
    Num.whereLe (XR.fin a) (XR.fin b) c d = d := by
  show (if XR.cmp (· ≤ ·) (XR.fin a) (XR.fin b) = true then c else d) = d
  simp only [XR.cmp, h, decide_false, Bool.false_eq_true, if_false]

/-- whole seconds of a `datetime64[ns]` -/
def InSec (t : ℤ) : Prop := |t| ≤ 9223372037

theorem InSec.real {t : ℤ} (h : InSec t) : |(t : ℝ)| ≤ 9223372037 := by
  have : |t| ≤ 9223372037 := h
  exact_mod_cast this

namespace Psa

theorem jde_fin (u : ℝ) : jde (XR.fin u) = XR.fin (jde u) := by unfold jde; xrfl
theorem decimalHourPy_fin (u : ℝ) : decimalHourPy (XR.fin u) = XR.fin (decimalHourPy u) := by
  unfold decimalHourPy; xrfl
theorem decimalHourNe_fin (u : ℝ) : decimalHourNe (XR.fin u) = XR.fin (decimalHourNe u) := by
  unfold decimalHourNe; xrfl
theorem ep_fin (j : ℝ) : ep (XR.fin j) = XR.fin (ep j) := rfl
theorem eclon_fin (j : ℝ) : eclon (XR.fin j) = XR.fin (eclon j) := rfl
theorem L_fin (j : ℝ) : L (XR.fin j) = XR.fin (L j) := rfl
theorem ra_fin (e l : ℝ) : ra (XR.fin e) (XR.fin l) = XR.fin (ra e l) := by
  unfold ra ra0; xrfl
theorem delta_fin (e l : ℝ) : delta (XR.fin e) (XR.fin l) = XR.fin (delta e l) := by
  unfold delta; xr
  rw [XR.arcsin_fin]; rfl
  rw [← abs_le, abs_mul]
  exact mul_le_one₀ (abs_sin_le_one _) (abs_nonneg _) (abs_sin_le_one _)
theorem gmst_fin (j h : ℝ) : gmst (XR.fin j) (XR.fin h) = XR.fin (gmst j h) := rfl
theorem jdc_fin (j : ℝ) : jdc (XR.fin j) = XR.fin (jdc j) := by unfold jdc; xrfl
theorem ecc_fin (j : ℝ) : ecc (XR.fin j) = XR.fin (ecc j) := rfl
theorem ma_fin (j : ℝ) : ma (XR.fin j) = XR.fin (ma j) := rfl
theorem sec_fin (j : ℝ) : sec (XR.fin j) = XR.fin (sec j) := rfl
theorem dX_fin (j : ℝ) : dX (XR.fin j) = XR.fin (dX j) := by unfold dX; xrfl
theorem Lred_fin (l : ℝ) : Lred (XR.fin l) = XR.fin (Lred l) := by
  unfold Lred; rw [dX_fin]; xrfl
theorem eot0Py_fin (l a : ℝ) : eot0Py (XR.fin l) (XR.fin a) = XR.fin (eot0Py l a) := by
  unfold eot0Py; rw [Lred_fin]; xrfl
theorem eot0Ne_fin (l a : ℝ) : eot0Ne (XR.fin l) (XR.fin a) = XR.fin (eot0Ne l a) := by
  unfold eot0Ne; rw [Lred_fin]; xrfl
theorem eot1_fin (x : ℝ) : eot1 (XR.fin x) = XR.fin (eot1 x) := by unfold eot1; xrfl
theorem eot2_fin (x : ℝ) : eot2 (XR.fin x) = XR.fin (eot2 x) := by unfold eot2; xrfl

/-! ### bounds of the time-dependent quantities -/

theorem jde_bound {t : ℤ} (h : InSec t) : |jde (t : ℝ)| ≤ 117710 := by
  have h := abs_le.1 h.real
  show |(t : ℝ) / 86400 - 10957.5| ≤ _
  rw [abs_le]; norm_num; constructor <;> linarith [h.1, h.2]

theorem jdc_bound {t : ℤ} (h : InSec t) : |jdc (jde (t : ℝ))| ≤ 3.23 := by
  have h := jde_bound h
  show |jde (t : ℝ) / 36525.0| ≤ _
  rw [abs_div, abs_of_pos (by norm_num : (0:ℝ) < 36525.0), div_le_iff₀ (by norm_num)]
  norm_num at *; linarith

theorem ecc_bound {c : ℝ} (h : |c| ≤ 3.23) : 0.016 ≤ ecc c ∧ ecc c ≤ 0.0171 := by
  have h := abs_le.1 h
  show 0.016 ≤ 0.016708634 - 0.000042037 * c - 0.0000001267 * c * c ∧
    0.016708634 - 0.000042037 * c - 0.0000001267 * c * c ≤ 0.0171
  norm_num at *
  constructor <;> nlinarith [h.1, h.2]

theorem R_real (c : ℝ) :
    R c = 1.0000010178 * (1.0 - ecc c ^ 2) / (1.0 + ecc c * cos (ma c + sec c)) := rfl

theorem R_bound {c : ℝ} (h : |c| ≤ 3.23) : 0.982 ≤ R c ∧ R c ≤ 1.018 := by
  rw [R_real]
  exact (orbit_bounds (ecc_bound h).1 (ecc_bound h).2).2

theorem R_fin {c : ℝ} (h : |c| ≤ 3.23) : R (XR.fin c) = XR.fin (R c) := by
  have hp := (orbit_bounds (θ := ma c + sec c) (ecc_bound h).1 (ecc_bound h).2).1
  unfold R
  rw [ecc_fin, ma_fin, sec_fin]
  xr
  rw [XR.div_fin hp.ne']
  rfl

theorem ecf_fin {c : ℝ} (h : |c| ≤ 3.23) : ecf (XR.fin c) = XR.fin (ecf c) := by
  have hR := R_bound h
  have : R c ≠ 0 := by intro h0; rw [h0] at hR; norm_num at hR
  unfold ecf
  rw [R_fin h]
  xr
  rw [XR.div_fin (pow_ne_zero 2 this)]
  rfl

theorem ecf_bound {c : ℝ} (h : |c| ≤ 3.23) : 0.96 ≤ ecf c ∧ ecf c ≤ 1.04 := by
  have := ecf_bounds (R_bound h).1 (R_bound h).2
  show 0.96 ≤ 1.0 / R c ^ 2 ∧ 1.0 / R c ^ 2 ≤ 1.04
  norm_num at *; exact this

theorem ep_bound {j : ℝ} (h : |j| ≤ 117710) : 0.408 ≤ ep j ∧ ep j ≤ 0.41 := by
  have h := abs_le.1 h
  have hc := abs_le.1 (abs_cos_le_one (omega j))
  show 0.408 ≤ 4.090904909e-1 - 6.213605399e-9 * j + 4.418094944e-5 * cos (omega j) ∧
    4.090904909e-1 - 6.213605399e-9 * j + 4.418094944e-5 * cos (omega j) ≤ 0.41
  norm_num at *
  constructor <;> nlinarith [h.1, h.2, hc.1, hc.2]

theorem cos_ep_bound {e : ℝ} (h : 0 ≤ e ∧ e ≤ 0.4154) : 0.91 ≤ cos e ∧ cos e ≤ 1 := by
  refine ⟨?_, cos_le_one _⟩
  have := one_sub_sq_div_two_le_cos (x := e)
  norm_num at *; nlinarith [h.1, h.2]

/-- the declination is at most the obliquity -/
theorem arcsin_bound {e l : ℝ} (h : 0 ≤ e ∧ e ≤ π / 2) : |arcsin (sin e * sin l)| ≤ e := by
  have hs : 0 ≤ sin e := sin_nonneg_of_nonneg_of_le_pi h.1 (by linarith [h.2, pi_pos])
  have hl := abs_le.1 (abs_sin_le_one l)
  have e1 : arcsin (sin e) = e := arcsin_sin (by linarith [h.1, pi_pos]) h.2
  rw [abs_le]
  constructor
  · have : arcsin (-sin e) ≤ arcsin (sin e * sin l) := by
      apply monotone_arcsin; nlinarith [hl.1]
    rwa [arcsin_neg, e1] at this
  · conv_rhs => rw [← e1]
    apply monotone_arcsin; nlinarith [hl.2]

theorem delta_real (e l : ℝ) : delta e l = arcsin (sin e * sin l) := rfl

theorem delta_bound {j : ℝ} (h : |j| ≤ 117710) : |delta (ep j) (eclon j)| ≤ 0.41 := by
  have he := ep_bound h
  rw [delta_real]
  refine (arcsin_bound ⟨?_, ?_⟩).trans he.2
  · norm_num at *; linarith
  · have := pi_gt_d2; norm_num at *; linarith

theorem ra_real (e l : ℝ) : ra e l = if ratan2 (cos e * sin l) (cos l) < 0
    then ratan2 (cos e * sin l) (cos l) + 2 * π else ratan2 (cos e * sin l) (cos l) := by
  show (if ratan2 (cos e * sin l) (cos l) < 0.0
    then ratan2 (cos e * sin l) (cos l) + TWOPI else ratan2 (cos e * sin l) (cos l)) = _
  rw [TWOPI_real]; norm_num

theorem ra_mem (e l : ℝ) : 0 ≤ ra e l ∧ ra e l < 2 * π := by
  rw [ra_real]
  have h := ratan2_mem (cos e * sin l) (cos l)
  split_ifs <;> constructor <;> linarith [pi_pos, h.1, h.2]

theorem ra_near' {j : ℝ} (h : |j| ≤ 117710) : ∃ η : ℝ, ∃ k : ℤ, |η| ≤ 0.0495 ∧
    ra (ep j) (eclon j) = eclon j + η + k * (2 * π) := by
  have he := ep_bound h
  have hc := cos_ep_bound (e := ep j) ⟨by norm_num at *; linarith, by norm_num at *; linarith⟩
  obtain ⟨η, k, h1, h2⟩ := ra_near (l := eclon j) hc.1 hc.2
  rw [ra_real, h2]
  split_ifs
  · exact ⟨η, k + 1, h1, by push_cast; ring⟩
  · exact ⟨η, k, h1, rfl⟩

theorem eclon_near (j : ℝ) : |eclon j - L j| ≤ 0.0339 := by
  have e : eclon j - L j = -1.544353226e-4 + 3.338320972e-2 * sin (g j)
    + 3.497596876e-4 * sin (2 * g j) - 8.689729360e-6 * sin (omega j) := by
    show L j - 1.544353226e-4 + 3.338320972e-2 * sin (g j)
      + 3.497596876e-4 * sin (2 * g j) - 8.689729360e-6 * sin (omega j) - L j = _
    ring
  rw [e]
  have h1 := abs_le.1 (abs_sin_le_one (g j))
  have h2 := abs_le.1 (abs_sin_le_one (2 * g j))
  have h3 := abs_le.1 (abs_sin_le_one (omega j))
  rw [abs_le]; norm_num at *
  constructor <;> linarith [h1.1, h1.2, h2.1, h2.2, h3.1, h3.2]

theorem dX_real (l : ℝ) : dX l = (⌊|l| / (2 * π)⌋ : ℤ) := by
  show ((rtrunc (|l| / TWOPI) : ℤ) : ℝ) = _
  rw [rtrunc_nonneg (div_nonneg (abs_nonneg _) TWOPI_pos.le), TWOPI_real]

theorem Lred_spec (l : ℝ) : (∃ k : ℤ, Lred l = l + k * (2 * π)) ∧ 0 ≤ Lred l ∧ Lred l ≤ 2 * π := by
  have e : Lred l = l + 2 * π * (if l < 0 then 1 + dX l else -dX l) := by
    show l + TWOPI * (if l < 0.0 then (1.0 : ℝ) + dX l else -dX l) = _
    rw [TWOPI_real]; norm_num
  rw [e, dX_real]
  have hp : 0 < 2 * π := by positivity
  have h1 := Int.floor_le (|l| / (2 * π))
  have h2 := Int.lt_floor_add_one (|l| / (2 * π))
  rw [le_div_iff₀ hp] at h1
  rw [div_lt_iff₀ hp] at h2
  split_ifs with h
  · rw [abs_of_neg h] at h1 h2 ⊢
    exact ⟨⟨1 + ⌊-l / (2 * π)⌋, by push_cast; ring⟩, by nlinarith, by nlinarith⟩
  · rw [abs_of_nonneg (not_lt.1 h)] at h1 h2 ⊢
    exact ⟨⟨-⌊l / (2 * π)⌋, by push_cast; ring⟩, by nlinarith, by nlinarith⟩

theorem eot0Py_eq (l a : ℝ) : eot0Py l a = eot0Ne l a := by
  show 4.0 * ((Lred l - a) * (180 / π)) = 4 * (Lred l - a) * (180 / π)
  norm_num; ring

/-- the equation of time is the (small) difference of mean longitude and right ascension, in
minutes -/
theorem eot_spec {j : ℝ} (h : |j| ≤ 117710) : ∃ s : ℝ, ∃ k : ℤ, |s| ≤ 0.0834 ∧
    L j - ra (ep j) (eclon j) = s + k * (2 * π) ∧
    eot2 (eot1 (eot0Ne (L j) (ra (ep j) (eclon j)))) = 4 * (s * (180 / π)) := by
  obtain ⟨η, k, h1, h2⟩ := ra_near' h
  obtain ⟨⟨m, h3⟩, h4, h5⟩ := Lred_spec (L j)
  have h6 := ra_mem (ep j) (eclon j)
  have h7 := eclon_near j
  refine ⟨L j - eclon j - η, -k, ?_, by rw [h2]; push_cast; ring, ?_⟩
  · rw [abs_le] at *; norm_num at *; constructor <;> linarith [h7.1, h7.2, h1.1, h1.2]
  · set x := eot0Ne (L j) (ra (ep j) (eclon j)) with hx
    have hx' : x = 4 * (Lred (L j) - ra (ep j) (eclon j)) * (180 / π) := rfl
    have hs : |4 * ((L j - eclon j - η) * (180 / π))| ≤ 20 := by
      have hb : |L j - eclon j - η| ≤ 0.0834 := by
        rw [abs_le] at *; norm_num at *; constructor <;> linarith [h7.1, h7.2, h1.1, h1.2]
      rw [abs_mul, abs_mul, abs_of_pos (by positivity : (0:ℝ) < 180 / π),
        abs_of_pos (by norm_num : (0:ℝ) < 4)]
      have : 180 / π ≤ 58 := by
        rw [div_le_iff₀ pi_pos]; have := pi_gt_d2; norm_num at *; linarith
      norm_num at *
      have h0 := abs_nonneg (L j - eclon j - η)
      nlinarith [pi_pos, div_pos (by norm_num : (0:ℝ) < 180) pi_pos]
    have hr : |x| ≤ 1460 := by
      have hd : |Lred (L j) - ra (ep j) (eclon j)| ≤ 2 * π := by
        rw [abs_le]; constructor <;> linarith [h6.1, h6.2]
      rw [hx', abs_mul, abs_mul, abs_of_pos (by positivity : (0:ℝ) < 180 / π),
        abs_of_pos (by norm_num : (0:ℝ) < 4)]
      have : 4 * |Lred (L j) - ra (ep j) (eclon j)| * (180 / π) ≤ 4 * (2 * π) * (180 / π) := by
        gcongr
      have e : 4 * (2 * π) * (180 / π) = 1440 := by field_simp; norm_num
      linarith
    have hk : x = 4 * ((L j - eclon j - η) * (180 / π)) + 1440 * ((m - k : ℤ) : ℝ) := by
      rw [hx', h3, h2]; push_cast; field_simp; ring
    have := eot_wrap_gt_lt hs hk hr
    exact this

theorem timeNe_fin {t : ℤ} (h : InSec t) : timeNe (XR.fin (t : ℝ)) =
    ⟨XR.fin (timeNe (t : ℝ)).gmst, XR.fin (timeNe (t : ℝ)).ra, XR.fin (timeNe (t : ℝ)).delta,
      XR.fin (timeNe (t : ℝ)).ecf, XR.fin (timeNe (t : ℝ)).eot⟩ := by
  simp only [timeNe, jde_fin, decimalHourNe_fin, ep_fin, eclon_fin, L_fin, ra_fin, delta_fin, gmst_fin,
    jdc_fin, eot0Ne_fin, eot1_fin, eot2_fin, ecf_fin (jdc_bound h)]

theorem timePy_fin {t : ℤ} (h : InSec t) : timePy (XR.fin (t : ℝ)) =
    ⟨XR.fin (timePy (t : ℝ)).gmst, XR.fin (timePy (t : ℝ)).ra, XR.fin (timePy (t : ℝ)).delta,
      XR.fin (timePy (t : ℝ)).ecf, XR.fin (timePy (t : ℝ)).eot⟩ := by
  simp only [timePy, jde_fin, decimalHourPy_fin, ep_fin, eclon_fin, L_fin, ra_fin, delta_fin, gmst_fin,
    jdc_fin, eot0Py_fin, eot1_fin, eot2_fin, ecf_fin (jdc_bound h)]

/-! ### zenith and azimuth -/

theorem hourAnglePy_fin (g x a : ℝ) :
    hourAnglePy (XR.fin g) (XR.fin x) (XR.fin a) = XR.fin (hourAnglePy g x a) := by
  unfold hourAnglePy; xrfl
theorem hourAngleNe_fin (g x a : ℝ) :
    hourAngleNe (XR.fin g) (XR.fin x) (XR.fin a) = XR.fin (hourAngleNe g x a) := by
  unfold hourAngleNe; xrfl
theorem coslatPy_fin (y : ℝ) : coslatPy (XR.fin y) = XR.fin (coslatPy y) := by
  unfold coslatPy; xrfl
theorem sinlatPy_fin (y : ℝ) : sinlatPy (XR.fin y) = XR.fin (sinlatPy y) := by
  unfold sinlatPy; xrfl
theorem coslatNe_fin (y : ℝ) : coslatNe (XR.fin y) = XR.fin (coslatNe y) := by
  unfold coslatNe; xrfl
theorem sinlatNe_fin (y : ℝ) : sinlatNe (XR.fin y) = XR.fin (sinlatNe y) := by
  unfold sinlatNe; xrfl
theorem az0_fin (a b c d : ℝ) :
    az0 (XR.fin a) (XR.fin b) (XR.fin c) (XR.fin d) = XR.fin (az0 a b c d) := rfl
theorem azWrap_fin (a : ℝ) : azWrap (XR.fin a) = XR.fin (azWrap a) := by unfold azWrap; xrfl

/-- latitude in radians, as both engines compute it in exact arithmetic -/
noncomputable def phi (y : ℝ) : ℝ := y * (π / 180)

theorem coslatPy_real (y : ℝ) : coslatPy y = cos (phi y) := rfl
theorem sinlatPy_real (y : ℝ) : sinlatPy y = sin (phi y) := rfl
theorem coslatNe_real (y : ℝ) : coslatNe y = cos (phi y) := rfl
theorem sinlatNe_real (y : ℝ) : sinlatNe y = sin (phi y) := rfl

theorem cosz_real (p h d : ℝ) : cosz (cos p) (sin p) h d
    = sin p * sin d + cos p * cos d * cos h := by
  show cos p * cos h * cos d + sin d * sin p = _
  ring

theorem cosz_mem (p h d : ℝ) : |cosz (cos p) (sin p) h d| ≤ 1 := by
  rw [cosz_real]; exact sphere_le_one p d h

theorem zen0Ne_fin (p h d : ℝ) :
    zen0Ne (XR.fin (cos p)) (XR.fin (sin p)) (XR.fin h) (XR.fin d)
      = XR.fin (zen0Ne (cos p) (sin p) h d) := by
  have hb := abs_le.1 (cosz_mem p h d)
  have hc : cosz (XR.fin (cos p)) (XR.fin (sin p)) (XR.fin h) (XR.fin d)
    = XR.fin (cosz (cos p) (sin p) h d) := rfl
  unfold zen0Ne
  rw [hc, XR.arccos_fin hb]
  rfl

theorem zen0Py_fin (p h d : ℝ) :
    zen0Py (XR.fin (cos p)) (XR.fin (sin p)) (XR.fin h) (XR.fin d)
      = XR.fin (zen0Py (cos p) (sin p) h d) := by
  have hb := abs_le.1 (rround6_mem (cosz_mem p h d))
  have hc : Num.round6 (cosz (XR.fin (cos p)) (XR.fin (sin p)) (XR.fin h) (XR.fin d))
    = XR.fin (rround6 (cosz (cos p) (sin p) h d)) := rfl
  unfold zen0Py
  rw [hc, XR.arccos_fin hb]
  rfl

theorem parallax_real (z : ℝ) : parallax z = z + 0.000042587565907513806 * sin z := rfl

theorem zen0Ne_mem (p h d : ℝ) :
    0 ≤ zen0Ne (cos p) (sin p) h d ∧ zen0Ne (cos p) (sin p) h d ≤ π := by
  have := parallax_mem (z := arccos (cosz (cos p) (sin p) h d)) (k := 0.000042587565907513806)
    (arccos_nonneg _) (arccos_le_pi _) (by norm_num) (by norm_num)
  exact ⟨this.1, this.2.1⟩

theorem zen0Py_mem (p h d : ℝ) :
    0 ≤ zen0Py (cos p) (sin p) h d ∧ zen0Py (cos p) (sin p) h d ≤ π := by
  have := parallax_mem (z := arccos (rround6 (cosz (cos p) (sin p) h d)))
    (k := 0.000042587565907513806) (arccos_nonneg _) (arccos_le_pi _) (by norm_num) (by norm_num)
  exact ⟨this.1, this.2.1⟩

theorem refrCorr_real (e : ℝ) : refrCorr e = Refr.corr 1.7802e-2 e := by
  show 1 * 1.7802e-2 / (60 * rtan (e + 3.1376e-3 / (e + 8.9186e-2))) = _
  unfold Refr.corr Refr.arg; rw [one_mul]

theorem refrCorr_fin {e : ℝ} (h : Refr.Dom e) : refrCorr (XR.fin e) = XR.fin (refrCorr e) := by
  have h1 := h.den
  have h2 : e + 8.9186e-2 ≠ 0 := by intro h0; rw [h0] at h1; norm_num at h1
  have h3 := Refr.rtan_ne h
  unfold Refr.arg at h3
  unfold refrCorr
  xr
  rw [XR.div_fin h2]
  xr
  rw [XR.div_fin (mul_ne_zero (by norm_num) h3)]
  rfl

theorem refract_real (z : ℝ) : refract z = π / 2 -
    (if -1.4545e-2 ≤ π / 2 - z then (π / 2 - z) + Refr.corr 1.7802e-2 (π / 2 - z) else π / 2 - z) := by
  rw [← refrCorr_real]
  show HALFPI - (if (-1.4545e-2 : ℝ) ≤ HALFPI - z then (HALFPI - z) + refrCorr (HALFPI - z)
    else HALFPI - z) = _
  rw [HALFPI_real]

theorem refract_fin {z : ℝ} (h0 : 0 ≤ z) : refract (XR.fin z) = XR.fin (refract z) := by
  unfold refract
  xr
  by_cases h : (-1.4545e-2 : ℝ) ≤ HALFPI - z
  · rw [XR.whereLe_true h, refrCorr_fin ⟨h, by rw [HALFPI_real]; linarith⟩]
    rw [whereLe_real, if_pos h]; rfl
  · rw [XR.whereLe_false h, whereLe_real, if_neg h]; rfl

theorem refract_mem {z : ℝ} (h0 : 0 ≤ z) (h1 : z ≤ π) : 0 ≤ refract z ∧ refract z ≤ π := by
  rw [refract_real]
  split_ifs with h
  · have hd : Refr.Dom (π / 2 - z) := ⟨h, by linarith⟩
    have a := Refr.refr_le (κ := 1.7802e-2) (by norm_num) (by norm_num) hd
    have b := (Refr.corr_bounds (κ := 1.7802e-2) (by norm_num) (by norm_num) hd).1
    have := pi_gt_d2
    constructor
    · linarith
    · norm_num at *; linarith
  · constructor <;> linarith

theorem withRefr_fin {z : ℝ} (h0 : 0 ≤ z) (r : Bool) :
    withRefr r (XR.fin z) = XR.fin (withRefr r z) := by
  cases r
  · rfl
  · exact refract_fin h0

theorem withRefr_mem {z : ℝ} (h0 : 0 ≤ z) (h1 : z ≤ π) (r : Bool) :
    0 ≤ withRefr r z ∧ withRefr r z ≤ π := by
  cases r
  · exact ⟨h0, h1⟩
  · exact refract_mem h0 h1

/-- no NaN in the numexpr engine -/
theorem cellNe_fin {t : ℤ} (h : InSec t) (x y : ℝ) (r : Bool) :
    cellNe t (XR.fin x) (XR.fin y) r = (cellNe t x y r).fin := by
  unfold cellNe
  simp only [XR.f32_id, XR.ofInt_fin, timeNe_fin h, zenithNe, azimuthNe, coslatNe_fin, sinlatNe_fin,
    hourAngleNe_fin, az0_fin, azWrap_fin]
  rw [coslatNe_real, sinlatNe_real, zen0Ne_fin, withRefr_fin (zen0Ne_mem _ _ _).1]
  rfl

/-- no NaN in the numpy engine -/
theorem cellPy_fin {t : ℤ} (h : InSec t) (x y : ℝ) (r : Bool) :
    cellPy t (XR.fin x) (XR.fin y) r = (cellPy t x y r).fin := by
  unfold cellPy
  simp only [XR.f32_id, XR.ofInt_fin, timePy_fin h, zenithPy, azimuthPy, coslatPy_fin, sinlatPy_fin,
    hourAnglePy_fin, az0_fin, azWrap_fin]
  rw [coslatPy_real, sinlatPy_real, zen0Py_fin, withRefr_fin (zen0Py_mem _ _ _).1]
  rfl

/-! ### direction -/

theorem azWrap_real (a : ℝ) : azWrap a = if a < 0 then a + π else a - π := by
  show (if a < (0.0 : ℝ) then a + π else a - π) = _
  norm_num

theorem az0_real (p h d : ℝ) : az0 (cos p) (sin p) h d
    = ratan2 (-sin h) (rtan d * cos p - sin p * cos h) := rfl

theorem azWrap_mem (p h d : ℝ) : -π ≤ azWrap (az0 (cos p) (sin p) h d) ∧
    azWrap (az0 (cos p) (sin p) h d) < π := by
  rw [azWrap_real]
  exact azwrap_mem (ratan2_mem _ _).1 (ratan2_mem _ _).2

/-- sign of the azimuth -/
theorem azWrap_sign (p h d : ℝ) :
    (sin h < 0 ↔ -π < azWrap (az0 (cos p) (sin p) h d) ∧ azWrap (az0 (cos p) (sin p) h d) < 0) ∧
    (0 < sin h ↔ 0 < azWrap (az0 (cos p) (sin p) h d) ∧ azWrap (az0 (cos p) (sin p) h d) < π) ∧
    (sin h = 0 ↔ azWrap (az0 (cos p) (sin p) h d) = 0 ∨ azWrap (az0 (cos p) (sin p) h d) = -π) := by
  have hs := ratan2_sign (-sin h) (rtan d * cos p - sin p * cos h)
  have hm := ratan2_mem (-sin h) (rtan d * cos p - sin p * cos h)
  rw [azWrap_real, az0_real]
  set a := ratan2 (-sin h) (rtan d * cos p - sin p * cos h)
  obtain ⟨h1, h2, h3⟩ := hs
  have g1 : sin h < 0 ↔ 0 < a ∧ a < π := by rw [← h2]; constructor <;> intro h <;> linarith
  have g2 : 0 < sin h ↔ -π < a ∧ a < 0 := by rw [← h1]; constructor <;> intro h <;> linarith
  have g3 : sin h = 0 ↔ a = 0 ∨ a = π := by rw [← h3, neg_eq_zero]
  have hp := pi_pos
  rw [g1, g2, g3]
  split_ifs with h0
  · refine ⟨⟨fun h => ⟨by linarith [h.1], by linarith [h.1]⟩, fun h => ⟨by linarith [h.1, hm.1], by linarith⟩⟩,
      ⟨fun h => ⟨by linarith [h.1], by linarith⟩, fun h => ⟨hm.1, h0⟩⟩,
      ⟨fun h => ?_, fun h => ?_⟩⟩
    · rcases h with h | h <;> linarith
    · rcases h with h | h <;> linarith [hm.1]
  · have h0' := not_lt.1 h0
    refine ⟨⟨fun h => ⟨by linarith [h.1], by linarith [h.2]⟩, fun h => ⟨by linarith [h.1], by linarith [h.2]⟩⟩,
      ⟨fun h => absurd h.2 h0, fun h => ?_⟩,
      ⟨fun h => ?_, fun h => ?_⟩⟩
    · linarith [hm.2, h.1]
    · rcases h with h | h
      · right; linarith
      · left; linarith
    · rcases h with h | h
      · right; linarith
      · left; linarith

theorem dir {p h d : ℝ} (hd : 0 < cos d) :
    Dir p d h (arccos (cosz (cos p) (sin p) h d)) (azWrap (az0 (cos p) (sin p) h d)) := by
  rw [cosz_real]
  have ht : rtan d = tan d := by rw [rtan_of_cos_ne hd.ne', tan_eq_sin_div_cos]
  have e : (sin p * cos h - tan d * cos p) ^ 2 + sin h ^ 2
      = (rtan d * cos p - sin p * cos h) ^ 2 + (-sin h) ^ 2 := by rw [ht]; ring
  refine dir_of_atan2 (u := sin p * cos h - tan d * cos p) (v := sin h) hd rfl rfl ?_ ?_
  · rw [azWrap_real, azwrap_cos, e, az0_real, mul_neg, ratan2_cos, ht]; ring
  · rw [azWrap_real, azwrap_sin, e, az0_real, mul_neg, ratan2_sin]; ring

/-! ### the two engines -/

theorem decimalHour_turn (u : ℝ) : ∃ k : ℤ, decimalHourPy u = decimalHourNe u + 24 * k := by
  obtain ⟨a, ha⟩ := rpmod_eq (u / 86400) 1
  obtain ⟨b, hb⟩ := rcmod_eq (u / 86400) 1
  refine ⟨b - a, ?_⟩
  show rpmod (u / 86400) 1 * 24 = rcmod (u / 86400) 1 * 24 + _
  rw [ha, hb]; push_cast; ring

theorem hourAngle_turn (u x a : ℝ) : ∃ k : ℤ,
    hourAnglePy (gmst (jde u) (decimalHourPy u)) x a
      = hourAngleNe (gmst (jde u) (decimalHourNe u)) x a + k * (2 * π) := by
  obtain ⟨k, hk⟩ := decimalHour_turn u
  refine ⟨k, ?_⟩
  show ((6.697096103 + 6.570984737e-2 * jde u + decimalHourPy u) * 15 + x) * (π / 180) - a
    = ((6.697096103 + 6.570984737e-2 * jde u + decimalHourNe u) * 15 + x) * (π / 180) - a + _
  rw [hk]; ring

/-- the hour angle of the two engines -/
noncomputable def haPy (t : ℤ) (x : ℝ) : ℝ := hourAnglePy (timePy (t : ℝ)).gmst x (timePy (t : ℝ)).ra
noncomputable def haNe (t : ℤ) (x : ℝ) : ℝ := hourAngleNe (timeNe (t : ℝ)).gmst x (timeNe (t : ℝ)).ra

theorem ha_turn (t : ℤ) (x : ℝ) : ∃ k : ℤ, haPy t x = haNe t x + k * (2 * π) :=
  hourAngle_turn (t : ℝ) x _

theorem cellNe_real (t : ℤ) (x y : ℝ) (r : Bool) : cellNe t x y r =
    ⟨withRefr r (parallax (arccos (cosz (cos (phi y)) (sin (phi y)) (haNe t x) (timeNe (t : ℝ)).delta))),
      azWrap (az0 (cos (phi y)) (sin (phi y)) (haNe t x) (timeNe (t : ℝ)).delta),
      (timeNe (t : ℝ)).ecf, (timeNe (t : ℝ)).delta, (timeNe (t : ℝ)).eot⟩ := rfl

theorem cellPy_real (t : ℤ) (x y : ℝ) (r : Bool) : cellPy t x y r =
    ⟨withRefr r (parallax (arccos (rround6
        (cosz (cos (phi y)) (sin (phi y)) (haPy t x) (timeNe (t : ℝ)).delta)))),
      azWrap (az0 (cos (phi y)) (sin (phi y)) (haPy t x) (timeNe (t : ℝ)).delta),
      (timeNe (t : ℝ)).ecf, (timeNe (t : ℝ)).delta, (timePy (t : ℝ)).eot⟩ := rfl

/-- the engines differ only by the rounding of the cosine of the zenith angle -/
theorem cellPy_eq (t : ℤ) (x y : ℝ) (r : Bool) : cellPy t x y r =
    ⟨withRefr r (parallax (arccos (rround6
        (cosz (cos (phi y)) (sin (phi y)) (haNe t x) (timeNe (t : ℝ)).delta)))),
      azWrap (az0 (cos (phi y)) (sin (phi y)) (haNe t x) (timeNe (t : ℝ)).delta),
      (timeNe (t : ℝ)).ecf, (timeNe (t : ℝ)).delta, (timeNe (t : ℝ)).eot⟩ := by
  obtain ⟨k, hk⟩ := ha_turn t x
  have he : (timePy (t : ℝ)).eot = (timeNe (t : ℝ)).eot := by
    show eot2 (eot1 (eot0Py _ _)) = eot2 (eot1 (eot0Ne _ _))
    rw [eot0Py_eq]
  rw [cellPy_real, cosz_real, cosz_real, az0_real, az0_real, hk, cos_add_int_mul_two_pi,
    sin_add_int_mul_two_pi, he]

/-! ### summary -/

/-- hour angle at longitude 0 -/
noncomputable def H0 (t : ℤ) : ℝ :=
  (timeNe (t : ℝ)).gmst * 15 * (π / 180) - (timeNe (t : ℝ)).ra

theorem haNe_eq (t : ℤ) (x : ℝ) : haNe t x = H0 t + x * (π / 180) := by
  show ((timeNe (t : ℝ)).gmst * 15 + x) * (π / 180) - (timeNe (t : ℝ)).ra = _
  unfold H0; ring

theorem cos_dec_pos {t : ℤ} (h : InSec t) : 0 < cos (timeNe (t : ℝ)).delta := by
  have := abs_le.1 (delta_bound (jde_bound h))
  have hp := pi_gt_d2
  apply cos_pos_of_mem_Ioo
  constructor
  · have : -0.41 ≤ (timeNe (t : ℝ)).delta := this.1
    norm_num at *; linarith
  · have : (timeNe (t : ℝ)).delta ≤ 0.41 := this.2
    norm_num at *; linarith

/-- the numexpr engine: geometric zenith angle plus parallax -/
theorem cellNe_dir {t : ℤ} (h : InSec t) (x y : ℝ) (r : Bool) : ∃ zg,
    Dir (phi y) (cellNe t x y r).declination (H0 t + x * (π / 180)) zg (cellNe t x y r).azimuth ∧
    (cellNe t x y r).zenith = withRefr r (parallax zg) := by
  rw [← haNe_eq, cellNe_real]
  exact ⟨_, dir (cos_dec_pos h), rfl⟩

/-- the numpy engine: the cosine of the zenith angle is rounded before the parallax is added -/
theorem cellPy_dir {t : ℤ} (h : InSec t) (x y : ℝ) (r : Bool) : ∃ zg,
    Dir (phi y) (cellPy t x y r).declination (H0 t + x * (π / 180)) zg (cellPy t x y r).azimuth ∧
    (cellPy t x y r).zenith = withRefr r (parallax (arccos (rround6 (cos zg)))) := by
  rw [← haNe_eq, cellPy_eq]
  refine ⟨_, dir (cos_dec_pos h), ?_⟩
  have hb := abs_le.1 (cosz_mem (phi y) (haNe t x) (timeNe (t : ℝ)).delta)
  rw [cos_arccos hb.1 hb.2]

end Psa
end SW
