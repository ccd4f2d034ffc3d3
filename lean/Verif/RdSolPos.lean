/-
Zenith and azimuth of soltrack in rounded arithmetic, against the same programs in exact arithmetic.
-/
import Verif.RdSol
import Verif.SolRefr

namespace SW
open Real

/-- the tangent of an angle away from its zeros: the inverse is near the cotangent -/
theorem cot_rd {A : Arith} {u : Rd A} {U ε : ℝ} (hu : Ap u U 1.6 ε) (hs : 0.0273 ≤ sin U) (hε : ε ≤ 2e-3) :
    ∃ r, (Num.tan u : Rd A) = Rd.fin r ∧ 0.0252 ≤ |r| ∧ |1 / r - cos U / sin U| ≤ 1.7e-11 + 1448 * ε := by
  obtain ⟨mU, v, rfl, ev⟩ := hu
  have hvb := Ap.fin_bound mU ev
  obtain ⟨r, hr, rb, hq⟩ := A.tan_spec v (hvb.trans (by norm_num at *; linarith))
  have ev2 : |v - U| ≤ 2e-3 := ev.trans hε
  have hsv : 0.0253 ≤ sin v := by
    have := (abs_le.1 ((Real.abs_sin_sub_sin_le v U).trans ev2)).1
    norm_num at *; linarith
  have hsv0 : 0 < sin v := by norm_num at hsv; linarith
  have hsU0 : 0 < sin U := by norm_num at hs; linarith
  have hc1 := abs_cos_le_one v
  have hr0 : 0.0252 ≤ |r| := by
    have h1 : |sin v| ≤ |r * cos v| + |r * cos v - sin v| := by
      have := abs_sub_abs_le_abs_sub (sin v) (r * cos v)
      rw [abs_sub_comm] at this; linarith
    rw [abs_of_pos hsv0, abs_mul] at h1
    have h2 : |r| * |cos v| ≤ |r| * 1 := by gcongr
    norm_num at *; linarith
  have hr1 : r ≠ 0 := by intro h; rw [h, abs_zero] at hr0; norm_num at hr0
  have hcot : |1 / r - cos v / sin v| ≤ 1.7e-11 := by
    have e1 : 1 / r - cos v / sin v = -(r * cos v - sin v) / (r * sin v) := by field_simp; ring
    rw [e1, abs_div, abs_neg, abs_mul, abs_of_pos hsv0, div_le_iff₀ (by positivity)]
    have h1 : 0.0253 * |r| ≤ |r| * sin v := by rw [mul_comm]; gcongr
    norm_num at *; linarith
  have hcot2 : |cos v / sin v - cos U / sin U| ≤ 1448 * ε := by
    have e1 : cos v / sin v - cos U / sin U = sin (U - v) / (sin v * sin U) := by
      rw [sin_sub]; field_simp
    rw [e1, abs_div, abs_of_pos (mul_pos hsv0 hsU0), div_le_iff₀ (mul_pos hsv0 hsU0)]
    have h1 : |sin (U - v)| ≤ ε := by
      refine (Real.abs_sin_le_abs).trans ?_; rw [abs_sub_comm]; exact ev
    have h2 : 0.0253 * 0.0273 ≤ sin v * sin U := by gcongr
    have h0 := (abs_nonneg _).trans ev
    have h3 := mul_le_mul_of_nonneg_left h2 h0
    norm_num at *; linarith
  refine ⟨r, hr, hr0, ?_⟩
  have := abs_sub_le (1 / r) (cos v / sin v) (cos U / sin U)
  linarith

namespace Soltrack
variable {A : Arith}

/-! ### refraction -/

/-- the exact correction, where the sun is not far below the horizon -/
theorem refract_real {e : ℝ} : refract e = e + SolRefr.corr 1.7802e-2 e := by
  show e + 2.967e-4 / rtan (e + 3.1376e-3 / (e + 8.92e-2)) = _
  unfold SolRefr.corr SolRefr.arg
  congr 1
  rw [← div_div, show (1.7802e-2 : ℝ) / 60 = 2.967e-4 by norm_num]

theorem refract_fin {e : ℝ} (h : SolRefr.Dom e) : refract (XR.fin e) = XR.fin (refract e) := by
  have h0 : e + 8.92e-2 ≠ 0 := by have := h.den; norm_num at *; linarith
  have h1 : rtan (e + 3.1376e-3 / (e + 8.92e-2)) ≠ 0 := SolRefr.rtan_ne h
  unfold refract
  xr
  rw [XR.div_fin h0]
  xr
  rw [XR.div_fin h1]
  rfl

theorem refract_diff {e₁ e₂ : ℝ} (h1 : SolRefr.Dom e₁) (h2 : SolRefr.Dom e₂) :
    |refract e₁ - refract e₂| ≤ |e₁ - e₂| + 1e-18 := by
  wlog hz : e₁ ≤ e₂ with H
  · have := H h2 h1 (le_of_lt (not_le.1 hz))
    rwa [abs_sub_comm, abs_sub_comm e₂] at this
  rw [refract_real, refract_real, abs_sub_comm e₁ e₂, abs_of_nonneg (sub_nonneg.2 hz)]
  have m := (SolRefr.refr_mono (κ := 1.7802e-2) (by norm_num) (by norm_num) h1 h2 hz).1
  obtain ⟨t1, a1, b1, -, c1⟩ := SolRefr.corr_eq (κ := 1.7802e-2) h1
  obtain ⟨t2, a2, b2, -, c2⟩ := SolRefr.corr_eq (κ := 1.7802e-2) h2
  have hd := (SolRefr.cot_diff h1 h2 hz).1
  have hcd : SolRefr.corr 1.7802e-2 e₂ ≤ SolRefr.corr 1.7802e-2 e₁ + 1e-19 := by
    rw [c1, c2]; norm_num at *; linarith
  generalize SolRefr.corr 1.7802e-2 e₂ = X at *
  generalize SolRefr.corr 1.7802e-2 e₁ = Y at *
  rw [abs_le]
  constructor <;> norm_num at * <;> linarith

/-- refraction in rounded arithmetic -/
theorem refract_ap {e : Rd A} {E ε : ℝ} (he : Ap e E 1.58 ε) (hE : SolRefr.Dom E) (hε : ε ≤ 1.2e-3) :
    Ap (refract e) (refract E) 1.6 (1.71 * ε + 1e-13) := by
  have h0 := he.e_nonneg
  have hd := hE.den
  have hden : Ap (e + 8.92e-2 : Rd A) (E + 8.92e-2) 1.67 (ε + 2e-15) := by
    refine (he.add (Ap.lit le_rfl (by norm_num)) (by norm_num at *; linarith)).fit rfl (by norm_num) ?_
    norm_num at *; linarith
  have habs : |E + 8.92e-2| = E + 8.92e-2 := abs_of_pos (by norm_num at *; linarith)
  have hden0 : 0 < E + 8.92e-2 := by norm_num at *; linarith
  have hm : (0 : ℝ) < 0.0746 - (ε + 2e-15) := by norm_num at *; linarith
  have hq : (3.1376e-3 * 1e-15 + 1e-30 + 0.0421 * (ε + 2e-15)) / (0.0746 - (ε + 2e-15)) ≤ 0.574 * ε + 2e-15 := by
    rw [div_le_iff₀ hm]
    norm_num at *; nlinarith
  have hquo : Ap (3.1376e-3 / (e + 8.92e-2) : Rd A) (3.1376e-3 / (E + 8.92e-2)) 0.0421 (0.575 * ε + 3e-15) := by
    refine (Ap.div 0.0746 0.0421 (ε := 3.1376e-3 * 1e-15 + 1e-30) (M := 0.0032) ?_ hden ?_ ?_ ?_ ?_).mono le_rfl ?_
    · refine (Ap.lit le_rfl (by norm_num)).fit rfl (by norm_num) (by norm_num)
    · rw [habs]; exact hd
    · linarith
    · rw [abs_div, habs, div_le_iff₀ hden0]
      norm_num at *; linarith
    · norm_num at *; linarith
    · norm_num at *; linarith
  have harg : Ap (e + 3.1376e-3 / (e + 8.92e-2) : Rd A) (SolRefr.arg E) 1.6 (1.576 * ε + 1e-14) := by
    refine ((he.add hquo (by norm_num at *; linarith)).fit rfl le_rfl ?_).bnd ?_
    · norm_num at *; linarith
    · have a1 := SolRefr.arg_lower hE
      have a2 := SolRefr.arg_upper hE
      have a3 := pi_lt_d2
      show |SolRefr.arg E| ≤ _
      rw [abs_le]
      generalize SolRefr.arg E = X at a1 a2 ⊢
      constructor <;> norm_num at * <;> linarith
  obtain ⟨r, hr, r1, r2⟩ := cot_rd harg (SolRefr.sin_arg_lower hE) (by norm_num at *; linarith)
  have hr1 : r ≠ 0 := by intro h; rw [h, abs_zero] at r1; norm_num at r1
  obtain ⟨-, κ, hκ, eκ⟩ : Ap (2.967e-4 : Rd A) (2.967e-4) 0.0003 1e-18 := by apf
  have eκ' := abs_le.1 eκ
  have hκb : |κ| ≤ 0.0003 := by rw [abs_le]; constructor <;> norm_num at * <;> linarith
  have hr00 : 0 < |r| := abs_pos.2 hr1
  have hqb : |κ / r| ≤ 0.012 := by
    rw [abs_div, div_le_iff₀ hr00]; norm_num at *; linarith
  obtain ⟨w, hw, ew⟩ := A.div_spec κ r hr1 (hqb.trans (by norm_num))
  have hwe : (2.967e-4 / Num.tan (e + 3.1376e-3 / (e + 8.92e-2)) : Rd A) = Rd.fin w := by
    rw [hκ, hr]; exact hw
  obtain ⟨τ, t0, t1, -, hc⟩ := SolRefr.corr_eq (κ := 1.7802e-2) hE
  have hcc : |w - SolRefr.corr 1.7802e-2 E| ≤ 0.69 * ε + 3e-14 := by
    rw [hc]
    unfold SolRefr.cot
    set C := cos (SolRefr.arg E) / sin (SolRefr.arg E) with hC
    have e1 : w - 1.7802e-2 / 60 * (C + τ) = (w - κ / r) + (κ - 2.967e-4) * (1 / r) + 2.967e-4 * (1 / r - C)
        - 2.967e-4 * τ := by
      rw [show (1.7802e-2 : ℝ) / 60 = 2.967e-4 by norm_num]; ring
    rw [e1]
    have i1 : |1 / r| ≤ 40 := by rw [abs_div, abs_one, div_le_iff₀ hr00]; norm_num at *; linarith
    have b1 : |w - κ / r| ≤ 2e-17 := by norm_num at *; linarith
    have b2 : |(κ - 2.967e-4) * (1 / r)| ≤ 1e-18 * 40 := by rw [abs_mul]; gcongr
    have b3 : |2.967e-4 * (1 / r - C)| ≤ 2.967e-4 * (1.7e-11 + 1448 * (1.576 * ε + 1e-14)) := by
      rw [abs_mul, abs_of_pos (by norm_num : (0 : ℝ) < 2.967e-4)]; gcongr
    have b4 : |2.967e-4 * τ| ≤ 1e-19 := by
      rw [abs_of_nonneg (by positivity)]; norm_num at *; linarith
    have s1 := abs_sub ((w - κ / r) + (κ - 2.967e-4) * (1 / r) + 2.967e-4 * (1 / r - C)) (2.967e-4 * τ)
    have s2 := abs_add_le ((w - κ / r) + (κ - 2.967e-4) * (1 / r)) (2.967e-4 * (1 / r - C))
    have s3 := abs_add_le (w - κ / r) ((κ - 2.967e-4) * (1 / r))
    norm_num at *; linarith
  have hcb := SolRefr.corr_bounds (κ := 1.7802e-2) (by norm_num) (by norm_num) hE
  have hwa : Ap (2.967e-4 / Num.tan (e + 3.1376e-3 / (e + 8.92e-2)) : Rd A) (SolRefr.corr 1.7802e-2 E) 0.0112 (0.69 * ε + 3e-14) := by
    refine ⟨?_, w, hwe, hcc⟩
    rw [abs_le]; constructor <;> norm_num at * <;> linarith
  rw [refract_real]
  refine (he.add hwa (by norm_num at *; linarith)).fit rfl ?_ ?_
  · norm_num
  · norm_num at *; linarith

/-! ### latitude, longitude and hour angle -/

theorem agst_ap {t : ℤ} (h : InSec t) : Ap (agst (tJD (Scalar.ofInt t : Rd A))) (agst (tJD (t : ℝ))) 742000 1e-8 := by
  have hd := tJD_ap (A := A) h
  have hc := tJC_ap (A := A) h
  have h1 := tJC2_ap hc
  have h2 := dpsi_ap hc
  have h3 := ob_ap hc
  unfold agst gmst
  apf

theorem hour_apm {t : ℤ} (h : InSec t) {r lon : Rd A} {x : ℝ}
    (hr : Apm r (raR (tJC (tJD (t : ℝ)))) (2 * π) 6.29 2e-10) (hl : Ap lon (x * (π / 180)) 3.15 1.29e-6) :
    Apm (agst (tJD (Scalar.ofInt t : Rd A)) - r + lon : Rd A) (H0 t + x * (π / 180)) (2 * π) 742100 1.31e-6 := by
  refine (((Apm.of_ap (agst_ap (A := A) h) (2 * π)).sub hr (by norm_num)).add hl (by norm_num)).mono ?_ ?_ <;> norm_num

theorem lonPy_ap {x : ℝ} (hx : |x| ≤ 180) : Ap (rad32 (Num.f32 (Rd.fin x)) : Rd A) (x * (π / 180)) 3.15 1.29e-6 := by
  have h1 := Psa.lon_ap (A := A) hx
  have h2 : Ap (radians (Num.f32 (Rd.fin x)) : Rd A) (x * (π / 180)) 3.15 6.5e-7 :=
    (h1.mul DEG2RAD_ap (by norm_num)).mono (by norm_num) (by norm_num)
  exact (h2.f32 (by norm_num)).mono le_rfl (by norm_num)
theorem lonNe_ap {x : ℝ} (hx : |x| ≤ 180) : Ap (Num.f32 (Rd.fin x) * DEG2RAD : Rd A) (x * (π / 180)) 3.15 1.29e-6 :=
  ((Psa.lon_ap (A := A) hx).mul DEG2RAD_ap (by norm_num)).mono (by norm_num) (by norm_num)

/-- the sine and the cosine of the latitude that the programs use; `κ` is 1 (numexpr) or the cosine of the
latitude (numpy, which gets it from the sine) -/
structure LatOf (cl sl : Rd A) (p κ : ℝ) : Prop where
  sin : Ap sl (Real.sin p) 1 8.6e-7
  cos : Ap cl (Real.cos p) 1 (1.9e-6 / κ)

theorem latNe {y : ℝ} (hy : |y| ≤ 90) : LatOf (Num.cos (Num.f32 (Rd.fin y) * DEG2RAD) : Rd A)
    (Num.sin (Num.f32 (Rd.fin y) * DEG2RAD)) (y * (π / 180)) 1 := by
  have h1 := Psa.phiNe_ap (A := A) hy
  exact ⟨(h1.sin (by norm_num)).mono le_rfl (by norm_num), (h1.cos (by norm_num)).mono le_rfl (by norm_num)⟩

theorem latPy {y : ℝ} (hy : |y| ≤ 90) (hc : 0.003 ≤ cos (y * (π / 180))) :
    LatOf (coslatPy (rad32 (Num.f32 (Rd.fin y))) : Rd A) (sinlatPy (rad32 (Num.f32 (Rd.fin y)))) (y * (π / 180))
      (cos (y * (π / 180))) := by
  obtain ⟨m, p', hp, e⟩ := Psa.phiPy_ap (A := A) hy
  have hp' : (rad32 (Num.f32 (Rd.fin y)) : Rd A) = Rd.fin p' := hp
  have e' : |p' - y * (π / 180)| ≤ 6.5e-7 := e
  rw [hp']
  have hA : Ap (Rd.fin p' : Rd A) p' 2 0 := Ap.ofFin p' ((Ap.fin_bound m e).trans (by norm_num))
  have hs : Ap (sinlatPy (Rd.fin p') : Rd A) (Real.sin p') 1 2.1e-7 := by
    unfold sinlatPy
    exact ((hA.sin (by norm_num)).f32 (by norm_num)).mono le_rfl (by norm_num)
  set c := cos (y * (π / 180)) with hcdef
  have dcos : |cos p' - c| ≤ 6.5e-7 := (Real.abs_cos_sub_cos_le p' _).trans e'
  have dsin : |sin p' - sin (y * (π / 180))| ≤ 6.5e-7 := (Real.abs_sin_sub_sin_le p' _).trans e'
  have dc := abs_le.1 dcos
  have hc0 : 0 < c := by norm_num at hc; linarith
  have hcp : 0.999 * c ≤ cos p' := by norm_num at *; linarith
  have hcp0 : 0 < cos p' := lt_of_lt_of_le (by positivity) hcp
  have hc1 := cos_le_one (y * (π / 180))
  constructor
  · obtain ⟨-, r, hr, er⟩ := hs
    refine ⟨abs_sin_le_one _, r, hr, ?_⟩
    have := abs_sub_le r (sin p') (sin (y * (π / 180)))
    norm_num at *; linarith
  · -- 1 - sin²
    have h2 : Ap (Num.f32 (1.0 - Num.f32 (Num.npow (sinlatPy (Rd.fin p')) 2)) : Rd A) (1.0 - sin p' ^ 2) 2 1.04e-6 := by
      have a1 : Ap (Num.f32 (Num.npow (sinlatPy (Rd.fin p')) 2) : Rd A) (sin p' ^ 2) 1 6.3e-7 :=
        ((hs.sq (by norm_num)).f32 (by norm_num)).mono (by norm_num) (by norm_num)
      have a2 : Ap (1.0 - Num.f32 (Num.npow (sinlatPy (Rd.fin p')) 2) : Rd A) (1.0 - sin p' ^ 2) 2 6.31e-7 := by apf
      exact (a2.f32 (by norm_num)).mono le_rfl (by norm_num)
    have e1 : (1.0 : ℝ) - sin p' ^ 2 = cos p' ^ 2 := by
      have := sin_sq_add_cos_sq p'; norm_num; linarith
    rw [e1] at h2
    have hcp1 := cos_le_one p'
    have hcq : cos p' ^ 2 ≤ 1 := by
      calc cos p' ^ 2 ≤ (1 : ℝ) ^ 2 := pow_le_pow_left₀ hcp0.le hcp1 2
        _ = 1 := by norm_num
    have h3 := Ap.sqrt (cos p') 1.01 (h2.bnd (M' := 1) (by rw [abs_of_nonneg (sq_nonneg _)]; exact hcq)) hcp0 le_rfl (by
      have : (0.0029 : ℝ) ^ 2 ≤ cos p' ^ 2 := by
        apply pow_le_pow_left₀ (by norm_num); norm_num at *; linarith
      norm_num at *; linarith) (by norm_num) (by norm_num) (by norm_num)
    rw [Real.sqrt_sq hcp0.le] at h3
    have hq : 1.04e-6 / cos p' ≤ 1.042e-6 / c := by
      rw [div_le_div_iff₀ hcp0 hc0]; norm_num at *; linarith
    have hqm : 1.04e-6 / cos p' ≤ 1 := by
      rw [div_le_one hcp0]; norm_num at *; linarith
    have h4 := h3.f32 (by norm_num at *; linarith)
    obtain ⟨-, r, hr, er⟩ := h4
    refine ⟨abs_cos_le_one _, r, hr, ?_⟩
    have := abs_sub_le r (cos p') c
    have hci : 1 ≤ 1 / c := by rw [le_div_iff₀ hc0]; linarith
    have e3 : 1.9e-6 / c = 1.042e-6 / c + 8.58e-7 * (1 / c) := by ring
    have e4 : (1.042e-6 / c) ≤ 1 := by rw [div_le_one hc0]; norm_num at *; linarith
    show |r - c| ≤ _
    rw [e3]
    have e5 : (1.04e-6 / cos p' + (1e-15 * 1.01 + 1e-30)) + (2e-7 * (1.01 + (1.04e-6 / cos p' + (1e-15 * 1.01 + 1e-30))) + 1e-30) ≤ 1.042e-6 / c + 2.05e-7 := by
      have : 1.04e-6 / cos p' ≤ 0.001 := by rw [div_le_iff₀ hcp0]; norm_num at *; linarith
      norm_num at *; linarith
    have e6 : |r - cos p'| ≤ 1.042e-6 / c + 2.05e-7 := by
      refine er.trans (le_trans (le_of_eq ?_) e5); norm_num
    clear er e5 hq hqm e4 e3 h3
    generalize 1.042e-6 / c = X at *
    generalize 1 / c = Y at *
    norm_num at *; linarith

/-- the declination's sine, cosine and tangent that the programs use -/
structure DecOf (sd cd td : Rd A) (D : ℝ) : Prop where
  sin : Ap sd (Real.sin D) 0.41 1e-9
  cos : Ap cd (Real.cos D) 1 1e-9
  tan : Ap td (Real.tan D) 0.46 1e-9

section
variable {dd : Rd A} {D : ℝ} (hd : Ap dd D 0.41 4e-11)
include hd

theorem cosD_lower : 0.91 ≤ Real.cos D := by
  have := Psa.cos_ep_bound (e := |D|) ⟨abs_nonneg _, hd.1.trans (by norm_num)⟩
  rw [Real.cos_abs] at this; exact this.1

theorem sd_ap : Ap (Num.sin dd : Rd A) (Real.sin D) 0.41 5e-11 :=
  ((hd.sin (by norm_num)).bnd ((Real.abs_sin_le_abs).trans hd.1)).mono le_rfl (by norm_num)

theorem tanD_bound : |Real.tan D| ≤ 0.46 := (hd.tan (by norm_num) (by norm_num)).1

theorem decTan : DecOf (Num.sin dd : Rd A) (Num.cos dd) (Num.tan dd) D :=
  ⟨(sd_ap hd).mono le_rfl (by norm_num), (hd.cos (by norm_num)).mono le_rfl (by norm_num),
    (hd.tan (by norm_num) (by norm_num)).mono le_rfl (by norm_num)⟩

theorem decQuot {cd : Rd A} (hc : Ap cd (Real.cos D) 1 2e-10) : DecOf (Num.sin dd : Rd A) cd (Num.sin dd / cd) D := by
  have h1 := sd_ap hd
  have hl := cosD_lower hd
  refine ⟨h1.mono le_rfl (by norm_num), hc.mono le_rfl (by norm_num), ?_⟩
  have hb := tanD_bound hd
  rw [Real.tan_eq_sin_div_cos] at hb ⊢
  exact (Ap.div 0.91 0.46 h1 hc (hl.trans (le_abs_self _)) (by norm_num) hb (by norm_num)).mono le_rfl (by norm_num)

theorem cosdecPy_ap : Ap (cosdecPy (Num.sin dd) : Rd A) (Real.cos D) 1 2e-10 := by
  have h1 := sd_ap hd
  have hl := cosD_lower hd
  have h2 : Ap (1.0 - Num.npow (Num.sin dd) 2 : Rd A) (1.0 - Real.sin D ^ 2) 1.2 5e-11 := by apf
  have e1 : (1.0 : ℝ) - Real.sin D ^ 2 = Real.cos D ^ 2 := by
    have := sin_sq_add_cos_sq D; norm_num; linarith
  rw [e1] at h2
  have h0 : 0 ≤ Real.cos D := by norm_num at hl; linarith
  have h3 := Ap.sqrt (0.91 : ℝ) 1.1 h2 (by norm_num) (pow_le_pow_left₀ (by norm_num) hl 2) (by norm_num) (by norm_num)
    (by norm_num) (by norm_num)
  rw [Real.sqrt_sq h0] at h3
  exact (h3.mono le_rfl (by norm_num)).bnd (abs_cos_le_one _)
end

section
variable {cl sl hh sd cd td : Rd A} {p κ H D : ℝ} (hl : LatOf cl sl p κ) (hκ0 : 0.0029 ≤ κ) (hκ1 : κ ≤ 1)
  (hh' : Apm hh H (2 * π) 742100 1.31e-6) (hd : DecOf sd cd td D)
include hl hκ0 hκ1 hh' hd

theorem inv_le : 1 ≤ 1 / κ ∧ 1 / κ ≤ 345 := by
  have h0 : 0 < κ := by norm_num at hκ0; linarith
  constructor
  · rw [le_div_iff₀ h0]; linarith
  · rw [div_le_iff₀ h0]; norm_num at *; linarith

/-- the sine of the altitude is near the exact one -/
theorem sinAlt_ap : Ap (sinAlt sl cl sd cd hh) (sin p * sin D + cos p * cos D * cos H) 1 (3.6e-6 / κ) := by
  obtain ⟨i1, i2⟩ := inv_le hl hκ0 hκ1 hh' hd
  have h1 := hl.sin
  have h2 := hl.cos
  have h3 := hh'.cos (by norm_num)
  have h4 := hd.sin
  have h5 := hd.cos
  have e1 : 1.9e-6 / κ = 1.9e-6 * (1 / κ) := by ring
  have e2 : 3.6e-6 / κ = 3.6e-6 * (1 / κ) := by ring
  rw [e1] at h2
  rw [e2]
  generalize 1 / κ = q at *
  have h6 : Ap (sl * sd : Rd A) (sin p * sin D) 0.41 3.6e-7 := by apf
  have h7 : Ap (cl * cd : Rd A) (cos p * cos D) 1 (1.9e-6 * q + 2e-9) := by
    refine (h2.mul h5 (by norm_num at *; linarith)).fit rfl (by norm_num) ?_
    norm_num at *; linarith
  have h8 : Ap (cl * cd * Num.cos hh : Rd A) (cos p * cos D * cos H) 1 (1.9e-6 * q + 1.313e-6) := by
    refine (h7.mul h3 (by norm_num at *; linarith)).fit rfl (by norm_num) ?_
    norm_num at *; linarith
  have h9 : Ap (sl * sd + cl * cd * Num.cos hh : Rd A) (sin p * sin D + cos p * cos D * cos H) 1.5 (3.6e-6 * q) := by
    refine (h6.add h8 (by norm_num at *; linarith)).fit rfl (by norm_num) ?_
    norm_num at *; linarith
  exact h9.bnd (sphere_le_one p D H)

/-- the vector whose angle is the azimuth -/
theorem azvec_ap : Ap (Num.sin hh : Rd A) (sin H) 1 (3.2e-6 / κ) ∧
    Ap (Num.cos hh * sl - td * cl : Rd A) (cos H * sin p - tan D * cos p) 1.5 (3.2e-6 / κ) := by
  obtain ⟨i1, i2⟩ := inv_le hl hκ0 hκ1 hh' hd
  have h1 := hl.sin
  have h2 := hl.cos
  have h3 := hh'.cos (by norm_num)
  have h3' := hh'.sin (by norm_num)
  have h5 := hd.tan
  have e1 : 1.9e-6 / κ = 1.9e-6 * (1 / κ) := by ring
  have e2 : 3.2e-6 / κ = 3.2e-6 * (1 / κ) := by ring
  rw [e1] at h2
  rw [e2]
  generalize 1 / κ = q at *
  constructor
  · refine h3'.mono le_rfl ?_
    norm_num at *; linarith
  have h6 : Ap (Num.cos hh * sl : Rd A) (cos H * sin p) 1 2.2e-6 := by apf
  have h7 : Ap (td * cl : Rd A) (tan D * cos p) 0.46 (0.8741e-6 * q + 2e-9) := by
    refine (h5.mul h2 (by norm_num at *; linarith)).fit rfl (by norm_num) ?_
    norm_num at *; linarith
  refine (h6.sub h7 (by norm_num at *; linarith)).fit rfl (by norm_num) ?_
  norm_num at *; linarith

/-- the azimuth is near the exact one, more closely the farther the sun is from the zenith -/
theorem azimuth_apm {zg : ℝ} (hcd : 0 < cos D) (hz : cos zg = sin p * sin D + cos p * cos D * cos H)
    (hs : 0.0029 ≤ κ * sin zg) :
    Apm (azimuth sl cl td hh) (aziR p D H) (2 * π) (π + 1e-14) (6.5e-6 / (κ * sin zg)) := by
  obtain ⟨h1, h2⟩ := azvec_ap hl hκ0 hκ1 hh' hd
  obtain ⟨i1, i2⟩ := inv_le hl hκ0 hκ1 hh' hd
  have hκ : 0 < κ := by norm_num at hκ0; linarith
  have hcd1 := cos_le_one D
  have hs0 : 0 < sin zg := by
    by_contra hc
    push Not at hc
    have := mul_nonpos_of_nonneg_of_nonpos hκ.le hc
    norm_num at *; linarith
  have hq1 : 3.2e-6 / κ ≤ 0.0012 := by rw [div_le_iff₀ hκ]; norm_num at *; linarith
  have hq2 : 2 * (3.2e-6 / κ) ≤ 0.0023 * sin zg := by
    rw [mul_div_assoc', div_le_iff₀ hκ]; norm_num at *; linarith
  have := Apm.atan2 (sin zg) h1 h2 ?_ (by norm_num at *; linarith) (by norm_num at *; linarith) (by norm_num at *; linarith)
  · refine this.mono le_rfl ?_
    have e1 : 2 * (3.2e-6 / κ) / (sin zg - 2 * (3.2e-6 / κ)) ≤ 6.42e-6 / (κ * sin zg) := by
      have hpos : 0 < sin zg - 2 * (3.2e-6 / κ) := by norm_num at *; linarith
      rw [div_le_div_iff₀ hpos (by positivity)]
      have e2 : 2 * (3.2e-6 / κ) * (κ * sin zg) = 6.4e-6 * sin zg := by field_simp; ring
      rw [e2]
      norm_num at *; linarith
    have e3 : 6.5e-6 / (κ * sin zg) = 6.42e-6 / (κ * sin zg) + 8e-8 / (κ * sin zg) := by ring
    have e4 : 8e-8 ≤ 8e-8 / (κ * sin zg) := by
      rw [le_div_iff₀ (by positivity)]
      have : κ * sin zg ≤ 1 := mul_le_one₀ hκ1 hs0.le (sin_le_one _)
      norm_num at *; linarith
    rw [e3]
    norm_num at *; linarith
  · have hsq := horiz_sq p D H
    rw [← hz] at hsq
    have e : (sin p * cos D * cos H - cos p * sin D) ^ 2 + (cos D * sin H) ^ 2
        = cos D ^ 2 * ((cos H * sin p - tan D * cos p) ^ 2 + (sin H) ^ 2) := by
      rw [tan_eq_sin_div_cos]; field_simp
    rw [e] at hsq
    have hs2 : sin zg ^ 2 = 1 - cos zg ^ 2 := by linarith [sin_sq_add_cos_sq zg]
    rw [hs2, ← hsq]
    have : cos D ^ 2 ≤ 1 := by rw [sq_le_one_iff_abs_le_one, abs_of_pos hcd]; exact hcd1
    have h0 : 0 ≤ (cos H * sin p - tan D * cos p) ^ 2 + (sin H) ^ 2 := by positivity
    nlinarith
end

end Soltrack
end SW
