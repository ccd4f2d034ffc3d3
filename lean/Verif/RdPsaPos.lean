/-
Zenith and azimuth of the psa programs in rounded arithmetic, against the same programs in exact
arithmetic.
-/
import Verif.RdPsa

namespace SW
open Real

theorem DEG2RAD_ap {A : Arith} : Ap (DEG2RAD : Rd A) (π / 180) 0.01746 1e-16 := by
  unfold DEG2RAD
  have hp := pi_lt_d4
  refine (Ap.div 180 0.01746 Ap.pi (Ap.nat (n := 180)) ?_ (by norm_num) ?_ (by norm_num)).mono (by norm_num) (by norm_num)
  · norm_num
  · rw [abs_of_pos (by positivity), div_le_iff₀ (by norm_num)]; norm_num at *; linarith

/-- the tangent of a small angle -/
theorem Ap.tan {A : Arith} {a : Rd A} {x M ε : ℝ} (h : Ap a x M ε) (hM : M ≤ 0.415) (hε : ε ≤ 1e-4) :
    Ap (Num.tan a : Rd A) (Real.tan x) 0.46 (1.25 * ε + 2e-14) := by
  obtain ⟨m, r, rfl, e⟩ := h
  have hp := pi_gt_d2
  have hx : |x| ≤ 0.4154 := m.trans (hM.trans (by norm_num))
  have hr : |r| ≤ 0.4154 := (Ap.fin_bound m e).trans (by norm_num at *; linarith)
  have hcos : ∀ z : ℝ, |z| ≤ 0.4154 → 0.91 ≤ Real.cos z := by
    intro z hz
    have := Psa.cos_ep_bound (e := |z|) ⟨abs_nonneg _, hz⟩
    rw [Real.cos_abs] at this; exact this.1
  have hsin : ∀ z : ℝ, |z| ≤ 0.4154 → |Real.sin z| ≤ 0.4154 := fun z hz => (Real.abs_sin_le_abs).trans hz
  have htan : ∀ z : ℝ, |z| ≤ 0.4154 → |Real.tan z| ≤ 0.46 := by
    intro z hz
    have h1 := hcos z hz
    have h2 := hsin z hz
    rw [Real.tan_eq_sin_div_cos, abs_div, abs_of_pos (by norm_num at h1; linarith : 0 < Real.cos z),
      div_le_iff₀ (by norm_num at h1; linarith)]
    norm_num at *; linarith
  have cx := hcos x hx
  have cr := hcos r hr
  have cx0 : 0 < Real.cos x := by norm_num at cx; linarith
  have cr0 : 0 < Real.cos r := by norm_num at cr; linarith
  have hd : |Real.tan r - Real.tan x| ≤ 1.25 * ε := by
    have e1 : Real.tan r - Real.tan x = Real.sin (r - x) / (Real.cos r * Real.cos x) := by
      rw [Real.tan_eq_sin_div_cos, Real.tan_eq_sin_div_cos, Real.sin_sub]; field_simp
    rw [e1, abs_div, abs_of_pos (mul_pos cr0 cx0), div_le_iff₀ (mul_pos cr0 cx0)]
    have h3 : |Real.sin (r - x)| ≤ ε := (Real.abs_sin_le_abs).trans e
    have h4 : 0.91 * 0.91 ≤ Real.cos r * Real.cos x := by gcongr
    have h0 := (abs_nonneg _).trans e
    have h5 := mul_le_mul_of_nonneg_left h4 h0
    refine h3.trans ?_
    norm_num at h5 ⊢; linarith
  have ht := htan r hr
  obtain ⟨q, hq, -, hq'⟩ := A.tan_spec r (hr.trans (by norm_num))
  refine ⟨htan x hx, q, hq, ?_⟩
  have h6 : |q - Real.tan r| * 0.91 ≤ 1e-14 * (1 + |q|) := by
    have e2 : q * Real.cos r - Real.sin r = (q - Real.tan r) * Real.cos r := by
      rw [Real.tan_eq_sin_div_cos]; field_simp
    rw [e2, abs_mul, abs_of_pos cr0] at hq'
    have := mul_le_mul_of_nonneg_left cr (abs_nonneg (q - Real.tan r))
    linarith
  have h7 : |q| ≤ |Real.tan r| + |q - Real.tan r| := by
    have := abs_add_le (Real.tan r) (q - Real.tan r); rwa [add_sub_cancel] at this
  have := abs_sub_le q (Real.tan r) (Real.tan x)
  norm_num at *; linarith

namespace Psa
variable {A : Arith}

theorem decimalHourPy_apm {t : ℤ} (h : InSec t) :
    Apm (decimalHourPy (Scalar.ofInt t : Rd A)) ((t : ℝ) / 86400 * 24) 24 25 3e-9 := by
  have h1 := Apm.pmod (days_ap (A := A) h) (b := 1) (y := 1) rfl (by norm_num) (by norm_num) (by norm_num)
  refine ((h1.mul (Ap.nat (n := 24)) (by norm_num)).period (by norm_num)).mono ?_ ?_ <;> norm_num
theorem decimalHourNe_apm {t : ℤ} (h : InSec t) :
    Apm (decimalHourNe (Scalar.ofInt t : Rd A)) ((t : ℝ) / 86400 * 24) 24 25 3e-9 := by
  have h1 := Apm.cmod (days_ap (A := A) h) (b := 1) (y := 1) rfl (by norm_num) (by norm_num) (by norm_num)
  refine ((h1.mul (Ap.nat (n := 24)) (by norm_num)).period (by norm_num)).mono ?_ ?_ <;> norm_num

theorem gmst_apm {t : ℤ} (h : InSec t) {b : Rd A} (hb : Apm b ((t : ℝ) / 86400 * 24) 24 25 3e-9) :
    Apm (gmst (jde (Scalar.ofInt t : Rd A)) b)
      (6.697096103 + 6.570984737e-2 * jde (t : ℝ) + (t : ℝ) / 86400 * 24) 24 7770 3.3e-9 := by
  have hj := jde_ap (A := A) h
  have h1 : Ap (6.697096103 + 6.570984737e-2 * jde (Scalar.ofInt t : Rd A) : Rd A)
      (6.697096103 + 6.570984737e-2 * jde (t : ℝ)) 7742 1.1e-10 := by apf
  refine (Apm.ap_add h1 hb (by norm_num)).mono ?_ ?_ <;> norm_num

/-- longitude as the programs use it -/
theorem lon_ap {x : ℝ} (hx : |x| ≤ 180) : Ap (Num.f32 (Rd.fin x) : Rd A) x 180 3.7e-5 :=
  ((Ap.ofFin (R := A) x hx).f32 (by norm_num)).mono le_rfl (by norm_num)
theorem lat_ap {y : ℝ} (hy : |y| ≤ 90) : Ap (Num.f32 (Rd.fin y) : Rd A) y 90 1.9e-5 :=
  ((Ap.ofFin (R := A) y hy).f32 (by norm_num)).mono le_rfl (by norm_num)

/-- right ascension as an angle -/
theorem ra_apm' {a : Rd A} {j : ℝ} (h : Ap a j 117710 1e-9) :
    Apm (ra (ep a) (eclon a) : Rd A) (ra (ep j) (eclon j)) (2 * π) 6.3 1.1e-10 := by
  obtain ⟨r, k, h1, h2, h3, h4⟩ := ra_apm h
  refine ⟨r, k, h1, ?_, h4⟩
  have := pi_lt_d4
  rw [abs_le]; constructor <;> norm_num at * <;> linarith

theorem hour_apm {t : ℤ} (h : InSec t) {g : Rd A} {lon : Rd A} {x : ℝ}
    (hg : Apm g (6.697096103 + 6.570984737e-2 * jde (t : ℝ) + (t : ℝ) / 86400 * 24) 24 7770 3.3e-9)
    (hx : Ap lon x 180 3.7e-5) :
    Apm (hourAngleNe g lon (ra (ep (jde (Scalar.ofInt t : Rd A))) (eclon (jde (Scalar.ofInt t : Rd A)))))
      (haNe t x) (2 * π) 2100 6.6e-7 := by
  have hr := ra_apm' (jde_ap (A := A) h)
  have h1 := (((hg.mul (Ap.nat (n := 15)) (by norm_num)).add hx (by norm_num)).mul DEG2RAD_ap (by norm_num)).period
    (T' := 2 * π) (by ring)
  have h2 := (h1.sub hr (by norm_num)).mono (M' := 2100) (ε' := 6.6e-7) (by norm_num) (by norm_num)
  obtain ⟨k, hk⟩ := rcmod_eq ((t : ℝ) / 86400) 1
  refine h2.turn (-k) ?_
  have e1 : (timeNe (t : ℝ)).ra = ra (ep (jde (t : ℝ))) (eclon (jde (t : ℝ))) := rfl
  have e : haNe t x = ((6.697096103 + 6.570984737e-2 * jde (t : ℝ) + rcmod ((t : ℝ) / 86400) 1 * 24) * 15 + x)
      * (π / 180) - ra (ep (jde (t : ℝ))) (eclon (jde (t : ℝ))) := rfl
  rw [e, hk]
  push_cast; ring

/-- latitude in radians -/
theorem phiPy_ap {y : ℝ} (hy : |y| ≤ 90) :
    Ap (Num.f32 (radians (Num.f32 (Rd.fin y) : Rd A)) : Rd A) (phi y) 1.58 6.5e-7 := by
  have h1 := lat_ap (A := A) hy
  have h2 : Ap (radians (Num.f32 (Rd.fin y) : Rd A)) (phi y) 1.58 3.33e-7 :=
    (h1.mul DEG2RAD_ap (by norm_num)).mono (by norm_num) (by norm_num)
  exact (h2.f32 (by norm_num)).mono le_rfl (by norm_num)
theorem phiNe_ap {y : ℝ} (hy : |y| ≤ 90) :
    Ap ((Num.f32 (Rd.fin y) : Rd A) * DEG2RAD : Rd A) (phi y) 1.58 6.5e-7 :=
  ((lat_ap (A := A) hy).mul DEG2RAD_ap (by norm_num)).mono (by norm_num) (by norm_num)

/-- the cosine and the sine of the latitude that the programs use: those of some angle `p'` near the
latitude, to an error of 2.1e-7 -/
structure LatOf (cl sl : Rd A) (y p' : ℝ) : Prop where
  near : |p' - phi y| ≤ 6.5e-7
  cos : Ap cl (Real.cos p') 1 2.1e-7
  sin : Ap sl (Real.sin p') 1 2.1e-7

theorem latPy {y : ℝ} (hy : |y| ≤ 90) : ∃ p', LatOf (coslatPy (Num.f32 (Rd.fin y) : Rd A))
    (sinlatPy (Num.f32 (Rd.fin y) : Rd A)) y p' := by
  obtain ⟨m, p', hp, e⟩ := phiPy_ap (A := A) hy
  have hA : Ap (Rd.fin p' : Rd A) p' 2 0 := Ap.ofFin p' ((Ap.fin_bound m e).trans (by norm_num))
  refine ⟨p', e, ?_, ?_⟩
  · unfold coslatPy; rw [hp]
    exact ((hA.cos (by norm_num)).f32 (by norm_num)).mono le_rfl (by norm_num)
  · unfold sinlatPy; rw [hp]
    exact ((hA.sin (by norm_num)).f32 (by norm_num)).mono le_rfl (by norm_num)

theorem latNe {y : ℝ} (hy : |y| ≤ 90) : ∃ p', LatOf (coslatNe (Num.f32 (Rd.fin y) : Rd A))
    (sinlatNe (Num.f32 (Rd.fin y) : Rd A)) y p' := by
  obtain ⟨m, p', hp, e⟩ := phiNe_ap (A := A) hy
  have hA : Ap (Rd.fin p' : Rd A) p' 2 0 := Ap.ofFin p' ((Ap.fin_bound m e).trans (by norm_num))
  refine ⟨p', e, ?_, ?_⟩
  · unfold coslatNe; rw [hp]
    exact (hA.cos (by norm_num)).mono le_rfl (by norm_num)
  · unfold sinlatNe; rw [hp]
    exact (hA.sin (by norm_num)).mono le_rfl (by norm_num)

theorem LatOf.cos' {cl sl : Rd A} {y p' : ℝ} (h : LatOf cl sl y p') : Ap cl (Real.cos (phi y)) 1 8.6e-7 := by
  obtain ⟨-, r, hr, e⟩ := h.cos
  refine ⟨abs_cos_le_one _, r, hr, ?_⟩
  have := (Real.abs_cos_sub_cos_le p' (phi y)).trans h.near
  have := abs_sub_le r (Real.cos p') (Real.cos (phi y))
  norm_num at *; linarith
theorem LatOf.sin' {cl sl : Rd A} {y p' : ℝ} (h : LatOf cl sl y p') : Ap sl (Real.sin (phi y)) 1 8.6e-7 := by
  obtain ⟨-, r, hr, e⟩ := h.sin
  refine ⟨abs_sin_le_one _, r, hr, ?_⟩
  have := (Real.abs_sin_sub_sin_le p' (phi y)).trans h.near
  have := abs_sub_le r (Real.sin p') (Real.sin (phi y))
  norm_num at *; linarith

section
variable {cl sl hh dd : Rd A} {y p' H D : ℝ} (hl : LatOf cl sl y p') (hh' : Apm hh H (2 * π) 2100 6.6e-7)
  (hd : Ap dd D 0.41 1e-10)
include hl hh' hd

/-- the cosine of the zenith angle is near the exact one -/
theorem cosz_ap : Ap (cosz cl sl hh dd) (cosz (cos (phi y)) (sin (phi y)) H D) 1 2e-6 := by
  have h1 := hl.cos'
  have h2 := hl.sin'
  have h3 := hh'.cos (by norm_num)
  have h4 := (hd.sin (by norm_num)).bnd (M' := 0.41) ((Real.abs_sin_le_abs).trans hd.1)
  have : Ap (cosz cl sl hh dd) (cosz (cos (phi y)) (sin (phi y)) H D) 1.5 2e-6 := by
    unfold cosz; apf
  exact this.bnd (cosz_mem _ _ _)

/-- ... and hardly exceeds 1 -/
theorem cosz_le : ∃ r, cosz cl sl hh dd = Rd.fin r ∧ |r| ≤ 1 + 4e-7 := by
  obtain ⟨r, k, rfl, m, -⟩ := hh'
  obtain ⟨md, d, rfl, ed⟩ := hd
  have hdb := Ap.fin_bound md ed
  have h1 := hl.cos
  have h2 := hl.sin
  have h3 : Ap (Rd.fin r : Rd A) r 2100 0 := Ap.ofFin _ m
  have h4 : Ap (Rd.fin d : Rd A) d 0.42 0 := Ap.ofFin _ (hdb.trans (by norm_num))
  have h5 := (h4.sin (by norm_num)).bnd (M' := 0.42) ((Real.abs_sin_le_abs).trans h4.1)
  have : Ap (cosz cl sl (Rd.fin r) (Rd.fin d)) (cosz (cos p') (sin p') r d) 1.5 3.1e-7 := by
    unfold cosz; apf
  obtain ⟨-, q, hq, e⟩ := this
  exact ⟨q, hq, (Ap.fin_bound (cosz_mem p' r d) e).trans (by norm_num)⟩

/-- the vector whose angle is the azimuth -/
theorem azvec_ap : Ap (-(Num.sin hh) : Rd A) (-sin H) 1 2.1e-6 ∧
    Ap (Num.tan dd * cl - sl * Num.cos hh : Rd A) (tan D * cos (phi y) - sin (phi y) * cos H) 1.5 2.1e-6 := by
  have h1 := hl.cos'
  have h2 := hl.sin'
  have h3 := hh'.cos (by norm_num)
  have h4 := hd.tan (by norm_num) (by norm_num)
  refine ⟨(hh'.sin (by norm_num)).neg.mono le_rfl (by norm_num), ?_⟩
  apf

/-- the azimuth is near the exact one, more closely the farther the sun is from the zenith -/
theorem az0_apm {zg : ℝ} (hz0 : 0 ≤ zg) (hz1 : zg ≤ π)
    (hz : cos zg = cosz (cos (phi y)) (sin (phi y)) H D) (hs : 5e-6 ≤ sin zg) :
    Apm (az0 cl sl hh dd) (ratan2 (-sin H) (tan D * cos (phi y) - sin (phi y) * cos H)) (2 * π) (π + 1e-14)
      (4.2e-6 / (sin zg - 4.2e-6) + 1e-14) := by
  obtain ⟨h1, h2⟩ := azvec_ap hl hh' hd
  have hcd : 0 < cos D := by
    have := Psa.cos_ep_bound (e := |D|) ⟨abs_nonneg _, hd.1.trans (by norm_num)⟩
    rw [Real.cos_abs] at this; norm_num at this; linarith [this.1]
  have hcd1 := cos_le_one D
  refine (Apm.atan2 (sin zg) h1 h2 ?_ (by norm_num at *; linarith) (by norm_num) (by norm_num)).mono le_rfl (by norm_num)
  have hsq := horiz_sq (phi y) D H
  rw [← cosz_real, ← hz] at hsq
  have e : (sin (phi y) * cos D * cos H - cos (phi y) * sin D) ^ 2 + (cos D * sin H) ^ 2
      = cos D ^ 2 * ((tan D * cos (phi y) - sin (phi y) * cos H) ^ 2 + (-sin H) ^ 2) := by
    rw [tan_eq_sin_div_cos]; field_simp; ring
  rw [e] at hsq
  have hs2 : sin zg ^ 2 = 1 - cos zg ^ 2 := by linarith [sin_sq_add_cos_sq zg]
  rw [hs2, ← hsq]
  have : cos D ^ 2 ≤ 1 := by rw [sq_le_one_iff_abs_le_one, abs_of_pos hcd]; exact hcd1
  have h0 : 0 ≤ (tan D * cos (phi y) - sin (phi y) * cos H) ^ 2 + (-sin H) ^ 2 := by positivity
  nlinarith
end

end Psa
end SW
