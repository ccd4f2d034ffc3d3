/-
The iqbal programs in rounded arithmetic, against the same programs in exact arithmetic.
-/
import Verif.RIqbal
import Verif.RdPsaCell
import Verif.Props.Calendar

namespace SW
open Real

/-- whichever branch is taken -/
theorem Apm.whereLt {A : Arith} {c d : Rd A} {x T M ε : ℝ} (a b : Rd A) (h1 : Apm c x T M ε) (h2 : Apm d x T M ε) :
    Apm (Num.whereLt a b c d) x T M ε := by
  show Apm (if XR.cmp (· < ·) a b then c else d) x T M ε
  split_ifs
  · exact h1
  · exact h2
theorem Apm.whereLe {A : Arith} {c d : Rd A} {x T M ε : ℝ} (a b : Rd A) (h1 : Apm c x T M ε) (h2 : Apm d x T M ε) :
    Apm (Num.whereLe a b c d) x T M ε := by
  show Apm (if XR.cmp (· ≤ ·) a b then c else d) x T M ε
  split_ifs
  · exact h1
  · exact h2

/-- the tangent of a small angle -/
theorem Ap.tan' {A : Arith} {a : Rd A} {x M ε : ℝ} (h : Ap a x M ε) (hM : M ≤ 0.4233) (hε : ε ≤ 1e-5) :
    Ap (Num.tan a : Rd A) (Real.tan x) 0.466 (1.25 * ε + 2e-14) := by
  obtain ⟨m, r, rfl, e⟩ := h
  have hx : |x| ≤ 0.4234 := m.trans (hM.trans (by norm_num))
  have hr : |r| ≤ 0.4234 := (Ap.fin_bound m e).trans (by norm_num at *; linarith)
  have hcos : ∀ z : ℝ, |z| ≤ 0.4234 → 0.91 ≤ Real.cos z := by
    intro z hz
    have h1 := Real.one_sub_sq_div_two_le_cos (x := z)
    have h2 : z ^ 2 ≤ 0.4234 ^ 2 := by rw [← sq_abs]; gcongr
    norm_num at *; linarith
  have hsin : ∀ z : ℝ, |z| ≤ 0.4234 → |Real.sin z| ≤ 0.4234 := fun z hz => (Real.abs_sin_le_abs).trans hz
  have htan : ∀ z : ℝ, |z| ≤ 0.4234 → |Real.tan z| ≤ 0.466 := by
    intro z hz
    have h1 := hcos z hz
    have h2 := hsin z hz
    rw [Real.tan_eq_sin_div_cos, abs_div, abs_of_pos (by norm_num at h1; linarith : 0 < Real.cos z),
      div_le_iff₀ (by norm_num at h1; linarith)]
    norm_num at *; linarith
  have cx := hcos x hx
  have cr := hcos r hr
  have cx0 : 0 < Real.cos x := by norm_num at cx; linarith
  have cr0 : 0 < Real.cos r := by norm_num at cr; linarith
  have hd : |Real.tan r - Real.tan x| ≤ 1.25 * ε := by
    have e1 : Real.tan r - Real.tan x = Real.sin (r - x) / (Real.cos r * Real.cos x) := by
      rw [Real.tan_eq_sin_div_cos, Real.tan_eq_sin_div_cos, Real.sin_sub]; field_simp
    rw [e1, abs_div, abs_of_pos (mul_pos cr0 cx0), div_le_iff₀ (mul_pos cr0 cx0)]
    have h3 : |Real.sin (r - x)| ≤ ε := (Real.abs_sin_le_abs).trans e
    have h4 : 0.91 * 0.91 ≤ Real.cos r * Real.cos x := by gcongr
    have h0 := (abs_nonneg _).trans e
    have h5 := mul_le_mul_of_nonneg_left h4 h0
    refine h3.trans ?_
    norm_num at h5 ⊢; linarith
  have ht := htan r hr
  obtain ⟨q, hq, -, hq'⟩ := A.tan_spec r (hr.trans (by norm_num))
  refine ⟨htan x hx, q, hq, ?_⟩
  have h6 : |q - Real.tan r| * 0.91 ≤ 1e-14 * (1 + |q|) := by
    have e2 : q * Real.cos r - Real.sin r = (q - Real.tan r) * Real.cos r := by
      rw [Real.tan_eq_sin_div_cos]; field_simp
    rw [e2, abs_mul, abs_of_pos cr0] at hq'
    have := mul_le_mul_of_nonneg_left cr (abs_nonneg (q - Real.tan r))
    linarith
  have h7 : |q| ≤ |Real.tan r| + |q - Real.tan r| := by
    have := abs_add_le (Real.tan r) (q - Real.tan r); rwa [add_sub_cancel] at this
  have := abs_sub_le q (Real.tan r) (Real.tan x)
  norm_num at *; linarith

namespace Iqbal
variable {A : Arith}

/-! ### time -/

theorem hour_mem (t : ℤ) : 0 ≤ hour t ∧ hour t ≤ 23 := by unfold hour; omega
theorem minute_mem (t : ℤ) : 0 ≤ minute t ∧ minute t ≤ 59 := by unfold minute; omega
theorem second_mem (t : ℤ) : 0 ≤ second t ∧ second t ≤ 59 := by unfold second; omega
theorem doy_mem (t : ℤ) : 1 ≤ doy t ∧ doy t ≤ 366 := by
  rw [SW.Props.doy_eq]
  obtain ⟨h1, h2, h3⟩ := SW.Props.yearsDays_spec (t / 86400)
  have hy : Iqbal.year t = (Cal.yearsDays (t / 86400)).1 := rfl
  have hl : SW.Props.yearLength (Cal.yearsDays (t / 86400)).1 ≤ 366 := by
    unfold SW.Props.yearLength; split_ifs <;> omega
  rw [hy]; omega

theorem int_ap {n : ℤ} {N : ℕ} (h : 0 ≤ n ∧ n ≤ N) (hN : N ≤ 1000) : Ap (Scalar.ofInt n : Rd A) n N 0 := by
  refine Ap.ofInt ?_ ?_
  · rw [abs_of_nonneg h.1]; have : (N : ℤ) ≤ 1000 := by exact_mod_cast hN
    omega
  · rw [abs_of_nonneg (by exact_mod_cast h.1)]; exact_mod_cast h.2

theorem lit60 : Ap (60.0 : Rd A) 60.0 60 1e-13 := (Ap.lit le_rfl (by norm_num)).mono (by norm_num) (by norm_num)

theorem stdTime_ap (t : ℤ) : Ap (stdTime t : Rd A) (stdTime t) 24 1e-12 := by
  have h1 := int_ap (A := A) (hour_mem t) (by norm_num)
  have h2 := int_ap (A := A) (minute_mem t) (by norm_num)
  have h3 := int_ap (A := A) (second_mem t) (by norm_num)
  norm_num at h1 h2 h3
  have h4 : Ap (Scalar.ofInt (second t) / 60.0 : Rd A) ((second t : ℝ) / 60.0) 0.984 1e-14 := by
    refine (Ap.div' 60 h3 lit60 ?_ ?_ ?_).mono ?_ ?_ <;> norm_num
  have h5 : Ap (Scalar.ofInt (minute t) + Scalar.ofInt (second t) / 60.0 : Rd A) ((minute t : ℝ) + (second t : ℝ) / 60.0) 60 1e-13 := by
    refine (h2.add h4 ?_).mono ?_ ?_ <;> norm_num
  have h6 : Ap ((Scalar.ofInt (minute t) + Scalar.ofInt (second t) / 60.0) / 60.0 : Rd A) (((minute t : ℝ) + (second t : ℝ) / 60.0) / 60.0) 1 1e-14 := by
    refine (Ap.div' 60 h5 lit60 ?_ ?_ ?_).mono ?_ ?_ <;> norm_num
  unfold stdTime
  refine (h1.add h6 ?_).mono ?_ ?_ <;> norm_num

theorem dayAngle_ap (t : ℤ) : Ap (dayAngle t : Rd A) (dayAngle t) 6.4 1e-13 := by
  have h1 := int_ap (A := A) ⟨by have := (doy_mem t).1; omega, (doy_mem t).2⟩ (by norm_num)
  norm_num at h1
  have h2 : Ap (stdTime t / 24.0 : Rd A) (stdTime t / 24.0) 1 1e-13 := by
    refine (Ap.div' 24 (stdTime_ap t) ((Ap.lit le_rfl (by norm_num)).mono (M' := 24) (ε' := 1e-13) (by norm_num) (by norm_num)) ?_ ?_ ?_).mono ?_ ?_ <;> norm_num
  have h3 := Psa.TWOPI_ap (A := A)
  have h4 : Ap (TWOPI * (Scalar.ofInt (doy t) + stdTime t / 24.0) : Rd A) (2 * π * ((doy t : ℝ) + stdTime t / 24.0)) 2313 2e-11 := by
    refine (h3.mul (h1.add h2 ?_) ?_).mono ?_ ?_ <;> norm_num
  unfold dayAngle
  rw [TWOPI_real]
  refine (Ap.div' 365 h4 ((Ap.lit le_rfl (by norm_num)).mono (M' := 365) (ε' := 1e-12) (by norm_num) (by norm_num)) ?_ ?_ ?_).mono ?_ ?_ <;> norm_num

section
variable {a : Rd A} {j : ℝ} (h : Ap a j 6.4 1e-13)
include h

theorem ecf_ap : Ap (ecf a) (ecf j) 1.04 1e-13 := by
  have : Ap (ecf a) (ecf j) 1.1 1e-13 := by unfold ecf; apf
  refine this.bnd ?_
  have := ecf_bound j
  rw [abs_of_nonneg (by norm_num at *; linarith [this.1])]; exact this.2

theorem decl_ap : Ap (decl a) (decl j) 0.4232 1e-12 := by
  have : Ap (decl a) (decl j) 0.5 1e-12 := by unfold decl; apf
  exact this.bnd (decl_bound j)

theorem eotHours_ap : Ap (eotHours a) (eotHours j) 0.4 1e-12 := by
  have h1 : Ap (0.00986571
    + 0.58688718 * Num.cos a - 7.34538133 * Num.sin a
    - 3.31493999 * Num.cos (2 * a) - 9.35366541 * Num.sin (2 * a)
    - 0.08151750 * Num.cos (3 * a) - 0.30892409 * Num.sin (3 * a)
    - 0.13532889 * Num.cos (4 * a) - 0.17336220 * Num.sin (4 * a) : Rd A)
    (0.00986571
    + 0.58688718 * Num.cos j - 7.34538133 * Num.sin j
    - 3.31493999 * Num.cos (2 * j) - 9.35366541 * Num.sin (2 * j)
    - 0.08151750 * Num.cos (3 * j) - 0.30892409 * Num.sin (3 * j)
    - 0.13532889 * Num.cos (4 * j) - 0.17336220 * Num.sin (4 * j)) 22 5e-12 := by apf
  unfold eotHours
  refine (Ap.div' 60 h1 lit60 ?_ ?_ ?_).mono ?_ ?_ <;> norm_num

theorem eotMinutes_ap : Ap (eotMinutes a) (eotMinutes j) 19 1e-10 := by
  have h1 := eotHours_ap h
  have : Ap (eotMinutes a) (eotMinutes j) 24 1e-10 := by unfold eotMinutes; apf
  exact this.bnd (eot_bound j)
end

/-! ### coordinates and hour angle -/

theorem RAD_ap : Ap (RAD : Rd A) (π / 180) 0.01746 1e-16 := by
  have hp := pi_lt_d4
  rw [← RAD_real]
  unfold RAD
  refine (Ap.div 180 0.01746 Ap.pi ((Ap.lit le_rfl (by norm_num)).mono (M' := 180) (ε' := 2e-13) (by norm_num) (by norm_num)) ?_ (by norm_num) ?_ (by norm_num)).mono (by norm_num) (by norm_num)
  · norm_num
  · show |π / 180.0| ≤ _
    rw [abs_of_pos (by positivity), div_le_iff₀ (by norm_num)]; norm_num at *; linarith

theorem latRad_ap {y : ℝ} (hy : |y| ≤ 90) : Ap (latRad (Num.f32 (Rd.fin y)) : Rd A) (y * (π / 180)) 1.58 6.6e-7 := by
  have h1 := Psa.lat_ap (A := A) hy
  unfold latRad
  exact (((h1.mul RAD_ap (by norm_num)).mono (M' := 1.58) (ε' := 3.4e-7) (by norm_num) (by norm_num)).f32 (by norm_num)).mono le_rfl (by norm_num)

theorem cosLat_ap {y : ℝ} (hy : |y| ≤ 90) : Ap (cosLat (Num.f32 (Rd.fin y)) : Rd A) (cos (y * (π / 180))) 1 8.7e-7 := by
  unfold cosLat
  exact (((latRad_ap hy).cos (by norm_num)).f32 (by norm_num)).mono le_rfl (by norm_num)
theorem sinLat_ap {y : ℝ} (hy : |y| ≤ 90) : Ap (sinLat (Num.f32 (Rd.fin y)) : Rd A) (sin (y * (π / 180))) 1 8.7e-7 := by
  unfold sinLat
  exact (((latRad_ap hy).sin (by norm_num)).f32 (by norm_num)).mono le_rfl (by norm_num)

theorem lon15_ap {x : ℝ} (hx : |x| ≤ 180) : Ap (Num.f32 (Rd.fin x) / 15.0 : Rd A) (x / 15) 12 2.5e-6 := by
  have h1 := Psa.lon_ap (A := A) hx
  have e : x / 15 = x / 15.0 := by norm_num
  rw [e]
  refine (Ap.div' 15 h1 ((Ap.lit le_rfl (by norm_num)).mono (M' := 15) (ε' := 2e-14) (by norm_num) (by norm_num)) ?_ ?_ ?_).mono ?_ ?_ <;> norm_num
theorem lonHours_ap {x : ℝ} (hx : |x| ≤ 180) : Ap (lonHours (Num.f32 (Rd.fin x)) : Rd A) (x / 15) 12 5e-6 := by
  unfold lonHours
  exact ((lon15_ap hx).f32 (by norm_num)).mono le_rfl (by norm_num)

/-- local apparent time, in hours, up to whole days -/
theorem lat0_apm (t : ℤ) {l : Rd A} {x : ℝ} (hl : Ap l (x / 15) 12 5e-6) :
    Apm (lat0 (stdTime t) l (eotHours (dayAngle t)) : Rd A) (stdTime t + x / 15 + eotHours (dayAngle t)) 24 37 5.1e-6 := by
  have h1 := stdTime_ap (A := A) t
  have h2 := eotHours_ap (dayAngle_ap (A := A) t)
  have : Ap (lat0 (stdTime t) l (eotHours (dayAngle t)) : Rd A) (stdTime t + x / 15 + eotHours (dayAngle t)) 36.5 5.1e-6 := by
    unfold lat0; apf
  exact (Apm.of_ap this 24).mono (by norm_num) le_rfl

theorem lit24 : Ap (24.0 : Rd A) 24 24 1e-13 := (Ap.lit le_rfl (by norm_num)).fit (by norm_num) (by norm_num) (by norm_num)

theorem wrap_add {l : Rd A} {x M ε : ℝ} (hl : Apm l x 24 M ε) (hM : M ≤ 100) : Apm (l + 24.0 : Rd A) x 24 (M + 25) (ε + 1e-12) := by
  have h0 := hl.e_nonneg
  have := hl.add lit24 (by norm_num at *; linarith)
  refine (this.turn (-1) ?_).mono ?_ ?_
  · push_cast; ring
  · norm_num at *; linarith
  · norm_num at *; linarith
theorem wrap_sub {l : Rd A} {x M ε : ℝ} (hl : Apm l x 24 M ε) (hM : M ≤ 100) : Apm (l - 24.0 : Rd A) x 24 (M + 25) (ε + 1e-12) := by
  have h0 := hl.e_nonneg
  have := hl.sub (Apm.of_ap lit24 24) (by norm_num at *; linarith)
  refine (this.turn 1 ?_).mono ?_ ?_
  · push_cast; ring
  · norm_num at *; linarith
  · norm_num at *; linarith

theorem hourAngle_apm {l : Rd A} {x : ℝ} (hl : Apm l x 24 90 5.2e-6) :
    Apm (hourAngle l) ((x - 12) * 15 * (π / 180)) (2 * π) 30 1.37e-6 := by
  have h12 : Ap (12.0 : Rd A) 12 12 2e-14 := (Ap.lit le_rfl (by norm_num)).fit (by norm_num) (by norm_num) (by norm_num)
  have h15 : Ap (15.0 : Rd A) 15 15 2e-14 := (Ap.lit le_rfl (by norm_num)).fit (by norm_num) (by norm_num) (by norm_num)
  have h1 : Apm (l - 12.0 : Rd A) (x - 12) 24 102.1 5.21e-6 := by
    refine (hl.sub (Apm.of_ap h12 24) (by norm_num)).mono ?_ ?_ <;> norm_num
  have h2 : Apm ((l - 12.0) * 15.0 : Rd A) ((x - 12) * 15) 360 1532 7.82e-5 := by
    refine ((h1.mul h15 (by norm_num)).period (by norm_num)).mono ?_ ?_ <;> norm_num
  unfold hourAngle
  refine ((h2.mul RAD_ap (by norm_num)).period (by field_simp; norm_num)).mono ?_ ?_ <;> norm_num

theorem ha_of (t : ℤ) {l : Rd A} {x : ℝ} (hl : Apm l (stdTime t + x / 15 + eotHours (dayAngle t)) 24 90 5.2e-6) :
    Apm (hourAngle l) (H0 t + x * (π / 180)) (2 * π) 30 1.37e-6 := by
  refine (hourAngle_apm hl).congr ?_
  unfold H0; ring

theorem haPy_apm (t : ℤ) {l : Rd A} {x : ℝ} (hl : Ap l (x / 15) 12 5e-6) :
    Apm (haPy (stdTime t) (eotHours (dayAngle t)) l : Rd A) (H0 t + x * (π / 180)) (2 * π) 30 1.37e-6 := by
  unfold haPy
  apply ha_of
  have h0 := lat0_apm t hl
  have h1 : Apm (lat1Py (lat0 (stdTime t) l (eotHours (dayAngle t))) : Rd A) (stdTime t + x / 15 + eotHours (dayAngle t)) 24 62 5.11e-6 := by
    unfold lat1Py
    refine Apm.whereLt _ _ ((wrap_add h0 (by norm_num)).mono ?_ ?_) (h0.mono ?_ ?_) <;> norm_num
  unfold lat2Py
  refine Apm.whereLe _ _ ((wrap_sub h1 (by norm_num)).mono ?_ ?_) (h1.mono ?_ ?_) <;> norm_num
theorem haNe_apm (t : ℤ) {l : Rd A} {x : ℝ} (hl : Ap l (x / 15) 12 5e-6) :
    Apm (haNe (stdTime t) (eotHours (dayAngle t)) l : Rd A) (H0 t + x * (π / 180)) (2 * π) 30 1.37e-6 := by
  unfold haNe
  apply ha_of
  have h0 := lat0_apm t hl
  have h1 : Apm (lat1Ne (lat0 (stdTime t) l (eotHours (dayAngle t))) : Rd A) (stdTime t + x / 15 + eotHours (dayAngle t)) 24 62 5.11e-6 := by
    unfold lat1Ne
    refine Apm.whereLt _ _ ((wrap_add h0 (by norm_num)).mono ?_ ?_) (h0.mono ?_ ?_) <;> norm_num
  unfold lat2Ne
  refine Apm.whereLe _ _ ((wrap_sub h1 (by norm_num)).mono ?_ ?_) (h1.mono ?_ ?_) <;> norm_num

/-! ### zenith and azimuth -/

/-- the refraction correction is Lipschitz -/
theorem refcor_lip (a b : ℝ) : |refcor a - refcor b| ≤ 0.93 * |a - b| := by
  have hD : ∀ x : ℝ, 0.2454 ≤ 1 + 28.9344 * x + 277.3971 * (x * x) := by
    intro x; norm_num; nlinarith [sq_nonneg (x + 0.052154)]
  have e : ∀ x : ℝ, refcor x = 0.061359 * (0.1594 + 1.1230 * x + 0.065656 * (x * x)) / (1 + 28.9344 * x + 277.3971 * (x * x)) := by
    intro x
    show 0.061359 * (0.1594 + (1.1230 * x) + (0.065656 * (x * x))) / (1.0 + (28.9344 * x) + (277.3971 * (x * x))) = _
    norm_num
  have ha := hD a
  have hb := hD b
  have ha0 : 0 < 1 + 28.9344 * a + 277.3971 * (a * a) := by norm_num at *; linarith
  have hb0 : 0 < 1 + 28.9344 * b + 277.3971 * (b * b) := by norm_num at *; linarith
  obtain ⟨B, hB⟩ : ∃ B : ℝ, B = (1.1230 - 0.1594 * 28.9344) + (0.065656 - 0.1594 * 277.3971) * (a + b)
    + (0.065656 * 28.9344 - 1.1230 * 277.3971) * (a * b) := ⟨_, rfl⟩
  have e1 : refcor a - refcor b = 0.061359 * (a - b) * B
      / ((1 + 28.9344 * a + 277.3971 * (a * a)) * (1 + 28.9344 * b + 277.3971 * (b * b))) := by
    rw [e, e, hB, div_sub_div _ _ ha0.ne' hb0.ne']
    congr 1
    norm_num; ring
  have hB1 : |B| ≤ 3.65 / 2 * ((1 + 28.9344 * a + 277.3971 * (a * a)) + (1 + 28.9344 * b + 277.3971 * (b * b))) := by
    rw [abs_le]
    constructor <;> rw [hB] <;> norm_num <;>
      nlinarith [sq_nonneg (a + b + 0.0246), sq_nonneg (a - b), sq_nonneg (a + b), sq_nonneg (a + b + 0.1467)]
  have hP : 0 < (1 + 28.9344 * a + 277.3971 * (a * a)) * (1 + 28.9344 * b + 277.3971 * (b * b)) := by positivity
  rw [e1, abs_div, abs_of_pos hP, div_le_iff₀ hP, abs_mul, abs_mul, abs_of_pos (by norm_num : (0:ℝ) < 0.061359)]
  have h0 := abs_nonneg (a - b)
  have hm : 0.061359 * |B| ≤ 0.93 * ((1 + 28.9344 * a + 277.3971 * (a * a)) * (1 + 28.9344 * b + 277.3971 * (b * b))) := by
    generalize 1 + 28.9344 * a + 277.3971 * (a * a) = P at *
    generalize 1 + 28.9344 * b + 277.3971 * (b * b) = Q at *
    have h1 : 0.2454 * Q ≤ P * Q := by gcongr
    have h2 : P * 0.2454 ≤ P * Q := by gcongr
    norm_num at *; linarith
  have := mul_le_mul_of_nonneg_left hm h0
  linarith

theorem refract_real (z : ℝ) : refract z = z - refcor (π / 2 - z) := by
  show HALFPI - ((HALFPI - z) + refcor (HALFPI - z)) = _
  rw [HALFPI_real]; ring

theorem refract_lip (z w : ℝ) : |refract z - refract w| ≤ 1.93 * |z - w| := by
  rw [refract_real, refract_real]
  have h := refcor_lip (π / 2 - z) (π / 2 - w)
  rw [show π / 2 - z - (π / 2 - w) = -(z - w) by ring, abs_neg] at h
  rw [show z - refcor (π / 2 - z) - (w - refcor (π / 2 - w)) = (z - w) - (refcor (π / 2 - z) - refcor (π / 2 - w)) by ring]
  refine (abs_sub _ _).trans ?_
  norm_num at *; linarith

end Iqbal
end SW
