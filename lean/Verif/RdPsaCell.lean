/-
One cell of psa in rounded arithmetic, both engines.
-/
import Verif.RdPsaZen

namespace SW
open Real

/-- degrees of an angle -/
theorem degrees_ap {A : Arith} {a : Rd A} {x M ε : ℝ} (h : Ap a x M ε) (hM : M ≤ 10) (hε : ε ≤ 1) :
    Ap (degrees a : Rd A) (x * (180 / π)) (57.3 * M) (57.31 * ε + 5e-12) := by
  have M0 := h.M_nonneg
  have e0 := h.e_nonneg
  have hp := pi_gt_d4
  have hc : Ap (180 / Num.pi : Rd A) (180 / π) 57.3 2e-13 := by
    refine (Ap.div 3.1415 57.3 (Ap.nat (n := 180)) Ap.pi ?_ (by norm_num) ?_ (by norm_num)).mono (by norm_num) (by norm_num)
    · rw [abs_of_pos pi_pos]; norm_num at *; linarith
    · rw [abs_of_pos (by positivity), div_le_iff₀ pi_pos]; norm_num at *; linarith
  unfold degrees
  refine (h.mul hc ?_).mono ?_ ?_
  · norm_num at *; nlinarith
  · norm_num at *; linarith
  · norm_num at *; nlinarith

/-- degrees of an angle known up to whole turns -/
theorem degrees_apm {A : Arith} {a : Rd A} {x M ε : ℝ} (h : Apm a x (2 * π) M ε) (hM : M ≤ 10) :
    Apm (degrees a : Rd A) (x * (180 / π)) 360 (M * (180 / π) + 5e-12) (57.31 * ε + 1e-11) := by
  have e0 := h.e_nonneg
  obtain ⟨r, k, rfl, m, e⟩ := h
  obtain ⟨-, d, hd, ed⟩ := degrees_ap (A := A) (Ap.ofFin r m) hM (by norm_num)
  have hp := pi_gt_d4
  have h57 : 180 / π ≤ 57.3 := by rw [div_le_iff₀ pi_pos]; norm_num at *; linarith
  have h570 : 0 < 180 / π := by positivity
  refine ⟨d, k, hd, ?_, ?_⟩
  · have h1 : |r * (180 / π)| ≤ M * (180 / π) := by rw [abs_mul, abs_of_pos h570]; gcongr
    exact (Ap.fin_bound h1 ed).trans (by norm_num)
  · have e1 : d - x * (180 / π) - k * 360 = (d - r * (180 / π)) + (r - x - k * (2 * π)) * (180 / π) := by
      field_simp; ring
    rw [e1]
    refine (abs_add_le _ _).trans ?_
    rw [abs_mul, abs_of_pos h570]
    have : |r - x - k * (2 * π)| * (180 / π) ≤ ε * 57.3 := by gcongr
    norm_num at *; linarith

namespace Psa
variable {A : Arith}

theorem azWrap_apm {a : Rd A} {x ε : ℝ} (h : Apm a x (2 * π) (π + 1e-14) ε) :
    Apm (azWrap a) (azWrap x) (2 * π) (π + 1e-13) (ε + 1e-13) := by
  obtain ⟨r, k, rfl, m, e⟩ := h
  have p1 := pi_lt_d4
  have p2 := pi_gt_d4
  have m' := abs_le.1 m
  obtain ⟨o, ho, ho'⟩ := lit0 (A := A)
  have ho' := abs_le.1 ho'
  have hr : Ap (Rd.fin r : Rd A) r 3.15 0 := Ap.ofFin r (m.trans (by norm_num at *; linarith))
  -- the value of the exact one is x + π up to a turn
  obtain ⟨j, hj⟩ : ∃ j : ℤ, azWrap x = x + π + j * (2 * π) := by
    rw [azWrap_real]
    split_ifs
    · exact ⟨0, by push_cast; ring⟩
    · exact ⟨-1, by push_cast; ring⟩
  rw [hj]
  unfold azWrap
  rw [ho, whereLt_rd]
  split_ifs with hc
  · obtain ⟨-, s, hs, es⟩ := hr.add Ap.pi (by norm_num)
    refine ⟨s, k - j, hs, ?_, ?_⟩
    · have := abs_le.1 es
      rw [abs_le]; constructor <;> norm_num at * <;> linarith
    · have e1 : s - (x + π + j * (2 * π)) - ((k - j : ℤ) : ℝ) * (2 * π)
          = (s - (r + π)) + (r - x - k * (2 * π)) := by push_cast; ring
      rw [e1]
      refine (abs_add_le _ _).trans ?_
      norm_num at *; linarith
  · push Not at hc
    obtain ⟨-, s, hs, es⟩ := hr.sub Ap.pi (by norm_num)
    refine ⟨s, k - j - 1, hs, ?_, ?_⟩
    · have := abs_le.1 es
      rw [abs_le]; constructor <;> norm_num at * <;> linarith
    · have e1 : s - (x + π + j * (2 * π)) - ((k - j - 1 : ℤ) : ℝ) * (2 * π)
          = (s - (r - π)) + (r - x - k * (2 * π)) := by push_cast; ring
      rw [e1]
      refine (abs_add_le _ _).trans ?_
      norm_num at *; linarith

/-- the exact zenith angle (no refraction) of either engine, from the exact cosine `c`: that of a number
at most 5e-7 from it -/
structure Zen0 (c ζ : ℝ) : Prop where
  ex : ∃ r₀, |r₀| ≤ 1 ∧ |r₀ - c| ≤ 5e-7 ∧ ζ = parallax (arccos r₀)

/-- the sine of the geometric zenith angle, from that of the returned one -/
theorem Zen0.sin {c ζ : ℝ} (h : Zen0 c ζ) (hc : |c| ≤ 1) (hs : 0.003 ≤ Real.sin ζ) :
    |c| ≤ 1 - 3e-6 ∧ 0.93 * Real.sin ζ ≤ Real.sin (arccos c) := by
  obtain ⟨r₀, h1, h2, rfl⟩ := h
  have b0 := abs_le.1 h1
  have bc := abs_le.1 hc
  have b2 := abs_le.1 h2
  -- parallax
  have hp : Real.sin (parallax (arccos r₀)) ≤ 1.0001 * Real.sin (arccos r₀) := by
    rw [parallax_real, sin_add]
    have h0 : 0 ≤ Real.sin (arccos r₀) := sin_nonneg_of_nonneg_of_le_pi (arccos_nonneg _) (arccos_le_pi _)
    have c1 := cos_le_one (0.000042587565907513806 * Real.sin (arccos r₀))
    have c2 : Real.cos (arccos r₀) * Real.sin (0.000042587565907513806 * Real.sin (arccos r₀))
        ≤ 1 * (0.000042587565907513806 * Real.sin (arccos r₀)) := by
      refine (le_abs_self _).trans ?_
      rw [abs_mul]
      refine mul_le_mul (abs_cos_le_one _) ?_ (abs_nonneg _) (by norm_num)
      refine (Real.abs_sin_le_abs).trans (le_of_eq (abs_of_nonneg (by positivity)))
    have c3 := mul_le_mul_of_nonneg_left c1 h0
    norm_num at *; linarith
  set S := Real.sin (parallax (arccos r₀)) with hS
  set u := Real.sin (arccos r₀) with hu
  set v := Real.sin (arccos c) with hv
  have hu0 : 0 ≤ u := sin_nonneg_of_nonneg_of_le_pi (arccos_nonneg _) (arccos_le_pi _)
  have hv0 : 0 ≤ v := sin_nonneg_of_nonneg_of_le_pi (arccos_nonneg _) (arccos_le_pi _)
  have hu2 : u ^ 2 = 1 - r₀ ^ 2 := by
    have := sin_sq_add_cos_sq (arccos r₀); rw [cos_arccos b0.1 b0.2] at this; linarith
  have hv2 : v ^ 2 = 1 - c ^ 2 := by
    have := sin_sq_add_cos_sq (arccos c); rw [cos_arccos bc.1 bc.2] at this; linarith
  have hd : c ^ 2 - r₀ ^ 2 ≤ 1e-6 := by
    have : c ^ 2 - r₀ ^ 2 = (c - r₀) * (c + r₀) := by ring
    rw [this]
    refine (le_abs_self _).trans ?_
    rw [abs_mul, abs_sub_comm]
    have h3 : |c + r₀| ≤ 2 := (abs_add_le _ _).trans (by linarith)
    have := mul_le_mul h2 h3 (abs_nonneg _) (by norm_num)
    norm_num at *; linarith
  have hul : 0.0029997 ≤ u := by norm_num at *; linarith
  have hv3 : (0.9301 * u) ^ 2 ≤ v ^ 2 := by
    rw [hv2]
    have : 0.0029997 ^ 2 ≤ u ^ 2 := by gcongr
    norm_num at *; nlinarith
  have hv4 : 0.9301 * u ≤ v := abs_le_of_sq_le_sq' hv3 hv0 |>.2
  constructor
  · have h5 : 6e-6 ≤ 1 - c ^ 2 := by
      rw [← hv2]
      have : (0.0027 : ℝ) ^ 2 ≤ v ^ 2 := by
        apply pow_le_pow_left₀ (by norm_num); norm_num at *; linarith
      norm_num at *; linarith
    rw [← sq_abs] at h5
    by_contra hcon
    push Not at hcon
    have hq := pow_lt_pow_left₀ hcon (by norm_num) two_ne_zero
    generalize |c| ^ 2 = q at hq h5
    norm_num at hq h5; linarith
  · norm_num at *; linarith

/-- What is claimed of a computed zenith and azimuth angle (radians): `ζ` is the exact zenith angle
without refraction, `Z` and `az` the exact results. -/
structure NearPos (ρ : Bool) (ζ Z az : ℝ) (o : Out (Rd A)) : Prop where
  zenith : ∃ w, o.zenith = Rd.fin w ∧ |w| ≤ 3.2 ∧
      ((ρ = true → 1.1e-5 < |π / 2 + 1.4545e-2 - ζ|) → |w - Z| * sin ζ ≤ 9.8e-6 ∧ |w - Z| ≤ 4.1e-3)
  azimuth : Apm o.azimuth az (2 * π) (π + 1e-13) (4.6e-6 / sin ζ)

section
variable {t : ℤ} {x y ζ : ℝ} (ht : InSec t) (hx : |x| ≤ 180) (hy : |y| ≤ 90)
  (hζ : Zen0 (cosz (cos (phi y)) (sin (phi y)) (haNe t x) (timeNe (t : ℝ)).delta) ζ)
  (hs : 0.003 ≤ sin ζ)
include ht hx hy hζ hs

theorem cell_rd {cl sl hh : Rd A} {p' : ℝ} (hl : LatOf cl sl y p') (hh' : Apm hh (haNe t x) (2 * π) 2100 6.6e-7)
    (f : Rd A → Rd A) (hf : ∀ r, |r| ≤ 1 → |r - cosz (cos (phi y)) (sin (phi y)) (haNe t x) (timeNe (t : ℝ)).delta| ≤ 2e-6 →
      ∃ r', f (Rd.fin r) = Rd.fin r' ∧ |r'| ≤ 1 ∧ |r' - r| ≤ 6e-7) (ρ : Bool) (o : Out (Rd A))
    (hz : o.zenith = withRefr ρ (parallax (Num.arccos (f (cosz cl sl hh (delta (ep (jde (Scalar.ofInt t : Rd A))) (eclon (jde (Scalar.ofInt t : Rd A)))))))))
    (ha : o.azimuth = azWrap (az0 cl sl hh (delta (ep (jde (Scalar.ofInt t : Rd A))) (eclon (jde (Scalar.ofInt t : Rd A)))))) :
    NearPos ρ ζ (withRefr ρ ζ) (azWrap (az0 (cos (phi y)) (sin (phi y)) (haNe t x) (timeNe (t : ℝ)).delta)) o := by
  have hd : Ap (delta (ep (jde (Scalar.ofInt t : Rd A))) (eclon (jde (Scalar.ofInt t : Rd A)))) (timeNe (t : ℝ)).delta 0.41 1e-10 :=
    delta_ap (jde_ap ht)
  generalize (delta (ep (jde (Scalar.ofInt t : Rd A))) (eclon (jde (Scalar.ofInt t : Rd A)))) = dd at *
  have hc1 := cosz_mem (phi y) (haNe t x) (timeNe (t : ℝ)).delta
  have hcb := abs_le.1 hc1
  obtain ⟨-, r, hr, er⟩ := cosz_ap hl hh' hd
  obtain ⟨hcl, hsg⟩ := hζ.sin hc1 hs
  obtain ⟨r₀, h1, h2, rfl⟩ := hζ.ex
  constructor
  · have hr1 : |r| ≤ 1 := (Ap.fin_bound hcl er).trans (by norm_num)
    obtain ⟨r', hr', b', e'⟩ := hf r hr1 er
    rw [hz, hr, hr']
    refine zenith_rd b' h1 ?_ ρ
    have e1 := abs_le.1 er
    have e2 := abs_le.1 h2
    have e3 := abs_le.1 e'
    rw [abs_le]; constructor <;> norm_num at * <;> linarith
  · rw [ha]
    have haz := az0_apm hl hh' hd (zg := arccos (cosz (cos (phi y)) (sin (phi y)) (haNe t x) (timeNe (t : ℝ)).delta))
      (arccos_nonneg _) (arccos_le_pi _) (cos_arccos hcb.1 hcb.2) (by norm_num at *; linarith)
    have hcd := cos_dec_pos ht
    have e : ratan2 (-sin (haNe t x)) (tan (timeNe (t : ℝ)).delta * cos (phi y) - sin (phi y) * cos (haNe t x))
        = az0 (cos (phi y)) (sin (phi y)) (haNe t x) (timeNe (t : ℝ)).delta := by
      rw [az0_real, rtan_of_cos_ne hcd.ne', tan_eq_sin_div_cos]
    rw [e] at haz
    refine (azWrap_apm haz).mono le_rfl ?_
    have hSS := sin_le_one (parallax (arccos r₀))
    generalize sin (arccos (cosz (cos (phi y)) (sin (phi y)) (haNe t x) (timeNe (t : ℝ)).delta)) = v at *
    generalize sin (parallax (arccos r₀)) = S at *
    have hS0 : 0 < S := by norm_num at hs; linarith
    have hS1 : 0.928 * S ≤ v - 4.2e-6 := by norm_num at *; linarith
    have hv : 0 < v - 4.2e-6 := lt_of_lt_of_le (by positivity) hS1
    have q1 : 4.2e-6 / (v - 4.2e-6) ≤ 4.2e-6 / (0.928 * S) := by
      apply div_le_div_of_nonneg_left (by norm_num) (by positivity) hS1
    have q2 : 4.6e-6 / S = 4.2e-6 / (0.928 * S) + (4.6e-6 - 4.2e-6 / 0.928) / S := by field_simp; ring
    have q3 : 4.6e-6 - 4.2e-6 / 0.928 ≤ (4.6e-6 - 4.2e-6 / 0.928) / S := by
      rw [le_div_iff₀ hS0]; norm_num; linarith
    rw [q2]
    refine (add_le_add_left (add_le_add_left q1 _) _).trans ?_
    norm_num at q3 ⊢; linarith

/-- the numpy engine -/
theorem cellPy_rd (ρ : Bool) : NearPos ρ ζ (withRefr ρ ζ)
    (azWrap (az0 (cos (phi y)) (sin (phi y)) (haNe t x) (timeNe (t : ℝ)).delta))
    (cellPy t (Rd.fin x : Rd A) (Rd.fin y) ρ) := by
  obtain ⟨p', hl⟩ := latPy (A := A) hy
  have hh := hour_apm ht (gmst_apm (A := A) ht (decimalHourPy_apm ht)) (lon_ap hx)
  refine cell_rd ht hx hy hζ hs hl hh Num.round6 ?_ ρ _ rfl rfl
  intro r hr _
  obtain ⟨r', h1, h2, h3⟩ := A.round6_spec r (hr.trans (by norm_num))
  exact ⟨r', h1, h3 (hr.trans (by norm_num)), h2⟩

/-- the numexpr engine -/
theorem cellNe_rd (ρ : Bool) : NearPos ρ ζ (withRefr ρ ζ)
    (azWrap (az0 (cos (phi y)) (sin (phi y)) (haNe t x) (timeNe (t : ℝ)).delta))
    (cellNe t (Rd.fin x : Rd A) (Rd.fin y) ρ) := by
  obtain ⟨p', hl⟩ := latNe (A := A) hy
  have hh := hour_apm ht (gmst_apm (A := A) ht (decimalHourNe_apm ht)) (lon_ap hx)
  refine cell_rd ht hx hy hζ hs hl hh (fun x => x) ?_ ρ _ rfl rfl
  intro r hr _
  exact ⟨r, rfl, hr, by norm_num⟩
end

/-- in the numpy engine the zenith angle is a number wherever the sun is, and its cosine is near the exact
one -/
theorem cellPy_zenith {t : ℤ} {x y : ℝ} (ht : InSec t) (hx : |x| ≤ 180) (hy : |y| ≤ 90) {ζ : ℝ}
    (hζ : Zen0 (cosz (cos (phi y)) (sin (phi y)) (haNe t x) (timeNe (t : ℝ)).delta) ζ) (ρ : Bool) :
    ∃ w, (cellPy t (Rd.fin x : Rd A) (Rd.fin y) ρ).zenith = Rd.fin w ∧ |w| ≤ 3.2 ∧
      ((ρ = true → 1.1e-5 < |π / 2 + 1.4545e-2 - ζ|) →
        |w - withRefr ρ ζ| * sin ζ ≤ 9.8e-6 ∧ |w - withRefr ρ ζ| ≤ 4.1e-3) := by
  obtain ⟨p', hl⟩ := latPy (A := A) hy
  have hh := hour_apm ht (gmst_apm (A := A) ht (decimalHourPy_apm ht)) (lon_ap hx)
  have hd : Ap (delta (ep (jde (Scalar.ofInt t : Rd A))) (eclon (jde (Scalar.ofInt t : Rd A)))) (timeNe (t : ℝ)).delta 0.41 1e-10 :=
    delta_ap (jde_ap ht)
  obtain ⟨-, r, hr, er⟩ := cosz_ap hl hh hd
  obtain ⟨r2, hr2, b2⟩ := cosz_le hl hh hd
  obtain rfl : r = r2 := by rw [hr] at hr2; exact Rd.fin_inj.1 hr2
  obtain ⟨r', h1', h2', h3'⟩ := A.round6_spec r (b2.trans (by norm_num))
  obtain ⟨r₀, h1, h2, rfl⟩ := hζ.ex
  have := zenith_rd (A := A) (h3' b2) h1 (r₀ := r₀) (by
    have e1 := abs_le.1 er
    have e2 := abs_le.1 h2
    have e3 := abs_le.1 h2'
    rw [abs_le]; constructor <;> norm_num at * <;> linarith) ρ
  have e : (cellPy t (Rd.fin x : Rd A) (Rd.fin y) ρ).zenith = withRefr ρ (parallax (Num.arccos (Rd.fin r') : Rd A)) := by
    have h1'' : Num.round6 (Rd.fin r : Rd A) = Rd.fin r' := h1'
    rw [← h1'', ← hr]; rfl
  rw [e]; exact this

/-- in the numpy engine the azimuth is a number wherever the sun is -/
theorem azimuthPy_num {t : ℤ} {x y : ℝ} (ht : InSec t) (hx : |x| ≤ 180) (hy : |y| ≤ 90) (ρ : Bool) :
    ∃ a, (cellPy t (Rd.fin x : Rd A) (Rd.fin y) ρ).azimuth = Rd.fin a ∧ |a| ≤ π + 1e-13 := by
  obtain ⟨p', hl⟩ := latPy (A := A) hy
  have hh := hour_apm ht (gmst_apm (A := A) ht (decimalHourPy_apm ht)) (lon_ap hx)
  have hd : Ap (delta (ep (jde (Scalar.ofInt t : Rd A))) (eclon (jde (Scalar.ofInt t : Rd A)))) (timeNe (t : ℝ)).delta 0.41 1e-10 :=
    delta_ap (jde_ap ht)
  obtain ⟨⟨m1, u, hu, e1⟩, ⟨m2, v, hv, e2⟩⟩ := azvec_ap hl hh hd
  obtain ⟨r, h1, h2, -⟩ := A.arctan2_spec u v ((Ap.fin_bound m1 e1).trans (by norm_num)) ((Ap.fin_bound m2 e2).trans (by norm_num))
  have h0 : Apm (Rd.fin r : Rd A) r (2 * π) (π + 1e-14) 0 := ⟨r, 0, rfl, h2, by simp⟩
  obtain ⟨a, k, ha, hb, -⟩ := azWrap_apm h0
  refine ⟨a, ?_, hb⟩
  rw [← ha]
  have hr : (Num.arctan2 (Rd.fin u : Rd A) (Rd.fin v) : Rd A) = Rd.fin r := h1
  rw [← hr, ← hu, ← hv]; rfl

/-- the exact zenith angles of the two engines -/
theorem zen0_py (c : ℝ) (hc : |c| ≤ 1) : Zen0 c (parallax (arccos (rround6 c))) :=
  ⟨_, rround6_mem hc, rround6_near c, rfl⟩
theorem zen0_ne (c : ℝ) (hc : |c| ≤ 1) : Zen0 c (parallax (arccos c)) :=
  ⟨_, hc, by norm_num, rfl⟩

end Psa
end SW
