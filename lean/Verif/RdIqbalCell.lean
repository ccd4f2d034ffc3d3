/-
One cell of iqbal in rounded arithmetic, both engines.
-/
import Verif.RdIqbal

namespace SW
open Real

namespace Iqbal
variable {A : Arith}

section
variable {y H D : ℝ} {hh dd : Rd A} (hy : |y| ≤ 90) (hh' : Apm hh H (2 * π) 30 1.37e-6) (hd : Ap dd D 0.4232 1e-12)
include hy hh' hd

/-- the cosine of the zenith angle is near the exact one -/
theorem cosz_ap : Ap (cosz (cosLat (Num.f32 (Rd.fin y))) (sinLat (Num.f32 (Rd.fin y))) dd hh : Rd A)
    (sin (y * (π / 180)) * sin D + cos (y * (π / 180)) * cos D * cos H) 1 2.65e-6 := by
  have h1 := cosLat_ap (A := A) hy
  have h2 := sinLat_ap (A := A) hy
  have h3 := hh'.cos (by norm_num)
  have h4 := (hd.sin (by norm_num)).bnd (M' := 0.4232) ((Real.abs_sin_le_abs).trans hd.1)
  have : Ap (cosz (cosLat (Num.f32 (Rd.fin y))) (sinLat (Num.f32 (Rd.fin y))) dd hh : Rd A)
      (sin D * sin (y * (π / 180)) + cos D * cos (y * (π / 180)) * cos H) 1.5 2.65e-6 := by
    unfold cosz; apf
  have e : sin D * sin (y * (π / 180)) + cos D * cos (y * (π / 180)) * cos H
    = sin (y * (π / 180)) * sin D + cos (y * (π / 180)) * cos D * cos H := by ring
  rw [e] at this
  exact this.bnd (sphere_le_one _ _ _)

/-- the vector whose angle is the azimuth -/
theorem azvec_ap : Ap (-(Num.sin hh) : Rd A) (-sin H) 1 2.7e-6 ∧
    Ap (Num.tan dd * cosLat (Num.f32 (Rd.fin y)) - sinLat (Num.f32 (Rd.fin y)) * Num.cos hh : Rd A)
      (tan D * cos (y * (π / 180)) - sin (y * (π / 180)) * cos H) 1.5 2.7e-6 := by
  have h1 := cosLat_ap (A := A) hy
  have h2 := sinLat_ap (A := A) hy
  have h3 := hh'.cos (by norm_num)
  have h4 := hd.tan' (by norm_num) (by norm_num)
  refine ⟨(hh'.sin (by norm_num)).neg.mono le_rfl (by norm_num), ?_⟩
  apf

theorem az0_apm (hcd : 0 < cos D) {S : ℝ} (hS : S = sin (y * (π / 180)) * sin D + cos (y * (π / 180)) * cos D * cos H)
    (hs : 0.003 ≤ sin (arccos S)) :
    Apm (az0 (cosLat (Num.f32 (Rd.fin y))) (sinLat (Num.f32 (Rd.fin y))) dd hh : Rd A)
      (Psa.az0 (cos (y * (π / 180))) (sin (y * (π / 180))) H D) (2 * π) (π + 1e-14)
      (5.42e-6 / sin (arccos S)) := by
  obtain ⟨h1, h2⟩ := azvec_ap hy hh' hd
  have hb : |S| ≤ 1 := by rw [hS]; exact sphere_le_one _ _ _
  have hb' := abs_le.1 hb
  have hcd1 := cos_le_one D
  have e : ratan2 (-sin H) (tan D * cos (y * (π / 180)) - sin (y * (π / 180)) * cos H)
      = Psa.az0 (cos (y * (π / 180))) (sin (y * (π / 180))) H D := by
    rw [Psa.az0_real, rtan_of_cos_ne hcd.ne', tan_eq_sin_div_cos]
  rw [← e]
  refine (Apm.atan2 (sin (arccos S)) h1 h2 ?_ (by norm_num at *; linarith) (by norm_num) (by norm_num)).mono le_rfl ?_
  · have hsq := horiz_sq (y * (π / 180)) D H
    rw [← hS] at hsq
    have e : (sin (y * (π / 180)) * cos D * cos H - cos (y * (π / 180)) * sin D) ^ 2 + (cos D * sin H) ^ 2
        = cos D ^ 2 * ((tan D * cos (y * (π / 180)) - sin (y * (π / 180)) * cos H) ^ 2 + (-sin H) ^ 2) := by
      rw [tan_eq_sin_div_cos]; field_simp; ring
    rw [e] at hsq
    have hs2 : sin (arccos S) ^ 2 = 1 - S ^ 2 := by
      have := sin_sq_add_cos_sq (arccos S); rw [cos_arccos hb'.1 hb'.2] at this; linarith
    rw [hs2, ← hsq]
    have : cos D ^ 2 ≤ 1 := by rw [sq_le_one_iff_abs_le_one, abs_of_pos hcd]; exact hcd1
    have h0 : 0 ≤ (tan D * cos (y * (π / 180)) - sin (y * (π / 180)) * cos H) ^ 2 + (-sin H) ^ 2 := by positivity
    nlinarith
  · have hs1 := sin_le_one (arccos S)
    generalize sin (arccos S) = v at *
    have hv : 0 < v := by norm_num at hs; linarith
    have hq : 0 < v - 2 * 2.7e-6 := by norm_num at *; linarith
    have q1 : 2 * 2.7e-6 / (v - 2 * 2.7e-6) ≤ 5.41e-6 / v := by
      rw [div_le_div_iff₀ hq hv]; norm_num at *; linarith
    have q2 : 1e-14 ≤ 1e-14 / v := by rw [le_div_iff₀ hv]; norm_num; linarith
    have q3 : (5.42e-6 : ℝ) / v = 5.41e-6 / v + 1e-8 / v := by field_simp; norm_num
    have q4 : (1e-14 : ℝ) / v ≤ 1e-8 / v := by gcongr; norm_num
    rw [q3]
    linarith
end

/-- the angle of the azimuth in the programs' range; the threshold is the program's 0 or 0.0 -/
theorem azWrap_apm {a o : Rd A} {x ε : ℝ} {o' : ℝ} (h : Apm a x (2 * π) (π + 1e-14) ε) (ho : o = Rd.fin o') (ho' : |o'| ≤ 1e-30) :
    Apm (Num.whereLt a o (a + Num.pi) (a - Num.pi)) (Psa.azWrap x) (2 * π) (π + 1e-13) (ε + 1e-13) := by
  obtain ⟨r, k, rfl, m, e⟩ := h
  have p1 := pi_lt_d4
  have p2 := pi_gt_d4
  have m' := abs_le.1 m
  have ho' := abs_le.1 ho'
  have hr : Ap (Rd.fin r : Rd A) r 3.15 0 := Ap.ofFin r (m.trans (by norm_num at *; linarith))
  obtain ⟨j, hj⟩ : ∃ j : ℤ, Psa.azWrap x = x + π + j * (2 * π) := by
    rw [Psa.azWrap_real]
    split_ifs
    · exact ⟨0, by push_cast; ring⟩
    · exact ⟨-1, by push_cast; ring⟩
  rw [hj]
  rw [ho, Psa.whereLt_rd]
  split_ifs with hc
  · obtain ⟨-, s, hs, es⟩ := hr.add Ap.pi (by norm_num)
    refine ⟨s, k - j, hs, ?_, ?_⟩
    · have := abs_le.1 es
      rw [abs_le]; constructor <;> norm_num at * <;> linarith
    · have e1 : s - (x + π + j * (2 * π)) - ((k - j : ℤ) : ℝ) * (2 * π)
          = (s - (r + π)) + (r - x - k * (2 * π)) := by push_cast; ring
      rw [e1]
      refine (abs_add_le _ _).trans ?_
      norm_num at *; linarith
  · push Not at hc
    obtain ⟨-, s, hs, es⟩ := hr.sub Ap.pi (by norm_num)
    refine ⟨s, k - j - 1, hs, ?_, ?_⟩
    · have := abs_le.1 es
      rw [abs_le]; constructor <;> norm_num at * <;> linarith
    · have e1 : s - (x + π + j * (2 * π)) - ((k - j - 1 : ℤ) : ℝ) * (2 * π)
          = (s - (r - π)) + (r - x - k * (2 * π)) := by push_cast; ring
      rw [e1]
      refine (abs_add_le _ _).trans ?_
      norm_num at *; linarith

theorem azWrapPy_apm {a : Rd A} {x ε : ℝ} (h : Apm a x (2 * π) (π + 1e-14) ε) :
    Apm (azWrapPy a) (Psa.azWrap x) (2 * π) (π + 1e-13) (ε + 1e-13) := by
  obtain ⟨o, ho, ho'⟩ := Psa.lit0 (A := A)
  exact azWrap_apm h ho ho'
theorem azWrapNe_apm {a : Rd A} {x ε : ℝ} (h : Apm a x (2 * π) (π + 1e-14) ε) :
    Apm (azWrapNe a) (Psa.azWrap x) (2 * π) (π + 1e-13) (ε + 1e-13) :=
  azWrap_apm (o' := 0) h rfl (by norm_num)

theorem refden_ge (x : ℝ) : 0.2454 ≤ 1 + 28.9344 * x + 277.3971 * (x * x) := by
  norm_num; nlinarith [sq_nonneg (x + 0.052154)]

/-- rounding in the refraction correction -/
theorem refract_ap {a : Rd A} {z : ℝ} (h : Ap a z 3.15 1e-14) (hz : 0 ≤ z ∧ z ≤ π) : Ap (refract a) (refract z) 5.3 1e-9 := by
  have hHP := HALFPI_ap (A := A)
  have p1 := pi_lt_d4
  have h1 : Ap (HALFPI - a : Rd A) (π / 2 - z) 1.58 4e-14 := by
    have : Ap (HALFPI - a : Rd A) (π / 2 - z) 4.8 4e-14 := by apf
    refine this.bnd ?_
    rw [abs_le]; constructor <;> norm_num at * <;> linarith
  rw [refract_real]
  have er : refcor (π / 2 - z) = 0.061359 * (0.1594 + (1.1230 * (π / 2 - z)) + (0.065656 * ((π / 2 - z) * (π / 2 - z))))
    / (1.0 + (28.9344 * (π / 2 - z)) + (277.3971 * ((π / 2 - z) * (π / 2 - z)))) := rfl
  have ez : z - refcor (π / 2 - z) = π / 2 - ((π / 2 - z) + refcor (π / 2 - z)) := by ring
  rw [ez]
  unfold refract
  have hden := refden_ge (π / 2 - z)
  generalize (HALFPI - a : Rd A) = b at *
  generalize (π / 2 - z) = w at *
  have hn : Ap (0.061359 * (0.1594 + (1.1230 * b) + (0.065656 * (b * b))) : Rd A)
      (0.061359 * (0.1594 + (1.1230 * w) + (0.065656 * (w * w)))) 0.13 2e-14 := by apf
  have hdn : Ap (1.0 + (28.9344 * b) + (277.3971 * (b * b)) : Rd A)
      (1.0 + (28.9344 * w) + (277.3971 * (w * w))) 740 6e-11 := by apf
  have hq : Ap (refcor b : Rd A) (refcor w) 0.54 3e-10 := by
    rw [er]
    unfold refcor
    refine (Ap.div' 0.2454 hn hdn ?_ ?_ ?_).mono ?_ ?_
    · refine le_trans ?_ (le_abs_self _)
      norm_num at *; linarith
    all_goals norm_num
  apf

/-- the zenith angle, with or without refraction -/
theorem zenith_rd {r S : ℝ} (h : |r| ≤ 1) (h0 : |S| ≤ 1) (hr : |r - S| ≤ 2.65e-6) (hs : 0.003 ≤ sin (arccos S)) (ρ : Bool) :
    ∃ w, (withRefr ρ (Num.arccos (Rd.fin r) : Rd A)) = Rd.fin w ∧ |w| ≤ 5.4 ∧
      |w - withRefr ρ (arccos S)| * sin (arccos S) ≤ (if ρ then 1.609e-5 else 8.33e-6) := by
  have hb := abs_le.1 h
  have hb0 := abs_le.1 h0
  have p1 := pi_lt_d4
  have hd : |arccos r - arccos S| * sin (arccos S) ≤ 8.3253e-6 := by
    obtain ⟨h3, -⟩ := angle_of_cos (a := arccos r) (b := arccos S) (δ := 2.65e-6) ⟨arccos_nonneg _, arccos_le_pi _⟩
      ⟨arccos_nonneg _, arccos_le_pi _⟩ (by rwa [cos_arccos hb.1 hb.2, cos_arccos hb0.1 hb0.2])
    norm_num at *; linarith
  obtain ⟨v, hv, ev⟩ := A.arccos_spec r h
  have h1 : Ap (Num.arccos (Rd.fin r) : Rd A) (arccos r) 3.15 1e-14 := by
    refine ⟨?_, v, hv, ev⟩
    rw [abs_of_nonneg (arccos_nonneg _)]
    exact (arccos_le_pi r).trans (by norm_num at *; linarith)
  have hs1 := sin_le_one (arccos S)
  have hs0 : 0 ≤ sin (arccos S) := by norm_num at hs; linarith
  cases ρ with
  | false =>
    obtain ⟨m, w, hw, ew⟩ := h1
    refine ⟨w, hw, (Ap.fin_bound m ew).trans (by norm_num), ?_⟩
    show |w - arccos S| * sin (arccos S) ≤ 8.33e-6
    have : |w - arccos S| * sin (arccos S) ≤ (|w - arccos r| + |arccos r - arccos S|) * sin (arccos S) := by
      gcongr; exact abs_sub_le _ _ _
    have : |w - arccos r| * sin (arccos S) ≤ 1e-14 * 1 := by gcongr
    norm_num at *; linarith
  | true =>
    obtain ⟨m, w, hw, ew⟩ := refract_ap h1 ⟨arccos_nonneg _, arccos_le_pi _⟩
    refine ⟨w, hw, (Ap.fin_bound m ew).trans (by norm_num), ?_⟩
    show |w - refract (arccos S)| * sin (arccos S) ≤ 1.609e-5
    have hl := refract_lip (arccos r) (arccos S)
    have : |w - refract (arccos S)| * sin (arccos S) ≤ (1e-9 + 1.93 * |arccos r - arccos S|) * sin (arccos S) := by
      gcongr
      have := abs_sub_le w (refract (arccos r)) (refract (arccos S))
      linarith
    norm_num at *; linarith

/-- what the results of a cell are near to -/
structure NearPos (ρ : Bool) (ζ az : ℝ) (o : Out (Rd A)) : Prop where
  zenith : ∃ w, o.zenith = Rd.fin w ∧ |w| ≤ 5.4 ∧ |w - withRefr ρ ζ| * sin ζ ≤ (if ρ then 1.609e-5 else 8.33e-6)
  azimuth : Apm o.azimuth az (2 * π) (π + 1e-13) (5.43e-6 / sin ζ)

theorem cell_rd {t : ℤ} {x y : ℝ} (hy : |y| ≤ 90) {hh : Rd A}
    (hh' : Apm hh (H0 t + x * (π / 180)) (2 * π) 30 1.37e-6)
    (hs : 0.003 ≤ sin (zenR (y * (π / 180)) (decAt t) (H0 t + x * (π / 180)))) (ρ : Bool) (o : Out (Rd A))
    (hz : o.zenith = zenith ρ (cosLat (Num.f32 (Rd.fin y))) (sinLat (Num.f32 (Rd.fin y))) (decl (dayAngle t)) hh)
    (ha : ∀ {a ε}, Apm (az0 (cosLat (Num.f32 (Rd.fin y))) (sinLat (Num.f32 (Rd.fin y))) (decl (dayAngle t)) hh : Rd A) a (2 * π) (π + 1e-14) ε →
      Apm o.azimuth (Psa.azWrap a) (2 * π) (π + 1e-13) (ε + 1e-13)) :
    NearPos ρ (zenR (y * (π / 180)) (decAt t) (H0 t + x * (π / 180)))
      (aziR (y * (π / 180)) (decAt t) (H0 t + x * (π / 180))) o := by
  have hd : Ap (decl (dayAngle t : Rd A)) (decAt t) 0.4232 1e-12 := decl_ap (dayAngle_ap t)
  have hcd := cos_decAt t
  generalize (decl (dayAngle t : Rd A)) = dd at *
  generalize H0 t + x * (π / 180) = H at *
  generalize decAt t = D at *
  obtain ⟨S, hS⟩ : ∃ S, S = sin (y * (π / 180)) * sin D + cos (y * (π / 180)) * cos D * cos H := ⟨_, rfl⟩
  have ez : zenR (y * (π / 180)) D H = arccos S := by rw [hS]; rfl
  rw [ez] at hs ⊢
  have hc := cosz_ap hy hh' hd
  rw [← hS] at hc
  obtain ⟨hb, r, hr, er⟩ := hc
  have hb' := abs_le.1 hb
  have hs1 := sin_le_one (arccos S)
  constructor
  · have hu2 : sin (arccos S) ^ 2 = 1 - S ^ 2 := by
      have := sin_sq_add_cos_sq (arccos S); rw [cos_arccos hb'.1 hb'.2] at this; linarith
    have hS1 : |S| ≤ 1 - 4.4e-6 := by
      have h1 : (0.003 : ℝ) ^ 2 ≤ sin (arccos S) ^ 2 := by gcongr
      rw [hu2, ← sq_abs S] at h1
      by_contra hcon
      push Not at hcon
      have hq := pow_lt_pow_left₀ hcon (by norm_num) two_ne_zero
      generalize |S| ^ 2 = q at hq h1
      norm_num at hq h1; linarith
    have hr1 : |r| ≤ 1 := (Ap.fin_bound hS1 er).trans (by norm_num)
    rw [hz]
    unfold zenith
    rw [hr]
    exact zenith_rd hr1 hb er hs ρ
  · refine (ha (az0_apm hy hh' hd hcd hS hs)).mono le_rfl ?_
    generalize sin (arccos S) = v at *
    have hv : 0 < v := by norm_num at hs; linarith
    have q2 : 1e-8 ≤ 1e-8 / v := by rw [le_div_iff₀ hv]; norm_num; linarith
    have q3 : (5.43e-6 : ℝ) / v = 5.42e-6 / v + 1e-8 / v := by field_simp; norm_num
    rw [q3]
    norm_num at *; linarith

theorem cellPy_rd {t : ℤ} {x y : ℝ} (hx : |x| ≤ 180) (hy : |y| ≤ 90)
    (hs : 0.003 ≤ sin (zenR (y * (π / 180)) (decAt t) (H0 t + x * (π / 180)))) (ρ : Bool) :
    NearPos ρ (zenR (y * (π / 180)) (decAt t) (H0 t + x * (π / 180)))
      (aziR (y * (π / 180)) (decAt t) (H0 t + x * (π / 180))) (cellPy t (Rd.fin x : Rd A) (Rd.fin y) ρ) :=
  cell_rd hy (haPy_apm t (lonHours_ap hx)) hs ρ _ rfl (fun h => azWrapPy_apm h)

theorem cellNe_rd (q : Bool) {t : ℤ} {x y : ℝ} (hx : |x| ≤ 180) (hy : |y| ≤ 90)
    (hs : 0.003 ≤ sin (zenR (y * (π / 180)) (decAt t) (H0 t + x * (π / 180)))) (ρ : Bool) :
    NearPos ρ (zenR (y * (π / 180)) (decAt t) (H0 t + x * (π / 180)))
      (aziR (y * (π / 180)) (decAt t) (H0 t + x * (π / 180))) (cellNe q t (Rd.fin x : Rd A) (Rd.fin y) ρ) := by
  refine cell_rd hy (haNe_apm t ?_) hs ρ _ rfl (fun h => azWrapNe_apm h)
  cases q
  · exact (lon15_ap hx).mono le_rfl (by norm_num)
  · exact lonHours_ap hx

end Iqbal
end SW
