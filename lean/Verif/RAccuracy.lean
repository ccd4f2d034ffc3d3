/-
Declination, equation of time and hour angle of psa, soltrack and nrel against the reference
ephemeris.
-/
import Verif.RNrelNear

namespace SW.Ephem
open Real

/-- declinations -/
theorem dec_cmp {T L l e a b g x τ : ℝ} (N : Near T L l e a b g)
    (hx : |x - sin e * sin l| ≤ τ) (hx1 : |x| ≤ 1) (hxa : |arcsin x| ≤ 0.4154) :
    |arcsin x - declination T| ≤ (τ + b + 0.404 * a) / 0.91 := by
  obtain ⟨o1, o2⟩ := obliquity_bound N.cent
  have hp := pi_gt_d2
  have ha : |arcsin (sin (obliquity T) * sin (longitude T))| ≤ 0.4154 := by
    refine (Psa.arcsin_bound ⟨?_, ?_⟩).trans ?_ <;> norm_num at o1 o2 hp ⊢ <;> linarith
  have hs : 0 ≤ sin (obliquity T) ∧ sin (obliquity T) ≤ 0.404 := by
    refine ⟨sin_nonneg_of_nonneg_of_le_pi ?_ ?_, le_trans (sin_le_sin_of_le_of_le_pi_div_two ?_ ?_ ?_) sin_4154⟩ <;>
      norm_num at o1 o2 hp ⊢ <;> linarith
  have hb1 : |sin (obliquity T) * sin (longitude T)| ≤ 1 := by
    rw [abs_mul]; exact mul_le_one₀ (abs_sin_le_one _) (abs_nonneg _) (abs_sin_le_one _)
  have h1 := arcsin_sub_le hxa ha hx1 hb1
  refine h1.trans ?_
  have d1 := (abs_sin_sub_sin_le e (obliquity T)).trans N.obl
  have d2 := (abs_sin_sub_sin_le l (longitude T)).trans N.lon
  have hb0 : 0 ≤ b := (abs_nonneg _).trans N.obl
  have e1 : x - sin (obliquity T) * sin (longitude T)
      = (x - sin e * sin l) + ((sin e - sin (obliquity T)) * sin l
        + sin (obliquity T) * (sin l - sin (longitude T))) := by ring
  have e2 : |x - sin (obliquity T) * sin (longitude T)| ≤ τ + b + 0.404 * a := by
    rw [e1]
    have t1 := Nrel.abs_mul_le' d1 (abs_sin_le_one l)
    have t2 := Nrel.abs_mul_le' (by rw [abs_of_nonneg hs.1]; exact hs.2 : |sin (obliquity T)| ≤ 0.404) d2
    refine (abs_add_le _ _).trans ((add_le_add hx ((abs_add_le _ _).trans (add_le_add t1 t2))).trans ?_)
    linarith
  exact div_le_div_of_nonneg_right e2 (by norm_num)

/-- equations of time -/
theorem eot_cmp {T L l e a b g τ : ℝ} (N : Near T L l e a b g) (he : 0.408 ≤ e ∧ e ≤ 0.4102)
    (ht : |τ| ≤ 1e-5) : ∃ k : ℤ, |(L - ratan2 (sin l * cos e - τ) (cos l))
      - (meanLongitude T - rightAscension T) - k * (2 * π)| ≤ g + 0.61 * b + 0.105 * a + 1.17 * |τ| := by
  have c1 := Psa.cos_ep_bound (e := e) ⟨by norm_num at *; linarith, by norm_num at *; linarith⟩
  obtain ⟨o1, o2⟩ := obliquity_bound N.cent
  have c2 := Psa.cos_ep_bound (e := obliquity T) ⟨by norm_num at *; linarith, by norm_num at *; linarith⟩
  obtain ⟨η, η', k, k', h1, h2, h3⟩ := ra_cmp (l := l) (l' := longitude T) c1 c2 ht
  refine ⟨k' - k, ?_⟩
  have hra : rightAscension T = longitude T + η' + k' * (2 * π) := h2
  rw [h1, hra]
  have e1 : L - (l + η + k * (2 * π)) - (meanLongitude T - (longitude T + η' + k' * (2 * π)))
      - ((k' - k : ℤ) : ℝ) * (2 * π)
      = -((l - L) - (longitude T - meanLongitude T)) - (η - η') := by push_cast; ring
  rw [e1]
  have hcos : |cos e - cos (obliquity T)| ≤ b := (abs_cos_sub_cos_le _ _).trans N.obl
  have hb : |η - η'| ≤ 0.61 * b + 0.105 * a + 1.17 * |τ| := by
    refine h3.trans ?_
    have i1 : 0.61 * |cos e - cos (obliquity T)| ≤ 0.61 * b := by gcongr
    have i2 : 0.105 * |l - longitude T| ≤ 0.105 * a := by gcongr; exact N.lon
    linarith
  refine (abs_sub _ _).trans ?_
  rw [abs_neg]
  linarith [N.center]

theorem psa_hT {t : ℤ} {T : ℝ} (hT : |T - ((t : ℝ) / 86400 - 10957.5) / 36525| ≤ 3.2e-10) :
    |T - Psa.jdc (Psa.jde (t : ℝ))| ≤ 3.2e-10 := by
  have : Psa.jdc (Psa.jde (t : ℝ)) = ((t : ℝ) / 86400 - 10957.5) / 36525.0 := rfl
  rw [this, show (36525.0 : ℝ) = 36525 by norm_num]; exact hT

section
variable {t : ℤ} (h : InSec t) {T : ℝ} (hT : |T - ((t : ℝ) / 86400 - 10957.5) / 36525| ≤ 3.2e-10)
include h hT

theorem psa_dec : |(Psa.timeNe (t : ℝ)).delta - declination T| ≤ 5.42e-4 := by
  have N := psa_near h (psa_hT hT)
  have e : (Psa.timeNe (t : ℝ)).delta = arcsin (sin (Psa.ep (Psa.jde (t : ℝ))) * sin (Psa.eclon (Psa.jde (t : ℝ)))) := rfl
  have hb : |(Psa.timeNe (t : ℝ)).delta| ≤ 0.41 := Psa.delta_bound (Psa.jde_bound h)
  rw [e] at hb ⊢
  refine (dec_cmp N (τ := 0) (by rw [sub_self, abs_zero]) ?_ (hb.trans (by norm_num))).trans (by norm_num)
  rw [abs_mul]; exact mul_le_one₀ (abs_sin_le_one _) (abs_nonneg _) (abs_sin_le_one _)

theorem sol_dec : |Soltrack.decAt t - declination T| ≤ 1.22e-4 := by
  have N := soltrack_near h (psa_hT hT)
  have hb : |Soltrack.decAt t| ≤ 0.41 := Soltrack.decR_bound (Soltrack.tJC_bound h)
  refine (dec_cmp N (τ := 0) (by rw [sub_self, abs_zero]) ?_ (hb.trans (by norm_num))).trans (by norm_num)
  rw [abs_mul]; exact mul_le_one₀ (abs_sin_le_one _) (abs_nonneg _) (abs_sin_le_one _)

theorem nrel_dec : |(Nrel.time (t : ℝ)).delta - declination T| ≤ 3.3e-4 := by
  have N := Nrel.near h hT
  have hb : |(Nrel.time (t : ℝ)).delta| ≤ 0.4153 := Nrel.time_delta h
  obtain ⟨k, hk⟩ := Nrel.lamAt_turn (Nrel.mOf (t : ℝ)) (Nrel.cOf (t : ℝ))
  obtain ⟨m, hm⟩ : ∃ m, m = Nrel.mOf (t : ℝ) := ⟨_, rfl⟩
  obtain ⟨c, hc⟩ : ∃ m, m = Nrel.cOf (t : ℝ) := ⟨_, rfl⟩
  have e : (Nrel.time (t : ℝ)).delta = Nrel.delta (Nrel.beta m) (Nrel.epsAt m c) (Nrel.lamAt m c) := by
    rw [hm, hc]; rfl
  rw [← hm, ← hc] at N hk
  obtain ⟨l, hl⟩ : ∃ l, l = (Nrel.Lraw m + 180 + Nrel.deltaPsi m c + Nrel.deltaTau (Nrel.R m)) * (π / 180) := ⟨_, rfl⟩
  rw [← hl] at N hk
  have hβ := Nrel.beta_bound (Nrel.mOf_bound h)
  rw [← hm] at hβ
  have hsl : sin (Nrel.lamAt m c) = sin l := by rw [hk, sin_add_int_mul_two_pi]
  rw [e, Nrel.delta_real, hsl] at hb ⊢
  refine (dec_cmp N (τ := 7e-6) ?_ ?_ (hb.trans (by norm_num))).trans (by norm_num)
  · have e1 : sin (Nrel.beta m) * cos (Nrel.epsAt m c) + cos (Nrel.beta m) * sin (Nrel.epsAt m c) * sin l
      - sin (Nrel.epsAt m c) * sin l = sin (Nrel.beta m) * cos (Nrel.epsAt m c)
      + (cos (Nrel.beta m) - 1) * (sin (Nrel.epsAt m c) * sin l) := by ring
    rw [e1]
    have a1 : |sin (Nrel.beta m) * cos (Nrel.epsAt m c)| ≤ 6e-6 * 1 :=
      Nrel.abs_mul_le' ((abs_sin_le_abs).trans hβ) (abs_cos_le_one _)
    have a2 : |(cos (Nrel.beta m) - 1) * (sin (Nrel.epsAt m c) * sin l)| ≤ 1e-6 * (1 * 1) := by
      refine Nrel.abs_mul_le' ?_ (Nrel.abs_mul_le' (abs_sin_le_one _) (abs_sin_le_one _))
      have b1 := one_sub_sq_div_two_le_cos (x := Nrel.beta m)
      have b2 := cos_le_one (Nrel.beta m)
      have b3 : Nrel.beta m ^ 2 ≤ 6e-6 ^ 2 := by rw [← sq_abs]; exact pow_le_pow_left₀ (abs_nonneg _) hβ 2
      rw [abs_le]; norm_num at b3 ⊢; constructor <;> linarith
    refine (abs_add_le _ _).trans ((add_le_add a1 a2).trans (by norm_num))
  · exact Nrel.delta_arg _ _ _

theorem psa_eot : ∃ k : ℤ, |(Psa.timeNe (t : ℝ)).eot * (2 * π / 1440)
    - (meanLongitude T - rightAscension T) - k * (2 * π)| ≤ 7.9e-4 := by
  have N := psa_near h (psa_hT hT)
  obtain ⟨s, k, -, h2, h3⟩ := Psa.eot_spec (Psa.jde_bound h)
  have e : (Psa.timeNe (t : ℝ)).eot = 4 * (s * (180 / π)) := h3
  have hep := Psa.ep_bound (Psa.jde_bound h)
  obtain ⟨k', hk'⟩ := eot_cmp N (τ := 0) ⟨hep.1, hep.2.trans (by norm_num)⟩ (by rw [abs_zero]; norm_num)
  obtain ⟨k'', hk''⟩ : ∃ k'' : ℤ, Psa.ra (Psa.ep (Psa.jde (t : ℝ))) (Psa.eclon (Psa.jde (t : ℝ)))
      = ratan2 (sin (Psa.eclon (Psa.jde (t : ℝ))) * cos (Psa.ep (Psa.jde (t : ℝ))) - 0)
        (cos (Psa.eclon (Psa.jde (t : ℝ)))) + k'' * (2 * π) := by
    rw [Psa.ra_real, sub_zero, mul_comm (sin _)]
    split_ifs
    · exact ⟨1, by push_cast; ring⟩
    · exact ⟨0, by push_cast; ring⟩
  refine ⟨k' - k - k'', ?_⟩
  rw [abs_zero] at hk'
  refine le_trans (le_of_eq ?_) (hk'.trans (by norm_num))
  congr 1
  rw [hk''] at h2
  have hp := pi_ne_zero
  have e2 : (Psa.timeNe (t : ℝ)).eot * (2 * π / 1440) = s := by rw [e]; field_simp; ring
  rw [e2]; push_cast; linarith

theorem sol_eot : ∃ k : ℤ, |Soltrack.eotAt t * (2 * π / 1440)
    - (meanLongitude T - rightAscension T) - k * (2 * π)| ≤ 6.4e-5 := by
  have N := soltrack_near h (psa_hT hT)
  obtain ⟨s, -, ⟨k, h2⟩, -, h3⟩ := Soltrack.eot_spec (Soltrack.tJC_bound h)
  have e : Soltrack.eotAt t = s := h3
  have hep := Soltrack.ob_bound (Soltrack.tJC_bound h)
  obtain ⟨k', hk'⟩ := eot_cmp N (τ := 0) ⟨hep.1, hep.2.trans (by norm_num)⟩ (by rw [abs_zero]; norm_num)
  obtain ⟨c, hc⟩ : ∃ c, c = Soltrack.tJC (Soltrack.tJD (t : ℝ)) := ⟨_, rfl⟩
  rw [← hc] at hk' h2
  have era : ratan2 (sin (Soltrack.Lraw c) * cos (Soltrack.obliquity c) - 0) (cos (Soltrack.Lraw c)) = Soltrack.raR c := by
    rw [sub_zero, mul_comm]; rfl
  rw [era, abs_zero] at hk'
  refine ⟨k' - k, ?_⟩
  refine le_trans (le_of_eq ?_) (hk'.trans (by norm_num))
  congr 1
  have ex : Soltrack.xr0 c = -0.0057183 + (Soltrack.l0 c - Soltrack.raR c
    + Soltrack.dpsi c * cos (Soltrack.obliquity c)) * (180 / π) := by unfold Soltrack.xr0; rfl
  have hp := pi_ne_zero
  have : s = 4 * Soltrack.xr0 c - 1440 * k := by linarith
  rw [e, this, ex]
  push_cast
  field_simp
  ring

theorem nrel_eot : ∃ k : ℤ, |(Nrel.time (t : ℝ)).eot * (2 * π / 1440)
    - (meanLongitude T - rightAscension T) - k * (2 * π)| ≤ 5.1e-4 := by
  have N := Nrel.near h hT
  obtain ⟨s, k, -, h2, h3⟩ := Nrel.eot_spec' (Nrel.mOf_bound h) (Nrel.cOf t)
  have e : (Nrel.time (t : ℝ)).eot = s * 4 := h3
  have hep := Nrel.epsAt_bound (Nrel.mOf_bound h) (Nrel.cOf t)
  have hβ := Nrel.tan_beta_bound (e := Nrel.epsAt (Nrel.mOf t) (Nrel.cOf t)) (Nrel.beta_bound (Nrel.mOf_bound h))
  obtain ⟨k', hk'⟩ := eot_cmp N (τ := rtan (Nrel.beta (Nrel.mOf t)) * sin (Nrel.epsAt (Nrel.mOf t) (Nrel.cOf t))) hep hβ
  obtain ⟨n, hn⟩ := Nrel.lamAt_turn (Nrel.mOf (t : ℝ)) (Nrel.cOf (t : ℝ))
  obtain ⟨m, hm⟩ : ∃ m, m = Nrel.mOf (t : ℝ) := ⟨_, rfl⟩
  obtain ⟨c, hc⟩ : ∃ m, m = Nrel.cOf (t : ℝ) := ⟨_, rfl⟩
  rw [← hm, ← hc] at hk' hn h2 hβ
  obtain ⟨l, hl⟩ : ∃ l, l = (Nrel.Lraw m + 180 + Nrel.deltaPsi m c + Nrel.deltaTau (Nrel.R m)) * (π / 180) := ⟨_, rfl⟩
  rw [← hl] at hk' hn
  have hal := Nrel.alpha_real (Nrel.lamAt m c) (Nrel.epsAt m c) (Nrel.beta m)
  rw [hn, sin_add_int_mul_two_pi, cos_add_int_mul_two_pi, ← hn] at hal
  obtain ⟨r, hr⟩ : ∃ r, r = ratan2 (sin l * cos (Nrel.epsAt m c) - rtan (Nrel.beta m) * sin (Nrel.epsAt m c)) (cos l) := ⟨_, rfl⟩
  rw [← hr] at hk' hal
  obtain ⟨j, hj⟩ := rcmod_eq (r * (180 / π)) 360
  rw [hj] at hal
  refine ⟨k' - k + j, ?_⟩
  refine le_trans (le_of_eq ?_) (hk'.trans ?_)
  · congr 1
    have hp := pi_ne_zero
    have : s = Nrel.meanLon m - 0.0057183 - Nrel.alpha (Nrel.lamAt m c) (Nrel.epsAt m c) (Nrel.beta m)
      + Nrel.deltaPsi m c * cos (Nrel.epsAt m c) - 360 * k := by linarith
    rw [e, this, hal]
    push_cast
    field_simp
    ring
  · norm_num at hβ ⊢; linarith

end

/-- sidereal time minus mean longitude is mean solar time -/
theorem sidereal_mean {t : ℤ} {T : ℝ} (hT3 : |T| ≤ 3.24)
    (hT : |T - ((t : ℝ) / 86400 - 10957.5) / 36525| ≤ 3.2e-10) : ∃ k : ℤ,
    |meanAngle t + meanLongitude T - siderealTime T - k * (2 * π)| ≤ 1.02e-4 := by
  refine ⟨10957, ?_⟩
  have e : meanAngle t + meanLongitude T - siderealTime T - ((10957 : ℤ) : ℝ) * (2 * π)
      = 2 * π * 36525 * (((t : ℝ) / 86400 - 10957.5) / 36525 - T) + (π / 180) * (0.0002 - 0.00038925 * T) := by
    unfold meanAngle meanLongitude siderealTime deg
    push_cast
    norm_num
    ring
  rw [e]
  have p := pi_lt_d6
  have p1 : |2 * π * 36525| ≤ 229500 := by
    rw [abs_of_pos (by positivity)]; norm_num at p ⊢; linarith
  have p2 : |π / 180| ≤ 0.0175 := by
    rw [abs_of_pos (by positivity)]; norm_num at p ⊢; linarith
  have hT' := hT
  rw [abs_sub_comm] at hT'
  have a1 := Nrel.abs_mul_le' p1 hT'
  have a2 : |0.0002 - 0.00038925 * T| ≤ 0.00156 := by
    have := abs_le.1 hT3
    rw [abs_le]; norm_num at this ⊢; constructor <;> linarith [this.1, this.2]
  refine (abs_add_le _ _).trans ((add_le_add a1 (Nrel.abs_mul_le' p2 a2)).trans ?_)
  norm_num

/-- hour angles -/
theorem hour_cmp {t : ℤ} {T H E D B : ℝ} {k : ℤ} (hT3 : |T| ≤ 3.24)
    (hT : |T - ((t : ℝ) / 86400 - 10957.5) / 36525| ≤ 3.2e-10)
    (hH : H = meanAngle t + E * (2 * π / 1440) + D + k * (2 * π))
    (hE : ∃ k : ℤ, |E * (2 * π / 1440) - (meanLongitude T - rightAscension T) - k * (2 * π)| ≤ B) :
    ∃ k : ℤ, |H - hourAngle T - k * (2 * π)| ≤ 1.02e-4 + B + |D| := by
  obtain ⟨k1, h1⟩ := sidereal_mean hT3 hT
  obtain ⟨k2, h2⟩ := hE
  refine ⟨k + k1 + k2, ?_⟩
  have e : H - hourAngle T - ((k + k1 + k2 : ℤ) : ℝ) * (2 * π)
      = (meanAngle t + meanLongitude T - siderealTime T - k1 * (2 * π))
        + (E * (2 * π / 1440) - (meanLongitude T - rightAscension T) - k2 * (2 * π)) + D := by
    rw [hH]; unfold hourAngle; push_cast; ring
  rw [e]
  refine (abs_add_le _ _).trans (add_le_add ((abs_add_le _ _).trans (add_le_add h1 h2)) le_rfl)

end SW.Ephem
