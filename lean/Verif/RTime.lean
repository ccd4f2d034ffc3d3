/-
The hour angles used by the four algorithms against mean solar time plus their equation of time.
-/
import Verif.RPsa
import Verif.RSoltrack
import Verif.RIqbal
import Verif.RNrel

namespace SW
open Real

/-- the west hour angle of the mean sun at longitude 0, at a unix time of `t` seconds -/
noncomputable def meanAngle (t : ℤ) : ℝ := 2 * π * ((t : ℝ) / 86400) - π

theorem Psa.H0_eot {t : ℤ} (h : InSec t) : ∃ D : ℝ, ∃ k : ℤ, |D| ≤ 3.6e-4 ∧
    Psa.H0 t = meanAngle t + (Psa.timeNe (t : ℝ)).eot * (2 * π / 1440) + D + k * (2 * π) := by
  obtain ⟨s, k, -, h2, h3⟩ := Psa.eot_spec (Psa.jde_bound h)
  have e : (Psa.timeNe (t : ℝ)).eot = 4 * (s * (180 / π)) := h3
  have eg : (Psa.timeNe (t : ℝ)).gmst = 6.697096103 + 6.570984737e-2 * (Psa.jde (t : ℝ))
    + rcmod ((t : ℝ) / 86400) 1 * 24 := rfl
  obtain ⟨n, hn⟩ := rcmod_eq ((t : ℝ) / 86400) 1
  have er : (Psa.timeNe (t : ℝ)).ra = Psa.ra (Psa.ep (Psa.jde (t : ℝ))) (Psa.eclon (Psa.jde (t : ℝ))) := rfl
  obtain ⟨j, hj⟩ : ∃ j, j = Psa.jde (t : ℝ) := ⟨_, rfl⟩
  have hb : |j| ≤ 117710 := hj ▸ Psa.jde_bound h
  have eL : Psa.L j = 4.895036035 + 1.720279602e-2 * j := rfl
  refine ⟨(6.697096103 * π / 12 - 4.895036035 + π) + (6.570984737e-2 * π / 12 - 1.720279602e-2) * j,
    k - n, ?_, ?_⟩
  · have p1 := pi_gt_d20
    have p2 := pi_lt_d20
    have a : |(6.697096103 * π / 12 - 4.895036035 + π)| ≤ 1.479e-4 := by
      rw [abs_le]; norm_num at p1 p2 ⊢; constructor <;> linarith
    have b : |6.570984737e-2 * π / 12 - 1.720279602e-2| ≤ 1.795e-9 := by
      rw [abs_le]; norm_num at p1 p2 ⊢; constructor <;> linarith
    have c := Nrel.abs_mul_le' b hb
    refine (abs_add_le _ _).trans ((add_le_add a c).trans ?_)
    norm_num
  · rw [← hj] at h2 eg er
    rw [Psa.H0, eg, er, e, hn]
    have : Psa.ra (Psa.ep j) (Psa.eclon j) = Psa.L j - s - k * (2 * π) := by linarith
    rw [this, eL]
    unfold meanAngle
    push_cast
    have hp := pi_ne_zero
    field_simp
    ring

theorem Soltrack.H0_eot {t : ℤ} (h : InSec t) : ∃ D : ℝ, ∃ k : ℤ, |D| ≤ 3.1e-5 ∧
    Soltrack.H0 t = meanAngle t + Soltrack.eotAt t * (2 * π / 1440) + D + k * (2 * π) := by
  obtain ⟨s, -, ⟨k, h2⟩, -, h3⟩ := Soltrack.eot_spec (Soltrack.tJC_bound h)
  have e : Soltrack.eotAt t = s := h3
  obtain ⟨c, hc⟩ : ∃ c, c = Soltrack.tJC (Soltrack.tJD (t : ℝ)) := ⟨_, rfl⟩
  have hb : |c| ≤ 3.23 := hc ▸ Soltrack.tJC_bound h
  have ec : (t : ℝ) / 86400 = 36525 * c + 10957.5 := by
    have : c = ((t : ℝ) / 86400 - 10957.5) / 36525.0 := hc
    rw [this]; norm_num; ring
  have eg : Soltrack.gmst (Soltrack.tJD (t : ℝ)) = 4.89496121 + 6.300388098985 * (36525 * c) + 6.77e-6 * c ^ 2 := by
    have : Soltrack.gmst (Soltrack.tJD (t : ℝ)) = 4.89496121 + 6.300388098985 * ((t : ℝ) / 86400 - 10957.5)
      + 6.77e-6 * (Soltrack.tJC (Soltrack.tJD (t : ℝ))) ^ 2 := rfl
    rw [this, ← hc, ec]; ring
  have el : Soltrack.l0 c = 4.895063168 + 628.331966786 * c + 5.291838e-6 * c ^ 2 := rfl
  have ex : Soltrack.xr0 c = -0.0057183 + (Soltrack.l0 c - Soltrack.raR c
    + Soltrack.dpsi c * cos (Soltrack.obliquity c)) * (180 / π) := by unfold Soltrack.xr0; rfl
  have ea : Soltrack.agst (Soltrack.tJD (t : ℝ)) = Soltrack.gmst (Soltrack.tJD (t : ℝ))
    + Soltrack.dpsi c * cos (Soltrack.obliquity c) := by rw [hc]; rfl
  refine ⟨(4.89496121 - 4.895063168 + 0.0057183 * (π / 180))
    + (6.300388098985 * 36525 - 628.331966786 - 2 * π * 36525) * c
    + (6.77e-6 - 5.291838e-6) * c ^ 2, k - 10957, ?_, ?_⟩
  · have p1 := pi_gt_d20
    have p2 := pi_lt_d20
    have a : |(4.89496121 - 4.895063168 + 0.0057183 * (π / 180))| ≤ 2.2e-6 := by
      rw [abs_le]; norm_num at p1 p2 ⊢; constructor <;> linarith
    have b : |6.300388098985 * 36525 - 628.331966786 - 2 * π * 36525| ≤ 4e-6 := by
      rw [abs_le]; norm_num at p1 p2 ⊢; constructor <;> linarith
    have b' := Nrel.abs_mul_le' b hb
    have c2 : |c ^ 2| ≤ 3.23 ^ 2 := by
      rw [abs_pow]; exact pow_le_pow_left₀ (abs_nonneg _) hb _
    have d : |(6.77e-6 - 5.291838e-6 : ℝ)| ≤ 1.4782e-6 := by rw [abs_le]; norm_num
    have d' := Nrel.abs_mul_le' d c2
    refine (abs_add_le _ _).trans ((add_le_add ((abs_add_le _ _).trans (add_le_add a b')) d').trans ?_)
    norm_num
  · rw [← hc] at h2
    have hra : Soltrack.raR c = Soltrack.l0 c + Soltrack.dpsi c * cos (Soltrack.obliquity c)
      - (s / 4 + 360 * k + 0.0057183) * (π / 180) := by
      rw [ex] at h2
      have : (Soltrack.l0 c - Soltrack.raR c + Soltrack.dpsi c * cos (Soltrack.obliquity c)) * (180 / π)
        = s / 4 + 360 * k + 0.0057183 := by norm_num at h2 ⊢; linarith
      rw [← this]; field_simp; ring
    unfold Soltrack.H0 meanAngle
    rw [← hc, ea, eg, hra, el, e, ec]
    push_cast
    ring

theorem Iqbal.stdTime_eq (t : ℤ) : (Iqbal.stdTime t : ℝ) = ((t % 86400 : ℤ) : ℝ) / 3600 := by
  have : (Iqbal.stdTime t : ℝ) = (Iqbal.hour t : ℝ) + ((Iqbal.minute t : ℝ) + (Iqbal.second t : ℝ) / 60.0) / 60.0 := rfl
  rw [this]
  have h1 : t % 86400 = 3600 * Iqbal.hour t + 60 * Iqbal.minute t + Iqbal.second t := by
    unfold Iqbal.hour Iqbal.minute Iqbal.second; omega
  rw [h1]; push_cast; norm_num; ring

theorem Iqbal.H0_eot (t : ℤ) : ∃ k : ℤ,
    Iqbal.H0 t = meanAngle t + Iqbal.eotMinutes (Iqbal.dayAngle t : ℝ) * (2 * π / 1440) + k * (2 * π) := by
  refine ⟨-(t / 86400), ?_⟩
  have e : (Iqbal.eotMinutes (Iqbal.dayAngle t : ℝ) : ℝ) = Iqbal.eotHours (Iqbal.dayAngle t : ℝ) * 60 := rfl
  rw [e]
  unfold Iqbal.H0 meanAngle
  rw [Iqbal.stdTime_eq]
  have : (t : ℝ) = 86400 * ((t / 86400 : ℤ) : ℝ) + ((t % 86400 : ℤ) : ℝ) := by
    exact_mod_cast (Int.mul_ediv_add_emod t 86400).symm
  rw [Int.cast_neg]
  generalize ((t / 86400 : ℤ) : ℝ) = q at *
  generalize ((t % 86400 : ℤ) : ℝ) = r at *
  rw [this]; ring

theorem Nrel.H0_eot {t : ℤ} (h : InSec t) : ∃ D : ℝ, ∃ k : ℤ, |D| ≤ 4.6e-5 ∧
    Nrel.H0 t = meanAngle t + (Nrel.time (t : ℝ)).eot * (2 * π / 1440) + D + k * (2 * π) := by
  obtain ⟨s, k, -, h2, h3⟩ := Nrel.eot_spec' (Nrel.mOf_bound h) (Nrel.cOf t)
  have e : (Nrel.time (t : ℝ)).eot = s * 4 := h3
  obtain ⟨c, hc⟩ : ∃ c : ℝ, c = ((t : ℝ) / 86400 - 10957.5) / 36525 := ⟨_, rfl⟩
  have ec : (t : ℝ) / 86400 = 36525 * c + 10957.5 := by rw [hc]; norm_num; ring
  have hb : |c| ≤ 3.23 := hc ▸ (by
    have := Soltrack.tJC_bound h
    have e1 : Soltrack.tJC (Soltrack.tJD (t : ℝ)) = ((t : ℝ) / 86400 - 10957.5) / 36525.0 := rfl
    rw [e1] at this; norm_num at this ⊢; exact this)
  have em : Nrel.mOf (t : ℝ) = c / 10 + 67 / 86400 / 365250 := by
    have : Nrel.mOf (t : ℝ) = ((t : ℝ) / 86400 + 2440587.5 + 67.0 / 86400 - 2451545) / 36525 / 10 := rfl
    rw [this, ec]; norm_num; ring
  have hm := Nrel.mOf_bound h
  obtain ⟨m, hme⟩ : ∃ m, m = Nrel.mOf (t : ℝ) := ⟨_, rfl⟩
  rw [← hme] at em hm h2
  have eml : Nrel.meanLon m = 280.4664567 + 360007.6982779 * m + 0.03032028 * m ^ 2 + m ^ 3 / 49931
    - m ^ 4 / 15300 - m ^ 5 / 2000000 := rfl
  obtain ⟨n, hn⟩ := rcmod_eq (280.46061837 + 360.98564736629 * (36525 * c) + 0.000387933 * c ^ 2
    - c ^ 3 / 38710000) 360.0
  have ev : Nrel.v0 (Nrel.jd (t : ℝ)) (Nrel.jc (Nrel.jd (t : ℝ))) = 280.46061837 + 360.98564736629 * (36525 * c)
      + 0.000387933 * c ^ 2 - c ^ 3 / 38710000 - n * 360 := by
    rw [show (360 : ℝ) = 360.0 by norm_num, ← hn]
    have e1 : Nrel.jd (t : ℝ) - 2451545 = 36525 * c := by
      have : Nrel.jd (t : ℝ) = (t : ℝ) / 86400 + 2440587.5 := rfl
      rw [this, ec]; norm_num; ring
    have e2 : Nrel.jc (Nrel.jd (t : ℝ)) = c := by
      have : Nrel.jc (Nrel.jd (t : ℝ)) = (Nrel.jd (t : ℝ) - 2451545) / 36525 := rfl
      rw [this, e1]; ring
    have : Nrel.v0 (Nrel.jd (t : ℝ)) (Nrel.jc (Nrel.jd (t : ℝ))) = rcmod (280.46061837
      + 360.98564736629 * (Nrel.jd (t : ℝ) - 2451545) + 0.000387933 * (Nrel.jc (Nrel.jd (t : ℝ))) ^ 2
      - (Nrel.jc (Nrel.jd (t : ℝ))) ^ 3 / 38710000) 360.0 := rfl
    rw [this, e1, e2]
  have eH : Nrel.H0 t = (Nrel.v0 (Nrel.jd (t : ℝ)) (Nrel.jc (Nrel.jd (t : ℝ)))
    + (Nrel.deltaPsi m (Nrel.cOf t) * cos (Nrel.epsAt m (Nrel.cOf t)))
    - Nrel.alpha (Nrel.lamAt m (Nrel.cOf t)) (Nrel.epsAt m (Nrel.cOf t)) (Nrel.beta m)) * (π / 180) := by
    rw [hme]; rfl
  obtain ⟨G, hG⟩ : ∃ G, G = (280.46061837 - 280.4664567 + 0.0057183 - 360007.6982779 * (67 / 86400 / 365250))
      + (360.98564736629 * 36525 - 36000.76982779 - 360 * 36525) * c
      + (0.0387933 - 0.03032028) * m ^ 2 + (c ^ 2 * 0.000387933 - 0.0387933 * m ^ 2)
      + (-(m ^ 3 / 49931) + m ^ 4 / 15300 + m ^ 5 / 2000000 - c ^ 3 / 38710000) := ⟨_, rfl⟩
  refine ⟨G * (π / 180), k - n - 10957, ?_, ?_⟩
  · obtain ⟨q2, q3, q4, q5⟩ := Nrel.pows hm
    have c3 : |c ^ 3| ≤ 3.23 ^ 3 := by
      rw [abs_pow]; exact pow_le_pow_left₀ (abs_nonneg _) hb _
    have cc : |c ^ 2 * 0.000387933 - 0.0387933 * m ^ 2| ≤ 1e-6 := by
      rw [em]
      have := abs_le.1 hb
      rw [abs_le]; norm_num at this ⊢; constructor <;> nlinarith [this.1, this.2]
    have hGb : |G| ≤ 0.0026 := by
      rw [hG]
      have q2 := abs_le.1 q2
      have q3 := abs_le.1 q3
      have q4 := abs_le.1 q4
      have q5 := abs_le.1 q5
      have c3 := abs_le.1 c3
      have cc := abs_le.1 cc
      have hb := abs_le.1 hb
      rw [abs_le]
      norm_num at q2 q3 q4 q5 c3 cc hb ⊢
      constructor <;> linarith [q2.1, q2.2, q3.1, q3.2, q4.1, q4.2, q5.1, q5.2, c3.1, c3.2, cc.1, cc.2, hb.1, hb.2]
    have p2 := pi_lt_d4
    have hpb : |π / 180| ≤ 3.1416 / 180 := by
      rw [abs_of_pos (by positivity)]; norm_num at p2 ⊢; linarith
    refine (Nrel.abs_mul_le' hGb hpb).trans ?_
    norm_num
  · have hal : Nrel.alpha (Nrel.lamAt m (Nrel.cOf t)) (Nrel.epsAt m (Nrel.cOf t)) (Nrel.beta m)
      = Nrel.meanLon m - 0.0057183 + Nrel.deltaPsi m (Nrel.cOf t) * cos (Nrel.epsAt m (Nrel.cOf t))
        - s - 360 * k := by linarith
    rw [eH, hal, ev, eml, e, hG]
    unfold meanAngle
    rw [ec]
    push_cast
    have em' : c = 10 * m - 10 * (67 / 86400 / 365250) := by rw [em]; ring
    rw [em']
    ring

end SW
