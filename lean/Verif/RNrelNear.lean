/-
The elements of the NREL algorithm are near the reference ephemeris.
-/
import Verif.RNrelEphem

namespace SW.Nrel
open Real

theorem Lper_main {m : ℝ} (h : |m| ≤ 0.323) : |Lper m - (0.00052919 * m ^ 2
    + (0.03341656 * cos (4.6692568 + 6283.07585 * m) + 0.00034894 * cos (4.6261 + 12566.1517 * m)
      + 0.00206059 * cos (2.678235 + 6283.07585 * m) * m))| ≤ 3.17e-4 := by
  obtain ⟨p2, p3, p4, p5⟩ := pows h
  have a0 := abs_le.1 (L0_main m)
  have a1 := abs_le.1 (abs_mul_le' (L1_main m) h)
  have a2 := abs_le.1 (abs_mul_le' (L2_main m) p2)
  have a3 := abs_le.1 (abs_mul_le' (L3_bound m) p3)
  have a4 := abs_le.1 (abs_mul_le' (L4_bound m) p4)
  have a5 := abs_le.1 (abs_mul_le' (L5_bound m) p5)
  unfold Lper
  generalize cos (4.6692568 + 6283.07585 * m) = c1 at *
  generalize cos (4.6261 + 12566.1517 * m) = c2 at *
  generalize cos (2.678235 + 6283.07585 * m) = c3 at *
  generalize series 64 paramsL0 m = s0 at *
  generalize series 64 paramsL1 m = s1 at *
  generalize series 64 paramsL2 m = s2 at *
  generalize series 64 paramsL3 m = s3 at *
  generalize series 64 paramsL4 m = s4 at *
  generalize series 64 paramsL5 m = s5 at *
  have e : ((s0 - 175347046) + (s1 - 628331966747) * m + s2 * m ^ 2 + s3 * m ^ 3 + s4 * m ^ 4
    + s5 * m ^ 5) / 100000000 - (0.00052919 * m ^ 2 + (0.03341656 * c1 + 0.00034894 * c2 + 0.00206059 * c3 * m))
    = ((s0 - (175347046 + 3341656 * c1 + 34894 * c2)) + (s1 - (628331966747 + 206059 * c3)) * m
      + (s2 - 52919) * m ^ 2 + s3 * m ^ 3 + s4 * m ^ 4 + s5 * m ^ 5) / 100000000 := by
    norm_num; ring
  rw [e, abs_div, abs_of_pos (by norm_num : (0:ℝ) < 100000000), div_le_iff₀ (by norm_num), abs_le]
  generalize (s1 - (628331966747 + 206059 * c3)) * m = z1 at *
  generalize (s2 - 52919) * m ^ 2 = z2 at *
  generalize s3 * m ^ 3 = z3 at *
  generalize s4 * m ^ 4 = z4 at *
  generalize s5 * m ^ 5 = z5 at *
  norm_num at a0 a1 a2 a3 a4 a5 ⊢
  constructor <;> linarith [a0.1, a0.2, a1.1, a1.2, a2.1, a2.2, a3.1, a3.2, a4.1, a4.2, a5.1, a5.2]

set_option maxHeartbeats 2000000 in
theorem near {t : ℤ} (h : InSec t) {T : ℝ} (hT : |T - ((t : ℝ) / 86400 - 10957.5) / 36525| ≤ 3.2e-10) :
    Ephem.Near T ((meanLon (mOf t) - 0.0057183 + deltaPsi (mOf t) (cOf t) * cos (epsAt (mOf t) (cOf t))) * (π / 180))
      ((Lraw (mOf t) + 180 + deltaPsi (mOf t) (cOf t) + deltaTau (R (mOf t))) * (π / 180))
      (epsAt (mOf t) (cOf t)) 5.7e-4 5.5e-5 4e-4 := by
  have hm := mOf_bound h
  have hem : |mOf (t : ℝ) - T / 10| ≤ 2.2e-9 := by
    have e : mOf (t : ℝ) = ((t : ℝ) / 86400 + 2440587.5 + 67.0 / 86400 - 2451545) / 36525 / 10 := rfl
    have hT := abs_le.1 hT
    rw [e, abs_le]
    norm_num at hT ⊢
    constructor <;> linarith [hT.1, hT.2]
  have hT3 : |T| ≤ 3.24 := by
    have a := abs_le.1 hem
    have b := abs_le.1 hm
    rw [abs_le]; norm_num at a b ⊢; constructor <;> linarith [a.1, a.2, b.1, b.2]
  obtain ⟨m, hme⟩ : ∃ m, m = mOf (t : ℝ) := ⟨_, rfl⟩
  obtain ⟨c, hce⟩ : ∃ m, m = cOf (t : ℝ) := ⟨_, rfl⟩
  rw [← hme] at hm hem
  rw [← hme, ← hce]
  have hdp := deltaPsi_bound (m := m) (c := c) (hm.trans (by norm_num))
  have hde := deltaEps_bound (m := m) (c := c) (hm.trans (by norm_num))
  have hR := R_bound hm
  have hdt := deltaTau_bound hR.1 hR.2
  have he := epsAt_bound hm c
  have hcos := Psa.cos_ep_bound (e := epsAt m c) ⟨by norm_num at *; linarith, by norm_num at *; linarith⟩
  have hcm := abs_le.1 (center_main hT3 hem)
  have hLp := abs_le.1 (Lper_main hm)
  have ml := abs_le.1 (Ephem.meanLongitude_num hT3)
  obtain ⟨q2, q3, q4, q5⟩ := pows hm
  have p1 := pi_gt_d20
  have p2 := pi_lt_d20
  obtain ⟨p, hp⟩ : ∃ p, p = π / 180 := ⟨_, rfl⟩
  have hpb : 0.0174532925 ≤ p ∧ p ≤ 0.0174532926 := by
    rw [hp]; norm_num at p1 p2 ⊢; constructor <;> linarith
  have hpa : |p| ≤ 0.01746 := by rw [abs_le]; norm_num at hpb ⊢; constructor <;> linarith [hpb.1, hpb.2]
  -- pieces
  obtain ⟨M, hM⟩ : ∃ M, M = 0.03341656 * cos (4.6692568 + 6283.07585 * m) + 0.00034894 * cos (4.6261 + 12566.1517 * m)
      + 0.00206059 * cos (2.678235 + 6283.07585 * m) * m := ⟨_, rfl⟩
  rw [← hM] at hcm hLp
  have eml : meanLon m = 280.4664567 + 360007.6982779 * m + 0.03032028 * m ^ 2 + m ^ 3 / 49931
    - m ^ 4 / 15300 - m ^ 5 / 2000000 := rfl
  have el : (Lraw m + 180) * p = 1.75347046 + π + 6283.31966747 * m + Lper m := by
    rw [Lraw_eq, hp]; field_simp; ring
  have k0 : |280.4664567 * p - (1.75347046 + π)| ≤ 1e-8 := by
    rw [hp, abs_le]; norm_num at p1 p2 ⊢; constructor <;> linarith
  have k1 : |(360007.6982779 * p - 6283.31966747) * m| ≤ 1e-7 * 0.323 := by
    refine abs_mul_le' ?_ hm
    rw [hp, abs_le]; norm_num at p1 p2 ⊢; constructor <;> linarith
  have k2 : |(0.03032028 * p - 0.00052919) * m ^ 2| ≤ 1e-7 * 0.105 := by
    refine abs_mul_le' ?_ q2
    rw [hp, abs_le]; norm_num at p1 p2 ⊢; constructor <;> linarith
  have k3 : |(m ^ 3 / 49931 - m ^ 4 / 15300 - m ^ 5 / 2000000) * p| ≤ 2e-6 * 0.01746 := by
    refine abs_mul_le' ?_ hpa
    have q3 := abs_le.1 q3
    have q4 := abs_le.1 q4
    have q5 := abs_le.1 q5
    rw [abs_le]; norm_num at q3 q4 q5 ⊢; constructor <;> linarith [q3.1, q3.2, q4.1, q4.2, q5.1, q5.2]
  have k4 : |deltaPsi m c * (1 - cos (epsAt m c)) * p| ≤ 0.006 * 0.09 * 0.01746 := by
    refine abs_mul_le' (abs_mul_le' hdp ?_) hpa
    rw [abs_le]; norm_num at hcos ⊢; constructor <;> linarith [hcos.1, hcos.2]
  have k5 : |(deltaTau (R m) + 0.0057183) * p| ≤ 0.0002 * 0.01746 := abs_mul_le' hdt hpa
  have k6 : |deltaPsi m c * p| ≤ 0.006 * 0.01746 := abs_mul_le' hdp hpa
  have elr : Ephem.longitude T = Ephem.meanLongitude T + Ephem.center T := rfl
  have k0 := abs_le.1 k0
  have k1 := abs_le.1 k1
  have k2 := abs_le.1 k2
  have k3 := abs_le.1 k3
  have k4 := abs_le.1 k4
  have k5 := abs_le.1 k5
  have k6 := abs_le.1 k6
  have hem := abs_le.1 hem
  have q2' := abs_le.1 q2
  have hT3' := abs_le.1 hT3
  rw [← hp]
  refine ⟨hT3, ?_, ?_, ?_⟩
  · have e : (Lraw m + 180 + deltaPsi m c + deltaTau (R m)) * p - Ephem.longitude T
      = (1.75347046 + π + 6283.31966747 * m - 0.0057183 * p - Ephem.meanLongitude T) + 0.00052919 * m ^ 2
        + (Lper m - (0.00052919 * m ^ 2 + M)) + (M - Ephem.center T)
        + deltaPsi m c * p + (deltaTau (R m) + 0.0057183) * p := by
      rw [elr]; linear_combination el
    rw [e, abs_le]
    generalize deltaPsi m c * p = a1 at *
    generalize (deltaTau (R m) + 0.0057183) * p = a2 at *
    clear e el elr eml hM hp
    norm_num at hT3' hem q2' hLp hcm ml k5 k6 hpb p1 p2 ⊢
    constructor <;> linarith [hT3'.1, hT3'.2, hem.1, hem.2, q2'.1, q2'.2, hLp.1, hLp.2, hcm.1, hcm.2, ml.1, ml.2, k5.1, k5.2, k6.1, k6.2,
      hpb.1, hpb.2]
  · have e : epsAt m c = ((84381.448 - 4680.93 * (m / 10.0) - 1.55 * (m / 10.0) ^ 2
      + 1999.25 * (m / 10.0) ^ 3
      - 51.38 * (m / 10.0) ^ 4 - 249.67 * (m / 10.0) ^ 5
      - 39.05 * (m / 10.0) ^ 6 + 7.12 * (m / 10.0) ^ 7
      + 27.87 * (m / 10.0) ^ 8 + 5.79 * (m / 10.0) ^ 9 + 2.45 * (m / 10.0) ^ 10) / 3600.0
      + deltaEps m c) * (π / 180) := rfl
    obtain ⟨u, hu⟩ : ∃ u, u = m / 10.0 := ⟨_, rfl⟩
    have hu1 : |u| ≤ 0.0323 := by
      rw [hu, abs_div, abs_of_pos (by norm_num : (0:ℝ) < 10.0), div_le_iff₀ (by norm_num)]
      norm_num at hm ⊢; linarith
    have hmu : m = 10 * u := by rw [hu]; norm_num; ring
    have hpw : ∀ n : ℕ, |u ^ n| ≤ 0.0323 ^ n := by
      intro n; rw [abs_pow]; exact pow_le_pow_left₀ (abs_nonneg _) hu1 n
    have u2 := abs_le.1 (hpw 2)
    have u3 := abs_le.1 (hpw 3)
    have u4 := abs_le.1 (hpw 4)
    have u5 := abs_le.1 (hpw 5)
    have u6 := abs_le.1 (hpw 6)
    have u7 := abs_le.1 (hpw 7)
    have u8 := abs_le.1 (hpw 8)
    have u9 := abs_le.1 (hpw 9)
    have u10 := abs_le.1 (hpw 10)
    have hde' := abs_le.1 hde
    have ob : Ephem.obliquity T = (23.4393 - 0.0130 * T) * p := by rw [hp]; rfl
    rw [e, ← hu, ob, ← hp, ← sub_mul]
    refine (abs_mul_le' (A := 0.00314) ?_ hpa).trans (by norm_num)
    rw [abs_le]
    rw [hmu] at hem
    have hu1 := abs_le.1 hu1
    norm_num at u2 u3 u4 u5 u6 u7 u8 u9 u10 hde' hem hu1 ⊢
    constructor <;> linarith [u2.1, u2.2, u3.1, u3.2, u4.1, u4.2, u5.1, u5.2, u6.1, u6.2, u7.1, u7.2, u8.1, u8.2,
      u9.1, u9.2, u10.1, u10.2, hde'.1, hde'.2, hem.1, hem.2, hu1.1, hu1.2]
  · have e : (Lraw m + 180 + deltaPsi m c + deltaTau (R m)) * p
        - (meanLon m - 0.0057183 + deltaPsi m c * cos (epsAt m c)) * p - (Ephem.longitude T - Ephem.meanLongitude T)
      = (Lper m - (0.00052919 * m ^ 2 + M)) + (M - Ephem.center T)
        + deltaPsi m c * (1 - cos (epsAt m c)) * p + (deltaTau (R m) + 0.0057183) * p
        - (280.4664567 * p - (1.75347046 + π)) - (360007.6982779 * p - 6283.31966747) * m
        - (0.03032028 * p - 0.00052919) * m ^ 2 - (m ^ 3 / 49931 - m ^ 4 / 15300 - m ^ 5 / 2000000) * p := by
      rw [elr, eml]; linear_combination el
    rw [e, abs_le]
    generalize deltaPsi m c * (1 - cos (epsAt m c)) * p = a1 at *
    generalize (deltaTau (R m) + 0.0057183) * p = a2 at *
    generalize (360007.6982779 * p - 6283.31966747) * m = a3 at *
    generalize (0.03032028 * p - 0.00052919) * m ^ 2 = a4 at *
    generalize (m ^ 3 / 49931 - m ^ 4 / 15300 - m ^ 5 / 2000000) * p = a5 at *
    clear e el elr eml hM hp
    norm_num at hLp hcm k0 k1 k2 k3 k4 k5 ⊢
    constructor <;> linarith [hLp.1, hLp.2, hcm.1, hcm.2, k0.1, k0.2, k1.1, k1.2, k2.1, k2.2, k3.1, k3.2, k4.1, k4.2, k5.1, k5.2]

end SW.Nrel
