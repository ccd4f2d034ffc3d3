/-
C89: the year. The earth is nearest to the sun around the turn of the year, and the sundial is ahead of the clock in October and November and behind it
from the middle of January to the end of February.
-/
import Verif.Props.Seasons

namespace SW.Props
open SW SW.Spec SW.Ephem SW.Cal Real Seasons

/-! ### specification -/

/-- from 10 December to 20 January -/
def AroundPerihelion (c : CivilDate) : Prop := (c.month = 12 ∧ 10 ≤ c.day) ∨ (c.month = 1 ∧ c.day ≤ 20)
/-- from 10 June to 20 July -/
def AroundAphelion (c : CivilDate) : Prop := (c.month = 6 ∧ 10 ≤ c.day) ∨ (c.month = 7 ∧ c.day ≤ 20)
/-- October and November -/
def SundialFast (c : CivilDate) : Prop := c.month = 10 ∨ c.month = 11
/-- from 15 January to the end of February -/
def SundialSlow (c : CivilDate) : Prop := (c.month = 1 ∧ 15 ≤ c.day) ∨ c.month = 2

namespace Year

/-- the day of the year of a date -/
theorem doy_window (n : Int) : ∃ Y k : Int, n = yearStart Y + k ∧ 0 ≤ k ∧ k ≤ 365 ∧
    (AroundPerihelion (codeDate n) → 343 ≤ k ∨ k ≤ 19) ∧
    (AroundAphelion (codeDate n) → 160 ≤ k ∧ k ≤ 201) ∧
    (SundialFast (codeDate n) → 273 ≤ k ∧ k ≤ 334) ∧
    (SundialSlow (codeDate n) → 14 ≤ k ∧ k ≤ 59) := by
  obtain ⟨h1, h2, h3⟩ := yearsDays_spec n
  refine ⟨_, _, h1, h2, ?_, ?_⟩
  · unfold yearLength at h3; split_ifs at h3 <;> omega
  · rw [yearLength_eq] at h3
    rw [codeDate_eq]
    generalize isLeap (yearsDays n).1 = leap at *
    generalize (yearsDays n).2 = k at *
    obtain ⟨i, m, d, hi, rfl, hm, hd1, hd2, hd3⟩ := monthDay_cases leap h2 h3
    rw [hm]
    unfold AroundPerihelion AroundAphelion SundialFast SundialSlow
    simp only
    cases leap <;> interval_cases i <;> simp [monthLengths, mlen] at hd2 hd3 ⊢ <;> omega

/-- the mean anomaly in radians, by year and day of the year -/
theorem anomaly_window {t Y k : Int} (ht : |t| < 2 ^ 63) (hn : t / 86400000000000 = yearStart Y + k) (h0 : 0 ≤ k) (h1 : k ≤ 365) :
    rad (-9.63 + 0.98564 * (k : ℝ)) ≤ meanAnomaly (century t) - ((Y - 1999 : ℤ) : ℝ) * (2 * π) ∧
    meanAnomaly (century t) - ((Y - 1999 : ℤ) : ℝ) * (2 * π) ≤ rad (5.43 + 0.98565 * (k : ℝ)) := by
  obtain ⟨m1, m2⟩ := mean_window ht hn h0 h1
  have hT := abs_le.1 (century_bound ht)
  have e : meanAnomaly (century t) - ((Y - 1999 : ℤ) : ℝ) * (2 * π) =
      rad (280.4665 - 0.0057 + 36000.7698 * century t - 360 * ((Y - 2000 : ℤ) : ℝ) + (77.0683 - 1.7195 * century t - 360)) := by
    unfold meanAnomaly Ephem.deg rad; push_cast; ring
  rw [e]
  generalize 280.4665 - 0.0057 + 36000.7698 * century t - 360 * ((Y - 2000 : ℤ) : ℝ) = L at *
  generalize century t = T at *
  generalize (k : ℝ) = k' at *
  constructor <;> apply rad_mono <;> norm_num at m1 m2 hT ⊢ <;> linarith [hT.1, hT.2]

/-- the cosine within `B` of a multiple of a turn -/
theorem cos_near {x B : ℝ} (h : |x| ≤ B) (hB : B ≤ π) : cos B ≤ cos x := by
  rw [← cos_abs x]
  exact cos_le_cos_of_nonneg_of_le_pi (abs_nonneg _) hB h

theorem cos_592 : 0.825 ≤ cos 0.5916 := by
  have := one_sub_sq_div_two_le_cos (x := 0.5916)
  norm_num at this ⊢; linarith

/-- The distance of the reference sun by the date. -/
theorem ref_distance {t : Int} (ht : |t| < 2 ^ 63) :
    (AroundPerihelion (codeDate (t / 86400000000000)) → 1.027 ≤ 1 / distance (century t) ^ 2) ∧
    (AroundAphelion (codeDate (t / 86400000000000)) → 1 / distance (century t) ^ 2 ≤ 0.974) := by
  obtain ⟨Y, k, hn, k0, k1, s1, s2, -⟩ := doy_window (t / 86400000000000)
  obtain ⟨l1, l2⟩ := anomaly_window ht hn k0 k1
  have hT := century_bound ht
  have hc := abs_le.1 (center_bound hT)
  have he := ecc_bound hT
  have p1 := pi_gt_d6
  have p2 := pi_lt_d6
  obtain ⟨ν, hν⟩ : ∃ ν, ν = meanAnomaly (century t) + center (century t) - ((Y - 1999 : ℤ) : ℝ) * (2 * π) := ⟨_, rfl⟩
  have hcos : cos (meanAnomaly (century t) + center (century t)) = cos ν := by rw [hν, cos_sub_int_mul_two_pi]
  obtain ⟨m, hm⟩ : ∃ m, m = meanAnomaly (century t) - ((Y - 1999 : ℤ) : ℝ) * (2 * π) := ⟨_, rfl⟩
  rw [← hm] at l1 l2
  have hν : ν = m + center (century t) := by rw [hν, hm]; ring
  clear hm
  have hinv : 1 / distance (century t) ^ 2 = ((1 + eccentricity (century t) * cos ν) / (1 - eccentricity (century t) ^ 2)) ^ 2 := by
    unfold distance; rw [hcos, div_pow, div_pow, one_div_div]
  rw [hinv]
  generalize eccentricity (century t) = ec at *
  have q1 : 0.99971 ≤ 1 - ec ^ 2 := by
    have := pow_le_pow_left₀ (by linarith [he.1]) he.2 2
    norm_num at this ⊢; linarith
  have q2 : 1 - ec ^ 2 ≤ 1 := by nlinarith [sq_nonneg ec]
  have q3 : 0 < 1 - ec ^ 2 := lt_of_lt_of_le (by norm_num) q1
  unfold rad at l1 l2
  norm_num at p1 p2 hc he
  refine ⟨fun h => ?_, fun h => ?_⟩
  · have hcν : 0.825 ≤ cos ν := by
      refine cos_592.trans ?_
      rcases s1 h with a | b
      · have a' : (343 : ℝ) ≤ k := by exact_mod_cast a
        have b' : (k : ℝ) ≤ 365 := by exact_mod_cast k1
        have l2' := l2.trans (mul_le_mul_of_nonneg_right (show 5.43 + 0.98565 * (k : ℝ) ≤ 365.2 by norm_num; linarith) (show 0 ≤ π / 180 by positivity))
        have l1' := (mul_le_mul_of_nonneg_right (show 328.4 ≤ -9.63 + 0.98564 * (k : ℝ) by norm_num; linarith) (show 0 ≤ π / 180 by positivity)).trans l1
        rw [← cos_sub_two_pi ν]
        refine cos_near ?_ (by norm_num; linarith)
        rw [abs_le, hν]
        norm_num at l1' l2' ⊢
        constructor <;> linarith [hc.1, hc.2]
      · have a' : (0 : ℝ) ≤ k := by exact_mod_cast k0
        have b' : (k : ℝ) ≤ 19 := by exact_mod_cast b
        refine cos_near ?_ (by norm_num; linarith)
        rw [abs_le, hν]
        norm_num at l1 l2 ⊢
        constructor <;> nlinarith [hc.1, hc.2]
    have b1 : 1.01367 ≤ 1 + ec * cos ν := by norm_num at hcν ⊢; nlinarith [he.1]
    have b2 : 1.01367 ≤ (1 + ec * cos ν) / (1 - ec ^ 2) := by
      rw [le_div_iff₀ q3]; norm_num at b1 q2 ⊢; nlinarith
    have := pow_le_pow_left₀ (by norm_num) b2 2
    norm_num at this ⊢; linarith
  · obtain ⟨a, b⟩ := s2 h
    have a' : (160 : ℝ) ≤ k := by exact_mod_cast a
    have b' : (k : ℝ) ≤ 201 := by exact_mod_cast b
    have hcν : cos ν ≤ -0.825 := by
      have : 0.825 ≤ cos (ν - π) := by
        refine cos_592.trans (cos_near ?_ (by norm_num; linarith))
        rw [abs_le, hν]
        norm_num at l1 l2 ⊢
        constructor <;> nlinarith [hc.1, hc.2]
      rw [cos_sub_pi] at this; linarith
    have b1 : 1 + ec * cos ν ≤ 0.98634 := by norm_num at hcν ⊢; nlinarith [he.1]
    have b0 : 0 ≤ 1 + ec * cos ν := by nlinarith [he.1, he.2, neg_one_le_cos ν]
    have b2 : (1 + ec * cos ν) / (1 - ec ^ 2) ≤ 0.98668 := by
      rw [div_le_iff₀ q3]; norm_num at b1 q1 ⊢; linarith
    have := pow_le_pow_left₀ (div_nonneg b0 q3.le) b2 2
    norm_num at this ⊢; linarith

/-! ### the equation of time -/

theorem angle_of {θ X Y R : ℝ} (hR : 0 < R) (hX : 0 < X) (hc : R * cos θ = X) (hs : R * sin θ = Y) :
    ∃ k : ℤ, θ = arctan (Y / X) + k * (2 * π) := by
  have h1 : X ^ 2 + Y ^ 2 = R ^ 2 := by rw [← hc, ← hs]; linear_combination R ^ 2 * sin_sq_add_cos_sq θ
  have h2 : √(1 + (Y / X) ^ 2) = R / X := by
    rw [show 1 + (Y / X) ^ 2 = (R / X) ^ 2 by rw [div_pow, div_pow, ← h1]; field_simp]
    exact sqrt_sq (by positivity)
  have h3 : cos (θ - arctan (Y / X)) = 1 := by
    rw [cos_sub, cos_arctan, sin_arctan, h2]
    have e1 : cos θ = X / R := by rw [← hc]; field_simp
    have e2 : sin θ = Y / R := by rw [← hs]; field_simp
    rw [e1, e2]
    field_simp
    linarith
  obtain ⟨k, hk⟩ := (cos_eq_one_iff _).1 h3
  exact ⟨k, by linarith⟩

/-- longitude minus right ascension -/
theorem reduction {T : ℝ} (hT : |T| ≤ 3.24) : ∃ k : ℤ, longitude T - rightAscension T =
    arctan (((1 - cos (obliquity T)) * (sin (2 * longitude T) / 2)) / (cos (longitude T) ^ 2 + cos (obliquity T) * sin (longitude T) ^ 2))
      + k * (2 * π) := by
  have ho := obliquity_bound hT
  have p1 := pi_gt_d6
  have hco : 0 < cos (obliquity T) := cos_pos_of_mem_Ioo ⟨by linarith [ho.1], by norm_num at ho p1; linarith [ho.2]⟩
  have hc1 := cos_le_one (obliquity T)
  unfold rightAscension
  generalize longitude T = lam at *
  generalize cos (obliquity T) = c at *
  obtain ⟨w, hw⟩ : ∃ w : ℂ, w = ⟨cos lam, c * sin lam⟩ := ⟨_, rfl⟩
  rw [← hw]
  have hX : 0 < cos lam ^ 2 + c * sin lam ^ 2 := by
    have := sin_sq_add_cos_sq lam
    by_cases h : cos lam = 0
    · rw [h] at this ⊢; nlinarith
    · have := pow_pos (abs_pos.2 h) 2
      rw [sq_abs] at this
      nlinarith [sq_nonneg (sin lam)]
  have hw0 : w ≠ 0 := by
    intro h0
    rw [hw, Complex.ext_iff] at h0
    simp only [Complex.zero_re, Complex.zero_im] at h0
    have h2 : c * sin lam ^ 2 = 0 := by rw [pow_two, ← mul_assoc, h0.2, zero_mul]
    rw [h0.1, h2] at hX
    norm_num at hX
  have hR := norm_pos_iff.2 hw0
  have e1 : ‖w‖ * cos w.arg = cos lam := by rw [Complex.norm_mul_cos_arg, hw]
  have e2 : ‖w‖ * sin w.arg = c * sin lam := by rw [Complex.norm_mul_sin_arg, hw]
  refine angle_of hR hX ?_ ?_
  · rw [cos_sub]; linear_combination cos lam * e1 + sin lam * e2
  · rw [sin_sub, sin_two_mul]; linear_combination sin lam * e1 - cos lam * e2

/-- the equation of time of the reference, up to whole days -/
theorem ref_eot_eq {T : ℝ} (hT : |T| ≤ 3.24) : ∃ k : ℤ, equationOfTime T - 1440 * k =
    (arctan (((1 - cos (obliquity T)) * (sin (2 * longitude T) / 2)) / (cos (longitude T) ^ 2 + cos (obliquity T) * sin (longitude T) ^ 2))
      - center T) * (1440 / (2 * π)) := by
  obtain ⟨k, hk⟩ := reduction hT
  refine ⟨k, ?_⟩
  have : meanLongitude T - rightAscension T = longitude T - rightAscension T - center T := by unfold longitude; ring
  unfold equationOfTime
  rw [this, hk]
  field_simp
  ring

theorem obl_cos {T : ℝ} (hT : |T| ≤ 3.24) : 0.0817 ≤ 1 - cos (obliquity T) ∧ 1 - cos (obliquity T) ≤ 0.085 := by
  have ho := obliquity_bound hT
  have p1 := pi_gt_d6
  constructor
  · have h1 : cos (obliquity T) ≤ cos 0.408 := cos_le_cos_of_nonneg_of_le_pi (by norm_num) (by norm_num at ho p1 ⊢; linarith [ho.2]) ho.1
    have h2 := (abs_le.1 (cos_bound (x := 0.408) (by rw [abs_le]; norm_num))).2
    rw [abs_of_pos (by norm_num)] at h2
    norm_num at h1 h2 ⊢; linarith
  · have h1 := one_sub_sq_div_two_le_cos (x := obliquity T)
    have h2 := pow_le_pow_left₀ (by norm_num at ho; linarith [ho.1]) ho.2 2
    norm_num at h2 ⊢; linarith

/-- bounds of longitude minus right ascension -/
theorem reduction_bounds {T : ℝ} (hT : |T| ≤ 3.24) {r : ℝ} (hr : r = arctan (((1 - cos (obliquity T)) * (sin (2 * longitude T) / 2)) /
      (cos (longitude T) ^ 2 + cos (obliquity T) * sin (longitude T) ^ 2))) :
    |r| ≤ 0.0475 ∧ (∀ q : ℝ, 0 ≤ q → q ≤ 1 → (q ≤ sin (2 * longitude T) → 0.0407 * q ≤ r) ∧ (sin (2 * longitude T) ≤ -q → r ≤ -(0.0407 * q))) := by
  obtain ⟨o1, o2⟩ := obl_cos hT
  obtain ⟨D, hD⟩ : ∃ D, D = cos (longitude T) ^ 2 + cos (obliquity T) * sin (longitude T) ^ 2 := ⟨_, rfl⟩
  have d1 : D ≤ 1 := by rw [hD]; nlinarith [sin_sq_add_cos_sq (longitude T), sq_nonneg (sin (longitude T))]
  have d2 : 0.915 ≤ D := by
    rw [hD]; norm_num at o2 ⊢; nlinarith [sin_sq_add_cos_sq (longitude T), sq_nonneg (sin (longitude T)), sq_nonneg (cos (longitude T))]
  rw [← hD] at hr
  have hs := abs_le.1 (abs_sin_le_one (2 * longitude T))
  generalize sin (2 * longitude T) = sn at *
  generalize 1 - cos (obliquity T) = m at *
  have d0 : 0 < D := lt_of_lt_of_le (by norm_num) d2
  have low : ∀ x : ℝ, 0 ≤ x → x ≤ 0.04085 → 0.0407 / 0.04085 * x ≤ arctan x := by
    intro x x0 x1
    have := (abs_le.1 (Iqbal.arctan_near (abs_of_nonneg x0).le)).1
    have h2 := pow_le_pow_left₀ x0 x1 2
    norm_num at x1 h2 ⊢
    nlinarith
  have pos : ∀ q : ℝ, 0 ≤ q → q ≤ 1 → q ≤ sn → 0.0407 * q ≤ r := by
    intro q q0 q1 h
    have h1 : 0.04085 * q ≤ m * (sn / 2) / D := by
      rw [le_div_iff₀ d0]
      norm_num at o1 ⊢; nlinarith
    have h2 := low (0.04085 * q) (by positivity) (by norm_num; linarith)
    rw [hr]
    refine le_trans ?_ (h2.trans (arctan_mono h1))
    norm_num; linarith
  have neg : ∀ q : ℝ, 0 ≤ q → q ≤ 1 → sn ≤ -q → r ≤ -(0.0407 * q) := by
    intro q q0 q1 h
    have h1 : m * (sn / 2) / D ≤ -(0.04085 * q) := by
      rw [div_le_iff₀ d0]
      norm_num at o1 ⊢; nlinarith
    have h2 := low (0.04085 * q) (by positivity) (by norm_num; linarith)
    rw [hr]
    refine (arctan_mono h1).trans ?_
    rw [arctan_neg]
    norm_num at h2 ⊢; linarith
  refine ⟨?_, fun q q0 q1 => ⟨pos q q0 q1, neg q q0 q1⟩⟩
  have h1 : |m * (sn / 2) / D| ≤ 0.0465 := by
    rw [abs_div, div_le_iff₀ (abs_pos.2 d0.ne'), abs_of_pos d0, abs_le]
    norm_num at o1 o2 d2 ⊢
    constructor <;> nlinarith [hs.1, hs.2]
  have h2 := abs_arctan_sub_le (m * (sn / 2) / D) 0
  rw [arctan_zero, sub_zero, sub_zero, ← hr] at h2
  norm_num at h1 h2 ⊢; linarith

/-- the sine between `a` and its supplement -/
theorem sin_between {x a : ℝ} (h0 : 0 ≤ a) (h1 : a ≤ x) (h2 : x ≤ π - a) : sin a ≤ sin x := by
  by_cases h : x ≤ π / 2
  · exact sin_le_sin_of_le_of_le_pi_div_two (by linarith [pi_pos]) h h1
  · rw [← sin_pi_sub x]
    push Not at h
    exact sin_le_sin_of_le_of_le_pi_div_two (by linarith [pi_pos]) (by linarith) (by linarith)

theorem sin_low {a q : ℝ} (ha : 0 < a) (hq : q ≤ a - a ^ 3 / 6) : q ≤ sin a := by
  have := sin_gt_sub_cube ha
  linarith

set_option maxHeartbeats 1000000 in
/-- The equation of time of the reference by the date. -/
theorem ref_eot {t : Int} (ht : |t| < 2 ^ 63) : ∃ (k : ℤ) (v : ℝ), equationOfTime (century t) - 1440 * k = v ∧ |v| ≤ 19 ∧
    (SundialFast (codeDate (t / 86400000000000)) → 5 ≤ v) ∧ (SundialSlow (codeDate (t / 86400000000000)) → v ≤ -5) := by
  have hT := century_bound ht
  obtain ⟨kk, hkk⟩ := ref_eot_eq hT
  refine ⟨kk, _, hkk, ?_⟩
  obtain ⟨r, hr⟩ : ∃ r, r = arctan (((1 - cos (obliquity (century t))) * (sin (2 * longitude (century t)) / 2)) /
      (cos (longitude (century t)) ^ 2 + cos (obliquity (century t)) * sin (longitude (century t)) ^ 2)) := ⟨_, rfl⟩
  obtain ⟨r1, r2⟩ := reduction_bounds hT hr
  rw [← hr]
  clear hkk hr
  obtain ⟨Y, k, hn, k0, k1, -, -, s3, s4⟩ := doy_window (t / 86400000000000)
  obtain ⟨m1, m2⟩ := anomaly_window ht hn k0 k1
  obtain ⟨l1, l2⟩ := lon_window ht hn k0 k1
  have hc := center_bound hT
  have he := ecc_bound hT
  have p1 := pi_gt_d6
  have p2 := pi_lt_d6
  have hf1 : 229.18 ≤ 1440 / (2 * π) := by rw [le_div_iff₀ (by positivity)]; norm_num at p2 ⊢; linarith
  have hf2 : 1440 / (2 * π) ≤ 229.19 := by rw [div_le_iff₀ (by positivity)]; norm_num at p1 ⊢; linarith
  obtain ⟨m, hm⟩ : ∃ m, m = meanAnomaly (century t) - ((Y - 1999 : ℤ) : ℝ) * (2 * π) := ⟨_, rfl⟩
  obtain ⟨l, hl⟩ : ∃ l, l = longitude (century t) - ((Y - 2000 : ℤ) : ℝ) * (2 * π) := ⟨_, rfl⟩
  rw [← hm] at m1 m2
  rw [← hl] at l1 l2
  have sm : sin (meanAnomaly (century t)) = sin m := by rw [hm, sin_sub_int_mul_two_pi]
  have sm2 : sin (2 * meanAnomaly (century t)) = sin (2 * m) := by
    rw [hm, show 2 * (meanAnomaly (century t) - ((Y - 1999 : ℤ) : ℝ) * (2 * π)) =
      2 * meanAnomaly (century t) - ((2 * (Y - 1999) : ℤ) : ℝ) * (2 * π) by push_cast; ring, sin_sub_int_mul_two_pi]
  have sl : sin (2 * longitude (century t)) = sin (2 * l) := by
    rw [hl, show 2 * (longitude (century t) - ((Y - 2000 : ℤ) : ℝ) * (2 * π)) =
      2 * longitude (century t) - ((2 * (Y - 2000) : ℤ) : ℝ) * (2 * π) by push_cast; ring, sin_sub_int_mul_two_pi]
  have hce : center (century t) = 2 * eccentricity (century t) * sin m + 5 / 4 * eccentricity (century t) ^ 2 * sin (2 * m) := by
    unfold center; rw [sm, sm2]
  rw [sl] at r2
  clear hm hl sm sm2 sl
  generalize eccentricity (century t) = ec at *
  generalize center (century t) = c at *
  have ec2 : ec ^ 2 ≤ 0.01685 ^ 2 := pow_le_pow_left₀ (by linarith [he.1]) he.2 2
  generalize 1440 / (2 * π) = f at *
  have f0 : 0 < f := lt_of_lt_of_le (by norm_num) hf1
  unfold rad at m1 m2 l1 l2
  have pp : 0 ≤ π / 180 := by positivity
  refine ⟨?_, fun h => ?_, fun h => ?_⟩
  · rw [abs_mul, abs_of_pos f0]
    have : |r - c| ≤ 0.0817 := by
      refine (abs_sub _ _).trans ?_
      norm_num at r1 hc ⊢; linarith
    calc _ ≤ 0.0817 * f := mul_le_mul_of_nonneg_right this f0.le
      _ ≤ 19 := by norm_num at hf2 ⊢; linarith
  · obtain ⟨a, b⟩ := s3 h
    have a' : (273 : ℝ) ≤ k := by exact_mod_cast a
    have b' : (k : ℝ) ≤ 334 := by exact_mod_cast b
    have m1' := (mul_le_mul_of_nonneg_right (show 259.44 ≤ -9.63 + 0.98564 * (k : ℝ) by norm_num; linarith) pp).trans m1
    have m2' := m2.trans (mul_le_mul_of_nonneg_right (show 5.43 + 0.98565 * (k : ℝ) ≤ 334.65 by norm_num; linarith) pp)
    have l1' := (sub_le_sub_right (mul_le_mul_of_nonneg_right (show 547.96 ≤ 280.35 + 0.98564 * ((k : ℝ) - 1.49) by norm_num; linarith) pp) 0.0342).trans l1
    have l2' := l2.trans (add_le_add_left (mul_le_mul_of_nonneg_right (show 280.56 + 0.98565 * ((k : ℝ) + 2.2475) ≤ 611.99 by norm_num; linarith) pp) 0.0342)
    have h1 : 0.4207 ≤ -sin m := by
      have e : -sin m = sin (m - π) := by rw [sin_sub_pi]
      rw [e]
      refine (sin_low (a := 0.4424) (by norm_num) (by norm_num)).trans (sin_between (by norm_num) ?_ ?_) <;>
        norm_num at m1' m2' p1 p2 ⊢ <;> linarith
    have h2 : 0.207 ≤ sin (2 * l) := by
      have e : sin (2 * l) = sin (2 * l - ((3 : ℤ) : ℝ) * (2 * π)) := by rw [sin_sub_int_mul_two_pi]
      rw [e]
      refine (sin_low (a := 0.2094) (by norm_num) (by norm_num)).trans (sin_between (by norm_num) ?_ ?_) <;>
        norm_num at l1' l2' p1 p2 ⊢ <;> linarith
    have h3 := (r2 0.207 (by norm_num) (by norm_num)).1 h2
    have h4 : c ≤ -0.01358 := by
      have t1 : 2 * ec * sin m ≤ -(2 * 0.01657 * 0.4207) := by norm_num at h1 ⊢; nlinarith [he.1]
      have t2 : 5 / 4 * ec ^ 2 * sin (2 * m) ≤ 5 / 4 * 0.01685 ^ 2 := by
        have := sin_le_one (2 * m)
        have := sq_nonneg ec
        nlinarith
      rw [hce]
      norm_num at t1 t2 ⊢; linarith
    calc (5 : ℝ) ≤ 0.022 * 229.18 := by norm_num
      _ ≤ (r - c) * f := mul_le_mul (by norm_num at h3 h4 ⊢; linarith) hf1 (by norm_num) (by norm_num at h3 h4 ⊢; linarith)
  · obtain ⟨a, b⟩ := s4 h
    have a' : (14 : ℝ) ≤ k := by exact_mod_cast a
    have b' : (k : ℝ) ≤ 59 := by exact_mod_cast b
    have m1' := (mul_le_mul_of_nonneg_right (show 4 ≤ -9.63 + 0.98564 * (k : ℝ) by norm_num; linarith) pp).trans m1
    have m2' := m2.trans (mul_le_mul_of_nonneg_right (show 5.43 + 0.98565 * (k : ℝ) ≤ 63.6 by norm_num; linarith) pp)
    have l1' := (sub_le_sub_right (mul_le_mul_of_nonneg_right (show 292.6 ≤ 280.35 + 0.98564 * ((k : ℝ) - 1.49) by norm_num; linarith) pp) 0.0342).trans l1
    have l2' := l2.trans (add_le_add_left (mul_le_mul_of_nonneg_right (show 280.56 + 0.98565 * ((k : ℝ) + 2.2475) ≤ 340.94 by norm_num; linarith) pp) 0.0342)
    have h1 : 0 ≤ sin m := sin_nonneg_of_nonneg_of_le_pi (by norm_num at m1' p1; linarith) (by norm_num at m2' p1; linarith)
    have h1' : 0 ≤ sin (2 * m) := sin_nonneg_of_nonneg_of_le_pi (by norm_num at m1' p1; linarith) (by norm_num at m2' p1; linarith)
    have h2 : sin (2 * l) ≤ -0.543 := by
      have e : -sin (2 * l) = sin (2 * l - π - ((1 : ℤ) : ℝ) * (2 * π)) := by rw [sin_sub_int_mul_two_pi, sin_sub_pi]
      have : 0.543 ≤ -sin (2 * l) := by
        rw [e]
        refine (sin_low (a := 0.5968) (by norm_num) (by norm_num)).trans (sin_between (by norm_num) ?_ ?_) <;>
          norm_num at l1' l2' p1 p2 ⊢ <;> linarith
      linarith
    have h3 := (r2 0.543 (by norm_num) (by norm_num)).2 h2
    have h4 : 0 ≤ c := by
      rw [hce]
      have := he.1
      have : 0 ≤ ec := by norm_num at this; linarith
      positivity
    have : 5 ≤ (c - r) * f := by
      calc (5 : ℝ) ≤ 0.022 * 229.18 := by norm_num
        _ ≤ (c - r) * f := mul_le_mul (by norm_num at h3 h4 ⊢; linarith) hf1 (by norm_num) (by norm_num at h3 h4 ⊢; linarith)
    nlinarith

theorem eotError_le (alg : String) : eotError alg ≤ 2.15 := by unfold eotError; split_ifs <;> norm_num
theorem ecfError_le (alg : String) : ecfError alg ≤ 0.0046 := by unfold ecfError; split_ifs <;> norm_num

/-- the equation of time of a result from that of the reference -/
theorem eot_of_ref {x E v b : ℝ} {k k' : ℤ} (hx : |x| ≤ 20.5) (hv : E - 1440 * k' = v) (hv' : |v| ≤ 19) (hb : b ≤ 3)
    (h : |x - E - 1440 * k| ≤ b) : |x - v| ≤ b := by
  have hk : k + k' = 0 := by
    have h1 := abs_le.1 h
    have h2 := abs_le.1 hx
    have h3 := abs_le.1 hv'
    have e : x - E - 1440 * k = x - v - 1440 * ((k + k' : ℤ) : ℝ) := by rw [← hv]; push_cast; ring
    rw [e] at h1
    have a1 : ((k + k' : ℤ) : ℝ) < 1 := by norm_num at h2; linarith [h1.1, h2.2, h3.1]
    have a2 : (-1 : ℝ) < ((k + k' : ℤ) : ℝ) := by norm_num at h2; linarith [h1.2, h2.1, h3.2]
    have b1 : k + k' < 1 := by exact_mod_cast a1
    have b2 : -1 < k + k' := by exact_mod_cast a2
    omega
  have e : x - E - 1440 * k = x - v - 1440 * ((k + k' : ℤ) : ℝ) := by rw [← hv]; push_cast; ring
  rw [e, hk] at h
  simpa using h

end Year
open Year

/-- C89: the earth is nearest to the sun around the turn of the year and farthest in June and July: the correction factor of every algorithm says so. -/
theorem C89_distance {date : Int → CivilDate} (g : IsGregorian date)
    {uc : UseCase} {w : World XR} {times : Times} {latitude longitude : Coord XR}
    {alg eng : String} {refr : PyVal} {s : Sunpos XR} {e : Dim → Nat} {t : Int}
    (h : call uc w times latitude longitude alg refr eng = .ok s)
    (hk : stampAt times.stamps (e .time) = some t) (hrange : |t| < 2 ^ 63) :
    ∃ x : ℝ, s.ecf.get e = .fin x ∧
      (AroundPerihelion (date (t / 86400000000000)) → 1.027 - ecfError alg ≤ x) ∧
      (AroundAphelion (date (t / 86400000000000)) → x ≤ 0.974 + ecfError alg) := by
  rw [g.unique C36_gregorian]
  obtain ⟨x, hx, hb⟩ := C54_ecf h hk hrange
  obtain ⟨s1, s2⟩ := ref_distance hrange
  have hb := abs_le.1 hb
  exact ⟨x, hx, fun hj => by linarith [s1 hj, hb.1], fun hj => by linarith [s2 hj, hb.2]⟩

/-- C89: at the same zenith angle the earth receives at least 4 % more above the atmosphere around the turn of the year than in June and July,
whatever the two calls. -/
theorem C89_irradiance {date : Int → CivilDate} (g : IsGregorian date)
    {uc uc' : UseCase} {w w' : World XR} {times times' : Times} {latitude longitude latitude' longitude' : Coord XR}
    {alg eng alg' eng' : String} {refr refr' : PyVal} {s s' : Sunpos XR} {e e' : Dim → Nat} {t t' : Int} {z : ℝ}
    (h : call uc w times latitude longitude alg refr eng = .ok s)
    (h' : call uc' w' times' latitude' longitude' alg' refr' eng' = .ok s')
    (hk : stampAt times.stamps (e .time) = some t) (hrange : |t| < 2 ^ 63)
    (hk' : stampAt times'.stamps (e' .time) = some t') (hrange' : |t'| < 2 ^ 63)
    (hz : s.zenithDeg.get e = .fin z) (hz' : s'.zenithDeg.get e' = .fin z) (hz0 : -90 < z) (hz90 : z < 90)
    (hp : AroundPerihelion (date (t / 86400000000000))) (hq : AroundAphelion (date (t' / 86400000000000)))
    {isc : ℝ} (hi : 0 < isc) :
    ∃ (E E' : DA XR) (x x' : ℝ), s.eth (.fin isc) "none" = .ok E ∧ s'.eth (.fin isc) "none" = .ok E' ∧
      E.get e = .fin x ∧ E'.get e' = .fin x' ∧ 0 < x' ∧ 1.04 * x' ≤ x := by
  obtain ⟨f, k, hf, hkf, hE, -⟩ := C21_eth_none h hk hrange hz
  obtain ⟨f', k', hf', hkf', hE', -⟩ := C21_eth_none h' hk' hrange' hz'
  obtain ⟨E, q1, q2⟩ := hE isc
  obtain ⟨E', q1', q2'⟩ := hE' isc
  obtain ⟨y, hy, b1, -⟩ := C89_distance g h hk hrange
  obtain ⟨y', hy', -, b2⟩ := C89_distance g h' hk' hrange'
  obtain ⟨y'', hy'', b3, -⟩ := C18_ecf h' hk' hrange'
  rw [hf] at hy
  rw [hf'] at hy' hy''
  cases hy
  cases hy'
  cases hy''
  have hc : 0 < cos (rad z) := cos_pos_of_mem_Ioo
    ⟨by have : rad (-90) = -(π / 2) := by unfold rad; ring
        rw [← this]; unfold rad; exact mul_lt_mul_of_pos_right hz0 (by positivity),
     by have : rad 90 = π / 2 := by unfold rad; ring
        rw [← this]; unfold rad; exact mul_lt_mul_of_pos_right hz90 (by positivity)⟩
  rw [max_eq_right hc.le] at hkf hkf'
  have e1 := ecfError_le alg
  have e2 := ecfError_le alg'
  have b1 := b1 hp
  have b2 := b2 hq
  refine ⟨E, E', _, _, q1, q1', q2, q2', ?_, ?_⟩
  · rw [hkf']
    have : 0 < f' := by norm_num at b3; linarith
    positivity
  · rw [hkf, hkf']
    have h1 : 1.04 * f' ≤ f := by norm_num at e1 e2 b1 b2 ⊢; linarith
    have h2 := mul_le_mul_of_nonneg_right h1 (mul_pos hi hc).le
    linarith

/-- C89: the sundial is at least 5 minutes ahead of the clock in October and November and at least 5 minutes behind it from the middle of January to
the end of February, up to the error of the algorithm. -/
theorem C89_eot {date : Int → CivilDate} (g : IsGregorian date)
    {uc : UseCase} {w : World XR} {times : Times} {latitude longitude : Coord XR}
    {alg eng : String} {refr : PyVal} {s : Sunpos XR} {e : Dim → Nat} {t : Int}
    (h : call uc w times latitude longitude alg refr eng = .ok s)
    (hk : stampAt times.stamps (e .time) = some t) (hrange : |t| < 2 ^ 63) :
    ∃ x : ℝ, s.eot.get e = .fin x ∧
      (SundialFast (date (t / 86400000000000)) → 5 - eotError alg ≤ x) ∧
      (SundialSlow (date (t / 86400000000000)) → x ≤ -(5 - eotError alg)) := by
  rw [g.unique C36_gregorian]
  obtain ⟨x, hx, k, hb⟩ := C54_eot h hk hrange
  obtain ⟨x', hx', hx2⟩ := C19_eot h hk hrange
  rw [hx] at hx'
  cases hx'
  obtain ⟨k', v, hv, v1, v2, v3⟩ := ref_eot hrange
  have hE := eotError_le alg
  have := abs_le.1 (eot_of_ref (hx2.trans (by norm_num)) hv v1 (hE.trans (by norm_num)) hb)
  exact ⟨x, hx, fun hj => by linarith [v2 hj, this.1], fun hj => by linarith [v3 hj, this.2]⟩

/-- C89: the same in floating point. -/
theorem C89_float {A : Arith} {date : Int → CivilDate} (g : IsGregorian date)
    {uc : UseCase} {w : World (Rd A)} {times : Times} {latitude longitude : Coord (Rd A)}
    {alg eng : String} {refr : PyVal} {s : Sunpos (Rd A)} {e : Dim → Nat} {t : Int}
    (h : call uc w times latitude longitude alg refr eng = .ok s)
    (hk : stampAt times.stamps (e .time) = some t) (hrange : |t| < 2 ^ 63) :
    ∃ x q : ℝ, s.ecf.get e = Rd.fin x ∧ s.eot.get e = Rd.fin q ∧
      (AroundPerihelion (date (t / 86400000000000)) → 1.027 - ecfError alg - 2e-10 ≤ x) ∧
      (AroundAphelion (date (t / 86400000000000)) → x ≤ 0.974 + ecfError alg + 2e-10) ∧
      (SundialFast (date (t / 86400000000000)) → 5 - eotError alg - 1.1e-6 ≤ q) ∧
      (SundialSlow (date (t / 86400000000000)) → q ≤ -(5 - eotError alg - 1.1e-6)) := by
  obtain ⟨b, hb, -⟩ := rd_time h hk
  obtain ⟨s', h', ha'⟩ := single_call .sites (known_iff.2 ⟨b, hb⟩) .pyFalse hrange (φ := 0) (l := 0) (by norm_num) (by norm_num)
  obtain ⟨-, ⟨f, f', hf, hf', hff⟩, ⟨q, q', hq, hq', hqq⟩⟩ := near_time (e' := fun _ => 0) h h' hk ha'.time hrange
  obtain ⟨x, hx, x1, x2⟩ := C89_distance (e := fun _ => 0) g h' ha'.time hrange
  obtain ⟨y, hy, y1, y2⟩ := C89_eot (e := fun _ => 0) g h' ha'.time hrange
  rw [hf'] at hx
  rw [hq'] at hy
  cases hx
  cases hy
  have hff := abs_le.1 hff
  have hqq := abs_le.1 hqq
  exact ⟨f, q, hf, hq, fun hj => by linarith [x1 hj, hff.1], fun hj => by linarith [x2 hj, hff.2],
    fun hj => by linarith [y1 hj, hqq.1], fun hj => by linarith [y2 hj, hqq.2]⟩

/-! ### the hypotheses are met -/

/-- 1 November 2023 and 1 February 2262 -/
example : SundialFast (codeDate (1698796800000000000 / 86400000000000)) ∧ SundialSlow (codeDate (9217324800000000000 / 86400000000000)) := by
  have h1 : codeDate (1698796800000000000 / 86400000000000) = ⟨2023, 11, 1⟩ := by decide +kernel
  have h2 : codeDate (9217324800000000000 / 86400000000000) = ⟨2262, 2, 1⟩ := by decide +kernel
  rw [h1, h2]; exact ⟨.inr rfl, .inr rfl⟩

/-- 3 January 2024 and 4 July 2024, and the equation of time of 3 November 2024 -/
example (uc : UseCase) {alg eng : String} (hk : KnownPair alg eng) :
    (∃ (s : Sunpos XR) (x : ℝ), call uc exWorld (oneTime 1704240000000000000) (.vec [.fin 40]) (.vec [.fin 10]) alg .pyTrue eng = .ok s ∧
      s.ecf.get (fun _ => 0) = .fin x ∧ 1.02 ≤ x) ∧
    (∃ (s : Sunpos XR) (x : ℝ), call uc exWorld (oneTime 1720051200000000000) (.vec [.fin 40]) (.vec [.fin 10]) alg .pyTrue eng = .ok s ∧
      s.ecf.get (fun _ => 0) = .fin x ∧ x ≤ 0.98) ∧
    (∃ (s : Sunpos XR) (x : ℝ), call uc exWorld (oneTime 1730592000000000000) (.vec [.fin 40]) (.vec [.fin 10]) alg .pyTrue eng = .ok s ∧
      s.eot.get (fun _ => 0) = .fin x ∧ 2.8 ≤ x) := by
  have e1 := ecfError_le alg
  have e2 := eotError_le alg
  have d1 : codeDate (1704240000000000000 / 86400000000000) = ⟨2024, 1, 3⟩ := by decide +kernel
  have d2 : codeDate (1720051200000000000 / 86400000000000) = ⟨2024, 7, 4⟩ := by decide +kernel
  have d3 : codeDate (1730592000000000000 / 86400000000000) = ⟨2024, 11, 3⟩ := by decide +kernel
  obtain ⟨s1, c1, a1⟩ := single_call uc hk .pyTrue (t := 1704240000000000000) (by norm_num) (φ := 40) (l := 10) (by norm_num) (by norm_num)
  obtain ⟨s2, c2, a2⟩ := single_call uc hk .pyTrue (t := 1720051200000000000) (by norm_num) (φ := 40) (l := 10) (by norm_num) (by norm_num)
  obtain ⟨s3, c3, a3⟩ := single_call uc hk .pyTrue (t := 1730592000000000000) (by norm_num) (φ := 40) (l := 10) (by norm_num) (by norm_num)
  obtain ⟨x1, y1, z1, -⟩ := C89_distance (e := fun _ => 0) C36_gregorian c1 a1.time a1.range
  obtain ⟨x2, y2, -, z2⟩ := C89_distance (e := fun _ => 0) C36_gregorian c2 a2.time a2.range
  obtain ⟨x3, y3, z3, -⟩ := C89_eot (e := fun _ => 0) C36_gregorian c3 a3.time a3.range
  have z1 := z1 (by rw [d1]; exact .inr ⟨rfl, by decide⟩)
  have z2 := z2 (by rw [d2]; exact .inr ⟨rfl, by decide⟩)
  have z3 := z3 (by rw [d3]; exact .inr rfl)
  refine ⟨⟨s1, x1, c1, y1, ?_⟩, ⟨s2, x2, c2, y2, ?_⟩, ⟨s3, x3, c3, y3, ?_⟩⟩
  · norm_num at e1 z1 ⊢; linarith
  · norm_num at e1 z2 ⊢; linarith
  · norm_num at e2 z3 ⊢; linarith

end SW.Props
