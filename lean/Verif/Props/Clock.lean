/-
C100: four times a year the sundial and the clock agree: the instants, the same for all algorithms up to their errors, at which the equation of time is zero.
-/
import Verif.Props.Apsides

namespace SW.Props
open SW SW.Spec SW.Ephem SW.Cal Real

/-! ### specification -/

/-- the four parts of the year `Y`: 28 February to 11 May, 12 May to 24 July, 25 July to 30 September, and 30 November to 14 January of the next year -/
def PartOfYear (Y : Int) (c : CivilDate) : Fin 4 → Prop
  | 0 => c.year = Y ∧ ((c.month = 2 ∧ 28 ≤ c.day) ∨ c.month = 3 ∨ c.month = 4 ∨ (c.month = 5 ∧ c.day ≤ 11))
  | 1 => c.year = Y ∧ ((c.month = 5 ∧ 12 ≤ c.day) ∨ c.month = 6 ∨ (c.month = 7 ∧ c.day ≤ 24))
  | 2 => c.year = Y ∧ ((c.month = 7 ∧ 25 ≤ c.day) ∨ c.month = 8 ∨ c.month = 9)
  | 3 => (c.year = Y ∧ ((c.month = 11 ∧ 30 ≤ c.day) ∨ c.month = 12)) ∨ (c.year = Y + 1 ∧ c.month = 1 ∧ c.day ≤ 14)

/-- 12 May -/
def MidMay (c : CivilDate) : Prop := c.month = 5 ∧ c.day = 12
/-- 25 July -/
def LateJuly (c : CivilDate) : Prop := c.month = 7 ∧ c.day = 25

namespace Clock

/-- the equation of time of the reference, in minutes, without whole days -/
noncomputable def minutes (T : ℝ) : ℝ :=
  (arctan (((1 - cos (obliquity T)) * (sin (2 * longitude T) / 2)) / max (cos (longitude T) ^ 2 + cos (obliquity T) * sin (longitude T) ^ 2) 0.9)
      - center T) * (1440 / (2 * π))

theorem continuous_minutes : Continuous minutes := by
  have hm : ∀ T, max (cos (longitude T) ^ 2 + cos (obliquity T) * sin (longitude T) ^ 2) 0.9 ≠ 0 := fun T =>
    ne_of_gt (lt_of_lt_of_le (by norm_num) (le_max_right _ _))
  have h1 : Continuous fun T => arctan (((1 - cos (obliquity T)) * (sin (2 * longitude T) / 2)) /
      max (cos (longitude T) ^ 2 + cos (obliquity T) * sin (longitude T) ^ 2) 0.9) := by
    refine continuous_arctan.comp (Continuous.div ?_ ?_ hm) <;>
      (unfold obliquity longitude meanLongitude center eccentricity meanAnomaly Ephem.deg; fun_prop)
  have h2 : Continuous center := by
    unfold center eccentricity meanAnomaly Ephem.deg; fun_prop
  exact (h1.sub h2).mul continuous_const

theorem minutes_def {T : ℝ} (hT : |T| ≤ 3.24) : minutes T =
    (arctan (((1 - cos (obliquity T)) * (sin (2 * longitude T) / 2)) / (cos (longitude T) ^ 2 + cos (obliquity T) * sin (longitude T) ^ 2))
      - center T) * (1440 / (2 * π)) := by
  have o2 := (Year.obl_cos hT).2
  unfold minutes
  rw [max_eq_left]
  norm_num at o2 ⊢; nlinarith [sin_sq_add_cos_sq (longitude T), sq_nonneg (sin (longitude T)), sq_nonneg (cos (longitude T))]

theorem minutes_eq {T : ℝ} (hT : |T| ≤ 3.24) : ∃ k : ℤ, equationOfTime T - 1440 * k = minutes T := by
  rw [minutes_def hT]; exact Year.ref_eot_eq hT

theorem factor : 229.18 ≤ 1440 / (2 * π) ∧ 1440 / (2 * π) ≤ 229.19 := by
  have p1 := pi_gt_d6
  have p2 := pi_lt_d6
  constructor
  · rw [le_div_iff₀ (by positivity)]; norm_num at p2 ⊢; linarith
  · rw [div_le_iff₀ (by positivity)]; norm_num at p1 ⊢; linarith

theorem minutes_bound {T : ℝ} (hT : |T| ≤ 3.24) : |minutes T| ≤ 19 := by
  rw [minutes_def hT]
  have hc := Seasons.center_bound hT
  obtain ⟨r1, -⟩ := Year.reduction_bounds hT rfl
  obtain ⟨f1, f2⟩ := factor
  generalize arctan _ = r at *
  generalize 1440 / (2 * π) = f at *
  have f0 : 0 < f := lt_of_lt_of_le (by norm_num) f1
  rw [abs_mul, abs_of_pos f0]
  have : |r - center T| ≤ 0.0817 := by
    refine (abs_sub _ _).trans ?_
    norm_num at r1 hc ⊢; linarith
  calc _ ≤ 0.0817 * f := mul_le_mul_of_nonneg_right this f0.le
    _ ≤ 19 := by norm_num at f2 ⊢; linarith

/-- whole days are excluded by the size -/
theorem no_days {x y b : ℝ} {k : ℤ} (hx : |x| ≤ 20) (hy : |y| ≤ 20) (hb : b < 1000) (h : |x - y - 1440 * k| ≤ b) : |x - y| ≤ b := by
  have h1 := abs_le.1 h
  have h2 := abs_le.1 hx
  have h3 := abs_le.1 hy
  have a1 : (k : ℝ) < 1 := by linarith [h1.1]
  have a2 : (-1 : ℝ) < k := by linarith [h1.2]
  have b1 : k < 1 := by exact_mod_cast a1
  have b2 : -1 < k := by exact_mod_cast a2
  obtain rfl : k = 0 := by omega
  simpa using h

/-- the equation of time moves slowly -/
theorem minutes_drift {T1 T2 : ℝ} (h1 : |T1| ≤ 3.24) (h2 : |T2| ≤ 3.24) : |minutes T1 - minutes T2| ≤ 20700 * |T1 - T2| := by
  rcases lt_or_ge |T1 - T2| 0.01 with hs | hs
  · obtain ⟨k1, e1⟩ := minutes_eq h1
    obtain ⟨k2, e2⟩ := minutes_eq h2
    obtain ⟨k, hk⟩ := drift_eot h1 h2
    obtain ⟨f1, f2⟩ := factor
    have p0 := pi_pos
    have hf : 1440 / (2 * π) * (2 * π) = 1440 := by field_simp
    refine no_days (k := k - k1 + k2) ((minutes_bound h1).trans (by norm_num)) ((minutes_bound h2).trans (by norm_num)) (by norm_num at hs ⊢; linarith) ?_
    have e : minutes T1 - minutes T2 - 1440 * ((k - k1 + k2 : ℤ) : ℝ) =
        ((meanLongitude T1 - rightAscension T1) - (meanLongitude T2 - rightAscension T2) - k * (2 * π)) * (1440 / (2 * π)) := by
      rw [← e1, ← e2]
      unfold equationOfTime
      push_cast
      linear_combination (k : ℝ) * hf
    rw [e, abs_mul, abs_of_pos (show 0 < 1440 / (2 * π) by positivity)]
    have := abs_nonneg (T1 - T2)
    have q := mul_le_mul hk f2 (by positivity) (by positivity)
    refine q.trans ?_
    norm_num; linarith
  · have b1 := minutes_bound h1
    have b2 := minutes_bound h2
    refine (abs_sub _ _).trans ?_
    norm_num at hs ⊢; linarith

/-- the sign of the equation of time in the middle of May and at the end of July -/
theorem minutes_day {t Y k : Int} (ht : |t| < 2 ^ 63) (hn : t / 86400000000000 = yearStart Y + k) :
    (131 ≤ k → k ≤ 132 → 1.5 ≤ minutes (century t)) ∧ (205 ≤ k → k ≤ 206 → minutes (century t) ≤ -2.5) := by
  have hT := century_bound ht
  rw [minutes_def hT]
  obtain ⟨r, hr⟩ : ∃ r, r = arctan (((1 - cos (obliquity (century t))) * (sin (2 * longitude (century t)) / 2)) /
      (cos (longitude (century t)) ^ 2 + cos (obliquity (century t)) * sin (longitude (century t)) ^ 2)) := ⟨_, rfl⟩
  obtain ⟨-, r2⟩ := Year.reduction_bounds hT hr
  rw [← hr]
  clear hr
  have he := ecc_bound hT
  have p1 := pi_gt_d6
  have p2 := pi_lt_d6
  obtain ⟨f1, f2⟩ := factor
  obtain ⟨m, hm⟩ : ∃ m, m = meanAnomaly (century t) - ((Y - 1999 : ℤ) : ℝ) * (2 * π) := ⟨_, rfl⟩
  obtain ⟨l, hl⟩ : ∃ l, l = longitude (century t) - ((Y - 2000 : ℤ) : ℝ) * (2 * π) := ⟨_, rfl⟩
  have sm : sin (meanAnomaly (century t)) = sin m := by rw [hm, sin_sub_int_mul_two_pi]
  have sl : sin (2 * longitude (century t)) = sin (2 * l) := by
    rw [hl, show 2 * (longitude (century t) - ((Y - 2000 : ℤ) : ℝ) * (2 * π)) =
      2 * longitude (century t) - ((2 * (Y - 2000) : ℤ) : ℝ) * (2 * π) by push_cast; ring, sin_sub_int_mul_two_pi]
  have ec2 : eccentricity (century t) ^ 2 ≤ 0.01685 ^ 2 := pow_le_pow_left₀ (by linarith [he.1]) he.2 2
  have hce : |center (century t) - 2 * eccentricity (century t) * sin m| ≤ 0.00036 := by
    unfold center
    rw [sm, add_sub_cancel_left, abs_mul, abs_of_nonneg (by positivity)]
    have := abs_sin_le_one (2 * meanAnomaly (century t))
    refine (mul_le_of_le_one_right (by positivity) this).trans ?_
    norm_num at ec2 ⊢; linarith
  have hce := abs_le.1 hce
  rw [sl] at r2
  have w1 := fun a b => Year.anomaly_window (Y := Y) (k := k) ht hn a b
  have w2 := fun a b => Seasons.lon_window (Y := Y) (k := k) ht hn a b
  rw [← hm] at w1
  rw [← hl] at w2
  clear hm hl sm sl
  generalize eccentricity (century t) = ec at *
  generalize center (century t) = c at *
  generalize 1440 / (2 * π) = f at *
  have f0 : 0 < f := lt_of_lt_of_le (by norm_num) f1
  have pp : 0 ≤ π / 180 := by positivity
  constructor <;> intro a b
  · obtain ⟨m1, m2⟩ := w1 (by omega) (by omega)
    obtain ⟨l1, l2⟩ := w2 (by omega) (by omega)
    have a' : (131 : ℝ) ≤ k := by exact_mod_cast a
    have b' : (k : ℝ) ≤ 132 := by exact_mod_cast b
    unfold rad at m1 m2 l1 l2
    have m1' := (mul_le_mul_of_nonneg_right (show 119.48 ≤ -9.63 + 0.98564 * (k : ℝ) by norm_num; linarith) pp).trans m1
    have m2' := m2.trans (mul_le_mul_of_nonneg_right (show 5.43 + 0.98565 * (k : ℝ) ≤ 135.54 by norm_num; linarith) pp)
    have l1' := (sub_le_sub_right (mul_le_mul_of_nonneg_right (show 407.99 ≤ 280.35 + 0.98564 * ((k : ℝ) - 1.49) by norm_num; linarith) pp) 0.0342).trans l1
    have l2' := l2.trans (add_le_add_left (mul_le_mul_of_nonneg_right (show 280.56 + 0.98565 * ((k : ℝ) + 2.2475) ≤ 412.89 by norm_num; linarith) pp) 0.0342)
    have h2 : 0.9 ≤ sin (2 * l) := by
      have e : sin (2 * l) = sin (2 * l - ((2 : ℤ) : ℝ) * (2 * π)) := by rw [sin_sub_int_mul_two_pi]
      rw [e]
      refine (Year.sin_low (a := 1.21) (by norm_num) (by norm_num)).trans (Year.sin_between (by norm_num) ?_ ?_) <;>
        norm_num at l1' l2' p1 p2 ⊢ <;> linarith
    have h3 := (r2 0.9 (by norm_num) (by norm_num)).1 h2
    have h1 : sin m ≤ 0.88 := by
      rw [← sin_pi_sub]
      have : sin (π - m) ≤ sin 1.057 := sin_le_sin_of_le_of_le_pi_div_two (by norm_num at m2' p1 p2 ⊢; linarith) (by norm_num at p1 ⊢; linarith)
        (by norm_num at m1' p1 p2 ⊢; linarith)
      have h5 : sin 1.057 ≤ 0.88 := by
        have e : sin 1.057 = cos (π / 2 - 1.057) := by rw [cos_pi_div_two_sub]
        rw [e]
        have c1 : cos (π / 2 - 1.057) ≤ cos 0.5137 := cos_le_cos_of_nonneg_of_le_pi (by norm_num) (by norm_num at p1 p2 ⊢; linarith) (by norm_num at p1 ⊢; linarith)
        have c2 := (abs_le.1 (cos_bound (x := 0.5137) (by norm_num [abs_of_pos]))).2
        rw [abs_of_pos (by norm_num : (0 : ℝ) < 0.5137)] at c2
        norm_num at c1 c2 ⊢; linarith
      exact this.trans h5
    have h4 : c ≤ 0.03002 := by
      have : ec * sin m ≤ 0.01685 * 0.88 := mul_le_mul he.2 h1
        (sin_nonneg_of_nonneg_of_le_pi (by norm_num at m1' p1; linarith) (by norm_num at m2' p1; linarith)) (by norm_num)
      norm_num at this hce ⊢; linarith [hce.2]
    calc (1.5 : ℝ) ≤ 0.0066 * 229.18 := by norm_num
      _ ≤ (r - c) * f := mul_le_mul (by norm_num at h3 h4 ⊢; linarith) f1 (by norm_num) (by norm_num at h3 h4 ⊢; linarith)
  · obtain ⟨m1, m2⟩ := w1 (by omega) (by omega)
    obtain ⟨l1, l2⟩ := w2 (by omega) (by omega)
    have a' : (205 : ℝ) ≤ k := by exact_mod_cast a
    have b' : (k : ℝ) ≤ 206 := by exact_mod_cast b
    unfold rad at m1 m2 l1 l2
    have m1' := (mul_le_mul_of_nonneg_right (show 192.4 ≤ -9.63 + 0.98564 * (k : ℝ) by norm_num; linarith) pp).trans m1
    have m2' := m2.trans (mul_le_mul_of_nonneg_right (show 5.43 + 0.98565 * (k : ℝ) ≤ 208.5 by norm_num; linarith) pp)
    have l1' := (sub_le_sub_right (mul_le_mul_of_nonneg_right (show 480.93 ≤ 280.35 + 0.98564 * ((k : ℝ) - 1.49) by norm_num; linarith) pp) 0.0342).trans l1
    have l2' := l2.trans (add_le_add_left (mul_le_mul_of_nonneg_right (show 280.56 + 0.98565 * ((k : ℝ) + 2.2475) ≤ 485.83 by norm_num; linarith) pp) 0.0342)
    have h2 : sin (2 * l) ≤ -0.7 := by
      have e : -sin (2 * l) = sin (2 * l - π - ((2 : ℤ) : ℝ) * (2 * π)) := by rw [sin_sub_int_mul_two_pi, sin_sub_pi]
      have : 0.7 ≤ -sin (2 * l) := by
        rw [e]
        refine (Year.sin_low (a := 0.8) (by norm_num) (by norm_num)).trans (Year.sin_between (by norm_num) ?_ ?_) <;>
          norm_num at l1' l2' p1 p2 ⊢ <;> linarith
      linarith
    have h3 := (r2 0.7 (by norm_num) (by norm_num)).2 h2
    have h1 : -0.498 ≤ sin m := by
      have e : sin m = -sin (m - π) := by rw [sin_sub_pi, neg_neg]
      have : sin (m - π) ≤ m - π := sin_le (by norm_num at m1' p2; linarith)
      rw [e]
      norm_num at m2' p1 p2 ⊢; linarith
    have h4 : -0.0172 ≤ c := by
      have e0 : 0 ≤ ec := by have := he.1; norm_num at this; linarith
      have : ec * (-0.498) ≤ ec * sin m := mul_le_mul_of_nonneg_left h1 e0
      have := he.2
      norm_num at this hce ⊢; linarith [hce.1]
    have : 2.5 ≤ (c - r) * f := by
      calc (2.5 : ℝ) ≤ 0.011 * 229.18 := by norm_num
        _ ≤ (c - r) * f := mul_le_mul (by norm_num at h3 h4 ⊢; linarith) f1 (by norm_num) (by norm_num at h3 h4 ⊢; linarith)
    linarith

/-- the sign in winter and autumn -/
theorem minutes_season {t : Int} (ht : |t| < 2 ^ 63) :
    (SundialFast (codeDate (t / 86400000000000)) → 5 ≤ minutes (century t)) ∧ (SundialSlow (codeDate (t / 86400000000000)) → minutes (century t) ≤ -5) := by
  obtain ⟨k, v, hv, v1, v2, v3⟩ := Year.ref_eot ht
  obtain ⟨k', hv'⟩ := minutes_eq (century_bound ht)
  have e : |v - minutes (century t)| ≤ 0 :=
    no_days (k := k' - k) (v1.trans (by norm_num)) ((minutes_bound (century_bound ht)).trans (by norm_num)) (by norm_num) (by
      rw [← hv, ← hv']; push_cast; ring_nf; norm_num)
  have e : v = minutes (century t) := by have := abs_nonpos_iff.1 e; linarith
  rw [← e]
  exact ⟨v2, v3⟩

/-- a zero between two days on which the signs differ -/
theorem zero_between {n1 n2 : Int} (b1 : -106751 < n1) (b2 : n2 < 106751) (h12 : n1 < n2)
    (hs : (minutes (century (n1 * 86400000000000)) < 0 ∧ 0 < minutes (century (n2 * 86400000000000))) ∨
      (0 < minutes (century (n1 * 86400000000000)) ∧ minutes (century (n2 * 86400000000000)) < 0)) :
    ∃ t : Int, |t| < 2 ^ 63 ∧ n1 ≤ t / 86400000000000 ∧ t / 86400000000000 < n2 ∧ |minutes (century t)| ≤ 1e-7 := by
  have lip : ∀ σ : ℝ, (σ = 1 ∨ σ = -1) → ∀ {T1 T2 : ℝ}, |T1| ≤ 3.24 → |T2| ≤ 3.24 → |σ / 100 * minutes T1 - σ / 100 * minutes T2| ≤ 650.1 * |T1 - T2| := by
    intro σ hσ T1 T2 h1 h2
    have := minutes_drift h1 h2
    have := abs_nonneg (T1 - T2)
    rw [← mul_sub, abs_mul]
    rcases hσ with rfl | rfl <;> norm_num [abs_of_pos] <;> linarith
  obtain ⟨σ, hσ, g1, g2⟩ : ∃ σ : ℝ, (σ = 1 ∨ σ = -1) ∧ σ / 100 * minutes (century (n1 * 86400000000000)) < 0 ∧
      0 < σ / 100 * minutes (century (n2 * 86400000000000)) := by
    rcases hs with ⟨a, b⟩ | ⟨a, b⟩
    · exact ⟨1, .inl rfl, by linarith, by linarith⟩
    · exact ⟨-1, .inr rfl, by linarith, by linarith⟩
  obtain ⟨t, t1, t2, ht, hd⟩ := Solstice.ref_passage (F := fun T => σ / 100 * minutes T) (continuous_const.mul continuous_minutes) (lip σ hσ) (by rw [abs_lt]; omega) (by rw [abs_lt]; omega)
    (by omega) g1 g2
  refine ⟨t, ht, by omega, by omega, ?_⟩
  have hd : |σ / 100 * minutes (century t)| ≤ 1e-9 := by simpa using hd
  rw [abs_mul] at hd
  rcases hσ with rfl | rfl <;> norm_num [abs_of_pos] at hd ⊢ <;> linarith

/-- the parts of the year by the day of the year -/
theorem part_window {n Y k : Int} (hn : n = yearStart Y + k) (h : 0 ≤ k ∧ k < yearLength Y) :
    (before (isLeap Y) 1 + 27 ≤ k → k < before (isLeap Y) 4 + 11 → PartOfYear Y (codeDate n) 0) ∧
    (before (isLeap Y) 4 + 11 ≤ k → k < before (isLeap Y) 6 + 24 → PartOfYear Y (codeDate n) 1) ∧
    (before (isLeap Y) 6 + 24 ≤ k → k < before (isLeap Y) 9 → PartOfYear Y (codeDate n) 2) ∧
    (before (isLeap Y) 10 + 29 ≤ k → PartOfYear Y (codeDate n) 3) ∧
    (k < 14 → PartOfYear (Y - 1) (codeDate n) 3) := by
  have c := Equinox.codeDate_at h
  rw [← hn] at c
  rw [c]
  rw [yearLength_eq] at h
  generalize isLeap Y = leap at *
  obtain ⟨i, m, d, hi, rfl, hm, hd1, hd2, hd3⟩ := monthDay_cases leap h.1 h.2
  rw [hm]
  unfold PartOfYear
  simp only
  cases leap <;> interval_cases i <;> simp [monthLengths, mlen, before] at hd2 hd3 ⊢ <;> omega

theorem before_values (leap : Bool) : ∃ x : Int, 0 ≤ x ∧ x ≤ 1 ∧ before leap 1 = 31 ∧ before leap 4 = 120 + x ∧ before leap 6 = 181 + x ∧
    before leap 9 = 273 + x ∧ before leap 10 = 304 + x ∧ before leap 12 = 365 + x := by
  cases leap
  · exact ⟨0, by norm_num, by norm_num, by decide, by decide, by decide, by decide, by decide, by decide⟩
  · exact ⟨1, by norm_num, by norm_num, by decide, by decide, by decide, by decide, by decide, by decide⟩

/-- the four zeros of the reference -/
theorem ref_zero_at {Y : Int} (hY : 1678 ≤ Y ∧ Y ≤ 2260) (j : Fin 4) :
    ∃ t : Int, |t| < 2 ^ 63 ∧ PartOfYear Y (codeDate (t / 86400000000000)) j ∧ |minutes (century t)| ≤ 1e-7 := by
  have y1 := yearStart_mono hY.1
  have y2 := yearStart_mono (show Y + 1 ≤ 2261 by omega)
  rw [show yearStart 1678 = -106650 by decide] at y1
  rw [show yearStart 2261 = 106286 by decide] at y2
  have ys := yearStart_succ Y
  obtain ⟨x, x0, x1, w1, w4, w6, w9, w10, w12⟩ := before_values (isLeap Y)
  obtain ⟨x', -, -, v1, -⟩ := before_values (isLeap (Y + 1))
  have yl : yearLength Y = 365 + x := by rw [yearLength_eq, ← before_12, w12]
  have yl' : 365 ≤ yearLength (Y + 1) := by unfold yearLength; split_ifs <;> norm_num
  have m1 : mlen (isLeap Y) (1 + (1 : ℕ)) ≥ 28 := by unfold mlen; split_ifs <;> omega
  have m9 : mlen (isLeap Y) (1 + (9 : ℕ)) = 31 := by cases isLeap Y <;> rfl
  have m10 : mlen (isLeap Y) (1 + (10 : ℕ)) = 30 := by cases isLeap Y <;> rfl
  have m0 : mlen (isLeap (Y + 1)) (1 + (0 : ℕ)) = 31 := by cases isLeap (Y + 1) <;> rfl
  have cF := Equinox.codeDate_md (Y := Y) (d := 28) (i := 1) (by norm_num) ⟨by norm_num, by omega⟩
  have cO := Equinox.codeDate_md (Y := Y) (d := 1) (i := 9) (by norm_num) ⟨by norm_num, by omega⟩
  have cN := Equinox.codeDate_md (Y := Y) (d := 30) (i := 10) (by norm_num) ⟨by norm_num, by omega⟩
  have cJ := Equinox.codeDate_md (Y := Y + 1) (d := 15) (i := 0) (by norm_num) ⟨by norm_num, by omega⟩
  rw [w1] at cF
  rw [w9] at cO
  rw [w10] at cN
  rw [before_0] at cJ
  have div : ∀ n : Int, n * 86400000000000 / 86400000000000 = n := fun n => by omega
  have rg : ∀ n : Int, -106751 < n → n < 106751 → |n * 86400000000000| < 2 ^ 63 := fun n a b => by rw [abs_lt]; omega
  have sF := (minutes_season (rg (yearStart Y + (31 + 28 - 1)) (by omega) (by omega))).2
  have sO := (minutes_season (rg (yearStart Y + (273 + x + 1 - 1)) (by omega) (by omega))).1
  have sN := (minutes_season (rg (yearStart Y + (304 + x + 30 - 1)) (by omega) (by omega))).1
  have sJ := (minutes_season (rg (yearStart (Y + 1) + (0 + 15 - 1)) (by omega) (by omega))).2
  rw [div, cF] at sF
  rw [div, cO] at sO
  rw [div, cN] at sN
  rw [div, cJ] at sJ
  have sF := sF (.inr (by norm_num))
  have sO := sO (.inl (by norm_num))
  have sN := sN (.inr (by norm_num))
  have sJ := sJ (.inl (by norm_num))
  have sM := (minutes_day (k := 131 + x) (rg (yearStart Y + (131 + x)) (by omega) (by omega)) (div _)).1 (by omega) (by omega)
  have sL := (minutes_day (k := 205 + x) (rg (yearStart Y + (205 + x)) (by omega) (by omega)) (div _)).2 (by omega) (by omega)
  have fin : ∀ {n1 n2 : Int} (j : Fin 4), -106751 < n1 → n2 < 106751 → n1 < n2 →
      ((minutes (century (n1 * 86400000000000)) < 0 ∧ 0 < minutes (century (n2 * 86400000000000))) ∨
        (0 < minutes (century (n1 * 86400000000000)) ∧ minutes (century (n2 * 86400000000000)) < 0)) →
      (∀ n, n1 ≤ n → n < n2 → PartOfYear Y (codeDate n) j) →
      ∃ t : Int, |t| < 2 ^ 63 ∧ PartOfYear Y (codeDate (t / 86400000000000)) j ∧ |minutes (century t)| ≤ 1e-7 := by
    intro n1 n2 j a b c hs hp
    obtain ⟨t, t0, t1, t2, t3⟩ := zero_between a b c hs
    exact ⟨t, t0, hp _ t1 t2, t3⟩
  have pw := fun n => part_window (n := n) (Y := Y) (k := n - yearStart Y) (by omega)
  have pw' := fun n => part_window (n := n) (Y := Y + 1) (k := n - yearStart (Y + 1)) (by omega)
  rw [w1, w4, w6, w9, w10] at pw
  fin_cases j
  · exact fin (n1 := yearStart Y + (31 + 28 - 1)) (n2 := yearStart Y + (131 + x)) 0 (by omega) (by omega) (by omega) (.inl ⟨by linarith, by linarith⟩) fun n a b =>
      (pw n ⟨by omega, by omega⟩).1 (by omega) (by omega)
  · exact fin (n1 := yearStart Y + (131 + x)) (n2 := yearStart Y + (205 + x)) 1 (by omega) (by omega) (by omega) (.inr ⟨by linarith, by linarith⟩) fun n a b =>
      (pw n ⟨by omega, by omega⟩).2.1 (by omega) (by omega)
  · exact fin (n1 := yearStart Y + (205 + x)) (n2 := yearStart Y + (273 + x + 1 - 1)) 2 (by omega) (by omega) (by omega) (.inl ⟨by linarith, by linarith⟩) fun n a b =>
      (pw n ⟨by omega, by omega⟩).2.2.1 (by omega) (by omega)
  · exact fin (n1 := yearStart Y + (304 + x + 30 - 1)) (n2 := yearStart (Y + 1) + (0 + 15 - 1)) 3 (by omega) (by omega) (by omega) (.inr ⟨by linarith, by linarith⟩) fun n a b => by
      rcases lt_or_ge n (yearStart (Y + 1)) with c | c
      · exact (pw n ⟨by omega, by omega⟩).2.2.2.1 (by omega)
      · have := (pw' n ⟨by omega, by omega⟩).2.2.2.2 (by omega)
        rwa [show Y + 1 - 1 = Y by ring] at this

/-- the signs on 12 May and on 25 July -/
theorem minutes_date {t : Int} (ht : |t| < 2 ^ 63) :
    (MidMay (codeDate (t / 86400000000000)) → 1.5 ≤ minutes (century t)) ∧ (LateJuly (codeDate (t / 86400000000000)) → minutes (century t) ≤ -2.5) := by
  obtain ⟨h1, h2, h3⟩ := yearsDays_spec (t / 86400000000000)
  have hs := minutes_day ht h1
  have e := codeDate_eq (t / 86400000000000)
  rw [e]
  rw [yearLength_eq] at h3
  generalize isLeap (yearsDays (t / 86400000000000)).1 = leap at *
  generalize (yearsDays (t / 86400000000000)).2 = k at *
  clear e h1
  obtain ⟨i, m, d, hi, rfl, hm, hd1, hd2, hd3⟩ := monthDay_cases leap h2 h3
  rw [hm]
  unfold MidMay LateJuly
  simp only
  have w : (1 + (i : ℤ) = 5 ∧ d = 12 → 131 ≤ k ∧ k ≤ 132) ∧ (1 + (i : ℤ) = 7 ∧ d = 25 → 205 ≤ k ∧ k ≤ 206) := by
    cases leap <;> interval_cases i <;> simp [monthLengths, mlen] at hd2 hd3 ⊢ <;> omega
  exact ⟨fun h => hs.1 (w.1 h).1 (w.1 h).2, fun h => hs.2 (w.2 h).1 (w.2 h).2⟩

theorem from_ref {t : Int} (ht : |t| < 2 ^ 63) (h0 : |minutes (century t)| ≤ 1e-7) {x b : ℝ} {k : ℤ} (hx : |x| ≤ 20.5) (hb : b ≤ 3)
    (h : |x - equationOfTime (century t) - 1440 * k| ≤ b) : |x| ≤ b + 1e-7 := by
  obtain ⟨k', hk'⟩ := minutes_eq (century_bound ht)
  have := abs_le.1 (Year.eot_of_ref hx hk' (minutes_bound (century_bound ht)) hb h)
  have h0 := abs_le.1 h0
  rw [abs_le]
  constructor <;> linarith [this.1, this.2]

end Clock

open Clock

/-! ### theorems -/

/-- C100: in each of the four parts of every year there is an instant, one for all algorithms, engines, use cases and places, at which the sundial
and the clock agree: the equation of time of every call is zero up to the error of its algorithm. -/
theorem C100_clock {date : Int → CivilDate} (g : IsGregorian date) {Y : Int} (hY : 1678 ≤ Y ∧ Y ≤ 2260) (j : Fin 4) :
    ∃ t : Int, |t| < 2 ^ 63 ∧ PartOfYear Y (date (t / 86400000000000)) j ∧
      ∀ {uc : UseCase} {w : World XR} {times : Times} {latitude longitude : Coord XR} {alg eng : String} {refr : PyVal} {s : Sunpos XR} {e : Dim → Nat},
        call uc w times latitude longitude alg refr eng = .ok s → stampAt times.stamps (e .time) = some t →
        ∃ x : ℝ, s.eot.get e = .fin x ∧ |x| ≤ eotError alg + 1e-7 := by
  rw [g.unique C36_gregorian]
  obtain ⟨t, ht, hp, h0⟩ := ref_zero_at hY j
  refine ⟨t, ht, hp, ?_⟩
  intro uc w times latitude longitude alg eng refr s e h hk
  obtain ⟨x, hx, k, hb⟩ := C54_eot h hk ht
  obtain ⟨x', hx', hx2⟩ := C19_eot h hk ht
  rw [hx] at hx'
  cases hx'
  exact ⟨x, hx, from_ref ht h0 (hx2.trans (by norm_num)) ((Year.eotError_le alg).trans (by norm_num)) hb⟩

/-- C100: the same instants in floating point. -/
theorem C100_clock_float {date : Int → CivilDate} (g : IsGregorian date) {Y : Int} (hY : 1678 ≤ Y ∧ Y ≤ 2260) (j : Fin 4) :
    ∃ t : Int, |t| < 2 ^ 63 ∧ PartOfYear Y (date (t / 86400000000000)) j ∧
      ∀ {A : Arith} {uc : UseCase} {w : World (Rd A)} {times : Times} {latitude longitude : Coord (Rd A)} {alg eng : String} {refr : PyVal}
        {s : Sunpos (Rd A)} {e : Dim → Nat},
        call uc w times latitude longitude alg refr eng = .ok s → stampAt times.stamps (e .time) = some t →
        ∃ x : ℝ, s.eot.get e = Rd.fin x ∧ |x| ≤ eotError alg + 1.3e-6 := by
  obtain ⟨t, ht, hp, hz⟩ := C100_clock g hY j
  refine ⟨t, ht, hp, ?_⟩
  intro A uc w times latitude longitude alg eng refr s e h hk
  obtain ⟨b, hb, -⟩ := rd_time h hk
  obtain ⟨s', h', ha'⟩ := single_call .sites (known_iff.2 ⟨b, hb⟩) .pyFalse ht (φ := 0) (l := 0) (by norm_num) (by norm_num)
  obtain ⟨-, -, ⟨q, q', hq, hq', hqq⟩⟩ := near_time (e' := fun _ => 0) h h' hk ha'.time ht
  obtain ⟨x, hx, hx2⟩ := hz (e := fun _ => 0) h' ha'.time
  rw [hq'] at hx
  cases hx
  have hqq := abs_le.1 hqq
  have hx2 := abs_le.1 hx2
  refine ⟨q, hq, abs_le.2 ?_⟩
  constructor <;> norm_num at * <;> linarith [hqq.1, hqq.2, hx2.1, hx2.2]

/-- C100: on the two days that separate the zeros of spring and summer the sundial is fast and slow: with C89 the signs alternate from one part to the next. -/
theorem C100_signs {date : Int → CivilDate} (g : IsGregorian date)
    {uc : UseCase} {w : World XR} {times : Times} {latitude longitude : Coord XR} {alg eng : String} {refr : PyVal} {s : Sunpos XR} {e : Dim → Nat} {t : Int}
    (h : call uc w times latitude longitude alg refr eng = .ok s) (hk : stampAt times.stamps (e .time) = some t) (ht : |t| < 2 ^ 63) :
    ∃ x : ℝ, s.eot.get e = .fin x ∧ (MidMay (date (t / 86400000000000)) → 1.5 - eotError alg ≤ x) ∧
      (LateJuly (date (t / 86400000000000)) → x ≤ -(2.5 - eotError alg)) := by
  rw [g.unique C36_gregorian]
  obtain ⟨x, hx, k, hb⟩ := C54_eot h hk ht
  obtain ⟨x', hx', hx2⟩ := C19_eot h hk ht
  rw [hx] at hx'
  cases hx'
  obtain ⟨k', hk'⟩ := minutes_eq (century_bound ht)
  have := abs_le.1 (Year.eot_of_ref (hx2.trans (by norm_num)) hk' (minutes_bound (century_bound ht)) ((Year.eotError_le alg).trans (by norm_num)) hb)
  obtain ⟨a, b⟩ := minutes_date ht
  exact ⟨x, hx, fun hj => by linarith [a hj, this.1], fun hj => by linarith [b hj, this.2]⟩

/-! ### the hypotheses are met -/

/-- 12 May 2024 and 25 July 2024 with nrel -/
example (uc : UseCase) {eng : String} (hk : KnownPair "nrel" eng) :
    (∃ (s : Sunpos XR) (x : ℝ), call uc exWorld (oneTime 1715472000000000000) (.vec [.fin 40]) (.vec [.fin 10]) "nrel" .pyTrue eng = .ok s ∧
      s.eot.get (fun _ => 0) = .fin x ∧ 1 ≤ x) ∧
    (∃ (s : Sunpos XR) (x : ℝ), call uc exWorld (oneTime 1721865600000000000) (.vec [.fin 40]) (.vec [.fin 10]) "nrel" .pyTrue eng = .ok s ∧
      s.eot.get (fun _ => 0) = .fin x ∧ x ≤ -2) := by
  have e2 : eotError "nrel" = 0.117 := by unfold eotError; rw [if_neg (by decide), if_neg (by decide), if_pos rfl]
  have d1 : codeDate (1715472000000000000 / 86400000000000) = ⟨2024, 5, 12⟩ := by decide +kernel
  have d2 : codeDate (1721865600000000000 / 86400000000000) = ⟨2024, 7, 25⟩ := by decide +kernel
  obtain ⟨s1, c1, a1⟩ := single_call uc hk .pyTrue (t := 1715472000000000000) (by norm_num) (φ := 40) (l := 10) (by norm_num) (by norm_num)
  obtain ⟨s2, c2, a2⟩ := single_call uc hk .pyTrue (t := 1721865600000000000) (by norm_num) (φ := 40) (l := 10) (by norm_num) (by norm_num)
  obtain ⟨x1, x2, x3, -⟩ := C100_signs (e := fun _ => 0) C36_gregorian c1 a1.time (by norm_num)
  obtain ⟨y1, y2, -, y3⟩ := C100_signs (e := fun _ => 0) C36_gregorian c2 a2.time (by norm_num)
  rw [d1, e2] at x3
  rw [d2, e2] at y3
  refine ⟨⟨s1, x1, c1, x2, ?_⟩, ⟨s2, y1, c2, y2, ?_⟩⟩
  · have := x3 ⟨rfl, rfl⟩; norm_num at this; linarith
  · have := y3 ⟨rfl, rfl⟩; norm_num at this; linarith

/-- in each part of 2024 an instant at which the equation of time of nrel is zero up to its error of seven seconds, and that of soltrack up to its error of one second -/
example (uc : UseCase) {eng eng' : String} (hk : KnownPair "nrel" eng) (hk' : KnownPair "soltrack" eng') (j : Fin 4) :
    ∃ (t : Int) (s s' : Sunpos XR) (x x' : ℝ), PartOfYear 2024 (codeDate (t / 86400000000000)) j ∧
      call uc exWorld (oneTime t) (.vec [.fin 40]) (.vec [.fin 10]) "nrel" .pyTrue eng = .ok s ∧
      call uc exWorld (oneTime t) (.vec [.fin (-20)]) (.vec [.fin 70]) "soltrack" .pyTrue eng' = .ok s' ∧
      s.eot.get (fun _ => 0) = .fin x ∧ s'.eot.get (fun _ => 0) = .fin x' ∧ |x| ≤ eotError "nrel" + 1e-7 ∧ |x'| ≤ eotError "soltrack" + 1e-7 := by
  obtain ⟨t, ht, hp, k⟩ := C100_clock C36_gregorian (Y := 2024) (by norm_num) j
  obtain ⟨s1, c1, a1⟩ := single_call uc hk .pyTrue (t := t) ht (φ := 40) (l := 10) (by norm_num) (by norm_num)
  obtain ⟨s2, c2, a2⟩ := single_call uc hk' .pyTrue (t := t) ht (φ := -20) (l := 70) (by norm_num) (by norm_num)
  obtain ⟨x, hx, f⟩ := k (e := fun _ => 0) c1 a1.time
  obtain ⟨x', hx', f'⟩ := k (e := fun _ => 0) c2 a2.time
  exact ⟨t, s1, s2, x, x', hp, c1, c2, hx, hx', f, f'⟩

end SW.Props
