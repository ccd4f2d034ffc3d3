/-
C87: the seasons. On which side of the equator the sun is, and where it does not set or rise, by the date of the Gregorian calendar.
-/
import Verif.Props.Calendar
import Verif.Props.Noon
import Verif.Props.DayNight
import Verif.Props.FloatNight

namespace SW.Props
open SW SW.Spec SW.Ephem SW.Cal Real

/-! ### specification -/

/-- from 1 April to 10 September -/
def NorthernSummer (c : CivilDate) : Prop := (4 ≤ c.month ∧ c.month ≤ 8) ∨ (c.month = 9 ∧ c.day ≤ 10)
/-- from 1 October to 10 March -/
def NorthernWinter (c : CivilDate) : Prop := 10 ≤ c.month ∨ c.month ≤ 2 ∨ (c.month = 3 ∧ c.day ≤ 10)
/-- from 1 June to 10 July -/
def AroundJune (c : CivilDate) : Prop := c.month = 6 ∨ (c.month = 7 ∧ c.day ≤ 10)
/-- from 1 December to 10 January -/
def AroundDecember (c : CivilDate) : Prop := c.month = 12 ∨ (c.month = 1 ∧ c.day ≤ 10)

/-! ### the calendar and the mean longitude -/

namespace Seasons

/-- the day of the year of a date -/
theorem doy_window (n : Int) : ∃ Y k : Int, n = yearStart Y + k ∧ 0 ≤ k ∧ k ≤ 365 ∧
    (NorthernSummer (codeDate n) → 90 ≤ k ∧ k ≤ 253) ∧
    (NorthernWinter (codeDate n) → 273 ≤ k ∨ k ≤ 69) ∧
    (AroundJune (codeDate n) → 151 ≤ k ∧ k ≤ 191) ∧
    (AroundDecember (codeDate n) → 334 ≤ k ∨ k ≤ 9) := by
  obtain ⟨h1, h2, h3⟩ := yearsDays_spec n
  refine ⟨_, _, h1, h2, ?_, ?_⟩
  · unfold yearLength at h3; split_ifs at h3 <;> omega
  · rw [yearLength_eq] at h3
    rw [codeDate_eq]
    generalize isLeap (yearsDays n).1 = leap at *
    generalize (yearsDays n).2 = k at *
    obtain ⟨i, m, d, hi, rfl, hm, hd1, hd2, hd3⟩ := monthDay_cases leap h2 h3
    rw [hm]
    unfold NorthernSummer NorthernWinter AroundJune AroundDecember
    simp only
    cases leap <;> interval_cases i <;> simp [monthLengths, mlen] at hd2 hd3 ⊢ <;> omega

/-- the mean longitude in degrees, by year and day of the year -/
theorem mean_window {t Y k : Int} (ht : |t| < 2 ^ 63) (hn : t / 86400000000000 = yearStart Y + k) (h0 : 0 ≤ k) (h1 : k ≤ 365) :
    280.35 + 0.98564 * ((k : ℝ) - 1.49) ≤ 280.4665 - 0.0057 + 36000.7698 * century t - 360 * ((Y - 2000 : ℤ) : ℝ) ∧
    280.4665 - 0.0057 + 36000.7698 * century t - 360 * ((Y - 2000 : ℤ) : ℝ) ≤ 280.56 + 0.98565 * ((k : ℝ) + 2.2475) := by
  obtain ⟨r, hr⟩ : ∃ r : ℝ, r = (t : ℝ) / 86400e9 := ⟨_, rfl⟩
  obtain ⟨n, hn'⟩ : ∃ n : Int, n = t / 86400000000000 := ⟨_, rfl⟩
  have a1 : 86400000000000 * n ≤ t := by omega
  have a2 : t < 86400000000000 * n + 86400000000000 := by omega
  have hr1 : (n : ℝ) ≤ r := by
    rw [hr, le_div_iff₀ (by norm_num)]
    have : ((86400000000000 * n : Int) : ℝ) ≤ t := by exact_mod_cast a1
    push_cast at this; norm_num; linarith
  have hr2 : r ≤ n + 1 := by
    rw [hr, div_le_iff₀ (by norm_num)]
    have : (t : ℝ) ≤ ((86400000000000 * n + 86400000000000 : Int) : ℝ) := by exact_mod_cast a2.le
    push_cast at this; norm_num; linarith
  have hrt : |r| ≤ 106752 := by
    have : |(t : ℝ)| < 2 ^ 63 := by exact_mod_cast ht
    rw [hr, abs_div, div_le_iff₀ (by norm_num)]
    rw [abs_of_pos (show (0 : ℝ) < 86400e9 by norm_num)]
    norm_num at this ⊢; linarith
  have hc : century t = (r - 10957.5) / 36525 := by unfold century; rw [hr]
  rw [← hn'] at hn
  unfold yearStart at hn
  obtain ⟨a, ha⟩ : ∃ a, a = (Y - 1) / 4 := ⟨_, rfl⟩
  obtain ⟨b, hb⟩ : ∃ b, b = (Y - 1) / 100 := ⟨_, rfl⟩
  obtain ⟨c, hc'⟩ : ∃ c, c = (Y - 1) / 400 := ⟨_, rfl⟩
  rw [← ha, ← hb, ← hc'] at hn
  have i1 : 4 * a ≤ Y - 1 ∧ Y - 1 ≤ 4 * a + 3 := by omega
  have i2 : 100 * b ≤ Y - 1 ∧ Y - 1 ≤ 100 * b + 99 := by omega
  have i3 : 400 * c ≤ Y - 1 ∧ Y - 1 ≤ 400 * c + 399 := by omega
  clear ha hb hc'
  have hnR : (n : ℝ) = 365 * (Y - 1970) + a - b + c - 477 + k := by exact_mod_cast hn
  have j1 : 4 * (a : ℝ) ≤ Y - 1 ∧ (Y : ℝ) - 1 ≤ 4 * a + 3 := by exact_mod_cast i1
  have j2 : 100 * (b : ℝ) ≤ Y - 1 ∧ (Y : ℝ) - 1 ≤ 100 * b + 99 := by exact_mod_cast i2
  have j3 : 400 * (c : ℝ) ≤ Y - 1 ∧ (Y : ℝ) - 1 ≤ 400 * c + 399 := by exact_mod_cast i3
  have k0 : (0 : ℝ) ≤ k := by exact_mod_cast h0
  have k1 : (k : ℝ) ≤ 365 := by exact_mod_cast h1
  obtain ⟨r1, r2⟩ := abs_le.1 hrt
  rw [hc]
  push_cast
  generalize (Y : ℝ) = y at *
  generalize (a : ℝ) = a' at *
  generalize (b : ℝ) = b' at *
  generalize (c : ℝ) = c' at *
  generalize (k : ℝ) = k' at *
  generalize (n : ℝ) = n' at *
  clear hr hc hn hn' i1 i2 i3 a1 a2
  have y1 : 1670 ≤ y := by linarith [j1.1, j1.2, j2.1, j2.2, j3.1, j3.2]
  have y2 : y ≤ 2270 := by linarith [j1.1, j1.2, j2.1, j2.2, j3.1, j3.2]
  norm_num
  constructor <;> linarith [j1.1, j1.2, j2.1, j2.2, j3.1, j3.2]

theorem center_bound {T : ℝ} (h0 : |T| ≤ 3.24) : |Ephem.center T| ≤ 0.0342 := by
  have e := Ephem.ecc_bound h0
  unfold Ephem.center
  refine (abs_add_le _ _).trans ((add_le_add (abs_mul_sin_le _ _) (abs_mul_sin_le _ _)).trans ?_)
  have h1 : |2 * Ephem.eccentricity T| ≤ 0.0337 := by
    rw [abs_le]; norm_num at e ⊢; constructor <;> linarith [e.1, e.2]
  have h2 : |5 / 4 * Ephem.eccentricity T ^ 2| ≤ 0.0004 := by
    rw [abs_le]; norm_num at e ⊢; constructor <;> nlinarith [e.1, e.2]
  norm_num at h1 h2 ⊢; linarith

/-- the longitude of the sun in radians, by year and day of the year -/
theorem lon_window {t Y k : Int} (ht : |t| < 2 ^ 63) (hn : t / 86400000000000 = yearStart Y + k) (h0 : 0 ≤ k) (h1 : k ≤ 365) :
    rad (280.35 + 0.98564 * ((k : ℝ) - 1.49)) - 0.0342 ≤ longitude (century t) - ((Y - 2000 : ℤ) : ℝ) * (2 * π) ∧
    longitude (century t) - ((Y - 2000 : ℤ) : ℝ) * (2 * π) ≤ rad (280.56 + 0.98565 * ((k : ℝ) + 2.2475)) + 0.0342 := by
  obtain ⟨m1, m2⟩ := mean_window ht hn h0 h1
  obtain ⟨c1, c2⟩ := abs_le.1 (center_bound (century_bound ht))
  have e : longitude (century t) - ((Y - 2000 : ℤ) : ℝ) * (2 * π) =
      rad (280.4665 - 0.0057 + 36000.7698 * century t - 360 * ((Y - 2000 : ℤ) : ℝ)) + center (century t) := by
    unfold longitude meanLongitude Ephem.deg rad; ring
  rw [e]
  have := rad_mono m1
  have := rad_mono m2
  constructor <;> linarith

/-- near the middle of the summer or the winter the sine of the longitude is large -/
theorem sin_near {x c B : ℝ} (h : |x - c| ≤ B) (hB : B ≤ π) : cos B ≤ cos (x - c) := by
  rw [← cos_abs (x - c)]
  exact cos_le_cos_of_nonneg_of_le_pi (abs_nonneg _) hB h

theorem obl_sin {T : ℝ} (h0 : |T| ≤ 3.24) : 0.3955 ≤ sin (obliquity T) := by
  obtain ⟨t1, t2⟩ := abs_le.1 h0
  have p1 := pi_gt_d6
  have p2 := pi_lt_d6
  have b1 : 0.40835 ≤ obliquity T := by
    unfold obliquity Ephem.deg
    have : (23.3971 : ℝ) ≤ 23.4393 - 0.0130 * T := by norm_num at t2 ⊢; linarith
    have := mul_le_mul_of_nonneg_right this (show 0 ≤ π / 180 by positivity)
    norm_num at this p1 ⊢; linarith
  have b2 : obliquity T ≤ 0.41 := by
    unfold obliquity Ephem.deg
    have : 23.4393 - 0.0130 * T ≤ (23.4815 : ℝ) := by norm_num at t1 ⊢; linarith
    have := mul_le_mul_of_nonneg_right this (show 0 ≤ π / 180 by positivity)
    norm_num at this p2 ⊢; linarith
  have h1 : sin 0.40835 ≤ sin (obliquity T) :=
    sin_le_sin_of_le_of_le_pi_div_two (by norm_num; linarith [pi_pos]) (by norm_num at b2 p1 ⊢; linarith) b1
  have h2 := (abs_le.1 (sin_bound (x := 0.40835) (by rw [abs_le]; norm_num))).1
  rw [abs_of_pos (by norm_num)] at h2
  norm_num at h1 h2 ⊢; linarith

/-- from the longitude to the declination -/
theorem dec_of_sin {T q : ℝ} (hT : |T| ≤ 3.24) (hq : 0 ≤ q) :
    (q ≤ sin (longitude T) → arcsin (0.3955 * q) ≤ declination T) ∧
    (sin (longitude T) ≤ -q → declination T ≤ -arcsin (0.3955 * q)) := by
  have h := obl_sin hT
  unfold declination
  constructor <;> intro hs
  · apply arcsin_le_arcsin
    exact mul_le_mul h hs hq (by norm_num at h ⊢; linarith)
  · rw [← arcsin_neg]
    apply arcsin_le_arcsin
    have := mul_le_mul h (show q ≤ -sin (longitude T) by linarith) hq (by norm_num at h ⊢; linarith)
    linarith

theorem arcsin_small : rad 2 ≤ arcsin (0.3955 * 0.0973) := by
  have p1 := pi_gt_d6
  have p2 := pi_lt_d6
  have e : rad 2 = arcsin (sin (rad 2)) := (arcsin_sin (by unfold rad; linarith) (by unfold rad; linarith)).symm
  rw [e]
  apply arcsin_le_arcsin
  refine (sin_le (by unfold rad; positivity)).trans ?_
  unfold rad; norm_num at p2 ⊢; linarith

theorem arcsin_large : rad 21 ≤ arcsin (0.3955 * 0.91) := by
  have p1 := pi_gt_d6
  have p2 := pi_lt_d6
  have e : rad 21 = arcsin (sin (rad 21)) := (arcsin_sin (by unfold rad; linarith) (by unfold rad; linarith)).symm
  rw [e]
  apply arcsin_le_arcsin
  have h1 : rad 21 ≤ 0.36653 := by unfold rad; norm_num at p2 ⊢; linarith
  have h2 : sin (rad 21) ≤ sin 0.36653 :=
    sin_le_sin_of_le_of_le_pi_div_two (by unfold rad; linarith) (by norm_num at p1 ⊢; linarith) h1
  have h3 := (abs_le.1 (sin_bound (x := 0.36653) (by rw [abs_le]; norm_num))).2
  rw [abs_of_pos (by norm_num)] at h3
  norm_num at h2 h3 ⊢; linarith

theorem cos_small : 0.0973 ≤ cos (π / 2 - 0.0976) := by
  rw [cos_pi_div_two_sub]
  have := sin_gt_sub_cube (x := 0.0976) (by norm_num)
  norm_num at this ⊢; linarith

theorem cos_large : 0.91 ≤ cos 0.4242 := by
  have := one_sub_sq_div_two_le_cos (x := 0.4242)
  norm_num at this ⊢; linarith

/-- The declination of the reference sun by the date. -/
theorem ref_seasons {t : Int} (ht : |t| < 2 ^ 63) :
    (NorthernSummer (codeDate (t / 86400000000000)) → rad 2 ≤ declination (century t)) ∧
    (NorthernWinter (codeDate (t / 86400000000000)) → declination (century t) ≤ -rad 2) ∧
    (AroundJune (codeDate (t / 86400000000000)) → rad 21 ≤ declination (century t)) ∧
    (AroundDecember (codeDate (t / 86400000000000)) → declination (century t) ≤ -rad 21) := by
  obtain ⟨Y, k, hn, k0, k1, s1, s2, s3, s4⟩ := doy_window (t / 86400000000000)
  obtain ⟨l1, l2⟩ := lon_window ht hn k0 k1
  have hT := century_bound ht
  have p1 := pi_gt_d6
  have p2 := pi_lt_d6
  have hsin : sin (longitude (century t)) = sin (longitude (century t) - ((Y - 2000 : ℤ) : ℝ) * (2 * π)) :=
    (sin_sub_int_mul_two_pi _ _).symm
  generalize longitude (century t) - ((Y - 2000 : ℤ) : ℝ) * (2 * π) = x at *
  have up : sin x = cos (x - (2 * π + π / 2)) := by
    rw [show x - (2 * π + π / 2) = -(π / 2 - x) - 2 * π by ring, cos_sub_two_pi, cos_neg, cos_pi_div_two_sub]
  have dn : ∀ j : ℤ, sin x = -cos (x - (j * (2 * π) + 3 * π / 2)) := by
    intro j
    rw [show x - (j * (2 * π) + 3 * π / 2) = (x - π / 2 - π) - j * (2 * π) by ring, cos_sub_int_mul_two_pi, cos_sub_pi, neg_neg,
      show x - π / 2 = -(π / 2 - x) by ring, cos_neg, cos_pi_div_two_sub]
  unfold rad at l1 l2
  norm_num at p1 p2
  refine ⟨fun h => ?_, fun h => ?_, fun h => ?_, fun h => ?_⟩
  · obtain ⟨a, b⟩ := s1 h
    have a' : (90 : ℝ) ≤ k := by exact_mod_cast a
    have b' : (k : ℝ) ≤ 253 := by exact_mod_cast b
    refine arcsin_small.trans ((dec_of_sin hT (by norm_num)).1 ?_)
    rw [hsin, up]
    refine cos_small.trans (sin_near ?_ (by norm_num; linarith))
    rw [abs_le]
    norm_num at l1 l2 ⊢
    constructor <;> nlinarith
  · refine le_trans ?_ (neg_le_neg arcsin_small)
    refine (dec_of_sin hT (by norm_num)).2 ?_
    rw [hsin]
    rcases s2 h with a | b
    · have a' : (273 : ℝ) ≤ k := by exact_mod_cast a
      have b' : (k : ℝ) ≤ 365 := by exact_mod_cast k1
      rw [dn 1]
      refine neg_le_neg (cos_small.trans (sin_near ?_ (by norm_num; linarith)))
      rw [abs_le]
      norm_num at l1 l2 ⊢
      constructor <;> nlinarith
    · have a' : (0 : ℝ) ≤ k := by exact_mod_cast k0
      have b' : (k : ℝ) ≤ 69 := by exact_mod_cast b
      rw [dn 0]
      refine neg_le_neg (cos_small.trans (sin_near ?_ (by norm_num; linarith)))
      rw [abs_le]
      norm_num at l1 l2 ⊢
      constructor <;> nlinarith
  · obtain ⟨a, b⟩ := s3 h
    have a' : (151 : ℝ) ≤ k := by exact_mod_cast a
    have b' : (k : ℝ) ≤ 191 := by exact_mod_cast b
    refine arcsin_large.trans ((dec_of_sin hT (by norm_num)).1 ?_)
    rw [hsin, up]
    refine cos_large.trans (sin_near ?_ (by norm_num; linarith))
    rw [abs_le]
    norm_num at l1 l2 ⊢
    constructor <;> nlinarith
  · refine le_trans ?_ (neg_le_neg arcsin_large)
    refine (dec_of_sin hT (by norm_num)).2 ?_
    rw [hsin]
    rcases s4 h with a | b
    · have a' : (334 : ℝ) ≤ k := by exact_mod_cast a
      have b' : (k : ℝ) ≤ 365 := by exact_mod_cast k1
      rw [dn 1]
      refine neg_le_neg (cos_large.trans (sin_near ?_ (by norm_num; linarith)))
      rw [abs_le]
      norm_num at l1 l2 ⊢
      constructor <;> nlinarith
    · have a' : (0 : ℝ) ≤ k := by exact_mod_cast k0
      have b' : (k : ℝ) ≤ 9 := by exact_mod_cast b
      rw [dn 0]
      refine neg_le_neg (cos_large.trans (sin_near ?_ (by norm_num; linarith)))
      rw [abs_le]
      norm_num at l1 l2 ⊢
      constructor <;> nlinarith

/-- the reference sun is between its heights at noon and at midnight -/
theorem ref_zenith (t : Int) (ht : |t| < 2 ^ 63) {φ : ℝ} (hφ : -90 ≤ φ ∧ φ ≤ 90) (l : ℝ) :
    |rad φ - declination (century t)| ≤ rad (sunZenith t φ l) ∧
    rad (sunZenith t φ l) ≤ π - |rad φ + declination (century t)| := by
  have e : rad (sunZenith t φ l) = heightAt (rad φ) (declination (century t)) (hourAngle (century t) + rad l) := by
    unfold sunZenith heightAt; rw [rad_deg]
  rw [e]
  have hd := abs_le.1 (dec_bound t ht)
  have p1 := pi_gt_d6
  have f1 := rad_mono hφ.1
  have f2 := rad_mono hφ.2
  have r1 : rad (-90) = -(π / 2) := by unfold rad; ring
  have r2 : rad 90 = π / 2 := by unfold rad; ring
  rw [r1] at f1
  rw [r2] at f2
  have c1 : 0 ≤ cos (rad φ) := cos_nonneg_of_mem_Icc ⟨f1, f2⟩
  norm_num at hd p1
  have c2 : 0 ≤ cos (declination (century t)) := cos_nonneg_of_mem_Icc ⟨by linarith [hd.1], by linarith [hd.2]⟩
  have b1 : |rad φ - declination (century t)| ≤ π := by rw [abs_le]; constructor <;> linarith [hd.1, hd.2]
  have b2 : |rad φ + declination (century t)| ≤ π := by rw [abs_le]; constructor <;> linarith [hd.1, hd.2]
  rw [← heightAt_noon b1, ← heightAt_midnight b2]
  exact ⟨heightAt_mono c1 c2 (by rw [cos_zero]; exact cos_le_one _), heightAt_mono c1 c2 (by rw [cos_pi]; exact neg_one_le_cos _)⟩

theorem rad_add' (x y : ℝ) : rad (x + y) = rad x + rad y := by unfold rad; ring
theorem rad_neg' (x : ℝ) : rad (-x) = -rad x := by unfold rad; ring

theorem decError_le (alg : String) : decError alg ≤ 1.06 := by
  unfold decError; split_ifs <;> norm_num

theorem ownSlack_le (alg eng : String) : ownSlack alg eng ≤ 0.0945 := by
  unfold ownSlack; split_ifs <;> norm_num

/-- where and when the sun does not set -/
def Arctic (φ : ℝ) (c : CivilDate) (x : ℝ) : Prop := (x ≤ φ ∧ AroundJune c) ∨ (φ ≤ -x ∧ AroundDecember c)
/-- where and when it does not rise -/
def Dark (φ : ℝ) (c : CivilDate) (x : ℝ) : Prop := (φ ≤ -x ∧ AroundJune c) ∨ (x ≤ φ ∧ AroundDecember c)

theorem dec_max (t : Int) (ht : |t| < 2 ^ 63) : |declination (century t)| ≤ rad 24.7 := by
  refine (dec_bound t ht).trans ?_
  have := pi_gt_d6
  unfold rad; norm_num at this ⊢; linarith

theorem ref_day {t : Int} (ht : |t| < 2 ^ 63) {φ : ℝ} (hφ : -90 ≤ φ ∧ φ ≤ 90) (l : ℝ)
    (h : Arctic φ (codeDate (t / 86400000000000)) 71) : 46.3 ≤ sunZenith t φ l ∧ sunZenith t φ l ≤ 88 := by
  obtain ⟨z1, z2⟩ := ref_zenith t ht hφ l
  obtain ⟨-, -, s3, s4⟩ := ref_seasons ht
  have hd := abs_le.1 (dec_max t ht)
  have e180 : π = rad 180 := by unfold rad; ring
  rw [e180] at z2
  rcases h with ⟨hx, hj⟩ | ⟨hx, hj⟩
  · have hs := s3 hj
    have a1 := le_trans (le_abs_self _) z1
    have a2 := le_trans z2 (sub_le_sub_left (le_abs_self _) _)
    have hx' := rad_mono hx
    constructor
    · apply of_rad_le
      have : rad 46.3 = rad 71 - rad 24.7 := by unfold rad; ring
      linarith [hd.2]
    · apply of_rad_le
      have : rad 88 = rad 180 - (rad 71 + rad 21) := by unfold rad; ring
      linarith
  · have hs := s4 hj
    have a1 := le_trans (neg_le_abs _) z1
    have a2 := le_trans z2 (sub_le_sub_left (neg_le_abs _) _)
    have hx' := rad_mono hx
    rw [rad_neg'] at hx'
    constructor
    · apply of_rad_le
      have : rad 46.3 = rad 71 - rad 24.7 := by unfold rad; ring
      linarith [hd.1]
    · apply of_rad_le
      have : rad 88 = rad 180 - (rad 71 + rad 21) := by unfold rad; ring
      linarith

theorem ref_night {t : Int} (ht : |t| < 2 ^ 63) {φ : ℝ} (hφ : -90 ≤ φ ∧ φ ≤ 90) (l : ℝ)
    (h : Dark φ (codeDate (t / 86400000000000)) 72) : 93 ≤ sunZenith t φ l ∧ sunZenith t φ l ≤ 132.7 := by
  obtain ⟨z1, z2⟩ := ref_zenith t ht hφ l
  obtain ⟨-, -, s3, s4⟩ := ref_seasons ht
  have hd := abs_le.1 (dec_max t ht)
  have e180 : π = rad 180 := by unfold rad; ring
  rw [e180] at z2
  rcases h with ⟨hx, hj⟩ | ⟨hx, hj⟩
  · have hs := s3 hj
    have a1 := le_trans (neg_le_abs _) z1
    have a2 := le_trans z2 (sub_le_sub_left (neg_le_abs _) _)
    have hx' := rad_mono hx
    rw [rad_neg'] at hx'
    constructor
    · apply of_rad_le
      have : rad 93 = rad 72 + rad 21 := by unfold rad; ring
      linarith
    · apply of_rad_le
      have : rad 132.7 = rad 180 - (rad 72 - rad 24.7) := by unfold rad; ring
      linarith [hd.2]
  · have hs := s4 hj
    have a1 := le_trans (le_abs_self _) z1
    have a2 := le_trans z2 (sub_le_sub_left (le_abs_self _) _)
    have hx' := rad_mono hx
    constructor
    · apply of_rad_le
      have : rad 93 = rad 72 + rad 21 := by unfold rad; ring
      linarith
    · apply of_rad_le
      have : rad 132.7 = rad 180 - (rad 72 - rad 24.7) := by unfold rad; ring
      linarith [hd.1]

end Seasons
open Seasons

/-! ### theorems -/

/-- C87: by the UTC date of the instant, the returned declination is positive (0.94 degrees at least) from 1 April to 10 September, negative from 1 October to 10 March,
and more than 19.9 degrees (21 degrees less the error of the algorithm) from the equator around the solstices. Every year, every algorithm. -/
theorem C87_declination {date : Int → CivilDate} (g : IsGregorian date)
    {uc : UseCase} {w : World XR} {times : Times} {latitude longitude : Coord XR}
    {alg eng : String} {refr : PyVal} {s : Sunpos XR} {e : Dim → Nat} {t : Int}
    (h : call uc w times latitude longitude alg refr eng = .ok s)
    (hk : stampAt times.stamps (e .time) = some t) (hrange : |t| < 2 ^ 63) :
    ∃ d : ℝ, s.decDeg.get e = .fin d ∧
      (NorthernSummer (date (t / 86400000000000)) → 0.94 ≤ d) ∧ (NorthernWinter (date (t / 86400000000000)) → d ≤ -0.94) ∧
      (AroundJune (date (t / 86400000000000)) → 21 - decError alg ≤ d) ∧
      (AroundDecember (date (t / 86400000000000)) → d ≤ -(21 - decError alg)) := by
  rw [g.unique C36_gregorian]
  obtain ⟨d, hd, hb⟩ := C54_declination h hk hrange
  obtain ⟨s1, s2, s3, s4⟩ := ref_seasons hrange
  have hb := abs_le.1 hb
  have he := decError_le alg
  have he' := rad_mono he
  refine ⟨d, hd, fun hj => ?_, fun hj => ?_, fun hj => ?_, fun hj => ?_⟩
  · apply of_rad_le
    have : rad 0.94 = rad 2 - rad 1.06 := by unfold rad; ring
    linarith [s1 hj, hb.1]
  · apply of_rad_le
    have : rad (-0.94) = rad 1.06 - rad 2 := by unfold rad; ring
    linarith [s2 hj, hb.2]
  · apply of_rad_le
    have : rad (21 - decError alg) = rad 21 - rad (decError alg) := by unfold rad; ring
    linarith [s3 hj, hb.1]
  · apply of_rad_le
    have : rad (-(21 - decError alg)) = rad (decError alg) - rad 21 := by unfold rad; ring
    linarith [s4 hj, hb.2]

/-- C87: the same in floating point. -/
theorem C87_declination_float {A : Arith} {date : Int → CivilDate} (g : IsGregorian date)
    {uc : UseCase} {w : World (Rd A)} {times : Times} {latitude longitude : Coord (Rd A)}
    {alg eng : String} {refr : PyVal} {s : Sunpos (Rd A)} {e : Dim → Nat} {t : Int}
    (h : call uc w times latitude longitude alg refr eng = .ok s)
    (hk : stampAt times.stamps (e .time) = some t) (hrange : |t| < 2 ^ 63) :
    ∃ d : ℝ, s.decDeg.get e = Rd.fin d ∧
      (NorthernSummer (date (t / 86400000000000)) → 0.93 ≤ d) ∧ (NorthernWinter (date (t / 86400000000000)) → d ≤ -0.93) ∧
      (AroundJune (date (t / 86400000000000)) → 21 - decError alg - 4e-8 ≤ d) ∧
      (AroundDecember (date (t / 86400000000000)) → d ≤ -(21 - decError alg - 4e-8)) := by
  rw [g.unique C36_gregorian]
  obtain ⟨d, -, -, hd, -, -, hb, -⟩ := C64_time h hk hrange
  obtain ⟨s1, s2, s3, s4⟩ := ref_seasons hrange
  have hb := abs_le.1 hb
  have he := decError_le alg
  have he' := rad_mono (show decError alg + 4e-8 ≤ 1.07 by norm_num at he ⊢; linarith)
  refine ⟨d, hd, fun hj => ?_, fun hj => ?_, fun hj => ?_, fun hj => ?_⟩
  · apply of_rad_le
    have : rad 0.93 = rad 2 - rad 1.07 := by unfold rad; ring
    linarith [s1 hj, hb.1]
  · apply of_rad_le
    have : rad (-0.93) = rad 1.07 - rad 2 := by unfold rad; ring
    linarith [s2 hj, hb.2]
  · apply of_rad_le
    have : rad (21 - decError alg - 4e-8) = rad 21 - rad (decError alg + 4e-8) := by unfold rad; ring
    linarith [s3 hj, hb.1]
  · apply of_rad_le
    have : rad (-(21 - decError alg - 4e-8)) = rad (decError alg + 4e-8) - rad 21 := by unfold rad; ring
    linarith [s4 hj, hb.2]

/-- C87: days are longer than 12 hours in the hemisphere that has summer and shorter in the other, where there is sunrise and sunset. -/
theorem C87_daylight {date : Int → CivilDate} (g : IsGregorian date)
    {uc : UseCase} {w w' : World XR} {times : Times} {latitude longitude : Coord XR}
    {alg eng : String} {refr : PyVal} {s : Sunpos XR} {e : Dim → Nat} {t : Int} {φ l : ℝ}
    (h : call uc w times latitude longitude alg refr eng = .ok s) (ha : At s times e t φ l) (hφ : |φ| < 90) :
    ∃ D, s.daylightLength w' = .ok D ∧ ∀ v : ℝ, D.get e = .fin v →
      (NorthernSummer (date (t / 86400000000000)) → (0 < φ → 12 < v) ∧ (φ < 0 → v < 12)) ∧
      (NorthernWinter (date (t / 86400000000000)) → (0 < φ → v < 12) ∧ (φ < 0 → 12 < v)) := by
  obtain ⟨d, hd, g1', g2', -⟩ := C87_declination g h ha.time ha.range
  have g1 : NorthernSummer (date (t / 86400000000000)) → 0 < d := fun hj => lt_of_lt_of_le (by norm_num) (g1' hj)
  have g2 : NorthernWinter (date (t / 86400000000000)) → d < 0 := fun hj => lt_of_le_of_lt (g2' hj) (by norm_num)
  obtain ⟨d', hd', hb, -⟩ := C17_declination h ha.time ha.range
  rw [hd] at hd'
  cases hd'
  have hd90 : |d| < 90 := by norm_num at hb; linarith
  obtain ⟨D, hD, k1, k2⟩ := daylight_fin w' s ha.lat hd hφ hd90
  refine ⟨D, hD, fun v hv => ?_⟩
  have hle : |tan (rad φ) * tan (rad d)| ≤ 1 := by
    by_contra hc; rw [k2 (not_le.1 hc)] at hv; cases hv
  rw [k1 hle, XR.fin_inj] at hv
  have hp := pi_pos
  have key : ∀ x : ℝ, |x| < 90 → (0 < x → 0 < tan (rad x)) ∧ (x < 0 → tan (rad x) < 0) := by
    intro x hx
    obtain ⟨x1, x2⟩ := abs_lt.1 hx
    constructor <;> intro h0
    · exact tan_pos_of_pos_of_lt_pi_div_two (by unfold rad; positivity)
        (by have : rad 90 = π / 2 := by unfold rad; ring
            rw [← this]; unfold rad; exact mul_lt_mul_of_pos_right x2 (by positivity))
    · have := tan_pos_of_pos_of_lt_pi_div_two (x := rad (-x)) (by unfold rad; have : 0 < -x := by linarith
                                                                  positivity)
        (by have : rad 90 = π / 2 := by unfold rad; ring
            rw [← this]; unfold rad; exact mul_lt_mul_of_pos_right (by linarith) (by positivity))
      rw [show rad (-x) = -rad x by unfold rad; ring, tan_neg] at this
      linarith
  have longer : 0 < tan (rad φ) * tan (rad d) → 12 < v := by
    intro h0
    have := (abs_le.1 hle)
    have h1 : arccos 0 < arccos (-(tan (rad φ) * tan (rad d))) :=
      strictAntiOn_arccos ⟨by linarith [this.2], by linarith [this.1]⟩ ⟨by norm_num, by norm_num⟩ (by linarith)
    rw [arccos_zero] at h1
    rw [← hv]
    calc (12 : ℝ) = 24 / π * (π / 2) := by field_simp; norm_num
      _ < _ := mul_lt_mul_of_pos_left h1 (by positivity)
  have shorter : tan (rad φ) * tan (rad d) < 0 → v < 12 := by
    intro h0
    have := (abs_le.1 hle)
    have h1 : arccos (-(tan (rad φ) * tan (rad d))) < arccos 0 :=
      strictAntiOn_arccos ⟨by norm_num, by norm_num⟩ ⟨by linarith [this.2], by linarith [this.1]⟩ (by linarith)
    rw [arccos_zero] at h1
    rw [← hv]
    calc _ < 24 / π * (π / 2) := mul_lt_mul_of_pos_left h1 (by positivity)
      _ = 12 := by field_simp; norm_num
  obtain ⟨f1, f2⟩ := key φ hφ
  obtain ⟨d1, d2⟩ := key d hd90
  refine ⟨fun hj => ⟨fun h0 => longer (mul_pos (f1 h0) (d1 (g1 hj))), fun h0 => shorter (mul_neg_of_neg_of_pos (f2 h0) (d1 (g1 hj)))⟩,
    fun hj => ⟨fun h0 => shorter (mul_neg_of_pos_of_neg (f1 h0) (d2 (g2 hj))), fun h0 => longer (mul_pos_of_neg_of_neg (f2 h0) (d2 (g2 hj)))⟩⟩

/-- C87: the midnight sun. North of 71 degrees from 1 June to 10 July, and south of -71 degrees from 1 December to 10 January, the sun is up at every
instant, whatever the algorithm, with and without refraction. -/
theorem C87_midnight_sun {date : Int → CivilDate} (g : IsGregorian date)
    {uc : UseCase} {w : World XR} {times : Times} {latitude longitude : Coord XR}
    {alg eng : String} {refr : PyVal} {s : Sunpos XR} {e : Dim → Nat} {t : Int} {φ l : ℝ}
    (h : call uc w times latitude longitude alg refr eng = .ok s) (ha : At s times e t φ l)
    (hp : (71 ≤ φ ∧ AroundJune (date (t / 86400000000000))) ∨ (φ ≤ -71 ∧ AroundDecember (date (t / 86400000000000)))) :
    ∃ z : ℝ, s.zenithDeg.get e = .fin z ∧ z < 90 := by
  rw [g.unique C36_gregorian] at hp
  obtain ⟨ht, hφ, hl, -⟩ := at_cases h ha
  by_cases hr : refr = .pyTrue
  · subst hr
    obtain ⟨lat, lon, b, utc, hacc, -, -⟩ := call_inv h
    obtain ⟨-, hpe⟩ := positionError_le (known_iff.2 ⟨b, hacc.names⟩)
    obtain ⟨z1, z2⟩ := ref_day ha.range hφ l hp
    obtain ⟨z, -, -, hz, -, -, hz90, -⟩ := C73_day h ha (sunZenith_cos t φ l) (sunZenith_range t φ l).1
      (by norm_num at hpe ⊢; linarith)
    exact ⟨z, hz, hz90⟩
  · obtain ⟨z, d, hz, hd, -, hz2, -⟩ := C84_bounds h hr ha
    obtain ⟨d', hd', -, -, g3, g4⟩ := C87_declination C36_gregorian h ha.time ha.range
    rw [hd] at hd'
    cases hd'
    refine ⟨z, hz, ?_⟩
    have h1 := decError_le alg
    have h2 := ownSlack_le alg eng
    rcases hp with ⟨hx, hj⟩ | ⟨hx, hj⟩
    · have := le_abs_self (φ + d)
      have := g3 hj
      norm_num at h1 h2; linarith
    · have := neg_le_abs (φ + d)
      have := g4 hj
      norm_num at h1 h2; linarith

/-- C87: the polar night. South of -72 degrees from 1 June to 10 July, and north of 72 degrees from 1 December to 10 January, the sun is down at every
instant (soltrack with refraction excepted, whose refraction has a pole below the horizon). -/
theorem C87_polar_night {date : Int → CivilDate} (g : IsGregorian date)
    {uc : UseCase} {w : World XR} {times : Times} {latitude longitude : Coord XR}
    {alg eng : String} {refr : PyVal} {s : Sunpos XR} {e : Dim → Nat} {t : Int} {φ l : ℝ}
    (h : call uc w times latitude longitude alg refr eng = .ok s) (ha : At s times e t φ l) (hsol : alg = "soltrack" → refr ≠ .pyTrue)
    (hp : (φ ≤ -72 ∧ AroundJune (date (t / 86400000000000))) ∨ (72 ≤ φ ∧ AroundDecember (date (t / 86400000000000)))) :
    ∃ z : ℝ, s.zenithDeg.get e = .fin z ∧ 90 < z := by
  rw [g.unique C36_gregorian] at hp
  obtain ⟨ht, hφ, hl, -⟩ := at_cases h ha
  by_cases hr : refr = .pyTrue
  · subst hr
    obtain ⟨lat, lon, b, utc, hacc, -, -⟩ := call_inv h
    obtain ⟨-, hpe⟩ := positionError_le (known_iff.2 ⟨b, hacc.names⟩)
    obtain ⟨z1, z2⟩ := ref_night ha.range hφ l hp
    have hdip : horizonDip alg ≤ 0.78 := by unfold horizonDip; split_ifs <;> norm_num
    obtain ⟨z, -, -, hz, -, -, hz90, -⟩ := C73_night h ha (sunZenith_cos t φ l)
      (by norm_num at hpe hdip ⊢; linarith) (sunZenith_range t φ l).2 (fun hs => absurd rfl (hsol hs))
    exact ⟨z, hz, hz90⟩
  · obtain ⟨z, d, hz, hd, hz1, -, -⟩ := C84_bounds h hr ha
    obtain ⟨d', hd', -, -, g3, g4⟩ := C87_declination C36_gregorian h ha.time ha.range
    rw [hd] at hd'
    cases hd'
    refine ⟨z, hz, ?_⟩
    have h1 := decError_le alg
    have h2 := ownSlack_le alg eng
    rcases hp with ⟨hx, hj⟩ | ⟨hx, hj⟩
    · have := neg_le_abs (φ - d)
      have := g3 hj
      norm_num at h1 h2; linarith
    · have := le_abs_self (φ - d)
      have := g4 hj
      norm_num at h1 h2; linarith

/-- where the float theorems below apply: not at the poles themselves with nrel, and up to 84 degrees with soltrack and numpy, whose cosine of the latitude
is a single precision number -/
def FloatPlace (alg eng : String) (φ : ℝ) : Prop :=
  (alg = "nrel" → |φ| ≤ 90 - 1e-10) ∧ (alg = "soltrack" → eng = "numpy" → |φ| ≤ 84)

theorem Seasons.slant {alg eng : String} {φ z : ℝ} (hp : FloatPlace alg eng φ) (h1 : 46.3 ≤ z) (h2 : z ≤ 132.7) :
    0.06 ≤ placeFactor alg eng φ * sin (rad z) := by
  have p1 := pi_gt_d6
  have p2 := pi_lt_d6
  have e1 : sin (rad z) = cos (rad (90 - z)) := by rw [← cos_pi_div_two_sub]; congr 1; unfold rad; ring
  have b1 : |rad (90 - z)| ≤ 0.763 := by
    rw [abs_le]; unfold rad
    norm_num at h1 h2 p1 p2 ⊢
    constructor <;> nlinarith
  have b2 := one_sub_sq_div_two_le_cos (x := rad (90 - z))
  have b3 := sq_le_sq' (abs_le.1 b1).1 (abs_le.1 b1).2
  have hs : 0.7 ≤ sin (rad z) := by rw [e1]; norm_num at b3 ⊢; linarith
  have hf : 0.1 ≤ placeFactor alg eng φ := by
    unfold placeFactor latFactor
    split_ifs with c1 c2
    · have := abs_le.1 (hp.2 c1 c2)
      have e2 : cos (rad φ) = cos (rad |φ|) := by rw [rad_abs, cos_abs]
      have e3 : cos (rad |φ|) = sin (rad (90 - |φ|)) := by rw [← sin_pi_div_two_sub]; congr 1; unfold rad; ring
      have k1 : sin (rad 6) ≤ sin (rad (90 - |φ|)) := by
        apply sin_le_sin_of_le_of_le_pi_div_two
        · unfold rad; linarith [pi_pos]
        · unfold rad; nlinarith [pi_pos, abs_nonneg φ]
        · exact rad_mono (by linarith [hp.2 c1 c2])
      have k2 := sin_gt_sub_cube (x := rad 6) (by unfold rad; positivity)
      have k3 : (0.1047 : ℝ) ≤ rad 6 := by unfold rad; norm_num at p1 ⊢; linarith
      have k4 : rad 6 ≤ 0.1048 := by unfold rad; norm_num at p2 ⊢; linarith
      have k5 : rad 6 ^ 3 ≤ 0.1048 ^ 3 := pow_le_pow_left₀ (by linarith) k4 3
      rw [e2, e3]
      norm_num at k3 k5 ⊢; linarith
    · norm_num
    · norm_num
  nlinarith

/-- C87: the midnight sun in floating point. -/
theorem C87_midnight_sun_float {A : Arith} {date : Int → CivilDate} (g : IsGregorian date)
    {uc : UseCase} {w : World (Rd A)} {times : Times} {latitude longitude : Coord (Rd A)}
    {alg eng : String} {refr : PyVal} {s : Sunpos (Rd A)} {e : Dim → Nat} {t : Int} {φ l : ℝ}
    (h : call uc w times latitude longitude alg refr eng = .ok s) (ha : AtRd s times e t φ l)
    (hφ : -90 ≤ φ ∧ φ ≤ 90) (hl : -180 ≤ l ∧ l < 180) (hpl : FloatPlace alg eng φ)
    (hp : (71 ≤ φ ∧ AroundJune (date (t / 86400000000000))) ∨ (φ ≤ -71 ∧ AroundDecember (date (t / 86400000000000)))) :
    ∃ z : ℝ, s.zenithDeg.get e = Rd.fin z ∧ z < 90 := by
  rw [g.unique C36_gregorian] at hp
  obtain ⟨z1, z2⟩ := ref_day ha.range hφ l hp
  have hS := slant hpl z1 (by norm_num at z2 ⊢; linarith)
  by_cases hr : refr = .pyTrue
  · subst hr
    obtain ⟨b, hb, -⟩ := rd_time h ha.time
    obtain ⟨-, hpe⟩ := positionError_le (known_iff.2 ⟨b, hb⟩)
    have hq : 0.003 / (placeFactor alg eng φ * sin (rad (sunZenith t φ l))) ≤ 0.06 := by
      rw [div_le_iff₀ (by norm_num at hS ⊢; linarith)]; norm_num at hS ⊢; linarith
    obtain ⟨z, -, -, hz, -, -, hz90, -⟩ := C73_float_day h ha hφ hl hpl.1 (sunZenith_cos t φ l) (sunZenith_range t φ l).1 hS
      (by norm_num at hpe hq z2 ⊢; linarith)
    exact ⟨z, hz, hz90⟩
  · obtain ⟨z, d, hz, hd, -, hz2⟩ := C84_float h hr ha hφ hl hpl.1 hS
    obtain ⟨d', hd', -, -, g3, g4⟩ := C87_declination_float C36_gregorian h ha.time ha.range
    obtain rfl : d = d' := XR.fin_inj.1 (hd.symm.trans hd')
    have hq : 0.0014 / (placeFactor alg eng φ * sin (rad (sunZenith t φ l))) ≤ 0.03 := by
      rw [div_le_iff₀ (by norm_num at hS ⊢; linarith)]; norm_num at hS ⊢; linarith
    refine ⟨z, hz, ?_⟩
    have h1 := decError_le alg
    have h2 := ownSlack_le alg eng
    rcases hp with ⟨hx, hj⟩ | ⟨hx, hj⟩
    · have := le_abs_self (φ + d)
      have := g3 hj
      norm_num at h1 h2 hq this hz2; linarith
    · have := neg_le_abs (φ + d)
      have := g4 hj
      norm_num at h1 h2 hq this hz2; linarith

/-- C87: the polar night in floating point. -/
theorem C87_polar_night_float {A : Arith} {date : Int → CivilDate} (g : IsGregorian date)
    {uc : UseCase} {w : World (Rd A)} {times : Times} {latitude longitude : Coord (Rd A)}
    {alg eng : String} {refr : PyVal} {s : Sunpos (Rd A)} {e : Dim → Nat} {t : Int} {φ l : ℝ}
    (h : call uc w times latitude longitude alg refr eng = .ok s) (ha : AtRd s times e t φ l)
    (hφ : -90 ≤ φ ∧ φ ≤ 90) (hl : -180 ≤ l ∧ l < 180) (hpl : FloatPlace alg eng φ) (hsol : alg = "soltrack" → refr ≠ .pyTrue)
    (hp : (φ ≤ -72 ∧ AroundJune (date (t / 86400000000000))) ∨ (72 ≤ φ ∧ AroundDecember (date (t / 86400000000000)))) :
    ∃ z : ℝ, s.zenithDeg.get e = Rd.fin z ∧ 90 < z := by
  rw [g.unique C36_gregorian] at hp
  obtain ⟨z1, z2⟩ := ref_night ha.range hφ l hp
  have hS := slant hpl (by norm_num at z1 ⊢; linarith) z2
  by_cases hr : refr = .pyTrue
  · subst hr
    obtain ⟨b, hb, -⟩ := rd_time h ha.time
    obtain ⟨-, hpe⟩ := positionError_le (known_iff.2 ⟨b, hb⟩)
    have hq : 0.003 / (placeFactor alg eng φ * sin (rad (sunZenith t φ l))) ≤ 0.06 := by
      rw [div_le_iff₀ (by norm_num at hS ⊢; linarith)]; norm_num at hS ⊢; linarith
    have hdip : horizonDip alg ≤ 0.78 := by unfold horizonDip; split_ifs <;> norm_num
    obtain ⟨z, -, -, hz, -, -, hz90, -⟩ := C73_float_night h ha hφ hl hpl.1 (sunZenith_cos t φ l) (sunZenith_range t φ l).2 hS
      (by norm_num at hpe hdip hq z1 ⊢; linarith) (fun hs => absurd rfl (hsol hs))
    exact ⟨z, hz, hz90⟩
  · obtain ⟨z, d, hz, hd, hz1, -⟩ := C84_float h hr ha hφ hl hpl.1 hS
    obtain ⟨d', hd', -, -, g3, g4⟩ := C87_declination_float C36_gregorian h ha.time ha.range
    obtain rfl : d = d' := XR.fin_inj.1 (hd.symm.trans hd')
    have hq : 0.0014 / (placeFactor alg eng φ * sin (rad (sunZenith t φ l))) ≤ 0.03 := by
      rw [div_le_iff₀ (by norm_num at hS ⊢; linarith)]; norm_num at hS ⊢; linarith
    refine ⟨z, hz, ?_⟩
    have h1 := decError_le alg
    have h2 := ownSlack_le alg eng
    rcases hp with ⟨hx, hj⟩ | ⟨hx, hj⟩
    · have := neg_le_abs (φ - d)
      have := g3 hj
      norm_num at h1 h2 hq this hz1; linarith
    · have := le_abs_self (φ - d)
      have := g4 hj
      norm_num at h1 h2 hq this hz1; linarith

/-! ### the hypotheses are met -/

/-- 21 June 2024 -/
example : AroundJune (codeDate (1718928000000000000 / 86400000000000)) ∧ NorthernSummer (codeDate (1718928000000000000 / 86400000000000)) := by
  have : codeDate (1718928000000000000 / 86400000000000) = ⟨2024, 6, 21⟩ := by decide +kernel
  rw [this]; exact ⟨.inl rfl, .inl (by decide)⟩

/-- 1 January 1700 -/
example : AroundDecember (codeDate (-8520336000000000000 / 86400000000000)) ∧ NorthernWinter (codeDate (-8520336000000000000 / 86400000000000)) := by
  have : codeDate (-8520336000000000000 / 86400000000000) = ⟨1700, 1, 1⟩ := by decide +kernel
  rw [this]; exact ⟨.inr ⟨rfl, by decide⟩, .inr (.inl (by decide))⟩

/-- at any instant of 21 June 2024 the sun is up at 75 degrees north and down at 75 degrees south, whatever the arguments, in exact arithmetic and in
binary64 -/
example (uc : UseCase) {alg eng : String} (hk : KnownPair alg eng) {t : Int} (h1 : 1718928000000000000 ≤ t) (h2 : t < 1719014400000000000) :
    (∃ (s : Sunpos XR) (z : ℝ), call uc exWorld (oneTime t) (.vec [.fin 75]) (.vec [.fin 10]) alg .pyTrue eng = .ok s ∧
      s.zenithDeg.get (fun _ => 0) = .fin z ∧ z < 90) ∧
    (∃ (s : Sunpos XR) (z : ℝ), call uc exWorld (oneTime t) (.vec [.fin (-75)]) (.vec [.fin 10]) alg .pyFalse eng = .ok s ∧
      s.zenithDeg.get (fun _ => 0) = .fin z ∧ 90 < z) ∧
    (∃ (w : World (Rd Arith.binary64)) (s : Sunpos (Rd Arith.binary64)) (z : ℝ),
      call uc w (oneTime t) (.vec [Rd.fin 75]) (.vec [Rd.fin 10]) alg .pyTrue eng = .ok s ∧
      s.zenithDeg.get (fun _ => 0) = Rd.fin z ∧ z < 90) ∧
    (∃ (w : World (Rd Arith.binary64)) (s : Sunpos (Rd Arith.binary64)) (z : ℝ),
      call uc w (oneTime t) (.vec [Rd.fin (-75)]) (.vec [Rd.fin 10]) alg .pyFalse eng = .ok s ∧
      s.zenithDeg.get (fun _ => 0) = Rd.fin z ∧ 90 < z) := by
  have ht : |t| < 2 ^ 63 := by rw [abs_of_nonneg (by omega)]; omega
  have hj : AroundJune (codeDate (t / 86400000000000)) := by
    have e1 : t / 86400000000000 = 19895 := by omega
    have : codeDate 19895 = ⟨2024, 6, 21⟩ := by decide +kernel
    rw [e1, this]; exact .inl rfl
  have f1 : ∀ x : ℝ, x = 75 ∨ x = -75 → FloatPlace alg eng x := by
    rintro x (rfl | rfl) <;> refine ⟨fun _ => ?_, fun _ _ => ?_⟩ <;> simp <;> norm_num
  obtain ⟨s1, c1, a1⟩ := single_call uc hk .pyTrue ht (φ := 75) (l := 10) (by norm_num) (by norm_num)
  obtain ⟨s2, c2, a2⟩ := single_call uc hk .pyFalse ht (φ := -75) (l := 10) (by norm_num) (by norm_num)
  obtain ⟨w3, s3, c3, a3⟩ := single_call_rd (A := Arith.binary64) uc hk .pyTrue binary64_90 binary64_180 ht (φ := 75) (l := 10) (by norm_num) (by norm_num)
  obtain ⟨w4, s4, c4, a4⟩ := single_call_rd (A := Arith.binary64) uc hk .pyFalse binary64_90 binary64_180 ht (φ := -75) (l := 10) (by norm_num) (by norm_num)
  obtain ⟨z1, y1, x1⟩ := C87_midnight_sun (e := fun _ => 0) C36_gregorian c1 a1 (.inl ⟨by norm_num, hj⟩)
  obtain ⟨z2, y2, x2⟩ := C87_polar_night (e := fun _ => 0) C36_gregorian c2 a2 (by simp) (.inl ⟨by norm_num, hj⟩)
  obtain ⟨z3, y3, x3⟩ := C87_midnight_sun_float (e := fun _ => 0) C36_gregorian c3 a3 (by norm_num) (by norm_num) (f1 _ (.inl rfl)) (.inl ⟨by norm_num, hj⟩)
  obtain ⟨z4, y4, x4⟩ := C87_polar_night_float (e := fun _ => 0) C36_gregorian c4 a4 (by norm_num) (by norm_num) (f1 _ (.inr rfl)) (by simp) (.inl ⟨by norm_num, hj⟩)
  exact ⟨⟨s1, z1, c1, y1, x1⟩, ⟨s2, z2, c2, y2, x2⟩, ⟨w3, s3, z3, c3, y3, x3⟩, ⟨w4, s4, z4, c4, y4, x4⟩⟩

end SW.Props
