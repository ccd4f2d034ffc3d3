/-
C91: the days grow and shrink. The sun climbs from 10 January to 31 May and descends from 15 July to 25 November; between, in March and in September of
every year, there is an equinox, the same instant for all algorithms up to their errors, when the day has 12 hours.
-/
import Verif.Props.Year
import Verif.RDrift

namespace SW.Props
open SW SW.Spec SW.Ephem SW.Cal Real

/-! ### specification -/

/-- from 10 January to 31 May -/
def SunClimbs (c : CivilDate) : Prop := (c.month = 1 ∧ 10 ≤ c.day) ∨ (2 ≤ c.month ∧ c.month ≤ 5)
/-- from 15 July to 25 November -/
def SunDescends (c : CivilDate) : Prop := (c.month = 7 ∧ 15 ≤ c.day) ∨ (8 ≤ c.month ∧ c.month ≤ 10) ∨ (c.month = 11 ∧ c.day ≤ 25)
/-- from 1 February to 10 May -/
def ClimbsFast (c : CivilDate) : Prop := (2 ≤ c.month ∧ c.month ≤ 4) ∨ (c.month = 5 ∧ c.day ≤ 10)
/-- from 5 August to 5 November -/
def DescendsFast (c : CivilDate) : Prop := (c.month = 8 ∧ 5 ≤ c.day) ∨ c.month = 9 ∨ c.month = 10 ∨ (c.month = 11 ∧ c.day ≤ 5)

namespace Equinox

/-- the day of the year of a date -/
theorem doy_window (n : Int) : ∃ k : Int, n = yearStart (codeDate n).year + k ∧ 0 ≤ k ∧ k ≤ 365 ∧
    (SunClimbs (codeDate n) → 9 ≤ k ∧ k ≤ 151) ∧
    (SunDescends (codeDate n) → 195 ≤ k ∧ k ≤ 329) ∧
    (ClimbsFast (codeDate n) → 31 ≤ k ∧ k ≤ 130) ∧
    (DescendsFast (codeDate n) → 216 ≤ k ∧ k ≤ 309) := by
  obtain ⟨h1, h2, h3⟩ := yearsDays_spec n
  have hy : (codeDate n).year = (yearsDays n).1 := by rw [codeDate_eq]
  rw [hy]
  refine ⟨_, h1, h2, ?_, ?_⟩
  · unfold yearLength at h3; split_ifs at h3 <;> omega
  · rw [yearLength_eq] at h3
    rw [codeDate_eq]
    generalize isLeap (yearsDays n).1 = leap at *
    generalize (yearsDays n).2 = k at *
    obtain ⟨i, m, d, hi, rfl, hm, hd1, hd2, hd3⟩ := monthDay_cases leap h2 h3
    rw [hm]
    unfold SunClimbs SunDescends ClimbsFast DescendsFast
    simp only
    cases leap <;> interval_cases i <;> simp [monthLengths, mlen] at hd2 hd3 ⊢ <;> omega

/-- the sine between two angles within `W` of zero -/
theorem sin_climb {x y W c : ℝ} (hx : |x| ≤ W) (hy : |y| ≤ W) (hxy : x ≤ y) (hW : W ≤ π) (hc : c ≤ cos W) :
    c * (y - x) ≤ sin y - sin x := by
  refine (convex_Icc (-W) W).mul_sub_le_image_sub_of_le_deriv continuous_sin.continuousOn differentiable_sin.differentiableOn
    (fun z hz => ?_) x (abs_le.1 hx) y (abs_le.1 hy) hxy
  rw [interior_Icc] at hz
  rw [Real.deriv_sin]
  exact hc.trans (Year.cos_near (abs_le.2 ⟨hz.1.le, hz.2.le⟩) hW)

theorem sin_dec (T : ℝ) : sin (declination T) = sin (obliquity T) * sin (longitude T) := by
  unfold declination
  have h : |sin (obliquity T) * sin (longitude T)| ≤ 1 := by
    rw [abs_mul]; exact mul_le_one₀ (abs_sin_le_one _) (abs_nonneg _) (abs_sin_le_one _)
  have h := abs_le.1 h
  exact sin_arcsin h.1 h.2

/-- angles in the range of the arcsine lie farther apart than their sines -/
theorem of_sin {a b A : ℝ} (ha : |a| ≤ π / 2) (hb : |b| ≤ π / 2) (h0 : 0 ≤ A) (h : A ≤ sin b - sin a) : A ≤ b - a := by
  have h1 : a ≤ b := by
    have hs : sin a ≤ sin b := by linarith
    exact (strictMonoOn_sin.le_iff_le (abs_le.1 ha) (abs_le.1 hb)).1 hs
  have h2 : sin b - sin a ≤ b - a := by
    have := (convex_univ).image_sub_le_mul_sub_of_deriv_le (f := sin) continuous_sin.continuousOn differentiable_sin.differentiableOn (C := 1)
      (fun z _ => by rw [Real.deriv_sin]; exact cos_le_one z) a trivial b trivial h1
    linarith
  linarith

theorem dec_half (T : ℝ) : |declination T| ≤ π / 2 := by
  unfold declination
  rw [abs_le]; exact ⟨neg_pi_div_two_le_arcsin _, arcsin_le_pi_div_two _⟩

/-- the declination of the reference climbs (`σ = 1`) or descends (`σ = -1`) -/
theorem ref_climb {T1 T2 S W c σ : ℝ} (h1 : |T1| ≤ 3.24) (h2 : |T2| ≤ 3.24) (h12 : T1 ≤ T2) (hσ : σ = 1 ∨ σ = -1)
    (hS : ∀ z, sin z = σ * sin (z - S)) (hx : |longitude T1 - S| ≤ W) (hy : |longitude T2 - S| ≤ W) (hW : W ≤ π) (hc : c ≤ cos W) (hc0 : 0.1 ≤ c) :
    (240 * c) * (T2 - T1) ≤ σ * (declination T2 - declination T1) := by
  have N := drift_near h1 h2
  obtain ⟨o1, o2⟩ := obliquity_bound h2
  have p1 := pi_gt_d6
  have p2 := pi_lt_d6
  have hT : |T1 - T2| = T2 - T1 := by rw [abs_sub_comm, abs_of_nonneg (by linarith)]
  -- the longitude
  have hL : 606.6 * (T2 - T1) ≤ longitude T2 - longitude T1 := by
    have e : meanLongitude T2 - meanLongitude T1 = (36000.7698 * (π / 180)) * (T2 - T1) := by unfold meanLongitude Ephem.deg; ring
    have hm : 628.31 * (T2 - T1) ≤ meanLongitude T2 - meanLongitude T1 := by
      rw [e]; exact mul_le_mul_of_nonneg_right (by norm_num at p1 ⊢; linarith) (by linarith)
    have := (abs_le.1 N.4).2
    rw [hT] at this
    norm_num at hm this ⊢; linarith
  have hxy : longitude T1 - S ≤ longitude T2 - S := by
    have : 0 ≤ 606.6 * (T2 - T1) := by have : 0 ≤ T2 - T1 := by linarith
                                       positivity
    linarith
  have hs := sin_climb hx hy hxy hW hc
  have hsin : 0.3966 ≤ sin (obliquity T2) := by
    have := sin_le_sin_of_le_of_le_pi_div_two (x := 0.408) (by norm_num; linarith) (by norm_num at o2 p1 ⊢; linarith) o1
    have := sin_gt_sub_cube (x := 0.408) (by norm_num)
    norm_num at *; linarith
  have hob : |sin (obliquity T2) - sin (obliquity T1)| ≤ 2.3e-4 * (T2 - T1) := by
    have h := N.3
    rw [hT, abs_sub_comm] at h
    refine le_trans ?_ h
    rw [abs_sub_le_iff]
    have q : ∀ a b : ℝ, sin a - sin b ≤ |a - b| := by
      intro a b
      have h := abs_cos_sub_cos_le (π / 2 - a) (π / 2 - b)
      rw [cos_pi_div_two_sub, cos_pi_div_two_sub, show π / 2 - a - (π / 2 - b) = -(a - b) by ring, abs_neg] at h
      exact (le_abs_self _).trans h
    exact ⟨q _ _, by rw [abs_sub_comm]; exact q _ _⟩
  have hmain : (240 * c) * (T2 - T1) ≤ σ * (sin (declination T2) - sin (declination T1)) := by
    rw [sin_dec, sin_dec, hS (longitude T2), hS (longitude T1)]
    have hσ2 : σ * σ = 1 := by rcases hσ with rfl | rfl <;> norm_num
    have e : σ * (sin (obliquity T2) * (σ * sin (longitude T2 - S)) - sin (obliquity T1) * (σ * sin (longitude T1 - S)))
        = (σ * σ) * (sin (obliquity T2) * (sin (longitude T2 - S) - sin (longitude T1 - S))
          + (sin (obliquity T2) - sin (obliquity T1)) * sin (longitude T1 - S)) := by ring
    rw [e, hσ2, one_mul]
    have k1 : 0.3966 * (c * (606.6 * (T2 - T1))) ≤ sin (obliquity T2) * (sin (longitude T2 - S) - sin (longitude T1 - S)) := by
      refine mul_le_mul hsin (le_trans (mul_le_mul_of_nonneg_left ?_ (by linarith)) hs) ?_ (by norm_num at hsin ⊢; linarith)
      · linarith
      · have : 0 ≤ T2 - T1 := by linarith
        have : 0 ≤ c := by linarith
        positivity
    have k2 : -(2.3e-4 * (T2 - T1)) ≤ (sin (obliquity T2) - sin (obliquity T1)) * sin (longitude T1 - S) := by
      have : |(sin (obliquity T2) - sin (obliquity T1)) * sin (longitude T1 - S)| ≤ 2.3e-4 * (T2 - T1) := by
        rw [abs_mul]
        exact (mul_le_of_le_one_right (abs_nonneg _) (abs_sin_le_one _)).trans hob
      exact (abs_le.1 this).1
    have k3 : 0 ≤ T2 - T1 := by linarith
    have k4 : 0.1 * (T2 - T1) ≤ c * (T2 - T1) := mul_le_mul_of_nonneg_right hc0 k3
    norm_num at k1 k2 k4 ⊢
    nlinarith
  have h0 : 0 ≤ (240 * c) * (T2 - T1) := by
    have : 0 ≤ T2 - T1 := by linarith
    have : 0 ≤ c := by linarith
    positivity
  rcases hσ with rfl | rfl
  · rw [one_mul] at hmain ⊢
    exact of_sin (dec_half _) (dec_half _) h0 hmain
  · have := of_sin (dec_half T2) (dec_half T1) h0 (by linarith)
    linarith

theorem cos_wide : 0.2675 ≤ cos 1.2995 := by
  have p1 := pi_gt_d6
  have p2 := pi_lt_d6
  rw [← sin_pi_div_two_sub]
  have h1 : sin 0.2712 ≤ sin (π / 2 - 1.2995) :=
    sin_le_sin_of_le_of_le_pi_div_two (by norm_num; linarith) (by norm_num) (by norm_num at p1 ⊢; linarith)
  have h2 := sin_gt_sub_cube (x := 0.2712) (by norm_num)
  norm_num at *; linarith

theorem cos_narrow : 0.595 ≤ cos 0.932 := by
  have p1 := pi_gt_d6
  rw [← sin_pi_div_two_sub]
  have h1 : sin 0.6387 ≤ sin (π / 2 - 0.932) :=
    sin_le_sin_of_le_of_le_pi_div_two (by norm_num; linarith) (by norm_num) (by norm_num at p1 ⊢; linarith)
  have h2 := sin_gt_sub_cube (x := 0.6387) (by norm_num)
  norm_num at *; linarith

/-- the longitude stays within `w` degrees of an equinox in a window of days -/
theorem lon_within {t Y k : Int} (ht : |t| < 2 ^ 63) (hn : t / 86400000000000 = yearStart Y + k) (h0 : 0 ≤ k) (h1 : k ≤ 365)
    {a b : Int} {q w : ℝ} (hk : a ≤ k ∧ k ≤ b)
    (ha : -w ≤ 280.35 + 0.98564 * ((a : ℝ) - 1.49) - 1.96 - q)
    (hb : 280.56 + 0.98565 * ((b : ℝ) + 2.2475) + 1.96 - q ≤ w) :
    |longitude (century t) - (((Y - 2000 : ℤ) : ℝ) * (2 * π) + rad q)| ≤ rad w := by
  obtain ⟨l1, l2⟩ := Seasons.lon_window ht hn h0 h1
  obtain ⟨k1, k2⟩ := hk
  have k1 : (a : ℝ) ≤ k := by exact_mod_cast k1
  have k2 : (k : ℝ) ≤ b := by exact_mod_cast k2
  have p1 := pi_gt_d6
  have hr : 0.0342 ≤ rad 1.96 := by unfold rad; norm_num at p1 ⊢; linarith
  have m1 := rad_mono (show -w ≤ 280.35 + 0.98564 * ((k : ℝ) - 1.49) - 1.96 - q by norm_num at ha ⊢; linarith)
  have m2 := rad_mono (show 280.56 + 0.98565 * ((k : ℝ) + 2.2475) + 1.96 - q ≤ w by norm_num at hb ⊢; linarith)
  have e1 : rad (280.35 + 0.98564 * ((k : ℝ) - 1.49) - 1.96 - q) = rad (280.35 + 0.98564 * ((k : ℝ) - 1.49)) - rad 1.96 - rad q := by
    unfold rad; ring
  have e2 : rad (280.56 + 0.98565 * ((k : ℝ) + 2.2475) + 1.96 - q) = rad (280.56 + 0.98565 * ((k : ℝ) + 2.2475)) + rad 1.96 - rad q := by
    unfold rad; ring
  have e3 : rad (-w) = -rad w := by unfold rad; ring
  rw [e1, e3] at m1
  rw [e2] at m2
  rw [abs_le]
  constructor <;> linarith

/-- the declination of the reference between two dates of one year -/
theorem ref_rate {t u : Int} (ht : |t| < 2 ^ 63) (hu : |u| < 2 ^ 63) (htu : t ≤ u)
    (hy : (codeDate (t / 86400000000000)).year = (codeDate (u / 86400000000000)).year) :
    let c := codeDate (t / 86400000000000)
    let c' := codeDate (u / 86400000000000)
    (SunClimbs c → SunClimbs c' → rad (0.1 * daysBetween t u) ≤ declination (century u) - declination (century t)) ∧
    (SunDescends c → SunDescends c' → rad (0.1 * daysBetween t u) ≤ declination (century t) - declination (century u)) ∧
    (ClimbsFast c → ClimbsFast c' → rad (0.22 * daysBetween t u) ≤ declination (century u) - declination (century t)) ∧
    (DescendsFast c → DescendsFast c' → rad (0.22 * daysBetween t u) ≤ declination (century t) - declination (century u)) := by
  intro c c'
  obtain ⟨k, hn, k0, k1, s1, s2, s3, s4⟩ := doy_window (t / 86400000000000)
  obtain ⟨k', hn', k0', k1', s1', s2', s3', s4'⟩ := doy_window (u / 86400000000000)
  rw [← hy] at hn'
  generalize (codeDate (t / 86400000000000)).year = Y at *
  have p1 := pi_gt_d6
  have p2 := pi_lt_d6
  have hT : century u - century t = daysBetween t u / 36525 := by
    rw [← century_days, abs_sub_comm, abs_of_nonneg]
    unfold century
    have : (t : ℝ) ≤ u := by exact_mod_cast htu
    have : (t : ℝ) / 86400e9 ≤ u / 86400e9 := div_le_div_of_nonneg_right this (by norm_num)
    rw [sub_nonneg]
    refine div_le_div_of_nonneg_right (by linarith) (by norm_num)
  have h12 : century t ≤ century u := by
    have : 0 ≤ daysBetween t u := by unfold daysBetween; positivity
    have : 0 ≤ daysBetween t u / 36525 := by positivity
    linarith
  have hD : 0 ≤ daysBetween t u := by unfold daysBetween; positivity
  have S1 : ∀ z, sin z = 1 * sin (z - (((Y - 2000 : ℤ) : ℝ) * (2 * π) + rad 360)) := by
    intro z
    rw [show z - (((Y - 2000 : ℤ) : ℝ) * (2 * π) + rad 360) = z - ((Y - 1999 : ℤ) : ℝ) * (2 * π) by unfold rad; push_cast; ring,
      sin_sub_int_mul_two_pi, one_mul]
  have S2 : ∀ z, sin z = -1 * sin (z - (((Y - 2000 : ℤ) : ℝ) * (2 * π) + rad 540)) := by
    intro z
    rw [show z - (((Y - 2000 : ℤ) : ℝ) * (2 * π) + rad 540) = z - π - ((Y - 1999 : ℤ) : ℝ) * (2 * π) by unfold rad; push_cast; ring,
      sin_sub_int_mul_two_pi, sin_sub_pi]
    ring
  have w1 : rad 74.4 ≤ 1.2995 := by unfold rad; norm_num at p2 ⊢; linarith
  have w2 : rad 53.3 ≤ 0.932 := by unfold rad; norm_num at p2 ⊢; linarith
  have r1 : rad (0.1 * daysBetween t u) ≤ 240 * 0.2675 * (daysBetween t u / 36525) := by
    unfold rad
    have : π * daysBetween t u ≤ 3.141593 * daysBetween t u := mul_le_mul_of_nonneg_right p2.le hD
    norm_num at this ⊢; linarith
  have r2 : rad (0.22 * daysBetween t u) ≤ 240 * 0.595 * (daysBetween t u / 36525) := by
    unfold rad
    have : π * daysBetween t u ≤ 3.141593 * daysBetween t u := mul_le_mul_of_nonneg_right p2.le hD
    norm_num at this ⊢; linarith
  have W1 : (1.2995 : ℝ) ≤ π := by norm_num at p1 ⊢; linarith
  have W2 : (0.932 : ℝ) ≤ π := by norm_num at p1 ⊢; linarith
  refine ⟨fun a b => ?_, fun a b => ?_, fun a b => ?_, fun a b => ?_⟩
  · have := ref_climb (century_bound ht) (century_bound hu) h12 (.inl rfl) S1
      ((lon_within ht hn k0 k1 (s1 a) (by norm_num) (by norm_num)).trans w1)
      ((lon_within hu hn' k0' k1' (s1' b) (by norm_num) (by norm_num)).trans w1) W1 cos_wide (by norm_num)
    rw [hT, one_mul] at this
    exact r1.trans this
  · have := ref_climb (century_bound ht) (century_bound hu) h12 (.inr rfl) S2
      ((lon_within ht hn k0 k1 (s2 a) (by norm_num) (by norm_num)).trans w1)
      ((lon_within hu hn' k0' k1' (s2' b) (by norm_num) (by norm_num)).trans w1) W1 cos_wide (by norm_num)
    rw [hT] at this
    linarith
  · have := ref_climb (century_bound ht) (century_bound hu) h12 (.inl rfl) S1
      ((lon_within ht hn k0 k1 (s3 a) (by norm_num) (by norm_num)).trans w2)
      ((lon_within hu hn' k0' k1' (s3' b) (by norm_num) (by norm_num)).trans w2) W2 cos_narrow (by norm_num)
    rw [hT, one_mul] at this
    exact r2.trans this
  · have := ref_climb (century_bound ht) (century_bound hu) h12 (.inr rfl) S2
      ((lon_within ht hn k0 k1 (s4 a) (by norm_num) (by norm_num)).trans w2)
      ((lon_within hu hn' k0' k1' (s4' b) (by norm_num) (by norm_num)).trans w2) W2 cos_narrow (by norm_num)
    rw [hT] at this
    linarith

/-! ### equinoxes -/

/-- the date of a day of a year -/
theorem codeDate_at {Y k : Int} (h : 0 ≤ k ∧ k < yearLength Y) :
    codeDate (yearStart Y + k) = ⟨Y, (monthDay (isLeap Y) k).1, (monthDay (isLeap Y) k).2⟩ := by
  obtain ⟨h1, h2, h3⟩ := yearsDays_spec (yearStart Y + k)
  obtain ⟨a, b⟩ := yearStart_unique h1 h ⟨h2, h3⟩
  rw [codeDate_eq, ← a, ← b]

/-- the date of day `d` of the month of index `i` -/
theorem codeDate_md {Y d : Int} {i : Nat} (hi : i < 12) (hd : 1 ≤ d ∧ d ≤ mlen (isLeap Y) (1 + i)) :
    codeDate (yearStart Y + (before (isLeap Y) i + d - 1)) = ⟨Y, 1 + i, d⟩ := by
  have b0 := before_mono (isLeap Y) (Nat.zero_le i) (by omega)
  have b1 := before_succ (isLeap Y) hi
  have b2 := before_mono (isLeap Y) (show i + 1 ≤ 12 by omega) le_rfl
  rw [before_0] at b0
  rw [before_12, ← yearLength_eq] at b2
  rw [codeDate_at ⟨by omega, by omega⟩, monthDay_of (isLeap Y) hi hd (by omega)]

/-- the century of a real number of nanoseconds -/
noncomputable def realCentury (x : ℝ) : ℝ := (x / 86400e9 - 10957.5) / 36525

theorem continuous_dec : Continuous fun x : ℝ => declination (realCentury x) := by
  unfold declination obliquity longitude meanLongitude center eccentricity meanAnomaly Ephem.deg realCentury
  fun_prop

/-- where the declination changes sign, an instant at which it is zero up to a nanosecond -/
theorem ref_equinox {t1 t2 : Int} (h1 : |t1| < 2 ^ 63) (h2 : |t2| < 2 ^ 63) (h12 : t1 < t2)
    (hs : (declination (century t1) < 0 ∧ 0 < declination (century t2)) ∨ (0 < declination (century t1) ∧ declination (century t2) < 0)) :
    ∃ t : Int, t1 ≤ t ∧ t < t2 ∧ |t| < 2 ^ 63 ∧ |declination (century t)| ≤ rad 1e-9 := by
  have hc : (t1 : ℝ) ≤ t2 := by exact_mod_cast h12.le
  have hcen : ∀ t : Int, century t = realCentury t := fun _ => rfl
  obtain ⟨x, hx, hx0⟩ : ∃ x ∈ Set.Icc (t1 : ℝ) t2, declination (realCentury x) = 0 := by
    rcases hs with ⟨a, b⟩ | ⟨a, b⟩
    · exact intermediate_value_Icc hc continuous_dec.continuousOn ⟨a.le, b.le⟩
    · exact intermediate_value_Icc' hc continuous_dec.continuousOn ⟨b.le, a.le⟩
  have hx2 : x < t2 := by
    rcases lt_or_eq_of_le hx.2 with h | h
    · exact h
    · rw [h, ← hcen] at hx0
      rcases hs with ⟨-, b⟩ | ⟨-, b⟩ <;> linarith
  have f1 : t1 ≤ ⌊x⌋ := Int.le_floor.2 hx.1
  have f2 : ⌊x⌋ < t2 := Int.floor_lt.2 hx2
  have fr : |⌊x⌋| < 2 ^ 63 := by rw [abs_lt] at *; omega
  refine ⟨⌊x⌋, f1, f2, fr, ?_⟩
  have hb : |realCentury x| ≤ 3.24 := by
    have c1 := abs_le.1 (century_bound h1)
    have c2 := abs_le.1 (century_bound h2)
    rw [hcen] at c1 c2
    have mono : ∀ {a b : ℝ}, a ≤ b → realCentury a ≤ realCentury b := by
      intro a b h
      unfold realCentury
      have : a / 86400e9 ≤ b / 86400e9 := div_le_div_of_nonneg_right h (by norm_num)
      exact div_le_div_of_nonneg_right (by linarith) (by norm_num)
    exact abs_le.2 ⟨c1.1.trans (mono hx.1), (mono hx.2).trans c2.2⟩
  have hd := drift_dec (century_bound fr) hb
  rw [hx0, sub_zero] at hd
  refine hd.trans ?_
  have : |century ⌊x⌋ - realCentury x| ≤ 1 / (86400e9 * 36525) := by
    rw [hcen]
    unfold realCentury
    rw [show ((⌊x⌋ : ℝ) / 86400e9 - 10957.5) / 36525 - (x / 86400e9 - 10957.5) / 36525 = ((⌊x⌋ : ℝ) - x) / (86400e9 * 36525) by ring, abs_div,
      abs_of_pos (by norm_num : (0 : ℝ) < 86400e9 * 36525)]
    refine div_le_div_of_nonneg_right ?_ (by norm_num)
    rw [abs_le]; constructor <;> linarith [Int.floor_le x, Int.lt_floor_add_one x]
  have p1 := pi_gt_d6
  unfold rad
  norm_num at this p1 ⊢
  linarith

/-- the reference equinox of a year between the first of the two dates and the first day of the following month -/
theorem ref_equinox_at {Y : Int} (hY : 1678 ≤ Y ∧ Y ≤ 2261) {i : Nat} (hi : i = 2 ∨ i = 8) :
    ∃ t d : Int, |t| < 2 ^ 63 ∧ codeDate (t / 86400000000000) = ⟨Y, 1 + i, d⟩ ∧ 10 ≤ d ∧ |declination (century t)| ≤ rad 1e-9 := by
  have hi' : i < 11 := by omega
  have b0 := before_mono (isLeap Y) (Nat.zero_le i) (by omega)
  have b1 := before_succ (isLeap Y) (show i < 12 by omega)
  have b2 := before_mono (isLeap Y) (show i + 1 ≤ 12 by omega) le_rfl
  have m1 : 30 ≤ mlen (isLeap Y) (1 + i) ∧ 1 ≤ mlen (isLeap Y) (1 + (i + 1 : ℕ)) := by
    unfold mlen; rcases hi with rfl | rfl <;> (constructor <;> split_ifs <;> omega)
  have y1 := yearStart_mono hY.1
  have y2 := yearStart_mono hY.2
  rw [show yearStart 1678 = -106650 by decide] at y1
  rw [show yearStart 2261 = 106286 by decide] at y2
  rw [before_0] at b0
  rw [before_12] at b2
  have b2 : before (isLeap Y) (i + 1) ≤ 366 := b2.trans (by split_ifs <;> norm_num)
  have c1 := codeDate_md (Y := Y) (d := 10) (i := i) (by omega) ⟨by norm_num, by omega⟩
  have c2 := codeDate_md (Y := Y) (d := 1) (i := i + 1) (by omega) ⟨by norm_num, by omega⟩
  generalize hn1 : yearStart Y + (before (isLeap Y) i + 10 - 1) = n1 at c1
  generalize hn2 : yearStart Y + (before (isLeap Y) (i + 1) + 1 - 1) = n2 at c2
  have r1 : |n1 * 86400000000000| < 2 ^ 63 := by rw [abs_lt]; omega
  have r2 : |n2 * 86400000000000| < 2 ^ 63 := by rw [abs_lt]; omega
  have q1 : n1 * 86400000000000 / 86400000000000 = n1 := by omega
  have q2 : n2 * 86400000000000 / 86400000000000 = n2 := by omega
  have s1 := Seasons.ref_seasons r1
  have s2 := Seasons.ref_seasons r2
  rw [q1, c1] at s1
  rw [q2, c2] at s2
  have p2 : 0 < rad 2 := by unfold rad; have := pi_pos; positivity
  obtain ⟨t, t1, t2, ht, hd⟩ := ref_equinox r1 r2 (by omega) (by
    rcases hi with rfl | rfl
    · left
      have a := s1.2.1 (by unfold NorthernWinter; simp)
      have b := s2.1 (by unfold NorthernSummer; simp)
      constructor <;> linarith
    · right
      have a := s1.1 (by unfold NorthernSummer; simp)
      have b := s2.2.1 (by unfold NorthernWinter; simp)
      constructor <;> linarith)
  have k : t / 86400000000000 = yearStart Y + (before (isLeap Y) i + (t / 86400000000000 - n1 + 10) - 1) := by omega
  refine ⟨t, t / 86400000000000 - n1 + 10, ht, ?_, by omega, hd⟩
  exact (congrArg codeDate k).trans (codeDate_md (by omega) ⟨by omega, by omega⟩)

/-- the tangent of the declination near an equinox -/
theorem tan_small {x : ℝ} (h : |x| ≤ 0.0187) : |tan x| ≤ 1.0002 * |x| := by
  have hx := abs_le.1 h
  have hc : 1 - x ^ 2 / 2 ≤ cos x := one_sub_sq_div_two_le_cos
  have hx2 : x ^ 2 ≤ 0.0187 ^ 2 := by rw [← sq_abs]; exact pow_le_pow_left₀ (abs_nonneg _) h 2
  have hc' : 0.9998 < cos x := by norm_num at hx2 ⊢; linarith
  have hs : |sin x| ≤ |x| := abs_sin_le_abs
  rw [tan_eq_sin_div_cos, abs_div, abs_of_pos (lt_trans (by norm_num) hc'), div_le_iff₀ (lt_trans (by norm_num) hc')]
  have := abs_nonneg x
  have h9 : 0.99981 ≤ cos x := by norm_num at hx2 ⊢; linarith
  have : |x| * 0.99981 ≤ |x| * cos x := mul_le_mul_of_nonneg_left h9 this
  norm_num at this ⊢
  linarith

/-- the arcsine near zero -/
theorem arcsin_small {x : ℝ} (h : |x| ≤ 0.05) : |arcsin x| ≤ 1.001 * |x| := by
  have p1 := pi_gt_d6
  have key : ∀ y : ℝ, 0 < y → y ≤ 0.05 → arcsin y ≤ 1.001 * y := by
    intro y h0 h1
    rw [arcsin_le_iff_le_sin' ⟨by norm_num at p1 ⊢; linarith, by norm_num at p1 h1 ⊢; linarith⟩]
    have := sin_gt_sub_cube (x := 1.001 * y) (by positivity)
    have hy2 : y ^ 2 ≤ 0.0025 := by nlinarith
    have : y * y ^ 2 ≤ y * 0.0025 := mul_le_mul_of_nonneg_left hy2 h0.le
    norm_num at *
    nlinarith
  rcases lt_trichotomy x 0 with h0 | rfl | h0
  · have := key (-x) (by linarith) (by rw [abs_of_neg h0] at h; exact h)
    rw [arcsin_neg] at this
    rw [abs_of_neg h0, abs_of_nonpos (arcsin_nonpos.2 h0.le)]
    exact this
  · simp
  · rw [abs_of_pos h0, abs_of_nonneg (arcsin_nonneg.2 h0.le)]
    rw [abs_of_pos h0] at h
    exact key x h0 h

theorem tan_60 {φ : ℝ} (h : |φ| ≤ 60) : |tan (rad φ)| ≤ 1.7321 := by
  have hp := pi_pos
  have e : rad 60 = π / 3 := by unfold rad; ring
  have key : ∀ x : ℝ, 0 ≤ x → x ≤ 60 → 0 ≤ tan (rad x) ∧ tan (rad x) ≤ 1.7321 := by
    intro x h0 h1
    have h2 : rad x ≤ π / 3 := by rw [← e]; exact rad_mono h1
    have h3 : 0 ≤ rad x := by unfold rad; positivity
    refine ⟨tan_nonneg_of_nonneg_of_le_pi_div_two h3 (by linarith), ?_⟩
    have : tan (rad x) ≤ tan (π / 3) := by
      rcases h2.lt_or_eq with h | h
      · exact (tan_lt_tan_of_lt_of_lt_pi_div_two (by linarith) (by linarith) h).le
      · rw [h]
    rw [tan_pi_div_three] at this
    have hs : √3 ≤ 1.7321 := by rw [sqrt_le_left (by norm_num)]; norm_num
    linarith
  have hx := abs_le.1 h
  rcases le_total 0 φ with h0 | h0
  · obtain ⟨a, b⟩ := key φ h0 hx.2
    rwa [abs_of_nonneg a]
  · obtain ⟨a, b⟩ := key (-φ) (by linarith) (by linarith)
    rw [show rad (-φ) = -rad φ by unfold rad; ring, tan_neg] at a b
    rw [abs_of_nonpos (by linarith)]
    exact b

/-- a larger declination: longer days in the north, shorter in the south -/
theorem daylight_lt {w1 w2 : World XR} {s1 s2 : Sunpos XR} {e1 e2 : Dim → Nat} {φ d1 d2 : ℝ}
    (f1 : s1.latitude.get e1 = .fin φ) (f2 : s2.latitude.get e2 = .fin φ) (h1 : s1.decDeg.get e1 = .fin d1) (h2 : s2.decDeg.get e2 = .fin d2)
    (hφ : |φ| < 90) (b1 : |d1| < 90) (b2 : |d2| < 90) (hd : d1 < d2) :
    ∃ D1 D2, s1.daylightLength w1 = .ok D1 ∧ s2.daylightLength w2 = .ok D2 ∧
      ∀ v1 v2 : ℝ, D1.get e1 = .fin v1 → D2.get e2 = .fin v2 → (0 < φ → v1 < v2) ∧ (φ < 0 → v2 < v1) := by
  obtain ⟨D1, hD1, k1, n1⟩ := daylight_fin w1 s1 f1 h1 hφ b1
  obtain ⟨D2, hD2, k2, n2⟩ := daylight_fin w2 s2 f2 h2 hφ b2
  refine ⟨D1, D2, hD1, hD2, fun v1 v2 hv1 hv2 => ?_⟩
  have l1 : |tan (rad φ) * tan (rad d1)| ≤ 1 := by
    by_contra hc; rw [n1 (not_le.1 hc)] at hv1; cases hv1
  have l2 : |tan (rad φ) * tan (rad d2)| ≤ 1 := by
    by_contra hc; rw [n2 (not_le.1 hc)] at hv2; cases hv2
  rw [k1 l1, XR.fin_inj] at hv1
  rw [k2 l2, XR.fin_inj] at hv2
  have hp := pi_pos
  have e90 : rad 90 = π / 2 := by unfold rad; ring
  have strict : ∀ {x y : ℝ}, x < y → rad x < rad y := by
    intro x y h; unfold rad; exact mul_lt_mul_of_pos_right h (by positivity)
  have lim : ∀ {x : ℝ}, |x| < 90 → -(π / 2) < rad x ∧ rad x < π / 2 := by
    intro x hx
    obtain ⟨x1, x2⟩ := abs_lt.1 hx
    rw [← e90]
    refine ⟨?_, strict x2⟩
    have := strict x1
    rwa [show rad (-90) = -rad 90 by unfold rad; ring] at this
  have ht : tan (rad d1) < tan (rad d2) := tan_lt_tan_of_lt_of_lt_pi_div_two (lim b1).1 (lim b2).2 (strict hd)
  have r0 : rad 0 = 0 := by unfold rad; ring
  have l1 := abs_le.1 l1
  have l2 := abs_le.1 l2
  constructor <;> intro h0
  · have hs := strict h0
    rw [r0] at hs
    have htp := tan_pos_of_pos_of_lt_pi_div_two hs (lim hφ).2
    have := mul_lt_mul_of_pos_left ht htp
    have := strictAntiOn_arccos (a := -(tan (rad φ) * tan (rad d2))) ⟨by linarith, by linarith⟩
      (b := -(tan (rad φ) * tan (rad d1))) ⟨by linarith, by linarith⟩ (by linarith)
    rw [← hv1, ← hv2]
    exact mul_lt_mul_of_pos_left this (by positivity)
  · have hs := strict h0
    rw [r0] at hs
    have htp := tan_neg_of_neg_of_pi_div_two_lt hs (lim hφ).1
    have := mul_lt_mul_of_neg_left ht htp
    have := strictAntiOn_arccos (a := -(tan (rad φ) * tan (rad d1))) ⟨by linarith, by linarith⟩
      (b := -(tan (rad φ) * tan (rad d2))) ⟨by linarith, by linarith⟩ (by linarith)
    rw [← hv1, ← hv2]
    exact mul_lt_mul_of_pos_left this (by positivity)

/-- the length of the day when the declination is small -/
theorem daylight_twelve {w : World XR} {s : Sunpos XR} {e : Dim → Nat} {φ d E : ℝ}
    (f : s.latitude.get e = .fin φ) (h : s.decDeg.get e = .fin d) (hφ : |φ| ≤ 60) (hd : |d| ≤ E) (hE : E ≤ 1.07) :
    ∃ (D : DA XR) (v : ℝ), s.daylightLength w = .ok D ∧ D.get e = .fin v ∧ |v - 12| ≤ 0.24 * E := by
  have p1 := pi_gt_d6
  have p2 := pi_lt_d6
  have hE0 : 0 ≤ E := (abs_nonneg d).trans hd
  obtain ⟨D, hD, k, -⟩ := daylight_fin w s f h (lt_of_le_of_lt hφ (by norm_num)) (lt_of_le_of_lt (hd.trans hE) (by norm_num))
  have hr : |rad d| ≤ 0.0174533 * E := by
    rw [← rad_abs]
    refine (rad_mono hd).trans ?_
    unfold rad
    have : E * π ≤ E * 3.141593 := mul_le_mul_of_nonneg_left p2.le hE0
    norm_num at this ⊢; linarith
  have hr' : |rad d| ≤ 0.0187 := by norm_num at hr hE ⊢; linarith
  have ht := tan_small hr'
  have hx : |tan (rad φ) * tan (rad d)| ≤ 0.03024 * E := by
    rw [abs_mul]
    refine (mul_le_mul (tan_60 hφ) (ht.trans (mul_le_mul_of_nonneg_left hr (by norm_num))) (abs_nonneg _) (by norm_num)).trans ?_
    norm_num; linarith
  have hx' : |tan (rad φ) * tan (rad d)| ≤ 0.05 := by norm_num at hx hE ⊢; linarith
  refine ⟨D, _, hD, k (hx'.trans (by norm_num)), ?_⟩
  have ha := arcsin_small hx'
  rw [arccos_neg, arccos_eq_pi_div_two_sub_arcsin]
  generalize arcsin (tan (rad φ) * tan (rad d)) = a at *
  have e1 : 24 / π * (π - (π / 2 - a)) - 12 = 24 / π * a := by field_simp; ring
  rw [e1, abs_mul, abs_of_pos (by positivity), div_mul_eq_mul_div, div_le_iff₀ pi_pos]
  have : E * 3.141592 ≤ E * π := mul_le_mul_of_nonneg_left p1.le hE0
  norm_num at this ha hx ⊢
  linarith

end Equinox
open Equinox

/-! ### theorems -/

/-- C91: of two instants of one year between 10 January and 31 May the later has the larger returned declination: by a tenth of a degree per day at least, up to the
errors of the algorithms; by 0.22 degrees per day between 1 February and 10 May. Reversed between 15 July and 25 November and between 5 August and 5 November.
The two calls may differ in everything. -/
theorem C91_declination {date : Int → CivilDate} (g : IsGregorian date)
    {uc uc' : UseCase} {w w' : World XR} {times times' : Times} {latitude longitude latitude' longitude' : Coord XR}
    {alg eng alg' eng' : String} {refr refr' : PyVal} {s s' : Sunpos XR} {e e' : Dim → Nat} {t t' : Int}
    (h : call uc w times latitude longitude alg refr eng = .ok s) (h' : call uc' w' times' latitude' longitude' alg' refr' eng' = .ok s')
    (hk : stampAt times.stamps (e .time) = some t) (hk' : stampAt times'.stamps (e' .time) = some t')
    (hr : |t| < 2 ^ 63) (hr' : |t'| < 2 ^ 63) (htt : t ≤ t')
    (hy : (date (t / 86400000000000)).year = (date (t' / 86400000000000)).year) :
    ∃ d d' : ℝ, s.decDeg.get e = .fin d ∧ s'.decDeg.get e' = .fin d' ∧
      (SunClimbs (date (t / 86400000000000)) → SunClimbs (date (t' / 86400000000000)) →
        d + 0.1 * daysBetween t t' - decError alg - decError alg' ≤ d') ∧
      (SunDescends (date (t / 86400000000000)) → SunDescends (date (t' / 86400000000000)) →
        d' ≤ d - 0.1 * daysBetween t t' + decError alg + decError alg') ∧
      (ClimbsFast (date (t / 86400000000000)) → ClimbsFast (date (t' / 86400000000000)) →
        d + 0.22 * daysBetween t t' - decError alg - decError alg' ≤ d') ∧
      (DescendsFast (date (t / 86400000000000)) → DescendsFast (date (t' / 86400000000000)) →
        d' ≤ d - 0.22 * daysBetween t t' + decError alg + decError alg') := by
  rw [g.unique C36_gregorian] at hy ⊢
  obtain ⟨d, hd, hb⟩ := C54_declination h hk hr
  obtain ⟨d', hd', hb'⟩ := C54_declination h' hk' hr'
  obtain ⟨r1, r2, r3, r4⟩ := ref_rate hr hr' htt hy
  have hb := abs_le.1 hb
  have hb' := abs_le.1 hb'
  have E1 : ∀ c x a b : ℝ, rad (x + c * daysBetween t t' - a - b) = rad x + rad (c * daysBetween t t') - rad a - rad b := by
    intros; unfold rad; ring
  have E2 : ∀ c x a b : ℝ, rad (x - c * daysBetween t t' + a + b) = rad x - rad (c * daysBetween t t') + rad a + rad b := by
    intros; unfold rad; ring
  refine ⟨d, d', hd, hd', fun a b => ?_, fun a b => ?_, fun a b => ?_, fun a b => ?_⟩ <;> apply of_rad_le <;> simp only [E1, E2]
  · linarith [r1 a b, hb.1, hb.2, hb'.1, hb'.2]
  · linarith [r2 a b, hb.1, hb.2, hb'.1, hb'.2]
  · linarith [r3 a b, hb.1, hb.2, hb'.1, hb'.2]
  · linarith [r4 a b, hb.1, hb.2, hb'.1, hb'.2]

/-- C91: the same in floating point. -/
theorem C91_declination_float {A A' : Arith} {date : Int → CivilDate} (g : IsGregorian date)
    {uc uc' : UseCase} {w : World (Rd A)} {w' : World (Rd A')} {times times' : Times} {latitude longitude : Coord (Rd A)} {latitude' longitude' : Coord (Rd A')}
    {alg eng alg' eng' : String} {refr refr' : PyVal} {s : Sunpos (Rd A)} {s' : Sunpos (Rd A')} {e e' : Dim → Nat} {t t' : Int}
    (h : call uc w times latitude longitude alg refr eng = .ok s) (h' : call uc' w' times' latitude' longitude' alg' refr' eng' = .ok s')
    (hk : stampAt times.stamps (e .time) = some t) (hk' : stampAt times'.stamps (e' .time) = some t')
    (hr : |t| < 2 ^ 63) (hr' : |t'| < 2 ^ 63) (htt : t ≤ t')
    (hy : (date (t / 86400000000000)).year = (date (t' / 86400000000000)).year) :
    ∃ d d' : ℝ, s.decDeg.get e = Rd.fin d ∧ s'.decDeg.get e' = Rd.fin d' ∧
      (SunClimbs (date (t / 86400000000000)) → SunClimbs (date (t' / 86400000000000)) →
        d + 0.1 * daysBetween t t' - decError alg - decError alg' - 1e-7 ≤ d') ∧
      (SunDescends (date (t / 86400000000000)) → SunDescends (date (t' / 86400000000000)) →
        d' ≤ d - 0.1 * daysBetween t t' + decError alg + decError alg' + 1e-7) ∧
      (ClimbsFast (date (t / 86400000000000)) → ClimbsFast (date (t' / 86400000000000)) →
        d + 0.22 * daysBetween t t' - decError alg - decError alg' - 1e-7 ≤ d') ∧
      (DescendsFast (date (t / 86400000000000)) → DescendsFast (date (t' / 86400000000000)) →
        d' ≤ d - 0.22 * daysBetween t t' + decError alg + decError alg' + 1e-7) := by
  rw [g.unique C36_gregorian] at hy ⊢
  obtain ⟨d, -, -, hd, -, -, hb, -⟩ := C64_time h hk hr
  obtain ⟨d', -, -, hd', -, -, hb', -⟩ := C64_time h' hk' hr'
  obtain ⟨r1, r2, r3, r4⟩ := ref_rate hr hr' htt hy
  have hb := abs_le.1 hb
  have hb' := abs_le.1 hb'
  have E0 : ∀ a : ℝ, rad (a + 4e-8) = rad a + rad 4e-8 := by intros; unfold rad; ring
  have hm : 2 * rad 4e-8 ≤ rad 1e-7 := by
    unfold rad; have := pi_pos; norm_num; linarith
  rw [E0] at hb hb'
  have E1 : ∀ c x a b q : ℝ, rad (x + c * daysBetween t t' - a - b - q) = rad x + rad (c * daysBetween t t') - rad a - rad b - rad q := by
    intros; unfold rad; ring
  have E2 : ∀ c x a b q : ℝ, rad (x - c * daysBetween t t' + a + b + q) = rad x - rad (c * daysBetween t t') + rad a + rad b + rad q := by
    intros; unfold rad; ring
  refine ⟨d, d', hd, hd', fun a b => ?_, fun a b => ?_, fun a b => ?_, fun a b => ?_⟩ <;> apply of_rad_le <;> simp only [E1, E2]
  · linarith [r1 a b, hb.1, hb.2, hb'.1, hb'.2]
  · linarith [r2 a b, hb.1, hb.2, hb'.1, hb'.2]
  · linarith [r3 a b, hb.1, hb.2, hb'.1, hb'.2]
  · linarith [r4 a b, hb.1, hb.2, hb'.1, hb'.2]

/-- C91: at one place the days grow while the sun climbs and shrink while it descends; south of the equator reversed. Two instants of one year, far enough apart for
the errors of the algorithms (less than a day with psa, soltrack and nrel), where both have sunrise and sunset. -/
theorem C91_daylight {date : Int → CivilDate} (g : IsGregorian date)
    {uc uc' : UseCase} {w w' W W' : World XR} {times times' : Times} {latitude longitude latitude' longitude' : Coord XR}
    {alg eng alg' eng' : String} {refr refr' : PyVal} {s s' : Sunpos XR} {e e' : Dim → Nat} {t t' : Int} {φ l l' : ℝ}
    (h : call uc w times latitude longitude alg refr eng = .ok s) (h' : call uc' w' times' latitude' longitude' alg' refr' eng' = .ok s')
    (ha : At s times e t φ l) (ha' : At s' times' e' t' φ l') (htt : t ≤ t') (hφ : |φ| < 90)
    (hy : (date (t / 86400000000000)).year = (date (t' / 86400000000000)).year)
    (hD : decError alg + decError alg' < 0.1 * daysBetween t t') :
    ∃ D D', s.daylightLength W = .ok D ∧ s'.daylightLength W' = .ok D' ∧ ∀ v v' : ℝ, D.get e = .fin v → D'.get e' = .fin v' →
      (SunClimbs (date (t / 86400000000000)) → SunClimbs (date (t' / 86400000000000)) → (0 < φ → v < v') ∧ (φ < 0 → v' < v)) ∧
      (SunDescends (date (t / 86400000000000)) → SunDescends (date (t' / 86400000000000)) → (0 < φ → v' < v) ∧ (φ < 0 → v < v')) := by
  obtain ⟨d, d', hd, hd', c1, c2, -⟩ := C91_declination g h h' ha.time ha'.time ha.range ha'.range htt hy
  obtain ⟨x, hx, hb, -⟩ := C17_declination h ha.time ha.range
  obtain ⟨x', hx', hb', -⟩ := C17_declination h' ha'.time ha'.range
  rw [hd] at hx; cases hx
  rw [hd'] at hx'; cases hx'
  have b1 : |d| < 90 := by norm_num at hb; linarith
  have b2 : |d'| < 90 := by norm_num at hb'; linarith
  obtain ⟨D, hD1, -⟩ := daylight_fin W s ha.lat hd hφ b1
  obtain ⟨D', hD2, -⟩ := daylight_fin W' s' ha'.lat hd' hφ b2
  refine ⟨D, D', hD1, hD2, fun v v' hv hv' => ⟨fun p q => ?_, fun p q => ?_⟩⟩
  · obtain ⟨A, B, hA, hB, k⟩ := daylight_lt (w1 := W) (w2 := W') ha.lat ha'.lat hd hd' hφ b1 b2 (by linarith [c1 p q])
    rw [hD1] at hA; rw [hD2] at hB
    cases hA; cases hB
    exact k v v' hv hv'
  · obtain ⟨A, B, hA, hB, k⟩ := daylight_lt (w1 := W') (w2 := W) ha'.lat ha.lat hd' hd hφ b2 b1 (by linarith [c2 p q])
    rw [hD2] at hA; rw [hD1] at hB
    cases hA; cases hB
    exact k v' v hv' hv

/-- C91: every year from 1678 to 2261 has an equinox between 10 and 31 March and one between 10 and 30 September: an instant at which every call that succeeds returns
a declination of zero, and within 60 degrees of the equator a day of 12 hours, up to the error of the algorithm. -/
theorem C91_equinox {date : Int → CivilDate} (g : IsGregorian date) {Y : Int} (hY : 1678 ≤ Y ∧ Y ≤ 2261) {m : Int} (hm : m = 3 ∨ m = 9) :
    ∃ t d : Int, |t| < 2 ^ 63 ∧ date (t / 86400000000000) = ⟨Y, m, d⟩ ∧ 10 ≤ d ∧
      ∀ {uc : UseCase} {w : World XR} {times : Times} {latitude longitude : Coord XR} {alg eng : String} {refr : PyVal} {s : Sunpos XR} {e : Dim → Nat},
        call uc w times latitude longitude alg refr eng = .ok s → stampAt times.stamps (e .time) = some t →
        (∃ x : ℝ, s.decDeg.get e = .fin x ∧ |x| ≤ decError alg + 1e-9) ∧
        ∀ (w' : World XR) (φ : ℝ), s.latitude.get e = .fin φ → |φ| ≤ 60 →
          ∃ (D : DA XR) (v : ℝ), s.daylightLength w' = .ok D ∧ D.get e = .fin v ∧ |v - 12| ≤ 0.24 * (decError alg + 1e-9) := by
  rw [g.unique C36_gregorian]
  obtain ⟨i, hi, rfl⟩ : ∃ i : Nat, (i = 2 ∨ i = 8) ∧ m = 1 + i := by
    rcases hm with rfl | rfl
    · exact ⟨2, .inl rfl, rfl⟩
    · exact ⟨8, .inr rfl, rfl⟩
  obtain ⟨t, d, ht, hd, h10, h0⟩ := ref_equinox_at hY hi
  refine ⟨t, d, ht, hd, h10, fun {uc w times latitude longitude alg eng refr s e} h hk => ?_⟩
  obtain ⟨x, hx, hb⟩ := C54_declination h hk ht
  have hx0 : |x| ≤ decError alg + 1e-9 := by
    apply of_rad
    rw [show rad (decError alg + 1e-9) = rad (decError alg) + rad 1e-9 by unfold rad; ring]
    calc |rad x| = |(rad x - declination (century t)) + declination (century t)| := by rw [sub_add_cancel]
      _ ≤ _ := (abs_add_le _ _).trans (add_le_add hb h0)
  refine ⟨⟨x, hx, hx0⟩, fun w' φ hφ h60 => ?_⟩
  have := Seasons.decError_le alg
  exact daylight_twelve hφ hx h60 hx0 (by norm_num at this ⊢; linarith)

/-- C91: the same instants in floating point. -/
theorem C91_equinox_float {date : Int → CivilDate} (g : IsGregorian date) {Y : Int} (hY : 1678 ≤ Y ∧ Y ≤ 2261) {m : Int} (hm : m = 3 ∨ m = 9) :
    ∃ t d : Int, |t| < 2 ^ 63 ∧ date (t / 86400000000000) = ⟨Y, m, d⟩ ∧ 10 ≤ d ∧
      ∀ {A : Arith} {uc : UseCase} {w : World (Rd A)} {times : Times} {latitude longitude : Coord (Rd A)} {alg eng : String} {refr : PyVal}
        {s : Sunpos (Rd A)} {e : Dim → Nat},
        call uc w times latitude longitude alg refr eng = .ok s → stampAt times.stamps (e .time) = some t →
        ∃ x : ℝ, s.decDeg.get e = Rd.fin x ∧ |x| ≤ decError alg + 5e-8 := by
  rw [g.unique C36_gregorian]
  obtain ⟨i, hi, rfl⟩ : ∃ i : Nat, (i = 2 ∨ i = 8) ∧ m = 1 + i := by
    rcases hm with rfl | rfl
    · exact ⟨2, .inl rfl, rfl⟩
    · exact ⟨8, .inr rfl, rfl⟩
  obtain ⟨t, d, ht, hd, h10, h0⟩ := ref_equinox_at hY hi
  refine ⟨t, d, ht, hd, h10, fun {A uc w times latitude longitude alg eng refr s e} h hk => ?_⟩
  obtain ⟨x, -, -, hx, -, -, hb, -⟩ := C64_time h hk ht
  refine ⟨x, hx, ?_⟩
  apply of_rad
  have hm : rad 1e-9 + rad 4e-8 ≤ rad 5e-8 := by
    unfold rad; have := pi_pos; norm_num; linarith
  have e1 : rad (decError alg + 5e-8) = rad (decError alg) + rad 5e-8 := by unfold rad; ring
  have e2 : rad (decError alg + 4e-8) = rad (decError alg) + rad 4e-8 := by unfold rad; ring
  rw [e1]
  rw [e2] at hb
  calc |rad x| = |(rad x - declination (century t)) + declination (century t)| := by rw [sub_add_cancel]
    _ ≤ _ := (abs_add_le _ _).trans (add_le_add hb h0)
    _ ≤ _ := by linarith

/-! ### the hypotheses are met -/

/-- 1 March and 2 March 2024 at noon: the sun climbs by a fifth of a degree at least, with soltrack -/
example (uc : UseCase) {eng : String} (hk : KnownPair "soltrack" eng) :
    ∃ (s s' : Sunpos XR) (d d' : ℝ),
      call uc exWorld (oneTime 1709294400000000000) (.vec [.fin 40]) (.vec [.fin 10]) "soltrack" .pyTrue eng = .ok s ∧
      call uc exWorld (oneTime 1709380800000000000) (.vec [.fin 40]) (.vec [.fin 10]) "soltrack" .pyTrue eng = .ok s' ∧
      s.decDeg.get (fun _ => 0) = .fin d ∧ s'.decDeg.get (fun _ => 0) = .fin d' ∧ d + 0.2 ≤ d' := by
  have d1 : codeDate (1709294400000000000 / 86400000000000) = ⟨2024, 3, 1⟩ := by decide +kernel
  have d2 : codeDate (1709380800000000000 / 86400000000000) = ⟨2024, 3, 2⟩ := by decide +kernel
  obtain ⟨s1, c1, a1⟩ := single_call uc hk .pyTrue (t := 1709294400000000000) (by norm_num) (φ := 40) (l := 10) (by norm_num) (by norm_num)
  obtain ⟨s2, c2, a2⟩ := single_call uc hk .pyTrue (t := 1709380800000000000) (by norm_num) (φ := 40) (l := 10) (by norm_num) (by norm_num)
  obtain ⟨d, d', hd, hd', -, -, k, -⟩ := C91_declination C36_gregorian (e := fun _ => 0) (e' := fun _ => 0) c1 c2 a1.time a2.time a1.range a2.range
    (by norm_num) (by rw [d1, d2])
  rw [d1, d2] at k
  have k := k (.inl ⟨by norm_num, by norm_num⟩) (.inl ⟨by norm_num, by norm_num⟩)
  refine ⟨s1, s2, d, d', c1, c2, hd, hd', ?_⟩
  have e1 : decError "soltrack" = 0.007 := by
    unfold decError; rw [if_neg (by decide), if_pos rfl]
  have e2 : daysBetween 1709294400000000000 1709380800000000000 = 1 := by unfold daysBetween; norm_num [abs_of_neg, abs_of_pos]
  rw [e1, e2] at k
  norm_num at k ⊢
  linarith

/-- the days of April 2024 are longer than those of January, at 40 degrees north, where both have sunrise and sunset -/
example (uc : UseCase) {alg eng : String} (hk : KnownPair alg eng) :
    ∃ (s s' : Sunpos XR) (D D' : DA XR),
      call uc exWorld (oneTime 1705752000000000000) (.vec [.fin 40]) (.vec [.fin 10]) alg .pyTrue eng = .ok s ∧
      call uc exWorld (oneTime 1713614400000000000) (.vec [.fin 40]) (.vec [.fin 10]) alg .pyTrue eng = .ok s' ∧
      s.daylightLength exWorld = .ok D ∧ s'.daylightLength exWorld = .ok D' ∧
      ∀ v v' : ℝ, D.get (fun _ => 0) = .fin v → D'.get (fun _ => 0) = .fin v' → v < v' := by
  have d1 : codeDate (1705752000000000000 / 86400000000000) = ⟨2024, 1, 20⟩ := by decide +kernel
  have d2 : codeDate (1713614400000000000 / 86400000000000) = ⟨2024, 4, 20⟩ := by decide +kernel
  obtain ⟨s1, c1, a1⟩ := single_call uc hk .pyTrue (t := 1705752000000000000) (by norm_num) (φ := 40) (l := 10) (by norm_num) (by norm_num)
  obtain ⟨s2, c2, a2⟩ := single_call uc hk .pyTrue (t := 1713614400000000000) (by norm_num) (φ := 40) (l := 10) (by norm_num) (by norm_num)
  have he := Seasons.decError_le alg
  obtain ⟨D, D', hD, hD', k⟩ := C91_daylight (W := exWorld) (W' := exWorld) C36_gregorian (e := fun _ => 0) (e' := fun _ => 0) c1 c2 a1 a2
    (by norm_num) (by norm_num) (by rw [d1, d2]) (by unfold daysBetween; norm_num [abs_of_neg, abs_of_pos] at he ⊢; linarith)
  rw [d1, d2] at k
  refine ⟨s1, s2, D, D', c1, c2, hD, hD', fun v v' hv hv' => ?_⟩
  exact ((k v v' hv hv').1 (.inl ⟨rfl, by norm_num⟩) (.inr ⟨by norm_num, by norm_num⟩)).1 (by norm_num)

/-- the equinox of September 2024 and a call at that instant -/
example (uc : UseCase) {alg eng : String} (hk : KnownPair alg eng) :
    ∃ (t d : Int) (s : Sunpos XR) (D : DA XR) (v : ℝ), codeDate (t / 86400000000000) = ⟨2024, 9, d⟩ ∧
      call uc exWorld (oneTime t) (.vec [.fin 40]) (.vec [.fin 10]) alg .pyTrue eng = .ok s ∧
      s.daylightLength exWorld = .ok D ∧ D.get (fun _ => 0) = .fin v ∧ |v - 12| ≤ 0.3 := by
  obtain ⟨t, d, ht, hd, -, k⟩ := C91_equinox C36_gregorian (Y := 2024) (by norm_num) (m := 9) (.inr rfl)
  obtain ⟨s1, c1, a1⟩ := single_call uc hk .pyTrue (t := t) ht (φ := 40) (l := 10) (by norm_num) (by norm_num)
  obtain ⟨-, k⟩ := k (e := fun _ => 0) c1 a1.time
  obtain ⟨D, v, hD, hv, hb⟩ := k exWorld 40 a1.lat (by norm_num)
  have := Seasons.decError_le alg
  exact ⟨t, d, s1, D, v, hd, c1, hD, hv, hb.trans (by norm_num at this ⊢; linarith)⟩

end SW.Props
