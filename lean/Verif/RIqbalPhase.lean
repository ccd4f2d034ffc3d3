/-
The day angle of iqbal against the mean longitude of the sun of the reference ephemeris.
-/
import Verif.Props.Calendar
import Verif.RAccuracy
import Verif.RDistance

namespace SW.Iqbal
open Real SW.Props SW.Ephem

theorem dayAngle_days (t : ℤ) :
    (dayAngle t : ℝ) = 2 * π * (((t : ℝ) / 86400 - (yearStart (year t) : ℝ) + 1) / 365) := by
  have e1 : (dayAngle t : ℝ) = TWOPI * ((doy t : ℝ) + (stdTime t / 24.0)) / 365.0 := rfl
  have : (t : ℝ) = 86400 * ((t / 86400 : ℤ) : ℝ) + ((t % 86400 : ℤ) : ℝ) := by
    exact_mod_cast (Int.mul_ediv_add_emod t 86400).symm
  rw [e1, TWOPI_real, doy_eq, stdTime_eq]
  push_cast
  generalize ((t / 86400 : ℤ) : ℝ) = q at *
  generalize ((t % 86400 : ℤ) : ℝ) = r at *
  rw [this]; norm_num; ring

/-- a day of a year of the range of `datetime64[ns]` -/
theorem year_day (t : ℤ) : 86400 * yearStart (year t) ≤ t ∧ t < 86400 * (yearStart (year t) + 366) := by
  obtain ⟨h1, h2, h3⟩ := yearsDays_spec (t / 86400)
  have hy : year t = (SW.Cal.yearsDays (t / 86400)).1 := rfl
  rw [← hy] at h1 h3
  have h4 : yearLength (year t) ≤ 366 := by unfold yearLength; split_ifs <;> omega
  omega

theorem phase {t : ℤ} (h : InSec t) {T : ℝ} (hT : |T - ((t : ℝ) / 86400 - 10957.5) / 36525| ≤ 3.2e-10) :
    ∃ n : ℤ, |meanLongitude T - ((dayAngle t : ℝ) + 0.1612 - π / 2 + n * (2 * π))| ≤ 0.022 := by
  have h' := abs_le.1 h
  obtain ⟨d1, d2⟩ := year_day t
  obtain ⟨y, hy⟩ : ∃ y, y = year t := ⟨_, rfl⟩
  have ha := dayAngle_days t
  rw [← hy] at ha d1 d2
  obtain ⟨q, hq⟩ : ∃ q, q = (y - 1) / 100 := ⟨_, rfl⟩
  obtain ⟨Y, hY⟩ : ∃ Y, Y = y - 1 := ⟨_, rfl⟩
  obtain ⟨r, hr⟩ : ∃ r, r = (y - 1) / 4 := ⟨_, rfl⟩
  have es : yearStart y = 365 * (Y - 1969) + r - q + q / 4 - 477 := by
    rw [hr, hq, hY]; unfold yearStart; omega
  have hq1 : 16 ≤ q ∧ q ≤ 22 := by omega
  have hr1 : 4 * r ≤ Y ∧ Y - 3 ≤ 4 * r := by omega
  have hq2 : 100 * q ≤ Y ∧ Y ≤ 100 * q + 99 := by omega
  have b1 : 4 * (r : ℝ) ≤ Y ∧ (Y : ℝ) - 3 ≤ 4 * r := by exact_mod_cast hr1
  have b2 : 100 * (q : ℝ) ≤ Y ∧ (Y : ℝ) ≤ 100 * q + 99 := by exact_mod_cast hq2
  have b3 : 86400 * (yearStart y : ℝ) ≤ t ∧ (t : ℝ) < 86400 * (yearStart y + 366) := by exact_mod_cast And.intro d1 d2
  have e2 : (yearStart y : ℝ) = 365 * (Y - 1969) + r - q + ((q / 4 : ℤ) : ℝ) - 477 := by exact_mod_cast es
  refine ⟨Y - 1998, ?_⟩
  have hT := abs_le.1 hT
  obtain ⟨p, hp⟩ : ∃ p : ℝ, p = (280.4608 + 36000.7698 * T) / 360
    - ((t : ℝ) / 86400 - (yearStart y : ℝ) + 1) / 365 + 1 / 4 - (Y - 1998) := ⟨_, rfl⟩
  have hb : 0.02216 ≤ p ∧ p ≤ 0.02915 := by
    rw [hp]
    obtain ⟨S, hS⟩ : ∃ S : ℝ, S = (yearStart y : ℝ) := ⟨_, rfl⟩
    rw [← hS] at e2 b3 ⊢
    clear ha h' hp hS es hq hr hY
    have hq1' := hq1
    obtain ⟨l, u⟩ := hq1
    interval_cases q <;> norm_num at hT b1 b2 b3 e2 ⊢ <;>
      constructor <;> linarith [hT.1, hT.2, b1.1, b1.2, b2.1, b2.2, b3.1, b3.2]
  have e3 : meanLongitude T - ((dayAngle t : ℝ) + 0.1612 - π / 2 + ((Y - 1998 : ℤ) : ℝ) * (2 * π))
      = 2 * π * p - 0.1612 := by
    rw [ha, hp]; unfold meanLongitude deg; push_cast; norm_num; ring
  have p1 := pi_gt_d4
  have p2 := pi_lt_d4
  rw [e3, abs_le]
  have m1 : 2 * 3.1415 * 0.02216 ≤ 2 * π * p := by
    apply mul_le_mul _ hb.1 (by norm_num) (by positivity); linarith
  have m2 : 2 * π * p ≤ 2 * 3.1416 * 0.02915 := by
    apply mul_le_mul _ hb.2 (le_trans (by norm_num) hb.1) (by norm_num); linarith
  norm_num at m1 m2 ⊢
  constructor <;> linarith

end SW.Iqbal
