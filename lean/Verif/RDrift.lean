/-
How fast the sun of the reference ephemeris moves: its declination and its equation of time at two instants.
-/
import Verif.RAccuracy

namespace SW.Ephem
open Real

/-- the elements at one instant against those at another -/
theorem drift_near {T1 T2 : ℝ} (h1 : |T1| ≤ 3.24) (h2 : |T2| ≤ 3.24) :
    Near T2 (meanLongitude T1) (longitude T1) (obliquity T1) (650.1 * |T1 - T2|) (2.3e-4 * |T1 - T2|)
      (21.7 * |T1 - T2|) := by
  have p := pi_lt_d6
  have lin : ∀ {a b : ℝ}, 0 ≤ a → a * 3.141593 ≤ b * 180 → ∀ y : ℝ, |(a * (π / 180)) * y| ≤ b * |y| := by
    intro a b ha hab y
    rw [abs_mul, abs_of_nonneg (by positivity)]
    refine mul_le_mul_of_nonneg_right ?_ (abs_nonneg _)
    rw [← mul_div_assoc, div_le_iff₀ (by norm_num)]
    refine le_trans (mul_le_mul_of_nonneg_left p.le ha) ?_
    norm_num at hab ⊢; linarith
  have dA : |2 * eccentricity T1 - 2 * eccentricity T2| ≤ 8.4e-5 * |T1 - T2| := by
    have : 2 * eccentricity T1 - 2 * eccentricity T2 = -8.4e-5 * (T1 - T2) := by unfold eccentricity; norm_num; ring
    rw [this, abs_mul]
    refine mul_le_mul_of_nonneg_right ?_ (abs_nonneg _)
    rw [abs_le]; norm_num
  have dB : |5 / 4 * eccentricity T1 ^ 2 - 5 / 4 * eccentricity T2 ^ 2| ≤ 1.8e-6 * |T1 - T2| := by
    have e1 := ecc_bound h1
    have e2 := ecc_bound h2
    have : 5 / 4 * eccentricity T1 ^ 2 - 5 / 4 * eccentricity T2 ^ 2
        = (5 / 8 * (eccentricity T1 + eccentricity T2)) * (2 * eccentricity T1 - 2 * eccentricity T2) := by ring
    rw [this]
    have b : |5 / 8 * (eccentricity T1 + eccentricity T2)| ≤ 0.02107 := by
      rw [abs_le]; norm_num at e1 e2 ⊢; constructor <;> linarith [e1.1, e1.2, e2.1, e2.2]
    refine (Nrel.abs_mul_le' b dA).trans ?_
    have := abs_nonneg (T1 - T2)
    norm_num; linarith
  have dg : |meanAnomaly T1 - meanAnomaly T2| ≤ 628.303 * |T1 - T2| := by
    have : meanAnomaly T1 - meanAnomaly T2 = (35999.0503 * (π / 180)) * (T1 - T2) := by
      unfold meanAnomaly deg; ring
    rw [this]
    exact lin (by norm_num) (by norm_num) _
  have hL : |meanLongitude T1 - meanLongitude T2| ≤ 628.333 * |T1 - T2| := by
    have : meanLongitude T1 - meanLongitude T2 = (36000.7698 * (π / 180)) * (T1 - T2) := by
      unfold meanLongitude deg; ring
    rw [this]
    exact lin (by norm_num) (by norm_num) _
  have hc : |center T1 - center T2| ≤ 21.7 * |T1 - T2| := by
    have := center_cmp h2 dA dB dg
    have e : center T1 = 2 * eccentricity T1 * sin (meanAnomaly T1)
      + 5 / 4 * eccentricity T1 ^ 2 * sin (2 * meanAnomaly T1) := rfl
    rw [← e] at this
    refine this.trans ?_
    have := abs_nonneg (T1 - T2)
    norm_num; linarith
  refine ⟨h2, ?_, ?_, ?_⟩
  · have : longitude T1 - longitude T2 = (meanLongitude T1 - meanLongitude T2) + (center T1 - center T2) := by
      unfold longitude; ring
    rw [this]
    refine (abs_add_le _ _).trans ((add_le_add hL hc).trans ?_)
    have := abs_nonneg (T1 - T2)
    norm_num; linarith
  · have : obliquity T1 - obliquity T2 = -((0.0130 * (π / 180)) * (T1 - T2)) := by
      unfold obliquity deg; ring
    rw [this, abs_neg]
    exact lin (by norm_num) (by norm_num) _
  · have : longitude T1 - meanLongitude T1 - (longitude T2 - meanLongitude T2) = center T1 - center T2 := by
      unfold longitude; ring
    rw [this]; exact hc

/-- the declination at two instants -/
theorem drift_dec {T1 T2 : ℝ} (h1 : |T1| ≤ 3.24) (h2 : |T2| ≤ 3.24) :
    |declination T1 - declination T2| ≤ 288.7 * |T1 - T2| := by
  have N := drift_near h1 h2
  have hp := pi_gt_d2
  obtain ⟨o1, o2⟩ := obliquity_bound h1
  have ha : |arcsin (sin (obliquity T1) * sin (longitude T1))| ≤ 0.4154 := by
    refine (Psa.arcsin_bound ⟨?_, ?_⟩).trans ?_ <;> norm_num at o1 o2 hp ⊢ <;> linarith
  have hb1 : |sin (obliquity T1) * sin (longitude T1)| ≤ 1 := by
    rw [abs_mul]; exact mul_le_one₀ (abs_sin_le_one _) (abs_nonneg _) (abs_sin_le_one _)
  refine (dec_cmp N (τ := 0) (by rw [sub_self, abs_zero]) hb1 ha).trans ?_
  have := abs_nonneg (T1 - T2)
  rw [div_le_iff₀ (by norm_num)]
  norm_num; linarith

/-- the equation of time (as an angle) at two instants -/
theorem drift_eot {T1 T2 : ℝ} (h1 : |T1| ≤ 3.24) (h2 : |T2| ≤ 3.24) :
    ∃ k : ℤ, |(meanLongitude T1 - rightAscension T1) - (meanLongitude T2 - rightAscension T2) - k * (2 * π)|
      ≤ 90 * |T1 - T2| := by
  have N := drift_near h1 h2
  obtain ⟨o1, o2⟩ := obliquity_bound h1
  obtain ⟨k, hk⟩ := eot_cmp N (τ := 0) ⟨o1, o2.trans (by norm_num)⟩ (by rw [abs_zero]; norm_num)
  have e : ratan2 (sin (longitude T1) * cos (obliquity T1) - 0) (cos (longitude T1)) = rightAscension T1 := by
    rw [sub_zero, mul_comm]; rfl
  rw [e, abs_zero] at hk
  refine ⟨k, hk.trans ?_⟩
  have := abs_nonneg (T1 - T2)
  norm_num; linarith

end SW.Ephem
