/-
C99: perihelion and aphelion. Every year has an instant at which the sun is nearest and one at which it is farthest, the same for all algorithms up to their errors; how fast
the correction factor falls or rises away from it; the irradiance above the atmosphere.
-/
import Verif.Props.Solstice

namespace SW.Props
open SW SW.Spec SW.Ephem SW.Cal Real

/-! ### specification -/

/-- the turn from the year before to the year `Y`: from 23 December to 12 January -/
def TurnOfYear (Y : Int) (c : CivilDate) : Prop := (c.year = Y - 1 ∧ c.month = 12 ∧ 23 ≤ c.day) ∨ (c.year = Y ∧ c.month = 1 ∧ c.day ≤ 12)
/-- the middle of the year `Y`: from 24 June to 14 July -/
def MiddleOfYear (Y : Int) (c : CivilDate) : Prop := c.year = Y ∧ ((c.month = 6 ∧ 24 ≤ c.day) ∨ (c.month = 7 ∧ c.day ≤ 14))

namespace Apsides

/-- the true anomaly: the angle between the sun and its place at perihelion -/
noncomputable def trueAnomaly (T : ℝ) : ℝ := meanAnomaly T + center T

theorem continuous_anomaly : Continuous trueAnomaly := by
  unfold trueAnomaly center eccentricity meanAnomaly Ephem.deg
  fun_prop

/-- how far the sun advances on its orbit -/
theorem anomaly_advance {T1 T2 : ℝ} (h1 : |T1| ≤ 3.24) (h2 : |T2| ≤ 3.24) :
    606.6 * |T2 - T1| ≤ |trueAnomaly T2 - trueAnomaly T1| ∧ |trueAnomaly T2 - trueAnomaly T1| ≤ 650.1 * |T2 - T1| := by
  have N := (drift_near h2 h1).4
  rw [show longitude T2 - meanLongitude T2 - (longitude T1 - meanLongitude T1) = center T2 - center T1 by unfold longitude; ring] at N
  have p1 := pi_gt_d6
  have p2 := pi_lt_d6
  have e : meanAnomaly T2 - meanAnomaly T1 = (35999.0503 * (π / 180)) * (T2 - T1) := by unfold meanAnomaly Ephem.deg; ring
  have hm : |meanAnomaly T2 - meanAnomaly T1| = (35999.0503 * (π / 180)) * |T2 - T1| := by
    rw [e, abs_mul, abs_of_pos (show 0 < 35999.0503 * (π / 180) by have := pi_pos; positivity)]
  have b1 : 628.301 * |T2 - T1| ≤ (35999.0503 * (π / 180)) * |T2 - T1| :=
    mul_le_mul_of_nonneg_right (by norm_num at p1 ⊢; linarith) (abs_nonneg _)
  have b2 : (35999.0503 * (π / 180)) * |T2 - T1| ≤ 628.4 * |T2 - T1| :=
    mul_le_mul_of_nonneg_right (by norm_num at p2 ⊢; linarith) (abs_nonneg _)
  rw [← hm] at b1 b2
  have e2 : trueAnomaly T2 - trueAnomaly T1 = (meanAnomaly T2 - meanAnomaly T1) + (center T2 - center T1) := by unfold trueAnomaly; ring
  have u := abs_add_le (meanAnomaly T2 - meanAnomaly T1) (center T2 - center T1)
  have l := abs_sub_abs_le_abs_sub (meanAnomaly T2 - meanAnomaly T1) (-(center T2 - center T1))
  rw [abs_neg, sub_neg_eq_add] at l
  rw [e2]
  have := abs_nonneg (T2 - T1)
  norm_num at N b1 b2 ⊢
  constructor <;> linarith

/-- the inverse distance -/
noncomputable def near (T : ℝ) : ℝ := (1 + eccentricity T * cos (trueAnomaly T)) / (1 - eccentricity T ^ 2)

theorem inv_dist (T : ℝ) : 1 / distance T ^ 2 = near T ^ 2 := by
  unfold distance near trueAnomaly; rw [div_pow, div_pow, one_div_div]

theorem ecc_sq {T : ℝ} (h : |T| ≤ 3.24) : 0.99971 ≤ 1 - eccentricity T ^ 2 ∧ 1 - eccentricity T ^ 2 ≤ 1 := by
  have he := ecc_bound h
  have := pow_le_pow_left₀ (by norm_num at he ⊢; linarith) he.2 2
  norm_num at this ⊢; constructor
  · linarith
  · positivity

theorem near_bound {T : ℝ} (h : |T| ≤ 3.24) : 0.983 ≤ near T ∧ near T ≤ 1.0175 := by
  obtain ⟨e1, e2⟩ := ecc_bound h
  obtain ⟨q1, q2⟩ := ecc_sq h
  have c1 := neg_one_le_cos (trueAnomaly T)
  have c2 := cos_le_one (trueAnomaly T)
  unfold near
  generalize cos (trueAnomaly T) = c at *
  have hp : 0 < 1 - eccentricity T ^ 2 := lt_of_lt_of_le (by norm_num) q1
  have h0 : 0 ≤ eccentricity T := by norm_num at e1 ⊢; linarith
  have k1 := mul_le_mul_of_nonneg_left c1 h0
  have k2 := mul_le_mul_of_nonneg_left c2 h0
  rw [le_div_iff₀ hp, div_le_iff₀ hp]
  norm_num at e1 e2 q1 q2 k1 k2 ⊢
  constructor <;> linarith

/-- the inverse distance at the apsis -/
noncomputable def extreme (σ T : ℝ) : ℝ := (1 + σ * eccentricity T) / (1 - eccentricity T ^ 2)

theorem extreme_eq {σ T : ℝ} (hσ : σ = 1 ∨ σ = -1) (h : |T| ≤ 3.24) : extreme σ T = 1 / (1 - σ * eccentricity T) := by
  obtain ⟨q1, q2⟩ := ecc_sq h
  obtain ⟨e1, e2⟩ := ecc_bound h
  have hp : 1 - eccentricity T ^ 2 ≠ 0 := by norm_num at q1 ⊢; intro hc; linarith
  unfold extreme
  have h1 : 1 - σ * eccentricity T ≠ 0 := by
    norm_num at e1 e2
    rcases hσ with rfl | rfl <;> intro hc <;> linarith
  rw [div_eq_div_iff hp h1]
  rcases hσ with rfl | rfl <;> ring

/-- it drifts with the eccentricity only -/
theorem extreme_drift {σ T1 T2 n : ℝ} (hσ : σ = 1 ∨ σ = -1) (h1 : |T1| ≤ 3.24) (h2 : |T2| ≤ 3.24) (hn : |T2 - T1| = n / 36525) :
    |extreme σ T1 - extreme σ T2| ≤ 1.3e-9 * n := by
  have a1 := ecc_bound h1
  have a2 := ecc_bound h2
  rw [extreme_eq hσ h1, extreme_eq hσ h2]
  have p : ∀ {T : ℝ}, 0.01657 ≤ eccentricity T ∧ eccentricity T ≤ 0.01685 → 0.983 ≤ 1 - σ * eccentricity T := by
    intro T h
    norm_num at h ⊢
    rcases hσ with rfl | rfl <;> linarith [h.1, h.2]
  have b1 := p a1
  have b2 := p a2
  have hd : (1 - σ * eccentricity T2) - (1 - σ * eccentricity T1) = (σ * 4.2e-5) * (T2 - T1) := by unfold eccentricity; norm_num; ring
  have n0 : 0 ≤ n / 36525 := hn ▸ abs_nonneg _
  have hd' : |(1 - σ * eccentricity T2) - (1 - σ * eccentricity T1)| = 4.2e-5 * (n / 36525) := by
    rw [hd, abs_mul, abs_mul, hn]
    rcases hσ with rfl | rfl <;> norm_num
  generalize 1 - σ * eccentricity T1 = u at *
  generalize 1 - σ * eccentricity T2 = v at *
  have u0 : 0 < u := lt_of_lt_of_le (by norm_num) b1
  have v0 : 0 < v := lt_of_lt_of_le (by norm_num) b2
  rw [div_sub_div _ _ u0.ne' v0.ne', one_mul, mul_one, abs_div, hd', abs_of_pos (mul_pos u0 v0), div_le_iff₀ (mul_pos u0 v0)]
  have : 0.966 ≤ u * v := le_trans (by norm_num) (mul_le_mul b1 b2 (by norm_num) u0.le)
  have hn0 : 0 ≤ n := by linarith
  have := mul_le_mul_of_nonneg_left this (show 0 ≤ 1.3e-9 * n by positivity)
  norm_num at this ⊢
  linarith

/-- how far the inverse distance is from the extreme -/
theorem extreme_gap {σ S T : ℝ} (hS : ∀ z, cos z = σ * cos (z - S)) (hσ : σ = 1 ∨ σ = -1) (h : |T| ≤ 3.24) :
    0.01657 * (1 - cos (trueAnomaly T - S)) ≤ σ * (extreme σ T - near T) ∧ σ * (extreme σ T - near T) ≤ 0.01686 * (1 - cos (trueAnomaly T - S)) := by
  obtain ⟨e1, e2⟩ := ecc_bound h
  obtain ⟨q1, q2⟩ := ecc_sq h
  have hp : 0 < 1 - eccentricity T ^ 2 := lt_of_lt_of_le (by norm_num) q1
  have e : σ * (extreme σ T - near T) = eccentricity T * (1 - cos (trueAnomaly T - S)) / (1 - eccentricity T ^ 2) := by
    unfold extreme near
    rw [hS (trueAnomaly T)]
    rcases hσ with rfl | rfl <;> ring
  have c := cos_le_one (trueAnomaly T - S)
  have c : 0 ≤ 1 - cos (trueAnomaly T - S) := by linarith
  rw [e]
  generalize 1 - cos (trueAnomaly T - S) = w at *
  have k1 := mul_le_mul_of_nonneg_right e1 c
  have k2 := mul_le_mul_of_nonneg_right e2 c
  rw [le_div_iff₀ hp, div_le_iff₀ hp]
  constructor
  · have := mul_le_mul_of_nonneg_left q2 (show 0 ≤ 0.01657 * w by positivity)
    linarith
  · have := mul_le_mul_of_nonneg_left q1 (show 0 ≤ 0.01686 * w by positivity)
    norm_num at this k2 ⊢
    linarith

/-- the cosine below a parabola, on most of the turn between two apsides -/
theorem cos_below {x y : ℝ} (hy : 0 ≤ y) (hy1 : y ≤ 0.826) (hx : y ≤ |x|) (hx1 : |x| ≤ 5.45) : cos x ≤ 1 - 0.4644 * y ^ 2 := by
  have p1 := pi_gt_d6
  have c0 : cos y ≤ 1 - 0.4644 * y ^ 2 := by
    have := (abs_le.1 (cos_bound (x := y) (by rw [abs_of_nonneg hy]; norm_num at hy1 ⊢; linarith))).2
    rw [abs_of_nonneg hy] at this
    have h4 : y ^ 4 ≤ 0.6823 * y ^ 2 := by
      rw [show y ^ 4 = y ^ 2 * y ^ 2 by ring]
      refine mul_le_mul_of_nonneg_right ?_ (sq_nonneg _)
      exact (pow_le_pow_left₀ hy hy1 2).trans (by norm_num)
    norm_num at this h4 ⊢; linarith [sq_nonneg y]
  refine le_trans ?_ c0
  rw [← cos_abs x]
  rcases le_total |x| π with h | h
  · exact cos_le_cos_of_nonneg_of_le_pi hy h hx
  · rw [← cos_two_pi_sub]
    exact cos_le_cos_of_nonneg_of_le_pi hy (by linarith) (by norm_num at p1 hx1 hy1 ⊢; linarith)

/-- the distance at an apsis -/
theorem apsis_value {T1 S σ : ℝ} (hσ : σ = 1 ∨ σ = -1) (h1 : |T1| ≤ 3.24) (hS : ∀ z, cos z = σ * cos (z - S)) (hx : |trueAnomaly T1 - S| ≤ 1e-9) :
    |near T1 ^ 2 - (1.00085 + σ * 0.03345)| ≤ 0.0004 := by
  obtain ⟨g1, g1'⟩ := extreme_gap hS hσ h1
  have k1 := one_sub_sq_div_two_le_cos (x := trueAnomaly T1 - S)
  have q1 : (trueAnomaly T1 - S) ^ 2 ≤ 1e-18 := by
    rw [← sq_abs]; exact (pow_le_pow_left₀ (abs_nonneg _) hx 2).trans (by norm_num)
  have c1 := cos_le_one (trueAnomaly T1 - S)
  clear hx
  obtain ⟨e1, e2⟩ := ecc_bound h1
  have hx := extreme_eq hσ h1
  have b : |extreme σ T1 - (1.00029 + σ * 0.01671)| ≤ 0.00016 := by
    rw [hx]
    rcases hσ with rfl | rfl
    · have u0 : 0 < 1 - 1 * eccentricity T1 := by norm_num at e2 ⊢; linarith
      rw [abs_le, le_sub_iff_add_le, sub_le_iff_le_add, le_div_iff₀ u0, div_le_iff₀ u0]
      norm_num at e1 e2 ⊢; constructor <;> linarith
    · have u0 : 0 < 1 - -1 * eccentricity T1 := by norm_num at e1 ⊢; linarith
      rw [abs_le, le_sub_iff_add_le, sub_le_iff_le_add, le_div_iff₀ u0, div_le_iff₀ u0]
      norm_num at e1 e2 ⊢; constructor <;> linarith
  have b2 : |extreme σ T1 - near T1| ≤ 1e-19 := by
    have : |σ * (extreme σ T1 - near T1)| ≤ 1e-19 := by
      rw [abs_le]; norm_num at g1 g1' k1 q1 c1 ⊢; constructor <;> linarith
    rw [abs_mul] at this
    rcases hσ with rfl | rfl <;> simpa using this
  have b := abs_le.1 b
  have b2 := abs_le.1 b2
  rw [abs_le]
  generalize near T1 = q at *
  have sq : ∀ lo hi : ℝ, 0 ≤ lo → lo ≤ q → q ≤ hi → lo ^ 2 ≤ q ^ 2 ∧ q ^ 2 ≤ hi ^ 2 := fun lo hi h0 h1 h2 =>
    ⟨pow_le_pow_left₀ h0 h1 2, pow_le_pow_left₀ (h0.trans h1) h2 2⟩
  rcases hσ with rfl | rfl
  · have := sq 1.01683 1.01718 (by norm_num) (by norm_num at b b2 ⊢; linarith) (by norm_num at b b2 ⊢; linarith)
    norm_num at this ⊢; constructor <;> linarith
  · have := sq 0.9834 0.98375 (by norm_num) (by norm_num at b b2 ⊢; linarith) (by norm_num at b b2 ⊢; linarith)
    norm_num at this ⊢; constructor <;> linarith


/-- the reference distance around an instant at an apsis -/
theorem ref_apsis {T1 T2 S σ n : ℝ} (h1 : |T1| ≤ 3.24) (h2 : |T2| ≤ 3.24) (hn : |T2 - T1| = n / 36525) (hσ : σ = 1 ∨ σ = -1)
    (hS : ∀ z, cos z = σ * cos (z - S)) (hx : |trueAnomaly T1 - S| ≤ 1e-9) :
    σ * (1 / distance T2 ^ 2) ≤ σ * (1 / distance T1 ^ 2) + (3e-9 * n + 1e-12) ∧
    σ * (1 / distance T1 ^ 2) ≤ σ * (1 / distance T2 ^ 2) + (6e-6 * n ^ 2 + 3e-9 * n + 1e-12) ∧
    (n ≤ 300 → σ * (1 / distance T2 ^ 2) + 4e-6 * min n 50 ^ 2 ≤ σ * (1 / distance T1 ^ 2) + (3e-9 * n + 1e-12)) ∧
    |1 / distance T1 ^ 2 - (1.00085 + σ * 0.03345)| ≤ 0.0004 := by
  have n0 : 0 ≤ n := by
    have := abs_nonneg (T2 - T1)
    rw [hn] at this
    by_contra hc
    have := div_neg_of_neg_of_pos (not_le.1 hc) (show (0 : ℝ) < 36525 by norm_num)
    linarith
  obtain ⟨l1, l2⟩ := anomaly_advance h1 h2
  rw [hn] at l1 l2
  obtain ⟨g1, g1'⟩ := extreme_gap hS hσ h1
  obtain ⟨g2, g2'⟩ := extreme_gap hS hσ h2
  obtain ⟨w1, w1'⟩ := near_bound h1
  obtain ⟨w2, w2'⟩ := near_bound h2
  have dr := extreme_drift hσ h1 h2 hn
  have dr := abs_le.1 (show |σ * (extreme σ T1 - extreme σ T2)| ≤ 1.3e-9 * n by
    rw [abs_mul]; rcases hσ with rfl | rfl <;> simpa using dr)
  have k1 := one_sub_sq_div_two_le_cos (x := trueAnomaly T1 - S)
  have k2 := one_sub_sq_div_two_le_cos (x := trueAnomaly T2 - S)
  have q1 : (trueAnomaly T1 - S) ^ 2 ≤ 1e-18 := by
    rw [← sq_abs]; exact (pow_le_pow_left₀ (abs_nonneg _) hx 2).trans (by norm_num)
  have c1 := cos_le_one (trueAnomaly T1 - S)
  have c2 := cos_le_one (trueAnomaly T2 - S)
  have xu : |trueAnomaly T2 - S| ≤ 650.1 * (n / 36525) + 1e-9 := by
    rw [show trueAnomaly T2 - S = (trueAnomaly T2 - trueAnomaly T1) + (trueAnomaly T1 - S) by ring]
    exact (abs_add_le _ _).trans (add_le_add l2 hx)
  have xl : 606.6 * (n / 36525) - 1e-9 ≤ |trueAnomaly T2 - S| := by
    have := abs_sub_abs_le_abs_sub (trueAnomaly T2 - trueAnomaly T1) (S - trueAnomaly T1)
    rw [show trueAnomaly T2 - trueAnomaly T1 - (S - trueAnomaly T1) = trueAnomaly T2 - S by ring, abs_sub_comm S] at this
    linarith
  have q2 : (trueAnomaly T2 - S) ^ 2 ≤ (650.1 * (n / 36525) + 1e-9) ^ 2 := by
    rw [← sq_abs]; exact pow_le_pow_left₀ (abs_nonneg _) xu 2
  have hn2 : 0 ≤ n ^ 2 := sq_nonneg _
  rw [inv_dist, inv_dist]
  have low : ∀ B : ℝ, 0 ≤ B → -B ≤ σ * (near T1 - near T2) → σ * near T2 ^ 2 ≤ σ * near T1 ^ 2 + 2.035 * B := by
    intro B hB h
    have s1 := mul_nonneg (show 0 ≤ σ * (near T1 - near T2) + B by linarith) (show 0 ≤ near T1 + near T2 by norm_num at w1 w2 ⊢; linarith)
    have s2 := mul_le_mul_of_nonneg_left (show near T1 + near T2 ≤ 2.035 by norm_num at w1' w2' ⊢; linarith) hB
    linarith
  have up : ∀ A B : ℝ, 0 ≤ A → 0 ≤ B → A - B ≤ σ * (near T1 - near T2) → σ * near T2 ^ 2 + 1.966 * A ≤ σ * near T1 ^ 2 + 2.035 * B := by
    intro A B hA hB h
    have s1 := mul_nonneg (show 0 ≤ σ * (near T1 - near T2) - A + B by linarith) (show 0 ≤ near T1 + near T2 by norm_num at w1 w2 ⊢; linarith)
    have s2 := mul_le_mul_of_nonneg_left (show near T1 + near T2 ≤ 2.035 by norm_num at w1' w2' ⊢; linarith) hB
    have s3 := mul_le_mul_of_nonneg_left (show 1.966 ≤ near T1 + near T2 by norm_num at w1 w2 ⊢; linarith) hA
    linarith
  have top : ∀ B : ℝ, 0 ≤ B → σ * (near T1 - near T2) ≤ B → σ * near T1 ^ 2 ≤ σ * near T2 ^ 2 + 2.035 * B := by
    intro B hB h
    have s1 := mul_nonneg (show 0 ≤ B - σ * (near T1 - near T2) by linarith) (show 0 ≤ near T1 + near T2 by norm_num at w1 w2 ⊢; linarith)
    have s2 := mul_le_mul_of_nonneg_left (show near T1 + near T2 ≤ 2.035 by norm_num at w1' w2' ⊢; linarith) hB
    linarith
  have ha : σ * near T2 ^ 2 ≤ σ * near T1 ^ 2 + 2.035 * (1.3e-9 * n + 1e-19) :=
    low _ (by positivity) (by norm_num at g1' g2 dr k1 q1 c2 ⊢; linarith)
  refine ⟨?_, ?_, fun hn300 => ?_, ?_⟩
  · norm_num at ha ⊢; linarith
  · have := top (1.3e-9 * n + 0.00843 * (650.1 * (n / 36525) + 1e-9) ^ 2) (by positivity) (by norm_num at g1 g2' dr k2 q2 c1 ⊢; linarith)
    norm_num at this ⊢; linarith
  · have m0 : 0 ≤ min n 50 := le_min n0 (by norm_num)
    have m1 : min n 50 ≤ n := min_le_left _ _
    have m2 : min n 50 ≤ 50 := min_le_right _ _
    generalize min n 50 = m at *
    rcases le_total m 1e-5 with hm | hm
    · have : m ^ 2 ≤ 1e-5 * n := by
        rw [sq]; exact mul_le_mul hm m1 m0 (by norm_num)
      norm_num at ha this ⊢; linarith
    · have c := cos_below (x := trueAnomaly T2 - S) (y := 0.0165 * m) (by positivity) (by norm_num; linarith)
        (le_trans (by norm_num at hm ⊢; linarith) xl) (xu.trans (by norm_num at hn300 ⊢; linarith))
      have := up (0.01657 * (0.4644 * (0.0165 * m) ^ 2)) (1.3e-9 * n + 1e-19) (by positivity) (by positivity) (by
        norm_num at g1' g2 dr k1 q1 c ⊢; linarith)
      have hm2 : 0 ≤ m ^ 2 := sq_nonneg _
      norm_num at this ⊢; linarith
  · exact apsis_value hσ h1 hS hx

/-- the instant of the reference, from the days between which it lies -/
theorem passage_at {n1 n2 : Int} {S : ℝ} (b1 : -106751 < n1) (b2 : n2 < 106751) (h12 : n1 < n2)
    (h1 : trueAnomaly (century (n1 * 86400000000000)) < S) (h2 : S < trueAnomaly (century (n2 * 86400000000000))) :
    ∃ t : Int, |t| < 2 ^ 63 ∧ n1 ≤ t / 86400000000000 ∧ t / 86400000000000 < n2 ∧ |trueAnomaly (century t) - S| ≤ 1e-9 := by
  obtain ⟨t, t1, t2, ht, hd⟩ := Solstice.ref_passage continuous_anomaly (fun a b => (anomaly_advance b a).2) (by rw [abs_lt]; omega) (by rw [abs_lt]; omega) (by omega) h1 h2
  exact ⟨t, ht, by omega, by omega, hd⟩

/-- the perihelion of the reference -/
theorem ref_perihelion_at {Y : Int} (hY : 1679 ≤ Y ∧ Y ≤ 2261) :
    ∃ (t : Int) (S : ℝ), |t| < 2 ^ 63 ∧ TurnOfYear Y (codeDate (t / 86400000000000)) ∧
      (∀ z, cos z = 1 * cos (z - S)) ∧ |trueAnomaly (century t) - S| ≤ 1e-9 := by
  have p1 := pi_gt_d6
  have p2 := pi_lt_d6
  have y1 := yearStart_mono (show 1678 ≤ Y - 1 by omega)
  have y2 := yearStart_mono hY.2
  rw [show yearStart 1678 = -106650 by decide] at y1
  rw [show yearStart 2261 = 106286 by decide] at y2
  have ys := yearStart_succ (Y - 1)
  rw [show Y - 1 + 1 = Y by ring] at ys
  have yl : yearLength (Y - 1) = before (isLeap (Y - 1)) 12 := by rw [yearLength_eq, before_12]
  have yl' : yearLength (Y - 1) = before (isLeap (Y - 1)) 11 + 31 := by rw [yl, before_succ _ (by omega)]; rfl
  have bb : 334 ≤ before (isLeap (Y - 1)) 11 ∧ before (isLeap (Y - 1)) 11 ≤ 335 := by cases isLeap (Y - 1) <;> decide
  obtain ⟨m1, h1⟩ : ∃ n1, n1 = yearStart (Y - 1) + (before (isLeap (Y - 1)) 11 + 22) := ⟨_, rfl⟩
  have r1 : |m1 * 86400000000000| < 2 ^ 63 := by rw [abs_lt]; omega
  have r2 : |(yearStart Y + 12) * 86400000000000| < 2 ^ 63 := by rw [abs_lt]; omega
  have w1 := (Year.anomaly_window (Y := Y - 1) (k := before (isLeap (Y - 1)) 11 + 22) r1 (by omega) (by omega) (by omega)).2
  have w2 := (Year.anomaly_window (Y := Y) (k := 12) r2 (by omega) (by omega) (by omega)).1
  have c1 := (abs_le.1 (Seasons.center_bound (century_bound r1))).2
  have c2 := (abs_le.1 (Seasons.center_bound (century_bound r2))).1
  have hk : ((before (isLeap (Y - 1)) 11 + 22 : ℤ) : ℝ) ≤ 357 := by exact_mod_cast (by omega)
  have u1 := rad_mono (show 5.43 + 0.98565 * ((before (isLeap (Y - 1)) 11 + 22 : ℤ) : ℝ) ≤ 357.32 by norm_num at hk ⊢; linarith)
  have u2 : rad 357.32 + 0.0342 < 2 * π := by unfold rad; norm_num at p1 ⊢; linarith
  have u3 : 0.0342 < rad (-9.63 + 0.98564 * ((12 : ℤ) : ℝ)) := by unfold rad; norm_num at p1 ⊢; linarith
  obtain ⟨t, ht, t1, t2, hd⟩ := passage_at (n1 := m1) (n2 := yearStart Y + 12) (S := ((Y - 1999 : ℤ) : ℝ) * (2 * π)) (by omega) (by omega) (by omega)
    (by unfold trueAnomaly; push_cast at w1 ⊢; norm_num at c1 u2 ⊢; push_cast at u1; linarith)
    (by unfold trueAnomaly; norm_num at c2 u3 w2 ⊢; linarith)
  refine ⟨t, _, ht, ?_, fun z => by rw [cos_sub_int_mul_two_pi, one_mul], hd⟩
  rcases lt_or_ge (t / 86400000000000) (yearStart Y) with hl | hl
  · left
    have k : t / 86400000000000 = yearStart (Y - 1) + (before (isLeap (Y - 1)) 11 + (t / 86400000000000 - m1 + 23) - 1) := by omega
    rw [(congrArg codeDate k).trans (Equinox.codeDate_md (by omega) ⟨by omega, by rw [show mlen (isLeap (Y - 1)) (1 + ((11 : ℕ) : ℤ)) = 31 from rfl]; omega⟩)]
    exact ⟨rfl, rfl, by show 23 ≤ t / 86400000000000 - m1 + 23; omega⟩
  · right
    have k : t / 86400000000000 = yearStart Y + (before (isLeap Y) 0 + (t / 86400000000000 - yearStart Y + 1) - 1) := by rw [before_0]; omega
    rw [(congrArg codeDate k).trans (Equinox.codeDate_md (by omega) ⟨by omega, by rw [show mlen (isLeap Y) (1 + ((0 : ℕ) : ℤ)) = 31 from rfl]; omega⟩)]
    exact ⟨rfl, rfl, by show t / 86400000000000 - yearStart Y + 1 ≤ 12; omega⟩

/-- the aphelion of the reference -/
theorem ref_aphelion_at {Y : Int} (hY : 1679 ≤ Y ∧ Y ≤ 2261) :
    ∃ (t : Int) (S : ℝ), |t| < 2 ^ 63 ∧ MiddleOfYear Y (codeDate (t / 86400000000000)) ∧
      (∀ z, cos z = -1 * cos (z - S)) ∧ |trueAnomaly (century t) - S| ≤ 1e-9 := by
  have p1 := pi_gt_d6
  have p2 := pi_lt_d6
  have y1 := yearStart_mono hY.1
  have y2 := yearStart_mono hY.2
  rw [show yearStart 1679 = -106285 by decide] at y1
  rw [show yearStart 2261 = 106286 by decide] at y2
  have bb : 151 ≤ before (isLeap Y) 5 ∧ before (isLeap Y) 5 ≤ 152 := by cases isLeap Y <;> decide
  have bs : before (isLeap Y) 6 = before (isLeap Y) 5 + 30 := before_succ _ (by omega)
  obtain ⟨m1, h1⟩ : ∃ n1, n1 = yearStart Y + (before (isLeap Y) 5 + 23) := ⟨_, rfl⟩
  obtain ⟨m2, h2⟩ : ∃ n2, n2 = yearStart Y + (before (isLeap Y) 6 + 14) := ⟨_, rfl⟩
  have r1 : |m1 * 86400000000000| < 2 ^ 63 := by rw [abs_lt]; omega
  have r2 : |m2 * 86400000000000| < 2 ^ 63 := by rw [abs_lt]; omega
  have w1 := (Year.anomaly_window (Y := Y) (k := before (isLeap Y) 5 + 23) r1 (by omega) (by omega) (by omega)).2
  have w2 := (Year.anomaly_window (Y := Y) (k := before (isLeap Y) 6 + 14) r2 (by omega) (by omega) (by omega)).1
  have c1 := (abs_le.1 (Seasons.center_bound (century_bound r1))).2
  have c2 := (abs_le.1 (Seasons.center_bound (century_bound r2))).1
  have hk : ((before (isLeap Y) 5 + 23 : ℤ) : ℝ) ≤ 175 := by exact_mod_cast (by omega)
  have hk2 : 195 ≤ ((before (isLeap Y) 6 + 14 : ℤ) : ℝ) := by exact_mod_cast (by omega)
  generalize ((before (isLeap Y) 5 + 23 : ℤ) : ℝ) = k1 at *
  generalize ((before (isLeap Y) 6 + 14 : ℤ) : ℝ) = k2 at *
  have u1 := rad_mono (show 5.43 + 0.98565 * k1 ≤ 177.92 by norm_num at hk ⊢; linarith)
  have u2 : rad 177.92 + 0.0342 < π := by unfold rad; norm_num at p1 ⊢; linarith
  have u3 := rad_mono (show 182.5 ≤ -9.63 + 0.98564 * k2 by norm_num at hk2 ⊢; linarith)
  have u4 : π + 0.0342 < rad 182.5 := by unfold rad; norm_num at p1 ⊢; linarith
  obtain ⟨t, ht, t1, t2, hd⟩ := passage_at (n1 := m1) (n2 := m2) (S := ((Y - 1999 : ℤ) : ℝ) * (2 * π) + π) (by omega) (by omega) (by omega)
    (by unfold trueAnomaly; norm_num at c1 u2 ⊢; norm_num at w1 u1; linarith)
    (by unfold trueAnomaly; norm_num at c2 u4 ⊢; norm_num at w2 u3; linarith)
  refine ⟨t, _, ht, ?_, fun z => ?_, hd⟩
  · rcases lt_or_ge (t / 86400000000000) (yearStart Y + before (isLeap Y) 6) with hl | hl
    · have k : t / 86400000000000 = yearStart Y + (before (isLeap Y) 5 + (t / 86400000000000 - m1 + 24) - 1) := by omega
      rw [(congrArg codeDate k).trans (Equinox.codeDate_md (by omega) ⟨by omega, by rw [show mlen (isLeap Y) (1 + ((5 : ℕ) : ℤ)) = 30 from rfl]; omega⟩)]
      exact ⟨rfl, .inl ⟨rfl, by show 24 ≤ t / 86400000000000 - m1 + 24; omega⟩⟩
    · have k : t / 86400000000000 = yearStart Y + (before (isLeap Y) 6 + (t / 86400000000000 - yearStart Y - before (isLeap Y) 6 + 1) - 1) := by omega
      rw [(congrArg codeDate k).trans (Equinox.codeDate_md (by omega) ⟨by omega, by rw [show mlen (isLeap Y) (1 + ((6 : ℕ) : ℤ)) = 31 from rfl]; omega⟩)]
      exact ⟨rfl, .inr ⟨rfl, by show t / 86400000000000 - yearStart Y - before (isLeap Y) 6 + 1 ≤ 14; omega⟩⟩
  · rw [show z - (((Y - 1999 : ℤ) : ℝ) * (2 * π) + π) = z - π - ((Y - 1999 : ℤ) : ℝ) * (2 * π) by ring, cos_sub_int_mul_two_pi, cos_sub_pi]; ring

theorem ref_apsis_at {Y : Int} (hY : 1679 ≤ Y ∧ Y ≤ 2261) {σ : ℝ} (hσ : σ = 1 ∨ σ = -1) :
    ∃ (t : Int) (S : ℝ), |t| < 2 ^ 63 ∧ (σ = 1 → TurnOfYear Y (codeDate (t / 86400000000000))) ∧
      (σ = -1 → MiddleOfYear Y (codeDate (t / 86400000000000))) ∧
      (∀ z, cos z = σ * cos (z - S)) ∧ |trueAnomaly (century t) - S| ≤ 1e-9 := by
  rcases hσ with rfl | rfl
  · obtain ⟨t, S, a, b, c, d⟩ := ref_perihelion_at hY
    exact ⟨t, S, a, fun _ => b, fun h => by norm_num at h, c, d⟩
  · obtain ⟨t, S, a, b, c, d⟩ := ref_aphelion_at hY
    exact ⟨t, S, a, fun h => by norm_num at h, fun _ => b, c, d⟩

/-- from the reference to what is returned -/
theorem from_ref {σ x x' D D' E E' n : ℝ} (hσ : σ = 1 ∨ σ = -1) (hb : |x - D| ≤ E) (hb' : |x' - D'| ≤ E')
    (r1 : σ * D' ≤ σ * D + (3e-9 * n + 1e-12))
    (r2 : σ * D ≤ σ * D' + (6e-6 * n ^ 2 + 3e-9 * n + 1e-12))
    (r3 : n ≤ 300 → σ * D' + 4e-6 * min n 50 ^ 2 ≤ σ * D + (3e-9 * n + 1e-12))
    (r4 : |D - (1.00085 + σ * 0.03345)| ≤ 0.0004) :
    |x - (1.00085 + σ * 0.03345)| ≤ 0.0004 + E ∧
    σ * x' ≤ σ * x + 3e-9 * n + (E + E' + 1e-12) ∧
    σ * x - 6e-6 * n ^ 2 - 3e-9 * n - (E + E' + 1e-12) ≤ σ * x' ∧
    (n ≤ 300 → σ * x' ≤ σ * x - 4e-6 * min n 50 ^ 2 + 3e-9 * n + (E + E' + 1e-12)) := by
  obtain ⟨b1, b2⟩ := abs_le.1 hb
  obtain ⟨b1', b2'⟩ := abs_le.1 hb'
  obtain ⟨c1, c2⟩ := abs_le.1 r4
  refine ⟨abs_le.2 ⟨by linarith, by linarith⟩, ?_, ?_, fun hn => ?_⟩
  · rcases hσ with rfl | rfl <;> linarith
  · rcases hσ with rfl | rfl <;> linarith
  · have := r3 hn
    rcases hσ with rfl | rfl <;> linarith

end Apsides
open Apsides

/-! ### theorems -/

/-- C99: every year from 1679 to 2261 has a perihelion between 23 December of the year before and 12 January (`σ = 1`) and an aphelion between 24 June and 14 July
(`σ = -1`): an instant such that for every call at that instant and every call at any other, `n` days earlier or later, with any two algorithms with errors `E` in all, the
second returns no larger (smaller) correction factor than the first, within 300 days one smaller (larger) by `4e-6 n²` at least (`0.01` from the fiftieth day on), and one
smaller (larger) by `6e-6 n²` at most, up to `E`; the factor there is 1.0343 (0.9674) within 0.0004 and the error of the algorithm. At the same zenith angle by day the irradiance
above the atmosphere, not corrected for the air mass, is at perihelion larger (at aphelion smaller) than at any instant far enough for the errors. -/
theorem C99_apsides {date : Int → CivilDate} (g : IsGregorian date) {Y : Int} (hY : 1679 ≤ Y ∧ Y ≤ 2261) {σ : ℝ} (hσ : σ = 1 ∨ σ = -1) :
    ∃ t : Int, |t| < 2 ^ 63 ∧ (σ = 1 → TurnOfYear Y (date (t / 86400000000000))) ∧ (σ = -1 → MiddleOfYear Y (date (t / 86400000000000))) ∧
      ∀ {uc uc' : UseCase} {w w' : World XR} {times times' : Times} {latitude longitude latitude' longitude' : Coord XR}
        {alg eng alg' eng' : String} {refr refr' : PyVal} {s s' : Sunpos XR} {e e' : Dim → Nat} {t' : Int},
        call uc w times latitude longitude alg refr eng = .ok s → stampAt times.stamps (e .time) = some t →
        call uc' w' times' latitude' longitude' alg' refr' eng' = .ok s' → stampAt times'.stamps (e' .time) = some t' → |t'| < 2 ^ 63 →
        ∃ x x' : ℝ, s.ecf.get e = .fin x ∧ s'.ecf.get e' = .fin x' ∧
          |x - (1.00085 + σ * 0.03345)| ≤ 0.0004 + ecfError alg ∧
          σ * x' ≤ σ * x + 3e-9 * daysBetween t t' + (ecfError alg + ecfError alg' + 1e-12) ∧
          σ * x - 6e-6 * daysBetween t t' ^ 2 - 3e-9 * daysBetween t t' - (ecfError alg + ecfError alg' + 1e-12) ≤ σ * x' ∧
          (daysBetween t t' ≤ 300 →
            σ * x' ≤ σ * x - 4e-6 * min (daysBetween t t') 50 ^ 2 + 3e-9 * daysBetween t t' + (ecfError alg + ecfError alg' + 1e-12)) ∧
          ∀ z isc : ℝ, s.zenithDeg.get e = .fin z → s'.zenithDeg.get e' = .fin z → -90 < z → z < 90 → 0 < isc → daysBetween t t' ≤ 300 →
            ecfError alg + ecfError alg' + 1e-12 + 3e-9 * daysBetween t t' < 4e-6 * min (daysBetween t t') 50 ^ 2 →
            ∃ (E E' : DA XR) (y y' : ℝ), s.eth (.fin isc) "none" = .ok E ∧ s'.eth (.fin isc) "none" = .ok E' ∧
              E.get e = .fin y ∧ E'.get e' = .fin y' ∧ σ * y' < σ * y := by
  rw [g.unique C36_gregorian]
  obtain ⟨t, S, ht, hd, hd', hS, hx0⟩ := ref_apsis_at hY hσ
  refine ⟨t, ht, hd, hd', ?_⟩
  intro uc uc' w w' times times' latitude longitude latitude' longitude' alg eng alg' eng' refr refr' s s' e e' t' h hk h' hk' ht'
  obtain ⟨x, hx, hb⟩ := C54_ecf h hk ht
  obtain ⟨x', hx', hb'⟩ := C54_ecf h' hk' ht'
  obtain ⟨r1, r2, r3, r4⟩ := ref_apsis (century_bound ht) (century_bound ht') (by rw [abs_sub_comm]; exact century_days t t') hσ hS hx0
  obtain ⟨f1, f2, f3, f4⟩ := from_ref hσ hb hb' r1 r2 r3 r4
  refine ⟨x, x', hx, hx', f1, f2, f3, f4, fun z isc hz hz' hz0 hz90 hi hn hE => ?_⟩
  obtain ⟨f, k, hf, hkf, hE1, -⟩ := C21_eth_none h hk ht hz
  obtain ⟨f', k', hf', hkf', hE2, -⟩ := C21_eth_none h' hk' ht' hz'
  obtain ⟨A, q1, q2⟩ := hE1 isc
  obtain ⟨A', q1', q2'⟩ := hE2 isc
  rw [hx] at hf
  rw [hx'] at hf'
  cases hf
  cases hf'
  have hc : 0 < cos (rad z) := cos_pos_of_mem_Ioo
    ⟨by have : rad (-90) = -(π / 2) := by unfold rad; ring
        rw [← this]; unfold rad; exact mul_lt_mul_of_pos_right hz0 (by positivity),
     by have : rad 90 = π / 2 := by unfold rad; ring
        rw [← this]; unfold rad; exact mul_lt_mul_of_pos_right hz90 (by positivity)⟩
  rw [max_eq_right hc.le] at hkf hkf'
  refine ⟨A, A', _, _, q1, q1', q2, q2', ?_⟩
  rw [hkf, hkf']
  have h1 : σ * x' < σ * x := by linarith [f4 hn]
  have h2 := mul_lt_mul_of_pos_right h1 (mul_pos hi hc)
  linarith

/-- C99: the same instants in floating point. -/
theorem C99_apsides_float {date : Int → CivilDate} (g : IsGregorian date) {Y : Int} (hY : 1679 ≤ Y ∧ Y ≤ 2261) {σ : ℝ} (hσ : σ = 1 ∨ σ = -1) :
    ∃ t : Int, |t| < 2 ^ 63 ∧ (σ = 1 → TurnOfYear Y (date (t / 86400000000000))) ∧ (σ = -1 → MiddleOfYear Y (date (t / 86400000000000))) ∧
      ∀ {A A' : Arith} {uc uc' : UseCase} {w : World (Rd A)} {w' : World (Rd A')} {times times' : Times} {latitude longitude : Coord (Rd A)}
        {latitude' longitude' : Coord (Rd A')} {alg eng alg' eng' : String} {refr refr' : PyVal} {s : Sunpos (Rd A)} {s' : Sunpos (Rd A')}
        {e e' : Dim → Nat} {t' : Int},
        call uc w times latitude longitude alg refr eng = .ok s → stampAt times.stamps (e .time) = some t →
        call uc' w' times' latitude' longitude' alg' refr' eng' = .ok s' → stampAt times'.stamps (e' .time) = some t' → |t'| < 2 ^ 63 →
        ∃ x x' : ℝ, s.ecf.get e = Rd.fin x ∧ s'.ecf.get e' = Rd.fin x' ∧
          |x - (1.00085 + σ * 0.03345)| ≤ 0.0004 + (ecfError alg + 2e-10) ∧
          σ * x' ≤ σ * x + 3e-9 * daysBetween t t' + (ecfError alg + ecfError alg' + 5e-10) ∧
          σ * x - 6e-6 * daysBetween t t' ^ 2 - 3e-9 * daysBetween t t' - (ecfError alg + ecfError alg' + 5e-10) ≤ σ * x' ∧
          (daysBetween t t' ≤ 300 →
            σ * x' ≤ σ * x - 4e-6 * min (daysBetween t t') 50 ^ 2 + 3e-9 * daysBetween t t' + (ecfError alg + ecfError alg' + 5e-10)) := by
  rw [g.unique C36_gregorian]
  obtain ⟨t, S, ht, hd, hd', hS, hx0⟩ := ref_apsis_at hY hσ
  refine ⟨t, ht, hd, hd', ?_⟩
  intro A A' uc uc' w w' times times' latitude longitude latitude' longitude' alg eng alg' eng' refr refr' s s' e e' t' h hk h' hk' ht'
  obtain ⟨-, x, -, -, hx, -, -, hb, -⟩ := C64_time h hk ht
  obtain ⟨-, x', -, -, hx', -, -, hb', -⟩ := C64_time h' hk' ht'
  obtain ⟨r1, r2, r3, r4⟩ := ref_apsis (century_bound ht) (century_bound ht') (by rw [abs_sub_comm]; exact century_days t t') hσ hS hx0
  obtain ⟨f1, f2, f3, f4⟩ := from_ref hσ hb hb' r1 r2 r3 r4
  refine ⟨x, x', hx, hx', f1, f2.trans ?_, le_trans ?_ f3, fun hn => (f4 hn).trans ?_⟩ <;> norm_num <;> linarith

/-! ### the hypotheses are met -/

/-- the apsides of 2024, a call at each and a call 10 days later, with soltrack -/
example (uc : UseCase) {eng : String} (hk : KnownPair "soltrack" eng) {σ : ℝ} (hσ : σ = 1 ∨ σ = -1) :
    ∃ (t : Int) (s s' : Sunpos XR) (x x' : ℝ),
      (σ = 1 → TurnOfYear 2024 (codeDate (t / 86400000000000))) ∧ (σ = -1 → MiddleOfYear 2024 (codeDate (t / 86400000000000))) ∧
      call uc exWorld (oneTime t) (.vec [.fin 40]) (.vec [.fin 10]) "soltrack" .pyTrue eng = .ok s ∧
      call uc exWorld (oneTime (t + 864000000000000)) (.vec [.fin 40]) (.vec [.fin 10]) "soltrack" .pyTrue eng = .ok s' ∧
      s.ecf.get (fun _ => 0) = .fin x ∧ s'.ecf.get (fun _ => 0) = .fin x' ∧ |x - (1.00085 + σ * 0.03345)| ≤ 0.0005 ∧ σ * x' + 0.0003 ≤ σ * x := by
  obtain ⟨t, ht, hd, hd', k⟩ := C99_apsides C36_gregorian (Y := 2024) (by norm_num) hσ
  have hr : |t + 864000000000000| < 2 ^ 63 := by
    have b : t / 86400000000000 < 50000 := by
      by_contra hc
      have hc := not_lt.1 hc
      obtain ⟨h1, h2, h3⟩ := yearsDays_spec (t / 86400000000000)
      have hy : (codeDate (t / 86400000000000)).year = (yearsDays (t / 86400000000000)).1 := by rw [codeDate_eq]
      have hy2 : (yearsDays (t / 86400000000000)).1 ≤ 2024 := by
        rw [← hy]
        rcases hσ with h | h
        · rcases hd h with ⟨a, -⟩ | ⟨a, -⟩ <;> omega
        · have := (hd' h).1; omega
      have y := yearStart_mono hy2
      rw [show yearStart 2024 = 19723 by decide] at y
      unfold yearLength at h3
      split_ifs at h3 <;> omega
    rw [abs_lt] at *; omega
  obtain ⟨s1, c1, a1⟩ := single_call uc hk .pyTrue (t := t) ht (φ := 40) (l := 10) (by norm_num) (by norm_num)
  obtain ⟨s2, c2, a2⟩ := single_call uc hk .pyTrue hr (φ := 40) (l := 10) (by norm_num) (by norm_num)
  obtain ⟨x, x', hx, hx', f1, -, -, f4, -⟩ := k (e := fun _ => 0) (e' := fun _ => 0) c1 a1.time c2 a2.time a2.range
  have e1 : ecfError "soltrack" = 8.6e-6 := by
    unfold ecfError; rw [if_neg (by decide), if_neg (by decide)]
  have e2 : daysBetween t (t + 864000000000000) = 10 := by
    unfold daysBetween; push_cast; rw [show (t : ℝ) - (t + 864000000000000) = -864000000000000 by ring]; norm_num
  have e3 : min (10 : ℝ) 50 = 10 := min_eq_left (by norm_num)
  rw [e1, e2, e3] at f4
  rw [e1] at f1
  refine ⟨t, s1, s2, x, x', hd, hd', c1, c2, hx, hx', f1.trans (by norm_num), ?_⟩
  have := f4 (by norm_num)
  norm_num at this ⊢; linarith

end SW.Props
