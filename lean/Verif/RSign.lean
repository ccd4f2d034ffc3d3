/-
On which side of the horizon the refraction of each algorithm leaves the sun.
-/
import Verif.RefrSpec
import Verif.RdSolPos

namespace SW
open Real

namespace Refr

/-- a sun above the horizon stays above -/
theorem up {κ e : ℝ} (hκ0 : 0 < κ) (hκ : κ ≤ 0.0179) (h1 : 0 < e) (h2 : e ≤ π / 2) : 0 < e + corr κ e := by
  have hD : Dom e := ⟨by norm_num; linarith, h2⟩
  rcases le_total e (π / 2 - 0.0019) with h | h
  · linarith [corr_pos hκ0 hD h]
  · have := (corr_bounds hκ0.le hκ hD).1
    have := pi_gt_d2
    norm_num at *; linarith

/-- a sun more than 0.0101 rad below the horizon stays below -/
theorem down {κ e : ℝ} (hκ0 : 0 ≤ κ) (hκ : κ ≤ 0.0179) (hD : Dom e) (h : e ≤ -0.0101) : e + corr κ e < -5e-6 := by
  have hp := pi_gt_d2
  have hD0 : Dom (-0.0101) := ⟨by norm_num, by norm_num at *; linarith⟩
  have m := (refr_mono hκ0 hκ hD hD0 h).1
  obtain ⟨τ, h1, h2, -, h3⟩ := corr_eq (κ := κ) hD0
  have ha : (0.02957 : ℝ) ≤ arg (-0.0101) := by unfold arg; norm_num
  have ha0 : 0 < arg (-0.0101) := lt_of_lt_of_le (by norm_num) ha
  have hs := sin_arg_lower hD0
  have hc : cot (-0.0101) ≤ 1 / arg (-0.0101) :=
    RefrSpec.cot_le ha0 (arg_upper hD0) (lt_of_lt_of_le (by norm_num) hs)
  have hc2 : 1 / arg (-0.0101) ≤ 33.82 := by
    rw [div_le_iff₀ ha0]; norm_num at *; linarith
  rw [h3] at m
  have h4 : κ / 60 * (cot (-0.0101) + τ) ≤ 0.0179 / 60 * 33.821 := by
    have hct := (cot_bounds hD0).1
    by_cases hneg : 0 ≤ cot (-0.0101) + τ
    · apply mul_le_mul
      · linarith
      · norm_num at *; linarith
      · exact hneg
      · norm_num
    · push Not at hneg
      exact (mul_nonpos_of_nonneg_of_nonpos (by positivity) hneg.le).trans (by norm_num)
  norm_num at *; linarith

end Refr

namespace Iqbal

theorem den_pos (x : ℝ) : 0 < 1 + 28.9344 * x + 277.3971 * (x * x) := by
  norm_num; nlinarith [sq_nonneg (277.3971 * x + 14.4672)]

theorem up {x : ℝ} (h : 0 < x) : 0 < x + refcor x := by
  rw [RefrSpec.refcor_eq]
  have : 0 < 0.061359 * (0.1594 + 1.1230 * x + 0.065656 * (x * x)) := by norm_num; positivity
  have := div_pos this (den_pos x)
  linarith

theorem down {x : ℝ} (h : x ≤ -0.0136) : x + refcor x < -1e-5 := by
  rw [RefrSpec.refcor_eq]
  have hd := den_pos x
  have h1 : 0.061359 * (0.1594 + 1.1230 * x + 0.065656 * (x * x)) / (1 + 28.9344 * x + 277.3971 * (x * x)) < -1e-5 - x := by
    rw [div_lt_iff₀ hd]
    obtain ⟨y, hy⟩ : ∃ y, y = -0.0136 - x := ⟨_, rfl⟩
    obtain rfl : x = -0.0136 - y := by rw [hy]; ring
    have hy0 : 0 ≤ y := by rw [hy]; linarith
    norm_num
    nlinarith [mul_nonneg hy0 (sq_nonneg (y - 0.02)), mul_nonneg hy0 hy0, mul_nonneg hy0 (mul_nonneg hy0 hy0), mul_nonneg hy0 (sq_nonneg y)]
  linarith

/-- the correction is small at all elevations -/
theorem refcor_bounds {x : ℝ} (h0 : -(π / 2) ≤ x) (h1 : x ≤ π / 2) : -0.002 ≤ refcor x ∧ (0 ≤ x → refcor x ≤ 0.0098) := by
  have hp := pi_lt_d2
  have hd := den_pos x
  rw [RefrSpec.refcor_eq]
  constructor
  · rw [le_div_iff₀ hd]; norm_num at *; nlinarith [sq_nonneg (x + 0.1)]
  · intro hx
    rw [div_le_iff₀ hd]; norm_num; nlinarith [mul_nonneg hx hx]

end Iqbal

namespace SolRefr

theorem up {κ e : ℝ} (hκ0 : 0 < κ) (hκ : κ ≤ 0.0179) (h1 : 0 < e) (h2 : e ≤ π / 2) : 0 < e + corr κ e := by
  have hD : Dom e := ⟨by norm_num; linarith, h2⟩
  rcases le_total e (π / 2 - 0.0019) with h | h
  · linarith [corr_pos hκ0 hD h]
  · have := (corr_bounds hκ0.le hκ hD).1
    have := pi_gt_d2
    norm_num at *; linarith

theorem down_dom {κ e : ℝ} (hκ0 : 0 ≤ κ) (hκ : κ ≤ 0.0179) (hD : Dom e) (h : e ≤ -0.0101) : e + corr κ e < -5e-6 := by
  have hp := pi_gt_d2
  have hD0 : Dom (-0.0101) := ⟨by norm_num, by norm_num at *; linarith⟩
  have m := (refr_mono hκ0 hκ hD hD0 h).1
  obtain ⟨τ, h1, h2, -, h3⟩ := corr_eq (κ := κ) hD0
  have ha : (0.02956 : ℝ) ≤ arg (-0.0101) := by unfold arg; norm_num
  have ha0 : 0 < arg (-0.0101) := lt_of_lt_of_le (by norm_num) ha
  have hs := sin_arg_lower hD0
  have hc : cot (-0.0101) ≤ 1 / arg (-0.0101) :=
    RefrSpec.cot_le ha0 (arg_upper hD0) (lt_of_lt_of_le (by norm_num) hs)
  have hc2 : 1 / arg (-0.0101) ≤ 33.83 := by
    rw [div_le_iff₀ ha0]; norm_num at *; linarith
  rw [h3] at m
  have h4 : κ / 60 * (cot (-0.0101) + τ) ≤ 0.0179 / 60 * 33.831 := by
    by_cases hneg : 0 ≤ cot (-0.0101) + τ
    · apply mul_le_mul
      · linarith
      · norm_num at *; linarith
      · exact hneg
      · norm_num
    · push Not at hneg
      exact (mul_nonpos_of_nonneg_of_nonpos (by positivity) hneg.le).trans (by norm_num)
  norm_num at *; linarith

/-- the pole of the refraction formula is 0.0892 rad below the horizon: its argument further than 0.0012 rad from there -/
theorem arg_range {e : ℝ} (h0 : -(π / 2) ≤ e) (h1 : e ≤ -1.4545e-2) (h : 1.2e-3 ≤ |e + 8.92e-2|) :
    (0.0228 ≤ arg e ∧ arg e ≤ 2.6) ∨ (-2.71 ≤ arg e ∧ arg e ≤ -0.2) := by
  have hp := pi_lt_d2
  unfold arg
  obtain ⟨u, hu⟩ : ∃ u, u = e + 8.92e-2 := ⟨_, rfl⟩
  obtain rfl : e = u - 8.92e-2 := by rw [hu]; ring
  rw [show u - 8.92e-2 + 8.92e-2 = u by ring] at *
  rcases abs_cases u with ⟨hu1, hu2⟩ | ⟨hu1, hu2⟩ <;> rw [hu1] at h
  · left
    have hu0 : 0 < u := lt_of_lt_of_le (by norm_num) h
    have e1 : u - 8.92e-2 + 3.1376e-3 / u = (u * u - 8.92e-2 * u + 3.1376e-3) / u := by field_simp
    rw [e1]
    constructor
    · rw [le_div_iff₀ hu0]; norm_num; nlinarith [sq_nonneg (u - 0.056)]
    · rw [div_le_iff₀ hu0]; norm_num at *; nlinarith
  · right
    obtain ⟨v, hv⟩ : ∃ v, v = -u := ⟨_, rfl⟩
    obtain rfl : u = -v := by rw [hv]; ring
    have hv0 : 0 < v := by linarith
    have e1 : -v - 8.92e-2 + 3.1376e-3 / -v = -(v * v + 8.92e-2 * v + 3.1376e-3) / v := by field_simp; ring
    rw [e1]
    constructor
    · rw [le_div_iff₀ hv0]; norm_num at *; nlinarith
    · rw [div_le_iff₀ hv0]; norm_num; nlinarith [sq_nonneg (v - 0.056)]

/-- the correction there -/
theorem cot_le {U : ℝ} (h : (0.0228 ≤ U ∧ U ≤ 2.6) ∨ (-2.71 ≤ U ∧ U ≤ -0.2)) : 0.0227 ≤ |sin U| ∧ cos U / sin U ≤ 43.9 := by
  have hp := pi_gt_d4
  have hp' := pi_lt_d4
  have base : (0.0227 : ℝ) ≤ sin 0.0228 := by
    have := sin_gt_sub_cube (x := 0.0228) (by norm_num)
    norm_num at *; linarith
  rcases h with ⟨h1, h2⟩ | ⟨h1, h2⟩
  · have hs : 0.0227 ≤ sin U := by
      rcases le_total U (π / 2) with hc | hc
      · refine base.trans (sin_le_sin_of_le_of_le_pi_div_two (by norm_num at *; linarith) hc h1)
      · rw [← sin_pi_sub]
        refine base.trans (sin_le_sin_of_le_of_le_pi_div_two (by norm_num at *; linarith) (by linarith) (by norm_num at *; linarith))
    have hs0 : 0 < sin U := lt_of_lt_of_le (by norm_num) hs
    refine ⟨hs.trans (le_abs_self _), ?_⟩
    rcases le_total U (π / 2 + 0.0019) with hc | hc
    · have hU0 : 0 < U := lt_of_lt_of_le (by norm_num) h1
      refine (RefrSpec.cot_le hU0 hc hs0).trans ?_
      rw [div_le_iff₀ hU0]; norm_num at *; linarith
    · have : cos U ≤ 0 := cos_nonpos_of_pi_div_two_le_of_le (by linarith) (by norm_num at *; linarith)
      exact (div_nonpos_of_nonpos_of_nonneg this hs0.le).trans (by norm_num)
  · have hs : 0.0227 ≤ sin (-U) := by
      rcases le_total (-U) (π / 2) with hc | hc
      · refine base.trans (sin_le_sin_of_le_of_le_pi_div_two (by norm_num at *; linarith) hc (by norm_num at *; linarith))
      · rw [← sin_pi_sub]
        refine base.trans (sin_le_sin_of_le_of_le_pi_div_two (by norm_num at *; linarith) (by linarith) (by norm_num at *; linarith))
    rw [sin_neg] at hs
    refine ⟨hs.trans (neg_le_abs _), ?_⟩
    rcases le_total (-U) (π / 2) with hc | hc
    · have : 0 ≤ cos U := cos_nonneg_of_neg_pi_div_two_le_of_le (by linarith) (by norm_num at *; linarith)
      exact (div_nonpos_of_nonneg_of_nonpos this (by norm_num at *; linarith)).trans (by norm_num)
    · have hs2 : 0.39 ≤ sin (-U) := by
        rw [← sin_pi_sub]
        have b2 : (0.39 : ℝ) ≤ sin 0.43 := by
          have := sin_gt_sub_cube (x := 0.43) (by norm_num)
          norm_num at *; linarith
        refine b2.trans (sin_le_sin_of_le_of_le_pi_div_two (by norm_num at *; linarith) (by linarith) (by norm_num at *; linarith))
      rw [sin_neg] at hs2
      have e1 : cos U / sin U = -cos U / -sin U := by rw [neg_div_neg_eq]
      rw [e1, div_le_iff₀ (lt_of_lt_of_le (by norm_num) hs2)]
      have := neg_one_le_cos U
      norm_num at *; linarith

theorem down {e : ℝ} (h0 : -(π / 2) ≤ e) (h1 : e ≤ -0.0101) (h : 1.2e-3 ≤ |e + 8.92e-2|) :
    rtan (arg e) ≠ 0 ∧ e + corr 1.7802e-2 e < -5e-6 ∧ -0.0132 ≤ corr 1.7802e-2 e := by
  rcases le_total (-1.4545e-2) e with hc | hc
  · have hD : Dom e := ⟨hc, by have := pi_pos; norm_num at *; linarith⟩
    exact ⟨rtan_ne hD, down_dom (by norm_num) (by norm_num) hD h1,
      le_trans (by norm_num) (corr_bounds (κ := 1.7802e-2) (by norm_num) (by norm_num) hD).1⟩
  · obtain ⟨hs, hc2⟩ := cot_le (arg_range h0 hc h)
    have hs0 : sin (arg e) ≠ 0 := by
      intro h; rw [h, abs_zero] at hs; norm_num at hs
    have hlow : -44.1 ≤ cos (arg e) / sin (arg e) := by
      have h2 : |cos (arg e) / sin (arg e)| ≤ 44.1 := by
        rw [abs_div, div_le_iff₀ (abs_pos.2 hs0)]
        have := abs_cos_le_one (arg e)
        norm_num at hs this ⊢; linarith
      exact (abs_le.1 h2).1
    obtain ⟨ht, ht', hτ⟩ : 1 / rtan (arg e) ≤ cos (arg e) / sin (arg e) + 1e-16 ∧
        cos (arg e) / sin (arg e) - 1e-16 ≤ 1 / rtan (arg e) ∧ rtan (arg e) ≠ 0 := by
      unfold rtan
      split_ifs with h2 h3
      · rw [h2, zero_div, zero_add]; norm_num
      · rw [h2, zero_div, zero_add]; norm_num
      · rw [tan_eq_sin_div_cos]
        refine ⟨?_, ?_, div_ne_zero hs0 h2⟩ <;> rw [one_div_div] <;> norm_num
    refine ⟨hτ, ?_⟩
    have e1 : corr 1.7802e-2 e = 2.967e-4 * (1 / rtan (arg e)) := by
      unfold corr
      rw [show (2.967e-4 : ℝ) = 1.7802e-2 / 60 by norm_num]; field_simp
    rw [e1]
    generalize 1 / rtan (arg e) = X at *
    generalize cos (arg e) / sin (arg e) = Y at *
    clear hs
    constructor <;> norm_num at * <;> linarith

end SolRefr

namespace Soltrack

theorem refract_fin' {e : ℝ} (h0 : e + 8.92e-2 ≠ 0) (h1 : rtan (SolRefr.arg e) ≠ 0) : refract (XR.fin e) = XR.fin (refract e) := by
  have h1 : rtan (e + 3.1376e-3 / (e + 8.92e-2)) ≠ 0 := h1
  unfold refract
  xr
  rw [XR.div_fin h0]
  xr
  rw [XR.div_fin h1]
  rfl

end Soltrack
end SW
