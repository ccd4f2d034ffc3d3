/-
The refraction correction of soltrack (the constant 8.92e-2 differs from that of Refr.lean) as a real function of the elevation.
-/
import Verif.Astro

namespace SW.SolRefr
open Real

/-- argument of the tangent -/
noncomputable def arg (e : ℝ) : ℝ := e + 3.1376e-3 / (e + 8.92e-2)
/-- `A * 1.7802e-2 / (60 * tan(arg e))` with `κ = A * 1.7802e-2` -/
noncomputable def corr (κ e : ℝ) : ℝ := κ / (60 * rtan (arg e))

/-- elevations at which the correction is applied -/
def Dom (e : ℝ) : Prop := -1.4545e-2 ≤ e ∧ e ≤ π / 2

variable {e e₁ e₂ κ : ℝ}

theorem Dom.den (h : Dom e) : 0.0746 ≤ e + 8.92e-2 := by
  have := h.1; norm_num at *; linarith

theorem arg_diff (h₁ : Dom e₁) (h₂ : Dom e₂) (h : e₁ ≤ e₂) :
    0 ≤ arg e₂ - arg e₁ ∧ arg e₂ - arg e₁ ≤ e₂ - e₁ := by
  have d1 := h₁.den
  have d2 := h₂.den
  unfold arg
  have hu1 : 0 < e₁ + 8.92e-2 := by norm_num at *; linarith
  have hu2 : 0 < e₂ + 8.92e-2 := by norm_num at *; linarith
  set u := e₁ + 8.92e-2 with hu
  set v := e₂ + 8.92e-2 with hv
  have e1 : e₁ = u - 8.92e-2 := by rw [hu]; ring
  have e2 : e₂ = v - 8.92e-2 := by rw [hv]; ring
  rw [e1, e2]
  have key : (v - 8.92e-2 + 3.1376e-3 / v) - (u - 8.92e-2 + 3.1376e-3 / u)
      = (v - u) * (1 - 3.1376e-3 / (u * v)) := by field_simp; ring
  rw [key]
  have huv : 0 ≤ v - u := by rw [hu, hv]; linarith
  have hm : (0.0055 : ℝ) ≤ u * v := by norm_num at *; nlinarith
  have hq0 : 0 ≤ 3.1376e-3 / (u * v) := by positivity
  have hq : 3.1376e-3 / (u * v) ≤ 1 := by
    rw [div_le_one (by positivity)]; norm_num at *; linarith
  constructor
  · exact mul_nonneg huv (by linarith)
  · nlinarith

theorem arg_lower (h : Dom e) : 0.0274 ≤ arg e := by
  have hl : Dom (-1.4545e-2) := ⟨le_rfl, by norm_num; linarith [pi_pos]⟩
  have h1 := (arg_diff hl h h.1).1
  have h2 : (0.0274 : ℝ) ≤ arg (-1.4545e-2) := by unfold arg; norm_num
  linarith

theorem dom_top : Dom (π / 2) := ⟨by norm_num; linarith [pi_pos], le_rfl⟩

theorem arg_top : π / 2 + 0.00185 ≤ arg (π / 2) ∧ arg (π / 2) ≤ π / 2 + 0.0019 := by
  have h3 := pi_gt_d2
  have h4 := pi_lt_d2
  have hp : 0 < π / 2 + 8.92e-2 := by positivity
  unfold arg
  constructor
  · have : (0.00185 : ℝ) ≤ 3.1376e-3 / (π / 2 + 8.92e-2) := by
      rw [le_div_iff₀ hp]; norm_num at *; linarith
    linarith
  · have : 3.1376e-3 / (π / 2 + 8.92e-2) ≤ (0.0019 : ℝ) := by
      rw [div_le_iff₀ hp]; norm_num at *; linarith
    linarith

theorem arg_upper (h : Dom e) : arg e ≤ π / 2 + 0.0019 := by
  have h1 := (arg_diff h dom_top h.2).1
  linarith [arg_top.2]

theorem sin_arg_lower (h : Dom e) : 0.0273 ≤ sin (arg e) := by
  have h1 := arg_lower h
  have h2 := arg_upper h
  have h3 := pi_gt_d2
  have h4 := pi_lt_d2
  have base : (0.0273 : ℝ) ≤ sin 0.0274 := by
    have := sin_gt_sub_cube (x := 0.0274) (by norm_num)
    norm_num at *; linarith
  rcases le_total (arg e) (π / 2) with hc | hc
  · have : sin 0.0274 ≤ sin (arg e) := by
      apply sin_le_sin_of_le_of_le_pi_div_two _ hc h1
      norm_num at *; linarith
    linarith
  · have e1 : sin (arg e) = sin (π - arg e) := (sin_pi_sub _).symm
    have : sin 0.0274 ≤ sin (π - arg e) := by
      apply sin_le_sin_of_le_of_le_pi_div_two
      · norm_num at *; linarith
      · linarith
      · norm_num at *; linarith
    rw [e1]; linarith

/-- cotangent of the argument -/
noncomputable def cot (e : ℝ) : ℝ := cos (arg e) / sin (arg e)

theorem rtan_ne (h : Dom e) : rtan (arg e) ≠ 0 := by
  have hs := sin_arg_lower h
  have hs0 : 0 < sin (arg e) := by norm_num at *; linarith
  unfold rtan
  split_ifs with h1
  · norm_num
  · rw [tan_eq_sin_div_cos]; exact div_ne_zero hs0.ne' h1

/-- `1/tan` is the cotangent, up to the value at the pole of the tangent -/
theorem corr_eq (h : Dom e) : ∃ τ : ℝ, 0 ≤ τ ∧ τ ≤ 1e-16 ∧ (cos (arg e) ≠ 0 → τ = 0) ∧
    corr κ e = κ / 60 * (cot e + τ) := by
  have hs := sin_arg_lower h
  have hs0 : 0 < sin (arg e) := by norm_num at *; linarith
  by_cases hc : cos (arg e) = 0
  · refine ⟨1 / 16331239353195370, by norm_num, by norm_num, fun h => absurd hc h, ?_⟩
    unfold corr cot rtan
    rw [if_pos hc, if_pos hs0, hc]; ring
  · refine ⟨0, le_rfl, by norm_num, fun _ => rfl, ?_⟩
    unfold corr cot rtan
    rw [if_neg hc, tan_eq_sin_div_cos]
    field_simp; ring

theorem cot_diff (h₁ : Dom e₁) (h₂ : Dom e₂) (h : e₁ ≤ e₂) :
    0 ≤ cot e₁ - cot e₂ ∧ cot e₁ - cot e₂ ≤ 1350 * (e₂ - e₁) := by
  have s1 := sin_arg_lower h₁
  have s2 := sin_arg_lower h₂
  have hp : (0.000745 : ℝ) ≤ sin (arg e₁) * sin (arg e₂) := by norm_num at *; nlinarith
  have hp0 : 0 < sin (arg e₁) * sin (arg e₂) := by norm_num at *; linarith
  have hd := arg_diff h₁ h₂ h
  have hs1 : sin (arg e₁) ≠ 0 := by intro h; rw [h] at s1; norm_num at s1
  have hs2 : sin (arg e₂) ≠ 0 := by intro h; rw [h] at s2; norm_num at s2
  have key : cot e₁ - cot e₂ = sin (arg e₂ - arg e₁) / (sin (arg e₁) * sin (arg e₂)) := by
    unfold cot; rw [sin_sub]; field_simp
  rw [key]
  have hpi : arg e₂ - arg e₁ ≤ π := by
    have := arg_lower h₁; have := arg_upper h₂
    have := pi_gt_d2; norm_num at *; linarith
  constructor
  · exact div_nonneg (sin_nonneg_of_nonneg_of_le_pi hd.1 hpi) hp0.le
  · rw [div_le_iff₀ hp0]
    have : sin (arg e₂ - arg e₁) ≤ arg e₂ - arg e₁ := sin_le hd.1
    norm_num at *
    nlinarith

/-- the refracted elevation increases (by at least half as much as the elevation), up to the value at
the pole of the tangent -/
theorem refr_mono (hκ0 : 0 ≤ κ) (hκ : κ ≤ 0.0179) (h₁ : Dom e₁) (h₂ : Dom e₂) (h : e₁ ≤ e₂) :
    e₁ + corr κ e₁ + 0.5 * (e₂ - e₁) ≤ e₂ + corr κ e₂ + 1e-19 ∧
    (cos (arg e₁) ≠ 0 → e₁ + corr κ e₁ + 0.5 * (e₂ - e₁) ≤ e₂ + corr κ e₂) := by
  obtain ⟨t1, a1, b1, c1, d1⟩ := corr_eq (κ := κ) h₁
  obtain ⟨t2, a2, b2, c2, d2⟩ := corr_eq (κ := κ) h₂
  have hd := cot_diff h₁ h₂ h
  rw [d1, d2]
  have hm : κ / 60 * (cot e₁ - cot e₂) ≤ 0.5 * (e₂ - e₁) := by
    norm_num at *
    nlinarith
  have ht1 : κ / 60 * t1 ≤ 1e-19 := by norm_num at *; nlinarith
  have ht2 : 0 ≤ κ / 60 * t2 := by positivity
  constructor
  · norm_num at *; linarith
  · intro hc
    rw [c1 hc] at ht1 ⊢
    norm_num at *; linarith

theorem cot_top : -0.0020 ≤ cot (π / 2) ∧ cot (π / 2) ≤ -0.00185 := by
  have h := arg_top
  set d := arg (π / 2) - π / 2 with hd
  have ha : arg (π / 2) = d + π / 2 := by rw [hd]; ring
  have hd1 : 0.00185 ≤ d := by linarith [h.1]
  have hd2 : d ≤ 0.0019 := by linarith [h.2]
  have hd0 : 0 < d := by norm_num at *; linarith
  have hc : 0 < cos d := by
    apply cos_pos_of_mem_Ioo; constructor <;> have := pi_gt_d2 <;> norm_num at * <;> linarith
  have hcot : cot (π / 2) = -tan d := by
    unfold cot; rw [ha, cos_add_pi_div_two, sin_add_pi_div_two, tan_eq_sin_div_cos]; ring
  rw [hcot]
  constructor
  · have hs : sin d ≤ 0.0019 := (sin_le hd0.le).trans hd2
    have hcl : 0.99 ≤ cos d := by
      have := one_sub_sq_div_two_le_cos (x := d); norm_num at *; nlinarith
    have : tan d ≤ 0.0020 := by
      rw [tan_eq_sin_div_cos, div_le_iff₀ hc]; norm_num at *; linarith
    linarith
  · have : d < tan d := lt_tan hd0 (by have := pi_gt_d2; norm_num at *; linarith)
    linarith

theorem cot_bounds (h : Dom e) : -0.0020 ≤ cot e ∧ cot e ≤ 36.6 := by
  constructor
  · have := (cot_diff h dom_top h.2).1
    linarith [cot_top.1]
  · have hl : Dom (-1.4545e-2) := ⟨le_rfl, by norm_num; linarith [pi_pos]⟩
    have h1 := (cot_diff hl h h.1).1
    have h2 : cot (-1.4545e-2) ≤ 36.6 := by
      have s1 := sin_arg_lower hl
      unfold cot
      have hs0 : 0 < sin (arg (-1.4545e-2)) := by norm_num at *; linarith
      have ha : (0.02748 : ℝ) ≤ arg (-1.4545e-2) ∧ arg (-1.4545e-2) ≤ 0.0275 := by
        unfold arg; norm_num
      have : (0.0273 : ℝ) < sin (arg (-1.4545e-2)) := by
        have h0 : 0 < arg (-1.4545e-2) := by norm_num at *; linarith
        have := sin_gt_sub_cube h0
        have hc : arg (-1.4545e-2) ^ 3 ≤ 0.0275 ^ 3 := by
          apply pow_le_pow_left₀ h0.le ha.2
        norm_num at *; linarith
      rw [div_le_iff₀ hs0]
      have h0 : 0 < arg (-1.4545e-2) := by norm_num at *; linarith
      have hsc := sin_gt_sub_cube h0
      have hc : arg (-1.4545e-2) ^ 3 ≤ 0.0275 ^ 3 := by
          apply pow_le_pow_left₀ h0.le ha.2
      have hc1 := cos_le_one (arg (-1.4545e-2))
      norm_num at *; nlinarith
    linarith

/-- size of the correction -/
theorem corr_bounds (hκ0 : 0 ≤ κ) (hκ : κ ≤ 0.0179) (h : Dom e) :
    -1e-6 ≤ corr κ e ∧ corr κ e ≤ 0.0111 := by
  obtain ⟨t, a, b, c, d⟩ := corr_eq (κ := κ) h
  have hc := cot_bounds h
  rw [d]
  constructor
  · norm_num at *; nlinarith
  · norm_num at *; nlinarith

/-- at the zenith the correction is negative: the sun is lowered by about half a microradian -/
theorem corr_top (hκ0 : 0.017 ≤ κ) : corr κ (π / 2) ≤ -5e-7 := by
  obtain ⟨t, a, b, c, d⟩ := corr_eq (κ := κ) dom_top
  have hc := cot_top.2
  rw [d]
  norm_num at *; nlinarith

/-- refraction does not carry the sun beyond the zenith -/
theorem refr_le (hκ0 : 0.017 ≤ κ) (hκ : κ ≤ 0.0179) (h : Dom e) : e + corr κ e < π / 2 := by
  have h1 := (refr_mono (by norm_num at *; linarith) hκ h dom_top h.2).1
  have h2 := corr_top hκ0
  have h3 := h.2
  norm_num at *; linarith

/-- above the threshold the correction is positive unless the sun is within 0.0019 rad (6.5
arcminutes) of the zenith -/
theorem corr_pos (hκ0 : 0 < κ) (h : Dom e) (h2 : e ≤ π / 2 - 0.0019) : 0 < corr κ e := by
  obtain ⟨t, a, b, c, d⟩ := corr_eq (κ := κ) h
  rw [d]
  have hs := sin_arg_lower h
  have hs0 : 0 < sin (arg e) := by norm_num at *; linarith
  have ht : Dom (π / 2 - 0.0019) := ⟨by norm_num; linarith [pi_gt_d2], by norm_num⟩
  have h1 := (arg_diff h ht h2).1
  have h3 : arg (π / 2 - 0.0019) < π / 2 := by
    unfold arg
    have h3 := pi_gt_d2
    have hp : 0 < π / 2 - 0.0019 + 8.92e-2 := by norm_num at *; linarith
    have : 3.1376e-3 / (π / 2 - 0.0019 + 8.92e-2) < (0.0019 : ℝ) := by
      rw [div_lt_iff₀ hp]; norm_num at *; linarith
    linarith
  have hc : 0 < cot e := by
    unfold cot
    apply div_pos _ hs0
    apply cos_pos_of_mem_Ioo
    have := arg_lower h
    constructor
    · norm_num at *; linarith [pi_pos]
    · linarith
  positivity

end SW.SolRefr
