/-
The topocentric coordinates of nrel in rounded arithmetic.
-/
import Verif.RdNrelPos

namespace SW.Nrel
open Real
variable {A : Arith}

section
variable {x y ξ h d : Rd A} {X Y Ξ H D : ℝ} (hX : Ap x X 1 1.1e-13) (hY : Ap y Y 1 1.1e-13) (hΞ : Ap ξ Ξ 4.4e-5 5e-15)
  (hH : Apm h H (2 * π) 6.4 4.6e-8) (hD : Ap d D 0.4153 6.4e-10)

theorem abs_sin_xi {Ξ : ℝ} (h : |Ξ| ≤ 4.4e-5) : |sin Ξ| ≤ 4.4e-5 := (Real.abs_sin_le_abs).trans h

/-- the abscissa of both inverse tangents -/
theorem absc_bound {X Ξ H D : ℝ} (hX : |X| ≤ 1) (hΞ : |Ξ| ≤ 4.4e-5) (hD : |D| ≤ 0.4153) :
    0.9 ≤ cos D - X * sin Ξ * cos H ∧ |cos D - X * sin Ξ * cos H - cos D| ≤ 4.4e-5 := by
  have h1 : |X * sin Ξ * cos H| ≤ 1 * 4.4e-5 * 1 := by
    rw [abs_mul, abs_mul]
    have := abs_sin_xi hΞ
    have := abs_cos_le_one H
    gcongr
  have h2 := cos_lower hD
  refine ⟨?_, ?_⟩
  · have := abs_le.1 h1
    norm_num at *; linarith
  · rw [sub_sub_cancel_left, abs_neg]; norm_num at *; exact h1

/-- the parallax in right ascension is small -/
theorem deltaa_small {X Ξ H D : ℝ} (hX : |X| ≤ 1) (hΞ : |Ξ| ≤ 4.4e-5) (hD : |D| ≤ 0.4153) :
    1 - 5e-9 ≤ cos (deltaa X Ξ H D) := by
  obtain ⟨h1, -⟩ := absc_bound (H := H) hX hΞ hD
  have h2 : |-X * sin Ξ * sin H| ≤ 1 * 4.4e-5 * 1 := by
    rw [abs_mul, abs_mul, abs_neg]
    have := abs_sin_xi hΞ
    have := abs_sin_le_one H
    gcongr
  have e : deltaa X Ξ H D = ratan2 (-X * sin Ξ * sin H) (cos D - X * sin Ξ * cos H) := rfl
  rw [e]
  generalize -X * sin Ξ * sin H = b at *
  generalize cos D - X * sin Ξ * cos H = a at *
  have c := ratan2_cos b a
  have hb2 : b ^ 2 ≤ (4.4e-5) ^ 2 := by rw [← sq_abs]; gcongr; norm_num at *; exact h2
  have ha0 : 0 < a := by norm_num at h1; linarith
  have hr : √(a ^ 2 + b ^ 2) ≤ a * (1 + 4e-9) := by
    rw [Real.sqrt_le_left (by positivity)]
    have : (0.9 : ℝ) ^ 2 ≤ a ^ 2 := by gcongr
    norm_num at *; nlinarith
  have hr0 : 0 < √(a ^ 2 + b ^ 2) := by positivity
  generalize √(a ^ 2 + b ^ 2) = r at *
  by_contra hc
  push Not at hc
  have h3 : r * cos (ratan2 b a) < r * (1 - 5e-9) := by gcongr
  rw [c] at h3
  norm_num at *; nlinarith

/-- the topocentric declination is near the geocentric one -/
theorem deltap_bound {X Y Ξ H D : ℝ} (hX : |X| ≤ 1) (hY : |Y| ≤ 1) (hΞ : |Ξ| ≤ 4.4e-5) (hD : |D| ≤ 0.4153) :
    |deltap X Y Ξ H D| ≤ 0.4155 := by
  obtain ⟨h1, h2⟩ := absc_bound (H := H) hX hΞ hD
  have h3 := deltaa_small (H := H) hX hΞ hD
  have h4 := cos_le_one (deltaa X Ξ H D)
  have e : deltap X Y Ξ H D = ratan2 ((sin D - Y * sin Ξ) * cos (deltaa X Ξ H D)) (cos D - X * sin Ξ * cos H) := rfl
  rw [e]
  generalize cos (deltaa X Ξ H D) = c at *
  generalize cos D - X * sin Ξ * cos H = a at *
  have h5 : |(sin D - Y * sin Ξ) * c - sin D| ≤ 4.41e-5 := by
    have e2 : (sin D - Y * sin Ξ) * c - sin D = -(Y * sin Ξ * c) - sin D * (1 - c) := by ring
    rw [e2]
    refine (abs_sub _ _).trans ?_
    have b1 : |-(Y * sin Ξ * c)| ≤ 1 * 4.4e-5 * 1 := by
      rw [abs_neg, abs_mul, abs_mul]
      have := abs_sin_xi hΞ
      have : |c| ≤ 1 := by rw [abs_le]; constructor <;> norm_num at * <;> linarith
      gcongr
    have b2 : |sin D * (1 - c)| ≤ 1 * 5e-9 := by
      rw [abs_mul, abs_of_nonneg (by linarith : 0 ≤ 1 - c)]
      have := abs_sin_le_one D
      gcongr
      linarith
    norm_num at *; linarith
  obtain ⟨k, hk⟩ := ratan2_perturb (m := 1) (δ := 4.41e-5) h5 (h2.trans (by norm_num)) (by
    rw [add_comm, sin_sq_add_cos_sq]; norm_num) (by norm_num)
  obtain ⟨j, hj⟩ := ratan2_near (sin D) (cos D) D (by have := sin_sq_add_cos_sq D; nlinarith)
  have e3 : ratan2 (sin D) (cos D) = D + j * (2 * π) := by
    rw [hj]
    have : sin D * cos D - cos D * sin D = 0 := by ring
    simp [this]
  have hm := ratan2_mem ((sin D - Y * sin Ξ) * c) a
  rw [e3] at hk
  generalize ratan2 ((sin D - Y * sin Ξ) * c) a = r at *
  have hk' : |r - D - ((k + j : ℤ) : ℝ) * (2 * π)| ≤ 1e-4 := by
    push_cast
    rw [show r - D - (k + j) * (2 * π) = r - (D + j * (2 * π)) - k * (2 * π) by ring]
    refine hk.trans ?_; norm_num
  have hp := pi_gt_d2
  have h7 := no_turn (abs_le.2 ⟨hm.1.le, hm.2⟩) hk' hD (by norm_num at *; linarith)
  exact (Ap.fin_bound hD h7).trans (by norm_num)

include hX hΞ hH hD

theorem absc_ap : Ap (Num.cos d - x * Num.sin ξ * Num.cos h : Rd A) (cos D - X * sin Ξ * cos H) 1.1 6.5e-10 := by
  have h1 := (hΞ.sin (by norm_num)).bnd (abs_sin_xi hΞ.1)
  have h2 := hH.cos (by norm_num)
  exact ((hD.cos (by norm_num)).sub ((hX.mul h1 (by norm_num)).mul h2 (by norm_num)) (by norm_num)).mono (by norm_num) (by norm_num)

theorem deltaa_apm : Apm (deltaa x ξ h d) (deltaa X Ξ H D) (2 * π) (π + 1e-14) 1.5e-9 := by
  have h1 := (hΞ.sin (by norm_num)).bnd (abs_sin_xi hΞ.1)
  have h2 := hH.sin (by norm_num)
  have h3 : Ap (-x * Num.sin ξ * Num.sin h : Rd A) (-X * sin Ξ * sin H) 1 6.5e-10 :=
    ((hX.neg.mul h1 (by norm_num)).mul h2 (by norm_num)).mono (by norm_num) (by norm_num)
  have h4 := absc_ap hX hΞ hH hD
  have hb := (absc_bound (H := H) hX.1 hΞ.1 hD.1).1
  exact (Apm.atan2 0.9 h3 h4 (by
    have : (0.9 : ℝ) ^ 2 ≤ (cos D - X * sin Ξ * cos H) ^ 2 := by gcongr
    nlinarith [sq_nonneg (-X * sin Ξ * sin H)]) (by norm_num) (by norm_num) (by norm_num)).mono le_rfl (by norm_num)

theorem Hp_apm : Apm (Hp x ξ h d) (Hp X Ξ H D) (2 * π) 10 4.8e-8 := by
  have h1 := deltaa_apm hX hΞ hH hD
  have hp := pi_lt_d4
  refine (hH.sub (h1.mono (M' := 3.15) (by norm_num at *; linarith) le_rfl) (by norm_num)).mono (by norm_num) (by norm_num)

include hY in
theorem deltap_ap : Ap (deltap x y ξ h d) (deltap X Y Ξ H D) 0.4155 3.5e-9 := by
  have h1 := (hΞ.sin (by norm_num)).bnd (abs_sin_xi hΞ.1)
  have h2 := (deltaa_apm hX hΞ hH hD).cos (by have := pi_lt_d4; norm_num at *; linarith)
  have h3 := (hD.sin (by norm_num)).bnd ((Real.abs_sin_le_abs).trans hD.1)
  have h4 : Ap ((Num.sin d - y * Num.sin ξ) * Num.cos (deltaa x ξ h d) : Rd A) ((sin D - Y * sin Ξ) * cos (deltaa X Ξ H D)) 1 1.5e-9 :=
    ((h3.sub (hY.mul h1 (by norm_num)) (by norm_num)).mul h2 (by norm_num)).mono (by norm_num) (by norm_num)
  have h5 := absc_ap hX hΞ hH hD
  have hb := (absc_bound (H := H) hX.1 hΞ.1 hD.1).1
  have hp := pi_gt_d4
  refine (Apm.atan2 0.9 h4 (h5.mono le_rfl (by norm_num)) (by
    have : (0.9 : ℝ) ^ 2 ≤ (cos D - X * sin Ξ * cos H) ^ 2 := by gcongr
    nlinarith [sq_nonneg ((sin D - Y * sin Ξ) * cos (deltaa X Ξ H D))]) (by norm_num) (by norm_num) (by norm_num)).mono
      (ε' := 3.5e-9) le_rfl (by norm_num) |>.ap (deltap_bound hX.1 hY.1 hΞ.1 hD.1) (by norm_num at *; linarith)
end

/-! ### the sine of the elevation and the horizontal vector -/

section
variable {p dp hp : Rd A} {P Dp Hp : ℝ} (h1 : Ap p P 1.58 1.1e-14) (h2 : Ap dp Dp 0.4155 3.5e-9) (h3 : Apm hp Hp (2 * π) 10 4.8e-8)
include h1 h2 h3

theorem sinElev_ap : Ap (Num.sin p * Num.sin dp + Num.cos p * Num.cos dp * Num.cos hp : Rd A)
    (sin P * sin Dp + cos P * cos Dp * cos Hp) 1 5.6e-8 := by
  have a1 := (h2.sin (by norm_num)).bnd ((Real.abs_sin_le_abs).trans h2.1)
  have a2 := h3.cos (by norm_num)
  have b : Ap (Num.sin p * Num.sin dp + Num.cos p * Num.cos dp * Num.cos hp : Rd A)
    (sin P * sin Dp + cos P * cos Dp * cos Hp) 1.5 5.6e-8 := by apf
  exact b.bnd (sphere_le_one P Dp Hp)

theorem azvec_ap : Ap (Num.sin hp : Rd A) (sin Hp) 1 5.3e-8 ∧
    Ap (Num.cos hp * Num.sin p - Num.tan dp * Num.cos p : Rd A) (cos Hp * sin P - tan Dp * cos P) 1.5 5.3e-8 := by
  have a1 := h2.tan' (by norm_num) (by norm_num)
  have a2 := h3.cos (by norm_num)
  refine ⟨(h3.sin (by norm_num)).mono le_rfl (by norm_num), ?_⟩
  apf

/-- the azimuth is near the exact one, more closely the farther the sun is from the zenith -/
theorem azimuth_apm (hs : 5e-4 ≤ cos (elev P Dp Hp)) :
    Apm (azimuth p dp hp) (azimuth P Dp Hp) (2 * π) (π + 1e-14) (1.07e-7 / cos (elev P Dp Hp)) := by
  obtain ⟨a1, a2⟩ := azvec_ap h1 h2 h3
  have hcd : 0 < cos Dp := by
    have := one_sub_sq_div_two_le_cos (x := Dp)
    have h4 : Dp ^ 2 ≤ 0.4155 ^ 2 := by rw [← sq_abs]; exact pow_le_pow_left₀ (abs_nonneg _) h2.1 2
    norm_num at *; linarith
  have hcd1 := cos_le_one Dp
  have hS := abs_le.1 (sphere_le_one P Dp Hp)
  rw [azimuth_real, rtan_of_cos_ne hcd.ne', ← tan_eq_sin_div_cos]
  have hsq := horiz_sq P Dp Hp
  have e : (sin P * cos Dp * cos Hp - cos P * sin Dp) ^ 2 + (cos Dp * sin Hp) ^ 2
      = cos Dp ^ 2 * ((cos Hp * sin P - tan Dp * cos P) ^ 2 + (sin Hp) ^ 2) := by
    rw [tan_eq_sin_div_cos]; field_simp
  rw [e] at hsq
  have hc2 : cos (elev P Dp Hp) ^ 2 = 1 - (sin P * sin Dp + cos P * cos Dp * cos Hp) ^ 2 := by
    rw [elev_real]
    have := sin_sq_add_cos_sq (arcsin (sin P * sin Dp + cos P * cos Dp * cos Hp))
    rw [sin_arcsin hS.1 hS.2] at this; linarith
  have hle : cos (elev P Dp Hp) ^ 2 ≤ (cos Hp * sin P - tan Dp * cos P) ^ 2 + (sin Hp) ^ 2 := by
    rw [hc2, ← hsq]
    have : cos Dp ^ 2 ≤ 1 := by rw [sq_le_one_iff_abs_le_one, abs_of_pos hcd]; exact hcd1
    have h0 : 0 ≤ (cos Hp * sin P - tan Dp * cos P) ^ 2 + (sin Hp) ^ 2 := by positivity
    nlinarith
  have hc1 := cos_le_one (elev P Dp Hp)
  refine (Apm.atan2 (cos (elev P Dp Hp)) a1 a2 hle (by norm_num at *; linarith) (by norm_num) (by norm_num)).mono le_rfl ?_
  generalize cos (elev P Dp Hp) = c at *
  have c0 : 0 < c := by norm_num at hs; linarith
  have c1 : 0 < c - 2 * 5.3e-8 := by norm_num at *; linarith
  rw [← le_sub_iff_add_le, div_le_iff₀ c1]
  have e2 : (1.07e-7 / c - 1e-14) * (c - 2 * 5.3e-8) = 1.07e-7 - 1.07e-7 / c * (2 * 5.3e-8) - 1e-14 * (c - 2 * 5.3e-8) := by
    field_simp
  have e3 : 1.07e-7 / c ≤ 1.07e-7 / 5e-4 := by gcongr
  rw [e2]
  generalize 1.07e-7 / c = q at *
  norm_num at *; linarith

end
end SW.Nrel
