/-
The zenith and azimuth angles of psa in rounded arithmetic.
-/
import Verif.RdRefr

namespace SW
open Real

/-- two zenith angles whose cosines are near: how near the angles are -/
theorem angle_of_cos {a b δ : ℝ} (ha : 0 ≤ a ∧ a ≤ π) (hb : 0 ≤ b ∧ b ≤ π) (h : |cos a - cos b| ≤ δ) :
    |a - b| * sin b ≤ π * δ ∧ 2 * |a - b| ^ 2 ≤ π ^ 2 * δ := by
  wlog hab : 0 ≤ a - b with H
  · -- reflect both angles
    have hr := H (a := π - a) (b := π - b) (δ := δ) ⟨by linarith, by linarith⟩ ⟨by linarith, by linarith⟩
      (by rw [cos_pi_sub, cos_pi_sub, show -cos a - -cos b = -(cos a - cos b) by ring, abs_neg]; exact h)
      (by linarith)
    rw [sin_pi_sub, show π - a - (π - b) = -(a - b) by ring, abs_neg] at hr
    exact hr
  have hp := pi_pos
  rw [abs_of_nonneg hab]
  have h1 : cos a - cos b = -2 * sin ((a + b) / 2) * sin ((a - b) / 2) := cos_sub_cos a b
  -- the half difference
  have hd0 : 0 ≤ (a - b) / 2 := by linarith
  have hd1 : (a - b) / 2 ≤ π / 2 := by linarith
  have hj : 2 / π * ((a - b) / 2) ≤ sin ((a - b) / 2) := mul_le_sin hd0 hd1
  have hj' : (a - b) ≤ π * sin ((a - b) / 2) := by
    have e : 2 / π * ((a - b) / 2) = (a - b) / π := by ring
    rw [e, div_le_iff₀ hp] at hj; linarith
  have hsd0 : 0 ≤ sin ((a - b) / 2) := sin_nonneg_of_nonneg_of_le_pi hd0 (by linarith)
  -- the half sum
  have hs0 : 0 ≤ sin ((a + b) / 2) := sin_nonneg_of_nonneg_of_le_pi (by linarith) (by linarith)
  have hsb : sin b ≤ 2 * sin ((a + b) / 2) := by
    have e : sin a + sin b = 2 * sin ((a + b) / 2) * cos ((a - b) / 2) := by
      have e1 := sin_add ((a + b) / 2) ((a - b) / 2)
      have e2 := sin_sub ((a + b) / 2) ((a - b) / 2)
      rw [show (a + b) / 2 + (a - b) / 2 = a by ring] at e1
      rw [show (a + b) / 2 - (a - b) / 2 = b by ring] at e2
      linarith
    have : 0 ≤ sin a := sin_nonneg_of_nonneg_of_le_pi ha.1 ha.2
    have hc := cos_le_one ((a - b) / 2)
    nlinarith
  have hsd : sin ((a - b) / 2) ≤ sin ((a + b) / 2) := by
    have e1 : sin ((a + b) / 2) - sin ((a - b) / 2) = 2 * sin (b / 2) * cos (a / 2) := by
      have := sin_sub_sin ((a + b) / 2) ((a - b) / 2)
      rw [this]; congr 2 <;> ring_nf
    have : 0 ≤ sin (b / 2) := sin_nonneg_of_nonneg_of_le_pi (by linarith) (by linarith)
    have : 0 ≤ cos (a / 2) := cos_nonneg_of_neg_pi_div_two_le_of_le (by linarith) (by linarith)
    nlinarith [mul_nonneg ‹0 ≤ sin (b / 2)› ‹0 ≤ cos (a / 2)›]
  have hP : 2 * (sin ((a + b) / 2) * sin ((a - b) / 2)) ≤ δ := by
    rw [h1] at h
    have := (abs_le.1 h).1
    linarith
  constructor
  · have h2 : (a - b) * sin b ≤ π * sin ((a - b) / 2) * (2 * sin ((a + b) / 2)) := by
      have : 0 ≤ sin b := sin_nonneg_of_nonneg_of_le_pi hb.1 hb.2
      gcongr
    nlinarith
  · have h2 : (a - b) ^ 2 ≤ (π * sin ((a - b) / 2)) ^ 2 := by gcongr
    have h3 : sin ((a - b) / 2) ^ 2 ≤ sin ((a + b) / 2) * sin ((a - b) / 2) := by nlinarith
    have h4 : π ^ 2 * (2 * sin ((a - b) / 2) ^ 2) ≤ π ^ 2 * δ := by gcongr; linarith
    nlinarith

/-- parallax hardly changes differences of cosines -/
theorem cos_parallax_diff (k a b : ℝ) (hk : 0 ≤ k) :
    |cos (a + k * sin a) - cos (b + k * sin b)| ≤ (1 + k) ^ 2 * |cos a - cos b| := by
  have e1 : (a + k * sin a + (b + k * sin b)) / 2 = (a + b) / 2 + k * (sin ((a + b) / 2) * cos ((a - b) / 2)) := by
    have e1 := sin_add ((a + b) / 2) ((a - b) / 2)
    have e2 := sin_sub ((a + b) / 2) ((a - b) / 2)
    rw [show (a + b) / 2 + (a - b) / 2 = a by ring] at e1
    rw [show (a + b) / 2 - (a - b) / 2 = b by ring] at e2
    rw [e1, e2]; ring
  have e2 : (a + k * sin a - (b + k * sin b)) / 2 = (a - b) / 2 + k * (cos ((a + b) / 2) * sin ((a - b) / 2)) := by
    have e1 := sin_add ((a + b) / 2) ((a - b) / 2)
    have e2 := sin_sub ((a + b) / 2) ((a - b) / 2)
    rw [show (a + b) / 2 + (a - b) / 2 = a by ring] at e1
    rw [show (a + b) / 2 - (a - b) / 2 = b by ring] at e2
    rw [e1, e2]; ring
  have key : ∀ x c : ℝ, |c| ≤ 1 → |sin (x + k * (sin x * c))| ≤ (1 + k) * |sin x| := by
    intro x c hc
    rw [sin_add]
    refine (abs_add_le _ _).trans ?_
    rw [abs_mul, abs_mul]
    have h1 : |sin x| * |cos (k * (sin x * c))| ≤ |sin x| * 1 := by gcongr; exact abs_cos_le_one _
    have h2 : |cos x| * |sin (k * (sin x * c))| ≤ 1 * (k * (|sin x| * 1)) := by
      gcongr
      · exact abs_cos_le_one _
      · refine (Real.abs_sin_le_abs).trans ?_
        rw [abs_mul, abs_mul, abs_of_nonneg hk]; gcongr
    linarith
  rw [cos_sub_cos (a + k * sin a), cos_sub_cos a, e1, e2]
  rw [abs_mul, abs_mul, abs_mul, abs_mul]
  have k1 := key ((a + b) / 2) (cos ((a - b) / 2)) (abs_cos_le_one _)
  have k2 := key ((a - b) / 2) (cos ((a + b) / 2)) (abs_cos_le_one _)
  rw [mul_comm (sin ((a - b) / 2))] at k2
  calc |(-2 : ℝ)| * |sin ((a + b) / 2 + k * (sin ((a + b) / 2) * cos ((a - b) / 2)))|
        * |sin ((a - b) / 2 + k * (cos ((a + b) / 2) * sin ((a - b) / 2)))|
      ≤ |(-2 : ℝ)| * ((1 + k) * |sin ((a + b) / 2)|) * ((1 + k) * |sin ((a - b) / 2)|) := by gcongr
    _ = _ := by ring

namespace Psa
variable {A : Arith}

/-- the exact refraction correction, on either side of the threshold -/
theorem refract_diff {z₁ z₂ : ℝ} (h1 : 0 ≤ z₁) (h2 : 0 ≤ z₂)
    (h : (-1.4545e-2 ≤ π / 2 - z₁ ∧ -1.4545e-2 ≤ π / 2 - z₂) ∨ (π / 2 - z₁ < -1.4545e-2 ∧ π / 2 - z₂ < -1.4545e-2)) :
    |refract z₁ - refract z₂| ≤ |z₁ - z₂| + 1e-18 := by
  wlog hz : z₂ ≤ z₁ with H
  · have := H h2 h1 (h.imp And.symm And.symm) (le_of_lt (not_le.1 hz))
    rwa [abs_sub_comm, abs_sub_comm z₂] at this
  rw [refract_real, refract_real, abs_of_nonneg (sub_nonneg.2 hz)]
  rcases h with ⟨ha, hb⟩ | ⟨ha, hb⟩
  · rw [if_pos ha, if_pos hb]
    have d1 : Refr.Dom (π / 2 - z₁) := ⟨ha, by linarith⟩
    have d2 : Refr.Dom (π / 2 - z₂) := ⟨hb, by linarith⟩
    have m := (Refr.refr_mono (κ := 1.7802e-2) (by norm_num) (by norm_num) d1 d2 (by linarith)).1
    obtain ⟨t1, a1, b1, -, c1⟩ := Refr.corr_eq (κ := 1.7802e-2) d1
    obtain ⟨t2, a2, b2, -, c2⟩ := Refr.corr_eq (κ := 1.7802e-2) d2
    have hd := (Refr.cot_diff d1 d2 (by linarith)).1
    have hcd : Refr.corr 1.7802e-2 (π / 2 - z₂) ≤ Refr.corr 1.7802e-2 (π / 2 - z₁) + 1e-19 := by
      rw [c1, c2]; norm_num at *; linarith
    generalize Refr.corr 1.7802e-2 (π / 2 - z₂) = X at *
    generalize Refr.corr 1.7802e-2 (π / 2 - z₁) = Y at *
    rw [abs_le]
    constructor <;> norm_num at * <;> linarith
  · rw [if_neg (not_le.2 ha), if_neg (not_le.2 hb)]
    rw [abs_le]; constructor <;> norm_num at * <;> linarith

/-- the parallax of a computed zenith angle -/
theorem parallax_ap {r : ℝ} (h : |r| ≤ 1) :
    Ap (parallax (Num.arccos (Rd.fin r)) : Rd A) (parallax (arccos r)) 3.15 4e-14 := by
  obtain ⟨w, hw, ew⟩ := A.arccos_spec r h
  have p1 := pi_lt_d4
  have h1 : Ap (Num.arccos (Rd.fin r) : Rd A) (arccos r) 3.1416 1e-14 := by
    refine ⟨?_, w, hw, ew⟩
    rw [abs_of_nonneg (arccos_nonneg _)]
    exact (arccos_le_pi r).trans (by norm_num at *; linarith)
  have : Ap (parallax (Num.arccos (Rd.fin r)) : Rd A) (parallax (arccos r)) 3.16 4e-14 := by
    unfold parallax; apf
  refine this.bnd ?_
  have := parallax_mem (z := arccos r) (k := 0.000042587565907513806)
    (arccos_nonneg _) (arccos_le_pi _) (by norm_num) (by norm_num)
  show |arccos r + 0.000042587565907513806 * sin (arccos r)| ≤ _
  rw [abs_of_nonneg this.1]
  exact this.2.1.trans (by norm_num at *; linarith)

theorem parallax_range {r : ℝ} : 0 ≤ parallax (arccos r) ∧ parallax (arccos r) ≤ π := by
  have := parallax_mem (z := arccos r) (k := 0.000042587565907513806)
    (arccos_nonneg _) (arccos_le_pi _) (by norm_num) (by norm_num)
  exact ⟨this.1, this.2.1⟩

/-- two zenith angles from cosines 3.1e-6 apart -/
theorem parallax_near {r r₀ : ℝ} (h : |r| ≤ 1) (h0 : |r₀| ≤ 1) (hr : |r - r₀| ≤ 3.1e-6) :
    |cos (parallax (arccos r)) - cos (parallax (arccos r₀))| ≤ 3.101e-6 ∧
    |parallax (arccos r) - parallax (arccos r₀)| * sin (parallax (arccos r₀)) ≤ 9.75e-6 ∧
    |parallax (arccos r) - parallax (arccos r₀)| ≤ 4e-3 := by
  have hb := abs_le.1 h
  have hb0 := abs_le.1 h0
  have h1 := cos_parallax_diff 0.000042587565907513806 (arccos r) (arccos r₀) (by norm_num)
  rw [cos_arccos hb.1 hb.2, cos_arccos hb0.1 hb0.2] at h1
  have h2 : |cos (parallax (arccos r)) - cos (parallax (arccos r₀))| ≤ 3.101e-6 := by
    refine h1.trans ?_
    have : (1 + 0.000042587565907513806) ^ 2 * |r - r₀| ≤ (1 + 0.000042587565907513806) ^ 2 * 3.1e-6 := by gcongr
    norm_num at *; linarith
  refine ⟨h2, ?_⟩
  obtain ⟨h3, h4⟩ := angle_of_cos parallax_range parallax_range h2
  have p1 := pi_lt_d4
  have p0 := pi_pos
  constructor
  · norm_num at *; linarith
  · have : π ^ 2 ≤ 9.87 := by norm_num at *; nlinarith
    refine abs_le_of_sq_le_sq (b := (4e-3 : ℝ)) ?_ (by norm_num)
    rw [sq_abs] at h4
    generalize (parallax (arccos r) - parallax (arccos r₀)) ^ 2 = q at *
    norm_num at *; linarith

/-- the zenith angle, with or without refraction -/
theorem zenith_rd {r r₀ : ℝ} (h : |r| ≤ 1) (h0 : |r₀| ≤ 1) (hr : |r - r₀| ≤ 3.1e-6) (ρ : Bool) :
    ∃ w, withRefr ρ (parallax (Num.arccos (Rd.fin r)) : Rd A) = Rd.fin w ∧ |w| ≤ 3.2 ∧
      ((ρ = true → 1.1e-5 < |π / 2 + 1.4545e-2 - parallax (arccos r₀)|) →
        |w - withRefr ρ (parallax (arccos r₀))| * sin (parallax (arccos r₀)) ≤ 9.8e-6 ∧
        |w - withRefr ρ (parallax (arccos r₀))| ≤ 4.1e-3) := by
  have hA := parallax_ap (A := A) h
  obtain ⟨hc, hn, hf⟩ := parallax_near h h0 hr
  have hr0 := parallax_range (r := r)
  have hr1 := parallax_range (r := r₀)
  generalize (parallax (Num.arccos (Rd.fin r)) : Rd A) = a at *
  generalize parallax (arccos r) = z₁ at *
  generalize parallax (arccos r₀) = ζ at *
  have hs1 := sin_le_one ζ
  have hs0 : 0 ≤ sin ζ := sin_nonneg_of_nonneg_of_le_pi hr1.1 hr1.2
  have p1 := pi_lt_d4
  have p2 := pi_gt_d4
  -- from the two bounds on the angles
  have fin : ∀ w Z : ℝ, |w - Z| ≤ |z₁ - ζ| + 1e-12 →
      |w - Z| * sin ζ ≤ 9.8e-6 ∧ |w - Z| ≤ 4.1e-3 := by
    intro w Z hw
    refine ⟨?_, hw.trans (by norm_num at *; linarith)⟩
    have : |w - Z| * sin ζ ≤ (|z₁ - ζ| + 1e-12) * sin ζ := by gcongr
    norm_num at *; nlinarith
  cases ρ with
  | false =>
    obtain ⟨m, w, hw, ew⟩ := hA
    refine ⟨w, hw, (Ap.fin_bound m ew).trans (by norm_num), fun _ => ?_⟩
    apply fin
    show |w - ζ| ≤ _
    have := abs_sub_le w z₁ ζ
    norm_num at *; linarith
  | true =>
    show ∃ w, refract a = Rd.fin w ∧ _
    obtain ⟨w, hw, ew⟩ := refract_num hA hr0.1 hr0.2 (by norm_num)
    refine ⟨w, hw, ?_, fun ht => ?_⟩
    · have := abs_le.1 ew
      rw [abs_le]; constructor <;> norm_num at * <;> linarith
    · have ht := ht rfl
      -- the error does not carry the angle over the threshold
      have hside : |z₁ - ζ| ≤ |π / 2 + 1.4545e-2 - ζ| - 5e-7 := by
        rcases le_total (|π / 2 + 1.4545e-2 - ζ|) 0.01 with hc | hc
        · have hc' := abs_le.1 hc
          have hsz : 0.99 ≤ sin ζ := by
            have e : sin ζ = cos (π / 2 - ζ) := by rw [cos_pi_div_two_sub]
            rw [e]
            have := one_sub_sq_div_two_le_cos (x := π / 2 - ζ)
            have : (π / 2 - ζ) ^ 2 ≤ 0.0246 ^ 2 := by
              apply sq_le_sq' <;> norm_num at * <;> linarith
            norm_num at *; linarith
          have h9 : |z₁ - ζ| * 0.99 ≤ 9.75e-6 := le_trans (by gcongr) hn
          norm_num at *; linarith
        · norm_num at *; linarith
      have hd := abs_le.1 hside
      have hz1 : 4e-14 + 1e-13 < |π / 2 - z₁ + 1.4545e-2| := by
        rcases abs_cases (π / 2 + 1.4545e-2 - ζ) with ⟨e, hc⟩ | ⟨e, hc⟩
        · rw [e] at hd
          rw [abs_of_pos (by norm_num at *; linarith)]; norm_num at *; linarith
        · rw [e] at hd
          rw [abs_of_neg (by norm_num at *; linarith)]; norm_num at *; linarith
      obtain ⟨-, w', hw', ew'⟩ := refract_ap hA hr0.1 hr0.2 (by norm_num) hz1
      have : w' = w := by rw [hw] at hw'; exact (Rd.fin_inj.1 hw').symm
      subst this
      apply fin
      show |w' - refract ζ| ≤ _
      have hdiff := refract_diff hr0.1 hr1.1 (z₁ := z₁) (z₂ := ζ) (by
        rcases abs_cases (π / 2 + 1.4545e-2 - ζ) with ⟨e, hc⟩ | ⟨e, hc⟩
        · rw [e] at hd ht
          left; constructor <;> norm_num at * <;> linarith
        · rw [e] at hd ht
          right; constructor <;> norm_num at * <;> linarith)
      have := abs_sub_le w' (refract z₁) (refract ζ)
      norm_num at *; linarith

end Psa
end SW
