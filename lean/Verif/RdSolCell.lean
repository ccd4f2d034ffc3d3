/-
One cell of soltrack in rounded arithmetic, both engines.
-/
import Verif.RdSolPos
import Verif.RdPsaCell

namespace SW
open Real

namespace Soltrack
variable {A : Arith}

/-- zenith angle with parallax from the sine of the altitude -/
noncomputable def zs (S : ℝ) : ℝ := arccos S + 4.2635e-5 * sin (arccos S)

theorem zs_eq (S : ℝ) : π / 2 - parallax (arcsin S) = zs S := by
  unfold zs
  rw [parallax_real, arccos_eq_pi_div_two_sub_arcsin, sin_pi_div_two_sub]; ring

theorem zs_range (S : ℝ) : 0 ≤ zs S ∧ zs S ≤ π := by
  have := parallax_mem (z := arccos S) (k := 4.2635e-5) (arccos_nonneg _) (arccos_le_pi _) (by norm_num) (by norm_num)
  exact ⟨this.1, this.2.1⟩

theorem sin_zs_le (S : ℝ) : sin (zs S) ≤ 1.0000427 * sin (arccos S) := by
  have h0 : 0 ≤ sin (arccos S) := sin_nonneg_of_nonneg_of_le_pi (arccos_nonneg _) (arccos_le_pi _)
  have h1 := (abs_le.1 (Real.abs_sin_sub_sin_le (zs S) (arccos S))).2
  unfold zs at *
  rw [add_sub_cancel_left, abs_of_nonneg (by positivity)] at h1
  norm_num at *; linarith

/-- two zenith angles from near sines -/
theorem zs_near {r S δ : ℝ} (h : |r| ≤ 1) (h0 : |S| ≤ 1) (hr : |r - S| ≤ δ) :
    |zs r - zs S| * sin (zs S) ≤ 3.142 * δ := by
  have hb := abs_le.1 h
  have hb0 := abs_le.1 h0
  have h1 := cos_parallax_diff 4.2635e-5 (arccos r) (arccos S) (by norm_num)
  rw [cos_arccos hb.1 hb.2, cos_arccos hb0.1 hb0.2] at h1
  have h2 : |cos (zs r) - cos (zs S)| ≤ 1.0000854 * δ := by
    refine h1.trans ?_
    have : (1 + 4.2635e-5 : ℝ) ^ 2 * |r - S| ≤ 1.0000854 * δ := by
      have h00 := abs_nonneg (r - S)
      calc (1 + 4.2635e-5 : ℝ) ^ 2 * |r - S| ≤ 1.0000854 * |r - S| := by gcongr; norm_num
        _ ≤ _ := by gcongr
    exact this
  obtain ⟨h3, -⟩ := angle_of_cos (zs_range r) (zs_range S) h2
  have p1 := pi_lt_d4
  have hδ := (abs_nonneg _).trans hr
  refine h3.trans ?_
  have : π * (1.0000854 * δ) ≤ 3.1416 * (1.0000854 * δ) := by
    have : (0:ℝ) ≤ 1.0000854 * δ := by positivity
    gcongr
  norm_num at *; linarith

/-- altitude with parallax of a computed sine -/
theorem alt_ap {r : ℝ} (h : |r| ≤ 1) :
    Ap (parallax (Num.arcsin (Rd.fin r)) : Rd A) (parallax (arcsin r)) 1.58 4e-14 := by
  obtain ⟨w, hw, ew⟩ := A.arcsin_spec r h
  have p1 := pi_lt_d4
  have h1 : Ap (Num.arcsin (Rd.fin r) : Rd A) (arcsin r) 1.571 1e-14 := by
    refine ⟨?_, w, hw, ew⟩
    have := neg_pi_div_two_le_arcsin r
    have := arcsin_le_pi_div_two r
    rw [abs_le]; constructor <;> norm_num at * <;> linarith
  have : Ap (parallax (Num.arcsin (Rd.fin r)) : Rd A) (parallax (arcsin r)) 1.58 4e-14 := by
    unfold parallax; apf
  exact this

/-- the zenith angle, with or without refraction -/
theorem zenith_rd {r S κ : ℝ} (h : |r| ≤ 1) (h0 : |S| ≤ 1) (hκ0 : 0 < κ) (hκ1 : κ ≤ 1) (hr : |r - S| ≤ 3.6e-6 / κ)
    (hs : 0.003 ≤ κ * sin (zs S)) (ρ : Bool) (hρ : ρ = true → zs S ≤ π / 2 + 0.008727) :
    ∃ w, (zenith ρ (Rd.fin r : Rd A)) = Rd.fin w ∧ |w| ≤ 3.2 ∧
      |w - (π / 2 - withRefr ρ (π / 2 - zs S))| * (κ * sin (zs S)) ≤ 1.14e-5 := by
  have hA := alt_ap (A := A) h
  have hn := zs_near h h0 hr
  obtain ⟨r0, r1⟩ := zs_range r
  obtain ⟨s0, s1⟩ := zs_range S
  have e1 : parallax (arcsin r) = π / 2 - zs r := by linarith [zs_eq r]
  rw [e1] at hA
  have hz : (zenith ρ (Rd.fin r : Rd A)) = HALFPI - withRefr ρ (parallax (Num.arcsin (Rd.fin r))) := rfl
  rw [hz]
  generalize (parallax (Num.arcsin (Rd.fin r)) : Rd A) = a at *
  have p1 := pi_lt_d4
  have p2 := pi_gt_d4
  have hs0 : 0 ≤ sin (zs S) := sin_nonneg_of_nonneg_of_le_pi s0 s1
  have hs1 := sin_le_one (zs S)
  have hks : κ * sin (zs S) ≤ 1 := mul_le_one₀ hκ1 hs0 hs1
  have hn' : |zs r - zs S| * (κ * sin (zs S)) ≤ 1.13112e-5 := by
    have : κ * (|zs r - zs S| * sin (zs S)) ≤ κ * (3.142 * (3.6e-6 / κ)) := by gcongr
    rw [show κ * (3.142 * (3.6e-6 / κ)) = 3.142 * 3.6e-6 by field_simp] at this
    norm_num at *; linarith
  have hD : |zs r - zs S| ≤ 0.0038 := by
    by_contra hc
    push Not at hc
    have := mul_lt_mul' hc.le (lt_of_lt_of_le (by norm_num : (0.002999:ℝ) < 0.003) hs) (by norm_num) (by linarith [abs_nonneg (zs r - zs S)] )
    norm_num at *; linarith
  have hHP := HALFPI_ap (A := A)
  -- it is enough to be near the exact result at the perturbed sine
  have fin : ∀ w Z : ℝ, |w - Z| ≤ |zs r - zs S| + 1e-12 → |w - Z| * (κ * sin (zs S)) ≤ 1.14e-5 := by
    intro w Z hw
    have hq : 0 ≤ κ * sin (zs S) := by positivity
    have : |w - Z| * (κ * sin (zs S)) ≤ (|zs r - zs S| + 1e-12) * (κ * sin (zs S)) := by gcongr
    generalize κ * sin (zs S) = q at *
    norm_num at *; nlinarith
  cases ρ with
  | false =>
    have h1 : Ap (HALFPI - a : Rd A) (π / 2 - (π / 2 - zs r)) 3.16 1e-13 := by apf
    obtain ⟨m, w, hw, ew⟩ := h1
    refine ⟨w, hw, (Ap.fin_bound m ew).trans (by norm_num), ?_⟩
    apply fin
    show |w - (π / 2 - (π / 2 - zs S))| ≤ _
    rw [sub_sub_cancel] at ew ⊢
    have := abs_sub_le w (zs r) (zs S)
    norm_num at *; linarith
  | true =>
    have hρ := hρ rfl
    have hD' := abs_le.1 hD
    have d1 : SolRefr.Dom (π / 2 - zs r) := ⟨by norm_num at *; linarith, by linarith⟩
    have d2 : SolRefr.Dom (π / 2 - zs S) := ⟨by norm_num at *; linarith, by linarith⟩
    have h2 := refract_ap hA d1 (by norm_num)
    have h1 : Ap (HALFPI - refract a : Rd A) (π / 2 - refract (π / 2 - zs r)) 3.19 3e-13 := by
      refine (hHP.sub h2 (by norm_num)).fit rfl (by norm_num) (by norm_num)
    obtain ⟨m, w, hw, ew⟩ := h1
    refine ⟨w, hw, (Ap.fin_bound m ew).trans (by norm_num), ?_⟩
    apply fin
    show |w - (π / 2 - refract (π / 2 - zs S))| ≤ _
    have h3 := refract_diff d1 d2
    rw [show π / 2 - zs r - (π / 2 - zs S) = -(zs r - zs S) by ring, abs_neg] at h3
    have := abs_sub_le w (π / 2 - refract (π / 2 - zs r)) (π / 2 - refract (π / 2 - zs S))
    rw [show π / 2 - refract (π / 2 - zs r) - (π / 2 - refract (π / 2 - zs S))
      = -(refract (π / 2 - zs r) - refract (π / 2 - zs S)) by ring, abs_neg] at this
    norm_num at *; linarith

/-- what the results of a cell are near to: `ζ` the exact zenith angle without refraction -/
structure NearPos (ρ : Bool) (κ ζ az : ℝ) (o : Out (Rd A)) : Prop where
  zenith : ∃ w, o.zenith = Rd.fin w ∧ |w| ≤ 3.2 ∧
    |w - (π / 2 - withRefr ρ (π / 2 - ζ))| * (κ * sin ζ) ≤ 1.14e-5
  azimuth : Apm o.azimuth az (2 * π) (π + 1e-14) (6.51e-6 / (κ * sin ζ))

theorem cell_rd {cl sl hh sd cd td : Rd A} {p κ H D : ℝ} (hl : LatOf cl sl p κ) (hκ0 : 0.003 ≤ κ) (hκ1 : κ ≤ 1)
    (hh' : Apm hh H (2 * π) 742100 1.31e-6) (hd : DecOf sd cd td D) (hD : 0 < cos D)
    (hs : 0.003 ≤ κ * sin (π / 2 - altP p D H)) (ρ : Bool) (hρ : ρ = true → π / 2 - altP p D H ≤ π / 2 + 0.008727)
    (o : Out (Rd A)) (hz : o.zenith = zenith ρ (sinAlt sl cl sd cd hh)) (ha : o.azimuth = azimuth sl cl td hh) :
    NearPos ρ κ (π / 2 - altP p D H) (aziR p D H) o := by
  have e0 : π / 2 - altP p D H = zs (sin p * sin D + cos p * cos D * cos H) := zs_eq _
  rw [e0] at hs hρ ⊢
  clear e0
  have hκ0' : 0.0029 ≤ κ := by norm_num at *; linarith
  have hκ : 0 < κ := by norm_num at hκ0; linarith
  have h1 := sinAlt_ap hl hκ0' hκ1 hh' hd
  have hS := sphere_le_one p D H
  have hSb := abs_le.1 hS
  have haz := azimuth_apm hl hκ0' hκ1 hh' hd
    (zg := arccos (sin p * sin D + cos p * cos D * cos H)) hD (cos_arccos hSb.1 hSb.2)
  generalize sin p * sin D + cos p * cos D * cos H = S at *
  have hzs := sin_zs_le S
  have hg0 : 0 ≤ sin (arccos S) := sin_nonneg_of_nonneg_of_le_pi (arccos_nonneg _) (arccos_le_pi _)
  have hg : 0.00299 ≤ κ * sin (arccos S) := by
    have : κ * sin (zs S) ≤ κ * (1.0000427 * sin (arccos S)) := by gcongr
    norm_num at *; linarith
  have hkz : 0 < κ * sin (zs S) := lt_of_lt_of_le (by norm_num) hs
  constructor
  · obtain ⟨-, r, hr, er⟩ := h1
    -- the computed sine does not leave [-1, 1]
    have hr1 : |r| ≤ 1 := by
      have hsq : sin (arccos S) ^ 2 = 1 - S ^ 2 := by
        have := sin_sq_add_cos_sq (arccos S)
        rw [cos_arccos hSb.1 hSb.2] at this; linarith
      have hq : 0.00299 ^ 2 ≤ κ ^ 2 * (1 - S ^ 2) := by
        rw [← hsq, ← mul_pow]; gcongr
      have ha1 : |S| ≤ 1 - 4.4e-6 / κ := by
        have hS2 : S ^ 2 = |S| ^ 2 := (sq_abs S).symm
        have h01 : 1 - S ^ 2 ≤ 2 * (1 - |S|) := by rw [hS2]; nlinarith [abs_nonneg S]
        have hq2 : 0.00299 ^ 2 ≤ 2 * (κ * (1 - |S|)) := by
          have : κ ^ 2 * (1 - S ^ 2) ≤ κ * (2 * (1 - |S|)) := by
            have h00 : 0 ≤ 1 - |S| := by linarith
            calc κ ^ 2 * (1 - S ^ 2) ≤ κ ^ 2 * (2 * (1 - |S|)) := by gcongr
              _ ≤ κ * (2 * (1 - |S|)) := by
                apply mul_le_mul_of_nonneg_right _ (by positivity)
                nlinarith
          linarith
        have : 4.4e-6 / κ ≤ 1 - |S| := by
          rw [div_le_iff₀ hκ]; norm_num at *; linarith
        linarith
      have : |r| ≤ |r - S| + |S| := by
        have := abs_add_le (r - S) S; rwa [sub_add_cancel] at this
      have e2 : 4.4e-6 / κ = 3.6e-6 / κ + 0.8e-6 / κ := by ring
      have e3 : 0 < 0.8e-6 / κ := by positivity
      linarith
    rw [hz, hr]
    exact zenith_rd hr1 hS hκ hκ1 er hs ρ hρ
  · rw [ha]
    refine (haz (by norm_num at *; linarith)).mono le_rfl ?_
    have hkg : 0 < κ * sin (arccos S) := lt_of_lt_of_le (by norm_num) hg
    rw [div_le_div_iff₀ hkg hkz]
    have : κ * sin (zs S) ≤ κ * (1.0000427 * sin (arccos S)) := by gcongr
    norm_num at *; linarith

/-- the numpy engine -/
theorem cellPy_rd {t : ℤ} {x y : ℝ} (ht : InSec t) (hx : |x| ≤ 180) (hy : |y| ≤ 90)
    (hc : 0.003 ≤ cos (y * (π / 180)))
    (hs : 0.003 ≤ cos (y * (π / 180)) * sin (π / 2 - altP (y * (π / 180)) (decAt t) (H0 t + x * (π / 180)))) (ρ : Bool)
    (hρ : ρ = true → π / 2 - altP (y * (π / 180)) (decAt t) (H0 t + x * (π / 180)) ≤ π / 2 + 0.008727) :
    NearPos ρ (cos (y * (π / 180))) (π / 2 - altP (y * (π / 180)) (decAt t) (H0 t + x * (π / 180)))
      (aziR (y * (π / 180)) (decAt t) (H0 t + x * (π / 180))) (cellPy t (Rd.fin x : Rd A) (Rd.fin y) ρ) := by
  have hd : Ap (timePy (Scalar.ofInt t : Rd A)).decl (decAt t) 0.41 4e-11 :=
    decl_ap (tJC_ap ht) (sinoPy_ap (tJC_ap ht)) (LPy_apm (tJC_ap ht))
  have hh := hour_apm ht (raPy_apm (tJC_ap (A := A) ht)) (lonPy_ap hx)
  exact cell_rd (latPy hy hc) hc (cos_le_one _) hh (decQuot hd (cosdecPy_ap hd)) (cos_decR (tJC_bound ht)) hs ρ hρ _ rfl rfl

/-- the numexpr engine -/
theorem cellNe_rd (q : Bool) {t : ℤ} {x y : ℝ} (ht : InSec t) (hx : |x| ≤ 180) (hy : |y| ≤ 90)
    (hs : 0.003 ≤ 1 * sin (π / 2 - altP (y * (π / 180)) (decAt t) (H0 t + x * (π / 180)))) (ρ : Bool)
    (hρ : ρ = true → π / 2 - altP (y * (π / 180)) (decAt t) (H0 t + x * (π / 180)) ≤ π / 2 + 0.008727) :
    NearPos ρ 1 (π / 2 - altP (y * (π / 180)) (decAt t) (H0 t + x * (π / 180)))
      (aziR (y * (π / 180)) (decAt t) (H0 t + x * (π / 180))) (cellNe q t (Rd.fin x : Rd A) (Rd.fin y) ρ) := by
  have hd : Ap (timeNe (Scalar.ofInt t : Rd A)).decl (decAt t) 0.41 4e-11 :=
    decl_ap (tJC_ap ht) (sinoNe_ap (tJC_ap ht)) (LNe_apm (tJC_ap ht))
  have hh := hour_apm ht (raNe_apm (tJC_ap (A := A) ht)) (lonNe_ap hx)
  have hcd := (hd.cos (by norm_num)).mono (M' := 1) (ε' := 2e-10) le_rfl (by norm_num)
  cases q with
  | true => exact cell_rd (latNe hy) (by norm_num) le_rfl hh (decQuot hd hcd) (cos_decR (tJC_bound ht)) hs ρ hρ _ rfl rfl
  | false => exact cell_rd (latNe hy) (by norm_num) le_rfl hh (decTan hd) (cos_decR (tJC_bound ht)) hs ρ hρ _ rfl rfl

end Soltrack
end SW
