/-
One cell of nrel in rounded arithmetic.
-/
import Verif.RdNrelTopo

namespace SW.Nrel
open Real
variable {A : Arith}

theorem kap_ap : Ap (ATM_REFR * 1.7802e-2 : Rd A) kap 0.0179 2e-16 := by
  have a1 : Ap (1013.25 / 1010.0 : Rd A) (1013.25 / 1010.0) 1.00322 3.1e-15 := by
    refine (Ap.div 1010 1.00322 (Ap.lit le_rfl (by norm_num)) (Ap.lit le_rfl (by norm_num)) ?_ ?_ ?_ ?_).mono le_rfl ?_ <;> norm_num
  have a2 : Ap (273 + 12.0 : Rd A) (273 + 12.0) 285 3e-13 := by apf
  have a3 : Ap (283.0 / (273 + 12.0) : Rd A) (283.0 / (273 + 12.0)) 0.99299 3.1e-15 := by
    refine (Ap.div 285 0.99299 (Ap.lit le_rfl (by norm_num)) a2 ?_ ?_ ?_ ?_).mono le_rfl ?_ <;> norm_num
  have a4 : Ap (1.7802e-2 : Rd A) (1.7802e-2 : ℝ) 0.017802 1.8e-17 := (Ap.lit le_rfl (by norm_num)).fit (by norm_num) (by norm_num) (by norm_num)
  exact ((a1.mul a3 (by norm_num)).mul a4 (by norm_num)).mono (by norm_num) (by norm_num)

/-- the correction, from an elevation near one at which the correction is defined -/
theorem refrCorr_rd {e : Rd A} {E ε : ℝ} (he : Ap e E 1.58 ε) (hE : Refr.Dom E) (hε : ε ≤ 1.2e-3) :
    ∃ w, refrCorr e = Rd.fin w ∧ |w - Refr.corr kap E| ≤ 0.71 * ε + 2e-14 := by
  have h0 := he.e_nonneg
  have hd := hE.den
  have hden : Ap (e + 8.9186e-2 : Rd A) (E + 8.9186e-2) 1.67 (ε + 2e-15) := by
    refine (he.add (Ap.lit le_rfl (by norm_num)) (by norm_num at *; linarith)).fit rfl (by norm_num) ?_
    norm_num at *; linarith
  have habs : |E + 8.9186e-2| = E + 8.9186e-2 := abs_of_pos (by norm_num at *; linarith)
  have hden0 : 0 < E + 8.9186e-2 := by norm_num at *; linarith
  have hm : (0 : ℝ) < 0.0746 - (ε + 2e-15) := by norm_num at *; linarith
  have hq : (3.1376e-3 * 1e-15 + 1e-30 + 0.0421 * (ε + 2e-15)) / (0.0746 - (ε + 2e-15)) ≤ 0.574 * ε + 2e-15 := by
    rw [div_le_iff₀ hm]
    norm_num at *; nlinarith
  have hquo : Ap (3.1376e-3 / (e + 8.9186e-2) : Rd A) (3.1376e-3 / (E + 8.9186e-2)) 0.0421 (0.575 * ε + 3e-15) := by
    refine (Ap.div 0.0746 0.0421 (ε := 3.1376e-3 * 1e-15 + 1e-30) (M := 0.0032) ?_ hden ?_ ?_ ?_ ?_).mono le_rfl ?_
    · refine (Ap.lit le_rfl (by norm_num)).fit rfl (by norm_num) (by norm_num)
    · rw [habs]; exact hd
    · linarith
    · rw [abs_div, habs, div_le_iff₀ hden0]
      norm_num at *; linarith
    · norm_num at *; linarith
    · norm_num at *; linarith
  have harg : Ap (e + 3.1376e-3 / (e + 8.9186e-2) : Rd A) (Refr.arg E) 1.6 (1.576 * ε + 1e-14) := by
    refine ((he.add hquo (by norm_num at *; linarith)).fit rfl le_rfl ?_).bnd ?_
    · norm_num at *; linarith
    · have a1 := Refr.arg_lower hE
      have a2 := Refr.arg_upper hE
      have a3 := pi_lt_d2
      show |Refr.arg E| ≤ _
      rw [abs_le]
      generalize Refr.arg E = X at a1 a2 ⊢
      constructor <;> norm_num at * <;> linarith
  have hkb := kap_bound
  have hk0 : 0 ≤ kap := le_trans (by norm_num) hkb.1
  obtain ⟨w, hw, ew⟩ := Refr.quot_rd kap_ap hk0 harg (Refr.sin_arg_lower hE) (by norm_num at *; linarith)
  refine ⟨w, hw, ?_⟩
  obtain ⟨τ, t0, t1, -, hc⟩ := Refr.corr_eq (κ := kap) hE
  have e1 : |kap / 60 * (cos (Refr.arg E) / sin (Refr.arg E)) - Refr.corr kap E| ≤ 1e-18 := by
    rw [hc]; unfold Refr.cot
    rw [show ∀ x y z : ℝ, x * y - x * (y + z) = -(x * z) by intros; ring, abs_neg, abs_of_nonneg (by positivity)]
    have : kap / 60 * τ ≤ 0.0178 / 60 * τ := by gcongr; exact hkb.2
    norm_num at *; linarith
  have := abs_sub_le w (kap / 60 * (cos (Refr.arg E) / sin (Refr.arg E))) (Refr.corr kap E)
  have ew' : |w - kap / 60 * (cos (Refr.arg E) / sin (Refr.arg E))| ≤ 0.7 * ε + 1.5e-14 := ew.trans (by norm_num; linarith)
  norm_num at *; linarith

/-- The refraction correction in rounded arithmetic, away from its threshold -/
theorem refract_ap {a : Rd A} {E ε : ℝ} (h : Ap a E 1.58 ε) (h1 : E ≤ π / 2) (hε : ε ≤ 1.1e-3)
    (ht : ε + 1e-13 < |E + 1.4545e-2|) :
    ∃ w, refract a = Rd.fin w ∧ |w - refract E| ≤ 1.72 * ε + 2e-13 := by
  have e0 := h.e_nonneg
  rw [refract_real]
  unfold refract
  obtain ⟨o, ho, ho'⟩ := Psa.litThr (A := A)
  obtain ⟨mE, q, rfl, eq⟩ := id h
  have p1 := pi_lt_d4
  rw [ho, Psa.whereLe_rd]
  have eq' := abs_le.1 eq
  have ho2 := abs_le.1 ho'
  by_cases hc : -1.4545e-2 ≤ E
  · rw [if_pos hc]
    have ht' : ε + 1e-13 < E + 1.4545e-2 := by
      rwa [abs_of_nonneg (by norm_num at *; linarith)] at ht
    rw [if_pos (by norm_num at *; linarith)]
    have hD : Refr.Dom E := ⟨hc, h1⟩
    obtain ⟨w, hw, ew⟩ := refrCorr_rd h hD (by norm_num at *; linarith)
    have hkb := kap_bound
    have hcb := Refr.corr_bounds (κ := kap) (by norm_num at *; linarith) (by norm_num at *; linarith) hD
    have hwa : Ap (refrCorr (Rd.fin q : Rd A)) (Refr.corr kap E) 0.0112 (0.71 * ε + 5e-14) := by
      refine ⟨?_, w, hw, ew.trans (by norm_num)⟩
      rw [abs_le]; constructor <;> norm_num at * <;> linarith
    obtain ⟨-, r, hr', er⟩ := h.add hwa (by norm_num at *; linarith)
    exact ⟨r, hr', er.trans (by norm_num at *; linarith)⟩
  · rw [if_neg hc]
    push Not at hc
    have ht' : ε + 1e-13 < -(E + 1.4545e-2) := by
      rwa [abs_of_neg (by norm_num at *; linarith)] at ht
    rw [if_neg (by push Not; norm_num at *; linarith)]
    exact ⟨q, rfl, eq.trans (by norm_num at *; linarith)⟩

/-- and it is a number anyhow -/
theorem refract_num {a : Rd A} {E ε : ℝ} (h : Ap a E 1.58 ε) (h1 : E ≤ π / 2) (hε : ε ≤ 1.1e-3) :
    ∃ r, refract a = Rd.fin r ∧ |r - E| ≤ ε + 0.013 := by
  have e0 := h.e_nonneg
  unfold refract
  obtain ⟨o, ho, ho'⟩ := Psa.litThr (A := A)
  obtain ⟨mE, q, rfl, eq⟩ := id h
  have p1 := pi_lt_d4
  have p2 := pi_gt_d2
  rw [ho, Psa.whereLe_rd]
  have eq' := abs_le.1 eq
  have ho2 := abs_le.1 ho'
  have hkb := kap_bound
  split_ifs with hc
  · obtain ⟨E', hE, hD, hEd⟩ : ∃ E', |q - E'| ≤ ε + 4e-14 ∧ Refr.Dom E' ∧ |E'| ≤ 1.58 := by
      rcases le_total (-1.4545e-2) E with hd | hd
      · exact ⟨_, eq.trans (by norm_num), ⟨hd, h1⟩, mE⟩
      · refine ⟨-1.4545e-2, ?_, ⟨le_rfl, by norm_num at *; linarith⟩, by norm_num⟩
        rw [abs_le]; constructor <;> norm_num at * <;> linarith
    obtain ⟨w, hw, ew⟩ := refrCorr_rd (A := A) ⟨hEd, q, rfl, hE⟩ hD (by norm_num at *; linarith)
    have hcb := Refr.corr_bounds (κ := kap) (by norm_num at *; linarith) (by norm_num at *; linarith) hD
    have hwb : |w| ≤ 0.0121 := by
      have := abs_le.1 ew
      rw [abs_le]; constructor <;> norm_num at * <;> linarith
    have hwa : Ap (refrCorr (Rd.fin q : Rd A)) w 0.0121 0 := ⟨hwb, w, hw, by simp⟩
    obtain ⟨-, r, hr', er⟩ := h.add hwa (by norm_num at *; linarith)
    refine ⟨r, hr', ?_⟩
    have := abs_le.1 hwb
    have := abs_le.1 er
    rw [abs_le]; constructor <;> norm_num at * <;> linarith
  · exact ⟨q, rfl, eq.trans (by norm_num)⟩

/-- the exact correction, on either side of the threshold -/
theorem refract_diff {a b : ℝ} (h1 : a ≤ π / 2) (h2 : b ≤ π / 2)
    (h : (-1.4545e-2 ≤ a ∧ -1.4545e-2 ≤ b) ∨ (a < -1.4545e-2 ∧ b < -1.4545e-2)) :
    |refract a - refract b| ≤ |a - b| + 1e-18 := by
  wlog hz : b ≤ a with H
  · have := H h2 h1 (h.imp And.symm And.symm) (le_of_lt (not_le.1 hz))
    rwa [abs_sub_comm, abs_sub_comm b] at this
  rw [refract_real, refract_real, abs_of_nonneg (sub_nonneg.2 hz)]
  rcases h with ⟨ha, hb⟩ | ⟨ha, hb⟩
  · rw [if_pos ha, if_pos hb]
    have d1 : Refr.Dom a := ⟨ha, h1⟩
    have d2 : Refr.Dom b := ⟨hb, h2⟩
    have hkb := kap_bound
    have m := (Refr.refr_mono (κ := kap) (by norm_num at *; linarith) (by norm_num at *; linarith) d2 d1 hz).1
    obtain ⟨t1, a1, b1, -, c1⟩ := Refr.corr_eq (κ := kap) d1
    obtain ⟨t2, a2, b2, -, c2⟩ := Refr.corr_eq (κ := kap) d2
    have hd := (Refr.cot_diff d2 d1 hz).1
    have hcd : Refr.corr kap a ≤ Refr.corr kap b + 1e-19 := by
      rw [c1, c2]
      have hk0 : 0 ≤ kap / 60 := by norm_num at *; linarith
      have : kap / 60 * (Refr.cot a + t1) ≤ kap / 60 * (Refr.cot b + t2 + t1) := by gcongr; linarith
      have : kap / 60 * t1 ≤ 0.0178 / 60 * t1 := by gcongr; exact hkb.2
      norm_num at *; linarith
    generalize Refr.corr kap a = X at *
    generalize Refr.corr kap b = Y at *
    rw [abs_le]
    constructor <;> norm_num at * <;> linarith
  · rw [if_neg (not_le.2 ha), if_neg (not_le.2 hb)]
    rw [abs_le]; constructor <;> norm_num at * <;> linarith

/-- two elevations from sines 5.6e-8 apart -/
theorem arcsin_near {r r₀ : ℝ} (h : |r| ≤ 1) (h0 : |r₀| ≤ 1) (hr : |r - r₀| ≤ 5.6e-8) :
    |arcsin r - arcsin r₀| * cos (arcsin r₀) ≤ 1.76e-7 ∧ |arcsin r - arcsin r₀| ≤ 5.4e-4 := by
  have hb := abs_le.1 h
  have hb0 := abs_le.1 h0
  obtain ⟨h3, h4⟩ := angle_of_cos (a := arccos r) (b := arccos r₀) (δ := 5.6e-8) ⟨arccos_nonneg _, arccos_le_pi _⟩ ⟨arccos_nonneg _, arccos_le_pi _⟩
    (by rw [cos_arccos hb.1 hb.2, cos_arccos hb0.1 hb0.2]; exact hr)
  have e : arccos r - arccos r₀ = -(arcsin r - arcsin r₀) := by
    rw [arccos_eq_pi_div_two_sub_arcsin, arccos_eq_pi_div_two_sub_arcsin]; ring
  have e2 : sin (arccos r₀) = cos (arcsin r₀) := by
    rw [arccos_eq_pi_div_two_sub_arcsin, sin_pi_div_two_sub]
  rw [e, abs_neg, e2] at h3
  rw [e, abs_neg] at h4
  have p1 := pi_lt_d4
  have p0 := pi_pos
  constructor
  · norm_num at *; linarith
  · have : π ^ 2 ≤ 9.87 := by norm_num at *; nlinarith
    refine abs_le_of_sq_le_sq (b := (5.4e-4 : ℝ)) ?_ (by norm_num)
    rw [sq_abs] at h4
    generalize (arcsin r - arcsin r₀) ^ 2 = q at *
    norm_num at *; linarith

/-- the zenith angle, with or without refraction -/
theorem zenith_rd {r r₀ : ℝ} (h : |r| ≤ 1) (h0 : |r₀| ≤ 1) (hr : |r - r₀| ≤ 5.6e-8) (ρ : Bool) :
    ∃ w, (HALFPI - withRefr ρ (Num.arcsin (Rd.fin r)) : Rd A) = Rd.fin w ∧ |w| ≤ 3.2 ∧
      ((ρ = true → 2e-7 < |arcsin r₀ + 1.4545e-2|) →
        |w - (π / 2 - withRefr ρ (arcsin r₀))| * cos (arcsin r₀) ≤ 1.77e-7 ∧
        |w - (π / 2 - withRefr ρ (arcsin r₀))| ≤ 6e-4) := by
  obtain ⟨hn, hf⟩ := arcsin_near h h0 hr
  obtain ⟨g, hg, eg⟩ := A.arcsin_spec r h
  have p1 := pi_lt_d4
  have p2 := pi_gt_d4
  have m1 := arcsin_le_pi_div_two r
  have m2 := neg_pi_div_two_le_arcsin r
  have m3 := arcsin_le_pi_div_two r₀
  have m4 := neg_pi_div_two_le_arcsin r₀
  have hA : Ap (Num.arcsin (Rd.fin r) : Rd A) (arcsin r) 1.58 1e-14 := by
    refine ⟨?_, g, hg, eg⟩
    rw [abs_le]; constructor <;> norm_num at * <;> linarith
  generalize (Num.arcsin (Rd.fin r) : Rd A) = a at *
  generalize arcsin r = z₁ at *
  generalize arcsin r₀ = ζ at *
  have hs1 := cos_le_one ζ
  have hs0 : 0 ≤ cos ζ := cos_nonneg_of_neg_pi_div_two_le_of_le m4 m3
  -- from the two bounds on the angles
  have fin : ∀ w Z : ℝ, |w - Z| ≤ |z₁ - ζ| + 1e-12 → |w - Z| * cos ζ ≤ 1.77e-7 ∧ |w - Z| ≤ 6e-4 := by
    intro w Z hw
    refine ⟨?_, hw.trans (by norm_num at *; linarith)⟩
    have : |w - Z| * cos ζ ≤ (|z₁ - ζ| + 1e-12) * cos ζ := by gcongr
    norm_num at *; nlinarith
  cases ρ with
  | false =>
    obtain ⟨-, w, hw, ew⟩ := (HALFPI_ap (A := A)).sub hA (by norm_num)
    refine ⟨w, hw, ?_, fun _ => ?_⟩
    · have := abs_le.1 ew
      rw [abs_le]; constructor <;> norm_num at * <;> linarith
    · apply fin
      show |w - (π / 2 - ζ)| ≤ _
      have e1 : w - (π / 2 - ζ) = (w - (π / 2 - z₁)) - (z₁ - ζ) := by ring
      rw [e1]
      refine (abs_sub _ _).trans ?_
      norm_num at *; linarith
  | true =>
    show ∃ w, (HALFPI - refract a : Rd A) = Rd.fin w ∧ _
    obtain ⟨v, hv, ev⟩ := refract_num hA m1 (by norm_num)
    have hvA : Ap (refract a : Rd A) v 1.6 0 := by
      refine ⟨?_, v, hv, by simp⟩
      have := abs_le.1 ev
      rw [abs_le]; constructor <;> norm_num at * <;> linarith
    obtain ⟨-, w, hw, ew⟩ := (HALFPI_ap (A := A)).sub hvA (by norm_num)
    refine ⟨w, hw, ?_, fun ht => ?_⟩
    · have := abs_le.1 ew
      have := abs_le.1 hvA.1
      rw [abs_le]; constructor <;> norm_num at * <;> linarith
    · have ht := ht rfl
      -- the error does not carry the angle over the threshold
      have hside : |z₁ - ζ| ≤ |ζ + 1.4545e-2| - 1e-8 := by
        rcases le_total (|ζ + 1.4545e-2|) 0.01 with hc | hc
        · have hc' := abs_le.1 hc
          have hsz : 0.99 ≤ cos ζ := by
            have := one_sub_sq_div_two_le_cos (x := ζ)
            have : ζ ^ 2 ≤ 0.0246 ^ 2 := by
              apply sq_le_sq' <;> norm_num at * <;> linarith
            norm_num at *; linarith
          have h9 : |z₁ - ζ| * 0.99 ≤ 1.76e-7 := le_trans (by gcongr) hn
          norm_num at *; linarith
        · norm_num at *; linarith
      have hd := abs_le.1 hside
      have hz1 : 1e-14 + 1e-13 < |z₁ + 1.4545e-2| := by
        rcases abs_cases (ζ + 1.4545e-2) with ⟨e, hc⟩ | ⟨e, hc⟩
        · rw [e] at hd
          rw [abs_of_pos (by norm_num at *; linarith)]; norm_num at *; linarith
        · rw [e] at hd
          rw [abs_of_neg (by norm_num at *; linarith)]; norm_num at *; linarith
      obtain ⟨v', hv', ev'⟩ := refract_ap hA m1 (by norm_num) hz1
      obtain rfl : v' = v := by rw [hv] at hv'; exact (Rd.fin_inj.1 hv').symm
      apply fin
      show |w - (π / 2 - refract ζ)| ≤ _
      have hdiff := refract_diff m1 m3 (by
        rcases abs_cases (ζ + 1.4545e-2) with ⟨e, hc⟩ | ⟨e, hc⟩
        · rw [e] at hd ht
          left; constructor <;> norm_num at * <;> linarith
        · rw [e] at hd ht
          right; constructor <;> norm_num at * <;> linarith)
      have e1 : w - (π / 2 - refract ζ) = (w - (π / 2 - v')) - ((v' - refract z₁) + (refract z₁ - refract ζ)) := by ring
      rw [e1]
      refine (abs_sub _ _).trans ?_
      have := abs_add_le (v' - refract z₁) (refract z₁ - refract ζ)
      norm_num at *; linarith

/-- What is claimed of a computed zenith and azimuth angle (radians): `E` is the exact elevation
without refraction, `Z` and `az` the exact results. -/
structure NearPos (ρ : Bool) (E Z az : ℝ) (o : Out (Rd A)) : Prop where
  zenith : ∃ w, o.zenith = Rd.fin w ∧ |w| ≤ 3.2 ∧
      ((ρ = true → 2e-7 < |E + 1.4545e-2|) → |w - Z| * cos E ≤ 1.77e-7 ∧ |w - Z| ≤ 6e-4)
  azimuth : Apm o.azimuth az (2 * π) (π + 1e-14) (1.07e-7 / cos E)

/-- the exact topocentric declination and hour angle -/
noncomputable def dpAt (t : ℤ) (x y : ℝ) : ℝ := deltap (cos (uu (y * (π / 180)))) (0.99664719 * sin (uu (y * (π / 180))))
  (xi (time (t : ℝ)).R) (H0 t + x * (π / 180)) (time (t : ℝ)).delta
noncomputable def hpAt (t : ℤ) (x y : ℝ) : ℝ := Hp (cos (uu (y * (π / 180)))) (xi (time (t : ℝ)).R) (H0 t + x * (π / 180)) (time (t : ℝ)).delta
/-- the exact elevation, without refraction -/
noncomputable def elevAt (t : ℤ) (x y : ℝ) : ℝ := elev (y * (π / 180)) (dpAt t x y) (hpAt t x y)

theorem deltaa_turn (X Ξ H D : ℝ) (k : ℤ) : deltaa X Ξ (H + k * (2 * π)) D = deltaa X Ξ H D := by
  show ratan2 (-X * sin Ξ * sin (H + k * (2 * π))) (cos D - X * sin Ξ * cos (H + k * (2 * π))) = ratan2 (-X * sin Ξ * sin H) (cos D - X * sin Ξ * cos H)
  rw [sin_add_int_mul_two_pi, cos_add_int_mul_two_pi]

theorem deltap_turn (X Y Ξ H D : ℝ) (k : ℤ) : deltap X Y Ξ (H + k * (2 * π)) D = deltap X Y Ξ H D := by
  show ratan2 ((sin D - Y * sin Ξ) * cos (deltaa X Ξ (H + k * (2 * π)) D)) (cos D - X * sin Ξ * cos (H + k * (2 * π)))
    = ratan2 ((sin D - Y * sin Ξ) * cos (deltaa X Ξ H D)) (cos D - X * sin Ξ * cos H)
  rw [deltaa_turn, cos_add_int_mul_two_pi]

/-- the exact results -/
theorem cell_at (t : ℤ) (x y : ℝ) (r : Bool) : (cell t x y r).zenith = π / 2 - withRefr r (elevAt t x y) ∧
    (cell t x y r).azimuth = azimuth (y * (π / 180)) (dpAt t x y) (hpAt t x y) := by
  obtain ⟨k, hk⟩ := hourAngle_turn t x
  have e1 : (cell t x y r).zenith = HALFPI - withRefr r (elev (y * (π / 180)) (deltap (px (uu (y * (π / 180))) (y * (π / 180)))
      (py (uu (y * (π / 180))) (y * (π / 180))) (xi (time (t : ℝ)).R) (hourAngle (time (t : ℝ)).v x (time (t : ℝ)).alpha) (time (t : ℝ)).delta)
      (Hp (px (uu (y * (π / 180))) (y * (π / 180))) (xi (time (t : ℝ)).R) (hourAngle (time (t : ℝ)).v x (time (t : ℝ)).alpha) (time (t : ℝ)).delta)) := rfl
  have e2 : (cell t x y r).azimuth = azimuth (y * (π / 180)) (deltap (px (uu (y * (π / 180))) (y * (π / 180)))
      (py (uu (y * (π / 180))) (y * (π / 180))) (xi (time (t : ℝ)).R) (hourAngle (time (t : ℝ)).v x (time (t : ℝ)).alpha) (time (t : ℝ)).delta)
      (Hp (px (uu (y * (π / 180))) (y * (π / 180))) (xi (time (t : ℝ)).R) (hourAngle (time (t : ℝ)).v x (time (t : ℝ)).alpha) (time (t : ℝ)).delta) := rfl
  have e3 : ∀ X Ξ H D : ℝ, Hp X Ξ (H + k * (2 * π)) D = Hp X Ξ H D + k * (2 * π) := by
    intro X Ξ H D
    show H + k * (2 * π) - deltaa X Ξ (H + k * (2 * π)) D = H - deltaa X Ξ H D + k * (2 * π)
    rw [deltaa_turn]; ring
  rw [e1, e2, px_real, py_real, HALFPI_real, hk, deltap_turn, e3]
  constructor
  · rw [elev_real, cos_add_int_mul_two_pi]; rfl
  · rw [azimuth_real, cos_add_int_mul_two_pi, sin_add_int_mul_two_pi]; rfl

theorem cell_rd {t : ℤ} (ht : InSec t) {x y : ℝ} (hx : |x| ≤ 180) (hy : |y| ≤ 90) (hp : PoleOk A y)
    (hs : 5e-4 ≤ cos (elevAt t x y)) (ρ : Bool) :
    NearPos ρ (elevAt t x y) (cell t x y ρ).zenith (cell t x y ρ).azimuth (cell t (Rd.fin x : Rd A) (Rd.fin y) ρ) := by
  obtain ⟨e1, e2⟩ := cell_at t x y ρ
  rw [e1, e2]
  have hX := px_ap hy hp
  have hY := py_ap hy hp
  have hΞ := xi_ap (time_R_ap (A := A) ht) (time_R ht).1
  have hH := hourAngle_apm (A := A) ht hx
  have hD := time_delta_ap (A := A) ht
  have a1 := latrad_ap (A := A) hy
  have a2 : Ap _ (dpAt t x y) _ _ := deltap_ap hX hY hΞ hH hD
  have a3 : Apm _ (hpAt t x y) _ _ _ := Hp_apm hX hΞ hH hD
  constructor
  · obtain ⟨hb, r, hr, er⟩ := sinElev_ap a1 a2 a3
    have hb' := abs_le.1 hb
    have hr1 : |r| ≤ 1 := by
      have hc2 : cos (elevAt t x y) ^ 2 = 1 - (sin (y * (π / 180)) * sin (dpAt t x y) + cos (y * (π / 180)) * cos (dpAt t x y) * cos (hpAt t x y)) ^ 2 := by
        unfold elevAt
        rw [elev_real]
        have := sin_sq_add_cos_sq (arcsin (sin (y * (π / 180)) * sin (dpAt t x y) + cos (y * (π / 180)) * cos (dpAt t x y) * cos (hpAt t x y)))
        rw [sin_arcsin hb'.1 hb'.2] at this; linarith
      have hcl := pow_le_pow_left₀ (by norm_num) hs 2
      rw [hc2] at hcl
      generalize sin (y * (π / 180)) * sin (dpAt t x y) + cos (y * (π / 180)) * cos (dpAt t x y) * cos (hpAt t x y) = S at *
      have : |S| ≤ 1 - 1e-7 := by
        by_contra hcon
        push Not at hcon
        have hq := pow_lt_pow_left₀ hcon (by norm_num) two_ne_zero
        rw [sq_abs] at hq
        norm_num at hq hcl; linarith
      exact (Ap.fin_bound this er).trans (by norm_num)
    obtain ⟨w, hw, hw1, hw2⟩ := zenith_rd (A := A) hr1 hb er ρ
    refine ⟨w, ?_, hw1, hw2⟩
    rw [← hw, ← hr]; rfl
  · exact azimuth_apm a1 a2 a3 hs

end SW.Nrel
