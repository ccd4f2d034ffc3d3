/-
The refraction correction of psa and nrel in rounded arithmetic.
-/
import Verif.RdPsaPos

namespace SW
open Real

namespace Refr
variable {A : Arith}

/-- the quotient by 60 tan: at most 0.012, near the exact cotangent -/
theorem quot_rd {u : Rd A} {k : Rd A} {κ U ε : ℝ} (hk : Ap k κ 0.0179 2e-16) (hκ : 0 ≤ κ) (hu : Ap u U 1.6 ε)
    (hs : 0.0273 ≤ sin U) (hε : ε ≤ 2e-3) :
    ∃ w, (k / (60 * Num.tan u) : Rd A) = Rd.fin w ∧ |w - κ / 60 * (cos U / sin U)| ≤ 0.44 * ε + 1e-14 := by
  obtain ⟨mU, v, rfl, ev⟩ := hu
  have hvb := Ap.fin_bound mU ev
  obtain ⟨r, hr, rb, hq⟩ := A.tan_spec v (hvb.trans (by norm_num at *; linarith))
  have ev2 : |v - U| ≤ 2e-3 := ev.trans hε
  have hsv : 0.0253 ≤ sin v := by
    have := (abs_le.1 ((Real.abs_sin_sub_sin_le v U).trans ev2)).1
    norm_num at *; linarith
  have hsv0 : 0 < sin v := by norm_num at hsv; linarith
  have hsU0 : 0 < sin U := by norm_num at hs; linarith
  have hc1 := abs_cos_le_one v
  -- the computed tangent is not small
  have hr0 : 0.0252 ≤ |r| := by
    have h1 : |sin v| ≤ |r * cos v| + |r * cos v - sin v| := by
      have := abs_sub_abs_le_abs_sub (sin v) (r * cos v)
      rw [abs_sub_comm] at this; linarith
    rw [abs_of_pos hsv0, abs_mul] at h1
    have h2 : |r| * |cos v| ≤ |r| * 1 := by gcongr
    norm_num at *; linarith
  have hr1 : r ≠ 0 := by intro h; rw [h, abs_zero] at hr0; norm_num at hr0
  -- its inverse is the cotangent
  have hcot : |1 / r - cos v / sin v| ≤ 1.7e-11 := by
    have e1 : 1 / r - cos v / sin v = -(r * cos v - sin v) / (r * sin v) := by field_simp; ring
    rw [e1, abs_div, abs_neg, abs_mul, abs_of_pos hsv0, div_le_iff₀ (by positivity)]
    have h1 : 0.0253 * |r| ≤ |r| * sin v := by rw [mul_comm]; gcongr
    norm_num at *; linarith
  have hcot2 : |cos v / sin v - cos U / sin U| ≤ 1448 * ε := by
    have e1 : cos v / sin v - cos U / sin U = sin (U - v) / (sin v * sin U) := by
      rw [sin_sub]; field_simp
    rw [e1, abs_div, abs_of_pos (mul_pos hsv0 hsU0), div_le_iff₀ (mul_pos hsv0 hsU0)]
    have h1 : |sin (U - v)| ≤ ε := by
      refine (Real.abs_sin_le_abs).trans ?_; rw [abs_sub_comm]; exact ev
    have h2 : 0.0253 * 0.0273 ≤ sin v * sin U := by gcongr
    have h0 := (abs_nonneg _).trans ev
    have h3 := mul_le_mul_of_nonneg_left h2 h0
    norm_num at *; linarith
  -- the denominator
  obtain ⟨p, hp, ep⟩ := A.mul_spec 60 r (by rw [abs_mul]; norm_num at *; linarith)
  have hden : (60 * Num.tan (Rd.fin v : Rd A) : Rd A) = Rd.fin p := by
    have : (Num.tan (Rd.fin v : Rd A) : Rd A) = Rd.fin r := hr
    rw [this]; exact hp
  obtain ⟨mk, κ', hk', ek⟩ := hk
  have h60 : |60 * r| = 60 * |r| := by rw [abs_mul]; norm_num
  rw [h60] at ep
  have hpr : |p - 60 * r| ≤ 1e-13 * |r| := by norm_num at *; linarith
  have hpl : 59.9 * |r| ≤ |p| := by
    have := abs_sub_abs_le_abs_sub (60 * r) p
    rw [abs_sub_comm, h60] at this; norm_num at *; linarith
  have hp0 : p ≠ 0 := by intro h; rw [h, abs_zero] at hpl; norm_num at *; linarith
  have hκb : |κ'| ≤ 0.018 := (Ap.fin_bound mk ek).trans (by norm_num)
  -- quotient
  have hq2 : |κ' / p - κ / (60 * r)| ≤ 1e-15 := by
    have e1 : κ' / p - κ / (60 * r) = (κ' - κ) / p - κ * (p - 60 * r) / (60 * r * p) := by
      field_simp; ring
    rw [e1]
    refine (abs_sub _ _).trans ?_
    have hr00 : 0 < |r| := by norm_num at hr0; linarith
    have hpp : 1.5 ≤ |p| := by norm_num at *; linarith
    have a1 : |(κ' - κ) / p| ≤ 2e-16 := by
      rw [abs_div, div_le_iff₀ (by norm_num at hpp; linarith)]
      norm_num at *; linarith
    have a2 : |κ * (p - 60 * r) / (60 * r * p)| ≤ 8e-16 := by
      rw [abs_div, abs_mul, abs_mul, h60, div_le_iff₀ (by positivity)]
      have b1 : |κ| * |p - 60 * r| ≤ 0.0179 * (1e-13 * |r|) := by gcongr
      have b2 : 60 * |r| * 1.5 ≤ 60 * |r| * |p| := by gcongr
      norm_num at *; nlinarith
    norm_num at *; linarith
  have hqb : |κ' / p| ≤ 0.02 := by
    rw [abs_div, div_le_iff₀ (by positivity)]
    norm_num at *; linarith
  obtain ⟨w, hw, ew⟩ := A.div_spec κ' p hp0 (hqb.trans (by norm_num))
  refine ⟨w, ?_, ?_⟩
  · rw [hden, hk']; exact hw
  · have e1 : w - κ / 60 * (cos U / sin U) = (w - κ' / p) + (κ' / p - κ / (60 * r))
        + κ / 60 * ((1 / r - cos v / sin v) + (cos v / sin v - cos U / sin U)) := by
      field_simp; ring
    rw [e1]
    have hκ1 : |κ / 60| ≤ 0.0179 / 60 := by rw [abs_div]; norm_num at *; linarith
    have c1 : |(1 / r - cos v / sin v) + (cos v / sin v - cos U / sin U)| ≤ 1.7e-11 + 1448 * ε :=
      (abs_add_le _ _).trans (by linarith)
    have c2 : |κ / 60 * ((1 / r - cos v / sin v) + (cos v / sin v - cos U / sin U))|
        ≤ 0.0179 / 60 * (1.7e-11 + 1448 * ε) := by
      rw [abs_mul]; gcongr
    have c3 : |w - κ' / p| ≤ 1e-16 := by norm_num at *; linarith
    have h0 := (abs_nonneg _).trans ev
    have := abs_add_le ((w - κ' / p) + (κ' / p - κ / (60 * r)))
      (κ / 60 * ((1 / r - cos v / sin v) + (cos v / sin v - cos U / sin U)))
    have := abs_add_le (w - κ' / p) (κ' / p - κ / (60 * r))
    norm_num at *; linarith

end Refr

theorem HALFPI_ap {A : Arith} : Ap (HALFPI : Rd A) (π / 2) 1.58 2e-14 := by
  have : Ap (HALFPI : Rd A) (HALFPI : ℝ) 1.58 2e-14 := by
    unfold HALFPI; apf
  rwa [HALFPI_real] at this

namespace Psa
variable {A : Arith}

/-- the correction, from an elevation near one at which the correction is defined -/
theorem refrCorr_rd {e : Rd A} {E ε : ℝ} (he : Ap e E 1.58 ε) (hE : Refr.Dom E) (hε : ε ≤ 1.2e-3) :
    ∃ w, refrCorr e = Rd.fin w ∧ |w - Refr.corr 1.7802e-2 E| ≤ 0.71 * ε + 2e-14 := by
  have h0 := he.e_nonneg
  have hd := hE.den
  have hden : Ap (e + 8.9186e-2 : Rd A) (E + 8.9186e-2) 1.67 (ε + 2e-15) := by
    refine (he.add (Ap.lit le_rfl (by norm_num)) (by norm_num at *; linarith)).fit rfl (by norm_num) ?_
    norm_num at *; linarith
  have habs : |E + 8.9186e-2| = E + 8.9186e-2 := abs_of_pos (by norm_num at *; linarith)
  have hden0 : 0 < E + 8.9186e-2 := by norm_num at *; linarith
  have hm : (0 : ℝ) < 0.0746 - (ε + 2e-15) := by norm_num at *; linarith
  have hq : (3.1376e-3 * 1e-15 + 1e-30 + 0.0421 * (ε + 2e-15)) / (0.0746 - (ε + 2e-15)) ≤ 0.574 * ε + 2e-15 := by
    rw [div_le_iff₀ hm]
    norm_num at *; nlinarith
  have hquo : Ap (3.1376e-3 / (e + 8.9186e-2) : Rd A) (3.1376e-3 / (E + 8.9186e-2)) 0.0421 (0.575 * ε + 3e-15) := by
    refine (Ap.div 0.0746 0.0421 (ε := 3.1376e-3 * 1e-15 + 1e-30) (M := 0.0032) ?_ hden ?_ ?_ ?_ ?_).mono le_rfl ?_
    · refine (Ap.lit le_rfl (by norm_num)).fit rfl (by norm_num) (by norm_num)
    · rw [habs]; exact hd
    · linarith
    · rw [abs_div, habs, div_le_iff₀ hden0]
      norm_num at *; linarith
    · norm_num at *; linarith
    · norm_num at *; linarith
  have harg : Ap (e + 3.1376e-3 / (e + 8.9186e-2) : Rd A) (Refr.arg E) 1.6 (1.576 * ε + 1e-14) := by
    refine ((he.add hquo (by norm_num at *; linarith)).fit rfl le_rfl ?_).bnd ?_
    · norm_num at *; linarith
    · have a1 := Refr.arg_lower hE
      have a2 := Refr.arg_upper hE
      have a3 := pi_lt_d2
      show |Refr.arg E| ≤ _
      rw [abs_le]
      generalize Refr.arg E = X at a1 a2 ⊢
      constructor <;> norm_num at * <;> linarith
  have hk : Ap (1 * 1.7802e-2 : Rd A) (1.7802e-2) 0.0179 2e-16 := by
    have : Ap (1 * 1.7802e-2 : Rd A) (1 * 1.7802e-2) 0.0179 2e-16 := by apf
    rwa [one_mul] at this
  obtain ⟨w, hw, ew⟩ := Refr.quot_rd hk (by norm_num) harg (Refr.sin_arg_lower hE) (by norm_num at *; linarith)
  refine ⟨w, hw, ?_⟩
  obtain ⟨τ, t0, t1, -, hc⟩ := Refr.corr_eq (κ := 1.7802e-2) hE
  have e1 : |1.7802e-2 / 60 * (cos (Refr.arg E) / sin (Refr.arg E)) - Refr.corr 1.7802e-2 E| ≤ 1e-18 := by
    rw [hc]; unfold Refr.cot
    rw [show ∀ x y z : ℝ, x * y - x * (y + z) = -(x * z) by intros; ring, abs_neg, abs_of_nonneg (by positivity)]
    norm_num at *; linarith
  have := abs_sub_le w (1.7802e-2 / 60 * (cos (Refr.arg E) / sin (Refr.arg E))) (Refr.corr 1.7802e-2 E)
  have ew' : |w - 1.7802e-2 / 60 * (cos (Refr.arg E) / sin (Refr.arg E))| ≤ 0.7 * ε + 1.5e-14 := ew.trans (by norm_num; linarith)
  norm_num at *; linarith

/-- the threshold of refraction -/
theorem litThr : ∃ o : ℝ, (-1.4545e-2 : Rd A) = Rd.fin o ∧ |o + 1.4545e-2| ≤ 1e-16 := by
  obtain ⟨-, r, h, e⟩ := Ap.lit (R := A) (m := 14545) (s := true) (e := 6) le_rfl (by norm_num)
  refine ⟨-r, ?_, ?_⟩
  · have h' : (1.4545e-2 : Rd A) = Rd.fin r := h
    rw [h']; rfl
  · rw [show -r + 1.4545e-2 = -(r - 1.4545e-2) by ring, abs_neg]
    refine e.trans (by norm_num)

theorem elev_ap {a : Rd A} {z ε : ℝ} (h : Ap a z 3.15 ε) (h0 : 0 ≤ z) (h1 : z ≤ π) (hε : ε ≤ 1.1e-3) :
    Ap (HALFPI - a : Rd A) (π / 2 - z) 1.58 (ε + 3e-14) := by
  have e0 := h.e_nonneg
  have := pi_lt_d4
  refine ((HALFPI_ap.sub h (by norm_num at *; linarith)).fit rfl le_rfl ?_).bnd ?_
  · norm_num at *; linarith
  · rw [abs_le]; constructor <;> norm_num at * <;> linarith

/-- The refraction correction in rounded arithmetic is within 1.72 times the error of its argument, unless
the elevation is so near the threshold of the correction that the error decides whether it is applied. -/
theorem refract_ap {a : Rd A} {z ε : ℝ} (h : Ap a z 3.15 ε) (h0 : 0 ≤ z) (h1 : z ≤ π) (hε : ε ≤ 1.1e-3)
    (ht : ε + 1e-13 < |π / 2 - z + 1.4545e-2|) :
    Ap (refract a) (refract z) 3.15 (1.72 * ε + 2e-13) := by
  have e0 := h.e_nonneg
  have he := elev_ap h h0 h1 hε
  have hr := refract_mem h0 h1
  have hb : |refract z| ≤ 3.15 := by
    rw [abs_of_nonneg hr.1]; refine hr.2.trans ?_; have := pi_lt_d2; norm_num at *; linarith
  refine ⟨hb, ?_⟩
  rw [refract_real]
  unfold refract
  obtain ⟨o, ho, ho'⟩ := litThr (A := A)
  obtain ⟨mE, q, hq, eq⟩ := id he
  have p1 := pi_lt_d4
  have p2 := pi_gt_d2
  rw [hq, ho, whereLe_rd]
  have eq' := abs_le.1 eq
  have ho2 := abs_le.1 ho'
  by_cases hc : -1.4545e-2 ≤ π / 2 - z
  · rw [if_pos hc]
    have ht' : ε + 1e-13 < π / 2 - z + 1.4545e-2 := by
      rwa [abs_of_nonneg (by norm_num at *; linarith)] at ht
    rw [if_pos (by norm_num at *; linarith)]
    have hD : Refr.Dom (π / 2 - z) := ⟨hc, by linarith⟩
    obtain ⟨w, hw, ew⟩ := refrCorr_rd (hq ▸ he) hD (by norm_num at *; linarith)
    have hcb := Refr.corr_bounds (κ := 1.7802e-2) (by norm_num) (by norm_num) hD
    have hwa : Ap (refrCorr (Rd.fin q : Rd A)) (Refr.corr 1.7802e-2 (π / 2 - z)) 0.0112 (0.71 * ε + 5e-14) := by
      refine ⟨?_, w, hw, ew.trans (by norm_num; linarith)⟩
      rw [abs_le]; constructor <;> norm_num at * <;> linarith
    rw [hq] at he
    have := (HALFPI_ap (A := A)).sub (he.add hwa (by norm_num at *; linarith)) (by norm_num at *; linarith)
    obtain ⟨-, r, hr', er⟩ := this
    exact ⟨r, hr', er.trans (by norm_num at *; linarith)⟩
  · rw [if_neg hc]
    push Not at hc
    have ht' : ε + 1e-13 < -(π / 2 - z + 1.4545e-2) := by
      rwa [abs_of_neg (by norm_num at *; linarith)] at ht
    rw [if_neg (by push Not; norm_num at *; linarith)]
    rw [hq] at he
    have := (HALFPI_ap (A := A)).sub he (by norm_num at *; linarith)
    obtain ⟨-, r, hr', er⟩ := this
    exact ⟨r, hr', er.trans (by norm_num at *; linarith)⟩

/-- and it is a number anyhow -/
theorem refract_num {a : Rd A} {z ε : ℝ} (h : Ap a z 3.15 ε) (h0 : 0 ≤ z) (h1 : z ≤ π) (hε : ε ≤ 1.1e-3) :
    ∃ r, refract a = Rd.fin r ∧ |r - z| ≤ ε + 0.013 := by
  have e0 := h.e_nonneg
  have he := elev_ap h h0 h1 hε
  unfold refract
  obtain ⟨o, ho, ho'⟩ := litThr (A := A)
  obtain ⟨mE, q, hq, eq⟩ := id he
  have p1 := pi_lt_d4
  have p2 := pi_gt_d2
  rw [hq, ho, whereLe_rd]
  have eq' := abs_le.1 eq
  have ho2 := abs_le.1 ho'
  rw [hq] at he
  split_ifs with hc
  · obtain ⟨E, hE, hD, hEd⟩ : ∃ E, |q - E| ≤ ε + 4e-14 ∧ Refr.Dom E ∧ |E| ≤ 1.58 := by
      rcases le_total (-1.4545e-2) (π / 2 - z) with hd | hd
      · exact ⟨_, eq.trans (by norm_num), ⟨hd, by linarith⟩, mE⟩
      · refine ⟨-1.4545e-2, ?_, ⟨le_rfl, by norm_num at *; linarith⟩, by norm_num⟩
        rw [abs_le]; constructor <;> norm_num at * <;> linarith
    obtain ⟨w, hw, ew⟩ := refrCorr_rd (A := A) ⟨hEd, q, rfl, hE⟩ hD (by norm_num at *; linarith)
    have hcb := Refr.corr_bounds (κ := 1.7802e-2) (by norm_num) (by norm_num) hD
    have hwb : |w| ≤ 0.0121 := by
      have := abs_le.1 ew
      rw [abs_le]; constructor <;> norm_num at * <;> linarith
    have hwa : Ap (refrCorr (Rd.fin q : Rd A)) w 0.0121 0 := ⟨hwb, w, hw, by simp⟩
    obtain ⟨-, r, hr', er⟩ := (HALFPI_ap (A := A)).sub (he.add hwa (by norm_num at *; linarith)) (by norm_num at *; linarith)
    refine ⟨r, hr', ?_⟩
    have := abs_le.1 hwb
    have := abs_le.1 er
    rw [abs_le]; constructor <;> norm_num at * <;> linarith
  · obtain ⟨-, r, hr', er⟩ := (HALFPI_ap (A := A)).sub he (by norm_num at *; linarith)
    refine ⟨r, hr', ?_⟩
    have := abs_le.1 er
    rw [abs_le]; constructor <;> norm_num at * <;> linarith

end Psa
end SW
