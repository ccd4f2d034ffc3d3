/-
On which side of the horizon the refraction of each algorithm leaves the sun, in rounded arithmetic.
-/
import Verif.RSign
import Verif.RdRefr
import Verif.RdNrelCell
import Verif.RdIqbalCell

namespace SW
open Real
variable {A : Arith}

namespace Psa

theorem up_rd {z : ℝ} (h0 : 0 ≤ z) (h : z ≤ π / 2 - 1e-5) :
    ∃ r, refract (Rd.fin z : Rd A) = Rd.fin r ∧ r < π / 2 - 5e-6 ∧ z - 0.0132 ≤ r := by
  have p1 := pi_lt_d4
  have p2 := pi_gt_d4
  have hz : Ap (Rd.fin z : Rd A) z 3.15 0 := Ap.ofFin z (by rw [abs_of_nonneg h0]; norm_num at *; linarith)
  have hh : 1e-13 < π / 2 - z + 1.4545e-2 := by norm_num at *; linarith
  obtain ⟨-, r, hr, er⟩ := refract_ap hz h0 (by linarith) (by norm_num) (by rw [abs_of_pos (lt_trans (by norm_num) hh), zero_add]; exact hh)
  refine ⟨r, hr, ?_⟩
  have hge : -1.4545e-2 ≤ π / 2 - z := by norm_num at *; linarith
  have hb := Refr.corr_bounds (κ := 1.7802e-2) (by norm_num) (by norm_num) (⟨hge, by linarith⟩ : Refr.Dom (π / 2 - z))
  rw [refract_real, if_pos hge] at er
  generalize Refr.corr 1.7802e-2 (π / 2 - z) = X at *
  have er := abs_le.1 er
  constructor <;> norm_num at * <;> linarith

theorem down_rd {z : ℝ} (h0 : z ≤ π) (h : π / 2 + 0.0101 ≤ z) :
    ∃ r, refract (Rd.fin z : Rd A) = Rd.fin r ∧ π / 2 + 4e-6 < r ∧ r ≤ z + 0.0133 := by
  have p1 := pi_lt_d4
  have p2 := pi_gt_d4
  have hz0 : 0 ≤ z := by norm_num at *; linarith
  have hz : Ap (Rd.fin z : Rd A) z 3.15 0 := Ap.ofFin z (by rw [abs_of_nonneg hz0]; norm_num at *; linarith)
  by_cases ht : 1e-13 < |π / 2 - z + 1.4545e-2|
  · obtain ⟨-, r, hr, er⟩ := refract_ap hz hz0 h0 (by norm_num) (by rw [zero_add]; exact ht)
    refine ⟨r, hr, ?_⟩
    rw [refract_real] at er
    have er := abs_le.1 er
    split_ifs at er with hc
    · have hD : Refr.Dom (π / 2 - z) := ⟨hc, by linarith⟩
      have hb := Refr.corr_bounds (κ := 1.7802e-2) (by norm_num) (by norm_num) hD
      have hd := Refr.down (κ := 1.7802e-2) (by norm_num) (by norm_num) hD (by linarith)
      generalize Refr.corr 1.7802e-2 (π / 2 - z) = X at *
      clear ht
      constructor <;> norm_num at * <;> linarith
    · clear ht
      constructor <;> norm_num at * <;> linarith
  · push Not at ht
    have ht := abs_le.1 ht
    obtain ⟨r, hr, er⟩ := refract_num hz hz0 h0 (by norm_num)
    refine ⟨r, hr, ?_⟩
    have er := abs_le.1 er
    constructor <;> norm_num at * <;> linarith

end Psa

namespace Nrel

theorem up_rd {E : ℝ} (h0 : E ≤ π / 2) (h : 1e-5 ≤ E) :
    ∃ r, (HALFPI - refract (Rd.fin E) : Rd A) = Rd.fin r ∧ r < π / 2 - 5e-6 ∧ π / 2 - E - 0.0132 ≤ r := by
  have p1 := pi_lt_d4
  have p2 := pi_gt_d4
  have hE : Ap (Rd.fin E : Rd A) E 1.58 0 := Ap.ofFin E (by rw [abs_le]; constructor <;> norm_num at * <;> linarith)
  have hge : -1.4545e-2 ≤ E := by norm_num at *; linarith
  obtain ⟨q, hq, eq⟩ := refract_ap hE h0 (by norm_num) (by
    rw [abs_of_pos (by norm_num at *; linarith)]; norm_num at *; linarith)
  have hkb := kap_bound
  have hb := Refr.corr_bounds (κ := kap) (by norm_num at *; linarith) (by norm_num at *; linarith) (⟨hge, h0⟩ : Refr.Dom E)
  rw [refract_real, if_pos hge] at eq
  generalize Refr.corr kap E = X at *
  have eq := abs_le.1 eq
  have hqa : Ap (refract (Rd.fin E : Rd A)) q 1.6 0 := ⟨by rw [abs_le]; constructor <;> norm_num at * <;> linarith, q, hq, by simp⟩
  obtain ⟨-, r, hr, er⟩ := (HALFPI_ap (A := A)).sub hqa (by norm_num)
  refine ⟨r, hr, ?_⟩
  have er := abs_le.1 er
  clear hqa hE
  constructor <;> norm_num at * <;> linarith

theorem down_rd {E : ℝ} (h0 : -(π / 2) ≤ E) (h : E ≤ -0.0101) :
    ∃ r, (HALFPI - refract (Rd.fin E) : Rd A) = Rd.fin r ∧ π / 2 + 4e-6 < r ∧ r ≤ π / 2 - E + 0.0133 := by
  have p1 := pi_lt_d4
  have p2 := pi_gt_d4
  have hE : Ap (Rd.fin E : Rd A) E 1.58 0 := Ap.ofFin E (by rw [abs_le]; constructor <;> norm_num at * <;> linarith)
  have hE1 : E ≤ π / 2 := by norm_num at *; linarith
  by_cases ht : 1e-13 < |E + 1.4545e-2|
  · obtain ⟨q, hq, eq⟩ := refract_ap hE hE1 (by norm_num) (by rw [zero_add]; exact ht)
    have hq2 : q < -4.9e-6 ∧ E - 0.0132 ≤ q := by
      rw [refract_real] at eq
      have eq := abs_le.1 eq
      split_ifs at eq with hc
      · have hkb := kap_bound
        have hk0 : 0 ≤ (kap : ℝ) := le_trans (by norm_num) hkb.1
        have hk1 : (kap : ℝ) ≤ 0.0179 := hkb.2.trans (by norm_num)
        have hD : Refr.Dom E := ⟨hc, hE1⟩
        have hb := Refr.corr_bounds hk0 hk1 hD
        have hd := Refr.down hk0 hk1 hD h
        generalize Refr.corr kap E = X at *
        clear ht hE hk0 hk1 hkb
        constructor <;> norm_num at * <;> linarith
      · clear ht hE
        constructor <;> norm_num at * <;> linarith
    have hqa : Ap (refract (Rd.fin E : Rd A)) q 1.6 0 := ⟨by
      rw [abs_le]; clear ht eq; constructor <;> norm_num at * <;> linarith, q, hq, by simp⟩
    obtain ⟨-, r, hr, er⟩ := (HALFPI_ap (A := A)).sub hqa (by norm_num)
    refine ⟨r, hr, ?_⟩
    have er := abs_le.1 er
    clear hqa hE ht eq
    constructor <;> norm_num at * <;> linarith
  · push Not at ht
    have ht := abs_le.1 ht
    obtain ⟨q, hq, eq⟩ := refract_num hE hE1 (by norm_num)
    have eq := abs_le.1 eq
    have hqa : Ap (refract (Rd.fin E : Rd A)) q 1.6 0 := ⟨by rw [abs_le]; constructor <;> norm_num at * <;> linarith, q, hq, by simp⟩
    obtain ⟨-, r, hr, er⟩ := (HALFPI_ap (A := A)).sub hqa (by norm_num)
    refine ⟨r, hr, ?_⟩
    have er := abs_le.1 er
    clear hqa hE
    constructor <;> norm_num at * <;> linarith

end Nrel

namespace Iqbal

theorem up_rd {z : ℝ} (h0 : 0 ≤ z) (h : z ≤ π / 2 - 1e-5) :
    ∃ r, refract (Rd.fin z : Rd A) = Rd.fin r ∧ r < π / 2 - 5e-6 ∧ z - 0.0132 ≤ r := by
  have p1 := pi_lt_d4
  have p2 := pi_gt_d4
  have hz : Ap (Rd.fin z : Rd A) z 3.15 1e-14 :=
    (Ap.ofFin z (by rw [abs_of_nonneg h0]; norm_num at *; linarith)).mono le_rfl (by norm_num)
  obtain ⟨-, r, hr, er⟩ := refract_ap hz ⟨h0, by linarith⟩
  refine ⟨r, hr, ?_⟩
  rw [refract_real] at er
  have hb := refcor_bounds (x := π / 2 - z) (by linarith) (by linarith)
  have hb2 := hb.2 (by norm_num at *; linarith)
  have hp : 0 ≤ refcor (π / 2 - z) := by
    rw [RefrSpec.refcor_eq]
    have hx : 0 ≤ π / 2 - z := by norm_num at *; linarith
    exact div_nonneg (by norm_num; positivity) (den_pos _).le
  have er := abs_le.1 er
  constructor <;> norm_num at * <;> linarith

theorem down_rd {z : ℝ} (h0 : z ≤ π) (h : π / 2 + 0.0136 ≤ z) :
    ∃ r, refract (Rd.fin z : Rd A) = Rd.fin r ∧ π / 2 + 4e-6 < r ∧ r ≤ z + 0.0133 := by
  have p1 := pi_lt_d4
  have p2 := pi_gt_d4
  have hz0 : 0 ≤ z := by norm_num at *; linarith
  have hz : Ap (Rd.fin z : Rd A) z 3.15 1e-14 :=
    (Ap.ofFin z (by rw [abs_of_nonneg hz0]; norm_num at *; linarith)).mono le_rfl (by norm_num)
  obtain ⟨-, r, hr, er⟩ := refract_ap hz ⟨hz0, h0⟩
  refine ⟨r, hr, ?_⟩
  rw [refract_real] at er
  have hb := (refcor_bounds (x := π / 2 - z) (by linarith) (by linarith)).1
  have hd := down (x := π / 2 - z) (by linarith)
  have er := abs_le.1 er
  constructor <;> norm_num at * <;> linarith

end Iqbal

/-- the tangent of an angle away from its zeros, in a wider range than `cot_rd` -/
theorem cot_rd' {u : Rd A} {U : ℝ} (hu : Ap u U 2.72 1e-10) (hs : 0.0227 ≤ |sin U|) :
    ∃ r, (Num.tan u : Rd A) = Rd.fin r ∧ 0.022 ≤ |r| ∧ |1 / r - cos U / sin U| ≤ 1e-6 := by
  obtain ⟨mU, v, rfl, ev⟩ := hu
  have hvb := Ap.fin_bound mU ev
  obtain ⟨r, hr, rb, hq⟩ := A.tan_spec v (hvb.trans (by norm_num))
  have hsv : 0.0226 ≤ |sin v| := by
    have h1 := (Real.abs_sin_sub_sin_le v U).trans ev
    have h2 := abs_sub_abs_le_abs_sub (sin U) (sin v)
    rw [abs_sub_comm] at h2
    norm_num at *; linarith
  have hsv0 : 0 < |sin v| := lt_of_lt_of_le (by norm_num) hsv
  have hsU0 : 0 < |sin U| := lt_of_lt_of_le (by norm_num) hs
  have hv0 : sin v ≠ 0 := abs_pos.1 hsv0
  have hU0 : sin U ≠ 0 := abs_pos.1 hsU0
  have hc1 := abs_cos_le_one v
  have hr0 : 0.0225 ≤ |r| := by
    have h1 : |sin v| ≤ |r * cos v| + |r * cos v - sin v| := by
      have := abs_sub_abs_le_abs_sub (sin v) (r * cos v)
      rw [abs_sub_comm] at this; linarith
    rw [abs_mul] at h1
    have h2 : |r| * |cos v| ≤ |r| * 1 := by gcongr
    norm_num at *; linarith
  have hrp : 0 < |r| := lt_of_lt_of_le (by norm_num) hr0
  have hr1 : r ≠ 0 := abs_pos.1 hrp
  have hcot : |1 / r - cos v / sin v| ≤ 1e-10 := by
    have e1 : 1 / r - cos v / sin v = -(r * cos v - sin v) / (r * sin v) := by field_simp; ring
    rw [e1, abs_div, abs_neg, abs_mul, div_le_iff₀ (by positivity)]
    have h1 : 0.0226 * |r| ≤ |r| * |sin v| := by rw [mul_comm]; gcongr
    norm_num at *; linarith
  have hcot2 : |cos v / sin v - cos U / sin U| ≤ 5e-7 := by
    have e1 : cos v / sin v - cos U / sin U = sin (U - v) / (sin v * sin U) := by
      rw [sin_sub]; field_simp
    rw [e1, abs_div, abs_mul, div_le_iff₀ (by positivity)]
    have h1 : |sin (U - v)| ≤ 1e-10 := by
      refine (Real.abs_sin_le_abs).trans ?_; rw [abs_sub_comm]; exact ev
    have h2 : 0.0226 * 0.0227 ≤ |sin v| * |sin U| := by gcongr
    norm_num at *; linarith
  refine ⟨r, hr, le_trans (by norm_num) hr0, ?_⟩
  have := abs_sub_le (1 / r) (cos v / sin v) (cos U / sin U)
  norm_num at *; linarith

namespace Soltrack

theorem up_rd {E : ℝ} (h0 : E ≤ π / 2) (h : 1e-5 ≤ E) :
    ∃ r, (HALFPI - refract (Rd.fin E) : Rd A) = Rd.fin r ∧ r < π / 2 - 5e-6 ∧ π / 2 - E - 0.0132 ≤ r := by
  have p1 := pi_lt_d4
  have p2 := pi_gt_d4
  have hE : Ap (Rd.fin E : Rd A) E 1.58 0 := Ap.ofFin E (by rw [abs_le]; constructor <;> norm_num at * <;> linarith)
  have hD : SolRefr.Dom E := ⟨by norm_num at *; linarith, h0⟩
  have ha := refract_ap hE hD (by norm_num)
  obtain ⟨-, r, hr, er⟩ := (HALFPI_ap (A := A)).sub ha (by norm_num)
  refine ⟨r, hr, ?_⟩
  have hb := SolRefr.corr_bounds (κ := 1.7802e-2) (by norm_num) (by norm_num) hD
  rw [refract_real] at er
  generalize SolRefr.corr 1.7802e-2 E = X at *
  have er := abs_le.1 er
  clear ha hE
  constructor <;> norm_num at * <;> linarith

theorem down_rd {E : ℝ} (h0 : -(π / 2) ≤ E) (h : E ≤ -0.0101) (hpole : 1.2e-3 ≤ |E + 8.92e-2|) :
    ∃ r, (HALFPI - refract (Rd.fin E) : Rd A) = Rd.fin r ∧ π / 2 + 4e-6 < r ∧ r ≤ π / 2 - E + 0.0133 := by
  have p1 := pi_lt_d4
  have p2 := pi_gt_d4
  have hE : Ap (Rd.fin E : Rd A) E 1.58 0 := Ap.ofFin E (by rw [abs_le]; constructor <;> norm_num at * <;> linarith)
  rcases le_total (-1.4545e-2) E with hc | hc
  · have hD : SolRefr.Dom E := ⟨hc, by norm_num at *; linarith⟩
    have ha := refract_ap hE hD (by norm_num)
    obtain ⟨-, r, hr, er⟩ := (HALFPI_ap (A := A)).sub ha (by norm_num)
    refine ⟨r, hr, ?_⟩
    have hb := SolRefr.corr_bounds (κ := 1.7802e-2) (by norm_num) (by norm_num) hD
    have hd := SolRefr.down_dom (κ := 1.7802e-2) (by norm_num) (by norm_num) hD h
    rw [refract_real] at er
    generalize SolRefr.corr 1.7802e-2 E = X at *
    have er := abs_le.1 er
    clear ha hE
    constructor <;> norm_num at * <;> linarith
  · have hr := SolRefr.arg_range h0 hc hpole
    obtain ⟨hs, hcl⟩ := SolRefr.cot_le hr
    have hden : Ap (Rd.fin E + 8.92e-2 : Rd A) (E + 8.92e-2) 1.68 2e-15 := by
      refine (hE.add (Ap.lit le_rfl (by norm_num)) (by norm_num)).fit rfl (by norm_num) (by norm_num)
    have hquo : Ap (3.1376e-3 / (Rd.fin E + 8.92e-2) : Rd A) (3.1376e-3 / (E + 8.92e-2)) 2.62 1e-11 := by
      refine (Ap.div 1.2e-3 2.62 (ε := 3.1376e-3 * 1e-15 + 1e-30) (M := 0.0032) ?_ hden hpole (by norm_num) ?_ (by norm_num)).mono le_rfl (by norm_num)
      · exact (Ap.lit le_rfl (by norm_num)).fit rfl (by norm_num) (by norm_num)
      · have hp0 : 0 < |E + 8.92e-2| := lt_of_lt_of_le (by norm_num) hpole
        rw [abs_div, div_le_iff₀ hp0]
        generalize |E + 8.92e-2| = X at *
        norm_num at *; linarith
    have harg : Ap (Rd.fin E + 3.1376e-3 / (Rd.fin E + 8.92e-2) : Rd A) (SolRefr.arg E) 2.72 1e-10 := by
      refine ((hE.add hquo (by norm_num)).fit rfl le_rfl (by norm_num)).bnd ?_
      show |SolRefr.arg E| ≤ _
      generalize SolRefr.arg E = X at hr ⊢
      rw [abs_le]
      rcases hr with ⟨a, b⟩ | ⟨a, b⟩ <;> constructor <;> norm_num at * <;> linarith
    obtain ⟨τ, hτ, hτ0, hτc⟩ := cot_rd' harg hs
    have hτp : 0 < |τ| := lt_of_lt_of_le (by norm_num) hτ0
    have hτ1 : τ ≠ 0 := abs_pos.1 hτp
    have hlow : -44.2 ≤ cos (SolRefr.arg E) / sin (SolRefr.arg E) := by
      have hs0 : 0 < |sin (SolRefr.arg E)| := lt_of_lt_of_le (by norm_num) hs
      have h2 : |cos (SolRefr.arg E) / sin (SolRefr.arg E)| ≤ 44.1 := by
        rw [abs_div, div_le_iff₀ hs0]
        have := abs_cos_le_one (SolRefr.arg E)
        norm_num at hs this ⊢; linarith
      exact le_trans (by norm_num) (abs_le.1 h2).1
    obtain ⟨-, κ, hκ, eκ⟩ : Ap (2.967e-4 : Rd A) (2.967e-4) 0.0003 1e-18 := by apf
    have eκ' := abs_le.1 eκ
    have hqb : |κ / τ| ≤ 0.02 := by
      rw [abs_div, div_le_iff₀ hτp]
      have : |κ| ≤ 0.0003 := by rw [abs_le]; constructor <;> norm_num at * <;> linarith
      norm_num at *; linarith
    obtain ⟨w, hw, ew⟩ := A.div_spec κ τ hτ1 (hqb.trans (by norm_num))
    have hwe : (2.967e-4 / Num.tan (Rd.fin E + 3.1376e-3 / (Rd.fin E + 8.92e-2)) : Rd A) = Rd.fin w := by
      rw [hκ, hτ]; exact hw
    have hwb : w ≤ 0.01305 ∧ -0.0132 ≤ w := by
      have e1 : κ / τ = 2.967e-4 * (1 / τ) + (κ - 2.967e-4) * (1 / τ) := by ring
      have i1 : |1 / τ| ≤ 46 := by rw [abs_div, abs_one, div_le_iff₀ hτp]; norm_num at *; linarith
      have b2 : |(κ - 2.967e-4) * (1 / τ)| ≤ 1e-18 * 46 := by rw [abs_mul]; gcongr
      have b2 := abs_le.1 b2
      have hτc := abs_le.1 hτc
      have ew2 : |w - κ / τ| ≤ 1e-15 := by norm_num at *; linarith
      have ew2 := abs_le.1 ew2
      rw [e1] at ew2
      generalize (κ - 2.967e-4) * (1 / τ) = P at *
      generalize 1 / τ = Q at *
      generalize cos (SolRefr.arg E) / sin (SolRefr.arg E) = C at *
      clear hs hpole hr hqb ew eκ hτ0 i1
      constructor <;> norm_num at * <;> linarith
    have hwa : Ap (2.967e-4 / Num.tan (Rd.fin E + 3.1376e-3 / (Rd.fin E + 8.92e-2)) : Rd A) w 0.0134 0 :=
      ⟨by rw [abs_le]; constructor <;> norm_num at * <;> linarith, w, hwe, by simp⟩
    obtain ⟨-, r, hr, er⟩ := (HALFPI_ap (A := A)).sub (hE.add hwa (by norm_num)) (by norm_num)
    refine ⟨r, hr, ?_⟩
    have er := abs_le.1 er
    clear hwa hE hden hquo harg hs hpole
    constructor <;> norm_num at * <;> linarith

end Soltrack
end SW
