/-
The refraction of the standard atmosphere, and how far from it are the corrections that the algorithms
apply.
-/
import Verif.RdSolPos
import Verif.RdIqbal
import Verif.RNrel
import Verif.SolRefr

namespace SW

/-- Specification, independent of the code: the refraction, in degrees, of a standard atmosphere (1010 hPa, 10 degrees
Celsius) at the true elevation `h`, in degrees: Saemundsson's formula, chapter 16 of Meeus, Astronomical Algorithms,
1.02 / tan(h + 10.3 / (h + 5.11)) minutes of arc. -/
noncomputable def standardRefraction (h : ℝ) : ℝ :=
  1.02 / 60 * (Real.cos ((h + 10.3 / (h + 5.11)) * (Real.pi / 180)) / Real.sin ((h + 10.3 / (h + 5.11)) * (Real.pi / 180)))

namespace RefrSpec
open Real

theorem cot_near {x y s : ℝ} (hs : 0 < s) (hx : s ≤ sin x) (hy : s ≤ sin y) :
    |cos x / sin x - cos y / sin y| ≤ |x - y| / (s * s) := by
  have hx0 : 0 < sin x := hs.trans_le hx
  have hy0 : 0 < sin y := hs.trans_le hy
  have e : cos x / sin x - cos y / sin y = sin (y - x) / (sin x * sin y) := by
    rw [sin_sub]; field_simp
  rw [e, abs_div, abs_of_pos (mul_pos hx0 hy0)]
  have h1 : |sin (y - x)| ≤ |x - y| := by rw [abs_sub_comm x y]; exact Real.abs_sin_le_abs
  gcongr

/-- argument of the specification, in radians of elevation -/
noncomputable def arg (e : ℝ) : ℝ := e + 10.3 * (π / 180) ^ 2 / (e + 5.11 * (π / 180))

theorem standard_eq {e : ℝ} (h : e + 5.11 * (π / 180) ≠ 0) :
    standardRefraction (e * (180 / π)) = 1.02 / 60 * (cos (arg e) / sin (arg e)) := by
  have hp := pi_pos.ne'
  have : (e * (180 / π) + 10.3 / (e * (180 / π) + 5.11)) * (π / 180) = arg e := by
    unfold arg
    have h2 : e * (180 / π) + 5.11 ≠ 0 := by
      intro h0; apply h
      have : e + 5.11 * (π / 180) = (e * (180 / π) + 5.11) * (π / 180) := by field_simp
      rw [this, h0, zero_mul]
    have h3 : e * (180 / π) + 5.11 = (e + 5.11 * (π / 180)) * (180 / π) := by field_simp
    rw [h3]
    field_simp
  unfold standardRefraction
  rw [this]

theorem consts : |10.3 * (π / 180) ^ 2 - 3.1376e-3| ≤ 4.3e-8 ∧ 0.0891862 ≤ 5.11 * (π / 180) ∧ 5.11 * (π / 180) ≤ 0.0891864
    ∧ |1.02 * (π / 180) - 1.7802e-2| ≤ 3.7e-7 := by
  have h1 := pi_gt_d6
  have h2 := pi_lt_d6
  refine ⟨?_, ?_, ?_, ?_⟩
  · rw [abs_le]; constructor <;> norm_num at * <;> nlinarith
  · norm_num at *; linarith
  · norm_num at *; linarith
  · rw [abs_le]; constructor <;> norm_num at * <;> linarith

/-- arguments with nearby constants are near -/
theorem arg_near {e q Q : ℝ} (h : -1.4545e-2 ≤ e) (h1 : 8.9186e-2 ≤ q) (hQ : |q - 5.11 * (π / 180)| ≤ Q) :
    |(e + 3.1376e-3 / (e + q)) - arg e| ≤ 5.8e-7 + 0.565 * Q := by
  obtain ⟨c1, c2, c3, -⟩ := consts
  unfold arg
  generalize 10.3 * (π / 180) ^ 2 = p at *
  generalize 5.11 * (π / 180) = r at *
  have hu : 0.07464 ≤ e + q := by norm_num at *; linarith
  have hv : 0.07464 ≤ e + r := by norm_num at *; linarith
  have hu0 : 0 < e + q := by norm_num at *; linarith
  have hv0 : 0 < e + r := by norm_num at *; linarith
  have key : (e + 3.1376e-3 / (e + q)) - (e + p / (e + r)) = 3.1376e-3 * (r - q) / ((e + q) * (e + r)) - (p - 3.1376e-3) / (e + r) := by
    field_simp; ring
  rw [key]
  refine (abs_sub _ _).trans ?_
  have a1 : |3.1376e-3 * (r - q) / ((e + q) * (e + r))| ≤ 0.565 * Q := by
    rw [abs_div, abs_of_pos (mul_pos hu0 hv0), abs_mul, abs_of_pos (by norm_num), abs_sub_comm r q, div_le_iff₀ (mul_pos hu0 hv0)]
    have hm : 0.00557 ≤ (e + q) * (e + r) := by norm_num at *; nlinarith
    have hq0 := (abs_nonneg _).trans hQ
    have := mul_le_mul_of_nonneg_left hm hq0
    generalize |q - r| = D at *
    generalize (e + q) * (e + r) = M at *
    norm_num at *; nlinarith
  have a2 : |(p - 3.1376e-3) / (e + r)| ≤ 5.8e-7 := by
    rw [abs_div, abs_of_pos hv0, div_le_iff₀ hv0]
    generalize |p - 3.1376e-3| = D at *
    norm_num at *; linarith
  linarith

theorem sin_arg {e : ℝ} (h : -1.4545e-2 ≤ e) (h1 : e ≤ π / 2) : 0.0272 ≤ sin (arg e) := by
  have hs := Refr.sin_arg_lower ⟨h, h1⟩
  obtain ⟨c1, c2, c3, -⟩ := consts
  have hn := arg_near (Q := 4e-7) h (le_refl (8.9186e-2 : ℝ)) (by rw [abs_le]; constructor <;> norm_num at * <;> linarith)
  have h2 : |sin (Refr.arg e) - sin (arg e)| ≤ |Refr.arg e - arg e| := Real.abs_sin_sub_sin_le _ _
  have h3 : |Refr.arg e - arg e| ≤ 5.8e-7 + 0.565 * 4e-7 := hn
  have := abs_le.1 (h2.trans h3)
  norm_num at *; linarith

/-- general comparison: a correction `κ / 60 * (cot (arg') + τ)` -/
theorem corr_near {e q Q κ K τ : ℝ} (h : -1.4545e-2 ≤ e) (h1 : e ≤ π / 2) (hq : 8.9186e-2 ≤ q)
    (hQ : |q - 5.11 * (π / 180)| ≤ Q) (hs : 0.0273 ≤ sin (e + 3.1376e-3 / (e + q)))
    (hc : |cos (e + 3.1376e-3 / (e + q)) / sin (e + 3.1376e-3 / (e + q))| ≤ 36.6) (hK : |κ - 1.7802e-2| ≤ K)
    (hτ0 : 0 ≤ τ) (hτ : τ ≤ 1e-16) (hk : 0 ≤ κ) (hk2 : κ ≤ 0.0179) :
    |κ / 60 * (cos (e + 3.1376e-3 / (e + q)) / sin (e + 3.1376e-3 / (e + q)) + τ)
      - standardRefraction (e * (180 / π)) * (π / 180)| ≤ 0.611 * K + 4.63e-7 + 0.228 * Q := by
  obtain ⟨c1, c2, c3, c4⟩ := consts
  rw [standard_eq (by norm_num at *; linarith)]
  have n := cot_near (s := 0.0272) (by norm_num) (by norm_num at *; linarith) (sin_arg h h1) (x := e + 3.1376e-3 / (e + q))
  have hn := arg_near h hq hQ
  generalize cos (e + 3.1376e-3 / (e + q)) / sin (e + 3.1376e-3 / (e + q)) = X at *
  generalize cos (arg e) / sin (arg e) = Y at *
  have n2 : |X - Y| ≤ (5.8e-7 + 0.565 * Q) / (0.0272 * 0.0272) := n.trans (by gcongr)
  obtain ⟨S, hS⟩ : ∃ S, S = 1.02 * (π / 180) := ⟨_, rfl⟩
  rw [← hS] at c4
  rw [show 1.02 / 60 * Y * (π / 180) = S / 60 * Y by rw [hS]; ring]
  have e1 : κ / 60 * (X + τ) - S / 60 * Y = (κ - 1.7802e-2) / 60 * X - (S - 1.7802e-2) / 60 * X + κ / 60 * τ + S / 60 * (X - Y) := by ring
  rw [e1]
  have b1 : |(κ - 1.7802e-2) / 60 * X| ≤ K / 60 * 36.6 := by
    rw [abs_mul, abs_div, abs_of_pos (by norm_num : (0 : ℝ) < 60)]
    have := (abs_nonneg _).trans hK
    gcongr
  have b2 : |(S - 1.7802e-2) / 60 * X| ≤ 3.7e-7 / 60 * 36.6 := by
    rw [abs_mul, abs_div, abs_of_pos (by norm_num : (0 : ℝ) < 60)]
    gcongr
  have b3 : |κ / 60 * τ| ≤ 0.0179 / 60 * 1e-16 := by
    rw [abs_of_nonneg (by positivity)]; gcongr
  have hS2 : |S| ≤ 0.0179 := by have := abs_le.1 c4; rw [abs_le]; constructor <;> norm_num at * <;> linarith
  have b4 : |S / 60 * (X - Y)| ≤ 0.0179 / 60 * ((5.8e-7 + 0.565 * Q) / (0.0272 * 0.0272)) := by
    rw [abs_mul, abs_div, abs_of_pos (by norm_num : (0 : ℝ) < 60)]
    gcongr
  have hQ0 := (abs_nonneg _).trans hQ
  have hK0 := (abs_nonneg _).trans hK
  rw [abs_le] at *
  generalize (κ - 1.7802e-2) / 60 * X = A1 at *
  generalize (S - 1.7802e-2) / 60 * X = A2 at *
  generalize κ / 60 * τ = A3 at *
  generalize S / 60 * (X - Y) = A4 at *
  clear n2 n c4 hS2 e1 c1 hc hn hS hK hQ hs hq
  norm_num at *
  constructor <;> linarith [b1.1, b1.2, b2.1, b2.2, b3.1, b3.2, b4.1, b4.2]

/-- the correction of psa and of nrel -/
theorem refr_near {e κ K : ℝ} (h : Refr.Dom e) (hK : |κ - 1.7802e-2| ≤ K) (hk : 0 ≤ κ) (hk2 : κ ≤ 0.0179) :
    |Refr.corr κ e - standardRefraction (e * (180 / π)) * (π / 180)| ≤ 0.611 * K + 5.6e-7 := by
  obtain ⟨τ, t0, t1, -, hτ⟩ := Refr.corr_eq (κ := κ) h
  have hb := Refr.cot_bounds h
  obtain ⟨c1, c2, c3, -⟩ := consts
  rw [hτ]
  have := corr_near (q := 8.9186e-2) (Q := 4e-7) h.1 h.2 le_rfl (by rw [abs_le]; constructor <;> norm_num at * <;> linarith)
    (Refr.sin_arg_lower h) (abs_le.2 ⟨by have : -0.0020 ≤ Refr.cot e := hb.1; unfold Refr.cot Refr.arg at this; norm_num at *; linarith, hb.2⟩) hK t0 t1 hk hk2
  refine this.trans ?_
  norm_num; linarith

/-- the correction of soltrack -/
theorem sol_near {e : ℝ} (h : SolRefr.Dom e) :
    |SolRefr.corr 1.7802e-2 e - standardRefraction (e * (180 / π)) * (π / 180)| ≤ 3.7e-6 := by
  obtain ⟨τ, t0, t1, -, hτ⟩ := SolRefr.corr_eq (κ := 1.7802e-2) h
  have hb := SolRefr.cot_bounds h
  obtain ⟨c1, c2, c3, -⟩ := consts
  rw [hτ]
  have := corr_near (q := 8.92e-2) (Q := 1.39e-5) (κ := 1.7802e-2) (K := 0) h.1 h.2 (by norm_num) (by rw [abs_le]; constructor <;> norm_num at * <;> linarith)
    (SolRefr.sin_arg_lower h) (abs_le.2 ⟨by have : -0.0020 ≤ SolRefr.cot e := hb.1; unfold SolRefr.cot SolRefr.arg at this; norm_num at *; linarith, hb.2⟩)
    (by norm_num) t0 t1 (by norm_num) (by norm_num)
  refine this.trans ?_
  norm_num

theorem kap_near : |Nrel.kap - 1.7802e-2| ≤ 6.9e-5 := by
  have e : (Nrel.kap : ℝ) = ((1013.25 / 1010.0) * (283.0 / (273 + 12.0))) * 1.7802e-2 := rfl
  rw [e, abs_le]; norm_num

/-! ### the correction of iqbal -/

theorem cot_le {u : ℝ} (h0 : 0 < u) (h1 : u ≤ π / 2 + 0.0019) (hs : 0 < sin u) : cos u / sin u ≤ 1 / u := by
  rw [div_le_div_iff₀ hs h0, one_mul]
  rcases lt_or_ge u (π / 2) with h | h
  · have hc : 0 < cos u := cos_pos_of_mem_Ioo ⟨by linarith, h⟩
    have := (lt_tan h0 h).le
    rw [tan_eq_sin_div_cos, le_div_iff₀ hc] at this
    linarith
  · have hc : cos u ≤ 0 := cos_nonpos_of_pi_div_two_le_of_le h (by have := pi_gt_d2; norm_num at *; linarith)
    nlinarith

theorem le_cot {e : ℝ} (h : Refr.Dom e) : 1 / Refr.arg e - Refr.arg e / 2 ≤ Refr.cot e := by
  have hs := Refr.sin_arg_lower h
  have hu := Refr.arg_lower h
  have hb := (Refr.cot_bounds h).1
  have hup := Refr.arg_upper h
  have hpi := pi_gt_d2
  unfold Refr.cot at hb ⊢
  generalize Refr.arg e = u at *
  have hu0 : 0 < u := by norm_num at *; linarith
  have hs0 : 0 < sin u := by norm_num at *; linarith
  have e1 : 1 / u - u / 2 = (1 - u ^ 2 / 2) / u := by field_simp
  rcases le_total u 1.4 with hc | hc
  · rw [e1, div_le_div_iff₀ hu0 hs0]
    have a1 := one_sub_sq_div_two_le_cos (x := u)
    have a2 := sin_le hu0.le
    have a3 : 0 ≤ 1 - u ^ 2 / 2 := by norm_num at hc; nlinarith
    calc (1 - u ^ 2 / 2) * sin u ≤ (1 - u ^ 2 / 2) * u := by gcongr
      _ ≤ cos u * u := by gcongr
  · have hle : 1 / u - u / 2 ≤ 0.015 := by
      rw [e1, div_le_iff₀ hu0]; norm_num at hc ⊢; nlinarith
    rcases le_total u 1.5 with hd | hd
    · refine hle.trans ?_
      have hcos : 0.0699 ≤ cos u := by
        have e2 : cos u = sin (π / 2 - u) := (sin_pi_div_two_sub u).symm
        have h3 : 0.07 ≤ π / 2 - u := by norm_num at *; linarith
        have h4 : sin 0.07 ≤ sin (π / 2 - u) := sin_le_sin_of_le_of_le_pi_div_two (by norm_num at *; linarith) (by linarith) h3
        have h5 := sin_gt_sub_cube (x := 0.07) (by norm_num)
        rw [e2]; norm_num at *; linarith
      have := sin_le_one u
      rw [le_div_iff₀ hs0]; norm_num at *; linarith
    · have : 1 / u - u / 2 ≤ -0.0020 := by
        rw [e1, div_le_iff₀ hu0]; norm_num at hd ⊢; nlinarith
      linarith

theorem refcor_eq (x : ℝ) : Iqbal.refcor x = 0.061359 * (0.1594 + 1.1230 * x + 0.065656 * (x * x)) / (1 + 28.9344 * x + 277.3971 * (x * x)) := by
  show 0.061359 * (0.1594 + (1.1230 * x) + (0.065656 * (x * x))) / (1.0 + (28.9344 * x) + (277.3971 * (x * x))) = _
  norm_num

theorem inv_arg {e : ℝ} (h : 0 ≤ e) : 1 / Refr.arg e = (e + 8.9186e-2) / (e * e + 8.9186e-2 * e + 3.1376e-3) := by
  unfold Refr.arg
  have h1 : e + 8.9186e-2 ≠ 0 := by norm_num; linarith
  rw [show e + 3.1376e-3 / (e + 8.9186e-2) = (e * e + 8.9186e-2 * e + 3.1376e-3) / (e + 8.9186e-2) by field_simp, one_div_div]

theorem rig_bounds {a : ℝ} (h : 0.0068 ≤ a) (hup : a ≤ 1.6) :
    -1e-4 ≤ Iqbal.refcor a - 2.967e-4 * (1 / Refr.arg a) ∧ Iqbal.refcor a - 2.967e-4 * (1 / Refr.arg a) ≤ 9.65e-4 ∧
    (0.2 ≤ a → Iqbal.refcor a - 2.967e-4 * (1 / Refr.arg a) ≤ 0) := by
  have h0 : 0 ≤ a := by norm_num at h; linarith
  rw [inv_arg h0, refcor_eq]
  have hD : 0 < 1 + 28.9344 * a + 277.3971 * (a * a) := by positivity
  have hQ : 0 < a * a + 8.9186e-2 * a + 3.1376e-3 := by positivity
  rw [← mul_div_assoc, div_sub_div _ _ hD.ne' hQ.ne']
  refine ⟨?_, ?_, fun h2 => ?_⟩
  · rw [le_div_iff₀ (mul_pos hD hQ)]
    obtain ⟨x, rfl⟩ : ∃ x, a = 0.0068 + x := ⟨a - 0.0068, by ring⟩
    have hx : 0 ≤ x := by linarith
    have h2 := pow_nonneg hx 2
    have h3 := pow_nonneg hx 3
    have h4 := pow_nonneg hx 4
    norm_num
    nlinarith
  · rw [div_le_iff₀ (mul_pos hD hQ)]
    obtain ⟨x, rfl⟩ : ∃ x, a = 0.0068 + x := ⟨a - 0.0068, by ring⟩
    have hx : 0 ≤ x := by linarith
    have h2 := pow_nonneg hx 2
    have h3 := pow_nonneg hx 3
    have h4 := pow_nonneg hx 4
    norm_num
    nlinarith
  · rw [div_le_iff₀ (mul_pos hD hQ), zero_mul]
    obtain ⟨x, rfl⟩ : ∃ x, a = 0.2 + x := ⟨a - 0.2, by ring⟩
    have hx : 0 ≤ x := by linarith
    have h2 := pow_nonneg hx 2
    have h3 := pow_nonneg hx 3
    have h4 : x * x ^ 3 ≤ 1.4 * x ^ 3 := by gcongr; norm_num at hup ⊢; linarith
    norm_num at h4 ⊢
    nlinarith

theorem iqbal_near {e : ℝ} (h : 0.0068 ≤ e) (h1 : e ≤ π / 2) :
    |Iqbal.refcor e - standardRefraction (e * (180 / π)) * (π / 180)| ≤ 1.005e-3 := by
  have hD : Refr.Dom e := ⟨by norm_num at *; linarith, h1⟩
  have n := refr_near (κ := 1.7802e-2) (K := 0) hD (by norm_num) (by norm_num) (by norm_num)
  obtain ⟨τ, t0, t1, -, hτ⟩ := Refr.corr_eq (κ := 1.7802e-2) hD
  rw [hτ] at n
  obtain ⟨b1, b2, b3⟩ := rig_bounds h (by have := pi_lt_d4; norm_num at *; linarith)
  have hu := Refr.arg_lower hD
  have hu0 : 0 < Refr.arg e := by norm_num at hu ⊢; linarith
  have hs := Refr.sin_arg_lower hD
  have c1 := cot_le hu0 (Refr.arg_upper hD) (by norm_num at hs ⊢; linarith)
  have c2 := le_cot hD
  have c1' : Refr.cot e ≤ 1 / Refr.arg e := c1
  have hup := Refr.arg_upper hD
  have hpi := pi_lt_d4
  have hsmall : e ≤ 0.2 → Refr.arg e ≤ 0.25 := by
    intro he
    unfold Refr.arg
    have : 3.1376e-3 / (e + 8.9186e-2) ≤ (0.04 : ℝ) := by
      rw [div_le_iff₀ (by norm_num at *; linarith)]; norm_num at *; linarith
    norm_num at *; linarith
  generalize 1 / Refr.arg e = I at *
  generalize Refr.arg e = u at *
  generalize Refr.cot e = C at *
  generalize Iqbal.refcor e = R at *
  generalize standardRefraction (e * (180 / π)) * (π / 180) = S at *
  have n := abs_le.1 n
  rw [abs_le]
  norm_num at n b1 b2 b3 hsmall hpi hup t1 ⊢
  constructor
  · linarith [n.1, n.2]
  · rcases le_total e (1 / 5) with h | h
    · have := hsmall h; linarith [n.1, n.2]
    · have := b3 h; linarith [n.1, n.2]

end RefrSpec
end SW
