/-
The airmass parameterisations and irradiance corrections, over the reals.
-/
import Verif.Sunpos
import Verif.RealXR
import Verif.Astro
import Mathlib.Analysis.SpecialFunctions.Pow.Deriv
import Mathlib.Analysis.Calculus.Deriv.MeanValue
import Mathlib.Analysis.SpecialFunctions.Trigonometric.Deriv
import Mathlib.Analysis.SpecialFunctions.Log.Basic
import Mathlib.Analysis.Complex.ExponentialBounds

namespace SW.Air
open Real

/-- common form of the four formulas: `a = 0` for the first two -/
noncomputable def rec (c a b k z : ℝ) : ℝ := cos (z * (π / 180)) + c * z ^ a * (k - z) ^ (-b)

theorem rpow_neg_le {x b m : ℝ} {n : ℕ} (hm : 0 < m) (hx : m ^ 2 ≤ x) (hx1 : 1 ≤ x) (hb : n + 1 / 2 ≤ b) :
    x ^ (-b) ≤ 1 / (m * x ^ n) := by
  have hx0 : 0 < x := by linarith
  have h1 : x ^ (-b) ≤ x ^ (-((n : ℝ) + 1 / 2)) := rpow_le_rpow_of_exponent_le hx1 (by linarith)
  have h2 : x ^ (-((n : ℝ) + 1 / 2)) = 1 / (√x * x ^ n) := by
    rw [rpow_neg hx0.le, rpow_add hx0, rpow_natCast, ← sqrt_eq_rpow, mul_comm, one_div]
  rw [h2] at h1
  refine h1.trans ?_
  have h3 : m ≤ √x := le_sqrt_of_sq_le hx
  have h4 : 0 < x ^ n := by positivity
  exact one_div_le_one_div_of_le (by positivity) (mul_le_mul_of_nonneg_right h3 h4.le)

theorem rpow_neg_le' {x b : ℝ} {n : ℕ} (hx1 : 1 ≤ x) (hb : n ≤ b) : x ^ (-b) ≤ 1 / x ^ n := by
  have hx0 : 0 < x := by linarith
  refine (rpow_le_rpow_of_exponent_le hx1 (show -b ≤ -(n : ℝ) by linarith)).trans ?_
  rw [rpow_neg hx0.le, rpow_natCast, one_div]

/-- lower bound: `x ^ (-b) ≥ 1/Y` if `x ≤ X`, `b ≤ p/q` and `X^p ≤ Y^q` -/
theorem rpow_neg_ge {x b X Y : ℝ} {p q : ℕ} (hq : q ≠ 0) (hx1 : 1 ≤ x) (hx : x ≤ X) (hY : 0 < Y)
    (hb : b ≤ p / q) (hXY : X ^ p ≤ Y ^ q) : 1 / Y ≤ x ^ (-b) := by
  have hx0 : 0 < x := by linarith
  rw [rpow_neg hx0.le, ← one_div]
  apply one_div_le_one_div_of_le (rpow_pos_of_pos hx0 _)
  have h1 : x ^ b ≤ x ^ ((p : ℝ) / q) := rpow_le_rpow_of_exponent_le hx1 hb
  have h2 : x ^ ((p : ℝ) / q) ≤ Y := by
    have h3 : (x ^ ((p : ℝ) / q)) ^ q = x ^ p := by
      rw [← rpow_natCast, ← rpow_mul hx0.le, div_mul_cancel₀ _ (by exact_mod_cast hq), rpow_natCast]
    have h4 : (x ^ ((p : ℝ) / q)) ^ q ≤ Y ^ q := by
      rw [h3]; exact (pow_le_pow_left₀ hx0.le hx p).trans hXY
    exact le_of_pow_le_pow_left₀ hq hY.le h4
  linarith

theorem rpow_le_of_pow {z a A : ℝ} {n : ℕ} (hn : n ≠ 0) (hz : 0 ≤ z) (hzA : z ≤ A ^ n) (hA : 1 ≤ A)
    (ha0 : 0 ≤ a) (ha : a ≤ 1 / n) : z ^ a ≤ A := by
  by_cases h1 : z ≤ 1
  · exact (rpow_le_one hz h1 ha0).trans hA
  · have h1' : 1 ≤ z := (not_le.1 h1).le
    have h2 : z ^ a ≤ z ^ ((1 : ℝ) / n) := rpow_le_rpow_of_exponent_le h1' ha
    have h3 : z ^ ((1 : ℝ) / n) ≤ (A ^ n) ^ ((1 : ℝ) / n) := rpow_le_rpow hz hzA (by positivity)
    rw [one_div, pow_rpow_inv_natCast (by linarith) hn] at h3
    rw [one_div] at h2
    linarith

theorem rpow_ge_of_pow {z a A : ℝ} {n : ℕ} (hn : n ≠ 0) (hzA : A ^ n ≤ z) (hA : 1 ≤ A)
    (ha : 1 / n ≤ a) : A ≤ z ^ a := by
  have h1 : 1 ≤ z := (one_le_pow₀ hA).trans hzA
  have h2 : z ^ ((1 : ℝ) / n) ≤ z ^ a := rpow_le_rpow_of_exponent_le h1 ha
  have h3 : (A ^ n) ^ ((1 : ℝ) / n) ≤ z ^ ((1 : ℝ) / n) := rpow_le_rpow (by positivity) hzA (by positivity)
  rw [one_div, pow_rpow_inv_natCast (by linarith) hn] at h3
  rw [one_div] at h2
  linarith

/-! ### derivative -/

theorem hasDerivAt_rec {c a b k z : ℝ} (hz : 0 < z) (hk : z < k) :
    HasDerivAt (rec c a b k) (-sin (z * (π / 180)) * (π / 180)
      + (c * (a * z ^ (a - 1)) * (k - z) ^ (-b) + c * z ^ a * (b * (k - z) ^ (-b - 1)))) z := by
  have h1 : HasDerivAt (fun z : ℝ => cos (z * (π / 180))) (-sin (z * (π / 180)) * (π / 180)) z := by
    have := ((hasDerivAt_id z).mul_const (π / 180)).cos
    simpa using this
  have h2 : HasDerivAt (fun z : ℝ => c * z ^ a) (c * (a * z ^ (a - 1))) z :=
    (hasDerivAt_rpow_const (Or.inl hz.ne')).const_mul c
  have h3 : HasDerivAt (fun z : ℝ => (k - z) ^ (-b)) (b * (k - z) ^ (-b - 1)) z := by
    have h4 : HasDerivAt (fun z : ℝ => k - z) (-1) z := by
      simpa using (hasDerivAt_id z).const_sub k
    have := h4.rpow_const (p := -b) (Or.inl (by linarith))
    convert this using 1
    ring
  exact h1.add (h2.mul h3)

/-- the derivative is not positive on `[p, q]` -/
theorem deriv_piece {c a b k z p q A Y1 Y2 S : ℝ} (hc : 0 ≤ c) (ha : 0 ≤ a) (hb : 0 ≤ b) (hp : 0 < p)
    (hz1 : p ≤ z) (hz2 : z ≤ q) (hq : q ≤ 90) (hk : q + 1 ≤ k) (hA : z ^ a ≤ A)
    (hY1 : (k - q) ^ (-b) ≤ Y1) (hY2 : (k - q) ^ (-b - 1) ≤ Y2)
    (hS : S ≤ sin (p * (π / 180)) * (π / 180)) (h : c * (a * A / p * Y1 + A * (b * Y2)) ≤ S) :
    -sin (z * (π / 180)) * (π / 180)
      + (c * (a * z ^ (a - 1)) * (k - z) ^ (-b) + c * z ^ a * (b * (k - z) ^ (-b - 1))) ≤ 0 := by
  have hz0 : 0 < z := by linarith
  have hpi := pi_pos
  have hsin : sin (p * (π / 180)) ≤ sin (z * (π / 180)) := by
    apply sin_le_sin_of_le_of_le_pi_div_two <;> nlinarith
  have hX1 : (k - z) ^ (-b) ≤ Y1 :=
    (rpow_le_rpow_of_nonpos (by linarith) (by linarith) (by linarith)).trans hY1
  have hX2 : (k - z) ^ (-b - 1) ≤ Y2 :=
    (rpow_le_rpow_of_nonpos (by linarith) (by linarith) (by linarith)).trans hY2
  have hX10 : 0 ≤ (k - z) ^ (-b) := rpow_nonneg (by linarith) _
  have hX20 : 0 ≤ (k - z) ^ (-b - 1) := rpow_nonneg (by linarith) _
  have hza0 : 0 ≤ z ^ a := rpow_nonneg hz0.le _
  have hza : z ^ (a - 1) = z ^ a / z := by rw [rpow_sub hz0, rpow_one]
  have hdiv : z ^ a / z ≤ A / p := div_le_div₀ (hza0.trans hA) hA hp hz1
  have hdiv0 : 0 ≤ z ^ a / z := by positivity
  have e1 : c * (a * z ^ (a - 1)) * (k - z) ^ (-b) ≤ c * (a * A / p * Y1) := by
    rw [hza, mul_assoc c]
    apply mul_le_mul_of_nonneg_left _ hc
    rw [mul_div_assoc]
    exact mul_le_mul (mul_le_mul_of_nonneg_left hdiv ha) hX1 hX10
      (mul_nonneg ha (hdiv0.trans hdiv))
  have e2 : c * z ^ a * (b * (k - z) ^ (-b - 1)) ≤ c * (A * (b * Y2)) := by
    rw [mul_assoc c]
    apply mul_le_mul_of_nonneg_left _ hc
    exact mul_le_mul hA (mul_le_mul_of_nonneg_left hX2 hb) (mul_nonneg hb hX20) (hza0.trans hA)
  have e3 : sin (p * (π / 180)) * (π / 180) ≤ sin (z * (π / 180)) * (π / 180) :=
    mul_le_mul_of_nonneg_right hsin (by positivity)
  rw [mul_add] at h
  linarith

theorem antitone_rec {c a b k z0 : ℝ} (hz0 : 0 < z0) (hk : 91 ≤ k)
    (h : ∀ z, z0 ≤ z → z ≤ 90 → -sin (z * (π / 180)) * (π / 180)
      + (c * (a * z ^ (a - 1)) * (k - z) ^ (-b) + c * z ^ a * (b * (k - z) ^ (-b - 1))) ≤ 0) :
    AntitoneOn (rec c a b k) (Set.Icc z0 90) := by
  apply antitoneOn_of_deriv_nonpos (convex_Icc _ _)
  · intro z hz
    exact (hasDerivAt_rec (by linarith [hz.1]) (by linarith [hz.2])).continuousAt.continuousWithinAt
  · intro z hz
    rw [interior_Icc] at hz
    exact (hasDerivAt_rec (by linarith [hz.1]) (by linarith [hz.2])).differentiableAt.differentiableWithinAt
  · intro z hz
    rw [interior_Icc] at hz
    rw [(hasDerivAt_rec (by linarith [hz.1]) (by linarith [hz.2])).deriv]
    exact h z hz.1.le hz.2.le

/-- close to the zenith the formulas exceed one -/
theorem rec_ge_one {c a b k z : ℝ} (h : 1.5232e-4 * z ^ 2 ≤ c * z ^ a * (k - z) ^ (-b)) :
    1 ≤ rec c a b k z := by
  have h1 := one_sub_sq_div_two_le_cos (x := z * (π / 180))
  have h2 : (z * (π / 180)) ^ 2 / 2 ≤ 1.5232e-4 * z ^ 2 := by
    have h3 := pi_lt_d6
    have h4 := pi_pos
    have h5 : (π / 180) ^ 2 / 2 ≤ 1.5232e-4 := by norm_num at h3 ⊢; nlinarith
    have := mul_le_mul_of_nonneg_right h5 (sq_nonneg z)
    nlinarith
  unfold rec
  linarith

/-- lower bounds of the sine -/
theorem sin_lower {p S : ℝ} (hp : 0 < p) (hp1 : p ≤ 50)
    (h : S ≤ (p * 0.0174532 - (p * 0.0174533) ^ 3 / 4) * 0.0174532)
    (hpos : 0 ≤ p * 0.0174532 - (p * 0.0174533) ^ 3 / 4) :
    S ≤ sin (p * (π / 180)) * (π / 180) := by
  have h1 := pi_gt_d6
  have h2 := pi_lt_d6
  have e1 : 0.0174532 ≤ π / 180 := by norm_num at h1 ⊢; linarith
  have e2 : π / 180 ≤ 0.0174533 := by norm_num at h2 ⊢; linarith
  have h3 : 0 < p * (π / 180) := by positivity
  have h4 : p * (π / 180) ≤ 1 := by norm_num at e2 ⊢; nlinarith
  have h5 := sin_gt_sub_cube h3
  have h9 : 0 ≤ (p * (π / 180)) ^ 3 := by positivity
  have h6 : (p * (π / 180)) ^ 3 ≤ (p * 0.0174533) ^ 3 :=
    pow_le_pow_left₀ h3.le (mul_le_mul_of_nonneg_left e2 hp.le) 3
  have h7 : p * 0.0174532 ≤ p * (π / 180) := mul_le_mul_of_nonneg_left e1 hp.le
  have h8 : p * 0.0174532 - (p * 0.0174533) ^ 3 / 4 ≤ sin (p * (π / 180)) := by linarith
  exact h.trans (mul_le_mul h8 e1 (by norm_num) (hpos.trans h8))

theorem sin70 : (0.0163 : ℝ) ≤ sin (70 * (π / 180)) * (π / 180) := by
  have h1 := pi_gt_d6
  have h2 := pi_lt_d6
  have e : sin (70 * (π / 180)) = cos (20 * (π / 180)) := by
    rw [← cos_pi_div_two_sub]; congr 1; ring
  rw [e]
  have h3 := one_sub_sq_div_two_le_cos (x := 20 * (π / 180))
  norm_num at h1 h2 ⊢
  nlinarith

/-- the clipped inverse is monotone -/
theorem am_mono {f : ℝ → ℝ} {z0 : ℝ} (h1 : ∀ z, 0 ≤ z → z ≤ z0 → 1 ≤ f z)
    (h2 : AntitoneOn f (Set.Icc z0 90)) (h3 : 0 < f 90) (hz : z0 ≤ 90) :
    MonotoneOn (fun z => max 1 (1 / f z)) (Set.Icc 0 90) ∧
    ∀ z, 0 ≤ z → z ≤ 90 → min 1 (f 90) ≤ f z := by
  have hge : ∀ z, 0 ≤ z → z ≤ 90 → min 1 (f 90) ≤ f z := by
    intro z a b
    by_cases h : z ≤ z0
    · exact (min_le_left _ _).trans (h1 z a h)
    · exact (min_le_right _ _).trans (h2 ⟨(not_le.1 h).le, b⟩ ⟨hz, le_rfl⟩ b)
  refine ⟨?_, hge⟩
  intro z hz z' hz' hzz
  show max 1 (1 / f z) ≤ max 1 (1 / f z')
  by_cases h : z ≤ z0
  · have := h1 z hz.1 h
    have h4 : 1 / f z ≤ 1 := by rw [div_le_one (by linarith)]; exact this
    rw [max_eq_left h4]; exact le_max_left _ _
  · have h' := (not_le.1 h).le
    have h5 := h2 ⟨h', hz.2⟩ ⟨h'.trans hzz, hz'.2⟩ hzz
    have h6 : 0 < f z' := lt_of_lt_of_le (lt_min one_pos h3) (hge z' hz'.1 hz'.2)
    exact max_le_max le_rfl (one_div_le_one_div_of_le h6 h5)

/-! ### the four formulas -/

theorem rec90 {c a b k : ℝ} : rec c a b k 90 = c * 90 ^ a * (k - 90) ^ (-b) := by
  unfold rec
  have : (90 : ℝ) * (π / 180) = π / 2 := by ring
  rw [this, cos_pi_div_two, zero_add]

theorem kasten : (∀ z, 0 ≤ z → z ≤ 0.33 → 1 ≤ rec 0.15 0 1.253 93.885 z) ∧
    AntitoneOn (rec 0.15 0 1.253 93.885) (Set.Icc 0.33 90) ∧ 0.009 ≤ rec 0.15 0 1.253 93.885 90 := by
  refine ⟨?_, ?_, ?_⟩
  · intro z h0 h1
    apply rec_ge_one
    have h2 := rpow_neg_ge (x := 93.885 - z) (b := 1.253) (X := 93.885) (Y := 93.885 ^ 2) (p := 2) (q := 1)
      (by norm_num) (by norm_num at h1 ⊢; linarith) (by linarith) (by norm_num) (by norm_num) (by norm_num)
    rw [rpow_zero]
    norm_num at h1 h2 ⊢; nlinarith
  · apply antitone_rec (by norm_num) (by norm_num)
    intro z h0 h1
    have hA : z ^ (0 : ℝ) ≤ 1 := by rw [rpow_zero]
    by_cases c1 : z ≤ 10
    · exact deriv_piece (p := 0.33) (q := 10) (A := 1) (Y1 := 1) (Y2 := 1 / (93.885 - 10) ^ 2) (S := 9e-5)
        (by norm_num) (by norm_num) (by norm_num) (by norm_num) h0 c1 (by norm_num) (by norm_num) hA
        (rpow_le_one_of_one_le_of_nonpos (by norm_num) (by norm_num))
        (by rw [show (-1.253 - 1 : ℝ) = -2.253 by norm_num]; exact rpow_neg_le' (by norm_num) (by norm_num))
        (sin_lower (by norm_num) (by norm_num) (by norm_num) (by norm_num)) (by norm_num)
    by_cases c2 : z ≤ 70
    · exact deriv_piece (p := 10) (q := 70) (A := 1) (Y1 := 1) (Y2 := 1 / (93.885 - 70) ^ 2) (S := 3e-3)
        (by norm_num) (by norm_num) (by norm_num) (by norm_num) (not_le.1 c1).le c2 (by norm_num)
        (by norm_num) hA (rpow_le_one_of_one_le_of_nonpos (by norm_num) (by norm_num))
        (by rw [show (-1.253 - 1 : ℝ) = -2.253 by norm_num]; exact rpow_neg_le' (by norm_num) (by norm_num))
        (sin_lower (by norm_num) (by norm_num) (by norm_num) (by norm_num)) (by norm_num)
    · exact deriv_piece (p := 70) (q := 90) (A := 1) (Y1 := 1) (Y2 := 1 / (93.885 - 90) ^ 2) (S := 0.0163)
        (by norm_num) (by norm_num) (by norm_num) (by norm_num) (not_le.1 c2).le h1 (by norm_num)
        (by norm_num) hA (rpow_le_one_of_one_le_of_nonpos (by norm_num) (by norm_num))
        (by rw [show (-1.253 - 1 : ℝ) = -2.253 by norm_num]; exact rpow_neg_le' (by norm_num) (by norm_num))
        sin70 (by norm_num)
  · rw [rec90, rpow_zero]
    have := rpow_neg_ge (x := 93.885 - 90) (b := 1.253) (X := 93.885 - 90) (Y := (93.885 - 90) ^ 2) (p := 2) (q := 1)
      (by norm_num) (by norm_num) le_rfl (by norm_num) (by norm_num) (by norm_num)
    norm_num at this ⊢; linarith

theorem kastenYoung : (∀ z, 0 ≤ z → z ≤ 0.59 → 1 ≤ rec 0.50572 0 1.6364 96.07995 z) ∧
    AntitoneOn (rec 0.50572 0 1.6364 96.07995) (Set.Icc 0.59 90) ∧
    0.0136 ≤ rec 0.50572 0 1.6364 96.07995 90 := by
  refine ⟨?_, ?_, ?_⟩
  · intro z h0 h1
    apply rec_ge_one
    have h2 := rpow_neg_ge (x := 96.07995 - z) (b := 1.6364) (X := 96.07995) (Y := 96.07995 ^ 2) (p := 2) (q := 1)
      (by norm_num) (by norm_num at h1 ⊢; linarith) (by linarith) (by norm_num) (by norm_num) (by norm_num)
    rw [rpow_zero]
    norm_num at h1 h2 ⊢; nlinarith
  · apply antitone_rec (by norm_num) (by norm_num)
    intro z h0 h1
    have hA : z ^ (0 : ℝ) ≤ 1 := by rw [rpow_zero]
    by_cases c1 : z ≤ 10
    · exact deriv_piece (p := 0.59) (q := 10) (A := 1) (Y1 := 1) (Y2 := 1 / (9.2 * (96.07995 - 10) ^ 2)) (S := 1.7e-4)
        (by norm_num) (by norm_num) (by norm_num) (by norm_num) h0 c1 (by norm_num) (by norm_num) hA
        (rpow_le_one_of_one_le_of_nonpos (by norm_num) (by norm_num))
        (by rw [show (-1.6364 - 1 : ℝ) = -2.6364 by norm_num]; exact rpow_neg_le (by norm_num) (by norm_num) (by norm_num) (by norm_num))
        (sin_lower (by norm_num) (by norm_num) (by norm_num) (by norm_num)) (by norm_num)
    by_cases c2 : z ≤ 70
    · exact deriv_piece (p := 10) (q := 70) (A := 1) (Y1 := 1) (Y2 := 1 / (5 * (96.07995 - 70) ^ 2)) (S := 3e-3)
        (by norm_num) (by norm_num) (by norm_num) (by norm_num) (not_le.1 c1).le c2 (by norm_num)
        (by norm_num) hA (rpow_le_one_of_one_le_of_nonpos (by norm_num) (by norm_num))
        (by rw [show (-1.6364 - 1 : ℝ) = -2.6364 by norm_num]; exact rpow_neg_le (by norm_num) (by norm_num) (by norm_num) (by norm_num))
        (sin_lower (by norm_num) (by norm_num) (by norm_num) (by norm_num)) (by norm_num)
    · exact deriv_piece (p := 70) (q := 90) (A := 1) (Y1 := 1) (Y2 := 1 / (2.4 * (96.07995 - 90) ^ 2)) (S := 0.0163)
        (by norm_num) (by norm_num) (by norm_num) (by norm_num) (not_le.1 c2).le h1 (by norm_num)
        (by norm_num) hA (rpow_le_one_of_one_le_of_nonpos (by norm_num) (by norm_num))
        (by rw [show (-1.6364 - 1 : ℝ) = -2.6364 by norm_num]; exact rpow_neg_le (by norm_num) (by norm_num) (by norm_num) (by norm_num))
        sin70 (by norm_num)
  · rw [rec90, rpow_zero]
    have := rpow_neg_ge (x := 96.07995 - 90) (b := 1.6364) (X := 96.07995 - 90) (Y := (96.07995 - 90) ^ 2) (p := 2) (q := 1)
      (by norm_num) (by norm_num) le_rfl (by norm_num) (by norm_num) (by norm_num)
    norm_num at this ⊢; linarith

theorem gueymard2001 : (∀ z, 0 ≤ z → z ≤ 0.9 → 1 ≤ rec 0.45665 0.07 1.697 96.4836 z) ∧
    AntitoneOn (rec 0.45665 0.07 1.697 96.4836) (Set.Icc 0.9 90) ∧
    0.01 ≤ rec 0.45665 0.07 1.697 96.4836 90 := by
  refine ⟨?_, ?_, ?_⟩
  · intro z h0 h1
    apply rec_ge_one
    have h2 := rpow_neg_ge (x := 96.4836 - z) (b := 1.697) (X := 100) (Y := 3163) (p := 7) (q := 4)
      (by norm_num) (by norm_num at h1 ⊢; linarith) (by norm_num at h0 ⊢; linarith) (by norm_num) (by norm_num) (by norm_num)
    have h3 : z ≤ z ^ (0.07 : ℝ) := by
      rcases h0.eq_or_lt with rfl | h0'
      · exact rpow_nonneg le_rfl _
      · have := rpow_le_rpow_of_exponent_ge h0' (by norm_num at h1; linarith) (show (0.07 : ℝ) ≤ 1 by norm_num)
        rwa [rpow_one] at this
    have h4 : z * (1 / 3163) ≤ z ^ (0.07 : ℝ) * (96.4836 - z) ^ (-1.697 : ℝ) :=
      mul_le_mul h3 h2 (by norm_num) (h0.trans h3)
    norm_num at h1 h4 ⊢; nlinarith
  · apply antitone_rec (by norm_num) (by norm_num)
    intro z h0 h1
    have hz : 0 ≤ z := by norm_num at h0; linarith
    have hA : z ^ (0.07 : ℝ) ≤ 1.5 := rpow_le_of_pow (n := 14) (by norm_num) hz (h1.trans (by norm_num)) (by norm_num) (by norm_num) (by norm_num)
    have hb : (-1.697 - 1 : ℝ) = -2.697 := by norm_num
    by_cases c1 : z ≤ 10
    · exact deriv_piece (p := 0.9) (q := 10) (A := 1.5) (Y1 := 1 / (9.2 * (96.4836 - 10) ^ 1)) (Y2 := 1 / (9.2 * (96.4836 - 10) ^ 2)) (S := 2.5e-4)
        (by norm_num) (by norm_num) (by norm_num) (by norm_num) h0 c1 (by norm_num) (by norm_num) hA
        (rpow_neg_le (by norm_num) (by norm_num) (by norm_num) (by norm_num))
        (by rw [hb]; exact rpow_neg_le (by norm_num) (by norm_num) (by norm_num) (by norm_num))
        (sin_lower (by norm_num) (by norm_num) (by norm_num) (by norm_num)) (by norm_num)
    by_cases c2 : z ≤ 70
    · exact deriv_piece (p := 10) (q := 70) (A := 1.5) (Y1 := 1 / (5 * (96.4836 - 70) ^ 1)) (Y2 := 1 / (5 * (96.4836 - 70) ^ 2)) (S := 3e-3)
        (by norm_num) (by norm_num) (by norm_num) (by norm_num) (not_le.1 c1).le c2 (by norm_num)
        (by norm_num) hA (rpow_neg_le (by norm_num) (by norm_num) (by norm_num) (by norm_num))
        (by rw [hb]; exact rpow_neg_le (by norm_num) (by norm_num) (by norm_num) (by norm_num))
        (sin_lower (by norm_num) (by norm_num) (by norm_num) (by norm_num)) (by norm_num)
    · exact deriv_piece (p := 70) (q := 90) (A := 1.5) (Y1 := 1 / (2.5 * (96.4836 - 90) ^ 1)) (Y2 := 1 / (2.5 * (96.4836 - 90) ^ 2)) (S := 0.0163)
        (by norm_num) (by norm_num) (by norm_num) (by norm_num) (not_le.1 c2).le h1 (by norm_num)
        (by norm_num) hA (rpow_neg_le (by norm_num) (by norm_num) (by norm_num) (by norm_num))
        (by rw [hb]; exact rpow_neg_le (by norm_num) (by norm_num) (by norm_num) (by norm_num))
        sin70 (by norm_num)
  · rw [rec90]
    have h1 := rpow_neg_ge (x := 96.4836 - 90) (b := 1.697) (X := 96.4836 - 90) (Y := (96.4836 - 90) ^ 2) (p := 2) (q := 1)
      (by norm_num) (by norm_num) le_rfl (by norm_num) (by norm_num) (by norm_num)
    have h2 : (1 : ℝ) ≤ 90 ^ (0.07 : ℝ) := one_le_rpow (by norm_num) (by norm_num)
    have h3 := mul_le_mul h2 h1 (by norm_num) (by linarith)
    norm_num at h3 ⊢; nlinarith

theorem gueymard2003 : (∀ z, 0 ≤ z → z ≤ 0.79 → 1 ≤ rec 0.48353 0.095846 1.754 96.741 z) ∧
    AntitoneOn (rec 0.48353 0.095846 1.754 96.741) (Set.Icc 0.79 90) ∧
    0.0148 ≤ rec 0.48353 0.095846 1.754 96.741 90 := by
  refine ⟨?_, ?_, ?_⟩
  · intro z h0 h1
    apply rec_ge_one
    have h2 := rpow_neg_ge (x := 96.741 - z) (b := 1.754) (X := 100) (Y := 4000) (p := 9) (q := 5)
      (by norm_num) (by norm_num at h1 ⊢; linarith) (by norm_num at h0 ⊢; linarith) (by norm_num) (by norm_num) (by norm_num)
    have h3 : z ≤ z ^ (0.095846 : ℝ) := by
      rcases h0.eq_or_lt with rfl | h0'
      · exact rpow_nonneg le_rfl _
      · have := rpow_le_rpow_of_exponent_ge h0' (by norm_num at h1; linarith) (show (0.095846 : ℝ) ≤ 1 by norm_num)
        rwa [rpow_one] at this
    have h4 : z * (1 / 4000) ≤ z ^ (0.095846 : ℝ) * (96.741 - z) ^ (-1.754 : ℝ) :=
      mul_le_mul h3 h2 (by norm_num) (h0.trans h3)
    norm_num at h1 h4 ⊢; nlinarith
  · apply antitone_rec (by norm_num) (by norm_num)
    intro z h0 h1
    have hz : 0 ≤ z := by norm_num at h0; linarith
    have hA : z ^ (0.095846 : ℝ) ≤ 1.6 := rpow_le_of_pow (n := 10) (by norm_num) hz (h1.trans (by norm_num)) (by norm_num) (by norm_num) (by norm_num)
    have hb : (-1.754 - 1 : ℝ) = -2.754 := by norm_num
    by_cases c1 : z ≤ 10
    · exact deriv_piece (p := 0.79) (q := 10) (A := 1.26) (Y1 := 1 / (9.3 * (96.741 - 10) ^ 1)) (Y2 := 1 / (9.3 * (96.741 - 10) ^ 2)) (S := 2.4e-4)
        (by norm_num) (by norm_num) (by norm_num) (by norm_num) h0 c1 (by norm_num) (by norm_num)
        (rpow_le_of_pow (n := 10) (by norm_num) hz (c1.trans (by norm_num)) (by norm_num) (by norm_num) (by norm_num))
        (rpow_neg_le (by norm_num) (by norm_num) (by norm_num) (by norm_num))
        (by rw [hb]; exact rpow_neg_le (by norm_num) (by norm_num) (by norm_num) (by norm_num))
        (sin_lower (by norm_num) (by norm_num) (by norm_num) (by norm_num)) (by norm_num)
    by_cases c2 : z ≤ 70
    · exact deriv_piece (p := 10) (q := 70) (A := 1.6) (Y1 := 1 / (5 * (96.741 - 70) ^ 1)) (Y2 := 1 / (5 * (96.741 - 70) ^ 2)) (S := 3e-3)
        (by norm_num) (by norm_num) (by norm_num) (by norm_num) (not_le.1 c1).le c2 (by norm_num)
        (by norm_num) hA (rpow_neg_le (by norm_num) (by norm_num) (by norm_num) (by norm_num))
        (by rw [hb]; exact rpow_neg_le (by norm_num) (by norm_num) (by norm_num) (by norm_num))
        (sin_lower (by norm_num) (by norm_num) (by norm_num) (by norm_num)) (by norm_num)
    · exact deriv_piece (p := 70) (q := 90) (A := 1.6) (Y1 := 1 / (2.5 * (96.741 - 90) ^ 1)) (Y2 := 1 / (2.5 * (96.741 - 90) ^ 2)) (S := 0.0163)
        (by norm_num) (by norm_num) (by norm_num) (by norm_num) (not_le.1 c2).le h1 (by norm_num)
        (by norm_num) hA (rpow_neg_le (by norm_num) (by norm_num) (by norm_num) (by norm_num))
        (by rw [hb]; exact rpow_neg_le (by norm_num) (by norm_num) (by norm_num) (by norm_num))
        sin70 (by norm_num)
  · rw [rec90]
    have h1 := rpow_neg_ge (x := 96.741 - 90) (b := 1.754) (X := 96.741 - 90) (Y := (96.741 - 90) ^ 2) (p := 2) (q := 1)
      (by norm_num) (by norm_num) le_rfl (by norm_num) (by norm_num) (by norm_num)
    have h2 : (1.4 : ℝ) ≤ 90 ^ (0.095846 : ℝ) := rpow_ge_of_pow (n := 12) (by norm_num) (by norm_num) (by norm_num) (by norm_num)
    have h3 := mul_le_mul h2 h1 (by norm_num) (by linarith)
    norm_num at h3 ⊢; nlinarith

end SW.Air
