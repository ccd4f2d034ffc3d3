/-
Error analysis of inverse trigonometric functions and of angles known up to whole turns, for the rounded
arithmetics of Verif/Round.lean.
-/
import Verif.Round
import Verif.REphem

namespace SW
open Real

namespace Ap
variable {R : Arith} {a b : Rd R} {x y M N ε δ : ℝ}

theorem of_step {p q r K κ : ℝ} (hκ : 0 ≤ κ) (h1 : |p| ≤ K) (h2 : |r - p| ≤ κ * |p| + 1e-30) (h3 : |p - q| ≤ ε) :
    |r - q| ≤ ε + (κ * K + 1e-30) := by
  have : |r - q| ≤ |r - p| + |p - q| := abs_sub_le _ _ _
  have : κ * |p| ≤ κ * K := by gcongr
  linarith

/-- quotient, magnitude from those of the operands -/
theorem div' (m : ℝ) (h1 : Ap a x M ε) (h2 : Ap b y N δ) (hm : m ≤ |y|) (hδ : δ < m)
    (hb : M / m + (ε + M / m * δ) / (m - δ) ≤ 1e30) :
    Ap (a / b : Rd R) (x / y) (M / m)
      ((ε + M / m * δ) / (m - δ) + (1e-15 * (M / m + (ε + M / m * δ) / (m - δ)) + 1e-30)) := by
  have D0 := h2.e_nonneg
  refine Ap.div m (M / m) h1 h2 hm hδ ?_ hb
  rw [abs_div]
  exact div_le_div₀ h1.M_nonneg h1.1 (by linarith) hm

theorem arcsin (h : Ap a x M ε) (hx : |x| ≤ 1) (ha : |Real.arcsin x| ≤ 0.415) (he : ε ≤ 1e-4) :
    Ap (Num.arcsin a : Rd R) (Real.arcsin x) 0.415 (ε / 0.91 + 1e-14) := by
  obtain ⟨-, r, rfl, e⟩ := h
  have e' : |r - x| ≤ 1e-4 := e.trans he
  have hx2 := abs_le.1 hx
  have hsx : |x| ≤ Real.sin 0.415 := by
    have h1 := abs_le.1 ha
    have h0 : (0.415 : ℝ) < π / 2 := by have := pi_gt_d2; norm_num at *; linarith
    rw [abs_le]
    constructor
    · have := (Real.le_arcsin_iff_sin_le' (x := -0.415) (y := x) ⟨by linarith, by norm_num at *; linarith⟩).1 h1.1
      rwa [Real.sin_neg] at this
    · exact (Real.arcsin_le_iff_le_sin' (x := x) (y := 0.415) ⟨by norm_num at *; linarith, by linarith⟩).1 h1.2
  have hstep : Real.sin 0.415 + 3e-4 ≤ Real.sin 0.4154 := by
    have := Ephem.sin_expand (x := 0.4154) (y := 0.415) (by rw [abs_of_pos] <;> norm_num)
      (by rw [abs_of_pos] <;> norm_num)
    have h2 : Real.sin 0.415 ≤ Real.sin 0.4154 := by
      apply Real.sin_le_sin_of_le_of_le_pi_div_two <;> have := pi_gt_d2 <;> norm_num at * <;> linarith
    rw [abs_of_nonneg (by linarith : 0 ≤ Real.sin 0.4154 - Real.sin 0.415), abs_of_pos (by norm_num)] at this
    norm_num at *; linarith
  have hr : |r| ≤ Real.sin 0.4154 := by
    have := fin_bound hsx e'; norm_num at *; linarith
  have hr1 : |r| ≤ 1 := hr.trans (Real.sin_le_one _)
  have har : |Real.arcsin r| ≤ 0.4154 := by
    have h1 := abs_le.1 hr
    have h0 : (0.4154 : ℝ) < π / 2 := by have := pi_gt_d2; norm_num at *; linarith
    rw [abs_le]
    constructor
    · refine (Real.le_arcsin_iff_sin_le' (x := -0.4154) (y := r) ⟨by linarith, by norm_num at *; linarith⟩).2 ?_
      rw [Real.sin_neg]; exact h1.1
    · exact (Real.arcsin_le_iff_le_sin' (x := r) (y := 0.4154) ⟨by norm_num at *; linarith, by linarith⟩).2 h1.2
  have hd := Ephem.arcsin_sub_le har (ha.trans (by norm_num)) hr1 hx
  obtain ⟨q, hq, hq'⟩ := R.arcsin_spec r hr1
  refine ⟨ha, q, hq, ?_⟩
  have := abs_sub_le q (Real.arcsin r) (Real.arcsin x)
  have : |r - x| / 0.91 ≤ ε / 0.91 := by gcongr
  linarith

end Ap

/-- perturbation of the angle of a vector -/
theorem ratan2_perturb {y x Y X m δ : ℝ} (hy : |y - Y| ≤ δ) (hx : |x - X| ≤ δ) (hm : m ^ 2 ≤ X ^ 2 + Y ^ 2)
    (h0 : 2 * δ < m) : ∃ k : ℤ, |ratan2 y x - ratan2 Y X - k * (2 * π)| ≤ 2 * δ / (m - 2 * δ) := by
  have hδ : 0 ≤ δ := (abs_nonneg _).trans hy
  obtain ⟨l, hl⟩ : ∃ l, l = ratan2 Y X := ⟨_, rfl⟩
  have c := ratan2_cos Y X
  have s := ratan2_sin Y X
  rw [← hl] at c s ⊢
  have hn : m ≤ √(X ^ 2 + Y ^ 2) := Real.le_sqrt_of_sq_le hm
  have e1 : x * cos l + y * sin l = √(X ^ 2 + Y ^ 2) + ((x - X) * cos l + (y - Y) * sin l) := by
    have : X * cos l + Y * sin l = √(X ^ 2 + Y ^ 2) := by
      calc X * cos l + Y * sin l = √(X ^ 2 + Y ^ 2) * cos l * cos l + √(X ^ 2 + Y ^ 2) * sin l * sin l := by
            rw [c, s]
        _ = √(X ^ 2 + Y ^ 2) * (sin l ^ 2 + cos l ^ 2) := by ring
        _ = _ := by rw [sin_sq_add_cos_sq, mul_one]
    rw [← this]; ring
  have e2 : y * cos l - x * sin l = (y - Y) * cos l - (x - X) * sin l := by
    have : Y * cos l = X * sin l := by
      calc Y * cos l = √(X ^ 2 + Y ^ 2) * sin l * cos l := by rw [s]
        _ = (√(X ^ 2 + Y ^ 2) * cos l) * sin l := by ring
        _ = _ := by rw [c]
    linear_combination this
  have hc := abs_cos_le_one l
  have hs := abs_sin_le_one l
  have b1 : |(x - X) * cos l + (y - Y) * sin l| ≤ 2 * δ := by
    refine (abs_add_le _ _).trans ?_
    rw [abs_mul, abs_mul]
    have := mul_le_mul hx hc (abs_nonneg _) hδ
    have := mul_le_mul hy hs (abs_nonneg _) hδ
    linarith
  have b2 : |(y - Y) * cos l - (x - X) * sin l| ≤ 2 * δ := by
    refine (abs_sub _ _).trans ?_
    rw [abs_mul, abs_mul]
    have := mul_le_mul hx hs (abs_nonneg _) hδ
    have := mul_le_mul hy hc (abs_nonneg _) hδ
    linarith
  have hp : m - 2 * δ ≤ x * cos l + y * sin l := by
    rw [e1]; linarith [(abs_le.1 b1).1]
  have hpos : 0 < x * cos l + y * sin l := by linarith
  obtain ⟨k, hk⟩ := ratan2_near y x l hpos
  refine ⟨k, ?_⟩
  rw [hk, show ∀ u : ℝ, l + u + k * (2 * π) - l - k * (2 * π) = u by intro u; ring]
  refine (abs_arctan_le _).trans ?_
  rw [abs_div, abs_of_pos hpos, e2]
  exact div_le_div₀ (by linarith) b2 (by linarith) hp

/-- `a` is a number at most `M` in magnitude, within `ε` of `x` up to whole multiples of `T` -/
def Apm {R : Arith} (a : Rd R) (x T M ε : ℝ) : Prop := ∃ r, ∃ k : ℤ, a = Rd.fin r ∧ |r| ≤ M ∧ |r - x - k * T| ≤ ε

namespace Apm
variable {R : Arith} {a b : Rd R} {x y T M N ε δ : ℝ}

theorem e_nonneg  (h : Apm a x T M ε) : 0 ≤ ε := by
  obtain ⟨r, k, -, -, h⟩ := h; exact (abs_nonneg _).trans h
theorem M_nonneg  (h : Apm a x T M ε) : 0 ≤ M := by
  obtain ⟨r, k, -, h, -⟩ := h; exact (abs_nonneg _).trans h

theorem mono  {M' ε' : ℝ} (h : Apm a x T M ε) (hM : M ≤ M') (hε : ε ≤ ε') : Apm a x T M' ε' := by
  obtain ⟨r, k, h1, h2, h3⟩ := h
  exact ⟨r, k, h1, h2.trans hM, h3.trans hε⟩

/-- change of the reference by whole turns -/
theorem turn  {y : ℝ} (h : Apm a x T M ε) (m : ℤ) (e : y = x + m * T) : Apm a y T M ε := by
  obtain ⟨r, k, h1, h2, h3⟩ := h
  refine ⟨r, k - m, h1, h2, ?_⟩
  rw [e]; push_cast
  rwa [show r - (x + m * T) - (k - m) * T = r - x - k * T by ring]

theorem of_ap  (h : Ap a x M ε) (T : ℝ) : Apm a x T (M + ε) ε := by
  obtain ⟨m, r, h1, h2⟩ := h
  exact ⟨r, 0, h1, Ap.fin_bound m h2, by simpa using h2⟩

theorem add (h1 : Apm a x T M ε) (h2 : Ap b y N δ) (hb : M + (N + δ) ≤ 1e30) :
    Apm (a + b : Rd R) (x + y) T ((M + (N + δ)) * (1 + 1e-15) + 1e-30)
      (ε + δ + (1e-15 * (M + (N + δ)) + 1e-30)) := by
  obtain ⟨r, k, rfl, m1, e1⟩ := h1
  obtain ⟨m2, s, rfl, e2⟩ := h2
  have hs := Ap.fin_bound m2 e2
  have hK : |r + s| ≤ M + (N + δ) := (abs_add_le _ _).trans (by linarith)
  obtain ⟨q, hq, hq'⟩ := R.add_spec r s (hK.trans hb)
  have h3 : |(r + s) - (x + y + k * T)| ≤ ε + δ := by
    rw [show (r + s) - (x + y + k * T) = (r - x - k * T) + (s - y) by ring]
    exact (abs_add_le _ _).trans (by linarith)
  refine ⟨q, k, hq, ?_, ?_⟩
  · have := Ap.step (q := 0) hK hq' (by rw [sub_zero])
    rw [sub_zero] at this
    linarith
  · rw [sub_sub]; exact Ap.step hK hq' h3

/-- `b + a` -/
theorem ap_add (h2 : Ap b y N δ) (h1 : Apm a x T M ε) (hb : M + (N + δ) ≤ 1e30) :
    Apm (b + a : Rd R) (y + x) T ((M + (N + δ)) * (1 + 1e-15) + 1e-30)
      (ε + δ + (1e-15 * (M + (N + δ)) + 1e-30)) := by
  obtain ⟨r, k, rfl, m1, e1⟩ := h1
  obtain ⟨m2, s, rfl, e2⟩ := h2
  have hs := Ap.fin_bound m2 e2
  have hK : |s + r| ≤ M + (N + δ) := (abs_add_le _ _).trans (by linarith)
  obtain ⟨q, hq, hq'⟩ := R.add_spec s r (hK.trans hb)
  have h3 : |(s + r) - (y + x + k * T)| ≤ ε + δ := by
    rw [show (s + r) - (y + x + k * T) = (r - x - k * T) + (s - y) by ring]
    exact (abs_add_le _ _).trans (by linarith)
  refine ⟨q, k, hq, ?_, ?_⟩
  · have := Ap.step (q := 0) hK hq' (by rw [sub_zero])
    rw [sub_zero] at this
    linarith
  · rw [sub_sub]; exact Ap.step hK hq' h3

theorem sub (h1 : Apm a x T M ε) (h2 : Apm b y T N δ) (hb : M + N ≤ 1e30) :
    Apm (a - b : Rd R) (x - y) T ((M + N) * (1 + 1e-15) + 1e-30)
      (ε + δ + (1e-15 * (M + N) + 1e-30)) := by
  obtain ⟨r, k, rfl, m1, e1⟩ := h1
  obtain ⟨s, j, rfl, m2, e2⟩ := h2
  have hK : |r - s| ≤ M + N := (abs_sub _ _).trans (by linarith)
  obtain ⟨q, hq, hq'⟩ := R.sub_spec r s (hK.trans hb)
  have h3 : |(r - s) - (x - y + (k - j : ℤ) * T)| ≤ ε + δ := by
    push_cast
    rw [show (r - s) - (x - y + (k - j) * T) = (r - x - k * T) - (s - y - j * T) by ring]
    exact (abs_sub _ _).trans (by linarith)
  refine ⟨q, k - j, hq, ?_, ?_⟩
  · have := Ap.step (q := 0) hK hq' (by rw [sub_zero])
    rw [sub_zero] at this
    linarith
  · rw [sub_sub]; exact Ap.step hK hq' h3

/-- the period is scaled with the value -/
theorem mul (h1 : Apm a x T M ε) (h2 : Ap b y N δ) (hb : M * (N + δ) ≤ 1e30) :
    Apm (a * b : Rd R) (x * y) (T * y) (M * (N + δ) * (1 + 1e-15) + 1e-30)
      (M * δ + N * ε + (1e-15 * (M * (N + δ)) + 1e-30)) := by
  have M0 := h1.M_nonneg
  have E0 := h1.e_nonneg
  obtain ⟨r, k, rfl, m1, e1⟩ := h1
  obtain ⟨m2, s, rfl, e2⟩ := h2
  have hs := Ap.fin_bound m2 e2
  have hK : |r * s| ≤ M * (N + δ) := by rw [abs_mul]; gcongr
  obtain ⟨q, hq, hq'⟩ := R.mul_spec r s (hK.trans hb)
  have h3 : |(r * s) - (x * y + k * (T * y))| ≤ M * δ + N * ε := by
    rw [show (r * s) - (x * y + k * (T * y)) = r * (s - y) + y * (r - x - k * T) by ring]
    refine (abs_add_le _ _).trans ?_
    rw [abs_mul, abs_mul]
    have N0 := (abs_nonneg _).trans m2
    gcongr
  refine ⟨q, k, hq, ?_, ?_⟩
  · have := Ap.step (q := 0) hK hq' (by rw [sub_zero])
    rw [sub_zero] at this
    linarith
  · rw [sub_sub]; exact Ap.step hK hq' h3

theorem sin (h : Apm a x (2 * π) M ε) (hb : M ≤ 1e9) : Ap (Num.sin a : Rd R) (Real.sin x) 1 (ε + 1e-14) := by
  obtain ⟨r, k, rfl, m, e⟩ := h
  obtain ⟨q, hq, hq'⟩ := R.sin_spec r (m.trans hb)
  refine ⟨abs_sin_le_one _, q, hq, ?_⟩
  have h1 : |Real.sin r - Real.sin x| ≤ ε := by
    rw [← Real.sin_add_int_mul_two_pi x k]
    refine (Real.abs_sin_sub_sin_le _ _).trans ?_
    rwa [← sub_sub]
  have := abs_sub_le q (Real.sin r) (Real.sin x)
  linarith

theorem cos (h : Apm a x (2 * π) M ε) (hb : M ≤ 1e9) : Ap (Num.cos a : Rd R) (Real.cos x) 1 (ε + 1e-14) := by
  obtain ⟨r, k, rfl, m, e⟩ := h
  obtain ⟨q, hq, hq'⟩ := R.cos_spec r (m.trans hb)
  refine ⟨abs_cos_le_one _, q, hq, ?_⟩
  have h1 : |Real.cos r - Real.cos x| ≤ ε := by
    rw [← Real.cos_add_int_mul_two_pi x k]
    refine (Real.abs_cos_sub_cos_le _ _).trans ?_
    rwa [← sub_sub]
  have := abs_sub_le q (Real.cos r) (Real.cos x)
  linarith

/-- `arctan2` of a vector of length at least `m` -/
theorem atan2 (m : ℝ) (h1 : Ap a y M δ) (h2 : Ap b x N δ) (hm : m ^ 2 ≤ x ^ 2 + y ^ 2) (h0 : 2 * δ < m)
    (hb1 : M + δ ≤ 1e30) (hb2 : N + δ ≤ 1e30) :
    Apm (Num.arctan2 a b : Rd R) (ratan2 y x) (2 * π) (π + 1e-14) (2 * δ / (m - 2 * δ) + 1e-14) := by
  obtain ⟨m1, r, rfl, e1⟩ := h1
  obtain ⟨m2, s, rfl, e2⟩ := h2
  obtain ⟨q, hq, hM, hk⟩ := R.arctan2_spec r s ((Ap.fin_bound m1 e1).trans hb1) ((Ap.fin_bound m2 e2).trans hb2)
  obtain ⟨j, hj⟩ := ratan2_perturb e1 e2 hm h0
  have hne : r ≠ 0 ∨ s ≠ 0 := by
    by_contra hc
    push Not at hc
    obtain ⟨rfl, rfl⟩ := hc
    rw [zero_sub, abs_neg] at e1 e2
    have hδ := (abs_nonneg _).trans e1
    have a1 := sq_le_sq' (by linarith [(abs_le.1 e1).1] : -δ ≤ y) (abs_le.1 e1).2
    have a2 := sq_le_sq' (by linarith [(abs_le.1 e2).1] : -δ ≤ x) (abs_le.1 e2).2
    nlinarith
  obtain ⟨k, hk⟩ := hk hne
  refine ⟨q, k + j, hq, hM, ?_⟩
  push_cast
  rw [show q - ratan2 y x - (k + j) * (2 * π) = (q - ratan2 r s - k * (2 * π)) + (ratan2 r s - ratan2 y x - j * (2 * π)) by ring]
  exact (abs_add_le _ _).trans (by linarith)

theorem period {T' : ℝ} (h : Apm a x T M ε) (e : T = T') : Apm a x T' M ε := e ▸ h

theorem congr {x' : ℝ} (h : Apm a x T M ε) (e : x = x') : Apm a x' T M ε := e ▸ h

/-- numpy's `%` by a whole number -/
theorem pmod {y : ℝ} (h1 : Ap a x M ε) (h2 : b = Rd.fin y) (hb : M + ε ≤ 1e30) (hy : 0 < y) (hy' : y ≤ 1e30) :
    Apm (Num.pmod a b : Rd R) x y (y + 1e-15 * y) (ε + 1e-15 * y) := by
  obtain ⟨m, r, rfl, e⟩ := h1
  obtain ⟨q, hq, q0, q1, k, hk⟩ := R.pmod_spec r y ((Ap.fin_bound m e).trans hb) hy hy'
  refine ⟨q, -k, by rw [h2]; exact hq, by rw [abs_of_nonneg q0]; exact q1, ?_⟩
  push_cast
  rw [show q - x - -k * y = (q - (r - k * y)) + (r - x) by ring]
  exact (abs_add_le _ _).trans (by linarith)

/-- numexpr's `%` by a whole number -/
theorem cmod {y : ℝ} (h1 : Ap a x M ε) (h2 : b = Rd.fin y) (hb : M + ε ≤ 1e30) (hy : 0 < y) (hy' : y ≤ 1e30) :
    Apm (Num.cmod a b : Rd R) x y (y + 1e-15 * y) (ε + 1e-15 * y) := by
  obtain ⟨m, r, rfl, e⟩ := h1
  obtain ⟨q, hq, q1, k, hk⟩ := R.cmod_spec r y ((Ap.fin_bound m e).trans hb) hy hy'
  refine ⟨q, -k, by rw [h2]; exact hq, q1, ?_⟩
  push_cast
  rw [show q - x - -k * y = (q - (r - k * y)) + (r - x) by ring]
  exact (abs_add_le _ _).trans (by linarith)

end Apm
end SW
