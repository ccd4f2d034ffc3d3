/-
Real-analysis lemmas about the operations used by the code: `arctan2`, the two `%`, truncation.
-/
import Verif.RealXR
import Mathlib.Analysis.SpecialFunctions.Trigonometric.Bounds
import Mathlib.Analysis.SpecialFunctions.Trigonometric.Angle
import Mathlib.Analysis.Real.Pi.Bounds

namespace SW
open Real

/-! ### arctan2 -/

theorem ratan2_mem (y x : ℝ) : -π < ratan2 y x ∧ ratan2 y x ≤ π :=
  ⟨Complex.neg_pi_lt_arg _, Complex.arg_le_pi _⟩

theorem cnorm (y x : ℝ) : ‖(⟨x, y⟩ : ℂ)‖ = √(x ^ 2 + y ^ 2) := by
  rw [Complex.norm_eq_sqrt_sq_add_sq]

theorem ratan2_cos (y x : ℝ) : √(x ^ 2 + y ^ 2) * cos (ratan2 y x) = x := by
  rw [← cnorm]; exact Complex.norm_mul_cos_arg _

theorem ratan2_sin (y x : ℝ) : √(x ^ 2 + y ^ 2) * sin (ratan2 y x) = y := by
  rw [← cnorm]; exact Complex.norm_mul_sin_arg _

theorem ratan2_neg_iff {y x : ℝ} : ratan2 y x < 0 ↔ y < 0 := Complex.arg_neg_iff

theorem ratan2_nonneg_iff {y x : ℝ} : 0 ≤ ratan2 y x ↔ 0 ≤ y := Complex.arg_nonneg_iff

theorem ratan2_eq_zero_iff {y x : ℝ} : ratan2 y x = 0 ↔ 0 ≤ x ∧ y = 0 := by
  unfold ratan2
  rw [Complex.arg_eq_zero_iff]

theorem ratan2_eq_pi_iff {y x : ℝ} : ratan2 y x = π ↔ x < 0 ∧ y = 0 := by
  unfold ratan2
  rw [Complex.arg_eq_pi_iff]

/-- the angle of `(x, y)` from the angle it makes with the direction `l` -/
theorem ratan2_near (y x l : ℝ) (h : 0 < x * cos l + y * sin l) :
    ∃ k : ℤ, ratan2 y x
      = l + arctan ((y * cos l - x * sin l) / (x * cos l + y * sin l)) + k * (2 * π) := by
  set p := x * cos l + y * sin l with hp
  set q := y * cos l - x * sin l with hq
  have hz : (⟨x, y⟩ : ℂ) = Complex.exp (l * Complex.I) * ⟨p, q⟩ := by
    have e1 : (Complex.exp (l * Complex.I)).re = cos l := Complex.exp_ofReal_mul_I_re l
    have e2 : (Complex.exp (l * Complex.I)).im = sin l := Complex.exp_ofReal_mul_I_im l
    apply Complex.ext
    · rw [Complex.mul_re, e1, e2]
      show x = cos l * p - sin l * q
      rw [hp, hq]
      linear_combination (-x) * Real.sin_sq_add_cos_sq l
    · rw [Complex.mul_im, e1, e2]
      show y = cos l * q + sin l * p
      rw [hp, hq]
      linear_combination (-y) * Real.sin_sq_add_cos_sq l
  have hw : (⟨p, q⟩ : ℂ) ≠ 0 := by
    intro h0
    have := congrArg Complex.re h0
    simp at this; linarith
  have he : Complex.exp (l * Complex.I) ≠ 0 := Complex.exp_ne_zero _
  have harg : Complex.arg ⟨p, q⟩ = arctan (q / p) := by
    have h1 := Complex.arg_of_re_nonneg (x := ⟨p, q⟩) (le_of_lt h)
    have h2 := Real.arctan_eq_arcsin (q / p)
    rw [h1, h2]
    congr 1
    have h4 : √(1 + (q / p) ^ 2) = √(p ^ 2 + q ^ 2) / p := by
      rw [show 1 + (q / p) ^ 2 = (p ^ 2 + q ^ 2) / p ^ 2 by field_simp,
        Real.sqrt_div (by positivity), Real.sqrt_sq h.le]
    rw [cnorm, h4]
    show q / √(p ^ 2 + q ^ 2) = _
    have : √(p ^ 2 + q ^ 2) ≠ 0 := by
      have : 0 < p ^ 2 + q ^ 2 := by positivity
      positivity
    field_simp
  have hang : ((Complex.arg ⟨x, y⟩ : ℝ) : Real.Angle) = ((l + arctan (q / p) : ℝ) : Real.Angle) := by
    rw [hz, Complex.arg_mul_coe_angle he hw, harg, Complex.arg_exp_mul_I]
    simp [Real.Angle.coe_toIocMod]
  obtain ⟨k, hk⟩ := Real.Angle.angle_eq_iff_two_pi_dvd_sub.1 hang
  refine ⟨k, ?_⟩
  unfold ratan2
  linarith

theorem abs_arctan_le (x : ℝ) : |arctan x| ≤ |x| := by
  have key : ∀ y : ℝ, 0 ≤ y → arctan y ≤ y := by
    intro y hy
    rcases hy.lt_or_eq with h | h
    · by_contra hc
      push Not at hc
      have h1 : tan y < tan (arctan y) :=
        tan_lt_tan_of_nonneg_of_lt_pi_div_two hy (arctan_lt_pi_div_two y) hc
      rw [tan_arctan] at h1
      exact absurd (lt_tan h (lt_of_lt_of_le hc (arctan_lt_pi_div_two y).le)) (by linarith)
    · simp [← h]
  rcases le_total 0 x with h | h
  · rw [abs_of_nonneg h, abs_of_nonneg (arctan_nonneg.2 h)]; exact key x h
  · have h2 : 0 ≤ arctan (-x) := arctan_nonneg.2 (by linarith)
    rw [arctan_neg] at h2
    rw [abs_of_nonpos h, abs_of_nonpos (by linarith), ← arctan_neg]; exact key _ (by linarith)

/-! ### the two `%` -/

theorem rpmod_eq (x y : ℝ) : ∃ k : ℤ, rpmod x y = x - k * y := ⟨⌊x / y⌋, rfl⟩
theorem rcmod_eq (x y : ℝ) : ∃ k : ℤ, rcmod x y = x - k * y := ⟨rtrunc (x / y), rfl⟩

theorem rpmod_mem {x y : ℝ} (hy : 0 < y) : 0 ≤ rpmod x y ∧ rpmod x y < y := by
  unfold rpmod
  have h1 := Int.floor_le (x / y)
  have h2 := Int.lt_floor_add_one (x / y)
  rw [le_div_iff₀ hy] at h1
  rw [div_lt_iff₀ hy] at h2
  constructor <;> linarith

theorem rtrunc_nonneg {x : ℝ} (h : 0 ≤ x) : rtrunc x = ⌊x⌋ := if_pos h
theorem rtrunc_neg {x : ℝ} (h : x < 0) : rtrunc x = ⌈x⌉ := if_neg (not_le.2 h)

theorem rtrunc_bounds (x : ℝ) : |(rtrunc x : ℝ)| ≤ |x| ∧ |x - rtrunc x| < 1 := by
  rcases le_or_gt 0 x with h | h
  · rw [rtrunc_nonneg h]
    have h0 : (0 : ℝ) ≤ (⌊x⌋ : ℝ) := by exact_mod_cast Int.floor_nonneg.2 h
    have h1 := Int.floor_le x
    have h2 := Int.lt_floor_add_one x
    rw [abs_of_nonneg h, abs_of_nonneg h0, abs_of_nonneg (by linarith)]
    constructor <;> linarith
  · rw [rtrunc_neg h]
    have h0 : (⌈x⌉ : ℝ) ≤ 0 := by exact_mod_cast Int.ceil_nonpos.2 h.le
    have h1 := Int.le_ceil x
    have h2 := Int.ceil_lt_add_one x
    rw [abs_of_neg h, abs_of_nonpos h0, abs_of_nonpos (by linarith)]
    constructor <;> linarith

theorem rcmod_mem {x y : ℝ} (hy : 0 < y) : -y < rcmod x y ∧ rcmod x y < y := by
  unfold rcmod
  have h := (rtrunc_bounds (x / y)).2
  rw [abs_lt] at h
  have e : x - rtrunc (x / y) * y = (x / y - rtrunc (x / y)) * y := by field_simp
  rw [e]
  constructor
  · nlinarith [h.1]
  · nlinarith [h.2]

theorem rcmod_of_lt {x y : ℝ} (hy : 0 < y) (h : |x| < y) : rcmod x y = x := by
  unfold rcmod
  have h1 : |x / y| < 1 := by rw [abs_div, abs_of_pos hy, div_lt_one hy]; exact h
  have h2 := (rtrunc_bounds (x / y)).1
  have h3 : |((rtrunc (x / y) : ℤ) : ℝ)| < 1 := lt_of_le_of_lt h2 h1
  have h4 : rtrunc (x / y) = 0 := by
    have : |rtrunc (x / y)| < 1 := by exact_mod_cast h3
    simpa using Int.abs_lt_one_iff.1 this
  rw [h4]; simp

/-! ### tangent -/

theorem rtan_of_cos_ne {x : ℝ} (h : cos x ≠ 0) : rtan x = sin x / cos x := by
  unfold rtan; rw [if_neg h, tan_eq_sin_div_cos]

theorem rtan_mul_cos {x : ℝ} (h : cos x ≠ 0) : rtan x * cos x = sin x := by
  rw [rtan_of_cos_ne h]; field_simp

/-! ### bounds of small combinations -/

theorem abs_cos_sin_le (a b t : ℝ) {m : ℝ} (hm : 0 ≤ m) (h : a ^ 2 + b ^ 2 ≤ m ^ 2) :
    |a * cos t + b * sin t| ≤ m := by
  apply abs_le_of_sq_le_sq' _ hm |> abs_le.2
  nlinarith [sq_nonneg (a * sin t - b * cos t), Real.sin_sq_add_cos_sq t]

theorem abs_mul_sin_le (a t : ℝ) : |a * sin t| ≤ |a| := by
  rw [abs_mul]; exact mul_le_of_le_one_right (abs_nonneg _) (abs_sin_le_one _)
theorem abs_mul_cos_le (a t : ℝ) : |a * cos t| ≤ |a| := by
  rw [abs_mul]; exact mul_le_of_le_one_right (abs_nonneg _) (abs_cos_le_one _)

/-- the cosine of the angle between two unit vectors -/
theorem sphere_le_one (p d H : ℝ) :
    |sin p * sin d + cos p * cos d * cos H| ≤ 1 := by
  rw [abs_le_one_iff_mul_self_le_one]
  have h1 := Real.sin_sq_add_cos_sq p
  have h2 := Real.sin_sq_add_cos_sq d
  have h3 := Real.sin_sq_add_cos_sq H
  have e : 1 - (sin p * sin d + cos p * cos d * cos H) * (sin p * sin d + cos p * cos d * cos H)
      = (cos p * cos d * sin H) ^ 2 + (sin p * cos d * cos H - cos p * sin d) ^ 2
        + (cos d * sin H * sin p) ^ 2 := by
    have e1 : cos H ^ 2 = 1 - sin H ^ 2 := by linarith
    have e2 : cos d ^ 2 = 1 - sin d ^ 2 := by linarith
    have e3 : cos p ^ 2 = 1 - sin p ^ 2 := by linarith
    ring_nf
    rw [e1, e2, e3]; ring
  nlinarith [sq_nonneg (cos p * cos d * sin H), sq_nonneg (sin p * cos d * cos H - cos p * sin d),
    sq_nonneg (cos d * sin H * sin p)]


/-- sign of `arctan2` -/
theorem ratan2_sign (y x : ℝ) :
    (y < 0 ↔ -π < ratan2 y x ∧ ratan2 y x < 0) ∧ (0 < y ↔ 0 < ratan2 y x ∧ ratan2 y x < π) ∧
    (y = 0 ↔ ratan2 y x = 0 ∨ ratan2 y x = π) := by
  have hm := ratan2_mem y x
  have h1 := ratan2_neg_iff (y := y) (x := x)
  have h2 : y = 0 → ratan2 y x = 0 ∨ ratan2 y x = π := by
    rintro rfl
    by_cases hx : 0 ≤ x
    · exact .inl (ratan2_eq_zero_iff.2 ⟨hx, rfl⟩)
    · exact .inr (ratan2_eq_pi_iff.2 ⟨not_le.1 hx, rfl⟩)
  have h3 : ratan2 y x = 0 ∨ ratan2 y x = π → y = 0 := by
    rintro (h | h)
    · exact (ratan2_eq_zero_iff.1 h).2
    · exact (ratan2_eq_pi_iff.1 h).2
  refine ⟨⟨fun h => ⟨hm.1, h1.2 h⟩, fun h => h1.1 h.2⟩, ⟨fun h => ?_, fun h => ?_⟩, ⟨h2, h3⟩⟩
  · have a : ¬ ratan2 y x < 0 := fun hh => by have := h1.1 hh; linarith
    refine ⟨lt_of_le_of_ne (not_lt.1 a) fun hh => ?_, lt_of_le_of_ne hm.2 fun hh => ?_⟩
    · have := h3 (.inl hh.symm); linarith
    · have := h3 (.inr hh); linarith
  · have a : ¬ y < 0 := fun hh => by have := h1.2 hh; linarith
    refine lt_of_le_of_ne (not_lt.1 a) fun hh => ?_
    rcases h2 hh.symm with h' | h' <;> linarith

end SW
