/-
The latitude of the poles in 53-bit arithmetic: radians of 90 degrees round to less than a quarter turn, so that
the computed tangent of the latitude has the sign of the latitude.
-/
import Verif.RdNrelPos
import Verif.RoundIeee
import Mathlib.Analysis.Real.Pi.Bounds

namespace SW
open Real

/-- the rounding of a number to the nearest multiple of a power of two -/
theorem bits_eval {x : ℝ} {e n : ℤ} (h1 : (2 : ℝ) ^ e ≤ |x|) (h2 : |x| < (2 : ℝ) ^ (e + 1))
    (hn : |x * (2 : ℝ) ^ (52 - e) - n| < 1 / 2) : bits 52 x = n * (2 : ℝ) ^ (e - 52) := by
  have h0 : 0 < |x| := lt_of_lt_of_le (by positivity) h1
  have hlog : Int.log 2 |x| = e := by
    apply le_antisymm
    · have := (Int.lt_zpow_iff_log_lt (R := ℝ) (b := 2) (by norm_num) h0 (x := e + 1)).1 (by exact_mod_cast h2)
      omega
    · exact (Int.zpow_le_iff_le_log (R := ℝ) (b := 2) (by norm_num) h0).1 (by exact_mod_cast h1)
  unfold bits
  rw [hlog]
  have hr := rint_bounds (x * (2 : ℝ) ^ (((52 : ℕ) : ℤ) - e))
  have hk : rint (x * (2 : ℝ) ^ (((52 : ℕ) : ℤ) - e)) = n := by
    have e1 : ((52 : ℕ) : ℤ) = 52 := rfl
    rw [e1] at *
    have : |((rint (x * (2 : ℝ) ^ (52 - e)) - n : ℤ) : ℝ)| < 1 := by
      push_cast
      have := abs_sub_le (rint (x * (2 : ℝ) ^ (52 - e)) : ℝ) (x * (2 : ℝ) ^ (52 - e)) n
      linarith
    rw [← Int.cast_abs] at this
    have : |rint (x * (2 : ℝ) ^ (52 - e)) - n| < 1 := by exact_mod_cast this
    rw [Int.abs_lt_one_iff] at this
    omega
  rw [hk]; rfl

theorem bits_pi : bits 52 π = 7074237752028440 * (2 : ℝ) ^ (-51 : ℤ) := by
  have h1 := pi_gt_d20
  have h2 := pi_lt_d20
  have := bits_eval (x := π) (e := 1) (n := 7074237752028440)
    (by rw [abs_of_pos pi_pos]; norm_num at *; linarith) (by rw [abs_of_pos pi_pos]; norm_num at *; linarith)
    (by rw [abs_lt]; constructor <;> norm_num at * <;> linarith)
  rw [this]; norm_num

theorem bits_deg : bits 52 (bits 52 π / 180) = 5030569068109113 * (2 : ℝ) ^ (-58 : ℤ) := by
  have := bits_eval (x := bits 52 π / 180) (e := -6) (n := 5030569068109113)
    (by rw [bits_pi, abs_of_pos (by positivity)]; norm_num) (by rw [bits_pi, abs_of_pos (by positivity)]; norm_num)
    (by rw [bits_pi, abs_lt]; constructor <;> norm_num)
  rw [this]; norm_num

/-- no latitude rounds to a quarter turn or more -/
theorem bits_lat {y : ℝ} (h : |y| ≤ 90) (h1 : 1 ≤ |y * bits 52 (bits 52 π / 180)|) :
    |bits 52 (y * bits 52 (bits 52 π / 180))| < π / 2 := by
  have hc := bits_deg
  have hb : |y * bits 52 (bits 52 π / 180)| ≤ 90 * (5030569068109113 * (2 : ℝ) ^ (-58 : ℤ)) := by
    rw [abs_mul, hc, abs_of_pos (by positivity : (0 : ℝ) < 5030569068109113 * (2 : ℝ) ^ (-58 : ℤ))]
    gcongr
  generalize y * bits 52 (bits 52 π / 180) = x at *
  have hlog : Int.log 2 |x| = 0 := by
    have h0 : 0 < |x| := by linarith
    apply le_antisymm
    · have := (Int.lt_zpow_iff_log_lt (R := ℝ) (b := 2) (by norm_num) h0 (x := 1)).1
        (by norm_num at *; linarith)
      omega
    · exact (Int.zpow_le_iff_le_log (R := ℝ) (b := 2) (by norm_num) h0).1 (by norm_num; exact h1)
  unfold bits
  rw [hlog]
  have hr := rint_bounds (x * (2 : ℝ) ^ (((52 : ℕ) : ℤ) - 0))
  obtain ⟨m, hm⟩ : ∃ m, m = rint (x * (2 : ℝ) ^ (((52 : ℕ) : ℤ) - 0)) := ⟨_, rfl⟩
  rw [← hm] at hr ⊢
  clear hm
  have hx2 : |x * (2 : ℝ) ^ (((52 : ℕ) : ℤ) - 0)| ≤ 7074237752028440.2 := by
    rw [abs_mul, abs_of_pos (by positivity : (0 : ℝ) < (2 : ℝ) ^ (((52 : ℕ) : ℤ) - 0))]
    norm_num at *; linarith
  have hm1 : |(m : ℝ)| < 7074237752028441 := by
    have := abs_sub_abs_le_abs_sub (m : ℝ) (x * (2 : ℝ) ^ (((52 : ℕ) : ℤ) - 0))
    norm_num at *; linarith
  have hm2 : |m| ≤ 7074237752028440 := by
    rw [← Int.cast_abs] at hm1
    have : |m| < 7074237752028441 := by exact_mod_cast hm1
    omega
  have hm3 : |(m : ℝ)| ≤ 7074237752028440 := by rw [← Int.cast_abs]; exact_mod_cast hm2
  rw [abs_mul, abs_of_pos (by positivity : (0 : ℝ) < (2 : ℝ) ^ ((0 : ℤ) - ((52 : ℕ) : ℤ)))]
  have hp := pi_gt_d20
  norm_num at *; linarith

theorem Rounding.sign {ρ : ℝ → ℝ} (h : Rounding ρ) {x y : ℝ} (hxy : 0 ≤ x * y) : 0 ≤ ρ x * y := by
  have hn := _root_.abs_le.1 (h.near x)
  rcases le_total 0 x with hx | hx
  · rw [abs_of_nonneg hx] at hn
    rcases le_total 0 y with hy | hy
    · exact mul_nonneg (by norm_num at *; linarith) hy
    · have : x * y = 0 := le_antisymm (mul_nonpos_of_nonneg_of_nonpos hx hy) hxy
      rcases mul_eq_zero.1 this with rfl | rfl
      · have : ρ 0 = 0 := by have := h.near 0; simpa using this
        rw [this]; simp
      · simp
  · rw [abs_of_nonpos hx] at hn
    rcases le_total 0 y with hy | hy
    · have : x * y = 0 := le_antisymm (mul_nonpos_of_nonpos_of_nonneg hx hy) hxy
      rcases mul_eq_zero.1 this with rfl | rfl
      · have : ρ 0 = 0 := by have := h.near 0; simpa using this
        rw [this]; simp
      · simp
    · exact mul_nonneg_of_nonpos_of_nonpos (by norm_num at *; linarith) hy

/-- a computed tangent has the sign of the angle -/
theorem ctan_sign {ρ : ℝ → ℝ} (h : Rounding ρ) {x y : ℝ} (hx : |x| < π / 2) (hxy : 0 ≤ x * y) : 0 ≤ ctan ρ x * y := by
  have hb := abs_lt.1 hx
  have hc : 0 < cos x := cos_pos_of_mem_Ioo ⟨hb.1, hb.2⟩
  have ht : 0 ≤ tan x * y := by
    rcases lt_trichotomy x 0 with h0 | rfl | h0
    · have : tan x < 0 := tan_neg_of_neg_of_pi_div_two_lt h0 hb.1
      have : y ≤ 0 := by by_contra hy; push Not at hy; nlinarith
      nlinarith
    · simp
    · have : 0 < tan x := tan_pos_of_pos_of_lt_pi_div_two h0 hb.2
      have : 0 ≤ y := by by_contra hy; push Not at hy; nlinarith
      positivity
  unfold ctan
  split_ifs with h1 h2
  · have : y ≤ 0 := by by_contra hy; push Not at hy; nlinarith
    norm_num at *; linarith
  · have h3 : 0 < tan x := by
      rcases h1 with h1 | h1
      · exact absurd h1 hc.ne'
      · rw [abs_of_nonneg (not_lt.1 h2)] at h1
        exact lt_trans (by norm_num) h1
    have : 0 ≤ y := by by_contra hy; push Not at hy; nlinarith
    positivity
  · exact h.sign ht

/-- in the 53-bit arithmetic the poles are no exception -/
theorem Nrel.poleOk_binary64 {y : ℝ} (hy : |y| ≤ 90) : Nrel.PoleOk Arith.binary64 y := by
  by_cases h : |y| ≤ 90 - 1e-10
  · exact .inl h
  refine .inr ⟨ctan (bits 52) (bits 52 (y * bits 52 (bits 52 π / 180))), ?_, ?_⟩
  · have e1 : (DEG2RAD : Rd Arith.binary64) = Rd.fin (bits 52 (bits 52 π / 180)) := by
      show Rd.m2 Arith.binary64.div (XR.fin (bits 52 π)) (XR.fin (Num.nat 180)) = _
      show (if (180 : ℝ) = 0 then XR.nan else XR.fin (bits 52 (bits 52 π / (180 : ℝ)))) = _
      rw [if_neg (by norm_num)]; rfl
    rw [e1]; rfl
  · push Not at h
    have hc := bits_deg
    apply ctan_sign Rounding.bits
    · apply bits_lat hy
      rw [abs_mul, hc, abs_of_pos (by positivity : (0 : ℝ) < 5030569068109113 * (2 : ℝ) ^ (-58 : ℤ))]
      norm_num at *; linarith
    · apply Rounding.bits.sign
      rw [hc]
      rw [show y * (5030569068109113 * (2 : ℝ) ^ (-58 : ℤ)) * y = 5030569068109113 * (2 : ℝ) ^ (-58 : ℤ) * (y * y) by ring]
      have := mul_self_nonneg y
      positivity

end SW
