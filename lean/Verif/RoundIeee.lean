/-
Arithmetics that meet the specification of Verif/Round.lean: exact arithmetic, and arithmetic in which
every result is the exact one rounded to 53 significant bits, half to even, as in IEEE binary64.
-/
import Verif.Round
import Verif.Astro

namespace SW
open Real Classical

/-- a rounding of the real numbers to double precision -/
structure Rounding (ρ : ℝ → ℝ) : Prop where
  near : ∀ x, |ρ x - x| ≤ 3e-16 * |x|
  int : ∀ n : ℤ, |n| ≤ 2 ^ 53 → ρ n = n
  one : ∀ x, |x| ≤ 1 → |ρ x| ≤ 1

theorem Rounding.id : Rounding (fun x => x) where
  near x := by rw [sub_self, abs_zero]; positivity
  int _ _ := rfl
  one _ h := h

/-- rounding to `p + 1` significant bits, half to even, with an unbounded exponent -/
noncomputable def bits (p : ℕ) (x : ℝ) : ℝ :=
  rint (x * (2 : ℝ) ^ ((p : ℤ) - Int.log 2 |x|)) * (2 : ℝ) ^ (Int.log 2 |x| - (p : ℤ))

theorem bits_near (p : ℕ) (x : ℝ) : |bits p x - x| ≤ (2 : ℝ) ^ (-(p : ℤ) - 1) * |x| := by
  by_cases hx : x = 0
  · subst hx
    have h0 : rint (0 : ℝ) = 0 := by unfold rint; norm_num
    unfold bits; rw [zero_mul, h0]; simp
  · set e := Int.log 2 |x| with he
    have hx' : 0 < |x| := abs_pos.2 hx
    have hle : (2 : ℝ) ^ e ≤ |x| := by
      have := Int.zpow_log_le_self (R := ℝ) (b := 2) (by norm_num) hx'
      exact_mod_cast this
    have h2 : (0 : ℝ) < 2 ^ (e - (p : ℤ)) := by positivity
    have hm : (2 : ℝ) ^ ((p : ℤ) - e) * 2 ^ (e - (p : ℤ)) = 1 := by
      rw [← zpow_add₀ (by norm_num)]; simp
    have e1 : bits p x - x = (rint (x * (2 : ℝ) ^ ((p : ℤ) - e)) - x * (2 : ℝ) ^ ((p : ℤ) - e)) * 2 ^ (e - (p : ℤ)) := by
      unfold bits; rw [← he, sub_mul, mul_assoc x, hm, mul_one]
    rw [e1, abs_mul, abs_of_pos h2]
    have hb := rint_bounds (x * (2 : ℝ) ^ ((p : ℤ) - e))
    calc |(rint (x * (2 : ℝ) ^ ((p : ℤ) - e)) : ℝ) - x * (2 : ℝ) ^ ((p : ℤ) - e)| * 2 ^ (e - (p : ℤ))
        ≤ 1 / 2 * 2 ^ (e - (p : ℤ)) := by gcongr
      _ = 2 ^ (-(p : ℤ) - 1) * 2 ^ e := by
        rw [← zpow_add₀ (by norm_num), show -(p : ℤ) - 1 + e = (e - p) + (-1) by ring, zpow_add₀ (by norm_num)]
        norm_num; ring
      _ ≤ _ := by gcongr

theorem rint_int (n : ℤ) : rint (n : ℝ) = n := by
  unfold rint; norm_num

theorem bits_int {p : ℕ} {n : ℤ} (h : |n| ≤ 2 ^ (p + 1)) : bits p (n : ℝ) = n := by
  by_cases hn : n = 0
  · subst hn
    have h0 : rint (0 : ℝ) = 0 := by unfold rint; norm_num
    unfold bits; simp [h0]
  · have hpos : 0 < |n| := abs_pos.2 hn
    obtain ⟨m, hm⟩ : ∃ m : ℕ, |n| = (m : ℤ) := ⟨n.natAbs, Int.abs_eq_natAbs n⟩
    have hm0 : m ≠ 0 := by rintro rfl; simp at hm; exact hn hm
    have hr : |(n : ℝ)| = (m : ℝ) := by rw [← Int.cast_abs, hm]; norm_cast
    have hlog : Int.log 2 |(n : ℝ)| = (Nat.log 2 m : ℤ) := by rw [hr, Int.log_natCast]
    unfold bits
    rw [hlog]
    set k := Nat.log 2 m with hk
    have hmul : (2 : ℝ) ^ ((p : ℤ) - (k : ℤ)) * 2 ^ ((k : ℤ) - (p : ℤ)) = 1 := by
      rw [← zpow_add₀ (by norm_num)]; simp
    have fin : ∀ j : ℤ, (n : ℝ) * (2 : ℝ) ^ ((p : ℤ) - (k : ℤ)) = j →
        (rint ((n : ℝ) * (2 : ℝ) ^ ((p : ℤ) - (k : ℤ))) : ℝ) * 2 ^ ((k : ℤ) - (p : ℤ)) = n := by
      intro j hj
      rw [hj, rint_int, ← hj, mul_assoc, hmul, mul_one]
    have hmle : m ≤ 2 ^ (p + 1) := by rw [hm] at h; exact_mod_cast h
    rcases Nat.lt_or_ge p k with hpk | hpk
    · -- only for the power of two itself
      have h1 : 2 ^ k ≤ m := Nat.pow_log_le_self 2 hm0
      have h2 : k ≤ p + 1 := by
        by_contra hc
        push Not at hc
        have : 2 ^ (p + 2) ≤ 2 ^ k := Nat.pow_le_pow_right (by norm_num) hc
        have : 2 ^ (p + 2) = 2 * 2 ^ (p + 1) := by ring
        have : 0 < 2 ^ (p + 1) := by positivity
        omega
      have h3 : k = p + 1 := by omega
      rw [h3] at h1
      have h4 : m = 2 ^ (p + 1) := by omega
      rw [h3] at fin ⊢
      have hs : n = (m : ℤ) ∨ n = -(m : ℤ) := by rw [← hm]; exact (abs_choice n).elim (fun h => .inl h.symm) (fun h => .inr (by rw [h]; ring))
      have e : (2 : ℝ) ^ ((p : ℤ) - ((p + 1 : ℕ) : ℤ)) = 1 / 2 := by
        rw [show (p : ℤ) - ((p + 1 : ℕ) : ℤ) = -1 by push_cast; ring]; norm_num
      rcases hs with hs | hs
      · apply fin (2 ^ p)
        rw [e, hs, h4]; push_cast; ring
      · apply fin (-2 ^ p)
        rw [e, hs, h4]; push_cast; ring
    · apply fin (n * 2 ^ (p - k))
      have : (p : ℤ) - (k : ℤ) = ((p - k : ℕ) : ℤ) := by omega
      rw [this, zpow_natCast]; push_cast; ring

theorem bits_one {p : ℕ} {x : ℝ} (h : |x| ≤ 1) : |bits p x| ≤ 1 := by
  by_cases hx : x = 0
  · subst hx
    have h0 : rint (0 : ℝ) = 0 := by unfold rint; norm_num
    unfold bits; rw [zero_mul, h0]; simp
  have hx' : 0 < |x| := abs_pos.2 hx
  rcases eq_or_lt_of_le h with h1 | h1
  · rcases (abs_eq (by norm_num : (0 : ℝ) ≤ 1)).1 h1 with h2 | h2
    · have := bits_int (p := p) (n := 1) (by simpa using one_le_pow₀ (by norm_num : (1 : ℤ) ≤ 2))
      rw [h2]; push_cast at this; rw [this]; simp
    · have := bits_int (p := p) (n := -1) (by simpa using one_le_pow₀ (by norm_num : (1 : ℤ) ≤ 2))
      rw [h2]; push_cast at this; rw [this]; simp
  · set e := Int.log 2 |x| with he
    have hle : (2 : ℝ) ^ e ≤ |x| := by
      have := Int.zpow_log_le_self (R := ℝ) (b := 2) (by norm_num) hx'
      exact_mod_cast this
    have hlt : |x| < (2 : ℝ) ^ (e + 1) := by
      have := Int.lt_zpow_succ_log_self (R := ℝ) (b := 2) (by norm_num) |x|
      exact_mod_cast this
    have he0 : e + 1 ≤ 0 := by
      by_contra hc
      push Not at hc
      have : (1 : ℝ) ≤ 2 ^ e := one_le_zpow₀ (by norm_num) (by omega)
      linarith
    have h2 : (0 : ℝ) < 2 ^ (e - (p : ℤ)) := by positivity
    have h3 : (0 : ℝ) < 2 ^ ((p : ℤ) - e) := by positivity
    have hb : |x * (2 : ℝ) ^ ((p : ℤ) - e)| ≤ ((2 ^ (p + 1) : ℤ) : ℝ) := by
      rw [abs_mul, abs_of_pos h3]
      have : (2 : ℝ) ^ (e + 1) * 2 ^ ((p : ℤ) - e) = 2 ^ (p + 1) := by
        rw [← zpow_add₀ (by norm_num), show e + 1 + ((p : ℤ) - e) = ((p + 1 : ℕ) : ℤ) by push_cast; ring, zpow_natCast]
      push_cast
      rw [← this]; gcongr
    have hr := rint_mem hb
    unfold bits
    rw [← he, abs_mul, abs_of_pos h2]
    calc |(rint (x * (2 : ℝ) ^ ((p : ℤ) - e)) : ℝ)| * 2 ^ (e - (p : ℤ))
        ≤ ((2 ^ (p + 1) : ℤ) : ℝ) * 2 ^ (e - (p : ℤ)) := by gcongr
      _ = 2 ^ (e + 1) := by
        push_cast
        rw [← zpow_natCast, ← zpow_add₀ (by norm_num)]; congr 1; push_cast; ring
      _ ≤ 1 := zpow_le_one_of_nonpos₀ (by norm_num) he0

/-- rounding to double precision -/
theorem Rounding.bits : Rounding (bits 52) where
  near x := (bits_near 52 x).trans (by gcongr; norm_num)
  int n h := bits_int (by norm_num at *; exact h)
  one x h := bits_one h

/-- the tangent, a large number at the poles -/
noncomputable def ctan (ρ : ℝ → ℝ) (x : ℝ) : ℝ :=
  if Real.cos x = 0 ∨ 1e19 < |Real.tan x| then (if Real.tan x < 0 then -1e19 else 1e19) else ρ (Real.tan x)

namespace Rounding
variable {ρ σ : ℝ → ℝ} (h : Rounding ρ)
include h

theorem abs_le (x : ℝ) : |ρ x| ≤ (1 + 3e-16) * |x| := by
  have := h.near x
  have := abs_sub_abs_le_abs_sub (ρ x) x
  linarith

theorem nonneg {x : ℝ} (hx : 0 ≤ x) : 0 ≤ ρ x := by
  have := (_root_.abs_le.1 (h.near x)).1
  rw [abs_of_nonneg hx] at this
  norm_num at this; linarith

theorem rel {x κ : ℝ} (hκ : 3e-16 ≤ κ) : |ρ x - x| ≤ κ * |x| + 1e-30 := by
  have h1 := h.near x
  have : 3e-16 * |x| ≤ κ * |x| := by gcongr
  have : (0 : ℝ) ≤ 1e-30 := by norm_num
  linarith

theorem absl {x K κ : ℝ} (hx : |x| ≤ K) (hκ : 3e-16 * K ≤ κ) : |ρ x - x| ≤ κ := by
  have h1 := h.near x
  have : 3e-16 * |x| ≤ 3e-16 * K := by gcongr
  linarith

end Rounding

/-- The arithmetic in which every operation returns the exact result, rounded by `ρ`; `σ` is the rounding to
single precision. -/
noncomputable def Arith.rounded (ρ σ : ℝ → ℝ) (h : Rounding ρ) (hσ : ∀ x, |σ x - x| ≤ 2e-7 * |x|) : Arith where
  add x y := .fin (ρ (x + y))
  sub x y := .fin (ρ (x - y))
  mul x y := .fin (ρ (x * y))
  div x y := if y = 0 then .nan else .fin (ρ (x / y))
  lit m s e := .fin (ρ (OfScientific.ofScientific m s e))
  pi := ρ π
  sin x := .fin (ρ (Real.sin x))
  cos x := .fin (ρ (Real.cos x))
  tan x := .fin (ctan ρ x)
  arcsin x := if |x| ≤ 1 then .fin (ρ (Real.arcsin x)) else .nan
  arccos x := if |x| ≤ 1 then .fin (ρ (Real.arccos x)) else .nan
  arctan x := .fin (ρ (Real.arctan x))
  sqrt x := if 0 ≤ x then .fin (ρ √x) else .nan
  exp x := .fin (ρ (Real.exp x))
  log x := if 0 < x then .fin (ρ (Real.log x)) else .nan
  arctan2 y x := .fin (ρ (ratan2 y x))
  pmod x y := if y = 0 then .nan else .fin (ρ (rpmod x y))
  cmod x y := if y = 0 then .nan else .fin (ρ (rcmod x y))
  npow x n := .fin (ρ (x ^ n))
  rpow x y := if 0 < x then .fin (ρ (x ^ y)) else .nan
  round6 x := .fin (ρ (rround6 x))
  f32 x := .fin (σ x)
  ofInt n := .fin (ρ n)
  add_spec x y _ := ⟨_, rfl, h.rel (by norm_num)⟩
  sub_spec x y _ := ⟨_, rfl, h.rel (by norm_num)⟩
  mul_spec x y _ := ⟨_, rfl, h.rel (by norm_num)⟩
  div_spec x y hy _ := ⟨_, if_neg hy, h.rel (by norm_num)⟩
  lit_spec m s e _ := ⟨_, rfl, h.rel (by norm_num)⟩
  pi_spec := h.absl (K := 3.2) (by rw [abs_of_pos pi_pos]; have := pi_lt_d2; norm_num at *; linarith) (by norm_num)
  sin_spec x _ := ⟨_, rfl, h.absl (abs_sin_le_one x) (by norm_num)⟩
  cos_spec x _ := ⟨_, rfl, h.absl (abs_cos_le_one x) (by norm_num)⟩
  tan_spec x _ := by
    refine ⟨_, rfl, ?_⟩
    have hc1 := abs_cos_le_one x
    have hs1 := abs_sin_le_one x
    unfold ctan
    split_ifs with hp hn
    · -- at a pole
      refine ⟨by norm_num, ?_⟩
      have : |(-1e19 : ℝ) * Real.cos x| ≤ 1 := by
        rcases hp with hp | hp
        · rw [hp]; norm_num
        · have ht : |Real.tan x| * |Real.cos x| ≤ 1 := by
            by_cases hc : Real.cos x = 0
            · rw [hc]; norm_num
            · rw [← abs_mul, tan_mul_cos hc]; exact hs1
          rw [abs_mul]
          have : |(-1e19 : ℝ)| = 1e19 := by norm_num
          rw [this]
          have h2 : 1e19 * |Real.cos x| ≤ |Real.tan x| * |Real.cos x| := by gcongr
          linarith
      have := abs_sub (-1e19 * Real.cos x) (Real.sin x)
      have h3 : (1e-14 : ℝ) * (1 + |(-1e19 : ℝ)|) ≥ 2 := by norm_num
      linarith
    · refine ⟨by norm_num, ?_⟩
      have : |(1e19 : ℝ) * Real.cos x| ≤ 1 := by
        rcases hp with hp | hp
        · rw [hp]; norm_num
        · have ht : |Real.tan x| * |Real.cos x| ≤ 1 := by
            by_cases hc : Real.cos x = 0
            · rw [hc]; norm_num
            · rw [← abs_mul, tan_mul_cos hc]; exact hs1
          rw [abs_mul]
          have : |(1e19 : ℝ)| = 1e19 := by norm_num
          rw [this]
          have h2 : 1e19 * |Real.cos x| ≤ |Real.tan x| * |Real.cos x| := by gcongr
          linarith
      have := abs_sub (1e19 * Real.cos x) (Real.sin x)
      have h3 : (1e-14 : ℝ) * (1 + |(1e19 : ℝ)|) ≥ 2 := by norm_num
      linarith
    · push Not at hp
      obtain ⟨hc, ht⟩ := hp
      have ha := h.abs_le (Real.tan x)
      have hn := h.near (Real.tan x)
      refine ⟨by norm_num at *; linarith, ?_⟩
      have e : ρ (Real.tan x) * Real.cos x - Real.sin x = (ρ (Real.tan x) - Real.tan x) * Real.cos x := by
        rw [sub_mul, tan_mul_cos hc]
      rw [e, abs_mul]
      have h1 : |ρ (Real.tan x) - Real.tan x| * |Real.cos x| ≤ |ρ (Real.tan x) - Real.tan x| * 1 := by gcongr
      have h2 := abs_sub_abs_le_abs_sub (Real.tan x) (ρ (Real.tan x))
      rw [abs_sub_comm] at h2
      have h0 := abs_nonneg (ρ (Real.tan x))
      norm_num at *; linarith
  arcsin_spec x hx := ⟨_, if_pos hx, h.absl (K := 3.2) (by
    have := pi_lt_d2
    rw [_root_.abs_le]; constructor
    · have := neg_pi_div_two_le_arcsin x; norm_num at *; linarith
    · have := arcsin_le_pi_div_two x; norm_num at *; linarith) (by norm_num)⟩
  arccos_spec x hx := ⟨_, if_pos hx, h.absl (K := 3.2) (by
    have := pi_lt_d2
    rw [abs_of_nonneg (arccos_nonneg x)]
    have := arccos_le_pi x; norm_num at *; linarith) (by norm_num)⟩
  arcsin_nan x hx := if_neg (not_le.2 hx)
  arccos_nan x hx := if_neg (not_le.2 hx)
  arctan_spec x _ := ⟨_, rfl, h.absl (K := 3.2) (by
    have := pi_lt_d2
    rw [_root_.abs_le]; constructor
    · have := neg_pi_div_two_lt_arctan x; norm_num at *; linarith
    · have := arctan_lt_pi_div_two x; norm_num at *; linarith) (by norm_num)⟩
  sqrt_spec x h0 _ := ⟨_, if_pos h0, by
    have := h.rel (x := √x) (κ := 1e-15) (by norm_num)
    rwa [abs_of_nonneg (sqrt_nonneg x)] at this⟩
  exp_spec x _ := ⟨_, rfl, by
    have := h.near (Real.exp x)
    rw [abs_of_pos (exp_pos x)] at this
    refine this.trans ?_
    gcongr; norm_num⟩
  log_spec x h0 _ := ⟨_, if_pos (lt_of_lt_of_le (by norm_num) h0), h.rel (by norm_num)⟩
  arctan2_spec y x _ _ := by
    have hm := ratan2_mem y x
    have hb : |ratan2 y x| ≤ π := _root_.abs_le.2 ⟨hm.1.le, hm.2⟩
    have hp := pi_lt_d2
    refine ⟨_, rfl, ?_, fun _ => ⟨0, ?_⟩⟩
    · have := h.abs_le (ratan2 y x); norm_num at *; linarith
    · have := h.absl (K := π) (κ := 1e-14) hb (by norm_num at *; linarith)
      simpa using this
  pmod_spec x y _ hy _ := by
    have hm := rpmod_mem (x := x) hy
    refine ⟨_, if_neg hy.ne', h.nonneg hm.1, ?_, ?_⟩
    · have := h.abs_le (rpmod x y)
      rw [abs_of_nonneg hm.1, abs_of_nonneg (h.nonneg hm.1)] at this
      norm_num at *; linarith
    · obtain ⟨k, hk⟩ := rpmod_eq x y
      refine ⟨k, ?_⟩
      rw [← hk]
      exact h.absl (K := y) (by rw [abs_of_nonneg hm.1]; exact hm.2.le) (by norm_num; linarith)
  cmod_spec x y _ hy _ := by
    have hm := rcmod_mem (x := x) hy
    have hb : |rcmod x y| ≤ y := _root_.abs_le.2 ⟨hm.1.le, hm.2.le⟩
    refine ⟨_, if_neg hy.ne', ?_, ?_⟩
    · have := h.abs_le (rcmod x y)
      norm_num at *; linarith
    · obtain ⟨k, hk⟩ := rcmod_eq x y
      refine ⟨k, ?_⟩
      rw [← hk]
      exact h.absl (K := y) hb (by norm_num; linarith)
  npow_spec x n _ _ := ⟨_, rfl, h.rel (by norm_num)⟩
  rpow_spec x y hx _ := ⟨_, if_pos hx, by
    have := h.rel (x := x ^ y) (κ := 1e-13) (by norm_num)
    rwa [abs_of_pos (rpow_pos_of_pos hx y)] at this⟩
  round6_spec x hx := by
    have hn := rround6_near x
    have hb : |rround6 x| ≤ 1e6 + 1 := by
      have := abs_sub_abs_le_abs_sub (rround6 x) x
      norm_num at *; linarith
    refine ⟨_, rfl, ?_, fun h1 => h.one _ ?_⟩
    · have h2 := h.absl (κ := 1e-9) hb (by norm_num)
      have := abs_sub_le (ρ (rround6 x)) (rround6 x) x
      norm_num at *; linarith
    · -- the nearest multiple of 1e-6 is at most one
      have h3 : |x * 1000000| ≤ 1000000.4 := by rw [abs_mul]; norm_num at *; linarith
      have h4 := _root_.abs_le.1 (rint_bounds (x * 1000000))
      have h5 := _root_.abs_le.1 h3
      have h6 : rint (x * 1000000) < 1000001 := by
        have : (rint (x * 1000000) : ℝ) < (1000001 : ℤ) := by push_cast; norm_num at *; linarith
        exact_mod_cast this
      have h7 : -1000001 < rint (x * 1000000) := by
        have : ((-1000001 : ℤ) : ℝ) < (rint (x * 1000000) : ℝ) := by push_cast; norm_num at *; linarith
        exact_mod_cast this
      have h8 : |rint (x * 1000000)| ≤ 1000000 := by rw [_root_.abs_le]; omega
      unfold rround6
      rw [abs_div, ← Int.cast_abs]
      have : ((|rint (x * 1000000)| : ℤ) : ℝ) ≤ 1000000 := by exact_mod_cast h8
      rw [div_le_one (by norm_num)]
      rw [abs_of_pos (by norm_num : (0 : ℝ) < 1000000)]; exact this
  f32_spec x _ := ⟨_, rfl, (hσ x).trans (by norm_num)⟩
  ofInt_spec n _ := ⟨_, rfl, (h.near n).trans (by gcongr; norm_num)⟩
  ofInt_exact n hn := by rw [h.int n hn]

/-- every result rounded to 53 significant bits, half to even; single precision is 24 bits -/
noncomputable def Arith.binary64 : Arith :=
  Arith.rounded (bits 52) (bits 23) Rounding.bits
    (fun x => (bits_near 23 x).trans (by gcongr; norm_num))

/-- no rounding at all -/
noncomputable def Arith.exact : Arith :=
  Arith.rounded (fun x => x) (fun x => x) Rounding.id (fun x => by rw [sub_self, abs_zero]; positivity)

end SW
