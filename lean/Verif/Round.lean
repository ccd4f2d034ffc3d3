/-
Floating-point arithmetic with rounding errors.

`Arith` is any arithmetic whose operations return the exact result to a relative error of 1e-15 and
whose library functions return it to 1e-14, over the range of magnitudes that occur. IEEE binary64
with any rounding mode and any reasonable mathematical library is one of them. `Rd R` is the type of the
numbers of the arithmetic `R`: the programs of the model run on it unchanged, because they are written
for any type with a `Scalar` structure. This file models no file of /repo: it interprets the arithmetic
operations used there.
-/
import Verif.RealXR
import Verif.Geo
import Mathlib.Data.Int.Log
import Mathlib.Algebra.Order.Round

namespace SW
open Real

/-- A floating-point arithmetic. Every operation takes numbers to a number or to NaN (`XR.nan`, which
also stands for the infinities). -/
structure Arith where
  add : ℝ → ℝ → XR
  sub : ℝ → ℝ → XR
  mul : ℝ → ℝ → XR
  div : ℝ → ℝ → XR
  lit : Nat → Bool → Nat → XR
  pi : ℝ
  sin : ℝ → XR
  cos : ℝ → XR
  tan : ℝ → XR
  arcsin : ℝ → XR
  arccos : ℝ → XR
  arctan : ℝ → XR
  sqrt : ℝ → XR
  exp : ℝ → XR
  log : ℝ → XR
  arctan2 : ℝ → ℝ → XR
  pmod : ℝ → ℝ → XR
  cmod : ℝ → ℝ → XR
  npow : ℝ → Nat → XR
  rpow : ℝ → ℝ → XR
  round6 : ℝ → XR
  f32 : ℝ → XR
  ofInt : Int → XR
  add_spec : ∀ x y, |x + y| ≤ 1e30 → ∃ r, add x y = XR.fin r ∧ |r - (x + y)| ≤ 1e-15 * |x + y| + 1e-30
  sub_spec : ∀ x y, |x - y| ≤ 1e30 → ∃ r, sub x y = XR.fin r ∧ |r - (x - y)| ≤ 1e-15 * |x - y| + 1e-30
  mul_spec : ∀ x y, |x * y| ≤ 1e30 → ∃ r, mul x y = XR.fin r ∧ |r - x * y| ≤ 1e-15 * |x * y| + 1e-30
  div_spec : ∀ x y, y ≠ 0 → |x / y| ≤ 1e30 →
    ∃ r, div x y = XR.fin r ∧ |r - x / y| ≤ 1e-15 * |x / y| + 1e-30
  lit_spec : ∀ m s e, |(OfScientific.ofScientific m s e : ℝ)| ≤ 1e30 → ∃ r, lit m s e = XR.fin r ∧
    |r - OfScientific.ofScientific m s e| ≤ 1e-15 * |(OfScientific.ofScientific m s e : ℝ)| + 1e-30
  pi_spec : |pi - π| ≤ 1e-15
  sin_spec : ∀ x, |x| ≤ 1e9 → ∃ r, sin x = XR.fin r ∧ |r - Real.sin x| ≤ 1e-14
  cos_spec : ∀ x, |x| ≤ 1e9 → ∃ r, cos x = XR.fin r ∧ |r - Real.cos x| ≤ 1e-14
  /-- the direction `(1, r)` is that of `(cos x, sin x)` to 1e-14 (a large number at the poles) -/
  tan_spec : ∀ x, |x| ≤ 1e9 → ∃ r, tan x = XR.fin r ∧ |r| ≤ 1e20 ∧
    |r * Real.cos x - Real.sin x| ≤ 1e-14 * (1 + |r|)
  arcsin_spec : ∀ x, |x| ≤ 1 → ∃ r, arcsin x = XR.fin r ∧ |r - Real.arcsin x| ≤ 1e-14
  arccos_spec : ∀ x, |x| ≤ 1 → ∃ r, arccos x = XR.fin r ∧ |r - Real.arccos x| ≤ 1e-14
  arcsin_nan : ∀ x, 1 < |x| → arcsin x = XR.nan
  arccos_nan : ∀ x, 1 < |x| → arccos x = XR.nan
  arctan_spec : ∀ x, |x| ≤ 1e30 → ∃ r, arctan x = XR.fin r ∧ |r - Real.arctan x| ≤ 1e-14
  sqrt_spec : ∀ x, 0 ≤ x → x ≤ 1e30 → ∃ r, sqrt x = XR.fin r ∧ |r - √x| ≤ 1e-15 * √x + 1e-30
  exp_spec : ∀ x, |x| ≤ 50 → ∃ r, exp x = XR.fin r ∧ |r - Real.exp x| ≤ 1e-14 * Real.exp x
  log_spec : ∀ x, 1e-30 ≤ x → x ≤ 1e30 → ∃ r, log x = XR.fin r ∧ |r - Real.log x| ≤ 1e-14 * |Real.log x| + 1e-30
  /-- an angle: the two ends of the cut are the same angle, and which one is returned at a zero ordinate
  is decided by the sign of the zero -/
  arctan2_spec : ∀ y x, |y| ≤ 1e30 → |x| ≤ 1e30 → ∃ r, arctan2 y x = XR.fin r ∧ |r| ≤ π + 1e-14 ∧
    (y ≠ 0 ∨ x ≠ 0 → ∃ k : ℤ, |r - ratan2 y x - k * (2 * π)| ≤ 1e-14)
  /-- numpy's `%`: some `x - k*y` within the period -/
  pmod_spec : ∀ x y, |x| ≤ 1e30 → 0 < y → y ≤ 1e30 → ∃ r, pmod x y = XR.fin r ∧ 0 ≤ r ∧ r ≤ y + 1e-15 * y ∧
    ∃ k : ℤ, |r - (x - k * y)| ≤ 1e-15 * y
  /-- numexpr's `%` -/
  cmod_spec : ∀ x y, |x| ≤ 1e30 → 0 < y → y ≤ 1e30 → ∃ r, cmod x y = XR.fin r ∧ |r| ≤ y + 1e-15 * y ∧
    ∃ k : ℤ, |r - (x - k * y)| ≤ 1e-15 * y
  npow_spec : ∀ x n, n ≤ 12 → |x ^ n| ≤ 1e30 →
    ∃ r, npow x n = XR.fin r ∧ |r - x ^ n| ≤ 1e-14 * |x ^ n| + 1e-30
  rpow_spec : ∀ x y, 0 < x → x ^ y ≤ 1e30 → ∃ r, rpow x y = XR.fin r ∧ |r - x ^ y| ≤ 1e-13 * x ^ y + 1e-30
  /-- rounding to six decimals goes to a neighbouring multiple of 1e-6, and to ±1 at most from whatever
  is nearer to ±1 than to the next multiple -/
  round6_spec : ∀ x, |x| ≤ 1e6 → ∃ r, round6 x = XR.fin r ∧ |r - x| ≤ 6e-7 ∧
    (|x| ≤ 1 + 4e-7 → |r| ≤ 1)
  f32_spec : ∀ x, |x| ≤ 1e30 → ∃ r, f32 x = XR.fin r ∧ |r - x| ≤ 2e-7 * |x| + 1e-30
  ofInt_spec : ∀ n : ℤ, |n| < 10 ^ 20 → ∃ r, ofInt n = XR.fin r ∧ |r - n| ≤ 1e-15 * |(n : ℝ)|
  ofInt_exact : ∀ n : ℤ, |n| ≤ 2 ^ 53 → ofInt n = XR.fin n

/-- the numbers of the arithmetic `R` -/
def Rd (_ : Arith) : Type := XR

namespace Rd
/-- the number `x` -/
def fin {R : Arith} (x : ℝ) : Rd R := XR.fin x
theorem fin_inj {R : Arith} {x y : ℝ} : (fin x : Rd R) = fin y ↔ x = y := XR.fin_inj
/-- a unary operation -/
def m1 (f : ℝ → XR) : XR → XR
  | .nan => .nan
  | .fin a => f a
/-- a binary operation -/
def m2 (f : ℝ → ℝ → XR) : XR → XR → XR
  | .fin a, .fin b => f a b
  | .fin _, .nan => .nan
  | .nan, _ => .nan
end Rd

open Classical in
noncomputable instance instScalarRd (R : Arith) : Scalar (Rd R) where
  add := Rd.m2 R.add
  sub := Rd.m2 R.sub
  mul := Rd.m2 R.mul
  neg := XR.m1 (fun x => -x)
  div := Rd.m2 R.div
  lit := R.lit
  nat n := XR.fin (Num.nat n)
  pi := XR.fin R.pi
  nan := XR.nan
  sin := Rd.m1 R.sin
  cos := Rd.m1 R.cos
  tan := Rd.m1 R.tan
  arcsin := Rd.m1 R.arcsin
  arccos := Rd.m1 R.arccos
  arctan := Rd.m1 R.arctan
  sqrt := Rd.m1 R.sqrt
  absv := XR.m1 (fun x => |x|)
  exp := Rd.m1 R.exp
  log := Rd.m1 R.log
  arctan2 := Rd.m2 R.arctan2
  pmod := Rd.m2 R.pmod
  cmod := Rd.m2 R.cmod
  max2 := XR.m2 max
  npow x n := Rd.m1 (fun y => R.npow y n) x
  rpow := Rd.m2 R.rpow
  trunc := XR.m1 (fun x => rtrunc x)
  round6 := Rd.m1 R.round6
  f32 := Rd.m1 R.f32
  whereLt x y a b := if XR.cmp (· < ·) x y then a else b
  whereLe x y a b := if XR.cmp (· ≤ ·) x y then a else b
  leB := XR.cmp (· ≤ ·)
  ltB := XR.cmp (· < ·)
  isNan x := match x with | XR.nan => true | XR.fin _ => false
  ofInt := R.ofInt
  toInt x := match x with | XR.nan => none | XR.fin r => some (rtrunc r)

/-- `a` is a number within `ε` of `x`, and `x` is at most `M` in magnitude -/
def Ap {R : Arith} (a : Rd R) (x M ε : ℝ) : Prop := |x| ≤ M ∧ ∃ r, a = Rd.fin r ∧ |r - x| ≤ ε

namespace Ap
variable {R : Arith} {a b : Rd R} {x y M N ε δ : ℝ}

theorem mono  {M' ε' : ℝ} (h : Ap a x M ε) (hM : M ≤ M') (hε : ε ≤ ε') : Ap a x M' ε' := by
  obtain ⟨h1, r, h2, h3⟩ := h
  exact ⟨h1.trans hM, r, h2, h3.trans hε⟩

theorem congr  {x' : ℝ} (h : Ap a x M ε) (e : x = x') : Ap a x' M ε := e ▸ h

theorem bnd  {M' : ℝ} (h : Ap a x M ε) (hM : |x| ≤ M') : Ap a x M' ε := ⟨hM, h.2⟩

theorem M_nonneg  (h : Ap a x M ε) : 0 ≤ M := (abs_nonneg _).trans h.1
theorem e_nonneg  (h : Ap a x M ε) : 0 ≤ ε := by
  obtain ⟨-, r, -, h⟩ := h; exact (abs_nonneg _).trans h

theorem fin_bound {r : ℝ} (h1 : |x| ≤ M) (h2 : |r - x| ≤ ε) : |r| ≤ M + ε := by
  have : |r| ≤ |x| + |r - x| := by
    have := abs_add_le x (r - x); rwa [add_sub_cancel] at this
  linarith

/-- one rounding on top of an error -/
theorem step {p q r K : ℝ} (h1 : |p| ≤ K) (h2 : |r - p| ≤ 1e-15 * |p| + 1e-30) (h3 : |p - q| ≤ ε) :
    |r - q| ≤ ε + (1e-15 * K + 1e-30) := by
  have : |r - q| ≤ |r - p| + |p - q| := abs_sub_le _ _ _
  have : 1e-15 * |p| ≤ 1e-15 * K := by gcongr
  linarith

theorem add (h1 : Ap a x M ε) (h2 : Ap b y N δ) (hb : M + N + (ε + δ) ≤ 1e30) :
    Ap (a + b : Rd R) (x + y) (M + N) ((ε + δ) * (1 + 1e-15) + (1e-15 * (M + N) + 1e-30)) := by
  obtain ⟨m1, r, rfl, e1⟩ := h1
  obtain ⟨m2, s, rfl, e2⟩ := h2
  have hd : |(r + s) - (x + y)| ≤ ε + δ := by
    rw [show (r + s) - (x + y) = (r - x) + (s - y) by ring]
    exact (abs_add_le _ _).trans (by linarith)
  have hm : |x + y| ≤ M + N := (abs_add_le _ _).trans (by linarith)
  have hK := fin_bound hm hd
  obtain ⟨q, hq, hq'⟩ := R.add_spec r s (hK.trans hb)
  exact ⟨hm, q, hq, (step hK hq' hd).trans (le_of_eq (by ring))⟩

theorem sub (h1 : Ap a x M ε) (h2 : Ap b y N δ) (hb : M + N + (ε + δ) ≤ 1e30) :
    Ap (a - b : Rd R) (x - y) (M + N) ((ε + δ) * (1 + 1e-15) + (1e-15 * (M + N) + 1e-30)) := by
  obtain ⟨m1, r, rfl, e1⟩ := h1
  obtain ⟨m2, s, rfl, e2⟩ := h2
  have hd : |(r - s) - (x - y)| ≤ ε + δ := by
    rw [show (r - s) - (x - y) = (r - x) - (s - y) by ring]
    exact (abs_sub _ _).trans (by linarith)
  have hm : |x - y| ≤ M + N := (abs_sub _ _).trans (by linarith)
  have hK := fin_bound hm hd
  obtain ⟨q, hq, hq'⟩ := R.sub_spec r s (hK.trans hb)
  exact ⟨hm, q, hq, (step hK hq' hd).trans (le_of_eq (by ring))⟩

theorem mul (h1 : Ap a x M ε) (h2 : Ap b y N δ) (hb : M * N + (M * δ + (N + δ) * ε) ≤ 1e30) :
    Ap (a * b : Rd R) (x * y) (M * N)
      (M * δ + (N + δ) * ε + (1e-15 * (M * N + (M * δ + (N + δ) * ε)) + 1e-30)) := by
  have M0 := h1.M_nonneg
  have E0 := h1.e_nonneg
  obtain ⟨m1, r, rfl, e1⟩ := h1
  obtain ⟨m2, s, rfl, e2⟩ := h2
  have hs := fin_bound m2 e2
  have hs0 := (abs_nonneg _).trans hs
  have hd : |(r * s) - (x * y)| ≤ M * δ + (N + δ) * ε := by
    rw [show (r * s) - (x * y) = x * (s - y) + s * (r - x) by ring]
    refine (abs_add_le _ _).trans ?_
    rw [abs_mul, abs_mul]
    gcongr
  have hm : |x * y| ≤ M * N := by rw [abs_mul]; gcongr
  have hK := fin_bound hm hd
  obtain ⟨q, hq, hq'⟩ := R.mul_spec r s (hK.trans hb)
  exact ⟨hm, q, hq, (step hK hq' hd).trans (le_of_eq (by ring))⟩

/-- quotient with a divisor at least `m` in magnitude -/
theorem div (m K : ℝ) (h1 : Ap a x M ε) (h2 : Ap b y N δ) (hm : m ≤ |y|) (hδ : δ < m)
    (hK : |x / y| ≤ K) (hb : K + (ε + K * δ) / (m - δ) ≤ 1e30) :
    Ap (a / b : Rd R) (x / y) K
      ((ε + K * δ) / (m - δ) + (1e-15 * (K + (ε + K * δ) / (m - δ)) + 1e-30)) := by
  have D0 := h2.e_nonneg
  obtain ⟨m1, r, rfl, e1⟩ := h1
  obtain ⟨m2, s, rfl, e2⟩ := h2
  have hmd : 0 < m - δ := by linarith
  have hy : y ≠ 0 := by intro h; rw [h, abs_zero] at hm; linarith
  have hs : m - δ ≤ |s| := by
    have := abs_sub_abs_le_abs_sub y s
    rw [abs_sub_comm] at this; linarith
  have hs0 : s ≠ 0 := by intro h; rw [h, abs_zero] at hs; linarith
  have hd : |r / s - x / y| ≤ (ε + K * δ) / (m - δ) := by
    rw [show r / s - x / y = ((r - x) - x / y * (s - y)) / s by field_simp; ring, abs_div]
    have : |(r - x) - x / y * (s - y)| ≤ ε + K * δ := by
      refine (abs_sub _ _).trans ?_
      rw [abs_mul]
      have := mul_le_mul hK e2 (abs_nonneg _) ((abs_nonneg _).trans hK)
      linarith
    exact div_le_div₀ ((abs_nonneg _).trans this) this hmd hs
  have hk := fin_bound hK hd
  obtain ⟨q, hq, hq'⟩ := R.div_spec r s hs0 (hk.trans hb)
  exact ⟨hK, q, hq, step hk hq' hd⟩

theorem neg (h : Ap a x M ε) : Ap (-a : Rd R) (-x) M ε := by
  obtain ⟨m, r, rfl, e⟩ := h
  refine ⟨by rwa [abs_neg], -r, rfl, ?_⟩
  rw [← abs_neg]; convert e using 2; ring

theorem absv (h : Ap a x M ε) : Ap (Num.absv a : Rd R) |x| M ε := by
  obtain ⟨m, r, rfl, e⟩ := h
  exact ⟨by rwa [abs_abs], |r|, rfl, (abs_abs_sub_abs_le r x).trans e⟩

theorem lit {m : Nat} {s : Bool} {e : Nat} {K : ℝ} (hK : |(OfScientific.ofScientific m s e : ℝ)| ≤ K)
    (hb : K ≤ 1e30) : Ap (OfScientific.ofScientific m s e : Rd R) (OfScientific.ofScientific m s e) K
      (1e-15 * K + 1e-30) := by
  obtain ⟨r, h1, h2⟩ := R.lit_spec m s e (hK.trans hb)
  refine ⟨hK, r, h1, h2.trans ?_⟩
  gcongr

theorem zero : Ap (0 : Rd R) 0 0 0 := ⟨by simp, 0, rfl, by simp⟩
theorem one : Ap (1 : Rd R) 1 1 0 := ⟨by simp, 1, rfl, by simp⟩
theorem nat {n : Nat} [h : n.AtLeastTwo] :
    Ap (no_index (OfNat.ofNat n) : Rd R) (OfNat.ofNat n) (OfNat.ofNat n) 0 := by
  obtain ⟨k, rfl⟩ := Nat.exists_eq_add_of_le' h.prop
  refine ⟨?_, ((k + 2 : ℕ) : ℝ), rfl, ?_⟩
  · show |((k + 2 : ℕ) : ℝ)| ≤ ((k + 2 : ℕ) : ℝ)
    rw [abs_of_nonneg]; positivity
  · show |((k + 2 : ℕ) : ℝ) - ((k + 2 : ℕ) : ℝ)| ≤ 0
    simp

theorem pi : Ap (Num.pi : Rd R) π 3.15 1e-15 := by
  refine ⟨?_, R.pi, rfl, R.pi_spec⟩
  rw [abs_of_pos pi_pos]
  have := pi_lt_d2; norm_num at *; linarith

theorem sin (h : Ap a x M ε) (hb : M + ε ≤ 1e9) : Ap (Num.sin a : Rd R) (Real.sin x) 1 (ε + 1e-14) := by
  obtain ⟨m, r, rfl, e⟩ := h
  obtain ⟨q, hq, hq'⟩ := R.sin_spec r ((fin_bound m e).trans hb)
  refine ⟨abs_sin_le_one _, q, hq, ?_⟩
  have h1 : |Real.sin r - Real.sin x| ≤ ε := (Real.abs_sin_sub_sin_le r x).trans e
  have := abs_sub_le q (Real.sin r) (Real.sin x)
  linarith

theorem cos (h : Ap a x M ε) (hb : M + ε ≤ 1e9) : Ap (Num.cos a : Rd R) (Real.cos x) 1 (ε + 1e-14) := by
  obtain ⟨m, r, rfl, e⟩ := h
  obtain ⟨q, hq, hq'⟩ := R.cos_spec r ((fin_bound m e).trans hb)
  refine ⟨abs_cos_le_one _, q, hq, ?_⟩
  have h1 : |Real.cos r - Real.cos x| ≤ ε := (Real.abs_cos_sub_cos_le r x).trans e
  have := abs_sub_le q (Real.cos r) (Real.cos x)
  linarith

theorem sq (h : Ap a x M ε) (hb : M * M + (M * ε + (M + ε) * ε) ≤ 1e30) :
    Ap (Num.npow a 2 : Rd R) (x ^ 2) (M * M)
      (M * ε + (M + ε) * ε + (1e-14 * (M * M + (M * ε + (M + ε) * ε)) + 1e-30)) := by
  have M0 := h.M_nonneg
  have E0 := h.e_nonneg
  obtain ⟨m1, r, rfl, e1⟩ := h
  have hs := fin_bound m1 e1
  have hd : |r ^ 2 - x ^ 2| ≤ M * ε + (M + ε) * ε := by
    rw [show r ^ 2 - x ^ 2 = x * (r - x) + r * (r - x) by ring]
    refine (abs_add_le _ _).trans ?_
    rw [abs_mul, abs_mul]
    gcongr
  have hm : |x ^ 2| ≤ M * M := by rw [abs_pow, pow_two]; gcongr
  have hK := fin_bound hm hd
  obtain ⟨q, hq, hq'⟩ := R.npow_spec r 2 (by norm_num) (hK.trans hb)
  refine ⟨hm, q, hq, ?_⟩
  have h1 := abs_sub_le q (r ^ 2) (x ^ 2)
  have h2 : 1e-14 * |r ^ 2| ≤ 1e-14 * (M * M + (M * ε + (M + ε) * ε)) := by gcongr
  linarith

theorem ofInt {n : ℤ} {K : ℝ} (hn : |n| ≤ 2 ^ 53) (hK : |(n : ℝ)| ≤ K) :
    Ap (Scalar.ofInt n : Rd R) n K 0 :=
  ⟨hK, n, R.ofInt_exact n hn, by simp⟩

theorem f32 (h : Ap a x M ε) (hb : M + ε ≤ 1e30) :
    Ap (Num.f32 a : Rd R) x M (ε + (2e-7 * (M + ε) + 1e-30)) := by
  obtain ⟨m, r, rfl, e⟩ := h
  have hk := fin_bound m e
  obtain ⟨q, hq, hq'⟩ := R.f32_spec r (hk.trans hb)
  refine ⟨m, q, hq, ?_⟩
  have := abs_sub_le q r x
  have : 2e-7 * |r| ≤ 2e-7 * (M + ε) := by gcongr
  linarith

theorem ofFin (x : ℝ) {K : ℝ} (hK : |x| ≤ K) : Ap (Rd.fin x : Rd R) x K 0 := ⟨hK, x, rfl, by simp⟩

theorem fit  {x' M' ε' : ℝ} (h : Ap a x' M' ε') (e : x' = x) (hM : M' ≤ M) (hε : ε' ≤ ε) :
    Ap a x M ε := (h.congr e).mono hM hε

/-- one step of the error analysis -/
macro "ap1" : tactic => `(tactic| first
  | with_reducible assumption
  | with_reducible exact Ap.one
  | with_reducible exact Ap.zero
  | with_reducible exact Ap.nat
  | with_reducible exact Ap.pi
  | with_reducible apply Ap.sin
  | with_reducible apply Ap.cos
  | with_reducible apply Ap.sq
  | with_reducible apply Ap.neg
  | with_reducible apply Ap.absv
  | with_reducible apply Ap.add
  | with_reducible apply Ap.sub
  | with_reducible apply Ap.mul
  | with_reducible apply Ap.lit le_rfl)
/-- error analysis of a formula without divisions -/
macro "ap" : tactic => `(tactic| ((repeat' ap1)))
macro "apf" : tactic => `(tactic| (apply Ap.fit; (focus (ap <;> norm_num)); (focus rfl); (focus norm_num); (focus norm_num)))
end Ap

end SW
