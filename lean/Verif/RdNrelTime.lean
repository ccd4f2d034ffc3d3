/-
The quantities of nrel that depend on time only, in rounded arithmetic.
-/
import Verif.RdNrel

namespace SW.Nrel
open Real
variable {A : Arith}

/-! ### time -/

theorem jd_ap {t : ℤ} (h : InSec t) : Ap (jd (Scalar.ofInt t : Rd A)) (jd (t : ℝ)) 2547341 5.2e-9 := by
  have h1 := Psa.days_ap (A := A) h
  unfold jd; apf
theorem jde_ap {t : ℤ} (h : InSec t) : Ap (jde (jd (Scalar.ofInt t : Rd A))) (jde (jd (t : ℝ))) 2547342 7.8e-9 := by
  have h1 := jd_ap (A := A) h
  have h2 : Ap (67.0 / 86400 : Rd A) (67.0 / 86400) 0.0008 1e-17 := by
    refine (Ap.div' 86400 (Ap.lit le_rfl ?_) (Ap.nat (n := 86400)) ?_ ?_ ?_).mono ?_ ?_ <;> norm_num
  unfold jde; apf
theorem cOf_ap {t : ℤ} (h : InSec t) : Ap (jce (jde (jd (Scalar.ofInt t : Rd A)))) (cOf t) 3.23 2.23e-13 := by
  have h1 := jde_ap (A := A) h
  have hm := mOf_bound h
  have e : cOf t = mOf t * 10 := by unfold mOf cOf jme; ring
  have hc : |cOf t| ≤ 3.23 := by
    rw [e, abs_mul, abs_of_pos (by norm_num : (0 : ℝ) < 10)]; norm_num at hm ⊢; linarith
  have h2 : Ap (jde (jd (Scalar.ofInt t : Rd A)) - 2451545 : Rd A) (jde (jd (t : ℝ)) - 2451545) 117976 8e-9 := by
    refine (Ap.sub' 117976 h1 (Ap.nat (n := 2451545)) ?_ ?_).mono le_rfl ?_
    · have e2 : jde (jd (t : ℝ)) - 2451545 = cOf t * 36525 := by
        unfold cOf jce; rw [div_mul_cancel₀]; norm_num
      rw [e2, abs_mul, abs_of_pos (by norm_num : (0 : ℝ) < 36525)]; norm_num at hc ⊢; linarith
    · norm_num
    · norm_num
  refine Ap.bnd (M := 3.24) ?_ hc
  unfold cOf jce
  refine (Ap.div' 36525 h2 (Ap.nat (n := 36525)) ?_ ?_ ?_).mono ?_ ?_ <;> norm_num
theorem mOf_ap {t : ℤ} (h : InSec t) : Ap (jme (jce (jde (jd (Scalar.ofInt t : Rd A))))) (mOf t) 0.323 2.3e-14 := by
  have h1 := cOf_ap (A := A) h
  have : Ap (jme (jce (jde (jd (Scalar.ofInt t : Rd A))))) (jme (cOf t)) 0.33 2.3e-14 := by
    unfold jme
    refine (Ap.div' 10 h1 (Ap.nat (n := 10)) ?_ ?_ ?_).mono ?_ ?_ <;> norm_num
  exact this.bnd (mOf_bound h)
theorem jc_ap {t : ℤ} (h : InSec t) : Ap (jc (jd (Scalar.ofInt t : Rd A))) (jc (jd (t : ℝ))) 3.24 2e-13 := by
  have h1 := jd_ap (A := A) h
  have hm := abs_le.1 h.real
  have h2 : Ap (jd (Scalar.ofInt t : Rd A) - 2451545 : Rd A) (jd (t : ℝ) - 2451545) 117976 5.5e-9 := by
    refine (Ap.sub' 117976 h1 (Ap.nat (n := 2451545)) ?_ ?_).mono le_rfl ?_
    · show |(t : ℝ) / 86400 + 2440587.5 - 2451545| ≤ _
      rw [abs_le]; norm_num; constructor <;> linarith [hm.1, hm.2]
    · norm_num
    · norm_num
  unfold jc
  refine (Ap.div' 36525 h2 (Ap.nat (n := 36525)) ?_ ?_ ?_).mono ?_ ?_ <;> norm_num

/-! ### the series -/

theorem tablesOk : ∀ t ∈ [paramsR0, paramsR1, paramsR2, paramsR3, paramsR4, paramsL0, paramsL1, paramsL2, paramsL3, paramsL4,
    paramsL5, paramsB0, paramsB1], ∀ r ∈ t, RowOk r ∧ r.a.m.natAbs ≤ 10 ^ 12 := by decide +kernel

section
variable {a : Rd A} {m : ℝ} (h : Ap a m 0.323 2.3e-14)
include h

/-- a series whose first row is not special -/
theorem series_ap' {n : ℕ} {r0 : Row} {tl : List Row} (K N : ℝ) {s : ℕ}
    (hl : ∀ r ∈ r0 :: tl, RowOk r ∧ r.a.m.natAbs ≤ 10 ^ 12) (hlen : tl.length ≤ n - 1) (hN : ((n - 1 : ℕ) : ℝ) ≤ N)
    (hamp : amp (r0 :: tl) = s) (hK0 : 0 ≤ K) (hK : K ≤ 1e29)
    (hb : s + (4e-9 * s + 1e-29 + N * (1e-29 + (1e-15 * K + 1e-30))) ≤ K) :
    Ap (series n (r0 :: tl) a) (series n (r0 :: tl) m) s (4e-9 * s + 1e-29 + N * (1e-29 + (1e-15 * K + 1e-30))) := by
  have h0 := term_ap h (hl r0 (by simp)).1 (hl r0 (by simp)).2
  have hs : ((r0.a.m.natAbs : ℕ) : ℝ) + (amp tl : ℕ) = s := by
    rw [← hamp]; unfold amp; push_cast; simp
  have hs2 : 4e-9 * ((r0.a.m.natAbs : ℕ) : ℝ) + 4e-9 * (amp tl : ℕ) = 4e-9 * s := by rw [← hs]; ring
  refine (series_ap h K N h0 (fun r hr => hl r (by simp [hr])) hlen hN rfl hK0 hK ?_).fit rfl ?_ ?_
  · linarith
  · linarith
  · linarith

theorem R0_ap : Ap (series 40 paramsR0 a) (series 40 paramsR0 m) 101709876 6.8e-3 := by
  have hh := head_ap h (k := 100013989) (by norm_num)
  refine (series_ap h (n := 40) (tl := paramsR0.tail) (s := 1695887) 1.1e8 39 hh
    (fun r hr => tablesOk _ (by simp) r (List.mem_of_mem_tail hr))
    (by decide) (by norm_num) (by decide) (by norm_num) (by norm_num) ?_).fit rfl ?_ ?_ <;> norm_num
theorem R1_ap : Ap (series 40 paramsR1 a) (series 40 paramsR1 m) 105576 4.3e-4 := by
  refine (series_ap' h (n := 40) (s := 105576) 106633 39 (r0 := paramsR1.head (by decide)) (tl := paramsR1.tail)
    (fun r hr => tablesOk paramsR1 (by simp) r hr)
    (by decide) (by norm_num) (by decide) (by norm_num) (by norm_num) ?_).fit rfl ?_ ?_ <;> norm_num
theorem R2_ap : Ap (series 40 paramsR2 a) (series 40 paramsR2 m) 4513 1.9e-5 := by
  refine (series_ap' h (n := 40) (s := 4513) 4559 39 (r0 := paramsR2.head (by decide)) (tl := paramsR2.tail)
    (fun r hr => tablesOk paramsR2 (by simp) r hr)
    (by decide) (by norm_num) (by decide) (by norm_num) (by norm_num) ?_).fit rfl ?_ ?_ <;> norm_num
theorem R3_ap : Ap (series 40 paramsR3 a) (series 40 paramsR3 m) 152 6.2e-7 := by
  refine (series_ap' h (n := 40) (s := 152) 155 39 (r0 := paramsR3.head (by decide)) (tl := paramsR3.tail)
    (fun r hr => tablesOk paramsR3 (by simp) r hr)
    (by decide) (by norm_num) (by decide) (by norm_num) (by norm_num) ?_).fit rfl ?_ ?_ <;> norm_num
theorem R4_ap : Ap (series 40 paramsR4 a) (series 40 paramsR4 m) 4 1.7e-8 := by
  refine (series_ap' h (n := 40) (s := 4) 5 39 (r0 := paramsR4.head (by decide)) (tl := paramsR4.tail)
    (fun r hr => tablesOk paramsR4 (by simp) r hr)
    (by decide) (by norm_num) (by decide) (by norm_num) (by norm_num) ?_).fit rfl ?_ ?_ <;> norm_num
theorem L0_ap : Ap (series 64 paramsL0 a) (series 64 paramsL0 m) 178752448 1.38e-2 := by
  have hh := head_ap h (k := 175347046) (by norm_num)
  refine (series_ap h (n := 64) (tl := paramsL0.tail) (s := 3405402) 2e8 63 hh
    (fun r hr => tablesOk _ (by simp) r (List.mem_of_mem_tail hr))
    (by decide) (by norm_num) (by decide) (by norm_num) (by norm_num) ?_).fit rfl ?_ ?_ <;> norm_num
theorem L1_ap : Ap (series 64 paramsL1 a) (series 64 paramsL1 m) 628332178527 0.055 := by
  have hh := head_ap h (k := 628331966747) (by norm_num)
  refine (series_ap h (n := 64) (tl := paramsL1.tail) (s := 211780) 6.4e11 63 hh
    (fun r hr => tablesOk _ (by simp) r (List.mem_of_mem_tail hr))
    (by decide) (by norm_num) (by decide) (by norm_num) (by norm_num) ?_).fit rfl ?_ ?_ <;> norm_num
theorem L2_ap : Ap (series 64 paramsL2 a) (series 64 paramsL2 m) 62068 2.6e-4 := by
  refine (series_ap' h (n := 64) (s := 62068) 62690 63 (r0 := paramsL2.head (by decide)) (tl := paramsL2.tail)
    (fun r hr => tablesOk paramsL2 (by simp) r hr)
    (by decide) (by norm_num) (by decide) (by norm_num) (by norm_num) ?_).fit rfl ?_ ?_ <;> norm_num
theorem L3_ap : Ap (series 64 paramsL3 a) (series 64 paramsL3 m) 347 1.4e-6 := by
  refine (series_ap' h (n := 64) (s := 347) 351 63 (r0 := paramsL3.head (by decide)) (tl := paramsL3.tail)
    (fun r hr => tablesOk paramsL3 (by simp) r hr)
    (by decide) (by norm_num) (by decide) (by norm_num) (by norm_num) ?_).fit rfl ?_ ?_ <;> norm_num
theorem L4_ap : Ap (series 64 paramsL4 a) (series 64 paramsL4 m) 123 5e-7 := by
  refine (series_ap' h (n := 64) (s := 123) 125 63 (r0 := paramsL4.head (by decide)) (tl := paramsL4.tail)
    (fun r hr => tablesOk paramsL4 (by simp) r hr)
    (by decide) (by norm_num) (by decide) (by norm_num) (by norm_num) ?_).fit rfl ?_ ?_ <;> norm_num
theorem L5_ap : Ap (series 64 paramsL5 a) (series 64 paramsL5 m) 1 5e-9 := by
  refine (series_ap' h (n := 64) (s := 1) 2 63 (r0 := paramsL5.head (by decide)) (tl := paramsL5.tail)
    (fun r hr => tablesOk paramsL5 (by simp) r hr)
    (by decide) (by norm_num) (by decide) (by norm_num) (by norm_num) ?_).fit rfl ?_ ?_ <;> norm_num
theorem B0_ap : Ap (series 5 paramsB0 a) (series 5 paramsB0 m) 538 2.3e-6 := by
  refine (series_ap' h (n := 5) (s := 538) 544 4 (r0 := paramsB0.head (by decide)) (tl := paramsB0.tail)
    (fun r hr => tablesOk paramsB0 (by simp) r hr)
    (by decide) (by norm_num) (by decide) (by norm_num) (by norm_num) ?_).fit rfl ?_ ?_ <;> norm_num
theorem B1_ap : Ap (series 5 paramsB1 a) (series 5 paramsB1 m) 15 6.2e-8 := by
  refine (series_ap' h (n := 5) (s := 15) 16 4 (r0 := paramsB1.head (by decide)) (tl := paramsB1.tail)
    (fun r hr => tablesOk paramsB1 (by simp) r hr)
    (by decide) (by norm_num) (by decide) (by norm_num) (by norm_num) ?_).fit rfl ?_ ?_ <;> norm_num

theorem p2_ap : Ap (Num.npow a 2 : Rd A) (m ^ 2) 0.105 2e-14 := by
  refine (Ap.npow 2 h (by norm_num) (by norm_num)).mono ?_ ?_ <;> norm_num
theorem p3_ap : Ap (Num.npow a 3 : Rd A) (m ^ 3) 0.034 2e-14 := by
  refine (Ap.npow 3 h (by norm_num) (by norm_num)).mono ?_ ?_ <;> norm_num
theorem p4_ap : Ap (Num.npow a 4 : Rd A) (m ^ 4) 0.011 2e-14 := by
  refine (Ap.npow 4 h (by norm_num) (by norm_num)).mono ?_ ?_ <;> norm_num
theorem p5_ap : Ap (Num.npow a 5 : Rd A) (m ^ 5) 0.0036 2e-14 := by
  refine (Ap.npow 5 h (by norm_num) (by norm_num)).mono ?_ ?_ <;> norm_num

theorem R_ap : Ap (R a) (R m) 1.018 7.2e-11 := by
  have h0 := R0_ap h
  have h1 := R1_ap h
  have h2 := R2_ap h
  have h3 := R3_ap h
  have h4 := R4_ap h
  have p2 := p2_ap h
  have p3 := p3_ap h
  have p4 := p4_ap h
  have hb := R_bound h.1
  have hs : Ap (series 40 paramsR0 a + series 40 paramsR1 a * a + series 40 paramsR2 a * Num.npow a 2
    + series 40 paramsR3 a * Num.npow a 3 + series 40 paramsR4 a * Num.npow a 4 : Rd A)
    (series 40 paramsR0 m + series 40 paramsR1 m * m + series 40 paramsR2 m * m ^ 2
    + series 40 paramsR3 m * m ^ 3 + series 40 paramsR4 m * m ^ 4) 101745000 7.1e-3 := by apf
  refine Ap.bnd (M := 1.1) ?_ (by rw [abs_of_nonneg (by norm_num at *; linarith)]; exact hb.2)
  unfold R
  refine (Ap.div' 100000000 hs (Ap.nat (n := 100000000)) ?_ ?_ ?_).mono ?_ ?_ <;> norm_num

theorem Lraw_ap : Ap (Lraw a) (Lraw m) 116400 3e-8 := by
  have h0 := L0_ap h
  have h1 := L1_ap h
  have h2 := L2_ap h
  have h3 := L3_ap h
  have h4 := L4_ap h
  have h5 := L5_ap h
  have p2 := p2_ap h
  have p3 := p3_ap h
  have p4 := p4_ap h
  have p5 := p5_ap h
  have hR := Psa.RAD2DEG_ap (A := A)
  have hs : Ap (RAD2DEG * (series 64 paramsL0 a + series 64 paramsL1 a * a + series 64 paramsL2 a * Num.npow a 2
    + series 64 paramsL3 a * Num.npow a 3 + series 64 paramsL4 a * Num.npow a 4 + series 64 paramsL5 a * Num.npow a 5) : Rd A)
    (180 / π * (series 64 paramsL0 m + series 64 paramsL1 m * m + series 64 paramsL2 m * m ^ 2
    + series 64 paramsL3 m * m ^ 3 + series 64 paramsL4 m * m ^ 4 + series 64 paramsL5 m * m ^ 5)) 1.164e13 2.9 := by apf
  unfold Lraw
  refine (Ap.div' 100000000 hs (Ap.nat (n := 100000000)) ?_ ?_ ?_).mono ?_ ?_ <;> norm_num

theorem beta_ap : Ap (beta a) (beta m) 6e-6 2.5e-14 := by
  have h0 := B0_ap h
  have h1 := B1_ap h
  have hR := Psa.RAD2DEG_ap (A := A)
  have hD := DEG2RAD_ap (A := A)
  have hs : Ap (RAD2DEG * (series 5 paramsB0 a + series 5 paramsB1 a * a) : Rd A)
    (180 / π * (series 5 paramsB0 m + series 5 paramsB1 m * m)) 31106 1.35e-4 := by apf
  have hB : Ap (B a) (B m) 0.0004 1.36e-12 := by
    unfold B
    refine (Ap.div' 100000000 hs (Ap.nat (n := 100000000)) ?_ ?_ ?_).mono ?_ ?_ <;> norm_num
  refine Ap.bnd (M := 1e-5) ?_ (beta_bound h.1)
  unfold beta; apf
end
end SW.Nrel
