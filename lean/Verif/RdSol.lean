/-
The time-dependent programs of soltrack in rounded arithmetic, against the same programs in exact
arithmetic.
-/
import Verif.RdPsaCell
import Verif.RSoltrack

namespace SW
open Real

/-- square root of a number at least `m²` -/
theorem Ap.sqrt {A : Arith} {a : Rd A} {x M ε : ℝ} (m N : ℝ) (h : Ap a x M ε) (hm : 0 < m) (hx : m ^ 2 ≤ x)
    (hε : ε ≤ m ^ 2) (hN0 : 0 ≤ N) (hN : M + ε ≤ N ^ 2) (hb : N ≤ 1e15) :
    Ap (Num.sqrt a : Rd A) √x N (ε / m + (1e-15 * N + 1e-30)) := by
  have e0 := h.e_nonneg
  obtain ⟨m1, r, rfl, e⟩ := h
  have e' := abs_le.1 e
  have hx0 : 0 ≤ x := (sq_nonneg m).trans hx
  have hr0 : 0 ≤ r := by linarith
  have hrN : r ≤ N ^ 2 := by linarith [le_abs_self x]
  have hxN : x ≤ N ^ 2 := by linarith [le_abs_self x]
  obtain ⟨q, hq, hq'⟩ := A.sqrt_spec r hr0 (by
    refine hrN.trans ?_
    calc N ^ 2 ≤ (1e15 : ℝ) ^ 2 := pow_le_pow_left₀ hN0 hb 2
      _ = 1e30 := by norm_num)
  have hmx : m ≤ √x := Real.le_sqrt_of_sq_le hx
  have hs0 := Real.sqrt_nonneg r
  have hd : |√r - √x| ≤ ε / m := by
    have e1 : (√r - √x) * (√r + √x) = r - x := by
      have a1 := Real.mul_self_sqrt hr0
      have a2 := Real.mul_self_sqrt hx0
      nlinarith
    have hp : 0 < √r + √x := by linarith
    have e2 : √r - √x = (r - x) / (√r + √x) := by rw [← e1]; field_simp
    rw [e2, abs_div, abs_of_pos hp]
    exact div_le_div₀ e0 e hm (by linarith)
  have hsr : √r ≤ N := by rw [Real.sqrt_le_left hN0]; exact hrN
  have hsx : √x ≤ N := by rw [Real.sqrt_le_left hN0]; exact hxN
  refine ⟨by rwa [abs_of_nonneg (Real.sqrt_nonneg x)], q, hq, ?_⟩
  have := abs_sub_le q (√r) (√x)
  have : 1e-15 * √r ≤ 1e-15 * N := by gcongr
  linarith

namespace Apm
variable {A : Arith} {a b : Rd A} {x M ε : ℝ}

/-- both `%` by the rounded 2π -/
theorem mod2pi {q p r : ℝ} {k : ℤ} (hM : |r| ≤ M) (hM' : M ≤ 3000) (hp : |p - 2 * π| ≤ 2e-14)
    (hq : |q| ≤ p + 1e-15 * p) (hk : |q - (r - k * p)| ≤ 1e-15 * p) :
    |q| ≤ 6.29 ∧ |q - r - ((-k : ℤ) : ℝ) * (2 * π)| ≤ 1.1e-11 := by
  have p1 := pi_gt_d4
  have p2 := pi_lt_d4
  have hp' := abs_le.1 hp
  have hp0 : 6.28 ≤ p ∧ p ≤ 6.284 := by constructor <;> norm_num at * <;> linarith
  have hr := abs_le.1 (hM.trans hM')
  have hq' := abs_le.1 hq
  have hk' := abs_le.1 hk
  constructor
  · refine hq.trans ?_; norm_num at *; linarith
  have hkp : |(k : ℝ)| ≤ 480 := by
    have h1 : |(k : ℝ)| * p ≤ 3010 := by
      have hpp : 0 < p := by norm_num at hp0; linarith
      have e1 : |(k : ℝ)| * p = |k * p| := by rw [abs_mul, abs_of_pos hpp]
      rw [e1, abs_le]
      constructor <;> norm_num at * <;> linarith
    have h0 := abs_nonneg (k : ℝ)
    by_contra hc
    push Not at hc
    norm_num at *; nlinarith
  have e : q - r - ((-k : ℤ) : ℝ) * (2 * π) = (q - (r - k * p)) - k * (p - 2 * π) := by push_cast; ring
  rw [e]
  refine (abs_sub _ _).trans ?_
  rw [abs_mul]
  have := mul_le_mul hkp hp (abs_nonneg _) (by norm_num)
  norm_num at *; linarith

theorem pmod2pi (h : Apm a x (2 * π) M ε) (hM : M ≤ 3000) :
    Apm (Num.pmod a TWOPI : Rd A) x (2 * π) 6.29 (ε + 1.1e-11) := by
  obtain ⟨r, j, rfl, m, e⟩ := h
  obtain ⟨mp, p, hp, ep⟩ := Psa.TWOPI_ap (A := A)
  have p1 := pi_gt_d4
  have p2 := pi_lt_d4
  have ep' := abs_le.1 ep
  obtain ⟨q, hq, q0, q1, k, hk⟩ := A.pmod_spec r p (m.trans (hM.trans (by norm_num)))
    (by norm_num at *; linarith) (by norm_num at *; linarith)
  obtain ⟨b1, b2⟩ := mod2pi m hM ep (by rwa [abs_of_nonneg q0]) hk
  refine ⟨q, j - k, by rw [hp]; exact hq, b1, ?_⟩
  rw [show q - x - ((j - k : ℤ) : ℝ) * (2 * π) = (q - r - ((-k : ℤ) : ℝ) * (2 * π)) + (r - x - j * (2 * π)) by
    push_cast; ring]
  exact (abs_add_le _ _).trans (by linarith)

theorem cmod2pi (h : Apm a x (2 * π) M ε) (hM : M ≤ 3000) :
    Apm (Num.cmod a TWOPI : Rd A) x (2 * π) 6.29 (ε + 1.1e-11) := by
  obtain ⟨r, j, rfl, m, e⟩ := h
  obtain ⟨mp, p, hp, ep⟩ := Psa.TWOPI_ap (A := A)
  have p1 := pi_gt_d4
  have p2 := pi_lt_d4
  have ep' := abs_le.1 ep
  obtain ⟨q, hq, q1, k, hk⟩ := A.cmod_spec r p (m.trans (hM.trans (by norm_num)))
    (by norm_num at *; linarith) (by norm_num at *; linarith)
  obtain ⟨b1, b2⟩ := mod2pi m hM ep q1 hk
  refine ⟨q, j - k, by rw [hp]; exact hq, b1, ?_⟩
  rw [show q - x - ((j - k : ℤ) : ℝ) * (2 * π) = (q - r - ((-k : ℤ) : ℝ) * (2 * π)) + (r - x - j * (2 * π)) by
    push_cast; ring]
  exact (abs_add_le _ _).trans (by linarith)

/-- both `%` by the period itself -/
theorem pmodT {T : ℝ} (h1 : Apm a x T M ε) (h2 : b = Rd.fin T) (hb : M ≤ 1e30) (hy : 0 < T) (hy' : T ≤ 1e30) :
    Apm (Num.pmod a b : Rd A) x T (T + 1e-15 * T) (ε + 1e-15 * T) := by
  obtain ⟨r, j, rfl, m, e⟩ := h1
  obtain ⟨q, hq, q0, q1, k, hk⟩ := A.pmod_spec r T (m.trans hb) hy hy'
  refine ⟨q, j - k, by rw [h2]; exact hq, by rw [abs_of_nonneg q0]; exact q1, ?_⟩
  push_cast
  rw [show q - x - (j - k) * T = (q - (r - k * T)) + (r - x - j * T) by ring]
  exact (abs_add_le _ _).trans (by linarith)
theorem cmodT {T : ℝ} (h1 : Apm a x T M ε) (h2 : b = Rd.fin T) (hb : M ≤ 1e30) (hy : 0 < T) (hy' : T ≤ 1e30) :
    Apm (Num.cmod a b : Rd A) x T (T + 1e-15 * T) (ε + 1e-15 * T) := by
  obtain ⟨r, j, rfl, m, e⟩ := h1
  obtain ⟨q, hq, q1, k, hk⟩ := A.cmod_spec r T (m.trans hb) hy hy'
  refine ⟨q, j - k, by rw [h2]; exact hq, q1, ?_⟩
  push_cast
  rw [show q - x - (j - k) * T = (q - (r - k * T)) + (r - x - j * T) by ring]
  exact (abs_add_le _ _).trans (by linarith)
end Apm

namespace Soltrack
variable {A : Arith} {a b c d e : Rd A} {j x y z : ℝ}

theorem tJD_ap {t : ℤ} (h : InSec t) : Ap (tJD (Scalar.ofInt t : Rd A)) (tJD (t : ℝ)) 117710 4e-10 := by
  have h1 := Psa.days_ap (A := A) h
  have : Ap (tJD (Scalar.ofInt t : Rd A)) (tJD (t : ℝ)) 118000 4e-10 := by
    unfold tJD; apf
  exact this.bnd (tJD_bound h)
theorem tJC_ap {t : ℤ} (h : InSec t) : Ap (tJC (tJD (Scalar.ofInt t : Rd A))) (tJC (tJD (t : ℝ))) 3.23 3e-14 := by
  have h1 := tJD_ap (A := A) h
  unfold tJC
  refine (Ap.div' 36525 h1 (Ap.lit le_rfl ?_) ?_ ?_ ?_).mono ?_ ?_ <;> norm_num

section
variable (h : Ap a j 3.23 3e-14)
include h
theorem tJC2_ap : Ap (tJC2 a : Rd A) (tJC2 j) 10.5 4e-13 := by
  have : Ap (Num.npow a 2 : Rd A) (j ^ 2) 10.5 4e-13 := by apf
  exact this
theorem l0_ap : Ap (l0 a : Rd A) (l0 j) 2036 5e-11 := by
  have h1 := tJC2_ap h
  unfold l0; apf
theorem ma_ap : Ap (ma a : Rd A) (ma j) 2036 5e-11 := by
  have h1 := tJC2_ap h
  unfold ma; apf
theorem sec_ap : Ap (sec a : Rd A) (sec j) 0.0341 5e-12 := by
  have h1 := tJC2_ap h
  have h2 := ma_ap h
  have : Ap (sec a : Rd A) (sec j) 0.04 5e-12 := by unfold sec; apf
  exact this.bnd (sec_bound h.1)
theorem omg_ap : Ap (omg a : Rd A) (omg j) 112 2e-12 := by
  have h1 := tJC2_ap h
  unfold omg; apf
theorem dpsi_ap : Ap (dpsi a : Rd A) (dpsi j) 0.0001 1e-15 := by
  have h1 := omg_ap h
  unfold dpsi; apf
theorem ecc_ap : Ap (ecc a : Rd A) (ecc j) 0.0171 1e-16 := by
  have h1 := tJC2_ap h
  unfold ecc; apf
theorem R_ap : Ap (R a : Rd A) (R j) 1.018 3e-12 := by
  have h1 := ma_ap h
  have h2 := sec_ap h
  have h3 := ecc_ap h
  have hb := R_bound h.1
  have hn : Ap (1.0000010178 * (1.0 - Num.npow (ecc a) 2) : Rd A) (1.0000010178 * (1.0 - (ecc j) ^ 2)) 1.1 1e-14 := by
    apf
  have hd : Ap (1.0 + ecc a * Num.cos (ma a + sec a) : Rd A) (1.0 + ecc j * cos (ma j + sec j)) 1.1 2e-12 := by
    apf
  have hl : 0.98 ≤ |1.0 + ecc j * cos (ma j + sec j)| := by
    refine le_trans ?_ (le_abs_self _)
    have := abs_mul_cos_le (ecc j) (ma j + sec j)
    have := (abs_le.1 (this.trans h3.1)).1
    norm_num at *; linarith
  refine (Ap.div 0.98 1.018 hn hd hl (by norm_num) ?_ (by norm_num)).mono (by norm_num) (by norm_num)
  rw [← R_real, abs_of_nonneg (by norm_num at hb; linarith [hb.1])]; exact hb.2
theorem ecf_ap : Ap (ecf a : Rd A) (ecf j) 1.04 1e-11 := by
  have h1 := R_ap h
  have hR := R_bound h.1
  have hb := ecf_bound h.1
  have hd : Ap (Num.npow (R a) 2 : Rd A) (R j ^ 2) 1.04 6.5e-12 := by apf
  refine (Ap.div 0.96 1.04 Ap.one hd ?_ ?_ ?_ ?_).mono ?_ ?_
  · rw [abs_of_nonneg (by positivity)]; norm_num at hR ⊢; nlinarith [hR.1]
  · norm_num
  · rw [abs_of_nonneg]; exact hb.2
    have : 0.96 ≤ ecf j := hb.1
    show 0 ≤ ecf j; norm_num at this; linarith
  all_goals norm_num
theorem Lraw_ap : Ap (Lraw a : Rd A) (Lraw j) 2037 6.2e-11 := by
  have h1 := l0_ap h
  have h2 := sec_ap h
  have h3 := dpsi_ap h
  have h4 := R_ap h
  have hR := R_bound h.1
  have hl : Ap (-9.93087e-5 : Rd A) (-9.93087e-5) 0.0001 1e-18 := by apf
  have hq : Ap (-9.93087e-5 / R a : Rd A) (-9.93087e-5 / R j) 0.00011 1e-15 := by
    refine (Ap.div' 0.982 hl h4 ?_ ?_ ?_).mono ?_ ?_
    · exact hR.1.trans (le_abs_self _)
    all_goals norm_num
  unfold Lraw; apf
theorem LPy_apm : Apm (LPy a : Rd A) (Lraw j) (2 * π) 6.29 7.4e-11 :=
  ((Apm.of_ap (Lraw_ap h) (2 * π)).pmod2pi (by norm_num)).mono le_rfl (by norm_num)
theorem LNe_apm : Apm (LNe a : Rd A) (Lraw j) (2 * π) 6.29 7.4e-11 :=
  ((Apm.of_ap (Lraw_ap h) (2 * π)).cmod2pi (by norm_num)).mono le_rfl (by norm_num)
theorem ob_ap : Ap (obliquity a : Rd A) (obliquity j) 0.41 2e-15 := by
  have h1 := tJC2_ap h
  have h2 := omg_ap h
  have hb := ob_bound h.1
  have : Ap (obliquity a : Rd A) (obliquity j) 0.42 2e-15 := by unfold obliquity; apf
  exact this.bnd (by rw [abs_of_nonneg (by norm_num at hb; linarith [hb.1])]; exact hb.2)
/-- the two ways of computing the sine of the obliquity -/
theorem sinoPy_ap : Ap (sinoPy (obliquity a) : Rd A) (sin (obliquity j)) 0.41 2e-13 := by
  have h1 := ob_ap h
  have hb := ob_bound h.1
  have ho := ob_mem h.1
  have h2 : Ap (1.0 - Num.npow (Num.cos (obliquity a)) 2 : Rd A) (1.0 - cos (obliquity j) ^ 2) 2 4.5e-14 := by apf
  have hs : 0.39 ≤ sin (obliquity j) := by
    have h3 : 0 < obliquity j := by norm_num at hb; linarith [hb.1]
    have h4 := Real.sin_gt_sub_cube h3
    have h5 : obliquity j ^ 3 ≤ (0.41 : ℝ) ^ 3 := by
      apply pow_le_pow_left₀ h3.le; exact hb.2
    norm_num at *; linarith
  have e : (1.0 : ℝ) - cos (obliquity j) ^ 2 = sin (obliquity j) ^ 2 := by
    have := sin_sq_add_cos_sq (obliquity j); norm_num; linarith
  rw [e] at h2
  have hs1 : sin (obliquity j) ≤ 0.41 := (sin_le ho.1).trans hb.2
  have hs0 : 0 ≤ sin (obliquity j) := by norm_num at hs; linarith
  have h3 := Ap.sqrt (0.39 : ℝ) 1 (h2.bnd (M' := 0.1681) (by
      rw [abs_of_nonneg (sq_nonneg _)]
      calc sin (obliquity j) ^ 2 ≤ (0.41 : ℝ) ^ 2 := pow_le_pow_left₀ hs0 hs1 2
        _ ≤ _ := by norm_num)) (by norm_num) (pow_le_pow_left₀ (by norm_num) hs 2) (by norm_num)
    (by norm_num) (by norm_num) (by norm_num)
  rw [Real.sqrt_sq hs0] at h3
  exact (h3.mono le_rfl (by norm_num)).bnd (by rw [abs_of_nonneg hs0]; exact hs1)
theorem sinoNe_ap : Ap (sinoNe (obliquity a) : Rd A) (sin (obliquity j)) 0.41 2e-13 := by
  have h1 := ob_ap h
  have hb := ob_bound h.1
  refine ((h1.sin (by norm_num)).bnd ?_).mono le_rfl (by norm_num)
  exact (Real.abs_sin_le_abs).trans h1.1

theorem decl_ap {s l : Rd A} (hs : Ap s (sin (obliquity j)) 0.41 2e-13) (hl : Apm l (Lraw j) (2 * π) 6.29 7.4e-11) :
    Ap (decl s l) (decR j) 0.41 4e-11 := by
  have h1 := hl.sin (by norm_num)
  have h2 : Ap (s * Num.sin l : Rd A) (sin (obliquity j) * sin (Lraw j)) 0.41 3.1e-11 := by apf
  have hb := decR_bound h.1
  exact ((Ap.arcsin h2 (h2.1.trans (by norm_num)) (le_trans hb (by norm_num)) (by norm_num)).bnd hb).mono le_rfl (by norm_num)

theorem ra0_apm {l : Rd A} (hl : Apm l (Lraw j) (2 * π) 6.29 7.4e-11) :
    Apm (Num.arctan2 (Num.cos (obliquity a) * Num.sin l) (Num.cos l) : Rd A) (raR j) (2 * π) 3.15 1.7e-10 := by
  have h1 := ob_ap h
  have hs := hl.sin (by norm_num)
  have hc' := hl.cos (by norm_num)
  have h3 : Ap (Num.cos (obliquity a) * Num.sin l : Rd A) (cos (obliquity j) * sin (Lraw j)) 1 7.5e-11 := by apf
  have h4 : Ap (Num.cos l : Rd A) (cos (Lraw j)) 1 7.5e-11 := hc'.mono le_rfl (by norm_num)
  have he := ob_bound h.1
  have hc := Psa.cos_ep_bound (e := obliquity j) ⟨by norm_num at he ⊢; linarith [he.1], by norm_num at he ⊢; linarith [he.2]⟩
  refine (Apm.atan2 0.91 h3 h4 ?_ (by norm_num) (by norm_num) (by norm_num)).mono ?_ ?_
  · obtain ⟨s, hs⟩ : ∃ s, s = sin (Lraw j) := ⟨_, rfl⟩
    obtain ⟨q, hq⟩ : ∃ q, q = cos (Lraw j) := ⟨_, rfl⟩
    have : s ^ 2 + q ^ 2 = 1 := by rw [hs, hq]; exact sin_sq_add_cos_sq _
    rw [← hs, ← hq, mul_pow]
    have hc2 : 0.91 ^ 2 ≤ cos (obliquity j) ^ 2 := by gcongr; exact hc.1
    have hc3 : cos (obliquity j) ^ 2 ≤ 1 := by rw [sq_le_one_iff_abs_le_one]; exact abs_cos_le_one _
    nlinarith [sq_nonneg s, sq_nonneg q]
  · have := pi_lt_d4; norm_num at *; linarith
  · norm_num

theorem raPy_apm : Apm (raPy (obliquity a) (LPy a) : Rd A) (raR j) (2 * π) 6.29 2e-10 :=
  ((ra0_apm h (LPy_apm h)).pmod2pi (by norm_num)).mono le_rfl (by norm_num)
theorem raNe_apm : Apm (raNe (obliquity a) (LNe a) : Rd A) (raR j) (2 * π) 6.29 2e-10 :=
  ((ra0_apm h (LNe_apm h)).cmod2pi (by norm_num)).mono le_rfl (by norm_num)

/-- the argument of the reduction of the equation of time -/
theorem xdeg_apm {r : Rd A} (hr : Apm r (raR j) (2 * π) 6.29 2e-10) :
    Apm (-0.0057183 + (l0 a - r + dpsi a * Num.cos (obliquity a)) * RAD2DEG : Rd A) (xr0 j) 360 117100 1.58e-8 := by
  have h1 := l0_ap h
  have h2 := dpsi_ap h
  have h3 := ob_ap h
  have h4 : Ap (dpsi a * Num.cos (obliquity a) : Rd A) (dpsi j * cos (obliquity j)) 0.0001 1e-14 := by apf
  have h5 : Ap (-0.0057183 : Rd A) (-0.0057183) 0.006 1e-17 := by apf
  have h6 := ((((Apm.of_ap h1 (2 * π)).sub hr (by norm_num)).add h4 (by norm_num)).mul Psa.RAD2DEG_ap
    (by norm_num)).period (T' := 360) (by field_simp; norm_num)
  refine ((Apm.ap_add h5 h6 (by norm_num)).mono ?_ ?_).congr rfl <;> norm_num
end

/-- removal of a whole turn from the equation of time -/
theorem eotWrap_rd {x s : ℝ} {k : ℤ} (hs : |s| ≤ 19.5) (hx : |x - s - k * 1440| ≤ 1e-7) (hr : |x| ≤ 1460) :
    ∃ r, (eot2 (eot1 (Rd.fin x : Rd A)) : Rd A) = Rd.fin r ∧ |r - s| ≤ 1.1e-7 := by
  obtain ⟨o, ho, ho'⟩ := Psa.lit20 (A := A)
  obtain ⟨o2, ho2, ho2'⟩ := Psa.litM20 (A := A)
  have ho' := abs_le.1 ho'
  have ho2' := abs_le.1 ho2'
  have hx' := abs_le.1 hx
  have hs' := abs_le.1 hs
  have hr' := abs_le.1 hr
  have hk : k = -1 ∨ k = 0 ∨ k = 1 := by
    have h1 : (k : ℝ) < 2 := by norm_num at *; linarith
    have h2 : (-2 : ℝ) < k := by norm_num at *; linarith
    have : k < 2 := by exact_mod_cast h1
    have : -2 < k := by exact_mod_cast h2
    omega
  have hA : Ap (Rd.fin x : Rd A) x 1460 0 := Ap.ofFin _ hr
  obtain ⟨-, p, hp, ep⟩ : Ap (Rd.fin x + 1440 : Rd A) (x + 1440) 2900 1e-11 := by apf
  have ep := abs_le.1 ep
  have e1 : (eot1 (Rd.fin x : Rd A) : Rd A) = Rd.fin (if x < o2 then p else x) := by
    show Num.whereLt (Rd.fin x : Rd A) (-20.0) (Rd.fin x + 1440) (Rd.fin x) = _
    rw [ho2, Psa.whereLt_rd, hp]; split_ifs <;> rfl
  obtain ⟨y, hy⟩ : ∃ y, y = if x < o2 then p else x := ⟨_, rfl⟩
  rw [e1, ← hy]
  have hyb : |y| ≤ 3000 := by
    rw [hy]; split_ifs
    · rw [abs_le]; constructor <;> norm_num at * <;> linarith
    · exact hr.trans (by norm_num)
  have hB : Ap (Rd.fin y : Rd A) y 3000 0 := Ap.ofFin _ hyb
  obtain ⟨-, q, hq, eq⟩ : Ap (Rd.fin y - 1440 : Rd A) (y - 1440) 5000 1e-11 := by apf
  have eq := abs_le.1 eq
  have e2 : (eot2 (Rd.fin y : Rd A) : Rd A) = Rd.fin (if o < y then q else y) := by
    show Num.whereLt (20.0 : Rd A) (Rd.fin y : Rd A) (Rd.fin y - 1440) (Rd.fin y) = _
    rw [ho, Psa.whereLt_rd, hq]; split_ifs <;> rfl
  refine ⟨_, e2, ?_⟩
  clear e1 e2 hp hq hA hB ho ho2 hr hs hx
  rw [abs_le]
  rcases hk with rfl | rfl | rfl <;> push_cast at hx' <;> split_ifs at hy ⊢ <;> subst hy <;>
    constructor <;> norm_num at * <;> linarith

theorem nat360 : (360 : Rd A) = Rd.fin 360 := by
  show (XR.fin (Num.nat 360) : XR) = XR.fin 360
  congr 1

theorem eot_of_apm (h : |j| ≤ 3.23) {b : Rd A} (hb : Apm b (xr0 j) 360 (360 + 1e-15 * 360) 1.6e-8) :
    Ap (eot2 (eot1 (b * 4)) : Rd A) (eot2 (eot1 (eot0Ne (xdegNe (l0 j) (raNe (obliquity j) (LNe j)) (dpsi j) (obliquity j))))) 19.5 1.1e-7 := by
  obtain ⟨s, h1, ⟨n, hn⟩, -, h3⟩ := eot_spec h
  rw [h3]
  obtain ⟨r, k, hr, rm, re⟩ := (hb.mul (Ap.nat (n := 4)) (by norm_num)).period (T' := 1440) (by norm_num)
  rw [hr]
  obtain ⟨q, hq, eq⟩ := eotWrap_rd (A := A) (x := r) (s := s) (k := n + k) h1 (by
    have e : r - s - ((n + k : ℤ) : ℝ) * 1440 = r - xr0 j * 4 - k * 1440 := by
      push_cast; linarith
    rw [e]; exact re.trans (by norm_num)) (rm.trans (by norm_num))
  exact ⟨h1, q, hq, eq⟩

theorem eotPy_rd (h : Ap a j 3.23 3e-14) :
    Ap (eot2 (eot1 (eot0Py (xdegPy (l0 a) (raPy (obliquity a) (LPy a)) (dpsi a) (obliquity a)))) : Rd A)
      (eot2 (eot1 (eot0Ne (xdegNe (l0 j) (raNe (obliquity j) (LNe j)) (dpsi j) (obliquity j))))) 19.5 1.1e-7 :=
  eot_of_apm h.1 (((xdeg_apm h (raPy_apm h)).pmodT nat360 (by norm_num) (by norm_num) (by norm_num)).mono le_rfl (by norm_num))
theorem eotNe_rd (h : Ap a j 3.23 3e-14) :
    Ap (eot2 (eot1 (eot0Ne (xdegNe (l0 a) (raNe (obliquity a) (LNe a)) (dpsi a) (obliquity a)))) : Rd A)
      (eot2 (eot1 (eot0Ne (xdegNe (l0 j) (raNe (obliquity j) (LNe j)) (dpsi j) (obliquity j))))) 19.5 1.1e-7 :=
  eot_of_apm h.1 (((xdeg_apm h (raNe_apm h)).cmodT nat360 (by norm_num) (by norm_num) (by norm_num)).mono le_rfl (by norm_num))

end Soltrack
end SW
