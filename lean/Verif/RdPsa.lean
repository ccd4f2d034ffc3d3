/-
The psa programs in rounded arithmetic, against the same programs in exact arithmetic.
-/
import Verif.RoundTrig
import Verif.RPsa

namespace SW.Psa
open Real
variable {A : Arith} {a b c d e : Rd A} {j x y z : ℝ}

theorem days_ap {t : ℤ} (h : InSec t) :
    Ap ((Scalar.ofInt t : Rd A) / 86400 : Rd A) ((t : ℝ) / 86400) 106753 1.1e-10 := by
  have h0 : Ap (Scalar.ofInt t : Rd A) (t : ℝ) 9223372037 0 :=
    Ap.ofInt (by have : |t| ≤ 9223372037 := h; omega) h.real
  exact (Ap.div' 86400 h0 (Ap.nat (n := 86400)) (by norm_num) (by norm_num) (by norm_num)).mono
    (by norm_num) (by norm_num)

theorem jde_ap {t : ℤ} (h : InSec t) : Ap (jde (Scalar.ofInt t : Rd A)) (jde (t : ℝ)) 117710 1e-9 := by
  have h1 := days_ap (A := A) h
  have : Ap (jde (Scalar.ofInt t : Rd A)) (jde (t : ℝ)) 118000 1e-9 := by
    unfold jde; apf
  exact this.bnd (jde_bound h)

section
variable (h : Ap a j 117710 1e-9)
include h
theorem omega_ap : Ap (omega a : Rd A) (omega j) 112 2e-12 := by
  unfold omega; apf
theorem L_ap : Ap (L a : Rd A) (L j) 2030 2.5e-11 := by
  unfold L; apf
theorem g_ap : Ap (g a : Rd A) (g j) 2032 2.5e-11 := by
  unfold g; apf
theorem eclon_ap : Ap (eclon a : Rd A) (eclon j) 2031 4e-11 := by
  have h1 := omega_ap h
  have h2 := L_ap h
  have h3 := g_ap h
  unfold eclon; apf
theorem ep_ap : Ap (ep a : Rd A) (ep j) 0.41 2e-15 := by
  have h1 := omega_ap h
  unfold ep; apf
theorem jdc_ap : Ap (jdc a : Rd A) (jdc j) 3.23 1e-13 := by
  unfold jdc
  refine (Ap.div' 36525 h (Ap.lit le_rfl ?_) ?_ ?_ ?_).mono ?_ ?_ <;> norm_num
end

section
variable (h : Ap a j 3.23 1e-13)
include h
theorem ecc_ap : Ap (ecc a : Rd A) (ecc j) 0.0171 1e-16 := by
  unfold ecc; apf
theorem ma_ap : Ap (ma a : Rd A) (ma j) 2036 1e-10 := by
  unfold ma; apf
theorem sec_ap : Ap (sec a : Rd A) (sec j) 0.035 1e-11 := by
  have h1 := ma_ap h
  unfold sec; apf
theorem R_ap : Ap (R a : Rd A) (R j) 1.018 1e-11 := by
  have h1 := ma_ap h
  have h2 := sec_ap h
  have h3 := ecc_ap h
  have hb := R_bound h.1
  have hn : Ap (1.0000010178 * (1.0 - Num.npow (ecc a) 2) : Rd A) (1.0000010178 * (1.0 - (ecc j) ^ 2)) 1.1 1e-14 := by
    apf
  have hd : Ap (1.0 + ecc a * Num.cos (ma a + sec a) : Rd A) (1.0 + ecc j * cos (ma j + sec j)) 1.1 3e-12 := by
    apf
  have hl : 0.98 ≤ |1.0 + ecc j * cos (ma j + sec j)| := by
    refine le_trans ?_ (le_abs_self _)
    have := abs_mul_cos_le (ecc j) (ma j + sec j)
    have := (abs_le.1 (this.trans h3.1)).1
    norm_num at *; linarith
  refine (Ap.div 0.98 1.018 hn hd hl (by norm_num) ?_ (by norm_num)).mono (by norm_num) (by norm_num)
  rw [← R_real, abs_of_nonneg (by norm_num at hb; linarith [hb.1])]; exact hb.2
theorem ecf_ap : Ap (ecf a : Rd A) (ecf j) 1.04 1e-10 := by
  have h1 := R_ap h
  have hR := R_bound h.1
  have hb := ecf_bound h.1
  have hd : Ap (Num.npow (R a) 2 : Rd A) (R j ^ 2) 1.04 2.1e-11 := by apf
  refine (Ap.div 0.96 1.04 (Ap.lit le_rfl ?_) hd ?_ ?_ ?_ ?_).mono ?_ ?_
  · norm_num
  · rw [abs_of_nonneg (by positivity)]; norm_num at hR ⊢; nlinarith [hR.1]
  · norm_num
  · rw [abs_of_nonneg]; exact hb.2
    have : 0.96 ≤ ecf j := hb.1
    show 0 ≤ ecf j; norm_num at this; linarith
  all_goals norm_num
end

theorem delta_ap (h : Ap a j 117710 1e-9) :
    Ap (delta (ep a) (eclon a) : Rd A) (delta (ep j) (eclon j)) 0.41 1e-10 := by
  have h1 := ep_ap h
  have h2 := eclon_ap h
  have h3 : Ap (Num.sin (ep a) * Num.sin (eclon a) : Rd A) (sin (ep j) * sin (eclon j)) 1 4.1e-11 := by apf
  have hb := delta_bound h.1
  refine ((Ap.arcsin h3 h3.1 (le_trans hb (by norm_num)) (by norm_num)).bnd hb).mono le_rfl (by norm_num)

theorem ra0_apm (h : Ap a j 117710 1e-9) :
    Apm (ra0 (ep a) (eclon a) : Rd A) (ratan2 (cos (ep j) * sin (eclon j)) (cos (eclon j))) (2 * π) 3.15 1e-10 := by
  have h1 := ep_ap h
  have h2 := eclon_ap h
  have h3 : Ap (Num.cos (ep a) * Num.sin (eclon a) : Rd A) (cos (ep j) * sin (eclon j)) 1 4.1e-11 := by apf
  have h4 : Ap (Num.cos (eclon a) : Rd A) (cos (eclon j)) 1 4.1e-11 := by apf
  have he := ep_bound h.1
  have hc := cos_ep_bound (e := ep j) ⟨by norm_num at he ⊢; linarith [he.1], by norm_num at he ⊢; linarith [he.2]⟩
  refine (Apm.atan2 0.91 h3 h4 ?_ (by norm_num) (by norm_num) (by norm_num)).mono ?_ ?_
  · obtain ⟨s, hs⟩ : ∃ s, s = sin (eclon j) := ⟨_, rfl⟩
    obtain ⟨q, hq⟩ : ∃ q, q = cos (eclon j) := ⟨_, rfl⟩
    have : s ^ 2 + q ^ 2 = 1 := by rw [hs, hq]; exact sin_sq_add_cos_sq _
    rw [← hs, ← hq, mul_pow]
    have hc2 : 0.91 ^ 2 ≤ cos (ep j) ^ 2 := by gcongr; exact hc.1
    have hc3 : cos (ep j) ^ 2 ≤ 1 := by rw [sq_le_one_iff_abs_le_one]; exact abs_cos_le_one _
    nlinarith [sq_nonneg s, sq_nonneg q]
  · have := pi_lt_d4; norm_num at *; linarith
  · norm_num

theorem TWOPI_ap : Ap (TWOPI : Rd A) (2 * π) 6.3 2e-14 := by
  have : Ap (TWOPI : Rd A) (TWOPI : ℝ) 6.3 2e-14 := by
    unfold TWOPI; apf
  rwa [TWOPI_real] at this

theorem whereLt_rd {x y : ℝ} {p q : Rd A} :
    Num.whereLt (Rd.fin x : Rd A) (Rd.fin y) p q = if x < y then p else q := by
  show (if XR.cmp (· < ·) (XR.fin x) (XR.fin y) = true then p else q) = _
  simp only [XR.cmp, decide_eq_true_eq]
theorem whereLe_rd {x y : ℝ} {p q : Rd A} :
    Num.whereLe (Rd.fin x : Rd A) (Rd.fin y) p q = if x ≤ y then p else q := by
  show (if XR.cmp (· ≤ ·) (XR.fin x) (XR.fin y) = true then p else q) = _
  simp only [XR.cmp, decide_eq_true_eq]

theorem lit0 : ∃ o : ℝ, (0.0 : Rd A) = Rd.fin o ∧ |o| ≤ 1e-30 := by
  obtain ⟨-, r, h, e⟩ := Ap.lit (R := A) (m := 00) (s := true) (e := 1) le_rfl (by norm_num)
  refine ⟨r, h, ?_⟩
  norm_num at e ⊢; exact e

/-- adding a turn -/
theorem addTurn {M ε : ℝ} (h : Apm a x (2 * π) M ε) (hb : M ≤ 100) :
    ∃ r, ∃ k : ℤ, (a + TWOPI : Rd A) = Rd.fin r ∧ |r - x - k * (2 * π)| ≤ ε + 2e-13 ∧
      (∀ s, a = Rd.fin s → |r - (s + 2 * π)| ≤ 2e-13) := by
  obtain ⟨r, k, rfl, m, e⟩ := h
  obtain ⟨mp, p, hp, ep⟩ := TWOPI_ap (A := A)
  have hpb := Ap.fin_bound mp ep
  have hK : |r + p| ≤ M + (6.3 + 2e-14) := (abs_add_le _ _).trans (by linarith)
  obtain ⟨q, hq, hq'⟩ := A.add_spec r p (hK.trans (by norm_num at *; linarith))
  have hK' : |r + p| ≤ 106.4 := by norm_num at *; linarith
  have h3 : |q - (r + 2 * π)| ≤ 2e-13 := by
    have h4 : |(r + p) - (r + 2 * π)| ≤ 2e-14 := by
      rw [show (r + p) - (r + 2 * π) = p - 2 * π by ring]; exact ep
    refine (Ap.step hK' hq' h4).trans (by norm_num)
  refine ⟨q, k + 1, ?_, ?_, ?_⟩
  · rw [hp]; exact hq
  · push_cast
    rw [show q - x - (k + 1) * (2 * π) = (q - (r + 2 * π)) + (r - x - k * (2 * π)) by ring]
    exact (abs_add_le _ _).trans (by linarith)
  · intro s hs
    rw [(Rd.fin_inj.1 hs).symm]; exact h3

theorem ra_apm (h : Ap a j 117710 1e-9) : ∃ r, ∃ k : ℤ, (ra (ep a) (eclon a) : Rd A) = Rd.fin r ∧
    -1e-12 ≤ r ∧ r ≤ 2 * π + 1e-12 ∧ |r - ra (ep j) (eclon j) - k * (2 * π)| ≤ 1.1e-10 := by
  have h0 := ra0_apm h
  obtain ⟨o, ho, ho'⟩ := lit0 (A := A)
  obtain ⟨q, k', h1, h2, h3⟩ := addTurn h0 (by norm_num)
  obtain ⟨r, k, h4, h5, h6⟩ := h0
  -- the raw angle is in [-π - 1e-14, π + 1e-14]
  have hraw : |r| ≤ π + 1e-14 := by
    have h1 := ep_ap h
    have h2 := eclon_ap h
    obtain ⟨m1, y', hy, e1⟩ : Ap (Num.cos (ep a) * Num.sin (eclon a) : Rd A) (cos (ep j) * sin (eclon j)) 1 4.1e-11 := by apf
    obtain ⟨m2, x', hx, e2⟩ : Ap (Num.cos (eclon a) : Rd A) (cos (eclon j)) 1 4.1e-11 := by apf
    have b1 := Ap.fin_bound m1 e1
    have b2 := Ap.fin_bound m2 e2
    obtain ⟨q, hq, hM, -⟩ := A.arctan2_spec y' x' (b1.trans (by norm_num)) (b2.trans (by norm_num))
    have : (ra0 (ep a) (eclon a) : Rd A) = Rd.fin q := by
      unfold ra0; rw [hy, hx]; exact hq
    rw [this] at h4
    rwa [← Rd.fin_inj.1 h4]
  have hr := abs_le.1 hraw
  have hexact : ∃ m : ℤ, ra (ep j) (eclon j) = ratan2 (cos (ep j) * sin (eclon j)) (cos (eclon j)) + m * (2 * π) := by
    rw [ra_real]
    split_ifs
    · exact ⟨1, by push_cast; ring⟩
    · exact ⟨0, by simp⟩
  obtain ⟨m, hm⟩ := hexact
  have hpi := pi_gt_d2
  have ho2 := abs_le.1 ho'
  have hw : (ra (ep a) (eclon a) : Rd A)
      = if r < o then (ra0 (ep a) (eclon a) + TWOPI) else (ra0 (ep a) (eclon a)) := by
    show Num.whereLt (ra0 (ep a) (eclon a) : Rd A) 0.0 _ _ = _
    rw [ho, ← whereLt_rd, h4]
  rw [hw]
  have hm' : ∀ w : ℝ, ∀ n : ℤ, w - ra (ep j) (eclon j) - ((n - m : ℤ) : ℝ) * (2 * π)
      = w - ratan2 (cos (ep j) * sin (eclon j)) (cos (eclon j)) - n * (2 * π) := by
    intro w n; rw [hm]; push_cast; ring
  split_ifs with hlt
  · have h7 := abs_le.1 (h3 r h4)
    refine ⟨q, k' - m, h1, ?_, ?_, ?_⟩
    · norm_num at *; linarith [h7.1]
    · norm_num at *; linarith [h7.2]
    · rw [hm']; norm_num at *; linarith
  · refine ⟨r, k - m, h4, ?_, ?_, ?_⟩
    · norm_num at *; linarith
    · norm_num at *; linarith
    · rw [hm']; norm_num at *; linarith

/-- the mean longitude reduced to a turn -/
theorem Lred_apm (h : Ap a x 2030 2.5e-11) : ∃ r, ∃ k : ℤ, (Lred a : Rd A) = Rd.fin r ∧
    -1e-10 ≤ r ∧ r ≤ 2 * π + 1e-10 ∧ |r - x - k * (2 * π)| ≤ 1e-10 := by
  obtain ⟨mx, l, rfl, el⟩ := h
  obtain ⟨o, ho, ho'⟩ := lit0 (A := A)
  have ho2 := abs_le.1 ho'
  have hl := Ap.fin_bound mx el
  have hl' : |l| ≤ 2031 := hl.trans (by norm_num)
  have hp3 := pi_gt_d2
  have hq : Ap (Num.absv (Rd.fin l : Rd A) / TWOPI : Rd A) (|l| / (2 * π)) 324 4e-12 := by
    have h1 : Ap (Num.absv (Rd.fin l : Rd A) : Rd A) |l| 2031 0 := (Ap.ofFin l hl').absv
    refine (Ap.div' 6.28 h1 TWOPI_ap ?_ (by norm_num) (by norm_num)).mono (by norm_num) (by norm_num)
    rw [abs_of_pos (by positivity)]; norm_num at *; linarith
  obtain ⟨mq, q, hq1, hq2⟩ := hq
  have hp0 : 0 < 2 * π := by positivity
  have hdiv : |l| / (2 * π) * (2 * π) = |l| := div_mul_cancel₀ _ hp0.ne'
  have hq3 := abs_le.1 hq2
  have hq0 : 0 ≤ |l| / (2 * π) := by positivity
  -- the number of turns
  obtain ⟨n, hn⟩ : ∃ n : ℤ, n = rtrunc q := ⟨_, rfl⟩
  have hdX : (dX (Rd.fin l : Rd A) : Rd A) = Rd.fin (n : ℝ) := by
    unfold dX; rw [hq1, hn]; rfl
  obtain ⟨w, hw⟩ : ∃ w, w = |l| / (2 * π) := ⟨_, rfl⟩
  rw [← hw] at hq3 hq0 hdiv mq
  have hn0 : (0 : ℝ) ≤ n ∧ (n : ℝ) ≤ w + 4e-12 ∧ w - 4e-12 ≤ n + 1 := by
    rw [hn]
    unfold rtrunc
    split_ifs with hs
    · have a1 := Int.floor_le q
      have a2 := Int.lt_floor_add_one q
      refine ⟨by exact_mod_cast Int.floor_nonneg.2 hs, ?_, ?_⟩ <;> linarith
    · have : ⌈q⌉ = 0 := by
        rw [Int.ceil_eq_zero_iff]
        push Not at hs
        constructor
        · norm_num at *; linarith
        · exact hs.le
      rw [this]; push_cast
      push Not at hs
      refine ⟨le_rfl, ?_, ?_⟩ <;> norm_num at * <;> linarith
  have hw324 : w ≤ 324 := (le_abs_self _).trans mq
  have hn1 : |(n : ℝ)| ≤ 325 := by rw [abs_of_nonneg hn0.1]; norm_num at *; linarith [hn0.2.1]
  have hAn : Ap (R := A) (Rd.fin (n : ℝ)) (n : ℝ) 325 0 := Ap.ofFin _ hn1
  have hAl : Ap (R := A) (Rd.fin l) l 2031 0 := Ap.ofFin _ hl'
  have hT := TWOPI_ap (A := A)
  have b1 : (n : ℝ) * (2 * π) ≤ |l| + 4e-11 := by
    have := mul_le_mul_of_nonneg_right hn0.2.1 hp0.le
    have hp4 := pi_lt_d2
    norm_num at *; nlinarith
  have b2 : |l| - 4e-11 ≤ (n : ℝ) * (2 * π) + 2 * π := by
    have := mul_le_mul_of_nonneg_right hn0.2.2 hp0.le
    have hp4 := pi_lt_d2
    norm_num at *; nlinarith
  have hLred : (Lred (Rd.fin l : Rd A) : Rd A) = Rd.fin l + TWOPI *
      (if l < o then (1.0 + Rd.fin (n : ℝ) : Rd A) else -(Rd.fin (n : ℝ) : Rd A)) := by
    show (Rd.fin l : Rd A) + TWOPI * Num.whereLt (Rd.fin l : Rd A) 0.0 (1.0 + dX (Rd.fin l : Rd A)) (-(dX (Rd.fin l : Rd A))) = _
    rw [hdX, ho, whereLt_rd]
  have el' := abs_le.1 el
  rw [hLred]
  split_ifs with hlt
  · have h1 : Ap (Rd.fin l + TWOPI * (1.0 + Rd.fin (n : ℝ)) : Rd A) (l + (2 * π) * (1.0 + (n : ℝ))) 4100 2e-11 := by
      apf
    obtain ⟨-, r, hr1, hr2⟩ := h1
    have hr3 := abs_le.1 hr2
    have hll : |l| ≤ -l + 3e-30 := by
      rcases le_total l 0 with h | h
      · rw [abs_of_nonpos h]; norm_num
      · rw [abs_of_nonneg h]; norm_num at *; linarith
    have hll2 : -l ≤ |l| := neg_le_abs l
    have e1 : (2 * π) * (1.0 + (n : ℝ)) = (n : ℝ) * (2 * π) + 2 * π := by norm_num; ring
    rw [e1] at hr2 hr3
    refine ⟨r, 1 + n, hr1, ?_, ?_, ?_⟩
    · norm_num at *; linarith [hr3.1]
    · norm_num at *; linarith [hr3.2]
    · push_cast
      rw [show r - x - (1 + n) * (2 * π) = (r - (l + ((n : ℝ) * (2 * π) + 2 * π))) + (l - x) by ring]
      refine (abs_add_le _ _).trans ?_
      norm_num at *; linarith
  · have h1 : Ap (Rd.fin l + TWOPI * (-(Rd.fin (n : ℝ))) : Rd A) (l + (2 * π) * (-(n : ℝ))) 4100 2e-11 := by
      apf
    obtain ⟨-, r, hr1, hr2⟩ := h1
    have hr3 := abs_le.1 hr2
    push Not at hlt
    have hll : |l| ≤ l + 3e-30 := by
      rcases le_total l 0 with h | h
      · rw [abs_of_nonpos h]; norm_num at *; linarith
      · rw [abs_of_nonneg h]; norm_num
    have hll2 : l ≤ |l| := le_abs_self l
    have e1 : (2 * π) * (-(n : ℝ)) = -((n : ℝ) * (2 * π)) := by ring
    rw [e1] at hr2 hr3
    refine ⟨r, -n, hr1, ?_, ?_, ?_⟩
    · norm_num at *; linarith [hr3.1]
    · norm_num at *; linarith [hr3.2]
    · push_cast
      rw [show r - x - (-n) * (2 * π) = (r - (l + -((n : ℝ) * (2 * π)))) + (l - x) by ring]
      refine (abs_add_le _ _).trans ?_
      norm_num at *; linarith

theorem lit20 : ∃ o : ℝ, (20.0 : Rd A) = Rd.fin o ∧ |o - 20| ≤ 1e-13 := by
  obtain ⟨-, r, h, e⟩ := Ap.lit (R := A) (m := 200) (s := true) (e := 1) le_rfl (by norm_num)
  refine ⟨r, h, ?_⟩
  norm_num at e ⊢; linarith
theorem litM20 : ∃ o : ℝ, (-20.0 : Rd A) = Rd.fin o ∧ |o + 20| ≤ 1e-13 := by
  obtain ⟨r, h, e⟩ := lit20 (A := A)
  refine ⟨-r, by rw [h]; rfl, ?_⟩
  rw [show -r + 20 = -(r - 20) by ring, abs_neg]; exact e

/-- removal of a whole turn from the equation of time -/
theorem eotWrap_rd {x s : ℝ} {k : ℤ} (hs : |s| ≤ 19.5) (hx : |x - s - k * 1440| ≤ 1e-7) (hr : |x| ≤ 1460) :
    ∃ r, (eot2 (eot1 (Rd.fin x : Rd A)) : Rd A) = Rd.fin r ∧ |r - s| ≤ 1.1e-7 := by
  obtain ⟨o, ho, ho'⟩ := lit20 (A := A)
  obtain ⟨o2, ho2, ho2'⟩ := litM20 (A := A)
  have ho' := abs_le.1 ho'
  have ho2' := abs_le.1 ho2'
  have hx' := abs_le.1 hx
  have hs' := abs_le.1 hs
  have hr' := abs_le.1 hr
  have hk : k = -1 ∨ k = 0 ∨ k = 1 := by
    have h1 : (k : ℝ) < 2 := by norm_num at *; linarith
    have h2 : (-2 : ℝ) < k := by norm_num at *; linarith
    have : k < 2 := by exact_mod_cast h1
    have : -2 < k := by exact_mod_cast h2
    omega
  have hA : Ap (Rd.fin x : Rd A) x 1460 0 := Ap.ofFin _ hr
  obtain ⟨-, p, hp, ep⟩ : Ap (Rd.fin x - 1440.0 : Rd A) (x - 1440.0) 2900 1e-11 := by apf
  have ep := abs_le.1 ep
  have e1 : (eot1 (Rd.fin x : Rd A) : Rd A) = Rd.fin (if o < x then p else x) := by
    show Num.whereLt (20.0 : Rd A) (Rd.fin x) (Rd.fin x - 1440.0) (Rd.fin x) = _
    rw [ho, whereLt_rd, hp]; split_ifs <;> rfl
  obtain ⟨y, hy⟩ : ∃ y, y = if o < x then p else x := ⟨_, rfl⟩
  rw [e1, ← hy]
  have hyb : |y| ≤ 3000 := by
    rw [hy]; split_ifs
    · rw [abs_le]; constructor <;> norm_num at * <;> linarith
    · exact hr.trans (by norm_num)
  have hB : Ap (Rd.fin y : Rd A) y 3000 0 := Ap.ofFin _ hyb
  obtain ⟨-, q, hq, eq⟩ : Ap (Rd.fin y + 1440.0 : Rd A) (y + 1440.0) 5000 1e-11 := by apf
  have eq := abs_le.1 eq
  have e2 : (eot2 (Rd.fin y : Rd A) : Rd A) = Rd.fin (if y < o2 then q else y) := by
    show Num.whereLt (Rd.fin y : Rd A) (-20.0) (Rd.fin y + 1440.0) (Rd.fin y) = _
    rw [ho2, whereLt_rd, hq]; split_ifs <;> rfl
  refine ⟨_, e2, ?_⟩
  clear e1 e2 hp hq hA hB ho ho2 hr hs hx
  rw [abs_le]
  rcases hk with rfl | rfl | rfl <;> push_cast at hx' <;> split_ifs at hy ⊢ <;> subst hy <;>
    constructor <;> norm_num at * <;> linarith

theorem RAD2DEG_ap : Ap (RAD2DEG : Rd A) (180 / π) 57.3 2e-13 := by
  unfold RAD2DEG
  have hp := pi_gt_d4
  refine (Ap.div 3.1415 57.3 (Ap.nat (n := 180)) Ap.pi ?_ (by norm_num) ?_ (by norm_num)).mono (by norm_num) (by norm_num)
  · rw [abs_of_pos pi_pos]; norm_num at *; linarith
  · rw [abs_of_pos (by positivity), div_le_iff₀ pi_pos]; norm_num at *; linarith

/-- the equation of time before the removal of turns -/
theorem eot0_rd {l r x y : ℝ} {k m : ℤ} (hl : -1e-10 ≤ l ∧ l ≤ 2 * π + 1e-10) (hr : -1e-12 ≤ r ∧ r ≤ 2 * π + 1e-12)
    (el : |l - x - k * (2 * π)| ≤ 1e-10) (er : |r - y - m * (2 * π)| ≤ 1.1e-10) {b : Rd A}
    (hb : b = 4.0 * degrees (Rd.fin l - Rd.fin r : Rd A) ∨ b = 4 * (Rd.fin l - Rd.fin r : Rd A) * RAD2DEG) :
    ∃ z, b = Rd.fin z ∧ |z| ≤ 1460 ∧ |z - 4 * ((x - y) * (180 / π)) - ((k - m : ℤ) : ℝ) * 1440| ≤ 6e-8 := by
  have hp := pi_gt_d2
  have hp' := pi_lt_d4
  have hl1 : |l| ≤ 6.3 := by rw [abs_le]; constructor <;> norm_num at * <;> linarith
  have hr1 : |r| ≤ 6.3 := by rw [abs_le]; constructor <;> norm_num at * <;> linarith
  have hA : Ap (Rd.fin l : Rd A) l 6.3 0 := Ap.ofFin _ hl1
  have hB : Ap (Rd.fin r : Rd A) r 6.3 0 := Ap.ofFin _ hr1
  have hR := RAD2DEG_ap (A := A)
  have key : Ap b (4 * ((l - r) * (180 / π))) 2900 1e-10 := by
    rcases hb with rfl | rfl
    · have : Ap (4.0 * ((Rd.fin l - Rd.fin r : Rd A) * RAD2DEG) : Rd A) (4.0 * ((l - r) * (180 / π))) 2900 1e-10 := by apf
      have e : (4.0 : ℝ) = 4 := by norm_num
      rw [e] at this
      exact this
    · have : Ap (4 * (Rd.fin l - Rd.fin r : Rd A) * RAD2DEG : Rd A) (4 * (l - r) * (180 / π)) 2900 1e-10 := by apf
      rwa [mul_assoc] at this
  obtain ⟨-, z, hz, ez⟩ := key
  have h180 : 0 < 180 / π ∧ 180 / π ≤ 57.4 := by
    refine ⟨by positivity, ?_⟩
    rw [div_le_iff₀ pi_pos]; norm_num at *; linarith
  obtain ⟨c, hc⟩ : ∃ c, c = 180 / π := ⟨_, rfl⟩
  have hcp : c * π = 180 := by rw [hc]; field_simp
  rw [← hc] at h180 ez ⊢
  have ez' := abs_le.1 ez
  refine ⟨z, hz, ?_, ?_⟩
  · have h1 : |l - r| ≤ 2 * π + 1.1e-10 := by
      rw [abs_le]; constructor <;> norm_num at * <;> linarith
    have h2 : |4 * ((l - r) * c)| ≤ 1459 := by
      rw [abs_mul, abs_mul, abs_of_pos h180.1, abs_of_pos (by norm_num : (0:ℝ) < 4)]
      have := mul_le_mul_of_nonneg_right h1 h180.1.le
      norm_num at *; nlinarith
    have := Ap.fin_bound h2 ez
    norm_num at *; linarith
  · have e : z - 4 * ((x - y) * c) - ((k - m : ℤ) : ℝ) * 1440
        = (z - 4 * ((l - r) * c)) + 4 * c * ((l - x - k * (2 * π)) - (r - y - m * (2 * π))) := by
      push_cast; linear_combination (8 * k - 8 * m) * hcp
    rw [e]
    refine (abs_add_le _ _).trans ?_
    have h1 : |(l - x - k * (2 * π)) - (r - y - m * (2 * π))| ≤ 2.1e-10 := by
      refine (abs_sub _ _).trans ?_; norm_num at *; linarith
    rw [abs_mul, abs_of_pos (by linarith [h180.1] : 0 < 4 * c)]
    have := mul_le_mul_of_nonneg_left h1 (by linarith [h180.1] : 0 ≤ 4 * c)
    norm_num at *; linarith

/-- the equation of time of both engines, against the exact one -/
theorem eot_rd (h : Ap a j 117710 1e-9) {b : Rd A}
    (hb : b = eot0Py (L a) (ra (ep a) (eclon a)) ∨ b = eot0Ne (L a) (ra (ep a) (eclon a))) :
    Ap (eot2 (eot1 b) : Rd A) (eot2 (eot1 (eot0Ne (L j) (ra (ep j) (eclon j))))) 19.5 1.1e-7 := by
  obtain ⟨l, k, hl, l1, l2, l3⟩ := Lred_apm (L_ap h)
  obtain ⟨r, m, hr, r1, r2, r3⟩ := ra_apm h
  have hb' : b = 4.0 * degrees (Rd.fin l - Rd.fin r : Rd A) ∨ b = 4 * (Rd.fin l - Rd.fin r : Rd A) * RAD2DEG := by
    rcases hb with rfl | rfl
    · left; unfold eot0Py; rw [hl, hr]
    · right; unfold eot0Ne; rw [hl, hr]
  obtain ⟨z, hz, z1, z2⟩ := eot0_rd ⟨l1, l2⟩ ⟨r1, r2⟩ l3 r3 hb'
  obtain ⟨s, n, s1, s2, s3⟩ := eot_spec h.1
  rw [hz, s3]
  have hp := pi_gt_d2
  have hc : 0 < 180 / π ∧ 180 / π ≤ 57.4 := by
    refine ⟨by positivity, ?_⟩
    rw [div_le_iff₀ pi_pos]; norm_num at *; linarith
  have hsb : |4 * (s * (180 / π))| ≤ 19.5 := by
    rw [abs_mul, abs_mul, abs_of_pos hc.1, abs_of_pos (by norm_num : (0:ℝ) < 4)]
    have := mul_le_mul s1 hc.2 hc.1.le (by norm_num)
    norm_num at *; linarith
  have hcp : 180 / π * π = 180 := by field_simp
  rw [s2] at z2
  obtain ⟨r, hr1, hr2⟩ := eotWrap_rd (A := A) (x := z) (s := 4 * (s * (180 / π))) (k := n + (k - m)) hsb (by
    have e : z - 4 * (s * (180 / π)) - ((n + (k - m) : ℤ) : ℝ) * 1440
        = z - 4 * ((s + n * (2 * π)) * (180 / π)) - ((k - m : ℤ) : ℝ) * 1440 := by
      push_cast; linear_combination (8 * n) * hcp
    rw [e]; exact z2.trans (by norm_num)) z1
  exact ⟨hsb, r, hr1, hr2⟩

end SW.Psa
