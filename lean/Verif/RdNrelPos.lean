/-
The position of the sun in nrel in rounded arithmetic: the observer and the topocentric coordinates.
-/
import Verif.RdNrelEq

namespace SW
open Real

/-- two angles within half a turn -/
theorem no_turn {r x T M ε K : ℝ} {k : ℤ} (m : |r| ≤ M) (e : |r - x - k * T| ≤ ε) (hx : |x| ≤ K) (hT : M + K + ε < T) :
    |r - x| ≤ ε := by
  have e0 := (abs_nonneg _).trans e
  have m0 := (abs_nonneg _).trans m
  have x0 := (abs_nonneg _).trans hx
  have hk : k = 0 := by
    by_contra hk
    have h1 : (1 : ℝ) ≤ |(k : ℝ)| := by exact_mod_cast Int.one_le_abs hk
    have h2 : |(k : ℝ) * T| ≤ M + K + ε := by
      have := abs_sub (r - x) (r - x - k * T)
      rw [show r - x - (r - x - k * T) = k * T by ring] at this
      have := abs_sub r x
      linarith
    rw [abs_mul, abs_of_pos (by linarith : 0 < T)] at h2
    nlinarith
  subst hk
  simpa using e

theorem Apm.ap {A : Arith} {a : Rd A} {x T M ε K : ℝ} (h : Apm a x T M ε) (hx : |x| ≤ K) (hT : M + K + ε < T) :
    Ap a x K ε := by
  obtain ⟨r, k, rfl, m, e⟩ := h
  exact ⟨hx, r, rfl, no_turn m e hx hT⟩

/-- the direction of `(1, r)` -/
theorem sin_arctan_sub {r x η : ℝ} (h : |r * cos x - sin x| ≤ η * (1 + |r|)) : |sin (arctan r - x)| ≤ 1.5 * η := by
  have hc := cos_arctan_pos r
  have hs : sin (arctan r) = r * cos (arctan r) := by
    have := tan_arctan r
    rw [tan_eq_sin_div_cos, div_eq_iff hc.ne'] at this; exact this
  have e : sin (arctan r - x) = (r * cos x - sin x) * cos (arctan r) := by rw [sin_sub, hs]; ring
  have hq : (1 + |r|) * cos (arctan r) ≤ 1.5 := by
    have h1 : |r| * cos (arctan r) = |sin (arctan r)| := by rw [hs, abs_mul, abs_of_pos hc]
    have h2 := sin_sq_add_cos_sq (arctan r)
    rw [add_mul, h1, one_mul]
    rw [← sq_abs (sin (arctan r))] at h2
    generalize |sin (arctan r)| = a at *
    generalize cos (arctan r) = b at *
    norm_num
    nlinarith [sq_nonneg (a - b), sq_nonneg (a + b)]
  have η0 : 0 ≤ η := by
    have := (abs_nonneg _).trans h
    have := abs_nonneg r
    by_contra hc
    push Not at hc
    nlinarith
  rw [e, abs_mul, abs_of_pos hc]
  calc |r * cos x - sin x| * cos (arctan r) ≤ η * (1 + |r|) * cos (arctan r) := by gcongr
    _ = η * ((1 + |r|) * cos (arctan r)) := by ring
    _ ≤ η * 1.5 := by gcongr
    _ = _ := by ring

theorem small_of_sin {z s : ℝ} (hz : |z| ≤ π / 2) (hs : |sin z| ≤ s) : |z| ≤ 1.58 * s := by
  have hp := pi_lt_d4
  have h0 := pi_pos
  have h1 : 2 / π * |z| ≤ sin |z| := mul_le_sin (abs_nonneg _) hz
  have h2 : sin |z| ≤ |sin z| := by
    rcases abs_cases z with ⟨e, -⟩ | ⟨e, -⟩ <;> rw [e]
    · exact le_abs_self _
    · rw [sin_neg]; exact neg_le_abs _
  have h3 : 2 / π * |z| ≤ s := by linarith
  have e : 2 / π * |z| = 2 * |z| / π := by ring
  rw [e, div_le_iff₀ h0] at h3
  have : s * π ≤ s * 3.1416 := by
    have : 0 ≤ s := (abs_nonneg _).trans hs
    gcongr
  have : 0 ≤ s := (abs_nonneg _).trans hs
  norm_num at *; linarith

/-- the inverse tangent of a computed tangent -/
theorem arctan_near {r x η : ℝ} (hx : |x| ≤ π / 2) (h : |r * cos x - sin x| ≤ η * (1 + |r|))
    (hp : (|x| ≤ π / 2 - 1.7e-12 ∧ η ≤ 1e-13) ∨ 0 ≤ r * x) : |arctan r - x| ≤ 2.4 * η := by
  have hs := sin_arctan_sub h
  have a1 := arctan_lt_pi_div_two r
  have a2 := neg_pi_div_two_lt_arctan r
  have bx := abs_le.1 hx
  have p0 := pi_gt_three
  have h0 : |arctan r - x| ≤ π / 2 := by
    rcases hp with ⟨hp, hη⟩ | hp
    · by_contra hc
      push Not at hc
      have hb := abs_le.1 hp
      have h1 : |arctan r - x| ≤ π - 1.7e-12 := by
        rw [abs_le]; constructor <;> linarith
      have h3 : 2 / π * (π - |arctan r - x|) ≤ sin (π - |arctan r - x|) := mul_le_sin (by linarith) (by linarith)
      rw [sin_pi_sub] at h3
      have h2 : sin |arctan r - x| ≤ |sin (arctan r - x)| := by
        rcases abs_cases (arctan r - x) with ⟨e, -⟩ | ⟨e, -⟩ <;> rw [e]
        · exact le_abs_self _
        · rw [sin_neg]; exact neg_le_abs _
      have h4 : 2 / π * 1.7e-12 ≤ 2 / π * (π - |arctan r - x|) := by gcongr; linarith
      have h5 : 2 / 3.15 * 1.7e-12 ≤ 2 / π * 1.7e-12 := by
        have := pi_lt_d2
        gcongr
      norm_num at *; linarith
    · rcases le_total 0 r with hr | hr
      · have : 0 ≤ arctan r := arctan_nonneg.2 hr
        rcases hr.eq_or_lt with rfl | hr
        · rw [arctan_zero, zero_sub, abs_neg]; exact hx
        · have : 0 ≤ x := by
            by_contra hc; push Not at hc; nlinarith
          rw [abs_le]; constructor <;> linarith
      · have : arctan r ≤ 0 := by
          have := arctan_nonneg.2 (neg_nonneg.2 hr); rw [arctan_neg] at this; linarith
        rcases hr.eq_or_lt with rfl | hr
        · rw [arctan_zero, zero_sub, abs_neg]; exact hx
        · have : x ≤ 0 := by
            by_contra hc; push Not at hc; nlinarith
          rw [abs_le]; constructor <;> linarith
  have := small_of_sin h0 hs
  have η0 : 0 ≤ η := by
    have := (abs_nonneg _).trans hs; linarith
  norm_num at *; linarith

theorem arctan_squash {r T r' k : ℝ} (hk0 : 0.99 ≤ k) (hk1 : k ≤ 1) (hr : |r' - k * r| ≤ 3e-15 * |r| + 1e-29)
    (hd : |arctan r - arctan T| ≤ 6e-14) : |arctan r' - arctan (k * T)| ≤ 7e-14 := by
  have hc := cos_arctan_pos r
  have hc' := cos_arctan_pos T
  have hs : sin (arctan r) = r * cos (arctan r) := by
    have := tan_arctan r
    rw [tan_eq_sin_div_cos, div_eq_iff hc.ne'] at this; exact this
  have hs' : sin (arctan T) = T * cos (arctan T) := by
    have := tan_arctan T
    rw [tan_eq_sin_div_cos, div_eq_iff hc'.ne'] at this; exact this
  have s1 : |sin (arctan r - arctan T)| ≤ 6e-14 := (Real.abs_sin_le_abs).trans hd
  have c1 : 0.999 ≤ cos (arctan r - arctan T) := by
    have := one_sub_sq_div_two_le_cos (x := arctan r - arctan T)
    have h2 : (arctan r - arctan T) ^ 2 ≤ (6e-14) ^ 2 := by
      rw [← sq_abs]; gcongr
    norm_num at *; linarith
  rw [sin_sub] at s1
  rw [cos_sub] at c1
  have k1 := cos_le_one (arctan r)
  have k2 := cos_le_one (arctan T)
  have k3 := abs_sin_le_one (arctan r)
  have k4 := abs_sin_le_one (arctan T)
  have hw : |(r' - k * r) * cos (arctan r)| ≤ 3.1e-15 := by
    rw [abs_mul, abs_of_pos hc]
    have h1 : |r| * cos (arctan r) ≤ 1 := by
      have : |sin (arctan r)| = |r| * cos (arctan r) := by rw [hs, abs_mul, abs_of_pos hc]
      rw [← this]; exact k3
    have : |r' - k * r| * cos (arctan r) ≤ (3e-15 * |r| + 1e-29) * cos (arctan r) := by gcongr
    norm_num at *; nlinarith
  have e1 : r' * cos (arctan r) = k * sin (arctan r) + (r' - k * r) * cos (arctan r) := by rw [hs]; ring
  generalize (r' - k * r) * cos (arctan r) = w at *
  generalize arctan r = θ at *
  generalize hτ : arctan T = τ at *
  -- numerator and denominator of the tangent of the difference
  have hn : |(r' - k * T) * (cos θ * cos τ)| ≤ 6.5e-14 := by
    have e2 : (r' - k * T) * (cos θ * cos τ) = k * (sin θ * cos τ - cos θ * sin τ) + w * cos τ := by
      rw [hs']; linear_combination cos τ * e1
    rw [e2]
    refine (abs_add_le _ _).trans ?_
    rw [abs_mul, abs_mul, abs_of_pos hc', abs_of_pos (by norm_num at hk0; linarith : 0 < k)]
    have a1 : k * |sin θ * cos τ - cos θ * sin τ| ≤ 1 * 6e-14 := by gcongr
    have a2 : |w| * cos τ ≤ 3.1e-15 * 1 := by gcongr
    norm_num at *; linarith
  have hden : 0.97 ≤ (1 + r' * (k * T)) * (cos θ * cos τ) := by
    have e2 : (1 + r' * (k * T)) * (cos θ * cos τ) = k ^ 2 * (cos θ * cos τ + sin θ * sin τ)
        + (1 - k ^ 2) * (cos θ * cos τ) + w * (k * sin τ) := by
      rw [hs']; linear_combination k * T * cos τ * e1
    have hw' : |w * (k * sin τ)| ≤ 3.1e-15 * (1 * 1) := by
      rw [abs_mul, abs_mul, abs_of_pos (by norm_num at hk0; linarith : 0 < k)]
      gcongr
    have hw' := (abs_le.1 hw').1
    have kk : (0.98 : ℝ) ≤ k ^ 2 := by norm_num at hk0 ⊢; nlinarith
    have kk1 : k ^ 2 ≤ 1 := by norm_num at hk0; nlinarith
    have a1 : 0.98 * 0.999 ≤ k ^ 2 * (cos θ * cos τ + sin θ * sin τ) := by gcongr
    have a2 : 0 ≤ (1 - k ^ 2) * (cos θ * cos τ) := by
      have : 0 < cos θ * cos τ := by positivity
      have : 0 ≤ 1 - k ^ 2 := by linarith
      positivity
    rw [e2]; norm_num at *; linarith
  have hcc : 0 < cos θ * cos τ := by positivity
  have hpos : 0 < 1 + r' * (k * T) := by
    by_contra h0
    push Not at h0
    have := mul_nonpos_of_nonpos_of_nonneg h0 hcc.le
    norm_num at hden; linarith
  have e3 : arctan r' - arctan (k * T) = arctan ((r' - k * T) / (1 + r' * (k * T))) := by
    have := arctan_add (x := r') (y := -(k * T)) (by linarith)
    rw [arctan_neg] at this
    rw [sub_eq_add_neg, this]; congr 1; ring
  rw [e3]
  refine (abs_arctan_le _).trans ?_
  rw [abs_div, abs_of_pos hpos, div_le_iff₀ hpos]
  rw [abs_mul, abs_of_pos hcc] at hn
  have h7 : |r' - k * T| * (cos θ * cos τ) ≤ (7e-14 * (1 + r' * (k * T))) * (cos θ * cos τ) := by
    norm_num at *; linarith
  exact le_of_mul_le_mul_right h7 hcc

namespace Nrel
variable {A : Arith}

/-- At the poles the tangent of the latitude is a large number of either sign, as far as the accuracy of
the arithmetic tells. Away from the poles, or if the computed tangent has the sign of the latitude, the
observer is where it should be. -/
def PoleOk (A : Arith) (y : ℝ) : Prop := |y| ≤ 90 - 1e-10 ∨
  ∃ r, (Num.tan (Rd.fin y * DEG2RAD : Rd A) : Rd A) = Rd.fin r ∧ 0 ≤ r * y

theorem latrad_ap {y : ℝ} (hy : |y| ≤ 90) : Ap (Rd.fin y * DEG2RAD : Rd A) (y * (π / 180)) 1.58 1.1e-14 :=
  ((Ap.ofFin y hy).mul DEG2RAD_ap (by norm_num)).mono (by norm_num) (by norm_num)

theorem rtan_dir (x : ℝ) : |rtan x * cos x - sin x| ≤ 1e-16 * (1 + |rtan x|) := by
  by_cases h : cos x = 0
  · rw [h]
    unfold rtan
    rw [if_pos h, mul_zero, zero_sub, abs_neg]
    have : |sin x| = 1 := by
      have := sin_sq_add_cos_sq x
      rw [h] at this
      rw [← sq_eq_sq₀ (abs_nonneg _) (by norm_num), sq_abs]; linarith
    rw [this]
    split_ifs <;> norm_num
  · rw [rtan_of_cos_ne h, div_mul_cancel₀ _ h]
    simp; positivity

theorem rtan_sign {x : ℝ} (hx : |x| ≤ π / 2) : 0 ≤ rtan x * x := by
  have hb := abs_le.1 hx
  have hc : 0 ≤ cos x := cos_nonneg_of_neg_pi_div_two_le_of_le hb.1 hb.2
  have hp := pi_pos
  have hs : 0 ≤ sin x * x := by
    rcases le_total 0 x with h | h
    · exact mul_nonneg (sin_nonneg_of_nonneg_of_le_pi h (by linarith)) h
    · exact mul_nonneg_of_nonpos_of_nonpos (sin_nonpos_of_nonpos_of_neg_pi_le h (by linarith)) h
  by_cases h : cos x = 0
  · unfold rtan
    rw [if_pos h]
    split_ifs with h1
    · have : 0 ≤ x := by
        by_contra hc; push Not at hc; nlinarith
      positivity
    · have : x ≤ 0 := by
        by_contra hc; push Not at hc
        have : 0 < sin x := sin_pos_of_pos_of_lt_pi hc (by linarith)
        exact h1 this
      nlinarith
  · rw [rtan_of_cos_ne h, div_mul_eq_mul_div]
    positivity

theorem uu_ap {y : ℝ} (hy : |y| ≤ 90) (hp : PoleOk A y) :
    Ap (uu (Rd.fin y * DEG2RAD : Rd A)) (uu (y * (π / 180))) 1.58 9e-14 := by
  obtain ⟨m, v, hv, ev⟩ := latrad_ap (A := A) hy
  have hpi := pi_pos
  obtain ⟨x, hx⟩ : ∃ x, x = y * (π / 180) := ⟨_, rfl⟩
  have hx2 : |x| ≤ π / 2 := by
    rw [hx, abs_mul, abs_of_pos (by positivity : 0 < π / 180)]
    have : |y| * (π / 180) ≤ 90 * (π / 180) := by gcongr
    linarith
  rw [← hx] at m ev ⊢
  obtain ⟨r, hr, rb, hq⟩ := A.tan_spec v ((Ap.fin_bound m ev).trans (by norm_num))
  have hr' : (Num.tan (Rd.fin y * DEG2RAD : Rd A) : Rd A) = Rd.fin r := by rw [hv]; exact hr
  -- the direction
  have hdir : |r * cos x - sin x| ≤ 2.2e-14 * (1 + |r|) := by
    have h1 := (Real.abs_cos_sub_cos_le x v)
    have h2 := (Real.abs_sin_sub_sin_le x v)
    rw [abs_sub_comm x v] at h1 h2
    have e : r * cos x - sin x = (r * cos v - sin v) + (r * (cos x - cos v) - (sin x - sin v)) := by ring
    rw [e]
    refine (abs_add_le _ _).trans ?_
    have h3 : |r * (cos x - cos v) - (sin x - sin v)| ≤ |r| * 1.1e-14 + 1.1e-14 := by
      refine (abs_sub _ _).trans ?_
      rw [abs_mul]
      have := h1.trans ev
      have := h2.trans ev
      gcongr
    norm_num at *; linarith [abs_nonneg r]
  have n1 : |arctan r - x| ≤ 2.4 * 2.2e-14 := by
    refine arctan_near hx2 hdir ?_
    rcases hp with hp | ⟨r₁, h1, h2⟩
    · left
      refine ⟨?_, by norm_num⟩
      rw [hx, abs_mul, abs_of_pos (by positivity : 0 < π / 180)]
      have : |y| * (π / 180) ≤ (90 - 1e-10) * (π / 180) := by gcongr
      have := pi_gt_d2
      norm_num at *; linarith
    · right
      obtain rfl : r = r₁ := by rw [hr'] at h1; exact Rd.fin_inj.1 h1
      rw [hx, ← mul_assoc]; positivity
  have n2 : |arctan (rtan x) - x| ≤ 2.4 * 1e-16 := arctan_near hx2 (rtan_dir x) (Or.inr (rtan_sign hx2))
  have n3 : |arctan r - arctan (rtan x)| ≤ 6e-14 := by
    have := abs_sub_le (arctan r) x (arctan (rtan x))
    rw [abs_sub_comm x] at this
    norm_num at *; linarith
  -- the product
  obtain ⟨-, k, hk, ek⟩ := Ap.lit (R := A) (m := 99664719) (s := true) (e := 8) le_rfl (by norm_num)
  have hk' : (0.99664719 : Rd A) = Rd.fin k := hk
  have ek' : |k - 0.99664719| ≤ 1e-15 := by refine ek.trans ?_; norm_num
  have hkb : |k| ≤ 1 := by
    have := abs_le.1 ek'
    rw [abs_le]; constructor <;> norm_num at * <;> linarith
  have hkr : |k * r| ≤ |r| := by
    rw [abs_mul]; exact mul_le_of_le_one_left (abs_nonneg _) hkb
  obtain ⟨q, hq1, hq2⟩ := A.mul_spec k r (hkr.trans (rb.trans (by norm_num)))
  have hqk : |q - 0.99664719 * r| ≤ 3e-15 * |r| + 1e-29 := by
    have e : q - 0.99664719 * r = (q - k * r) + (k - 0.99664719) * r := by ring
    rw [e]
    refine (abs_add_le _ _).trans ?_
    rw [abs_mul]
    have : |k - 0.99664719| * |r| ≤ 1e-15 * |r| := by gcongr
    norm_num at *; linarith [abs_nonneg r]
  have n4 := arctan_squash (by norm_num) (by norm_num) hqk n3
  have hqb : |q| ≤ 1e30 := by
    have h1 : |0.99664719 * r| ≤ 1e20 := by
      rw [abs_mul, abs_of_pos (by norm_num)]; norm_num at *; linarith [abs_nonneg r]
    have := Ap.fin_bound h1 hqk
    norm_num at *; linarith
  obtain ⟨w, hw, ew⟩ := A.arctan_spec q hqb
  refine ⟨?_, w, ?_, ?_⟩
  · have a1 := arctan_lt_pi_div_two (0.99664719 * rtan x)
    have a2 := neg_pi_div_two_lt_arctan (0.99664719 * rtan x)
    have := pi_lt_d2
    show |arctan (0.99664719 * rtan x)| ≤ _
    rw [abs_le]; constructor <;> norm_num at * <;> linarith
  · unfold uu
    rw [hr', hk']
    have : (Rd.fin k * Rd.fin r : Rd A) = Rd.fin q := hq1
    rw [this]; exact hw
  · show |w - arctan (0.99664719 * rtan x)| ≤ _
    have := abs_sub_le w (arctan q) (arctan (0.99664719 * rtan x))
    norm_num at *; linarith

/-- `ELEVATION / 6378140` -/
theorem zeroElev_ap : Ap (0.0 / 6378140.0 : Rd A) (0.0 / 6378140.0) 0 3e-30 := by
  have h1 : Ap (0.0 : Rd A) (0.0 : ℝ) 0 1e-30 := (Ap.lit le_rfl (by norm_num)).fit (by norm_num) (by norm_num) (by norm_num)
  have h2 : Ap (6378140.0 : Rd A) (6378140.0 : ℝ) 6378140 1e-8 := (Ap.lit le_rfl (by norm_num)).fit (by norm_num) (by norm_num) (by norm_num)
  refine (Ap.div 6378140 0 h1 h2 ?_ ?_ ?_ ?_).mono le_rfl ?_ <;> norm_num

theorem px_ap {y : ℝ} (hy : |y| ≤ 90) (hp : PoleOk A y) :
    Ap (px (uu (Rd.fin y * DEG2RAD : Rd A)) (Rd.fin y * DEG2RAD)) (cos (uu (y * (π / 180)))) 1 1.1e-13 := by
  rw [← px_real (uu (y * (π / 180))) (y * (π / 180))]
  have h1 := uu_ap hy hp
  have h2 := latrad_ap (A := A) hy
  have h3 := zeroElev_ap (A := A)
  have h4 : Ap (px (uu (Rd.fin y * DEG2RAD : Rd A)) (Rd.fin y * DEG2RAD)) (px (uu (y * (π / 180))) (y * (π / 180))) 1.1 1.1e-13 := by
    unfold px
    generalize uu (Rd.fin y * DEG2RAD : Rd A) = a at *
    generalize (Rd.fin y * DEG2RAD : Rd A) = b at *
    generalize uu (y * (π / 180)) = a' at *
    generalize (y * (π / 180)) = b' at *
    exact ((h1.cos (by norm_num)).add (h3.mul (h2.cos (by norm_num)) (by norm_num)) (by norm_num)).mono (by norm_num) (by norm_num)
  refine h4.bnd ?_
  rw [px_real]; exact abs_cos_le_one _

theorem py_ap {y : ℝ} (hy : |y| ≤ 90) (hp : PoleOk A y) :
    Ap (py (uu (Rd.fin y * DEG2RAD : Rd A)) (Rd.fin y * DEG2RAD)) (0.99664719 * sin (uu (y * (π / 180)))) 1 1.1e-13 := by
  rw [← py_real (uu (y * (π / 180))) (y * (π / 180))]
  have h1 := uu_ap hy hp
  have h2 := latrad_ap (A := A) hy
  have h3 := zeroElev_ap (A := A)
  have hl : Ap (0.99664719 : Rd A) (0.99664719 : ℝ) 0.99664719 1e-15 := (Ap.lit le_rfl (by norm_num)).fit (by norm_num) (by norm_num) (by norm_num)
  have h4 : Ap (py (uu (Rd.fin y * DEG2RAD : Rd A)) (Rd.fin y * DEG2RAD)) (py (uu (y * (π / 180))) (y * (π / 180))) 1 1.1e-13 := by
    unfold py
    generalize uu (Rd.fin y * DEG2RAD : Rd A) = a at *
    generalize (Rd.fin y * DEG2RAD : Rd A) = b at *
    generalize uu (y * (π / 180)) = a' at *
    generalize (y * (π / 180)) = b' at *
    exact ((hl.mul (h1.sin (by norm_num)) (by norm_num)).add (h3.mul (h2.sin (by norm_num)) (by norm_num)) (by norm_num)).mono (by norm_num) (by norm_num)
  exact h4

/-! ### hour angle and parallax -/

theorem hourAngle_apm {t : ℤ} (ht : InSec t) {x : ℝ} (hx : |x| ≤ 180) :
    Apm (hourAngle (time (Scalar.ofInt t : Rd A)).v (Rd.fin x) (time (Scalar.ofInt t : Rd A)).alpha)
      (H0 t + x * (π / 180)) (2 * π) 6.4 4.6e-8 := by
  have h1 := ((v_apm (A := A) ht).add (Ap.ofFin x hx) (by norm_num)).sub (time_alpha_apm ht) (by norm_num)
  have h2 := ((h1.cmod' nat360 (by norm_num) (by norm_num) (by norm_num)).mul DEG2RAD_ap (by norm_num)).period
    (T' := 2 * π) (by ring)
  refine (h2.congr (x' := H0 t + x * (π / 180)) ?_).mono ?_ ?_
  · unfold H0; ring
  · norm_num
  · norm_num

theorem xi_ap {a : Rd A} {x : ℝ} (h : Ap a x 1.018 7.2e-11) (hx : 0.982 ≤ x) : Ap (xi a) (xi x) 4.4e-5 5e-15 := by
  have h1 : Ap (3600 * a : Rd A) (3600 * x) 3665 2.7e-7 := by apf
  have h2 : Ap (8.794 : Rd A) (8.794 : ℝ) 8.794 9e-15 := (Ap.lit le_rfl (by norm_num)).fit (by norm_num) (by norm_num) (by norm_num)
  have h3 : Ap (8.794 / (3600 * a) : Rd A) (8.794 / (3600 * x)) 0.00249 2e-13 := by
    refine (Ap.div 3535 0.00249 h2 h1 ?_ ?_ ?_ ?_).mono le_rfl ?_
    · rw [abs_of_pos] <;> norm_num at * <;> linarith
    · norm_num
    · have : 0 < 3600 * x := by norm_num at *; linarith
      rw [abs_of_pos (by positivity), div_le_iff₀ this]; norm_num at *; linarith
    · norm_num
    · norm_num
  exact ((h3.mul DEG2RAD_ap (by norm_num)).mono (by norm_num) (by norm_num) : Ap (xi a) (xi x) 4.4e-5 5e-15)

end Nrel
end SW
