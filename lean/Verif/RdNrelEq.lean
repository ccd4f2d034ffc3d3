/-
Apparent longitude, right ascension, declination, sidereal time and equation of time of nrel in rounded
arithmetic.
-/
import Verif.RdNrelSun

namespace SW.Nrel
open Real
variable {A : Arith}

theorem nat360 : (360 : Rd A) = Rd.fin 360 := rfl

/-- numexpr's `%` by a literal that need not be exact -/
theorem cmod_lit {a b : Rd A} {x y M ε : ℝ} (h1 : Ap a x M ε) (h2 : b = Rd.fin y) (hM : M ≤ 1e8) (hε : ε ≤ 1)
    (hy : |y - 360| ≤ 4e-13) : Apm (Num.cmod a b : Rd A) x 360 361 (ε + 1.5e-7) := by
  obtain ⟨m, r, rfl, e⟩ := h1
  have hy' := abs_le.1 hy
  have hyl : 359 ≤ y := by norm_num at hy'; linarith [hy'.1]
  have hyu : y ≤ 360.5 := by norm_num at hy' ⊢; linarith [hy'.2]
  have hr := Ap.fin_bound m e
  have hr' : |r| ≤ 100000001 := by norm_num at *; linarith
  obtain ⟨q, hq, q1, k, hk⟩ := A.cmod_spec r y (hr'.trans (by norm_num)) (by linarith) (hyu.trans (by norm_num))
  have q2 : |q| ≤ 361 := by norm_num at *; linarith
  have hkb : |(k : ℝ)| ≤ 280000 := by
    have h3 : |(k : ℝ) * y| ≤ 100000400 := by
      have h4 : (k : ℝ) * y = (q - (r - k * y)) - q + r := by ring
      rw [h4]
      have := abs_add_le (q - (r - k * y) - q) r
      have := abs_sub (q - (r - k * y)) q
      norm_num at *; linarith
    rw [abs_mul, abs_of_nonneg (by linarith : 0 ≤ y)] at h3
    have h0 := abs_nonneg (k : ℝ)
    nlinarith
  refine ⟨q, -k, by rw [h2]; exact hq, q2, ?_⟩
  push_cast
  rw [show q - x - -k * 360 = (q - (r - k * y)) + (r - x) + -(k * (y - 360)) by ring]
  have h5 : |(k : ℝ) * (y - 360)| ≤ 280000 * 4e-13 := by rw [abs_mul]; gcongr
  have := abs_add_le ((q - (r - k * y)) + (r - x)) (-(k * (y - 360)))
  rw [abs_neg] at this
  have := abs_add_le (q - (r - k * y)) (r - x)
  norm_num at *; linarith

/-- removal of a whole turn from the equation of time -/
theorem eotWrap_rd {x s : ℝ} {k : ℤ} (hs : |s| ≤ 19.5) (hx : |x - s - k * 1440| ≤ 1e-6) (hr : |x| ≤ 1460) :
    ∃ r, (eot2 (eot1 (Rd.fin x : Rd A)) : Rd A) = Rd.fin r ∧ |r - s| ≤ 1.1e-6 := by
  obtain ⟨o, ho, ho'⟩ := Psa.lit20 (A := A)
  obtain ⟨o2, ho2, ho2'⟩ := Psa.litM20 (A := A)
  have ho' := abs_le.1 ho'
  have ho2' := abs_le.1 ho2'
  have hx' := abs_le.1 hx
  have hs' := abs_le.1 hs
  have hr' := abs_le.1 hr
  have hk : k = -1 ∨ k = 0 ∨ k = 1 := by
    have h1 : (k : ℝ) < 2 := by norm_num at *; linarith
    have h2 : (-2 : ℝ) < k := by norm_num at *; linarith
    have : k < 2 := by exact_mod_cast h1
    have : -2 < k := by exact_mod_cast h2
    omega
  have hA : Ap (Rd.fin x : Rd A) x 1460 0 := Ap.ofFin _ hr
  obtain ⟨-, p, hp, ep⟩ : Ap (Rd.fin x + 1440 : Rd A) (x + 1440) 2900 1e-11 := by apf
  have ep := abs_le.1 ep
  have e1 : (eot1 (Rd.fin x : Rd A) : Rd A) = Rd.fin (if x < o2 then p else x) := by
    show Num.whereLt (Rd.fin x : Rd A) (-20.0) (Rd.fin x + 1440) (Rd.fin x) = _
    rw [ho2, Psa.whereLt_rd, hp]; split_ifs <;> rfl
  obtain ⟨y, hy⟩ : ∃ y, y = if x < o2 then p else x := ⟨_, rfl⟩
  rw [e1, ← hy]
  have hyb : |y| ≤ 3000 := by
    rw [hy]; split_ifs
    · rw [abs_le]; constructor <;> norm_num at * <;> linarith
    · exact hr.trans (by norm_num)
  have hB : Ap (Rd.fin y : Rd A) y 3000 0 := Ap.ofFin _ hyb
  obtain ⟨-, q, hq, eq⟩ : Ap (Rd.fin y - 1440 : Rd A) (y - 1440) 5000 1e-11 := by apf
  have eq := abs_le.1 eq
  have e2 : (eot2 (Rd.fin y : Rd A) : Rd A) = Rd.fin (if o < y then q else y) := by
    show Num.whereLt (20.0 : Rd A) (Rd.fin y) (Rd.fin y - 1440) (Rd.fin y) = _
    rw [ho, Psa.whereLt_rd, hq]; split_ifs <;> rfl
  refine ⟨_, e2, ?_⟩
  clear e1 e2 hp hq hA hB ho ho2 hr hs hx
  rw [abs_le]
  rcases hk with rfl | rfl | rfl <;> push_cast at hx' <;> split_ifs at hy ⊢ <;> subst hy <;>
    constructor <;> norm_num at * <;> linarith

section
variable {a b : Rd A} {c m : ℝ} (hm : Ap b m 0.323 2.3e-14) (h : Ap a c 3.23 2.23e-13)
include hm

theorem theta_apm : Apm (theta b) (Lraw m + 180) 360 361 3.2e-8 := by
  have h1 : Apm (L b) (Lraw m) 360 361 3.1e-8 := by
    unfold L
    exact (Apm.cmod (Lraw_ap hm) nat360 (by norm_num) (by norm_num) (by norm_num)).mono (by norm_num) (by norm_num)
  have h180 : Ap (180.0 : Rd A) 180 180 2e-13 := (Ap.lit le_rfl (by norm_num)).fit (by norm_num) (by norm_num) (by norm_num)
  have h2 : Apm (L b + 180.0 : Rd A) (Lraw m + 180) 360 542 3.11e-8 :=
    (h1.add h180 (by norm_num)).mono (by norm_num) (by norm_num)
  unfold theta
  exact (h2.cmod' nat360 (by norm_num) (by norm_num) (by norm_num)).mono (by norm_num) (by norm_num)

theorem deltaTau_ap : Ap (deltaTau (R b)) (deltaTau (R m)) 0.006 1e-12 := by
  have hR := R_bound hm.1
  have h1 := R_ap hm
  have h2 : Ap (3600.0 * R b : Rd A) (3600.0 * R m) 3700 3e-7 := by apf
  have h3 : Ap (-20.4898 : Rd A) (-20.4898) 20.4898 3e-14 := by apf
  have hd := deltaTau_bound hR.1 hR.2
  refine Ap.bnd (M := 0.0059) ?_ (by rw [abs_le] at hd ⊢; norm_num at *; constructor <;> linarith [hd.1, hd.2])
  unfold deltaTau
  refine (Ap.div' 3535 h3 h2 ?_ ?_ ?_).mono ?_ ?_
  · rw [abs_of_nonneg (by norm_num at *; linarith)]; norm_num at *; linarith
  all_goals norm_num

include h

theorem lam_apm : Apm (lamd (theta b) (deltaPsi b a) (deltaTau (R b))) (lamAt m c) (2 * π) 7 5.7e-10 := by
  have hp := pi_pos
  have h1 := theta_apm hm
  have h2 := deltaPsi_ap hm h
  have h3 := deltaTau_ap hm
  have hD := DEG2RAD_ap (A := A)
  have h4 := ((h1.add h2 (by norm_num)).add h3 (by norm_num)).mul hD (by norm_num)
  obtain ⟨k, hk⟩ := lamAt_turn m c
  refine ((h4.period (T' := 2 * π) (by field_simp; norm_num)).turn k hk).mono ?_ ?_ <;> norm_num

theorem alphaArg_ap : Ap (Num.sin (lamd (theta b) (deltaPsi b a) (deltaTau (R b))) * Num.cos (epsilon (epsilon0 b) (deltaEps b a))
      - Num.tan (beta b) * Num.sin (epsilon (epsilon0 b) (deltaEps b a)) : Rd A)
    (sin (lamAt m c) * cos (epsAt m c) - rtan (beta m) * sin (epsAt m c)) 1.5 5.8e-10 := by
  have h1 := (lam_apm hm h).sin (by norm_num)
  have h2 := eps_ap hm h
  have h3 := (beta_ap hm).tan' (by norm_num) (by norm_num)
  have hc : cos (beta m) ≠ 0 := by
    have := one_sub_sq_div_two_le_cos (x := beta m)
    have h4 : (beta m) ^ 2 ≤ 6e-6 ^ 2 := by rw [← sq_abs]; exact pow_le_pow_left₀ (abs_nonneg _) (beta_bound hm.1) 2
    intro h0; rw [h0] at this; norm_num at *; linarith
  rw [rtan_of_cos_ne hc, ← tan_eq_sin_div_cos]
  apf

theorem alpha_apm : Apm (alpha (lamd (theta b) (deltaPsi b a) (deltaTau (R b))) (epsilon (epsilon0 b) (deltaEps b a)) (beta b))
    (alpha (lamAt m c) (epsAt m c) (beta m)) 360 361 7.5e-8 := by
  have h1 := alphaArg_ap hm h
  have h2 := ((lam_apm hm h).cos (by norm_num)).mono (M' := 1) (ε' := 5.8e-10) le_rfl (by norm_num)
  have he := epsAt_bound hm.1 c
  have hc := Psa.cos_ep_bound (e := epsAt m c) ⟨by norm_num at *; linarith, by norm_num at *; linarith⟩
  have ht := tan_beta_bound (e := epsAt m c) (beta_bound hm.1)
  have hlow : (0.9 : ℝ) ^ 2 ≤ cos (lamAt m c) ^ 2 + (sin (lamAt m c) * cos (epsAt m c) - rtan (beta m) * sin (epsAt m c)) ^ 2 := by
    generalize rtan (beta m) * sin (epsAt m c) = τ at *
    have hs := sin_sq_add_cos_sq (lamAt m c)
    have hsl := abs_le.1 (abs_sin_le_one (lamAt m c))
    generalize cos (epsAt m c) = e at *
    generalize sin (lamAt m c) = s at *
    generalize cos (lamAt m c) = k at *
    have hse : |s * e * τ| ≤ 1e-5 := by
      rw [abs_mul]
      have : |s * e| ≤ 1 := by rw [abs_le]; constructor <;> nlinarith
      calc |s * e| * |τ| ≤ 1 * 1e-5 := by gcongr
        _ = _ := by norm_num
    have hse := abs_le.1 hse
    have he2 : (0.828 : ℝ) ≤ e ^ 2 := by
      have := pow_le_pow_left₀ (by norm_num : (0 : ℝ) ≤ 0.91) hc.1 2
      norm_num at this ⊢; linarith
    have hk : k ^ 2 = 1 - s ^ 2 := by linarith
    have hs1 : s ^ 2 ≤ 1 := by nlinarith
    have : (s * e - τ) ^ 2 = s ^ 2 * e ^ 2 - 2 * (s * e * τ) + τ ^ 2 := by ring
    rw [this, hk]
    have h3 : s ^ 2 * 0.828 ≤ s ^ 2 * e ^ 2 := by gcongr
    have h4 := sq_nonneg τ
    have h5 := sq_nonneg s
    norm_num at hse h3 ⊢
    linarith [hse.2]
  have h3 := Apm.atan2 0.9 h1 h2 hlow (by norm_num) (by norm_num) (by norm_num)
  have hp := pi_pos
  have hp2 := pi_lt_d4
  have h4 := ((h3.mono (M' := 3.15) (ε' := 1.3e-9) (by norm_num at *; linarith) (by norm_num)).mul Psa.RAD2DEG_ap (by norm_num)).period
    (T' := 360) (by field_simp; norm_num)
  have h5 := h4.cmod' nat360 (by norm_num) (by norm_num) (by norm_num)
  obtain ⟨k, hk⟩ := rcmod_eq (ratan2 (sin (lamAt m c) * cos (epsAt m c) - rtan (beta m) * sin (epsAt m c)) (cos (lamAt m c)) * (180 / π)) 360
  rw [alpha_real]
  unfold alpha
  refine (h5.turn (-k) ?_).mono ?_ ?_
  · rw [hk]; push_cast; ring
  · norm_num
  · norm_num

theorem delta_ap : Ap (delta (beta b) (epsilon (epsilon0 b) (deltaEps b a)) (lamd (theta b) (deltaPsi b a) (deltaTau (R b))))
    (delta (beta m) (epsAt m c) (lamAt m c)) 0.4153 6.4e-10 := by
  have h1 := (lam_apm hm h).sin (by norm_num)
  have h2 := eps_ap hm h
  have h3 := beta_ap hm
  have h4 : Ap (Num.sin (beta b) * Num.cos (epsilon (epsilon0 b) (deltaEps b a)) + Num.cos (beta b) * Num.sin (epsilon (epsilon0 b) (deltaEps b a))
      * Num.sin (lamd (theta b) (deltaPsi b a) (deltaTau (R b))) : Rd A)
    (sin (beta m) * cos (epsAt m c) + cos (beta m) * sin (epsAt m c) * sin (lamAt m c)) 2 5.8e-10 := by apf
  have hd := delta_bound (l := lamAt m c) (beta_bound hm.1) (epsAt_bound hm.1 c)
  exact (h4.arcsin' (delta_arg _ _ _) hd (by norm_num)).mono le_rfl (by norm_num)

/-- the correction of the sidereal time -/
theorem eqeq_ap : Ap (deltaPsi b a * Num.cos (epsilon (epsilon0 b) (deltaEps b a)) : Rd A) (deltaPsi m c * cos (epsAt m c)) 0.006 1.4e-10 := by
  have h1 := deltaPsi_ap hm h
  have h2 := eps_ap hm h
  apf

omit h in
theorem meanLon_ap : Ap (meanLon b) (meanLon m) 116600 1.1e-8 := by
  have p2 := p2_ap hm
  have p3 : Ap (Num.npow b 3 / 49931 : Rd A) (m ^ 3 / 49931) 1e-6 1e-17 := by
    refine (Ap.div' 49931 (p3_ap hm) (Ap.nat (n := 49931)) ?_ ?_ ?_).mono ?_ ?_ <;> norm_num
  have p4 : Ap (Num.npow b 4 / 15300 : Rd A) (m ^ 4 / 15300) 1e-6 1e-17 := by
    refine (Ap.div' 15300 (p4_ap hm) (Ap.nat (n := 15300)) ?_ ?_ ?_).mono ?_ ?_ <;> norm_num
  have p5 : Ap (Num.npow b 5 / 2000000 : Rd A) (m ^ 5 / 2000000) 1e-6 1e-17 := by
    refine (Ap.div' 2000000 (p5_ap hm) (Ap.nat (n := 2000000)) ?_ ?_ ?_).mono ?_ ?_ <;> norm_num
  unfold meanLon; apf

theorem eot_ap : Ap (eot2 (eot1 (eot0 (meanLon b) (alpha (lamd (theta b) (deltaPsi b a) (deltaTau (R b)))
      (epsilon (epsilon0 b) (deltaEps b a)) (beta b)) (deltaPsi b a) (epsilon (epsilon0 b) (deltaEps b a)))))
    (eot2 (eot1 (eot0 (meanLon m) (alpha (lamAt m c) (epsAt m c) (beta m)) (deltaPsi m c) (epsAt m c)))) 19.5 1.1e-6 := by
  have h1 := meanLon_ap hm
  have h2 : Ap (meanLon b - 0.0057183 : Rd A) (meanLon m - 0.0057183) 116601 1.2e-8 := by apf
  have h3 := ((Apm.of_ap h2 360).sub (alpha_apm hm h) (by norm_num)).add (eqeq_ap hm h) (by norm_num)
  have h4 := h3.cmod' nat360 (by norm_num) (by norm_num) (by norm_num)
  have h5 := (h4.mul (Ap.nat (n := 4)) (by norm_num)).mono (M' := 1460) (ε' := 9e-7) (by norm_num) (by norm_num)
  obtain ⟨r, k, hr, hrb, her⟩ := h5
  obtain ⟨s, n, s1, s2, s3⟩ := eot_spec' hm.1 c
  obtain ⟨q, hq, hqs⟩ := eotWrap_rd (A := A) (x := r) (s := s * 4) (k := k + n) s1 (by
    rw [s2] at her
    have e : r - s * 4 - ((k + n : ℤ) : ℝ) * 1440 = r - (s + 360 * n) * OfNat.ofNat 4 - k * (360 * OfNat.ofNat 4) := by
      push_cast; ring
    rw [e]; exact her.trans (by norm_num)) hrb
  rw [s3]
  refine ⟨s1, q, ?_, hqs⟩
  rw [← hq]
  congr 2
end

/-! ### the outputs that depend on time only -/

variable {t : ℤ}

theorem v_apm (ht : InSec t) : Apm (time (Scalar.ofInt t : Rd A)).v (time (t : ℝ)).v 360 362 2.5e-6 := by
  have hm := mOf_ap (A := A) ht
  have hc := cOf_ap (A := A) ht
  have hj := jd_ap (A := A) ht
  have hc' := jc_ap (A := A) ht
  have hb := abs_le.1 ht.real
  have h2 : Ap (jd (Scalar.ofInt t : Rd A) - 2451545 : Rd A) (jd (t : ℝ) - 2451545) 117976 5.5e-9 := by
    refine (Ap.sub' 117976 hj (Ap.nat (n := 2451545)) ?_ ?_).mono le_rfl ?_
    · show |(t : ℝ) / 86400 + 2440587.5 - 2451545| ≤ _
      rw [abs_le]; norm_num; constructor <;> linarith [hb.1, hb.2]
    · norm_num
    · norm_num
  have p2 : Ap (Num.npow (jc (jd (Scalar.ofInt t : Rd A))) 2 : Rd A) (jc (jd (t : ℝ)) ^ 2) 10.5 2e-12 := by
    refine (Ap.npow 2 hc' (by norm_num) (by norm_num)).mono ?_ ?_ <;> norm_num
  have p3 : Ap (Num.npow (jc (jd (Scalar.ofInt t : Rd A))) 3 : Rd A) (jc (jd (t : ℝ)) ^ 3) 35 1e-11 := by
    refine (Ap.npow 3 hc' (by norm_num) (by norm_num)).mono ?_ ?_ <;> norm_num
  have p3' : Ap (Num.npow (jc (jd (Scalar.ofInt t : Rd A))) 3 / 38710000 : Rd A) (jc (jd (t : ℝ)) ^ 3 / 38710000) 1e-6 1e-18 := by
    refine (Ap.div' 38710000 p3 (Ap.nat (n := 38710000)) ?_ ?_ ?_).mono ?_ ?_ <;> norm_num
  have h3 : Ap (280.46061837 + 360.98564736629 * (jd (Scalar.ofInt t) - 2451545) + 0.000387933 * Num.npow (jc (jd (Scalar.ofInt t))) 2
    - Num.npow (jc (jd (Scalar.ofInt t))) 3 / 38710000 : Rd A)
    (280.46061837 + 360.98564736629 * (jd (t : ℝ) - 2451545) + 0.000387933 * jc (jd (t : ℝ)) ^ 2
    - jc (jd (t : ℝ)) ^ 3 / 38710000) 43000000 2.3e-6 := by apf
  obtain ⟨-, o, ho, ho'⟩ : Ap (360.0 : Rd A) 360 360 4e-13 := (Ap.lit le_rfl (by norm_num)).fit (by norm_num) (by norm_num) (by norm_num)
  have h4 := cmod_lit h3 ho (by norm_num) (by norm_num) ho'
  have h5 := h4.add (eqeq_ap hm hc) (by norm_num)
  obtain ⟨k, hk⟩ := rcmod_eq (280.46061837 + 360.98564736629 * (jd (t : ℝ) - 2451545) + 0.000387933 * jc (jd (t : ℝ)) ^ 2
    - jc (jd (t : ℝ)) ^ 3 / 38710000) 360
  refine (h5.turn (-k) ?_).mono ?_ ?_
  · have e : (time (t : ℝ)).v = rcmod (280.46061837 + 360.98564736629 * (jd (t : ℝ) - 2451545) + 0.000387933 * jc (jd (t : ℝ)) ^ 2
      - jc (jd (t : ℝ)) ^ 3 / 38710000) 360.0 + deltaPsi (mOf t) (cOf t) * cos (epsAt (mOf t) (cOf t)) := rfl
    rw [e, show (360.0 : ℝ) = 360 by norm_num, hk]; push_cast; ring
  · norm_num
  · norm_num

theorem time_alpha_apm (ht : InSec t) : Apm (time (Scalar.ofInt t : Rd A)).alpha (time (t : ℝ)).alpha 360 361 7.5e-8 :=
  alpha_apm (mOf_ap ht) (cOf_ap ht)
theorem time_delta_ap (ht : InSec t) : Ap (time (Scalar.ofInt t : Rd A)).delta (time (t : ℝ)).delta 0.4153 6.4e-10 :=
  delta_ap (mOf_ap ht) (cOf_ap ht)
theorem time_eot_ap (ht : InSec t) : Ap (time (Scalar.ofInt t : Rd A)).eot (time (t : ℝ)).eot 19.5 1.1e-6 :=
  eot_ap (mOf_ap ht) (cOf_ap ht)
theorem time_R_ap (ht : InSec t) : Ap (time (Scalar.ofInt t : Rd A)).R (time (t : ℝ)).R 1.018 7.2e-11 :=
  R_ap (mOf_ap ht)

theorem ecf_ap {a : Rd A} {x : ℝ} (h : Ap a x 1.018 7.2e-11) (hx : 0.982 ≤ x) : Ap (ecf a) (ecf x) 1.038 1.7e-10 := by
  have h2 : Ap (Num.npow a 2 : Rd A) (x ^ 2) 1.037 1.5e-10 := by apf
  unfold ecf
  have hx2 : (0.964324 : ℝ) ≤ x ^ 2 := by
    have := pow_le_pow_left₀ (by norm_num) hx 2; norm_num at this ⊢; linarith
  refine (Ap.div' 0.964324 Ap.one h2 ?_ ?_ ?_).mono ?_ ?_
  · rw [abs_of_nonneg (by positivity)]; exact hx2
  all_goals norm_num

end SW.Nrel
