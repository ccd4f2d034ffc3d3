/-
C66: airmass and the corrected extraterrestrial irradiance in floating-point arithmetic.
-/
import Verif.Props.Irradiance
import Verif.Props.RoundMethods

namespace SW
open Real

/-- powers of neighbouring bases and exponents -/
theorem rpow_near {x r y t K α β L : ℝ} (hx : 0 < x) (hr : 0 < r) (hK : x ^ y ≤ K)
    (hα : |t - y| ≤ α) (hL : |log r| ≤ L) (hβ : |log r - log x| ≤ β) (hs : α * L + |y| * β ≤ 1) :
    |r ^ t - x ^ y| ≤ 2 * K * (α * L + |y| * β) := by
  have hp := rpow_pos_of_pos hx y
  have e1 : r ^ t = x ^ y * exp (t * log r - y * log x) := by
    rw [rpow_def_of_pos hr, rpow_def_of_pos hx, ← exp_add]
    congr 1; ring
  have hd : |t * log r - y * log x| ≤ α * L + |y| * β := by
    have : t * log r - y * log x = (t - y) * log r + y * (log r - log x) := by ring
    rw [this]
    exact (abs_add_le _ _).trans (add_le_add (Nrel.abs_mul_le' hα hL) (Nrel.abs_mul_le' le_rfl hβ))
  have h1 := abs_exp_sub_one_le (hd.trans hs)
  rw [e1, show x ^ y * exp (t * log r - y * log x) - x ^ y = x ^ y * (exp (t * log r - y * log x) - 1) by ring,
    abs_mul, abs_of_pos hp]
  refine (mul_le_mul hK h1 (abs_nonneg _) (hp.le.trans hK)).trans ?_
  have := hp.le.trans hK
  nlinarith

theorem log_near {x r m δ : ℝ} (hm : 0 < m) (hx : m ≤ x) (hr : m ≤ r) (h : |r - x| ≤ δ) : |log r - log x| ≤ δ / m := by
  have hx0 : 0 < x := hm.trans_le hx
  have hr0 : 0 < r := hm.trans_le hr
  obtain ⟨h1, h2⟩ := abs_le.1 h
  have hδ : 0 ≤ δ := (abs_nonneg _).trans h
  rw [abs_le]
  constructor
  · have := log_le_sub_one_of_pos (div_pos hx0 hr0)
    rw [log_div hx0.ne' hr0.ne'] at this
    have h3 : x / r - 1 ≤ δ / m := by
      rw [show x / r - 1 = (x - r) / r by field_simp]
      exact (div_le_div_of_nonneg_right (by linarith : x - r ≤ δ) hr0.le).trans (div_le_div_of_nonneg_left hδ hm hr)
    linarith
  · have := log_le_sub_one_of_pos (div_pos hr0 hx0)
    rw [log_div hr0.ne' hx0.ne'] at this
    have h3 : r / x - 1 ≤ δ / m := by
      rw [show r / x - 1 = (r - x) / x by field_simp]
      exact (div_le_div_of_nonneg_right (by linarith : r - x ≤ δ) hx0.le).trans (div_le_div_of_nonneg_left hδ hm hx)
    linarith

namespace Props
open SW.Spec Sunpos
variable {A : Arith}

/-- `(k - z) ^ (-b)` with a base of at least 3 -/
theorem rpow_base {a b : Rd A} {x y : ℝ} (h1 : Ap a x 100 4e-13) (hx : 3 ≤ x) (h2 : Ap b y 2 2.1e-15) (hy : y ≤ 0) :
    Ap (Num.rpow a b : Rd A) (x ^ y) 1 2e-12 := by
  obtain ⟨m1, r, rfl, e1⟩ := h1
  obtain ⟨m2, t, rfl, e2⟩ := h2
  have hx1 : x ≤ 100 := (abs_le.1 m1).2
  obtain ⟨a1, a2⟩ := abs_le.1 e1
  have hr : 2 ≤ r := by norm_num at a1 a2 ⊢; linarith
  have hr' : r ≤ 101 := by norm_num at a1 a2 ⊢; linarith
  have hK : x ^ y ≤ 1 := rpow_le_one_of_one_le_of_nonpos (by linarith) hy
  have hp := rpow_pos_of_pos (by linarith : 0 < x) y
  have hL : |log r| ≤ 100 := by
    rw [abs_of_nonneg (log_nonneg (by linarith))]
    have := log_le_sub_one_of_pos (by linarith : 0 < r)
    linarith
  have hB := log_near (m := 2) (by norm_num) (by linarith) hr e1
  have hs : (2.1e-15 : ℝ) * 100 + |y| * (4e-13 / 2) ≤ 7e-13 := by
    norm_num at m2 ⊢; linarith
  have h3 := rpow_near (K := 1) (by linarith) (by linarith) hK e2 hL hB (hs.trans (by norm_num))
  have h3 : |r ^ t - x ^ y| ≤ 1.4e-12 := h3.trans (by norm_num at hs ⊢; linarith)
  have h4 : r ^ t ≤ 2 := by
    have := (abs_le.1 h3).2
    norm_num at this ⊢; linarith
  obtain ⟨q, hq, eq⟩ := A.rpow_spec r t (by linarith) (h4.trans (by norm_num))
  refine ⟨by rw [abs_of_pos hp]; exact hK, q, hq, ?_⟩
  refine (abs_sub_le q (r ^ t) _).trans ?_
  have : 1e-13 * r ^ t + 1e-30 ≤ 2.1e-13 := by norm_num at h4 ⊢; linarith
  norm_num at this eq h3 ⊢; linarith

/-- `z ^ a` with a small positive exponent -/
theorem rpow_zen {b : Rd A} {z y : ℝ} (hz : 1e-30 ≤ z) (hz' : z ≤ 91) (h2 : Ap b y 0.1 1.1e-16) (hy : 0 ≤ y) :
    Ap (Num.rpow (Rd.fin z) b : Rd A) (z ^ y) 2 6e-13 := by
  obtain ⟨m2, t, rfl, e2⟩ := h2
  have hz0 : 0 < z := lt_of_lt_of_le (by norm_num) hz
  have hy1 : y ≤ 1 / 10 := by have := (abs_le.1 m2).2; norm_num at this ⊢; linarith
  have hK : z ^ y ≤ 2 := Air.rpow_le_of_pow (n := 10) (by norm_num) hz0.le (hz'.trans (by norm_num)) (by norm_num) hy (by norm_num at hy1 ⊢; linarith)
  have hp := rpow_pos_of_pos hz0 y
  have hL : |log z| ≤ 300 := by
    have h10 : log (10 : ℝ) ≤ 9 := by have := log_le_sub_one_of_pos (by norm_num : (0:ℝ) < 10); linarith
    rw [abs_le]
    constructor
    · have := log_le_log (by norm_num) hz
      have e : log (1e-30 : ℝ) = -(30 * log 10) := by
        rw [show (1e-30 : ℝ) = ((10 : ℝ) ^ 30)⁻¹ by norm_num, log_inv, log_pow]; norm_num
      rw [e] at this; linarith
    · have := log_le_sub_one_of_pos hz0; linarith
  have h3 := rpow_near (K := 2) (β := 0) hz0 hz0 hK e2 hL (by simp) (by norm_num)
  have h3 : |z ^ t - z ^ y| ≤ 1.4e-13 := h3.trans (by norm_num)
  have h4 : z ^ t ≤ 3 := by
    have := (abs_le.1 h3).2
    norm_num at this ⊢; linarith
  obtain ⟨q, hq, eq⟩ := A.rpow_spec z t hz0 (h4.trans (by norm_num))
  refine ⟨by rw [abs_of_pos hp]; exact hK, q, hq, ?_⟩
  refine (abs_sub_le q (z ^ t) _).trans ?_
  have : 1e-13 * z ^ t + 1e-30 ≤ 3.1e-13 := by norm_num at h4 ⊢; linarith
  norm_num at this eq h3 ⊢; linarith

theorem clip_ap {z : ℝ} {m : Nat} {e : Nat} (hk : 93.8 ≤ (OfScientific.ofScientific m true e : ℝ))
    (hk' : (OfScientific.ofScientific m true e : ℝ) ≤ 97) (hz : 0 ≤ z) (hz' : z ≤ 90) :
    Ap (Num.max2 1e-4 ((OfScientific.ofScientific m true e : Rd A) - Rd.fin z))
      ((OfScientific.ofScientific m true e : ℝ) - z) 100 4e-13 := by
  have hzA : Ap (Rd.fin z : Rd A) z 90 0 := Ap.ofFin z (by rw [_root_.abs_of_nonneg hz]; exact hz')
  have h1 := (Ap.lit (R := A) (m := m) (s := true) (e := e) (K := 97) (by
      rw [_root_.abs_of_nonneg (by linarith)]; exact hk') (by norm_num)).sub hzA (by norm_num)
  have hb : |(OfScientific.ofScientific m true e : ℝ) - z| ≤ 100 := by
    rw [abs_le]; constructor <;> (norm_num at hk hk' ⊢; linarith)
  have h1 := (h1.mono (M' := 200) (ε' := 4e-13) (by norm_num) (by norm_num)).bnd hb
  have h0 : Ap (1e-4 : Rd A) (1e-4) 100 4e-13 :=
    (Ap.lit (R := A) (m := 1) (s := true) (e := 4) (K := 1e-4) (by norm_num) (by norm_num)).mono (by norm_num) (by norm_num)
  have h2 := Ap.max2 h0 h1
  rw [max_eq_right (by norm_num at hk ⊢; linarith)] at h2
  exact h2

/-- the inner expression of the airmass of one cell -/
noncomputable def recR (p : String) (z c : Rd A) : Rd A :=
  if p = "kasten_1965" then Sunpos.recKasten z c
  else if p = "kasten_and_young_1989" then Sunpos.recKastenYoung z c
  else if p = "gueymard_2001" then Sunpos.recGueymard2001 z c
  else Sunpos.recGueymard2003 z c

theorem airmass_get_rd {p : String} (hp : p ∈ Parameterizations) (s : Sunpos (Rd A)) :
    ∃ B, s.airmass p = .ok B ∧ ∀ e, B.get e = Sunpos.amOf (s.zenithDeg.get e)
      (recR p (s.zenithDeg.get e) (s.cosz.get e)) := by
  simp only [Parameterizations, List.mem_cons, List.not_mem_nil, or_false] at hp
  rcases hp with rfl | rfl | rfl | rfl
  · exact ⟨_, rfl, fun e => rfl⟩
  · exact ⟨_, rfl, fun e => rfl⟩
  · exact ⟨_, rfl, fun e => rfl⟩
  · exact ⟨_, rfl, fun e => rfl⟩

theorem recR_ap {p : String} (hp : p ∈ Parameterizations) {z : ℝ} {c : Rd A} (h0 : 1e-30 ≤ z) (h : z ≤ 90)
    (hc : Ap c (cos (rad z)) 1 2e-13) : Ap (recR p (Rd.fin z) c : Rd A) (airRec p z) 3 4e-12 := by
  have hz0 : 0 < z := lt_of_lt_of_le (by norm_num) h0
  have e0 : ∀ c a b k : ℝ, Air.rec c a b k z = cos (rad z) + c * z ^ a * (k - z) ^ (-b) := fun _ _ _ _ => rfl
  simp only [Parameterizations, List.mem_cons, List.not_mem_nil, or_false] at hp
  rcases hp with rfl | rfl | rfl | rfl
  · show Ap (Sunpos.recKasten (Rd.fin z) c) (Air.rec _ _ _ _ z) _ _
    unfold Sunpos.recKasten
    have h1 := rpow_base (A := A) (clip_ap (m := 93885) (e := 3) (by norm_num) (by norm_num) hz0.le h) (by norm_num; linarith)
      (((Ap.lit (m := 1253) (s := true) (e := 3) (K := 1.3) (by norm_num) (by norm_num)).neg).mono (by norm_num) (by norm_num)) (by norm_num)
    have h2 := hc.add ((Ap.lit (m := 15) (s := true) (e := 2) (K := 0.2) (by norm_num) (by norm_num)).mul h1 (by norm_num)) (by norm_num)
    refine h2.fit ?_ (by norm_num) (by norm_num)
    rw [e0, rpow_zero, mul_one]
  · show Ap (Sunpos.recKastenYoung (Rd.fin z) c) (Air.rec _ _ _ _ z) _ _
    unfold Sunpos.recKastenYoung
    have h1 := rpow_base (A := A) (clip_ap (m := 9607995) (e := 5) (by norm_num) (by norm_num) hz0.le h) (by norm_num; linarith)
      (((Ap.lit (m := 16364) (s := true) (e := 4) (K := 1.7) (by norm_num) (by norm_num)).neg).mono (by norm_num) (by norm_num)) (by norm_num)
    have h2 := hc.add ((Ap.lit (m := 50572) (s := true) (e := 5) (K := 0.6) (by norm_num) (by norm_num)).mul h1 (by norm_num)) (by norm_num)
    refine h2.fit ?_ (by norm_num) (by norm_num)
    rw [e0, rpow_zero, mul_one]
  · show Ap (Sunpos.recGueymard2001 (Rd.fin z) c) (Air.rec _ _ _ _ z) _ _
    unfold Sunpos.recGueymard2001
    have h1 := rpow_base (A := A) (clip_ap (m := 964836) (e := 4) (by norm_num) (by norm_num) hz0.le h) (by norm_num; linarith)
      (((Ap.lit (m := 1697) (s := true) (e := 3) (K := 1.7) (by norm_num) (by norm_num)).neg).mono (by norm_num) (by norm_num)) (by norm_num)
    have h3 := rpow_zen (A := A) h0 (by linarith) ((Ap.lit (m := 7) (s := true) (e := 2) (K := 0.07) (by norm_num) (by norm_num)).mono
      (by norm_num) (by norm_num)) (by norm_num)
    have h2 := hc.add (((Ap.lit (m := 45665) (s := true) (e := 5) (K := 0.5) (by norm_num) (by norm_num)).mul h3 (by norm_num)).mul h1
      (by norm_num)) (by norm_num)
    exact h2.fit (e0 _ _ _ _).symm (by norm_num) (by norm_num)
  · show Ap (Sunpos.recGueymard2003 (Rd.fin z) c) (Air.rec _ _ _ _ z) _ _
    unfold Sunpos.recGueymard2003
    have h1 := rpow_base (A := A) (clip_ap (m := 96741) (e := 3) (by norm_num) (by norm_num) hz0.le h) (by norm_num; linarith)
      (((Ap.lit (m := 1754) (s := true) (e := 3) (K := 1.8) (by norm_num) (by norm_num)).neg).mono (by norm_num) (by norm_num)) (by norm_num)
    have h3 := rpow_zen (A := A) h0 (by linarith) ((Ap.lit (m := 95846) (s := true) (e := 6) (K := 0.1) (by norm_num) (by norm_num)).mono
      (by norm_num) (by norm_num)) (by norm_num)
    have h2 := hc.add (((Ap.lit (m := 48353) (s := true) (e := 5) (K := 0.5) (by norm_num) (by norm_num)).mul h3 (by norm_num)).mul h1
      (by norm_num)) (by norm_num)
    exact h2.fit (e0 _ _ _ _).symm (by norm_num) (by norm_num)

theorem rd_90 : ∃ N : ℝ, (90.0 : Rd A) = Rd.fin N ∧ |N - 90| ≤ 1e-13 := by
  obtain ⟨-, r, hr, e⟩ := Ap.lit (R := A) (m := 900) (s := true) (e := 1) (K := 90) (by norm_num) (by norm_num)
  exact ⟨r, hr, by norm_num at e ⊢; linarith⟩

theorem inv_near {r x δ : ℝ} (hx : 0.009 ≤ x) (h : |r - x| ≤ δ) (hδ : δ ≤ 4e-12) :
    0 < r ∧ |1 / r - 1 / x| ≤ 4.01e-12 * (1 / x) ^ 2 := by
  obtain ⟨h1, h2⟩ := abs_le.1 h
  have hx0 : 0 < x := lt_of_lt_of_le (by norm_num) hx
  have hr : (1 - 1e-9) * x ≤ r := by norm_num at hx hδ h1 ⊢; linarith
  have hr0 : 0 < r := lt_of_lt_of_le (by positivity) hr
  refine ⟨hr0, ?_⟩
  rw [show 1 / r - 1 / x = -((r - x) / (r * x)) by field_simp; ring, abs_neg, abs_div, abs_of_pos (by positivity : 0 < r * x),
    div_le_iff₀ (by positivity)]
  have e1 : 4.01e-12 * (1 / x) ^ 2 * (r * x) = 4.01e-12 * (r / x) := by field_simp
  rw [e1]
  have h3 : 1 - 1e-9 ≤ r / x := by rw [le_div_iff₀ hx0]; exact hr
  refine (h.trans hδ).trans ?_
  norm_num at h3 ⊢; linarith

theorem rd_am_day {p : String} (hp : p ∈ Parameterizations) (s : Sunpos (Rd A)) {e : Dim → Nat} {z : ℝ} {c : Rd A}
    (hz : s.zenithDeg.get e = Rd.fin z) (hc : s.cosz.get e = c) (hcA : Ap c (cos (rad z)) 1 2e-13)
    (h0 : 1e-30 ≤ z) (h1 : z ≤ 90 - 1e-13) : ∃ B, s.airmass p = .ok B ∧ ∃ r, B.get e = Rd.fin r ∧
      |r - max 1 (1 / airRec p z)| ≤ 4.1e-12 * max 1 (1 / airRec p z) ^ 2 := by
  obtain ⟨B, hB, hg⟩ := airmass_get_rd hp s
  refine ⟨B, hB, ?_⟩
  have h90 : z ≤ 90 := h1.trans (by norm_num)
  have hz0 : 0 ≤ z := le_trans (by norm_num) h0
  obtain ⟨hrec, q, hq, eq⟩ := recR_ap hp h0 h90 hcA
  obtain ⟨N, hN, eN⟩ := rd_90 (A := A)
  have hle : z ≤ N := by
    have := (abs_le.1 eN).1; linarith
  have hw : ∀ y : Rd A, (Num.whereLe (Rd.fin z) 90.0 y Num.nan : Rd A) = y := by
    intro y
    rw [hN]
    refine if_pos ?_
    show decide (z ≤ N) = true
    rw [decide_eq_true_eq]; exact hle
  rw [hg, hz, hc, hq]
  unfold amOf
  rw [hw]
  have hr := ((airRec_facts hp).2 z hz0 h90).1
  have hr0 : 0 < airRec p z := lt_of_lt_of_le (by norm_num) hr
  obtain ⟨q0, hq1⟩ := inv_near hr eq le_rfl
  obtain ⟨u, hu⟩ : ∃ u, u = 1 / airRec p z := ⟨_, rfl⟩
  rw [← hu] at hq1 ⊢
  have hu0 : 0 < u := by rw [hu]; positivity
  have hu1 : u ≤ 112 := by rw [hu, div_le_iff₀ hr0]; norm_num at hr ⊢; linarith
  obtain ⟨M, hM⟩ : ∃ M, M = max 1 u := ⟨_, rfl⟩
  rw [← hM]
  have hM1 : 1 ≤ M := by rw [hM]; exact le_max_left _ _
  have hMu : u ≤ M := by rw [hM]; exact le_max_right _ _
  have hsq : u ^ 2 ≤ M ^ 2 := pow_le_pow_left₀ hu0.le hMu 2
  have hMM : M ≤ M ^ 2 := by nlinarith
  -- the quotient
  obtain ⟨-, o, ho, eo⟩ := Ap.lit (R := A) (m := 10) (s := true) (e := 1) (K := 1) (by norm_num) (by norm_num)
  have eo : |o - 1| ≤ 1.1e-15 := by norm_num at eo ⊢; linarith
  have hqi : 1 / q ≤ 2 * M := by
    have h5 := (abs_le.1 hq1).2
    have h6 : 4.01e-12 * u ^ 2 ≤ M := by
      have : u ^ 2 ≤ 112 * M := by nlinarith
      norm_num at this ⊢; linarith
    linarith
  have hqp : 0 < 1 / q := by positivity
  have hoq : |o / q - 1 / q| ≤ 2.2e-15 * M := by
    rw [show o / q - 1 / q = (o - 1) * (1 / q) by field_simp, abs_mul, abs_of_pos hqp]
    exact (mul_le_mul eo hqi hqp.le (by norm_num)).trans (by norm_num; linarith)
  have hob : |o / q| ≤ 3 * M := by
    have : |o / q| ≤ |o / q - 1 / q| + |1 / q| := by
      have := abs_add_le (o / q - 1 / q) (1 / q); simpa using this
    rw [abs_of_pos hqp] at this
    have h9 : (2.2e-15 : ℝ) * M ≤ M := by norm_num; linarith
    linarith
  have hM112 : M ≤ 112 := by rw [hM]; exact max_le (by norm_num) hu1
  obtain ⟨d, hd, ed⟩ := A.div_spec o q q0.ne' (hob.trans (by norm_num; linarith))
  have hdq : |d - u| ≤ 4.09e-12 * M ^ 2 := by
    have e1 : d - u = (d - o / q) + ((o / q - 1 / q) + (1 / q - u)) := by ring
    rw [e1]
    refine (abs_add_le _ _).trans ((add_le_add ed ((abs_add_le _ _).trans (add_le_add hoq hq1))).trans ?_)
    generalize |o / q| = X at hob
    norm_num at hob hsq ⊢; linarith
  refine ⟨max o d, ?_, ?_⟩
  · rw [ho]
    show (Num.max2 (Rd.fin o) (Rd.m2 A.div (XR.fin o) (XR.fin q)) : Rd A) = _
    have : Rd.m2 A.div (XR.fin o) (XR.fin q) = XR.fin d := hd
    rw [this]; rfl
  · have h7 : |o - 1| ≤ 4.09e-12 * M ^ 2 := eo.trans (by norm_num; linarith)
    have h8 := abs_max_sub_max_le_max o d 1 u
    rw [← hM] at h8
    refine h8.trans ((max_le h7 hdq).trans ?_)
    have : 0 ≤ M ^ 2 := sq_nonneg _
    norm_num; linarith

theorem rd_am_night {p : String} (hp : p ∈ Parameterizations) (s : Sunpos (Rd A)) {e : Dim → Nat} {z : ℝ}
    (hz : s.zenithDeg.get e = Rd.fin z) (h1 : 90 + 1e-13 < z) : ∃ B, s.airmass p = .ok B ∧ B.get e = XR.nan := by
  obtain ⟨B, hB, hg⟩ := airmass_get_rd hp s
  refine ⟨B, hB, ?_⟩
  obtain ⟨N, hN, eN⟩ := rd_90 (A := A)
  have hle : ¬ z ≤ N := by
    have := (abs_le.1 eN).2; linarith
  have hw : ∀ y : Rd A, (Num.whereLe (Rd.fin z) 90.0 y Num.nan : Rd A) = Num.nan := by
    intro y
    rw [hN]
    refine if_neg ?_
    show ¬ decide (z ≤ N) = true
    rw [decide_eq_true_eq]; exact hle
  rw [hg, hz]
  unfold amOf
  rw [hw]
  obtain ⟨-, r, hr, -⟩ := Ap.lit (R := A) (m := 10) (s := true) (e := 1) (K := 1) (by norm_num) (by norm_num)
  rw [hr]; rfl

/-- C66: for each parameterization, where the zenith is the number `z` (degrees): between 1e-30 and 90 - 1e-13 airmass
differs by at most 4.1e-12 of its square (less than 6e-8) from the airmass, in exact arithmetic, of any object with the
same zenith; above 90 + 1e-13 it is NaN. -/
theorem C66_airmass {p : String} (hp : p ∈ Parameterizations) (s : Sunpos (Rd A)) (t : Sunpos XR) {e e' : Dim → Nat}
    {ζ z : ℝ} (hζ : s.zenith.get e = Rd.fin ζ) (hb : |ζ| ≤ 10) (hz : s.zenithDeg.get e = Rd.fin z)
    (ht : t.zenithDeg.get e' = .fin z) :
    ∃ B X, s.airmass p = .ok B ∧ t.airmass p = .ok X ∧
      (1e-30 ≤ z → z ≤ 90 - 1e-13 → ∃ r v : ℝ, B.get e = Rd.fin r ∧ X.get e' = .fin v ∧
        |r - v| ≤ 4.1e-12 * v ^ 2 ∧ |r - v| ≤ 6e-8) ∧
      (90 + 1e-13 < z → B.get e = XR.nan ∧ X.get e' = .nan) := by
  obtain ⟨B, hB, -⟩ := airmass_get_rd hp s
  obtain ⟨X, hX, hg⟩ := airmass_get hp t
  obtain ⟨z', v, c, h1, -, h2, -, -, hc⟩ := C66_zenith s hζ hb
  obtain rfl : z' = z := Rd.fin_inj.1 (h1.symm.trans hz)
  have hcA : Ap (Rd.fin c : Rd A) (cos (rad z')) 1 2e-13 := ⟨abs_cos_le_one _, c, rfl, hc⟩
  refine ⟨B, X, hB, hX, ?_, ?_⟩
  · intro a b
    obtain ⟨B', hB', r, hr, er⟩ := rd_am_day hp s hz h2 hcA a b
    obtain rfl := Except.ok.inj (hB'.symm.trans hB)
    have a0 : 0 ≤ z' := le_trans (by norm_num) a
    have b0 : z' ≤ 90 := b.trans (by norm_num)
    have h4 : 0 < airRec p z' := lt_of_lt_of_le (by norm_num) ((airRec_facts hp).2 z' a0 b0).1
    refine ⟨r, _, hr, by rw [hg, cosz_get ht, ht, recX_fin hp a0 b0, amOf_day b0 h4.ne'], er, er.trans ?_⟩
    have h5 : max 1 (1 / airRec p z') ≤ 112 := by
      have := ((airRec_facts hp).2 z' a0 b0).1
      refine max_le (by norm_num) ?_
      rw [div_le_iff₀ h4]; norm_num at this ⊢; linarith
    have h6 : max 1 (1 / airRec p z') ^ 2 ≤ 112 ^ 2 := pow_le_pow_left₀ (by positivity) h5 2
    norm_num at h6 ⊢; linarith
  · intro a
    obtain ⟨B', hB', hn⟩ := rd_am_night hp s hz a
    obtain rfl := Except.ok.inj (hB'.symm.trans hB)
    refine ⟨hn, ?_⟩
    rw [hg, ht, amOf_night (lt_trans (by norm_num) a)]

/-! ### corrected irradiance -/

theorem exp_ap {a : Rd A} {x K ε : ℝ} (h : Ap a x 40 ε) (hK : exp x ≤ K) (hε : ε ≤ 1e-3) :
    Ap (Num.exp a : Rd A) (exp x) K (K * (2.1 * ε + 2e-14)) := by
  have e0 := h.e_nonneg
  obtain ⟨m, r, rfl, e⟩ := h
  have hp := exp_pos x
  have hd : |exp r - exp x| ≤ K * (2 * ε) := by
    have : exp r - exp x = exp x * (exp (r - x) - 1) := by rw [mul_sub, ← exp_add, mul_one]; congr 2; ring
    rw [this, abs_mul, abs_of_pos hp]
    have h1 := abs_exp_sub_one_le (e.trans (hε.trans (by norm_num)))
    exact mul_le_mul hK (h1.trans (by linarith)) (abs_nonneg _) (hp.le.trans hK)
  have hr : |r| ≤ 50 := (Ap.fin_bound m e).trans (by norm_num at hε ⊢; linarith)
  obtain ⟨q, hq, eq⟩ := A.exp_spec r hr
  refine ⟨by rw [abs_of_pos hp]; exact hK, q, hq, ?_⟩
  have hK0 := hp.le.trans hK
  have h2 : exp r ≤ K * (1 + 2 * ε) := by
    have := (abs_le.1 hd).2; linarith
  refine (abs_sub_le q (exp r) _).trans ((add_le_add (eq.trans (mul_le_mul_of_nonneg_left h2 (by norm_num))) hd).trans ?_)
  have h3 : 0 ≤ K * ε := mul_nonneg hK0 e0
  norm_num; linarith

theorem corrPerez_ap {r v : ℝ} (h1 : 1 ≤ v) (h2 : v ≤ 112) (h : |r - v| ≤ 4.1e-12 * v ^ 2) :
    Ap (corrPerez (Rd.fin r) : Rd A) (0.1 + 1.031 * exp (-1.4 / (0.9 + 9.4 / v))) 1.2 1e-9 := by
  have hv0 : 0 < v := by linarith
  have hv2 : v ^ 2 ≤ 112 * v := by nlinarith
  have hr : v * (1 - 1e-9) ≤ r := by
    have := (abs_le.1 h).1
    norm_num at this ⊢; linarith
  have hr0 : 0 < r := lt_of_lt_of_le (by positivity) hr
  obtain ⟨-, o, ho, eo⟩ := Ap.lit (R := A) (m := 94) (s := true) (e := 1) (K := 9.4) (by norm_num) (by norm_num)
  have eo : |o - 9.4| ≤ 1e-14 := by norm_num at eo ⊢; linarith
  obtain ⟨o1, o2⟩ := abs_le.1 eo
  have hdiv : |o / r - 9.4 / v| ≤ 4e-11 := by
    have e1 : o / r - 9.4 / v = ((o - 9.4) * v - 9.4 * (r - v)) / (r * v) := by field_simp; ring
    rw [e1, abs_div, abs_of_pos (by positivity : 0 < r * v), div_le_iff₀ (by positivity)]
    have h3 : |(o - 9.4) * v - 9.4 * (r - v)| ≤ 1e-14 * v + 9.4 * (4.1e-12 * v ^ 2) := by
      refine (abs_sub _ _).trans (add_le_add ?_ ?_)
      · rw [abs_mul, abs_of_pos hv0]; exact mul_le_mul_of_nonneg_right eo hv0.le
      · rw [abs_mul, show |(9.4 : ℝ)| = 9.4 by norm_num]; exact mul_le_mul_of_nonneg_left h (by norm_num)
    have h4 : v ^ 2 * (1 - 1e-9) ≤ r * v := by
      have := mul_le_mul_of_nonneg_right hr hv0.le
      nlinarith
    have h5 : v ≤ v ^ 2 := by nlinarith
    refine h3.trans ?_
    generalize v ^ 2 = X at *
    generalize r * v = Y at *
    norm_num at h4 ⊢; linarith
  have hvb : 0 < 9.4 / v ∧ 9.4 / v ≤ 9.4 := ⟨by positivity, by rw [div_le_iff₀ hv0]; norm_num; linarith⟩
  have hA : Ap (9.4 / Rd.fin r : Rd A) (9.4 / v) 9.4 5e-11 := by
    have hb : |o / r| ≤ 10 := by
      have := abs_sub_abs_le_abs_sub (o / r) (9.4 / v)
      rw [abs_of_pos hvb.1] at this
      generalize |o / r| = X at *
      generalize |o / r - 9.4 / v| = Y at *
      have := hvb.2
      generalize 9.4 / v = Z at *
      norm_num at *; linarith
    obtain ⟨d, hd, ed⟩ := A.div_spec o r hr0.ne' (hb.trans (by norm_num))
    refine ⟨by rw [abs_of_pos hvb.1]; exact hvb.2, d, ?_, ?_⟩
    · rw [ho]; exact hd
    · refine (abs_sub_le d (o / r) _).trans ?_
      generalize |o / r| = X at *
      generalize |o / r - 9.4 / v| = Y at *
      norm_num at *; linarith
  have hB := (Ap.lit (R := A) (m := 9) (s := true) (e := 1) (K := 0.9) (by norm_num) (by norm_num)).add hA (by norm_num)
  have hden : 0.9 ≤ 0.9 + 9.4 / v := by linarith [hvb.1]
  have hden0 : (0 : ℝ) < 0.9 + 9.4 / v := by have := hvb.1; positivity
  have hC := Ap.div 0.9 2 ((Ap.lit (R := A) (m := 14) (s := true) (e := 1) (K := 1.4) (by norm_num) (by norm_num)).neg) hB
    (by rw [abs_of_pos hden0]; exact hden) (by norm_num)
    (by rw [abs_div, abs_of_pos hden0, div_le_iff₀ hden0]; norm_num at hden ⊢; linarith) (by norm_num)
  have hC' := hC.mono (M' := 40) (ε' := 1.3e-10) (by norm_num) (by norm_num)
  have hE := exp_ap hC' (K := 1) (by
    rw [exp_le_one_iff]; exact div_nonpos_of_nonpos_of_nonneg (by norm_num) hden0.le) (by norm_num)
  unfold corrPerez
  exact ((Ap.lit (R := A) (m := 1) (s := true) (e := 1) (K := 0.1) (by norm_num) (by norm_num)).add
    ((Ap.lit (R := A) (m := 1031) (s := true) (e := 3) (K := 1.031) (by norm_num) (by norm_num)).mul hE (by norm_num)) (by norm_num)).mono
    (by norm_num) (by norm_num)

theorem corrGonzalez_ap {r v : ℝ} (h1 : 1 ≤ v) (h2 : v ≤ 67.7) (h : |r - v| ≤ 4.1e-12 * v ^ 2) :
    Ap (corrGonzalez (Rd.fin r) : Rd A) (0.229 + 0.957 * exp (-1.74 * v * (0.124 - 0.0285 * log v))) 1.2 5e-7 := by
  have hv0 : 0 < v := by linarith
  have hv2 : v ^ 2 ≤ 67.7 ^ 2 := pow_le_pow_left₀ hv0.le h2 2
  have h : |r - v| ≤ 1.9e-8 := h.trans (by norm_num at hv2 ⊢; linarith)
  obtain ⟨a1, a2⟩ := abs_le.1 h
  have hr : 0.5 ≤ r := by norm_num at a1 ⊢; linarith
  have hr0 : 0 < r := lt_of_lt_of_le (by norm_num) hr
  have hr1 : r ≤ 68 := by norm_num at a2 h2 ⊢; linarith
  have hR : Ap (Rd.fin r : Rd A) v 67.7 1.9e-8 := ⟨by rw [abs_of_pos hv0]; exact h2, r, rfl, h⟩
  obtain ⟨l0, l1⟩ := log_am h1 h2
  have hl := log_near (m := 0.5) (by norm_num) (by norm_num; linarith) hr h
  have hlb : |log r| ≤ 5 := (Ap.fin_bound (x := log v) (M := 4.35) (by rw [_root_.abs_of_nonneg l0]; exact l1) hl).trans (by norm_num)
  have hL : Ap (Num.log (Rd.fin r) : Rd A) (log v) 4.35 4e-8 := by
    obtain ⟨q, hq, eq⟩ := A.log_spec r (le_trans (by norm_num) hr) (hr1.trans (by norm_num))
    refine ⟨by rw [_root_.abs_of_nonneg l0]; exact l1, q, hq, (abs_sub_le q (log r) _).trans ?_⟩
    generalize |q - log r| = X at *
    generalize |log r - log v| = Y at *
    generalize |log r| = Z at *
    norm_num at *; linarith
  have hB := (Ap.lit (R := A) (m := 124) (s := true) (e := 3) (K := 0.124) (by norm_num) (by norm_num)).sub
    ((Ap.lit (R := A) (m := 285) (s := true) (e := 4) (K := 0.0285) (by norm_num) (by norm_num)).mul hL (by norm_num)) (by norm_num)
  have hb0 : (0 : ℝ) ≤ 0.124 - 0.0285 * log v := by norm_num at l1 ⊢; linarith
  have hB := (hB.mono (M' := 1) (ε' := 1.2e-9) (by norm_num) (by norm_num)).bnd (M' := 0.124) (by
    rw [_root_.abs_of_nonneg hb0]; norm_num; linarith)
  have hC := (((Ap.lit (R := A) (m := 174) (s := true) (e := 2) (K := 1.74) (by norm_num) (by norm_num)).neg).mul hR (by norm_num)).mul hB
    (by norm_num)
  have hC := hC.mono (M' := 40) (ε' := 1.9e-7) (by norm_num) (by norm_num)
  have hE := exp_ap hC (K := 1) (by
    rw [exp_le_one_iff]; exact mul_nonpos_of_nonpos_of_nonneg (by norm_num; exact hv0.le) hb0) (by norm_num)
  unfold corrGonzalez
  exact ((Ap.lit (R := A) (m := 229) (s := true) (e := 3) (K := 0.229) (by norm_num) (by norm_num)).add
    ((Ap.lit (R := A) (m := 957) (s := true) (e := 3) (K := 0.957) (by norm_num) (by norm_num)).mul hE (by norm_num)) (by norm_num)).mono
    (by norm_num) (by norm_num)

theorem corrSkartveit_ap {z : ℝ} (h0 : 0 ≤ z) (h1 : z ≤ 180) :
    Ap (corrSkartveit (Rd.fin z) : Rd A) (0.83 - 0.56 * exp (-0.06 * (90.0 - z))) 450 1e-8 := by
  have hz : Ap (Rd.fin z : Rd A) z 180 0 := Ap.ofFin z (by rw [_root_.abs_of_nonneg h0]; exact h1)
  have hA := ((Ap.lit (R := A) (m := 6) (s := true) (e := 2) (K := 0.06) (by norm_num) (by norm_num)).neg).mul
    ((Ap.lit (R := A) (m := 900) (s := true) (e := 1) (K := 90) (by norm_num) (by norm_num)).sub hz (by norm_num)) (by norm_num)
  have hA := hA.mono (M' := 40) (ε' := 1e-12) (by norm_num) (by norm_num)
  have hE := exp_ap hA (K := 729) (by
    have h3 : exp 1 ≤ 3 := by have := exp_one_lt_d9; norm_num at this ⊢; linarith
    have h4 : exp (-0.06 * (90.0 - z)) ≤ exp 6 := exp_le_exp.2 (by norm_num; linarith)
    have h5 : exp 6 = exp 1 ^ 6 := by rw [← exp_nat_mul]; norm_num
    rw [h5] at h4
    exact h4.trans ((pow_le_pow_left₀ (exp_pos 1).le h3 6).trans (by norm_num))) (by norm_num)
  unfold corrSkartveit
  exact ((Ap.lit (R := A) (m := 83) (s := true) (e := 2) (K := 0.83) (by norm_num) (by norm_num)).sub
    ((Ap.lit (R := A) (m := 56) (s := true) (e := 2) (K := 0.56) (by norm_num) (by norm_num)).mul hE (by norm_num)) (by norm_num)).mono
    (by norm_num) (by norm_num)

/-- C66: with a correction, for a solar constant of at most 2000 and an eccentricity factor of at most 1.1: between
zeniths of 1e-30 and 90 - 1e-13 degrees eth differs by at most 2e-3 from that of any object with the same zenith and
factor in exact arithmetic; above 90 + 1e-13 it is NaN for perez_1990 and gonzalez_and_calbo_1999 and, up to 180,
at most 1e-6 for skarveith_1998. -/
theorem C66_eth_corrected (s : Sunpos (Rd A)) (t : Sunpos XR) {e e' : Dim → Nat} {ζ z f isc : ℝ}
    (hζ : s.zenith.get e = Rd.fin ζ) (hb : |ζ| ≤ 10) (hz : s.zenithDeg.get e = Rd.fin z)
    (ht : t.zenithDeg.get e' = .fin z) (hf : s.ecf.get e = Rd.fin f) (htf : t.ecf.get e' = .fin f) (hfb : |f| ≤ 1.1)
    (hisc : |isc| ≤ 2000) {c : String} (hc : c ∈ Corrections) :
    ∃ E X, s.eth (Rd.fin isc) c = .ok E ∧ t.eth (.fin isc) c = .ok X ∧
      (1e-30 ≤ z → z ≤ 90 - 1e-13 → ∃ r v : ℝ, E.get e = Rd.fin r ∧ X.get e' = .fin v ∧ |r - v| ≤ 2e-3) ∧
      (90 + 1e-13 < z → (c ≠ "skarveith_1998" → E.get e = XR.nan) ∧
        (c = "skarveith_1998" → z ≤ 180 → ∃ r : ℝ, E.get e = Rd.fin r ∧ |r| ≤ 1e-6)) := by
  obtain ⟨z', v, q, h1, -, h2, -, -, hq⟩ := C66_zenith s hζ hb
  obtain rfl : z' = z := Rd.fin_inj.1 (h1.symm.trans hz)
  have hcA : Ap (Rd.fin q : Rd A) (cos (rad z')) 1 2e-13 := ⟨abs_cos_le_one _, q, rfl, hq⟩
  have hm : Ap (Num.max2 0.0 (Rd.fin q) : Rd A) (max 0 (cos (rad z'))) 1 2e-13 := by
    refine Ap.max2 ?_ hcA
    exact (Ap.lit (K := 0) (by norm_num) (by norm_num)).fit (by norm_num) (by norm_num) (by norm_num)
  have hbase : Ap ((ethOf (DA.scalar (Rd.fin isc)) s.ecf s.cosz).get e : Rd A) (isc * f * max 0 (cos (rad z'))) 2200 5e-10 := by
    have : (ethOf (DA.scalar (Rd.fin isc)) s.ecf s.cosz).get e = Rd.fin isc * s.ecf.get e * Num.max2 0.0 (s.cosz.get e) := rfl
    rw [this, hf, h2]
    exact (((Ap.ofFin (R := A) isc hisc).mul (Ap.ofFin f hfb) (by norm_num)).mul hm (by norm_num)).mono (by norm_num) (by norm_num)
  have hbaseX : (ethOf (DA.scalar (XR.fin isc)) t.ecf t.cosz).get e' = .fin (isc * f * max 0 (cos (rad z'))) := by
    show (XR.fin isc * t.ecf.get e' * Num.max2 (0.0 : XR) (t.cosz.get e')) = _
    rw [htf, cosz_get ht]; xr; norm_num
  have hnan : ∀ a : Rd A, a * Num.nan = Num.nan := by
    intro a; cases a <;> rfl
  simp only [Corrections, List.mem_cons, List.not_mem_nil, or_false] at hc
  rcases hc with rfl | rfl | rfl
  · have hp : "kasten_and_young_1989" ∈ Parameterizations := by decide
    obtain ⟨B, hB, -⟩ := airmass_get_rd hp s
    obtain ⟨X, hX, hg⟩ := airmass_get hp t
    refine ⟨_, _, (by unfold Sunpos.eth; rw [if_neg (by decide), if_pos rfl, hB]),
      (by unfold Sunpos.eth; rw [if_neg (by decide), if_pos rfl, hX]), ?_, ?_⟩
    · intro a b
      obtain ⟨B', hB', r, hr, er⟩ := rd_am_day hp s hz h2 hcA a b
      obtain rfl := Except.ok.inj (hB'.symm.trans hB)
      have a0 : 0 ≤ z' := le_trans (by norm_num) a
      have b0 : z' ≤ 90 := b.trans (by norm_num)
      have hr1 := ((airRec_facts hp).2 z' a0 b0).1
      have h4 : 0 < airRec "kasten_and_young_1989" z' := lt_of_lt_of_le (by norm_num) hr1
      have hXe : X.get e' = .fin (max 1 (1 / airRec "kasten_and_young_1989" z')) := by
        rw [hg, cosz_get ht, ht, recX_fin hp a0 b0, amOf_day b0 h4.ne']
      obtain ⟨V, hV⟩ : ∃ V, V = max 1 (1 / airRec "kasten_and_young_1989" z') := ⟨_, rfl⟩
      have hV1 : 1 ≤ V := by rw [hV]; exact le_max_left _ _
      have hV2 : V ≤ 112 := by
        rw [hV]; refine max_le (by norm_num) ?_
        rw [div_le_iff₀ h4]; norm_num at hr1 ⊢; linarith
      rw [← hV] at er hXe
      obtain ⟨-, w, hw, ew⟩ := hbase.mul (corrPerez_ap hV1 hV2 er) (by norm_num)
      have hXc : corrPerez (XR.fin V) = .fin (0.1 + 1.031 * exp (-1.4 / (0.9 + 9.4 / V))) := by
        have h1 : (0:ℝ) < 0.9 + 9.4 / V := by positivity
        unfold Sunpos.corrPerez
        simp only [XR.sci_fin, XR.neg_fin]
        rw [XR.div_fin (by linarith : V ≠ 0), XR.add_fin, XR.div_fin h1.ne']
        xr
      refine ⟨w, isc * f * max 0 (cos (rad z')) * (0.1 + 1.031 * exp (-1.4 / (0.9 + 9.4 / V))), ?_, ?_, ?_⟩
      · have : (ethOf (DA.scalar (Rd.fin isc)) s.ecf s.cosz * corrPerez B').get e
          = (ethOf (DA.scalar (Rd.fin isc)) s.ecf s.cosz).get e * corrPerez (B'.get e) := rfl
        rw [this, hr]; exact hw
      · show (ethOf (DA.scalar (XR.fin isc)) t.ecf t.cosz).get e' * corrPerez (X.get e') = _
        rw [hbaseX, hXe, hXc]; xr
      · refine ew.trans (by norm_num)
    · intro a
      refine ⟨fun _ => ?_, fun h => absurd h (by decide)⟩
      obtain ⟨B', hB', hn⟩ := rd_am_night hp s hz a
      obtain rfl := Except.ok.inj (hB'.symm.trans hB)
      have : (ethOf (DA.scalar (Rd.fin isc)) s.ecf s.cosz * corrPerez B').get e
          = (ethOf (DA.scalar (Rd.fin isc)) s.ecf s.cosz).get e * corrPerez (B'.get e) := rfl
      have hn' : B'.get e = Num.nan := hn
      rw [this, hn']
      have hc : corrPerez (Num.nan : Rd A) = Num.nan := by unfold corrPerez; nan
      rw [hc]; exact hnan _
  · refine ⟨_, _, (by unfold Sunpos.eth; rw [if_neg (by decide), if_neg (by decide), if_pos rfl]),
      (by unfold Sunpos.eth; rw [if_neg (by decide), if_neg (by decide), if_pos rfl]), ?_, ?_⟩
    · intro a b
      have a0 : 0 ≤ z' := le_trans (by norm_num) a
      have b0 : z' ≤ 90 := b.trans (by norm_num)
      have hS := corrSkartveit_ap (A := A) a0 (by linarith)
      have hS' : |0.83 - 0.56 * exp (-0.06 * (90.0 - z'))| ≤ 1.4 := by
        have h3 : exp (-0.06 * (90.0 - z')) ≤ 1 := by rw [exp_le_one_iff]; norm_num; linarith
        have h4 := exp_pos (-0.06 * (90.0 - z'))
        generalize exp _ = E at *
        rw [abs_le]; constructor <;> (norm_num; linarith)
      obtain ⟨-, w, hw, ew⟩ := hbase.mul (hS.bnd hS') (by norm_num)
      refine ⟨w, isc * f * max 0 (cos (rad z')) * (0.83 - 0.56 * exp (-0.06 * (90.0 - z'))), ?_, ?_, ?_⟩
      · have : (ethOf (DA.scalar (Rd.fin isc)) s.ecf s.cosz * corrSkartveit s.zenithDeg).get e
          = (ethOf (DA.scalar (Rd.fin isc)) s.ecf s.cosz).get e * corrSkartveit (s.zenithDeg.get e) := rfl
        rw [this, hz]; exact hw
      · show (ethOf (DA.scalar (XR.fin isc)) t.ecf t.cosz).get e' * corrSkartveit (t.zenithDeg.get e') = _
        rw [hbaseX, ht]; unfold corrSkartveit; xr
      · refine ew.trans (by norm_num)
    · intro a
      refine ⟨fun h => absurd rfl h, fun _ hz180 => ?_⟩
      have hS := corrSkartveit_ap (A := A) (z := z') (lt_trans (by norm_num) a).le hz180
      have hc0 : max 0 (cos (rad z')) = 0 := by
        refine max_eq_left ((cos_rad_sign (lt_trans (by norm_num) a).le hz180).2.2.2 (lt_trans (by norm_num) a)).le
      rw [hc0, mul_zero] at hbase
      obtain ⟨-, w, hw, ew⟩ := (hbase.bnd (M' := 0) (by simp)).mul hS (by norm_num)
      refine ⟨w, ?_, ?_⟩
      · have : (ethOf (DA.scalar (Rd.fin isc)) s.ecf s.cosz * corrSkartveit s.zenithDeg).get e
          = (ethOf (DA.scalar (Rd.fin isc)) s.ecf s.cosz).get e * corrSkartveit (s.zenithDeg.get e) := rfl
        rw [this, hz]; exact hw
      · rw [zero_mul, sub_zero] at ew
        refine ew.trans (by norm_num)
  · have hp : "gueymard_2003" ∈ Parameterizations := by decide
    obtain ⟨B, hB, -⟩ := airmass_get_rd hp s
    obtain ⟨X, hX, hg⟩ := airmass_get hp t
    refine ⟨_, _, (by unfold Sunpos.eth; rw [if_neg (by decide), if_neg (by decide), if_neg (by decide), if_pos rfl, hB]),
      (by unfold Sunpos.eth; rw [if_neg (by decide), if_neg (by decide), if_neg (by decide), if_pos rfl, hX]), ?_, ?_⟩
    · intro a b
      obtain ⟨B', hB', r, hr, er⟩ := rd_am_day hp s hz h2 hcA a b
      obtain rfl := Except.ok.inj (hB'.symm.trans hB)
      have a0 : 0 ≤ z' := le_trans (by norm_num) a
      have b0 : z' ≤ 90 := b.trans (by norm_num)
      have hr1 := ((airRec_facts hp).2 z' a0 b0).2 rfl
      have h4 : 0 < airRec "gueymard_2003" z' := lt_of_lt_of_le (by norm_num) hr1
      have hXe : X.get e' = .fin (max 1 (1 / airRec "gueymard_2003" z')) := by
        rw [hg, cosz_get ht, ht, recX_fin hp a0 b0, amOf_day b0 h4.ne']
      obtain ⟨V, hV⟩ : ∃ V, V = max 1 (1 / airRec "gueymard_2003" z') := ⟨_, rfl⟩
      have hV1 : 1 ≤ V := by rw [hV]; exact le_max_left _ _
      have hV2 : V ≤ 67.7 := by
        rw [hV]; refine max_le (by norm_num) ?_
        rw [div_le_iff₀ h4]; norm_num at hr1 ⊢; linarith
      rw [← hV] at er hXe
      obtain ⟨-, w, hw, ew⟩ := hbase.mul (corrGonzalez_ap hV1 hV2 er) (by norm_num)
      have hXc : corrGonzalez (XR.fin V) = .fin (0.229 + 0.957 * exp (-1.74 * V * (0.124 - 0.0285 * log V))) := by
        unfold Sunpos.corrGonzalez
        rw [XR.log_fin (by linarith)]; xr
      refine ⟨w, isc * f * max 0 (cos (rad z')) * (0.229 + 0.957 * exp (-1.74 * V * (0.124 - 0.0285 * log V))), ?_, ?_, ?_⟩
      · have : (ethOf (DA.scalar (Rd.fin isc)) s.ecf s.cosz * corrGonzalez B').get e
          = (ethOf (DA.scalar (Rd.fin isc)) s.ecf s.cosz).get e * corrGonzalez (B'.get e) := rfl
        rw [this, hr]; exact hw
      · show (ethOf (DA.scalar (XR.fin isc)) t.ecf t.cosz).get e' * corrGonzalez (X.get e') = _
        rw [hbaseX, hXe, hXc]; xr
      · refine ew.trans (by norm_num)
    · intro a
      refine ⟨fun _ => ?_, fun h => absurd h (by decide)⟩
      obtain ⟨B', hB', hn⟩ := rd_am_night hp s hz a
      obtain rfl := Except.ok.inj (hB'.symm.trans hB)
      have : (ethOf (DA.scalar (Rd.fin isc)) s.ecf s.cosz * corrGonzalez B').get e
          = (ethOf (DA.scalar (Rd.fin isc)) s.ecf s.cosz).get e * corrGonzalez (B'.get e) := rfl
      have hn' : B'.get e = Num.nan := hn
      rw [this, hn']
      have hc : corrGonzalez (Num.nan : Rd A) = Num.nan := by unfold corrGonzalez; nan
      rw [hc]; exact hnan _

end Props
end SW
