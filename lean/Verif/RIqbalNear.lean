/-
The series of iqbal against the reference ephemeris.
-/
import Verif.RIqbalPhase
import Mathlib.Analysis.SpecialFunctions.Trigonometric.InverseDeriv

namespace SW.Iqbal
open Real SW.Ephem

/-! ### the inverse sine -/

theorem arcsine_quintic {d : ℝ} (h0 : 0 ≤ d) (h1 : d ≤ 0.42) :
    0.068 * d ^ 5 ≤ d - sin d - sin d ^ 3 / 6 ∧ d - sin d - sin d ^ 3 / 6 ≤ 0.075 * d ^ 5 := by
  have der : ∀ a z : ℝ, HasDerivAt (fun z : ℝ => z - sin z - sin z ^ 3 / 6 - a * z ^ 5)
      ((1 - cos z) ^ 2 * (2 + cos z) / 2 - a * (5 * z ^ 4)) z := by
    intro a z
    have h := (((hasDerivAt_id z).sub (hasDerivAt_sin z)).sub (((hasDerivAt_sin z).pow 3).div_const 6)).sub
      (((hasDerivAt_id z).pow 5).const_mul a)
    refine h.congr_deriv ?_
    have := sin_sq_add_cos_sq z
    simp only [id, Nat.cast_ofNat]
    norm_num
    linear_combination (-cos z / 2) * this
  have bnd : ∀ z ∈ Set.Ioo (0 : ℝ) 0.42, 0.34 * z ^ 4 ≤ (1 - cos z) ^ 2 * (2 + cos z) / 2 ∧
      (1 - cos z) ^ 2 * (2 + cos z) / 2 ≤ 0.375 * z ^ 4 := by
    rintro z ⟨z0, z1⟩
    have c1 := one_sub_sq_div_two_le_cos (x := z)
    have c2 := cos_le_one z
    have c3 := (abs_le.1 (cos_bound (x := z) (by rw [abs_of_pos z0]; exact z1.le.trans (by norm_num)))).2
    rw [abs_of_pos z0] at c3
    have z2 : z ^ 2 ≤ 0.1764 := by nlinarith
    obtain ⟨c, hc⟩ : ∃ c, c = cos z := ⟨_, rfl⟩
    rw [← hc] at c1 c2 c3 ⊢
    have k1 : 0.49 * z ^ 2 ≤ 1 - c := by
      have : z ^ 4 = z ^ 2 * z ^ 2 := by ring
      rw [this] at c3
      norm_num at z2 ⊢
      nlinarith [sq_nonneg z]
    have k2 : 1 - c ≤ z ^ 2 / 2 := by linarith
    have k3 : 0.9 ≤ c := by norm_num at z2 ⊢; linarith
    have s1 : (0.49 * z ^ 2) ^ 2 ≤ (1 - c) ^ 2 := pow_le_pow_left₀ (by positivity) k1 2
    have s2 : (1 - c) ^ 2 ≤ (z ^ 2 / 2) ^ 2 := pow_le_pow_left₀ (by linarith) k2 2
    have e : z ^ 4 = (z ^ 2) ^ 2 := by ring
    have w : 0 ≤ z ^ 4 := by positivity
    constructor
    · have : (0.49 * z ^ 2) ^ 2 * 2.9 ≤ (1 - c) ^ 2 * (2 + c) := by
        apply mul_le_mul s1 _ (by norm_num) (sq_nonneg _); norm_num at k3 ⊢; linarith
      have e2 : (0.49 * z ^ 2) ^ 2 * 2.9 = 0.69629 * z ^ 4 := by norm_num; ring
      rw [e2] at this; norm_num at this ⊢; linarith
    · have : (1 - c) ^ 2 * (2 + c) ≤ (z ^ 2 / 2) ^ 2 * 3 := by
        apply mul_le_mul s2 _ (by linarith) (by positivity); linarith
      have e2 : (z ^ 2 / 2) ^ 2 * 3 = 0.75 * z ^ 4 := by norm_num; ring
      rw [e2] at this; norm_num at this ⊢; linarith
  have m1 : MonotoneOn (fun z : ℝ => z - sin z - sin z ^ 3 / 6 - 0.068 * z ^ 5) (Set.Icc 0 0.42) := by
    apply monotoneOn_of_deriv_nonneg (convex_Icc _ _)
    · fun_prop
    · fun_prop
    · intro z hz
      rw [interior_Icc] at hz
      rw [(der 0.068 z).deriv]
      have := (bnd z hz).1
      norm_num at this ⊢; linarith
  have m2 : AntitoneOn (fun z : ℝ => z - sin z - sin z ^ 3 / 6 - 0.075 * z ^ 5) (Set.Icc 0 0.42) := by
    apply antitoneOn_of_deriv_nonpos (convex_Icc _ _)
    · fun_prop
    · fun_prop
    · intro z hz
      rw [interior_Icc] at hz
      rw [(der 0.075 z).deriv]
      have := (bnd z hz).2
      norm_num at this ⊢; linarith
  have i0 : (0 : ℝ) ∈ Set.Icc (0 : ℝ) 0.42 := by constructor <;> norm_num
  have a1 := m1 i0 ⟨h0, h1⟩ h0
  have a2 := m2 i0 ⟨h0, h1⟩ h0
  simp only [sin_zero] at a1 a2
  norm_num at a1 a2 ⊢
  constructor <;> linarith

theorem arcsine_cubic_pos {d : ℝ} (h0 : 0 ≤ d) (h1 : d ≤ 0.42) :
    |d - (sin d + 0.18 * sin d ^ 3)| ≤ 2.5e-4 := by
  obtain ⟨a, b⟩ := arcsine_quintic h0 h1
  have s1 := sin_le h0
  have s2 : 0.97 * d ≤ sin d := by
    have := (abs_le.1 (sin_bound (x := d) (by rw [abs_of_nonneg h0]; exact h1.trans (by norm_num)))).1
    rw [abs_of_nonneg h0] at this
    have d2 : d ^ 2 ≤ 0.1764 := by norm_num at h1 ⊢; nlinarith
    have e : d - d ^ 3 / 6 - d ^ 5 / 100 = d * (1 - d ^ 2 / 6 - d ^ 2 * d ^ 2 / 100) := by ring
    have k : 0.97 ≤ 1 - d ^ 2 / 6 - d ^ 2 * d ^ 2 / 100 := by
      have := mul_le_mul d2 d2 (sq_nonneg d) (by norm_num)
      norm_num at d2 this ⊢; linarith
    have := mul_le_mul_of_nonneg_left k h0
    linarith
  have p1 : (0.97 * d) ^ 3 ≤ sin d ^ 3 := pow_le_pow_left₀ (by positivity) s2 3
  have p2 : sin d ^ 3 ≤ d ^ 3 := pow_le_pow_left₀ (by linarith [mul_nonneg (by norm_num : (0:ℝ) ≤ 0.97) h0]) s1 3
  have q1 : d ^ 5 * 0.075 - 0.0121 * d ^ 3 ≤ 2.5e-4 := by
    have d2 : d ^ 2 ≤ 0.1764 := by norm_num at h1 ⊢; nlinarith
    have d3 : d ^ 3 ≤ 0.0741 := by
      have := pow_le_pow_left₀ h0 h1 3
      norm_num at this ⊢; linarith
    have e : d ^ 5 = d ^ 3 * d ^ 2 := by ring
    have := mul_le_mul_of_nonneg_left d2 (by positivity : 0 ≤ d ^ 3)
    rw [e]; norm_num at d3 this ⊢; linarith
  have q2 : -2.5e-4 ≤ 0.068 * d ^ 5 - 0.01334 * d ^ 3 := by
    have t1 := mul_nonneg h0 (sq_nonneg (d - 0.343))
    have t2 := mul_nonneg (by positivity : 0 ≤ d ^ 3) (sq_nonneg (d - 0.343))
    have t3 := mul_nonneg (by positivity : 0 ≤ d ^ 2) (sq_nonneg (d - 0.343))
    have t4 := sq_nonneg (d - 0.343)
    norm_num at t1 t2 t3 t4 h1 ⊢
    nlinarith
  rw [abs_le]
  have e3 : (0.97 * d) ^ 3 = 0.912673 * d ^ 3 := by norm_num; ring
  have w : 0 ≤ d ^ 3 := by positivity
  rw [e3] at p1
  norm_num at a b p1 q1 q2 ⊢
  constructor <;> linarith

theorem arcsine_cubic {d : ℝ} (h : |d| ≤ 0.42) : |d - (sin d + 0.18 * sin d ^ 3)| ≤ 2.5e-4 := by
  rcases le_total 0 d with h0 | h0
  · rw [abs_of_nonneg h0] at h; exact arcsine_cubic_pos h0 h
  · rw [abs_of_nonpos h0] at h
    have := arcsine_cubic_pos (d := -d) (by linarith) h
    rw [sin_neg, ← abs_neg] at this
    refine le_trans (le_of_eq ?_) this
    congr 1; ring

/-- the declination changes by at most `s` times the change of the longitude -/
theorem arcsin_lip {s : ℝ} (h0 : 0 ≤ s) (h1 : s < 1) (a b : ℝ) :
    |arcsin (s * sin a) - arcsin (s * sin b)| ≤ s * |a - b| := by
  have in1 : ∀ x : ℝ, -1 < s * sin x ∧ s * sin x < 1 := by
    intro x
    have : |s * sin x| < 1 := by
      rw [abs_mul, abs_of_nonneg h0]
      exact lt_of_le_of_lt (mul_le_of_le_one_right h0 (abs_sin_le_one x)) h1
    exact abs_lt.1 this
  have der : ∀ x, HasDerivAt (fun x => arcsin (s * sin x)) (1 / √(1 - (s * sin x) ^ 2) * (s * cos x)) x := by
    intro x
    have h2 := in1 x
    exact (hasDerivAt_arcsin h2.1.ne' h2.2.ne).comp x ((hasDerivAt_sin x).const_mul s)
  have hl : LipschitzWith (Real.toNNReal s) (fun x => arcsin (s * sin x)) := by
    apply lipschitzWith_of_nnnorm_deriv_le (fun x => (der x).differentiableAt)
    intro x
    rw [← NNReal.coe_le_coe, coe_nnnorm, (der x).deriv, Real.norm_eq_abs, Real.coe_toNNReal _ h0]
    have h2 := in1 x
    have hp : 0 < 1 - (s * sin x) ^ 2 := by nlinarith
    rw [abs_mul, abs_of_pos (by positivity), abs_mul, abs_of_nonneg h0, one_div, inv_mul_eq_div,
      div_le_iff₀ (sqrt_pos.2 hp)]
    refine mul_le_mul_of_nonneg_left (abs_le_sqrt ?_) h0
    have := sin_sq_add_cos_sq x
    have : s ^ 2 * sin x ^ 2 ≤ 1 * sin x ^ 2 := by
      refine mul_le_mul_of_nonneg_right ?_ (sq_nonneg _); nlinarith
    rw [mul_pow]; linarith
  have := hl.dist_le_mul a b
  rw [Real.dist_eq, Real.dist_eq, Real.coe_toNNReal _ h0] at this
  exact this

/-! ### the elements -/

section
variable {t : ℤ} (h : InSec t) {T : ℝ} (hT : |T - ((t : ℝ) / 86400 - 10957.5) / 36525| ≤ 3.2e-10)
include h hT

theorem century_range : -3.2228 ≤ T ∧ T ≤ 2.6228 := by
  have a := abs_le.1 h.real
  have b := abs_le.1 hT
  norm_num at a b ⊢
  constructor <;> linarith [a.1, a.2, b.1, b.2]

/-- the elements in terms of the day angle `x`, up to whole turns -/
theorem elements : ∃ n : ℤ, ∃ x : ℝ, x = (dayAngle t : ℝ) + n * (2 * π) ∧
    |meanAnomaly T - (x - 0.0555)| ≤ 0.11 ∧
    Near T (x + 0.1612 - π / 2) (x + 0.1612 - π / 2 + 0.03344 * sin (x - 0.0555)) 0.40916 0.0265 6.7e-4 0.00445 := by
  obtain ⟨n, hn⟩ := phase h hT
  obtain ⟨c1, c2⟩ := century_range h hT
  have hT3 : |T| ≤ 3.24 := by rw [abs_le]; norm_num at c1 c2 ⊢; constructor <;> linarith
  refine ⟨n, _, rfl, ?_⟩
  obtain ⟨x, hx⟩ : ∃ x : ℝ, x = (dayAngle t : ℝ) + n * (2 * π) := ⟨_, rfl⟩
  have e : (dayAngle t : ℝ) + 0.1612 - π / 2 + n * (2 * π) = x + 0.1612 - π / 2 := by rw [hx]; ring
  rw [e] at hn
  rw [← hx]
  have hn' := abs_le.1 hn
  have p1 := pi_gt_d6
  have p2 := pi_lt_d6
  have hM : |meanAnomaly T - (x - 0.0555)| ≤ 0.11 := by
    have e1 : meanAnomaly T = meanLongitude T + (77.0683 - 1.7195 * T) * (π / 180) := by
      unfold meanAnomaly meanLongitude deg; norm_num; ring
    obtain ⟨w, hw⟩ : ∃ w, w = T * π := ⟨_, rfl⟩
    have e2 : (77.0683 - 1.7195 * T) * (π / 180) = 77.0683 / 180 * π - 1.7195 / 180 * w := by rw [hw]; ring
    have w1 : -3.2228 * 3.141593 ≤ w := by rw [hw]; norm_num at p1 p2 c1 c2 ⊢; nlinarith
    have w2 : w ≤ 2.6228 * 3.141593 := by rw [hw]; norm_num at p1 p2 c1 c2 ⊢; nlinarith
    rw [e1, e2, abs_le]
    norm_num at p1 p2 w1 w2 hn' ⊢
    constructor <;> linarith [hn'.1, hn'.2]
  have cc := center_cmp hT3 (A := 0.03344) (B := 0) (g := x - 0.0555) (dA := 2.5e-4) (dB := 3.6e-4) (dg := 0.11)
    (by unfold eccentricity; rw [abs_le]; norm_num at c1 c2 ⊢; constructor <;> linarith)
    (by
      unfold eccentricity; rw [abs_le]; norm_num at c1 c2 ⊢
      constructor <;> nlinarith)
    (by rw [abs_sub_comm]; exact hM)
  have cc := abs_le.1 cc
  have el : longitude T = meanLongitude T + center T := rfl
  refine ⟨hM, hT3, ?_, ?_, ?_⟩
  · rw [el, abs_le]
    norm_num at cc hn' ⊢
    constructor <;> linarith [hn'.1, hn'.2, cc.1, cc.2]
  · have ob := abs_le.1 (obliquity_num hT3)
    rw [abs_le]
    norm_num at ob c1 c2 ⊢
    constructor <;> linarith [ob.1, ob.2]
  · rw [el, abs_le]
    norm_num at cc ⊢
    constructor <;> linarith [cc.1, cc.2]

end

/-! ### numbers -/

local macro "small_trig" x:term : tactic => `(tactic| (
  have h1 := abs_le.1 (sin_bound (x := $x) (by rw [abs_of_pos] <;> norm_num))
  have h2 := abs_le.1 (cos_bound (x := $x) (by rw [abs_of_pos] <;> norm_num))
  rw [abs_of_pos (by norm_num)] at h1 h2
  rw [abs_le, abs_le]
  norm_num at h1 h2 ⊢
  refine ⟨⟨?_, ?_⟩, ?_, ?_⟩ <;> linarith [h1.1, h1.2, h2.1, h2.2]))

theorem n1612 : |sin 0.1612 - 0.160502| ≤ 0.0000022 ∧ |cos 0.1612 - 0.987007| ≤ 0.0000363 := by
  small_trig 0.1612

theorem n2167 : |sin 0.2167 - 0.215004| ≤ 0.0000059 ∧ |cos 0.2167 - 0.976521| ≤ 0.0001160 := by
  small_trig 0.2167

theorem n1057 : |sin 0.1057 - 0.105503| ≤ 0.0000013 ∧ |cos 0.1057 - 0.994414| ≤ 0.0000077 := by
  small_trig 0.1057

theorem n4836 : |sin 0.4836 - 0.46475| ≤ 0.0002657 ∧ |cos 0.4836 - 0.883066| ≤ 0.0028498 := by
  small_trig 0.4836

theorem n0555 : |sin 0.0555 - 0.055472| ≤ 0.0000012 ∧ |cos 0.0555 - 0.99846| ≤ 0.0000016 := by
  small_trig 0.0555

theorem n3224 : |sin 0.3224 - 0.316815| ≤ 0.0000360 ∧ |cos 0.3224 - 0.948029| ≤ 0.0005639 := by
  small_trig 0.3224

theorem n2669 : |sin 0.2669 - 0.263731| ≤ 0.0000147 ∧ |cos 0.2669 - 0.964382| ≤ 0.0002654 := by
  small_trig 0.2669

theorem n3779 : |sin 0.3779 - 0.368905| ≤ 0.0000782 ∧ |cos 0.3779 - 0.928596| ≤ 0.0010634 := by
  small_trig 0.3779

theorem n6448 : |sin 0.6448 - 0.600119| ≤ 0.0011158 ∧ |cos 0.6448 - 0.792116| ≤ 0.0090044 := by
  small_trig 0.6448

theorem n111 : |sin 0.111 - 0.110772| ≤ 0.0000013 ∧ |cos 0.111 - 0.993839| ≤ 0.0000091 := by
  small_trig 0.111


theorem obl_num : (0.39762 ≤ sin 0.40916 ∧ sin 0.40916 ≤ 0.39787) ∧ 0.91743 ≤ cos 0.40916 ∧ cos 0.40916 ≤ 0.91756 := by
  have h1 := abs_le.1 (sin_bound (x := 0.40916) (by rw [abs_of_pos] <;> norm_num))
  rw [abs_of_pos (by norm_num)] at h1
  have h2 : 0.39762 ≤ sin 0.40916 ∧ sin 0.40916 ≤ 0.39787 := by
    norm_num at h1 ⊢; constructor <;> linarith [h1.1, h1.2]
  refine ⟨h2, ?_⟩
  have h3 := sin_sq_add_cos_sq 0.40916
  have h4 : 0 ≤ cos 0.40916 := cos_nonneg_of_neg_pi_div_two_le_of_le
    (by have := pi_gt_d2; norm_num at this ⊢; linarith) (by have := pi_gt_d2; norm_num at this ⊢; linarith)
  generalize sin (0.40916 : ℝ) = a at *
  generalize cos (0.40916 : ℝ) = b at *
  constructor
  · by_contra hc
    push Not at hc
    have : b ^ 2 ≤ 0.91743 ^ 2 := pow_le_pow_left₀ h4 hc.le 2
    norm_num at h2 h3 this; nlinarith [h2.1, h2.2]
  · by_contra hc
    push Not at hc
    have : 0.91756 ^ 2 ≤ b ^ 2 := pow_le_pow_left₀ (by norm_num) hc.le 2
    norm_num at h2 h3 this; nlinarith [h2.1, h2.2]

theorem mul_box {a b l u m v : ℝ} (hl : 0 ≤ l) (hm : 0 ≤ m) (ha : l ≤ a ∧ a ≤ u) (hb : m ≤ b ∧ b ≤ v) :
    l * m ≤ a * b ∧ a * b ≤ u * v :=
  ⟨mul_le_mul ha.1 hb.1 hm (hl.trans ha.1), mul_le_mul ha.2 hb.2 (hm.trans hb.1) ((hl.trans ha.1).trans ha.2)⟩

/-- amplitude of an oscillation -/
theorem wave {a b p q m : ℝ} (t : ℝ) (hm : 0 ≤ m) (ha : |a| ≤ p) (hb : |b| ≤ q) (h : p ^ 2 + q ^ 2 ≤ m ^ 2) :
    |a * cos t + b * sin t| ≤ m := by
  refine abs_cos_sin_le a b t hm (le_trans ?_ h)
  have h1 := pow_le_pow_left₀ (abs_nonneg _) ha 2
  have h2 := pow_le_pow_left₀ (abs_nonneg _) hb 2
  rw [sq_abs] at h1 h2
  linarith

/-! ### declination -/

set_option maxHeartbeats 1000000 in
theorem decl_base (x : ℝ) : |decl x - arcsin (sin 0.40916 *
    sin (x + 0.1612 - π / 2 + 0.03344 * sin (x - 0.0555)))| ≤ 0.0072 := by
  obtain ⟨⟨s1, s2⟩, -⟩ := obl_num
  have hp := pi_gt_d2
  obtain ⟨y, hy⟩ : ∃ y, y = x + 0.1612 := ⟨_, rfl⟩
  obtain ⟨C, hC⟩ : ∃ C, C = 0.03344 * sin (x - 0.0555) := ⟨_, rfl⟩
  have hCb : |C| ≤ 0.03344 := by
    rw [hC]; refine (Nrel.abs_mul_le' (A := 0.03344) (by rw [abs_of_pos] <;> norm_num) (abs_sin_le_one _)).trans ?_
    norm_num
  have hC2 : C ^ 2 ≤ 0.00112 := by
    rw [← sq_abs]; exact (pow_le_pow_left₀ (abs_nonneg _) hCb 2).trans (by norm_num)
  rw [← hy, ← hC]
  have hd : |arcsin (sin 0.40916 * sin (y - π / 2 + C))| ≤ 0.42 :=
    (Psa.arcsin_bound (e := 0.40916) ⟨by norm_num, by norm_num at hp ⊢; linarith⟩).trans (by norm_num)
  have hx1 : |sin 0.40916 * sin (y - π / 2 + C)| ≤ 1 := by
    rw [abs_mul]; exact mul_le_one₀ (abs_sin_le_one _) (abs_nonneg _) (abs_sin_le_one _)
  have hx2 := abs_le.1 hx1
  obtain ⟨d, hdd⟩ : ∃ d, d = arcsin (sin 0.40916 * sin (y - π / 2 + C)) := ⟨_, rfl⟩
  have hs : sin d = sin 0.40916 * sin (y - π / 2 + C) := by rw [hdd, sin_arcsin hx2.1 hx2.2]
  rw [← hdd] at hd ⊢
  have k0 := arcsine_cubic hd
  rw [hs] at k0
  obtain ⟨s, hss⟩ : ∃ s, s = sin 0.40916 := ⟨_, rfl⟩
  rw [← hss] at s1 s2 k0
  obtain ⟨A, hA⟩ : ∃ A, A = s + 0.135 * s ^ 3 := ⟨_, rfl⟩
  obtain ⟨B, hB⟩ : ∃ B, B = 0.045 * s ^ 3 := ⟨_, rfl⟩
  have c1 : 0.39762 ^ 3 ≤ s ^ 3 := pow_le_pow_left₀ (by norm_num) s1 3
  have c2 : s ^ 3 ≤ 0.39787 ^ 3 := pow_le_pow_left₀ (le_trans (by norm_num) s1) s2 3
  have hAb : 0.4061 ≤ A ∧ A ≤ 0.4064 := by rw [hA]; norm_num at s1 s2 c1 c2 ⊢; constructor <;> linarith
  have hBb : 0.00282 ≤ B ∧ B ≤ 0.00284 := by rw [hB]; norm_num at c1 c2 ⊢; constructor <;> linarith
  have e1 : sin (y - π / 2 + C) = -cos (y + C) := by
    rw [show y - π / 2 + C = (y + C) - π / 2 by ring, sin_sub_pi_div_two]
  -- the cubic
  have e2 : s * sin (y - π / 2 + C) + 0.18 * (s * sin (y - π / 2 + C)) ^ 3
      = -A * cos (y + C) - B * cos (3 * (y + C)) := by
    rw [e1, cos_three_mul, hA, hB]; ring
  rw [e2] at k0
  have k1 := Nrel.cos_expand y C (hCb.trans (by norm_num))
  have k2 : |cos (3 * (y + C)) - cos (3 * y)| ≤ 0.1004 := by
    refine (abs_cos_sub_cos_le _ _).trans ?_
    rw [show 3 * (y + C) - 3 * y = 3 * C by ring, abs_mul, abs_of_pos (by norm_num : (0:ℝ) < 3)]
    norm_num at hCb ⊢; linarith
  have e3 : C * sin y = 0.01672 * (cos 0.2167 - cos (2 * x + 0.1057)) := by
    rw [show (0.2167 : ℝ) = y - (x - 0.0555) by rw [hy]; norm_num,
      show 2 * x + 0.1057 = y + (x - 0.0555) by rw [hy]; norm_num; ring, cos_sub, cos_add, hC]
    norm_num; ring
  have e4 : cos y = cos x * cos 0.1612 - sin x * sin 0.1612 := by rw [hy, cos_add]
  have e5 : cos (2 * x + 0.1057) = cos (2 * x) * cos 0.1057 - sin (2 * x) * sin 0.1057 := by rw [cos_add]
  have e6 : cos (3 * y) = cos (3 * x) * cos 0.4836 - sin (3 * x) * sin 0.4836 := by
    rw [hy, show 3 * (x + 0.1612) = 3 * x + 0.4836 by norm_num; ring, cos_add]
  obtain ⟨n1, n2⟩ := n1612
  obtain ⟨n3, n4⟩ := n1057
  obtain ⟨n5, n6⟩ := n4836
  have n7 := n2167.2
  rw [abs_le] at n1 n2 n3 n4 n5 n6 n7
  -- remainders
  obtain ⟨r0, hr0⟩ : ∃ r, r = d - (-A * cos (y + C) - B * cos (3 * (y + C))) := ⟨_, rfl⟩
  obtain ⟨r1, hr1⟩ : ∃ r, r = cos (y + C) - (cos y - C * sin y) := ⟨_, rfl⟩
  obtain ⟨r2, hr2⟩ : ∃ r, r = cos (3 * (y + C)) - cos (3 * y) := ⟨_, rfl⟩
  rw [← hr0] at k0
  rw [← hr1] at k1
  rw [← hr2] at k2
  have ed : decl x = 0.006918 - 0.399912 * cos x + 0.070257 * sin x
    - 0.006758 * cos (2 * x) + 0.000907 * sin (2 * x)
    - 0.002697 * cos (3 * x) + 0.001480 * sin (3 * x) := rfl
  have E : decl x - d = (0.006918 - 0.01672 * (A * cos 0.2167))
      + ((-0.399912 + A * cos 0.1612) * cos x + (0.070257 - A * sin 0.1612) * sin x)
      + ((-0.006758 + 0.01672 * (A * cos 0.1057)) * cos (2 * x) + (0.000907 - 0.01672 * (A * sin 0.1057)) * sin (2 * x))
      + ((-0.002697 + B * cos 0.4836) * cos (3 * x) + (0.001480 - B * sin 0.4836) * sin (3 * x))
      - r0 + A * r1 + B * r2 := by
    have f0 : d = r0 + (-A * cos (y + C) - B * cos (3 * (y + C))) := by rw [hr0]; ring
    have f1 : cos (y + C) = r1 + (cos y - C * sin y) := by rw [hr1]; ring
    have f2 : cos (3 * (y + C)) = r2 + cos (3 * y) := by rw [hr2]; ring
    rw [ed, f0, f1, f2, e3, e4, e5, e6]; ring
  have q2 := mul_box (a := A) (b := cos 0.1612) (l := 0.4061) (u := 0.4064) (m := 0.98697) (v := 0.98705)
    (by norm_num) (by norm_num) hAb (by norm_num at n2 ⊢; constructor <;> linarith [n2.1, n2.2])
  have q1 := mul_box (a := A) (b := sin 0.1612) (l := 0.4061) (u := 0.4064) (m := 0.16049) (v := 0.16051)
    (by norm_num) (by norm_num) hAb (by norm_num at n1 ⊢; constructor <;> linarith [n1.1, n1.2])
  have q4 := mul_box (a := A) (b := cos 0.1057) (l := 0.4061) (u := 0.4064) (m := 0.9944) (v := 0.99443)
    (by norm_num) (by norm_num) hAb (by norm_num at n4 ⊢; constructor <;> linarith [n4.1, n4.2])
  have q3 := mul_box (a := A) (b := sin 0.1057) (l := 0.4061) (u := 0.4064) (m := 0.1055) (v := 0.10551)
    (by norm_num) (by norm_num) hAb (by norm_num at n3 ⊢; constructor <;> linarith [n3.1, n3.2])
  have q6 := mul_box (a := B) (b := cos 0.4836) (l := 0.00282) (u := 0.00284) (m := 0.88) (v := 0.8862)
    (by norm_num) (by norm_num) hBb (by norm_num at n6 ⊢; constructor <;> linarith [n6.1, n6.2])
  have q5 := mul_box (a := B) (b := sin 0.4836) (l := 0.00282) (u := 0.00284) (m := 0.4644) (v := 0.4653)
    (by norm_num) (by norm_num) hBb (by norm_num at n5 ⊢; constructor <;> linarith [n5.1, n5.2])
  have q7 := mul_box (a := A) (b := cos 0.2167) (l := 0.4061) (u := 0.4064) (m := 0.9764) (v := 0.9767)
    (by norm_num) (by norm_num) hAb (by norm_num at n7 ⊢; constructor <;> linarith [n7.1, n7.2])
  clear e1 e2 e3 e4 e5 e6 n1 n2 n3 n4 n5 n6 n7 hx1 hx2 hs hd s1 s2 c1 c2 ed
  have m1 := wave x (a := -0.399912 + A * cos 0.1612) (b := 0.070257 - A * sin 0.1612) (p := 0.00128) (q := 0.00509)
    (m := 0.0053) (by norm_num) (by rw [abs_le]; norm_num at q2 ⊢; constructor <;> linarith [q2.1, q2.2])
    (by rw [abs_le]; norm_num at q1 ⊢; constructor <;> linarith [q1.1, q1.2]) (by norm_num)
  have m2 := wave (2 * x) (a := -0.006758 + 0.01672 * (A * cos 0.1057)) (b := 0.000907 - 0.01672 * (A * sin 0.1057))
    (p := 1e-5) (q := 1.94e-4) (m := 2e-4) (by norm_num)
    (by rw [abs_le]; norm_num at q4 ⊢; constructor <;> linarith [q4.1, q4.2])
    (by rw [abs_le]; norm_num at q3 ⊢; constructor <;> linarith [q3.1, q3.2]) (by norm_num)
  have m3 := wave (3 * x) (a := -0.002697 + B * cos 0.4836) (b := 0.001480 - B * sin 0.4836)
    (p := 2.5e-4) (q := 1.8e-4) (m := 3.2e-4) (by norm_num)
    (by rw [abs_le]; norm_num at q6 ⊢; constructor <;> linarith [q6.1, q6.2])
    (by rw [abs_le]; norm_num at q5 ⊢; constructor <;> linarith [q5.1, q5.2]) (by norm_num)
  have m0 : |0.006918 - 0.01672 * (A * cos 0.2167)| ≤ 3e-4 := by
    rw [abs_le]; norm_num at q7 ⊢; constructor <;> linarith [q7.1, q7.2]
  have m4 : |A * r1| ≤ 0.4064 * 0.00112 :=
    Nrel.abs_mul_le' (by rw [abs_of_pos (lt_of_lt_of_le (by norm_num) hAb.1)]; exact hAb.2) (k1.trans hC2)
  have m5 : |B * r2| ≤ 0.00284 * 0.1004 :=
    Nrel.abs_mul_le' (by rw [abs_of_pos (lt_of_lt_of_le (by norm_num) hBb.1)]; exact hBb.2) k2
  rw [E]
  rw [abs_le] at m0 m1 m2 m3 m4 m5 k0 ⊢
  generalize (-0.399912 + A * cos 0.1612) * cos x + (0.070257 - A * sin 0.1612) * sin x = z1 at *
  generalize (-0.006758 + 0.01672 * (A * cos 0.1057)) * cos (2 * x) + (0.000907 - 0.01672 * (A * sin 0.1057)) * sin (2 * x) = z2 at *
  generalize (-0.002697 + B * cos 0.4836) * cos (3 * x) + (0.001480 - B * sin 0.4836) * sin (3 * x) = z3 at *
  generalize 0.006918 - 0.01672 * (A * cos 0.2167) = z0 at *
  generalize A * r1 = z4 at *
  generalize B * r2 = z5 at *
  clear E hr0 hr1 hr2 hdd
  norm_num at m0 m1 m2 m3 m4 m5 k0 ⊢
  constructor <;> linarith [m0.1, m0.2, m1.1, m1.2, m2.1, m2.2, m3.1, m3.2, m4.1, m4.2, m5.1, m5.2, k0.1, k0.2]

theorem decl_turn (a : ℝ) (n : ℤ) : decl (a + n * (2 * π)) = decl a := by
  have h1 := cos_add_int_mul_two_pi a n
  have h2 := sin_add_int_mul_two_pi a n
  have e2 : 2 * (a + n * (2 * π)) = 2 * a + ((2 * n : ℤ) : ℝ) * (2 * π) := by push_cast; ring
  have e3 : 3 * (a + n * (2 * π)) = 3 * a + ((3 * n : ℤ) : ℝ) * (2 * π) := by push_cast; ring
  have ed : ∀ x : ℝ, decl x = 0.006918 - 0.399912 * cos x + 0.070257 * sin x
    - 0.006758 * cos (2 * x) + 0.000907 * sin (2 * x)
    - 0.002697 * cos (3 * x) + 0.001480 * sin (3 * x) := fun _ => rfl
  rw [ed, ed, h1, h2, e2, e3, cos_add_int_mul_two_pi, sin_add_int_mul_two_pi, cos_add_int_mul_two_pi,
    sin_add_int_mul_two_pi]

theorem dec_ref {t : ℤ} (h : InSec t) {T : ℝ} (hT : |T - ((t : ℝ) / 86400 - 10957.5) / 36525| ≤ 3.2e-10) :
    |decAt t - declination T| ≤ 0.0185 := by
  obtain ⟨n, x, hx, -, N⟩ := elements h hT
  have h1 := decl_base x
  have hd : decl x = decAt t := by rw [hx, decl_turn]; rfl
  rw [hd] at h1
  obtain ⟨⟨s1, s2⟩, -⟩ := obl_num
  have h2 := arcsin_lip (s := sin 0.40916) (le_trans (by norm_num) s1) (lt_of_le_of_lt s2 (by norm_num))
    (x + 0.1612 - π / 2 + 0.03344 * sin (x - 0.0555)) (longitude T)
  have hp := pi_gt_d2
  obtain ⟨o1, o2⟩ := obliquity_bound N.cent
  have h3 : |arcsin (sin 0.40916 * sin (longitude T)) - arcsin (sin (obliquity T) * sin (longitude T))| ≤ 6.7e-4 / 0.91 := by
    refine (arcsin_sub_le ?_ ?_ ?_ ?_).trans (div_le_div_of_nonneg_right ?_ (by norm_num))
    · exact (Psa.arcsin_bound (e := 0.40916) ⟨by norm_num, by norm_num at hp ⊢; linarith⟩).trans (by norm_num)
    · exact (Psa.arcsin_bound ⟨by norm_num at o1 ⊢; linarith, by norm_num at o2 hp ⊢; linarith⟩).trans
        (o2.trans (by norm_num))
    · rw [abs_mul]; exact mul_le_one₀ (abs_sin_le_one _) (abs_nonneg _) (abs_sin_le_one _)
    · rw [abs_mul]; exact mul_le_one₀ (abs_sin_le_one _) (abs_nonneg _) (abs_sin_le_one _)
    · rw [← sub_mul]
      refine (Nrel.abs_mul_le' ((abs_sin_sub_sin_le _ _).trans N.obl) (abs_sin_le_one _)).trans (by norm_num)
  have h4 : sin 0.40916 * |x + 0.1612 - π / 2 + 0.03344 * sin (x - 0.0555) - longitude T| ≤ 0.39787 * 0.0265 :=
    mul_le_mul s2 N.lon (abs_nonneg _) (by norm_num)
  have h2 := h2.trans h4
  have hD : declination T = arcsin (sin (obliquity T) * sin (longitude T)) := rfl
  rw [← hD] at h3
  rw [abs_le] at h1 h2 h3 ⊢
  generalize arcsin (sin 0.40916 * sin (x + 0.1612 - π / 2 + 0.03344 * sin (x - 0.0555))) = a at *
  generalize arcsin (sin 0.40916 * sin (longitude T)) = b at *
  norm_num at h1 h2 h3 ⊢
  constructor <;> linarith [h1.1, h1.2, h2.1, h2.2, h3.1, h3.2]

/-! ### equation of time -/

theorem arctan_near {v b : ℝ} (h : |v| ≤ b) : |arctan v - v| ≤ b ^ 2 * b := by
  have hb : 0 ≤ b := (abs_nonneg _).trans h
  have der : ∀ x : ℝ, HasDerivAt (fun x => arctan x - x) (1 / (1 + x ^ 2) - 1) x :=
    fun x => (hasDerivAt_arctan x).sub (hasDerivAt_id x)
  have := (convex_Icc (-b) b).norm_image_sub_le_of_norm_deriv_le (f := fun x => arctan x - x) (C := b ^ 2)
    (x := 0) (y := v) (fun x _ => (der x).differentiableAt)
    (fun x hx => by
      rw [(der x).deriv, Real.norm_eq_abs]
      have hx2 : x ^ 2 ≤ b ^ 2 := by rw [← sq_abs]; exact pow_le_pow_left₀ (abs_nonneg _) (abs_le.2 hx) 2
      have e : 1 / (1 + x ^ 2) - 1 = -(x ^ 2 / (1 + x ^ 2)) := by field_simp; ring
      rw [e, abs_neg, abs_of_nonneg (by positivity)]
      exact (div_le_self (sq_nonneg _) (by nlinarith [sq_nonneg x])).trans hx2)
    ⟨by linarith, hb⟩ (abs_le.1 h)
  simp only [arctan_zero, sub_zero, Real.norm_eq_abs] at this
  exact this.trans (mul_le_mul_of_nonneg_left h (sq_nonneg _))

/-- longitude minus right ascension -/
theorem ra_expand {c l : ℝ} (hc : 0.91743 ≤ c ∧ c ≤ 0.91756) : ∃ k : ℤ, ∃ q : ℝ, (0.04299 ≤ q ∧ q ≤ 0.04307) ∧
    |l - ratan2 (sin l * c) (cos l) - k * (2 * π) - (q * sin (2 * l) - q ^ 2 / 2 * sin (4 * l))| ≤ 1.8e-4 := by
  have q0 := sin_sq_add_cos_sq l
  obtain ⟨S, hS⟩ : ∃ S, S = sin l := ⟨_, rfl⟩
  obtain ⟨K, hK⟩ : ∃ K, K = cos l := ⟨_, rfl⟩
  rw [← hS, ← hK] at q0
  have hD : 0 < K * K + S * c * S := by nlinarith [sq_nonneg S, sq_nonneg K, hc.1]
  obtain ⟨k, hk⟩ := ratan2_near (sin l * c) (cos l) l (by rw [← hS, ← hK]; exact hD)
  rw [← hS, ← hK] at hk
  have c1 : 0 < 1 + c := by linarith [hc.1, (by norm_num : (0 : ℝ) ≤ 0.91743)]
  obtain ⟨q, hq⟩ : ∃ q, q = (1 - c) / (1 + c) := ⟨_, rfl⟩
  have hqc : q * (1 + c) = 1 - c := by rw [hq]; field_simp
  have hqb : 0.04299 ≤ q ∧ q ≤ 0.04307 := by
    rw [hq, le_div_iff₀ c1, div_le_iff₀ c1]; norm_num at hc ⊢; constructor <;> linarith [hc.1, hc.2]
  refine ⟨-k, q, hqb, ?_⟩
  obtain ⟨V, hV⟩ : ∃ V, V = (S * c * K - K * S) / (K * K + S * c * S) := ⟨_, rfl⟩
  rw [← hV] at hk
  obtain ⟨A, hA⟩ : ∃ A, A = sin (2 * l) := ⟨_, rfl⟩
  obtain ⟨B, hB⟩ : ∃ B, B = cos (2 * l) := ⟨_, rfl⟩
  have hA' : A = 2 * S * K := by rw [hA, sin_two_mul, hS, hK]
  have hB' : B = 2 * K ^ 2 - 1 := by rw [hB, cos_two_mul, hK]
  have h4 : sin (4 * l) = 2 * A * B := by
    rw [show 4 * l = 2 * (2 * l) by ring, sin_two_mul, hA, hB]
  have hA1 : |A| ≤ 1 := hA ▸ abs_sin_le_one _
  have hB1 : |B| ≤ 1 := hB ▸ abs_cos_le_one _
  have hBa := abs_le.1 hB1
  have hden : 0.956 ≤ 1 + q * B := by norm_num at hqb ⊢; nlinarith [hqb.1, hqb.2]
  have hden0 : 0 < 1 + q * B := lt_of_lt_of_le (by norm_num) hden
  have hVq : V = -(q * A / (1 + q * B)) := by
    rw [hV, ← neg_div, div_eq_div_iff hD.ne' hden0.ne', hA', hB']
    have e : c = (1 - q) / (1 + q) := by
      rw [eq_div_iff (by linarith [hqb.1, (by norm_num : (0:ℝ) ≤ 0.04299)])]; linarith
    have hq1 : (1 + q) ≠ 0 := by linarith [hqb.1, (by norm_num : (0:ℝ) ≤ 0.04299)]
    rw [e]; field_simp
    have q2 : S ^ 2 = 1 - K ^ 2 := by linarith
    ring_nf
    have q3 : S ^ 3 = S * (1 - K ^ 2) := by rw [← q2]; ring
    rw [q3]; ring
  have hqp : 0 ≤ q := le_trans (by norm_num) hqb.1
  have hVb : |V| ≤ 0.0451 := by
    rw [hVq, abs_neg, abs_div, abs_of_pos hden0, div_le_iff₀ hden0, abs_mul, abs_of_nonneg hqp]
    have : q * |A| ≤ 0.04307 * 1 := mul_le_mul hqb.2 hA1 (abs_nonneg _) (by norm_num)
    norm_num at this hden ⊢; linarith
  have k1 := arctan_near hVb
  have e2 : V + (q * A - q ^ 2 * (A * B)) = -(q ^ 3 * (A * (B * B)) / (1 + q * B)) := by
    rw [hVq]; field_simp; ring
  have k2 : |V + (q * A - q ^ 2 * (A * B))| ≤ 8.5e-5 := by
    rw [e2, abs_neg, abs_div, abs_of_pos hden0, div_le_iff₀ hden0, abs_mul]
    have a1 : |A * (B * B)| ≤ 1 * (1 * 1) := Nrel.abs_mul_le' hA1 (Nrel.abs_mul_le' hB1 hB1)
    have a2 : |q ^ 3| ≤ 0.04307 ^ 3 := by
      rw [abs_of_nonneg (by positivity)]; exact pow_le_pow_left₀ hqp hqb.2 3
    have := mul_le_mul a2 a1 (abs_nonneg _) (by norm_num)
    norm_num at this hden ⊢; linarith
  have e3 : l - ratan2 (sin l * c) (cos l) - ((-k : ℤ) : ℝ) * (2 * π) - (q * sin (2 * l) - q ^ 2 / 2 * sin (4 * l))
      = -(arctan V - V) - (V + (q * A - q ^ 2 * (A * B))) := by
    rw [← hS, ← hK, hk, h4, ← hA]; push_cast; ring
  rw [e3]
  refine (abs_sub _ _).trans ?_
  rw [abs_neg]
  refine (add_le_add k1 k2).trans (by norm_num)

theorem eotMinutes_real (x : ℝ) : eotMinutes x = 0.00986571 + 0.58688718 * cos x - 7.34538133 * sin x
      - 3.31493999 * cos (2 * x) - 9.35366541 * sin (2 * x)
      - 0.08151750 * cos (3 * x) - 0.30892409 * sin (3 * x)
      - 0.13532889 * cos (4 * x) - 0.17336220 * sin (4 * x) := by
  show (0.00986571 + 0.58688718 * cos x - 7.34538133 * sin x
      - 3.31493999 * cos (2 * x) - 9.35366541 * sin (2 * x)
      - 0.08151750 * cos (3 * x) - 0.30892409 * sin (3 * x)
      - 0.13532889 * cos (4 * x) - 0.17336220 * sin (4 * x)) / 60.0 * 60 = _
  norm_num

theorem sin_near (φ d : ℝ) (h : |d| ≤ 1) : |sin (φ + d) - (sin φ + d * cos φ)| ≤ d ^ 2 := by
  have := Nrel.cos_expand (φ - π / 2) d h
  rw [show φ - π / 2 + d = φ + d - π / 2 by ring, cos_sub_pi_div_two, cos_sub_pi_div_two, sin_sub_pi_div_two] at this
  rwa [mul_neg, sub_neg_eq_add] at this

set_option maxHeartbeats 1000000 in
theorem eot_base (x : ℝ) : ∃ k : ℤ, |eotMinutes x * (2 * π / 1440)
    - ((x + 0.1612 - π / 2) - ratan2 (sin (x + 0.1612 - π / 2 + 0.03344 * sin (x - 0.0555)) * cos 0.40916 - 0)
      (cos (x + 0.1612 - π / 2 + 0.03344 * sin (x - 0.0555)))) - k * (2 * π)| ≤ 0.0017 := by
  obtain ⟨-, hc⟩ := obl_num
  obtain ⟨y, hy⟩ : ∃ y, y = x + 0.1612 := ⟨_, rfl⟩
  obtain ⟨C, hC⟩ : ∃ C, C = 0.03344 * sin (x - 0.0555) := ⟨_, rfl⟩
  have hCb : |C| ≤ 0.03344 := by
    rw [hC]; refine (Nrel.abs_mul_le' (A := 0.03344) (by rw [abs_of_pos] <;> norm_num) (abs_sin_le_one _)).trans ?_
    norm_num
  rw [← hy, ← hC, sub_zero]
  obtain ⟨k, q, hq, hk⟩ := ra_expand (l := y - π / 2 + C) hc
  obtain ⟨R, hR⟩ : ∃ R, R = ratan2 (sin (y - π / 2 + C) * cos 0.40916) (cos (y - π / 2 + C)) := ⟨_, rfl⟩
  rw [← hR] at hk ⊢
  refine ⟨-k, ?_⟩
  have e1 : sin (2 * (y - π / 2 + C)) = -sin (2 * y + 2 * C) := by
    rw [show 2 * (y - π / 2 + C) = 2 * y + 2 * C - π by ring, sin_sub_pi]
  have e2 : sin (4 * (y - π / 2 + C)) = sin (4 * y + 4 * C) := by
    rw [show 4 * (y - π / 2 + C) = 4 * y + 4 * C - 2 * π by ring, sin_sub_two_pi]
  rw [e1, e2] at hk
  have hCa := abs_le.1 hCb
  have k1 := sin_near (2 * y) (2 * C) (by rw [abs_le]; norm_num at hCa ⊢; constructor <;> linarith [hCa.1, hCa.2])
  have hC2 : (2 * C) ^ 2 ≤ 0.00448 := by
    have : C ^ 2 ≤ 0.03344 ^ 2 := by rw [← sq_abs]; exact pow_le_pow_left₀ (abs_nonneg _) hCb 2
    rw [mul_pow]; norm_num at this ⊢; linarith
  have k1 := k1.trans hC2
  have k2 : |sin (4 * y + 4 * C) - sin (4 * y)| ≤ 0.134 := by
    refine (abs_sin_sub_sin_le _ _).trans ?_
    rw [add_sub_cancel_left, abs_mul, abs_of_pos (by norm_num : (0:ℝ) < 4)]
    norm_num at hCb ⊢; linarith
  have e3 : 2 * C * cos (2 * y) = 0.03344 * (sin (3 * x + 0.2669) - sin (x + 0.3779)) := by
    rw [show 3 * x + 0.2669 = (x - 0.0555) + 2 * y by rw [hy]; norm_num; ring,
      show x + 0.3779 = 2 * y - (x - 0.0555) by rw [hy]; norm_num; ring, sin_sub, sin_add, hC]
    norm_num; ring
  have e4 : sin (2 * y) = sin (2 * x) * cos 0.3224 + cos (2 * x) * sin 0.3224 := by
    rw [hy, show 2 * (x + 0.1612) = 2 * x + 0.3224 by norm_num; ring, sin_add]
  have e5 : sin (4 * y) = sin (4 * x) * cos 0.6448 + cos (4 * x) * sin 0.6448 := by
    rw [hy, show 4 * (x + 0.1612) = 4 * x + 0.6448 by norm_num; ring, sin_add]
  have e6 := sin_add (3 * x) 0.2669
  have e7 := sin_add x 0.3779
  have e8 : C = 0.03344 * (sin x * cos 0.0555 - cos x * sin 0.0555) := by rw [hC, sin_sub]
  obtain ⟨Q, hQ⟩ : ∃ Q, Q = q ^ 2 / 2 := ⟨_, rfl⟩
  have hQb : 0.000924 ≤ Q ∧ Q ≤ 0.000928 := by
    have a1 := mul_box (a := q) (b := q) (l := 0.04299) (u := 0.04307) (m := 0.04299) (v := 0.04307)
      (by norm_num) (by norm_num) hq hq
    rw [hQ, sq]; norm_num at a1 ⊢; constructor <;> linarith [a1.1, a1.2]
  rw [← hQ] at hk
  obtain ⟨u, hu⟩ : ∃ u, u = 2 * π / 1440 := ⟨_, rfl⟩
  have hub : 0.00436332 ≤ u ∧ u ≤ 0.00436333 := by
    have p1 := pi_gt_d6
    have p2 := pi_lt_d6
    rw [hu]; norm_num at p1 p2 ⊢; constructor <;> linarith
  rw [← hu, eotMinutes_real]
  obtain ⟨r0, hr0⟩ : ∃ r, r = y - π / 2 + C - R - k * (2 * π) - (q * -sin (2 * y + 2 * C) - Q * sin (4 * y + 4 * C)) := ⟨_, rfl⟩
  obtain ⟨r1, hr1⟩ : ∃ r, r = sin (2 * y + 2 * C) - (sin (2 * y) + 2 * C * cos (2 * y)) := ⟨_, rfl⟩
  obtain ⟨r2, hr2⟩ : ∃ r, r = sin (4 * y + 4 * C) - sin (4 * y) := ⟨_, rfl⟩
  rw [← hr0] at hk
  rw [← hr1] at k1
  rw [← hr2] at k2
  have E : (0.00986571 + 0.58688718 * cos x - 7.34538133 * sin x
      - 3.31493999 * cos (2 * x) - 9.35366541 * sin (2 * x)
      - 0.08151750 * cos (3 * x) - 0.30892409 * sin (3 * x)
      - 0.13532889 * cos (4 * x) - 0.17336220 * sin (4 * x)) * u - (y - π / 2 - R) - ((-k : ℤ) : ℝ) * (2 * π)
    = 0.00986571 * u
      + ((0.58688718 * u - 0.03344 * sin 0.0555 - 0.03344 * (q * sin 0.3779)) * cos x
        + (-7.34538133 * u + 0.03344 * cos 0.0555 - 0.03344 * (q * cos 0.3779)) * sin x)
      + ((-3.31493999 * u + q * sin 0.3224) * cos (2 * x) + (-9.35366541 * u + q * cos 0.3224) * sin (2 * x))
      + ((-0.08151750 * u + 0.03344 * (q * sin 0.2669)) * cos (3 * x)
        + (-0.30892409 * u + 0.03344 * (q * cos 0.2669)) * sin (3 * x))
      + ((-0.13532889 * u + Q * sin 0.6448) * cos (4 * x) + (-0.17336220 * u + Q * cos 0.6448) * sin (4 * x))
      - r0 + q * r1 + Q * r2 := by
    have f0 : y - π / 2 - R = r0 + k * (2 * π) - C + (q * -sin (2 * y + 2 * C) - Q * sin (4 * y + 4 * C)) := by
      rw [hr0]; ring
    have f1 : sin (2 * y + 2 * C) = r1 + (sin (2 * y) + 2 * C * cos (2 * y)) := by rw [hr1]; ring
    have f2 : sin (4 * y + 4 * C) = r2 + sin (4 * y) := by rw [hr2]; ring
    rw [f0, f1, f2, e3, e4, e5, e6, e7, e8]; push_cast; ring
  obtain ⟨a1, a2⟩ := n0555
  obtain ⟨a3, a4⟩ := n3779
  obtain ⟨a5, a6⟩ := n3224
  obtain ⟨a7, a8⟩ := n2669
  obtain ⟨a9, a10⟩ := n6448
  rw [abs_le] at a1 a2 a3 a4 a5 a6 a7 a8 a9 a10
  have b3 := mul_box (a := q) (b := sin 0.3779) (l := 0.04299) (u := 0.04307) (m := 0.3688) (v := 0.369)
    (by norm_num) (by norm_num) hq (by norm_num at a3 ⊢; constructor <;> linarith [a3.1, a3.2])
  have b4 := mul_box (a := q) (b := cos 0.3779) (l := 0.04299) (u := 0.04307) (m := 0.9275) (v := 0.9297)
    (by norm_num) (by norm_num) hq (by norm_num at a4 ⊢; constructor <;> linarith [a4.1, a4.2])
  have b5 := mul_box (a := q) (b := sin 0.3224) (l := 0.04299) (u := 0.04307) (m := 0.3167) (v := 0.3169)
    (by norm_num) (by norm_num) hq (by norm_num at a5 ⊢; constructor <;> linarith [a5.1, a5.2])
  have b6 := mul_box (a := q) (b := cos 0.3224) (l := 0.04299) (u := 0.04307) (m := 0.9474) (v := 0.9486)
    (by norm_num) (by norm_num) hq (by norm_num at a6 ⊢; constructor <;> linarith [a6.1, a6.2])
  have b7 := mul_box (a := q) (b := sin 0.2669) (l := 0.04299) (u := 0.04307) (m := 0.2637) (v := 0.26375)
    (by norm_num) (by norm_num) hq (by norm_num at a7 ⊢; constructor <;> linarith [a7.1, a7.2])
  have b8 := mul_box (a := q) (b := cos 0.2669) (l := 0.04299) (u := 0.04307) (m := 0.9641) (v := 0.9647)
    (by norm_num) (by norm_num) hq (by norm_num at a8 ⊢; constructor <;> linarith [a8.1, a8.2])
  have b9 := mul_box (a := Q) (b := sin 0.6448) (l := 0.000924) (u := 0.000928) (m := 0.599) (v := 0.6013)
    (by norm_num) (by norm_num) hQb (by norm_num at a9 ⊢; constructor <;> linarith [a9.1, a9.2])
  have b10 := mul_box (a := Q) (b := cos 0.6448) (l := 0.000924) (u := 0.000928) (m := 0.783) (v := 0.8012)
    (by norm_num) (by norm_num) hQb (by norm_num at a10 ⊢; constructor <;> linarith [a10.1, a10.2])
  rw [E]
  clear E e1 e2 e3 e4 e5 e6 e7 e8 a3 a4 a5 a6 a7 a8 a9 a10 hr0 hr1 hr2 hR hQ hu hC hC2 hCa hCb
  have m1 := wave x (a := 0.58688718 * u - 0.03344 * sin 0.0555 - 0.03344 * (q * sin 0.3779))
    (b := -7.34538133 * u + 0.03344 * cos 0.0555 - 0.03344 * (q * cos 0.3779)) (p := 1.77e-4) (q := 1e-5)
    (m := 1.8e-4) (by norm_num)
    (by rw [abs_le]; norm_num at a1 b3 hub ⊢; constructor <;> linarith [a1.1, a1.2, b3.1, b3.2, hub.1, hub.2])
    (by rw [abs_le]; norm_num at a2 b4 hub ⊢; constructor <;> linarith [a2.1, a2.2, b4.1, b4.2, hub.1, hub.2])
    (by norm_num)
  have m2 := wave (2 * x) (a := -3.31493999 * u + q * sin 0.3224) (b := -9.35366541 * u + q * cos 0.3224)
    (p := 8.5e-4) (q := 9e-5) (m := 8.6e-4) (by norm_num)
    (by rw [abs_le]; norm_num at b5 hub ⊢; constructor <;> linarith [b5.1, b5.2, hub.1, hub.2])
    (by rw [abs_le]; norm_num at b6 hub ⊢; constructor <;> linarith [b6.1, b6.2, hub.1, hub.2])
    (by norm_num)
  have m3 := wave (3 * x) (a := -0.08151750 * u + 0.03344 * (q * sin 0.2669))
    (b := -0.30892409 * u + 0.03344 * (q * cos 0.2669)) (p := 2.5e-5) (q := 4.2e-5) (m := 5e-5) (by norm_num)
    (by rw [abs_le]; norm_num at b7 hub ⊢; constructor <;> linarith [b7.1, b7.2, hub.1, hub.2])
    (by rw [abs_le]; norm_num at b8 hub ⊢; constructor <;> linarith [b8.1, b8.2, hub.1, hub.2])
    (by norm_num)
  have m4 := wave (4 * x) (a := -0.13532889 * u + Q * sin 0.6448)
    (b := -0.17336220 * u + Q * cos 0.6448) (p := 3.8e-5) (q := 3.4e-5) (m := 5.2e-5) (by norm_num)
    (by rw [abs_le]; norm_num at b9 hub ⊢; constructor <;> linarith [b9.1, b9.2, hub.1, hub.2])
    (by rw [abs_le]; norm_num at b10 hub ⊢; constructor <;> linarith [b10.1, b10.2, hub.1, hub.2])
    (by norm_num)
  have m5 : |q * r1| ≤ 0.04307 * 0.00448 :=
    Nrel.abs_mul_le' (by rw [abs_of_pos (lt_of_lt_of_le (by norm_num) hq.1)]; exact hq.2) k1
  have m6 : |Q * r2| ≤ 0.000928 * 0.134 :=
    Nrel.abs_mul_le' (by rw [abs_of_pos (lt_of_lt_of_le (by norm_num) hQb.1)]; exact hQb.2) k2
  rw [abs_le] at m1 m2 m3 m4 m5 m6 hk ⊢
  generalize (0.58688718 * u - 0.03344 * sin 0.0555 - 0.03344 * (q * sin 0.3779)) * cos x
        + (-7.34538133 * u + 0.03344 * cos 0.0555 - 0.03344 * (q * cos 0.3779)) * sin x = z1 at *
  generalize (-3.31493999 * u + q * sin 0.3224) * cos (2 * x) + (-9.35366541 * u + q * cos 0.3224) * sin (2 * x) = z2 at *
  generalize (-0.08151750 * u + 0.03344 * (q * sin 0.2669)) * cos (3 * x)
        + (-0.30892409 * u + 0.03344 * (q * cos 0.2669)) * sin (3 * x) = z3 at *
  generalize (-0.13532889 * u + Q * sin 0.6448) * cos (4 * x) + (-0.17336220 * u + Q * cos 0.6448) * sin (4 * x) = z4 at *
  generalize q * r1 = z5 at *
  generalize Q * r2 = z6 at *
  clear b3 b4 b5 b6 b7 b8 b9 b10
  norm_num at m1 m2 m3 m4 m5 m6 hk hub ⊢
  constructor <;> linarith [m1.1, m1.2, m2.1, m2.2, m3.1, m3.2, m4.1, m4.2, m5.1, m5.2, m6.1, m6.2, hk.1, hk.2, hub.1, hub.2]

theorem eot_turn (a : ℝ) (n : ℤ) : eotMinutes (a + n * (2 * π)) = eotMinutes a := by
  have e2 : 2 * (a + n * (2 * π)) = 2 * a + ((2 * n : ℤ) : ℝ) * (2 * π) := by push_cast; ring
  have e3 : 3 * (a + n * (2 * π)) = 3 * a + ((3 * n : ℤ) : ℝ) * (2 * π) := by push_cast; ring
  have e4 : 4 * (a + n * (2 * π)) = 4 * a + ((4 * n : ℤ) : ℝ) * (2 * π) := by push_cast; ring
  rw [eotMinutes_real, eotMinutes_real, e2, e3, e4]
  simp only [cos_add_int_mul_two_pi, sin_add_int_mul_two_pi]

theorem eot_ref {t : ℤ} (h : InSec t) {T : ℝ} (hT : |T - ((t : ℝ) / 86400 - 10957.5) / 36525| ≤ 3.2e-10) :
    ∃ k : ℤ, |eotMinutes (dayAngle t : ℝ) * (2 * π / 1440)
      - (meanLongitude T - rightAscension T) - k * (2 * π)| ≤ 0.00935 := by
  obtain ⟨n, x, hx, -, N⟩ := elements h hT
  obtain ⟨k, hk⟩ := eot_base x
  have hd : eotMinutes x = eotMinutes (dayAngle t : ℝ) := by rw [hx, eot_turn]
  rw [hd] at hk
  obtain ⟨k', hk'⟩ := eot_cmp N (τ := 0) (by norm_num) (by norm_num)
  refine ⟨k + k', ?_⟩
  rw [abs_le] at hk hk' ⊢
  rw [abs_zero] at hk'
  generalize ratan2 (sin (x + 0.1612 - π / 2 + 0.03344 * sin (x - 0.0555)) * cos 0.40916 - 0)
      (cos (x + 0.1612 - π / 2 + 0.03344 * sin (x - 0.0555))) = r at *
  push_cast
  norm_num at hk hk' ⊢
  constructor <;> linarith [hk.1, hk.2, hk'.1, hk'.2]

/-! ### eccentricity correction factor -/

theorem inv_sq_expand {w : ℝ} (h : |w| ≤ 0.0174) : |1 / (1 - w) ^ 2 - (1 + 2 * w + 3 * w ^ 2)| ≤ 2.3e-5 := by
  have ha := abs_le.1 h
  have h0 : 0.98 ≤ 1 - w := by norm_num at ha ⊢; linarith [ha.1, ha.2]
  have h1 : 0 < 1 - w := lt_of_lt_of_le (by norm_num) h0
  have h2 : 0.9604 ≤ (1 - w) ^ 2 := by
    have := pow_le_pow_left₀ (by norm_num) h0 2
    norm_num at this ⊢; linarith
  have e : 1 / (1 - w) ^ 2 - (1 + 2 * w + 3 * w ^ 2) = w ^ 3 * (4 - 3 * w) / (1 - w) ^ 2 := by
    field_simp; ring
  rw [e, abs_div, abs_of_pos (by positivity : 0 < (1 - w) ^ 2), div_le_iff₀ (by positivity)]
  have a1 : |w ^ 3| ≤ 0.0174 ^ 3 := by rw [abs_pow]; exact pow_le_pow_left₀ (abs_nonneg _) h 3
  have a2 : |4 - 3 * w| ≤ 4.06 := by rw [abs_le]; norm_num at ha ⊢; constructor <;> linarith [ha.1, ha.2]
  have := Nrel.abs_mul_le' a1 a2
  norm_num at this h2 ⊢; linarith

theorem ecf_expand {T : ℝ} (hT : |T| ≤ 3.24) :
    |1 / distance T ^ 2 - (1 + eccentricity T ^ 2 / 2 + 2 * eccentricity T * cos (meanAnomaly T)
      + 5 / 2 * eccentricity T ^ 2 * cos (2 * meanAnomaly T))| ≤ 1.5e-4 := by
  obtain ⟨b1, b2⟩ := ecc_bound hT
  have hd := distance_expand hT
  obtain ⟨e, he⟩ : ∃ e, e = eccentricity T := ⟨_, rfl⟩
  obtain ⟨x, hx⟩ : ∃ x, x = cos (meanAnomaly T) := ⟨_, rfl⟩
  have hx1 : |x| ≤ 1 := hx ▸ abs_cos_le_one _
  rw [cos_two_mul] at hd ⊢
  rw [← he] at b1 b2
  rw [← he, ← hx] at hd ⊢
  have xa := abs_le.1 hx1
  have e0 : 0 ≤ e := le_trans (by norm_num) b1
  obtain ⟨g, hg⟩ : ∃ g, g = 1 - distance T - e * x := ⟨_, rfl⟩
  have hx2 : 0 ≤ 1 - x ^ 2 ∧ 1 - x ^ 2 ≤ 1 := ⟨by nlinarith [xa.1, xa.2], by nlinarith [sq_nonneg x]⟩
  have he2 : e ^ 2 ≤ 2.84e-4 := by norm_num at b1 b2 ⊢; nlinarith
  have hz : 0 ≤ e ^ 2 * (1 - x ^ 2) ∧ e ^ 2 * (1 - x ^ 2) ≤ 2.84e-4 := by
    refine ⟨mul_nonneg (sq_nonneg _) hx2.1, ?_⟩
    exact (mul_le_of_le_one_right (sq_nonneg _) hx2.2).trans he2
  have hg2 : |g + e ^ 2 * (1 - x ^ 2)| ≤ 4.3e-5 := by
    rw [← abs_neg]; refine le_trans (le_of_eq ?_) hd
    congr 1; rw [hg]; ring
  have hgb : |g| ≤ 3.3e-4 := by
    have := abs_le.1 hg2
    rw [abs_le]; norm_num at this hz ⊢; constructor <;> linarith [this.1, this.2, hz.1, hz.2]
  have hex : |e * x| ≤ 0.01685 * 1 := Nrel.abs_mul_le' (by rw [abs_of_nonneg e0]; exact b2) hx1
  have hw : |e * x + g| ≤ 0.0174 := (abs_add_le _ _).trans ((add_le_add hex hgb).trans (by norm_num))
  have k := inv_sq_expand hw
  have hD : distance T = 1 - (e * x + g) := by rw [hg]; ring
  rw [hD]
  have E : 1 / (1 - (e * x + g)) ^ 2 - (1 + e ^ 2 / 2 + 2 * e * x + 5 / 2 * e ^ 2 * (2 * x ^ 2 - 1))
      = (1 / (1 - (e * x + g)) ^ 2 - (1 + 2 * (e * x + g) + 3 * (e * x + g) ^ 2))
        + 2 * (g + e ^ 2 * (1 - x ^ 2)) + (e * x * g * 6 + g * g * 3) := by ring
  rw [E]
  have m1 := Nrel.abs_mul_le' hex hgb
  have m2 := Nrel.abs_mul_le' hgb hgb
  generalize 1 / (1 - (e * x + g)) ^ 2 - (1 + 2 * (e * x + g) + 3 * (e * x + g) ^ 2) = z1 at *
  generalize g + e ^ 2 * (1 - x ^ 2) = z2 at *
  generalize e * x * g = z3 at *
  generalize g * g = z4 at *
  rw [abs_le] at m1 m2 k hg2 ⊢
  norm_num at m1 m2 k hg2 ⊢
  constructor <;> linarith [m1.1, m1.2, m2.1, m2.2, k.1, k.2, hg2.1, hg2.2]

theorem ecf_real (x : ℝ) : ecf x = 1.00012825e+00 + 3.33572253e-02 * cos x + 1.99417932e-03 * sin x
      + 6.97434604e-04 * cos (2 * x) + 1.14828177e-04 * sin (2 * x)
      + 1.74028675e-05 * cos (3 * x) + 1.13778023e-05 * sin (3 * x) := rfl

theorem ecf_turn (a : ℝ) (n : ℤ) : ecf (a + n * (2 * π)) = ecf a := by
  have e2 : 2 * (a + n * (2 * π)) = 2 * a + ((2 * n : ℤ) : ℝ) * (2 * π) := by push_cast; ring
  have e3 : 3 * (a + n * (2 * π)) = 3 * a + ((3 * n : ℤ) : ℝ) * (2 * π) := by push_cast; ring
  rw [ecf_real, ecf_real, e2, e3]
  simp only [cos_add_int_mul_two_pi, sin_add_int_mul_two_pi]

theorem ecf_base (x : ℝ) : |ecf x - (1 + 0.01672 ^ 2 / 2 + 2 * 0.01672 * cos (x - 0.0555)
    + 5 / 2 * 0.01672 ^ 2 * cos (2 * (x - 0.0555)))| ≤ 2.6e-4 := by
  obtain ⟨a1, a2⟩ := n0555
  obtain ⟨a3, a4⟩ := n111
  rw [abs_le] at a1 a2 a3 a4
  have e2 : cos (2 * (x - 0.0555)) = cos (2 * x) * cos 0.111 + sin (2 * x) * sin 0.111 := by
    rw [show 2 * (x - 0.0555) = 2 * x - 0.111 by norm_num; ring, cos_sub]
  rw [e2, cos_sub, ecf_real]
  have m1 := wave x (a := 3.33572253e-02 - 2 * 0.01672 * cos 0.0555) (b := 1.99417932e-03 - 2 * 0.01672 * sin 0.0555)
    (p := 3.2e-5) (q := 1.4e-4) (m := 1.5e-4) (by norm_num)
    (by rw [abs_le]; norm_num at a2 ⊢; constructor <;> linarith [a2.1, a2.2])
    (by rw [abs_le]; norm_num at a1 ⊢; constructor <;> linarith [a1.1, a1.2]) (by norm_num)
  have m2 := wave (2 * x) (a := 6.97434604e-04 - 5 / 2 * 0.01672 ^ 2 * cos 0.111)
    (b := 1.14828177e-04 - 5 / 2 * 0.01672 ^ 2 * sin 0.111)
    (p := 3e-6) (q := 3.8e-5) (m := 4e-5) (by norm_num)
    (by rw [abs_le]; norm_num at a4 ⊢; constructor <;> linarith [a4.1, a4.2])
    (by rw [abs_le]; norm_num at a3 ⊢; constructor <;> linarith [a3.1, a3.2]) (by norm_num)
  have m3 := wave (3 * x) (a := 1.74028675e-05) (b := 1.13778023e-05)
    (p := 1.8e-5) (q := 1.2e-5) (m := 3e-5) (by norm_num)
    (by rw [abs_of_pos] <;> norm_num) (by rw [abs_of_pos] <;> norm_num) (by norm_num)
  have E : 1.00012825e+00 + 3.33572253e-02 * cos x + 1.99417932e-03 * sin x
      + 6.97434604e-04 * cos (2 * x) + 1.14828177e-04 * sin (2 * x)
      + 1.74028675e-05 * cos (3 * x) + 1.13778023e-05 * sin (3 * x)
      - (1 + 0.01672 ^ 2 / 2 + 2 * 0.01672 * (cos x * cos 0.0555 + sin x * sin 0.0555)
        + 5 / 2 * 0.01672 ^ 2 * (cos (2 * x) * cos 0.111 + sin (2 * x) * sin 0.111))
    = (0.00012825 - 0.01672 ^ 2 / 2)
      + ((3.33572253e-02 - 2 * 0.01672 * cos 0.0555) * cos x + (1.99417932e-03 - 2 * 0.01672 * sin 0.0555) * sin x)
      + ((6.97434604e-04 - 5 / 2 * 0.01672 ^ 2 * cos 0.111) * cos (2 * x)
        + (1.14828177e-04 - 5 / 2 * 0.01672 ^ 2 * sin 0.111) * sin (2 * x))
      + (1.74028675e-05 * cos (3 * x) + 1.13778023e-05 * sin (3 * x)) := by
    rw [show (1.00012825e+00 : ℝ) = 1 + 0.00012825 by norm_num]; ring
  rw [E]
  generalize (3.33572253e-02 - 2 * 0.01672 * cos 0.0555) * cos x + (1.99417932e-03 - 2 * 0.01672 * sin 0.0555) * sin x = z1 at *
  generalize (6.97434604e-04 - 5 / 2 * 0.01672 ^ 2 * cos 0.111) * cos (2 * x)
        + (1.14828177e-04 - 5 / 2 * 0.01672 ^ 2 * sin 0.111) * sin (2 * x) = z2 at *
  generalize 1.74028675e-05 * cos (3 * x) + 1.13778023e-05 * sin (3 * x) = z3 at *
  clear E e2 a1 a2 a3 a4
  rw [abs_le] at m1 m2 m3 ⊢
  norm_num at m1 m2 m3 ⊢
  constructor <;> linarith [m1.1, m1.2, m2.1, m2.2, m3.1, m3.2]

theorem ecf_ref {t : ℤ} (h : InSec t) {T : ℝ} (hT : |T - ((t : ℝ) / 86400 - 10957.5) / 36525| ≤ 3.2e-10) :
    |ecf (dayAngle t : ℝ) - 1 / distance T ^ 2| ≤ 0.0046 := by
  obtain ⟨n, x, hx, hM, N⟩ := elements h hT
  have h1 := ecf_base x
  have h2 := ecf_expand N.cent
  have hd : ecf x = ecf (dayAngle t : ℝ) := by rw [hx, ecf_turn]
  rw [hd] at h1
  obtain ⟨c1, c2⟩ := century_range h hT
  have he : |eccentricity T - 0.01672| ≤ 1.3e-4 := by
    unfold eccentricity; rw [abs_le]; norm_num at c1 c2 ⊢; constructor <;> linarith
  obtain ⟨e, hee⟩ : ∃ e, e = eccentricity T := ⟨_, rfl⟩
  obtain ⟨M, hMM⟩ : ∃ e, e = meanAnomaly T := ⟨_, rfl⟩
  rw [← hee, ← hMM] at h2
  rw [← hee] at he
  rw [← hMM] at hM
  have ea := abs_le.1 he
  have d1 := (abs_cos_sub_cos_le M (x - 0.0555)).trans hM
  have d2 : |cos (2 * M) - cos (2 * (x - 0.0555))| ≤ 0.22 := by
    refine (abs_cos_sub_cos_le _ _).trans ?_
    rw [← mul_sub, abs_mul, abs_of_pos (by norm_num : (0:ℝ) < 2)]; norm_num at hM ⊢; linarith
  have g2 : |e ^ 2 - 0.01672 ^ 2| ≤ 4.4e-6 := by
    rw [abs_le]; norm_num at ea ⊢; constructor <;> nlinarith [ea.1, ea.2]
  have t1 := Nrel.abs_mul_le' he (abs_cos_le_one M)
  have t2 : |0.01672 * (cos M - cos (x - 0.0555))| ≤ 0.01672 * 0.11 :=
    Nrel.abs_mul_le' (by rw [abs_of_pos] <;> norm_num) d1
  have t3 := Nrel.abs_mul_le' g2 (abs_cos_le_one (2 * M))
  have t4 : |0.01672 ^ 2 * (cos (2 * M) - cos (2 * (x - 0.0555)))| ≤ 0.01672 ^ 2 * 0.22 :=
    Nrel.abs_mul_le' (by rw [abs_of_pos] <;> norm_num) d2
  have E : ecf (dayAngle t : ℝ) - 1 / distance T ^ 2
      = (ecf (dayAngle t : ℝ) - (1 + 0.01672 ^ 2 / 2 + 2 * 0.01672 * cos (x - 0.0555)
        + 5 / 2 * 0.01672 ^ 2 * cos (2 * (x - 0.0555))))
        - (1 / distance T ^ 2 - (1 + e ^ 2 / 2 + 2 * e * cos M + 5 / 2 * e ^ 2 * cos (2 * M)))
        - (e ^ 2 - 0.01672 ^ 2) / 2 - 2 * ((e - 0.01672) * cos M) - 2 * (0.01672 * (cos M - cos (x - 0.0555)))
        - 5 / 2 * ((e ^ 2 - 0.01672 ^ 2) * cos (2 * M))
        - 5 / 2 * (0.01672 ^ 2 * (cos (2 * M) - cos (2 * (x - 0.0555)))) := by ring
  rw [E]
  generalize ecf (dayAngle t : ℝ) - (1 + 0.01672 ^ 2 / 2 + 2 * 0.01672 * cos (x - 0.0555)
        + 5 / 2 * 0.01672 ^ 2 * cos (2 * (x - 0.0555))) = z1 at *
  generalize 1 / distance T ^ 2 - (1 + e ^ 2 / 2 + 2 * e * cos M + 5 / 2 * e ^ 2 * cos (2 * M)) = z2 at *
  generalize (e ^ 2 - 0.01672 ^ 2) * cos (2 * M) = z3 at *
  generalize 0.01672 ^ 2 * (cos (2 * M) - cos (2 * (x - 0.0555))) = z4 at *
  generalize (e - 0.01672) * cos M = z5 at *
  generalize 0.01672 * (cos M - cos (x - 0.0555)) = z6 at *
  generalize e ^ 2 - 0.01672 ^ 2 = z7 at *
  clear E hd hx d1 d2 hT h N
  rw [abs_le] at h1 h2 t1 t2 t3 t4 g2 ⊢
  norm_num at h1 h2 t1 t2 t3 t4 g2 ⊢
  constructor <;> linarith [h1.1, h1.2, h2.1, h2.2, t1.1, t1.2, t2.1, t2.2, t3.1, t3.2, t4.1, t4.2, g2.1, g2.2]

end SW.Iqbal
