/-
Comparison of the reference ephemeris with perturbed elements.
-/
import Verif.Ephem
import Verif.RTime
import Mathlib.Analysis.SpecialFunctions.Trigonometric.Bounds
import Mathlib.Analysis.SpecialFunctions.Trigonometric.ArctanDeriv
import Mathlib.Analysis.Calculus.MeanValue

namespace SW.Ephem
open Real

theorem abs_arctan_sub_le (x y : ℝ) : |arctan x - arctan y| ≤ |x - y| := by
  have h : LipschitzWith 1 arctan := by
    apply lipschitzWith_of_nnnorm_deriv_le differentiable_arctan
    intro z
    rw [← NNReal.coe_le_coe, coe_nnnorm, Real.deriv_arctan, Real.norm_eq_abs, NNReal.coe_one,
      abs_of_pos (by positivity), div_le_one (by positivity)]
    nlinarith [sq_nonneg z]
  simpa [Real.dist_eq] using h.dist_le_mul x y

/-- the sine grows at least at the rate 0.91 up to 0.4154 -/
theorem sin_expand {x y : ℝ} (hx : |x| ≤ 0.4154) (hy : |y| ≤ 0.4154) :
    0.91 * |x - y| ≤ |sin x - sin y| := by
  have mono : MonotoneOn (fun z => sin z - 0.91 * z) (Set.Icc (-0.4154) 0.4154) := by
    apply monotoneOn_of_deriv_nonneg (convex_Icc _ _)
    · fun_prop
    · fun_prop
    · intro z hz
      rw [interior_Icc] at hz
      have h0 : HasDerivAt (fun z : ℝ => sin z - 0.91 * z) (cos z - 0.91 * 1) z :=
        (hasDerivAt_sin z).sub ((hasDerivAt_id z).const_mul _)
      rw [h0.deriv]
      have := Psa.cos_ep_bound (e := |z|) ⟨abs_nonneg _, (abs_lt.2 hz).le⟩
      rw [cos_abs] at this
      linarith [this.1]
  have key : ∀ a b : ℝ, |a| ≤ 0.4154 → |b| ≤ 0.4154 → a ≤ b → 0.91 * |a - b| ≤ |sin a - sin b| := by
    intro a b ha hb hab
    have := mono (abs_le.1 ha) (abs_le.1 hb) hab
    simp only at this
    rw [abs_sub_comm a b, abs_of_nonneg (by linarith : 0 ≤ b - a), abs_sub_comm (sin a) (sin b)]
    refine le_trans ?_ (le_abs_self _)
    linarith
  rcases le_total x y with h | h
  · exact key x y hx hy h
  · rw [abs_sub_comm, abs_sub_comm (sin x)]; exact key y x hy hx h

theorem arcsin_sub_le {x y : ℝ} (hx : |arcsin x| ≤ 0.4154) (hy : |arcsin y| ≤ 0.4154) (hx1 : |x| ≤ 1)
    (hy1 : |y| ≤ 1) : |arcsin x - arcsin y| ≤ |x - y| / 0.91 := by
  have := sin_expand hx hy
  have hx2 := abs_le.1 hx1
  have hy2 := abs_le.1 hy1
  rw [sin_arcsin hx2.1 hx2.2, sin_arcsin hy2.1 hy2.2] at this
  rw [le_div_iff₀ (by norm_num)]
  linarith

theorem sin_4154 : sin 0.4154 ≤ 0.404 := by
  have := sin_bound (x := 0.4154) (by rw [abs_of_pos] <;> norm_num)
  have := (abs_le.1 this).2
  rw [abs_of_pos (by norm_num)] at this
  norm_num at this ⊢
  linarith

set_option maxHeartbeats 800000 in
/-- right ascensions of two nearby longitudes: the difference to the longitude changes slowly -/
theorem ra_cmp {l l' c c' τ : ℝ} (h1 : 0.91 ≤ c ∧ c ≤ 1) (h2 : 0.91 ≤ c' ∧ c' ≤ 1) (ht : |τ| ≤ 1e-5) :
    ∃ η η' : ℝ, ∃ k k' : ℤ, ratan2 (sin l * c - τ) (cos l) = l + η + k * (2 * π) ∧
      ratan2 (c' * sin l') (cos l') = l' + η' + k' * (2 * π) ∧
      |η - η'| ≤ 0.61 * |c - c'| + 0.105 * |l - l'| + 1.17 * |τ| := by
  obtain ⟨s, hs⟩ : ∃ s, s = sin l := ⟨_, rfl⟩
  obtain ⟨k, hk⟩ : ∃ k, k = cos l := ⟨_, rfl⟩
  obtain ⟨s', hs'⟩ : ∃ s, s = sin l' := ⟨_, rfl⟩
  obtain ⟨k', hk'⟩ : ∃ k, k = cos l' := ⟨_, rfl⟩
  have q : s ^ 2 + k ^ 2 = 1 := by rw [hs, hk]; exact sin_sq_add_cos_sq l
  have q' : s' ^ 2 + k' ^ 2 = 1 := by rw [hs', hk']; exact sin_sq_add_cos_sq l'
  have ht2 : |τ * s| ≤ |τ| := by rw [hs]; exact abs_mul_sin_le _ _
  have ht3 : |τ * k| ≤ |τ| := by rw [hk]; exact abs_mul_cos_le _ _
  have dsk : |s * k - s' * k'| ≤ |l - l'| := by
    have : s * k - s' * k' = (sin (2 * l) - sin (2 * l')) / 2 := by
      rw [sin_two_mul, sin_two_mul, hs, hk, hs', hk']; ring
    rw [this, abs_div, abs_of_pos (by norm_num : (0:ℝ) < 2), div_le_iff₀ (by norm_num)]
    refine (abs_sin_sub_sin_le _ _).trans ?_
    rw [← mul_sub, abs_mul, abs_of_pos (by norm_num : (0:ℝ) < 2)]; linarith
  have dss : |s ^ 2 - s' ^ 2| ≤ |l - l'| := by
    have : s ^ 2 - s' ^ 2 = -((cos (2 * l) - cos (2 * l')) / 2) := by
      rw [cos_two_mul, cos_two_mul, ← hk, ← hk']; linarith
    rw [this, abs_neg, abs_div, abs_of_pos (by norm_num : (0:ℝ) < 2), div_le_iff₀ (by norm_num)]
    refine (abs_cos_sub_cos_le _ _).trans ?_
    rw [← mul_sub, abs_mul, abs_of_pos (by norm_num : (0:ℝ) < 2)]; linarith
  have hsk : |s * k| ≤ 1 / 2 := by
    rw [abs_le]; constructor <;> nlinarith [sq_nonneg (s - k), sq_nonneg (s + k)]
  have hsk' : |s' * k'| ≤ 1 / 2 := by
    rw [abs_le]; constructor <;> nlinarith [sq_nonneg (s' - k'), sq_nonneg (s' + k')]
  have hss : |s ^ 2| ≤ 1 := by rw [abs_of_nonneg (sq_nonneg _)]; nlinarith [sq_nonneg k]
  -- denominators
  obtain ⟨D, hD⟩ : ∃ D, D = k * k + (s * c - τ) * s := ⟨_, rfl⟩
  obtain ⟨D', hD'⟩ : ∃ D, D = k' * k' + (c' * s') * s' := ⟨_, rfl⟩
  have hDb : 0.9099 ≤ D := by
    have a := abs_le.1 (ht2.trans ht)
    have : 0.91 ≤ k * k + c * s ^ 2 := by nlinarith [sq_nonneg s, sq_nonneg k, h1.1]
    rw [hD]; norm_num at a this ⊢; nlinarith [a.1, a.2]
  have hDb' : 0.91 ≤ D' := by
    rw [hD']; nlinarith [sq_nonneg s', sq_nonneg k', h2.1]
  have hD0 : 0 < D := lt_of_lt_of_le (by norm_num) hDb
  have hD0' : 0 < D' := lt_of_lt_of_le (by norm_num) hDb'
  obtain ⟨N, hN⟩ : ∃ N, N = (s * c - τ) * k - k * s := ⟨_, rfl⟩
  obtain ⟨N', hN'⟩ : ∃ N, N = (c' * s') * k' - k' * s' := ⟨_, rfl⟩
  obtain ⟨m, hm⟩ := ratan2_near (sin l * c - τ) (cos l) l (by rw [← hs, ← hk, ← hD]; exact hD0)
  obtain ⟨m', hm'⟩ := ratan2_near (c' * sin l') (cos l') l' (by rw [← hs', ← hk', ← hD']; exact hD0')
  rw [← hs, ← hk, ← hD, ← hN] at hm
  rw [← hs', ← hk', ← hD', ← hN'] at hm'
  refine ⟨arctan (N / D), arctan (N' / D'), m, m', by rw [← hs, ← hk]; exact hm,
    by rw [← hs', ← hk']; exact hm', (abs_arctan_sub_le _ _).trans ?_⟩
  have hNN : |N - N'| ≤ 1 / 2 * |c - c'| + 0.09 * |l - l'| + |τ| := by
    have : N - N' = (c - c') * (s * k) + ((c' - 1) * (s * k - s' * k') - τ * k) := by rw [hN, hN']; ring
    rw [this]
    refine (abs_add_le _ _).trans ?_
    have a1 := Nrel.abs_mul_le' (le_refl |c - c'|) hsk
    have a2 : |(c' - 1) * (s * k - s' * k')| ≤ 0.09 * |l - l'| := by
      refine Nrel.abs_mul_le' ?_ dsk
      rw [abs_le]; norm_num at h2 ⊢; constructor <;> linarith [h2.1, h2.2]
    have a3 := abs_sub ((c' - 1) * (s * k - s' * k')) (τ * k)
    linarith
  have hDD : |D' - D| ≤ |c - c'| + 0.09 * |l - l'| + |τ| := by
    have : D' - D = (c' - c) * s ^ 2 + ((1 - c') * (s ^ 2 - s' ^ 2) + τ * s) := by
      rw [hD, hD']; linear_combination q' - q
    rw [this]
    refine (abs_add_le _ _).trans ?_
    have a1 := Nrel.abs_mul_le' (le_refl |c' - c|) hss
    have a2 : |(1 - c') * (s ^ 2 - s' ^ 2)| ≤ 0.09 * |l - l'| := by
      refine Nrel.abs_mul_le' ?_ dss
      rw [abs_le]; norm_num at h2 ⊢; constructor <;> linarith [h2.1, h2.2]
    have a3 := abs_add_le ((1 - c') * (s ^ 2 - s' ^ 2)) (τ * s)
    rw [abs_sub_comm c' c] at a1
    linarith
  have hNb : |N'| ≤ 0.045 := by
    have : N' = (c' - 1) * (s' * k') := by rw [hN']; ring
    rw [this]
    refine (Nrel.abs_mul_le' (A := 0.09) ?_ hsk').trans (by norm_num)
    rw [abs_le]; norm_num at h2 ⊢; constructor <;> linarith [h2.1, h2.2]
  have e : N / D - N' / D' = ((N - N') * D' + N' * (D' - D)) / (D * D') := by
    field_simp; ring
  rw [e, abs_div, abs_of_pos (mul_pos hD0 hD0'), div_le_iff₀ (mul_pos hD0 hD0')]
  have b1 : |(N - N') * D' + N' * (D' - D)| ≤ |N - N'| * D' + 0.045 * |D' - D| := by
    refine (abs_add_le _ _).trans ?_
    rw [abs_mul, abs_of_pos hD0', abs_mul]
    gcongr
  refine b1.trans ?_
  obtain ⟨x, hx⟩ : ∃ x, x = |c - c'| := ⟨_, rfl⟩
  obtain ⟨y, hy⟩ : ∃ x, x = |l - l'| := ⟨_, rfl⟩
  obtain ⟨z, hz⟩ : ∃ x, x = |τ| := ⟨_, rfl⟩
  have hx0 : 0 ≤ x := hx ▸ abs_nonneg _
  have hy0 : 0 ≤ y := hy ▸ abs_nonneg _
  have hz0 : 0 ≤ z := hz ▸ abs_nonneg _
  rw [← hx, ← hy, ← hz] at hNN hDD ⊢
  have c1 : |N - N'| * D' ≤ (1 / 2 * x + 0.09 * y + z) * D' := by gcongr
  have c2 : 0.045 * |D' - D| ≤ 0.0495 * (x + 0.09 * y + z) * D' := by
    have : 0.045 * |D' - D| ≤ 0.045 * (x + 0.09 * y + z) := by gcongr
    have h3 : 0 ≤ x + 0.09 * y + z := by positivity
    have h4 := mul_le_mul_of_nonneg_left hDb' (by positivity : 0 ≤ 0.0495 * (x + 0.09 * y + z))
    generalize x + 0.09 * y + z = w at *
    norm_num at h4 this ⊢
    linarith
  have c3 : (0.61 * x + 0.105 * y + 1.17 * z) * (D * D') = ((0.61 * x + 0.105 * y + 1.17 * z) * D) * D' := by ring
  rw [c3]
  have c4 : 1 / 2 * x + 0.09 * y + z + 0.0495 * (x + 0.09 * y + z) ≤ (0.61 * x + 0.105 * y + 1.17 * z) * D := by
    have : (0.61 * x + 0.105 * y + 1.17 * z) * 0.9099 ≤ (0.61 * x + 0.105 * y + 1.17 * z) * D := by gcongr
    norm_num at this ⊢
    linarith
  have := mul_le_mul_of_nonneg_right c4 hD0'.le
  linarith

/-! ### the elements as numbers -/

section
variable {T : ℝ}

theorem linear_deg {a b A B T : ℝ} (ha : |a * (π / 180) - A| ≤ 1e-9) (hb : |b * (π / 180) - B| ≤ 1e-9)
    (hT : |T| ≤ 3.24) : |deg (a + b * T) - (A + B * T)| ≤ 1e-8 := by
  have e : deg (a + b * T) - (A + B * T) = (a * (π / 180) - A) + (b * (π / 180) - B) * T := by
    unfold deg; ring
  rw [e]
  refine (abs_add_le _ _).trans ((add_le_add ha (Nrel.abs_mul_le' hb hT)).trans ?_)
  norm_num

theorem meanLongitude_num (hT : |T| ≤ 3.24) :
    |meanLongitude T - (4.894964383 + 628.331966263 * T)| ≤ 1e-8 := by
  have p1 := pi_gt_d20
  have p2 := pi_lt_d20
  refine linear_deg ?_ ?_ hT <;> rw [abs_le] <;> norm_num at p1 p2 ⊢ <;> constructor <;> linarith

theorem meanAnomaly_num (hT : |T| ≤ 3.24) :
    |meanAnomaly T - (6.240059967 + 628.301955326 * T)| ≤ 1e-8 := by
  have p1 := pi_gt_d20
  have p2 := pi_lt_d20
  refine linear_deg ?_ ?_ hT <;> rw [abs_le] <;> norm_num at p1 p2 ⊢ <;> constructor <;> linarith

theorem obliquity_num (hT : |T| ≤ 3.24) :
    |obliquity T - (0.409092959 - 0.000226893 * T)| ≤ 1e-8 := by
  have p1 := pi_gt_d20
  have p2 := pi_lt_d20
  have := linear_deg (a := 23.4393) (b := -0.0130) (A := 0.409092959) (B := -0.000226893) ?_ ?_ hT
  · unfold obliquity
    rw [show (23.4393 - 0.0130 * T : ℝ) = 23.4393 + -0.0130 * T by ring,
      show (0.409092959 - 0.000226893 * T : ℝ) = 0.409092959 + -0.000226893 * T by ring]
    exact this
  all_goals rw [abs_le]; norm_num at p1 p2 ⊢; constructor <;> linarith

theorem obliquity_bound (hT : |T| ≤ 3.24) : 0.408 ≤ obliquity T ∧ obliquity T ≤ 0.41 := by
  have a := abs_le.1 (obliquity_num hT)
  have b := abs_le.1 hT
  norm_num at a b ⊢
  constructor <;> linarith [a.1, a.2, b.1, b.2]

theorem ecc_bound (hT : |T| ≤ 3.24) : 0.01657 ≤ eccentricity T ∧ eccentricity T ≤ 0.01685 := by
  have b := abs_le.1 hT
  unfold eccentricity
  norm_num at b ⊢
  constructor <;> linarith [b.1, b.2]

/-- the equation of the centre against another series -/
theorem center_cmp (hT : |T| ≤ 3.24) {A B g dA dB dg : ℝ} (hA : |A - 2 * eccentricity T| ≤ dA)
    (hB : |B - 5 / 4 * eccentricity T ^ 2| ≤ dB) (hg : |g - meanAnomaly T| ≤ dg) :
    |A * sin g + B * sin (2 * g) - center T| ≤ dA + dB + 0.0345 * dg := by
  obtain ⟨e1, e2⟩ := ecc_bound hT
  have s1 := abs_sin_sub_sin_le g (meanAnomaly T)
  have s2 := abs_sin_sub_sin_le (2 * g) (2 * meanAnomaly T)
  rw [← mul_sub, abs_mul, abs_of_pos (by norm_num : (0:ℝ) < 2)] at s2
  have e : A * sin g + B * sin (2 * g) - center T
      = ((A - 2 * eccentricity T) * sin g + (B - 5 / 4 * eccentricity T ^ 2) * sin (2 * g))
        + (2 * eccentricity T * (sin g - sin (meanAnomaly T))
          + 5 / 4 * eccentricity T ^ 2 * (sin (2 * g) - sin (2 * meanAnomaly T))) := by
    unfold center; ring
  have hd0 : 0 ≤ dg := (abs_nonneg _).trans hg
  have a1 := (abs_mul_sin_le (A - 2 * eccentricity T) g).trans hA
  have a2 := (abs_mul_sin_le (B - 5 / 4 * eccentricity T ^ 2) (2 * g)).trans hB
  have a3 : |2 * eccentricity T * (sin g - sin (meanAnomaly T))| ≤ 0.0337 * dg := by
    refine Nrel.abs_mul_le' ?_ (s1.trans hg)
    rw [abs_le]; norm_num at e1 e2 ⊢; constructor <;> linarith
  have a4 : |5 / 4 * eccentricity T ^ 2 * (sin (2 * g) - sin (2 * meanAnomaly T))| ≤ 0.0004 * (2 * dg) := by
    refine Nrel.abs_mul_le' ?_ (s2.trans (by linarith))
    rw [abs_le]; norm_num at e1 e2 ⊢; constructor <;> nlinarith
  rw [e]
  refine (abs_add_le _ _).trans ((add_le_add (abs_add_le _ _) (abs_add_le _ _)).trans ?_)
  have a5 : 0.0337 * dg + 0.0004 * (2 * dg) = 0.0345 * dg := by ring
  linarith

end

/-- the elements of an algorithm (mean longitude, longitude, obliquity) against the reference -/
structure Near (T L l e a b g : ℝ) : Prop where
  cent : |T| ≤ 3.24
  lon : |l - longitude T| ≤ a
  obl : |e - obliquity T| ≤ b
  center : |(l - L) - (longitude T - meanLongitude T)| ≤ g

theorem psa_near {t : ℤ} (h : InSec t) {T : ℝ} (hT : |T - Psa.jdc (Psa.jde (t : ℝ))| ≤ 3.2e-10) :
    Near T (Psa.L (Psa.jde (t : ℝ))) (Psa.eclon (Psa.jde (t : ℝ))) (Psa.ep (Psa.jde (t : ℝ)))
      1.1e-3 4.8e-5 6.4e-4 := by
  have hc := Psa.jdc_bound h
  obtain ⟨c, hcj⟩ : ∃ c, c = Psa.jdc (Psa.jde (t : ℝ)) := ⟨_, rfl⟩
  have hj : Psa.jde (t : ℝ) = 36525 * c := by
    rw [hcj]; show _ = 36525 * (Psa.jde (t : ℝ) / 36525.0); norm_num; ring
  rw [← hcj] at hT hc
  have hT3 : |T| ≤ 3.24 := by
    have a := abs_le.1 hT
    have b := abs_le.1 hc
    rw [abs_le]; norm_num at a b ⊢; constructor <;> linarith [a.1, a.2, b.1, b.2]
  rw [hj]
  have hTa := abs_le.1 hT
  have hca := abs_le.1 hc
  have ml := abs_le.1 (meanLongitude_num hT3)
  have ma := abs_le.1 (meanAnomaly_num hT3)
  have ob := abs_le.1 (obliquity_num hT3)
  have eg : Psa.g (36525 * c) = 6.239468336 + 1.720200135e-2 * (36525 * c) := rfl
  have eL : Psa.L (36525 * c) = 4.895036035 + 1.720279602e-2 * (36525 * c) := rfl
  have ee : Psa.ep (36525 * c) = 4.090904909e-1 - 6.213605399e-9 * (36525 * c)
    + 4.418094944e-5 * cos (Psa.omega (36525 * c)) := rfl
  have el : Psa.eclon (36525 * c) = Psa.L (36525 * c) - 1.544353226e-4
    + 3.338320972e-2 * sin (Psa.g (36525 * c))
    + 3.497596876e-4 * sin (2 * Psa.g (36525 * c)) - 8.689729360e-6 * sin (Psa.omega (36525 * c)) := rfl
  have cc := abs_le.1 (center_cmp hT3 (A := 3.338320972e-2) (B := 3.497596876e-4) (g := Psa.g (36525 * c))
    (dA := 3.1e-4) (dB := 7e-6) (dg := 4.4e-3)
    (by unfold eccentricity; rw [abs_le]; norm_num at hTa hca ⊢; constructor <;> linarith [hTa.1, hTa.2, hca.1, hca.2])
    (by
      have hb := abs_le.1 hT3
      unfold eccentricity; rw [abs_le]; norm_num at hb ⊢
      constructor <;> nlinarith [hb.1, hb.2])
    (by rw [eg, abs_le]; norm_num at hTa hca ma ⊢
        constructor <;> linarith [hTa.1, hTa.2, hca.1, hca.2, ma.1, ma.2]))
  have so := abs_le.1 (abs_sin_le_one (Psa.omega (36525 * c)))
  have co := abs_le.1 (abs_cos_le_one (Psa.omega (36525 * c)))
  have elr : longitude T = meanLongitude T + center T := rfl
  refine ⟨hT3, ?_, ?_, ?_⟩
  · rw [el, eL, elr, abs_le]
    norm_num at hTa hca ml cc so ⊢
    constructor <;> linarith [hTa.1, hTa.2, hca.1, hca.2, ml.1, ml.2, cc.1, cc.2, so.1, so.2]
  · rw [ee, abs_le]
    norm_num at hTa hca ob co ⊢
    constructor <;> linarith [hTa.1, hTa.2, hca.1, hca.2, ob.1, ob.2, co.1, co.2]
  · rw [el, elr, abs_le]
    norm_num at cc so ⊢
    constructor <;> linarith [cc.1, cc.2, so.1, so.2]

set_option maxHeartbeats 2000000 in
theorem soltrack_near {t : ℤ} (h : InSec t) {T : ℝ}
    (hT : |T - Soltrack.tJC (Soltrack.tJD (t : ℝ))| ≤ 3.2e-10) :
    Near T (Soltrack.l0 (Soltrack.tJC (Soltrack.tJD (t : ℝ))) - 0.0057183 * (π / 180)
        + Soltrack.dpsi (Soltrack.tJC (Soltrack.tJD (t : ℝ)))
          * cos (Soltrack.obliquity (Soltrack.tJC (Soltrack.tJD (t : ℝ))))) (Soltrack.Lraw (Soltrack.tJC (Soltrack.tJD (t : ℝ))))
      (Soltrack.obliquity (Soltrack.tJC (Soltrack.tJD (t : ℝ)))) 1.6e-4 4.6e-5 1.9e-5 := by
  have hc := Soltrack.tJC_bound h
  obtain ⟨c, hcj⟩ : ∃ c, c = Soltrack.tJC (Soltrack.tJD (t : ℝ)) := ⟨_, rfl⟩
  rw [← hcj] at hT hc ⊢
  have hR := Soltrack.R_bound hc
  have hT3 : |T| ≤ 3.24 := by
    have a := abs_le.1 hT
    have b := abs_le.1 hc
    rw [abs_le]; norm_num at a b ⊢; constructor <;> linarith [a.1, a.2, b.1, b.2]
  have hTa := abs_le.1 hT
  have hca := abs_le.1 hc
  have hc2 : c ^ 2 ≤ 10.44 := by rw [← sq_abs]; nlinarith [abs_nonneg c, hc]
  have hc20 : 0 ≤ c ^ 2 := sq_nonneg c
  have ml := abs_le.1 (meanLongitude_num hT3)
  have ma := abs_le.1 (meanAnomaly_num hT3)
  have ob := abs_le.1 (obliquity_num hT3)
  have eg : Soltrack.ma c = 6.240060141 + 628.301955152 * c - 2.682571e-6 * c ^ 2 := rfl
  have eL : Soltrack.l0 c = 4.895063168 + 628.331966786 * c + 5.291838e-6 * c ^ 2 := rfl
  have ee : Soltrack.obliquity c = (0.409092804222 - 2.26965525e-4 * c - 2.86e-9 * c ^ 2)
    + (4.4615e-5 * cos (Soltrack.omg c)) := rfl
  have es : Soltrack.sec c = (3.34161088e-2 - 8.40725e-5 * c - 2.443e-7 * c ^ 2) * sin (Soltrack.ma c)
    + (3.489437e-4 - 1.76278e-6 * c) * sin (2 * Soltrack.ma c) := rfl
  have el : Soltrack.Lraw c = (Soltrack.l0 c + Soltrack.sec c) + (-9.93087e-5 / Soltrack.R c)
    + -8.338601e-5 * sin (Soltrack.omg c) := rfl
  have hob := Soltrack.ob_bound hc
  have hcos := Psa.cos_ep_bound (e := Soltrack.obliquity c) ⟨by norm_num at hob ⊢; linarith, by norm_num at hob ⊢; linarith⟩
  have ed : Soltrack.dpsi c = -8.338601e-5 * sin (Soltrack.omg c) := rfl
  have edb : |sin (Soltrack.omg c) * (1 - cos (Soltrack.obliquity c))| ≤ 1 * 0.09 := by
    refine Nrel.abs_mul_le' (abs_sin_le_one _) ?_
    rw [abs_le]; norm_num at hcos ⊢; constructor <;> linarith [hcos.1, hcos.2]
  have edb := abs_le.1 edb
  have er : |(-9.93087e-5 / Soltrack.R c) + 9.948e-5| ≤ 2.1e-6 := by
    have hp : 0 < Soltrack.R c := by norm_num at hR; linarith [hR.1]
    have e : (-9.93087e-5 / Soltrack.R c) + 9.948e-5 = (9.948e-5 * Soltrack.R c - 9.93087e-5) / Soltrack.R c := by
      rw [eq_div_iff hp.ne', add_mul, div_mul_cancel₀ _ hp.ne']; ring
    rw [e, abs_div, abs_of_pos hp, div_le_iff₀ hp, abs_le]
    norm_num at hR ⊢; constructor <;> linarith [hR.1, hR.2]
  have er := abs_le.1 er
  have cc := abs_le.1 (center_cmp hT3 (A := 3.34161088e-2 - 8.40725e-5 * c - 2.443e-7 * c ^ 2)
    (B := 3.489437e-4 - 1.76278e-6 * c) (g := Soltrack.ma c)
    (dA := 4.5e-6) (dB := 2e-7) (dg := 2.9e-5)
    (by unfold eccentricity; rw [abs_le]; norm_num at hTa hca hc2 ⊢
        constructor <;> linarith [hTa.1, hTa.2, hca.1, hca.2])
    (by
      have hb := abs_le.1 hT3
      unfold eccentricity; rw [abs_le]; norm_num at hb hTa ⊢
      constructor <;> nlinarith [hb.1, hb.2, hTa.1, hTa.2])
    (by rw [eg, abs_le]; norm_num at hTa hca ma hc2 ⊢
        constructor <;> linarith [hTa.1, hTa.2, hca.1, hca.2, ma.1, ma.2]))
  rw [← es] at cc
  have so := abs_le.1 (abs_sin_le_one (Soltrack.omg c))
  have co := abs_le.1 (abs_cos_le_one (Soltrack.omg c))
  have elr : longitude T = meanLongitude T + center T := rfl
  refine ⟨hT3, ?_, ?_, ?_⟩
  · rw [el, eL, elr, abs_le]
    norm_num at hTa hca ml cc so er hc2 ⊢
    constructor <;> linarith [hTa.1, hTa.2, hca.1, hca.2, ml.1, ml.2, cc.1, cc.2, so.1, so.2, er.1, er.2]
  · rw [ee, abs_le]
    norm_num at hTa hca ob co hc2 ⊢
    constructor <;> linarith [hTa.1, hTa.2, hca.1, hca.2, ob.1, ob.2, co.1, co.2]
  · have p1 := pi_gt_d6
    have p2 := pi_lt_d6
    rw [el, elr, ed, abs_le]
    clear el ee eg eL es ed hT hT3 hc ml ma ob
    obtain ⟨w, hw⟩ : ∃ w, w = sin (Soltrack.omg c) * (1 - cos (Soltrack.obliquity c)) := ⟨_, rfl⟩
    have hw' : sin (Soltrack.omg c) * cos (Soltrack.obliquity c) = sin (Soltrack.omg c) - w := by rw [hw]; ring
    rw [← hw] at edb
    rw [mul_assoc (-8.338601e-5 : ℝ), hw']
    norm_num at cc er edb p1 p2 ⊢
    constructor <;> linarith [cc.1, cc.2, er.1, er.2, edb.1, edb.2]

end SW.Ephem
