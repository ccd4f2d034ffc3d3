/-
C98: the solstices. Every June has an instant at which the sun is farthest north and every December one at which it is farthest south, the same for all algorithms up to
their errors; how fast the declination falls away from it; the longest and the shortest day.
-/
import Verif.Props.Equinox

namespace SW.Props
open SW SW.Spec SW.Ephem SW.Cal Real

namespace Solstice

/-! ### the reference sun near a solstice -/

/-- the declination where the longitude is `x` away from the solstice -/
theorem sin_top {T S σ : ℝ} (hσ : σ = 1 ∨ σ = -1) (hS : ∀ z, sin z = σ * cos (z - S)) :
    sin (σ * declination T) = sin (obliquity T) * cos (longitude T - S) := by
  have : sin (σ * declination T) = σ * sin (declination T) := by
    rcases hσ with rfl | rfl
    · rw [one_mul, one_mul]
    · rw [neg_one_mul, neg_one_mul, sin_neg]
  rw [this, Equinox.sin_dec, hS (longitude T)]
  rcases hσ with rfl | rfl <;> ring

theorem top_half {T σ : ℝ} (hσ : σ = 1 ∨ σ = -1) : |σ * declination T| ≤ π / 2 := by
  have := Equinox.dec_half T
  rcases hσ with rfl | rfl
  · rwa [one_mul]
  · rwa [neg_one_mul, abs_neg]

/-- the obliquity lies on the increasing branch of the sine -/
theorem obl_half {T : ℝ} (h : |T| ≤ 3.24) : |obliquity T| ≤ π / 2 := by
  obtain ⟨o1, o2⟩ := obliquity_bound h
  have p1 := pi_gt_d6
  rw [abs_le]; norm_num at o1 o2 p1 ⊢; constructor <;> linarith

theorem obl_sin {T : ℝ} (h : |T| ≤ 3.24) : 0.3966 ≤ sin (obliquity T) := by
  obtain ⟨o1, o2⟩ := obliquity_bound h
  have p1 := pi_gt_d6
  have := sin_le_sin_of_le_of_le_pi_div_two (x := 0.408) (by norm_num; linarith) (by norm_num at o2 p1 ⊢; linarith) o1
  have := sin_gt_sub_cube (x := 0.408) (by norm_num)
  norm_num at *; linarith

/-- the declination never exceeds the obliquity -/
theorem top_le {T S σ : ℝ} (h : |T| ≤ 3.24) (hσ : σ = 1 ∨ σ = -1) (hS : ∀ z, sin z = σ * cos (z - S)) :
    σ * declination T ≤ obliquity T := by
  have hs := obl_sin h
  refine (strictMonoOn_sin.le_iff_le (abs_le.1 (top_half hσ)) (abs_le.1 (obl_half h))).1 ?_
  rw [sin_top hσ hS]
  exact mul_le_of_le_one_right (by norm_num at hs ⊢; linarith) (cos_le_one _)

theorem neg_le_top {T S σ : ℝ} (h : |T| ≤ 3.24) (hσ : σ = 1 ∨ σ = -1) (hS : ∀ z, sin z = σ * cos (z - S)) :
    -obliquity T ≤ σ * declination T := by
  have hs := obl_sin h
  refine (strictMonoOn_sin.le_iff_le (abs_le.1 (by rw [abs_neg]; exact obl_half h)) (abs_le.1 (top_half hσ))).1 ?_
  rw [sin_top hσ hS, sin_neg]
  have := mul_le_mul_of_nonneg_left (neg_one_le_cos (longitude T - S)) (show 0 ≤ sin (obliquity T) by norm_num at hs ⊢; linarith)
  linarith

/-- it falls short of it by a parabola at most -/
theorem top_ge {T S σ : ℝ} (h : |T| ≤ 3.24) (hσ : σ = 1 ∨ σ = -1) (hS : ∀ z, sin z = σ * cos (z - S)) :
    obliquity T - 0.218 * (longitude T - S) ^ 2 ≤ σ * declination T := by
  obtain ⟨o1, o2⟩ := obliquity_bound h
  have p1 := pi_gt_d6
  have hs := obl_sin h
  have ht : sin (obliquity T) ≤ 0.436 * cos (obliquity T) := by
    have s1 : sin (obliquity T) ≤ sin 0.41 :=
      sin_le_sin_of_le_of_le_pi_div_two (by norm_num at o1 p1 ⊢; linarith) (by norm_num at p1 ⊢; linarith) o2
    have c1 : cos 0.41 ≤ cos (obliquity T) := cos_le_cos_of_nonneg_of_le_pi (by norm_num at o1 ⊢; linarith) (by norm_num at p1 ⊢; linarith) o2
    have s2 := (abs_le.1 (sin_bound (x := 0.41) (by norm_num [abs_of_pos]))).2
    have c2 := (abs_le.1 (cos_bound (x := 0.41) (by norm_num [abs_of_pos]))).1
    rw [abs_of_pos (by norm_num : (0 : ℝ) < 0.41)] at s2 c2
    norm_num at s2 c2 s1 c1 ⊢
    linarith
  have hx := sq_nonneg (longitude T - S)
  have hc : 1 - (longitude T - S) ^ 2 / 2 ≤ cos (longitude T - S) := one_sub_sq_div_two_le_cos
  have e := sin_top (T := T) hσ hS
  generalize (longitude T - S) ^ 2 = q at *
  by_cases hy : obliquity T - 0.218 * q ≤ -obliquity T
  · exact hy.trans (neg_le_top h hσ hS)
  · have hy := not_le.1 hy
    have hq : 0 ≤ 0.218 * q := by positivity
    refine (strictMonoOn_sin.le_iff_le (abs_le.1 ?_) (abs_le.1 (top_half hσ))).1 ?_
    · exact (abs_le.2 ⟨hy.le, by linarith⟩).trans ((le_abs_self _).trans (obl_half h))
    · have k := Equinox.sin_climb (x := obliquity T - 0.218 * q) (y := obliquity T) (W := obliquity T) (abs_le.2 ⟨hy.le, by linarith⟩)
        (abs_of_pos (by norm_num at o1 ⊢; linarith)).le (by linarith) (by norm_num at o2 p1 ⊢; linarith) le_rfl
      rw [e]
      have hpos : 0 ≤ sin (obliquity T) := by norm_num at hs ⊢; linarith
      have k2 := mul_le_mul_of_nonneg_left hc hpos
      have k3 := mul_le_mul_of_nonneg_right ht hx
      norm_num at k k2 k3 ⊢
      linarith

/-- how far below the obliquity the declination is -/
theorem top_below {T S σ A : ℝ} (h : |T| ≤ 3.24) (hσ : σ = 1 ∨ σ = -1) (hS : ∀ z, sin z = σ * cos (z - S)) (h0 : 0 ≤ A)
    (hA : cos (longitude T - S) ≤ 1 - A) : σ * declination T + 0.3966 * A ≤ obliquity T := by
  have hs := obl_sin h
  have := Equinox.of_sin (a := σ * declination T) (b := obliquity T) (A := 0.3966 * A) (top_half hσ) (obl_half h) (by positivity) (by
    rw [sin_top hσ hS]
    have k1 := mul_le_mul_of_nonneg_left hA (show 0 ≤ sin (obliquity T) by norm_num at hs ⊢; linarith)
    have k2 := mul_le_mul_of_nonneg_right hs h0
    linarith)
  linarith

/-- the cosine below a parabola, on the whole turn between two solstices -/
theorem cos_below {x y : ℝ} (hy : 0 ≤ y) (hy1 : y ≤ 0.5) (hx : y ≤ |x|) (hx1 : |x| ≤ 5.7) : cos x ≤ 1 - 0.4869 * y ^ 2 := by
  have p1 := pi_gt_d6
  have c0 : cos y ≤ 1 - 0.4869 * y ^ 2 := by
    have := (abs_le.1 (cos_bound (x := y) (by rw [abs_of_nonneg hy]; norm_num at hy1 ⊢; linarith))).2
    rw [abs_of_nonneg hy] at this
    have h4 : y ^ 4 ≤ 0.25 * y ^ 2 := by
      rw [show y ^ 4 = y ^ 2 * y ^ 2 by ring]
      refine mul_le_mul_of_nonneg_right ?_ (sq_nonneg _)
      nlinarith
    norm_num at this h4 ⊢; linarith [sq_nonneg y]
  refine le_trans ?_ c0
  rw [← cos_abs x]
  rcases le_total |x| π with h | h
  · exact cos_le_cos_of_nonneg_of_le_pi hy h hx
  · rw [← cos_two_pi_sub]
    exact cos_le_cos_of_nonneg_of_le_pi hy (by linarith) (by norm_num at p1 hx1 hy1 ⊢; linarith)

/-- how far the sun advances along the ecliptic -/
theorem lon_advance {T1 T2 : ℝ} (h1 : |T1| ≤ 3.24) (h2 : |T2| ≤ 3.24) :
    606.6 * |T2 - T1| ≤ |longitude T2 - longitude T1| ∧ |longitude T2 - longitude T1| ≤ 650.1 * |T2 - T1| := by
  have N := drift_near h1 h2
  rw [abs_sub_comm T1 T2] at N
  refine ⟨?_, by rw [abs_sub_comm]; exact N.2⟩
  have p1 := pi_gt_d6
  have e : meanLongitude T2 - meanLongitude T1 = (36000.7698 * (π / 180)) * (T2 - T1) := by unfold meanLongitude Ephem.deg; ring
  have hm : 628.31 * |T2 - T1| ≤ |meanLongitude T2 - meanLongitude T1| := by
    rw [e, abs_mul, abs_of_pos (show 0 < 36000.7698 * (π / 180) by have := pi_pos; positivity)]
    exact mul_le_mul_of_nonneg_right (by norm_num at p1 ⊢; linarith) (abs_nonneg _)
  have h4 := N.4
  rw [abs_sub_comm] at h4
  have tri : |meanLongitude T2 - meanLongitude T1| ≤ |longitude T2 - longitude T1| + |longitude T1 - meanLongitude T1 - (longitude T2 - meanLongitude T2)| := by
    refine le_trans (le_of_eq ?_) (abs_add_le _ _)
    congr 1; ring
  rw [abs_sub_comm (longitude T1 - meanLongitude T1)] at tri
  have := abs_nonneg (T2 - T1)
  norm_num at h4 hm ⊢
  linarith

/-- the reference declination around an instant at which the longitude is that of a solstice -/
theorem ref_solstice {T1 T2 S σ n : ℝ} (h1 : |T1| ≤ 3.24) (h2 : |T2| ≤ 3.24) (hn : |T2 - T1| = n / 36525) (hσ : σ = 1 ∨ σ = -1)
    (hS : ∀ z, sin z = σ * cos (z - S)) (hx : |longitude T1 - S| ≤ 1e-9) :
    σ * declination T2 ≤ σ * declination T1 + rad (4e-7 * n + 1e-9) ∧
    σ * declination T1 ≤ σ * declination T2 + rad (0.004 * n ^ 2 + 4e-7 * n + 1e-9) ∧
    (n ≤ 320 → σ * declination T2 + rad (0.003 * min n 30 ^ 2) ≤ σ * declination T1 + rad (4e-7 * n + 1e-9)) ∧
    |σ * declination T1 - rad 23.44| ≤ rad 0.043 := by
  have p1 := pi_gt_d6
  have p2 := pi_lt_d6
  have n0 : 0 ≤ n := by
    have := abs_nonneg (T2 - T1)
    rw [hn] at this
    by_contra hc
    have := div_neg_of_neg_of_pos (not_le.1 hc) (show (0 : ℝ) < 36525 by norm_num)
    linarith
  have N := drift_near h2 h1
  obtain ⟨l1, l2⟩ := lon_advance h1 h2
  have ho := abs_le.1 N.3
  rw [hn] at l1 l2 ho
  have t1 := top_le h1 hσ hS
  have t2 := top_le h2 hσ hS
  have g1 := top_ge h1 hσ hS
  have g2 := top_ge h2 hσ hS
  have q1 : (longitude T1 - S) ^ 2 ≤ 1e-18 := by
    rw [← sq_abs]; exact (pow_le_pow_left₀ (abs_nonneg _) hx 2).trans (by norm_num)
  have xu : |longitude T2 - S| ≤ 650.1 * (n / 36525) + 1e-9 := by
    rw [show longitude T2 - S = (longitude T2 - longitude T1) + (longitude T1 - S) by ring]
    exact (abs_add_le _ _).trans (add_le_add l2 hx)
  have xl : 606.6 * (n / 36525) - 1e-9 ≤ |longitude T2 - S| := by
    have := abs_sub_abs_le_abs_sub (longitude T2 - longitude T1) (S - longitude T1)
    rw [show longitude T2 - longitude T1 - (S - longitude T1) = longitude T2 - S by ring, abs_sub_comm S] at this
    linarith
  have q2 : (longitude T2 - S) ^ 2 ≤ (650.1 * (n / 36525) + 1e-9) ^ 2 := by
    rw [← sq_abs]; exact pow_le_pow_left₀ (abs_nonneg _) xu 2
  have hn2 : 0 ≤ n ^ 2 := sq_nonneg _
  have r1 : 3.141592 / 180 * (4e-7 * n + 1e-9) ≤ rad (4e-7 * n + 1e-9) := by
    unfold rad
    have : 0 ≤ 4e-7 * n + 1e-9 := by positivity
    have := mul_le_mul_of_nonneg_left p1.le this
    norm_num at this ⊢; linarith
  have r2 : 3.141592 / 180 * (0.004 * n ^ 2 + 4e-7 * n + 1e-9) ≤ rad (0.004 * n ^ 2 + 4e-7 * n + 1e-9) := by
    unfold rad
    have : 0 ≤ 0.004 * n ^ 2 + 4e-7 * n + 1e-9 := by positivity
    have := mul_le_mul_of_nonneg_left p1.le this
    norm_num at this ⊢; linarith
  refine ⟨?_, ?_, fun hn320 => ?_, ?_⟩
  · norm_num at r1 ho q1 g1 t2 ⊢; linarith
  · norm_num at r2 ho q2 g2 t1 ⊢; nlinarith
  · have m0 : 0 ≤ min n 30 := le_min n0 (by norm_num)
    have m1 : min n 30 ≤ n := min_le_left _ _
    have m2 : min n 30 ≤ 30 := min_le_right _ _
    have r3 : rad (0.003 * min n 30 ^ 2) ≤ 3.141593 / 180 * (0.003 * min n 30 ^ 2) := by
      unfold rad
      have : 0 ≤ 0.003 * min n 30 ^ 2 := by positivity
      have := mul_le_mul_of_nonneg_left p2.le this
      norm_num at this ⊢; linarith
    generalize min n 30 = m at *
    rcases le_total m 1e-5 with hm | hm
    · have : m ^ 2 ≤ 1e-5 * n := by
        rw [sq]; exact mul_le_mul hm m1 m0 (by norm_num)
      norm_num at r1 r3 ho q1 g1 t2 this ⊢; linarith
    · have c := cos_below (x := longitude T2 - S) (y := 0.0165 * m) (by positivity) (by norm_num; linarith)
        (le_trans (by norm_num at hm ⊢; linarith) xl) (xu.trans (by norm_num at hn320 ⊢; linarith))
      have b := top_below (A := 0.4869 * (0.0165 * m) ^ 2) h2 hσ hS (by positivity) (by linarith)
      have : 0 ≤ m ^ 2 := sq_nonneg _
      norm_num at r1 r3 ho q1 g1 b ⊢; nlinarith
  · obtain ⟨a1, a2⟩ := abs_le.1 h1
    have e1 : obliquity T1 - rad 23.44 = rad (-0.0007 - 0.0130 * T1) := by unfold obliquity Ephem.deg rad; ring
    have e2 : |obliquity T1 - rad 23.44| ≤ rad 0.0429 := by
      rw [e1, ← rad_abs]
      refine rad_mono (abs_le.2 ?_)
      norm_num at a1 a2 ⊢; constructor <;> linarith
    have e3 : rad 0.0429 + 1e-10 ≤ rad 0.043 := by unfold rad; norm_num at p1 ⊢; linarith
    obtain ⟨b1, b2⟩ := abs_le.1 e2
    rw [abs_le]
    norm_num at e3 b1 b2 q1 g1 t1 ⊢
    constructor <;> linarith

/-! ### the instant -/

theorem continuous_realCentury : Continuous Equinox.realCentury := by
  unfold Equinox.realCentury
  fun_prop

theorem continuous_lon : Continuous longitude := by
  unfold longitude meanLongitude center eccentricity meanAnomaly Ephem.deg
  fun_prop

/-- where a quantity that moves as fast as the sun passes `S`, an instant at which it is `S` up to a nanosecond -/
theorem ref_passage {F : ℝ → ℝ} (hF : Continuous F) (hl : ∀ {T1 T2 : ℝ}, |T1| ≤ 3.24 → |T2| ≤ 3.24 → |F T1 - F T2| ≤ 650.1 * |T1 - T2|)
    {S : ℝ} {t1 t2 : Int} (h1 : |t1| < 2 ^ 63) (h2 : |t2| < 2 ^ 63) (h12 : t1 < t2)
    (a : F (century t1) < S) (b : S < F (century t2)) :
    ∃ t : Int, t1 ≤ t ∧ t < t2 ∧ |t| < 2 ^ 63 ∧ |F (century t) - S| ≤ 1e-9 := by
  have hc : (t1 : ℝ) ≤ t2 := by exact_mod_cast h12.le
  have hcen : ∀ t : Int, century t = Equinox.realCentury t := fun _ => rfl
  obtain ⟨x, hx, hx0⟩ : ∃ x ∈ Set.Icc (t1 : ℝ) t2, F (Equinox.realCentury x) = S :=
    intermediate_value_Icc hc (hF.comp continuous_realCentury).continuousOn ⟨a.le, b.le⟩
  have hx2 : x < t2 := by
    rcases lt_or_eq_of_le hx.2 with h | h
    · exact h
    · rw [h, ← hcen] at hx0
      linarith
  have f1 : t1 ≤ ⌊x⌋ := Int.le_floor.2 hx.1
  have f2 : ⌊x⌋ < t2 := Int.floor_lt.2 hx2
  have fr : |⌊x⌋| < 2 ^ 63 := by rw [abs_lt] at *; omega
  refine ⟨⌊x⌋, f1, f2, fr, ?_⟩
  have hb : |Equinox.realCentury x| ≤ 3.24 := by
    have c1 := abs_le.1 (century_bound h1)
    have c2 := abs_le.1 (century_bound h2)
    rw [hcen] at c1 c2
    have mono : ∀ {a b : ℝ}, a ≤ b → Equinox.realCentury a ≤ Equinox.realCentury b := by
      intro a b h
      unfold Equinox.realCentury
      have : a / 86400e9 ≤ b / 86400e9 := div_le_div_of_nonneg_right h (by norm_num)
      exact div_le_div_of_nonneg_right (by linarith) (by norm_num)
    exact abs_le.2 ⟨c1.1.trans (mono hx.1), (mono hx.2).trans c2.2⟩
  have hd := hl (century_bound fr) hb
  rw [hx0] at hd
  refine hd.trans ?_
  have : |century ⌊x⌋ - Equinox.realCentury x| ≤ 1 / (86400e9 * 36525) := by
    rw [hcen]
    unfold Equinox.realCentury
    rw [show ((⌊x⌋ : ℝ) / 86400e9 - 10957.5) / 36525 - (x / 86400e9 - 10957.5) / 36525 = ((⌊x⌋ : ℝ) - x) / (86400e9 * 36525) by ring, abs_div,
      abs_of_pos (by norm_num : (0 : ℝ) < 86400e9 * 36525)]
    refine div_le_div_of_nonneg_right ?_ (by norm_num)
    rw [abs_le]; constructor <;> linarith [Int.floor_le x, Int.lt_floor_add_one x]
  norm_num at this ⊢
  linarith

/-- the reference solstice of a year -/
theorem ref_solstice_at {Y : Int} (hY : 1678 ≤ Y ∧ Y ≤ 2261) {i : Nat} {σ : ℝ} (hi : (i = 5 ∧ σ = 1) ∨ (i = 11 ∧ σ = -1)) :
    ∃ (t d : Int) (S : ℝ), |t| < 2 ^ 63 ∧ codeDate (t / 86400000000000) = ⟨Y, 1 + i, d⟩ ∧ 10 ≤ d ∧ d ≤ 29 ∧
      (∀ z, sin z = σ * cos (z - S)) ∧ |longitude (century t) - S| ≤ 1e-9 := by
  have p1 := pi_gt_d6
  have b0 := before_mono (isLeap Y) (Nat.zero_le i) (by omega)
  have b1 := before_succ (isLeap Y) (show i < 12 by omega)
  have b2 := before_mono (isLeap Y) (show i + 1 ≤ 12 by omega) le_rfl
  have m1 : 30 ≤ mlen (isLeap Y) (1 + i) := by
    unfold mlen; rcases hi with ⟨rfl, -⟩ | ⟨rfl, -⟩ <;> split_ifs <;> omega
  have y1 := yearStart_mono hY.1
  have y2 := yearStart_mono hY.2
  rw [show yearStart 1678 = -106650 by decide] at y1
  rw [show yearStart 2261 = 106286 by decide] at y2
  rw [before_0] at b0
  rw [before_12] at b2
  have b2 : before (isLeap Y) (i + 1) ≤ 366 := b2.trans (by split_ifs <;> norm_num)
  have bb : (i = 5 → 151 ≤ before (isLeap Y) i ∧ before (isLeap Y) i ≤ 152) ∧ (i = 11 → 334 ≤ before (isLeap Y) i ∧ before (isLeap Y) i ≤ 335) := by
    constructor <;> rintro rfl <;> cases isLeap Y <;> decide
  generalize hn1 : yearStart Y + (before (isLeap Y) i + 10 - 1) = n1
  generalize hn2 : yearStart Y + (before (isLeap Y) i + 30 - 1) = n2
  have r1 : |n1 * 86400000000000| < 2 ^ 63 := by rw [abs_lt]; omega
  have r2 : |n2 * 86400000000000| < 2 ^ 63 := by rw [abs_lt]; omega
  have q1 : n1 * 86400000000000 / 86400000000000 = yearStart Y + (before (isLeap Y) i + 10 - 1) := by omega
  have q2 : n2 * 86400000000000 / 86400000000000 = yearStart Y + (before (isLeap Y) i + 30 - 1) := by omega
  have split : ∀ {q c w : ℝ} {L : ℝ}, |L - (((Y - 2000 : ℤ) : ℝ) * (2 * π) + rad c)| ≤ rad w →
      (c + w < q → L < ((Y - 2000 : ℤ) : ℝ) * (2 * π) + rad q) ∧ (q < c - w → ((Y - 2000 : ℤ) : ℝ) * (2 * π) + rad q < L) := by
    intro q c w L hL
    obtain ⟨u, v⟩ := abs_le.1 hL
    have strict : ∀ {x y : ℝ}, x < y → rad x < rad y := by
      intro x y h; unfold rad; exact mul_lt_mul_of_pos_right h (by have := pi_pos; positivity)
    constructor <;> intro h <;> have h := strict h
    · rw [show rad (c + w) = rad c + rad w by unfold rad; ring] at h; linarith
    · rw [show rad (c - w) = rad c - rad w by unfold rad; ring] at h; linarith
  obtain ⟨S, s0, s1, s2⟩ : ∃ S, (∀ z, sin z = σ * cos (z - S)) ∧ longitude (century (n1 * 86400000000000)) < S ∧
      S < longitude (century (n2 * 86400000000000)) := by
    rcases hi with ⟨rfl, rfl⟩ | ⟨rfl, rfl⟩
    · refine ⟨((Y - 2000 : ℤ) : ℝ) * (2 * π) + rad 450, fun z => ?_, ?_, ?_⟩
      · rw [show z - (((Y - 2000 : ℤ) : ℝ) * (2 * π) + rad 450) = z - π / 2 - ((Y - 1999 : ℤ) : ℝ) * (2 * π) by unfold rad; push_cast; ring,
          cos_sub_int_mul_two_pi, cos_sub_pi_div_two, one_mul]
      · exact (split (Equinox.lon_within r1 q1 (by omega) (by omega) (a := 160) (b := 161) (q := 439.1) (w := 4.6) (by have := bb.1 rfl; omega)
          (by norm_num) (by norm_num))).1 (by norm_num)
      · exact (split (Equinox.lon_within r2 q2 (by omega) (by omega) (a := 180) (b := 181) (q := 458.75) (w := 4.6) (by have := bb.1 rfl; omega)
          (by norm_num) (by norm_num))).2 (by norm_num)
    · refine ⟨((Y - 2000 : ℤ) : ℝ) * (2 * π) + rad 630, fun z => ?_, ?_, ?_⟩
      · rw [show z - (((Y - 2000 : ℤ) : ℝ) * (2 * π) + rad 630) = z - π - π / 2 - ((Y - 1999 : ℤ) : ℝ) * (2 * π) by unfold rad; push_cast; ring,
          cos_sub_int_mul_two_pi, cos_sub_pi_div_two, sin_sub_pi]
        ring
      · exact (split (Equinox.lon_within r1 q1 (by omega) (by omega) (a := 343) (b := 344) (q := 619.4) (w := 4.6) (by have := bb.2 rfl; omega)
          (by norm_num) (by norm_num))).1 (by norm_num)
      · exact (split (Equinox.lon_within r2 q2 (by omega) (by omega) (a := 363) (b := 364) (q := 639.1) (w := 4.6) (by have := bb.2 rfl; omega)
          (by norm_num) (by norm_num))).2 (by norm_num)
  obtain ⟨t, t1, t2, ht, hd⟩ := ref_passage continuous_lon (fun a b => (drift_near a b).2) r1 r2 (by omega) s1 s2
  have k : t / 86400000000000 = yearStart Y + (before (isLeap Y) i + (t / 86400000000000 - n1 + 10) - 1) := by omega
  refine ⟨t, t / 86400000000000 - n1 + 10, S, ht, ?_, by omega, by omega, s0, hd⟩
  exact (congrArg codeDate k).trans (Equinox.codeDate_md (by omega) ⟨by omega, by omega⟩)

/-- from the reference to what is returned -/
theorem from_ref {σ x x' D D' E E' n : ℝ} (hσ : σ = 1 ∨ σ = -1) (hb : |rad x - D| ≤ rad E) (hb' : |rad x' - D'| ≤ rad E')
    (r1 : σ * D' ≤ σ * D + rad (4e-7 * n + 1e-9))
    (r2 : σ * D ≤ σ * D' + rad (0.004 * n ^ 2 + 4e-7 * n + 1e-9))
    (r3 : n ≤ 320 → σ * D' + rad (0.003 * min n 30 ^ 2) ≤ σ * D + rad (4e-7 * n + 1e-9))
    (r4 : |σ * D - rad 23.44| ≤ rad 0.043) :
    |σ * x - 23.44| ≤ 0.043 + E ∧
    σ * x' ≤ σ * x + 4e-7 * n + (E + E' + 1e-9) ∧
    σ * x - 0.004 * n ^ 2 - 4e-7 * n - (E + E' + 1e-9) ≤ σ * x' ∧
    (n ≤ 320 → σ * x' ≤ σ * x - 0.003 * min n 30 ^ 2 + 4e-7 * n + (E + E' + 1e-9)) := by
  have cb : ∀ {y B F : ℝ}, |rad y - B| ≤ rad F → |rad (σ * y) - σ * B| ≤ rad F := by
    intro y B F h
    rw [show rad (σ * y) - σ * B = σ * (rad y - B) by unfold rad; ring, abs_mul]
    rcases hσ with rfl | rfl
    · rwa [abs_one, one_mul]
    · rwa [abs_neg, abs_one, one_mul]
  have hb := abs_le.1 (cb hb)
  have hb' := abs_le.1 (cb hb')
  have r4 := abs_le.1 r4
  have add : ∀ a b : ℝ, rad (a + b) = rad a + rad b := by intros; unfold rad; ring
  have sub : ∀ a b : ℝ, rad (a - b) = rad a - rad b := by intros; unfold rad; ring
  simp only [add] at r1 r2 r3
  refine ⟨of_rad (abs_le.2 ⟨?_, ?_⟩), of_rad_le ?_, of_rad_le ?_, fun hn => of_rad_le ?_⟩ <;> simp only [add, sub] <;> try linarith [hb.1, hb.2, hb'.1, hb'.2, r4.1, r4.2]
  have := r3 hn
  linarith [hb.1, hb.2, hb'.1, hb'.2]

end Solstice
open Solstice

/-! ### theorems -/

/-- C98: every year from 1678 to 2261 has a solstice between 10 and 29 June (north, `σ = 1`) and one between 10 and 29 December (south, `σ = -1`): an instant such that
for every call at that instant and every call at any other instant, `n` days earlier or later, with any two algorithms with errors `E` in all, the declination returned by
the second is no farther toward the solstice's side than that of the first, and within 320 days is less by `0.003 n²` degrees at least (`2.7` degrees from the thirtieth day
on), and by `0.004 n²` degrees at most, up to `E`; at the solstice it is 23.44 degrees up to a twentieth and the error of the algorithm. At one place where both instants have
sunrise and sunset, the day of the solstice is the longest (the shortest, in the other hemisphere) among those far enough for the errors. -/
theorem C98_solstice {date : Int → CivilDate} (g : IsGregorian date) {Y : Int} (hY : 1678 ≤ Y ∧ Y ≤ 2261) {m : Int} {σ : ℝ}
    (hm : (m = 6 ∧ σ = 1) ∨ (m = 12 ∧ σ = -1)) :
    ∃ t d : Int, |t| < 2 ^ 63 ∧ date (t / 86400000000000) = ⟨Y, m, d⟩ ∧ 10 ≤ d ∧ d ≤ 29 ∧
      ∀ {uc uc' : UseCase} {w w' : World XR} {times times' : Times} {latitude longitude latitude' longitude' : Coord XR}
        {alg eng alg' eng' : String} {refr refr' : PyVal} {s s' : Sunpos XR} {e e' : Dim → Nat} {t' : Int},
        call uc w times latitude longitude alg refr eng = .ok s → stampAt times.stamps (e .time) = some t →
        call uc' w' times' latitude' longitude' alg' refr' eng' = .ok s' → stampAt times'.stamps (e' .time) = some t' → |t'| < 2 ^ 63 →
        ∃ x x' : ℝ, s.decDeg.get e = .fin x ∧ s'.decDeg.get e' = .fin x' ∧
          |σ * x - 23.44| ≤ 0.043 + decError alg ∧
          σ * x' ≤ σ * x + 4e-7 * daysBetween t t' + (decError alg + decError alg' + 1e-9) ∧
          σ * x - 0.004 * daysBetween t t' ^ 2 - 4e-7 * daysBetween t t' - (decError alg + decError alg' + 1e-9) ≤ σ * x' ∧
          (daysBetween t t' ≤ 320 →
            σ * x' ≤ σ * x - 0.003 * min (daysBetween t t') 30 ^ 2 + 4e-7 * daysBetween t t' + (decError alg + decError alg' + 1e-9)) ∧
          ∀ (W W' : World XR) (φ : ℝ), s.latitude.get e = .fin φ → s'.latitude.get e' = .fin φ → |φ| < 90 → daysBetween t t' ≤ 320 →
            decError alg + decError alg' + 1e-9 + 4e-7 * daysBetween t t' < 0.003 * min (daysBetween t t') 30 ^ 2 →
            ∃ D D', s.daylightLength W = .ok D ∧ s'.daylightLength W' = .ok D' ∧ ∀ v v' : ℝ, D.get e = .fin v → D'.get e' = .fin v' →
              (0 < σ * φ → v' < v) ∧ (σ * φ < 0 → v < v') := by
  rw [g.unique C36_gregorian]
  obtain ⟨i, hi, rfl, hσ⟩ : ∃ i : Nat, ((i = 5 ∧ σ = 1) ∨ (i = 11 ∧ σ = -1)) ∧ m = 1 + i ∧ (σ = 1 ∨ σ = -1) := by
    rcases hm with ⟨rfl, rfl⟩ | ⟨rfl, rfl⟩
    · exact ⟨5, .inl ⟨rfl, rfl⟩, rfl, .inl rfl⟩
    · exact ⟨11, .inr ⟨rfl, rfl⟩, rfl, .inr rfl⟩
  obtain ⟨t, d, S, ht, hd, d1, d2, hS, hx0⟩ := ref_solstice_at hY hi
  refine ⟨t, d, ht, hd, d1, d2, ?_⟩
  intro uc uc' w w' times times' latitude longitude latitude' longitude' alg eng alg' eng' refr refr' s s' e e' t' h hk h' hk' ht'
  obtain ⟨x, hx, hb⟩ := C54_declination h hk ht
  obtain ⟨x', hx', hb'⟩ := C54_declination h' hk' ht'
  obtain ⟨r1, r2, r3, r4⟩ := ref_solstice (century_bound ht) (century_bound ht') (by rw [abs_sub_comm]; exact century_days t t') hσ hS hx0
  obtain ⟨f1, f2, f3, f4⟩ := from_ref hσ hb hb' r1 r2 r3 r4
  refine ⟨x, x', hx, hx', f1, f2, f3, f4, fun W W' φ hφ hφ' h90 hn hE => ?_⟩
  obtain ⟨y, hy, b1, -⟩ := C17_declination h hk ht
  obtain ⟨y', hy', b2, -⟩ := C17_declination h' hk' ht'
  rw [hx] at hy; cases hy
  rw [hx'] at hy'; cases hy'
  have b1 : |x| < 90 := by norm_num at b1; linarith
  have b2 : |x'| < 90 := by norm_num at b2; linarith
  have lt : σ * x' < σ * x := by linarith [f4 hn]
  rcases hσ with rfl | rfl
  · obtain ⟨D', D, hD', hD, k⟩ := Equinox.daylight_lt (w1 := W') (w2 := W) hφ' hφ hx' hx h90 b2 b1 (by linarith)
    refine ⟨D, D', hD, hD', fun v v' hv hv' => ?_⟩
    obtain ⟨k1, k2⟩ := k v' v hv' hv
    exact ⟨fun hh => k1 (by linarith), fun hh => k2 (by linarith)⟩
  · obtain ⟨D, D', hD, hD', k⟩ := Equinox.daylight_lt (w1 := W) (w2 := W') hφ hφ' hx hx' h90 b1 b2 (by linarith)
    refine ⟨D, D', hD, hD', fun v v' hv hv' => ?_⟩
    obtain ⟨k1, k2⟩ := k v v' hv hv'
    exact ⟨fun hh => k2 (by linarith), fun hh => k1 (by linarith)⟩

/-- C98: the same instants in floating point. -/
theorem C98_solstice_float {date : Int → CivilDate} (g : IsGregorian date) {Y : Int} (hY : 1678 ≤ Y ∧ Y ≤ 2261) {m : Int} {σ : ℝ}
    (hm : (m = 6 ∧ σ = 1) ∨ (m = 12 ∧ σ = -1)) :
    ∃ t d : Int, |t| < 2 ^ 63 ∧ date (t / 86400000000000) = ⟨Y, m, d⟩ ∧ 10 ≤ d ∧ d ≤ 29 ∧
      ∀ {A A' : Arith} {uc uc' : UseCase} {w : World (Rd A)} {w' : World (Rd A')} {times times' : Times} {latitude longitude : Coord (Rd A)}
        {latitude' longitude' : Coord (Rd A')} {alg eng alg' eng' : String} {refr refr' : PyVal} {s : Sunpos (Rd A)} {s' : Sunpos (Rd A')}
        {e e' : Dim → Nat} {t' : Int},
        call uc w times latitude longitude alg refr eng = .ok s → stampAt times.stamps (e .time) = some t →
        call uc' w' times' latitude' longitude' alg' refr' eng' = .ok s' → stampAt times'.stamps (e' .time) = some t' → |t'| < 2 ^ 63 →
        ∃ x x' : ℝ, s.decDeg.get e = Rd.fin x ∧ s'.decDeg.get e' = Rd.fin x' ∧
          |σ * x - 23.44| ≤ 0.043 + (decError alg + 4e-8) ∧
          σ * x' ≤ σ * x + 4e-7 * daysBetween t t' + (decError alg + decError alg' + 1e-7) ∧
          σ * x - 0.004 * daysBetween t t' ^ 2 - 4e-7 * daysBetween t t' - (decError alg + decError alg' + 1e-7) ≤ σ * x' ∧
          (daysBetween t t' ≤ 320 →
            σ * x' ≤ σ * x - 0.003 * min (daysBetween t t') 30 ^ 2 + 4e-7 * daysBetween t t' + (decError alg + decError alg' + 1e-7)) := by
  rw [g.unique C36_gregorian]
  obtain ⟨i, hi, rfl, hσ⟩ : ∃ i : Nat, ((i = 5 ∧ σ = 1) ∨ (i = 11 ∧ σ = -1)) ∧ m = 1 + i ∧ (σ = 1 ∨ σ = -1) := by
    rcases hm with ⟨rfl, rfl⟩ | ⟨rfl, rfl⟩
    · exact ⟨5, .inl ⟨rfl, rfl⟩, rfl, .inl rfl⟩
    · exact ⟨11, .inr ⟨rfl, rfl⟩, rfl, .inr rfl⟩
  obtain ⟨t, d, S, ht, hd, d1, d2, hS, hx0⟩ := ref_solstice_at hY hi
  refine ⟨t, d, ht, hd, d1, d2, ?_⟩
  intro A A' uc uc' w w' times times' latitude longitude latitude' longitude' alg eng alg' eng' refr refr' s s' e e' t' h hk h' hk' ht'
  obtain ⟨x, -, -, hx, -, -, hb, -⟩ := C64_time h hk ht
  obtain ⟨x', -, -, hx', -, -, hb', -⟩ := C64_time h' hk' ht'
  obtain ⟨r1, r2, r3, r4⟩ := ref_solstice (century_bound ht) (century_bound ht') (by rw [abs_sub_comm]; exact century_days t t') hσ hS hx0
  obtain ⟨f1, f2, f3, f4⟩ := from_ref hσ hb hb' r1 r2 r3 r4
  refine ⟨x, x', hx, hx', f1, f2.trans ?_, le_trans ?_ f3, fun hn => (f4 hn).trans ?_⟩ <;> norm_num <;> linarith

/-! ### the hypotheses are met -/

/-- the solstices of 2024, a call at each and a call 10 days later, with soltrack: the sun is lower by a quarter of a degree at least -/
example (uc : UseCase) {eng : String} (hk : KnownPair "soltrack" eng) {m : Int} {σ : ℝ} (hm : (m = 6 ∧ σ = 1) ∨ (m = 12 ∧ σ = -1)) :
    ∃ (t d : Int) (s s' : Sunpos XR) (x x' : ℝ) (D D' : DA XR), codeDate (t / 86400000000000) = ⟨2024, m, d⟩ ∧
      call uc exWorld (oneTime t) (.vec [.fin 40]) (.vec [.fin 10]) "soltrack" .pyTrue eng = .ok s ∧
      call uc exWorld (oneTime (t + 864000000000000)) (.vec [.fin 40]) (.vec [.fin 10]) "soltrack" .pyTrue eng = .ok s' ∧
      s.decDeg.get (fun _ => 0) = .fin x ∧ s'.decDeg.get (fun _ => 0) = .fin x' ∧ |σ * x - 23.44| ≤ 0.05 ∧ σ * x' + 0.25 ≤ σ * x ∧
      s.daylightLength exWorld = .ok D ∧ s'.daylightLength exWorld = .ok D' ∧
      ∀ v v' : ℝ, D.get (fun _ => 0) = .fin v → D'.get (fun _ => 0) = .fin v' → (σ = 1 → v' < v) ∧ (σ = -1 → v < v') := by
  obtain ⟨t, d, ht, hd, h10, h29, k⟩ := C98_solstice C36_gregorian (Y := 2024) (by norm_num) hm
  have hr : |t + 864000000000000| < 2 ^ 63 := by
    have b : t / 86400000000000 < 50000 := by
      by_contra hc
      have hc := not_lt.1 hc
      obtain ⟨h1, h2, h3⟩ := yearsDays_spec (t / 86400000000000)
      have hy : (codeDate (t / 86400000000000)).year = (yearsDays (t / 86400000000000)).1 := by rw [codeDate_eq]
      rw [hd] at hy
      rw [← hy] at h1 h3
      rw [show yearStart 2024 = 19723 by decide] at h1
      rw [show yearLength 2024 = 366 by decide] at h3
      omega
    rw [abs_lt] at *; omega
  obtain ⟨s1, c1, a1⟩ := single_call uc hk .pyTrue (t := t) ht (φ := 40) (l := 10) (by norm_num) (by norm_num)
  obtain ⟨s2, c2, a2⟩ := single_call uc hk .pyTrue hr (φ := 40) (l := 10) (by norm_num) (by norm_num)
  obtain ⟨x, x', hx, hx', f1, -, -, f4, f5⟩ := k (e := fun _ => 0) (e' := fun _ => 0) c1 a1.time c2 a2.time a2.range
  have e1 : decError "soltrack" = 0.007 := by
    unfold decError; rw [if_neg (by decide), if_pos rfl]
  have e2 : daysBetween t (t + 864000000000000) = 10 := by
    unfold daysBetween; push_cast; rw [show (t : ℝ) - (t + 864000000000000) = -864000000000000 by ring]; norm_num
  have e3 : min (10 : ℝ) 30 = 10 := min_eq_left (by norm_num)
  rw [e1, e2, e3] at f4 f5
  rw [e1] at f1
  obtain ⟨D, D', hD, hD', k⟩ := f5 exWorld exWorld 40 a1.lat a2.lat (by norm_num) (by norm_num) (by norm_num)
  refine ⟨t, d, s1, s2, x, x', D, D', hd, c1, c2, hx, hx', f1.trans (by norm_num), ?_, hD, hD', fun v v' hv hv' => ⟨?_, ?_⟩⟩
  · have := f4 (by norm_num)
    norm_num at this ⊢; linarith
  · rintro rfl; exact (k v v' hv hv').1 (by norm_num)
  · rintro rfl; exact (k v v' hv hv').2 (by norm_num)

end SW.Props
