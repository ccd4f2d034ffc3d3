/-
The truncated series of the NREL algorithm against the reference ephemeris.
-/
import Verif.REphem

namespace SW.Nrel
open Real

/-- the value of a row as an expression in real numbers -/
theorem term_real (m : ℝ) (a b c : ℕ) (e f g : ℕ) :
    term m ⟨⟨a, e⟩, ⟨b, f⟩, ⟨c, g⟩⟩ = a / 10 ^ e * cos (b / 10 ^ f + c / 10 ^ g * m) := by
  have h : ∀ n k : ℕ, ((⟨(n : ℤ), k⟩ : Dec).num : ℝ) = n / 10 ^ k := by
    intro n k
    unfold Dec.num
    rw [if_neg (by simp), lit_real]; simp
  show ((⟨(a : ℤ), e⟩ : Dec).num : ℝ) * cos (((⟨(b : ℤ), f⟩ : Dec).num : ℝ) + ((⟨(c : ℤ), g⟩ : Dec).num : ℝ) * m) = _
  rw [h, h, h]

theorem series_split (n : ℕ) (t u : List Row) (m : ℝ) :
    |series n (t ++ u) m - (t.map (term m)).sum| ≤ amp u := by
  rw [series_real, List.map_append, List.sum_append, add_sub_cancel_left, ← series_real 0]
  exact series_abs _ _ _

theorem L0_main (m : ℝ) : |series 64 paramsL0 m - (175347046 + 3341656 * cos (4.6692568 + 6283.07585 * m)
    + 34894 * cos (4.6261 + 12566.1517 * m))| ≤ 28852 := by
  have h := series_split 64 (paramsL0.take 3) (paramsL0.drop 3) m
  rw [List.take_append_drop] at h
  have e : amp (paramsL0.drop 3) = 28852 := by decide
  have e2 : ((paramsL0.take 3).map (term m)).sum = 175347046 + 3341656 * cos (4.6692568 + 6283.07585 * m)
    + 34894 * cos (4.6261 + 12566.1517 * m) := by
    have : ((paramsL0.take 3).map (term m)).sum = term m ⟨⟨((175347046 : ℕ) : ℤ), 0⟩, ⟨((0 : ℕ) : ℤ), 0⟩, ⟨((0 : ℕ) : ℤ), 0⟩⟩
      + (term m ⟨⟨((3341656 : ℕ) : ℤ), 0⟩, ⟨((46692568 : ℕ) : ℤ), 7⟩, ⟨((628307585 : ℕ) : ℤ), 5⟩⟩
      + (term m ⟨⟨((34894 : ℕ) : ℤ), 0⟩, ⟨((46261 : ℕ) : ℤ), 4⟩, ⟨((125661517 : ℕ) : ℤ), 4⟩⟩ + 0)) := rfl
    rw [this, term_real, term_real, term_real]
    norm_num
    ring
  rw [e, e2] at h
  exact_mod_cast h

theorem L1_main (m : ℝ) : |series 64 paramsL1 m - (628331966747 + 206059 * cos (2.678235 + 6283.07585 * m))| ≤ 5721 := by
  have h := series_split 64 (paramsL1.take 2) (paramsL1.drop 2) m
  rw [List.take_append_drop] at h
  have e : amp (paramsL1.drop 2) = 5721 := by decide
  have e2 : ((paramsL1.take 2).map (term m)).sum = 628331966747 + 206059 * cos (2.678235 + 6283.07585 * m) := by
    have : ((paramsL1.take 2).map (term m)).sum = term m ⟨⟨((628331966747 : ℕ) : ℤ), 0⟩, ⟨((0 : ℕ) : ℤ), 0⟩, ⟨((0 : ℕ) : ℤ), 0⟩⟩
      + (term m ⟨⟨((206059 : ℕ) : ℤ), 0⟩, ⟨((2678235 : ℕ) : ℤ), 6⟩, ⟨((628307585 : ℕ) : ℤ), 5⟩⟩ + 0) := rfl
    rw [this, term_real, term_real]
    norm_num
  rw [e, e2] at h
  exact_mod_cast h

theorem L2_main (m : ℝ) : |series 64 paramsL2 m - 52919| ≤ 9149 := by
  have := series_head 64 52919 (by norm_num) paramsL2.tail m
  have e : amp paramsL2.tail = 9149 := by decide
  rw [e] at this
  exact_mod_cast this

theorem R0_main (m : ℝ) : |series 40 paramsR0 m - (100013989 + 1670700 * cos (3.0984635 + 6283.07585 * m)
    + 13956 * cos (3.05525 + 12566.1517 * m))| ≤ 11231 := by
  have h := series_split 40 (paramsR0.take 3) (paramsR0.drop 3) m
  rw [List.take_append_drop] at h
  have e : amp (paramsR0.drop 3) = 11231 := by decide
  have e2 : ((paramsR0.take 3).map (term m)).sum = 100013989 + 1670700 * cos (3.0984635 + 6283.07585 * m)
    + 13956 * cos (3.05525 + 12566.1517 * m) := by
    have : ((paramsR0.take 3).map (term m)).sum = term m ⟨⟨((100013989 : ℕ) : ℤ), 0⟩, ⟨((0 : ℕ) : ℤ), 0⟩, ⟨((0 : ℕ) : ℤ), 0⟩⟩
      + (term m ⟨⟨((1670700 : ℕ) : ℤ), 0⟩, ⟨((30984635 : ℕ) : ℤ), 7⟩, ⟨((628307585 : ℕ) : ℤ), 5⟩⟩
      + (term m ⟨⟨((13956 : ℕ) : ℤ), 0⟩, ⟨((305525 : ℕ) : ℤ), 5⟩, ⟨((125661517 : ℕ) : ℤ), 4⟩⟩ + 0)) := rfl
    rw [this, term_real, term_real, term_real]
    norm_num
    ring
  rw [e, e2] at h
  exact_mod_cast h

theorem R1_main (m : ℝ) : |series 40 paramsR1 m - 103019 * cos (1.10749 + 6283.07585 * m)| ≤ 2557 := by
  have h := series_split 40 (paramsR1.take 1) (paramsR1.drop 1) m
  rw [List.take_append_drop] at h
  have e : amp (paramsR1.drop 1) = 2557 := by decide
  have e2 : ((paramsR1.take 1).map (term m)).sum = 103019 * cos (1.10749 + 6283.07585 * m) := by
    have : ((paramsR1.take 1).map (term m)).sum
      = (term m ⟨⟨((103019 : ℕ) : ℤ), 0⟩, ⟨((110749 : ℕ) : ℤ), 5⟩, ⟨((628307585 : ℕ) : ℤ), 5⟩⟩ + 0) := rfl
    rw [this, term_real]
    norm_num
  rw [e, e2] at h
  exact_mod_cast h


/-! ### comparison of the main terms with the equation of the centre -/

theorem q_num : |cos (2.678235 - 4.6692568) + 0.4079| ≤ 2e-3 ∧ |sin (2.678235 - 4.6692568) + 0.9131| ≤ 4e-3 := by
  have p1 := pi_gt_d6
  have p2 := pi_lt_d6
  obtain ⟨x, hx⟩ : ∃ x, x = 4.6692568 - 2.678235 - π / 2 := ⟨_, rfl⟩
  have e : (2.678235 - 4.6692568 : ℝ) = -(x + π / 2) := by rw [hx]; norm_num
  have hb : 0.4202 ≤ x ∧ x ≤ 0.42023 := by
    rw [hx]; norm_num at p1 p2 ⊢; constructor <;> linarith
  have hx1 : |x| ≤ 1 := by rw [abs_le]; norm_num at hb ⊢; constructor <;> linarith [hb.1, hb.2]
  have c := abs_le.1 (cos_bound hx1)
  have s := abs_le.1 (sin_bound hx1)
  rw [abs_of_pos (by norm_num at hb ⊢; linarith [hb.1])] at c s
  have x2 : 0.17656 ≤ x ^ 2 ∧ x ^ 2 ≤ 0.1766 := by norm_num at hb ⊢; constructor <;> nlinarith [hb.1, hb.2]
  have x3 : 0.07419 ≤ x ^ 3 ∧ x ^ 3 ≤ 0.07422 := by
    have : x ^ 3 = x * x ^ 2 := by ring
    rw [this]; norm_num at hb x2 ⊢; constructor <;> nlinarith [hb.1, hb.2, x2.1, x2.2]
  have x4 : x ^ 4 ≤ 0.0312 := by
    have : x ^ 4 = x ^ 2 * x ^ 2 := by ring
    rw [this]; norm_num at hb x2 ⊢; nlinarith [x2.1, x2.2]
  have x5 : x ^ 5 ≤ 0.0132 ∧ 0 ≤ x ^ 5 := by
    have : x ^ 5 = x ^ 2 * x ^ 3 := by ring
    rw [this]; norm_num at hb x2 x3 ⊢; constructor <;> nlinarith [x2.1, x2.2, x3.1, x3.2]
  have x40 : 0 ≤ x ^ 4 := by positivity
  rw [e, cos_neg, sin_neg, cos_add_pi_div_two, sin_add_pi_div_two]
  norm_num at c s hb x2 x3 x4 x5 ⊢
  constructor <;> rw [abs_le] <;> constructor <;> linarith [c.1, c.2, s.1, s.2, hb.1, hb.2, x2.1, x2.2, x3.1, x3.2, x5.1, x5.2]

/-- first order expansion of a cosine -/
theorem cos_expand (φ d : ℝ) (h : |d| ≤ 1) : |cos (φ + d) - (cos φ - d * sin φ)| ≤ d ^ 2 := by
  have c := cos_bound h
  have s := sin_bound h
  have hd := abs_nonneg d
  have d2 : |d| ^ 2 = d ^ 2 := sq_abs d
  have e : cos (φ + d) - (cos φ - d * sin φ) = (cos d - 1) * cos φ - (sin d - d) * sin φ := by
    rw [cos_add]; ring
  have hq : |d| ^ 4 ≤ d ^ 2 := by
    rw [← d2]; exact pow_le_pow_of_le_one hd h (by norm_num)
  have h3 : |d ^ 3| ≤ d ^ 2 := by
    rw [abs_pow, ← d2]; exact pow_le_pow_of_le_one hd h (by norm_num)
  have h5 : |d| ^ 5 ≤ d ^ 2 := by
    rw [← d2]; exact pow_le_pow_of_le_one hd h (by norm_num)
  have c' : |cos d - 1| ≤ d ^ 2 / 2 := by
    rw [abs_le]; constructor
    · linarith [one_sub_sq_div_two_le_cos (x := d)]
    · linarith [cos_le_one d, sq_nonneg d]
  have s' : |sin d - d| ≤ d ^ 2 / 2 := by
    have a := abs_le.1 s
    have b := abs_le.1 h3
    rw [abs_le]; constructor <;> linarith [a.1, a.2, b.1, b.2]
  rw [e]
  have a1 := (abs_mul_cos_le (cos d - 1) φ).trans c'
  have a2 := (abs_mul_sin_le (sin d - d) φ).trans s'
  have := abs_sub ((cos d - 1) * cos φ) ((sin d - d) * sin φ)
  linarith

/-- relation of the arguments -/
theorem phase {T m : ℝ} (hT : |T| ≤ 3.24) (hm : |m - T / 10| ≤ 2.2e-9) :
    |Ephem.meanAnomaly T - π / 2 - (4.6692568 + 6283.07585 * m) + 0.005629674 * T| ≤ 3e-5 := by
  have p1 := pi_gt_d20
  have p2 := pi_lt_d20
  have ma := abs_le.1 (Ephem.meanAnomaly_num hT)
  have hm := abs_le.1 hm
  have hT := abs_le.1 hT
  rw [abs_le]
  norm_num at p1 p2 ma hm hT ⊢
  constructor <;> linarith [ma.1, ma.2, hm.1, hm.2, hT.1, hT.2]

set_option maxHeartbeats 1000000 in
theorem center_main {T m : ℝ} (hT : |T| ≤ 3.24) (hm : |m - T / 10| ≤ 2.2e-9) :
    |(0.03341656 * cos (4.6692568 + 6283.07585 * m) + 0.00034894 * cos (4.6261 + 12566.1517 * m)
      + 0.00206059 * cos (2.678235 + 6283.07585 * m) * m) - Ephem.center T| ≤ 4.4e-5 := by
  have hph := phase hT hm
  have hTa := abs_le.1 hT
  obtain ⟨φ, hφ⟩ : ∃ φ, φ = 4.6692568 + 6283.07585 * m := ⟨_, rfl⟩
  rw [← hφ] at hph ⊢
  obtain ⟨d, hd⟩ : ∃ d, d = Ephem.meanAnomaly T - π / 2 - φ := ⟨_, rfl⟩
  rw [← hd] at hph
  have hdb : |d| ≤ 0.0183 := by
    have := abs_le.1 hph
    rw [abs_le]; norm_num at this hTa ⊢; constructor <;> linarith [this.1, this.2, hTa.1, hTa.2]
  have hd2 : d ^ 2 ≤ 3.36e-4 := by
    rw [← sq_abs]; exact (pow_le_pow_left₀ (abs_nonneg _) hdb 2).trans (by norm_num)
  have hM : Ephem.meanAnomaly T = (φ + d) + π / 2 := by rw [hd]; ring
  have e1 : sin (Ephem.meanAnomaly T) = cos (φ + d) := by rw [hM, sin_add_pi_div_two]
  have e2 : sin (2 * Ephem.meanAnomaly T) = -sin (2 * φ + 2 * d) := by
    rw [hM, show 2 * (φ + d + π / 2) = (2 * φ + 2 * d) + π by ring, sin_add_pi]
  have e3 : cos (2.678235 + 6283.07585 * m) = cos φ * cos (2.678235 - 4.6692568) - sin φ * sin (2.678235 - 4.6692568) := by
    rw [← cos_add, hφ]; congr 1; ring
  have e4 : |cos (4.6261 + 12566.1517 * m) + sin (2 * φ + 2 * d)| ≤ 0.0367 := by
    have p1 := pi_gt_d6
    have p2 := pi_lt_d6
    have : sin (2 * φ + 2 * d) = -cos (2 * φ + 2 * d - 3 * (π / 2)) := by
      rw [show 2 * φ + 2 * d - 3 * (π / 2) = (2 * φ + 2 * d - π) - π / 2 by ring, cos_sub_pi_div_two, sin_sub_pi, neg_neg]
    rw [this, ← sub_eq_add_neg]
    refine (abs_cos_sub_cos_le _ _).trans ?_
    rw [hφ]
    have := abs_le.1 hdb
    rw [abs_le]; norm_num at this p1 p2 ⊢; constructor <;> linarith [this.1, this.2]
  have e5 := abs_le.1 (cos_expand φ d (hdb.trans (by norm_num)))
  obtain ⟨q1, q2⟩ := q_num
  obtain ⟨k, hk⟩ : ∃ k, k = cos φ := ⟨_, rfl⟩
  obtain ⟨s, hs⟩ : ∃ s, s = sin φ := ⟨_, rfl⟩
  obtain ⟨cq, hcq⟩ : ∃ s, s = cos (2.678235 - 4.6692568) := ⟨_, rfl⟩
  obtain ⟨sq, hsq⟩ : ∃ s, s = sin (2.678235 - 4.6692568) := ⟨_, rfl⟩
  have hk1 : |k| ≤ 1 := hk ▸ abs_cos_le_one _
  have hs1 : |s| ≤ 1 := hs ▸ abs_sin_le_one _
  unfold Ephem.center Ephem.eccentricity
  rw [e1, e2, e3, ← hk, ← hs, ← hcq, ← hsq]
  rw [← hk, ← hs] at e5
  rw [← hcq] at q1
  rw [← hsq] at q2
  obtain ⟨y, hy⟩ : ∃ y, y = cos (φ + d) - (k - d * s) := ⟨_, rfl⟩
  have hy' : cos (φ + d) = k - d * s + y := by rw [hy]; ring
  rw [← hy] at e5
  obtain ⟨w, hw⟩ : ∃ w, w = sin (2 * φ + 2 * d) := ⟨_, rfl⟩
  rw [← hw] at e4 ⊢
  have hw1 : |w| ≤ 1 := hw ▸ abs_sin_le_one _
  obtain ⟨v, hv⟩ : ∃ v, v = cos (4.6261 + 12566.1517 * m) := ⟨_, rfl⟩
  rw [← hv] at e4 ⊢
  obtain ⟨r, hr⟩ : ∃ r, r = d + 0.005629674 * T := ⟨_, rfl⟩
  rw [← hr] at hph
  have hd' : d = r - 0.005629674 * T := by rw [hr]; ring
  obtain ⟨n, hn⟩ : ∃ n, n = m - T / 10 := ⟨_, rfl⟩
  rw [← hn] at hm
  have hm' : m = T / 10 + n := by rw [hn]; ring
  rw [hy']
  -- the pieces
  have E : (0.03341656 * k + 0.00034894 * v + 0.00206059 * (k * cq - s * sq) * m)
      - (2 * (0.0167086 - 0.000042 * T) * (k - d * s + y) + 5 / 4 * (0.0167086 - 0.000042 * T) ^ 2 * -w)
    = (0.03341656 - 0.0334172) * k + T * k * (0.000206059 * cq + 0.000084)
      - T * s * (0.000206059 * sq + 0.0334172 * 0.005629674)
      + (0.0334172 - 0.000084 * T) * (r * s) + (0.000084 * 0.005629674) * (T * T * s)
      + 0.00206059 * (k * cq - s * sq) * n
      - (0.0334172 - 0.000084 * T) * y + 0.00034894 * (v + w)
      + w * (5 / 4 * (0.0167086 - 0.000042 * T) ^ 2 - 0.00034894) := by
    rw [hm', hd']; norm_num; ring
  have cq1 : |cq| ≤ 0.42 := by have := abs_le.1 q1; rw [abs_le]; norm_num at this ⊢; constructor <;> linarith [this.1, this.2]
  have sq1 : |sq| ≤ 1 := hsq ▸ abs_sin_le_one _
  have y1 : |y| ≤ 3.36e-4 := (abs_le.2 e5).trans hd2
  have t1 : |(0.03341656 - 0.0334172) * k| ≤ 7e-7 * 1 := abs_mul_le' (by rw [abs_le]; norm_num) hk1
  have t2 : |T * k * (0.000206059 * cq + 0.000084)| ≤ 3.24 * 1 * 5e-7 := by
    refine abs_mul_le' (abs_mul_le' hT hk1) ?_
    have := abs_le.1 q1
    rw [abs_le]; norm_num at this ⊢; constructor <;> linarith [this.1, this.2]
  have t3 : |T * s * (0.000206059 * sq + 0.0334172 * 0.005629674)| ≤ 3.24 * 1 * 1e-6 := by
    refine abs_mul_le' (abs_mul_le' hT hs1) ?_
    have := abs_le.1 q2
    rw [abs_le]; norm_num at this ⊢; constructor <;> linarith [this.1, this.2]
  have t0 : |0.0334172 - 0.000084 * T| ≤ 0.0338 := by
    rw [abs_le]; norm_num at hTa ⊢; constructor <;> linarith [hTa.1, hTa.2]
  have t4 := abs_mul_le' t0 (abs_mul_le' hph hs1)
  have t5 : |(0.000084 * 0.005629674) * (T * T * s)| ≤ 4.8e-7 * (3.24 * 3.24 * 1) := by
    refine abs_mul_le' ?_ (abs_mul_le' (abs_mul_le' hT hT) hs1)
    rw [abs_le]; norm_num
  have t6 : |0.00206059 * (k * cq - s * sq) * n| ≤ 0.0021 * (1 * 0.42 + 1 * 1) * 2.2e-9 := by
    refine abs_mul_le' (abs_mul_le' (by rw [abs_le]; norm_num) ?_) hm
    refine (abs_sub _ _).trans (add_le_add (abs_mul_le' hk1 cq1) (abs_mul_le' hs1 sq1))
  have t7 := abs_mul_le' t0 y1
  have t8 : |0.00034894 * (v + w)| ≤ 0.00034894 * 0.0367 := abs_mul_le' (by rw [abs_le]; norm_num) e4
  have t9 : |w * (5 / 4 * (0.0167086 - 0.000042 * T) ^ 2 - 0.00034894)| ≤ 1 * 7e-6 := by
    refine abs_mul_le' hw1 ?_
    rw [abs_le]; norm_num at hTa ⊢; constructor <;> nlinarith [hTa.1, hTa.2]
  rw [E]
  have t1 := abs_le.1 t1
  have t2 := abs_le.1 t2
  have t3 := abs_le.1 t3
  have t4 := abs_le.1 t4
  have t5 := abs_le.1 t5
  have t6 := abs_le.1 t6
  have t7 := abs_le.1 t7
  have t8 := abs_le.1 t8
  have t9 := abs_le.1 t9
  clear E e1 e2 e3 hM hy hy' hw hv hr hd' hn hm' hk hs hcq hsq
  rw [abs_le]
  generalize (0.03341656 - 0.0334172) * k = a1 at *
  generalize T * k * (0.000206059 * cq + 0.000084) = a2 at *
  generalize T * s * (0.000206059 * sq + 0.0334172 * 0.005629674) = a3 at *
  generalize (0.0334172 - 0.000084 * T) * (r * s) = a4 at *
  generalize (0.000084 * 0.005629674) * (T * T * s) = a5 at *
  generalize 0.00206059 * (k * cq - s * sq) * n = a6 at *
  generalize (0.0334172 - 0.000084 * T) * y = a7 at *
  generalize 0.00034894 * (v + w) = a8 at *
  generalize w * (5 / 4 * (0.0167086 - 0.000042 * T) ^ 2 - 0.00034894) = a9 at *
  norm_num at t1 t2 t3 t4 t5 t6 t7 t8 t9 ⊢
  constructor <;> linarith [t1.1, t2.1, t3.1, t4.1, t5.1, t6.1, t7.1, t8.1, t9.1, t1.2, t2.2, t3.2, t4.2, t5.2, t6.2, t7.2, t8.2, t9.2]

end SW.Nrel
