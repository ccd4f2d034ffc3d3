/-
Distance of the sun in psa, soltrack and nrel against the reference ephemeris.
-/
import Verif.RNrelEphem

namespace SW.Ephem
open Real

theorem inv_sq_cmp {x y r : ℝ} (hx : 0.98 ≤ x) (hy : 0.98 ≤ y) (h : |x - y| ≤ r) :
    |1 / x ^ 2 - 1 / y ^ 2| ≤ 2.13 * r := by
  have hx0 : 0 < x := lt_of_lt_of_le (by norm_num) hx
  have hy0 : 0 < y := lt_of_lt_of_le (by norm_num) hy
  have e : 1 / x ^ 2 - 1 / y ^ 2 = (y - x) * (1 / (x ^ 2 * y) + 1 / (x * y ^ 2)) := by
    field_simp; ring
  have b1 : 1 / (x ^ 2 * y) ≤ 1.065 := by
    rw [div_le_iff₀ (by positivity)]
    have : (0.98 : ℝ) ^ 2 * 0.98 ≤ x ^ 2 * y := by gcongr
    norm_num at this ⊢; linarith
  have b2 : 1 / (x * y ^ 2) ≤ 1.065 := by
    rw [div_le_iff₀ (by positivity)]
    have : (0.98 : ℝ) * 0.98 ^ 2 ≤ x * y ^ 2 := by gcongr
    norm_num at this ⊢; linarith
  rw [e]
  have h' := h
  rw [abs_sub_comm] at h'
  refine (Nrel.abs_mul_le' h' (B := 2.13) ?_).trans (by linarith)
  rw [abs_of_pos (by positivity)]
  norm_num at b1 b2 ⊢; linarith

/-- two points of two ellipses -/
theorem orbit_cmp {e e' ν ν' de dν : ℝ} (h1 : 0 ≤ e ∧ e ≤ 0.017) (h2 : 0 ≤ e' ∧ e' ≤ 0.017)
    (he : |e - e'| ≤ de) (hν : |ν - ν'| ≤ dν) :
    |(1 - e ^ 2) / (1 + e * cos ν) - (1 - e' ^ 2) / (1 + e' * cos ν')| ≤ 1.08 * de + 0.018 * dν := by
  obtain ⟨N, hN⟩ : ∃ N, N = 1 + e * cos ν := ⟨_, rfl⟩
  obtain ⟨N', hN'⟩ : ∃ N, N = 1 + e' * cos ν' := ⟨_, rfl⟩
  have c1 := abs_le.1 (abs_cos_le_one ν)
  have c2 := abs_le.1 (abs_cos_le_one ν')
  have b1 : 0.983 ≤ N ∧ N ≤ 1.017 := by rw [hN]; norm_num at h1 ⊢; constructor <;> nlinarith [h1.1, h1.2, c1.1, c1.2]
  have b2 : 0.983 ≤ N' ∧ N' ≤ 1.017 := by rw [hN']; norm_num at h2 ⊢; constructor <;> nlinarith [h2.1, h2.2, c2.1, c2.2]
  have n0 : 0 < N := lt_of_lt_of_le (by norm_num) b1.1
  have n0' : 0 < N' := lt_of_lt_of_le (by norm_num) b2.1
  have dc : |cos ν' - cos ν| ≤ dν := by rw [abs_sub_comm]; exact (abs_cos_sub_cos_le _ _).trans hν
  have he' : |e' - e| ≤ de := by rw [abs_sub_comm]; exact he
  rw [← hN, ← hN']
  have hde := (abs_nonneg _).trans he
  have hdν := (abs_nonneg _).trans hν
  have e1 : (1 - e ^ 2) / N - (1 - e' ^ 2) / N'
      = ((e' - e) * ((e' + e) * N') + (1 - e' ^ 2) * ((e' - e) * cos ν' + e * (cos ν' - cos ν))) / (N * N') := by
    rw [div_sub_div _ _ n0.ne' n0'.ne']
    congr 1
    rw [hN, hN']; ring
  rw [e1, abs_div, abs_of_pos (mul_pos n0 n0'), div_le_iff₀ (mul_pos n0 n0')]
  have t1 : |(e' - e) * ((e' + e) * N')| ≤ de * (0.034 * 1.017) := by
    refine Nrel.abs_mul_le' he' (Nrel.abs_mul_le' ?_ ?_)
    · rw [abs_of_nonneg (by linarith [h1.1, h2.1])]; norm_num at h1 h2 ⊢; linarith [h1.2, h2.2]
    · rw [abs_of_pos n0']; exact b2.2
  have t2 : |(1 - e' ^ 2) * ((e' - e) * cos ν' + e * (cos ν' - cos ν))| ≤ 1 * (de * 1 + 0.017 * dν) := by
    refine Nrel.abs_mul_le' ?_ ((abs_add_le _ _).trans (add_le_add ?_ ?_))
    · rw [abs_le]; norm_num at h2 ⊢; constructor <;> nlinarith [h2.1, h2.2]
    · exact Nrel.abs_mul_le' he' (abs_cos_le_one _)
    · exact Nrel.abs_mul_le' (by rw [abs_of_nonneg h1.1]; exact h1.2) dc
  have t3 : (0.966 : ℝ) ≤ N * N' := by
    have : (0.983 : ℝ) * 0.983 ≤ N * N' := by
      apply mul_le_mul b1.1 b2.1 (by norm_num) n0.le
    norm_num at this ⊢; linarith
  have t4 : (1.08 * de + 0.018 * dν) * 0.966 ≤ (1.08 * de + 0.018 * dν) * (N * N') := by gcongr
  refine (abs_add_le _ _).trans ((add_le_add t1 t2).trans (le_trans ?_ t4))
  norm_num
  linarith

theorem distance_bound {T : ℝ} (hT : |T| ≤ 3.24) : 0.98 ≤ distance T ∧ distance T ≤ 1.02 := by
  obtain ⟨e1, e2⟩ := ecc_bound hT
  unfold distance
  have c := abs_le.1 (abs_cos_le_one (meanAnomaly T + center T))
  have hN : 0.983 ≤ 1 + eccentricity T * cos (meanAnomaly T + center T)
      ∧ 1 + eccentricity T * cos (meanAnomaly T + center T) ≤ 1.017 := by
    norm_num at e1 e2 ⊢; constructor <;> nlinarith [c.1, c.2]
  have hN0 : 0 < 1 + eccentricity T * cos (meanAnomaly T + center T) := lt_of_lt_of_le (by norm_num) hN.1
  rw [le_div_iff₀ hN0, div_le_iff₀ hN0]
  norm_num at e1 e2 hN ⊢
  constructor <;> nlinarith [hN.1, hN.2]

set_option maxHeartbeats 800000 in
theorem soltrack_R {c T : ℝ} (hc : |c| ≤ 3.23) (hT : |T - c| ≤ 3.2e-10) :
    |Soltrack.R c - distance T| ≤ 4e-6 := by
  have hT3 : |T| ≤ 3.24 := by
    have a := abs_le.1 hT
    have b := abs_le.1 hc
    rw [abs_le]; norm_num at a b ⊢; constructor <;> linarith [a.1, a.2, b.1, b.2]
  have hTa := abs_le.1 hT
  have hca := abs_le.1 hc
  have hc2 : c ^ 2 ≤ 10.44 := by rw [← sq_abs]; nlinarith [abs_nonneg c, hc]
  have hc20 : 0 ≤ c ^ 2 := sq_nonneg c
  have ma := abs_le.1 (meanAnomaly_num hT3)
  have eg : Soltrack.ma c = 6.240060141 + 628.301955152 * c - 2.682571e-6 * c ^ 2 := rfl
  have ee : Soltrack.ecc c = 0.016708634 - 0.000042037 * c - 0.0000001267 * c ^ 2 := rfl
  have es : Soltrack.sec c = (3.34161088e-2 - 8.40725e-5 * c - 2.443e-7 * c ^ 2) * sin (Soltrack.ma c)
    + (3.489437e-4 - 1.76278e-6 * c) * sin (2 * Soltrack.ma c) := rfl
  have hg : |Soltrack.ma c - meanAnomaly T| ≤ 2.9e-5 := by
    rw [eg, abs_le]; norm_num at hTa hca ma hc2 ⊢
    constructor <;> linarith [hTa.1, hTa.2, hca.1, hca.2, ma.1, ma.2]
  have cc := center_cmp hT3 (A := 3.34161088e-2 - 8.40725e-5 * c - 2.443e-7 * c ^ 2)
    (B := 3.489437e-4 - 1.76278e-6 * c) (g := Soltrack.ma c)
    (dA := 4.5e-6) (dB := 2e-7) (dg := 2.9e-5)
    (by unfold eccentricity; rw [abs_le]; norm_num at hTa hca hc2 ⊢
        constructor <;> linarith [hTa.1, hTa.2, hca.1, hca.2])
    (by
      have hb := abs_le.1 hT3
      unfold eccentricity; rw [abs_le]; norm_num at hb hTa ⊢
      constructor <;> nlinarith [hb.1, hb.2, hTa.1, hTa.2]) hg
  rw [← es] at cc
  have hν : |(Soltrack.ma c + Soltrack.sec c) - (meanAnomaly T + center T)| ≤ 3.6e-5 := by
    have e : (Soltrack.ma c + Soltrack.sec c) - (meanAnomaly T + center T)
      = (Soltrack.ma c - meanAnomaly T) + (Soltrack.sec c - center T) := by ring
    rw [e]; exact (abs_add_le _ _).trans ((add_le_add hg cc).trans (by norm_num))
  have hee : |Soltrack.ecc c - eccentricity T| ≤ 1.6e-6 := by
    rw [ee]; unfold eccentricity; rw [abs_le]; norm_num at hTa hca hc2 ⊢
    constructor <;> linarith [hTa.1, hTa.2, hca.1, hca.2]
  obtain ⟨r1, r2⟩ := ecc_bound hT3
  have hee' := abs_le.1 hee
  have h0 : 0 ≤ Soltrack.ecc c ∧ Soltrack.ecc c ≤ 0.017 := by
    norm_num at r1 r2 hee' ⊢; constructor <;> linarith [hee'.1, hee'.2]
  have h0' : 0 ≤ eccentricity T ∧ eccentricity T ≤ 0.017 := by
    norm_num at r1 r2 ⊢; constructor <;> linarith
  have key := orbit_cmp h0 h0' hee hν
  have hd := distance_bound hT3
  have eR : Soltrack.R c = 1.0000010178 * ((1 - Soltrack.ecc c ^ 2) / (1 + Soltrack.ecc c * cos (Soltrack.ma c + Soltrack.sec c))) := by
    rw [Soltrack.R_real, show (1.0 : ℝ) = 1 by norm_num, mul_div_assoc]
  obtain ⟨x, hx⟩ : ∃ x, x = (1 - Soltrack.ecc c ^ 2) / (1 + Soltrack.ecc c * cos (Soltrack.ma c + Soltrack.sec c)) := ⟨_, rfl⟩
  have hkey : |x - distance T| ≤ 1.08 * 1.6e-6 + 0.018 * 3.6e-5 := by rw [hx]; exact key
  rw [eR, ← hx]
  have hk := abs_le.1 hkey
  rw [abs_le]
  norm_num at hk hd ⊢
  constructor <;> linarith [hk.1, hk.2, hd.1, hd.2]

theorem psa_R_eq (c : ℝ) : Psa.R c = Soltrack.R c := by
  have e1 : Psa.ma c = Soltrack.ma c := by
    show 6.240060141 + 628.301955152 * c - 2.682571e-6 * c * c = 6.240060141 + 628.301955152 * c - 2.682571e-6 * c ^ 2
    ring
  have e2 : Psa.sec c = Soltrack.sec c := by
    have a : Psa.sec c = (3.34161088e-2 - 8.40725e-5 * c - 2.443e-7 * c * c) * sin (Psa.ma c)
      + (3.489437e-4 - 1.76278e-6 * c) * sin (2 * Psa.ma c) := rfl
    have b : Soltrack.sec c = (3.34161088e-2 - 8.40725e-5 * c - 2.443e-7 * c ^ 2) * sin (Soltrack.ma c)
      + (3.489437e-4 - 1.76278e-6 * c) * sin (2 * Soltrack.ma c) := rfl
    rw [a, b, e1]; ring
  rw [Psa.R_real, Soltrack.R_real, Soltrack.ecc_eq, e1, e2]

/-! ### the reference distance, expanded -/

set_option maxHeartbeats 1000000 in
theorem distance_expand {T : ℝ} (hT : |T| ≤ 3.24) :
    |distance T - (1 + eccentricity T ^ 2 / 2 - eccentricity T * cos (meanAnomaly T)
      - eccentricity T ^ 2 / 2 * cos (2 * meanAnomaly T))| ≤ 4.3e-5 := by
  obtain ⟨b1, b2⟩ := ecc_bound hT
  unfold distance center
  obtain ⟨e, he⟩ : ∃ e, e = eccentricity T := ⟨_, rfl⟩
  obtain ⟨M, hM⟩ : ∃ e, e = meanAnomaly T := ⟨_, rfl⟩
  rw [← he] at b1 b2
  rw [← he, ← hM]
  obtain ⟨C, hC⟩ : ∃ C, C = 2 * e * sin M + 5 / 4 * e ^ 2 * sin (2 * M) := ⟨_, rfl⟩
  rw [← hC]
  have e0 : 0 ≤ e := le_trans (by norm_num) b1
  have he2 : e ^ 2 ≤ 2.84e-4 := by norm_num at b1 b2 ⊢; nlinarith
  have s1 := abs_sin_le_one M
  have hCe : |C - 2 * e * sin M| ≤ 3.56e-4 := by
    have : C - 2 * e * sin M = 5 / 4 * e ^ 2 * sin (2 * M) := by rw [hC]; ring
    rw [this]
    refine (Nrel.abs_mul_le' (A := 3.56e-4) ?_ (abs_sin_le_one _)).trans (by norm_num)
    rw [abs_of_nonneg (by positivity)]; norm_num at he2 ⊢; linarith
  have hCb : |C| ≤ 0.0341 := by
    have a : |2 * e * sin M| ≤ 0.0337 := by
      refine (Nrel.abs_mul_le' (A := 0.0337) ?_ s1).trans (by norm_num)
      rw [abs_of_nonneg (by positivity)]; norm_num at b2 ⊢; linarith
    have a := abs_le.1 a
    have b := abs_le.1 hCe
    rw [abs_le]; norm_num at a b ⊢; constructor <;> linarith [a.1, a.2, b.1, b.2]
  have hx := Nrel.cos_expand M C (hCb.trans (by norm_num))
  have hC2 : C ^ 2 ≤ 0.00117 := by
    rw [← sq_abs]; exact (pow_le_pow_left₀ (abs_nonneg _) hCb 2).trans (by norm_num)
  obtain ⟨x, hxx⟩ : ∃ x, x = cos M := ⟨_, rfl⟩
  obtain ⟨s, hs⟩ : ∃ x, x = sin M := ⟨_, rfl⟩
  have hq : s ^ 2 + x ^ 2 = 1 := by rw [hs, hxx]; exact sin_sq_add_cos_sq M
  have hc2 : cos (2 * M) = 2 * x ^ 2 - 1 := by rw [hxx, cos_two_mul]
  have hx1 : |x| ≤ 1 := hxx ▸ abs_cos_le_one M
  rw [← hs] at hCe s1 hC
  -- cos ν against x - 2 e s²
  obtain ⟨y, hy⟩ : ∃ y, y = cos (M + C) - (x - 2 * e * s ^ 2) := ⟨_, rfl⟩
  have hyb : |y| ≤ 1.53e-3 := by
    have e1 : y = (cos (M + C) - (cos M - C * sin M)) - (C - 2 * e * s) * s := by
      rw [hy, hxx, hs]; ring
    rw [e1]
    refine (abs_sub _ _).trans ((add_le_add (hx.trans hC2) (Nrel.abs_mul_le' hCe s1)).trans (by norm_num))
  have hcos : cos (M + C) = x - 2 * e * s ^ 2 + y := by rw [hy]; ring
  rw [hcos, hc2, ← hxx]
  have xa := abs_le.1 hx1
  have x2 : x ^ 2 ≤ 1 := by nlinarith [sq_nonneg s]
  have s2 : s ^ 2 ≤ 1 := by nlinarith [sq_nonneg x]
  have ya := abs_le.1 hyb
  obtain ⟨N, hN⟩ : ∃ N, N = 1 + e * (x - 2 * e * s ^ 2 + y) := ⟨_, rfl⟩
  have hNb : 0.98 ≤ N := by
    rw [hN, ← hcos]
    have := neg_one_le_cos (M + C)
    norm_num at b2 ⊢; nlinarith
  have hN0 : 0 < N := lt_of_lt_of_le (by norm_num) hNb
  obtain ⟨G, hG⟩ : ∃ G, G = 1 + e ^ 2 / 2 - e * x - e ^ 2 / 2 * (2 * x ^ 2 - 1) := ⟨_, rfl⟩
  rw [← hN, ← hG]
  have e2 : (1 - e ^ 2) / N - G = (1 - e ^ 2 - G * N) / N := by
    rw [eq_div_iff hN0.ne', sub_mul, div_mul_cancel₀ _ hN0.ne']
  -- the residual
  have e3 : 1 - e ^ 2 - G * N = -(e * y * G) - 3 * e ^ 3 * (x * s ^ 2) + 2 * e ^ 4 * (s ^ 2 * s ^ 2) := by
    have hx2 : x ^ 2 = 1 - s ^ 2 := by linarith
    have hG' : G = 1 - e * x + e ^ 2 * s ^ 2 := by rw [hG]; linear_combination (-e ^ 2) * hx2
    rw [hG', hN]
    linear_combination e ^ 2 * hx2
  have hGb : |G| ≤ 1.02 := by
    rw [hG, abs_le]
    have p1 : |e * x| ≤ 0.017 * 1 := Nrel.abs_mul_le' (by rw [abs_of_nonneg e0]; norm_num at b2 ⊢; linarith) hx1
    have p1 := abs_le.1 p1
    have p2 : 0 ≤ e ^ 2 * x ^ 2 := by positivity
    have p3 : e ^ 2 * x ^ 2 ≤ e ^ 2 := by nlinarith [sq_nonneg e]
    have p4 : e ^ 2 / 2 * (2 * x ^ 2 - 1) = e ^ 2 * x ^ 2 - e ^ 2 / 2 := by ring
    rw [p4]
    norm_num at p1 he2 ⊢
    constructor <;> linarith [p1.1, p1.2]
  have he1 : |e| ≤ 0.01686 := by rw [abs_of_nonneg e0]; norm_num at b2 ⊢; linarith
  have q1 : |-(e * y * G)| ≤ 0.01686 * 1.53e-3 * 1.02 := by
    rw [abs_neg]; exact Nrel.abs_mul_le' (Nrel.abs_mul_le' he1 hyb) hGb
  have he3 : |3 * e ^ 3| ≤ 1.45e-5 := by
    rw [abs_of_nonneg (by positivity)]
    have : e ^ 3 ≤ 0.01686 ^ 3 := pow_le_pow_left₀ e0 (by rw [abs_of_nonneg e0] at he1; exact he1) 3
    norm_num at this ⊢; linarith
  have he4 : |2 * e ^ 4| ≤ 1.7e-7 := by
    rw [abs_of_nonneg (by positivity)]
    have : e ^ 4 ≤ 0.01686 ^ 4 := pow_le_pow_left₀ e0 (by rw [abs_of_nonneg e0] at he1; exact he1) 4
    norm_num at this ⊢; linarith
  have hs2 : |s ^ 2| ≤ 1 := by rw [abs_of_nonneg (sq_nonneg s)]; exact s2
  have q2 : |3 * e ^ 3 * (x * s ^ 2)| ≤ 1.45e-5 * (1 * 1) := Nrel.abs_mul_le' he3 (Nrel.abs_mul_le' hx1 hs2)
  have q3 : |2 * e ^ 4 * (s ^ 2 * s ^ 2)| ≤ 1.7e-7 * (1 * 1) := Nrel.abs_mul_le' he4 (Nrel.abs_mul_le' hs2 hs2)
  rw [e2, abs_div, abs_of_pos hN0, div_le_iff₀ hN0, e3]
  refine (abs_add_le _ _).trans ((add_le_add ((abs_sub _ _).trans (add_le_add q1 q2)) q3).trans ?_)
  have : (4.3e-5 : ℝ) * 0.98 ≤ 4.3e-5 * N := by gcongr
  refine le_trans ?_ this
  norm_num

end SW.Ephem

namespace SW.Nrel
open Real

theorem R_main {m : ℝ} (h : |m| ≤ 0.323) : |R m - (1.00013989 + 0.016707 * cos (3.0984635 + 6283.07585 * m)
    + 0.00013956 * cos (3.05525 + 12566.1517 * m) + 0.00103019 * cos (1.10749 + 6283.07585 * m) * m)| ≤ 1.26e-4 := by
  obtain ⟨p2, p3, p4, -⟩ := pows h
  have a0 := abs_le.1 (R0_main m)
  have a1 := abs_le.1 (abs_mul_le' (R1_main m) h)
  have a2 := abs_le.1 (abs_mul_le' (R2_bound m) p2)
  have a3 := abs_le.1 (abs_mul_le' (R3_bound m) p3)
  have a4 := abs_le.1 (abs_mul_le' (R4_bound m) p4)
  rw [R_real]
  generalize cos (3.0984635 + 6283.07585 * m) = c1 at *
  generalize cos (3.05525 + 12566.1517 * m) = c2 at *
  generalize cos (1.10749 + 6283.07585 * m) = c3 at *
  generalize series 40 paramsR0 m = s0 at *
  generalize series 40 paramsR1 m = s1 at *
  generalize series 40 paramsR2 m = s2 at *
  generalize series 40 paramsR3 m = s3 at *
  generalize series 40 paramsR4 m = s4 at *
  have e : (s0 + s1 * m + s2 * m ^ 2 + s3 * m ^ 3 + s4 * m ^ 4) / 100000000
      - (1.00013989 + 0.016707 * c1 + 0.00013956 * c2 + 0.00103019 * c3 * m)
    = ((s0 - (100013989 + 1670700 * c1 + 13956 * c2)) + (s1 - 103019 * c3) * m
      + s2 * m ^ 2 + s3 * m ^ 3 + s4 * m ^ 4) / 100000000 := by
    norm_num; ring
  rw [e, abs_div, abs_of_pos (by norm_num : (0:ℝ) < 100000000), div_le_iff₀ (by norm_num), abs_le]
  generalize (s1 - 103019 * c3) * m = z1 at *
  generalize s2 * m ^ 2 = z2 at *
  generalize s3 * m ^ 3 = z3 at *
  generalize s4 * m ^ 4 = z4 at *
  norm_num at a0 a1 a2 a3 a4 ⊢
  constructor <;> linarith [a0.1, a0.2, a1.1, a1.2, a2.1, a2.2, a3.1, a3.2, a4.1, a4.2]

theorem ecc_sq {T : ℝ} (hT : |T| ≤ 3.24) :
    |0.00013989 - (0.0167086 - 0.000042 * T) ^ 2 / 2| ≤ 2.7e-6
    ∧ |0.00013956 - (0.0167086 - 0.000042 * T) ^ 2 / 2| ≤ 2.4e-6 := by
  have hTa := abs_le.1 hT
  rw [abs_le, abs_le]; norm_num at hTa ⊢
  refine ⟨⟨?_, ?_⟩, ?_, ?_⟩ <;> nlinarith [hTa.1, hTa.2]

set_option maxHeartbeats 1000000 in
theorem R_center {T m : ℝ} (hT : |T| ≤ 3.24) (hm : |m - T / 10| ≤ 2.2e-9) :
    |(1.00013989 + 0.016707 * cos (3.0984635 + 6283.07585 * m)
      + 0.00013956 * cos (3.05525 + 12566.1517 * m) + 0.00103019 * cos (1.10749 + 6283.07585 * m) * m)
      - (1 + Ephem.eccentricity T ^ 2 / 2 - Ephem.eccentricity T * cos (Ephem.meanAnomaly T)
      - Ephem.eccentricity T ^ 2 / 2 * cos (2 * Ephem.meanAnomaly T))| ≤ 2.4e-5 := by
  have hph := phase hT hm
  have hTa := abs_le.1 hT
  have p1 := pi_gt_d20
  have p2 := pi_lt_d20
  obtain ⟨φ, hφ⟩ : ∃ φ, φ = 4.6692568 + 6283.07585 * m := ⟨_, rfl⟩
  rw [← hφ] at hph
  obtain ⟨d, hd⟩ : ∃ d, d = Ephem.meanAnomaly T - π / 2 - φ := ⟨_, rfl⟩
  rw [← hd] at hph
  have hdb : |d| ≤ 0.0183 := by
    have := abs_le.1 hph
    rw [abs_le]; norm_num at this hTa ⊢; constructor <;> linarith [this.1, this.2, hTa.1, hTa.2]
  have hd2 : d ^ 2 ≤ 3.36e-4 := by
    rw [← sq_abs]; exact (pow_le_pow_left₀ (abs_nonneg _) hdb 2).trans (by norm_num)
  have hM : Ephem.meanAnomaly T = (φ + d) + π / 2 := by rw [hd]; ring
  have e1 : cos (Ephem.meanAnomaly T) = -sin (φ + d) := by rw [hM, cos_add_pi_div_two]
  have e2 : cos (2 * Ephem.meanAnomaly T) = -cos (2 * φ + 2 * d) := by
    rw [hM, show 2 * (φ + d + π / 2) = (2 * φ + 2 * d) + π by ring, cos_add_pi]
  have f1 : |cos (3.0984635 + 6283.07585 * m) - sin φ| ≤ 4e-6 := by
    rw [← cos_sub_pi_div_two]
    refine (abs_cos_sub_cos_le _ _).trans ?_
    rw [hφ, abs_le]; norm_num at p1 p2 ⊢; constructor <;> linarith
  have f2 : |cos (3.05525 + 12566.1517 * m) - cos (2 * φ + 2 * d)| ≤ 0.0368 := by
    rw [← cos_sub_two_pi (2 * φ + 2 * d)]
    refine (abs_cos_sub_cos_le _ _).trans ?_
    have := abs_le.1 hdb
    rw [hφ, abs_le]; norm_num at p1 p2 this ⊢; constructor <;> linarith [this.1, this.2]
  have e3 : cos ((φ - π / 2) + (2.678235 - 4.6692568))
      = sin φ * cos (2.678235 - 4.6692568) + cos φ * sin (2.678235 - 4.6692568) := by
    rw [cos_add, cos_sub_pi_div_two, sin_sub_pi_div_two]; ring
  have f3 : |cos (1.10749 + 6283.07585 * m) - (sin φ * cos (2.678235 - 4.6692568) + cos φ * sin (2.678235 - 4.6692568))| ≤ 6e-5 := by
    rw [← e3]
    refine (abs_cos_sub_cos_le _ _).trans ?_
    rw [hφ, abs_le]; norm_num at p1 p2 ⊢; constructor <;> linarith
  have e5 := cos_expand (φ - π / 2) d (hdb.trans (by norm_num))
  rw [show φ - π / 2 + d = φ + d - π / 2 by ring, cos_sub_pi_div_two, cos_sub_pi_div_two, sin_sub_pi_div_two] at e5
  obtain ⟨q1, q2⟩ := q_num
  obtain ⟨k, hk⟩ : ∃ k, k = cos φ := ⟨_, rfl⟩
  obtain ⟨s, hs⟩ : ∃ s, s = sin φ := ⟨_, rfl⟩
  obtain ⟨cq, hcq⟩ : ∃ s, s = cos (2.678235 - 4.6692568) := ⟨_, rfl⟩
  obtain ⟨sq, hsq⟩ : ∃ s, s = sin (2.678235 - 4.6692568) := ⟨_, rfl⟩
  have hk1 : |k| ≤ 1 := hk ▸ abs_cos_le_one _
  have hs1 : |s| ≤ 1 := hs ▸ abs_sin_le_one _
  unfold Ephem.eccentricity
  rw [e1, e2]
  rw [← hk, ← hs] at e5
  rw [← hcq] at q1
  rw [← hsq] at q2
  rw [← hs] at f1
  rw [← hk, ← hs, ← hcq, ← hsq] at f3
  obtain ⟨y, hy⟩ : ∃ y, y = sin (φ + d) - (s - d * -k) := ⟨_, rfl⟩
  have hy' : sin (φ + d) = s + d * k + y := by rw [hy]; ring
  rw [← hy] at e5
  obtain ⟨w, hw⟩ : ∃ w, w = cos (2 * φ + 2 * d) := ⟨_, rfl⟩
  rw [← hw] at f2 ⊢
  have hw1 : |w| ≤ 1 := hw ▸ abs_cos_le_one _
  obtain ⟨v1, hv1⟩ : ∃ v, v = cos (3.0984635 + 6283.07585 * m) - s := ⟨_, rfl⟩
  obtain ⟨v2, hv2⟩ : ∃ v, v = cos (3.05525 + 12566.1517 * m) - w := ⟨_, rfl⟩
  obtain ⟨v3, hv3⟩ : ∃ v, v = cos (1.10749 + 6283.07585 * m) - (s * cq + k * sq) := ⟨_, rfl⟩
  rw [← hv1] at f1
  rw [← hv2] at f2
  rw [← hv3] at f3
  have g1 : cos (3.0984635 + 6283.07585 * m) = s + v1 := by rw [hv1]; ring
  have g2 : cos (3.05525 + 12566.1517 * m) = w + v2 := by rw [hv2]; ring
  have g3 : cos (1.10749 + 6283.07585 * m) = s * cq + k * sq + v3 := by rw [hv3]; ring
  obtain ⟨r, hr⟩ : ∃ r, r = d + 0.005629674 * T := ⟨_, rfl⟩
  rw [← hr] at hph
  have hd' : d = r - 0.005629674 * T := by rw [hr]; ring
  obtain ⟨n, hn⟩ : ∃ n, n = m - T / 10 := ⟨_, rfl⟩
  rw [← hn] at hm
  have hm' : m = T / 10 + n := by rw [hn]; ring
  rw [g1, g2, g3, hy']
  have cq1 : |cq| ≤ 0.42 := by have := abs_le.1 q1; rw [abs_le]; norm_num at this ⊢; constructor <;> linarith [this.1, this.2]
  have sq1 : |sq| ≤ 1 := hsq ▸ abs_sin_le_one _
  have y1 : |y| ≤ 3.36e-4 := e5.trans hd2
  have mb : |m| ≤ 0.3241 := by
    have := abs_le.1 hm
    rw [hm', abs_le]; norm_num at this hTa ⊢; constructor <;> linarith [this.1, this.2, hTa.1, hTa.2]
  -- the pieces
  have E : (1.00013989 + 0.016707 * (s + v1) + 0.00013956 * (w + v2) + 0.00103019 * (s * cq + k * sq + v3) * m)
      - (1 + (0.0167086 - 0.000042 * T) ^ 2 / 2 - (0.0167086 - 0.000042 * T) * -(s + d * k + y)
        - (0.0167086 - 0.000042 * T) ^ 2 / 2 * -w)
    = (0.00013989 - (0.0167086 - 0.000042 * T) ^ 2 / 2) + (0.016707 - 0.0167086) * s
      + T * s * (0.000103019 * cq + 0.000042) + T * k * (0.000103019 * sq + 0.0167086 * 0.005629674)
      - (0.0167086 - 0.000042 * T) * (r * k) - (0.000042 * 0.005629674) * (T * T * k)
      - (0.0167086 - 0.000042 * T) * y + 0.00103019 * (s * cq + k * sq) * n + 0.00103019 * v3 * m
      + 0.016707 * v1 + 0.00013956 * v2 + w * (0.00013956 - (0.0167086 - 0.000042 * T) ^ 2 / 2) := by
    rw [show 0.00103019 * (s * cq + k * sq + v3) * m
      = 0.00103019 * (s * cq + k * sq) * (T / 10 + n) + 0.00103019 * v3 * m by rw [← hm']; ring, hd']
    norm_num; ring
  have t0 : |0.0167086 - 0.000042 * T| ≤ 0.0169 := by
    rw [abs_le]; norm_num at hTa ⊢; constructor <;> linarith [hTa.1, hTa.2]
  have t1 := (ecc_sq hT).1
  have t2 : |(0.016707 - 0.0167086) * s| ≤ 1.7e-6 * 1 := abs_mul_le' (by rw [abs_le]; norm_num) hs1
  have t3 : |T * s * (0.000103019 * cq + 0.000042)| ≤ 3.24 * 1 * 2.5e-7 := by
    refine abs_mul_le' (abs_mul_le' hT hs1) ?_
    have := abs_le.1 q1
    rw [abs_le]; norm_num at this ⊢; constructor <;> linarith [this.1, this.2]
  have t4 : |T * k * (0.000103019 * sq + 0.0167086 * 0.005629674)| ≤ 3.24 * 1 * 5e-7 := by
    refine abs_mul_le' (abs_mul_le' hT hk1) ?_
    have := abs_le.1 q2
    rw [abs_le]; norm_num at this ⊢; constructor <;> linarith [this.1, this.2]
  have t5 := abs_mul_le' t0 (abs_mul_le' hph hk1)
  have t6 : |(0.000042 * 0.005629674) * (T * T * k)| ≤ 2.4e-7 * (3.24 * 3.24 * 1) := by
    refine abs_mul_le' ?_ (abs_mul_le' (abs_mul_le' hT hT) hk1)
    rw [abs_le]; norm_num
  have t7 := abs_mul_le' t0 y1
  have t8 : |0.00103019 * (s * cq + k * sq) * n| ≤ 0.0011 * (1 * 0.42 + 1 * 1) * 2.2e-9 := by
    refine abs_mul_le' (abs_mul_le' (by rw [abs_le]; norm_num) ?_) hm
    refine (abs_add_le _ _).trans (add_le_add (abs_mul_le' hs1 cq1) (abs_mul_le' hk1 sq1))
  have t9 : |0.00103019 * v3 * m| ≤ 0.0011 * 6e-5 * 0.3241 :=
    abs_mul_le' (abs_mul_le' (by rw [abs_le]; norm_num) f3) mb
  have t10 : |0.016707 * v1| ≤ 0.017 * 4e-6 := abs_mul_le' (by rw [abs_le]; norm_num) f1
  have t11 : |0.00013956 * v2| ≤ 0.00013956 * 0.0368 := abs_mul_le' (by rw [abs_le]; norm_num) f2
  have t12 : |w * (0.00013956 - (0.0167086 - 0.000042 * T) ^ 2 / 2)| ≤ 1 * 2.4e-6 :=
    abs_mul_le' hw1 (ecc_sq hT).2
  rw [E]
  clear E e1 e2 e3 hM hy hy' hw hv1 hv2 hv3 g1 g2 g3 hr hd' hn hm' hk hs hcq hsq
  have t1 := abs_le.1 t1
  have t2 := abs_le.1 t2
  have t3 := abs_le.1 t3
  have t4 := abs_le.1 t4
  have t5 := abs_le.1 t5
  have t6 := abs_le.1 t6
  have t7 := abs_le.1 t7
  have t8 := abs_le.1 t8
  have t9 := abs_le.1 t9
  have t10 := abs_le.1 t10
  have t11 := abs_le.1 t11
  have t12 := abs_le.1 t12
  generalize w * (0.00013956 - (0.0167086 - 0.000042 * T) ^ 2 / 2) = a12 at *
  generalize 0.00013989 - (0.0167086 - 0.000042 * T) ^ 2 / 2 = a1 at *
  generalize (0.016707 - 0.0167086) * s = a2 at *
  generalize T * s * (0.000103019 * cq + 0.000042) = a3 at *
  generalize T * k * (0.000103019 * sq + 0.0167086 * 0.005629674) = a4 at *
  generalize (0.0167086 - 0.000042 * T) * (r * k) = a5 at *
  generalize (0.000042 * 0.005629674) * (T * T * k) = a6 at *
  generalize (0.0167086 - 0.000042 * T) * y = a7 at *
  generalize 0.00103019 * (s * cq + k * sq) * n = a8 at *
  generalize 0.00103019 * v3 * m = a9 at *
  generalize 0.016707 * v1 = a10 at *
  generalize 0.00013956 * v2 = a11 at *
  rw [abs_le]
  norm_num at t1 t2 t3 t4 t5 t6 t7 t8 t9 t10 t11 t12 ⊢
  constructor <;> linarith [t1.1, t2.1, t3.1, t4.1, t5.1, t6.1, t7.1, t8.1, t9.1, t10.1, t11.1, t12.1,
    t1.2, t2.2, t3.2, t4.2, t5.2, t6.2, t7.2, t8.2, t9.2, t10.2, t11.2, t12.2]

theorem R_distance {T m : ℝ} (hT : |T| ≤ 3.24) (hm : |m - T / 10| ≤ 2.2e-9) (h : |m| ≤ 0.323) :
    |R m - Ephem.distance T| ≤ 1.93e-4 := by
  have a := abs_le.1 (R_main h)
  have b := abs_le.1 (R_center hT hm)
  have c := abs_le.1 (Ephem.distance_expand hT)
  rw [abs_le]
  norm_num at a b c ⊢
  constructor <;> linarith [a.1, a.2, b.1, b.2, c.1, c.2]

end SW.Nrel
