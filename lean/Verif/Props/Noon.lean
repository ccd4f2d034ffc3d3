/-
C84: the height of the sun at noon and at midnight, and between them.
-/
import Verif.Props.Azimuth
import Verif.Props.Incidence
import Verif.Props.Calls

namespace SW.Props
open SW SW.Spec Real Sunpos
open SW.Ephem (century declination hourAngle)

/-- How far (degrees) the returned zenith angle may be from that of a sun of the returned declination at the hour angle of the
algorithm: parallax (psa, soltrack, nrel), rounding of the cosine to six decimals (psa with numpy). -/
noncomputable def ownSlack (alg eng : String) : ℝ :=
  if alg = "iqbal" then 0 else if alg = "soltrack" then 0.0025 else if alg = "nrel" then 0.0051
  else if eng = "numexpr" then 0.0025 else 0.0945

/-- The same for the hour angle of the true solar time. -/
noncomputable def noonSlack (alg eng : String) : ℝ :=
  ownSlack alg eng + if alg = "psa" then 0.0253 else if alg = "iqbal" then 0.0042 else 0.0069

/-! ### geometry -/

/-- the zenith angle (radians) of a sun of declination `δ` at hour angle `H`, seen from latitude `φ` -/
noncomputable def heightAt (φ δ H : ℝ) : ℝ := arccos (sin φ * sin δ + cos φ * cos δ * cos H)

theorem heightAt_eq {φ δ H zg : ℝ} (h0 : 0 ≤ zg) (h1 : zg ≤ π)
    (h : cos zg = sin φ * sin δ + cos φ * cos δ * cos H) : zg = heightAt φ δ H := by
  unfold heightAt; rw [← h, arccos_cos h0 h1]

theorem heightAt_cos (φ δ H : ℝ) : cos (heightAt φ δ H) = sin φ * sin δ + cos φ * cos δ * cos H := by
  have := abs_le.1 (sphere_le_one φ δ H)
  exact cos_arccos this.1 this.2

theorem heightAt_mono {φ δ x y : ℝ} (hφ : 0 ≤ cos φ) (hδ : 0 ≤ cos δ) (h : cos y ≤ cos x) : heightAt φ δ x ≤ heightAt φ δ y := by
  apply arccos_le_arccos
  have := mul_le_mul_of_nonneg_left h (mul_nonneg hφ hδ)
  linarith

theorem heightAt_noon {φ δ : ℝ} (h : |φ - δ| ≤ π) : heightAt φ δ 0 = |φ - δ| := by
  unfold heightAt
  rw [cos_zero, mul_one, show sin φ * sin δ + cos φ * cos δ = cos |φ - δ| by rw [cos_abs, cos_sub]; ring]
  exact arccos_cos (abs_nonneg _) h

theorem heightAt_midnight {φ δ : ℝ} (h : |φ + δ| ≤ π) : heightAt φ δ π = π - |φ + δ| := by
  unfold heightAt
  rw [cos_pi, show sin φ * sin δ + cos φ * cos δ * -1 = cos (π - |φ + δ|) by rw [cos_pi_sub, cos_abs, cos_add]; ring]
  exact arccos_cos (by linarith) (by linarith [abs_nonneg (φ + δ)])

theorem heightAt_lipschitz (φ δ x y : ℝ) : |heightAt φ δ x - heightAt φ δ y| ≤ |x - y| := by
  by_cases hbig : π ≤ |x - y|
  · refine le_trans ?_ hbig
    have a1 := arccos_nonneg (sin φ * sin δ + cos φ * cos δ * cos x)
    have a2 := arccos_le_pi (sin φ * sin δ + cos φ * cos δ * cos x)
    have b1 := arccos_nonneg (sin φ * sin δ + cos φ * cos δ * cos y)
    have b2 := arccos_le_pi (sin φ * sin δ + cos φ * cos δ * cos y)
    unfold heightAt
    rw [abs_le]; constructor <;> linarith
  push Not at hbig
  obtain ⟨a, ha⟩ : ∃ a, sunVec φ δ x = dirVec (heightAt φ δ x) a :=
    exists_dir (sunVec_sq _ _ _) (by rw [heightAt_cos]; simp only [sunVec])
      (sin_nonneg_of_nonneg_of_le_pi (arccos_nonneg _) (arccos_le_pi _))
  have hz := zen_le_angle (a := a) (z := heightAt φ δ x) (ζ := heightAt φ δ y) (v := sunVec φ δ y)
    (arccos_nonneg _) (arccos_le_pi _) (arccos_nonneg _) (arccos_le_pi _) (sunVec_sq _ _ _) (by rw [heightAt_cos]; simp only [sunVec])
  rw [← ha] at hz
  refine hz.trans ?_
  have hdot : (sunVec φ δ x).dot (sunVec φ δ y) = sin δ ^ 2 + cos δ ^ 2 * cos (x - y) := by
    have h1 := sin_sq_add_cos_sq φ
    rw [cos_sub]
    simp only [Vec.dot, sunVec]
    linear_combination (sin δ ^ 2 + cos δ ^ 2 * cos x * cos y) * h1
  have hle : cos |x - y| ≤ (sunVec φ δ x).dot (sunVec φ δ y) := by
    rw [hdot, cos_abs]
    have h1 := sin_sq_add_cos_sq δ
    have h2 := cos_le_one (x - y)
    nlinarith [sq_nonneg (sin δ)]
  calc arccos ((sunVec φ δ x).dot (sunVec φ δ y)) ≤ arccos (cos |x - y|) := arccos_le_arccos hle
    _ = |x - y| := arccos_cos (abs_nonneg _) hbig.le

theorem heightAt_declination (φ x : ℝ) {δ δ' : ℝ} (h : |δ - δ'| ≤ π) : |heightAt φ δ x - heightAt φ δ' x| ≤ |δ - δ'| := by
  obtain ⟨a, ha⟩ : ∃ a, sunVec φ δ x = dirVec (heightAt φ δ x) a :=
    exists_dir (sunVec_sq _ _ _) (by rw [heightAt_cos]; simp only [sunVec])
      (sin_nonneg_of_nonneg_of_le_pi (arccos_nonneg _) (arccos_le_pi _))
  have hz := zen_le_angle (a := a) (z := heightAt φ δ x) (ζ := heightAt φ δ' x) (v := sunVec φ δ' x)
    (arccos_nonneg _) (arccos_le_pi _) (arccos_nonneg _) (arccos_le_pi _) (sunVec_sq _ _ _) (by rw [heightAt_cos]; simp only [sunVec])
  rw [← ha] at hz
  refine hz.trans ?_
  have hdot : (sunVec φ δ x).dot (sunVec φ δ' x) = cos |δ - δ'| := by
    have h1 := sin_sq_add_cos_sq φ
    have h2 := sin_sq_add_cos_sq x
    rw [cos_abs, cos_sub]
    simp only [Vec.dot, sunVec]
    linear_combination (sin δ * sin δ' + cos δ * cos δ' * cos x ^ 2) * h1 + (cos δ * cos δ') * h2
  rw [hdot, arccos_cos (abs_nonneg _) h]

theorem heightAt_comm (φ δ x : ℝ) : heightAt φ δ x = heightAt δ φ x := by
  unfold heightAt; congr 1; ring

/-! ### the sun of the algorithm -/

theorem own_sun {uc : UseCase} {w : World XR} {times : Times} {latitude longitude : Coord XR}
    {alg eng : String} {refr : PyVal} {s : Sunpos XR} {e : Dim → Nat} {t : Int} {φ l : ℝ}
    (h : call uc w times latitude longitude alg refr eng = .ok s) (hr : refr ≠ .pyTrue) (ha : At s times e t φ l) :
    ∃ z d : ℝ, s.zenithDeg.get e = .fin z ∧ s.decDeg.get e = .fin d ∧
      |rad z - heightAt (rad φ) (rad d) (hourAngle0 alg t + rad l)| ≤ rad (ownSlack alg eng) ∧
      (alg ≠ "nrel" → ¬ (alg = "psa" ∧ eng = "numpy") → heightAt (rad φ) (rad d) (hourAngle0 alg t + rad l) ≤ rad z) := by
  obtain ⟨-, -, -, halg⟩ := at_cases h ha
  have hp := pi_gt_d4
  have small : ∀ {x c : ℝ}, x * 180 ≤ c * 3.1415 → 0 ≤ c → x ≤ rad c := by
    intro x c hx hc
    unfold rad
    have : c * 3.1415 ≤ c * π := mul_le_mul_of_nonneg_left (by norm_num at hp ⊢; linarith) hc
    rw [mul_div_assoc', le_div_iff₀ (by norm_num)]
    linarith
  by_cases hn : alg = "nrel"
  · subst hn
    obtain ⟨z, a, d, ρ, σ, u, h1, h2, h3, h4, h5, h6, -, -, h7, h8, h9⟩ := topocentric0 h hr ha
    obtain ⟨z', h1', hz0, hz1⟩ := C13_range h ha (.inr (.inr hr))
    obtain rfl : z' = z := XR.fin_inj.1 (h1'.symm.trans h1)
    refine ⟨z', d, h1, h3, ?_, by simp⟩
    have hc := close_topo h4 h5 h6 h7 h8 h9
    have hang := hc.angle (dirVec_sq _ _) (sunVec_sq _ _ _) (by norm_num)
    have hz := zen_le_angle (a := rad a) (z := rad z') (ζ := heightAt (rad φ) (rad d) (hourAngle0 "nrel" t + rad l))
      (v := sunVec (rad φ) (rad d) (-(hourAngle0 "nrel" t + rad l)))
      (by unfold rad; positivity) (by rw [← rad180]; exact rad_mono hz1) (arccos_nonneg _) (arccos_le_pi _) (sunVec_sq _ _ _)
      (by rw [heightAt_cos]; simp only [sunVec, cos_neg])
    refine hz.trans (hang.trans (small ?_ ?_)) <;> simp only [ownSlack, String.reduceEq, if_true, if_false] <;> norm_num
  · have hcase : alg = "psa" ∨ alg = "soltrack" ∨ alg = "iqbal" := by
      rcases halg with ⟨rfl, -⟩ | ⟨rfl, -⟩ | ⟨rfl, -⟩ | ⟨rfl, -⟩ | ⟨rfl, -⟩ <;> simp at hn ⊢
    obtain ⟨z, a, d, zg, h1, h2, h3, h4, h5, h6, h7⟩ := direction0 hcase h hr ha
    obtain rfl := heightAt_eq h4.zen_nonneg h4.zen_le h4.up
    refine ⟨z, d, h1, h3, ?_⟩
    have e3 : ∀ {x : ℝ}, x ≤ rad z ∧ rad z ≤ x + 4.3e-5 → |rad z - x| ≤ 4.3e-5 := by
      intro x hx; rw [abs_le]; constructor <;> norm_num at hx ⊢ <;> linarith [hx.1, hx.2]
    rcases halg with ⟨rfl, rfl, -⟩ | ⟨rfl, rfl, -⟩ | ⟨rfl, -⟩ | ⟨rfl, -⟩ | ⟨rfl, -⟩
    · obtain ⟨c, hc1, hc2⟩ := h7 ⟨rfl, rfl⟩
      have hnr := arccos_near h4.zen_nonneg h4.zen_le hc1
      refine ⟨?_, by simp⟩
      have a1 := abs_le.1 hnr
      have a2 := abs_le.1 (e3 hc2)
      refine le_trans (b := 1.6e-3 + 4.3e-5) ?_ (small ?_ ?_)
      · rw [abs_le]; constructor <;> linarith [a1.1, a1.2, a2.1, a2.2]
      all_goals simp only [ownSlack, String.reduceEq, if_true, if_false]; norm_num
    · have g := h6 (.inr ⟨rfl, rfl⟩)
      refine ⟨(e3 g).trans (small ?_ ?_), fun _ _ => g.1⟩ <;> simp only [ownSlack, String.reduceEq, if_true, if_false] <;> norm_num
    · have g := h6 (.inl rfl)
      refine ⟨(e3 g).trans (small ?_ ?_), fun _ _ => g.1⟩ <;> simp only [ownSlack, String.reduceEq, if_true, if_false] <;> norm_num
    · have g := h5 rfl
      refine ⟨?_, fun _ _ => g.ge⟩
      rw [g, sub_self, abs_zero]
      simp [ownSlack, rad]
    · exact absurd rfl hn

/-- latitude and declination, in radians -/
theorem place_bounds {uc : UseCase} {w : World XR} {times : Times} {latitude longitude : Coord XR}
    {alg eng : String} {refr : PyVal} {s : Sunpos XR} {e : Dim → Nat} {t : Int} {φ l d : ℝ}
    (h : call uc w times latitude longitude alg refr eng = .ok s) (ha : At s times e t φ l) (hd : s.decDeg.get e = .fin d) :
    |φ| ≤ 90 ∧ |d| ≤ 24.5 ∧ 0 ≤ cos (rad φ) ∧ 0 < cos (rad d) ∧ |rad φ - rad d| ≤ π ∧ |rad φ + rad d| ≤ π := by
  obtain ⟨-, hφ, -, -⟩ := at_cases h ha
  obtain ⟨d', hd', h1, -, h2⟩ := C17_declination h ha.time ha.range
  obtain rfl : d' = d := XR.fin_inj.1 (hd'.symm.trans hd)
  have e90 : rad 90 = π / 2 := by unfold rad; ring
  have hm := rad_mono hφ.1
  have hm' := rad_mono hφ.2
  rw [show rad (-90) = -(π / 2) by unfold rad; ring] at hm
  rw [e90] at hm'
  have hd1 := abs_le.1 h1
  have k1 : rad d' ≤ π / 2 := by rw [← e90]; exact rad_mono (by linarith)
  have k2 : -(π / 2) ≤ rad d' := by rw [show -(π / 2) = rad (-90) by unfold rad; ring]; exact rad_mono (by linarith)
  refine ⟨abs_le.2 hφ, h1, cos_nonneg_of_neg_pi_div_two_le_of_le hm hm', h2, ?_, ?_⟩ <;>
    rw [abs_le] <;> constructor <;> linarith

theorem rad_abs (x : ℝ) : rad |x| = |rad x| := by
  unfold rad; rw [abs_mul, abs_of_pos (by positivity : 0 < π / 180)]

theorem of_rad_le {x y : ℝ} (h : rad x ≤ rad y) : x ≤ y := by
  unfold rad at h
  exact le_of_mul_le_mul_right h (by positivity)

/-- C84: without refraction, at every instant and place, the zenith angle is at least |latitude - declination| and at most
180 - |latitude + declination|, to within the slack of the algorithm (parallax, rounding), the former exactly for iqbal, soltrack and
psa with numexpr. -/
theorem C84_bounds {uc : UseCase} {w : World XR} {times : Times} {latitude longitude : Coord XR}
    {alg eng : String} {refr : PyVal} {s : Sunpos XR} {e : Dim → Nat} {t : Int} {φ l : ℝ}
    (h : call uc w times latitude longitude alg refr eng = .ok s) (hr : refr ≠ .pyTrue) (ha : At s times e t φ l) :
    ∃ z d : ℝ, s.zenithDeg.get e = .fin z ∧ s.decDeg.get e = .fin d ∧
      |φ - d| - ownSlack alg eng ≤ z ∧ z ≤ 180 - |φ + d| + ownSlack alg eng ∧
      (alg ≠ "nrel" → ¬ (alg = "psa" ∧ eng = "numpy") → |φ - d| ≤ z) := by
  obtain ⟨z, d, h1, h2, h3, h4⟩ := own_sun h hr ha
  obtain ⟨-, -, c1, c2, b1, b2⟩ := place_bounds h ha h2
  have lo := heightAt_mono (φ := rad φ) (δ := rad d) (x := 0) (y := hourAngle0 alg t + rad l) c1 c2.le (by rw [cos_zero]; exact cos_le_one _)
  have hi := heightAt_mono (φ := rad φ) (δ := rad d) (x := hourAngle0 alg t + rad l) (y := π) c1 c2.le (by rw [cos_pi]; exact neg_one_le_cos _)
  rw [heightAt_noon b1, ← rad_sub, ← rad_abs] at lo
  rw [heightAt_midnight b2, ← rad_add, ← rad_abs, ← rad180, ← rad_sub] at hi
  have h3 := abs_le.1 h3
  refine ⟨z, d, h1, h2, ?_, ?_, fun g1 g2 => of_rad_le (lo.trans (h4 g1 g2))⟩
  · apply of_rad_le; rw [rad_sub]; linarith [h3.1]
  · apply of_rad_le; rw [rad_add]; linarith [h3.2]

/-- the hour angle of a true solar time, counted from some noon -/
theorem tst_from_noon (τ n : Int) :
    ∃ k : ℤ, tstAngle τ = rad (15 * (((τ : ℝ) - (n + 1 / 2) * 86400e9) / 3600e9)) + k * (2 * π) := by
  refine ⟨n, ?_⟩
  unfold tstAngle rad
  norm_num
  ring

/-- the returned zenith angle against that of a sun at the hour angle of the true solar time -/
theorem tst_sun {uc : UseCase} {w w' : World XR} {times : Times} {latitude longitude : Coord XR}
    {alg eng : String} {refr : PyVal} {s : Sunpos XR} {e : Dim → Nat} {t τ : Int} {φ l : ℝ}
    (h : call uc w times latitude longitude alg refr eng = .ok s) (hr : refr ≠ .pyTrue) (ha : At s times e t φ l)
    (hutc : stampAt s.timesUtc (e .time) = some t) (hτ : (s.trueSolarTime w').get e = some τ) (n : Int) :
    ∃ z d : ℝ, s.zenithDeg.get e = .fin z ∧ s.decDeg.get e = .fin d ∧
      |rad z - heightAt (rad φ) (rad d) (rad (15 * (((τ : ℝ) - (n + 1 / 2) * 86400e9) / 3600e9)))| ≤ rad (noonSlack alg eng) := by
  obtain ⟨z, d, h1, h2, h3, -⟩ := own_sun h hr ha
  obtain ⟨ε, k, hε, hk⟩ := hour_tst h ha hutc hτ
  obtain ⟨k', hk'⟩ := tst_from_noon τ n
  refine ⟨z, d, h1, h2, ?_⟩
  obtain ⟨x, hx⟩ : ∃ x, x = rad (15 * (((τ : ℝ) - (n + 1 / 2) * 86400e9) / 3600e9)) := ⟨_, rfl⟩
  rw [← hx] at hk' ⊢
  have hper : heightAt (rad φ) (rad d) (hourAngle0 alg t + rad l) = heightAt (rad φ) (rad d) (x + ε) := by
    unfold heightAt
    rw [hk, hk', show x + k' * (2 * π) + ε + k * (2 * π) = x + ε + ((k' + k : ℤ) : ℝ) * (2 * π) by push_cast; ring,
      cos_add_int_mul_two_pi]
  rw [hper] at h3
  have hl := heightAt_lipschitz (rad φ) (rad d) (x + ε) x
  rw [add_sub_cancel_left] at hl
  have hs : rad (ownSlack alg eng) + tstError alg ≤ rad (noonSlack alg eng) := by
    unfold noonSlack
    rw [rad_add]
    have hp := pi_gt_d4
    have small : ∀ {x c : ℝ}, x * 180 ≤ c * 3.1415 → 0 ≤ c → x ≤ rad c := by
      intro x c hx hc
      unfold rad
      have : c * 3.1415 ≤ c * π := mul_le_mul_of_nonneg_left (by norm_num at hp ⊢; linarith) hc
      rw [mul_div_assoc', le_div_iff₀ (by norm_num)]
      linarith
    have : tstError alg ≤ rad (if alg = "psa" then 0.0253 else if alg = "iqbal" then 0.0042 else 0.0069) := by
      unfold tstError
      split_ifs <;> apply small <;> norm_num
    linarith
  have hl := abs_le.1 (hl.trans hε)
  have h3 := abs_le.1 h3
  rw [abs_le]
  constructor <;> linarith [h3.1, h3.2, hl.1, hl.2]

/-- C84: without refraction, where times_utc is the instant asked for: if true solar time is `v` hours from noon, the zenith angle is
|latitude - declination| to within 15 `v` degrees plus the slack; if it is `v` hours from midnight, it is 180 - |latitude + declination|
to within the same. -/
theorem C84_noon {uc : UseCase} {w w' : World XR} {times : Times} {latitude longitude : Coord XR}
    {alg eng : String} {refr : PyVal} {s : Sunpos XR} {e : Dim → Nat} {t τ : Int} {φ l : ℝ}
    (h : call uc w times latitude longitude alg refr eng = .ok s) (hr : refr ≠ .pyTrue) (ha : At s times e t φ l)
    (hutc : stampAt s.timesUtc (e .time) = some t) (hτ : (s.trueSolarTime w').get e = some τ) :
    ∃ z d : ℝ, s.zenithDeg.get e = .fin z ∧ s.decDeg.get e = .fin d ∧
      (∀ (day : Int) (v : ℝ), |(τ : ℝ) - (day + 1 / 2) * 86400e9| ≤ v * 3600e9 → abs (z - |φ - d|) ≤ 15 * v + noonSlack alg eng) ∧
      (∀ (day : Int) (v : ℝ), |(τ : ℝ) - day * 86400e9| ≤ v * 3600e9 → |z - (180 - |φ + d|)| ≤ 15 * v + noonSlack alg eng) := by
  obtain ⟨z, d, h1, h2, -⟩ := own_sun h hr ha
  obtain ⟨-, -, c1, c2, b1, b2⟩ := place_bounds h ha h2
  have key : ∀ (day : Int), |rad z - heightAt (rad φ) (rad d) (rad (15 * (((τ : ℝ) - (day + 1 / 2) * 86400e9) / 3600e9)))|
      ≤ rad (noonSlack alg eng) := by
    intro day
    obtain ⟨z', d', h1', h2', h3⟩ := tst_sun h hr ha hutc hτ day
    obtain rfl : z' = z := XR.fin_inj.1 (h1'.symm.trans h1)
    obtain rfl : d' = d := XR.fin_inj.1 (h2'.symm.trans h2)
    exact h3
  have conv : ∀ {x y : ℝ}, |rad x| ≤ rad y → |x| ≤ y := by
    intro x y hxy; rw [← rad_abs] at hxy; exact of_rad_le hxy
  refine ⟨z, d, h1, h2, ?_, ?_⟩
  · intro day v hv
    have k := key day
    have hl := heightAt_lipschitz (rad φ) (rad d) (rad (15 * (((τ : ℝ) - (day + 1 / 2) * 86400e9) / 3600e9))) 0
    rw [heightAt_noon b1, sub_zero, ← rad_abs, ← rad_sub, ← rad_abs] at hl
    have hv' : |15 * (((τ : ℝ) - (day + 1 / 2) * 86400e9) / 3600e9)| ≤ 15 * v := by
      rw [abs_mul, abs_div, abs_of_pos (by norm_num : (0 : ℝ) < 15), abs_of_pos (by norm_num : (0 : ℝ) < 3600e9)]
      refine mul_le_mul_of_nonneg_left ?_ (by norm_num)
      rw [div_le_iff₀ (by norm_num)]; exact hv
    have hl := hl.trans (rad_mono hv')
    apply conv
    rw [rad_sub, rad_add]
    rw [abs_le] at *
    constructor <;> linarith [k.1, k.2, hl.1, hl.2]
  · intro day v hv
    have k := key day
    have hl := heightAt_lipschitz (rad φ) (rad d) (rad (15 * (((τ : ℝ) - (day + 1 / 2) * 86400e9) / 3600e9))) (-π)
    have hm : heightAt (rad φ) (rad d) (-π) = π - |rad φ + rad d| := by
      rw [← heightAt_midnight b2]; unfold heightAt; rw [cos_neg]
    rw [hm] at hl
    have hv' : |rad (15 * (((τ : ℝ) - (day + 1 / 2) * 86400e9) / 3600e9)) - -π| ≤ rad (15 * v) := by
      have e : rad (15 * (((τ : ℝ) - (day + 1 / 2) * 86400e9) / 3600e9)) - -π = rad (15 * (((τ : ℝ) - day * 86400e9) / 3600e9)) := by
        unfold rad; norm_num; ring
      rw [e, ← rad_abs]
      apply rad_mono
      rw [abs_mul, abs_div, abs_of_pos (by norm_num : (0 : ℝ) < 15), abs_of_pos (by norm_num : (0 : ℝ) < 3600e9)]
      refine mul_le_mul_of_nonneg_left ?_ (by norm_num)
      rw [div_le_iff₀ (by norm_num)]; exact hv
    have hl := hl.trans hv'
    apply conv
    rw [rad_sub, rad_sub, rad_abs, rad_add, rad_add, rad180]
    rw [abs_le] at *
    constructor <;> linarith [k.1, k.2, hl.1, hl.2]

/-- C84: without refraction, of two cells of any two calls (any use cases, algorithms, engines, instants and places) the sun is higher where
true solar time is nearer to a noon, up to the differences of the declinations and of the latitudes, and the slacks. -/
theorem C84_nearer_noon {uc1 uc2 : UseCase} {w1 w2 w1' w2' : World XR} {times1 times2 : Times} {lat1 lon1 lat2 lon2 : Coord XR}
    {alg1 eng1 alg2 eng2 : String} {refr1 refr2 : PyVal} {s1 s2 : Sunpos XR} {e1 e2 : Dim → Nat} {t1 t2 τ1 τ2 : Int} {φ1 φ2 l1 l2 v1 v2 : ℝ}
    (h1 : call uc1 w1 times1 lat1 lon1 alg1 refr1 eng1 = .ok s1) (hr1 : refr1 ≠ .pyTrue) (ha1 : At s1 times1 e1 t1 φ1 l1)
    (h2 : call uc2 w2 times2 lat2 lon2 alg2 refr2 eng2 = .ok s2) (hr2 : refr2 ≠ .pyTrue) (ha2 : At s2 times2 e2 t2 φ2 l2)
    (hutc1 : stampAt s1.timesUtc (e1 .time) = some t1) (hutc2 : stampAt s2.timesUtc (e2 .time) = some t2)
    (hτ1 : (s1.trueSolarTime w1').get e1 = some τ1) (hτ2 : (s2.trueSolarTime w2').get e2 = some τ2)
    {n1 n2 : Int} (hv1 : |(τ1 : ℝ) - (n1 + 1 / 2) * 86400e9| = v1 * 3600e9) (hv2 : |(τ2 : ℝ) - (n2 + 1 / 2) * 86400e9| = v2 * 3600e9)
    (hle : v1 ≤ v2) (h12 : v2 ≤ 12) :
    ∃ z1 z2 d1 d2 : ℝ, s1.zenithDeg.get e1 = .fin z1 ∧ s2.zenithDeg.get e2 = .fin z2 ∧
      s1.decDeg.get e1 = .fin d1 ∧ s2.decDeg.get e2 = .fin d2 ∧
      z1 ≤ z2 + |d1 - d2| + |φ1 - φ2| + (noonSlack alg1 eng1 + noonSlack alg2 eng2) := by
  obtain ⟨z1, d1, g1, g2, g3⟩ := tst_sun h1 hr1 ha1 hutc1 hτ1 n1
  obtain ⟨z2, d2, k1, k2, k3⟩ := tst_sun h2 hr2 ha2 hutc2 hτ2 n2
  obtain ⟨f1, i1, c1, c2, -, -⟩ := place_bounds h1 ha1 g2
  obtain ⟨f2, i2, -, -, -, -⟩ := place_bounds h2 ha2 k2
  have habs : ∀ {τ n : Int} {v : ℝ}, |(τ : ℝ) - (n + 1 / 2) * 86400e9| = v * 3600e9 →
      cos (rad (15 * (((τ : ℝ) - (n + 1 / 2) * 86400e9) / 3600e9))) = cos (rad (15 * v)) := by
    intro τ n v hv
    rw [← cos_abs, ← rad_abs, abs_mul, abs_div, hv, abs_of_pos (by norm_num : (0 : ℝ) < 15), abs_of_pos (by norm_num : (0 : ℝ) < 3600e9)]
    congr 2
    norm_num
  have hv0 : 0 ≤ v1 := by
    have := abs_nonneg ((τ1 : ℝ) - (n1 + 1 / 2) * 86400e9)
    rw [hv1] at this
    norm_num at this
    linarith
  have hm := heightAt_mono (φ := rad φ1) (δ := rad d1) (x := rad (15 * (((τ1 : ℝ) - (n1 + 1 / 2) * 86400e9) / 3600e9)))
    (y := rad (15 * (((τ2 : ℝ) - (n2 + 1 / 2) * 86400e9) / 3600e9))) c1 c2.le (by
      rw [habs hv1, habs hv2]
      apply cos_le_cos_of_nonneg_of_le_pi
      · unfold rad; positivity
      · rw [← rad180]; exact rad_mono (by linarith)
      · exact rad_mono (by linarith))
  have le180 : ∀ {x y : ℝ}, |x| ≤ 90 → |y| ≤ 90 → |rad x - rad y| ≤ π := by
    intro x y hx hy
    rw [← rad_sub, ← rad_abs, ← rad180]
    apply rad_mono
    have hx := abs_le.1 hx
    have hy := abs_le.1 hy
    rw [abs_le]; constructor <;> linarith [hx.1, hx.2, hy.1, hy.2]
  have m1 := heightAt_declination (rad φ1) (rad (15 * (((τ2 : ℝ) - (n2 + 1 / 2) * 86400e9) / 3600e9)))
    (le180 (x := d1) (y := d2) (by norm_num at i1; linarith) (by norm_num at i2; linarith))
  have m2 := heightAt_declination (rad d2) (rad (15 * (((τ2 : ℝ) - (n2 + 1 / 2) * 86400e9) / 3600e9))) (le180 f1 f2)
  rw [heightAt_comm (rad d2), heightAt_comm (rad d2)] at m2
  refine ⟨z1, z2, d1, d2, g1, k1, g2, k2, of_rad_le ?_⟩
  rw [rad_add, rad_add, rad_add, rad_add, rad_abs, rad_abs, rad_sub, rad_sub]
  have g3 := abs_le.1 g3
  have k3 := abs_le.1 k3
  have m1 := (abs_le.1 m1).2
  have m2 := (abs_le.1 m2).2
  linarith [g3.2, k3.1]

/-- C84: in particular, of two cells of one latitude and one instant (same algorithm and engine, any use cases and longitudes). -/
theorem C84_one_instant {uc1 uc2 : UseCase} {w1 w2 w1' w2' : World XR} {times1 times2 : Times} {lat1 lon1 lat2 lon2 : Coord XR}
    {alg eng : String} {refr1 refr2 : PyVal} {s1 s2 : Sunpos XR} {e1 e2 : Dim → Nat} {t τ1 τ2 : Int} {φ l1 l2 v1 v2 : ℝ}
    (h1 : call uc1 w1 times1 lat1 lon1 alg refr1 eng = .ok s1) (hr1 : refr1 ≠ .pyTrue) (ha1 : At s1 times1 e1 t φ l1)
    (h2 : call uc2 w2 times2 lat2 lon2 alg refr2 eng = .ok s2) (hr2 : refr2 ≠ .pyTrue) (ha2 : At s2 times2 e2 t φ l2)
    (hutc1 : stampAt s1.timesUtc (e1 .time) = some t) (hutc2 : stampAt s2.timesUtc (e2 .time) = some t)
    (hτ1 : (s1.trueSolarTime w1').get e1 = some τ1) (hτ2 : (s2.trueSolarTime w2').get e2 = some τ2)
    {n1 n2 : Int} (hv1 : |(τ1 : ℝ) - (n1 + 1 / 2) * 86400e9| = v1 * 3600e9) (hv2 : |(τ2 : ℝ) - (n2 + 1 / 2) * 86400e9| = v2 * 3600e9)
    (hle : v1 ≤ v2) (h12 : v2 ≤ 12) :
    ∃ z1 z2 : ℝ, s1.zenithDeg.get e1 = .fin z1 ∧ s2.zenithDeg.get e2 = .fin z2 ∧ z1 ≤ z2 + 2 * noonSlack alg eng := by
  obtain ⟨z1, z2, d1, d2, g1, k1, g2, k2, hz⟩ := C84_nearer_noon h1 hr1 ha1 h2 hr2 ha2 hutc1 hutc2 hτ1 hτ2 hv1 hv2 hle h12
  have hd : d1 = d2 := by
    have w1 : Within s1.ecf e1 := by
      obtain ⟨lat, lon, b, utc, hacc, -, hres⟩ := call_inv h1
      have := (cell_inv hres hacc.len ha1.within).1
      unfold Within; rw [hres.ecf_dims]; simpa using this
    have w2 : Within s2.ecf e2 := by
      obtain ⟨lat, lon, b, utc, hacc, -, hres⟩ := call_inv h2
      have := (cell_inv hres hacc.len ha2.within).1
      unfold Within; rw [hres.ecf_dims]; simpa using this
    have hsame : SameTimeAt s1 s2 e1 e2 := C07_time_only h1 h2 w1 w2 (ha1.time.trans ha2.time.symm)
    have hdec : s1.declination.get e1 = s2.declination.get e2 := by
      unfold SameTimeAt at hsame; exact hsame.2.2
    have : s1.decDeg.get e1 = s2.decDeg.get e2 := by
      show degrees (s1.declination.get e1) = degrees (s2.declination.get e2)
      rw [hdec]
    exact XR.fin_inj.1 (g2.symm.trans (this.trans k2))
  subst hd
  rw [sub_self, sub_self, abs_zero] at hz
  exact ⟨z1, z2, g1, k1, by linarith⟩

/-- C84 in floating point: in every accurate arithmetic, for suns at least 3.44 degrees from the vertical, the bounds of C84_bounds hold for the
zenith angle and the declination computed, rounding adding at most 0.0014 degrees over the sine of the zenith angle. -/
theorem C84_float {A : Arith} {uc : UseCase} {w : World (Rd A)} {times : Times} {latitude longitude : Coord (Rd A)}
    {alg eng : String} {refr : PyVal} {s : Sunpos (Rd A)} {e : Dim → Nat} {t : Int} {φ l : ℝ}
    (h : call uc w times latitude longitude alg refr eng = .ok s) (hr : refr ≠ .pyTrue)
    (ha : AtRd s times e t φ l) (hφ : -90 ≤ φ ∧ φ ≤ 90) (hl : -180 ≤ l ∧ l < 180)
    (hpole : alg = "nrel" → |φ| ≤ 90 - 1e-10) (hs : 0.06 ≤ placeFactor alg eng φ * sin (rad (sunZenith t φ l))) :
    ∃ z d : ℝ, s.zenithDeg.get e = Rd.fin z ∧ s.decDeg.get e = Rd.fin d ∧
      |φ - d| - ownSlack alg eng - 0.0014 / (placeFactor alg eng φ * sin (rad (sunZenith t φ l))) ≤ z ∧
      z ≤ 180 - |φ + d| + ownSlack alg eng + 0.0014 / (placeFactor alg eng φ * sin (rad (sunZenith t φ l))) := by
  obtain ⟨s', z, a, z', a', B, k, h', ha', hz, -, hz', -, z0, z1, hd, -⟩ := float_near h hr ha hφ hl hpole
    (by rw [sunZenith_cos]; simp only [sunVec, cos_neg]) hs
  obtain ⟨y, d', hy, hd', g1, g2, -⟩ := C84_bounds h' hr ha'
  obtain rfl : z' = y := XR.fin_inj.1 (hz'.symm.trans hy)
  obtain ⟨⟨d, d2, k1, k2, k3⟩, -, -⟩ := near_time (e := e) (e' := fun _ => 0) h h' ha.time ha'.time ha.range
  obtain rfl : d2 = d' := XR.fin_inj.1 (k2.symm.trans hd')
  refine ⟨z, d, hz, k1, ?_⟩
  obtain ⟨S, hS⟩ : ∃ S, S = placeFactor alg eng φ * sin (rad (sunZenith t φ l)) := ⟨_, rfl⟩
  rw [← hS] at hs hd ⊢
  have hS1 : S ≤ 1 := by
    have := placeFactor_le alg eng φ
    have := placeFactor_nonneg alg eng hφ
    have := sin_le_one (rad (sunZenith t φ l))
    rw [hS]; nlinarith
  have hS0 : 0 < S := by norm_num at hs; linarith
  have hq : 2 * 0.00066 / S + 4e-8 ≤ 0.0014 / S := by
    rw [div_add' _ _ _ hS0.ne', div_le_div_iff_of_pos_right hS0]
    norm_num; linarith
  have k4 : |φ - d| ≤ |φ - d2| + 4e-8 := by
    have := abs_sub_le φ d2 d
    rw [abs_sub_comm d2 d] at this
    linarith
  have k5 : |φ + d| ≤ |φ + d2| + 4e-8 := by
    have : |φ + d| ≤ |φ + d2| + |d - d2| := by
      rw [show φ + d = (φ + d2) + (d - d2) by ring]; exact abs_add_le _ _
    linarith
  have hd := abs_le.1 hd
  constructor <;> linarith [hd.1, hd.2]

/-! ### the hypotheses are met -/

/-- every instant, latitude and longitude meets the hypotheses of C84_bounds and C84_noon, for every use case, algorithm and engine -/
example (uc : UseCase) {alg eng : String} (hk : KnownPair alg eng) {t : Int} (ht : |t| < 2 ^ 63) {φ l : ℝ}
    (hφ : -90 ≤ φ ∧ φ ≤ 90) (hl : -180 ≤ l ∧ l < 180) :
    ∃ (s : Sunpos XR) (τ : Int),
      call uc exWorld (oneTime t) (.vec [.fin φ]) (.vec [.fin l]) alg .pyFalse eng = .ok s ∧
      At s (oneTime t) (fun _ => 0) t φ l ∧ stampAt s.timesUtc 0 = some t ∧
      (s.trueSolarTime exWorld).get (fun _ => 0) = some τ := by
  obtain ⟨s, h, ha⟩ := single_call uc hk .pyFalse ht hφ hl
  obtain ⟨hu, -⟩ := C12_naive h rfl
  have hutc : stampAt s.timesUtc ((fun _ => 0 : Dim → Nat) .time) = some t := by rw [hu]; exact ha.time
  obtain ⟨x, hx, -⟩ := C19_eot (e := fun _ => 0) h ha.time ha.range
  obtain ⟨τ, hτ, -⟩ := C30_tst (e := fun _ => 0) exWorld s hutc hx ha.lon
  exact ⟨s, τ, h, ha, hutc, hτ⟩

/-- at 1970-01-01 12:00 UTC the sun is higher at Greenwich's longitude than at 90 degrees east, up to the slack: the hypotheses of
C84_one_instant are met, by every algorithm, engine and latitude -/
example (uc1 uc2 : UseCase) {alg eng : String} (hk : KnownPair alg eng) {φ : ℝ} (hφ : -90 ≤ φ ∧ φ ≤ 90) :
    ∃ (s1 s2 : Sunpos XR) (z1 z2 : ℝ),
      call uc1 exWorld (oneTime 43200000000000) (.vec [.fin φ]) (.vec [.fin 0]) alg .pyFalse eng = .ok s1 ∧
      call uc2 exWorld (oneTime 43200000000000) (.vec [.fin φ]) (.vec [.fin 90]) alg .pyFalse eng = .ok s2 ∧
      s1.zenithDeg.get (fun _ => 0) = .fin z1 ∧ s2.zenithDeg.get (fun _ => 0) = .fin z2 ∧ z1 ≤ z2 + 2 * noonSlack alg eng := by
  have ht : |(43200000000000 : Int)| < 2 ^ 63 := by norm_num
  obtain ⟨s1, h1, ha1⟩ := single_call uc1 hk .pyFalse ht hφ (l := 0) (by norm_num)
  obtain ⟨s2, h2, ha2⟩ := single_call uc2 hk .pyFalse ht hφ (l := 90) (by norm_num)
  have u1 : stampAt s1.timesUtc ((fun _ => 0 : Dim → Nat) .time) = some 43200000000000 := by rw [(C12_naive h1 rfl).1]; exact ha1.time
  have u2 : stampAt s2.timesUtc ((fun _ => 0 : Dim → Nat) .time) = some 43200000000000 := by rw [(C12_naive h2 rfl).1]; exact ha2.time
  obtain ⟨x1, hx1, b1⟩ := C19_eot (e := fun _ => 0) h1 ha1.time ha1.range
  obtain ⟨x2, hx2, b2⟩ := C19_eot (e := fun _ => 0) h2 ha2.time ha2.range
  obtain ⟨τ1, hτ1, q1, -⟩ := C30_tst (e := fun _ => 0) exWorld s1 u1 hx1 ha1.lon
  obtain ⟨τ2, hτ2, q2, -⟩ := C30_tst (e := fun _ => 0) exWorld s2 u2 hx2 ha2.lon
  obtain ⟨z1, z2, g1, g2, g3⟩ := C84_one_instant (e1 := fun _ => 0) (e2 := fun _ => 0) h1 (by simp) ha1 h2 (by simp) ha2 u1 u2 hτ1 hτ2
    (n1 := 0) (n2 := 0) (v1 := |(τ1 : ℝ) - ((0 : Int) + 1 / 2) * 86400e9| / 3600e9)
    (v2 := |(τ2 : ℝ) - ((0 : Int) + 1 / 2) * 86400e9| / 3600e9) (by norm_num) (by norm_num)
    (by
      refine div_le_div_of_nonneg_right ?_ (by norm_num)
      have k2 := le_abs_self ((τ2 : ℝ) - ((0 : Int) + 1 / 2) * 86400e9)
      refine le_trans ?_ k2
      have q1 := abs_lt.1 q1
      have q2 := abs_lt.1 q2
      have b1 := abs_le.1 b1
      have b2 := abs_le.1 b2
      rw [abs_le]
      generalize (τ1 : ℝ) = y1 at *
      generalize (τ2 : ℝ) = y2 at *
      norm_num at q1 q2 b1 b2 ⊢
      constructor <;> linarith [q1.1, q1.2, q2.1, q2.2, b1.1, b1.2, b2.1, b2.2])
    (by
      rw [div_le_iff₀ (by norm_num), abs_le]
      have q2 := abs_lt.1 q2
      have b2 := abs_le.1 b2
      generalize (τ2 : ℝ) = y2 at *
      norm_num at q2 b2 ⊢
      constructor <;> linarith [q2.1, q2.2, b2.1, b2.2])
  exact ⟨s1, s2, z1, z2, h1, h2, g1, g2, g3⟩

/-- hypotheses of C84_float are met in binary64, by nrel, psa and iqbal, at every instant, at latitude 75 -/
example (uc : UseCase) {alg eng : String} (hk : KnownPair alg eng) (hns : alg ≠ "soltrack") {t : Int} (ht : |t| < 2 ^ 63) :
    ∃ (w : World (Rd Arith.binary64)) (s : Sunpos (Rd Arith.binary64)) (z d : ℝ),
      call uc w (oneTime t) (.vec [Rd.fin 75]) (.vec [Rd.fin 10]) alg .pyFalse eng = .ok s ∧
      s.zenithDeg.get (fun _ => 0) = Rd.fin z ∧ s.decDeg.get (fun _ => 0) = Rd.fin d ∧
      |75 - d| - ownSlack alg eng - 0.002 ≤ z ∧ z ≤ 180 - |75 + d| + ownSlack alg eng + 0.002 := by
  obtain ⟨w, s, h, ha⟩ := single_call_rd (A := Arith.binary64) uc hk .pyFalse binary64_90 binary64_180
    ht (φ := 75) (l := 10) (by norm_num) (by norm_num)
  obtain ⟨g1, g2, g3⟩ := sun_from_75 ht 10
  have e1 : placeFactor alg eng 75 = 1 := by simp [placeFactor, hns]
  obtain ⟨z, d, c1, c2, c3, c4⟩ := C84_float (e := fun _ => 0) h (by simp) ha (by norm_num) (by norm_num)
    (fun _ => by rw [abs_of_pos (by norm_num)]; norm_num) (by rw [e1, one_mul]; norm_num at g1 ⊢; linarith)
  rw [e1, one_mul] at c3 c4
  have b3 : 0.0014 / sin (rad (sunZenith t 75 10)) ≤ 0.002 := by
    rw [div_le_iff₀ (by linarith)]
    norm_num at g1 ⊢; linarith
  exact ⟨w, s, z, d, h, c1, c2, by linarith, by linarith⟩

end SW.Props
