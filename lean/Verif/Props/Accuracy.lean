/-
C54: declination, equation of time, eccentricity correction factor and position of the sun returned by
each algorithm, against the reference ephemeris of Verif/Ephem.lean.
-/
import Verif.Props.Incidence
import Verif.RAccuracy
import Verif.RDistance
import Verif.RIqbalNear

namespace SW.Props
open SW.Spec Real Sunpos
open SW.Ephem (century declination equationOfTime distance hourAngle)

/-! ### from the whole second to the instant -/

theorem century_toSec (t : Int) : |century t - (((toSec t : ℤ) : ℝ) / 86400 - 10957.5) / 36525| ≤ 3.2e-10 := by
  have hr : 0 ≤ t - toSec t * 1000000000 ∧ t - toSec t * 1000000000 ≤ 999999999 := by
    unfold toSec; omega
  obtain ⟨q, hq⟩ : ∃ q, q = toSec t := ⟨_, rfl⟩
  rw [← hq] at hr ⊢
  have h1 : (0 : ℝ) ≤ (t : ℝ) - q * 1000000000 := by exact_mod_cast hr.1
  have h2 : (t : ℝ) - q * 1000000000 ≤ 999999999 := by exact_mod_cast hr.2
  unfold Ephem.century
  rw [abs_le]
  norm_num
  constructor <;> linarith

theorem century_bound {t : Int} (h : |t| < 2 ^ 63) : |century t| ≤ 3.24 := by
  have h1 : |(t : ℝ)| < 2 ^ 63 := by exact_mod_cast h
  have h1 := abs_lt.1 h1
  unfold Ephem.century
  rw [abs_le]; norm_num at h1 ⊢
  constructor <;> linarith [h1.1, h1.2]

/-! ### C54: variables along time -/

/-- largest difference, degrees, of the declination -/
noncomputable def decError (alg : String) : ℝ :=
  if alg = "psa" then 0.0311 else if alg = "soltrack" then 0.007 else if alg = "nrel" then 0.019 else 1.06

/-- largest difference, minutes, of the equation of time -/
noncomputable def eotError (alg : String) : ℝ :=
  if alg = "psa" then 0.182 else if alg = "soltrack" then 0.0147 else if alg = "nrel" then 0.117 else 2.15

/-- largest difference of the eccentricity correction factor -/
noncomputable def ecfError (alg : String) : ℝ :=
  if alg = "nrel" then 4.2e-4 else if alg = "iqbal" then 0.0046 else 8.6e-6

theorem dec_rad {uc : UseCase} {w : World XR} {times : Times} {latitude longitude : Coord XR}
    {alg eng : String} {refr : PyVal} {s : Sunpos XR} {e : Dim → Nat} {t : Int}
    (h : call uc w times latitude longitude alg refr eng = .ok s)
    (hk : stampAt times.stamps (e .time) = some t) (hrange : |t| < 2 ^ 63) :
    ∃ d : ℝ, s.declination.get e = .fin d ∧ |d - declination (century t)| ≤
      (if alg = "psa" then 5.42e-4 else if alg = "soltrack" then 1.22e-4 else if alg = "nrel" then 3.3e-4 else 0.0185) := by
  obtain ⟨ht, o, -, -, h3, hc⟩ := time_cases h hk hrange
  have hT := century_toSec t
  rcases hc with ⟨rfl, rfl⟩ | ⟨rfl, rfl⟩ | ⟨rfl, rfl⟩ | ⟨rfl, rfl⟩
  · refine ⟨_, h3, ?_⟩
    simp only [String.reduceEq, if_true, if_false]
    exact Ephem.psa_dec ht hT
  · refine ⟨_, h3, ?_⟩
    simp only [String.reduceEq, if_true, if_false]
    exact Ephem.sol_dec ht hT
  · refine ⟨_, h3, ?_⟩
    simp only [String.reduceEq, if_false]
    exact Iqbal.dec_ref ht hT
  · refine ⟨_, h3, ?_⟩
    simp only [String.reduceEq, if_true, if_false]
    exact Ephem.nrel_dec ht hT

/-- C54: the declination of psa, soltrack, nrel and iqbal is that of the sun of the reference ephemeris, to
within 0.032, 0.007, 0.019 and 1.06 degrees, at every instant of `datetime64[ns]` (1677 to 2262). -/
theorem C54_declination {uc : UseCase} {w : World XR} {times : Times} {latitude longitude : Coord XR}
    {alg eng : String} {refr : PyVal} {s : Sunpos XR} {e : Dim → Nat} {t : Int}
    (h : call uc w times latitude longitude alg refr eng = .ok s)
    (hk : stampAt times.stamps (e .time) = some t) (hrange : |t| < 2 ^ 63) :
    ∃ d : ℝ, s.decDeg.get e = .fin d ∧ |rad d - declination (century t)| ≤ rad (decError alg) := by
  obtain ⟨d, h1, h2⟩ := dec_rad h hk hrange
  refine ⟨_, decDeg_fin h1, ?_⟩
  rw [rad_deg]
  refine h2.trans ?_
  unfold decError rad
  have p := pi_gt_d6
  by_cases h1 : alg = "psa"
  · rw [if_pos h1, if_pos h1]; norm_num at p ⊢; linarith
  · rw [if_neg h1, if_neg h1]
    by_cases h2 : alg = "soltrack"
    · rw [if_pos h2, if_pos h2]; norm_num at p ⊢; linarith
    · rw [if_neg h2, if_neg h2]
      by_cases h3 : alg = "nrel"
      · rw [if_pos h3, if_pos h3]; norm_num at p ⊢; linarith
      · rw [if_neg h3, if_neg h3]; norm_num at p ⊢; linarith

theorem eot_rad {uc : UseCase} {w : World XR} {times : Times} {latitude longitude : Coord XR}
    {alg eng : String} {refr : PyVal} {s : Sunpos XR} {e : Dim → Nat} {t : Int}
    (h : call uc w times latitude longitude alg refr eng = .ok s)
    (hk : stampAt times.stamps (e .time) = some t) (hrange : |t| < 2 ^ 63) :
    ∃ x : ℝ, s.eot.get e = .fin x ∧ ∃ k : ℤ, |x * (2 * π / 1440)
      - (Ephem.meanLongitude (century t) - Ephem.rightAscension (century t)) - k * (2 * π)| ≤
      (if alg = "psa" then 7.9e-4 else if alg = "soltrack" then 6.4e-5 else if alg = "nrel" then 5.1e-4 else 0.00935) := by
  obtain ⟨ht, o, -, h2, -, hc⟩ := time_cases h hk hrange
  have hT := century_toSec t
  rcases hc with ⟨rfl, rfl⟩ | ⟨rfl, rfl⟩ | ⟨rfl, rfl⟩ | ⟨rfl, rfl⟩
  · refine ⟨_, h2, ?_⟩
    simp only [String.reduceEq, if_true, if_false]
    exact Ephem.psa_eot ht hT
  · refine ⟨_, h2, ?_⟩
    simp only [String.reduceEq, if_true, if_false]
    exact Ephem.sol_eot ht hT
  · refine ⟨_, h2, ?_⟩
    simp only [String.reduceEq, if_false]
    exact Iqbal.eot_ref ht hT
  · refine ⟨_, h2, ?_⟩
    simp only [String.reduceEq, if_true, if_false]
    exact Ephem.nrel_eot ht hT

/-- C54: the equation of time of psa, soltrack, nrel and iqbal is that of the reference ephemeris (an angle,
hence up to whole turns of 1440 minutes), to within 11, 0.9, 7.1 and 129 seconds. -/
theorem C54_eot {uc : UseCase} {w : World XR} {times : Times} {latitude longitude : Coord XR}
    {alg eng : String} {refr : PyVal} {s : Sunpos XR} {e : Dim → Nat} {t : Int}
    (h : call uc w times latitude longitude alg refr eng = .ok s)
    (hk : stampAt times.stamps (e .time) = some t) (hrange : |t| < 2 ^ 63) :
    ∃ x : ℝ, s.eot.get e = .fin x ∧
      ∃ k : ℤ, |x - equationOfTime (century t) - 1440 * k| ≤ eotError alg := by
  obtain ⟨x, h1, k, h2⟩ := eot_rad h hk hrange
  refine ⟨x, h1, k, ?_⟩
  obtain ⟨y, hy⟩ : ∃ y, y = x * (2 * π / 1440)
    - (Ephem.meanLongitude (century t) - Ephem.rightAscension (century t)) - k * (2 * π) := ⟨_, rfl⟩
  rw [← hy] at h2
  have hp := pi_pos
  have e1 : x - equationOfTime (century t) - 1440 * k = y * (720 / π) := by
    rw [hy]; unfold Ephem.equationOfTime; field_simp; ring
  have p := pi_gt_d4
  rw [e1, abs_mul, abs_of_pos (by positivity : 0 < 720 / π), mul_div_assoc', div_le_iff₀ hp]
  unfold eotError
  by_cases h1 : alg = "psa"
  · rw [if_pos h1] at h2 ⊢; norm_num at p h2 ⊢; linarith
  · rw [if_neg h1] at h2 ⊢
    by_cases h3 : alg = "soltrack"
    · rw [if_pos h3] at h2 ⊢; norm_num at p h2 ⊢; linarith
    · rw [if_neg h3] at h2 ⊢
      by_cases h4 : alg = "nrel"
      · rw [if_pos h4] at h2 ⊢; norm_num at p h2 ⊢; linarith
      · rw [if_neg h4] at h2 ⊢; norm_num at p h2 ⊢; linarith

theorem nrel_mOf {t : ℤ} {T : ℝ} (hT : |T - ((t : ℝ) / 86400 - 10957.5) / 36525| ≤ 3.2e-10) :
    |Nrel.mOf (t : ℝ) - T / 10| ≤ 2.2e-9 := by
  have e : Nrel.mOf (t : ℝ) = ((t : ℝ) / 86400 + 2440587.5 + 67.0 / 86400 - 2451545) / 36525 / 10 := rfl
  have hT := abs_le.1 hT
  rw [e, abs_le]
  norm_num at hT ⊢
  constructor <;> linarith [hT.1, hT.2]

/-- C54: the eccentricity correction factor is the inverse square of the distance of the sun of the
reference ephemeris, to within 8.6e-6 (psa, soltrack) and 4.2e-4 (nrel, whose series includes the
perturbations by the moon and the planets), and 0.0046 (iqbal, a series in the day of the year). -/
theorem C54_ecf {uc : UseCase} {w : World XR} {times : Times} {latitude longitude : Coord XR}
    {alg eng : String} {refr : PyVal} {s : Sunpos XR} {e : Dim → Nat} {t : Int}
    (h : call uc w times latitude longitude alg refr eng = .ok s)
    (hk : stampAt times.stamps (e .time) = some t) (hrange : |t| < 2 ^ 63) :
    ∃ x : ℝ, s.ecf.get e = .fin x ∧ |x - 1 / distance (century t) ^ 2| ≤ ecfError alg := by
  obtain ⟨ht, o, h1, -, -, hc⟩ := time_cases h hk hrange
  have hT := century_toSec t
  have hT3 := century_bound hrange
  have hd := (Ephem.distance_bound hT3).1
  rcases hc with ⟨rfl, rfl⟩ | ⟨rfl, rfl⟩ | ⟨rfl, rfl⟩ | ⟨rfl, rfl⟩
  · refine ⟨_, h1, ?_⟩
    simp only [ecfError, String.reduceEq, if_false]
    have hj := Psa.jdc_bound ht
    obtain ⟨c, hc⟩ : ∃ c, c = Psa.jdc (Psa.jde (toSec t : ℝ)) := ⟨_, rfl⟩
    have hcmp := Ephem.psa_hT hT
    rw [← hc] at hj hcmp
    have hR := Ephem.inv_sq_cmp (r := 4e-6) ((by norm_num : (0.98 : ℝ) ≤ 0.982).trans (Psa.R_bound hj).1) hd
      (by rw [Ephem.psa_R_eq]; exact Ephem.soltrack_R hj hcmp)
    have e1 : (Psa.cellNe (toSec t) (0 : ℝ) 0 false).ecf = 1 / Psa.R c ^ 2 := by
      rw [hc, show (1 : ℝ) = 1.0 by norm_num]; rfl
    rw [e1]
    refine hR.trans (by norm_num)
  · refine ⟨_, h1, ?_⟩
    simp only [ecfError, String.reduceEq, if_false]
    have hj := Soltrack.tJC_bound ht
    obtain ⟨c, hc⟩ : ∃ c, c = Soltrack.tJC (Soltrack.tJD (toSec t : ℝ)) := ⟨_, rfl⟩
    have hcmp : |century t - c| ≤ 3.2e-10 := by
      rw [hc, show Soltrack.tJC (Soltrack.tJD (toSec t : ℝ)) = Psa.jdc (Psa.jde (toSec t : ℝ)) from rfl]
      exact Ephem.psa_hT hT
    rw [← hc] at hj
    have hR := Ephem.inv_sq_cmp (r := 4e-6) ((by norm_num : (0.98 : ℝ) ≤ 0.982).trans (Soltrack.R_bound hj).1) hd
      (Ephem.soltrack_R hj hcmp)
    have e1 : Soltrack.ecf (Soltrack.tJC (Soltrack.tJD (toSec t : ℝ))) = 1 / Soltrack.R c ^ 2 := by
      rw [hc]; rfl
    rw [e1]
    refine hR.trans (by norm_num)
  · refine ⟨_, h1, ?_⟩
    simp only [ecfError, String.reduceEq, if_true, if_false]
    exact Iqbal.ecf_ref ht hT
  · refine ⟨_, h1, ?_⟩
    simp only [ecfError, if_true]
    have hm := Nrel.mOf_bound ht
    have hem := nrel_mOf hT
    have hR := Ephem.inv_sq_cmp ((by norm_num : (0.98 : ℝ) ≤ 0.982).trans (Nrel.R_bound hm).1) hd
      (Nrel.R_distance hT3 hem hm)
    have e1 : (Nrel.cell (toSec t) (0 : ℝ) 0 false).ecf = 1 / Nrel.R (Nrel.mOf (toSec t : ℝ)) ^ 2 := rfl
    rw [e1]
    refine hR.trans (by norm_num)

/-! ### C54: position -/

theorem Close.symm {B : ℝ} {a b : Vec} (h : Close B a b) : Close B b a := by
  intro n hn; rw [abs_sub_comm]; exact h n hn

theorem close_dec (φ δ ω ε : ℝ) : Close |ε| (sunVec φ δ ω) (sunVec φ (δ + ε) ω) := by
  apply close_of_sq (abs_nonneg _)
  rw [sq_abs]
  have h := chord ε
  have e : cos ε = cos (δ + ε) * cos δ + sin (δ + ε) * sin δ := by
    rw [← cos_sub]; congr 1; ring
  have h1 := sin_sq_add_cos_sq φ
  have h2 := sin_sq_add_cos_sq ω
  have h3 := sin_sq_add_cos_sq δ
  have h4 := sin_sq_add_cos_sq (δ + ε)
  have : (Vec.sq ⟨(sunVec φ δ ω).up - (sunVec φ (δ + ε) ω).up, (sunVec φ δ ω).south - (sunVec φ (δ + ε) ω).south,
      (sunVec φ δ ω).east - (sunVec φ (δ + ε) ω).east⟩) = 2 - 2 * cos ε := by
    rw [e]
    simp only [Vec.sq, Vec.dot, sunVec]
    linear_combination ((sin δ - sin (δ + ε)) ^ 2 + cos ω ^ 2 * (cos δ - cos (δ + ε)) ^ 2) * h1
      + (cos δ - cos (δ + ε)) ^ 2 * h2 + h3 + h4
  rw [this]; exact h

/-- directions that are close make a small angle -/
theorem Close.angle {B : ℝ} {a b : Vec} (h : Close B a b) (ha : a.sq = 1) (hb : b.sq = 1) (hB : B ≤ 0.1) :
    arccos (a.dot b) ≤ 1.001 * B := by
  obtain ⟨d, hd⟩ : ∃ d : Vec, d = ⟨a.up - b.up, a.south - b.south, a.east - b.east⟩ := ⟨_, rfl⟩
  have hdot : ∀ n : Vec, n.dot a - n.dot b = n.dot d := by
    intro n; rw [hd]; simp only [Vec.dot]; ring
  have hdd : d.sq = 2 - 2 * a.dot b := by
    rw [hd]; simp only [Vec.sq, Vec.dot] at ha hb ⊢; linear_combination ha + hb
  have hd0 : 0 ≤ d.sq := by
    simp only [Vec.sq, Vec.dot]; nlinarith [mul_self_nonneg d.up, mul_self_nonneg d.south, mul_self_nonneg d.east]
  have hB0 : 0 ≤ B := by
    have := h a ha
    exact (abs_nonneg _).trans this
  have hle : d.sq ≤ B ^ 2 := by
    rcases hd0.lt_or_eq with hpos | hz
    · obtain ⟨r, hr⟩ : ∃ r, r = √d.sq := ⟨_, rfl⟩
      have hr0 : 0 < r := by rw [hr]; exact sqrt_pos.2 hpos
      have hr2 : r ^ 2 = d.sq := by rw [hr, sq_sqrt hd0]
      have hu : (⟨d.up / r, d.south / r, d.east / r⟩ : Vec).sq = 1 := by
        have : (⟨d.up / r, d.south / r, d.east / r⟩ : Vec).sq = d.sq / r ^ 2 := by
          simp only [Vec.sq, Vec.dot]; field_simp
        rw [this, hr2, div_self hpos.ne']
      have := h _ hu
      rw [hdot] at this
      have e : (⟨d.up / r, d.south / r, d.east / r⟩ : Vec).dot d = r := by
        have : (⟨d.up / r, d.south / r, d.east / r⟩ : Vec).dot d = d.sq / r := by
          simp only [Vec.sq, Vec.dot]; field_simp
        rw [this, ← hr2]; field_simp
      rw [e, abs_of_pos hr0] at this
      rw [← hr2]; exact pow_le_pow_left₀ hr0.le this 2
    · rw [← hz]; positivity
  have hx1 : |1.001 * B| ≤ 1 := by
    rw [abs_of_nonneg (by positivity)]; norm_num at hB ⊢; linarith
  have hc := (abs_le.1 (cos_bound hx1)).2
  rw [abs_of_nonneg (by positivity : 0 ≤ 1.001 * B)] at hc
  have hpi := pi_gt_d2
  have hmono : cos (1.001 * B) ≤ a.dot b := by
    have : B ^ 4 ≤ 0.01 * B ^ 2 := by
      have h2 : B ^ 2 ≤ 0.1 ^ 2 := pow_le_pow_left₀ hB0 hB 2
      have : B ^ 4 = B ^ 2 * B ^ 2 := by ring
      rw [this]; norm_num at h2 ⊢; nlinarith [sq_nonneg B]
    norm_num at hc this ⊢; nlinarith [sq_nonneg B]
  calc arccos (a.dot b) ≤ arccos (cos (1.001 * B)) := arccos_le_arccos hmono
    _ = 1.001 * B := arccos_cos (by positivity) (by norm_num at hB hpi ⊢; linarith)

/-- largest angle, degrees, between the returned position of the sun and that of the reference ephemeris -/
noncomputable def positionError (alg eng : String) : ℝ :=
  if alg = "soltrack" then 0.022 else if alg = "nrel" then 0.063
  else if alg = "iqbal" then 1.605 else if eng = "numexpr" then 0.107 else 0.199

/-- the hour angle against the reference -/
theorem hour_ref {uc : UseCase} {w : World XR} {times : Times} {latitude longitude : Coord XR}
    {alg eng : String} {refr : PyVal} {s : Sunpos XR} {e : Dim → Nat} {t : Int} {φ l : ℝ}
    (h : call uc w times latitude longitude alg refr eng = .ok s) (ha : At s times e t φ l) :
    ∃ k : ℤ, |hourAngle0 alg t - hourAngle (century t) - k * (2 * π)| ≤
      1.02e-4 + (if alg = "psa" then 7.9e-4 else if alg = "soltrack" then 6.4e-5 else if alg = "nrel" then 5.1e-4 else 0.00935)
        + (tstError alg - 7.28e-5) := by
  obtain ⟨x, D, k, hx, hD, hk⟩ := hour_eot h ha
  obtain ⟨x', hx', hE⟩ := eot_rad h ha.time ha.range
  obtain rfl : x' = x := XR.fin_inj.1 (hx'.symm.trans hx)
  obtain ⟨k', hk'⟩ := Ephem.hour_cmp (century_bound ha.range) (century_toSec t) hk hE
  exact ⟨k', hk'.trans (by linarith)⟩

/-- the chord between the returned direction and that of the reference -/
theorem position_close {uc : UseCase} {w : World XR} {times : Times} {latitude longitude : Coord XR}
    {alg eng : String} {refr : PyVal} {s : Sunpos XR} {e : Dim → Nat} {t : Int} {φ l : ℝ}
    (h : call uc w times latitude longitude alg refr eng = .ok s) (hr : refr ≠ .pyTrue)
    (ha : At s times e t φ l) :
    ∃ z a B : ℝ, s.zenithDeg.get e = .fin z ∧ s.azimuthDeg.get e = .fin a ∧ B ≤ 0.03 ∧
      1.001 * B ≤ rad (positionError alg eng) ∧ Close B (dirVec (rad z) (rad a))
        (sunVec (rad φ) (declination (century t)) (-(hourAngle (century t) + rad l))) := by
  obtain ⟨d0, hd1, hd2⟩ := dec_rad h ha.time ha.range
  obtain ⟨k, hk⟩ := hour_ref h ha
  obtain ⟨δ, hδ⟩ : ∃ δ, δ = declination (century t) := ⟨_, rfl⟩
  obtain ⟨H, hH⟩ : ∃ δ, δ = hourAngle (century t) := ⟨_, rfl⟩
  rw [← hδ] at hd2 ⊢
  rw [← hH] at hk ⊢
  have hdd := decDeg_fin hd1
  -- from the sun of the algorithm to that of the reference
  have hsun : ∀ {B C : ℝ}, |d0 - δ| ≤ B → |hourAngle0 alg t - H - k * (2 * π)| ≤ C →
      Close (B + C) (sunVec (rad φ) d0 (-(hourAngle0 alg t + rad l))) (sunVec (rad φ) δ (-(H + rad l))) := by
    intro B C hB hC
    have c1 := close_dec (rad φ) d0 (-(hourAngle0 alg t + rad l)) (δ - d0)
    rw [abs_sub_comm, add_sub_cancel] at c1
    have c2 := close_hour (rad φ) δ (-(hourAngle0 alg t + rad l)) (hourAngle0 alg t - H - k * (2 * π))
    have e : sunVec (rad φ) δ (-(hourAngle0 alg t + rad l) + (hourAngle0 alg t - H - k * (2 * π)))
        = sunVec (rad φ) δ (-(H + rad l)) := by
      have : -(hourAngle0 alg t + rad l) + (hourAngle0 alg t - H - k * (2 * π)) = -(H + rad l) + ((-k : ℤ) : ℝ) * (2 * π) := by
        push_cast; ring
      rw [this]; unfold sunVec; rw [cos_add_int_mul_two_pi, sin_add_int_mul_two_pi]
    rw [e] at c2
    exact (c1.mono hB).trans (c2.mono hC)
  have fin : ∀ {B p z a : ℝ}, Close B (dirVec (rad z) (rad a)) (sunVec (rad φ) δ (-(H + rad l))) → B ≤ 0.03 →
      1.001 * B ≤ rad p → ∃ B, B ≤ 0.03 ∧ 1.001 * B ≤ rad p ∧
      Close B (dirVec (rad z) (rad a)) (sunVec (rad φ) δ (-(H + rad l))) :=
    fun hc hB hp => ⟨_, hB, hp, hc⟩
  obtain ⟨-, -, -, hcases⟩ := at_cases h ha
  have hp := pi_gt_d4
  by_cases hn : alg = "nrel"
  · subst hn
    obtain ⟨z, a, d, ρ, σ, u, h1, h2, h3, h4, h5, h6, -, -, h7, h8, h9⟩ := topocentric0 h hr ha
    have hdr : rad d = d0 := by rw [h3, XR.fin_inj] at hdd; rw [hdd, rad_deg]
    rw [hdr] at h7 h8 h9
    suffices hs : ∃ B, B ≤ 0.03 ∧ 1.001 * B ≤ rad (positionError "nrel" eng) ∧ Close B (dirVec (rad z) (rad a))
        (sunVec (rad φ) δ (-(H + rad l))) from hs.elim fun B hs => ⟨z, a, B, h1, h2, hs⟩
    refine fin ((close_topo h4 h5 h6 h7 h8 h9).trans (hsun hd2 hk)) ?_ ?_ <;>
      simp only [tstError, positionError, String.reduceEq, if_true, if_false]
    · norm_num
    · unfold rad; norm_num at hp ⊢; linarith
  · have hcase : alg = "psa" ∨ alg = "soltrack" ∨ alg = "iqbal" := by
      rcases hcases with ⟨rfl, -⟩ | ⟨rfl, -⟩ | ⟨rfl, -⟩ | ⟨rfl, -⟩ | ⟨rfl, -⟩ <;> simp at *
    obtain ⟨z, a, d, zg, h1, h2, h3, h4, h5, h6, h7⟩ := direction0 hcase h hr ha
    have hdr : rad d = d0 := by rw [h3, XR.fin_inj] at hdd; rw [hdd, rad_deg]
    rw [hdr] at h4
    suffices hs : ∃ B, B ≤ 0.03 ∧ 1.001 * B ≤ rad (positionError alg eng) ∧ Close B (dirVec (rad z) (rad a))
        (sunVec (rad φ) δ (-(H + rad l))) from hs.elim fun B hs => ⟨z, a, B, h1, h2, hs⟩
    have c2 : ∀ B, |zg - rad z| ≤ B → Close B (dirVec (rad z) (rad a))
        (sunVec (rad φ) d0 (-(hourAngle0 alg t + rad l))) := by
      intro B hB
      rw [← dirVec_of_seenAt h4]
      exact ((close_zen zg (rad z) (rad a)).mono hB).symm
    have e3 : ∀ {x : ℝ}, x ≤ rad z ∧ rad z ≤ x + 4.3e-5 → |x - rad z| ≤ 4.3e-5 := by
      intro x hx; rw [abs_le]; constructor <;> norm_num at hx ⊢ <;> linarith [hx.1, hx.2]
    rcases hcases with ⟨rfl, rfl, -⟩ | ⟨rfl, rfl, -⟩ | ⟨rfl, -⟩ | ⟨rfl, -⟩ | ⟨rfl, -⟩
    · obtain ⟨c, hc1, hc2⟩ := h7 ⟨rfl, rfl⟩
      have hn := arccos_near h4.zen_nonneg h4.zen_le hc1
      have hb : |zg - rad z| ≤ 1.6e-3 + 4.3e-5 := by
        have a1 := abs_le.1 hn
        have a2 := abs_le.1 (e3 hc2)
        rw [abs_le]; constructor <;> linarith [a1.1, a1.2, a2.1, a2.2]
      refine fin ((c2 _ hb).trans (hsun hd2 hk)) ?_ ?_ <;>
        simp only [tstError, positionError, String.reduceEq, if_true, if_false]
      · norm_num
      · unfold rad; norm_num at hp ⊢; linarith
    · refine fin ((c2 _ (e3 (h6 (.inr ⟨rfl, rfl⟩)))).trans (hsun hd2 hk)) ?_ ?_ <;>
        simp only [tstError, positionError, String.reduceEq, if_true, if_false]
      · norm_num
      · unfold rad; norm_num at hp ⊢; linarith
    · refine fin ((c2 _ (e3 (h6 (.inl rfl)))).trans (hsun hd2 hk)) ?_ ?_ <;>
        simp only [tstError, positionError, String.reduceEq, if_true, if_false]
      · norm_num
      · unfold rad; norm_num at hp ⊢; linarith
    · have hz : |zg - rad z| ≤ 0 := by rw [h5 rfl, sub_self, abs_zero]
      refine fin ((c2 _ hz).trans (hsun hd2 hk)) ?_ ?_ <;>
        simp only [tstError, positionError, String.reduceEq, if_true, if_false]
      · norm_num
      · unfold rad; norm_num at hp ⊢; linarith
    · exact absurd rfl hn

/-- C54: without refraction, the angle between the returned direction of the sun and the direction of
the sun of the reference ephemeris is at most 0.022 degrees for soltrack, 0.063 for nrel, 0.107 for psa
with numexpr, 0.199 for psa with numpy (which rounds the cosine of the zenith angle) and 1.605 for iqbal, at every
instant of `datetime64[ns]` and every place. -/
theorem C54_position {uc : UseCase} {w : World XR} {times : Times} {latitude longitude : Coord XR}
    {alg eng : String} {refr : PyVal} {s : Sunpos XR} {e : Dim → Nat} {t : Int} {φ l : ℝ}
    (h : call uc w times latitude longitude alg refr eng = .ok s) (hr : refr ≠ .pyTrue)
    (ha : At s times e t φ l) :
    ∃ z a : ℝ, s.zenithDeg.get e = .fin z ∧ s.azimuthDeg.get e = .fin a ∧
      arccos ((dirVec (rad z) (rad a)).dot
        (sunVec (rad φ) (declination (century t)) (-(hourAngle (century t) + rad l)))) ≤ rad (positionError alg eng) := by
  obtain ⟨z, a, B, h1, h2, hB, hp, hc⟩ := position_close h hr ha
  exact ⟨z, a, h1, h2, (hc.angle (dirVec_sq _ _) (sunVec_sq _ _ _) (hB.trans (by norm_num))).trans hp⟩

/-- every algorithm, in every use case, at every instant, has a cell to which C54 applies -/
example (uc : UseCase) {alg eng : String} (hk : KnownPair alg eng) {t : Int} (ht : |t| < 2 ^ 63) :
    ∃ s : Sunpos XR, call uc exWorld (oneTime t) (.vec [.fin 40]) (.vec [.fin (-4.5)]) alg .pyFalse eng = .ok s ∧
      At s (oneTime t) (fun _ => 0) t 40 (-4.5) :=
  single_call uc hk .pyFalse ht (φ := 40) (l := -4.5) (by norm_num) (by norm_num)

/-! ## C63: the algorithms agree -/

/-- C63: two calls, of any use cases, algorithms and engines, that have a cell at the same instant and place
return, without refraction, directions whose angle is at most the sum of the errors of C54. -/
theorem C63_position {uc1 uc2 : UseCase} {w1 w2 : World XR} {times1 times2 : Times} {lat1 lon1 lat2 lon2 : Coord XR}
    {alg1 eng1 alg2 eng2 : String} {refr1 refr2 : PyVal} {s1 s2 : Sunpos XR} {e1 e2 : Dim → Nat} {t : Int} {φ l : ℝ}
    (h1 : call uc1 w1 times1 lat1 lon1 alg1 refr1 eng1 = .ok s1) (hr1 : refr1 ≠ .pyTrue)
    (h2 : call uc2 w2 times2 lat2 lon2 alg2 refr2 eng2 = .ok s2) (hr2 : refr2 ≠ .pyTrue)
    (ha1 : At s1 times1 e1 t φ l) (ha2 : At s2 times2 e2 t φ l) :
    ∃ z1 a1 z2 a2 : ℝ, s1.zenithDeg.get e1 = .fin z1 ∧ s1.azimuthDeg.get e1 = .fin a1 ∧
      s2.zenithDeg.get e2 = .fin z2 ∧ s2.azimuthDeg.get e2 = .fin a2 ∧
      arccos ((dirVec (rad z1) (rad a1)).dot (dirVec (rad z2) (rad a2)))
        ≤ rad (positionError alg1 eng1 + positionError alg2 eng2) := by
  obtain ⟨z1, a1, B1, hz1, hA1, hB1, hp1, hc1⟩ := position_close h1 hr1 ha1
  obtain ⟨z2, a2, B2, hz2, hA2, hB2, hp2, hc2⟩ := position_close h2 hr2 ha2
  refine ⟨z1, a1, z2, a2, hz1, hA1, hz2, hA2, ((hc1.trans hc2.symm).angle (dirVec_sq _ _) (dirVec_sq _ _) ?_).trans ?_⟩
  · norm_num at hB1 hB2 ⊢; linarith
  · have : rad (positionError alg1 eng1 + positionError alg2 eng2)
        = rad (positionError alg1 eng1) + rad (positionError alg2 eng2) := by unfold rad; ring
    rw [this]; linarith

/-- C63: the declinations of two such calls differ by at most the sum of their errors, in degrees. -/
theorem C63_declination {uc1 uc2 : UseCase} {w1 w2 : World XR} {times1 times2 : Times} {lat1 lon1 lat2 lon2 : Coord XR}
    {alg1 eng1 alg2 eng2 : String} {refr1 refr2 : PyVal} {s1 s2 : Sunpos XR} {e1 e2 : Dim → Nat} {t : Int}
    (h1 : call uc1 w1 times1 lat1 lon1 alg1 refr1 eng1 = .ok s1)
    (h2 : call uc2 w2 times2 lat2 lon2 alg2 refr2 eng2 = .ok s2)
    (hk1 : stampAt times1.stamps (e1 .time) = some t) (hk2 : stampAt times2.stamps (e2 .time) = some t)
    (hrange : |t| < 2 ^ 63) :
    ∃ d1 d2 : ℝ, s1.decDeg.get e1 = .fin d1 ∧ s2.decDeg.get e2 = .fin d2 ∧
      |d1 - d2| ≤ decError alg1 + decError alg2 := by
  obtain ⟨d1, g1, b1⟩ := C54_declination h1 hk1 hrange
  obtain ⟨d2, g2, b2⟩ := C54_declination h2 hk2 hrange
  refine ⟨d1, d2, g1, g2, ?_⟩
  have hp := pi_pos
  have hd : |rad d1 - rad d2| ≤ rad (decError alg1) + rad (decError alg2) := by
    rw [abs_le] at *; constructor <;> linarith [b1.1, b1.2, b2.1, b2.2]
  have e : ∀ x, rad x = x * (π / 180) := fun x => by unfold rad; ring
  simp only [e] at hd
  rw [← sub_mul, ← add_mul, abs_mul, abs_of_pos (by positivity : (0 : ℝ) < π / 180)] at hd
  exact le_of_mul_le_mul_right hd (by positivity)

/-- C63: their equations of time differ, up to whole days, by at most the sum of their errors, in minutes. -/
theorem C63_eot {uc1 uc2 : UseCase} {w1 w2 : World XR} {times1 times2 : Times} {lat1 lon1 lat2 lon2 : Coord XR}
    {alg1 eng1 alg2 eng2 : String} {refr1 refr2 : PyVal} {s1 s2 : Sunpos XR} {e1 e2 : Dim → Nat} {t : Int}
    (h1 : call uc1 w1 times1 lat1 lon1 alg1 refr1 eng1 = .ok s1)
    (h2 : call uc2 w2 times2 lat2 lon2 alg2 refr2 eng2 = .ok s2)
    (hk1 : stampAt times1.stamps (e1 .time) = some t) (hk2 : stampAt times2.stamps (e2 .time) = some t)
    (hrange : |t| < 2 ^ 63) :
    ∃ x1 x2 : ℝ, s1.eot.get e1 = .fin x1 ∧ s2.eot.get e2 = .fin x2 ∧
      ∃ k : ℤ, |x1 - x2 - 1440 * k| ≤ eotError alg1 + eotError alg2 := by
  obtain ⟨x1, g1, k1, b1⟩ := C54_eot h1 hk1 hrange
  obtain ⟨x2, g2, k2, b2⟩ := C54_eot h2 hk2 hrange
  refine ⟨x1, x2, g1, g2, k1 - k2, ?_⟩
  push_cast
  rw [abs_le] at *
  constructor <;> linarith [b1.1, b1.2, b2.1, b2.2]

/-- C63: their eccentricity correction factors differ by at most the sum of their errors. -/
theorem C63_ecf {uc1 uc2 : UseCase} {w1 w2 : World XR} {times1 times2 : Times} {lat1 lon1 lat2 lon2 : Coord XR}
    {alg1 eng1 alg2 eng2 : String} {refr1 refr2 : PyVal} {s1 s2 : Sunpos XR} {e1 e2 : Dim → Nat} {t : Int}
    (h1 : call uc1 w1 times1 lat1 lon1 alg1 refr1 eng1 = .ok s1)
    (h2 : call uc2 w2 times2 lat2 lon2 alg2 refr2 eng2 = .ok s2)
    (hk1 : stampAt times1.stamps (e1 .time) = some t) (hk2 : stampAt times2.stamps (e2 .time) = some t)
    (hrange : |t| < 2 ^ 63) :
    ∃ x1 x2 : ℝ, s1.ecf.get e1 = .fin x1 ∧ s2.ecf.get e2 = .fin x2 ∧
      |x1 - x2| ≤ ecfError alg1 + ecfError alg2 := by
  obtain ⟨x1, g1, b1⟩ := C54_ecf h1 hk1 hrange
  obtain ⟨x2, g2, b2⟩ := C54_ecf h2 hk2 hrange
  refine ⟨x1, x2, g1, g2, ?_⟩
  rw [abs_le] at *
  constructor <;> linarith [b1.1, b1.2, b2.1, b2.2]

/-- two calls of different use cases, algorithms and engines that meet C63 at every instant: the benchmark
of one algorithm against another -/
example {t : Int} (ht : |t| < 2 ^ 63) : ∃ s1 s2 : Sunpos XR,
    call .sites exWorld (oneTime t) (.vec [.fin 40]) (.vec [.fin (-4.5)]) "psa" .pyFalse "numpy" = .ok s1 ∧
    call .regularGrid exWorld (oneTime t) (.vec [.fin 40]) (.vec [.fin (-4.5)]) "nrel" .pyFalse "numexpr" = .ok s2 ∧
    At s1 (oneTime t) (fun _ => 0) t 40 (-4.5) ∧ At s2 (oneTime t) (fun _ => 0) t 40 (-4.5) := by
  obtain ⟨s1, h1, a1⟩ := single_call .sites (alg := "psa") (eng := "numpy") (by simp [KnownPair]) .pyFalse ht (φ := 40) (l := -4.5) (by norm_num) (by norm_num)
  obtain ⟨s2, h2, a2⟩ := single_call .regularGrid (alg := "nrel") (eng := "numexpr") (by simp [KnownPair]) .pyFalse ht (φ := 40) (l := -4.5) (by norm_num) (by norm_num)
  exact ⟨s1, s2, h1, h2, a1, a2⟩

end SW.Props
