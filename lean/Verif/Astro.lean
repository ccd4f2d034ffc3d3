/-
Real-analysis facts shared by the algorithms: orbit, right ascension, wrap-around of the equation of
time, direction of the sun, refraction.
-/
import Verif.Geo

namespace SW
open Real

/-! ### distance -/

/-- the distance formula of psa and soltrack with an eccentricity near 0.0167 -/
theorem orbit_bounds {e θ : ℝ} (h1 : 0.016 ≤ e) (h2 : e ≤ 0.0171) :
    0 < 1.0 + e * cos θ ∧
    0.982 ≤ 1.0000010178 * (1.0 - e ^ 2) / (1.0 + e * cos θ) ∧
    1.0000010178 * (1.0 - e ^ 2) / (1.0 + e * cos θ) ≤ 1.018 := by
  have hc := abs_cos_le_one θ
  rw [abs_le] at hc
  have h3 : e * cos θ ≤ 0.0171 := by nlinarith [hc.1, hc.2]
  have h4 : -0.0171 ≤ e * cos θ := by nlinarith [hc.1, hc.2]
  have hp : 0 < 1.0 + e * cos θ := by norm_num; linarith
  refine ⟨hp, ?_, ?_⟩
  · rw [le_div_iff₀ hp]; norm_num at *; nlinarith
  · rw [div_le_iff₀ hp]; norm_num at *; nlinarith

/-- from the distance to the eccentricity factor -/
theorem ecf_bounds {R : ℝ} (h1 : 0.982 ≤ R) (h2 : R ≤ 1.018) :
    0.96 ≤ 1 / R ^ 2 ∧ 1 / R ^ 2 ≤ 1.04 := by
  have hp : 0 < R ^ 2 := by norm_num at h1; positivity
  constructor
  · rw [le_div_iff₀ hp]; norm_num at *; nlinarith
  · rw [div_le_iff₀ hp]; norm_num at *; nlinarith

/-! ### right ascension -/

/-- right ascension minus ecliptic longitude: the reduction to the equator -/
theorem ra_near {c l : ℝ} (h1 : 0.91 ≤ c) (h2 : c ≤ 1) :
    ∃ η : ℝ, ∃ k : ℤ, |η| ≤ 0.0495 ∧ ratan2 (c * sin l) (cos l) = l + η + k * (2 * π) := by
  have hs := sin_sq_add_cos_sq l
  have hp : 0.91 ≤ cos l * cos l + c * sin l * sin l := by nlinarith [sq_nonneg (sin l), sq_nonneg (cos l)]
  have hp0 : 0 < cos l * cos l + c * sin l * sin l := by norm_num at *; linarith
  obtain ⟨k, hk⟩ := ratan2_near (c * sin l) (cos l) l hp0
  refine ⟨_, k, ?_, hk⟩
  refine (abs_arctan_le _).trans ?_
  rw [abs_div, abs_of_pos hp0, div_le_iff₀ hp0]
  have hq : |c * sin l * cos l - cos l * sin l| ≤ 0.045 := by
    rw [show c * sin l * cos l - cos l * sin l = -((1 - c) * (sin l * cos l)) by ring, abs_neg, abs_mul]
    have : |sin l * cos l| ≤ 1 / 2 := by
      rw [abs_le]; constructor <;> nlinarith [sq_nonneg (sin l - cos l), sq_nonneg (sin l + cos l)]
    rw [abs_of_nonneg (by linarith : (0:ℝ) ≤ 1 - c)]
    norm_num at *
    nlinarith [abs_nonneg (sin l * cos l)]
  norm_num at *
  linarith

/-! ### wrap-around of the equation of time -/

/-- repairing a value known up to one turn (minutes), psa order -/
theorem eot_wrap_gt_lt {x s : ℝ} {k : ℤ} (hs : |s| ≤ 20) (hx : x = s + 1440 * k)
    (hr : |x| ≤ 1460) :
    (if (if 20.0 < x then x - 1440.0 else x) < -20.0
      then (if 20.0 < x then x - 1440.0 else x) + 1440.0
      else (if 20.0 < x then x - 1440.0 else x)) = s := by
  rw [abs_le] at hs hr
  have hk : k = -1 ∨ k = 0 ∨ k = 1 := by
    have h1 : (k : ℝ) < 2 := by linarith
    have h2 : (-2 : ℝ) < k := by linarith
    have : k < 2 := by exact_mod_cast h1
    have : -2 < k := by exact_mod_cast h2
    omega
  norm_num
  rcases hk with rfl | rfl | rfl <;> push_cast at hx <;> split_ifs <;> linarith

/-- the same, soltrack and nrel order -/
theorem eot_wrap_lt_gt {x s : ℝ} {k : ℤ} (hs : |s| ≤ 20) (hx : x = s + 1440 * k)
    (hr : |x| ≤ 1460) :
    (if 20.0 < (if x < -20.0 then x + 1440 else x)
      then (if x < -20.0 then x + 1440 else x) - 1440
      else (if x < -20.0 then x + 1440 else x)) = s := by
  rw [abs_le] at hs hr
  have hk : k = -1 ∨ k = 0 ∨ k = 1 := by
    have h1 : (k : ℝ) < 2 := by linarith
    have h2 : (-2 : ℝ) < k := by linarith
    have : k < 2 := by exact_mod_cast h1
    have : -2 < k := by exact_mod_cast h2
    omega
  norm_num
  rcases hk with rfl | rfl | rfl <;> push_cast at hx <;> split_ifs <;> linarith

/-! ### direction of the sun -/

/-- A sun at hour angle `H` and declination `δ`, seen from latitude `φ`, is at zenith angle `zg` and
azimuth `az` (zero towards south, positive towards west): the components up, south and west of the
unit vector towards the sun are what they should be. -/
structure Dir (φ δ H zg az : ℝ) : Prop where
  zen_nonneg : 0 ≤ zg
  zen_le : zg ≤ π
  up : cos zg = sin φ * sin δ + cos φ * cos δ * cos H
  south : sin zg * cos az = sin φ * cos δ * cos H - cos φ * sin δ
  west : sin zg * sin az = cos δ * sin H

/-- the two horizontal components have the right length -/
theorem horiz_sq (φ δ H : ℝ) :
    (sin φ * cos δ * cos H - cos φ * sin δ) ^ 2 + (cos δ * sin H) ^ 2
      = 1 - (sin φ * sin δ + cos φ * cos δ * cos H) ^ 2 := by
  have e1 : sin H ^ 2 = 1 - cos H ^ 2 := by linarith [sin_sq_add_cos_sq H]
  have e2 : sin δ ^ 2 = 1 - cos δ ^ 2 := by linarith [sin_sq_add_cos_sq δ]
  have e3 : sin φ ^ 2 = 1 - cos φ ^ 2 := by linarith [sin_sq_add_cos_sq φ]
  ring_nf
  rw [e1, e2, e3]; ring

/-- an azimuth whose sine and cosine are those of the arctan2 of the west and south components,
scaled by `1 / cos δ`, gives the direction -/
theorem dir_of_atan2 {φ δ H az u v : ℝ} (hδ : 0 < cos δ)
    (hu : u = sin φ * cos H - tan δ * cos φ) (hv : v = sin H)
    (h1 : √(u ^ 2 + v ^ 2) * cos az = u) (h2 : √(u ^ 2 + v ^ 2) * sin az = v) :
    Dir φ δ H (arccos (sin φ * sin δ + cos φ * cos δ * cos H)) az := by
  have hb := abs_le.1 (sphere_le_one φ δ H)
  have hs : sin (arccos (sin φ * sin δ + cos φ * cos δ * cos H)) = cos δ * √(u ^ 2 + v ^ 2) := by
    rw [sin_arccos, ← horiz_sq]
    have e : (sin φ * cos δ * cos H - cos φ * sin δ) ^ 2 + (cos δ * sin H) ^ 2
        = cos δ ^ 2 * (u ^ 2 + v ^ 2) := by
      rw [hu, hv, tan_eq_sin_div_cos]; field_simp
    rw [e, sqrt_mul (by positivity), sqrt_sq hδ.le]
  refine ⟨arccos_nonneg _, arccos_le_pi _, cos_arccos hb.1 hb.2, ?_, ?_⟩
  · rw [hs, mul_assoc, h1, hu, tan_eq_sin_div_cos]; field_simp
  · rw [hs, mul_assoc, h2, hv]

theorem Dir.add_turns {φ δ H H' zg az : ℝ} (h : Dir φ δ H zg az) (k : ℤ)
    (e : H' = H + k * (2 * π)) : Dir φ δ H' zg az := by
  have hc : cos H' = cos H := by rw [e, cos_add_int_mul_two_pi]
  have hs : sin H' = sin H := by rw [e, sin_add_int_mul_two_pi]
  exact ⟨h.zen_nonneg, h.zen_le, by rw [hc]; exact h.up, by rw [hc]; exact h.south,
    by rw [hs]; exact h.west⟩

/-! ### azimuth wrap of psa and iqbal: `where(az < 0, az + pi, az - pi)` -/

theorem azwrap_mem {a : ℝ} (h1 : -π < a) (h2 : a ≤ π) :
    -π ≤ (if a < 0 then a + π else a - π) ∧ (if a < 0 then a + π else a - π) < π := by
  split_ifs <;> constructor <;> linarith

theorem azwrap_cos (a : ℝ) : cos (if a < 0 then a + π else a - π) = -cos a := by
  split_ifs
  · exact cos_add_pi a
  · exact cos_sub_pi a

theorem azwrap_sin (a : ℝ) : sin (if a < 0 then a + π else a - π) = -sin a := by
  split_ifs
  · exact sin_add_pi a
  · exact sin_sub_pi a

/-! ### parallax: `z + k sin z` -/

theorem parallax_mem {z k : ℝ} (h0 : 0 ≤ z) (h1 : z ≤ π) (hk : 0 ≤ k) (hk1 : k ≤ 1) :
    0 ≤ z + k * sin z ∧ z + k * sin z ≤ π ∧ z ≤ z + k * sin z ∧ z + k * sin z ≤ z + k := by
  have hs : 0 ≤ sin z := sin_nonneg_of_nonneg_of_le_pi h0 h1
  have hs1 : sin z ≤ 1 := sin_le_one z
  have hs2 : sin z ≤ π - z := by
    have := sin_le (x := π - z) (by linarith)
    rwa [sin_pi_sub] at this
  refine ⟨by positivity, by nlinarith, by nlinarith, by nlinarith⟩

/-! ### rounding to six decimals -/

theorem rint_bounds (x : ℝ) : |(rint x : ℝ) - x| ≤ 1 / 2 := by
  have h1 := Int.floor_le x
  have h2 := Int.lt_floor_add_one x
  unfold rint
  rw [abs_le]
  split_ifs <;> push_cast <;> constructor <;> linarith

theorem rint_mem {x : ℝ} {n : ℤ} (h : |x| ≤ n) : |(rint x : ℝ)| ≤ n := by
  have hb := abs_le.1 (rint_bounds x)
  rw [abs_le] at h
  have h1 : ((rint x : ℤ) : ℝ) < ((n + 1 : ℤ) : ℝ) := by push_cast; linarith [hb.2, h.2]
  have h2 : ((-(n + 1) : ℤ) : ℝ) < ((rint x : ℤ) : ℝ) := by push_cast; linarith [hb.1, h.1]
  have h3 : rint x < n + 1 := by exact_mod_cast h1
  have h4 : -(n + 1) < rint x := by exact_mod_cast h2
  rw [abs_le]
  constructor
  · exact_mod_cast (by omega : -n ≤ rint x)
  · exact_mod_cast (by omega : rint x ≤ n)

theorem rround6_near (x : ℝ) : |rround6 x - x| ≤ 5e-7 := by
  unfold rround6
  have h := rint_bounds (x * 1000000)
  rw [show (rint (x * 1000000) : ℝ) / 1000000 - x = ((rint (x * 1000000) : ℝ) - x * 1000000) / 1000000
    by ring, abs_div, abs_of_pos (by norm_num : (0:ℝ) < 1000000), div_le_iff₀ (by norm_num)]
  refine h.trans (by norm_num)

theorem rround6_mem {x : ℝ} (h : |x| ≤ 1) : |rround6 x| ≤ 1 := by
  unfold rround6
  have h1 : |x * 1000000| ≤ ((1000000 : ℤ) : ℝ) := by
    rw [abs_mul, abs_of_pos (by norm_num : (0:ℝ) < 1000000)]; push_cast; linarith
  have h2 := rint_mem h1
  rw [abs_div, abs_of_pos (by norm_num : (0:ℝ) < 1000000), div_le_iff₀ (by norm_num)]
  push_cast at h2; linarith

end SW
