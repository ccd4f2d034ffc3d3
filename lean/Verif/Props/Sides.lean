/-
C88: on which side of the east-west line the sun is: on the equator's side at noon outside the tropics and all day in winter, on the pole's side when it
rises and sets in summer.
-/
import Verif.Props.Seasons

namespace SW.Props
open SW SW.Spec SW.Ephem SW.Cal Real Seasons

/-! ### specification -/

/-- an azimuth (degrees, zero towards south, positive towards west) of the southern half of the sky -/
def InTheSouth (a : ℝ) : Prop := -90 < a ∧ a < 90
/-- an azimuth of the northern half of the sky -/
def InTheNorth (a : ℝ) : Prop := a < -90 ∨ 90 < a

namespace Sides

/-- the southward component of the returned direction, for an algorithm without refraction -/
theorem south_cos {uc : UseCase} {w : World XR} {times : Times} {latitude longitude : Coord XR}
    {alg eng : String} {refr : PyVal} {s : Sunpos XR} {e : Dim → Nat} {t : Int} {φ l : ℝ}
    (h : call uc w times latitude longitude alg refr eng = .ok s) (hr : refr ≠ .pyTrue) (ha : At s times e t φ l) :
    ∃ a d ρ κ : ℝ, s.azimuthDeg.get e = .fin a ∧ s.decDeg.get e = .fin d ∧ 0 ≤ ρ ∧ ρ ≤ 1.001 ∧ |κ| ≤ 9e-5 ∧
      ρ * cos (rad a) = sin (rad φ) * cos (rad d) * cos (hourAngle0 alg t + rad l) - cos (rad φ) * sin (rad d) - κ := by
  obtain ⟨-, -, -, halg⟩ := at_cases h ha
  by_cases hn : alg = "nrel"
  · subst hn
    obtain ⟨z, a, d, ρ, σ, u, h1, h2, h3, h4, h5, h6, -, -, h7, h8, h9⟩ := topocentric0 h hr ha
    obtain ⟨z', h1', hz0, hz1⟩ := C13_range h ha (.inr (.inr hr))
    obtain rfl : z' = z := XR.fin_inj.1 (h1'.symm.trans h1)
    have hsz : 0 ≤ sin (rad z') := sin_nonneg_of_nonneg_of_le_pi (by unfold rad; positivity) (by rw [← rad180]; exact rad_mono hz1)
    obtain ⟨κ, hκ⟩ : ∃ κ, κ = σ * (sin (rad φ) * cos u - cos (rad φ) * (0.99664719 * sin u)) := ⟨_, rfl⟩
    rw [← hκ] at h8
    have k1 : |sin (rad φ) * cos u - cos (rad φ) * (0.99664719 * sin u)| ≤ 2 := by
      have a1 := abs_sin_le_one (rad φ)
      have a2 := abs_cos_le_one u
      have a3 := abs_cos_le_one (rad φ)
      have a4 := abs_sin_le_one u
      have b1 : |sin (rad φ) * cos u| ≤ 1 := by rw [abs_mul]; exact mul_le_one₀ a1 (abs_nonneg _) a2
      have b2 : |cos (rad φ) * (0.99664719 * sin u)| ≤ 1 := by
        rw [abs_mul, abs_mul]
        refine mul_le_one₀ a3 (by positivity) ?_
        rw [abs_of_pos (by norm_num)]
        norm_num at a4 ⊢; linarith
      have := abs_sub (sin (rad φ) * cos u) (cos (rad φ) * (0.99664719 * sin u))
      linarith
    have k2 : |κ| ≤ 9e-5 := by
      rw [hκ, abs_mul, abs_of_nonneg h5]
      calc _ ≤ 4.4e-5 * 2 := mul_le_mul h6 k1 (abs_nonneg _) (by norm_num)
        _ ≤ _ := by norm_num
    refine ⟨a, d, ρ * sin (rad z'), κ, h2, h3, mul_nonneg h4.le hsz, ?_, k2, by rw [← h8]; ring⟩
    obtain ⟨S, hS⟩ : ∃ S, S = sin (rad φ) * cos (rad d) * cos (hourAngle0 "nrel" t + rad l) - cos (rad φ) * sin (rad d) := ⟨_, rfl⟩
    obtain ⟨W, hW⟩ : ∃ W, W = cos (rad d) * sin (hourAngle0 "nrel" t + rad l) := ⟨_, rfl⟩
    rw [← hS] at h8
    rw [← hW] at h9
    have hsq : S ^ 2 + W ^ 2 ≤ 1 := by
      have i1 := sin_sq_add_cos_sq (rad φ)
      have i2 := sin_sq_add_cos_sq (rad d)
      have i3 := sin_sq_add_cos_sq (hourAngle0 "nrel" t + rad l)
      have hU := sq_nonneg (sin (rad φ) * sin (rad d) + cos (rad φ) * cos (rad d) * cos (hourAngle0 "nrel" t + rad l))
      rw [hS, hW]
      generalize sin (rad φ) = x1 at *
      generalize cos (rad φ) = x2 at *
      generalize sin (rad d) = y1 at *
      generalize cos (rad d) = y2 at *
      generalize sin (hourAngle0 "nrel" t + rad l) = w1 at *
      generalize cos (hourAngle0 "nrel" t + rad l) = w2 at *
      have : (x1 * y2 * w2 - x2 * y1) ^ 2 + (y2 * w1) ^ 2 + (x1 * y1 + x2 * y2 * w2) ^ 2 = 1 := by
        linear_combination (y2 ^ 2 * w2 ^ 2 + y1 ^ 2) * i1 + i2 + y2 ^ 2 * i3
      linarith
    have i4 := sin_sq_add_cos_sq (rad a)
    have hR : (ρ * sin (rad z')) ^ 2 = (S - κ) ^ 2 + W ^ 2 := by
      rw [← h8, ← h9]; linear_combination (-(ρ * sin (rad z')) ^ 2) * i4
    have hS1 : |S| ≤ 1 := abs_le_one_iff_mul_self_le_one.2 (by nlinarith [sq_nonneg W])
    have hκ' := abs_le.1 k2
    have hS1 := abs_le.1 hS1
    have : (S - κ) ^ 2 + W ^ 2 ≤ 1.001 ^ 2 := by
      have : -(S * κ) ≤ 9e-5 := by
        have := abs_mul S κ
        have h1 : |S| * |κ| ≤ 1 * 9e-5 := mul_le_mul (abs_le.2 hS1) k2 (abs_nonneg _) (by norm_num)
        have := neg_le_abs (S * κ)
        linarith
      have h2 : κ ^ 2 ≤ 9e-5 ^ 2 := sq_le_sq' hκ'.1 hκ'.2
      norm_num at this h2 ⊢
      nlinarith
    rw [← hR] at this
    exact le_of_sq_le_sq this (by norm_num)
  · have hcase : alg = "psa" ∨ alg = "soltrack" ∨ alg = "iqbal" := by
      rcases halg with ⟨rfl, -⟩ | ⟨rfl, -⟩ | ⟨rfl, -⟩ | ⟨rfl, -⟩ | ⟨rfl, -⟩ <;> simp at hn ⊢
    obtain ⟨z, a, d, zg, h1, h2, h3, h4, -⟩ := direction0 hcase h hr ha
    exact ⟨a, d, sin zg, 0, h2, h3, sin_nonneg_of_nonneg_of_le_pi h4.zen_nonneg h4.zen_le, (sin_le_one _).trans (by norm_num), by norm_num,
      by rw [h4.south, sub_zero]⟩

/-- the law of cosines in the triangle pole, zenith, sun -/
theorem south_up (φ d H : ℝ) : cos φ * (sin φ * cos d * cos H - cos φ * sin d) = sin φ * (sin φ * sin d + cos φ * cos d * cos H) - sin d := by
  linear_combination (-sin d) * sin_sq_add_cos_sq φ

theorem in_the_south {a : ℝ} (h1 : -180 ≤ a) (h2 : a ≤ 180) (h : 0 < cos (rad a)) : InTheSouth a := by
  have key : ∀ x : ℝ, 90 ≤ x → x ≤ 180 → cos (rad x) ≤ 0 := fun x g1 g2 => by
    apply cos_nonpos_of_pi_div_two_le_of_le
    · unfold rad; nlinarith [pi_pos]
    · unfold rad; nlinarith [pi_pos]
  constructor
  · by_contra hc
    have := key (-a) (by linarith) (by linarith)
    rw [show rad (-a) = -rad a by unfold rad; ring, cos_neg] at this
    linarith
  · by_contra hc
    have := key a (by linarith) (by linarith)
    linarith

theorem in_the_north {a : ℝ} (h : cos (rad a) < 0) : InTheNorth a := by
  by_contra hc
  unfold InTheNorth at hc
  push Not at hc
  have : 0 ≤ cos (rad a) := by
    apply cos_nonneg_of_mem_Icc
    constructor <;> unfold rad <;> nlinarith [pi_pos, hc.1, hc.2]
  linarith

theorem azimuth_range {uc : UseCase} {w : World XR} {times : Times} {latitude longitude : Coord XR}
    {alg eng : String} {refr : PyVal} {s : Sunpos XR} {e : Dim → Nat} {t : Int} {φ l a : ℝ}
    (h : call uc w times latitude longitude alg refr eng = .ok s) (ha : At s times e t φ l) (hz : s.azimuthDeg.get e = .fin a) : -180 ≤ a ∧ a ≤ 180 := by
  obtain ⟨a', h1, h2⟩ := C14_range h ha
  obtain rfl : a' = a := XR.fin_inj.1 (h1.symm.trans hz)
  rcases h2 with ⟨-, h3, h4⟩ | ⟨-, h3, h4⟩ <;> constructor <;> linarith

/-- the direction returned without refraction, and the season -/
structure Bare (alg eng : String) (t : Int) (φ l z₀ a d ρ κ : ℝ) : Prop where
  range : -180 ≤ a ∧ a ≤ 180
  lat : -90 ≤ φ ∧ φ ≤ 90
  pos : 0 ≤ ρ
  le : ρ ≤ 1.001
  small : |κ| ≤ 9e-5
  south : ρ * cos (rad a) = sin (rad φ) * cos (rad d) * cos (hourAngle0 alg t + rad l) - cos (rad φ) * sin (rad d) - κ
  zen : |rad z₀ - heightAt (rad φ) (rad d) (hourAngle0 alg t + rad l)| ≤ rad (ownSlack alg eng)
  dec : |d| ≤ 24.5
  summer : NorthernSummer (codeDate (t / 86400000000000)) → 0.94 ≤ d
  winter : NorthernWinter (codeDate (t / 86400000000000)) → d ≤ -0.94

theorem bare_of {uc : UseCase} {w : World XR} {times : Times} {latitude longitude : Coord XR}
    {alg eng : String} {refr : PyVal} {s : Sunpos XR} {e : Dim → Nat} {t : Int} {φ l : ℝ}
    (h : call uc w times latitude longitude alg refr eng = .ok s) (hr : refr ≠ .pyTrue) (ha : At s times e t φ l) :
    ∃ z₀ a d ρ κ : ℝ, s.zenithDeg.get e = .fin z₀ ∧ s.azimuthDeg.get e = .fin a ∧ Bare alg eng t φ l z₀ a d ρ κ := by
  obtain ⟨a, d, ρ, κ, h1, h2, h3, h4, h5, h6⟩ := south_cos h hr ha
  obtain ⟨z, d', h7, h8, h9, -⟩ := own_sun h hr ha
  obtain ⟨d'', h10, g1, g2, -⟩ := C87_declination C36_gregorian h ha.time ha.range
  obtain rfl : d' = d := XR.fin_inj.1 (h8.symm.trans h2)
  obtain rfl : d'' = d' := XR.fin_inj.1 (h10.symm.trans h2)
  obtain ⟨-, hd, -⟩ := place_bounds h ha h2
  obtain ⟨-, hφ, -⟩ := at_cases h ha
  exact ⟨z, a, d'', ρ, κ, h7, h1, azimuth_range h ha h1, hφ, h3, h4, h5, h6, h9, hd, g1, g2⟩

/-- the same with refraction, which leaves the azimuth alone -/
theorem bare {uc : UseCase} {w : World XR} {times : Times} {latitude longitude : Coord XR}
    {alg eng : String} {refr : PyVal} {s : Sunpos XR} {e : Dim → Nat} {t : Int} {φ l z : ℝ}
    (h : call uc w times latitude longitude alg refr eng = .ok s) (ha : At s times e t φ l) (hz : s.zenithDeg.get e = .fin z) :
    ∃ z₀ a d ρ κ : ℝ, s.azimuthDeg.get e = .fin a ∧ Bare alg eng t φ l z₀ a d ρ κ ∧
      (refr ≠ .pyTrue → z₀ = z) ∧
      (refr = .pyTrue → (90 ≤ z → 90 ≤ z₀) ∧ (alg ≠ "soltrack" → z ≤ 90 → rad z₀ ≤ π / 2 + dipRad alg)) := by
  by_cases hr : refr = .pyTrue
  · subst hr
    obtain ⟨lat, lon, b, utc, hacc, -, -⟩ := call_inv h
    obtain ⟨-, hφ, hl, -⟩ := at_cases h ha
    obtain ⟨s₀, h₀, ha₀⟩ := single_call uc (known_iff.2 ⟨b, hacc.names⟩) .pyFalse ha.range hφ hl
    obtain ⟨z₀, a, d, ρ, κ, g1, g2, g3⟩ := bare_of (e := fun _ => 0) h₀ (by simp) ha₀
    obtain ⟨g4, -⟩ := C68_azimuth (e := fun _ => 0) h₀ h ha₀ ha
    obtain ⟨y, k1, k2, k3, k4, k5⟩ := refracted_side (e := fun _ => 0) h₀ (by simp) h ha₀ ha
    have hy : rad z₀ = y := by
      have := zenithDeg_fin k1
      rw [g1, XR.fin_inj] at this
      rw [this, rad_deg]
    have e90 : rad 90 = π / 2 := by unfold rad; ring
    refine ⟨z₀, a, d, ρ, κ, g4 ▸ g2, g3, by simp, fun _ => ⟨fun h90 => ?_, fun hs h90 => ?_⟩⟩
    · by_contra hc
      have : y < π / 2 := by rw [← hy, ← e90]; unfold rad; nlinarith [pi_pos]
      obtain ⟨x, x1, x2, -⟩ := k4 this
      have := zenithDeg_fin x1
      rw [hz, XR.fin_inj] at this
      have hx : rad z = x := by rw [this, rad_deg]
      have := rad_mono h90
      linarith
    · by_contra hc
      obtain ⟨x, x1, x2, -⟩ := k5 (by rw [← hy]; linarith) (fun g => absurd g hs)
      have := zenithDeg_fin x1
      rw [hz, XR.fin_inj] at this
      have hx : rad z = x := by rw [this, rad_deg]
      have := rad_mono h90
      linarith
  · obtain ⟨z₀, a, d, ρ, κ, g1, g2, g3⟩ := bare_of h hr ha
    exact ⟨z₀, a, d, ρ, κ, g2, g3, fun _ => XR.fin_inj.1 (g1.symm.trans hz), fun g => absurd g hr⟩

/-- the height in the law of cosines -/
theorem Bare.law {alg eng : String} {t : Int} {φ l z₀ a d ρ κ : ℝ} (b : Bare alg eng t φ l z₀ a d ρ κ) :
    cos (rad φ) * (ρ * cos (rad a)) = sin (rad φ) * cos (heightAt (rad φ) (rad d) (hourAngle0 alg t + rad l)) - sin (rad d) - cos (rad φ) * κ := by
  rw [b.south, heightAt_cos, mul_sub, south_up]

theorem sin_094 {x : ℝ} (h1 : 0.94 ≤ x) (h2 : x ≤ 24.5) : 0.0164 ≤ sin (rad x) := by
  have p1 := pi_gt_d6
  have p2 := pi_lt_d6
  have k1 : (0.016406 : ℝ) ≤ rad 0.94 := by unfold rad; norm_num at p1 ⊢; linarith
  have k2 : rad 0.94 ≤ 0.0165 := by unfold rad; norm_num at p2 ⊢; linarith
  have k3 := sin_gt_sub_cube (x := rad 0.94) (by linarith)
  have k4 : rad 0.94 ^ 3 ≤ 0.0165 ^ 3 := pow_le_pow_left₀ (by linarith) k2 3
  have k5 : sin (rad 0.94) ≤ sin (rad x) := by
    apply sin_le_sin_of_le_of_le_pi_div_two
    · unfold rad; nlinarith [pi_pos]
    · unfold rad; norm_num at h2; nlinarith [pi_pos]
    · exact rad_mono h1
  norm_num at k1 k3 k4 ⊢
  linarith

/-- with the sun up, when the declination is on the other side of the equator -/
theorem winter_side {alg eng : String} {t : Int} {φ l z₀ a d ρ κ : ℝ} (b : Bare alg eng t φ l z₀ a d ρ κ)
    (hz : rad z₀ + rad (ownSlack alg eng) ≤ π / 2 + 0.0137) :
    (0 ≤ φ → d ≤ -0.94 → 0.0025 ≤ cos (rad φ) * (ρ * cos (rad a))) ∧ (φ ≤ 0 → 0.94 ≤ d → cos (rad φ) * (ρ * cos (rad a)) ≤ -0.0025) := by
  obtain ⟨H, hH⟩ : ∃ H, H = heightAt (rad φ) (rad d) (hourAngle0 alg t + rad l) := ⟨_, rfl⟩
  have law := b.law
  have zen := abs_le.1 b.zen
  rw [← hH] at law zen
  have hH0 : 0 ≤ H := hH ▸ arccos_nonneg _
  have hc : -0.0137 ≤ cos H := by
    have h1 : H ≤ π / 2 + 0.0137 := by linarith [zen.1]
    have h2 : cos (π / 2 + 0.0137) ≤ cos H := cos_le_cos_of_nonneg_of_le_pi hH0 (by have := pi_gt_d6; norm_num at this ⊢; linarith) h1
    rw [show π / 2 + 0.0137 = 0.0137 + π / 2 by ring, cos_add_pi_div_two] at h2
    have := sin_le (show (0 : ℝ) ≤ 0.0137 by norm_num)
    linarith
  have s0 : 0 ≤ φ → 0 ≤ sin (rad φ) := fun h0 => sin_nonneg_of_nonneg_of_le_pi (by unfold rad; positivity)
    (by unfold rad; nlinarith [pi_pos, b.lat.2])
  have s1 : φ ≤ 0 → sin (rad φ) ≤ 0 := fun h0 => sin_nonpos_of_nonpos_of_neg_pi_le (by unfold rad; nlinarith [pi_pos])
    (by unfold rad; nlinarith [pi_pos, b.lat.1])
  have hk : |cos (rad φ) * κ| ≤ 9e-5 := by
    rw [abs_mul]
    calc _ ≤ 1 * 9e-5 := mul_le_mul (abs_cos_le_one _) b.small (abs_nonneg _) (by norm_num)
      _ = _ := by norm_num
  have hk := abs_le.1 hk
  have hd := abs_le.1 b.dec
  refine ⟨fun h0 hd' => ?_, fun h0 hd' => ?_⟩
  · have q := sin_094 (x := -d) (by linarith) (by linarith [hd.1])
    rw [show rad (-d) = -rad d by unfold rad; ring, sin_neg] at q
    have q2 : -0.0137 ≤ sin (rad φ) * cos H := by nlinarith [s0 h0, sin_le_one (rad φ)]
    rw [law]
    norm_num at q q2 hk ⊢; linarith [hk.2]
  · have q := sin_094 (x := d) hd' hd.2
    have q2 : sin (rad φ) * cos H ≤ 0.0137 := by nlinarith [s1 h0, neg_one_le_sin (rad φ)]
    rw [law]
    norm_num at q q2 hk ⊢; linarith [hk.1]

/-- near and below the horizon, when the declination is on the same side of the equator -/
theorem summer_side {alg eng : String} {t : Int} {φ l z₀ a d ρ κ : ℝ} (b : Bare alg eng t φ l z₀ a d ρ κ)
    (hz : rad 89.2 ≤ rad z₀) (hz1 : ownSlack alg eng ≤ 0.0945) :
    (0 ≤ φ → 0.94 ≤ d → cos (rad φ) * (ρ * cos (rad a)) ≤ -0.0006) ∧ (φ ≤ 0 → d ≤ -0.94 → 0.0006 ≤ cos (rad φ) * (ρ * cos (rad a))) := by
  obtain ⟨H, hH⟩ : ∃ H, H = heightAt (rad φ) (rad d) (hourAngle0 alg t + rad l) := ⟨_, rfl⟩
  have law := b.law
  have zen := abs_le.1 b.zen
  rw [← hH] at law zen
  have hHπ : H ≤ π := hH ▸ arccos_le_pi _
  have p2 := pi_lt_d6
  have hc : cos H ≤ 0.01565 := by
    have e1 : π / 2 - 0.01565 ≤ rad 89.2 - rad 0.0945 := by unfold rad; norm_num at p2 ⊢; linarith
    have h1 : π / 2 - 0.01565 ≤ H := by linarith [zen.2, rad_mono hz1]
    have h2 : cos H ≤ cos (π / 2 - 0.01565) := cos_le_cos_of_nonneg_of_le_pi (by have := pi_gt_d6; norm_num at this ⊢; linarith) hHπ h1
    rw [cos_pi_div_two_sub] at h2
    have := sin_le (show (0 : ℝ) ≤ 0.01565 by norm_num)
    linarith
  have s0 : 0 ≤ φ → 0 ≤ sin (rad φ) := fun h0 => sin_nonneg_of_nonneg_of_le_pi (by unfold rad; positivity)
    (by unfold rad; nlinarith [pi_pos, b.lat.2])
  have s1 : φ ≤ 0 → sin (rad φ) ≤ 0 := fun h0 => sin_nonpos_of_nonpos_of_neg_pi_le (by unfold rad; nlinarith [pi_pos])
    (by unfold rad; nlinarith [pi_pos, b.lat.1])
  have hk : |cos (rad φ) * κ| ≤ 9e-5 := by
    rw [abs_mul]
    calc _ ≤ 1 * 9e-5 := mul_le_mul (abs_cos_le_one _) b.small (abs_nonneg _) (by norm_num)
      _ = _ := by norm_num
  have hk := abs_le.1 hk
  have hd := abs_le.1 b.dec
  refine ⟨fun h0 hd' => ?_, fun h0 hd' => ?_⟩
  · have q := sin_094 (x := d) hd' hd.2
    have q2 : sin (rad φ) * cos H ≤ 0.01565 := by nlinarith [s0 h0, sin_le_one (rad φ)]
    rw [law]
    norm_num at q q2 hk ⊢; linarith [hk.1]
  · have q := sin_094 (x := -d) (by linarith) (by linarith [hd.1])
    rw [show rad (-d) = -rad d by unfold rad; ring, sin_neg] at q
    have q2 : -0.01565 ≤ sin (rad φ) * cos H := by nlinarith [s1 h0, neg_one_le_sin (rad φ)]
    rw [law]
    norm_num at q q2 hk ⊢; linarith [hk.2]

theorem Bare.cos_pos {alg eng : String} {t : Int} {φ l z₀ a d ρ κ : ℝ} (b : Bare alg eng t φ l z₀ a d ρ κ) : 0 ≤ cos (rad φ) * ρ :=
  mul_nonneg (cos_nonneg_of_mem_Icc ⟨by unfold rad; nlinarith [pi_pos, b.lat.1], by unfold rad; nlinarith [pi_pos, b.lat.2]⟩) b.pos

theorem Bare.to_south {alg eng : String} {t : Int} {φ l z₀ a d ρ κ : ℝ} (b : Bare alg eng t φ l z₀ a d ρ κ)
    (h : 0 < cos (rad φ) * (ρ * cos (rad a))) : InTheSouth a := by
  refine in_the_south b.range.1 b.range.2 ?_
  rw [← mul_assoc] at h
  exact pos_of_mul_pos_right h b.cos_pos

theorem Bare.to_north {alg eng : String} {t : Int} {φ l z₀ a d ρ κ : ℝ} (b : Bare alg eng t φ l z₀ a d ρ κ)
    (h : cos (rad φ) * (ρ * cos (rad a)) < 0) : InTheNorth a := by
  refine in_the_north ?_
  rw [← mul_assoc] at h
  by_contra hc
  have := mul_nonneg b.cos_pos (not_lt.1 hc)
  linarith

end Sides
open Sides

/-! ### theorems -/

/-- C88: in winter (of the hemisphere the place is in) the sun is on the equator's side of the sky all day: whenever it is above the horizon. Whatever
the algorithm and with and without refraction, soltrack with refraction excepted. -/
theorem C88_winter {date : Int → CivilDate} (g : IsGregorian date)
    {uc : UseCase} {w : World XR} {times : Times} {latitude longitude : Coord XR}
    {alg eng : String} {refr : PyVal} {s : Sunpos XR} {e : Dim → Nat} {t : Int} {φ l z : ℝ}
    (h : call uc w times latitude longitude alg refr eng = .ok s) (ha : At s times e t φ l)
    (hz : s.zenithDeg.get e = .fin z) (hday : z ≤ 90) (hsol : alg = "soltrack" → refr ≠ .pyTrue) :
    ∃ a : ℝ, s.azimuthDeg.get e = .fin a ∧
      (0 ≤ φ → NorthernWinter (date (t / 86400000000000)) → InTheSouth a) ∧
      (φ ≤ 0 → NorthernSummer (date (t / 86400000000000)) → InTheNorth a) := by
  rw [g.unique C36_gregorian]
  obtain ⟨z₀, a, d, ρ, κ, g1, b, g2, g3⟩ := bare h ha hz
  refine ⟨a, g1, ?_⟩
  have hs : rad z₀ + rad (ownSlack alg eng) ≤ π / 2 + 0.0137 := by
    have p2 := pi_lt_d6
    by_cases hr : refr = .pyTrue
    · have k1 := (g3 hr).2 (fun hs => hsol hs hr) hday
      by_cases hi : alg = "iqbal"
      · subst hi
        simp only [dipRad, if_true] at k1
        simp only [ownSlack, String.reduceEq, if_true, if_false]
        have : rad 0 = 0 := by unfold rad; ring
        norm_num at k1 this ⊢; linarith
      · simp only [dipRad, hi, if_false] at k1
        have k2 := rad_mono (ownSlack_le alg eng)
        have : rad 0.0945 ≤ 0.00165 := by unfold rad; norm_num at p2 ⊢; linarith
        norm_num at k1 k2 this ⊢; linarith
    · rw [g2 hr]
      have k1 := rad_mono hday
      have k2 := rad_mono (ownSlack_le alg eng)
      have e90 : rad 90 = π / 2 := by unfold rad; ring
      have : rad 0.0945 ≤ 0.00165 := by unfold rad; norm_num at p2 ⊢; linarith
      norm_num at k1 k2 this ⊢; linarith
  obtain ⟨q1, q2⟩ := winter_side b hs
  exact ⟨fun h0 hw => b.to_south (lt_of_lt_of_le (by norm_num) (q1 h0 (b.winter hw))),
    fun h0 hw => b.to_north (lt_of_le_of_lt (q2 h0 (b.summer hw)) (by norm_num))⟩

/-- C88: in summer the sun rises and sets on the pole's side of east and west: it is on that side whenever it is on or below the horizon, and already at
elevations below 0.8 degrees without refraction. -/
theorem C88_summer {date : Int → CivilDate} (g : IsGregorian date)
    {uc : UseCase} {w : World XR} {times : Times} {latitude longitude : Coord XR}
    {alg eng : String} {refr : PyVal} {s : Sunpos XR} {e : Dim → Nat} {t : Int} {φ l z : ℝ}
    (h : call uc w times latitude longitude alg refr eng = .ok s) (ha : At s times e t φ l)
    (hz : s.zenithDeg.get e = .fin z) (hlow : 90 ≤ z ∨ (refr ≠ .pyTrue ∧ 89.2 ≤ z)) :
    ∃ a : ℝ, s.azimuthDeg.get e = .fin a ∧
      (0 ≤ φ → NorthernSummer (date (t / 86400000000000)) → InTheNorth a) ∧
      (φ ≤ 0 → NorthernWinter (date (t / 86400000000000)) → InTheSouth a) := by
  rw [g.unique C36_gregorian]
  obtain ⟨z₀, a, d, ρ, κ, g1, b, g2, g3⟩ := bare h ha hz
  refine ⟨a, g1, ?_⟩
  have hs : (89.2 : ℝ) ≤ z₀ := by
    by_cases hr : refr = .pyTrue
    · have := (g3 hr).1 (hlow.resolve_right fun x => x.1 hr)
      norm_num; linarith
    · rw [g2 hr]
      rcases hlow with h1 | h1
      · norm_num; linarith
      · exact h1.2
  obtain ⟨q1, q2⟩ := summer_side b (rad_mono hs) (ownSlack_le alg eng)
  exact ⟨fun h0 hw => b.to_north (lt_of_le_of_lt (q1 h0 (b.summer hw)) (by norm_num)),
    fun h0 hw => b.to_south (lt_of_lt_of_le (by norm_num) (q2 h0 (b.winter hw)))⟩

/-- C88: outside the tropics (beyond 26 degrees) the sun is on the equator's side within half an hour of the noon of true_solar_time, all year round. -/
theorem C88_noon {uc : UseCase} {w w' : World XR} {times : Times} {latitude longitude : Coord XR}
    {alg eng : String} {refr : PyVal} {s : Sunpos XR} {e : Dim → Nat} {t τ : Int} {φ l : ℝ}
    (h : call uc w times latitude longitude alg refr eng = .ok s) (ha : At s times e t φ l)
    (hutc : stampAt s.timesUtc (e .time) = some t) (hτ : (s.trueSolarTime w').get e = some τ)
    {day : Int} (hnoon : |(τ : ℝ) - (day + 1 / 2) * 86400e9| ≤ 1800e9) :
    ∃ a : ℝ, s.azimuthDeg.get e = .fin a ∧ (26 ≤ φ → InTheSouth a) ∧ (φ ≤ -26 → InTheNorth a) := by
  obtain ⟨ε, k, hε, hk⟩ := hour_tst h ha hutc hτ
  obtain ⟨k', hk'⟩ := tst_from_noon τ day
  have hb : ∃ z₀ a d ρ κ : ℝ, s.azimuthDeg.get e = .fin a ∧ Bare alg eng t φ l z₀ a d ρ κ := by
    by_cases hr : refr = .pyTrue
    · subst hr
      obtain ⟨lat, lon, b, utc, hacc, -, -⟩ := call_inv h
      obtain ⟨-, hφ, hl, -⟩ := at_cases h ha
      obtain ⟨s₀, h₀, ha₀⟩ := single_call uc (known_iff.2 ⟨b, hacc.names⟩) .pyFalse ha.range hφ hl
      obtain ⟨z₀, a, d, ρ, κ, g1, g2, g3⟩ := bare_of (e := fun _ => 0) h₀ (by simp) ha₀
      obtain ⟨g4, -⟩ := C68_azimuth (e := fun _ => 0) h₀ h ha₀ ha
      exact ⟨z₀, a, d, ρ, κ, g4 ▸ g2, g3⟩
    · obtain ⟨z₀, a, d, ρ, κ, -, g2, g3⟩ := bare_of h hr ha
      exact ⟨z₀, a, d, ρ, κ, g2, g3⟩
  obtain ⟨z₀, a, d, ρ, κ, g1, b⟩ := hb
  refine ⟨a, g1, ?_⟩
  obtain ⟨x, hx⟩ : ∃ x, x = rad (15 * (((τ : ℝ) - (day + 1 / 2) * 86400e9) / 3600e9)) := ⟨_, rfl⟩
  have p1 := pi_gt_d6
  have p2 := pi_lt_d6
  have hxb : |x| ≤ 0.131 := by
    rw [hx]
    generalize (τ : ℝ) - (day + 1 / 2) * 86400e9 = y at hnoon ⊢
    rw [← rad_abs, abs_mul, abs_div]
    rw [abs_of_pos (show (0 : ℝ) < 15 by norm_num), abs_of_pos (show (0 : ℝ) < 3600e9 by norm_num)]
    have : 15 * (|y| / 3600e9) ≤ 7.5 := by norm_num at hnoon ⊢; linarith
    refine (rad_mono this).trans ?_
    unfold rad; norm_num at p2 ⊢; linarith
  have hε' : |ε| ≤ 4.4e-4 := hε.trans (by unfold tstError; split_ifs <;> norm_num)
  have hcos : 0.99135 ≤ cos (hourAngle0 alg t + rad l) := by
    rw [hk, hk', ← hx, show x + k' * (2 * π) + ε + k * (2 * π) = x + ε + ((k' + k : ℤ) : ℝ) * (2 * π) by push_cast; ring,
      cos_add_int_mul_two_pi]
    have b1 := one_sub_sq_div_two_le_cos (x := x + ε)
    have b2 : |x + ε| ≤ 0.13144 := (abs_add_le _ _).trans (by norm_num at hxb hε' ⊢; linarith)
    have b3 := sq_le_sq' (abs_le.1 b2).1 (abs_le.1 b2).2
    norm_num at b3 ⊢; linarith
  have hcos1 := cos_le_one (hourAngle0 alg t + rad l)
  have south := b.south
  have hκ := abs_le.1 b.small
  have hd := abs_le.1 b.dec
  have sin_far : ∀ y : ℝ, 1.5 ≤ y → y ≤ 120 → 0.026 ≤ sin (rad y) := by
    intro y y1 y2
    have k1 : (0.02617 : ℝ) ≤ rad 1.5 := by unfold rad; norm_num at p1 ⊢; linarith
    have k2 : rad 1.5 ≤ 0.0262 := by unfold rad; norm_num at p2 ⊢; linarith
    have k3 := sin_gt_sub_cube (x := rad 1.5) (by linarith)
    have k4 : rad 1.5 ^ 3 ≤ 0.0262 ^ 3 := pow_le_pow_left₀ (by linarith) k2 3
    have k5 : 0.026 ≤ sin (rad 1.5) := by norm_num at k1 k3 k4 ⊢; linarith
    have mono : ∀ v : ℝ, 1.5 ≤ v → v ≤ 90 → sin (rad 1.5) ≤ sin (rad v) := fun v v1 v2 => by
      apply sin_le_sin_of_le_of_le_pi_div_two
      · unfold rad; nlinarith [pi_pos]
      · unfold rad; nlinarith [pi_pos]
      · exact rad_mono v1
    by_cases hy : y ≤ 90
    · exact k5.trans (mono y y1 hy)
    · have := mono (180 - y) (by norm_num at y1 ⊢; linarith) (by linarith)
      rw [show rad (180 - y) = π - rad y by unfold rad; ring, sin_pi_sub] at this
      linarith
  have expand : ∀ c : ℝ, sin (rad φ) * cos (rad d) * c - cos (rad φ) * sin (rad d)
      = sin (rad (φ - d)) - sin (rad φ) * cos (rad d) * (1 - c) := fun c => by
    rw [rad_sub, sin_sub]; ring
  rw [expand] at south
  have hprod : |sin (rad φ) * cos (rad d) * (1 - cos (hourAngle0 alg t + rad l))| ≤ 0.00865 := by
    rw [abs_mul, abs_mul]
    have a1 : |sin (rad φ)| * |cos (rad d)| ≤ 1 := mul_le_one₀ (abs_sin_le_one _) (abs_nonneg _) (abs_cos_le_one _)
    have a2 : |1 - cos (hourAngle0 alg t + rad l)| ≤ 0.00865 := by
      rw [abs_of_nonneg (by linarith)]; norm_num at hcos ⊢; linarith
    calc _ ≤ 1 * 0.00865 := mul_le_mul a1 a2 (abs_nonneg _) (by norm_num)
      _ = _ := one_mul _
  have hprod := abs_le.1 hprod
  refine ⟨fun h26 => ?_, fun h26 => ?_⟩
  · refine in_the_south b.range.1 b.range.2 (pos_of_mul_pos_right ?_ b.pos)
    have q := sin_far (φ - d) (by norm_num at hd ⊢; linarith [hd.2]) (by norm_num at hd ⊢; linarith [hd.1, b.lat.2])
    rw [south]
    norm_num at q hprod hκ ⊢; linarith [hprod.2, hκ.2]
  · refine in_the_north ?_
    by_contra hc
    have := mul_nonneg b.pos (not_lt.1 hc)
    have q := sin_far (-(φ - d)) (by norm_num at hd ⊢; linarith [hd.1]) (by norm_num at hd ⊢; linarith [hd.2, b.lat.1])
    rw [show rad (-(φ - d)) = -rad (φ - d) by unfold rad; ring, sin_neg] at q
    rw [south] at this
    norm_num at q hprod hκ this; linarith [hprod.1, hκ.1]

/-- the direction returned in floating point without refraction, and that of an exact call -/
theorem Sides.bare_float {A : Arith} {uc : UseCase} {w : World (Rd A)} {times : Times} {latitude longitude : Coord (Rd A)}
    {alg eng : String} {refr : PyVal} {s : Sunpos (Rd A)} {e : Dim → Nat} {t : Int} {φ l : ℝ}
    (h : call uc w times latitude longitude alg refr eng = .ok s) (hr : refr ≠ .pyTrue)
    (ha : AtRd s times e t φ l) (hφ : -90 ≤ φ ∧ φ ≤ 90) (hl : -180 ≤ l ∧ l < 180)
    (hpole : alg = "nrel" → |φ| ≤ 90 - 1e-10) (hs : 0.06 ≤ placeFactor alg eng φ * sin (rad (sunZenith t φ l))) :
    ∃ z a z₀ a₀ d ρ κ : ℝ, s.zenithDeg.get e = Rd.fin z ∧ s.azimuthDeg.get e = Rd.fin a ∧ Bare alg eng t φ l z₀ a₀ d ρ κ ∧
      |z - z₀| ≤ 0.022 ∧ |cos (rad a) - cos (rad a₀)| ≤ 0.00023 := by
  obtain ⟨s', z, a, z', a', B, k, h', ha', hz, haz, hz', haz', -, -, hd, hda, -⟩ := float_near h hr ha hφ hl hpole
    (by rw [sunZenith_cos]; simp only [sunVec, cos_neg]) hs
  obtain ⟨z₀, a₀, d, ρ, κ, g1, g2, b⟩ := bare_of (e := fun _ => 0) h' hr ha'
  obtain rfl : z₀ = z' := XR.fin_inj.1 (g1.symm.trans hz')
  obtain rfl : a₀ = a' := XR.fin_inj.1 (g2.symm.trans haz')
  have hs' : 0 < placeFactor alg eng φ * sin (rad (sunZenith t φ l)) := lt_of_lt_of_le (by norm_num) hs
  refine ⟨z, a, z₀, a₀, d, ρ, κ, hz, haz, b, hd.trans ?_, ?_⟩
  · rw [div_le_iff₀ hs']; norm_num at hs ⊢; linarith
  · have e1 : cos (rad a) = cos (rad (a - k * 360)) := by
      rw [show rad (a - k * 360) = rad a - k * (2 * π) by unfold rad; ring, cos_sub_int_mul_two_pi]
    have e2 : |rad (a - k * 360) - rad a₀| ≤ 0.00023 := by
      rw [← rad_sub, ← rad_abs]
      have q : |a - k * 360 - a₀| ≤ 0.0127 := by
        rw [show a - k * 360 - a₀ = a - a₀ - k * 360 by ring]
        refine hda.trans ?_
        rw [div_le_iff₀ hs']; norm_num at hs ⊢; linarith
      refine (rad_mono q).trans ?_
      have p2 := pi_lt_d6
      unfold rad; norm_num at p2 ⊢; linarith
    rw [e1]
    exact (abs_cos_sub_cos_le _ _).trans e2

/-- C88: in floating point, without refraction, for suns at least 3.44 degrees from the vertical (further for soltrack with numpy at high latitudes). The
azimuth is on the southern side when its cosine is positive. -/
theorem C88_float {A : Arith} {date : Int → CivilDate} (g : IsGregorian date)
    {uc : UseCase} {w : World (Rd A)} {times : Times} {latitude longitude : Coord (Rd A)}
    {alg eng : String} {refr : PyVal} {s : Sunpos (Rd A)} {e : Dim → Nat} {t : Int} {φ l : ℝ}
    (h : call uc w times latitude longitude alg refr eng = .ok s) (hr : refr ≠ .pyTrue)
    (ha : AtRd s times e t φ l) (hφ : -90 ≤ φ ∧ φ ≤ 90) (hl : -180 ≤ l ∧ l < 180)
    (hpole : alg = "nrel" → |φ| ≤ 90 - 1e-10) (hs : 0.06 ≤ placeFactor alg eng φ * sin (rad (sunZenith t φ l))) :
    ∃ z a : ℝ, s.zenithDeg.get e = Rd.fin z ∧ s.azimuthDeg.get e = Rd.fin a ∧
      (z ≤ 90 → (0 ≤ φ → NorthernWinter (date (t / 86400000000000)) → 0 < cos (rad a)) ∧
        (φ ≤ 0 → NorthernSummer (date (t / 86400000000000)) → cos (rad a) < 0)) ∧
      (89.3 ≤ z → (0 ≤ φ → NorthernSummer (date (t / 86400000000000)) → cos (rad a) < 0) ∧
        (φ ≤ 0 → NorthernWinter (date (t / 86400000000000)) → 0 < cos (rad a))) := by
  rw [g.unique C36_gregorian]
  obtain ⟨z, a, z₀, a₀, d, ρ, κ, hz, haz, b, h1, h2⟩ := bare_float h hr ha hφ hl hpole hs
  have h1 := abs_le.1 h1
  have h2 := abs_le.1 h2
  have c0 := b.cos_pos
  have c1 : cos (rad φ) * ρ ≤ 1.001 := by nlinarith [cos_le_one (rad φ), b.pos, b.le]
  have pos : ∀ {m : ℝ}, 0.0006 ≤ m → m ≤ cos (rad φ) * (ρ * cos (rad a₀)) → 0 < cos (rad a) := by
    intro m hm hq
    rw [← mul_assoc] at hq
    have hp : 0 < cos (rad a₀) := pos_of_mul_pos_right (lt_of_lt_of_le (lt_of_lt_of_le (by norm_num) hm) hq) c0
    have : 0.0005 ≤ cos (rad a₀) := by norm_num at hm c1 ⊢; nlinarith
    norm_num at h2 this; linarith [h2.1]
  have neg : ∀ {m : ℝ}, 0.0006 ≤ m → cos (rad φ) * (ρ * cos (rad a₀)) ≤ -m → cos (rad a) < 0 := by
    intro m hm hq
    have hp : m ≤ cos (rad φ) * ρ * -cos (rad a₀) := by rw [← mul_assoc] at hq; linarith
    have hp' : 0 < -cos (rad a₀) := pos_of_mul_pos_right (lt_of_lt_of_le (lt_of_lt_of_le (by norm_num) hm) hp) c0
    have : 0.0005 ≤ -cos (rad a₀) := by norm_num at hm c1 ⊢; nlinarith
    norm_num at h2 this; linarith [h2.2]
  refine ⟨z, a, hz, haz, fun hday => ?_, fun hlow => ?_⟩
  · have hz90 : rad z₀ + rad (ownSlack alg eng) ≤ π / 2 + 0.0137 := by
      have p2 := pi_lt_d6
      have k1 : z₀ ≤ 90.022 := by norm_num at h1 ⊢; linarith [h1.1]
      have k1 := rad_mono k1
      have k2 := rad_mono (ownSlack_le alg eng)
      have : rad 90.022 + rad 0.0945 ≤ π / 2 + 0.0137 := by unfold rad; norm_num at p2 ⊢; linarith
      linarith
    obtain ⟨q1, q2⟩ := winter_side b hz90
    exact ⟨fun h0 hw => pos (by norm_num) (q1 h0 (b.winter hw)), fun h0 hw => neg (by norm_num) (q2 h0 (b.summer hw))⟩
  · have k1 : 89.2 ≤ z₀ := by norm_num at h1 hlow ⊢; linarith [h1.2]
    obtain ⟨q1, q2⟩ := summer_side b (rad_mono k1) (ownSlack_le alg eng)
    exact ⟨fun h0 hw => neg le_rfl (q1 h0 (b.summer hw)), fun h0 hw => pos le_rfl (q2 h0 (b.winter hw))⟩

/-! ### the hypotheses are met -/

theorem Sides.exists_longitude (H x : ℝ) : ∃ l : ℝ, (-180 ≤ l ∧ l < 180) ∧ ∃ k : ℤ, H + rad l = x + k * (2 * π) := by
  obtain ⟨k, hk1, hk2⟩ : ∃ k : ℤ, -180 ≤ 360 * k - (H - x) * (180 / π) ∧ 360 * k - (H - x) * (180 / π) < 180 := by
    refine ⟨⌈((H - x) * (180 / π) - 180) / 360⌉, ?_, ?_⟩
    · have := Int.le_ceil (((H - x) * (180 / π) - 180) / 360)
      rw [div_le_iff₀ (by norm_num)] at this
      linarith
    · have := Int.ceil_lt_add_one (((H - x) * (180 / π) - 180) / 360)
      rw [← sub_lt_iff_lt_add, lt_div_iff₀ (by norm_num)] at this
      linarith
  refine ⟨360 * k - (H - x) * (180 / π), ⟨hk1, hk2⟩, k, ?_⟩
  unfold rad
  field_simp
  ring

/-- the sun up in winter: at some place of the equator on 1 January 1970, at every instant of the day -/
example (uc : UseCase) {alg eng : String} (hk : KnownPair alg eng) {t : Int} (h1 : 0 ≤ t) (h2 : t < 86400000000000) :
    ∃ (l : ℝ) (s : Sunpos XR) (z a : ℝ), call uc exWorld (oneTime t) (.vec [.fin 0]) (.vec [.fin l]) alg .pyFalse eng = .ok s ∧
      s.zenithDeg.get (fun _ => 0) = .fin z ∧ z ≤ 90 ∧ s.azimuthDeg.get (fun _ => 0) = .fin a ∧ InTheSouth a := by
  have ht : |t| < 2 ^ 63 := by rw [abs_of_nonneg (by omega)]; omega
  have hj : NorthernWinter (codeDate (t / 86400000000000)) := by
    have e1 : t / 86400000000000 = 0 := by omega
    have : codeDate 0 = ⟨1970, 1, 1⟩ := by decide +kernel
    rw [e1, this]; exact .inr (.inl (by decide))
  obtain ⟨l, hl, k, hk'⟩ := exists_longitude (hourAngle0 alg t) 0
  rw [zero_add] at hk'
  obtain ⟨s, h, ha⟩ := single_call uc hk .pyFalse ht (φ := 0) (by norm_num) hl
  obtain ⟨z, d, h3, h4, h5, -⟩ := own_sun (e := fun _ => 0) h (by simp) ha
  obtain ⟨-, hd, -, -, hb, -⟩ := place_bounds (e := fun _ => 0) h ha h4
  rw [hk', show heightAt (rad 0) (rad d) (k * (2 * π)) = heightAt (rad 0) (rad d) 0 by
    unfold heightAt; rw [cos_zero, show (k : ℝ) * (2 * π) = 0 + k * (2 * π) by ring, cos_add_int_mul_two_pi, cos_zero], heightAt_noon hb] at h5
  have hz : z ≤ 90 := by
    apply of_rad_le
    have a1 := (abs_le.1 h5).2
    have a2 := rad_mono (ownSlack_le alg eng)
    have a3 := rad_mono hd
    have a4 : |rad 0 - rad d| = rad |d| := by rw [show rad 0 = 0 by unfold rad; ring, zero_sub, abs_neg, rad_abs]
    have a5 : rad 90 = rad 24.5 + rad 0.0945 + rad 65.4055 := by unfold rad; ring
    have a6 : 0 ≤ rad 65.4055 := by unfold rad; positivity
    linarith
  obtain ⟨a, g1, g2, -⟩ := C88_winter (e := fun _ => 0) C36_gregorian h ha h3 hz (by simp)
  exact ⟨l, s, z, a, h, h3, hz, g1, g2 le_rfl hj⟩

/-- the sun down in summer: at some place of latitude 40 degrees north, at every instant of 21 June 2024 -/
example (uc : UseCase) {alg eng : String} (hk : KnownPair alg eng) {t : Int} (h1 : 1718928000000000000 ≤ t) (h2 : t < 1719014400000000000) :
    ∃ (l : ℝ) (s : Sunpos XR) (z a : ℝ), call uc exWorld (oneTime t) (.vec [.fin 40]) (.vec [.fin l]) alg .pyFalse eng = .ok s ∧
      s.zenithDeg.get (fun _ => 0) = .fin z ∧ 90 ≤ z ∧ s.azimuthDeg.get (fun _ => 0) = .fin a ∧ InTheNorth a := by
  have ht : |t| < 2 ^ 63 := by rw [abs_of_nonneg (by omega)]; omega
  have hj : NorthernSummer (codeDate (t / 86400000000000)) := by
    have e1 : t / 86400000000000 = 19895 := by omega
    have : codeDate 19895 = ⟨2024, 6, 21⟩ := by decide +kernel
    rw [e1, this]; exact .inl (by decide)
  obtain ⟨l, hl, k, hk'⟩ := exists_longitude (hourAngle0 alg t) π
  obtain ⟨s, h, ha⟩ := single_call uc hk .pyFalse ht (φ := 40) (by norm_num) hl
  obtain ⟨z, d, h3, h4, h5, -⟩ := own_sun (e := fun _ => 0) h (by simp) ha
  obtain ⟨-, hd, -, -, -, hb⟩ := place_bounds (e := fun _ => 0) h ha h4
  rw [hk', show heightAt (rad 40) (rad d) (π + k * (2 * π)) = heightAt (rad 40) (rad d) π by
    unfold heightAt; rw [cos_add_int_mul_two_pi], heightAt_midnight hb] at h5
  have hz : 90 ≤ z := by
    apply of_rad_le
    have a1 := (abs_le.1 h5).1
    have a2 := rad_mono (ownSlack_le alg eng)
    have a3 : |rad 40 + rad d| = rad |40 + d| := by rw [← rad_add, rad_abs]
    have a4 : rad |40 + d| ≤ rad 64.5 := rad_mono (by have := abs_le.1 hd; rw [abs_le]; constructor <;> norm_num at this ⊢ <;> linarith [this.1, this.2])
    have a5 : rad 180 = rad 90 + rad 64.5 + rad 0.0945 + rad 25.4055 := by unfold rad; ring
    have a6 : 0 ≤ rad 25.4055 := by unfold rad; positivity
    rw [← rad180] at a1
    linarith
  obtain ⟨a, g1, g2, -⟩ := C88_summer (e := fun _ => 0) C36_gregorian h ha h3 (.inl hz)
  exact ⟨l, s, z, a, h, h3, hz, g1, g2 (by norm_num) hj⟩

/-- within half an hour of noon -/
example (uc : UseCase) {alg eng : String} (hk : KnownPair alg eng) (refr : PyVal) :
    ∃ (s : Sunpos XR) (τ : Int), call uc exWorld (oneTime 43200000000000) (.vec [.fin 40]) (.vec [.fin 0]) alg refr eng = .ok s ∧
      (s.trueSolarTime exWorld).get (fun _ => 0) = some τ ∧ |(τ : ℝ) - ((0 : Int) + 1 / 2) * 86400e9| ≤ 1800e9 ∧
      ∃ a : ℝ, s.azimuthDeg.get (fun _ => 0) = .fin a ∧ InTheSouth a := by
  have ht : |(43200000000000 : Int)| < 2 ^ 63 := by norm_num
  obtain ⟨s, h, ha⟩ := single_call uc hk refr ht (φ := 40) (l := 0) (by norm_num) (by norm_num)
  have u : stampAt s.timesUtc ((fun _ => 0 : Dim → Nat) .time) = some 43200000000000 := by rw [(C12_naive h rfl).1]; exact ha.time
  obtain ⟨x, hx, b⟩ := C19_eot (e := fun _ => 0) h ha.time ha.range
  obtain ⟨τ, hτ, q, -⟩ := C30_tst (e := fun _ => 0) exWorld s u hx ha.lon
  have hn : |(τ : ℝ) - ((0 : Int) + 1 / 2) * 86400e9| ≤ 1800e9 := by
    rw [abs_le]
    have q := abs_lt.1 q
    have b := abs_le.1 b
    generalize (τ : ℝ) = y at *
    norm_num at q b ⊢
    constructor <;> linarith [q.1, q.2, b.1, b.2]
  obtain ⟨a, g1, g2, -⟩ := C88_noon (e := fun _ => 0) h ha u hτ hn
  exact ⟨s, τ, h, hτ, hn, a, g1, g2 (by norm_num)⟩

/-- hypotheses of C88_float are met in binary64, by nrel, psa and iqbal, at every instant, at latitude 75 -/
example (uc : UseCase) {alg eng : String} (hk : KnownPair alg eng) (hns : alg ≠ "soltrack") {t : Int} (ht : |t| < 2 ^ 63) :
    ∃ (w : World (Rd Arith.binary64)) (s : Sunpos (Rd Arith.binary64)) (z a : ℝ),
      call uc w (oneTime t) (.vec [Rd.fin 75]) (.vec [Rd.fin 10]) alg .pyFalse eng = .ok s ∧
      s.zenithDeg.get (fun _ => 0) = Rd.fin z ∧ s.azimuthDeg.get (fun _ => 0) = Rd.fin a ∧
      (z ≤ 90 → NorthernWinter (codeDate (t / 86400000000000)) → 0 < cos (rad a)) ∧
      (89.3 ≤ z → NorthernSummer (codeDate (t / 86400000000000)) → cos (rad a) < 0) := by
  obtain ⟨w, s, h, ha⟩ := single_call_rd (A := Arith.binary64) uc hk .pyFalse binary64_90 binary64_180
    ht (φ := 75) (l := 10) (by norm_num) (by norm_num)
  obtain ⟨g1, g2, g3⟩ := sun_from_75 ht 10
  have e1 : placeFactor alg eng 75 = 1 := by simp [placeFactor, hns]
  obtain ⟨z, a, c1, c2, c3, c4⟩ := C88_float (e := fun _ => 0) C36_gregorian h (by simp) ha (by norm_num) (by norm_num)
    (fun _ => by rw [abs_of_pos (by norm_num)]; norm_num) (by rw [e1, one_mul]; norm_num at g1 ⊢; linarith)
  exact ⟨w, s, z, a, h, c1, c2, fun q => (c3 q).1 (by norm_num), fun q => (c4 q).1 (by norm_num)⟩

end SW.Props
