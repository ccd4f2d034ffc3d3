/-
Incidence on a tilted surface (C32), and the relation of the true solar time to the returned solar
position (C47, C48).
-/
import Verif.Props.Sunrise
import Verif.RTime

namespace SW.Props
open SW.Spec Real Sunpos

/-- A vector in the local frame of an observer: components up, south and east. -/
structure Vec where
  up : ℝ
  south : ℝ
  east : ℝ

namespace Vec
/-- scalar product -/
def dot (a b : Vec) : ℝ := a.up * b.up + a.south * b.south + a.east * b.east
/-- length squared -/
def sq (a : Vec) : ℝ := dot a a
end Vec

/-- The unit vector towards a sun of declination `δ` which is `ω` east of the meridian, seen from
latitude `φ`. -/
noncomputable def sunVec (φ δ ω : ℝ) : Vec where
  up := sin φ * sin δ + cos φ * cos δ * cos ω
  south := sin φ * cos δ * cos ω - cos φ * sin δ
  east := cos δ * sin ω

/-- The unit normal of a surface of slope `β` facing the azimuth `γ` (zero towards south, positive
towards east). -/
noncomputable def surfaceNormal (β γ : ℝ) : Vec where
  up := cos β
  south := sin β * cos γ
  east := sin β * sin γ

/-- hours since midnight of a time stamp in nanoseconds -/
noncomputable def hoursOfDay (τ : Int) : ℝ := ((τ % 86400000000000 : Int) : ℝ) / 3600e9

theorem sunVec_sq (φ δ ω : ℝ) : (sunVec φ δ ω).sq = 1 := by
  simp only [Vec.sq, Vec.dot, sunVec]
  have h1 := sin_sq_add_cos_sq φ
  have h2 := sin_sq_add_cos_sq δ
  have h3 := sin_sq_add_cos_sq ω
  linear_combination (sin δ ^ 2 + cos δ ^ 2 * cos ω ^ 2) * h1 + h2 + cos δ ^ 2 * h3

theorem surfaceNormal_sq (β γ : ℝ) : (surfaceNormal β γ).sq = 1 := by
  simp only [Vec.sq, Vec.dot, surfaceNormal]
  have h1 := sin_sq_add_cos_sq β
  have h2 := sin_sq_add_cos_sq γ
  linear_combination h1 + sin β ^ 2 * h2

theorem dot_le (a b : Vec) (ha : a.sq = 1) (hb : b.sq = 1) : |a.dot b| ≤ 1 := by
  simp only [Vec.sq, Vec.dot] at *
  rw [abs_le]
  constructor
  · nlinarith [sq_nonneg (a.up + b.up), sq_nonneg (a.south + b.south), sq_nonneg (a.east + b.east)]
  · nlinarith [sq_nonneg (a.up - b.up), sq_nonneg (a.south - b.south), sq_nonneg (a.east - b.east)]

theorem incidence_get (w : World XR) (s : Sunpos XR) (β γ : XR) (e : Dim → Nat) :
    (s.incidence w β γ).get e = coss β γ (s.latitude.get e) (s.decDeg.get e)
      (haDeg (hourOf (stampFloat w (tsub ((s.trueSolarTime w).get e)
        (floorDay ((s.trueSolarTime w).get e)))))) := rfl

theorem radians_rad (x : ℝ) : radians x = rad x := by
  unfold radians rad
  show x * (π / (180 : ℝ)) = _
  norm_num

theorem coss_fin (β γ φ d ω : ℝ) :
    coss (XR.fin β) (XR.fin γ) (XR.fin φ) (XR.fin d) (XR.fin ω) = .fin (coss β γ φ d ω) := by
  unfold coss; xr; rfl

theorem coss_real (β γ φ d ω : ℝ) : coss β γ φ d ω =
    (surfaceNormal (rad β) (rad γ)).dot (sunVec (rad φ) (rad d) (rad ω)) := by
  unfold coss
  simp only [radians_rad, Vec.dot, surfaceNormal, sunVec]
  show (sin (rad φ) * cos (rad β) - cos (rad φ) * sin (rad β) * cos (rad γ)) * sin (rad d)
    + (cos (rad φ) * cos (rad β) + sin (rad φ) * sin (rad β) * cos (rad γ)) * cos (rad d) * cos (rad ω)
    + cos (rad d) * sin (rad ω) * sin (rad β) * sin (rad γ) = _
  ring

theorem tod_eq (τ : Int) : tsub (some τ) (floorDay (some τ)) = some (τ % 86400000000000) := by
  show some (τ - τ / dayNs * dayNs) = _
  rw [Int.emod_def]; unfold dayNs; congr 1; ring

theorem ha_fin (n : Int) : haDeg (hourOf (Scalar.ofInt n : XR)) = .fin (15 * (12 - (n : ℝ) / 3600e9)) := by
  show haDeg (hourOf (XR.fin (n : ℝ))) = _
  unfold haDeg hourOf
  xr; rw [XR.fin_inj]; norm_num; ring

/-- C32: where the latitude, the declination and the true solar time are known, incidence is the
scalar product of two unit vectors: the normal of the surface and the direction of a sun with the
object's declination, `15` degrees east of the meridian per hour that the true solar time is before
noon. -/
theorem C32_incidence (w : World XR) (s : Sunpos XR) {e : Dim → Nat} {φ d : ℝ} {τ : Int} (β γ : ℝ)
    (hφ : s.latitude.get e = .fin φ) (hd : s.decDeg.get e = .fin d)
    (hτ : (s.trueSolarTime w).get e = some τ) :
    (s.incidence w (.fin β) (.fin γ)).get e = .fin ((surfaceNormal (rad β) (rad γ)).dot
      (sunVec (rad φ) (rad d) (rad (15 * (12 - hoursOfDay τ))))) ∧
    (surfaceNormal (rad β) (rad γ)).sq = 1 ∧
    (sunVec (rad φ) (rad d) (rad (15 * (12 - hoursOfDay τ)))).sq = 1 := by
  refine ⟨?_, surfaceNormal_sq _ _, sunVec_sq _ _ _⟩
  rw [incidence_get, hφ, hd, hτ, tod_eq]
  show coss _ _ _ _ (haDeg (hourOf (Scalar.ofInt _))) = _
  rw [ha_fin, coss_fin, coss_real]
  rfl

theorem coss_nan {F : Type} [Scalar F] [LawfulNan F] {β γ φ d h : F}
    (hn : β = Num.nan ∨ γ = Num.nan ∨ φ = Num.nan ∨ d = Num.nan ∨ h = Num.nan) :
    coss β γ φ d h = Num.nan := by
  rcases hn with rfl | rfl | rfl | rfl | rfl <;> simp only [coss, radians] <;> nan

theorem coss_inv {β γ φ d h : XR} {v : ℝ} (hv : coss β γ φ d h = .fin v) :
    ∃ β' γ' φ' d' h' : ℝ, v = coss β' γ' φ' d' h' := by
  have key : ∀ x : XR, x = Num.nan ∨ ∃ r, x = .fin r := by
    intro x; cases x
    · exact .inl rfl
    · exact .inr ⟨_, rfl⟩
  have hne : ¬ (β = Num.nan ∨ γ = Num.nan ∨ φ = Num.nan ∨ d = Num.nan ∨ h = Num.nan) := by
    intro hn; rw [coss_nan hn] at hv; cases hv
  push Not at hne
  obtain ⟨h1, h2, h3, h4, h5⟩ := hne
  obtain ⟨β, rfl⟩ := (key β).resolve_left h1
  obtain ⟨γ, rfl⟩ := (key γ).resolve_left h2
  obtain ⟨φ, rfl⟩ := (key φ).resolve_left h3
  obtain ⟨d, rfl⟩ := (key d).resolve_left h4
  obtain ⟨h, rfl⟩ := (key h).resolve_left h5
  rw [coss_fin, XR.fin_inj] at hv
  exact ⟨β, γ, φ, d, h, hv.symm⟩

/-- C32: incidence is NaN where the latitude, the declination, the slope or the azimuth of the surface
is. -/
theorem C32_nan {F : Type} [Scalar F] [LawfulNan F] (w : World F) (s : Sunpos F) {e : Dim → Nat} (β γ : F)
    (h : β = Num.nan ∨ γ = Num.nan ∨ s.latitude.get e = Num.nan ∨ s.decDeg.get e = Num.nan) :
    (s.incidence w β γ).get e = Num.nan := by
  show coss β γ (s.latitude.get e) (s.decDeg.get e) _ = _
  apply coss_nan
  tauto

/-- C32: incidence is NaN or between -1 and 1, at every cell of every object, for every slope and
azimuth. -/
theorem C32_range (w : World XR) (s : Sunpos XR) {e : Dim → Nat} (β γ : XR) {v : ℝ}
    (hv : (s.incidence w β γ).get e = .fin v) : |v| ≤ 1 := by
  rw [incidence_get] at hv
  obtain ⟨a, b, c, d, f, rfl⟩ := coss_inv hv
  rw [coss_real]
  exact dot_le _ _ (surfaceNormal_sq _ _) (sunVec_sq _ _ _)

theorem rad_zero : rad 0 = 0 := by unfold rad; ring
theorem rad_180 : rad 180 = π := by unfold rad; ring

/-- C32: on a horizontal surface incidence is the vertical component of the direction of the sun,
whatever the azimuth, and for a surface facing down it is its negative. -/
theorem C32_horizontal (w : World XR) (s : Sunpos XR) {e : Dim → Nat} {φ d : ℝ} {τ : Int} (γ : ℝ)
    (hφ : s.latitude.get e = .fin φ) (hd : s.decDeg.get e = .fin d)
    (hτ : (s.trueSolarTime w).get e = some τ) :
    (s.incidence w (.fin 0) (.fin γ)).get e = .fin (sin (rad φ) * sin (rad d)
      + cos (rad φ) * cos (rad d) * cos (rad (15 * (12 - hoursOfDay τ)))) ∧
    (s.incidence w (.fin 180) (.fin γ)).get e = .fin (-(sin (rad φ) * sin (rad d)
      + cos (rad φ) * cos (rad d) * cos (rad (15 * (12 - hoursOfDay τ))))) := by
  rw [(C32_incidence w s 0 γ hφ hd hτ).1, (C32_incidence w s 180 γ hφ hd hτ).1, XR.fin_inj, XR.fin_inj,
    rad_zero, rad_180]
  simp only [Vec.dot, surfaceNormal, sunVec, sin_zero, cos_zero, sin_pi, cos_pi]
  constructor <;> ring

/-- C32: turning the surface round (opposite azimuth) and up-side-down (supplementary slope) changes
the sign. -/
theorem C32_opposite (w : World XR) (s : Sunpos XR) {e : Dim → Nat} {φ d : ℝ} {τ : Int} (β γ : ℝ)
    (hφ : s.latitude.get e = .fin φ) (hd : s.decDeg.get e = .fin d)
    (hτ : (s.trueSolarTime w).get e = some τ) :
    ∃ v, (s.incidence w (.fin β) (.fin γ)).get e = .fin v ∧
      (s.incidence w (.fin (180 - β)) (.fin (γ + 180))).get e = .fin (-v) ∧
      (s.incidence w (.fin (-β)) (.fin γ)).get e = (s.incidence w (.fin β) (.fin (γ + 180))).get e := by
  refine ⟨_, (C32_incidence w s β γ hφ hd hτ).1, ?_, ?_⟩
  · rw [(C32_incidence w s (180 - β) (γ + 180) hφ hd hτ).1, XR.fin_inj]
    have h1 : rad (180 - β) = π - rad β := by unfold rad; ring
    have h2 : rad (γ + 180) = rad γ + π := by unfold rad; ring
    rw [h1, h2]
    simp only [Vec.dot, surfaceNormal, sin_pi_sub, cos_pi_sub, sin_add_pi, cos_add_pi]
    ring
  · rw [(C32_incidence w s (-β) γ hφ hd hτ).1, (C32_incidence w s β (γ + 180) hφ hd hτ).1, XR.fin_inj]
    have h1 : rad (-β) = -rad β := by unfold rad; ring
    have h2 : rad (γ + 180) = rad γ + π := by unfold rad; ring
    rw [h1, h2]
    simp only [Vec.dot, surfaceNormal, sin_neg, cos_neg, sin_add_pi, cos_add_pi]
    ring

/-! ### C47: the true solar time tells where the sun is -/

/-- the hour angle (positive towards west) that the true solar time `τ` stands for: a turn per day,
zero at noon -/
noncomputable def tstAngle (τ : Int) : ℝ := 2 * π * ((τ : ℝ) / 86400e9) - π

/-- the largest difference, radians, between the hour angle of the position and that of the true
solar time -/
noncomputable def tstError (alg : String) : ℝ :=
  if alg = "psa" then 4.4e-4 else if alg = "iqbal" then 7.3e-5 else 1.2e-4

theorem hour_eot {uc : UseCase} {w : World XR} {times : Times} {latitude longitude : Coord XR}
    {alg eng : String} {refr : PyVal} {s : Sunpos XR} {e : Dim → Nat} {t : Int} {φ l : ℝ}
    (h : call uc w times latitude longitude alg refr eng = .ok s) (ha : At s times e t φ l) :
    ∃ x D : ℝ, ∃ k : ℤ, s.eot.get e = .fin x ∧ |D| ≤ tstError alg - 7.28e-5 ∧
      hourAngle0 alg t = meanAngle (toSec t) + x * (2 * π / 1440) + D + k * (2 * π) := by
  obtain ⟨ht, hφ, hl, hc⟩ := at_cases h ha
  rcases hc with ⟨rfl, rfl, hc⟩ | ⟨rfl, rfl, hc⟩ | ⟨rfl, hc⟩ | ⟨rfl, hc⟩ | ⟨rfl, hc⟩
  · obtain ⟨D, k, h1, h2⟩ := Psa.H0_eot ht
    refine ⟨_, D, k, hc.4, h1.trans ?_, ?_⟩
    · simp only [tstError, String.reduceEq, if_true, if_false]; norm_num
    · rw [Psa.cellPy_eq]; exact h2
  · obtain ⟨D, k, h1, h2⟩ := Psa.H0_eot ht
    refine ⟨_, D, k, hc.4, h1.trans ?_, h2⟩
    simp only [tstError, String.reduceEq, if_true, if_false]; norm_num
  · obtain ⟨D, k, h1, h2⟩ := Soltrack.H0_eot ht
    refine ⟨_, D, k, hc.4, h1.trans ?_, h2⟩
    simp only [tstError, String.reduceEq, if_true, if_false]; norm_num
  · obtain ⟨k, h2⟩ := Iqbal.H0_eot (toSec t)
    refine ⟨_, 0, k, hc.4, ?_, ?_⟩
    · simp only [tstError, String.reduceEq, if_true, if_false]; norm_num
    · rw [add_zero]; exact h2
  · obtain ⟨D, k, h1, h2⟩ := Nrel.H0_eot ht
    refine ⟨_, D, k, hc.4, h1.trans ?_, h2⟩
    simp only [tstError, String.reduceEq, if_true, if_false]; norm_num

theorem tst_angle {w : World XR} {s : Sunpos XR} {e : Dim → Nat} {t τ : Int} {x l : ℝ}
    (hn : stampAt s.timesUtc (e .time) = some t) (hx : s.eot.get e = .fin x)
    (hl : s.longitude.get e = .fin l) (hτ : (s.trueSolarTime w).get e = some τ) :
    ∃ δ : ℝ, |δ| ≤ 7.28e-5 ∧
      tstAngle τ = meanAngle (toSec t) + x * (2 * π / 1440) + rad l + δ := by
  obtain ⟨τ', h1, h2, -⟩ := C30_tst w s hn hx hl
  obtain rfl : τ' = τ := Option.some.inj (h1.symm.trans hτ)
  refine ⟨2 * π / 86400e9 * ((t - toSec t * 1000000000 : Int) + ((τ' : ℝ) - (t + (x + 4 * l) * 60e9))), ?_, ?_⟩
  · have hr : 0 ≤ t - toSec t * 1000000000 ∧ t - toSec t * 1000000000 ≤ 999999999 := by
      unfold toSec; omega
    have hr1 : (0 : ℝ) ≤ ((t - toSec t * 1000000000 : Int) : ℝ) := by exact_mod_cast hr.1
    have hr2 : ((t - toSec t * 1000000000 : Int) : ℝ) ≤ 999999999 := by exact_mod_cast hr.2
    have h2 := abs_lt.1 h2
    have a : |((t - toSec t * 1000000000 : Int) : ℝ) + ((τ' : ℝ) - (t + (x + 4 * l) * 60e9))| ≤ 1000000000 := by
      rw [abs_le]; constructor <;> linarith [h2.1, h2.2]
    have p := pi_lt_d4
    have b : |2 * π / 86400e9| ≤ 7.28e-14 := by
      have hp := pi_pos
      rw [abs_of_pos (by positivity)]
      norm_num at p ⊢; linarith
    refine (Nrel.abs_mul_le' b a).trans ?_
    norm_num
  · unfold tstAngle meanAngle rad
    push_cast
    norm_num
    ring

theorem seenAt_add {φ δ H zg az : ℝ} (k : ℤ) (h : SeenAt φ δ (H + k * (2 * π)) zg az) : SeenAt φ δ H zg az := by
  obtain ⟨h1, h2, h3, h4, h5⟩ := h
  rw [cos_add_int_mul_two_pi] at h3 h4
  rw [sin_add_int_mul_two_pi] at h5
  exact ⟨h1, h2, h3, h4, h5⟩

theorem hour_tst {uc : UseCase} {w w' : World XR} {times : Times} {latitude longitude : Coord XR}
    {alg eng : String} {refr : PyVal} {s : Sunpos XR} {e : Dim → Nat} {t τ : Int} {φ l : ℝ}
    (h : call uc w times latitude longitude alg refr eng = .ok s) (ha : At s times e t φ l)
    (hutc : stampAt s.timesUtc (e .time) = some t) (hτ : (s.trueSolarTime w').get e = some τ) :
    ∃ ε : ℝ, ∃ k : ℤ, |ε| ≤ tstError alg ∧
      hourAngle0 alg t + rad l = tstAngle τ + ε + k * (2 * π) := by
  obtain ⟨x, D, k, hx, hD, hk⟩ := hour_eot h ha
  obtain ⟨δ, hδ, hτ'⟩ := tst_angle hutc hx ha.lon hτ
  refine ⟨D - δ, k, ?_, by rw [hk, hτ']; ring⟩
  refine (abs_sub _ _).trans ?_
  linarith


/-- C47: without refraction, where times_utc is the instant, the returned azimuth, declination and (up
to the parallax of C15) zenith are those of a sun at the hour angle that the true solar time
stands for, up to 4.4e-4 rad (psa, 1.5 arc minutes), 1.2e-4 rad (soltrack) or 7.3e-5 rad (iqbal: the
position is that of the whole second). -/
theorem C47_position {uc : UseCase} {w w' : World XR} {times : Times} {latitude longitude : Coord XR}
    {alg eng : String} {refr : PyVal} {s : Sunpos XR} {e : Dim → Nat} {t τ : Int} {φ l : ℝ}
    (halg : alg = "psa" ∨ alg = "soltrack" ∨ alg = "iqbal")
    (h : call uc w times latitude longitude alg refr eng = .ok s) (hr : refr ≠ .pyTrue)
    (ha : At s times e t φ l) (hutc : stampAt s.timesUtc (e .time) = some t)
    (hτ : (s.trueSolarTime w').get e = some τ) :
    ∃ z a d zg ε : ℝ, s.zenithDeg.get e = .fin z ∧ s.azimuthDeg.get e = .fin a ∧
      s.decDeg.get e = .fin d ∧ |ε| ≤ tstError alg ∧
      SeenAt (rad φ) (rad d) (tstAngle τ + ε) zg (rad a) ∧
      (alg = "iqbal" → rad z = zg) ∧
      (alg = "soltrack" ∨ alg = "psa" ∧ eng = "numexpr" → zg ≤ rad z ∧ rad z ≤ zg + 4.3e-5) ∧
      (alg = "psa" ∧ eng = "numpy" → ∃ c, |c - cos zg| ≤ 5e-7 ∧ arccos c ≤ rad z ∧
        rad z ≤ arccos c + 4.3e-5) := by
  obtain ⟨z, a, d, zg, h1, h2, h3, h4, h5, h6, h7⟩ := direction0 halg h hr ha
  obtain ⟨ε, k, hε, hk⟩ := hour_tst h ha hutc hτ
  rw [hk] at h4
  exact ⟨z, a, d, zg, ε, h1, h2, h3, hε, seenAt_add k h4, h5, h6, h7⟩

/-- C47 for nrel: the topocentric direction of C46, of a sun at the hour angle of the true solar time
up to 1.2e-4 rad. -/
theorem C47_nrel {uc : UseCase} {w w' : World XR} {times : Times} {latitude longitude : Coord XR}
    {eng : String} {refr : PyVal} {s : Sunpos XR} {e : Dim → Nat} {t τ : Int} {φ l : ℝ}
    (h : call uc w times latitude longitude "nrel" refr eng = .ok s) (hr : refr ≠ .pyTrue)
    (ha : At s times e t φ l) (hutc : stampAt s.timesUtc (e .time) = some t)
    (hτ : (s.trueSolarTime w').get e = some τ) :
    ∃ z a d ρ σ u ε : ℝ, s.zenithDeg.get e = .fin z ∧ s.azimuthDeg.get e = .fin a ∧
      s.decDeg.get e = .fin d ∧ 0 < ρ ∧ 0 ≤ σ ∧ σ ≤ 4.4e-5 ∧ |ε| ≤ 1.2e-4 ∧
      -- up
      ρ * cos (rad z) = (sin (rad φ) * sin (rad d) + cos (rad φ) * cos (rad d) * cos (tstAngle τ + ε))
        - σ * (cos (rad φ) * cos u + sin (rad φ) * (0.99664719 * sin u)) ∧
      -- south
      ρ * (sin (rad z) * cos (rad a))
        = (sin (rad φ) * cos (rad d) * cos (tstAngle τ + ε) - cos (rad φ) * sin (rad d))
        - σ * (sin (rad φ) * cos u - cos (rad φ) * (0.99664719 * sin u)) ∧
      -- west
      ρ * (sin (rad z) * sin (rad a)) = cos (rad d) * sin (tstAngle τ + ε) := by
  obtain ⟨z, a, d, ρ, σ, u, h1, h2, h3, h4, h5, h6, -, -, h7, h8, h9⟩ := topocentric0 h hr ha
  obtain ⟨ε, k, hε, hk⟩ := hour_tst h ha hutc hτ
  rw [hk, cos_add_int_mul_two_pi] at h7 h8
  rw [hk, sin_add_int_mul_two_pi] at h9
  refine ⟨z, a, d, ρ, σ, u, ε, h1, h2, h3, h4, h5, h6, hε.trans ?_, h7, h8, h9⟩
  simp only [tstError, String.reduceEq, if_true, if_false]; norm_num

/-! ### C48: incidence and the returned position -/

/-- the unit vector towards zenith angle `z` and azimuth `a` (zero towards south, positive towards
west) -/
noncomputable def dirVec (z a : ℝ) : Vec where
  up := cos z
  south := sin z * cos a
  east := -(sin z * sin a)

/-- no component differs by more than `B` -/
def Close (B : ℝ) (a b : Vec) : Prop := ∀ n : Vec, n.sq = 1 → |n.dot a - n.dot b| ≤ B

theorem Close.trans {B C : ℝ} {a b c : Vec} (h : Close B a b) (h' : Close C b c) : Close (B + C) a c := by
  intro n hn
  have := abs_add_le (n.dot a - n.dot b) (n.dot b - n.dot c)
  rw [sub_add_sub_cancel] at this
  linarith [h n hn, h' n hn]

theorem Close.mono {B C : ℝ} {a b : Vec} (h : Close B a b) (hBC : B ≤ C) : Close C a b :=
  fun n hn => (h n hn).trans hBC

theorem cauchy (n d : Vec) : n.dot d ^ 2 ≤ n.sq * d.sq := by
  simp only [Vec.sq, Vec.dot]
  nlinarith [sq_nonneg (n.up * d.south - n.south * d.up), sq_nonneg (n.up * d.east - n.east * d.up),
    sq_nonneg (n.south * d.east - n.east * d.south)]

theorem close_of_sq {B : ℝ} {a b : Vec} (hB : 0 ≤ B)
    (h : (Vec.sq ⟨a.up - b.up, a.south - b.south, a.east - b.east⟩) ≤ B ^ 2) : Close B a b := by
  intro n hn
  have h1 := cauchy n ⟨a.up - b.up, a.south - b.south, a.east - b.east⟩
  have h2 : n.dot a - n.dot b = n.dot ⟨a.up - b.up, a.south - b.south, a.east - b.east⟩ := by
    simp only [Vec.dot]; ring
  rw [h2]
  rw [hn, one_mul] at h1
  exact abs_le_of_sq_le_sq (h1.trans h) hB

theorem chord (ε : ℝ) : 2 - 2 * cos ε ≤ ε ^ 2 := by
  have := one_sub_sq_div_two_le_cos (x := ε)
  linarith

theorem close_hour (φ δ ω ε : ℝ) : Close |ε| (sunVec φ δ ω) (sunVec φ δ (ω + ε)) := by
  apply close_of_sq (abs_nonneg _)
  rw [sq_abs]
  have h := chord ε
  have e : cos ε = cos (ω + ε) * cos ω + sin (ω + ε) * sin ω := by
    rw [← cos_sub]; congr 1; ring
  have h1 := sin_sq_add_cos_sq φ
  have h2 := sin_sq_add_cos_sq ω
  have h3 := sin_sq_add_cos_sq (ω + ε)
  have hc : cos δ ^ 2 ≤ 1 := cos_sq_le_one δ
  have h0 : 0 ≤ 2 - 2 * cos ε := by linarith [cos_le_one ε]
  have : (Vec.sq ⟨(sunVec φ δ ω).up - (sunVec φ δ (ω + ε)).up, (sunVec φ δ ω).south - (sunVec φ δ (ω + ε)).south,
      (sunVec φ δ ω).east - (sunVec φ δ (ω + ε)).east⟩) = cos δ ^ 2 * (2 - 2 * cos ε) := by
    rw [e]
    simp only [Vec.sq, Vec.dot, sunVec]
    linear_combination (cos δ ^ 2 * (cos ω - cos (ω + ε)) ^ 2) * h1 + cos δ ^ 2 * h2 + cos δ ^ 2 * h3
  rw [this]
  nlinarith

theorem close_zen (z z' a : ℝ) : Close |z - z'| (dirVec z a) (dirVec z' a) := by
  apply close_of_sq (abs_nonneg _)
  rw [sq_abs]
  have h := chord (z - z')
  have h1 := sin_sq_add_cos_sq a
  have h2 := sin_sq_add_cos_sq z
  have h3 := sin_sq_add_cos_sq z'
  have : (Vec.sq ⟨(dirVec z a).up - (dirVec z' a).up, (dirVec z a).south - (dirVec z' a).south,
      (dirVec z a).east - (dirVec z' a).east⟩) = 2 - 2 * cos (z - z') := by
    rw [cos_sub]
    simp only [Vec.sq, Vec.dot, dirVec]
    linear_combination ((sin z - sin z') ^ 2) * h1 + h2 + h3
  rw [this]
  exact h

theorem dirVec_of_seenAt {φ δ H zg az : ℝ} (h : SeenAt φ δ H zg az) : dirVec zg az = sunVec φ δ (-H) := by
  obtain ⟨-, -, h3, h4, h5⟩ := h
  unfold dirVec sunVec
  rw [cos_neg, sin_neg, h3, h4, h5]
  simp only [Vec.mk.injEq]
  exact ⟨trivial, trivial, by ring⟩

theorem dirVec_sq (z a : ℝ) : (dirVec z a).sq = 1 := by
  simp only [Vec.sq, Vec.dot, dirVec]
  have h1 := sin_sq_add_cos_sq z
  have h2 := sin_sq_add_cos_sq a
  linear_combination h1 + sin z ^ 2 * h2

/-- the hour angle of incidence is that of the true solar time -/
theorem ha_tst (φ d : ℝ) (τ : Int) : sunVec φ d (rad (15 * (12 - hoursOfDay τ))) = sunVec φ d (-tstAngle τ) := by
  have h : rad (15 * (12 - hoursOfDay τ)) = -tstAngle τ + ((τ / 86400000000000 : Int) : ℝ) * (2 * π) := by
    unfold rad hoursOfDay tstAngle
    have : (τ : ℝ) = 86400000000000 * ((τ / 86400000000000 : ℤ) : ℝ) + ((τ % 86400000000000 : ℤ) : ℝ) := by
      exact_mod_cast (Int.mul_ediv_add_emod τ 86400000000000).symm
    generalize ((τ / 86400000000000 : ℤ) : ℝ) = q at *
    generalize ((τ % 86400000000000 : ℤ) : ℝ) = r at *
    rw [this]; norm_num; ring
  rw [h]
  unfold sunVec
  rw [cos_add_int_mul_two_pi, sin_add_int_mul_two_pi]

/-- rounding a cosine by 5e-7 moves the angle by at most 1.6e-3 -/
theorem arccos_near {x c : ℝ} (h0 : 0 ≤ x) (hp : x ≤ π) (hc : |c - cos x| ≤ 5e-7) : |arccos c - x| ≤ 1.6e-3 := by
  have hc := abs_le.1 hc
  obtain ⟨c', hc', he, hb⟩ : ∃ c', (-1 ≤ c' ∧ c' ≤ 1) ∧ arccos c = arccos c' ∧ |c' - cos x| ≤ 5e-7 := by
    rcases lt_or_ge c (-1) with h1 | h1
    · refine ⟨-1, by norm_num, by rw [arccos_eq_pi.2 h1.le, arccos_eq_pi.2 le_rfl], ?_⟩
      have := neg_one_le_cos x
      rw [abs_le]; constructor <;> linarith [hc.1]
    · rcases lt_or_ge 1 c with h2 | h2
      · refine ⟨1, by norm_num, by rw [arccos_eq_zero.2 h2.le, arccos_eq_zero.2 le_rfl], ?_⟩
        have := cos_le_one x
        rw [abs_le]; constructor <;> linarith [hc.2]
      · exact ⟨c, ⟨h1, h2⟩, rfl, abs_le.2 hc⟩
  rw [he]
  have ha0 := arccos_nonneg c'
  have hap := arccos_le_pi c'
  have hcos : cos (arccos c') = c' := cos_arccos hc'.1 hc'.2
  obtain ⟨y, hy⟩ : ∃ y, y = arccos c' := ⟨_, rfl⟩
  rw [← hy] at ha0 hap hcos ⊢
  rw [← hcos] at hb
  -- cos y - cos x = -2 sin((y+x)/2) sin((y-x)/2)
  have hs := cos_sub_cos y x
  obtain ⟨v, hv⟩ : ∃ v, v = |y - x| / 2 := ⟨_, rfl⟩
  have hv0 : 0 ≤ v := by rw [hv]; positivity
  have hvp : v ≤ π / 2 := by
    rw [hv]; have : |y - x| ≤ π := by rw [abs_le]; constructor <;> linarith
    linarith
  have hsv : |sin ((y - x) / 2)| = sin v := by
    rw [hv]
    rcases abs_cases (y - x) with ⟨h1, h2⟩ | ⟨h1, h2⟩
    · rw [h1, abs_of_nonneg]
      apply sin_nonneg_of_nonneg_of_le_pi <;> linarith [pi_pos]
    · rw [h1, neg_div, sin_neg, abs_of_nonpos]
      apply sin_nonpos_of_nonpos_of_neg_pi_le <;> linarith [pi_pos]
  have hsu : sin v ≤ |sin ((y + x) / 2)| := by
    have hu0 : v ≤ (y + x) / 2 := by
      rw [hv]; rcases abs_cases (y - x) with ⟨h1, h2⟩ | ⟨h1, h2⟩ <;> rw [h1] <;> linarith
    have hup : (y + x) / 2 ≤ π - v := by
      rw [hv]; rcases abs_cases (y - x) with ⟨h1, h2⟩ | ⟨h1, h2⟩ <;> rw [h1] <;> linarith
    rw [abs_of_nonneg (sin_nonneg_of_nonneg_of_le_pi (by linarith) (by linarith))]
    rcases le_or_gt ((y + x) / 2) (π / 2) with h1 | h1
    · exact sin_le_sin_of_le_of_le_pi_div_two (by linarith) h1 hu0
    · rw [← sin_pi_sub ((y + x) / 2)]
      exact sin_le_sin_of_le_of_le_pi_div_two (by linarith) (by linarith) (by linarith)
  have hj := mul_le_sin hv0 hvp
  have hprod : 2 * (sin v * sin v) ≤ 5e-7 := by
    rw [hs, abs_mul, abs_mul, abs_neg, abs_of_pos (by norm_num : (0:ℝ) < 2), hsv] at hb
    have : 0 ≤ sin v := by rw [← hsv]; exact abs_nonneg _
    nlinarith
  have hlow : 2 / π * v ≤ 5e-4 := by
    have h0 : 0 ≤ 2 / π * v := by positivity
    by_contra hcon
    push Not at hcon
    have : (5e-4 : ℝ) ^ 2 < sin v * sin v := by nlinarith
    norm_num at this hprod; linarith
  have hpi := pi_lt_d4
  have : v = 2 / π * v * (π / 2) := by field_simp
  have e2 : |y - x| = 2 * v := by rw [hv]; ring
  rw [e2, this]
  norm_num at hlow hpi ⊢
  nlinarith [pi_pos]

/-- the largest difference between incidence and the cosine computed from the returned zenith and
azimuth -/
noncomputable def incidenceError (alg eng : String) : ℝ :=
  if alg = "iqbal" then 7.3e-5 else if alg = "soltrack" then 1.7e-4 else if alg = "nrel" then 2.1e-4
  else if eng = "numexpr" then 4.9e-4 else 2.1e-3

theorem close_topo {φ d H z a ρ σ u : ℝ} (hρ : 0 < ρ) (hσ : 0 ≤ σ) (hσ' : σ ≤ 4.4e-5)
    (h1 : ρ * cos z = (sin φ * sin d + cos φ * cos d * cos H)
        - σ * (cos φ * cos u + sin φ * (0.99664719 * sin u)))
    (h2 : ρ * (sin z * cos a) = (sin φ * cos d * cos H - cos φ * sin d)
        - σ * (sin φ * cos u - cos φ * (0.99664719 * sin u)))
    (h3 : ρ * (sin z * sin a) = cos d * sin H) : Close 8.8e-5 (dirVec z a) (sunVec φ d (-H)) := by
  obtain ⟨o, ho⟩ : ∃ o : Vec, o = ⟨cos φ * cos u + sin φ * (0.99664719 * sin u),
    sin φ * cos u - cos φ * (0.99664719 * sin u), 0⟩ := ⟨_, rfl⟩
  have hosq : o.sq ≤ 1 := by
    have e : o.sq = cos u ^ 2 + 0.99664719 ^ 2 * sin u ^ 2 := by
      rw [ho]; simp only [Vec.sq, Vec.dot]
      have := sin_sq_add_cos_sq φ
      linear_combination (cos u ^ 2 + 0.99664719 ^ 2 * sin u ^ 2) * this
    have := sin_sq_add_cos_sq u
    rw [e]; norm_num; nlinarith [sq_nonneg (sin u)]
  have hr := dirVec_sq z a
  have hs := sunVec_sq φ d (-H)
  obtain ⟨r, hrr⟩ : ∃ r, r = dirVec z a := ⟨_, rfl⟩
  obtain ⟨q, hq⟩ : ∃ q, q = sunVec φ d (-H) := ⟨_, rfl⟩
  have e1 : ρ * r.up = q.up - σ * o.up := by
    rw [hrr, hq, ho]; simp only [dirVec, sunVec, cos_neg]; exact h1
  have e2 : ρ * r.south = q.south - σ * o.south := by
    rw [hrr, hq, ho]; simp only [dirVec, sunVec, cos_neg]; exact h2
  have e3 : ρ * r.east = q.east - σ * o.east := by
    rw [hrr, hq, ho]; simp only [dirVec, sunVec, sin_neg]; linarith
  rw [← hrr] at hr ⊢
  rw [← hq] at hs ⊢
  have hlin : ∀ n : Vec, ρ * n.dot r = n.dot q - σ * n.dot o := by
    intro n; simp only [Vec.dot]
    linear_combination n.up * e1 + n.south * e2 + n.east * e3
  have hqo : q.dot o ^ 2 ≤ 1 := by
    have := cauchy q o
    rw [hs, one_mul] at this
    linarith
  have hqo' := abs_le_of_sq_le_sq (by rw [one_pow]; exact hqo : q.dot o ^ 2 ≤ 1 ^ 2) zero_le_one
  have hqo'' := abs_le.1 hqo'
  have ho0 : 0 ≤ o.sq := by simp only [Vec.sq, Vec.dot]; nlinarith [mul_self_nonneg o.up, mul_self_nonneg o.south, mul_self_nonneg o.east]
  have hρ2 : ρ ^ 2 = 1 - 2 * σ * q.dot o + σ ^ 2 * o.sq := by
    have : ρ ^ 2 * r.sq = q.sq - 2 * σ * q.dot o + σ ^ 2 * o.sq := by
      simp only [Vec.sq, Vec.dot]
      linear_combination (ρ * r.up + (q.up - σ * o.up)) * e1 + (ρ * r.south + (q.south - σ * o.south)) * e2
        + (ρ * r.east + (q.east - σ * o.east)) * e3
    rw [hr, hs, mul_one] at this
    exact this
  have hoq2 := cauchy q o
  rw [hs, one_mul] at hoq2
  have hup : ρ ≤ 1 + σ := by
    apply le_of_sq_le_sq _ (by linarith)
    rw [hρ2]; nlinarith
  have hlo : 1 - σ ≤ ρ := by
    apply le_of_sq_le_sq _ hρ.le
    rw [hρ2]
    have : (q.dot o) ^ 2 * σ ^ 2 ≤ σ ^ 2 * o.sq := by nlinarith [sq_nonneg σ]
    have hx : (1 - σ) ^ 2 ≤ (1 - σ * q.dot o) ^ 2 := by
      have a1 : σ * q.dot o ≤ σ := by nlinarith
      have : σ ≤ 1 := hσ'.trans (by norm_num)
      exact pow_le_pow_left₀ (by linarith) (by linarith) 2
    nlinarith
  intro n hn
  have hnr : |n.dot r| ≤ 1 := dot_le n r hn hr
  have hno : |n.dot o| ≤ 1 := by
    have := cauchy n o
    rw [hn, one_mul] at this
    exact abs_le_of_sq_le_sq (by rw [one_pow]; linarith) zero_le_one
  have e : n.dot r - n.dot q = (1 - ρ) * n.dot r - σ * n.dot o := by linarith [hlin n]
  rw [e]
  have a1 : |1 - ρ| ≤ σ := by rw [abs_le]; constructor <;> linarith
  have a2 := Nrel.abs_mul_le' a1 hnr
  have a3 := Nrel.abs_mul_le' (le_of_eq (abs_of_nonneg hσ)) hno
  refine (abs_sub _ _).trans ?_
  rw [mul_one] at a2 a3
  refine (add_le_add a2 a3).trans ?_
  norm_num at hσ' ⊢
  linarith

/-- the returned direction is close to that of the true solar time -/
theorem close_position {uc : UseCase} {w w' : World XR} {times : Times} {latitude longitude : Coord XR}
    {alg eng : String} {refr : PyVal} {s : Sunpos XR} {e : Dim → Nat} {t τ : Int} {φ l : ℝ}
    (h : call uc w times latitude longitude alg refr eng = .ok s) (hr : refr ≠ .pyTrue)
    (ha : At s times e t φ l) (hutc : stampAt s.timesUtc (e .time) = some t)
    (hτ : (s.trueSolarTime w').get e = some τ) :
    ∃ z a d : ℝ, s.zenithDeg.get e = .fin z ∧ s.azimuthDeg.get e = .fin a ∧ s.decDeg.get e = .fin d ∧
      Close (incidenceError alg eng) (sunVec (rad φ) (rad d) (-tstAngle τ)) (dirVec (rad z) (rad a)) := by
  have hsym : ∀ {B : ℝ} {a b : Vec}, Close B a b → Close B b a := by
    intro B a b hc n hn; rw [abs_sub_comm]; exact hc n hn
  have hhour : ∀ (d ε : ℝ), Close |ε| (sunVec (rad φ) (rad d) (-tstAngle τ))
      (sunVec (rad φ) (rad d) (-(tstAngle τ + ε))) := by
    intro d ε
    have := close_hour (rad φ) (rad d) (-tstAngle τ) (-ε)
    rwa [abs_neg, ← neg_add] at this
  have halg := at_cases h ha
  obtain ⟨-, -, -, halg⟩ := halg
  have hcase : (alg = "psa" ∨ alg = "soltrack" ∨ alg = "iqbal") ∨ alg = "nrel" := by
    rcases halg with ⟨rfl, -⟩ | ⟨rfl, -⟩ | ⟨rfl, -⟩ | ⟨rfl, -⟩ | ⟨rfl, -⟩ <;> simp
  rcases hcase with hcase | rfl
  · obtain ⟨z, a, d, zg, ε, h1, h2, h3, hε, h4, h5, h6, h7⟩ := C47_position hcase h hr ha hutc hτ
    refine ⟨z, a, d, h1, h2, h3, ?_⟩
    have c1 := (hhour d ε).mono hε
    rw [← dirVec_of_seenAt h4] at c1
    have c2 : ∀ B, |zg - rad z| ≤ B → Close (tstError alg + B) (sunVec (rad φ) (rad d) (-tstAngle τ))
        (dirVec (rad z) (rad a)) := fun B hB => c1.trans ((close_zen zg (rad z) (rad a)).mono hB)
    have e3 : ∀ {x : ℝ}, x ≤ rad z ∧ rad z ≤ x + 4.3e-5 → |x - rad z| ≤ 4.3e-5 := by
      intro x hx; rw [abs_le]; constructor <;> norm_num at hx ⊢ <;> linarith [hx.1, hx.2]
    rcases halg with ⟨rfl, rfl, -⟩ | ⟨rfl, rfl, -⟩ | ⟨rfl, -⟩ | ⟨rfl, -⟩ | ⟨rfl, -⟩
    · obtain ⟨c, hc1, hc2⟩ := h7 ⟨rfl, rfl⟩
      have hn := arccos_near h4.zen_nonneg h4.zen_le hc1
      refine (c2 (1.6e-3 + 4.3e-5) ?_).mono ?_
      · have a1 := abs_le.1 hn
        have a2 := abs_le.1 (e3 hc2)
        rw [abs_le]; constructor <;> linarith [a1.1, a1.2, a2.1, a2.2]
      · simp only [tstError, incidenceError, String.reduceEq, if_true, if_false]; norm_num
    · refine (c2 _ (e3 (h6 (.inr ⟨rfl, rfl⟩)))).mono ?_
      simp only [tstError, incidenceError, String.reduceEq, if_true, if_false]; norm_num
    · refine (c2 _ (e3 (h6 (.inl rfl)))).mono ?_
      simp only [tstError, incidenceError, String.reduceEq, if_true, if_false]; norm_num
    · refine (c2 0 (by rw [h5 rfl, sub_self, abs_zero])).mono ?_
      simp only [tstError, incidenceError, String.reduceEq, if_true, if_false]; norm_num
    · simp at hcase
  · obtain ⟨z, a, d, ρ, σ, u, ε, h1, h2, h3, h4, h5, h6, hε, h7, h8, h9⟩ := C47_nrel h hr ha hutc hτ
    refine ⟨z, a, d, h1, h2, h3, ?_⟩
    refine (((hhour d ε).mono hε).trans (hsym (close_topo h4 h5 h6 h7 h8 h9))).mono ?_
    simp only [incidenceError, String.reduceEq, if_true, if_false]; norm_num

/-- C48: without refraction, where times_utc is the instant, incidence on a surface of slope `β` and
azimuth `γ` (positive towards east) is the cosine of the angle between its normal and the returned
position of the sun (azimuth positive towards west), to within the precision of the algorithm; on a
horizontal surface it is cosz. -/
theorem C48_incidence {uc : UseCase} {w w' : World XR} {times : Times} {latitude longitude : Coord XR}
    {alg eng : String} {refr : PyVal} {s : Sunpos XR} {e : Dim → Nat} {t : Int} {φ l : ℝ}
    (h : call uc w times latitude longitude alg refr eng = .ok s) (hr : refr ≠ .pyTrue)
    (ha : At s times e t φ l) (hutc : stampAt s.timesUtc (e .time) = some t) :
    ∃ z a : ℝ, s.zenithDeg.get e = .fin z ∧ s.azimuthDeg.get e = .fin a ∧
      s.cosz.get e = .fin (cos (rad z)) ∧ ∀ β γ : ℝ, ∃ v,
      (s.incidence w' (.fin β) (.fin γ)).get e = .fin v ∧
      |v - (cos (rad z) * cos (rad β) + sin (rad z) * sin (rad β) * cos (rad a + rad γ))|
        ≤ incidenceError alg eng ∧
      (β = 0 → |v - cos (rad z)| ≤ incidenceError alg eng) := by
  obtain ⟨x, -, -, hx, -, -⟩ := hour_eot h ha
  obtain ⟨τ, hτ, -, -⟩ := C30_tst w' s hutc hx ha.lon
  obtain ⟨z, a, d, h1, h2, h3, hc⟩ := close_position h hr ha hutc hτ
  refine ⟨z, a, h1, h2, ?_, fun β γ => ?_⟩
  · cases hz : s.zenith.get e with
    | nan => rw [show s.zenithDeg.get e = degrees (s.zenith.get e) from rfl, hz] at h1; cases h1
    | fin r =>
      have hd := zenithDeg_fin hz
      rw [h1, XR.fin_inj] at hd
      rw [show s.cosz.get e = Num.cos (s.zenith.get e) from rfl, hz, hd, rad_deg]; rfl
  · obtain ⟨i1, i2, -⟩ := C32_incidence w' s β γ ha.lat h3 hτ
    rw [ha_tst] at i1
    have hcl := hc _ i2
    have e1 : (surfaceNormal (rad β) (rad γ)).dot (dirVec (rad z) (rad a))
        = cos (rad z) * cos (rad β) + sin (rad z) * sin (rad β) * cos (rad a + rad γ) := by
      rw [cos_add]; simp only [Vec.dot, surfaceNormal, dirVec]; ring
    rw [e1] at hcl
    refine ⟨_, i1, hcl, ?_⟩
    rintro rfl
    have e2 : cos (rad z) * cos (rad 0) + sin (rad z) * sin (rad 0) * cos (rad a + rad γ) = cos (rad z) := by
      rw [rad_zero, cos_zero, sin_zero]; ring
    rwa [e2] at hcl

/-- every algorithm and use case, at every instant, latitude and longitude, has a cell to which C32,
C47 and C48 apply -/
example (uc : UseCase) {alg eng : String} (hk : KnownPair alg eng) {t : Int} (ht : |t| < 2 ^ 63) :
    ∃ (s : Sunpos XR) (d : ℝ) (τ : Int),
      call uc exWorld (oneTime t) (.vec [.fin 40]) (.vec [.fin (-4.5)]) alg .pyFalse eng = .ok s ∧
      At s (oneTime t) (fun _ => 0) t 40 (-4.5) ∧ stampAt s.timesUtc 0 = some t ∧
      s.decDeg.get (fun _ => 0) = .fin d ∧ (s.trueSolarTime exWorld).get (fun _ => 0) = some τ := by
  obtain ⟨s, hs, ha⟩ := single_call uc hk .pyFalse ht (φ := 40) (l := -4.5) (by norm_num) (by norm_num)
  obtain ⟨d, hd, -⟩ := C17_declination (e := fun _ => 0) hs ha.time ha.range
  obtain ⟨x, hx, -⟩ := C19_eot (e := fun _ => 0) hs ha.time ha.range
  have hu := (C12_naive hs rfl).1
  have hu' : stampAt s.timesUtc 0 = some t := by rw [hu]; rfl
  obtain ⟨τ, hτ, -⟩ := C30_tst exWorld s (e := fun _ => 0) hu' hx ha.lon
  exact ⟨s, d, τ, hs, ha, hu', hd, hτ⟩

end SW.Props
