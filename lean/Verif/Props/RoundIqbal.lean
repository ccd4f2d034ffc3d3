/-
Floating-point results of iqbal against exact results (C61), as Props/Rounding.lean does for psa.
-/
import Verif.Props.Rounding
import Verif.RdIqbalCell

namespace SW.Props
open SW.Spec Real

variable {A : Arith}

theorem iqb_time_cell {b : Backend} {alg eng : String} (hb : Backend.ofNames alg eng = some b) (ha : alg = "iqbal")
    (uc : UseCase) (t : ℤ) (r : Bool) (x y : Rd A) :
    Ap (b.cell uc t x y r).declination (Iqbal.decAt t) 0.4232 1e-12 ∧
    Ap (b.cell uc t x y r).ecf (Iqbal.ecf (Iqbal.dayAngle t : ℝ)) 1.04 1e-13 ∧
    Ap (b.cell uc t x y r).eot (Iqbal.eotMinutes (Iqbal.dayAngle t : ℝ)) 19 1e-10 := by
  subst ha
  have hj := Iqbal.dayAngle_ap (A := A) t
  rw [ofNames_iff] at hb
  cases b <;> simp only [Prod.mk.injEq, String.reduceEq, false_and, true_and] at hb
  · exact ⟨Iqbal.decl_ap hj, Iqbal.ecf_ap hj, Iqbal.eotMinutes_ap hj⟩
  · exact ⟨Iqbal.decl_ap hj, Iqbal.ecf_ap hj, Iqbal.eotMinutes_ap hj⟩

/-- C61: iqbal. In every arithmetic with the accuracy of double precision, a call returns numbers for the
declination, the eccentricity correction factor and the equation of time at every instant, and they are
those of exact arithmetic to 1e-10 degrees, 1e-13 and 1e-10 minutes. The two calls may be of any use cases
and engines. -/
theorem C61_iqbal_time {uc uc' : UseCase} {w : World (Rd A)} {w' : World XR} {times times' : Times}
    {latitude longitude : Coord (Rd A)} {latitude' longitude' : Coord XR} {eng eng' : String}
    {refr refr' : PyVal} {s : Sunpos (Rd A)} {s' : Sunpos XR} {e e' : Dim → Nat} {t : Int}
    (h : call uc w times latitude longitude "iqbal" refr eng = .ok s)
    (h' : call uc' w' times' latitude' longitude' "iqbal" refr' eng' = .ok s')
    (hk : stampAt times.stamps (e .time) = some t) (hk' : stampAt times'.stamps (e' .time) = some t)
    (hrange : |t| < 2 ^ 63) :
    NearTime s s' e e' 1e-10 1e-13 1e-10 := by
  obtain ⟨b, hb, hc⟩ := rd_time h hk
  obtain ⟨c1, c2, c3⟩ := hc 0 0
  obtain ⟨ht, o, o1, o2, o3, ho⟩ := time_cases h' hk' hrange
  simp only [String.reduceEq, false_and, true_and, or_false, false_or] at ho
  subst ho
  obtain ⟨m1, ⟨-, f, hf, ef⟩, ⟨-, q, hq, eq⟩⟩ := iqb_time_cell hb rfl uc (toSec t) refr.isTrue (0 : Rd A) 0
  obtain ⟨-, g, hg, eg⟩ := degrees_ap m1 (by norm_num) (by norm_num)
  refine ⟨⟨g, _, ?_, decDeg_fin o3, ?_⟩, ⟨f, _, c1.trans hf, o1, ef⟩, ⟨q, _, c2.trans hq, o2, eq⟩⟩
  · rw [rd_decDeg, c3]; exact hg
  · exact eg.trans (by norm_num)

/-- C61, with the stored zenith angle (radians) -/
theorem iqbal_position {uc uc' uc₀ : UseCase} {w : World (Rd A)} {w' w₀ : World XR}
    {times times' times₀ : Times} {latitude longitude : Coord (Rd A)}
    {latitude' longitude' latitude₀ longitude₀ : Coord XR} {eng eng' eng₀ : String} {refr refr₀ : PyVal}
    {s : Sunpos (Rd A)} {s' s₀ : Sunpos XR} {e e' e₀ : Dim → Nat} {t : Int} {φ l ζ : ℝ}
    (h : call uc w times latitude longitude "iqbal" refr eng = .ok s)
    (h' : call uc' w' times' latitude' longitude' "iqbal" refr eng' = .ok s')
    (h₀ : call uc₀ w₀ times₀ latitude₀ longitude₀ "iqbal" refr₀ eng₀ = .ok s₀) (hr₀ : refr₀ ≠ .pyTrue)
    (ha : AtRd s times e t φ l) (ha' : At s' times' e' t φ l) (ha₀ : At s₀ times₀ e₀ t φ l)
    (hζ : s₀.zenithDeg.get e₀ = XR.fin ζ) (hs : 0.003 ≤ sin (rad ζ)) :
    ((∃ z z', s.zenithDeg.get e = Rd.fin z ∧ s'.zenithDeg.get e' = XR.fin z' ∧
      |z - z'| ≤ 0.00093 / sin (rad ζ) ∧ (refr ≠ .pyTrue → |z - z'| ≤ 0.00048 / sin (rad ζ))) ∧
    (∃ a a', ∃ k : ℤ, s.azimuthDeg.get e = Rd.fin a ∧ s'.azimuthDeg.get e' = XR.fin a' ∧ |a| ≤ 180 + 1e-10 ∧
      |a - a' - k * 360| ≤ 0.00032 / sin (rad ζ))) ∧
    ∃ v : ℝ, s.zenith.get e = Rd.fin v ∧ |v| ≤ 10 := by
  obtain ⟨b, hb, hz, hz2⟩ := rd_cell h ha
  obtain ⟨b', hb', ht, hφ, hl, hc'⟩ := at_cell h' ha'
  obtain ⟨b₀, hb₀, -, -, -, hc₀⟩ := at_cell h₀ ha₀
  have hso : ∀ {b : Backend} {eng : String} (uc : UseCase) (r : Bool), Backend.ofNames "iqbal" eng = some b →
      b.cell uc (toSec t) (XR.fin l) (XR.fin φ) r = (iqbOut (toSec t) l φ r).fin := by
    intro b eng uc r hb
    rw [ofNames_iff] at hb
    cases b <;> simp only [Prod.mk.injEq, String.reduceEq, false_and, true_and] at hb
    · exact cell_iqbalPy _ uc l φ r
    · exact cell_iqbalNe _ uc l φ r
  rw [hso _ _ hb'] at hc'
  rw [hso _ _ hb₀] at hc₀
  have hrf : refr₀.isTrue = false := by cases refr₀ <;> simp_all [PyVal.isTrue]
  rw [hrf] at hc₀
  obtain ⟨Z, hZ⟩ : ∃ Z, Z = Iqbal.zenR (rad φ) (Iqbal.decAt (toSec t)) (Iqbal.H0 (toSec t) + rad l) := ⟨_, rfl⟩
  have hζr : ζ = Z * (180 / π) := by
    have h1 : (iqbOut (toSec t) l φ false).fin.zenith = XR.fin Z := by rw [hZ]; rfl
    have := hc₀.zenith.trans h1
    rw [zenithDeg_fin this] at hζ
    exact (XR.fin_inj.1 hζ).symm
  have hrad : rad ζ = Z := by rw [hζr, rad_deg]
  rw [hrad] at hs ⊢
  have hlx : |l| ≤ 180 := abs_le.2 ⟨hl.1, hl.2.le⟩
  have hφx : |φ| ≤ 90 := abs_le.2 ⟨hφ.1, hφ.2⟩
  have p2 := pi_gt_d4
  have p1 := pi_lt_d4
  have hsin1 := sin_le_one Z
  have hN : Iqbal.NearPos refr.isTrue Z
        (Iqbal.aziR (rad φ) (Iqbal.decAt (toSec t)) (Iqbal.H0 (toSec t) + rad l))
        (b.cell uc (toSec t) (Rd.fin l : Rd A) (Rd.fin φ) refr.isTrue) := by
    rw [hZ] at hs ⊢
    rw [ofNames_iff] at hb
    cases b <;> simp only [Prod.mk.injEq, String.reduceEq, false_and, true_and] at hb
    · exact Iqbal.cellPy_rd hlx hφx hs _
    · exact Iqbal.cellNe_rd _ hlx hφx hs _
  have hq0 : 0 < sin Z := lt_of_lt_of_le (by norm_num) hs
  have hx1 : (iqbOut (toSec t) l φ refr.isTrue).fin.zenith = XR.fin (Iqbal.withRefr refr.isTrue Z) := by rw [hZ]; rfl
  obtain ⟨⟨v, hv, bv, ev⟩, hAz⟩ := hN
  have ev1 : |v - Iqbal.withRefr refr.isTrue Z| * sin Z ≤ 1.609e-5 := by
    refine ev.trans ?_; split_ifs <;> norm_num
  have ev2 : refr ≠ .pyTrue → |v - Iqbal.withRefr refr.isTrue Z| * sin Z ≤ 8.33e-6 := by
    intro hr
    have : refr.isTrue = false := by cases refr <;> simp_all [PyVal.isTrue]
    rw [this] at ev ⊢; simpa using ev
  generalize Iqbal.withRefr refr.isTrue Z = Y at *
  generalize sin Z = q at *
  refine ⟨⟨?_, ?_⟩, ?_⟩
  · clear hAz
    have e2 : |v - Y| ≤ 0.006 := by
      by_contra hc
      push Not at hc
      have := mul_lt_mul' hc.le (lt_of_lt_of_le (by norm_num : (0.002999:ℝ) < 0.003) hs) (by norm_num) (by linarith [abs_nonneg (v - Y)])
      norm_num at *; linarith
    have hbz : |Y| ≤ 5.5 := by
      have := abs_le.1 e2
      have := abs_le.1 bv
      rw [abs_le]; constructor <;> norm_num at * <;> linarith
    have hA : Ap (Rd.fin v : Rd A) Y 5.5 |v - Y| := ⟨hbz, v, rfl, le_rfl⟩
    obtain ⟨-, g, hg, eg⟩ := degrees_ap hA (by norm_num) (e2.trans (by norm_num))
    have hm : |g - Y * (180 / π)| * q ≤ (57.31 * |v - Y| + 5e-12) * q := by gcongr
    refine ⟨g, _, ?_, zenithDeg_fin (hc'.zenith.trans hx1), ?_, ?_⟩
    · rw [rd_zenithDeg, hz, hv]; exact hg
    · rw [le_div_iff₀ hq0]
      norm_num at *; linarith
    · intro hr
      have := ev2 hr
      rw [le_div_iff₀ hq0]
      norm_num at *; linarith
  · obtain ⟨a, k, ha1, ha2, ha3⟩ := degrees_apm hAz (by norm_num at *; linarith)
    refine ⟨a, _, k, ?_, azimuthDeg_fin hc'.azimuth, ?_, ?_⟩
    · rw [rd_azimuthDeg, hz2]; exact ha1
    · refine ha2.trans ?_
      have e1 : (π + 1e-13) * (180 / π) = 180 + 1e-13 * (180 / π) := by field_simp
      have h57 : 180 / π ≤ 60 := by rw [div_le_iff₀ pi_pos]; have := pi_gt_three; linarith
      rw [e1]; norm_num at *; linarith
    · refine ha3.trans ?_
      rw [le_div_iff₀ hq0, add_mul, ← mul_div_assoc, div_mul_cancel₀ _ hq0.ne']
      norm_num at *; linarith
  · exact ⟨v, hz.trans hv, bv.trans (by norm_num)⟩

/-- C61: iqbal. Let `ζ` be the zenith angle of exact arithmetic without refraction. If `sin ζ ≥ 0.003` then in
every arithmetic with the accuracy of double precision (coordinates and functions of the latitude in single
precision, as the programs have them) the zenith and azimuth angles are numbers, within 0.00093/sin ζ
(0.00048/sin ζ without refraction) and 0.00032/sin ζ degrees of those of exact arithmetic (azimuth up to
whole turns), for any use cases and engines. -/
theorem C61_iqbal_position {uc uc' uc₀ : UseCase} {w : World (Rd A)} {w' w₀ : World XR}
    {times times' times₀ : Times} {latitude longitude : Coord (Rd A)}
    {latitude' longitude' latitude₀ longitude₀ : Coord XR} {eng eng' eng₀ : String} {refr refr₀ : PyVal}
    {s : Sunpos (Rd A)} {s' s₀ : Sunpos XR} {e e' e₀ : Dim → Nat} {t : Int} {φ l ζ : ℝ}
    (h : call uc w times latitude longitude "iqbal" refr eng = .ok s)
    (h' : call uc' w' times' latitude' longitude' "iqbal" refr eng' = .ok s')
    (h₀ : call uc₀ w₀ times₀ latitude₀ longitude₀ "iqbal" refr₀ eng₀ = .ok s₀) (hr₀ : refr₀ ≠ .pyTrue)
    (ha : AtRd s times e t φ l) (ha' : At s' times' e' t φ l) (ha₀ : At s₀ times₀ e₀ t φ l)
    (hζ : s₀.zenithDeg.get e₀ = XR.fin ζ) (hs : 0.003 ≤ sin (rad ζ)) :
    (∃ z z', s.zenithDeg.get e = Rd.fin z ∧ s'.zenithDeg.get e' = XR.fin z' ∧
      |z - z'| ≤ 0.00093 / sin (rad ζ) ∧ (refr ≠ .pyTrue → |z - z'| ≤ 0.00048 / sin (rad ζ))) ∧
    (∃ a a', ∃ k : ℤ, s.azimuthDeg.get e = Rd.fin a ∧ s'.azimuthDeg.get e' = XR.fin a' ∧ |a| ≤ 180 + 1e-10 ∧
      |a - a' - k * 360| ≤ 0.00032 / sin (rad ζ)) :=
  (iqbal_position h h' h₀ hr₀ ha ha' ha₀ hζ hs).1

/-- C61: iqbal. Two calls, in any two arithmetics with the accuracy of double precision, of any use cases and
engines, agree at cells with the same instant and place. -/
theorem C61_iqbal_agree {B : Arith} {uc uc' uc₀ : UseCase} {w : World (Rd A)} {w' : World (Rd B)} {w₀ : World XR}
    {times times' times₀ : Times} {latitude longitude : Coord (Rd A)} {latitude' longitude' : Coord (Rd B)}
    {latitude₀ longitude₀ : Coord XR} {eng eng' eng₀ : String} {refr refr₀ : PyVal}
    {s : Sunpos (Rd A)} {s' : Sunpos (Rd B)} {s₀ : Sunpos XR} {e e' e₀ : Dim → Nat} {t : Int} {φ l ζ : ℝ}
    (h : call uc w times latitude longitude "iqbal" refr eng = .ok s)
    (h' : call uc' w' times' latitude' longitude' "iqbal" refr eng' = .ok s')
    (h₀ : call uc₀ w₀ times₀ latitude₀ longitude₀ "iqbal" refr₀ eng₀ = .ok s₀) (hr₀ : refr₀ ≠ .pyTrue)
    (ha : AtRd s times e t φ l) (ha' : AtRd s' times' e' t φ l) (ha₀ : At s₀ times₀ e₀ t φ l)
    (hζ : s₀.zenithDeg.get e₀ = XR.fin ζ) (hs : 0.003 ≤ sin (rad ζ)) :
    (∃ d d', s.decDeg.get e = Rd.fin d ∧ s'.decDeg.get e' = Rd.fin d' ∧ |d - d'| ≤ 2e-10) ∧
    (∃ f f', s.ecf.get e = Rd.fin f ∧ s'.ecf.get e' = Rd.fin f' ∧ |f - f'| ≤ 2e-13) ∧
    (∃ q q', s.eot.get e = Rd.fin q ∧ s'.eot.get e' = Rd.fin q' ∧ |q - q'| ≤ 2e-10) ∧
    (∃ z z', s.zenithDeg.get e = Rd.fin z ∧ s'.zenithDeg.get e' = Rd.fin z' ∧
      |z - z'| ≤ 0.00186 / sin (rad ζ)) ∧
    (∃ a a', ∃ k : ℤ, s.azimuthDeg.get e = Rd.fin a ∧ s'.azimuthDeg.get e' = Rd.fin a' ∧
      |a - a' - k * 360| ≤ 0.00064 / sin (rad ζ)) := by
  obtain ⟨b₀, hb₀, -, hφ, hl, -⟩ := at_cell h₀ ha₀
  have hk : KnownPair "iqbal" eng₀ := known_iff.2 ⟨b₀, hb₀⟩
  obtain ⟨sx, hx, hax⟩ := single_call .sites hk refr ha.range hφ hl
  obtain ⟨⟨d, d0, t1, t2, t3⟩, ⟨f, f0, t4, t5, t6⟩, ⟨q, q0, t7, t8, t9⟩⟩ := C61_iqbal_time (e' := fun _ => 0) h hx ha.time hax.time ha.range
  obtain ⟨⟨d', d0', u1, u2, u3⟩, ⟨f', f0', u4, u5, u6⟩, ⟨q', q0', u7, u8, u9⟩⟩ := C61_iqbal_time (e' := fun _ => 0) h' hx ha'.time hax.time ha.range
  obtain ⟨⟨z, z0, p1, p2, p3, -⟩, ⟨a, a0, k, p4, p5, -, p6⟩⟩ := C61_iqbal_position h hx h₀ hr₀ ha hax ha₀ hζ hs
  obtain ⟨⟨z', z0', v1, v2, v3, -⟩, ⟨a', a0', k', v4, v5, -, v6⟩⟩ := C61_iqbal_position h' hx h₀ hr₀ ha' hax ha₀ hζ hs
  obtain rfl := XR.fin_inj.1 (t2.symm.trans u2)
  obtain rfl := XR.fin_inj.1 (t5.symm.trans u5)
  obtain rfl := XR.fin_inj.1 (t8.symm.trans u8)
  obtain rfl := XR.fin_inj.1 (p2.symm.trans v2)
  obtain rfl := XR.fin_inj.1 (p5.symm.trans v5)
  have tri : ∀ x y z a a' b : ℝ, |x - z| ≤ a → |y - z| ≤ a' → b = a + a' → |x - y| ≤ b := by
    intro x y z a a' b h1 h2 h3
    have := abs_sub_le x z y
    rw [abs_sub_comm z y] at this; linarith
  refine ⟨⟨d, d', t1, u1, tri _ _ _ _ _ _ t3 u3 (by norm_num)⟩, ⟨f, f', t4, u4, tri _ _ _ _ _ _ t6 u6 (by norm_num)⟩,
    ⟨q, q', t7, u7, tri _ _ _ _ _ _ t9 u9 (by norm_num)⟩, ⟨z, z', p1, v1, tri _ _ _ _ _ _ p3 v3 ?_⟩,
    ⟨a, a', k - k', p4, v4, ?_⟩⟩
  · rw [← add_div]; norm_num
  · rw [show a - a' - ((k - k' : ℤ) : ℝ) * 360 = (a - a0 - k * 360) - (a' - a0 - k' * 360) by push_cast; ring]
    refine (abs_sub _ _).trans ?_
    have e : 0.00064 / sin (rad ζ) = 0.00032 / sin (rad ζ) + 0.00032 / sin (rad ζ) := by rw [← add_div]; norm_num
    rw [e]; linarith

/-- The hypotheses of the theorems above are met by calls in the 53-bit arithmetic, for both engines: at latitude
60 degrees, at every instant. -/
example {t : Int} (ht : |t| < 2 ^ 63) (uc : UseCase) {eng : String} (hk : KnownPair "iqbal" eng) :
    ∃ (w : World (Rd Arith.binary64)) (s : Sunpos (Rd Arith.binary64)) (s₀ : Sunpos XR) (ζ : ℝ),
    call uc w (oneTime t) (.vec [Rd.fin 60]) (.vec [Rd.fin (-4.5)]) "iqbal" .pyFalse eng = .ok s ∧
    call uc exWorld (oneTime t) (.vec [.fin 60]) (.vec [.fin (-4.5)]) "iqbal" .pyFalse eng = .ok s₀ ∧
    AtRd s (oneTime t) (fun _ => 0) t 60 (-4.5) ∧ At s₀ (oneTime t) (fun _ => 0) t 60 (-4.5) ∧
    s₀.zenithDeg.get (fun _ => 0) = XR.fin ζ ∧ 0.003 ≤ sin (rad ζ) := by
  obtain ⟨w, s, h, ha⟩ := single_call_rd (A := Arith.binary64) uc hk .pyFalse binary64_90 binary64_180 ht
    (φ := 60) (l := -4.5) (by norm_num) (by norm_num)
  obtain ⟨s₀, h₀, ha₀⟩ := single_call uc hk .pyFalse ht (φ := 60) (l := -4.5) (by norm_num) (by norm_num)
  obtain ⟨b, hb, hts, hφ, -, hc⟩ := at_cell h₀ ha₀
  have hso : b.cell uc (toSec t) (XR.fin (-4.5)) (XR.fin 60) false = (iqbOut (toSec t) (-4.5) 60 false).fin := by
    rw [ofNames_iff] at hb
    cases b <;> simp only [Prod.mk.injEq, String.reduceEq, false_and, true_and] at hb
    · exact cell_iqbalPy _ uc _ _ _
    · exact cell_iqbalNe _ uc _ _ _
  have hz := hc.zenith
  rw [show PyVal.isTrue .pyFalse = false from rfl, hso] at hz
  have hz1 : (iqbOut (toSec t) (-4.5) 60 false).fin.zenith
    = XR.fin (Iqbal.zenR (rad 60) (Iqbal.decAt (toSec t)) (Iqbal.H0 (toSec t) + rad (-4.5))) := rfl
  refine ⟨w, s, s₀, _, h, h₀, ha, ha₀, zenithDeg_fin (hz.trans hz1), ?_⟩
  rw [rad_deg]
  have hD : |Iqbal.decAt (toSec t)| ≤ 0.4232 := Iqbal.decl_bound _
  have hsd := (Real.abs_sin_le_abs (x := Iqbal.decAt (toSec t))).trans hD
  have e1 : rad 60 = π / 3 := by unfold rad; ring
  unfold Iqbal.zenR
  rw [e1, sin_pi_div_three, cos_pi_div_three]
  obtain ⟨H, hH⟩ : ∃ H, H = Iqbal.H0 (toSec t) + rad (-4.5) := ⟨_, rfl⟩
  rw [← hH]
  generalize Iqbal.decAt (toSec t) = D at *
  have h3 : √3 ≤ 2 := by rw [Real.sqrt_le_left (by norm_num)]; norm_num
  have h30 := Real.sqrt_nonneg 3
  have hr : |√3 / 2 * sin D + 1 / 2 * cos D * cos H| ≤ 0.93 := by
    have a1 : |√3 / 2 * sin D| ≤ 1 * 0.43 := by
      rw [abs_mul, abs_of_nonneg (by positivity)]
      have : √3 / 2 ≤ 1 := by linarith
      gcongr
      exact hsd.trans (by norm_num)
    have a2 : |1 / 2 * cos D * cos H| ≤ 1 / 2 * 1 * 1 := by
      rw [abs_mul, abs_mul, abs_of_pos (by norm_num : (0 : ℝ) < 1 / 2)]
      gcongr
      · exact abs_cos_le_one _
      · exact abs_cos_le_one _
    have := abs_add_le (√3 / 2 * sin D) (1 / 2 * cos D * cos H)
    norm_num at *; linarith
  generalize √3 / 2 * sin D + 1 / 2 * cos D * cos H = S at *
  have hb0 := abs_le.1 (hr.trans (by norm_num : (0.93 : ℝ) ≤ 1))
  have hu0 : 0 ≤ sin (arccos S) := sin_nonneg_of_nonneg_of_le_pi (arccos_nonneg _) (arccos_le_pi _)
  have hu2 : sin (arccos S) ^ 2 = 1 - S ^ 2 := by
    have := sin_sq_add_cos_sq (arccos S); rw [cos_arccos hb0.1 hb0.2] at this; linarith
  have : S ^ 2 ≤ 0.93 ^ 2 := sq_le_sq' (by linarith [abs_le.1 hr]) (abs_le.1 hr).2
  refine abs_le_of_sq_le_sq' (a := (0.003 : ℝ)) ?_ hu0 |>.2
  rw [hu2]; norm_num at *; linarith

end SW.Props
