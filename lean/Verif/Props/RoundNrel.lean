/-
Floating-point results of nrel against exact results (C62), as Props/Rounding.lean does for psa.
-/
import Verif.Props.Rounding
import Verif.RdNrelCell
import Verif.RdPole

namespace SW.Props
open SW.Spec Real

variable {A : Arith}

theorem nrel_backend {b : Backend} {eng : String} (hb : Backend.ofNames "nrel" eng = some b) : b = .nrelNe := by
  rw [ofNames_iff] at hb
  cases b <;> simp only [Prod.mk.injEq, String.reduceEq, false_and, true_and] at hb
  rfl

/-- C62: nrel. In every arithmetic with the accuracy of double precision, a call returns numbers for the
declination, the eccentricity correction factor and the equation of time at every instant, and they are
those of exact arithmetic to 4e-8 degrees, 2e-10 and 1.1e-6 minutes. The two calls may be of any use cases. -/
theorem C62_nrel_time {uc uc' : UseCase} {w : World (Rd A)} {w' : World XR} {times times' : Times}
    {latitude longitude : Coord (Rd A)} {latitude' longitude' : Coord XR} {eng eng' : String}
    {refr refr' : PyVal} {s : Sunpos (Rd A)} {s' : Sunpos XR} {e e' : Dim → Nat} {t : Int}
    (h : call uc w times latitude longitude "nrel" refr eng = .ok s)
    (h' : call uc' w' times' latitude' longitude' "nrel" refr' eng' = .ok s')
    (hk : stampAt times.stamps (e .time) = some t) (hk' : stampAt times'.stamps (e' .time) = some t)
    (hrange : |t| < 2 ^ 63) :
    NearTime s s' e e' 4e-8 2e-10 1.1e-6 := by
  obtain ⟨b, hb, hc⟩ := rd_time h hk
  obtain ⟨c1, c2, c3⟩ := hc 0 0
  obtain ⟨ht, o, o1, o2, o3, ho⟩ := time_cases h' hk' hrange
  simp only [String.reduceEq, false_and, true_and, or_false, false_or] at ho
  subst ho
  obtain rfl := nrel_backend hb
  have m1 := Nrel.time_delta_ap (A := A) ht
  obtain ⟨-, f, hf, ef⟩ := Nrel.ecf_ap (Nrel.time_R_ap (A := A) ht) (Nrel.time_R ht).1
  obtain ⟨-, q, hq, eq⟩ := Nrel.time_eot_ap (A := A) ht
  obtain ⟨-, g, hg, eg⟩ := degrees_ap m1 (by norm_num) (by norm_num)
  refine ⟨⟨g, _, ?_, decDeg_fin o3, ?_⟩, ⟨f, _, c1.trans hf, o1, ?_⟩, ⟨q, _, c2.trans hq, o2, eq⟩⟩
  · rw [rd_decDeg, c3]; exact hg
  · exact eg.trans (by norm_num)
  · exact ef.trans (by norm_num)

/-- The hypotheses of the theorem are met at every instant by calls in the 53-bit arithmetic. -/
example {t : Int} (ht : |t| < 2 ^ 63) (uc : UseCase) (r : PyVal) :
    ∃ (w : World (Rd Arith.binary64)) (s : Sunpos (Rd Arith.binary64)) (s' : Sunpos XR),
    call uc w (oneTime t) (.vec [Rd.fin 60]) (.vec [Rd.fin (-4.5)]) "nrel" r "numexpr" = .ok s ∧
    call uc exWorld (oneTime t) (.vec [.fin 60]) (.vec [.fin (-4.5)]) "nrel" r "numexpr" = .ok s' ∧
    NearTime s s' (fun _ => 0) (fun _ => 0) 4e-8 2e-10 1.1e-6 := by
  have hk : KnownPair "nrel" "numexpr" := known_iff.2 ⟨.nrelNe, by rw [ofNames_iff]⟩
  obtain ⟨w, s, h, ha⟩ := single_call_rd (A := Arith.binary64) uc hk r binary64_90 binary64_180 ht
    (φ := 60) (l := -4.5) (by norm_num) (by norm_num)
  obtain ⟨s₀, h₀, ha₀⟩ := single_call uc hk r ht (φ := 60) (l := -4.5) (by norm_num) (by norm_num)
  exact ⟨w, s, s₀, h, h₀, C62_nrel_time h h₀ ha.time ha₀.time ht⟩

theorem nrel_thr_deg {E : ℝ} (h : 0.000012 < |(π / 2 - E) * (180 / π) - (90 + 1.4545e-2 * (180 / π))|) :
    2e-7 < |E + 1.4545e-2| := by
  have hp := pi_gt_d4
  have e : (π / 2 - E) * (180 / π) - (90 + 1.4545e-2 * (180 / π)) = -((E + 1.4545e-2) * (180 / π)) := by
    field_simp; ring
  rw [e, abs_neg, abs_mul, abs_of_pos (by positivity : 0 < 180 / π), mul_div_assoc', lt_div_iff₀ pi_pos] at h
  norm_num at *; linarith

/-- C62, with the stored zenith angle (radians) -/
theorem nrel_position {uc uc' uc₀ : UseCase} {w : World (Rd A)} {w' w₀ : World XR}
    {times times' times₀ : Times} {latitude longitude : Coord (Rd A)}
    {latitude' longitude' latitude₀ longitude₀ : Coord XR} {eng eng' eng₀ : String} {refr refr₀ : PyVal}
    {s : Sunpos (Rd A)} {s' s₀ : Sunpos XR} {e e' e₀ : Dim → Nat} {t : Int} {φ l ζ : ℝ}
    (h : call uc w times latitude longitude "nrel" refr eng = .ok s)
    (h' : call uc' w' times' latitude' longitude' "nrel" refr eng' = .ok s')
    (h₀ : call uc₀ w₀ times₀ latitude₀ longitude₀ "nrel" refr₀ eng₀ = .ok s₀) (hr₀ : refr₀ ≠ .pyTrue)
    (ha : AtRd s times e t φ l) (ha' : At s' times' e' t φ l) (ha₀ : At s₀ times₀ e₀ t φ l)
    (hpole : |φ| ≤ 90 - 1e-10 ∨ ∃ r, Num.tan (Rd.fin φ * DEG2RAD : Rd A) = Rd.fin r ∧ 0 ≤ r * φ)
    (hζ : s₀.zenithDeg.get e₀ = XR.fin ζ) (hs : 0.0005 ≤ sin (rad ζ))
    (hthr : refr = .pyTrue → 0.000012 < |ζ - (90 + 1.4545e-2 * (180 / π))|) :
    ((∃ z z', s.zenithDeg.get e = Rd.fin z ∧ s'.zenithDeg.get e' = XR.fin z' ∧
      |z - z'| ≤ 0.0000102 / sin (rad ζ)) ∧
    (∃ a a', ∃ k : ℤ, s.azimuthDeg.get e = Rd.fin a ∧ s'.azimuthDeg.get e' = XR.fin a' ∧ |a| ≤ 180 + 1e-10 ∧
      |a - a' - k * 360| ≤ 0.0000062 / sin (rad ζ))) ∧
    ∃ v : ℝ, s.zenith.get e = Rd.fin v ∧ |v| ≤ 10 := by
  obtain ⟨b, hb, hz, hz2⟩ := rd_cell h ha
  obtain ⟨b', hb', ht, hφ, hl, hc'⟩ := at_cell h' ha'
  obtain ⟨b₀, hb₀, -, -, -, hc₀⟩ := at_cell h₀ ha₀
  obtain rfl := nrel_backend hb
  obtain rfl := nrel_backend hb'
  obtain rfl := nrel_backend hb₀
  rw [cell_nrel ht] at hc' hc₀
  have hrf : refr₀.isTrue = false := by cases refr₀ <;> simp_all [PyVal.isTrue]
  rw [hrf] at hc₀
  have hζr : ζ = (π / 2 - Nrel.elevAt (toSec t) l φ) * (180 / π) := by
    have e0 : (Nrel.cell (toSec t) l φ false).fin.zenith = XR.fin (π / 2 - Nrel.elevAt (toSec t) l φ) := by
      show XR.fin (Nrel.cell (toSec t) l φ false).zenith = _
      rw [(Nrel.cell_at _ l φ false).1]; rfl
    have := hc₀.zenith.trans e0
    rw [zenithDeg_fin this] at hζ
    exact (XR.fin_inj.1 hζ).symm
  have hrad : sin (rad ζ) = cos (Nrel.elevAt (toSec t) l φ) := by rw [hζr, rad_deg, sin_pi_div_two_sub]
  rw [hrad] at hs ⊢
  have hs0 : 0 < cos (Nrel.elevAt (toSec t) l φ) := lt_of_lt_of_le (by norm_num) hs
  have hlx : |l| ≤ 180 := abs_le.2 ⟨hl.1, hl.2.le⟩
  have hφx : |φ| ≤ 90 := abs_le.2 ⟨hφ.1, hφ.2⟩
  have hN := Nrel.cell_rd ht hlx hφx hpole (by norm_num at hs ⊢; linarith) refr.isTrue
  have hthr' : refr.isTrue = true → 2e-7 < |Nrel.elevAt (toSec t) l φ + 1.4545e-2| := fun hr => by
    apply nrel_thr_deg
    rw [← hζr]
    apply hthr
    revert hr; cases refr <;> simp [PyVal.isTrue]
  have hZ : s'.zenith.get e' = XR.fin (Nrel.cell (toSec t) l φ refr.isTrue).zenith := hc'.zenith
  have hA' : s'.azimuth.get e' = XR.fin (Nrel.cell (toSec t) l φ refr.isTrue).azimuth := hc'.azimuth
  have h1 := cos_le_one (Nrel.elevAt (toSec t) l φ)
  obtain ⟨v, hv, bv, ev⟩ := hN.zenith
  have hAz := hN.azimuth
  obtain ⟨e1, e2⟩ := ev hthr'
  clear ev hN hthr' hthr
  generalize cos (Nrel.elevAt (toSec t) l φ) = q at *
  generalize (Nrel.cell (toSec t) l φ refr.isTrue).zenith = Y at *
  generalize (Nrel.cell (toSec t) l φ refr.isTrue).azimuth = Z at *
  refine ⟨⟨?_, ?_⟩, ?_⟩
  · have hbz : |Y| ≤ 3.3 := by
      have := abs_le.1 e2
      have := abs_le.1 bv
      rw [abs_le]; constructor <;> norm_num at * <;> linarith
    have hA : Ap (Rd.fin v : Rd A) Y 3.3 |v - Y| := ⟨hbz, v, rfl, le_rfl⟩
    obtain ⟨-, g, hg, eg⟩ := degrees_ap hA (by norm_num) (e2.trans (by norm_num))
    refine ⟨g, _, ?_, zenithDeg_fin hZ, ?_⟩
    · rw [rd_zenithDeg, hz]
      exact (congrArg degrees hv).trans hg
    · rw [le_div_iff₀ hs0]
      have : |g - Y * (180 / π)| * q ≤ (57.31 * |v - Y| + 5e-12) * q := by gcongr
      generalize |v - Y| = D at *
      norm_num at *; nlinarith
  · have hp := pi_lt_d2
    obtain ⟨a, k, ha1, ha2, ha3⟩ := degrees_apm hAz (by norm_num at *; linarith)
    refine ⟨a, _, k, ?_, azimuthDeg_fin hA', ?_, ?_⟩
    · rw [rd_azimuthDeg, hz2]; exact ha1
    · refine ha2.trans ?_
      have e1 : (π + 1e-14) * (180 / π) = 180 + 1e-14 * (180 / π) := by field_simp
      have h57 : 180 / π ≤ 60 := by rw [div_le_iff₀ pi_pos]; have := pi_gt_three; linarith
      rw [e1]; norm_num at *; linarith
    · refine ha3.trans ?_
      rw [le_div_iff₀ hs0, add_mul, ← mul_div_assoc, div_mul_cancel₀ _ hs0.ne']
      norm_num at *; linarith
  · exact ⟨v, hz.trans hv, bv.trans (by norm_num)⟩

/-- C62: nrel. Let `ζ` be the zenith angle of exact arithmetic without refraction, at least 0.029 degrees from
the zenith and the nadir (`sin ζ ≥ 0.0005`) and, if refraction is asked for, not within 0.000012 degrees of the
zenith angle at which the correction sets in. Let the latitude be at least 1e-10 degrees from the poles, or else
let the computed tangent of the latitude have its sign. Then in every arithmetic with the accuracy of double
precision the zenith and azimuth angles are numbers, within 1.02e-5/sin ζ and 6.2e-6/sin ζ degrees of those of
exact arithmetic (azimuth up to whole turns), for any use cases. -/
theorem C62_nrel_position {uc uc' uc₀ : UseCase} {w : World (Rd A)} {w' w₀ : World XR}
    {times times' times₀ : Times} {latitude longitude : Coord (Rd A)}
    {latitude' longitude' latitude₀ longitude₀ : Coord XR} {eng eng' eng₀ : String} {refr refr₀ : PyVal}
    {s : Sunpos (Rd A)} {s' s₀ : Sunpos XR} {e e' e₀ : Dim → Nat} {t : Int} {φ l ζ : ℝ}
    (h : call uc w times latitude longitude "nrel" refr eng = .ok s)
    (h' : call uc' w' times' latitude' longitude' "nrel" refr eng' = .ok s')
    (h₀ : call uc₀ w₀ times₀ latitude₀ longitude₀ "nrel" refr₀ eng₀ = .ok s₀) (hr₀ : refr₀ ≠ .pyTrue)
    (ha : AtRd s times e t φ l) (ha' : At s' times' e' t φ l) (ha₀ : At s₀ times₀ e₀ t φ l)
    (hpole : |φ| ≤ 90 - 1e-10 ∨ ∃ r, Num.tan (Rd.fin φ * DEG2RAD : Rd A) = Rd.fin r ∧ 0 ≤ r * φ)
    (hζ : s₀.zenithDeg.get e₀ = XR.fin ζ) (hs : 0.0005 ≤ sin (rad ζ))
    (hthr : refr = .pyTrue → 0.000012 < |ζ - (90 + 1.4545e-2 * (180 / π))|) :
    (∃ z z', s.zenithDeg.get e = Rd.fin z ∧ s'.zenithDeg.get e' = XR.fin z' ∧
      |z - z'| ≤ 0.0000102 / sin (rad ζ)) ∧
    (∃ a a', ∃ k : ℤ, s.azimuthDeg.get e = Rd.fin a ∧ s'.azimuthDeg.get e' = XR.fin a' ∧ |a| ≤ 180 + 1e-10 ∧
      |a - a' - k * 360| ≤ 0.0000062 / sin (rad ζ)) :=
  (nrel_position h h' h₀ hr₀ ha ha' ha₀ hpole hζ hs hthr).1

/-- C62: nrel in the arithmetic of IEEE 754 double precision with correctly rounded functions: the poles are no
exception. -/
theorem C62_nrel_binary64 {uc uc' uc₀ : UseCase} {w : World (Rd Arith.binary64)} {w' w₀ : World XR}
    {times times' times₀ : Times} {latitude longitude : Coord (Rd Arith.binary64)}
    {latitude' longitude' latitude₀ longitude₀ : Coord XR} {eng eng' eng₀ : String} {refr refr₀ : PyVal}
    {s : Sunpos (Rd Arith.binary64)} {s' s₀ : Sunpos XR} {e e' e₀ : Dim → Nat} {t : Int} {φ l ζ : ℝ}
    (h : call uc w times latitude longitude "nrel" refr eng = .ok s)
    (h' : call uc' w' times' latitude' longitude' "nrel" refr eng' = .ok s')
    (h₀ : call uc₀ w₀ times₀ latitude₀ longitude₀ "nrel" refr₀ eng₀ = .ok s₀) (hr₀ : refr₀ ≠ .pyTrue)
    (ha : AtRd s times e t φ l) (ha' : At s' times' e' t φ l) (ha₀ : At s₀ times₀ e₀ t φ l)
    (hζ : s₀.zenithDeg.get e₀ = XR.fin ζ) (hs : 0.0005 ≤ sin (rad ζ))
    (hthr : refr = .pyTrue → 0.000012 < |ζ - (90 + 1.4545e-2 * (180 / π))|) :
    (∃ z z', s.zenithDeg.get e = Rd.fin z ∧ s'.zenithDeg.get e' = XR.fin z' ∧
      |z - z'| ≤ 0.0000102 / sin (rad ζ)) ∧
    (∃ a a', ∃ k : ℤ, s.azimuthDeg.get e = Rd.fin a ∧ s'.azimuthDeg.get e' = XR.fin a' ∧ |a| ≤ 180 + 1e-10 ∧
      |a - a' - k * 360| ≤ 0.0000062 / sin (rad ζ)) := by
  obtain ⟨-, -, -, hφ, -, -⟩ := at_cell h' ha'
  exact C62_nrel_position h h' h₀ hr₀ ha ha' ha₀ (Nrel.poleOk_binary64 (abs_le.2 hφ)) hζ hs hthr

/-- C62: nrel. Two calls, in any two arithmetics with the accuracy of double precision and of any use cases,
agree at cells with the same instant and place. -/
theorem C62_nrel_agree {B : Arith} {uc uc' uc₀ : UseCase} {w : World (Rd A)} {w' : World (Rd B)} {w₀ : World XR}
    {times times' times₀ : Times} {latitude longitude : Coord (Rd A)} {latitude' longitude' : Coord (Rd B)}
    {latitude₀ longitude₀ : Coord XR} {eng eng' eng₀ : String} {refr refr₀ : PyVal}
    {s : Sunpos (Rd A)} {s' : Sunpos (Rd B)} {s₀ : Sunpos XR} {e e' e₀ : Dim → Nat} {t : Int} {φ l ζ : ℝ}
    (h : call uc w times latitude longitude "nrel" refr eng = .ok s)
    (h' : call uc' w' times' latitude' longitude' "nrel" refr eng' = .ok s')
    (h₀ : call uc₀ w₀ times₀ latitude₀ longitude₀ "nrel" refr₀ eng₀ = .ok s₀) (hr₀ : refr₀ ≠ .pyTrue)
    (ha : AtRd s times e t φ l) (ha' : AtRd s' times' e' t φ l) (ha₀ : At s₀ times₀ e₀ t φ l)
    (hpole : |φ| ≤ 90 - 1e-10)
    (hζ : s₀.zenithDeg.get e₀ = XR.fin ζ) (hs : 0.0005 ≤ sin (rad ζ))
    (hthr : refr = .pyTrue → 0.000012 < |ζ - (90 + 1.4545e-2 * (180 / π))|) :
    (∃ d d', s.decDeg.get e = Rd.fin d ∧ s'.decDeg.get e' = Rd.fin d' ∧ |d - d'| ≤ 8e-8) ∧
    (∃ f f', s.ecf.get e = Rd.fin f ∧ s'.ecf.get e' = Rd.fin f' ∧ |f - f'| ≤ 4e-10) ∧
    (∃ q q', s.eot.get e = Rd.fin q ∧ s'.eot.get e' = Rd.fin q' ∧ |q - q'| ≤ 2.2e-6) ∧
    (∃ z z', s.zenithDeg.get e = Rd.fin z ∧ s'.zenithDeg.get e' = Rd.fin z' ∧
      |z - z'| ≤ 0.0000204 / sin (rad ζ)) ∧
    (∃ a a', ∃ k : ℤ, s.azimuthDeg.get e = Rd.fin a ∧ s'.azimuthDeg.get e' = Rd.fin a' ∧
      |a - a' - k * 360| ≤ 0.0000124 / sin (rad ζ)) := by
  obtain ⟨b₀, hb₀, -, hφ, hl, -⟩ := at_cell h₀ ha₀
  have hk : KnownPair "nrel" eng₀ := known_iff.2 ⟨b₀, hb₀⟩
  obtain ⟨sx, hx, hax⟩ := single_call .sites hk refr ha.range hφ hl
  obtain ⟨⟨d, d0, t1, t2, t3⟩, ⟨f, f0, t4, t5, t6⟩, ⟨q, q0, t7, t8, t9⟩⟩ := C62_nrel_time (e' := fun _ => 0) h hx ha.time hax.time ha.range
  obtain ⟨⟨d', d0', u1, u2, u3⟩, ⟨f', f0', u4, u5, u6⟩, ⟨q', q0', u7, u8, u9⟩⟩ := C62_nrel_time (e' := fun _ => 0) h' hx ha'.time hax.time ha.range
  obtain ⟨⟨z, z0, p1, p2, p3⟩, ⟨a, a0, k, p4, p5, -, p6⟩⟩ := C62_nrel_position h hx h₀ hr₀ ha hax ha₀ (.inl hpole) hζ hs hthr
  obtain ⟨⟨z', z0', v1, v2, v3⟩, ⟨a', a0', k', v4, v5, -, v6⟩⟩ := C62_nrel_position h' hx h₀ hr₀ ha' hax ha₀ (.inl hpole) hζ hs hthr
  obtain rfl := XR.fin_inj.1 (t2.symm.trans u2)
  obtain rfl := XR.fin_inj.1 (t5.symm.trans u5)
  obtain rfl := XR.fin_inj.1 (t8.symm.trans u8)
  obtain rfl := XR.fin_inj.1 (p2.symm.trans v2)
  obtain rfl := XR.fin_inj.1 (p5.symm.trans v5)
  have tri : ∀ x y z a a' b : ℝ, |x - z| ≤ a → |y - z| ≤ a' → b = a + a' → |x - y| ≤ b := by
    intro x y z a a' b h1 h2 h3
    have := abs_sub_le x z y
    rw [abs_sub_comm z y] at this; linarith
  refine ⟨⟨d, d', t1, u1, tri _ _ _ _ _ _ t3 u3 (by norm_num)⟩, ⟨f, f', t4, u4, tri _ _ _ _ _ _ t6 u6 (by norm_num)⟩,
    ⟨q, q', t7, u7, tri _ _ _ _ _ _ t9 u9 (by norm_num)⟩, ⟨z, z', p1, v1, tri _ _ _ _ _ _ p3 v3 ?_⟩,
    ⟨a, a', k - k', p4, v4, ?_⟩⟩
  · rw [← add_div]; norm_num
  · rw [show a - a' - ((k - k' : ℤ) : ℝ) * 360 = (a - a0 - k * 360) - (a' - a0 - k' * 360) by push_cast; ring]
    refine (abs_sub _ _).trans ?_
    have e : 0.0000124 / sin (rad ζ) = 0.0000062 / sin (rad ζ) + 0.0000062 / sin (rad ζ) := by rw [← add_div]; norm_num
    rw [e]; linarith

/-- The hypotheses of the theorems above are met by calls in the 53-bit arithmetic: at latitude 60 degrees, at
every instant. -/
example {t : Int} (ht : |t| < 2 ^ 63) (uc : UseCase) {eng : String} (hk : KnownPair "nrel" eng) :
    ∃ (w : World (Rd Arith.binary64)) (s : Sunpos (Rd Arith.binary64)) (s₀ : Sunpos XR) (ζ : ℝ),
    call uc w (oneTime t) (.vec [Rd.fin 60]) (.vec [Rd.fin (-4.5)]) "nrel" .pyFalse eng = .ok s ∧
    call uc exWorld (oneTime t) (.vec [.fin 60]) (.vec [.fin (-4.5)]) "nrel" .pyFalse eng = .ok s₀ ∧
    AtRd s (oneTime t) (fun _ => 0) t 60 (-4.5) ∧ At s₀ (oneTime t) (fun _ => 0) t 60 (-4.5) ∧
    |(60 : ℝ)| ≤ 90 - 1e-10 ∧
    s₀.zenithDeg.get (fun _ => 0) = XR.fin ζ ∧ 0.0005 ≤ sin (rad ζ) := by
  obtain ⟨w, s, h, ha⟩ := single_call_rd (A := Arith.binary64) uc hk .pyFalse binary64_90 binary64_180 ht
    (φ := 60) (l := -4.5) (by norm_num) (by norm_num)
  obtain ⟨s₀, h₀, ha₀⟩ := single_call uc hk .pyFalse ht (φ := 60) (l := -4.5) (by norm_num) (by norm_num)
  obtain ⟨b, hb, hts, hφ, -, hc⟩ := at_cell h₀ ha₀
  obtain rfl := nrel_backend hb
  rw [cell_nrel hts] at hc
  have hz : s₀.zenith.get (fun _ => 0) = XR.fin (π / 2 - Nrel.elevAt (toSec t) (-4.5) 60) := by
    refine hc.zenith.trans ?_
    show XR.fin (Nrel.cell (toSec t) (-4.5) 60 false).zenith = _
    rw [(Nrel.cell_at _ _ _ false).1]; rfl
  refine ⟨w, s, s₀, _, h, h₀, ha, ha₀, by norm_num, zenithDeg_fin hz, ?_⟩
  rw [rad_deg, sin_pi_div_two_sub]
  have hD : |Nrel.dpAt (toSec t) (-4.5) 60| ≤ 0.4155 := by
    have hp : Nrel.PoleOk Arith.binary64 60 := .inl (by norm_num)
    have h60 : |(60 : ℝ)| ≤ 90 := by norm_num
    exact (Nrel.deltap_ap (Nrel.px_ap h60 hp) (Nrel.py_ap h60 hp) (Nrel.xi_ap (Nrel.time_R_ap hts) (Nrel.time_R hts).1)
      (Nrel.hourAngle_apm hts (by norm_num)) (Nrel.time_delta_ap hts)).1
  have hsd := (Real.abs_sin_le_abs (x := Nrel.dpAt (toSec t) (-4.5) 60)).trans hD
  have e1 : (60 : ℝ) * (π / 180) = π / 3 := by ring
  unfold Nrel.elevAt
  rw [Nrel.elev_real, e1, sin_pi_div_three, cos_pi_div_three]
  generalize Nrel.hpAt (toSec t) (-4.5) 60 = H
  generalize Nrel.dpAt (toSec t) (-4.5) 60 = D at *
  have h3 : √3 ≤ 2 := by rw [Real.sqrt_le_left (by norm_num)]; norm_num
  have h30 := Real.sqrt_nonneg 3
  have hr : |√3 / 2 * sin D + 1 / 2 * cos D * cos H| ≤ 0.93 := by
    have a1 : |√3 / 2 * sin D| ≤ 1 * 0.43 := by
      rw [abs_mul, abs_of_nonneg (by positivity)]
      have : √3 / 2 ≤ 1 := by linarith
      gcongr
      exact hsd.trans (by norm_num)
    have a2 : |1 / 2 * cos D * cos H| ≤ 1 / 2 * 1 * 1 := by
      rw [abs_mul, abs_mul, abs_of_pos (by norm_num : (0 : ℝ) < 1 / 2)]
      gcongr
      · exact abs_cos_le_one _
      · exact abs_cos_le_one _
    have := abs_add_le (√3 / 2 * sin D) (1 / 2 * cos D * cos H)
    norm_num at *; linarith
  generalize √3 / 2 * sin D + 1 / 2 * cos D * cos H = S at *
  have hb0 := abs_le.1 (hr.trans (by norm_num : (0.93 : ℝ) ≤ 1))
  have hu0 : 0 ≤ cos (arcsin S) := cos_arcsin_nonneg _
  have hu2 : cos (arcsin S) ^ 2 = 1 - S ^ 2 := by
    have := sin_sq_add_cos_sq (arcsin S); rw [sin_arcsin hb0.1 hb0.2] at this; linarith
  have : S ^ 2 ≤ 0.93 ^ 2 := sq_le_sq' (by linarith [abs_le.1 hr]) (abs_le.1 hr).2
  refine abs_le_of_sq_le_sq' (a := (0.0005 : ℝ)) ?_ hu0 |>.2
  rw [hu2]; norm_num at *; linarith

/-- The hypotheses are met at the pole too, at every instant. -/
example {t : Int} (ht : |t| < 2 ^ 63) (uc : UseCase) {eng : String} (hk : KnownPair "nrel" eng) :
    ∃ (w : World (Rd Arith.binary64)) (s : Sunpos (Rd Arith.binary64)) (s₀ : Sunpos XR) (ζ : ℝ),
    call uc w (oneTime t) (.vec [Rd.fin 90]) (.vec [Rd.fin (-4.5)]) "nrel" .pyFalse eng = .ok s ∧
    call uc exWorld (oneTime t) (.vec [.fin 90]) (.vec [.fin (-4.5)]) "nrel" .pyFalse eng = .ok s₀ ∧
    AtRd s (oneTime t) (fun _ => 0) t 90 (-4.5) ∧ At s₀ (oneTime t) (fun _ => 0) t 90 (-4.5) ∧
    s₀.zenithDeg.get (fun _ => 0) = XR.fin ζ ∧ 0.0005 ≤ sin (rad ζ) := by
  obtain ⟨w, s, h, ha⟩ := single_call_rd (A := Arith.binary64) uc hk .pyFalse binary64_90 binary64_180 ht
    (φ := 90) (l := -4.5) (by norm_num) (by norm_num)
  obtain ⟨s₀, h₀, ha₀⟩ := single_call uc hk .pyFalse ht (φ := 90) (l := -4.5) (by norm_num) (by norm_num)
  obtain ⟨b, hb, hts, hφ, -, hc⟩ := at_cell h₀ ha₀
  obtain rfl := nrel_backend hb
  rw [cell_nrel hts] at hc
  have hz : s₀.zenith.get (fun _ => 0) = XR.fin (π / 2 - Nrel.elevAt (toSec t) (-4.5) 90) := by
    refine hc.zenith.trans ?_
    show XR.fin (Nrel.cell (toSec t) (-4.5) 90 false).zenith = _
    rw [(Nrel.cell_at _ _ _ false).1]; rfl
  refine ⟨w, s, s₀, _, h, h₀, ha, ha₀, zenithDeg_fin hz, ?_⟩
  rw [rad_deg, sin_pi_div_two_sub]
  have hD : |Nrel.dpAt (toSec t) (-4.5) 90| ≤ 0.4155 := by
    have h90 : |(90 : ℝ)| ≤ 90 := by norm_num
    have hp := Nrel.poleOk_binary64 h90
    exact (Nrel.deltap_ap (Nrel.px_ap h90 hp) (Nrel.py_ap h90 hp) (Nrel.xi_ap (Nrel.time_R_ap hts) (Nrel.time_R hts).1)
      (Nrel.hourAngle_apm hts (by norm_num)) (Nrel.time_delta_ap hts)).1
  have hsd := (Real.abs_sin_le_abs (x := Nrel.dpAt (toSec t) (-4.5) 90)).trans hD
  have e1 : (90 : ℝ) * (π / 180) = π / 2 := by ring
  unfold Nrel.elevAt
  rw [Nrel.elev_real, e1, sin_pi_div_two, cos_pi_div_two, zero_mul, zero_mul, add_zero, one_mul]
  generalize sin (Nrel.dpAt (toSec t) (-4.5) 90) = S at *
  have hb0 := abs_le.1 (hsd.trans (by norm_num : (0.4155 : ℝ) ≤ 1))
  have hu0 : 0 ≤ cos (arcsin S) := cos_arcsin_nonneg _
  have hu2 : cos (arcsin S) ^ 2 = 1 - S ^ 2 := by
    have := sin_sq_add_cos_sq (arcsin S); rw [sin_arcsin hb0.1 hb0.2] at this; linarith
  have : S ^ 2 ≤ 0.4155 ^ 2 := sq_le_sq' (by linarith [abs_le.1 hsd]) (abs_le.1 hsd).2
  refine abs_le_of_sq_le_sq' (a := (0.0005 : ℝ)) ?_ hu0 |>.2
  rw [hu2]; norm_num at *; linarith

end SW.Props
