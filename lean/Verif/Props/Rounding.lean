/-
Floating-point results against exact results (C55). `Rd A` is any arithmetic with the accuracy of double
precision (Verif/Round.lean); the programs are the same ones that the other properties are about.
-/
import Verif.Props.Exact
import Verif.RdPsaCell
import Verif.RoundIeee

namespace SW.Props
open SW.Spec Real

variable {A : Arith}

/-- A cell of an object computed in the arithmetic `A` whose instant is `t`, whose latitude is `φ` and
whose longitude is `l`: `Spec.At`, for rounded numbers. -/
structure AtRd (s : Sunpos (Rd A)) (times : Times) (e : Dim → Nat) (t : Int) (φ l : ℝ) : Prop where
  within : Within s.zenith e
  time : stampAt times.stamps (e .time) = some t
  range : |t| < 2 ^ 63
  lat : s.latitude.get e = Rd.fin φ
  lon : s.longitude.get e = Rd.fin l

/-- At the cells `e` and `e'` both objects have numbers for the declination, the eccentricity correction
factor and the equation of time, at most `td` degrees, `tf` and `tq` minutes apart. -/
def NearTime (s : Sunpos (Rd A)) (s' : Sunpos XR) (e e' : Dim → Nat) (td tf tq : ℝ) : Prop :=
  (∃ d d', s.decDeg.get e = Rd.fin d ∧ s'.decDeg.get e' = XR.fin d' ∧ |d - d'| ≤ td) ∧
  (∃ f f', s.ecf.get e = Rd.fin f ∧ s'.ecf.get e' = XR.fin f' ∧ |f - f'| ≤ tf) ∧
  (∃ q q', s.eot.get e = Rd.fin q ∧ s'.eot.get e' = XR.fin q' ∧ |q - q'| ≤ tq)

/-! ### from calls to cells -/

theorem rd_time {uc : UseCase} {w : World (Rd A)} {times : Times} {latitude longitude : Coord (Rd A)}
    {alg eng : String} {refr : PyVal} {s : Sunpos (Rd A)} {e : Dim → Nat} {t : Int}
    (h : call uc w times latitude longitude alg refr eng = .ok s)
    (hk : stampAt times.stamps (e .time) = some t) :
    ∃ b, Backend.ofNames alg eng = some b ∧ ∀ x y,
      s.ecf.get e = (b.cell uc (toSec t) x y refr.isTrue).ecf ∧
      s.eot.get e = (b.cell uc (toSec t) x y refr.isTrue).eot ∧
      s.declination.get e = (b.cell uc (toSec t) x y refr.isTrue).declination := by
  obtain ⟨lat, lon, b, utc, hacc, hu, hr⟩ := call_inv h
  unfold stampAt at hk
  have c1 : e .time < times.stamps.length := by
    by_contra hc
    rw [List.getElem?_eq_none (not_lt.1 hc)] at hk
    simp at hk
  refine ⟨b, hacc.names, fun x y => ?_⟩
  have := hr.time e c1 x y
  rw [hk] at this
  exact this

theorem rd_cell {uc : UseCase} {w : World (Rd A)} {times : Times} {latitude longitude : Coord (Rd A)}
    {alg eng : String} {refr : PyVal} {s : Sunpos (Rd A)} {e : Dim → Nat} {t : Int} {φ l : ℝ}
    (h : call uc w times latitude longitude alg refr eng = .ok s) (ha : AtRd s times e t φ l) :
    ∃ b, Backend.ofNames alg eng = some b ∧
      s.zenith.get e = (b.cell uc (toSec t) (Rd.fin l) (Rd.fin φ) refr.isTrue).zenith ∧
      s.azimuth.get e = (b.cell uc (toSec t) (Rd.fin l) (Rd.fin φ) refr.isTrue).azimuth := by
  obtain ⟨lat, lon, b, utc, hacc, hu, hr⟩ := call_inv h
  obtain ⟨c1, c2, c3⟩ := cell_inv hr hacc.len ha.within
  obtain ⟨z, a⟩ := hr.cell e c1 c2 c3
  have ht := ha.time
  unfold stampAt at ht
  rw [ht, ha.lat, ha.lon] at z a
  exact ⟨b, hacc.names, z, a⟩

theorem rd_decDeg {s : Sunpos (Rd A)} {e : Dim → Nat} : s.decDeg.get e = degrees (s.declination.get e) := rfl
theorem rd_zenithDeg {s : Sunpos (Rd A)} {e : Dim → Nat} : s.zenithDeg.get e = degrees (s.zenith.get e) := rfl
theorem rd_azimuthDeg {s : Sunpos (Rd A)} {e : Dim → Nat} : s.azimuthDeg.get e = degrees (s.azimuth.get e) := rfl

/-! ### psa -/

theorem psa_time_cell {b : Backend} {alg eng : String} (hb : Backend.ofNames alg eng = some b) (ha : alg = "psa")
    (uc : UseCase) {t : ℤ} (ht : InSec t) (r : Bool) (x y : Rd A) :
    Ap (b.cell uc t x y r).declination (Psa.timeNe (t : ℝ)).delta 0.41 1e-10 ∧
    Ap (b.cell uc t x y r).ecf (Psa.timeNe (t : ℝ)).ecf 1.04 1e-10 ∧
    Ap (b.cell uc t x y r).eot (Psa.timeNe (t : ℝ)).eot 19.5 1.1e-7 := by
  subst ha
  have hj := Psa.jde_ap (A := A) ht
  rw [ofNames_iff] at hb
  cases b <;> simp only [Prod.mk.injEq, String.reduceEq, false_and, true_and] at hb
  · exact ⟨Psa.delta_ap hj, Psa.ecf_ap (Psa.jdc_ap hj), Psa.eot_rd hj (.inl rfl)⟩
  · exact ⟨Psa.delta_ap hj, Psa.ecf_ap (Psa.jdc_ap hj), Psa.eot_rd hj (.inr rfl)⟩

/-- C55: psa. In every arithmetic with the accuracy of double precision, a call returns numbers for the
declination, the eccentricity correction factor and the equation of time at every instant, and they are
those of exact arithmetic to 1e-8 degrees, 1e-10 and 1.1e-7 minutes. The two calls may be of any use cases
and engines. -/
theorem C55_psa_time {uc uc' : UseCase} {w : World (Rd A)} {w' : World XR} {times times' : Times}
    {latitude longitude : Coord (Rd A)} {latitude' longitude' : Coord XR} {eng eng' : String}
    {refr refr' : PyVal} {s : Sunpos (Rd A)} {s' : Sunpos XR} {e e' : Dim → Nat} {t : Int}
    (h : call uc w times latitude longitude "psa" refr eng = .ok s)
    (h' : call uc' w' times' latitude' longitude' "psa" refr' eng' = .ok s')
    (hk : stampAt times.stamps (e .time) = some t) (hk' : stampAt times'.stamps (e' .time) = some t)
    (hrange : |t| < 2 ^ 63) :
    NearTime s s' e e' 1e-8 1e-10 1.1e-7 := by
  obtain ⟨b, hb, hc⟩ := rd_time h hk
  obtain ⟨c1, c2, c3⟩ := hc 0 0
  obtain ⟨ht, o, o1, o2, o3, ho⟩ := time_cases h' hk' hrange
  simp only [String.reduceEq, false_and, true_and, or_false] at ho
  subst ho
  obtain ⟨⟨-, d, hd, ed⟩, ⟨-, f, hf, ef⟩, ⟨-, q, hq, eq⟩⟩ := psa_time_cell hb rfl uc ht refr.isTrue (0 : Rd A) 0
  obtain ⟨m1, -⟩ := psa_time_cell hb rfl uc ht refr.isTrue (0 : Rd A) 0
  obtain ⟨-, g, hg, eg⟩ := degrees_ap m1 (by norm_num) (by norm_num)
  refine ⟨⟨g, _, ?_, decDeg_fin o3, ?_⟩, ⟨f, _, c1.trans hf, o1, ef⟩, ⟨q, _, c2.trans hq, o2, eq⟩⟩
  · rw [rd_decDeg, c3]; exact hg
  · exact eg.trans (by norm_num)

/-- the exact cell of either engine -/
theorem psa_exact {b : Backend} {alg eng : String} (hb : Backend.ofNames alg eng = some b) (ha : alg = "psa")
    {t : ℤ} (ht : InSec t) (x y : ℝ) : ∃ ζ : ℝ,
    Psa.Zen0 (Psa.cosz (cos (Psa.phi y)) (sin (Psa.phi y)) (Psa.haNe t x) (Psa.timeNe (t : ℝ)).delta) ζ ∧
    ∀ uc r, (b.cell uc t (XR.fin x) (XR.fin y) r).zenith = XR.fin (Psa.withRefr r ζ) ∧
      (b.cell uc t (XR.fin x) (XR.fin y) r).azimuth = XR.fin (Psa.azWrap
        (Psa.az0 (cos (Psa.phi y)) (sin (Psa.phi y)) (Psa.haNe t x) (Psa.timeNe (t : ℝ)).delta)) := by
  subst ha
  have hm := Psa.cosz_mem (Psa.phi y) (Psa.haNe t x) (Psa.timeNe (t : ℝ)).delta
  rw [ofNames_iff] at hb
  cases b <;> simp only [Prod.mk.injEq, String.reduceEq, false_and, true_and] at hb
  · refine ⟨_, Psa.zen0_py _ hm, fun uc r => ?_⟩
    rw [cell_psaPy ht, Psa.cellPy_eq]; exact ⟨rfl, rfl⟩
  · refine ⟨_, Psa.zen0_ne _ hm, fun uc r => ?_⟩
    rw [cell_psaNe ht, Psa.cellNe_real]; exact ⟨rfl, rfl⟩

/-- threshold of refraction, in degrees of zenith angle -/
theorem thr_deg {ζ : ℝ} (h : 0.00064 < |ζ * (180 / π) - (90 + 1.4545e-2 * (180 / π))|) :
    1.1e-5 < |π / 2 + 1.4545e-2 - ζ| := by
  have hp := pi_gt_d4
  have e : ζ * (180 / π) - (90 + 1.4545e-2 * (180 / π)) = (ζ - (π / 2 + 1.4545e-2)) * (180 / π) := by
    field_simp; ring
  rw [e, abs_mul, abs_of_pos (by positivity : 0 < 180 / π), abs_sub_comm, mul_div_assoc', lt_div_iff₀ pi_pos] at h
  norm_num at *; linarith

/-- C55, with the stored zenith angle (radians) -/
theorem psa_position {uc uc' uc₀ : UseCase} {w : World (Rd A)} {w' w₀ : World XR}
    {times times' times₀ : Times} {latitude longitude : Coord (Rd A)}
    {latitude' longitude' latitude₀ longitude₀ : Coord XR} {eng eng' : String} {refr refr₀ : PyVal}
    {s : Sunpos (Rd A)} {s' s₀ : Sunpos XR} {e e' e₀ : Dim → Nat} {t : Int} {φ l ζ : ℝ}
    (h : call uc w times latitude longitude "psa" refr eng = .ok s)
    (h' : call uc' w' times' latitude' longitude' "psa" refr eng' = .ok s')
    (h₀ : call uc₀ w₀ times₀ latitude₀ longitude₀ "psa" refr₀ eng' = .ok s₀) (hr₀ : refr₀ ≠ .pyTrue)
    (ha : AtRd s times e t φ l) (ha' : At s' times' e' t φ l) (ha₀ : At s₀ times₀ e₀ t φ l)
    (hζ : s₀.zenithDeg.get e₀ = XR.fin ζ) (hs : 0.003 ≤ sin (rad ζ))
    (hthr : refr = .pyTrue → 0.00064 < |ζ - (90 + 1.4545e-2 * (180 / π))|) :
    ((∃ z z', s.zenithDeg.get e = Rd.fin z ∧ s'.zenithDeg.get e' = XR.fin z' ∧
      |z - z'| ≤ 0.0006 / sin (rad ζ) ∧ |z - z'| ≤ 0.24) ∧
    (∃ a a', ∃ k : ℤ, s.azimuthDeg.get e = Rd.fin a ∧ s'.azimuthDeg.get e' = XR.fin a' ∧ |a| ≤ 180 + 1e-10 ∧
      |a - a' - k * 360| ≤ 0.0003 / sin (rad ζ))) ∧
    ∃ v : ℝ, s.zenith.get e = Rd.fin v ∧ |v| ≤ 10 := by
  obtain ⟨b, hb, hz, hz2⟩ := rd_cell h ha
  obtain ⟨b', hb', ht, hφ, hl, hc'⟩ := at_cell h' ha'
  obtain ⟨b₀, hb₀, -, -, -, hc₀⟩ := at_cell h₀ ha₀
  obtain rfl : b' = b₀ := Option.some.inj (hb'.symm.trans hb₀)
  obtain ⟨ζr, hZ, hex⟩ := psa_exact hb' rfl ht l φ
  obtain ⟨x1, x2⟩ := hex uc' refr.isTrue
  obtain ⟨y1, -⟩ := hex uc₀ refr₀.isTrue
  have hrf : refr₀.isTrue = false := by cases refr₀ <;> simp_all [PyVal.isTrue]
  rw [hrf] at y1 hc₀
  have hζr : ζ = ζr * (180 / π) := by
    have := hc₀.zenith.trans y1
    rw [zenithDeg_fin this] at hζ
    exact (XR.fin_inj.1 hζ).symm
  have hrad : rad ζ = ζr := by rw [hζr, rad_deg]
  rw [hrad] at hs ⊢
  have hs0 : 0 < sin ζr := lt_of_lt_of_le (by norm_num) hs
  have hlx : |l| ≤ 180 := abs_le.2 ⟨hl.1, hl.2.le⟩
  have hφx : |φ| ≤ 90 := abs_le.2 ⟨hφ.1, hφ.2⟩
  have hN : Psa.NearPos refr.isTrue ζr (Psa.withRefr refr.isTrue ζr) (Psa.azWrap
        (Psa.az0 (cos (Psa.phi φ)) (sin (Psa.phi φ)) (Psa.haNe (toSec t) l) (Psa.timeNe ((toSec t : ℤ) : ℝ)).delta))
        (b.cell uc (toSec t) (Rd.fin l : Rd A) (Rd.fin φ) refr.isTrue) := by
    rw [ofNames_iff] at hb
    cases b <;> simp only [Prod.mk.injEq, String.reduceEq, false_and, true_and] at hb
    · exact Psa.cellPy_rd ht hlx hφx hZ hs _
    · exact Psa.cellNe_rd ht hlx hφx hZ hs _
  refine ⟨⟨?_, ?_⟩, ?_⟩
  · obtain ⟨v, hv, bv, ev⟩ := hN.zenith
    obtain ⟨e1, e2⟩ := ev (fun hr => by
      apply thr_deg
      rw [← hζr]
      apply hthr
      revert hr; cases refr <;> simp [PyVal.isTrue])
    have hbz : |Psa.withRefr refr.isTrue ζr| ≤ 3.3 := by
      have := abs_le.1 e2
      have := abs_le.1 bv
      rw [abs_le]; constructor <;> norm_num at * <;> linarith
    have hA : Ap (Rd.fin v : Rd A) (Psa.withRefr refr.isTrue ζr) 3.3 |v - Psa.withRefr refr.isTrue ζr| := ⟨hbz, v, rfl, le_rfl⟩
    obtain ⟨-, g, hg, eg⟩ := degrees_ap hA (by norm_num) (e2.trans (by norm_num))
    refine ⟨g, _, ?_, zenithDeg_fin (hc'.zenith.trans x1), ?_, ?_⟩
    · rw [rd_zenithDeg, hz, hv]; exact hg
    · rw [le_div_iff₀ hs0]
      have h1 := sin_le_one ζr
      have : |g - Psa.withRefr refr.isTrue ζr * (180 / π)| * sin ζr
          ≤ (57.31 * |v - Psa.withRefr refr.isTrue ζr| + 5e-12) * sin ζr := by gcongr
      generalize |v - Psa.withRefr refr.isTrue ζr| = D at *
      norm_num at *; nlinarith
    · refine eg.trans ?_
      norm_num at *; linarith
  · have hp := pi_lt_d2
    have h1 := sin_le_one ζr
    obtain ⟨a, k, ha1, ha2, ha3⟩ := degrees_apm hN.azimuth (by norm_num at *; linarith)
    refine ⟨a, _, k, ?_, azimuthDeg_fin (hc'.azimuth.trans x2), ?_, ?_⟩
    · rw [rd_azimuthDeg, hz2]; exact ha1
    · refine ha2.trans ?_
      have e1 : (π + 1e-13) * (180 / π) = 180 + 1e-13 * (180 / π) := by field_simp
      have h57 : 180 / π ≤ 60 := by rw [div_le_iff₀ pi_pos]; have := pi_gt_three; linarith
      rw [e1]; norm_num at *; linarith
    · refine ha3.trans ?_
      rw [le_div_iff₀ hs0, add_mul, ← mul_div_assoc, div_mul_cancel₀ _ hs0.ne']
      norm_num at *; linarith
  · obtain ⟨v, hv, bv, -⟩ := hN.zenith
    exact ⟨v, hz.trans hv, bv.trans (by norm_num)⟩

/-- C55: psa. Let `ζ` be the zenith angle of exact arithmetic without refraction, at least 0.17 degrees from
the zenith and the nadir (`sin ζ ≥ 0.003`) and, if refraction is asked for, not within 0.00064 degrees of the
zenith angle at which the correction sets in. Then in every arithmetic with the accuracy of double precision
(coordinates in single precision, as the programs have them) the zenith and azimuth angles are numbers,
within 0.0006/sin ζ and 0.0003/sin ζ degrees of those of exact arithmetic (azimuth up to whole turns), for any
use cases and engines. -/
theorem C55_psa_position {uc uc' uc₀ : UseCase} {w : World (Rd A)} {w' w₀ : World XR}
    {times times' times₀ : Times} {latitude longitude : Coord (Rd A)}
    {latitude' longitude' latitude₀ longitude₀ : Coord XR} {eng eng' : String} {refr refr₀ : PyVal}
    {s : Sunpos (Rd A)} {s' s₀ : Sunpos XR} {e e' e₀ : Dim → Nat} {t : Int} {φ l ζ : ℝ}
    (h : call uc w times latitude longitude "psa" refr eng = .ok s)
    (h' : call uc' w' times' latitude' longitude' "psa" refr eng' = .ok s')
    (h₀ : call uc₀ w₀ times₀ latitude₀ longitude₀ "psa" refr₀ eng' = .ok s₀) (hr₀ : refr₀ ≠ .pyTrue)
    (ha : AtRd s times e t φ l) (ha' : At s' times' e' t φ l) (ha₀ : At s₀ times₀ e₀ t φ l)
    (hζ : s₀.zenithDeg.get e₀ = XR.fin ζ) (hs : 0.003 ≤ sin (rad ζ))
    (hthr : refr = .pyTrue → 0.00064 < |ζ - (90 + 1.4545e-2 * (180 / π))|) :
    (∃ z z', s.zenithDeg.get e = Rd.fin z ∧ s'.zenithDeg.get e' = XR.fin z' ∧
      |z - z'| ≤ 0.0006 / sin (rad ζ) ∧ |z - z'| ≤ 0.24) ∧
    (∃ a a', ∃ k : ℤ, s.azimuthDeg.get e = Rd.fin a ∧ s'.azimuthDeg.get e' = XR.fin a' ∧ |a| ≤ 180 + 1e-10 ∧
      |a - a' - k * 360| ≤ 0.0003 / sin (rad ζ)) :=
  (psa_position h h' h₀ hr₀ ha ha' ha₀ hζ hs hthr).1

/-- C55: psa, numpy engine. In every arithmetic with the accuracy of double precision the five variables are
numbers at every instant and place, and the zenith angle is within 0.24 degrees of that of exact arithmetic
even at the zenith and the nadir, where its cosine is insensitive to it. -/
theorem C55_psa_numpy_numbers {uc uc' uc₀ : UseCase} {w : World (Rd A)} {w' w₀ : World XR}
    {times times' times₀ : Times} {latitude longitude : Coord (Rd A)}
    {latitude' longitude' latitude₀ longitude₀ : Coord XR} {eng' : String} {refr refr₀ : PyVal}
    {s : Sunpos (Rd A)} {s' s₀ : Sunpos XR} {e e' e₀ : Dim → Nat} {t : Int} {φ l ζ : ℝ}
    (h : call uc w times latitude longitude "psa" refr "numpy" = .ok s)
    (h' : call uc' w' times' latitude' longitude' "psa" refr eng' = .ok s')
    (h₀ : call uc₀ w₀ times₀ latitude₀ longitude₀ "psa" refr₀ eng' = .ok s₀) (hr₀ : refr₀ ≠ .pyTrue)
    (ha : AtRd s times e t φ l) (ha' : At s' times' e' t φ l) (ha₀ : At s₀ times₀ e₀ t φ l)
    (hζ : s₀.zenithDeg.get e₀ = XR.fin ζ) :
    (∃ a, s.azimuthDeg.get e = Rd.fin a) ∧
    ∃ z z', s.zenithDeg.get e = Rd.fin z ∧ s'.zenithDeg.get e' = XR.fin z' ∧
      ((refr = .pyTrue → 0.00064 < |ζ - (90 + 1.4545e-2 * (180 / π))|) →
        |z - z'| * sin (rad ζ) ≤ 0.0006 ∧ |z - z'| ≤ 0.24) := by
  obtain ⟨b, hb, hz, hz2⟩ := rd_cell h ha
  obtain ⟨b', hb', ht, hφ, hl, hc'⟩ := at_cell h' ha'
  obtain ⟨b₀, hb₀, -, -, -, hc₀⟩ := at_cell h₀ ha₀
  obtain rfl : b' = b₀ := Option.some.inj (hb'.symm.trans hb₀)
  obtain ⟨ζr, hZ, hex⟩ := psa_exact hb' rfl ht l φ
  obtain ⟨x1, x2⟩ := hex uc' refr.isTrue
  obtain ⟨y1, -⟩ := hex uc₀ refr₀.isTrue
  have hrf : refr₀.isTrue = false := by cases refr₀ <;> simp_all [PyVal.isTrue]
  rw [hrf] at y1 hc₀
  have hζr : ζ = ζr * (180 / π) := by
    have := hc₀.zenith.trans y1
    rw [zenithDeg_fin this] at hζ
    exact (XR.fin_inj.1 hζ).symm
  have hrad : rad ζ = ζr := by rw [hζr, rad_deg]
  rw [hrad]
  have hlx : |l| ≤ 180 := abs_le.2 ⟨hl.1, hl.2.le⟩
  have hφx : |φ| ≤ 90 := abs_le.2 ⟨hφ.1, hφ.2⟩
  obtain rfl : b = .psaPy := by
    rw [ofNames_iff] at hb
    cases b <;> simp only [Prod.mk.injEq, String.reduceEq, and_false, false_and, true_and] at hb
    rfl
  have hs0 : 0 ≤ sin ζr := by
    obtain ⟨r₀, -, -, rfl⟩ := hZ.ex
    exact sin_nonneg_of_nonneg_of_le_pi Psa.parallax_range.1 Psa.parallax_range.2
  constructor
  · obtain ⟨a, hak, am⟩ := Psa.azimuthPy_num (A := A) ht hlx hφx refr.isTrue
    obtain ⟨-, g, hg, -⟩ := degrees_ap (A := A) (Ap.ofFin a (K := 4) (am.trans (by have := pi_lt_d2; norm_num at *; linarith))) (by norm_num) (by norm_num)
    exact ⟨g, by rw [rd_azimuthDeg, hz2]; exact (congrArg degrees hak).trans hg⟩
  · obtain ⟨v, hv, bv, ev⟩ := Psa.cellPy_zenith (A := A) ht hlx hφx hZ refr.isTrue
    obtain ⟨-, g, hg, eg⟩ := degrees_ap (A := A) (Ap.ofFin v bv) (by norm_num) (by norm_num)
    refine ⟨g, _, ?_, zenithDeg_fin (hc'.zenith.trans x1), fun hthr => ?_⟩
    · rw [rd_zenithDeg, hz]; exact (congrArg degrees hv).trans hg
    obtain ⟨e1, e2⟩ := ev (fun hr => by
      apply thr_deg
      rw [← hζr]
      apply hthr
      revert hr; cases refr <;> simp [PyVal.isTrue])
    have h1 := sin_le_one ζr
    have hp := pi_gt_d4
    have h57 : 180 / π ≤ 57.3 := by rw [div_le_iff₀ pi_pos]; norm_num at *; linarith
    have h570 : 0 < 180 / π := by positivity
    have hd : |g - Psa.withRefr refr.isTrue ζr * (180 / π)| ≤ 57.3 * |v - Psa.withRefr refr.isTrue ζr| + 5e-12 := by
      have := abs_sub_le g (v * (180 / π)) (Psa.withRefr refr.isTrue ζr * (180 / π))
      rw [← sub_mul, abs_mul, abs_of_pos h570] at this
      have h3 : |v - Psa.withRefr refr.isTrue ζr| * (180 / π) ≤ |v - Psa.withRefr refr.isTrue ζr| * 57.3 := by gcongr
      norm_num at *; linarith
    constructor
    · have : |g - Psa.withRefr refr.isTrue ζr * (180 / π)| * sin ζr
          ≤ (57.3 * |v - Psa.withRefr refr.isTrue ζr| + 5e-12) * sin ζr := by gcongr
      generalize |v - Psa.withRefr refr.isTrue ζr| = D at *
      norm_num at *; nlinarith
    · refine hd.trans ?_
      norm_num at *; linarith

/-- C55: psa. Two calls, in any two arithmetics with the accuracy of double precision, of any use cases and
engines, agree at cells with the same instant and place: declination, eccentricity correction factor and
equation of time to 2e-8 degrees, 2e-10 and 2.2e-7 minutes, zenith and azimuth angles to 0.0012/sin ζ and
0.0006/sin ζ degrees, where `ζ` is the zenith angle of exact arithmetic without refraction (as in
`C55_psa_position`). -/
theorem C55_psa_agree {B : Arith} {uc uc' uc₀ : UseCase} {w : World (Rd A)} {w' : World (Rd B)} {w₀ : World XR}
    {times times' times₀ : Times} {latitude longitude : Coord (Rd A)} {latitude' longitude' : Coord (Rd B)}
    {latitude₀ longitude₀ : Coord XR} {eng eng' eng₀ : String} {refr refr₀ : PyVal}
    {s : Sunpos (Rd A)} {s' : Sunpos (Rd B)} {s₀ : Sunpos XR} {e e' e₀ : Dim → Nat} {t : Int} {φ l ζ : ℝ}
    (h : call uc w times latitude longitude "psa" refr eng = .ok s)
    (h' : call uc' w' times' latitude' longitude' "psa" refr eng' = .ok s')
    (h₀ : call uc₀ w₀ times₀ latitude₀ longitude₀ "psa" refr₀ eng₀ = .ok s₀) (hr₀ : refr₀ ≠ .pyTrue)
    (ha : AtRd s times e t φ l) (ha' : AtRd s' times' e' t φ l) (ha₀ : At s₀ times₀ e₀ t φ l)
    (hζ : s₀.zenithDeg.get e₀ = XR.fin ζ) (hs : 0.003 ≤ sin (rad ζ))
    (hthr : refr = .pyTrue → 0.00064 < |ζ - (90 + 1.4545e-2 * (180 / π))|) :
    (∃ d d', s.decDeg.get e = Rd.fin d ∧ s'.decDeg.get e' = Rd.fin d' ∧ |d - d'| ≤ 2e-8) ∧
    (∃ f f', s.ecf.get e = Rd.fin f ∧ s'.ecf.get e' = Rd.fin f' ∧ |f - f'| ≤ 2e-10) ∧
    (∃ q q', s.eot.get e = Rd.fin q ∧ s'.eot.get e' = Rd.fin q' ∧ |q - q'| ≤ 2.2e-7) ∧
    (∃ z z', s.zenithDeg.get e = Rd.fin z ∧ s'.zenithDeg.get e' = Rd.fin z' ∧
      |z - z'| ≤ 0.0012 / sin (rad ζ)) ∧
    (∃ a a', ∃ k : ℤ, s.azimuthDeg.get e = Rd.fin a ∧ s'.azimuthDeg.get e' = Rd.fin a' ∧
      |a - a' - k * 360| ≤ 0.0006 / sin (rad ζ)) := by
  obtain ⟨b₀, hb₀, -, hφ, hl, -⟩ := at_cell h₀ ha₀
  have hk : KnownPair "psa" eng₀ := known_iff.2 ⟨b₀, hb₀⟩
  obtain ⟨sx, hx, hax⟩ := single_call .sites hk refr ha.range hφ hl
  obtain ⟨⟨d, d0, t1, t2, t3⟩, ⟨f, f0, t4, t5, t6⟩, ⟨q, q0, t7, t8, t9⟩⟩ := C55_psa_time (e' := fun _ => 0) h hx ha.time hax.time ha.range
  obtain ⟨⟨d', d0', u1, u2, u3⟩, ⟨f', f0', u4, u5, u6⟩, ⟨q', q0', u7, u8, u9⟩⟩ := C55_psa_time (e' := fun _ => 0) h' hx ha'.time hax.time ha.range
  obtain ⟨⟨z, z0, p1, p2, p3, -⟩, ⟨a, a0, k, p4, p5, -, p6⟩⟩ := C55_psa_position h hx h₀ hr₀ ha hax ha₀ hζ hs hthr
  obtain ⟨⟨z', z0', v1, v2, v3, -⟩, ⟨a', a0', k', v4, v5, -, v6⟩⟩ := C55_psa_position h' hx h₀ hr₀ ha' hax ha₀ hζ hs hthr
  obtain rfl := XR.fin_inj.1 (t2.symm.trans u2)
  obtain rfl := XR.fin_inj.1 (t5.symm.trans u5)
  obtain rfl := XR.fin_inj.1 (t8.symm.trans u8)
  obtain rfl := XR.fin_inj.1 (p2.symm.trans v2)
  obtain rfl := XR.fin_inj.1 (p5.symm.trans v5)
  have tri : ∀ x y z a b : ℝ, |x - z| ≤ a → |y - z| ≤ a → b = a + a → |x - y| ≤ b := by
    intro x y z a b h1 h2 h3
    have := abs_sub_le x z y
    rw [abs_sub_comm z y] at this; linarith
  refine ⟨⟨d, d', t1, u1, tri _ _ _ _ _ t3 u3 (by norm_num)⟩, ⟨f, f', t4, u4, tri _ _ _ _ _ t6 u6 (by norm_num)⟩,
    ⟨q, q', t7, u7, tri _ _ _ _ _ t9 u9 (by norm_num)⟩, ⟨z, z', p1, v1, tri _ _ _ _ _ p3 v3 (by rw [← add_div]; norm_num)⟩,
    ⟨a, a', k - k', p4, v4, ?_⟩⟩
  rw [show a - a' - ((k - k' : ℤ) : ℝ) * 360 = (a - a0 - k * 360) - (a' - a0 - k' * 360) by push_cast; ring]
  refine (abs_sub _ _).trans ?_
  rw [show (0.0006 : ℝ) = 0.0003 + 0.0003 by norm_num, add_div]; linarith

/-! ### the hypotheses are met -/

/-- Every instant, latitude and longitude is a cell of some call in any arithmetic whose double-precision
constants 90.0 and 180.0 are exact. -/
theorem single_call_rd (uc : UseCase) {alg eng : String} (hk : KnownPair alg eng) (refr : PyVal)
    (h90 : A.lit 900 true 1 = XR.fin 90) (h180 : A.lit 1800 true 1 = XR.fin 180)
    {t : Int} (ht : |t| < 2 ^ 63) {φ l : ℝ} (hφ : -90 ≤ φ ∧ φ ≤ 90) (hl : -180 ≤ l ∧ l < 180) :
    ∃ (w : World (Rd A)) (s : Sunpos (Rd A)),
      call uc w (oneTime t) (.vec [Rd.fin φ]) (.vec [Rd.fin l]) alg refr eng = .ok s ∧
      AtRd s (oneTime t) (fun _ => 0) t φ l := by
  have e90 : (-90 : Rd A) = Rd.fin (-90) := rfl
  have e180 : (-180 : Rd A) = Rd.fin (-180) := rfl
  have f90 : (90.0 : Rd A) = Rd.fin 90 := h90
  have f180 : (180.0 : Rd A) = Rd.fin 180 := h180
  have le : ∀ x y : ℝ, Scalar.leB (Rd.fin x : Rd A) (Rd.fin y) = true ↔ x ≤ y := by
    intro x y
    show XR.cmp (· ≤ ·) (XR.fin x) (XR.fin y) = true ↔ _
    simp [XR.cmp]
  have lt : ∀ x y : ℝ, Scalar.ltB (Rd.fin x : Rd A) (Rd.fin y) = true ↔ x < y := by
    intro x y
    show XR.cmp (· < ·) (XR.fin x) (XR.fin y) = true ↔ _
    simp [XR.cmp]
  obtain ⟨s, hs⟩ := C05_naive_returns (uc := uc) (w := (⟨fun _ l => .ok l, 0⟩ : World (Rd A))) (times := oneTime t)
    (latitude := .vec [Rd.fin φ]) (longitude := .vec [Rd.fin l]) (lat := [Rd.fin φ]) (lon := [Rd.fin l])
    refr rfl rfl rfl rfl (by cases uc <;> simp [Lengths, oneTime]) hk
    (by
      intro x hx _
      rw [List.mem_singleton.1 hx, e90, f90, le, le]; exact hφ)
    (by
      intro x hx _
      rw [List.mem_singleton.1 hx, e180, f180, le, lt]; exact hl)
  refine ⟨_, s, hs, ?_⟩
  have hd := (C05_shape hs rfl rfl).1
  obtain ⟨lat, lon, b, utc, ha, _, hr⟩ := call_inv hs
  obtain rfl : [Rd.fin φ] = lat := Option.some.inj ha.lat_eq
  obtain rfl : [Rd.fin l] = lon := Option.some.inj ha.lon_eq
  refine ⟨?_, rfl, ht, ?_, ?_⟩
  · unfold Within; rw [hd]; cases uc <;> simp [documentedDims, oneTime]
  · rw [hr.latitude]; rfl
  · rw [hr.longitude]; rfl

/-- the constants are exact in the 53-bit arithmetic -/
theorem binary64_90 : Arith.binary64.lit 900 true 1 = XR.fin 90 := by
  show XR.fin (bits 52 (OfScientific.ofScientific 900 true 1)) = _
  have e : (OfScientific.ofScientific 900 true 1 : ℝ) = ((90 : ℤ) : ℝ) := by norm_num
  rw [e, bits_int (by norm_num)]; norm_num
theorem binary64_180 : Arith.binary64.lit 1800 true 1 = XR.fin 180 := by
  show XR.fin (bits 52 (OfScientific.ofScientific 1800 true 1)) = _
  have e : (OfScientific.ofScientific 1800 true 1 : ℝ) = ((180 : ℤ) : ℝ) := by norm_num
  rw [e, bits_int (by norm_num)]; norm_num

/-- The hypotheses of the theorems above are met by calls in the 53-bit arithmetic: at the north pole, where the
zenith angle is between 60 and 120 degrees, at every instant. -/
example {t : Int} (ht : |t| < 2 ^ 63) (uc : UseCase) : ∃ (w : World (Rd Arith.binary64)) (s : Sunpos (Rd Arith.binary64))
    (s₀ : Sunpos XR) (ζ : ℝ),
    call uc w (oneTime t) (.vec [Rd.fin 90]) (.vec [Rd.fin (-4.5)]) "psa" .pyFalse "numexpr" = .ok s ∧
    call uc exWorld (oneTime t) (.vec [.fin 90]) (.vec [.fin (-4.5)]) "psa" .pyFalse "numexpr" = .ok s₀ ∧
    AtRd s (oneTime t) (fun _ => 0) t 90 (-4.5) ∧ At s₀ (oneTime t) (fun _ => 0) t 90 (-4.5) ∧
    s₀.zenithDeg.get (fun _ => 0) = XR.fin ζ ∧ 0.003 ≤ sin (rad ζ) := by
  obtain ⟨w, s, h, ha⟩ := single_call_rd (A := Arith.binary64) uc (alg := "psa") (eng := "numexpr")
    (by simp [KnownPair]) .pyFalse binary64_90 binary64_180 ht (φ := 90) (l := -4.5) (by norm_num) (by norm_num)
  obtain ⟨s₀, h₀, ha₀⟩ := single_call uc (alg := "psa") (eng := "numexpr")
    (by simp [KnownPair]) .pyFalse ht (φ := 90) (l := -4.5) (by norm_num) (by norm_num)
  obtain ⟨b, hb, hts, -, -, hc⟩ := at_cell h₀ ha₀
  obtain ⟨ζ, hZ, hex⟩ := psa_exact hb rfl hts (-4.5) 90
  refine ⟨w, s, s₀, _, h, h₀, ha, ha₀, zenithDeg_fin (hc.zenith.trans (hex uc _).1), ?_⟩
  rw [rad_deg]
  show 0.003 ≤ sin ζ
  obtain ⟨r₀, h1, h2, rfl⟩ := hZ.ex
  have e1 : Psa.phi 90 = π / 2 := by show (90 : ℝ) * (π / 180) = _; ring
  rw [Psa.cosz_real, e1, cos_pi_div_two, sin_pi_div_two] at h2
  have hd : |(Psa.timeNe ((toSec t : ℤ) : ℝ)).delta| ≤ 0.41 := Psa.delta_bound (Psa.jde_bound hts)
  have hsd := (Real.abs_sin_le_abs (x := (Psa.timeNe ((toSec t : ℤ) : ℝ)).delta)).trans hd
  generalize (Psa.timeNe ((toSec t : ℤ) : ℝ)).delta = D at *
  have hr : |r₀| ≤ 0.42 := by
    have a1 := abs_le.1 h2
    have a2 := abs_le.1 hsd
    rw [abs_le]; constructor <;> norm_num at * <;> linarith
  have hb0 := abs_le.1 h1
  have hu0 : 0 ≤ sin (arccos r₀) := sin_nonneg_of_nonneg_of_le_pi (arccos_nonneg _) (arccos_le_pi _)
  have hu2 : sin (arccos r₀) ^ 2 = 1 - r₀ ^ 2 := by
    have := sin_sq_add_cos_sq (arccos r₀); rw [cos_arccos hb0.1 hb0.2] at this; linarith
  have hu : 0.9 ≤ sin (arccos r₀) := by
    have : r₀ ^ 2 ≤ 0.42 ^ 2 := sq_le_sq' (by linarith [abs_le.1 hr]) (abs_le.1 hr).2
    refine abs_le_of_sq_le_sq' (a := (0.9 : ℝ)) ?_ hu0 |>.2
    rw [hu2]; norm_num at *; linarith
  have hl := (abs_le.1 (Real.abs_sin_sub_sin_le (Psa.parallax (arccos r₀)) (arccos r₀))).1
  rw [Psa.parallax_real, add_sub_cancel_left, abs_of_nonneg (by positivity)] at hl
  have := sin_le_one (arccos r₀)
  rw [Psa.parallax_real]
  norm_num at *; linarith

end SW.Props
