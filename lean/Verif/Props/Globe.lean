/-
C94: one sun for the whole earth. At one instant the zenith angles at all places are the distances from one point of the globe.
-/
import Verif.Props.Noon
import Verif.Props.TestsFloat
import Verif.Props.Continuity

namespace SW.Props
open SW SW.Spec Real Sunpos
open SW.Ephem (century declination hourAngle)

/-! ### specification -/

/-- the distance along a great circle, in degrees, between two places given by latitude and longitude in degrees -/
noncomputable def arcBetween (φ1 l1 φ2 l2 : ℝ) : ℝ :=
  arccos (sin (rad φ1) * sin (rad φ2) + cos (rad φ1) * cos (rad φ2) * cos (rad (l1 - l2))) * (180 / π)

/-- the places are antipodes -/
def Antipodes (φ1 l1 φ2 l2 : ℝ) : Prop := φ2 = -φ1 ∧ (l2 = l1 + 180 ∨ l2 = l1 - 180)

namespace Globe

/-! ### geometry -/

/-- the place as a vector of the earth -/
noncomputable def spot (φ l : ℝ) : Vec := ⟨sin (rad φ), cos (rad φ) * cos (rad l), cos (rad φ) * sin (rad l)⟩

theorem spot_sq (φ l : ℝ) : (spot φ l).sq = 1 := by
  have h1 := sin_sq_add_cos_sq (rad φ)
  have h2 := sin_sq_add_cos_sq (rad l)
  simp only [Vec.sq, Vec.dot, spot]
  linear_combination h1 + cos (rad φ) ^ 2 * h2

theorem spot_dot (φ1 l1 φ2 l2 : ℝ) : (spot φ1 l1).dot (spot φ2 l2)
    = sin (rad φ1) * sin (rad φ2) + cos (rad φ1) * cos (rad φ2) * cos (rad (l1 - l2)) := by
  rw [rad_sub, cos_sub]
  simp only [Vec.dot, spot]; ring

theorem rad_arc (φ1 l1 φ2 l2 : ℝ) : rad (arcBetween φ1 l1 φ2 l2) = arccos ((spot φ1 l1).dot (spot φ2 l2)) := by
  unfold arcBetween; rw [rad_deg, spot_dot]

theorem dot_comm (a b : Vec) : a.dot b = b.dot a := by simp only [Vec.dot]; ring

theorem arc_comm (φ1 l1 φ2 l2 : ℝ) : arcBetween φ1 l1 φ2 l2 = arcBetween φ2 l2 φ1 l1 := by
  have h : rad (arcBetween φ1 l1 φ2 l2) = rad (arcBetween φ2 l2 φ1 l1) := by rw [rad_arc, rad_arc, dot_comm]
  exact le_antisymm (of_rad_le h.le) (of_rad_le h.ge)

theorem arc_triangle (φ1 l1 φ2 l2 φ3 l3 : ℝ) : arcBetween φ1 l1 φ3 l3 ≤ arcBetween φ1 l1 φ2 l2 + arcBetween φ2 l2 φ3 l3 := by
  apply of_rad_le
  rw [rad_add, rad_arc, rad_arc, rad_arc]
  exact angle_triangle (spot_sq _ _) (spot_sq _ _) (spot_sq _ _)

/-- two distances from one point -/
theorem arc_diff (φ1 l1 φ2 l2 φ l : ℝ) : |arcBetween φ1 l1 φ l - arcBetween φ2 l2 φ l| ≤ arcBetween φ1 l1 φ2 l2 := by
  have h1 := arc_triangle φ1 l1 φ2 l2 φ l
  have h2 := arc_triangle φ2 l2 φ1 l1 φ l
  rw [arc_comm φ2 l2 φ1 l1] at h2
  rw [abs_le]; constructor <;> linarith

theorem antipodes_dot {φ1 l1 φ2 l2 : ℝ} (h : Antipodes φ1 l1 φ2 l2) (φ l : ℝ) :
    (spot φ2 l2).dot (spot φ l) = -((spot φ1 l1).dot (spot φ l)) := by
  obtain ⟨rfl, h⟩ := h
  have e1 : ∀ x, rad (-x) = -rad x := fun x => by unfold rad; ring
  have hc : cos (rad l2) = -cos (rad l1) ∧ sin (rad l2) = -sin (rad l1) := by
    rcases h with rfl | rfl
    · rw [rad_add, rad180, cos_add_pi, sin_add_pi]; exact ⟨rfl, rfl⟩
    · rw [rad_sub, rad180, cos_sub_pi, sin_sub_pi]; exact ⟨rfl, rfl⟩
  simp only [Vec.dot, spot, e1, sin_neg, cos_neg, hc.1, hc.2]; ring

theorem arc_antipodes {φ1 l1 φ2 l2 : ℝ} (h : Antipodes φ1 l1 φ2 l2) (φ l : ℝ) :
    arcBetween φ1 l1 φ l + arcBetween φ2 l2 φ l = 180 := by
  have e : rad (arcBetween φ1 l1 φ l + arcBetween φ2 l2 φ l) = rad 180 := by
    rw [rad_add, rad_arc, rad_arc, antipodes_dot h, arccos_neg, rad180]; ring
  exact le_antisymm (of_rad_le e.le) (of_rad_le e.ge)

/-- the longitude, in [-180, 180), of a hour angle zero -/
theorem exists_noon (H : ℝ) : ∃ l : ℝ, ∃ k : ℤ, (-180 ≤ l ∧ l < 180) ∧ rad l = -H + k * (2 * π) := by
  have hp := pi_pos
  set x := -H / (2 * π) + 1 / 2 with hx
  refine ⟨(Int.fract x - 1 / 2) * 360, -⌊x⌋, ⟨?_, ?_⟩, ?_⟩
  · linarith [Int.fract_nonneg x]
  · linarith [Int.fract_lt_one x]
  · unfold rad Int.fract
    rw [hx]
    push_cast
    field_simp
    ring

/-- the height of the sun is a distance -/
theorem height_arc {φ l d l0 H : ℝ} {k : ℤ} (h0 : rad l0 = -H + k * (2 * π)) :
    heightAt (rad φ) (rad d) (H + rad l) = rad (arcBetween φ l d l0) := by
  unfold heightAt
  rw [rad_arc, spot_dot]
  congr 3
  rw [rad_sub, h0, show rad l - (-H + k * (2 * π)) = H + rad l - k * (2 * π) by ring, cos_sub_int_mul_two_pi]

theorem dec_fin {uc : UseCase} {w : World XR} {times : Times} {latitude longitude : Coord XR}
    {alg eng : String} {refr : PyVal} {s : Sunpos XR} {e : Dim → Nat} {t : Int}
    (h : call uc w times latitude longitude alg refr eng = .ok s)
    (hk : stampAt times.stamps (e .time) = some t) (hrange : |t| < 2 ^ 63)
    {uc' : UseCase} {w' : World XR} {times' : Times} {latitude' longitude' : Coord XR}
    {eng' : String} {refr' : PyVal} {s' : Sunpos XR} {e' : Dim → Nat}
    (h' : call uc' w' times' latitude' longitude' alg refr' eng' = .ok s')
    (hk' : stampAt times'.stamps (e' .time) = some t) :
    s.decDeg.get e = s'.decDeg.get e' ∧ s.eot.get e = s'.eot.get e' := by
  obtain ⟨-, o, -, h2, h3, hc⟩ := time_cases h hk hrange
  obtain ⟨-, o', -, h2', h3', hc'⟩ := time_cases h' hk' hrange
  have ho : o = o' := by
    rcases hc with ⟨rfl, rfl⟩ | ⟨rfl, rfl⟩ | ⟨rfl, rfl⟩ | ⟨rfl, rfl⟩ <;>
    rcases hc' with ⟨hq, rfl⟩ | ⟨hq, rfl⟩ | ⟨hq, rfl⟩ | ⟨hq, rfl⟩ <;> first | rfl | (exact absurd hq (by decide))
  subst ho
  refine ⟨?_, h2.trans h2'.symm⟩
  obtain ⟨d, q, -⟩ := dec_rad h hk hrange
  obtain ⟨d', q', -⟩ := dec_rad h' hk' hrange
  have hd : d = d' := XR.fin_inj.1 (q.symm.trans (h3.trans (h3'.symm.trans q')))
  rw [decDeg_fin q, decDeg_fin q', hd]

/-- the direction seen from the antipodes -/
def mirror (v : Vec) : Vec := ⟨-v.up, v.south, -v.east⟩

theorem mirror_dot (a b : Vec) : (mirror a).dot (mirror b) = a.dot b := by simp only [Vec.dot, mirror]; ring

theorem mirror_dir (z a : ℝ) : mirror (dirVec z a) = dirVec (π - z) (-a) := by
  simp [mirror, dirVec, cos_pi_sub, sin_pi_sub]

theorem mirror_sun {φ1 l1 φ2 l2 : ℝ} (h : Antipodes φ1 l1 φ2 l2) (δ H : ℝ) :
    sunVec (rad φ2) δ (-(H + rad l2)) = mirror (sunVec (rad φ1) δ (-(H + rad l1))) := by
  obtain ⟨rfl, h⟩ := h
  have e1 : ∀ x, rad (-x) = -rad x := fun x => by unfold rad; ring
  have hc : cos (H + rad l2) = -cos (H + rad l1) ∧ sin (H + rad l2) = -sin (H + rad l1) := by
    rcases h with rfl | rfl
    · rw [rad_add, rad180, ← add_assoc, cos_add_pi, sin_add_pi]; exact ⟨rfl, rfl⟩
    · rw [rad_sub, rad180, ← add_sub_assoc, cos_sub_pi, sin_sub_pi]; exact ⟨rfl, rfl⟩
  simp only [sunVec, mirror, e1, sin_neg, cos_neg, hc.1, hc.2]
  congr 1 <;> ring

/-- directions seen from antipodes -/
theorem mirror_angle {z1 a1 z2 a2 x y : ℝ} {v : Vec} (hv : v.sq = 1) (h1 : arccos ((dirVec z1 a1).dot v) ≤ x)
    (h2 : arccos ((dirVec z2 a2).dot (mirror v)) ≤ y) : arccos ((dirVec (π - z1) (-a1)).dot (dirVec z2 a2)) ≤ x + y := by
  have hm : (mirror v).sq = 1 := by unfold Vec.sq; rw [mirror_dot]; exact hv
  refine (angle_triangle (dirVec_sq _ _) hm (dirVec_sq _ _)).trans (add_le_add ?_ ?_)
  · rw [← mirror_dir, mirror_dot]; exact h1
  · rw [dot_comm]; exact h2

/-- the reference sun is over one point -/
theorem ref_arc (t : Int) : ∃ d l0 : ℝ, ∀ φ l : ℝ, sunZenith t φ l = arcBetween φ l d l0 := by
  obtain ⟨l0, k, -, h0⟩ := exists_noon (hourAngle (century t))
  refine ⟨declination (century t) * (180 / π), l0, fun φ l => ?_⟩
  have h := height_arc (φ := φ) (l := l) (d := declination (century t) * (180 / π)) h0
  rw [rad_deg] at h
  have e : rad (sunZenith t φ l) = heightAt (rad φ) (declination (century t)) (hourAngle (century t) + rad l) := by
    unfold sunZenith heightAt; rw [rad_deg]
  rw [h] at e
  exact le_antisymm (of_rad_le e.le) (of_rad_le e.ge)

end Globe
open Globe

/-! ### theorems -/

/-- **C94** One sun for the whole earth. For every algorithm and instant there is one point of the globe, whose latitude is the declination and whose longitude is
given by the equation of time (it is noon there), such that every call without refraction (use case, engine, place) returns as zenith angle the distance along the
great circle from that point, to within the parallax and the rounding of the algorithm. -/
theorem C94_one_sun {alg : String} {t : Int} (ht : |t| < 2 ^ 63) : ∃ d l0 : ℝ, (-180 ≤ l0 ∧ l0 < 180) ∧
    ∀ {uc : UseCase} {w : World XR} {times : Times} {latitude longitude : Coord XR} {eng : String} {refr : PyVal} {s : Sunpos XR} {e : Dim → Nat} {φ l : ℝ},
      call uc w times latitude longitude alg refr eng = .ok s → At s times e t φ l →
      s.decDeg.get e = .fin d ∧
      (∃ x : ℝ, s.eot.get e = .fin x ∧ ∃ k : ℤ, |l0 + (360 * ((toSec t : ℝ) / 86400) - 180) + x / 4 - 360 * k| ≤ tstError alg * (180 / π)) ∧
      (refr ≠ .pyTrue → ∃ z : ℝ, s.zenithDeg.get e = .fin z ∧ |z - arcBetween φ l d l0| ≤ ownSlack alg eng) := by
  by_cases hex : ∃ eng, KnownPair alg eng
  · obtain ⟨eng0, hk⟩ := hex
    obtain ⟨s0, h0, ha0⟩ := single_call .sites hk .pyFalse ht (φ := 0) (l := 0) (by norm_num) (by norm_num)
    obtain ⟨d, hd, -⟩ := C54_declination (e := fun _ => 0) h0 ha0.time ht
    obtain ⟨l0, k0, hl0, hr0⟩ := exists_noon (hourAngle0 alg t)
    refine ⟨d, l0, hl0, fun {uc w times latitude longitude eng refr s e φ l} h ha => ?_⟩
    have hds := (dec_fin (e' := fun _ => 0) h ha.time ht h0 ha0.time).1.trans hd
    refine ⟨hds, ?_, fun hr => ?_⟩
    · obtain ⟨x, D, k, hx, hD, he⟩ := hour_eot h ha
      refine ⟨x, hx, k0 - k, ?_⟩
      have hp := pi_pos
      have : l0 + (360 * ((toSec t : ℝ) / 86400) - 180) + x / 4 - 360 * ((k0 - k : ℤ) : ℝ) = -D * (180 / π) := by
        have e1 : l0 = (-hourAngle0 alg t + k0 * (2 * π)) * (180 / π) := by
          rw [← hr0]; unfold rad; field_simp
        rw [e1, he]
        unfold meanAngle
        push_cast
        field_simp
        ring
      rw [this, abs_mul, abs_neg, abs_of_pos (by positivity : 0 < 180 / π)]
      exact mul_le_mul_of_nonneg_right (by norm_num at hD ⊢; linarith) (by positivity)
    · obtain ⟨z, d', hz, hd', hh, -⟩ := own_sun h hr ha
      obtain rfl : d' = d := XR.fin_inj.1 (hd'.symm.trans hds)
      refine ⟨z, hz, of_rad ?_⟩
      rw [rad_sub, ← height_arc hr0]
      exact hh
  · refine ⟨0, 0, by norm_num, fun {uc w times latitude longitude eng refr s e φ l} h ha => ?_⟩
    obtain ⟨_, _, b, _, hacc, _, _⟩ := call_inv h
    exact absurd ⟨eng, known_iff.2 ⟨b, hacc.names⟩⟩ hex

/-- **C94** There the sun is overhead, with any engine and in any use case. -/
theorem C94_overhead {alg eng : String} (hk : KnownPair alg eng) {t : Int} (ht : |t| < 2 ^ 63) (uc : UseCase) :
    ∃ (d l0 z : ℝ) (s : Sunpos XR), call uc exWorld (oneTime t) (.vec [.fin d]) (.vec [.fin l0]) alg .pyFalse eng = .ok s ∧
      At s (oneTime t) (fun _ => 0) t d l0 ∧ s.decDeg.get (fun _ => 0) = .fin d ∧ s.zenithDeg.get (fun _ => 0) = .fin z ∧ |z| ≤ ownSlack alg eng := by
  obtain ⟨d, l0, hl0, h⟩ := C94_one_sun (alg := alg) ht
  obtain ⟨s0, h0, ha0⟩ := single_call .sites hk .pyFalse ht (φ := 0) (l := 0) (by norm_num) (by norm_num)
  obtain ⟨hd, -, -⟩ := h h0 ha0
  obtain ⟨d', hd', h1, -, -⟩ := C17_declination (e := fun _ => 0) h0 ha0.time ht
  obtain rfl : d' = d := XR.fin_inj.1 (hd'.symm.trans hd)
  have h1 := abs_le.1 h1
  obtain ⟨s, hs, ha⟩ := single_call uc hk .pyFalse ht (φ := d') (l := l0) ⟨by linarith [h1.1], by linarith [h1.2]⟩ hl0
  obtain ⟨q1, -, q3⟩ := h hs ha
  obtain ⟨z, hz, hz'⟩ := q3 (by simp)
  refine ⟨d', l0, z, s, hs, ha, q1, hz, ?_⟩
  have e : arcBetween d' l0 d' l0 = 0 := by
    unfold arcBetween
    have := sin_sq_add_cos_sq (rad d')
    rw [sub_self, show rad 0 = 0 by unfold rad; ring, cos_zero, show sin (rad d') * sin (rad d') + cos (rad d') * cos (rad d') * 1 = 1 by linarith, arccos_one, zero_mul]
  rwa [e, sub_zero] at hz'

/-- **C94** At one instant, of two results of one algorithm (any use cases and engines), the zenith angles differ by at most the distance of the places, and add up to
180 degrees at antipodes, to within the slacks. -/
theorem C94_two_places {uc1 uc2 : UseCase} {w1 w2 : World XR} {times1 times2 : Times} {lat1 lon1 lat2 lon2 : Coord XR}
    {alg eng1 eng2 : String} {refr1 refr2 : PyVal} {s1 s2 : Sunpos XR} {e1 e2 : Dim → Nat} {t : Int} {φ1 l1 φ2 l2 : ℝ}
    (h1 : call uc1 w1 times1 lat1 lon1 alg refr1 eng1 = .ok s1) (hr1 : refr1 ≠ .pyTrue)
    (h2 : call uc2 w2 times2 lat2 lon2 alg refr2 eng2 = .ok s2) (hr2 : refr2 ≠ .pyTrue)
    (ha1 : At s1 times1 e1 t φ1 l1) (ha2 : At s2 times2 e2 t φ2 l2) :
    ∃ z1 z2 : ℝ, s1.zenithDeg.get e1 = .fin z1 ∧ s2.zenithDeg.get e2 = .fin z2 ∧
      |z1 - z2| ≤ arcBetween φ1 l1 φ2 l2 + ownSlack alg eng1 + ownSlack alg eng2 ∧
      (Antipodes φ1 l1 φ2 l2 → |z1 + z2 - 180| ≤ ownSlack alg eng1 + ownSlack alg eng2) := by
  obtain ⟨d, l0, -, h⟩ := C94_one_sun (alg := alg) ha1.range
  obtain ⟨-, -, q1⟩ := h h1 ha1
  obtain ⟨-, -, q2⟩ := h h2 ha2
  obtain ⟨z1, g1, b1⟩ := q1 hr1
  obtain ⟨z2, g2, b2⟩ := q2 hr2
  refine ⟨z1, z2, g1, g2, ?_, fun hA => ?_⟩
  · have := arc_diff φ1 l1 φ2 l2 d l0
    rw [abs_le] at *
    constructor <;> linarith [b1.1, b1.2, b2.1, b2.2, this.1, this.2]
  · have := arc_antipodes hA d l0
    rw [abs_le] at *
    constructor <;> linarith [b1.1, b1.2, b2.1, b2.2]

/-- **C94** The same of any two results, whatever their algorithms, with the errors of C54; at antipodes the directions are those of one sun seen from below: zenith
angle 180 - z and azimuth -a. -/
theorem C94_any_algorithms {uc1 uc2 : UseCase} {w1 w2 : World XR} {times1 times2 : Times} {lat1 lon1 lat2 lon2 : Coord XR}
    {alg1 eng1 alg2 eng2 : String} {refr1 refr2 : PyVal} {s1 s2 : Sunpos XR} {e1 e2 : Dim → Nat} {t : Int} {φ1 l1 φ2 l2 : ℝ}
    (h1 : call uc1 w1 times1 lat1 lon1 alg1 refr1 eng1 = .ok s1) (hr1 : refr1 ≠ .pyTrue)
    (h2 : call uc2 w2 times2 lat2 lon2 alg2 refr2 eng2 = .ok s2) (hr2 : refr2 ≠ .pyTrue)
    (ha1 : At s1 times1 e1 t φ1 l1) (ha2 : At s2 times2 e2 t φ2 l2) :
    ∃ z1 a1 z2 a2 : ℝ, s1.zenithDeg.get e1 = .fin z1 ∧ s1.azimuthDeg.get e1 = .fin a1 ∧ s2.zenithDeg.get e2 = .fin z2 ∧ s2.azimuthDeg.get e2 = .fin a2 ∧
      |z1 - z2| ≤ arcBetween φ1 l1 φ2 l2 + positionError alg1 eng1 + positionError alg2 eng2 ∧
      (Antipodes φ1 l1 φ2 l2 → |z1 + z2 - 180| ≤ positionError alg1 eng1 + positionError alg2 eng2 ∧
        arccos ((dirVec (rad (180 - z1)) (rad (-a1))).dot (dirVec (rad z2) (rad a2))) ≤ rad (positionError alg1 eng1 + positionError alg2 eng2)) := by
  obtain ⟨z1, a1, g1, g1', c1⟩ := C54_position h1 hr1 ha1
  obtain ⟨z2, a2, g2, g2', c2⟩ := C54_position h2 hr2 ha2
  obtain ⟨z1', k1, -, -, b1⟩ := zenithDeg_near h1 hr1 ha1
  obtain ⟨z2', k2, -, -, b2⟩ := zenithDeg_near h2 hr2 ha2
  obtain rfl : z1' = z1 := XR.fin_inj.1 (k1.symm.trans g1)
  obtain rfl : z2' = z2 := XR.fin_inj.1 (k2.symm.trans g2)
  obtain ⟨d, l0, href⟩ := ref_arc t
  rw [href] at b1 b2
  refine ⟨z1', a1, z2', a2, g1, g1', g2, g2', ?_, fun hA => ⟨?_, ?_⟩⟩
  · have := arc_diff φ1 l1 φ2 l2 d l0
    rw [abs_le] at *
    constructor <;> linarith [b1.1, b1.2, b2.1, b2.2, this.1, this.2]
  · have := arc_antipodes hA d l0
    rw [abs_le] at *
    constructor <;> linarith [b1.1, b1.2, b2.1, b2.2]
  · rw [mirror_sun hA] at c2
    have := mirror_angle (sunVec_sq _ _ _) c1 c2
    rw [rad_add, rad_sub, rad180, show rad (-a1) = -rad a1 by unfold rad; ring]
    exact this

/-- **C94** in floating point: the zenith angles of two results at one instant, in accurate arithmetics, with rounding adding at most 0.0014 degrees over the sine of the
zenith angle, for suns at least 3.44 degrees from the vertical. -/
theorem C94_float {A B : Arith} {uc1 uc2 : UseCase} {w1 : World (Rd A)} {w2 : World (Rd B)} {times1 times2 : Times}
    {lat1 lon1 : Coord (Rd A)} {lat2 lon2 : Coord (Rd B)} {alg1 eng1 alg2 eng2 : String} {refr1 refr2 : PyVal}
    {s1 : Sunpos (Rd A)} {s2 : Sunpos (Rd B)} {e1 e2 : Dim → Nat} {t : Int} {φ1 l1 φ2 l2 E1 E2 : ℝ}
    (h1 : call uc1 w1 times1 lat1 lon1 alg1 refr1 eng1 = .ok s1) (hr1 : refr1 ≠ .pyTrue)
    (h2 : call uc2 w2 times2 lat2 lon2 alg2 refr2 eng2 = .ok s2) (hr2 : refr2 ≠ .pyTrue)
    (ha1 : AtRd s1 times1 e1 t φ1 l1) (ha2 : AtRd s2 times2 e2 t φ2 l2)
    (hφ1 : -90 ≤ φ1 ∧ φ1 ≤ 90) (hl1 : -180 ≤ l1 ∧ l1 < 180) (hφ2 : -90 ≤ φ2 ∧ φ2 ≤ 90) (hl2 : -180 ≤ l2 ∧ l2 < 180)
    (hpole1 : alg1 = "nrel" → |φ1| ≤ 90 - 1e-10) (hpole2 : alg2 = "nrel" → |φ2| ≤ 90 - 1e-10)
    (hs1 : 0.06 ≤ placeFactor alg1 eng1 φ1 * sin (rad (sunZenith t φ1 l1))) (hs2 : 0.06 ≤ placeFactor alg2 eng2 φ2 * sin (rad (sunZenith t φ2 l2)))
    (hE1 : E1 = positionError alg1 eng1 + 0.0014 / (placeFactor alg1 eng1 φ1 * sin (rad (sunZenith t φ1 l1))))
    (hE2 : E2 = positionError alg2 eng2 + 0.0014 / (placeFactor alg2 eng2 φ2 * sin (rad (sunZenith t φ2 l2)))) :
    ∃ z1 z2 : ℝ, s1.zenithDeg.get e1 = Rd.fin z1 ∧ s2.zenithDeg.get e2 = Rd.fin z2 ∧
      |z1 - z2| ≤ arcBetween φ1 l1 φ2 l2 + E1 + E2 ∧
      (Antipodes φ1 l1 φ2 l2 → |z1 + z2 - 180| ≤ E1 + E2) := by
  obtain ⟨z1, g1, b1⟩ := float_zenithDeg h1 hr1 ha1 hφ1 hl1 hpole1 hs1
  obtain ⟨z2, g2, b2⟩ := float_zenithDeg h2 hr2 ha2 hφ2 hl2 hpole2 hs2
  have w : ∀ x : ℝ, 0.06 ≤ x → 0.00132 / x ≤ 0.0014 / x := fun x hx =>
    div_le_div_of_nonneg_right (by norm_num) (le_trans (by norm_num) hx)
  have b1 := b1.trans (add_le_add_right (w _ hs1) _)
  have b2 := b2.trans (add_le_add_right (w _ hs2) _)
  rw [← hE1] at b1
  rw [← hE2] at b2
  obtain ⟨d, l0, href⟩ := ref_arc t
  rw [href] at b1 b2
  refine ⟨z1, z2, g1, g2, ?_, fun hA => ?_⟩
  · have := arc_diff φ1 l1 φ2 l2 d l0
    rw [abs_le] at *
    constructor <;> linarith [b1.1, b1.2, b2.1, b2.2, this.1, this.2]
  · have := arc_antipodes hA d l0
    rw [abs_le] at *
    constructor <;> linarith [b1.1, b1.2, b2.1, b2.2]

/-- Málaga and its antipodes in 2024, nrel against psa: the sun is up at exactly one of them, or within 0.3 degrees of both horizons -/
example {t : Int} (ht : |t| < 2 ^ 63) :
    ∃ (s1 s2 : Sunpos XR) (z1 z2 : ℝ),
      call .sites exWorld (oneTime t) (.vec [.fin 36.72]) (.vec [.fin (-4.42)]) "nrel" .pyFalse "numexpr" = .ok s1 ∧
      call .sites exWorld (oneTime t) (.vec [.fin (-36.72)]) (.vec [.fin 175.58]) "psa" .pyFalse "numpy" = .ok s2 ∧
      s1.zenithDeg.get (fun _ => 0) = .fin z1 ∧ s2.zenithDeg.get (fun _ => 0) = .fin z2 ∧ |z1 + z2 - 180| ≤ 0.3 := by
  obtain ⟨s1, h1, a1⟩ := single_call .sites (alg := "nrel") (eng := "numexpr") (by simp [KnownPair]) .pyFalse ht (φ := 36.72) (l := -4.42) (by norm_num) (by norm_num)
  obtain ⟨s2, h2, a2⟩ := single_call .sites (alg := "psa") (eng := "numpy") (by simp [KnownPair]) .pyFalse ht (φ := -36.72) (l := 175.58) (by norm_num) (by norm_num)
  obtain ⟨z1, y1, z2, y2, g1, -, g2, -, -, hA⟩ := C94_any_algorithms h1 (by simp) h2 (by simp) a1 a2
  refine ⟨s1, s2, z1, z2, h1, h2, g1, g2, (hA ⟨by norm_num, .inl (by norm_num)⟩).1.trans ?_⟩
  simp only [positionError, String.reduceEq, if_true, if_false]
  norm_num

end SW.Props
