/-
C67: the sun is up between sunrise and sunset, in floating-point arithmetic. C65, with every number rounded: the calls
that give the times and the position are made in two arithmetics `Rd A` and `Rd B` with the accuracy of double precision
(Verif/Round.lean), and the times are those that sunrise and sunset return after their casts.
-/
import Verif.Props.Daylight
import Verif.Props.FloatAccuracy
import Verif.Props.RoundIrradiance

namespace SW.Props
open SW.Spec Real Sunpos
open SW.Ephem (century declination equationOfTime distance hourAngle)

variable {A B : Arith}

/-- the declination and the equation of time of a call -/
theorem float_time {uc : UseCase} {w : World (Rd A)} {times : Times} {latitude longitude : Coord (Rd A)}
    {alg eng : String} {refr : PyVal} {s : Sunpos (Rd A)} {e : Dim → Nat} {t : Int}
    (h : call uc w times latitude longitude alg refr eng = .ok s)
    (hk : stampAt times.stamps (e .time) = some t) (ht : |t| < 2 ^ 63) :
    ∃ (s' : Sunpos XR) (d x d' x' : ℝ),
      call uc exWorld (oneTime t) (.vec [.fin 40]) (.vec [.fin (-4.5)]) alg .pyFalse eng = .ok s' ∧
      s.decDeg.get e = Rd.fin d ∧ s.eot.get e = Rd.fin x ∧ s'.decDeg.get (fun _ => 0) = .fin d' ∧
      s'.eot.get (fun _ => 0) = .fin x' ∧ |d - d'| ≤ 4e-8 ∧ |x - x'| ≤ 1.1e-6 ∧ |d| ≤ 25 ∧ |x| ≤ 21 := by
  obtain ⟨b, hb, -⟩ := rd_time h hk
  obtain ⟨s', h', ha'⟩ := single_call uc (known_iff.2 ⟨b, hb⟩) .pyFalse ht (φ := 40) (l := -4.5) (by norm_num) (by norm_num)
  obtain ⟨⟨d, d', h1, h2, h3⟩, -, ⟨x, x', h7, h8, h9⟩⟩ := near_time (e' := fun _ => 0) h h' hk ha'.time ht
  obtain ⟨d1, g1, g2, -⟩ := C17_declination (e := fun _ => 0) h' ha'.time ht
  obtain ⟨x1, g3, g4⟩ := C19_eot (e := fun _ => 0) h' ha'.time ht
  obtain rfl : d' = d1 := XR.fin_inj.1 (h2.symm.trans g1)
  obtain rfl : x' = x1 := XR.fin_inj.1 (h8.symm.trans g3)
  refine ⟨s', d, x, d', x', h', h1, h7, h2, h8, h3, h9, ?_, ?_⟩
  · exact (Ap.fin_bound g2 h3).trans (by norm_num)
  · exact (Ap.fin_bound g4 h9).trans (by norm_num)

/-- the height of a sun of nearly the same declination and hour angle -/
theorem up_near {φ d d' x x' c y : ℝ} (hd : |d - d'| ≤ 4e-8) (hx : |x - x'| ≤ 1.1e-6) :
    |(sin φ * sin (rad d) + cos φ * cos (rad d) * cos (c + x * (2 * π / 1440) + y))
      - (sin φ * sin (rad d') + cos φ * cos (rad d') * cos (c + x' * (2 * π / 1440) + y))| ≤ 6e-9 := by
  have hp := pi_lt_d4
  have hp0 := pi_pos
  have c1 := close_dec φ (rad d) (c + x * (2 * π / 1440) + y) (rad d' - rad d)
  have c2 := close_hour φ (rad d') (c + x * (2 * π / 1440) + y) ((x' - x) * (2 * π / 1440))
  rw [add_sub_cancel] at c1
  have e1 : c + x * (2 * π / 1440) + y + (x' - x) * (2 * π / 1440) = c + x' * (2 * π / 1440) + y := by ring
  rw [e1] at c2
  have h := (c1.trans c2) ⟨1, 0, 0⟩ (by simp [Vec.sq, Vec.dot])
  simp only [Vec.dot, sunVec, one_mul, zero_mul, add_zero] at h
  refine h.trans ?_
  have b1 : |rad d' - rad d| ≤ 7.1e-10 := by
    rw [← rad_sub, show rad (d' - d) = (d' - d) * (π / 180) by unfold rad; ring]
    rw [abs_sub_comm] at hd
    refine (Nrel.abs_mul_le' hd (B := 0.0175) ?_).trans (by norm_num)
    rw [abs_of_pos (by positivity)]; norm_num at hp ⊢; linarith
  have b2 : |(x' - x) * (2 * π / 1440)| ≤ 4.9e-9 := by
    rw [abs_sub_comm] at hx
    refine (Nrel.abs_mul_le' hx (B := 0.00437) ?_).trans (by norm_num)
    rw [abs_of_pos (by positivity)]; norm_num at hp ⊢; linarith
  norm_num at b1 b2 ⊢; linarith

/-- `day_up` in floating-point arithmetic -/
theorem float_day_up {uc1 uc2 : UseCase} {w1 : World (Rd A)} {w2 : World (Rd B)} {times1 times2 : Times}
    {lat1 lon1 : Coord (Rd A)} {lat2 lon2 : Coord (Rd B)}
    {alg1 eng1 alg2 eng2 : String} {refr1 refr2 : PyVal} {s1 : Sunpos (Rd A)} {s2 : Sunpos (Rd B)} {e1 e2 : Dim → Nat}
    {t u : Int} {φ l ζ : ℝ}
    (h1 : call uc1 w1 times1 lat1 lon1 alg1 refr1 eng1 = .ok s1)
    (h2 : call uc2 w2 times2 lat2 lon2 alg2 refr2 eng2 = .ok s2) (hr2 : refr2 ≠ .pyTrue)
    (hk : stampAt times1.stamps (e1 .time) = some t) (ht : |t| < 2 ^ 63)
    (ha2 : AtRd s2 times2 e2 u φ l) (hφ : -90 ≤ φ ∧ φ ≤ 90) (hl : -180 ≤ l ∧ l < 180)
    (hpole : alg2 = "nrel" → |φ| ≤ 90 - 1e-10)
    (hζ : (sunVec (rad φ) (declination (century u)) (-(hourAngle (century u) + rad l))).up = cos (rad ζ))
    (hs : 0.06 ≤ placeFactor alg2 eng2 φ * sin (rad ζ)) :
    ∃ d x z : ℝ, s1.decDeg.get e1 = Rd.fin d ∧ s1.eot.get e1 = Rd.fin x ∧ s2.zenithDeg.get e2 = Rd.fin z ∧
      |d| ≤ 25 ∧ |x| ≤ 21 ∧ (|(u : ℝ) - t| / 86400e9 ≤ 1.001 →
      ∀ ω, ω = 2 * π * ((u : ℝ) / 86400e9) - π + x * (2 * π / 1440) + rad l →
        (-1e-8 ≤ sin (rad φ) * sin (rad d) + cos (rad φ) * cos (rad d) * cos ω →
          z ≤ 90 + (dayError alg1 alg2 eng2 (|(u : ℝ) - t| / 86400e9)
            + 0.0014 / (placeFactor alg2 eng2 φ * sin (rad ζ)))) ∧
        (sin (rad φ) * sin (rad d) + cos (rad φ) * cos (rad d) * cos ω ≤ 1e-8 →
          90 - (dayError alg1 alg2 eng2 (|(u : ℝ) - t| / 86400e9)
            + 0.0014 / (placeFactor alg2 eng2 φ * sin (rad ζ))) ≤ z)) := by
  obtain ⟨s1', d, x, d', x', h1', hd, hx, hd', hx', ed, ex, bd, bx⟩ := float_time h1 hk ht
  obtain ⟨s2', z, a, z', a', -, k, h2', ha2', hz, -, hz', -, -, -, ez, -⟩ := float_near h2 hr2 ha2 hφ hl hpole hζ hs
  refine ⟨d, x, z, hd, hx, hz, bd, bx, fun hut => ?_⟩
  obtain ⟨d1, x1, z1, hd1, hx1, hz1, hall⟩ := day_up (e1 := fun _ => 0) h1' h2' hr2 rfl ht ha2' hut
  obtain rfl : d' = d1 := XR.fin_inj.1 (hd'.symm.trans hd1)
  obtain rfl : x' = x1 := XR.fin_inj.1 (hx'.symm.trans hx1)
  obtain rfl : z' = z1 := XR.fin_inj.1 (hz'.symm.trans hz1)
  rintro ω rfl
  obtain ⟨g1, g2⟩ := hall _ rfl
  have hn := up_near (φ := rad φ) (c := 2 * π * ((u : ℝ) / 86400e9) - π) (y := rad l) ed ex
  obtain ⟨n1, n2⟩ := abs_le.1 hn
  obtain ⟨X, hX⟩ : ∃ X, X = placeFactor alg2 eng2 φ * sin (rad ζ) := ⟨_, rfl⟩
  rw [← hX] at hs ez ⊢
  have hX0 : 0 < X := lt_of_lt_of_le (by norm_num) hs
  have ez' : |z - z'| ≤ 0.0014 / X := ez.trans (div_le_div_of_nonneg_right (by norm_num) hX0.le)
  obtain ⟨m1, m2⟩ := abs_le.1 ez'
  generalize sin (rad φ) * sin (rad d) + cos (rad φ) * cos (rad d) * cos (2 * π * ((u : ℝ) / 86400e9) - π + x * (2 * π / 1440) + rad l) = U at *
  generalize sin (rad φ) * sin (rad d') + cos (rad φ) * cos (rad d') * cos (2 * π * ((u : ℝ) / 86400e9) - π + x' * (2 * π / 1440) + rad l) = U' at *
  constructor
  · intro hU
    have := g1 (by norm_num at hU n1 n2 ⊢; linarith)
    linarith
  · intro hU
    have := g2 (by norm_num at hU n1 n2 ⊢; linarith)
    linarith

/-- an angle within 1e-14 of the half circle -/
theorem clamp {ω : ℝ} (h0 : -1e-14 ≤ ω) (h1 : ω ≤ π + 1e-14) : ∃ v, 0 ≤ v ∧ v ≤ π ∧ |ω - v| ≤ 1e-14 := by
  have hp := pi_pos
  refine ⟨max 0 (min ω π), le_max_left _ _, max_le hp.le (min_le_right _ _), ?_⟩
  rw [abs_le]
  rcases le_total ω π with h | h
  · rw [min_eq_left h]
    rcases le_total 0 ω with h' | h'
    · rw [max_eq_right h']; norm_num
    · rw [max_eq_left h']; constructor <;> linarith
  · rw [min_eq_right h, max_eq_right hp.le]; constructor <;> linarith

set_option maxHeartbeats 1000000 in
/-- C67: let `sunrise('utc')` and `sunset('utc')` of one call, made in an arithmetic with the accuracy of double
precision, be at the cell of the instant `t`, the latitude `φ` and the longitude `l` the instants `r` and `q`. Then the
zenith angle that any other call (another algorithm, engine, use case or arithmetic, without refraction) returns for the
same place at an instant `u` is at most 90 degrees, up to the error of C65 and `0.0014 / (κ sin ζ)` degrees, if `u` is
between sunrise and sunset; and at least 90 degrees, up to the same error, if `u` is before sunrise or after sunset and
within 12 hours of solar noon (the middle of `r` and `q`). As in C64, `ζ` is the zenith angle of the reference
ephemeris and `κ sin ζ ≥ 0.06`. -/
theorem C67_day {uc1 uc2 : UseCase} {w w1 : World (Rd A)} {w2 : World (Rd B)} {times1 times2 : Times}
    {lat1 lon1 : Coord (Rd A)} {lat2 lon2 : Coord (Rd B)}
    {alg1 eng1 alg2 eng2 : String} {refr1 refr2 : PyVal} {s1 : Sunpos (Rd A)} {s2 : Sunpos (Rd B)} {e1 e2 : Dim → Nat}
    {t u r q : Int} {φ l ζ : ℝ} {R S : DA (Option Int)}
    (h1 : call uc1 w1 times1 lat1 lon1 alg1 refr1 eng1 = .ok s1) (ha1 : AtRd s1 times1 e1 t φ l)
    (hutc : stampAt s1.timesUtc (e1 .time) = some t)
    (hR : s1.sunrise w "utc" = .ok (.time R)) (hS : s1.sunset w "utc" = .ok (.time S))
    (hr : R.get e1 = some r) (hq : S.get e1 = some q)
    (h2 : call uc2 w2 times2 lat2 lon2 alg2 refr2 eng2 = .ok s2) (hr2 : refr2 ≠ .pyTrue)
    (ha2 : AtRd s2 times2 e2 u φ l) (hφ : -90 ≤ φ ∧ φ ≤ 90) (hl : -180 ≤ l ∧ l < 180)
    (hpole : alg2 = "nrel" → |φ| ≤ 90 - 1e-10)
    (hζ : (sunVec (rad φ) (declination (century u)) (-(hourAngle (century u) + rad l))).up = cos (rad ζ))
    (hs : 0.06 ≤ placeFactor alg2 eng2 φ * sin (rad ζ)) :
    ∃ z : ℝ, s2.zenithDeg.get e2 = Rd.fin z ∧
      (r ≤ u → u ≤ q → z ≤ 90 + (dayError alg1 alg2 eng2 (|(u : ℝ) - t| / 86400e9)
        + 0.0014 / (placeFactor alg2 eng2 φ * sin (rad ζ)))) ∧
      (u ≤ r ∨ q ≤ u → r + q - 86400000000000 ≤ 2 * u → 2 * u ≤ r + q + 86400000000000 →
        90 - (dayError alg1 alg2 eng2 (|(u : ℝ) - t| / 86400e9)
        + 0.0014 / (placeFactor alg2 eng2 φ * sin (rad ζ))) ≤ z) := by
  obtain ⟨d, x, z, hd, hx, hz, bd, bx, hall⟩ := float_day_up (e1 := e1) h1 h2 hr2 ha1.time ha1.range ha2 hφ hl hpole hζ hs
  obtain ⟨T, G, D, hT, -, -, hfin, hnan⟩ := C66_sunrise_angle w s1 ha1.lat (abs_le.2 hφ) hd (bd.trans (by norm_num))
  have hlb : |l| ≤ 360 := by rw [abs_le]; constructor <;> linarith [hl.1, hl.2]
  have hxb : |x| ≤ 100 := bx.trans (by norm_num)
  obtain ⟨τ, hτ, eτ⟩ := C66_tst w s1 hutc ha1.range hx hxb ha1.lon hlb
  have hω : ∃ ω : ℝ, T.get e1 = Rd.fin ω := by
    rcases hTe : T.get e1 with _ | ω
    · exfalso
      obtain ⟨r', t', g1, -, g2, -⟩ := C66_no_event w s1 hT hTe "utc" (by decide)
      rw [hR] at g1
      injection g1 with g1; injection g1 with g1
      rw [g1, g2] at hr; cases hr
    · exact ⟨ω, rfl⟩
  obtain ⟨ω, hω⟩ := hω
  obtain ⟨ω0, ω1, hres, -⟩ := hfin ω hω
  have hπ := pi_pos
  have hπ4 := pi_lt_d4
  have hωb : |ω| ≤ 3.15 := by rw [abs_le]; norm_num at ω0 ω1 hπ4 ⊢; constructor <;> linarith
  obtain ⟨-, rU, -, sU, m, r', k, j, -, hrU, -, hsU, hm, hm1, hm2, -, er, hr', ek, -, hq', ej⟩ :=
    C66_times w s1 hT hω hωb hτ hx hxb ha1.lon hlb
  obtain rfl : rU = R := by rw [hrU] at hR; injection hR with g; injection g
  obtain rfl : sU = S := by rw [hsU] at hS; injection hS with g; injection g
  obtain rfl : r = r' - k := by rw [hr] at hr'; injection hr'
  obtain rfl : q = r' - k + j := by rw [hq] at hq'; injection hq'
  obtain ⟨v, v0, v1, ev⟩ := clamp ω0 ω1
  -- the quantities in nanoseconds
  obtain ⟨y, hy⟩ : ∃ y, y = ω * (43200e9 / π) := ⟨_, rfl⟩
  obtain ⟨Δ, hΔ⟩ : ∃ Δ, Δ = (x + 4 * l) * 60e9 := ⟨_, rfl⟩
  have hy2 : ω * (86400e9 / π) = 2 * y := by rw [hy]; norm_num; ring
  have hyω : y * (2 * π / 86400e9) = ω := by
    rw [hy]; norm_num; ring_nf; rw [mul_assoc, mul_inv_cancel₀ hπ.ne', mul_one]
  have hy1 : y ≤ 43200e9 + 1 := by
    have : y * (2 * π / 86400e9) ≤ (43200e9 + 1) * (2 * π / 86400e9) := by
      rw [hyω, show (43200e9 + 1) * (2 * π / 86400e9) = π + 2 * π / 86400e9 by norm_num; ring]
      have p := pi_gt_d4
      norm_num at p ω1 ⊢; linarith
    exact le_of_mul_le_mul_right this (by positivity)
  rw [← hy] at er
  rw [← hΔ] at ek eτ
  rw [hy2] at ej
  obtain ⟨i1, i2⟩ := abs_le.1 er
  obtain ⟨i3, i4⟩ := abs_le.1 ek
  obtain ⟨i5, i6⟩ := abs_le.1 eτ
  obtain ⟨f1, f2⟩ := abs_le.1 ej
  norm_num at i1 i2
  have i7 : (m : ℝ) ≤ τ := by exact_mod_cast hm1
  have i8 : (τ : ℝ) < m + 86400000000000 := by exact_mod_cast hm2
  obtain ⟨g, hg⟩ : ∃ g : ℝ, g = (u : ℝ) + Δ - (m + 43200000000000) := ⟨_, rfl⟩
  -- bounds of the instant
  have in1 : r' - k ≤ u → u ≤ r' - k + j → |g| ≤ y + 9 := by
    intro a b
    have a' : (r' : ℝ) - k ≤ u := by exact_mod_cast a
    have b' : (u : ℝ) ≤ r' - k + j := by exact_mod_cast b
    rw [abs_le, hg]; constructor <;> linarith
  have out1 : u ≤ r' - k ∨ r' - k + j ≤ u → y - 9 ≤ |g| := by
    rintro (a | a)
    · have a' : (u : ℝ) ≤ r' - k := by exact_mod_cast a
      have := neg_abs_le g
      rw [hg] at this ⊢; linarith
    · have a' : (r' : ℝ) - k + j ≤ u := by exact_mod_cast a
      have := le_abs_self g
      rw [hg] at this ⊢; linarith
  have out2 : r' - k + (r' - k + j) - 86400000000000 ≤ 2 * u → 2 * u ≤ r' - k + (r' - k + j) + 86400000000000 →
      |g| ≤ 43200e9 + 10 := by
    intro a b
    have a' : (r' : ℝ) - k + (r' - k + j) - 86400000000000 ≤ 2 * u := by exact_mod_cast a
    have b' : 2 * (u : ℝ) ≤ r' - k + (r' - k + j) + 86400000000000 := by exact_mod_cast b
    rw [abs_le, hg]; norm_num; constructor <;> linarith
  have hut : |g| ≤ 43200e9 + 10 → |(u : ℝ) - t| / 86400e9 ≤ 1.001 := by
    intro a
    obtain ⟨a1, a2⟩ := abs_le.1 a
    rw [div_le_iff₀ (by norm_num), abs_le]
    rw [hg] at a1 a2
    norm_num at a1 a2 ⊢; constructor <;> linarith
  have hgy : |g| ≤ y + 9 → |g| ≤ 43200e9 + 10 := by
    intro a; norm_num at hy1 ⊢; linarith
  obtain ⟨n, hn⟩ : ∃ n, m = 86400000000000 * n := ⟨m / 86400000000000, by omega⟩
  have hW : 2 * π * ((u : ℝ) / 86400e9) - π + x * (2 * π / 1440) + rad l
      = g * (2 * π / 86400e9) + (n : ℤ) * (2 * π) := by
    rw [hg, hΔ, hn]; unfold rad; push_cast; norm_num; ring
  have hcφ : 0 ≤ cos (rad φ) := by
    refine cos_nonneg_of_mem_Icc ⟨?_, ?_⟩ <;> unfold rad <;> nlinarith [hφ.1, hφ.2]
  have hcd : 0 ≤ cos (rad d) := by
    have := abs_le.1 bd
    refine cos_nonneg_of_mem_Icc ⟨?_, ?_⟩ <;> unfold rad <;> nlinarith [this.1, this.2]
  have hcc0 : 0 ≤ cos (rad φ) * cos (rad d) := mul_nonneg hcφ hcd
  have hcc1 : cos (rad φ) * cos (rad d) ≤ 1 := mul_le_one₀ (cos_le_one _) hcd (cos_le_one _)
  have habs : |g * (2 * π / 86400e9)| = |g| * (2 * π / 86400e9) := by
    rw [abs_mul, abs_of_pos (by positivity : 0 < 2 * π / 86400e9)]
  have hs10 : 10 * (2 * π / 86400e9) ≤ 8e-13 := by
    norm_num at hπ4 ⊢; linarith
  have hcv := (abs_cos_sub_cos_le ω v).trans ev
  obtain ⟨cv1, cv2⟩ := abs_le.1 hcv
  obtain ⟨res1, res2⟩ := abs_le.1 hres
  obtain ⟨ev1, ev2⟩ := abs_le.1 ev
  refine ⟨z, hz, ?_⟩
  by_cases hb : |g| ≤ 43200e9 + 10
  · obtain ⟨g1, g2⟩ := hall (hut hb) _ rfl
    rw [hW, cos_add_int_mul_two_pi] at g1 g2
    generalize hCC : cos (rad φ) * cos (rad d) = C at *
    generalize sin (rad φ) * sin (rad d) = Z at *
    refine ⟨fun a b => g1 ?_, fun a b c => g2 ?_⟩
    · have hc : cos v - 1e-12 ≤ cos (g * (2 * π / 86400e9)) := by
        refine cos_ge_of_le v0 v1 ?_ (by norm_num)
        rw [habs]
        have := mul_le_mul_of_nonneg_right (in1 a b) (by positivity : 0 ≤ 2 * π / 86400e9)
        rw [add_mul, hyω] at this
        have h0 : 0 ≤ 2 * π / 86400e9 := by positivity
        generalize 2 * π / 86400e9 = K at *
        generalize |g| * K = X at *
        norm_num at hs10 ev2 ⊢; linarith
      have hc' : cos ω - 1.1e-12 ≤ cos (g * (2 * π / 86400e9)) := by norm_num at hc cv2 ⊢; linarith
      have := mul_le_mul_of_nonneg_left hc' hcc0
      have h3 : C * (cos ω - 1.1e-12) = C * cos ω - 1.1e-12 * C := by ring
      rw [h3] at this
      norm_num at hcc1 res1 this ⊢; linarith
    · have hc : cos (g * (2 * π / 86400e9)) ≤ cos v + 1e-12 := by
        refine cos_le_of_ge v0 v1 ?_ ?_ (by norm_num) <;> rw [habs]
        · have := mul_le_mul_of_nonneg_right (out1 a) (by positivity : 0 ≤ 2 * π / 86400e9)
          rw [sub_mul, hyω] at this
          have h0 : 0 ≤ 2 * π / 86400e9 := by positivity
          generalize 2 * π / 86400e9 = K at *
          generalize |g| * K = X at *
          norm_num at hs10 ev1 ⊢; linarith
        · have := mul_le_mul_of_nonneg_right hb (by positivity : 0 ≤ 2 * π / 86400e9)
          rw [add_mul] at this
          have e : 43200e9 * (2 * π / 86400e9) = π := by norm_num; ring
          rw [e] at this
          refine this.trans ?_
          norm_num at hs10 ⊢; linarith
      have hc' : cos (g * (2 * π / 86400e9)) ≤ cos ω + 1.1e-12 := by norm_num at hc cv1 ⊢; linarith
      have := mul_le_mul_of_nonneg_left hc' hcc0
      have h3 : C * (cos ω + 1.1e-12) = C * cos ω + 1.1e-12 * C := by ring
      rw [h3] at this
      norm_num at hcc1 res2 this ⊢; linarith
  · refine ⟨fun a b => absurd (hgy (in1 a b)) hb, fun _ b c => absurd (out2 b c) hb⟩

set_option maxHeartbeats 1000000 in
/-- C67: if `sunrise('utc')` of one call, made in an arithmetic with the accuracy of double precision, is NaT at the cell
of the instant `t`, then the zenith angle that any other call (another algorithm, engine, use case or arithmetic,
without refraction) returns for the same place at an instant within a day of `t` is at most 90 degrees if latitude and
declination have the same sign, and at least 90 degrees if they have opposite signs, up to the error of `C67_day`. -/
theorem C67_polar {uc1 uc2 : UseCase} {w w1 : World (Rd A)} {w2 : World (Rd B)} {times1 times2 : Times}
    {lat1 lon1 : Coord (Rd A)} {lat2 lon2 : Coord (Rd B)}
    {alg1 eng1 alg2 eng2 : String} {refr1 refr2 : PyVal} {s1 : Sunpos (Rd A)} {s2 : Sunpos (Rd B)} {e1 e2 : Dim → Nat}
    {t u : Int} {φ l d ζ : ℝ} {R : DA (Option Int)}
    (h1 : call uc1 w1 times1 lat1 lon1 alg1 refr1 eng1 = .ok s1) (ha1 : AtRd s1 times1 e1 t φ l)
    (hutc : stampAt s1.timesUtc (e1 .time) = some t) (hd : s1.decDeg.get e1 = Rd.fin d)
    (hR : s1.sunrise w "utc" = .ok (.time R)) (hr : R.get e1 = none)
    (h2 : call uc2 w2 times2 lat2 lon2 alg2 refr2 eng2 = .ok s2) (hr2 : refr2 ≠ .pyTrue)
    (ha2 : AtRd s2 times2 e2 u φ l) (hday : |u - t| ≤ 86400000000000)
    (hφ : -90 ≤ φ ∧ φ ≤ 90) (hl : -180 ≤ l ∧ l < 180) (hpole : alg2 = "nrel" → |φ| ≤ 90 - 1e-10)
    (hζ : (sunVec (rad φ) (declination (century u)) (-(hourAngle (century u) + rad l))).up = cos (rad ζ))
    (hs : 0.06 ≤ placeFactor alg2 eng2 φ * sin (rad ζ)) :
    ∃ z : ℝ, s2.zenithDeg.get e2 = Rd.fin z ∧
      (0 < φ * d → z ≤ 90 + (dayError alg1 alg2 eng2 (|(u : ℝ) - t| / 86400e9)
        + 0.0014 / (placeFactor alg2 eng2 φ * sin (rad ζ)))) ∧
      (φ * d < 0 → 90 - (dayError alg1 alg2 eng2 (|(u : ℝ) - t| / 86400e9)
        + 0.0014 / (placeFactor alg2 eng2 φ * sin (rad ζ))) ≤ z) := by
  have hday' : |(u : ℝ) - t| / 86400e9 ≤ 1.001 := by
    have : |(u : ℝ) - t| ≤ 86400000000000 := by exact_mod_cast hday
    rw [div_le_iff₀ (by norm_num)]; norm_num; linarith
  obtain ⟨d', x, z, hd1, hx, hz, bd, bx, hall⟩ := float_day_up (e1 := e1) h1 h2 hr2 ha1.time ha1.range ha2 hφ hl hpole hζ hs
  obtain rfl : d = d' := XR.fin_inj.1 (hd.symm.trans hd1)
  obtain ⟨T, G, D, hT, -, -, hfin, hnan⟩ := C66_sunrise_angle w s1 ha1.lat (abs_le.2 hφ) hd (bd.trans (by norm_num))
  have hlb : |l| ≤ 360 := by rw [abs_le]; constructor <;> linarith [hl.1, hl.2]
  have hxb : |x| ≤ 100 := bx.trans (by norm_num)
  obtain ⟨τ, hτ, -⟩ := C66_tst w s1 hutc ha1.range hx hxb ha1.lon hlb
  have hπ := pi_pos
  have hπ4 := pi_lt_d4
  have key : cos (rad φ) * cos (rad d) ≤ |sin (rad φ) * sin (rad d)| + 2e-13 := by
    refine (hnan ?_).1
    rcases hTe : T.get e1 with _ | ω
    · rfl
    · exfalso
      obtain ⟨ω0, ω1, -⟩ := hfin ω hTe
      have hωb : |ω| ≤ 3.15 := by rw [abs_le]; norm_num at ω0 ω1 hπ4 ⊢; constructor <;> linarith
      obtain ⟨-, rU, -, -, m, r', k, j, -, hrU, -, -, -, -, -, -, -, hr', -⟩ :=
        C66_times w s1 hT hTe hωb hτ hx hxb ha1.lon hlb
      rw [hrU] at hR
      injection hR with g; injection g with g
      rw [g, hr] at hr'; cases hr'
  obtain ⟨g1, g2⟩ := hall hday' _ rfl
  obtain ⟨d0, d1⟩ := abs_le.1 bd
  have hcc0 : 0 ≤ cos (rad φ) * cos (rad d) := by
    refine mul_nonneg (cos_nonneg_of_mem_Icc ⟨?_, ?_⟩) (cos_nonneg_of_mem_Icc ⟨?_, ?_⟩) <;> unfold rad <;>
      nlinarith [hφ.1, hφ.2]
  have hcos : ∀ W : ℝ, |cos (rad φ) * cos (rad d) * cos W| ≤ |sin (rad φ) * sin (rad d)| + 2e-13 := by
    intro W
    rw [abs_mul, abs_of_nonneg hcc0]
    exact (mul_le_of_le_one_right hcc0 (abs_cos_le_one _)).trans key
  have sgn : ∀ {y : ℝ}, |y| ≤ 90 → (0 < y → 0 < sin (rad y)) ∧ (y < 0 → sin (rad y) < 0) := by
    intro y hy
    obtain ⟨a, b⟩ := abs_le.1 hy
    constructor
    · intro h; refine sin_pos_of_pos_of_lt_pi ?_ ?_ <;> unfold rad
      · positivity
      · nlinarith
    · intro h; refine sin_neg_of_neg_of_neg_pi_lt ?_ ?_ <;> unfold rad <;> nlinarith
  obtain ⟨p1, p2⟩ := sgn (abs_le.2 hφ)
  obtain ⟨p3, p4⟩ := sgn (bd.trans (by norm_num))
  refine ⟨z, hz, fun h => g1 ?_, fun h => g2 ?_⟩
  · have hs : 0 < sin (rad φ) * sin (rad d) := by
      rcases pos_and_pos_or_neg_and_neg_of_mul_pos h with ⟨a, b⟩ | ⟨a, b⟩
      · exact mul_pos (p1 a) (p3 b)
      · exact mul_pos_of_neg_of_neg (p2 a) (p4 b)
    have := hcos (2 * π * ((u : ℝ) / 86400e9) - π + x * (2 * π / 1440) + rad l)
    rw [abs_of_pos hs] at this
    have := (abs_le.1 this).1
    norm_num at this ⊢; linarith
  · have hs : sin (rad φ) * sin (rad d) < 0 := by
      rcases mul_neg_iff.1 h with ⟨a, b⟩ | ⟨a, b⟩
      · exact mul_neg_of_pos_of_neg (p1 a) (p4 b)
      · exact mul_neg_of_neg_of_pos (p2 a) (p3 b)
    have := hcos (2 * π * ((u : ℝ) / 86400e9) - π + x * (2 * π / 1440) + rad l)
    rw [abs_of_neg hs] at this
    have := (abs_le.1 this).2
    norm_num at this ⊢; linarith

/-! ### the hypotheses are met -/

/-- A day for C67_day: at 60 degrees north, for any two algorithms and in the 53-bit arithmetic, sunrise and sunset are
instants, and any other instant of `datetime64[ns]` has a cell at the same site. -/
example (uc1 uc2 : UseCase) {alg1 eng1 alg2 eng2 : String} (hk1 : KnownPair alg1 eng1) (hk2 : KnownPair alg2 eng2)
    {t : Int} (ht : |t| < 2 ^ 63) :
    ∃ (w1 : World (Rd Arith.binary64)) (s1 : Sunpos (Rd Arith.binary64)) (R S : DA (Option Int)) (r q : Int),
      call uc1 w1 (oneTime t) (.vec [Rd.fin 60]) (.vec [Rd.fin (-4.5)]) alg1 .pyFalse eng1 = .ok s1 ∧
      AtRd s1 (oneTime t) (fun _ => 0) t 60 (-4.5) ∧ stampAt s1.timesUtc 0 = some t ∧
      s1.sunrise w1 "utc" = .ok (.time R) ∧ s1.sunset w1 "utc" = .ok (.time S) ∧
      R.get (fun _ => 0) = some r ∧ S.get (fun _ => 0) = some q ∧
      ∀ u : Int, |u| < 2 ^ 63 → ∃ (w2 : World (Rd Arith.binary64)) (s2 : Sunpos (Rd Arith.binary64)) (ζ : ℝ),
        call uc2 w2 (oneTime u) (.vec [Rd.fin 60]) (.vec [Rd.fin (-4.5)]) alg2 .pyFalse eng2 = .ok s2 ∧
        AtRd s2 (oneTime u) (fun _ => 0) u 60 (-4.5) ∧
        (sunVec (rad 60) (declination (century u)) (-(hourAngle (century u) + rad (-4.5)))).up = cos (rad ζ) ∧
        0.06 ≤ placeFactor alg2 eng2 60 * sin (rad ζ) := by
  obtain ⟨w, s, ζ, h, ha, -, -⟩ := example_float ht uc1 hk1
  obtain ⟨-, d, x, -, -, -, hd, hx, -, -, -, -, bd, bx⟩ := float_time (e := fun _ => 0) h ha.time ht
  have hutc : stampAt s.timesUtc ((fun _ => 0 : Dim → Nat) .time) = some t := by rw [(C12_naive h rfl).1]; exact ha.time
  obtain ⟨T, G, D, hT, -, -, hfin, hnan⟩ := C66_sunrise_angle w s ha.lat (by norm_num) hd (bd.trans (by norm_num))
  obtain ⟨τ, hτ, -⟩ := C66_tst (e := fun _ => 0) w s hutc ht hx (bx.trans (by norm_num)) ha.lon (by norm_num)
  have hπ := pi_pos
  have hπ4 := pi_lt_d4
  have hω : ∃ ω : ℝ, T.get (fun _ => 0) = Rd.fin ω := by
    rcases hTe : T.get (fun _ => 0) with _ | ω
    · exfalso
      have key := (hnan hTe).1
      have e60 : rad 60 = π / 3 := by unfold rad; ring
      have q : √3 / 2 ≤ 0.87 := by rw [div_le_iff₀ (by norm_num), sqrt_le_left (by norm_num)]; norm_num
      have hr : |rad d| ≤ 0.4367 := by
        unfold rad
        refine (Nrel.abs_mul_le' bd (B := 0.017454) ?_).trans (by norm_num)
        rw [abs_of_pos (by positivity)]; norm_num at hπ4 ⊢; linarith
      have h1 : |sin (rad d)| ≤ 0.4367 := abs_sin_le_abs.trans hr
      have h2 : (rad d) ^ 2 ≤ 0.4367 ^ 2 := by rw [← sq_abs]; exact pow_le_pow_left₀ (abs_nonneg _) hr 2
      have h3 := one_sub_sq_div_two_le_cos (x := rad d)
      rw [e60, sin_pi_div_three, cos_pi_div_three, abs_mul, abs_of_nonneg (by positivity : 0 ≤ √3 / 2)] at key
      have h4 := mul_le_mul q h1 (abs_nonneg _) (by norm_num)
      norm_num at h2 h4 key; linarith
    · exact ⟨ω, rfl⟩
  obtain ⟨ω, hω⟩ := hω
  obtain ⟨ω0, ω1, -⟩ := hfin ω hω
  have hωb : |ω| ≤ 3.15 := by rw [abs_le]; norm_num at ω0 ω1 hπ4 ⊢; constructor <;> linarith
  obtain ⟨-, rU, -, sU, m, r', k, j, -, hrU, -, hsU, -, -, -, -, -, hr', -, -, hq', -⟩ :=
    C66_times w s hT hω hωb hτ hx (bx.trans (by norm_num)) ha.lon (by norm_num)
  exact ⟨w, s, rU, sU, _, _, h, ha, hutc, hrU, hsU, hr', hq', fun u hu => example_float hu uc2 hk2⟩

/-- A polar night and a polar day for C67_polar: noon of 1 January 2000 at the latitudes 72 and -72, with every
algorithm, in the 53-bit arithmetic. -/
example (uc : UseCase) {alg eng : String} (hk : KnownPair alg eng) {φ : ℝ} (hφ : φ = 72 ∨ φ = -72) :
    ∃ (w : World (Rd Arith.binary64)) (s : Sunpos (Rd Arith.binary64)) (d ζ : ℝ) (R : DA (Option Int)),
      call uc w (oneTime 946728000000000000) (.vec [Rd.fin φ]) (.vec [Rd.fin (-4.5)]) alg .pyFalse eng = .ok s ∧
      AtRd s (oneTime 946728000000000000) (fun _ => 0) 946728000000000000 φ (-4.5) ∧
      stampAt s.timesUtc 0 = some 946728000000000000 ∧
      s.decDeg.get (fun _ => 0) = Rd.fin d ∧ d < 0 ∧
      s.sunrise w "utc" = .ok (.time R) ∧ R.get (fun _ => 0) = none ∧
      (sunVec (rad φ) (declination (century 946728000000000000))
        (-(hourAngle (century 946728000000000000) + rad (-4.5)))).up = cos (rad ζ) ∧
      0.06 ≤ placeFactor alg eng φ * sin (rad ζ) := by
  have h90 : -90 ≤ φ ∧ φ ≤ 90 := by rcases hφ with rfl | rfl <;> norm_num
  have ht : |(946728000000000000 : Int)| < 2 ^ 63 := by norm_num
  obtain ⟨w, s, h, ha⟩ := single_call_rd (A := Arith.binary64) uc hk .pyFalse binary64_90 binary64_180 ht (φ := φ) (l := -4.5) h90 (by norm_num)
  obtain ⟨s', d, x, d1, -, h', hd, hx, hd1, -, ed, -, bd, bx⟩ := float_time (e := fun _ => 0) h ha.time ht
  have hutc : stampAt s.timesUtc ((fun _ => 0 : Dim → Nat) .time) = some 946728000000000000 := by
    rw [(C12_naive h rfl).1]; exact ha.time
  obtain ⟨d2, hd2, hdr⟩ := C54_declination (e := fun _ => 0) h' rfl ht
  obtain rfl : d1 = d2 := XR.fin_inj.1 (hd1.symm.trans hd2)
  rw [dec_2000.1] at hdr
  have hdec := dec_2000.2
  have hdd := (abs_le.1 hdr).2
  have hE : rad (decError alg) ≤ rad 1.06 := by
    unfold rad
    have : decError alg ≤ 1.06 := by unfold decError; split_ifs <;> norm_num
    have hp := pi_pos
    gcongr
  have p1 := pi_gt_d4
  have p2 := pi_lt_d4
  have hπ := pi_pos
  have hd20 : d ≤ -20 := by
    by_contra hc
    push Not at hc
    have hc1 : -20.001 < d1 := by have := (abs_le.1 ed).2; norm_num at this ⊢; linarith
    have : rad (-20.001) < rad d1 := by unfold rad; gcongr
    unfold rad at hE hdd this
    norm_num at hE hdec p1 p2 this
    generalize decError alg * (π / 180) = p at *
    generalize d1 * (π / 180) = q at *
    linarith
  -- numerical values at the latitude
  have hc18 : rad 72 = π / 2 - rad 18 := by unfold rad; ring
  have hr1 : 0.31415 ≤ rad 18 := by unfold rad; norm_num at p1 ⊢; linarith
  have hr2 : rad 18 ≤ 0.31416 := by unfold rad; norm_num at p2 ⊢; linarith
  have hs1 : sin (rad 18) ≤ 0.31416 := (sin_le (by linarith [hr1])).trans hr2
  have hs2 : 0.306 ≤ sin (rad 18) := by
    have := sin_gt_sub_cube (x := rad 18) (by norm_num at hr1; linarith)
    have h3 : (rad 18) ^ 3 ≤ 0.31416 ^ 3 := pow_le_pow_left₀ (by norm_num at hr1; linarith) hr2 3
    norm_num at h3 hr1 this ⊢; linarith
  have hcs : 0.95 ≤ cos (rad 18) := by
    have := one_sub_sq_div_two_le_cos (x := rad 18)
    have h3 : (rad 18) ^ 2 ≤ 0.31416 ^ 2 := pow_le_pow_left₀ (by norm_num at hr1; linarith) hr2 2
    norm_num at h3 this ⊢; linarith
  have en : ∀ y, rad (-y) = -rad y := fun y => by unfold rad; ring
  have hcφ : cos (rad φ) = sin (rad 18) := by
    rcases hφ with rfl | rfl
    · rw [hc18, cos_pi_div_two_sub]
    · rw [en, cos_neg, hc18, cos_pi_div_two_sub]
  have hsφ : |sin (rad φ)| = cos (rad 18) := by
    rcases hφ with rfl | rfl
    · rw [hc18, sin_pi_div_two_sub, abs_of_nonneg (by norm_num at hcs; linarith)]
    · rw [en, sin_neg, hc18, sin_pi_div_two_sub, abs_neg, abs_of_nonneg (by norm_num at hcs; linarith)]
  have hsd : 0.338 ≤ |sin (rad d)| := by
    have h1 : sin 0.349 ≤ sin (rad (-d)) := by
      refine sin_le_sin_of_le_of_le_pi_div_two ?_ ?_ ?_
      · norm_num at p1 ⊢; linarith
      · unfold rad; nlinarith [(abs_le.1 bd).1]
      · unfold rad; norm_num at p1 ⊢; nlinarith
    have h2 := sin_gt_sub_cube (x := 0.349) (by norm_num)
    rw [en, sin_neg] at h1
    have := neg_abs_le (sin (rad d))
    norm_num at h2 ⊢; linarith
  obtain ⟨T, G, D, hT, -, -, hfin, -⟩ := C66_sunrise_angle w s ha.lat (abs_le.2 h90) hd (bd.trans (by norm_num))
  have hTn : T.get (fun _ => 0) = XR.nan := by
    rcases hTe : T.get (fun _ => 0) with _ | ω
    · rfl
    · exfalso
      obtain ⟨-, -, hres, -⟩ := hfin ω hTe
      have a1 : |sin (rad φ) * sin (rad d)| ≤ 2e-13 + |cos (rad φ) * cos (rad d) * cos ω| := by
        have := abs_sub_abs_le_abs_sub (sin (rad φ) * sin (rad d)) (-(cos (rad φ) * cos (rad d) * cos ω))
        rw [abs_neg, sub_neg_eq_add] at this
        linarith
      rw [abs_mul, hsφ, abs_mul, abs_mul, hcφ, abs_of_nonneg (by norm_num at hs2; linarith : 0 ≤ sin (rad 18))] at a1
      have a2 := mul_le_mul hcs hsd (by norm_num) (by norm_num at hcs; linarith)
      have a3 : |cos (rad d)| * |cos ω| ≤ 1 := mul_le_one₀ (abs_cos_le_one _) (abs_nonneg _) (abs_cos_le_one _)
      have a4 := mul_le_mul hs1 a3 (by positivity) (by norm_num)
      rw [mul_assoc] at a1
      norm_num at a2 a4 a1; linarith
  obtain ⟨R, S, hR, -, hRn, -⟩ := C66_no_event w s hT hTn "utc" (by decide)
  obtain ⟨u, hu⟩ : ∃ u, u = (sunVec (rad φ) (declination (century 946728000000000000))
        (-(hourAngle (century 946728000000000000) + rad (-4.5)))).up := ⟨_, rfl⟩
  have hsdec : |sin (declination (century 946728000000000000))| ≤ 0.41 := by
    obtain ⟨o1, o2⟩ := Ephem.obliquity_bound (century_bound ht)
    have h1 : |sin (Ephem.obliquity (century 946728000000000000)) * sin (Ephem.longitude (century 946728000000000000))| ≤ 0.41 := by
      rw [abs_mul]
      have a1 : |sin (Ephem.obliquity (century 946728000000000000))| ≤ 0.41 :=
        (Real.abs_sin_le_abs).trans (by rw [abs_of_nonneg (by norm_num at o1; linarith)]; exact o2)
      have := mul_le_mul a1 (abs_sin_le_one (Ephem.longitude (century 946728000000000000))) (abs_nonneg _) (by norm_num)
      linarith
    have h2 := abs_le.1 h1
    unfold Ephem.declination
    rw [sin_arcsin (by norm_num at h2; linarith) (by norm_num at h2; linarith)]
    exact h1
  have hub : |u| ≤ 0.75 := by
    rw [hu]
    show |sin (rad φ) * sin _ + cos (rad φ) * cos _ * cos _| ≤ 0.75
    refine (abs_add_le _ _).trans ?_
    rw [abs_mul, abs_mul, abs_mul, hsφ, hcφ, abs_of_nonneg (by norm_num at hs2; linarith : 0 ≤ sin (rad 18)), mul_assoc]
    have a2 := mul_le_mul (cos_le_one (rad 18)) hsdec (abs_nonneg _) (by norm_num)
    have a3 : |cos (declination (century 946728000000000000))| * |cos (-(hourAngle (century 946728000000000000) + rad (-4.5)))| ≤ 1 :=
      mul_le_one₀ (abs_cos_le_one _) (abs_nonneg _) (abs_cos_le_one _)
    have a4 := mul_le_mul hs1 a3 (by positivity) (by norm_num)
    norm_num at a2 a4 ⊢; linarith
  have hb := abs_le.1 hub
  refine ⟨w, s, d, arccos u * (180 / π), R, h, ha, hutc, hd, by linarith, hR, hRn, ?_, ?_⟩
  · rw [rad_deg, cos_arccos (by norm_num at hb; linarith) (by norm_num at hb; linarith), hu]
  · rw [rad_deg, sin_arccos]
    have h1 : 0.6 ≤ √(1 - u ^ 2) := by
      apply le_sqrt_of_sq_le
      have : u ^ 2 ≤ 0.75 ^ 2 := sq_le_sq' hb.1 hb.2
      norm_num at this ⊢; linarith
    have h2 : 0.3 ≤ placeFactor alg eng φ := by
      unfold placeFactor latFactor
      rw [hcφ]
      split_ifs <;> norm_num at hs2 ⊢; linarith
    have := mul_le_mul h2 h1 (by norm_num) (by norm_num at h2; linarith)
    norm_num at this ⊢; linarith

end SW.Props
