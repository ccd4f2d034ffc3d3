/-
Derived angles, airmass and extraterrestrial irradiance (C20-C24), in exact real arithmetic.
-/
import Verif.Props.Exact
import Verif.RAir

namespace SW.Props
open SW.Spec Real

/-! ### C20 -/

theorem rad_zenithDeg {s : Sunpos XR} {e : Dim → Nat} {z : ℝ} (h : s.zenithDeg.get e = .fin z) :
    s.zenith.get e = .fin (rad z) := by
  have h1 : degrees (s.zenith.get e) = .fin z := h
  cases h2 : s.zenith.get e with
  | nan => rw [h2] at h1; exact absurd h1 (by intro h; cases h)
  | fin r =>
    rw [h2, XR.degrees_fin, XR.fin_inj, degrees_real] at h1
    rw [← h1, rad_deg]

theorem nan_zenithDeg {s : Sunpos XR} {e : Dim → Nat} (h : s.zenithDeg.get e = .nan) :
    s.zenith.get e = .nan := by
  have h1 : degrees (s.zenith.get e) = .nan := h
  cases h2 : s.zenith.get e with
  | nan => rfl
  | fin r => rw [h2, XR.degrees_fin] at h1; cases h1

theorem cosz_get {s : Sunpos XR} {e : Dim → Nat} {z : ℝ} (h : s.zenithDeg.get e = .fin z) :
    s.cosz.get e = .fin (cos (rad z)) := by
  show Num.cos (s.zenith.get e) = _
  rw [rad_zenithDeg h]; rfl

theorem cos_rad_sign {z : ℝ} (h0 : 0 ≤ z) (h1 : z ≤ 180) :
    (0 < cos (rad z) ↔ z < 90) ∧ (cos (rad z) = 0 ↔ z = 90) ∧ (cos (rad z) < 0 ↔ 90 < z) := by
  have hp := pi_pos
  have a1 : z < 90 → 0 < cos (rad z) := by
    intro h
    apply cos_pos_of_mem_Ioo
    unfold rad
    constructor <;> nlinarith
  have a2 : z = 90 → cos (rad z) = 0 := by
    rintro rfl
    have : rad 90 = π / 2 := by unfold rad; ring
    rw [this, cos_pi_div_two]
  have a3 : 90 < z → cos (rad z) < 0 := by
    intro h
    apply cos_neg_of_pi_div_two_lt_of_lt
    · unfold rad; nlinarith
    · unfold rad; nlinarith
  rcases lt_trichotomy z 90 with h | h | h
  · have := a1 h
    exact ⟨⟨fun _ => h, a1⟩, ⟨fun h => absurd h this.ne', a2⟩, ⟨fun h => absurd h this.not_gt, a3⟩⟩
  · have := a2 h
    refine ⟨⟨fun h' => absurd h' (by rw [this]; exact lt_irrefl _), a1⟩, ⟨fun _ => h, a2⟩,
      ⟨fun h' => absurd h' (by rw [this]; exact lt_irrefl _), a3⟩⟩
  · have := a3 h
    exact ⟨⟨fun h => absurd h this.not_gt, a1⟩, ⟨fun h => absurd h this.ne, a2⟩, ⟨fun _ => h, a3⟩⟩

/-- C20: at every cell of every object whose (public, degrees) zenith is the number `z`, the
elevation is `90 - z` and cosz is the cosine of `z`, in [-1, 1]; and for `z` in [0, 180] the signs of
elevation and cosz agree. -/
theorem C20_derived (s : Sunpos XR) (e : Dim → Nat) (z : ℝ) (h : s.zenithDeg.get e = .fin z) :
    ∃ el c : ℝ, s.elevation.get e = .fin el ∧ s.cosz.get e = .fin c ∧ el = 90 - z ∧
      c = cos (rad z) ∧ -1 ≤ c ∧ c ≤ 1 ∧
      (0 ≤ z → z ≤ 180 → (0 < c ↔ 0 < el) ∧ (c = 0 ↔ el = 0) ∧ (c < 0 ↔ el < 0)) := by
  refine ⟨90 - z, cos (rad z), ?_, cosz_get h, rfl, rfl, neg_one_le_cos _, cos_le_one _, ?_⟩
  · show (90.0 : XR) - s.zenithDeg.get e = _
    rw [h]; xr; norm_num
  · intro h0 h1
    obtain ⟨a, b, c⟩ := cos_rad_sign h0 h1
    refine ⟨a.trans (by rw [sub_pos]), b.trans ?_, c.trans (by rw [sub_neg])⟩
    constructor <;> intro h <;> linarith

/-- C20: where the zenith is NaN so are elevation and cosz. -/
theorem C20_nan (s : Sunpos XR) (e : Dim → Nat) (h : s.zenithDeg.get e = .nan) :
    s.elevation.get e = .nan ∧ s.cosz.get e = .nan := by
  constructor
  · show (90.0 : XR) - s.zenithDeg.get e = _
    rw [h]; rfl
  · show Num.cos (s.zenith.get e) = _
    rw [nan_zenithDeg h]; rfl

/-! ### C23, C24: airmass -/

/-- the four documented names -/
def Parameterizations : List String :=
  ["kasten_1965", "kasten_and_young_1989", "gueymard_2001", "gueymard_2003"]

/-- parameters of `Air.rec` by name -/
noncomputable def airRec (p : String) : ℝ → ℝ :=
  if p = "kasten_1965" then Air.rec 0.15 0 1.253 93.885
  else if p = "kasten_and_young_1989" then Air.rec 0.50572 0 1.6364 96.07995
  else if p = "gueymard_2001" then Air.rec 0.45665 0.07 1.697 96.4836
  else Air.rec 0.48353 0.095846 1.754 96.741

theorem airRec_facts {p : String} (hp : p ∈ Parameterizations) :
    MonotoneOn (fun z => max 1 (1 / airRec p z)) (Set.Icc 0 90) ∧
    ∀ z, 0 ≤ z → z ≤ 90 → 0.009 ≤ airRec p z ∧ (p = "gueymard_2003" → 0.0148 ≤ airRec p z) := by
  have key : ∀ {f : ℝ → ℝ} {z0 : ℝ} (C : ℝ), 0.009 ≤ C → C ≤ 1 → z0 ≤ 90 →
      ((∀ z, 0 ≤ z → z ≤ z0 → 1 ≤ f z) ∧ AntitoneOn f (Set.Icc z0 90) ∧ C ≤ f 90) →
      MonotoneOn (fun z => max 1 (1 / f z)) (Set.Icc 0 90) ∧ ∀ z, 0 ≤ z → z ≤ 90 → C ≤ f z := by
    intro f z0 C hC hC1 hz ⟨h1, h2, h3⟩
    have hp : 0 < f 90 := lt_of_lt_of_le (by norm_num) (hC.trans h3)
    obtain ⟨a, b⟩ := Air.am_mono h1 h2 hp hz
    exact ⟨a, fun z h h' => (le_min hC1 h3).trans (b z h h')⟩
  simp only [Parameterizations, List.mem_cons, List.not_mem_nil, or_false] at hp
  rcases hp with rfl | rfl | rfl | rfl
  · obtain ⟨a, b⟩ := key 0.009 (by norm_num) (by norm_num) (by norm_num) Air.kasten
    exact ⟨a, fun z h h' => ⟨b z h h', fun h => absurd h (by decide)⟩⟩
  · obtain ⟨a, b⟩ := key 0.0136 (by norm_num) (by norm_num) (by norm_num) Air.kastenYoung
    exact ⟨a, fun z h h' => ⟨le_trans (by norm_num) (b z h h'), fun h => absurd h (by decide)⟩⟩
  · obtain ⟨a, b⟩ := key 0.01 (by norm_num) (by norm_num) (by norm_num) Air.gueymard2001
    exact ⟨a, fun z h h' => ⟨le_trans (by norm_num) (b z h h'), fun h => absurd h (by decide)⟩⟩
  · obtain ⟨a, b⟩ := key 0.0148 (by norm_num) (by norm_num) (by norm_num) Air.gueymard2003
    exact ⟨a, fun z h h' => ⟨le_trans (by norm_num) (b z h h'), fun _ => b z h h'⟩⟩

theorem clip_fin {k z : ℝ} (hk : 90.1 ≤ k) (hz : z ≤ 90) : max (1e-4 : ℝ) (k - z) = k - z :=
  max_eq_right (by norm_num at hk ⊢; linarith)

theorem clip_pos {k z : ℝ} (hk : 90.1 ≤ k) (hz : z ≤ 90) : 0 < k - z := by
  norm_num at hk; linarith

theorem amOf_day {z r : ℝ} (hz : z ≤ 90) (hr : r ≠ 0) :
    Sunpos.amOf (XR.fin z) (XR.fin r) = XR.fin (max 1 (1 / r)) := by
  unfold Sunpos.amOf
  have : (Num.whereLe (XR.fin z) 90.0 (XR.fin r) Num.nan : XR) = XR.fin r := by
    show (if XR.cmp (· ≤ ·) (XR.fin z) (XR.fin 90.0) = true then XR.fin r else XR.nan) = _
    rw [if_pos]
    simp only [XR.cmp, decide_eq_true_eq]; norm_num; exact hz
  rw [this, XR.sci_fin, XR.div_fin hr, XR.max2_fin]
  norm_num

theorem amOf_night {z : ℝ} (hz : 90 < z) (r : XR) : Sunpos.amOf (XR.fin z) r = .nan := by
  unfold Sunpos.amOf
  have : (Num.whereLe (XR.fin z) 90.0 r Num.nan : XR) = XR.nan := by
    show (if XR.cmp (· ≤ ·) (XR.fin z) (XR.fin 90.0) = true then r else XR.nan) = _
    rw [if_neg]
    simp only [XR.cmp, decide_eq_true_eq]; norm_num; exact hz
  rw [this]; rfl

theorem amOf_nan (r : XR) : Sunpos.amOf XR.nan r = .nan := rfl

/-- the inner expression of the airmass of one cell -/
noncomputable def recX (p : String) (z c : XR) : XR :=
  if p = "kasten_1965" then Sunpos.recKasten z c
  else if p = "kasten_and_young_1989" then Sunpos.recKastenYoung z c
  else if p = "gueymard_2001" then Sunpos.recGueymard2001 z c
  else Sunpos.recGueymard2003 z c

theorem airmass_get {p : String} (hp : p ∈ Parameterizations) (s : Sunpos XR) :
    ∃ A, s.airmass p = .ok A ∧ ∀ e, A.get e = Sunpos.amOf (s.zenithDeg.get e)
      (recX p (s.zenithDeg.get e) (s.cosz.get e)) := by
  simp only [Parameterizations, List.mem_cons, List.not_mem_nil, or_false] at hp
  rcases hp with rfl | rfl | rfl | rfl
  · exact ⟨_, rfl, fun e => rfl⟩
  · exact ⟨_, rfl, fun e => rfl⟩
  · exact ⟨_, rfl, fun e => rfl⟩
  · exact ⟨_, rfl, fun e => rfl⟩

theorem recX_fin {p : String} (hp : p ∈ Parameterizations) {z : ℝ} (h0 : 0 ≤ z) (h : z ≤ 90) :
    recX p (.fin z) (.fin (cos (rad z))) = .fin (airRec p z) := by
  simp only [Parameterizations, List.mem_cons, List.not_mem_nil, or_false] at hp
  rcases hp with rfl | rfl | rfl | rfl
  · show Sunpos.recKasten (XR.fin z) _ = XR.fin (Air.rec _ _ _ _ z)
    unfold Sunpos.recKasten Air.rec
    xr
    rw [clip_fin (by norm_num) h, XR.rpow_fin (.inl (clip_pos (by norm_num) h))]
    xr
    rw [XR.fin_inj, rpow_zero, mul_one]; rfl
  · show Sunpos.recKastenYoung (XR.fin z) _ = XR.fin (Air.rec _ _ _ _ z)
    unfold Sunpos.recKastenYoung Air.rec
    xr
    rw [clip_fin (by norm_num) h, XR.rpow_fin (.inl (clip_pos (by norm_num) h))]
    xr
    rw [XR.fin_inj, rpow_zero, mul_one]; rfl
  · have hz : 0 < z ∨ z = 0 ∧ (0:ℝ) < 0.07 := by
      rcases h0.lt_or_eq with h | h
      · exact .inl h
      · exact .inr ⟨h.symm, by norm_num⟩
    show Sunpos.recGueymard2001 (XR.fin z) _ = XR.fin (Air.rec _ _ _ _ z)
    unfold Sunpos.recGueymard2001 Air.rec
    xr
    rw [clip_fin (by norm_num) h, XR.rpow_fin (.inl (clip_pos (by norm_num) h)), XR.rpow_fin hz]
    xr; rfl
  · have hz : 0 < z ∨ z = 0 ∧ (0:ℝ) < 0.095846 := by
      rcases h0.lt_or_eq with h | h
      · exact .inl h
      · exact .inr ⟨h.symm, by norm_num⟩
    show Sunpos.recGueymard2003 (XR.fin z) _ = XR.fin (Air.rec _ _ _ _ z)
    unfold Sunpos.recGueymard2003 Air.rec
    xr
    rw [clip_fin (by norm_num) h, XR.rpow_fin (.inl (clip_pos (by norm_num) h)), XR.rpow_fin hz]
    xr; rfl

theorem airRec_ge_cos {p : String} (hp : p ∈ Parameterizations) {z : ℝ} (h0 : 0 ≤ z) (h : z ≤ 90) :
    cos (rad z) ≤ airRec p z := by
  have key : ∀ {c a b k : ℝ}, 0 ≤ c → 90.1 ≤ k → cos (rad z) ≤ Air.rec c a b k z := by
    intro c a b k hc hk
    have h1 : 0 ≤ z ^ a := rpow_nonneg h0 _
    have h2 : 0 ≤ (k - z) ^ (-b) := rpow_nonneg (clip_pos hk h).le _
    have := mul_nonneg (mul_nonneg hc h1) h2
    unfold Air.rec rad; linarith
  simp only [Parameterizations, List.mem_cons, List.not_mem_nil, or_false] at hp
  rcases hp with rfl | rfl | rfl | rfl
  · exact key (by norm_num) (by norm_num)
  · exact key (by norm_num) (by norm_num)
  · exact key (by norm_num) (by norm_num)
  · exact key (by norm_num) (by norm_num)

/-- C24 (and C23): for each parameterization the airmass is one function `f` of the zenith angle, the
same for all objects: at least one, non-decreasing on [0, 90], at most the secant (the plane-parallel
airmass) and at most 112; the cells whose zenith is above 90 degrees, or NaN, get NaN. -/
theorem C24_airmass_monotone {p : String} (hp : p ∈ Parameterizations) :
    ∃ f : ℝ → ℝ, MonotoneOn f (Set.Icc 0 90) ∧
      (∀ z, 0 ≤ z → z ≤ 90 → 1 ≤ f z ∧ f z ≤ 112 ∧ (z < 90 → f z ≤ 1 / cos (rad z))) ∧
      ∀ s : Sunpos XR, ∃ A, s.airmass p = .ok A ∧ ∀ e,
        (∀ z, s.zenithDeg.get e = .fin z → 0 ≤ z → z ≤ 90 → A.get e = .fin (f z)) ∧
        (∀ z, s.zenithDeg.get e = .fin z → 90 < z → A.get e = .nan) ∧
        (s.zenithDeg.get e = .nan → A.get e = .nan) := by
  obtain ⟨h1, h2⟩ := airRec_facts hp
  refine ⟨_, h1, ?_, ?_⟩
  · intro z h0 h
    have h3 := (h2 z h0 h).1
    have h4 : 0 < airRec p z := lt_of_lt_of_le (by norm_num) h3
    refine ⟨le_max_left _ _, ?_, ?_⟩
    · refine max_le (by norm_num) ?_
      rw [div_le_iff₀ h4]; norm_num at h3; linarith
    · intro hz
      have h5 := (cos_rad_sign h0 (by linarith)).1.2 hz
      refine max_le ?_ (one_div_le_one_div_of_le h5 (airRec_ge_cos hp h0 h))
      rw [le_div_iff₀ h5, one_mul]; exact cos_le_one _
  · intro s
    obtain ⟨A, hA, hg⟩ := airmass_get hp s
    refine ⟨A, hA, fun e => ⟨?_, ?_, ?_⟩⟩
    · intro z hz h0 h
      have h4 : 0 < airRec p z := lt_of_lt_of_le (by norm_num) (h2 z h0 h).1
      rw [hg, cosz_get hz, hz, recX_fin hp h0 h, amOf_day h h4.ne']
    · intro z hz h
      rw [hg, hz, amOf_night h]
    · intro hz
      rw [hg, hz, amOf_nan]

theorem max2_one {x : XR} {v : ℝ} (h : Num.max2 (1.0 : XR) x = .fin v) : 1 ≤ v := by
  cases x with
  | nan => cases h
  | fin r =>
    rw [XR.sci_fin, XR.max2_fin, XR.fin_inj] at h
    rw [← h]; exact le_trans (by norm_num) (le_max_left _ _)

/-- C23: wherever it is a number, airmass is at least one. -/
theorem C23_at_least_one {p : String} {s : Sunpos XR} {A : DA XR} {e : Dim → Nat} {v : ℝ}
    (h : s.airmass p = .ok A) (hv : A.get e = .fin v) : 1 ≤ v := by
  by_cases hp : p ∈ Parameterizations
  · obtain ⟨A', hA, hg⟩ := airmass_get hp s
    rw [hA] at h
    obtain rfl := Except.ok.inj h
    rw [hg] at hv
    exact max2_one hv
  · exfalso
    simp only [Parameterizations, List.mem_cons, List.not_mem_nil, or_false, not_or] at hp
    obtain ⟨h1, h2, h3, h4⟩ := hp
    unfold Sunpos.airmass at h
    rw [if_neg h1, if_neg h2, if_neg h3, if_neg h4] at h
    cases h

/-- C23: for zenith angles that are not negative, airmass is NaN exactly at night. -/
theorem C23_nan_iff {p : String} (hp : p ∈ Parameterizations) {s : Sunpos XR} {A : DA XR}
    {e : Dim → Nat} {z : ℝ} (h : s.airmass p = .ok A) (hz : s.zenithDeg.get e = .fin z) (h0 : 0 ≤ z) :
    A.get e = .nan ↔ 90 < z := by
  obtain ⟨f, -, -, hf⟩ := C24_airmass_monotone hp
  obtain ⟨A', hA, hg⟩ := hf s
  rw [hA] at h
  obtain rfl := Except.ok.inj h
  constructor
  · intro hn
    by_contra hc
    rw [(hg e).1 z hz h0 (not_lt.1 hc)] at hn
    cases hn
  · exact (hg e).2.1 z hz

/-- C23: any other string is a ValueError (in every arithmetic, for every object). -/
theorem C23_unknown {F : Type} [Scalar F] {p : String} (hp : p ∉ Parameterizations) (s : Sunpos F) :
    s.airmass p = .error .valueError := by
  simp only [Parameterizations, List.mem_cons, List.not_mem_nil, or_false, not_or] at hp
  obtain ⟨h1, h2, h3, h4⟩ := hp
  unfold Sunpos.airmass
  rw [if_neg h1, if_neg h2, if_neg h3, if_neg h4]

theorem gueymard_negative {p : String} (hp : p = "gueymard_2001" ∨ p = "gueymard_2003") {z : ℝ}
    (h : z < 0) (c : XR) : recX p (.fin z) c = .nan := by
  have h1 : ∀ y : ℝ, 0 < y → (Num.rpow (XR.fin z) (XR.fin y) : XR) = .nan := by
    intro y _
    refine if_neg ?_
    rintro (h' | ⟨h', -⟩) <;> linarith
  rcases hp with rfl | rfl
  · show Sunpos.recGueymard2001 (XR.fin z) c = _
    unfold Sunpos.recGueymard2001
    rw [XR.sci_fin (m := 7), h1 _ (by norm_num)]
    cases c <;> rfl
  · show Sunpos.recGueymard2003 (XR.fin z) c = _
    unfold Sunpos.recGueymard2003
    rw [XR.sci_fin (m := 95846), h1 _ (by norm_num)]
    cases c <;> rfl

/-- C23: the two gueymard formulas also give NaN where the zenith angle is negative. With algorithm
iqbal and refraction, at every instant there is a place where this happens: the sun overhead, no
airmass. -/
theorem C23_negative_zenith {t : Int} (ht : |t| < 2 ^ 63) (uc : UseCase) {eng : String}
    (heng : eng = "numpy" ∨ eng = "numexpr") {p : String}
    (hp : p = "gueymard_2001" ∨ p = "gueymard_2003") :
    ∃ (φ l : ℝ) (s : Sunpos XR) (A : DA XR),
      call uc exWorld (oneTime t) (.vec [.fin φ]) (.vec [.fin l]) "iqbal" .pyTrue eng = .ok s ∧
      s.airmass p = .ok A ∧ A.get (fun _ => 0) = .nan ∧
      ∃ el, s.elevation.get (fun _ => 0) = .fin el ∧ 90 < el := by
  obtain ⟨φ, l, s, hs, z, hz, hz'⟩ := C13_iqbal_negative ht uc heng
  have hp' : p ∈ Parameterizations := by rcases hp with rfl | rfl <;> decide
  obtain ⟨A, hA, hg⟩ := airmass_get hp' s
  have hz0 : z < 0 := by norm_num at hz'; linarith
  obtain ⟨el, c, h1, -, h2, -⟩ := C20_derived s _ z hz
  refine ⟨φ, l, s, A, hs, hA, ?_, el, h1, by linarith⟩
  rw [hg, hz, gueymard_negative hp hz0]
  unfold Sunpos.amOf
  cases h : (Num.whereLe (XR.fin z) 90.0 XR.nan Num.nan : XR) with
  | nan => rfl
  | fin r =>
    exfalso
    have : (if XR.cmp (· ≤ ·) (XR.fin z) (XR.fin 90.0) = true then XR.nan else XR.nan) = XR.fin r := h
    rw [ite_self] at this
    cases this

/-! ### C21, C22: extraterrestrial irradiance -/

/-- C21: at a cell of a call whose zenith is the number `z`, `eth(ISC, 'none')` is `ISC * k` with
`k = ecf * max(0, cos z)`: linear in ISC, `0 ≤ k ≤ 1.04`, and zero exactly when the sun is not above
the horizon. -/
theorem C21_eth_none {uc : UseCase} {w : World XR} {times : Times} {latitude longitude : Coord XR}
    {alg eng : String} {refr : PyVal} {s : Sunpos XR} {e : Dim → Nat} {t : Int} {z : ℝ}
    (h : call uc w times latitude longitude alg refr eng = .ok s)
    (hk : stampAt times.stamps (e .time) = some t) (hrange : |t| < 2 ^ 63)
    (hz : s.zenithDeg.get e = .fin z) :
    ∃ x k : ℝ, s.ecf.get e = .fin x ∧ k = x * max 0 (cos (rad z)) ∧
      (∀ isc : ℝ, ∃ E, s.eth (.fin isc) "none" = .ok E ∧ E.get e = .fin (isc * k)) ∧
      0 ≤ k ∧ k ≤ 1.04 ∧ (k = 0 ↔ cos (rad z) ≤ 0) := by
  obtain ⟨x, hx, x1, x2⟩ := C18_ecf h hk hrange
  have x0 : 0 < x := lt_of_lt_of_le (by norm_num) x1
  refine ⟨x, _, hx, rfl, ?_, by positivity, ?_, ?_⟩
  · intro isc
    refine ⟨_, rfl, ?_⟩
    show (XR.fin isc * s.ecf.get e * Num.max2 (0.0 : XR) (s.cosz.get e)) * (1.0 : XR) = _
    rw [hx, cosz_get hz]; xr; norm_num; ring
  · have : max 0 (cos (rad z)) ≤ 1 := max_le (by norm_num) (cos_le_one _)
    calc x * max 0 (cos (rad z)) ≤ x * 1 := by gcongr
      _ ≤ 1.04 := by linarith
  · rw [mul_eq_zero, or_iff_right x0.ne', max_eq_left_iff]

/-- C21, in the words of the property. -/
theorem C21_eth_bounds {uc : UseCase} {w : World XR} {times : Times} {latitude longitude : Coord XR}
    {alg eng : String} {refr : PyVal} {s : Sunpos XR} {e : Dim → Nat} {t : Int} {z isc : ℝ} {E : DA XR}
    (h : call uc w times latitude longitude alg refr eng = .ok s)
    (hk : stampAt times.stamps (e .time) = some t) (hrange : |t| < 2 ^ 63)
    (hz : s.zenithDeg.get e = .fin z) (hi : 0 < isc) (hE : s.eth (.fin isc) "none" = .ok E) :
    ∃ v c, E.get e = .fin v ∧ s.cosz.get e = .fin c ∧ 0 ≤ v ∧ v ≤ 1.04 * isc ∧ (v = 0 ↔ c ≤ 0) := by
  obtain ⟨x, k, hx, -, hl, k0, k1, k2⟩ := C21_eth_none h hk hrange hz
  obtain ⟨E', hE', hv⟩ := hl isc
  rw [hE] at hE'
  obtain rfl := Except.ok.inj hE'
  refine ⟨_, _, hv, cosz_get hz, by positivity, ?_, ?_⟩
  · rw [mul_comm]; gcongr
  · rw [mul_eq_zero, or_iff_right hi.ne', k2]

/-- the three corrections -/
def Corrections : List String := ["perez_1990", "skarveith_1998", "gonzalez_and_calbo_1999"]

theorem corrPerez_fin {am : ℝ} (h : 1 ≤ am) : ∃ c : ℝ, Sunpos.corrPerez (XR.fin am) = .fin c ∧
    0 < c ∧ c ≤ 1.131 := by
  have h1 : (0:ℝ) < 0.9 + 9.4 / am := by positivity
  refine ⟨0.1 + 1.031 * exp (-1.4 / (0.9 + 9.4 / am)), ?_, by positivity, ?_⟩
  · unfold Sunpos.corrPerez
    simp only [XR.sci_fin, XR.neg_fin]
    rw [XR.div_fin (by linarith : am ≠ 0), XR.add_fin, XR.div_fin h1.ne']
    xr
  · have : exp (-1.4 / (0.9 + 9.4 / am)) ≤ 1 := by
      rw [exp_le_one_iff]
      exact div_nonpos_of_nonpos_of_nonneg (by norm_num) h1.le
    revert this; generalize exp _ = E; intro this; norm_num; linarith

theorem log_am {am : ℝ} (h : 1 ≤ am) (h' : am ≤ 67.7) : 0 ≤ log am ∧ log am ≤ 4.35 := by
  refine ⟨log_nonneg h, ?_⟩
  have h0 : 0 < am := by linarith
  have h1 : log am = log 64 + log (am / 64) := by
    rw [← log_mul (by norm_num) (by positivity)]; congr 1; ring
  have h2 : log (64:ℝ) = 6 * log 2 := by
    rw [show (64:ℝ) = 2 ^ 6 by norm_num, log_pow]; norm_num
  have h3 := log_le_sub_one_of_pos (show 0 < am / 64 by positivity)
  have h4 := Real.log_two_lt_d9
  rw [h1, h2]
  norm_num at h' h4 ⊢
  linarith

theorem corrGonzalez_fin {am : ℝ} (h : 1 ≤ am) (h' : am ≤ 67.7) :
    ∃ c : ℝ, Sunpos.corrGonzalez (XR.fin am) = .fin c ∧ 0 < c ∧ c ≤ 1.19 := by
  have h0 : 0 < am := by linarith
  refine ⟨0.229 + 0.957 * exp (-1.74 * am * (0.124 - 0.0285 * log am)), ?_, by positivity, ?_⟩
  · unfold Sunpos.corrGonzalez
    rw [XR.log_fin h0]; xr
  · obtain ⟨l0, l1⟩ := log_am h h'
    have h1 : exp (-1.74 * am * (0.124 - 0.0285 * log am)) ≤ 1 := by
      rw [exp_le_one_iff]
      have : 0 ≤ 0.124 - 0.0285 * log am := by norm_num at l1 ⊢; linarith
      have h2 : -1.74 * am ≤ 0 := by norm_num; exact h0.le
      exact mul_nonpos_of_nonpos_of_nonneg h2 this
    revert h1; generalize exp _ = E; intro h1; norm_num; linarith

theorem corrSkartveit_fin (z : ℝ) : ∃ c : ℝ, Sunpos.corrSkartveit (XR.fin z) = .fin c ∧
    c < 0.83 ∧ (z ≤ 90 → 0.27 ≤ c) := by
  refine ⟨0.83 - 0.56 * exp (-0.06 * (90.0 - z)), ?_, ?_, ?_⟩
  · unfold Sunpos.corrSkartveit; xr
  · have := exp_pos (-0.06 * (90.0 - z)); linarith
  · intro h
    have : exp (-0.06 * (90.0 - z)) ≤ 1 := by
      rw [exp_le_one_iff]; norm_num; linarith
    revert this; generalize exp _ = E; intro this; norm_num; linarith

/-- C22: with a correction, at every cell whose zenith is a non-negative number `z`: by day
(`z ≤ 90`), eth is the uncorrected value times a factor in (0, 1.19]; at night it is NaN for perez_1990
and gonzalez_and_calbo_1999, and zero for skarveith_1998. -/
theorem C22_correction {uc : UseCase} {w : World XR} {times : Times} {latitude longitude : Coord XR}
    {alg eng : String} {refr : PyVal} {s : Sunpos XR} {e : Dim → Nat} {t : Int} {z : ℝ}
    (h : call uc w times latitude longitude alg refr eng = .ok s)
    (hk : stampAt times.stamps (e .time) = some t) (hrange : |t| < 2 ^ 63)
    (hz : s.zenithDeg.get e = .fin z) (hz0 : 0 ≤ z) (hz1 : z ≤ 180)
    {c : String} (hc : c ∈ Corrections) (isc : ℝ) :
    ∃ E₀ E v₀, s.eth (.fin isc) "none" = .ok E₀ ∧ s.eth (.fin isc) c = .ok E ∧ E₀.get e = .fin v₀ ∧
      (z ≤ 90 → ∃ f, 0 < f ∧ f ≤ 1.19 ∧ E.get e = .fin (v₀ * f)) ∧
      (90 < z → v₀ = 0 ∧ (c = "skarveith_1998" → E.get e = .fin 0) ∧
        (c ≠ "skarveith_1998" → E.get e = .nan)) := by
  obtain ⟨x, k, hx, hkx, hl, k0, k1, k2⟩ := C21_eth_none h hk hrange hz
  obtain ⟨E₀, hE₀, hv₀⟩ := hl isc
  have hbase : (Sunpos.ethOf (DA.scalar (XR.fin isc)) s.ecf s.cosz).get e = .fin (isc * k) := by
    show (XR.fin isc * s.ecf.get e * Num.max2 (0.0 : XR) (s.cosz.get e)) = _
    rw [hx, cosz_get hz, hkx]; xr; norm_num; ring
  have hnight : 90 < z → k = 0 := fun hn => k2.2 ((cos_rad_sign hz0 hz1).2.2.2 hn).le
  simp only [Corrections, List.mem_cons, List.not_mem_nil, or_false] at hc
  rcases hc with rfl | rfl | rfl
  · have hp : "kasten_and_young_1989" ∈ Parameterizations := by decide
    obtain ⟨f, -, hf, hf'⟩ := C24_airmass_monotone hp
    obtain ⟨A, hA, hg⟩ := hf' s
    refine ⟨E₀, _, _, hE₀, (by unfold Sunpos.eth; rw [if_neg (by decide), if_pos rfl, hA]), hv₀, ?_, ?_⟩
    · intro hd
      obtain ⟨c, h1, h2, h3⟩ := corrPerez_fin (hf z hz0 hd).1
      refine ⟨c, h2, h3.trans (by norm_num), ?_⟩
      show (Sunpos.ethOf (DA.scalar (XR.fin isc)) s.ecf s.cosz).get e * Sunpos.corrPerez (A.get e) = _
      rw [hbase, (hg e).1 z hz hz0 hd, h1]; xr
    · intro hn
      refine ⟨by rw [hnight hn, mul_zero], fun h => absurd h (by decide), fun _ => ?_⟩
      show (Sunpos.ethOf (DA.scalar (XR.fin isc)) s.ecf s.cosz).get e * Sunpos.corrPerez (A.get e) = _
      rw [hbase, (hg e).2.1 z hz hn]; rfl
  · refine ⟨E₀, _, _, hE₀, (by unfold Sunpos.eth; rw [if_neg (by decide), if_neg (by decide), if_pos rfl]), hv₀, ?_, ?_⟩
    · intro hd
      obtain ⟨c, h1, h2, h3⟩ := corrSkartveit_fin z
      refine ⟨c, lt_of_lt_of_le (by norm_num) (h3 hd), h2.le.trans (by norm_num), ?_⟩
      show (Sunpos.ethOf (DA.scalar (XR.fin isc)) s.ecf s.cosz).get e
        * Sunpos.corrSkartveit (s.zenithDeg.get e) = _
      rw [hbase, hz, h1]; xr
    · intro hn
      refine ⟨by rw [hnight hn, mul_zero], fun _ => ?_, fun h => absurd rfl h⟩
      obtain ⟨c, h1, -, -⟩ := corrSkartveit_fin z
      show (Sunpos.ethOf (DA.scalar (XR.fin isc)) s.ecf s.cosz).get e
        * Sunpos.corrSkartveit (s.zenithDeg.get e) = _
      rw [hbase, hz, h1, hnight hn]; xr; norm_num
  · have hp : "gueymard_2003" ∈ Parameterizations := by decide
    obtain ⟨A, hA, hg⟩ := airmass_get hp s
    obtain ⟨-, hr⟩ := airRec_facts hp
    refine ⟨E₀, _, _, hE₀, (by unfold Sunpos.eth; rw [if_neg (by decide), if_neg (by decide), if_neg (by decide), if_pos rfl, hA]), hv₀, ?_, ?_⟩
    · intro hd
      have hr2 := (hr z hz0 hd).2 rfl
      have hr0 : 0 < airRec "gueymard_2003" z := lt_of_lt_of_le (by norm_num) hr2
      have hAe : A.get e = .fin (max 1 (1 / airRec "gueymard_2003" z)) := by
        rw [hg, cosz_get hz, hz, recX_fin hp hz0 hd, amOf_day hd hr0.ne']
      have h67 : max 1 (1 / airRec "gueymard_2003" z) ≤ 67.7 := by
        refine max_le (by norm_num) ?_
        rw [div_le_iff₀ hr0]; norm_num at hr2 ⊢; linarith
      obtain ⟨c, h1, h2, h3⟩ := corrGonzalez_fin (le_max_left _ _) h67
      refine ⟨c, h2, h3, ?_⟩
      show (Sunpos.ethOf (DA.scalar (XR.fin isc)) s.ecf s.cosz).get e * Sunpos.corrGonzalez (A.get e) = _
      rw [hbase, hAe, h1]; xr
    · intro hn
      refine ⟨by rw [hnight hn, mul_zero], fun h => absurd h (by decide), fun _ => ?_⟩
      show (Sunpos.ethOf (DA.scalar (XR.fin isc)) s.ecf s.cosz).get e * Sunpos.corrGonzalez (A.get e) = _
      rw [hbase, hg, hz, amOf_night hn]; rfl

/-- C22: any other string is a ValueError, in every arithmetic and for every object. -/
theorem C22_unknown {F : Type} [Scalar F] (s : Sunpos F) (isc : F) {c : String} (h : c ≠ "none")
    (hc : c ∉ Corrections) : s.eth isc c = .error .valueError := by
  simp only [Corrections, List.mem_cons, List.not_mem_nil, or_false, not_or] at hc
  obtain ⟨h1, h2, h3⟩ := hc
  unfold Sunpos.eth
  rw [if_neg h, if_neg h1, if_neg h2, if_neg h3]

/-- C22: with gonzalez_and_calbo_1999 eth is also NaN where the zenith angle is negative, which
happens with algorithm iqbal and refraction at every instant: a sun overhead and no irradiance. -/
theorem C22_negative_zenith {t : Int} (ht : |t| < 2 ^ 63) (uc : UseCase) {eng : String}
    (heng : eng = "numpy" ∨ eng = "numexpr") (isc : XR) :
    ∃ (φ l : ℝ) (s : Sunpos XR) (E : DA XR),
      call uc exWorld (oneTime t) (.vec [.fin φ]) (.vec [.fin l]) "iqbal" .pyTrue eng = .ok s ∧
      s.eth isc "gonzalez_and_calbo_1999" = .ok E ∧ E.get (fun _ => 0) = .nan ∧
      ∃ el, s.elevation.get (fun _ => 0) = .fin el ∧ 90 < el := by
  obtain ⟨φ, l, s, A, hs, hA, hn, hel⟩ := C23_negative_zenith ht uc heng (p := "gueymard_2003") (.inr rfl)
  refine ⟨φ, l, s, _, hs, (by unfold Sunpos.eth; rw [if_neg (by decide), if_neg (by decide), if_neg (by decide), if_pos rfl, hA]), ?_, hel⟩
  show (Sunpos.ethOf (DA.scalar isc) s.ecf s.cosz).get _ * Sunpos.corrGonzalez (A.get _) = _
  rw [hn]
  generalize (Sunpos.ethOf (DA.scalar isc) s.ecf s.cosz).get _ = x
  cases x <;> rfl

/-! ### the hypotheses are met -/

/-- a daytime and a night-time cell for C20-C24, at one instant of one call -/
example : ∃ s : Sunpos XR, ∃ z₁ z₂ : ℝ,
    call .sites exWorld (oneTime 0) (.vec [.fin 90, .fin (-90)]) (.vec [.fin 0, .fin 0]) "iqbal"
      .pyFalse "numpy" = .ok s ∧
    s.zenithDeg.get (fun _ => 0) = .fin z₁ ∧
    s.zenithDeg.get (fun d => if d = .location then 1 else 0) = .fin z₂ ∧
    0 ≤ z₁ ∧ z₁ ≤ 180 ∧ 0 ≤ z₂ ∧ z₂ ≤ 180 := by
  obtain ⟨s, hs⟩ := C05_naive_returns (uc := .sites) (w := exWorld) (times := oneTime 0)
    (latitude := .vec [.fin 90, .fin (-90)]) (longitude := .vec [.fin 0, .fin 0])
    (lat := [.fin 90, .fin (-90)]) (lon := [.fin 0, .fin 0]) (alg := "iqbal") (eng := "numpy")
    .pyFalse rfl rfl rfl rfl (by simp [Lengths]) (by simp [KnownPair])
    (latOk_XR.2 (by simp [LatAdm])) (lonOk_XR.2 (by simp [LonAdm]))
  have hd := (C05_shape hs rfl rfl).1
  obtain ⟨lat, lon, b, utc, ha, _, hr⟩ := call_inv hs
  obtain rfl : [XR.fin 90, XR.fin (-90)] = lat := Option.some.inj ha.lat_eq
  obtain rfl : [XR.fin 0, XR.fin 0] = lon := Option.some.inj ha.lon_eq
  have a1 : At s (oneTime 0) (fun _ => 0) 0 90 0 := by
    refine ⟨?_, rfl, by norm_num, ?_, ?_⟩
    · unfold Within; rw [hd]; simp [documentedDims, oneTime]
    · rw [hr.latitude]; rfl
    · rw [hr.longitude]; rfl
  have a2 : At s (oneTime 0) (fun d => if d = .location then 1 else 0) 0 (-90) 0 := by
    refine ⟨?_, rfl, by norm_num, ?_, ?_⟩
    · unfold Within; rw [hd]; simp [documentedDims, oneTime]
    · rw [hr.latitude]; rfl
    · rw [hr.longitude]; rfl
  obtain ⟨z₁, h1, h1'⟩ := C13_range hs a1 (.inr (.inr (by decide)))
  obtain ⟨z₂, h2, h2'⟩ := C13_range hs a2 (.inr (.inr (by decide)))
  exact ⟨s, z₁, z₂, hs, h1, h2, h1'.1, h1'.2, h2'.1, h2'.2⟩

end SW.Props
