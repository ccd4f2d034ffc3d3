/-
C74: the filled area and the day labels of the solar chart, `_cli/solar_chart.py:123-130, 178, 190-199`.
-/
import Verif.Interp
import Verif.Props.Chart

namespace SW.Props
open SW SW.Spec SW.Chart Real
open SW.Sunpos (dayNs)
open SW.Cli (CliStamp)

/-! ### specification -/

/-- The point `(x, y)` is on the curve through the points `P` of a circle of 360 degrees: it divides the segment between two points of
`P` which are neighbours (no point of `P` is at an azimuth strictly between theirs), azimuths being understood up to whole turns. -/
def OnCurve (P : List (ℝ × ℝ)) (x y : ℝ) : Prop :=
  ∃ p ∈ P, ∃ q ∈ P, ∃ (j k : ℤ) (μ : ℝ), 0 ≤ μ ∧ μ ≤ 1 ∧
    x = (1 - μ) * (p.1 + 360 * j) + μ * (q.1 + 360 * k) ∧ y = (1 - μ) * p.2 + μ * q.2 ∧
    p.1 + 360 * j ≤ x ∧ x < q.1 + 360 * k ∧
    ∀ r ∈ P, ∀ m : ℤ, ¬ (p.1 + 360 * j < r.1 + 360 * m ∧ r.1 + 360 * m < q.1 + 360 * k)

/-- the points as the program holds them -/
def asXR (P : List (ℝ × ℝ)) : Pts XR := P.map fun p => (XR.fin p.1, XR.fin p.2)

/-- all that is assumed of numpy's sorting -/
structure Sorts (sort : Pts XR → Pts XR) : Prop where
  perm : ∀ l, (sort l).Perm l
  sorted : ∀ l, (sort l).Pairwise fun a b => Scalar.ltB b.1 a.1 = false

/-! ### proof -/

theorem XR_leB {a b : ℝ} : Scalar.leB (XR.fin a) (XR.fin b) = true ↔ a ≤ b := by simp [Scalar.leB, XR.cmp]
theorem XR_ltB {a b : ℝ} : Scalar.ltB (XR.fin a) (XR.fin b) = true ↔ a < b := by simp [Scalar.ltB, XR.cmp]

theorem exists_asXR {l : Pts XR} (h : ∀ p ∈ l, ∃ a b : ℝ, p = (XR.fin a, XR.fin b)) : ∃ P, l = asXR P := by
  induction l with
  | nil => exact ⟨[], rfl⟩
  | cons p l ih =>
    obtain ⟨a, b, rfl⟩ := h p (by simp)
    obtain ⟨P, rfl⟩ := ih fun q hq => h q (by simp [hq])
    exact ⟨(a, b) :: P, rfl⟩

theorem interpFrom_real {x : ℝ} {p : ℝ × ℝ} {rest : List (ℝ × ℝ)} (hp : p.1 ≤ x) (hlast : ∃ q ∈ rest, x < q.1) :
    ∃ (p' q' : ℝ × ℝ) (l₁ l₂ : List (ℝ × ℝ)), p :: rest = l₁ ++ p' :: q' :: l₂ ∧ p'.1 ≤ x ∧ x < q'.1 ∧
      interpFrom (XR.fin x) (XR.fin p.1, XR.fin p.2) (asXR rest)
        = XR.fin ((q'.2 - p'.2) / (q'.1 - p'.1) * (x - p'.1) + p'.2) := by
  induction rest generalizing p with
  | nil => obtain ⟨q, hq, -⟩ := hlast; cases hq
  | cons q rest ih =>
    by_cases hq : q.1 ≤ x
    · obtain ⟨r, hr, hr'⟩ := hlast
      have : r ∈ rest := by
        rcases List.mem_cons.1 hr with rfl | h
        · linarith
        · exact h
      obtain ⟨p', q', l₁, l₂, h1, h2, h3, h4⟩ := ih hq ⟨r, this, hr'⟩
      refine ⟨p', q', p :: l₁, l₂, by rw [h1]; rfl, h2, h3, ?_⟩
      rw [← h4]
      have : Scalar.leB (XR.fin q.1) (XR.fin x) = true := XR_leB.2 hq
      simp only [asXR, List.map_cons, interpFrom, this, if_true]
    · have hlt : x < q.1 := not_le.1 hq
      have hne : q.1 - p.1 ≠ 0 := by linarith
      refine ⟨p, q, [], rest, rfl, hp, hlt, ?_⟩
      have h1 : Scalar.leB (XR.fin q.1) (XR.fin x) = false := by
        rw [Bool.eq_false_iff]; intro h; exact hq (XR_leB.1 h)
      have e : ((XR.fin q.2 - XR.fin p.2) / (XR.fin q.1 - XR.fin p.1) * (XR.fin x - XR.fin p.1) + XR.fin p.2 : XR)
          = XR.fin ((q.2 - p.2) / (q.1 - p.1) * (x - p.1) + p.2) := by
        rw [XR.sub_fin, XR.sub_fin, XR.sub_fin, XR.div_fin hne, XR.mul_fin, XR.add_fin]
      simp only [asXR, List.map_cons, interpFrom, h1, if_false, e]
      by_cases hx : x ≤ p.1
      · have hxp : x = p.1 := le_antisymm hx hp
        have h2 : Scalar.leB (XR.fin p.1) (XR.fin x) = true := XR_leB.2 hp
        have h3 : Scalar.leB (XR.fin x) (XR.fin p.1) = true := XR_leB.2 hx
        simp only [h2, h3, Bool.and_self, if_true]
        rw [hxp]; simp
      · have h3 : Scalar.leB (XR.fin x) (XR.fin p.1) = false := by
          rw [Bool.eq_false_iff]; intro h; exact hx (XR_leB.1 h)
        simp only [h3, Bool.and_false]
        rfl

theorem mem_asXR {P : List (ℝ × ℝ)} {p : XR × XR} : p ∈ asXR P ↔ ∃ q ∈ P, p = (XR.fin q.1, XR.fin q.2) := by
  simp only [asXR, List.mem_map, eq_comm]

theorem reduced_asXR (P : List (ℝ × ℝ)) :
    reduced (360 : XR) (asXR P) = asXR (P.map fun p => (rpmod p.1 360, p.2)) := by
  unfold reduced asXR
  rw [List.map_map, List.map_map]
  refine List.map_congr_left fun p _ => ?_
  show (Num.pmod (XR.fin p.1) (360 : XR), XR.fin p.2) = _
  rw [show (360 : XR) = XR.fin 360 from rfl, XR.pmod_fin (by norm_num)]
  rfl

theorem extended_asXR {P : List (ℝ × ℝ)} (h : P ≠ []) :
    extended (360 : XR) (asXR P) = asXR (((P.getLast h).1 - 360, (P.getLast h).2) :: P ++ [((P.head h).1 + 360, (P.head h).2)]) := by
  unfold extended
  have h1 : (asXR P).head? = some (XR.fin (P.head h).1, XR.fin (P.head h).2) := by
    cases P with
    | nil => exact absurd rfl h
    | cons a l => rfl
  have h2 : (asXR P).getLast? = some (XR.fin (P.getLast h).1, XR.fin (P.getLast h).2) := by
    unfold asXR
    rw [List.getLast?_map, List.getLast?_eq_some_getLast h]; rfl
  rw [h1, h2]
  simp only [asXR, List.map_append, List.map_cons, List.map_nil]
  rfl

/-- **C74** `np.interp` with `period=360` of any curve of numbers returns, for any azimuth, a point of the curve -/
theorem C74_interp {sort : Pts XR → Pts XR} (hs : Sorts sort) {P : List (ℝ × ℝ)} (hP : P ≠ []) (x : ℝ) :
    ∃ y : ℝ, interpPeriod sort 360 (XR.fin x) (asXR P) = .ok (XR.fin y) ∧ OnCurve P x y := by
  obtain ⟨R, hR⟩ : ∃ R : List (ℝ × ℝ), R = P.map fun p => (rpmod p.1 360, p.2) := ⟨_, rfl⟩
  have hperm := hs.perm (asXR R)
  have hsorted := hs.sorted (asXR R)
  obtain ⟨S, hS⟩ : ∃ S, sort (asXR R) = asXR S := by
    refine exists_asXR fun p hp => ?_
    obtain ⟨q, -, rfl⟩ := mem_asXR.1 (hperm.mem_iff.1 hp)
    exact ⟨_, _, rfl⟩
  rw [hS] at hperm hsorted
  have hmem : ∀ q, q ∈ S ↔ q ∈ R := by
    intro q
    have h1 := hperm.mem_iff (a := (XR.fin q.1, XR.fin q.2))
    rw [mem_asXR, mem_asXR] at h1
    have e : ∀ T : List (ℝ × ℝ), (∃ r ∈ T, ((XR.fin q.1, XR.fin q.2) : XR × XR) = (XR.fin r.1, XR.fin r.2)) ↔ q ∈ T := by
      intro T
      constructor
      · rintro ⟨r, hr, e⟩
        rw [Prod.mk.injEq, XR.fin_inj, XR.fin_inj] at e
        have : q = r := Prod.ext e.1 e.2
        rwa [this]
      · exact fun h => ⟨q, h, rfl⟩
    rwa [e, e] at h1
  have hpw : S.Pairwise fun a b => a.1 ≤ b.1 := by
    unfold asXR at hsorted
    rw [List.pairwise_map] at hsorted
    refine hsorted.imp fun {a b} h => ?_
    rw [Bool.eq_false_iff] at h
    exact not_lt.1 fun hlt => h (XR_ltB.2 hlt)
  have hSne : S ≠ [] := by
    rintro rfl
    obtain ⟨p, hp⟩ := List.exists_mem_of_ne_nil P hP
    have : (rpmod p.1 360, p.2) ∈ R := by rw [hR]; exact List.mem_map_of_mem hp
    exact absurd ((hmem _).2 this) (by simp)
  have hrange : ∀ q ∈ S, 0 ≤ q.1 ∧ q.1 < 360 := by
    intro q hq
    rw [hmem, hR, List.mem_map] at hq
    obtain ⟨p, -, rfl⟩ := hq
    exact rpmod_mem (by norm_num)
  have hfirst : ∀ q ∈ S, (S.head hSne).1 ≤ q.1 := by
    intro q hq
    cases S with
    | nil => exact absurd rfl hSne
    | cons a l =>
      rcases List.mem_cons.1 hq with rfl | h
      · exact le_rfl
      · exact (List.pairwise_cons.1 hpw).1 q h
  have hlast : ∀ q ∈ S, q.1 ≤ (S.getLast hSne).1 := by
    intro q hq
    rw [← List.dropLast_append_getLast hSne] at hq hpw
    rcases List.mem_append.1 hq with h | h
    · exact (List.pairwise_append.1 hpw).2.2 q h _ (by simp)
    · rw [List.mem_singleton] at h; rw [h]
  obtain ⟨hl0, hl1⟩ := hrange _ (List.getLast_mem hSne)
  obtain ⟨hh0, hh1⟩ := hrange _ (List.head_mem hSne)
  obtain ⟨x0, hx0⟩ : ∃ x0, x0 = rpmod x 360 := ⟨_, rfl⟩
  obtain ⟨hx1, hx2⟩ : 0 ≤ x0 ∧ x0 < 360 := by rw [hx0]; exact rpmod_mem (by norm_num)
  obtain ⟨n, hn⟩ := rpmod_eq x 360
  rw [← hx0] at hn
  -- the value
  obtain ⟨p', q', l₁, l₂, e1, e2, e3, e4⟩ := interpFrom_real (x := x0) (p := ((S.getLast hSne).1 - 360, (S.getLast hSne).2))
    (rest := S ++ [((S.head hSne).1 + 360, (S.head hSne).2)]) (by show _ - 360 ≤ _; linarith)
    ⟨_, List.mem_append_right _ (List.mem_singleton.2 rfl), by show _ < _ + 360; linarith⟩
  refine ⟨(q'.2 - p'.2) / (q'.1 - p'.1) * (x0 - p'.1) + p'.2, ?_, ?_⟩
  · unfold interpPeriod
    rw [reduced_asXR, ← hR, hS, extended_asXR hSne, show (360 : XR) = XR.fin 360 from rfl, XR.pmod_fin (by norm_num), ← hx0]
    show arrInterp (XR.fin x0) ((XR.fin ((S.getLast hSne).1 - 360), XR.fin (S.getLast hSne).2) :: asXR (S ++ _)) = _
    have h1 : Scalar.ltB (XR.fin x0) (XR.fin ((S.getLast hSne).1 - 360)) = false := by
      rw [Bool.eq_false_iff]; intro h; have := XR_ltB.1 h; linarith
    have h2 : Scalar.isNan (XR.fin x0) = false := rfl
    simp only [arrInterp, h1, h2, e4, Bool.false_eq_true, if_false]
  -- the extended list is sorted
  · obtain ⟨X, hX⟩ : ∃ X : List (ℝ × ℝ), X = ((S.getLast hSne).1 - 360, (S.getLast hSne).2) ::
      (S ++ [((S.head hSne).1 + 360, (S.head hSne).2)]) := ⟨_, rfl⟩
    rw [← hX] at e1
    have hXs : X.Pairwise fun a b => a.1 ≤ b.1 := by
      rw [hX, List.pairwise_cons, List.pairwise_append]
      refine ⟨fun q hq => ?_, hpw, by simp, fun a ha b hb => ?_⟩
      · rcases List.mem_append.1 hq with h | h
        · have := hrange q h; show _ - 360 ≤ _; linarith
        · rw [List.mem_singleton] at h; subst h; show _ - 360 ≤ _ + 360; linarith
      · rw [List.mem_singleton] at hb; subst hb; have := hrange a ha; show _ ≤ _ + 360; linarith
    have hbetween : ∀ r ∈ X, ¬ (p'.1 < r.1 ∧ r.1 < q'.1) := by
      intro r hr
      rw [e1] at hr hXs
      have h1 := (List.pairwise_append.1 hXs)
      have h2 := List.pairwise_cons.1 h1.2.1
      have h3 := List.pairwise_cons.1 h2.2
      rcases List.mem_append.1 hr with h | h
      · have := h1.2.2 r h p' (by simp); rintro ⟨h4, -⟩; linarith
      · rcases List.mem_cons.1 h with rfl | h
        · rintro ⟨h4, -⟩; exact lt_irrefl _ h4
        · rcases List.mem_cons.1 h with rfl | h
          · rintro ⟨-, h4⟩; exact lt_irrefl _ h4
          · have := h3.1 r h; rintro ⟨-, h4⟩; linarith
    have hfrom : ∀ r ∈ X, ∃ p ∈ P, ∃ k : ℤ, r.1 = p.1 + 360 * k ∧ r.2 = p.2 := by
      have hS' : ∀ r ∈ S, ∃ p ∈ P, ∃ k : ℤ, r.1 = p.1 + 360 * k ∧ r.2 = p.2 := by
        intro r hr
        rw [hmem, hR, List.mem_map] at hr
        obtain ⟨p, hp, rfl⟩ := hr
        obtain ⟨k, hk⟩ := rpmod_eq p.1 360
        exact ⟨p, hp, -k, by rw [hk]; push_cast; ring, rfl⟩
      intro r hr
      rw [hX] at hr
      rcases List.mem_cons.1 hr with rfl | h
      · obtain ⟨p, hp, k, h1, h2⟩ := hS' _ (List.getLast_mem hSne)
        exact ⟨p, hp, k - 1, by show _ - 360 = _; rw [h1]; push_cast; ring, h2⟩
      · rcases List.mem_append.1 h with h | h
        · exact hS' r h
        · rw [List.mem_singleton] at h; subst h
          obtain ⟨p, hp, k, h1, h2⟩ := hS' _ (List.head_mem hSne)
          exact ⟨p, hp, k + 1, by show _ + 360 = _; rw [h1]; push_cast; ring, h2⟩
    have hp'X : p' ∈ X := by rw [e1]; simp
    have hq'X : q' ∈ X := by rw [e1]; simp
    have hp'low : (S.getLast hSne).1 - 360 ≤ p'.1 := by
      rw [hX] at hp'X hXs
      rcases List.mem_cons.1 hp'X with rfl | h
      · exact le_rfl
      · exact (List.pairwise_cons.1 hXs).1 p' h
    have hq'high : q'.1 ≤ (S.head hSne).1 + 360 := by
      rw [hX] at hq'X hXs
      rw [← List.cons_append] at hq'X hXs
      rcases List.mem_append.1 hq'X with h | h
      · exact (List.pairwise_append.1 hXs).2.2 q' h ((S.head hSne).1 + 360, (S.head hSne).2) (by simp)
      · rw [List.mem_singleton] at h; rw [h]
    obtain ⟨p, hp, j, pj1, pj2⟩ := hfrom p' hp'X
    obtain ⟨q, hq, k, qk1, qk2⟩ := hfrom q' hq'X
    have hd : 0 < q'.1 - p'.1 := by linarith
    have hj : p.1 + 360 * ((j + n : ℤ) : ℝ) = p'.1 + 360 * n := by rw [pj1]; push_cast; ring
    have hk : q.1 + 360 * ((k + n : ℤ) : ℝ) = q'.1 + 360 * n := by rw [qk1]; push_cast; ring
    have hx : x = x0 + 360 * n := by linarith
    have hμ : (x0 - p'.1) / (q'.1 - p'.1) * (q'.1 - p'.1) = x0 - p'.1 := div_mul_cancel₀ _ hd.ne'
    refine ⟨p, hp, q, hq, j + n, k + n, (x0 - p'.1) / (q'.1 - p'.1), div_nonneg (by linarith) hd.le,
      by rw [div_le_one hd]; linarith, ?_, ?_, ?_, ?_, ?_⟩
    · rw [hj, hk, hx]; linear_combination -hμ
    · rw [← pj2, ← qk2]; ring
    · rw [hj, hx]; linarith
    · rw [hk, hx]; linarith
    · intro r hr m ⟨h1, h2⟩
      rw [hj] at h1
      rw [hk] at h2
      obtain ⟨i, hi⟩ := rpmod_eq r.1 360
      have hrS : (rpmod r.1 360, r.2) ∈ S := by
        rw [hmem, hR]; exact List.mem_map_of_mem (f := fun p : ℝ × ℝ => (rpmod p.1 360, p.2)) hr
      have hr1 := hrange _ hrS
      have hr2 := hfirst _ hrS
      have hr3 := hlast _ hrS
      simp only at hr1 hr2 hr3
      obtain ⟨v, hv⟩ : ∃ v, v = rpmod r.1 360 := ⟨_, rfl⟩
      rw [← hv] at hi hr1 hr2 hr3 hrS
      have e : r.1 + 360 * (m : ℝ) = v + 360 * ((i + m - n : ℤ) : ℝ) + 360 * n := by push_cast; linarith
      rw [e] at h1 h2
      obtain ⟨g, hg⟩ : ∃ g : ℤ, g = i + m - n := ⟨_, rfl⟩
      rw [← hg] at h1 h2
      rcases lt_trichotomy g 0 with h | h | h
      · have : (g : ℝ) ≤ -1 := by exact_mod_cast (by omega : g ≤ -1)
        linarith
      · rw [h] at h1 h2
        refine hbetween (v, r.2) ?_ ⟨?_, ?_⟩
        · rw [hX]; exact List.mem_cons_of_mem _ (List.mem_append_left _ hrS)
        · show p'.1 < v; push_cast at h1; linarith
        · show v < q'.1; push_cast at h2; linarith
      · have : (1 : ℝ) ≤ g := by exact_mod_cast h
        linarith

/-- a point of the curve is not above nor below all the points it goes through -/
theorem C74_between {P : List (ℝ × ℝ)} {x y a b : ℝ} (h : OnCurve P x y) (hP : ∀ p ∈ P, a ≤ p.2 ∧ p.2 ≤ b) : a ≤ y ∧ y ≤ b := by
  obtain ⟨p, hp, q, hq, j, k, μ, m0, m1, -, hy, -⟩ := h
  obtain ⟨p1, p2⟩ := hP p hp
  obtain ⟨q1, q2⟩ := hP q hq
  rw [hy]
  constructor <;> nlinarith

/-- at the azimuth of exactly one of the points, it is that point -/
theorem C74_through {P : List (ℝ × ℝ)} {x y : ℝ} (h : OnCurve P x y) {p : ℝ × ℝ} (hp : p ∈ P) {m : ℤ} (hx : x = p.1 + 360 * m)
    (hone : ∀ q ∈ P, ∀ k : ℤ, q.1 = p.1 + 360 * k → q.2 = p.2) : y = p.2 := by
  obtain ⟨a, ha, b, hb, j, k, μ, m0, m1, hx', hy, h1, h2, hno⟩ := h
  have h3 : a.1 + 360 * j = x := by
    by_contra hne
    exact hno p hp m ⟨by rw [← hx]; exact lt_of_le_of_ne h1 hne, by rw [← hx]; exact h2⟩
  have hμ : μ = 0 := by
    rw [h3] at hx'
    have : μ * (b.1 + 360 * k - x) = 0 := by linear_combination -hx'
    rcases mul_eq_zero.1 this with h | h
    · exact h
    · linarith
  have := hone a ha (m - j) (by push_cast; linarith)
  rw [hy, hμ, this]; ring

theorem at_of_site {w : World XR} {t : Int} {φ l : ℝ} {s : Sunpos XR} (ht : |t| < 2 ^ 63)
    (h : call .sites w (oneTime t) (.scalar (.fin φ)) (.scalar (.fin l)) "psa" .pyTrue "numexpr" = .ok s) :
    At s (oneTime t) (fun _ => 0) t φ l := by
  obtain ⟨lat, lon, b, utc, ha, hu, hr⟩ := call_inv h
  obtain rfl : [XR.fin φ] = lat := Option.some.inj ha.lat_eq
  obtain rfl : [XR.fin l] = lon := Option.some.inj ha.lon_eq
  refine ⟨?_, rfl, ht, ?_, ?_⟩
  · unfold Within; rw [hr.zen_dims]; simp [oneTime]
  · rw [hr.latitude]; rfl
  · rw [hr.longitude]; rfl

/-- the curves of the chart are curves of numbers -/
theorem shows_real {φ l : ℝ} {pts : Pts XR} {L : List Int} (h : Shows (XR.fin φ) (XR.fin l) pts L) (hL : ∀ t ∈ L, |t| < 2 ^ 63) :
    ∃ P, pts = asXR P ∧ ∀ p ∈ P, (-180 ≤ p.1 ∧ p.1 < 180) ∧ -90 ≤ p.2 ∧ p.2 ≤ 90 := by
  unfold Shows at h
  induction h with
  | nil => exact ⟨[], rfl, by simp⟩
  | @cons p t pts L hpt hrest ih =>
    obtain ⟨P, hP, hb⟩ := ih fun t ht => hL t (by simp [ht])
    obtain ⟨w, s, hs, rfl⟩ := hpt
    have hs' : call .sites w (oneTime t) (.scalar (.fin φ)) (.scalar (.fin l)) "psa" .pyTrue "numexpr" = .ok s := hs
    have ha := at_of_site (hL t (by simp)) hs'
    obtain ⟨z, hz, z0, z1⟩ := C13_range hs' ha (.inl rfl)
    obtain ⟨a, hA, hcase⟩ := C14_range hs' ha
    obtain ⟨el, c, g1, -, g3, -⟩ := C20_derived s (fun _ => 0) _ hz
    refine ⟨(a, el) :: P, ?_, ?_⟩
    · rw [hA, g1, hP]; rfl
    · intro q hq
      rcases List.mem_cons.1 hq with rfl | h
      · rcases hcase with ⟨-, h1, h2⟩ | ⟨h1, -⟩
        · exact ⟨⟨h1, h2⟩, by show -90 ≤ el; linarith, by show el ≤ 90; linarith⟩
        · simp at h1
      · exact hb q h

theorem grid_nonempty {F : Type} [Scalar F] {env : Env F} {c : SolarChart F} {days months hours minutes : List Nat} {g : Grid F}
    (h : drawSolarGrid env c days months hours minutes = .ok g) :
    g.solstice ≠ [] ∧ g.equinox ≠ [] ∧ ∀ d m pts, (d, m, pts) ∈ g.days → pts ≠ [] := by
  obtain ⟨z, h1, h⟩ := bind_ok h
  obtain ⟨⟨wall, t⟩, h2, h⟩ := bind_ok h
  obtain ⟨t1, h3, h⟩ := bind_ok h
  obtain ⟨sol, h4, h⟩ := bind_ok h
  obtain ⟨t2, h5, h⟩ := bind_ok h
  obtain ⟨equ, h6, h⟩ := bind_ok h
  have he : (sol.isEmpty || equ.isEmpty) = false := by
    cases he : (sol.isEmpty || equ.isEmpty) with
    | true => rw [he] at h; exact absurd h (by intro h; cases h)
    | false => rfl
  rw [he] at h
  replace h : (List.mapM (fun x : Nat × Nat => analemma env c z (yearOf wall) x.1 x.2)
    (product (orDefault hours (List.range 24)) (orDefault minutes [0])) >>= _) = Except.ok g := h
  obtain ⟨curves, h7, h⟩ := bind_ok h
  obtain ⟨paths, h8, h⟩ := bind_ok h
  injection h with h
  subst h
  rw [Bool.or_eq_false_iff] at he
  refine ⟨fun h0 => ?_, fun h0 => ?_, fun d m pts hm => ?_⟩
  · have h0 : sol = [] := h0
    rw [h0] at he; simp at he
  · have h0 : equ = [] := h0
    rw [h0] at he; simp at he
  · obtain ⟨x, r, -, hr, e⟩ := zipWith_mem (chart_mapM_ok h8) hm
    cases e
    obtain ⟨t3, -, hr⟩ := bind_ok hr
    obtain ⟨path, -, hr⟩ := bind_ok hr
    intro h0
    cases hp : path.isEmpty with
    | true => rw [hp] at hr; exact absurd hr (by intro h; cases h)
    | false =>
      rw [hp] at hr
      injection hr with hr
      rw [hr, h0] at hp
      simp at hp

/-- the instants of a day of a year between 1700 and 2200 fit in 64 bits, whatever the time zone -/
theorem fits_list {z : Zone} (hz : ZoneSound z) {y : Int} (y0 : 1700 ≤ y) (y1 : y ≤ 2200) {n : Int} (hn : (codeDate n).year = y) {N : Nat}
    {step : Int} (h0 : 0 ≤ step) (hstep : N * step ≤ dayNs) : ∀ t ∈ (readings (n * dayNs) N step).filterMap z.toUtc, |t| < 2 ^ 63 := by
  intro t ht
  rw [List.mem_filterMap] at ht
  obtain ⟨r, hr, hu⟩ := ht
  have h1 := hz.toUtc r t hu
  have h2 := abs_lt.1 (hz.small t)
  unfold readings at hr
  rw [List.mem_map] at hr
  obtain ⟨k, hk, rfl⟩ := hr
  rw [List.mem_range] at hk
  have hk1 : (k : Int) * step ≤ N * step := mul_le_mul_of_nonneg_right (by exact_mod_cast hk.le) h0
  have hk0 : 0 ≤ (k : Int) * step := mul_nonneg (by positivity) h0
  obtain ⟨s1, s2, s3⟩ := yearsDays_spec n
  rw [codeDate_eq] at hn
  simp only at hn
  rw [hn] at s1 s3
  unfold yearStart at s1
  have s4 : (Cal.yearsDays n).2 < 366 := by
    unfold yearLength at s3
    split_ifs at s3 <;> omega
  obtain ⟨v, hv⟩ : ∃ v, v = (k : Int) * step := ⟨_, rfl⟩
  rw [← hv] at hk0 hk1 h1
  have e : dayNs = 86400000000000 := rfl
  rw [e] at h1 h2 hstep
  have h3 : v ≤ 86400000000000 := hk1.trans hstep
  clear hk1 hstep hv
  rw [_root_.abs_lt]
  constructor <;> omega

/-- **C74** Every day label of the chart is written at azimuth 0 (south), on the curve of its day: between the two
neighbouring points of that curve, at an altitude between -90 and 90 degrees. -/
theorem C74_label {env : Env XR} {φ l : ℝ} {user : Option (Except PyErr CliStamp)} {tz : Option String} {polar : Bool}
    {c : SolarChart XR} {days months hours minutes : List Nat} {g : Grid XR} {sort : Pts XR → Pts XR} (hs : Sorts sort)
    (hc : SolarChart.init (XR.fin φ) (XR.fin l) user tz polar = .ok c)
    (h : drawSolarGrid env c days months hours minutes = .ok g)
    (hz : ∀ z, env.zone (zoneName tz) = .ok z → ZoneSound z) (y0 : 1700 ≤ g.year) (y1 : g.year ≤ 2200)
    {d m : Nat} {path : Pts XR} (hm : (d, m, path) ∈ g.days) :
    ∃ P y, path = asXR P ∧ labelAltitude sort path = .ok (XR.fin y) ∧ OnCurve P 0 y ∧ -90 ≤ y ∧ y ≤ 90 := by
  obtain ⟨z, n, hzone, hsh, hd1, hd2, -⟩ := C58_day_labels C36_gregorian hc h hm
  have hyear : (codeDate n).year = g.year := by
    by_cases hd : 12 < d
    · rw [hd1 hd]
    · rw [hd2 (by omega)]
  obtain ⟨P, rfl, hP⟩ := shows_real hsh (fits_list (hz z hzone) y0 y1 hyear (by norm_num) (by show _ ≤ (86400000000000 : Int); norm_num))
  have hne : P ≠ [] := by rintro rfl; exact (grid_nonempty h).2.2 d m _ hm rfl
  obtain ⟨y, hy, hon⟩ := C74_interp hs hne 0
  refine ⟨P, y, rfl, ?_, hon, C74_between hon fun p hp => (hP p hp).2⟩
  unfold labelAltitude
  rw [← hy, show (0.0 : XR) = XR.fin 0 from ?_]
  show XR.fin (0.0 : ℝ) = _
  norm_num

theorem mapM_pure {α β ε : Type} {f : α → Except ε β} {g : α → β} {l : List α} (h : ∀ a ∈ l, f a = .ok (g a)) :
    l.mapM f = .ok (l.map g) := by
  induction l with
  | nil => rfl
  | cons a l ih =>
    rw [List.mapM_cons, h a (by simp), ih fun b hb => h b (by simp [hb])]
    rfl

/-- **C74** The area is filled, for every whole degree of azimuth from -180 to 180, between a point of the curve of 21 June and a
point of the curve of 21 December at that azimuth. -/
theorem C74_area {env : Env XR} {φ l : ℝ} {user : Option (Except PyErr CliStamp)} {tz : Option String} {polar : Bool}
    {c : SolarChart XR} {days months hours minutes : List Nat} {g : Grid XR} {sort : Pts XR → Pts XR} (hs : Sorts sort)
    (hc : SolarChart.init (XR.fin φ) (XR.fin l) user tz polar = .ok c)
    (h : drawSolarGrid env c days months hours minutes = .ok g)
    (hz : ∀ z, env.zone (zoneName tz) = .ok z → ZoneSound z) (y0 : 1700 ≤ g.year) (y1 : g.year ≤ 2200) :
    ∃ (J D : List (ℝ × ℝ)) (area : List (XR × XR × XR)), g.solstice = asXR J ∧ g.equinox = asXR D ∧ filledArea sort g = .ok area ∧
      area.length = 361 ∧ ∀ k, (hk : k < area.length) → ∃ y₁ y₂ : ℝ, area[k] = (XR.fin (k - 180), XR.fin y₁, XR.fin y₂) ∧
        OnCurve J (k - 180) y₁ ∧ OnCurve D (k - 180) y₂ := by
  obtain ⟨z, hzone, -, ⟨n1, d1, s1⟩, ⟨n2, d2, s2⟩, -⟩ := C57_grid C36_gregorian hc h
  obtain ⟨J, hJ, -⟩ := shows_real s1 (fits_list (hz z hzone) y0 y1 (by rw [d1]) (by norm_num) (by show _ ≤ (86400000000000 : Int); norm_num))
  obtain ⟨D, hD, -⟩ := shows_real s2 (fits_list (hz z hzone) y0 y1 (by rw [d2]) (by norm_num) (by show _ ≤ (86400000000000 : Int); norm_num))
  have hJne : J ≠ [] := by rintro rfl; exact (grid_nonempty h).1 hJ
  have hDne : D ≠ [] := by rintro rfl; exact (grid_nonempty h).2.1 hD
  choose f hf hf' using C74_interp hs hJne
  choose q hq hq' using C74_interp hs hDne
  refine ⟨J, D, (List.range 361).map fun k : Nat => (XR.fin ((k : ℝ) - 180), XR.fin (f (k - 180)), XR.fin (q (k - 180))), hJ, hD, ?_,
    by simp, fun k hk => ⟨f (k - 180), q (k - 180), by simp, hf' _, hq' _⟩⟩
  unfold filledArea
  refine mapM_pure fun k _ => ?_
  have e : (Scalar.ofInt ((k : Int) - 180) : XR) = XR.fin ((k : ℝ) - 180) := by
    rw [XR.ofInt_fin]; push_cast; rfl
  simp only [e, hJ, hD, hf, hq]
  rfl

/-- **C74** The tick labelled with an azimuth is where the chart draws the points of that azimuth. -/
theorem C74_ticks (polar : Bool) (az al : ℝ) :
    ∃ x : ℝ, tickAt polar (XR.fin az) = XR.fin x ∧ onFigure polar x al = onFigure polar az al := by
  cases polar with
  | false => exact ⟨az, rfl, rfl⟩
  | true =>
    have e0 : (0.0 : XR) = XR.fin 0 := by show XR.fin (0.0 : ℝ) = _; norm_num
    have e1 : (360.0 : XR) = XR.fin 360 := by show XR.fin (360.0 : ℝ) = _; norm_num
    have e2 : tickAt true (XR.fin az) = XR.fin (if 0 ≤ az then az else az + 360) := by
      show Num.whereLe (0.0 : XR) (XR.fin az) (XR.fin az) (XR.fin az + 360.0) = _
      rw [e0, e1, XR.add_fin]
      by_cases h : 0 ≤ az
      · rw [if_pos h, XR.whereLe_fin, whereLe_real, if_pos h]
      · rw [if_neg h, XR.whereLe_fin, whereLe_real, if_neg h]
    refine ⟨_, e2, ?_⟩
    split_ifs with h
    · rfl
    · unfold onFigure
      simp only [if_true]
      rw [show (az + 360) * (π / 180) + -π / 2 = az * (π / 180) + -π / 2 + 2 * π by ring, cos_add_two_pi, sin_add_two_pi]

/-- **C74** the labels of the major ticks name every direction once, and include south (0) -/
theorem C74_major (polar : Bool) : (majorAzimuths polar).Nodup ∧ 0 ∈ majorAzimuths polar ∧
    ∀ a ∈ majorAzimuths polar, -180 < a ∧ a ≤ 180 := by
  cases polar <;> decide

/-- **C74** the labelled azimuths are all multiples of 20 degrees round a polar chart, and all multiples of 30 degrees inside a rectilinear one, and no others -/
theorem C74_major_all (a : Int) : (a ∈ majorAzimuths true ↔ -180 < a ∧ a ≤ 180 ∧ 20 ∣ a) ∧
    (a ∈ majorAzimuths false ↔ -180 < a ∧ a < 180 ∧ 30 ∣ a) := by
  unfold majorAzimuths
  constructor
  · simp only [if_true, List.mem_map, List.mem_range]
    constructor
    · rintro ⟨k, hk, rfl⟩; omega
    · rintro ⟨h1, h2, h3⟩; exact ⟨((a + 160) / 20).toNat, by omega, by omega⟩
  · simp only [Bool.false_eq_true, if_false, List.mem_map, List.mem_range]
    constructor
    · rintro ⟨k, hk, rfl⟩; omega
    · rintro ⟨h1, h2, h3⟩; exact ⟨((a + 150) / 30).toNat, by omega, by omega⟩

/-! ### the hypotheses can be met -/

/-- sorting, with NaN last -/
noncomputable def nanLast (a b : XR × XR) : Bool := Scalar.isNan b.1 || (!Scalar.isNan a.1 && Scalar.leB a.1 b.1)

theorem sorts_mergeSort : Sorts fun l => l.mergeSort nanLast where
  perm l := List.mergeSort_perm l _
  sorted l := by
    have h : (l.mergeSort nanLast).Pairwise fun a b => nanLast a b = true := by
      refine List.pairwise_mergeSort ?_ ?_ l
      · intro ⟨a, _⟩ ⟨b, _⟩ ⟨c, _⟩ h1 h2
        rcases a with _ | a <;> rcases b with _ | b <;> rcases c with _ | c <;>
          simp [nanLast, Scalar.isNan, Scalar.leB, XR.cmp] at h1 h2 ⊢
        linarith
      · intro ⟨a, _⟩ ⟨b, _⟩
        rcases a with _ | a <;> rcases b with _ | b <;>
          simp [nanLast, Scalar.isNan, Scalar.leB, XR.cmp]
        exact le_total _ _
    refine h.imp ?_
    intro ⟨a, _⟩ ⟨b, _⟩ h
    rcases a with _ | a <;> rcases b with _ | b <;>
      simp [nanLast, Scalar.isNan, Scalar.leB, Scalar.ltB, XR.cmp] at h ⊢
    exact h

/-- a chart that meets the hypotheses of `C74_label` and `C74_area`: Málaga, 2020, with a label for 21 June -/
example : ∃ (env : Env XR) (c : SolarChart XR) (g : Grid XR) (path : Pts XR),
    SolarChart.init (XR.fin 36.7) (XR.fin (-4.5)) (some (.ok ⟨some 1577836800000000000, false⟩)) none true = .ok c ∧
    drawSolarGrid env c [] [] [] [] = .ok g ∧ (∀ z, env.zone (zoneName none) = .ok z → ZoneSound z) ∧ 1700 ≤ g.year ∧ g.year ≤ 2200 ∧
    (21, 6, path) ∈ g.days := by
  obtain ⟨r, hr⟩ := C56_returns ⟨exWorld, 0, fun _ => .ok utcZone⟩ (φ := 36.7) (l := -4.5) (by norm_num) (by norm_num)
    1577836800000000000 true none rfl
  unfold makeSolarChart at hr
  obtain ⟨c, hc, hr⟩ := bind_ok hr
  obtain ⟨g, hg, -⟩ := bind_ok hr
  obtain ⟨i1, i2, i3, i4, -⟩ := init_fields hc
  obtain ⟨z, wall, t, -, hw, -, hy, -, -, curves, -, -, -, paths, hf, hd⟩ := grid_ok hg
  rw [i3] at hw
  obtain rfl : 1577836800000000000 = wall := by
    simp only [Option.getD_some, Except.ok.injEq, CliStamp.mk.injEq, Option.some.injEq, and_true] at hw
    exact hw
  have hy' : g.year = 2020 := by rw [hy]; decide +kernel
  have hmem : ((21, 6) : Nat × Nat) ∈ gridDays [] [] := by decide +kernel
  have hp : ∃ path, ((21, 6, path) : Nat × Nat × Pts XR) ∈ g.days := by
    rw [hd]
    clear hd
    obtain ⟨G, hG⟩ : ∃ G, G = gridDays [] [] := ⟨_, rfl⟩
    rw [← hG] at hf hmem ⊢
    clear hG
    induction hf with
    | nil => cases hmem
    | @cons a b l l' hab _ ih =>
      rcases List.mem_cons.1 hmem with e | h
      · exact ⟨b, by rw [← e]; simp⟩
      · obtain ⟨path, hp⟩ := ih h
        exact ⟨path, by simp only [List.zipWith_cons_cons]; exact List.mem_cons_of_mem _ hp⟩
  obtain ⟨path, hp⟩ := hp
  refine ⟨_, c, g, path, hc, hg, ?_, by rw [hy']; norm_num, by rw [hy']; norm_num, hp⟩
  intro z hz
  obtain rfl : utcZone = z := by injection hz
  exact ⟨fun r u h => by cases h; show r + 0 = r; omega, fun r u h => by cases h; show r + 0 = r; omega,
    fun u => by show |(0 : Int)| < _; decide⟩

end SW.Props
