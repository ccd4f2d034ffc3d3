/-
C92: what the speed test measures. `speed_meter` times calls of sites or regular_grid, without refraction, and returns the time per zenith angle computed.
C93: the columns of the other packages in the benchmark.
-/
import Verif.Speed
import Verif.Props.BenchReport
import Verif.Props.Incidence

namespace SW.Props
open SW SW.Spec SW.Bench Real

/-! ### specification -/

/-- the number of zenith angles of a result -/
def zenithCount {F : Type} (s : Sunpos F) : Nat := (s.zenith.dims.map (·.2)).prod

/-- `n_locs` is the number of places, or the text `mxn..` of numbers of latitudes and of longitudes (what follows another `x` is ignored) -/
def CountsPlaces (readInt : List Char → Option Int) : NLocs → Nat → Prop
  | .int n, N => n = N
  | .text s, N => ∃ (a b rest : List Char) (m n : Nat), s = a ++ 'x' :: (b ++ rest) ∧ 'x' ∉ a ∧ 'x' ∉ b ∧ (rest = [] ∨ rest.head? = some 'x') ∧
      readInt a = some (m : Int) ∧ readInt b = some (n : Int) ∧ N = m * n
  | .other, _ => False

/-- the use case measured -/
def measuredCase : NLocs → UseCase
  | .text _ => .regularGrid
  | _ => .sites

/-- as many random places as were asked for -/
def RngLengths {F : Type} (r : Rng F) : Prop := ∀ n, (r.lons n).length = n ∧ (r.lats n).length = n

/-- The random numbers are as documented: `lag_days` below 1000, as many longitudes in [-180, 180) and latitudes in [-90, 90) as asked for, `lon0` in
[-175, 170), `lat0` in [-85, 80). -/
structure RngOk (r : Rng XR) : Prop where
  lag : r.lagDays < 1000
  lengths : RngLengths r
  lons : ∀ n, ∀ x ∈ r.lons n, ∃ v : ℝ, x = XR.fin v ∧ -180 ≤ v ∧ v < 180
  lats : ∀ n, ∀ x ∈ r.lats n, ∃ v : ℝ, x = XR.fin v ∧ -90 ≤ v ∧ v < 90
  lon0 : ∃ v : ℝ, r.lon0 = XR.fin v ∧ -175 ≤ v ∧ v < 170
  lat0 : ∃ v : ℝ, r.lat0 = XR.fin v ∧ -85 ≤ v ∧ v < 80

namespace SpeedTest

/-! ### splitting -/

theorem split_ne (c : Char) (s : List Char) : split c s ≠ [] := by
  cases s with
  | nil => simp [split]
  | cons x xs =>
    unfold split
    split_ifs
    · simp
    · split <;> simp

theorem split_free {c : Char} {s : List Char} (h : c ∉ s) : split c s = [s] := by
  induction s with
  | nil => rfl
  | cons x xs ih =>
    rw [List.mem_cons, not_or] at h
    unfold split
    rw [if_neg (Ne.symm h.1), ih h.2]

theorem split_append {c : Char} {a : List Char} (h : c ∉ a) (r : List Char) : split c (a ++ c :: r) = a :: split c r := by
  induction a with
  | nil => simp [split]
  | cons x xs ih =>
    rw [List.mem_cons, not_or] at h
    rw [List.cons_append]
    conv_lhs => unfold split
    rw [if_neg (Ne.symm h.1), ih h.2]

theorem split_cons {c : Char} {s a : List Char} {ws : List (List Char)} (h : split c s = a :: ws) :
    c ∉ a ∧ ((ws = [] ∧ s = a) ∨ ∃ r, s = a ++ c :: r ∧ split c r = ws) := by
  induction s generalizing a ws with
  | nil =>
    unfold split at h
    cases h
    exact ⟨by simp, .inl ⟨rfl, rfl⟩⟩
  | cons x xs ih =>
    unfold split at h
    split_ifs at h with hx
    · cases h
      exact ⟨by simp, .inr ⟨xs, by simp [hx], rfl⟩⟩
    · cases hs : split c xs with
      | nil => exact absurd hs (split_ne c xs)
      | cons w ws' =>
        rw [hs] at h
        cases h
        obtain ⟨h1, h2⟩ := ih hs
        refine ⟨by simp [h1, Ne.symm hx], ?_⟩
        rcases h2 with ⟨h2, rfl⟩ | ⟨r, rfl, h3⟩
        · exact .inl ⟨h2, rfl⟩
        · exact .inr ⟨r, rfl, h3⟩

/-- two pieces -/
theorem split_two {c : Char} {s a b : List Char} (h : split c s = [a, b]) : s = a ++ c :: b ∧ c ∉ a ∧ c ∉ b := by
  obtain ⟨h1, h2⟩ := split_cons h
  rcases h2 with ⟨h2, -⟩ | ⟨r, rfl, h3⟩
  · cases h2
  · obtain ⟨h4, h5⟩ := split_cons h3
    rcases h5 with ⟨-, rfl⟩ | ⟨r', -, h6⟩
    · exact ⟨rfl, h1, h4⟩
    · exact absurd h6 (split_ne _ _)

/-- two or more pieces -/
theorem split_more {c : Char} {s a b : List Char} {ws : List (List Char)} (h : split c s = a :: b :: ws) :
    ∃ rest, s = a ++ c :: (b ++ rest) ∧ c ∉ a ∧ c ∉ b ∧ (rest = [] ∨ rest.head? = some c) := by
  obtain ⟨h1, h2⟩ := split_cons h
  rcases h2 with ⟨h2, -⟩ | ⟨r, rfl, h3⟩
  · cases h2
  · obtain ⟨h4, h5⟩ := split_cons h3
    rcases h5 with ⟨-, rfl⟩ | ⟨r', rfl, -⟩
    · exact ⟨[], by simp, h1, h4, .inl rfl⟩
    · exact ⟨c :: r', rfl, h1, h4, .inr rfl⟩

theorem split_of_text {c : Char} {a b rest : List Char} (ha : c ∉ a) (hb : c ∉ b) (hr : rest = [] ∨ rest.head? = some c) :
    ∃ ws, split c (a ++ c :: (b ++ rest)) = a :: b :: ws := by
  rw [split_append ha]
  rcases hr with rfl | hr
  · rw [List.append_nil, split_free hb]; exact ⟨[], rfl⟩
  · cases rest with
    | nil => cases hr
    | cons x r =>
      cases hr
      rw [split_append hb]; exact ⟨_, rfl⟩

/-! ### places -/

section
variable {F : Type} [Scalar F]

theorem linspace_length {a b : F} {n : Int} {l : List F} (h : linspace a b n = .ok l) : 0 ≤ n ∧ (l.length : Int) = n := by
  unfold linspace at h
  split_ifs at h with hn
  cases h
  constructor
  · omega
  · rw [List.length_map, List.length_range]; omega

/-- the places drawn -/
structure Drawn (env : SpeedEnv F) (nLocs : NLocs) (p : Places F) (N : Nat) : Prop where
  uc : p.uc = measuredCase nLocs
  total : p.total = N
  count : CountsPlaces env.readInt nLocs N
  held : ∃ lats lons, Holds p.lats lats ∧ Holds p.lons lons ∧ Lengths p.uc 0 lats.length lons.length ∧
    (p.uc = .sites → lats.length = N) ∧ (p.uc = .regularGrid → lats.length * lons.length = N)

theorem draw_ok {env : SpeedEnv F} (hr : RngLengths env.rng) {nLocs : NLocs} {p : Places F} (h : drawPlaces env nLocs = .ok (some p)) :
    ∃ N, Drawn env nLocs p N := by
  cases nLocs with
  | int n =>
    unfold drawPlaces at h
    simp only at h
    split_ifs at h with hn
    have hN : n = (n.toNat : Int) := by omega
    obtain ⟨hl1, hl2⟩ := hr n.toNat
    refine ⟨n.toNat, ?_⟩
    split at h
    · rename_i lat lon h1 h2
      cases h
      refine ⟨rfl, rfl, hN, ⟨[lat], [lon], rfl, rfl, rfl, fun _ => rfl, fun h => by cases h⟩⟩
    · cases h
      refine ⟨rfl, hN, hN, ⟨_, _, rfl, rfl, ?_, fun _ => hl2, fun h => by cases h⟩⟩
      show _ = _
      rw [hl1, hl2]
  | text s =>
    unfold drawPlaces at h
    obtain ⟨a, ha, h⟩ := bind_ok h
    obtain ⟨m, h1, h⟩ := bind_ok h
    obtain ⟨b, hb, h⟩ := bind_ok h
    obtain ⟨n, h2, h⟩ := bind_ok h
    obtain ⟨lons, h3, h⟩ := bind_ok h
    obtain ⟨lats, h4, h⟩ := bind_ok h
    obtain ⟨n0, n1⟩ := linspace_length h3
    obtain ⟨m0, m1⟩ := linspace_length h4
    cases h
    have read : ∀ {q : List Char} {z : Int}, intOf env q = .ok z → env.readInt q = some z := by
      intro q z hz
      unfold intOf at hz
      split at hz
      · cases hz; assumption
      · cases hz
    have hs : ∃ ws, split 'x' s = a :: b :: ws := by
      unfold piece at ha hb
      generalize split 'x' s = l at *
      rcases l with _ | ⟨x, _ | ⟨y, l⟩⟩
      · cases ha
      · cases hb
      · cases ha; cases hb; exact ⟨l, rfl⟩
    obtain ⟨ws, hs⟩ := hs
    obtain ⟨rest, e1, e2, e3, e4⟩ := split_more hs
    refine ⟨lats.length * lons.length, rfl, ?_, ?_, ?_⟩
    · push_cast; rw [m1, n1]
    · exact ⟨a, b, rest, lats.length, lons.length, e1, e2, e3, e4, by rw [m1, read h1], by rw [n1, read h2], rfl⟩
    · exact ⟨lats, lons, rfl, rfl, trivial, (fun h => by cases h), fun _ => rfl⟩
  | other => cases h

theorem minute_ok {lag : Nat} {n : Int} {times : Times} (h : minuteRange lag n = .ok times) :
    0 ≤ n ∧ times = ⟨false, none, (List.range n.toNat).map fun k : Nat => some ((19723 + lag) * 86400000000000 + k * 60000000000)⟩ := by
  unfold minuteRange at h
  simp only at h
  split_ifs at h with h1 h2
  cases h
  exact ⟨by omega, rfl⟩

theorem count_of_call {uc : UseCase} {w : World F} {times : Times} {latitude longitude : Coord F} {alg eng : String} {refr : PyVal} {s : Sunpos F}
    {lats lons : List F} (h : call uc w times latitude longitude alg refr eng = .ok s) (h1 : Holds latitude lats) (h2 : Holds longitude lons) :
    (uc = .sites → zenithCount s = times.stamps.length * lats.length) ∧
    (uc = .regularGrid → zenithCount s = times.stamps.length * (lats.length * lons.length)) := by
  have hd := (C05_shape h h1 h2).1
  unfold zenithCount
  rw [hd]
  constructor <;> rintro rfl <;> simp [documentedDims]

/-- what a successful measurement of sunwhere consists of -/
theorem meter_ok {env : SpeedEnv F} {algorithm : String} {nTimes : Int} {nLocs : NLocs} {r k : Nat} {sp : Speed F}
    (h : speedMeter env "sunwhere" algorithm nTimes nLocs r k = .ok sp) :
    ∃ times p a e, minuteRange env.rng.lagDays nTimes = .ok times ∧ drawPlaces env nLocs = .ok (some p) ∧ split '_' algorithm.toList = [a, e] ∧
      List.Forall₂ (fun _ s => call p.uc env.toWorld times p.lats p.lons (String.ofList a) .pyFalse (String.ofList e) = .ok s)
        (List.replicate (r * k) ()) sp.runs ∧
      sp.mean = ((lapses env.lapse r (k * nTimes * p.total)).bind Bench.mean).map (· * 1e6) ∧
      sp.std = ((lapses env.lapse r (k * nTimes * p.total)).bind popStd).map (· * 1e6) := by
  unfold speedMeter at h
  obtain ⟨times, h1, h⟩ := bind_ok h
  obtain ⟨places, h2, h⟩ := bind_ok h
  obtain ⟨names, h3, h⟩ := bind_ok h
  obtain ⟨p, h4, h⟩ := bind_ok h
  obtain ⟨runs, h5, h⟩ := bind_ok h
  have h := Except.ok.inj h
  subst h
  unfold methodNames at h3
  rw [if_pos rfl] at h3
  cases places with
  | none => cases h4
  | some p' =>
    cases h4
    split at h3
    · rename_i a e hs
      cases h3
      exact ⟨times, p, a, e, h1, h2, hs, chart_mapM_ok h5, rfl, rfl⟩
    · cases h3

end

theorem mean_lapses {lapse : Nat → ℝ} {r : Nat} {d : Int} (hr : 0 < r) (hd : d ≠ 0) :
    ((lapses lapse r d).bind Bench.mean).map (· * 1e6) = some (1e6 * (((List.range r).map lapse).sum / r) / d) := by
  unfold lapses
  rw [if_neg hd]
  unfold Bench.mean
  have hne : (List.range r).map (fun i => lapse i / (d : ℝ)) ≠ [] := by
    intro h; have := congrArg List.length h; simp at this; omega
  rw [Option.bind_some, if_neg hne, Option.map_some, List.length_map, List.length_range]
  congr 1
  have : ((List.range r).map fun i => lapse i / (d : ℝ)).sum = ((List.range r).map lapse).sum / d := by
    generalize List.range r = l
    induction l with
    | nil => simp
    | cons a l ih => rw [List.map_cons, List.sum_cons, List.map_cons, List.sum_cons, ih]; ring
  rw [this]; ring

theorem std_lapses {lapse : Nat → ℝ} {r : Nat} {d : Int} (hr : 0 < r) (hd : d ≠ 0) :
    ∃ v, 0 ≤ v ∧ ((lapses lapse r d).bind popStd).map (· * 1e6) = some v := by
  unfold lapses
  rw [if_neg hd]
  have hne : (List.range r).map (fun i => lapse i / (d : ℝ)) ≠ [] := by
    intro h; have := congrArg List.length h; simp at this; omega
  generalize (List.range r).map (fun i => lapse i / (d : ℝ)) = l at hne
  unfold popStd Bench.mean
  simp only [Option.bind_some, if_neg hne, List.map_eq_nil_iff, Option.map_some]
  exact ⟨_, by positivity, rfl⟩

end SpeedTest
open SpeedTest

/-! ### theorems -/

/-- **C92** What the speed test measures. A measurement of sunwhere that returns ran `n_repeats * number` calls, all of the same function (sites if `n_locs` is a number,
regular_grid if it is a text) with refraction off, the algorithm and the engine named by `algorithm_engine`, and the `n_times` minutes from one midnight on; every
result has the same number of zenith angles, `n_times` times the number of places, and the mean returned is the mean time of a repetition, in microseconds, divided by
the number of zenith angles it computed. In any arithmetic. -/
theorem C92_measures {F : Type} [Scalar F] {env : SpeedEnv F} (hr : RngLengths env.rng) {algorithm : String} {nTimes : Int} {nLocs : NLocs} {r k : Nat}
    {sp : Speed F} (h : speedMeter env "sunwhere" algorithm nTimes nLocs r k = .ok sp) :
    ∃ (alg eng : String) (times : Times) (lats lons : Coord F) (N : Nat),
      algorithm = alg ++ "_" ++ eng ∧
      times.tz = none ∧ (times.stamps.length : Int) = nTimes ∧
      (∀ i : Nat, (i : Int) < nTimes → stampAt times.stamps i = some ((19723 + env.rng.lagDays) * 86400000000000 + i * 60000000000)) ∧
      CountsPlaces env.readInt nLocs N ∧
      sp.runs.length = r * k ∧
      (∀ s ∈ sp.runs, call (measuredCase nLocs) env.toWorld times lats lons alg .pyFalse eng = .ok s ∧ (zenithCount s : Int) = nTimes * N) ∧
      (0 < r → (k * (nTimes * N) : Int) ≠ 0 → sp.mean = some (1e6 * (((List.range r).map env.lapse).sum / r) / (k * (nTimes * N) : Int))) := by
  obtain ⟨times, p, a, e, h1, h2, h3, h4, h5, -⟩ := meter_ok h
  obtain ⟨h0, rfl⟩ := minute_ok h1
  obtain ⟨N, hN⟩ := draw_ok hr h2
  obtain ⟨e1, -, -⟩ := split_two h3
  refine ⟨String.ofList a, String.ofList e,
    ⟨false, none, (List.range nTimes.toNat).map fun k : Nat => some ((19723 + env.rng.lagDays) * 86400000000000 + k * 60000000000)⟩,
    p.lats, p.lons, N, ?_, rfl, ?_, ?_, hN.count, ?_, ?_, ?_⟩
  · apply String.toList_injective
    simp [e1]
  · simp; omega
  · intro i hi
    unfold stampAt
    rw [List.getElem?_map, List.getElem?_range (by omega)]
    rfl
  · rw [← h4.length_eq, List.length_replicate]
  · intro s hs
    have hc : call p.uc env.toWorld
        ⟨false, none, (List.range nTimes.toNat).map fun k : Nat => some ((19723 + env.rng.lagDays) * 86400000000000 + k * 60000000000)⟩ p.lats p.lons (String.ofList a) .pyFalse (String.ofList e) = .ok s := by
      obtain ⟨i, hi, rfl⟩ := List.getElem_of_mem hs
      exact h4.get (by rw [h4.length_eq]; exact hi) hi
    refine ⟨hN.uc ▸ hc, ?_⟩
    obtain ⟨lats, lons, g1, g2, -, g4, g5⟩ := hN.held
    obtain ⟨c1, c2⟩ := count_of_call hc g1 g2
    have hlen : (((List.range nTimes.toNat).map fun k : Nat => some ((19723 + env.rng.lagDays : Int) * 86400000000000 + k * 60000000000)).length : Int) = nTimes := by
      simp; omega
    have hu := hN.uc
    cases nLocs with
    | text s => rw [c2 hu, g5 hu]; push_cast; rw [hlen]
    | int n => rw [c1 hu, g4 hu]; push_cast; rw [hlen]
    | other => exact hN.count.elim
  · intro r0 hd
    rw [h5, hN.total, show (k * nTimes * N : Int) = k * (nTimes * N) by ring, mean_lapses r0 hd]

/-- the two places of a division by zero: no number comes out -/
theorem C92_nothing_measured {F : Type} [Scalar F] {env : SpeedEnv F} (hr : RngLengths env.rng) {algorithm : String} {nTimes : Int} {nLocs : NLocs} {r k : Nat}
    {sp : Speed F} (h : speedMeter env "sunwhere" algorithm nTimes nLocs r k = .ok sp) :
    (sp.mean = none ↔ r = 0 ∨ k = 0 ∨ nTimes = 0 ∨ CountsPlaces env.readInt nLocs 0) ∧ (sp.std = none ↔ sp.mean = none) := by
  obtain ⟨times, p, a, e, h1, h2, -, -, h5, h6⟩ := meter_ok h
  obtain ⟨N, hN⟩ := draw_ok hr h2
  rw [h5, h6, hN.total]
  have hz : CountsPlaces env.readInt nLocs 0 ↔ N = 0 := by
    have hc := hN.count
    cases nLocs with
    | int n =>
      simp only [CountsPlaces] at hc ⊢
      omega
    | text s =>
      constructor
      · rintro ⟨a, b, rest, m, n, q1, q2, q3, q4, q5, q6, q7⟩
        obtain ⟨a', b', rest', m', n', q1', q2', q3', q4', q5', q6', q7'⟩ := hc
        obtain ⟨ws, hw⟩ := split_of_text q2 q3 q4
        obtain ⟨ws', hw'⟩ := split_of_text q2' q3' q4'
        rw [← q1] at hw
        rw [← q1', hw] at hw'
        cases hw'
        rw [q5] at q5'; cases q5'
        rw [q6] at q6'; cases q6'
        rw [q7', ← q7]
      · rintro rfl; exact hc
    | other => exact hc.elim
  rw [hz]
  by_cases hd : (k * nTimes * N : Int) = 0
  · have hl : lapses env.lapse r (k * nTimes * N) = none := by unfold lapses; rw [if_pos hd]
    rw [hl]
    refine ⟨⟨fun _ => ?_, fun _ => rfl⟩, ⟨fun _ => rfl, fun _ => rfl⟩⟩
    rw [mul_eq_zero, mul_eq_zero] at hd
    rcases hd with (hd | hd) | hd
    · exact .inr (.inl (by exact_mod_cast hd))
    · exact .inr (.inr (.inl hd))
    · exact .inr (.inr (.inr (by exact_mod_cast hd)))
  · rcases Nat.eq_zero_or_pos r with rfl | r0
    · have hl : lapses env.lapse 0 (k * nTimes * N) = some [] := by unfold lapses; rw [if_neg hd]; rfl
      rw [hl]
      simp [Bench.mean, popStd]
    · rw [mean_lapses r0 hd]
      obtain ⟨v, -, hv⟩ := std_lapses (lapse := env.lapse) r0 hd
      rw [hv]
      constructor
      · constructor
        · intro h; cases h
        · rintro (h | h | h | h)
          · omega
          · subst h; simp at hd
          · subst h; simp at hd
          · subst h; simp at hd
      · constructor <;> intro h <;> cases h

theorem linspace_between {x y : ℝ} {n : Int} (h0 : 0 ≤ n) (hxy : x ≤ y) :
    ∃ l, linspace (XR.fin x) (XR.fin y) n = .ok l ∧ ∀ v ∈ l, ∃ q : ℝ, v = XR.fin q ∧ x ≤ q ∧ q ≤ y := by
  unfold linspace
  rw [if_neg (not_lt.2 h0)]
  refine ⟨_, rfl, fun v hv => ?_⟩
  rw [List.mem_map] at hv
  obtain ⟨k, hk, rfl⟩ := hv
  rw [List.mem_range] at hk
  split_ifs with c1 c2
  · exact ⟨x, rfl, le_rfl, hxy⟩
  · exact ⟨y, rfl, hxy, le_rfl⟩
  · have hn : (0 : ℝ) < ((n - 1 : Int) : ℝ) := by
      have : 0 < n - 1 := by omega
      exact_mod_cast this
    have hkn : (k : ℝ) ≤ ((n - 1 : Int) : ℝ) := by
      have : (k : Int) ≤ n - 1 := by omega
      exact_mod_cast this
    refine ⟨k * ((y - x) / ((n - 1 : Int) : ℝ)) + x, ?_, ?_, ?_⟩
    · rw [XR.ofInt_fin, XR.ofInt_fin]
      show XR.m2 (· + ·) (XR.m2 (· * ·) _ (XR.m2p _ _ (XR.m2 (· - ·) _ _) _)) _ = _
      simp only [XR.m2, XR.m2p]
      rw [if_pos hn.ne']
      simp
    · have : 0 ≤ (y - x) / ((n - 1 : Int) : ℝ) := div_nonneg (by linarith) hn.le
      have : 0 ≤ (k : ℝ) * ((y - x) / ((n - 1 : Int) : ℝ)) := by positivity
      linarith
    · have : (k : ℝ) * ((y - x) / ((n - 1 : Int) : ℝ)) ≤ ((n - 1 : Int) : ℝ) * ((y - x) / ((n - 1 : Int) : ℝ)) :=
        mul_le_mul_of_nonneg_right hkn (div_nonneg (by linarith) hn.le)
      rw [mul_div_cancel₀ _ hn.ne'] at this
      linarith

/-- **C92** The speed test never fails on sunwhere's own methods: whatever places and dates are drawn, for any number of times up to a hundred million and any number of
places, the calls are accepted (no place is out of bounds), and, if there is anything to measure, a number comes out. -/
theorem C92_succeeds {env : SpeedEnv XR} (hr : RngOk env.rng) {alg eng : String} (hk : KnownPair alg eng) {nTimes : Int} (h0 : 0 ≤ nTimes) (h1 : nTimes ≤ 100000000)
    {nLocs : NLocs} {N : Nat} (hN : CountsPlaces env.readInt nLocs N) (r k : Nat) :
    ∃ sp, speedMeter env "sunwhere" (alg ++ "_" ++ eng) nTimes nLocs r k = .ok sp := by
  have ht : ∃ times, minuteRange env.rng.lagDays nTimes = .ok times := by
    unfold minuteRange
    simp only
    rw [if_neg (not_lt.2 h0), if_neg]
    · exact ⟨_, rfl⟩
    · have := hr.lag
      omega
  obtain ⟨times, ht⟩ := ht
  have hp : ∃ p lats lons, drawPlaces env nLocs = .ok (some p) ∧ Holds p.lats lats ∧ Holds p.lons lons ∧
      (∀ x ∈ lats, LatAdm x) ∧ (∀ x ∈ lons, LonAdm x) := by
    have hlat : ∀ n, ∀ x ∈ env.rng.lats n, LatAdm x := by
      intro n x hx
      obtain ⟨v, rfl, a, b⟩ := hr.lats n x hx
      exact ⟨a, b.le⟩
    have hlon : ∀ n, ∀ x ∈ env.rng.lons n, LonAdm x := by
      intro n x hx
      obtain ⟨v, rfl, a, b⟩ := hr.lons n x hx
      exact ⟨a, b⟩
    cases nLocs with
    | int n =>
      have hn : 0 ≤ n := by simp only [CountsPlaces] at hN; omega
      have q1 := hlat n.toNat
      have q2 := hlon n.toNat
      unfold drawPlaces
      simp only
      rw [if_neg (not_lt.2 hn)]
      split
      · rename_i lat lon e1 e2
        rw [e1] at q1
        rw [e2] at q2
        exact ⟨_, [lat], [lon], rfl, rfl, rfl, q1, q2⟩
      · exact ⟨_, _, _, rfl, rfl, rfl, q1, q2⟩
    | text s =>
      obtain ⟨a, b, rest, m, n, q1, q2, q3, q4, q5, q6, q7⟩ := hN
      obtain ⟨ws, hw⟩ := split_of_text q2 q3 q4
      rw [← q1] at hw
      obtain ⟨x, hx, x1, x2⟩ := hr.lon0
      obtain ⟨y, hy, y1, y2⟩ := hr.lat0
      obtain ⟨lons, l1, l2⟩ := linspace_between (x := x) (y := x + 5) (n := n) (by omega) (by linarith)
      obtain ⟨lats, l3, l4⟩ := linspace_between (x := y) (y := y + 5) (n := m) (by omega) (by linarith)
      have five : ∀ z : ℝ, XR.fin z + 5 = XR.fin (z + 5) := by
        intro z
        show XR.m2 (· + ·) (XR.fin z) (XR.fin _) = _
        simp [XR.m2]
        rfl
      have hd : drawPlaces env (.text s) = .ok (some ⟨.regularGrid, .vec lats, .vec lons, m * n⟩) := by
        have p0 : piece (split 'x' s) 0 = .ok a := by rw [hw]; rfl
        have p1 : piece (split 'x' s) 1 = .ok b := by rw [hw]; rfl
        have r0 : intOf env a = .ok (m : Int) := by unfold intOf; rw [q5]
        have r1 : intOf env b = .ok (n : Int) := by unfold intOf; rw [q6]
        unfold drawPlaces
        rw [hx, hy, five, five]
        show (piece (split 'x' s) 0 >>= fun a => intOf env a >>= fun nLats => piece (split 'x' s) 1 >>= fun b => intOf env b >>= fun nLons => _) = _
        rw [p0, p1]
        simp only [bind, Except.bind, r0, r1, l1, l3]
        rfl
      refine ⟨_, lats, lons, hd, rfl, rfl, fun v hv => ?_, fun v hv => ?_⟩
      · obtain ⟨q, rfl, a, b⟩ := l4 v hv
        exact ⟨by linarith, by linarith⟩
      · obtain ⟨q, rfl, a, b⟩ := l2 v hv
        exact ⟨by linarith, by linarith⟩
    | other => exact hN.elim
  obtain ⟨p, lats, lons, hp, g1, g2, g3, g4⟩ := hp
  obtain ⟨M, hM⟩ := draw_ok hr.lengths hp
  obtain ⟨lats', lons', g1', g2', g5, -⟩ := hM.held
  have el : lats' = lats := by
    cases hq : p.lats <;> rw [hq] at g1 g1' <;> simp only [Holds] at g1 g1'
    · rw [g1, g1']
    · rw [g1, g1']
  have el' : lons' = lons := by
    cases hq : p.lons <;> rw [hq] at g2 g2' <;> simp only [Holds] at g2 g2'
    · rw [g2, g2']
    · rw [g2, g2']
  subst el el'
  obtain ⟨-, rfl⟩ := minute_ok ht
  have hlen : ∀ K, Lengths p.uc K lats'.length lons'.length := by
    intro K
    have hu := hM.uc
    cases nLocs with
    | int n => rw [hu] at g5 ⊢; exact g5
    | text s => rw [hu]; exact trivial
    | other => exact hN.elim
  obtain ⟨s, hs⟩ := C05_naive_returns (uc := p.uc) (w := env.toWorld) (alg := alg) (eng := eng) (latitude := p.lats) (longitude := p.lons) .pyFalse
    (times := ⟨false, none, (List.range nTimes.toNat).map fun k : Nat => some ((19723 + env.rng.lagDays : Int) * 86400000000000 + k * 60000000000)⟩)
    rfl rfl g1 g2 (hlen _) hk (latOk_XR.2 g3) (lonOk_XR.2 g4)
  have hsp : split '_' (alg ++ "_" ++ eng).toList = [alg.toList, eng.toList] := by
    simp only [KnownPair, List.mem_cons, List.not_mem_nil, or_false] at hk
    rcases hk with ⟨rfl | rfl | rfl, rfl | rfl⟩ | ⟨rfl, rfl⟩ <;> decide +kernel
  have hmap : ∀ n : Nat, (List.replicate n ()).mapM (fun _ => call p.uc env.toWorld
      ⟨false, none, (List.range nTimes.toNat).map fun k : Nat => some ((19723 + env.rng.lagDays : Int) * 86400000000000 + k * 60000000000)⟩
      p.lats p.lons alg .pyFalse eng) = .ok (List.replicate n s) := by
    intro n
    induction n with
    | zero => rfl
    | succ n ih => rw [List.replicate_succ, List.mapM_cons, ih, hs]; rfl
  have hnames : methodNames "sunwhere" (alg ++ "_" ++ eng) = .ok (some (alg, eng)) := by
    unfold methodNames
    rw [if_pos rfl, hsp]
    simp only [String.ofList_toList]
  have hb : bound (some p) = .ok p := rfl
  have hrun := hmap (r * k)
  unfold speedMeter
  rw [ht, hp, hnames]
  simp only [bind, Except.bind, hb, runStatement]
  rw [hrun]
  exact ⟨_, rfl⟩

/-- **C92** A text of places that does not read `mxn`: without an `x`, it is an IndexError if it is a number (`'50'`) and a ValueError if not, and a first piece that is not a
number is a ValueError in any case; nothing is measured, whatever the library. -/
theorem C92_text {F : Type} [Scalar F] {env : SpeedEnv F} {library algorithm : String} {nTimes : Int} {s : List Char} {r k : Nat} {times : Times}
    (ht : minuteRange env.rng.lagDays nTimes = .ok times) :
    (∀ n : Int, 'x' ∉ s → env.readInt s = some n → speedMeter env library algorithm nTimes (.text s) r k = .error .indexError) ∧
    (∀ a rest : List Char, 'x' ∉ a → s = a ∨ s = a ++ 'x' :: rest → env.readInt a = none →
      speedMeter env library algorithm nTimes (.text s) r k = .error .valueError) := by
  have base : ∀ e, drawPlaces env (.text s) = .error e → speedMeter env library algorithm nTimes (.text s) r k = .error e := by
    intro e he; unfold speedMeter; rw [ht, he]; rfl
  have draw : drawPlaces env (.text s) = (piece (split 'x' s) 0 >>= fun a => intOf env a >>= fun nLats => piece (split 'x' s) 1 >>= fun b =>
      intOf env b >>= fun nLons => linspace env.rng.lon0 (env.rng.lon0 + 5) nLons >>= fun lons => linspace env.rng.lat0 (env.rng.lat0 + 5) nLats >>= fun lats =>
      .ok (some ⟨.regularGrid, .vec lats, .vec lons, nLats * nLons⟩)) := rfl
  refine ⟨fun n hx hn => base _ ?_, fun a rest ha hs hn => base _ ?_⟩
  · have h0 : intOf env s = .ok n := by unfold intOf; rw [hn]
    rw [draw, split_free hx]
    show (intOf env s >>= _) = _
    rw [h0]
    rfl
  · have h0 : intOf env a = .error .valueError := by unfold intOf; rw [hn]
    have h1 : piece (split 'x' s) 0 = .ok a := by
      rcases hs with rfl | rfl
      · rw [split_free ha]; rfl
      · rw [split_append ha]; rfl
    rw [draw, h1]
    show (intOf env a >>= _) = _
    rw [h0]
    rfl

/-- **C92** When the speed test fails: a library it does not know, or a number of places that is neither an int nor a text (a numpy integer, say), is an UnboundLocalError; a
method that is not of the form `algorithm_engine` is a ValueError; none of these returns a number. -/
theorem C92_fails {F : Type} [Scalar F] {env : SpeedEnv F} {library algorithm : String} {nTimes : Int} {nLocs : NLocs} {r k : Nat} {times : Times} {p : Option (Places F)}
    (ht : minuteRange env.rng.lagDays nTimes = .ok times) (hp : drawPlaces env nLocs = .ok p) :
    (library ∉ ["sunwhere", "pvlib", "sg2"] → speedMeter env library algorithm nTimes nLocs r k = .error .unboundLocalError) ∧
    (nLocs = .other → library ≠ "sunwhere" → speedMeter env library algorithm nTimes nLocs r k = .error .unboundLocalError) ∧
    ((∀ alg eng : List Char, '_' ∉ alg → '_' ∉ eng → algorithm.toList ≠ alg ++ '_' :: eng) →
      speedMeter env "sunwhere" algorithm nTimes nLocs r k = .error .valueError) ∧
    (∀ alg eng : String, algorithm = alg ++ "_" ++ eng → '_' ∉ alg.toList → '_' ∉ eng.toList → p ≠ none → ¬ KnownPair alg eng → 0 < r * k →
      speedMeter env "sunwhere" algorithm nTimes nLocs r k = .error .valueError) := by
  have base : ∀ lib, speedMeter env lib algorithm nTimes nLocs r k = (do
      let names ← methodNames lib algorithm
      let p ← bound p
      let runs ← runStatement env lib algorithm times p (r * k) names
      let ls := lapses env.lapse r (k * nTimes * p.total)
      return ⟨runs, (ls.bind Bench.mean).map (· * 1e6), (ls.bind popStd).map (· * 1e6)⟩) := by
    intro lib
    unfold speedMeter
    rw [ht, hp]
    rfl
  have foreign : ∀ lib, lib ≠ "sunwhere" → methodNames lib algorithm = .ok none := by
    intro lib hl; unfold methodNames; rw [if_neg hl]
  refine ⟨fun hl => ?_, fun ho hl => ?_, fun ha => ?_, fun alg eng ha n1 n2 hpn hk hrk => ?_⟩
  · simp only [List.mem_cons, List.not_mem_nil, or_false, not_or] at hl
    rw [base, foreign _ hl.1]
    cases p with
    | none => rfl
    | some p =>
      have : runStatement env library algorithm times p (r * k) none = .error .unboundLocalError := by
        unfold runStatement; rw [if_neg (by tauto)]
      have hb : bound (some p) = .ok p := rfl
      simp only [bind, Except.bind, hb, this]
  · subst ho
    cases hp
    rw [base, foreign _ hl]
    rfl
  · have : methodNames "sunwhere" algorithm = .error .valueError := by
      unfold methodNames
      rw [if_pos rfl]
      split
      · rename_i a e hs
        obtain ⟨q1, q2, q3⟩ := split_two hs
        exact absurd q1 (ha a e q2 q3)
      · rfl
    rw [base, this]
    rfl
  · have hs : split '_' algorithm.toList = [alg.toList, eng.toList] := by
      rw [ha, String.toList_append, String.toList_append, List.append_assoc]
      show split '_' (alg.toList ++ '_' :: eng.toList) = _
      rw [split_append n1, split_free n2]
    have hnames : methodNames "sunwhere" algorithm = .ok (some (alg, eng)) := by
      unfold methodNames
      rw [if_pos rfl, hs]
      simp only [String.ofList_toList]
    rw [base, hnames]
    cases p with
    | none => exact absurd rfl hpn
    | some p =>
      obtain ⟨-, rfl⟩ := minute_ok ht
      have hc := C01_unknown_pair (uc := p.uc) (w := env.toWorld) (latitude := p.lats) (longitude := p.lons) (alg := alg) (eng := eng) .pyFalse
        (times := ⟨false, none, (List.range nTimes.toNat).map fun k : Nat => some ((19723 + env.rng.lagDays : Int) * 86400000000000 + k * 60000000000)⟩) rfl hk
      obtain ⟨n, hn⟩ : ∃ n, r * k = n + 1 := ⟨r * k - 1, by omega⟩
      have hb : bound (some p) = .ok p := rfl
      simp only [bind, Except.bind, hb, runStatement, hn, List.replicate_succ, List.mapM_cons, hc]

/-! ### the columns of the other packages -/

/-- the direction at zenith angle `z` and compass bearing `b` (zero towards north, positive towards east), radians -/
noncomputable def compassVec (z b : ℝ) : Vec := ⟨cos z, -(sin z * cos b), sin z * sin b⟩

/-- the columns of all methods of pvlib (`rows`: name, and zenith angle and bearing by row) and of sg2 -/
noncomputable def otherColumns (pv : List (String × List (XR × XR))) (sg : List (XR × XR × XR)) : List ((String × String) × List XR) :=
  (pv.flatMap fun p => pvlibMethod p.1 p.2) ++ sg2Columns sg

/-- **C93** The benchmark turns the bearings of pvlib, clockwise from north, into sunwhere's azimuths (zero towards south, positive towards west): same direction, same range
as sunwhere's; zenith angles are taken as they are. -/
theorem C93_pvlib (name : String) (rows : List (ℝ × ℝ)) :
    ∃ az : List XR, (pvlibMethod name (rows.map fun r => (XR.fin r.1, XR.fin r.2))).lookup ("pvlib." ++ name, "azimuth") = some az ∧
      (pvlibMethod name (rows.map fun r => (XR.fin r.1, XR.fin r.2))).lookup ("pvlib." ++ name, "zenith") = some (rows.map fun r => XR.fin r.1) ∧
      az.length = rows.length ∧
      ∀ k, (hk : k < rows.length) → ∃ a : ℝ, az[k]? = some (XR.fin a) ∧
        (∀ z, dirVec z (rad a) = compassVec z (rad rows[k].2)) ∧ (0 ≤ rows[k].2 → rows[k].2 < 360 → -180 ≤ a ∧ a < 180) := by
  have e180 : ∀ b : ℝ, (XR.fin b : XR) - 180 = XR.fin (b - 180) := by
    intro b
    show XR.m2 (· - ·) (XR.fin b) (XR.fin _) = _
    simp [XR.m2]
    rfl
  refine ⟨rows.map fun r => XR.fin (r.2 - 180), ?_, ?_, by simp, fun k hk => ?_⟩
  · unfold pvlibMethod
    have : (("pvlib." ++ name, "azimuth") == ("pvlib." ++ name, "zenith")) = false := by
      rw [beq_eq_false_iff_ne]; intro h; exact absurd (Prod.mk.inj h).2 (by decide)
    simp only [List.lookup_cons, this, beq_self_eq_true, List.map_map]
    congr 2
  · unfold pvlibMethod
    simp only [List.lookup_cons, beq_self_eq_true, List.map_map]
    rfl
  · refine ⟨rows[k].2 - 180, by simp [hk], fun z => ?_, fun h0 h1 => ⟨by linarith, by linarith⟩⟩
    have e : rad (rows[k].2 - 180) = rad rows[k].2 - π := by unfold rad; ring
    unfold dirVec compassVec
    rw [e, cos_sub_pi, sin_sub_pi, mul_neg, mul_neg, neg_neg]

/-- **C93** The columns of sg2: from elevation, bearing (radians) and distance, the zenith angle and azimuth of the same direction and the inverse square of the distance. -/
theorem C93_sg2 (rows : List (ℝ × ℝ × ℝ)) (hd : ∀ r ∈ rows, r.2.2 ≠ 0) :
    ∃ z a f : List ℝ, z.length = rows.length ∧ a.length = rows.length ∧ f.length = rows.length ∧
      sg2Columns (rows.map fun r => (XR.fin r.1, XR.fin r.2.1, XR.fin r.2.2)) =
        [(("sg2.sg2_c++", "zenith"), z.map XR.fin), (("sg2.sg2_c++", "azimuth"), a.map XR.fin), (("sg2.sg2_c++", "ecf"), f.map XR.fin)] ∧
      ∀ k, (hk : k < rows.length) → ∃ x y w : ℝ, z[k]? = some x ∧ a[k]? = some y ∧ f[k]? = some w ∧
        rad x = π / 2 - rows[k].1 ∧ dirVec (rad x) (rad y) = compassVec (rad x) rows[k].2.1 ∧ w = 1 / rows[k].2.2 ^ 2 := by
  have e180 : ∀ b : ℝ, (XR.fin b : XR) - 180 = XR.fin (b - 180) := by
    intro b
    show XR.m2 (· - ·) (XR.fin b) (XR.fin _) = _
    simp [XR.m2]
    rfl
  have e90 : ∀ b : ℝ, (90.0 : XR) - XR.fin b = XR.fin (90 - b) := by
    intro b
    show XR.m2 (· - ·) (XR.fin _) (XR.fin b) = _
    simp only [XR.m2, XR.fin_inj]
    rw [show (Num.lit 900 true 1 : ℝ) = 90 by rw [show (Num.lit 900 true 1 : ℝ) = (OfScientific.ofScientific 900 true 1 : ℝ) from rfl]; norm_num]
  have e1 : ∀ b : ℝ, b ≠ 0 → (1 : XR) / XR.fin b = XR.fin (1 / b) := by
    intro b hb
    show XR.m2p _ _ (XR.fin _) (XR.fin b) = _
    simp only [XR.m2p]
    rw [if_pos hb, show (Num.nat 1 : ℝ) = 1 from rfl]
  refine ⟨rows.map fun r => 90 - degrees r.1, rows.map fun r => degrees r.2.1 - 180, rows.map fun r => 1 / r.2.2 ^ 2, by simp, by simp, by simp, ?_, ?_⟩
  · unfold sg2Columns
    simp only [List.map_map, List.cons.injEq, Prod.mk.injEq, true_and, and_true]
    refine ⟨?_, ?_, ?_⟩ <;> apply List.map_congr_left <;> intro r hr <;> simp only [Function.comp]
    · rw [XR.degrees_fin, e90]
    · rw [XR.degrees_fin, e180]
    · rw [XR.npow_fin, e1 _ (pow_ne_zero 2 (hd r hr))]
  · intro k hk
    have er : ∀ x : ℝ, rad (degrees x) = x := fun x => rad_deg x
    refine ⟨90 - degrees rows[k].1, degrees rows[k].2.1 - 180, 1 / rows[k].2.2 ^ 2, by simp [hk], by simp [hk], by simp [hk], ?_, ?_, rfl⟩
    · have : rad (90 - degrees rows[k].1) = π / 2 - rad (degrees rows[k].1) := by unfold rad; ring
      rw [this, er]
    · have e : rad (degrees rows[k].2.1 - 180) = rows[k].2.1 - π := by
        rw [show rad (degrees rows[k].2.1 - 180) = rad (degrees rows[k].2.1) - π by unfold rad; ring, er]
      unfold dirVec compassVec
      rw [e, cos_sub_pi, sin_sub_pi]
      simp

theorem mem_of_lookup {α β : Type} [BEq α] [LawfulBEq α] {l : List (α × β)} {a : α} {b : β} (h : l.lookup a = some b) : (a, b) ∈ l := by
  induction l with
  | nil => cases h
  | cons c l ih =>
    obtain ⟨k, v⟩ := c
    rw [List.lookup_cons] at h
    by_cases hk : a = k
    · subst hk
      simp only [beq_self_eq_true] at h
      cases h; simp
    · have e : (a == k) = false := by simpa using hk
      rw [e] at h
      exact List.mem_cons_of_mem _ (ih h)

/-- **C93** pvlib has no eccentricity correction factor: no method of pvlib is in that table of the report, whatever its other columns. -/
theorem C93_no_ecf {sort : List (String × Scores) → List (String × Scores)} (hs : SortsRmse sort) {w : World XR} {times : Times} {lat lon : XR}
    {jpl : List (String × List XR)} {pv : List (String × List (XR × XR))} {sg : List (XR × XR × XR)} (hb : BenchInput times jpl (otherColumns pv sg))
    {z : List XR} (hz : jpl.lookup "zenith" = some z) {tables : List (String × List (String × Scores))}
    (h : runTables sort w times lat lon jpl (otherColumns pv sg) = .ok tables) {rows : List (String × Scores)} (hr : tables.lookup "ecf (x10⁻³)" = some rows) :
    ∀ name ∈ ["pvlib's NREL (numba)", "pvlib's NREL (numpy)", "pvlib's EPHEMERIS", "pvlib's PYEPHEM"], ∀ sc, (name, sc) ∉ rows := by
  intro name hn sc hsc
  obtain ⟨-, sun, hsun, k⟩ := C76_rows hs hb hz h
  obtain ⟨rows', hr', -, -, k⟩ := k "ecf" "ecf (x10⁻³)" 1000 (by simp [reportTables])
  rw [hr] at hr'
  cases hr'
  obtain ⟨m, c, o, hm, hc, ho, -, x, hx⟩ := (k name sc).1 hsc
  have hm' : m ∈ ["pvlib.nrel_numba", "pvlib.nrel_numpy", "pvlib.ephemeris", "pvlib.pyephem"] := by
    have all : ∀ p ∈ printedNames, p.2 ∈ ["pvlib's NREL (numba)", "pvlib's NREL (numpy)", "pvlib's EPHEMERIS", "pvlib's PYEPHEM"] →
        p.1 ∈ ["pvlib.nrel_numba", "pvlib.nrel_numpy", "pvlib.ephemeris", "pvlib.pyephem"] := by decide +kernel
    exact all _ hm hn
  have hcn : ∀ v ∈ c, v = XR.nan := by
    have hmem := mem_of_lookup hc
    rw [List.mem_append] at hmem
    rcases hmem with hmem | hmem
    · unfold otherColumns at hmem
      rw [List.mem_append, List.mem_flatMap] at hmem
      rcases hmem with ⟨p, -, hp⟩ | hp
      · unfold pvlibMethod at hp
        simp only [List.mem_cons, List.not_mem_nil, or_false, Prod.mk.injEq] at hp
        rcases hp with ⟨⟨-, h⟩, -⟩ | ⟨⟨-, h⟩, -⟩ | ⟨-, rfl⟩
        · exact absurd h (by decide)
        · exact absurd h (by decide)
        · intro v hv
          rw [List.mem_map] at hv
          obtain ⟨_, -, rfl⟩ := hv
          rfl
      · unfold sg2Columns at hp
        simp only [List.mem_cons, List.not_mem_nil, or_false, Prod.mk.injEq] at hp
        have : m = "sg2.sg2_c++" := by rcases hp with h | h | h <;> exact h.1.1
        subst this
        exact absurd hm' (by decide)
    · have hk := (C76_columns hsun).2
      have hin : (m, "ecf") ∈ sun.map (·.1) := List.mem_map.2 ⟨_, hmem, rfl⟩
      rw [hk, List.mem_flatMap] at hin
      obtain ⟨l, hl, hin⟩ := hin
      simp only [List.map_cons, List.map_nil, List.mem_cons, List.not_mem_nil, or_false, Prod.mk.injEq] at hin
      have : m = l := by rcases hin with h | h | h <;> exact h.1
      subst this
      have none : ∀ l ∈ reportMethods.map sunwhereLabel, l ∉ ["pvlib.nrel_numba", "pvlib.nrel_numpy", "pvlib.ephemeris", "pvlib.pyephem"] := by decide +kernel
      exact absurd hm' (none _ hl)
  unfold keptResidues at hx
  rw [List.mem_filterMap] at hx
  obtain ⟨i, -, hx⟩ := hx
  split at hx
  · rename_i cm om zm e1 e2 e3
    split_ifs at hx
    have hcm := hcn cm (List.mem_of_getElem? e1)
    subst hcm
    have : residue ("ecf" == "azimuth") false XR.nan om = XR.nan := by
      rw [show ("ecf" == "azimuth") = false by decide]; rfl
    rw [this] at hx
    cases hx
  · cases hx

/-! ### the hypotheses are met -/

/-- an environment: the random numbers are all zero, a repetition takes 3 seconds -/
noncomputable def exSpeed : SpeedEnv XR :=
  { exWorld with
    rng := ⟨100, fun n => List.replicate n (.fin 0), fun n => List.replicate n (.fin 0), .fin 0, .fin 0⟩
    readInt := fun s => if s = ['1', '0'] then some 10 else none
    lapse := fun _ => 3
    foreign := fun _ _ => .ok () }

theorem exSpeed_rng : RngOk exSpeed.rng := by
  refine ⟨by norm_num [exSpeed], fun n => by simp [exSpeed], ?_, ?_, ⟨0, rfl, by norm_num, by norm_num⟩, ⟨0, rfl, by norm_num, by norm_num⟩⟩
  · intro n x hx
    exact ⟨0, (List.mem_replicate.1 hx).2, by norm_num, by norm_num⟩
  · intro n x hx
    exact ⟨0, (List.mem_replicate.1 hx).2, by norm_num, by norm_num⟩

/-- `'10'` and `'2x10'` -/
example : (∃ e, e = PyErr.indexError ∧ speedMeter exSpeed "sunwhere" "psa_numpy" 1000 (.text ['1', '0']) 3 1 = .error e) ∧
    speedMeter exSpeed "pvlib" "spa_c" 1000 (.text ['2', 'x', '1', '0']) 3 1 = .error .valueError := by
  have ht : ∃ times, minuteRange exSpeed.rng.lagDays 1000 = .ok times := by
    unfold minuteRange; rw [if_neg (by norm_num), if_neg (by simp only [exSpeed]; norm_num)]; exact ⟨_, rfl⟩
  obtain ⟨times, ht⟩ := ht
  exact ⟨⟨_, rfl, (C92_text ht).1 10 (by decide) (by simp [exSpeed])⟩, (C92_text ht).2 ['2'] ['1', '0'] (by decide) (.inr rfl) (by simp [exSpeed])⟩

/-- 1000 minutes on a grid of 10 by 10: 30 microseconds per zenith angle -/
example {alg eng : String} (hk : KnownPair alg eng) :
    ∃ sp, speedMeter exSpeed "sunwhere" (alg ++ "_" ++ eng) 1000 (.text ['1', '0', 'x', '1', '0']) 3 1 = .ok sp ∧ sp.runs.length = 3 ∧ sp.mean = some 30 := by
  have hc : CountsPlaces exSpeed.readInt (.text ['1', '0', 'x', '1', '0']) 100 :=
    ⟨['1', '0'], ['1', '0'], [], 10, 10, rfl, by decide, by decide, .inl rfl, rfl, rfl, rfl⟩
  obtain ⟨sp, h⟩ := C92_succeeds exSpeed_rng hk (nTimes := 1000) (by norm_num) (by norm_num) hc 3 1
  obtain ⟨a, e, times, lats, lons, N, -, -, -, -, hN, hlen, -, hm⟩ := C92_measures exSpeed_rng.lengths h
  have hN : N = 100 := by
    obtain ⟨a, b, rest, m, n, q1, q2, q3, q4, q5, q6, q7⟩ := hN
    have f : ∀ {s : List Char} {v : Nat}, exSpeed.readInt s = some (v : Int) → v = 10 := by
      intro s v hs
      have hs : (if s = ['1', '0'] then some (10 : Int) else none) = some (v : Int) := hs
      split_ifs at hs
      have := Option.some.inj hs
      omega
    rw [q7, f q5, f q6]
  subst hN
  refine ⟨sp, h, hlen, ?_⟩
  rw [hm (by norm_num) (by norm_num)]
  refine congrArg some ?_
  have hl : exSpeed.lapse = fun _ => 3 := rfl
  rw [hl]
  norm_num [List.range_succ]

/-- one place, and failures -/
example : (∃ sp, speedMeter exSpeed "sunwhere" "psa_numpy" 10 (.int 1) 1 1 = .ok sp ∧ sp.mean = some 300000) ∧
    speedMeter exSpeed "sunwhere" "nrel_numpy" 10 (.int 2) 3 1 = .error .valueError ∧
    speedMeter exSpeed "sunwhere" "psa" 10 (.int 2) 3 1 = .error .valueError ∧
    speedMeter exSpeed "spa" "psa_numpy" 10 (.int 2) 3 1 = .error .unboundLocalError := by
  have hd : drawPlaces exSpeed (.int 2) = .ok (some ⟨.sites, .vec [.fin 0, .fin 0], .vec [.fin 0, .fin 0], 2⟩) := rfl
  obtain ⟨times, ht⟩ : ∃ times, minuteRange exSpeed.rng.lagDays 10 = .ok times := by
    have hl : exSpeed.rng.lagDays = 100 := rfl
    rw [hl]
    unfold minuteRange
    simp only
    rw [if_neg (by norm_num), if_neg (by norm_num)]
    exact ⟨_, rfl⟩
  refine ⟨?_, ?_, ?_, ?_⟩
  · obtain ⟨sp, h⟩ := C92_succeeds exSpeed_rng (alg := "psa") (eng := "numpy") (.inl ⟨by simp, by simp⟩) (nTimes := 10) (by norm_num) (by norm_num) (nLocs := .int 1) (N := 1) rfl 1 1
    have e : "psa" ++ "_" ++ "numpy" = "psa_numpy" := by decide +kernel
    rw [e] at h
    obtain ⟨a, e, times, lats, lons, N, -, -, -, -, hN, -, -, hm⟩ := C92_measures exSpeed_rng.lengths h
    have hN : N = 1 := by have : (1 : Int) = N := hN; omega
    subst hN
    refine ⟨sp, h, ?_⟩
    rw [hm (by norm_num) (by norm_num)]
    refine congrArg some ?_
    have hl : exSpeed.lapse = fun _ => 3 := rfl
    rw [hl]
    norm_num [List.range_succ]
  · exact (C92_fails (r := 3) (k := 1) (library := "sunwhere") (algorithm := "nrel_numpy") ht hd).2.2.2 "nrel" "numpy" (by decide +kernel) (by decide +kernel) (by decide +kernel)
      (by simp) (by simp [KnownPair]) (by norm_num)
  · refine (C92_fails (r := 3) (k := 1) (library := "sunwhere") (algorithm := "psa") ht hd).2.2.1 fun a e _ _ h => ?_
    have : '_' ∈ "psa".toList := by rw [h]; simp
    exact absurd this (by decide +kernel)
  · exact (C92_fails (r := 3) (k := 1) (library := "spa") (algorithm := "psa_numpy") ht hd).1 (by decide)

/-- a sun of pvlib in the west: bearing 270 is azimuth 90 -/
example : ∃ az : List XR, (pvlibMethod "ephemeris" [(XR.fin 60, XR.fin 270)]).lookup ("pvlib." ++ "ephemeris", "azimuth") = some az ∧
    ∃ a : ℝ, az[0]? = some (XR.fin a) ∧ -180 ≤ a ∧ a < 180 := by
  obtain ⟨az, h, -, -, k⟩ := C93_pvlib "ephemeris" [(60, 270)]
  obtain ⟨a, ha, -, hb⟩ := k 0 (by simp)
  exact ⟨az, h, a, ha, hb (by norm_num) (by norm_num)⟩

/-- a report that meets the hypotheses of `C93_no_ecf`: one row, one method of pvlib, and sg2 -/
example : ∃ tables rows, BenchInput (oneTime 946728000000000000) [("azimuth", [.fin 12]), ("zenith", [.fin 60]), ("ecf", [.fin 1])]
        (otherColumns [("ephemeris", [(.fin 67, .fin 190)])] [(.fin 0.5, .fin 3, .fin 1)]) ∧
      runTables mergeRmse exWorld (oneTime 946728000000000000) (.fin 40) (.fin 0) [("azimuth", [.fin 12]), ("zenith", [.fin 60]), ("ecf", [.fin 1])]
        (otherColumns [("ephemeris", [(.fin 67, .fin 190)])] [(.fin 0.5, .fin 3, .fin 1)]) = .ok tables ∧
      tables.lookup "ecf (x10⁻³)" = some rows ∧ ∀ sc, ("pvlib's EPHEMERIS", sc) ∉ rows := by
  have hb : BenchInput (oneTime 946728000000000000) [("azimuth", [.fin 12]), ("zenith", [.fin 60]), ("ecf", [.fin 1])]
        (otherColumns [("ephemeris", [(.fin 67, .fin 190)])] [(.fin 0.5, .fin 3, .fin 1)]) := by
    refine ⟨by simp, ?_, ?_, ?_, ?_⟩
    · simp only [otherColumns, pvlibMethod, sg2Columns, List.flatMap_cons, List.flatMap_nil, List.append_nil, List.map_append, List.map_cons, List.map_nil]
      decide +kernel
    · intro c hc
      simp only [otherColumns, pvlibMethod, sg2Columns, List.flatMap_cons, List.flatMap_nil, List.append_nil, List.mem_append, List.mem_cons, List.not_mem_nil, or_false] at hc
      rcases hc with (rfl | rfl | rfl) | (rfl | rfl | rfl) <;> simp only <;> decide +kernel
    · intro c hc
      simp only [List.mem_cons, List.not_mem_nil, or_false] at hc
      rcases hc with rfl | rfl | rfl <;> rfl
    · intro c hc
      simp only [otherColumns, pvlibMethod, sg2Columns, List.flatMap_cons, List.flatMap_nil, List.append_nil, List.mem_append, List.mem_cons, List.not_mem_nil, or_false] at hc
      rcases hc with (rfl | rfl | rfl) | (rfl | rfl | rfl) <;> rfl
  obtain ⟨tables, h1, -⟩ := C76_accuracy sorts_mergeRmse exWorld (ts := [946728000000000000]) (η := |60 - sunZenith 946728000000000000 40 0|)
    (η' := |1 - 1 / SW.Ephem.distance (SW.Ephem.century 946728000000000000) ^ 2|)
    (Z := [60]) (A := [12]) (E := [1]) hb ⟨rfl, by intro z hz; cases hz⟩ rfl
    (by simp) (φ := 40) (l := 0) (by norm_num) (by norm_num) rfl rfl rfl
    (by
      intro k t z ht hz
      cases k with
      | zero =>
        simp only [List.getElem?_cons_zero, Option.some.injEq] at ht hz
        rw [← ht, ← hz]
      | succ k => simp at ht)
    (by
      intro k t z ht hz
      cases k with
      | zero =>
        simp only [List.getElem?_cons_zero, Option.some.injEq] at ht hz
        rw [← ht, ← hz]
      | succ k => simp at ht)
    ⟨60, by simp, by norm_num⟩
  obtain ⟨hrows, sun, hsun, k⟩ := C76_rows sorts_mergeRmse hb rfl h1
  obtain ⟨rows, hr, -⟩ := k "ecf" "ecf (x10⁻³)" 1000 (by simp [reportTables])
  exact ⟨tables, rows, hb, h1, hr, C93_no_ecf sorts_mergeRmse hb rfl h1 hr _ (by simp)⟩

end SW.Props
