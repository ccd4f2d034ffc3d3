/-
The solar chart (C56-C59), `_cli/solar_chart.py`.
-/
import Verif.Chart
import Verif.Props.Calendar
import Verif.Props.Cli

namespace SW.Props
open SW SW.Spec SW.Chart Real
open SW.Sunpos (dayNs)
open SW.Cli (CliStamp)

/-! ### specification -/

/-- What we assume of pandas: an instant given for a wall-clock reading in the zone reads as that
wall-clock reading; and offsets from UTC are shorter than a day. -/
structure ZoneSound (z : Zone) : Prop where
  toUtc : ∀ r u, z.toUtc r = some u → u + z.tz.off u = r
  stamp : ∀ r u, z.stamp r = .ok u → u + z.tz.off u = r
  small : ∀ u, |z.tz.off u| < dayNs

/-- the wall-clock readings `start`, `start + step`, ... (`n` of them) -/
def readings (start : Int) (n : Nat) (step : Int) : List Int := (List.range n).map fun k : Nat => start + (k : Int) * step

/-- `h` hours and `m` minutes, in ns -/
def hm (h m : Nat) : Int := h * 3600000000000 + m * 60000000000

/-- The points `pts` are the azimuth and elevation (degrees) that `sites`, with its default algorithm, engine
and refraction, returns at this place for each of the `instants` alone. -/
def Shows {F : Type} [Scalar F] (lat lon : F) (pts : List (F × F)) (instants : List Int) : Prop :=
  List.Forall₂ (fun p t => ∃ (w : World F) (s : Sunpos F),
    sites w (oneTime t) (.scalar lat) (.scalar lon) "psa" .pyTrue "numexpr" = .ok s ∧
    p = (s.azimuthDeg.get (fun _ => 0), s.elevation.get (fun _ => 0))) pts instants

/-- where the chart writes the name of a cardinal point, horizontally (fraction of the width) -/
def WrittenAt (polar : Bool) (name : String) (x : ℝ) : Prop := ∃ y, (name, x, y) ∈ compass polar

/-! ### lemmas -/

section
variable {F : Type} [Scalar F]

theorem chart_mapM_ok {α β ε : Type} {f : α → Except ε β} {l : List α} {r : List β} (h : l.mapM f = .ok r) :
    List.Forall₂ (fun a b => f a = .ok b) l r := by
  induction l generalizing r with
  | nil => rw [List.mapM_nil] at h; cases h; exact .nil
  | cons a l ih =>
    rw [List.mapM_cons] at h
    obtain ⟨b, hb, h⟩ := bind_ok h
    obtain ⟨bs, hbs, h⟩ := bind_ok h
    cases h
    exact .cons hb (ih hbs)

theorem call_shows {w : World F} {p : SolarPosition F} {times : Times} {l : List Int} {pts : Pts F}
    (h : p.call w times = .ok pts) (hl : times.stamps = l.map some) :
    Shows p.latitude p.longitude pts l := by
  obtain ⟨sw, hs, h⟩ := bind_ok h
  cases h
  have hs' : call .sites w times (.scalar p.latitude) (.scalar p.longitude) "psa" .pyTrue "numexpr" = .ok sw := hs
  obtain ⟨lat, lon, b, utc, ha, hu, hr⟩ := call_inv hs'
  obtain rfl : [p.latitude] = lat := Option.some.inj ha.lat_eq
  obtain rfl : [p.longitude] = lon := Option.some.inj ha.lon_eq
  have hlen : times.stamps.length = l.length := by rw [hl, List.length_map]
  refine List.forall₂_iff_get.2 ⟨by simp [hlen], fun i h1 h2 => ?_⟩
  simp only [List.get_eq_getElem, List.getElem_map, List.getElem_range]
  obtain ⟨s, h3, hr'⟩ := call_ok (w := w) (uc := .sites) (times := oneTime l[i])
    (latitude := .scalar p.latitude) (longitude := .scalar p.longitude) .pyTrue
    ⟨rfl, rfl, rfl, rfl, ha.names, ha.lonOk, ha.latOk⟩ (utc := [some l[i]]) rfl
  refine ⟨w, s, h3, ?_⟩
  have hw : Within sw.zenith (cellAt i) := by
    unfold Within; rw [hr.zen_dims]
    have h2' : i < l.length := h2
    simp [cellAt, hlen, h2']
  have hw' : Within s.zenith (fun _ => 0) := by
    unfold Within; rw [hr'.zen_dims]; simp [oneTime]
  have ht : stampAt times.stamps (cellAt i .time) = stampAt (oneTime l[i]).stamps 0 := by
    have h2' : i < l.length := h2
    simp [stampAt, oneTime, cellAt, hl, h2']
  have hlat : sw.latitude.get (cellAt i) = s.latitude.get (fun _ => 0) := by
    rw [hr.latitude, hr'.latitude]; rfl
  have hlon : sw.longitude.get (cellAt i) = s.longitude.get (fun _ => 0) := by
    rw [hr.longitude, hr'.longitude]; rfl
  have key := C07_pointwise (e := cellAt i) (e' := fun _ => 0) hs' h3 hw hw' ht hlat hlon
  show (degrees (sw.azimuth.get (cellAt i)), 90.0 - degrees (sw.zenith.get (cellAt i)))
    = (degrees (s.azimuth.get (fun _ => 0)), 90.0 - degrees (s.zenith.get (fun _ => 0)))
  rw [key.1, key.2.1]

theorem dateRange_eq (z : Zone) (start : Int) (n : Nat) (step : Int) :
    dateRange z start n step = (readings start n step).filterMap z.toUtc := by
  unfold dateRange readings
  rw [List.filterMap_map]; rfl

theorem stripped_stamps {z : Zone} (hz : ZoneSound z) (l : List Int) :
    (stripped z (l.filterMap z.toUtc)).stamps = (l.filter fun r => (z.toUtc r).isSome).map some := by
  show (l.filterMap z.toUtc).map (fun u => some (u + z.tz.off u)) = _
  induction l with
  | nil => rfl
  | cons r l ih =>
    cases h : z.toUtc r with
    | none => simp [h, ih]
    | some u => simp [h, ih, hz.toUtc r u h]

/-- `midnight` succeeds exactly for the dates that exist, and gives the number of the day -/
theorem midnight_iff {y : Int} {m d : Nat} {t : Int} :
    midnight y m d = .ok t ↔ ∃ n, codeDate n = ⟨y, m, d⟩ ∧ t = n * dayNs := by
  have hml : ∀ {m : Nat}, 1 ≤ m → m ≤ 12 → (Cal.monthLengths (Cal.isLeap y)).getD (m - 1) 0 = monthLength y m := by
    intro m h1 h2
    rw [← mlen_eq]
    cases Cal.isLeap y <;> interval_cases m <;> rfl
  constructor
  · intro h
    unfold midnight at h
    split_ifs at h with hv
    cases h
    obtain ⟨h1, h2, h3, h4⟩ := hv
    rw [hml h1 h2, ← mlen_eq] at h4
    refine ⟨Cal.daysOf y m + (d - 1), ?_, rfl⟩
    obtain ⟨i, rfl⟩ : ∃ i : Nat, m = 1 + i := ⟨m - 1, by omega⟩
    have hd : Cal.daysOf y ((1 + i : Nat) : Int) = yearStart y + before (Cal.isLeap y) i := by
      rw [daysOf_eq]; unfold before; congr 3; omega
    have hmd := monthDay_of (Cal.isLeap y) (k := before (Cal.isLeap y) i + (d - 1)) (i := i) (d := d) (by omega)
      ⟨by omega, by rw [show (1 + (i : Int)) = ((1 + i : Nat) : Int) by push_cast; rfl]; exact h4⟩ (by omega)
    have b0 := before_mono (Cal.isLeap y) (Nat.zero_le i) (by omega)
    rw [before_0] at b0
    have b1 := before_succ (Cal.isLeap y) (show i < 12 by omega)
    have b2 := before_mono (Cal.isLeap y) (show i + 1 ≤ 12 by omega) le_rfl
    rw [before_12, ← yearLength_eq] at b2
    rw [show ((1 + i : Nat) : Int) = 1 + (i : Int) by push_cast; rfl] at h4
    obtain ⟨s1, s2, s3⟩ := yearsDays_spec (Cal.daysOf y ((1 + i : Nat) : Int) + (d - 1))
    rw [codeDate_eq]
    obtain ⟨N, hN⟩ : ∃ N, N = Cal.daysOf y ((1 + i : Nat) : Int) + (d - 1) := ⟨_, rfl⟩
    rw [← hN] at s1 s2 s3 ⊢
    have hu := yearStart_unique (y := y) (y' := (Cal.yearsDays N).1)
      (k := before (Cal.isLeap y) i + (d - 1)) (k' := (Cal.yearsDays N).2)
      (by rw [← s1, hN, hd]; ring) ⟨by omega, by omega⟩ ⟨s2, s3⟩
    rw [← hu.1, ← hu.2, hmd]
    push_cast
    rfl
  · rintro ⟨n, hn, rfl⟩
    have hv := C36_gregorian.valid n
    rw [hn] at hv
    obtain ⟨h1, h2, h3, h4⟩ := hv
    simp only at h1 h2 h3 h4
    unfold midnight
    rw [hml (by omega) (by omega), if_pos ⟨by omega, by omega, by omega, h4⟩]
    have : n - Cal.daysOf y m + 1 = d := by
      unfold codeDate at hn
      simp only [CivilDate.mk.injEq] at hn
      obtain ⟨e1, e2, e3⟩ := hn
      rw [e1, e2] at e3; exact e3
    congr 2; omega

theorem zipWith_mem {α β γ : Type} {R : α → β → Prop} {f : α → β → γ} {l : List α} {r : List β}
    (h : List.Forall₂ R l r) {c : γ} (hc : c ∈ List.zipWith f l r) :
    ∃ a b, a ∈ l ∧ R a b ∧ c = f a b := by
  induction h with
  | nil => simp at hc
  | cons h _ ih =>
    rw [List.zipWith_cons_cons, List.mem_cons] at hc
    rcases hc with rfl | hc
    · exact ⟨_, _, List.mem_cons_self .., h, rfl⟩
    · obtain ⟨a, b, h1, h2⟩ := ih hc
      exact ⟨a, b, List.mem_cons_of_mem _ h1, h2⟩

theorem zipWith_fst {α β γ δ : Type} {R : α → β → Prop} {f : α → β → γ} {g : γ → δ} {k : α → δ}
    {l : List α} {r : List β} (h : List.Forall₂ R l r) (hg : ∀ a b, g (f a b) = k a) :
    (List.zipWith f l r).map g = l.map k := by
  induction h with
  | nil => rfl
  | cons _ _ ih => rw [List.zipWith_cons_cons, List.map_cons, List.map_cons, ih, hg]

theorem clock_ok {day t : Int} {ho mn : Nat} (h : clock day ho mn = .ok t) :
    ho < 24 ∧ mn < 60 ∧ t = day + hm ho mn := by
  unfold clock at h
  split_ifs at h with hv
  cases h
  refine ⟨hv.1, hv.2, ?_⟩
  unfold hm minNs; push_cast; ring

theorem localStamp_ok {z : Zone} {st : Except PyErr CliStamp} {w t : Int}
    (h : localStamp z st = .ok (w, t)) : st = .ok ⟨some w, false⟩ ∧ z.stamp w = .ok t := by
  obtain ⟨st', rfl, h⟩ := bind_ok h
  obtain ⟨wall, aware⟩ := st'
  cases aware with
  | true => exact absurd h (by intro h; cases h)
  | false =>
    cases wall with
    | none => exact absurd h (by intro h; cases h)
    | some w' =>
      have h' : (z.stamp w' >>= fun t => pure (w', t)) = Except.ok (ε := PyErr) (w, t) := h
      obtain ⟨t', h1, h'⟩ := bind_ok h'
      cases h'
      exact ⟨rfl, h1⟩

theorem codeDate_inj {n k : Int} (h : codeDate n = codeDate k) : n = k := by
  unfold codeDate at h
  simp only [CivilDate.mk.injEq] at h
  obtain ⟨h1, h2, h3⟩ := h
  rw [h1, h2] at h3
  omega

/-- one `daysInYear` after the first day of a year begins the next -/
theorem daysInYear_eq {y n : Int} (h : codeDate n = ⟨y, 1, 1⟩) :
    codeDate (n + daysInYear y) = ⟨y + 1, 1, 1⟩ := by
  obtain rfl : n = yearStart y := codeDate_inj (h.trans (codeDate_jan1 y).symm)
  rw [← codeDate_jan1 (y + 1), yearStart_succ]
  congr 2
  unfold daysInYear yearLength
  split_ifs <;> rfl

theorem analemma_ok {env : Env F} {c : SolarChart F} {z : Zone} {y : Int} {ho mn : Nat}
    {r : Pts F × Option (F × F)} (h : analemma env c z y ho mn = .ok r) :
    ho < 24 ∧ mn < 60 ∧
    (∃ n, codeDate n = ⟨y, 1, 1⟩ ∧ (ZoneSound z → Shows c.sunpath.latitude c.sunpath.longitude r.1
      ((readings (n * dayNs + hm ho mn) (daysInYear y) dayNs).filter fun r => (z.toUtc r).isSome))) ∧
    (∃ n u az al, codeDate n = ⟨y, 6, 21⟩ ∧ z.stamp (n * dayNs + hm ho mn) = .ok u ∧
      Shows c.sunpath.latitude c.sunpath.longitude [(az, al)] [u] ∧
      r.2 = if Scalar.leB 0 al then some (az, al) else none) := by
  obtain ⟨t1, h1, h⟩ := bind_ok h
  obtain ⟨t2, h2, h⟩ := bind_ok h
  obtain ⟨path, h3, h⟩ := bind_ok h
  obtain ⟨t3, h4, h⟩ := bind_ok h
  obtain ⟨t4, h5, h⟩ := bind_ok h
  obtain ⟨t, h6, h⟩ := bind_ok h
  obtain ⟨pos, h7, h⟩ := bind_ok h
  obtain ⟨n1, d1, rfl⟩ := midnight_iff.1 h1
  obtain ⟨n2, d2, rfl⟩ := midnight_iff.1 h4
  obtain ⟨c1, c2, rfl⟩ := clock_ok h2
  obtain ⟨-, -, rfl⟩ := clock_ok h5
  have hs := call_shows (l := [t]) h7 rfl
  have key : ∃ az al, pos = [(az, al)] ∧ r = (path, if Scalar.leB 0 al then some (az, al) else none) := by
    rcases pos with _ | ⟨⟨az, al⟩, _ | ⟨q, qs⟩⟩
    · exact absurd h (by intro h; cases h)
    · exact ⟨az, al, rfl, by injection h with h; exact h.symm⟩
    · exact absurd h (by intro h; cases h)
  obtain ⟨az, al, rfl, rfl⟩ := key
  refine ⟨c1, c2, ⟨n1, by exact_mod_cast d1, fun hz => ?_⟩, n2, t, az, al, by exact_mod_cast d2, h6, hs, rfl⟩
  refine call_shows h3 ?_
  rw [dateRange_eq, stripped_stamps hz]

theorem dayPath_ok {env : Env F} {c : SolarChart F} {z : Zone} {y : Int} {dm : Nat × Nat} {r : Pts F}
    (h : dayPath env c z y dm = .ok r) :
    ∃ n, codeDate n = (if 12 < dm.1 then ⟨y, dm.2, dm.1⟩ else ⟨y, dm.1, dm.2⟩) ∧
      Shows c.sunpath.latitude c.sunpath.longitude r
        ((readings (n * dayNs) 288 300000000000).filterMap z.toUtc) := by
  obtain ⟨t1, h1, h⟩ := bind_ok h
  obtain ⟨path, h2, h⟩ := bind_ok h
  have hr : r = path := by
    cases he : path.isEmpty with
    | true => rw [he] at h; cases h
    | false => rw [he] at h; cases h; rfl
  subst hr
  unfold parseSlashed at h1
  have hs : Shows c.sunpath.latitude c.sunpath.longitude r ((readings t1 288 300000000000).filterMap z.toUtc) := by
    refine call_shows h2 ?_
    have e5 : 5 * minNs = 300000000000 := rfl
    simp only [dateRange_eq, inZone, e5]
  split_ifs at h1 with hc
  · obtain ⟨n, d, rfl⟩ := midnight_iff.1 h1
    exact ⟨n, by rw [if_pos hc]; exact d, hs⟩
  · obtain ⟨n, d, rfl⟩ := midnight_iff.1 h1
    exact ⟨n, by rw [if_neg hc]; exact d, hs⟩

/-- what a successful `draw_solar_grid` has gone through -/
theorem grid_ok {env : Env F} {c : SolarChart F} {days months hours minutes : List Nat} {g : Grid F}
    (h : drawSolarGrid env c days months hours minutes = .ok g) :
    ∃ z wall t, env.zone c.timezone = .ok z ∧
      c.user.getD (.ok ⟨some env.now, false⟩) = .ok ⟨some wall, false⟩ ∧ z.stamp wall = .ok t ∧
      g.year = (codeDate (wall / dayNs)).year ∧
      (∃ n, codeDate n = ⟨g.year, 6, 21⟩ ∧ Shows c.sunpath.latitude c.sunpath.longitude g.solstice
        ((readings (n * dayNs) 720 120000000000).filterMap z.toUtc)) ∧
      (∃ n, codeDate n = ⟨g.year, 12, 21⟩ ∧ Shows c.sunpath.latitude c.sunpath.longitude g.equinox
        ((readings (n * dayNs) 720 120000000000).filterMap z.toUtc)) ∧
      ∃ curves, List.Forall₂ (fun x r => analemma env c z g.year x.1 x.2 = .ok r)
          (product (orDefault hours (List.range 24)) (orDefault minutes [0])) curves ∧
        g.analemmas = List.zipWith (fun x r => (x.1, x.2, r.1))
          (product (orDefault hours (List.range 24)) (orDefault minutes [0])) curves ∧
        g.hourLabels = (List.zipWith (fun x r => r.2.map fun p => (x.1, x.2, p.1, p.2))
          (product (orDefault hours (List.range 24)) (orDefault minutes [0])) curves).filterMap id ∧
        ∃ paths, List.Forall₂ (fun dm r => dayPath env c z g.year dm = .ok r) (gridDays days months) paths ∧
          g.days = List.zipWith (fun x r => (x.1, x.2, r)) (gridDays days months) paths := by
  obtain ⟨z, h1, h⟩ := bind_ok h
  obtain ⟨⟨wall, t⟩, h2, h⟩ := bind_ok h
  obtain ⟨t1, h3, h⟩ := bind_ok h
  obtain ⟨sol, h4, h⟩ := bind_ok h
  obtain ⟨t2, h5, h⟩ := bind_ok h
  obtain ⟨equ, h6, h⟩ := bind_ok h
  have he : (sol.isEmpty || equ.isEmpty) = false := by
    cases he : (sol.isEmpty || equ.isEmpty) with
    | true => rw [he] at h; exact absurd h (by intro h; cases h)
    | false => rfl
  rw [he] at h
  replace h : (List.mapM (fun x : Nat × Nat => analemma env c z (yearOf wall) x.1 x.2)
    (product (orDefault hours (List.range 24)) (orDefault minutes [0])) >>= _) = Except.ok g := h
  obtain ⟨curves, h7, h⟩ := bind_ok h
  obtain ⟨paths, h8, h⟩ := bind_ok h
  injection h with h
  subst h
  obtain ⟨u1, u2⟩ := localStamp_ok h2
  obtain ⟨n1, d1, rfl⟩ := midnight_iff.1 h3
  obtain ⟨n2, d2, rfl⟩ := midnight_iff.1 h5
  refine ⟨z, wall, t, h1, u1, u2, rfl, ⟨n1, d1, ?_⟩, ⟨n2, d2, ?_⟩, curves, chart_mapM_ok h7, rfl, rfl, paths,
    chart_mapM_ok h8, rfl⟩
  · refine call_shows h4 ?_
    have e2 : 2 * minNs = 120000000000 := rfl
    simp only [dateRange_eq, inZone, e2]
  · refine call_shows h6 ?_
    have e2 : 2 * minNs = 120000000000 := rfl
    simp only [dateRange_eq, inZone, e2]

end

/-! ### C56: when a chart is drawn -/

theorem chart_init_XR (lat lon : XR) (user : Option (Except PyErr CliStamp)) (tz : Option String) (polar : Bool) :
    ((∃ φ l : ℝ, lat = .fin φ ∧ lon = .fin l ∧ -90 < φ ∧ φ < 90 ∧ -180 ≤ l ∧ l < 180) ∧
      SolarChart.init lat lon user tz polar = .ok ⟨⟨lat, lon⟩, user, zoneName tz, polar⟩) ∨
    ((¬ ∃ φ l : ℝ, lat = .fin φ ∧ lon = .fin l ∧ -90 < φ ∧ φ < 90 ∧ -180 ≤ l ∧ l < 180) ∧
      SolarChart.init lat lon user tz polar = .error .assertionError) := by
  have a1 : ∀ x : ℝ, Scalar.ltB (-90 : XR) (.fin x) = decide (-90 < x) := fun _ => rfl
  have a2 : ∀ x : ℝ, Scalar.ltB (.fin x) (90 : XR) = decide (x < 90) := fun _ => rfl
  have a3 : ∀ x : ℝ, Scalar.leB (-90 : XR) (.fin x) = decide (-90 ≤ x) := fun _ => rfl
  have a4 : ∀ x : ℝ, Scalar.leB (.fin x) (90 : XR) = decide (x ≤ 90) := fun _ => rfl
  have a5 : ∀ x : ℝ, Scalar.leB (-180 : XR) (.fin x) = decide (-180 ≤ x) := fun _ => rfl
  have a6 : ∀ x : ℝ, Scalar.leB (.fin x) (180 : XR) = decide (x ≤ 180) := fun _ => rfl
  have a7 : ∀ x : ℝ, Scalar.ltB (.fin x) (180 : XR) = decide (x < 180) := fun _ => rfl
  have a8 : Scalar.ltB (-90 : XR) .nan = false := rfl
  have a9 : Scalar.leB (-180 : XR) .nan = false := rfl
  cases lat with
  | nan =>
    right
    refine ⟨by (rintro ⟨_, _, h, _⟩; cases h), ?_⟩
    unfold SolarChart.init
    rw [a8]; rfl
  | fin φ =>
  by_cases c1 : -90 < φ ∧ φ < 90
  · have b1 : (Scalar.ltB (-90 : XR) (.fin φ) && Scalar.ltB (.fin φ) (90 : XR)) = true := by
      rw [a1, a2, decide_eq_true c1.1, decide_eq_true c1.2]; rfl
    have b2 : (Scalar.leB (-90 : XR) (.fin φ) && Scalar.leB (.fin φ) (90 : XR)) = true := by
      rw [a3, a4, decide_eq_true c1.1.le, decide_eq_true c1.2.le]; rfl
    unfold SolarChart.init SolarPosition.init
    rw [b1, b2]
    cases lon with
    | nan =>
      right
      refine ⟨by (rintro ⟨_, _, _, h, _⟩; cases h), ?_⟩
      rw [a9]; rfl
    | fin l =>
      rw [a5, a6, a7]
      by_cases c2 : -180 ≤ l ∧ l < 180
      · left
        refine ⟨⟨φ, l, rfl, rfl, c1.1, c1.2, c2⟩, ?_⟩
        rw [decide_eq_true c2.1, decide_eq_true c2.2, decide_eq_true c2.2.le]; rfl
      · right
        refine ⟨by rintro ⟨φ', l', e1, e2, h⟩; cases e1; cases e2; exact c2 h.2.2, ?_⟩
        by_cases c3 : -180 ≤ l ∧ l ≤ 180
        · have hl : ¬ l < 180 := fun h => c2 ⟨c3.1, h⟩
          rw [decide_eq_true c3.1, decide_eq_true c3.2, decide_eq_false hl]; rfl
        · have : (decide (-180 ≤ l) && decide (l ≤ 180)) = false := by
            rw [Bool.and_eq_false_iff, decide_eq_false_iff_not, decide_eq_false_iff_not]
            exact not_and_or.1 c3
          rw [this]; rfl
  · right
    refine ⟨by rintro ⟨φ', l', e1, e2, h⟩; cases e1; exact c1 ⟨h.1, h.2.1⟩, ?_⟩
    have : (decide (-90 < φ) && decide (φ < 90)) = false := by
      rw [Bool.and_eq_false_iff, decide_eq_false_iff_not, decide_eq_false_iff_not]
      exact not_and_or.1 c1
    unfold SolarChart.init
    rw [a1, a2, this]; rfl

/-- **C56** A chart can be made exactly for latitudes strictly between -90 and 90 and longitudes in [-180, 180)
(180 is refused although the chart itself would take it); any other place is an AssertionError. -/
theorem C56_places (lat lon : XR) (user : Option (Except PyErr CliStamp)) (tz : Option String) (polar : Bool) :
    ((∃ c, SolarChart.init lat lon user tz polar = .ok c) ↔
      ∃ φ l : ℝ, lat = .fin φ ∧ lon = .fin l ∧ -90 < φ ∧ φ < 90 ∧ -180 ≤ l ∧ l < 180) ∧
    ((∀ c, SolarChart.init lat lon user tz polar ≠ .ok c) →
      SolarChart.init lat lon user tz polar = .error .assertionError) := by
  rcases chart_init_XR lat lon user tz polar with ⟨h1, h2⟩ | ⟨h1, h2⟩
  · rw [h2]; exact ⟨⟨fun _ => h1, fun _ => ⟨_, rfl⟩⟩, fun h => absurd rfl (h _)⟩
  · rw [h2]; exact ⟨⟨fun ⟨c, h⟩ => (by cases h), fun h => absurd h h1⟩, fun _ => rfl⟩

theorem make_ok {F : Type} [Scalar F] {env : Env F} {lat lon : F} {user : Option (Except PyErr CliStamp)}
    {tz : Option String} {polar : Bool} {g : Grid F} {u : UserPath F}
    (h : makeSolarChart env lat lon user tz polar = .ok (g, u)) :
    ∃ c, SolarChart.init lat lon user tz polar = .ok c ∧ drawSolarGrid env c [] [] [] [] = .ok g ∧
      drawSolarPath env c user = .ok u := by
  obtain ⟨c, h1, h⟩ := bind_ok h
  obtain ⟨g', h2, h⟩ := bind_ok h
  obtain ⟨u', h3, h⟩ := bind_ok h
  injection h with h
  cases h
  exact ⟨c, h1, h2, h3⟩

/-- the chart remembers the place, the user's time and the zone -/
theorem init_fields {F : Type} [Scalar F] {lat lon : F} {user : Option (Except PyErr CliStamp)}
    {tz : Option String} {polar : Bool} {c : SolarChart F} (h : SolarChart.init lat lon user tz polar = .ok c) :
    c.sunpath.latitude = lat ∧ c.sunpath.longitude = lon ∧ c.user = user ∧
    c.timezone = zoneName tz ∧ c.polar = polar := by
  have hp : ∀ p, SolarPosition.init lat lon = .ok p → p = ⟨lat, lon⟩ := by
    intro p hp
    unfold SolarPosition.init at hp
    split_ifs at hp
    cases hp; rfl
  unfold SolarChart.init at h
  split_ifs at h
  cases hq : SolarPosition.init lat lon with
  | error e => rw [hq] at h; cases h
  | ok p =>
    rw [hq] at h
    cases hp p hq
    cases h
    exact ⟨rfl, rfl, rfl, rfl, rfl⟩

/-- **C56** `make_solar_chart` without a date and time (its default) never returns: after the grid has been drawn, the
path of the user fails with a ValueError. -/
theorem C56_no_datetime {F : Type} [Scalar F] (env : Env F) (lat lon : F) (tz : Option String) (polar : Bool) :
    (∀ r, makeSolarChart env lat lon none tz polar ≠ .ok r) ∧
    ∀ c g, SolarChart.init lat lon none tz polar = .ok c → drawSolarGrid env c [] [] [] [] = .ok g →
      makeSolarChart env lat lon none tz polar = .error .valueError := by
  have key : ∀ (c : SolarChart F) (z : Zone), env.zone c.timezone = .ok z →
      drawSolarPath env c none = .error .valueError := by
    intro c z hz
    unfold drawSolarPath
    rw [hz]
    rfl
  have k2 : ∀ (c : SolarChart F) u, drawSolarPath env c none ≠ .ok u := by
    intro c u h
    obtain ⟨z, hz, -⟩ := bind_ok h
    rw [key c z hz] at h
    cases h
  refine ⟨?_, ?_⟩
  · rintro ⟨g, u⟩ h
    obtain ⟨c, -, -, h3⟩ := make_ok h
    exact k2 c u h3
  · intro c g h1 h2
    obtain ⟨z, wall, t, hz, -⟩ := grid_ok h2
    unfold makeSolarChart
    rw [h1]
    show (drawSolarGrid env c [] [] [] [] >>= _) = _
    rw [h2]
    show (drawSolarPath env c none >>= _) = _
    rw [key c z hz]
    rfl

/-- **C56** neither does it for a date and time with a UTC offset of its own (TypeError), or for NaT. -/
theorem C56_aware {F : Type} [Scalar F] (env : Env F) (lat lon : F) (st : CliStamp) (tz : Option String)
    (polar : Bool) (h : st.aware = true ∨ st.wall = none) :
    ∀ r, makeSolarChart env lat lon (some (.ok st)) tz polar ≠ .ok r := by
  rintro ⟨g, u⟩ hr
  obtain ⟨c, h1, h2, -⟩ := make_ok hr
  obtain ⟨z, wall, t, -, hu, -⟩ := grid_ok h2
  rw [(init_fields h1).2.2.1] at hu
  cases hu
  simp at h

/-- the zone UTC -/
def utcZone : Zone := ⟨utcTz, some, .ok⟩

theorem ok_bind {ε α β : Type} (a : α) (f : α → Except ε β) : (Except.ok a >>= f) = f a := rfl

theorem call_returns (w : World XR) {φ l : ℝ} (hφ : -90 ≤ φ ∧ φ ≤ 90) (hl : -180 ≤ l ∧ l < 180) {times : Times}
    (hn : times.nested = false) {utc : List (Option Int)} (ht : localizeTimes w times = .ok utc) :
    ∃ pts, (SolarPosition.mk (XR.fin φ) (XR.fin l)).call w times = .ok pts ∧ pts.length = times.stamps.length := by
  obtain ⟨b, hb⟩ := known_iff.1 (show KnownPair "psa" "numexpr" from .inl (by decide))
  obtain ⟨s, hs, -⟩ := call_ok (uc := .sites) (w := w) (times := times) (latitude := .scalar (XR.fin φ))
    (longitude := .scalar (XR.fin l)) (lat := [.fin φ]) (lon := [.fin l]) .pyTrue
    ⟨hn, rfl, rfl, rfl, hb, lonOk_XR.2 (by simpa [LonAdm] using hl), latOk_XR.2 (by simpa [LatAdm] using hφ)⟩ ht
  have hs' : sites w times (.scalar (XR.fin φ)) (.scalar (XR.fin l)) "psa" .pyTrue "numexpr" = .ok s := hs
  refine ⟨(List.range times.stamps.length).map fun k => (s.azimuthDeg.get (cellAt k), s.elevation.get (cellAt k)), ?_, by simp⟩
  unfold SolarPosition.call
  rw [hs']; rfl

theorem mapM_returns {α β ε : Type} {f : α → Except ε β} {l : List α} (h : ∀ a ∈ l, ∃ b, f a = .ok b) :
    ∃ r, l.mapM f = .ok r := by
  induction l with
  | nil => exact ⟨[], rfl⟩
  | cons a l ih =>
    obtain ⟨b, hb⟩ := h a (List.mem_cons_self ..)
    obtain ⟨bs, hbs⟩ := ih fun x hx => h x (List.mem_cons_of_mem _ hx)
    refine ⟨b :: bs, ?_⟩
    rw [List.mapM_cons, hb]
    show (l.mapM f >>= _) = _
    rw [hbs]; rfl

theorem midnight_returns (y : Int) {m d : Nat} (hm : 1 ≤ m ∧ m ≤ 12) (hd : 1 ≤ d ∧ d ≤ 28) :
    ∃ t, midnight y m d = .ok t := by
  have h4 : (d : Int) ≤ (Cal.monthLengths (Cal.isLeap y)).getD (m - 1) 0 := by
    obtain ⟨h1, h2⟩ := hm
    cases Cal.isLeap y <;> interval_cases m <;> simp [Cal.monthLengths] <;> omega
  unfold midnight
  rw [if_pos ⟨hm.1, hm.2, hd.1, h4⟩]
  exact ⟨_, rfl⟩

theorem dateRange_utc (start : Int) (n : Nat) (step : Int) :
    dateRange utcZone start n step = (List.range n).map fun k : Nat => start + (k : Int) * step := by
  unfold dateRange utcZone
  exact congrFun List.filterMap_eq_map _

/-- **C56** In UTC, for a naive date and time, the chart of every admissible place is drawn. -/
theorem C56_returns (env : Env XR) {φ l : ℝ} (hφ : -90 < φ ∧ φ < 90) (hl : -180 ≤ l ∧ l < 180) (wall : Int)
    (polar : Bool) (tz : Option String) (hz : env.zone (zoneName tz) = .ok utcZone) :
    ∃ r, makeSolarChart env (.fin φ) (.fin l) (some (.ok ⟨some wall, false⟩)) tz polar = .ok r := by
  have hφ' : -90 ≤ φ ∧ φ ≤ 90 := ⟨hφ.1.le, hφ.2.le⟩
  obtain ⟨c, hc⟩ := (C56_places (.fin φ) (.fin l) (some (.ok ⟨some wall, false⟩)) tz polar).1.2
    ⟨φ, l, rfl, rfl, hφ.1, hφ.2, hl⟩
  obtain ⟨i1, i2, i3, i4, -⟩ := init_fields hc
  have hsp : c.sunpath = ⟨XR.fin φ, XR.fin l⟩ := by
    cases hs : c.sunpath; rw [hs] at i1 i2; cases i1; cases i2; rfl
  have cutc : ∀ ts : List Int, ∃ pts, c.sunpath.call env.toWorld (inZone utcTz ts) = .ok pts ∧ pts.length = ts.length := by
    intro ts
    rw [hsp]
    obtain ⟨pts, h1, h2⟩ := call_returns env.toWorld hφ' hl (times := inZone utcTz ts) rfl
      (utc := (inZone utcTz ts).wall) rfl
    exact ⟨pts, h1, by rw [h2]; simp [inZone]⟩
  have cstr : ∀ ts : List Int, ∃ pts, c.sunpath.call env.toWorld (stripped utcZone ts) = .ok pts := by
    intro ts
    rw [hsp]
    obtain ⟨pts, h1, -⟩ := call_returns env.toWorld hφ' hl (times := stripped utcZone ts) rfl
      (utc := (stripped utcZone ts).wall) rfl
    exact ⟨pts, h1⟩
  have hls : localStamp utcZone (.ok ⟨some wall, false⟩) = .ok (wall, wall) := rfl
  have hana : ∀ y ho mn, ho < 24 → mn < 60 → ∃ r, analemma env c utcZone y ho mn = .ok r := by
    intro y ho mn h1 h2
    obtain ⟨t1, ht1⟩ := midnight_returns y (m := 1) (d := 1) (by decide) (by decide)
    obtain ⟨t2, ht2⟩ := midnight_returns y (m := 6) (d := 21) (by decide) (by decide)
    have hck : ∀ t, clock t ho mn = .ok (t + (60 * ho + mn : Nat) * minNs) := fun t => if_pos ⟨h1, h2⟩
    obtain ⟨p1, hp1⟩ := cstr (dateRange utcZone (t1 + (60 * ho + mn : Nat) * minNs) (daysInYear y) dayNs)
    obtain ⟨p2, hp2, hlen⟩ := cutc [t2 + (60 * ho + mn : Nat) * minNs]
    obtain ⟨⟨az, al⟩, rfl⟩ := List.length_eq_one_iff.1 hlen
    refine ⟨(p1, if Scalar.leB 0 al then some (az, al) else none), ?_⟩
    unfold analemma
    rw [ht1, ht2]
    show (clock t1 ho mn >>= _) = _
    rw [hck t1]
    show (c.sunpath.call env.toWorld (stripped utcZone (dateRange utcZone (t1 + (60 * ho + mn : Nat) * minNs)
      (daysInYear y) dayNs)) >>= _) = _
    rw [hp1]
    show (clock t2 ho mn >>= _) = _
    rw [hck t2]
    show (c.sunpath.call env.toWorld (inZone utcTz [t2 + (60 * ho + mn : Nat) * minNs]) >>= _) = _
    rw [hp2]
    rfl
  have hrange : ∀ start n step, 0 < n → ∀ pts : Pts XR, pts.length = (dateRange utcZone start n step).length →
      pts.isEmpty = false := by
    intro start n step hn pts hp
    rw [dateRange_utc, List.length_map, List.length_range] at hp
    cases pts with
    | nil => simp at hp; omega
    | cons _ _ => rfl
  have hday : ∀ y dm, dm ∈ gridDays [] [] → ∃ r, dayPath env c utcZone y dm = .ok r := by
    intro y dm hdm
    have hlist : gridDays [] [] = [(15, 1), (15, 2), (15, 3), (15, 4), (15, 5), (15, 7), (15, 8), (15, 9),
      (15, 10), (15, 11), (21, 6), (21, 12)] := by decide
    rw [hlist] at hdm
    have h1 : 12 < dm.1 ∧ dm.1 ≤ 28 ∧ 1 ≤ dm.2 ∧ dm.2 ≤ 12 := by
      simp only [List.mem_cons, List.not_mem_nil, or_false] at hdm
      rcases hdm with rfl | rfl | rfl | rfl | rfl | rfl | rfl | rfl | rfl | rfl | rfl | rfl <;> decide
    obtain ⟨t, ht⟩ := midnight_returns y (m := dm.2) (d := dm.1) ⟨h1.2.2.1, h1.2.2.2⟩ ⟨by omega, h1.2.1⟩
    obtain ⟨p, hp, hlen⟩ := cutc (dateRange utcZone t 288 (5 * minNs))
    have he := hrange _ _ _ (by decide) p hlen
    refine ⟨p, ?_⟩
    unfold dayPath parseSlashed
    rw [if_pos h1.1, ht]
    show (c.sunpath.call env.toWorld (inZone utcTz (dateRange utcZone t 288 (5 * minNs))) >>= _) = _
    rw [hp]
    show (if p.isEmpty then _ else _ : Except PyErr (Pts XR)) = _
    rw [he]; rfl
  have hgrid : ∃ g, drawSolarGrid env c [] [] [] [] = .ok g := by
    obtain ⟨t1, ht1⟩ := midnight_returns (yearOf wall) (m := 6) (d := 21) (by decide) (by decide)
    obtain ⟨t2, ht2⟩ := midnight_returns (yearOf wall) (m := 12) (d := 21) (by decide) (by decide)
    obtain ⟨p1, hp1, hl1⟩ := cutc (dateRange utcZone t1 720 (2 * minNs))
    obtain ⟨p2, hp2, hl2⟩ := cutc (dateRange utcZone t2 720 (2 * minNs))
    have he1 := hrange _ _ _ (by decide) p1 hl1
    have he2 := hrange _ _ _ (by decide) p2 hl2
    obtain ⟨curves, hcv⟩ := mapM_returns (l := product (orDefault [] (List.range 24)) (orDefault [] [0]))
      (f := fun x => analemma env c utcZone (yearOf wall) x.1 x.2) (by
        intro x hx
        have : x.1 < 24 ∧ x.2 < 60 := by
          unfold product orDefault at hx
          rw [List.mem_flatMap] at hx
          obtain ⟨a, ha, hb⟩ := hx
          simp at ha hb
          subst hb
          exact ⟨ha, Nat.zero_lt_succ _⟩
        exact hana _ _ _ this.1 this.2)
    obtain ⟨paths, hpt⟩ := mapM_returns (l := gridDays [] []) (f := fun dm => dayPath env c utcZone (yearOf wall) dm)
      (fun dm h => hday _ dm h)
    refine ⟨{
      year := yearOf wall, solstice := p1, equinox := p2
      analemmas := List.zipWith (fun x r => (x.1, x.2, r.1)) (product (orDefault [] (List.range 24)) (orDefault [] [0])) curves
      hourLabels := (List.zipWith (fun x r => r.2.map fun p => (x.1, x.2, p.1, p.2))
        (product (orDefault [] (List.range 24)) (orDefault [] [0])) curves).filterMap id
      days := List.zipWith (fun x r => (x.1, x.2, r)) (gridDays [] []) paths }, ?_⟩
    · unfold drawSolarGrid
      rw [i4, hz, ok_bind, i3, Option.getD_some, hls, ok_bind]
      simp only []
      rw [ht1, ok_bind]
      have hp1' : c.sunpath.call env.toWorld (inZone utcTz (dateRange utcZone t1 720 (2 * minNs))) = .ok p1 := hp1
      rw [hp1', ok_bind, ht2, ok_bind, hp2, ok_bind]
      simp only [he1, he2, Bool.or_self, Bool.false_eq_true, if_false]
      rw [hcv, ok_bind, hpt, ok_bind]
      rfl
  obtain ⟨g, hg⟩ := hgrid
  obtain ⟨p1, hp1, -⟩ := cutc (dateRange utcZone (wall / dayNs * dayNs) 288 (5 * minNs))
  obtain ⟨t1, ht1⟩ := midnight_returns (yearOf wall) (m := 1) (d := 1) (by decide) (by decide)
  obtain ⟨p2, hp2⟩ := cstr (dateRange utcZone (t1 + wall % dayNs) (daysInYear (yearOf wall)) dayNs)
  obtain ⟨p3, hp3, -⟩ := cutc [wall]
  have hpath : drawSolarPath env c (some (.ok ⟨some wall, false⟩)) = .ok ⟨p1, p2, p3⟩ := by
    unfold drawSolarPath
    rw [i4, hz, ok_bind, Option.getD_some, hls, ok_bind]
    simp only []
    have hp1' : c.sunpath.call env.toWorld (inZone utcZone.tz (dateRange utcZone (wall / dayNs * dayNs) 288 (5 * minNs))) = .ok p1 := hp1
    rw [hp1', ok_bind, ht1, ok_bind, hp2, ok_bind, hp3, ok_bind]
    rfl
  refine ⟨(g, ⟨p1, p2, p3⟩), ?_⟩
  unfold makeSolarChart
  rw [hc]
  show (drawSolarGrid env c [] [] [] [] >>= _) = _
  rw [hg]
  show (drawSolarPath env c (some (.ok ⟨some wall, false⟩)) >>= _) = _
  rw [hpath]
  rfl

/-- the hypotheses of C56-C58 are met -/
example : ZoneSound utcZone ∧ ∃ (env : Env XR) (r : _), makeSolarChart env (.fin 36.7) (.fin (-4.5))
    (some (.ok ⟨some 1577836800000000000, false⟩)) none true = .ok r :=
  ⟨⟨fun r u h => by cases h; show r + 0 = r; omega, fun r u h => by cases h; show r + 0 = r; omega,
      fun u => by show |(0 : Int)| < _; decide⟩,
    ⟨exWorld, 0, fun _ => .ok utcZone⟩, C56_returns _ (by norm_num) (by norm_num) _ _ _ rfl⟩

/-! ### C57: which instants the curves show -/

/-- **C57** The curves of the grid: those of 21 June and 21 December show the sun every two minutes of the local day;
each hourly analemma shows the sun at that hour *of UTC* on every day of the year (except the days on which that reading has
no or two instants in the zone of the chart); the hour label is written where the sun is at that hour *of local
time* on 21 June. -/
theorem C57_grid {F : Type} [Scalar F] {env : Env F} {lat lon : F} {user : Option (Except PyErr CliStamp)}
    {tz : Option String} {polar : Bool} {c : SolarChart F} {days months hours minutes : List Nat} {g : Grid F}
    {date : Int → CivilDate} (hg : IsGregorian date)
    (hc : SolarChart.init lat lon user tz polar = .ok c)
    (h : drawSolarGrid env c days months hours minutes = .ok g) :
    ∃ z, env.zone (zoneName tz) = .ok z ∧
      (∃ wall, user.getD (.ok ⟨some env.now, false⟩) = .ok ⟨some wall, false⟩ ∧
        g.year = (date (wall / dayNs)).year) ∧
      (∃ n, date n = ⟨g.year, 6, 21⟩ ∧
        Shows lat lon g.solstice ((readings (n * dayNs) 720 120000000000).filterMap z.toUtc)) ∧
      (∃ n, date n = ⟨g.year, 12, 21⟩ ∧
        Shows lat lon g.equinox ((readings (n * dayNs) 720 120000000000).filterMap z.toUtc)) ∧
      (ZoneSound z → ∀ ho mn pts, (ho, mn, pts) ∈ g.analemmas → ho < 24 ∧ mn < 60 ∧
        ∃ (n : Int) (N : Nat), date n = ⟨g.year, 1, 1⟩ ∧ date (n + N) = ⟨g.year + 1, 1, 1⟩ ∧
          Shows lat lon pts ((readings (n * dayNs + hm ho mn) N dayNs).filter fun r => (z.toUtc r).isSome)) ∧
      (∀ ho mn az al, (ho, mn, az, al) ∈ g.hourLabels →
        Scalar.leB 0 al = true ∧ ∃ n u, date n = ⟨g.year, 6, 21⟩ ∧ z.stamp (n * dayNs + hm ho mn) = .ok u ∧
          Shows lat lon [(az, al)] [u]) := by
  obtain ⟨i1, i2, i3, i4, -⟩ := init_fields hc
  rw [hg.unique C36_gregorian]
  obtain ⟨z, wall, t, h1, h2, h3, hy, hs, he, curves, hf, ha, hl, -⟩ := grid_ok h
  rw [i1, i2] at hs he
  rw [i3] at h2
  rw [i4] at h1
  refine ⟨z, h1, ⟨wall, h2, hy⟩, hs, he, ?_, ?_⟩
  · intro hz ho mn pts hm
    rw [ha] at hm
    obtain ⟨x, r, -, hr, e⟩ := zipWith_mem hf hm
    cases e
    obtain ⟨k1, k2, ⟨n, k3, k4⟩, -⟩ := analemma_ok hr
    refine ⟨k1, k2, n, _, k3, daysInYear_eq k3, ?_⟩
    rw [← i1, ← i2]
    exact k4 hz
  · intro ho mn az al hm
    rw [hl, List.mem_filterMap] at hm
    obtain ⟨q, hq, e⟩ := hm
    obtain ⟨x, r, -, hr, e'⟩ := zipWith_mem hf hq
    obtain ⟨-, -, -, n, u, az', al', k1, k2, k3, k4⟩ := analemma_ok hr
    rw [i1, i2] at k3
    rw [id, e', k4] at e
    split_ifs at e with hal
    · cases e
      exact ⟨hal, n, u, k1, k2, k3⟩
    · cases e

/-- **C57** every hour asked for has its analemma -/
theorem C57_hours {F : Type} [Scalar F] {env : Env F} {c : SolarChart F} {days months hours minutes : List Nat}
    {g : Grid F} (h : drawSolarGrid env c days months hours minutes = .ok g) (ho mn : Nat) :
    (∃ pts, (ho, mn, pts) ∈ g.analemmas) ↔
      (if hours = [] then ho < 24 else ho ∈ hours) ∧ (if minutes = [] then mn = 0 else mn ∈ minutes) := by
  obtain ⟨z, wall, t, h1, h2, h3, hy, hs, he, curves, hf, ha, -⟩ := grid_ok h
  have key : g.analemmas.map (fun a => (a.1, a.2.1)) =
      product (orDefault hours (List.range 24)) (orDefault minutes [0]) := by
    rw [ha, zipWith_fst (g := fun a : Nat × Nat × Pts F => (a.1, a.2.1)) (k := fun x => x) hf (fun _ _ => rfl), List.map_id']
  have k1 : (∃ pts, (ho, mn, pts) ∈ g.analemmas) ↔
      (ho, mn) ∈ product (orDefault hours (List.range 24)) (orDefault minutes [0]) := by
    rw [← key, List.mem_map]
    constructor
    · rintro ⟨pts, hp⟩; exact ⟨_, hp, rfl⟩
    · rintro ⟨⟨a, b, pts⟩, hp, e⟩; cases e; exact ⟨pts, hp⟩
  rw [k1]
  unfold product orDefault
  rw [List.mem_flatMap]
  constructor
  · rintro ⟨x, hx, hy⟩
    rw [List.mem_map] at hy
    obtain ⟨y, hy, e⟩ := hy
    cases e
    cases hours <;> cases minutes <;> simp_all
  · rintro ⟨hx, hy⟩
    refine ⟨ho, ?_, List.mem_map.2 ⟨mn, ?_, rfl⟩⟩
    · cases hours <;> simp_all
    · cases minutes <;> simp_all

/-- **C57** Hence an hour label sits on its analemma only where local time is UTC: the instant `u` of the label is among the
instants of the analemma exactly if the UTC offset is zero at that instant. -/
theorem C57_hour_labels_off {z : Zone} (hz : ZoneSound z) {date : Int → CivilDate} (hg : IsGregorian date)
    {y n n' : Int} {ho mn N : Nat} {u : Int}
    (hn : date n = ⟨y, 1, 1⟩) (hN : date (n + N) = ⟨y + 1, 1, 1⟩) (hn' : date n' = ⟨y, 6, 21⟩)
    (hu : z.stamp (n' * dayNs + hm ho mn) = .ok u) (hs : z.toUtc (n' * dayNs + hm ho mn) = some u) :
    u ∈ (readings (n * dayNs + hm ho mn) N dayNs).filter (fun r => (z.toUtc r).isSome) ↔ z.tz.off u = 0 := by
  have e := hz.stamp _ _ hu
  have hsm := hz.small u
  unfold readings
  rw [List.mem_filter, List.mem_map]
  have hd : dayNs = 86400000000000 := rfl
  constructor
  · rintro ⟨⟨k, -, hk⟩, -⟩
    have : dayNs ∣ z.tz.off u := ⟨n' - n - k, by linarith [mul_comm dayNs (n' - n - (k : Int)), sub_mul (n' - n) (k : Int) dayNs, sub_mul n' n dayNs]⟩
    rw [hd] at this hsm
    rw [abs_lt] at hsm
    omega
  · intro h0
    rw [h0, add_zero] at e
    rw [hg.unique C36_gregorian] at hn hN hn'
    have hord : n ≤ n' ∧ n' < n + N := by
      have g1 : n = yearStart y := codeDate_inj (hn.trans (codeDate_jan1 y).symm)
      have g2 : n + N = yearStart (y + 1) := codeDate_inj (hN.trans (codeDate_jan1 (y + 1)).symm)
      have hy : (Cal.yearsDays n').1 = y := by rw [codeDate_eq] at hn'; exact (CivilDate.mk.inj hn').1
      obtain ⟨s1, s2, s3⟩ := yearsDays_spec n'
      rw [hy] at s1 s3
      rw [yearStart_succ] at g2
      omega
    refine ⟨⟨(n' - n).toNat, List.mem_range.2 (by omega), ?_⟩, ?_⟩
    · rw [Int.toNat_of_nonneg (by omega), e]; ring
    · rw [e, hs]; rfl

/-- **C57** The path of the user: the curve is that of the local day of the time given, every five minutes, the
marker is the sun at that time, and the analemma shows the sun, on every day of a year, at the UTC time of the
day of the marker. -/
theorem C57_user {F : Type} [Scalar F] {env : Env F} {lat lon : F} {user : Option (Except PyErr CliStamp)}
    {tz : Option String} {polar : Bool} {g : Grid F} {p : UserPath F} {date : Int → CivilDate} (hg : IsGregorian date)
    (h : makeSolarChart env lat lon user tz polar = .ok (g, p)) :
    ∃ z wall u, env.zone (zoneName tz) = .ok z ∧ user = some (.ok ⟨some wall, false⟩) ∧ z.stamp wall = .ok u ∧
      Shows lat lon p.path ((readings (wall / dayNs * dayNs) 288 300000000000).filterMap z.toUtc) ∧
      Shows lat lon p.marker [u] ∧
      (ZoneSound z → ∃ n, date n = ⟨(date (u / dayNs)).year, 1, 1⟩ ∧ ∃ N : Nat, (N = 365 ∨ N = 366) ∧
        Shows lat lon p.analemma ((readings (n * dayNs + u % dayNs) N dayNs).filter fun r => (z.toUtc r).isSome)) := by
  rw [hg.unique C36_gregorian]
  obtain ⟨c, hc, -, h⟩ := make_ok h
  obtain ⟨i1, i2, i3, i4, -⟩ := init_fields hc
  obtain ⟨z, h1, h⟩ := bind_ok h
  obtain ⟨⟨wall, u⟩, h2, h⟩ := bind_ok h
  obtain ⟨path, h3, h⟩ := bind_ok h
  obtain ⟨t1, h4, h⟩ := bind_ok h
  obtain ⟨ana, h5, h⟩ := bind_ok h
  obtain ⟨mk, h6, h⟩ := bind_ok h
  injection h with h
  subst h
  obtain ⟨u1, u2⟩ := localStamp_ok h2
  obtain ⟨n, d, rfl⟩ := midnight_iff.1 h4
  rw [← i1, ← i2, ← i4]
  refine ⟨z, wall, u, h1, ?_, u2, ?_, call_shows (l := [u]) h6 rfl, fun hz => ⟨n, d, daysInYear (yearOf wall), ?_, ?_⟩⟩
  · cases user with
    | none => cases u1
    | some st => exact congrArg some u1
  · refine call_shows h3 ?_
    have e5 : 5 * minNs = 300000000000 := rfl
    simp only [dateRange_eq, inZone, e5]
  · unfold daysInYear; split_ifs <;> simp
  · refine call_shows h5 ?_
    rw [dateRange_eq, stripped_stamps hz]

/-- **C57** The zone of the chart: without a time zone, or with an empty one, the chart is that of UTC; with the name of a zone it
depends on that zone only. -/
theorem C57_zone {F : Type} [Scalar F] (env : Env F) (lat lon : F) (user : Option (Except PyErr CliStamp)) (polar : Bool) :
    makeSolarChart env lat lon user none polar = makeSolarChart env lat lon user (some "UTC") polar ∧
    makeSolarChart env lat lon user (some "") polar = makeSolarChart env lat lon user (some "UTC") polar ∧
    ∀ (s : String) (f : String → Except PyErr Zone), s ≠ "" → f s = env.zone s →
      makeSolarChart { env with zone := f } lat lon user (some s) polar =
        makeSolarChart env lat lon user (some s) polar := by
  refine ⟨rfl, rfl, fun s f hs hf => ?_⟩
  have e : ∀ c, SolarChart.init lat lon user (some s) polar = .ok c → c.timezone = s := fun c hc => by
    rw [(init_fields hc).2.2.2.1, zoneName, if_neg hs]
  unfold makeSolarChart
  cases hc : SolarChart.init lat lon user (some s) polar with
  | error _ => rfl
  | ok c =>
    have ec := e c hc
    have g : drawSolarGrid { env with zone := f } c [] [] [] [] = drawSolarGrid env c [] [] [] [] := by
      unfold drawSolarGrid
      simp only [ec, hf]
      rfl
    have k : drawSolarPath { env with zone := f } c user = drawSolarPath env c user := by
      unfold drawSolarPath
      simp only [ec, hf]
    simp only [bind, Except.bind]
    rw [g, k]

/-! ### C58: the labels of the days -/

/-- **C58** The curve labelled day `d`, month `m` shows that day, every five minutes, exactly if `d > 12` or `d = m`;
otherwise it shows day `m` of month `d`. -/
theorem C58_day_labels {F : Type} [Scalar F] {env : Env F} {lat lon : F} {user : Option (Except PyErr CliStamp)}
    {tz : Option String} {polar : Bool} {c : SolarChart F} {days months hours minutes : List Nat} {g : Grid F}
    {date : Int → CivilDate} (hg : IsGregorian date)
    (hc : SolarChart.init lat lon user tz polar = .ok c)
    (h : drawSolarGrid env c days months hours minutes = .ok g) {d m : Nat} {pts : List (F × F)}
    (hm : (d, m, pts) ∈ g.days) :
    ∃ z n, env.zone (zoneName tz) = .ok z ∧
      Shows lat lon pts ((readings (n * dayNs) 288 300000000000).filterMap z.toUtc) ∧
      (12 < d → date n = ⟨g.year, m, d⟩) ∧ (d ≤ 12 → date n = ⟨g.year, d, m⟩) ∧
      (date n = ⟨g.year, m, d⟩ ↔ 12 < d ∨ d = m) := by
  obtain ⟨i1, i2, i3, i4, -⟩ := init_fields hc
  rw [hg.unique C36_gregorian]
  obtain ⟨z, wall, t, h1, -, -, -, -, -, curves, -, -, -, paths, hf, hd⟩ := grid_ok h
  rw [hd] at hm
  obtain ⟨x, r, -, hr, e⟩ := zipWith_mem hf hm
  cases e
  obtain ⟨n, k1, k2⟩ := dayPath_ok hr
  rw [i1, i2] at k2
  rw [i4] at h1
  refine ⟨z, n, h1, k2, fun hlt => ?_, fun hle => ?_, ?_⟩
  · rw [k1, if_pos hlt]
  · rw [k1, if_neg (by omega)]
  · rw [k1]
    split_ifs with hlt
    · exact ⟨fun _ => .inl hlt, fun _ => rfl⟩
    · simp only [CivilDate.mk.injEq, true_and, Nat.cast_inj]
      omega

/-- **C58** The chart made by `make_solar_chart` has a curve for the 15th of every month except June and December, and
for 21 June and 21 December, and every curve shows the day of its label. -/
theorem C58_default_days {F : Type} [Scalar F] {env : Env F} {lat lon : F} {user : Option (Except PyErr CliStamp)}
    {tz : Option String} {polar : Bool} {g : Grid F} {p : UserPath F} {date : Int → CivilDate} (hg : IsGregorian date)
    (h : makeSolarChart env lat lon user tz polar = .ok (g, p)) :
    g.days.map (fun a => (a.1, a.2.1)) = [(15, 1), (15, 2), (15, 3), (15, 4), (15, 5), (15, 7), (15, 8), (15, 9),
      (15, 10), (15, 11), (21, 6), (21, 12)] ∧
    ∀ d m pts, (d, m, pts) ∈ g.days → ∃ z n, env.zone (zoneName tz) = .ok z ∧ date n = ⟨g.year, m, d⟩ ∧
      Shows lat lon pts ((readings (n * dayNs) 288 300000000000).filterMap z.toUtc) := by
  obtain ⟨c, hc, h, -⟩ := make_ok h
  have hdays : g.days.map (fun a => (a.1, a.2.1)) = gridDays [] [] := by
    obtain ⟨z, wall, t, h1, -, -, -, -, -, curves, -, -, -, paths, hf, hd⟩ := grid_ok h
    rw [hd, zipWith_fst (g := fun a : Nat × Nat × Pts F => (a.1, a.2.1)) (k := fun x => x) hf (fun _ _ => rfl), List.map_id']
  have hlist : gridDays [] [] = [(15, 1), (15, 2), (15, 3), (15, 4), (15, 5), (15, 7), (15, 8), (15, 9),
      (15, 10), (15, 11), (21, 6), (21, 12)] := by decide
  rw [hlist] at hdays
  refine ⟨hdays, fun d m pts hm => ?_⟩
  obtain ⟨z, n, h1, h2, h3, -⟩ := C58_day_labels hg hc h hm
  have hd : 12 < d := by
    have : (d, m) ∈ g.days.map (fun a => (a.1, a.2.1)) := List.mem_map.2 ⟨_, hm, rfl⟩
    rw [hdays] at this
    simp only [List.mem_cons, Prod.mk.injEq, List.not_mem_nil, or_false] at this
    omega
  exact ⟨z, n, h1, h3 hd, h2⟩

/-! ### C59: east and west -/

/-- **C59** On both kinds of chart a sun west of the meridian is drawn on the side where the chart writes E (East),
and a sun east of it on the side where it writes W (West): for every point drawn at an instant, there is the declination
`d` and the hour angle `H` of a sun seen in that azimuth, and the point is to the right of the middle exactly if that sun is to
the west. -/
theorem C59_east_west : ∃ H0 : Int → ℝ, ∀ {φ l az el : ℝ} {t : Int} (polar : Bool), -90 < φ → φ < 90 → |t| < 2 ^ 63 →
    Shows (XR.fin φ) (XR.fin l) [(XR.fin az, XR.fin el)] [t] →
    (∃ d zg, SeenAt (rad φ) (rad d) (H0 t + rad l) zg (rad az) ∧ 0 < cos (rad d)) ∧
    (el < 90 →
      (0 < sin (H0 t + rad l) ↔ 0.5 < (onFigure polar az el).1 ∧ (polar = false → (onFigure polar az el).1 < 1)) ∧
      (sin (H0 t + rad l) < 0 ↔ (onFigure polar az el).1 < 0.5 ∧ (polar = false → 0 < (onFigure polar az el).1))) := by
  obtain ⟨H0, hH⟩ := C16_sign "psa"
  refine ⟨H0, ?_⟩
  intro φ l az el t polar hφ1 hφ2 ht hs
  unfold Shows at hs
  rw [List.forall₂_cons] at hs
  obtain ⟨⟨w, s, h, e⟩, -⟩ := hs
  have h' : call .sites w (oneTime t) (.scalar (.fin φ)) (.scalar (.fin l)) "psa" .pyTrue "numexpr" = .ok s := h
  have hat : At s (oneTime t) (fun _ => 0) t φ l := by
    obtain ⟨lat, lon, b, utc, ha, hu, hr⟩ := call_inv h'
    obtain rfl : [XR.fin φ] = lat := Option.some.inj ha.lat_eq
    obtain rfl : [XR.fin l] = lon := Option.some.inj ha.lon_eq
    refine ⟨?_, rfl, ht, ?_, ?_⟩
    · unfold Within; rw [hr.zen_dims]; simp [oneTime]
    · rw [hr.latitude]; rfl
    · rw [hr.longitude]; rfl
  obtain ⟨a, d, ha, hd, s1, s2, s3, hseen, -⟩ := hH h' hat
  obtain ⟨zg, hseen⟩ := hseen (by decide)
  have hea : a = az := by
    have := (Prod.mk.inj e).1
    rw [ha] at this
    cases this; rfl
  subst hea
  have hcd : 0 < cos (rad d) := by
    obtain ⟨d', hd', -, -, hc⟩ := C17_declination (e := fun _ => 0) h' hat.time ht
    rw [hd] at hd'
    cases hd'
    exact hc
  refine ⟨⟨d, zg, hseen, hcd⟩, fun hel => ?_⟩
  have hzg : 0 ≤ sin zg := sin_nonneg_of_nonneg_of_le_pi hseen.zen_nonneg hseen.zen_le
  have hw := hseen.west
  cases polar with
  | false =>
    rw [s1, s2]
    unfold onFigure
    simp only [Bool.false_eq_true, if_false, true_imp_iff]
    constructor
    · constructor
      · rintro ⟨k1, k2⟩; constructor <;> norm_num <;> linarith
      · rintro ⟨k1, k2⟩; norm_num at k1 k2; constructor <;> linarith
    · constructor
      · rintro ⟨k1, k2⟩; constructor <;> norm_num <;> linarith
      · rintro ⟨k1, k2⟩; norm_num at k1 k2; constructor <;> linarith
  | true =>
    have hx : (onFigure true a el).1 = 0.5 + 0.5 * ((90 - el) / (90 - 0.1) * sin (rad a)) := by
      unfold onFigure rad
      simp only [if_true]
      rw [neg_div, ← sub_eq_add_neg, cos_sub_pi_div_two]
    rw [hx]
    have hr : 0 < (90 - el) / (90 - 0.1) := div_pos (by linarith) (by norm_num)
    generalize (90 - el) / (90 - 0.1 : ℝ) = r at hr
    have g1 : 0 < sin (H0 t + rad l) → 0 < sin (rad a) := by
      intro hp
      have : 0 < sin zg * sin (rad a) := by rw [hw]; positivity
      by_contra hc
      nlinarith
    have g2 : sin (H0 t + rad l) < 0 → sin (rad a) < 0 := by
      intro hp
      have : sin zg * sin (rad a) < 0 := by rw [hw]; exact mul_neg_of_pos_of_neg hcd hp
      by_contra hc
      nlinarith
    have g3 : sin (H0 t + rad l) = 0 → sin (rad a) = 0 := by
      intro hp
      rcases s3.1 hp with rfl | rfl | rfl
      · rw [show rad 0 = 0 by unfold rad; ring, sin_zero]
      · rw [show rad 180 = π by unfold rad; ring, sin_pi]
      · rw [show rad (-180) = -π by unfold rad; ring, sin_neg, sin_pi, neg_zero]
    have g4 : 0 < sin (rad a) → 0 < sin (H0 t + rad l) := by
      intro hp
      rcases lt_trichotomy (sin (H0 t + rad l)) 0 with h1 | h1 | h1
      · linarith [g2 h1]
      · linarith [g3 h1]
      · exact h1
    have g5 : sin (rad a) < 0 → sin (H0 t + rad l) < 0 := by
      intro hp
      rcases lt_trichotomy (sin (H0 t + rad l)) 0 with h1 | h1 | h1
      · exact h1
      · linarith [g3 h1]
      · linarith [g1 h1]
    simp only [Bool.true_eq_false, false_imp_iff, and_true]
    constructor
    · constructor
      · intro h1; have := mul_pos hr (g1 h1); linarith
      · intro h1; exact g4 ((mul_pos_iff_of_pos_left hr).1 (by linarith))
    · constructor
      · intro h1; have := mul_neg_of_pos_of_neg hr (g2 h1); linarith
      · intro h1; exact g5 (by by_contra hc; push Not at hc; have := mul_nonneg hr.le hc; linarith)

/-- where the names are: the ones for west on the left, the ones for east on the right -/
theorem C59_names (polar : Bool) :
    (∀ x, (WrittenAt polar "W" x ∨ WrittenAt polar "West" x) → x < 0.5) ∧
    (∀ x, (WrittenAt polar "E" x ∨ WrittenAt polar "East" x) → 0.5 < x) ∧
    (∃ x, WrittenAt polar "W" x ∨ WrittenAt polar "West" x) ∧ (∃ x, WrittenAt polar "E" x ∨ WrittenAt polar "East" x) := by
  cases polar
  · simp [WrittenAt, compass]; norm_num
  · simp [WrittenAt, compass]; norm_num

end SW.Props
