/-
C96: the switches of the grid of the solar chart.
-/
import Verif.ChartFlags
import Verif.Props.Chart

namespace SW.Props
open SW SW.Spec SW.Chart Sunpos
open SW.Cli (CliStamp)

namespace Flags
variable {F : Type} [Scalar F]

theorem curve_true {env : Env F} {c : SolarChart F} {z : Zone} {y : Int} {m : Nat} {o : Option (Pts F)} (h : flagCurve env c z y m true = .ok o) :
    ∃ t p, midnight y m 21 = .ok t ∧ c.sunpath.call env.toWorld (inZone utcTz (dateRange z t 720 (2 * minNs))) = .ok p ∧ o = some p := by
  obtain ⟨t, h1, h⟩ := bind_ok h
  obtain ⟨p, h2, h⟩ := bind_ok h
  injection h with h
  exact ⟨t, p, h1, h2, h.symm⟩

theorem curve_of {env : Env F} {c : SolarChart F} {z : Zone} {y : Int} {m : Nat} {t : Int} {p : Pts F} (h1 : midnight y m 21 = .ok t)
    (h2 : c.sunpath.call env.toWorld (inZone utcTz (dateRange z t 720 (2 * minNs))) = .ok p) : flagCurve env c z y m true = .ok (some p) := by
  unfold flagCurve
  rw [h1, ok_bind, h2]; rfl

/-- what a successful `draw_solar_grid` has gone through, run by run -/
theorem with_ok {env : Env F} {c : SolarChart F} {days months hours minutes : List Nat} {s e : PyVal} {g : FlagGrid F} :
    drawSolarGridWith env c days months hours minutes s e = .ok g ↔
    ∃ z wall t sol equ f curves paths, env.zone c.timezone = .ok z ∧ localStamp z (c.user.getD (.ok ⟨some env.now, false⟩)) = .ok (wall, t) ∧
      flagCurve env c z (yearOf wall) 6 s.isTrue = .ok sol ∧ flagCurve env c z (yearOf wall) 12 e.isTrue = .ok equ ∧ fillBetween sol equ = .ok f ∧
      (product (orDefault hours (List.range 24)) (orDefault minutes [0])).mapM (fun x => analemma env c z (yearOf wall) x.1 x.2) = .ok curves ∧
      (gridDays days months).mapM (fun dm => dayPath env c z (yearOf wall) dm) = .ok paths ∧
      g = { year := yearOf wall, solstice := sol, equinox := equ, filled := f
            analemmas := List.zipWith (fun x r => (x.1, x.2, r.1)) (product (orDefault hours (List.range 24)) (orDefault minutes [0])) curves
            hourLabels := (List.zipWith (fun x r => r.2.map fun p => (x.1, x.2, p.1, p.2))
              (product (orDefault hours (List.range 24)) (orDefault minutes [0])) curves).filterMap id
            days := List.zipWith (fun x r => (x.1, x.2, r)) (gridDays days months) paths } := by
  constructor
  · intro h
    obtain ⟨z, h1, h⟩ := bind_ok h
    obtain ⟨⟨wall, t⟩, h2, h⟩ := bind_ok h
    obtain ⟨sol, h3, h⟩ := bind_ok h
    obtain ⟨equ, h4, h⟩ := bind_ok h
    obtain ⟨f, h5, h⟩ := bind_ok h
    obtain ⟨curves, h6, h⟩ := bind_ok h
    obtain ⟨paths, h7, h⟩ := bind_ok h
    injection h with h
    exact ⟨z, wall, t, sol, equ, f, curves, paths, h1, h2, h3, h4, h5, h6, h7, h.symm⟩
  · rintro ⟨z, wall, t, sol, equ, f, curves, paths, h1, h2, h3, h4, h5, h6, h7, rfl⟩
    unfold drawSolarGridWith
    rw [h1, ok_bind, h2, ok_bind]
    simp only
    rw [h3, ok_bind, h4, ok_bind, h5, ok_bind, h6, ok_bind, h7, ok_bind]
    rfl

/-- the same for the grid with both curves -/
theorem grid_iff {env : Env F} {c : SolarChart F} {days months hours minutes : List Nat} {g : Grid F} :
    drawSolarGrid env c days months hours minutes = .ok g ↔
    ∃ z wall t t1 t2 sol equ curves paths, env.zone c.timezone = .ok z ∧ localStamp z (c.user.getD (.ok ⟨some env.now, false⟩)) = .ok (wall, t) ∧
      midnight (yearOf wall) 6 21 = .ok t1 ∧ c.sunpath.call env.toWorld (inZone utcTz (dateRange z t1 720 (2 * minNs))) = .ok sol ∧
      midnight (yearOf wall) 12 21 = .ok t2 ∧ c.sunpath.call env.toWorld (inZone utcTz (dateRange z t2 720 (2 * minNs))) = .ok equ ∧
      (sol.isEmpty || equ.isEmpty) = false ∧
      (product (orDefault hours (List.range 24)) (orDefault minutes [0])).mapM (fun x => analemma env c z (yearOf wall) x.1 x.2) = .ok curves ∧
      (gridDays days months).mapM (fun dm => dayPath env c z (yearOf wall) dm) = .ok paths ∧
      g = { year := yearOf wall, solstice := sol, equinox := equ
            analemmas := List.zipWith (fun x r => (x.1, x.2, r.1)) (product (orDefault hours (List.range 24)) (orDefault minutes [0])) curves
            hourLabels := (List.zipWith (fun x r => r.2.map fun p => (x.1, x.2, p.1, p.2))
              (product (orDefault hours (List.range 24)) (orDefault minutes [0])) curves).filterMap id
            days := List.zipWith (fun x r => (x.1, x.2, r)) (gridDays days months) paths } := by
  constructor
  · intro h
    obtain ⟨z, h1, h⟩ := bind_ok h
    obtain ⟨⟨wall, t⟩, h2, h⟩ := bind_ok h
    obtain ⟨t1, h3, h⟩ := bind_ok h
    obtain ⟨sol, h4, h⟩ := bind_ok h
    obtain ⟨t2, h5, h⟩ := bind_ok h
    obtain ⟨equ, h6, h⟩ := bind_ok h
    have he : (sol.isEmpty || equ.isEmpty) = false := by
      cases he : (sol.isEmpty || equ.isEmpty) with
      | true => rw [he] at h; exact absurd h (by intro h; cases h)
      | false => rfl
    rw [he] at h
    replace h : (List.mapM (fun x : Nat × Nat => analemma env c z (yearOf wall) x.1 x.2)
      (product (orDefault hours (List.range 24)) (orDefault minutes [0])) >>= _) = Except.ok g := h
    obtain ⟨curves, h7, h⟩ := bind_ok h
    obtain ⟨paths, h8, h⟩ := bind_ok h
    injection h with h
    exact ⟨z, wall, t, t1, t2, sol, equ, curves, paths, h1, h2, h3, h4, h5, h6, he, h7, h8, h.symm⟩
  · rintro ⟨z, wall, t, t1, t2, sol, equ, curves, paths, h1, h2, h3, h4, h5, h6, he, h7, h8, rfl⟩
    unfold drawSolarGrid
    rw [h1, ok_bind, h2, ok_bind]
    simp only
    rw [h3, ok_bind, h4, ok_bind, h5, ok_bind, h6, ok_bind]
    simp only [he, Bool.false_eq_true, if_false]
    rw [h7, ok_bind, h8, ok_bind]
    rfl

end Flags
open Flags

/-! ### theorems -/

/-- **C96** With both switches on (their default), the grid has both curves, filled between them, and is otherwise the grid of C57; it comes out in the same cases. -/
theorem C96_default {F : Type} [Scalar F] {env : Env F} {c : SolarChart F} {days months hours minutes : List Nat} (g : FlagGrid F) :
    drawSolarGridWith env c days months hours minutes .pyTrue .pyTrue = .ok g ↔
    ∃ d, drawSolarGrid env c days months hours minutes = .ok d ∧ g.year = d.year ∧ g.solstice = some d.solstice ∧ g.equinox = some d.equinox ∧
      g.filled = some (d.solstice, d.equinox) ∧ g.analemmas = d.analemmas ∧ g.hourLabels = d.hourLabels ∧ g.days = d.days := by
  constructor
  · intro h
    obtain ⟨z, wall, t, sol, equ, f, curves, paths, h1, h2, h3, h4, h5, h6, h7, rfl⟩ := with_ok.1 h
    obtain ⟨t1, p1, a1, a2, rfl⟩ := curve_true h3
    obtain ⟨t2, p2, b1, b2, rfl⟩ := curve_true h4
    unfold fillBetween at h5
    simp only at h5
    split_ifs at h5 with he
    injection h5 with h5
    subst h5
    exact ⟨_, grid_iff.2 ⟨z, wall, t, t1, t2, p1, p2, curves, paths, h1, h2, a1, a2, b1, b2, by simpa using he, h6, h7, rfl⟩, rfl, rfl, rfl, rfl, rfl, rfl, rfl⟩
  · rintro ⟨d, hd, k1, k2, k3, k4, k5, k6, k7⟩
    obtain ⟨z, wall, t, t1, t2, sol, equ, curves, paths, h1, h2, h3, h4, h5, h6, he, h7, h8, rfl⟩ := grid_iff.1 hd
    refine with_ok.2 ⟨z, wall, t, some sol, some equ, some (sol, equ), curves, paths, h1, h2, curve_of h3 h4, curve_of h5 h6, ?_, h7, h8, ?_⟩
    · unfold fillBetween
      simp only
      rw [he]; rfl
    · obtain ⟨_, _, _, _, _, _, _⟩ := g
      simp only at k1 k2 k3 k4 k5 k6 k7
      subst k1 k2 k3 k4 k5 k6 k7
      rfl

/-- **C96** What the switches change: whenever the grid with the default switches comes out, it comes out with any other values, and has the same year, analemmas, hour labels and day curves; only the
object `True` switches a curve on (not, say, 1), and the area between the two is filled exactly if both are on. -/
theorem C96_flags {F : Type} [Scalar F] {env : Env F} {c : SolarChart F} {days months hours minutes : List Nat} {d : Grid F}
    (h : drawSolarGrid env c days months hours minutes = .ok d) (s e : PyVal) :
    ∃ g, drawSolarGridWith env c days months hours minutes s e = .ok g ∧ g.year = d.year ∧ g.analemmas = d.analemmas ∧ g.hourLabels = d.hourLabels ∧ g.days = d.days ∧
      g.solstice = (if s = .pyTrue then some d.solstice else none) ∧ g.equinox = (if e = .pyTrue then some d.equinox else none) ∧
      g.filled = (if s = .pyTrue ∧ e = .pyTrue then some (d.solstice, d.equinox) else none) := by
  obtain ⟨z, wall, t, t1, t2, sol, equ, curves, paths, h1, h2, h3, h4, h5, h6, he, h7, h8, rfl⟩ := grid_iff.1 h
  have hs : flagCurve env c z (yearOf wall) 6 s.isTrue = .ok (if s = .pyTrue then some sol else none) := by
    cases s with
    | pyTrue => exact curve_of h3 h4
    | pyFalse => rfl
    | other _ => rfl
  have hq : flagCurve env c z (yearOf wall) 12 e.isTrue = .ok (if e = .pyTrue then some equ else none) := by
    cases e with
    | pyTrue => exact curve_of h5 h6
    | pyFalse => rfl
    | other _ => rfl
  have hf : fillBetween (if s = .pyTrue then some sol else none) (if e = .pyTrue then some equ else none) =
      .ok (if s = .pyTrue ∧ e = .pyTrue then some (sol, equ) else none) := by
    by_cases a : s = .pyTrue <;> by_cases b : e = .pyTrue
    · rw [if_pos a, if_pos b, if_pos ⟨a, b⟩]
      unfold fillBetween
      simp only
      rw [he]; rfl
    · rw [if_pos a, if_neg b, if_neg (fun h => b h.2)]; rfl
    · rw [if_neg a, if_pos b, if_neg (fun h => a h.1)]; rfl
    · rw [if_neg a, if_neg b, if_neg (fun h => a h.1)]; rfl
  exact ⟨_, with_ok.2 ⟨z, wall, t, _, _, _, curves, paths, h1, h2, hs, hq, hf, h7, h8, rfl⟩, rfl, rfl, rfl, rfl, rfl, rfl, rfl⟩

/-- **C96** The days of the solstices are drawn all the same: whatever the switches and the days and months asked for, the grid has a curve labelled 21/06 and one labelled 21/12, which
show the sun every five minutes of those days. -/
theorem C96_days {F : Type} [Scalar F] {env : Env F} {c : SolarChart F} {days months hours minutes : List Nat} {s e : PyVal} {g : FlagGrid F}
    {date : Int → CivilDate} (hg : IsGregorian date) (h : drawSolarGridWith env c days months hours minutes s e = .ok g) {m : Nat} (hm : m = 6 ∨ m = 12) :
    ∃ z pts n, env.zone c.timezone = .ok z ∧ (21, m, pts) ∈ g.days ∧ pts ≠ [] ∧ date n = ⟨g.year, m, 21⟩ ∧
      Shows c.sunpath.latitude c.sunpath.longitude pts ((readings (n * dayNs) 288 300000000000).filterMap z.toUtc) := by
  rw [hg.unique C36_gregorian]
  obtain ⟨z, wall, t, sol, equ, f, curves, paths, h1, h2, h3, h4, h5, h6, h7, rfl⟩ := with_ok.1 h
  have hin : (21, m) ∈ gridDays days months := by
    unfold gridDays
    simp only
    rcases hm with rfl | rfl
    · split_ifs <;> simp_all
    · split_ifs <;> simp_all
  have hf := chart_mapM_ok h7
  obtain ⟨i, hi, hie⟩ := List.mem_iff_getElem.1 hin
  have hlen := hf.length_eq
  have hp := List.forall₂_iff_get.1 hf |>.2 i hi (hlen ▸ hi)
  rw [List.get_eq_getElem, List.get_eq_getElem, hie] at hp
  obtain ⟨n, hn, hs⟩ := dayPath_ok hp
  rw [if_pos (by norm_num)] at hn
  refine ⟨z, paths[i]'(hlen ▸ hi), n, h1, ?_, ?_, hn, hs⟩
  · refine List.mem_iff_getElem.2 ⟨i, by rw [List.length_zipWith, ← hlen, min_self]; exact hi, ?_⟩
    rw [List.getElem_zipWith, hie]
  · obtain ⟨t1, -, hp⟩ := bind_ok hp
    obtain ⟨path, -, hp⟩ := bind_ok hp
    intro he
    rw [he] at hp
    cases hpe : path.isEmpty with
    | true => rw [hpe] at hp; cases hp
    | false =>
      rw [hpe] at hp
      cases hp
      cases hpe

/-- **C96** The two curves, whatever comes out: the curve of 21 June is there exactly if its switch is `True`, and then shows the sun every two minutes of that day in the zone of the chart;
likewise the curve of 21 December. -/
theorem C96_curves {F : Type} [Scalar F] {env : Env F} {c : SolarChart F} {days months hours minutes : List Nat} {s e : PyVal} {g : FlagGrid F}
    {date : Int → CivilDate} (hg : IsGregorian date) (h : drawSolarGridWith env c days months hours minutes s e = .ok g) :
    ∃ z, env.zone c.timezone = .ok z ∧ (g.solstice ≠ none ↔ s = .pyTrue) ∧ (g.equinox ≠ none ↔ e = .pyTrue) ∧
      (∀ pts, g.solstice = some pts → ∃ n, date n = ⟨g.year, 6, 21⟩ ∧
        Shows c.sunpath.latitude c.sunpath.longitude pts ((readings (n * dayNs) 720 120000000000).filterMap z.toUtc)) ∧
      (∀ pts, g.equinox = some pts → ∃ n, date n = ⟨g.year, 12, 21⟩ ∧
        Shows c.sunpath.latitude c.sunpath.longitude pts ((readings (n * dayNs) 720 120000000000).filterMap z.toUtc)) := by
  rw [hg.unique C36_gregorian]
  obtain ⟨z, wall, t, sol, equ, f, curves, paths, h1, h2, h3, h4, h5, h6, h7, rfl⟩ := with_ok.1 h
  have on : ∀ {m : Nat} {v : PyVal} {o : Option (Pts F)}, flagCurve env c z (yearOf wall) m v.isTrue = .ok o →
      (o ≠ none ↔ v = .pyTrue) ∧ ∀ pts, o = some pts → ∃ n, codeDate n = ⟨yearOf wall, m, 21⟩ ∧
        Shows c.sunpath.latitude c.sunpath.longitude pts ((readings (n * dayNs) 720 120000000000).filterMap z.toUtc) := by
    intro m v o ho
    cases v with
    | pyTrue =>
      obtain ⟨t, p, k1, k2, rfl⟩ := curve_true ho
      refine ⟨by simp, ?_⟩
      rintro pts hp
      obtain rfl := Option.some.inj hp
      obtain ⟨n, d, rfl⟩ := midnight_iff.1 k1
      refine ⟨n, by exact_mod_cast d, call_shows k2 ?_⟩
      have e2 : 2 * minNs = 120000000000 := rfl
      simp only [dateRange_eq, inZone, e2]
    | pyFalse =>
      have ho : (Except.ok none : Except PyErr (Option (Pts F))) = .ok o := ho
      injection ho with ho
      subst ho
      exact ⟨by simp, by intro _ h; cases h⟩
    | other _ =>
      have ho : (Except.ok none : Except PyErr (Option (Pts F))) = .ok o := ho
      injection ho with ho
      subst ho
      exact ⟨by simp, by intro _ h; cases h⟩
  exact ⟨z, h1, (on h3).1, (on h4).1, (on h3).2, (on h4).2⟩

/-- a chart whose grid comes out, also without the curve of the solstice (the hypotheses of C96) -/
example : ∃ (env : Env XR) (c : SolarChart XR) (d : Grid XR) (g : FlagGrid XR), drawSolarGrid env c [] [] [] [] = .ok d ∧
    drawSolarGridWith env c [] [] [] [] (.other "1") .pyTrue = .ok g ∧ g.solstice = none ∧ g.filled = none ∧ g.equinox = some d.equinox := by
  obtain ⟨r, hr⟩ := C56_returns (⟨exWorld, 0, fun _ => .ok utcZone⟩ : Env XR) (φ := 36.7) (l := -4.5) (by norm_num) (by norm_num) 1577836800000000000 true none rfl
  unfold makeSolarChart at hr
  obtain ⟨c, hc, hr⟩ := bind_ok hr
  obtain ⟨d, hd, -⟩ := bind_ok hr
  obtain ⟨g, k1, k2, k3, k4, k5, k6, k7, k8⟩ := C96_flags hd (.other "1") .pyTrue
  exact ⟨_, c, d, g, hd, k1, by simpa using k6, by simpa using k8, by simpa using k7⟩

end SW.Props
