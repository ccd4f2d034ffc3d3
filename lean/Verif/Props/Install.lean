/-
C85: which calls work when a dependency is missing.
-/
import Verif.Install
import Verif.Props.Calls

namespace SW.Props
open SW SW.Spec SW.Install

variable {F : Type} [Scalar F]

/-- the table when the modules that need numexpr are `ne`: there, or None -/
def tableWith (ne : Bool) : Table F :=
  let o : Module F → Option (Module F) := fun m => if ne then some m else none
  [("psa", [("numpy", some ⟨Psa.py1, Psa.py2, Psa.py3⟩), ("numexpr", o ⟨Psa.ne1, Psa.ne2, Psa.ne3⟩)]),
   ("soltrack", [("numpy", some ⟨Soltrack.py1, Soltrack.py2, Soltrack.py3⟩), ("numexpr", o ⟨Soltrack.ne1, Soltrack.ne2, Soltrack.ne3⟩)]),
   ("iqbal", [("numpy", some ⟨Iqbal.py1, Iqbal.py2, Iqbal.py3⟩), ("numexpr", o ⟨Iqbal.ne1, Iqbal.ne2, Iqbal.ne3⟩)]),
   ("nrel", [("numexpr", o ⟨Nrel.ne1, Nrel.ne2, Nrel.ne3⟩)])]

theorem importPackage_cases (pk : Packages) :
    (∃ e, (importPackage (F := F) pk) = .error e ∧
      ¬ ((pk "numpy" = .loads ∧ pk "pandas" = .loads ∧ pk "loguru" = .loads ∧ pk "xarray" = .loads) ∧ pk "numexpr" ≠ .otherError)) ∨
    ((importPackage (F := F) pk) = .ok (tableWith (pk "numexpr" = .loads)) ∧
      (pk "numpy" = .loads ∧ pk "pandas" = .loads ∧ pk "loguru" = .loads ∧ pk "xarray" = .loads) ∧ pk "numexpr" ≠ .otherError) := by
  cases h1 : pk "numpy" <;> cases h2 : pk "pandas" <;> cases h3 : pk "loguru" <;> cases h4 : pk "numexpr" <;> cases h5 : pk "xarray" <;>
    simp [importPackage, importAll, loadTable, safeImport, moduleImports, h1, h2, h3, h4, h5, bind, Except.bind, pure, Except.pure,
      tableWith, throw, throwThe, MonadExceptOf.throw]

theorem findIn_eq (ne : Bool) (a e : String) : findIn (F := F) (tableWith ne) a e =
    (findModule a e).map (fun m => if e = "numpy" ∨ ne = true then some m else none) := by
  by_cases h2 : e = "numpy"
  · subst h2
    by_cases g1 : a = "psa"
    · subst g1; cases ne <;> rfl
    by_cases g2 : a = "soltrack"
    · subst g2; cases ne <;> rfl
    by_cases g3 : a = "iqbal"
    · subst g3; cases ne <;> rfl
    by_cases g4 : a = "nrel"
    · subst g4; cases ne <;> rfl
    simp [findIn, findModule, tableWith, algorithms, lookup_cons', g1, g2, g3, g4, Except.map]
  by_cases h3 : e = "numexpr"
  · subst h3
    by_cases g1 : a = "psa"
    · subst g1; cases ne <;> rfl
    by_cases g2 : a = "soltrack"
    · subst g2; cases ne <;> rfl
    by_cases g3 : a = "iqbal"
    · subst g3; cases ne <;> rfl
    by_cases g4 : a = "nrel"
    · subst g4; cases ne <;> rfl
    simp [findIn, findModule, tableWith, algorithms, lookup_cons', g1, g2, g3, g4, Except.map]
  by_cases g1 : a = "psa"
  · subst g1; simp [findIn, findModule, tableWith, algorithms, lookup_cons', h2, h3, Except.map]
  by_cases g2 : a = "soltrack"
  · subst g2; simp [findIn, findModule, tableWith, algorithms, lookup_cons', h2, h3, Except.map]
  by_cases g3 : a = "iqbal"
  · subst g3; simp [findIn, findModule, tableWith, algorithms, lookup_cons', h2, h3, Except.map]
  by_cases g4 : a = "nrel"
  · subst g4; simp [findIn, findModule, tableWith, algorithms, lookup_cons', h2, h3, Except.map]
  simp [findIn, findModule, tableWith, algorithms, lookup_cons', g1, g2, g3, g4, Except.map]

/-- where the module is there, `evaluate` is the `evaluate` of a complete installation -/
theorem evaluateIn_there {ne : Bool} {e : String} (h : e = "numpy" ∨ ne = true) (times : Times) (latitude longitude : Coord F) (a : String)
    (ndim : Int) (r : PyVal) : evaluateIn (tableWith ne) times latitude longitude a ndim r e = evaluate times latitude longitude a ndim r e := by
  unfold evaluateIn evaluate
  rw [findIn_eq]
  simp only [h, if_true]
  cases findModule (F := F) a e <;> rfl

/-- the calls, in terms of `evaluate` -/
theorem callIn_congr {t : Table F} {uc : UseCase} {w : World F} {times : Times} {latitude longitude : Coord F} {a e : String} {r : PyVal}
    (h : ∀ (times : Times) (lat lon : Coord F) (n : Int), evaluateIn t times lat lon a n r e = evaluate times lat lon a n r e) :
    callIn t uc w times latitude longitude a r e = call uc w times latitude longitude a r e := by
  cases uc <;> simp only [callIn, call, sites, regularGrid, transect, h] <;>
    cases latitude.flat? <;> cases longitude.flat? <;> rfl

/-- the arguments are checked before the module is used -/
theorem evaluateIn_error {ne : Bool} {times : Times} {lat lon : List F} {uc : UseCase} {alg eng : String}
    (refr : PyVal) (hn : times.nested = false) (h : Backend.ofNames alg eng = none ∨ ¬ LonOk lon ∨ ¬ LatOk lat) :
    evaluateIn (tableWith ne) times (.vec lat) (.vec lon) alg uc.ndim refr eng = .error .valueError := by
  have hnd : checkNdim uc.ndim = .ok uc.ndim := by cases uc <;> rfl
  cases hb : Backend.ofNames alg eng with
  | none =>
    have hfm : findModule (F := F) alg eng = .error .valueError := by rw [findModule_eq, hb]
    simp only [evaluateIn, findIn_eq, hfm, bind, Except.bind, Except.map]
  | some b =>
    have hfm : findModule (F := F) alg eng = .ok b.module := by rw [findModule_eq, hb]
    have hc : checkTimeLatLon times (.vec lat) (.vec lon) uc.ndim = .error .valueError := by
      unfold checkTimeLatLon
      simp only [hn, Bool.false_eq_true, if_false, Coord.flat?]
      by_cases h1 : LonOk lon
      · have h2 : ¬ LatOk lat := by
          rcases h with h | h | h
          · simp [hb] at h
          · exact absurd h1 h
          · exact h
        rw [← lonCheck_iff] at h1
        rw [← latCheck_iff, Bool.not_eq_false] at h2
        simp only [h1, Bool.false_eq_true, if_false, h2, if_true]
      · rw [← lonCheck_iff, Bool.not_eq_false] at h1
        simp only [h1, if_true]
    simp only [evaluateIn, findIn_eq, hfm, hnd, hc, bind, Except.bind, Except.map]

theorem callIn_rejected {ne : Bool} {uc : UseCase} {w : World F} {times : Times} {latitude longitude : Coord F}
    {alg eng : String} (refr : PyVal) (hn : times.nested = false)
    (h : ¬ ∃ lat lon b, Accepted uc times latitude longitude alg eng lat lon b) :
    callIn (tableWith ne) uc w times latitude longitude alg refr eng = .error .valueError := by
  cases hlat : latitude.flat? with
  | none => cases uc <;> simp [callIn, hn, hlat]
  | some lat =>
  cases hlon : longitude.flat? with
  | none => cases uc <;> simp [callIn, hn, hlat, hlon]
  | some lon =>
  by_cases hlen : uc.lenOk times.stamps.length lat.length lon.length
  · have h' : Backend.ofNames alg eng = none ∨ ¬ LonOk lon ∨ ¬ LatOk lat := by
      by_contra hc
      push Not at hc
      obtain ⟨h1, h2, h3⟩ := hc
      obtain ⟨b, hb⟩ := Option.ne_none_iff_exists'.1 h1
      exact h ⟨lat, lon, b, hn, hlat, hlon, hlen, hb, h2, h3⟩
    cases uc with
    | sites =>
      simp only [UseCase.lenOk] at hlen
      have := evaluateIn_error (ne := ne) (uc := .sites) (times :=
        (Times.mk false none (times.stamps.map (Option.map (fun t => toNs (toSec t)))))) refr rfl h'
      have h1 : evaluateIn (tableWith ne) (Times.mk false none (times.stamps.map (Option.map (fun t => toNs (toSec t))))) (.vec lat) (.vec lon)
          alg 1 refr eng = .error .valueError := this
      simp only [callIn, hn, Bool.false_eq_true, if_false, hlat, hlon, ne_eq, hlen, not_true_eq_false, h1]
    | regularGrid =>
      have h1 : evaluateIn (tableWith ne) times (.vec lat) (.vec lon) alg 2 refr eng = .error .valueError :=
        evaluateIn_error (uc := .regularGrid) refr hn h'
      simp only [callIn, hn, Bool.false_eq_true, if_false, hlat, hlon, h1]
    | transect =>
      have h1 : evaluateIn (tableWith ne) times (.vec lat) (.vec lon) alg 0 refr eng = .error .valueError :=
        evaluateIn_error (uc := .transect) refr hn h'
      simp only [callIn, hn, Bool.false_eq_true, if_false, hlat, hlon, h1, ite_self]
  · cases uc with
    | sites =>
      simp only [UseCase.lenOk] at hlen
      simp [callIn, hn, hlat, hlon, hlen]
    | regularGrid => simp [UseCase.lenOk] at hlen
    | transect =>
      simp only [UseCase.lenOk] at hlen
      simp [callIn, hn, hlat, hlon, hlen]

/-- where the module is missing, acceptable arguments raise AttributeError -/
theorem evaluateIn_missing {times : Times} {lat lon : List F} {uc : UseCase} {alg eng : String} {b : Backend} (refr : PyVal)
    (he : eng ≠ "numpy") (hb : Backend.ofNames alg eng = some b) (hn : times.nested = false) (hlon : LonOk lon) (hlat : LatOk lat)
    (hlen : uc.lenOk times.stamps.length lat.length lon.length) :
    evaluateIn (tableWith false) times (.vec lat) (.vec lon) alg uc.ndim refr eng = .error .attributeError := by
  have hnd : checkNdim uc.ndim = .ok uc.ndim := by cases uc <;> rfl
  have hc := checkTimeLatLon_ok hn hlon hlat hlen
  have hfm : findModule (F := F) alg eng = .ok b.module := by rw [findModule_eq, hb]
  simp [evaluateIn, findIn_eq, hfm, hnd, hc, bind, Except.bind, Except.map, he, throw, throwThe, MonadExceptOf.throw]

theorem callIn_missing {uc : UseCase} {w : World F} {times : Times} {latitude longitude : Coord F}
    {alg eng : String} {lat lon : List F} {b : Backend} (refr : PyVal) (he : eng ≠ "numpy")
    (h : Accepted uc times latitude longitude alg eng lat lon b) :
    callIn (tableWith false) uc w times latitude longitude alg refr eng = .error .attributeError := by
  have hlen := h.len
  cases uc with
  | sites =>
    simp only [UseCase.lenOk] at hlen
    have h1 : evaluateIn (tableWith false) (Times.mk false none (times.stamps.map (Option.map (fun t => toNs (toSec t))))) (.vec lat) (.vec lon)
        alg 1 refr eng = .error .attributeError :=
      evaluateIn_missing (uc := .sites) refr he h.names rfl h.lonOk h.latOk hlen
    simp only [callIn, h.nested, Bool.false_eq_true, if_false, h.lat_eq, h.lon_eq, ne_eq, hlen, not_true_eq_false, h1]
  | regularGrid =>
    have h1 : evaluateIn (tableWith false) times (.vec lat) (.vec lon) alg 2 refr eng = .error .attributeError :=
      evaluateIn_missing (uc := .regularGrid) refr he h.names h.nested h.lonOk h.latOk hlen
    simp only [callIn, h.nested, Bool.false_eq_true, if_false, h.lat_eq, h.lon_eq, h1]
  | transect =>
    have h1 : evaluateIn (tableWith false) times (.vec lat) (.vec lon) alg 0 refr eng = .error .attributeError :=
      evaluateIn_missing (uc := .transect) refr he h.names h.nested h.lonOk h.latOk hlen
    simp only [UseCase.lenOk] at hlen
    simp only [callIn, h.nested, Bool.false_eq_true, if_false, h.lat_eq, h.lon_eq]
    rw [if_neg (by simp [hlen]), h1]

/-! ### C85 -/

/-- C85: the package can be imported exactly when numpy, pandas, loguru and xarray load and importing numexpr loads it or raises ImportError. -/
theorem C85_import (pk : Packages) :
    (∃ t : Table F, importPackage pk = .ok t) ↔
      (pk "numpy" = .loads ∧ pk "pandas" = .loads ∧ pk "loguru" = .loads ∧ pk "xarray" = .loads) ∧ pk "numexpr" ≠ .otherError := by
  rcases importPackage_cases (F := F) pk with ⟨e, h1, h2⟩ | ⟨h1, h2⟩
  · constructor
    · rintro ⟨t, ht⟩; rw [h1] at ht; cases ht
    · intro h; exact absurd h h2
  · exact ⟨fun _ => h2, fun _ => ⟨_, h1⟩⟩

theorem table_eq {pk : Packages} {t : Table F} (h : importPackage pk = .ok t) : t = tableWith (pk "numexpr" = .loads) := by
  rcases importPackage_cases (F := F) pk with ⟨e, h1, -⟩ | ⟨h1, -⟩
  · rw [h1] at h; cases h
  · rw [h1] at h; cases h; rfl

/-- C85: `SPA_ALGORITHMS` is the same whatever could be imported. -/
theorem C85_names {pk : Packages} {t : Table F} (h : importPackage pk = .ok t) :
    spaAlgorithms t = ["psa", "soltrack", "iqbal", "nrel"] := by
  rw [table_eq h]; rfl

/-- C85: with numexpr installed, and without it for the engine numpy, every call does what it does in a complete installation. -/
theorem C85_complete {pk : Packages} {t : Table F} (h : importPackage pk = .ok t) {eng : String}
    (he : eng = "numpy" ∨ pk "numexpr" = .loads) (uc : UseCase) (w : World F) (times : Times) (latitude longitude : Coord F) (alg : String)
    (refr : PyVal) : callIn t uc w times latitude longitude alg refr eng = call uc w times latitude longitude alg refr eng := by
  rw [table_eq h]
  exact callIn_congr fun times lat lon n => evaluateIn_there (by simpa using he) times lat lon alg n refr

/-- C85: without numexpr, no call with another engine than numpy returns; what would return raises AttributeError; what is rejected for its
arguments is rejected the same way: for naive times, AttributeError is raised exactly when a complete installation would return. -/
theorem C85_missing {pk : Packages} {t : Table F} (h : importPackage pk = .ok t) (hx : pk "numexpr" ≠ .loads) {eng : String} (he : eng ≠ "numpy")
    (uc : UseCase) (w : World F) (times : Times) (latitude longitude : Coord F) (alg : String) (refr : PyVal) :
    (∀ s, callIn t uc w times latitude longitude alg refr eng ≠ .ok s) ∧
    ((∃ s, call uc w times latitude longitude alg refr eng = .ok s) →
      callIn t uc w times latitude longitude alg refr eng = .error .attributeError) ∧
    (times.tz = none → (¬ ∃ s, call uc w times latitude longitude alg refr eng = .ok s) →
      callIn t uc w times latitude longitude alg refr eng = call uc w times latitude longitude alg refr eng ∧
      callIn t uc w times latitude longitude alg refr eng ≠ .error .attributeError) := by
  have ht : t = tableWith false := by rw [table_eq h]; simp [hx]
  subst ht
  cases hn : times.nested with
  | true =>
    have h1 : callIn (tableWith false) uc w times latitude longitude alg refr eng = .error .typeError := by
      cases uc <;> simp [callIn, hn]
    have h2 := call_nested (uc := uc) (w := w) (latitude := latitude) (longitude := longitude) (alg := alg) (eng := eng) refr hn
    rw [h1, h2]; simp
  | false =>
    by_cases ha : ∃ lat lon b, Accepted uc times latitude longitude alg eng lat lon b
    · obtain ⟨lat, lon, b, ha⟩ := ha
      rw [callIn_missing (w := w) refr he ha]
      refine ⟨by simp, fun _ => rfl, fun htz hno => ?_⟩
      exfalso
      apply hno
      obtain ⟨s, hs, -⟩ := call_ok (w := w) (utc := times.stamps) refr ha (by simp [localizeTimes, timezoneOf, htz, Times.wall])
      exact ⟨s, hs⟩
    · rw [callIn_rejected (w := w) refr hn ha, call_rejected (w := w) refr hn ha]; simp

/-- C85: with arguments that some call accepts, exactly these pairs work: psa, soltrack and iqbal with numpy, and, if numexpr is there, all
four algorithms with numexpr. -/
theorem C85_usable {pk : Packages} {t : Table F} (h : importPackage pk = .ok t) {uc : UseCase} {w : World F} {times : Times}
    {latitude longitude : Coord F} {alg₀ eng₀ : String} {refr₀ : PyVal} {s₀ : Sunpos F}
    (h₀ : call uc w times latitude longitude alg₀ refr₀ eng₀ = .ok s₀) (alg eng : String) (refr : PyVal) :
    (∃ s, callIn t uc w times latitude longitude alg refr eng = .ok s) ↔
      ((alg = "psa" ∨ alg = "soltrack" ∨ alg = "iqbal") ∧ eng = "numpy") ∨
      ((alg = "psa" ∨ alg = "soltrack" ∨ alg = "iqbal" ∨ alg = "nrel") ∧ eng = "numexpr" ∧ pk "numexpr" = .loads) := by
  by_cases he : eng = "numpy" ∨ pk "numexpr" = .loads
  · rw [C85_complete h he, (C01_dispatch h₀ alg eng refr).1]
    unfold KnownPair
    rcases he with rfl | he <;> simp [*] <;> tauto
  · push Not at he
    have hno := (C85_missing h he.2 he.1 uc w times latitude longitude alg refr).1
    simp [hno, he.1, he.2]

/-! ### the hypotheses are met -/

/-- everything but numexpr installed -/
def noNumexpr : Packages := fun p => if p = "numexpr" then .importError else .loads

example : ∃ t : Table F, importPackage noNumexpr = .ok t := (C85_import _).2 (by decide)

/-- nrel at Greenwich in a complete installation and without numexpr -/
example : ∃ t : Table XR, importPackage noNumexpr = .ok t ∧
    (∃ s, call .sites exWorld exTimes (.scalar (.fin 51)) (.scalar (.fin 0)) "nrel" .pyTrue "numexpr" = .ok s) ∧
    callIn t .sites exWorld exTimes (.scalar (.fin 51)) (.scalar (.fin 0)) "nrel" .pyTrue "numexpr" = .error .attributeError ∧
    ∃ s, callIn t .sites exWorld exTimes (.scalar (.fin 51)) (.scalar (.fin 0)) "psa" .pyTrue "numpy" = .ok s := by
  obtain ⟨t, ht⟩ := (C85_import (F := XR) noNumexpr).2 (by decide)
  have hok : ∀ {a e : String}, KnownPair a e →
      ∃ s, call .sites exWorld exTimes (.scalar (.fin 51)) (.scalar (.fin 0)) a .pyTrue e = .ok s := by
    intro a e hk
    exact C05_naive_returns (uc := .sites) (w := exWorld) (times := exTimes) (lat := [.fin 51]) (lon := [.fin 0])
      .pyTrue rfl rfl rfl rfl (by simp [Lengths]) hk
      (latOk_XR.2 (by simp [LatAdm]; norm_num)) (lonOk_XR.2 (by simp [LonAdm]))
  refine ⟨t, ht, hok (by simp [KnownPair]), ?_, ?_⟩
  · exact (C85_missing ht (by decide) (by decide) _ _ _ _ _ _ _).2.1 (hok (by simp [KnownPair]))
  · rw [C85_complete ht (.inl rfl)]
    exact hok (by simp [KnownPair])

end SW.Props
