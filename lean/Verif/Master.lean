/-
What a call of `sites`, `regular_grid` or `transect` returns, cell by cell.
Everything here is for an arbitrary `Scalar F`, in particular for IEEE floating point arithmetic.
-/
import Verif.Sunpos

namespace SW

/-- the seven engine modules of `libspa` -/
inductive Backend where
  | psaPy | psaNe | soltrackPy | soltrackNe | iqbalPy | iqbalNe | nrelNe
  deriving DecidableEq, Repr

/-- the (algorithm, engine) pairs of the documentation -/
def Backend.ofNames : String → String → Option Backend
  | "psa", "numpy" => some .psaPy
  | "psa", "numexpr" => some .psaNe
  | "soltrack", "numpy" => some .soltrackPy
  | "soltrack", "numexpr" => some .soltrackNe
  | "iqbal", "numpy" => some .iqbalPy
  | "iqbal", "numexpr" => some .iqbalNe
  | "nrel", "numexpr" => some .nrelNe
  | _, _ => none

/-- dimension along which the latitudes of a use case lie -/
def UseCase.latDim : UseCase → Dim
  | .sites => .location | .regularGrid => .latitude | .transect => .time
/-- dimension along which the longitudes of a use case lie -/
def UseCase.lonDim : UseCase → Dim
  | .sites => .location | .regularGrid => .longitude | .transect => .time
/-- the length conditions of a use case -/
def UseCase.lenOk (uc : UseCase) (nT nLat nLon : Nat) : Prop :=
  match uc with
  | .sites => nLat = nLon
  | .regularGrid => True
  | .transect => nLat = nLon ∧ nLon = nT

variable {F : Type} [Scalar F]

/-- the program of one cell: the code of the module with all arrays reduced to one element
(`libspa/*.py`, the three paths of each module) -/
def Backend.cell (b : Backend) (uc : UseCase) (t : Int) (lon lat : F) (r : Bool) : Out F :=
  match b with
  | .psaPy => Psa.cellPy t lon lat r
  | .psaNe => Psa.cellNe t lon lat r
  | .soltrackPy => Soltrack.cellPy t lon lat r
  | .soltrackNe => Soltrack.cellNe (decide (uc = .sites)) t lon lat r
  | .iqbalPy => Iqbal.cellPy t lon lat r
  | .iqbalNe => Iqbal.cellNe (decide (uc ≠ .transect)) t lon lat r
  | .nrelNe => Nrel.cell t lon lat r

/-- the module itself -/
def Backend.module (b : Backend) : Module F :=
  match b with
  | .psaPy => ⟨Psa.py1, Psa.py2, Psa.py3⟩
  | .psaNe => ⟨Psa.ne1, Psa.ne2, Psa.ne3⟩
  | .soltrackPy => ⟨Soltrack.py1, Soltrack.py2, Soltrack.py3⟩
  | .soltrackNe => ⟨Soltrack.ne1, Soltrack.ne2, Soltrack.ne3⟩
  | .iqbalPy => ⟨Iqbal.py1, Iqbal.py2, Iqbal.py3⟩
  | .iqbalNe => ⟨Iqbal.ne1, Iqbal.ne2, Iqbal.ne3⟩
  | .nrelNe => ⟨Nrel.ne1, Nrel.ne2, Nrel.ne3⟩

theorem ofNames_iff {a e : String} {b : Backend} : Backend.ofNames a e = some b ↔
    (a, e) = match b with
      | .psaPy => ("psa", "numpy") | .psaNe => ("psa", "numexpr")
      | .soltrackPy => ("soltrack", "numpy") | .soltrackNe => ("soltrack", "numexpr")
      | .iqbalPy => ("iqbal", "numpy") | .iqbalNe => ("iqbal", "numexpr")
      | .nrelNe => ("nrel", "numexpr") := by
  constructor
  · intro h
    unfold Backend.ofNames at h
    split at h <;> simp at h <;> subst h <;> rfl
  · intro h
    cases b <;> simp at h <;> obtain ⟨rfl, rfl⟩ := h <;> rfl

theorem lookup_cons' {β : Type _} (k a : String) (v : β) (l : List (String × β)) :
    List.lookup k ((a, v) :: l) = if k = a then some v else l.lookup k := by
  by_cases h : k = a
  · subst h; simp [List.lookup]
  · simp [List.lookup, h, beq_eq_false_iff_ne.mpr h]

theorem findModule_eq (a e : String) : findModule (F := F) a e =
    match Backend.ofNames a e with
    | some b => .ok b.module
    | none => .error .valueError := by
  by_cases h1 : a = "psa"
  · subst h1
    by_cases h2 : e = "numpy"
    · subst h2; rfl
    by_cases h3 : e = "numexpr"
    · subst h3; rfl
    · have : Backend.ofNames "psa" e = none := by
        unfold Backend.ofNames; split <;> simp_all
      simp [findModule, algorithms, lookup_cons', h2, h3, this]
  by_cases h1' : a = "soltrack"
  · subst h1'
    by_cases h2 : e = "numpy"
    · subst h2; rfl
    by_cases h3 : e = "numexpr"
    · subst h3; rfl
    · have : Backend.ofNames "soltrack" e = none := by
        unfold Backend.ofNames; split <;> simp_all
      simp [findModule, algorithms, lookup_cons', h2, h3, this]
  by_cases h1'' : a = "iqbal"
  · subst h1''
    by_cases h2 : e = "numpy"
    · subst h2; rfl
    by_cases h3 : e = "numexpr"
    · subst h3; rfl
    · have : Backend.ofNames "iqbal" e = none := by
        unfold Backend.ofNames; split <;> simp_all
      simp [findModule, algorithms, lookup_cons', h2, h3, this]
  by_cases h1''' : a = "nrel"
  · subst h1'''
    by_cases h3 : e = "numexpr"
    · subst h3; rfl
    · have : Backend.ofNames "nrel" e = none := by
        unfold Backend.ofNames; split <;> simp_all
      simp [findModule, algorithms, lookup_cons', h3, this]
  · have : Backend.ofNames a e = none := by
      unfold Backend.ofNames; split <;> simp_all
    simp [findModule, algorithms, lookup_cons', h1, h1', h1'', h1''', this]

/-- the time-only outputs do not see the coordinates, the refraction or the use case -/
theorem Backend.cell_time (b : Backend) (uc uc' : UseCase) (t : Int) (lon lat lon' lat' : F)
    (r r' : Bool) :
    (b.cell uc t lon lat r).ecf = (b.cell uc' t lon' lat' r').ecf ∧
    (b.cell uc t lon lat r).eot = (b.cell uc' t lon' lat' r').eot ∧
    (b.cell uc t lon lat r).declination = (b.cell uc' t lon' lat' r').declination := by
  cases b <;> exact ⟨rfl, rfl, rfl⟩

section good
variable {ts : Arr Int} {lon lat : Arr F} {K J I k j i : Nat} {t : Int} {x y : F}

theorem Backend.shape1 (b : Backend) (ht : ts.rs = [K]) (hx : lon.rs = [K]) (hy : lat.rs = [K])
    (r : Bool) : OutShape (b.module.dim1 ts lon lat r) [K] K := by
  cases b
  · exact Psa.py1_shape ht hx hy r
  · exact Psa.ne1_shape ht hx hy r
  · exact Soltrack.py1_shape ht hx hy r
  · exact Soltrack.ne1_shape ht hx hy r
  · exact Iqbal.py1_shape ht hx hy r
  · exact Iqbal.ne1_shape ht hx hy r
  · exact Nrel.ne1_shape ht hx hy r

theorem Backend.shape2 (b : Backend) (ht : ts.rs = [K]) (hx : lon.rs = [J]) (hy : lat.rs = [J])
    (r : Bool) : OutShape (b.module.dim2 ts lon lat r) [J, K] K := by
  cases b
  · exact Psa.py2_shape ht hx hy r
  · exact Psa.ne2_shape ht hx hy r
  · exact Soltrack.py2_shape ht hx hy r
  · exact Soltrack.ne2_shape ht hx hy r
  · exact Iqbal.py2_shape ht hx hy r
  · exact Iqbal.ne2_shape ht hx hy r
  · exact Nrel.ne2_shape ht hx hy r

theorem Backend.shape3 (b : Backend) (ht : ts.rs = [K]) (hx : lon.rs = [I]) (hy : lat.rs = [J])
    (r : Bool) : OutShape (b.module.dim3 ts lon lat r) [I, J, K] K := by
  cases b
  · exact Psa.py3_shape ht hx hy r
  · exact Psa.ne3_shape ht hx hy r
  · exact Soltrack.py3_shape ht hx hy r
  · exact Soltrack.ne3_shape ht hx hy r
  · exact Iqbal.py3_shape ht hx hy r
  · exact Iqbal.ne3_shape ht hx hy r
  · exact Nrel.ne3_shape ht hx hy r

theorem Backend.lift1 (b : Backend) (ht : Lift [K] [k] ts t) (hx : Lift [K] [k] lon x)
    (hy : Lift [K] [k] lat y) (r : Bool) :
    LiftOut [K] [k] [K] [k] (b.module.dim1 ts lon lat r) (b.cell .transect t x y r) := by
  cases b
  · exact Psa.py1_lift ht hx hy
  · exact Psa.ne1_lift ht hx hy
  · exact Soltrack.py1_lift ht hx hy
  · exact Soltrack.ne1_lift ht hx hy
  · exact Iqbal.py1_lift ht hx hy
  · exact Iqbal.ne1_lift ht hx hy
  · exact Nrel.ne1_lift ht hx hy

theorem Backend.lift2 (b : Backend) (ht : Lift [K] [k] ts t) (hx : Lift [J] [j] lon x)
    (hy : Lift [J] [j] lat y) (r : Bool) :
    LiftOut [J, K] [j, k] [K] [k] (b.module.dim2 ts lon lat r) (b.cell .sites t x y r) := by
  cases b
  · exact Psa.py2_lift ht hx hy
  · exact Psa.ne2_lift ht hx hy
  · exact Soltrack.py2_lift ht hx hy
  · exact Soltrack.ne2_lift ht hx hy
  · exact Iqbal.py2_lift ht hx hy
  · exact Iqbal.ne2_lift ht hx hy
  · exact Nrel.ne2_lift ht hx hy

theorem Backend.lift3 (b : Backend) (ht : Lift [K] [k] ts t) (hx : Lift [I] [i] lon x)
    (hy : Lift [J] [j] lat y) (r : Bool) :
    LiftOut [I, J, K] [i, j, k] [K] [k] (b.module.dim3 ts lon lat r)
      (b.cell .regularGrid t x y r) := by
  cases b
  · exact Psa.py3_lift ht hx hy
  · exact Psa.ne3_lift ht hx hy
  · exact Soltrack.py3_lift ht hx hy
  · exact Soltrack.ne3_lift ht hx hy
  · exact Iqbal.py3_lift ht hx hy
  · exact Iqbal.ne3_lift ht hx hy
  · exact Nrel.ne3_lift ht hx hy
end good


/-- `ndim` used by a use case -/
def UseCase.ndim : UseCase → Int
  | .sites => 1 | .regularGrid => 2 | .transect => 0
/-- shape of the location-dependent results, innermost axis first -/
def UseCase.shape (uc : UseCase) (nT nLat nLon : Nat) : List Nat :=
  match uc with
  | .sites => [nLat, nT] | .regularGrid => [nLon, nLat, nT] | .transect => [nT]
/-- index of a cell -/
def UseCase.index (uc : UseCase) (e : Dim → Nat) : List Nat :=
  match uc with
  | .sites => [e .location, e .time] | .regularGrid => [e .longitude, e .latitude, e .time]
  | .transect => [e .time]

/-- no value is outside `[-180, 180)` -/
def LonOk (l : List F) : Prop :=
  ∀ x ∈ l, Scalar.isNan x = false → Scalar.leB (-180) x = true ∧ Scalar.ltB x 180.0 = true
/-- no value is outside `[-90, 90]` -/
def LatOk (l : List F) : Prop :=
  ∀ x ∈ l, Scalar.isNan x = false → Scalar.leB (-90) x = true ∧ Scalar.leB x 90.0 = true

/-- the five values of a cell whose time stamp is `o` (`none` = NaT) -/
def Backend.valueAt (b : Backend) (uc : UseCase) (o : Option Int) (lon lat : F) (r : Bool) :
    Out F :=
  match o with
  | none => ⟨Num.nan, Num.nan, Num.nan, Num.nan, Num.nan⟩
  | some t => b.cell uc (toSec t) lon lat r

theorem notNan_all (l : List F) (p : F → Bool) :
    (notNan l).all p = true ↔ ∀ x ∈ l, Scalar.isNan x = false → p x = true := by
  simp only [notNan, List.all_filter, List.all_eq_true]
  refine forall_congr' fun x => forall_congr' fun _ => ?_
  cases Scalar.isNan x <;> simp

theorem lonCheck_iff (l : List F) :
    (!((notNan l).all (fun x => Scalar.leB (-180) x)
          && (notNan l).all (fun x => Scalar.ltB x 180.0))) = false ↔ LonOk l := by
  rw [Bool.not_eq_false', Bool.and_eq_true, notNan_all, notNan_all]
  constructor
  · intro h x hx hn; exact ⟨h.1 x hx hn, h.2 x hx hn⟩
  · intro h; exact ⟨fun x hx hn => (h x hx hn).1, fun x hx hn => (h x hx hn).2⟩

theorem latCheck_iff (l : List F) :
    (!((notNan l).all (fun x => Scalar.leB (-90) x)
          && (notNan l).all (fun x => Scalar.leB x 90.0))) = false ↔ LatOk l := by
  rw [Bool.not_eq_false', Bool.and_eq_true, notNan_all, notNan_all]
  constructor
  · intro h x hx hn; exact ⟨h.1 x hx hn, h.2 x hx hn⟩
  · intro h; exact ⟨fun x hx hn => (h x hx hn).1, fun x hx hn => (h x hx hn).2⟩

/-! ### mask and scatter -/

theorem filter_len (ts : List (Option Int)) :
    (ts.filter Option.isSome).length = (ts.filterMap id).length := by
  induction ts with
  | nil => rfl
  | cons a ts ih => cases a <;> simp [ih]

theorem rank_get {ts : List (Option Int)} {k : Nat} {t : Int} (h : ts[k]? = some (some t)) :
    (ts.filterMap id)[maskRank ts k]? = some t := by
  induction ts generalizing k with
  | nil => simp at h
  | cons a ts ih =>
    cases k with
    | zero => simp at h; subst h; simp [maskRank]
    | succ k =>
      have := ih (by simpa using h)
      cases a <;> simpa [maskRank] using this

theorem maskSel_length {α : Type} {ts : List (Option Int)} {l : List α}
    (hl : ts.length = l.length) : (maskSel ts l).length = (ts.filterMap id).length := by
  induction ts generalizing l with
  | nil => simp [maskSel]
  | cons a ts ih =>
    cases l with
    | nil => simp at hl
    | cons x l => cases a <;> simp [maskSel, ih (l := l) (by simpa using hl)]

theorem maskSel_get {α : Type} {ts : List (Option Int)} {l : List α} {k : Nat} {t : Int}
    (hl : ts.length = l.length) (h : ts[k]? = some (some t)) :
    (maskSel ts l)[maskRank ts k]? = l[k]? := by
  induction ts generalizing k l with
  | nil => simp at h
  | cons a ts ih =>
    cases l with
    | nil => simp at hl
    | cons x l =>
      cases k with
      | zero => simp at h; subst h; simp [maskRank, maskSel]
      | succ k =>
        have := ih (l := l) (by simpa using hl) (by simpa using h)
        cases a <;> simpa [maskRank, maskSel] using this

theorem fits_self (sh : List Nat) : fits sh sh = true := by
  induction sh with
  | nil => rfl
  | cons d ds ih => simp [fits, ih]

theorem clip_of_lt {rs i : List Nat} (h : List.Forall₂ (· < ·) i rs) : clip rs i = i := by
  induction h with
  | nil => rfl
  | @cons a b as bs hab _ ih =>
    simp only [clip, ih]
    split_ifs with h1
    · subst h1; congr 1; omega
    · rfl

theorem scatter_ok {ts : List (Option Int)} {inner : List Nat} {v : Arr F}
    (h : v.rs = inner ++ [(ts.filterMap id).length]) :
    ∃ a, scatter ts inner v = .ok a ∧ a.rs = inner ++ [ts.length] ∧
      ∀ idx k, List.Forall₂ (· < ·) idx inner → k < ts.length →
        a.at' (idx ++ [k]) = match (ts[k]?).getD none with
          | some _ => v.at' (idx ++ [maskRank ts k])
          | none => Num.nan := by
  refine ⟨_, by unfold scatter; rw [if_pos (by rw [h, filter_len]; exact fits_self _)], rfl, ?_⟩
  intro idx k hi hk
  have hc : clip (inner ++ [ts.length]) (idx ++ [k]) = idx ++ [k] :=
    clip_of_lt (List.rel_append hi (by simpa using hk))
  have hlen : idx.length = inner.length := hi.length_eq
  have h1 : (idx ++ [k]).getD inner.length 0 = k := by
    rw [← hlen]; simp
  have h2 : (idx ++ [k]).take inner.length = idx := by
    rw [← hlen]; simp
  simp only [Arr.at', hc, h1, h2]
  cases (ts[k]?).getD none <;> simp


/-! ### evaluate -/

/-- the five arrays returned by `evaluate`, cell by cell -/
structure EvalSpec (ev : Eval F) (b : Backend) (uc : UseCase) (stamps : List (Option Int))
    (lat lon : List F) (r : Bool) : Prop where
  ecf_rs : ev.ecf.rs = [stamps.length]
  eot_rs : ev.eot.rs = [stamps.length]
  dec_rs : ev.declination.rs = [stamps.length]
  zen_rs : ev.zenith.rs = uc.shape stamps.length lat.length lon.length
  azi_rs : ev.azimuth.rs = uc.shape stamps.length lat.length lon.length
  time : ∀ k, k < stamps.length → ∀ x y,
    ev.ecf.at' [k] = (b.valueAt uc ((stamps[k]?).getD none) x y r).ecf ∧
    ev.eot.at' [k] = (b.valueAt uc ((stamps[k]?).getD none) x y r).eot ∧
    ev.declination.at' [k] = (b.valueAt uc ((stamps[k]?).getD none) x y r).declination
  cell : ∀ e : Dim → Nat, e .time < stamps.length → e uc.latDim < lat.length →
    e uc.lonDim < lon.length →
    ev.zenith.at' (uc.index e) = (b.valueAt uc ((stamps[e .time]?).getD none)
      (lon.getD (e uc.lonDim) Num.nan) (lat.getD (e uc.latDim) Num.nan) r).zenith ∧
    ev.azimuth.at' (uc.index e) = (b.valueAt uc ((stamps[e .time]?).getD none)
      (lon.getD (e uc.lonDim) Num.nan) (lat.getD (e uc.latDim) Num.nan) r).azimuth

omit [Scalar F] in
theorem lift_ofList_any (d : F) (l : List F) (k : Nat) :
    Lift [l.length] [k] (Arr.ofList d l) ((Arr.ofList d l).at' [k]) :=
  ⟨rfl, by simp [Arr.ofList, fits], rfl⟩
theorem lift_ofListI_any (l : List Int) (k : Nat) :
    Lift [l.length] [k] (Arr.ofList 0 l) ((Arr.ofList 0 l).at' [k]) :=
  ⟨rfl, by simp [Arr.ofList, fits], rfl⟩

theorem lift_get {α : Type} {d : α} {l : List α} {k : Nat} {x : α} (h : l[k]? = some x) :
    Lift [l.length] [k] (Arr.ofList d l) x := by
  obtain ⟨hk, rfl⟩ := List.getElem?_eq_some_iff.1 h
  exact Lift.ofList d l k hk

omit [Scalar F] in
theorem LiftOut.allOk {sh i sht it : List Nat} {a : Out (Arr F)} {o : Out F}
    (h : LiftOut sh i sht it a o) : a.guard = .ok a := by
  simp [Out.guard, Out.allOk, h.zenith.ok, h.azimuth.ok, h.ecf.ok, h.declination.ok, h.eot.ok]

theorem checkTimeLatLon_ok {times : Times} {lat lon : List F} {uc : UseCase}
    (hn : times.nested = false) (hlon : LonOk lon) (hlat : LatOk lat)
    (hlen : uc.lenOk times.stamps.length lat.length lon.length) :
    checkTimeLatLon times (.vec lat) (.vec lon) uc.ndim =
      .ok (times.stamps.map (Option.map toSec), lat, lon) := by
  unfold checkTimeLatLon
  rw [← lonCheck_iff] at hlon
  rw [← latCheck_iff] at hlat
  simp only [hn, Bool.false_eq_true, if_false, Coord.flat?, hlon, hlat]
  cases uc <;> simp [UseCase.ndim, UseCase.lenOk] at * <;> omega

theorem stamps_getD (l : List (Option Int)) (k : Nat) :
    ((l.map (Option.map toSec))[k]?).getD none = Option.map toSec ((l[k]?).getD none) := by
  rw [List.getElem?_map]; cases l[k]? <;> rfl

theorem getElem?_of_getD {l : List (Option Int)} {k : Nat} {t : Int}
    (h : (l[k]?).getD none = some t) : l[k]? = some (some t) := by
  cases h' : l[k]? with
  | none => simp [h'] at h
  | some o => simp [h'] at h; rw [h]

theorem getElem?_getD_nan {l : List F} {k : Nat} (h : k < l.length) :
    l[k]? = some (l.getD k Num.nan) := by
  simp [List.getD_eq_getElem?_getD, h]

theorem sunpos_dim1 (m : Module F) (ts : List Int) (lon lat : List F) (refr : PyVal)
    (h : ts.length = lon.length) (h' : lon.length = lat.length) :
    m.sunpos ts lon lat 0 refr = (m.dim1 (Arr.ofList 0 ts) (Arr.ofList Num.nan lon)
      (Arr.ofList Num.nan lat) refr.isTrue).guard := by
  unfold Module.sunpos; simp [h, h']
theorem sunpos_dim2 (m : Module F) (ts : List Int) (lon lat : List F) (refr : PyVal)
    (h : lon.length = lat.length) :
    m.sunpos ts lon lat 1 refr = (m.dim2 (Arr.ofList 0 ts) (Arr.ofList Num.nan lon)
      (Arr.ofList Num.nan lat) refr.isTrue).guard := by
  unfold Module.sunpos; simp [h]
theorem sunpos_dim3 (m : Module F) (ts : List Int) (lon lat : List F) (refr : PyVal) :
    m.sunpos ts lon lat 2 refr = (m.dim3 (Arr.ofList 0 ts) (Arr.ofList Num.nan lon)
      (Arr.ofList Num.nan lat) refr.isTrue).guard := by
  unfold Module.sunpos; simp

theorem evaluate_ok {times : Times} {lat lon : List F} {uc : UseCase} {alg eng : String}
    {b : Backend} (refr : PyVal)
    (hb : Backend.ofNames alg eng = some b)
    (hn : times.nested = false) (hlon : LonOk lon) (hlat : LatOk lat)
    (hlen : uc.lenOk times.stamps.length lat.length lon.length) :
    ∃ ev, evaluate times (.vec lat) (.vec lon) alg uc.ndim refr eng = .ok ev ∧
      EvalSpec ev b uc times.stamps lat lon refr.isTrue := by
  have hc := checkTimeLatLon_ok hn hlon hlat hlen
  have hfm : findModule (F := F) alg eng = .ok b.module := by rw [findModule_eq, hb]
  set ts := times.stamps.map (Option.map toSec) with hts
  have hL : ts.length = times.stamps.length := by simp [hts]
  -- the engine module succeeds, with the right shapes and cells
  obtain ⟨res, hres, hS, hcell⟩ : ∃ res : Out (Arr F),
      b.module.sunpos (ts.filterMap id)
        (if uc.ndim = 0 then maskSel ts lon else lon) (if uc.ndim = 0 then maskSel ts lat else lat)
        uc.ndim refr = .ok res ∧
      OutShape res (uc.shape (ts.filterMap id).length lat.length lon.length)
        (ts.filterMap id).length ∧
      (∀ k t, ts[k]? = some (some t) → ∀ x y,
        res.ecf.at' [maskRank ts k] = (b.cell uc t x y refr.isTrue).ecf ∧
        res.eot.at' [maskRank ts k] = (b.cell uc t x y refr.isTrue).eot ∧
        res.declination.at' [maskRank ts k] = (b.cell uc t x y refr.isTrue).declination) ∧
      (∀ (e : Dim → Nat) t, ts[e .time]? = some (some t) → e uc.latDim < lat.length →
        e uc.lonDim < lon.length →
        let e' : Dim → Nat := Function.update e .time (maskRank ts (e .time))
        res.zenith.at' (uc.index e') = (b.cell uc t
          (lon.getD (e uc.lonDim) Num.nan) (lat.getD (e uc.latDim) Num.nan) refr.isTrue).zenith ∧
        res.azimuth.at' (uc.index e') = (b.cell uc t
          (lon.getD (e uc.lonDim) Num.nan) (lat.getD (e uc.latDim) Num.nan) refr.isTrue).azimuth) := by
    cases uc with
    | sites =>
      simp only [UseCase.lenOk] at hlen
      refine ⟨b.module.dim2 (Arr.ofList 0 (ts.filterMap id)) (Arr.ofList Num.nan lon)
        (Arr.ofList Num.nan lat) refr.isTrue, ?_, ?_, ?_, ?_⟩
      · refine (sunpos_dim2 b.module (ts.filterMap id) lon lat refr hlen.symm).trans ?_
        exact (b.lift2 (K := (ts.filterMap id).length) (J := lat.length) (k := 0) (j := 0)
          (lift_ofListI_any _ _) (hlen ▸ lift_ofList_any Num.nan lon _)
          (lift_ofList_any _ _ _) _).allOk
      · exact b.shape2 rfl (by simp [Arr.ofList, hlen]) rfl _
      · intro k t hk x y
        have := b.lift2 (K := (ts.filterMap id).length) (J := lat.length)
          (k := maskRank ts k) (j := 0) (r := refr.isTrue)
          (lift_get (d := 0) (rank_get hk)) (hlen ▸ lift_ofList_any Num.nan lon 0)
          (lift_ofList_any Num.nan lat 0)
        obtain ⟨h1, h2, h3⟩ := b.cell_time .sites .sites t x y ((Arr.ofList Num.nan lon).at' [0])
          ((Arr.ofList Num.nan lat).at' [0]) refr.isTrue refr.isTrue
        exact ⟨by rw [h1]; exact this.ecf.val, by rw [h2]; exact this.eot.val,
          by rw [h3]; exact this.declination.val⟩
      · intro e t hk hj hi
        simp only [UseCase.latDim, UseCase.lonDim] at hj hi
        have := b.lift2 (K := (ts.filterMap id).length) (J := lat.length)
          (k := maskRank ts (e .time)) (j := e .location) (r := refr.isTrue)
          (lift_get (d := 0) (rank_get hk))
          (hlen ▸ lift_get (d := Num.nan) (getElem?_getD_nan hi))
          (lift_get (d := Num.nan) (getElem?_getD_nan hj))
        exact ⟨this.zenith.val, this.azimuth.val⟩
    | regularGrid =>
      refine ⟨b.module.dim3 (Arr.ofList 0 (ts.filterMap id)) (Arr.ofList Num.nan lon)
        (Arr.ofList Num.nan lat) refr.isTrue, ?_, ?_, ?_, ?_⟩
      · refine (sunpos_dim3 b.module (ts.filterMap id) lon lat refr).trans ?_
        exact (b.lift3 (K := (ts.filterMap id).length) (J := lat.length) (I := lon.length)
          (k := 0) (j := 0) (i := 0)
          (lift_ofListI_any _ _) (lift_ofList_any Num.nan lon _)
          (lift_ofList_any _ _ _) _).allOk
      · exact b.shape3 rfl rfl rfl _
      · intro k t hk x y
        have := b.lift3 (K := (ts.filterMap id).length) (J := lat.length) (I := lon.length)
          (k := maskRank ts k) (j := 0) (i := 0) (r := refr.isTrue)
          (lift_get (d := 0) (rank_get hk)) (lift_ofList_any Num.nan lon 0)
          (lift_ofList_any Num.nan lat 0)
        obtain ⟨h1, h2, h3⟩ := b.cell_time .regularGrid .regularGrid t x y
          ((Arr.ofList Num.nan lon).at' [0])
          ((Arr.ofList Num.nan lat).at' [0]) refr.isTrue refr.isTrue
        exact ⟨by rw [h1]; exact this.ecf.val, by rw [h2]; exact this.eot.val,
          by rw [h3]; exact this.declination.val⟩
      · intro e t hk hj hi
        simp only [UseCase.latDim, UseCase.lonDim] at hj hi
        have := b.lift3 (K := (ts.filterMap id).length) (J := lat.length) (I := lon.length)
          (k := maskRank ts (e .time)) (j := e .latitude) (i := e .longitude) (r := refr.isTrue)
          (lift_get (d := 0) (rank_get hk))
          (lift_get (d := Num.nan) (getElem?_getD_nan hi))
          (lift_get (d := Num.nan) (getElem?_getD_nan hj))
        exact ⟨this.zenith.val, this.azimuth.val⟩
    | transect =>
      simp only [UseCase.lenOk] at hlen
      have l1 : (maskSel ts lon).length = (ts.filterMap id).length :=
        maskSel_length (by omega)
      have l2 : (maskSel ts lat).length = (ts.filterMap id).length :=
        maskSel_length (by omega)
      refine ⟨b.module.dim1 (Arr.ofList 0 (ts.filterMap id)) (Arr.ofList Num.nan (maskSel ts lon))
        (Arr.ofList Num.nan (maskSel ts lat)) refr.isTrue, ?_, ?_, ?_, ?_⟩
      · refine (sunpos_dim1 b.module (ts.filterMap id) (maskSel ts lon) (maskSel ts lat) refr
          (by omega) (by omega)).trans ?_
        exact (b.lift1 (K := (ts.filterMap id).length) (k := 0)
          (lift_ofListI_any _ _) (l1 ▸ lift_ofList_any Num.nan (maskSel ts lon) _)
          (l2 ▸ lift_ofList_any Num.nan (maskSel ts lat) _) _).allOk
      · exact b.shape1 rfl (by simp [Arr.ofList, l1]) (by simp [Arr.ofList, l2]) _
      · intro k t hk x y
        have := b.lift1 (K := (ts.filterMap id).length)
          (k := maskRank ts k) (r := refr.isTrue)
          (lift_get (d := 0) (rank_get hk)) (l1 ▸ lift_ofList_any Num.nan (maskSel ts lon) _)
          (l2 ▸ lift_ofList_any Num.nan (maskSel ts lat) _)
        obtain ⟨h1, h2, h3⟩ := b.cell_time .transect .transect t x y
          ((Arr.ofList Num.nan (maskSel ts lon)).at' [maskRank ts k])
          ((Arr.ofList Num.nan (maskSel ts lat)).at' [maskRank ts k]) refr.isTrue refr.isTrue
        exact ⟨by rw [h1]; exact this.ecf.val, by rw [h2]; exact this.eot.val,
          by rw [h3]; exact this.declination.val⟩
      · intro e t hk hj hi
        simp only [UseCase.latDim, UseCase.lonDim] at hj hi
        have g1 := maskSel_get (l := lon) (by omega) hk
        have g2 := maskSel_get (l := lat) (by omega) hk
        rw [getElem?_getD_nan hi] at g1
        rw [getElem?_getD_nan hj] at g2
        have := b.lift1 (K := (ts.filterMap id).length)
          (k := maskRank ts (e .time)) (r := refr.isTrue)
          (lift_get (d := 0) (rank_get hk)) (l1 ▸ lift_get (d := Num.nan) g1)
          (l2 ▸ lift_get (d := Num.nan) g2)
        exact ⟨this.zenith.val, this.azimuth.val⟩
  obtain ⟨hct, hcc⟩ := hcell
  -- scatter
  let inner : List Nat := match uc with
    | .sites => [lat.length] | .regularGrid => [lon.length, lat.length] | .transect => []
  have hin : ∀ n, uc.shape n lat.length lon.length = inner ++ [n] := by
    intro n; cases uc <;> rfl
  obtain ⟨a1, e1, s1, v1⟩ := scatter_ok (ts := ts) (inner := []) (v := res.ecf) (by simpa using hS.ecf)
  obtain ⟨a2, e2, s2, v2⟩ := scatter_ok (ts := ts) (inner := []) (v := res.eot) (by simpa using hS.eot)
  obtain ⟨a3, e3, s3, v3⟩ := scatter_ok (ts := ts) (inner := []) (v := res.declination)
    (by simpa using hS.declination)
  obtain ⟨a4, e4, s4, v4⟩ := scatter_ok (ts := ts) (inner := inner) (v := res.zenith)
    (by rw [hS.zenith, hin])
  obtain ⟨a5, e5, s5, v5⟩ := scatter_ok (ts := ts) (inner := inner) (v := res.azimuth)
    (by rw [hS.azimuth, hin])
  have hinner : (if uc.ndim = 0 then [] else if uc.ndim = 1 then [lat.length]
      else [lon.length, lat.length]) = inner := by
    cases uc <;> simp [UseCase.ndim, inner]
  have hnd : checkNdim uc.ndim = .ok uc.ndim := by cases uc <;> rfl
  refine ⟨⟨a1, a2, a3, a4, a5⟩, ?_, ?_⟩
  · simp only [evaluate, hfm, hnd, hc, bind, Except.bind, hres, hinner, e1, e2, e3, e4, e5]
    rfl
  · refine ⟨by simpa [hL] using s1, by simpa [hL] using s2, by simpa [hL] using s3,
      by rw [hin, ← hL]; exact s4, by rw [hin, ← hL]; exact s5, ?_, ?_⟩
    · intro k hk x y
      have w1 := v1 [] k .nil (by omega)
      have w2 := v2 [] k .nil (by omega)
      have w3 := v3 [] k .nil (by omega)
      have hg := stamps_getD times.stamps k
      simp only [List.nil_append, ← hts] at w1 w2 w3 hg
      rw [hg] at w1 w2 w3
      cases ho : (times.stamps[k]?).getD none with
      | none =>
        simp only [ho, Option.map_none] at w1 w2 w3
        exact ⟨w1, w2, w3⟩
      | some t =>
        simp only [ho, Option.map_some] at w1 w2 w3 hg
        obtain ⟨z1, z2, z3⟩ := hct k (toSec t) (getElem?_of_getD hg) x y
        exact ⟨w1.trans z1, w2.trans z2, w3.trans z3⟩
    · intro e hk hj hi
      have hg := stamps_getD times.stamps (e .time)
      rw [← hts] at hg
      obtain ⟨idx, hidx, hfa⟩ : ∃ idx, (∀ n, uc.index (Function.update e .time n) = idx ++ [n]) ∧
          List.Forall₂ (· < ·) idx inner := by
        cases uc with
        | sites => exact ⟨[e .location], by intro n; simp [UseCase.index],
            by simpa [inner, UseCase.latDim] using hj⟩
        | regularGrid => exact ⟨[e .longitude, e .latitude], by intro n; simp [UseCase.index],
            by simpa [inner, UseCase.latDim, UseCase.lonDim] using ⟨hi, hj⟩⟩
        | transect => exact ⟨[], by intro n; simp [UseCase.index], by simp [inner]⟩
      have hid0 := hidx (e .time)
      rw [Function.update_eq_self] at hid0
      have w4 := v4 idx (e .time) hfa (by omega)
      have w5 := v5 idx (e .time) hfa (by omega)
      rw [hg] at w4 w5
      rw [hid0]
      cases ho : (times.stamps[e .time]?).getD none with
      | none =>
        simp only [ho, Option.map_none] at w4 w5
        exact ⟨w4, w5⟩
      | some t =>
        simp only [ho, Option.map_some] at w4 w5 hg
        obtain ⟨z1, z2⟩ := hcc e (toSec t) (getElem?_of_getD hg) hj hi
        simp only [hidx] at z1 z2
        exact ⟨w4.trans z1, w5.trans z2⟩


theorem evaluate_error {times : Times} {lat lon : List F} {uc : UseCase} {alg eng : String}
    (refr : PyVal) (hn : times.nested = false)
    (h : Backend.ofNames alg eng = none ∨ ¬ LonOk lon ∨ ¬ LatOk lat) :
    evaluate times (.vec lat) (.vec lon) alg uc.ndim refr eng = .error .valueError := by
  have hnd : checkNdim uc.ndim = .ok uc.ndim := by cases uc <;> rfl
  cases hb : Backend.ofNames alg eng with
  | none =>
    have hfm : findModule (F := F) alg eng = .error .valueError := by rw [findModule_eq, hb]
    simp only [evaluate, hfm, bind, Except.bind]
  | some b =>
    have hfm : findModule (F := F) alg eng = .ok b.module := by rw [findModule_eq, hb]
    have hc : checkTimeLatLon times (.vec lat) (.vec lon) uc.ndim = .error .valueError := by
      unfold checkTimeLatLon
      simp only [hn, Bool.false_eq_true, if_false, Coord.flat?]
      by_cases h1 : LonOk lon
      · have h2 : ¬ LatOk lat := by
          rcases h with h | h | h
          · simp [hb] at h
          · exact absurd h1 h
          · exact h
        rw [← lonCheck_iff] at h1
        rw [← latCheck_iff, Bool.not_eq_false] at h2
        simp only [h1, Bool.false_eq_true, if_false, h2, if_true]
      · rw [← lonCheck_iff, Bool.not_eq_false] at h1
        simp only [h1, if_true]
    simp only [evaluate, hfm, hnd, hc, bind, Except.bind]

/-! ### the use cases -/

/-- the conditions under which a call gets as far as localising its times -/
structure Accepted (uc : UseCase) (times : Times) (latitude longitude : Coord F)
    (alg eng : String) (lat lon : List F) (b : Backend) : Prop where
  nested : times.nested = false
  lat_eq : latitude.flat? = some lat
  lon_eq : longitude.flat? = some lon
  len : uc.lenOk times.stamps.length lat.length lon.length
  names : Backend.ofNames alg eng = some b
  lonOk : LonOk lon
  latOk : LatOk lat

/-- the object returned by a call, attribute by attribute and cell by cell -/
structure Result (s : Sunpos F) (uc : UseCase) (times : Times) (lat lon : List F)
    (alg eng : String) (refr : PyVal) (b : Backend) (utc : List (Option Int)) : Prop where
  usecase : s.usecase = uc
  algorithm : s.algorithm = alg
  engine : s.engine = eng
  refraction : s.refraction = refr
  timezone : s.timezone = timezoneOf times
  times_eq : s.times = times.wall
  timesUtc : s.timesUtc = utc
  latitude : s.latitude = DA.along uc.latDim lat.length (fun j => lat.getD j Num.nan)
  longitude : s.longitude = DA.along uc.lonDim lon.length (fun j => lon.getD j Num.nan)
  ecf_dims : s.ecf.dims = [(.time, times.stamps.length)]
  eot_dims : s.eot.dims = [(.time, times.stamps.length)]
  dec_dims : s.declination.dims = [(.time, times.stamps.length)]
  zen_dims : s.zenith.dims = match uc with
    | .sites => [(.time, times.stamps.length), (.location, lat.length)]
    | .regularGrid =>
      [(.time, times.stamps.length), (.latitude, lat.length), (.longitude, lon.length)]
    | .transect => [(.time, times.stamps.length)]
  azi_dims : s.azimuth.dims = s.zenith.dims
  time : ∀ e : Dim → Nat, e .time < times.stamps.length → ∀ x y,
    s.ecf.get e = (b.valueAt uc ((times.stamps[e .time]?).getD none) x y refr.isTrue).ecf ∧
    s.eot.get e = (b.valueAt uc ((times.stamps[e .time]?).getD none) x y refr.isTrue).eot ∧
    s.declination.get e =
      (b.valueAt uc ((times.stamps[e .time]?).getD none) x y refr.isTrue).declination
  cell : ∀ e : Dim → Nat, e .time < times.stamps.length → e uc.latDim < lat.length →
    e uc.lonDim < lon.length →
    s.zenith.get e = (b.valueAt uc ((times.stamps[e .time]?).getD none)
      (s.longitude.get e) (s.latitude.get e) refr.isTrue).zenith ∧
    s.azimuth.get e = (b.valueAt uc ((times.stamps[e .time]?).getD none)
      (s.longitude.get e) (s.latitude.get e) refr.isTrue).azimuth

theorem init_ok {w : World F} {times : Times} {lat lon : List F} {alg eng : String} {refr : PyVal}
    {uc : UseCase} {ev : Eval F} {b : Backend} {utc : List (Option Int)}
    (hn : times.nested = false) (hu : localizeTimes w times = .ok utc)
    (hlen : uc.lenOk times.stamps.length lat.length lon.length)
    (hev : EvalSpec ev b uc times.stamps lat lon refr.isTrue) :
    ∃ s, Sunpos.init w times lat lon alg eng refr uc ev = .ok s ∧
      Result s uc times lat lon alg eng refr b utc := by
  obtain ⟨h1, h2, h3, h4, h5, h6, h7⟩ := hev
  unfold Sunpos.init
  simp only [hn, Bool.false_eq_true, if_false, hu]
  cases uc with
  | sites =>
    simp only [UseCase.lenOk, UseCase.shape] at hlen h4 h5
    simp only [hlen, beq_self_eq_true, Bool.not_true, Bool.false_eq_true, if_false, h1, h2, h3, h4,
      h5, Bool.and_self]
    refine ⟨_, rfl, ⟨rfl, rfl, rfl, rfl, rfl, rfl, rfl, by simp [UseCase.latDim, hlen], rfl, rfl, rfl, rfl,
      by simp [toDA, hlen], rfl, ?_, ?_⟩⟩
    · intro e he x y; exact h6 _ he x y
    · intro e he hj hi; exact h7 e he hj hi
  | regularGrid =>
    simp only [UseCase.shape] at h4 h5
    simp only [beq_self_eq_true, Bool.not_true, Bool.false_eq_true, if_false, h1, h2, h3, h4,
      h5, Bool.and_self]
    refine ⟨_, rfl, ⟨rfl, rfl, rfl, rfl, rfl, rfl, rfl, rfl, rfl, rfl, rfl, rfl, rfl, rfl, ?_, ?_⟩⟩
    · intro e he x y; exact h6 _ he x y
    · intro e he hj hi; exact h7 e he hj hi
  | transect =>
    simp only [UseCase.lenOk, UseCase.shape] at hlen h4 h5
    have e1 : (times.stamps.length == lat.length && lat.length == lon.length) = true := by
      simp; omega
    simp only [e1, beq_self_eq_true, Bool.not_true, Bool.false_eq_true, if_false, h1, h2, h3, h4,
      h5, Bool.and_self]
    refine ⟨_, rfl, ⟨rfl, rfl, rfl, rfl, rfl, rfl, rfl, rfl, rfl, rfl, rfl, rfl, rfl, rfl, ?_, ?_⟩⟩
    · intro e he x y; exact h6 _ he x y
    · intro e he hj hi; exact h7 e he hj hi

theorem init_error {w : World F} {times : Times} {lat lon : List F} {alg eng : String}
    {refr : PyVal} {uc : UseCase} {ev : Eval F} {e : PyErr}
    (hn : times.nested = false) (hu : localizeTimes w times = .error e) :
    Sunpos.init w times lat lon alg eng refr uc ev = .error e := by
  unfold Sunpos.init
  simp only [hn, Bool.false_eq_true, if_false, hu]

theorem toSec_toNs (t : Int) : toSec (toNs t) = t := by
  unfold toSec toNs; omega

theorem call_core {uc : UseCase} {w : World F} {times : Times} {latitude longitude : Coord F}
    {alg eng : String} {lat lon : List F} {b : Backend} (refr : PyVal)
    (h : Accepted uc times latitude longitude alg eng lat lon b) :
    ∃ ev, call uc w times latitude longitude alg refr eng
        = Sunpos.init w times lat lon alg eng refr uc ev ∧
      EvalSpec ev b uc times.stamps lat lon refr.isTrue := by
  cases uc with
  | sites =>
    have hlen := h.len
    simp only [UseCase.lenOk] at hlen
    obtain ⟨ev, h1, h2⟩ := evaluate_ok (uc := .sites) (times :=
      (Times.mk false none (times.stamps.map (Option.map (fun t => toNs (toSec t)))))) refr h.names rfl
      h.lonOk h.latOk hlen
    refine ⟨ev, ?_, ?_⟩
    · simp only [call, sites, h.nested, Bool.false_eq_true, if_false, h.lat_eq, h.lon_eq, ne_eq, hlen,
        not_true_eq_false]
      have h1' : evaluate (Times.mk false none (times.stamps.map (Option.map (fun t => toNs (toSec t))))) (.vec lat) (.vec lon)
          alg 1 refr eng = .ok ev := h1
      rw [h1']
    · have key : ∀ (k : Nat) (x y : F), b.valueAt .sites
          (((times.stamps.map (Option.map (fun t => toNs (toSec t))))[k]?).getD none) x y refr.isTrue
          = b.valueAt .sites ((times.stamps[k]?).getD none) x y refr.isTrue := by
        intro k x y
        rw [List.getElem?_map]
        rcases times.stamps[k]? with _ | _ | t
        · rfl
        · rfl
        · simp [Backend.valueAt, toSec_toNs]
      refine ⟨by simpa using h2.ecf_rs, by simpa using h2.eot_rs, by simpa using h2.dec_rs,
        by simpa using h2.zen_rs, by simpa using h2.azi_rs, ?_, ?_⟩
      · intro k hk x y
        have := h2.time k (by simpa using hk) x y
        simpa only [key] using this
      · intro e hk hj hi
        have := h2.cell e (by simpa using hk) hj hi
        simpa only [key] using this
  | regularGrid =>
    obtain ⟨ev, h1, h2⟩ := evaluate_ok (uc := .regularGrid) (times := times) refr h.names h.nested
      h.lonOk h.latOk h.len
    refine ⟨ev, ?_, h2⟩
    simp only [call, regularGrid, h.nested, Bool.false_eq_true, if_false, h.lat_eq, h.lon_eq]
    have h1' : evaluate times (.vec lat) (.vec lon) alg 2 refr eng = .ok ev := h1
    rw [h1']
  | transect =>
    have hlen := h.len
    simp only [UseCase.lenOk] at hlen
    obtain ⟨ev, h1, h2⟩ := evaluate_ok (uc := .transect) (times := times) refr h.names h.nested
      h.lonOk h.latOk h.len
    refine ⟨ev, ?_, h2⟩
    simp only [call, transect, h.nested, Bool.false_eq_true, if_false, h.lat_eq, h.lon_eq]
    have h1' : evaluate times (.vec lat) (.vec lon) alg 0 refr eng = .ok ev := h1
    rw [if_neg (by simp [hlen]), h1']

theorem call_ok {uc : UseCase} {w : World F} {times : Times} {latitude longitude : Coord F}
    {alg eng : String} {lat lon : List F} {b : Backend} {utc : List (Option Int)} (refr : PyVal)
    (h : Accepted uc times latitude longitude alg eng lat lon b)
    (hu : localizeTimes w times = .ok utc) :
    ∃ s, call uc w times latitude longitude alg refr eng = .ok s ∧
      Result s uc times lat lon alg eng refr b utc := by
  obtain ⟨ev, h1, h2⟩ := call_core (w := w) refr h
  rw [h1]
  exact init_ok h.nested hu h.len h2

theorem call_localize_error {uc : UseCase} {w : World F} {times : Times}
    {latitude longitude : Coord F} {alg eng : String} {lat lon : List F} {b : Backend} {e : PyErr}
    (refr : PyVal) (h : Accepted uc times latitude longitude alg eng lat lon b)
    (hu : localizeTimes w times = .error e) :
    call uc w times latitude longitude alg refr eng = .error e := by
  obtain ⟨ev, h1, h2⟩ := call_core (w := w) refr h
  rw [h1]
  exact init_error h.nested hu

theorem call_nested {uc : UseCase} {w : World F} {times : Times} {latitude longitude : Coord F}
    {alg eng : String} (refr : PyVal) (h : times.nested = true) :
    call uc w times latitude longitude alg refr eng = .error .typeError := by
  cases uc <;> simp [call, sites, regularGrid, transect, h]

theorem call_rejected {uc : UseCase} {w : World F} {times : Times} {latitude longitude : Coord F}
    {alg eng : String} (refr : PyVal) (hn : times.nested = false)
    (h : ¬ ∃ lat lon b, Accepted uc times latitude longitude alg eng lat lon b) :
    call uc w times latitude longitude alg refr eng = .error .valueError := by
  cases hlat : latitude.flat? with
  | none => cases uc <;> simp [call, sites, regularGrid, transect, hn, hlat]
  | some lat =>
  cases hlon : longitude.flat? with
  | none => cases uc <;> simp [call, sites, regularGrid, transect, hn, hlat, hlon]
  | some lon =>
  by_cases hlen : uc.lenOk times.stamps.length lat.length lon.length
  · have h' : Backend.ofNames alg eng = none ∨ ¬ LonOk lon ∨ ¬ LatOk lat := by
      by_contra hc
      push Not at hc
      obtain ⟨h1, h2, h3⟩ := hc
      obtain ⟨b, hb⟩ := Option.ne_none_iff_exists'.1 h1
      exact h ⟨lat, lon, b, hn, hlat, hlon, hlen, hb, h2, h3⟩
    cases uc with
    | sites =>
      simp only [UseCase.lenOk] at hlen
      have := evaluate_error (uc := .sites) (times :=
        (Times.mk false none (times.stamps.map (Option.map (fun t => toNs (toSec t)))))) refr rfl h'
      have h1 : evaluate (Times.mk false none (times.stamps.map (Option.map (fun t => toNs (toSec t))))) (.vec lat) (.vec lon)
          alg 1 refr eng = .error .valueError := this
      simp only [call, sites, hn, Bool.false_eq_true, if_false, hlat, hlon, ne_eq, hlen,
        not_true_eq_false, h1]
    | regularGrid =>
      have h1 : evaluate times (.vec lat) (.vec lon) alg 2 refr eng = .error .valueError :=
        evaluate_error (uc := .regularGrid) refr hn h'
      simp only [call, regularGrid, hn, Bool.false_eq_true, if_false, hlat, hlon, h1]
    | transect =>
      have h1 : evaluate times (.vec lat) (.vec lon) alg 0 refr eng = .error .valueError :=
        evaluate_error (uc := .transect) refr hn h'
      simp only [call, transect, hn, Bool.false_eq_true, if_false, hlat, hlon, h1, ite_self]
  · cases uc with
    | sites =>
      simp only [UseCase.lenOk] at hlen
      simp [call, sites, hn, hlat, hlon, hlen]
    | regularGrid => simp [UseCase.lenOk] at hlen
    | transect =>
      simp only [UseCase.lenOk] at hlen
      simp [call, transect, hn, hlat, hlon, hlen]

/-- a call that returns was accepted, and returned what `Result` says -/
theorem call_inv {uc : UseCase} {w : World F} {times : Times} {latitude longitude : Coord F}
    {alg eng : String} {refr : PyVal} {s : Sunpos F}
    (h : call uc w times latitude longitude alg refr eng = .ok s) :
    ∃ lat lon b utc, Accepted uc times latitude longitude alg eng lat lon b ∧
      localizeTimes w times = .ok utc ∧ Result s uc times lat lon alg eng refr b utc := by
  cases hn : times.nested with
  | true => rw [call_nested refr hn] at h; cases h
  | false =>
    by_cases ha : ∃ lat lon b, Accepted uc times latitude longitude alg eng lat lon b
    · obtain ⟨lat, lon, b, ha⟩ := ha
      cases hu : localizeTimes w times with
      | error e => rw [call_localize_error refr ha hu] at h; cases h
      | ok utc =>
        obtain ⟨s', h1, h2⟩ := call_ok refr ha hu
        rw [h1] at h
        cases h
        exact ⟨lat, lon, b, utc, ha, rfl, h2⟩
    · rw [call_rejected refr hn ha] at h; cases h

end SW
