/-
C79: labels of the results.
-/
import Verif.Labels
import Verif.Props.Sunrise

namespace SW.Props
open SW SW.Spec Sunpos

/-! ### specification -/

/-- The coordinates of a request: the wall-clock readings of the times; in a regular grid latitudes and longitudes as given; for sites the
positions 0, 1, 2, ... and, along these, latitudes and longitudes; in a transect latitudes and longitudes along the times. -/
def requestCoords {F : Type} (uc : UseCase) (times : Times) (lat lon : List F) : List (Crd F) :=
  match uc with
  | .sites => [⟨.time, .time, times.wall.map .stamp⟩, ⟨.location, .location, (List.range lat.length).map .pos⟩,
      ⟨.latitude, .location, lat.map .num⟩, ⟨.longitude, .location, lon.map .num⟩]
  | .regularGrid => [⟨.time, .time, times.wall.map .stamp⟩, ⟨.latitude, .latitude, lat.map .num⟩, ⟨.longitude, .longitude, lon.map .num⟩]
  | .transect => [⟨.time, .time, times.wall.map .stamp⟩, ⟨.latitude, .time, lat.map .num⟩, ⟨.longitude, .time, lon.map .num⟩]

/-- those of them that are along the dimensions of `d` and, unless it is a transect, are indexes -/
def indexCoords {F G : Type} (uc : UseCase) (d : DA G) (cs : List (Crd F)) : List (Crd F) :=
  cs.filter fun c => d.names.contains c.dim && (c.name == c.dim || uc == .transect)

/-- the labelled computation `a` does not fail, gives the values and dimensions of `d`, and has the coordinates `cs`, each once -/
def Labelled {F G : Type} (a : Except PyErr (LDA F G)) (d : DA G) (cs : List (Crd F)) : Prop :=
  ∃ x, a = .ok x ∧ x.da = d ∧ (x.coords.map (·.name)).Nodup ∧ ∀ c, c ∈ x.coords ↔ c ∈ cs

/-- the same for an angle or a time -/
def LabelledEvent {F : Type} (a : Except PyErr (EventL F)) (d : Event F) (cs : List (Crd F)) (uc : UseCase) : Prop :=
  match d with
  | .angle d => ∃ x, a = .ok (.angle x) ∧ Labelled (.ok x) d (indexCoords uc d cs)
  | .time d => ∃ x, a = .ok (.time x) ∧ Labelled (.ok x) d (indexCoords uc d cs)

/-! ### arithmetic of coherent arrays -/

section coherent
variable {F G H K : Type}

/-- an array whose coordinates are among those of the object (`C`), with an index along each dimension -/
structure Coh (C : Dim → Crd F) (N : List Dim) (x : LDA F G) (d : DA G) : Prop where
  da : x.da = d
  coords : x.coords = N.map C
  dims : ∀ q ∈ d.dims, q.1 ∈ N ∧ (C q.1).dim = q.1 ∧ q.2 = (C q.1).labels.length

/-- a computation that gives such an array -/
def Good (C : Dim → Crd F) (N : List Dim) (a : Except PyErr (LDA F G)) (d : DA G) : Prop := ∃ x, a = .ok x ∧ Coh C N x d

def nameUnion (a b : List Dim) : List Dim := a ++ b.filter fun n => !a.contains n

variable {C : Dim → Crd F} (hC : ∀ n, (C n).name = n)
include hC

theorem coh_index {N : List Dim} {x : LDA F G} {d : DA G} (h : Coh C N x d) (n : Dim) :
    x.index n = none ∨ x.index n = some (C n).labels := by
  unfold LDA.index
  rw [h.coords]
  cases hf : (N.map C).find? fun c => c.name == n && c.dim == n with
  | none => left; rfl
  | some c =>
    right
    have h1 := List.mem_of_find?_eq_some hf
    have h2 := List.find?_some hf
    obtain ⟨m, -, rfl⟩ := List.mem_map.1 h1
    simp only [Bool.and_eq_true, beq_iff_eq, hC] at h2
    rw [h2.1]; rfl

theorem coh_align (ex : Bool) {N M : List Dim} {a : LDA F G} {b : LDA F H} {d1 : DA G} {d2 : DA H} (h1 : Coh C N a d1) (h2 : Coh C M b d2) :
    LDA.align ex a b = .ok (a, b) := by
  have key : ∀ n, LDA.alignDim ex (a, b) n = .ok (a, b) := by
    intro n
    unfold LDA.alignDim
    rcases coh_index hC h1 n with g1 | g1 <;> rcases coh_index hC h2 n with g2 | g2 <;> simp only [g1, g2, if_true]
  have all : ∀ L : List Dim, L.foldlM (LDA.alignDim ex) (a, b) = .ok (a, b) := by
    intro L
    induction L with
    | nil => rfl
    | cons n L ih => rw [List.foldlM_cons, key]; exact ih
  exact all _

theorem coh_map2 (ex : Bool) (f : G → H → K) {N M : List Dim} {a : LDA F G} {b : LDA F H} {d1 : DA G} {d2 : DA H} (h1 : Coh C N a d1)
    (h2 : Coh C M b d2) : Good C (nameUnion N M) (LDA.map2 ex f a b) (DA.map2 f d1 d2) := by
  have hs : LDA.sizesAgree a.da b.da = true := by
    unfold LDA.sizesAgree
    rw [List.all_eq_true]
    intro p hp
    rw [List.all_eq_true]
    intro q hq
    rw [h1.da] at hp
    rw [h2.da] at hq
    by_cases hpq : p.1 = q.1
    · rw [(h1.dims p hp).2.2, (h2.dims q hq).2.2, hpq]; simp
    · have : (p.1 == q.1) = false := by simpa using hpq
      rw [this]; rfl
  unfold LDA.map2
  rw [coh_align hC ex h1 h2]
  refine ⟨⟨LDA.mergeCoords a.coords b.coords, DA.map2 f a.da b.da⟩, ?_, ?_, ?_, ?_⟩
  · show (if LDA.sizesAgree a.da b.da = true then _ else _) = _
    rw [hs]; rfl
  · simp only [h1.da, h2.da]
  · simp only [h1.coords, h2.coords]
    unfold LDA.mergeCoords nameUnion
    rw [List.map_append]
    congr 1
    · rw [List.filter_eq_self]
      intro c hc
      obtain ⟨n, -, rfl⟩ := List.mem_map.1 hc
      simp only [decide_eq_true_eq]
      intro c' hc' hn
      obtain ⟨m, -, rfl⟩ := List.mem_map.1 hc'
      rw [hC, hC] at hn; rw [hn]
    · rw [List.filter_map]
      congr 1
      refine List.filter_congr fun n _ => ?_
      simp only [Function.comp]
      rw [Bool.eq_iff_iff, decide_eq_true_eq, Bool.not_eq_true', List.contains_eq_mem]
      simp only [List.mem_map, forall_exists_index, and_imp, forall_apply_eq_imp_iff₂, hC, decide_eq_false_iff_not]
      constructor
      · intro h hm; exact h n hm rfl
      · intro h m hm hmn; exact h (hmn ▸ hm)
  · intro q hq
    have hq : q ∈ dimUnion d1.dims d2.dims := hq
    unfold dimUnion at hq
    unfold nameUnion
    rw [List.mem_append, List.mem_filter, Bool.not_eq_true', List.contains_eq_mem, decide_eq_false_iff_not]
    rcases List.mem_append.1 hq with hq | hq
    · exact ⟨.inl (h1.dims q hq).1, (h1.dims q hq).2⟩
    · have h := h2.dims q (List.mem_filter.1 hq).1
      exact ⟨by by_cases hm : q.1 ∈ N; exacts [.inl hm, .inr ⟨h.1, hm⟩], h.2⟩

omit hC in
theorem coh_map (f : G → H) {N : List Dim} {a : LDA F G} {d : DA G} (h : Coh C N a d) : Coh C N (a.map f) (d.map f) :=
  ⟨by simp only [LDA.map, h.da], h.coords, h.dims⟩

omit hC in
theorem coh_scalar (x : G) : Coh C [] (LDA.scalar x) (DA.scalar x) := ⟨rfl, rfl, by intro q hq; cases hq⟩

omit hC in
theorem good_map (f : G → H) {N : List Dim} {a : Except PyErr (LDA F G)} {d : DA G} (h : Good C N a d) :
    Good C N (do return (← a).map f) (d.map f) := by
  obtain ⟨x, rfl, hx⟩ := h
  exact ⟨_, rfl, coh_map f hx⟩

theorem good_map2 (ex : Bool) (f : G → H → K) {N M : List Dim} {a : Except PyErr (LDA F G)} {b : Except PyErr (LDA F H)} {d1 : DA G} {d2 : DA H}
    (h1 : Good C N a d1) (h2 : Good C M b d2) : Good C (nameUnion N M) (do LDA.map2 ex f (← a) (← b)) (DA.map2 f d1 d2) := by
  obtain ⟨x, rfl, hx⟩ := h1
  obtain ⟨y, rfl, hy⟩ := h2
  exact coh_map2 hC ex f hx hy

theorem good_map4 (f : G → G → G → G → G) {N M P Q : List Dim} {a b c d : Except PyErr (LDA F G)} {d1 d2 d3 d4 : DA G}
    (h1 : Good C N a d1) (h2 : Good C M b d2) (h3 : Good C P c d3) (h4 : Good C Q d d4) :
    Good C (nameUnion (nameUnion N M) (nameUnion P Q)) (do LDA.map4 f (← a) (← b) (← c) (← d)) (DA.map4 f d1 d2 d3 d4) := by
  obtain ⟨x, rfl, hx⟩ := h1
  obtain ⟨y, rfl, hy⟩ := h2
  obtain ⟨z, rfl, hz⟩ := h3
  obtain ⟨u, rfl, hu⟩ := h4
  obtain ⟨p, hp, hp'⟩ := coh_map2 hC false Prod.mk hx hy
  obtain ⟨q, hq, hq'⟩ := coh_map2 hC true Prod.mk hz hu
  have := coh_map2 hC true (fun (p q : G × G) => f p.1 p.2 q.1 q.2) hp' hq'
  have e : (do LDA.map4 f (← (.ok x : Except PyErr (LDA F G))) (← .ok y) (← .ok z) (← .ok u)) = LDA.map2 true (fun (p q : G × G) => f p.1 p.2 q.1 q.2) p q := by
    show LDA.map4 f x y z u = _
    unfold LDA.map4
    rw [hp, hq]; rfl
  rw [e]; exact this

end coherent

section numops
variable {F : Type} [Num F] {C : Dim → Crd F}

theorem good_scalar (x : F) : Good C [] (.ok (LDA.scalar x)) (DA.scalar x) := ⟨_, rfl, coh_scalar x⟩
theorem good_nat (n : Nat) : Good C [] (@OfNat.ofNat (Except PyErr (LDA F F)) n (instOfNatNum n)) (@OfNat.ofNat (DA F) n (instOfNatNum n)) :=
  ⟨_, rfl, coh_scalar _⟩
theorem good_sci (m : Nat) (b : Bool) (e : Nat) : Good C [] (@OfScientific.ofScientific (Except PyErr (LDA F F)) instOfSciNum m b e)
    (@OfScientific.ofScientific (DA F) instOfSciNum m b e) := ⟨_, rfl, coh_scalar _⟩
theorem good_pi : Good C [] (Num.pi : Except PyErr (LDA F F)) (Num.pi : DA F) := ⟨_, rfl, coh_scalar _⟩
theorem good_nan : Good C [] (Num.nan : Except PyErr (LDA F F)) (Num.nan : DA F) := ⟨_, rfl, coh_scalar _⟩

variable {N M P Q : List Dim} {a b c d : Except PyErr (LDA F F)} {x y z u : DA F}
theorem good_neg (h : Good C N a x) : Good C N (-a) (-x) := good_map (fun x => -x) h
theorem good_sin (h : Good C N a x) : Good C N (Num.sin a) (Num.sin x) := good_map _ h
theorem good_cos (h : Good C N a x) : Good C N (Num.cos a) (Num.cos x) := good_map _ h
theorem good_tan (h : Good C N a x) : Good C N (Num.tan a) (Num.tan x) := good_map _ h
theorem good_arccos (h : Good C N a x) : Good C N (Num.arccos a) (Num.arccos x) := good_map _ h
theorem good_exp (h : Good C N a x) : Good C N (Num.exp a) (Num.exp x) := good_map _ h
theorem good_log (h : Good C N a x) : Good C N (Num.log a) (Num.log x) := good_map _ h
theorem good_add (hC : ∀ n, (C n).name = n) (h : Good C N a x) (h' : Good C M b y) : Good C (nameUnion N M) (a + b) (x + y) :=
  good_map2 hC false (· + ·) h h'
theorem good_sub (hC : ∀ n, (C n).name = n) (h : Good C N a x) (h' : Good C M b y) : Good C (nameUnion N M) (a - b) (x - y) :=
  good_map2 hC false (· - ·) h h'
theorem good_mul (hC : ∀ n, (C n).name = n) (h : Good C N a x) (h' : Good C M b y) : Good C (nameUnion N M) (a * b) (x * y) :=
  good_map2 hC false (· * ·) h h'
theorem good_div (hC : ∀ n, (C n).name = n) (h : Good C N a x) (h' : Good C M b y) : Good C (nameUnion N M) (a / b) (x / y) :=
  good_map2 hC false (· / ·) h h'
theorem good_max (hC : ∀ n, (C n).name = n) (h : Good C N a x) (h' : Good C M b y) : Good C (nameUnion N M) (Num.max2 a b) (Num.max2 x y) :=
  good_map2 hC false Num.max2 h h'
theorem good_rpow (hC : ∀ n, (C n).name = n) (h : Good C N a x) (h' : Good C M b y) : Good C (nameUnion N M) (Num.rpow a b) (Num.rpow x y) :=
  good_map2 hC false Num.rpow h h'
theorem good_whereLe (hC : ∀ n, (C n).name = n) (h : Good C N a x) (h' : Good C M b y) (h'' : Good C P c z) (h3 : Good C Q d u) :
    Good C (nameUnion (nameUnion N M) (nameUnion P Q)) (Num.whereLe a b c d) (Num.whereLe x y z u) :=
  good_map4 hC Num.whereLe h h' h'' h3

theorem Good.names {F G : Type} {C : Dim → Crd F} {N N' : List Dim} {a : Except PyErr (LDA F G)} {x : DA G} (h : Good C N a x) (e : N = N') :
    Good C N' a x := e ▸ h

end numops

/-- closes `Good` goals by the structure of the formula -/
macro "good" hC:ident : tactic => `(tactic| repeat' first
  | assumption
  | exact good_nat _ | exact good_sci _ _ _ | exact good_pi | exact good_nan | exact good_scalar _
  | apply good_add $hC | apply good_sub $hC | apply good_mul $hC | apply good_div $hC | apply good_max $hC | apply good_rpow $hC
  | apply good_whereLe $hC | apply good_neg | apply good_sin | apply good_cos | apply good_tan | apply good_arccos | apply good_exp | apply good_log)

/-! ### the private arrays -/

theorem crd_name {F : Type} (s : Sunpos F) : ∀ n, (s.crd n).name = n := by intro n; cases n <;> rfl

section arrays
variable {F : Type} [Scalar F] {uc : UseCase} {w : World F} {times : Times} {latitude longitude : Coord F} {alg eng : String} {refr : PyVal}
  {s : Sunpos F} {lat lon : List F}

/-- what the labelled arrays of an object are -/
structure Arrays (s : Sunpos F) : Prop where
  lat : Good s.crd s.latNames s.latitudeL s.latitude
  lon : Good s.crd s.lonNames s.longitudeL s.longitude
  ecf : Good s.crd s.timeNames s.ecfL s.ecf
  eot : Good s.crd s.timeNames s.eotL s.eot
  dec : Good s.crd s.timeNames s.declinationL s.declination
  zen : Good s.crd s.posNames s.zenithL s.zenith
  azi : Good s.crd s.posNames s.azimuthL s.azimuth

theorem arrays_of (h : call uc w times latitude longitude alg refr eng = .ok s) (hlat : Holds latitude lat) (hlon : Holds longitude lon) :
    Arrays s := by
  obtain ⟨hz, h1, h2, h3, h4, h5, h6, -, h8⟩ := dims_core h hlat hlon
  obtain ⟨_, _, _, _, hacc, _, hr⟩ := call_inv h
  have hu : s.usecase = uc := hr.usecase
  have ha : s.azimuth.dims = s.zenith.dims := hr.azi_dims
  have nlat : s.nLat = lat.length := by simp [Sunpos.nLat, DA.shape, h4]
  have nlon : s.nLon = lon.length := by simp [Sunpos.nLon, DA.shape, h5]
  have key : ∀ (N : List Dim) (d : DA F), (∀ q ∈ d.dims, q.1 ∈ N ∧ (s.crd q.1).dim = q.1 ∧ q.2 = (s.crd q.1).labels.length) →
      (∀ n ∈ N, ((s.crd n).dim, (s.crd n).labels.length) ∈ d.dims) → Good s.crd N (LDA.make (N.map s.crd) d) d := by
    intro N d hq hn
    refine ⟨⟨N.map s.crd, d⟩, ?_, rfl, rfl, hq⟩
    unfold LDA.make
    rw [if_pos]
    rw [List.all_eq_true]
    intro c hc
    obtain ⟨n, hnN, rfl⟩ := List.mem_map.1 hc
    rw [List.any_eq_true]
    exact ⟨_, hn n hnN, by simp⟩
  subst hu
  cases huc : s.usecase <;> rw [huc] at h4 h5 h8 hz <;> simp only [UseCase.latDim, UseCase.lonDim, UseCase.lenOk, documentedDims] at h4 h5 h8 hz <;>
    constructor <;> refine key _ _ ?_ ?_ <;>
    simp [Sunpos.latNames, Sunpos.lonNames, Sunpos.timeNames, Sunpos.posNames, huc, Sunpos.crd, nlat, nlon, h1, h2, h3, h4, h5, h6, h8, hz, ha] <;> omega

theorem request_eq (h : call uc w times latitude longitude alg refr eng = .ok s) (hlat : Holds latitude lat) (hlon : Holds longitude lon) :
    requestCoords uc times lat lon = s.posNames.map s.crd := by
  obtain ⟨lat', lon', _, _, hacc, _, hr⟩ := call_inv h
  rw [holds_flat, hacc.lat_eq] at hlat
  rw [holds_flat, hacc.lon_eq] at hlon
  obtain rfl := Option.some.inj hlat
  obtain rfl := Option.some.inj hlon
  have nlat : s.nLat = lat'.length := by simp [Sunpos.nLat, DA.shape, hr.latitude, DA.along]
  have nlon : s.nLon = lon'.length := by simp [Sunpos.nLon, DA.shape, hr.longitude, DA.along]
  have key : ∀ (l : List F) (f : F → Label F) d, (List.range l.length).map (fun k => f (l.getD k d)) = l.map f := by
    intro l f d
    refine List.ext_getElem (by simp) fun i h1 h2 => ?_
    simp only [List.length_map, List.length_range] at h1
    simp [List.getD_eq_getElem?_getD, List.getElem?_eq_getElem h1]
  have klat : (List.range s.nLat).map (fun k => Label.num (s.latitude.get fun _ => k)) = lat'.map .num := by
    rw [nlat, hr.latitude]; exact key lat' _ _
  have klon : (List.range s.nLon).map (fun k => Label.num (s.longitude.get fun _ => k)) = lon'.map .num := by
    rw [nlon, hr.longitude]; exact key lon' _ _
  rw [nlat] at klat
  rw [nlon] at klon
  have hu := hr.usecase
  subst hu
  cases huc : s.usecase <;> simp only [requestCoords, Sunpos.posNames, huc, List.map_cons, List.map_nil, Sunpos.crd, klat, klon, hr.times_eq, nlat, nlon]

theorem labelled_all {G : Type} {a : Except PyErr (LDA F G)} {d : DA G} (h : Good s.crd s.posNames a d) : Labelled a d (s.posNames.map s.crd) := by
  obtain ⟨x, rfl, hx⟩ := h
  refine ⟨x, rfl, hx.da, ?_, fun c => by rw [hx.coords]⟩
  rw [hx.coords, List.map_map]
  have : ((fun c : Crd F => c.name) ∘ s.crd) = id := by funext n; exact crd_name s n
  rw [this, List.map_id]
  unfold Sunpos.posNames
  cases s.usecase <;> decide

theorem labelled_index {G : Type} {N : List Dim} {a : Except PyErr (LDA F G)} {d : DA G} (h : Good s.crd N a d) (hn : N.Nodup)
    (hN : ∀ n, n ∈ N ↔ n ∈ s.posNames ∧ (s.crd n).dim ∈ d.names ∧ ((s.crd n).dim = n ∨ s.usecase = .transect)) :
    Labelled a d (indexCoords s.usecase d (s.posNames.map s.crd)) := by
  obtain ⟨x, rfl, hx⟩ := h
  refine ⟨x, rfl, hx.da, ?_, fun c => ?_⟩
  · rw [hx.coords, List.map_map]
    have : ((fun c : Crd F => c.name) ∘ s.crd) = id := by funext n; exact crd_name s n
    rwa [this, List.map_id]
  · rw [hx.coords]
    unfold indexCoords
    simp only [List.mem_map, List.mem_filter, Bool.and_eq_true, Bool.or_eq_true, beq_iff_eq, List.contains_eq_mem, decide_eq_true_eq]
    constructor
    · rintro ⟨n, hn, rfl⟩
      obtain ⟨h1, h2, h3⟩ := (hN n).1 hn
      exact ⟨⟨n, h1, rfl⟩, h2, h3.imp_left fun h => by rw [h, crd_name]⟩
    · rintro ⟨⟨n, h1, rfl⟩, h2, h3⟩
      exact ⟨n, (hN n).2 ⟨h1, h2, h3.imp_left fun h => by rw [← h, crd_name]⟩, rfl⟩

/-- names of the coordinates of `sunrise` in angular units, and of the true solar time -/
def wsrNames (uc : UseCase) : List Dim := match uc with
  | .sites => [.time, .location] | .regularGrid => [.time, .latitude] | .transect => [.time, .latitude, .longitude]
def tstNames (uc : UseCase) : List Dim := match uc with
  | .sites => [.time, .location] | .regularGrid => [.time, .longitude] | .transect => [.time, .latitude, .longitude]
def sunNames (uc : UseCase) : List Dim := match uc with
  | .sites => [.time, .location] | .regularGrid => [.time, .latitude, .longitude] | .transect => [.time, .latitude, .longitude]

theorem dec_good (A : Arrays s) : Good s.crd s.timeNames s.decDegL s.decDeg := by
  have hC := crd_name s
  have := A.dec
  unfold Sunpos.decDegL Sunpos.decDeg degrees
  refine Good.names (by good hC) ?_
  unfold Sunpos.timeNames; cases s.usecase <;> rfl

theorem zen_good (A : Arrays s) : Good s.crd s.posNames s.zenithDegL s.zenithDeg ∧ Good s.crd s.posNames s.azimuthDegL s.azimuthDeg ∧
    Good s.crd s.posNames s.elevationL s.elevation ∧ Good s.crd s.posNames s.coszL s.cosz := by
  have hC := crd_name s
  have h1 := A.zen
  have h2 := A.azi
  refine ⟨?_, ?_, ?_, ?_⟩
  · unfold Sunpos.zenithDegL Sunpos.zenithDeg degrees
    refine Good.names (by good hC) ?_
    unfold Sunpos.posNames; cases s.usecase <;> rfl
  · unfold Sunpos.azimuthDegL Sunpos.azimuthDeg degrees
    refine Good.names (by good hC) ?_
    unfold Sunpos.posNames; cases s.usecase <;> rfl
  · unfold Sunpos.elevationL Sunpos.elevation Sunpos.zenithDegL Sunpos.zenithDeg degrees
    refine Good.names (by good hC) ?_
    unfold Sunpos.posNames; cases s.usecase <;> rfl
  · unfold Sunpos.coszL Sunpos.cosz
    exact good_cos h1

theorem airmass_good (A : Arrays s) (p : String) : (∀ d, s.airmass p = .ok d → Good s.crd s.posNames (s.airmassL p) d) ∧
    ∀ e, s.airmass p = .error e → s.airmassL p = .error e := by
  have hC := crd_name s
  obtain ⟨h1, -, -, h4⟩ := zen_good A
  unfold Sunpos.airmass Sunpos.airmassL
  constructor
  · intro d hd
    split_ifs at hd ⊢ <;> obtain rfl := Except.ok.inj hd
    · unfold amOf recKasten
      refine Good.names (by good hC) ?_
      unfold Sunpos.posNames; cases s.usecase <;> rfl
    · unfold amOf recKastenYoung
      refine Good.names (by good hC) ?_
      unfold Sunpos.posNames; cases s.usecase <;> rfl
    · unfold amOf recGueymard2001
      refine Good.names (by good hC) ?_
      unfold Sunpos.posNames; cases s.usecase <;> rfl
    · unfold amOf recGueymard2003
      refine Good.names (by good hC) ?_
      unfold Sunpos.posNames; cases s.usecase <;> rfl
  · intro e he
    split_ifs at he ⊢ <;> cases he
    rfl

theorem eth_good (A : Arrays s) (isc : F) (c : String) : (∀ d, s.eth isc c = .ok d → Good s.crd s.posNames (s.ethL isc c) d) ∧
    ∀ e, s.eth isc c = .error e → s.ethL isc c = .error e := by
  have hC := crd_name s
  obtain ⟨h1, -, -, h4⟩ := zen_good A
  have h5 := A.ecf
  obtain ⟨k1, hk1, g1⟩ : ∃ d, s.airmass "kasten_and_young_1989" = .ok d ∧ Good s.crd s.posNames (s.airmassL "kasten_and_young_1989") d :=
    ⟨_, rfl, (airmass_good A _).1 _ rfl⟩
  obtain ⟨k2, hk2, g2⟩ : ∃ d, s.airmass "gueymard_2003" = .ok d ∧ Good s.crd s.posNames (s.airmassL "gueymard_2003") d :=
    ⟨_, rfl, (airmass_good A _).1 _ rfl⟩
  have hp : s.posNames = s.posNames := rfl
  unfold Sunpos.eth Sunpos.ethL
  simp only [hk1, hk2]
  constructor
  · intro d hd
    split_ifs at hd ⊢ <;> obtain rfl := Except.ok.inj hd
    · unfold ethOf
      refine Good.names (by good hC) ?_
      unfold Sunpos.posNames Sunpos.timeNames; cases s.usecase <;> rfl
    · unfold ethOf corrPerez
      refine Good.names (by good hC) ?_
      unfold Sunpos.posNames Sunpos.timeNames; cases s.usecase <;> rfl
    · unfold ethOf corrSkartveit
      refine Good.names (by good hC) ?_
      unfold Sunpos.posNames Sunpos.timeNames; cases s.usecase <;> rfl
    · unfold ethOf corrGonzalez
      refine Good.names (by good hC) ?_
      unfold Sunpos.posNames Sunpos.timeNames; cases s.usecase <;> rfl
  · intro e he
    split_ifs at he ⊢ <;> cases he
    rfl

theorem wsr_good (A : Arrays s) : Good s.crd (wsrNames s.usecase) s.wsrL s.wsr := by
  have hC := crd_name s
  have h1 := dec_good A
  have h2 := A.lat
  unfold Sunpos.wsrL Sunpos.wsr wsrRad tantan radians
  refine Good.names (by good hC) ?_
  unfold Sunpos.timeNames Sunpos.latNames; cases s.usecase <;> rfl

theorem tst_good (A : Arrays s) (w : World F) (hl : s.timesUtc.length = s.times.length) :
    Good s.crd (tstNames s.usecase) (s.trueSolarTimeL w) (s.trueSolarTime w) := by
  have hC := crd_name s
  have h1 := A.eot
  have h2 := A.lon
  have hu : Good s.crd [.time] (s.utcFloatL w) (DA.along .time s.timesUtc.length fun k => stampFloat w ((s.timesUtc[k]?).getD none)) := by
    refine ⟨⟨[s.crd .time], _⟩, ?_, rfl, rfl, ?_⟩
    · unfold Sunpos.utcFloatL LDA.make
      rw [if_pos (by simp [DA.along, hl])]; rfl
    · intro q hq
      simp only [DA.along, List.mem_cons, List.not_mem_nil, or_false] at hq
      subst hq
      simp [Sunpos.crd, hl]
  have : Good s.crd (tstNames s.usecase) (s.utcFloatL w + (s.eotL + 4 * s.longitudeL) * 60 * 1e9) (s.tstFloat w) := by
    unfold Sunpos.tstFloat
    refine Good.names (by good hC) ?_
    unfold Sunpos.timeNames Sunpos.lonNames; cases s.usecase <;> rfl
  exact good_map Scalar.toInt this

theorem sunriseTst_good (A : Arrays s) (w : World F) (hl : s.timesUtc.length = s.times.length) :
    Good s.crd (sunNames s.usecase) (s.sunriseTstL w) (s.sunriseTst w) := by
  have hC := crd_name s
  have h1 := wsr_good A
  have h2 := tst_good A w hl
  have h3 : Good s.crd (wsrNames s.usecase) (hoursToNs (wsrHours s.wsrL)) (hoursToNs (wsrHours s.wsr)) := by
    unfold hoursToNs wsrHours degrees
    refine Good.names (by good hC) ?_
    cases s.usecase <;> rfl
  obtain ⟨x1, e1, c1⟩ := h3
  obtain ⟨x2, e2, c2⟩ := h2
  refine Good.names (N := nameUnion (wsrNames s.usecase) (tstNames s.usecase)) ?_ (by cases s.usecase <;> rfl)
  unfold Sunpos.sunriseTstL
  rw [e1, e2]
  exact coh_map2 hC false tadd (coh_map Scalar.toInt c1) (coh_map floorDay c2)

theorem sunriseUtc_good (A : Arrays s) (w : World F) (hl : s.timesUtc.length = s.times.length) :
    Good s.crd (sunNames s.usecase) (s.sunriseUtcL w) (s.sunriseUtc w) := by
  have hC := crd_name s
  have h1 := A.eot
  have h2 := A.lon
  have h3 : Good s.crd (tstNames s.usecase) (minToNs (deltaMin s.eotL s.longitudeL)) (minToNs (deltaMin s.eot s.longitude)) := by
    unfold minToNs deltaMin
    refine Good.names (by good hC) ?_
    unfold Sunpos.timeNames Sunpos.lonNames; cases s.usecase <;> rfl
  obtain ⟨x1, e1, c1⟩ := sunriseTst_good A w hl
  obtain ⟨x2, e2, c2⟩ := h3
  refine Good.names (N := nameUnion (sunNames s.usecase) (tstNames s.usecase)) ?_ (by cases s.usecase <;> rfl)
  unfold Sunpos.sunriseUtcL
  rw [e1, e2]
  exact coh_map2 hC false tsub c1 (coh_map Scalar.toInt c2)

theorem sunriseLocal_good (A : Arrays s) (w : World F) (hl : s.timesUtc.length = s.times.length) :
    Good s.crd (sunNames s.usecase) (s.sunriseLocalL w) (s.sunriseLocal w) := by
  have hC := crd_name s
  obtain ⟨x1, e1, c1⟩ := sunriseUtc_good A w hl
  have hf : x1.coords.find? (fun c => c.name == .time) = some (s.crd .time) := by
    rw [c1.coords]
    cases s.usecase <;> rfl
  have hm : LDA.make [s.crd .time] s.utcOffset = .ok ⟨[s.crd .time], s.utcOffset⟩ := by
    unfold LDA.make
    rw [if_pos (by simp [Sunpos.utcOffset, DA.along, Sunpos.crd])]
  refine Good.names (N := nameUnion (sunNames s.usecase) [.time]) ?_ (by cases s.usecase <;> rfl)
  unfold Sunpos.sunriseLocalL
  rw [e1]
  show Good _ _ (match x1.coords.find? (fun c => c.name == .time) with
    | none => .error .keyError
    | some c => do LDA.map2 false tadd x1 (← LDA.make [c] s.utcOffset)) _
  rw [hf]
  simp only
  rw [hm]
  refine coh_map2 hC false tadd c1 (M := [.time]) ⟨rfl, rfl, ?_⟩
  intro q hq
  simp only [Sunpos.utcOffset, DA.along, List.mem_cons, List.not_mem_nil, or_false] at hq
  subst hq
  simp [Sunpos.crd]

/-- names of the coordinates of an event -/
def eventNames (uc : UseCase) : Event F → List Dim
  | .angle _ => wsrNames uc
  | .time _ => sunNames uc

/-- an event with labels -/
def GoodEvent (s : Sunpos F) (a : Except PyErr (EventL F)) (d : Event F) : Prop :=
  match d with
  | .angle d => ∃ x, a = .ok (.angle x) ∧ Coh s.crd (wsrNames s.usecase) x d
  | .time d => ∃ x, a = .ok (.time x) ∧ Coh s.crd (sunNames s.usecase) x d

theorem sunrise_good (A : Arrays s) (w : World F) (hl : s.timesUtc.length = s.times.length) (u : String) :
    (∀ d, s.sunrise w u = .ok d → GoodEvent s (s.sunriseL w u) d) ∧ ∀ e, s.sunrise w u = .error e → s.sunriseL w u = .error e := by
  have hC := crd_name s
  have h1 := wsr_good A
  have h0 : Good s.crd (wsrNames s.usecase) (degrees s.wsrL) (degrees s.wsr) := by
    unfold degrees
    refine Good.names (by good hC) ?_
    cases s.usecase <;> rfl
  obtain ⟨x0, e0, c0⟩ := h0
  obtain ⟨x1, e1, c1⟩ := h1
  obtain ⟨x2, e2, c2⟩ := sunriseTst_good A w hl
  obtain ⟨x3, e3, c3⟩ := sunriseUtc_good A w hl
  obtain ⟨x4, e4, c4⟩ := sunriseLocal_good A w hl
  unfold Sunpos.sunrise Sunpos.sunriseL
  rw [e0, e1, e2, e3, e4]
  constructor
  · intro d hd
    split_ifs at hd ⊢ <;> obtain rfl := Except.ok.inj hd
    · exact ⟨x0, rfl, c0⟩
    · exact ⟨x1, rfl, c1⟩
    · exact ⟨x2, rfl, c2⟩
    · exact ⟨x3, rfl, c3⟩
    · exact ⟨x4, rfl, c4⟩
  · intro e he
    split_ifs at he ⊢ <;> cases he
    rfl

theorem daylight_good (A : Arrays s) (w : World F) (hl : s.timesUtc.length = s.times.length) :
    ∃ d, s.daylightLength w = .ok d ∧ Good s.crd (wsrNames s.usecase) (s.daylightLengthL w) d := by
  have hC := crd_name s
  obtain ⟨x, hx, c⟩ := (sunrise_good A w hl "deg").1 (.angle (degrees s.wsr)) rfl
  refine ⟨2.0 / 15.0 * degrees s.wsr, rfl, ?_⟩
  have h : Good s.crd (wsrNames s.usecase) (.ok x) (degrees s.wsr) := ⟨x, rfl, c⟩
  unfold Sunpos.daylightLengthL
  rw [hx]
  show Good s.crd _ (2.0 / 15.0 * (.ok x : Except PyErr (LDA F F))) _
  refine Good.names (by good hC) ?_
  cases s.usecase <;> rfl

theorem sunset_good (A : Arrays s) (w : World F) (hl : s.timesUtc.length = s.times.length) (u : String) :
    (∀ d, s.sunset w u = .ok d → GoodEvent s (s.sunsetL w u) d) ∧ ∀ e, s.sunset w u = .error e → s.sunsetL w u = .error e := by
  have hC := crd_name s
  obtain ⟨d, hd, hg⟩ := daylight_good A w hl
  have h3 : Good s.crd (wsrNames s.usecase) (hoursToNs (s.daylightLengthL w)) (hoursToNs d) := by
    unfold hoursToNs
    refine Good.names (by good hC) ?_
    cases s.usecase <;> rfl
  obtain ⟨x1, e1, c1⟩ := h3
  by_cases hu : u = "tst" ∨ u = "utc" ∨ u = "local"
  · obtain ⟨t, ht⟩ : ∃ t, s.sunrise w u = .ok (.time t) := by
      rcases hu with rfl | rfl | rfl
      · exact ⟨_, rfl⟩
      · exact ⟨_, rfl⟩
      · exact ⟨_, rfl⟩
    obtain ⟨x, hx, c⟩ := (sunrise_good A w hl u).1 _ ht
    obtain ⟨y, hy, cy⟩ := coh_map2 hC false tadd c (coh_map Scalar.toInt c1)
    have e : s.sunset w u = .ok (.time (DA.map2 tadd t ((hoursToNs d).map Scalar.toInt))) := by
      unfold Sunpos.sunset; rw [if_pos hu, ht, hd]
    have e' : s.sunsetL w u = .ok (.time y) := by
      unfold Sunpos.sunsetL
      rw [if_pos hu, hx, e1]
      show (do return EventL.time (← LDA.map2 false tadd x (x1.map Scalar.toInt))) = _
      rw [hy]; rfl
    rw [e, e']
    refine ⟨?_, by intro e he; cases he⟩
    intro d' hd'
    obtain rfl := Except.ok.inj hd'
    refine ⟨y, rfl, ?_⟩
    have : nameUnion (sunNames s.usecase) (wsrNames s.usecase) = sunNames s.usecase := by cases s.usecase <;> rfl
    rw [this] at cy; exact cy
  · unfold Sunpos.sunset Sunpos.sunsetL
    rw [if_neg hu, if_neg hu]
    constructor
    · intro d' hd'
      split_ifs at hd'
    · intro e he
      split_ifs at he ⊢ <;> (cases he; rfl)

def incNames (uc : UseCase) : List Dim := match uc with
  | .sites => [.location, .time] | .regularGrid => [.latitude, .time, .longitude] | .transect => [.time, .latitude, .longitude]

theorem incidence_good (A : Arrays s) (w : World F) (hl : s.timesUtc.length = s.times.length) (slope saz : F) :
    Good s.crd (incNames s.usecase) (s.incidenceL w slope saz) (s.incidence w slope saz) := by
  have hC := crd_name s
  have h1 : Good s.crd (tstNames s.usecase) (s.todFloatL w) (s.todFloat w) := good_map _ (tst_good A w hl)
  have h2 := A.lat
  have h3 := dec_good A
  unfold Sunpos.incidenceL Sunpos.incidence coss haDeg hourOf radians
  refine Good.names (by good hC) ?_
  unfold Sunpos.timeNames Sunpos.latNames; cases s.usecase <;> decide

end arrays

/-! ### the theorems -/

instance decForallDim {p : Dim → Prop} [DecidablePred p] : Decidable (∀ n, p n) :=
  decidable_of_iff (p .time ∧ p .location ∧ p .latitude ∧ p .longitude)
    ⟨fun h n => by cases n <;> tauto, fun h => ⟨h _, h _, h _, h _⟩⟩

theorem good_event {F : Type} {s : Sunpos F} {a : Except PyErr (EventL F)} {d : Event F} (h : GoodEvent s a d)
    (h1 : ∀ x : DA F, d = .angle x → ∀ a', Good s.crd (wsrNames s.usecase) a' x → Labelled a' x (indexCoords s.usecase x (s.posNames.map s.crd)))
    (h2 : ∀ x : DA (Option Int), d = .time x → ∀ a', Good s.crd (sunNames s.usecase) a' x →
      Labelled a' x (indexCoords s.usecase x (s.posNames.map s.crd))) : LabelledEvent a d (s.posNames.map s.crd) s.usecase := by
  cases d with
  | angle d => obtain ⟨x, rfl, c⟩ := h; exact ⟨x, rfl, h1 d rfl _ ⟨x, rfl, c⟩⟩
  | time d => obtain ⟨x, rfl, c⟩ := h; exact ⟨x, rfl, h2 d rfl _ ⟨x, rfl, c⟩⟩

/-- **C79** Labels of what the object of a call returns, in every arithmetic. Its arrays are combined without loss: no operation between them drops,
reorders or repeats rows or fails because of labels, whatever the times and coordinates (duplicate or missing ones included), so the values are
those of the other theorems. Zenith, azimuth, elevation, cosz, airmass and eth carry all coordinates of the request. Latitude, longitude, ecf, eot,
declination, true solar time, sunrise, sunset, daylight length and incidence carry the indexes along their dimensions (in a transect: all
coordinates), but not, for sites, latitudes and longitudes. -/
theorem C79_labels {F : Type} [Scalar F] {uc : UseCase} {w : World F} {times : Times} {latitude longitude : Coord F} {alg eng : String}
    {refr : PyVal} {s : Sunpos F} (h : call uc w times latitude longitude alg refr eng = .ok s) {lat lon : List F}
    (hlat : Holds latitude lat) (hlon : Holds longitude lon) (hw : KeepsLength w) {T : List (Crd F)} (hT : T = requestCoords uc times lat lon) :
    (Labelled s.zenithDegL s.zenithDeg T ∧ Labelled s.azimuthDegL s.azimuthDeg T ∧ Labelled s.elevationL s.elevation T ∧
      Labelled s.coszL s.cosz T ∧ (∀ p d, s.airmass p = .ok d → Labelled (s.airmassL p) d T) ∧
      (∀ isc c d, s.eth isc c = .ok d → Labelled (s.ethL isc c) d T)) ∧
    (Labelled s.latitudeL s.latitude (indexCoords uc s.latitude T) ∧ Labelled s.longitudeL s.longitude (indexCoords uc s.longitude T) ∧
      Labelled s.ecfL s.ecf (indexCoords uc s.ecf T) ∧ Labelled s.eotL s.eot (indexCoords uc s.eot T) ∧
      Labelled s.decDegL s.decDeg (indexCoords uc s.decDeg T) ∧
      Labelled (s.trueSolarTimeL w) (s.trueSolarTime w) (indexCoords uc (s.trueSolarTime w) T) ∧
      (∀ u d, s.sunrise w u = .ok d → LabelledEvent (s.sunriseL w u) d T uc) ∧
      (∀ u d, s.sunset w u = .ok d → LabelledEvent (s.sunsetL w u) d T uc) ∧
      (∃ d, s.daylightLength w = .ok d ∧ Labelled (s.daylightLengthL w) d (indexCoords uc d T)) ∧
      ∀ slope saz, Labelled (s.incidenceL w slope saz) (s.incidence w slope saz) (indexCoords uc (s.incidence w slope saz) T)) ∧
    (∀ p e, s.airmass p = .error e → s.airmassL p = .error e) ∧ (∀ isc c e, s.eth isc c = .error e → s.ethL isc c = .error e) ∧
    (∀ u e, s.sunrise w u = .error e → s.sunriseL w u = .error e) ∧ ∀ u e, s.sunset w u = .error e → s.sunsetL w u = .error e := by
  obtain ⟨z, e1, e2, e3, e4, e5, n1, n2, hl⟩ := dims_core h hlat hlon
  have hll : s.timesUtc.length = s.times.length := by rw [n2 hw, n1]
  have A := arrays_of h hlat hlon
  rw [request_eq h hlat hlon] at hT
  obtain ⟨_, _, _, _, _, _, hr⟩ := call_inv h
  have hu := hr.usecase
  subst hu hT
  obtain ⟨-, -, -, -, q5, q6, q7, q8, q9, q10⟩ := C33_dims h hlat hlon hw rfl rfl rfl
  -- names of dimensions against names of coordinates
  have idx : ∀ {G : Type} {N : List Dim} {a : Except PyErr (LDA F G)} {d : DA G} (D : List Dim), d.names = D → Good s.crd N a d →
      (N.Nodup ∧ ∀ n, n ∈ N ↔ n ∈ s.posNames ∧ (s.crd n).dim ∈ D ∧ ((s.crd n).dim = n ∨ s.usecase = .transect)) →
      Labelled a d (indexCoords s.usecase d (s.posNames.map s.crd)) := by
    intro G N a d D hD hg hN
    subst hD
    exact labelled_index hg hN.1 hN.2
  have crdDim : ∀ n, (s.crd n).dim = match n with
      | .time => Dim.time | .location => .location
      | .latitude => s.usecase.latDim | .longitude => s.usecase.lonDim := by
    intro n; cases n <;> simp only [Sunpos.crd] <;> cases s.usecase <;> rfl
  have cond : ∀ N D : List Dim, (N.Nodup ∧ ∀ n, n ∈ N ↔ n ∈ s.posNames ∧ (match n with
      | .time => Dim.time | .location => .location
      | .latitude => s.usecase.latDim | .longitude => s.usecase.lonDim) ∈ D ∧ ((match n with
      | .time => Dim.time | .location => .location
      | .latitude => s.usecase.latDim | .longitude => s.usecase.lonDim) = n ∨ s.usecase = .transect)) →
      (N.Nodup ∧ ∀ n, n ∈ N ↔ n ∈ s.posNames ∧ (s.crd n).dim ∈ D ∧ ((s.crd n).dim = n ∨ s.usecase = .transect)) := by
    intro N D hh
    refine ⟨hh.1, fun n => ?_⟩
    rw [hh.2 n, crdDim n]
  obtain ⟨u, hu⟩ : ∃ u, u = s.usecase := ⟨_, rfl⟩
  have ang : ∀ x : DA F, x.dims = angleDims s.usecase times.stamps.length lat.length → ∀ a', Good s.crd (wsrNames s.usecase) a' x →
      Labelled a' x (indexCoords s.usecase x (s.posNames.map s.crd)) := by
    intro x hx a' hg
    refine idx ((angleDims s.usecase times.stamps.length lat.length).map Prod.fst) (by rw [DA.names, hx]) hg (cond _ _ ?_)
    unfold Sunpos.posNames; rw [← hu]; cases u <;> simp only [angleDims, wsrNames, List.map_cons, List.map_nil] <;> decide
  have tim : ∀ x : DA (Option Int), x.dims = documentedDims s.usecase times.stamps.length lat.length lon.length → ∀ a', Good s.crd (sunNames s.usecase) a' x →
      Labelled a' x (indexCoords s.usecase x (s.posNames.map s.crd)) := by
    intro x hx a' hg
    refine idx ((documentedDims s.usecase times.stamps.length lat.length lon.length).map Prod.fst) (by rw [DA.names, hx]) hg (cond _ _ ?_)
    unfold Sunpos.posNames; rw [← hu]; cases u <;> simp only [documentedDims, sunNames, List.map_cons, List.map_nil] <;> decide
  have tms : ∀ (x : DA F) a', x.dims = [(.time, times.stamps.length)] → Good s.crd s.timeNames a' x →
      Labelled a' x (indexCoords s.usecase x (s.posNames.map s.crd)) := by
    intro x a' hx hg
    refine idx [.time] (by rw [DA.names, hx]; rfl) hg (cond _ _ ?_)
    unfold Sunpos.posNames Sunpos.timeNames; rw [← hu]; cases u <;> decide
  obtain ⟨g1, g2, g3, g4⟩ := zen_good A
  refine ⟨⟨labelled_all g1, labelled_all g2, labelled_all g3, labelled_all g4, fun p d hd => labelled_all ((airmass_good A p).1 d hd),
    fun isc c d hd => labelled_all ((eth_good A isc c).1 d hd)⟩, ⟨?_, ?_, tms _ _ e1 A.ecf, tms _ _ e2 A.eot, ?_, ?_, ?_, ?_, ?_, ?_⟩,
    fun p e he => (airmass_good A p).2 e he, fun isc c e he => (eth_good A isc c).2 e he, fun u e he => (sunrise_good A w hll u).2 e he,
    fun u e he => (sunset_good A w hll u).2 e he⟩
  · refine idx [s.usecase.latDim] (by rw [DA.names, e4]; rfl) A.lat (cond _ _ ?_)
    unfold Sunpos.posNames Sunpos.latNames; rw [← hu]; cases u <;> decide
  · refine idx [s.usecase.lonDim] (by rw [DA.names, e5]; rfl) A.lon (cond _ _ ?_)
    unfold Sunpos.posNames Sunpos.lonNames; rw [← hu]; cases u <;> decide
  · refine tms _ _ ?_ (dec_good A)
    rw [← e3]
    show dimUnion s.declination.dims [] = _
    rw [dimUnion_nil_right]
  · refine idx ((tstDims s.usecase times.stamps.length lon.length).map Prod.fst) (by rw [DA.names, q9]) (tst_good A w hll) (cond _ _ ?_)
    unfold Sunpos.posNames; rw [← hu]; cases u <;> simp only [tstDims, tstNames, List.map_cons, List.map_nil] <;> decide
  · intro u d hd
    refine good_event ((sunrise_good A w hll u).1 d hd) ?_ ?_
    · rintro x rfl; exact ang x (q7 u x hd)
    · rintro x rfl; exact tim x (q5 u x hd)
  · intro u d hd
    refine good_event ((sunset_good A w hll u).1 d hd) ?_ ?_
    · rintro x rfl
      exfalso
      unfold Sunpos.sunset at hd
      split_ifs at hd
      split at hd <;> cases hd
    · rintro x rfl; exact tim x (q6 u x hd)
  · obtain ⟨d, hd, hg⟩ := daylight_good A w hll
    exact ⟨d, hd, ang d (q8 d hd) _ hg⟩
  · intro slope saz
    refine idx ((incidenceDims s.usecase times.stamps.length lat.length lon.length).map Prod.fst) (by rw [DA.names, q10]) (incidence_good A w hll slope saz) (cond _ _ ?_)
    unfold Sunpos.posNames; rw [← hu]; cases u <;> simp only [incidenceDims, incNames, List.map_cons, List.map_nil] <;> decide

/-- `x.sel(...)` with the labels `ls` along its dimensions: a value at a position that has these labels -/
def Selects {F G : Type} (x : LDA F G) (ls : Dim → Label F) (v : G) : Prop :=
  ∃ e : Dim → Nat, (∀ q ∈ x.da.dims, e q.1 < q.2 ∧ ∃ L, x.index q.1 = some L ∧ L[e q.1]? = some (ls q.1)) ∧ v = x.da.get e

/-- **C79** Selection by label: if the indexes of the request have no duplicates, selecting the labels of a position of zenith or azimuth gives the
value at that position, and nothing else. -/
theorem C79_sel {F : Type} [Scalar F] {uc : UseCase} {w : World F} {times : Times} {latitude longitude : Coord F} {alg eng : String}
    {refr : PyVal} {s : Sunpos F} (h : call uc w times latitude longitude alg refr eng = .ok s) {lat lon : List F}
    (hlat : Holds latitude lat) (hlon : Holds longitude lon)
    (hd : ∀ c ∈ requestCoords uc times lat lon, c.name = c.dim → c.labels.Nodup) {e : Dim → Nat}
    (he : ∀ q ∈ documentedDims uc times.stamps.length lat.length lon.length, e q.1 < q.2) {ls : Dim → Label F}
    (hls : ∀ c ∈ requestCoords uc times lat lon, c.name = c.dim → c.labels[e c.dim]? = some (ls c.dim)) :
    ∃ z a, s.zenithDegL = .ok z ∧ s.azimuthDegL = .ok a ∧ ∀ v, (Selects z ls v ↔ v = s.zenithDeg.get e) ∧ (Selects a ls v ↔ v = s.azimuthDeg.get e) := by
  obtain ⟨hz, h1, h2, h3, h4, h5, h6, -, h8⟩ := dims_core h hlat hlon
  have A := arrays_of h hlat hlon
  have hR := request_eq h hlat hlon
  obtain ⟨lat', lon', b, _, hacc, _, hr⟩ := call_inv h
  have hlat' := hlat
  have hlon' := hlon
  rw [holds_flat, hacc.lat_eq] at hlat'
  rw [holds_flat, hacc.lon_eq] at hlon'
  obtain rfl := Option.some.inj hlat'
  obtain rfl := Option.some.inj hlon'
  have hu := hr.usecase
  subst hu
  rw [hR] at hd hls
  have nlat : s.nLat = lat'.length := by simp [Sunpos.nLat, DA.shape, h4]
  have nlon : s.nLon = lon'.length := by simp [Sunpos.nLon, DA.shape, h5]
  -- the dimensions are indexes of the request
  have hdim : ∀ q ∈ documentedDims s.usecase times.stamps.length lat'.length lon'.length,
      q.1 ∈ s.posNames ∧ (s.crd q.1).dim = q.1 ∧ q.2 = (s.crd q.1).labels.length := by
    cases huc : s.usecase <;> simp [documentedDims, Sunpos.posNames, Sunpos.crd, huc, nlat, nlon, h6]
  have mem : (.time, times.stamps.length) ∈ documentedDims s.usecase times.stamps.length lat'.length lon'.length ∧
      (s.usecase.latDim, lat'.length) ∈ documentedDims s.usecase times.stamps.length lat'.length lon'.length ∧
      (s.usecase.lonDim, lon'.length) ∈ documentedDims s.usecase times.stamps.length lat'.length lon'.length := by
    cases huc : s.usecase <;> rw [huc] at h8 <;> simp [documentedDims, UseCase.latDim, UseCase.lonDim, UseCase.lenOk] at h8 ⊢ <;> omega
  have loc : ∀ e' : Dim → Nat, (∀ q ∈ documentedDims s.usecase times.stamps.length lat'.length lon'.length, e' q.1 < q.2 ∧ e' q.1 = e q.1) →
      s.zenith.get e' = s.zenith.get e ∧ s.azimuth.get e' = s.azimuth.get e := by
    intro e' hh
    obtain ⟨m1, m2, m3⟩ := mem
    have c' := hr.cell e' (hh _ m1).1 (hh _ m2).1 (hh _ m3).1
    have c := hr.cell e (he _ m1) (he _ m2) (he _ m3)
    rw [c'.1, c'.2, c.1, c.2, hr.latitude, hr.longitude]
    simp only [DA.along, (hh _ m1).2, (hh _ m2).2, (hh _ m3).2, and_self]
  have key : ∀ (d : DA F) (a : Except PyErr (LDA F F)), d.dims = documentedDims s.usecase times.stamps.length lat'.length lon'.length →
      (∀ e' : Dim → Nat, (∀ q ∈ documentedDims s.usecase times.stamps.length lat'.length lon'.length, e' q.1 < q.2 ∧ e' q.1 = e q.1) →
        d.get e' = d.get e) → Good s.crd s.posNames a d → ∃ x, a = .ok x ∧ ∀ v, Selects x ls v ↔ v = d.get e := by
    rintro d a hdd hloc ⟨x, rfl, hx⟩
    refine ⟨x, rfl, fun v => ?_⟩
    have hidx : ∀ q ∈ d.dims, x.index q.1 = some (s.crd q.1).labels := by
      intro q hq
      rw [hdd] at hq
      have g := hdim q hq
      unfold LDA.index
      rw [hx.coords]
      cases hf : (s.posNames.map s.crd).find? fun c => c.name == q.1 && c.dim == q.1 with
      | none =>
        have := List.find?_eq_none.1 hf (s.crd q.1) (List.mem_map_of_mem g.1)
        simp [g.2.1, crd_name] at this
      | some c =>
        have m1 := List.mem_of_find?_eq_some hf
        have m2 := List.find?_some hf
        obtain ⟨m, -, rfl⟩ := List.mem_map.1 m1
        simp only [Bool.and_eq_true, beq_iff_eq, crd_name] at m2
        rw [m2.1]; rfl
    unfold Selects
    rw [hx.da]
    constructor
    · rintro ⟨e', he', rfl⟩
      refine hloc e' fun q hq => ?_
      have hq' := hq
      rw [← hdd] at hq'
      obtain ⟨b1, L, b2, b3⟩ := he' q hq'
      rw [hidx q hq'] at b2
      obtain rfl := Option.some.inj b2
      refine ⟨b1, ?_⟩
      have g := hdim q hq
      have n := hd (s.crd q.1) (List.mem_map_of_mem g.1) (by rw [crd_name, g.2.1])
      have l := hls (s.crd q.1) (List.mem_map_of_mem g.1) (by rw [crd_name, g.2.1])
      rw [g.2.1] at l
      exact (List.getElem?_inj (by rw [← g.2.2]; exact b1) n).1 (b3.trans l.symm)
    · rintro rfl
      refine ⟨e, fun q hq => ?_, rfl⟩
      have hq' := hq
      rw [hdd] at hq'
      have g := hdim q hq'
      have l := hls (s.crd q.1) (List.mem_map_of_mem g.1) (by rw [crd_name, g.2.1])
      rw [g.2.1] at l
      exact ⟨he q hq', _, hidx q hq, l⟩
  obtain ⟨g1, g2, -⟩ := zen_good A
  obtain ⟨z, ez, kz⟩ := key s.zenithDeg _ (by rw [← hz]; show dimUnion s.zenith.dims [] = _; rw [dimUnion_nil_right])
    (fun e' hh => by show degrees (s.zenith.get e') = degrees (s.zenith.get e); rw [(loc e' hh).1]) g1
  obtain ⟨a, ea, ka⟩ := key s.azimuthDeg _ (by rw [← hz, ← hr.azi_dims]; show dimUnion s.azimuth.dims [] = _; rw [dimUnion_nil_right])
    (fun e' hh => by show degrees (s.azimuth.get e') = degrees (s.azimuth.get e); rw [(loc e' hh).2]) g2
  exact ⟨z, a, ez, ea, fun v => ⟨kz v, ka v⟩⟩

/-! ### the hypotheses are met -/

theorem grid_adm : (∀ x ∈ ([.fin 36.7, .fin (-90), .fin 36.7] : List XR), Scalar.isNan x = false → Scalar.leB (-90) x = true ∧ Scalar.leB x 90.0 = true) ∧
    (∀ x ∈ ([.fin (-180), .fin 0, .fin (-4.5)] : List XR), Scalar.isNan x = false → Scalar.leB (-180) x = true ∧ Scalar.ltB x 180.0 = true) := by
  refine ⟨latOk_XR.2 ?_, lonOk_XR.2 ?_⟩
  · simp only [List.mem_cons, List.not_mem_nil, or_false, forall_eq_or_imp, forall_eq, LatAdm]
    norm_num
  · simp only [List.mem_cons, List.not_mem_nil, or_false, forall_eq_or_imp, forall_eq, LonAdm]
    norm_num

/-- a call with a repeated time, a missing time and a repeated latitude, in every use case -/
example (uc : UseCase) (r : PyVal) : ∃ s, call uc exWorld ⟨false, none, [some 0, some 0, none]⟩ (.vec [.fin 36.7, .fin (-90), .fin 36.7])
      (.vec [.fin (-180), .fin 0, .fin (-4.5)]) "psa" r "numexpr" = .ok s ∧
    Labelled s.zenithDegL s.zenithDeg (requestCoords uc ⟨false, none, [some 0, some 0, none]⟩ [.fin 36.7, .fin (-90), .fin 36.7]
      [.fin (-180), .fin 0, .fin (-4.5)]) := by
  obtain ⟨s, hs⟩ := C05_naive_returns (uc := uc) (w := exWorld) (times := ⟨false, none, [some 0, some 0, none]⟩)
    (latitude := .vec [.fin 36.7, .fin (-90), .fin 36.7]) (longitude := .vec [.fin (-180), .fin 0, .fin (-4.5)])
    (alg := "psa") (eng := "numexpr") r rfl rfl rfl rfl (by cases uc <;> simp [Lengths]) (by simp [KnownPair]) grid_adm.1 grid_adm.2
  exact ⟨s, hs, (C79_labels hs rfl rfl (by intro n wall utc h; simp only [exWorld, Except.ok.injEq] at h; rw [← h, List.length_map]) rfl).1.1⟩

/-- a regular grid with distinct labels: the last cell -/
example (r : PyVal) : ∃ s z, call .regularGrid exWorld ⟨false, none, [some 0, some 60000000000]⟩ (.vec [.fin 36.7, .fin (-90)])
      (.vec [.fin (-180), .fin 0]) "psa" r "numexpr" = .ok s ∧ s.zenithDegL = .ok z ∧
    ∀ v, Selects z (fun d => match d with
      | .time => .stamp (some 60000000000) | .latitude => .num (.fin (-90)) | .longitude => .num (.fin 0) | .location => .pos 0) v ↔
      v = s.zenithDeg.get fun _ => 1 := by
  obtain ⟨s, hs⟩ := C05_naive_returns (uc := .regularGrid) (w := exWorld) (times := ⟨false, none, [some 0, some 60000000000]⟩)
    (latitude := .vec [.fin 36.7, .fin (-90)]) (longitude := .vec [.fin (-180), .fin 0])
    (alg := "psa") (eng := "numexpr") r rfl rfl rfl rfl (by simp [Lengths]) (by simp [KnownPair])
    (fun x hx => grid_adm.1 x (by simp at hx ⊢; tauto)) (fun x hx => grid_adm.2 x (by simp at hx ⊢; tauto))
  obtain ⟨z, a, hz, -, hv⟩ := C79_sel hs rfl rfl (e := fun _ => 1) (ls := fun d => match d with
      | .time => .stamp (some 60000000000) | .latitude => .num (.fin (-90)) | .longitude => .num (.fin 0) | .location => .pos 0)
    (by
      intro c hc _
      simp only [requestCoords, List.mem_cons, List.not_mem_nil, or_false, Times.wall] at hc
      rcases hc with rfl | rfl | rfl <;> simp <;> norm_num)
    (by simp [documentedDims])
    (by
      intro c hc _
      simp only [requestCoords, List.mem_cons, List.not_mem_nil, or_false, Times.wall] at hc
      rcases hc with rfl | rfl | rfl <;> rfl)
  exact ⟨s, z, hs, hz, fun v => (hv v).1⟩

end SW.Props
