/-
C76: what the benchmark reports.
-/
import Verif.BenchReport
import Verif.Props.Bench
import Verif.Props.DayNight
import Verif.Props.Chart
import Verif.Props.Daylight

namespace SW.Props
open SW SW.Spec SW.Bench Real Sunpos
open SW.Ephem (century declination hourAngle distance)

/-! ### specification -/

/-- a table is in increasing order of the root mean square, rows without one come last -/
def ByRmse (a b : String × Scores) : Prop :=
  match a.2.rmse, b.2.rmse with
  | some p, some q => p ≤ q
  | none, some _ => False
  | _, none => True

/-- what pandas' `sort_values(by='rmse')` does -/
structure SortsRmse (sort : List (String × Scores) → List (String × Scores)) : Prop where
  perm : ∀ l, (sort l).Perm l
  sorted : ∀ l, (sort l).Pairwise ByRmse

/-- The residues of a method in one variable, of the rows whose reference has a zenith angle below 180 degrees: `m` and `o` are the columns
of the method and of the reference, `z` the zenith angles of the reference. -/
noncomputable def keptResidues (v : String) (m o z : List XR) : List XR :=
  (List.range m.length).filterMap fun k =>
    match m[k]?, o[k]?, z[k]? with
    | some m, some o, some (XR.fin z) => if z < 180 then some (residue (v == "azimuth") false m o) else none
    | _, _, _ => none

/-- the three tables of the report: variable, title and factor (arc seconds; thousandths) -/
noncomputable def reportTables : List (String × String × ℝ) :=
  [("zenith", "zenith", 3600), ("azimuth", "azimuth", 3600), ("ecf", "ecf (x10⁻³)", 1000)]

/-- the methods of sunwhere in the report, with the names printed -/
def reportMethods : List (String × String × String) :=
  [("nrel", "numexpr", "sunwhere's NREL (numexpr)"), ("soltrack", "numexpr", "sunwhere's SOLTRACK (numexpr)"),
   ("soltrack", "numpy", "sunwhere's SOLTRACK (numpy)"), ("psa", "numexpr", "sunwhere's PSA (numexpr)"),
   ("psa", "numpy", "sunwhere's PSA (numpy)"), ("iqbal", "numexpr", "sunwhere's IQBAL (numexpr)"),
   ("iqbal", "numpy", "sunwhere's IQBAL (numpy)")]

/-- the methods of other packages, with the names printed -/
def otherMethods : List (String × String) :=
  [("pvlib.nrel_numba", "pvlib's NREL (numba)"), ("pvlib.nrel_numpy", "pvlib's NREL (numpy)"), ("pvlib.ephemeris", "pvlib's EPHEMERIS"),
   ("pvlib.pyephem", "pvlib's PYEPHEM"), ("sg2.sg2_c++", "sg2's SG2 (c++)")]

/-- column label of a method of sunwhere -/
def sunwhereLabel (m : String × String × String) : String := "sunwhere." ++ m.1 ++ "_" ++ m.2.1

/-- the names of all methods, as printed -/
def printedNames : List (String × String) := otherMethods ++ reportMethods.map fun m => (sunwhereLabel m, m.2.2)

/-- the scores times a factor -/
structure ScaledBy (f : ℝ) (s t : Scores) : Prop where
  mbe : t.mbe = s.mbe.map fun x => x * f
  std : t.std = s.std.map fun x => x * f
  mae : t.mae = s.mae.map fun x => x * f
  rmse : t.rmse = s.rmse.map fun x => x * f
  p66 : t.p66 = s.p66.map fun x => x * f
  p90 : t.p90 = s.p90.map fun x => x * f

theorem reformat_names : ∀ p ∈ printedNames, reformat p.1 = .ok p.2 := by
  decide +kernel
theorem default_split : defaultMethods.map (fun m => split '_' m.toList) =
    reportMethods.map (fun m => [m.1.toList, m.2.1.toList]) := by decide +kernel
theorem default_label : defaultMethods.map ("sunwhere." ++ ·) = reportMethods.map sunwhereLabel := by decide +kernel
theorem printed_nodup : (printedNames.map (·.1)).Nodup ∧ (printedNames.map (·.2)).Nodup ∧ "jpl" ∉ printedNames.map (·.1) := by decide +kernel

/-! ### the columns of sunwhere -/

theorem method_eq (w : World XR) (times : Times) (lat lon : XR) {m : String × String × String} (hm : m ∈ reportMethods) :
    sunwhereMethod w times lat lon (m.1 ++ "_" ++ m.2.1) = (do
      let s ← call .sites w times (.scalar lat) (.scalar lon) m.1 .pyFalse m.2.1
      return [((sunwhereLabel m, "zenith"), (List.range times.stamps.length).map fun k => s.zenithDeg.get (rowAt k)),
        ((sunwhereLabel m, "azimuth"), (List.range times.stamps.length).map fun k => s.azimuthDeg.get (rowAt k)),
        ((sunwhereLabel m, "ecf"), (List.range times.stamps.length).map fun k => s.ecf.get (rowAt k))]) := by
  have h1 : ∀ m ∈ reportMethods, split '_' (m.1 ++ "_" ++ m.2.1).toList = [m.1.toList, m.2.1.toList] := by decide +kernel
  have h2 : ∀ m ∈ reportMethods, "sunwhere." ++ (m.1 ++ "_" ++ m.2.1) = sunwhereLabel m := by decide +kernel
  unfold sunwhereMethod
  rw [h1 m hm, h2 m hm]
  simp only [String.ofList_toList]
  rfl

theorem default_eq : defaultMethods = reportMethods.map fun m => m.1 ++ "_" ++ m.2.1 := by decide +kernel

theorem forall2_map_left {α β γ : Type} {R : β → γ → Prop} {f : α → β} {l : List α} {r : List γ} (h : List.Forall₂ R (l.map f) r) :
    List.Forall₂ (fun a c => R (f a) c) l r := by
  rwa [List.forall₂_map_left_iff] at h

theorem columns_aux {w : World XR} {times : Times} {lat lon : XR} {L : List (String × String × String)}
    {fs : List (List ((String × String) × List XR))} (hL : ∀ m ∈ L, m ∈ reportMethods) (hnd : (L.map sunwhereLabel).Nodup)
    (h : List.Forall₂ (fun m f => sunwhereMethod w times lat lon (m.1 ++ "_" ++ m.2.1) = .ok f) L fs) :
    (∀ m ∈ L, ∃ s, call .sites w times (.scalar lat) (.scalar lon) m.1 .pyFalse m.2.1 = .ok s ∧
      fs.flatten.lookup (sunwhereLabel m, "zenith") = some ((List.range times.stamps.length).map fun k => s.zenithDeg.get (rowAt k)) ∧
      fs.flatten.lookup (sunwhereLabel m, "azimuth") = some ((List.range times.stamps.length).map fun k => s.azimuthDeg.get (rowAt k)) ∧
      fs.flatten.lookup (sunwhereLabel m, "ecf") = some ((List.range times.stamps.length).map fun k => s.ecf.get (rowAt k))) ∧
    fs.flatten.map (·.1) = (L.map sunwhereLabel).flatMap fun m => ["zenith", "azimuth", "ecf"].map fun v => (m, v) := by
  induction h with
  | nil => exact ⟨fun m hm => absurd hm (by simp), rfl⟩
  | @cons m f L fs hf _ ih =>
    obtain ⟨ih1, ih2⟩ := ih (fun m hm => hL m (List.mem_cons_of_mem _ hm)) (by rw [List.map_cons, List.nodup_cons] at hnd; exact hnd.2)
    rw [method_eq w times lat lon (hL m (by simp))] at hf
    obtain ⟨s, hs, hf⟩ := bind_ok hf
    have hf := (Except.ok.inj hf).symm
    subst hf
    rw [List.map_cons, List.nodup_cons] at hnd
    constructor
    · intro m' hm'
      rcases List.mem_cons.1 hm' with rfl | hm'
      · have hb : ∀ v u : String, v ≠ u → ((sunwhereLabel m', v) == (sunwhereLabel m', u)) = false := by
          intro v u hne; rw [beq_eq_false_iff_ne]; intro hh; exact hne (Prod.mk.inj hh).2
        refine ⟨s, hs, ?_, ?_, ?_⟩
        · simp only [List.flatten_cons, List.cons_append, List.lookup_cons, beq_self_eq_true]
        · simp only [List.flatten_cons, List.cons_append, List.lookup_cons, hb "azimuth" "zenith" (by decide), beq_self_eq_true]
        · simp only [List.flatten_cons, List.cons_append, List.lookup_cons, hb "ecf" "zenith" (by decide), hb "ecf" "azimuth" (by decide),
            beq_self_eq_true]
      · obtain ⟨s', g1, g2, g3, g4⟩ := ih1 m' hm'
        have hne : sunwhereLabel m' ≠ sunwhereLabel m := fun hh => hnd.1 (hh ▸ List.mem_map_of_mem hm')
        have hb : ∀ v u : String, ((sunwhereLabel m', v) == (sunwhereLabel m, u)) = false := by
          intro v u; rw [beq_eq_false_iff_ne]; intro hh; exact hne (Prod.mk.inj hh).1
        refine ⟨s', g1, ?_, ?_, ?_⟩ <;> simp only [List.flatten_cons, List.cons_append, List.nil_append, List.lookup_cons, hb] <;> assumption
    · rw [List.flatten_cons, List.map_append, ih2, List.map_cons (f := sunwhereLabel), List.flatMap_cons]; rfl

/-- **C76** The columns of sunwhere that the benchmark compares: for each of the seven pairs of algorithm and engine the zenith angle, the
azimuth and the eccentricity correction factor that sites() returns without refraction, row by row, and no other columns. -/
theorem C76_columns {w : World XR} {times : Times} {lat lon : XR} {sun : List ((String × String) × List XR)}
    (h : sunwhereEphemeris w times lat lon = .ok sun) :
    (∀ m ∈ reportMethods, ∃ s, call .sites w times (.scalar lat) (.scalar lon) m.1 .pyFalse m.2.1 = .ok s ∧
      sun.lookup (sunwhereLabel m, "zenith") = some ((List.range times.stamps.length).map fun k => s.zenithDeg.get (rowAt k)) ∧
      sun.lookup (sunwhereLabel m, "azimuth") = some ((List.range times.stamps.length).map fun k => s.azimuthDeg.get (rowAt k)) ∧
      sun.lookup (sunwhereLabel m, "ecf") = some ((List.range times.stamps.length).map fun k => s.ecf.get (rowAt k))) ∧
    sun.map (·.1) = (reportMethods.map sunwhereLabel).flatMap fun m => ["zenith", "azimuth", "ecf"].map fun v => (m, v) := by
  unfold sunwhereEphemeris at h
  obtain ⟨fs, h1, h2⟩ := bind_ok h
  have h2 : fs.flatten = sun := Except.ok.inj h2
  have h3 := forall2_map_left (default_eq ▸ chart_mapM_ok h1)
  have hnd : (reportMethods.map sunwhereLabel).Nodup := by decide +kernel
  subst h2
  exact columns_aux (fun _ h => h) hnd h3

/-! ### the errors -/

theorem lookup_of_mem {α β : Type} [BEq α] [LawfulBEq α] {l : List (α × β)} (hnd : (l.map (·.1)).Nodup) {a : α} {b : β} :
    (a, b) ∈ l ↔ l.lookup a = some b := by
  induction l with
  | nil => simp
  | cons c l ih =>
    obtain ⟨k, v⟩ := c
    rw [List.map_cons, List.nodup_cons] at hnd
    rw [List.mem_cons, ih hnd.2, List.lookup_cons]
    by_cases h : a = k
    · subst h
      have : l.lookup a ≠ some b := fun hh => hnd.1 (List.mem_map.2 ⟨(a, b), (ih hnd.2).2 hh, rfl⟩)
      simp [this, eq_comm]
    · have e : (a == k) = false := by simpa using h
      rw [e]; simp [h]

theorem keep_eq {v : String} {m o z : List XR} (hm : m.length = z.length) (ho : o.length = z.length) :
    keepRows z (residueColumn false v m (some o)) = keptResidues v m o z := by
  unfold keepRows keptResidues residueColumn
  simp only
  generalize residue (v == "azimuth") false = f
  induction z generalizing m o with
  | nil =>
    obtain rfl := List.length_eq_zero_iff.1 hm
    rfl
  | cons x z ih =>
    obtain _ | ⟨a, m⟩ := m
    · simp at hm
    obtain _ | ⟨b, o⟩ := o
    · simp at ho
    simp only [List.length_cons, Nat.add_right_cancel_iff] at hm ho
    rw [List.length_cons, List.range_succ_eq_map, List.filterMap_cons, List.filterMap_map, List.zipWith_cons_cons, List.zip_cons_cons,
      List.filter_cons]
    simp only [List.getElem?_cons_zero, Function.comp_def, List.getElem?_cons_succ]
    have := ih hm ho
    cases x with
    | nan =>
      have e : Scalar.ltB (XR.nan) 180 = false := rfl
      rw [e]; exact this
    | fin x =>
      have e : Scalar.ltB (XR.fin x) 180 = decide (x < 180) := rfl
      rw [e]
      by_cases hx : x < 180
      · simp only [hx, decide_true, if_true, List.map_cons]; rw [this]
      · simp only [hx, decide_false, if_false, Bool.false_eq_true]; exact this

theorem bulk_spec {data : Frame XR} {z : List XR} (hnd : (data.cols.map (·.1)).Nodup) (hz : column data "jpl" "zenith" = some z)
    (hall : ∀ v ∈ ["zenith", "ecf", "azimuth"], ∃ m c, m ≠ "jpl" ∧ column data m v = some c) :
    ∃ g : String → List (String × Scores), bulkErrors data = .ok (["zenith", "ecf", "azimuth"].map fun v => (v, g v)) ∧
      (∀ v, ((g v).map (·.1)).Nodup) ∧
      ∀ v ∈ ["zenith", "ecf", "azimuth"], ∀ m s, (m, s) ∈ g v ↔ ∃ c, m ≠ "jpl" ∧ column data m v = some c ∧
        s = scores (keepRows z (residueColumn false v c (column data "jpl" v))) ∧ ¬ s.missing := by
  obtain ⟨out, h1, h2, h3⟩ := (C42_frame data "jpl" false).2 ⟨_, _, hz⟩
  have hndo : (out.cols.map (·.1)).Nodup := by rw [h2]; exact hnd.filter _
  have hmem : ∀ m v r, ((m, v), r) ∈ out.cols ↔ ∃ c, m ≠ "jpl" ∧ column data m v = some c ∧
      r = residueColumn false v c (column data "jpl" v) := by
    intro m v r
    rw [lookup_of_mem hndo]
    constructor
    · intro h
      have hk : (m, v) ∈ out.cols.map (·.1) := List.mem_map.2 ⟨_, (lookup_of_mem hndo).2 h, rfl⟩
      rw [h2, List.mem_filter, List.mem_map] at hk
      obtain ⟨⟨⟨k, c⟩, hc, hkk⟩, hj⟩ := hk
      simp only at hkk; subst hkk
      have hj : m ≠ "jpl" := by simpa using hj
      have hc' : column data m v = some c := (lookup_of_mem hnd).1 hc
      have := h3 m v c hj hc'
      unfold column at this
      rw [h] at this
      exact ⟨c, hj, hc', Option.some.inj this⟩
    · rintro ⟨c, hj, hc, rfl⟩
      exact h3 m v c hj hc
  have hz' : data.cols.lookup ("jpl", "zenith") = some z := hz
  obtain ⟨rows, hrows⟩ : ∃ rows : String → List (String × Scores), rows = fun v =>
    (out.cols.filter fun c => c.1.2 == v).map fun c => (c.1.1, scores (keepRows z c.2)) := ⟨_, rfl⟩
  have hr : ∀ v m s, (m, s) ∈ rows v ↔ ∃ c, m ≠ "jpl" ∧ column data m v = some c ∧
      s = scores (keepRows z (residueColumn false v c (column data "jpl" v))) := by
    intro v m s
    rw [hrows]
    simp only [List.mem_map, List.mem_filter]
    constructor
    · rintro ⟨⟨⟨k, u⟩, r⟩, ⟨hc, hu⟩, he⟩
      obtain ⟨rfl, rfl⟩ := Prod.mk.inj he
      have hu : u = v := by simpa using hu
      subst hu
      obtain ⟨c, g1, g2, g3⟩ := (hmem _ _ _).1 hc
      exact ⟨c, g1, g2, by rw [g3]⟩
    · rintro ⟨c, g1, g2, rfl⟩
      exact ⟨((m, v), _), ⟨(hmem _ _ _).2 ⟨c, g1, g2, rfl⟩, by simp⟩, rfl⟩
  refine ⟨fun v => open Classical in (rows v).filter fun r => decide (¬ r.2.missing), ?_, ?_, ?_⟩
  rotate_left
  · intro v
    refine List.Nodup.sublist (List.Sublist.map _ List.filter_sublist) ?_
    rw [hrows]
    simp only
    rw [List.map_map]
    have hf : ((out.cols.filter fun c => c.1.2 == v).map (·.1)).Nodup := hndo.sublist (List.Sublist.map _ List.filter_sublist)
    have e : (out.cols.filter fun c => c.1.2 == v).map (·.1) =
        ((out.cols.filter fun c => c.1.2 == v).map ((fun x : String × Scores => x.1) ∘ fun c => (c.1.1, scores (keepRows z c.2)))).map fun m => (m, v) := by
      rw [List.map_map]
      refine List.map_congr_left fun c hc => ?_
      have : c.1.2 = v := by simpa using (List.mem_filter.1 hc).2
      show c.1 = (c.1.1, v)
      rw [← this]
    rw [e] at hf
    exact hf.of_map _
  rotate_right
  · unfold bulkErrors
    rw [h1, ok_bind, hz']
    simp only
    rw [show (pure z : Except PyErr (List XR)) = .ok z from rfl, ok_bind]
    have hne : ∀ v ∈ ["zenith", "ecf", "azimuth"], (rows v).isEmpty = false := by
      intro v hv
      obtain ⟨m, c, hm, hc⟩ := hall v hv
      rw [List.isEmpty_eq_false_iff_exists_mem]
      exact ⟨_, (hr v m _).2 ⟨c, hm, hc, rfl⟩⟩
    have e : ∀ v, (out.cols.filter fun c => c.1.2 == v).map (fun c => (c.1.1, scores (keepRows z c.2))) = rows v := by
      intro v; rw [hrows]
    simp only [e, List.mapM_cons, List.mapM_nil]
    rw [hne _ (by simp), hne _ (by simp), hne _ (by simp)]
    rfl
  · intro v _ m s
    rw [List.mem_filter, hr]
    constructor
    · rintro ⟨⟨c, g1, g2, g3⟩, hm⟩
      exact ⟨c, g1, g2, g3, by simpa using hm⟩
    · rintro ⟨c, g1, g2, g3, hm⟩
      exact ⟨⟨c, g1, g2, g3⟩, by simpa using hm⟩

theorem values_nil {r : List XR} : values r = [] ↔ ∀ x, XR.fin x ∉ r := by
  unfold values
  rw [List.filterMap_eq_nil_iff]
  constructor
  · intro h x hx; have := h _ hx; simp at this
  · intro h x hx
    cases x with
    | nan => rfl
    | fin x => exact absurd hx (h x)

theorem missing_iff (r : List XR) : (scores r).missing ↔ ∀ x, XR.fin x ∉ r := by
  rw [← values_nil]
  constructor
  · rintro ⟨h, -⟩
    have h : mean (values r) = none := h
    unfold mean at h
    by_contra hc
    rw [if_neg hc] at h; cases h
  · intro h
    unfold Scores.missing scores
    simp [h, mean, Bench.std, quantile]

theorem mapM_eq_ok {α β ε : Type} {f : α → Except ε β} {g : α → β} {l : List α} (h : ∀ a ∈ l, f a = .ok (g a)) :
    l.mapM f = .ok (l.map g) := by
  induction l with
  | nil => rfl
  | cons a l ih =>
    rw [List.mapM_cons, h a (by simp), ok_bind, ih fun a ha => h a (List.mem_cons_of_mem _ ha)]; rfl

/-- the name printed -/
def printedName (m : String) : String := (printedNames.lookup m).getD ""

theorem printedName_of {p : String × String} (h : p ∈ printedNames) : printedName p.1 = p.2 := by
  unfold printedName
  rw [(lookup_of_mem printed_nodup.1).1 h]; rfl

theorem printed_ok' {sort : List (String × Scores) → List (String × Scores)} (hs : SortsRmse sort) {g : String → List (String × Scores)}
    (hne : ∀ v ∈ ["zenith", "azimuth", "ecf"], g v ≠ []) (hn : ∀ v ∈ ["zenith", "azimuth", "ecf"], ∀ r ∈ g v, r.1 ∈ printedNames.map (·.1)) :
    printedTables sort (["zenith", "ecf", "azimuth"].map fun v => (v, g v)) = .ok (reportTables.map fun v =>
      (v.2.1, (sort ((g v.1).map fun r => (r.1, r.2.scale v.2.2))).map fun r => (printedName r.1, r.2))) := by
  have key : ∀ v ∈ ["zenith", "azimuth", "ecf"], ∀ (title : String) (f : ℝ), (do
      if ((g v).map fun r => (r.1, r.2.scale f)).isEmpty then throw .keyError
      let out ← (sort ((g v).map fun r => (r.1, r.2.scale f))).mapM fun r => do return (← reformat r.1, r.2)
      return (title, out) : Except PyErr (String × List (String × Scores))) =
      .ok (title, (sort ((g v).map fun r => (r.1, r.2.scale f))).map fun r => (printedName r.1, r.2)) := by
    intro v hv title f
    have h1 : ((g v).map fun r => (r.1, r.2.scale f)).isEmpty = false := by
      rw [List.isEmpty_eq_false_iff]; simpa using hne v hv
    rw [h1]
    have h2 : ((sort ((g v).map fun r => (r.1, r.2.scale f))).mapM fun r => do return (← reformat r.1, r.2) :
        Except PyErr (List (String × Scores))) = .ok ((sort ((g v).map fun r => (r.1, r.2.scale f))).map fun r => (printedName r.1, r.2)) := by
      refine mapM_eq_ok fun r hr => ?_
      have hr := (hs.perm _).mem_iff.1 hr
      obtain ⟨r', hr', rfl⟩ := List.mem_map.1 hr
      obtain ⟨p, hp, hpe⟩ := List.mem_map.1 (hn v hv r' hr')
      simp only
      rw [← hpe, reformat_names p hp, printedName_of hp]; rfl
    simp only [Bool.false_eq_true, if_false]
    rw [h2]; rfl
  unfold printedTables reportTables
  have l1 : (["zenith", "ecf", "azimuth"].map fun v => (v, g v)).lookup "zenith" = some (g "zenith") := rfl
  have l2 : (["zenith", "ecf", "azimuth"].map fun v => (v, g v)).lookup "azimuth" = some (g "azimuth") := rfl
  have l3 : (["zenith", "ecf", "azimuth"].map fun v => (v, g v)).lookup "ecf" = some (g "ecf") := rfl
  have e3 : (1e3 : ℝ) = 1000 := by norm_num
  rw [List.mapM_cons, List.mapM_cons, List.mapM_cons, List.mapM_nil]
  simp only [l1, l2, l3, Option.getD_some, e3]
  rw [key _ (by simp), key _ (by simp), key _ (by simp)]; rfl

theorem printed_nonempty {sort : List (String × Scores) → List (String × Scores)} {g : String → List (String × Scores)}
    {tables : List (String × List (String × Scores))}
    (h : printedTables sort (["zenith", "ecf", "azimuth"].map fun v => (v, g v)) = .ok tables) :
    ∀ v ∈ ["zenith", "azimuth", "ecf"], g v ≠ [] := by
  have h1 := chart_mapM_ok h
  intro v hv hg
  have key : ∀ (t : String) (f : ℝ) b, (do
      if ((((["zenith", "ecf", "azimuth"].map fun v => (v, g v)).lookup v).getD []).map fun r => (r.1, r.2.scale f)).isEmpty then throw .keyError
      let out ← (sort ((((["zenith", "ecf", "azimuth"].map fun v => (v, g v)).lookup v).getD []).map fun r => (r.1, r.2.scale f))).mapM
        fun r => do return (← reformat r.1, r.2)
      return (t, out) : Except PyErr (String × List (String × Scores))) ≠ .ok b := by
    intro t f b
    have : (((["zenith", "ecf", "azimuth"].map fun v => (v, g v)).lookup v).getD []) = g v := by
      simp only [List.mem_cons, List.not_mem_nil, or_false] at hv
      rcases hv with rfl | rfl | rfl <;> rfl
    rw [this, hg]
    intro hh; cases hh
  simp only [List.mem_cons, List.not_mem_nil, or_false] at hv
  rcases h1 with _ | ⟨a1, _ | ⟨a2, _ | ⟨a3, _⟩⟩⟩
  rcases hv with rfl | rfl | rfl
  · exact key _ _ _ a1
  · exact key _ _ _ a2
  · exact key _ _ _ a3

/-! ### the report -/

/-- what `run_benchmark` puts together: the reference (three columns or more, with distinct names), and the columns of the other packages, all with the
same rows -/
structure BenchInput (times : Times) (jpl : List (String × List XR)) (others : List ((String × String) × List XR)) : Prop where
  jpl_labels : (jpl.map (·.1)).Nodup
  other_labels : (others.map (·.1)).Nodup
  names : ∀ c ∈ others, c.1.1 ∈ otherMethods.map (·.1)
  jpl_rows : ∀ c ∈ jpl, c.2.length = times.stamps.length
  other_rows : ∀ c ∈ others, c.2.length = times.stamps.length

theorem lookup_jpl (jpl : List (String × List XR)) (rest : List ((String × String) × List XR)) (hr : ∀ c ∈ rest, c.1.1 ≠ "jpl") (v : String) :
    (jpl.map (fun c => (("jpl", c.1), c.2)) ++ rest).lookup ("jpl", v) = jpl.lookup v := by
  induction jpl with
  | nil =>
    rw [List.map_nil, List.nil_append, List.lookup_nil, List.lookup_eq_none_iff]
    intro p hp
    rw [bne_iff_ne]
    intro hh; exact hr p hp (by rw [← hh])
  | cons c l ih =>
    obtain ⟨k, x⟩ := c
    rw [List.map_cons, List.cons_append, List.lookup_cons, List.lookup_cons, ih]
    have : (("jpl", v) == ("jpl", k)) = (v == k) := by
      rw [Bool.eq_iff_iff, beq_iff_eq, beq_iff_eq]; simp
    simp only [this]

theorem lookup_rest (jpl : List (String × List XR)) (rest : List ((String × String) × List XR)) {m : String} (hm : m ≠ "jpl") (v : String) :
    (jpl.map (fun c => (("jpl", c.1), c.2)) ++ rest).lookup (m, v) = rest.lookup (m, v) := by
  induction jpl with
  | nil => rfl
  | cons c l ih =>
    rw [List.map_cons, List.cons_append, List.lookup_cons, ih]
    have : ((m, v) == ("jpl", c.1)) = false := by
      rw [beq_eq_false_iff_ne]; intro hh; exact hm (Prod.mk.inj hh).1
    simp only [this]

theorem sun_labels {w : World XR} {times : Times} {lat lon : XR} {sun : List ((String × String) × List XR)}
    (h : sunwhereEphemeris w times lat lon = .ok sun) :
    (sun.map (·.1)).Nodup ∧ ∀ c ∈ sun, c.1.1 ∈ reportMethods.map sunwhereLabel := by
  have h2 := (C76_columns h).2
  have e : ((reportMethods.map sunwhereLabel).flatMap fun m => ["zenith", "azimuth", "ecf"].map fun v => (m, v)).Nodup := by decide +kernel
  refine ⟨by rw [h2]; exact e, fun c hc => ?_⟩
  have : c.1 ∈ sun.map (·.1) := List.mem_map_of_mem hc
  rw [h2, List.mem_flatMap] at this
  obtain ⟨m, hm, hv⟩ := this
  obtain ⟨v, -, hv⟩ := List.mem_map.1 hv
  rw [← hv]; exact hm

theorem names_disjoint : ∀ p ∈ otherMethods.map (·.1), p ∉ reportMethods.map sunwhereLabel := by decide +kernel

theorem data_facts {w : World XR} {times : Times} {lat lon : XR} {sun others : List ((String × String) × List XR)}
    {jpl : List (String × List XR)} (hb : BenchInput times jpl others) (h : sunwhereEphemeris w times lat lon = .ok sun) :
    let data : Frame XR := ⟨jpl.map (fun c => (("jpl", c.1), c.2)) ++ others ++ sun⟩
    (data.cols.map (·.1)).Nodup ∧ (∀ v, column data "jpl" v = jpl.lookup v) ∧
    (∀ m v, m ≠ "jpl" → column data m v = (others ++ sun).lookup (m, v)) ∧
    (∀ m v c, (others ++ sun).lookup (m, v) = some c → m ∈ printedNames.map (·.1) ∧ c.length = times.stamps.length) := by
  intro data
  obtain ⟨s1, s2⟩ := sun_labels h
  have hp : ∀ c ∈ others ++ sun, c.1.1 ∈ printedNames.map (·.1) := by
    intro c hc
    rw [printedNames, List.map_append, List.mem_append]
    rcases List.mem_append.1 hc with hc | hc
    · exact .inl (hb.names c hc)
    · right; rw [List.map_map]; exact s2 c hc
  have hj : ∀ c ∈ others ++ sun, c.1.1 ≠ "jpl" := fun c hc hh => printed_nodup.2.2 (hh ▸ hp c hc)
  refine ⟨?_, ?_, ?_, ?_⟩
  · show ((jpl.map (fun c => (("jpl", c.1), c.2)) ++ others ++ sun).map (·.1)).Nodup
    rw [List.append_assoc, List.map_append, List.nodup_append']
    refine ⟨?_, ?_, ?_⟩
    · rw [List.map_map]
      have : jpl.map ((fun c : (String × String) × List XR => c.1) ∘ fun c => (("jpl", c.1), c.2)) = (jpl.map (·.1)).map fun v => ("jpl", v) := by
        rw [List.map_map]; rfl
      rw [this]
      exact hb.jpl_labels.map fun a b hab => (Prod.mk.inj hab).2
    · rw [List.map_append, List.nodup_append']
      refine ⟨hb.other_labels, s1, ?_⟩
      intro x hx hx'
      obtain ⟨c, hc, rfl⟩ := List.mem_map.1 hx
      obtain ⟨c', hc', he⟩ := List.mem_map.1 hx'
      exact names_disjoint _ (hb.names c hc) (by rw [← he]; exact s2 c' hc')
    · intro x hx hx'
      rw [List.map_map] at hx
      obtain ⟨c, hc, rfl⟩ := List.mem_map.1 hx
      obtain ⟨c', hc', he⟩ := List.mem_map.1 hx'
      exact hj c' hc' (by rw [he]; rfl)
  · intro v
    show (jpl.map (fun c => (("jpl", c.1), c.2)) ++ others ++ sun).lookup ("jpl", v) = _
    rw [List.append_assoc]; exact lookup_jpl _ _ hj v
  · intro m v hm
    show (jpl.map (fun c => (("jpl", c.1), c.2)) ++ others ++ sun).lookup (m, v) = _
    rw [List.append_assoc]; exact lookup_rest _ _ hm v
  · intro m v c hc
    obtain ⟨l1, l2, he, -⟩ := List.lookup_eq_some_iff.1 hc
    have hmem : ((m, v), c) ∈ others ++ sun := by rw [he]; simp
    refine ⟨hp _ hmem, ?_⟩
    rcases List.mem_append.1 hmem with hmem | hmem
    · exact hb.other_rows _ hmem
    · have hl := (lookup_of_mem s1).1 hmem
      have h2 := (C76_columns h).2
      have : (m, v) ∈ sun.map (·.1) := List.mem_map.2 ⟨_, hmem, rfl⟩
      rw [h2, List.mem_flatMap] at this
      obtain ⟨m', hm', hv⟩ := this
      obtain ⟨p, hp, rfl⟩ := List.mem_map.1 hm'
      obtain ⟨s, -, g1, g2, g3⟩ := (C76_columns h).1 p hp
      simp only [List.map_cons, List.map_nil, List.mem_cons, List.not_mem_nil, or_false] at hv
      rcases hv with hv | hv | hv <;> (rw [hv] at hl; simp_all) <;> (rw [← hl]; simp)

theorem scale_scaled (f : ℝ) (s : Scores) : ScaledBy f s (s.scale f) := ⟨rfl, rfl, rfl, rfl, rfl, rfl⟩

theorem scaled_eq {f : ℝ} {s t : Scores} (h : ScaledBy f s t) : t = s.scale f := by
  obtain ⟨h1, h2, h3, h4, h5, h6⟩ := h
  cases t
  simp only at h1 h2 h3 h4 h5 h6
  subst h1 h2 h3 h4 h5 h6; rfl

theorem keep_none {v : String} {c z : List XR} {x : ℝ} : XR.fin x ∉ keepRows z (residueColumn false v c none) := by
  unfold keepRows residueColumn
  intro h
  obtain ⟨p, hp, hpe⟩ := List.mem_map.1 h
  have := List.of_mem_zip (List.mem_filter.1 hp).1
  obtain ⟨y, -, hy⟩ := List.mem_map.1 this.1
  rw [← hy] at hpe; cases hpe

/-- the rows of the tables, before they are sorted -/
theorem rows_facts {w : World XR} {times : Times} {lat lon : XR} {sun others : List ((String × String) × List XR)}
    {jpl : List (String × List XR)} (hb : BenchInput times jpl others) (h : sunwhereEphemeris w times lat lon = .ok sun)
    {z : List XR} (hz : jpl.lookup "zenith" = some z) :
    ∃ g : String → List (String × Scores),
      bulkErrors ⟨jpl.map (fun c => (("jpl", c.1), c.2)) ++ others ++ sun⟩ = .ok (["zenith", "ecf", "azimuth"].map fun v => (v, g v)) ∧
      (∀ v ∈ ["zenith", "azimuth", "ecf"], ∀ r ∈ g v, r.1 ∈ printedNames.map (·.1)) ∧ (∀ v, ((g v).map (·.1)).Nodup) ∧
      ∀ v ∈ ["zenith", "ecf", "azimuth"], ∀ m s, (m, s) ∈ g v ↔ ∃ c o, (others ++ sun).lookup (m, v) = some c ∧ jpl.lookup v = some o ∧
        s = scores (keptResidues v c o z) ∧ ∃ x, XR.fin x ∈ keptResidues v c o z := by
  obtain ⟨d1, d2, d3, d4⟩ := data_facts hb h
  have hcol := (C76_columns h).1
  have hlen : ∀ v o, jpl.lookup v = some o → o.length = times.stamps.length := fun v o ho =>
    hb.jpl_rows _ ((lookup_of_mem hb.jpl_labels).2 ho)
  have hjn : ∀ m v c, (others ++ sun).lookup (m, v) = some c → m ≠ "jpl" := fun m v c hc hh =>
    printed_nodup.2.2 (hh ▸ (d4 m v c hc).1)
  have hex : ∀ v ∈ ["zenith", "ecf", "azimuth"], ∃ m c, (others ++ sun).lookup (m, v) = some c := by
    intro v hv
    obtain ⟨p, hp⟩ : ∃ p, p ∈ reportMethods := ⟨_, List.mem_cons_self⟩
    obtain ⟨s, -, g1, g2, g3⟩ := hcol p hp
    have : ∃ c, ((sunwhereLabel p, v), c) ∈ others ++ sun := by
      simp only [List.mem_cons, List.not_mem_nil, or_false] at hv
      rcases hv with rfl | rfl | rfl
      · exact ⟨_, List.mem_append_right _ ((lookup_of_mem (sun_labels h).1).2 g1)⟩
      · exact ⟨_, List.mem_append_right _ ((lookup_of_mem (sun_labels h).1).2 g3)⟩
      · exact ⟨_, List.mem_append_right _ ((lookup_of_mem (sun_labels h).1).2 g2)⟩
    obtain ⟨c, hc⟩ := this
    refine ⟨sunwhereLabel p, ?_⟩
    cases hl : (others ++ sun).lookup (sunwhereLabel p, v) with
    | some c => exact ⟨c, rfl⟩
    | none => have := List.lookup_eq_none_iff.1 hl _ hc; simp at this
  obtain ⟨g, g1, gn, g2⟩ := bulk_spec (data := ⟨jpl.map (fun c => (("jpl", c.1), c.2)) ++ others ++ sun⟩) d1 (z := z) (by rw [d2]; exact hz) (by
    intro v hv
    obtain ⟨m, c, hc⟩ := hex v hv
    have hm := hjn m v c hc
    exact ⟨m, c, hm, by rw [d3 m v hm]; exact hc⟩)
  have hiff : ∀ v ∈ ["zenith", "ecf", "azimuth"], ∀ m s, (m, s) ∈ g v ↔ ∃ c o, (others ++ sun).lookup (m, v) = some c ∧ jpl.lookup v = some o ∧
        s = scores (keptResidues v c o z) ∧ ∃ x, XR.fin x ∈ keptResidues v c o z := by
    intro v hv m s
    rw [g2 v hv]
    constructor
    · rintro ⟨c, k1, k2, rfl, k4⟩
      rw [d3 m v k1] at k2
      rw [d2] at k4 ⊢
      rw [missing_iff] at k4
      push Not at k4
      cases ho : jpl.lookup v with
      | none => obtain ⟨x, hx⟩ := k4; rw [ho] at hx; exact absurd hx keep_none
      | some o =>
        rw [ho, keep_eq (by rw [(d4 m v c k2).2, hlen _ _ hz]) (by rw [hlen _ _ ho, hlen _ _ hz])] at k4
        rw [keep_eq (by rw [(d4 m v c k2).2, hlen _ _ hz]) (by rw [hlen _ _ ho, hlen _ _ hz])]
        exact ⟨c, o, k2, rfl, rfl, k4⟩
    · rintro ⟨c, o, k1, k2, rfl, k4⟩
      have hm := hjn m v c k1
      refine ⟨c, hm, by rw [d3 m v hm]; exact k1, ?_, ?_⟩
      · rw [d2, k2, keep_eq (by rw [(d4 m v c k1).2, hlen _ _ hz]) (by rw [hlen _ _ k2, hlen _ _ hz])]
      · rw [missing_iff]; push Not; exact k4
  refine ⟨g, g1, ?_, gn, hiff⟩
  intro v hv r hr
  obtain ⟨c, o, k1, -⟩ := (hiff v (by simp only [List.mem_cons, List.not_mem_nil, or_false] at hv ⊢; tauto) r.1 r.2).1 hr
  exact (d4 _ _ _ k1).1

theorem tables_mem {sort : List (String × Scores) → List (String × Scores)} (hs : SortsRmse sort) {g : List (String × Scores)} {f : ℝ}
    (hn : ∀ r ∈ g, r.1 ∈ printedNames.map (·.1)) {name : String} {sc : Scores} :
    (name, sc) ∈ (sort (g.map fun r => (r.1, r.2.scale f))).map (fun r => (printedName r.1, r.2)) ↔
      ∃ m s, (m, name) ∈ printedNames ∧ (m, s) ∈ g ∧ ScaledBy f s sc := by
  rw [List.mem_map]
  constructor
  · rintro ⟨⟨m, t⟩, hr, he⟩
    obtain ⟨rfl, rfl⟩ := Prod.mk.inj he
    obtain ⟨⟨m', s⟩, hr', he'⟩ := List.mem_map.1 ((hs.perm _).mem_iff.1 hr)
    obtain ⟨rfl, rfl⟩ := Prod.mk.inj he'
    obtain ⟨p, hp, rfl⟩ := List.mem_map.1 (hn _ hr')
    refine ⟨p.1, s, ?_, hr', scale_scaled _ _⟩
    simp only
    rw [printedName_of hp]; exact hp
  · rintro ⟨m, s, h1, h2, h3⟩
    refine ⟨(m, s.scale f), (hs.perm _).mem_iff.2 (List.mem_map.2 ⟨_, h2, rfl⟩), ?_⟩
    rw [printedName_of h1, scaled_eq h3]

/-- **C76** What the benchmark prints of the ephemerides: three tables (zenith angle and azimuth in arc seconds, eccentricity correction
factor in thousandths), in increasing order of the root mean square. Each has one row for each method that has a residue in a row whose
reference zenith angle is below 180 degrees, with the scores of these residues, and no other rows. -/
theorem C76_rows {sort : List (String × Scores) → List (String × Scores)} (hs : SortsRmse sort) {w : World XR} {times : Times} {lat lon : XR}
    {jpl : List (String × List XR)} {others : List ((String × String) × List XR)} (hb : BenchInput times jpl others)
    {z : List XR} (hz : jpl.lookup "zenith" = some z) {tables : List (String × List (String × Scores))}
    (h : runTables sort w times lat lon jpl others = .ok tables) :
    tables.map (·.1) = reportTables.map (·.2.1) ∧ ∃ sun, sunwhereEphemeris w times lat lon = .ok sun ∧
    ∀ v title f, (v, title, f) ∈ reportTables → ∃ rows, tables.lookup title = some rows ∧ rows.Pairwise ByRmse ∧ (rows.map (·.1)).Nodup ∧
      ∀ name sc, (name, sc) ∈ rows ↔ ∃ m c o, (m, name) ∈ printedNames ∧ (others ++ sun).lookup (m, v) = some c ∧ jpl.lookup v = some o ∧
        ScaledBy f (scores (keptResidues v c o z)) sc ∧ ∃ x, XR.fin x ∈ keptResidues v c o z := by
  unfold runTables at h
  obtain ⟨sun, h1, h⟩ := bind_ok h
  obtain ⟨g, g1, g2, gn, g3⟩ := rows_facts hb h1 hz
  rw [g1, ok_bind] at h
  rw [printed_ok' hs (printed_nonempty h) g2] at h
  have h := (Except.ok.inj h).symm
  subst h
  refine ⟨by rw [List.map_map]; rfl, sun, h1, ?_⟩
  intro v title f hv
  have hv3 : v ∈ ["zenith", "azimuth", "ecf"] ∧ v ∈ ["zenith", "ecf", "azimuth"] := by
    simp only [reportTables, List.mem_cons, Prod.mk.injEq, List.not_mem_nil, or_false] at hv
    rcases hv with ⟨rfl, -⟩ | ⟨rfl, -⟩ | ⟨rfl, -⟩ <;> simp
  have hnd : (reportTables.map (·.2.1)).Nodup := by simp [reportTables]
  have hlook : (reportTables.map fun v => (v.2.1, (sort ((g v.1).map fun r => (r.1, r.2.scale v.2.2))).map fun r => (printedName r.1, r.2))).lookup title
      = some ((sort ((g v).map fun r => (r.1, r.2.scale f))).map fun r => (printedName r.1, r.2)) :=
    (lookup_of_mem (by rw [List.map_map]; exact hnd)).1 (List.mem_map.2 ⟨(v, title, f), hv, rfl⟩)
  refine ⟨_, hlook, ?_, ?_, ?_⟩
  · rw [List.pairwise_map]
    exact (hs.sorted _).imp fun h => h
  · have h1 : ((sort ((g v).map fun r => (r.1, r.2.scale f))).map (·.1)).Perm ((g v).map (·.1)) := by
      have := (hs.perm ((g v).map fun r => (r.1, r.2.scale f))).map (·.1)
      rwa [List.map_map (l := g v)] at this
    have h2 : ((sort ((g v).map fun r => (r.1, r.2.scale f))).map (·.1)).Nodup := h1.nodup_iff.2 (gn v)
    have e : ((sort ((g v).map fun r => (r.1, r.2.scale f))).map fun r => (printedName r.1, r.2)).map (·.1) =
        ((sort ((g v).map fun r => (r.1, r.2.scale f))).map (·.1)).map printedName := by
      rw [List.map_map, List.map_map]; rfl
    rw [e]
    refine h2.map_on fun a ha b hb' hab => ?_
    have hmem : ∀ a ∈ (sort ((g v).map fun r => (r.1, r.2.scale f))).map (·.1), a ∈ printedNames.map (·.1) := by
      intro a ha
      obtain ⟨r, hr, rfl⟩ := List.mem_map.1 (h1.mem_iff.1 ha)
      exact g2 v hv3.1 r hr
    obtain ⟨p, hp, rfl⟩ := List.mem_map.1 (hmem a ha)
    obtain ⟨q, hq, rfl⟩ := List.mem_map.1 (hmem b hb')
    rw [printedName_of hp, printedName_of hq] at hab
    have := List.inj_on_of_nodup_map printed_nodup.2.1 hp hq hab
    rw [this]
  · intro name sc
    rw [tables_mem hs (g2 v hv3.1)]
    constructor
    · rintro ⟨m, s, k1, k2, k3⟩
      obtain ⟨c, o, l1, l2, rfl, l4⟩ := (g3 v hv3.2 m s).1 k2
      exact ⟨m, c, o, k1, l1, l2, k3, l4⟩
    · rintro ⟨m, c, o, k1, l1, l2, k3, l4⟩
      exact ⟨m, _, k1, (g3 v hv3.2 m _).2 ⟨c, o, l1, l2, rfl, l4⟩, k3⟩

/-! ### accuracy -/

/-- the zenith angle, in degrees, of the sun of the reference ephemeris at instant `t`, seen from latitude `φ` and longitude `l` -/
noncomputable def sunZenith (t : Int) (φ l : ℝ) : ℝ :=
  arccos (sin (rad φ) * sin (declination (century t)) + cos (rad φ) * cos (declination (century t)) * cos (hourAngle (century t) + rad l))
    * (180 / π)

/-- the times are naive or in UTC -/
def InUtc (times : Times) : Prop :=
  times.nested = false ∧ ∀ z, times.tz = some z → z.zone = .name "UTC" ∨ z.zone = .absent

theorem utc_localize (w : World XR) {times : Times} (h : InUtc times) : localizeTimes w times = .ok times.wall := by
  unfold localizeTimes timezoneOf
  cases htz : times.tz with
  | none => rfl
  | some z =>
    rcases h.2 z htz with hz | hz <;> simp only [hz]

theorem rmse_le {r : List XR} {E q : ℝ} (hE : 0 ≤ E) (h : ∀ x, XR.fin x ∈ r → |x| ≤ E) (hq : (scores r).rmse = some q) : q ≤ E := by
  have hq : (mean ((values r).map fun x => x ^ 2)).map (fun m => m ^ (0.5 : ℝ)) = some q := hq
  have hv : ∀ x ∈ values r, |x| ≤ E := by
    intro x hx
    unfold values at hx
    obtain ⟨y, hy, he⟩ := List.mem_filterMap.1 hx
    cases y with
    | nan => cases he
    | fin y => cases he; exact h _ hy
  by_cases hn : values r = []
  · rw [hn] at hq; simp [mean] at hq
  rw [mean_some (by simpa using hn), Option.map_some, Option.some_inj, List.length_map] at hq
  have hs : ((values r).map fun x => x ^ 2).sum ≤ (values r).length * E ^ 2 := by
    have := List.sum_le_card_nsmul ((values r).map fun x => x ^ 2) (E ^ 2) (by
      intro y hy
      obtain ⟨x, hx, rfl⟩ := List.mem_map.1 hy
      exact sq_le_sq' (by linarith [(abs_le.1 (hv x hx)).1]) (abs_le.1 (hv x hx)).2)
    rwa [List.length_map, nsmul_eq_mul] at this
  have hl : (0 : ℝ) < (values r).length := by exact_mod_cast List.length_pos_iff.2 hn
  rw [← hq, show (0.5 : ℝ) = 1 / 2 by norm_num, ← sqrt_eq_rpow]
  refine sqrt_le_iff.2 ⟨hE, ?_⟩
  rw [div_le_iff₀ hl]; linarith

theorem kept_mem {v : String} {m o z : List XR} {x : ℝ} (h : XR.fin x ∈ keptResidues v m o z) :
    ∃ (k : Nat) (a b : XR), m[k]? = some a ∧ o[k]? = some b ∧ XR.fin x = residue (v == "azimuth") false a b := by
  unfold keptResidues at h
  obtain ⟨k, -, hk⟩ := List.mem_filterMap.1 h
  split at hk
  · rename_i a b c h1 h2 h3
    split_ifs at hk
    exact ⟨k, a, b, h1, h2, (Option.some.inj hk).symm⟩
  · cases hk

theorem kept_of {v : String} {m o z : List XR} {k : Nat} {a b : XR} {c : ℝ} (h1 : m[k]? = some a) (h2 : o[k]? = some b) (h3 : z[k]? = some (XR.fin c))
    (hc : c < 180) : residue (v == "azimuth") false a b ∈ keptResidues v m o z := by
  unfold keptResidues
  refine List.mem_filterMap.2 ⟨k, ?_, ?_⟩
  · rw [List.mem_range]; exact (List.getElem?_eq_some_iff.1 h1).1
  · simp only [h1, h2, h3, hc, if_true]

theorem wrap_some (d : ℝ) : ∃ y, wrapAzimuth (XR.fin d) = XR.fin y := by
  have hw : ∀ (a b : XR) {x y : ℝ}, ∃ u, Num.whereLt a b (XR.fin x) (XR.fin y) = XR.fin u := by
    intro a b x y
    show ∃ u, (if XR.cmp (· < ·) a b = true then XR.fin x else XR.fin y) = XR.fin u
    split_ifs
    · exact ⟨_, rfl⟩
    · exact ⟨_, rfl⟩
  unfold wrapAzimuth
  obtain ⟨u, hu⟩ := hw (-330) (XR.fin d) (x := d) (y := -360 - d)
  have e : (-360 - XR.fin d : XR) = XR.fin (-360 - d) := rfl
  simp only
  rw [e, hu]
  exact hw (XR.fin u) 330

/-- the rows of sites() without refraction, against the ephemeris -/
theorem site_cells {w : World XR} {times : Times} {ts : List Int} {φ l : ℝ} {alg eng : String} {s : Sunpos XR}
    (h : call .sites w times (.scalar (XR.fin φ)) (.scalar (XR.fin l)) alg .pyFalse eng = .ok s) (hts : times.stamps = ts.map some)
    (hr : ∀ t ∈ ts, |t| < 2 ^ 63) {k : Nat} {t : Int} (hk : ts[k]? = some t) :
    ∃ z a e : ℝ, s.zenithDeg.get (rowAt k) = .fin z ∧ s.azimuthDeg.get (rowAt k) = .fin a ∧ s.ecf.get (rowAt k) = .fin e ∧
      |z - sunZenith t φ l| ≤ positionError alg eng ∧ |e - 1 / distance (century t) ^ 2| ≤ ecfError alg := by
  have hst : stampAt times.stamps (rowAt k .time) = some t := by
    show (times.stamps[k]?).getD none = some t
    rw [hts, List.getElem?_map, hk]; rfl
  have hrt := hr t (List.mem_of_getElem? hk)
  have hat : At s times (rowAt k) t φ l := by
    obtain ⟨lat, lon, b, utc, ha, hu, hres⟩ := call_inv h
    obtain rfl : [XR.fin φ] = lat := Option.some.inj ha.lat_eq
    obtain rfl : [XR.fin l] = lon := Option.some.inj ha.lon_eq
    refine ⟨?_, hst, hrt, ?_, ?_⟩
    · unfold Within; rw [hres.zen_dims]
      have : k < times.stamps.length := by rw [hts, List.length_map]; exact (List.getElem?_eq_some_iff.1 hk).1
      simp [rowAt, this]
    · rw [hres.latitude]; rfl
    · rw [hres.longitude]; rfl
  obtain ⟨-, hφ, hl, -⟩ := at_cases h hat
  obtain ⟨_, _, b, _, hacc, _, _⟩ := call_inv h
  have hkp := known_iff.2 ⟨b, hacc.names⟩
  obtain ⟨s', h', ha'⟩ := single_call .sites (alg := alg) (eng := eng) hkp .pyTrue hrt hφ hl
  obtain ⟨Z, hZ, hZ0, hZπ, -⟩ := refracted_side h (by simp) h' hat ha'
  obtain ⟨z, a, hz, ha, -⟩ := C54_position h (by simp) hat
  obtain ⟨e, he, hed⟩ := C54_ecf h hst hrt
  refine ⟨z, a, e, hz, ha, he, ?_, hed⟩
  have hs0 : 0 ≤ sunZenith t φ l := mul_nonneg (arccos_nonneg _) (by positivity)
  have hs1 : sunZenith t φ l ≤ 180 := by
    have := mul_le_mul_of_nonneg_right (arccos_le_pi (sin (rad φ) * sin (declination (century t)) + cos (rad φ) * cos (declination (century t)) * cos (hourAngle (century t) + rad l)))
      (show 0 ≤ 180 / π by positivity)
    have e : π * (180 / π) = 180 := by field_simp
    unfold sunZenith; linarith
  have hcos : cos (rad (sunZenith t φ l)) = sin (rad φ) * sin (declination (century t))
      + cos (rad φ) * cos (declination (century t)) * cos (hourAngle (century t) + rad l) := by
    unfold sunZenith
    rw [rad_deg, cos_arccos]
    · have := sphere_le_one (rad φ) (declination (century t)) (hourAngle (century t) + rad l); exact (abs_le.1 this).1
    · have := sphere_le_one (rad φ) (declination (century t)) (hourAngle (century t) + rad l); exact (abs_le.1 this).2
  have hn := zenith_near h (by simp) hat hcos hs0 hs1 hZ hZ0 hZπ
  rw [zenithDeg_fin hZ, XR.fin_inj] at hz
  have : rad z = Z := by rw [← hz, rad_deg]
  rw [← this, ← rad_sub] at hn
  unfold rad at hn
  rw [abs_mul, abs_of_pos (show 0 < π / 180 by positivity)] at hn
  exact le_of_mul_le_mul_right hn (by positivity)

/-- **C76** The accuracy that the benchmark reports: if the reference is within `η` degrees of the ephemeris sun in zenith angle, and within `η'`
of it in the eccentricity correction factor, and has the sun at a zenith angle below 180 degrees in some row, then the report comes out and
has a row for each algorithm and engine in each table. In the table of the zenith angles, bias, mean absolute error and root mean square of
the row (arc seconds) are at most those of the accuracy of the algorithm (C54) plus `η`; in that of the eccentricity correction factor,
likewise. -/
theorem C76_accuracy {sort : List (String × Scores) → List (String × Scores)} (hs : SortsRmse sort) (w : World XR) {times : Times} {ts : List Int}
    {φ l η η' : ℝ} {jpl : List (String × List XR)} {others : List ((String × String) × List XR)} {Z A E : List ℝ}
    (hb : BenchInput times jpl others) (hu : InUtc times) (hts : times.stamps = ts.map some) (hr : ∀ t ∈ ts, |t| < 2 ^ 63)
    (hφ : -90 ≤ φ ∧ φ ≤ 90) (hl : -180 ≤ l ∧ l < 180)
    (hz : jpl.lookup "zenith" = some (Z.map XR.fin)) (ha : jpl.lookup "azimuth" = some (A.map XR.fin)) (he : jpl.lookup "ecf" = some (E.map XR.fin))
    (hZ : ∀ (k : Nat) t z, ts[k]? = some t → Z[k]? = some z → |z - sunZenith t φ l| ≤ η)
    (hE : ∀ (k : Nat) t e, ts[k]? = some t → E[k]? = some e → |e - 1 / distance (century t) ^ 2| ≤ η')
    (hup : ∃ z ∈ Z, z < 180) :
    ∃ tables, runTables sort w times (.fin φ) (.fin l) jpl others = .ok tables ∧ ∀ m ∈ reportMethods,
      (∃ rows sc b a q, tables.lookup "zenith" = some rows ∧ (m.2.2, sc) ∈ rows ∧ sc.mbe = some b ∧ sc.mae = some a ∧ sc.rmse = some q ∧
        |b| ≤ a ∧ a ≤ q ∧ q ≤ 3600 * (positionError m.1 m.2.1 + η)) ∧
      (∃ rows sc b a q, tables.lookup "ecf (x10⁻³)" = some rows ∧ (m.2.2, sc) ∈ rows ∧ sc.mbe = some b ∧ sc.mae = some a ∧ sc.rmse = some q ∧
        |b| ≤ a ∧ a ≤ q ∧ q ≤ 1000 * (ecfError m.1 + η')) ∧
      (∃ rows sc b a q, tables.lookup "azimuth" = some rows ∧ (m.2.2, sc) ∈ rows ∧ sc.mbe = some b ∧ sc.mae = some a ∧ sc.rmse = some q ∧
        |b| ≤ a ∧ a ≤ q) := by
  have hknown : ∀ m ∈ reportMethods, KnownPair m.1 m.2.1 := by
    unfold KnownPair; decide +kernel
  have hcall : ∀ m ∈ reportMethods, ∃ s, call .sites w times (.scalar (XR.fin φ)) (.scalar (XR.fin l)) m.1 .pyFalse m.2.1 = .ok s := by
    intro m hm
    obtain ⟨b, hb⟩ := known_iff.1 (hknown m hm)
    obtain ⟨s, hs, -⟩ := call_ok (uc := .sites) (w := w) (times := times) (latitude := .scalar (XR.fin φ))
      (longitude := .scalar (XR.fin l)) (lat := [XR.fin φ]) (lon := [XR.fin l]) .pyFalse
      ⟨hu.1, rfl, rfl, rfl, hb, lonOk_XR.2 (by simpa [LonAdm] using hl), latOk_XR.2 (by simpa [LatAdm] using hφ)⟩ (utc_localize w hu)
    exact ⟨s, hs⟩
  obtain ⟨sun, hsun⟩ : ∃ sun, sunwhereEphemeris w times (.fin φ) (.fin l) = .ok sun := by
    unfold sunwhereEphemeris
    rw [default_eq]
    have : ∀ L : List (String × String × String), (∀ m ∈ L, m ∈ reportMethods) →
        ∃ fs, (L.map fun m => m.1 ++ "_" ++ m.2.1).mapM (sunwhereMethod w times (XR.fin φ) (XR.fin l)) = .ok fs := by
      intro L
      induction L with
      | nil => intro _; exact ⟨[], rfl⟩
      | cons m L ih =>
        intro hL
        obtain ⟨fs, hfs⟩ := ih fun m hm => hL m (List.mem_cons_of_mem _ hm)
        obtain ⟨s, hs⟩ := hcall m (hL m (by simp))
        rw [List.map_cons, List.mapM_cons, method_eq w times _ _ (hL m (by simp)), hs, ok_bind, hfs]
        exact ⟨_, rfl⟩
    obtain ⟨fs, hfs⟩ := this _ fun _ h => h
    rw [hfs]; exact ⟨_, rfl⟩
  obtain ⟨d1, d2, d3, d4⟩ := data_facts hb hsun
  have hlook : ∀ m ∈ reportMethods, ∃ s, call .sites w times (.scalar (XR.fin φ)) (.scalar (XR.fin l)) m.1 .pyFalse m.2.1 = .ok s ∧
      (others ++ sun).lookup (sunwhereLabel m, "zenith") = some ((List.range times.stamps.length).map fun k => s.zenithDeg.get (rowAt k)) ∧
      (others ++ sun).lookup (sunwhereLabel m, "azimuth") = some ((List.range times.stamps.length).map fun k => s.azimuthDeg.get (rowAt k)) ∧
      (others ++ sun).lookup (sunwhereLabel m, "ecf") = some ((List.range times.stamps.length).map fun k => s.ecf.get (rowAt k)) := by
    intro m hm
    obtain ⟨s, k1, k2, k3, k4⟩ := (C76_columns hsun).1 m hm
    have hno : ∀ v, others.lookup (sunwhereLabel m, v) = none := by
      intro v
      rw [List.lookup_eq_none_iff]
      intro p hp
      rw [bne_iff_ne]
      intro hh
      exact names_disjoint _ (hb.names p hp) (by rw [← hh]; exact List.mem_map_of_mem hm)
    exact ⟨s, k1, by rw [List.lookup_append, hno, k2]; rfl, by rw [List.lookup_append, hno, k3]; rfl, by rw [List.lookup_append, hno, k4]; rfl⟩
  obtain ⟨g, g1, g2, gn, g3⟩ := rows_facts hb hsun hz
  have hlZ : Z.length = ts.length := by
    have := hb.jpl_rows _ ((lookup_of_mem hb.jpl_labels).2 hz); simpa [hts] using this
  have hlA : A.length = ts.length := by
    have := hb.jpl_rows _ ((lookup_of_mem hb.jpl_labels).2 ha); simpa [hts] using this
  have hlE : E.length = ts.length := by
    have := hb.jpl_rows _ ((lookup_of_mem hb.jpl_labels).2 he); simpa [hts] using this
  obtain ⟨z0, hz0, hz180⟩ := hup
  obtain ⟨k0, hk0, rfl⟩ := List.mem_iff_getElem.1 hz0
  have hk0' : k0 < ts.length := hlZ ▸ hk0
  have hcell : ∀ (f : Nat → XR) (k : Nat) t, ts[k]? = some t → ((List.range times.stamps.length).map f)[k]? = some (f k) := by
    intro f k t hk
    rw [List.getElem?_map, List.getElem?_range (by rw [hts, List.length_map]; exact (List.getElem?_eq_some_iff.1 hk).1)]; rfl
  have hts0 : ts[k0]? = some ts[k0] := List.getElem?_eq_getElem hk0'
  have hz0' : (Z.map XR.fin)[k0]? = some (XR.fin Z[k0]) := by rw [List.getElem?_map, List.getElem?_eq_getElem hk0]; rfl
  -- one table
  have row : ∀ m ∈ reportMethods, ∀ v ∈ ["zenith", "ecf", "azimuth"], ∀ (f : Nat → XR) (O : List ℝ), O.length = ts.length →
      (others ++ sun).lookup (sunwhereLabel m, v) = some ((List.range times.stamps.length).map f) → jpl.lookup v = some (O.map XR.fin) →
      (∀ (k : Nat) t, ts[k]? = some t → ∃ x, f k = XR.fin x) →
      ∃ s b a q, (sunwhereLabel m, s) ∈ g v ∧ s.mbe = some b ∧ s.mae = some a ∧ s.rmse = some q ∧ |b| ≤ a ∧ a ≤ q ∧
        ∀ B : ℝ, 0 ≤ B → v ≠ "azimuth" → (∀ (k : Nat) t x o, ts[k]? = some t → f k = XR.fin x → O[k]? = some o → |x - o| ≤ B) → q ≤ B := by
    intro m hm v hv f O hO h1 h2 h3
    obtain ⟨x0, hx0⟩ := h3 k0 _ hts0
    have hO0 : (O.map XR.fin)[k0]? = some (XR.fin (O[k0]'(hO ▸ hk0'))) := by
      rw [List.getElem?_map, List.getElem?_eq_getElem (hO ▸ hk0')]; rfl
    have hmem := kept_of (v := v) (hcell f k0 _ hts0) hO0 hz0' hz180
    obtain ⟨y, hy⟩ : ∃ y, residue (v == "azimuth") false (f k0) (XR.fin (O[k0]'(hO ▸ hk0'))) = XR.fin y := by
      rw [hx0]
      by_cases hva : v = "azimuth"
      · subst hva
        exact wrap_some _
      · have : (v == "azimuth") = false := by simpa using hva
        rw [this]; exact ⟨_, rfl⟩
    rw [hy] at hmem
    obtain ⟨b, a, q, k1, k2, k3, k4, k5⟩ := C52_order hmem
    refine ⟨_, b, a, q, (g3 v hv _ _).2 ⟨_, _, h1, h2, rfl, _, hmem⟩, k1, k2, k3, k4, k5, ?_⟩
    intro B hB hva hbound
    refine rmse_le hB (fun x hx => ?_) k3
    obtain ⟨k, c, o, j1, j2, j3⟩ := kept_mem hx
    have hkl : k < ts.length := by
      have := (List.getElem?_eq_some_iff.1 j1).1; simpa [hts] using this
    have hkt : ts[k]? = some ts[k] := List.getElem?_eq_getElem hkl
    rw [hcell f k _ hkt] at j1
    obtain rfl := Option.some.inj j1
    rw [List.getElem?_map, List.getElem?_eq_getElem (hO ▸ hkl)] at j2
    obtain rfl := Option.some.inj j2
    obtain ⟨xk, hxk⟩ := h3 k _ hkt
    have : (v == "azimuth") = false := by simpa using hva
    rw [this, hxk] at j3
    have j3 : XR.fin x = XR.fin (xk - O[k]'(hO ▸ hkl)) := j3
    rw [XR.fin_inj] at j3
    rw [j3]
    exact hbound k _ _ _ hkt hxk (List.getElem?_eq_getElem _)
  have hne : ∀ v ∈ ["zenith", "azimuth", "ecf"], g v ≠ [] := by
    intro v hv
    obtain ⟨m, hm⟩ : ∃ m, m ∈ reportMethods := ⟨_, List.mem_cons_self⟩
    obtain ⟨s, k1, k2, k3, k4⟩ := hlook m hm
    have cells := fun k t hk => site_cells k1 hts hr (k := k) (t := t) hk
    simp only [List.mem_cons, List.not_mem_nil, or_false] at hv
    rcases hv with rfl | rfl | rfl
    · obtain ⟨_, _, _, _, hmem, -⟩ := row m hm "zenith" (by simp) _ Z hlZ k2 hz fun k t hk => by
        obtain ⟨z, a, e, j, -⟩ := cells k t hk; exact ⟨_, j⟩
      exact List.ne_nil_of_mem hmem
    · obtain ⟨_, _, _, _, hmem, -⟩ := row m hm "azimuth" (by simp) _ A hlA k3 ha fun k t hk => by
        obtain ⟨z, a, e, -, j, -⟩ := cells k t hk; exact ⟨_, j⟩
      exact List.ne_nil_of_mem hmem
    · obtain ⟨_, _, _, _, hmem, -⟩ := row m hm "ecf" (by simp) _ E hlE k4 he fun k t hk => by
        obtain ⟨z, a, e, -, -, j, -⟩ := cells k t hk; exact ⟨_, j⟩
      exact List.ne_nil_of_mem hmem
  refine ⟨_, by unfold runTables; rw [hsun, ok_bind, g1, ok_bind, printed_ok' hs hne g2], ?_⟩
  intro m hm
  obtain ⟨s, k1, k2, k3, k4⟩ := hlook m hm
  have cells := fun k t hk => site_cells k1 hts hr (k := k) (t := t) hk
  have hpr : (sunwhereLabel m, m.2.2) ∈ printedNames := List.mem_append_right _ (List.mem_map.2 ⟨m, hm, rfl⟩)
  obtain ⟨z1, a1, e1, -, -, -, hz1, he1⟩ := cells k0 _ hts0
  have hη := (abs_nonneg _).trans (hZ k0 _ _ hts0 (List.getElem?_eq_getElem hk0))
  have hη' := (abs_nonneg _).trans (hE k0 _ _ hts0 (List.getElem?_eq_getElem (hlE ▸ hk0')))
  have scaled : ∀ (F : ℝ), 0 < F → ∀ b a : ℝ, |b| ≤ a → |b * F| ≤ a * F := by
    intro F hF b a hba
    rw [abs_mul, abs_of_pos hF]; exact mul_le_mul_of_nonneg_right hba hF.le
  refine ⟨?_, ?_, ?_⟩
  · obtain ⟨sc, b, a, q, hmem, j1, j2, j3, j4, j5, j6⟩ := row m hm "zenith" (by simp) _ Z hlZ k2 hz fun k t hk => by
      obtain ⟨z, a, e, j, -⟩ := cells k t hk; exact ⟨_, j⟩
    refine ⟨_, sc.scale 3600, b * 3600, a * 3600, q * 3600, rfl, (tables_mem hs (g2 "zenith" (by simp))).2 ⟨_, sc, hpr, hmem, scale_scaled _ _⟩,
      by simp [Scores.scale, j1], by simp [Scores.scale, j2], by simp [Scores.scale, j3], scaled _ (by norm_num) _ _ j4, by linarith, ?_⟩
    have := j6 (positionError m.1 m.2.1 + η) (by have := (abs_nonneg _).trans hz1; linarith) (by decide) fun k t x o hk hx ho => by
      obtain ⟨z, a, e, jz, -, -, jd, -⟩ := cells k t hk
      rw [jz, XR.fin_inj] at hx
      subst hx
      have h1 := abs_le.1 jd
      have h2 := abs_le.1 (hZ k t o hk ho)
      rw [abs_le]; constructor <;> linarith
    linarith
  · obtain ⟨sc, b, a, q, hmem, j1, j2, j3, j4, j5, j6⟩ := row m hm "ecf" (by simp) _ E hlE k4 he fun k t hk => by
      obtain ⟨z, a, e, -, -, j, -⟩ := cells k t hk; exact ⟨_, j⟩
    refine ⟨_, sc.scale 1000, b * 1000, a * 1000, q * 1000, rfl, (tables_mem hs (g2 "ecf" (by simp))).2 ⟨_, sc, hpr, hmem, scale_scaled _ _⟩,
      by simp [Scores.scale, j1], by simp [Scores.scale, j2], by simp [Scores.scale, j3], scaled _ (by norm_num) _ _ j4, by linarith, ?_⟩
    have := j6 (ecfError m.1 + η') (by have := (abs_nonneg _).trans he1; linarith) (by decide) fun k t x o hk hx ho => by
      obtain ⟨z, a, e, -, -, je, -, jd⟩ := cells k t hk
      rw [je, XR.fin_inj] at hx
      subst hx
      have h1 := abs_le.1 jd
      have h2 := abs_le.1 (hE k t o hk ho)
      rw [abs_le]; constructor <;> linarith
    linarith
  · obtain ⟨sc, b, a, q, hmem, j1, j2, j3, j4, j5, -⟩ := row m hm "azimuth" (by simp) _ A hlA k3 ha fun k t hk => by
      obtain ⟨z, a, e, -, j, -⟩ := cells k t hk; exact ⟨_, j⟩
    exact ⟨_, sc.scale 3600, b * 3600, a * 3600, q * 3600, rfl, (tables_mem hs (g2 "azimuth" (by simp))).2 ⟨_, sc, hpr, hmem, scale_scaled _ _⟩,
      by simp [Scores.scale, j1], by simp [Scores.scale, j2], by simp [Scores.scale, j3], scaled _ (by norm_num) _ _ j4, by linarith⟩

/-! ### non-vacuity -/

/-- `sort_values(by='rmse')` by merging -/
noncomputable def mergeRmse (l : List (String × Scores)) : List (String × Scores) :=
  l.mergeSort fun a b => open Classical in decide (ByRmse a b)

theorem sorts_mergeRmse : SortsRmse mergeRmse where
  perm l := List.mergeSort_perm l _
  sorted l := by
    have h : (mergeRmse l).Pairwise fun a b => (open Classical in decide (ByRmse a b)) = true := by
      refine List.pairwise_mergeSort ?_ ?_ l
      · intro a b c h1 h2
        simp only [decide_eq_true_eq] at h1 h2 ⊢
        unfold ByRmse at *
        revert h1 h2
        cases a.2.rmse <;> cases b.2.rmse <;> cases c.2.rmse <;> simp only [false_implies, implies_true]
        exact fun h1 h2 => h1.trans h2
      · intro a b
        simp only [Bool.or_eq_true, decide_eq_true_eq]
        unfold ByRmse
        cases a.2.rmse <;> cases b.2.rmse <;> simp
        exact le_total _ _
    refine h.imp fun h => ?_
    simpa using h

/-- a benchmark that meets the hypotheses of `C76_accuracy` and, with its report, those of `C76_rows` and `C76_columns`: the south pole on
1 January 2000, with the ephemeris itself as the reference and a column of pvlib -/
example : ∃ tables, runTables mergeRmse exWorld (oneTime 946728000000000000) (.fin (-90)) (.fin 0)
      [("azimuth", [.fin 12]), ("zenith", [.fin (sunZenith 946728000000000000 (-90) 0)]),
        ("ecf", [.fin (1 / distance (century 946728000000000000) ^ 2)])]
      [(("pvlib.ephemeris", "zenith"), [.fin 67]), (("pvlib.ephemeris", "ecf"), [.nan])] = .ok tables ∧
    BenchInput (oneTime 946728000000000000) [("azimuth", [.fin 12]), ("zenith", [.fin (sunZenith 946728000000000000 (-90) 0)]),
        ("ecf", [.fin (1 / distance (century 946728000000000000) ^ 2)])]
      [(("pvlib.ephemeris", "zenith"), [.fin 67]), (("pvlib.ephemeris", "ecf"), [.nan])] ∧
    ∃ rows sc q, tables.lookup "zenith" = some rows ∧ ("sunwhere's SOLTRACK (numexpr)", sc) ∈ rows ∧ sc.rmse = some q ∧
      q ≤ 3600 * positionError "soltrack" "numexpr" := by
  have hb : BenchInput (oneTime 946728000000000000) [("azimuth", [.fin 12]), ("zenith", [.fin (sunZenith 946728000000000000 (-90) 0)]),
        ("ecf", [.fin (1 / distance (century 946728000000000000) ^ 2)])]
      [(("pvlib.ephemeris", "zenith"), [.fin 67]), (("pvlib.ephemeris", "ecf"), [.nan])] := by
    refine ⟨by simp, by simp, ?_, ?_, ?_⟩
    · intro c hc
      simp only [List.mem_cons, List.not_mem_nil, or_false] at hc
      rcases hc with rfl | rfl <;> simp [otherMethods]
    · intro c hc
      simp only [List.mem_cons, List.not_mem_nil, or_false] at hc
      rcases hc with rfl | rfl | rfl <;> rfl
    · intro c hc
      simp only [List.mem_cons, List.not_mem_nil, or_false] at hc
      rcases hc with rfl | rfl <;> rfl
  have h180 : sunZenith 946728000000000000 (-90) 0 < 180 := by
    obtain ⟨hc, hd⟩ := dec_2000
    have e90 : rad (-90) = -(π / 2) := by unfold rad; ring
    have hlow : -(π / 2) ≤ declination 0 := neg_pi_div_two_le_arcsin _
    unfold sunZenith
    rw [hc, e90, sin_neg, cos_neg, sin_pi_div_two, cos_pi_div_two]
    have hs : sin (declination 0) < 0 := sin_neg_of_neg_of_neg_pi_lt (by norm_num at hd; linarith) (by have := pi_pos; linarith)
    have : arccos (-1 * sin (declination 0) + 0 * cos (declination 0) * cos (hourAngle 0 + rad 0)) ≤ π / 2 := by
      rw [arccos_le_pi_div_two]; linarith
    have h2 := mul_le_mul_of_nonneg_right this (show 0 ≤ 180 / π by positivity)
    have e : π / 2 * (180 / π) = 90 := by field_simp; norm_num
    linarith
  obtain ⟨tables, h1, h2⟩ := C76_accuracy sorts_mergeRmse exWorld (ts := [946728000000000000]) (η := 0) (η' := 0)
    (Z := [sunZenith 946728000000000000 (-90) 0]) (A := [12]) (E := [1 / distance (century 946728000000000000) ^ 2]) hb ⟨rfl, by intro z hz; cases hz⟩ rfl
    (by simp) (φ := -90) (l := 0) (by norm_num) (by norm_num) rfl rfl rfl
    (by
      intro k t z ht hz
      cases k with
      | zero =>
        simp only [List.getElem?_cons_zero, Option.some.injEq] at ht hz
        rw [← ht, ← hz, sub_self, abs_zero]
      | succ k => simp at ht)
    (by
      intro k t z ht hz
      cases k with
      | zero =>
        simp only [List.getElem?_cons_zero, Option.some.injEq] at ht hz
        rw [← ht, ← hz, sub_self, abs_zero]
      | succ k => simp at ht)
    ⟨_, by simp, h180⟩
  refine ⟨tables, h1, hb, ?_⟩
  obtain ⟨rows, sc, b, a, q, k1, k2, k3, k4, k5, k6, k7, k8⟩ := (h2 ("soltrack", "numexpr", "sunwhere's SOLTRACK (numexpr)") (by simp [reportMethods])).1
  exact ⟨rows, sc, q, k1, k2, k5, by rwa [add_zero] at k8⟩

end SW.Props
