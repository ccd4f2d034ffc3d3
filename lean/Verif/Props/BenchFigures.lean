/-
C95: what the figures of the benchmark show.
-/
import Verif.BenchFigures
import Verif.Props.BenchReport
import Verif.Props.Speed

namespace SW.Props
open SW SW.Spec SW.Bench Real Sunpos
open SW.Ephem (century declination hourAngle distance)

/-! ### specification -/

/-- the strips of the figure: column label and name; each algorithm of sunwhere once, with the numexpr engine -/
def strips : List (String × String) :=
  [("sunwhere.nrel_numexpr", "sunwhere's NREL"), ("sunwhere.soltrack_numexpr", "sunwhere's SOLTRACK"), ("sunwhere.psa_numexpr", "sunwhere's PSA"),
   ("sunwhere.iqbal_numexpr", "sunwhere's IQBAL"), ("pvlib.nrel_numba", "pvlib's NREL"), ("pvlib.ephemeris", "pvlib's EPHEMERIS"),
   ("pvlib.pyephem", "pvlib's PYEPHEM"), ("sg2.sg2_c++", "SG2")]

/-- absolute value; what is missing stays missing -/
noncomputable def magnitude : XR → XR
  | .nan => .nan
  | .fin x => .fin |x|

/-- error of a method in a variable in row `k`; missing if there is no such column -/
noncomputable def errorAt (v : String) (c : Option (List XR)) (o : List XR) (k : Nat) : XR :=
  match c.bind (·[k]?), o[k]? with
  | some m, some o => residue (v == "azimuth") false m o
  | _, _ => .nan

/-- The points of a strip: absolute errors in zenith angle and azimuth, in the rows in which zenith angle, azimuth or eccentricity correction factor has an error.
`c` and `o` are the columns of the method and of the reference by variable. -/
noncomputable def stripPoints (n : Nat) (c : String → Option (List XR)) (o : String → List XR) : List (XR × XR) :=
  (List.range n).filterMap fun k => open Classical in
    if ∀ v ∈ ["zenith", "azimuth", "ecf"], errorAt v (c v) (o v) k = .nan then none
    else some (magnitude (errorAt "zenith" (c "zenith") (o "zenith") k), magnitude (errorAt "azimuth" (c "azimuth") (o "azimuth") k))

/-- order by mean absolute error, the missing ones last -/
def MaeLe : Option ℝ → Option ℝ → Prop
  | some p, some q => p ≤ q
  | none, some _ => False
  | _, none => True

/-- what pandas' `sort_values(by='mae')` does -/
structure SortsMae (sort : List (Option ℝ × Sample) → List (Option ℝ × Sample)) : Prop where
  perm : ∀ l, (sort l).Perm l
  sorted : ∀ l, (sort l).Pairwise fun a b => MaeLe a.1 b.1

/-- mean absolute error of a column of zenith angles -/
noncomputable def zenithMae (c o : List XR) : Option ℝ := (scores (keptResidues "zenith" c o o)).mae

namespace Figures

theorem absv_eq (x : XR) : Num.absv x = magnitude x := by cases x <;> rfl
theorem isNan_iff (x : XR) : Scalar.isNan x = true ↔ x = .nan := by
  cases x with
  | nan => simp only [iff_true]; rfl
  | fin x => constructor
             · intro h; cases h
             · intro h; cases h

theorem cell_residue (v : String) (c o : List XR) (k : Nat) : cellAt (residueColumn false v c (some o)) k = errorAt v (some c) o k := by
  unfold cellAt residueColumn errorAt
  simp only [Option.bind_some]
  rw [List.getElem?_zipWith]
  cases c[k]? <;> cases o[k]? <;> rfl

theorem filter_strip (l : List String) (hl : l.Nodup) (f : String → Option Sample) (hf : ∀ m s, f m = some s → s.method = m) (p : String) (hp : p ∉ l → f p = none) :
    (l.filterMap f).filter (fun s => s.method == p) = (f p).toList := by
  by_cases hpl : p ∈ l
  · clear hp
    induction l with
    | nil => simp at hpl
    | cons a l ih =>
      obtain ⟨h1, h2⟩ := List.nodup_cons.1 hl
      have other : ∀ l : List String, p ∉ l → (l.filterMap f).filter (fun s => s.method == p) = [] := by
        intro l hpl
        rw [List.filter_eq_nil_iff]
        intro s hs
        obtain ⟨m, hm, hms⟩ := List.mem_filterMap.1 hs
        rw [hf m s hms]
        simp only [beq_iff_eq]
        rintro rfl; exact hpl hm
      by_cases hap : p = a
      · subst hap
        rw [List.filterMap_cons]
        cases hfp : f p with
        | none => simp only; rw [other l h1]; rfl
        | some s =>
          simp only
          rw [List.filter_cons, hf p s hfp, other l h1]
          simp
      · have hp' : p ∈ l := by simpa [hap] using hpl
        rw [List.filterMap_cons]
        cases hfa : f a with
        | none => exact ih h2 hp'
        | some s =>
          simp only
          rw [List.filter_cons, hf a s hfa]
          have : (a == p) = false := by rw [beq_eq_false_iff_ne]; exact fun h => hap h.symm
          rw [this]
          exact ih h2 hp'
  · rw [hp hpl, Option.toList_none, List.filter_eq_nil_iff]
    intro s hs
    obtain ⟨m, hm, hms⟩ := List.mem_filterMap.1 hs
    rw [hf m s hms]
    simp only [beq_iff_eq]
    rintro rfl; exact hpl hm

theorem stack_method {r : Frame XR} {k : Nat} {m : String} {s : Sample} (h : stackRow r k m = some s) : s.method = m := by
  unfold stackRow at h
  split_ifs at h
  cases h; rfl

theorem method_empty {r : Frame XR} {m : String} (h : m ∉ r.methods) : r.method m = [] := by
  unfold Frame.method
  rw [List.map_eq_nil_iff, List.filter_eq_nil_iff]
  intro c hc hm
  have : c.1.1 = m := by simpa using hm
  apply h
  unfold Frame.methods
  rw [List.mem_dedup]
  exact List.mem_map.2 ⟨c, hc, this⟩

/-- the rows of one method -/
theorem stack_strip (r : Frame XR) (m : String) :
    (stackSamples r).filter (fun s => s.method == m) = (List.range r.rows).filterMap fun k => stackRow r k m := by
  unfold stackSamples
  rw [List.filter_flatMap]
  have : ∀ k, (r.methods.filterMap (stackRow r k)).filter (fun s => s.method == m) = (stackRow r k m).toList := fun k =>
    filter_strip _ (List.nodup_dedup _) _ (fun _ _ => stack_method) _ fun h => by
      unfold stackRow
      rw [method_empty h]; rfl
  simp only [this]
  rw [List.filterMap_eq_flatMap_toList]

theorem all_iff (r : Frame XR) (k : Nat) (m : String) : ((r.method m).all fun c => Scalar.isNan (cellAt c.2 k)) = true ↔
    ∀ c ∈ r.cols, c.1.1 = m → cellAt c.2 k = .nan := by
  unfold Frame.method
  simp only [List.all_map, List.all_eq_true, Function.comp_apply, isNan_iff, List.mem_filter, beq_iff_eq]
  constructor
  · intro h c hc hm; exact h c ⟨hc, hm⟩
  · rintro h c ⟨hc, hm⟩; exact h c hc hm

theorem kept_names : ∀ l ∈ printedNames.map (·.1), methodsToRemove.contains l = false → ∃ p ∈ strips, p.1 = l ∧ figureName l = p.2 := by decide +kernel
theorem strip_names : ∀ p ∈ strips, p.1 ∈ printedNames.map (·.1) ∧ methodsToRemove.contains p.1 = false ∧ figureName p.1 = p.2 := by decide +kernel
theorem strips_inj : ∀ p ∈ strips, ∀ q ∈ strips, p.2 = q.2 → p.1 = q.1 := by decide +kernel

/-- the frame of residues of the benchmark -/
theorem residue_facts {w : World XR} {times : Times} {lat lon : XR} {sun others : List ((String × String) × List XR)} {jpl : List (String × List XR)}
    (hb : BenchInput times jpl others) (hv : ∀ c ∈ others, c.1.2 ∈ ["zenith", "azimuth", "ecf"]) (h : sunwhereEphemeris w times lat lon = .ok sun)
    {o : String → List XR} (ho : ∀ v ∈ ["zenith", "azimuth", "ecf"], jpl.lookup v = some (o v)) :
    ∃ out, calcResidues ⟨jpl.map (fun c => (("jpl", c.1), c.2)) ++ others ++ sun⟩ "jpl" false = .ok out ∧ needColumns out = .ok () ∧
      out.rows = times.stamps.length ∧ (∀ m ∈ out.methods, m ∈ printedNames.map (·.1)) ∧
      ∀ k m, m ≠ "jpl" → stackRow out k m = open Classical in
        if ∀ v ∈ ["zenith", "azimuth", "ecf"], errorAt v ((others ++ sun).lookup (m, v)) (o v) k = .nan then none
        else some ⟨m, magnitude (errorAt "zenith" ((others ++ sun).lookup (m, "zenith")) (o "zenith") k),
          magnitude (errorAt "azimuth" ((others ++ sun).lookup (m, "azimuth")) (o "azimuth") k)⟩ := by
  obtain ⟨d1, d2, d3, d4⟩ := data_facts hb h
  obtain ⟨data, hdata⟩ : ∃ data : Frame XR, data = ⟨jpl.map (fun c => (("jpl", c.1), c.2)) ++ others ++ sun⟩ := ⟨_, rfl⟩
  rw [← hdata] at d1 d2 d3 ⊢
  have hoz := ho "zenith" (by simp)
  obtain ⟨out, h1, h2, h3⟩ := (C42_frame data "jpl" false).2 ⟨"zenith", o "zenith", by rw [d2]; exact hoz⟩
  have hndo : (out.cols.map (·.1)).Nodup := by rw [h2]; exact d1.filter _
  have hj : ∀ c ∈ out.cols, c.1.1 ≠ "jpl" := by
    intro c hc
    have : c.1 ∈ out.cols.map (·.1) := List.mem_map_of_mem hc
    rw [h2, List.mem_filter] at this
    simpa using this.2
  have hvar : ∀ c ∈ others ++ sun, c.1.2 ∈ ["zenith", "azimuth", "ecf"] := by
    intro c hc
    rcases List.mem_append.1 hc with hc | hc
    · exact hv c hc
    · have : c.1 ∈ sun.map (·.1) := List.mem_map_of_mem hc
      rw [(C76_columns h).2, List.mem_flatMap] at this
      obtain ⟨m, -, hm⟩ := this
      obtain ⟨v, hv, he⟩ := List.mem_map.1 hm
      rw [← he]; exact hv
  -- the columns of the residue frame
  have hcol : ∀ m v, m ≠ "jpl" → column out m v = ((others ++ sun).lookup (m, v)).map fun c => residueColumn false v c (some (o v)) := by
    intro m v hm
    cases hl : (others ++ sun).lookup (m, v) with
    | some c =>
      obtain ⟨l1, l2, he, -⟩ := List.lookup_eq_some_iff.1 hl
      have hvv := hvar ((m, v), c) (by rw [he]; simp)
      rw [h3 m v c hm (by rw [d3 m v hm]; exact hl), d2, ho v hvv]; rfl
    | none =>
      show out.cols.lookup (m, v) = none
      rw [List.lookup_eq_none_iff]
      intro p hp
      rw [bne_iff_ne]
      intro he
      have : p.1 ∈ out.cols.map (·.1) := List.mem_map_of_mem hp
      rw [h2, List.mem_filter, List.mem_map] at this
      obtain ⟨⟨c, hc, hcp⟩, -⟩ := this
      have hcl := (lookup_of_mem d1).1 (show (c.1, c.2) ∈ data.cols from hc)
      rw [hcp, ← he] at hcl
      have : column data m v = some c.2 := hcl
      rw [d3 m v hm, hl] at this; cases this
  have hmem : ∀ c ∈ out.cols, ∃ d, (others ++ sun).lookup c.1 = some d ∧ c.1.2 ∈ ["zenith", "azimuth", "ecf"] ∧ c.2 = residueColumn false c.1.2 d (some (o c.1.2)) := by
    rintro ⟨⟨m, v⟩, c⟩ hc
    have hl : column out m v = some c := (lookup_of_mem hndo).1 hc
    rw [hcol m v (hj _ hc)] at hl
    obtain ⟨d, hd, he⟩ := Option.map_eq_some_iff.1 hl
    obtain ⟨l1, l2, he', -⟩ := List.lookup_eq_some_iff.1 hd
    exact ⟨d, hd, hvar ((m, v), d) (by rw [he']; simp), he.symm⟩
  have hlen : ∀ c ∈ out.cols, c.2.length = times.stamps.length := by
    intro c hc
    obtain ⟨d, hd, hcv, he⟩ := hmem c hc
    rw [he]
    unfold residueColumn
    simp only
    rw [List.length_zipWith, (d4 c.1.1 c.1.2 d hd).2, hb.jpl_rows _ ((lookup_of_mem hb.jpl_labels).2 (ho _ hcv)), min_self]
  have hsome : ∀ v ∈ ["zenith", "azimuth", "ecf"], ∃ c ∈ out.cols, c.1.2 = v := by
    intro v hv
    have hin : ("sunwhere.nrel_numexpr", v) ∈ sun.map (·.1) := by
      rw [(C76_columns h).2, List.mem_flatMap]
      exact ⟨"sunwhere.nrel_numexpr", by decide +kernel, List.mem_map.2 ⟨v, hv, rfl⟩⟩
    have : ("sunwhere.nrel_numexpr", v) ∈ out.cols.map (·.1) := by
      rw [h2, List.mem_filter]
      refine ⟨?_, by simp⟩
      rw [hdata]
      simp only [List.map_append, List.mem_append]
      exact .inr hin
    obtain ⟨c, hc, he⟩ := List.mem_map.1 this
    exact ⟨c, hc, by rw [he]⟩
  refine ⟨out, h1, ?_, ?_, ?_, ?_⟩
  · have no : ∀ v ∈ ["zenith", "azimuth", "ecf"], (out.cols.all fun c => c.1.2 != v) = false := by
      intro v hv
      obtain ⟨c, hc, he⟩ := hsome v hv
      rw [List.all_eq_false]
      exact ⟨c, hc, by simp [he]⟩
    unfold needColumns
    rw [no _ (by simp), no _ (by simp), no _ (by simp)]
    rfl
  · obtain ⟨c, hc, -⟩ := hsome "zenith" (by simp)
    unfold Frame.rows
    obtain ⟨a, l, he⟩ : ∃ a l, out.cols = a :: l := List.exists_cons_of_ne_nil (List.ne_nil_of_mem hc)
    have := hlen a (by rw [he]; simp)
    rw [he]; exact this
  · intro m hm
    unfold Frame.methods at hm
    rw [List.mem_dedup] at hm
    obtain ⟨c, hc, rfl⟩ := List.mem_map.1 hm
    obtain ⟨d, hd, -⟩ := hmem c hc
    exact (d4 c.1.1 c.1.2 d hd).1
  · intro k m hm
    have hcell : ∀ v, cellAt ((column out m v).getD []) k = errorAt v ((others ++ sun).lookup (m, v)) (o v) k := by
      intro v
      rw [hcol m v hm]
      cases (others ++ sun).lookup (m, v) with
      | none => rfl
      | some c => exact cell_residue v c (o v) k
    have hall : ((out.method m).all fun c => Scalar.isNan (cellAt c.2 k)) = true ↔
        ∀ v ∈ ["zenith", "azimuth", "ecf"], errorAt v ((others ++ sun).lookup (m, v)) (o v) k = .nan := by
      rw [all_iff]
      constructor
      · intro hc v _
        rw [← hcell]
        cases hl : column out m v with
        | none => rfl
        | some c => exact hc _ ((lookup_of_mem hndo).2 hl) rfl
      · rintro hc ⟨⟨m', v⟩, c⟩ hcm rfl
        obtain ⟨d, hd, hvv, -⟩ := hmem _ hcm
        have := hc v hvv
        rw [← hcell, show column out m' v = some c from (lookup_of_mem hndo).1 hcm] at this
        exact this
    unfold stackRow
    by_cases hc : ∀ v ∈ ["zenith", "azimuth", "ecf"], errorAt v ((others ++ sun).lookup (m, v)) (o v) k = .nan
    · rw [if_pos (hall.2 hc), if_pos hc]
    · rw [if_neg (fun hh => hc (hall.1 hh)), if_neg hc, method_lookup, method_lookup, hcell, hcell, absv_eq, absv_eq]

theorem mae_lookup {g : List (String × Scores)} (hnd : (g.map (·.1)).Nodup) {m : String} {a : Option ℝ} :
    (g.map fun r => (r.1, r.2.mae)).lookup m = some a ↔ ∃ s, (m, s) ∈ g ∧ a = s.mae := by
  have : ((g.map fun r => (r.1, r.2.mae)).map (·.1)).Nodup := by rw [List.map_map]; exact hnd
  rw [← lookup_of_mem this, List.mem_map]
  constructor
  · rintro ⟨⟨m', s⟩, hs, he⟩
    obtain ⟨rfl, rfl⟩ := Prod.mk.inj he
    exact ⟨s, hs, rfl⟩
  · rintro ⟨s, hs, rfl⟩; exact ⟨_, hs, rfl⟩

theorem mae_mapM {b : List (String × Option ℝ)} {df : List Sample} {rows : List (Option ℝ × Sample)} (h : df.mapM (maeOf b) = .ok rows) :
    rows.map Prod.snd = df ∧ ∀ r ∈ rows, b.lookup r.2.method = some r.1 := by
  have hf := chart_mapM_ok h
  clear h
  induction hf with
  | nil => simp
  | cons h1 _ ih =>
    unfold maeOf at h1
    split at h1
    · rename_i a ha
      cases h1
      refine ⟨by rw [List.map_cons, ih.1], ?_⟩
      intro r hr
      rcases List.mem_cons.1 hr with rfl | hr
      · exact ha
      · exact ih.2 r hr
    · cases h1

theorem mae_total {b : List (String × Option ℝ)} {df : List Sample} (h : ∀ s ∈ df, ∃ a, b.lookup s.method = some a) : ∃ rows, df.mapM (maeOf b) = .ok rows := by
  induction df with
  | nil => exact ⟨[], rfl⟩
  | cons s df ih =>
    obtain ⟨rows, hr⟩ := ih fun s hs => h s (List.mem_cons_of_mem _ hs)
    obtain ⟨a, ha⟩ := h s (by simp)
    have e : maeOf b s = .ok (a, s) := by unfold maeOf; rw [ha]
    rw [List.mapM_cons, e, hr]
    exact ⟨_, rfl⟩

theorem mae_missing {b : List (String × Option ℝ)} {df : List Sample} {s : Sample} (hs : s ∈ df) (h : b.lookup s.method = none) :
    df.mapM (maeOf b) = .error .keyError := by
  induction df with
  | nil => simp at hs
  | cons a df ih =>
    rw [List.mapM_cons]
    cases hl : b.lookup a.method with
    | none =>
      have e : maeOf b a = .error .keyError := by unfold maeOf; rw [hl]
      rw [e]; rfl
    | some x =>
      have e : maeOf b a = .ok (x, a) := by unfold maeOf; rw [hl]
      rcases List.mem_cons.1 hs with rfl | hs
      · rw [h] at hl; cases hl
      · rw [e, ih hs]; rfl

theorem error_ne {v : String} {c : Option (List XR)} {o : List XR} {k : Nat} (h : errorAt v c o k ≠ .nan) : ∃ c' x, c = some c' ∧ c'[k]? = some (XR.fin x) := by
  unfold errorAt at h
  cases c with
  | none => exact absurd rfl h
  | some c =>
    rw [Option.bind_some] at h
    refine ⟨c, ?_⟩
    cases hk : c[k]? with
    | none => rw [hk] at h; exact absurd rfl h
    | some a =>
      cases a with
      | fin x => exact ⟨x, rfl, rfl⟩
      | nan =>
        exfalso
        rw [hk] at h
        cases ho : o[k]? with
        | none => rw [ho] at h; exact h rfl
        | some b =>
          rw [ho] at h
          apply h
          unfold residue
          simp only
          have : XR.nan - b = .nan := by cases b <;> rfl
          rw [this, wrap_nan]
          split_ifs <;> rfl

theorem error_fin {v : String} {c o : List XR} {k : Nat} {x y : ℝ} (hc : c[k]? = some (XR.fin x)) (ho : o[k]? = some (XR.fin y)) :
    ∃ e, errorAt v (some c) o k = XR.fin e ∧ (v ≠ "azimuth" → e = x - y) := by
  unfold errorAt
  rw [Option.bind_some, hc, ho]
  simp only
  by_cases hv : v = "azimuth"
  · subst hv
    obtain ⟨e, he⟩ := wrap_some (x - y)
    exact ⟨e, he, fun h => absurd rfl h⟩
  · have : (v == "azimuth") = false := by simpa using hv
    rw [this]
    exact ⟨x - y, rfl, fun _ => rfl⟩

theorem kept_zenith {c o : List XR} {k : Nat} {x y : ℝ} (hc : c[k]? = some (XR.fin x)) (ho : o[k]? = some (XR.fin y)) (hy : y < 180) :
    ∃ e, XR.fin e ∈ keptResidues "zenith" c o o := ⟨x - y, kept_of (v := "zenith") hc ho ho hy⟩

theorem sum_filter_le (ns : List String) (hn : ns.Nodup) (fig : List Sample) :
    (ns.map fun n => (fig.filter fun s => s.method == n).length).sum ≤ fig.length := by
  induction ns generalizing fig with
  | nil => simp
  | cons n ns ih =>
    obtain ⟨h1, h2⟩ := List.nodup_cons.1 hn
    have hi := ih h2 (fig.filter fun s => !(s.method == n))
    have e : (ns.map fun m => ((fig.filter fun s => !(s.method == n)).filter fun s => s.method == m).length) =
        ns.map fun m => (fig.filter fun s => s.method == m).length := by
      refine List.map_congr_left fun m hm => ?_
      rw [List.filter_filter]
      congr 1
      refine List.filter_congr fun s _ => ?_
      rw [Bool.eq_iff_iff]
      simp only [Bool.and_eq_true, beq_iff_eq, Bool.not_eq_true', beq_eq_false_iff_ne]
      constructor
      · exact fun h => h.1
      · rintro h
        refine ⟨h, ?_⟩
        rw [h]; rintro rfl; exact h1 hm
    rw [e] at hi
    rw [List.map_cons, List.sum_cons]
    have := List.length_eq_length_filter_add (l := fig) (fun s : Sample => s.method == n)
    omega

theorem drawn_methods : ∀ m ∈ reportMethods, m.2.1 = "numexpr" → ∃ p ∈ strips, p.1 = sunwhereLabel m := by decide +kernel
theorem drawn_four : ∀ p ∈ strips.take 4, ∃ m ∈ reportMethods, m.2.1 = "numexpr" ∧ p.1 = sunwhereLabel m := by decide +kernel
theorem strips_nodup : ((strips.take 4).map (·.2)).Nodup := by decide +kernel

/-- the calls of the benchmark -/
theorem sun_exists (w : World XR) {times : Times} {φ l : ℝ} (hu : InUtc times) (hφ : -90 ≤ φ ∧ φ ≤ 90) (hl : -180 ≤ l ∧ l < 180) :
    ∃ sun, sunwhereEphemeris w times (.fin φ) (.fin l) = .ok sun := by
  have hknown : ∀ m ∈ reportMethods, KnownPair m.1 m.2.1 := by
    unfold KnownPair; decide +kernel
  have hcall : ∀ m ∈ reportMethods, ∃ s, call .sites w times (.scalar (XR.fin φ)) (.scalar (XR.fin l)) m.1 .pyFalse m.2.1 = .ok s := by
    intro m hm
    obtain ⟨b, hb⟩ := known_iff.1 (hknown m hm)
    obtain ⟨s, hs, -⟩ := call_ok (uc := .sites) (w := w) (times := times) (latitude := .scalar (XR.fin φ))
      (longitude := .scalar (XR.fin l)) (lat := [XR.fin φ]) (lon := [XR.fin l]) .pyFalse
      ⟨hu.1, rfl, rfl, rfl, hb, lonOk_XR.2 (by simpa [LonAdm] using hl), latOk_XR.2 (by simpa [LatAdm] using hφ)⟩ (utc_localize w hu)
    exact ⟨s, hs⟩
  unfold sunwhereEphemeris
  rw [default_eq]
  have : ∀ L : List (String × String × String), (∀ m ∈ L, m ∈ reportMethods) →
      ∃ fs, (L.map fun m => m.1 ++ "_" ++ m.2.1).mapM (sunwhereMethod w times (XR.fin φ) (XR.fin l)) = .ok fs := by
    intro L
    induction L with
    | nil => intro _; exact ⟨[], rfl⟩
    | cons m L ih =>
      intro hL
      obtain ⟨fs, hfs⟩ := ih fun m hm => hL m (List.mem_cons_of_mem _ hm)
      obtain ⟨s, hs⟩ := hcall m (hL m (by simp))
      rw [List.map_cons, List.mapM_cons, method_eq w times _ _ (hL m (by simp)), hs, ok_bind, hfs]
      exact ⟨_, rfl⟩
  obtain ⟨fs, hfs⟩ := this _ fun _ h => h
  rw [hfs]; exact ⟨_, rfl⟩

theorem sun_lookup {w : World XR} {times : Times} {lat lon : XR} {sun others : List ((String × String) × List XR)}
    {jpl : List (String × List XR)} (hb : BenchInput times jpl others) (hsun : sunwhereEphemeris w times lat lon = .ok sun) {m : String × String × String}
    (hm : m ∈ reportMethods) : ∃ s, call .sites w times (.scalar lat) (.scalar lon) m.1 .pyFalse m.2.1 = .ok s ∧
      (others ++ sun).lookup (sunwhereLabel m, "zenith") = some ((List.range times.stamps.length).map fun k => s.zenithDeg.get (rowAt k)) ∧
      (others ++ sun).lookup (sunwhereLabel m, "azimuth") = some ((List.range times.stamps.length).map fun k => s.azimuthDeg.get (rowAt k)) ∧
      (others ++ sun).lookup (sunwhereLabel m, "ecf") = some ((List.range times.stamps.length).map fun k => s.ecf.get (rowAt k)) := by
  obtain ⟨s, k1, k2, k3, k4⟩ := (C76_columns hsun).1 m hm
  have hno : ∀ v, others.lookup (sunwhereLabel m, v) = none := by
    intro v
    rw [List.lookup_eq_none_iff]
    intro p hp
    rw [bne_iff_ne]
    intro hh
    exact names_disjoint _ (hb.names p hp) (by rw [← hh]; exact List.mem_map_of_mem hm)
  exact ⟨s, k1, by rw [List.lookup_append, hno, k2]; rfl, by rw [List.lookup_append, hno, k3]; rfl, by rw [List.lookup_append, hno, k4]; rfl⟩

theorem counts_unique {readInt : List Char → Option Int} {nLocs : NLocs} {N N' : Nat} (h : CountsPlaces readInt nLocs N) (h' : CountsPlaces readInt nLocs N') : N = N' := by
  cases nLocs with
  | int n =>
    simp only [CountsPlaces] at h h'
    omega
  | text s =>
    obtain ⟨a, b, rest, m, n, q1, q2, q3, q4, q5, q6, q7⟩ := h
    obtain ⟨a', b', rest', m', n', q1', q2', q3', q4', q5', q6', q7'⟩ := h'
    obtain ⟨ws, hw⟩ := SpeedTest.split_of_text q2 q3 q4
    obtain ⟨ws', hw'⟩ := SpeedTest.split_of_text q2' q3' q4'
    rw [← q1] at hw
    rw [← q1', hw] at hw'
    cases hw'
    rw [q5] at q5'; cases q5'
    rw [q6] at q6'; cases q6'
    rw [q7', ← q7]
  | other => exact h.elim

end Figures
open Figures

/-! ### theorems -/

/-- **C95** What the figure of accuracy shows. If it comes out, its strips are those of `strips` (every algorithm of sunwhere once, with numexpr); the points of a
strip are, in some order, the absolute errors of the column of its method against the reference, in all rows in which there is one; and the strips come in increasing order of the mean absolute
error of the zenith angle. -/
theorem C95_strips {sort : List (Option ℝ × Sample) → List (Option ℝ × Sample)} (hs : SortsMae sort) {w : World XR} {times : Times} {lat lon : XR}
    {sun others : List ((String × String) × List XR)} {jpl : List (String × List XR)} (hb : BenchInput times jpl others)
    (hv : ∀ c ∈ others, c.1.2 ∈ ["zenith", "azimuth", "ecf"]) (hsun : sunwhereEphemeris w times lat lon = .ok sun)
    {o : String → List XR} (ho : ∀ v ∈ ["zenith", "azimuth", "ecf"], jpl.lookup v = some (o v)) {fig : List Sample}
    (h : accuracyFigure sort w times lat lon jpl others = .ok fig) :
    (∀ s ∈ fig, s.method ∈ strips.map (·.2)) ∧
    (∀ p ∈ strips, ((fig.filter fun s => s.method == p.2).map fun s => (s.zenith, s.azimuth)).Perm
      (stripPoints times.stamps.length (fun v => (others ++ sun).lookup (p.1, v)) o)) ∧
    fig.Pairwise fun a b => ∀ p ∈ strips, ∀ q ∈ strips, p.2 = a.method → q.2 = b.method →
      ∃ c d, (others ++ sun).lookup (p.1, "zenith") = some c ∧ (others ++ sun).lookup (q.1, "zenith") = some d ∧
        MaeLe (zenithMae c (o "zenith")) (zenithMae d (o "zenith")) := by
  have hoz := ho "zenith" (by simp)
  obtain ⟨g, g1, -, gn, g3⟩ := rows_facts hb hsun hoz
  obtain ⟨out, o1, o2, o3, o4, o5⟩ := residue_facts hb hv hsun ho
  unfold accuracyFigure at h
  rw [hsun, ok_bind] at h
  simp only at h
  rw [g1, ok_bind] at h
  unfold accuracyData at h
  rw [o1, ok_bind, o2, ok_bind] at h
  obtain ⟨df, h1, h2⟩ := bind_ok h
  have h2 : Except.ok ((df.filter fun s => !methodsToRemove.contains s.method).map fun s => { s with method := figureName s.method }) = (Except.ok fig : Except PyErr _) := h2
  injection h2 with h2
  unfold orderSamples at h1
  obtain ⟨rows, h3, h4⟩ := bind_ok h1
  have h4 : Except.ok ((sort rows).map Prod.snd) = (Except.ok df : Except PyErr _) := h4
  injection h4 with h4
  obtain ⟨m1, m2⟩ := mae_mapM h3
  have hz : (["zenith", "ecf", "azimuth"].map fun v => (v, g v)).lookup "zenith" = some (g "zenith") := by
    simp
  have hperm : df.Perm (stackSamples out) := by
    rw [← h4, ← m1]; exact (hs.perm rows).map _
  have hnames : ∀ s ∈ df, s.method ∈ printedNames.map (·.1) := by
    intro s hs
    have := hperm.mem_iff.1 hs
    unfold stackSamples at this
    obtain ⟨k, -, hk⟩ := List.mem_flatMap.1 this
    obtain ⟨m, hm, hms⟩ := List.mem_filterMap.1 hk
    rw [stack_method hms]
    exact o4 m hm
  refine ⟨?_, ?_, ?_⟩
  · intro s hsf
    rw [← h2] at hsf
    obtain ⟨s', hs', rfl⟩ := List.mem_map.1 hsf
    obtain ⟨hs1, hs2⟩ := List.mem_filter.1 hs'
    obtain ⟨p, hp, -, hpn⟩ := kept_names _ (hnames s' hs1) (by simpa using hs2)
    exact List.mem_map.2 ⟨p, hp, hpn.symm⟩
  · intro p hp
    obtain ⟨p1, p2, p3⟩ := strip_names p hp
    have hpj : p.1 ≠ "jpl" := fun hh => printed_nodup.2.2 (hh ▸ p1)
    rw [← h2, List.filter_map, List.map_map, List.filter_filter]
    have e1 : (df.filter fun a => ((fun s : Sample => s.method == p.2) ∘ fun s : Sample => { s with method := figureName s.method }) a && !methodsToRemove.contains a.method) =
        df.filter fun s => s.method == p.1 := by
      refine List.filter_congr fun s hs => ?_
      rw [Bool.eq_iff_iff]
      simp only [Function.comp_apply, Bool.and_eq_true, beq_iff_eq]
      constructor
      · rintro ⟨a1, a2⟩
        obtain ⟨q, hq, hq1, hq2⟩ := kept_names _ (hnames s hs) (by simpa using a2)
        rw [← hq1]
        exact strips_inj q hq p hp (by rw [← hq2, a1])
      · rintro he
        rw [he, p2, p3]; simp
    rw [e1]
    have e2 := (hperm.filter fun s => s.method == p.1).map ((fun s : Sample => (s.zenith, s.azimuth)) ∘ fun s : Sample => { s with method := figureName s.method })
    refine e2.trans ?_
    rw [stack_strip, o3, List.map_filterMap]
    unfold stripPoints
    have e3 : ∀ k, Option.map ((fun s : Sample => (s.zenith, s.azimuth)) ∘ fun s : Sample => { s with method := figureName s.method }) (stackRow out k p.1) =
        (open Classical in if ∀ v ∈ ["zenith", "azimuth", "ecf"], errorAt v ((others ++ sun).lookup (p.1, v)) (o v) k = .nan then none
        else some (magnitude (errorAt "zenith" ((others ++ sun).lookup (p.1, "zenith")) (o "zenith") k),
          magnitude (errorAt "azimuth" ((others ++ sun).lookup (p.1, "azimuth")) (o "azimuth") k))) := by
      intro k
      rw [o5 k p.1 hpj]
      split_ifs <;> rfl
    simp only [e3]
    exact List.Perm.refl _
  · rw [← h2, ← h4, List.pairwise_map]
    rw [List.pairwise_filter, List.pairwise_map]
    refine (hs.sorted rows).imp_of_mem ?_
    intro a b ha hb' hab ra rb p hp q hq hpa hqb
    have key : ∀ r ∈ sort rows, ∀ p ∈ strips, p.2 = figureName r.2.method → methodsToRemove.contains r.2.method = false →
        ∃ c, (others ++ sun).lookup (p.1, "zenith") = some c ∧ r.1 = zenithMae c (o "zenith") := by
      intro r hr p hp hpr hrem
      have hr' := (hs.perm rows).mem_iff.1 hr
      have hl := m2 r hr'
      rw [hz, Option.getD_some, mae_lookup (gn _)] at hl
      obtain ⟨s, hs, hsa⟩ := hl
      obtain ⟨c, oo, k1, k2, k3, -⟩ := (g3 "zenith" (by simp) _ _).1 hs
      have hdf : r.2 ∈ df := by rw [← h4]; exact List.mem_map_of_mem hr
      obtain ⟨q, hq, hq1, hq2⟩ := kept_names _ (hnames _ hdf) hrem
      have := strips_inj q hq p hp (by rw [← hq2, hpr])
      rw [← this, hq1]
      rw [hoz] at k2
      obtain rfl := Option.some.inj k2
      exact ⟨c, k1, by rw [hsa, k3]; rfl⟩
    obtain ⟨c, c1, c2⟩ := key a ha p hp hpa (by simpa using ra)
    obtain ⟨d, d1, d2⟩ := key b hb' q hq hqb (by simpa using rb)
    exact ⟨c, d, c1, d1, by rw [← c2, ← d2]; exact hab⟩

/-- **C95** When the figure comes out: exactly if every method that has an error in some row and variable has one in the zenith angle (in a row whose reference zenith angle is below
180 degrees), since the strips are put in the order of that error; otherwise it ends in a KeyError. This includes methods that are not drawn. -/
theorem C95_key {sort : List (Option ℝ × Sample) → List (Option ℝ × Sample)} {w : World XR} {times : Times} {lat lon : XR}
    {sun others : List ((String × String) × List XR)} {jpl : List (String × List XR)} (hb : BenchInput times jpl others)
    (hv : ∀ c ∈ others, c.1.2 ∈ ["zenith", "azimuth", "ecf"]) (hsun : sunwhereEphemeris w times lat lon = .ok sun)
    {o : String → List XR} (ho : ∀ v ∈ ["zenith", "azimuth", "ecf"], jpl.lookup v = some (o v)) :
    ((∀ m k, k < times.stamps.length → (∃ v ∈ ["zenith", "azimuth", "ecf"], errorAt v ((others ++ sun).lookup (m, v)) (o v) k ≠ .nan) →
        ∃ c x, (others ++ sun).lookup (m, "zenith") = some c ∧ XR.fin x ∈ keptResidues "zenith" c (o "zenith") (o "zenith")) →
      ∃ fig, accuracyFigure sort w times lat lon jpl others = .ok fig) ∧
    (∀ m k, k < times.stamps.length → (∃ v ∈ ["zenith", "azimuth", "ecf"], errorAt v ((others ++ sun).lookup (m, v)) (o v) k ≠ .nan) →
      (¬ ∃ c x, (others ++ sun).lookup (m, "zenith") = some c ∧ XR.fin x ∈ keptResidues "zenith" c (o "zenith") (o "zenith")) →
      accuracyFigure sort w times lat lon jpl others = .error .keyError) := by
  have hoz := ho "zenith" (by simp)
  obtain ⟨g, g1, -, gn, g3⟩ := rows_facts hb hsun hoz
  obtain ⟨out, o1, o2, o3, o4, o5⟩ := residue_facts hb hv hsun ho
  obtain ⟨-, -, -, d4⟩ := data_facts hb hsun
  have hz : (["zenith", "ecf", "azimuth"].map fun v => (v, g v)).lookup "zenith" = some (g "zenith") := by
    simp
  have hl : ∀ m a, ((g "zenith").map fun r => (r.1, r.2.mae)).lookup m = some a → 
      ∃ c x, (others ++ sun).lookup (m, "zenith") = some c ∧ XR.fin x ∈ keptResidues "zenith" c (o "zenith") (o "zenith") := by
    intro m a h
    obtain ⟨s, hs, -⟩ := (mae_lookup (gn _)).1 h
    obtain ⟨c, oo, k1, k2, -, x, hx⟩ := (g3 "zenith" (by simp) _ _).1 hs
    rw [hoz] at k2
    obtain rfl := Option.some.inj k2
    exact ⟨c, x, k1, hx⟩
  have hl' : ∀ m c x, (others ++ sun).lookup (m, "zenith") = some c → XR.fin x ∈ keptResidues "zenith" c (o "zenith") (o "zenith") →
      ∃ a, ((g "zenith").map fun r => (r.1, r.2.mae)).lookup m = some a := by
    intro m c x h1 h2
    exact ⟨_, (mae_lookup (gn _)).2 ⟨_, (g3 "zenith" (by simp) m _).2 ⟨c, _, h1, hoz, rfl, x, h2⟩, rfl⟩⟩
  have hfig : accuracyFigure sort w times lat lon jpl others = (do
      let df ← orderSamples sort (stackSamples out) (some ((g "zenith").map fun r => (r.1, r.2.mae)))
      return (df.filter fun s => !methodsToRemove.contains s.method).map fun s => { s with method := figureName s.method }) := by
    unfold accuracyFigure
    rw [hsun, ok_bind]
    simp only
    rw [g1, ok_bind]
    unfold accuracyData
    rw [o1, ok_bind, o2, ok_bind, hz]
    rfl
  have hj : ∀ m k, (∃ v ∈ ["zenith", "azimuth", "ecf"], errorAt v ((others ++ sun).lookup (m, v)) (o v) k ≠ .nan) → m ≠ "jpl" := by
    rintro m k ⟨v, -, he⟩ rfl
    cases hc : (others ++ sun).lookup ("jpl", v) with
    | none => rw [hc] at he; exact he rfl
    | some c => exact printed_nodup.2.2 (d4 _ _ _ hc).1
  constructor
  · intro hall
    obtain ⟨rows, hrows⟩ := mae_total (b := (g "zenith").map fun r => (r.1, r.2.mae)) (df := stackSamples out) (by
      intro s hs
      unfold stackSamples at hs
      obtain ⟨k, hk, hs⟩ := List.mem_flatMap.1 hs
      obtain ⟨m, hm, hms⟩ := List.mem_filterMap.1 hs
      rw [stack_method hms]
      have hmj : m ≠ "jpl" := fun hh => printed_nodup.2.2 (hh ▸ o4 m hm)
      rw [o5 k m hmj] at hms
      split_ifs at hms with hc
      push Not at hc
      obtain ⟨c, x, h1, h2⟩ := hall m k (by rw [List.mem_range, o3] at hk; exact hk) hc
      exact hl' m c x h1 h2)
    rw [hfig]
    unfold orderSamples
    simp only
    rw [hrows]
    exact ⟨_, rfl⟩
  · intro m k hk hc hno
    have hmj := hj m k hc
    have hrow := o5 k m hmj
    rw [if_neg (by push Not; exact hc)] at hrow
    have := mae_missing (b := (g "zenith").map fun r => (r.1, r.2.mae)) (df := stackSamples out) (s := ⟨m, _, _⟩) (by
      unfold stackSamples
      refine List.mem_flatMap.2 ⟨k, by rw [List.mem_range, o3]; exact hk, List.mem_filterMap.2 ⟨m, ?_, hrow⟩⟩
      by_contra hm
      unfold stackRow at hrow
      rw [method_empty hm] at hrow
      simp at hrow) (by
      cases hlk : ((g "zenith").map fun r => (r.1, r.2.mae)).lookup m with
      | none => rfl
      | some a => exact absurd (hl m a hlk) hno)
    rw [hfig]
    unfold orderSamples
    simp only
    rw [this]
    rfl

/-- **C95** The accuracy that the figure shows. If the reference is within `η` degrees of the ephemeris sun in zenith angle, with all zenith angles below 180 degrees, and every method of another package
that has values has zenith angles, the figure comes out, and the strip of each algorithm of sunwhere has a point for each row of the reference, whose zenith error is at most the accuracy of the
algorithm (C54) plus `η`. The number of samples in the title is the number of points of all strips together, at least four times the number of rows. -/
theorem C95_accuracy {sort : List (Option ℝ × Sample) → List (Option ℝ × Sample)} (hs : SortsMae sort) (w : World XR) {times : Times} {ts : List Int}
    {φ l η : ℝ} {jpl : List (String × List XR)} {others : List ((String × String) × List XR)} {Z A E : List ℝ}
    (hb : BenchInput times jpl others) (hv : ∀ c ∈ others, c.1.2 ∈ ["zenith", "azimuth", "ecf"]) (hu : InUtc times) (hts : times.stamps = ts.map some)
    (hr : ∀ t ∈ ts, |t| < 2 ^ 63) (hφ : -90 ≤ φ ∧ φ ≤ 90) (hl : -180 ≤ l ∧ l < 180)
    (hz : jpl.lookup "zenith" = some (Z.map XR.fin)) (ha : jpl.lookup "azimuth" = some (A.map XR.fin)) (he : jpl.lookup "ecf" = some (E.map XR.fin))
    (hZ : ∀ (k : Nat) t z, ts[k]? = some t → Z[k]? = some z → |z - sunZenith t φ l| ≤ η) (hup : ∀ z ∈ Z, z < 180)
    (hother : ∀ m v c x, others.lookup (m, v) = some c → XR.fin x ∈ c → ∃ c' y, others.lookup (m, "zenith") = some c' ∧ XR.fin y ∈ c') :
    ∃ fig, accuracyFigure sort w times (.fin φ) (.fin l) jpl others = .ok fig ∧ 4 * ts.length ≤ fig.length ∧
      ∀ m ∈ reportMethods, m.2.1 = "numexpr" → ∃ name, (sunwhereLabel m, name) ∈ strips ∧ (fig.filter fun s => s.method == name).length = ts.length ∧
        ∀ s ∈ fig, s.method = name → ∃ z a, s.zenith = .fin z ∧ s.azimuth = .fin a ∧ 0 ≤ z ∧ z ≤ positionError m.1 m.2.1 + η ∧ 0 ≤ a := by
  obtain ⟨sun, hsun⟩ := sun_exists w hu hφ hl
  obtain ⟨o, hodef⟩ : ∃ o : String → List XR, o = fun v => if v = "zenith" then Z.map XR.fin else if v = "azimuth" then A.map XR.fin else E.map XR.fin := ⟨_, rfl⟩
  have oz : o "zenith" = Z.map XR.fin := by rw [hodef]; simp
  have oa : o "azimuth" = A.map XR.fin := by rw [hodef]; simp
  have oe : o "ecf" = E.map XR.fin := by rw [hodef]; simp
  have ho : ∀ v ∈ ["zenith", "azimuth", "ecf"], jpl.lookup v = some (o v) := by
    intro v hv
    simp only [List.mem_cons, List.not_mem_nil, or_false] at hv
    rcases hv with rfl | rfl | rfl
    · rw [oz, hz]
    · rw [oa, ha]
    · rw [oe, he]
  obtain ⟨d1, d2, d3, d4⟩ := data_facts hb hsun
  have hn : times.stamps.length = ts.length := by rw [hts, List.length_map]
  have hlen : ∀ v (O : List ℝ), jpl.lookup v = some (O.map XR.fin) → O.length = ts.length := by
    intro v O h
    have := hb.jpl_rows _ ((lookup_of_mem hb.jpl_labels).2 h)
    simpa [hts] using this
  have hlZ := hlen _ _ hz
  have hlA := hlen _ _ ha
  have hlE := hlen _ _ he
  have fget : ∀ (O : List ℝ) (k : Nat) (hk : k < O.length), (O.map XR.fin)[k]? = some (XR.fin O[k]) := by
    intro O k hk; rw [List.getElem?_map, List.getElem?_eq_getElem hk]; rfl
  have hcell : ∀ (f : Nat → XR) (k : Nat), k < ts.length → ((List.range times.stamps.length).map f)[k]? = some (f k) := by
    intro f k hk
    rw [List.getElem?_map, List.getElem?_range (by rw [hn]; exact hk)]; rfl
  have cells : ∀ m ∈ reportMethods, ∀ k, k < ts.length → ∃ (c : String → List XR) (z a e : ℝ), (∀ v ∈ ["zenith", "azimuth", "ecf"], (others ++ sun).lookup (sunwhereLabel m, v) = some (c v)) ∧
      (c "zenith")[k]? = some (XR.fin z) ∧ (c "azimuth")[k]? = some (XR.fin a) ∧ (c "ecf")[k]? = some (XR.fin e) ∧
      ∀ zo, Z[k]? = some zo → |z - zo| ≤ positionError m.1 m.2.1 + η := by
    intro m hm k hk
    obtain ⟨s, k1, k2, k3, k4⟩ := sun_lookup hb hsun hm
    obtain ⟨z, a, e, hz, ha, he, hzd, -⟩ := site_cells k1 hts hr (List.getElem?_eq_getElem hk)
    refine ⟨fun v => if v = "zenith" then (List.range times.stamps.length).map fun k => s.zenithDeg.get (rowAt k) else
      if v = "azimuth" then (List.range times.stamps.length).map fun k => s.azimuthDeg.get (rowAt k) else (List.range times.stamps.length).map fun k => s.ecf.get (rowAt k),
      z, a, e, ?_, ?_, ?_, ?_, ?_⟩
    · intro v hv
      simp only [List.mem_cons, List.not_mem_nil, or_false] at hv
      rcases hv with rfl | rfl | rfl
      · simpa using k2
      · simpa using k3
      · simpa using k4
    · simp only [if_true]; rw [hcell _ k hk, hz]
    · beta_reduce; rw [if_neg (by decide), if_pos rfl, hcell _ k hk, ha]
    · beta_reduce; rw [if_neg (by decide), if_neg (by decide), hcell _ k hk, he]
    · intro zo hzo
      have h1 := abs_le.1 hzd
      have h2 := abs_le.1 (hZ k _ zo (List.getElem?_eq_getElem hk) hzo)
      rw [abs_le]; constructor <;> linarith
  obtain ⟨fig, hfig⟩ := (C95_key (sort := sort) hb hv hsun ho).1 (by
    rintro m k hk ⟨v, hvv, hne⟩
    obtain ⟨c, x, hc, hx⟩ := error_ne hne
    have zkeep : ∀ (c : List XR) (j : Nat) (y : ℝ), j < ts.length → c[j]? = some (XR.fin y) → ∃ e, XR.fin e ∈ keptResidues "zenith" c (o "zenith") (o "zenith") := by
      intro c j y hj hc
      rw [oz]
      exact kept_zenith hc (fget Z j (hlZ ▸ hj)) (hup _ (List.getElem_mem _))
    rw [List.lookup_append] at hc
    cases hoth : others.lookup (m, v) with
    | some c' =>
      rw [hoth] at hc
      obtain rfl := Option.some.inj hc
      obtain ⟨c', y, h1, h2⟩ := hother m v _ x hoth (List.mem_of_getElem? hx)
      obtain ⟨j, hj⟩ := List.mem_iff_getElem?.1 h2
      have h1' : (others ++ sun).lookup (m, "zenith") = some c' := by rw [List.lookup_append, h1]; rfl
      have hjn : j < ts.length := by
        rw [← hn, ← (d4 _ _ _ h1').2]; exact (List.getElem?_eq_some_iff.1 hj).1
      obtain ⟨e, he⟩ := zkeep c' j y hjn hj
      exact ⟨c', e, h1', he⟩
    | none =>
      rw [hoth, Option.none_or] at hc
      obtain ⟨l1, l2, hl', -⟩ := List.lookup_eq_some_iff.1 hc
      obtain ⟨p, hp, hpm⟩ := List.mem_map.1 ((sun_labels hsun).2 ((m, v), c) (by rw [hl']; simp))
      simp only at hpm
      subst hpm
      rw [hn] at hk
      obtain ⟨cc, z, a, e, h1, h2, -⟩ := cells p hp k hk
      obtain ⟨e, he⟩ := zkeep _ k z hk h2
      exact ⟨_, e, h1 "zenith" (by simp), he⟩)
  obtain ⟨f1, f2, f3⟩ := C95_strips hs hb hv hsun ho hfig
  have strip : ∀ m ∈ reportMethods, ∀ p ∈ strips, p.1 = sunwhereLabel m → (fig.filter fun s => s.method == p.2).length = ts.length ∧
      ∀ s ∈ fig, s.method = p.2 → ∃ z a, s.zenith = .fin z ∧ s.azimuth = .fin a ∧ 0 ≤ z ∧ z ≤ positionError m.1 m.2.1 + η ∧ 0 ≤ a := by
    intro m hm p hp hpm
    have hperm := f2 p hp
    have pt : ∀ k, k < ts.length → ∃ z a : ℝ, (open Classical in if ∀ v ∈ ["zenith", "azimuth", "ecf"], errorAt v ((others ++ sun).lookup (p.1, v)) (o v) k = .nan then none
        else some (magnitude (errorAt "zenith" ((others ++ sun).lookup (p.1, "zenith")) (o "zenith") k),
          magnitude (errorAt "azimuth" ((others ++ sun).lookup (p.1, "azimuth")) (o "azimuth") k))) = some (XR.fin |z|, XR.fin |a|) ∧ |z| ≤ positionError m.1 m.2.1 + η := by
      intro k hk
      obtain ⟨c, z, a, e, h1, h2, h3, -, h5⟩ := cells m hm k hk
      rw [hpm, h1 "zenith" (by simp), h1 "azimuth" (by simp), oz, oa]
      obtain ⟨ez, hez, hez'⟩ := error_fin (v := "zenith") h2 (fget Z k (hlZ ▸ hk))
      obtain ⟨ea, hea, -⟩ := error_fin (v := "azimuth") h3 (fget A k (hlA ▸ hk))
      refine ⟨ez, ea, ?_, ?_⟩
      · rw [if_neg, hez, hea]
        · rfl
        · intro hh
          have := hh "zenith" (by simp)
          rw [h1 "zenith" (by simp), oz, hez] at this
          cases this
      · rw [hez' (by decide)]
        exact h5 _ (List.getElem?_eq_getElem _)
    constructor
    · have := hperm.length_eq
      rw [List.length_map] at this
      rw [this]
      unfold stripPoints
      rw [List.length_filterMap_eq_countP, List.countP_eq_length.2, List.length_range, hn]
      intro k hk
      rw [List.mem_range, hn] at hk
      obtain ⟨z, a, h1, -⟩ := pt k hk
      rw [h1]; rfl
    · intro s hsf hsm
      have : (s.zenith, s.azimuth) ∈ (fig.filter fun s => s.method == p.2).map fun s => (s.zenith, s.azimuth) :=
        List.mem_map.2 ⟨s, List.mem_filter.2 ⟨hsf, by simpa using hsm⟩, rfl⟩
      rw [hperm.mem_iff] at this
      unfold stripPoints at this
      obtain ⟨k, hk, hke⟩ := List.mem_filterMap.1 this
      rw [List.mem_range, hn] at hk
      obtain ⟨z, a, h1, h2⟩ := pt k hk
      rw [h1] at hke
      obtain ⟨e1, e2⟩ := Prod.mk.inj (Option.some.inj hke)
      exact ⟨|z|, |a|, e1.symm, e2.symm, abs_nonneg _, h2, abs_nonneg _⟩
  refine ⟨fig, hfig, ?_, ?_⟩
  · have := sum_filter_le _ strips_nodup fig
    rw [List.map_map] at this
    have e : (strips.take 4).map ((fun n => (fig.filter fun s => s.method == n).length) ∘ fun p => p.2) = (strips.take 4).map fun _ => ts.length := by
      refine List.map_congr_left fun p hp => ?_
      obtain ⟨m, hm, -, hpm⟩ := drawn_four p hp
      exact (strip m hm p (List.mem_of_mem_take hp) hpm).1
    rw [e] at this
    have e4 : ((strips.take 4).map fun _ => ts.length) = [ts.length, ts.length, ts.length, ts.length] := rfl
    rw [e4] at this
    simp at this
    omega
  · intro m hm hme
    obtain ⟨p, hp, hpm⟩ := drawn_methods m hm hme
    obtain ⟨h1, h2⟩ := strip m hm p hp hpm
    exact ⟨p.2, by rw [← hpm]; exact hp, h1, h2⟩

/-- **C95** A cell of the figure of speeds is the mean duration of one call, in seconds: the measured microseconds per position, multiplied back by the numbers of times and of places. -/
theorem C95_seconds {env : SpeedEnv XR} (hr : RngLengths env.rng) {algorithm : String} {nTimes : Nat} {nLocs : NLocs} {r : Nat} {sp : Speed XR} {t : ℝ} {N : Nat}
    (h : speedMeter env "sunwhere" algorithm nTimes nLocs r 1 = .ok sp) (ht : sp.mean = some t) (hN : CountsPlaces env.readInt nLocs N) :
    totalSeconds t nTimes N = ((List.range r).map env.lapse).sum / r := by
  obtain ⟨_, _, _, _, _, N', -, -, -, -, hN', -, -, hm⟩ := C92_measures hr h
  obtain rfl := counts_unique hN hN'
  have hne := (C92_nothing_measured hr h).1
  rw [ht] at hne
  have : ¬ (r = 0 ∨ 1 = 0 ∨ (nTimes : Int) = 0 ∨ CountsPlaces env.readInt nLocs 0) := fun hh => by cases hne.2 hh
  simp only [not_or] at this
  obtain ⟨h1, -, h3, h4⟩ := this
  have hN0 : N ≠ 0 := by rintro rfl; exact h4 hN
  have hT0 : nTimes ≠ 0 := by exact_mod_cast h3
  have hd : ((1 : Nat) * ((nTimes : Int) * N) : Int) ≠ 0 := by
    rw [Nat.cast_one, one_mul]
    exact mul_ne_zero (by exact_mod_cast hT0) (by exact_mod_cast hN0)
  have := hm (Nat.pos_of_ne_zero h1) hd
  rw [ht] at this
  rw [Option.some.inj this]
  unfold totalSeconds
  push_cast
  have a : (nTimes : ℝ) ≠ 0 := by exact_mod_cast hT0
  have b : (N : ℝ) ≠ 0 := by exact_mod_cast hN0
  have e : (1e6 : ℝ) * 1e-6 = 1 := by norm_num
  generalize ((List.range r).map env.lapse).sum / (r : ℝ) = x
  rw [one_mul, show (1e6 : ℝ) * x / (nTimes * N) * nTimes * N * 1e-6 = x * (nTimes / nTimes) * (N / N) * (1e6 * 1e-6) by ring, e, div_self a, div_self b]
  ring

/-- **C95** The speeds that are measured: 400 requests; among those of sunwhere is every algorithm with every engine it has, for up to half a million times at 1, 10 and 100 sites and on a
10 by 10 grid, and for up to a thousand times on the larger grids. Every one of them succeeds and has a mean, and none computes more than fifty million positions in a call. -/
theorem C95_requests {env : SpeedEnv XR} (hr : RngOk env.rng) (h10 : env.readInt ['1', '0'] = some 10) (h50 : env.readInt ['5', '0'] = some 50)
    (h100 : env.readInt ['1', '0', '0'] = some 100) :
    speedRequests.length = 400 ∧
    (∀ q ∈ speedRequests, q.1 = "sunwhere" → ∃ alg eng, KnownPair alg eng ∧ q.2.1 = alg ++ "_" ++ eng ∧ ∃ sp, speedMeter env q.1 q.2.1 q.2.2.1 q.2.2.2 3 1 = .ok sp ∧
      (∃ t, sp.mean = some t) ∧ ∀ s ∈ sp.runs, 0 < zenithCount s ∧ zenithCount s ≤ 50000000) ∧
    (∀ alg eng, KnownPair alg eng → ∀ nTimes ∈ ([1, 10, 100, 1000, 10000, 50000, 100000, 500000] : List Int),
      (∀ n ∈ ([1, 10, 100] : List Int), ("sunwhere", alg ++ "_" ++ eng, nTimes, NLocs.int n) ∈ speedRequests) ∧
      ("sunwhere", alg ++ "_" ++ eng, nTimes, NLocs.text "10x10".toList) ∈ speedRequests ∧
      ∀ s ∈ ["50x50", "100x100"], (("sunwhere", alg ++ "_" ++ eng, nTimes, NLocs.text s.toList) ∈ speedRequests ↔ nTimes ≤ 1000)) := by
  have hmem : ∀ q, q ∈ speedRequests ↔ ∃ l ∈ [("sunwhere", ["nrel_numexpr", "soltrack_numexpr", "soltrack_numpy", "psa_numexpr", "psa_numpy", "iqbal_numexpr", "iqbal_numpy"]),
      ("pvlib", ["nrel_numba", "nrel_numpy"]), ("sg2", ["sg2_c++"])], ∃ alg ∈ l.2, ∃ nTimes ∈ ([1, 10, 100, 1000, 10000, 50000, 100000, 500000] : List Int),
      ∃ n ∈ ([(.int 1, false), (.int 10, false), (.int 100, false), (.text ['1', '0', 'x', '1', '0'], false), (.text ['5', '0', 'x', '5', '0'], true),
        (.text ['1', '0', '0', 'x', '1', '0', '0'], true)] : List (NLocs × Bool)), ¬ (1000 < nTimes ∧ n.2 = true) ∧ q = (l.1, alg, nTimes, n.1) := by
    intro q
    unfold speedRequests
    simp only [List.mem_flatMap, List.mem_filterMap]
    have : ∀ (l a : String) (nTimes : Int) (n : NLocs × Bool), (if 1000 < nTimes ∧ n.2 = true then none else some (l, a, nTimes, n.1)) = some q ↔
        ¬ (1000 < nTimes ∧ n.2 = true) ∧ q = (l, a, nTimes, n.1) := by
      intro l a nTimes n
      split_ifs with hc
      · simp [hc]
      · simp only [Option.some.injEq, hc, not_false_eq_true, true_and]; exact eq_comm
    simp only [this]
  have hpairs : ∀ a ∈ ["nrel_numexpr", "soltrack_numexpr", "soltrack_numpy", "psa_numexpr", "psa_numpy", "iqbal_numexpr", "iqbal_numpy"],
      ∃ alg ∈ ["nrel", "soltrack", "psa", "iqbal"], ∃ eng ∈ ["numexpr", "numpy"], KnownPair alg eng ∧ a = alg ++ "_" ++ eng := by
    unfold KnownPair; decide +kernel
  refine ⟨by decide +kernel, ?_, ?_⟩
  · intro q hq hs
    obtain ⟨l, hl, a, ha, nT, hT, n, hn, hc, rfl⟩ := (hmem q).1 hq
    have hla : a ∈ ["nrel_numexpr", "soltrack_numexpr", "soltrack_numpy", "psa_numexpr", "psa_numpy", "iqbal_numexpr", "iqbal_numpy"] := by
      simp only [List.mem_cons, List.not_mem_nil, or_false] at hl
      rcases hl with rfl | rfl | rfl
      · exact ha
      · exact absurd hs (by simp)
      · exact absurd hs (by simp)
    simp only at hs
    obtain ⟨alg, -, eng, -, hk, rfl⟩ := hpairs a hla
    obtain ⟨N, hN, hN0, hNb⟩ : ∃ N : Nat, CountsPlaces env.readInt n.1 N ∧ 0 < N ∧ (N ≤ 100 ∨ (n.2 = true ∧ N ≤ 10000)) := by
      simp only [List.mem_cons, List.not_mem_nil, or_false] at hn
      rcases hn with rfl | rfl | rfl | rfl | rfl | rfl
      · exact ⟨1, rfl, by norm_num, by norm_num⟩
      · exact ⟨10, rfl, by norm_num, by norm_num⟩
      · exact ⟨100, rfl, by norm_num, by norm_num⟩
      · exact ⟨100, ⟨['1', '0'], ['1', '0'], [], 10, 10, rfl, by decide, by decide, .inl rfl, h10, h10, rfl⟩, by norm_num, by norm_num⟩
      · exact ⟨2500, ⟨['5', '0'], ['5', '0'], [], 50, 50, rfl, by decide, by decide, .inl rfl, h50, h50, rfl⟩, by norm_num, by norm_num⟩
      · exact ⟨10000, ⟨['1', '0', '0'], ['1', '0', '0'], [], 100, 100, rfl, by decide, by decide, .inl rfl, h100, h100, rfl⟩, by norm_num, by norm_num⟩
    have hT' : 0 < nT ∧ nT ≤ 500000 := by
      simp only [List.mem_cons, List.not_mem_nil, or_false] at hT
      omega
    obtain ⟨sp, hsp⟩ := C92_succeeds hr hk (nTimes := nT) hT'.1.le (by omega) hN 3 1
    refine ⟨alg, eng, hk, rfl, sp, by simp only; rw [hs]; exact hsp, ?_, ?_⟩
    · have := (C92_nothing_measured hr.lengths hsp).1
      cases hm : sp.mean with
      | some t => exact ⟨t, rfl⟩
      | none =>
        rcases this.1 hm with h | h | h | h
        · omega
        · omega
        · omega
        · have := counts_unique hN h; omega
    · intro s hsr
      obtain ⟨_, _, _, _, _, N', -, -, -, -, hN', -, hz, -⟩ := C92_measures hr.lengths hsp
      obtain rfl := counts_unique hN hN'
      have := (hz s hsr).2
      have hle : nT * (N : Int) ≤ 50000000 := by
        rcases hNb with hb | ⟨hb, hb'⟩
        · have hb : (N : Int) ≤ 100 := by exact_mod_cast hb
          nlinarith
        · have hb' : (N : Int) ≤ 10000 := by exact_mod_cast hb'
          have : nT ≤ 1000 := by by_contra hcc; exact hc ⟨by omega, hb⟩
          nlinarith
      have hpos : 0 < nT * (N : Int) := mul_pos hT'.1 (by exact_mod_cast hN0)
      omega
  · intro alg eng hk nT hT
    have ha : alg ++ "_" ++ eng ∈ ["nrel_numexpr", "soltrack_numexpr", "soltrack_numpy", "psa_numexpr", "psa_numpy", "iqbal_numexpr", "iqbal_numpy"] := by
      have hdec : ∀ alg ∈ ["nrel", "soltrack", "psa", "iqbal"], ∀ eng ∈ ["numexpr", "numpy"], KnownPair alg eng →
          alg ++ "_" ++ eng ∈ ["nrel_numexpr", "soltrack_numexpr", "soltrack_numpy", "psa_numexpr", "psa_numpy", "iqbal_numexpr", "iqbal_numpy"] := by
        unfold KnownPair; decide +kernel
      have : alg ∈ ["nrel", "soltrack", "psa", "iqbal"] ∧ eng ∈ ["numexpr", "numpy"] := by
        have hk' := hk
        unfold KnownPair at hk'
        simp only [List.mem_cons, List.not_mem_nil, or_false] at hk' ⊢
        tauto
      exact hdec alg this.1 eng this.2 hk
    refine ⟨?_, ?_, ?_⟩
    · intro n hn
      simp only [List.mem_cons, List.not_mem_nil, or_false] at hn
      rcases hn with rfl | rfl | rfl
      · exact (hmem _).2 ⟨_, List.mem_cons_self, _, ha, nT, hT, (.int 1, false), by simp, by simp, rfl⟩
      · exact (hmem _).2 ⟨_, List.mem_cons_self, _, ha, nT, hT, (.int 10, false), by simp, by simp, rfl⟩
      · exact (hmem _).2 ⟨_, List.mem_cons_self, _, ha, nT, hT, (.int 100, false), by simp, by simp, rfl⟩
    · exact (hmem _).2 ⟨_, List.mem_cons_self, _, ha, nT, hT, (.text ['1', '0', 'x', '1', '0'], false), by simp, by simp, rfl⟩
    · intro s hs
      constructor
      · intro hq
        obtain ⟨l, hl, a, ha, nT', hT', n, hn, hc, he⟩ := (hmem _).1 hq
        simp only [Prod.mk.injEq] at he
        obtain ⟨-, -, rfl, hn'⟩ := he
        simp only [List.mem_cons, List.not_mem_nil, or_false] at hn
        rcases hn with rfl | rfl | rfl | rfl | rfl | rfl
        · cases hn'
        · cases hn'
        · cases hn'
        · exfalso
          have hd : ∀ s ∈ ["50x50", "100x100"], s.toList ≠ ['1', '0', 'x', '1', '0'] := by decide +kernel
          exact hd s hs (NLocs.text.inj hn')
        · by_contra h; exact hc ⟨by omega, rfl⟩
        · by_contra h; exact hc ⟨by omega, rfl⟩
      · intro hle
        have hd : ∀ s ∈ ["50x50", "100x100"], s.toList = ['5', '0', 'x', '5', '0'] ∨ s.toList = ['1', '0', '0', 'x', '1', '0', '0'] := by decide +kernel
        rcases hd s hs with h | h
        · rw [h]
          exact (hmem _).2 ⟨_, List.mem_cons_self, _, ha, nT, hT, (.text ['5', '0', 'x', '5', '0'], true), by simp, by simp [hle], rfl⟩
        · rw [h]
          exact (hmem _).2 ⟨_, List.mem_cons_self, _, ha, nT, hT, (.text ['1', '0', '0', 'x', '1', '0', '0'], true), by simp, by simp [hle], rfl⟩

/-! ### non-vacuity -/

/-- `sort_values(by='mae')` by merging -/
noncomputable def mergeMae (l : List (Option ℝ × Sample)) : List (Option ℝ × Sample) :=
  l.mergeSort fun a b => open Classical in decide (MaeLe a.1 b.1)

theorem sorts_mergeMae : SortsMae mergeMae where
  perm l := List.mergeSort_perm l _
  sorted l := by
    have h : (mergeMae l).Pairwise fun a b => (open Classical in decide (MaeLe a.1 b.1)) = true := by
      refine List.pairwise_mergeSort ?_ ?_ l
      · intro a b c h1 h2
        simp only [decide_eq_true_eq] at h1 h2 ⊢
        revert h1 h2
        cases a.1 <;> cases b.1 <;> cases c.1 <;> simp only [MaeLe, false_implies, implies_true]
        exact fun h1 h2 => h1.trans h2
      · intro a b
        simp only [Bool.or_eq_true, decide_eq_true_eq]
        cases a.1 <;> cases b.1 <;> simp only [MaeLe, or_true, true_or]
        exact le_total _ _
    refine h.imp fun h => ?_
    simpa using h

/-- a benchmark that meets the hypotheses of `C95_accuracy`, and with its figure those of `C95_strips` and `C95_key`: the south pole on 1 January 2000, with the ephemeris itself as the reference and a
column of pvlib; the strip of SOLTRACK has one point, whose zenith error is at most 0.022 degrees -/
example : ∃ fig, accuracyFigure mergeMae exWorld (oneTime 946728000000000000) (.fin (-90)) (.fin 0)
      [("azimuth", [.fin 12]), ("zenith", [.fin (sunZenith 946728000000000000 (-90) 0)]),
        ("ecf", [.fin (1 / distance (century 946728000000000000) ^ 2)])]
      [(("pvlib.ephemeris", "zenith"), [.fin 67]), (("pvlib.ephemeris", "ecf"), [.nan])] = .ok fig ∧ 4 ≤ fig.length ∧
    ∃ s ∈ fig, s.method = "sunwhere's SOLTRACK" ∧ ∃ z, s.zenith = .fin z ∧ z ≤ positionError "soltrack" "numexpr" := by
  have hb : BenchInput (oneTime 946728000000000000) [("azimuth", [.fin 12]), ("zenith", [.fin (sunZenith 946728000000000000 (-90) 0)]),
        ("ecf", [.fin (1 / distance (century 946728000000000000) ^ 2)])]
      [(("pvlib.ephemeris", "zenith"), [.fin 67]), (("pvlib.ephemeris", "ecf"), [.nan])] := by
    refine ⟨by simp, by simp, ?_, ?_, ?_⟩
    · intro c hc
      simp only [List.mem_cons, List.not_mem_nil, or_false] at hc
      rcases hc with rfl | rfl <;> simp [otherMethods]
    · intro c hc
      simp only [List.mem_cons, List.not_mem_nil, or_false] at hc
      rcases hc with rfl | rfl | rfl <;> rfl
    · intro c hc
      simp only [List.mem_cons, List.not_mem_nil, or_false] at hc
      rcases hc with rfl | rfl <;> rfl
  have h180 : sunZenith 946728000000000000 (-90) 0 < 180 := by
    obtain ⟨hc, hd⟩ := dec_2000
    have e90 : rad (-90) = -(π / 2) := by unfold rad; ring
    have hlow : -(π / 2) ≤ declination 0 := neg_pi_div_two_le_arcsin _
    unfold sunZenith
    rw [hc, e90, sin_neg, cos_neg, sin_pi_div_two, cos_pi_div_two]
    have hs : sin (declination 0) < 0 := sin_neg_of_neg_of_neg_pi_lt (by norm_num at hd; linarith) (by have := pi_pos; linarith)
    have : arccos (-1 * sin (declination 0) + 0 * cos (declination 0) * cos (hourAngle 0 + rad 0)) ≤ π / 2 := by
      rw [arccos_le_pi_div_two]; linarith
    have h2 := mul_le_mul_of_nonneg_right this (show 0 ≤ 180 / π by positivity)
    have e : π / 2 * (180 / π) = 90 := by field_simp; norm_num
    linarith
  obtain ⟨fig, h1, h2, h3⟩ := C95_accuracy sorts_mergeMae exWorld (ts := [946728000000000000]) (η := 0)
    (Z := [sunZenith 946728000000000000 (-90) 0]) (A := [12]) (E := [1 / distance (century 946728000000000000) ^ 2]) hb
    (by
      intro c hc
      simp only [List.mem_cons, List.not_mem_nil, or_false] at hc
      rcases hc with rfl | rfl <;> simp)
    ⟨rfl, by intro z hz; cases hz⟩ rfl (by simp) (φ := -90) (l := 0) (by norm_num) (by norm_num) rfl rfl rfl
    (by
      intro k t z ht hz
      cases k with
      | zero =>
        simp only [List.getElem?_cons_zero, Option.some.injEq] at ht hz
        rw [← ht, ← hz, sub_self, abs_zero]
      | succ k => simp at ht)
    (by
      intro z hz
      rw [List.mem_singleton] at hz
      rw [hz]; exact h180)
    (by
      intro m v c x hc hx
      obtain ⟨l1, l2, he, -⟩ := List.lookup_eq_some_iff.1 hc
      have hm : ((m, v), c) ∈ [(("pvlib.ephemeris", "zenith"), [XR.fin 67]), (("pvlib.ephemeris", "ecf"), [XR.nan])] := by rw [he]; simp
      simp only [List.mem_cons, List.not_mem_nil, or_false, Prod.mk.injEq] at hm
      have : m = "pvlib.ephemeris" := by rcases hm with h | h <;> exact h.1.1
      subst this
      exact ⟨[XR.fin 67], 67, rfl, by simp⟩)
  refine ⟨fig, h1, by simpa using h2, ?_⟩
  obtain ⟨name, k1, k2, k3⟩ := h3 ("soltrack", "numexpr", "sunwhere's SOLTRACK (numexpr)") (by simp [reportMethods]) rfl
  have hn : ∀ p ∈ strips, p.1 = sunwhereLabel ("soltrack", "numexpr", "sunwhere's SOLTRACK (numexpr)") → p.2 = "sunwhere's SOLTRACK" := by decide +kernel
  have hn := hn _ k1 rfl
  simp only at hn
  subst hn
  obtain ⟨s, hs⟩ := List.exists_mem_of_length_pos (l := fig.filter fun s => s.method == "sunwhere's SOLTRACK") (by rw [k2]; simp)
  obtain ⟨hs1, hs2⟩ := List.mem_filter.1 hs
  obtain ⟨z, a, q1, -, -, q4, -⟩ := k3 s hs1 (by simpa using hs2)
  exact ⟨s, hs1, by simpa using hs2, z, q1, by simpa using q4⟩

/-- a package without zenith angles breaks the figure -/
example {sun : List ((String × String) × List XR)} (hsun : sunwhereEphemeris exWorld (oneTime 946728000000000000) (.fin 40) (.fin 0) = .ok sun) :
    accuracyFigure mergeMae exWorld (oneTime 946728000000000000) (.fin 40) (.fin 0) [("azimuth", [.fin 12]), ("zenith", [.fin 63]), ("ecf", [.fin 1.034])]
      [(("pvlib.nrel_numpy", "azimuth"), [.fin 13])] = .error .keyError := by
  have hb : BenchInput (oneTime 946728000000000000) [("azimuth", [.fin 12]), ("zenith", [.fin 63]), ("ecf", [.fin 1.034])] [(("pvlib.nrel_numpy", "azimuth"), [.fin 13])] := by
    refine ⟨by simp, by simp, ?_, ?_, ?_⟩
    · intro c hc
      rw [List.mem_singleton] at hc
      subst hc; simp [otherMethods]
    · intro c hc
      simp only [List.mem_cons, List.not_mem_nil, or_false] at hc
      rcases hc with rfl | rfl | rfl <;> rfl
    · intro c hc
      rw [List.mem_singleton] at hc
      subst hc; rfl
  have hno : sun.lookup ("pvlib.nrel_numpy", "zenith") = none := by
    rw [List.lookup_eq_none_iff]
    intro p hp
    rw [bne_iff_ne]
    intro hh
    have := (sun_labels hsun).2 p hp
    rw [← hh] at this
    exact absurd this (names_disjoint _ (by simp [otherMethods]))
  refine (C95_key (sort := mergeMae) hb (by
      intro c hc
      rw [List.mem_singleton] at hc
      subst hc; simp) hsun (o := fun v => if v = "zenith" then [.fin 63] else if v = "azimuth" then [.fin 12] else [.fin 1.034]) (by
      intro v hv
      simp only [List.mem_cons, List.not_mem_nil, or_false] at hv
      rcases hv with rfl | rfl | rfl <;> rfl)).2 "pvlib.nrel_numpy" 0 (by simp [oneTime]) ⟨"azimuth", by simp, ?_⟩ ?_
  · have e : ([(("pvlib.nrel_numpy", "azimuth"), [XR.fin 13])] ++ sun).lookup ("pvlib.nrel_numpy", "azimuth") = some [XR.fin 13] := rfl
    rw [e]
    obtain ⟨e, he, -⟩ := error_fin (v := "azimuth") (c := [XR.fin 13]) (o := [XR.fin 12]) (k := 0) rfl rfl
    intro hh
    have hh : errorAt "azimuth" (some [XR.fin 13]) [XR.fin 12] 0 = .nan := hh
    rw [he] at hh; cases hh
  · rintro ⟨c, x, hc, -⟩
    rw [List.lookup_append, hno] at hc
    cases hc

/-- numbers are read: the requests of the speed tests, and the seconds of one of them -/
example : ∃ env : SpeedEnv XR, RngOk env.rng ∧ env.readInt ['1', '0'] = some 10 ∧ env.readInt ['5', '0'] = some 50 ∧ env.readInt ['1', '0', '0'] = some 100 ∧
    ∃ sp t, speedMeter env "sunwhere" "psa_numpy" (1000 : Nat) (.text ['1', '0', 'x', '1', '0']) 3 1 = .ok sp ∧ sp.mean = some t ∧ totalSeconds t 1000 100 = 3 := by
  obtain ⟨env, r1, r2, r3, r4, r5⟩ : ∃ env : SpeedEnv XR, RngOk env.rng ∧ env.readInt ['1', '0'] = some 10 ∧ env.readInt ['5', '0'] = some 50 ∧ env.readInt ['1', '0', '0'] = some 100 ∧
      env.lapse = fun _ => 3 :=
    ⟨{ exSpeed with readInt := fun s => if s = ['1', '0'] then some 10 else if s = ['5', '0'] then some 50 else if s = ['1', '0', '0'] then some 100 else none },
      exSpeed_rng, by decide, by decide, by decide, rfl⟩
  refine ⟨env, r1, r2, r3, r4, ?_⟩
  obtain ⟨-, h, h'⟩ := C95_requests r1 r2 r3 r4
  have hq := (h' "psa" "numpy" (.inl ⟨by simp, by simp⟩) 1000 (by simp)).2.1
  have e : "psa" ++ "_" ++ "numpy" = "psa_numpy" := by decide +kernel
  have e' : "10x10".toList = ['1', '0', 'x', '1', '0'] := by decide +kernel
  rw [e, e'] at hq
  obtain ⟨alg, eng, -, -, sp, hsp, ⟨t, ht⟩, -⟩ := h _ hq rfl
  have e3 : ((1000 : Nat) : Int) = 1000 := by norm_num
  have hsp : speedMeter env "sunwhere" "psa_numpy" ((1000 : Nat) : Int) (.text ['1', '0', 'x', '1', '0']) 3 1 = .ok sp := by rw [e3]; exact hsp
  have hc : CountsPlaces env.readInt (.text ['1', '0', 'x', '1', '0']) 100 := ⟨['1', '0'], ['1', '0'], [], 10, 10, rfl, by decide, by decide, .inl rfl, r2, r2, rfl⟩
  have := C95_seconds r1.lengths hsp ht hc
  refine ⟨sp, t, hsp, ht, ?_⟩
  rw [this, r5]
  norm_num [List.range_succ]

end SW.Props
