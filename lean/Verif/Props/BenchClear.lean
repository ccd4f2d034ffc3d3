/-
C78: what the benchmark reports of the clear-sky irradiance.
-/
import Verif.BenchClear
import Verif.Props.BenchReport

namespace SW.Props
open SW SW.Spec SW.Bench Real Sunpos
open SW.Ephem (century declination hourAngle distance)

/-! ### specification -/

/-- the methods compared, with the names printed -/
def clearMethods : List (String × String) :=
  [("sunwhere.nrel_numexpr", "nrel"), ("sunwhere.psa_numexpr", "psa"), ("sunwhere.iqbal_numexpr", "iqbal"),
   ("sunwhere.soltrack_numexpr", "soltrack"), ("sg2.sg2_c++", "sg2")]

/-- The irradiance by the radiative transfer model `f`, a function of the cosine of the zenith angle and of the eccentricity correction
factor, at zenith angle `z` (degrees) and correction factor `e`: missing where both are. -/
noncomputable def irradianceAt (f : XR → XR → XR) (z e : XR) : XR :=
  match z, e with
  | .nan, .nan => .nan
  | .nan, .fin e => f .nan (.fin e)
  | .fin z, e => f (.fin (cos (rad z))) e

/-- The differences between the irradiances of a method, with zenith angles `zm` and correction factors `em`, and those of the reference,
with `z` and `e`, of the rows in which the reference has the sun above the horizon. -/
noncomputable def clearResidues (f : XR → XR → XR) (zm em z e : List XR) : List XR :=
  (List.range z.length).filterMap fun k =>
    match zm[k]?, em[k]?, z[k]?, e[k]? with
    | some a, some b, some (XR.fin x), some y => if x < 90 then some (irradianceAt f a b - irradianceAt f (XR.fin x) y) else none
    | _, _, _, _ => none

/-- the three tables and the outputs of the radiative transfer model that they are of -/
def irradiances (sp : Sparta) : List (String × (XR → XR → XR)) := [("ghi", sp.ghi), ("dni", sp.dni), ("dif", sp.dif)]

/-! ### cells -/

theorem clearCell_eq (f : XR → XR → XR) (z e : XR) : clearCell f z e = irradianceAt f z e := by
  have h : ∀ t : ℝ, (Num.cos (radians (XR.fin t)) : XR) = .fin (cos (rad t)) := by
    intro t
    have : (radians (XR.fin t) : XR) = .fin (rad t) := by
      have h1 : (Num.pi / 180 : XR) = .fin (π / 180) := by
        show XR.fin π / XR.fin 180 = _
        rw [XR.div_fin (by norm_num)]
      rw [rad, radians, h1]; rfl
    rw [this]; rfl
  cases z with
  | nan => cases e <;> rfl
  | fin z => cases e <;> (show f (Num.cos (radians (XR.fin z))) _ = _) <;> rw [h] <;> rfl

theorem noRow_iff {z e : XR} : noRow z e = true ↔ z = .nan ∧ e = .nan := by
  cases z <;> cases e <;> simp [noRow]

theorem keepDay_nil (c : List XR) : keepDay [] c = [] := by simp [keepDay]

theorem keepDay_cons (x : XR) (z : List XR) (a : XR) (c : List XR) :
    keepDay (x :: z) (a :: c) = if Scalar.ltB x 90 = true then a :: keepDay z c else keepDay z c := by
  unfold keepDay
  rw [List.zip_cons_cons, List.filter_cons]
  simp only
  split_ifs <;> rfl

theorem clearResidues_cons (f : XR → XR → XR) (a b x y : XR) (zm em z e : List XR) :
    clearResidues f (a :: zm) (b :: em) (x :: z) (y :: e) = if Scalar.ltB x 90 = true then
      (irradianceAt f a b - irradianceAt f x y) :: clearResidues f zm em z e else clearResidues f zm em z e := by
  unfold clearResidues
  rw [List.length_cons, List.range_succ_eq_map, List.filterMap_cons, List.filterMap_map]
  simp only [List.getElem?_cons_zero, Function.comp_def, List.getElem?_cons_succ]
  cases x with
  | nan => rfl
  | fin x =>
    have e : Scalar.ltB (XR.fin x) 90 = decide (x < 90) := rfl
    rw [e]
    by_cases hx : x < 90
    · simp only [hx, decide_true, if_true]
    · simp only [hx, decide_false, if_false, Bool.false_eq_true]

theorem residues_eq (f : XR → XR → XR) {zm em z e : List XR} (h1 : zm.length = z.length) (h2 : em.length = z.length) (h3 : e.length = z.length) :
    List.zipWith (residue false false) (List.zipWith (clearCell f) (keepDay z zm) (keepDay z em))
      (List.zipWith (clearCell f) (keepDay z z) (keepDay z e)) = clearResidues f zm em z e := by
  have key : ∀ (w z zm em e : List XR), zm.length = z.length → em.length = z.length → e.length = z.length → w = z →
      List.zipWith (residue false false) (List.zipWith (clearCell f) (keepDay z zm) (keepDay z em))
      (List.zipWith (clearCell f) (keepDay z w) (keepDay z e)) = clearResidues f zm em z e := by
    intro w z
    induction z generalizing w with
    | nil => intro zm em e h1 h2 h3 _; simp [keepDay_nil, clearResidues]
    | cons x z ih =>
      intro zm em e h1 h2 h3 hw
      subst hw
      obtain _ | ⟨a, zm⟩ := zm
      · simp at h1
      obtain _ | ⟨b, em⟩ := em
      · simp at h2
      obtain _ | ⟨y, e⟩ := e
      · simp at h3
      simp only [List.length_cons, Nat.add_right_cancel_iff] at h1 h2 h3
      rw [keepDay_cons, keepDay_cons, keepDay_cons, keepDay_cons, clearResidues_cons]
      split_ifs with hx
      · rw [List.zipWith_cons_cons, List.zipWith_cons_cons, List.zipWith_cons_cons, ih z zm em e h1 h2 h3 rfl, clearCell_eq, clearCell_eq]; rfl
      · exact ih z zm em e h1 h2 h3 rfl
  exact key z z zm em e h1 h2 h3 rfl

/-- where everything of a method is missing, so are the differences -/
theorem missing_day {f : XR → XR → XR} {zm em z : List XR} (h : ((keepDay z zm).zip (keepDay z em)).all (fun c => noRow c.1 c.2) = true) :
    ∀ c ∈ List.zipWith (clearCell f) (keepDay z zm) (keepDay z em), c = .nan := by
  generalize keepDay z zm = a at *
  generalize keepDay z em = b at *
  induction a generalizing b with
  | nil => simp
  | cons x a ih =>
    obtain _ | ⟨y, b⟩ := b
    · simp
    rw [List.zip_cons_cons, List.all_cons, Bool.and_eq_true] at h
    intro c hc
    rw [List.zipWith_cons_cons, List.mem_cons] at hc
    rcases hc with rfl | hc
    · simp only [clearCell, h.1, if_true]
    · exact ih b h.2 c hc

theorem residue_nan_left {a b : List XR} (h : ∀ c ∈ a, c = XR.nan) : ∀ x, XR.fin x ∉ List.zipWith (residue false false) a b := by
  induction a generalizing b with
  | nil => simp
  | cons x a ih =>
    obtain _ | ⟨y, b⟩ := b
    · simp
    intro t ht
    rw [List.zipWith_cons_cons, List.mem_cons] at ht
    rcases ht with ht | ht
    · rw [h x (by simp)] at ht; cases ht
    · exact ih (fun c hc => h c (by simp [hc])) t ht

/-! ### the frame -/

theorem clear_names : (clearNames.map (·.1)).Nodup ∧ (clearNames.map (·.2)).Nodup ∧ clearNames = clearMethods ++ [("jpl", "jpl")] := by
  decide +kernel

theorem residue_mem {data out : Frame XR} (hnd : (data.cols.map (·.1)).Nodup)
    (h2 : out.cols.map (·.1) = (data.cols.map (·.1)).filter (fun c => c.1 != "jpl"))
    (h3 : ∀ m v c, m ≠ "jpl" → column data m v = some c → column out m v = some (residueColumn false v c (column data "jpl" v))) :
    (out.cols.map (·.1)).Nodup ∧ ∀ m v r, ((m, v), r) ∈ out.cols ↔ ∃ c, m ≠ "jpl" ∧ column data m v = some c ∧
      r = residueColumn false v c (column data "jpl" v) := by
  have hndo : (out.cols.map (·.1)).Nodup := by rw [h2]; exact hnd.filter _
  refine ⟨hndo, fun m v r => ?_⟩
  rw [lookup_of_mem hndo]
  constructor
  · intro h
    have hk : (m, v) ∈ out.cols.map (·.1) := List.mem_map.2 ⟨_, (lookup_of_mem hndo).2 h, rfl⟩
    rw [h2, List.mem_filter, List.mem_map] at hk
    obtain ⟨⟨⟨k, c⟩, hc, hkk⟩, hj⟩ := hk
    simp only at hkk; subst hkk
    have hj : m ≠ "jpl" := by simpa using hj
    have hc' : column data m v = some c := (lookup_of_mem hnd).1 hc
    have := h3 m v c hj hc'
    unfold column at this
    rw [h] at this
    exact ⟨c, hj, hc', Option.some.inj this⟩
  · rintro ⟨c, hj, hc, rfl⟩
    exact h3 m v c hj hc

theorem clear_labels (sp : Sparta) (eph : Frame XR) (z : List XR) : ((clearFrame sp eph z).cols.map (·.1)).Nodup := by
  have hN := clear_names.2.1.sublist (List.Sublist.map (·.2) (List.filter_sublist (l := clearNames) (p := fun n => eph.methods.contains n.1)))
  unfold clearFrame
  simp only
  generalize clearNames.filter _ = L at *
  have hlab : ∀ n : String × String, ((clearColumns sp eph z n).map (·.1)).Sublist (["zenith", "ecf", "ghi", "dni", "dif"].map fun v => (n.2, v)) := by
    intro n
    unfold clearColumns
    simp only
    split_ifs
    · exact List.nil_sublist _
    · exact List.Sublist.refl _
  have h5 : ∀ n : String, (["zenith", "ecf", "ghi", "dni", "dif"].map fun v => (n, v)).Nodup := by
    intro n
    exact List.Nodup.map (fun a b hab => (Prod.mk.inj hab).2) (by decide)
  induction L with
  | nil => simp
  | cons n L ih =>
    rw [List.map_cons, List.nodup_cons] at hN
    rw [List.flatMap_cons, List.map_append, List.nodup_append']
    refine ⟨(h5 n.2).sublist (hlab n), ih hN.2, ?_⟩
    intro x hx hx'
    obtain ⟨v, -, rfl⟩ := List.mem_map.1 ((hlab n).subset hx)
    rw [List.map_flatMap, List.mem_flatMap] at hx'
    obtain ⟨n', hn', hx'⟩ := hx'
    obtain ⟨v', -, he⟩ := List.mem_map.1 ((hlab n').subset hx')
    refine hN.1 (List.mem_map.2 ⟨n', hn', ?_⟩)
    exact (Prod.mk.inj he).1

theorem clear_column (sp : Sparta) (eph : Frame XR) (z : List XR) {v : String} {f : XR → XR → XR} (hf : (v, f) ∈ irradiances sp) (name : String) (c : List XR) :
    column (clearFrame sp eph z) name v = some c ↔ ∃ m, (m, name) ∈ clearNames ∧ m ∈ eph.methods ∧
      ¬ ((keepDay z (eph.columnOr m "zenith" z)).zip (keepDay z (eph.columnOr m "ecf" z))).all (fun c => noRow c.1 c.2) = true ∧
      c = List.zipWith (clearCell f) (keepDay z (eph.columnOr m "zenith" z)) (keepDay z (eph.columnOr m "ecf" z)) := by
  unfold column
  rw [← lookup_of_mem (clear_labels sp eph z)]
  unfold clearFrame
  simp only [List.mem_flatMap, List.mem_filter]
  constructor
  · rintro ⟨n, ⟨hn, hm⟩, hc⟩
    unfold clearColumns at hc
    simp only at hc
    split_ifs at hc with hall
    · simp at hc
    · simp only [irradiances, List.mem_cons, Prod.mk.injEq, List.not_mem_nil, or_false] at hf hc
      rcases hf with ⟨rfl, rfl⟩ | ⟨rfl, rfl⟩ | ⟨rfl, rfl⟩ <;> simp only [String.reduceEq, and_false, false_and, or_false, false_or, and_true] at hc <;>
        obtain ⟨rfl, rfl⟩ := hc <;> exact ⟨n.1, hn, by simpa using hm, hall, rfl⟩
  · rintro ⟨m, hn, hm, hall, rfl⟩
    refine ⟨(m, name), ⟨hn, by simpa using hm⟩, ?_⟩
    unfold clearColumns
    simp only
    rw [if_neg hall]
    simp only [irradiances, List.mem_cons, Prod.mk.injEq, List.not_mem_nil, or_false] at hf
    rcases hf with ⟨rfl, rfl⟩ | ⟨rfl, rfl⟩ | ⟨rfl, rfl⟩ <;> simp

/-- the scores of the methods, before they are sorted -/
theorem clear_core (sp : Sparta) {data : Frame XR} {z e : List XR} (hz : column data "jpl" "zenith" = some z) (he : column data "jpl" "ecf" = some e)
    (hle : e.length = z.length)
    (hcols : ∀ m ∈ clearMethods.map (·.1), ∃ zm em, column data m "zenith" = some zm ∧ column data m "ecf" = some em ∧ zm.length = z.length ∧
      em.length = z.length)
    (hday : ¬ ((keepDay z z).zip (keepDay z e)).all (fun c => noRow c.1 c.2) = true) :
    ∃ g : String → List (String × Scores), (∀ errors, clearErrors sp data = .ok errors → errors = ["ghi", "dni", "dif"].map (fun v => (v, g v))) ∧
      ((∀ v ∈ ["ghi", "dni", "dif"], g v ≠ []) → clearErrors sp data = .ok (["ghi", "dni", "dif"].map (fun v => (v, g v)))) ∧ (∀ v, ((g v).map (·.1)).Nodup) ∧
      ∀ v f, (v, f) ∈ irradiances sp → ∀ name s, (name, s) ∈ g v ↔ ∃ m zm em, (m, name) ∈ clearMethods ∧ column data m "zenith" = some zm ∧
        column data m "ecf" = some em ∧ s = scores (clearResidues f zm em z e) ∧ ∃ x, XR.fin x ∈ clearResidues f zm em z e := by
  have hcolOr : ∀ m v c, column data m v = some c → data.columnOr m v z = c := by
    intro m v c hc
    unfold Frame.columnOr
    have : data.cols.lookup (m, v) = some c := hc
    rw [this]; rfl
  have hmeth : ∀ m v c, column data m v = some c → m ∈ data.methods := by
    intro m v c hc
    unfold Frame.methods
    rw [List.mem_dedup]
    obtain ⟨l1, l2, hh, -⟩ := List.lookup_eq_some_iff.1 hc
    rw [hh]; simp
  have href : ∀ v f, (v, f) ∈ irradiances sp → column (clearFrame sp data z) "jpl" v = some (List.zipWith (clearCell f) (keepDay z z) (keepDay z e)) := by
    intro v f hf
    refine (clear_column sp data z hf "jpl" _).2 ⟨"jpl", by decide, hmeth _ _ _ hz, ?_, ?_⟩
    · rw [hcolOr _ _ _ hz, hcolOr _ _ _ he]; exact hday
    · rw [hcolOr _ _ _ hz, hcolOr _ _ _ he]
  obtain ⟨out, h1, h2, h3⟩ := (C42_frame (clearFrame sp data z) "jpl" false).2 ⟨_, _, href "ghi" sp.ghi (by simp [irradiances])⟩
  obtain ⟨hndo, hmem⟩ := residue_mem (clear_labels sp data z) h2 h3
  obtain ⟨rows, hrows⟩ : ∃ rows : String → List (String × Scores), rows = fun v =>
    (out.cols.filter fun c => c.1.2 == v).map fun c => (c.1.1, scores c.2) := ⟨_, rfl⟩
  have hvz : ∀ v f, (v, f) ∈ irradiances sp → (v == "azimuth") = false := by
    intro v f hf
    simp only [irradiances, List.mem_cons, Prod.mk.injEq, List.not_mem_nil, or_false] at hf
    rcases hf with ⟨rfl, -⟩ | ⟨rfl, -⟩ | ⟨rfl, -⟩ <;> rfl
  have hr : ∀ v f, (v, f) ∈ irradiances sp → ∀ name s, (name, s) ∈ rows v ↔ ∃ m zm em, (m, name) ∈ clearMethods ∧ column data m "zenith" = some zm ∧
        column data m "ecf" = some em ∧ ¬ ((keepDay z zm).zip (keepDay z em)).all (fun c => noRow c.1 c.2) = true ∧ s = scores (clearResidues f zm em z e) := by
    intro v f hf name s
    rw [hrows]
    simp only [List.mem_map, List.mem_filter]
    constructor
    · rintro ⟨⟨⟨k, u⟩, r⟩, ⟨hc, hu⟩, hp⟩
      obtain ⟨rfl, rfl⟩ := Prod.mk.inj hp
      have hu : u = v := by simpa using hu
      subst hu
      obtain ⟨c, g1, g2, g3⟩ := (hmem _ _ _).1 hc
      obtain ⟨m, k1, k2, k3, k4⟩ := (clear_column sp data z hf _ _).1 g2
      have hm : (m, k) ∈ clearMethods := by
        rw [clear_names.2.2, List.mem_append] at k1
        rcases k1 with k1 | k1
        · exact k1
        · simp only [List.mem_cons, Prod.mk.injEq, List.not_mem_nil, or_false] at k1; exact absurd k1.2 g1
      obtain ⟨zm, em, l1, l2, l3, l4⟩ := hcols m (List.mem_map_of_mem hm)
      rw [hcolOr _ _ _ l1, hcolOr _ _ _ l2] at k3 k4
      refine ⟨m, zm, em, hm, l1, l2, k3, ?_⟩
      rw [g3, k4, href _ _ hf]
      unfold residueColumn
      simp only
      rw [hvz _ _ hf, residues_eq f l3 l4 hle]
    · rintro ⟨m, zm, em, k1, l1, l2, k3, rfl⟩
      obtain ⟨zm', em', l1', l2', l3, l4⟩ := hcols m (List.mem_map_of_mem k1)
      obtain rfl : zm = zm' := Option.some.inj (l1.symm.trans l1')
      obtain rfl : em = em' := Option.some.inj (l2.symm.trans l2')
      have hj : name ≠ "jpl" := by
        have : ∀ n ∈ clearMethods, n.2 ≠ "jpl" := by decide +kernel
        exact this _ k1
      refine ⟨((name, v), clearResidues f zm em z e), ⟨(hmem _ _ _).2 ⟨_, hj, (clear_column sp data z hf name _).2
        ⟨m, by rw [clear_names.2.2]; exact List.mem_append_left _ k1, hmeth _ _ _ l1, ?_, rfl⟩, ?_⟩, by simp⟩, rfl⟩
      · rw [hcolOr _ _ _ l1, hcolOr _ _ _ l2]; exact k3
      · rw [href _ _ hf, hcolOr _ _ _ l1, hcolOr _ _ _ l2]
        unfold residueColumn
        simp only
        rw [hvz _ _ hf, residues_eq f l3 l4 hle]
  classical
  have hce : clearErrors sp data = ["ghi", "dni", "dif"].mapM fun v => if (rows v).isEmpty then .error .keyError else
      .ok (v, (rows v).filter fun r => decide (¬ r.2.missing)) := by
    have hz' : data.cols.lookup ("jpl", "zenith") = some z := hz
    unfold clearErrors
    rw [hz']
    simp only
    rw [show (pure z : Except PyErr (List XR)) = .ok z from rfl, ok_bind, h1, ok_bind, hrows]
  refine ⟨fun v => (rows v).filter fun r => decide (¬ r.2.missing), ?_, ?_, ?_, ?_⟩
  · intro errors h
    rw [hce] at h
    have h1 := chart_mapM_ok h
    rcases h1 with _ | ⟨a1, _ | ⟨a2, _ | ⟨a3, _ | _⟩⟩⟩
    have key : ∀ v b, (if (rows v).isEmpty = true then Except.error PyErr.keyError else
        .ok (v, (rows v).filter fun r => decide (¬ r.2.missing)) : Except PyErr (String × List (String × Scores))) = .ok b →
        b = (v, (rows v).filter fun r => decide (¬ r.2.missing)) := by
      intro v b hb
      split_ifs at hb
      exact (Except.ok.inj hb).symm
    rw [key _ _ a1, key _ _ a2, key _ _ a3]; rfl
  · intro hne
    rw [hce]
    refine mapM_eq_ok fun v hv => ?_
    rw [if_neg]
    intro hh
    refine hne v hv ?_
    simp only [List.isEmpty_iff.1 hh, List.filter_nil]
  · intro v
    refine List.Nodup.sublist (List.Sublist.map _ List.filter_sublist) ?_
    rw [hrows]
    simp only
    rw [List.map_map]
    have hf : ((out.cols.filter fun c => c.1.2 == v).map (·.1)).Nodup := hndo.sublist (List.Sublist.map _ List.filter_sublist)
    have e : (out.cols.filter fun c => c.1.2 == v).map (·.1) =
        ((out.cols.filter fun c => c.1.2 == v).map ((fun x : String × Scores => x.1) ∘ fun c => (c.1.1, scores c.2))).map fun m => (m, v) := by
      rw [List.map_map]
      refine List.map_congr_left fun c hc => ?_
      have : c.1.2 = v := by simpa using (List.mem_filter.1 hc).2
      show c.1 = (c.1.1, v)
      rw [← this]
    rw [e] at hf
    exact hf.of_map _
  · intro v f hf name s
    rw [List.mem_filter, hr v f hf]
    simp only [decide_eq_true_eq]
    constructor
    · rintro ⟨⟨m, zm, em, k1, l1, l2, -, rfl⟩, hm⟩
      rw [missing_iff] at hm
      push Not at hm
      exact ⟨m, zm, em, k1, l1, l2, rfl, hm⟩
    · rintro ⟨m, zm, em, k1, l1, l2, rfl, x, hx⟩
      refine ⟨⟨m, zm, em, k1, l1, l2, ?_, rfl⟩, by rw [missing_iff]; push Not; exact ⟨x, hx⟩⟩
      intro hall
      obtain ⟨zm', em', l1', l2', l3, l4⟩ := hcols m (List.mem_map_of_mem k1)
      obtain rfl : zm = zm' := Option.some.inj (l1.symm.trans l1')
      obtain rfl : em = em' := Option.some.inj (l2.symm.trans l2')
      rw [← residues_eq f l3 l4 hle] at hx
      exact residue_nan_left (missing_day hall) x hx

/-- errors are there only if the reference has a row in daytime -/
theorem clear_day (sp : Sparta) {data : Frame XR} {z e : List XR} (hz : column data "jpl" "zenith" = some z) (he : column data "jpl" "ecf" = some e)
    {errors : List (String × List (String × Scores))} (h : clearErrors sp data = .ok errors) :
    ¬ ((keepDay z z).zip (keepDay z e)).all (fun c => noRow c.1 c.2) = true := by
  unfold clearErrors at h
  have hz' : data.cols.lookup ("jpl", "zenith") = some z := hz
  rw [hz'] at h
  simp only at h
  rw [show (pure z : Except PyErr (List XR)) = .ok z from rfl, ok_bind] at h
  obtain ⟨out, hout, h⟩ := bind_ok h
  have hjpl : ∃ v c, column (clearFrame sp data z) "jpl" v = some c := by
    by_contra hn
    push Not at hn
    rw [(C42_frame _ "jpl" false).1 (fun v => by
      cases hc : column (clearFrame sp data z) "jpl" v with
      | none => rfl
      | some c => exact absurd hc (hn v c))] at hout
    cases hout
  have hcolOr : ∀ m v c, column data m v = some c → data.columnOr m v z = c := by
    intro m v c hc
    unfold Frame.columnOr
    have : data.cols.lookup (m, v) = some c := hc
    rw [this]; rfl
  obtain ⟨v, c, hc⟩ := hjpl
  unfold column clearFrame at hc
  obtain ⟨l1, l2, hh, -⟩ := List.lookup_eq_some_iff.1 hc
  have hin : (("jpl", v), c) ∈ (clearNames.filter fun n => data.methods.contains n.1).flatMap (clearColumns sp data z) := by
    simp only at hh; rw [hh]; simp
  obtain ⟨n, hn, hin⟩ := List.mem_flatMap.1 hin
  unfold clearColumns at hin
  simp only at hin
  split_ifs at hin with hall
  · simp at hin
  · have hn2 : n.2 = "jpl" := by
      simp only [List.mem_cons, Prod.mk.injEq, List.not_mem_nil, or_false] at hin
      rcases hin with h | h | h | h | h <;> exact h.1.1.symm
    have hn1 : n.1 = "jpl" := by
      have : ∀ n ∈ clearNames, n.2 = "jpl" → n.1 = "jpl" := by decide +kernel
      exact this n (List.mem_filter.1 hn).1 hn2
    rw [hn1, hcolOr _ _ _ hz, hcolOr _ _ _ he] at hall
    exact hall

theorem clear_tables {sort : List (String × Scores) → List (String × Scores)} {g : String → List (String × Scores)}
    {tables : List (String × List (String × Scores))}
    (h : clearTables sort (["ghi", "dni", "dif"].map fun v => (v, g v)) = .ok tables) :
    tables = ["ghi", "dni", "dif"].map (fun v => (v, sort (g v))) := by
  have h1 := chart_mapM_ok h
  have key : ∀ v ∈ ["ghi", "dni", "dif"], ∀ b, (do
      if (((["ghi", "dni", "dif"].map fun v => (v, g v)).lookup v).getD []).isEmpty then throw .keyError
      return (v, sort (((["ghi", "dni", "dif"].map fun v => (v, g v)).lookup v).getD [])) : Except PyErr (String × List (String × Scores))) = .ok b →
      b = (v, sort (g v)) := by
    intro v hv b hb
    have : (((["ghi", "dni", "dif"].map fun v => (v, g v)).lookup v).getD []) = g v := by
      simp only [List.mem_cons, List.not_mem_nil, or_false] at hv
      rcases hv with rfl | rfl | rfl <;> rfl
    rw [this] at hb
    cases hg : (g v).isEmpty with
    | true => rw [hg] at hb; cases hb
    | false => rw [hg] at hb; exact (Except.ok.inj hb).symm
  rcases h1 with _ | ⟨a1, _ | ⟨a2, _ | ⟨a3, _ | _⟩⟩⟩
  rw [key _ (by simp) _ a1, key _ (by simp) _ a2, key _ (by simp) _ a3]; rfl

/-- the columns of the four methods of sunwhere -/
theorem clear_sun {w : World XR} {times : Times} {lat lon : XR} {sun others : List ((String × String) × List XR)}
    {jpl : List (String × List XR)} (hb : BenchInput times jpl others) (h : sunwhereEphemeris w times lat lon = .ok sun)
    (hsg : ∀ v ∈ ["zenith", "ecf"], ∃ c, others.lookup ("sg2.sg2_c++", v) = some c) :
    ∀ m ∈ clearMethods.map (·.1), ∃ zm em, (others ++ sun).lookup (m, "zenith") = some zm ∧ (others ++ sun).lookup (m, "ecf") = some em := by
  have hsun : ∀ p ∈ reportMethods, ∃ zm em, (others ++ sun).lookup (sunwhereLabel p, "zenith") = some zm ∧
      (others ++ sun).lookup (sunwhereLabel p, "ecf") = some em := by
    intro p hp
    obtain ⟨s, -, g1, -, g3⟩ := (C76_columns h).1 p hp
    have hnone : ∀ v, others.lookup (sunwhereLabel p, v) = none := by
      intro v
      rw [List.lookup_eq_none_iff]
      intro c hc
      rw [bne_iff_ne]
      intro hh
      exact names_disjoint _ (hb.names c hc) (by rw [← hh]; exact List.mem_map_of_mem hp)
    exact ⟨_, _, by rw [List.lookup_append, hnone, Option.none_or]; exact g1, by rw [List.lookup_append, hnone, Option.none_or]; exact g3⟩
  have hm : ∀ m ∈ clearMethods.map (·.1), m = "sg2.sg2_c++" ∨ m ∈ reportMethods.map sunwhereLabel := by decide +kernel
  intro m hmem
  rcases hm m hmem with rfl | hm
  · obtain ⟨zm, h1⟩ := hsg "zenith" (by simp)
    obtain ⟨em, h2⟩ := hsg "ecf" (by simp)
    exact ⟨zm, em, by rw [List.lookup_append, h1]; rfl, by rw [List.lookup_append, h2]; rfl⟩
  · obtain ⟨p, hp, rfl⟩ := List.mem_map.1 hm
    exact hsun p hp

/-- **C78** What the benchmark prints of the clear-sky irradiance, after the tables of the ephemerides (those of C76): a table each for global,
direct normal and diffuse irradiance, in increasing order of the root mean square. Each has one row for each of NREL, PSA, Iqbal and SolTrack (with
numexpr) and SG2 that has a difference with the reference in a row in which the reference has the sun above the horizon, with the scores of
these differences, and no other rows. -/
theorem C78_rows {sort : List (String × Scores) → List (String × Scores)} (hs : SortsRmse sort) (sp : Sparta) {w : World XR} {times : Times}
    {lat lon : XR} {jpl : List (String × List XR)} {others : List ((String × String) × List XR)} (hb : BenchInput times jpl others)
    (hsg : ∀ v ∈ ["zenith", "ecf"], ∃ c, others.lookup ("sg2.sg2_c++", v) = some c)
    {z e : List XR} (hz : jpl.lookup "zenith" = some z) (he : jpl.lookup "ecf" = some e)
    {ephemerides clear : List (String × List (String × Scores))}
    (h : runBenchmark sort sp w times lat lon jpl others = .ok (ephemerides, clear)) :
    runTables sort w times lat lon jpl others = .ok ephemerides ∧ clear.map (·.1) = ["ghi", "dni", "dif"] ∧
    ∃ sun, sunwhereEphemeris w times lat lon = .ok sun ∧
    ∀ v f, (v, f) ∈ irradiances sp → ∃ rows, clear.lookup v = some rows ∧ rows.Pairwise ByRmse ∧ (rows.map (·.1)).Nodup ∧
      ∀ name sc, (name, sc) ∈ rows ↔ ∃ m zm em, (m, name) ∈ clearMethods ∧ (others ++ sun).lookup (m, "zenith") = some zm ∧
        (others ++ sun).lookup (m, "ecf") = some em ∧ sc = scores (clearResidues f zm em z e) ∧ ∃ x, XR.fin x ∈ clearResidues f zm em z e := by
  unfold runBenchmark at h
  obtain ⟨sun, h1, h⟩ := bind_ok h
  simp only at h
  obtain ⟨b, h2, h⟩ := bind_ok h
  obtain ⟨t, h3, h⟩ := bind_ok h
  obtain ⟨errors, h4, h⟩ := bind_ok h
  obtain ⟨c, h5, h⟩ := bind_ok h
  obtain ⟨rfl, rfl⟩ := Prod.mk.inj (Except.ok.inj h)
  obtain ⟨d1, d2, d3, d4⟩ := data_facts hb h1
  have hlen : ∀ v o, jpl.lookup v = some o → o.length = times.stamps.length := fun v o ho =>
    hb.jpl_rows _ ((lookup_of_mem hb.jpl_labels).2 ho)
  have hj : ∀ m ∈ clearMethods.map (·.1), m ≠ "jpl" := by decide +kernel
  obtain ⟨g, ga, -, gn, gm⟩ := clear_core sp (data := ⟨jpl.map (fun c => (("jpl", c.1), c.2)) ++ others ++ sun⟩) (by rw [d2]; exact hz)
    (by rw [d2]; exact he) (by rw [hlen _ _ he, hlen _ _ hz]) (by
      intro m hm
      obtain ⟨zm, em, k1, k2⟩ := clear_sun hb h1 hsg m hm
      exact ⟨zm, em, by rw [d3 m _ (hj m hm)]; exact k1, by rw [d3 m _ (hj m hm)]; exact k2, by rw [(d4 _ _ _ k1).2, hlen _ _ hz],
        by rw [(d4 _ _ _ k2).2, hlen _ _ hz]⟩) (clear_day sp (by rw [d2]; exact hz) (by rw [d2]; exact he) h4)
  obtain rfl := ga _ h4
  have h5 := clear_tables h5
  subst h5
  refine ⟨?_, rfl, sun, h1, ?_⟩
  · unfold runTables
    rw [h1, ok_bind, h2, ok_bind, h3]
  · intro v f hf
    refine ⟨sort (g v), ?_, hs.sorted _, ?_, ?_⟩
    · simp only [irradiances, List.mem_cons, Prod.mk.injEq, List.not_mem_nil, or_false] at hf
      rcases hf with ⟨rfl, -⟩ | ⟨rfl, -⟩ | ⟨rfl, -⟩ <;> rfl
    · exact (((hs.perm (g v)).map (·.1)).nodup_iff).2 (gn v)
    · intro name sc
      rw [(hs.perm (g v)).mem_iff, gm v f hf]
      constructor
      · rintro ⟨m, zm, em, k1, k2, k3, k4⟩
        have hm := hj m (List.mem_map_of_mem k1)
        rw [d3 m _ hm] at k2 k3
        exact ⟨m, zm, em, k1, k2, k3, k4⟩
      · rintro ⟨m, zm, em, k1, k2, k3, k4⟩
        have hm := hj m (List.mem_map_of_mem k1)
        exact ⟨m, zm, em, k1, by rw [d3 m _ hm]; exact k2, by rw [d3 m _ hm]; exact k3, k4⟩

/-! ### accuracy -/

/-- the algorithms in the tables, with the names printed -/
def clearAlgorithms : List String := ["nrel", "psa", "iqbal", "soltrack"]

/-- the radiative transfer model gives numbers, and changes by at most `L` per unit of the cosine of the zenith angle and at most `K` per unit of the
eccentricity correction factor -/
def Smooth (L K : ℝ) (f : XR → XR → XR) : Prop :=
  ∃ g : ℝ → ℝ → ℝ, (∀ c e, |c| ≤ 1 → f (.fin c) (.fin e) = .fin (g c e)) ∧
    ∀ c e c' e', |c| ≤ 1 → |c'| ≤ 1 → |g c e - g c' e'| ≤ L * |c - c'| + K * |e - e'|

theorem clear_mem {f : XR → XR → XR} {zm em z e : List XR} {x : XR} : x ∈ clearResidues f zm em z e ↔
    ∃ (k : Nat) (a b : XR) (c : ℝ) (y : XR), zm[k]? = some a ∧ em[k]? = some b ∧ z[k]? = some (XR.fin c) ∧ e[k]? = some y ∧ c < 90 ∧
      x = irradianceAt f a b - irradianceAt f (XR.fin c) y := by
  unfold clearResidues
  rw [List.mem_filterMap]
  constructor
  · rintro ⟨k, -, hk⟩
    split at hk
    · rename_i a b c y h1 h2 h3 h4
      split_ifs at hk with hc
      exact ⟨k, a, b, c, y, h1, h2, h3, h4, hc, (Option.some.inj hk).symm⟩
    · cases hk
  · rintro ⟨k, a, b, c, y, h1, h2, h3, h4, h5, rfl⟩
    refine ⟨k, ?_, ?_⟩
    · rw [List.mem_range]; exact (List.getElem?_eq_some_iff.1 h3).1
    · simp only [h1, h2, h3, h4, h5, if_true]

theorem cos_lip' (a b : ℝ) : |cos (rad a) - cos (rad b)| ≤ rad |a - b| := by
  have := abs_cos_sub_cos_le (rad a) (rad b)
  rwa [← rad_sub, abs_rad] at this

/-- the differences of one method -/
theorem clear_method {w : World XR} {times : Times} {ts : List Int} {φ l η η' L K : ℝ} {alg : String} {s : Sunpos XR}
    (h : call .sites w times (.scalar (XR.fin φ)) (.scalar (XR.fin l)) alg .pyFalse "numexpr" = .ok s) (hts : times.stamps = ts.map some)
    (hr : ∀ t ∈ ts, |t| < 2 ^ 63) {Z E : List ℝ} (hlZ : Z.length = ts.length) (hlE : E.length = ts.length)
    (hZ : ∀ (k : Nat) t z, ts[k]? = some t → Z[k]? = some z → |z - sunZenith t φ l| ≤ η)
    (hE : ∀ (k : Nat) t e, ts[k]? = some t → E[k]? = some e → |e - 1 / distance (century t) ^ 2| ≤ η')
    (hup : ∃ z ∈ Z, z < 90) {f : XR → XR → XR} (hL : 0 ≤ L) (hK : 0 ≤ K) (hf : Smooth L K f) :
    let r := clearResidues f ((List.range times.stamps.length).map fun k => s.zenithDeg.get (rowAt k))
      ((List.range times.stamps.length).map fun k => s.ecf.get (rowAt k)) (Z.map XR.fin) (E.map XR.fin)
    (∃ x, XR.fin x ∈ r) ∧ ∀ x, XR.fin x ∈ r → |x| ≤ L * rad (positionError alg "numexpr" + η) + K * (ecfError alg + η') := by
  intro r
  obtain ⟨g, hg1, hg2⟩ := hf
  have hcell : ∀ (f : Nat → XR) (k : Nat) t, ts[k]? = some t → ((List.range times.stamps.length).map f)[k]? = some (f k) := by
    intro f k t hk
    rw [List.getElem?_map, List.getElem?_range (by rw [hts, List.length_map]; exact (List.getElem?_eq_some_iff.1 hk).1)]; rfl
  have hirr : ∀ z e : ℝ, irradianceAt f (.fin z) (.fin e) = .fin (g (cos (rad z)) e) := fun z e => hg1 _ _ (abs_cos_le_one _)
  constructor
  · obtain ⟨z0, hz0, h90⟩ := hup
    obtain ⟨k, hk, rfl⟩ := List.mem_iff_getElem.1 hz0
    have hkt : ts[k]? = some (ts[k]'(hlZ ▸ hk)) := List.getElem?_eq_getElem _
    obtain ⟨z, a, e, j1, -, j2, -⟩ := site_cells h hts hr hkt
    refine ⟨g (cos (rad z)) e - g (cos (rad Z[k])) (E[k]'(by rw [hlE, ← hlZ]; exact hk)), clear_mem.2 ⟨k, .fin z, .fin e, Z[k], .fin (E[k]'(by rw [hlE, ← hlZ]; exact hk)), ?_, ?_, ?_, ?_, h90, ?_⟩⟩
    · rw [hcell _ k _ hkt, j1]
    · rw [hcell _ k _ hkt, j2]
    · rw [List.getElem?_map, List.getElem?_eq_getElem hk]; rfl
    · rw [List.getElem?_map, List.getElem?_eq_getElem (by rw [hlE, ← hlZ]; exact hk)]; rfl
    · rw [hirr, hirr]; rfl
  · intro x hx
    obtain ⟨k, a, b, c, y, h1, h2, h3, h4, -, h6⟩ := clear_mem.1 hx
    rw [List.getElem?_map, Option.map_eq_some_iff] at h3 h4
    obtain ⟨c', h3, hc⟩ := h3
    obtain ⟨e', h4, rfl⟩ := h4
    rw [XR.fin_inj] at hc; subst hc
    have hk : k < ts.length := hlZ ▸ (List.getElem?_eq_some_iff.1 h3).1
    have hkt : ts[k]? = some ts[k] := List.getElem?_eq_getElem hk
    obtain ⟨z, az, e, j1, -, j2, j3, j4⟩ := site_cells h hts hr hkt
    rw [hcell _ k _ hkt, j1] at h1
    rw [hcell _ k _ hkt, j2] at h2
    obtain rfl := Option.some.inj h1
    obtain rfl := Option.some.inj h2
    rw [hirr, hirr] at h6
    have h6 : XR.fin x = XR.fin (g (cos (rad z)) e - g (cos (rad c')) e') := h6
    rw [XR.fin_inj] at h6
    rw [h6]
    refine (hg2 _ _ _ _ (abs_cos_le_one _) (abs_cos_le_one _)).trans ?_
    have k1 := abs_le.1 (hZ k _ _ hkt h3)
    have k2 := abs_le.1 (hE k _ _ hkt h4)
    have k3 := abs_le.1 j3
    have k4 := abs_le.1 j4
    have hz : |z - c'| ≤ positionError alg "numexpr" + η := by rw [abs_le]; constructor <;> linarith
    have he : |e - e'| ≤ ecfError alg + η' := by rw [abs_le]; constructor <;> linarith
    exact add_le_add (mul_le_mul_of_nonneg_left ((cos_lip' z c').trans (rad_mono hz)) hL) (mul_le_mul_of_nonneg_left he hK)

/-- **C78** The accuracy of the clear-sky irradiance that the benchmark reports: if the radiative transfer model changes by at most `L` per unit
of the cosine of the zenith angle and `K` per unit of the eccentricity correction factor, the reference is within `η` degrees and `η'` of the
ephemeris sun (as in C76), and has the sun above the horizon in some row, then the report comes out, and each of the three tables has a row for each
of the four algorithms, whose bias, mean absolute error and root mean square are at most those of the accuracy of the algorithm (C54) and of the
reference. -/
theorem C78_accuracy {sort : List (String × Scores) → List (String × Scores)} (hs : SortsRmse sort) (sp : Sparta) (w : World XR) {times : Times}
    {ts : List Int} {φ l η η' L K : ℝ} {jpl : List (String × List XR)} {others : List ((String × String) × List XR)} {Z A E : List ℝ}
    (hb : BenchInput times jpl others) (hsg : ∀ v ∈ ["zenith", "ecf"], ∃ c, others.lookup ("sg2.sg2_c++", v) = some c)
    (hu : InUtc times) (hts : times.stamps = ts.map some) (hr : ∀ t ∈ ts, |t| < 2 ^ 63)
    (hφ : -90 ≤ φ ∧ φ ≤ 90) (hl : -180 ≤ l ∧ l < 180)
    (hz : jpl.lookup "zenith" = some (Z.map XR.fin)) (ha : jpl.lookup "azimuth" = some (A.map XR.fin)) (he : jpl.lookup "ecf" = some (E.map XR.fin))
    (hZ : ∀ (k : Nat) t z, ts[k]? = some t → Z[k]? = some z → |z - sunZenith t φ l| ≤ η)
    (hE : ∀ (k : Nat) t e, ts[k]? = some t → E[k]? = some e → |e - 1 / distance (century t) ^ 2| ≤ η')
    (hup : ∃ z ∈ Z, z < 90) (hL : 0 ≤ L) (hK : 0 ≤ K) (hf : ∀ v f, (v, f) ∈ irradiances sp → Smooth L K f) :
    ∃ ephemerides clear, runBenchmark sort sp w times (.fin φ) (.fin l) jpl others = .ok (ephemerides, clear) ∧
      ∀ alg ∈ clearAlgorithms, ∀ v ∈ ["ghi", "dni", "dif"], ∃ rows sc b a q, clear.lookup v = some rows ∧ (alg, sc) ∈ rows ∧
        sc.mbe = some b ∧ sc.mae = some a ∧ sc.rmse = some q ∧ |b| ≤ a ∧ a ≤ q ∧
        q ≤ L * rad (positionError alg "numexpr" + η) + K * (ecfError alg + η') := by
  obtain ⟨eph, heph, -⟩ := C76_accuracy hs w hb hu hts hr hφ hl hz ha he hZ hE (by obtain ⟨z, h1, h2⟩ := hup; exact ⟨z, h1, by linarith⟩)
  have hrun := heph
  unfold runTables at hrun
  obtain ⟨sun, hsun, hrun⟩ := bind_ok hrun
  obtain ⟨be, hbe, hrun⟩ := bind_ok hrun
  obtain ⟨d1, d2, d3, d4⟩ := data_facts hb hsun
  have hlen : ∀ v o, jpl.lookup v = some o → o.length = times.stamps.length := fun v o ho =>
    hb.jpl_rows _ ((lookup_of_mem hb.jpl_labels).2 ho)
  have hlZ : Z.length = ts.length := by simpa [hts] using hlen _ _ hz
  have hlE : E.length = ts.length := by simpa [hts] using hlen _ _ he
  have hj : ∀ m ∈ clearMethods.map (·.1), m ≠ "jpl" := by decide +kernel
  have hday : ¬ ((keepDay (Z.map XR.fin) (Z.map XR.fin)).zip (keepDay (Z.map XR.fin) (E.map XR.fin))).all (fun c => noRow c.1 c.2) = true := by
    obtain ⟨z0, hz0, h90⟩ := hup
    have key : ∀ (W : List XR) (Z E : List ℝ), Z.length = E.length → z0 ∈ Z → W = Z.map XR.fin →
        ¬ ((keepDay (Z.map XR.fin) W).zip (keepDay (Z.map XR.fin) (E.map XR.fin))).all (fun c => noRow c.1 c.2) = true := by
      intro W Z
      induction Z generalizing W with
      | nil => intro E _ h; simp at h
      | cons a Z ih =>
        intro E hE hin hW
        subst hW
        obtain _ | ⟨b, E⟩ := E
        · simp at hE
        rw [List.map_cons, List.map_cons, keepDay_cons, keepDay_cons]
        have hlt : Scalar.ltB (XR.fin a) 90 = decide (a < 90) := rfl
        rw [hlt]
        by_cases ha : a < 90
        · simp only [ha, decide_true, if_true, List.zip_cons_cons, List.all_cons, Bool.and_eq_true]
          intro hh; cases hh.1
        · simp only [ha, decide_false, Bool.false_eq_true, if_false]
          refine ih _ E (by simpa using hE) ?_ rfl
          rcases List.mem_cons.1 hin with rfl | h
          · exact absurd h90 ha
          · exact h
    exact key _ Z E (by rw [hlZ, hlE]) hz0 rfl
  obtain ⟨g, ga, gb, gn, gm⟩ := clear_core sp (data := ⟨jpl.map (fun c => (("jpl", c.1), c.2)) ++ others ++ sun⟩) (by rw [d2]; exact hz)
    (by rw [d2]; exact he) (by rw [hlen _ _ he, hlen _ _ hz]) (by
      intro m hm
      obtain ⟨zm, em, k1, k2⟩ := clear_sun hb hsun hsg m hm
      exact ⟨zm, em, by rw [d3 m _ (hj m hm)]; exact k1, by rw [d3 m _ (hj m hm)]; exact k2, by rw [(d4 _ _ _ k1).2, hlen _ _ hz],
        by rw [(d4 _ _ _ k2).2, hlen _ _ hz]⟩) hday
  have hrow : ∀ alg ∈ clearAlgorithms, ∀ v f, (v, f) ∈ irradiances sp → ∃ sc b a q, (alg, sc) ∈ g v ∧
        sc.mbe = some b ∧ sc.mae = some a ∧ sc.rmse = some q ∧ |b| ≤ a ∧ a ≤ q ∧
        q ≤ L * rad (positionError alg "numexpr" + η) + K * (ecfError alg + η') := by
    intro alg halg v f hvf
    have hm : ∀ a ∈ clearAlgorithms, ("sunwhere." ++ a ++ "_numexpr", a) ∈ clearMethods ∧ "sunwhere." ++ a ++ "_numexpr" ∉ otherMethods.map (·.1) ∧
        ∃ p ∈ reportMethods, p.1 = a ∧ p.2.1 = "numexpr" ∧ sunwhereLabel p = "sunwhere." ++ a ++ "_numexpr" := by
      decide +kernel
    obtain ⟨m1, m2, p, hp, p1, p2, p3⟩ := hm alg halg
    obtain ⟨s, k1, k2, -, k4⟩ := (C76_columns hsun).1 p hp
    rw [p1, p2] at k1
    rw [p3] at k2 k4
    have hno : ∀ v, others.lookup ("sunwhere." ++ alg ++ "_numexpr", v) = none := by
      intro v
      rw [List.lookup_eq_none_iff]
      intro q hq
      rw [bne_iff_ne]
      intro hh
      exact m2 (by have := hb.names q hq; rwa [← hh] at this)
    obtain ⟨⟨x, hx⟩, hbd⟩ := clear_method k1 hts hr hlZ hlE hZ hE hup hL hK (hf v f hvf)
    obtain ⟨b, a, q, j1, j2, j3, j4, j5⟩ := C52_order hx
    have hmj := hj _ (List.mem_map_of_mem m1)
    refine ⟨_, b, a, q, (gm v f hvf _ _).2 ⟨_, _, _, m1, ?_, ?_, rfl, x, hx⟩, j1, j2, j3, j4, j5, ?_⟩
    · rw [d3 _ _ hmj, List.lookup_append, hno, Option.none_or]; exact k2
    · rw [d3 _ _ hmj, List.lookup_append, hno, Option.none_or]; exact k4
    · refine rmse_le ?_ hbd j3
      exact (abs_nonneg _).trans (hbd x hx)
  have hirr : ∀ v ∈ ["ghi", "dni", "dif"], ∃ f, (v, f) ∈ irradiances sp := by
    intro v hv
    simp only [List.mem_cons, List.not_mem_nil, or_false] at hv
    rcases hv with rfl | rfl | rfl <;> simp [irradiances]
  have hne : ∀ v ∈ ["ghi", "dni", "dif"], g v ≠ [] := by
    intro v hv
    obtain ⟨f, hvf⟩ := hirr v hv
    obtain ⟨_, _, _, _, hmem, -⟩ := hrow "nrel" (by simp [clearAlgorithms]) v f hvf
    exact List.ne_nil_of_mem hmem
  have hct : clearTables sort (["ghi", "dni", "dif"].map fun v => (v, g v)) = .ok (["ghi", "dni", "dif"].map fun v => (v, sort (g v))) := by
    unfold clearTables
    refine mapM_eq_ok fun v hv => ?_
    have : (((["ghi", "dni", "dif"].map fun v => (v, g v)).lookup v).getD []) = g v := by
      simp only [List.mem_cons, List.not_mem_nil, or_false] at hv
      rcases hv with rfl | rfl | rfl <;> rfl
    rw [this]
    cases hg : (g v).isEmpty with
    | true => exact absurd (List.isEmpty_iff.1 hg) (hne v hv)
    | false => simp only [hg, Bool.false_eq_true, if_false]; rfl
  refine ⟨eph, _, by unfold runBenchmark; simp only; rw [hsun, ok_bind, hbe, ok_bind, hrun, ok_bind, gb hne, ok_bind, hct, ok_bind]; rfl, ?_⟩
  intro alg halg v hv
  obtain ⟨f, hvf⟩ := hirr v hv
  obtain ⟨sc, b, a, q, k1, k2⟩ := hrow alg halg v f hvf
  refine ⟨sort (g v), sc, b, a, q, ?_, (hs.perm _).mem_iff.2 k1, k2⟩
  simp only [List.mem_cons, List.not_mem_nil, or_false] at hv
  rcases hv with rfl | rfl | rfl <;> rfl

/-! ### non-vacuity -/

/-- a radiative transfer model -/
noncomputable def exSparta : Sparta where
  ghi c e := (1000 : XR) * c + 300 * e
  dni c e := (900 : XR) * c + 300 * e
  dif c e := (100 : XR) * c + 200 * e

theorem exSparta_smooth : ∀ v f, (v, f) ∈ irradiances exSparta → Smooth 1000 300 f := by
  intro v f hf
  have key : ∀ a b : ℝ, 0 ≤ a → a ≤ 1000 → 0 ≤ b → b ≤ 300 → ∀ c e c' e' : ℝ,
      |(a * c + b * e) - (a * c' + b * e')| ≤ 1000 * |c - c'| + 300 * |e - e'| := by
    intro a b ha ha' hb hb' c e c' e'
    have h : (a * c + b * e) - (a * c' + b * e') = a * (c - c') + b * (e - e') := by ring
    rw [h]
    refine (abs_add_le _ _).trans ?_
    rw [abs_mul, abs_mul, abs_of_nonneg ha, abs_of_nonneg hb]
    exact add_le_add (mul_le_mul_of_nonneg_right ha' (abs_nonneg _)) (mul_le_mul_of_nonneg_right hb' (abs_nonneg _))
  simp only [irradiances, List.mem_cons, Prod.mk.injEq, List.not_mem_nil, or_false] at hf
  rcases hf with ⟨-, rfl⟩ | ⟨-, rfl⟩ | ⟨-, rfl⟩
  · exact ⟨fun c e => 1000 * c + 300 * e, fun c e _ => rfl, fun c e c' e' _ _ => key 1000 300 (by norm_num) (by norm_num) (by norm_num) (by norm_num) c e c' e'⟩
  · exact ⟨fun c e => 900 * c + 300 * e, fun c e _ => rfl, fun c e c' e' _ _ => key 900 300 (by norm_num) (by norm_num) (by norm_num) (by norm_num) c e c' e'⟩
  · exact ⟨fun c e => 100 * c + 200 * e, fun c e _ => rfl, fun c e c' e' _ _ => key 100 200 (by norm_num) (by norm_num) (by norm_num) (by norm_num) c e c' e'⟩

/-- a benchmark that meets the hypotheses of `C78_accuracy` and, with its report, those of `C78_rows`: the south pole on 1 January 2000, with the
ephemeris itself as the reference and the columns of SG2 -/
example : ∃ ephemerides clear, runBenchmark mergeRmse exSparta exWorld (oneTime 946728000000000000) (.fin (-90)) (.fin 0)
      [("azimuth", [.fin 12]), ("zenith", [.fin (sunZenith 946728000000000000 (-90) 0)]),
        ("ecf", [.fin (1 / distance (century 946728000000000000) ^ 2)])]
      [(("sg2.sg2_c++", "zenith"), [.fin 67]), (("sg2.sg2_c++", "ecf"), [.nan])] = .ok (ephemerides, clear) ∧
    BenchInput (oneTime 946728000000000000) [("azimuth", [.fin 12]), ("zenith", [.fin (sunZenith 946728000000000000 (-90) 0)]),
        ("ecf", [.fin (1 / distance (century 946728000000000000) ^ 2)])]
      [(("sg2.sg2_c++", "zenith"), [.fin 67]), (("sg2.sg2_c++", "ecf"), [.nan])] ∧
    ∃ rows sc q, clear.lookup "dni" = some rows ∧ ("soltrack", sc) ∈ rows ∧ sc.rmse = some q ∧
      q ≤ 1000 * rad (positionError "soltrack" "numexpr") + 300 * ecfError "soltrack" := by
  have hb : BenchInput (oneTime 946728000000000000) [("azimuth", [.fin 12]), ("zenith", [.fin (sunZenith 946728000000000000 (-90) 0)]),
        ("ecf", [.fin (1 / distance (century 946728000000000000) ^ 2)])]
      [(("sg2.sg2_c++", "zenith"), [.fin 67]), (("sg2.sg2_c++", "ecf"), [.nan])] := by
    refine ⟨by simp, by simp, ?_, ?_, ?_⟩
    · intro c hc
      simp only [List.mem_cons, List.not_mem_nil, or_false] at hc
      rcases hc with rfl | rfl <;> simp [otherMethods]
    · intro c hc
      simp only [List.mem_cons, List.not_mem_nil, or_false] at hc
      rcases hc with rfl | rfl | rfl <;> rfl
    · intro c hc
      simp only [List.mem_cons, List.not_mem_nil, or_false] at hc
      rcases hc with rfl | rfl <;> rfl
  have h90 : sunZenith 946728000000000000 (-90) 0 < 90 := by
    obtain ⟨hc, hd⟩ := dec_2000
    have e90 : rad (-90) = -(π / 2) := by unfold rad; ring
    have hlow : -(π / 2) ≤ declination 0 := neg_pi_div_two_le_arcsin _
    unfold sunZenith
    rw [hc, e90, sin_neg, cos_neg, sin_pi_div_two, cos_pi_div_two]
    have hs : sin (declination 0) < 0 := sin_neg_of_neg_of_neg_pi_lt (by norm_num at hd; linarith) (by have := pi_pos; linarith)
    have : arccos (-1 * sin (declination 0) + 0 * cos (declination 0) * cos (hourAngle 0 + rad 0)) < π / 2 := by
      rw [arccos_lt_pi_div_two]; linarith
    have h2 := mul_lt_mul_of_pos_right this (show 0 < 180 / π by positivity)
    have e : π / 2 * (180 / π) = 90 := by field_simp; norm_num
    linarith
  obtain ⟨eph, clear, h1, h2⟩ := C78_accuracy sorts_mergeRmse exSparta exWorld (ts := [946728000000000000]) (η := 0) (η' := 0) (L := 1000) (K := 300)
    (Z := [sunZenith 946728000000000000 (-90) 0]) (A := [12]) (E := [1 / distance (century 946728000000000000) ^ 2]) hb
    (by
      intro v hv
      simp only [List.mem_cons, List.not_mem_nil, or_false] at hv
      rcases hv with rfl | rfl
      · exact ⟨_, rfl⟩
      · exact ⟨_, rfl⟩)
    ⟨rfl, by intro z hz; cases hz⟩ rfl
    (by simp) (φ := -90) (l := 0) (by norm_num) (by norm_num) rfl rfl rfl
    (by
      intro k t z ht hz
      cases k with
      | zero =>
        simp only [List.getElem?_cons_zero, Option.some.injEq] at ht hz
        rw [← ht, ← hz, sub_self, abs_zero]
      | succ k => simp at ht)
    (by
      intro k t z ht hz
      cases k with
      | zero =>
        simp only [List.getElem?_cons_zero, Option.some.injEq] at ht hz
        rw [← ht, ← hz, sub_self, abs_zero]
      | succ k => simp at ht)
    ⟨_, by simp, h90⟩ (by norm_num) (by norm_num) exSparta_smooth
  refine ⟨eph, clear, h1, hb, ?_⟩
  obtain ⟨rows, sc, b, a, q, k1, k2, k3, k4, k5, k6, k7, k8⟩ := h2 "soltrack" (by simp [clearAlgorithms]) "dni" (by simp)
  exact ⟨rows, sc, q, k1, k2, k5, by rwa [add_zero, add_zero] at k8⟩

end SW.Props
