/-
`utils/jpl_horizons.py`: C40, C41, C45; reference data of the benchmark: C53.
-/
import Verif.Jpl
import Verif.Props.Bench
import Verif.Props.Calendar

namespace SW.Props
open SW SW.Jpl Real

/-! ### C40 -/

theorem mapM_ok {α β : Type} {f : α → Except PyErr β} {l : List α} {r : List β} :
    l.mapM f = .ok r ↔ List.Forall₂ (fun a b => f a = .ok b) l r := by
  induction l generalizing r with
  | nil =>
    rw [List.mapM_nil]
    constructor
    · intro h; cases h; exact .nil
    · intro h; cases h; rfl
  | cons a l ih =>
    rw [List.mapM_cons]
    constructor
    · intro h
      cases hf : f a with
      | error e => rw [hf] at h; cases h
      | ok b =>
        rw [hf] at h
        cases hm : l.mapM f with
        | error e =>
          have : (Except.ok b >>= fun b => do let bs ← l.mapM f; pure (b :: bs)) = .ok r := h
          rw [hm] at this; cases this
        | ok bs =>
          have : (Except.ok b >>= fun b => do let bs ← l.mapM f; pure (b :: bs)) = .ok r := h
          rw [hm] at this; cases this
          exact .cons hf (ih.1 hm)
    · intro h
      cases h with
      | cons hab hl =>
        rw [hab, ih.2 hl]; rfl

theorem mapM_error {α β : Type} {f : α → Except PyErr β} {l : List α} {e : PyErr} (h : l.mapM f = .error e) :
    ∃ a ∈ l, f a = .error e := by
  induction l with
  | nil => cases h
  | cons a l ih =>
    rw [List.mapM_cons] at h
    cases hf : f a with
    | error e' => rw [hf] at h; cases h; exact ⟨a, by simp, hf⟩
    | ok b =>
      rw [hf] at h
      cases hm : l.mapM f with
      | error e' =>
        have h' : (Except.ok b >>= fun b => do let bs ← l.mapM f; pure (b :: bs)) = .error e := h
        rw [hm] at h'; cases h'
        obtain ⟨x, hx, h2⟩ := ih hm
        exact ⟨x, by simp [hx], h2⟩
      | ok bs =>
        have h' : (Except.ok b >>= fun b => do let bs ← l.mapM f; pure (b :: bs)) = .error e := h
        rw [hm] at h'; cases h'

theorem idxOf_split {α : Type} [BEq α] [LawfulBEq α] {l : List α} {x : α} {i : Nat} :
    l.idxOf? x = some i ↔ ∃ pre post, l = pre ++ x :: post ∧ x ∉ pre ∧ pre.length = i := by
  induction l generalizing i with
  | nil => simp
  | cons a l ih =>
    rw [List.idxOf?_cons]
    by_cases h : a = x
    · subst h
      simp only [beq_self_eq_true, if_true, Option.some.injEq]
      constructor
      · rintro rfl; exact ⟨[], l, rfl, by simp, rfl⟩
      · rintro ⟨pre, post, h1, h2, rfl⟩
        cases pre with
        | nil => rfl
        | cons b pre => simp at h1; exact absurd (by simp [h1.1]) h2
    · have hb : (a == x) = false := by simpa using h
      rw [hb]
      simp only [Bool.false_eq_true, if_false, Option.map_eq_some_iff]
      constructor
      · rintro ⟨j, hj, rfl⟩
        obtain ⟨pre, post, h1, h2, rfl⟩ := ih.1 hj
        exact ⟨a :: pre, post, by rw [h1]; rfl, by simp [h2, Ne.symm h], rfl⟩
      · rintro ⟨pre, post, h1, h2, rfl⟩
        cases pre with
        | nil => simp at h1; exact absurd h1.1 h
        | cons b pre =>
          simp at h1 h2
          refine ⟨pre.length, ih.2 ⟨pre, post, h1.2, h2.2, rfl⟩, rfl⟩

theorem idxOf_none {α : Type} [BEq α] [LawfulBEq α] {l : List α} {x : α} (h : l.idxOf? x = none) : x ∉ l := by
  simpa using h

/-- The frame of a list of rows: UTC times, and azimuth (0 south), zenith and eccentricity correction factor from
azimuth (0 north), elevation and distance -/
noncomputable def ephemeris (rows : List (Row XR)) : Frame XR :=
  ⟨rows.map (·.time), true, [("azimuth", rows.map fun r => r.az - 180), ("zenith", rows.map fun r => 90.0 - r.el),
    ("ecf", rows.map fun r => 1 / Num.npow r.r 2)]⟩

theorem read_eq (p : Parsers XR) (lines : Text) : Jpl.read p lines =
    (indexFrom lines soe 0 >>= fun i => indexFrom lines eoe (i + 1) >>= fun j =>
      ((lines.take j).drop (i + 1)).mapM (parseLine p) >>= fun rows =>
        if rows.isEmpty then Except.error PyErr.indexError else .ok (ephemeris rows)) := by
  unfold Jpl.read
  refine congrArg _ (funext fun i => ?_)
  show (indexFrom lines eoe (i + 1) >>= _) = _
  refine congrArg _ (funext fun j => ?_)
  refine congrArg _ (funext fun rows => ?_)
  dsimp only
  by_cases h : rows.isEmpty = true
  · rw [if_pos h, if_pos h]; rfl
  · rw [if_neg h, if_neg h]
    show Except.ok _ = Except.ok _
    congr 1
    unfold ephemeris
    simp [Frame.assign, List.map_map, Function.comp_def]

theorem indexFrom_ok {lines : Text} {x : List Char} {s j : Nat} : indexFrom lines x s = .ok j ↔
    ∃ pre post, lines.drop s = pre ++ x :: post ∧ x ∉ pre ∧ j = s + pre.length := by
  unfold indexFrom
  cases h : (lines.drop s).idxOf? x with
  | none =>
    have := idxOf_none h
    simp only [reduceCtorEq, false_iff, not_exists, not_and]
    intro pre post h1
    exact absurd (by rw [h1]; simp) this
  | some i =>
    obtain ⟨pre, post, h1, h2, rfl⟩ := idxOf_split.1 h
    simp only [Except.ok.injEq]
    constructor
    · rintro rfl; exact ⟨pre, post, h1, h2, rfl⟩
    · rintro ⟨pre', post', h1', h2', rfl⟩
      have := idxOf_split.2 ⟨pre', post', h1', h2', rfl⟩
      rw [h] at this
      rw [Option.some.inj this]

/-- the data lines of a file: those between the first start marker and the next end marker -/
structure DataLines (lines : Text) (data : Text) : Prop where
  split : ∃ before after, lines = before ++ ["$$SOE\n".toList] ++ data ++ ["$$EOE\n".toList] ++ after ∧
    "$$SOE\n".toList ∉ before
  noEnd : "$$EOE\n".toList ∉ data

theorem markers {lines data : Text} : DataLines lines data ↔
    ∃ i j, indexFrom lines soe 0 = .ok i ∧ indexFrom lines eoe (i + 1) = .ok j ∧
      data = (lines.take j).drop (i + 1) := by
  constructor
  · rintro ⟨⟨pre, post, h1, h2⟩, h3⟩
    have e : lines = pre ++ soe :: (data ++ eoe :: post) := by
      rw [h1]; simp [soe, eoe]
    have d1 : lines.drop (pre.length + 1) = data ++ eoe :: post := by
      rw [e, ← List.drop_drop, List.drop_left]; rfl
    refine ⟨pre.length, pre.length + 1 + data.length, indexFrom_ok.2 ⟨pre, data ++ eoe :: post, ?_, h2, by simp⟩,
      indexFrom_ok.2 ⟨data, post, d1, h3, rfl⟩, ?_⟩
    · rw [List.drop_zero]; exact e
    · rw [List.drop_take, d1]
      simp
  · rintro ⟨i, j, hi, hj, rfl⟩
    obtain ⟨pre, post, h1, h2, h3⟩ := indexFrom_ok.1 hi
    obtain ⟨dat, post', h1', h2', h3'⟩ := indexFrom_ok.1 hj
    rw [List.drop_zero] at h1
    simp only [Nat.zero_add] at h3
    subst h3
    have d1 : lines.drop (pre.length + 1) = post := by
      rw [h1, ← List.drop_drop, List.drop_left]; rfl
    rw [d1] at h1'
    have ed : (lines.take j).drop (pre.length + 1) = dat := by
      rw [List.drop_take, d1, h1', h3']
      simp
    rw [ed]
    exact ⟨⟨pre, post', by rw [h1, h1']; simp [soe, eoe], h2⟩, h2'⟩

/-- **C40** Reading a file succeeds exactly if it has a start marker, an end marker after it, at least one line in
between (lines up to the first end marker after the first start marker), and all of these lines parse; the
result has one row per line, in order. -/
theorem C40_read (p : Parsers XR) (lines : Text) (f : Frame XR) : Jpl.read p lines = .ok f ↔
    ∃ data rows, DataLines lines data ∧ data ≠ [] ∧ List.Forall₂ (fun l r => parseLine p l = .ok r) data rows ∧
      f = ephemeris rows := by
  rw [read_eq]
  constructor
  · intro h
    cases hi : indexFrom lines soe 0 with
    | error e => rw [hi] at h; cases h
    | ok i =>
      rw [hi] at h
      have h : (indexFrom lines eoe (i + 1) >>= fun j => ((lines.take j).drop (i + 1)).mapM (parseLine p) >>= fun rows =>
        if rows.isEmpty then Except.error PyErr.indexError else .ok (ephemeris rows)) = .ok f := h
      cases hj : indexFrom lines eoe (i + 1) with
      | error e => rw [hj] at h; cases h
      | ok j =>
        rw [hj] at h
        have h : (((lines.take j).drop (i + 1)).mapM (parseLine p) >>= fun rows =>
          if rows.isEmpty then Except.error PyErr.indexError else .ok (ephemeris rows)) = .ok f := h
        cases hm : ((lines.take j).drop (i + 1)).mapM (parseLine p) with
        | error e => rw [hm] at h; cases h
        | ok rows =>
          rw [hm] at h
          have h : (if rows.isEmpty then Except.error PyErr.indexError else .ok (ephemeris rows)) = Except.ok f := h
          by_cases he : rows.isEmpty = true
          · rw [if_pos he] at h; cases h
          · rw [if_neg he] at h
            have hF := mapM_ok.1 hm
            refine ⟨_, rows, markers.2 ⟨i, j, hi, hj, rfl⟩, ?_, hF, (Except.ok.inj h).symm⟩
            intro hd
            rw [hd] at hF
            have h0 := hF.length_eq
            exact he (List.isEmpty_iff.2 (List.length_eq_zero_iff.1 h0.symm))
  · rintro ⟨data, rows, hd, hne, hF, rfl⟩
    obtain ⟨i, j, hi, hj, rfl⟩ := markers.1 hd
    rw [hi]
    show (indexFrom lines eoe (i + 1) >>= _) = _
    rw [hj]
    show (((lines.take j).drop (i + 1)).mapM (parseLine p) >>= _) = _
    rw [mapM_ok.2 hF]
    show (if rows.isEmpty then Except.error PyErr.indexError else .ok (ephemeris rows)) = Except.ok _
    rw [if_neg]
    intro he
    have : rows = [] := List.isEmpty_iff.1 he
    subst this
    exact hne (List.length_eq_zero_iff.1 hF.length_eq)

/-- **C40** Reading a file without a start marker, or without an end marker after it, is a ValueError; one without
data lines an IndexError; else an error is that of one of the data lines. -/
theorem C40_errors (p : Parsers XR) (lines : Text) :
    ((¬ ∃ data, DataLines lines data) → Jpl.read p lines = .error .valueError) ∧
    (DataLines lines [] → Jpl.read p lines = .error .indexError) ∧
    ∀ data e, DataLines lines data → data ≠ [] → Jpl.read p lines = .error e → ∃ l ∈ data, parseLine p l = .error e := by
  refine ⟨fun h => ?_, fun h => ?_, fun data e h hne hr => ?_⟩
  · rw [read_eq]
    cases hi : indexFrom lines soe 0 with
    | error e =>
      have : e = .valueError := by
        unfold indexFrom at hi
        cases hh : (lines.drop 0).idxOf? soe with
        | none => rw [hh] at hi; cases hi; rfl
        | some i => rw [hh] at hi; cases hi
      rw [this]; rfl
    | ok i =>
      show (indexFrom lines eoe (i + 1) >>= _) = _
      cases hj : indexFrom lines eoe (i + 1) with
      | error e =>
        have : e = .valueError := by
          unfold indexFrom at hj
          cases hh : (lines.drop (i + 1)).idxOf? eoe with
          | none => rw [hh] at hj; cases hj; rfl
          | some i => rw [hh] at hj; cases hj
        rw [this]; rfl
      | ok j => exact absurd ⟨_, markers.2 ⟨i, j, hi, hj, rfl⟩⟩ h
  · obtain ⟨i, j, hi, hj, he⟩ := markers.1 h
    rw [read_eq, hi]
    show (indexFrom lines eoe (i + 1) >>= _) = _
    rw [hj]
    show (((lines.take j).drop (i + 1)).mapM (parseLine p) >>= _) = _
    rw [← he]; rfl
  · obtain ⟨i, j, hi, hj, rfl⟩ := markers.1 h
    rw [read_eq, hi] at hr
    have hr : (indexFrom lines eoe (i + 1) >>= fun j => ((lines.take j).drop (i + 1)).mapM (parseLine p) >>= fun rows =>
        if rows.isEmpty then Except.error PyErr.indexError else .ok (ephemeris rows)) = .error e := hr
    rw [hj] at hr
    have hr : (((lines.take j).drop (i + 1)).mapM (parseLine p) >>= fun rows =>
          if rows.isEmpty then Except.error PyErr.indexError else .ok (ephemeris rows)) = .error e := hr
    cases hm : ((lines.take j).drop (i + 1)).mapM (parseLine p) with
    | error e' => rw [hm] at hr; cases hr; exact mapM_error hm
    | ok rows =>
      rw [hm] at hr
      have hr : (if rows.isEmpty then Except.error PyErr.indexError else .ok (ephemeris rows)) = Except.error e := hr
      by_cases he : rows.isEmpty = true
      · have h0 : rows = [] := List.isEmpty_iff.1 he
        subst h0
        have hF := mapM_ok.1 hm
        exact absurd (List.length_eq_zero_iff.1 hF.length_eq) hne
      · rw [if_neg he] at hr; cases hr

/-- **C40** The values of a row whose numbers are finite and whose distance is not zero. -/
theorem C40_values {rows : List (Row XR)} {k : Nat} {t : Int} {jd : XR} {az el r : ℝ}
    (h : rows[k]? = some ⟨t, jd, .fin az, .fin el, .fin r⟩) (hr : r ≠ 0) :
    (ephemeris rows).index[k]? = some t ∧
    ∃ a z c, (ephemeris rows).cols = [("azimuth", a), ("zenith", z), ("ecf", c)] ∧ a[k]? = some (.fin (az - 180)) ∧
      z[k]? = some (.fin (90 - el)) ∧ c[k]? = some (.fin (1 / r ^ 2)) := by
  refine ⟨by simp [ephemeris, h], _, _, _, rfl, ?_, ?_, ?_⟩
  · rw [List.getElem?_map, h]
    show some (XR.fin az - 180) = _
    rfl
  · rw [List.getElem?_map, h]
    show some (XR.fin (90.0 - el)) = _
    norm_num
  · rw [List.getElem?_map, h]
    show some (XR.m2p (fun _ b => b ≠ 0) (· / ·) (XR.fin 1) (XR.fin (r ^ 2))) = _
    congr 1
    exact if_pos (by positivity)

/-- **C40** The times pass through a binary64 number (nanoseconds since 1970). Whole seconds before the year 2116 survive
that: they are an integer of at most 53 bits times a power of two. -/
theorem C40_whole_seconds {s : Int} (h : |s * 1000000000| < 2 ^ 62) :
    ∃ m : Int, |m| < 2 ^ 53 ∧ s * 1000000000 = m * 2 ^ 9 := by
  refine ⟨s * 1953125, ?_, by ring⟩
  rw [abs_lt] at h ⊢
  constructor <;> omega

theorem slice_mid {i j : Nat} {s : List Char} (a b c : List Char) (h : s = a ++ b ++ c) (ha : a.length = i) (hb : a.length + b.length = j) :
    slice i j s = b := by
  subst h ha hb
  unfold slice
  rw [← List.length_append, List.take_left, List.drop_left]

/-- **C40** The columns of a line: after one character, 20 characters of time, one, 17 of the julian day, 4 (the presence of sun and moon), 11 of
azimuth, one, 11 of elevation, one, 17 of distance; what follows is ignored. The line parses exactly if all five fields do. -/
theorem C40_columns (p : Parsers XR) {c1 time c2 jd gap az c3 el c4 r rest : List Char} (l1 : c1.length = 1) (l2 : time.length = 20)
    (l3 : c2.length = 1) (l4 : jd.length = 17) (l5 : gap.length = 4) (l6 : az.length = 11) (l7 : c3.length = 1) (l8 : el.length = 11)
    (l9 : c4.length = 1) (l10 : r.length = 17) (row : Row XR) :
    parseLine p (c1 ++ time ++ c2 ++ jd ++ gap ++ az ++ c3 ++ el ++ c4 ++ r ++ rest) = .ok row ↔
    p.date time = .ok row.time ∧ p.float jd = some row.jd ∧ p.float az = some row.az ∧ p.float el = some row.el ∧ p.float r = some row.r := by
  obtain ⟨line, hline⟩ : ∃ line, line = c1 ++ time ++ c2 ++ jd ++ gap ++ az ++ c3 ++ el ++ c4 ++ r ++ rest := ⟨_, rfl⟩
  rw [← hline]
  have s1 : slice 1 21 line = time := slice_mid c1 time (c2 ++ jd ++ gap ++ az ++ c3 ++ el ++ c4 ++ r ++ rest)
    (by rw [hline]; simp only [List.append_assoc]) (by omega) (by omega)
  have s2 : slice 22 39 line = jd := slice_mid (c1 ++ time ++ c2) jd (gap ++ az ++ c3 ++ el ++ c4 ++ r ++ rest)
    (by rw [hline]; simp only [List.append_assoc]) (by simp only [List.length_append]; omega) (by simp only [List.length_append]; omega)
  have s3 : slice 43 54 line = az := slice_mid (c1 ++ time ++ c2 ++ jd ++ gap) az (c3 ++ el ++ c4 ++ r ++ rest)
    (by rw [hline]; simp only [List.append_assoc]) (by simp only [List.length_append]; omega) (by simp only [List.length_append]; omega)
  have s4 : slice 55 66 line = el := slice_mid (c1 ++ time ++ c2 ++ jd ++ gap ++ az ++ c3) el (c4 ++ r ++ rest)
    (by rw [hline]; simp only [List.append_assoc]) (by simp only [List.length_append]; omega) (by simp only [List.length_append]; omega)
  have s5 : slice 67 84 line = r := slice_mid (c1 ++ time ++ c2 ++ jd ++ gap ++ az ++ c3 ++ el ++ c4) r rest
    (by rw [hline]) (by simp only [List.length_append]; omega) (by simp only [List.length_append]; omega)
  have num : ∀ s x, p.num s = .ok x ↔ p.float s = some x := by
    intro s x
    unfold Parsers.num
    cases p.float s <;> simp
  unfold parseLine
  rw [s1, s2, s3, s4, s5]
  constructor
  · intro h
    cases h1 : p.date time with
    | error e => rw [h1] at h; cases h
    | ok t =>
    cases h2 : p.num jd with
    | error e => rw [h1, h2] at h; cases h
    | ok j =>
    cases h3 : p.num az with
    | error e => rw [h1, h2, h3] at h; cases h
    | ok a =>
    cases h4 : p.num el with
    | error e => rw [h1, h2, h3, h4] at h; cases h
    | ok e =>
    cases h5 : p.num r with
    | error e => rw [h1, h2, h3, h4, h5] at h; cases h
    | ok d =>
      rw [h1, h2, h3, h4, h5] at h
      cases h
      exact ⟨rfl, (num _ _).1 h2, (num _ _).1 h3, (num _ _).1 h4, (num _ _).1 h5⟩
  · rintro ⟨h1, h2, h3, h4, h5⟩
    rw [h1, (num _ _).2 h2, (num _ _).2 h3, (num _ _).2 h4, (num _ _).2 h5]
    rfl

/-- a line of the service -/
example : " 2024-Jan-01 00:00:00 2460310.500000000 *m  123.456789  -12.345678 0.983312345678901  -0.5\n".toList =
    " ".toList ++ "2024-Jan-01 00:00:00".toList ++ " ".toList ++ "2460310.500000000".toList ++ " *m ".toList ++ " 123.456789".toList ++ " ".toList
      ++ " -12.345678".toList ++ " ".toList ++ "0.983312345678901".toList ++ "  -0.5\n".toList := by decide

/-- parsers that always answer one -/
noncomputable def exParsers : Parsers XR := ⟨fun _ => some (.fin 1), fun _ => .ok 0⟩

/-- a file with two data lines among other lines and a second start marker -/
example : ∃ f, Jpl.read exParsers ["x".toList, "$$SOE\n".toList, "a".toList, "$$SOE\n".toList, "$$EOE\n".toList, "z".toList] = .ok f
    ∧ f.index.length = 2 := by
  have h := (C40_read exParsers
    ["x".toList, "$$SOE\n".toList, "a".toList, "$$SOE\n".toList, "$$EOE\n".toList, "z".toList]
    (ephemeris [⟨0, .fin 1, .fin 1, .fin 1, .fin 1⟩, ⟨0, .fin 1, .fin 1, .fin 1, .fin 1⟩])).2
    ⟨["a".toList, "$$SOE\n".toList], _, ⟨⟨["x".toList], ["z".toList], rfl, by decide⟩, by decide⟩, by simp,
      .cons rfl (.cons rfl .nil), rfl⟩
  exact ⟨_, h, rfl⟩

/-! ### C45 -/

/-- Number of time steps from `a` to `b` (minutes) at the step `n`: the `k` for which `a + k n` has not passed `b`. -/
def timeSteps (a b n : Int) : Set ℕ := {k | if 0 < n then a + k * n ≤ b else b ≤ a + k * n}

theorem fdiv_spec {x n : Int} (hn : n ≠ 0) (k : Int) :
    k ≤ Int.fdiv x n ↔ if 0 < n then k * n ≤ x else x ≤ k * n := by
  rcases lt_or_gt_of_ne hn with h | h
  · rw [if_neg (by omega)]
    have e : Int.fdiv x n = (-x) / (-n) := by
      rw [show Int.fdiv x n = Int.fdiv (-x) (-n) from ?_]
      · exact Int.fdiv_eq_ediv_of_nonneg _ (by omega)
      · rw [Int.neg_fdiv_neg]
    rw [e, Int.le_ediv_iff_mul_le (by omega)]
    constructor <;> intro h <;> nlinarith
  · rw [if_pos h, Int.fdiv_eq_ediv_of_nonneg _ (by omega), Int.le_ediv_iff_mul_le h]

theorem fdiv_eq {x n q : Int} (hn : n ≠ 0) (h1 : if 0 < n then q * n ≤ x ∧ x < (q + 1) * n else x ≤ q * n ∧ (q + 1) * n < x) :
    Int.fdiv x n = q := by
  apply le_antisymm
  · by_contra h
    have h2 := (fdiv_spec (x := x) hn (q + 1)).1 (by omega)
    split_ifs at h1 h2 <;> omega
  · rw [fdiv_spec hn]
    split_ifs at h1 ⊢ <;> exact h1.1

theorem timeSteps_eq {a b n : Int} (hn : n ≠ 0) : timeSteps a b n = {k : ℕ | (k : Int) ≤ Int.fdiv (b - a) n} := by
  ext k
  unfold timeSteps
  rw [Set.mem_ofPred_eq, Set.mem_ofPred_eq, fdiv_spec hn]
  split_ifs <;> constructor <;> intro h <;> omega

theorem ncard_le_int (q : Int) : (({k | (k : Int) ≤ q} : Set ℕ).ncard : Int) = max 0 (q + 1) := by
  have : ({k | (k : Int) ≤ q} : Set ℕ) = ((Finset.range (q + 1).toNat : Finset ℕ) : Set ℕ) := by
    ext k
    simp only [Set.mem_ofPred_eq, Finset.coe_range, Set.mem_Iio]
    omega
  rw [this, Set.ncard_coe_finset, Finset.card_range]
  omega

theorem dateRangeLen_eq {a b n : Int} (hn : n ≠ 0) :
    dateRangeLen (a * 60000000000) (b * 60000000000) (n * 60000000000) = (timeSteps a b n).ncard := by
  rw [timeSteps_eq hn, ncard_le_int]
  unfold dateRangeLen arangeLen
  simp only
  have q0 := fdiv_spec hn (x := b - a) (Int.fdiv (b - a) n)
  have q1 := fdiv_spec hn (x := b - a) (Int.fdiv (b - a) n + 1)
  obtain ⟨q, hq⟩ : ∃ q, q = Int.fdiv (b - a) n := ⟨_, rfl⟩
  rw [← hq] at q0 q1 ⊢
  have e1 : Int.fdiv (b * 60000000000 - a * 60000000000) (n * 60000000000) = q := by
    rw [hq, show b * 60000000000 - a * 60000000000 = 60000000000 * (b - a) by ring,
      show n * 60000000000 = 60000000000 * n by ring, Int.mul_fdiv_mul_of_pos _ _ (by norm_num)]
  have e2 : Int.fdiv (n * 60000000000) 2 = n * 30000000000 := by
    rw [Int.fdiv_eq_ediv_of_nonneg _ (by norm_num)]; omega
  rw [e1, e2]
  congr 1
  rw [show -(a * 60000000000 + q * (n * 60000000000) + n * 30000000000 + 1 - a * 60000000000) =
    -(q * n * 60000000000 + n * 30000000000 + 1) by ring]
  rw [fdiv_eq (q := -(q + 1)) (by omega)]
  · ring
  · have : 0 < n * 60000000000 ↔ 0 < n := by omega
    simp only [this]
    split_ifs with h
    · constructor <;> nlinarith
    · have : n < 0 := by omega
      constructor <;> nlinarith

theorem rint_near (x : ℝ) : |(rint x : ℝ) - x| ≤ 1 / 2 := by
  have h1 := Int.floor_le x
  have h2 := Int.lt_floor_add_one x
  rw [abs_le]
  unfold rint
  split_ifs <;> push_cast <;> constructor <;> linarith

/-- the request for given arguments -/
noncomputable def requestOf (start stop : Int) (lon lat elev step : ℝ) : Request :=
  ⟨start / 60000000000, stop / 60000000000, rint (lon * 10 ^ 6), rint (lat * 10 ^ 6), rint (elev * 10 ^ 3), rint step⟩

/-- **C45** With a step that rounds to a nonzero number of minutes: if there are more than 90024 time steps from start to
stop (to the minute), the call is a ValueError and nothing was requested or written; otherwise exactly one request is
made. -/
theorem C45_limit (o : Outside) (d : Disk XR) (path : Path) (start stop : Int) (lon lat elev step : ℝ)
    (hn : rint step ≠ 0) :
    (90024 < (timeSteps (start / 60000000000) (stop / 60000000000) (rint step)).ncard →
      get o d path start stop lon lat elev step = (.error .valueError, d)) ∧
    ((timeSteps (start / 60000000000) (stop / 60000000000) (rint step)).ncard ≤ 90024 →
      (get o d path start stop lon lat elev step).2.requests =
        d.requests ++ [requestOf start stop lon lat elev step]) := by
  have e := dateRangeLen_eq (a := minutes start) (b := minutes stop) hn
  constructor
  · intro h
    have h : (90024 : Int) < (timeSteps (minutes start) (minutes stop) (rint step)).ncard := by exact_mod_cast h
    unfold Jpl.get
    simp only
    rw [if_neg hn, if_pos (by rw [e]; exact h)]
  · intro h
    have h : ¬ (90024 : Int) < (timeSteps (minutes start) (minutes stop) (rint step)).ncard := by
      rw [not_lt]; exact_mod_cast h
    unfold Jpl.get
    simp only
    rw [if_neg hn, if_neg (by rw [e]; exact h)]
    split
    · rfl
    · split <;> rfl

/-- **C45** A step that rounds to zero minutes (up to half a minute) is a ZeroDivisionError, before anything is
requested or written. -/
theorem C45_zero_step (o : Outside) (d : Disk XR) (path : Path) (start stop : Int) (lon lat elev step : ℝ)
    (h : |step| ≤ 1 / 2) : get o d path start stop lon lat elev step = (.error .zeroDivisionError, d) := by
  have h0 : rint step = 0 := by
    rw [abs_le] at h
    unfold rint
    by_cases hs : 0 ≤ step
    · have hf : ⌊step⌋ = 0 := by rw [Int.floor_eq_iff]; push_cast; constructor <;> linarith
      rw [hf]
      push_cast
      split_ifs with h1 h2 h3
      · rfl
      · exfalso; linarith [h.2]
      · rfl
      · simp at h3
    · have hf : ⌊step⌋ = -1 := by rw [Int.floor_eq_iff]; push_cast; constructor <;> linarith [h.1]
      rw [hf]
      push_cast
      split_ifs with h1 h2 h3
      · exfalso; linarith [h.1]
      · rfl
      · exact absurd h3 (by decide)
      · rfl
  unfold Jpl.get
  simp only
  rw [if_pos h0]

/-- **C45** Whatever the outcome, at most one request is made, at most the given file changes and no yearly cache does; and if the
call returns, the file has the server's answer unless the write was cut short. -/
theorem C45_frame (o : Outside) (d : Disk XR) (path : Path) (start stop : Int) (lon lat elev step : ℝ) :
    let r := get o d path start stop lon lat elev step
    (r.2.requests = d.requests ∨ r.2.requests = d.requests ++ [requestOf start stop lon lat elev step]) ∧
    (∀ q, q ≠ path → r.2.files q = d.files q) ∧ r.2.parquet = d.parquet ∧
    ∀ q, r.1 = .ok q → q = path ∧ ∃ data t, o.server d.requests.length (requestOf start stop lon lat elev step) = .ok data ∧
      o.write d.requests.length path data = (t, none) ∧ r.2.files path = some t := by
  simp only
  unfold Jpl.get
  simp only
  by_cases h0 : rint step = 0
  · rw [if_pos h0]
    exact ⟨.inl rfl, fun _ _ => rfl, rfl, fun _ h => by cases h⟩
  rw [if_neg h0]
  split
  · exact ⟨.inl rfl, fun _ _ => rfl, rfl, fun _ h => by cases h⟩
  split
  · exact ⟨.inr rfl, fun _ _ => rfl, rfl, fun _ h => by cases h⟩
  · rename_i data hd
    split
    · refine ⟨.inr rfl, fun q hq => ?_, rfl, fun _ h => by cases h⟩
      simp [Disk.put, hq]
    · rename_i t ht
      refine ⟨.inr rfl, fun q hq => ?_, rfl, fun q h => ?_⟩
      · simp [Disk.put, hq]
      · cases h
        exact ⟨rfl, data, t, hd, ht, by simp [Disk.put]⟩

/-- **C45** What is requested: the times truncated to the minute, the coordinates to half a unit of the sixth decimal, the
elevation to half a unit of the third and the step to half a minute. -/
theorem C45_request (start stop : Int) (lon lat elev step : ℝ) :
    let r := requestOf start stop lon lat elev step
    r.start * 60000000000 ≤ start ∧ start < (r.start + 1) * 60000000000 ∧
    r.stop * 60000000000 ≤ stop ∧ stop < (r.stop + 1) * 60000000000 ∧
    |(r.lon6 : ℝ) / 10 ^ 6 - lon| ≤ 0.5 / 10 ^ 6 ∧ |(r.lat6 : ℝ) / 10 ^ 6 - lat| ≤ 0.5 / 10 ^ 6 ∧
    |(r.elev3 : ℝ) / 10 ^ 3 - elev| ≤ 0.5 / 10 ^ 3 ∧ |(r.step : ℝ) - step| ≤ 0.5 := by
  have near : ∀ (x c : ℝ), 0 < c → |(rint (x * c) : ℝ) / c - x| ≤ 0.5 / c := by
    intro x c hc
    have h := rint_near (x * c)
    rw [show (rint (x * c) : ℝ) / c - x = ((rint (x * c) : ℝ) - x * c) / c by field_simp, abs_div, abs_of_pos hc]
    exact div_le_div_of_nonneg_right (by linarith) hc.le
  refine ⟨?_, ?_, ?_, ?_, near _ _ (by positivity), near _ _ (by positivity), near _ _ (by positivity), ?_⟩
  · simp only [requestOf]; omega
  · simp only [requestOf]; omega
  · simp only [requestOf]; omega
  · simp only [requestOf]; omega
  · simp only [requestOf]; have := rint_near step; norm_num at this ⊢; exact this

/-- a request of the limit: 90024 steps of one minute -/
example : (timeSteps 0 90023 1).ncard = 90024 := by
  have h := ncard_le_int (Int.fdiv (90023 - 0) 1)
  rw [← timeSteps_eq (by norm_num)] at h
  have e : Int.fdiv (90023 - 0) 1 = 90023 := by decide
  rw [e] at h
  omega
/-- and one more -/
example (o : Outside) (d : Disk XR) (path : Path) :
    get o d path 0 (90024 * 60000000000) 0 0 0 1 = (.error .valueError, d) := by
  have h1 : rint 1 = 1 := by unfold rint; norm_num
  refine (C45_limit o d path 0 _ 0 0 0 1 (by rw [h1]; norm_num)).1 ?_
  have h := ncard_le_int (Int.fdiv (90024 - 0) 1)
  rw [← timeSteps_eq (by norm_num)] at h
  have e : Int.fdiv (90024 - 0) 1 = 90024 := by decide
  rw [e] at h
  rw [h1, show (0 : Int) / 60000000000 = 0 by decide, show (90024 * 60000000000 : Int) / 60000000000 = 90024 by decide]
  omega

/-! ### monthly windows -/

/-- the date of a day given by year, month and day -/
theorem codeDate_of (y : Int) {i : Nat} {d : Int} (hi : i < 12) (hd1 : 1 ≤ d) (hd2 : d ≤ monthLength y (1 + i)) :
    codeDate (yearStart y + before (Cal.isLeap y) i + (d - 1)) = ⟨y, 1 + i, d⟩ := by
  rw [← mlen_eq] at hd2
  have b1 := before_succ (Cal.isLeap y) hi
  have b0 := before_mono (Cal.isLeap y) (Nat.zero_le i) (by omega)
  have b2 := before_mono (Cal.isLeap y) (show i + 1 ≤ 12 by omega) le_rfl
  rw [before_0] at b0
  rw [before_12, ← yearLength_eq] at b2
  obtain ⟨k, hk⟩ : ∃ k, k = before (Cal.isLeap y) i + (d - 1) := ⟨_, rfl⟩
  have e : yearStart y + before (Cal.isLeap y) i + (d - 1) = yearStart y + k := by omega
  rw [e]
  have hy := yearsDays_spec (yearStart y + k)
  obtain ⟨e1, e2⟩ := yearStart_unique hy.1 ⟨by omega, by omega⟩ hy.2
  rw [codeDate_eq, ← e1, ← e2, monthDay_of (Cal.isLeap y) hi ⟨hd1, hd2⟩ (by omega)]

theorem daysOf_before (y : Int) (i : Nat) :
    Cal.daysOf y ((i + 1 : ℕ) : Int) = yearStart y + before (Cal.isLeap y) i := by
  rw [daysOf_eq, show (((i + 1 : ℕ) : Int) - 1).toNat = i by omega]; rfl

theorem replaceDay1_of {y : Int} {i : Nat} {d r : Int} (hi : i < 12) (hd1 : 1 ≤ d) (hd2 : d ≤ monthLength y (1 + i))
    (hr : 0 ≤ r ∧ r < dayNs) :
    replaceDay1 ((yearStart y + before (Cal.isLeap y) i + (d - 1)) * dayNs + r) =
      (yearStart y + before (Cal.isLeap y) i) * dayNs + r := by
  have h := codeDate_of y hi hd1 hd2
  unfold replaceDay1
  unfold dayNs at hr ⊢
  simp only
  have e1 : ((yearStart y + before (Cal.isLeap y) i + (d - 1)) * 86400000000000 + r) / 86400000000000 =
    yearStart y + before (Cal.isLeap y) i + (d - 1) := by omega
  have e2 : ((yearStart y + before (Cal.isLeap y) i + (d - 1)) * 86400000000000 + r) % 86400000000000 = r := by omega
  rw [e1, e2]
  unfold codeDate at h
  rw [CivilDate.mk.injEq] at h
  rw [h.1, h.2.1, show (1 : Int) + i = ((i + 1 : ℕ) : Int) by push_cast; ring, daysOf_before]

/-- **C45** The window asked for a month (`load_jpl_ephemeris`) goes from its first minute to its last: `start` is midnight
of the first day, and one minute after `stop` is midnight of the first day of the next month. -/
theorem C45_month_window {date : Int → CivilDate} (g : IsGregorian date) (y : Int) {m : Nat} (h1 : 1 ≤ m) (h2 : m ≤ 12) :
    ∃ n, date n = ⟨y, m, 1⟩ ∧ startOf y m = n * 86400000000000 ∧
      date (n + monthLength y m) = (if m = 12 then ⟨y + 1, 1, 1⟩ else ⟨y, m + 1, 1⟩) ∧
      stopOf y m + 60000000000 = (n + monthLength y m) * 86400000000000 := by
  have hg := g.unique C36_gregorian
  subst hg
  obtain ⟨i, rfl⟩ : ∃ i, m = i + 1 := ⟨m - 1, by omega⟩
  have hi : i < 12 := by omega
  have hcast : ((i + 1 : ℕ) : Int) = 1 + (i : Int) := by push_cast; ring
  have L1 : 28 ≤ monthLength y (1 + i) := by rw [← mlen_eq]; exact mlen_ge _ _
  have L2 : monthLength y (1 + i) ≤ 31 := by unfold monthLength; split_ifs <;> omega
  have c0 := codeDate_of y hi le_rfl (by omega)
  have b1 := before_succ (Cal.isLeap y) hi
  rw [mlen_eq] at b1
  have hst : startOf y (i + 1) = (yearStart y + before (Cal.isLeap y) i) * dayNs := by
    unfold startOf; rw [daysOf_before]
  refine ⟨yearStart y + before (Cal.isLeap y) i, ?_, hst, ?_⟩
  · rw [hcast, ← c0]; congr 1; omega
  rw [hcast]
  unfold stopOf
  rw [hst]
  by_cases h12 : i = 11
  · subst h12
    have hb : before (Cal.isLeap y) (11 + 1) = yearLength y := by rw [yearLength_eq]; exact before_12 _
    have ys := yearStart_succ y
    have M1 : 28 ≤ monthLength (y + 1) (1 + (0 : ℕ)) := by rw [← mlen_eq]; exact mlen_ge _ _
    have c1 := codeDate_of (y + 1) (i := 0) (by omega) le_rfl (by omega)
    have r1 := replaceDay1_of (y := y + 1) (i := 0) (d := 36 - monthLength y (1 + (11 : ℕ))) (r := 0) (by omega) (by omega) (by omega)
      ⟨le_rfl, by decide⟩
    rw [before_0] at c1 r1
    rw [if_pos rfl]
    constructor
    · rw [show yearStart y + before (Cal.isLeap y) 11 + monthLength y (1 + (11 : ℕ)) = yearStart (y + 1) + 0 + (1 - 1) by omega, c1]
      rfl
    · have e : (yearStart y + before (Cal.isLeap y) 11) * dayNs + 35 * dayNs =
        (yearStart (y + 1) + 0 + (36 - monthLength y (1 + (11 : ℕ)) - 1)) * dayNs + 0 := by
        unfold dayNs; omega
      rw [e, r1]
      unfold dayNs; omega
  · rw [if_neg (by omega)]
    have hi' : i + 1 < 12 := by omega
    have M1 : 28 ≤ monthLength y (1 + ((i + 1 : ℕ) : Int)) := by rw [← mlen_eq]; exact mlen_ge _ _
    have c1 := codeDate_of y hi' le_rfl (by omega)
    have r1 := replaceDay1_of (y := y) (i := i + 1) (d := 36 - monthLength y (1 + i)) (r := 0) hi' (by omega) (by omega)
      ⟨le_rfl, by decide⟩
    constructor
    · rw [show yearStart y + before (Cal.isLeap y) i + monthLength y (1 + i) =
        yearStart y + before (Cal.isLeap y) (i + 1) + (1 - 1) by omega, c1]
      congr 1
    · have e : (yearStart y + before (Cal.isLeap y) i) * dayNs + 35 * dayNs =
        (yearStart y + before (Cal.isLeap y) (i + 1) + (36 - monthLength y (1 + i) - 1)) * dayNs + 0 := by
        unfold dayNs; omega
      rw [e, r1]
      unfold dayNs; omega

/-- **C45** Each monthly request has 120 steps of twelve minutes per day of the month, at most 3720, so that it is never
rejected; the last step is twelve minutes before the first one of the next month. -/
theorem C45_month_steps (y : Int) {m : Nat} (h1 : 1 ≤ m) (h2 : m ≤ 12) :
    ((timeSteps (startOf y m / 60000000000) (stopOf y m / 60000000000) 12).ncard : Int) = 120 * monthLength y m ∧
    120 * monthLength y m ≤ 3720 ∧
    startOf y m + (120 * monthLength y m - 1) * (12 * 60000000000) + 12 * 60000000000 =
      (if m = 12 then startOf (y + 1) 1 else startOf y (m + 1)) := by
  obtain ⟨n, e0, e1, e2, e3⟩ := C45_month_window C36_gregorian y h1 h2
  have L1 : 28 ≤ monthLength y m := by rw [← mlen_eq]; exact mlen_ge _ _
  have L2 : monthLength y m ≤ 31 := by unfold monthLength; split_ifs <;> omega
  refine ⟨?_, by omega, ?_⟩
  · rw [timeSteps_eq (by norm_num), ncard_le_int, e1,
      show stopOf y m = (n + monthLength y m) * 86400000000000 - 60000000000 by omega,
      Int.fdiv_eq_ediv_of_nonneg _ (by norm_num)]
    omega
  · rw [e1]
    have inj : ∀ a b : Int, codeDate a = codeDate b → a = b := by
      intro a b h
      unfold codeDate at h
      rw [CivilDate.mk.injEq] at h
      obtain ⟨h1, h2, h3⟩ := h
      rw [h1, h2] at h3
      omega
    split_ifs with h12
    · obtain ⟨n', f0, f1, -, -⟩ := C45_month_window C36_gregorian (y + 1) le_rfl (show 1 ≤ 12 by norm_num)
      rw [if_pos h12] at e2
      rw [f1]
      have := inj _ _ (e2.trans f0.symm)
      omega
    · obtain ⟨n', f0, f1, -, -⟩ := C45_month_window C36_gregorian y (show 1 ≤ m + 1 by omega) (show m + 1 ≤ 12 by omega)
      rw [if_neg h12] at e2
      rw [f1]
      have := inj _ _ (e2.trans f0.symm)
      omega

/-! ### C41 -/

theorem read_no_julian_day {p : Parsers XR} {t : Text} {f : Frame XR} (h : Jpl.read p t = .ok f) :
    f.drop ["julian_day"] = .error .keyError := by
  obtain ⟨data, rows, -, -, -, rfl⟩ := (C40_read p t f).1 h
  rfl

/-- what is raised once the file of the month is there -/
noncomputable def monthError (p : Parsers XR) (t : Text) : PyErr :=
  match Jpl.read p t with
  | .error e => e
  | .ok _ => .keyError

theorem readDrop (p : Parsers XR) (d : Disk XR) (q : Path) (t : Text) (h : d.files q = some t) :
    (do let t ← readFile d q; let f ← Jpl.read p t; f.drop ["julian_day"]) = .error (monthError p t) := by
  have h1 : readFile d q = .ok t := by unfold readFile; rw [h]
  rw [h1]
  show (Jpl.read p t >>= fun f => f.drop ["julian_day"]) = _
  unfold monthError
  cases hr : Jpl.read p t with
  | error e => rfl
  | ok f => exact read_no_julian_day hr

/-- **C41** Without the yearly cache file the call raises, whatever the file system, the server and the parsers: it
is KeyError, or the error of the request, of writing, or of reading the January file. At most one request is made, for
January; it is not made if there is already a January file, whatever is in it, and then nothing changes on disk. -/
theorem C41_load (p : Parsers XR) (o : Outside) (d : Disk XR) (y : Int) (lon lat : ℝ) (lonF latF : XR)
    (h : d.parquet y = none) :
    let r := load p o d y lon lat lonF latF
    (∀ t, d.files (.month y 1) = some t → r = (.error (monthError p t), d)) ∧
    (d.files (.month y 1) = none →
      let g := get o d (.month y 1) (startOf y 1) (stopOf y 1) lon lat 0 12
      r.2 = g.2 ∧ ((∃ e, g.1 = .error e ∧ r.1 = .error e) ∨
        ∃ t, r.2.files (.month y 1) = some t ∧ r.1 = .error (monthError p t))) := by
  refine ⟨fun t ht => ?_, fun hn => ?_⟩
  · unfold Jpl.load
    simp only [h, Option.isSome_none, Bool.false_eq_true, if_false]
    have hm : loadMonth p o d y lon lat 1 = (.error (monthError p t), d) := by
      unfold loadMonth
      simp only [ht, Option.isSome_some, if_true]
      rw [readDrop p d _ t ht]
    unfold loadMonths
    rw [hm]
  · have hfr := C45_frame o d (.month y 1) (startOf y 1) (stopOf y 1) lon lat 0 12
    simp only at hfr
    obtain ⟨-, -, -, hok⟩ := hfr
    simp only
    rcases hg : Jpl.get o d (.month y 1) (startOf y 1) (stopOf y 1) lon lat 0 12 with ⟨g1, g2⟩
    rw [hg] at hok
    cases g1 with
    | error e =>
      have hm : loadMonth p o d y lon lat 1 = (.error e, g2) := by
        unfold loadMonth
        simp only [hn, hg, Option.isSome_none, Bool.false_eq_true, if_false]
      have hl : load p o d y lon lat lonF latF = (.error e, g2) := by
        unfold Jpl.load
        simp only [h, Option.isSome_none, Bool.false_eq_true, if_false]
        unfold loadMonths
        rw [hm]
      rw [hl]
      exact ⟨rfl, .inl ⟨e, rfl, rfl⟩⟩
    | ok q =>
      obtain ⟨-, data, t, -, -, hf⟩ := hok q rfl
      have hm : loadMonth p o d y lon lat 1 = (.error (monthError p t), g2) := by
        unfold loadMonth
        simp only [hn, hg, Option.isSome_none, Bool.false_eq_true, if_false]
        rw [readDrop p g2 _ t hf]
      have hl : load p o d y lon lat lonF latF = (.error (monthError p t), g2) := by
        unfold Jpl.load
        simp only [h, Option.isSome_none, Bool.false_eq_true, if_false]
        unfold loadMonths
        rw [hm]
      rw [hl]
      exact ⟨rfl, .inr ⟨t, hf, rfl⟩⟩

/-- A history: calls of `load_jpl_ephemeris`, and other programs writing or removing text files. -/
inductive LoadEvent where
  | load (year : Int) (lon lat : ℝ) (lonF latF : XR)
  | touch (path : Path) (content : Option Text)

/-- disk after an event -/
noncomputable def afterEvent (p : Parsers XR) (o : Outside) (d : Disk XR) : LoadEvent → Disk XR
  | .load y lon lat a b => (load p o d y lon lat a b).2
  | .touch q c => { d with files := fun q' => if q' = q then c else d.files q' }

theorem load_parquet (p : Parsers XR) (o : Outside) (d : Disk XR) (y : Int) (lon lat : ℝ) (a b : XR) :
    (load p o d y lon lat a b).2.parquet = d.parquet := by
  cases h : d.parquet y with
  | some f =>
    unfold Jpl.load
    simp only [h, Option.isSome_some, if_true]
  | none =>
    have hl := C41_load p o d y lon lat a b h
    cases hf : d.files (.month y 1) with
    | some t => rw [hl.1 t hf]
    | none =>
      have := (hl.2 hf).1
      rw [this]
      exact (C45_frame o d (.month y 1) (startOf y 1) (stopOf y 1) lon lat 0 12).2.2.1

/-- **C41** After any history, a year whose cache file did not exist at the start has none, and the next call for it raises. -/
theorem C41_never (p : Parsers XR) (o : Outside) (d : Disk XR) (y : Int) (h : d.parquet y = none)
    (history : List LoadEvent) (lon lat : ℝ) (lonF latF : XR) :
    let d' := history.foldl (afterEvent p o) d
    d'.parquet y = none ∧ ∃ e, (load p o d' y lon lat lonF latF).1 = .error e := by
  simp only
  have hp : (history.foldl (afterEvent p o) d).parquet y = none := by
    induction history generalizing d with
    | nil => exact h
    | cons a as ih =>
      rw [List.foldl_cons]
      refine ih _ ?_
      cases a with
      | load y' lon lat a b => exact (congrFun (load_parquet p o d y' lon lat a b) y).trans h
      | touch q c => exact h
  refine ⟨hp, ?_⟩
  obtain ⟨d', hd'⟩ : ∃ d', d' = history.foldl (afterEvent p o) d := ⟨_, rfl⟩
  rw [← hd'] at hp ⊢
  have hl := C41_load p o d' y lon lat lonF latF hp
  cases hf : d'.files (.month y 1) with
  | some t => exact ⟨_, by rw [hl.1 t hf]⟩
  | none =>
    rcases (hl.2 hf).2 with ⟨e, -, he⟩ | ⟨t, -, he⟩
    · exact ⟨_, he⟩
    · exact ⟨_, he⟩

/-- **C41** Once a January file was written, even if its writing was interrupted, any number of further calls for that year
(by themselves) make no request, change nothing, and raise the same error: KeyError if the file reads. -/
theorem C41_stuck (p : Parsers XR) (o : Outside) (d : Disk XR) (y : Int) (h : d.parquet y = none) {t : Text}
    (hf : d.files (.month y 1) = some t) (calls : List (ℝ × ℝ × XR × XR)) (lon lat : ℝ) (lonF latF : XR) :
    load p o (calls.foldl (fun d c => (load p o d y c.1 c.2.1 c.2.2.1 c.2.2.2).2) d) y lon lat lonF latF =
      (.error (monthError p t), d) ∧ ((∃ f, Jpl.read p t = .ok f) → monthError p t = .keyError) := by
  have hd : calls.foldl (fun d c => (load p o d y c.1 c.2.1 c.2.2.1 c.2.2.2).2) d = d := by
    induction calls with
    | nil => rfl
    | cons c cs ih =>
      rw [List.foldl_cons, (C41_load p o d y c.1 c.2.1 c.2.2.1 c.2.2.2 h).1 t hf]
      exact ih
  rw [hd]
  refine ⟨(C41_load p o d y lon lat lonF latF h).1 t hf, ?_⟩
  rintro ⟨f, hr⟩
  unfold monthError; rw [hr]

/-- **C41** With a cache file nothing is requested or written; the result is the file's frame in UTC, or TypeError
if its index is already aware, as that of everything read by `read_jpl_ephemeris_file`. -/
theorem C41_cached (p : Parsers XR) (o : Outside) (d : Disk XR) (y : Int) (lon lat : ℝ) (lonF latF : XR) {f : Frame XR}
    (h : d.parquet y = some f) :
    load p o d y lon lat lonF latF = (if f.aware then .error .typeError else .ok { f with aware := true }, d) ∧
    ∀ t g, Jpl.read p t = .ok g → g.aware = true := by
  constructor
  · unfold Jpl.load
    simp only [h, Option.isSome_some, if_true]
    rfl
  · intro t g hg
    obtain ⟨data, rows, -, -, -, rfl⟩ := (C40_read p t g).1 hg
    rfl

/-- a world in which the server answers with one data line and writing works -/
def exOutside : Outside := ⟨fun _ _ => .ok ["$$SOE\n".toList, "a".toList, "$$EOE\n".toList], fun _ _ t => (t, none)⟩
/-- an empty disk -/
def exDisk : Disk XR := ⟨fun _ => none, fun _ => none, []⟩

theorem get_ok {o : Outside} {d : Disk XR} {path : Path} {start stop : Int} {lon lat elev step : ℝ} {data t : Text}
    (hn : rint step ≠ 0)
    (hc : (timeSteps (start / 60000000000) (stop / 60000000000) (rint step)).ncard ≤ 90024)
    (hs : o.server d.requests.length (requestOf start stop lon lat elev step) = .ok data)
    (hw : o.write d.requests.length path data = (t, none)) :
    get o d path start stop lon lat elev step = (.ok path,
      Disk.put { d with requests := d.requests ++ [requestOf start stop lon lat elev step] } path t) := by
  have h : ¬ (90024 : Int) < (timeSteps (minutes start) (minutes stop) (rint step)).ncard := by
    rw [not_lt]; exact_mod_cast hc
  unfold Jpl.get
  simp only
  rw [if_neg hn, if_neg (by rw [dateRangeLen_eq hn]; exact h)]
  change o.server d.requests.length ⟨minutes start, minutes stop, rint (lon * 10 ^ 6), rint (lat * 10 ^ 6),
    rint (elev * 10 ^ 3), rint step⟩ = _ at hs
  rw [hs]
  simp only
  rw [hw]
  rfl

theorem rint_nat (n : ℤ) : rint (n : ℝ) = n := by
  unfold rint; rw [Int.floor_intCast]; norm_num

/-- the first call on an empty disk, with a good server: KeyError, one request, and a January file that stays -/
example : ∃ t d, load exParsers exOutside exDisk 2024 0 0 (.fin 0) (.fin 0) = (.error .keyError, d) ∧
    d.requests.length = 1 ∧ d.files (.month 2024 1) = some t := by
  have h12 : rint (12 : ℝ) = 12 := by exact_mod_cast rint_nat 12
  have hl := (C41_load exParsers exOutside exDisk 2024 0 0 (.fin 0) (.fin 0) rfl).2 rfl
  simp only at hl
  have hs := C45_month_steps 2024 (m := 1) le_rfl (by norm_num)
  have hg := get_ok (o := exOutside) (d := exDisk) (path := .month 2024 1) (start := startOf 2024 1) (stop := stopOf 2024 1)
    (lon := 0) (lat := 0) (elev := 0) (step := 12) (by rw [h12]; norm_num)
    (by rw [h12]; have := hs.1; have := hs.2.1; push_cast at *; omega) rfl rfl
  rw [hg] at hl
  obtain ⟨h1, ⟨e, h2, -⟩ | ⟨t, h2, h3⟩⟩ := hl
  · cases h2
  · rw [h1] at h2
    have ht : t = ["$$SOE\n".toList, "a".toList, "$$EOE\n".toList] := by
      simpa [Disk.put] using h2.symm
    refine ⟨t, _, Prod.ext (h3.trans ?_) h1, rfl, h2⟩
    have hr := (C40_read exParsers t (ephemeris [⟨0, .fin 1, .fin 1, .fin 1, .fin 1⟩])).2
      ⟨["a".toList], _, ⟨⟨[], [], by rw [ht]; rfl, by simp⟩, by decide⟩, by simp, .cons rfl .nil, rfl⟩
    unfold monthError
    rw [hr]

/-! ### C53 -/

theorem sign_pos {x : ℝ} (h : 0 < x) : Bench.sign x = .ok 1 := by
  unfold Bench.sign
  rw [if_neg h.ne', abs_of_pos h, div_self h.ne']
  norm_num [rtrunc]
theorem sign_neg {x : ℝ} (h : x < 0) : Bench.sign x = .ok 0 := by
  unfold Bench.sign
  rw [if_neg h.ne, abs_of_neg h, div_neg, div_self h.ne]
  norm_num [rtrunc]
theorem sign_zero : Bench.sign 0 = .error .zeroDivisionError := by
  unfold Bench.sign; rw [if_pos rfl]

/-- **C53** On the equator or the Greenwich meridian `run_benchmark` is a ZeroDivisionError before anything is requested, written or read. -/
theorem C53_equator (p : Parsers XR) (o : Outside) (d : Disk XR) (year : Int) {lat lon : ℝ} (h : lat = 0 ∨ lon = 0) :
    benchData p o d year lat lon = (.error .zeroDivisionError, d) := by
  have hp : benchPath year lat lon = .error .zeroDivisionError := by
    unfold benchPath
    rcases h with rfl | rfl
    · rw [sign_zero]; rfl
    · rcases lt_trichotomy lat 0 with h | h | h
      · rw [sign_neg h, sign_zero]; rfl
      · rw [h, sign_zero]; rfl
      · rw [sign_pos h, sign_zero]; rfl
  unfold benchData
  rw [hp]

/-- the name of the reference file: coordinates to four decimals, and hemisphere letters -/
noncomputable def refFile (year : Int) (lat lon : ℝ) : Path :=
  .bench year (rint (|lat| * 10 ^ 4)) (if 0 < lat then 1 else 0) (rint (|lon| * 10 ^ 4)) (if 0 < lon then 1 else 0)

theorem benchPath_eq (year : Int) {lat lon : ℝ} (h1 : lat ≠ 0) (h2 : lon ≠ 0) :
    benchPath year lat lon = .ok (refFile year lat lon) := by
  unfold benchPath refFile
  rcases lt_or_gt_of_ne h1 with h1 | h1 <;> rcases lt_or_gt_of_ne h2 with h2 | h2
  · rw [sign_neg h1, sign_neg h2, if_neg (not_lt.2 h1.le), if_neg (not_lt.2 h2.le)]; rfl
  · rw [sign_neg h1, sign_pos h2, if_neg (not_lt.2 h1.le), if_pos h2]; rfl
  · rw [sign_pos h1, sign_neg h2, if_pos h1, if_neg (not_lt.2 h2.le)]; rfl
  · rw [sign_pos h1, sign_pos h2, if_pos h1, if_pos h2]; rfl

/-- a year has at most 43921 steps of twelve minutes -/
theorem year_steps (year : Int) :
    (timeSteps (startOf year 1 / 60000000000) (startOf (year + 1) 1 / 60000000000) (rint 12)).ncard ≤ 90024 := by
  have h12 : rint (12 : ℝ) = 12 := by exact_mod_cast rint_nat 12
  have e1 : startOf year 1 = yearStart year * dayNs := by
    have := daysOf_before year 0
    unfold startOf; rw [before_0] at this; rw [this, add_zero]
  have e2 : startOf (year + 1) 1 = (yearStart year + yearLength year) * dayNs := by
    have := daysOf_before (year + 1) 0
    unfold startOf; rw [before_0] at this; rw [this, add_zero, yearStart_succ]
  have e3 : yearLength year ≤ 366 := by unfold yearLength; split_ifs <;> omega
  have hq := ncard_le_int (Int.fdiv (startOf (year + 1) 1 / 60000000000 - startOf year 1 / 60000000000) 12)
  rw [← timeSteps_eq (by norm_num), Int.fdiv_eq_ediv_of_nonneg _ (by norm_num), e1, e2] at hq
  rw [h12, e1, e2]
  unfold dayNs at *
  omega

/-- **C53** Elsewhere: if there is a reference file of that name it is read, without a request and whatever it contains; if not, exactly
one request is made, for the whole year at a step of twelve minutes, which is never too large. -/
theorem C53_fetch (p : Parsers XR) (o : Outside) (d : Disk XR) (year : Int) {lat lon : ℝ} (h1 : lat ≠ 0) (h2 : lon ≠ 0) :
    let r := benchData p o d year lat lon
    (∀ t, d.files (refFile year lat lon) = some t → r = (Jpl.read p t, d)) ∧
    (d.files (refFile year lat lon) = none →
      r.2.requests = d.requests ++ [requestOf (startOf year 1) (startOf (year + 1) 1) lon lat 0 12] ∧
      (∀ q, q ≠ refFile year lat lon → r.2.files q = d.files q) ∧
      ∀ f, r.1 = .ok f → ∃ t, r.2.files (refFile year lat lon) = some t ∧ Jpl.read p t = .ok f) := by
  have e := benchPath_eq year h1 h2
  simp only
  refine ⟨fun t ht => ?_, fun hn => ?_⟩
  · unfold benchData
    rw [e]
    simp only [ht, Option.isSome_some, if_true]
    have h1 : readFile d (refFile year lat lon) = .ok t := by unfold readFile; rw [ht]
    have hb : (Except.ok t >>= fun t => Jpl.read p t) = Jpl.read p t := rfl
    rw [h1, hb]
    cases Jpl.read p t <;> rfl
  · have h12 : rint (12 : ℝ) = 12 := by exact_mod_cast rint_nat 12
    have hreq := (C45_limit o d (refFile year lat lon) (startOf year 1) (startOf (year + 1) 1) lon lat 0 12
      (by rw [h12]; norm_num)).2 (year_steps year)
    have hfr := C45_frame o d (refFile year lat lon) (startOf year 1) (startOf (year + 1) 1) lon lat 0 12
    simp only at hfr
    unfold benchData
    rw [e]
    simp only [hn, Option.isSome_none, Bool.false_eq_true, if_false]
    rcases hg : Jpl.get o d (refFile year lat lon) (startOf year 1) (startOf (year + 1) 1) lon lat 0 12 with ⟨g1, g2⟩
    rw [hg] at hreq hfr
    cases g1 with
    | error e => exact ⟨hreq, hfr.2.1, fun f h => by cases h⟩
    | ok q =>
      obtain ⟨-, data, t, -, -, hf⟩ := hfr.2.2.2 q rfl
      have hrd : readFile g2 (refFile year lat lon) = .ok t := by unfold readFile; rw [hf]
      simp only
      rw [hrd]
      have hb : (Except.ok t >>= fun t => Jpl.read p t) = Jpl.read p t := rfl
      cases hr : Jpl.read p t with
      | error e =>
        rw [hb, hr]
        exact ⟨hreq, hfr.2.1, fun f h => by cases h⟩
      | ok f =>
        rw [hb, hr]
        refine ⟨hreq, hfr.2.1, fun f' h => ?_⟩
        cases h
        exact ⟨t, hf, hr⟩

/-- **C53** Sites whose coordinates agree to four decimals share the reference: once the benchmark has read it for one of them, the benchmark
for the other makes no request and gets the same data. -/
theorem C53_shared (p : Parsers XR) (o : Outside) (d : Disk XR) (year : Int) {lat lon lat' lon' : ℝ}
    (h1 : lat ≠ 0) (h2 : lon ≠ 0) (h1' : lat' ≠ 0) (h2' : lon' ≠ 0)
    (h : refFile year lat lon = refFile year lat' lon') {f : Frame XR}
    (hf : (benchData p o d year lat lon).1 = .ok f) :
    benchData p o (benchData p o d year lat lon).2 year lat' lon' = (.ok f, (benchData p o d year lat lon).2) := by
  have a := C53_fetch p o d year h1 h2
  have b := C53_fetch p o (benchData p o d year lat lon).2 year h1' h2'
  simp only at a b
  rw [← h] at b
  cases hfile : d.files (refFile year lat lon) with
  | some t =>
    have e := a.1 t hfile
    have : (benchData p o d year lat lon).2.files (refFile year lat lon) = some t := by rw [e]; exact hfile
    rw [b.1 t this]
    rw [e] at hf
    rw [show Jpl.read p t = .ok f from hf]
  | none =>
    obtain ⟨t, e1, e2⟩ := (a.2 hfile).2.2 f hf
    rw [b.1 t e1, e2]

theorem rint_eq_near {x y : ℝ} (h : rint x = rint y) : |x - y| ≤ 1 := by
  have a := rint_near x
  have b := rint_near y
  rw [h] at a
  rw [abs_le] at *
  constructor <;> linarith [a.1, a.2, b.1, b.2]

/-- **C53** Sites that share a reference are at most 0.0001 degrees apart in latitude and longitude. -/
theorem C53_close (year : Int) {lat lon lat' lon' : ℝ} (h1 : lat ≠ 0) (h2 : lon ≠ 0) (h1' : lat' ≠ 0) (h2' : lon' ≠ 0)
    (h : refFile year lat lon = refFile year lat' lon') : |lat - lat'| ≤ 0.0001 ∧ |lon - lon'| ≤ 0.0001 := by
  unfold refFile at h
  rw [Path.bench.injEq] at h
  obtain ⟨-, a, b, c, e⟩ := h
  have key : ∀ x y : ℝ, x ≠ 0 → y ≠ 0 → rint (|x| * 10 ^ 4) = rint (|y| * 10 ^ 4) →
      ((if 0 < x then 1 else 0 : Int) = if 0 < y then 1 else 0) → |x - y| ≤ 0.0001 := by
    intro x y hx hy hr hs
    have hn := rint_eq_near hr
    rw [show |x| * 10 ^ 4 - |y| * 10 ^ 4 = (|x| - |y|) * 10 ^ 4 by ring, abs_mul, abs_of_pos (show (0 : ℝ) < 10 ^ 4 by positivity)] at hn
    rcases lt_or_gt_of_ne hx with h | h <;> rcases lt_or_gt_of_ne hy with h' | h'
    · rw [abs_of_neg h, abs_of_neg h', show -x - -y = -(x - y) by ring, abs_neg] at hn
      norm_num at hn ⊢; linarith
    · rw [if_neg (not_lt.2 h.le), if_pos h'] at hs; norm_num at hs
    · rw [if_pos h, if_neg (not_lt.2 h'.le)] at hs; norm_num at hs
    · rw [abs_of_pos h, abs_of_pos h'] at hn
      norm_num at hn ⊢; linarith
  exact ⟨key _ _ h1 h1' a b, key _ _ h2 h2' c e⟩

/-- two sites that share -/
example : refFile 2024 36.94900 (-3.822) = refFile 2024 36.94901 (-3.822) := by
  unfold refFile rint
  have e1 : ⌊|(36.949 : ℝ)| * 10 ^ 4⌋ = 369490 := by rw [Int.floor_eq_iff]; norm_num [abs_of_pos]
  have e2 : ⌊|(36.94901 : ℝ)| * 10 ^ 4⌋ = 369490 := by rw [Int.floor_eq_iff]; norm_num [abs_of_pos]
  rw [show (36.94900 : ℝ) = 36.949 by norm_num, e1, e2]
  norm_num [abs_of_pos]

/-- a first run on an empty disk -/
example : ∃ f, (benchData exParsers exOutside exDisk 2024 36.949 (-3.822)).1 = .ok f := by
  have h12 : rint (12 : ℝ) = 12 := by exact_mod_cast rint_nat 12
  have e := benchPath_eq 2024 (lat := 36.949) (lon := -3.822) (by norm_num) (by norm_num)
  have hg := get_ok (o := exOutside) (d := exDisk) (path := refFile 2024 36.949 (-3.822)) (lon := -3.822) (lat := 36.949)
    (elev := 0) (by rw [h12]; norm_num) (year_steps 2024) rfl rfl
  have hr := (C40_read exParsers ["$$SOE\n".toList, "a".toList, "$$EOE\n".toList]
    (ephemeris [⟨0, .fin 1, .fin 1, .fin 1, .fin 1⟩])).2
    ⟨["a".toList], _, ⟨⟨[], [], rfl, by simp⟩, by decide⟩, by simp, .cons rfl .nil, rfl⟩
  refine ⟨ephemeris [⟨0, .fin 1, .fin 1, .fin 1, .fin 1⟩], ?_⟩
  · unfold benchData
    rw [e]
    simp only [show (exDisk.files (refFile 2024 36.949 (-3.822))).isSome = false from rfl, Bool.false_eq_true, if_false]
    rw [hg]
    have hrd : readFile (Disk.put { exDisk with requests := exDisk.requests ++
        [requestOf (startOf 2024 1) (startOf (2024 + 1) 1) (-3.822) 36.949 0 12] } (refFile 2024 36.949 (-3.822))
        ["$$SOE\n".toList, "a".toList, "$$EOE\n".toList]) (refFile 2024 36.949 (-3.822)) =
        .ok ["$$SOE\n".toList, "a".toList, "$$EOE\n".toList] := by
      unfold readFile Disk.put
      simp
    simp only
    rw [hrd]
    have hb : ∀ t : Text, (Except.ok t >>= fun t => Jpl.read exParsers t) = Jpl.read exParsers t := fun _ => rfl
    rw [hb, hr]

end SW.Props
