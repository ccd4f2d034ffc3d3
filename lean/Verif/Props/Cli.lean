/-
`utils/datetime.py` and the command line interface: C37, C38, C39, C49, C50, C51.
-/
import Verif.Props.Sunrise
import Verif.Utils
import Verif.Cli

namespace SW.Props
open SW SW.Spec SW.Cli Real

/-! ### C37 -/

/-- **C37** `universal_time_coordinated` and `true_solar_time` never return, in any arithmetic, whatever
their lines after the evaluation do. -/
theorem C37_never {F β : Type} [Scalar F] (rest : Times → Coord F → Arr F → Except PyErr β)
    (times : Times) (longitude : Coord F) :
    (∃ e, Utils.universalTimeCoordinated rest times longitude = .error e) ∧
    ∃ e, Utils.trueSolarTime rest times longitude = .error e := by
  have h : ∃ e, Utils.withEot rest times longitude = .error e := by
    unfold Utils.withEot
    cases evaluate (F := F) times (.scalar 0.0) (.scalar 0.0) "psa" 1 .pyTrue "numexpr" with
    | error e => exact ⟨e, rfl⟩
    | ok d => exact ⟨.attributeError, rfl⟩
  exact ⟨h, h⟩

/-- **C37** The error is an AttributeError for all times that pandas understands (and the TypeError of
pandas for arrays of times with two or more dimensions). -/
theorem C37_attributeError {β : Type} (rest : Times → Coord XR → Arr XR → Except PyErr β)
    (times : Times) (longitude : Coord XR) :
    Utils.universalTimeCoordinated rest times longitude =
      .error (if times.nested then .typeError else .attributeError) ∧
    Utils.trueSolarTime rest times longitude =
      .error (if times.nested then .typeError else .attributeError) := by
  have h : Utils.withEot rest times longitude =
      .error (if times.nested then .typeError else .attributeError) := by
    unfold Utils.withEot
    cases hn : times.nested with
    | true =>
      have : evaluate (F := XR) times (.scalar 0.0) (.scalar 0.0) "psa" 1 .pyTrue "numexpr"
          = .error .typeError := by
        have hc : checkTimeLatLon (F := XR) times (.scalar 0.0) (.scalar 0.0) 1 = .error .typeError := by
          unfold checkTimeLatLon; rw [if_pos hn]
        have hf : findModule (F := XR) "psa" "numexpr" = .ok (Backend.psaNe).module := by
          rw [findModule_eq]; rfl
        unfold evaluate
        rw [hf]
        show (checkTimeLatLon (F := XR) times (.scalar 0.0) (.scalar 0.0) 1 >>= _) = _
        rw [hc]; rfl
      rw [this]; rfl
    | false =>
      have h0 : (0.0 : XR) = .fin 0 := by
        show XR.fin (0.0 : ℝ) = _; norm_num
      obtain ⟨ev, hev, -⟩ := evaluate_ok (F := XR) (times := times) (lat := [0.0]) (lon := [0.0])
        (uc := .sites) (alg := "psa") (eng := "numexpr") (b := .psaNe) .pyTrue rfl hn
        (lonOk_XR.2 (by rw [h0]; simp [LonAdm])) (latOk_XR.2 (by rw [h0]; simp [LatAdm])) rfl
      have : evaluate (F := XR) times (.scalar 0.0) (.scalar 0.0) "psa" 1 .pyTrue "numexpr" = .ok ev := hev
      rw [this]; rfl
  exact ⟨h, h⟩

/-- a reachable case: noon on 29 February 2024 -/
example : Utils.universalTimeCoordinated (β := Unit) (fun _ _ _ => .ok ()) (oneTime 1709208000000000000)
    (.scalar (XR.fin (-3))) = .error .attributeError :=
  (C37_attributeError _ (oneTime 1709208000000000000) _).1

/-! ### C38 -/

theorem assertThen_ok {α : Type} {p : Prop} {x y : α} : assertThen p x = .ok y ↔ p ∧ y = x := by
  unfold assertThen
  split_ifs with h
  · simp [h, eq_comm]
  · simp [h]

theorem assertThen_cases {α : Type} (p : Prop) (x : α) :
    assertThen p x = .ok x ∨ assertThen p x = .error .assertionError := by
  unfold assertThen
  split_ifs <;> simp

/-- **C38** `parse_latitude` returns `x` exactly if its argument is a number (in the sense of Python's
`float`, whatever that accepts) followed by a letter of a hemisphere, and `x` is that number for north and its
opposite for south, and `x` is a real number from -90 to 90. -/
theorem C38_latitude (float : List Char → Option PyFloat) (s : List Char) (x : PyFloat) :
    parseLatitude float s = .ok x ↔
      ∃ number c v, s = number ++ [c] ∧ float number = some v ∧
        (((c = 'N' ∨ c = 'n') ∧ x = v) ∨ ((c = 'S' ∨ c = 's' ∨ c = 'ſ') ∧ x = v.neg)) ∧
        ∃ r, x = .fin r ∧ -90 ≤ r ∧ r ≤ 90 := by
  have bound : ∀ y : PyFloat, (y.ge (-90) ∧ y.le 90) ↔ ∃ r, y = .fin r ∧ -90 ≤ r ∧ r ≤ 90 := by
    intro y
    cases y with
    | nan => simp [PyFloat.ge]
    | inf b => cases b <;> simp [PyFloat.ge, PyFloat.le]
    | fin r => simp [PyFloat.ge, PyFloat.le]
  rcases s.eq_nil_or_concat with rfl | ⟨n, c, rfl⟩
  · simp [parseLatitude]
  · unfold parseLatitude
    simp only [List.concat_eq_append, List.getLast?_append, List.getLast?_singleton, Option.some_or,
      List.dropLast_concat]
    constructor
    · intro h
      by_cases h1 : (foldsN c || foldsS c) = false
      · rw [if_pos h1] at h; cases h
      rw [if_neg h1] at h
      cases hv : float n with
      | none => rw [hv] at h; cases h
      | some v =>
        rw [hv] at h
        simp only at h
        by_cases h2 : foldsN c = true
        · rw [if_pos h2] at h
          obtain ⟨h3, rfl⟩ := assertThen_ok.1 h
          exact ⟨n, c, _, rfl, hv, .inl ⟨by simpa [foldsN] using h2, rfl⟩, (bound _).1 h3⟩
        · rw [if_neg h2] at h
          obtain ⟨h3, rfl⟩ := assertThen_ok.1 h
          refine ⟨n, c, v, rfl, hv, .inr ⟨?_, rfl⟩, (bound _).1 h3⟩
          simp only [Bool.not_eq_true] at h2
          simp only [h2, Bool.false_or, Bool.not_eq_false] at h1
          simpa [foldsS, or_assoc] using h1
    · rintro ⟨n', c', v, he, hv, hc, hb⟩
      obtain ⟨rfl, hcc⟩ := List.append_inj' he rfl
      obtain rfl : c = c' := by simpa using hcc
      rw [hv]
      simp only
      rcases hc with ⟨hc, rfl⟩ | ⟨hc, rfl⟩
      · have hN : foldsN c = true := by simpa [foldsN] using hc
        rw [if_neg (by simp [hN])]
        simp only [hN, if_true]
        exact assertThen_ok.2 ⟨(bound _).2 hb, rfl⟩
      · have hS : foldsS c = true := by simpa [foldsS, or_assoc] using hc
        have hN : foldsN c = false := by
          rcases hc with rfl | rfl | rfl <;> decide
        rw [if_neg (by simp [hS])]
        simp only [hN, Bool.false_eq_true, if_false]
        exact assertThen_ok.2 ⟨(bound _).2 hb, rfl⟩

/-- **C38** the same for `parse_longitude`, with east and west, from -180 (included) to 180
(excluded). -/
theorem C38_longitude (float : List Char → Option PyFloat) (s : List Char) (x : PyFloat) :
    parseLongitude float s = .ok x ↔
      ∃ number c v, s = number ++ [c] ∧ float number = some v ∧
        (((c = 'E' ∨ c = 'e') ∧ x = v) ∨ ((c = 'W' ∨ c = 'w') ∧ x = v.neg)) ∧
        ∃ r, x = .fin r ∧ -180 ≤ r ∧ r < 180 := by
  have bound : ∀ y : PyFloat, (y.ge (-180) ∧ y.lt 180) ↔ ∃ r, y = .fin r ∧ -180 ≤ r ∧ r < 180 := by
    intro y
    cases y with
    | nan => simp [PyFloat.ge]
    | inf b => cases b <;> simp [PyFloat.ge, PyFloat.lt]
    | fin r => simp [PyFloat.ge, PyFloat.lt]
  rcases s.eq_nil_or_concat with rfl | ⟨n, c, rfl⟩
  · simp [parseLongitude]
  · unfold parseLongitude
    simp only [List.concat_eq_append, List.getLast?_append, List.getLast?_singleton, Option.some_or,
      List.dropLast_concat]
    constructor
    · intro h
      by_cases h1 : (foldsE c || foldsW c) = false
      · rw [if_pos h1] at h; cases h
      rw [if_neg h1] at h
      cases hv : float n with
      | none => rw [hv] at h; cases h
      | some v =>
        rw [hv] at h
        simp only at h
        by_cases h2 : foldsE c = true
        · rw [if_pos h2] at h
          obtain ⟨h3, rfl⟩ := assertThen_ok.1 h
          exact ⟨n, c, _, rfl, hv, .inl ⟨by simpa [foldsE] using h2, rfl⟩, (bound _).1 h3⟩
        · rw [if_neg h2] at h
          obtain ⟨h3, rfl⟩ := assertThen_ok.1 h
          refine ⟨n, c, v, rfl, hv, .inr ⟨?_, rfl⟩, (bound _).1 h3⟩
          simp only [Bool.not_eq_true] at h2
          simp only [h2, Bool.false_or, Bool.not_eq_false] at h1
          simpa [foldsW] using h1
    · rintro ⟨n', c', v, he, hv, hc, hb⟩
      obtain ⟨rfl, hcc⟩ := List.append_inj' he rfl
      obtain rfl : c = c' := by simpa using hcc
      rw [hv]
      simp only
      rcases hc with ⟨hc, rfl⟩ | ⟨hc, rfl⟩
      · have hN : foldsE c = true := by simpa [foldsE] using hc
        rw [if_neg (by simp [hN])]
        simp only [hN, if_true]
        exact assertThen_ok.2 ⟨(bound _).2 hb, rfl⟩
      · have hS : foldsW c = true := by simpa [foldsW] using hc
        have hN : foldsE c = false := by
          rcases hc with rfl | rfl <;> decide
        rw [if_neg (by simp [hS])]
        simp only [hN, Bool.false_eq_true, if_false]
        exact assertThen_ok.2 ⟨(bound _).2 hb, rfl⟩

/-- **C38** Every other argument makes them fail: the empty one with IndexError, one without a
hemisphere letter or with a number out of range with AssertionError, one with a malformed number with
ValueError. -/
theorem C38_errors (float : List Char → Option PyFloat) (s : List Char) :
    ((∃ x, parseLatitude float s = .ok x) ∨ parseLatitude float s = .error .indexError ∧ s = [] ∨
      parseLatitude float s = .error .assertionError ∨
      parseLatitude float s = .error .valueError ∧ float s.dropLast = none) ∧
    ((∃ x, parseLongitude float s = .ok x) ∨ parseLongitude float s = .error .indexError ∧ s = [] ∨
      parseLongitude float s = .error .assertionError ∨
      parseLongitude float s = .error .valueError ∧ float s.dropLast = none) := by
  rcases s.eq_nil_or_concat with rfl | ⟨n, c, rfl⟩
  · exact ⟨.inr (.inl ⟨rfl, rfl⟩), .inr (.inl ⟨rfl, rfl⟩)⟩
  · unfold parseLatitude parseLongitude
    simp only [List.concat_eq_append, List.getLast?_append, List.getLast?_singleton, Option.some_or,
      List.dropLast_concat]
    constructor
    · by_cases h1 : (foldsN c || foldsS c) = false
      · rw [if_pos h1]; exact .inr (.inr (.inl rfl))
      · rw [if_neg h1]
        cases float n with
        | none => exact .inr (.inr (.inr ⟨rfl, rfl⟩))
        | some v =>
          rcases assertThen_cases _ _ with h | h
          · exact .inl ⟨_, h⟩
          · exact .inr (.inr (.inl h))
    · by_cases h1 : (foldsE c || foldsW c) = false
      · rw [if_pos h1]; exact .inr (.inr (.inl rfl))
      · rw [if_neg h1]
        cases float n with
        | none => exact .inr (.inr (.inr ⟨rfl, rfl⟩))
        | some v =>
          rcases assertThen_cases _ _ with h | h
          · exact .inl ⟨_, h⟩
          · exact .inr (.inr (.inl h))

/-- **C38** Every pair of parsed coordinates is accepted by the use cases. -/
theorem C38_accepted (float : List Char → Option PyFloat) {a b : List Char} {x y : PyFloat}
    (ha : parseLatitude float a = .ok x) (hb : parseLongitude float b = .ok y) :
    ∃ φ l : ℝ, x = .fin φ ∧ y = .fin l ∧ ∀ (uc : UseCase) (w : World XR) (t : Int) (refr : PyVal)
      (alg eng : String), KnownPair alg eng →
        ∃ s, call uc w (oneTime t) (.scalar (XR.fin φ)) (.scalar (XR.fin l)) alg refr eng = .ok s := by
  obtain ⟨-, -, -, -, -, -, φ, rfl, h1, h2⟩ := (C38_latitude float a x).1 ha
  obtain ⟨-, -, -, -, -, -, l, rfl, h3, h4⟩ := (C38_longitude float b y).1 hb
  refine ⟨φ, l, rfl, rfl, fun uc w t refr alg eng hk => ?_⟩
  exact C05_naive_returns (uc := uc) (w := w) (times := oneTime t) (lat := [.fin φ]) (lon := [.fin l])
    refr rfl rfl rfl rfl (by cases uc <;> simp [Lengths, oneTime]) hk
    (latOk_XR.2 (by simp [LatAdm, h1, h2])) (lonOk_XR.2 (by simp [LonAdm, h3, h4]))

/-! decimal numbers -/

/-- the number written by a list of decimal digits, most significant first -/
def ofDigits : List Nat → Nat
  | ds => ds.foldl (fun v d => 10 * v + d) 0

/-- the character of a digit -/
def digitChar (d : Fin 10) : Char := Char.ofNat (48 + d.val)

theorem digit_facts : ∀ d : Fin 10, digit? (digitChar d) = some d.val ∧ digitChar d ≠ '_' ∧
    (digitChar d == '.') = false ∧ (digitChar d == 'e' || digitChar d == 'E') = false ∧
    (digitChar d).isWhitespace = false ∧ digitChar d ≠ '-' ∧ digitChar d ≠ '+' ∧
    (digitChar d).toLower ≠ 'n' ∧ (digitChar d).toLower ≠ 'i' := by decide

theorem digitsAux_spec (ds : List (Fin 10)) (prev : Bool) (v n : Nat) (h : prev = true ∨ n = 0) :
    digitsAux (ds.map digitChar) prev v n =
      some ((ds.map Fin.val).foldl (fun v d => 10 * v + d) v, n + ds.length) := by
  induction ds generalizing prev v n with
  | nil => rcases h with h | h <;> simp [digitsAux, h]
  | cons d ds ih =>
    obtain ⟨h1, h2, -⟩ := digit_facts d
    rw [List.map_cons, digitsAux]
    · rw [h1]
      simp only
      rw [ih true _ _ (.inl rfl)]
      simp [Nat.add_assoc, Nat.add_comm]
    · exact fun hc => h2 hc

theorem digits_spec (ds : List (Fin 10)) :
    digits (ds.map digitChar) = some (ofDigits (ds.map Fin.val), ds.length) := by
  unfold digits
  rw [digitsAux_spec ds false 0 0 (.inr rfl)]
  simp [ofDigits]

theorem splitAt1_none {p : Char → Bool} {l : List Char} (h : ∀ c ∈ l, p c = false) :
    splitAt1 p l = (l, none) := by
  induction l with
  | nil => rfl
  | cons c l ih =>
    rw [splitAt1, h c (by simp), ih (fun c hc => h c (by simp [hc]))]; rfl

theorem splitAt1_some {p : Char → Bool} {l : List Char} (h : ∀ c ∈ l, p c = false) {c : Char}
    (hc : p c = true) (r : List Char) : splitAt1 p (l ++ c :: r) = (l, some r) := by
  induction l with
  | nil => simp [splitAt1, hc]
  | cons d l ih =>
    rw [List.cons_append, splitAt1, h d (by simp), ih (fun c hc => h c (by simp [hc]))]; rfl

theorem isWS_digit (d : Fin 10) : (digitChar d).isWhitespace = false := (digit_facts d).2.2.2.2.1

theorem dropWhile_id {p : Char → Bool} {l : List Char} (h : ∀ c ∈ l.head?, p c = false) :
    l.dropWhile p = l := by
  cases l with
  | nil => rfl
  | cons c l => simp [List.dropWhile_cons, h c (by simp)]

theorem strip_id {l : List Char} (h : ∀ c ∈ l, c.isWhitespace = false) : strip l = l := by
  unfold strip
  rw [dropWhile_id (fun c hc => h c (List.mem_of_mem_head? hc)),
    dropWhile_id (fun c hc => h c (by have := List.mem_of_mem_head? hc; simpa using this)), List.reverse_reverse]

/-- a plain decimal number: digits, and a fraction if `frac` is given -/
def decimalText (ds : List (Fin 10)) (frac : Option (List (Fin 10))) : List Char :=
  ds.map digitChar ++ match frac with
    | none => []
    | some fs => '.' :: fs.map digitChar

/-- its value -/
noncomputable def decimalValue (ds : List (Fin 10)) (frac : Option (List (Fin 10))) : ℝ :=
  ofDigits (ds.map Fin.val) + match frac with
    | none => 0
    | some fs => ofDigits (fs.map Fin.val) / (10 : ℝ) ^ fs.length

theorem decimal_mem {ds : List (Fin 10)} {frac : Option (List (Fin 10))} {c : Char}
    (h : c ∈ decimalText ds frac) : c = '.' ∨ ∃ d, c = digitChar d := by
  unfold decimalText at h
  rw [List.mem_append] at h
  rcases h with h | h
  · obtain ⟨d, -, rfl⟩ := List.mem_map.1 h; exact .inr ⟨d, rfl⟩
  · cases frac with
    | none => cases h
    | some fs =>
      rcases List.mem_cons.1 h with h | h
      · exact .inl h
      · obtain ⟨d, -, rfl⟩ := List.mem_map.1 h; exact .inr ⟨d, rfl⟩

theorem mantissa_decimal {ds : List (Fin 10)} (hds : ds ≠ []) (frac : Option (List (Fin 10))) :
    mantissa (decimalText ds frac) = some (decimalValue ds frac) := by
  have hl : ds.length ≠ 0 := by simpa using hds
  have hnd : ∀ c ∈ ds.map digitChar, (c == '.') = false := by
    intro c hc; obtain ⟨d, -, rfl⟩ := List.mem_map.1 hc; exact (digit_facts d).2.2.1
  unfold mantissa decimalText decimalValue
  cases frac with
  | none =>
    simp only [List.append_nil]
    rw [splitAt1_none hnd]
    simp only
    rw [digits_spec]
    simp [hl]
  | some fs =>
    simp only
    rw [splitAt1_some hnd (by rfl)]
    simp only
    rw [digits_spec, digits_spec]
    simp [hl]

theorem pyFloat_decimal {ds : List (Fin 10)} (hds : ds ≠ []) (frac : Option (List (Fin 10))) :
    pyFloat (decimalText ds frac) = some (.fin (decimalValue ds frac)) := by
  obtain ⟨d, ds', rfl⟩ := List.exists_cons_of_ne_nil hds
  have hws : ∀ c ∈ decimalText (d :: ds') frac, c.isWhitespace = false := by
    intro c hc
    rcases decimal_mem hc with rfl | ⟨d, rfl⟩
    · rfl
    · exact isWS_digit d
  have he : ∀ c ∈ decimalText (d :: ds') frac, (c == 'e' || c == 'E') = false := by
    intro c hc
    rcases decimal_mem hc with rfl | ⟨d, rfl⟩
    · rfl
    · exact (digit_facts d).2.2.2.1
  obtain ⟨r, hr⟩ : ∃ r, decimalText (d :: ds') frac = digitChar d :: r := ⟨_, rfl⟩
  obtain ⟨-, -, -, -, -, f1, f2, f3, f4⟩ := digit_facts d
  have hs : signed (decimalText (d :: ds') frac) = (false, decimalText (d :: ds') frac) := by
    rw [hr]
    unfold signed
    split
    · rename_i h; exact absurd (List.cons.inj h).1 f1
    · rename_i h; exact absurd (List.cons.inj h).1 f2
    · rfl
  have hu : unsigned (decimalText (d :: ds') frac) = some (.fin (decimalValue (d :: ds') frac)) := by
    unfold unsigned
    simp only
    rw [if_neg, if_neg, splitAt1_none he]
    · simp only
      rw [mantissa_decimal (by simp)]
      rfl
    · rw [hr, List.map_cons]
      rintro (h | h)
      · exact f4 (List.cons.inj h).1
      · exact f4 (List.cons.inj h).1
    · rw [hr, List.map_cons]
      intro h
      exact f3 (List.cons.inj h).1
  unfold pyFloat
  rw [strip_id hws, hs]
  simp only
  rw [hu]
  rfl

/-- **C38** Plain decimal coordinates mean what they say: digits, with or without a decimal fraction, followed by
a letter, with Python's `float`. -/
theorem C38_decimal {ds : List (Fin 10)} (hds : ds ≠ []) (frac : Option (List (Fin 10))) :
    (decimalValue ds frac ≤ 90 →
      parseLatitude pyFloat (decimalText ds frac ++ ['N']) = .ok (.fin (decimalValue ds frac)) ∧
      parseLatitude pyFloat (decimalText ds frac ++ ['S']) = .ok (.fin (-decimalValue ds frac))) ∧
    (decimalValue ds frac < 180 →
      parseLongitude pyFloat (decimalText ds frac ++ ['E']) = .ok (.fin (decimalValue ds frac))) ∧
    (decimalValue ds frac ≤ 180 →
      parseLongitude pyFloat (decimalText ds frac ++ ['W']) = .ok (.fin (-decimalValue ds frac))) := by
  have h0 : 0 ≤ decimalValue ds frac := by
    unfold decimalValue
    cases frac with
    | none => simp
    | some fs => positivity
  have hf := pyFloat_decimal hds frac
  refine ⟨fun h => ⟨?_, ?_⟩, fun h => ?_, fun h => ?_⟩
  · exact (C38_latitude _ _ _).2 ⟨_, 'N', _, rfl, hf, .inl ⟨.inl rfl, rfl⟩, _, rfl, by linarith, h⟩
  · exact (C38_latitude _ _ _).2 ⟨_, 'S', _, rfl, hf, .inr ⟨.inl rfl, rfl⟩, _, rfl, by linarith, by linarith⟩
  · exact (C38_longitude _ _ _).2 ⟨_, 'E', _, rfl, hf, .inl ⟨.inl rfl, rfl⟩, _, rfl, by linarith, h⟩
  · exact (C38_longitude _ _ _).2 ⟨_, 'W', _, rfl, hf, .inr ⟨.inl rfl, rfl⟩, _, rfl, by linarith, by linarith⟩

/-- the default arguments of the command: 36.949N and 3.822W -/
example : parseLatitude pyFloat "36.949N".toList = .ok (.fin 36.949) ∧
    parseLongitude pyFloat "3.822W".toList = .ok (.fin (-3.822)) := by
  have h1 := (C38_decimal (ds := [3, 6]) (by simp) (some [9, 4, 9])).1
  have h2 := (C38_decimal (ds := [3]) (by simp) (some [8, 2, 2])).2.2
  have e1 : decimalValue [3, 6] (some [9, 4, 9]) = 36.949 := by
    simp [decimalValue, ofDigits]; norm_num
  have e2 : decimalValue [3] (some [8, 2, 2]) = 3.822 := by
    simp [decimalValue, ofDigits]; norm_num
  have t1 : decimalText [3, 6] (some [9, 4, 9]) ++ ['N'] = "36.949N".toList := by decide
  have t2 : decimalText [3] (some [8, 2, 2]) ++ ['W'] = "3.822W".toList := by decide
  rw [e1, t1] at h1
  rw [e2, t2] at h2
  exact ⟨(h1 (by norm_num)).1, h2 (by norm_num)⟩

/-- an optional sign -/
inductive Sign where
  | none | plus | minus
/-- how it is written -/
def Sign.text : Sign → List Char
  | .none => [] | .plus => ['+'] | .minus => ['-']
/-- the factor it stands for -/
def Sign.factor : Sign → Int
  | .none => 1 | .plus => 1 | .minus => -1

/-- an optional exponent: whether its `E` is a capital one, its sign, and its digits -/
def expText : Option (Bool × Sign × List (Fin 10)) → List Char
  | none => []
  | some (cap, σ, ds) => (if cap then 'E' else 'e') :: (σ.text ++ ds.map digitChar)
/-- the power of ten it stands for -/
def expValue : Option (Bool × Sign × List (Fin 10)) → Int
  | none => 0
  | some (_, σ, ds) => σ.factor * (ofDigits (ds.map Fin.val) : Int)

theorem signed_digits (σ : Sign) (d : Fin 10) (r : List Char) :
    signed (σ.text ++ digitChar d :: r) = ((match σ with | .minus => true | _ => false), digitChar d :: r) := by
  obtain ⟨-, -, -, -, -, f1, f2, -⟩ := digit_facts d
  cases σ with
  | none =>
    show signed (digitChar d :: r) = _
    unfold signed
    split
    · rename_i h; exact absurd (List.cons.inj h).1 f1
    · rename_i h; exact absurd (List.cons.inj h).1 f2
    · rfl
  | plus => rfl
  | minus => rfl

theorem exponent_spec (σ : Sign) {ds : List (Fin 10)} (hds : ds ≠ []) :
    exponent (σ.text ++ ds.map digitChar) = some (σ.factor * (ofDigits (ds.map Fin.val) : Int)) := by
  obtain ⟨d, ds', rfl⟩ := List.exists_cons_of_ne_nil hds
  unfold exponent
  rw [List.map_cons, signed_digits]
  simp only
  rw [← List.map_cons, digits_spec]
  cases σ <;> simp [Sign.factor]

theorem unsigned_literal {ds : List (Fin 10)} (hds : ds ≠ []) (frac : Option (List (Fin 10))) {ex : Option (Bool × Sign × List (Fin 10))}
    (hex : ∀ x ∈ ex, x.2.2 ≠ []) :
    unsigned (decimalText ds frac ++ expText ex) = some (.fin (decimalValue ds frac * (10 : ℝ) ^ expValue ex)) := by
  obtain ⟨d, ds', rfl⟩ := List.exists_cons_of_ne_nil hds
  have he : ∀ c ∈ decimalText (d :: ds') frac, (c == 'e' || c == 'E') = false := by
    intro c hc
    rcases decimal_mem hc with rfl | ⟨d, rfl⟩
    · rfl
    · exact (digit_facts d).2.2.2.1
  obtain ⟨r, hr⟩ : ∃ r, decimalText (d :: ds') frac ++ expText ex = digitChar d :: r := ⟨_, rfl⟩
  obtain ⟨-, -, -, -, -, f1, f2, f3, f4⟩ := digit_facts d
  unfold unsigned
  simp only
  rw [if_neg, if_neg]
  · cases ex with
    | none =>
      simp only [expText, expValue, List.append_nil]
      rw [splitAt1_none he]
      simp only
      rw [mantissa_decimal (by simp)]
      simp
    | some x =>
      obtain ⟨cap, σ, es⟩ := x
      have hes : es ≠ [] := hex _ rfl
      simp only [expText, expValue]
      rw [splitAt1_some he (by cases cap <;> rfl)]
      simp only
      rw [mantissa_decimal (by simp), exponent_spec σ hes]
  · rw [hr, List.map_cons]
    rintro (h | h)
    · exact f4 (List.cons.inj h).1
    · exact f4 (List.cons.inj h).1
  · rw [hr, List.map_cons]
    intro h
    exact f3 (List.cons.inj h).1

theorem strip_blanks {a l b : List Char} (ha : ∀ c ∈ a, c.isWhitespace = true) (hb : ∀ c ∈ b, c.isWhitespace = true)
    (hl : ∀ c ∈ l, c.isWhitespace = false) (hne : l ≠ []) : strip (a ++ l ++ b) = l := by
  have drop : ∀ a r : List Char, (∀ c ∈ a, c.isWhitespace = true) → (∀ c ∈ r.head?, c.isWhitespace = false) →
      (a ++ r).dropWhile Char.isWhitespace = r := by
    intro a r h1 h2
    induction a with
    | nil => exact dropWhile_id h2
    | cons x a ih =>
      rw [List.cons_append, List.dropWhile_cons, h1 x (by simp)]
      exact ih fun c hc => h1 c (by simp [hc])
  unfold strip
  rw [List.append_assoc, drop a (l ++ b) ha, List.reverse_append, drop, List.reverse_reverse]
  · intro c hc; exact hb c (by simpa using hc)
  · intro c hc
    have := List.mem_of_mem_head? hc
    exact hl c (by simpa using this)
  · intro c hc
    obtain ⟨x, l', rfl⟩ := List.exists_cons_of_ne_nil hne
    simp at hc; subst hc
    exact hl x (by simp)

theorem pyFloat_literal {a b : List Char} (ha : ∀ c ∈ a, c.isWhitespace = true) (hb : ∀ c ∈ b, c.isWhitespace = true) (σ : Sign)
    {ds : List (Fin 10)} (hds : ds ≠ []) (frac : Option (List (Fin 10))) {ex : Option (Bool × Sign × List (Fin 10))} (hex : ∀ x ∈ ex, x.2.2 ≠ []) :
    pyFloat (a ++ (σ.text ++ (decimalText ds frac ++ expText ex)) ++ b) = some (.fin (σ.factor * (decimalValue ds frac * (10 : ℝ) ^ expValue ex))) := by
  have hu := unsigned_literal hds frac hex
  obtain ⟨d, ds', rfl⟩ := List.exists_cons_of_ne_nil hds
  obtain ⟨r, hr⟩ : ∃ r, decimalText (d :: ds') frac ++ expText ex = digitChar d :: r := ⟨_, rfl⟩
  have sg : ∀ σ : Sign, ∀ c ∈ σ.text, c.isWhitespace = false := by
    intro σ c hc
    cases σ
    · cases hc
    · obtain rfl := List.mem_singleton.1 hc; rfl
    · obtain rfl := List.mem_singleton.1 hc; rfl
  have hws : ∀ c ∈ σ.text ++ (decimalText (d :: ds') frac ++ expText ex), c.isWhitespace = false := by
    intro c hc
    rcases List.mem_append.1 hc with hc | hc
    · exact sg σ c hc
    rcases List.mem_append.1 hc with hc | hc
    · rcases decimal_mem hc with rfl | ⟨d, rfl⟩
      · rfl
      · exact isWS_digit d
    cases ex with
    | none => cases hc
    | some x =>
      obtain ⟨cap, τ, es⟩ := x
      rcases List.mem_cons.1 hc with rfl | hc
      · cases cap <;> rfl
      · rcases List.mem_append.1 hc with hc | hc
        · exact sg τ c hc
        · obtain ⟨d, -, rfl⟩ := List.mem_map.1 hc; exact isWS_digit d
  unfold pyFloat
  rw [strip_blanks ha hb hws (by rw [hr]; simp), hr, signed_digits, ← hr]
  simp only
  rw [hu]
  cases σ <;> simp [Sign.factor, PyFloat.neg]

/-- **C38** Coordinates in scientific notation, with sign and blanks: the value of the digits, times the power of ten, times the sign,
times -1 for south and west. So `-36.9S` is north. -/
theorem C38_literal {a b : List Char} (ha : ∀ c ∈ a, c.isWhitespace = true) (hb : ∀ c ∈ b, c.isWhitespace = true) (σ : Sign)
    {ds : List (Fin 10)} (hds : ds ≠ []) (frac : Option (List (Fin 10))) {ex : Option (Bool × Sign × List (Fin 10))} (hex : ∀ x ∈ ex, x.2.2 ≠ [])
    {x : ℝ} (hx : x = σ.factor * (decimalValue ds frac * (10 : ℝ) ^ expValue ex)) {t : List Char}
    (ht : t = a ++ (σ.text ++ (decimalText ds frac ++ expText ex)) ++ b) :
    (-90 ≤ x ∧ x ≤ 90 → parseLatitude pyFloat (t ++ ['N']) = .ok (.fin x) ∧ parseLatitude pyFloat (t ++ ['S']) = .ok (.fin (-x))) ∧
    (-180 ≤ x ∧ x < 180 → parseLongitude pyFloat (t ++ ['E']) = .ok (.fin x)) ∧
    (-180 < x ∧ x ≤ 180 → parseLongitude pyFloat (t ++ ['W']) = .ok (.fin (-x))) := by
  have hf := pyFloat_literal ha hb σ hds frac hex
  rw [← hx, ← ht] at hf
  refine ⟨fun h => ⟨?_, ?_⟩, fun h => ?_, fun h => ?_⟩
  · exact (C38_latitude _ _ _).2 ⟨_, 'N', _, rfl, hf, .inl ⟨.inl rfl, rfl⟩, _, rfl, by linarith, h.2⟩
  · exact (C38_latitude _ _ _).2 ⟨_, 'S', _, rfl, hf, .inr ⟨.inl rfl, rfl⟩, _, rfl, by linarith, by linarith⟩
  · exact (C38_longitude _ _ _).2 ⟨_, 'E', _, rfl, hf, .inl ⟨.inl rfl, rfl⟩, _, rfl, by linarith, h.2⟩
  · exact (C38_longitude _ _ _).2 ⟨_, 'W', _, rfl, hf, .inr ⟨.inl rfl, rfl⟩, _, rfl, by linarith, by linarith⟩

/-- minus 369e-1 with a blank, south: 36.9 degrees north -/
example : parseLatitude pyFloat " -369e-1S".toList = .ok (.fin 36.9) := by
  have h := (C38_literal (a := [' ']) (b := []) (by decide) (by simp) .minus (ds := [3, 6, 9]) (by simp) none (ex := some (false, .minus, [1]))
    (by simp) rfl rfl).1
  have e1 : ((Sign.minus.factor : Int) : ℝ) * (decimalValue [3, 6, 9] none * (10 : ℝ) ^ expValue (some (false, .minus, [1]))) = -36.9 := by
    simp [decimalValue, ofDigits, expValue, Sign.factor]; norm_num
  have t1 : [' '] ++ (Sign.minus.text ++ (decimalText [3, 6, 9] none ++ expText (some (false, .minus, [1])))) ++ [] ++ ['S'] = " -369e-1S".toList := by
    decide
  rw [e1, t1] at h
  have := (h (by norm_num)).2
  rwa [neg_neg] at this

/-! ### C39 -/

/-- tenths of a second of `|x|` minutes beyond the whole minutes, rounded: the nearest -/
theorem rint_near (x : ℝ) : |(rint x : ℝ) - x| ≤ 1 / 2 := by
  have h1 := Int.floor_le x
  have h2 := Int.lt_floor_add_one x
  unfold rint
  split_ifs <;> push_cast <;> rw [abs_le] <;> constructor <;> linarith

/-- **C39** For an equation of time that is not in (-1, 0) minutes, the displayed pair determines it up to
half a unit of the last displayed place (0.05 s): its magnitude is the minutes (without their sign) plus the
seconds, and its sign is the sign of the minutes. -/
theorem C39_display (x : ℝ) (h : 0 ≤ x ∨ x ≤ -1) :
    ∃ m k : Int, eotDisplay (.fin x) = .ok (m, k) ∧ 0 ≤ k ∧ k ≤ 600 ∧ (0 ≤ x ↔ 0 ≤ m) ∧
      |x - (if 0 ≤ m then 1 else -1) * (|(m : ℝ)| + (k : ℝ) / 600)| ≤ 1 / 1200 := by
  refine ⟨_, _, rfl, ?_⟩
  have hfr : rpmod |x| 1 = |x| - ⌊|x|⌋ := by unfold rpmod; simp
  have hn := rint_near (10 * (60 * rpmod |x| 1))
  rw [hfr] at hn ⊢
  have h1 := Int.floor_le |x|
  have h2 := Int.lt_floor_add_one |x|
  obtain ⟨k, hk⟩ : ∃ k, k = rint (10 * (60 * (|x| - (⌊|x|⌋ : ℝ)))) := ⟨_, rfl⟩
  rw [← hk] at hn ⊢
  have hm : (0 ≤ x ↔ 0 ≤ rtrunc x) ∧ |(rtrunc x : ℝ)| = (⌊|x|⌋ : ℝ) := by
    unfold rtrunc
    rcases h with h | h
    · rw [if_pos h, abs_of_nonneg h]
      have : 0 ≤ ⌊x⌋ := Int.floor_nonneg.2 h
      exact ⟨⟨fun _ => this, fun _ => h⟩, abs_of_nonneg (by exact_mod_cast this)⟩
    · have hx : ¬ 0 ≤ x := by linarith
      rw [if_neg hx, abs_of_neg (not_le.1 hx), Int.floor_neg]
      have : ⌈x⌉ ≤ -1 := Int.ceil_le.2 (by push_cast; exact h)
      refine ⟨⟨fun h => absurd h hx, fun h => by omega⟩, ?_⟩
      rw [abs_of_nonpos (by exact_mod_cast (by omega : ⌈x⌉ ≤ 0))]; push_cast; ring
  have hab := abs_le.1 hn
  refine ⟨?_, ?_, hm.1, ?_⟩
  · have : (-1 : ℝ) < k := by linarith [hab.1]
    have : -1 < k := by exact_mod_cast this
    omega
  · have : (k : ℝ) < 601 := by linarith [hab.2]
    have : k < 601 := by exact_mod_cast this
    omega
  · rw [hm.2]
    by_cases hx : 0 ≤ x
    · rw [if_pos (hm.1.1 hx), abs_of_nonneg hx] at *
      rw [abs_le]; constructor <;> linarith [hab.1, hab.2]
    · have hx' : ¬ 0 ≤ rtrunc x := fun hc => hx (hm.1.2 hc)
      rw [if_neg hx']
      rw [abs_of_neg (not_le.1 hx)] at *
      rw [abs_le]; constructor <;> linarith [hab.1, hab.2]

/-- **C39** An equation of time between -1 and 0 minutes is displayed as its opposite. -/
theorem C39_sign_lost (x : ℝ) (h1 : -1 < x) (h2 : x < 0) :
    eotDisplay (.fin x) = eotDisplay (.fin (-x)) ∧
      ∃ k, eotDisplay (.fin x) = .ok (0, k) := by
  have e1 : rtrunc x = 0 := by
    unfold rtrunc; rw [if_neg (by linarith), Int.ceil_eq_zero_iff]; exact ⟨h1, h2.le⟩
  have e2 : rtrunc (-x) = 0 := by
    unfold rtrunc; rw [if_pos (by linarith), Int.floor_eq_zero_iff]; exact ⟨by linarith, by linarith⟩
  have d : ∀ y : ℝ, eotDisplay (.fin y) = .ok (rtrunc y, rint (10 * (60 * rpmod |y| 1))) := fun _ => rfl
  rw [d, d, e1, e2, abs_neg]
  exact ⟨rfl, _, rfl⟩

/-- **C39** The seconds can be displayed as 60.0. -/
theorem C39_sixty : eotDisplay (.fin 3.9995) = .ok (3, 600) := by
  have hx : |(3.9995 : ℝ)| = 3.9995 := abs_of_pos (by norm_num)
  have hf : ⌊(3.9995 : ℝ)⌋ = 3 := by rw [Int.floor_eq_iff]; norm_num
  have e2 : rpmod (3.9995 : ℝ) 1 = 0.9995 := by
    unfold rpmod; rw [div_one, hf]; norm_num
  have e1 : rtrunc (3.9995 : ℝ) = 3 := by unfold rtrunc; rw [if_pos (by norm_num), hf]
  have d : ∀ y : ℝ, eotDisplay (.fin y) = .ok (rtrunc y, rint (10 * (60 * rpmod |y| 1))) := fun _ => rfl
  rw [d, hx, e1, e2]
  have hg : ⌊(10 * (60 * (0.9995 : ℝ)))⌋ = 599 := by rw [Int.floor_eq_iff]; norm_num
  have : rint (10 * (60 * 0.9995)) = 600 := by
    unfold rint
    rw [hg, if_neg (by norm_num), if_pos (by norm_num)]; rfl
  rw [this]

/-- both signs occur: 16.5 minutes, and 0.5 minutes before and after -/
example : (∃ k, eotDisplay (.fin (-0.5)) = .ok (0, k)) ∧ eotDisplay (.fin (-0.5)) = eotDisplay (.fin 0.5) := by
  have h := C39_sign_lost (-0.5) (by norm_num) (by norm_num)
  rw [neg_neg] at h
  exact ⟨h.2, h.1⟩

/-! ### C49, C50, C51: the command `at` -/

theorem bind_ok {ε α β : Type} {x : Except ε α} {f : α → Except ε β} {b : β} (h : x >>= f = .ok b) :
    ∃ a, x = .ok a ∧ f a = .ok b := by
  cases x with
  | error e => cases h
  | ok a => exact ⟨a, rfl, h⟩

theorem printed_ok {F : Type} {env : Env F} {z : Option String} {x : Option Int} {n : Int}
    (h : printed env z x = .ok n) : x = some n := by
  cases x with
  | none => cases h
  | some m =>
    unfold printed at h
    simp only at h
    cases z with
    | none => cases h; rfl
    | some z =>
      simp only at h
      cases hl : env.tzLocalize z (some m) with
      | error e => rw [hl] at h; cases h
      | ok _ => rw [hl] at h; cases h; rfl

/-- what a successful run of `calculate_position` has gone through -/
theorem calculate_ok {F : Type} [Scalar F] {env : Env F} {time : String} {lat lon : F} {alg : String}
    {refr : PyVal} {timezone : String} {r : Report F}
    (h : calculatePosition env time lat lon alg refr timezone = .ok r) :
    ∃ st tz utc s, env.stamp time = .ok st ∧ st.aware = false ∧
      env.tzLocalize timezone st.wall = .ok (tz, utc) ∧
      sites env.toWorld ⟨false, some tz, [utc]⟩ (.scalar lat) (.scalar lon) alg refr "numexpr" = .ok s ∧
      (s.sunriseUtc env.toWorld).get origin = some r.sunriseUtc ∧
      (s.sunriseLocal env.toWorld).get origin = some r.sunriseLocal ∧
      firstEvent (s.sunset env.toWorld "utc") = .ok (some r.sunsetUtc) ∧
      firstEvent (s.sunset env.toWorld "local") = .ok (some r.sunsetLocal) ∧
      r.declination = s.decDeg.get origin ∧ r.distance = 1 / Num.rpow (s.ecf.get origin) 0.5 ∧
      r.zenith = s.zenithDeg.get origin ∧ r.elevation = s.elevation.get origin ∧
      r.azimuth = s.azimuthDeg.get origin ∧ r.eot = s.eot.get origin ∧
      Scalar.isNan (s.eot.get origin) = false := by
  unfold calculatePosition at h
  obtain ⟨st, h1, h⟩ := bind_ok h
  obtain ⟨⟨tz, utc⟩, h2, h⟩ := bind_ok h
  obtain ⟨s, h3, h⟩ := bind_ok h
  obtain ⟨a, ha, h⟩ := bind_ok h
  obtain ⟨b, hb, h⟩ := bind_ok h
  obtain ⟨c, hc, h⟩ := bind_ok h
  obtain ⟨d, hd, h⟩ := bind_ok h
  simp only at h
  cases hn : Scalar.isNan (s.eot.get origin) with
  | true => rw [hn] at h; cases h
  | false =>
    rw [hn] at h
    cases hw : st.aware with
    | true => rw [hw] at h; cases h
    | false =>
      rw [hw] at h
      obtain ⟨_, _, h⟩ := bind_ok h
      obtain ⟨a', ha', h⟩ := bind_ok h
      obtain ⟨b', hb', h⟩ := bind_ok h
      obtain ⟨c', hc', h⟩ := bind_ok h
      obtain ⟨d', hd', hfin⟩ := bind_ok h
      have ha' := printed_ok ha'
      have hb' := printed_ok hb'
      have hc' := printed_ok hc'
      have hd' := printed_ok hd'
      cases hfin
      rw [ha'] at ha
      rw [hb'] at hb
      rw [hc'] at hc
      rw [hd'] at hd
      refine ⟨st, tz, utc, s, h1, hw, h2, h3, ?_, ?_, hb, hd, rfl, rfl, rfl, rfl, rfl, rfl, hn⟩
      · exact Except.ok.inj ha
      · exact Except.ok.inj hc

theorem at_ok {F : Type} [Scalar F] {env : Env F} {time : String} {lat lon : F} {alg : String}
    {refr : Bool} {timezone : String} {r : Report F}
    (h : at' env time lat lon alg refr timezone = .ok r) :
    calculatePosition env time lat lon alg (if refr then .pyTrue else .pyFalse) timezone = .ok r := by
  unfold at' at h
  cases hc : calculatePosition env time lat lon alg (if refr then .pyTrue else .pyFalse) timezone with
  | ok r' => rw [hc] at h; cases h; rfl
  | error e => rw [hc] at h; cases h

theorem at_error {F : Type} [Scalar F] {env : Env F} {time : String} {lat lon : F} {alg : String}
    {refr : Bool} {timezone : String}
    (h : ∀ r, at' env time lat lon alg refr timezone ≠ .ok r) :
    at' env time lat lon alg refr timezone = .error 1 := by
  unfold at' at h ⊢
  cases hc : calculatePosition env time lat lon alg (if refr then .pyTrue else .pyFalse) timezone with
  | ok r' => rw [hc] at h; exact absurd rfl (h r')
  | error e => rfl

/-- **C49** A time argument that carries a time zone ends the command with exit code 1, whatever the
other arguments and the environment. -/
theorem C49_aware {F : Type} [Scalar F] (env : Env F) {time : String} (ht : time ≠ "now") {st : CliStamp}
    (hst : env.toDatetime time = .ok st) (haw : st.aware = true) (lat lon : F) (alg : String) (refr : Bool)
    (timezone : String) : at' env time lat lon alg refr timezone = .error 1 := by
  refine at_error fun r h => ?_
  obtain ⟨st', -, -, -, h1, h2, -⟩ := calculate_ok (at_ok h)
  unfold Env.stamp at h1
  rw [if_neg ht, hst] at h1
  cases h1
  rw [haw] at h2; cases h2

/-- **C50** Where the sun does not rise or set that day (the sunrise angle is NaN: polar day or
night), the command ends with exit code 1, although the solar position exists. -/
theorem C50_polar (env : Env XR) {time : String} {st : CliStamp} {tz : Tz} {utc : Option Int} {s : Sunpos XR}
    {φ l : ℝ} {alg : String} {refr : Bool} {timezone : String} {A : DA XR}
    (hst : env.stamp time = .ok st) (hloc : env.tzLocalize timezone st.wall = .ok (tz, utc))
    (hs : sites env.toWorld ⟨false, some tz, [utc]⟩ (.scalar (.fin φ)) (.scalar (.fin l)) alg
      (if refr then .pyTrue else .pyFalse) "numexpr" = .ok s)
    (hA : s.sunrise env.toWorld "deg" = .ok (.angle A)) (hnan : A.get origin = .nan) :
    at' env time (.fin φ) (.fin l) alg refr timezone = .error 1 := by
  refine at_error fun r h => ?_
  obtain ⟨st', tz', utc', s', h1, -, h3, h4, h5, -⟩ := calculate_ok (at_ok h)
  rw [hst] at h1; cases h1
  rw [hloc] at h3; cases h3
  rw [hs] at h4; cases h4
  have hw : s.wsr.get origin = .nan := by
    have h7 : A = degrees s.wsr := by
      have : s.sunrise env.toWorld "deg" = .ok (.angle (degrees s.wsr)) := rfl
      rw [this] at hA; cases hA; rfl
    rw [h7, degrees_get] at hnan
    cases hw : s.wsr.get origin with
    | nan => rfl
    | fin x =>
      rw [hw] at hnan
      have : degrees (XR.fin x) = .fin (x * (180 / π)) := by unfold degrees; xr
      rw [this] at hnan; cases hnan
  have h9 : (s.sunriseUtc env.toWorld).get origin = none := by
    have : (s.sunriseUtc env.toWorld).get origin = Sunpos.tsub (Sunpos.tadd
        (Scalar.toInt (Sunpos.hoursToNs (Sunpos.wsrHours (s.wsr.get origin))))
        (Sunpos.floorDay ((s.trueSolarTime env.toWorld).get origin)))
        (Scalar.toInt (Sunpos.minToNs (Sunpos.deltaMin (s.eot.get origin) (s.longitude.get origin)))) := rfl
    rw [this, hw]; rfl
  rw [h9] at h5; cases h5

/-- **C51** A successful command prints the position that `sites` computes at the instant whose
wall-clock reading in the requested zone is the one given: its elevation is the complement of its zenith, the printed sun-earth
distance is positive and makes the eccentricity correction factor `1/distance²`. -/
theorem C51_report {env : Env XR} {time : String} {φ l : ℝ} {alg : String} {refr : Bool}
    {timezone : String} {r : Report XR} (h : at' env time (.fin φ) (.fin l) alg refr timezone = .ok r)
    (hrange : ∀ w tz u, env.tzLocalize timezone w = .ok (tz, some u) → |u| < 2 ^ 63) :
    ∃ st tz u s, env.stamp time = .ok st ∧ env.tzLocalize timezone st.wall = .ok (tz, some u) ∧
      call .sites env.toWorld ⟨false, some tz, [some u]⟩ (.scalar (.fin φ)) (.scalar (.fin l)) alg
        (if refr then .pyTrue else .pyFalse) "numexpr" = .ok s ∧
      r.zenith = s.zenithDeg.get origin ∧ r.azimuth = s.azimuthDeg.get origin ∧
      r.declination = s.decDeg.get origin ∧ r.eot = s.eot.get origin ∧
      (∀ z, r.zenith = .fin z → r.elevation = .fin (90 - z)) ∧
      ∃ x d : ℝ, s.ecf.get origin = .fin x ∧ r.distance = .fin d ∧ 0 < d ∧ x = 1 / d ^ 2 ∧
        0.98 ≤ d ∧ d ≤ 1.021 := by
  obtain ⟨st, tz, utc, s, h1, -, h3, h4, -, -, -, -, k1, k2, k3, k4, k5, k6, k7⟩ := calculate_ok (at_ok h)
  cases utc with
  | none =>
    -- the equation of time of NaT is NaN, of which `int` is a ValueError
    have h4' : call .sites env.toWorld ⟨false, some tz, [none]⟩ (.scalar (.fin φ)) (.scalar (.fin l)) alg
        (if refr then .pyTrue else .pyFalse) "numexpr" = .ok s := h4
    have hd := (C05_shape h4' rfl rfl).2.2.1
    have hn := ((C06_nat_rows (e := origin) h4' rfl).1 (by
      intro p hp; rw [hd] at hp; simp at hp; subst hp; simp [origin])).2.1
    rw [hn] at k7; cases k7
  | some u =>
    have h4' : call .sites env.toWorld ⟨false, some tz, [some u]⟩ (.scalar (.fin φ)) (.scalar (.fin l)) alg
        (if refr then .pyTrue else .pyFalse) "numexpr" = .ok s := h4
    refine ⟨st, tz, u, s, h1, h3, h4', k3, k5, k1, k6, ?_, ?_⟩
    · intro z hz
      rw [k4]
      have : s.elevation.get origin = 90.0 - s.zenithDeg.get origin := rfl
      rw [this, ← k3, hz]
      show XR.fin (90.0 - z) = _
      norm_num
    · obtain ⟨x, hx, hx1, hx2⟩ := C18_ecf (e := origin) h4' (t := u) rfl (hrange _ _ _ h3)
      have hx0 : 0 < x := by norm_num at hx1; linarith
      refine ⟨x, 1 / x ^ (0.5 : ℝ), hx, ?_, by positivity, ?_, ?_, ?_⟩
      · rw [k2, hx]
        have e1 : Num.rpow (XR.fin x) (0.5 : XR) = .fin (x ^ (0.5 : ℝ)) := by
          show XR.m2p _ _ (XR.fin x) (XR.fin 0.5) = _
          exact if_pos (.inl hx0)
        rw [e1]
        show XR.m2p (fun _ b => b ≠ 0) (· / ·) (XR.fin 1) (XR.fin (x ^ (0.5 : ℝ))) = _
        exact if_pos (by positivity)
      · rw [div_pow, one_pow, ← rpow_natCast, ← rpow_mul hx0.le]
        norm_num
      · have hle : x ^ (0.5 : ℝ) ≤ 1.0202 := by
          rw [show (0.5 : ℝ) = 1 / 2 by norm_num, ← sqrt_eq_rpow]
          exact sqrt_le_iff.2 ⟨by norm_num, hx2.trans (by norm_num)⟩
        rw [le_div_iff₀ (by positivity)]
        norm_num at hle ⊢; linarith
      · have hge : 0.9797 ≤ x ^ (0.5 : ℝ) := by
          rw [show (0.5 : ℝ) = 1 / 2 by norm_num, ← sqrt_eq_rpow]
          exact le_sqrt_of_sq_le (le_trans (by norm_num) hx1)
        rw [div_le_iff₀ (by positivity)]
        norm_num at hge ⊢; linarith

/-- **C51** The argument `now` stands for the reading of the system clock taken in the requested zone (by default UTC):
if the system's own offset from UTC is `sysOff`, and localisation in UTC is the identity, the position printed is that of
an instant `sysOff` later than now. -/
theorem C51_now {env : Env XR} {φ l : ℝ} {alg : String} {refr : Bool} {r : Report XR} {now sysOff : Int}
    (hclock : env.now = now + sysOff)
    (hutc : ∀ w tz u, env.tzLocalize "UTC" (some w) = .ok (tz, u) → u = some w)
    (h : at' env "now" (.fin φ) (.fin l) alg refr "UTC" = .ok r) :
    ∃ tz s, call .sites env.toWorld ⟨false, some tz, [some (now + sysOff)]⟩ (.scalar (.fin φ)) (.scalar (.fin l))
        alg (if refr then .pyTrue else .pyFalse) "numexpr" = .ok s ∧
      r.zenith = s.zenithDeg.get origin ∧ r.azimuth = s.azimuthDeg.get origin := by
  obtain ⟨st, tz, utc, s, h1, -, h3, h4, -, -, -, -, k1, k2, k3, k4, k5, k6, -⟩ := calculate_ok (at_ok h)
  have : st = ⟨some env.now, false⟩ := by
    unfold Env.stamp at h1
    rw [if_pos rfl] at h1
    exact (Except.ok.inj h1).symm
  subst this
  have hu := hutc _ _ _ h3
  subst hu
  rw [hclock] at h4
  exact ⟨tz, s, h4, k3, k5⟩

/-! the command succeeds between the polar circles -/

theorem tan_le_of {a x : ℝ} (h : |x| ≤ a) (ha : a < 90) : |tan (rad x)| ≤ tan (rad a) := by
  have hp := pi_pos
  have h0 : 0 ≤ a := (abs_nonneg x).trans h
  have hx := abs_le.1 h
  have mono : ∀ u v : ℝ, -90 < u → u ≤ v → v < 90 → tan (rad u) ≤ tan (rad v) := by
    intro u v hu huv hv
    rcases huv.eq_or_lt with rfl | huv
    · exact le_rfl
    · exact (tan_lt_tan_of_lt_of_lt_pi_div_two (by unfold rad; nlinarith) (by unfold rad; nlinarith)
        (by unfold rad; nlinarith)).le
  rw [abs_le]
  have hneg : rad (-a) = -rad a := by unfold rad; ring
  constructor
  · rw [← tan_neg, ← hneg]; exact mono _ _ (by linarith) hx.1 (by linarith)
  · exact mono _ _ (by linarith) hx.2 ha

/-- latitudes up to 65 and declinations up to 24.5 degrees: the sun rises and sets -/
theorem rises {φ d : ℝ} (hφ : |φ| ≤ 65) (hd : |d| ≤ 24.5) : |tan (rad φ) * tan (rad d)| ≤ 1 := by
  have h1 := tan_le_of hφ (by norm_num)
  have h2 := tan_le_of (a := 25) (hd.trans (by norm_num)) (by norm_num)
  have e : tan (rad 25) = (tan (rad 65))⁻¹ := by
    rw [← tan_pi_div_two_sub]; congr 1; unfold rad; ring
  have hp := pi_pos
  have h65 : 0 < tan (rad 65) := tan_pos_of_pos_of_lt_pi_div_two (by unfold rad; positivity)
    (by unfold rad; nlinarith)
  rw [abs_mul]
  calc |tan (rad φ)| * |tan (rad d)| ≤ tan (rad 65) * tan (rad 25) := by gcongr
    _ = 1 := by rw [e, mul_inv_cancel₀ h65.ne']

/-- **C51** The command succeeds for every naive time in the range of `datetime64[ns]` at latitudes from -65 to
65 degrees, if the time zone object has no attribute `zone` (zoneinfo, dateutil) and pandas localises the time in the requested
zone. -/
theorem C51_returns {env : Env XR} {time : String} {st : CliStamp} {tz : Tz} {u : Int} {φ l : ℝ}
    {alg : String} (refr : Bool) {timezone : String}
    (hst : env.stamp time = .ok st) (hnaive : st.aware = false)
    (hloc : env.tzLocalize timezone st.wall = .ok (tz, some u)) (hrange : |u| < 2 ^ 63)
    (hz : tz.zone = .absent)
    (hutc : ∀ w, ∃ r, env.tzLocalize "UTC" (some w) = .ok r)
    (hφ : |φ| ≤ 65) (hl : -180 ≤ l ∧ l < 180)
    (halg : alg ∈ ["psa", "soltrack", "iqbal", "nrel"]) :
    ∃ r, at' env time (.fin φ) (.fin l) alg refr timezone = .ok r := by
  have hk : KnownPair alg "numexpr" := by
    simp only [List.mem_cons, List.not_mem_nil, or_false] at halg
    rcases halg with rfl | rfl | rfl | rfl <;> simp [KnownPair]
  obtain ⟨b, hb⟩ := known_iff.1 hk
  obtain ⟨R, hR⟩ : ∃ R, R = (if refr then PyVal.pyTrue else PyVal.pyFalse) := ⟨_, rfl⟩
  obtain ⟨T, hT⟩ : ∃ T : Times, T = ⟨false, some tz, [some u]⟩ := ⟨_, rfl⟩
  have hφ' := abs_le.1 hφ
  have hlocalize : localizeTimes env.toWorld T = .ok T.wall := by
    rw [hT]; simp [localizeTimes, timezoneOf, hz]
  obtain ⟨s, hs, hres⟩ := call_ok (uc := .sites) (w := env.toWorld) R
    (⟨by rw [hT], rfl, rfl, lengths_iff.1 (by simp [Lengths]), hb,
      lonOk_XR.2 (by simp [LonAdm, hl]), latOk_XR.2 (by
        simp only [List.mem_singleton, forall_eq, LatAdm]
        exact ⟨by linarith [hφ'.1], by linarith [hφ'.2]⟩)⟩ :
      Accepted .sites T (.scalar (XR.fin φ)) (.scalar (XR.fin l)) alg "numexpr" [.fin φ] [.fin l] b) hlocalize
  have htime : stampAt T.stamps (origin .time) = some u := by rw [hT]; rfl
  obtain ⟨d, hd, hd', -⟩ := C17_declination (e := origin) hs htime hrange
  obtain ⟨x, hx, -⟩ := C19_eot (e := origin) hs htime hrange
  have hlat : s.latitude.get origin = .fin φ := by rw [hres.latitude]; rfl
  have hlon : s.longitude.get origin = .fin l := by rw [hres.longitude]; rfl
  obtain ⟨hu, htzn⟩ := C12_no_zone_attribute hs (by rw [hT]) hz
  have hus : stampAt s.timesUtc (origin .time) = some (u + tz.off u) := by rw [hu, hT]; rfl
  have hts : stampAt s.times (origin .time) = some (u + tz.off u) := by rw [hres.times_eq, hT]; rfl
  obtain ⟨τ, hτ, -⟩ := C30_tst env.toWorld s hus hx hlon
  have hw := (wsr_fin hlat hd (by linarith [hφ]) (by norm_num at hd' ⊢; linarith)).1 (rises hφ hd')
  have hsr : ∃ n, (s.sunriseUtc env.toWorld).get origin = some n := by
    have : (s.sunriseUtc env.toWorld).get origin = Sunpos.tsub (Sunpos.tadd
        (Scalar.toInt (Sunpos.hoursToNs (Sunpos.wsrHours (s.wsr.get origin))))
        (Sunpos.floorDay ((s.trueSolarTime env.toWorld).get origin)))
        (Scalar.toInt (Sunpos.minToNs (Sunpos.deltaMin (s.eot.get origin) (s.longitude.get origin)))) := rfl
    rw [this, hw, hτ, hx, hlon, wsrHours_fin, deltaMin_fin, minToNs_fin]
    exact ⟨_, rfl⟩
  obtain ⟨n, hn⟩ := hsr
  obtain ⟨m, hm⟩ : ∃ m, (s.sunriseLocal env.toWorld).get origin = some m := by
    have : (s.sunriseLocal env.toWorld).get origin = Sunpos.tadd ((s.sunriseUtc env.toWorld).get origin)
      (Sunpos.tsub (stampAt s.times (origin .time)) (stampAt s.timesUtc (origin .time))) := rfl
    rw [this, hn, hts, hus]; exact ⟨_, rfl⟩
  obtain ⟨D, hD, hDg⟩ := daylight_get env.toWorld s
  have hDo := (hDg origin).1 _ hw
  obtain ⟨R1, S1, D1, hR1, hS1, hD1, hg1⟩ := sunset_time env.toWorld s (u := "utc") (by decide)
  obtain ⟨R2, S2, D2, hR2, hS2, hD2, hg2⟩ := sunset_time env.toWorld s (u := "local") (by decide)
  rw [hD] at hD1 hD2; cases hD1; cases hD2
  obtain rfl : s.sunriseUtc env.toWorld = R1 := by
    have : s.sunrise env.toWorld "utc" = .ok (.time (s.sunriseUtc env.toWorld)) := rfl
    rw [this] at hR1; cases hR1; rfl
  obtain rfl : s.sunriseLocal env.toWorld = R2 := by
    have : s.sunrise env.toWorld "local" = .ok (.time (s.sunriseLocal env.toWorld)) := rfl
    rw [this] at hR2; cases hR2; rfl
  obtain ⟨n', hn'⟩ : ∃ n', S1.get origin = some n' := by
    rw [hg1, hn, hDo, hoursToNs_fin]; exact ⟨_, rfl⟩
  obtain ⟨m', hm'⟩ : ∃ m', S2.get origin = some m' := by
    rw [hg2, hm, hDo, hoursToNs_fin]; exact ⟨_, rfl⟩
  have hp : ∀ k, printed env s.timezone (some k) = .ok k := by
    intro k
    obtain ⟨r, hr⟩ := hutc k
    rw [htzn]; unfold printed; simp only [hr]
  have hcalc : ∃ r, calculatePosition env time (.fin φ) (.fin l) alg R timezone = .ok r := by
    have hs' : sites env.toWorld ⟨false, some tz, [some u]⟩ (.scalar (XR.fin φ)) (.scalar (XR.fin l)) alg R
        "numexpr" = .ok s := by rw [← hT]; exact hs
    have hb : ∀ {α β : Type} (a : α) (f : α → Except PyErr β), (Except.ok a >>= f) = f a := fun _ _ => rfl
    have hnn : Scalar.isNan (XR.fin x) = false := rfl
    unfold calculatePosition
    simp only [hst, hb, hloc, hs', hR1, hS1, hR2, hS2, firstEvent, hn, hn', hm, hm', hx, hnaive, hp, hnn,
      Bool.false_eq_true, if_false]
    exact ⟨_, rfl⟩
  obtain ⟨r, hr⟩ := hcalc
  refine ⟨r, ?_⟩
  unfold at'
  rw [← hR, hr]

/-- an environment: local clock at the epoch plus one hour, every string parses to noon of 21 June 2024, aware if it is
"Z"; zones of zero offset without attribute `zone` (there are no time stamps beyond 64 bits) -/
noncomputable def exEnv : Env XR :=
  { exWorld with
    now := 3600000000000
    toDatetime := fun s => .ok ⟨some 1718971200000000000, s == "Z"⟩
    tzLocalize := fun _ w => match w with
      | none => .ok (⟨.absent, fun _ => 0⟩, none)
      | some n => .ok (⟨.absent, fun _ => 0⟩, some (if |n| < 2 ^ 63 then n else 0)) }

/-- hypotheses of C51 are met, and its conclusions hold of the result -/
example : ∃ r, at' exEnv "now" (.fin 36.949) (.fin (-3.822)) "nrel" true "UTC" = .ok r ∧
    ∃ d : ℝ, r.distance = .fin d ∧ 0 < d := by
  obtain ⟨r, hr⟩ := C51_returns (env := exEnv) (time := "now") (st := ⟨some 3600000000000, false⟩)
    (tz := ⟨.absent, fun _ => 0⟩) (u := 3600000000000) (φ := 36.949) (l := -3.822) (alg := "nrel") true
    (timezone := "UTC") rfl rfl rfl (by norm_num) rfl (fun w => ⟨_, rfl⟩)
    (by rw [abs_of_pos (by norm_num)]; norm_num) (by norm_num) (by decide)
  obtain ⟨-, -, u, s, h1, h2, -, -, -, -, -, -, x, d, -, hd, h0, -⟩ := C51_report hr (by
    intro w tz u h
    cases w with
    | none => cases h
    | some n =>
      have : u = if |n| < 2 ^ 63 then n else 0 := by cases h; rfl
      rw [this]; split_ifs with h
      · exact h
      · norm_num)
  exact ⟨r, hr, d, hd, h0⟩

/-- hypotheses of C49 are met -/
example : at' exEnv "Z" (.fin 36.949) (.fin (-3.822)) "nrel" true "UTC" = .error 1 :=
  C49_aware exEnv (by decide) rfl rfl _ _ _ _ _

/-- hypotheses of C50 are met: the north pole at noon of 1 January 2000 -/
example : ∃ env : Env XR, at' env "2000-01-01 12:00" (.fin 90) (.fin 0) "psa" false "UTC" = .error 1 := by
  obtain ⟨env, henv⟩ : ∃ env : Env XR, env = { exEnv with
    toDatetime := fun _ => .ok ⟨some 946728000000000000, false⟩ } := ⟨_, rfl⟩
  refine ⟨env, ?_⟩
  have hst : env.stamp "2000-01-01 12:00" = .ok ⟨some 946728000000000000, false⟩ := by rw [henv]; rfl
  have hloc : env.tzLocalize "UTC" (some 946728000000000000) =
      .ok (⟨.absent, fun _ => 0⟩, some 946728000000000000) := by rw [henv]; rfl
  obtain ⟨T, hT⟩ : ∃ T : Times, T = ⟨false, some ⟨.absent, fun _ => 0⟩, [some 946728000000000000]⟩ := ⟨_, rfl⟩
  obtain ⟨b, hb⟩ := known_iff.1 (by simp [KnownPair] : KnownPair "psa" "numexpr")
  obtain ⟨s, hs, hres⟩ := call_ok (uc := .sites) (w := env.toWorld) (.pyFalse)
    (⟨by rw [hT], rfl, rfl, lengths_iff.1 (by simp [Lengths]), hb,
      lonOk_XR.2 (by simp [LonAdm]), latOk_XR.2 (by simp [LatAdm])⟩ :
      Accepted .sites T (.scalar (XR.fin 90)) (.scalar (XR.fin 0)) "psa" "numexpr" [.fin 90] [.fin 0] b)
    (utc := T.wall) (by rw [hT]; simp [localizeTimes, timezoneOf])
  have htime : stampAt T.stamps (origin .time) = some 946728000000000000 := by rw [hT]; rfl
  obtain ⟨ht, o, -, -, h3, hc⟩ := time_cases hs htime (by norm_num)
  obtain ⟨d, hd, hd', -, hcos⟩ := C17_declination hs htime (by norm_num)
  rcases hc with ⟨-, rfl⟩ | ⟨h, -⟩ | ⟨h, -⟩ | ⟨h, -⟩
  · have hdec : d = Psa.delta (Psa.ep (Psa.jde (946728000 : ℝ))) (Psa.eclon (Psa.jde 946728000)) * (180 / π) := by
      rw [decDeg_fin h3, XR.fin_inj] at hd
      rw [← hd]
      have : toSec 946728000000000000 = 946728000 := by decide
      rw [this]
      show Psa.delta (Psa.ep (Psa.jde ((946728000 : ℤ) : ℝ))) (Psa.eclon (Psa.jde ((946728000 : ℤ) : ℝ))) * _ = _
      norm_num
    have hj : Psa.jde (946728000 : ℝ) = 0 := by unfold Psa.jde; norm_num
    rw [hj] at hdec
    have he := Psa.ep_bound (j := 0) (by norm_num)
    have hl := abs_le.1 (Psa.eclon_near 0)
    have hL : Psa.L (0 : ℝ) = 4.895036035 := by unfold Psa.L; norm_num
    rw [hL] at hl
    obtain ⟨E, hE⟩ : ∃ E, E = Psa.ep (0 : ℝ) := ⟨_, rfl⟩
    obtain ⟨l, hl'⟩ : ∃ l, l = Psa.eclon (0 : ℝ) := ⟨_, rfl⟩
    rw [← hE] at he hdec
    rw [← hl'] at hl hdec
    have hp := pi_gt_d6
    have hp' := pi_lt_d6
    have h1 : sin l = -cos (l - 3 * (π / 2)) := by
      have : l = (l - 3 * (π / 2)) + π / 2 + π := by ring
      conv_lhs => rw [this, sin_add_pi, sin_add_pi_div_two]
    have h2 : 0.9 ≤ cos (l - 3 * (π / 2)) := by
      have := one_sub_sq_div_two_le_cos (x := l - 3 * (π / 2))
      norm_num at hl hp hp' ⊢
      nlinarith
    have h4 : 0.3 ≤ sin E := by
      have h0 : (0 : ℝ) < E := by norm_num at he; linarith
      have := sin_gt_sub_cube h0
      have hE2 : E ^ 3 ≤ 0.41 ^ 3 := by gcongr; exact he.2
      norm_num at he hE2 ⊢; linarith
    have h5 : |sin (rad d)| = |sin E * sin l| := by
      rw [hdec, rad_deg, Psa.delta_real, sin_arcsin] <;> nlinarith [abs_le.1 (abs_sin_le_one E),
        abs_le.1 (abs_sin_le_one l), sin_le_one E, sin_le_one l, neg_one_le_sin l, sin_sq_add_cos_sq l]
    have h6 : 0.27 ≤ |sin (rad d)| := by
      rw [h5, abs_mul, h1, abs_neg, abs_of_pos (by norm_num at h4; linarith), abs_of_pos (by norm_num at h2; linarith)]
      norm_num at h2 h4 ⊢; nlinarith
    have h7 : |sin (rad d)| ≤ |tan (rad d)| := by
      rw [tan_eq_sin_div_cos, abs_div, le_div_iff₀ (abs_pos.2 hcos.ne')]
      nlinarith [abs_cos_le_one (rad d), abs_nonneg (sin (rad d))]
    obtain ⟨R, D, hR, hD, hRn, hDn⟩ := C25_pole env.toWorld s (e := origin) (φ := 90) (d := d)
      (by rw [hres.latitude]; rfl) hd (.inl rfl) (lt_of_le_of_lt hd' (by norm_num))
      (le_trans (by norm_num) (h6.trans h7))
    refine C50_polar env hst hloc (s := s) (refr := false) ?_ hD hDn
    rw [hT] at hs; exact hs
  all_goals simp at h

end SW.Props
