/-
C75: day of the week, date and time in the output of `sunwhere at`, `_cli/position.py:38-43`.
-/
import Verif.CliHead
import Verif.Props.CliText
import Verif.Props.Chart

namespace SW.Props
open SW SW.Spec SW.Cli Real
open SW.Sunpos (dayNs)

/-! ### specification -/

/-- the days of the week -/
inductive Weekday where
  | monday | tuesday | wednesday | thursday | friday | saturday | sunday
  deriving DecidableEq

def Weekday.next : Weekday → Weekday
  | monday => tuesday | tuesday => wednesday | wednesday => thursday | thursday => friday
  | friday => saturday | saturday => sunday | sunday => monday

def Weekday.name : Weekday → String
  | monday => "Monday" | tuesday => "Tuesday" | wednesday => "Wednesday" | thursday => "Thursday"
  | friday => "Friday" | saturday => "Saturday" | sunday => "Sunday"

/-- The week: day 0 (1 January 1970) was a Thursday, and the days follow each other. -/
structure IsWeek (week : Int → Weekday) : Prop where
  epoch : week 0 = .thursday
  step : ∀ n, week (n + 1) = (week n).next

/-- the English name of a month -/
def monthName (m : Int) : String :=
  if m = 1 then "January" else if m = 2 then "February" else if m = 3 then "March" else if m = 4 then "April"
  else if m = 5 then "May" else if m = 6 then "June" else if m = 7 then "July" else if m = 8 then "August"
  else if m = 9 then "September" else if m = 10 then "October" else if m = 11 then "November" else "December"

/-- the text is the date: two digits of the day, the name of the month, and the year -/
def ReadsDate (text : List Char) (c : CivilDate) : Prop :=
  ∃ (a b : List Char) (d : Nat), text = a ++ ' ' :: ((monthName c.month).toList ++ ' ' :: b) ∧
    a.length = 2 ∧ digits a = some (d, 2) ∧ c.day = d ∧ pyFloat b = some (.fin c.year)

/-- the text begins with a clock time, `hh:mm:ss`; `s` is the number of seconds since midnight -/
def ReadsClock (text : List Char) (s : Nat) : Prop :=
  ∃ (a b c rest : List Char) (h m q : Nat), text = a ++ ':' :: (b ++ ':' :: (c ++ '(' :: rest)) ∧
    digits a = some (h, 2) ∧ digits b = some (m, 2) ∧ digits c = some (q, 2) ∧ h < 24 ∧ m < 60 ∧ q < 60 ∧ s = 3600 * h + 60 * m + q

/-! ### proof -/

theorem week_unique {f g : Int → Weekday} (hf : IsWeek f) (hg : IsWeek g) : f = g := by
  have inj : ∀ a b : Weekday, a.next = b.next → a = b := by intro a b; cases a <;> cases b <;> decide
  funext n
  induction n with
  | zero => rw [hf.epoch, hg.epoch]
  | succ n ih => rw [hf.step, hg.step, ih]
  | pred n ih =>
    apply inj
    rw [← hf.step, ← hg.step, show -(n : Int) - 1 + 1 = -n by ring, ih]

/-- the weekday as the code computes it -/
def codeWeek (n : Int) : Weekday :=
  match weekdayOf n with
  | 0 => .monday | 1 => .tuesday | 2 => .wednesday | 3 => .thursday | 4 => .friday | 5 => .saturday | _ => .sunday

theorem codeWeek_week : IsWeek codeWeek where
  epoch := by decide
  step n := by
    unfold codeWeek weekdayOf
    obtain ⟨q, hq⟩ : ∃ q, q = (719163 + n + 6) % 7 := ⟨_, rfl⟩
    have h0 : 0 ≤ q ∧ q < 7 := by omega
    have hq' : (719163 + (n + 1) + 6) % 7 = if q = 6 then 0 else q + 1 := by split_ifs <;> omega
    rw [← hq, hq']
    obtain ⟨h0, h1⟩ := h0
    clear hq hq'
    interval_cases q <;> rfl

/-- **C75** The row `Day of week` names the day of the week of the reading of the clock. -/
theorem C75_weekday (ab : Tz → Int → List Char) {week : Int → Weekday} (hw : IsWeek week) {wall n : Int}
    (h0 : n * dayNs ≤ wall) (h1 : wall < (n + 1) * dayNs) : weekdayText (english ab) wall = (week n).name.toList := by
  have hn : dayOf wall = n := by
    have e : dayNs = 86400000000000 := rfl
    rw [e] at h0 h1; unfold dayOf; rw [e]; omega
  rw [week_unique hw codeWeek_week]
  unfold weekdayText codeWeek
  rw [hn]
  have : weekdayOf n < 7 := by unfold weekdayOf; omega
  interval_cases weekdayOf n <;> rfl

theorem words_word {acc l : List Char} (h : ∀ c ∈ l, c.isWhitespace = false) (r : List Char) :
    words acc (l ++ r) = words (l.reverse ++ acc) r := by
  induction l generalizing acc with
  | nil => rfl
  | cons c l ih =>
    rw [List.cons_append, words, h c (by simp)]
    simp only [Bool.false_eq_true, if_false]
    rw [ih fun c hc => h c (by simp [hc])]
    simp

theorem words_cons {l : List Char} (h : ∀ c ∈ l, c.isWhitespace = false) (hl : l ≠ []) (r : List Char) :
    words [] (l ++ ' ' :: r) = l :: words [] r := by
  rw [words_word h, words]
  simp [hl]

theorem words_last {l : List Char} (h : ∀ c ∈ l, c.isWhitespace = false) (hl : l ≠ []) : words [] l = [l] := by
  have := words_word (acc := []) h []
  rw [List.append_nil] at this
  rw [this, words]
  simp [hl]

theorem capitalize_digits {l : List Char} (h : ∀ c ∈ l, c.toUpper = c ∧ c.toLower = c) : capitalize l = l := by
  cases l with
  | nil => rfl
  | cons c l =>
    show c.toUpper :: l.map Char.toLower = _
    rw [(h c (by simp)).1]
    congr 1
    conv_rhs => rw [← List.map_id l]
    exact List.map_congr_left fun c hc => (h c (by simp [hc])).2

theorem digit_case : ∀ d : Fin 10, (digitChar d).toUpper = digitChar d ∧ (digitChar d).toLower = digitChar d := by decide

theorem intText_chars (n : Int) : (∀ c ∈ intText n, c.isWhitespace = false ∧ c.toUpper = c ∧ c.toLower = c) ∧ intText n ≠ [] := by
  constructor
  · intro c hc
    unfold intText natText at hc
    rw [padded_eq] at hc
    rcases List.mem_append.1 hc with h | h
    · split_ifs at h
      · rw [List.mem_singleton] at h; subst h; decide
      · cases h
    · obtain ⟨d, -, rfl⟩ := List.mem_map.1 h
      exact ⟨isWS_digit d, digit_case d⟩
  · intro h
    have h1 := congrArg List.length h
    unfold intText natText at h1
    rw [List.length_append, padded_length] at h1
    simp at h1

/-- **C75** The row `Date` shows the Gregorian date of the reading of the clock. -/
theorem C75_date (ab : Tz → Int → List Char) {date : Int → CivilDate} (hg : IsGregorian date) {wall n : Int}
    (h0 : n * dayNs ≤ wall) (h1 : wall < (n + 1) * dayNs) : ReadsDate (dateText (english ab) wall) (date n) := by
  have hn : dayOf wall = n := by
    have e : dayNs = 86400000000000 := rfl
    rw [e] at h0 h1; unfold dayOf; rw [e]; omega
  rw [hg.unique C36_gregorian]
  have hv := C36_gregorian.valid n
  obtain ⟨y, m, d, hd⟩ : ∃ y m d, codeDate n = ⟨y, m, d⟩ := ⟨_, _, _, rfl⟩
  rw [hd] at hv ⊢
  obtain ⟨v1, v2, v3, v4⟩ := hv
  simp only at v1 v2 v3 v4
  have hd31 : d ≤ 31 := by
    refine v4.trans ?_
    unfold monthLength
    split_ifs <;> norm_num
  unfold codeDate at hd
  rw [CivilDate.mk.injEq] at hd
  obtain ⟨e1, e2, e3⟩ := hd
  have hname : (english ab).month m.toNat = (monthName m).toList := by interval_cases m <;> rfl
  have hnc : ∀ c ∈ (monthName m).toList, c.isWhitespace = false := by interval_cases m <;> decide
  have hnn : (monthName m).toList ≠ [] := by interval_cases m <;> decide
  have hcap : capitalize (monthName m).toList = (monthName m).toList := by interval_cases m <;> decide
  obtain ⟨i1, i2⟩ := intText_chars y
  have p1 : ∀ c ∈ padded 2 d.toNat, c.isWhitespace = false ∧ c.toUpper = c ∧ c.toLower = c := by
    intro c hc
    rw [padded_eq] at hc
    obtain ⟨q, -, rfl⟩ := List.mem_map.1 hc
    exact ⟨isWS_digit q, digit_case q⟩
  have p2 : padded 2 d.toNat ≠ [] := by
    intro h; have := congrArg List.length h; rw [padded_length] at this; simp at this
  have htext : dateText (english ab) wall = padded 2 d.toNat ++ ' ' :: ((monthName m).toList ++ ' ' :: intText y) := by
    unfold dateText
    simp only [hn, e1, e2]
    rw [e1, e2] at e3
    rw [e3, hname, words_cons (fun c hc => (p1 c hc).1) p2, words_cons hnc hnn, words_last (fun c hc => (i1 c hc).1) i2]
    simp only [List.map_cons, List.map_nil, hcap, capitalize_digits fun c hc => (p1 c hc).2, capitalize_digits fun c hc => (i1 c hc).2]
    simp [List.intercalate, List.intersperse]
  refine ⟨padded 2 d.toNat, intText y, d.toNat, htext, padded_length _ _, ?_, ?_, intText_read y⟩
  · rw [digits_padded, Nat.mod_eq_of_lt (by omega)]
  · show d = _; omega

/-- what the tail of the table is -/
theorem table_ok {loc : Locale} {env : Env XR} {time : String} {lat lon : XR} {alg : String} {refr : Bool} {timezone : String}
    {t : List (String × List Char)} (h : table loc env time lat lon alg refr timezone = .ok t) :
    ∃ r st tz u, at' env time lat lon alg refr timezone = .ok r ∧ env.stamp time = .ok st ∧
      env.tzLocalize timezone st.wall = .ok (tz, some u) ∧ t = dictOf (headItems loc tz u ++ items lat lon timezone r) := by
  unfold table at h
  obtain ⟨r, h1, h⟩ := bind_ok h
  obtain ⟨st, h2, h⟩ := bind_ok h
  obtain ⟨⟨tz, utc⟩, h3, h⟩ := bind_ok h
  cases utc with
  | none => cases h
  | some u =>
    injection h with h
    exact ⟨r, st, tz, u, by unfold at'; rw [h1], h2, h3, h.symm⟩

theorem dictSet_append {β : Type} {a d : List (String × β)} {k : String} (h : k ∉ a.map Prod.fst) (v : β) :
    dictSet (a ++ d) k v = a ++ dictSet d k v := by
  induction a with
  | nil => rfl
  | cons p a ih =>
    rw [List.map_cons, List.mem_cons, not_or] at h
    obtain ⟨k', v'⟩ := p
    rw [List.cons_append, dictSet, if_neg (fun e => h.1 e.symm), ih h.2, List.cons_append]

theorem dictOf_append {β : Type} {a b : List (String × β)} (ha : (a.map Prod.fst).Nodup)
    (h : ∀ p ∈ b, p.1 ∉ a.map Prod.fst) : dictOf (a ++ b) = a ++ dictOf b := by
  have key : ∀ (b d : List (String × β)), (∀ p ∈ b, p.1 ∉ a.map Prod.fst) →
      b.foldl (fun d p => dictSet d p.1 p.2) (a ++ d) = a ++ b.foldl (fun d p => dictSet d p.1 p.2) d := by
    intro b
    induction b with
    | nil => intro d _; rfl
    | cons p b ih =>
      intro d hb
      rw [List.foldl_cons, List.foldl_cons, dictSet_append (hb p (by simp)), ih _ fun q hq => hb q (by simp [hq])]
  have e := dictOf_nodup ha
  unfold dictOf at e ⊢
  rw [List.foldl_append, e]
  have := key b [] h
  rwa [List.append_nil] at this

theorem head_rows (loc : Locale) (tz : Tz) (u : Int) (lat lon : XR) (z : String) (r : Report XR) :
    dictOf (headItems loc tz u ++ items lat lon z r) = headItems loc tz u ++ rows lat lon z r := by
  refine dictOf_append (by show ["Day of week", "Date", "Time"].Nodup; decide) ?_
  have h1 : ∀ k ∈ ["Day of week", "Date", "Time"], k ≠ "Sunrise(" ++ z ++ ")" := fun k hk => sunrise_key (by
    simp only [List.mem_cons, List.not_mem_nil, or_false] at hk
    rcases hk with rfl | rfl | rfl <;> decide)
  have h2 : ∀ k ∈ ["Day of week", "Date", "Time"], k ≠ "Sunset(" ++ z ++ ")" := fun k hk => sunset_key (by
    simp only [List.mem_cons, List.not_mem_nil, or_false] at hk
    rcases hk with rfl | rfl | rfl <;> decide)
  intro p hp hk
  have hk : p.1 ∈ ["Day of week", "Date", "Time"] := hk
  unfold items at hp
  simp only [List.mem_cons, List.not_mem_nil, or_false] at hp
  rcases hp with rfl | rfl | rfl | rfl | rfl | rfl | rfl | rfl | rfl | rfl | rfl | rfl
  case inr.inr.inr.inr.inr.inr.inr.inr.inr.inl => exact h1 _ hk rfl
  case inr.inr.inr.inr.inr.inr.inr.inr.inr.inr.inl => exact h2 _ hk rfl
  all_goals exact absurd hk (by simp)

/-- **C75** A successful command prints the day of the week, the date and the time of day of the reading of the clock it was
given (to the whole second), and below them the rows of C72, in that order. `week` and `date` are the calendar, see `IsWeek` and
`IsGregorian`. -/
theorem C75_table {ab : Tz → Int → List Char} {env : Env XR} {time : String} {lat lon : XR} {alg : String} {refr : Bool}
    {timezone : String} {t : List (String × List Char)} (h : table (english ab) env time lat lon alg refr timezone = .ok t)
    (hs : ∀ st tz u, env.stamp time = .ok st → env.tzLocalize timezone st.wall = .ok (tz, some u) → st.wall = some (u + tz.off u))
    {week : Int → Weekday} (hw : IsWeek week) {date : Int → CivilDate} (hg : IsGregorian date) :
    ∃ (r : Report XR) (wall n : Int) (s : Nat) (a b c : List Char),
      at' env time lat lon alg refr timezone = .ok r ∧ env.stamp time = .ok ⟨some wall, false⟩ ∧
      t = ("Day of week", a) :: ("Date", b) :: ("Time", c) :: rows lat lon timezone r ∧
      a = (week n).name.toList ∧ ReadsDate b (date n) ∧ ReadsClock c s ∧
      n * 86400000000000 + s * 1000000000 ≤ wall ∧ wall < n * 86400000000000 + (s + 1) * 1000000000 := by
  obtain ⟨r, st, tz, u, h1, h2, h3, h4⟩ := table_ok h
  have h5 := hs _ _ _ h2 h3
  obtain ⟨st', tz', utc', s', g1, g2, -⟩ := calculate_ok (at_ok h1)
  obtain rfl : st = st' := by rw [h2] at g1; injection g1
  obtain ⟨wall, hwall⟩ : ∃ wall, wall = u + tz.off u := ⟨_, rfl⟩
  rw [← hwall] at h5
  have hst : st = ⟨some wall, false⟩ := by cases st; cases h5; cases g2; rfl
  rw [hst] at h2
  obtain ⟨ca, cb, cc, hh, mm, ss, k1, k2, k3, k4, k5, k6, k7, day, k8, k9⟩ := C72_clock wall
  refine ⟨r, wall, day, 3600 * hh + 60 * mm + ss, _, _, _, h1, h2, by rw [h4, head_rows]; rfl, ?_, ?_, ?_, ?_, ?_⟩
  · rw [← hwall]
    refine C75_weekday ab hw ?_ ?_
    · show day * 86400000000000 ≤ _; omega
    · show _ < (day + 1) * 86400000000000; omega
  · rw [← hwall]
    refine C75_date ab hg ?_ ?_
    · show day * 86400000000000 ≤ _; omega
    · show _ < (day + 1) * 86400000000000; omega
  · refine ⟨ca, cb, cc, ab tz u ++ [')'], hh, mm, ss, ?_, k2, k3, k4, k5, k6, k7, rfl⟩
    unfold timeText
    rw [← hwall, k1]
    simp [english]
  · push_cast; omega
  · push_cast; omega

/-- **C75** The formatting never fails: there is a table if and only if the command succeeds (C50 and C51 say when). -/
theorem C75_total (loc : Locale) (env : Env XR) (time : String) (lat lon : XR) (alg : String) (refr : Bool) (timezone : String) :
    (∃ t, table loc env time lat lon alg refr timezone = .ok t) ↔ ∃ r, at' env time lat lon alg refr timezone = .ok r := by
  constructor
  · rintro ⟨t, h⟩
    obtain ⟨r, -, -, -, h, -⟩ := table_ok h
    exact ⟨r, h⟩
  · rintro ⟨r, h⟩
    obtain ⟨st, tz, utc, s, h1, -, h3, h4, -, -, -, -, -, -, -, -, -, -, k7⟩ := calculate_ok (at_ok h)
    cases utc with
    | none =>
      have h4' : call .sites env.toWorld ⟨false, some tz, [none]⟩ (.scalar lat) (.scalar lon) alg
          (if refr then .pyTrue else .pyFalse) "numexpr" = .ok s := h4
      have hd := (C05_shape h4' rfl rfl).2.2.1
      have hn := ((C06_nat_rows (e := origin) h4' rfl).1 (by
        intro p hp; rw [hd] at hp; simp at hp; subst hp; simp [origin])).2.1
      rw [hn] at k7; cases k7
    | some u =>
      refine ⟨dictOf (headItems loc tz u ++ items lat lon timezone r), ?_⟩
      unfold table
      rw [at_ok h, ok_bind, h1, ok_bind, h3, ok_bind]
      rfl

/-- **C75** Two readings of the clock for which the same date is printed are on the same day. -/
theorem C75_date_unique (ab : Tz → Int → List Char) {w w' : Int}
    (h : dateText (english ab) w = dateText (english ab) w') : w / dayNs = w' / dayNs := by
  have e : dayNs = 86400000000000 := rfl
  obtain ⟨a, b, d, h1, h0, h2, h3, h4⟩ := C75_date ab C36_gregorian (wall := w) (n := w / dayNs) (by rw [e]; omega) (by rw [e]; omega)
  obtain ⟨a', b', d', g1, g0, g2, g3, g4⟩ := C75_date ab C36_gregorian (wall := w') (n := w' / dayNs) (by rw [e]; omega) (by rw [e]; omega)
  rw [h1, g1] at h
  obtain ⟨ea, ht⟩ := List.append_inj h (by rw [h0, g0])
  clear h
  subst ea
  have h := (List.cons.inj ht).2
  clear ht
  have v := C36_gregorian.valid (w / dayNs)
  have v' := C36_gregorian.valid (w' / dayNs)
  obtain ⟨x, hx⟩ : ∃ x, x = codeDate (w / dayNs) := ⟨_, rfl⟩
  obtain ⟨x', hx'⟩ : ∃ x', x' = codeDate (w' / dayNs) := ⟨_, rfl⟩
  rw [← hx] at h h3 h4 v
  rw [← hx'] at h g3 g4 v'
  have hc : ∀ m : Int, 1 ≤ m → m ≤ 12 → ∀ c ∈ (monthName m).toList, c.isWhitespace = false := by
    intro m m1 m2; interval_cases m <;> decide
  have hn : ∀ m : Int, 1 ≤ m → m ≤ 12 → (monthName m).toList ≠ [] := by
    intro m m1 m2; interval_cases m <;> decide
  have hw := congrArg (words []) h
  rw [words_cons (hc _ v.1 v.2.1) (hn _ v.1 v.2.1), words_cons (hc _ v'.1 v'.2.1) (hn _ v'.1 v'.2.1)] at hw
  have hm := (List.cons.inj hw).1
  rw [hm] at h
  have hb := List.append_cancel_left h
  replace hb := (List.cons.inj hb).2
  rw [hb, g4] at h4
  have hmonth : ∀ m m' : Int, 1 ≤ m → m ≤ 12 → 1 ≤ m' → m' ≤ 12 → (monthName m).toList = (monthName m').toList → m = m' := by
    intro m m' m1 m2 m3 m4
    interval_cases m <;> interval_cases m' <;> decide
  have em := hmonth _ _ v.1 v.2.1 v'.1 v'.2.1 hm
  have ey : x.year = x'.year := by
    simp only [Option.some.injEq, PyFloat.fin.injEq, Int.cast_inj] at h4
    exact h4.symm
  have ed : x.day = x'.day := by
    rw [h2] at g2
    rw [h3, g3]
    simp only [Option.some.injEq, Prod.mk.injEq, and_true] at g2
    exact_mod_cast g2
  rw [hx, hx'] at em ey ed
  unfold codeDate at em ey ed
  simp only at em ey ed
  rw [em, ey] at ed
  omega

/-- there is a week, and it is the one of the code -/
example : ∃ week, IsWeek week := ⟨_, codeWeek_week⟩

/-- the hypotheses of `C75_table` are met: noon of 21 June 2024, a Friday -/
example (ab : Tz → Int → List Char) : ∃ t, table (english ab) exEnv "2024-06-21 12:00" (.fin 36.949) (.fin (-3.822)) "nrel" false "UTC" = .ok t ∧
    t.lookup "Day of week" = some "Friday".toList ∧ t.lookup "Date" = some "21 June 2024".toList ∧
    (∀ st tz u, exEnv.stamp "2024-06-21 12:00" = .ok st → exEnv.tzLocalize "UTC" st.wall = .ok (tz, some u) →
      st.wall = some (u + tz.off u)) := by
  obtain ⟨r, hr⟩ := C51_returns (env := exEnv) (time := "2024-06-21 12:00") (st := ⟨some 1718971200000000000, false⟩)
    (tz := ⟨.absent, fun _ => 0⟩) (u := 1718971200000000000) (φ := 36.949) (l := -3.822) (alg := "nrel") false
    (timezone := "UTC") rfl rfl rfl (by norm_num) rfl (fun w => ⟨_, rfl⟩)
    (by rw [abs_of_pos (by norm_num)]; norm_num) (by norm_num) (by decide)
  obtain ⟨t, ht⟩ := (C75_total (english ab) exEnv "2024-06-21 12:00" (.fin 36.949) (.fin (-3.822)) "nrel" false "UTC").2 ⟨r, hr⟩
  refine ⟨t, ht, ?_⟩
  obtain ⟨r, st, tz, u, -, h2, h3, h4⟩ := table_ok ht
  obtain rfl : (⟨some 1718971200000000000, false⟩ : CliStamp) = st := by
    have : exEnv.stamp "2024-06-21 12:00" = .ok ⟨some 1718971200000000000, false⟩ := rfl
    rw [this] at h2; injection h2
  have h3' : exEnv.tzLocalize "UTC" (some 1718971200000000000) = .ok (⟨.absent, fun _ => 0⟩, some 1718971200000000000) := rfl
  rw [h3'] at h3
  injection h3 with h3
  rw [Prod.mk.injEq, Option.some.injEq] at h3
  obtain ⟨rfl, rfl⟩ := h3
  rw [h4, head_rows]
  refine ⟨rfl, ?_, ?_⟩
  · show some (dateText _ _) = _
    congr 1
  · intro st tz u g1 g2
    obtain rfl : (⟨some 1718971200000000000, false⟩ : CliStamp) = st := by rw [h2] at g1; injection g1
    rw [h3'] at g2
    injection g2 with g2
    rw [Prod.mk.injEq, Option.some.injEq] at g2
    obtain ⟨rfl, rfl⟩ := g2
    rfl

end SW.Props
