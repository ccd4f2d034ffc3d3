/-
C72: what is read off the table that `sunwhere at` prints.
-/
import Verif.CliText
import Verif.Props.Cli
import Verif.Props.DerivedAccuracy
import Verif.Props.Continuity
import Verif.Props.FloatDaylight

namespace SW.Props
open SW SW.Spec SW.Cli Real
open SW.Ephem (century declination hourAngle distance equationOfTime)

/-! ### decimal numbers -/

/-- digits of `padded` -/
def digs : Nat → Nat → List (Fin 10)
  | 0, _ => []
  | n + 1, m => digs n (m / 10) ++ [⟨m % 10, Nat.mod_lt _ (by norm_num)⟩]

theorem padded_eq (n m : Nat) : padded n m = (digs n m).map digitChar := by
  induction n generalizing m with
  | zero => rfl
  | succ n ih => rw [padded, digs, List.map_append, ih]; rfl

theorem digs_length (n m : Nat) : (digs n m).length = n := by
  induction n generalizing m with
  | zero => rfl
  | succ n ih => rw [digs, List.length_append, ih]; rfl

theorem padded_length (n m : Nat) : (padded n m).length = n := by
  rw [padded_eq, List.length_map, digs_length]

theorem ofDigits_digs (n m : Nat) : ofDigits ((digs n m).map Fin.val) = m % 10 ^ n := by
  induction n generalizing m with
  | zero => simp [digs, ofDigits, Nat.mod_one]
  | succ n ih =>
    have e : ofDigits ((digs (n + 1) m).map Fin.val) = 10 * ofDigits ((digs n (m / 10)).map Fin.val) + m % 10 := by
      rw [digs, List.map_append]; unfold ofDigits; rw [List.foldl_append]; rfl
    rw [e, ih, pow_succ', Nat.mod_mul]
    omega

theorem digits_padded (n m : Nat) : digits (padded n m) = some (m % 10 ^ n, n) := by
  rw [padded_eq, digits_spec, ofDigits_digs, digs_length]

theorem lt_log (m : Nat) : m < 10 ^ (Nat.log 10 m + 1) := Nat.lt_pow_succ_log_self (by norm_num) m

theorem signed_read {ds : List (Fin 10)} (hds : ds ≠ []) (frac : Option (List (Fin 10))) :
    pyFloat ('-' :: decimalText ds frac) = some (.fin (-decimalValue ds frac)) := by
  have h := pyFloat_decimal hds frac
  have hws : ∀ c ∈ decimalText ds frac, c.isWhitespace = false := by
    intro c hc
    rcases decimal_mem hc with rfl | ⟨d, rfl⟩
    · rfl
    · exact isWS_digit d
  have hws' : ∀ c ∈ '-' :: decimalText ds frac, c.isWhitespace = false := by
    intro c hc
    rcases List.mem_cons.1 hc with rfl | hc
    · rfl
    · exact hws c hc
  have hs : signed (decimalText ds frac) = (false, decimalText ds frac) := by
    obtain ⟨d, ds', rfl⟩ := List.exists_cons_of_ne_nil hds
    obtain ⟨r, hr⟩ : ∃ r, decimalText (d :: ds') frac = digitChar d :: r := ⟨_, rfl⟩
    obtain ⟨-, -, -, -, -, f1, f2, -, -⟩ := digit_facts d
    rw [hr]
    unfold signed
    split
    · rename_i h; exact absurd (List.cons.inj h).1 f1
    · rename_i h; exact absurd (List.cons.inj h).1 f2
    · rfl
  unfold pyFloat at h ⊢
  rw [strip_id hws, hs] at h
  rw [strip_id hws']
  have hs' : signed ('-' :: decimalText ds frac) = (true, decimalText ds frac) := rfl
  rw [hs']
  simp only [Bool.false_eq_true, if_false, Option.map_id', if_true] at h ⊢
  rw [h]; rfl

theorem rint_nonneg {x : ℝ} (h : 0 ≤ x) : 0 ≤ rint x := by
  have h1 := Int.floor_nonneg.2 h
  unfold rint
  split_ifs <;> omega

/-- the text of the number as digits before and after the point -/
theorem fixedText_eq (k : Nat) (x : ℝ) : ∃ (m : Nat) (ds fs : List (Fin 10)), (m : ℤ) = rint (|x| * 10 ^ k) ∧ ds ≠ [] ∧
    fs.length = k ∧ decimalValue ds (some fs) = (m : ℝ) / 10 ^ k ∧
    fixedText k x = (if x < 0 then ['-'] else []) ++ decimalText ds (some fs) := by
  obtain ⟨m, hm⟩ : ∃ m, m = (rint (|x| * 10 ^ k)).toNat := ⟨_, rfl⟩
  refine ⟨m, digs (Nat.log 10 (m / 10 ^ k) + 1) (m / 10 ^ k), digs k (m % 10 ^ k), ?_, ?_, digs_length _ _, ?_, ?_⟩
  · rw [hm]; exact Int.toNat_of_nonneg (rint_nonneg (by positivity))
  · intro h; have := digs_length (Nat.log 10 (m / 10 ^ k) + 1) (m / 10 ^ k); rw [h] at this; cases this
  · unfold decimalValue
    simp only
    rw [ofDigits_digs, ofDigits_digs, digs_length, Nat.mod_eq_of_lt (lt_log _), Nat.mod_mod]
    have := Nat.div_add_mod m (10 ^ k)
    rw [eq_div_iff (by positivity), add_mul, div_mul_cancel₀ _ (by positivity)]
    exact_mod_cast (by rw [mul_comm]; exact this)
  · unfold fixedText decimalText natText
    simp only
    rw [← hm, padded_eq, padded_eq, List.append_assoc]

/-- **C72** `f'{x:.4f}'`: Python's `float` reads the text as a decimal with that many digits, at most half a unit of the last one
from the number, and there are exactly that many characters after the point. -/
theorem C72_number (k : Nat) (x : ℝ) : ∃ (y : ℝ) (j : ℤ), pyFloat (numText k (.fin x)) = some (.fin y) ∧
    y = j / 10 ^ k ∧ |y - x| ≤ 1 / (2 * 10 ^ k) ∧ ∃ a b, numText k (.fin x) = a ++ '.' :: b ∧ b.length = k := by
  obtain ⟨m, ds, fs, hm, hds, hfs, hv, ht⟩ := fixedText_eq k x
  have hr := rint_near (|x| * 10 ^ k)
  rw [← hm] at hr
  have hp : (0 : ℝ) < 10 ^ k := by positivity
  have hb : abs ((m : ℝ) / 10 ^ k - |x|) ≤ 1 / (2 * 10 ^ k) := by
    have e : (m : ℝ) / 10 ^ k - |x| = (m - |x| * 10 ^ k) / 10 ^ k := by field_simp
    rw [e, abs_div, abs_of_pos hp, div_le_div_iff₀ hp (by positivity)]
    push_cast at hr
    nlinarith
  show ∃ (y : ℝ) (j : ℤ), pyFloat (fixedText k x) = some (.fin y) ∧
    y = j / 10 ^ k ∧ |y - x| ≤ 1 / (2 * 10 ^ k) ∧ ∃ a b, fixedText k x = a ++ '.' :: b ∧ b.length = k
  have hshape : ∃ a b, fixedText k x = a ++ '.' :: b ∧ b.length = k :=
    ⟨(if x < 0 then ['-'] else []) ++ ds.map digitChar, fs.map digitChar, by rw [ht]; simp [decimalText], by simp [hfs]⟩
  by_cases hx : x < 0
  · rw [if_pos hx] at ht
    refine ⟨-((m : ℝ) / 10 ^ k), -m, ?_, by push_cast; ring, ?_, hshape⟩
    · rw [ht, ← hv]; exact signed_read hds _
    · rw [abs_of_neg hx] at hb
      rw [← abs_neg]; convert hb using 2; ring
  · rw [if_neg hx] at ht
    refine ⟨(m : ℝ) / 10 ^ k, m, ?_, by push_cast; ring, ?_, hshape⟩
    · rw [ht, ← hv, List.nil_append]; exact pyFloat_decimal hds _
    · rwa [abs_of_nonneg (not_lt.1 hx)] at hb

/-- a number that is not known is printed as `nan` -/
example : numText 4 .nan = "nan".toList := rfl

/-- **C72** `%H:%M:%S`: two digits of hours, minutes and seconds, which are those of the last whole second not after the
reading. -/
theorem C72_clock (n : Int) : ∃ (a b c : List Char) (h m s : Nat), clockText n = a ++ ':' :: (b ++ ':' :: c) ∧
    digits a = some (h, 2) ∧ digits b = some (m, 2) ∧ digits c = some (s, 2) ∧ h < 24 ∧ m < 60 ∧ s < 60 ∧
    ∃ day : ℤ, day * 86400000000000 + (3600 * h + 60 * m + s) * 1000000000 ≤ n ∧
      n < day * 86400000000000 + (3600 * h + 60 * m + s) * 1000000000 + 1000000000 := by
  obtain ⟨q, hq⟩ : ∃ q : Nat, q = ((n / 1000000000) % 86400).toNat := ⟨_, rfl⟩
  have hq' : (q : ℤ) = (n / 1000000000) % 86400 := by omega
  refine ⟨padded 2 (q / 3600), padded 2 (q / 60 % 60), padded 2 (q % 60), q / 3600, q / 60 % 60, q % 60, ?_, ?_, ?_, ?_, ?_, ?_, ?_,
    n / 86400000000000, ?_, ?_⟩
  · unfold clockText; simp only; rw [← hq]
  · rw [digits_padded, Nat.mod_eq_of_lt (by omega)]
  · rw [digits_padded, Nat.mod_eq_of_lt (by omega)]
  · rw [digits_padded, Nat.mod_eq_of_lt (by omega)]
  all_goals omega

theorem intText_read (n : Int) : pyFloat (intText n) = some (.fin n) := by
  have hds : digs (Nat.log 10 n.natAbs + 1) n.natAbs ≠ [] := by
    intro h; have := digs_length (Nat.log 10 n.natAbs + 1) n.natAbs; rw [h] at this; cases this
  have hv : decimalValue (digs (Nat.log 10 n.natAbs + 1) n.natAbs) none = n.natAbs := by
    unfold decimalValue; simp only; rw [ofDigits_digs, Nat.mod_eq_of_lt (lt_log _), add_zero]
  have ht : natText n.natAbs = decimalText (digs (Nat.log 10 n.natAbs + 1) n.natAbs) none := by
    unfold natText decimalText; rw [padded_eq]; simp
  unfold intText
  rw [ht]
  by_cases h : n < 0
  · rw [if_pos h]
    rw [List.singleton_append, signed_read hds, hv]
    congr 2
    have : (n : ℤ) = -(n.natAbs : ℤ) := by omega
    have h2 : (n : ℝ) = -((n.natAbs : ℤ) : ℝ) := by rw [← Int.cast_neg, ← this]
    rw [h2, Int.cast_natCast]
  · rw [if_neg h, List.nil_append, pyFloat_decimal hds, hv]
    congr 2
    have : (n : ℤ) = (n.natAbs : ℤ) := by omega
    have h2 : (n : ℝ) = ((n.natAbs : ℤ) : ℝ) := by rw [← this]
    rw [h2, Int.cast_natCast]

/-- **C72** The text of the equation of time: minutes, a colon, seconds with one decimal. Both numbers are read back by Python's
`float`, and tell the equation of time to 0.05 seconds, if it is not between -1 and 0 minutes: there the sign is lost, the text is
that of the opposite equation of time. -/
theorem C72_eot (x : ℝ) : ∃ (a b : List Char) (m : ℤ) (t : ℝ), eotText (.fin x) = a ++ ':' :: (b ++ " min".toList) ∧
    pyFloat a = some (.fin m) ∧ pyFloat b = some (.fin t) ∧ 0 ≤ t ∧ t ≤ 60 ∧
    (0 ≤ x ∨ x ≤ -1 → (0 ≤ x ↔ 0 ≤ m) ∧ |x - (if 0 ≤ m then 1 else -1) * (|(m : ℝ)| + t / 60)| ≤ 1 / 1200) ∧
    (-1 < x → x < 0 → eotText (.fin x) = eotText (.fin (-x))) := by
  obtain ⟨y, hy⟩ : ∃ y, y = 60 * rpmod |x| 1 := ⟨_, rfl⟩
  have hy0 : 0 ≤ y := by
    rw [hy]; unfold rpmod
    have := Int.floor_le (|x| / 1)
    simp only [div_one, mul_one] at this ⊢; linarith
  obtain ⟨k, ds, fs, hm, hds, hfs, hv, ht⟩ := fixedText_eq 1 y
  rw [if_neg (not_lt.2 hy0), List.nil_append] at ht
  rw [abs_of_nonneg hy0, pow_one] at hm
  have ek : rint (10 * (60 * rpmod |x| 1)) = k := by rw [← hy, hm]; congr 1; ring
  have hk600 : (k : ℤ) ≤ 600 := by
    have h1 := rint_mem (x := y * 10) (n := 600) (by
      rw [abs_of_nonneg (by positivity), hy]; unfold rpmod
      have := Int.lt_floor_add_one (|x| / 1)
      simp only [div_one, mul_one] at this ⊢; push_cast; linarith)
    rw [← hm] at h1
    have h2 := (abs_le.1 h1).2
    exact_mod_cast h2
  have hk600' : (k : ℝ) ≤ 600 := by exact_mod_cast hk600
  refine ⟨intText (rtrunc x), fixedText 1 y, rtrunc x, (k : ℝ) / 10, ?_, intText_read _, ?_, by positivity, by linarith, ?_, ?_⟩
  · rw [hy]; rfl
  · rw [ht, pyFloat_decimal hds, hv, pow_one]
  · intro h
    obtain ⟨m', k', h1, -, -, h4, h5⟩ := C39_display x h
    have h1' : (Except.ok (rtrunc x, rint (10 * (60 * rpmod |x| 1))) : Except PyErr (Int × Int)) = .ok (m', k') := h1
    injection h1' with h1'
    injection h1' with e1 e2
    rw [ek] at e2
    subst e1
    refine ⟨h4, ?_⟩
    rw [← e2] at h5
    convert h5 using 4
    push_cast; ring_nf
  · intro h1 h2
    have e1 : rtrunc x = 0 := by
      unfold rtrunc; rw [if_neg (not_le.2 h2), Int.ceil_eq_zero_iff]; exact ⟨h1, h2.le⟩
    have e2 : rtrunc (-x) = 0 := by
      unfold rtrunc; rw [if_pos (by linarith), Int.floor_eq_zero_iff]; exact ⟨by linarith, by linarith⟩
    unfold eotText
    simp only
    rw [e1, e2, abs_neg]

/-! ### the rows of the table -/

theorem lookup_cons' {β : Type} (k k' : String) (v : β) (d : List (String × β)) :
    ((k', v) :: d).lookup k = if k = k' then some v else d.lookup k := by
  by_cases h : k = k'
  · subst h; simp [List.lookup]
  · rw [if_neg h]; simp only [List.lookup]; rw [beq_eq_false_iff_ne.2 h]

theorem dictSet_lookup {β : Type} (d : List (String × β)) (k : String) (v : β) (k' : String) :
    (dictSet d k v).lookup k' = if k' = k then some v else d.lookup k' := by
  induction d with
  | nil => exact lookup_cons' _ _ _ _
  | cons p d ih =>
    obtain ⟨a, b⟩ := p
    unfold dictSet
    by_cases h : a = k
    · rw [if_pos h, lookup_cons', lookup_cons', h]; split_ifs <;> rfl
    · rw [if_neg h, lookup_cons', lookup_cons', ih]
      by_cases h1 : k' = a
      · rw [if_pos h1, if_pos h1, if_neg (by rw [h1]; exact h)]
      · rw [if_neg h1, if_neg h1]

/-- the last value given for a key counts -/
theorem dictOf_lookup {β : Type} (items : List (String × β)) (k : String) :
    (dictOf items).lookup k = items.reverse.lookup k := by
  have key : ∀ (items d : List (String × β)), (items.foldl (fun d p => dictSet d p.1 p.2) d).lookup k
      = (items.reverse ++ d).lookup k := by
    intro items
    induction items with
    | nil => intro d; rfl
    | cons p items ih =>
      intro d
      rw [List.foldl_cons, ih, List.reverse_cons, List.append_assoc, List.lookup_append, List.lookup_append, dictSet_lookup,
        List.singleton_append, lookup_cons']
  have := key items []
  rwa [List.append_nil] at this

theorem dictSet_new {β : Type} {d : List (String × β)} {k : String} (h : k ∉ d.map Prod.fst) (v : β) :
    dictSet d k v = d ++ [(k, v)] := by
  induction d with
  | nil => rfl
  | cons p d ih =>
    obtain ⟨a, b⟩ := p
    rw [List.map_cons, List.mem_cons, not_or] at h
    unfold dictSet
    rw [if_neg (Ne.symm h.1), ih h.2, List.cons_append]

/-- a dict display without repeated keys has its items in their order -/
theorem dictOf_nodup {β : Type} {items : List (String × β)} (h : (items.map Prod.fst).Nodup) : dictOf items = items := by
  have key : ∀ (items d : List (String × β)), ((d ++ items).map Prod.fst).Nodup →
      items.foldl (fun d p => dictSet d p.1 p.2) d = d ++ items := by
    intro items
    induction items with
    | nil => intro d _; simp
    | cons p items ih =>
      intro d hd
      rw [List.foldl_cons, dictSet_new (by
        rw [List.map_append, List.map_cons, List.nodup_middle, List.nodup_cons] at hd
        exact fun h => hd.1 (List.mem_append_left _ h))]
      have e : d ++ [(p.1, p.2)] ++ items = d ++ p :: items := by simp
      rw [ih _ (by rw [e]; exact hd), e]
  exact key items [] h

theorem sunrise_key {z k : String} (h : ¬ "Sunrise(".toList <+: k.toList) : k ≠ "Sunrise(" ++ z ++ ")" := by
  rintro rfl
  apply h
  rw [String.toList_append, String.toList_append, List.append_assoc]
  exact List.prefix_append _ _

theorem sunset_key {z k : String} (h : ¬ "Sunset(".toList <+: k.toList) : k ≠ "Sunset(" ++ z ++ ")" := by
  rintro rfl
  apply h
  rw [String.toList_append, String.toList_append, List.append_assoc]
  exact List.prefix_append _ _

theorem key_inj {a z k : String} (h : a ++ z ++ ")" = a ++ k ++ ")") : z = k := by
  have := congrArg String.toList h
  simp only [String.toList_append, List.append_assoc, List.append_cancel_left_eq, List.append_cancel_right_eq] at this
  exact String.toList_inj.1 this

/-- a row of the table reads `<number><unit>`, and Python's `float` makes `y` of the number -/
def Reads (table : List (String × List Char)) (key unit : String) (y : ℝ) : Prop :=
  ∃ text, table.lookup key = some (text ++ unit.toList) ∧ pyFloat text = some (.fin y)

/-- **C72** For every time zone other than `UTC` the table has twelve rows (from the latitude on), in the order of the source. For
`UTC` the rows of the local sunrise and sunset have the names of those in UTC, and the table has only ten: the local ones take
the place of those in UTC. -/
theorem C72_rows (lat lon : XR) (z : String) (r : Report XR) :
    (z ≠ "UTC" → rows lat lon z r = items lat lon z r) ∧
    rows lat lon "UTC" r =
      [("Latitude", numText 4 lat ++ "°".toList), ("Longitude", numText 4 lon ++ "°".toList),
        ("Declination", numText 4 r.declination ++ "°".toList), ("Sun-Earth distance", numText 4 r.distance ++ " AU".toList),
        ("Zenith", numText 4 r.zenith ++ "°".toList), ("Elevation", numText 4 r.elevation ++ "°".toList),
        ("Azimuth (0° south)", numText 4 r.azimuth ++ "°".toList), ("Sunrise(UTC)", clockText r.sunriseLocal),
        ("Sunset(UTC)", clockText r.sunsetLocal), ("Equation of time", eotText r.eot)] := by
  constructor
  · intro hz
    have hz1 : "Sunrise(UTC)" ≠ "Sunrise(" ++ z ++ ")" := fun h => hz (key_inj (a := "Sunrise(") (k := "UTC") h.symm)
    have hz2 : "Sunset(UTC)" ≠ "Sunset(" ++ z ++ ")" := fun h => hz (key_inj (a := "Sunset(") (k := "UTC") h.symm)
    have h1 : ∀ k, ¬ "Sunrise(".toList <+: k.toList → k ≠ "Sunrise(" ++ z ++ ")" := fun k h => sunrise_key h
    have h2 : ∀ k, ¬ "Sunset(".toList <+: k.toList → k ≠ "Sunset(" ++ z ++ ")" := fun k h => sunset_key h
    have h3 : "Sunrise(" ++ z ++ ")" ≠ "Sunset(" ++ z ++ ")" := by
      apply sunset_key
      rw [String.toList_append, String.toList_append, List.append_assoc]
      intro h
      have := h.take 4
      simp at this
    have h4 := h1 "Equation of time" (by decide)
    have h5 := h2 "Equation of time" (by decide)
    refine dictOf_nodup ?_
    unfold items
    simp only [List.map_cons, List.map_nil, List.nodup_cons, List.mem_cons, List.not_mem_nil, or_false, not_or, not_false_eq_true,
      List.nodup_nil, and_true, true_and, String.reduceEq]
    exact ⟨⟨h1 _ (by decide), h2 _ (by decide)⟩, ⟨h1 _ (by decide), h2 _ (by decide)⟩, ⟨h1 _ (by decide), h2 _ (by decide)⟩,
      ⟨h1 _ (by decide), h2 _ (by decide)⟩, ⟨h1 _ (by decide), h2 _ (by decide)⟩, ⟨h1 _ (by decide), h2 _ (by decide)⟩,
      ⟨h1 _ (by decide), h2 _ (by decide)⟩, ⟨hz1, h2 _ (by decide)⟩, ⟨h1 _ (by decide), hz2⟩, ⟨h3, h4.symm⟩, h5.symm⟩
  · have e1 : "Sunrise(" ++ "UTC" ++ ")" = "Sunrise(UTC)" := rfl
    have e2 : "Sunset(" ++ "UTC" ++ ")" = "Sunset(UTC)" := rfl
    have e0 : rows lat lon "UTC" r = (((items lat lon "UTC" r).drop 9).foldl (fun d p => dictSet d p.1 p.2)
        (dictOf ((items lat lon "UTC" r).take 9))) := rfl
    rw [e0, dictOf_nodup (by
      unfold items
      simp only [List.take_succ_cons, List.take_zero, List.map_cons, List.map_nil, List.nodup_cons, List.mem_cons, List.not_mem_nil,
        or_false, not_or, not_false_eq_true, List.nodup_nil, and_true, String.reduceEq, and_self])]
    unfold items
    simp only [e1, e2, List.take_succ_cons, List.take_zero, List.drop_succ_cons, List.drop_zero, List.foldl_cons, List.foldl_nil,
      dictSet, String.reduceEq, if_false, if_true]
    rfl

theorem row_lookup (lat lon : XR) (z : String) (r : Report XR) :
    (rows lat lon z r).lookup "Latitude" = some (numText 4 lat ++ "°".toList) ∧
    (rows lat lon z r).lookup "Longitude" = some (numText 4 lon ++ "°".toList) ∧
    (rows lat lon z r).lookup "Declination" = some (numText 4 r.declination ++ "°".toList) ∧
    (rows lat lon z r).lookup "Sun-Earth distance" = some (numText 4 r.distance ++ " AU".toList) ∧
    (rows lat lon z r).lookup "Zenith" = some (numText 4 r.zenith ++ "°".toList) ∧
    (rows lat lon z r).lookup "Elevation" = some (numText 4 r.elevation ++ "°".toList) ∧
    (rows lat lon z r).lookup "Azimuth (0° south)" = some (numText 4 r.azimuth ++ "°".toList) ∧
    (rows lat lon z r).lookup "Equation of time" = some (eotText r.eot) := by
  have h1 : ∀ k, ¬ "Sunrise(".toList <+: k.toList → k ≠ "Sunrise(" ++ z ++ ")" := fun k h => sunrise_key h
  have h2 : ∀ k, ¬ "Sunset(".toList <+: k.toList → k ≠ "Sunset(" ++ z ++ ")" := fun k h => sunset_key h
  unfold rows
  simp only [dictOf_lookup, items, List.reverse_cons, List.reverse_nil, List.nil_append, List.cons_append, lookup_cons', String.reduceEq,
    if_false, if_true]
  refine ⟨?_, ?_, ?_, ?_, ?_, ?_, ?_, ?_⟩
  all_goals first | rfl | trivial | (rw [if_neg (h2 _ (by decide)), if_neg (h1 _ (by decide))]; rfl)

/-- **C72** The rows of sunrise and sunset show the last whole second not after the event: in the rows named after the requested
time zone the local event, in those named after UTC the event in UTC if the requested time zone is another one. -/
theorem C72_events (lat lon : XR) (z : String) (r : Report XR) :
    (rows lat lon z r).lookup ("Sunrise(" ++ z ++ ")") = some (clockText r.sunriseLocal) ∧
    (rows lat lon z r).lookup ("Sunset(" ++ z ++ ")") = some (clockText r.sunsetLocal) ∧
    (z ≠ "UTC" → (rows lat lon z r).lookup "Sunrise(UTC)" = some (clockText r.sunriseUtc) ∧
      (rows lat lon z r).lookup "Sunset(UTC)" = some (clockText r.sunsetUtc)) := by
  have h4 : "Equation of time" ≠ "Sunrise(" ++ z ++ ")" := sunrise_key (by decide)
  have h5 : "Equation of time" ≠ "Sunset(" ++ z ++ ")" := sunset_key (by decide)
  have h3 : "Sunrise(" ++ z ++ ")" ≠ "Sunset(" ++ z ++ ")" := by
    apply sunset_key
    rw [String.toList_append, String.toList_append, List.append_assoc]
    intro h
    have := h.take 4
    simp at this
  have h6 : "Sunset(UTC)" ≠ "Sunrise(" ++ z ++ ")" := sunrise_key (by decide)
  have h7 : "Sunrise(UTC)" ≠ "Sunset(" ++ z ++ ")" := sunset_key (by decide)
  unfold rows
  simp only [dictOf_lookup, items, List.reverse_cons, List.reverse_nil, List.nil_append, List.cons_append, lookup_cons', String.reduceEq,
    if_false, if_true, h4.symm, h5.symm, h3, h6, h7, true_and]
  intro hz
  have hz1 : "Sunrise(UTC)" ≠ "Sunrise(" ++ z ++ ")" := fun h => hz (key_inj (a := "Sunrise(") (k := "UTC") h.symm)
  have hz2 : "Sunset(UTC)" ≠ "Sunset(" ++ z ++ ")" := fun h => hz (key_inj (a := "Sunset(") (k := "UTC") h.symm)
  simp only [hz1, hz2, if_false, and_self]

theorem reads_near {table : List (String × List Char)} {key unit : String} {x : ℝ}
    (h : table.lookup key = some (numText 4 (.fin x) ++ unit.toList)) : ∃ y, Reads table key unit y ∧ |y - x| ≤ 5e-5 := by
  obtain ⟨y, j, h1, -, h2, -⟩ := C72_number 4 x
  exact ⟨y, ⟨_, h, h1⟩, h2.trans (by norm_num)⟩

/-! ### the command -/

theorem cli_at {F : Type} [Scalar F] {w : World F} {tz : Tz} {u : Int} {lat lon : F} {alg eng : String} {refr : PyVal} {s : Sunpos F}
    (h : call .sites w ⟨false, some tz, [some u]⟩ (.scalar lat) (.scalar lon) alg refr eng = .ok s) :
    Within s.zenith origin ∧ s.latitude.get origin = lat ∧ s.longitude.get origin = lon := by
  have hd := (C05_shape h rfl rfl).1
  obtain ⟨lat', lon', b, _, hacc, _, hr⟩ := call_inv h
  have e1 : lat' = [lat] := (Option.some.inj hacc.lat_eq).symm
  have e2 : lon' = [lon] := (Option.some.inj hacc.lon_eq).symm
  refine ⟨?_, ?_, ?_⟩
  · intro p hp
    rw [hd] at hp
    simp [documentedDims] at hp
    rcases hp with rfl | rfl <;> simp [origin]
  · rw [hr.latitude, e1]; rfl
  · rw [hr.longitude, e2]; rfl

theorem dist_close {d D x E : ℝ} (h0 : 0 < d) (hd : d ≤ 1.021) (hD0 : 0.98 ≤ D) (hD : D ≤ 1.02) (hx : x = 1 / d ^ 2)
    (h : |x - 1 / D ^ 2| ≤ E) : |d - D| ≤ 0.54 * E := by
  have hD1 : 0 < D := lt_of_lt_of_le (by norm_num) hD0
  have e : |d - D| * (d + D) = |x - 1 / D ^ 2| * (d ^ 2 * D ^ 2) := by
    rw [← abs_of_pos (show 0 < d + D by linarith), ← abs_mul, ← abs_of_pos (show 0 < d ^ 2 * D ^ 2 by positivity), ← abs_mul,
      ← abs_neg, hx]
    congr 1; field_simp; ring
  have hE : 0 ≤ E := (abs_nonneg _).trans h
  have h1 : d * D ≤ 0.5105 * (d + D) := by nlinarith
  have h2 : d * D ≤ 1.0415 := by nlinarith
  have h3 : d ^ 2 * D ^ 2 ≤ 0.54 * (d + D) := by
    have : (d * D) * (d * D) ≤ 1.0415 * (0.5105 * (d + D)) := mul_le_mul h2 h1 (by positivity) (by norm_num)
    nlinarith
  have h4 : |x - 1 / D ^ 2| * (d ^ 2 * D ^ 2) ≤ E * (0.54 * (d + D)) := mul_le_mul h h3 (by positivity) hE
  rw [← e] at h4
  have : |d - D| * (d + D) ≤ (0.54 * E) * (d + D) := by linarith
  exact le_of_mul_le_mul_right this (by linarith)

/-- directions of close zenith angles and azimuths -/
theorem angle_dir (z a z' a' : ℝ) : arccos ((dirVec z a).dot (dirVec z' a')) ≤ |z - z'| + |a - a'| := by
  refine (angle_triangle (dirVec_sq z a) (dirVec_sq z' a) (dirVec_sq z' a')).trans (add_le_add (arccos_le_abs ?_) (arccos_le_abs ?_))
  · rw [cos_sub]; simp only [Vec.dot, dirVec]
    refine le_of_eq ?_
    linear_combination -(sin z * sin z') * sin_sq_add_cos_sq a
  · rw [cos_sub]; simp only [Vec.dot, dirVec]
    have h1 := sin_sq_add_cos_sq z'
    have h2 : cos a * cos a' + sin a * sin a' ≤ 1 := by rw [← cos_sub]; exact cos_le_one _
    nlinarith [sq_nonneg (cos z'), sq_nonneg (sin z')]

/-- **C72** What a successful command prints of the instant `u` it has understood: the coordinates given, the declination and
the distance of the sun of the reference ephemeris, to within their errors (C54) and half a unit of the fourth decimal, and the
text (C72_eot) of an equation of time within its error of that of the ephemeris. -/
theorem C72_time {env : Env XR} {time : String} {φ l : ℝ} {alg : String} {refr : Bool}
    {timezone : String} {r : Report XR} (h : at' env time (.fin φ) (.fin l) alg refr timezone = .ok r)
    (hrange : ∀ w tz u, env.tzLocalize timezone w = .ok (tz, some u) → |u| < 2 ^ 63) :
    ∃ st tz u, env.stamp time = .ok st ∧ env.tzLocalize timezone st.wall = .ok (tz, some u) ∧
      (∃ y, Reads (rows (.fin φ) (.fin l) timezone r) "Latitude" "°" y ∧ |y - φ| ≤ 5e-5) ∧
      (∃ y, Reads (rows (.fin φ) (.fin l) timezone r) "Longitude" "°" y ∧ |y - l| ≤ 5e-5) ∧
      (∃ y, Reads (rows (.fin φ) (.fin l) timezone r) "Declination" "°" y ∧
        |rad y - declination (century u)| ≤ rad (decError alg + 5e-5)) ∧
      (∃ y, Reads (rows (.fin φ) (.fin l) timezone r) "Sun-Earth distance" " AU" y ∧
        |y - distance (century u)| ≤ 0.54 * ecfError alg + 5e-5) ∧
      ∃ x, (rows (.fin φ) (.fin l) timezone r).lookup "Equation of time" = some (eotText (.fin x)) ∧
        ∃ k : ℤ, |x - equationOfTime (century u) - 1440 * k| ≤ eotError alg := by
  obtain ⟨st, tz, u, s, h1, h2, h3, -, -, k3, k4, -, x, d, hx, hd, hd0, hxd, -, hd2⟩ := C51_report h hrange
  have hu := hrange _ _ _ h2
  obtain ⟨r1, r2, r3, r4, -, -, -, r8⟩ := row_lookup (.fin φ) (.fin l) timezone r
  refine ⟨st, tz, u, h1, h2, reads_near r1, reads_near r2, ?_, ?_, ?_⟩
  · obtain ⟨δ, g1, g2⟩ := C54_declination (e := origin) h3 rfl hu
    rw [k3, g1] at r3
    obtain ⟨y, y1, y2⟩ := reads_near r3
    refine ⟨y, y1, ?_⟩
    have := rad_mono y2
    rw [← abs_rad, rad_sub] at this
    rw [rad_add]
    exact (abs_sub_le _ (rad δ) _).trans (by linarith)
  · obtain ⟨x', g1, g2⟩ := C54_ecf (e := origin) h3 rfl hu
    obtain rfl : x = x' := XR.fin_inj.1 (hx.symm.trans g1)
    rw [hd] at r4
    obtain ⟨y, y1, y2⟩ := reads_near r4
    refine ⟨y, y1, ?_⟩
    have hD := Ephem.distance_bound (century_bound hu)
    have := dist_close hd0 hd2 hD.1 hD.2 hxd g2
    exact (abs_sub_le _ d _).trans (by linarith)
  · obtain ⟨x', g1, g2⟩ := C54_eot (e := origin) h3 rfl hu
    rw [k4, g1] at r8
    exact ⟨x', r8, g2⟩

/-- **C72** Without refraction, the zenith and the azimuth printed describe the direction of the sun of the reference
ephemeris to within the error of C54 and 0.0001 degrees, and the elevation printed is the complement of the zenith printed to 0.0001
degrees. -/
theorem C72_position {env : Env XR} {time : String} {φ l : ℝ} {alg : String}
    {timezone : String} {r : Report XR} (h : at' env time (.fin φ) (.fin l) alg false timezone = .ok r)
    (hrange : ∀ w tz u, env.tzLocalize timezone w = .ok (tz, some u) → |u| < 2 ^ 63) :
    ∃ st tz u z a b, env.stamp time = .ok st ∧ env.tzLocalize timezone st.wall = .ok (tz, some u) ∧
      Reads (rows (.fin φ) (.fin l) timezone r) "Zenith" "°" z ∧
      Reads (rows (.fin φ) (.fin l) timezone r) "Azimuth (0° south)" "°" a ∧
      Reads (rows (.fin φ) (.fin l) timezone r) "Elevation" "°" b ∧ |b - (90 - z)| ≤ 1e-4 ∧
      arccos ((dirVec (rad z) (rad a)).dot
        (sunVec (rad φ) (declination (century u)) (-(hourAngle (century u) + rad l)))) ≤ rad (positionError alg "numexpr" + 1e-4) := by
  obtain ⟨st, tz, u, s, h1, h2, h3, k1, k2, -, -, k5, -⟩ := C51_report h hrange
  have hu := hrange _ _ _ h2
  obtain ⟨-, -, -, -, r5, r6, r7, -⟩ := row_lookup (.fin φ) (.fin l) timezone r
  obtain ⟨c1, c2, c3⟩ := cli_at h3
  obtain ⟨z, a, g1, g2, g3⟩ := C54_position h3 (by simp) (⟨c1, rfl, hu, c2, c3⟩ : At s _ origin u φ l)
  rw [k1, g1] at r5
  rw [k5 z (k1.trans g1)] at r6
  rw [k2, g2] at r7
  obtain ⟨z', z1, z2⟩ := reads_near r5
  obtain ⟨b', b1, b2⟩ := reads_near r6
  obtain ⟨a', a1, a2⟩ := reads_near r7
  refine ⟨st, tz, u, z', a', b', h1, h2, z1, a1, b1, ?_, ?_⟩
  · have e : b' - (90 - z') = (b' - (90 - z)) + (z' - z) := by ring
    rw [e]; refine (abs_add_le _ _).trans ?_
    norm_num at b2 z2 ⊢; linarith
  · refine (angle_triangle (dirVec_sq _ _) (dirVec_sq (rad z) (rad a)) (sunVec_sq _ _ _)).trans ?_
    have q := angle_dir (rad z') (rad a') (rad z) (rad a)
    rw [← rad_sub, ← rad_sub, abs_rad, abs_rad] at q
    have q1 := rad_mono z2
    have q2 := rad_mono a2
    have e : rad (1e-4) = rad 5e-5 + rad 5e-5 := by rw [← rad_add]; norm_num
    rw [rad_add, e]; linarith

/-- **C72** With refraction, and the sun of the ephemeris up (two degrees up for iqbal), the zenith printed is its apparent zenith angle
to within the errors of C54 and C68 and half a unit of the fourth decimal. -/
theorem C72_apparent {env : Env XR} {time : String} {φ l ζ : ℝ} {alg : String}
    {timezone : String} {r : Report XR} (h : at' env time (.fin φ) (.fin l) alg true timezone = .ok r)
    {st : CliStamp} {tz : Tz} {u : Int} (hst : env.stamp time = .ok st) (hloc : env.tzLocalize timezone st.wall = .ok (tz, some u))
    (hu : |u| < 2 ^ 63)
    (hup : cos (rad ζ) = sin (rad φ) * sin (declination (century u))
      + cos (rad φ) * cos (declination (century u)) * cos (hourAngle (century u) + rad l))
    (hζ0 : 0 ≤ ζ) (hζ : ζ ≤ 90 - lowestElevation alg) :
    ∃ z, Reads (rows (.fin φ) (.fin l) timezone r) "Zenith" "°" z ∧
      |z - (ζ - standardRefraction (90 - ζ))| ≤ positionError alg "numexpr" + refractionError alg + 5e-5 := by
  obtain ⟨st', tz', utc, s, h1, -, h3, h4, -, -, -, -, -, -, k3, -⟩ := calculate_ok (at_ok h)
  rw [hst] at h1; cases h1
  rw [hloc] at h3; cases h3
  have h4' : call .sites env.toWorld ⟨false, some tz, [some u]⟩ (.scalar (.fin φ)) (.scalar (.fin l)) alg .pyTrue "numexpr" = .ok s := h4
  obtain ⟨c1, c2, c3⟩ := cli_at h4'
  obtain ⟨z, a, z0, g1, -, -, -, g4⟩ := C68_accuracy h4' (⟨c1, rfl, hu, c2, c3⟩ : At s _ origin u φ l) hup hζ0 hζ
  obtain ⟨-, -, -, -, r5, -⟩ := row_lookup (.fin φ) (.fin l) timezone r
  rw [k3, g1] at r5
  obtain ⟨z', z1, z2⟩ := reads_near r5
  exact ⟨z', z1, (abs_sub_le _ z _).trans (by linarith)⟩

/-- the instant a command in floating-point arithmetic has understood, and the object it has computed -/
theorem cli_float {A : Arith} {env : Env (Rd A)} {time : String} {φ l : ℝ} {alg : String} {refr : Bool}
    {timezone : String} {r : Report (Rd A)} (h : at' env time (Rd.fin φ) (Rd.fin l) alg refr timezone = .ok r)
    {st : CliStamp} {tz : Tz} {u : Int} (hst : env.stamp time = .ok st) (hloc : env.tzLocalize timezone st.wall = .ok (tz, some u))
    (hu : |u| < 2 ^ 63) :
    ∃ s, call .sites env.toWorld ⟨false, some tz, [some u]⟩ (.scalar (Rd.fin φ)) (.scalar (Rd.fin l)) alg
        (if refr then .pyTrue else .pyFalse) "numexpr" = .ok s ∧ AtRd s ⟨false, some tz, [some u]⟩ origin u φ l ∧
      r.zenith = s.zenithDeg.get origin ∧ r.azimuth = s.azimuthDeg.get origin ∧ r.declination = s.decDeg.get origin ∧
      r.eot = s.eot.get origin := by
  obtain ⟨st', tz', utc, s, h1, -, h3, h4, -, -, -, -, k1, -, k3, -, k5, k6, -⟩ := calculate_ok (at_ok h)
  rw [hst] at h1; cases h1
  rw [hloc] at h3; cases h3
  obtain ⟨c1, c2, c3⟩ := cli_at h4
  exact ⟨s, h4, ⟨c1, rfl, hu, c2, c3⟩, k3, k5, k1, k6⟩

/-- **C72** The same in every arithmetic with the accuracy of double precision: the declination and the equation of time printed
are those of the sun of the ephemeris to within the errors of C64 and half a unit of the last decimal. -/
theorem C72_float_time {A : Arith} {env : Env (Rd A)} {time : String} {φ l : ℝ} {alg : String} {refr : Bool}
    {timezone : String} {r : Report (Rd A)} (h : at' env time (Rd.fin φ) (Rd.fin l) alg refr timezone = .ok r)
    {st : CliStamp} {tz : Tz} {u : Int} (hst : env.stamp time = .ok st) (hloc : env.tzLocalize timezone st.wall = .ok (tz, some u))
    (hu : |u| < 2 ^ 63) :
    (∃ y, Reads (rows (XR.fin φ) (XR.fin l) timezone r) "Declination" "°" y ∧
      |rad y - declination (century u)| ≤ rad (decError alg + 4e-8 + 5e-5)) ∧
    ∃ x, (rows (XR.fin φ) (XR.fin l) timezone r).lookup "Equation of time" = some (eotText (.fin x)) ∧
      ∃ k : ℤ, |x - equationOfTime (century u) - 1440 * k| ≤ eotError alg + 1.1e-6 := by
  obtain ⟨s, h4, ha, -, -, k3, k4⟩ := cli_float h hst hloc hu
  obtain ⟨d, f, q, g1, -, g3, e1, -, e3⟩ := C64_time h4 ha.time hu
  obtain ⟨-, -, r3, -, -, -, -, r8⟩ := row_lookup (XR.fin φ) (XR.fin l) timezone r
  have k3' : (r.declination : XR) = XR.fin d := k3.trans g1
  have k4' : (r.eot : XR) = XR.fin q := k4.trans g3
  refine ⟨?_, q, ?_, e3⟩
  · have r3' : (rows (XR.fin φ) (XR.fin l) timezone r).lookup "Declination" = some (numText 4 (XR.fin d) ++ "°".toList) := by
      rw [← k3']; exact r3
    obtain ⟨y, y1, y2⟩ := reads_near r3'
    refine ⟨y, y1, ?_⟩
    have := rad_mono y2
    rw [← abs_rad, rad_sub] at this
    rw [rad_add _ 5e-5]
    exact (abs_sub_le _ (rad d) _).trans (by linarith)
  · rw [← k4']; exact r8

/-- **C72** ... and the direction printed without refraction is that of the sun of the ephemeris to within the error of C64 and
0.0001 degrees, where `sin ζ ≥ 0.06`. -/
theorem C72_float_position {A : Arith} {env : Env (Rd A)} {time : String} {φ l ζ : ℝ} {alg : String}
    {timezone : String} {r : Report (Rd A)} (h : at' env time (Rd.fin φ) (Rd.fin l) alg false timezone = .ok r)
    {st : CliStamp} {tz : Tz} {u : Int} (hst : env.stamp time = .ok st) (hloc : env.tzLocalize timezone st.wall = .ok (tz, some u))
    (hu : |u| < 2 ^ 63) (hφ : -90 ≤ φ ∧ φ ≤ 90) (hl : -180 ≤ l ∧ l < 180)
    (hpole : alg = "nrel" → |φ| ≤ 90 - 1e-10)
    (hup : cos (rad ζ) = sin (rad φ) * sin (declination (century u))
      + cos (rad φ) * cos (declination (century u)) * cos (hourAngle (century u) + rad l))
    (hs : 0.06 ≤ sin (rad ζ)) :
    ∃ z a, Reads (rows (XR.fin φ) (XR.fin l) timezone r) "Zenith" "°" z ∧
      Reads (rows (XR.fin φ) (XR.fin l) timezone r) "Azimuth (0° south)" "°" a ∧
      arccos ((dirVec (rad z) (rad a)).dot
          (sunVec (rad φ) (declination (century u)) (-(hourAngle (century u) + rad l))))
        ≤ rad (positionError alg "numexpr" + 0.0021 / sin (rad ζ) + 1e-4) := by
  obtain ⟨s, h4, ha, k1, k2, -, -⟩ := cli_float h hst hloc hu
  have hκ : placeFactor alg "numexpr" φ * sin (rad ζ) = sin (rad ζ) := by
    simp [placeFactor, latFactor]
  obtain ⟨z, a, g1, g2, g3⟩ := C64_position h4 (by simp) ha hφ hl hpole (by rw [hup]; simp only [sunVec, cos_neg]) (by rw [hκ]; exact hs)
  rw [hκ] at g3
  obtain ⟨-, -, -, -, r5, -, r7, -⟩ := row_lookup (XR.fin φ) (XR.fin l) timezone r
  have k1' : (r.zenith : XR) = XR.fin z := k1.trans g1
  have k2' : (r.azimuth : XR) = XR.fin a := k2.trans g2
  have r5' : (rows (XR.fin φ) (XR.fin l) timezone r).lookup "Zenith" = some (numText 4 (XR.fin z) ++ "°".toList) := by
    rw [← k1']; exact r5
  have r7' : (rows (XR.fin φ) (XR.fin l) timezone r).lookup "Azimuth (0° south)" = some (numText 4 (XR.fin a) ++ "°".toList) := by
    rw [← k2']; exact r7
  obtain ⟨z', z1, z2⟩ := reads_near r5'
  obtain ⟨a', a1, a2⟩ := reads_near r7'
  refine ⟨z', a', z1, a1, ?_⟩
  refine (angle_triangle (dirVec_sq _ _) (dirVec_sq (rad z) (rad a)) (sunVec_sq _ _ _)).trans ?_
  have q := angle_dir (rad z') (rad a') (rad z) (rad a)
  rw [← rad_sub, ← rad_sub, abs_rad, abs_rad] at q
  have q1 := rad_mono z2
  have q2 := rad_mono a2
  have e : rad (1e-4) = rad 5e-5 + rad 5e-5 := by rw [← rad_add]; norm_num
  rw [rad_add _ 1e-4, e]; linarith

/-- **C72** ... and the zenith printed with refraction is the apparent zenith angle to within the errors of C69 and half a unit of
the fourth decimal. -/
theorem C72_float_apparent {A : Arith} {env : Env (Rd A)} {time : String} {φ l ζ : ℝ} {alg : String}
    {timezone : String} {r : Report (Rd A)} (h : at' env time (Rd.fin φ) (Rd.fin l) alg true timezone = .ok r)
    {st : CliStamp} {tz : Tz} {u : Int} (hst : env.stamp time = .ok st) (hloc : env.tzLocalize timezone st.wall = .ok (tz, some u))
    (hu : |u| < 2 ^ 63) (hφ : -90 ≤ φ ∧ φ ≤ 90) (hl : -180 ≤ l ∧ l < 180)
    (hpole : alg = "nrel" → |φ| ≤ 90 - 1e-10)
    (hup : cos (rad ζ) = sin (rad φ) * sin (declination (century u))
      + cos (rad φ) * cos (declination (century u)) * cos (hourAngle (century u) + rad l))
    (hζ0 : 0 ≤ ζ) (hζ : ζ ≤ 90 - lowestElevation alg) (hs : 0.06 ≤ sin (rad ζ)) :
    ∃ z, Reads (rows (XR.fin φ) (XR.fin l) timezone r) "Zenith" "°" z ∧
      |z - (ζ - standardRefraction (90 - ζ))|
        ≤ positionError alg "numexpr" + refractionError alg + 0.0019 / sin (rad ζ) + 5e-5 := by
  obtain ⟨s, h4, ha, k1, k2, -, -⟩ := cli_float h hst hloc hu
  have hκ : placeFactor alg "numexpr" φ * sin (rad ζ) = sin (rad ζ) := by
    simp [placeFactor, latFactor]
  obtain ⟨z, a, z0, g1, -, -, -, g3⟩ := C69_accuracy h4 ha hφ hl hpole hup hζ0 hζ (by rw [hκ]; exact hs)
  rw [hκ] at g3
  obtain ⟨-, -, -, -, r5, -⟩ := row_lookup (XR.fin φ) (XR.fin l) timezone r
  have k1' : (r.zenith : XR) = XR.fin z := k1.trans g1
  have r5' : (rows (XR.fin φ) (XR.fin l) timezone r).lookup "Zenith" = some (numText 4 (XR.fin z) ++ "°".toList) := by
    rw [← k1']; exact r5
  obtain ⟨z', z1, z2⟩ := reads_near r5'
  exact ⟨z', z1, (abs_sub_le _ z _).trans (by linarith)⟩

theorem sunset_time' {F : Type} [Scalar F] (w : World F) (s : Sunpos F) {u : String} (hu : u = "utc" ∨ u = "local") :
    ∃ R S D, s.sunrise w u = .ok (.time R) ∧ s.sunset w u = .ok (.time S) ∧
      s.daylightLength w = .ok D ∧ ∀ e, S.get e = Sunpos.tadd (R.get e) (Scalar.toInt (Sunpos.hoursToNs (D.get e))) := by
  rcases hu with rfl | rfl <;> exact ⟨_, _, _, rfl, rfl, rfl, fun e => rfl⟩

/-- **C72** The default time zone, `UTC`: if the time zone object has no attribute `zone`, or is a pytz zone, and its offset from UTC is
zero, the local events that take the place of those in UTC are the same. -/
theorem C72_utc {F : Type} [Scalar F] {env : Env F} {time : String} {lat lon : F} {alg : String} {refr : Bool}
    {timezone : String} {r : Report F} (h : at' env time lat lon alg refr timezone = .ok r)
    {st : CliStamp} {tz : Tz} {u : Int} (hst : env.stamp time = .ok st) (hloc : env.tzLocalize timezone st.wall = .ok (tz, some u))
    (hoff : ∀ v, tz.off v = 0) (hname : ∀ n, tz.zone = .name n → LocalizeSound env.toWorld n tz.off) :
    r.sunriseLocal = r.sunriseUtc ∧ r.sunsetLocal = r.sunsetUtc := by
  obtain ⟨st', tz', utc, s, h1, -, h3, h4, e1, e2, e3, e4, -⟩ := calculate_ok (at_ok h)
  rw [hst] at h1; cases h1
  rw [hloc] at h3; cases h3
  have h4' : call .sites env.toWorld ⟨false, some tz, [some u]⟩ (.scalar lat) (.scalar lon) alg
    (if refr then .pyTrue else .pyFalse) "numexpr" = .ok s := h4
  have hutc : stampAt s.timesUtc (origin .time) = some u := by
    cases hz : tz.zone with
    | absent => rw [(C12_no_zone_attribute h4' rfl hz).1]; show some (u + tz.off u) = _; rw [hoff, add_zero]
    | pyNone => exact absurd h4' ((C12_fixed_offset rfl hz).1 s)
    | name n =>
      have := C12_pytz (k := 0) h4' rfl hz (fun _ => hoff) (hname n hz) rfl (by
        intro v hv; rw [hoff, hoff] at hv; simpa using hv)
      unfold stampAt; show (s.timesUtc[0]?).getD none = _
      rw [this]; rfl
  have htimes : stampAt s.times (origin .time) = some u := by
    obtain ⟨_, _, b, _, hacc, _, hr⟩ := call_inv h4'
    rw [hr.times_eq]; show some (u + tz.off u) = _; rw [hoff, add_zero]
  have hsr : r.sunriseLocal = r.sunriseUtc := by
    have : (s.sunriseLocal env.toWorld).get origin = Sunpos.tadd ((s.sunriseUtc env.toWorld).get origin)
      (Sunpos.tsub (stampAt s.times (origin .time)) (stampAt s.timesUtc (origin .time))) := rfl
    rw [this, e1, htimes, hutc] at e2
    simpa [Sunpos.tadd, Sunpos.tsub] using e2.symm
  refine ⟨hsr, ?_⟩
  obtain ⟨R1, S1, D1, hR1, hS1, hD1, hg1⟩ := sunset_time' env.toWorld s (u := "utc") (by decide)
  obtain ⟨R2, S2, D2, hR2, hS2, hD2, hg2⟩ := sunset_time' env.toWorld s (u := "local") (by decide)
  rw [hD1] at hD2; cases hD2
  obtain rfl : s.sunriseUtc env.toWorld = R1 := by
    have : s.sunrise env.toWorld "utc" = .ok (.time (s.sunriseUtc env.toWorld)) := rfl
    rw [this] at hR1; cases hR1; rfl
  obtain rfl : s.sunriseLocal env.toWorld = R2 := by
    have : s.sunrise env.toWorld "local" = .ok (.time (s.sunriseLocal env.toWorld)) := rfl
    rw [this] at hR2; cases hR2; rfl
  rw [hS1] at e3
  rw [hS2] at e4
  have f3 := Except.ok.inj e3
  have f4 := Except.ok.inj e4
  rw [hg1, e1] at f3
  rw [hg2, e2, hsr] at f4
  exact Option.some.inj (f4.symm.trans f3)

/-- **C72** In every arithmetic with the accuracy of double precision the command succeeds for every naive time in the range of
`datetime64[ns]` at latitudes from -60 to 60 degrees, if the time zone object has no attribute `zone` and pandas localises the time
in the requested zone. -/
theorem C72_float_returns {A : Arith} {env : Env (Rd A)} {time : String} {st : CliStamp} {tz : Tz} {u : Int} {φ l : ℝ}
    {alg : String} (refr : Bool) {timezone : String}
    (hst : env.stamp time = .ok st) (hnaive : st.aware = false)
    (hloc : env.tzLocalize timezone st.wall = .ok (tz, some u)) (hrange : |u| < 2 ^ 63) (hwall : |u + tz.off u| < 2 ^ 63)
    (hz : tz.zone = .absent)
    (hutc : ∀ w, ∃ r, env.tzLocalize "UTC" (some w) = .ok r)
    (hφ : |φ| ≤ 60) (hl : -180 ≤ l ∧ l ≤ 179.9999)
    (halg : alg ∈ ["psa", "soltrack", "iqbal", "nrel"]) :
    ∃ r, at' env time (Rd.fin φ) (Rd.fin l) alg refr timezone = .ok r := by
  have hk : KnownPair alg "numexpr" := by
    simp only [List.mem_cons, List.not_mem_nil, or_false] at halg
    rcases halg with rfl | rfl | rfl | rfl <;> simp [KnownPair]
  obtain ⟨b, hb⟩ := known_iff.1 hk
  obtain ⟨R, hR⟩ : ∃ R, R = (if refr then PyVal.pyTrue else PyVal.pyFalse) := ⟨_, rfl⟩
  obtain ⟨T, hT⟩ : ∃ T : Times, T = ⟨false, some tz, [some u]⟩ := ⟨_, rfl⟩
  have hφ' := abs_le.1 hφ
  have hlocalize : localizeTimes env.toWorld T = .ok T.wall := by
    rw [hT]; simp [localizeTimes, timezoneOf, hz]
  obtain ⟨q90, f90, g90⟩ := A.lit_spec 900 true 1 (by norm_num)
  obtain ⟨q180, f180, g180⟩ := A.lit_spec 1800 true 1 (by norm_num)
  have f90' : (90.0 : Rd A) = Rd.fin q90 := f90
  have f180' : (180.0 : Rd A) = Rd.fin q180 := f180
  have hq90 : 60 ≤ q90 := by
    have := (abs_le.1 g90).1
    rw [show (OfScientific.ofScientific 900 true 1 : ℝ) = 90 by norm_num] at this
    norm_num at this ⊢; linarith
  have hq180 : 179.9999 < q180 := by
    have := (abs_le.1 g180).1
    rw [show (OfScientific.ofScientific 1800 true 1 : ℝ) = 180 by norm_num] at this
    norm_num at this ⊢; linarith
  have le : ∀ x y : ℝ, Scalar.leB (Rd.fin x : Rd A) (Rd.fin y) = true ↔ x ≤ y := by
    intro x y
    show XR.cmp (· ≤ ·) (XR.fin x) (XR.fin y) = true ↔ _
    simp [XR.cmp]
  have lt : ∀ x y : ℝ, Scalar.ltB (Rd.fin x : Rd A) (Rd.fin y) = true ↔ x < y := by
    intro x y
    show XR.cmp (· < ·) (XR.fin x) (XR.fin y) = true ↔ _
    simp [XR.cmp]
  have e90 : (-90 : Rd A) = Rd.fin (-90) := rfl
  have e180 : (-180 : Rd A) = Rd.fin (-180) := rfl
  obtain ⟨s, hs, hres⟩ := call_ok (uc := .sites) (w := env.toWorld) R
    (⟨by rw [hT], rfl, rfl, lengths_iff.1 (by simp [Lengths]), hb,
      (by
        intro x hx _
        rw [List.mem_singleton.1 hx, e180, f180', le, lt]; exact ⟨hl.1, hl.2.trans_lt hq180⟩),
      (by
        intro x hx _
        rw [List.mem_singleton.1 hx, e90, f90', le, le]; exact ⟨by linarith, by linarith⟩)⟩ :
      Accepted .sites T (.scalar (Rd.fin φ)) (.scalar (Rd.fin l)) alg "numexpr" [Rd.fin φ] [Rd.fin l] b) hlocalize
  have htime : stampAt T.stamps (origin .time) = some u := by rw [hT]; rfl
  obtain ⟨-, d, x, -, -, -, hd, hx, -, -, -, -, bd, bx⟩ := float_time (e := origin) hs htime hrange
  have hlat : s.latitude.get origin = Rd.fin φ := by rw [hres.latitude]; rfl
  have hlon : s.longitude.get origin = Rd.fin l := by rw [hres.longitude]; rfl
  obtain ⟨hu, htzn⟩ := C12_no_zone_attribute hs (by rw [hT]) hz
  have hus : stampAt s.timesUtc (origin .time) = some (u + tz.off u) := by rw [hu, hT]; rfl
  have hts : stampAt s.times (origin .time) = some (u + tz.off u) := by rw [hres.times_eq, hT]; rfl
  have hlb : |l| ≤ 360 := by rw [abs_le]; have := hl.1; have := hl.2; norm_num at *; constructor <;> linarith
  obtain ⟨W, G, D, hW, -, -, hfin, hnan⟩ := C66_sunrise_angle env.toWorld s hlat (hφ.trans (by norm_num)) hd (bd.trans (by norm_num))
  obtain ⟨τ, hτ, -⟩ := C66_tst (e := origin) env.toWorld s hus hwall hx (bx.trans (by norm_num)) hlon hlb
  have hπ := pi_pos
  have hπ4 := pi_lt_d4
  have hω : ∃ ω : ℝ, W.get origin = Rd.fin ω := by
    rcases hTe : W.get origin with _ | ω
    · exfalso
      have key := (hnan hTe).1
      have e60 : rad 60 = π / 3 := by unfold rad; ring
      have q : √3 / 2 ≤ 0.87 := by rw [div_le_iff₀ (by norm_num), sqrt_le_left (by norm_num)]; norm_num
      have hr : |rad d| ≤ 0.4367 := by
        unfold rad
        refine (Nrel.abs_mul_le' bd (B := 0.017454) ?_).trans (by norm_num)
        rw [abs_of_pos (by positivity)]; norm_num at hπ4 ⊢; linarith
      have h1 : |sin (rad d)| ≤ 0.4367 := abs_sin_le_abs.trans hr
      have h2 : (rad d) ^ 2 ≤ 0.4367 ^ 2 := by rw [← sq_abs]; exact pow_le_pow_left₀ (abs_nonneg _) hr 2
      have h3 := one_sub_sq_div_two_le_cos (x := rad d)
      have hφ3 : |rad φ| ≤ π / 3 := by rw [abs_rad, ← e60]; exact rad_mono hφ
      have hc : 1 / 2 ≤ cos (rad φ) := by
        rw [← cos_abs, ← cos_pi_div_three]
        exact cos_le_cos_of_nonneg_of_le_pi (abs_nonneg _) (by linarith) hφ3
      have hsn : |sin (rad φ)| ≤ 0.87 := by
        refine le_trans ?_ q
        rw [← sin_pi_div_three]
        have h5 := abs_le.1 hφ3
        rw [abs_le]
        refine ⟨?_, sin_le_sin_of_le_of_le_pi_div_two (by linarith) (by linarith) h5.2⟩
        rw [← sin_neg]; exact sin_le_sin_of_le_of_le_pi_div_two (by linarith) (by linarith) h5.1
      have h4 := mul_le_mul hsn h1 (abs_nonneg _) (by norm_num)
      rw [abs_mul] at key
      have hcd : 0.9 ≤ cos (rad d) := by norm_num at h2 ⊢; linarith
      have h6 : 1 / 2 * 0.9 ≤ cos (rad φ) * cos (rad d) := mul_le_mul hc hcd (by norm_num) (by linarith)
      norm_num at h4 key h6; linarith
    · exact ⟨ω, rfl⟩
  obtain ⟨ω, hω⟩ := hω
  obtain ⟨ω0, ω1, -⟩ := hfin ω hω
  have hωb : |ω| ≤ 3.15 := by rw [abs_le]; norm_num at ω0 ω1 hπ4 ⊢; constructor <;> linarith
  obtain ⟨-, rU, -, sU, m, r', k, j, -, hrU, -, hsU, -, -, -, -, -, hr', -, -, hq', -⟩ :=
    C66_times env.toWorld s hW hω hωb hτ hx (bx.trans (by norm_num)) hlon hlb
  obtain ⟨R1, S1, D1, hR1, hS1, hD1, hg1⟩ := sunset_time' env.toWorld s (u := "utc") (by decide)
  obtain ⟨R2, S2, D2, hR2, hS2, hD2, hg2⟩ := sunset_time' env.toWorld s (u := "local") (by decide)
  rw [hD1] at hD2; cases hD2
  obtain rfl : R1 = rU := by rw [hR1] at hrU; cases hrU; rfl
  obtain rfl : S1 = sU := by rw [hS1] at hsU; cases hsU; rfl
  obtain rfl : s.sunriseUtc env.toWorld = R1 := by
    have : s.sunrise env.toWorld "utc" = .ok (.time (s.sunriseUtc env.toWorld)) := rfl
    rw [this] at hR1; cases hR1; rfl
  obtain rfl : s.sunriseLocal env.toWorld = R2 := by
    have : s.sunrise env.toWorld "local" = .ok (.time (s.sunriseLocal env.toWorld)) := rfl
    rw [this] at hR2; cases hR2; rfl
  obtain ⟨n2, hm⟩ : ∃ m, (s.sunriseLocal env.toWorld).get origin = some m := by
    have : (s.sunriseLocal env.toWorld).get origin = Sunpos.tadd ((s.sunriseUtc env.toWorld).get origin)
      (Sunpos.tsub (stampAt s.times (origin .time)) (stampAt s.timesUtc (origin .time))) := rfl
    rw [this, hr', hts, hus]; exact ⟨_, rfl⟩
  obtain ⟨n3, hm'⟩ : ∃ m', S2.get origin = some m' := by
    rw [hg1 origin, hr'] at hq'
    rw [hg2, hm]
    cases hc : Scalar.toInt (Sunpos.hoursToNs (D1.get origin)) with
    | none => rw [hc] at hq'; cases hq'
    | some v => exact ⟨_, rfl⟩
  have hp : ∀ k, printed env s.timezone (some k) = .ok k := by
    intro k
    obtain ⟨r, hr⟩ := hutc k
    rw [htzn]; unfold printed; simp only [hr]
  have hcalc : ∃ r, calculatePosition env time (Rd.fin φ) (Rd.fin l) alg R timezone = .ok r := by
    have hs' : sites env.toWorld ⟨false, some tz, [some u]⟩ (.scalar (Rd.fin φ)) (.scalar (Rd.fin l)) alg R
        "numexpr" = .ok s := by rw [← hT]; exact hs
    have hb : ∀ {α β : Type} (a : α) (f : α → Except PyErr β), (Except.ok a >>= f) = f a := fun _ _ => rfl
    have hnn : Scalar.isNan (Rd.fin x : Rd A) = false := rfl
    unfold calculatePosition
    simp only [hst, hb, hloc, hs', hR1, hS1, hR2, hS2, firstEvent, hr', hq', hm, hm', hx, hnaive, hp, hnn,
      Bool.false_eq_true, if_false]
    exact ⟨_, rfl⟩
  obtain ⟨r, hr⟩ := hcalc
  refine ⟨r, ?_⟩
  unfold at'
  rw [← hR, hr]

/-! ### the hypotheses are met -/

theorem exEnv_range {w : Option Int} {tz : Tz} {u : Int} {z : String} (h : exEnv.tzLocalize z w = .ok (tz, some u)) : |u| < 2 ^ 63 := by
  cases w with
  | none => cases h
  | some n =>
    have : u = if |n| < 2 ^ 63 then n else 0 := by cases h; rfl
    rw [this]; split_ifs with h
    · exact h
    · norm_num

/-- C72_time, C72_position, C72_utc: noon of 21 June 2024 UTC in Andalusia, every algorithm -/
example {alg : String} (halg : alg ∈ ["psa", "soltrack", "iqbal", "nrel"]) :
    ∃ r, at' exEnv "2024-06-21 12:00" (.fin 36.949) (.fin (-3.822)) alg false "UTC" = .ok r ∧
      (∃ z, Reads (rows (.fin 36.949) (.fin (-3.822)) "UTC" r) "Zenith" "°" z) ∧
      (rows (.fin 36.949) (.fin (-3.822)) "UTC" r).lookup "Sunrise(UTC)" = some (clockText r.sunriseUtc) := by
  obtain ⟨r, hr⟩ := C51_returns (env := exEnv) (time := "2024-06-21 12:00") (st := ⟨some 1718971200000000000, false⟩)
    (tz := ⟨.absent, fun _ => 0⟩) (u := 1718971200000000000) (φ := 36.949) (l := -3.822) (alg := alg) false
    (timezone := "UTC") (by unfold Env.stamp; rw [if_neg (by decide)]; rfl) rfl rfl (by norm_num) rfl (fun w => ⟨_, rfl⟩)
    (by rw [abs_of_pos (by norm_num)]; norm_num) (by norm_num) halg
  obtain ⟨-, -, -, z, -, -, -, -, hz, -⟩ := C72_position hr (fun w tz u => exEnv_range)
  refine ⟨r, hr, ⟨z, hz⟩, ?_⟩
  have h1 := C72_utc hr (st := ⟨some 1718971200000000000, false⟩) (tz := ⟨.absent, fun _ => 0⟩) (u := 1718971200000000000)
    (by unfold Env.stamp; rw [if_neg (by decide)]; rfl) rfl (fun _ => rfl) (fun n hn => by cases hn)
  rw [← h1.1]
  exact (C72_events _ _ "UTC" r).1

/-- C72_float_time, in the 53-bit arithmetic: the same day in Paris, under the name of a zone whose object has no attribute `zone` -/
example {alg : String} (halg : alg ∈ ["psa", "soltrack", "iqbal", "nrel"]) :
    ∃ (env : Env (Rd Arith.binary64)) (r : Report (Rd Arith.binary64)),
      at' env "2024-06-21 12:00" (Rd.fin 48.85) (Rd.fin 2.35) alg true "Europe/Paris" = .ok r ∧
      ∃ y, Reads (rows (XR.fin 48.85) (XR.fin 2.35) "Europe/Paris" r) "Declination" "°" y ∧
        |rad y - declination (century 1718964000000000000)| ≤ rad (decError alg + 4e-8 + 5e-5) := by
  obtain ⟨env, henv⟩ : ∃ env : Env (Rd Arith.binary64), env =
    { (⟨fun _ l => .ok l, 0⟩ : World (Rd Arith.binary64)) with
      now := 0
      toDatetime := fun _ => .ok ⟨some 1718971200000000000, false⟩
      tzLocalize := fun _ w => .ok (⟨.absent, fun _ => 7200000000000⟩, w.map (· - 7200000000000)) } := ⟨_, rfl⟩
  have hst : env.stamp "2024-06-21 12:00" = .ok ⟨some 1718971200000000000, false⟩ := by
    unfold Env.stamp; rw [if_neg (by decide), henv]
  have hloc : env.tzLocalize "Europe/Paris" (some 1718971200000000000)
      = .ok (⟨.absent, fun _ => 7200000000000⟩, some 1718964000000000000) := by rw [henv]; rfl
  obtain ⟨r, hr⟩ := C72_float_returns (env := env) (φ := 48.85) (l := 2.35) (alg := alg) true
    hst rfl hloc (by norm_num) (by norm_num) rfl (fun w => ⟨_, by rw [henv]⟩)
    (by rw [abs_of_pos (by norm_num)]; norm_num) (by norm_num) halg
  exact ⟨env, r, hr, (C72_float_time hr hst hloc (by norm_num)).1⟩

end SW.Props
