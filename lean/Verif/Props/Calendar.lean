/-
The calendar used by iqbal is the proleptic Gregorian calendar (C36).
-/
import Verif.Props.Exact
import Verif.RTime
import Mathlib.Tactic.Ring
import Mathlib.Tactic.IntervalCases

namespace SW.Props
open SW.Cal SW SW.Spec Real

/-! ### specification -/

/-- a civil date -/
structure CivilDate where
  year : Int
  month : Int
  day : Int
  deriving DecidableEq

/-- every fourth year is a leap year, except the centuries not divisible by 400 -/
def IsLeapYear (y : Int) : Prop := 4 ∣ y ∧ (100 ∣ y → 400 ∣ y)

instance (y : Int) : Decidable (IsLeapYear y) := by unfold IsLeapYear; infer_instance

/-- length of a month -/
def monthLength (y m : Int) : Int :=
  if m = 2 then (if IsLeapYear y then 29 else 28)
  else if m = 4 ∨ m = 6 ∨ m = 9 ∨ m = 11 then 30
  else 31

/-- a date that exists -/
def CivilDate.Valid (c : CivilDate) : Prop :=
  1 ≤ c.month ∧ c.month ≤ 12 ∧ 1 ≤ c.day ∧ c.day ≤ monthLength c.year c.month

/-- the day after -/
def CivilDate.tomorrow (c : CivilDate) : CivilDate :=
  if c.day < monthLength c.year c.month then ⟨c.year, c.month, c.day + 1⟩
  else if c.month < 12 then ⟨c.year, c.month + 1, 1⟩
  else ⟨c.year + 1, 1, 1⟩

/-- The Gregorian calendar: day 0 is 1 January 1970, and every day is followed by the next one. -/
structure IsGregorian (date : Int → CivilDate) : Prop where
  epoch : date 0 = ⟨1970, 1, 1⟩
  step : ∀ n, date (n + 1) = (date n).tomorrow
  valid : ∀ n, (date n).Valid

/-! ### years -/

/-- number of the first day of a year -/
def yearStart (y : Int) : Int := 365 * (y - 1970) + (y - 1) / 4 - (y - 1) / 100 + (y - 1) / 400 - 477

/-- length of a year -/
def yearLength (y : Int) : Int := if isLeap y then 366 else 365

theorem isLeap_iff (y : Int) : isLeap y = true ↔ y % 4 = 0 ∧ (y % 100 ≠ 0 ∨ y % 400 = 0) := by
  simp [isLeap]

theorem isLeap_spec (y : Int) : isLeap y = true ↔ IsLeapYear y := by
  rw [isLeap_iff, IsLeapYear]; omega

theorem yearStart_succ (y : Int) : yearStart (y + 1) = yearStart y + yearLength y := by
  unfold yearStart yearLength
  split_ifs with h
  · rw [isLeap_iff] at h; omega
  · rw [isLeap_iff] at h; omega

theorem yearStart_mono {y y' : Int} (h : y ≤ y') : yearStart y ≤ yearStart y' := by
  unfold yearStart; omega

theorem yearStart_unique {y y' k k' : Int} (h : yearStart y + k = yearStart y' + k')
    (hk : 0 ≤ k ∧ k < yearLength y) (hk' : 0 ≤ k' ∧ k' < yearLength y') : y = y' ∧ k = k' := by
  have hy : y = y' := by
    rcases lt_trichotomy y y' with h1 | h1 | h1
    · have := yearStart_mono (show y + 1 ≤ y' from h1)
      rw [yearStart_succ] at this; omega
    · exact h1
    · have := yearStart_mono (show y' + 1 ≤ y from h1)
      rw [yearStart_succ] at this; omega
  subst hy
  exact ⟨rfl, by omega⟩

theorem yearsDays_spec (d : Int) : d = yearStart (yearsDays d).1 + (yearsDays d).2 ∧
    0 ≤ (yearsDays d).2 ∧ (yearsDays d).2 < yearLength (yearsDays d).1 := by
  unfold yearsDays
  simp only
  obtain ⟨q, hq⟩ : ∃ q, q = (d - (365 * 30 + 7)) / 146097 := ⟨_, rfl⟩
  obtain ⟨r, hr⟩ : ∃ r, r = (d - (365 * 30 + 7)) % 146097 := ⟨_, rfl⟩
  rw [← hq, ← hr]
  have hd : d = 10957 + 146097 * q + r := by omega
  have hr0 : 0 ≤ r ∧ r < 146097 := by omega
  clear hq hr
  have leap : ∀ y : Int, yearLength y = if (y % 4 = 0 ∧ (y % 100 ≠ 0 ∨ y % 400 = 0)) then 366 else 365 := by
    intro y; unfold yearLength; simp only [isLeap_iff]
  unfold ydStep1
  split_ifs with h1
  · unfold ydStep2
    obtain ⟨a, ha⟩ : ∃ a, a = (r - 1) / 36524 := ⟨_, rfl⟩
    obtain ⟨b, hb⟩ : ∃ b, b = (r - 1) % 36524 := ⟨_, rfl⟩
    rw [← ha, ← hb]
    have hrr : r = 1 + 36524 * a + b := by omega
    have hb0 : 0 ≤ b ∧ b < 36524 := by omega
    have ha0 : 0 ≤ a ∧ a ≤ 3 := by omega
    clear ha hb
    subst hrr
    split_ifs with h2
    · unfold ydStep3
      obtain ⟨c, hc⟩ : ∃ c, c = (b + 1) / 1461 := ⟨_, rfl⟩
      obtain ⟨e, he⟩ : ∃ e, e = (b + 1) % 1461 := ⟨_, rfl⟩
      rw [← hc, ← he]
      have hbb : b = 1461 * c + e - 1 := by omega
      have he0 : 0 ≤ e ∧ e < 1461 := by omega
      have hc0 : 0 ≤ c ∧ c ≤ 24 := by omega
      clear hc he
      subst hbb
      split_ifs with h3
      · obtain ⟨f, hf⟩ : ∃ f, f = (e - 1) / 365 := ⟨_, rfl⟩
        obtain ⟨g, hg⟩ : ∃ g, g = (e - 1) % 365 := ⟨_, rfl⟩
        rw [← hf, ← hg]
        have hee : e = 1 + 365 * f + g := by omega
        have hg0 : 0 ≤ g ∧ g < 365 := by omega
        have hf0 : 1 ≤ f ∧ f ≤ 3 := by omega
        clear hf hg
        subst hee
        rw [leap]
        unfold yearStart
        refine ⟨?_, hg0.1, ?_⟩
        · simp only
          have e1 : (400 * q + 100 * a + 4 * c + f + 2000 - 1) / 4 = 100 * q + 25 * a + c + 500 := by omega
          have e2 : (400 * q + 100 * a + 4 * c + f + 2000 - 1) / 100 = 4 * q + a + 20 := by omega
          have e3 : (400 * q + 100 * a + 4 * c + f + 2000 - 1) / 400 = q + 5 := by omega
          rw [e1, e2, e3]; omega
        · simp only; split_ifs <;> omega
      · rw [leap]
        unfold yearStart
        refine ⟨?_, he0.1, ?_⟩
        · simp only
          have hc1 : 1 ≤ c := by omega
          have e1 : (400 * q + 100 * a + 4 * c + 2000 - 1) / 4 = 100 * q + 25 * a + c + 499 := by omega
          have e2 : (400 * q + 100 * a + 4 * c + 2000 - 1) / 100 = 4 * q + a + 20 := by omega
          have e3 : (400 * q + 100 * a + 4 * c + 2000 - 1) / 400 = q + 5 := by omega
          rw [e1, e2, e3]; omega
        · simp only; split_ifs <;> omega
    · rw [leap]
      unfold yearStart
      refine ⟨?_, hb0.1, ?_⟩
      · simp only; omega
      · simp only; split_ifs <;> omega
  · rw [leap]
    unfold yearStart
    refine ⟨?_, hr0.1, ?_⟩
    · simp only; omega
    · simp only; split_ifs <;> omega

/-- the next day is the next day of the year, or the first of the next year -/
theorem yearsDays_succ (d : Int) : yearsDays (d + 1) =
    if (yearsDays d).2 + 1 < yearLength (yearsDays d).1 then ((yearsDays d).1, (yearsDays d).2 + 1)
    else ((yearsDays d).1 + 1, 0) := by
  obtain ⟨h1, h2, h3⟩ := yearsDays_spec d
  obtain ⟨h4, h5, h6⟩ := yearsDays_spec (d + 1)
  split_ifs with h
  · obtain ⟨a, b⟩ := yearStart_unique (y := (yearsDays (d + 1)).1) (k := (yearsDays (d + 1)).2)
      (y' := (yearsDays d).1) (k' := (yearsDays d).2 + 1) (by omega) ⟨h5, h6⟩ ⟨by omega, h⟩
    exact Prod.ext a b
  · have hl : 0 < yearLength ((yearsDays d).1 + 1) := by unfold yearLength; split_ifs <;> omega
    obtain ⟨a, b⟩ := yearStart_unique (y := (yearsDays (d + 1)).1) (k := (yearsDays (d + 1)).2)
      (y' := (yearsDays d).1 + 1) (k' := 0) (by rw [yearStart_succ]; omega) ⟨h5, h6⟩ ⟨le_rfl, hl⟩
    exact Prod.ext a b

/-! ### months -/

theorem tdiv_nonneg' {a b : Int} (h : 0 ≤ a) : Int.tdiv a b = a / b := Int.tdiv_eq_ediv_of_nonneg h
theorem tdiv_neg' {a b : Int} (h : a ≤ 0) : Int.tdiv a b = -((-a) / b) := by
  rw [← Int.tdiv_eq_ediv_of_nonneg (show 0 ≤ -a by omega), Int.neg_tdiv, neg_neg]

theorem daysOf_eq (y m : Int) :
    daysOf y m = yearStart y + ((monthLengths (isLeap y)).take (m - 1).toNat).sum := by
  unfold daysOf yearStart
  simp only
  congr 1
  split_ifs with h
  · rw [tdiv_nonneg' (by omega), tdiv_nonneg' (by omega), tdiv_nonneg' (by omega)]
    omega
  · rw [tdiv_neg' (by omega), tdiv_neg' (by omega), tdiv_neg' (by omega)]
    omega

/-- month and day of the month, from the day of the year -/
def monthDay (leap : Bool) (k : Int) : Int × Int :=
  (monthLoop (monthLengths leap) 1 k,
    k - ((monthLengths leap).take (monthLoop (monthLengths leap) 1 k - 1).toNat).sum + 1)

/-- the date of a day as the code has it: year, month and day computed as in `py_iqbal.py:108-113` -/
def codeDate (n : Int) : CivilDate :=
  ⟨yearOf n, monthOf n, n - daysOf (yearOf n) (monthOf n) + 1⟩

theorem codeDate_eq (n : Int) : codeDate n =
    ⟨(yearsDays n).1, (monthDay (isLeap (yearsDays n).1) (yearsDays n).2).1,
      (monthDay (isLeap (yearsDays n).1) (yearsDays n).2).2⟩ := by
  obtain ⟨h1, -, -⟩ := yearsDays_spec n
  unfold codeDate
  rw [daysOf_eq]
  unfold monthDay monthOf yearOf
  simp only [CivilDate.mk.injEq, true_and]
  omega

/-- length of a month from the leap flag -/
def mlen (leap : Bool) (m : Int) : Int :=
  if m = 2 then (if leap then 29 else 28)
  else if m = 4 ∨ m = 6 ∨ m = 9 ∨ m = 11 then 30
  else 31

theorem mlen_eq (y m : Int) : mlen (isLeap y) m = monthLength y m := by
  unfold mlen monthLength
  simp only [isLeap_spec]

theorem monthLoop_spec (ls : List Int) (m d : Int) (h0 : 0 ≤ d) (h1 : d < ls.sum) :
    ∃ i : Nat, i < ls.length ∧ monthLoop ls m d = m + i ∧ (ls.take i).sum ≤ d ∧ d < (ls.take (i + 1)).sum := by
  induction ls generalizing m d with
  | nil => simp at h1; omega
  | cons l ls ih =>
    unfold monthLoop
    split_ifs with h
    · exact ⟨0, by simp, by simp, by simpa using h0, by simpa using h⟩
    · obtain ⟨i, hi, h2, h3, h4⟩ := ih (m + 1) (d - l) (by omega) (by rw [List.sum_cons] at h1; omega)
      refine ⟨i + 1, by simpa using hi, by rw [h2]; push_cast; ring, ?_, ?_⟩
      · rw [List.take_succ_cons, List.sum_cons]; omega
      · rw [List.take_succ_cons, List.sum_cons]; omega

/-- the month and the day of the month of every day of a year -/
theorem monthDay_cases (leap : Bool) {k : Int} (h0 : 0 ≤ k) (h1 : k < if leap then 366 else 365) :
    ∃ i : Nat, ∃ m d : Int, i < 12 ∧ m = 1 + i ∧ monthDay leap k = (m, d) ∧ 1 ≤ d ∧ d ≤ mlen leap m ∧
      k + 1 = d + ((monthLengths leap).take i).sum := by
  have hs : (monthLengths leap).sum = if leap then 366 else 365 := by cases leap <;> rfl
  obtain ⟨i, hi, h2, h3, h4⟩ := monthLoop_spec (monthLengths leap) 1 k h0 (by rw [hs]; exact h1)
  have hi : i < 12 := by cases leap <;> simpa [monthLengths] using hi
  have hl : ((monthLengths leap).take (i + 1)).sum = ((monthLengths leap).take i).sum + mlen leap (1 + i) := by
    clear h0 h1 hs h2 h3 h4
    cases leap <;> interval_cases i <;> rfl
  have ht : (1 + (i : Int) - 1).toNat = i := by omega
  refine ⟨i, 1 + i, k - ((monthLengths leap).take i).sum + 1, hi, rfl, ?_, by omega, by omega, by omega⟩
  unfold monthDay; rw [h2, ht]

/-- days of the year before the month with index `i` (zero-based) -/
def before (leap : Bool) (i : Nat) : Int := ((monthLengths leap).take i).sum

theorem before_succ (leap : Bool) {i : Nat} (hi : i < 12) :
    before leap (i + 1) = before leap i + mlen leap (1 + i) := by
  unfold before
  cases leap <;> interval_cases i <;> rfl

theorem mlen_ge (leap : Bool) (m : Int) : 28 ≤ mlen leap m := by
  unfold mlen; split_ifs <;> omega

theorem before_mono (leap : Bool) {i j : Nat} (h : i ≤ j) (hj : j ≤ 12) : before leap i ≤ before leap j := by
  induction j, h using Nat.le_induction with
  | base => exact le_rfl
  | succ n _ ih =>
    have h1 := before_succ leap (show n < 12 by omega)
    have h2 := mlen_ge leap (1 + n)
    have h3 := ih (by omega)
    omega

theorem before_12 (leap : Bool) : before leap 12 = if leap then 366 else 365 := by
  cases leap <;> rfl

theorem before_0 (leap : Bool) : before leap 0 = 0 := rfl

/-- the day `d` of the month `i` is found from its day number -/
theorem monthDay_of (leap : Bool) {k : Int} {i : Nat} {d : Int} (hi : i < 12)
    (hd : 1 ≤ d ∧ d ≤ mlen leap (1 + i)) (h : k + 1 = d + before leap i) :
    monthDay leap k = (1 + (i : Int), d) := by
  have b1 := before_succ leap hi
  have b0 := before_mono leap (Nat.zero_le i) (by omega)
  have b2 := before_mono leap (show i + 1 ≤ 12 by omega) le_rfl
  rw [before_0] at b0
  rw [before_12] at b2
  obtain ⟨j, m, e, hj, rfl, hm, he1, he2, he3⟩ := monthDay_cases leap (k := k) (by omega) (by omega)
  change k + 1 = e + before leap j at he3
  have c1 := before_succ leap hj
  have hij : i = j := by
    rcases lt_trichotomy i j with h1 | h1 | h1
    · have := before_mono leap (show i + 1 ≤ j from h1) (by omega); omega
    · exact h1
    · have := before_mono leap (show j + 1 ≤ i from h1) (by omega); omega
  subst hij
  rw [hm, show e = d by omega]

theorem yearLength_eq (y : Int) : yearLength y = if isLeap y then 366 else 365 := rfl

/-! ### theorems -/

/-- **C36** The date computed from a day number is the proleptic Gregorian date of that day. -/
theorem C36_gregorian : IsGregorian codeDate where
  epoch := by rfl
  step := by
    intro n
    obtain ⟨h1, h2, h3⟩ := yearsDays_spec n
    rw [codeDate_eq n, codeDate_eq (n + 1), yearsDays_succ]
    obtain ⟨y, hy⟩ : ∃ y, y = (yearsDays n).1 := ⟨_, rfl⟩
    obtain ⟨k, hk⟩ : ∃ k, k = (yearsDays n).2 := ⟨_, rfl⟩
    rw [← hk] at h2 h3
    rw [← hy] at h3
    rw [← hy, ← hk]
    rw [yearLength_eq] at h3
    obtain ⟨i, m, d, hi, rfl, hm, hd1, hd2, hd3⟩ := monthDay_cases (isLeap y) h2 h3
    change k + 1 = d + before (isLeap y) i at hd3
    rw [hm]
    unfold CivilDate.tomorrow
    simp only [← mlen_eq]
    have b1 := before_succ (isLeap y) hi
    have b2 := before_mono (isLeap y) (show i + 1 ≤ 12 by omega) le_rfl
    have b12 := before_12 (isLeap y)
    by_cases c1 : d < mlen (isLeap y) (1 + i)
    · rw [if_pos c1, if_pos (by rw [yearLength_eq]; omega)]
      simp only [monthDay_of (isLeap y) hi (d := d + 1) (k := k + 1) ⟨by omega, by omega⟩ (by omega)]
    · rw [if_neg c1]
      by_cases c2 : (1 + (i : Int)) < 12
      · have b3 := before_succ (isLeap y) (show i + 1 < 12 by omega)
        have b4 := before_mono (isLeap y) (show i + 1 + 1 ≤ 12 by omega) le_rfl
        have b5 := mlen_ge (isLeap y) (1 + ((i + 1 : Nat) : Int))
        rw [if_pos c2, if_pos (by rw [yearLength_eq]; omega)]
        simp only [monthDay_of (isLeap y) (i := i + 1) (show i + 1 < 12 by omega) (d := 1) (k := k + 1)
          ⟨by omega, by omega⟩ (by omega)]
        simp only [CivilDate.mk.injEq, true_and, and_true]
        push_cast; ring
      · have : i = 11 := by omega
        subst this
        rw [show (11 + 1 : Nat) = 12 from rfl] at b1
        rw [if_neg c2, if_neg (by rw [yearLength_eq]; omega)]
        have b5 := mlen_ge (isLeap (y + 1)) (1 + ((0 : Nat) : Int))
        rw [monthDay_of (isLeap (y + 1)) (i := 0) (by omega) (d := 1) (k := 0)
          ⟨by omega, by omega⟩ (by rw [before_0]; rfl)]
        simp
  valid := by
    intro n
    obtain ⟨h1, h2, h3⟩ := yearsDays_spec n
    rw [codeDate_eq n]
    rw [yearLength_eq] at h3
    obtain ⟨i, m, d, hi, rfl, hm, hd1, hd2, hd3⟩ := monthDay_cases (isLeap (yearsDays n).1) h2 h3
    rw [hm]
    unfold CivilDate.Valid
    simp only [← mlen_eq]
    omega

/-- there is only one such calendar, so `IsGregorian` determines the date of every day -/
theorem IsGregorian.unique {f g : Int → CivilDate} (hf : IsGregorian f) (hg : IsGregorian g) : f = g := by
  have inj : ∀ c c' : CivilDate, c.Valid → c'.Valid → c.tomorrow = c'.tomorrow → c = c' := by
    rintro ⟨y, m, d⟩ ⟨y', m', d'⟩ ⟨h1, h2, h3, h4⟩ ⟨h1', h2', h3', h4'⟩ h
    simp only at h1 h2 h3 h4 h1' h2' h3' h4'
    unfold CivilDate.tomorrow at h
    simp only at h
    split_ifs at h <;> simp only [CivilDate.mk.injEq] at h ⊢
    all_goals try omega
    · obtain ⟨a, b, -⟩ := h
      have b : m = m' := by omega
      subst a b
      exact ⟨rfl, rfl, by omega⟩
    · obtain ⟨a, -⟩ := h
      have a : y = y' := by omega
      have b : m = m' := by omega
      subst a b
      exact ⟨rfl, rfl, by omega⟩
  funext n
  induction n using Int.induction_on with
  | zero => rw [hf.epoch, hg.epoch]
  | succ n ih => rw [hf.step, hg.step, ih]
  | pred n ih =>
    have h1 := hf.step (-(n : Int) - 1)
    have h2 := hg.step (-(n : Int) - 1)
    rw [sub_add_cancel] at h1 h2
    exact inj _ _ (hf.valid _) (hg.valid _) (by rw [← h1, ← h2, ih])

/-- **C36** iqbal's year, month and day of an instant of `t` seconds are those of the Gregorian date
of its UTC day, its hour, minute and second are the time of that day. -/
theorem C36_civil {date : Int → CivilDate} (g : IsGregorian date) (t : Int) :
    ∃ n h m s : Int, t = 86400 * n + 3600 * h + 60 * m + s ∧
      (0 ≤ h ∧ h < 24) ∧ (0 ≤ m ∧ m < 60) ∧ (0 ≤ s ∧ s < 60) ∧
      (⟨Iqbal.year t, Iqbal.month t, Iqbal.day t⟩ : CivilDate) = date n ∧
      Iqbal.hour t = h ∧ Iqbal.minute t = m ∧ Iqbal.second t = s := by
  rw [g.unique C36_gregorian]
  refine ⟨t / 86400, Iqbal.hour t, Iqbal.minute t, Iqbal.second t, ?_, ?_, ?_, ?_, ?_, rfl, rfl, rfl⟩
  · unfold Iqbal.hour Iqbal.minute Iqbal.second; omega
  · unfold Iqbal.hour; omega
  · unfold Iqbal.minute; omega
  · unfold Iqbal.second; omega
  · unfold codeDate Iqbal.year Iqbal.month Iqbal.day Iqbal.dayNo
    simp only [CivilDate.mk.injEq, true_and, and_true]
    omega

theorem bisextile_eq (y : Int) : Iqbal.bisextile y = isLeap y := by
  rw [Bool.eq_iff_iff, isLeap_iff]
  simp [Iqbal.bisextile]; omega

theorem firstDay_eq (leap : Bool) {i : Nat} (hi : i < 12) :
    before leap i = Iqbal.firstDayOfMonth.getD i 0 + if leap && decide (2 < 1 + (i : Int)) then 1 else 0 := by
  cases leap <;> interval_cases i <;> rfl

theorem codeDate_jan1 (y : Int) : codeDate (yearStart y) = ⟨y, 1, 1⟩ := by
  obtain ⟨h1, h2, h3⟩ := yearsDays_spec (yearStart y)
  have hl : 0 < yearLength y := by unfold yearLength; split_ifs <;> omega
  obtain ⟨a, b⟩ := yearStart_unique (y := y) (k := 0) (by rw [add_zero]; exact h1) ⟨le_rfl, hl⟩ ⟨h2, h3⟩
  rw [codeDate_eq, ← a, ← b]
  have b5 := mlen_ge (isLeap y) (1 + ((0 : Nat) : Int))
  rw [monthDay_of (isLeap y) (i := 0) (by omega) (d := 1) (k := 0) ⟨by omega, by omega⟩ (by rw [before_0]; rfl)]
  simp

theorem doy_eq (t : Int) : Iqbal.doy t = t / 86400 - yearStart (Iqbal.year t) + 1 := by
  obtain ⟨h1, h2, h3⟩ := yearsDays_spec (t / 86400)
  have hc := codeDate_eq (t / 86400)
  rw [yearLength_eq] at h3
  obtain ⟨i, m, d, hi, rfl, hm, hd1, hd2, hd3⟩ := monthDay_cases (isLeap (yearsDays (t / 86400)).1) h2 h3
  change _ = d + before _ i at hd3
  rw [hm] at hc
  have hy : Iqbal.year t = (yearsDays (t / 86400)).1 := rfl
  have hmo : Iqbal.month t = 1 + i := by
    have := congrArg CivilDate.month hc
    simp only [codeDate] at this
    unfold Iqbal.month Iqbal.dayNo
    simp only; omega
  have hda : Iqbal.day t = d := by
    have := congrArg CivilDate.day hc
    exact this
  unfold Iqbal.doy
  simp only
  rw [bisextile_eq, hmo, hda, hy, show (1 + (i : Int) - 1).toNat = i by omega]
  rw [firstDay_eq _ hi] at hd3
  split_ifs at hd3 ⊢ <;> omega

/-- **C36** The day of the year is one more than the number of days since the day whose date is
1 January of the year. -/
theorem C36_doy {date : Int → CivilDate} (g : IsGregorian date) (t j : Int)
    (hj : date j = ⟨Iqbal.year t, 1, 1⟩) : Iqbal.doy t = t / 86400 - j + 1 := by
  rw [g.unique C36_gregorian] at hj
  rw [doy_eq]
  have hd := congrArg CivilDate.year hj
  have hj' := hj
  rw [codeDate_eq] at hj
  have h1 := congrArg CivilDate.year hj
  have h2 := congrArg CivilDate.month hj
  have h3 := congrArg CivilDate.day hj
  simp only at h1 h2 h3
  obtain ⟨e1, e2, e3⟩ := yearsDays_spec j
  rw [yearLength_eq] at e3
  obtain ⟨i, m, d, hi, rfl, hm, hd1, hd2, hd3⟩ := monthDay_cases (isLeap (yearsDays j).1) e2 e3
  rw [hm] at h2 h3
  simp only at h2 h3
  have : i = 0 := by omega
  subst this
  simp at hd3
  rw [h1] at e1
  omega

/-- 1 January exists in every year, so `C36_doy` applies to every instant -/
theorem C36_doy_exists {date : Int → CivilDate} (g : IsGregorian date) (t : Int) :
    ∃ j, date j = ⟨Iqbal.year t, 1, 1⟩ :=
  ⟨_, by rw [g.unique C36_gregorian]; exact codeDate_jan1 _⟩

/-- the day of the year, fraction included, of the instant `t` (seconds since 1970), in a calendar
where day `j` is 1 January of the year of day `t / 86400` -/
noncomputable def fractionalDay (t j : Int) : ℝ := ((t - 86400 * j : Int) : ℝ) / 86400 + 1

/-- **C36** What the calendar is used for: the variables along time that any call with iqbal returns
at an instant of `t` nanoseconds are Iqbal's series in the day angle `2π (day of the year)/365`, where
the day of the year counts from midnight, 1 January (UTC, Gregorian calendar) of the year of the
instant, starting with one, fraction of the day included; sub-second parts are dropped. -/
theorem C36_series {date : Int → CivilDate} (g : IsGregorian date)
    {uc : UseCase} {w : World XR} {times : Times} {latitude longitude : Coord XR}
    {eng : String} {refr : PyVal} {s : Sunpos XR} {e : Dim → Nat} {t j : Int}
    (h : call uc w times latitude longitude "iqbal" refr eng = .ok s)
    (hk : stampAt times.stamps (e .time) = some t) (hrange : |t| < 2 ^ 63)
    (hj : date j = ⟨(date (t / 1000000000 / 86400)).year, 1, 1⟩) :
    let Γ := 2 * π * fractionalDay (t / 1000000000) j / 365
    s.ecf.get e = .fin (1.00012825 + 0.0333572253 * cos Γ + 0.00199417932 * sin Γ
      + 0.000697434604 * cos (2 * Γ) + 0.000114828177 * sin (2 * Γ)
      + 0.0000174028675 * cos (3 * Γ) + 0.0000113778023 * sin (3 * Γ)) ∧
    s.eot.get e = .fin (0.00986571 + 0.58688718 * cos Γ - 7.34538133 * sin Γ
      - 3.31493999 * cos (2 * Γ) - 9.35366541 * sin (2 * Γ)
      - 0.08151750 * cos (3 * Γ) - 0.30892409 * sin (3 * Γ)
      - 0.13532889 * cos (4 * Γ) - 0.17336220 * sin (4 * Γ)) ∧
    s.decDeg.get e = .fin ((0.006918 - 0.399912 * cos Γ + 0.070257 * sin Γ
      - 0.006758 * cos (2 * Γ) + 0.000907 * sin (2 * Γ)
      - 0.002697 * cos (3 * Γ) + 0.001480 * sin (3 * Γ)) * (180 / π)) := by
  intro Γ
  obtain ⟨ht, o, h1, h2, h3, hc⟩ := time_cases h hk hrange
  simp only [String.reduceEq, false_and, false_or, or_false, true_and] at hc
  subst hc
  have hts : toSec t = t / 1000000000 := rfl
  rw [hts] at h1 h2 h3
  obtain ⟨T, hT⟩ : ∃ T, T = t / 1000000000 := ⟨_, rfl⟩
  rw [← hT] at h1 h2 h3 hj
  have hyear : (date (T / 86400)).year = Iqbal.year T := by
    rw [g.unique C36_gregorian]; rfl
  rw [hyear] at hj
  have hd := C36_doy g T j hj
  have hΓ : (Iqbal.dayAngle T : ℝ) = Γ := by
    have e1 : (Iqbal.dayAngle T : ℝ) = TWOPI * ((Iqbal.doy T : ℝ) + (Iqbal.stdTime T / 24.0)) / 365.0 := rfl
    rw [e1, TWOPI_real, hd, Iqbal.stdTime_eq]
    have e2 : Γ = 2 * π * fractionalDay T j / 365 := by rw [hT]
    rw [e2]
    unfold fractionalDay
    have : (T : ℝ) = 86400 * ((T / 86400 : ℤ) : ℝ) + ((T % 86400 : ℤ) : ℝ) := by
      exact_mod_cast (Int.mul_ediv_add_emod T 86400).symm
    push_cast
    generalize ((T / 86400 : ℤ) : ℝ) = q at *
    generalize ((T % 86400 : ℤ) : ℝ) = r at *
    rw [this]; norm_num; ring
  have k1 : (iqbOut T 0 0 false : Out ℝ).ecf = Iqbal.ecf (Iqbal.dayAngle T : ℝ) := rfl
  have k2 : (iqbOut T 0 0 false : Out ℝ).eot = Iqbal.eotHours (Iqbal.dayAngle T : ℝ) * 60 := rfl
  have k3 : (iqbOut T 0 0 false : Out ℝ).declination = Iqbal.decl (Iqbal.dayAngle T : ℝ) := rfl
  have h1' : s.ecf.get e = .fin (iqbOut T 0 0 false : Out ℝ).ecf := h1
  have h2' : s.eot.get e = .fin (iqbOut T 0 0 false : Out ℝ).eot := h2
  have h3' : s.declination.get e = .fin (iqbOut T 0 0 false : Out ℝ).declination := h3
  rw [k1, hΓ] at h1'
  rw [k2, hΓ] at h2'
  rw [k3, hΓ] at h3'
  refine ⟨h1'.trans (congrArg XR.fin ?_), h2'.trans (congrArg XR.fin ?_),
    (decDeg_fin h3').trans (congrArg XR.fin ?_)⟩
  · have : Iqbal.ecf Γ = 1.00012825e+00 + 3.33572253e-02 * cos Γ + 1.99417932e-03 * sin Γ
      + 6.97434604e-04 * cos (2 * Γ) + 1.14828177e-04 * sin (2 * Γ)
      + 1.74028675e-05 * cos (3 * Γ) + 1.13778023e-05 * sin (3 * Γ) := rfl
    rw [this]
  · have : Iqbal.eotHours Γ = (0.00986571 + 0.58688718 * cos Γ - 7.34538133 * sin Γ
      - 3.31493999 * cos (2 * Γ) - 9.35366541 * sin (2 * Γ)
      - 0.08151750 * cos (3 * Γ) - 0.30892409 * sin (3 * Γ)
      - 0.13532889 * cos (4 * Γ) - 0.17336220 * sin (4 * Γ)) / 60.0 := rfl
    rw [this, show (60.0 : ℝ) = 60 by norm_num, div_mul_cancel₀ _ (by norm_num)]
  · rfl

/-- the hypotheses of `C36_series` are met: a call at noon on 29 February 2024, and day 19723 is
1 January 2024 -/
example : ∃ s : Sunpos XR, call .sites exWorld (oneTime 1709208000000000000) (.vec [.fin 40])
      (.vec [.fin (-3)]) "iqbal" .pyTrue "numpy" = .ok s ∧
    stampAt (oneTime 1709208000000000000).stamps 0 = some 1709208000000000000 ∧
    codeDate 19723 = ⟨(codeDate (1709208000000000000 / 1000000000 / 86400)).year, 1, 1⟩ ∧
    codeDate (1709208000000000000 / 1000000000 / 86400) = ⟨2024, 2, 29⟩ := by
  obtain ⟨s, h, -⟩ := single_call .sites (alg := "iqbal") (eng := "numpy") (by simp [KnownPair]) .pyTrue
    (t := 1709208000000000000) (by norm_num) (φ := 40) (l := -3) (by norm_num) (by norm_num)
  exact ⟨s, h, rfl, by decide, by decide⟩

/-- 29 February 2024, 12:34:56 UTC -/
example : Iqbal.year 1709210096 = 2024 ∧ Iqbal.month 1709210096 = 2 ∧ Iqbal.day 1709210096 = 29 ∧
    Iqbal.hour 1709210096 = 12 ∧ Iqbal.minute 1709210096 = 34 ∧ Iqbal.second 1709210096 = 56 ∧
    Iqbal.doy 1709210096 = 60 := by decide
/-- 31 December 1899, 23:59:59 UTC (before the epoch, last day of a common year) -/
example : Iqbal.year (-2208988801) = 1899 ∧ Iqbal.month (-2208988801) = 12 ∧ Iqbal.day (-2208988801) = 31 ∧
    Iqbal.hour (-2208988801) = 23 ∧ Iqbal.second (-2208988801) = 59 ∧ Iqbal.doy (-2208988801) = 365 := by
  decide

end SW.Props
