/-
The benchmark: C42 (residues) and C52 (scores).
-/
import Verif.Bench
import Verif.Props.Calls

namespace SW.Props
open SW SW.Spec SW.Bench Real

/-! ### C42 -/

/-- `δ` is the distance of two directions `m` and `o` (degrees) on the circle: the smallest absolute value of
their difference up to full turns. -/
def CircleDistance (m o δ : ℝ) : Prop :=
  (∃ k : Int, δ = |m - o - 360 * k|) ∧ ∀ k : Int, δ ≤ |m - o - 360 * k|

theorem neg330 : (-330 : XR) = .fin (-330) := rfl
theorem wrap_fin {d : ℝ} (hd : -690 < d) : wrapAzimuth (XR.fin d) =
    .fin (if d ≤ -330 then -360 - d else if 330 ≤ d then 360 - d else d) := by
  have e1 : (-330 : XR) = .fin (-330) := rfl
  have e2 : (-360 : XR) = .fin (-360) := rfl
  have e3 : (330 : XR) = .fin 330 := rfl
  have e4 : (360 : XR) = .fin 360 := rfl
  have lt_t : ∀ {a b : ℝ} {x y : XR}, a < b → Num.whereLt (XR.fin a) (XR.fin b) x y = x := by
    intro a b x y h
    show (if XR.cmp (· < ·) (XR.fin a) (XR.fin b) = true then x else y) = x
    exact if_pos (by simpa [XR.cmp] using h)
  have lt_f : ∀ {a b : ℝ} {x y : XR}, ¬ a < b → Num.whereLt (XR.fin a) (XR.fin b) x y = y := by
    intro a b x y h
    show (if XR.cmp (· < ·) (XR.fin a) (XR.fin b) = true then x else y) = y
    exact if_neg (by simpa [XR.cmp] using h)
  unfold wrapAzimuth
  rw [e1, e2, e3, e4]
  have s1 : (XR.fin (-360) - XR.fin d) = XR.fin (-360 - d) := rfl
  have s2 : ∀ x : ℝ, (XR.fin 360 - XR.fin x) = XR.fin (360 - x) := fun _ => rfl
  rw [s1]
  by_cases h1 : d ≤ -330
  · rw [lt_f (not_lt.2 h1), if_pos h1]
    simp only [s2]
    rw [lt_t (by linarith)]
  · rw [lt_t (not_le.1 h1), if_neg h1]
    simp only [s2]
    by_cases h2 : 330 ≤ d
    · rw [lt_f (not_lt.2 h2), if_pos h2]
    · rw [lt_t (not_le.1 h2), if_neg h2]
theorem wrap_nan : wrapAzimuth (XR.nan) = .nan := by
  unfold wrapAzimuth
  have h : ∀ {a b x y : XR}, a = .nan ∨ b = .nan → Num.whereLt a b x y = y := by
    intro a b x y hab
    show (if XR.cmp (· < ·) a b = true then x else y) = y
    refine if_neg ?_
    rcases hab with rfl | rfl
    · simp [XR.cmp]
    · cases a <;> simp [XR.cmp]
  rw [h (.inr rfl)]
  have : (-360 - XR.nan : XR) = .nan := rfl
  simp only [this]
  rw [h (.inl rfl)]; rfl

/-- the residue of two numbers, as the code computes it -/
noncomputable def residue (azimuth relative : Bool) (m o : XR) : XR :=
  let d := m - o
  let d := if azimuth then wrapAzimuth d else d
  if relative then d / o else d

/-- **C42** The residue of two azimuths in [-180, 180] whose distance on the circle is below 30 degrees is
that distance in absolute value. -/
theorem C42_distance {m o δ : ℝ} (hm : -180 ≤ m ∧ m ≤ 180) (ho : -180 ≤ o ∧ o ≤ 180)
    (hδ : CircleDistance m o δ) (h : δ < 30) :
    ∃ r : ℝ, wrapAzimuth (XR.fin m - XR.fin o) = .fin r ∧ |r| = δ := by
  refine ⟨_, wrap_fin (d := m - o) (by linarith [hm.1, ho.2]), ?_⟩
  obtain ⟨⟨k, hk⟩, hmin⟩ := hδ
  have h0 := hmin 0
  have h1 := hmin 1
  have h2 := hmin (-1)
  push_cast at h0 h1 h2
  have hk' := abs_lt.1 (hk ▸ h)
  have hkk : k = 0 ∨ k = 1 ∨ k = -1 := by
    have a1 : (k : ℝ) < 2 := by linarith
    have a2 : (-2 : ℝ) < k := by linarith
    have a1' : k < 2 := by exact_mod_cast a1
    have a2' : -2 < k := by exact_mod_cast a2
    omega
  rcases hkk with rfl | rfl | rfl
  · push_cast at hk hk'
    rw [if_neg (by linarith), if_neg (by linarith), hk]; congr 1; ring
  · push_cast at hk hk'
    rw [if_neg (by linarith), if_pos (by linarith), hk, ← abs_neg]; congr 1; ring
  · push_cast at hk hk'
    rw [if_pos (by linarith), hk, ← abs_neg]; congr 1; ring

/-- **C42** Where the two azimuths are on different sides of north, the residue has the opposite sign of the
error: the azimuth `m` is `o + ε` up to a full turn, with `|ε| < 30`, but the residue is `-ε`. -/
theorem C42_sign_inverted {m o ε : ℝ} (hε : |ε| < 30) {k : Int} (hk : k = 1 ∨ k = -1)
    (h : m = o + ε + 360 * k) : wrapAzimuth (XR.fin m - XR.fin o) = .fin (-ε) := by
  have he := abs_lt.1 hε
  have hd : XR.fin m - XR.fin o = XR.fin (m - o) := rfl
  rw [hd]
  rcases hk with rfl | rfl
  · push_cast at h
    rw [wrap_fin (by linarith), XR.fin_inj, if_neg (by linarith), if_pos (by linarith)]; linarith
  · push_cast at h
    rw [wrap_fin (by linarith), XR.fin_inj, if_pos (by linarith)]; linarith

/-- **C42** Without a wrap the residue is the signed error. -/
theorem C42_unwrapped {m o : ℝ} (h : |m - o| < 330) : wrapAzimuth (XR.fin m - XR.fin o) = .fin (m - o) := by
  have he := abs_lt.1 h
  have hd : XR.fin m - XR.fin o = XR.fin (m - o) := rfl
  rw [hd, wrap_fin (by linarith), if_neg (by linarith), if_neg (by linarith)]

/-- **C42** Azimuths on different sides of north that are farther apart than 30 degrees are not wrapped: the
residue is larger than any distance on the circle. -/
theorem C42_not_wrapped {m o δ : ℝ} (h1 : 180 < |m - o|) (h2 : |m - o| < 330) (hδ : CircleDistance m o δ) :
    ∃ r : ℝ, wrapAzimuth (XR.fin m - XR.fin o) = .fin r ∧ δ ≤ 180 ∧ δ < |r| := by
  refine ⟨_, C42_unwrapped h2, ?_⟩
  have k1 := hδ.2 1
  have k2 := hδ.2 (-1)
  push_cast at k1 k2
  have : δ ≤ 180 := by
    have hb := abs_lt.1 h2
    rcases lt_abs.1 h1 with h | h
    · refine k1.trans ?_
      rw [abs_le]; constructor <;> linarith
    · refine k2.trans ?_
      rw [abs_le]; constructor <;> linarith
  exact ⟨this, lt_of_le_of_lt this h1⟩

/-! the frame -/

theorem lookup_map_same {α β : Type} [BEq α] [LawfulBEq α] (l : List (α × β)) (f : α → β → β) (a : α) :
    (l.map fun c => (c.1, f c.1 c.2)).lookup a = (l.lookup a).map (f a) := by
  induction l with
  | nil => rfl
  | cons c l ih =>
    obtain ⟨k, v⟩ := c
    simp only [List.map_cons, List.lookup_cons]
    by_cases h : a = k
    · subst h; simp
    · have : (a == k) = false := by simpa using h
      rw [this]; exact ih

/-- column of variable `v` of method `m`, if there is one -/
def column {F : Type} (d : Frame F) (m v : String) : Option (List F) := d.cols.lookup (m, v)

theorem method_lookup {F : Type} (d : Frame F) (m v : String) : (d.method m).lookup v = column d m v := by
  unfold Frame.method column
  induction d.cols with
  | nil => rfl
  | cons c l ih =>
    obtain ⟨⟨k, w⟩, x⟩ := c
    by_cases h : k = m
    · subst h
      simp only [List.filter_cons, beq_self_eq_true, if_true, List.map_cons, List.lookup_cons]
      by_cases hv : v = w
      · subst hv; simp
      · have e1 : (v == w) = false := by simpa using hv
        have e2 : ((k, v) == (k, w)) = false := by
          rw [beq_eq_false_iff_ne]; intro hh; exact hv (Prod.mk.inj hh).2
        rw [e1, e2]; exact ih
    · have e1 : (k == m) = false := by simpa using h
      have e2 : ((m, v) == (k, w)) = false := by
        rw [beq_eq_false_iff_ne]; intro hh; exact h (Prod.mk.inj hh).1.symm
      simp only [List.filter_cons, e1, List.lookup_cons, e2]
      exact ih

/-- the column of residues of variable `v`, `o` being the column of the reference -/
noncomputable def residueColumn (relative : Bool) (v : String) (m : List XR) (o : Option (List XR)) : List XR :=
  match o with
  | some o => List.zipWith (residue (v == "azimuth") relative) m o
  | none => m.map fun _ => .nan

theorem div_nan_left (x : XR) : XR.nan / x = .nan := rfl

theorem calcError_lookup (relative : Bool) (m o : List (String × List XR)) (v : String) :
    (calcError relative m o).lookup v = (m.lookup v).map fun c => residueColumn relative v c (o.lookup v) := by
  have h1 : ∀ v, (aligned (· - ·) m o).lookup v = (m.lookup v).map fun c => alignedCol (· - ·) c (o.lookup v) :=
    fun v => lookup_map_same m (fun v c => alignedCol (· - ·) c (o.lookup v)) v
  have h2 : ∀ (d : List (String × List XR)) v, (d.map fun c => if c.1 == "azimuth" then
      (c.1, c.2.map wrapAzimuth) else c).lookup v
      = (d.lookup v).map fun c => if v == "azimuth" then c.map wrapAzimuth else c := by
    intro d v
    rw [← lookup_map_same d (fun v c => if v == "azimuth" then c.map wrapAzimuth else c) v]
    congr 1
    refine List.map_congr_left fun c _ => ?_
    split_ifs <;> rfl
  have h3 : ∀ (d : List (String × List XR)) v, (aligned (· / ·) d o).lookup v = (d.lookup v).map fun c =>
      alignedCol (· / ·) c (o.lookup v) :=
    fun d v => lookup_map_same d (fun v c => alignedCol (· / ·) c (o.lookup v)) v
  have key : ∀ (op : XR → XR → XR) (f g : XR → XR → XR) (c w : List XR), (∀ a b, op (f a b) b = g a b) →
      List.zipWith op (List.zipWith f c w) w = List.zipWith g c w := by
    intro op f g c
    induction c with
    | nil => intro w h; rfl
    | cons a c ih =>
      intro w h
      cases w with
      | nil => rfl
      | cons b w => simp [h, ih w h]
  have hmap : ∀ (f : XR → XR) (g : XR → XR → XR) (c w : List XR),
      (List.zipWith g c w).map f = List.zipWith (fun a b => f (g a b)) c w := by
    intro f g c w; rw [List.map_zipWith]
  unfold calcError
  cases relative with
  | false =>
    simp only [Bool.false_eq_true, if_false]
    rw [h2, h1, Option.map_map]
    congr 1
    funext c
    simp only [Function.comp, residueColumn, alignedCol]
    cases o.lookup v with
    | none =>
      have hn : (Num.nan : XR) = .nan := rfl
      simp only [hn]
      split_ifs
      · simp [wrap_nan]
      · rfl
    | some w =>
      simp only
      cases hv : (v == "azimuth") with
      | true => simp only [if_true, hmap]; rfl
      | false => simp only [Bool.false_eq_true, if_false]; rfl
  | true =>
    simp only [if_true]
    rw [h3, h2, h1, Option.map_map, Option.map_map]
    congr 1
    funext c
    simp only [Function.comp, residueColumn, alignedCol]
    cases o.lookup v with
    | none =>
      have hn : (Num.nan : XR) = .nan := rfl
      simp only [hn]
      split_ifs <;> simp
    | some w =>
      simp only
      cases hv : (v == "azimuth") with
      | true =>
        simp only [if_true, hmap]
        exact key _ _ _ _ _ fun a b => rfl
      | false =>
        simp only [Bool.false_eq_true, if_false]
        exact key _ _ _ _ _ fun a b => rfl

theorem set_cols {F : Type} (r : Frame F) (m : String) (value : List (String × List F)) :
    (r.set m value).cols = r.cols.map fun c => (c.1, if c.1.1 == m then (value.lookup c.1.2).getD c.2 else c.2) := by
  unfold Frame.set
  refine List.map_congr_left fun c _ => ?_
  split_ifs <;> rfl

theorem foldl_set {F : Type} (g : String → List (String × List F)) (ms : List String) (hnd : ms.Nodup) (r : Frame F) :
    (ms.foldl (fun r m => r.set m (g m)) r).cols = r.cols.map fun c =>
      (c.1, if c.1.1 ∈ ms then ((g c.1.1).lookup c.1.2).getD c.2 else c.2) := by
  induction ms generalizing r with
  | nil => simp
  | cons m ms ih =>
    rw [List.foldl_cons, ih (List.nodup_cons.1 hnd).2, set_cols, List.map_map]
    refine List.map_congr_left fun c _ => ?_
    obtain ⟨⟨k, v⟩, x⟩ := c
    simp only [Function.comp, List.mem_cons]
    by_cases hk : k = m
    · subst hk
      have : k ∉ ms := (List.nodup_cons.1 hnd).1
      simp [this]
    · simp [hk]

/-- **C42** What calc_residues returns: KeyError if the reference method is absent; otherwise the columns of all
other methods in their order, each holding the residues against the column of the same variable of the
reference (NaN where the reference lacks the variable), row by row. -/
theorem C42_frame (data : Frame XR) (reference : String) (relative : Bool) :
    ((∀ v, column data reference v = none) → calcResidues data reference relative = .error .keyError) ∧
    ((∃ v c, column data reference v = some c) → ∃ out, calcResidues data reference relative = .ok out ∧
      out.cols.map (·.1) = (data.cols.map (·.1)).filter (fun c => c.1 != reference) ∧
      ∀ m v c, m ≠ reference → column data m v = some c →
        column out m v = some (residueColumn relative v c (column data reference v))) := by
  have hmem : ∀ m, m ∈ data.methods ↔ ∃ v c, column data m v = some c := by
    intro m
    unfold Frame.methods
    rw [List.mem_dedup, List.mem_map]
    constructor
    · rintro ⟨⟨⟨k, v⟩, x⟩, hx, rfl⟩
      refine ⟨v, ?_⟩
      show ∃ c, data.cols.lookup (k, v) = some c
      cases hl : data.cols.lookup (k, v) with
      | some c => exact ⟨c, rfl⟩
      | none =>
        have := List.lookup_eq_none_iff.1 hl _ hx
        simp at this
    · rintro ⟨v, c, h⟩
      obtain ⟨l1, l2, h1, h2⟩ := List.lookup_eq_some_iff.1 h
      exact ⟨((m, v), c), by rw [h1]; simp, rfl⟩
  constructor
  · intro h
    unfold calcResidues
    rw [if_pos]
    rw [hmem]
    rintro ⟨v, c, hc⟩
    rw [h v] at hc; cases hc
  · intro h
    have hndm : (data.methods.filter (· != reference)).Nodup := (List.nodup_dedup _).filter _
    have hr := (hmem reference).2 h
    unfold calcResidues
    rw [if_neg (by simpa using hr)]
    refine ⟨_, rfl, ?_, ?_⟩
    · simp only
      rw [foldl_set (fun m => calcError relative (data.method m) (data.method reference)) _ hndm, List.filter_map, List.map_map, List.filter_map]
      rfl
    · intro m v c hm hc
      unfold column
      simp only
      rw [foldl_set (fun m => calcError relative (data.method m) (data.method reference)) _ hndm]
      obtain ⟨f, hf⟩ : ∃ f : String × String → List XR → List XR, f = fun k x =>
        if k.1 ∈ data.methods.filter (· != reference) then
          ((calcError relative (data.method k.1) (data.method reference)).lookup k.2).getD x else x := ⟨_, rfl⟩
      have e1 : (data.cols.map fun c => (c.1, if c.1.1 ∈ data.methods.filter (· != reference) then
          ((calcError relative (data.method c.1.1) (data.method reference)).lookup c.1.2).getD c.2 else c.2))
          = data.cols.map fun c => (c.1, f c.1 c.2) := by rw [hf]
      rw [e1]
      have e2 : ∀ l : List ((String × String) × List XR),
          (l.filter (fun c => c.1.1 != reference)).lookup (m, v) = l.lookup (m, v) := by
        intro l
        induction l with
        | nil => rfl
        | cons a l ih =>
          obtain ⟨⟨k, w⟩, x⟩ := a
          by_cases hk : k = reference
          · subst hk
            have : ((m, v) == (k, w)) = false := by
              rw [beq_eq_false_iff_ne]; intro hh; exact hm (Prod.mk.inj hh).1
            simp only [List.filter_cons, bne_self_eq_false, List.lookup_cons, this]
            exact ih
          · have hk' : (k != reference) = true := by simpa using hk
            simp only [List.filter_cons, hk', if_true, List.lookup_cons, ih]
      rw [e2, lookup_map_same]
      have hc' : data.cols.lookup (m, v) = some c := hc
      rw [hc', Option.map_some, hf]
      have hmm : m ∈ data.methods.filter (· != reference) := by
        rw [List.mem_filter]; exact ⟨(hmem m).2 ⟨v, c, hc⟩, by simpa using hm⟩
      simp only [hmm, if_true]
      rw [calcError_lookup, method_lookup data m v, hc, method_lookup]; rfl

/-- **C42** Other variables are never wrapped, NaN gives NaN, and relative residues are divided by the
reference. -/
theorem C42_cell (azimuth : Bool) (m o : ℝ) :
    residue false false (.fin m) (.fin o) = .fin (m - o) ∧
    (o ≠ 0 → residue false true (.fin m) (.fin o) = .fin ((m - o) / o)) ∧
    residue true false (.fin m) (.fin o) = wrapAzimuth (XR.fin m - XR.fin o) ∧
    (∀ relative x, residue azimuth relative .nan x = .nan ∧ residue azimuth relative x .nan = .nan) := by
  refine ⟨rfl, fun h => ?_, rfl, fun relative x => ?_⟩
  · show XR.m2p (fun _ b => b ≠ 0) (· / ·) (XR.fin (m - o)) (XR.fin o) = _
    exact if_pos h
  · have e : (x - XR.nan : XR) = .nan := by cases x <;> rfl
    have e' : (XR.nan - x : XR) = .nan := rfl
    have e'' : ∀ y : XR, XR.nan / y = .nan := fun _ => rfl
    unfold residue
    rw [e, e']
    cases azimuth <;> cases relative <;> simp [wrap_nan, e'']

/-- 179.9 against -179.9: 0.2 degrees apart, the residue is +0.2 though 179.9 is 0.2 short of
-179.9 -/
example : CircleDistance 179.9 (-179.9) 0.2 ∧
    wrapAzimuth (XR.fin 179.9 - XR.fin (-179.9)) = .fin 0.2 := by
  constructor
  · constructor
    · exact ⟨1, by norm_num [abs_of_neg]⟩
    · intro k
      rcases lt_trichotomy k 1 with h | rfl | h
      · have : (k : ℝ) ≤ 0 := by exact_mod_cast (by omega : k ≤ 0)
        rw [abs_of_pos (by norm_num; linarith)]; norm_num; linarith
      · norm_num [abs_of_neg]
      · have : (2 : ℝ) ≤ k := by exact_mod_cast (by omega : 2 ≤ k)
        rw [abs_of_neg (by norm_num; linarith)]; norm_num; linarith
  · have h := C42_sign_inverted (m := 179.9) (o := -179.9) (ε := -0.2) (by norm_num [abs_of_neg]) (k := 1)
      (.inl rfl) (by norm_num)
    rw [h, neg_neg]

/-- hypotheses of C42_frame are met: two methods, one row -/
example : ∃ out, calcResidues (F := XR) ⟨[(("jpl", "azimuth"), [.fin 1]), (("a", "azimuth"), [.fin 3]),
    (("a", "ecf"), [.fin 1])]⟩ "jpl" false = .ok out ∧ column out "a" "azimuth" = some [.fin 2] ∧
    column out "a" "ecf" = some [.nan] := by
  obtain ⟨out, h1, -, h3⟩ := (C42_frame ⟨[(("jpl", "azimuth"), [.fin 1]), (("a", "azimuth"), [.fin 3]),
    (("a", "ecf"), [.fin 1])]⟩ "jpl" false).2 ⟨"azimuth", [.fin 1], by rfl⟩
  refine ⟨out, h1, ?_, ?_⟩
  · rw [h3 "a" "azimuth" [.fin 3] (by decide) (by rfl)]
    have : column (F := XR) ⟨[(("jpl", "azimuth"), [.fin 1]), (("a", "azimuth"), [.fin 3]),
      (("a", "ecf"), [.fin 1])]⟩ "jpl" "azimuth" = some [.fin 1] := by rfl
    rw [this]
    show some [wrapAzimuth (XR.fin 3 - XR.fin 1)] = _
    rw [C42_unwrapped (by norm_num [abs_of_pos])]; norm_num
  · rw [h3 "a" "ecf" [.fin 1] (by decide) (by rfl)]
    have : column (F := XR) ⟨[(("jpl", "azimuth"), [.fin 1]), (("a", "azimuth"), [.fin 3]),
      (("a", "ecf"), [.fin 1])]⟩ "jpl" "ecf" = none := by rfl
    rw [this]; rfl

/-! ### C52 -/

theorem mean_some {l : List ℝ} (h : l ≠ []) : mean l = some (l.sum / l.length) := if_neg h

theorem sum_abs (l : List ℝ) : |l.sum| ≤ (l.map fun x => |x|).sum := by
  induction l with
  | nil => simp
  | cons a l ih => simp only [List.sum_cons, List.map_cons]; exact (abs_add_le _ _).trans (by linarith)

theorem sum_dev (l : List ℝ) (μ : ℝ) : (l.map fun x => (x - μ) ^ 2).sum =
    (l.map fun x => x ^ 2).sum - 2 * μ * l.sum + l.length * μ ^ 2 := by
  induction l with
  | nil => simp
  | cons a l ih => simp only [List.map_cons, List.sum_cons, List.length_cons, ih]; push_cast; ring

theorem sum_sq_nonneg (l : List ℝ) (f : ℝ → ℝ) : 0 ≤ (l.map fun x => f x ^ 2).sum :=
  List.sum_nonneg (by intro y hy; obtain ⟨x, -, rfl⟩ := List.mem_map.1 hy; positivity)

/-- **C52** Bulk errors of a column with at least one number: |mbe| ≤ mae ≤ rmse. -/
theorem C52_order {r : List XR} {x : ℝ} (hx : XR.fin x ∈ r) : ∃ b a q : ℝ, (scores r).mbe = some b ∧
    (scores r).mae = some a ∧ (scores r).rmse = some q ∧ |b| ≤ a ∧ a ≤ q := by
  obtain ⟨l, hl⟩ : ∃ l, l = values r := ⟨_, rfl⟩
  have hne : l ≠ [] := by
    have : x ∈ l := by
      rw [hl]; unfold values; rw [List.mem_filterMap]; exact ⟨_, hx, rfl⟩
    exact List.ne_nil_of_mem this
  have hn : (0 : ℝ) < l.length := by exact_mod_cast List.length_pos_iff.2 hne
  unfold scores
  simp only [← hl]
  refine ⟨_, _, _, mean_some hne, mean_some (by simpa using hne), by rw [mean_some (by simpa using hne)]; rfl, ?_, ?_⟩
  · rw [List.length_map, abs_div, abs_of_pos hn]
    gcongr; exact sum_abs l
  · rw [List.length_map, List.length_map]
    show _ ≤ ((l.map fun x : ℝ => x ^ 2).sum / (l.length : ℝ)) ^ (0.5 : ℝ)
    rw [show (0.5 : ℝ) = 1 / 2 by norm_num, ← sqrt_eq_rpow]
    refine le_sqrt_of_sq_le ?_
    have h := sum_sq_nonneg (l.map fun x => |x|) (fun x => x - (l.map fun x => |x|).sum / l.length)
    have h' := sum_dev (l.map fun x => |x|) ((l.map fun x => |x|).sum / l.length)
    rw [h', List.map_map, List.length_map] at h
    have e : ((fun x : ℝ => x ^ 2) ∘ fun x => |x|) = fun x => x ^ 2 := by
      funext x; simp
    rw [e] at h
    obtain ⟨S, hS⟩ : ∃ S, S = (l.map fun x => |x|).sum := ⟨_, rfl⟩
    obtain ⟨Q, hQ⟩ : ∃ Q, Q = (l.map fun x => x ^ 2).sum := ⟨_, rfl⟩
    rw [← hS, ← hQ] at h
    rw [← hS, ← hQ, div_pow, div_le_div_iff₀ (by positivity) hn]
    have e2 : Q - 2 * (S / l.length) * S + l.length * (S / l.length) ^ 2 = Q - S ^ 2 / l.length := by
      field_simp; ring
    rw [e2] at h
    have h3 : S ^ 2 / l.length ≤ Q := by linarith
    rw [div_le_iff₀ hn] at h3
    nlinarith

/-- **C52** With at least two numbers, rmse² is mbe² plus (n-1)/n times std². -/
theorem C52_decomposition {r : List XR} (hx : 2 ≤ (values r).length) : ∃ b q σ : ℝ, (scores r).mbe = some b ∧
    (scores r).rmse = some q ∧ (scores r).std = some σ ∧ 0 ≤ σ ∧
    q ^ 2 = b ^ 2 + (((values r).length : ℝ) - 1) / (values r).length * σ ^ 2 := by
  obtain ⟨l, hl⟩ : ∃ l, l = values r := ⟨_, rfl⟩
  rw [← hl] at hx ⊢
  have hne : l ≠ [] := by intro h; rw [h] at hx; simp at hx
  have hn : (2 : ℝ) ≤ l.length := by exact_mod_cast hx
  have hn0 : (0 : ℝ) < l.length := by linarith
  unfold scores
  simp only [← hl]
  refine ⟨_, _, _, mean_some hne, by rw [mean_some (by simpa using hne)]; rfl,
    by unfold std; rw [if_neg (by omega), mean_some hne]; rfl, sqrt_nonneg _, ?_⟩
  rw [List.length_map]
  show (((l.map fun x : ℝ => x ^ 2).sum / (l.length : ℝ)) ^ (0.5 : ℝ)) ^ 2 = _
  rw [show (0.5 : ℝ) = 1 / 2 by norm_num, ← sqrt_eq_rpow, sq_sqrt (by
    have := sum_sq_nonneg l id; simp only [id] at this; positivity), sq_sqrt (by
    have := sum_sq_nonneg l (fun x => x - l.sum / l.length)
    have h2 : (0 : ℝ) < l.length - 1 := by linarith
    positivity), sum_dev]
  have h2 : (l.length : ℝ) - 1 ≠ 0 := by
    have : (0 : ℝ) < l.length - 1 := by linarith
    exact this.ne'
  field_simp
  ring

theorem getD_lt (s : List ℝ) (d : ℝ) {i : Nat} (h : i < s.length) : s.getD i d = s[i] := by simp [List.getD, h]
theorem getD_ge (s : List ℝ) (d : ℝ) {i : Nat} (h : s.length ≤ i) : s.getD i d = d := by simp [List.getD, h]

/-- linear interpolation in a sorted list is monotonic and stays below the last entry -/
theorem interp_mono {s : List ℝ} (hs : s.Pairwise (· ≤ ·)) {p q : ℝ} (hp : 0 ≤ p) (hpq : p ≤ q)
    (hq : q ≤ s.length - 1) (hne : s ≠ []) :
    let f := fun x : ℝ => s.getD ⌊x⌋.toNat 0 + (s.getD (⌊x⌋.toNat + 1) (s.getD ⌊x⌋.toNat 0) - s.getD ⌊x⌋.toNat 0)
      * (x - ⌊x⌋.toNat)
    f p ≤ f q ∧ ∃ y ∈ s, f q ≤ y := by
  intro f
  have hlen : 0 < s.length := List.length_pos_iff.2 hne
  have mono : ∀ {i j : Nat}, i ≤ j → j < s.length → s.getD i 0 ≤ s.getD j 0 := by
    intro i j hij hj
    have hi : i < s.length := lt_of_le_of_lt hij hj
    rw [getD_lt _ _ hi, getD_lt _ _ hj]
    rcases hij.eq_or_lt with rfl | h
    · exact le_rfl
    · exact List.pairwise_iff_getElem.1 hs _ _ hi hj h
  -- value next to position `i`
  obtain ⟨nx, hnx⟩ : ∃ nx : Nat → ℝ, nx = fun i => s.getD (i + 1) (s.getD i 0) := ⟨_, rfl⟩
  have nx_ge : ∀ i, i < s.length → s.getD i 0 ≤ nx i := by
    intro i hi
    rw [hnx]
    by_cases h : i + 1 < s.length
    · simp only [getD_lt _ _ h]
      rw [← getD_lt _ 0 h]; exact mono (by omega) h
    · simp only
      rw [getD_ge s (s.getD i 0) (by omega : s.length ≤ i + 1)]
  have idx : ∀ x : ℝ, 0 ≤ x → x ≤ s.length - 1 → ⌊x⌋.toNat < s.length ∧ (⌊x⌋.toNat : ℝ) ≤ x ∧
      x < ⌊x⌋.toNat + 1 := by
    intro x h0 h1
    have hf : 0 ≤ ⌊x⌋ := Int.floor_nonneg.2 h0
    have e : ((⌊x⌋.toNat : Int) : ℝ) = (⌊x⌋ : ℝ) := by rw [Int.toNat_of_nonneg hf]
    have e' : (⌊x⌋.toNat : ℝ) = (⌊x⌋ : ℝ) := by exact_mod_cast e
    have h2 := Int.floor_le x
    have h3 := Int.lt_floor_add_one x
    refine ⟨?_, by rw [e']; exact h2, by rw [e']; exact h3⟩
    have : (⌊x⌋.toNat : ℝ) < s.length := by rw [e']; linarith
    exact_mod_cast this
  have fdef : ∀ x, f x = s.getD ⌊x⌋.toNat 0 + (nx ⌊x⌋.toNat - s.getD ⌊x⌋.toNat 0) * (x - ⌊x⌋.toNat) := by
    intro x; rw [hnx]
  have bound : ∀ x : ℝ, 0 ≤ x → x ≤ s.length - 1 → s.getD ⌊x⌋.toNat 0 ≤ f x ∧ f x ≤ nx ⌊x⌋.toNat := by
    intro x h0 h1
    obtain ⟨a, b, c⟩ := idx x h0 h1
    have := nx_ge _ a
    rw [fdef]
    constructor <;> nlinarith
  obtain ⟨ip, bp, cp⟩ := idx p hp (by linarith)
  obtain ⟨iq, bq, cq⟩ := idx q (by linarith) hq
  have hfl : ⌊p⌋.toNat ≤ ⌊q⌋.toNat := Int.toNat_le_toNat (Int.floor_le_floor hpq)
  constructor
  · rcases hfl.eq_or_lt with he | hlt
    · rw [fdef, fdef, ← he]
      have := nx_ge _ ip
      nlinarith
    · have h1 := (bound p hp (by linarith)).2
      have h2 := (bound q (by linarith) hq).1
      refine h1.trans (le_trans ?_ h2)
      rw [hnx]
      have h3 : ⌊p⌋.toNat + 1 < s.length := by omega
      simp only [getD_lt _ _ h3]
      rw [← getD_lt _ 0 h3]
      exact mono (by omega) iq
  · have h1 := (bound q (by linarith) hq).2
    by_cases h : ⌊q⌋.toNat + 1 < s.length
    · refine ⟨s[⌊q⌋.toNat + 1], List.getElem_mem h, ?_⟩
      rw [hnx] at h1
      simp only [getD_lt _ _ h] at h1
      exact h1
    · refine ⟨s[⌊q⌋.toNat], List.getElem_mem iq, ?_⟩
      rw [hnx] at h1
      simp only [getD_ge _ _ (by omega : s.length ≤ ⌊q⌋.toNat + 1)] at h1
      rwa [getD_lt _ _ iq] at h1

theorem mergeSort_pairwise (l : List ℝ) :
    (l.mergeSort (fun a b => open Classical in decide (a ≤ b))).Pairwise (· ≤ ·) := by
  have := List.pairwise_mergeSort (le := fun a b : ℝ => open Classical in decide (a ≤ b))
    (fun a b c hab hbc => by simp at *; linarith) (fun a b => by simp; exact le_total a b) l
  refine this.imp ?_
  intro a b h
  simpa using h

/-- **C52** The half-widths of the 66 % and 90 % intervals are in that order, and not larger than the largest
deviation from the mean. -/
theorem C52_intervals {r : List XR} {x : ℝ} (hx : XR.fin x ∈ r) : ∃ b p q : ℝ, (scores r).mbe = some b ∧
    (scores r).p66 = some p ∧ (scores r).p90 = some q ∧ p ≤ q ∧ ∃ y, XR.fin y ∈ r ∧ q ≤ |y - b| := by
  obtain ⟨l, hl⟩ : ∃ l, l = values r := ⟨_, rfl⟩
  have hmem : ∀ y, y ∈ l ↔ XR.fin y ∈ r := by
    intro y
    rw [hl]; unfold values; rw [List.mem_filterMap]
    constructor
    · rintro ⟨z, hz, h⟩
      cases z with
      | nan => cases h
      | fin z => cases h; exact hz
    · intro h; exact ⟨_, h, rfl⟩
  have hne : l ≠ [] := List.ne_nil_of_mem ((hmem x).2 hx)
  unfold scores
  simp only [← hl, mean_some hne]
  obtain ⟨d, hd⟩ : ∃ d, d = l.map fun x => |x - l.sum / l.length| := ⟨_, rfl⟩
  rw [← hd]
  have hdne : d ≠ [] := by rw [hd]; simpa using hne
  refine ⟨_, _, _, rfl, if_neg hdne, if_neg hdne, ?_⟩
  obtain ⟨s, hs⟩ : ∃ s, s = d.mergeSort (fun a b => open Classical in decide (a ≤ b)) := ⟨_, rfl⟩
  have hlen : s.length = d.length := by rw [hs, List.length_mergeSort]
  have hsne : s ≠ [] := by
    intro h; rw [h] at hlen; exact hdne (List.length_eq_zero_iff.1 hlen.symm)
  have h1 : (1 : ℝ) ≤ d.length := by exact_mod_cast List.length_pos_iff.2 hdne
  obtain ⟨a, y, hy, c⟩ := interp_mono (s := s) (by rw [hs]; exact mergeSort_pairwise d)
    (p := 0.66 * (d.length - 1)) (q := 0.90 * (d.length - 1)) (by nlinarith) (by nlinarith)
    (by rw [hlen]; nlinarith) hsne
  simp only [← hs]
  refine ⟨a, ?_⟩
  have hy' : y ∈ d := by rw [hs] at hy; exact List.mem_mergeSort.1 hy
  rw [hd] at hy'
  obtain ⟨z, hz, rfl⟩ := List.mem_map.1 hy'
  exact ⟨z, (hmem z).1 hz, c⟩

theorem mean_perm {l l' : List ℝ} (h : l.Perm l') : mean l = mean l' := by
  unfold mean
  by_cases hl : l = []
  · subst hl; have := h.symm.eq_nil; rw [this]
  · rw [if_neg hl, if_neg (by intro hh; subst hh; exact hl h.eq_nil), h.sum_eq, h.length_eq]

theorem quantile_perm {l l' : List ℝ} (h : l.Perm l') (q : ℝ) : quantile l q = quantile l' q := by
  have hs : l.mergeSort (fun a b => open Classical in decide (a ≤ b)) =
      l'.mergeSort (fun a b => open Classical in decide (a ≤ b)) := by
    refine List.Perm.eq_of_pairwise (le := (· ≤ ·)) ?_ (mergeSort_pairwise l) (mergeSort_pairwise l') ?_
    · intro a b _ _ h1 h2; exact le_antisymm h1 h2
    · exact (List.mergeSort_perm _ _).trans (h.trans (List.mergeSort_perm _ _).symm)
  unfold quantile
  by_cases hl : l = []
  · subst hl; have := h.symm.eq_nil; rw [this]
  · rw [if_neg hl, if_neg (by intro hh; subst hh; exact hl h.eq_nil), hs, h.length_eq]

/-- **C52** The scores depend only on the numbers in the column: neither the order of the rows nor rows that are
NaN matter. -/
theorem C52_rows {r r' : List XR} (h : (r.filter (fun x => !Scalar.isNan x)).Perm (r'.filter (fun x => !Scalar.isNan x))) :
    scores r = scores r' := by
  have hv : ∀ r : List XR, values r = values (r.filter (fun x => !Scalar.isNan x)) := by
    intro r
    unfold values
    induction r with
    | nil => rfl
    | cons x r ih => cases x <;> simp [Scalar.isNan, ih]
  have hp : (values r).Perm (values r') := by
    rw [hv r, hv r']; unfold values; exact h.filterMap _
  unfold scores
  simp only
  have hm := mean_perm hp
  have e1 : std (values r) = std (values r') := by
    unfold std
    rw [hp.length_eq, hm]
    have : ∀ μ : ℝ, ((values r).map fun x => (x - μ) ^ 2).sum = ((values r').map fun x => (x - μ) ^ 2).sum :=
      fun μ => (hp.map _).sum_eq
    simp only [this]
  have e2 := mean_perm (hp.map fun x => |x|)
  have e3 := mean_perm (hp.map fun x => x ^ 2)
  rw [hm, e1, e2, e3]
  cases mean (values r') with
  | none => rfl
  | some μ =>
    simp only
    rw [quantile_perm (hp.map fun x => |x - μ|), quantile_perm (hp.map fun x => |x - μ|)]

/-- **C52** The mean bias error of azimuths can have the wrong sign: two azimuths just west of north (in the code's
convention, near 180) whose reference is just east of it are too small, but score a positive bias. -/
theorem C52_bias_sign : ∃ m o : ℝ, ∃ k : Int, m = o - 0.25 + 360 * k ∧
    (scores [wrapAzimuth (XR.fin m - XR.fin o)]).mbe = some 0.25 := by
  refine ⟨179.875, -179.875, 1, by norm_num, ?_⟩
  have h := C42_sign_inverted (m := 179.875) (o := -179.875) (ε := -0.25) (by norm_num [abs_of_neg]) (k := 1)
      (.inl rfl) (by norm_num)
  rw [h]
  show mean [-(-0.25)] = _
  rw [mean_some (by simp)]
  norm_num

/-- hypotheses of C52 are met -/
example : XR.fin 2 ∈ [XR.fin 1, .nan, .fin 2] ∧ 2 ≤ (values [XR.fin 1, .nan, .fin 2]).length := by
  constructor
  · simp
  · show 2 ≤ ([1, 2] : List ℝ).length; simp

end SW.Props
