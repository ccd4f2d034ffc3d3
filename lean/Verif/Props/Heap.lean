/-
C86: what the objects share with the program that made them. The theorems hold for every interpretation `F` of the floating point operations,
and range over all histories: sequences of making arrays, calls of the use cases, reads of attributes and methods, and writes into arrays.
-/
import Verif.Heap
import Verif.Props.Calls

namespace SW.Props
open SW.Heap SW.Spec

variable {F : Type} [Scalar F]

/-! ### specification -/

/-- the attributes whose arrays are the object's own -/
def HandsOut (q : Query F) : Prop := q = .latitude ∨ q = .longitude ∨ q = .ecf ∨ q = .eot

/-- the history `ops`, started in state `st`, never writes through an array the program got with origin satisfying `P` -/
def NoWrite (st : State F) (P : Nat → Origin F → Prop) (ops : List (Op F)) : Prop :=
  (∀ a i e x b, ops = a ++ Op.write i e x :: b → ∀ g ad, (st.run a).handles[i]? = some (g, ad) → ¬ P i g) ∧
  (∀ a i e x b, ops = a ++ Op.writeTime i e x :: b → ∀ g ad, (st.run a).handles[i]? = some (g, ad) → ¬ P i g)

/-! ### the invariant -/

namespace Heap86

theorem shared_iff {q : Query F} {o : Obj F} : (∃ a, q.shared o = some a) ↔ HandsOut q := by
  cases q <;> simp [Query.shared, HandsOut]

theorem shared_range {q : Query F} {o : Obj F} {a : Nat} (h : q.shared o = some a) : o.base ≤ a ∧ a < o.base + 7 := by
  cases q <;> simp [Query.shared] at h <;> omega

theorem shared_inj {q q' : Query F} {o : Obj F} {a : Nat} (h : q.shared o = some a) (h' : q'.shared o = some a) : q = q' := by
  cases q <;> simp [Query.shared] at h <;> cases q' <;> simp [Query.shared] at h' <;> first | rfl | omega

/-- where an array of numbers held is in memory -/
def Place (objs : List (Obj F)) (g : Origin F) (a : Nat) : Prop :=
  (∃ (k : Nat) (q : Query F) (o : Obj F), g = .attr k q ∧ objs[k]? = some o ∧ q.shared o = some a) ∨
  ((∀ k q, g = .attr k q → ¬ HandsOut q) ∧ ∀ (k : Nat) (o : Obj F), objs[k]? = some o → ¬ (o.base ≤ a ∧ a < o.base + 7))

structure WF (st : State F) : Prop where
  obj : ∀ (k : Nat) (o : Obj F), st.objs[k]? = some o → o.base + 7 ≤ st.next
  sep : ∀ (j k : Nat) (o o' : Obj F), j < k → st.objs[j]? = some o → st.objs[k]? = some o' → o.base + 7 ≤ o'.base
  lt : ∀ (i : Nat) (g : Origin F) (a : Nat), st.handles[i]? = some (g, .num a) → a < st.next
  ltT : ∀ (i : Nat) (g : Origin F) (a : Nat), st.handles[i]? = some (g, .tim a) → a < st.next
  place : ∀ (i : Nat) (g : Origin F) (a : Nat), st.handles[i]? = some (g, .num a) → Place st.objs g a
  times : ∀ (i k : Nat) (q : Query F) (a : Nat), st.handles[i]? = some (.attr k q, .tim a) → ¬ HandsOut q
  apart : ∀ (i j : Nat) (g g' : Origin F) (a : Nat), i ≠ j → st.handles[i]? = some (g, .num a) → st.handles[j]? = some (g', .num a) →
    g = g' ∧ ∃ k q, g = .attr k q ∧ HandsOut q
  apartT : ∀ (i j : Nat) (g g' : Origin F) (a : Nat), i ≠ j → st.handles[i]? = some (g, .tim a) → st.handles[j]? = some (g', .tim a) → False

theorem get_append {α : Type} {l : List α} {x y : α} {i : Nat} (h : (l ++ [x])[i]? = some y) :
    l[i]? = some y ∨ (i = l.length ∧ x = y) := by
  rcases Nat.lt_trichotomy i l.length with hi | hi | hi
  · rw [List.getElem?_append_left hi] at h; exact .inl h
  · subst hi; simp at h; exact .inr ⟨rfl, h⟩
  · rw [List.getElem?_append_right hi.le] at h
    rw [List.getElem?_eq_none (by simp; omega)] at h; cases h

theorem get_append_old {α : Type} {l l' : List α} {y : α} {i : Nat} (h : l[i]? = some y) : (l ++ l')[i]? = some y := by
  have : i < l.length := by
    by_contra hc
    rw [List.getElem?_eq_none (by omega)] at h; cases h
  rw [List.getElem?_append_left this, h]

theorem wf_init : WF (State.init : State F) := by
  constructor <;> simp [State.init]

theorem wf_write {st : State F} (h : WF st) (m : Nat → DA F) : WF { st with num := m } :=
  ⟨h.obj, h.sep, h.lt, h.ltT, h.place, h.times, h.apart, h.apartT⟩

theorem wf_writeT {st : State F} (h : WF st) (m : Nat → DA (Option Int)) : WF { st with tim := m } :=
  ⟨h.obj, h.sep, h.lt, h.ltT, h.place, h.times, h.apart, h.apartT⟩

theorem fresh_obj {st : State F} (h : WF st) {k : Nat} {o : Obj F} (ho : st.objs[k]? = some o) : ¬ (o.base ≤ st.next ∧ st.next < o.base + 7) := by
  have := h.obj k o ho; omega

/-- a new array of numbers, held -/
theorem wf_new {st : State F} (h : WF st) (a : DA F) (g : Origin F) (hg : ∀ k q, g = .attr k q → ¬ HandsOut q) :
    WF ((st.alloc a).hold g (.num st.next)) := by
  constructor
  · intro k o ho
    have := h.obj k o ho
    show o.base + 7 ≤ st.next + 1
    omega
  · exact h.sep
  · intro i g' b hi
    show b < st.next + 1
    rcases get_append hi with hi | ⟨-, hi⟩
    · have := h.lt i g' b hi; omega
    · cases hi; omega
  · intro i g' b hi
    show b < st.next + 1
    rcases get_append hi with hi | ⟨-, hi⟩
    · have := h.ltT i g' b hi; omega
    · cases hi
  · intro i g' b hi
    rcases get_append hi with hi | ⟨-, hi⟩
    · exact h.place i g' b hi
    · cases hi; exact .inr ⟨hg, fun k o ho => fresh_obj h ho⟩
  · intro i k' q' b hi
    rcases get_append hi with hi | ⟨-, hi⟩
    · exact h.times i k' q' b hi
    · cases hi
  · intro i j g1 g2 b hij hi hj
    rcases get_append hi with hi | ⟨hi', hi⟩ <;> rcases get_append hj with hj | ⟨hj', hj⟩
    · exact h.apart i j g1 g2 b hij hi hj
    · cases hj; exact absurd (h.lt i g1 _ hi) (lt_irrefl _)
    · cases hi; exact absurd (h.lt j g2 _ hj) (lt_irrefl _)
    · exact absurd (hi'.trans hj'.symm) hij
  · intro i j g1 g2 b hij hi hj
    rcases get_append hi with hi | ⟨hi', hi⟩ <;> rcases get_append hj with hj | ⟨hj', hj⟩
    · exact h.apartT i j g1 g2 b hij hi hj
    · cases hj
    · cases hi
    · cases hi

theorem wf_newT {st : State F} (h : WF st) (a : DA (Option Int)) (g : Origin F) (hg : ∀ k q, g = .attr k q → ¬ HandsOut q) :
    WF ((st.allocTime a).hold g (.tim st.next)) := by
  constructor
  · intro k o ho
    have := h.obj k o ho
    show o.base + 7 ≤ st.next + 1
    omega
  · exact h.sep
  · intro i g' b hi
    show b < st.next + 1
    rcases get_append hi with hi | ⟨-, hi⟩
    · have := h.lt i g' b hi; omega
    · cases hi
  · intro i g' b hi
    show b < st.next + 1
    rcases get_append hi with hi | ⟨-, hi⟩
    · have := h.ltT i g' b hi; omega
    · cases hi; omega
  · intro i g' b hi
    rcases get_append hi with hi | ⟨-, hi⟩
    · exact h.place i g' b hi
    · cases hi
  · intro i k' q' b hi
    rcases get_append hi with hi | ⟨-, hi⟩
    · exact h.times i k' q' b hi
    · cases hi; exact hg k' q' rfl
  · intro i j g1 g2 b hij hi hj
    rcases get_append hi with hi | ⟨hi', hi⟩ <;> rcases get_append hj with hj | ⟨hj', hj⟩
    · exact h.apart i j g1 g2 b hij hi hj
    · cases hj
    · cases hi
    · cases hi
  · intro i j g1 g2 b hij hi hj
    rcases get_append hi with hi | ⟨hi', hi⟩ <;> rcases get_append hj with hj | ⟨hj', hj⟩
    · exact h.apartT i j g1 g2 b hij hi hj
    · cases hj; exact absurd (h.ltT i g1 _ hi) (lt_irrefl _)
    · cases hi; exact absurd (h.ltT j g2 _ hj) (lt_irrefl _)
    · exact absurd (hi'.trans hj'.symm) hij

/-- two shared attributes at the same address are the same attribute of the same object -/
theorem same_attr {st : State F} (h : WF st) {k k' : Nat} {q q' : Query F} {o o' : Obj F} {a : Nat}
    (ho : st.objs[k]? = some o) (ho' : st.objs[k']? = some o') (hq : q.shared o = some a) (hq' : q'.shared o' = some a) :
    k = k' ∧ q = q' := by
  have h1 := shared_range hq
  have h2 := shared_range hq'
  rcases Nat.lt_trichotomy k k' with hk | hk | hk
  · have := h.sep k k' o o' hk ho ho'; omega
  · subst hk
    rw [ho] at ho'; cases ho'
    exact ⟨rfl, shared_inj hq hq'⟩
  · have := h.sep k' k o' o hk ho' ho; omega

theorem wf_shared {st : State F} (h : WF st) {k : Nat} {q : Query F} {o : Obj F} {a : Nat}
    (ho : st.objs[k]? = some o) (hq : q.shared o = some a) : WF (st.hold (.attr k q) (.num a)) := by
  have hs : HandsOut q := shared_iff.1 ⟨a, hq⟩
  have key : ∀ (i : Nat) (g : Origin F), st.handles[i]? = some (g, .num a) → g = .attr k q := by
    intro i g hi
    rcases h.place i g a hi with ⟨k', q', o', rfl, ho', hq'⟩ | ⟨-, hp⟩
    · obtain ⟨rfl, rfl⟩ := same_attr h ho ho' hq hq'; rfl
    · exact absurd (shared_range hq) (hp k o ho)
  constructor
  · exact h.obj
  · exact h.sep
  · intro i g' b hi
    rcases get_append hi with hi | ⟨-, hi⟩
    · exact h.lt i g' b hi
    · cases hi
      have := h.obj k o ho
      have := shared_range hq
      show a < st.next
      omega
  · intro i g' b hi
    rcases get_append hi with hi | ⟨-, hi⟩
    · exact h.ltT i g' b hi
    · cases hi
  · intro i g' b hi
    rcases get_append hi with hi | ⟨-, hi⟩
    · exact h.place i g' b hi
    · cases hi; exact .inl ⟨k, q, o, rfl, ho, hq⟩
  · intro i k' q' b hi
    rcases get_append hi with hi | ⟨-, hi⟩
    · exact h.times i k' q' b hi
    · cases hi
  · intro i j g1 g2 b hij hi hj
    rcases get_append hi with hi | ⟨hi', hi⟩ <;> rcases get_append hj with hj | ⟨hj', hj⟩
    · exact h.apart i j g1 g2 b hij hi hj
    · cases hj
      have := key i g1 hi
      exact ⟨this, k, q, this, hs⟩
    · cases hi
      have := key j g2 hj
      exact ⟨this.symm, k, q, rfl, hs⟩
    · exact absurd (hi'.trans hj'.symm) hij
  · intro i j g1 g2 b hij hi hj
    rcases get_append hi with hi | ⟨hi', hi⟩ <;> rcases get_append hj with hj | ⟨hj', hj⟩
    · exact h.apartT i j g1 g2 b hij hi hj
    · cases hj
    · cases hi
    · cases hi

theorem make_next (st : State F) (s : Sunpos F) : (st.make s).next = st.next + 7 := rfl
theorem make_objs (st : State F) (s : Sunpos F) : (st.make s).objs = st.objs ++ [⟨s, st.next⟩] := rfl
theorem make_handles (st : State F) (s : Sunpos F) : (st.make s).handles = st.handles := rfl
theorem make_tim (st : State F) (s : Sunpos F) : (st.make s).tim = st.tim := rfl

theorem make_num_old (st : State F) (s : Sunpos F) {a : Nat} (h : a < st.next) : (st.make s).num a = st.num a := by
  simp only [State.make, State.alloc, Function.update]
  simp only [show a ≠ st.next + 1 + 1 + 1 + 1 + 1 + 1 by omega, show a ≠ st.next + 1 + 1 + 1 + 1 + 1 by omega,
    show a ≠ st.next + 1 + 1 + 1 + 1 by omega, show a ≠ st.next + 1 + 1 + 1 by omega, show a ≠ st.next + 1 + 1 by omega,
    show a ≠ st.next + 1 by omega, show a ≠ st.next by omega]
  rfl

theorem make_view (st : State F) (s : Sunpos F) : (st.make s).view ⟨s, st.next⟩ = s := by
  simp [State.view, State.make, State.alloc, Function.update]
  simp only [show ∀ n m : Nat, (n = n + m + 1) = False from fun n m => by simp only [eq_iff_iff, iff_false]; omega, if_false, Nat.add_assoc]

theorem wf_make {st : State F} (h : WF st) (s : Sunpos F) : WF (st.make s) := by
  constructor
  · intro k o ho
    rw [make_next]
    rw [make_objs] at ho
    rcases get_append ho with ho | ⟨-, ho⟩
    · have := h.obj k o ho; omega
    · subst ho; exact le_rfl
  · intro j k o o' hjk ho ho'
    rw [make_objs] at ho ho'
    rcases get_append ho with ho | ⟨hj, ho⟩ <;> rcases get_append ho' with ho' | ⟨hk, ho'⟩
    · exact h.sep j k o o' hjk ho ho'
    · subst ho'; exact h.obj j o ho
    · have : k < st.objs.length := by
        by_contra hc
        rw [List.getElem?_eq_none (by omega)] at ho'; cases ho'
      omega
    · omega
  · intro i g a hi
    rw [make_next]
    have := h.lt i g a hi; omega
  · intro i g a hi
    rw [make_next]
    have := h.ltT i g a hi; omega
  · intro i g a hi
    rw [make_objs]
    have hlt := h.lt i g a hi
    rcases h.place i g a hi with ⟨k, q, o, rfl, ho, hq⟩ | ⟨hg, hp⟩
    · exact .inl ⟨k, q, o, rfl, get_append_old ho, hq⟩
    · refine .inr ⟨hg, fun k o ho => ?_⟩
      rcases get_append ho with ho | ⟨-, ho⟩
      · exact hp k o ho
      · subst ho; intro hc; have := hc.1; simp at this; omega
  · exact h.times
  · exact h.apart
  · exact h.apartT

theorem wf_step {st : State F} (h : WF st) (op : Op F) : WF (st.step op) := by
  cases op with
  | new l => exact wf_new h _ .own (fun _ _ hc => by cases hc)
  | call uc w times lat lon alg refr eng =>
    simp only [State.step]
    split
    · split
      · exact wf_make h _
      · exact h
    · exact h
  | get k q w =>
    simp only [State.step]
    split
    · exact h
    · rename_i o ho
      split
      · rename_i a hq
        exact wf_shared h ho hq
      · rename_i hq
        have hn : ¬ HandsOut q := by
          rw [← shared_iff (o := o)]
          rintro ⟨a, ha⟩
          rw [hq] at ha; cases ha
        split
        · exact wf_new h _ _ (fun k' q' hc => by cases hc; exact hn)
        · exact wf_newT h _ _ (fun k' q' hc => by cases hc; exact hn)
        · exact h
  | write i e x =>
    simp only [State.step]
    split
    · split
      · exact wf_write h _
      · exact h
    · exact h
  | writeTime i e x =>
    simp only [State.step]
    split
    · split
      · exact wf_writeT h _
      · exact h
    · exact h

theorem run_append (st : State F) (a b : List (Op F)) : st.run (a ++ b) = (st.run a).run b := by
  simp [State.run]

theorem wf_run {st : State F} (h : WF st) (ops : List (Op F)) : WF (st.run ops) := by
  induction ops generalizing st with
  | nil => exact h
  | cons op ops ih => exact ih (wf_step h op)

theorem wf_reach (ops : List (Op F)) : WF ((State.init : State F).run ops) := wf_run wf_init ops

/-! ### one step -/

/-- objects and handles are only added -/
theorem step_objs (st : State F) (op : Op F) {k : Nat} {o : Obj F} (h : st.objs[k]? = some o) : (st.step op).objs[k]? = some o := by
  cases op with
  | new l => exact h
  | call uc w times lat lon alg refr eng =>
    simp only [State.step]
    split
    · split
      · rw [make_objs]; exact get_append_old h
      · exact h
    · exact h
  | get k q w =>
    simp only [State.step]
    split
    · exact h
    · split
      · exact h
      · split <;> exact h
  | write i e x =>
    simp only [State.step]
    split
    · split <;> exact h
    · exact h
  | writeTime i e x =>
    simp only [State.step]
    split
    · split <;> exact h
    · exact h

theorem step_handles (st : State F) (op : Op F) {i : Nat} {g : Origin F × Addr} (h : st.handles[i]? = some g) :
    (st.step op).handles[i]? = some g := by
  cases op with
  | new l => exact get_append_old h
  | call uc w times lat lon alg refr eng =>
    simp only [State.step]
    split
    · split
      · exact h
      · exact h
    · exact h
  | get k q w =>
    simp only [State.step]
    split
    · exact h
    · split
      · exact get_append_old h
      · split
        · exact get_append_old h
        · exact get_append_old h
        · exact h
  | write i e x =>
    simp only [State.step]
    split
    · split <;> exact h
    · exact h
  | writeTime i e x =>
    simp only [State.step]
    split
    · split <;> exact h
    · exact h

/-- an existing array of numbers changes only by a write through a handle of it -/
theorem step_num {st : State F} (op : Op F) {a : Nat} (ha : a < st.next)
    (hw : ∀ i e x g, op = .write i e x → st.handles[i]? ≠ some (g, .num a)) : (st.step op).num a = st.num a := by
  cases op with
  | new l => exact Function.update_of_ne (by omega) _ _
  | call uc w times lat lon alg refr eng =>
    simp only [State.step]
    split
    · split
      · exact make_num_old st _ ha
      · rfl
    · rfl
  | get k q w =>
    simp only [State.step]
    split
    · rfl
    · split
      · rfl
      · split
        · exact Function.update_of_ne (by omega) _ _
        · rfl
        · rfl
  | write i e x =>
    simp only [State.step]
    split
    · rename_i g b hb
      split
      · refine Function.update_of_ne ?_ _ _
        rintro rfl
        exact hw i e x g rfl hb
      · rfl
    · rfl
  | writeTime i e x =>
    simp only [State.step]
    split
    · split <;> rfl
    · rfl

theorem step_tim {st : State F} (op : Op F) {a : Nat} (ha : a < st.next)
    (hw : ∀ i e x g, op = .writeTime i e x → st.handles[i]? ≠ some (g, .tim a)) : (st.step op).tim a = st.tim a := by
  cases op with
  | new l => rfl
  | call uc w times lat lon alg refr eng =>
    simp only [State.step]
    split
    · split
      · rfl
      · rfl
    · rfl
  | get k q w =>
    simp only [State.step]
    split
    · rfl
    · split
      · rfl
      · split
        · rfl
        · exact Function.update_of_ne (by omega) _ _
        · rfl
  | write i e x =>
    simp only [State.step]
    split
    · split <;> rfl
    · rfl
  | writeTime i e x =>
    simp only [State.step]
    split
    · rename_i g b hb
      split
      · refine Function.update_of_ne ?_ _ _
        rintro rfl
        exact hw i e x g rfl hb
      · rfl
    · rfl

theorem view_congr {st st' : State F} {o : Obj F} (h : ∀ a, o.base ≤ a → a < o.base + 7 → st'.num a = st.num a) : st'.view o = st.view o := by
  simp only [State.view]
  rw [h o.base (by omega) (by omega), h (o.base + 1) (by omega) (by omega), h (o.base + 2) (by omega) (by omega),
    h (o.base + 3) (by omega) (by omega), h (o.base + 4) (by omega) (by omega), h (o.base + 5) (by omega) (by omega),
    h (o.base + 6) (by omega) (by omega)]

theorem NoWrite.head {st : State F} {P : Nat → Origin F → Prop} {op : Op F} {ops : List (Op F)} (h : NoWrite st P (op :: ops)) :
    NoWrite (st.step op) P ops := by
  constructor
  · intro a i e x b hab g ad hg
    exact h.1 (op :: a) i e x b (by rw [hab]; rfl) g ad hg
  · intro a i e x b hab g ad hg
    exact h.2 (op :: a) i e x b (by rw [hab]; rfl) g ad hg

end Heap86
open Heap86

/-! ### theorems -/

/-- C86: the objects are not changed by anything a program does, but writing into the arrays `latitude`, `longitude`, `ecf` and `eot` of the
object itself: neither by writing into the arrays it was made from, nor into its `zenith`, `cosz`, `sunrise()`.. arrays, nor by other calls, nor
by reading its attributes in any order. -/
theorem C86_unchanged (pre ops : List (Op F)) (k : Nat) (hk : k < ((State.init : State F).run pre).objs.length)
    (h : NoWrite (State.init.run pre) (fun _ g => ∃ q, g = .attr k q ∧ HandsOut q) ops) (q : Query F) (w : World F) :
    (State.init.run (pre ++ ops)).observe k q w = (State.init.run pre).observe k q w := by
  rw [run_append]
  obtain ⟨o, ho⟩ : ∃ o, ((State.init : State F).run pre).objs[k]? = some o := ⟨_, List.getElem?_eq_getElem hk⟩
  have hwf := wf_reach (F := F) pre
  generalize (State.init : State F).run pre = st at *
  suffices hs : (st.run ops).objs[k]? = some o ∧ (st.run ops).view o = st.view o by
    simp only [State.observe, hs.1, ho, Option.map_some, hs.2]
  clear hk
  induction ops generalizing st with
  | nil => exact ⟨ho, rfl⟩
  | cons op ops ih =>
    obtain ⟨h1, h2⟩ := ih (st.step op) (NoWrite.head h) (step_objs st op ho) (wf_step hwf op)
    refine ⟨h1, h2.trans (view_congr fun a ha1 ha2 => step_num op (by have := hwf.obj k o ho; omega) ?_)⟩
    rintro i e x g rfl hi
    refine h.1 [] i e x ops rfl g (.num a) hi ?_
    rcases hwf.place i g a hi with ⟨k', q', o', rfl, ho', hq'⟩ | ⟨-, hp⟩
    · refine ⟨q', ?_, shared_iff.1 ⟨a, hq'⟩⟩
      have := shared_range hq'
      rcases Nat.lt_trichotomy k k' with hkk | rfl | hkk
      · have := hwf.sep k k' o o' hkk ho ho'; omega
      · rfl
      · have := hwf.sep k' k o' o hkk ho' ho; omega
    · exact absurd ⟨ha1, ha2⟩ (hp k o ho)

/-- C86: what an object says is what the call computed from the values its arguments had at the call, whatever the program does before and after,
as long as it does not write into that object's `latitude`, `longitude`, `ecf` and `eot`. So the theorems about the results of calls hold at any
point of any program. -/
theorem C86_result (pre ops : List (Op F)) {uc : UseCase} {w : World F} {times : Times} {latitude longitude : Arg F} {algorithm engine : String}
    {refraction : PyVal} {lat lon : Coord F} {s : Sunpos F}
    (hlat : ((State.init : State F).run pre).arg latitude = .ok lat) (hlon : (State.init.run pre).arg longitude = .ok lon)
    (hs : SW.call uc w times lat lon algorithm refraction engine = .ok s) :
    let made := pre ++ [.call uc w times latitude longitude algorithm refraction engine]
    let k := ((State.init : State F).run pre).objs.length
    NoWrite (State.init.run made) (fun _ g => ∃ q, g = .attr k q ∧ HandsOut q) ops →
    ∀ (q : Query F) (w' : World F), (State.init.run (made ++ ops)).observe k q w' = some (q.eval w' s) := by
  intro made k hno q w'
  have hst : (State.init : State F).run made = (State.init.run pre).make s := by
    simp only [made, run_append]
    simp only [State.run, List.foldl_cons, List.foldl_nil]
    change ((State.init : State F).run pre).step _ = ((State.init : State F).run pre).make s
    simp only [State.step, hlat, hlon, hs]
  have hk : k < ((State.init : State F).run made).objs.length := by
    rw [hst, make_objs]; simp [k]
  rw [C86_unchanged made ops k hk hno q w', hst]
  simp only [State.observe, make_objs]
  rw [List.getElem?_append_right (by simp [k])]
  simp [k, make_view]

/-- C86: the same, attribute by attribute: at any later point of the program each gives what it gives for the object `s` the call computes. -/
theorem C86_each (pre ops : List (Op F)) {uc : UseCase} {w : World F} {times : Times} {latitude longitude : Arg F} {algorithm engine : String}
    {refraction : PyVal} {lat lon : Coord F} {s : Sunpos F}
    (hlat : ((State.init : State F).run pre).arg latitude = .ok lat) (hlon : (State.init.run pre).arg longitude = .ok lon)
    (hs : SW.call uc w times lat lon algorithm refraction engine = .ok s) :
    let made := pre ++ [.call uc w times latitude longitude algorithm refraction engine]
    let k := ((State.init : State F).run pre).objs.length
    NoWrite (State.init.run made) (fun _ g => ∃ q, g = .attr k q ∧ HandsOut q) ops →
    let obs := (State.init.run (made ++ ops)).observe k
    ∀ w' : World F,
      obs .latitude w' = some (.ok (.angle s.latitude)) ∧ obs .longitude w' = some (.ok (.angle s.longitude)) ∧
      obs .ecf w' = some (.ok (.angle s.ecf)) ∧ obs .eot w' = some (.ok (.angle s.eot)) ∧
      obs .trueSolarTime w' = some (.ok (.time (s.trueSolarTime w'))) ∧
      obs .declination w' = some (.ok (.angle s.decDeg)) ∧ obs .dec w' = some (.ok (.angle s.decDeg)) ∧
      obs .zenith w' = some (.ok (.angle s.zenithDeg)) ∧ obs .sza w' = some (.ok (.angle s.zenithDeg)) ∧
      obs .elevation w' = some (.ok (.angle s.elevation)) ∧
      obs .azimuth w' = some (.ok (.angle s.azimuthDeg)) ∧ obs .saa w' = some (.ok (.angle s.azimuthDeg)) ∧
      obs .cosz w' = some (.ok (.angle s.cosz)) ∧
      (∀ isc c, obs (.eth isc c) w' = some ((s.eth isc c).map .angle)) ∧
      (∀ p, obs (.airmass p) w' = some ((s.airmass p).map .angle)) ∧
      (∀ u, obs (.sunrise u) w' = some (s.sunrise w' u)) ∧ (∀ u, obs (.sunset u) w' = some (s.sunset w' u)) ∧
      obs .daylightLength w' = some ((s.daylightLength w').map .angle) ∧
      ∀ slope az, obs (.incidence slope az) w' = some (.ok (.angle (s.incidence w' slope az))) := by
  intro made k hno obs w'
  have h : ∀ q, obs q w' = some (q.eval w' s) := fun q => C86_result pre ops hlat hlon hs hno q w'
  simp only [h, Query.eval]
  simp

/-- C86: an array made from the list `l` is the list `l` when passed to a use case. -/
theorem C86_input_new (pre : List (Op F)) (l : List F) :
    ((State.init : State F).run (pre ++ [.new l])).arg (.handle (State.init.run pre : State F).handles.length) = .ok (.vec l) := by
  rw [run_append]
  generalize (State.init : State F).run pre = st
  simp only [State.run, List.foldl_cons, List.foldl_nil, State.step, State.arg, State.hold, State.alloc]
  rw [List.getElem?_append_right le_rfl]
  simp only [Nat.sub_self, List.getElem?_cons_zero, Function.update_self, DA.along, coordOf]
  congr 2
  refine List.ext_getElem (by simp) fun n h1 h2 => ?_
  simp [List.getD_eq_getElem?_getD, h2]

/-- C86: and after writing `x` into cell `j` it is the list with `x` at `j`. -/
theorem C86_input_write (pre : List (Op F)) {i j : Nat} {l : List F} {x : F}
    (hl : ((State.init : State F).run pre).arg (.handle i) = .ok (.vec l)) (hj : j < l.length) :
    (State.init.run (pre ++ [.write i (fun _ => j) x])).arg (.handle i) = .ok (.vec (l.set j x)) := by
  rw [run_append]
  generalize (State.init : State F).run pre = st at *
  have hst : st.run [.write i (fun _ => j) x] = st.step (.write i (fun _ => j) x) := rfl
  rw [hst]
  simp only [State.arg] at hl
  split at hl
  · rename_i g a hi
    have hc : coordOf (st.num a) = .vec l := by injection hl
    have hd : ∃ d, (st.num a).dims = [(d, l.length)] ∧ l = (List.range l.length).map fun k => (st.num a).get fun _ => k := by
      unfold coordOf at hc
      split at hc
      · cases hc
      · rename_i d n hd
        injection hc with hc
        have : n = l.length := by rw [← hc]; simp
        subst this
        exact ⟨d, hd, hc.symm⟩
      · cases hc
    obtain ⟨d, hd, hm⟩ := hd
    have hin : inBounds (st.num a).dims (fun _ => j) = true := by simp [inBounds, hd, hj]
    have hs : st.step (.write i (fun _ => j) x) = { st with num := Function.update st.num a (setCell (st.num a) (fun _ => j) x) } := by
      simp only [State.step, hi, hin, if_true]
    rw [hs]
    simp only [hi, State.arg, Function.update_self, setCell, coordOf, hd]
    congr 2
    refine List.ext_getElem (by simp) fun n h1 h2 => ?_
    have hn : n < l.length := by simpa using h1
    have hg : l[n] = (st.num a).get fun _ => n := by
      conv_lhs => rw [List.getElem_of_eq hm]
      simp
    rw [List.getElem_set]
    by_cases hjn : j = n
    · simp [sameCell, hjn]
    · simp [sameCell, hjn, hg, Ne.symm hjn]
  · cases hl

/-- C86: reading gives an array that contains what the object says; if there is no such object, or the method raises, nothing changes. -/
theorem C86_get (st : State F) (k : Nat) (q : Query F) (w : World F) :
    (∀ r, st.observe k q w = some (.ok r) →
      (st.step (.get k q w)).content st.handles.length = some r ∧ (st.step (.get k q w)).handles.length = st.handles.length + 1) ∧
    ((∀ r, st.observe k q w ≠ some (.ok r)) → st.step (.get k q w) = st) := by
  constructor
  · intro r hr
    rcases ho : st.objs[k]? with _ | o
    · simp [State.observe, ho] at hr
    · simp only [State.observe, ho, Option.map_some, Option.some.injEq] at hr
      rcases hq : q.shared o with _ | a
      · simp only [State.step, ho, hq, hr]
        cases r with
        | angle a => simp [State.content, State.hold, State.alloc]
        | time a => simp [State.content, State.hold, State.allocTime]
      · simp only [State.step, ho, hq]
        have : HandsOut q := shared_iff.1 ⟨a, hq⟩
        rcases this with rfl | rfl | rfl | rfl <;> simp [Query.shared] at hq <;> subst hq <;> simp [Query.eval, State.view] at hr <;>
          subst hr <;> simp [State.content, State.hold]
  · intro hr
    rcases ho : st.objs[k]? with _ | o
    · simp only [State.step, ho]
    · simp only [State.observe, ho, Option.map_some, ne_eq, Option.some.injEq] at hr
      rcases hq : q.shared o with _ | a
      · simp only [State.step, ho, hq]
        split
        · rename_i a h; exact absurd h (hr _)
        · rename_i a h; exact absurd h (hr _)
        · rfl
      · have : HandsOut q := shared_iff.1 ⟨a, hq⟩
        rcases this with rfl | rfl | rfl | rfl <;> exact absurd rfl (hr _)

/-- C86: a call that raises leaves no trace. -/
theorem C86_raised (st : State F) {uc : UseCase} {w : World F} {times : Times} {latitude longitude : Arg F} {algorithm engine : String}
    {refraction : PyVal} {lat lon : Coord F} {err : PyErr} (hlat : st.arg latitude = .ok lat) (hlon : st.arg longitude = .ok lon)
    (hs : SW.call uc w times lat lon algorithm refraction engine = .error err) :
    st.step (.call uc w times latitude longitude algorithm refraction engine) = st := by
  simp only [State.step, hlat, hlon, hs]

/-- C86: the arrays a program holds change only when it writes into them: `content i` is what it was unless the history writes through `i`
itself or, if `i` is an object's `latitude`, `longitude`, `ecf` or `eot`, through another array got from the same attribute of the same object. In
particular no call and no attribute or method writes into its arguments or into results handed out before. -/
theorem C86_held (pre ops : List (Op F)) {i : Nat} {g : Origin F} {ad : Addr} (hi : ((State.init : State F).run pre).handles[i]? = some (g, ad))
    (h : NoWrite (State.init.run pre) (fun j g' => j = i ∨ (g' = g ∧ ∃ k q, g = .attr k q ∧ HandsOut q)) ops) :
    (State.init.run (pre ++ ops)).content i = (State.init.run pre).content i := by
  rw [run_append]
  have hwf := wf_reach (F := F) pre
  generalize (State.init : State F).run pre = st at *
  suffices hs : (st.run ops).handles[i]? = some (g, ad) ∧ (∀ a, ad = .num a → (st.run ops).num a = st.num a) ∧
      (∀ a, ad = .tim a → (st.run ops).tim a = st.tim a) by
    simp only [State.content, hs.1, hi, Option.map_some]
    cases ad with
    | num a => simp only [hs.2.1 a rfl]
    | tim a => simp only [hs.2.2 a rfl]
  induction ops generalizing st with
  | nil => exact ⟨hi, fun _ _ => rfl, fun _ _ => rfl⟩
  | cons op ops ih =>
    obtain ⟨h1, h2, h3⟩ := ih (st.step op) (step_handles st op hi) (NoWrite.head h) (wf_step hwf op)
    refine ⟨h1, fun a ha => (h2 a ha).trans (step_num op (hwf.lt i g a (ha ▸ hi)) ?_),
      fun a ha => (h3 a ha).trans (step_tim op (hwf.ltT i g a (ha ▸ hi)) ?_)⟩
    · rintro j e x g' rfl hj
      refine h.1 [] j e x ops rfl g' _ hj ?_
      subst ha
      by_cases hji : j = i
      · exact .inl hji
      · obtain ⟨hg, k, q, hk, hq⟩ := hwf.apart j i g' g a hji hj hi
        exact .inr ⟨hg, k, q, hg ▸ hk, hq⟩
    · rintro j e x g' rfl hj
      refine h.2 [] j e x ops rfl g' _ hj ?_
      subst ha
      by_cases hji : j = i
      · exact .inl hji
      · exact (hwf.apartT j i g' g a hji hj hi).elim

/-- C86: programs that only make arrays, call use cases and read change nothing that exists. -/
theorem C86_reads (pre ops : List (Op F)) (h : ∀ op ∈ ops, (∀ i e x, op ≠ .write i e x) ∧ ∀ i e x, op ≠ .writeTime i e x) :
    (∀ k q w, k < ((State.init : State F).run pre).objs.length →
      (State.init.run (pre ++ ops)).observe k q w = (State.init.run pre).observe k q w) ∧
    (∀ i, i < ((State.init : State F).run pre).handles.length → (State.init.run (pre ++ ops)).content i = (State.init.run pre).content i) := by
  have hno : ∀ P, NoWrite ((State.init : State F).run pre) P ops := fun P =>
    ⟨fun a i e x b hab => absurd rfl ((h (.write i e x) (by rw [hab]; simp)).1 i e x),
      fun a i e x b hab => absurd rfl ((h (.writeTime i e x) (by rw [hab]; simp)).2 i e x)⟩
  refine ⟨fun k q w hk => C86_unchanged pre ops k hk (hno _) q w, fun i hi => ?_⟩
  rcases hg : ((State.init : State F).run pre).handles[i] with ⟨g, ad⟩
  exact C86_held pre ops (g := g) (ad := ad) (by rw [List.getElem?_eq_getElem hi, hg]) (hno _)

/-- the object with the array that attribute `q` hands out replaced by `a` -/
def withArray (s : Sunpos F) (q : Query F) (a : DA F) : Sunpos F :=
  match q with
  | .latitude => { s with latitude := a }
  | .longitude => { s with longitude := a }
  | .ecf => { s with ecf := a }
  | .eot => { s with eot := a }
  | _ => s

/-- C86: the exception. Writing `x` into cell `e` of what `latitude`, `longitude`, `ecf` or `eot` of an object returned (at any time before)
changes that array of the object, in that cell, and with it everything the object says later; and nothing else of the object. -/
theorem C86_alias (pre : List (Op F)) {i k : Nat} {q : Query F} {ad : Addr} {e : Dim → Nat} {x : F}
    (hi : ((State.init : State F).run pre).handles[i]? = some (.attr k q, ad)) (hq : HandsOut q) :
    ∃ (s : Sunpos F) (a : DA F), (∀ w, (State.init.run pre).observe k q w = some (.ok (.angle a))) ∧
      (∀ q' w, (State.init.run pre).observe k q' w = some (q'.eval w s)) ∧
      (Within a e →
        (∀ q' w, (State.init.run (pre ++ [.write i e x])).observe k q' w =
          some (q'.eval w (withArray s q ⟨a.dims, fun e' => if ∀ p ∈ a.dims, e' p.1 = e p.1 then x else a.get e'⟩))) ∧
        ∃ a', (∀ w, (State.init.run (pre ++ [.write i e x])).observe k q w = some (.ok (.angle a'))) ∧ a'.get e = x) := by
  rw [run_append]
  have hwf := wf_reach (F := F) pre
  generalize (State.init : State F).run pre = st at *
  have hst : st.run [.write i e x] = st.step (.write i e x) := rfl
  rw [hst]
  obtain ⟨o, b, ho, hb, rfl⟩ : ∃ (o : Obj F) (b : Nat), st.objs[k]? = some o ∧ q.shared o = some b ∧ ad = .num b := by
    cases ad with
    | num b =>
      rcases hwf.place i _ b hi with ⟨k', q', o, hg, ho, hb⟩ | ⟨hg, -⟩
      · cases hg; exact ⟨o, b, ho, hb, rfl⟩
      · exact absurd hq (hg k q rfl)
    | tim b => exact absurd hq (hwf.times i k q b hi)
  refine ⟨st.view o, st.num b, fun w => ?_, fun q' w => ?_, fun he => ?_⟩
  · simp only [State.observe, ho, Option.map_some]
    rcases hq with rfl | rfl | rfl | rfl <;> simp [Query.shared] at hb <;> subst hb <;> rfl
  · simp only [State.observe, ho, Option.map_some]
  · have hin : inBounds (st.num b).dims e = true := by
      simpa [inBounds, Within] using he
    have hset : setCell (st.num b) e x =
        ⟨(st.num b).dims, fun e' => if ∀ p ∈ (st.num b).dims, e' p.1 = e p.1 then x else (st.num b).get e'⟩ := by
      simp only [setCell, sameCell, List.all_eq_true, beq_iff_eq]
    have hw : st.step (.write i e x) = { st with num := Function.update st.num b (setCell (st.num b) e x) } := by
      simp only [State.step, hi, hin, if_true]
    have hv : (st.step (.write i e x)).view o = withArray (st.view o) q (setCell (st.num b) e x) := by
      rw [hw]
      rcases hq with rfl | rfl | rfl | rfl <;> simp [Query.shared] at hb <;> subst hb <;> simp [State.view, withArray, Function.update]
    have ho' := step_objs st (.write i e x) ho
    refine ⟨fun q' w => ?_, setCell (st.num b) e x, fun w => ?_, ?_⟩
    · simp only [State.observe, ho', Option.map_some, hv, hset]
    · simp only [State.observe, ho', Option.map_some, hv]
      rcases hq with rfl | rfl | rfl | rfl <;> rfl
    · simp [setCell, sameCell]

/-- A program: an array of latitudes, one of longitudes, a call of `sites` with them, a read of `zenith` (array 2 of the program) and one of
`ecf` (array 3). -/
noncomputable def exProgram : List (Op XR) :=
  [.new [.fin 36.9], .new [.fin (-4.4)], .call .sites exWorld exTimes (.handle 0) (.handle 1) "psa" .pyTrue "numexpr",
    .get 0 .zenith exWorld, .get 0 .ecf exWorld]

theorem exProgram_call : ∃ s, SW.call .sites exWorld exTimes (.vec [XR.fin 36.9]) (.vec [XR.fin (-4.4)]) "psa" .pyTrue "numexpr" = .ok s :=
  C05_naive_returns (uc := .sites) (w := exWorld) (times := exTimes) (lat := [.fin 36.9]) (lon := [.fin (-4.4)]) .pyTrue rfl rfl rfl rfl
    (by simp [Lengths]) (by simp [KnownPair]) (latOk_XR.2 (by simp [LatAdm]; norm_num)) (lonOk_XR.2 (by simp [LonAdm]; norm_num))

/-- what the program holds -/
theorem exProgram_handles : ∃ s : Sunpos XR,
    SW.call .sites exWorld exTimes (.vec [XR.fin 36.9]) (.vec [XR.fin (-4.4)]) "psa" .pyTrue "numexpr" = .ok s ∧
    ((State.init : State XR).run exProgram).objs = [⟨s, 2⟩] ∧
    (State.init.run exProgram).handles =
      [(.own, .num 0), (.own, .num 1), (.attr 0 .zenith, .num 9), (.attr 0 .ecf, .num 4)] ∧
    (State.init.run exProgram).num 4 = s.ecf := by
  obtain ⟨s, hs⟩ := exProgram_call
  refine ⟨s, hs, ?_⟩
  have h0 : ((State.init : State XR).run [.new [.fin 36.9], .new [.fin (-4.4)]]).arg (.handle 0) = .ok (.vec [XR.fin 36.9]) := by
    simp [State.run, State.step, State.arg, State.init, State.alloc, State.hold, coordOf, DA.along, Function.update]
  have h1 : ((State.init : State XR).run [.new [.fin 36.9], .new [.fin (-4.4)]]).arg (.handle 1) = .ok (.vec [XR.fin (-4.4)]) := by
    simp [State.run, State.step, State.arg, State.init, State.alloc, State.hold, coordOf, DA.along, Function.update]
  have h2 : (State.init : State XR).run exProgram =
      ((((State.init : State XR).run [.new [.fin 36.9], .new [.fin (-4.4)]]).make s).step (.get 0 .zenith exWorld)).step
        (.get 0 .ecf exWorld) := by
    rw [show exProgram = [.new [.fin 36.9], .new [.fin (-4.4)]] ++ [.call .sites exWorld exTimes (.handle 0) (.handle 1) "psa" .pyTrue "numexpr",
      .get 0 .zenith exWorld, .get 0 .ecf exWorld] from rfl, run_append]
    generalize (State.init : State XR).run [.new [.fin 36.9], .new [.fin (-4.4)]] = st at *
    have hc : st.step (.call .sites exWorld exTimes (.handle 0) (.handle 1) "psa" .pyTrue "numexpr") = st.make s := by
      simp only [State.step, h0, h1, hs]
    rw [← hc]
    simp only [State.run, List.foldl_cons, List.foldl_nil]
  rw [h2]
  refine ⟨?_, ?_, ?_⟩ <;>
    simp [State.run, State.step, State.make, State.alloc, State.hold, State.init, Query.shared, Query.eval, Function.update]

/-- Overwriting the latitudes the object was made from, and its `zenith`, changes nothing it says: C86_unchanged applies. -/
example (q : Query XR) (w : World XR) :
    ((State.init : State XR).run (exProgram ++ [.write 0 (fun _ => 0) (.fin 99), .write 2 (fun _ => 0) (.fin 0)])).observe 0 q w =
      (State.init.run exProgram).observe 0 q w := by
  obtain ⟨s, -, ho, hh, -⟩ := exProgram_handles
  refine C86_unchanged _ _ 0 (by rw [ho]; simp) ⟨?_, ?_⟩ q w
  · intro a i e x b hab g ad hg
    rcases a with _ | ⟨a1, _ | ⟨a2, a⟩⟩
    · simp at hab
      obtain ⟨⟨rfl, -, -⟩, -⟩ := hab
      simp [State.run] at hg
      change ((State.init : State XR).run exProgram).handles[0]? = _ at hg
      rw [hh] at hg
      simp at hg
      obtain ⟨rfl, -⟩ := hg
      rintro ⟨q, hq, -⟩; cases hq
    · simp at hab
      obtain ⟨-, ⟨rfl, -, -⟩, -⟩ := hab
      have := step_handles ((State.init : State XR).run exProgram) a1 (i := 2) (g := (.attr 0 .zenith, .num 9)) (by rw [hh]; rfl)
      change (((State.init : State XR).run exProgram).step a1).handles[2]? = _ at hg
      rw [this] at hg
      simp at hg
      obtain ⟨rfl, -⟩ := hg
      rintro ⟨q, hq, hs⟩
      cases hq
      simp [HandsOut] at hs
    · simp at hab
  · intro a i e x b hab
    rcases a with _ | ⟨a1, _ | ⟨a2, a⟩⟩ <;> simp at hab

/-- Another call with the same arrays, and every attribute read again: C86_reads applies. -/
example : ((State.init : State XR).run (exProgram ++ [.call .sites exWorld exTimes (.handle 0) (.handle 1) "nrel" .pyTrue "numexpr",
    .get 0 (.sunrise "utc") exWorld, .get 1 .zenith exWorld])).content 0 = (State.init.run exProgram).content 0 := by
  obtain ⟨s, -, ho, hh, -⟩ := exProgram_handles
  exact (C86_reads exProgram _ (by simp)).2 0 (by rw [hh]; simp)

/-- Writing 0 into the first cell of its `ecf` changes its `ecf`: C86_alias applies. -/
example : ∃ a' : DA XR, (∀ w, ((State.init : State XR).run (exProgram ++ [.write 3 (fun _ => 0) (.fin 0)])).observe 0 .ecf w =
    some (.ok (.angle a'))) ∧ a'.get (fun _ => 0) = .fin 0 := by
  obtain ⟨s, hs, ho, hh, hn⟩ := exProgram_handles
  obtain ⟨s', a, h1, h2, h3⟩ := C86_alias (F := XR) exProgram (i := 3) (k := 0) (q := .ecf) (ad := .num 4) (e := fun _ => 0) (x := .fin 0)
    (by rw [hh]; rfl) (by simp [HandsOut])
  refine (h3 ?_).2
  have := h1 exWorld
  simp only [State.observe, ho] at this
  simp [Query.eval, State.view, hn] at this
  subst this
  obtain ⟨lat, lon, b, utc, hacc, hu, hr⟩ := call_inv hs
  intro p hp
  rw [hr.ecf_dims] at hp
  simp [exTimes] at hp
  subst hp; simp

end SW.Props
