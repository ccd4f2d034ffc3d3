/-
C97: the table of speeds across runs that are killed or raise.
-/
import Verif.SpeedFiles
import Verif.Props.BenchFigures

namespace SW.Props
open SW SW.Spec SW.Bench

/-! ### specification -/

/-- the arguments of the measurement in a column of the table -/
inductive ColumnOf : String → NLocs → Prop
  | one : ColumnOf "1" (.int 1)
  | ten : ColumnOf "10" (.int 10)
  | hundred : ColumnOf "100" (.int 100)
  | grid10 : ColumnOf "10x10" (.text "10x10".toList)
  | grid50 : ColumnOf "50x50" (.text "50x50".toList)
  | grid100 : ColumnOf "100x100" (.text "100x100".toList)

/-- the ten methods: library and algorithm -/
def speedNames : List (String × String) :=
  [("sunwhere", "nrel_numexpr"), ("sunwhere", "soltrack_numexpr"), ("sunwhere", "soltrack_numpy"), ("sunwhere", "psa_numexpr"), ("sunwhere", "psa_numpy"),
   ("sunwhere", "iqbal_numexpr"), ("sunwhere", "iqbal_numpy"), ("pvlib", "nrel_numba"), ("pvlib", "nrel_numpy"), ("sg2", "sg2_c++")]

/-- the file of a method -/
def tableFile (m : String × String) : String := "exec_time_us_" ++ m.1 ++ "_" ++ m.2 ++ ".parquet"

/-- the directories that calls (each with its own environment, ended or killed at any effect) can make of a directory -/
inductive SpeedHistory (cow : Bool) : SpeedDir → SpeedDir → Prop
  | start (d : SpeedDir) : SpeedHistory cow d d
  | call {d d' : SpeedDir} (env : Request → SpeedEnv XR) (budget : Nat) : SpeedHistory cow d d' → SpeedHistory cow d (loadSpeedTests cow env budget d').dir

/-- the rows and columns of a table, in order -/
def speedKeys : List (Int × String) :=
  ([1, 10, 100, 1000, 10000, 50000, 100000, 500000] : List Int).flatMap fun n => ["1", "10", "100", "10x10", "50x50", "100x100"].map fun c => (n, c)

/-- A frame that was measured with these environments: one cell for each number of times and of places; with copy-on-write nothing in it, without it the mean of the measurement, but
nothing for the large grids at more than a thousand times. -/
structure MeasuredFrame (cow : Bool) (env : Request → SpeedEnv XR) (m : String × String) (frame : SpeedTable) : Prop where
  keys : frame.map Prod.fst = speedKeys
  missing : ∀ cell ∈ frame, cow = true ∨ (1000 < cell.1.1 ∧ cell.1.2 ∈ ["50x50", "100x100"]) → cell.2 = none
  value : ∀ cell ∈ frame, ∀ locs, ColumnOf cell.1.2 locs → cow = false → (cell.1.1 ≤ 1000 ∨ cell.1.2 ∉ ["50x50", "100x100"]) →
    ∃ sp, speedMeter (env (m.1, m.2, cell.1.1, locs)) m.1 m.2 cell.1.1 locs 3 1 = .ok sp ∧ cell.2 = sp.mean

namespace SpeedCache

/-! ### the steps -/

theorem proc_ok {α β : Type} {x : Proc α} {f : α → Proc β} {s s' : SpeedSt} {b : β} :
    (x >>= f) s = .ok b s' ↔ ∃ a s1, x s = .ok a s1 ∧ f a s1 = .ok b s' := by
  show EStateM.bind x f s = _ ↔ _
  unfold EStateM.bind
  cases h : x s with
  | ok a s1 => simp
  | error e s1 => simp

theorem proc_err {α β : Type} {x : Proc α} {f : α → Proc β} {s s' : SpeedSt} {e : Stop} :
    (x >>= f) s = .error e s' ↔ x s = .error e s' ∨ ∃ a s1, x s = .ok a s1 ∧ f a s1 = .error e s' := by
  show EStateM.bind x f s = _ ↔ _
  unfold EStateM.bind
  cases h : x s with
  | ok a s1 => simp
  | error e s1 => simp

theorem tick_ok {s s' : SpeedSt} {u : Unit} : tick s = .ok u s' ↔ 0 < s.budget ∧ s' = { s with budget := s.budget - 1 } := by
  unfold tick
  split_ifs with h
  · simp [h]
  · simp [Nat.pos_of_ne_zero h, eq_comm]

theorem tick_err {s s' : SpeedSt} {e : Stop} : tick s = .error e s' ↔ s.budget = 0 ∧ e = .killed ∧ s' = s := by
  unfold tick
  split_ifs with h
  · simp [h, eq_comm]
  · simp [h]

theorem raising_ok {α : Type} {x : Except PyErr α} {s s' : SpeedSt} {a : α} : raising x s = .ok a s' ↔ x = .ok a ∧ s' = s := by
  cases x with
  | ok b => simp [raising, eq_comm]
  | error e => simp [raising]

theorem raising_err {α : Type} {x : Except PyErr α} {s s' : SpeedSt} {e : Stop} : raising x s = .error e s' ↔ ∃ p, x = .error p ∧ e = .raised p ∧ s' = s := by
  cases x with
  | ok b => simp [raising]
  | error p => simp [raising, eq_comm]

/-- the requests of one algorithm -/
def reqs (l a : String) (cells : List (Int × (String × NLocs × Bool))) : List Request :=
  cells.filterMap fun x => if 1000 < x.1 ∧ x.2.2.2 = true then none else some (l, a, x.1, x.2.2.1)

/-- the mean that a request gives -/
noncomputable def valOf (env : Request → SpeedEnv XR) (q : Request) : Option ℝ :=
  match speedMeter (env q) q.1 q.2.1 q.2.2.1 q.2.2.2 3 1 with
  | .ok sp => sp.mean
  | .error _ => none

/-- the table after the cells -/
noncomputable def fillT (cow : Bool) (env : Request → SpeedEnv XR) (l a : String) (cells : List (Int × (String × NLocs × Bool))) (t : SpeedTable) : SpeedTable :=
  cells.foldl (fun t x => if 1000 < x.1 ∧ x.2.2.2 = true then t else setCell cow t x.1 x.2.1 (valOf env (l, a, x.1, x.2.2.1))) t

theorem measure_ok {cow : Bool} {env : Request → SpeedEnv XR} {l a : String} {cells : List (Int × (String × NLocs × Bool))} : ∀ {t t' : SpeedTable} {s s' : SpeedSt},
    measureCells cow env l a cells t s = .ok t' s' → t' = fillT cow env l a cells t ∧ s'.dir = s.dir ∧ s'.log = s.log ++ reqs l a cells ∧
      s'.budget + (reqs l a cells).length = s.budget ∧
      ∀ q ∈ reqs l a cells, ∃ sp, speedMeter (env q) q.1 q.2.1 q.2.2.1 q.2.2.2 3 1 = .ok sp := by
  induction cells with
  | nil =>
    intro t t' s s' h
    unfold measureCells at h
    cases h
    simp [fillT, reqs]
  | cons x rest ih =>
    obtain ⟨n, label, locs, big⟩ := x
    intro t t' s s' h
    unfold measureCells at h
    by_cases hb : 1000 < n ∧ big = true
    · rw [if_pos hb] at h
      obtain ⟨h1, h2, h3, h4, h5⟩ := ih h
      have e : reqs l a ((n, label, locs, big) :: rest) = reqs l a rest := by
        unfold reqs; rw [List.filterMap_cons]; simp only; rw [if_pos hb]
      rw [e]
      refine ⟨?_, h2, h3, h4, h5⟩
      rw [h1]; unfold fillT; rw [List.foldl_cons]; simp only; rw [if_pos hb]
    · rw [if_neg hb] at h
      obtain ⟨_, s1, k1, h⟩ := proc_ok.1 h
      obtain ⟨sp, s2, k2, h⟩ := proc_ok.1 h
      obtain ⟨_, s3, k3, h⟩ := proc_ok.1 h
      obtain ⟨p, rfl⟩ := tick_ok.1 k1
      obtain ⟨m, rfl⟩ := raising_ok.1 k2
      cases k3
      obtain ⟨h1, h2, h3, h4, h5⟩ := ih h
      have e : reqs l a ((n, label, locs, big) :: rest) = (l, a, n, locs) :: reqs l a rest := by
        unfold reqs; rw [List.filterMap_cons]; simp only; rw [if_neg hb]
      rw [e]
      refine ⟨?_, h2, ?_, ?_, ?_⟩
      · rw [h1]; unfold fillT; rw [List.foldl_cons]; simp only; rw [if_neg hb]
        unfold valOf
        rw [m]
      · rw [h3]; simp
      · simp only at h4
        rw [List.length_cons]
        omega
      · intro q hq
        rcases List.mem_cons.1 hq with rfl | hq
        · exact ⟨sp, m⟩
        · exact h5 q hq

theorem measure_err {cow : Bool} {env : Request → SpeedEnv XR} {l a : String} {cells : List (Int × (String × NLocs × Bool))} : ∀ {t : SpeedTable} {s s' : SpeedSt} {e : Stop},
    measureCells cow env l a cells t s = .error e s' → s'.dir = s.dir ∧ (∃ pre, pre <+: reqs l a cells ∧ s'.log = s.log ++ pre) ∧
      ((∃ q ∈ reqs l a cells, ∃ p, speedMeter (env q) q.1 q.2.1 q.2.2.1 q.2.2.2 3 1 = .error p ∧ e = .raised p) ∨ (e = .killed ∧ s.budget < (reqs l a cells).length)) := by
  induction cells with
  | nil =>
    intro t s s' e h
    unfold measureCells at h
    cases h
  | cons x rest ih =>
    obtain ⟨n, label, locs, big⟩ := x
    intro t s s' e h
    unfold measureCells at h
    by_cases hb : 1000 < n ∧ big = true
    · rw [if_pos hb] at h
      have e : reqs l a ((n, label, locs, big) :: rest) = reqs l a rest := by
        unfold reqs; rw [List.filterMap_cons]; simp only; rw [if_pos hb]
      rw [e]
      exact ih h
    · rw [if_neg hb] at h
      have e : reqs l a ((n, label, locs, big) :: rest) = (l, a, n, locs) :: reqs l a rest := by
        unfold reqs; rw [List.filterMap_cons]; simp only; rw [if_neg hb]
      rw [e]
      rcases proc_err.1 h with h | ⟨_, s1, k1, h⟩
      · obtain ⟨h0, rfl, rfl⟩ := tick_err.1 h
        exact ⟨rfl, ⟨[], List.nil_prefix, by simp⟩, .inr ⟨rfl, by rw [h0, List.length_cons]; omega⟩⟩
      obtain ⟨p, rfl⟩ := tick_ok.1 k1
      rcases proc_err.1 h with h | ⟨sp, s2, k2, h⟩
      · obtain ⟨p, hp, rfl, rfl⟩ := raising_err.1 h
        exact ⟨rfl, ⟨[], List.nil_prefix, by simp⟩, .inl ⟨_, List.mem_cons_self, p, hp, rfl⟩⟩
      obtain ⟨m, rfl⟩ := raising_ok.1 k2
      rcases proc_err.1 h with h | ⟨_, s3, k3, h⟩
      · cases h
      cases k3
      obtain ⟨h1, ⟨pre, h2, h3⟩, h4⟩ := ih h
      refine ⟨h1, ⟨(l, a, n, locs) :: pre, List.cons_prefix_cons.2 ⟨rfl, h2⟩, by rw [h3]; simp⟩, ?_⟩
      rcases h4 with ⟨q, hq, h4⟩ | ⟨h4, h5⟩
      · exact .inl ⟨q, List.mem_cons_of_mem _ hq, h4⟩
      · refine .inr ⟨h4, ?_⟩
        simp only at h5
        rw [List.length_cons]
        omega

/-! ### one algorithm -/

/-- the frame that an algorithm gets when it is measured -/
noncomputable def frame (cow : Bool) (env : Request → SpeedEnv XR) (m : String × String) : SpeedTable := fillT cow env m.1 m.2 speedCells blankTable

def fileOf (m : String × String) : String := speedFile m.1 m.2

def put (d : SpeedDir) (n : String) (v : Option SpeedTable) : SpeedDir := fun m => if m = n then some v else d m

theorem write_ok {n : String} {t : SpeedTable} {s s' : SpeedSt} {u : Unit} (h : writeTable n t s = .ok u s') :
    2 ≤ s.budget ∧ s'.dir = put s.dir n (some t) ∧ s'.log = s.log ∧ s'.budget + 2 = s.budget := by
  unfold writeTable at h
  obtain ⟨_, s1, k1, h⟩ := proc_ok.1 h
  obtain ⟨_, s2, k2, h⟩ := proc_ok.1 h
  obtain ⟨_, s3, k3, h⟩ := proc_ok.1 h
  obtain ⟨p1, rfl⟩ := tick_ok.1 k1
  cases k2
  obtain ⟨p2, rfl⟩ := tick_ok.1 k3
  cases h
  simp only at p1 p2 ⊢
  refine ⟨by omega, ?_, trivial, by omega⟩
  funext m
  unfold put
  split_ifs <;> rfl

theorem write_err {n : String} {t : SpeedTable} {s s' : SpeedSt} {e : Stop} (h : writeTable n t s = .error e s') :
    s.budget < 2 ∧ e = .killed ∧ (s'.dir = s.dir ∨ s'.dir = put s.dir n none) ∧ s'.log = s.log := by
  unfold writeTable at h
  rcases proc_err.1 h with h | ⟨_, s1, k1, h⟩
  · obtain ⟨h0, rfl, rfl⟩ := tick_err.1 h
    exact ⟨by omega, rfl, .inl rfl, rfl⟩
  obtain ⟨p, rfl⟩ := tick_ok.1 k1
  rcases proc_err.1 h with h | ⟨_, s2, k2, h⟩
  · cases h
  cases k2
  rcases proc_err.1 h with h | ⟨_, s3, k3, h⟩
  · obtain ⟨h0, rfl, rfl⟩ := tick_err.1 h
    simp only at h0 ⊢
    exact ⟨by omega, trivial, .inr rfl, trivial⟩
  · cases h

theorem read_ok {n : String} {t : SpeedTable} {s s' : SpeedSt} : readTable n s = .ok t s' ↔ s.dir n = some (some t) ∧ s' = s := by
  unfold readTable
  rcases h : s.dir n with _ | _ | t'
  · simp
  · simp
  · simp [eq_comm]

theorem read_err {n : String} {s s' : SpeedSt} {e : Stop} (h : readTable n s = .error e s') :
    s' = s ∧ ((s.dir n = none) ∨ (s.dir n = some none ∧ e = .raised .valueError)) := by
  unfold readTable at h
  rcases hd : s.dir n with _ | _ | t' <;> rw [hd] at h <;> cases h
  · exact ⟨rfl, .inl rfl⟩
  · exact ⟨rfl, .inr ⟨rfl, rfl⟩⟩

theorem method_cached {cow : Bool} {env : Request → SpeedEnv XR} {m : String × String} {s : SpeedSt} {t : SpeedTable} (h : s.dir (fileOf m) = some (some t)) :
    loadMethod cow env m.1 m.2 s = .ok (m.1 ++ "." ++ m.2, t) s := by
  unfold fileOf at h
  unfold loadMethod
  refine proc_ok.2 ⟨s, s, rfl, ?_⟩
  rw [if_neg (by rw [h]; simp)]
  exact proc_ok.2 ⟨t, s, read_ok.2 ⟨h, rfl⟩, rfl⟩

theorem method_broken {cow : Bool} {env : Request → SpeedEnv XR} {m : String × String} {s : SpeedSt} (h : s.dir (fileOf m) = some none) :
    loadMethod cow env m.1 m.2 s = .error (.raised .valueError) s := by
  unfold fileOf at h
  unfold loadMethod
  refine proc_err.2 (.inr ⟨s, s, rfl, ?_⟩)
  rw [if_neg (by rw [h]; simp)]
  refine proc_err.2 (.inl ?_)
  unfold readTable
  rw [h]

theorem method_new_ok {cow : Bool} {env : Request → SpeedEnv XR} {m : String × String} {s s' : SpeedSt} {x : String × SpeedTable} (hd : s.dir (fileOf m) = none)
    (h : loadMethod cow env m.1 m.2 s = .ok x s') :
    x = (m.1 ++ "." ++ m.2, frame cow env m) ∧ s'.dir = put s.dir (fileOf m) (some (frame cow env m)) ∧ s'.log = s.log ++ reqs m.1 m.2 speedCells ∧
      s'.budget + (reqs m.1 m.2 speedCells).length + 2 = s.budget ∧
      ∀ q ∈ reqs m.1 m.2 speedCells, ∃ sp, speedMeter (env q) q.1 q.2.1 q.2.2.1 q.2.2.2 3 1 = .ok sp := by
  unfold fileOf at hd ⊢
  unfold loadMethod at h
  obtain ⟨_, _, k0, h⟩ := proc_ok.1 h
  cases k0
  rw [if_pos hd] at h
  obtain ⟨t, s1, k1, h⟩ := proc_ok.1 h
  obtain ⟨_, s2, k2, h⟩ := proc_ok.1 h
  obtain ⟨h1, h2, h3, h4, h5⟩ := measure_ok k1
  obtain ⟨w1, w2, w3, w4⟩ := write_ok k2
  obtain ⟨t2, s3, k3, h⟩ := proc_ok.1 h
  obtain ⟨r1, r2⟩ := read_ok.1 k3
  obtain ⟨e1, e2⟩ := EStateM.Result.ok.inj (show EStateM.Result.ok (m.1 ++ "." ++ m.2, t2) s3 = EStateM.Result.ok x s' from h)
  subst e1 r2 e2
  rw [w2] at r1
  unfold put at r1
  rw [if_pos rfl] at r1
  injection r1 with r1
  injection r1 with r1
  subst h1
  subst r1
  refine ⟨rfl, by rw [w2, h2]; rfl, by rw [w3, h3], by omega, h5⟩

theorem method_new_err {cow : Bool} {env : Request → SpeedEnv XR} {m : String × String} {s s' : SpeedSt} {e : Stop} (hd : s.dir (fileOf m) = none)
    (h : loadMethod cow env m.1 m.2 s = .error e s') :
    (s'.dir = s.dir ∨ (e = .killed ∧ s'.dir = put s.dir (fileOf m) none)) ∧ (∃ pre, pre <+: reqs m.1 m.2 speedCells ∧ s'.log = s.log ++ pre) ∧
      ((∃ q ∈ reqs m.1 m.2 speedCells, ∃ p, speedMeter (env q) q.1 q.2.1 q.2.2.1 q.2.2.2 3 1 = .error p ∧ e = .raised p) ∨
        (e = .killed ∧ s.budget < (reqs m.1 m.2 speedCells).length + 2)) := by
  unfold fileOf at hd ⊢
  unfold loadMethod at h
  rcases proc_err.1 h with h | ⟨_, _, k0, h⟩
  · cases h
  cases k0
  rw [if_pos hd] at h
  rcases proc_err.1 h with h | ⟨t, s1, k1, h⟩
  · obtain ⟨h1, h2, h3⟩ := measure_err h
    refine ⟨.inl h1, h2, ?_⟩
    rcases h3 with h3 | ⟨h3, h4⟩
    · exact .inl h3
    · exact .inr ⟨h3, by omega⟩
  obtain ⟨-, h2, h3, h4, -⟩ := measure_ok k1
  rcases proc_err.1 h with h | ⟨_, s2, k2, h⟩
  · obtain ⟨w1, rfl, w2, w3⟩ := write_err h
    refine ⟨?_, ⟨_, List.prefix_rfl, by rw [w3, h3]⟩, .inr ⟨rfl, by omega⟩⟩
    rw [h2] at w2
    rcases w2 with w2 | w2
    · exact .inl w2
    · exact .inr ⟨rfl, w2⟩
  obtain ⟨w1, w2, w3, w4⟩ := write_ok k2
  rcases proc_err.1 h with h | ⟨t2, s3, k3, h⟩
  · obtain ⟨-, r⟩ := read_err h
    rw [w2] at r
    simp [put] at r
  · cases h

/-! ### all algorithms -/

def keyOf (m : String × String) : String := m.1 ++ "." ++ m.2
def reqsM (m : String × String) : List Request := reqs m.1 m.2 speedCells
def AllMeasured (env : Request → SpeedEnv XR) (m : String × String) : Prop :=
  ∀ q ∈ reqsM m, ∃ sp, speedMeter (env q) q.1 q.2.1 q.2.2.1 q.2.2.2 3 1 = .ok sp

theorem put_same {d : SpeedDir} {n : String} {v : Option SpeedTable} : put d n v n = some v := if_pos rfl
theorem put_other {d : SpeedDir} {n m : String} {v : Option SpeedTable} (h : m ≠ n) : put d n v m = d m := if_neg h

theorem methods_ok {cow : Bool} {env : Request → SpeedEnv XR} : ∀ {ms : List (String × String)} {s s' : SpeedSt} {xs : List (String × SpeedTable)},
    ms.Pairwise (fun a b => fileOf a ≠ fileOf b) → loadMethods cow env ms s = .ok xs s' →
    List.Forall₂ (fun m x => x.1 = keyOf m ∧ s'.dir (fileOf m) = some (some x.2)) ms xs ∧
    (∀ n, s.dir n ≠ none → s'.dir n = s.dir n) ∧ (∀ n, (∀ m ∈ ms, n ≠ fileOf m) → s'.dir n = s.dir n) ∧
    (∀ m ∈ ms, s.dir (fileOf m) = none → s'.dir (fileOf m) = some (some (frame cow env m)) ∧ AllMeasured env m) ∧
    s'.log = s.log ++ (ms.filter fun m => (s.dir (fileOf m)).isNone).flatMap reqsM := by
  intro ms
  induction ms with
  | nil =>
    intro s s' xs _ h
    cases h
    simp
  | cons m rest ih =>
    intro s s' xs hp h
    obtain ⟨hp1, hp2⟩ := List.pairwise_cons.1 hp
    unfold loadMethods at h
    obtain ⟨x, s1, k1, h⟩ := proc_ok.1 h
    obtain ⟨ys, s2, k2, h⟩ := proc_ok.1 h
    obtain ⟨e1, e2⟩ := EStateM.Result.ok.inj (show EStateM.Result.ok (x :: ys) s2 = EStateM.Result.ok xs s' from h)
    subst e1 e2
    obtain ⟨i1, i2, i3, i4, i5⟩ := ih hp2 k2
    rcases hd : s.dir (fileOf m) with _ | _ | t
    · obtain ⟨rfl, a2, a3, -, a5⟩ := method_new_ok hd k1
      have hf : s1.dir (fileOf m) = some (some (frame cow env m)) := by rw [a2]; exact put_same
      have hf2 : s2.dir (fileOf m) = some (some (frame cow env m)) := by rw [i2 _ (by rw [hf]; simp), hf]
      have ho : ∀ n, n ≠ fileOf m → s1.dir n = s.dir n := fun n hn => by rw [a2]; exact put_other hn
      refine ⟨.cons ⟨rfl, hf2⟩ i1, ?_, ?_, ?_, ?_⟩
      · intro n hn
        have : n ≠ fileOf m := by rintro rfl; exact hn hd
        rw [i2 n (by rw [ho n this]; exact hn), ho n this]
      · intro n hn
        rw [i3 n (fun k hk => hn k (List.mem_cons_of_mem _ hk)), ho n (hn m List.mem_cons_self)]
      · intro k hk hkd
        rcases List.mem_cons.1 hk with rfl | hk
        · exact ⟨hf2, a5⟩
        · exact i4 k hk (by rw [ho _ (hp1 k hk).symm]; exact hkd)
      · rw [i5, a3, List.filter_cons_of_pos (by rw [hd]; rfl), List.flatMap_cons, List.append_assoc]
        congr 3
        refine List.filter_congr fun k hk => ?_
        rw [ho _ (hp1 k hk).symm]
    · have := method_broken (cow := cow) (env := env) hd
      rw [this] at k1
      cases k1
    · have := method_cached (cow := cow) (env := env) hd
      rw [this] at k1
      cases k1
      refine ⟨.cons ⟨rfl, by rw [i2 _ (by rw [hd]; simp), hd]⟩ i1, i2, fun n hn => i3 n (fun k hk => hn k (List.mem_cons_of_mem _ hk)), ?_, ?_⟩
      · intro k hk hkd
        rcases List.mem_cons.1 hk with rfl | hk
        · rw [hd] at hkd; cases hkd
        · exact i4 k hk hkd
      · rw [i5, List.filter_cons_of_neg (by rw [hd]; simp)]

theorem methods_err {cow : Bool} {env : Request → SpeedEnv XR} : ∀ {ms : List (String × String)} {s s' : SpeedSt} {e : Stop},
    ms.Pairwise (fun a b => fileOf a ≠ fileOf b) → loadMethods cow env ms s = .error e s' →
    (∀ n, s.dir n ≠ none → s'.dir n = s.dir n) ∧ (∀ n, (∀ m ∈ ms, n ≠ fileOf m) → s'.dir n = s.dir n) ∧
    (∀ n, s'.dir n = s.dir n ∨ (s'.dir n = some none ∧ e = .killed) ∨ ∃ m ∈ ms, n = fileOf m ∧ s'.dir n = some (some (frame cow env m)) ∧ AllMeasured env m) ∧
    (∃ pre, pre <+: (ms.filter fun m => (s.dir (fileOf m)).isNone).flatMap reqsM ∧ s'.log = s.log ++ pre) ∧
    ((∃ m ∈ ms, s.dir (fileOf m) = some none ∧ e = .raised .valueError) ∨
      (∃ m ∈ ms, s.dir (fileOf m) = none ∧ ∃ q ∈ reqsM m, ∃ p, speedMeter (env q) q.1 q.2.1 q.2.2.1 q.2.2.2 3 1 = .error p ∧ e = .raised p) ∨
      (e = .killed ∧ s.budget < ((ms.filter fun m => (s.dir (fileOf m)).isNone).map fun m => (reqsM m).length + 2).sum)) := by
  intro ms
  induction ms with
  | nil =>
    intro s s' e _ h
    cases h
  | cons m rest ih =>
    intro s s' e hp h
    obtain ⟨hp1, hp2⟩ := List.pairwise_cons.1 hp
    unfold loadMethods at h
    rcases hd : s.dir (fileOf m) with _ | _ | t
    · rw [List.filter_cons_of_pos (by rw [hd]; rfl), List.flatMap_cons, List.map_cons, List.sum_cons]
      rcases proc_err.1 h with h | ⟨x, s1, k1, h⟩
      · obtain ⟨a1, ⟨pre, a2, a3⟩, a4⟩ := method_new_err hd h
        have ho : ∀ n, n ≠ fileOf m → s'.dir n = s.dir n := fun n hn => by
          rcases a1 with a1 | ⟨-, a1⟩
          · rw [a1]
          · rw [a1]; exact put_other hn
        refine ⟨fun n hn => ho n (by rintro rfl; exact hn hd), fun n hn => ho n (hn m List.mem_cons_self), ?_,
          ⟨pre, a2.trans (List.prefix_append _ _), a3⟩, ?_⟩
        · intro n
          by_cases hn : n = fileOf m
          · subst hn
            rcases a1 with a1 | ⟨a0, a1⟩
            · exact .inl (by rw [a1])
            · exact .inr (.inl ⟨by rw [a1]; exact put_same, a0⟩)
          · exact .inl (ho n hn)
        · rcases a4 with ⟨q, hq, a4⟩ | ⟨a4, a5⟩
          · exact .inr (.inl ⟨m, List.mem_cons_self, hd, q, hq, a4⟩)
          · refine .inr (.inr ⟨a4, ?_⟩)
            unfold reqsM
            omega
      · obtain ⟨-, a2, a3, a4, a5⟩ := method_new_ok hd k1
        rcases proc_err.1 h with h | ⟨ys, s2, k2, h⟩
        swap
        · cases h
        have hf : s1.dir (fileOf m) = some (some (frame cow env m)) := by rw [a2]; exact put_same
        have ho : ∀ n, n ≠ fileOf m → s1.dir n = s.dir n := fun n hn => by rw [a2]; exact put_other hn
        have hfil : (rest.filter fun k => (s1.dir (fileOf k)).isNone) = rest.filter fun k => (s.dir (fileOf k)).isNone :=
          List.filter_congr fun k hk => by rw [ho _ (hp1 k hk).symm]
        obtain ⟨i1, i2, i3, ⟨pre, i4, i5⟩, i6⟩ := ih hp2 h
        rw [hfil] at i4 i6
        refine ⟨?_, ?_, ?_, ⟨reqsM m ++ pre, (List.prefix_append_right_inj _).2 i4, by rw [i5, a3, List.append_assoc]; rfl⟩, ?_⟩
        · intro n hn
          have : n ≠ fileOf m := by rintro rfl; exact hn hd
          rw [i1 n (by rw [ho n this]; exact hn), ho n this]
        · intro n hn
          rw [i2 n (fun k hk => hn k (List.mem_cons_of_mem _ hk)), ho n (hn m List.mem_cons_self)]
        · intro n
          by_cases hn : n = fileOf m
          · subst hn
            exact .inr (.inr ⟨m, List.mem_cons_self, rfl, by rw [i1 _ (by rw [hf]; simp), hf], a5⟩)
          · rw [← ho n hn]
            rcases i3 n with i3 | i3 | ⟨k, hk, i3⟩
            · exact .inl i3
            · exact .inr (.inl i3)
            · exact .inr (.inr ⟨k, List.mem_cons_of_mem _ hk, i3⟩)
        · rcases i6 with ⟨k, hk, b1, b2⟩ | ⟨k, hk, b1, b2⟩ | ⟨b1, b2⟩
          · exact .inl ⟨k, List.mem_cons_of_mem _ hk, by rw [← ho _ (hp1 k hk).symm]; exact b1, b2⟩
          · exact .inr (.inl ⟨k, List.mem_cons_of_mem _ hk, by rw [← ho _ (hp1 k hk).symm]; exact b1, b2⟩)
          · refine .inr (.inr ⟨b1, ?_⟩)
            unfold reqsM at b2 ⊢
            omega
    · rcases proc_err.1 h with h | ⟨x, s1, k1, h⟩
      · rw [method_broken (cow := cow) (env := env) hd] at h
        cases h
        exact ⟨fun _ _ => rfl, fun _ _ => rfl, fun _ => .inl rfl, ⟨[], List.nil_prefix, by simp⟩, .inl ⟨m, List.mem_cons_self, hd, rfl⟩⟩
      · rw [method_broken (cow := cow) (env := env) hd] at k1
        cases k1
    · rw [List.filter_cons_of_neg (by rw [hd]; simp)]
      rcases proc_err.1 h with h | ⟨x, s1, k1, h⟩
      · rw [method_cached (cow := cow) (env := env) hd] at h
        cases h
      · rw [method_cached (cow := cow) (env := env) hd] at k1
        cases k1
        rcases proc_err.1 h with h | ⟨ys, s2, k2, h⟩
        swap
        · cases h
        obtain ⟨i1, i2, i3, i4, i6⟩ := ih hp2 h
        refine ⟨i1, fun n hn => i2 n (fun k hk => hn k (List.mem_cons_of_mem _ hk)), ?_, i4, ?_⟩
        · intro n
          rcases i3 n with i3 | i3 | ⟨k, hk, i3⟩
          · exact .inl i3
          · exact .inr (.inl i3)
          · exact .inr (.inr ⟨k, List.mem_cons_of_mem _ hk, i3⟩)
        · rcases i6 with ⟨k, hk, b1⟩ | ⟨k, hk, b1⟩ | b1
          · exact .inl ⟨k, List.mem_cons_of_mem _ hk, b1⟩
          · exact .inr (.inl ⟨k, List.mem_cons_of_mem _ hk, b1⟩)
          · exact .inr (.inr b1)

/-! ### the table of one algorithm -/

theorem fill_map {cow : Bool} {env : Request → SpeedEnv XR} {l a : String} (cells : List (Int × (String × NLocs × Bool))) : ∀ (t : SpeedTable),
    fillT cow env l a cells t = t.map fun x => (x.1, cells.foldl
      (fun v c => if cow = false ∧ ¬ (1000 < c.1 ∧ c.2.2.2 = true) ∧ x.1 = (c.1, c.2.1) then valOf env (l, a, c.1, c.2.2.1) else v) x.2) := by
  induction cells with
  | nil => intro t; simp [fillT]
  | cons c rest ih =>
    intro t
    have : fillT cow env l a (c :: rest) t = fillT cow env l a rest (if 1000 < c.1 ∧ c.2.2.2 = true then t else setCell cow t c.1 c.2.1 (valOf env (l, a, c.1, c.2.2.1))) := rfl
    rw [this, ih]
    by_cases hb : 1000 < c.1 ∧ c.2.2.2 = true
    · rw [if_pos hb]
      simp only [List.foldl_cons, hb, not_true_eq_false, false_and, and_false, and_self, if_false]
    · rw [if_neg hb]
      unfold setCell
      cases cow with
      | true => simp
      | false =>
        simp only [Bool.false_eq_true, if_false, List.map_map]
        refine List.map_congr_left fun x _ => ?_
        simp only [Function.comp, List.foldl_cons, hb, not_false_eq_true, true_and]
        split_ifs <;> rfl

theorem fold_keep {κ β ι : Type} [DecidableEq κ] {key : ι → κ} {P : ι → Prop} [DecidablePred P] {val : ι → β} {k : κ} : ∀ {cells : List ι} {v : β},
    (∀ c ∈ cells, k ≠ key c) → cells.foldl (fun v c => if P c ∧ k = key c then val c else v) v = v := by
  intro cells
  induction cells with
  | nil => intros; rfl
  | cons c rest ih =>
    intro v h
    rw [List.foldl_cons, if_neg (fun hh => h c List.mem_cons_self hh.2)]
    exact ih fun c hc => h c (List.mem_cons_of_mem _ hc)

theorem fold_hit {κ β ι : Type} [DecidableEq κ] {key : ι → κ} {P : ι → Prop} [DecidablePred P] {val : ι → β} : ∀ {cells : List ι} {v : β} {x : ι},
    (cells.map key).Nodup → x ∈ cells → cells.foldl (fun v c => if P c ∧ key x = key c then val c else v) v = if P x then val x else v := by
  intro cells
  induction cells with
  | nil => intro v x _ h; cases h
  | cons c rest ih =>
    intro v x hn hx
    rw [List.map_cons, List.nodup_cons] at hn
    rw [List.foldl_cons]
    rcases List.mem_cons.1 hx with rfl | hx
    · rw [fold_keep (fun c hc (h : key x = key c) => hn.1 (by rw [h]; exact List.mem_map_of_mem hc))]
      by_cases hp : P x
      · rw [if_pos ⟨hp, rfl⟩, if_pos hp]
      · rw [if_neg (fun h => hp h.1), if_neg hp]
    · rw [if_neg (fun h : P c ∧ key x = key c => hn.1 (by rw [← h.2]; exact List.mem_map_of_mem hx)), ih hn.2 hx]

theorem cells_nodup : (speedCells.map fun c => (c.1, c.2.1)).Nodup := by decide +kernel

theorem frame_eq {cow : Bool} {env : Request → SpeedEnv XR} {m : String × String} :
    frame cow env m = speedCells.map fun x => ((x.1, x.2.1), if cow = false ∧ ¬ (1000 < x.1 ∧ x.2.2.2 = true) then valOf env (m.1, m.2, x.1, x.2.2.1) else none) := by
  unfold frame
  rw [fill_map]
  unfold blankTable
  rw [List.map_map]
  refine List.map_congr_left fun x hx => ?_
  simp only [Function.comp]
  congr 1
  have := fold_hit (key := fun c : Int × (String × NLocs × Bool) => (c.1, c.2.1)) (P := fun c => cow = false ∧ ¬ (1000 < c.1 ∧ c.2.2.2 = true))
    (val := fun c => valOf env (m.1, m.2, c.1, c.2.2.1)) (v := none) cells_nodup hx
  rw [← this]
  congr 1
  funext v c
  simp only [and_assoc]

theorem names_eq : speedMethods = speedNames := rfl
theorem file_eq (m : String × String) : fileOf m = tableFile m := rfl

theorem files_pairwise : speedMethods.Pairwise fun a b => fileOf a ≠ fileOf b := by decide +kernel

theorem reqs_eq (l a : String) : reqs l a speedCells = speedSteps.flatMap fun n => (speedColumns.map Prod.snd).filterMap fun c =>
    if 1000 < n ∧ c.2 = true then none else some (l, a, n, c.1) := by
  unfold reqs speedCells
  rw [List.filterMap_flatMap]
  congr 1

theorem methods_flat (f : String → String → List Request) :
    ([("sunwhere", ["nrel_numexpr", "soltrack_numexpr", "soltrack_numpy", "psa_numexpr", "psa_numpy", "iqbal_numexpr", "iqbal_numpy"]),
      ("pvlib", ["nrel_numba", "nrel_numpy"]), ("sg2", ["sg2_c++"])] : List (String × List String)).flatMap (fun l => l.2.flatMap fun a => f l.1 a) =
      speedMethods.flatMap fun m => f m.1 m.2 := by
  simp only [speedMethods, List.flatMap_cons, List.flatMap_nil, List.map_cons, List.map_nil, List.cons_append, List.nil_append, List.append_assoc]

theorem requests_eq : speedRequests = speedMethods.flatMap reqsM := by
  unfold reqsM
  simp only [reqs_eq]
  exact methods_flat fun l a => speedSteps.flatMap fun n => (speedColumns.map Prod.snd).filterMap fun c =>
    if 1000 < n ∧ c.2 = true then none else some (l, a, n, c.1)

theorem column_inv {c : String} {l : NLocs} (h : ColumnOf c l) : (c = "1" ∧ l = .int 1) ∨ (c = "10" ∧ l = .int 10) ∨ (c = "100" ∧ l = .int 100) ∨
    (c = "10x10" ∧ l = .text ['1', '0', 'x', '1', '0']) ∨ (c = "50x50" ∧ l = .text ['5', '0', 'x', '5', '0']) ∨
    (c = "100x100" ∧ l = .text ['1', '0', '0', 'x', '1', '0', '0']) := by
  cases h <;> simp

theorem reqs_of {m : String × String} {q : Request} (h : q ∈ reqsM m) : (q.1, q.2.1) = m := by
  unfold reqsM reqs at h
  obtain ⟨x, -, hx⟩ := List.mem_filterMap.1 h
  split_ifs at hx
  cases hx
  rfl

theorem filter_requests (P : String × String → Bool) : (speedMethods.filter P).flatMap reqsM = speedRequests.filter fun q => P (q.1, q.2.1) := by
  rw [requests_eq]
  generalize speedMethods = ms
  induction ms with
  | nil => rfl
  | cons m rest ih =>
    rw [List.flatMap_cons, List.filter_append, ← ih]
    cases hP : P m with
    | true =>
      rw [List.filter_cons_of_pos hP, List.flatMap_cons]
      congr 1
      symm
      exact List.filter_eq_self.2 fun q hq => by rw [reqs_of hq]; exact hP
    | false =>
      rw [List.filter_cons_of_neg (by rw [hP]; simp)]
      have : (reqsM m).filter (fun q => P (q.1, q.2.1)) = [] := List.filter_eq_nil_iff.2 fun q hq => by rw [reqs_of hq, hP]; simp
      rw [this, List.nil_append]

theorem measured_frame {cow : Bool} {env : Request → SpeedEnv XR} {m : String × String} (h : AllMeasured env m) : MeasuredFrame cow env m (frame cow env m) := by
  rw [frame_eq]
  refine ⟨?_, ?_, ?_⟩
  · rw [List.map_map]
    show speedCells.map (fun x => (x.1, x.2.1)) = speedKeys
    decide +kernel
  · intro cell hc hm
    obtain ⟨x, hx, rfl⟩ := List.mem_map.1 hc
    simp only at hm ⊢
    rw [if_neg]
    rintro ⟨h1, h2⟩
    rcases hm with hm | ⟨hm1, hm2⟩
    · rw [hm] at h1; cases h1
    · refine h2 ⟨hm1, ?_⟩
      have : ∀ x ∈ speedCells, x.2.1 ∈ ["50x50", "100x100"] → x.2.2.2 = true := by decide +kernel
      exact this x hx hm2
  · intro cell hc locs hl hcow hn
    obtain ⟨x, hx, rfl⟩ := List.mem_map.1 hc
    simp only at hl hn ⊢
    have hs : ¬ (1000 < x.1 ∧ x.2.2.2 = true) := by
      rintro ⟨h1, h2⟩
      have : ∀ x ∈ speedCells, x.2.2.2 = true → x.2.1 ∈ ["50x50", "100x100"] := by decide +kernel
      rcases hn with hn | hn
      · omega
      · exact hn (this x hx h2)
    have hloc : x.2.2.1 = locs := by
      have hm : x.2 ∈ speedColumns := by
        obtain ⟨n, -, hx⟩ := List.mem_flatMap.1 hx
        obtain ⟨c, hcc, rfl⟩ := List.mem_map.1 hx
        exact hcc
      replace hl := column_inv hl
      obtain ⟨n, label, l, b⟩ := x
      simp only [speedColumns, List.mem_cons, Prod.mk.injEq, List.not_mem_nil, or_false] at hm
      simp only at hl
      simp only
      rcases hm with ⟨rfl, rfl, -⟩ | ⟨rfl, rfl, -⟩ | ⟨rfl, rfl, -⟩ | ⟨rfl, rfl, -⟩ | ⟨rfl, rfl, -⟩ | ⟨rfl, rfl, -⟩ <;> simp at hl <;> exact hl.symm
    rw [if_pos ⟨hcow, hs⟩, ← hloc]
    have hq : (m.1, m.2, x.1, x.2.2.1) ∈ reqsM m := by
      unfold reqsM reqs
      exact List.mem_filterMap.2 ⟨x, hx, if_neg hs⟩
    obtain ⟨sp, hsp⟩ := h _ hq
    refine ⟨sp, hsp, ?_⟩
    unfold valOf
    rw [hsp]

theorem run_cases (cow : Bool) (env : Request → SpeedEnv XR) (b : Nat) (d : SpeedDir) :
    (∃ t s, loadMethods cow env speedMethods ⟨b, d, []⟩ = .ok t s ∧ loadSpeedTests cow env b d = ⟨s.dir, s.log, .ok t⟩) ∨
    (∃ e s, loadMethods cow env speedMethods ⟨b, d, []⟩ = .error e s ∧ loadSpeedTests cow env b d = ⟨s.dir, s.log, .error e⟩) := by
  unfold loadSpeedTests
  cases h : loadMethods cow env speedMethods ⟨b, d, []⟩ with
  | ok t s => exact .inl ⟨t, s, rfl, rfl⟩
  | error e s => exact .inr ⟨e, s, rfl, rfl⟩

theorem foreign_ok {env : SpeedEnv XR} {alg l a : String} {n : Int} {locs : NLocs} {r k : Nat} {sp : Speed XR} (h : speedMeter env "sunwhere" alg n locs r k = .ok sp)
    (hl : l = "pvlib" ∨ l = "sg2") (hf : env.foreign l a = .ok ()) : ∃ sp, speedMeter env l a n locs r k = .ok sp := by
  obtain ⟨times, p, _, _, h1, h2, -⟩ := SpeedTest.meter_ok h
  have hs : l ≠ "sunwhere" := by rcases hl with rfl | rfl <;> decide
  unfold speedMeter
  rw [h1, ok_bind, h2, ok_bind]
  unfold methodNames
  rw [if_neg hs, ok_bind]
  unfold bound
  simp only
  rw [ok_bind]
  unfold runStatement
  simp only
  rw [if_pos hl, hf]
  exact ⟨_, rfl⟩

/-- every request is measured, if the other packages do not raise -/
theorem all_measured {env : Request → SpeedEnv XR}
    (hr : ∀ q, RngOk (env q).rng ∧ (env q).readInt ['1', '0'] = some 10 ∧ (env q).readInt ['5', '0'] = some 50 ∧ (env q).readInt ['1', '0', '0'] = some 100)
    (ho : ∀ q, q.1 ≠ "sunwhere" → (env q).foreign q.1 q.2.1 = .ok ()) {q : Request} (hq : q ∈ speedRequests) :
    ∃ sp, speedMeter (env q) q.1 q.2.1 q.2.2.1 q.2.2.2 3 1 = .ok sp := by
  obtain ⟨r1, r2, r3, r4⟩ := hr q
  have hR := (C95_requests r1 r2 r3 r4).2.1
  by_cases hs : q.1 = "sunwhere"
  · obtain ⟨_, _, _, _, sp, hsp, -⟩ := hR q hq hs
    exact ⟨sp, hsp⟩
  · rw [requests_eq] at hq
    obtain ⟨m, hm, hqm⟩ := List.mem_flatMap.1 hq
    have hl : q.1 = "pvlib" ∨ q.1 = "sg2" := by
      have : ∀ m ∈ speedMethods, m.1 = "sunwhere" ∨ m.1 = "pvlib" ∨ m.1 = "sg2" := by decide +kernel
      have h1 : q.1 = m.1 := by rw [← reqs_of hqm]
      rw [h1] at hs ⊢
      exact (this m hm).resolve_left hs
    obtain ⟨x, hx, hxq⟩ := List.mem_filterMap.1 hqm
    split_ifs at hxq with hc
    injection hxq with hxq
    have hq' : ("sunwhere", "psa_numpy", x.1, x.2.2.1) ∈ speedRequests := by
      rw [requests_eq]
      exact List.mem_flatMap.2 ⟨("sunwhere", "psa_numpy"), by decide +kernel, List.mem_filterMap.2 ⟨x, hx, if_neg hc⟩⟩
    obtain ⟨_, _, _, _, sp, hsp, -⟩ := hR _ hq' rfl
    refine foreign_ok (alg := "psa_numpy") (sp := sp) ?_ hl (ho q hs)
    rw [← hxq] at hsp ⊢
    exact hsp

end SpeedCache
open SpeedCache

/-! ### theorems -/

/-- **C97** What a call does to the directory: files that are there, complete or not, stay as they are, no file but the ten of the table appears, and a file that cannot be read appears only
if the call is killed. -/
theorem C97_files (cow : Bool) (env : Request → SpeedEnv XR) (budget : Nat) (d : SpeedDir) :
    (∀ n, d n ≠ none → (loadSpeedTests cow env budget d).dir n = d n) ∧
    (∀ n, n ∉ speedNames.map tableFile → (loadSpeedTests cow env budget d).dir n = d n) ∧
    (∀ n, (loadSpeedTests cow env budget d).dir n = some none → d n = some none ∨ (loadSpeedTests cow env budget d).result = .error .killed) ∧
    (∀ m ∈ speedNames, d (tableFile m) = none → ∀ frame, (loadSpeedTests cow env budget d).dir (tableFile m) = some (some frame) → MeasuredFrame cow env m frame) := by
  have hn : ∀ n, n ∉ speedNames.map tableFile → ∀ m ∈ speedMethods, n ≠ fileOf m := fun n h m hm e => h (e ▸ List.mem_map_of_mem hm)
  have hinj : ∀ m ∈ speedMethods, ∀ k ∈ speedMethods, fileOf m = fileOf k → m = k := by decide +kernel
  rcases run_cases cow env budget d with ⟨t, s, h1, h2⟩ | ⟨e, s, h1, h2⟩ <;> rw [h2] <;> simp only
  · obtain ⟨-, a2, a3, a4, -⟩ := methods_ok files_pairwise h1
    refine ⟨a2, fun n h => a3 n (hn n h), ?_, ?_⟩
    · intro n h
      left
      by_cases hd : d n = none
      · by_cases hm : ∃ m ∈ speedMethods, n = fileOf m
        · obtain ⟨m, hm, rfl⟩ := hm
          rw [(a4 m hm hd).1] at h
          cases h
        · rw [a3 n (fun m hm' e => hm ⟨m, hm', e⟩)] at h
          exact h
      · exact (a2 n hd).symm.trans h
    · intro m hm hd frame hf
      obtain ⟨b1, b2⟩ := a4 m hm hd
      rw [show s.dir (tableFile m) = _ from b1] at hf
      injection hf with hf
      injection hf with hf
      subst hf
      exact measured_frame b2
  · obtain ⟨a1, a2, a3, -, -⟩ := methods_err files_pairwise h1
    refine ⟨a1, fun n h => a2 n (hn n h), ?_, ?_⟩
    · intro n h
      rcases a3 n with a3 | ⟨-, a3⟩ | ⟨m, -, -, a3, -⟩
      · left
        rw [h] at a3
        exact a3.symm
      · right
        rw [a3]
      · rw [h] at a3
        cases a3
    · intro m hm hd frame hf
      rcases a3 (tableFile m) with a3 | ⟨a3, -⟩ | ⟨k, hk, e, a3, a4⟩
      · rw [a3] at hf
        simp only at hf
        rw [hd] at hf
        cases hf
      · rw [a3] at hf
        cases hf
      · obtain rfl := hinj m hm k hk e
        rw [a3] at hf
        injection hf with hf
        injection hf with hf
        subst hf
        exact measured_frame a4

/-- **C97** What a call measures: nothing for the methods that have a file, readable or not; for the others, in order, the requests of C95, up to where it stops, and all of them if it returns. -/
theorem C97_measurements (cow : Bool) (env : Request → SpeedEnv XR) (budget : Nat) (d : SpeedDir) :
    (loadSpeedTests cow env budget d).log <+: (speedRequests.filter fun q => (d (tableFile (q.1, q.2.1))).isNone) ∧
    ∀ t, (loadSpeedTests cow env budget d).result = .ok t →
      (loadSpeedTests cow env budget d).log = speedRequests.filter fun q => (d (tableFile (q.1, q.2.1))).isNone := by
  have hf := filter_requests fun m => (d (fileOf m)).isNone
  rcases run_cases cow env budget d with ⟨t, s, h1, h2⟩ | ⟨e, s, h1, h2⟩ <;> rw [h2] <;> simp only
  · obtain ⟨-, -, -, -, a5⟩ := methods_ok files_pairwise h1
    rw [hf, List.nil_append] at a5
    refine ⟨by rw [a5]; exact List.prefix_rfl, fun _ _ => a5⟩
  · obtain ⟨-, -, -, ⟨pre, a4, a5⟩, -⟩ := methods_err files_pairwise h1
    rw [hf] at a4
    rw [List.nil_append] at a5
    exact ⟨by rw [a5]; exact a4, fun t h => by cases h⟩

/-- **C97** What a call returns: the frames of the ten methods in order, each that of its file, which was there before the call or has been measured by it. -/
theorem C97_table {cow : Bool} {env : Request → SpeedEnv XR} {budget : Nat} {d : SpeedDir} {t : List (String × SpeedTable)}
    (h : (loadSpeedTests cow env budget d).result = .ok t) :
    List.Forall₂ (fun m x => x.1 = m.1 ++ "." ++ m.2 ∧ (loadSpeedTests cow env budget d).dir (tableFile m) = some (some x.2) ∧
      (d (tableFile m) = some (some x.2) ∨ (d (tableFile m) = none ∧ MeasuredFrame cow env m x.2))) speedNames t := by
  have hF := C97_files cow env budget d
  rcases run_cases cow env budget d with ⟨t', s, h1, h2⟩ | ⟨e, s, h1, h2⟩ <;> rw [h2] at h hF ⊢ <;> simp only at h hF ⊢
  · injection h with h
    subst h
    obtain ⟨a1, a2, -, a4, -⟩ := methods_ok files_pairwise h1
    have hm : List.Forall₂ (fun m x => m ∈ speedNames ∧ x.1 = keyOf m ∧ s.dir (fileOf m) = some (some x.2)) speedMethods t' := by
      rw [List.forall₂_iff_get] at a1 ⊢
      exact ⟨a1.1, fun i hi hj => ⟨List.get_mem _ _, a1.2 i hi hj⟩⟩
    refine hm.imp fun m x ⟨hm, b1, b2⟩ => ⟨b1, b2, ?_⟩
    by_cases hd : d (tableFile m) = none
    · exact .inr ⟨hd, hF.2.2.2 m hm hd _ b2⟩
    · left
      rw [← hF.1 _ hd]
      exact b2
  · cases h

/-- **C97** Why a call does not return: it was killed (then it had fewer effects left than it needed), a file of the table cannot be read, or a measurement that it needs raised. -/
theorem C97_stops {cow : Bool} {env : Request → SpeedEnv XR} {budget : Nat} {d : SpeedDir} {e : Stop} (h : (loadSpeedTests cow env budget d).result = .error e) :
    (e = .killed ∧ budget < 420) ∨ (e = .raised .valueError ∧ ∃ m ∈ speedNames, d (tableFile m) = some none) ∨
    ∃ q ∈ speedRequests, d (tableFile (q.1, q.2.1)) = none ∧ ∃ p, speedMeter (env q) q.1 q.2.1 q.2.2.1 q.2.2.2 3 1 = .error p ∧ e = .raised p := by
  rcases run_cases cow env budget d with ⟨t', s, h1, h2⟩ | ⟨e', s, h1, h2⟩ <;> rw [h2] at h <;> simp only at h
  · cases h
  · injection h with h
    subst h
    obtain ⟨-, -, -, -, a5⟩ := methods_err files_pairwise h1
    rcases a5 with ⟨m, hm, b1, b2⟩ | ⟨m, hm, b1, q, hq, b2⟩ | ⟨b1, b2⟩
    · exact .inr (.inl ⟨b2, m, hm, b1⟩)
    · refine .inr (.inr ⟨q, ?_, ?_, b2⟩)
      · rw [requests_eq]
        exact List.mem_flatMap.2 ⟨m, hm, hq⟩
      · rw [reqs_of hq]
        exact b1
    · refine .inl ⟨b1, lt_of_lt_of_le b2 ?_⟩
      have hs : List.Sublist ((speedMethods.filter fun m => (d (fileOf m)).isNone).map fun m => (reqsM m).length + 2) (speedMethods.map fun m => (reqsM m).length + 2) :=
        List.filter_sublist.map _
      refine hs.sum_le_sum (fun _ _ => Nat.zero_le _) |>.trans ?_
      decide +kernel

/-- **C97** Without interruption, if no file is broken and the calls of the other packages do not raise, the call returns; from then on every call returns the same, at once and without measuring. The measurements
of sunwhere do not raise (C95). -/
theorem C97_completes (cow : Bool) {env : Request → SpeedEnv XR} {d : SpeedDir} (hd : ∀ m ∈ speedNames, d (tableFile m) ≠ some none) {budget : Nat} (hb : 420 ≤ budget)
    (hr : ∀ q, RngOk (env q).rng ∧ (env q).readInt ['1', '0'] = some 10 ∧ (env q).readInt ['5', '0'] = some 50 ∧ (env q).readInt ['1', '0', '0'] = some 100)
    (ho : ∀ q, q.1 ≠ "sunwhere" → (env q).foreign q.1 q.2.1 = .ok ()) :
    ∃ t, (loadSpeedTests cow env budget d).result = .ok t ∧
      ∀ d', SpeedHistory cow (loadSpeedTests cow env budget d).dir d' → ∀ env' budget', loadSpeedTests cow env' budget' d' = ⟨d', [], .ok t⟩ := by
  cases hres : (loadSpeedTests cow env budget d).result with
  | error e =>
    exfalso
    rcases C97_stops hres with ⟨-, h⟩ | ⟨-, m, hm, h⟩ | ⟨q, hq, -, p, h, -⟩
    · omega
    · exact hd m hm h
    · have := all_measured hr ho hq
      obtain ⟨sp, hsp⟩ := this
      rw [hsp] at h
      cases h
  | ok t =>
    refine ⟨t, rfl, ?_⟩
    have hT := C97_table hres
    generalize (loadSpeedTests cow env budget d).dir = d0 at hT
    intro d' hd'
    have key : ∀ d', List.Forall₂ (fun m x => x.1 = keyOf m ∧ d' (fileOf m) = some (some x.2)) speedMethods t →
        ∀ env' budget', loadSpeedTests cow env' budget' d' = ⟨d', [], .ok t⟩ := by
      intro d' hf env' budget'
      have gen : ∀ (ms : List (String × String)) (t : List (String × SpeedTable)), List.Forall₂ (fun m x => x.1 = keyOf m ∧ d' (fileOf m) = some (some x.2)) ms t →
          loadMethods cow env' ms ⟨budget', d', []⟩ = .ok t ⟨budget', d', []⟩ := by
        intro ms t hf
        induction hf with
        | nil => rfl
        | @cons m x ms t hx _ ih =>
          unfold loadMethods
          refine proc_ok.2 ⟨_, _, method_cached (s := ⟨budget', d', []⟩) hx.2, proc_ok.2 ⟨_, _, ih, ?_⟩⟩
          show EStateM.Result.ok ((keyOf m, x.2) :: t) _ = _
          rw [← hx.1]
      unfold loadSpeedTests
      rw [gen _ _ hf]
    have hf0 : List.Forall₂ (fun m x => x.1 = keyOf m ∧ d0 (fileOf m) = some (some x.2)) speedMethods t := hT.imp fun m x h => ⟨h.1, h.2.1⟩
    have : d' = d0 := by
      induction hd' with
      | start => rfl
      | call env' b' _ ih =>
        rw [ih, key d0 hf0]
    rw [this]
    exact key d0 hf0

/-- **C97** A call that is killed while it writes a file breaks the table for ever: as long as nobody removes the file, no later call returns. -/
theorem C97_broken {cow : Bool} {d d' : SpeedDir} {m : String × String} (hm : m ∈ speedNames) (h : d (tableFile m) = some none) (hd : SpeedHistory cow d d')
    (env : Request → SpeedEnv XR) (budget : Nat) : ∀ t, (loadSpeedTests cow env budget d').result ≠ .ok t := by
  have hb : d' (tableFile m) = some none := by
    induction hd with
    | start => exact h
    | call env b _ ih =>
      rw [(C97_files cow env b _).1 _ (by rw [ih]; simp), ih]
  intro t ht
  have hT := C97_table ht
  obtain ⟨i, hi, rfl⟩ := List.mem_iff_getElem.1 hm
  have := (List.forall₂_iff_get.1 hT).2 i hi (hT.length_eq ▸ hi)
  simp only [List.get_eq_getElem] at this
  rcases this.2.2 with this | ⟨this, -⟩ <;> rw [hb] at this <;> cases this

/-- **C97** With the pandas that the project asks for, no measurement is kept: starting without the files, whatever calls were made, killed or not, every frame in the directory and every frame that a
call returns is empty: all its 48 cells are missing, although a call that returns has made 40 measurements for each method that had no file. -/
theorem C97_lost {d d' : SpeedDir} (h : ∀ m ∈ speedNames, d (tableFile m) = none) (hd : SpeedHistory true d d') :
    (∀ m ∈ speedNames, ∀ frame, d' (tableFile m) = some (some frame) → frame.map Prod.fst = speedKeys ∧ ∀ cell ∈ frame, cell.2 = none) ∧
    ∀ env budget t, (loadSpeedTests true env budget d').result = .ok t → ∀ x ∈ t, x.2.map Prod.fst = speedKeys ∧ ∀ cell ∈ x.2, cell.2 = none := by
  have h1 : ∀ m ∈ speedNames, ∀ frame, d' (tableFile m) = some (some frame) → frame.map Prod.fst = speedKeys ∧ ∀ cell ∈ frame, cell.2 = none := by
    induction hd with
    | start =>
      intro m hm frame hf
      rw [h m hm] at hf
      cases hf
    | @call d1 env b _ ih =>
      intro m hm frame hf
      by_cases hn : d1 (tableFile m) = none
      · have := (C97_files true env b d1).2.2.2 m hm hn frame hf
        exact ⟨this.keys, fun cell hc => this.missing cell hc (.inl rfl)⟩
      · rw [(C97_files true env b d1).1 _ hn] at hf
        exact ih m hm frame hf
  refine ⟨h1, fun env budget t ht x hx => ?_⟩
  have hT := C97_table ht
  obtain ⟨i, hi, rfl⟩ := List.mem_iff_getElem.1 hx
  have hi' : i < speedNames.length := hT.length_eq ▸ hi
  have := (List.forall₂_iff_get.1 hT).2 i hi' hi
  simp only [List.get_eq_getElem] at this
  rcases this.2.2 with hx | ⟨-, hx⟩
  · exact h1 _ (List.getElem_mem _) _ hx
  · exact ⟨hx.keys, fun cell hc => hx.missing cell hc (.inl rfl)⟩

/-- **C97** Such a kill exists: in an empty directory, after 41 effects (40 measurements and the opening of the first file). -/
theorem C97_kill (cow : Bool) {env : Request → SpeedEnv XR} {d : SpeedDir} (hd : ∀ m ∈ speedNames, d (tableFile m) = none)
    (hr : ∀ q, RngOk (env q).rng ∧ (env q).readInt ['1', '0'] = some 10 ∧ (env q).readInt ['5', '0'] = some 50 ∧ (env q).readInt ['1', '0', '0'] = some 100) :
    (loadSpeedTests cow env 41 d).result = .error .killed ∧ (loadSpeedTests cow env 41 d).dir (tableFile ("sunwhere", "nrel_numexpr")) = some none ∧
      (loadSpeedTests cow env 41 d).log.length = 40 := by
  have h0 : d (speedFile "sunwhere" "nrel_numexpr") = none := hd ("sunwhere", "nrel_numexpr") (by decide +kernel)
  have hlen : (reqs "sunwhere" "nrel_numexpr" speedCells).length = 40 := by decide +kernel
  have hm : ∀ q ∈ reqs "sunwhere" "nrel_numexpr" speedCells, ∃ sp, speedMeter (env q) q.1 q.2.1 q.2.2.1 q.2.2.2 3 1 = .ok sp := by
    intro q hq
    have hq' : q ∈ speedRequests := by
      rw [requests_eq]
      exact List.mem_flatMap.2 ⟨("sunwhere", "nrel_numexpr"), by decide +kernel, hq⟩
    have hs := congrArg Prod.fst (reqs_of (m := ("sunwhere", "nrel_numexpr")) hq)
    obtain ⟨r1, r2, r3, r4⟩ := hr q
    obtain ⟨_, _, _, _, sp, hsp, -⟩ := (C95_requests r1 r2 r3 r4).2.1 q hq' hs
    exact ⟨sp, hsp⟩
  have hk : ∃ t s, measureCells cow env "sunwhere" "nrel_numexpr" speedCells blankTable ⟨41, d, []⟩ = .ok t s ∧ s.dir = d ∧ s.budget = 1 ∧ s.log.length = 40 := by
    cases h : measureCells cow env "sunwhere" "nrel_numexpr" speedCells blankTable ⟨41, d, []⟩ with
    | ok t s =>
      obtain ⟨-, h2, h3, h4, -⟩ := measure_ok h
      rw [hlen] at h4
      refine ⟨t, s, rfl, h2, ?_, by rw [h3, List.nil_append, hlen]⟩
      simp only at h4
      omega
    | error e s =>
      exfalso
      obtain ⟨-, -, h3⟩ := measure_err h
      rcases h3 with ⟨q, hq, p, hp, -⟩ | ⟨-, h3⟩
      · obtain ⟨sp, hsp⟩ := hm q hq
        rw [hsp] at hp
        cases hp
      · rw [hlen] at h3
        simp only at h3
        omega
  obtain ⟨t, s, k1, k2, k3, k4⟩ := hk
  have hw : writeTable (speedFile "sunwhere" "nrel_numexpr") t s = .error .killed ⟨0, put d (speedFile "sunwhere" "nrel_numexpr") none, s.log⟩ := by
    obtain ⟨b, dd, lg⟩ := s
    simp only at k2 k3
    subst k2 k3
    rfl
  have hl : loadMethods cow env speedMethods ⟨41, d, []⟩ = .error .killed ⟨0, put d (speedFile "sunwhere" "nrel_numexpr") none, s.log⟩ := by
    show loadMethods cow env (("sunwhere", "nrel_numexpr") :: _) _ = _
    unfold loadMethods
    refine proc_err.2 (.inl ?_)
    unfold loadMethod
    refine proc_err.2 (.inr ⟨_, _, rfl, ?_⟩)
    rw [if_pos h0]
    exact proc_err.2 (.inr ⟨_, _, k1, proc_err.2 (.inl hw)⟩)
  unfold loadSpeedTests
  rw [hl]
  simp only
  exact ⟨trivial, put_same (d := d) (v := none), k4⟩

/-- environments that meet the hypotheses of C97 -/
noncomputable def exTable : Request → SpeedEnv XR := fun _ =>
  { exSpeed with readInt := fun s => if s = ['1', '0'] then some 10 else if s = ['5', '0'] then some 50 else if s = ['1', '0', '0'] then some 100 else none }

theorem exTable_ok : (∀ q, RngOk (exTable q).rng ∧ (exTable q).readInt ['1', '0'] = some 10 ∧ (exTable q).readInt ['5', '0'] = some 50 ∧
    (exTable q).readInt ['1', '0', '0'] = some 100) ∧ ∀ q : Request, q.1 ≠ "sunwhere" → (exTable q).foreign q.1 q.2.1 = .ok () :=
  ⟨fun _ => ⟨exSpeed_rng, by unfold exTable; decide, by unfold exTable; decide, by unfold exTable; decide⟩, fun _ _ => rfl⟩

/-- from an empty directory, a call returns ten empty frames after 400 measurements (`C97_lost`, `C97_table`, `C97_measurements`), or, with the pandas of before, the same call a table with a number
(`C97_completes`, `MeasuredFrame`) -/
example : ∃ t u, (loadSpeedTests true exTable 420 fun _ => none).result = .ok t ∧ (loadSpeedTests true exTable 420 fun _ => none).log.length = 400 ∧ t.length = 10 ∧
    (∀ x ∈ t, ∀ cell ∈ x.2, cell.2 = none) ∧ (loadSpeedTests false exTable 420 fun _ => none).result = .ok u ∧
    ∃ x ∈ u, ∃ cell ∈ x.2, ∃ sp, speedMeter (exTable ("sunwhere", "nrel_numexpr", 1, .int 1)) "sunwhere" "nrel_numexpr" 1 (.int 1) 3 1 = .ok sp ∧ cell.2 = sp.mean := by
  obtain ⟨t, ht, -⟩ := C97_completes true (d := fun _ => none) (fun _ _ => by simp) le_rfl exTable_ok.1 exTable_ok.2
  obtain ⟨u, hu, -⟩ := C97_completes false (d := fun _ => none) (fun _ _ => by simp) le_rfl exTable_ok.1 exTable_ok.2
  refine ⟨t, u, ht, ?_, ?_, ?_, hu, ?_⟩
  · rw [(C97_measurements _ _ _ _).2 t ht, show (speedRequests.filter fun q => (none : Option (Option SpeedTable)).isNone) = speedRequests from List.filter_eq_self.2 fun _ _ => rfl]
    obtain ⟨r1, r2, r3, r4⟩ := exTable_ok.1 ("", "", 0, .int 0)
    exact (C95_requests r1 r2 r3 r4).1
  · exact (C97_table ht).length_eq.symm
  · intro x hx
    exact ((C97_lost (d := fun _ => none) (fun _ _ => rfl) (.start _)).2 _ _ t ht x hx).2
  · have h := C97_table hu
    unfold speedNames at h
    cases h with
    | @cons m x ms u hx _ =>
      refine ⟨x, List.mem_cons_self, ?_⟩
      obtain ⟨-, hM⟩ := hx.2.2.resolve_left (by simp)
      have hk : (1, "1") ∈ x.2.map Prod.fst := by rw [hM.keys]; decide +kernel
      obtain ⟨cell, hc, e⟩ := List.mem_map.1 hk
      have := hM.value cell hc (.int 1) (by rw [e]; exact .one) rfl (.inl (by rw [e]; norm_num))
      rw [e] at this
      exact ⟨cell, hc, this⟩

/-- the hypotheses of `C97_broken` -/
example : ∃ d, SpeedHistory true (fun _ => none) d ∧ ∃ m ∈ speedNames, d (tableFile m) = some none :=
  ⟨_, .call exTable 41 (.start _), ("sunwhere", "nrel_numexpr"), by decide +kernel, (C97_kill true (fun _ _ => rfl) exTable_ok.1).2.1⟩

end SW.Props
