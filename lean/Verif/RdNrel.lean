/-
The time-dependent part of nrel in rounded arithmetic, against the same program in exact arithmetic.
-/
import Verif.RNrel
import Verif.RdIqbal

namespace SW
open Real

/-- powers -/
theorem Ap.npow {A : Arith} {a : Rd A} {x M ε : ℝ} (n : ℕ) (h : Ap a x M ε) (hn : n ≤ 12) (hb : (M + ε) ^ n ≤ 1e30) :
    Ap (Num.npow a n : Rd A) (x ^ n) (M ^ n) (ε * n * (M + ε) ^ (n - 1) + (1e-14 * (M + ε) ^ n + 1e-30)) := by
  have M0 := h.M_nonneg
  have e0 := h.e_nonneg
  obtain ⟨m, r, rfl, e⟩ := h
  have hr := Ap.fin_bound m e
  have hrn : |r ^ n| ≤ (M + ε) ^ n := by rw [abs_pow]; gcongr
  obtain ⟨q, hq, hq'⟩ := A.npow_spec r n hn (hrn.trans hb)
  refine ⟨by rw [abs_pow]; gcongr, q, hq, ?_⟩
  have h1 : |r ^ n - x ^ n| ≤ ε * n * (M + ε) ^ (n - 1) := by
    refine (abs_pow_sub_pow_le r x n).trans ?_
    have : max |r| |x| ≤ M + ε := max_le hr (m.trans (by linarith))
    gcongr
  have h2 := abs_sub_le q (r ^ n) (x ^ n)
  have h3 : 1e-14 * |r ^ n| ≤ 1e-14 * (M + ε) ^ n := by gcongr
  linarith

/-- `%` of numexpr on an angle known up to turns -/
theorem Apm.cmod' {A : Arith} {a b : Rd A} {x y M ε : ℝ} (h1 : Apm a x y M ε) (h2 : b = Rd.fin y) (hb : M ≤ 1e30) (hy : 0 < y)
    (hy' : y ≤ 1e30) : Apm (Num.cmod a b : Rd A) x y (y + 1e-15 * y) (ε + 1e-15 * y) := by
  obtain ⟨r, k, rfl, m, e⟩ := h1
  obtain ⟨q, hq, q1, j, hj⟩ := A.cmod_spec r y (m.trans hb) hy hy'
  refine ⟨q, k - j, by rw [h2]; exact hq, q1, ?_⟩
  push_cast
  rw [show q - x - (k - j) * y = (q - (r - j * y)) + (r - x - k * y) by ring]
  exact (abs_add_le _ _).trans (by linarith)

/-- a difference of known magnitude -/
theorem Ap.sub' {A : Arith} {a b : Rd A} {x y M N ε δ : ℝ} (K : ℝ) (h1 : Ap a x M ε) (h2 : Ap b y N δ) (hK : |x - y| ≤ K)
    (hb : K + (ε + δ) ≤ 1e30) : Ap (a - b : Rd A) (x - y) K (ε + δ + (1e-15 * (K + (ε + δ)) + 1e-30)) := by
  obtain ⟨m1, r, rfl, e1⟩ := h1
  obtain ⟨m2, s, rfl, e2⟩ := h2
  have hd : |(r - s) - (x - y)| ≤ ε + δ := by
    rw [show (r - s) - (x - y) = (r - x) - (s - y) by ring]
    exact (abs_sub _ _).trans (by linarith)
  have hk := Ap.fin_bound hK hd
  obtain ⟨q, hq, hq'⟩ := A.sub_spec r s (hk.trans hb)
  exact ⟨hK, q, hq, Ap.step hk hq' hd⟩

/-- inverse sine of a declination -/
theorem Ap.arcsin' {A : Arith} {a : Rd A} {x M ε : ℝ} (h : Ap a x M ε) (hx : |x| ≤ 1) (ha : |Real.arcsin x| ≤ 0.4153) (he : ε ≤ 1e-6) :
    Ap (Num.arcsin a : Rd A) (Real.arcsin x) 0.4153 (ε / 0.91 + 1e-14) := by
  obtain ⟨-, r, rfl, e⟩ := h
  have e' : |r - x| ≤ 1e-6 := e.trans he
  have hx2 := abs_le.1 hx
  have hsx : |x| ≤ Real.sin 0.4153 := by
    have h1 := abs_le.1 ha
    have h0 : (0.4153 : ℝ) < π / 2 := by have := pi_gt_d2; norm_num at *; linarith
    rw [abs_le]
    constructor
    · have := (Real.le_arcsin_iff_sin_le' (x := -0.4153) (y := x) ⟨by linarith, by norm_num at *; linarith⟩).1 h1.1
      rwa [Real.sin_neg] at this
    · exact (Real.arcsin_le_iff_le_sin' (x := x) (y := 0.4153) ⟨by norm_num at *; linarith, by linarith⟩).1 h1.2
  have hstep : Real.sin 0.4153 + 9e-5 ≤ Real.sin 0.4154 := by
    have := Ephem.sin_expand (x := 0.4154) (y := 0.4153) (by rw [abs_of_pos] <;> norm_num)
      (by rw [abs_of_pos] <;> norm_num)
    have h2 : Real.sin 0.4153 ≤ Real.sin 0.4154 := by
      apply Real.sin_le_sin_of_le_of_le_pi_div_two <;> have := pi_gt_d2 <;> norm_num at * <;> linarith
    rw [abs_of_nonneg (by linarith : 0 ≤ Real.sin 0.4154 - Real.sin 0.4153), abs_of_pos (by norm_num)] at this
    norm_num at *; linarith
  have hr : |r| ≤ Real.sin 0.4154 := by
    have := Ap.fin_bound hsx e'; norm_num at *; linarith
  have hr1 : |r| ≤ 1 := hr.trans (Real.sin_le_one _)
  have har : |Real.arcsin r| ≤ 0.4154 := by
    have h1 := abs_le.1 hr
    have h0 : (0.4154 : ℝ) < π / 2 := by have := pi_gt_d2; norm_num at *; linarith
    rw [abs_le]
    constructor
    · refine (Real.le_arcsin_iff_sin_le' (x := -0.4154) (y := r) ⟨by linarith, by norm_num at *; linarith⟩).2 ?_
      rw [Real.sin_neg]; exact h1.1
    · exact (Real.arcsin_le_iff_le_sin' (x := r) (y := 0.4154) ⟨by norm_num at *; linarith, by linarith⟩).2 h1.2
  have hd := Ephem.arcsin_sub_le har (ha.trans (by norm_num)) hr1 hx
  obtain ⟨q, hq, hq'⟩ := A.arcsin_spec r hr1
  refine ⟨ha, q, hq, ?_⟩
  have := abs_sub_le q (Real.arcsin r) (Real.arcsin x)
  have : |r - x| / 0.91 ≤ ε / 0.91 := by gcongr
  linarith

namespace Nrel
variable {A : Arith}

/-! ### table entries and sums -/

theorem Dec.num_le {d : Dec} {K : ℕ} (h : d.m.natAbs ≤ K * 10 ^ d.e) : |(d.num : ℝ)| ≤ K := by
  have h : |(Num.lit d.m.natAbs true d.e : ℝ)| ≤ K := by
    rw [lit_real, abs_of_nonneg (by positivity), div_le_iff₀ (by positivity)]
    exact_mod_cast h
  unfold Dec.num
  split
  · rwa [abs_neg]
  · exact h

theorem Dec.num_ap {d : Dec} {K : ℝ} (h : |(d.num : ℝ)| ≤ K) (hK : K ≤ 1e30) :
    Ap (d.num : Rd A) d.num K (1e-15 * K + 1e-30) := by
  unfold Dec.num at *
  split_ifs at *
  · rw [abs_neg] at h
    exact (Ap.lit h hK).neg
  · exact Ap.lit h hK

theorem nat_real (k : ℕ) : (Num.nat k : ℝ) = k := by
  match k with
  | 0 => exact Nat.cast_zero.symm
  | 1 => exact Nat.cast_one.symm
  | _ + 2 => rfl

theorem inum_ap {n : ℤ} {K : ℕ} (h : n.natAbs ≤ K) : Ap (inum n : Rd A) (inum n) K 0 := by
  have h1 : ∀ k : ℕ, (Num.nat k : Rd A) = Rd.fin (Num.nat k) := fun _ => rfl
  have h3 : Ap (Num.nat n.natAbs : Rd A) (Num.nat n.natAbs) K 0 := by
    rw [h1]
    refine Ap.ofFin _ ?_
    rw [nat_real, abs_of_nonneg (by positivity)]; exact_mod_cast h
  unfold inum
  split_ifs
  · exact h3.neg
  · exact h3

/-- what is asked of the phase and of the frequency of a row -/
def RowOk (r : Row) : Prop := r.b.m.natAbs ≤ 7 * 10 ^ r.b.e ∧ r.c.m.natAbs ≤ 161001 * 10 ^ r.c.e
instance (r : Row) : Decidable (RowOk r) := by unfold RowOk; infer_instance

section
variable {a : Rd A} {m : ℝ} (h : Ap a m 0.323 2.3e-14)
include h

theorem term_ap {r : Row} (hr : RowOk r) (hK' : r.a.m.natAbs ≤ 10 ^ 12) :
    Ap (term a r) (term m r) r.a.m.natAbs (4e-9 * r.a.m.natAbs + 1e-29) := by
  have hb := Dec.num_ap (A := A) (Dec.num_le hr.1) (by norm_num)
  have hc := Dec.num_ap (A := A) (Dec.num_le hr.2) (by norm_num)
  have hK1 : ((r.a.m.natAbs : ℕ) : ℝ) ≤ 1000000000000 := by exact_mod_cast hK'
  have hK0 : (0 : ℝ) ≤ ((r.a.m.natAbs : ℕ) : ℝ) := by positivity
  have ha0 := Dec.num_abs r.a
  generalize ((r.a.m.natAbs : ℕ) : ℝ) = K at *
  have ha := Dec.num_ap (A := A) (d := r.a) (K := K) ha0 (by norm_num; linarith)
  have harg : Ap (r.b.num + r.c.num * a : Rd A) (r.b.num + r.c.num * m) 52011 3.9e-9 := by apf
  have hcos := (harg.cos (by norm_num)).mono le_rfl (ε' := 3.95e-9) (by norm_num)
  unfold term
  refine (ha.mul hcos ?_).fit rfl ?_ ?_
  · norm_num; linarith
  · linarith
  · norm_num; linarith

theorem head_ap {k : ℕ} (hk : k ≤ 10 ^ 12) :
    Ap (term a ⟨⟨k, 0⟩, ⟨0, 0⟩, ⟨0, 0⟩⟩) (term m ⟨⟨k, 0⟩, ⟨0, 0⟩, ⟨0, 0⟩⟩) k (2e-14 * k + 1e-29) := by
  have hK1 : (k : ℝ) ≤ 1000000000000 := by exact_mod_cast hk
  have hK0 : (0 : ℝ) ≤ (k : ℝ) := by positivity
  have h0 : Ap ((⟨0, 0⟩ : Dec).num : Rd A) ((⟨0, 0⟩ : Dec).num : ℝ) (0 : ℕ) _ :=
    Dec.num_ap (Dec.num_le (K := 0) (by decide)) (by norm_num)
  have ha0 : |((⟨k, 0⟩ : Dec).num : ℝ)| ≤ (k : ℝ) := (Dec.num_abs _).trans (le_of_eq (by simp))
  have harg : Ap ((⟨0, 0⟩ : Dec).num + (⟨0, 0⟩ : Dec).num * a : Rd A) ((⟨0, 0⟩ : Dec).num + (⟨0, 0⟩ : Dec).num * m) 0 1e-29 := by apf
  have hcos := (harg.cos (by norm_num)).mono le_rfl (ε' := 1.1e-14) (by norm_num)
  have ha := Dec.num_ap (A := A) ha0 (by norm_num; linarith)
  unfold term
  refine (ha.mul hcos ?_).fit rfl ?_ ?_
  · norm_num; linarith
  · linarith
  · norm_num; linarith
end

/-- rounding in a sum of many terms -/
theorem foldl_ap {ι : Type} {f : ι → Rd A} {g : ι → ℝ} {w : ι → ℝ} {η ξ K : ℝ} (hη : 0 ≤ η) (hξ : 0 ≤ ξ) (hK0 : 0 ≤ K) (hK : K ≤ 1e30)
    (l : List ι) (hw : ∀ r ∈ l, 0 ≤ w r)
    (hl : ∀ r ∈ l, Ap (f r) (g r) (w r) (η * w r + ξ)) {a : Rd A} {x M ε : ℝ} (h : Ap a x M ε)
    (hb : M + (l.map w).sum + (ε + η * (l.map w).sum + l.length * (ξ + (1e-15 * K + 1e-30))) ≤ K) :
    Ap ((l.map f).foldl (fun a b => a + b) a) ((l.map g).foldl (fun a b => a + b) x) (M + (l.map w).sum)
      (ε + η * (l.map w).sum + l.length * (ξ + (1e-15 * K + 1e-30))) := by
  induction l generalizing a x M ε with
  | nil => simpa using h
  | cons r l ih =>
    have hr := hl r (by simp)
    have hw0 := hw r (by simp)
    have hs : (0 : ℝ) ≤ (l.map w).sum := by
      apply List.sum_nonneg
      intro x hx
      obtain ⟨s, hs, rfl⟩ := List.mem_map.1 hx
      exact hw s (by simp [hs])
    have hn : (0 : ℝ) ≤ (l.length : ℝ) := by positivity
    have M0 := h.M_nonneg
    have e0 := h.e_nonneg
    simp only [List.map_cons, List.sum_cons, List.length_cons, Nat.cast_add, Nat.cast_one] at hb ⊢
    have hp : 0 ≤ η * w r := by positivity
    have hq : 0 ≤ η * (l.map w).sum := by positivity
    have h1 : 0 ≤ 1e-15 * K + 1e-30 := by positivity
    have hκ : 0 ≤ ξ + (1e-15 * K + 1e-30) := by positivity
    have hnκ : 0 ≤ (l.length : ℝ) * (ξ + (1e-15 * K + 1e-30)) := by positivity
    rw [mul_add, add_mul, one_mul] at hb
    have step := h.add hr (by linarith)
    have step' : Ap (a + f r : Rd A) (x + g r) (M + w r) (ε + η * w r + (ξ + (1e-15 * K + 1e-30))) := by
      refine step.mono le_rfl ?_
      have h2 : M + w r + (ε + (η * w r + ξ)) ≤ K := by linarith
      have h3 := mul_le_mul_of_nonneg_left h2 (by norm_num : (0 : ℝ) ≤ 1e-15)
      linarith
    have := ih (fun s hs => hw s (by simp [hs])) (fun s hs => hl s (by simp [hs])) step' (by linarith)
    refine this.fit rfl ?_ ?_
    · linarith
    · rw [mul_add, add_mul, one_mul]; linarith

theorem cast_sum {ι : Type} (w : ι → ℕ) (l : List ι) : (l.map (fun r => (w r : ℝ))).sum = (((l.map w).sum : ℕ) : ℝ) := by
  induction l with
  | nil => simp
  | cons x xs ih => simp [ih]

/-- a summed series -/
theorem series_ap {a : Rd A} {m : ℝ} (h : Ap a m 0.323 2.3e-14) {n : ℕ} {r0 : Row} {tl : List Row} {M ε : ℝ} (K N : ℝ) {s : ℕ}
    (h0 : Ap (term a r0) (term m r0) M ε)
    (hl : ∀ r ∈ tl, RowOk r ∧ r.a.m.natAbs ≤ 10 ^ 12) (hlen : tl.length ≤ n - 1) (hN : ((n - 1 : ℕ) : ℝ) ≤ N)
    (hamp : amp tl = s) (hK0 : 0 ≤ K) (hK : K ≤ 1e29)
    (hb : M + s + (ε + 4e-9 * s + N * (1e-29 + (1e-15 * K + 1e-30))) ≤ K) :
    Ap (series n (r0 :: tl) a) (series n (r0 :: tl) m) (M + s) (ε + 4e-9 * s + N * (1e-29 + (1e-15 * K + 1e-30))) := by
  have M0 := h0.M_nonneg
  have e0 := h0.e_nonneg
  have hs0 : (0 : ℝ) ≤ s := by positivity
  have hN0 : 0 ≤ N := le_trans (by positivity) hN
  obtain ⟨l, hldef⟩ : ∃ l, l = tl ++ List.replicate (n - (r0 :: tl).length) (⟨⟨0, 0⟩, ⟨0, 0⟩, ⟨0, 0⟩⟩ : Row) := ⟨_, rfl⟩
  have hser : ∀ {B : Type} [Num B] (b : B), series n (r0 :: tl) b = (l.map (term b)).foldl (fun a b => a + b) (term b r0) := by
    intro B _ b; rw [hldef]; rfl
  have hsum : (l.map (fun r => ((r.a.m.natAbs : ℕ) : ℝ))).sum = s := by
    rw [cast_sum, hldef, List.map_append, List.sum_append, List.map_replicate, List.sum_replicate]
    have : amp tl = (tl.map (fun r => r.a.m.natAbs)).sum := rfl
    rw [← this, hamp]; simp
  have hll : l.length = n - 1 := by
    rw [hldef, List.length_append, List.length_replicate, List.length_cons]; omega
  have hlen' : (l.length : ℝ) ≤ N := by rw [hll]; exact hN
  have hall : ∀ r ∈ l, RowOk r ∧ r.a.m.natAbs ≤ 10 ^ 12 := by
    intro r hr
    rw [hldef, List.mem_append] at hr
    rcases hr with hr | hr
    · exact hl r hr
    · rw [(List.mem_replicate.1 hr).2]; decide
  have hc0 : 0 ≤ 1e-29 + (1e-15 * K + 1e-30) := by positivity
  have hmul : (l.length : ℝ) * (1e-29 + (1e-15 * K + 1e-30)) ≤ N * (1e-29 + (1e-15 * K + 1e-30)) := by gcongr
  rw [hser, hser]
  refine (foldl_ap (f := term a) (g := term m) (w := fun r => ((r.a.m.natAbs : ℕ) : ℝ)) (η := 4e-9) (ξ := 1e-29) (K := K)
    (by norm_num) (by norm_num) hK0 (hK.trans (by norm_num)) l (fun r _ => by positivity)
    (fun r hr => term_ap h (hall r hr).1 (hall r hr).2) h0 ?_).fit rfl ?_ ?_
  · rw [hsum]; linarith
  · rw [hsum]
  · rw [hsum]; linarith

end Nrel
end SW
