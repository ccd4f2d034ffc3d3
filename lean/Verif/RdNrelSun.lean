/-
Nutation, obliquity, apparent longitude, right ascension, declination and equation of time of nrel in
rounded arithmetic.
-/
import Verif.RdNrelTime

namespace SW.Nrel
open Real
variable {A : Arith}

/-! ### nutation -/

section
variable {a : Rd A} {c : ℝ} (h : Ap a c 3.23 2.23e-13)
include h
theorem c2_ap : Ap (Num.npow a 2 : Rd A) (c ^ 2) 10.44 2e-12 := by
  refine (Ap.npow 2 h (by norm_num) (by norm_num)).mono ?_ ?_ <;> norm_num
theorem c3_ap : Ap (Num.npow a 3 : Rd A) (c ^ 3) 33.7 1e-11 := by
  refine (Ap.npow 3 h (by norm_num) (by norm_num)).mono ?_ ?_ <;> norm_num
theorem c3d_ap {n : ℕ} [n.AtLeastTwo] (hn : (50000 : ℝ) ≤ OfNat.ofNat n) :
    Ap (Num.npow a 3 / (no_index (OfNat.ofNat n)) : Rd A) (c ^ 3 / (OfNat.ofNat n)) 0.001 1e-15 := by
  refine (Ap.div' 50000 (c3_ap h) (Ap.nat (n := n)) (hn.trans (le_abs_self _)) ?_ ?_).mono ?_ ?_ <;> norm_num
theorem x0_ap : Ap (x0 a) (x0 c) 1438600 1.1e-7 := by
  have h2 := c2_ap h
  have h3 := c3d_ap h (n := 189474) (by norm_num)
  unfold x0; apf
theorem x1_ap : Ap (x1 a) (x1 c) 116700 1e-8 := by
  have h2 := c2_ap h
  have h3 := c3d_ap h (n := 300000) (by norm_num)
  unfold x1; apf
theorem x2_ap : Ap (x2 a) (x2 c) 1541600 1.2e-7 := by
  have h2 := c2_ap h
  have h3 := c3d_ap h (n := 56250) (by norm_num)
  unfold x2; apf
theorem x3_ap : Ap (x3 a) (x3 c) 1561000 1.2e-7 := by
  have h2 := c2_ap h
  have h3 := c3d_ap h (n := 327270) (by norm_num)
  unfold x3; apf
theorem x4_ap : Ap (x4 a) (x4 c) 6400 1e-9 := by
  have h2 := c2_ap h
  have h3 := c3d_ap h (n := 450000) (by norm_num)
  unfold x4; apf

/-- what is asked of the multiples in a row -/
def NutOk (r : NutRow) : Prop := r.y0.natAbs ≤ 2 ∧ r.y1.natAbs ≤ 2 ∧ r.y2.natAbs ≤ 3 ∧ r.y3.natAbs ≤ 2 ∧ r.y4.natAbs ≤ 2 ∧
  r.a.m.natAbs + r.b.m.natAbs ≤ 10 ^ 6 ∧ r.c.m.natAbs + r.d.m.natAbs ≤ 10 ^ 6
omit h in
instance (r : NutRow) : Decidable (NutOk r) := by unfold NutOk; infer_instance

theorem nutArg_ap {r : NutRow} (hr : NutOk r) : Ap (nutArg a r) (nutArg c r) 250000 1.8e-8 := by
  obtain ⟨i0, i1, i2, i3, i4, -, -⟩ := hr
  have h0 := x0_ap h
  have h1 := x1_ap h
  have h2 := x2_ap h
  have h3 := x3_ap h
  have h4 := x4_ap h
  have n0 := inum_ap (A := A) i0
  have n1 := inum_ap (A := A) i1
  have n2 := inum_ap (A := A) i2
  have n3 := inum_ap (A := A) i3
  have n4 := inum_ap (A := A) i4
  have hD := DEG2RAD_ap (A := A)
  unfold nutArg; apf
end

theorem nutOk : ∀ r ∈ paramsNut, NutOk r := by decide +kernel

/-- a coefficient `a + b * m` -/
theorem coef_ap {b : Rd A} {m : ℝ} (h : Ap b m 0.323 2.3e-14) {p q : Dec} (hpq : p.m.natAbs + q.m.natAbs ≤ 10 ^ 6) :
    Ap (p.num + q.num * b : Rd A) (p.num + q.num * m) ((p.m.natAbs + q.m.natAbs : ℕ) : ℝ)
      (1e-13 * ((p.m.natAbs + q.m.natAbs : ℕ) : ℝ) + 1e-29) := by
  have hp0 := Dec.num_abs p
  have hq0 := Dec.num_abs q
  have hK : ((p.m.natAbs : ℕ) : ℝ) + ((q.m.natAbs : ℕ) : ℝ) ≤ 1000000 := by exact_mod_cast hpq
  have h1 : (0 : ℝ) ≤ ((p.m.natAbs : ℕ) : ℝ) := by positivity
  have h2 : (0 : ℝ) ≤ ((q.m.natAbs : ℕ) : ℝ) := by positivity
  rw [Nat.cast_add]
  generalize ((p.m.natAbs : ℕ) : ℝ) = P at *
  generalize ((q.m.natAbs : ℕ) : ℝ) = Q at *
  have hp := Dec.num_ap (A := A) hp0 (by norm_num; linarith)
  have hq := Dec.num_ap (A := A) hq0 (by norm_num; linarith)
  have hqb := (hq.mul h (by norm_num; linarith)).mono (M' := 0.33 * Q) (ε' := 2.5e-14 * Q + 1e-29 / 2) (by linarith) (by norm_num; linarith)
  refine (hp.add hqb (by norm_num; linarith)).fit rfl ?_ ?_
  · linarith
  · norm_num; linarith

section
variable {a b : Rd A} {c m : ℝ} (hm : Ap b m 0.323 2.3e-14) (h : Ap a c 3.23 2.23e-13)
include hm h

theorem psiTerm_ap {r : NutRow} (hr : NutOk r) : Ap (psiTerm b a r) (psiTerm m c r)
    (((r.a.m.natAbs + r.b.m.natAbs : ℕ) : ℝ) / 36000000) (2e-8 * (((r.a.m.natAbs + r.b.m.natAbs : ℕ) : ℝ) / 36000000) + 1e-29) := by
  have h1 := coef_ap hm hr.2.2.2.2.2.1
  have h2 := ((nutArg_ap h hr).sin (by norm_num)).mono le_rfl (ε' := 1.81e-8) (by norm_num)
  have hK : ((r.a.m.natAbs + r.b.m.natAbs : ℕ) : ℝ) ≤ 1000000 := by exact_mod_cast hr.2.2.2.2.2.1
  have h0 : (0 : ℝ) ≤ ((r.a.m.natAbs + r.b.m.natAbs : ℕ) : ℝ) := by positivity
  generalize ((r.a.m.natAbs + r.b.m.natAbs : ℕ) : ℝ) = K at *
  have h3 : Ap ((r.a.num + r.b.num * b) * Num.sin (nutArg a r) : Rd A) ((r.a.num + r.b.num * m) * sin (nutArg c r)) K
      (1.82e-8 * K + 3e-29) := by
    refine (h1.mul h2 (by norm_num; linarith)).fit rfl ?_ ?_
    · linarith
    · norm_num; linarith
  unfold psiTerm
  refine (Ap.div' 36000000 h3 (Ap.nat (n := 36000000)) ?_ ?_ ?_).fit rfl ?_ ?_
  · norm_num
  · norm_num
  · norm_num; linarith
  · exact le_rfl
  · norm_num; linarith
theorem epsTerm_ap {r : NutRow} (hr : NutOk r) : Ap (epsTerm b a r) (epsTerm m c r)
    (((r.c.m.natAbs + r.d.m.natAbs : ℕ) : ℝ) / 36000000) (2e-8 * (((r.c.m.natAbs + r.d.m.natAbs : ℕ) : ℝ) / 36000000) + 1e-29) := by
  have h1 := coef_ap hm hr.2.2.2.2.2.2
  have h2 := ((nutArg_ap h hr).cos (by norm_num)).mono le_rfl (ε' := 1.81e-8) (by norm_num)
  have hK : ((r.c.m.natAbs + r.d.m.natAbs : ℕ) : ℝ) ≤ 1000000 := by exact_mod_cast hr.2.2.2.2.2.2
  have h0 : (0 : ℝ) ≤ ((r.c.m.natAbs + r.d.m.natAbs : ℕ) : ℝ) := by positivity
  generalize ((r.c.m.natAbs + r.d.m.natAbs : ℕ) : ℝ) = K at *
  have h3 : Ap ((r.c.num + r.d.num * b) * Num.cos (nutArg a r) : Rd A) ((r.c.num + r.d.num * m) * cos (nutArg c r)) K
      (1.82e-8 * K + 3e-29) := by
    refine (h1.mul h2 (by norm_num; linarith)).fit rfl ?_ ?_
    · linarith
    · norm_num; linarith
  unfold epsTerm
  refine (Ap.div' 36000000 h3 (Ap.nat (n := 36000000)) ?_ ?_ ?_).fit rfl ?_ ?_
  · norm_num
  · norm_num
  · norm_num; linarith
  · exact le_rfl
  · norm_num; linarith

omit hm h in
/-- the rows of a nutation sum -/
theorem sumNut_ap {f : NutRow → Rd A} {g : NutRow → ℝ} {w : NutRow → ℕ} {s : ℕ}
    (hf : ∀ r ∈ paramsNut, Ap (f r) (g r) ((w r : ℝ) / 36000000) (2e-8 * ((w r : ℝ) / 36000000) + 1e-29))
    (hs : (paramsNut.map w).sum = s) (hs' : s ≤ 200000) :
    Ap (sumRows (paramsNut.map f)) (sumRows (paramsNut.map g)) ((s : ℝ) / 36000000) 1.3e-10 := by
  have hcons : paramsNut = paramsNut.head (by decide) :: paramsNut.tail := rfl
  obtain ⟨r0, tl, hrt⟩ : ∃ r0 tl, paramsNut = r0 :: tl := ⟨_, _, hcons⟩
  have hlen : tl.length = 62 := by
    have : paramsNut.length = 63 := by decide
    rw [hrt, List.length_cons] at this; omega
  have hlen' : (tl.length : ℝ) = 62 := by exact_mod_cast hlen
  rw [hrt] at hf hs ⊢
  have h0 := hf r0 (by simp)
  have hsum : (w r0 : ℝ) + (tl.map (fun r => (w r : ℝ))).sum = s := by
    rw [cast_sum, ← hs]; simp
  have hS : (tl.map (fun r => (w r : ℝ) / 36000000)).sum = (tl.map (fun r => (w r : ℝ))).sum / 36000000 := by
    clear hsum hlen hlen' h0 hs hf hrt
    induction tl with
    | nil => simp
    | cons x xs ih => simp [ih, add_div]
  have hs2 : (s : ℝ) ≤ 200000 := by exact_mod_cast hs'
  have hw0 : (0 : ℝ) ≤ (w r0 : ℝ) := by positivity
  have ht0 : 0 ≤ (tl.map (fun r => (w r : ℝ))).sum := by
    apply List.sum_nonneg
    intro x hx
    obtain ⟨r, -, rfl⟩ := List.mem_map.1 hx
    positivity
  show Ap ((tl.map f).foldl (fun a b => a + b) (f r0)) ((tl.map g).foldl (fun a b => a + b) (g r0)) _ _
  refine (foldl_ap (w := fun r => (w r : ℝ) / 36000000) (η := 2e-8) (ξ := 1e-29) (K := 0.01) (by norm_num) (by norm_num) (by norm_num)
    (by norm_num) tl (fun r _ => by positivity) (fun r hr => hf r (by simp [hr])) h0 ?_).fit rfl ?_ ?_
  · rw [hS, hlen']; generalize (tl.map (fun r => (w r : ℝ))).sum = T at *; norm_num; linarith
  · rw [hS]; linarith
  · rw [hS, hlen']; generalize (tl.map (fun r => (w r : ℝ))).sum = T at *; norm_num; linarith

theorem deltaPsi_ap : Ap (deltaPsi b a) (deltaPsi m c) 0.006 1.3e-10 := by
  have := sumNut_ap (f := psiTerm b a) (g := psiTerm m c) (w := fun r => r.a.m.natAbs + r.b.m.natAbs)
    (fun r hr => psiTerm_ap hm h (nutOk r hr)) rfl (by decide)
  refine Ap.bnd (M := 1) ?_ (deltaPsi_bound (hm.1.trans (by norm_num)))
  exact this.mono (by have : (paramsNut.map (fun r => r.a.m.natAbs + r.b.m.natAbs)).sum = 196139 := by decide
                      rw [this]; norm_num) le_rfl
theorem deltaEps_ap : Ap (deltaEps b a) (deltaEps m c) 0.003 1.3e-10 := by
  have := sumNut_ap (f := epsTerm b a) (g := epsTerm m c) (w := fun r => r.c.m.natAbs + r.d.m.natAbs)
    (fun r hr => epsTerm_ap hm h (nutOk r hr)) rfl (by decide)
  refine Ap.bnd (M := 1) ?_ (deltaEps_bound (hm.1.trans (by norm_num)))
  exact this.mono (by have : (paramsNut.map (fun r => r.c.m.natAbs + r.d.m.natAbs)).sum = 100874 := by decide
                      rw [this]; norm_num) le_rfl

/-! ### obliquity -/

omit h in
theorem epsilon0_ap : Ap (epsilon0 b) (epsilon0 m) 84540 1e-9 := by
  have hd : Ap (b / 10.0 : Rd A) (m / 10.0) 0.0323 3e-15 := by
    have h10 : Ap (10.0 : Rd A) 10.0 10 1.1e-14 := (Ap.lit le_rfl (by norm_num)).mono (by norm_num) (by norm_num)
    refine (Ap.div' 10 hm h10 ?_ ?_ ?_).mono ?_ ?_ <;> norm_num
  have hp : ∀ n : ℕ, 2 ≤ n → n ≤ 10 → Ap (Num.npow (b / 10.0) n : Rd A) ((m / 10.0) ^ n) 0.0011 1e-15 := by
    intro n h2 h10
    have h10' : (n : ℝ) ≤ 10 := by exact_mod_cast h10
    have e1 : (0.0323 + 3e-15 : ℝ) ^ n ≤ (0.0323 + 3e-15) ^ 2 := pow_le_pow_of_le_one (by norm_num) (by norm_num) h2
    have e2 : (0.0323 + 3e-15 : ℝ) ^ (n - 1) ≤ (0.0323 + 3e-15) ^ 1 := pow_le_pow_of_le_one (by norm_num) (by norm_num) (by omega)
    have e3 : (0.0323 : ℝ) ^ n ≤ 0.0323 ^ 2 := pow_le_pow_of_le_one (by norm_num) (by norm_num) h2
    refine (Ap.npow n hd (by omega) (e1.trans (by norm_num))).mono (e3.trans (by norm_num)) ?_
    have e4 : 3e-15 * (n : ℝ) * (0.0323 + 3e-15) ^ (n - 1) ≤ 3e-15 * 10 * (0.0323 + 3e-15) ^ 1 := by gcongr
    norm_num at e1 e4 ⊢
    linarith
  have h2 := hp 2 (by norm_num) (by norm_num)
  have h3 := hp 3 (by norm_num) (by norm_num)
  have h4 := hp 4 (by norm_num) (by norm_num)
  have h5 := hp 5 (by norm_num) (by norm_num)
  have h6 := hp 6 (by norm_num) (by norm_num)
  have h7 := hp 7 (by norm_num) (by norm_num)
  have h8 := hp 8 (by norm_num) (by norm_num)
  have h9 := hp 9 (by norm_num) (by norm_num)
  have h10 := hp 10 (by norm_num) (by norm_num)
  unfold epsilon0; apf

theorem eps_ap : Ap (epsilon (epsilon0 b) (deltaEps b a)) (epsAt m c) 0.4102 3e-12 := by
  have h0 := epsilon0_ap hm
  have h1 := deltaEps_ap hm h
  have hD := DEG2RAD_ap (A := A)
  have h2 : Ap (epsilon0 b / 3600.0 : Rd A) (epsilon0 m / 3600.0) 23.5 4e-13 := by
    have h36 : Ap (3600.0 : Rd A) 3600.0 3600 4e-12 := (Ap.lit le_rfl (by norm_num)).mono (by norm_num) (by norm_num)
    refine (Ap.div' 3600 h0 h36 ?_ ?_ ?_).mono ?_ ?_ <;> norm_num
  refine Ap.bnd (M := 1) ?_ ?_
  · unfold epsAt epsilon; apf
  · have := epsAt_bound hm.1 c
    rw [abs_of_nonneg (by norm_num at *; linarith)]; exact this.2
end
end SW.Nrel
