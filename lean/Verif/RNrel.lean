/-
The nrel program in exact arithmetic.
-/
import Verif.RPsa
import Verif.Nrel

namespace SW.Nrel
open Real

/-! ### table entries and sums -/

theorem Dec.num_fin (d : Dec) : (d.num : XR) = XR.fin d.num := by
  unfold Dec.num; split <;> rfl
theorem inum_fin (n : ℤ) : (inum n : XR) = XR.fin (inum n) := by
  unfold inum; split <;> rfl

theorem lit_real (n e : ℕ) : (Num.lit n true e : ℝ) = n / 10 ^ e := by
  show (OfScientific.ofScientific n true e : ℝ) = _
  rw [NNRatCast.ofScientific_eq_ite]
  simp

theorem Dec.num_abs (d : Dec) : |(d.num : ℝ)| ≤ d.m.natAbs := by
  have h : |(Num.lit d.m.natAbs true d.e : ℝ)| ≤ d.m.natAbs := by
    rw [lit_real, abs_of_nonneg (by positivity)]
    apply div_le_self (by positivity)
    exact one_le_pow₀ (by norm_num)
  unfold Dec.num
  split
  · rwa [abs_neg]
  · exact h


theorem sumRows_real (l : List ℝ) : sumRows l = l.sum := by
  cases l with
  | nil => rfl
  | cons x xs =>
    show xs.foldl (fun a b => a + b) x = x + xs.sum
    induction xs generalizing x with
    | nil => simp
    | cons y ys ih => rw [List.foldl_cons, ih, List.sum_cons, add_assoc]

theorem foldl_fin (xs : List ℝ) (x : ℝ) :
    (xs.map XR.fin).foldl (fun a b => a + b) (XR.fin x) = XR.fin (xs.foldl (fun a b => a + b) x) := by
  induction xs generalizing x with
  | nil => rfl
  | cons y ys ih => rw [List.map_cons, List.foldl_cons, List.foldl_cons, XR.add_fin, ih]

theorem sumRows_fin (l : List ℝ) : sumRows (l.map XR.fin) = XR.fin (sumRows l) := by
  cases l with
  | nil => rfl
  | cons x xs => exact foldl_fin xs x

theorem term_fin (m : ℝ) (r : Row) : term (XR.fin m) r = XR.fin (term m r) := by
  unfold term; rw [Dec.num_fin, Dec.num_fin, Dec.num_fin]; rfl

theorem series_fin (n : ℕ) (t : List Row) (m : ℝ) : series n t (XR.fin m) = XR.fin (series n t m) := by
  unfold series
  rw [← sumRows_fin, List.map_map]
  congr 1
  apply List.map_congr_left
  intro r _
  exact term_fin m r

theorem lit_zero : (Num.lit 0 true 0 : ℝ) = 0 := by rw [lit_real]; norm_num

theorem series_real (n : ℕ) (t : List Row) (m : ℝ) : series n t m = (t.map (term m)).sum := by
  unfold series pad
  rw [sumRows_real, List.map_append, List.sum_append, List.map_replicate, List.sum_replicate]
  have : term m ⟨⟨0, 0⟩, ⟨0, 0⟩, ⟨0, 0⟩⟩ = 0 := by
    show (Num.lit 0 true 0 : ℝ) * _ = 0
    rw [lit_zero, zero_mul]
  rw [this, smul_zero, add_zero]

theorem abs_sum_map_le {ι : Type} (f : ι → ℝ) (g : ι → ℕ) (l : List ι) (h : ∀ r ∈ l, |f r| ≤ g r) :
    |(l.map f).sum| ≤ ((l.map g).sum : ℕ) := by
  induction l with
  | nil => simp
  | cons x xs ih =>
    rw [List.map_cons, List.sum_cons, List.map_cons, List.sum_cons, Nat.cast_add]
    refine (abs_add_le _ _).trans (add_le_add (h x (by simp)) ?_)
    exact ih (fun r hr => h r (by simp [hr]))

/-- the sum of the amplitudes of a series -/
def amp (t : List Row) : ℕ := (t.map (fun r => r.a.m.natAbs)).sum

theorem term_abs (m : ℝ) (r : Row) : |term m r| ≤ r.a.m.natAbs := by
  show |(r.a.num : ℝ) * cos _| ≤ _
  exact (abs_mul_cos_le _ _).trans (Dec.num_abs _)

theorem series_abs (n : ℕ) (t : List Row) (m : ℝ) : |series n t m| ≤ amp t := by
  rw [series_real]; exact abs_sum_map_le _ _ _ (fun r _ => term_abs m r)

/-- a series that begins with a constant -/
theorem series_head (n : ℕ) (a : ℤ) (ha : 0 ≤ a) (t : List Row) (m : ℝ) :
    |series n (⟨⟨a, 0⟩, ⟨0, 0⟩, ⟨0, 0⟩⟩ :: t) m - a| ≤ amp t := by
  rw [series_real, List.map_cons, List.sum_cons]
  have e : term m ⟨⟨a, 0⟩, ⟨0, 0⟩, ⟨0, 0⟩⟩ = a := by
    have h1 : ((⟨a, 0⟩ : Dec).num : ℝ) = a := by
      unfold Dec.num
      rw [if_neg (by simpa using ha), lit_real, Nat.cast_natAbs, abs_of_nonneg ha]; simp
    show ((⟨a, 0⟩ : Dec).num : ℝ) * cos ((Num.lit 0 true 0 : ℝ) + (Num.lit 0 true 0 : ℝ) * m) = a
    rw [h1, lit_zero]; simp
  rw [e, add_sub_cancel_left]
  exact abs_sum_map_le _ _ _ (fun r _ => term_abs m r)

theorem R0_bound (m : ℝ) : |series 40 paramsR0 m - 100013989| ≤ 1695887 := by
  have := series_head 40 100013989 (by norm_num) paramsR0.tail m
  have e : amp paramsR0.tail = 1695887 := by decide
  rw [e] at this
  exact_mod_cast this
theorem R1_bound (m : ℝ) : |series 40 paramsR1 m| ≤ 105576 := by
  have := series_abs 40 paramsR1 m
  have e : amp paramsR1 = 105576 := by decide
  rw [e] at this; exact_mod_cast this
theorem R2_bound (m : ℝ) : |series 40 paramsR2 m| ≤ 4513 := by
  have := series_abs 40 paramsR2 m
  have e : amp paramsR2 = 4513 := by decide
  rw [e] at this; exact_mod_cast this
theorem R3_bound (m : ℝ) : |series 40 paramsR3 m| ≤ 152 := by
  have := series_abs 40 paramsR3 m
  have e : amp paramsR3 = 152 := by decide
  rw [e] at this; exact_mod_cast this
theorem R4_bound (m : ℝ) : |series 40 paramsR4 m| ≤ 4 := by
  have := series_abs 40 paramsR4 m
  have e : amp paramsR4 = 4 := by decide
  rw [e] at this; exact_mod_cast this
theorem L0_bound (m : ℝ) : |series 64 paramsL0 m - 175347046| ≤ 3405402 := by
  have := series_head 64 175347046 (by norm_num) paramsL0.tail m
  have e : amp paramsL0.tail = 3405402 := by decide
  rw [e] at this
  exact_mod_cast this
theorem L1_bound (m : ℝ) : |series 64 paramsL1 m - 628331966747| ≤ 211780 := by
  have := series_head 64 628331966747 (by norm_num) paramsL1.tail m
  have e : amp paramsL1.tail = 211780 := by decide
  rw [e] at this
  exact_mod_cast this
theorem L2_bound (m : ℝ) : |series 64 paramsL2 m| ≤ 62068 := by
  have := series_abs 64 paramsL2 m
  have e : amp paramsL2 = 62068 := by decide
  rw [e] at this; exact_mod_cast this
theorem L3_bound (m : ℝ) : |series 64 paramsL3 m| ≤ 347 := by
  have := series_abs 64 paramsL3 m
  have e : amp paramsL3 = 347 := by decide
  rw [e] at this; exact_mod_cast this
theorem L4_bound (m : ℝ) : |series 64 paramsL4 m| ≤ 123 := by
  have := series_abs 64 paramsL4 m
  have e : amp paramsL4 = 123 := by decide
  rw [e] at this; exact_mod_cast this
theorem L5_bound (m : ℝ) : |series 64 paramsL5 m| ≤ 1 := by
  have := series_abs 64 paramsL5 m
  have e : amp paramsL5 = 1 := by decide
  rw [e] at this; exact_mod_cast this
theorem B0_bound (m : ℝ) : |series 5 paramsB0 m| ≤ 538 := by
  have := series_abs 5 paramsB0 m
  have e : amp paramsB0 = 538 := by decide
  rw [e] at this; exact_mod_cast this
theorem B1_bound (m : ℝ) : |series 5 paramsB1 m| ≤ 15 := by
  have := series_abs 5 paramsB1 m
  have e : amp paramsB1 = 15 := by decide
  rw [e] at this; exact_mod_cast this

/-! ### nutation -/

theorem nutArg_fin (c : ℝ) (r : NutRow) : nutArg (XR.fin c) r = XR.fin (nutArg c r) := by
  have h0 : x0 (XR.fin c) = XR.fin (x0 c) := by unfold x0; xrfl
  have h1 : x1 (XR.fin c) = XR.fin (x1 c) := by unfold x1; xrfl
  have h2 : x2 (XR.fin c) = XR.fin (x2 c) := by unfold x2; xrfl
  have h3 : x3 (XR.fin c) = XR.fin (x3 c) := by unfold x3; xrfl
  have h4 : x4 (XR.fin c) = XR.fin (x4 c) := by unfold x4; xrfl
  unfold nutArg
  rw [h0, h1, h2, h3, h4]
  simp only [inum_fin]
  xr
theorem psiTerm_fin (m c : ℝ) (r : NutRow) :
    psiTerm (XR.fin m) (XR.fin c) r = XR.fin (psiTerm m c r) := by
  unfold psiTerm; rw [nutArg_fin, Dec.num_fin, Dec.num_fin]; xrfl
theorem epsTerm_fin (m c : ℝ) (r : NutRow) :
    epsTerm (XR.fin m) (XR.fin c) r = XR.fin (epsTerm m c r) := by
  unfold epsTerm; rw [nutArg_fin, Dec.num_fin, Dec.num_fin]; xrfl
theorem deltaPsi_fin (m c : ℝ) : deltaPsi (XR.fin m) (XR.fin c) = XR.fin (deltaPsi m c) := by
  unfold deltaPsi
  rw [← sumRows_fin, List.map_map]
  congr 1
  exact List.map_congr_left (fun r _ => psiTerm_fin m c r)
theorem deltaEps_fin (m c : ℝ) : deltaEps (XR.fin m) (XR.fin c) = XR.fin (deltaEps m c) := by
  unfold deltaEps
  rw [← sumRows_fin, List.map_map]
  congr 1
  exact List.map_congr_left (fun r _ => epsTerm_fin m c r)

theorem nut_abs {m : ℝ} (hm : |m| ≤ 1) (a b : Dec) :
    |(a.num : ℝ) + b.num * m| ≤ ((a.m.natAbs + b.m.natAbs : ℕ) : ℝ) := by
  push_cast
  refine (abs_add_le _ _).trans (add_le_add (Dec.num_abs _) ?_)
  rw [abs_mul]
  exact (mul_le_of_le_one_right (abs_nonneg _) hm).trans (Dec.num_abs _)

theorem deltaPsi_bound {m c : ℝ} (hm : |m| ≤ 1) : |deltaPsi m c| ≤ 0.006 := by
  unfold deltaPsi
  rw [sumRows_real]
  have e : paramsNut.map (psiTerm m c) = (paramsNut.map fun r =>
      ((r.a.num : ℝ) + r.b.num * m) * sin (nutArg c r)).map (· / 36000000) := by
    rw [List.map_map]; rfl
  have e2 : ∀ l : List ℝ, (l.map (· / 36000000)).sum = l.sum / 36000000 := by
    intro l; induction l with
    | nil => simp
    | cons x xs ih => rw [List.map_cons, List.sum_cons, ih, List.sum_cons, add_div]
  rw [e, e2, abs_div]
  have h := abs_sum_map_le (fun r : NutRow => ((r.a.num : ℝ) + r.b.num * m) * sin (nutArg c r))
    (fun r => r.a.m.natAbs + r.b.m.natAbs) paramsNut
    (fun r _ => (abs_mul_sin_le _ _).trans (nut_abs hm _ _))
  have e3 : (paramsNut.map (fun r => r.a.m.natAbs + r.b.m.natAbs)).sum = 196139 := by decide
  rw [e3] at h
  rw [div_le_iff₀ (by positivity), abs_of_pos (by norm_num : (0:ℝ) < 36000000)]
  refine h.trans ?_
  norm_num

theorem deltaEps_bound {m c : ℝ} (hm : |m| ≤ 1) : |deltaEps m c| ≤ 0.003 := by
  unfold deltaEps
  rw [sumRows_real]
  have e : paramsNut.map (epsTerm m c) = (paramsNut.map fun r =>
      ((r.c.num : ℝ) + r.d.num * m) * cos (nutArg c r)).map (· / 36000000) := by
    rw [List.map_map]; rfl
  have e2 : ∀ l : List ℝ, (l.map (· / 36000000)).sum = l.sum / 36000000 := by
    intro l; induction l with
    | nil => simp
    | cons x xs ih => rw [List.map_cons, List.sum_cons, ih, List.sum_cons, add_div]
  rw [e, e2, abs_div]
  have h := abs_sum_map_le (fun r : NutRow => ((r.c.num : ℝ) + r.d.num * m) * cos (nutArg c r))
    (fun r => r.c.m.natAbs + r.d.m.natAbs) paramsNut
    (fun r _ => (abs_mul_cos_le _ _).trans (nut_abs hm _ _))
  have e3 : (paramsNut.map (fun r => r.c.m.natAbs + r.d.m.natAbs)).sum = 100874 := by decide
  rw [e3] at h
  rw [div_le_iff₀ (by positivity), abs_of_pos (by norm_num : (0:ℝ) < 36000000)]
  refine h.trans ?_
  norm_num


/-! ### bounds of the time-dependent quantities -/

/-- julian millennia at a unix time (seconds) -/
noncomputable def mOf (u : ℝ) : ℝ := jme (jce (jde (jd u)))
/-- julian centuries at a unix time -/
noncomputable def cOf (u : ℝ) : ℝ := jce (jde (jd u))

theorem mOf_bound {t : ℤ} (h : InSec t) : |mOf (t : ℝ)| ≤ 0.323 := by
  have h := abs_le.1 h.real
  show |((t : ℝ) / 86400 + 2440587.5 + 67.0 / 86400 - 2451545) / 36525 / 10| ≤ _
  rw [abs_le]; norm_num; constructor <;> linarith [h.1, h.2]

section
variable {m : ℝ}

theorem pows (h : |m| ≤ 0.323) : |m ^ 2| ≤ 0.105 ∧ |m ^ 3| ≤ 0.034 ∧ |m ^ 4| ≤ 0.011 ∧ |m ^ 5| ≤ 0.0036 := by
  have h0 := abs_nonneg m
  refine ⟨?_, ?_, ?_, ?_⟩ <;> rw [abs_pow] <;>
    refine (pow_le_pow_left₀ h0 h _).trans (by norm_num)

theorem abs_mul_le' {a b A B : ℝ} (h1 : |a| ≤ A) (h2 : |b| ≤ B) : |a * b| ≤ A * B := by
  rw [abs_mul]; exact mul_le_mul h1 h2 (abs_nonneg _) ((abs_nonneg _).trans h1)

theorem R_real : R m = (series 40 paramsR0 m + series 40 paramsR1 m * m + series 40 paramsR2 m * m ^ 2
    + series 40 paramsR3 m * m ^ 3 + series 40 paramsR4 m * m ^ 4) / 100000000 := rfl

theorem R_bound (h : |m| ≤ 0.323) : 0.982 ≤ R m ∧ R m ≤ 1.018 := by
  obtain ⟨p2, p3, p4, -⟩ := pows h
  have a0 := abs_le.1 (R0_bound m)
  have a1 := abs_le.1 (abs_mul_le' (R1_bound m) h)
  have a2 := abs_le.1 (abs_mul_le' (R2_bound m) p2)
  have a3 := abs_le.1 (abs_mul_le' (R3_bound m) p3)
  have a4 := abs_le.1 (abs_mul_le' (R4_bound m) p4)
  rw [R_real, le_div_iff₀ (by norm_num), div_le_iff₀ (by norm_num)]
  norm_num at *
  constructor <;> linarith [a0.1, a0.2, a1.1, a1.2, a2.1, a2.2, a3.1, a3.2, a4.1, a4.2]

theorem R_fin : R (XR.fin m) = XR.fin (R m) := by
  unfold R; simp only [series_fin]; xrfl
theorem Lraw_fin : Lraw (XR.fin m) = XR.fin (Lraw m) := by
  unfold Lraw; simp only [series_fin]; xrfl
theorem B_fin : B (XR.fin m) = XR.fin (B m) := by
  unfold B; simp only [series_fin]; xrfl
theorem beta_fin : beta (XR.fin m) = XR.fin (beta m) := by
  unfold beta; rw [B_fin]; xrfl
theorem theta_fin : theta (XR.fin m) = XR.fin (theta m) := by
  unfold theta L; rw [Lraw_fin]; xrfl

/-- the ecliptic latitude of the sun is tiny -/
theorem beta_bound (h : |m| ≤ 0.323) : |beta m| ≤ 6e-6 := by
  have e : beta m = -((series 5 paramsB0 m + series 5 paramsB1 m * m) / 100000000) := by
    show -(π / 180) * (180 / π * (series 5 paramsB0 m + series 5 paramsB1 m * m) / 100000000) = _
    field_simp
  have a0 := abs_le.1 (B0_bound m)
  have a1 := abs_le.1 (abs_mul_le' (B1_bound m) h)
  rw [e, abs_neg, abs_div, abs_of_pos (by norm_num : (0:ℝ) < 100000000), div_le_iff₀ (by norm_num), abs_le]
  norm_num at *
  constructor <;> linarith [a0.1, a0.2, a1.1, a1.2]

/-- excess of the heliocentric longitude over its linear part, radians -/
noncomputable def Lper (m : ℝ) : ℝ :=
  ((series 64 paramsL0 m - 175347046) + (series 64 paramsL1 m - 628331966747) * m
    + series 64 paramsL2 m * m ^ 2 + series 64 paramsL3 m * m ^ 3 + series 64 paramsL4 m * m ^ 4
    + series 64 paramsL5 m * m ^ 5) / 100000000

theorem Lper_bound (h : |m| ≤ 0.323) : |Lper m| ≤ 0.03481 := by
  obtain ⟨p2, p3, p4, p5⟩ := pows h
  have a0 := abs_le.1 (L0_bound m)
  have a1 := abs_le.1 (abs_mul_le' (L1_bound m) h)
  have a2 := abs_le.1 (abs_mul_le' (L2_bound m) p2)
  have a3 := abs_le.1 (abs_mul_le' (L3_bound m) p3)
  have a4 := abs_le.1 (abs_mul_le' (L4_bound m) p4)
  have a5 := abs_le.1 (abs_mul_le' (L5_bound m) p5)
  unfold Lper
  rw [abs_div, abs_of_pos (by norm_num : (0:ℝ) < 100000000), div_le_iff₀ (by norm_num), abs_le]
  norm_num at *
  constructor <;> linarith [a0.1, a0.2, a1.1, a1.2, a2.1, a2.2, a3.1, a3.2, a4.1, a4.2, a5.1, a5.2]

theorem Lraw_eq : Lraw m = 180 / π * (1.75347046 + 6283.31966747 * m + Lper m) := by
  show 180 / π * (series 64 paramsL0 m + series 64 paramsL1 m * m + series 64 paramsL2 m * m ^ 2
    + series 64 paramsL3 m * m ^ 3 + series 64 paramsL4 m * m ^ 4
    + series 64 paramsL5 m * m ^ 5) / 100000000 = _
  unfold Lper
  norm_num; ring

/-- mean longitude minus heliocentric longitude, degrees -/
theorem meanLon_bound (h : |m| ≤ 0.323) : |meanLon m - 180 - Lraw m| ≤ 2.01 := by
  obtain ⟨p2, p3, p4, p5⟩ := pows h
  have p2 := abs_le.1 p2
  have p3 := abs_le.1 p3
  have p4 := abs_le.1 p4
  have p5 := abs_le.1 p5
  have hL := abs_le.1 (Lper_bound h)
  have hm := abs_le.1 h
  have hq1 : 57.295779 ≤ 180 / π := by
    rw [le_div_iff₀ pi_pos]; have := pi_lt_d20; norm_num at *; linarith
  have hq2 : 180 / π ≤ 57.295780 := by
    rw [div_le_iff₀ pi_pos]; have := pi_gt_d20; norm_num at *; linarith
  set q := 180 / π
  have e : meanLon m - 180 - Lraw m = (100.4664567 - 1.75347046 * q)
    + m * (360007.6982779 - 6283.31966747 * q) + 0.03032028 * m ^ 2 + m ^ 3 / 49931
    - m ^ 4 / 15300 - m ^ 5 / 2000000 - q * Lper m := by
    rw [Lraw_eq]
    show 280.4664567 + 360007.6982779 * m + 0.03032028 * m ^ 2 + m ^ 3 / 49931
      - m ^ 4 / 15300 - m ^ 5 / 2000000 - 180 - _ = _
    norm_num; ring
  have hqL : |q * Lper m| ≤ 57.29578 * 0.03481 := by
    apply abs_mul_le'
    · rw [abs_le]; norm_num at *; constructor <;> linarith
    · exact Lper_bound h
  have hmq : |m * (360007.6982779 - 6283.31966747 * q)| ≤ 0.323 * 0.01 := by
    apply abs_mul_le' h
    rw [abs_le]; norm_num at *; constructor <;> linarith
  have hqL := abs_le.1 hqL
  have hmq := abs_le.1 hmq
  rw [e, abs_le]
  norm_num at *
  constructor <;> linarith [p2.1, p2.2, p3.1, p3.2, p4.1, p4.2, p5.1, p5.2, hqL.1, hqL.2, hmq.1, hmq.2]

/-- obliquity of the ecliptic at an instant -/
noncomputable def epsAt (m c : ℝ) : ℝ := epsilon (epsilon0 m) (deltaEps m c)

theorem deg_bound {w : ℝ} (h1 : 23.39 ≤ w) (h2 : w ≤ 23.49) :
    0.408 ≤ w * (π / 180) ∧ w * (π / 180) ≤ 0.4102 := by
  have hpi1 := pi_gt_d6
  have hpi2 := pi_lt_d6
  constructor
  · calc (0.408 : ℝ) ≤ 23.39 * (3.141592 / 180) := by norm_num
      _ ≤ w * (π / 180) := by gcongr
  · calc w * (π / 180) ≤ 23.49 * (3.141593 / 180) := by gcongr
      _ ≤ 0.4102 := by norm_num

theorem obl_bound {u d : ℝ} (hu1 : |u| ≤ 0.0323) (hd : |d| ≤ 0.003) :
    23.39 ≤ (84381.448 - 4680.93 * u - 1.55 * u ^ 2 + 1999.25 * u ^ 3
    - 51.38 * u ^ 4 - 249.67 * u ^ 5 - 39.05 * u ^ 6 + 7.12 * u ^ 7
    + 27.87 * u ^ 8 + 5.79 * u ^ 9 + 2.45 * u ^ 10) / 3600.0 + d ∧
    (84381.448 - 4680.93 * u - 1.55 * u ^ 2 + 1999.25 * u ^ 3
    - 51.38 * u ^ 4 - 249.67 * u ^ 5 - 39.05 * u ^ 6 + 7.12 * u ^ 7
    + 27.87 * u ^ 8 + 5.79 * u ^ 9 + 2.45 * u ^ 10) / 3600.0 + d ≤ 23.49 := by
  have hp : ∀ n : ℕ, 2 ≤ n → |u ^ n| ≤ 0.0011 := by
    intro n hn
    rw [abs_pow]
    calc |u| ^ n ≤ |u| ^ 2 := pow_le_pow_of_le_one (abs_nonneg _) (hu1.trans (by norm_num)) hn
      _ ≤ 0.0323 ^ 2 := pow_le_pow_left₀ (abs_nonneg _) hu1 2
      _ ≤ 0.0011 := by norm_num
  have hp3 : |u ^ 3| ≤ 0.000034 := by
    rw [abs_pow]
    exact (pow_le_pow_left₀ (abs_nonneg _) hu1 3).trans (by norm_num)
  obtain ⟨d1, d2⟩ := abs_le.1 hd
  obtain ⟨a1, b1⟩ := abs_le.1 hu1
  obtain ⟨a2, b2⟩ := abs_le.1 (hp 2 (by norm_num))
  obtain ⟨a3, b3⟩ := abs_le.1 hp3
  obtain ⟨a4, b4⟩ := abs_le.1 (hp 4 (by norm_num))
  obtain ⟨a5, b5⟩ := abs_le.1 (hp 5 (by norm_num))
  obtain ⟨a6, b6⟩ := abs_le.1 (hp 6 (by norm_num))
  obtain ⟨a7, b7⟩ := abs_le.1 (hp 7 (by norm_num))
  obtain ⟨a8, b8⟩ := abs_le.1 (hp 8 (by norm_num))
  obtain ⟨a9, b9⟩ := abs_le.1 (hp 9 (by norm_num))
  obtain ⟨a10, b10⟩ := abs_le.1 (hp 10 (by norm_num))
  clear hp hp3 hu1 hd
  generalize u ^ 2 = v2 at *
  generalize u ^ 3 = v3 at *
  generalize u ^ 4 = v4 at *
  generalize u ^ 5 = v5 at *
  generalize u ^ 6 = v6 at *
  generalize u ^ 7 = v7 at *
  generalize u ^ 8 = v8 at *
  generalize u ^ 9 = v9 at *
  generalize u ^ 10 = v10 at *
  norm_num at *
  constructor <;> linarith

theorem epsAt_bound (h : |m| ≤ 0.323) (c : ℝ) : 0.408 ≤ epsAt m c ∧ epsAt m c ≤ 0.4102 := by
  have hd := deltaEps_bound (m := m) (c := c) (h.trans (by norm_num))
  have e : epsAt m c = ((84381.448 - 4680.93 * (m / 10.0) - 1.55 * (m / 10.0) ^ 2
    + 1999.25 * (m / 10.0) ^ 3
    - 51.38 * (m / 10.0) ^ 4 - 249.67 * (m / 10.0) ^ 5
    - 39.05 * (m / 10.0) ^ 6 + 7.12 * (m / 10.0) ^ 7
    + 27.87 * (m / 10.0) ^ 8 + 5.79 * (m / 10.0) ^ 9 + 2.45 * (m / 10.0) ^ 10) / 3600.0
    + deltaEps m c) * (π / 180) := rfl
  have hu1 : |m / 10.0| ≤ 0.0323 := by
    rw [abs_div, abs_of_pos (by norm_num : (0:ℝ) < 10.0), div_le_iff₀ (by norm_num)]
    refine h.trans (by norm_num)
  have := obl_bound hu1 hd
  rw [e]
  exact deg_bound this.1 this.2

end


/-! ### apparent longitude, right ascension, declination -/

theorem ra_near_tau {c l τ : ℝ} (h1 : 0.91 ≤ c) (h2 : c ≤ 1) (ht : |τ| ≤ 1e-5) :
    ∃ η : ℝ, ∃ k : ℤ, |η| ≤ 0.0496 ∧ ratan2 (sin l * c - τ) (cos l) = l + η + k * (2 * π) := by
  have hs := sin_sq_add_cos_sq l
  have ht' := abs_le.1 ht
  have hts := abs_le.1 ((abs_mul_sin_le τ l).trans ht)
  have htc := abs_le.1 ((abs_mul_cos_le τ l).trans ht)
  have hp : 0.9099 ≤ cos l * cos l + (sin l * c - τ) * sin l := by
    have : 0.91 ≤ cos l * cos l + c * (sin l * sin l) := by nlinarith [sq_nonneg (sin l), sq_nonneg (cos l)]
    norm_num at *; nlinarith [hts.1, hts.2]
  have hp0 : 0 < cos l * cos l + (sin l * c - τ) * sin l := by norm_num at *; linarith
  obtain ⟨k, hk⟩ := ratan2_near (sin l * c - τ) (cos l) l hp0
  refine ⟨_, k, ?_, hk⟩
  refine (abs_arctan_le _).trans ?_
  rw [abs_div, abs_of_pos hp0, div_le_iff₀ hp0]
  have hq : |(sin l * c - τ) * cos l - cos l * sin l| ≤ 0.04501 := by
    rw [show (sin l * c - τ) * cos l - cos l * sin l = -((1 - c) * (sin l * cos l) + τ * cos l) by ring,
      abs_neg]
    have h3 : |sin l * cos l| ≤ 1 / 2 := by
      rw [abs_le]; constructor <;> nlinarith [sq_nonneg (sin l - cos l), sq_nonneg (sin l + cos l)]
    have h4 : |(1 - c) * (sin l * cos l)| ≤ 0.09 * (1 / 2) := by
      apply abs_mul_le' _ h3
      rw [abs_le]; norm_num at *; constructor <;> linarith
    have h5 := abs_le.1 h4
    rw [abs_le]; norm_num at *
    constructor <;> linarith [h5.1, h5.2, htc.1, htc.2]
  norm_num at *
  linarith

theorem tan_beta_bound {b e : ℝ} (h : |b| ≤ 6e-6) : |rtan b * sin e| ≤ 1e-5 := by
  have hc : 0.9 ≤ cos b := by
    have := one_sub_sq_div_two_le_cos (x := b)
    have h2 : b ^ 2 ≤ 6e-6 ^ 2 := by
      rw [← sq_abs]; exact pow_le_pow_left₀ (abs_nonneg _) h 2
    norm_num at *; linarith
  have hc0 : 0 < cos b := by norm_num at *; linarith
  refine (abs_mul_sin_le _ _).trans ?_
  rw [rtan_of_cos_ne hc0.ne', abs_div, abs_of_pos hc0, div_le_iff₀ hc0]
  have := abs_sin_le_abs (x := b)
  norm_num at *; linarith

/-- apparent longitude of the sun -/
noncomputable def lamAt (m c : ℝ) : ℝ := lamd (theta m) (deltaPsi m c) (deltaTau (R m))

theorem lamAt_turn (m c : ℝ) : ∃ k : ℤ, lamAt m c
    = (Lraw m + 180 + deltaPsi m c + deltaTau (R m)) * (π / 180) + k * (2 * π) := by
  obtain ⟨a, ha⟩ := rcmod_eq (Lraw m) 360
  obtain ⟨b, hb⟩ := rcmod_eq (L m + 180) 360
  have e1 : L m = rcmod (Lraw m) 360 := rfl
  have e2 : theta m = rcmod (L m + 180) 360 := by
    show rcmod (L m + 180.0) 360 = _; norm_num
  refine ⟨-(a + b), ?_⟩
  show (theta m + deltaPsi m c + deltaTau (R m)) * (π / 180) = _
  rw [e2, hb, e1, ha]; push_cast; ring

theorem deltaTau_bound {x : ℝ} (h1 : 0.982 ≤ x) (h2 : x ≤ 1.018) :
    |deltaTau x + 0.0057183| ≤ 0.0002 := by
  have hp : 0 < 3600.0 * x := by norm_num at *; linarith
  have e : deltaTau x + 0.0057183 = (0.0057183 * (3600.0 * x) - 20.4898) / (3600.0 * x) := by
    show -20.4898 / (3600.0 * x) + 0.0057183 = _
    rw [eq_div_iff hp.ne', add_mul, div_mul_cancel₀ _ hp.ne', neg_add_eq_sub]
  rw [e, abs_div, abs_of_pos hp, div_le_iff₀ hp, abs_le]
  norm_num at h1 h2 ⊢; constructor <;> linarith

theorem deltaTau_fin {x : ℝ} (h : 0.982 ≤ x) : deltaTau (XR.fin x) = XR.fin (deltaTau x) := by
  have hp : 3600.0 * x ≠ 0 := by
    have : 0 < 3600.0 * x := by norm_num at *; linarith
    exact this.ne'
  unfold deltaTau; xr
  rw [XR.div_fin hp]

theorem alpha_real (l e b : ℝ) : alpha l e b
    = rcmod (ratan2 (sin l * cos e - rtan b * sin e) (cos l) * (180 / π)) 360 := rfl

theorem alpha_fin (l e b : ℝ) : alpha (XR.fin l) (XR.fin e) (XR.fin b) = XR.fin (alpha l e b) := by
  unfold alpha; xrfl

theorem delta_real (b e l : ℝ) : delta b e l = arcsin (sin b * cos e + cos b * sin e * sin l) := rfl

theorem delta_arg (b e l : ℝ) : |sin b * cos e + cos b * sin e * sin l| ≤ 1 := by
  have := sphere_le_one b (π / 2 - e) (π / 2 - l)
  rwa [sin_pi_div_two_sub, cos_pi_div_two_sub, cos_pi_div_two_sub] at this

theorem delta_fin (b e l : ℝ) : delta (XR.fin b) (XR.fin e) (XR.fin l) = XR.fin (delta b e l) := by
  unfold delta; xr
  rw [XR.arcsin_fin (abs_le.1 (delta_arg b e l))]; rfl

theorem sin_top : sin 0.4102 + 6e-6 ≤ sin 0.4153 := by
  have h1 := abs_le.1 (sin_bound (x := 0.4102) (by rw [abs_le]; norm_num))
  have h2 := abs_le.1 (sin_bound (x := 0.4153) (by rw [abs_le]; norm_num))
  have e1 : |(0.4102 : ℝ)| = 0.4102 := abs_of_pos (by norm_num)
  have e2 : |(0.4153 : ℝ)| = 0.4153 := abs_of_pos (by norm_num)
  rw [e1] at h1
  rw [e2] at h2
  have h1 := h1.2
  have h2 := h2.1
  norm_num at h1 h2 ⊢
  linarith

theorem delta_bound {b e l : ℝ} (hb : |b| ≤ 6e-6) (he : 0.408 ≤ e ∧ e ≤ 0.4102) :
    |delta b e l| ≤ 0.4153 := by
  have hp := pi_gt_d2
  have hs : sin e ≤ sin 0.4102 := by
    apply sin_le_sin_of_le_of_le_pi_div_two <;> norm_num at * <;> linarith [he.1, he.2]
  have hs0 : 0 ≤ sin e := by
    apply sin_nonneg_of_nonneg_of_le_pi <;> norm_num at * <;> linarith [he.1, he.2]
  have h1 : |sin b * cos e + cos b * sin e * sin l| ≤ sin 0.4153 := by
    refine (abs_add_le _ _).trans ?_
    have a : |sin b * cos e| ≤ 6e-6 :=
      (abs_mul_cos_le _ _).trans ((abs_sin_le_abs (x := b)).trans hb)
    have c : |cos b * sin e * sin l| ≤ sin e := by
      rw [mul_right_comm, abs_mul, abs_of_nonneg hs0]
      apply mul_le_of_le_one_left hs0
      rw [abs_mul]
      exact mul_le_one₀ (abs_cos_le_one _) (abs_nonneg _) (abs_sin_le_one _)
    have := sin_top
    linarith
  have e1 : arcsin (sin 0.4153) = 0.4153 := by
    apply arcsin_sin <;> norm_num at * <;> linarith
  rw [delta_real, abs_le]
  have h1 := abs_le.1 h1
  constructor
  · rw [← e1, ← arcsin_neg]; exact monotone_arcsin h1.1
  · conv_rhs => rw [← e1]
    exact monotone_arcsin h1.2

/-! ### the equation of time -/

theorem eot_spec' {m : ℝ} (h : |m| ≤ 0.323) (c : ℝ) : ∃ s : ℝ, ∃ k : ℤ, |s * 4| ≤ 19.5 ∧
    meanLon m - 0.0057183 - alpha (lamAt m c) (epsAt m c) (beta m)
      + deltaPsi m c * cos (epsAt m c) = s + 360 * k ∧
    eot2 (eot1 (eot0 (meanLon m) (alpha (lamAt m c) (epsAt m c) (beta m)) (deltaPsi m c)
      (epsAt m c))) = s * 4 := by
  have hR := R_bound h
  have he := epsAt_bound h c
  have hc := Psa.cos_ep_bound (e := epsAt m c) ⟨by norm_num at *; linarith, by norm_num at *; linarith⟩
  obtain ⟨η, k1, hη, h1⟩ := ra_near_tau (l := lamAt m c) hc.1 hc.2
    (tan_beta_bound (e := epsAt m c) (beta_bound h))
  obtain ⟨k2, h2⟩ := lamAt_turn m c
  set w := ratan2 (sin (lamAt m c) * cos (epsAt m c) - rtan (beta m) * sin (epsAt m c)) (cos (lamAt m c))
  obtain ⟨k3, h3⟩ := rcmod_eq (w * (180 / π)) 360
  have hα : alpha (lamAt m c) (epsAt m c) (beta m) = rcmod (w * (180 / π)) 360 := rfl
  set z := meanLon m - 0.0057183 - alpha (lamAt m c) (epsAt m c) (beta m)
    + deltaPsi m c * cos (epsAt m c) with hz
  obtain ⟨k4, h4⟩ := rcmod_eq z 360
  have h5 := rcmod_mem (x := z) (y := 360) (by norm_num)
  set s := (meanLon m - 180 - Lraw m) - (deltaTau (R m) + 0.0057183)
    - deltaPsi m c * (1 - cos (epsAt m c)) - η * (180 / π) with hs
  have hzs : z = s + 360 * ((k3 - k1 - k2 : ℤ) : ℝ) := by
    rw [hz, hα, h3, h1, h2, hs]; push_cast; field_simp; ring
  have hsb : |s| ≤ 4.87 := by
    have a1 := abs_le.1 (meanLon_bound h)
    have a2 := abs_le.1 (deltaTau_bound hR.1 hR.2)
    have a3 : |deltaPsi m c * (1 - cos (epsAt m c))| ≤ 0.006 * 0.1 := by
      apply abs_mul_le' (deltaPsi_bound (h.trans (by norm_num)))
      rw [abs_le]; norm_num at *; constructor <;> linarith [hc.1, hc.2]
    have a4 : |η * (180 / π)| ≤ 0.0496 * 57.4 := by
      apply abs_mul_le' hη
      rw [abs_of_pos (by positivity), div_le_iff₀ pi_pos]
      have := pi_gt_d4; norm_num at *; linarith
    have a3 := abs_le.1 a3
    have a4 := abs_le.1 a4
    rw [hs, abs_le]
    norm_num at *
    constructor <;> linarith [a1.1, a1.2, a2.1, a2.2, a3.1, a3.2, a4.1, a4.2]
  have hx : rcmod z 360 * 4 = s * 4 + 1440 * ((k3 - k1 - k2 - k4 : ℤ) : ℝ) := by
    rw [h4, hzs]; push_cast; ring
  have hr : |rcmod z 360 * 4| ≤ 1460 := by
    rw [abs_le]; constructor <;> linarith [h5.1, h5.2]
  have hs4 : |s * 4| ≤ 19.5 := by
    rw [abs_mul, abs_of_pos (by norm_num : (0:ℝ) < 4)]; norm_num at *; linarith
  have := eot_wrap_lt_gt (hs4.trans (by norm_num)) hx hr
  have e : eot2 (eot1 (eot0 (meanLon m) (alpha (lamAt m c) (epsAt m c) (beta m)) (deltaPsi m c)
      (epsAt m c))) = s * 4 := this
  exact ⟨s, _, hs4, hzs, e⟩

theorem eot_spec {m : ℝ} (h : |m| ≤ 0.323) (c : ℝ) :
    |eot2 (eot1 (eot0 (meanLon m) (alpha (lamAt m c) (epsAt m c) (beta m)) (deltaPsi m c)
      (epsAt m c)))| ≤ 19.5 := by
  obtain ⟨s, -, h1, -, e⟩ := eot_spec' h c
  rw [e]; exact h1

/-! ### the time-dependent part -/

theorem time_fin {t : ℤ} (h : InSec t) : time (XR.fin (t : ℝ)) =
    ⟨XR.fin (time (t : ℝ)).alpha, XR.fin (time (t : ℝ)).delta, XR.fin (time (t : ℝ)).eot,
      XR.fin (time (t : ℝ)).v, XR.fin (time (t : ℝ)).R⟩ := by
  have hm := mOf_bound h
  have hR : 0.982 ≤ R (jme (jce (jde (jd (t : ℝ))))) := (R_bound hm).1
  have e1 : ∀ u : ℝ, jd (XR.fin u) = XR.fin (jd u) := by intro u; unfold jd; xrfl
  have e2 : ∀ u : ℝ, jde (XR.fin u) = XR.fin (jde u) := by intro u; unfold jde; xrfl
  have e3 : ∀ u : ℝ, jc (XR.fin u) = XR.fin (jc u) := by intro u; unfold jc; xrfl
  have e4 : ∀ u : ℝ, jce (XR.fin u) = XR.fin (jce u) := by intro u; unfold jce; xrfl
  have e5 : ∀ u : ℝ, jme (XR.fin u) = XR.fin (jme u) := by intro u; unfold jme; xrfl
  have e6 : ∀ u : ℝ, epsilon0 (XR.fin u) = XR.fin (epsilon0 u) := by intro u; unfold epsilon0; xrfl
  have e7 : ∀ u v : ℝ, epsilon (XR.fin u) (XR.fin v) = XR.fin (epsilon u v) := by
    intro u v; unfold epsilon; xrfl
  have e8 : ∀ u v w : ℝ, lamd (XR.fin u) (XR.fin v) (XR.fin w) = XR.fin (lamd u v w) := by
    intro u v w; unfold lamd; xrfl
  have e9 : ∀ u v : ℝ, v0 (XR.fin u) (XR.fin v) = XR.fin (v0 u v) := by
    intro u v; unfold v0; xrfl
  have e10 : ∀ a b c : ℝ, v (XR.fin a) (XR.fin b) (XR.fin c) = XR.fin (v a b c) := by
    intro a b c; unfold v; xrfl
  have e11 : ∀ u : ℝ, meanLon (XR.fin u) = XR.fin (meanLon u) := by intro u; unfold meanLon; xrfl
  have e12 : ∀ a b c d : ℝ, eot0 (XR.fin a) (XR.fin b) (XR.fin c) (XR.fin d) = XR.fin (eot0 a b c d) := by
    intro a b c d; unfold eot0; xrfl
  have e13 : ∀ u : ℝ, eot1 (XR.fin u) = XR.fin (eot1 u) := by intro u; unfold eot1; xrfl
  have e14 : ∀ u : ℝ, eot2 (XR.fin u) = XR.fin (eot2 u) := by intro u; unfold eot2; xrfl
  simp only [time, e1, e2, e3, e4, e5, e6, e7, e8, e9, e10, e11, e12, e13, e14, R_fin, theta_fin, beta_fin,
    deltaPsi_fin, deltaEps_fin, alpha_fin, delta_fin, deltaTau_fin hR]

theorem time_R {t : ℤ} (h : InSec t) : 0.982 ≤ (time (t : ℝ)).R ∧ (time (t : ℝ)).R ≤ 1.018 :=
  R_bound (mOf_bound h)

theorem time_delta {t : ℤ} (h : InSec t) : |(time (t : ℝ)).delta| ≤ 0.4153 :=
  delta_bound (beta_bound (mOf_bound h)) (epsAt_bound (mOf_bound h) (cOf t))

theorem time_eot {t : ℤ} (h : InSec t) : |(time (t : ℝ)).eot| ≤ 19.5 :=
  eot_spec (mOf_bound h) (cOf t)


/-! ### the spatial part -/

theorem hourAngle_fin (a b c : ℝ) : hourAngle (XR.fin a) (XR.fin b) (XR.fin c) = XR.fin (hourAngle a b c) := by
  unfold hourAngle; xrfl

theorem xi_fin {x : ℝ} (h : 0.982 ≤ x) : xi (XR.fin x) = XR.fin (xi x) := by
  have hp : 3600 * x ≠ 0 := by
    have : 0 < 3600 * x := by norm_num at *; linarith
    exact this.ne'
  unfold xi; xr
  rw [XR.div_fin hp]
  rfl

/-- the equatorial horizontal parallax is below 4.4e-5 rad -/
theorem xi_bound {x : ℝ} (h : 0.982 ≤ x) : 0 < xi x ∧ xi x ≤ 4.4e-5 := by
  have hx : 0 < x := by norm_num at *; linarith
  have hp : 0 < 3600 * x := by positivity
  have e : xi x = 8.794 / (3600 * x) * (π / 180) := rfl
  have h1 : 8.794 / (3600 * x) ≤ 0.0025 := by
    rw [div_le_iff₀ hp]; norm_num at *; linarith
  have h0 : 0 < 8.794 / (3600 * x) := by positivity
  rw [e]
  refine ⟨by positivity, ?_⟩
  have hpi := pi_lt_d2
  calc 8.794 / (3600 * x) * (π / 180) ≤ 0.0025 * (3.15 / 180) := by
        gcongr
    _ ≤ 4.4e-5 := by norm_num

theorem ecf_fin {x : ℝ} (h : 0.982 ≤ x) : ecf (XR.fin x) = XR.fin (ecf x) := by
  have hx : x ≠ 0 := by intro h0; rw [h0] at h; norm_num at h
  unfold ecf; xr
  rw [XR.div_fin (pow_ne_zero 2 hx)]
  rfl

theorem uu_fin (y : ℝ) : uu (XR.fin y) = XR.fin (uu y) := by unfold uu; xrfl
theorem px_fin (a b : ℝ) : px (XR.fin a) (XR.fin b) = XR.fin (px a b) := by unfold px; xrfl
theorem py_fin (a b : ℝ) : py (XR.fin a) (XR.fin b) = XR.fin (py a b) := by unfold py; xrfl
theorem px_real (a b : ℝ) : px a b = cos a := by
  show cos a + 0.0 / 6378140.0 * cos b = _; norm_num
theorem py_real (a b : ℝ) : py a b = 0.99664719 * sin a := by
  show 0.99664719 * sin a + 0.0 / 6378140.0 * sin b = _; norm_num
theorem deltaa_fin (a b c d : ℝ) : deltaa (XR.fin a) (XR.fin b) (XR.fin c) (XR.fin d)
    = XR.fin (deltaa a b c d) := rfl
theorem deltap_fin (x a b c d : ℝ) : deltap (XR.fin x) (XR.fin a) (XR.fin b) (XR.fin c) (XR.fin d)
    = XR.fin (deltap x a b c d) := rfl
theorem Hp_fin (a b c d : ℝ) : Hp (XR.fin a) (XR.fin b) (XR.fin c) (XR.fin d)
    = XR.fin (Hp a b c d) := rfl
theorem azimuth_fin (a b c : ℝ) : azimuth (XR.fin a) (XR.fin b) (XR.fin c) = XR.fin (azimuth a b c) := rfl

theorem elev_real (p d h : ℝ) : elev p d h = arcsin (sin p * sin d + cos p * cos d * cos h) := rfl
theorem elev_fin (p d h : ℝ) : elev (XR.fin p) (XR.fin d) (XR.fin h) = XR.fin (elev p d h) := by
  unfold elev; xr
  rw [XR.arcsin_fin (abs_le.1 (sphere_le_one p d h))]; rfl

/-- the refraction coefficient -/
noncomputable def kap : ℝ := ATM_REFR * 1.7802e-2

theorem kap_bound : 0.0177 ≤ kap ∧ kap ≤ 0.0178 := by
  have e : (kap : ℝ) = ((1013.25 / 1010.0) * (283.0 / (273 + 12.0))) * 1.7802e-2 := rfl
  rw [e]; norm_num

theorem ATM_fin : (ATM_REFR : XR) = XR.fin ATM_REFR := by unfold ATM_REFR; xrfl

theorem refrCorr_real (e : ℝ) : refrCorr e = Refr.corr kap e := rfl

theorem refrCorr_fin {e : ℝ} (h : Refr.Dom e) : refrCorr (XR.fin e) = XR.fin (refrCorr e) := by
  have h1 := h.den
  have h2 : e + 8.9186e-2 ≠ 0 := by intro h0; rw [h0] at h1; norm_num at h1
  have h3 := Refr.rtan_ne h
  unfold Refr.arg at h3
  unfold refrCorr
  rw [ATM_fin]
  xr
  rw [XR.div_fin h2]
  xr
  rw [XR.div_fin (mul_ne_zero (by norm_num) h3)]
  rfl

theorem refract_real (e : ℝ) : refract e = if -1.4545e-2 ≤ e then e + Refr.corr kap e else e := rfl

theorem refract_fin {e : ℝ} (h1 : e ≤ π / 2) : refract (XR.fin e) = XR.fin (refract e) := by
  unfold refract
  xr
  by_cases h : (-1.4545e-2 : ℝ) ≤ e
  · rw [XR.whereLe_true h, refrCorr_fin ⟨h, h1⟩]
    rw [whereLe_real, if_pos h]; rfl
  · rw [XR.whereLe_false h, whereLe_real, if_neg h]

theorem refract_mem {e : ℝ} (h0 : -(π / 2) ≤ e) (h1 : e ≤ π / 2) :
    -(π / 2) ≤ refract e ∧ refract e ≤ π / 2 := by
  rw [refract_real]
  split_ifs with h
  · have hd : Refr.Dom e := ⟨h, h1⟩
    have hk := kap_bound
    have a := Refr.refr_le (κ := kap) (by norm_num at *; linarith) (by norm_num at *; linarith) hd
    have b := (Refr.corr_bounds (κ := kap) (by norm_num at *; linarith) (by norm_num at *; linarith) hd).1
    have := pi_gt_d2
    constructor
    · norm_num at *; linarith
    · linarith
  · exact ⟨h0, h1⟩

theorem withRefr_fin {e : ℝ} (h1 : e ≤ π / 2) (r : Bool) :
    withRefr r (XR.fin e) = XR.fin (withRefr r e) := by
  cases r
  · rfl
  · exact refract_fin h1

theorem withRefr_mem {e : ℝ} (h0 : -(π / 2) ≤ e) (h1 : e ≤ π / 2) (r : Bool) :
    -(π / 2) ≤ withRefr r e ∧ withRefr r e ≤ π / 2 := by
  cases r
  · exact ⟨h0, h1⟩
  · exact refract_mem h0 h1

theorem zenith_fin (r : Bool) (p d h : ℝ) :
    zenith r (XR.fin p) (XR.fin d) (XR.fin h) = XR.fin (zenith r p d h) := by
  unfold zenith
  rw [elev_fin, withRefr_fin (e := elev p d h) (arcsin_le_pi_div_two _)]
  xr

theorem zenith_mem (r : Bool) (p d h : ℝ) : 0 ≤ zenith r p d h ∧ zenith r p d h ≤ π := by
  have e : zenith r p d h = π / 2 - withRefr r (elev p d h) := by
    show HALFPI - withRefr r (elev p d h) = _
    rw [HALFPI_real]
  have := withRefr_mem (neg_pi_div_two_le_arcsin _) (arcsin_le_pi_div_two _) r
    (e := elev p d h)
  rw [e]; constructor <;> linarith [this.1, this.2]

/-- no NaN -/
theorem cell_fin {t : ℤ} (ht : InSec t) (x y : ℝ) (r : Bool) :
    cell t (XR.fin x) (XR.fin y) r = (cell t x y r).fin := by
  have hR := (time_R ht).1
  unfold cell
  simp only [XR.ofInt_fin, time_fin ht, zen, azi, XR.DEG2RAD_fin, XR.mul_fin, hourAngle_fin, xi_fin hR,
    uu_fin, px_fin, py_fin, deltap_fin, Hp_fin, zenith_fin, azimuth_fin, ecf_fin hR]
  rfl

/-! ### topocentric direction -/

/-- hour angle at longitude 0 -/
noncomputable def H0 (t : ℤ) : ℝ := ((time (t : ℝ)).v - (time (t : ℝ)).alpha) * (π / 180)

theorem hourAngle_turn (t : ℤ) (x : ℝ) : ∃ k : ℤ,
    hourAngle (time (t : ℝ)).v x (time (t : ℝ)).alpha = H0 t + x * (π / 180) + k * (2 * π) := by
  obtain ⟨k, hk⟩ := rcmod_eq ((time (t : ℝ)).v + x - (time (t : ℝ)).alpha) 360
  refine ⟨-k, ?_⟩
  show rcmod ((time (t : ℝ)).v + x - (time (t : ℝ)).alpha) 360 * (π / 180) = _
  rw [hk]; unfold H0; push_cast; ring

/-- The topocentric declination and hour angle are those of the geocentric unit vector minus the
position of the observer (in units of the distance): `ρ` is the topocentric distance. -/
theorem topo {x y ξ H d : ℝ} (hA : 0 < cos d - x * sin ξ * cos H) :
    ∃ ρ : ℝ, 0 < ρ ∧ 0 < cos (deltap x y ξ H d) ∧
      ρ * (cos (deltap x y ξ H d) * cos (Hp x ξ H d)) = cos d * cos H - x * sin ξ ∧
      ρ * (cos (deltap x y ξ H d) * sin (Hp x ξ H d)) = cos d * sin H ∧
      ρ * sin (deltap x y ξ H d) = sin d - y * sin ξ := by
  set A := cos d - x * sin ξ * cos H with hAd
  set B := -x * sin ξ * sin H with hBd
  have ea : deltaa x ξ H d = ratan2 B A := rfl
  have ep : deltap x y ξ H d = ratan2 ((sin d - y * sin ξ) * cos (ratan2 B A)) A := rfl
  have eh : Hp x ξ H d = H - ratan2 B A := rfl
  have c1 := ratan2_cos B A
  have s1 := ratan2_sin B A
  set r := √(A ^ 2 + B ^ 2) with hr
  have hr0 : 0 < r := by rw [hr]; positivity
  set G := (sin d - y * sin ξ) * cos (ratan2 B A) with hG
  have c2 := ratan2_cos G A
  have s2 := ratan2_sin G A
  set N := √(A ^ 2 + G ^ 2) with hN
  have hN0 : 0 < N := by rw [hN]; positivity
  have ca : cos (ratan2 B A) = A / r := by rw [eq_div_iff hr0.ne', mul_comm]; exact c1
  have sa : sin (ratan2 B A) = B / r := by rw [eq_div_iff hr0.ne', mul_comm]; exact s1
  have cp : cos (ratan2 G A) = A / N := by rw [eq_div_iff hN0.ne', mul_comm]; exact c2
  have sp : sin (ratan2 G A) = G / N := by rw [eq_div_iff hN0.ne', mul_comm]; exact s2
  refine ⟨r * N / A, by positivity, ?_, ?_, ?_, ?_⟩
  · rw [ep, cp]; positivity
  · rw [ep, eh, cp, cos_sub, ca, sa]
    have : r * N / A * (A / N * (cos H * (A / r) + sin H * (B / r))) = cos H * A + sin H * B := by
      field_simp
    rw [this, hAd, hBd]
    linear_combination (-x * sin ξ) * sin_sq_add_cos_sq H
  · rw [ep, eh, cp, sin_sub, ca, sa]
    have : r * N / A * (A / N * (sin H * (A / r) - cos H * (B / r))) = sin H * A - cos H * B := by
      field_simp
    rw [this, hAd, hBd]
    ring
  · rw [ep, sp, hG, ca]
    field_simp


theorem azimuth_real (p d h : ℝ) : azimuth p d h
    = ratan2 (sin h) (cos h * sin p - rtan d * cos p) := rfl

theorem dir {p d h : ℝ} (hd : 0 < cos d) :
    Dir p d h (arccos (sin p * sin d + cos p * cos d * cos h)) (azimuth p d h) := by
  have ht : rtan d = tan d := by rw [rtan_of_cos_ne hd.ne', tan_eq_sin_div_cos]
  refine dir_of_atan2 (u := sin p * cos h - tan d * cos p) (v := sin h) hd rfl rfl ?_ ?_
  · rw [azimuth_real, ht, mul_comm (cos h), ratan2_cos]
  · rw [azimuth_real, ht, mul_comm (cos h), ratan2_sin]

theorem cos_lower {d : ℝ} (h : |d| ≤ 0.4153) : 0.91 ≤ cos d := by
  have := one_sub_sq_div_two_le_cos (x := d)
  have h2 : d ^ 2 ≤ 0.4153 ^ 2 := by
    rw [← sq_abs]; exact pow_le_pow_left₀ (abs_nonneg _) h 2
  norm_num at *; linarith

/-- What `cell` returns: the direction of the geocentric sun as seen from the observer. Geocentric
sun: hour angle `H0 t + x`, declination as returned. Observer: at `s * (cos u, 0.99664719 * sin u)` in
the meridian plane. -/
theorem cell_dir {t : ℤ} (ht : InSec t) (x y : ℝ) (r : Bool) : ∃ zg ρ s u : ℝ,
    0 ≤ zg ∧ zg ≤ π ∧ 0 < ρ ∧ 0 ≤ s ∧ s ≤ 4.4e-5 ∧ 0 < cos u ∧
    (cos (y * (π / 180)) ≠ 0 → tan u = 0.99664719 * tan (y * (π / 180))) ∧
    (cell t x y r).zenith = π / 2 - withRefr r (π / 2 - zg) ∧
    ρ * cos zg = (sin (y * (π / 180)) * sin (cell t x y r).declination
        + cos (y * (π / 180)) * cos (cell t x y r).declination * cos (H0 t + x * (π / 180)))
      - s * (cos (y * (π / 180)) * cos u + sin (y * (π / 180)) * (0.99664719 * sin u)) ∧
    ρ * (sin zg * cos (cell t x y r).azimuth)
      = (sin (y * (π / 180)) * cos (cell t x y r).declination * cos (H0 t + x * (π / 180))
        - cos (y * (π / 180)) * sin (cell t x y r).declination)
      - s * (sin (y * (π / 180)) * cos u - cos (y * (π / 180)) * (0.99664719 * sin u)) ∧
    ρ * (sin zg * sin (cell t x y r).azimuth)
      = cos (cell t x y r).declination * sin (H0 t + x * (π / 180)) := by
  obtain ⟨k, hk⟩ := hourAngle_turn t x
  set p := y * (π / 180) with hp
  set d := (time (t : ℝ)).delta with hd
  set ξ := xi (time (t : ℝ)).R with hξ
  set H := hourAngle (time (t : ℝ)).v x (time (t : ℝ)).alpha with hH
  set u := uu p with hu
  have hxi := xi_bound (time_R ht).1
  have hsin0 : 0 ≤ sin ξ := sin_nonneg_of_nonneg_of_le_pi hxi.1.le
    (hxi.2.trans (by have := pi_gt_d2; norm_num at *; linarith))
  have hsin1 : sin ξ ≤ 4.4e-5 := (sin_le hxi.1.le).trans hxi.2
  have hcd := cos_lower (time_delta ht)
  rw [← hd] at hcd
  have hcu : 0 < cos u := by
    rw [hu]; exact cos_arctan_pos _
  have hA : 0 < cos d - cos u * sin ξ * cos H := by
    have h1 : |cos u * sin ξ * cos H| ≤ 4.4e-5 := by
      refine (abs_mul_cos_le _ _).trans ?_
      rw [abs_mul, abs_of_nonneg hsin0]
      exact (mul_le_of_le_one_left hsin0 (abs_cos_le_one _)).trans hsin1
    have := (abs_le.1 h1).2
    norm_num at *; linarith
  obtain ⟨ρ, hρ, hcp, t1, t2, t3⟩ := topo (y := 0.99664719 * sin u) hA
  set d' := deltap (cos u) (0.99664719 * sin u) ξ H d
  set h' := Hp (cos u) ξ H d
  have hdir := dir (p := p) (h := h') hcp
  have eaz : (cell t x y r).azimuth = azimuth p d' h' := by
    show azimuth p (deltap (px u p) (py u p) ξ H d) (Hp (px u p) ξ H d) = _
    rw [px_real, py_real]
  have ezen : (cell t x y r).zenith = π / 2 - withRefr r (elev p d' h') := by
    show HALFPI - withRefr r (elev p (deltap (px u p) (py u p) ξ H d) (Hp (px u p) ξ H d)) = _
    rw [px_real, py_real, HALFPI_real]
  have edec : (cell t x y r).declination = d := rfl
  have ecos : cos H = cos (H0 t + x * (π / 180)) := by rw [hk, cos_add_int_mul_two_pi]
  have esin : sin H = sin (H0 t + x * (π / 180)) := by rw [hk, sin_add_int_mul_two_pi]
  refine ⟨arccos (sin p * sin d' + cos p * cos d' * cos h'), ρ, sin ξ, u, hdir.zen_nonneg, hdir.zen_le,
    hρ, hsin0, hsin1, hcu, ?_, ?_, ?_, ?_, ?_⟩
  · intro hc
    show tan (arctan (0.99664719 * rtan p)) = _
    rw [tan_arctan, rtan_of_cos_ne hc, tan_eq_sin_div_cos]
  · rw [ezen, arccos_eq_pi_div_two_sub_arcsin, elev_real]; ring_nf
  · rw [hdir.up, edec, ← ecos]
    linear_combination sin p * t3 + cos p * t1
  · rw [eaz, hdir.south, edec, ← ecos]
    linear_combination sin p * t1 - cos p * t3
  · rw [eaz, hdir.west, edec, ← esin]
    exact t2

/-- the azimuth is the `arctan2` of a west component proportional to the sine of the hour angle -/
theorem cell_az {t : ℤ} (ht : InSec t) (x y : ℝ) (r : Bool) : ∃ h' X k : ℝ, 0 < k ∧
    (cell t x y r).azimuth = ratan2 (sin h') X ∧ k * sin h' = sin (H0 t + x * (π / 180)) := by
  obtain ⟨k, hk⟩ := hourAngle_turn t x
  set p := y * (π / 180) with hp
  set d := (time (t : ℝ)).delta with hd
  set ξ := xi (time (t : ℝ)).R with hξ
  set H := hourAngle (time (t : ℝ)).v x (time (t : ℝ)).alpha with hH
  set u := uu p with hu
  have hxi := xi_bound (time_R ht).1
  have hsin0 : 0 ≤ sin ξ := sin_nonneg_of_nonneg_of_le_pi hxi.1.le
    (hxi.2.trans (by have := pi_gt_d2; norm_num at *; linarith))
  have hsin1 : sin ξ ≤ 4.4e-5 := (sin_le hxi.1.le).trans hxi.2
  have hcd := cos_lower (time_delta ht)
  rw [← hd] at hcd
  have hA : 0 < cos d - cos u * sin ξ * cos H := by
    have h1 : |cos u * sin ξ * cos H| ≤ 4.4e-5 := by
      refine (abs_mul_cos_le _ _).trans ?_
      rw [abs_mul, abs_of_nonneg hsin0]
      exact (mul_le_of_le_one_left hsin0 (abs_cos_le_one _)).trans hsin1
    have := (abs_le.1 h1).2
    norm_num at *; linarith
  obtain ⟨ρ, hρ, hcp, t1, t2, t3⟩ := topo (y := 0.99664719 * sin u) hA
  set d' := deltap (cos u) (0.99664719 * sin u) ξ H d
  set h' := Hp (cos u) ξ H d
  have eaz : (cell t x y r).azimuth = azimuth p d' h' := by
    show azimuth p (deltap (px u p) (py u p) ξ H d) (Hp (px u p) ξ H d) = _
    rw [px_real, py_real]
  have esin : sin H = sin (H0 t + x * (π / 180)) := by rw [hk, sin_add_int_mul_two_pi]
  have hcd0 : 0 < cos d := by norm_num at *; linarith
  refine ⟨h', _, ρ * cos d' / cos d, by positivity, eaz.trans (azimuth_real p d' h'), ?_⟩
  rw [← esin, div_mul_eq_mul_div, div_eq_iff hcd0.ne']
  linarith [t2]

end SW.Nrel
