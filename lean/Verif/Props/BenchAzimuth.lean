/-
C76: the azimuth table of the benchmark report.
-/
import Verif.Props.Azimuth
import Verif.Props.BenchReport

namespace SW.Props
open SW SW.Spec Real Sunpos SW.Bench
open SW.Ephem (century declination hourAngle distance)

/-- the cells of a single site -/
theorem site_at {w : World XR} {times : Times} {ts : List Int} {φ l : ℝ} {alg eng : String} {refr : PyVal} {s : Sunpos XR}
    (h : call .sites w times (.scalar (XR.fin φ)) (.scalar (XR.fin l)) alg refr eng = .ok s) (hts : times.stamps = ts.map some)
    (hr : ∀ t ∈ ts, |t| < 2 ^ 63) {k : Nat} {t : Int} (hk : ts[k]? = some t) : At s times (rowAt k) t φ l := by
  have hst : stampAt times.stamps (rowAt k .time) = some t := by
    show (times.stamps[k]?).getD none = some t
    rw [hts, List.getElem?_map, hk]; rfl
  obtain ⟨lat, lon, b, utc, ha, hu, hres⟩ := call_inv h
  obtain rfl : [XR.fin φ] = lat := Option.some.inj ha.lat_eq
  obtain rfl : [XR.fin l] = lon := Option.some.inj ha.lon_eq
  refine ⟨?_, hst, hr t (List.mem_of_getElem? hk), ?_, ?_⟩
  · unfold Within; rw [hres.zen_dims]
    have : k < times.stamps.length := by rw [hts, List.length_map]; exact (List.getElem?_eq_some_iff.1 hk).1
    simp [rowAt, this]
  · rw [hres.latitude]; rfl
  · rw [hres.longitude]; rfl

/-- two azimuths in [-180, 180], less than 30 degrees apart on the circle, have a residue of at most their distance -/
theorem residue_near {a o B x : ℝ} {k : ℤ} (ha : -180 ≤ a ∧ a ≤ 180) (ho : -180 ≤ o ∧ o ≤ 180) (hB : B < 30)
    (h : |a - o - 360 * k| ≤ B) (hx : XR.fin x = residue true false (.fin a) (.fin o)) : |x| ≤ B := by
  have hx : XR.fin x = wrapAzimuth (XR.fin (a - o)) := hx
  rw [wrap_fin (by linarith [ha.1, ho.2]), XR.fin_inj] at hx
  have hb := abs_le.1 h
  have hk : k = -1 ∨ k = 0 ∨ k = 1 := by
    have h1 : (-2 : ℝ) < k := by linarith [ha.1, ho.2, hb.2]
    have h2 : (k : ℝ) < 2 := by linarith [ha.2, ho.1, hb.1]
    have h1 : (-2 : ℤ) < k := by exact_mod_cast h1
    have h2 : k < (2 : ℤ) := by exact_mod_cast h2
    omega
  rw [hx, abs_le]
  rcases hk with rfl | rfl | rfl <;> push_cast at hb
  · rw [if_pos (by linarith [hb.1, hb.2])]
    constructor <;> linarith [hb.1, hb.2]
  · rw [if_neg (by linarith [hb.1, hb.2]), if_neg (by linarith [hb.1, hb.2])]
    constructor <;> linarith [hb.1, hb.2]
  · rw [if_neg (by linarith [hb.1, hb.2]), if_pos (by linarith [hb.1, hb.2])]
    constructor <;> linarith [hb.1, hb.2]

/-- **C76** The azimuth table: let the azimuths of the reference be in [-180, 180] and, up to full turns, within `η` degrees of those of the
ephemeris sun, which is never nearer to the zenith or the nadir than the error of the algorithm. If, at every row, the spread of that error
(C83) plus `η` is at most `B` degrees, less than 30, then mean absolute error and root mean square of the algorithm in the table are at most
`B` (3600 `B` arc seconds). -/
theorem C76_azimuth {sort : List (String × Scores) → List (String × Scores)} (hs : SortsRmse sort) {w : World XR} {times : Times} {ts : List Int}
    {φ l η B : ℝ} {jpl : List (String × List XR)} {others : List ((String × String) × List XR)} {Z A : List ℝ}
    (hb : BenchInput times jpl others) (hts : times.stamps = ts.map some) (hr : ∀ t ∈ ts, |t| < 2 ^ 63)
    (hz : jpl.lookup "zenith" = some (Z.map XR.fin)) (ha : jpl.lookup "azimuth" = some (A.map XR.fin))
    (hA : ∀ (k : Nat) t a, ts[k]? = some t → A[k]? = some a → -180 ≤ a ∧ a ≤ 180 ∧ ∃ α : ℝ, ∃ n : ℤ,
      sunVec (rad φ) (declination (century t)) (-(hourAngle (century t) + rad l)) = dirVec (rad (sunZenith t φ l)) (rad α) ∧
      |a - α - 360 * n| ≤ η)
    {m : String × String × String} (hm : m ∈ reportMethods)
    (hfar : ∀ t ∈ ts, positionError m.1 m.2.1 < sunZenith t φ l ∧ sunZenith t φ l < 180 - positionError m.1 m.2.1)
    (hB : ∀ t ∈ ts, azimuthSpread (positionError m.1 m.2.1) (sunZenith t φ l) + η ≤ B) (hB30 : B < 30)
    {tables : List (String × List (String × Scores))} (h : runTables sort w times (.fin φ) (.fin l) jpl others = .ok tables)
    {rows : List (String × Scores)} (hrows : tables.lookup "azimuth" = some rows) {sc : Scores} (hsc : (m.2.2, sc) ∈ rows)
    {a q : ℝ} (hmae : sc.mae = some a) (hq : sc.rmse = some q) : a ≤ q ∧ q ≤ 3600 * B := by
  obtain ⟨-, sun, hsun, htab⟩ := C76_rows hs hb hz h
  obtain ⟨rows', e1, -, -, e2⟩ := htab "azimuth" "azimuth" 3600 (by simp [reportTables])
  obtain rfl : rows = rows' := Option.some.inj (hrows.symm.trans e1)
  obtain ⟨m', c, o, k1, k2, k3, k4, x0, k5⟩ := (e2 _ _).1 hsc
  obtain rfl : A.map XR.fin = o := Option.some.inj (ha.symm.trans k3)
  have hpr : (sunwhereLabel m, m.2.2) ∈ printedNames := List.mem_append_right _ (List.mem_map.2 ⟨m, hm, rfl⟩)
  obtain rfl : m' = sunwhereLabel m := congrArg Prod.fst (List.inj_on_of_nodup_map printed_nodup.2.1 k1 hpr rfl)
  obtain ⟨s, j1, -, j2, -⟩ := (C76_columns hsun).1 m hm
  have hno : others.lookup (sunwhereLabel m, "azimuth") = none := by
    rw [List.lookup_eq_none_iff]
    intro p hp
    rw [bne_iff_ne]
    intro hh
    exact names_disjoint _ (hb.names p hp) (by rw [← hh]; exact List.mem_map_of_mem hm)
  rw [List.lookup_append, hno, j2] at k2
  obtain rfl := Option.some.inj k2
  obtain ⟨b', a', q', i1, i2, i3, -, i5⟩ := C52_order k5
  have hlA : A.length = ts.length := by
    have := hb.jpl_rows _ ((lookup_of_mem hb.jpl_labels).2 ha); simpa [hts] using this
  have row : ∀ (k : Nat) (p r : XR), ((List.range times.stamps.length).map fun k => s.azimuthDeg.get (rowAt k))[k]? = some p →
      (A.map XR.fin)[k]? = some r → ∀ x, XR.fin x = residue true false p r → |x| ≤ B := by
    intro k p r g1 g2 x hx
    have hkl : k < ts.length := by
      have := (List.getElem?_eq_some_iff.1 g1).1; simpa [hts] using this
    have hkt : ts[k]? = some ts[k] := List.getElem?_eq_getElem hkl
    have hat := site_at j1 hts hr hkt
    have hmem : ts[k] ∈ ts := List.getElem_mem _
    rw [List.getElem?_map, List.getElem?_range (by rw [hts, List.length_map]; exact hkl)] at g1
    rw [List.getElem?_map, List.getElem?_eq_getElem (hlA ▸ hkl)] at g2
    have g1 : s.azimuthDeg.get (rowAt k) = p := Option.some.inj g1
    have g2 : XR.fin (A[k]'(hlA ▸ hkl)) = r := Option.some.inj g2
    obtain ⟨o1, o2, α, n, d1, d2⟩ := hA k _ _ hkt (List.getElem?_eq_getElem (hlA ▸ hkl))
    obtain ⟨u, n', u1, u2⟩ := C83_accuracy j1 hat d1 (hfar _ hmem).1 (hfar _ hmem).2
    obtain ⟨u', u3, u4⟩ := C14_range j1 hat
    obtain rfl : u' = u := XR.fin_inj.1 (u3.symm.trans u1)
    have hu : -180 ≤ u' ∧ u' ≤ 180 := by
      rcases u4 with ⟨-, h1, h2⟩ | ⟨-, h1, h2⟩
      · exact ⟨h1, h2.le⟩
      · exact ⟨h1.le, h2⟩
    rw [← g1, ← g2, u1] at hx
    refine residue_near (k := n' - n) hu ⟨o1, o2⟩ hB30 ?_ hx
    have := hB _ hmem
    push_cast
    rw [abs_le] at *
    constructor <;> linarith [u2.1, u2.2, d2.1, d2.2]
  have hB0 : 0 ≤ B := by
    obtain ⟨k, p, r, g1, g2, g3⟩ := kept_mem k5
    exact (abs_nonneg _).trans (row k p r g1 g2 x0 g3)
  have hq' : q' ≤ B := rmse_le hB0 (fun x hx => by
    obtain ⟨k, p, r, g1, g2, g3⟩ := kept_mem hx
    exact row k p r g1 g2 x g3) i3
  have e3 := k4.rmse
  have e4 := k4.mae
  rw [hq, i3, Option.map_some, Option.some_inj] at e3
  rw [hmae, i2, Option.map_some, Option.some_inj] at e4
  constructor <;> linarith

/-- a benchmark that meets the hypotheses: one instant (any), a place at latitude 75, the ephemeris itself as the reference; the root mean
square of psa with numexpr is at most 2.25 times 0.107 degrees -/
example {t : Int} (ht : |t| < 2 ^ 63) : ∃ (a : ℝ) (tables : List (String × List (String × Scores))) (rows : List (String × Scores)) (sc : Scores) (q : ℝ),
    runTables mergeRmse exWorld (oneTime t) (.fin 75) (.fin 10)
      [("azimuth", [.fin a]), ("zenith", [.fin (sunZenith t 75 10)]), ("ecf", [.fin (1 / distance (century t) ^ 2)])] [] = .ok tables ∧
    tables.lookup "azimuth" = some rows ∧ ("sunwhere's PSA (numexpr)", sc) ∈ rows ∧ sc.rmse = some q ∧ q ≤ 3600 * (2.25 * 0.107) := by
  obtain ⟨α, hα⟩ := sun_azimuth t 75 10
  obtain ⟨g1, g2, g3⟩ := sun_from_75 ht 10
  obtain ⟨n, hn⟩ : ∃ n, n = round (α / 360) := ⟨_, rfl⟩
  have hround : |α - 360 * n| ≤ 180 := by
    have := abs_sub_round (α / 360)
    rw [← hn] at this
    have e : α - 360 * n = (α / 360 - n) * 360 := by ring
    rw [e, abs_mul, abs_of_pos (by norm_num : (0 : ℝ) < 360)]
    linarith
  have hround := abs_le.1 hround
  have hb : BenchInput (oneTime t) [("azimuth", [.fin (α - 360 * n)]), ("zenith", [.fin (sunZenith t 75 10)]),
      ("ecf", [.fin (1 / distance (century t) ^ 2)])] [] := by
    refine ⟨by simp, by simp, ?_, ?_, ?_⟩
    · intro c hc; cases hc
    · intro c hc
      simp only [List.mem_cons, List.not_mem_nil, or_false] at hc
      rcases hc with rfl | rfl | rfl <;> rfl
    · intro c hc; cases hc
  have ht' : ∀ u ∈ [t], |u| < 2 ^ 63 := by intro u hu; rw [List.mem_singleton.1 hu]; exact ht
  obtain ⟨tables, h1, h2⟩ := C76_accuracy sorts_mergeRmse exWorld (ts := [t]) (η := 0) (η' := 0)
    (Z := [sunZenith t 75 10]) (A := [α - 360 * n]) (E := [1 / distance (century t) ^ 2]) hb ⟨rfl, by intro z hz; cases hz⟩ rfl
    ht' (φ := 75) (l := 10) (by norm_num) (by norm_num) rfl rfl rfl
    (by
      intro k t z ht hz
      cases k with
      | zero =>
        simp only [List.getElem?_cons_zero, Option.some.injEq] at ht hz
        rw [← ht, ← hz, sub_self, abs_zero]
      | succ k => simp at ht)
    (by
      intro k t z ht hz
      cases k with
      | zero =>
        simp only [List.getElem?_cons_zero, Option.some.injEq] at ht hz
        rw [← ht, ← hz, sub_self, abs_zero]
      | succ k => simp at ht)
    ⟨sunZenith t 75 10, by simp, by linarith⟩
  obtain ⟨rows, sc, b, a, q, k1, k2, k3, k4, k5, -⟩ := (h2 ("psa", "numexpr", "sunwhere's PSA (numexpr)") (by simp [reportMethods])).2.2
  refine ⟨_, tables, rows, sc, q, h1, k1, k2, k5, ?_⟩
  have hp : positionError "psa" "numexpr" = 0.107 := by simp [positionError]
  have hsp := (azimuthSpread_le (E := 0.107) (ζ := sunZenith t 75 10) (by norm_num) (by linarith) (by linarith)).2
  have hsp2 : 1.571 * 0.107 / sin (rad (sunZenith t 75 10)) ≤ 2.25 * 0.107 := by
    rw [div_le_iff₀ (by linarith)]
    generalize sin (rad (sunZenith t 75 10)) = S at *
    norm_num at g1 ⊢
    nlinarith
  refine (C76_azimuth sorts_mergeRmse (φ := 75) (l := 10) (η := 0) (Z := [sunZenith t 75 10]) (A := [α - 360 * n]) (ts := [t]) hb rfl ht' rfl rfl ?_
    (m := ("psa", "numexpr", "sunwhere's PSA (numexpr)")) (by simp [reportMethods]) ?_ ?_ (by norm_num) h1 k1 k2 k4 k5).2
  · intro k u z hu hz
    cases k with
    | zero =>
      simp only [List.getElem?_cons_zero, Option.some.injEq] at hu hz
      subst hu hz
      exact ⟨hround.1, hround.2, α, -n, hα, by push_cast; rw [abs_of_nonneg] <;> linarith⟩
    | succ k => simp at hu
  · intro u hu
    rw [List.mem_singleton.1 hu]
    show positionError "psa" "numexpr" < _ ∧ _ < 180 - positionError "psa" "numexpr"
    rw [hp]
    constructor <;> linarith
  · intro u hu
    rw [List.mem_singleton.1 hu, add_zero]
    show azimuthSpread (positionError "psa" "numexpr") _ ≤ _
    rw [hp]
    exact hsp.trans hsp2

end SW.Props
