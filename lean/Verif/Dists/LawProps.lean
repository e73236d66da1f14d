import Verif.Dists.AngleProps
import Verif.Dists.Scale

/-! # C109: distributions given by parameters; C110: spectra -/

set_option linter.unusedSimpArgs false
set_option linter.unusedSectionVars false

namespace ASAPy.Dists
open ASAPy.FromAce

section
variable {K : Type} [Field K] [LinearOrder K] [FloorRing K] [IsStrictOrderedRing K]

theorem scaleY_eq (c : K) (t : Tab1D K) : scaleY c t = times c t := by
  unfold scaleY times
  congr 1
  exact List.map_congr_left fun v _ => mul_comm _ _

/-- The start of `lawAt`. -/
theorem law_start {a : Arrays K} {block start law p : Nat} (h : LawIn a block start law p) : ∃ loc : Nat, 0 < loc ∧ (p : Int) = block + loc - 1 ∧
    a.int ((block : Int) + start - 1 + 1) = .ok (law : Int) ∧ a.int ((block : Int) + start - 1 + 2) = .ok (loc : Int) := by
  obtain ⟨hs, next, loc, hl, hp, hat⟩ := h
  exact ⟨loc, hl, by omega, at_nat hat 1 rfl _ (by omega), at_nat hat 2 rfl _ (by omega)⟩

/-- The temperature of laws 7 and 9. -/
theorem temperature_at {a : Arrays K} {p : Nat} {theta : Tab K} {u : K} (hf : Fits theta) (h : AtL a.xss p (theta.numbers ++ [u])) (q : Int) (hq : q = p) :
    temperature a q = .ok (times 1000000 (tabEv theta), u * 1000000) := by
  obtain ⟨h1, h2⟩ := at_append h
  unfold temperature
  simp only [bind, Except.bind, tab1_at h1 hf q hq, afterTab_at h1 hf q hq, at_item h2 0 rfl _ (by simp : ((p + theta.numbers.length : Nat) : Int) = (p + theta.numbers.length : Nat) + (0 : Nat)), pure, Except.pure, scaleY_eq]

/-- **C109.** Law 7, a Maxwell spectrum: the temperature, tabulated by energy, and the restriction energy, all in eV instead of MeV. -/
theorem C109_maxwell {a : Arrays K} {awr : K} {q : Option K} {block start p : Nat} (hl : LawIn a block start 7 p) {theta : Tab K} {u : K} (hf : Fits theta)
    (h : AtL a.xss p (theta.numbers ++ [u])) : lawAt a awr q block start = .ok (.maxwell (times 1000000 (tabEv theta)) (1000000 * u)) := by
  obtain ⟨loc, -, hp, h1, h2⟩ := law_start hl
  unfold lawAt
  simp only [bind, Except.bind, h1, h2]
  norm_num [temperature_at hf h _ hp.symm, pure, Except.pure, mul_comm]

/-- **C109.** Law 9, an evaporation spectrum. -/
theorem C109_evaporation {a : Arrays K} {awr : K} {q : Option K} {block start p : Nat} (hl : LawIn a block start 9 p) {theta : Tab K} {u : K} (hf : Fits theta)
    (h : AtL a.xss p (theta.numbers ++ [u])) : lawAt a awr q block start = .ok (.evaporation (times 1000000 (tabEv theta)) (1000000 * u)) := by
  obtain ⟨loc, -, hp, h1, h2⟩ := law_start hl
  unfold lawAt
  simp only [bind, Except.bind, h1, h2]
  norm_num [temperature_at hf h _ hp.symm, pure, Except.pure, mul_comm]

/-- **C109.** Law 11, a Watt spectrum: `a` in eV, `b` in 1/eV, the restriction energy in eV. -/
theorem C109_watt {a : Arrays K} {awr : K} {q : Option K} {block start p : Nat} (hl : LawIn a block start 11 p) {ta tb : Tab K} {u : K} (hfa : Fits ta) (hfb : Fits tb)
    (h : AtL a.xss p (ta.numbers ++ tb.numbers ++ [u])) : lawAt a awr q block start = .ok (.watt (times 1000000 (tabEv ta)) (times (1 / 1000000) (tabEv tb)) (1000000 * u)) := by
  obtain ⟨loc, -, hp, h1, h2⟩ := law_start hl
  obtain ⟨hab, hu⟩ := at_append h
  obtain ⟨ha, hb⟩ := at_append hab
  have hw : watt a (p : Int) = .ok (.watt (times 1000000 (tabEv ta)) (times (1 / 1000000) (tabEv tb)) (1000000 * u)) := by
    unfold watt
    rw [tab1_at ha hfa _ rfl]
    simp only [bind, Except.bind]
    rw [afterTab_at ha hfa _ rfl]
    simp only
    rw [tab1_at hb hfb _ rfl]
    simp only
    rw [afterTab_at hb hfb _ rfl]
    simp only
    rw [at_item hu 0 rfl _ (by simp [List.length_append]; ring)]
    simp only [pure, Except.pure, scaleY_eq, mul_comm u]
    congr 2
    unfold times
    congr 1
    exact List.map_congr_left fun v _ => by ring
  unfold lawAt
  simp only [bind, Except.bind, h1, h2, ← hp]
  norm_num [hw]

/-- **C109.** Laws 3 and 33, a level: the threshold in eV, and the ratio. -/
theorem C109_level {a : Arrays K} {awr : K} {q : Option K} {block start law p : Nat} (hlaw : law = 3 ∨ law = 33) (hl : LawIn a block start law p) {e r : K} (h : AtL a.xss p [e, r]) :
    lawAt a awr q block start = .ok (.level (1000000 * e) r) := by
  obtain ⟨loc, -, hp, h1, h2⟩ := law_start hl
  have g1 := at_item h 0 (v := e) rfl p (by simp)
  have g2 := at_item h 1 (v := r) rfl ((p : Int) + 1) (by simp)
  unfold lawAt
  simp only [bind, Except.bind, h1, h2, ← hp]
  rcases hlaw with rfl | rfl <;> norm_num [g1, g2, pure, Except.pure, mul_comm]

/-- **C109.** Law 2, a discrete photon: the flag and the energy in eV, with the atomic weight ratio of the table. -/
theorem C109_photon {a : Arrays K} {awr : K} {q : Option K} {block start p : Nat} (hl : LawIn a block start 2 p) {flag : Int} {e : K} (h : AtL a.xss p [(flag : K), e]) :
    lawAt a awr q block start = .ok (.discretePhoton flag (1000000 * e) awr) := by
  obtain ⟨loc, -, hp, h1, h2⟩ := law_start hl
  have g1 := at_int h 0 (n := flag) rfl p (by simp)
  have g2 := at_item h 1 (v := e) rfl ((p : Int) + 1) (by simp)
  unfold lawAt
  simp only [bind, Except.bind, h1, h2, ← hp]
  norm_num [g1, g2, pure, Except.pure, mul_comm]

/-- **C109.** Law 66, phase space of `n` bodies, with the Q value of the reaction. -/
theorem C109_nbody {a : Arrays K} {awr q : K} {block start p : Nat} (hl : LawIn a block start 66 p) {n : Nat} {m : K} (h : AtL a.xss p [(n : K), m]) (hm : 0 < m) (hn : 0 < n) (hawr : 0 < awr) :
    lawAt a awr (some q) block start = .ok (.nbody m n awr q) := by
  obtain ⟨loc, -, hp, h1, h2⟩ := law_start hl
  have g1 := at_nat h 0 (n := n) rfl p (by simp)
  have g2 := at_item h 1 (v := m) rfl ((p : Int) + 1) (by simp)
  unfold lawAt
  simp only [bind, Except.bind, h1, h2, ← hp]
  have hc : ¬ (m ≤ 0 ∨ (n : Int) ≤ 0 ∨ awr ≤ 0) := by push Not; exact ⟨hm, by omega, hawr⟩
  norm_num [g1, g2, pure, Except.pure]
  rintro (h | h | h)
  · exact absurd h (not_le.mpr hm)
  · omega
  · exact absurd h (not_le.mpr hawr)

/-- **C109.** Photons and delayed neutrons cannot have law 66: the program stops. -/
theorem C109_nbody_alone {a : Arrays K} {awr : K} {block start p : Nat} (hl : LawIn a block start 66 p) : lawAt a awr none block start = .error .exception := by
  obtain ⟨loc, -, hp, h1, h2⟩ := law_start hl
  unfold lawAt
  simp only [bind, Except.bind, h1, h2, ← hp]
  norm_num

/-- **C109.** Another law is refused, law 5 (general evaporation) too. -/
theorem C109_unsupported {a : Arrays K} {awr : K} {q : Option K} {block start law p : Nat} (hl : LawIn a block start law p) (hlaw : law ∉ [2, 3, 4, 7, 9, 11, 33, 44, 61, 66]) :
    ∃ e, lawAt a awr q block start = .error e := by
  obtain ⟨loc, -, hp, h1, h2⟩ := law_start hl
  simp only [List.mem_cons, List.not_mem_nil, or_false, not_or] at hlaw
  obtain ⟨n2, n3, n4, n7, n9, n11, n33, n44, n61, n66⟩ := hlaw
  unfold lawAt
  simp only [bind, Except.bind, h1, h2, ← hp]
  rw [if_neg (by omega), if_neg (by omega), if_neg (by omega)]
  by_cases h5 : law = 5
  · exact ⟨.exception, by rw [if_pos (by omega)]⟩
  · exact ⟨.valueError, by rw [if_neg (by omega), if_neg (by omega), if_neg (by omega), if_neg (by omega), if_neg (by omega), if_neg (by omega), if_neg (by omega)]⟩

/-- **C109.** The converted table is the same function: at `1000000 * E` (eV) it has `c` times the value that the table of the file has at `E` (MeV), for every law of interpolation and every `E`, except
those whose distance from an end point exceeds a hundred thousandth of that end point by `10⁻²⁰` to `10⁻¹⁴` MeV: these are taken for the end point in MeV, but not in eV. -/
theorem C109_function_partial [ExpLog K] (n : Tab K) (c E : K)
    (h : ∀ e, (n.energies.head? = some e ∨ n.energies.getLast? = some e) → |E - e| ≤ 1 / 10 ^ 20 + |e| / 10 ^ 5 ∨ 1 / 10 ^ 14 + |e| / 10 ^ 5 < |E - e|) (y : K)
    (hy : (tabMev n).eval E = .ok y) : (times c (tabEv n)).eval (1000000 * E) = .ok (c * y) := by
  have hu : times c (tabEv n) = units 1000000 c (tabMev n) := by
    unfold times units tabMev tabEv
    congr 1
    exact List.map_congr_left fun v _ => mul_comm _ _
  have key : ∀ e, (n.energies.head? = some e ∨ n.energies.getLast? = some e) → (Tab1D.isclose (E * 1000000) (e * 1000000) ↔ Tab1D.isclose E e) := by
    intro e he
    refine ⟨fun hc => close_units (by norm_num) hc, fun hc => ?_⟩
    unfold Tab1D.isclose at *
    rcases h e he with h | h
    · rw [← sub_mul, abs_mul, abs_mul, abs_of_pos (by norm_num : (0 : K) < 1000000)]
      linarith
    · linarith
  rw [hu, mul_comm, eval_units (by norm_num), hy]
  · simp [Except.map, mul_comm]
  · exact fun x0 hx0 => key x0 (Or.inl hx0)
  · exact fun xn hxn => key xn (Or.inr hxn)

/-- **C109.** At the last energy of the file it has `c` times the last value. -/
theorem C109_function_end [ExpLog K] (n : Tab K) (c : K) {e v y : K} (he : n.energies.getLast? = some e) (hv : n.values.getLast? = some v) (hy : (tabMev n).eval e = .ok y) :
    y = v ∧ (times c (tabEv n)).eval (1000000 * e) = .ok (c * v) := by
  have self : ∀ w : K, Tab1D.isclose w w := by
    intro w
    unfold Tab1D.isclose
    rw [sub_self, abs_zero]
    have := abs_nonneg w
    positivity
  have hu : times c (tabEv n) = units 1000000 c (tabMev n) := by
    unfold times units tabMev tabEv
    congr 1
    exact List.map_congr_left fun v _ => mul_comm _ _
  have hne : n.energies ≠ [] := by rintro h; rw [h] at he; cases he
  have hve : n.values ≠ [] := by rintro h; rw [h] at hv; cases hv
  obtain ⟨x0, hx0⟩ : ∃ x0, n.energies.head? = some x0 := ⟨_, List.head?_eq_some_head hne⟩
  obtain ⟨y0, hy0⟩ : ∃ y0, n.values.head? = some y0 := ⟨_, List.head?_eq_some_head hve⟩
  unfold Tab1D.eval at hy
  simp only [bind, Except.bind] at hy
  cases hr : Tab1D.regions (tabMev n) e with
  | error err => rw [hr] at hy; cases hy
  | ok r =>
    have e1 : (tabMev n).x.head? = some x0 := hx0
    have e2 : (tabMev n).y.head? = some y0 := hy0
    have e3 : (tabMev n).x.getLast? = some e := he
    have e4 : (tabMev n).y.getLast? = some v := hv
    rw [hr] at hy
    simp only [e1, e2, e3, e4, if_pos (self e), Except.ok.injEq] at hy
    refine ⟨hy.symm, ?_⟩
    rw [hu, mul_comm]
    unfold Tab1D.eval
    simp only [bind, Except.bind, regions_units (by norm_num : (0 : K) < 1000000), hr, Except.map]
    simp only [units, List.head?_map, List.getLast?_map, e1, e2, e3, e4, Option.map_some, if_pos (self _), Except.ok.injEq]
    ring

/-! ### Spectra -/

theorem slice_whole {α : Type} (l : List α) (n : Int) (hn : n = l.length) : slice l 0 n = l := slice_at (at_self l) _ _ rfl (by omega)

theorem slice_left {α : Type} (u v : List α) (n : Int) (hn : n = u.length) : slice (u ++ v) 0 n = u := slice_at (at_append (at_self (u ++ v))).1 _ _ rfl (by omega)

theorem slice_right {α : Type} (u v : List α) (n m : Int) (hn : n = u.length) (hm : m = n + v.length) : slice (u ++ v) n m = v :=
  slice_at (at_append (at_self (u ++ v))).2 _ _ (by omega) (by omega)

theorem slice_flatten {α : Type} {n : Nat} : ∀ (rows : List (List α)), (∀ r ∈ rows, r.length = n) → ∀ (i : Nat) (hi : i < rows.length), slice rows.flatten ((i : Int) * n) (((i : Int) + 1) * n) = rows[i] := by
  intro rows hr i hi
  have hsplit : rows.flatten = (rows.take i).flatten ++ (rows[i] ++ (rows.drop (i + 1)).flatten) := by
    conv_lhs => rw [← List.take_append_drop i rows, List.flatten_append, List.drop_eq_getElem_cons hi, List.flatten_cons]
  have hl : (rows.take i).flatten.length = i * n := by
    rw [List.length_flatten]
    have : ∀ l ∈ (rows.take i).map List.length, l = n := by
      intro l hl
      obtain ⟨r, hr', rfl⟩ := List.mem_map.mp hl
      exact hr r (List.mem_of_mem_take hr')
    rw [List.sum_eq_card_nsmul _ _ this]
    simp; left; omega
  have hself : AtL rows.flatten 0 ((rows.take i).flatten ++ (rows[i] ++ (rows.drop (i + 1)).flatten)) := by
    have := at_self rows.flatten
    rw [hsplit] at this
    rw [hsplit]
    exact this
  have h1 := (at_append (at_append hself).2).1
  refine slice_at h1 _ _ ?_ ?_
  · rw [hl]; push_cast; ring
  · rw [hr _ (List.getElem_mem hi)]; push_cast; ring

theorem flatten_length {α : Type} {n : Nat} (rows : List (List α)) (h : ∀ r ∈ rows, r.length = n) : rows.flatten.length = rows.length * n := by
  rw [List.length_flatten]
  have : ∀ l ∈ rows.map List.length, l = n := by
    intro l hl
    obtain ⟨r, hr', rfl⟩ := List.mem_map.mp hl
    exact h r hr'
  rw [List.sum_eq_card_nsmul _ _ this]
  simp

/-- The rows of a spectrum. -/
def Lined.rows (s : Lined K) : List (List K) := [s.all.map (·.1), s.all.map (·.2.1), s.all.map (·.2.2)] ++ s.more

theorem Lined.numbers_eq (s : Lined K) : s.numbers = [((10 * s.lines.length + s.law : Nat) : K), (s.all.length : K)] ++ s.rows.flatten := by
  simp [Lined.numbers, Lined.rows]

theorem getD_spectrum {α : Type} (l : List (List α)) (i : Nat) (hi : i < l.length) : l.getD i [] = l[i] := by
  simp [List.getD, List.getElem?_eq_getElem hi]

theorem spectrum_at {a : Arrays K} {block extra : Nat} {strict : Bool} {s : Lined K} (h : s.In a.xss block extra strict) (q : Int) (hq : q = (block : Int) + s.loc - 1) :
    ∃ rows, spectrum (3 + extra) (!strict) a q = .ok (s.inEv, rows) ∧ rows.getD 0 [] = s.energies ∧ ∀ (i : Nat) (r : List K), s.more[i]? = some r → rows.getD (3 + i) [] = r := by
  obtain ⟨h0, hlaw, hmore, hlen, hlines, hpoints, hat⟩ := h
  set p := block + s.loc - 1 with hp
  have hqp : q = p := by omega
  subst hqp
  rw [s.numbers_eq] at hat
  have g0 := at_nat hat 0 (n := 10 * s.lines.length + s.law) rfl p (by simp)
  have g1 := at_nat hat 1 (n := s.all.length) rfl ((p : Int) + 1) (by simp)
  have hrows : ∀ r ∈ s.rows, r.length = s.all.length := by
    intro r hr
    simp only [Lined.rows, List.mem_append, List.mem_cons, List.not_mem_nil, or_false] at hr
    rcases hr with (rfl | rfl | rfl) | hr
    · simp
    · simp
    · simp
    · exact hlen r hr
  have hrl : s.rows.length = 3 + extra := by simp [Lined.rows, hmore]; omega
  have hflen : s.rows.flatten.length = (3 + extra) * s.all.length := by rw [flatten_length _ hrows, hrl]
  have hdata : slice a.xss ((p : Int) + 2) ((p : Int) + 2 + ((3 + extra : Nat) : Int) * (s.all.length : Int)) = s.rows.flatten :=
    slice_at (at_append hat).2 _ _ (by simp) (by rw [hflen]; push_cast; ring)
  have hmod : ((10 * s.lines.length + s.law : Nat) : Int) % 10 = s.law := by rcases hlaw with h | h <;> omega
  have hdiv : (((10 * s.lines.length + s.law : Nat) : Int) - (s.law : Int)) / 10 = s.lines.length := by push_cast; omega
  have hrow : ∀ (i : Nat) (hi : i < 3 + extra), slice s.rows.flatten ((i : Int) * (s.all.length : Int)) (((i : Int) + 1) * (s.all.length : Int)) = s.rows[i]'(by omega) :=
    fun i hi => slice_flatten s.rows hrows i (by omega)
  have r0 := hrow 0 (by omega)
  have r1 := hrow 1 (by omega)
  have r2 := hrow 2 (by omega)
  have e0 : s.rows[0]'(by omega) = s.lines.map (·.1) ++ s.points.map (·.1) := by simp [Lined.rows, Lined.all]
  have e1 : s.rows[1]'(by omega) = s.lines.map (·.2.1) ++ s.points.map (·.2.1) := by simp [Lined.rows, Lined.all]
  have e2 : s.rows[2]'(by omega) = s.lines.map (·.2.2) ++ s.points.map (·.2.2) := by simp [Lined.rows, Lined.all]
  rw [e0] at r0; rw [e1] at r1; rw [e2] at r2
  have hall : (s.all.length : Int) = s.lines.length + s.points.length := by simp [Lined.all]
  have lp : slice (s.lines.map (·.2.1) ++ s.points.map (·.2.1)) 0 (s.lines.length : Int) = s.lines.map (·.2.1) := slice_left _ _ _ (by simp)
  have lc : slice (s.lines.map (·.2.2) ++ s.points.map (·.2.2)) 0 (s.lines.length : Int) = s.lines.map (·.2.2) := slice_left _ _ _ (by simp)
  have lx : slice ((s.lines.map (·.1) ++ s.points.map (·.1)).map (· * (1000000 : K))) 0 (s.lines.length : Int) = s.lines.map (·.1 * 1000000) := by
    rw [List.map_append, slice_left _ _ _ (by simp), List.map_map]; rfl
  have px : slice ((s.lines.map (·.1) ++ s.points.map (·.1)).map (· * (1000000 : K))) (s.lines.length : Int) (s.all.length : Int) = s.points.map (·.1 * 1000000) := by
    rw [List.map_append, slice_right _ _ _ _ (by simp) (by simp [hall]), List.map_map]; rfl
  have pp : slice (s.lines.map (·.2.1) ++ s.points.map (·.2.1)) (s.lines.length : Int) (s.all.length : Int) = s.points.map (·.2.1) := slice_right _ _ _ _ (by simp) (by simp [hall])
  have pc : slice (s.lines.map (·.2.2) ++ s.points.map (·.2.2)) (s.lines.length : Int) (s.all.length : Int) = s.points.map (·.2.2) := slice_right _ _ _ _ (by simp) (by simp [hall])
  have hlaw' : (if (s.law : Int) = 1 then 1 else 2) = s.law := by rcases hlaw with h | h <;> simp [h]
  have hneg1 : ¬ (¬ ((!strict) = true) ∧ ((s.points.map (·.2.1)).any fun v => decide (v / 1000000 < 0)) = true) := by
    rintro ⟨hs, hcon⟩
    obtain ⟨v, hv, hlt⟩ := List.any_eq_true.mp hcon
    obtain ⟨l, hl, rfl⟩ := List.mem_map.mp hv
    have : 0 ≤ l.2.1 := hpoints (by simpa using hs) l hl
    rw [decide_eq_true_eq] at hlt
    exact absurd (div_nonneg this (by norm_num)) (not_le.mpr hlt)
  have hneg2 : ¬ ((s.lines.map (·.2.1)).any fun v => decide (v < 0)) = true := by
    intro hcon
    obtain ⟨v, hv, hlt⟩ := List.any_eq_true.mp hcon
    obtain ⟨l, hl, rfl⟩ := List.mem_map.mp hv
    rw [decide_eq_true_eq] at hlt
    exact absurd (hlines l hl) (not_le.mpr hlt)
  have hmap : ((s.points.map (·.2.1)).map (· / (1000000 : K))) = s.points.map (·.2.1 / 1000000) := by rw [List.map_map]; rfl
  refine ⟨((s.lines.map (·.1) ++ s.points.map (·.1)).map (· * (1000000 : K))) :: ((List.range (3 + extra)).drop 1).map (fun i : Nat => slice s.rows.flatten ((i : Int) * (s.all.length : Int)) (((i : Int) + 1) * (s.all.length : Int))), ?_, ?_, ?_⟩
  · unfold spectrum
    simp only [bind, Except.bind, g0, g1, hmod, hdiv, hdata, r0, r1, r2, hlaw', lp, lc, lx, px, pp, pc, hmap]
    rw [if_neg (by rw [hflen]; push_cast; simp), if_neg hneg1]
    unfold Lined.inEv
    rcases hL : s.lines with _ | ⟨l0, ls⟩
    · simp [pure, Except.pure]
    · rw [if_pos (by simp)]
      rw [← hL, if_neg hneg2]
      rcases hP : s.points with _ | ⟨q0, qs⟩
      · rw [if_pos (by rw [hall, hP]; simp), hL]
        rfl
      · rw [if_neg (by rw [hall, hP]; simp; omega), hL]
        simp only [pure, Except.pure, Except.ok.injEq, Prod.mk.injEq, and_true, EOut.mixture.injEq]
        rw [min_def]
  · simp [Lined.energies, Lined.all, Function.comp_def]
  · intro i r hi
    have hi' : i < s.more.length := (List.getElem?_eq_some_iff.mp hi).1
    have : 3 + i < s.rows.length := by omega
    have hh := hrow (3 + i) (by omega)
    rw [show 3 + i = (2 + i) + 1 by omega, List.getD_cons_succ]
    simp only [List.getD, List.getElem?_map, List.getElem?_drop]
    rw [List.getElem?_eq_getElem (by simp; omega)]
    simp only [List.getElem_range, Option.map_some, Option.getD_some]
    have h12 : 1 + (2 + i) = 3 + i := by omega
    rw [h12, hh]
    have : s.rows[3 + i] = s.more[i] := by
      simp only [Lined.rows]
      rw [List.getElem_append_right (by simp)]
      simp
    rw [this]
    exact (List.getElem?_eq_some_iff.mp hi).2

end
end ASAPy.Dists
