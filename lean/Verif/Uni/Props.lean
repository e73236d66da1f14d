import Verif.Uni.Model
import Verif.EndfRx.Props
import Verif.EndfRx.Examples

/-!
# C214, C215: Legendre expansions and what is read into them
-/

noncomputable section

namespace ASAPy.Uni
open Polynomial

/-! ### Lemmas -/

theorem series_append (x : ℝ) : ∀ (bs cs : List ℝ) (l : Nat), (series l (bs ++ cs)).eval x = (series l bs).eval x + (series (l + bs.length) cs).eval x
  | [], cs, l => by simp [series]
  | b :: bs, cs, l => by
    rw [List.cons_append, series, series, eval_add, eval_add, series_append x bs cs (l + 1), List.length_cons, show l + 1 + bs.length = l + (bs.length + 1) by omega]
    ring

theorem bonnet_eval (n : Nat) (x : ℝ) : (n + 2 : ℝ) * (P (n + 2)).eval x = (2 * n + 3) * x * (P (n + 1)).eval x - (n + 1) * (P n).eval x := by
  have := congrArg (eval x) (bonnet n)
  simpa using this

/-- Clenshaw's recurrence keeps the sum. -/
theorem legTurn_sum (x : ℝ) : ∀ (cs : List ℝ) (c0 c1 : ℝ), (legTurn x cs c0 c1).1 + (legTurn x cs c0 c1).2 * x =
    (series 0 cs.reverse).eval x + c0 * (P cs.length).eval x + c1 * (P (cs.length + 1)).eval x
  | [], c0, c1 => by simp [legTurn, series, P]
  | c :: cs, c0, c1 => by
    rw [legTurn, legTurn_sum x cs, List.reverse_cons, series_append, List.length_reverse, List.length_cons, series, series]
    have hb := bonnet_eval cs.length x
    have hn : (cs.length + 2 : ℝ) ≠ 0 := by positivity
    have hP : (P (cs.length + 1 + 1)).eval x = ((2 * cs.length + 3) * x * (P (cs.length + 1)).eval x - (cs.length + 1) * (P cs.length).eval x) / (cs.length + 2) := by
      rw [eq_div_iff hn, mul_comm]
      exact hb
    rw [hP]
    simp only [eval_add, eval_mul, eval_C, eval_zero, add_zero, zero_add]
    field_simp
    ring

theorem legval_series (c : List ℝ) (x : ℝ) : legval c x = (series 0 c).eval x := by
  have hr : c = c.reverse.reverse := by simp
  rw [legval]
  generalize c.reverse = r at hr ⊢
  subst hr
  match r with
  | [] => simp [series]
  | [c0] => simp [series, P]
  | c1 :: c0 :: cs =>
    simp only [List.reverse_cons, List.append_assoc]
    rw [legTurn_sum, series_append]
    simp [series]
    ring

theorem scaled_get : ∀ (a : List ℝ) (l k : Nat), (scaled l a)[k]? = (a[k]?).map fun v => (2 * ((l + k : Nat) : ℝ) + 1) / 2 * v
  | [], _, _ => by simp [scaled]
  | a :: as, l, 0 => by simp [scaled]
  | a :: as, l, k + 1 => by
    rw [scaled, List.getElem?_cons_succ, scaled_get as (l + 1) k, List.getElem?_cons_succ, show l + 1 + k = l + (k + 1) by omega]

theorem series_sum (x : ℝ) : ∀ (a : List ℝ) (l : Nat), (series l (scaled l a)).eval x = ∑ i ∈ Finset.range a.length, (2 * ((l + i : Nat) : ℝ) + 1) / 2 * a.getD i 0 * (P (l + i)).eval x
  | [], l => by simp [scaled, series]
  | a :: as, l => by
    rw [scaled, series, eval_add, series_sum x as (l + 1), List.length_cons, Finset.sum_range_succ']
    simp only [eval_mul, eval_C, List.getD_cons_succ, List.getD_cons_zero, Nat.add_zero]
    rw [add_comm]
    congr 1
    refine Finset.sum_congr rfl fun i _ => ?_
    rw [show l + 1 + i = l + (i + 1) by omega]

/-! ### C214 -/

/-- C214: a `Legendre` has the value Σ (2 l + 1) / 2 a_l P_l(μ). -/
theorem C214_value {a f : List ℝ} (h : mkLegendre a = .ok f) (μ : ℝ) : legval f μ = ∑ l ∈ Finset.range a.length, (2 * (l : ℝ) + 1) / 2 * a.getD l 0 * (P l).eval μ := by
  rw [mkLegendre] at h
  split_ifs at h
  cases h
  rw [legval_series, series_sum]
  simp

/-- C214: any coefficients but none at all are accepted. -/
theorem C214_accepted {a : List ℝ} : (∃ f, mkLegendre a = .ok f) ↔ a ≠ [] := by
  rw [mkLegendre]
  split_ifs with h <;> simp [h]

/-- C214: no coefficients: numpy raises. -/
theorem C214_empty : mkLegendre [] = .error .valueError := by simp [mkLegendre]

theorem unscaled_scaled : ∀ (a : List ℝ) (l : Nat), unscaled l (scaled l a) = a
  | [], _ => rfl
  | a :: as, l => by
    rw [scaled, unscaled, unscaled_scaled as (l + 1)]
    congr 1
    have : (2 * (l : ℝ) + 1) ≠ 0 := by positivity
    field_simp

/-- C214: `coefficients` gives back what was assigned. -/
theorem C214_coefficients {a f : List ℝ} (h : mkLegendre a = .ok f) : unscaled 0 f = a := by
  rw [mkLegendre] at h
  split_ifs at h
  cases h
  exact unscaled_scaled a 0

/-- C214: the moments of the density over [-1, 1] are the coefficients, and 0 beyond them. -/
theorem C214_moments {a f : List ℝ} (h : mkLegendre a = .ok f) (k : Nat) : ∫ μ in (-1 : ℝ)..1, legval f μ * (P k).eval μ = a.getD k 0 := by
  rw [mkLegendre] at h
  split_ifs at h
  cases h
  have := moments k (scaled 0 a) 0
  rw [I] at this
  simp only [legval_series, ← eval_mul]
  rw [this, if_pos (Nat.zero_le k), Nat.sub_zero, scaled_get, Nat.zero_add, List.getD_eq_getElem?_getD]
  cases a[k]? with
  | none => simp
  | some v =>
    have : (2 * (k : ℝ) + 1) ≠ 0 := by positivity
    simp only [Option.map_some, Option.getD_some]
    field_simp

/-- C214: the integral over [-1, 1] is the zeroth coefficient. -/
theorem C214_integral {a f : List ℝ} (h : mkLegendre a = .ok f) : ∫ μ in (-1 : ℝ)..1, legval f μ = a.getD 0 0 := by
  have := C214_moments h 0
  simpa [P] using this

/-- C214: expansions with the same values on [-1, 1] have the same coefficients, up to zeros at the end. -/
theorem C214_unique {a b f g : List ℝ} (hf : mkLegendre a = .ok f) (hg : mkLegendre b = .ok g) (h : ∀ μ ∈ Set.Icc (-1 : ℝ) 1, legval f μ = legval g μ) (k : Nat) : a.getD k 0 = b.getD k 0 := by
  rw [← C214_moments hf k, ← C214_moments hg k]
  refine intervalIntegral.integral_congr fun μ hμ => ?_
  rw [Set.uIcc_of_le (by norm_num)] at hμ
  simp only [h μ hμ]

/-- What P is: it has degree n, is 1 at 1 and orthogonal to those before it; these three settle it. -/
theorem C214_polynomials (n : Nat) : (P n).natDegree = n ∧ (P n).eval 1 = 1 ∧ ∀ m, m ≠ n → ∫ μ in (-1 : ℝ)..1, (P m).eval μ * (P n).eval μ = 0 := by
  refine ⟨?_, (P_one n).1, fun m hm => ?_⟩
  · have hdeg : ∀ n, (P n).degree = n ∧ (P (n + 1)).degree = ((n + 1 : Nat) : WithBot Nat) := by
      intro n
      induction n with
      | zero => simp [P]
      | succ n ih =>
        refine ⟨ih.2, ?_⟩
        have h1 : (C (2 * n + 3 : ℝ) * X * P (n + 1)).degree = ((n + 2 : Nat) : WithBot Nat) := by
          rw [degree_mul, degree_mul, degree_C (by positivity), degree_X, ih.2]
          push_cast
          ring
        have h2 : (C (n + 1 : ℝ) * P n).degree = (n : WithBot Nat) := by rw [degree_mul, degree_C (by positivity), ih.1, zero_add]
        rw [P, degree_mul, degree_C (by positivity), zero_add, degree_sub_eq_left_of_degree_lt, h1]
        rw [h1, h2]
        exact_mod_cast (by omega : n < n + 2)
    exact natDegree_eq_of_degree_eq_some (hdeg n).1
  · have := orthogonal hm
    rw [I] at this
    simpa using this

example : ∃ f, mkLegendre [1, 1 / 2, 1 / 4] = .ok f ∧ legval f 1 = 1 / 2 + 3 / 4 + 5 / 8 ∧ (∫ μ in (-1 : ℝ)..1, legval f μ) = 1 ∧ (∫ μ in (-1 : ℝ)..1, legval f μ * (P 2).eval μ) = 1 / 4 ∧
    (∫ μ in (-1 : ℝ)..1, legval f μ * (P 7).eval μ) = 0 := by
  obtain ⟨f, hf⟩ := C214_accepted.2 (show ([1, 1 / 2, 1 / 4] : List ℝ) ≠ [] by simp)
  refine ⟨f, hf, ?_, by rw [C214_integral hf]; rfl, by rw [C214_moments hf]; rfl, by rw [C214_moments hf]; rfl⟩
  rw [C214_value hf]
  simp only [(P_one _).1, List.length_cons, List.length_nil, Finset.sum_range_succ, Finset.sum_range_zero, List.getD_cons_zero, List.getD_cons_succ]
  norm_num

/-! ### C215: distributions read from an evaluation -/

/-- The coefficients handed to `Legendre`. -/
def reals (c : List ℚ) : List ℝ := c.map (fun v : ℚ => (v : ℝ))

theorem reals_getD (c : List ℚ) (k : Nat) : (reals c).getD k 0 = ((c.getD k 0 : ℚ) : ℝ) := by
  rw [reals, List.getD_eq_getElem?_getD, List.getElem?_map, List.getD_eq_getElem?_getD]
  cases c[k]? <;> simp

theorem reals_ok {c : List ℚ} (h : c ≠ []) : ∃ f, mkLegendre (reals c) = .ok f := C214_accepted.2 (by simpa [reals] using h)

open ASAPy.Endf ASAPy.EndfRx
open ASAPy.Decay (ListRec)

theorem announced_legendre {c : Cont} {regions : List (Int × Int)} {xs : List (ℚ × Mu)} {ls : List Line} (h : Announced LegendreAt c regions xs ls) :
    ∀ x ∈ xs, ∃ (c' : Cont) (a : List ℚ) (r : List Line), ListRec c' a r ∧ r <:+: ls ∧ x.2 = .legendre (1 :: a) := by
  obtain ⟨a, bs, rfl, -, -, hf⟩ := h
  intro x hx
  have key : ∀ {xs : List (ℚ × Mu)} {bs : List (List Line)}, List.Forall₂ LegendreAt xs bs → x ∈ xs → ∃ b ∈ bs, LegendreAt x b := by
    intro xs bs hf
    induction hf with
    | nil => simp
    | cons h _ ih =>
      intro hx
      rcases List.mem_cons.1 hx with rfl | hx
      · exact ⟨_, List.mem_cons_self, h⟩
      · obtain ⟨b, hb, h⟩ := ih hx
        exact ⟨b, List.mem_cons_of_mem _ hb, h⟩
  obtain ⟨b, hb, c', v, hl, -, e⟩ := key hf hx
  exact ⟨c', v, b, hl, (List.infix_of_mem_flatten hb).trans (List.suffix_append _ _).isInfix, e⟩

/-- C215: every Legendre expansion read from a section of file 4 integrates to 1 over [-1, 1], and its moments from the first on are the numbers of a record of the section. -/
theorem C215_angles_partial {energyMax : ℚ} {xs : List (ℚ × Mu)} {lct : Int} {ls : List Line} (h : AngleSection energyMax xs lct ls) :
    ∃ d, angleFromEndf energyMax ls = .ok d ∧ ∀ c, Mu.legendre c ∈ d.mu → ∃ f, mkLegendre (reals c) = .ok f ∧ (∫ μ in (-1 : ℝ)..1, legval f μ) = 1 ∧
      ∃ (c' : Cont) (a : List ℚ) (r : List Line), ListRec c' a r ∧ r <:+: ls ∧ ∀ k, (∫ μ in (-1 : ℝ)..1, legval f μ * (P (k + 1)).eval μ) = ((a.getD k 0 : ℚ) : ℝ) := by
  refine ⟨_, C155_angles_partial h, fun c hc => ?_⟩
  obtain ⟨x, hx, e⟩ := List.mem_map.1 hc
  obtain ⟨h, co, l, l', m, body, rest, rfl, -, -, -, -, hb⟩ := h
  have key : ∃ (c' : Cont) (a : List ℚ) (r : List Line), ListRec c' a r ∧ r <:+: body ∧ x.2 = .legendre (1 :: a) := by
    generalize h.l2 = ltt at hb
    generalize co.l1 = li at hb
    have tab : ∀ {c : Cont} {regions : List (Int × Int)} {xs : List (ℚ × Mu)} {ls : List Line}, Announced TabularAt c regions xs ls → x ∉ xs := by
      rintro c1 regions xs1 ls1 ⟨a, bs, -, -, -, hf⟩ hx
      induction hf with
      | nil => simp at hx
      | cons h _ ih =>
        rcases List.mem_cons.1 hx with rfl | hx
        · obtain ⟨_, _, _, _, _, _, _, _, _, e'⟩ := h
          rw [e'] at e
          cases e
        · exact ih hx
    cases hb with
    | isotropic => rcases List.mem_cons.1 hx with rfl | hx <;> simp_all
    | legendre hx' => exact announced_legendre hx' x hx
    | tabular hx' => exact absurd hx (tab hx')
    | both hx' hx'' =>
      rcases List.mem_append.1 hx with hx | hx
      · obtain ⟨c', a, r, h1, h2, h3⟩ := announced_legendre hx' x hx
        exact ⟨c', a, r, h1, h2.trans (List.prefix_append _ _).isInfix, h3⟩
      · exact absurd hx (tab hx'')
  obtain ⟨c', a, r, h1, h2, h3⟩ := key
  rw [h3] at e
  cases e
  obtain ⟨f, hf⟩ := reals_ok (List.cons_ne_nil 1 a)
  refine ⟨f, hf, ?_, c', a, r, h1, ?_, fun k => ?_⟩
  · rw [C214_integral hf, reals_getD]
    simp
  · obtain ⟨s, t, e⟩ := h2
    exact ⟨l :: l' :: (m ++ s), t ++ rest, by simp [← e]⟩
  · rw [C214_moments hf, reals_getD, List.getD_cons_succ]

/-- C215, what does not hold: the two-body law of file 6 (LAW 2) gives expansions that integrate to the first number of the file, not to 1, and whose first moment is the second number. -/
theorem C215_two_body_refuted {c : Cont} {regions : List (Int × Int)} {xs : List (ℚ × List ℚ)} {ls : List Line} (hx : xs ≠ [])
    (h : Announced (fun (x : ℚ × List ℚ) ls => ∃ c', ListRec c' x.2 ls ∧ c'.l1 = 0 ∧ x.1 = c'.c2 ∧ x.2 ≠ []) c regions xs ls) (rest : List Line) :
    ∃ d, rdLaw 2 (ls ++ rest) = .ok ([.uncorrelated (some d) none], rest) ∧ d.energy = xs.map (·.1) ∧ d.mu.length = xs.length ∧
      ∀ (i : Nat) (c : List ℚ), d.mu[i]? = some (.legendre c) → ∃ (f : List ℝ) (x : ℚ × List ℚ), xs[i]? = some x ∧ mkLegendre (reals c) = .ok f ∧ (∫ μ in (-1 : ℝ)..1, legval f μ) = ((x.2.getD 0 0 : ℚ) : ℝ) ∧
        (∫ μ in (-1 : ℝ)..1, legval f μ * (P 1).eval μ) = ((x.2.getD 1 0 : ℚ) : ℝ) := by
  refine ⟨_, (C157_legendre_refuted hx h rest).1, rfl, by simp, fun i c hc => ?_⟩
  simp only [List.getElem?_map, Option.map_eq_some_iff] at hc
  obtain ⟨x, hxi, e⟩ := hc
  cases e
  obtain ⟨a, bs, -, -, -, hf⟩ := h
  have hne : x.2 ≠ [] := by
    have hm := List.mem_of_getElem? hxi
    clear hxi hx
    induction hf with
    | nil => simp at hm
    | cons h _ ih =>
      rcases List.mem_cons.1 hm with rfl | hm
      · exact h.choose_spec.2.2.2
      · exact ih hm
  obtain ⟨f, hf⟩ := reals_ok hne
  exact ⟨f, x, hxi, hf, by rw [C214_integral hf, reals_getD], by rw [C214_moments hf, reals_getD]⟩

/-- C215, what does not hold: for LAW 1 with Legendre coefficients the expansion at an outgoing energy integrates to the probability of that energy, which the distribution of outgoing energies has as
well: density times expansion counts it twice. -/
theorem C215_correlated_refuted {lep : Nat} (h1 : 1 ≤ lep) (h5 : lep ≤ 5) {x : ℚ × EOut × List Mu} {ls : List Line} (h : CorrelatedAt lep x ls) (rest : List Line) :
    rdCorrelated lep (ls ++ rest) = .ok (x, rest) ∧ x.2.1.p.length = x.2.2.length ∧ ∀ (i : Nat) (p : ℚ) (m : Mu), x.2.1.p[i]? = some p → x.2.2[i]? = some m → ∃ c f, m = .legendre c ∧
      mkLegendre (reals c) = .ok f ∧ (∫ μ in (-1 : ℝ)..1, legval f μ) = (p : ℝ) ∧ (∫ μ in (-1 : ℝ)..1, (p : ℝ) * legval f μ) = (p : ℝ) ^ 2 := by
  refine ⟨rdCorrelated_rec h1 h5 x ls h rest, ?_⟩
  obtain ⟨c, na, rows, -, -, -, -, -, e2, e3⟩ := h
  rw [e2, e3]
  refine ⟨by simp, fun i p m hp hm => ?_⟩
  simp only [List.getElem?_map, Option.map_eq_some_iff] at hp hm
  obtain ⟨r, hr, rfl⟩ := hp
  obtain ⟨r', hr', rfl⟩ := hm
  rw [hr] at hr'
  cases hr'
  obtain ⟨f, hf⟩ := reals_ok (List.cons_ne_nil r.2.1 r.2.2)
  have hi : (∫ μ in (-1 : ℝ)..1, legval f μ) = (r.2.1 : ℝ) := by rw [C214_integral hf, reals_getD, List.getD_cons_zero]
  exact ⟨_, f, rfl, hf, hi, by rw [intervalIntegral.integral_const_mul, hi, sq]⟩

/-- A section with expansions and tables. -/
example : ∃ d, angleFromEndf 20000000 exAngleSection = .ok d ∧ ∀ c, Mu.legendre c ∈ d.mu → ∃ f, mkLegendre (reals c) = .ok f ∧ (∫ μ in (-1 : ℝ)..1, legval f μ) = 1 := by
  obtain ⟨d, hd, h⟩ := C215_angles_partial (exAngleSection_ok 20000000)
  refine ⟨d, hd, fun c hc => ?_⟩
  obtain ⟨f, h1, h2, -⟩ := h c hc
  exact ⟨f, h1, h2⟩

/-- Two-body scattering with the coefficients 1/4 and 1/8: the expansion integrates to 1/4. -/
example (rest : List Line) : ∃ d f, rdLaw 2 ((exPLeg ++ [exPLeg0].flatten) ++ rest) = .ok ([.uncorrelated (some d) none], rest) ∧ d.mu = [.legendre [1 / 4, 1 / 8]] ∧
    mkLegendre (reals [1 / 4, 1 / 8]) = .ok f ∧ (∫ μ in (-1 : ℝ)..1, legval f μ) = 1 / 4 := by
  have ha : Announced (fun (x : ℚ × List ℚ) ls => ∃ c', ListRec c' x.2 ls ∧ c'.l1 = 0 ∧ x.1 = c'.c2 ∧ x.2 ≠ []) ⟨0, 0, 0, 0, 1, 1⟩ [(1, 2)] [(1000000, [1 / 4, 1 / 8])] (exPLeg ++ [exPLeg0].flatten) :=
    ⟨exPLeg, [exPLeg0], rfl, tab2_of (by decide +kernel), rfl, .cons ⟨⟨0, 1000000, 0, 0, 2, 2⟩, ASAPy.Decay.listRec_of (by decide +kernel), rfl, rfl, by simp⟩ .nil⟩
  obtain ⟨d, hd, -, -, h⟩ := C215_two_body_refuted (by simp) ha rest
  have hd' := hd
  rw [(C157_legendre_refuted (by simp) ha rest).1] at hd'
  cases hd'
  obtain ⟨f, x, hx, hf, hi, -⟩ := h 0 [1 / 4, 1 / 8] rfl
  cases hx
  exact ⟨_, f, hd, rfl, hf, by rw [hi]; norm_num⟩

/-- Outgoing energies with the probabilities 1/2 and 1/8. -/
example : ∃ c f, mkLegendre (reals c) = .ok f ∧ (Mu.legendre [1 / 2, 1 / 4] : Mu) = .legendre c ∧ (∫ μ in (-1 : ℝ)..1, legval f μ) = ((1 / 2 : ℚ) : ℝ) := by
  obtain ⟨-, -, h⟩ := C215_correlated_refuted (lep := 2) (by decide) (by decide) (x := (1000000, ⟨2, [0, 2], [1 / 2, 1 / 8]⟩, [.legendre [1 / 2, 1 / 4], .legendre [1 / 8, -1 / 16]])) (ls := exP1a)
    ⟨⟨0, 1000000, 0, 1, 6, 2⟩, 1, [(0, 1 / 2, [1 / 4]), (2, 1 / 8, [-1 / 16])], ASAPy.Decay.listRec_of (by decide +kernel), rfl, rfl, by simp, rfl, rfl, rfl⟩ []
  obtain ⟨c, f, h1, h2, h3, -⟩ := h 0 (1 / 2) (.legendre [1 / 2, 1 / 4]) rfl rfl
  exact ⟨c, f, h2, h1, h3⟩

end ASAPy.Uni
