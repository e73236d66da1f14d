import Verif.Dists.DelayedProps
import Verif.Func.Props

/-! # C112 and C113: nu, and the neutrons of the other reactions -/

set_option linter.unusedSimpArgs false
set_option linter.unusedSectionVars false

namespace ASAPy.Dists
open ASAPy.FromAce ASAPy.Func

section
variable {K : Type} [Field K] [LinearOrder K] [FloorRing K] [IsStrictOrderedRing K] [ExpLog K]

theorem polyEv_eval (c : List K) (E : K) : polyEval (polyEv c) (1000000 * E) = ∑ k ∈ Finset.range c.length, c.getD k 0 * E ^ k := by
  have h : polyEv c = (List.range c.length).map fun k => c.getD k 0 * ((1000000 : K) ^ k)⁻¹ := by
    unfold polyEv
    apply List.ext_getElem
    · simp
    · intro k h1 h2
      have hk : k < c.length := by simpa using h1
      simp [List.getElem?_eq_getElem hk]
  rw [h, polyEval_range]
  apply Finset.sum_congr rfl
  intro k _
  rw [mul_pow]
  have : ((1000000 : K) ^ k) ≠ 0 := pow_ne_zero _ (by norm_num)
  field_simp

theorem nuFn_at {a : Arrays K} {p : Nat} {nu : Nu K} (h : AtL a.xss p nu.numbers) (hg : nu.Good) (q : Int) (hq : q = p) : ∃ f, nuFn a q = .ok f ∧ nu.Is f := by
  subst hq
  cases nu with
  | polynomial c =>
    refine ⟨.poly (polyEv c), ?_, fun E => ?_⟩
    · unfold nuFn
      have h0 := at_int h 0 (n := 1) (by simp [Nu.numbers]) p (by simp)
      have h1 := at_nat h 1 (n := c.length) (by simp [Nu.numbers]) (p + 1) (by simp)
      have hc : AtL a.xss (p + 2) c := at_cons (at_cons h)
      simp only [bind, Except.bind, h0, h1, if_true, pure, Except.pure]
      rw [slice_at hc _ _ (by push_cast; ring) (by push_cast; ring), if_neg hg]
    · simp only [Fn.eval, polyEv_eval]
  | table t =>
    refine ⟨.tab (tabEv t), ?_, rfl⟩
    unfold nuFn
    have h0 := at_int h 0 (n := 2) (by simp [Nu.numbers]) p (by simp)
    have ht : AtL a.xss (p + 1) t.numbers := at_cons h
    simp only [bind, Except.bind, h0, if_true, pure, Except.pure]
    rw [if_neg (by decide), tab1_at ht hg _ (by push_cast; rfl)]

theorem item_some {α : Type} {l : List α} {k : Nat} {v : α} (h : l[k]? = some v) (q : Int) (hq : q = k) : item l q = .ok v := by
  subst hq; exact item_nat l k v h

theorem nus_one {a : Arrays K} {nu : Nu K} {j : Nat} (h : AtL a.xss j nu.numbers) (hg : nu.Good) (j24 : Int) :
    ∃ f, nu.Is f ∧ nus a j j24 = .ok ([⟨if j24 > 0 then .prompt else .total, 0, f, [], []⟩], []) := by
  obtain ⟨f, hf, his⟩ := nuFn_at h hg j rfl
  refine ⟨f, his, ?_⟩
  have : ∃ v : K, 0 < v ∧ item a.xss (j : Int) = .ok v := by
    cases nu with
    | polynomial c => exact ⟨1, one_pos, at_item h 0 rfl _ (by simp)⟩
    | table t => exact ⟨2, two_pos, at_item h 0 rfl _ (by simp)⟩
  obtain ⟨v, hv, hi⟩ := this
  unfold nus
  simp only [bind, Except.bind, hi, gt_iff_lt, hv, if_true, hf, pure, Except.pure, newNeutron]

/-- **C112.** Without delayed neutrons, one nu is that of all neutrons. -/
theorem C112_total {a : Arrays K} {nu : Nu K} (h : OneNu a nu) (awr : K) {j24 : Int} (h24 : a.jxs[24]? = some j24) (hno : j24 ≤ 0) :
    ∃ f, nu.Is f ∧ fission a awr = .ok ([⟨.total, 0, f, [], []⟩], []) := by
  obtain ⟨j, hj, hpos, hat, hg⟩ := h
  obtain ⟨f, his, hn⟩ := nus_one hat hg j24
  refine ⟨f, his, ?_⟩
  unfold fission
  simp only [bind, Except.bind, item_some hj 2 rfl, item_some h24 24 rfl, hn, pure, Except.pure]
  rw [if_neg (by omega), if_neg (by omega), if_neg (by omega)]

/-- **C112.** With delayed neutrons, one nu is that of the prompt ones. -/
theorem C112_prompt {a : Arrays K} {nu : Nu K} (h : OneNu a nu) {j24 : Int} (h24 : a.jxs[24]? = some j24) (hpos : 0 < j24) :
    ∃ f, nu.Is f ∧ NuBlock a ⟨.prompt, 0, f, [], []⟩ [] := by
  obtain ⟨j, hj, hj0, hat, hg⟩ := h
  obtain ⟨f, his, hn⟩ := nus_one hat hg j24
  refine ⟨f, his, j, j24, hj, by omega, h24, ?_⟩
  rw [hn, if_pos hpos]

/-- **C112.** Two nus are those of the prompt neutrons and of all neutrons, with or without delayed neutrons. -/
theorem C112_both {a : Arrays K} {prompt total : Nu K} (h : TwoNus a prompt total) (awr : K) {j24 : Int} (h24 : a.jxs[24]? = some j24) :
    ∃ f g, prompt.Is f ∧ total.Is g ∧ NuBlock a ⟨.prompt, 0, f, [], []⟩ [⟨.total, 0, g, [], []⟩] ∧
      (j24 ≤ 0 → fission a awr = .ok ([⟨.prompt, 0, f, [], []⟩], [⟨.total, 0, g, [], []⟩])) := by
  obtain ⟨j, hj, hj0, hat, hp, ht⟩ := h
  obtain ⟨h1, h2⟩ := at_append (at_cons hat)
  obtain ⟨f, hf, hfis⟩ := nuFn_at h1 hp ((j : Int) + 1) (by push_cast; rfl)
  obtain ⟨g, hg, hgis⟩ := nuFn_at h2 ht ((j : Int) + (prompt.numbers.length : Int) + 1) (by push_cast; ring)
  have hi : item a.xss (j : Int) = .ok (-(prompt.numbers.length : K)) := at_item hat 0 rfl _ (by simp)
  have hl : 0 < prompt.numbers.length := by cases prompt <;> simp [Nu.numbers]
  have hl' : (0 : K) < (prompt.numbers.length : K) := by exact_mod_cast hl
  have hn : nus a j j24 = .ok ([⟨.prompt, 0, f, [], []⟩], [⟨.total, 0, g, [], []⟩]) := by
    unfold nus
    simp only [bind, Except.bind, hi]
    rw [if_neg (by linarith), if_pos (by linarith), abs_neg, abs_of_pos hl', pyTrunc_nat, hf]
    simp only [hg, pure, Except.pure, newNeutron]
  refine ⟨f, g, hfis, hgis, ⟨j, j24, hj, by omega, h24, hn⟩, fun hno => ?_⟩
  unfold fission
  simp only [bind, Except.bind, item_some hj 2 rfl, item_some h24 24 rfl, hn, pure, Except.pure]
  rw [if_neg (by omega), if_neg (by omega)]

/-! ### Chains -/

theorem chain_at {a : Arrays K} {awr q : K} {block start : Nat} {ds : List (Tab K × Law K)} (h : ChainIn a awr q block start ds) :
    ∀ fuel, ds.length ≤ fuel → chain a awr q block fuel start = some (.ok (ds.map fun d => (tabEv d.1, d.2))) := by
  induction h with
  | stop => intro fuel _; cases fuel <;> simp [chain]
  | @link start next law loc p d rest pos here fits read more ih =>
    intro fuel hf
    cases fuel with
    | zero => simp at hf
    | succ fuel =>
      obtain ⟨h1, h2⟩ := at_append here
      have ht := tab1_at h2 fits ((block : Int) + start + 2) (by simp only [List.length_cons, List.length_nil]; omega)
      have hn := at_nat h1 0 (n := next) rfl ((block : Int) + start - 1) (by omega)
      unfold chain
      rw [if_pos (by exact_mod_cast pos)]
      simp only [ht, read, hn, ih fuel (by simpa using hf), Option.map_some, Except.map, List.map_cons]

/-- **C113.** Where the chain of distributions runs in a ring, reading it never ends. -/
theorem C113_ring {a : Arrays K} {awr q : K} {block : Nat} {S : Nat → Prop} (h : Ring a awr q block S) : ∀ (fuel start : Nat), S start → chain a awr q block fuel start = none := by
  intro fuel
  induction fuel with
  | zero =>
    intro start hs
    obtain ⟨pos, -⟩ := h start hs
    unfold chain
    rw [if_pos (by exact_mod_cast pos)]
  | succ fuel ih =>
    intro start hs
    obtain ⟨pos, next, law, loc, p, d, here, fits, read, hnext⟩ := h start hs
    obtain ⟨h1, h2⟩ := at_append here
    have ht := tab1_at h2 fits ((block : Int) + start + 2) (by simp only [List.length_cons, List.length_nil]; omega)
    have hn := at_nat h1 0 (n := next) rfl ((block : Int) + start - 1) (by omega)
    unfold chain
    rw [if_pos (by exact_mod_cast pos)]
    simp only [ht, read, hn, ih next hnext, Option.map_none]

theorem multiplicity_at {a : Arrays K} {ty : Int} {dlw : Nat} (h : |ty| ≤ 100 ∨ ∃ t : Tab K, AtL a.xss (dlw + (|ty| - 101).toNat) t.numbers ∧ Fits t) :
    ∃ f, multiplicity a ty dlw = .ok f ∧ YieldIs a ty dlw f := by
  by_cases hty : |ty| ≤ 100
  · refine ⟨.poly [((|ty| : Int) : K)], ?_, Or.inl ⟨hty, fun E => ?_⟩⟩
    · unfold multiplicity; rw [if_neg (by omega)]
    · simp [Fn.eval, polyEval]
  · obtain ⟨t, ht, hf⟩ := h.resolve_left hty
    refine ⟨.tab (tabEv t), ?_, Or.inr ⟨t, by omega, ht, hf, rfl⟩⟩
    unfold multiplicity
    rw [if_pos (by omega), tab1_at ht hf _ (by push_cast; omega)]
    rfl

theorem angleOf_at {a : Arrays K} {i : Nat} {loc : Int} {j : Nat} {ls : List Int} (hj : a.jxs[8]? = some (j : Int)) (hat : AtL a.xss j (ls.map fun t : Int => (t : K)))
    (hl : ls[i]? = some loc) : (loc ≤ 0 → angleOf a i = .ok none) ∧
      ∀ {land : Int} {ang : Angle K}, 0 < loc → a.jxs[9]? = some land → angleDist a land loc = .ok ang → angleOf a i = .ok (some ang) := by
  have hi := at_int hat i (n := loc) (by rw [List.getElem?_map, hl]; rfl) ((j : Int) + i) rfl
  constructor
  · intro h
    unfold angleOf
    simp only [bind, Except.bind, item_some hj 8 rfl, hi, if_pos h, pure, Except.pure]
  · intro land ang h h9 hang
    unfold angleOf
    simp only [bind, Except.bind, item_some hj 8 rfl, hi, if_neg (not_le.mpr h), item_some h9 9 rfl, hang, pure, Except.pure]

theorem products_other {a : Arrays K} {i : Nat} {ty : Int} {start : Nat} {loc : Int} {dlw : Nat} (h : HoldsNeutrons a i ty start loc dlw) (hty : ty ≠ 19) {f : Fn K}
    (hf : multiplicity a ty dlw = .ok f) (awr : K) (mt : Nat) :
    productsOf a awr mt i = .ok (decide (ty < 0), some ([⟨.prompt, 0, f, [], []⟩], [], (start : Int), (dlw : Int))) := by
  obtain ⟨⟨n, hn, hi1, hin⟩, ⟨j5, tys, h5, hat5, ht⟩, ⟨j10, ss, h10, hat10, hs⟩, -, h11⟩ := h
  have e5 := at_int hat5 (i - 1) (n := ty) (by rw [List.getElem?_map, ht]; rfl) ((j5 : Int) + i - 1) (by omega)
  have e10 := at_nat hat10 (i - 1) (n := start) (by rw [List.getElem?_map, hs]; rfl) ((j10 : Int) + i - 1) (by omega)
  unfold productsOf
  simp only [bind, Except.bind, item_some h5 5 rfl, e5, item_some hn 5 rfl, item_some h11 11 rfl, item_some h10 10 rfl, e10, hf, pure, Except.pure, newNeutron, if_pos hty, ne_eq,
    hty, not_false_eq_true, if_true]
  rw [if_pos (by omega)]

/-- **C113.** The neutrons of a reaction other than fission: the number, the frame, and all distributions of the chain in their order with the energies where they apply; without a
locator there is no angular distribution. -/
theorem C113_isotropic {a : Arrays K} {i : Nat} {ty : Int} {start : Nat} {loc : Int} {dlw : Nat} (h : HoldsNeutrons a i ty start loc dlw) (hty : ty ≠ 19) (hloc : loc ≤ 0)
    (hy : |ty| ≤ 100 ∨ ∃ t : Tab K, AtL a.xss (dlw + (|ty| - 101).toNat) t.numbers ∧ Fits t) {awr q : K} {ds : List (Tab K × Law K)} (hc : ChainIn a awr q dlw start ds) (mt : Nat) :
    ∃ f, YieldIs a ty dlw f ∧ ∀ fuel, ds.length ≤ fuel →
      neutronsOf a awr q mt fuel i = some (.ok ⟨decide (ty < 0), [⟨.prompt, 0, f, ds.map fun d => tabEv d.1, ds.map (·.2)⟩], [], none⟩) := by
  obtain ⟨f, hf, hyf⟩ := multiplicity_at hy
  refine ⟨f, hyf, fun fuel hfuel => ?_⟩
  obtain ⟨j8, ls, h8, hat8, hl⟩ := h.cosines
  unfold neutronsOf
  rw [products_other h hty hf awr mt]
  simp only [chain_at hc fuel hfuel, (angleOf_at h8 hat8 hl).1 hloc, Except.map, fill, List.map_map, List.nil_append, reduceCtorEq, if_false]
  rfl

/-- **C113.** With a locator the angular distribution is that of the file (C108). -/
theorem C113_angles {a : Arrays K} {i : Nat} {ty : Int} {start : Nat} {loc : Nat} {dlw land : Nat} (h : HoldsNeutrons a i ty start loc dlw) (hty : ty ≠ 19) (hloc : 0 < loc)
    (h9 : a.jxs[9]? = some (land : Int)) {energies : List K} {cs : List (Cosines K)} (hlen : cs.length = energies.length) (hin : ∀ c ∈ cs, c.In a.xss land)
    (hat : AtL a.xss (land + loc - 1) ([(energies.length : K)] ++ energies ++ cs.map Cosines.locator))
    (hy : |ty| ≤ 100 ∨ ∃ t : Tab K, AtL a.xss (dlw + (|ty| - 101).toNat) t.numbers ∧ Fits t) {awr q : K} {ds : List (Tab K × Law K)} (hc : ChainIn a awr q dlw start ds) (mt : Nat) :
    ∃ f ang, YieldIs a ty dlw f ∧ ang.energy = energies.map (1000000 * ·) ∧ List.Forall₂ Cosines.Means cs ang.mu ∧ ∀ fuel, ds.length ≤ fuel →
      neutronsOf a awr q mt fuel i = some (.ok ⟨decide (ty < 0), [⟨.prompt, 0, f, ds.map fun d => tabEv d.1, ds.map (·.2)⟩], [], some ang⟩) := by
  obtain ⟨f, hf, hyf⟩ := multiplicity_at hy
  obtain ⟨ang, hang, h1, h2⟩ := C108_angles hloc hlen hin hat
  refine ⟨f, ang, hyf, h1, h2, fun fuel hfuel => ?_⟩
  obtain ⟨j8, ls, h8, hat8, hl⟩ := h.cosines
  unfold neutronsOf
  rw [products_other h hty hf awr mt]
  simp only [chain_at hc fuel hfuel, (angleOf_at h8 hat8 hl).2 (by exact_mod_cast hloc) h9 hang, Except.map, fill, List.map_map, List.nil_append, reduceCtorEq, if_false]
  rfl

/-- **C113.** In fission the chain belongs to the prompt neutrons, or to all neutrons if they are not separated; the delayed groups keep their own spectra. -/
theorem C113_fission {a : Arrays K} {i : Nat} {start : Nat} {loc : Int} {dlw : Nat} (h : HoldsNeutrons a i 19 start loc dlw) (hloc : loc ≤ 0) {mt : Nat}
    (hmt : mt = 18 ∨ mt = 19 ∨ mt = 20 ∨ mt = 21 ∨ mt = 38) {awr q : K} {m : Mode} {f : Fn K} {ps derived : List (Neutron K)} (hm : m ≠ .delayed)
    (hfis : fission a awr = .ok (⟨m, 0, f, [], []⟩ :: ps, derived)) {ds : List (Tab K × Law K)} (hc : ChainIn a awr q dlw start ds) : ∀ fuel, ds.length ≤ fuel →
      neutronsOf a awr q mt fuel i = some (.ok ⟨false, ⟨m, 0, f, ds.map fun d => tabEv d.1, ds.map (·.2)⟩ :: ps, derived, none⟩) := by
  intro fuel hfuel
  obtain ⟨j8, ls, h8, hat8, hl⟩ := h.cosines
  obtain ⟨⟨n, hn, hi1, hin⟩, ⟨j5, tys, h5, hat5, ht⟩, ⟨j10, ss, h10, hat10, hs⟩, -, h11⟩ := h
  have e5 := at_int hat5 (i - 1) (n := 19) (by rw [List.getElem?_map, ht]; rfl) ((j5 : Int) + i - 1) (by omega)
  have e10 := at_nat hat10 (i - 1) (n := start) (by rw [List.getElem?_map, hs]; rfl) ((j10 : Int) + i - 1) (by omega)
  have hmem : mt ∈ [18, 19, 20, 21, 38] := by simp; omega
  have hp : productsOf a awr mt i = .ok (false, some (⟨m, 0, f, [], []⟩ :: ps, derived, (start : Int), (dlw : Int))) := by
    unfold productsOf
    simp only [bind, Except.bind, item_some h5 5 rfl, e5, item_some hn 5 rfl, item_some h11 11 rfl, item_some h10 10 rfl, e10, pure, Except.pure, ne_eq, not_true_eq_false, if_false,
      hmem, hfis, List.all_cons, hm, decide_false, Bool.false_and, Bool.false_eq_true]
    rw [if_pos (by omega)]
    rfl
  unfold neutronsOf
  rw [hp]
  simp only [chain_at hc fuel hfuel, (angleOf_at h8 hat8 hl).1 hloc, Except.map, fill, List.map_map, List.nil_append, hm, if_false]
  rfl

end

namespace Example

local instance : ExpLog ℚ := ⟨id, id⟩

/-- Nu is 2.4 + 0.1 E. There are three reactions: two neutrons in the centre-of-mass system with a chain of two distributions, fission with the second of these, and one with a distribution that
leads to itself. Nu is at 1-4, the types at 5-7, the angular distributions at 8-11, the places of the chains at 12-14, and the distributions from 15 on. -/
def arrays : Arrays ℚ where
  nxs := [0, 0, 0, 0, 0, 3]
  jxs := [0, 0, 1, 0, 0, 5, 0, 0, 8, 0, 12, 15] ++ List.replicate 13 0
  xss := [0] ++ [1, 2, 12 / 5, 1 / 10] ++ [-2, 19, -2] ++ [0, 0, 0, -1] ++ [1, 12, 21] ++ [12, 3, 10, 0, 2, 1, 20, 1, 1, 5 / 2, 1 / 2] ++ [0, 3, 10, 0, 2, 1, 20, 1, 1] ++
    [21, 3, 10, 0, 2, 1, 20, 1, 1]

/-- From 1 to 20 MeV. -/
def always : Tab ℚ := ⟨[], [], [1, 20], [1, 1]⟩

/-- The energy distribution. -/
def level : Law ℚ := .level 2500000 (1 / 2)

theorem chain_one : ChainIn arrays 1 0 15 12 [(always, level)] :=
  .link (law := 3) (loc := 10) (next := 0) (by decide) (at_of_take (by decide +kernel)) ⟨rfl, rfl⟩ (by decide +kernel) .stop

theorem chain_two : ChainIn arrays 1 0 15 1 [(always, level), (always, level)] :=
  .link (law := 3) (loc := 10) (next := 12) (by decide) (at_of_take (by decide +kernel)) ⟨rfl, rfl⟩ (by decide +kernel) chain_one

-- C112 at work.
example : ∃ f, (∀ E, Fn.eval f (1000000 * E) = .ok (12 / 5 + 1 / 10 * E)) ∧ fission arrays 1 = .ok ([⟨.total, 0, f, [], []⟩], []) := by
  obtain ⟨f, hf, h⟩ := C112_total (a := arrays) (nu := .polynomial [12 / 5, 1 / 10]) (j24 := 0) ⟨1, rfl, by decide, at_of_take (by decide +kernel), by simp [Nu.Good]⟩ 1 rfl le_rfl
  refine ⟨f, fun E => ?_, h⟩
  rw [hf E]
  simp [Finset.sum_range_succ]

-- C113 at work: two neutrons, two distributions.
example : ∃ f, (∀ E, Fn.eval f E = .ok 2) ∧ ∀ fuel, 2 ≤ fuel →
    neutronsOf arrays 1 0 16 fuel 1 = some (.ok ⟨true, [⟨.prompt, 0, f, [tabEv always, tabEv always], [level, level]⟩], [], none⟩) := by
  obtain ⟨f, hf, h⟩ := C113_isotropic (a := arrays) (i := 1) (ty := -2) (start := 1) (loc := 0) (dlw := 15)
    ⟨⟨3, rfl, by decide, by decide⟩, ⟨5, [-2, 19, -2], rfl, at_of_take (by decide +kernel), rfl⟩, ⟨12, [1, 12, 21], rfl, at_of_take (by decide +kernel), rfl⟩,
      ⟨8, [0, 0, 0, -1], rfl, at_of_take (by decide +kernel), rfl⟩, rfl⟩ (by decide) le_rfl (Or.inl (by decide)) chain_two 16
  refine ⟨f, fun E => ?_, h⟩
  rcases hf with ⟨-, hf⟩ | ⟨t, h100, -⟩
  · rw [hf E]; norm_num
  · exact absurd h100 (by decide)

-- The ring.
example : ∀ fuel, neutronsOf arrays 1 0 22 fuel 3 = none := by
  intro fuel
  have hr : Ring arrays 1 0 15 fun s => s = 21 := by
    rintro s rfl
    exact ⟨by decide, 21, 3, 10, always, level, at_of_take (by decide +kernel), ⟨rfl, rfl⟩, by decide +kernel, rfl⟩
  have h := C113_ring hr fuel 21 rfl
  have hp : productsOf arrays 1 22 3 = .ok (true, some ([⟨.prompt, 0, .poly [2], [], []⟩], [], 21, 15)) :=
    products_other (a := arrays) (i := 3) (ty := -2) (start := 21) (loc := -1) (dlw := 15)
      ⟨⟨3, rfl, by decide, by decide⟩, ⟨5, [-2, 19, -2], rfl, at_of_take (by decide +kernel), rfl⟩, ⟨12, [1, 12, 21], rfl, at_of_take (by decide +kernel), rfl⟩,
        ⟨8, [0, 0, 0, -1], rfl, at_of_take (by decide +kernel), rfl⟩, rfl⟩ (by decide) (by decide +kernel) 1 22
  unfold neutronsOf
  rw [hp]
  simp only
  have h' : chain arrays 1 0 15 fuel 21 = none := h
  rw [h']

end Example
end ASAPy.Dists
