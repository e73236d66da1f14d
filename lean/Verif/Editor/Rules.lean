import Verif.Editor.Lemmas

/-! Helper lemmas about the sum rules: facts about the rule table, closed form of one rule, invariants. -/

set_option linter.unusedSectionVars false
set_option linter.unusedSimpArgs false

namespace ASAPy.Ace

variable {K : Type*} [Field K] [LinearOrder K] [ExpLog K]

/-! ### The rule table -/

theorem mem_rule_iff {s : MT} {l : List MT} (h : (s, l) ∈ sumRules) (c : MT) : c ∈ l ↔ Part s c := by
  simp only [sumRules, List.mem_cons, Prod.mk.injEq, List.not_mem_nil, or_false] at h
  rcases h with ⟨rfl, rfl⟩ | ⟨rfl, rfl⟩ | ⟨rfl, rfl⟩ | ⟨rfl, rfl⟩ | ⟨rfl, rfl⟩ | ⟨rfl, rfl⟩ | ⟨rfl, rfl⟩ |
    ⟨rfl, rfl⟩ | ⟨rfl, rfl⟩ | ⟨rfl, rfl⟩ | ⟨rfl, rfl⟩ | ⟨rfl, rfl⟩ <;>
  · simp only [mt107, mt106, mt105, mt104, mt103, mt101, mt18, mt27, mt16, mt4, mt3, mt1, List.mem_range'_1,
      List.mem_append, List.mem_cons, List.not_mem_nil, or_false, Part, Nat.reduceEqDiff, OfNat.ofNat_eq_ofNat, OfNat.ofNat_ne_one, OfNat.one_ne_ofNat,
      true_and, false_and, true_or, or_true, false_or]
    try omega

theorem part_rule {s c : MT} (h : Part s c) : ∃ l, (s, l) ∈ sumRules ∧ c ∈ l := by
  have hs : s = 107 ∨ s = 106 ∨ s = 105 ∨ s = 104 ∨ s = 103 ∨ s = 101 ∨ s = 18 ∨ s = 27 ∨ s = 16 ∨ s = 4 ∨
      s = 3 ∨ s = 1 := by unfold Part at h; omega
  have : ∃ l, (s, l) ∈ sumRules := by
    rcases hs with rfl | rfl | rfl | rfl | rfl | rfl | rfl | rfl | rfl | rfl | rfl | rfl <;>
      simp [sumRules]
  obtain ⟨l, hl⟩ := this
  exact ⟨l, hl, (mem_rule_iff hl c).mpr h⟩

/-- No rule changes an MT that it or an earlier rule uses or sets. -/
def Ordered (rules : List (MT × List MT)) : Prop :=
  rules.Pairwise (fun r r' => r'.1 ∉ r.2 ∧ r'.1 ≠ r.1) ∧
  ∀ r ∈ rules, r.1 ∉ r.2 ∧ r.1 ≠ 452 ∧ r.1 ≠ 1018 ∧ 452 ∉ r.2 ∧ 1018 ∉ r.2

theorem sumRules_ordered : Ordered sumRules := by
  unfold Ordered; decide +kernel

theorem sumRules_fst : sumRules.map Prod.fst = [107, 106, 105, 104, 103, 101, 18, 27, 16, 4, 3, 1] := rfl

/-! ### Evaluation of lin-lin tables -/

theorem linlin_eval_total {x y : List K} (hx : x ≠ []) (hy : y.length = x.length) (v : K) :
    ∃ r, (Tab1D.linlin x y).eval v = .ok r := by
  have hpos : 0 < x.length := List.length_pos_iff.mpr hx
  have hreg : ∃ r, Tab1D.regions (Tab1D.linlin x y) v = .ok r := by
    unfold Tab1D.regions Tab1D.linlin
    simp only [List.length_singleton, List.range_one, List.foldlM_cons, List.foldlM_nil]
    unfold Tab1D.region
    simp only [if_true, List.getElem?_cons_zero]
    split_ifs with h
    · obtain ⟨h1, h2⟩ := h
      obtain ⟨i, hi⟩ := Int.eq_ofNat_of_zero_le h1
      rw [hi] at h2 ⊢
      have hi1 : ((i : Int) + 1) = ((i + 1 : Nat) : Int) := by push_cast; rfl
      rw [hi1]
      simp only [Int.ofNat_eq_natCast, Tab1D.pyGet_nat] at *
      rw [List.getElem?_eq_getElem (show i < x.length by omega),
        List.getElem?_eq_getElem (show i + 1 < x.length by omega),
        List.getElem?_eq_getElem (show i < y.length by omega),
        List.getElem?_eq_getElem (show i + 1 < y.length by omega)]
      exact ⟨_, rfl⟩
    · exact ⟨_, rfl⟩
  obtain ⟨r, hr⟩ := hreg
  unfold Tab1D.eval
  rw [hr]
  have hy0 : y ≠ [] := by intro h; rw [h] at hy; exact hx (List.length_eq_zero_iff.mp hy.symm)
  simp only [Tab1D.linlin, List.head?_eq_some_head hx, List.head?_eq_some_head hy0,
    List.getLast?_eq_some_getLast hx, List.getLast?_eq_some_getLast hy0, bind, Except.bind]
  exact ⟨_, rfl⟩

/-- The value of a table at a point (0 if the evaluation raises). -/
def val (t : Tab1D K) (e : K) : K := match t.eval e with | .ok v => v | .error _ => 0

theorem linlin_eval {x y : List K} (hx : x ≠ []) (hy : y.length = x.length) (v : K) :
    (Tab1D.linlin x y).eval v = .ok (val (Tab1D.linlin x y) v) := by
  obtain ⟨r, hr⟩ := linlin_eval_total hx hy v
  simp [val, hr]

theorem linlin_evals {x y : List K} (hx : x ≠ []) (hy : y.length = x.length) (es : List K) :
    (Tab1D.linlin x y).evals es = .ok (es.map (val (Tab1D.linlin x y))) := by
  unfold Tab1D.evals
  rw [mapM_ok_iff, List.forall₂_map_right_iff, List.forall₂_same]
  intro e _
  exact linlin_eval hx hy e

/-! ### Invariant of the editor on a well-formed file -/

/-- The state of the editor after any history: the base data are those of the file, every reaction differs from
that of the file at most in the values at the editor's temperature, and an unadjusted reaction does not differ. -/
structure Inv (file : Table K) (T : Temp) (ed : Editor K) : Prop where
  original : ed.original = file
  temperature : ed.temperature = T
  allMts : ed.allMts = allMtsOf file
  keys : Dict.keys ed.table.reactions = Dict.keys file.reactions
  data : ∀ m ∈ Dict.keys file.reactions, ∃ x y0 y1 rest,
    comp file m = .xs (some ((T, Tab1D.linlin x y0) :: rest)) ∧
    comp ed.table m = .xs (some ((T, Tab1D.linlin x y1) :: rest)) ∧
    y0.length = x.length ∧ y1.length = x.length ∧ x ≠ []
  remembered : ∀ m ∈ ed.adjusted, m ∈ Dict.keys ed.originalSigma

section inv
variable {file : Table K} {T : Temp} {ed : Editor K}

theorem special_not_key (hf : WellFormed file T) {m : MT} (hm : m ∈ Dict.keys file.reactions) :
    m ≠ 452 ∧ m ≠ 1018 := by
  unfold Dict.keys at hm
  rw [List.mem_map] at hm
  obtain ⟨⟨m', r⟩, hr, rfl⟩ := hm
  constructor
  · rintro rfl; exact (hf.noSpecial r).1 hr
  · rintro rfl; exact (hf.noSpecial r).2 hr

theorem mem_allMtsOf {m : MT} (h1 : m ≠ 452) (h2 : m ≠ 1018) :
    m ∈ allMtsOf file ↔ m ∈ Dict.keys file.reactions := by
  unfold allMtsOf
  simp only
  split_ifs <;> simp [h1, h2]

theorem keys_subset_allMtsOf {m : MT} (h : m ∈ Dict.keys file.reactions) : m ∈ allMtsOf file := by
  unfold allMtsOf
  simp only
  split_ifs
  · exact List.mem_append_left _ h
  · exact h

theorem get?_mem {κ α : Type*} [DecidableEq κ] {d : List (κ × α)} {k : κ} {a : α}
    (h : Dict.get? d k = some a) : (k, a) ∈ d := by
  induction d with
  | nil => simp [Dict.get?] at h
  | cons e d ih =>
    obtain ⟨k', a'⟩ := e
    by_cases hk : k' = k
    · subst hk
      simp only [Dict.get?, if_true, Option.some.injEq] at h
      subst h
      exact List.mem_cons_self ..
    · simp only [Dict.get?, hk, if_false] at h
      exact List.mem_cons_of_mem _ (ih h)

theorem inv_init (hf : WellFormed file T) {t : Option (List Char)} {ed : Editor K}
    (h : init file t = .ok ed) (hT : ed.temperature = T) : Inv file T ed := by
  unfold init at h
  split at h
  · cases h
  · cases h
    refine ⟨rfl, hT, rfl, rfl, ?_, by simp⟩
    intro m hm
    obtain ⟨r, hr⟩ := Option.isSome_iff_exists.mp (Dict.get?_isSome.mpr hm)
    obtain ⟨x, y, rest, hxs, hl, hx⟩ := hf.data m r (get?_mem hr)
    obtain ⟨h1, h2⟩ := special_not_key hf hm
    refine ⟨x, y, y, rest, ?_, ?_, hl, hl, hx⟩ <;>
    · rw [comp_xs h1 h2, hr]; simp [hxs]

theorem Inv.tabs (hf : WellFormed file T) (hi : Inv file T ed) {m : MT}
    {x y0 y1 : List K} {rest : List (Temp × Tab1D K)} (hm : m ∈ Dict.keys file.reactions)
    (h0 : comp file m = .xs (some ((T, Tab1D.linlin x y0) :: rest)))
    (h1 : comp ed.table m = .xs (some ((T, Tab1D.linlin x y1) :: rest))) :
    getTab ed m true = .ok (Tab1D.linlin x y0) ∧ getTab ed m false = .ok (Tab1D.linlin x y1) ∧
      getEnergy ed m = .ok (.arr x) := by
  obtain ⟨hs1, hs2⟩ := special_not_key hf hm
  rw [comp_xs hs1 hs2] at h0 h1
  simp only [Comp.xs.injEq, Option.map_eq_some_iff] at h0 h1
  obtain ⟨r0, hr0, hx0⟩ := h0
  obtain ⟨r1, hr1, hx1⟩ := h1
  refine ⟨?_, ?_, ?_⟩
  · simp [getTab, hi.original, hr0, hx0, hi.temperature, Dict.get?]
  · simp [getTab, hr1, hx1, hi.temperature, Dict.get?]
  · simp [getEnergy, hs1, hs2, Table.rx, hr1, hx1, bind, Except.bind, Tab1D.linlin]

theorem sigmaAt_eq {m : MT} (h1 : m ≠ 452) (h2 : m ≠ 1018) {un : Bool} {x y : List K}
    (ht : getTab ed m un = .ok (Tab1D.linlin x y)) (hx : x ≠ []) (hy : y.length = x.length) (e : K) :
    sigmaAt ed m un e = val (Tab1D.linlin x y) e := by
  simp [sigmaAt, getSigma, h1, h2, ht, bind, Except.bind, linlin_evals hx hy]

theorem getSigma_at {m : MT} (h1 : m ≠ 452) (h2 : m ≠ 1018) {un : Bool} {x y : List K}
    (ht : getTab ed m un = .ok (Tab1D.linlin x y)) (hx : x ≠ []) (hy : y.length = x.length) (es : List K) :
    getSigma ed m (some es) un = .ok (.arr (es.map (sigmaAt ed m un))) := by
  have : es.map (sigmaAt ed m un) = es.map (val (Tab1D.linlin x y)) :=
    List.map_congr_left (fun e _ => sigmaAt_eq h1 h2 ht hx hy e)
  rw [this]
  simp [getSigma, h1, h2, ht, bind, Except.bind, linlin_evals hx hy]

theorem getSigma_full {m : MT} (h1 : m ≠ 452) (h2 : m ≠ 1018) {un : Bool} {t : Tab1D K}
    (ht : getTab ed m un = .ok t) : getSigma ed m none un = .ok (.arr t.y) := by
  simp [getSigma, h1, h2, ht, bind, Except.bind]

/-- The evaluation of any reaction on the file, unadjusted or current. -/
theorem Inv.getSigma_at (hf : WellFormed file T) (hi : Inv file T ed) {m : MT}
    (hm : m ∈ Dict.keys file.reactions) (un : Bool) (es : List K) :
    getSigma ed m (some es) un = .ok (.arr (es.map (sigmaAt ed m un))) := by
  obtain ⟨x, y0, y1, rest, h0, h1, hl0, hl1, hx⟩ := hi.data m hm
  obtain ⟨ht0, ht1, _⟩ := hi.tabs hf hm h0 h1
  obtain ⟨hs1, hs2⟩ := special_not_key hf hm
  cases un with
  | true => exact ASAPy.Ace.getSigma_at hs1 hs2 ht0 hx hl0 es
  | false => exact ASAPy.Ace.getSigma_at hs1 hs2 ht1 hx hl1 es

theorem sumRows_map (es : List K) (l : List MT) (f : MT → K → K) :
    sumRows es.length (l.map fun m => es.map (f m)) = es.map fun e => (l.map (f · e)).sum := by
  have gen : ∀ (l : List MT) (g : K → K),
      (l.map fun m => es.map (f m)).foldl (fun acc r => List.zipWith (· + ·) acc r) (es.map g) =
        es.map fun e => g e + (l.map (f · e)).sum := by
    intro l
    induction l with
    | nil => intro g; simp
    | cons m l ih =>
      intro g
      simp only [List.map_cons, List.foldl_cons]
      rw [List.zipWith_map, List.zipWith_self, ih]
      simp [add_assoc]
  unfold sumRows
  have : List.replicate es.length (0:K) = es.map (fun _ => 0) := by simp
  rw [this, gen]
  simp

theorem rowsAt_eq (hf : WellFormed file T) (hi : Inv file T ed) {l : List MT}
    (hl : ∀ m ∈ l, m ∈ Dict.keys file.reactions) (un : Bool) (es : List K) :
    rowsAt ed l es un = .ok (l.map fun m => es.map (sigmaAt ed m un)) := by
  unfold rowsAt
  rw [mapM_ok_iff, List.forall₂_map_right_iff, List.forall₂_same]
  intro m hm
  rw [hi.getSigma_at hf (hl m hm)]
  rfl

/-- The value that a rule gives a sum at an energy. -/
def newVal (ed : Editor K) (s : MT) (l : List MT) (e : K) : K :=
  let p := checkIfMtsPresent ed.adjusted (checkIfMtsPresent l ed.allMts)
  sigmaAt ed s true e - (p.map (sigmaAt ed · true e)).sum + (p.map (sigmaAt ed · false e)).sum

theorem mem_check {c : MT} {a b : List MT} : c ∈ checkIfMtsPresent a b ↔ c ∈ b ∧ c ∈ a := by
  simp [checkIfMtsPresent]

theorem nodup_check (a b : List MT) : (checkIfMtsPresent a b).Nodup := List.nodup_dedup _

theorem sumValue_eq (hf : WellFormed file T) (hi : Inv file T ed) {s : MT} {l : List MT}
    (hs : s ∈ Dict.keys file.reactions) (hl : 452 ∉ l ∧ 1018 ∉ l) {x : List K}
    (hx : getEnergy ed s = .ok (.arr x)) :
    sumValue ed s (checkIfMtsPresent ed.adjusted (checkIfMtsPresent l ed.allMts)) =
      .ok (x.map (newVal ed s l)) := by
  have hp : ∀ m ∈ checkIfMtsPresent ed.adjusted (checkIfMtsPresent l ed.allMts),
      m ∈ Dict.keys file.reactions := by
    intro m hm
    rw [mem_check, mem_check] at hm
    have h1 : m ≠ 452 := by rintro rfl; exact hl.1 hm.1.2
    have h2 : m ≠ 1018 := by rintro rfl; exact hl.2 hm.1.2
    rw [← mem_allMtsOf h1 h2, ← hi.allMts]
    exact hm.1.1
  unfold sumValue
  simp only [hx, bind, Except.bind, rowsAt_eq hf hi hp, hi.getSigma_at hf hs, sumRows_map]
  congr 1
  rw [List.zipWith_map, List.zipWith_self, List.zipWith_map, List.zipWith_self]
  rfl

/-- Setting a cross section with an array of the right length. -/
theorem setSigma_xs (hf : WellFormed file T) (hi : Inv file T ed) {m : MT}
    (hm : m ∈ Dict.keys file.reactions) {x y1 v : List K} {rest : List (Temp × Tab1D K)}
    (h1 : comp ed.table m = .xs (some ((T, Tab1D.linlin x y1) :: rest)))
    (hx : getEnergy ed m = .ok (.arr x)) (ht : getTab ed m false = .ok (Tab1D.linlin x y1))
    (hv : v.length = x.length) :
    setSigma ed m (.arr v) =
      ((setXs (ed.remember m (.arr y1)) m v).addAdjusted m, .ok ()) ∧
    comp (setSigma ed m (.arr v)).1.table m = .xs (some ((T, Tab1D.linlin x v) :: rest)) := by
  obtain ⟨hs1, hs2⟩ := special_not_key hf hm
  have heq : setSigma ed m (.arr v) = ((setXs (ed.remember m (.arr y1)) m v).addAdjusted m, .ok ()) := by
    unfold setSigma
    simp [hx, Val.len, hv, getSigma_full hs1 hs2 ht, hs1, hs2, Tab1D.linlin]
  refine ⟨heq, ?_⟩
  rw [heq]
  have := comp_modify_xs ed.table m
    (fun xs => Dict.modify xs ed.temperature fun t => { t with y := v }) hs1 hs2 m
  rw [if_pos rfl] at this
  have hgoal : comp ((setXs (ed.remember m (.arr y1)) m v).addAdjusted m, (Except.ok () : Except PyErr Unit)).1.table m
      = .xs (Option.map (fun r => Dict.modify r.xs ed.temperature fun t => { t with y := v })
        (Dict.get? ed.table.reactions m)) := this
  rw [hgoal]
  rw [comp_xs hs1 hs2] at h1
  simp only [Comp.xs.injEq, Option.map_eq_some_iff] at h1
  obtain ⟨r1, hr1, hx1⟩ := h1
  simp [hr1, hx1, Dict.modify, hi.temperature, Tab1D.linlin]

/-- The invariant survives every `set_sigma`, successful or not. -/
theorem inv_set (hf : WellFormed file T) (hi : Inv file T ed) (mt : MT) (v : Val K) :
    Inv file T (setSigma ed mt v).1 := by
  obtain ⟨hb, hk, hc, ha⟩ := setSigma_frame ed mt v
  refine ⟨hb.1.symm.trans hi.original, hb.2.1.symm.trans hi.temperature, hb.2.2.symm.trans hi.allMts,
    hk.trans hi.keys, ?_, ?_⟩
  · intro m hm
    obtain ⟨x, y0, y1, rest, h0, h1, hl0, hl1, hx⟩ := hi.data m hm
    by_cases hmm : m = mt
    · subst hmm
      obtain ⟨ht0, ht1, hE⟩ := hi.tabs hf hm h0 h1
      obtain ⟨hs1, hs2⟩ := special_not_key hf hm
      cases v with
      | arr l =>
        by_cases hlen : l.length = x.length
        · exact ⟨x, y0, l, rest, h0, (setSigma_xs hf hi hm h1 hE ht1 hlen).2, hl0, hlen, hx⟩
        · refine ⟨x, y0, y1, rest, h0, ?_, hl0, hl1, hx⟩
          have : setSigma ed m (.arr l) = (ed, .error .indexError) := by
            simp [setSigma, hE, Val.len, hlen]
          rw [this]; exact h1
      | pdfs l =>
        refine ⟨x, y0, y1, rest, h0, ?_, hl0, hl1, hx⟩
        unfold setSigma
        rw [hE]
        simp only
        split_ifs with hlen
        · exact h1
        · rw [getSigma_full hs1 hs2 ht1]
          exact h1
    · exact ⟨x, y0, y1, rest, h0, (hc m hmm).trans h1, hl0, hl1, hx⟩
  · -- remembered
    have hrem : ∀ (e : Editor K) (c : Val K), (∀ m ∈ e.adjusted, m ∈ Dict.keys e.originalSigma) →
        (∀ m ∈ e.adjusted, m ∈ Dict.keys (e.remember mt c).originalSigma) ∧
          mt ∈ Dict.keys (e.remember mt c).originalSigma := by
      intro e c he
      unfold Editor.remember
      simp only
      split_ifs with h
      · exact ⟨he, h⟩
      · exact ⟨fun m hm => (Dict.mem_keys_set _ _ _ _).mpr (Or.inr (he m hm)),
          (Dict.mem_keys_set _ _ _ _).mpr (Or.inl rfl)⟩
    -- the remembered values after a set are those before or those after remembering
    have hor : (setSigma ed mt v).1.originalSigma = ed.originalSigma ∧ (setSigma ed mt v).2 ≠ .ok () ∨
        ∃ c, (setSigma ed mt v).1.originalSigma = (ed.remember mt c).originalSigma := by
      unfold setSigma
      cases hE : getEnergy ed mt with
      | error e => left; simp
      | ok energy =>
        simp only
        by_cases hlen : v.len ≠ energy.len
        · rw [if_pos hlen]; left; simp
        · rw [if_neg hlen]
          cases hS : getSigma ed mt none false with
          | error e => left; simp
          | ok cur =>
            right
            refine ⟨cur, ?_⟩
            simp only
            by_cases h1 : mt = 452
            · rw [if_pos h1]; cases v <;> rfl
            · rw [if_neg h1]
              by_cases h2 : mt = 1018
              · rw [if_pos h2]
                cases v with
                | arr l => rfl
                | pdfs l =>
                  have hchi : (setChiDistro (ed.remember mt cur) l).1.originalSigma =
                      (ed.remember mt cur).originalSigma := by
                    unfold setChiDistro
                    split
                    · rfl
                    · split_ifs
                      · rfl
                      · split
                        · split_ifs <;> rfl
                        · rfl
                  simp only
                  cases hr : setChiDistro (ed.remember mt cur) l with
                  | mk e r =>
                    rw [hr] at hchi
                    cases r <;> exact hchi
              · rw [if_neg h2]; cases v <;> rfl
    intro m hm
    rw [ha] at hm
    rcases hor with ⟨h, hne⟩ | ⟨c, h⟩
    · rw [h]
      rcases hm with hm | ⟨_, hm⟩
      · exact hi.remembered m hm
      · exact absurd hm hne
    · rw [h]
      rcases hm with hm | ⟨rfl, _⟩
      · exact (hrem ed c hi.remembered).1 m hm
      · exact (hrem ed c hi.remembered).2

end inv

end ASAPy.Ace
