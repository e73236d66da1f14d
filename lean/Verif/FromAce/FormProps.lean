import Verif.FromAce.ReadProps
import Verif.Editor.Rules

/-! # A loaded table is well formed (C89) -/

set_option linter.unusedSimpArgs false
set_option linter.unusedSectionVars false

namespace ASAPy.FromAce
open ASAPy.Ace ASAPy.AceData

variable {K : Type} [Field K] [LinearOrder K]

/-- A reaction with as many values as energies, at least one, that begins inside the grid of `n` energies; not nu-bar or chi. -/
def GoodRx (n : Nat) (e : MT × Rx K) : Prop :=
  (∃ x y, e.2.xs = .linlin x y ∧ y.length = x.length ∧ x ≠ []) ∧ (∃ k : Nat, e.2.threshold = k ∧ k < n) ∧ e.1 ≠ 452 ∧ e.1 ≠ 1018

/-- A dictionary of such reactions. -/
def Good (n : Nat) (rs : List (MT × Rx K)) : Prop := (Dict.keys rs).Nodup ∧ ∀ e ∈ rs, GoodRx n e

theorem mem_set {α : Type} : ∀ (d : List (MT × α)) (k : MT) (a : α) (e : MT × α), e ∈ Dict.set d k a → e = (k, a) ∨ e ∈ d
  | [], k, a, e, h => by simpa [Dict.set] using h
  | (k', b) :: d, k, a, e, h => by
    unfold Dict.set at h
    split_ifs at h with hk
    · rcases List.mem_cons.mp h with rfl | h
      · exact Or.inl (by rw [hk])
      · exact Or.inr (List.mem_cons_of_mem _ h)
    · rcases List.mem_cons.mp h with rfl | h
      · exact Or.inr (List.mem_cons_self ..)
      · exact (mem_set d k a e h).imp id (List.mem_cons_of_mem _)

theorem nodup_set {α : Type} : ∀ (d : List (MT × α)) (k : MT) (a : α), (Dict.keys d).Nodup → (Dict.keys (Dict.set d k a)).Nodup
  | [], k, a, _ => by simp [Dict.set, Dict.keys]
  | (k', b) :: d, k, a, h => by
    unfold Dict.set
    simp only [Dict.keys, List.map_cons, List.nodup_cons] at h
    split_ifs with hk
    · simpa [Dict.keys, ← hk] using h
    · simp only [Dict.keys, List.map_cons, List.nodup_cons]
      refine ⟨?_, nodup_set d k a h.2⟩
      intro hm
      rcases (Dict.mem_keys_set d k k' a).mp hm with hm | hm
      · exact hk (by first | exact hm | exact hm.symm)
      · exact h.1 hm

theorem Good.set {n : Nat} {rs : List (MT × Rx K)} (h : Good n rs) {mt : MT} {rx : Rx K} (hr : GoodRx n (mt, rx)) : Good n (Dict.set rs mt rx) :=
  ⟨nodup_set _ _ _ h.1, fun e he => by
    rcases mem_set _ _ _ _ he with rfl | he
    · exact hr
    · exact h.2 e he⟩

theorem mem_of_get? {α : Type} : ∀ {d : List (MT × α)} {k : MT} {a : α}, Dict.get? d k = some a → (k, a) ∈ d
  | (k', b) :: d, k, a, h => by
    unfold Dict.get? at h
    split_ifs at h with hk
    · cases h; rw [hk]; exact List.mem_cons_self ..
    · exact List.mem_cons_of_mem _ (mem_of_get? h)

/-- What a content must satisfy: points in every reaction, no reaction called nu-bar or chi. -/
def Content.Sound (c : Content K) : Prop := c.energies ≠ [] ∧ ∀ r ∈ c.reactions, r.vals ≠ [] ∧ r.mt ≠ 452 ∧ r.mt ≠ 1018

variable [FloorRing K] [IsStrictOrderedRing K]

theorem good_at {t : AceData.Table K} {c : Content K} (hc : Holds t c) (hs : c.Sound) {i : Nat} {mt : MT} {rx : Rx K}
    (h1 : c.mtAt i = some mt) (h2 : c.xsAt i = some rx.xs) {k : Nat} (h3 : c.firstAt i = some k) (h4 : rx.threshold = k) : GoodRx c.energies.length (mt, rx) := by
  obtain ⟨l1, l2, l3⟩ := hc.lengths
  have hpos : 0 < c.energies.length := List.length_pos_of_ne_nil hs.1
  by_cases hi : i = 0
  · subst hi
    simp only [Content.mtAt, Content.xsAt, Content.firstAt, if_true, Option.some.injEq] at h1 h2 h3
    subst h1 h3
    refine ⟨⟨_, _, h2.symm, by simp [cleaned, l3], by simpa using hs.1⟩, ⟨0, h4, hpos⟩, by simp, by simp⟩
  · simp only [Content.mtAt, Content.xsAt, Content.firstAt, if_neg hi] at h1 h2 h3
    cases hr : c.reactions[i - 1]? with
    | none => rw [hr] at h1; cases h1
    | some r =>
      rw [hr] at h1 h2 h3
      simp only [Option.map_some, Option.some.injEq] at h1 h2 h3
      have hm := List.mem_of_getElem? hr
      obtain ⟨q1, q2, q3⟩ := hs.2 r hm
      obtain ⟨_, _, _, _, _, _, _, _, hrs⟩ := hc.lists
      obtain ⟨_, _, _, q4, q5⟩ := hrs r hm
      have hv : 0 < r.vals.length := List.length_pos_of_ne_nil q1
      have hlen : (c.energiesOf r).length = r.vals.length := by
        simp only [Content.energiesOf, List.length_map, List.length_take, List.length_drop]
        omega
      refine ⟨⟨_, _, h2.symm, ?_, ?_⟩, ⟨k, h4, ?_⟩, ?_, ?_⟩
      · rw [hlen]; simp [cleaned]
      · intro he
        rw [he] at hlen
        simp only [List.length_nil] at hlen
        omega
      · omega
      · rw [← h1]; exact q2
      · rw [← h1]; exact q3

theorem readAll_good {t : AceData.Table K} {c : Content K} (hc : Holds t c) (hs : c.Sound) : ∀ (is : List Nat) (rs : List (MT × Rx K)) (a : Arrays K)
    (rs' : List (MT × Rx K)) (a' : Arrays K), Inv t a → (∀ i ∈ is, i ≤ c.reactions.length) → Good c.energies.length rs →
    readAll is rs a = .ok (rs', a') → Good c.energies.length rs' := by
  intro is
  induction is with
  | nil =>
    intro rs a rs' a' _ _ hg h
    simp only [readAll, Except.ok.injEq, Prod.mk.injEq] at h
    rw [← h.1]; exact hg
  | cons i is ih =>
    intro rs a rs' a' ha hb hg h
    unfold readAll at h
    cases hrx : reaction a i with
    | error e => rw [hrx] at h; cases h
    | ok v =>
      obtain ⟨m, rx, a1⟩ := v
      rw [hrx] at h
      simp only [bind, Except.bind] at h
      obtain ⟨h1, h2, ⟨n, h3, h3'⟩, h4⟩ := reaction_at hc ha (hb i (List.mem_cons_self ..)) hrx
      refine ih _ _ _ _ h4 (fun j hj => hb j (List.mem_cons_of_mem _ hj)) ?_ h
      split_ifs
      · exact hg
      · exact hg.set (good_at hc hs h1 h2 h3 h3')

theorem pickAll_mem {rs : List (MT × Rx K)} : ∀ {ms : List MT} {l : List (Rx K)}, pickAll rs ms = .ok l → List.Forall₂ (fun m r => Dict.get? rs m = some r) ms l
  | [], l, h => by
    simp only [pickAll, Except.ok.injEq] at h
    subst h
    exact .nil
  | m :: ms, l, h => by
    unfold pickAll at h
    cases hm : Dict.get? rs m with
    | none => rw [hm] at h; cases h
    | some r =>
      rw [hm] at h
      simp only [bind, Except.bind] at h
      cases hp : pickAll rs ms with
      | error e => rw [hp] at h; cases h
      | ok l' =>
        rw [hp] at h
        simp only [pure, Except.pure, Except.ok.injEq] at h
        subst h
        exact .cons hm (pickAll_mem hp)

variable [ExpLog K]

theorem evalAll_spec (es : List K) : ∀ {l : List (Rx K)} {n : Nat}, (∀ r ∈ l, ∃ mt, GoodRx n (mt, r)) →
    evalAll es l = .ok (l.map fun r => es.map (val r.xs))
  | [], _, _ => rfl
  | r :: l, n, h => by
    obtain ⟨mt, ⟨x, y, hxy, hl, hne⟩, _⟩ := h r (List.mem_cons_self ..)
    unfold evalAll
    rw [show r.xs.evals es = .ok (es.map (val r.xs)) by rw [show r.xs = .linlin x y from hxy]; exact linlin_evals hne hl es,
      evalAll_spec es fun r hr => h r (List.mem_cons_of_mem _ hr)]
    rfl

theorem foldl_zip (es : List K) : ∀ (fs : List (K → K)) (g : K → K),
    (fs.map fun f => es.map f).foldl (List.zipWith (· + ·)) (es.map g) = es.map fun e => g e + (fs.map (· e)).sum
  | [], g => by simp
  | f :: fs, g => by
    rw [List.map_cons, List.foldl_cons, show List.zipWith (· + ·) (es.map g) (es.map f) = es.map fun e => g e + f e by
      rw [List.zipWith_map]; simp [List.zipWith_self], foldl_zip es fs]
    simp [add_assoc]

/-- A redundant reaction: the sum of its components on the grid, from the lowest of their first points. -/
theorem redundant_spec {n : Nat} {rs : List (MT × Rx K)} (hg : Good n rs) {energy : List K} {ms : List MT} {rx : Rx K}
    (h : redundant rs energy ms = .ok rx) :
    ∃ (l : List (Rx K)) (k : Nat), List.Forall₂ (fun m r => Dict.get? rs m = some r) ms l ∧ (∀ r ∈ l, (k : Int) ≤ r.threshold) ∧
      (∃ r ∈ l, r.threshold = k) ∧
      rx = ⟨.linlin (energy.drop k) ((energy.drop k).map fun e => (l.map fun r => val r.xs e).sum), k, [], []⟩ := by
  unfold redundant at h
  simp only [bind, Except.bind] at h
  cases hp : pickAll rs ms with
  | error e => rw [hp] at h; cases h
  | ok l =>
    rw [hp] at h
    simp only at h
    have hl := pickAll_mem hp
    have hgood : ∀ r ∈ l, ∃ mt, GoodRx n (mt, r) := by
      intro r hr
      obtain ⟨i, hi, rfl⟩ := List.mem_iff_getElem.mp hr
      have := (List.forall₂_iff_get.mp hl).2 i (by rw [hl.length_eq]; exact hi) hi
      exact ⟨_, hg.2 _ (mem_of_get? this)⟩
    cases hm : (l.map (·.threshold)).min? with
    | none => rw [hm] at h; cases h
    | some idx =>
      rw [hm] at h
      simp only at h
      rw [evalAll_spec _ hgood] at h
      simp only [pure, Except.pure, Except.ok.injEq] at h
      have hmem := List.min?_mem hm
      obtain ⟨r, hr, hre⟩ := List.mem_map.mp hmem
      obtain ⟨_, _, ⟨k, hk, _⟩, _⟩ := hgood r hr
      simp only at hk
      have hidx : idx = (k : Int) := by rw [← hre, hk]
      subst hidx
      refine ⟨l, k, hl, ?_, ⟨r, hr, hre⟩, ?_⟩
      · intro r' hr'
        exact (List.min?_eq_some_iff.mp hm).2 _ (List.mem_map_of_mem hr')
      · rw [← h]
        have es : slice energy (k : Int) (energy.length : Int) = energy.drop k := by rw [slice_nat, List.take_length]
        rw [es]
        congr 2
        have := foldl_zip (energy.drop k) (l.map fun r => val r.xs) (fun _ => 0)
        simp only [List.map_map, Function.comp_def, zero_add] at this
        exact this

theorem redundant_good {n : Nat} {rs : List (MT × Rx K)} (hg : Good n rs) {energy : List K} (hn : energy.length = n) {ms : List MT} {rx : Rx K}
    (h : redundant rs energy ms = .ok rx) {mt : MT} (hmt : mt ≠ 452 ∧ mt ≠ 1018) (ps ds : List (Product K)) :
    GoodRx n (mt, { rx with products := ps, derived := ds }) := by
  obtain ⟨l, k, hl, _, ⟨r, hr, hrk⟩, rfl⟩ := redundant_spec hg h
  obtain ⟨i, hi, rfl⟩ := List.mem_iff_getElem.mp hr
  have := (List.forall₂_iff_get.mp hl).2 i (by rw [hl.length_eq]; exact hi) hi
  obtain ⟨_, ⟨k', hk', hlt⟩, _⟩ := hg.2 _ (mem_of_get? this)
  have hkk : k' = k := by
    have : (k' : Int) = k := by rw [← hk', ← hrk]; rfl
    exact_mod_cast this
  subst hkk
  refine ⟨⟨_, _, rfl, by simp, ?_⟩, ⟨k', rfl, hlt⟩, hmt⟩
  intro he
  have := congrArg List.length he
  simp only [List.length_drop, List.length_nil] at this
  omega

theorem sumRules_keys {mt : MT} (h : (Comp.sumRules.lookup mt).isNone = false) : mt ≠ 452 ∧ mt ≠ 1018 := by
  constructor
  · rintro rfl
    exact absurd h (by decide)
  · rintro rfl
    exact absurd h (by decide)

theorem addPhotonMts_good {n : Nat} (a : Arrays K) (energy : List K) (hn : energy.length = n) (abs : Option (Rx K))
    (habs : ∀ r, abs = some r → GoodRx n (101, r)) : ∀ (mts : List MT) (rs rs' : List (MT × Rx K)),
    addPhotonMts a energy abs mts rs = .ok rs' → Good n rs → Good n rs' := by
  intro mts
  induction mts with
  | nil => intro rs rs' h hg; simp only [addPhotonMts, Except.ok.injEq] at h; rw [← h]; exact hg
  | cons m mts ih =>
    intro rs rs' h hg
    unfold addPhotonMts at h
    by_cases h1 : has rs m = true
    · rw [if_pos h1] at h; exact ih _ _ h hg
    rw [if_neg h1] at h
    by_cases h2 : (Comp.sumRules.lookup m).isNone = true
    · rw [if_pos h2] at h; exact ih _ _ h hg
    rw [if_neg h2] at h
    by_cases h3 : componentsOf rs m = []
    · rw [if_pos h3] at h; exact ih _ _ h hg
    rw [if_neg h3] at h
    cases hr : redundant rs energy (componentsOf rs m) with
    | error e => rw [hr] at h; cases h
    | ok r =>
      rw [hr] at h
      simp only [bind, Except.bind] at h
      cases hp : photons a m with
      | error e => rw [hp] at h; cases h
      | ok ph =>
        rw [hp] at h
        simp only at h
        split at h
        · cases abs with
          | none => simp at h
          | some r' =>
            simp only at h
            exact ih _ _ h (hg.set (habs r' rfl))
        · refine ih _ _ h (hg.set ?_)
          exact redundant_good hg hn hr (sumRules_keys (by simpa using h2)) ph r.derived

theorem addSums_good {n : Nat} (energy : List K) (hn : energy.length = n) : ∀ (mts : List MT) (rs rs' : List (MT × Rx K)), addSums energy mts rs = .ok rs' →
    (∀ m ∈ mts, m ≠ 452 ∧ m ≠ 1018) → Good n rs → Good n rs' := by
  intro mts
  induction mts with
  | nil => intro rs rs' h _ hg; simp only [addSums, Except.ok.injEq] at h; rw [← h]; exact hg
  | cons m mts ih =>
    intro rs rs' h hm hg
    unfold addSums at h
    by_cases h1 : has rs m = true
    · rw [if_pos h1] at h; exact ih _ _ h (fun m hh => hm m (List.mem_cons_of_mem _ hh)) hg
    rw [if_neg h1] at h
    by_cases h3 : componentsOf rs m = []
    · rw [if_pos h3] at h; exact ih _ _ h (fun m hh => hm m (List.mem_cons_of_mem _ hh)) hg
    rw [if_neg h3] at h
    cases hr : redundant rs energy (componentsOf rs m) with
    | error e => rw [hr] at h; cases h
    | ok r =>
      rw [hr] at h
      refine ih _ _ h (fun m hh => hm m (List.mem_cons_of_mem _ hh)) (hg.set ?_)
      exact redundant_good hg hn hr (hm m (List.mem_cons_self ..)) r.products r.derived

theorem start_good {t : AceData.Table K} {c : Content K} (hc : Holds t c) (hs : c.Sound) :
    Good c.energies.length (startRs c) ∧ ∀ r, absOf c = some r → GoodRx c.energies.length (101, r) := by
  obtain ⟨l1, l2, l3⟩ := hc.lengths
  have hpos : 0 < c.energies.length := List.length_pos_of_ne_nil hs.1
  have h1 : GoodRx c.energies.length (1, (⟨.linlin (c.energies.map (· * 1000000)) c.total, 0, [], []⟩ : Rx K)) :=
    ⟨⟨_, _, rfl, by simp [l1], by simpa using hs.1⟩, ⟨0, rfl, hpos⟩, by simp, by simp⟩
  have h101 : GoodRx c.energies.length (101, (⟨.linlin (c.energies.map (· * 1000000)) c.absorption, 0, [], []⟩ : Rx K)) :=
    ⟨⟨_, _, rfl, by simp [l2], by simpa using hs.1⟩, ⟨0, rfl, hpos⟩, by simp, by simp⟩
  refine ⟨?_, ?_⟩
  · unfold startRs
    split_ifs
    · refine ⟨by simp [Dict.keys], ?_⟩
      intro e he
      simp only [List.mem_cons, List.not_mem_nil, or_false] at he
      rcases he with rfl | rfl
      · exact h1
      · exact h101
    · refine ⟨by simp [Dict.keys], ?_⟩
      intro e he
      simp only [List.mem_cons, List.not_mem_nil, or_false] at he
      rw [he]; exact h1
  · intro r hr
    unfold absOf at hr
    split_ifs at hr
    cases hr
    exact h101

theorem reactions_good {t : AceData.Table K} {c : Content K} (hc : Holds t c) (hs : c.Sound) {rs : List (MT × Rx K)} (h : reactions t = .ok rs) :
    Good c.energies.length rs := by
  obtain ⟨rs1, a1, pm, rs2, g1, _, g3, g4⟩ := reactions_split hc h
  have ha : Inv t (⟨0 :: t.nxs, 0 :: t.jxs, 0 :: t.xss⟩ : Arrays K) := ⟨rfl, rfl, Fixed.refl _⟩
  obtain ⟨s1, s2⟩ := start_good hc hs
  have e1 := readAll_good hc hs _ _ _ _ _ ha (fun i hi => by rw [List.mem_range] at hi; omega) s1 g1
  have e2 := addPhotonMts_good a1 _ (by simp) _ s2 _ _ _ g3 e1
  exact addSums_good _ (by simp) _ _ _ g4 (by decide) e2

/-- **C89.** A table loaded from an ACE file whose reactions all have points, and none of which is called nu-bar (452) or chi (1018), is well formed: what the
properties C01-C11 and C34 of the editor assume. -/
theorem C89_well_formed {t : AceData.Table K} {c : Content K} (hc : Holds t c) (hs : c.Sound) {T : Ace.Table K} (h : load t = .ok T) :
    WellFormed T (tempName t.temperature) := by
  obtain ⟨rs, hrs, rfl⟩ := load_split h
  obtain ⟨h1, h2⟩ := reactions_good hc hs hrs
  refine ⟨?_, ?_, ?_⟩
  · simpa [List.map_map, Function.comp_def, Dict.keys] using h1
  · intro r
    constructor
    · intro hr
      obtain ⟨e, he, hee⟩ := List.mem_map.mp hr
      exact (h2 e he).2.2.1 (congrArg Prod.fst hee)
    · intro hr
      obtain ⟨e, he, hee⟩ := List.mem_map.mp hr
      exact (h2 e he).2.2.2 (congrArg Prod.fst hee)
  · intro mt r hr
    obtain ⟨e, he, hee⟩ := List.mem_map.mp hr
    obtain ⟨⟨x, y, hxy, hl, hne⟩, _⟩ := h2 e he
    simp only [Prod.mk.injEq] at hee
    refine ⟨x, y, [], ?_, hl, hne⟩
    rw [← hee.2]
    simp [Rx.toReaction, hxy]

namespace Example
local instance : ExpLog ℚ := ⟨id, id⟩

theorem sound : content.Sound := ⟨by decide, by
  intro r hr
  simp only [content, List.mem_cons, List.not_mem_nil, or_false] at hr
  rcases hr with rfl | rfl <;> decide⟩

example : WellFormed loaded (tempName table.temperature) := C89_well_formed holds sound load_table
end Example

end ASAPy.FromAce
