import Verif.Hdf5.Round2
import Verif.Hdf5.Spec2

/-!
# Products and reactions are read back
-/

namespace ASAPy.Hdf5

open Dec

variable {K : Type}

/-- Numbered items. -/
def numbered (name : Nat → Text) : List (Node K) → Nat → List (Text × Node K)
  | [], _ => []
  | n :: ns, i => (name i, n) :: numbered name ns (i + 1)

theorem numbered_none {name : Nat → Text} {T : Text} : ∀ (ns : List (Node K)) (i : Nat), (∀ j, i ≤ j → name j ≠ T) → Dict.get? (numbered name ns i) T = none := by
  intro ns
  induction ns with
  | nil => intro i _; rfl
  | cons n ns ih =>
    intro i h
    simp only [numbered, Dict.get?]
    rw [if_neg (h i (le_refl i)), ih (i + 1) fun j hj => h j (by omega)]

theorem numbered_get {name : Nat → Text} (hn : Function.Injective name) : ∀ (ns : List (Node K)) (i k : Nat), Dict.get? (numbered name ns i) (name (i + k)) = ns[k]? := by
  intro ns
  induction ns with
  | nil => intro i k; rfl
  | cons n ns ih =>
    intro i k
    simp only [numbered, Dict.get?]
    cases k with
    | zero => simp
    | succ k =>
      rw [if_neg (fun h => by have := hn h; omega)]
      have := ih (i + 1) k
      rw [show i + 1 + k = i + (k + 1) by omega] at this
      rw [this]
      rfl

theorem numbered_keys {name : Nat → Text} : ∀ (ns : List (Node K)) (i : Nat), Dict.keys (numbered name ns i) = (List.range' i ns.length).map name := by
  intro ns
  induction ns with
  | nil => intro i; rfl
  | cons n ns ih =>
    intro i
    have := ih (i + 1)
    simp only [Dict.keys] at this ⊢
    simp [numbered, this, List.range'_succ]

theorem distName_inj : Function.Injective distName := fun a b h => natStr_injective (List.append_cancel_left h)
theorem prodName_inj : Function.Injective prodName := fun a b h => natStr_injective (List.append_cancel_left h)

section fun1

theorem funTo_ok {f : Fun1 K} (h : f.Stored) : ∃ v a, funTo f = .ok (.data v a) ∧ funFrom (v, a) = .ok f := by
  cases f with
  | tab t =>
    refine ⟨_, _, tabTo_ok h, ?_⟩
    have := tabFrom_ok t
    simp only [funFrom, this, getAttr, Dict.get?]
    simp [Val.toStr]
  | poly c =>
    refine ⟨_, _, rfl, ?_⟩
    simp [funFrom, getAttr, Dict.get?, Val.toStr, Val.toVec]

end fun1

variable [Field K] [LinearOrder K] [IsStrictOrderedRing K]

omit [Field K] [LinearOrder K] [IsStrictOrderedRing K] in
theorem app_free {n : Node K} : (⟨[], [(c!"applicability", n)]⟩ : Grp K).Free := by
  intro k hk
  simp only [names, List.mem_cons, List.not_mem_nil, or_false] at hk
  rcases hk with rfl | rfl | rfl | rfl | rfl | rfl | rfl | rfl | rfl <;> rfl

/-- What is read from the group of a distribution. -/
def ReadsDist (g : Grp K) (a : List (Tab1D K)) (d : Dist K) : Prop := appFrom g = .ok a ∧ knownDist g = .ok d

theorem distGroup_ok {app : List (Tab1D K)} (ht : ∀ t ∈ app, Tab1D.Stored t) {d : Dist K} (hd : d.Stored) {i : Nat} (hi : app = [] ∨ i < app.length) :
    ∃ dg, distGroup app i d = .ok dg ∧ ReadsDist dg (app[i]?).toList d.back := by
  cases app with
  | nil =>
    obtain ⟨g', h1, h2, h3⟩ := dist_round Grp.empty_free hd
    refine ⟨g', h1, ?_, by simp [knownDist, h3]⟩
    have : g'.has c!"applicability" = false := by rw [Grp.has, h2 _ (by decide)]; rfl
    simp [appFrom, this]
  | cons t0 app =>
    have hi : i < (t0 :: app).length := hi.resolve_left (by simp)
    have ht' := ht _ (List.getElem_mem hi)
    obtain ⟨g', h1, h2, h3⟩ := dist_round (app_free (n := .data (.rows [((t0 :: app)[i]).x, ((t0 :: app)[i]).y]) [(c!"type", .str c!"Tabulated1D"),
      (c!"breakpoints", .ints ((t0 :: app)[i]).breakpoints), (c!"interpolation", .ints (((t0 :: app)[i]).interpolation.map Int.ofNat))])) hd
    refine ⟨g', ?_, ?_, by simp [knownDist, h3]⟩
    · unfold distGroup
      rw [List.getElem?_eq_getElem hi]
      simp only [List.isEmpty_cons, Bool.false_eq_true, if_false, tabTo_ok ht', ok_bind]
      rw [add_ok rfl]
      exact h1
    · rw [List.getElem?_eq_getElem hi]
      have hg : Dict.get? g'.items c!"applicability" = _ := h2 _ (by decide)
      simp only [Dict.get?, if_true] at hg
      have hh : g'.has c!"applicability" = true := by rw [Grp.has, hg]; rfl
      simp only [appFrom, hh, if_true, dset_of hg, ok_bind, tabFrom_ok]
      rfl

theorem distsTo_ok (app : List (Tab1D K)) (ht : ∀ t ∈ app, Tab1D.Stored t) (ds : List (Dist K)) (hd : ∀ d ∈ ds, d.Stored) : ∀ (i : Nat) (g : Grp K),
    (app = [] ∨ i + ds.length ≤ app.length) → (∀ j, i ≤ j → Dict.get? g.items (distName j) = none) →
    ∃ gs : List (Grp K), distsTo app ds i g = .ok ⟨g.attrs, g.items ++ numbered distName (gs.map Grp.node) i⟩ ∧ gs.length = ds.length ∧
      ∀ k (hk : k < gs.length) (hk' : k < ds.length), ReadsDist gs[k] (app[i + k]?).toList ds[k].back := by
  induction ds with
  | nil => intro i g _ _; exact ⟨[], by simp [distsTo, numbered], rfl, fun k hk => by simp at hk⟩
  | cons d ds ih =>
    intro i g hn hf
    obtain ⟨dg, e1, e2⟩ := distGroup_ok ht (hd d (by simp)) (i := i) (hn.imp id fun h => by simp only [List.length_cons] at h; omega)
    have hgi := hf i (le_refl i)
    obtain ⟨gs, f1, f2, f3⟩ := ih (fun d' h' => hd d' (by simp [h'])) (i + 1) ⟨g.attrs, g.items ++ [(distName i, dg.node)]⟩
      (hn.imp id fun h => by simp only [List.length_cons] at h; omega) (fun j hj => by
        rw [get?_app, hf j (by omega)]
        simp only [Dict.get?, Option.none_or]
        rw [if_neg fun h => by have := distName_inj h; omega])
    refine ⟨dg :: gs, ?_, by simp [f2], ?_⟩
    · unfold distsTo
      simp only [e1, ok_bind, add_ok hgi, f1]
      simp [numbered]
    · intro k hk hk'
      cases k with
      | zero => simpa using e2
      | succ k =>
        have := f3 k (by simpa using hk) (by simpa using hk')
        rw [show i + 1 + k = i + (k + 1) by omega] at this
        simpa using this

omit [IsStrictOrderedRing K] in
theorem distsFrom_ok (g : Grp K) : ∀ (gs : List (Grp K)) (app : List (List (Tab1D K))) (ds : List (Dist K)) (i : Nat), gs.length = ds.length → gs.length = app.length →
    (∀ k (hk : k < gs.length), Dict.get? g.items (distName (i + k)) = some (gs[k]).node) →
    (∀ k (hk : k < gs.length) (ha : k < app.length) (hd : k < ds.length), ReadsDist gs[k] app[k] ds[k]) →
    distsFrom g gs.length i = .ok (app.flatten, ds) := by
  intro gs
  induction gs with
  | nil =>
    intro app ds i h1 h2 _ _
    have e1 : ds = [] := List.length_eq_zero_iff.1 h1.symm
    have e2 : app = [] := List.length_eq_zero_iff.1 h2.symm
    subst e1 e2
    rfl
  | cons dg gs ih =>
    intro app ds i h1 h2 hg hr
    cases ds with
    | nil => simp at h1
    | cons d ds =>
    cases app with
    | nil => simp at h2
    | cons a app =>
      have e0 : Dict.get? g.items (distName i) = some (.group dg.attrs dg.items) := hg 0 (by simp)
      obtain ⟨r1, r2⟩ := hr 0 (by simp) (by simp) (by simp)
      simp only [List.getElem_cons_zero] at r1 r2
      have := ih app ds (i + 1) (by simpa using h1) (by simpa using h2) (fun k hk => by
          have := hg (k + 1) (by simpa using hk)
          rw [show i + (k + 1) = i + 1 + k by omega] at this
          simpa using this) (fun k hk ha hd => hr (k + 1) (Nat.succ_lt_succ hk) (Nat.succ_lt_succ ha) (Nat.succ_lt_succ hd))
      simp only [List.length_cons, distsFrom, group_of e0, ok_bind, r1, r2, this]
      rfl

omit [Field K] [LinearOrder K] [IsStrictOrderedRing K] in
theorem flatten_apps (app : List (Tab1D K)) : ∀ (n i : Nat), i + n = app.length → ((List.range' i n).map fun k => (app[k]?).toList).flatten = app.drop i := by
  intro n
  induction n with
  | zero => intro i h; simp at h; simp [h]
  | succ n ih =>
    intro i h
    have hi : i < app.length := by omega
    rw [List.range'_succ, List.map_cons, List.flatten_cons, ih (i + 1) (by omega), List.getElem?_eq_getElem hi, List.drop_eq_getElem_cons hi]
    rfl

omit [Field K] [LinearOrder K] [IsStrictOrderedRing K] in
theorem flatten_none (n : Nat) : ((List.range' 0 n).map fun k => (([] : List (Tab1D K))[k]?).toList).flatten = [] := by
  simp

/-- A product is read back. -/
theorem product_round {p : Product K} (h : p.Stored) : ∃ g, productTo p = .ok g ∧ productFrom g = .ok p.back := by
  obtain ⟨v, a, y1, y2⟩ := funTo_ok h.yield_
  set A : Attrs K := Dict.set (if 0 < p.decay then Dict.set [(c!"particle", Val.str p.particle), (c!"emission_mode", Val.str p.mode)] c!"decay_rate" (.num p.decay)
    else [(c!"particle", Val.str p.particle), (c!"emission_mode", Val.str p.mode)]) c!"n_distribution" (.int p.dists.length) with hA
  obtain ⟨gs, f1, f2, f3⟩ := distsTo_ok p.applicability h.tables p.dists h.dists 0 ⟨A, [(c!"yield", .data v a)]⟩ (h.number.imp id fun h => by omega)
    (fun j _ => by simp only [Dict.get?]; rw [if_neg]; intro h; simp [distName] at h)
  refine ⟨⟨A, [(c!"yield", .data v a)] ++ numbered distName (gs.map Grp.node) 0⟩, ?_, ?_⟩
  · rw [← f1]
    unfold productTo
    simp only [y1, ok_bind]
    by_cases hp : 0 < p.decay
    · simp only [hp, if_true]
      rw [add_ok rfl]
      simp only [ok_bind, hA, hp, if_true]
      rfl
    · simp only [hp, if_false]
      rw [add_ok rfl]
      simp only [ok_bind, hA, hp, if_false]
      rfl
  · have hk : distsFrom (⟨A, [(c!"yield", .data v a)] ++ numbered distName (gs.map Grp.node) 0⟩ : Grp K) gs.length 0 =
        .ok (((List.range' 0 gs.length).map fun k => (p.applicability[k]?).toList).flatten, p.dists.map Dist.back) := by
      apply distsFrom_ok
      · simp [f2]
      · simp
      · intro k hk
        rw [get?_app, numbered_get distName_inj]
        simp only [Dict.get?, List.getElem?_map, List.getElem?_eq_getElem hk]
        rw [if_neg]
        · rfl
        · intro h; simp [distName] at h
      · intro k hk _ _
        have := f3 k hk (by omega)
        simpa using this
    have happ : ((List.range' 0 gs.length).map fun k => (p.applicability[k]?).toList).flatten = p.applicability := by
      rcases h.number with h0 | h0
      · rw [h0]; exact flatten_none _
      · rw [flatten_apps _ _ _ (by omega)]; simp
    rw [happ, f2] at hk
    unfold productFrom
    have e1 : getAttr A c!"particle" = .ok (.str p.particle) := by
      rw [hA, getAttr_set_ne _ _ (by simp)]
      split
      · rw [getAttr_set_ne _ _ (by simp)]; rfl
      · rfl
    have e2 : getAttr A c!"emission_mode" = .ok (.str p.mode) := by
      rw [hA, getAttr_set_ne _ _ (by simp)]
      split
      · rw [getAttr_set_ne _ _ (by simp)]; rfl
      · rfl
    have e3 : getAttr A c!"n_distribution" = .ok (.int p.dists.length) := by rw [hA, getAttr_set]
    have e4 : decayFrom A = .ok p.decay := by
      unfold decayFrom
      by_cases hp : 0 < p.decay
      · have : Dict.get? A c!"decay_rate" = some (.num p.decay) := by
          rw [hA, Dict.get?_set_ne _ _ (by simp), if_pos hp, Dict.get?_set_same]
        simp [getAttr, this, Val.toNum]
      · have : Dict.get? A c!"decay_rate" = none := by
          rw [hA, Dict.get?_set_ne _ _ (by simp), if_neg hp]
          simp [Dict.get?]
        have h0 : p.decay = 0 := le_antisymm (not_lt.1 hp) h.decay
        simp [this, h0]
    have e5 : (⟨A, [(c!"yield", .data v a)] ++ numbered distName (gs.map Grp.node) 0⟩ : Grp K).dset c!"yield" = .ok (v, a) := dset_of (by simp [Dict.get?])
    simp only [e1, e2, e3, e4, e5, ok_bind, Val.toStr, Val.toInt, y2, h.mode, h.decay, Int.toNat_natCast, hk]
    rfl

end ASAPy.Hdf5
