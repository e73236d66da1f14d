import Verif.Hdf5.Round3

/-!
# Reactions are read back
-/

namespace ASAPy.Hdf5

open Dec

variable {K : Type}

/-! ### Names -/

theorem endsK_temp {T : Text} (h : IsTemp T) : endsK T = true := by
  obtain ⟨n, rfl⟩ := h
  simp [endsK]

theorem head_digit {T : Text} (h : IsTemp T) : ∃ c r, T = c :: r ∧ Dec.isDigit c = true := by
  obtain ⟨n, rfl⟩ := h
  cases hn : natStr n with
  | nil => exact absurd hn (natStr_ne_nil n)
  | cons c r => exact ⟨c, r ++ c!"K", rfl, natStr_digits n c (by simp [hn])⟩

theorem not_endsK_digits {p : Text} (n : Nat) : endsK (p ++ natStr n) = false := by
  have hne := natStr_ne_nil n
  have hl : (p ++ natStr n).getLast? = some ((natStr n).getLast hne) := by
    rw [List.getLast?_append, List.getLast?_eq_getLast_of_ne_nil hne]; rfl
  have hd := natStr_digits n _ (List.getLast_mem hne)
  unfold endsK
  rw [hl]
  by_contra hc
  simp only [beq_iff_eq, Option.some.injEq, Bool.not_eq_false] at hc
  rw [hc] at hd
  exact absurd hd (by decide)

theorem temp_ne {p : Text} {T : Text} (h : IsTemp T) (n : Nat) : p ++ natStr n ≠ T := by
  intro he
  have h1 := endsK_temp h
  rw [← he, not_endsK_digits] at h1
  exact absurd h1 (by decide)

theorem not_isProduct {T : Text} (h : IsTemp T) : isProduct T = false := by
  obtain ⟨c, r, rfl, hc⟩ := head_digit h
  by_contra hp
  simp only [isProduct, Bool.not_eq_false, List.isPrefixOf, Bool.and_eq_true, beq_iff_eq] at hp
  rw [← hp.1] at hc
  exact absurd hc (by decide)

theorem isProduct_name (i : Nat) : isProduct (prodName i) = true := by
  simp [isProduct, prodName]

/-! ### Lookups in permuted lists -/

theorem get?_mem {α : Type} {l : List (Text × α)} {k : Text} {a : α} (h : Dict.get? l k = some a) : (k, a) ∈ l := by
  induction l with
  | nil => simp [Dict.get?] at h
  | cons e l ih =>
    obtain ⟨k', a'⟩ := e
    simp only [Dict.get?] at h
    split at h
    · rename_i hk; cases h; subst hk; simp
    · exact List.mem_cons_of_mem _ (ih h)

theorem get?_of_mem {α : Type} {l : List (Text × α)} (hn : (Dict.keys l).Nodup) {k : Text} {a : α} (h : (k, a) ∈ l) : Dict.get? l k = some a := by
  induction l with
  | nil => simp at h
  | cons e l ih =>
    obtain ⟨k', a'⟩ := e
    simp only [Dict.keys, List.map_cons, List.nodup_cons] at hn
    simp only [Dict.get?]
    rcases List.mem_cons.1 h with h | h
    · cases h; simp
    · rw [if_neg, ih hn.2 h]
      intro hk
      exact hn.1 (by rw [hk]; exact List.mem_map_of_mem (f := Prod.fst) h)

theorem get?_perm {α : Type} {l m : List (Text × α)} (h : l.Perm m) (hn : (Dict.keys m).Nodup) (k : Text) : Dict.get? l k = Dict.get? m k := by
  have hl : (Dict.keys l).Nodup := ((h.map Prod.fst).nodup_iff).2 hn
  cases hm : Dict.get? m k with
  | some a => exact get?_of_mem hl (h.mem_iff.2 (get?_mem hm))
  | none =>
    rw [Dict.get?_eq_none] at hm ⊢
    intro hk
    exact hm ((h.map Prod.fst).mem_iff.1 hk)

theorem mem_keys {α : Type} {l : List (Text × α)} {k : Text} {a : α} (h : (k, a) ∈ l) : k ∈ Dict.keys l := List.mem_map_of_mem (f := Prod.fst) h

variable [Field K] [LinearOrder K]

/-! ### Cross sections -/

/-- The group of a temperature. -/
def xsNode : Option (Xs K) → Node K
  | some (.tab t th) => .group [] [(c!"xs", .data (.vec t.y) [(c!"threshold_idx", .int ((th.getD 0 : Nat) + 1))])]
  | _ => .group [] []

omit [Field K] [LinearOrder K] in
theorem xsTo_ok : ∀ (l : List (Text × Option (Xs K))) (g : Grp K), (∀ T x, (T, some x) ∈ l → ∃ t th, x = .tab t th) → (Dict.keys l).Nodup → (∀ T ∈ Dict.keys l, Dict.get? g.items T = none) →
    xsTo l g = .ok ⟨g.attrs, g.items ++ l.map fun e => (e.1, xsNode e.2)⟩ := by
  intro l
  induction l with
  | nil => intro g _ _ _; simp [xsTo]
  | cons e l ih =>
    intro g hx hn hf
    obtain ⟨T, x⟩ := e
    simp only [Dict.keys, List.map_cons, List.nodup_cons] at hn
    have h0 : ∃ g0, xsGroup x = .ok g0 ∧ g0.node = xsNode x := by
      cases x with
      | none => exact ⟨_, rfl, rfl⟩
      | some x =>
        obtain ⟨t, th, rfl⟩ := hx T x (by simp)
        exact ⟨_, rfl, rfl⟩
    obtain ⟨g0, h0, h1⟩ := h0
    unfold xsTo
    simp only [h0, ok_bind, h1]
    rw [add_ok (hf T (by simp [Dict.keys]))]
    simp only [ok_bind]
    rw [ih _ (fun T' x' h' => hx T' x' (by simp [h'])) hn.2 (fun T' h' => by
      rw [get?_app, hf T' (by simp [Dict.keys] at h' ⊢; exact Or.inr h')]
      simp only [Dict.get?, Option.none_or]
      rw [if_neg]
      intro he
      subst he
      exact hn.1 h')]
    simp

omit [Field K] [LinearOrder K] in
/-- The items are read back, in any order. -/
theorem xsFrom_ok (energy : List (Text × List K)) (f : Text → Option (Option (Xs K))) : ∀ (L : List (Text × Node K)) (acc : List (Text × Option (Xs K))), (Dict.keys L).Nodup →
    (∀ T n, (T, n) ∈ L → endsK T = true → ∃ x, f T = some x ∧ n = xsNode x ∧ ∀ x', x = some x' → OnGrid energy T x') → (∀ T ∈ Dict.keys L, Dict.get? acc T = none) →
    ∃ D, xsFrom energy L acc = .ok D ∧ ∀ T, (T ∈ Dict.keys L ∧ endsK T = true → (Dict.get? D T).join = (f T).join.map Xs.back) ∧
      (¬ (T ∈ Dict.keys L ∧ endsK T = true) → Dict.get? D T = Dict.get? acc T) := by
  intro L
  induction L with
  | nil => intro acc _ _ _; exact ⟨acc, rfl, fun T => ⟨fun h => by simp [Dict.keys] at h, fun _ => rfl⟩⟩
  | cons e L ih =>
    intro acc hn hf ha
    obtain ⟨T0, n0⟩ := e
    simp only [Dict.keys, List.map_cons, List.nodup_cons] at hn
    have hf' : ∀ T n, (T, n) ∈ L → endsK T = true → ∃ x, f T = some x ∧ n = xsNode x ∧ ∀ x', x = some x' → OnGrid energy T x' := fun T n h => hf T n (by simp [h])
    have hkeys : ∀ T, T ∈ Dict.keys ((T0, n0) :: L) ↔ T = T0 ∨ T ∈ Dict.keys L := by intro T; simp [Dict.keys]
    by_cases hk : endsK T0 = true
    · obtain ⟨x, hx, hn0, hg⟩ := hf T0 n0 (by simp) hk
      cases x with
      | none =>
        obtain ⟨D, d1, d2⟩ := ih acc hn.2 hf' (fun T h => ha T ((hkeys T).2 (Or.inr h)))
        refine ⟨D, ?_, fun T => ⟨fun h => ?_, fun h => ?_⟩⟩
        · rw [hn0]
          simp only [xsFrom, hk, if_true, xsNode, Dict.get?]
          simpa using d1
        · by_cases hT : T = T0
          · subst hT
            rw [(d2 T).2 (fun h' => hn.1 h'.1), ha T ((hkeys T).2 (Or.inl rfl)), hx]
            rfl
          · exact (d2 T).1 ⟨(((hkeys T).1 h.1).resolve_left hT), h.2⟩
        · exact (d2 T).2 fun h' => h ⟨(hkeys T).2 (Or.inr h'.1), h'.2⟩
      | some x =>
        obtain ⟨e, y, th, he, rfl⟩ := hg x rfl
        obtain ⟨D, d1, d2⟩ := ih (Dict.set acc T0 (some (.tab (Tab1D.linlin (e.drop (th.getD 0)) y) (some (th.getD 0))))) hn.2 hf' (fun T h => by
          have : T ≠ T0 := fun h' => hn.1 (by rw [← h']; exact h)
          rw [Dict.get?_set_ne _ _ this]
          exact ha T ((hkeys T).2 (Or.inr h)))
        refine ⟨D, ?_, fun T => ⟨fun h => ?_, fun h => ?_⟩⟩
        · rw [hn0]
          simp only [xsFrom, hk, if_true, xsNode, Dict.get?, Option.isNone_some, Bool.false_eq_true, if_false, he, Grp.dset, ok_bind, Val.toVec, getAttr, Val.toInt]
          have : (((th.getD 0 : Nat) : Int) + 1 - 1).toNat = th.getD 0 := by omega
          rw [this]
          exact d1
        · by_cases hT : T = T0
          · subst hT
            rw [(d2 T).2 (fun h' => hn.1 h'.1), Dict.get?_set_same, hx]
            rfl
          · exact (d2 T).1 ⟨(((hkeys T).1 h.1).resolve_left hT), h.2⟩
        · rw [(d2 T).2 fun h' => h ⟨(hkeys T).2 (Or.inr h'.1), h'.2⟩, Dict.get?_set_ne]
          intro hT
          subst hT
          exact h ⟨(hkeys T).2 (Or.inl rfl), hk⟩
    · obtain ⟨D, d1, d2⟩ := ih acc hn.2 hf' (fun T h => ha T ((hkeys T).2 (Or.inr h)))
      refine ⟨D, ?_, fun T => ⟨fun h => ?_, fun h => ?_⟩⟩
      · simp only [xsFrom, hk, if_false]
        simpa using d1
      · refine (d2 T).1 ⟨((hkeys T).1 h.1).resolve_left ?_, h.2⟩
        intro hT
        subst hT
        exact hk h.2
      · exact (d2 T).2 fun h' => h ⟨(hkeys T).2 (Or.inr h'.1), h'.2⟩

variable [IsStrictOrderedRing K]

/-! ### Products -/

theorem productsTo_ok' (ps : List (Product K)) (hp : ∀ p ∈ ps, p.Stored) : ∀ (i : Nat) (g : Grp K), (∀ j, i ≤ j → Dict.get? g.items (prodName j) = none) →
    ∃ gs : List (Grp K), productsTo ps i g = .ok ⟨g.attrs, g.items ++ numbered prodName (gs.map Grp.node) i⟩ ∧ gs.length = ps.length ∧
      ∀ k (hk : k < gs.length) (hk' : k < ps.length), productFrom gs[k] = .ok ps[k].back := by
  induction ps with
  | nil => intro i g _; exact ⟨[], by simp [productsTo, numbered], rfl, fun k hk => by simp at hk⟩
  | cons p ps ih =>
    intro i g hf
    obtain ⟨pg, e1, e2⟩ := product_round (hp p (by simp))
    obtain ⟨gs, f1, f2, f3⟩ := ih (fun p' h' => hp p' (by simp [h'])) (i + 1) ⟨g.attrs, g.items ++ [(prodName i, pg.node)]⟩ (fun j hj => by
        rw [get?_app, hf j (by omega)]
        simp only [Dict.get?, Option.none_or]
        rw [if_neg fun h => by have := prodName_inj h; omega])
    refine ⟨pg :: gs, ?_, by simp [f2], ?_⟩
    · unfold productsTo
      simp only [e1, ok_bind, add_ok (hf i (le_refl i)), f1]
      simp [numbered]
    · intro k hk hk'
      cases k with
      | zero => simpa using e2
      | succ k => simpa using f3 k (by simpa using hk) (by simpa using hk')

omit [IsStrictOrderedRing K] in
theorem productsFrom_ok (g : Grp K) : ∀ (gs : List (Grp K)) (ps : List (Product K)) (i : Nat), gs.length = ps.length →
    (∀ k (hk : k < gs.length), Dict.get? g.items (prodName (i + k)) = some (gs[k]).node) → (∀ k (hk : k < gs.length) (hp : k < ps.length), productFrom gs[k] = .ok ps[k]) →
    productsFrom g gs.length i = .ok ps := by
  intro gs
  induction gs with
  | nil =>
    intro ps i h1 _ _
    have e1 : ps = [] := List.length_eq_zero_iff.1 h1.symm
    subst e1
    rfl
  | cons pg gs ih =>
    intro ps i h1 hg hr
    cases ps with
    | nil => simp at h1
    | cons p ps =>
      have e0 : Dict.get? g.items (prodName i) = some (.group pg.attrs pg.items) := hg 0 (by simp)
      have r1 : productFrom pg = .ok p := hr 0 (by simp) (by simp)
      have := ih ps (i + 1) (by simpa using h1) (fun k hk => by
          have := hg (k + 1) (by simpa using hk)
          rw [show i + (k + 1) = i + 1 + k by omega] at this
          simpa using this) (fun k hk hp => hr (k + 1) (Nat.succ_lt_succ hk) (Nat.succ_lt_succ hp))
      simp only [List.length_cons, productsFrom, group_of e0, ok_bind, r1, this]

/-! ### Reactions -/

omit [Field K] [LinearOrder K] [IsStrictOrderedRing K] in
theorem numbered_filter (gs : List (Node K)) : ∀ i, ((numbered prodName gs i).filter fun e => isProduct e.1).length = gs.length := by
  induction gs with
  | nil => intro i; rfl
  | cons n ns ih => intro i; simp [numbered, isProduct_name, ih]

/-- The reaction is written, and what is written is read as the same reaction, in whatever order h5py gives the items. -/
theorem reaction_round (label : Nat → Text) {ord : List (Text × Node K) → List (Text × Node K)} (ho : ∀ l, (ord l).Perm l) {energy : List (Text × List K)} {r : Reaction K}
    (h : r.Stored energy) : ∃ g, reactionTo label r = .ok g ∧ ∀ energy', (∀ T, Dict.get? energy' T = Dict.get? energy T) →
      ∃ r', reactionFrom ord g energy' = .ok r' ∧ SameReaction r r' ∧ r'.derived = [] := by
  set A : Attrs K := [(c!"mt", .int r.mt), (c!"label", .str (label r.mt)), (c!"Q_value", .num r.q), (c!"center_of_mass", .int (if r.com then 1 else 0)),
    (c!"redundant", .int (if r.redundant then 1 else 0))] with hA
  set X := r.xs.map fun e => (e.1, xsNode e.2) with hX
  have hXk : Dict.keys X = Dict.keys r.xs := by simp [hX, Dict.keys]
  have h1 : xsTo r.xs ⟨A, []⟩ = .ok ⟨A, X⟩ := by
    rw [xsTo_ok r.xs ⟨A, []⟩ (fun T x hm => by obtain ⟨e, y, th, _, rfl⟩ := h.xs T x hm; exact ⟨_, _, rfl⟩) h.keys (fun _ _ => rfl)]
    simp [hX]
  have hXp : ∀ j, Dict.get? X (prodName j) = none := by
    intro j
    rw [Dict.get?_eq_none, hXk]
    intro hm
    exact temp_ne (p := c!"product_") (h.temps _ hm) j rfl
  obtain ⟨gs, f1, f2, f3⟩ := productsTo_ok' r.products h.products 0 ⟨A, X⟩ (fun j _ => hXp j)
  simp only at f1
  set P := numbered prodName (gs.map Grp.node) 0 with hP
  refine ⟨⟨A, X ++ P⟩, ?_, ?_⟩
  · rw [← f1, reactionTo]
    have : ((((((Grp.empty : Grp K).attr c!"mt" (.int r.mt)).attr c!"label" (.str (label r.mt))).attr c!"Q_value" (.num r.q)).attr c!"center_of_mass" (.int (if r.com then 1 else 0))).attr
        c!"redundant" (.int (if r.redundant then 1 else 0))) = ⟨A, []⟩ := rfl
    rw [this, h1]
    rfl
  · intro energy' he'
    have hPk : Dict.keys P = (List.range' 0 gs.length).map prodName := by rw [hP, numbered_keys]; simp
    have hnd : (Dict.keys (X ++ P)).Nodup := by
      have : Dict.keys (X ++ P) = Dict.keys X ++ Dict.keys P := by simp [Dict.keys]
      rw [this, hXk, hPk, List.nodup_append]
      refine ⟨h.keys, (List.nodup_range').map prodName_inj, ?_⟩
      intro a ha b hb hab
      subst hab
      obtain ⟨j, _, hj⟩ := List.mem_map.1 hb
      exact temp_ne (p := c!"product_") (h.temps a ha) j hj
    have hp := ho (X ++ P)
    have hnd' : (Dict.keys (ord (X ++ P))).Nodup := ((hp.map Prod.fst).nodup_iff).2 hnd
    have hkeys : ∀ T, T ∈ Dict.keys (ord (X ++ P)) ↔ T ∈ Dict.keys (X ++ P) := fun T => (hp.map Prod.fst).mem_iff
    obtain ⟨D, d1, d2⟩ := xsFrom_ok energy' (Dict.get? r.xs) (ord (X ++ P)) [] hnd' (fun T n hm hk => by
      have hm' := hp.mem_iff.1 hm
      rcases List.mem_append.1 hm' with hm' | hm'
      · obtain ⟨e, he, hee⟩ := List.mem_map.1 hm'
        obtain ⟨T', x⟩ := e
        cases hee
        refine ⟨x, get?_of_mem h.keys he, rfl, ?_⟩
        rintro x' rfl
        obtain ⟨e, y, th, h1, h2⟩ := h.xs _ _ he
        exact ⟨e, y, th, by rw [he', h1], h2⟩
      · have := mem_keys hm'
        rw [hPk] at this
        obtain ⟨j, _, rfl⟩ := List.mem_map.1 this
        have hc : endsK (prodName j) = false := not_endsK_digits (p := c!"product_") j
        rw [hc] at hk
        exact absurd hk (by decide)) (fun _ _ => rfl)
    have hcount : ((ord (X ++ P)).filter fun e => isProduct e.1).length = gs.length := by
      rw [(hp.filter _).length_eq, List.filter_append]
      have hX0 : (X.filter fun e => isProduct e.1) = [] := by
        rw [List.filter_eq_nil_iff]
        intro e he
        have := h.temps e.1 (by rw [← hXk]; exact List.mem_map_of_mem (f := Prod.fst) he)
        simp [not_isProduct this]
      rw [hX0, hP, List.nil_append, numbered_filter]
      simp
    have hprods := productsFrom_ok ⟨A, X ++ P⟩ gs (r.products.map Product.back) 0 (by simp [f2]) (fun k hk => by
        rw [get?_app, hXp, Option.none_or, hP, numbered_get prodName_inj, List.getElem?_map, List.getElem?_eq_getElem hk]
        rfl) (fun k hk hp => by
        rw [f3 k hk (by omega)]
        simp)
    refine ⟨⟨r.mt, r.q, r.com, r.redundant, D, r.products.map Product.back, []⟩, ?_, ⟨rfl, rfl, rfl, rfl, rfl, ?_⟩, rfl⟩
    · have a1 : getAttr A c!"mt" = .ok (.int r.mt) := by simp [hA, getAttr, Dict.get?]
      have a2 : getAttr A c!"Q_value" = .ok (.num r.q) := by simp [hA, getAttr, Dict.get?]
      have a3 : getAttr A c!"center_of_mass" = .ok (.int (if r.com then 1 else 0)) := by simp [hA, getAttr, Dict.get?]
      have a4 : redundantFrom A = .ok (if r.redundant then 1 else 0) := by simp [redundantFrom, hA, getAttr, Dict.get?, Val.toInt]
      simp only [reactionFrom, a1, a2, a3, a4, ok_bind, Val.toInt, Val.toNum, d1, hcount, hprods]
      cases r.com <;> cases r.redundant <;> rfl
    · intro T
      by_cases hT : T ∈ Dict.keys (ord (X ++ P)) ∧ endsK T = true
      · exact (d2 T).1 hT
      · rw [(d2 T).2 hT]
        have : Dict.get? r.xs T = none := by
          rw [Dict.get?_eq_none]
          intro hm
          exact hT ⟨(hkeys T).2 (by simp only [Dict.keys, List.map_append, List.mem_append]; left; rw [← hXk] at hm; exact hm), endsK_temp (h.temps T hm)⟩
        rw [this]
        rfl

end ASAPy.Hdf5
