import Verif.Hdf5.Rebuild
import Verif.Hdf5.Spec3

/-!
# Nuclides are read back
-/

namespace ASAPy.Hdf5

open Dec

variable {K : Type}

/-! ### Names of reactions -/

theorem natVal_zeros (k : Nat) (s : Text) : natVal (List.replicate k '0' ++ s) = natVal s := by
  unfold natVal
  rw [List.foldl_append]
  have : (List.replicate k '0').foldl (fun a c => 10 * a + digitVal c) 0 = 0 := by
    induction k with
    | zero => rfl
    | succ k ih =>
      simp only [List.replicate_succ, List.foldl_cons]
      exact ih
  rw [this]

theorem rxName_inj {a b : Nat} (h : rxName a = rxName b) : a = b := by
  have := congrArg natVal (List.append_cancel_left h)
  simpa [natVal_zeros, natVal_natStr] using this

theorem rxName_prefix (a : Nat) : c!"reaction_".isPrefixOf (rxName a) = true := by simp [rxName]

/-! ### Optional items -/

def optItem (k : Text) (o : Option (Grp K)) : List (Text × Node K) := match o with
  | some t => [(k, t.node)]
  | none => []

theorem addIf_ok {g : Grp K} {k : Text} (o : Option (Grp K)) (h : Dict.get? g.items k = none) : g.addIf k o = .ok ⟨g.attrs, g.items ++ optItem k o⟩ := by
  cases o with
  | none => simp [Grp.addIf, optItem]
  | some t => simp only [Grp.addIf, optItem]; exact add_ok h

theorem optItem_same (k : Text) (o : Option (Grp K)) : Dict.get? (optItem k o) k = o.map Grp.node := by
  cases o <;> simp [optItem, Dict.get?]

theorem optItem_ne {k k' : Text} (o : Option (Grp K)) (h : k ≠ k') : Dict.get? (optItem k o) k' = none := by
  cases o <;> simp [optItem, Dict.get?, h]

/-! ### Temperatures and energies -/

theorem perm_map {α β : Type} {f : α → β} : ∀ (l : List α) {m : List β}, m.Perm (l.map f) → ∃ l' : List α, m = l'.map f ∧ l'.Perm l := by
  intro l
  induction l with
  | nil => intro m h; exact ⟨[], by simpa using h, List.Perm.refl _⟩
  | cons x l ih =>
    intro m h
    have hx : f x ∈ m := h.mem_iff.2 (by simp)
    obtain ⟨s, t, rfl⟩ := List.append_of_mem hx
    have h' : (s ++ t).Perm (l.map f) := (List.perm_cons (f x)).1 ((List.perm_middle.symm).trans h)
    obtain ⟨l', e, hp⟩ := ih h'
    obtain ⟨l1, l2, rfl, e1, e2⟩ := List.append_eq_map_iff.1 e
    refine ⟨l1 ++ x :: l2, by simp [e1, e2], List.perm_middle.trans (hp.cons x)⟩

theorem kTsTo_ok (temp : K → Text) : ∀ (l : List K) (g : Grp K), (l.map temp).Nodup → (∀ x ∈ l, Dict.get? g.items (temp x) = none) →
    kTsTo temp l g = .ok ⟨g.attrs, g.items ++ l.map fun x => (temp x, Node.data (.num x) [])⟩ := by
  intro l
  induction l with
  | nil => intro g _ _; simp [kTsTo]
  | cons x l ih =>
    intro g hn hf
    simp only [List.map_cons, List.nodup_cons] at hn
    unfold kTsTo
    rw [add_ok (hf x (by simp))]
    simp only [ok_bind]
    rw [ih _ hn.2 (fun y hy => by
      rw [get?_app, hf y (by simp [hy])]
      simp only [Dict.get?, Option.none_or]
      rw [if_neg]
      intro he
      exact hn.1 (by rw [he]; exact List.mem_map_of_mem hy))]
    simp

theorem kTsFrom_map (temp : K → Text) : ∀ (l : List K), kTsFrom (l.map fun x => (temp x, Node.data (.num x) [])) = .ok l := by
  intro l
  induction l with
  | nil => rfl
  | cons x l ih => simp [kTsFrom, Val.toNum, ih]

theorem kTsFrom_perm (temp : K → Text) (l : List K) {m : List (Text × Node K)} (h : m.Perm (l.map fun x => (temp x, Node.data (.num x) []))) : ∃ l', kTsFrom m = .ok l' ∧ l'.Perm l := by
  obtain ⟨l', h1, h2⟩ := perm_map l h
  exact ⟨l', by rw [h1]; exact kTsFrom_map temp l', h2⟩

/-- A group of vectors. -/
def vecItems (l : List (Text × List K)) : List (Text × Node K) := l.map fun e => (e.1, Node.data (.vec e.2) [])

theorem vecItems_get (l : List (Text × List K)) (T : Text) : Dict.get? (vecItems l) T = (Dict.get? l T).map fun e => Node.data (.vec e) [] := by
  induction l with
  | nil => rfl
  | cons e l ih =>
    simp only [vecItems, List.map_cons, Dict.get?]
    split
    · rfl
    · exact ih

theorem vecItems_keys (l : List (Text × List K)) : Dict.keys (vecItems l) = Dict.keys l := by simp [vecItems, Dict.keys]

theorem energyGridsTo_ok (energy : List (Text × List K)) : ∀ (l : List Text) (acc : List (Text × List K)) (a : Attrs K), l.Nodup → (∀ T ∈ l, T ∈ Dict.keys energy) → (∀ T ∈ l, T ∉ Dict.keys acc) →
    (Dict.keys acc).Nodup → (∀ T e, (T, e) ∈ acc → Dict.get? energy T = some e) →
    ∃ out, energyGridsTo energy l ⟨a, vecItems acc⟩ = .ok ⟨a, vecItems out⟩ ∧ (Dict.keys out).Nodup ∧ (∀ T e, (T, e) ∈ out → Dict.get? energy T = some e) ∧
      ∀ T, T ∈ Dict.keys out ↔ T ∈ l ∨ T ∈ Dict.keys acc := by
  intro l
  induction l with
  | nil => intro acc a _ _ _ h1 h2; exact ⟨acc, rfl, h1, h2, fun T => by simp⟩
  | cons T l ih =>
    intro acc a hn hk hf h1 h2
    simp only [List.nodup_cons] at hn
    obtain ⟨e, he⟩ := Option.isSome_iff_exists.1 (Dict.get?_isSome.2 (hk T (by simp)))
    have hfr : Dict.get? (vecItems acc) T = none := by rw [Dict.get?_eq_none, vecItems_keys]; exact hf T (by simp)
    have happ : vecItems acc ++ [(T, Node.data (.vec e) [])] = vecItems (acc ++ [(T, e)]) := by simp [vecItems]
    have hka : ∀ T', T' ∈ Dict.keys (acc ++ [(T, e)]) ↔ T' ∈ Dict.keys acc ∨ T' = T := by intro T'; simp [Dict.keys]
    obtain ⟨out, o1, o2, o3, o4⟩ := ih (acc ++ [(T, e)]) a hn.2 (fun T' h' => hk T' (by simp [h'])) (fun T' h' => by
        rw [hka, not_or]
        exact ⟨hf T' (by simp [h']), fun he => hn.1 (he ▸ h')⟩) (by
        have : Dict.keys (acc ++ [(T, e)]) = Dict.keys acc ++ [T] := by simp [Dict.keys]
        rw [this, List.nodup_append]
        exact ⟨h1, by simp, fun x hx y hy => by
          simp only [List.mem_singleton] at hy
          rintro rfl
          exact hf x (by simp [hy]) hx⟩) (fun T' e' h' => by
        rcases List.mem_append.1 h' with h' | h'
        · exact h2 T' e' h'
        · simp only [List.mem_singleton, Prod.mk.injEq] at h'
          rw [h'.1, h'.2, he])
    refine ⟨out, ?_, o2, o3, fun T' => ?_⟩
    · unfold energyGridsTo
      rw [he]
      simp only
      rw [add_ok hfr]
      simp only [ok_bind, happ, o1]
    · rw [o4, hka]
      simp only [List.mem_cons]
      tauto

theorem gridsTo_ok {energy : List (Text × List K)} {temps : List Text} (hn : temps.Nodup) (hk : ∀ T ∈ temps, T ∈ Dict.keys energy) (ho : ∀ T ∈ Dict.keys energy, T ∈ temps ∨ T = c!"0K") :
    ∃ out, gridsTo energy temps = .ok ⟨[], vecItems out⟩ ∧ (Dict.keys out).Nodup ∧ ∀ T, Dict.get? out T = Dict.get? energy T := by
  obtain ⟨out, o1, o2, o3, o4⟩ := energyGridsTo_ok energy temps [] [] hn hk (fun _ _ => by simp [Dict.keys]) (by simp [Dict.keys]) (fun _ _ h => by simp at h)
  have hfin : ∀ out' : List (Text × List K), (Dict.keys out').Nodup → (∀ T e, (T, e) ∈ out' → Dict.get? energy T = some e) → (∀ T ∈ Dict.keys energy, T ∈ Dict.keys out') →
      ∀ T, Dict.get? out' T = Dict.get? energy T := by
    intro out' h1 h2 h3 T
    cases hT : Dict.get? out' T with
    | some e => exact (h2 T e (get?_mem hT)).symm
    | none =>
      rw [Dict.get?_eq_none] at hT
      symm
      rw [Dict.get?_eq_none]
      exact fun h => hT (h3 T h)
  have o1' : energyGridsTo energy temps Grp.empty = .ok ⟨[], vecItems out⟩ := o1
  unfold gridsTo
  rw [o1']
  simp only [ok_bind]
  cases h0 : Dict.get? energy c!"0K" with
  | none =>
    refine ⟨out, rfl, o2, hfin out o2 o3 fun T hT => (o4 T).2 (Or.inl ((ho T hT).resolve_right ?_))⟩
    rintro rfl
    rw [Dict.get?_eq_none] at h0
    exact h0 hT
  | some e =>
    by_cases hh : c!"0K" ∈ Dict.keys out
    · have : (Dict.get? (vecItems out) c!"0K").isSome = true := by rw [Dict.get?_isSome, vecItems_keys]; exact hh
      simp only [Grp.has, this, if_true]
      refine ⟨out, rfl, o2, hfin out o2 o3 fun T hT => ?_⟩
      rcases ho T hT with hT | rfl
      · exact (o4 T).2 (Or.inl hT)
      · exact hh
    · have hnone : Dict.get? (vecItems out) c!"0K" = none := by rw [Dict.get?_eq_none, vecItems_keys]; exact hh
      simp only [Grp.has, hnone, Option.isSome_none, Bool.false_eq_true, if_false]
      rw [add_ok hnone]
      have hkeys : Dict.keys (out ++ [(c!"0K", e)]) = Dict.keys out ++ [c!"0K"] := by simp [Dict.keys]
      have hnd : (Dict.keys (out ++ [(c!"0K", e)])).Nodup := by
        rw [hkeys, List.nodup_append]
        exact ⟨o2, by simp, fun x hx y hy => by
          simp only [List.mem_singleton] at hy
          rintro rfl
          exact hh (hy ▸ hx)⟩
      refine ⟨out ++ [(c!"0K", e)], by simp [vecItems], hnd, hfin _ hnd (fun T e' h' => ?_) fun T hT => ?_⟩
      · rcases List.mem_append.1 h' with h' | h'
        · exact o3 T e' h'
        · simp only [List.mem_singleton, Prod.mk.injEq] at h'
          rw [h'.1, h'.2, h0]
      · rw [hkeys, List.mem_append]
        rcases ho T hT with hT | rfl
        · exact Or.inl ((o4 T).2 (Or.inl hT))
        · exact Or.inr (by simp)

theorem energyFrom_ok : ∀ (l : List (Text × List K)) (acc : List (Text × List K)), (Dict.keys l).Nodup → ∃ D, energyFromItems (vecItems l) acc = .ok D ∧
    ∀ T, Dict.get? D T = (Dict.get? l T).or (Dict.get? acc T) := by
  intro l
  induction l with
  | nil => intro acc _; exact ⟨acc, rfl, fun T => by simp [Dict.get?]⟩
  | cons e l ih =>
    intro acc hn
    obtain ⟨T0, v⟩ := e
    simp only [Dict.keys, List.map_cons, List.nodup_cons] at hn
    obtain ⟨D, d1, d2⟩ := ih (Dict.set acc T0 v) hn.2
    refine ⟨D, by simpa [vecItems, energyFromItems, Val.toVec] using d1, fun T => ?_⟩
    rw [d2]
    simp only [Dict.get?]
    by_cases h : T0 = T
    · subst h
      have : Dict.get? l T0 = none := Dict.get?_eq_none.2 hn.1
      rw [this, Dict.get?_set_same]
      simp
    · rw [if_neg h, Dict.get?_set_ne _ _ (Ne.symm h)]

theorem energyFrom_perm {out : List (Text × List K)} (hn : (Dict.keys out).Nodup) {m : List (Text × Node K)} (h : m.Perm (vecItems out)) : ∃ D, energyFromItems m [] = .ok D ∧
    ∀ T, Dict.get? D T = Dict.get? out T := by
  obtain ⟨l', h1, h2⟩ := perm_map out h
  have hn' : (Dict.keys l').Nodup := ((h2.map Prod.fst).nodup_iff).2 hn
  obtain ⟨D, d1, d2⟩ := energyFrom_ok l' [] hn'
  refine ⟨D, by rw [h1]; exact d1, fun T => ?_⟩
  rw [d2, get?_perm h2 hn]
  simp [Dict.get?]

variable [Field K] [LinearOrder K]

/-! ### Probability tables -/

omit [Field K] [LinearOrder K] in
theorem urr_round (u : Dists.Urr K) : ∃ g, urrTo u = .ok g ∧ urrFrom g = .ok u := by
  obtain ⟨e, t, i, n, a, m⟩ := u
  refine ⟨⟨[(c!"interpolation", .int i), (c!"inelastic", .int n), (c!"absorption", .int a), (c!"multiply_smooth", .int (if m then 1 else 0))],
    [(c!"energy", .data (.vec e) []), (c!"table", .data (.cube t) [])]⟩, rfl, ?_⟩
  cases m <;> rfl

theorem urrsTo_ok : ∀ (l : List (Text × Dists.Urr K)) (g : Grp K), (Dict.keys l).Nodup → (∀ T ∈ Dict.keys l, Dict.get? g.items T = none) →
    ∃ f : Dists.Urr K → Grp K, (∀ u, urrFrom (f u) = .ok u) ∧ urrsTo l g = .ok ⟨g.attrs, g.items ++ l.map fun e => (e.1, (f e.2).node)⟩ := by
  have hex : ∃ f : Dists.Urr K → Grp K, ∀ u, urrTo u = .ok (f u) ∧ urrFrom (f u) = .ok u := ⟨fun u => (urr_round u).choose, fun u => (urr_round u).choose_spec⟩
  obtain ⟨f, hf⟩ := hex
  intro l g hn hfr
  refine ⟨f, fun u => (hf u).2, ?_⟩
  induction l generalizing g with
  | nil => simp [urrsTo]
  | cons e l ih =>
    obtain ⟨T, u⟩ := e
    simp only [Dict.keys, List.map_cons, List.nodup_cons] at hn
    unfold urrsTo
    rw [(hf u).1]
    simp only [ok_bind]
    rw [add_ok (hfr T (by simp [Dict.keys]))]
    simp only [ok_bind]
    rw [ih _ hn.2 (fun T' h' => by
      rw [get?_app, hfr T' (by simp [Dict.keys] at h' ⊢; exact Or.inr h')]
      simp only [Dict.get?, Option.none_or]
      rw [if_neg]
      rintro rfl
      exact hn.1 h')]
    simp

omit [Field K] [LinearOrder K] in
theorem urrsFrom_ok {f : Dists.Urr K → Grp K} (hf : ∀ u, urrFrom (f u) = .ok u) : ∀ (l : List (Text × Dists.Urr K)) (acc : List (Text × Dists.Urr K)), (Dict.keys l).Nodup →
    ∃ D, urrsFrom (l.map fun e => (e.1, (f e.2).node)) acc = .ok D ∧ ∀ T, Dict.get? D T = (Dict.get? l T).or (Dict.get? acc T) := by
  intro l
  induction l with
  | nil => intro acc _; exact ⟨acc, rfl, fun T => by simp [Dict.get?]⟩
  | cons e l ih =>
    intro acc hn
    obtain ⟨T0, u⟩ := e
    simp only [Dict.keys, List.map_cons, List.nodup_cons] at hn
    obtain ⟨D, d1, d2⟩ := ih (Dict.set acc T0 u) hn.2
    refine ⟨D, ?_, fun T => ?_⟩
    · simp only [List.map_cons, Grp.node, urrsFrom]
      rw [show (⟨(f u).attrs, (f u).items⟩ : Grp K) = f u from rfl, hf u]
      exact d1
    · rw [d2]
      simp only [Dict.get?]
      by_cases h : T0 = T
      · subst h
        have : Dict.get? l T0 = none := Dict.get?_eq_none.2 hn.1
        rw [this, Dict.get?_set_same]
        simp
      · rw [if_neg h, Dict.get?_set_ne _ _ (Ne.symm h)]

/-! ### Energy released in fission -/

omit [Field K] [LinearOrder K] in
theorem toFn_ofFn (f : Func.Fn K) : toFn (ofFn f) = f := by cases f <;> rfl

theorem release_round [ExpLog K] {r : Func.Release K} (h : ReleaseStored r) : ∃ g, releaseTo r = .ok g ∧ releaseFrom g = .ok r := by
  obtain ⟨qp, p1, p2⟩ := h.prompt
  obtain ⟨qr, q1, q2⟩ := h.recoverable
  have hp := h.parts
  simp only [List.mem_cons, List.not_mem_nil, or_false, forall_eq_or_imp, forall_eq] at hp
  obtain ⟨h1, h2, h3, h4, h5, h6, h7⟩ := hp
  obtain ⟨v1, a1, e1, r1⟩ := funTo_ok h1
  obtain ⟨v2, a2, e2, r2⟩ := funTo_ok h2
  obtain ⟨v3, a3, e3, r3⟩ := funTo_ok h3
  obtain ⟨v4, a4, e4, r4⟩ := funTo_ok h4
  obtain ⟨v5, a5, e5, r5⟩ := funTo_ok h5
  obtain ⟨v6, a6, e6, r6⟩ := funTo_ok h6
  obtain ⟨v7, a7, e7, r7⟩ := funTo_ok h7
  obtain ⟨v8, a8, e8, _⟩ := funTo_ok p2
  obtain ⟨v9, a9, e9, _⟩ := funTo_ok q2
  refine ⟨⟨[], [(c!"fragments", .data v1 a1), (c!"prompt_neutrons", .data v2 a2), (c!"delayed_neutrons", .data v3 a3), (c!"prompt_photons", .data v4 a4),
    (c!"delayed_photons", .data v5 a5), (c!"betas", .data v6 a6), (c!"neutrinos", .data v7 a7), (c!"q_prompt", .data v8 a8), (c!"q_recoverable", .data v9 a9)]⟩, ?_, ?_⟩
  · simp only [releaseTo, e1, e2, e3, e4, e5, e6, e7, p1, q1, e8, e9, ok_bind]
    simp [Grp.add, Grp.empty, Dict.get?]
  · simp [releaseFrom, Grp.dset, Dict.get?, r1, r2, r3, r4, r5, r6, r7, toFn_ofFn]

end ASAPy.Hdf5
