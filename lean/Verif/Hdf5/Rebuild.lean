import Verif.Hdf5.Round4

/-!
# The redundant reactions after an import
-/

namespace ASAPy.Hdf5

variable {K : Type}

/-- The reaction `m` is the sum of those of the `parts` that there are, and is there if one of them is. -/
structure IsSum (d : List (Nat × Reaction K)) (temps : List Text) (m : Nat) (parts : List Nat) : Prop where
  absent : (∀ p ∈ parts, Dict.get? d p = none) → Dict.get? d m = none
  present : (∃ p ∈ parts, (Dict.get? d p).isSome = true) → ∃ r, Dict.get? d m = some r ∧ r.redundant = true ∧ ∀ T ∈ temps, ∃ l,
    Dict.get? r.xs T = some (some (.sum l)) ∧ (parts.filterMap (Dict.get? d)).map (fun r => Dict.get? r.xs T) = l.map fun x => some (some x)

theorem xsAt_ok (T : Text) : ∀ (rs : List (Reaction K)) (l : List (Xs K)), xsAt T rs = .ok l → rs.map (fun r => Dict.get? r.xs T) = l.map fun x => some (some x) := by
  intro rs
  induction rs with
  | nil => intro l h; cases h; rfl
  | cons r rs ih =>
    intro l h
    unfold xsAt at h
    split at h
    · cases h
    · cases h
    · rename_i x hx
      cases hl : xsAt T rs with
      | error e => rw [hl] at h; cases h
      | ok l' =>
        rw [hl] at h
        cases h
        simp [hx, ih l' hl]

theorem sumXs_ok (rs : List (Reaction K)) : ∀ (Ts : List Text) (acc xs : List (Text × Option (Xs K))), sumXs rs Ts acc = .ok xs →
    (∀ T ∉ Ts, Dict.get? xs T = Dict.get? acc T) ∧ ∀ T ∈ Ts, ∃ l, xsAt T rs = .ok l ∧ Dict.get? xs T = some (some (.sum l)) := by
  intro Ts
  induction Ts with
  | nil => intro acc xs h; cases h; exact ⟨fun _ _ => rfl, fun T hT => by simp at hT⟩
  | cons T0 Ts ih =>
    intro acc xs h
    unfold sumXs at h
    cases hl : xsAt T0 rs with
    | error e => rw [hl] at h; cases h
    | ok l =>
      rw [hl] at h
      simp only [ok_bind] at h
      obtain ⟨h1, h2⟩ := ih _ _ h
      refine ⟨fun T hT => ?_, fun T hT => ?_⟩
      · simp only [List.mem_cons, not_or] at hT
        rw [h1 T hT.2, Dict.get?_set_ne _ _ hT.1]
      · by_cases hT' : T ∈ Ts
        · exact h2 T hT'
        · have : T = T0 := (List.mem_cons.1 hT).resolve_right hT'
          subst this
          exact ⟨l, hl, by rw [h1 T hT', Dict.get?_set_same]⟩

variable [Field K] [LinearOrder K]

/-- One step. -/
theorem rebuild_cons {g : Grp K} {temps : List Text} {m : Nat} {ps : List Nat} {rules : List (Nat × List Nat)} {d d' : List (Nat × Reaction K)} (h : rebuild g temps ((m, ps) :: rules) d = .ok d') :
    ((Dict.get? d m).isSome = true ∧ rebuild g temps rules d = .ok d') ∨
    (Dict.get? d m = none ∧ ps.filterMap (Dict.get? d) = [] ∧ rebuild g temps rules d = .ok d') ∨
    (Dict.get? d m = none ∧ ps.filterMap (Dict.get? d) ≠ [] ∧ ∃ nu xs, nuFor g [18] m = .ok nu ∧ sumXs (ps.filterMap (Dict.get? d)) temps [] = .ok xs ∧
      rebuild g temps rules (Dict.set d m ⟨m, 0, true, true, xs, [], nu⟩) = .ok d') := by
  unfold rebuild at h
  split at h
  · rename_i h0; exact Or.inl ⟨h0, h⟩
  · rename_i h0
    have h0' : Dict.get? d m = none := by simpa using h0
    simp only at h
    split at h
    · rename_i h1; exact Or.inr (Or.inl ⟨h0', by simpa using h1, h⟩)
    · rename_i h1
      refine Or.inr (Or.inr ⟨h0', by simpa using h1, ?_⟩)
      cases hn : nuFor g [18] m with
      | error e => rw [hn] at h; cases h
      | ok nu =>
        rw [hn] at h
        simp only [ok_bind] at h
        cases hx : sumXs (ps.filterMap (Dict.get? d)) temps [] with
        | error e => rw [hx] at h; cases h
        | ok xs =>
          rw [hx] at h
          exact ⟨nu, xs, rfl, rfl, h⟩

/-- What is there stays. -/
theorem rebuild_some {g : Grp K} {temps : List Text} : ∀ (rules : List (Nat × List Nat)) (d d' : List (Nat × Reaction K)), rebuild g temps rules d = .ok d' →
    ∀ m r, Dict.get? d m = some r → Dict.get? d' m = some r := by
  intro rules
  induction rules with
  | nil => intro d d' h m r hr; cases h; exact hr
  | cons e rules ih =>
    obtain ⟨m0, ps⟩ := e
    intro d d' h m r hr
    rcases rebuild_cons h with ⟨_, h'⟩ | ⟨_, _, h'⟩ | ⟨hn, _, nu, xs, _, _, h'⟩
    · exact ih d d' h' m r hr
    · exact ih d d' h' m r hr
    · refine ih _ d' h' m r ?_
      rw [Dict.get?_set_ne, hr]
      intro he
      rw [he, hn] at hr
      cases hr

/-- What no rule is for is not added. -/
theorem rebuild_other {g : Grp K} {temps : List Text} : ∀ (rules : List (Nat × List Nat)) (d d' : List (Nat × Reaction K)), rebuild g temps rules d = .ok d' →
    ∀ m, m ∉ rules.map Prod.fst → Dict.get? d' m = Dict.get? d m := by
  intro rules
  induction rules with
  | nil => intro d d' h m _; cases h; rfl
  | cons e rules ih =>
    obtain ⟨m0, ps⟩ := e
    intro d d' h m hm
    simp only [List.map_cons, List.mem_cons, not_or] at hm
    rcases rebuild_cons h with ⟨_, h'⟩ | ⟨_, _, h'⟩ | ⟨_, _, nu, xs, _, _, h'⟩
    · exact ih d d' h' m hm.2
    · exact ih d d' h' m hm.2
    · rw [ih _ d' h' m hm.2, Dict.get?_set_ne _ _ hm.1]

/-- The rules to come do not change whether there is a `p`: it is there, or none of the parts of its rules is, and no rule makes one. -/
def Settled (all : List Nat) (rules : List (Nat × List Nat)) (d : List (Nat × Reaction K)) (p : Nat) : Prop :=
  (Dict.get? d p).isSome = true ∨ ∀ ps, (p, ps) ∈ rules → ∀ q ∈ ps, Dict.get? d q = none ∧ q ∉ all

theorem rebuild_settled {g : Grp K} {temps : List Text} {all : List Nat} : ∀ (rules : List (Nat × List Nat)) (d d' : List (Nat × Reaction K)), rebuild g temps rules d = .ok d' →
    (∀ m ∈ rules.map Prod.fst, m ∈ all) → ∀ p, Settled all rules d p → Dict.get? d' p = Dict.get? d p := by
  intro rules
  induction rules with
  | nil => intro d d' h _ p _; cases h; rfl
  | cons e rules ih =>
    obtain ⟨m0, ps⟩ := e
    intro d d' h ha p hp
    have hs : Settled all rules d p := hp.imp id fun h ps' hm => h ps' (by simp [hm])
    have ha' : ∀ m ∈ rules.map Prod.fst, m ∈ all := fun m hm => ha m (by simp only [List.map_cons, List.mem_cons]; exact Or.inr hm)
    rcases rebuild_cons h with ⟨_, h'⟩ | ⟨_, _, h'⟩ | ⟨hn, hne, nu, xs, _, _, h'⟩
    · exact ih d d' h' ha' p hs
    · exact ih d d' h' ha' p hs
    · have hpm : p ≠ m0 := by
        rintro rfl
        rcases hp with hp | hp
        · rw [hn] at hp; cases hp
        · refine hne (List.filterMap_eq_nil_iff.2 fun q hq => (hp ps (by simp) q hq).1)
      rw [ih _ d' h' ha' p ?_, Dict.get?_set_ne _ _ hpm]
      rcases hs with hs | hs
      · left; rw [Dict.get?_set_ne _ _ hpm]; exact hs
      · right
        intro ps' hm q hq
        obtain ⟨h1, h2⟩ := hs ps' hm q hq
        refine ⟨?_, h2⟩
        rw [Dict.get?_set_ne, h1]
        rintro rfl
        exact h2 (ha q (by simp))

/-- For every rule, the parts are settled when it is its turn. -/
def Fine (all : List Nat) (d : List (Nat × Reaction K)) : List (Nat × List Nat) → Prop
  | [] => True
  | (_, ps) :: rules => (∀ p ∈ ps, Settled all rules d p) ∧ Fine all d rules

theorem fine_set {all : List Nat} {d : List (Nat × Reaction K)} {m : Nat} {r : Reaction K} (hm : m ∈ all) : ∀ {rules : List (Nat × List Nat)}, Fine all d rules → Fine all (Dict.set d m r) rules := by
  have hset : ∀ {rules : List (Nat × List Nat)} {p : Nat}, Settled all rules d p → Settled all rules (Dict.set d m r) p := by
    intro rules p hs
    by_cases hpm : p = m
    · left; rw [hpm, Dict.get?_set_same]; rfl
    · rcases hs with hs | hs
      · left; rw [Dict.get?_set_ne _ _ hpm]; exact hs
      · right
        intro ps' hm' q hq
        obtain ⟨h1, h2⟩ := hs ps' hm' q hq
        refine ⟨?_, h2⟩
        rw [Dict.get?_set_ne, h1]
        rintro rfl
        exact h2 hm
  intro rules
  induction rules with
  | nil => intro _; trivial
  | cons e rules ih =>
    rintro ⟨h1, h2⟩
    exact ⟨fun p hp => hset (h1 p hp), ih h2⟩

theorem rebuild_sum {g : Grp K} {temps : List Text} {all : List Nat} : ∀ (rules : List (Nat × List Nat)) (d d' : List (Nat × Reaction K)), rebuild g temps rules d = .ok d' →
    (∀ m ∈ rules.map Prod.fst, m ∈ all) → (rules.map Prod.fst).Nodup → Fine all d rules → (∀ e ∈ rules, e.1 ∉ e.2) → ∀ m ps, (m, ps) ∈ rules → Dict.get? d m = none → IsSum d' temps m ps := by
  intro rules
  induction rules with
  | nil => intro d d' _ _ _ _ _ m ps hm; simp at hm
  | cons e rules ih =>
    obtain ⟨m0, ps0⟩ := e
    intro d d' h ha hnd hf hself m ps hm hd
    have ha' : ∀ m ∈ rules.map Prod.fst, m ∈ all := fun m hm => ha m (by simp only [List.map_cons, List.mem_cons]; exact Or.inr hm)
    simp only [List.map_cons, List.nodup_cons] at hnd
    obtain ⟨hf1, hf2⟩ := hf
    have hself' : ∀ e ∈ rules, e.1 ∉ e.2 := fun e he => hself e (by simp [he])
    rcases rebuild_cons h with ⟨hs, h'⟩ | ⟨hn, he, h'⟩ | ⟨hn, hne, nu, xs, _, hx, h'⟩
    · rcases List.mem_cons.1 hm with hm | hm
      · cases hm; rw [hd] at hs; cases hs
      · exact ih d d' h' ha' hnd.2 hf2 hself' m ps hm hd
    · rcases List.mem_cons.1 hm with hm | hm
      · cases hm
        have hall : ∀ p ∈ ps0, Dict.get? d' p = none := fun p hp => by
          rw [rebuild_settled rules d d' h' ha' p (hf1 p hp)]
          exact List.filterMap_eq_nil_iff.1 he p hp
        refine ⟨fun _ => by rw [rebuild_other rules d d' h' m0 hnd.1, hn], ?_⟩
        rintro ⟨p, hp, hs⟩
        rw [hall p hp] at hs
        cases hs
      · exact ih d d' h' ha' hnd.2 hf2 hself' m ps hm hd
    · rcases List.mem_cons.1 hm with hm | hm
      · cases hm
        have hfine := fine_set (r := ⟨m0, 0, true, true, xs, [], nu⟩) (ha m0 (by simp)) hf2
        have hsame : ∀ p ∈ ps0, Dict.get? d' p = Dict.get? d p := fun p hp => by
          have hpm : p ≠ m0 := fun he => hself (m0, ps0) (by simp) (by simpa [he] using hp)
          have hset : Settled all rules (Dict.set d m0 ⟨m0, 0, true, true, xs, [], nu⟩) p := by
            have := fine_set (r := ⟨m0, 0, true, true, xs, [], nu⟩) (ha m0 (by simp)) (d := d) (rules := (m0, ps0) :: rules) ⟨hf1, hf2⟩
            exact this.1 p hp
          rw [rebuild_settled rules _ d' h' ha' p hset, Dict.get?_set_ne _ _ hpm]
        have hfm : ps0.filterMap (Dict.get? d') = ps0.filterMap (Dict.get? d) := List.filterMap_congr hsame
        refine ⟨fun hall => ?_, fun _ => ⟨_, rebuild_some rules _ d' h' m0 _ (Dict.get?_set_same _ _ _), rfl, fun T hT => ?_⟩⟩
        · exact absurd (List.filterMap_eq_nil_iff.2 fun p hp => by rw [← hsame p hp, hall p hp]) hne
        · obtain ⟨l, h1, h2⟩ := (sumXs_ok _ _ _ _ hx).2 T hT
          exact ⟨l, h2, by rw [hfm]; exact xsAt_ok T _ l h1⟩
      · by_cases hmm : m = m0
        · subst hmm
          exact absurd (List.mem_map.2 ⟨(m, ps), by assumption, rfl⟩) hnd.1
        · exact ih _ d' h' ha' hnd.2 (fine_set (ha m0 (by simp)) hf2) hself' m ps hm (by rw [Dict.get?_set_ne _ _ hmm, hd])

/-! ### The rules of ASAPy -/

/-- Only the parts of MT 27 include the sum of a later rule, MT 18. -/
def onlyFission : List (Nat × List Nat) → Bool
  | [] => true
  | (_, ps) :: rules => (ps.all fun p => p == 18 || !(rules.map Prod.fst).contains p) && onlyFission rules

theorem rulesDown_only : onlyFission rulesDown = true := by decide +kernel

theorem rulesDown_nodup : (rulesDown.map Prod.fst).Nodup := by decide +kernel

theorem rulesDown_self : ∀ e ∈ rulesDown, e.1 ∉ e.2 := by decide +kernel

theorem rulesDown_18 : ∀ e ∈ rulesDown, e.1 = 18 → e.2 = [19, 20, 21, 38] := by decide +kernel

theorem fission_not : ∀ q ∈ [19, 20, 21, 38], q ∉ rulesDown.map Prod.fst := by decide +kernel

omit [Field K] [LinearOrder K] in
theorem fine_of {all : List Nat} {d : List (Nat × Reaction K)} : ∀ {rules : List (Nat × List Nat)}, onlyFission rules = true → (∀ rules', rules' <:+ rules → Settled all rules' d 18) → Fine all d rules := by
  intro rules
  induction rules with
  | nil => intro _ _; trivial
  | cons e rules ih =>
    intro h hs
    simp only [onlyFission, Bool.and_eq_true, List.all_eq_true, Bool.or_eq_true, beq_iff_eq, Bool.not_eq_true', List.contains_eq_mem, decide_eq_false_iff_not] at h
    refine ⟨fun p hp => ?_, ih h.2 fun r' h' => hs r' (h'.trans (List.suffix_cons _ _))⟩
    rcases h.1 p hp with rfl | hn
    · exact hs rules (List.suffix_cons _ _)
    · right
      intro ps hps
      exact absurd (List.mem_map_of_mem (f := Prod.fst) hps) hn

theorem rebuild_rules {g : Grp K} {temps : List Text} {d d' : List (Nat × Reaction K)} (h : rebuild g temps rulesDown d = .ok d')
    (hf : (Dict.get? d 18).isSome = true ∨ ∀ q ∈ [19, 20, 21, 38], Dict.get? d q = none) : ∀ m ps, (m, ps) ∈ Comp.sumRules → Dict.get? d m = none → IsSum d' temps m ps := by
  intro m ps hm hd
  refine rebuild_sum (all := rulesDown.map Prod.fst) rulesDown d d' h (fun _ h => h) rulesDown_nodup (fine_of rulesDown_only ?_) rulesDown_self m ps (by simpa [rulesDown] using hm) hd
  intro rules' hsuf
  rcases hf with hf | hf
  · exact Or.inl hf
  · right
    intro ps' hps q hq
    have := rulesDown_18 _ (hsuf.subset hps) rfl
    simp only at this
    subst this
    exact ⟨hf q hq, fission_not q hq⟩

end ASAPy.Hdf5
