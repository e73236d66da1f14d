import Verif.Components.Spec

/-! # C61: reaction components -/

namespace ASAPy.Comp

theorem lookup_mem {l : List (Nat × List Nat)} {mt : Nat} {v : List Nat} (h : l.lookup mt = some v) : (mt, v) ∈ l := by
  induction l with
  | nil => simp at h
  | cons e l ih =>
    rw [List.lookup_cons] at h
    by_cases he : mt = e.1
    · simp only [he, beq_self_eq_true, Option.some.injEq] at h
      subst h
      simp [he]
    · rw [beq_eq_false_iff_ne.2 he] at h
      exact List.mem_cons_of_mem _ (ih h)

theorem parts_mem {mt c : Nat} (h : c ∈ parts mt) : (mt, parts mt) ∈ sumRules := by
  unfold parts at h ⊢
  rcases e : sumRules.lookup mt with _ | v
  · rw [e] at h; simp at h
  · exact lookup_mem e

/-- How far a reaction is from single reactions. -/
def rank (mt : Nat) : Nat :=
  if mt = 1 then 5 else if mt = 3 then 4 else if mt = 27 then 3 else if mt = 101 then 2
  else if mt = 4 ∨ mt = 16 ∨ mt = 18 ∨ mt = 103 ∨ mt = 104 ∨ mt = 105 ∨ mt = 106 ∨ mt = 107 then 1 else 0

theorem rank_rules : ∀ e ∈ sumRules, ∀ c ∈ e.2, rank c < rank e.1 := by decide +kernel

theorem rank_parts {mt c : Nat} (h : c ∈ parts mt) : rank c < rank mt := rank_rules _ (parts_mem h) c h

theorem nodup_rules : (sumRules.flatMap (·.2)).Nodup := by decide +kernel

theorem flat_unique {l : List (Nat × List Nat)} (h : (l.flatMap (·.2)).Nodup) {e e' : Nat × List Nat} (he : e ∈ l) (he' : e' ∈ l) {c : Nat}
    (hc : c ∈ e.2) (hc' : c ∈ e'.2) : e = e' := by
  induction l with
  | nil => simp at he
  | cons a l ih =>
    rw [List.flatMap_cons, List.nodup_append'] at h
    obtain ⟨-, h2, h3⟩ := h
    rcases List.mem_cons.1 he with r1 | m1 <;> rcases List.mem_cons.1 he' with r2 | m2
    · rw [r1, r2]
    · rw [r1] at hc
      exact absurd (List.mem_flatMap.2 ⟨e', m2, hc'⟩) (h3 hc)
    · rw [r2] at hc'
      exact absurd (List.mem_flatMap.2 ⟨e, m1, hc⟩) (h3 hc')
    · exact ih h2 m1 m2

/-- A reaction is listed in one sum only. -/
theorem parent_unique {p q c : Nat} (hp : c ∈ parts p) (hq : c ∈ parts q) : p = q :=
  congrArg Prod.fst (flat_unique nodup_rules (parts_mem hp) (parts_mem hq) hp hq)

theorem flat_nodup {l : List (Nat × List Nat)} (h : (l.flatMap (·.2)).Nodup) {e : Nat × List Nat} (he : e ∈ l) : e.2.Nodup := by
  induction l with
  | nil => simp at he
  | cons a l ih =>
    rw [List.flatMap_cons, List.nodup_append'] at h
    rcases List.mem_cons.1 he with rfl | he
    · exact h.1
    · exact ih h.2.1 he

theorem parts_nodup (mt : Nat) : (parts mt).Nodup := by
  rcases h : parts mt with _ | ⟨c, l⟩
  · exact List.nodup_nil
  · have := flat_nodup nodup_rules (parts_mem (mt := mt) (c := c) (by rw [h]; simp))
    rwa [h] at this

theorem part_rank {a b : Nat} (h : PartOf a b) : b = a ∨ rank b < rank a := by
  induction h with
  | refl => exact .inl rfl
  | tail _ h2 ih =>
    have := rank_parts h2
    rcases ih with rfl | h
    · exact .inr this
    · exact .inr (by omega)

theorem part_cases {a m : Nat} (h : PartOf a m) : m = a ∨ ∃ c ∈ parts a, PartOf c m := by
  rcases Relation.ReflTransGen.cases_head h with rfl | ⟨c, h1, h2⟩
  · exact .inl rfl
  · exact .inr ⟨c, h1, h2⟩

/-- Of two reactions that `m` is part of, one is part of the other. -/
theorem part_linear {a b m : Nat} (ha : PartOf a m) (hb : PartOf b m) : PartOf a b ∨ PartOf b a := by
  induction ha with
  | refl => exact .inr hb
  | tail h1 h2 ih =>
    rcases Relation.ReflTransGen.cases_tail hb with rfl | ⟨c, h3, h4⟩
    · exact .inl (h1.tail h2)
    · rw [parent_unique h2 h4] at ih
      exact ih h3

/-- Nothing is part of two reactions of a sum. -/
theorem siblings {p a b m : Nat} (ha : a ∈ parts p) (hb : b ∈ parts p) (hne : a ≠ b) (h1 : PartOf a m) (h2 : PartOf b m) : False := by
  have key : ∀ {a b : Nat}, a ∈ parts p → b ∈ parts p → a ≠ b → PartOf a b → False := by
    intro a b ha hb hne h
    rcases Relation.ReflTransGen.cases_tail h with rfl | ⟨c, h3, h4⟩
    · exact hne rfl
    · rw [parent_unique h4 hb] at h3
      have := part_rank h3
      have := rank_parts ha
      rcases part_rank h3 with rfl | h <;> omega
  rcases part_linear h1 h2 with h | h
  · exact key ha hb hne h
  · exact key hb ha hne.symm h

/-- Below every reaction on the file there is one nothing of which is on the file. -/
theorem leaf_below (present : Nat → Bool) : ∀ (n m : Nat), rank m < n → present m = true → ∃ m', PartOf m m' ∧ Leaf present m'
  | 0, _, h, _ => by omega
  | n + 1, m, h, hp => by
    by_cases hl : Leaf present m
    · exact ⟨m, .refl, hl⟩
    · obtain ⟨m', h1, h2, h3⟩ : ∃ m', PartOf m m' ∧ m' ≠ m ∧ present m' = true := by
        by_contra hc
        exact hl ⟨hp, fun m' a b => by
          by_contra hd
          exact hc ⟨m', a, b, by simpa using hd⟩⟩
      have hr : rank m' < rank m := by
        rcases part_rank h1 with h | h
        · exact absurd h h2
        · exact h
      obtain ⟨m'', h4, h5⟩ := leaf_below present n m' (by omega) h3
      exact ⟨m'', h1.trans h4, h5⟩

theorem concat_some (f : Nat → Option (List Nat)) (l : List Nat) (h : ∀ c ∈ l, ∃ v, f c = some v) : ∃ v, concatAll f l = some v := by
  induction l with
  | nil => exact ⟨[], rfl⟩
  | cons c l ih =>
    obtain ⟨a, ha⟩ := h c (by simp)
    obtain ⟨b, hb⟩ := ih fun d hd => h d (by simp [hd])
    exact ⟨a ++ b, by simp [concatAll, ha, hb]⟩

theorem concat_mem {f : Nat → Option (List Nat)} {l v : List Nat} (h : concatAll f l = some v) (m : Nat) :
    m ∈ v ↔ ∃ c ∈ l, ∃ w, f c = some w ∧ m ∈ w := by
  induction l generalizing v with
  | nil =>
    simp only [concatAll, Option.some.injEq] at h
    subst h
    simp
  | cons c l ih =>
    rw [concatAll] at h
    rcases ha : f c with _ | a
    · rw [ha] at h; simp at h
    · rcases hb : concatAll f l with _ | b
      · rw [ha, hb] at h; simp at h
      · rw [ha, hb] at h
        simp only [Option.some.injEq] at h
        subst h
        rw [List.mem_append, ih hb]
        constructor
        · rintro (h | ⟨d, h1, h2⟩)
          · exact ⟨c, by simp, a, ha, h⟩
          · exact ⟨d, by simp [h1], h2⟩
        · rintro ⟨d, h1, w, h2, h3⟩
          rcases List.mem_cons.1 h1 with rfl | h1
          · rw [ha] at h2
            simp only [Option.some.injEq] at h2
            subst h2
            exact .inl h3
          · exact .inr ⟨d, h1, w, h2, h3⟩

theorem concat_nodup {f : Nat → Option (List Nat)} {l v : List Nat} (h : concatAll f l = some v) (hl : l.Nodup)
    (hn : ∀ c ∈ l, ∀ w, f c = some w → w.Nodup) (hd : ∀ c ∈ l, ∀ d ∈ l, c ≠ d → ∀ w w' m, f c = some w → f d = some w' → m ∈ w → m ∈ w' → False) :
    v.Nodup := by
  induction l generalizing v with
  | nil =>
    simp only [concatAll, Option.some.injEq] at h
    subst h
    exact List.nodup_nil
  | cons c l ih =>
    rw [concatAll] at h
    rcases ha : f c with _ | a
    · rw [ha] at h; simp at h
    · rcases hb : concatAll f l with _ | b
      · rw [ha, hb] at h; simp at h
      · rw [ha, hb] at h
        simp only [Option.some.injEq] at h
        subst h
        rw [List.nodup_cons] at hl
        rw [List.nodup_append']
        refine ⟨hn c (by simp) a ha, ih hb hl.2 (fun d h1 => hn d (by simp [h1])) fun d h1 e h2 => hd d (by simp [h1]) e (by simp [h2]), ?_⟩
        intro m hm hm'
        obtain ⟨d, h1, w, h2, h3⟩ := (concat_mem hb m).1 hm'
        exact hd c (by simp) d (by simp [h1]) (by rintro rfl; exact hl.1 h1) a w m ha h2 hm h3

theorem concat_congr {f g : Nat → Option (List Nat)} {l : List Nat} (h : ∀ c ∈ l, f c = g c) : concatAll f l = concatAll g l := by
  induction l with
  | nil => rfl
  | cons c l ih => rw [concatAll, concatAll, h c (by simp), ih fun d hd => h d (by simp [hd])]

theorem components_some (present : Nat → Bool) : ∀ (k mt : Nat), rank mt < k → ∃ l, components present k mt = some l
  | 0, _, h => by omega
  | k + 1, mt, h => by
    obtain ⟨v, hv⟩ := concat_some (components present k) (parts mt) fun c hc => components_some present k c (by have := rank_parts hc; omega)
    rw [components, hv]
    by_cases hn : v = [] <;> simp [hn]

theorem components_stable (present : Nat → Bool) : ∀ (k k' mt : Nat), rank mt < k → rank mt < k' → components present k mt = components present k' mt
  | 0, _, _, h, _ => by omega
  | _, 0, _, _, h => by omega
  | k + 1, k' + 1, mt, h, h' => by
    rw [components, components, concat_congr fun c hc => components_stable present k k' c (by have := rank_parts hc; omega) (by have := rank_parts hc; omega)]

theorem components_spec (present : Nat → Bool) : ∀ (k mt : Nat) (l : List Nat), components present k mt = some l →
    l.Nodup ∧ ∀ m, m ∈ l ↔ PartOf mt m ∧ Leaf present m
  | 0, _, _, h => by simp [components] at h
  | k + 1, mt, l, h => by
    rw [components] at h
    rcases hv : concatAll (components present k) (parts mt) with _ | v
    · rw [hv] at h; simp at h
    · rw [hv] at h
      have ih := components_spec present k
      have hm : ∀ m, m ∈ v ↔ ∃ c ∈ parts mt, PartOf c m ∧ Leaf present m := by
        intro m
        rw [concat_mem hv]
        constructor
        · rintro ⟨c, hc, w, hw, hmw⟩
          exact ⟨c, hc, ((ih c w hw).2 m).1 hmw⟩
        · rintro ⟨c, hc, hp⟩
          have : ∃ w, components present k c = some w := by
            by_contra hcon
            have hn : components present k c = none := by
              rcases e : components present k c with _ | w
              · rfl
              · exact absurd ⟨w, e⟩ hcon
            clear h hp
            generalize parts mt = ps at hv hc
            induction ps generalizing v with
            | nil => simp at hc
            | cons d ps ihp =>
              rw [concatAll] at hv
              rcases List.mem_cons.1 hc with rfl | hc
              · rw [hn] at hv; simp at hv
              · rcases e1 : components present k d with _ | a
                · rw [e1] at hv; simp at hv
                · rcases e2 : concatAll (components present k) ps with _ | b
                  · rw [e1, e2] at hv; simp at hv
                  · exact ihp b e2 hc
          obtain ⟨w, hw⟩ := this
          exact ⟨c, hc, w, hw, ((ih c w hw).2 m).2 hp⟩
      have hnd : v.Nodup := concat_nodup hv (parts_nodup mt) (fun c _ w hw => (ih c w hw).1) fun c hc d hd hne w w' m hw hw' h1 h2 =>
        siblings hc hd hne (((ih c w hw).2 m).1 h1).1 (((ih d w' hw').2 m).1 h2).1
      by_cases hn : v = []
      · simp only [hn, ne_eq, not_true, if_false, Option.some.injEq] at h
        have hnone : ∀ c ∈ parts mt, ∀ m, PartOf c m → present m = false := by
          intro c hc m hp
          by_contra hcon
          obtain ⟨m', h1, h2⟩ := leaf_below present _ m (Nat.lt_succ_self _) (by simpa using hcon)
          have := (hm m').2 ⟨c, hc, hp.trans h1, h2⟩
          rw [hn] at this
          exact absurd this (by simp)
        subst h
        constructor
        · by_cases hp : present mt = true <;> simp [hp]
        · intro m
          by_cases hp : present mt = true
          · simp only [hp, if_true, List.mem_singleton]
            constructor
            · rintro rfl
              refine ⟨.refl, hp, fun m' h1 h2 => ?_⟩
              rcases part_cases h1 with rfl | ⟨c, hc, h3⟩
              · exact absurd rfl h2
              · exact hnone c hc m' h3
            · rintro ⟨h1, h2⟩
              rcases part_cases h1 with rfl | ⟨c, hc, h3⟩
              · rfl
              · have := hnone c hc m h3
                rw [h2.1] at this
                exact absurd this (by decide)
          · simp only [hp, Bool.false_eq_true, if_false, List.not_mem_nil, false_iff]
            rintro ⟨h1, h2⟩
            rcases part_cases h1 with rfl | ⟨c, hc, h3⟩
            · exact hp h2.1
            · have := hnone c hc m h3
              rw [h2.1] at this
              exact absurd this (by decide)
      · simp only [ne_eq, hn, not_false_eq_true, if_true, Option.some.injEq] at h
        subst h
        refine ⟨hnd, fun m => ?_⟩
        rw [hm]
        constructor
        · rintro ⟨c, hc, h1, h2⟩
          exact ⟨.head hc h1, h2⟩
        · rintro ⟨h1, h2⟩
          rcases part_cases h1 with rfl | ⟨c, hc, h3⟩
          · obtain ⟨m0, v', rfl⟩ := List.exists_cons_of_ne_nil hn
            obtain ⟨c, hc, h4, h5⟩ := (hm m0).1 (by simp)
            have hne : m0 ≠ m := by
              rintro rfl
              have := rank_parts hc
              rcases part_rank h4 with h | h
              · rw [h] at this; omega
              · omega
            have := h2.2 m0 (.head hc h4) hne
            rw [h5.1] at this
            exact absurd this (by decide)
          · exact ⟨c, hc, h3, h2⟩

theorem rank_le (mt : Nat) : rank mt ≤ 5 := by
  unfold rank
  split_ifs <;> omega

/-- C61: for every set of reactions on the file and every reaction, the recursion ends (it is at most six calls deep), and returns, without repetition,
exactly those parts of the reaction that are on the file and have no part on the file themselves; nothing only if no part of it is on the file. -/
theorem C61_components (present : Nat → Bool) (mt : Nat) : ∃ l, (∀ k, 6 ≤ k → components present k mt = some l) ∧ l.Nodup ∧
    (∀ m, m ∈ l ↔ PartOf mt m ∧ Leaf present m) ∧ (l = [] ↔ ∀ m, PartOf mt m → present m = false) := by
  have hr := rank_le mt
  obtain ⟨l, hl⟩ := components_some present 6 mt (by omega)
  obtain ⟨h1, h2⟩ := components_spec present 6 mt l hl
  refine ⟨l, fun k hk => ?_, h1, h2, ?_, ?_⟩
  · rw [← hl]
    exact components_stable present k 6 mt (by omega) (by omega)
  · rintro rfl m hm
    by_contra hc
    obtain ⟨m', h3, h4⟩ := leaf_below present _ m (Nat.lt_succ_self _) (by simpa using hc)
    have := (h2 m').2 ⟨hm.trans h3, h4⟩
    exact absurd this (by simp)
  · intro h
    rcases l with _ | ⟨m, l⟩
    · rfl
    · obtain ⟨h3, h4⟩ := (h2 m).1 (by simp)
      have := h m h3
      rw [h4.1] at this
      exact absurd this (by decide)

/-- C61: no component is part of another one, so nothing is counted twice when the components are added. -/
theorem C61_no_overlap (present : Nat → Bool) (mt k : Nat) (l : List Nat) (h : components present k mt = some l) (a b m : Nat) (ha : a ∈ l) (hb : b ∈ l)
    (h1 : PartOf a m) (h2 : PartOf b m) : a = b := by
  obtain ⟨-, hs⟩ := components_spec present k mt l h
  have h3 := (hs a).1 ha
  have h4 := (hs b).1 hb
  by_contra hne
  rcases part_linear h1 h2 with h | h
  · have := h3.2.2 b h (Ne.symm hne)
    rw [h4.2.1] at this
    exact absurd this (by decide)
  · have := h4.2.2 a h hne
    rw [h3.2.1] at this
    exact absurd this (by decide)

/-- A file with inelastic levels, fission chances and (n,p) levels beside the redundant reactions. -/
example : components (fun m => m ∈ [1, 2, 4, 16, 18, 19, 20, 51, 52, 91, 102, 103, 600, 649]) 6 1 = some [2, 51, 52, 91, 16, 19, 20, 102, 600, 649] := by
  decide +kernel

end ASAPy.Comp
