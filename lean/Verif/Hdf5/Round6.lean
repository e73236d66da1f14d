import Verif.Hdf5.Round5

/-!
# Nuclides are read back: the reactions and the whole
-/

namespace ASAPy.Hdf5

open Dec

variable {K : Type} [Field K] [LinearOrder K]

/-- The item `e` of the group of reactions is read as the reaction `r`. -/
def Reads (ord : List (Text × Node K) → List (Text × Node K)) (energy : List (Text × List K)) (e : Text × Node K) (r : Reaction K) : Prop :=
  e.1 = rxName r.mt ∧ ∃ g : Grp K, e.2 = g.node ∧ ∀ energy', (∀ T, Dict.get? energy' T = Dict.get? energy T) →
    ∃ r', reactionFrom ord g energy' = .ok r' ∧ SameReaction r r' ∧ r'.derived = []

/-- The total yield for a reaction. -/
def nuOf (N : Option (Product K)) (mt : Nat) : List (Product K) := if mt ∈ fissionMts then N.toList else []

theorem reactionsFrom_ok {ord : List (Text × Node K) → List (Text × Node K)} {energy energy' : List (Text × List K)} (he : ∀ T, Dict.get? energy' T = Dict.get? energy T) {g : Grp K}
    {nu : Nat → List (Product K)} (P : Reaction K → Prop) (hnu : ∀ r, P r → nuFor g fissionMts r.mt = .ok (nu r.mt)) :
    ∀ (L : List (Text × Node K)) (acc : List (Nat × Reaction K)), (∀ e ∈ L, ∃ r, P r ∧ Reads ord energy e r) →
    ∃ D, reactionsFrom ord g energy' L acc = .ok D ∧ ∀ mt,
      (∃ r', Dict.get? D mt = some r' ∧ ∃ r, P r ∧ r.mt = mt ∧ SameReaction r r' ∧ r'.derived = nu mt) ∨
      (Dict.get? D mt = Dict.get? acc mt ∧ ∀ e ∈ L, ∀ r, Reads ord energy e r → r.mt ≠ mt) := by
  intro L
  induction L with
  | nil => intro acc _; exact ⟨acc, rfl, fun mt => Or.inr ⟨rfl, fun e h => by simp at h⟩⟩
  | cons e L ih =>
    intro acc hL
    obtain ⟨r, hP, h1, rg, h2, h3⟩ := hL e (by simp)
    obtain ⟨r', e1, e2, e3⟩ := h3 energy' he
    obtain ⟨D, d1, d2⟩ := ih (Dict.set acc r'.mt { r' with derived := nu r'.mt }) (fun e h => hL e (by simp [h]))
    obtain ⟨name, n⟩ := e
    simp only at h1 h2
    refine ⟨D, ?_, fun mt => ?_⟩
    · unfold reactionsFrom
      rw [h1, rxName_prefix, h2]
      simp only [if_true, Grp.node]
      rw [show (⟨rg.attrs, rg.items⟩ : Grp K) = rg from rfl, e1]
      simp only [ok_bind]
      rw [e2.mt, hnu r hP]
      simp only [ok_bind]
      rw [← e2.mt]
      exact d1
    · rcases d2 mt with h | ⟨ha, hb⟩
      · exact Or.inl h
      · by_cases hm : mt = r'.mt
        · subst hm
          left
          rw [Dict.get?_set_same] at ha
          exact ⟨_, ha, r, hP, e2.mt.symm, ⟨e2.mt, e2.q, e2.com, e2.redundant, e2.products, e2.xs⟩, rfl⟩
        · right
          rw [Dict.get?_set_ne _ _ hm] at ha
          refine ⟨ha, fun e' he' r0 hr0 => ?_⟩
          rcases List.mem_cons.1 he' with rfl | he'
          · have : rxName r0.mt = rxName r.mt := by rw [← h1, ← hr0.1]
            rw [rxName_inj this, ← e2.mt]
            exact Ne.symm hm
          · exact hb e' he' r0 hr0

variable [IsStrictOrderedRing K]

theorem reactionsTo_ok (label : Nat → Text) {ord : List (Text × Node K) → List (Text × Node K)} (ho : ∀ l, (ord l).Perm l) {energy : List (Text × List K)} (N : Option (Product K))
    (hN : ∀ p, N = some p → p.Stored) : ∀ (l : List (Reaction K)) (g : Grp K) (nu : Option (Grp K)), (l.map fun r => r.mt).Nodup → (∀ r ∈ l, Dict.get? g.items (rxName r.mt) = none) →
    (∀ r ∈ l, written r = true → r.Stored energy ∧ r.derived = nuOf N r.mt) → (∀ pg, nu = some pg → ∃ p, N = some p ∧ productFrom pg = .ok p.back) →
    ∃ items nu', reactionsTo label l g nu = .ok (⟨g.attrs, g.items ++ items⟩, nu') ∧ (∀ e ∈ items, ∃ r ∈ l, written r = true ∧ Reads ord energy e r) ∧
      (∀ r ∈ l, written r = true → ∃ e ∈ items, Reads ord energy e r) ∧ (∀ pg, nu' = some pg → ∃ p, N = some p ∧ productFrom pg = .ok p.back) ∧
      (nu.isSome = true → nu'.isSome = true) ∧ ((∃ r ∈ l, written r = true ∧ r.mt ∈ fissionMts) → N.isSome = true → nu'.isSome = true) := by
  intro l
  induction l with
  | nil =>
    intro g nu _ _ _ h
    exact ⟨[], nu, by simp [reactionsTo], by simp, by simp, h, id, by simp⟩
  | cons r l ih =>
    intro g nu hn hf hs hnu
    simp only [List.map_cons, List.nodup_cons] at hn
    by_cases hw : written r = true
    · obtain ⟨h1, h2⟩ := hs r (by simp) hw
      obtain ⟨rg, e1, e2⟩ := reaction_round label ho h1
      obtain ⟨nu1, n1, n2, n3, n4⟩ : ∃ nu1, nuTo r nu = .ok nu1 ∧ (∀ pg, nu1 = some pg → ∃ p, N = some p ∧ productFrom pg = .ok p.back) ∧ (nu.isSome = true → nu1.isSome = true) ∧
          (r.mt ∈ fissionMts → N.isSome = true → nu1.isSome = true) := by
        cases hnu0 : nu with
        | some pg =>
          refine ⟨some pg, ?_, fun pg' h => hnu pg' (by rw [hnu0, h]), fun _ => rfl, fun _ _ => rfl⟩
          unfold nuTo
          cases r.derived <;> rfl
        | none =>
          cases hd : r.derived with
          | nil =>
            refine ⟨none, by simp [nuTo, hd], fun pg h => by simp at h, id, fun hm hi => ?_⟩
            rw [h2, nuOf, if_pos hm] at hd
            cases N with
            | none => exact hi
            | some p => simp at hd
          | cons p ps =>
            have hp : N = some p := by
              rw [h2, nuOf] at hd
              split at hd
              · cases N with
                | none => simp at hd
                | some q => simp at hd; rw [hd.1]
              · simp at hd
            obtain ⟨pg, p1, p2⟩ := product_round (hN p hp)
            refine ⟨some pg, by simp [nuTo, hd, p1], ?_, fun _ => rfl, fun _ _ => rfl⟩
            rintro pg' ⟨⟩
            exact ⟨p, hp, p2⟩
      obtain ⟨items, nu', f1, f2, f3, f4, f5, f6⟩ := ih ⟨g.attrs, g.items ++ [(rxName r.mt, rg.node)]⟩ nu1 hn.2 (fun r' h' => by
        rw [get?_app, hf r' (by simp [h'])]
        simp only [Dict.get?, Option.none_or]
        rw [if_neg]
        intro he
        exact hn.1 (by rw [rxName_inj he]; exact List.mem_map_of_mem h')) (fun r' h' => hs r' (by simp [h'])) n2
      have hread : Reads ord energy (rxName r.mt, rg.node) r := ⟨rfl, rg, rfl, e2⟩
      refine ⟨(rxName r.mt, rg.node) :: items, nu', ?_, ?_, ?_, f4, fun h => f5 (n3 h), ?_⟩
      · unfold reactionsTo
        rw [if_pos hw, e1]
        simp only [ok_bind]
        rw [add_ok (hf r (by simp))]
        simp only [ok_bind, n1, f1]
        simp
      · intro e he
        rcases List.mem_cons.1 he with rfl | he
        · exact ⟨r, by simp, hw, hread⟩
        · obtain ⟨r', h', hh⟩ := f2 e he
          exact ⟨r', by simp [h'], hh⟩
      · intro r' h' hw'
        rcases List.mem_cons.1 h' with rfl | h'
        · exact ⟨_, by simp, hread⟩
        · obtain ⟨e, he, hh⟩ := f3 r' h' hw'
          exact ⟨e, by simp [he], hh⟩
      · rintro ⟨r', h', hw', hm⟩ hi
        rcases List.mem_cons.1 h' with rfl | h'
        · exact f5 (n4 hm hi)
        · exact f6 ⟨r', h', hw', hm⟩ hi
    · obtain ⟨items, nu', f1, f2, f3, f4, f5, f6⟩ := ih g nu hn.2 (fun r' h' => hf r' (by simp [h'])) (fun r' h' => hs r' (by simp [h'])) hnu
      refine ⟨items, nu', ?_, ?_, ?_, f4, f5, ?_⟩
      · unfold reactionsTo
        rw [if_neg hw, f1]
      · intro e he
        obtain ⟨r', h', hh⟩ := f2 e he
        exact ⟨r', by simp [h'], hh⟩
      · intro r' h' hw'
        rcases List.mem_cons.1 h' with rfl | h'
        · exact absurd hw' hw
        · exact f3 r' h' hw'
      · rintro ⟨r', h', hw', hm⟩ hi
        rcases List.mem_cons.1 h' with rfl | h'
        · exact absurd hw' hw
        · exact f6 ⟨r', h', hw', hm⟩ hi

/-! ### The redundant reactions can be rebuilt -/

omit [Field K] [LinearOrder K] [IsStrictOrderedRing K] in
theorem xsAt_total (T : Text) : ∀ (rs : List (Reaction K)), (∀ r ∈ rs, ∃ x, Dict.get? r.xs T = some (some x)) → ∃ l, xsAt T rs = .ok l := by
  intro rs
  induction rs with
  | nil => intro _; exact ⟨[], rfl⟩
  | cons r rs ih =>
    intro h
    obtain ⟨x, hx⟩ := h r (by simp)
    obtain ⟨l, hl⟩ := ih fun r' h' => h r' (by simp [h'])
    exact ⟨x :: l, by simp [xsAt, hx, hl]⟩

omit [Field K] [LinearOrder K] [IsStrictOrderedRing K] in
theorem sumXs_total (rs : List (Reaction K)) : ∀ (Ts : List Text) (acc : List (Text × Option (Xs K))), (∀ T ∈ Ts, ∀ r ∈ rs, ∃ x, Dict.get? r.xs T = some (some x)) → ∃ xs, sumXs rs Ts acc = .ok xs := by
  intro Ts
  induction Ts with
  | nil => intro acc _; exact ⟨acc, rfl⟩
  | cons T Ts ih =>
    intro acc h
    obtain ⟨l, hl⟩ := xsAt_total T rs (h T (by simp))
    obtain ⟨xs, hx⟩ := ih (Dict.set acc T (some (.sum l))) fun T' h' => h T' (by simp [h'])
    exact ⟨xs, by simp [sumXs, hl, hx]⟩

omit [IsStrictOrderedRing K] in
theorem rebuild_total {g : Grp K} {temps : List Text} (hnu : ∀ m, ∃ nu, nuFor g [18] m = .ok nu) : ∀ (rules : List (Nat × List Nat)) (d : List (Nat × Reaction K)),
    (∀ m r, Dict.get? d m = some r → ∀ T ∈ temps, ∃ x, Dict.get? r.xs T = some (some x)) → ∃ d', rebuild g temps rules d = .ok d' := by
  intro rules
  induction rules with
  | nil => intro d _; exact ⟨d, rfl⟩
  | cons e rules ih =>
    obtain ⟨m, ps⟩ := e
    intro d hd
    unfold rebuild
    split
    · exact ih d hd
    · simp only
      split
      · exact ih d hd
      · obtain ⟨nu, hn⟩ := hnu m
        obtain ⟨xs, hx⟩ := sumXs_total (ps.filterMap (Dict.get? d)) temps [] (fun T hT r hr => by
          obtain ⟨p, _, hp⟩ := List.mem_filterMap.1 hr
          exact hd p r hp T hT)
        rw [hn, hx]
        simp only [ok_bind]
        refine ih _ fun m' r' hr' T hT => ?_
        by_cases hm : m' = m
        · subst hm
          rw [Dict.get?_set_same] at hr'
          cases hr'
          obtain ⟨l, _, hl⟩ := (sumXs_ok _ _ _ _ hx).2 T hT
          exact ⟨_, hl⟩
        · rw [Dict.get?_set_ne _ _ hm] at hr'
          exact hd m' r' hr' T hT

/-! ### The whole -/

theorem nuclide_round [ExpLog K] (temp : K → Text) (label : Nat → Text) {ord : List (Text × Node K) → List (Text × Node K)} (ho : ∀ l, (ord l).Perm l) {n : Nuclide K} (h : n.Stored temp) :
    ∃ g n', nuclideTo temp label n = .ok g ∧ nuclideFrom temp ord g = .ok n' ∧ SameNuclide n n' ∧
      ∃ d, (∀ mt, (Dict.get? d mt).isSome = true ↔ ∃ r, Dict.get? n.reactions mt = some r ∧ written r = true) ∧ rebuild g (n'.kTs.map temp) rulesDown d = .ok n'.reactions := by
  obtain ⟨N, hN, hd⟩ := h.nu
  -- what is written
  have k1 := kTsTo_ok temp n.kTs Grp.empty h.temps (fun _ _ => rfl)
  obtain ⟨out, g1, g2, g3⟩ := gridsTo_ok h.temps h.grids h.only
  have hmts : ((n.reactions.map Prod.snd).map fun r => r.mt).Nodup := by
    have : (n.reactions.map Prod.snd).map (fun r => r.mt) = Dict.keys n.reactions := by
      rw [List.map_map, Dict.keys]
      exact List.map_congr_left fun e he => h.numbers e he
    rw [this]
    exact h.mts
  obtain ⟨items, nu, r1, r2, r3, r4, _, r6⟩ := reactionsTo_ok label ho N hN (energy := n.energy) (n.reactions.map Prod.snd) Grp.empty none hmts (fun _ _ => rfl)
    (fun r hr hw => by
      obtain ⟨e, he, rfl⟩ := List.mem_map.1 hr
      refine ⟨h.reactions e he hw, ?_⟩
      rw [hd e he hw, nuOf, h.numbers e he]
      rfl) (by simp)
  obtain ⟨ug, u1, u2⟩ : ∃ ug, urrGroup n.urr = .ok ug ∧ ∀ g : Grp K, Dict.get? g.items c!"urr" = ug.map Grp.node → ∃ D, urrPart ord g = .ok D ∧ ∀ T, Dict.get? D T = Dict.get? n.urr T := by
    cases hu : n.urr with
    | nil =>
      refine ⟨none, rfl, fun g hg => ⟨[], ?_, fun _ => rfl⟩⟩
      simp [urrPart, Grp.has, hg]
    | cons e l =>
      obtain ⟨f, f1, f2⟩ := urrsTo_ok (e :: l) Grp.empty (by rw [← hu]; exact h.urr) (fun _ _ => rfl)
      refine ⟨some ⟨[], (e :: l).map fun e => (e.1, (f e.2).node)⟩, by simp only [urrGroup, List.isEmpty_cons, Bool.false_eq_true, if_false, f2, ok_bind]; rfl, fun g hg => ?_⟩
      obtain ⟨l', p1, p2⟩ := perm_map (e :: l) (ho (List.map (fun e => (e.1, (f e.2).node)) (e :: l)))
      have hnd : (Dict.keys l').Nodup := ((p2.map Prod.fst).nodup_iff).2 (by rw [← hu]; exact h.urr)
      obtain ⟨D, d1, d2⟩ := urrsFrom_ok f1 l' [] hnd
      refine ⟨D, ?_, fun T => ?_⟩
      · simp only [Option.map_some] at hg
        have hh : g.has c!"urr" = true := by simp [Grp.has, hg]
        simp only [urrPart, hh, if_true]
        rw [group_of hg]
        simp only [ok_bind]
        rw [p1]
        exact d1
      · rw [d2, get?_perm p2 (by rw [← hu]; exact h.urr)]
        simp [Dict.get?]
  obtain ⟨fg, f1, f2⟩ : ∃ fg, releaseGroup n.fission = .ok fg ∧ ∀ g : Grp K, Dict.get? g.items c!"fission_energy_release" = fg.map Grp.node → releasePart g = .ok n.fission := by
    cases hf : n.fission with
    | none =>
      refine ⟨none, rfl, fun g hg => ?_⟩
      simp [releasePart, Grp.has, hg]
    | some r =>
      obtain ⟨rg, e1, e2⟩ := release_round (h.fission r hf)
      refine ⟨some rg, by simp [releaseGroup, e1], fun g hg => ?_⟩
      simp only [Option.map_some] at hg
      have hh : g.has c!"fission_energy_release" = true := by simp [Grp.has, hg]
      simp only [releasePart, hh, if_true, group_of hg, ok_bind]
      rw [show (⟨rg.attrs, rg.items⟩ : Grp K) = rg from rfl, e2]
      rfl
  set A : Attrs K := [(c!"Z", .int n.z), (c!"A", .int n.a), (c!"metastable", .int n.m), (c!"atomic_weight_ratio", .num n.awr)] with hA
  set KT : List (Text × Node K) := n.kTs.map fun x => (temp x, Node.data (.num x) []) with hKT
  set I : List (Text × Node K) := [(c!"kTs", .group [] KT), (c!"energy", .group [] (vecItems out)), (c!"reactions", .group [] items)] with hI
  set G : Grp K := ⟨A, ((I ++ optItem c!"total_nu" nu) ++ optItem c!"urr" ug) ++ optItem c!"fission_energy_release" fg⟩ with hG
  have hto : nuclideTo temp label n = .ok G := by
    have k1' : kTsTo temp n.kTs Grp.empty = .ok ⟨[], KT⟩ := by rw [k1]; rfl
    have r1' : reactionsTo label (n.reactions.map Prod.snd) Grp.empty none = .ok (⟨[], items⟩, nu) := by rw [r1]; rfl
    simp only [nuclideTo, k1', g1, r1', u1, f1, ok_bind]
    have e1 : ((((Grp.empty : Grp K).attr c!"Z" (.int n.z)).attr c!"A" (.int n.a)).attr c!"metastable" (.int n.m)).attr c!"atomic_weight_ratio" (.num n.awr) = ⟨A, []⟩ := rfl
    rw [e1, add_ok rfl]
    simp only [ok_bind]
    rw [add_ok rfl]
    simp only [ok_bind]
    rw [add_ok rfl]
    simp only [ok_bind]
    rw [addIf_ok nu rfl]
    simp only [ok_bind]
    rw [addIf_ok ug (by rw [get?_app, optItem_ne _ (by decide)]; rfl)]
    simp only [ok_bind]
    rw [addIf_ok fg (by rw [get?_app, get?_app, optItem_ne _ (by decide), optItem_ne _ (by decide)]; rfl)]
    rfl
  -- what is read
  have l1 : Dict.get? G.items c!"kTs" = some (.group [] KT) := rfl
  have l2 : Dict.get? G.items c!"energy" = some (.group [] (vecItems out)) := rfl
  have l3 : Dict.get? G.items c!"reactions" = some (.group [] items) := rfl
  have l4 : Dict.get? G.items c!"total_nu" = nu.map Grp.node := by
    simp only [hG, get?_app, optItem_same]
    rw [optItem_ne _ (by decide), optItem_ne _ (by decide)]
    cases nu <;> rfl
  have l5 : Dict.get? G.items c!"urr" = ug.map Grp.node := by
    simp only [hG, get?_app, optItem_same]
    rw [optItem_ne _ (by decide), optItem_ne _ (by decide)]
    cases ug <;> rfl
  have l6 : Dict.get? G.items c!"fission_energy_release" = fg.map Grp.node := by
    simp only [hG, get?_app, optItem_same]
    rw [optItem_ne _ (by decide), optItem_ne _ (by decide)]
    cases fg <;> rfl
  obtain ⟨kTs', kt1, kt2⟩ := kTsFrom_perm temp n.kTs (ho KT)
  obtain ⟨E, en1, en2⟩ := energyFrom_perm g2 (ho (vecItems out))
  have hE : ∀ T, Dict.get? E T = Dict.get? n.energy T := fun T => by rw [en2, g3]
  obtain ⟨U, ur1, ur2⟩ := u2 G l5
  have fi := f2 G l6
  -- the total yield
  have hnuAny : ∀ mts mt, ∃ l, nuFor G mts mt = .ok l := by
    intro mts mt
    unfold nuFor
    split
    · rename_i hc
      cases hn : nu with
      | none => rw [Grp.has, l4, hn] at hc; simp at hc
      | some pg =>
        obtain ⟨p, _, hp⟩ := r4 pg hn
        rw [hn] at l4
        rw [group_of l4]
        simp only [ok_bind]
        rw [show (⟨pg.attrs, pg.items⟩ : Grp K) = pg from rfl, hp]
        exact ⟨_, rfl⟩
    · exact ⟨[], rfl⟩
  have hnuFor : ∀ r, r ∈ n.reactions.map Prod.snd ∧ written r = true → nuFor G fissionMts r.mt = .ok ((nuOf N r.mt).map Product.back) := by
    rintro r ⟨hr, hw⟩
    unfold nuFor nuOf
    by_cases hm : r.mt ∈ fissionMts
    · rw [if_pos hm]
      cases hN0 : N with
      | none =>
        have : nu = none := by
          cases hn : nu with
          | none => rfl
          | some pg =>
            obtain ⟨p, hp, _⟩ := r4 pg hn
            rw [hN0] at hp
            cases hp
        rw [this] at l4
        rw [if_neg (by rintro ⟨_, hc⟩; rw [Grp.has, l4] at hc; simp at hc)]
        rfl
      | some p =>
        have hs := r6 ⟨r, hr, hw, hm⟩ (by rw [hN0]; rfl)
        obtain ⟨pg, hpg⟩ := Option.isSome_iff_exists.1 hs
        obtain ⟨p', hp', hfrom⟩ := r4 pg hpg
        rw [hN0] at hp'
        cases hp'
        rw [hpg] at l4
        rw [if_pos ⟨hm, by rw [Grp.has, l4]; rfl⟩, group_of l4]
        simp only [ok_bind]
        rw [show (⟨pg.attrs, pg.items⟩ : Grp K) = pg from rfl, hfrom]
        rfl
    · rw [if_neg hm, if_neg fun hc => hm hc.1]
      rfl
  have hperm := ho items
  obtain ⟨D, d1, d2⟩ := reactionsFrom_ok hE (g := G) (nu := fun mt => (nuOf N mt).map Product.back) (fun r => r ∈ n.reactions.map Prod.snd ∧ written r = true) hnuFor (ord := ord) (ord items) [] (fun e he => by
    obtain ⟨r, hr, hw, hrd⟩ := r2 e (hperm.mem_iff.1 he)
    exact ⟨r, ⟨hr, hw⟩, hrd⟩)
  have huniq : ∀ r ∈ n.reactions.map Prod.snd, Dict.get? n.reactions r.mt = some r := by
    intro r hr
    obtain ⟨e, he, rfl⟩ := List.mem_map.1 hr
    rw [h.numbers e he]
    obtain ⟨k, v⟩ := e
    clear * - he h
    have hn := h.mts
    generalize n.reactions = l at he hn
    induction l with
    | nil => simp at he
    | cons e' l ih =>
      obtain ⟨k', v'⟩ := e'
      simp only [Dict.keys, List.map_cons, List.nodup_cons] at hn
      simp only [Dict.get?]
      rcases List.mem_cons.1 he with he | he
      · cases he; simp
      · rw [if_neg, ih he hn.2]
        intro hk
        exact hn.1 (by rw [hk]; exact List.mem_map.2 ⟨(k, v), he, rfl⟩)
  have hD : ∀ mt r, Dict.get? n.reactions mt = some r → written r = true → ∃ r', Dict.get? D mt = some r' ∧ SameReaction r r' ∧ r'.derived = r.derived.map Product.back := by
    intro mt r hr hw
    have hmem : ∀ {l : List (Nat × Reaction K)}, Dict.get? l mt = some r → (mt, r) ∈ l := by
      intro l
      induction l with
      | nil => intro h; simp [Dict.get?] at h
      | cons e l ih =>
        intro h
        obtain ⟨k', v'⟩ := e
        simp only [Dict.get?] at h
        split at h
        · rename_i hk; cases h; subst hk; simp
        · exact List.mem_cons_of_mem _ (ih h)
    have hm := hmem hr
    have hmt : r.mt = mt := h.numbers _ hm
    have hr' : r ∈ n.reactions.map Prod.snd := List.mem_map.2 ⟨_, hm, rfl⟩
    rcases d2 mt with ⟨r', c1, r0, ⟨c2, c3⟩, c4, c5, c6⟩ | ⟨_, hb⟩
    · have : r0 = r := by
        have := huniq r0 c2
        rw [c4, hr] at this
        cases this
        rfl
      subst this
      refine ⟨r', c1, c5, ?_⟩
      rw [c6, hd _ hm hw, nuOf]
      rfl
    · obtain ⟨e, he, hrd⟩ := r3 r hr' hw
      exact absurd hmt (hb e (hperm.mem_iff.2 he) r hrd)
  have hD' : ∀ mt r', Dict.get? D mt = some r' → ∃ r, Dict.get? n.reactions mt = some r ∧ written r = true ∧ SameReaction r r' := by
    intro mt r' hr'
    rcases d2 mt with ⟨r'', c1, r0, ⟨c2, c3⟩, c4, c5, c6⟩ | ⟨ha, _⟩
    · rw [hr'] at c1
      cases c1
      refine ⟨r0, ?_, c3, c5⟩
      rw [← c4]
      exact huniq r0 c2
    · rw [hr'] at ha
      simp [Dict.get?] at ha
  have htemps : ∀ T, T ∈ kTs'.map temp ↔ T ∈ n.kTs.map temp := fun T => (kt2.map temp).mem_iff
  obtain ⟨D2, b1⟩ := rebuild_total (g := G) (temps := kTs'.map temp) (fun m => hnuAny [18] m) rulesDown D (fun m r' hr' T hT => by
    obtain ⟨r, hr, hw, hsame⟩ := hD' m r' hr'
    have hmem : ∃ e ∈ n.reactions, e.2 = r := by
      clear * - hr
      generalize n.reactions = l at hr
      induction l with
      | nil => simp [Dict.get?] at hr
      | cons e l ih =>
        obtain ⟨k', v'⟩ := e
        simp only [Dict.get?] at hr
        split at hr
        · cases hr; exact ⟨(k', r), by simp, rfl⟩
        · obtain ⟨e, he, hh⟩ := ih hr
          exact ⟨e, by simp [he], hh⟩
    obtain ⟨e, he, rfl⟩ := hmem
    obtain ⟨x, hx⟩ := h.full e he hw T ((htemps T).1 hT)
    have := hsame.xs T
    rw [hx] at this
    simp only [Option.join_some, Option.map_some] at this
    refine ⟨x.back, ?_⟩
    cases hh : Dict.get? r'.xs T with
    | none => rw [hh] at this; simp at this
    | some y => rw [hh] at this; simp only [Option.join_some] at this; rw [this])
  refine ⟨G, ⟨n.z, n.a, n.m, n.awr, kTs', E, D2, U, n.fission⟩, hto, ?_, ⟨rfl, rfl, rfl, rfl, kt2, hE, ?_, ur2, rfl⟩, D, ?_, b1⟩
  · have a1 : getAttr G.attrs c!"Z" = .ok (.int n.z) := rfl
    have a2 : getAttr G.attrs c!"A" = .ok (.int n.a) := rfl
    have a3 : getAttr G.attrs c!"metastable" = .ok (.int n.m) := rfl
    have a4 : getAttr G.attrs c!"atomic_weight_ratio" = .ok (.num n.awr) := rfl
    simp only [nuclideFrom, a1, a2, a3, a4, group_of l1, group_of l2, group_of l3, ok_bind, Val.toInt, Val.toNum, kt1, en1, d1, b1, ur1, fi]
  · intro mt r hr hw
    obtain ⟨r', c1, c2, c3⟩ := hD mt r hr hw
    exact ⟨r', rebuild_some _ _ _ b1 mt r' c1, c2, c3⟩
  · intro mt
    constructor
    · intro hs
      obtain ⟨r', hr'⟩ := Option.isSome_iff_exists.1 hs
      obtain ⟨r, hr, hw, _⟩ := hD' mt r' hr'
      exact ⟨r, hr, hw⟩
    · rintro ⟨r, hr, hw⟩
      obtain ⟨r', hr', _⟩ := hD mt r hr hw
      rw [hr']
      rfl

end ASAPy.Hdf5
