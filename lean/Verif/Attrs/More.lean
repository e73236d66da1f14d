import Verif.Attrs.Props

/-!
# Attributes of distributions and atomic data (C227)
-/

namespace ASAPy.Attrs

/-- The classes whose constructors assign their arguments, in this order, and what the arguments may be. -/
inductive Made : Class → List Text → Doc → Prop
  | maxwell : Made maxwell [c!"theta", c!"u"] maxwellDoc
  | watt : Made watt [c!"a", c!"b", c!"u"] wattDoc
  | madland : Made madland [c!"efl", c!"efh", c!"tm"] madlandDoc
  | line : Made line [c!"primary_flag", c!"energy", c!"atomic_weight_ratio"] lineDoc
  | level : Made level [c!"threshold", c!"mass_ratio"] levelDoc
  | continuous : Made continuous [c!"breakpoints", c!"interpolation", c!"energy", c!"energy_out"] continuousDoc
  | kalbach : Made kalbach [c!"breakpoints", c!"interpolation", c!"energy", c!"energy_out", c!"precompound", c!"slope"] kalbachDoc
  | angle : Made angle [c!"energy", c!"mu"] angleDoc
  | release : Made release [c!"fragments", c!"prompt_neutrons", c!"delayed_neutrons", c!"prompt_photons", c!"delayed_photons", c!"betas", c!"neutrinos"] releaseDoc
  | coherent : Made coherent [c!"bragg_edges", c!"factors"] coherentDoc
  | relaxation : Made relaxation [c!"binding_energy", c!"num_electrons", c!"transitions"] relaxationDoc

theorem Made.documented {c : Class} {order : List Text} {d : Doc} (h : Made c order d) : Documented c d := by
  cases h <;> constructor

theorem Made.names {c : Class} {order : List Text} {d : Doc} (h : Made c order d) : d.map Prod.fst = order := by
  cases h <;> rfl

theorem zip_fst : ∀ {l : List Text} {m : List Val}, m.length = l.length → (l.zip m).map Prod.fst = l := by
  intro l m h
  rw [List.map_fst_zip (by omega)]

theorem get?_of_mem {α : Type} {d : List (Text × α)} {n : Text} {x : α} (hd : (d.map Prod.fst).Nodup) (hm : (n, x) ∈ d) : Dict.get? d n = some x := by
  induction d with
  | nil => cases hm
  | cons e d ih =>
    obtain ⟨n', y⟩ := e
    simp only [List.map_cons, List.nodup_cons] at hd
    simp only [Dict.get?]
    rcases List.mem_cons.mp hm with h | h
    · cases h
      rw [if_pos rfl]
    · have hne : ¬ n' = n := by
        rintro rfl
        exact hd.1 (List.mem_map_of_mem (f := Prod.fst) h)
      rw [if_neg hne]
      exact ih hd.2 h

/-- Constructors accept exactly what is documented. -/
theorem construct_iff {c : Class} {d : Doc} (hd : Documented c d) : ∀ (l : List (Text × Val)) (o : Obj), (∀ p ∈ l, (Dict.get? d p.1).isSome) →
    ((∃ o', construct c o l = .ok o') ↔ ∀ p ∈ l, ∀ D, Dict.get? d p.1 = some D → D p.2)
  | [], o, _ => by simp [construct]
  | (a, v) :: l, o, hs => by
    obtain ⟨D, hD⟩ := Option.isSome_iff_exists.mp (hs (a, v) (by simp))
    obtain ⟨h1, h2, -⟩ := C226_assigned hd hD o v
    rw [construct]
    by_cases hv : D v
    · obtain ⟨h3, -⟩ := h1 hv
      generalize assign c o a v = r at h3
      obtain ⟨o1, e⟩ := r
      simp only at h3
      subst h3
      simp only
      rw [construct_iff hd l o1 fun p hp => hs p (by simp [hp])]
      simp only [List.forall_mem_cons]
      constructor
      · intro h
        refine ⟨?_, h⟩
        intro E hE
        rw [hD] at hE
        cases hE
        exact hv
      · exact fun h => h.2
    · have h3 := (h2 hv).2
      generalize assign c o a v = r at h3
      obtain ⟨o1, e⟩ := r
      simp only at h3
      constructor
      · rintro ⟨o', h⟩
        rcases h3 with rfl | rfl <;> cases h
      · intro h
        exact absurd (h (a, v) (by simp) D hD) hv

/-- **C227.** The constructors of these classes accept their arguments if, and only if, each is as documented. -/
theorem C227_constructed {c : Class} {order : List Text} {d : Doc} (h : Made c order d) {args : List Val} (hl : args.length = order.length) :
    (∃ o, make c order args = .ok o) ↔ List.Forall₂ (fun D v => D v) (d.map Prod.snd) args := by
  unfold make
  rw [construct_iff h.documented _ _ (by
    intro p hp
    rw [Dict.get?_isSome]
    have := List.mem_map_of_mem (f := Prod.fst) hp
    rw [zip_fst hl, ← h.names] at this
    exact this)]
  have hn := h.names
  have nodup : (d.map Prod.fst).Nodup := by
    rw [hn]
    cases h <;> decide
  clear h
  subst hn
  have key : ∀ (d' : Doc) (args : List Val), d'.Sublist d → args.length = d'.length →
      ((∀ p ∈ (d'.map Prod.fst).zip args, ∀ D, Dict.get? d p.1 = some D → D p.2) ↔ List.Forall₂ (fun D v => D v) (d'.map Prod.snd) args) := by
    intro d'
    induction d' with
    | nil =>
      intro args _ hl
      have : args = [] := List.length_eq_zero_iff.mp hl
      subst this
      simp
    | cons e d' ih =>
      intro args hs hl
      cases args with
      | nil => simp at hl
      | cons v args =>
        obtain ⟨n, D⟩ := e
        have hget : Dict.get? d n = some D := get?_of_mem nodup (hs.subset (by simp))
        simp only [List.map_cons, List.zip_cons_cons, List.forall_mem_cons, List.forall₂_cons]
        rw [ih args ((List.sublist_cons_self _ _).trans hs) (by simpa using hl)]
        constructor
        · rintro ⟨h1, h2⟩
          exact ⟨h1 D hget, h2⟩
        · rintro ⟨h1, h2⟩
          refine ⟨?_, h2⟩
          intro E hE
          rw [hget] at hE
          cases hE
          exact h1
  exact key d args (List.Sublist.refl _) (by simpa using hl)

/-- **C227.** Whatever is assigned to an object of these classes, accepted or refused, all of its attributes are as documented. -/
theorem C227_history {c : Class} {order : List Text} {d : Doc} (h : Made c order d) {args : List Val} (hl : args.length = order.length) {o : Obj}
    (ho : make c order args = .ok o) (ops : List (Text × Val)) {n : Text} {D : Val → Prop} (hn : Dict.get? d n = some D) :
    ∃ v, get (history c o ops) n = .ok v ∧ D v :=
  made h.documented ho (fun _ _ => rfl) (by
    intro n hn
    rw [zip_fst hl, ← h.names]
    exact hn) ops hn

/-- **C227.** Likewise for a photon table, a photon reaction and a distribution without correlation; what was not given is `None`. -/
theorem C227_optional {c : Class} {d : Doc} (hd : Documented c d) {o0 o : Obj} {l : List (Text × Val)} (h : construct c o0 l = .ok o)
    (h0 : ∀ p ∈ o0, p.2 = .none) (hl : ∀ n ∈ d.map Prod.fst, n ∈ o0.map Prod.fst ∨ n ∈ l.map Prod.fst) (ops : List (Text × Val)) {n : Text} {D : Val → Prop}
    (hn : Dict.get? d n = some D) : ∃ v, get (history c o ops) n = .ok v ∧ (D v ∨ v = .none ∧ n ∈ o0.map Prod.fst) := by
  obtain ⟨h1, h2⟩ := kept hd h ops hn
  have hm : n ∈ d.map Prod.fst := List.mem_map_of_mem (get?_mem hn)
  obtain ⟨v, hv⟩ := h1 (by
    rcases hl n hm with g | g
    · left
      rw [Dict.get?_isSome]
      exact g
    · exact Or.inr g)
  refine ⟨v, hv, ?_⟩
  rcases h2 v hv with g | g
  · exact Or.inl g
  · have g' := get?_mem g
    exact Or.inr ⟨h0 _ g', List.mem_map_of_mem (f := Prod.fst) g'⟩

/-- **C227.** The attributes of a photon table. -/
theorem C227_photon {z : Val} {o : Obj} (h : makePhoton z = .ok o) (ops : List (Text × Val)) :
    (∃ v, get (history photon o ops) c!"atomic_number" = .ok v ∧ Count v) ∧
    ∃ v, get (history photon o ops) c!"atomic_relaxation" = .ok v ∧ (v = .obj .relaxation ∨ v = .none) := by
  have key := fun n D => C227_optional (n := n) (D := D) .photon h (by simp) (by simp only [photonDoc, List.map_cons, List.map_nil]; decide) ops
  obtain ⟨v, h1, h2⟩ := key c!"atomic_number" _ rfl
  obtain ⟨w, h3, h4⟩ := key c!"atomic_relaxation" _ rfl
  refine ⟨⟨v, h1, ?_⟩, w, h3, ?_⟩
  · rcases h2 with h2 | ⟨-, h2⟩
    · exact h2
    · exact absurd h2 (by decide)
  · rcases h4 with h4 | h4
    · exact Or.inl h4
    · exact Or.inr h4.1

/-- **C227.** The attributes of a photon reaction. -/
theorem C227_photon_reaction {mt : Val} {o : Obj} (h : makePhotonReaction mt = .ok o) (ops : List (Text × Val)) {n : Text}
    (hn : n ∈ [c!"anomalous_real", c!"anomalous_imag", c!"scattering_factor", c!"xs"]) :
    ∃ v, get (history photonReaction o ops) n = .ok v ∧ (IsFunction v ∨ v = .none) := by
  have hd : Dict.get? photonReactionDoc n = some IsFunction := by
    simp only [List.mem_cons, List.not_mem_nil, or_false] at hn
    rcases hn with rfl | rfl | rfl | rfl <;> rfl
  obtain ⟨v, h1, h2⟩ := C227_optional .photonReaction h (by simp) (by simp only [photonReactionDoc, List.map_cons, List.map_nil]; decide) ops hd
  exact ⟨v, h1, h2.imp id And.left⟩

/-- **C227.** The attributes of a distribution of angle and energy without correlation. -/
theorem C227_uncorrelated {a e : Val} {o : Obj} (h : makeUncorrelated a e = .ok o) (ops : List (Text × Val)) :
    (∃ v, get (history uncorrelated o ops) c!"angle" = .ok v ∧ (v = .obj .angleDistribution ∨ v = .none)) ∧
    ∃ v, get (history uncorrelated o ops) c!"energy" = .ok v ∧ (v = .obj .energyDistribution ∨ v = .none) := by
  have key := fun n D => C227_optional (n := n) (D := D) .uncorrelated h (by simp) (by
    intro n hn
    left
    exact hn) ops
  obtain ⟨v, h1, h2⟩ := key c!"angle" _ rfl
  obtain ⟨w, h3, h4⟩ := key c!"energy" _ rfl
  exact ⟨⟨v, h1, h2.imp id And.left⟩, w, h3, h4.imp id And.left⟩

/-! ### Examples -/

example : ∃ o, make madland [c!"efl", c!"efh", c!"tm"] [.float (.fin 1), .float (.fin 2), .obj .tabulated1D] = .ok o :=
  (C227_constructed .madland rfl).mpr (.cons ⟨_, Or.inl rfl, Or.inr (Or.inr ⟨1, rfl, by norm_num⟩)⟩ (.cons ⟨_, Or.inl rfl, Or.inr (Or.inr ⟨2, rfl, by norm_num⟩)⟩
    (.cons rfl .nil)))

example : ¬ ∃ o, make level [c!"threshold", c!"mass_ratio"] [.float (.fin 1), .text c!"0.9"] = .ok o := by
  rw [C227_constructed .level rfl]
  intro h
  simp [levelDoc, IsReal, Real, Whole] at h

example : ∃ o, makePhoton (.int 92) = .ok o := ⟨_, rfl⟩
example : ∃ o, makeUncorrelated .none (.obj .energyDistribution) = .ok o := ⟨_, rfl⟩
example : ∃ o, makePhotonReaction (.int 502) = .ok o := ⟨_, rfl⟩

end ASAPy.Attrs
