import Verif.Hdf5.Round4
import Verif.Hdf5.Props

/-!
# C122: products and reactions survive export to and import from HDF5
-/

namespace ASAPy.Hdf5

open Dec

variable {K : Type} [Field K] [LinearOrder K] [IsStrictOrderedRing K]

/-- C122: every product whose yield and distributions can be stored comes back: particle, mode of emission, decay constant, yield, distributions and their probabilities. -/
theorem C122_product_partial {p : Product K} (h : p.Stored) : ∃ g, productTo p = .ok g ∧ productFrom g = .ok p.back := product_round h

/-- C122: every reaction with linear cross sections on the energies of the nuclide comes back with the same number, Q value, frame, flag, products and cross sections at every
temperature, in whatever order the file lists its items. -/
theorem C122_reaction_partial (label : Nat → Text) {ord : List (Text × Node K) → List (Text × Node K)} (ho : ∀ l, (ord l).Perm l) {energy : List (Text × List K)} {r : Reaction K}
    (h : r.Stored energy) : ∃ g r', reactionTo label r = .ok g ∧ reactionFrom ord g energy = .ok r' ∧ SameReaction r r' :=
  let ⟨g, h1, h2⟩ := reaction_round label ho h
  let ⟨r', h3, h4, _⟩ := h2 energy fun _ => rfl
  ⟨g, r', h1, h3, h4⟩

/-- Two products, one with two distributions of given probability. -/
def exProduct : Product ℚ := ⟨c!"neutron", c!"prompt", 0, .tab (.linlin [1, 20] [2, 3]), [.linlin [1, 20] [1 / 2, 1 / 3], .linlin [1, 20] [1 / 2, 2 / 3]],
  [.uncorrelated none (some (.continuous exHead [exTab, exLines])), .uncorrelated (some ⟨[1], [.uniform (-1) 1]⟩) none]⟩

theorem exProduct_stored : exProduct.Stored where
  mode := Or.inl rfl
  decay := le_refl _
  yield_ := by simp [Fun1.Stored, Tab1D.Stored, exProduct, Tab1D.linlin]
  number := Or.inr rfl
  tables := by
    intro t ht
    simp only [exProduct, List.mem_cons, List.not_mem_nil, or_false] at ht
    rcases ht with rfl | rfl <;> simp [Tab1D.Stored, Tab1D.linlin]
  dists := by
    intro d hd
    simp only [exProduct, List.mem_cons, List.not_mem_nil, or_false] at hd
    rcases hd with rfl | rfl
    · refine ⟨fun a ha => by simp at ha, ?_⟩
      rintro e ⟨⟩
      refine ⟨⟨rfl, rfl⟩, ?_⟩
      intro d hd
      simp only [List.mem_cons, List.not_mem_nil, or_false] at hd
      rcases hd with rfl | rfl
      · exact exTab_out false
      · exact exLines_out false
    · refine ⟨?_, fun e he => by simp at he⟩
      rintro a ⟨⟩
      refine ⟨rfl, ?_⟩
      intro d hd
      simp only [List.mem_cons, List.not_mem_nil, or_false] at hd
      subst hd
      exact (by norm_num : (-1 : ℚ) < 1)

/-- An inelastic level at two temperatures, above its threshold. -/
def exReaction : Reaction ℚ := ⟨51, -2, true, false, [(c!"1200K", some (.tab (.linlin [3, 5] [0, 7]) (some 2))), (c!"294K", some (.tab (.linlin [3, 6, 9] [0, 4, 5]) (some 1)))], [exProduct], []⟩

def exGrid : List (Text × List ℚ) := [(c!"294K", [1, 3, 6, 9]), (c!"1200K", [1, 2, 3, 5])]

theorem temp_294 : IsTemp c!"294K" := ⟨294, by decide⟩
theorem temp_1200 : IsTemp c!"1200K" := ⟨1200, by decide⟩

theorem exReaction_stored : exReaction.Stored exGrid where
  keys := by decide
  temps := by
    intro T hT
    simp only [exReaction, Dict.keys, List.map_cons, List.map_nil, List.mem_cons, List.not_mem_nil, or_false] at hT
    rcases hT with rfl | rfl
    · exact temp_1200
    · exact temp_294
  xs := by
    intro T x hT
    simp only [exReaction, List.mem_cons, List.not_mem_nil, or_false, Prod.mk.injEq, Option.some.injEq] at hT
    rcases hT with ⟨rfl, rfl⟩ | ⟨rfl, rfl⟩
    · exact ⟨_, [0, 7], some 2, rfl, rfl⟩
    · exact ⟨_, [0, 4, 5], some 1, rfl, rfl⟩
  products := by
    intro p hp
    simp only [exReaction, List.mem_cons, List.not_mem_nil, or_false] at hp
    subst hp
    exact exProduct_stored

omit [Field K] [LinearOrder K] [IsStrictOrderedRing K] in
/-- A reaction whose cross section is a sum, as the redundant reactions are after an import, cannot be written. -/
theorem C122_sum_refuted [Field K] [LinearOrder K] (label : Nat → Text) (r : Reaction K) (T : Text) (fs : List (Xs K)) (hx : r.xs = [(T, some (.sum fs))]) : reactionTo label r = .error .exception := by
  simp [reactionTo, hx, xsTo, xsGroup]

/-- A cross section with constant values between its points comes back as a linear one. -/
theorem C122_scheme_refuted (label : Nat → Text) : ∃ g, reactionTo label (⟨102, 0, true, false, [(c!"294K", some (.tab ⟨[1, 2], [3, 5], [2], [1]⟩ none))], [], []⟩ : Reaction ℚ) = .ok g ∧
    ∃ r, reactionFrom id g [(c!"294K", [1, 2])] = .ok r ∧ Dict.get? r.xs c!"294K" = some (some (.tab ⟨[1, 2], [3, 5], [2], [2]⟩ (some 0))) := ⟨_, rfl, _, rfl, rfl⟩

/-- A cross section on energies of its own comes back with as many values on the energies of the nuclide. -/
theorem C122_grid_refuted (label : Nat → Text) : ∃ g, reactionTo label (⟨102, 0, true, false, [(c!"294K", some (.tab (.linlin [10, 20] [3, 5]) none))], [], []⟩ : Reaction ℚ) = .ok g ∧
    ∃ r, reactionFrom id g [(c!"294K", [1, 2, 3])] = .ok r ∧ Dict.get? r.xs c!"294K" = some (some (.tab (.linlin [1, 2, 3] [3, 5]) (some 0))) := ⟨_, rfl, _, rfl, rfl⟩

end ASAPy.Hdf5
