import Verif.Hdf5.Round6
import Verif.Hdf5.Props2
import Mathlib.Data.List.Sort

/-!
# C123, C124: nuclides survive export to and import from HDF5; redundant reactions are the sums of their parts
-/

namespace ASAPy.Hdf5

open Dec

section
variable {K : Type} [Field K] [LinearOrder K] [IsStrictOrderedRing K] [ExpLog K]

/-- C123: every nuclide that can be stored is written, and what is written is read as the same nuclide, for all numbers of temperatures, reactions and products and all orders
in which h5py lists the items of a group: Z, A, state, mass, temperatures (as a set), energies, all reactions that are written with their total yield of neutrons,
probability tables and the energy released in fission. -/
theorem C123_nuclide_partial (temp : K → Text) (label : Nat → Text) {ord : List (Text × Node K) → List (Text × Node K)} (ho : ∀ l, (ord l).Perm l) {n : Nuclide K} (h : n.Stored temp) :
    ∃ g n', nuclideTo temp label n = .ok g ∧ nuclideFrom temp ord g = .ok n' ∧ SameNuclide n n' := by
  obtain ⟨g, n', h1, h2, h3, _⟩ := nuclide_round temp label ho h
  exact ⟨g, n', h1, h2, h3⟩

/-- C123: nothing else comes back but sums. -/
theorem C123_nothing_else (temp : K → Text) (label : Nat → Text) {ord : List (Text × Node K) → List (Text × Node K)} (ho : ∀ l, (ord l).Perm l) {n : Nuclide K} (h : n.Stored temp)
    {g : Grp K} {n' : Nuclide K} (hto : nuclideTo temp label n = .ok g) (hfrom : nuclideFrom temp ord g = .ok n') {mt : Nat} {r' : Reaction K} (hr : Dict.get? n'.reactions mt = some r') :
    (∃ r, Dict.get? n.reactions mt = some r ∧ written r = true) ∨ ∃ parts, (mt, parts) ∈ Comp.sumRules := by
  obtain ⟨g0, n0, h1, h2, _, d, hd, hb⟩ := nuclide_round temp label ho h
  rw [hto] at h1; cases h1
  rw [hfrom] at h2; cases h2
  by_cases hm : mt ∈ rulesDown.map Prod.fst
  · right
    obtain ⟨e, he, rfl⟩ := List.mem_map.1 hm
    exact ⟨e.2, by simpa [rulesDown] using he⟩
  · left
    rw [rebuild_other _ _ _ hb mt hm] at hr
    exact (hd mt).1 (by rw [hr]; rfl)

/-- C124: after an export and an import, every reaction that is a sum by the rules and was not written is there if one of its parts is, and its cross section at every
temperature is the sum of those of all its parts that there are; provided that MT 18 was written or no partial fission was. -/
theorem C124_sums_partial (temp : K → Text) (label : Nat → Text) {ord : List (Text × Node K) → List (Text × Node K)} (ho : ∀ l, (ord l).Perm l) {n : Nuclide K} (h : n.Stored temp)
    {g : Grp K} {n' : Nuclide K} (hto : nuclideTo temp label n = .ok g) (hfrom : nuclideFrom temp ord g = .ok n')
    (hf : (∃ r, Dict.get? n.reactions 18 = some r ∧ written r = true) ∨ ∀ mt ∈ [19, 20, 21, 38], ∀ r, Dict.get? n.reactions mt = some r → written r = false)
    {m : Nat} {parts : List Nat} (hm : (m, parts) ∈ Comp.sumRules) (hnot : ∀ r, Dict.get? n.reactions m = some r → written r = false) :
    IsSum n'.reactions (n'.kTs.map temp) m parts := by
  obtain ⟨g0, n0, h1, h2, _, d, hd, hb⟩ := nuclide_round temp label ho h
  rw [hto] at h1; cases h1
  rw [hfrom] at h2; cases h2
  have hnone : ∀ mt, (∀ r, Dict.get? n.reactions mt = some r → written r = false) → Dict.get? d mt = none := by
    intro mt hmt
    cases hc : Dict.get? d mt with
    | none => rfl
    | some r' =>
      obtain ⟨r, hr, hw⟩ := (hd mt).1 (by rw [hc]; rfl)
      rw [hmt r hr] at hw
      cases hw
  refine rebuild_rules hb ?_ m parts hm (hnone m hnot)
  rcases hf with hf | hf
  · exact Or.inl ((hd 18).2 hf)
  · exact Or.inr fun q hq => hnone q (hf q hq)

omit [IsStrictOrderedRing K] [ExpLog K] in
/-- C124: the same for any file that is read. `d` are the reactions in the file. -/
theorem C124_file_partial {ord : List (Text × Node K) → List (Text × Node K)} {temp : K → Text} {g : Grp K} {n : Nuclide K} (hfrom : nuclideFrom temp ord g = .ok n) :
    ∃ rg d, g.group c!"reactions" = .ok rg ∧ reactionsFrom ord g n.energy (ord rg.items) [] = .ok d ∧ (∀ mt r, Dict.get? d mt = some r → Dict.get? n.reactions mt = some r) ∧
      ((Dict.get? d 18).isSome = true ∨ (∀ q ∈ [19, 20, 21, 38], Dict.get? d q = none) → ∀ m parts, (m, parts) ∈ Comp.sumRules → Dict.get? d m = none →
        IsSum n.reactions (n.kTs.map temp) m parts) := by
  unfold nuclideFrom at hfrom
  have bind_ok : ∀ {α β : Type} {x : Except PyErr α} {f : α → Except PyErr β} {b : β}, (x >>= f) = .ok b → ∃ a, x = .ok a ∧ f a = .ok b := by
    intro α β x f b hx
    cases x with
    | error e => cases hx
    | ok a => exact ⟨a, rfl, hx⟩
  obtain ⟨_, _, hfrom⟩ := bind_ok hfrom
  obtain ⟨z, _, hfrom⟩ := bind_ok hfrom
  obtain ⟨_, _, hfrom⟩ := bind_ok hfrom
  obtain ⟨a, _, hfrom⟩ := bind_ok hfrom
  obtain ⟨_, _, hfrom⟩ := bind_ok hfrom
  obtain ⟨m, _, hfrom⟩ := bind_ok hfrom
  obtain ⟨_, _, hfrom⟩ := bind_ok hfrom
  obtain ⟨awr, _, hfrom⟩ := bind_ok hfrom
  obtain ⟨_, _, hfrom⟩ := bind_ok hfrom
  obtain ⟨kTs, _, hfrom⟩ := bind_ok hfrom
  obtain ⟨_, _, hfrom⟩ := bind_ok hfrom
  obtain ⟨E, _, hfrom⟩ := bind_ok hfrom
  obtain ⟨rg, hrg, hfrom⟩ := bind_ok hfrom
  obtain ⟨d, hd, hfrom⟩ := bind_ok hfrom
  obtain ⟨d', hb, hfrom⟩ := bind_ok hfrom
  obtain ⟨u, _, hfrom⟩ := bind_ok hfrom
  obtain ⟨f, _, hfrom⟩ := bind_ok hfrom
  cases hfrom
  exact ⟨rg, d, hrg, hd, rebuild_some _ _ _ hb, fun hf m parts hm hn => rebuild_rules hb hf m parts hm hn⟩

end

/-! ### An example -/

section
local instance : ExpLog ℚ := ⟨id, id⟩

/-- The names of two temperatures. -/
def exTemp (kT : ℚ) : Text := if kT = 1 then c!"294K" else c!"1200K"

def exNu : Product ℚ := ⟨c!"neutron", c!"total", 0, .poly [5 / 2, 1 / 10], [], []⟩

def exFission : Reaction ℚ := ⟨18, 200, false, false, [(c!"294K", some (.tab (.linlin [1, 3, 6, 9] [4, 3, 2, 1]) (some 0))), (c!"1200K", some (.tab (.linlin [1, 2, 3, 5] [4, 4, 3, 2]) none))], [exProduct], [exNu]⟩

/-- A nuclide with an inelastic level, fission, a redundant total, a probability table and the energy released in fission. -/
def exNuclide : Nuclide ℚ where
  z := 92
  a := 235
  m := 0
  awr := 233
  kTs := [1, 2]
  energy := exGrid ++ [(c!"0K", [1, 2])]
  reactions := [(1, ⟨1, 0, true, true, [(c!"294K", none)], [], []⟩), (18, exFission), (51, exReaction)]
  urr := [(c!"294K", ⟨[1, 2], [[[1]], [[2]]], 2, -1, -1, true⟩)]
  fission := some ⟨.poly [160], .poly [5, 1], .poly [0], .poly [7], .poly [6], .poly [6], .poly [9]⟩

theorem exNu_stored : exNu.Stored := ⟨Or.inr (Or.inr rfl), le_refl _, trivial, Or.inl rfl, by simp [exNu], by simp [exNu]⟩

theorem exFission_stored : exFission.Stored exNuclide.energy where
  keys := by decide
  temps := by
    intro T hT
    simp only [exFission, Dict.keys, List.map_cons, List.map_nil, List.mem_cons, List.not_mem_nil, or_false] at hT
    rcases hT with rfl | rfl
    · exact temp_294
    · exact temp_1200
  xs := by
    intro T x hT
    simp only [exFission, List.mem_cons, List.not_mem_nil, or_false, Prod.mk.injEq, Option.some.injEq] at hT
    rcases hT with ⟨rfl, rfl⟩ | ⟨rfl, rfl⟩
    · exact ⟨_, [4, 3, 2, 1], some 0, rfl, rfl⟩
    · exact ⟨_, [4, 4, 3, 2], none, rfl, rfl⟩
  products := by
    intro p hp
    simp only [exFission, List.mem_cons, List.not_mem_nil, or_false] at hp
    subst hp
    exact exProduct_stored

theorem exReaction_stored' : exReaction.Stored exNuclide.energy where
  keys := exReaction_stored.keys
  temps := exReaction_stored.temps
  xs := by
    intro T x hT
    obtain ⟨e, y, th, h1, h2⟩ := exReaction_stored.xs T x hT
    exact ⟨e, y, th, by rw [exNuclide, get?_app, h1]; rfl, h2⟩
  products := exReaction_stored.products

theorem exNuclide_stored : exNuclide.Stored exTemp where
  temps := by decide +kernel
  grids := by decide +kernel
  only := by decide +kernel
  mts := by decide
  numbers := by
    intro e he
    simp only [exNuclide, List.mem_cons, List.not_mem_nil, or_false] at he
    rcases he with rfl | rfl | rfl <;> rfl
  reactions := by
    intro e he hw
    simp only [exNuclide, List.mem_cons, List.not_mem_nil, or_false] at he
    rcases he with rfl | rfl | rfl
    · cases hw
    · exact exFission_stored
    · exact exReaction_stored'
  full := by
    intro e he hw T hT
    have hT' : T = c!"294K" ∨ T = c!"1200K" := by
      have : List.map exTemp exNuclide.kTs = [c!"294K", c!"1200K"] := by decide +kernel
      rw [this] at hT
      simpa using hT
    simp only [exNuclide, List.mem_cons, List.not_mem_nil, or_false] at he
    rcases he with rfl | rfl | rfl
    · cases hw
    · rcases hT' with rfl | rfl
      · exact ⟨_, rfl⟩
      · exact ⟨_, rfl⟩
    · rcases hT' with rfl | rfl
      · exact ⟨_, rfl⟩
      · exact ⟨_, rfl⟩
  nu := by
    refine ⟨some exNu, by rintro p ⟨⟩; exact exNu_stored, ?_⟩
    intro e he hw
    simp only [exNuclide, List.mem_cons, List.not_mem_nil, or_false] at he
    rcases he with rfl | rfl | rfl
    · cases hw
    · rfl
    · rfl
  urr := by decide
  fission := by
    rintro r ⟨⟩
    refine ⟨?_, ⟨.poly [172, 0], ?_, trivial⟩, ⟨.poly [184, 0], ?_, trivial⟩⟩
    · intro f hf
      simp only [List.mem_cons, List.not_mem_nil, or_false] at hf
      rcases hf with rfl | rfl | rfl | rfl | rfl | rfl | rfl <;> trivial
    · decide +kernel
    · decide +kernel

/-- The items of a group in the order of their names, as h5py lists them. -/
def byName (l : List (Text × Node ℚ)) : List (Text × Node ℚ) := l.insertionSort fun a b => a.1 ≤ b.1

theorem byName_perm (l : List (Text × Node ℚ)) : (byName l).Perm l := List.perm_insertionSort _ l

/-- A nuclide at two temperatures. -/
def exTwo : Nuclide ℚ := ⟨1, 1, 0, 1, [1, 2], [(c!"294K", [1, 2]), (c!"1200K", [1, 2])],
  [(2, ⟨2, 0, true, false, [(c!"294K", some (.tab (.linlin [1, 2] [0, 1]) none)), (c!"1200K", some (.tab (.linlin [1, 2] [0, 1]) none))], [], []⟩)], [], none⟩

/-- The temperatures come back in the order of their names, not of their values. -/
theorem C123_order_refuted (label : Nat → Text) : ∃ g n', nuclideTo exTemp label exTwo = .ok g ∧ nuclideFrom exTemp byName g = .ok n' ∧ exTwo.kTs = [1, 2] ∧ n'.kTs = [2, 1] := by
  refine ⟨_, _, rfl, rfl, rfl, ?_⟩
  rfl

/-- A nuclide with an inelastic level. -/
def exLevel : Nuclide ℚ := ⟨26, 56, 0, 55, [1], [(c!"294K", [1, 2])], [(51, ⟨51, -1, true, false, [(c!"294K", some (.tab (.linlin [1, 2] [0, 1]) none))], [], []⟩)], [], none⟩

/-- A nuclide that has been read cannot be written again: MT 4 is a sum then. -/
theorem C123_again_refuted (label : Nat → Text) : ∃ g n', nuclideTo exTemp label exLevel = .ok g ∧ nuclideFrom exTemp byName g = .ok n' ∧ nuclideTo exTemp label n' = .error .exception :=
  ⟨_, _, rfl, rfl, rfl⟩

/-- A nuclide with first-chance fission and capture. -/
def exPartial : Nuclide ℚ := ⟨92, 235, 0, 233, [1], [(c!"294K", [1, 2])],
  [(2, ⟨2, 0, true, false, [(c!"294K", some (.tab (.linlin [1, 2] [10, 10]) none))], [], []⟩), (19, ⟨19, 200, true, false, [(c!"294K", some (.tab (.linlin [1, 2] [5, 5]) none))], [], []⟩),
   (102, ⟨102, 6, true, false, [(c!"294K", some (.tab (.linlin [1, 2] [1, 1]) none))], [], []⟩)], [], none⟩

mutual
/-- The tables a sum consists of. -/
def Xs.tables : Xs ℚ → List (Tab1D ℚ)
  | .tab t _ => [t]
  | .sum fs => tablesAll fs
def tablesAll : List (Xs ℚ) → List (Tab1D ℚ)
  | [] => []
  | f :: fs => f.tables ++ tablesAll fs
end

/-- Fission is missing from the total cross section if only partial fission is in the file: MT 27 is made before MT 18. -/
theorem C124_fission_refuted (label : Nat → Text) : ∃ g n', nuclideTo exTemp label exPartial = .ok g ∧ nuclideFrom exTemp byName g = .ok n' ∧
    ∃ r x, Dict.get? n'.reactions 1 = some r ∧ Dict.get? r.xs c!"294K" = some (some x) ∧ x.tables = [.linlin [1, 2] [10, 10], .linlin [1, 2] [1, 1]] ∧
    ∃ r x, Dict.get? n'.reactions 18 = some r ∧ Dict.get? r.xs c!"294K" = some (some x) ∧ x.tables = [.linlin [1, 2] [5, 5]] := by
  exact ⟨_, _, rfl, rfl, _, _, rfl, rfl, rfl, _, _, rfl, rfl, rfl⟩

end

end ASAPy.Hdf5
