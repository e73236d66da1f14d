import Verif.Photon.SpecHdf5
import Verif.Hdf5.Round
import Verif.Func.SumProps

/-!
# What the steps of the export leave in the group of the element
-/

namespace ASAPy.Photon
open ASAPy.Endf (Line)
open ASAPy.Hdf5 (Grp Node Val Attrs getAttr get?_app)

theorem bind_ok {α β : Type} {x : Except PyErr α} {f : α → Except PyErr β} {b : β} (h : (x >>= f) = .ok b) : ∃ a, x = .ok a ∧ f a = .ok b := by
  cases x with
  | error e => exact absurd h (by simp [bind, Except.bind])
  | ok a => exact ⟨a, rfl, h⟩

theorem mem_of_get {κ α : Type} [DecidableEq κ] {d : List (κ × α)} {k : κ} {a : α} (h : Dict.get? d k = some a) : (k, a) ∈ d := by
  induction d with
  | nil => cases h
  | cons p d ih =>
    rw [show p = (p.1, p.2) from rfl] at h ⊢
    simp only [Dict.get?] at h
    split at h
    · rename_i hk
      cases h; subst hk; simp
    · exact List.mem_cons_of_mem _ (ih h)

theorem add_ok {g g' : Grp ℝ} {k : Line} {n : Node ℝ} (h : g.add k n = .ok g') : g' = ⟨g.attrs, g.items ++ [(k, n)]⟩ ∧ Dict.get? g.items k = none := by
  unfold Grp.add at h
  split at h
  · cases h
  · rename_i hs
    exact ⟨(Except.ok.inj h).symm, by simpa using hs⟩

theorem union_ok {rxs : List (Int × PRx ℝ)} {acc grid : List ℝ}
    (h : rxs.foldlM (fun g r => match r.2.xs with
      | none => .error .attributeError
      | some t => .ok (Func.union1d g t.x)) acc = (.ok grid : Except PyErr _)) (ha : acc.Pairwise (· < ·)) :
    grid.Pairwise (· < ·) ∧ (∀ v, v ∈ grid ↔ v ∈ acc ∨ ∃ r ∈ rxs, ∃ t, r.2.xs = some t ∧ v ∈ t.x) ∧ ∀ r ∈ rxs, ∃ t, r.2.xs = some t := by
  induction rxs generalizing acc with
  | nil =>
    cases h
    exact ⟨ha, by simp, by simp⟩
  | cons r rxs ih =>
    rw [List.foldlM_cons] at h
    cases hx : r.2.xs with
    | none => rw [hx] at h; simp [bind, Except.bind] at h
    | some t =>
      rw [hx] at h
      obtain ⟨h1, h2, h3⟩ := ih h (Func.union1d_increasing acc t.x)
      refine ⟨h1, fun v => ?_, ?_⟩
      · rw [h2 v, Func.mem_union1d]
        constructor
        · rintro ((h | h) | ⟨q, hq, u, hu, hv⟩)
          · exact Or.inl h
          · exact Or.inr ⟨r, by simp, t, hx, h⟩
          · exact Or.inr ⟨q, by simp [hq], u, hu, hv⟩
        · rintro (h | ⟨q, hq, u, hu, hv⟩)
          · exact Or.inl (Or.inl h)
          · rcases List.mem_cons.mp hq with rfl | hq
            · rw [hx] at hu; cases hu; exact Or.inl (Or.inr hv)
            · exact Or.inr ⟨q, hq, u, hu, hv⟩
      · intro q hq
        rcases List.mem_cons.mp hq with rfl | hq
        · exact ⟨t, hx⟩
        · exact h3 q hq

theorem unionGrid_ok {p : PData} {grid : List ℝ} (h : unionGrid p.reactions = .ok grid) : CommonEnergies p grid ∧ ∀ r ∈ p.reactions, ∃ t, r.2.xs = some t := by
  obtain ⟨h1, h2, h3⟩ := union_ok h List.Pairwise.nil
  exact ⟨⟨h1, fun v => by rw [h2 v]; simp⟩, h3⟩

theorem unionGrid_total {p : PData} (h : ∀ r ∈ p.reactions, ∃ t, r.2.xs = some t) : ∃ grid, unionGrid p.reactions = .ok grid := by
  unfold unionGrid
  generalize ([] : List ℝ) = acc
  generalize p.reactions = rxs at h
  induction rxs generalizing acc with
  | nil => exact ⟨acc, rfl⟩
  | cons r rxs ih =>
    obtain ⟨t, ht⟩ := h r (by simp)
    obtain ⟨grid, hg⟩ := ih (Func.union1d acc t.x) (fun q hq => h q (by simp [hq]))
    exact ⟨grid, by rw [List.foldlM_cons, ht]; exact hg⟩

theorem evals_iff {t : Tab1D ℝ} {es ys : List ℝ} : t.evals es = .ok ys ↔ ValuesAt t es ys := Func.mapM_ok_iff es ys

/-- A cross section on the common energies. -/
def IsXs (r : PRx ℝ) (grid : List ℝ) (g : Grp ℝ) : Prop :=
  ∃ t ys, r.xs = some t ∧ ValuesAt t grid ys ∧ g = ⟨[], [(c!"xs", .data (.vec ys) [])]⟩

theorem xsGroup_ok {r : PRx ℝ} {grid : List ℝ} {g : Grp ℝ} (h : xsGroup r grid = .ok g) : IsXs r grid g := by
  unfold xsGroup at h
  cases hx : r.xs with
  | none => rw [hx] at h; cases h
  | some t =>
    rw [hx] at h
    obtain ⟨ys, h1, h2⟩ := bind_ok h
    exact ⟨t, ys, hx, evals_iff.mp h1, (add_ok h2).1⟩

theorem reactionOf_ok {p : PData} {mt : Int} {r : PRx ℝ} (h : reactionOf p.reactions mt = .ok r) : Dict.get? p.reactions mt = some r := by
  unfold reactionOf at h
  split at h
  · cases h
  · cases h; assumption

/-- What stands beside the cross section of coherent scattering. -/
def factorItems (z : Int) : Option (Tab1D ℝ) → List (Line × Node ℝ) → Prop
  | none, l => l = []
  | some ff, l => ∃ s, (squared z ff).integral = .ok s ∧ s.length = ff.x.length ∧
      l = [(c!"integrated_scattering_factor", .data (.nans (squared z ff).x s) [(c!"type", .str c!"Tabulated1D"), (c!"breakpoints", .ints [(ff.x.length : Int)]), (c!"interpolation", .ints [2])])]

/-- A table beside a cross section. -/
def tabItems (k : Line) : Option (Tab1D ℝ) → List (Line × Node ℝ) → Prop
  | none, l => l = []
  | some t, l => t.x.length = t.y.length ∧ l = [(k, .data (.rows [t.x, t.y]) [(c!"type", .str c!"Tabulated1D"), (c!"breakpoints", .ints t.breakpoints),
      (c!"interpolation", .ints (t.interpolation.map Int.ofNat))])]

theorem addFactor_ok {z : Int} {g g' : Grp ℝ} {ff : Option (Tab1D ℝ)} (h : addFactor z g ff = .ok g') : ∃ l, factorItems z ff l ∧ g' = ⟨g.attrs, g.items ++ l⟩ := by
  cases ff with
  | none => cases h; exact ⟨[], rfl, by simp⟩
  | some ff =>
    unfold addFactor at h
    obtain ⟨s, h1, h2⟩ := bind_ok h
    split at h2
    · rename_i hl
      exact ⟨_, ⟨s, h1, by simpa [squared] using hl.symm, rfl⟩, (add_ok h2).1⟩
    · cases h2

theorem addTab_ok {k : Line} {g g' : Grp ℝ} {t : Option (Tab1D ℝ)} (h : addTab k g t = .ok g') : ∃ l, tabItems k t l ∧ g' = ⟨g.attrs, g.items ++ l⟩ := by
  cases t with
  | none => cases h; exact ⟨[], rfl, by simp⟩
  | some t =>
    unfold addTab at h
    obtain ⟨n, h1, h2⟩ := bind_ok h
    unfold Hdf5.tabTo at h1
    obtain ⟨rows, h3, h4⟩ := bind_ok h1
    unfold Hdf5.vstack at h3
    split at h3
    · cases h3; cases h4
      exact ⟨_, ⟨by assumption, rfl⟩, (add_ok h2).1⟩
    · cases h3

/-- The items of the group of coherent scattering. -/
def Coherent (p : PData) (grid : List ℝ) (l : List (Line × Node ℝ)) : Prop :=
  ∃ r c l1 l2 l3, Dict.get? p.reactions 502 = some r ∧ IsXs r grid c ∧ factorItems p.z r.factor l1 ∧ tabItems c!"anomalous_real" r.real l2 ∧
    tabItems c!"anomalous_imag" r.imag l3 ∧ l = [(c!"coherent", Grp.node ⟨[], c.items ++ (l1 ++ (l2 ++ l3))⟩)]

theorem addCoherent_ok {p : PData} {grid : List ℝ} {g g' : Grp ℝ} (h : addCoherent p grid g = .ok g') :
    ∃ l, Coherent p grid l ∧ g' = ⟨g.attrs, g.items ++ l⟩ := by
  unfold addCoherent at h
  obtain ⟨r, h1, h⟩ := bind_ok h
  obtain ⟨c, h2, h⟩ := bind_ok h
  obtain ⟨c2, h3, h⟩ := bind_ok h
  obtain ⟨c3, h4, h⟩ := bind_ok h
  obtain ⟨c4, h5, h⟩ := bind_ok h
  have hc := xsGroup_ok h2
  obtain ⟨l1, hl1, rfl⟩ := addFactor_ok h3
  obtain ⟨l2, hl2, rfl⟩ := addTab_ok h4
  obtain ⟨l3, hl3, rfl⟩ := addTab_ok h5
  refine ⟨_, ⟨r, c, l1, l2, l3, reactionOf_ok h1, hc, hl1, hl2, hl3, rfl⟩, ?_⟩
  rw [(add_ok h).1]
  obtain ⟨_, _, _, _, rfl⟩ := hc
  simp

/-- The items of the group of incoherent scattering. -/
def Incoherent (p : PData) (grid : List ℝ) (l : List (Line × Node ℝ)) : Prop :=
  ∃ r c l1, Dict.get? p.reactions 504 = some r ∧ IsXs r grid c ∧ tabItems c!"scattering_factor" r.factor l1 ∧ l = [(c!"incoherent", Grp.node ⟨[], c.items ++ l1⟩)]

theorem addIncoherent_ok {p : PData} {grid : List ℝ} {g g' : Grp ℝ} (h : addIncoherent p grid g = .ok g') :
    ∃ l, Incoherent p grid l ∧ g' = ⟨g.attrs, g.items ++ l⟩ := by
  unfold addIncoherent at h
  obtain ⟨r, h1, h⟩ := bind_ok h
  obtain ⟨c, h2, h⟩ := bind_ok h
  obtain ⟨c2, h3, h⟩ := bind_ok h
  have hc := xsGroup_ok h2
  obtain ⟨l1, hl1, rfl⟩ := addTab_ok h3
  refine ⟨_, ⟨r, c, l1, reactionOf_ok h1, hc, hl1, rfl⟩, ?_⟩
  rw [(add_ok h).1]
  obtain ⟨_, _, _, _, rfl⟩ := hc
  simp

/-- The group of a reaction that may be missing. -/
def Maybe (p : PData) (grid : List ℝ) (mt : Int) (k : Line) (l : List (Line × Node ℝ)) : Prop :=
  (Dict.get? p.reactions mt = none ∧ l = []) ∨ ∃ r c, Dict.get? p.reactions mt = some r ∧ IsXs r grid c ∧ l = [(k, c.node)]

theorem addPair_ok {p : PData} {grid : List ℝ} {mt : Int} {k : Line} {g g' : Grp ℝ} (h : addPair p grid mt k g = .ok g') :
    ∃ l, Maybe p grid mt k l ∧ g' = ⟨g.attrs, g.items ++ l⟩ := by
  unfold addPair at h
  cases hd : Dict.get? p.reactions mt with
  | none => rw [hd] at h; cases h; exact ⟨[], Or.inl ⟨hd, rfl⟩, by simp⟩
  | some r =>
    rw [hd] at h
    obtain ⟨c, h1, h2⟩ := bind_ok h
    exact ⟨_, Or.inr ⟨r, c, hd, xsGroup_ok h1, rfl⟩, (add_ok h2).1⟩

theorem addPhotoelectric_ok {p : PData} {grid : List ℝ} {g g' : Grp ℝ} (h : addPhotoelectric p grid g = .ok g') :
    ∃ r c, Dict.get? p.reactions 522 = some r ∧ IsXs r grid c ∧ g' = ⟨g.attrs, g.items ++ [(c!"photoelectric", c.node)]⟩ := by
  unfold addPhotoelectric at h
  obtain ⟨r, h1, h⟩ := bind_ok h
  obtain ⟨c, h2, h⟩ := bind_ok h
  exact ⟨r, c, reactionOf_ok h1, xsGroup_ok h2, (add_ok h).1⟩

theorem addShells_ok {p : PData} {grid : List ℝ} {g g' : Grp ℝ} (h : addShells p grid g = .ok g') :
    ∃ st, p.reactions.foldlM (addShell p grid) (Grp.empty, []) = .ok st ∧
      g' = ⟨g.attrs, g.items ++ [(c!"subshells", (st.1.attr c!"designators" (.strs st.2)).node)]⟩ := by
  unfold addShells at h
  obtain ⟨st, h1, h⟩ := bind_ok h
  exact ⟨st, h1, (add_ok h).1⟩

/-- The group of the profiles. -/
def comptonItems : Option (Compton ℝ) → List (Line × Node ℝ) → Prop
  | none, l => l = []
  | some c, l => ∃ j js, c.profiles = j :: js ∧ (∀ t ∈ js, t.y.length = j.y.length) ∧
      l = [(c!"compton_profiles", .group [] [(c!"num_electrons", .data (.vec c.electrons) []), (c!"binding_energy", .data (.vec c.binding) []),
          (c!"pz", .data (.vec j.x) []), (c!"J", .data (.rows (c.profiles.map fun t => t.y)) [])])]

theorem addCompton_ok {c : Option (Compton ℝ)} {g g' : Grp ℝ} (h : addCompton g c = .ok g') : ∃ l, comptonItems c l ∧ g' = ⟨g.attrs, g.items ++ l⟩ := by
  cases c with
  | none => cases h; exact ⟨[], rfl, by simp⟩
  | some c =>
    unfold addCompton at h
    simp only at h
    split at h
    · cases h
    · rename_i j js hj
      split at h
      · rename_i ha
        exact ⟨_, ⟨j, js, hj, by simpa using ha, rfl⟩, (add_ok h).1⟩
      · cases h

def stoppingItems : Option (List ℝ × SGroup ℝ) → List (Line × Node ℝ)
  | none => []
  | some (e, s) => [(c!"stopping_powers", .group [(c!"I", .num s.i)] [(c!"energy", .data (.vec e) []), (c!"s_collision", .data (.vec s.collision) []),
      (c!"s_radiative", .data (.vec s.radiative) [])])]

theorem addStopping_ok {s : Option (List ℝ × SGroup ℝ)} {g g' : Grp ℝ} (h : addStopping g s = .ok g') : g' = ⟨g.attrs, g.items ++ stoppingItems s⟩ := by
  cases s with
  | none => cases h; simp [stoppingItems]
  | some s => exact (add_ok h).1

def bremItems : Option (List ℝ × List ℝ × List (List ℝ)) → List (Line × Node ℝ)
  | none => []
  | some (e, k, d) => [(c!"bremsstrahlung", .group [] [(c!"electron_energy", .data (.vec e) []), (c!"photon_energy", .data (.vec k) []), (c!"dcs", .data (.rows d) [])])]

theorem addBrem_ok {s : Option (List ℝ × List ℝ × List (List ℝ))} {g g' : Grp ℝ} (h : addBrem g s = .ok g') : g' = ⟨g.attrs, g.items ++ bremItems s⟩ := by
  cases s with
  | none => cases h; simp [bremItems]
  | some s => exact (add_ok h).1

/-- The group of the element, piece by piece. -/
structure Parts (p : PData) (g : Grp ℝ) where
  grid : List ℝ
  coh : List (Line × Node ℝ)
  incoh : List (Line × Node ℝ)
  pairE : List (Line × Node ℝ)
  pairN : List (Line × Node ℝ)
  rp : PRx ℝ
  cp : Grp ℝ
  st : Grp ℝ × List Line
  compt : List (Line × Node ℝ)
  common : CommonEnergies p grid
  all : ∀ r ∈ p.reactions, ∃ t, r.2.xs = some t
  hcoh : Coherent p grid coh
  hincoh : Incoherent p grid incoh
  hpairE : Maybe p grid 515 c!"pair_production_electron" pairE
  hpairN : Maybe p grid 517 c!"pair_production_nuclear" pairN
  hrp : Dict.get? p.reactions 522 = some rp
  hcp : IsXs rp grid cp
  hst : p.reactions.foldlM (addShell p grid) (Grp.empty, []) = .ok st
  hcompt : comptonItems p.compton compt
  attrsEq : g.attrs = [(c!"Z", .int p.z)]
  eq : g.items = [(c!"energy", .data (.vec grid) [])] ++ (coh ++ (incoh ++ (pairE ++ (pairN ++ ([(c!"photoelectric", cp.node)] ++
    ([(c!"subshells", (st.1.attr c!"designators" (.strs st.2)).node)] ++ (compt ++ (stoppingItems p.stopping ++ bremItems p.brem))))))))

theorem elementGroup_ok {p : PData} {g : Grp ℝ} (h : elementGroup p = .ok g) : Nonempty (Parts p g) := by
  unfold elementGroup at h
  obtain ⟨grid, h0, h⟩ := bind_ok h
  obtain ⟨g1, h1, h⟩ := bind_ok h
  obtain ⟨g2, h2, h⟩ := bind_ok h
  obtain ⟨g3, h3, h⟩ := bind_ok h
  obtain ⟨g4, h4, h⟩ := bind_ok h
  obtain ⟨g5, h5, h⟩ := bind_ok h
  obtain ⟨g6, h6, h⟩ := bind_ok h
  obtain ⟨g7, h7, h⟩ := bind_ok h
  obtain ⟨g8, h8, h⟩ := bind_ok h
  obtain ⟨g9, h9, h⟩ := bind_ok h
  have e1 := (add_ok h1).1
  obtain ⟨coh, c2, e2⟩ := addCoherent_ok h2
  obtain ⟨incoh, c3, e3⟩ := addIncoherent_ok h3
  obtain ⟨pe, c4, e4⟩ := addPair_ok h4
  obtain ⟨pn, c5, e5⟩ := addPair_ok h5
  obtain ⟨rp, cp, c6, d6, e6⟩ := addPhotoelectric_ok h6
  obtain ⟨st, c7, e7⟩ := addShells_ok h7
  obtain ⟨co, c8, e8⟩ := addCompton_ok h8
  have e9 := addStopping_ok h9
  have e10 := addBrem_ok h
  obtain ⟨u1, u2⟩ := unionGrid_ok h0
  refine ⟨grid, coh, incoh, pe, pn, rp, cp, st, co, u1, u2, c2, c3, c4, c5, c6, d6, c7, c8, ?_, ?_⟩
  all_goals
    subst e1 e2 e3 e4 e5 e6 e7 e8 e9
    rw [e10]
    simp [Grp.empty, Grp.attr, Dict.set]

theorem stamped_items (f : Grp ℝ) : (stamped f).items = f.items := by
  unfold stamped
  simp only
  split <;> rfl

theorem exportHdf5_ok {f f' : Grp ℝ} {p : PData} (h : exportHdf5 f p = .ok f') :
    ∃ sym g, (p.z, sym) ∈ AceData.atomicSymbol ∧ Nonempty (Parts p g) ∧ Dict.get? f.items sym = none ∧ f' = ⟨(stamped f).attrs, f.items ++ [(sym, g.node)]⟩ := by
  unfold exportHdf5 at h
  split at h
  · cases h
  · rename_i sym hs
    split at h
    · cases h
    · obtain ⟨g, h1, h2⟩ := bind_ok h
      obtain ⟨e, hn⟩ := add_ok h2
      rw [stamped_items] at hn e
      exact ⟨sym, g, mem_of_get hs, elementGroup_ok h1, hn, e⟩

end ASAPy.Photon
