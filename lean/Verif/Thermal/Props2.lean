import Verif.Thermal.Props

/-!
# Thermal scattering data: several temperatures (C128)
-/

set_option linter.unusedSectionVars false

namespace ASAPy.Thermal

open ASAPy.Hdf5 (Text Dist Uni)
open ASAPy.FromAce (Arrays AtL)
open Dec

variable {K : Type} [Field K] [LinearOrder K] [FloorRing K] [IsStrictOrderedRing K]

/-- The same is stored at `T`. -/
structure Agree (T : Text) (d e : Data K) : Prop where
  elasticXs : Dict.get? d.elasticXs T = Dict.get? e.elasticXs T
  elasticMu : Dict.get? d.elasticMu T = Dict.get? e.elasticMu T
  inelasticXs : Dict.get? d.inelasticXs T = Dict.get? e.inelasticXs T
  inelasticE : Dict.get? d.inelasticE T = Dict.get? e.inelasticE T
  inelasticMu : Dict.get? d.inelasticMu T = Dict.get? e.inelasticMu T
  inelasticDist : Dict.get? d.inelasticDist T = Dict.get? e.inelasticDist T

theorem Agree.trans {T : Text} {a b c : Data K} (h : Agree T a b) (h' : Agree T b c) : Agree T a c :=
  ⟨h.1.trans h'.1, h.2.trans h'.2, h.3.trans h'.3, h.4.trans h'.4, h.5.trans h'.5, h.6.trans h'.6⟩

theorem Agree.nothing {T : Text} {a b : Data K} (h : Agree T a b) (h' : b.Nothing T) : a.Nothing T :=
  ⟨h.1.trans h'.1, h.2.trans h'.2, h.3.trans h'.3, h.4.trans h'.4, h.5.trans h'.5, h.6.trans h'.6⟩

theorem Agree.at {T : Text} {s : Sab K} {a b : Data K} (h : Agree T a b) (h' : s.At T b) : s.At T a where
  inelastic := by rw [h.inelasticXs, h'.inelastic]
  discrete := fun sk out e => by rw [h.inelasticE, h.inelasticMu, h.inelasticDist]; exact h'.discrete sk out e
  continuous := fun sk out e => by rw [h.inelasticE, h.inelasticMu, h.inelasticDist]; exact h'.continuous sk out e
  absent := fun e => by rw [h.elasticXs, h.elasticMu]; exact h'.absent e
  coherent := fun x e => by rw [h.elasticXs, h.elasticMu]; exact h'.coherent x e
  incoherent := fun x y e => by rw [h.elasticXs, h.elasticMu]; exact h'.incoherent x y e

theorem Sab.Read.at {T : Text} {s : Sab K} {d : Data K} (h : s.Read T d) : s.At T d where
  inelastic := by rw [h.inelastic]; simp [Dict.get?]
  discrete := fun sk out e => by
    obtain ⟨_, h1, h2, h3⟩ := h.discrete sk out e
    simp [h1, h2, h3, Dict.get?]
  continuous := fun sk out e => by
    obtain ⟨_, h1, h2, h3⟩ := h.continuous sk out e
    simp [h1, h2, h3, Dict.get?]
  absent := fun e => by
    obtain ⟨h1, h2⟩ := h.absent e
    simp [h1, h2, Dict.get?]
  coherent := fun x e => by
    obtain ⟨h1, h2⟩ := h.coherent x e
    simp [h1, h2, Dict.get?]
  incoherent := fun x y e => by
    obtain ⟨h1, h2⟩ := h.incoherent x y e
    simp [h1, h2, Dict.get?]

theorem Sab.Read.mode {T : Text} {s : Sab K} {d : Data K} (h : s.Read T d) : d.mode = some s.secondary.kind := by
  cases e : s.secondary with
  | discrete sk out => rw [(h.discrete sk out e).1]; rfl
  | continuous locs out => rw [(h.continuous locs out e).1]; rfl

theorem Sab.Read.nothing {T T' : Text} {s : Sab K} {d : Data K} (h : s.Read T d) (hT : T ≠ T') : d.Nothing T' := by
  have h1 : Dict.get? d.elasticXs T' = none ∧ Dict.get? d.elasticMu T' = none := by
    cases e : s.elastic with
    | absent =>
      obtain ⟨h1, h2⟩ := h.absent e
      simp [h1, h2, Dict.get?]
    | coherent x =>
      obtain ⟨h1, h2⟩ := h.coherent x e
      simp [h1, h2, Dict.get?, hT]
    | incoherent x y =>
      obtain ⟨h1, h2⟩ := h.incoherent x y e
      simp [h1, h2, Dict.get?, hT]
  have h2 : Dict.get? d.inelasticE T' = none ∧ Dict.get? d.inelasticMu T' = none ∧ Dict.get? d.inelasticDist T' = none := by
    cases e : s.secondary with
    | discrete x y =>
      obtain ⟨_, h1, h2, h3⟩ := h.discrete x y e
      simp [h1, h2, h3, Dict.get?, hT]
    | continuous x y =>
      obtain ⟨_, h1, h2, h3⟩ := h.continuous x y e
      simp [h1, h2, h3, Dict.get?, hT]
  exact ⟨h1.1, h1.2, by rw [h.inelastic]; simp [Dict.get?, hT], h2.1, h2.2.1, h2.2.2⟩

theorem copyAt_same {α : Type} {T : Text} {src dst : List (Text × α)} (h : Dict.get? dst T = none) : Dict.get? (copyAt T src dst) T = Dict.get? src T := by
  unfold copyAt
  cases hs : Dict.get? src T with
  | none => exact h
  | some v => exact Dict.get?_set_same _ _ _

theorem copyAt_other {α : Type} {T T' : Text} {src dst : List (Text × α)} (h : T' ≠ T) : Dict.get? (copyAt T src dst) T' = Dict.get? dst T' := by
  unfold copyAt
  cases hs : Dict.get? src T with
  | none => rfl
  | some v => exact Dict.get?_set_ne _ _ h

/-- The temperature of a table, as it is named in the data. -/
def Ace.temp (t : Ace K) : Text := tempName (t.temperature * 1000000)

/-- A table for the material with this stem in its name, with known elements, that says `s`. -/
structure Reads (stem : Text) (t : Ace K) (s : Sab K) : Prop where
  named : ∃ ext, t.name = stem ++ '.' :: ext ∧ '.' ∉ ext
  known : Known t.pairs
  table : s.In t.arrays

theorem addData_ok {d e : Data K} {kT : K} (hk : e.kTs = [kT]) (hn : e.name = d.name) (ht : tempName kT ∉ d.kTs.map tempName) (hd : d.Nothing (tempName kT)) :
    ∃ d', addData d e = .ok d' ∧ d'.kTs = d.kTs ++ [kT] ∧ d'.name = d.name ∧ d'.awr = d.awr ∧ d'.mode = d.mode ∧ d'.nuclides = d.nuclides ∧ Agree (tempName kT) d' e ∧ ∀ T, T ≠ tempName kT → Agree T d' d := by
  unfold addData
  rw [hk]
  simp only
  rw [if_neg ht, if_neg (by simp [hn])]
  refine ⟨_, rfl, rfl, rfl, rfl, rfl, rfl, ⟨copyAt_same hd.1, copyAt_same hd.2, copyAt_same hd.3, copyAt_same hd.4, copyAt_same hd.5, copyAt_same hd.6⟩, fun T hT => ?_⟩
  exact ⟨copyAt_other hT, copyAt_other hT, copyAt_other hT, copyAt_other hT, copyAt_other hT, copyAt_other hT⟩

theorem fold_ok (close : Text → List Text → List Text) {stem : Text} (hs : '.' ∉ stem) : ∀ (l : List (Ace K × Sab K)) (d : Data K), (∀ p ∈ l, Reads stem p.1 p.2) → d.name = thermalName close stem →
    (l.map fun p => p.1.temp).Nodup → (∀ p ∈ l, p.1.temp ∉ d.kTs.map tempName) → (∀ T, T ∉ d.kTs.map tempName → d.Nothing T) →
    ∃ d', (l.map Prod.fst).foldlM (fun d t => addTemperature close d t none) d = .ok d' ∧ d'.kTs = d.kTs ++ l.map (fun p => p.1.temperature * 1000000) ∧ d'.name = d.name ∧ d'.awr = d.awr ∧ d'.mode = d.mode ∧
      d'.nuclides = d.nuclides ∧ (∀ p ∈ l, p.2.At p.1.temp d') ∧ (∀ T ∈ d.kTs.map tempName, Agree T d' d) ∧ ∀ T, T ∉ d'.kTs.map tempName → d'.Nothing T := by
  intro l
  induction l with
  | nil => exact fun d _ _ _ _ h => ⟨d, rfl, by simp, rfl, rfl, rfl, rfl, by simp, fun _ _ => ⟨rfl, rfl, rfl, rfl, rfl, rfl⟩, h⟩
  | cons p l ih =>
    intro d hr hn hnd hnot hnothing
    obtain ⟨t, s⟩ := p
    obtain ⟨⟨ext, e1, e2⟩, hk, hin⟩ := hr (t, s) (by simp)
    obtain ⟨e, f1, f2, f3, f4, f5, f6⟩ := C125_read_partial close t stem ext s none e1 hs e2 hk hin
    have ht : t.temp ∉ d.kTs.map tempName := hnot (t, s) (by simp)
    obtain ⟨d1, g1, g2, g3, g4, g5, g6, g7, g8⟩ := addData_ok f4 (f2.trans hn.symm) ht (hnothing _ ht)
    simp only [List.map_cons, List.nodup_cons] at hnd
    have hnothing1 : ∀ T, T ∉ d1.kTs.map tempName → d1.Nothing T := by
      intro T hT
      rw [g2] at hT
      simp only [List.map_append, List.map_cons, List.map_nil, List.mem_append, List.mem_singleton, not_or] at hT
      exact (g8 T hT.2).nothing (hnothing T hT.1)
    obtain ⟨d', i1, i2, i3, i4, i5, i6, i7, i8, i9⟩ := ih d1 (fun q hq => hr q (by simp [hq])) (g3.trans hn) hnd.2 (by
      intro q hq
      rw [g2]
      simp only [List.map_append, List.map_cons, List.map_nil, List.mem_append, List.mem_singleton, not_or]
      refine ⟨hnot q (by simp [hq]), fun h => hnd.1 ?_⟩
      exact List.mem_map.2 ⟨q, hq, h⟩) hnothing1
    refine ⟨d', ?_, by rw [i2, g2]; simp, i3.trans g3, i4.trans g4, i5.trans g5, i6.trans g6, ?_, ?_, i9⟩
    · rw [List.map_cons, List.foldlM_cons, addTemperature, f1]
      simp only [bind, Except.bind]
      rw [g1]
      exact i1
    · intro q hq
      rcases List.mem_cons.1 hq with rfl | hq
      · have : Agree t.temp d' d1 := i8 _ (by rw [g2]; simp [Ace.temp])
        exact (this.trans g7).at f5.at
      · exact i7 q hq
    · intro T hT
      refine (i8 T (by rw [g2]; simp only [List.map_append, List.mem_append]; exact Or.inl hT)).trans (g8 T ?_)
      rintro rfl
      exact ht hT

/-- C128, what holds: from tables of one material at temperatures that differ when rounded to kelvin, the data have every table at its temperature, in the order of the tables, and nothing at any other;
name, weight, kind of the secondary neutrons and nuclides are those of the first table. -/
theorem C128_temperatures_partial (close : Text → List Text → List Text) {stem : Text} (hs : '.' ∉ stem) (t : Ace K) (s : Sab K) (l : List (Ace K × Sab K)) (hr : ∀ p ∈ (t, s) :: l, Reads stem p.1 p.2)
    (hd : (((t, s) :: l).map fun p => p.1.temp).Nodup) :
    ∃ d, fromTables close (((t, s) :: l).map Prod.fst) = .ok d ∧ d.kTs = ((t, s) :: l).map (fun p => p.1.temperature * 1000000) ∧ (∀ p ∈ (t, s) :: l, p.2.At p.1.temp d) ∧
      (∀ T, (∀ p ∈ (t, s) :: l, p.1.temp ≠ T) → d.Nothing T) ∧ d.name = thermalName close stem ∧ d.awr = t.awr ∧ d.mode = some s.secondary.kind ∧ ∀ n, n ∈ d.nuclides ↔ Applies t.pairs n := by
  obtain ⟨⟨ext, e1, e2⟩, hk, hin⟩ := hr (t, s) (by simp)
  obtain ⟨e, f1, f2, f3, f4, f5, f6⟩ := C125_read_partial close t stem ext s none e1 hs e2 hk hin
  simp only [List.map_cons, List.nodup_cons] at hd
  obtain ⟨d', i1, i2, i3, i4, i5, i6, i7, i8, i9⟩ := fold_ok close hs l e (fun q hq => hr q (by simp [hq])) f2 hd.2 (by
    intro q hq
    rw [f4]
    simp only [List.map_cons, List.map_nil, List.mem_singleton]
    exact fun h => hd.1 (List.mem_map.2 ⟨q, hq, h⟩)) (by
    intro T hT
    rw [f4] at hT
    simp only [List.map_cons, List.map_nil, List.mem_singleton] at hT
    exact f5.nothing (Ne.symm hT))
  refine ⟨d', ?_, by rw [i2, f4]; simp, ?_, ?_, i3.trans f2, i4.trans f3, i5.trans f5.mode, by rw [i6]; exact f6⟩
  · rw [List.map_cons, fromTables, f1]
    exact i1
  · intro q hq
    rcases List.mem_cons.1 hq with rfl | hq
    · exact (i8 _ (by rw [f4]; simp [Ace.temp])).at f5.at
    · exact i7 q hq
  · intro T hT
    apply i9
    rw [i2, f4]
    intro hm
    simp only [List.map_append, List.map_cons, List.map_nil, List.mem_append, List.mem_singleton, List.map_map, List.mem_map] at hm
    rcases hm with hm | ⟨q, hq, hm⟩
    · exact hT (t, s) (by simp) hm.symm
    · exact hT q (by simp [hq]) hm

/-- A table that cannot be read adds nothing and the data are not changed: the error comes out. -/
theorem C128_unreadable (close : Text → List Text → List Text) (d : Data K) (t : Ace K) (name : Option Text) (e : PyErr) (h : fromAce close t name = .error e) : addTemperature close d t name = .error e := by
  unfold addTemperature
  rw [h]
  rfl

/-- A table of another material, at a new temperature, is refused. -/
theorem C128_other_material (close : Text → List Text → List Text) (d : Data K) (t : Ace K) (stem ext : Text) (s : Sab K) (hname : t.name = stem ++ '.' :: ext) (hs : '.' ∉ stem) (he : '.' ∉ ext)
    (hk : Known t.pairs) (h : s.In t.arrays) (hT : t.temp ∉ d.kTs.map tempName) (hne : thermalName close stem ≠ d.name) (name : Option Text) : addTemperature close d t name = .error .valueError := by
  obtain ⟨e, f1, f2, f3, f4, f5, f6⟩ := C125_read_partial close t stem ext s name hname hs he hk h
  unfold addTemperature
  rw [f1]
  simp only [bind, Except.bind]
  unfold addData
  rw [f4]
  simp only
  rw [← Ace.temp, if_neg hT, if_pos (by rw [f2]; exact hne)]

/-- C128 is false when the temperatures are the same in whole kelvin: the table is left out, without an error; even if it is for another material. -/
theorem C128_same_kelvin_refuted (close : Text → List Text → List Text) (d : Data K) (t : Ace K) (stem ext : Text) (s : Sab K) (hname : t.name = stem ++ '.' :: ext) (hs : '.' ∉ stem) (he : '.' ∉ ext)
    (hk : Known t.pairs) (h : s.In t.arrays) (hT : t.temp ∈ d.kTs.map tempName) (name : Option Text) : addTemperature close d t name = .ok d := by
  obtain ⟨e, f1, f2, f3, f4, f5, f6⟩ := C125_read_partial close t stem ext s name hname hs he hk h
  unfold addTemperature
  rw [f1]
  simp only [bind, Except.bind]
  unfold addData
  rw [f4]
  simp only
  rw [← Ace.temp, if_pos hT]

/-! ### An example: light water at two temperatures, then beryllium metal -/

/-- Two incident energies, one outgoing energy each with two cosines; incoherent elastic scattering with one cosine. -/
def exArrays : Arrays ℚ where
  nxs := [0, 0, 0, 1, 1, 3, 0, 1]
  jxs := [0, 1, 0, 6, 12, 0, 17]
  xss := [0, 2, 1 / 100, 2 / 100, 20, 10, 1 / 200, -1, 1, 1 / 300, -1 / 2, 1 / 2, 2, 1 / 100, 2 / 100, 5, 4, 1 / 10, 2 / 10]

/-- What these arrays say. -/
def exSab : Sab ℚ := ⟨[(1 / 100, 20), (2 / 100, 10)], .discrete true [[(1 / 200, [-1, 1])], [(1 / 300, [-1 / 2, 1 / 2])]], .incoherent [(1 / 100, 5), (2 / 100, 4)] [[1 / 10], [2 / 10]]⟩

theorem at_of_take {α : Type} {l vs : List α} {p : Nat} (h : (l.drop p).take vs.length = vs) : AtL l p vs := by
  intro k v hk
  have hlt : k < vs.length := by
    rcases List.getElem?_eq_some_iff.1 hk with ⟨h, _⟩
    exact h
  rw [← h, List.getElem?_take_of_lt hlt, List.getElem?_drop] at hk
  exact hk

theorem exSab_in : exSab.In exArrays where
  inelastic := ⟨1, rfl, at_of_take (by decide +kernel)⟩
  secondary := ⟨6, 1, 1, rfl, rfl, rfl, rfl, rfl, by decide +kernel, at_of_take (by decide +kernel)⟩
  elastic := ⟨12, 17, 0, 3, by norm_num, rfl, rfl, rfl, by norm_num, rfl, at_of_take (by decide +kernel), rfl, by decide +kernel, at_of_take (by decide +kernel)⟩

/-- Light water at the temperature `kT` in MeV. -/
def exWater (kT : ℚ) : Ace ℚ := ⟨c!"lwtr.10t", kT, 1, [(1001, 1), (0, 0)], exArrays⟩

theorem exWater_reads (kT : ℚ) : Reads c!"lwtr" (exWater kT) exSab where
  named := ⟨c!"10t", rfl, by decide⟩
  known := by
    intro p hp h
    simp only [exWater, List.mem_cons, List.not_mem_nil, or_false] at hp
    rcases hp with rfl | rfl
    · exact ⟨1, 1, c!"H", rfl, by norm_num, by unfold AceData.Element; decide +kernel⟩
    · simp at h
  table := exSab_in

/-- 294 K and 600 K. -/
example (close : Text → List Text → List Text) : ∃ d, fromTables close [exWater (253 / 10 ^ 10), exWater (517 / 10 ^ 10)] = .ok d ∧ d.kTs = [253 / 10000, 517 / 10000] ∧ exSab.At c!"294K" d ∧ exSab.At c!"600K" d := by
  obtain ⟨d, h1, h2, h3, _⟩ := C128_temperatures_partial close (stem := c!"lwtr") (by decide) (exWater (253 / 10 ^ 10)) exSab [(exWater (517 / 10 ^ 10), exSab)]
    (by
      intro p hp
      simp only [List.mem_cons, List.not_mem_nil, or_false] at hp
      rcases hp with rfl | rfl <;> exact exWater_reads _)
    (by decide +kernel)
  refine ⟨d, h1, by rw [h2]; simp [exWater]; norm_num, ?_, ?_⟩
  · have := h3 (exWater (253 / 10 ^ 10), exSab) (by simp)
    have e : (exWater (253 / 10 ^ 10)).temp = c!"294K" := by decide +kernel
    rwa [e] at this
  · have := h3 (exWater (517 / 10 ^ 10), exSab) (by simp)
    have e : (exWater (517 / 10 ^ 10)).temp = c!"600K" := by decide +kernel
    rwa [e] at this

/-- 293.6 K and 294 K: only the first is kept. -/
example (close : Text → List Text → List Text) : (exWater (253 / 10 ^ 10)).temp = (exWater (25335 / 10 ^ 12)).temp ∧ ∀ d, fromAce close (exWater (253 / 10 ^ 10)) none = .ok d →
    addTemperature close d (exWater (25335 / 10 ^ 12)) none = .ok d := by
  refine ⟨by decide +kernel, fun d h => ?_⟩
  have hr := exWater_reads (25335 / 10 ^ 12)
  obtain ⟨e, f1, _, _, f4, _⟩ := C125_read_partial close (exWater (253 / 10 ^ 10)) c!"lwtr" c!"10t" exSab none rfl (by decide) (by decide) (exWater_reads _).known exSab_in
  obtain rfl : e = d := by
    rw [f1] at h
    injection h
  apply C128_same_kelvin_refuted close e _ c!"lwtr" c!"10t" exSab rfl (by decide) (by decide) hr.known exSab_in
  rw [f4]
  decide +kernel

end ASAPy.Thermal
