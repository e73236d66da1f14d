import Verif.DataNjoy.Props2
import Verif.FromAce.FormProps

/-!
# Temperatures of a nuclide (C211) and nuclides from NJOY (C212)
-/

set_option linter.unusedSectionVars false
set_option linter.unusedSimpArgs false

namespace ASAPy.DNjoy

/-! ## Specification -/

section
variable {K E X U R : Type}

/-- The cross section of a reaction at a temperature. -/
def xsAt (n : Nuclide K E X U R) (mt : Nat) (T : Ace.Temp) : Option X := (Dict.get? n.reactions mt).bind fun r => Dict.get? r.xs T

/-- The nuclide `n'` is `n` with the data of `data` at `T`: the temperature, the energies, the cross sections of the reactions that both have and the probability tables. All else is
as it was. -/
structure Added (T : Ace.Temp) (data n n' : Nuclide K E X U R) : Prop where
  name : n'.name = n.name
  rest : n'.rest = n.rest
  kTs : n'.kTs = n.kTs ++ data.kTs
  energyNew : Dict.get? n'.energy T = Dict.get? data.energy T
  energyOld : ∀ S, S ≠ T → Dict.get? n'.energy S = Dict.get? n.energy S
  mts : Dict.keys n'.reactions = Dict.keys n.reactions
  others : ∀ mt, (Dict.get? n'.reactions mt).map Rx.rest = (Dict.get? n.reactions mt).map Rx.rest
  xsNew : ∀ mt ∈ Dict.keys n.reactions, mt ∈ Dict.keys data.reactions → xsAt n' mt T = xsAt data mt T
  xsOther : ∀ mt, mt ∉ Dict.keys data.reactions → Dict.get? n'.reactions mt = Dict.get? n.reactions mt
  xsOld : ∀ mt S, S ≠ T → xsAt n' mt S = xsAt n mt S
  urrNew : (Dict.get? data.urr T).isSome → Dict.get? n'.urr T = Dict.get? data.urr T
  urrNone : Dict.get? data.urr T = none → n'.urr = n.urr
  urrOld : ∀ S, S ≠ T → Dict.get? n'.urr S = Dict.get? n.urr S

/-- Data at the one temperature `T`. -/
structure Single (temp : K → Ace.Temp) (T : Ace.Temp) (data : Nuclide K E X U R) : Prop where
  kT : ∃ k, data.kTs = [k] ∧ temp k = T
  energy : (Dict.get? data.energy T).isSome
  mts : (Dict.keys data.reactions).Nodup
  xs : ∀ mt ∈ Dict.keys data.reactions, (xsAt data mt T).isSome

end

section
variable {K U : Type} [Field K] [LinearOrder K] [FloorRing K] [ExpLog K]

/-- The nuclide has the data of the table, at its temperature. -/
structure Has (urrOf : AceData.Table K → Except PyErr (Option U)) (t : AceData.Table K) (n : Nuclide K (List K) (Tab1D K) U (Option (FromAce.Rx K))) : Prop where
  kT : t.temperature * 1000000 ∈ n.kTs
  energy : ∃ e, FromAce.grid ⟨0 :: t.nxs, 0 :: t.jxs, 0 :: t.xss⟩ = .ok e ∧ Dict.get? n.energy (FromAce.tempName t.temperature) = some e
  xs : ∃ rs, FromAce.reactions t = .ok rs ∧ ∀ mt r, Dict.get? rs mt = some r → mt ∈ Dict.keys n.reactions → xsAt n mt (FromAce.tempName t.temperature) = some r.xs
  urr : ∀ u, urrOf t = .ok (some u) → Dict.get? n.urr (FromAce.tempName t.temperature) = some u

/-- A table of a nuclide that can be read. -/
structure Readable (urrOf : AceData.Table K → Except PyErr (Option U)) (zaid : Int) (t : AceData.Table K) : Prop where
  name : FromAce.zaidOf t.name = .ok zaid
  awr : 0 < t.awr
  grid : ∃ e, FromAce.grid ⟨0 :: t.nxs, 0 :: t.jxs, 0 :: t.xss⟩ = .ok e
  reactions : ∃ rs, FromAce.reactions t = .ok rs ∧ 2 ∈ Dict.keys rs
  urr : ∃ u, urrOf t = .ok u

end

/-! ## Lemmas -/

section
variable {K E X U R : Type}

theorem addXs_keys (T : Ace.Temp) : ∀ (l rs : List (Nat × Rx X R)), Dict.keys (addXs T l rs).2 = Dict.keys rs
  | [], _ => rfl
  | (mt, r) :: l, rs => by
    unfold addXs
    split_ifs with h
    · cases hx : Dict.get? r.xs T with
      | none => rfl
      | some x => exact (addXs_keys T l _).trans (Dict.keys_modify ..)
    · exact addXs_keys T l rs

theorem addXs_rest (T : Ace.Temp) (mt : Nat) : ∀ (l rs : List (Nat × Rx X R)),
    (Dict.get? (addXs T l rs).2 mt).map Rx.rest = (Dict.get? rs mt).map Rx.rest
  | [], _ => rfl
  | (mt', r) :: l, rs => by
    unfold addXs
    split_ifs with h
    · cases hx : Dict.get? r.xs T with
      | none => rfl
      | some x =>
        refine (addXs_rest T mt l _).trans ?_
        by_cases e : mt = mt'
        · subst e; rw [Dict.get?_modify_same, Option.map_map]; rfl
        · rw [Dict.get?_modify_ne _ _ e]
    · exact addXs_rest T mt l rs

theorem addXs_other (T : Ace.Temp) {mt : Nat} : ∀ (l rs : List (Nat × Rx X R)), mt ∉ Dict.keys l → Dict.get? (addXs T l rs).2 mt = Dict.get? rs mt
  | [], _, _ => rfl
  | (mt', r) :: l, rs, hm => by
    simp only [Dict.keys, List.map_cons, List.mem_cons, not_or] at hm
    unfold addXs
    split_ifs with h
    · cases hx : Dict.get? r.xs T with
      | none => rfl
      | some x => exact (addXs_other T l _ hm.2).trans (Dict.get?_modify_ne _ _ hm.1)
    · exact addXs_other T l rs hm.2

theorem addXs_old (T : Ace.Temp) {S : Ace.Temp} (hS : S ≠ T) (mt : Nat) : ∀ (l rs : List (Nat × Rx X R)),
    ((Dict.get? (addXs T l rs).2 mt).bind fun r => Dict.get? r.xs S) = (Dict.get? rs mt).bind fun r => Dict.get? r.xs S
  | [], _ => rfl
  | (mt', r) :: l, rs => by
    unfold addXs
    split_ifs with h
    · cases hx : Dict.get? r.xs T with
      | none => rfl
      | some x =>
        refine (addXs_old T hS mt l _).trans ?_
        by_cases e : mt = mt'
        · subst e
          rw [Dict.get?_modify_same]
          cases Dict.get? rs mt with
          | none => rfl
          | some q => exact Dict.get?_set_ne _ _ hS
        · rw [Dict.get?_modify_ne _ _ e]
    · exact addXs_old T hS mt l rs

theorem addXs_ok (T : Ace.Temp) : ∀ (l rs : List (Nat × Rx X R)), (∀ e ∈ l, (Dict.get? e.2.xs T).isSome) → (addXs T l rs).1 = .ok ()
  | [], _, _ => rfl
  | (mt, r) :: l, rs, hl => by
    have h1 := hl _ (List.mem_cons_self ..)
    have h2 := fun rs' => addXs_ok T l rs' fun e he => hl e (List.mem_cons_of_mem _ he)
    unfold addXs
    split_ifs with h
    · cases hx : Dict.get? r.xs T with
      | none => rw [hx] at h1; cases h1
      | some x => exact h2 _
    · exact h2 _

theorem addXs_new (T : Ace.Temp) {mt : Nat} : ∀ (l rs : List (Nat × Rx X R)), (Dict.keys l).Nodup → (∀ e ∈ l, (Dict.get? e.2.xs T).isSome) → mt ∈ Dict.keys l →
    mt ∈ Dict.keys rs → ((Dict.get? (addXs T l rs).2 mt).bind fun r => Dict.get? r.xs T) = (Dict.get? l mt).bind fun r => Dict.get? r.xs T
  | [], _, _, _, hm, _ => absurd hm (by simp [Dict.keys])
  | (mt', r) :: l, rs, hn, hl, hm, hr => by
    have h1 := hl _ (List.mem_cons_self ..)
    simp only [Dict.keys, List.map_cons, List.nodup_cons] at hn
    have ih := fun rs' => addXs_new T (mt := mt) l rs' hn.2 fun e he => hl e (List.mem_cons_of_mem _ he)
    obtain ⟨x, hx⟩ := Option.isSome_iff_exists.1 h1
    simp only at hx
    by_cases e : mt' = mt
    · subst e
      have hs := Dict.get?_isSome.2 hr
      obtain ⟨q, hq⟩ := Option.isSome_iff_exists.1 hs
      unfold addXs
      rw [if_pos hs, hx]
      simp only
      rw [addXs_other T l _ hn.1, Dict.get?_modify_same, hq, Dict.get?, if_pos rfl]
      simp only [Option.map_some, Option.bind_some, hx]
      exact Dict.get?_set_same ..
    · have hm' : mt ∈ Dict.keys l := by
        simp only [Dict.keys, List.map_cons, List.mem_cons] at hm
        exact hm.resolve_left fun h => e h.symm
      unfold addXs
      rw [Dict.get?, if_neg e]
      split_ifs with h
      · rw [hx]
        exact ih _ hm' (by rwa [Dict.keys_modify])
      · exact ih _ hm' hr

/-- C211: data at a new temperature, of the same nuclide. -/
theorem addTemperature_new {temp : K → Ace.Temp} {T : Ace.Temp} {data n : Nuclide K E X U R} (hd : Single temp T data) (hT : T ∉ n.kTs.map temp) (hn : data.name = n.name) :
    (addTemperature temp data n).1 = .ok () ∧ Added T data n (addTemperature temp data n).2 := by
  obtain ⟨k, hk, rfl⟩ := hd.kT
  obtain ⟨e, he⟩ := Option.isSome_iff_exists.1 hd.energy
  have hx : ∀ q ∈ data.reactions, (Dict.get? q.2.xs (temp k)).isSome := by
    intro q hq
    have hm : q.1 ∈ Dict.keys data.reactions := List.mem_map.2 ⟨q, hq, rfl⟩
    have := hd.xs _ hm
    have hg : ∀ (l : List (Nat × Rx X R)), (Dict.keys l).Nodup → q ∈ l → Dict.get? l q.1 = some q.2 := by
      intro l
      induction l with
      | nil => intro _ h; cases h
      | cons p l ih =>
        intro hl h
        simp only [Dict.keys, List.map_cons, List.nodup_cons] at hl
        rcases List.mem_cons.1 h with rfl | h
        · simp [Dict.get?]
        · rw [Dict.get?, if_neg fun e => hl.1 (List.mem_map.2 ⟨q, h, e.symm⟩)]
          exact ih hl.2 h
    rw [xsAt, hg _ hd.mts hq] at this
    exact this
  have hok := addXs_ok (temp k) data.reactions n.reactions hx
  unfold addTemperature
  simp only [hk, List.map_cons, List.map_nil, List.head?_cons, if_neg hT, hn, ne_eq, not_true_eq_false, if_false, he, hok]
  have hcore : ∀ u' : List (Ace.Temp × U), ((Dict.get? data.urr (temp k)).isSome → Dict.get? u' (temp k) = Dict.get? data.urr (temp k)) →
      (Dict.get? data.urr (temp k) = none → u' = n.urr) → (∀ S, S ≠ temp k → Dict.get? u' S = Dict.get? n.urr S) →
      Added (temp k) data n { n with kTs := n.kTs ++ [k], energy := Dict.set n.energy (temp k) e, reactions := (addXs (temp k) data.reactions n.reactions).2, urr := u' } := by
    intro u' h1 h2 h3
    exact ⟨rfl, rfl, by rw [hk], (Dict.get?_set_same ..).trans he.symm, fun S hS => Dict.get?_set_ne _ _ hS, addXs_keys .., fun mt => addXs_rest ..,
      fun mt h1 h2 => addXs_new _ _ _ hd.mts hx h2 h1, fun mt h => addXs_other _ _ _ h, fun mt S hS => addXs_old _ hS mt _ _, h1, h2, h3⟩
  cases hu : Dict.get? data.urr (temp k) with
  | none => exact ⟨rfl, hcore n.urr (fun h => by rw [hu] at h; cases h) (fun _ => rfl) fun _ _ => rfl⟩
  | some u => exact ⟨rfl, hcore _ (fun _ => by rw [hu]; exact Dict.get?_set_same ..) (fun h => by rw [hu] at h; cases h) fun S hS => Dict.get?_set_ne _ _ hS⟩

theorem addTemperature_old {temp : K → Ace.Temp} {T : Ace.Temp} {data n : Nuclide K E X U R} (hd : Single temp T data) (hT : T ∈ n.kTs.map temp) :
    addTemperature temp data n = (.ok (), n) := by
  obtain ⟨k, hk, rfl⟩ := hd.kT
  unfold addTemperature
  simp only [hk, List.map_cons, List.map_nil, List.head?_cons, if_pos hT]

theorem addTemperature_other {temp : K → Ace.Temp} {T : Ace.Temp} {data n : Nuclide K E X U R} (hd : Single temp T data) (hT : T ∉ n.kTs.map temp) (hn : data.name ≠ n.name) :
    addTemperature temp data n = (.error .valueError, n) := by
  obtain ⟨k, hk, rfl⟩ := hd.kT
  unfold addTemperature
  simp only [hk, List.map_cons, List.map_nil, List.head?_cons, if_neg hT, ne_eq, hn, not_false_eq_true, if_true]

end

/-! ## Tables -/

theorem keys_nodup_set {α : Type} (d : List (Nat × α)) (k : Nat) (a : α) (h : (Dict.keys d).Nodup) : (Dict.keys (Dict.set d k a)).Nodup := FromAce.nodup_set d k a h

section
open FromAce
variable {K U : Type} [Field K] [LinearOrder K] [FloorRing K] [ExpLog K]

theorem readAll_nodup : ∀ (is : List Nat) (rs rs' : List (Nat × FromAce.Rx K)) (a a' : Arrays K), readAll is rs a = .ok (rs', a') → (Dict.keys rs).Nodup → (Dict.keys rs').Nodup
  | [], rs, rs', a, a', h, hn => by
    simp only [readAll, Except.ok.injEq, Prod.mk.injEq] at h
    rw [← h.1]; exact hn
  | i :: is, rs, rs', a, a', h, hn => by
    unfold readAll at h
    cases hr : reaction a i with
    | error e => rw [hr] at h; cases h
    | ok x =>
      rw [hr] at h
      refine readAll_nodup is _ rs' _ a' h ?_
      split_ifs
      · exact hn
      · exact keys_nodup_set _ _ _ hn

theorem addPhotonMts_nodup (a : Arrays K) (energy : List K) (abs : Option (FromAce.Rx K)) : ∀ (mts : List Nat) (rs rs' : List (Nat × FromAce.Rx K)),
    addPhotonMts a energy abs mts rs = .ok rs' → (Dict.keys rs).Nodup → (Dict.keys rs').Nodup
  | [], rs, rs', h, hn => by
    simp only [addPhotonMts, Except.ok.injEq] at h
    rw [← h]; exact hn
  | mt :: mts, rs, rs', h, hn => by
    unfold addPhotonMts at h
    have ih := addPhotonMts_nodup a energy abs mts
    split_ifs at h with h1 h2 h3 h4
    · exact ih _ _ h hn
    · exact ih _ _ h hn
    · exact ih _ _ h hn
    · cases h5 : redundant rs energy (componentsOf rs mt) with
      | error e => rw [h5] at h; cases h
      | ok rx =>
        rw [h5] at h
        cases h6 : photons a mt with
        | error e => simp only [h6, bind, Except.bind] at h; cases h
        | ok ph =>
          simp only [h6, bind, Except.bind] at h
          cases habs : abs with
          | none => rw [habs] at h; cases h
          | some r => rw [habs] at h ih; exact ih _ _ h (keys_nodup_set _ _ _ hn)
    · cases h5 : redundant rs energy (componentsOf rs mt) with
      | error e => rw [h5] at h; cases h
      | ok rx =>
        rw [h5] at h
        cases h6 : photons a mt with
        | error e => simp only [h6, bind, Except.bind] at h; cases h
        | ok ph =>
          simp only [h6, bind, Except.bind] at h
          exact ih _ _ h (keys_nodup_set _ _ _ hn)

theorem addSums_nodup (energy : List K) : ∀ (mts : List Nat) (rs rs' : List (Nat × FromAce.Rx K)), addSums energy mts rs = .ok rs' → (Dict.keys rs).Nodup → (Dict.keys rs').Nodup
  | [], rs, rs', h, hn => by
    simp only [addSums, Except.ok.injEq] at h
    rw [← h]; exact hn
  | mt :: mts, rs, rs', h, hn => by
    unfold addSums at h
    have ih := addSums_nodup energy mts
    split_ifs at h with h1 h2
    · exact ih _ _ h hn
    · exact ih _ _ h hn
    · cases h5 : redundant rs energy (componentsOf rs mt) with
      | error e => rw [h5] at h; cases h
      | ok rx =>
        rw [h5] at h
        exact ih _ _ h (keys_nodup_set _ _ _ hn)

theorem bind_eq_ok {α β : Type} {x : Except PyErr α} {f : α → Except PyErr β} {b : β} (h : (x >>= f) = .ok b) : ∃ a, x = .ok a ∧ f a = .ok b := by
  cases x with
  | error e => cases h
  | ok a => exact ⟨a, rfl, h⟩

theorem reactions_nodup {t : AceData.Table K} {rs : List (Nat × FromAce.Rx K)} (h : reactions t = .ok rs) : (Dict.keys rs).Nodup := by
  unfold reactions at h
  obtain ⟨energy, -, h⟩ := bind_eq_ok h
  obtain ⟨n, -, h⟩ := bind_eq_ok h
  obtain ⟨j1, -, h⟩ := bind_eq_ok h
  obtain ⟨n4, -, h⟩ := bind_eq_ok h
  obtain ⟨⟨rs1, a1⟩, h1, h⟩ := bind_eq_ok h
  obtain ⟨pm, -, h⟩ := bind_eq_ok h
  obtain ⟨rs2, h2, h⟩ := bind_eq_ok h
  refine addSums_nodup _ _ _ _ h (addPhotonMts_nodup _ _ _ _ _ _ h2 (readAll_nodup _ _ _ _ _ h1 ?_))
  split
  · exact keys_nodup_set _ _ _ (by simp [Dict.keys])
  · simp [Dict.keys]

theorem get?_map {α β : Type} (f : α → β) (mt : Nat) : ∀ l : List (Nat × α), Dict.get? (l.map fun e => (e.1, f e.2)) mt = (Dict.get? l mt).map f
  | [] => rfl
  | (k, a) :: l => by
    simp only [List.map_cons, Dict.get?]
    split_ifs
    · rfl
    · exact get?_map f mt l

variable {urrOf : AceData.Table K → Except PyErr (Option U)}

theorem tempOf_mul (x : K) [IsStrictOrderedRing K] : tempOf (x * 1000000) = tempName x := by
  unfold tempOf
  rw [mul_div_assoc, div_self (by norm_num), mul_one]

/-- What `from_ace` gives. -/
theorem fromAce_ok [IsStrictOrderedRing K] {scheme : AceData.Scheme} {t : AceData.Table K} {n : Nuclide K (List K) (Tab1D K) U (Option (FromAce.Rx K))} (h : fromAce urrOf scheme t = .ok n) :
    (∃ zaid m, zaidOf t.name = .ok zaid ∧ AceData.getMetadata zaid scheme = .ok m ∧ n.name = m.name) ∧ 0 < t.awr ∧ n.kTs = [t.temperature * 1000000] ∧
      ∃ e rs u, grid ⟨0 :: t.nxs, 0 :: t.jxs, 0 :: t.xss⟩ = .ok e ∧ reactions t = .ok rs ∧ urrOf t = .ok u ∧ n.energy = [(tempName t.temperature, e)] ∧
        n.reactions = rs.map (fun q => (q.1, ⟨[(tempName t.temperature, q.2.xs)], some q.2⟩)) ∧ n.urr = u.elim [] (fun u => [(tempName t.temperature, u)]) ∧ n.rest = none := by
  unfold fromAce at h
  obtain ⟨zaid, h1, h⟩ := bind_eq_ok h
  obtain ⟨m, h2, h⟩ := bind_eq_ok h
  split_ifs at h with h3
  obtain ⟨e, h4, h⟩ := bind_eq_ok h
  obtain ⟨rs, h5, h⟩ := bind_eq_ok h
  obtain ⟨u, h6, h⟩ := bind_eq_ok h
  cases h
  refine ⟨⟨zaid, m, h1, h2, rfl⟩, h3, rfl, e, rs, u, h4, h5, h6, ?_, ?_, ?_, rfl⟩ <;> simp only [tempOf_mul]

theorem fromAce_of [IsStrictOrderedRing K] {scheme : AceData.Scheme} {t : AceData.Table K} {zaid : Int} (hr : Readable urrOf zaid t) {m : AceData.Meta}
    (hm : AceData.getMetadata zaid scheme = .ok m) : ∃ n, fromAce urrOf scheme t = .ok n ∧ n.name = m.name := by
  obtain ⟨e, he⟩ := hr.grid
  obtain ⟨rs, hrs, -⟩ := hr.reactions
  obtain ⟨u, hu⟩ := hr.urr
  unfold fromAce
  simp only [hr.name, hm, hr.awr, not_true_eq_false, if_false, he, hrs, hu, bind, Except.bind, pure, Except.pure]
  exact ⟨_, rfl, rfl⟩

theorem fromAce_mts [IsStrictOrderedRing K] {scheme : AceData.Scheme} {t : AceData.Table K} {n : Nuclide K (List K) (Tab1D K) U (Option (FromAce.Rx K))} (h : fromAce urrOf scheme t = .ok n)
    {rs : List (Nat × FromAce.Rx K)} (hrs : reactions t = .ok rs) : Dict.keys n.reactions = Dict.keys rs ∧
      ∀ mt, xsAt n mt (tempName t.temperature) = (Dict.get? rs mt).map FromAce.Rx.xs := by
  obtain ⟨-, -, -, e, rs', u, -, h5, -, -, h8, -, -⟩ := fromAce_ok h
  cases hrs.symm.trans h5
  refine ⟨by simp [h8, Dict.keys, Function.comp_def], fun mt => ?_⟩
  rw [xsAt, h8, get?_map (fun r : FromAce.Rx K => (⟨[(tempName t.temperature, r.xs)], some r⟩ : Rx (Tab1D K) (Option (FromAce.Rx K))))]
  cases Dict.get? rs mt with
  | none => rfl
  | some r => simp [Dict.get?]

theorem fromAce_single [IsStrictOrderedRing K] {scheme : AceData.Scheme} {t : AceData.Table K} {n : Nuclide K (List K) (Tab1D K) U (Option (FromAce.Rx K))} (h : fromAce urrOf scheme t = .ok n) :
    Single tempOf (tempName t.temperature) n := by
  obtain ⟨-, -, h3, e, rs, u, -, h5, -, h7, -, -, -⟩ := fromAce_ok h
  obtain ⟨g1, g2⟩ := fromAce_mts h h5
  refine ⟨⟨_, h3, tempOf_mul _⟩, by rw [h7]; simp [Dict.get?], by rw [g1]; exact reactions_nodup h5, fun mt hm => ?_⟩
  rw [g2, Option.isSome_map]
  rw [g1] at hm
  exact Dict.get?_isSome.2 hm

theorem fromAce_urr [IsStrictOrderedRing K] {scheme : AceData.Scheme} {t : AceData.Table K} {n : Nuclide K (List K) (Tab1D K) U (Option (FromAce.Rx K))} (h : fromAce urrOf scheme t = .ok n)
    {u : Option U} (hu : urrOf t = .ok u) : Dict.get? n.urr (tempName t.temperature) = u := by
  obtain ⟨-, -, -, -, -, u', -, -, h6, -, -, h9, -⟩ := fromAce_ok h
  cases hu.symm.trans h6
  rw [h9]
  cases u <;> simp [Dict.get?]

theorem fromAce_has [IsStrictOrderedRing K] {scheme : AceData.Scheme} {t : AceData.Table K} {n : Nuclide K (List K) (Tab1D K) U (Option (FromAce.Rx K))} (h : fromAce urrOf scheme t = .ok n) :
    Has urrOf t n := by
  obtain ⟨-, -, h3, e, rs, u, h4, h5, h6, h7, -, -, -⟩ := fromAce_ok h
  refine ⟨by rw [h3]; simp, ⟨e, h4, by rw [h7]; simp [Dict.get?]⟩, ⟨rs, h5, fun mt r hr _ => ?_⟩, fun u hu => fromAce_urr h hu⟩
  rw [(fromAce_mts h h5).2, hr]; rfl

/-- The new nuclide has the data of the new table. -/
theorem Added.has [IsStrictOrderedRing K] {scheme : AceData.Scheme} {t : AceData.Table K} {data n n' : Nuclide K (List K) (Tab1D K) U (Option (FromAce.Rx K))}
    (h : fromAce urrOf scheme t = .ok data) (ha : Added (tempName t.temperature) data n n') : Has urrOf t n' := by
  obtain ⟨-, -, h3, e, rs, u, h4, h5, h6, h7, -, -, -⟩ := fromAce_ok h
  refine ⟨by rw [ha.kTs, h3]; simp, ⟨e, h4, by rw [ha.energyNew, h7]; simp [Dict.get?]⟩, ⟨rs, h5, fun mt r hr hm => ?_⟩, fun u hu => ?_⟩
  · rw [ha.mts] at hm
    rw [ha.xsNew mt hm (by rw [(fromAce_mts h h5).1, ← Dict.get?_isSome, hr]; rfl), (fromAce_mts h h5).2, hr]; rfl
  · have := fromAce_urr h hu
    rw [ha.urrNew (by rw [this]; rfl), this]

/-- It still has those of another temperature. -/
theorem Has.mono {T : Ace.Temp} {s : AceData.Table K} {data n n' : Nuclide K (List K) (Tab1D K) U (Option (FromAce.Rx K))} (ha : Added T data n n') (hs : tempName s.temperature ≠ T)
    (h : Has urrOf s n) : Has urrOf s n' := by
  obtain ⟨k, ⟨e, h1, h2⟩, ⟨rs, h3, h4⟩, h5⟩ := h
  refine ⟨by rw [ha.kTs]; exact List.mem_append_left _ k, ⟨e, h1, (ha.energyOld _ hs).trans h2⟩, ⟨rs, h3, fun mt r hr hm => ?_⟩, fun u hu => (ha.urrOld _ hs).trans (h5 u hu)⟩
  rw [ha.mts] at hm
  exact (ha.xsOld mt _ hs).trans (h4 mt r hr hm)

/-! ## C211 -/

/-- C211, a new temperature: if the table is one of the same nuclide and its temperature (in whole kelvins) is not there yet, the call returns and adds the data of the table at this
temperature, and nothing else changes. Reactions that the nuclide does not have are left out. -/
theorem C211_add_partial [IsStrictOrderedRing K] {scheme : AceData.Scheme} {t : AceData.Table K} {data n : Nuclide K (List K) (Tab1D K) U (Option (FromAce.Rx K))}
    (h : fromAce urrOf scheme t = .ok data) (hT : tempName t.temperature ∉ n.kTs.map tempOf) (hn : data.name = n.name) :
    (addTemperature tempOf data n).1 = .ok () ∧ Added (tempName t.temperature) data n (addTemperature tempOf data n).2 ∧ Has urrOf t (addTemperature tempOf data n).2 := by
  obtain ⟨h1, h2⟩ := addTemperature_new (fromAce_single h) hT hn
  exact ⟨h1, h2, h2.has h⟩

/-- C211, errors: a table of another nuclide at a new temperature is a ValueError, and the nuclide is as it was. -/
theorem C211_other [IsStrictOrderedRing K] {scheme : AceData.Scheme} {t : AceData.Table K} {data n : Nuclide K (List K) (Tab1D K) U (Option (FromAce.Rx K))}
    (h : fromAce urrOf scheme t = .ok data) (hT : tempName t.temperature ∉ n.kTs.map tempOf) (hn : data.name ≠ n.name) :
    addTemperature tempOf data n = (.error .valueError, n) := addTemperature_other (fromAce_single h) hT hn

/-- C211, an old temperature: the nuclide is as it was, whatever nuclide the table is of. -/
theorem C211_again [IsStrictOrderedRing K] {scheme : AceData.Scheme} {t : AceData.Table K} {data n : Nuclide K (List K) (Tab1D K) U (Option (FromAce.Rx K))}
    (h : fromAce urrOf scheme t = .ok data) (hT : tempName t.temperature ∈ n.kTs.map tempOf) : addTemperature tempOf data n = (.ok (), n) :=
  addTemperature_old (fromAce_single h) hT

theorem addTable_ok [IsStrictOrderedRing K] {zaid : Int} {t : AceData.Table K} (hr : Readable urrOf zaid t) {m : AceData.Meta} (hm : AceData.getMetadata zaid .nndc = .ok m)
    {n : Nuclide K (List K) (Tab1D K) U (Option (FromAce.Rx K))} (hT : tempName t.temperature ∉ n.kTs.map tempOf) (hn : n.name = m.name) :
    ∃ n' data, addTable urrOf n t = .ok n' ∧ fromAce urrOf .nndc t = .ok data ∧ Added (tempName t.temperature) data n n' := by
  obtain ⟨data, hd, hd'⟩ := fromAce_of hr hm
  obtain ⟨h1, h2, -⟩ := C211_add_partial hd hT (hd'.trans hn.symm)
  refine ⟨_, data, ?_, hd, h2⟩
  unfold addTable
  simp only [hd, h1, bind, Except.bind]
  rfl

/-- C211, several tables of a nuclide, at temperatures that are all different and not there yet: all are added, each at its temperature, and nothing else changes. -/
theorem C211_history_partial [IsStrictOrderedRing K] {zaid : Int} {m : AceData.Meta} (hm : AceData.getMetadata zaid .nndc = .ok m) :
    ∀ (ts : List (AceData.Table K)) (n : Nuclide K (List K) (Tab1D K) U (Option (FromAce.Rx K))), (∀ t ∈ ts, Readable urrOf zaid t) →
      (ts.map fun t => tempName t.temperature).Nodup → (∀ t ∈ ts, tempName t.temperature ∉ n.kTs.map tempOf) → n.name = m.name →
      ∃ n', ts.foldlM (addTable urrOf) n = .ok n' ∧ n'.name = n.name ∧ n'.rest = n.rest ∧ n'.kTs = n.kTs ++ ts.map (fun t => t.temperature * 1000000) ∧
        Dict.keys n'.reactions = Dict.keys n.reactions ∧ (∀ t ∈ ts, Has urrOf t n') ∧
        (∀ S, (∀ t ∈ ts, S ≠ tempName t.temperature) → Dict.get? n'.energy S = Dict.get? n.energy S ∧ Dict.get? n'.urr S = Dict.get? n.urr S ∧ ∀ mt, xsAt n' mt S = xsAt n mt S)
  | [], n, _, _, _, _ => ⟨n, rfl, rfl, rfl, by simp, rfl, by simp, fun _ _ => ⟨rfl, rfl, fun _ => rfl⟩⟩
  | t :: ts, n, hr, hd, hT, hn => by
    rw [List.map_cons, List.nodup_cons] at hd
    obtain ⟨n1, data, h1, h2, ha⟩ := addTable_ok (hr t (List.mem_cons_self ..)) hm (hT t (List.mem_cons_self ..)) hn
    obtain ⟨-, -, hk, -⟩ := fromAce_ok h2
    have hdiff : ∀ s ∈ ts, tempName s.temperature ≠ tempName t.temperature := fun s hs e => hd.1 (List.mem_map.2 ⟨s, hs, e⟩)
    obtain ⟨n', g1, g2, g3, g4, g5, g6, g7⟩ := C211_history_partial hm ts n1 (fun s hs => hr s (List.mem_cons_of_mem _ hs)) hd.2 (fun s hs => by
      rw [ha.kTs, hk, List.map_append, List.mem_append, not_or]
      refine ⟨hT s (List.mem_cons_of_mem _ hs), ?_⟩
      rw [List.map_cons, List.map_nil, List.mem_singleton, tempOf_mul]
      exact hdiff s hs) (ha.name.trans hn)
    refine ⟨n', ?_, g2.trans ha.name, g3.trans ha.rest, ?_, g5.trans ha.mts, ?_, ?_⟩
    · rw [List.foldlM_cons, h1]; exact g1
    · rw [g4, ha.kTs, hk, List.append_assoc]; rfl
    · intro s hs
      rcases List.mem_cons.1 hs with rfl | hs
      · obtain ⟨q1, ⟨e, q2, q3⟩, ⟨rs, q4, q5⟩, q6⟩ := ha.has h2
        obtain ⟨w1, w2, w3⟩ := g7 (tempName s.temperature) fun r hr => (hdiff r hr).symm
        refine ⟨by rw [g4]; exact List.mem_append_left _ q1, ⟨e, q2, w1.trans q3⟩, ⟨rs, q4, fun mt r hr hm => (w3 mt).trans (q5 mt r hr (by rwa [g5] at hm))⟩,
          fun u hu => w2.trans (q6 u hu)⟩
      · exact g6 s hs
    · intro S hS
      have hS' := hS t (List.mem_cons_self ..)
      obtain ⟨w1, w2, w3⟩ := g7 S fun s hs => hS s (List.mem_cons_of_mem _ hs)
      exact ⟨w1.trans (ha.energyOld S hS'), w2.trans (ha.urrOld S hS'), fun mt => (w3 mt).trans (ha.xsOld mt S hS')⟩

/-- C211 as stated is false: a table at another temperature is left out if the temperatures round to the same number of kelvins. -/
theorem C211_rounding_refuted [IsStrictOrderedRing K] {scheme : AceData.Scheme} {s t : AceData.Table K} {data n : Nuclide K (List K) (Tab1D K) U (Option (FromAce.Rx K))}
    (hn : fromAce urrOf scheme s = .ok n) (h : fromAce urrOf scheme t = .ok data) (hk : pyRound (t.temperature * 1000000 / (86173303 / 10 ^ 12)) = pyRound (s.temperature * 1000000 / (86173303 / 10 ^ 12))) :
    (addTemperature tempOf data n).2.kTs = [s.temperature * 1000000] := by
  obtain ⟨-, -, h3, -⟩ := fromAce_ok hn
  rw [C211_again h (by rw [h3, List.map_cons, List.map_nil, List.mem_singleton, tempOf_mul, tempName, tempName, hk]), h3]

/-- C211 as stated is false: a reaction of the new table that the nuclide does not have is left out. -/
theorem C211_missing_refuted [IsStrictOrderedRing K] {scheme : AceData.Scheme} {t : AceData.Table K} {data n : Nuclide K (List K) (Tab1D K) U (Option (FromAce.Rx K))}
    (h : fromAce urrOf scheme t = .ok data) (hT : tempName t.temperature ∉ n.kTs.map tempOf) (hn : data.name = n.name) {mt : Nat} (hm : mt ∉ Dict.keys n.reactions) :
    xsAt (addTemperature tempOf data n).2 mt (tempName t.temperature) = none := by
  obtain ⟨-, h2, -⟩ := C211_add_partial h hT hn
  rw [xsAt, Dict.get?_eq_none.2 (by rw [h2.mts]; exact hm)]
  rfl

/-! ## C212 -/

/-- C212, the part that holds: `from_njoy` of tables whose identifier is read as the same nuclide in both schemes gives this nuclide with the data of every table, in order, and the
elastic cross section of the PENDF file at 0 K, unless a table is at 0 K. -/
theorem C212_from_njoy_partial [IsStrictOrderedRing K] {zaid : Int} {z a m : Nat} {sym : Endf.Line} (h1 : AceData.Decodes zaid .mcnp z a m sym) (h2 : AceData.Decodes zaid .nndc z a m sym)
    {t : AceData.Table K} {ts : List (AceData.Table K)} (hr : ∀ s ∈ t :: ts, Readable urrOf zaid s) (hd : ((t :: ts).map fun s => tempName s.temperature).Nodup) (xs : Tab1D K) :
    ∃ n name, fromNjoy urrOf (.ok xs) (t :: ts) = .ok n ∧ AceData.gndName z a m = .ok name ∧ n.name = name ∧
      n.kTs = (t :: ts).map (fun s => s.temperature * 1000000) ∧ (∃ rs, reactions t = .ok rs ∧ Dict.keys n.reactions = Dict.keys rs) ∧ (∀ s ∈ t :: ts, Has urrOf s n) ∧
      ((∀ s ∈ t :: ts, tempName s.temperature ≠ c!"0K") → Dict.get? n.energy c!"0K" = some xs.x ∧ xsAt n 2 c!"0K" = some xs ∧ ∀ mt, mt ≠ 2 → xsAt n mt c!"0K" = none) := by
  obtain ⟨name, g1, g2⟩ := h1
  obtain ⟨name', g1', g3⟩ := h2
  cases g1.symm.trans g1'
  obtain ⟨n0, f1, f2⟩ := fromAce_of (hr t (List.mem_cons_self ..)) g2
  obtain ⟨-, -, f3, e, rs, u, -, f5, -, f7, f8, -, -⟩ := fromAce_ok f1
  rw [List.map_cons, List.nodup_cons] at hd
  have hdiff : ∀ s ∈ ts, tempName s.temperature ≠ tempName t.temperature := fun s hs e => hd.1 (List.mem_map.2 ⟨s, hs, e⟩)
  obtain ⟨n1, k1, k2, k3, k4, k5, k6, k7⟩ := C211_history_partial g3 ts n0 (fun s hs => hr s (List.mem_cons_of_mem _ hs)) hd.2 (fun s hs => by
    rw [f3, List.map_cons, List.map_nil, List.mem_singleton, tempOf_mul]
    exact hdiff s hs) f2
  have hall : ∀ s ∈ t :: ts, Has urrOf s n1 := by
    intro s hs
    rcases List.mem_cons.1 hs with rfl | hs
    · obtain ⟨q1, ⟨e, q2, q3⟩, ⟨rs, q4, q5⟩, q6⟩ := fromAce_has f1
      obtain ⟨w1, w2, w3⟩ := k7 (tempName s.temperature) fun r hr => (hdiff r hr).symm
      exact ⟨by rw [k4]; exact List.mem_append_left _ q1, ⟨e, q2, w1.trans q3⟩, ⟨rs, q4, fun mt r hr hm => (w3 mt).trans (q5 mt r hr (by rwa [k5] at hm))⟩,
        fun u hu => w2.trans (q6 u hu)⟩
    · exact k6 s hs
  have hkt : n1.kTs = (t :: ts).map (fun s => s.temperature * 1000000) := by rw [k4, f3]; rfl
  have hkeys : Dict.keys n1.reactions = Dict.keys rs := by rw [k5, (fromAce_mts f1 f5).1]
  have h2m : (Dict.get? n1.reactions 2).isSome := by
    obtain ⟨rs', w1, w2⟩ := (hr t (List.mem_cons_self ..)).reactions
    cases w1.symm.trans f5
    rw [Dict.get?_isSome, hkeys]; exact w2
  have hrun : fromNjoy urrOf (.ok xs) (t :: ts) = addElastic (.ok xs) n1 := by
    unfold fromNjoy
    simp only [f1, k1, bind, Except.bind]
  by_cases h0 : (Dict.get? n1.energy c!"0K").isSome
  · refine ⟨n1, name, by rw [hrun, addElastic, if_pos h0], g1, k2.trans f2, hkt, ⟨rs, f5, hkeys⟩, hall, fun hne => ?_⟩
    rw [(k7 c!"0K" fun s hs => (hne s (List.mem_cons_of_mem _ hs)).symm).1, f7, Dict.get?, if_neg (hne t (List.mem_cons_self ..))] at h0
    cases h0
  · have hne : ∀ s ∈ t :: ts, tempName s.temperature ≠ c!"0K" := by
      intro s hs e
      obtain ⟨-, ⟨e', -, q⟩, -, -⟩ := hall s hs
      rw [e] at q
      exact h0 (by rw [q]; rfl)
    have hx0 : ∀ mt, xsAt n1 mt c!"0K" = none := by
      intro mt
      rw [(k7 c!"0K" fun s hs => (hne s (List.mem_cons_of_mem _ hs)).symm).2.2 mt, xsAt, f8,
        get?_map (fun r : FromAce.Rx K => (⟨[(tempName t.temperature, r.xs)], some r⟩ : Rx (Tab1D K) (Option (FromAce.Rx K))))]
      cases Dict.get? rs mt with
      | none => rfl
      | some r => simp [Dict.get?, hne t (List.mem_cons_self ..)]
    obtain ⟨r2, hr2⟩ := Option.isSome_iff_exists.1 h2m
    refine ⟨{ n1 with energy := Dict.set n1.energy c!"0K" xs.x, reactions := Dict.modify n1.reactions 2 fun q => { q with xs := Dict.set q.xs c!"0K" xs } }, name, ?_, g1, k2.trans f2, hkt,
      ⟨rs, f5, (Dict.keys_modify ..).trans hkeys⟩, fun s hs => ?_, fun _ => ⟨Dict.get?_set_same .., ?_, fun mt hmt => ?_⟩⟩
    · rw [hrun, addElastic, if_neg h0]
      simp only [bind, Except.bind, h2m, if_true]
      rfl
    · obtain ⟨q1, ⟨e, q2, q3⟩, ⟨rs, q4, q5⟩, q6⟩ := hall s hs
      refine ⟨q1, ⟨e, q2, (Dict.get?_set_ne _ _ (hne s hs)).trans q3⟩, ⟨rs, q4, fun mt r hr hm => ?_⟩, q6⟩
      have := q5 mt r hr (by rwa [Dict.keys_modify] at hm)
      rw [← this]
      unfold xsAt
      by_cases e : mt = 2
      · subst e
        rw [Dict.get?_modify_same, hr2]
        exact Dict.get?_set_ne _ _ (hne s hs)
      · rw [Dict.get?_modify_ne _ _ e]
    · unfold xsAt
      rw [Dict.get?_modify_same, hr2]
      exact Dict.get?_set_same ..
    · have := hx0 mt
      unfold xsAt at this ⊢
      rw [Dict.get?_modify_ne _ _ hmt]
      exact this

theorem gnd_am : AceData.gndName 95 242 1 ≠ AceData.gndName 95 242 0 := by decide +kernel

theorem meta_name {zaid : Int} {z a m : Nat} {sym : Endf.Line} {scheme : AceData.Scheme} (h : AceData.Decodes zaid scheme z a m sym) :
    ∃ md, AceData.getMetadata zaid scheme = .ok md ∧ AceData.gndName z a m = .ok md.name := by
  obtain ⟨name, h1, h2⟩ := h
  exact ⟨_, h2, h1⟩

/-- C212 as stated is false for Am-242 and Am-242m: at two temperatures there is a ValueError, because the first table is read in the scheme of MCNP and the others in that of the NNDC. -/
theorem C212_am242_refuted [IsStrictOrderedRing K] {zaid : Int} {m m' : Nat} {sym : Endf.Line} (h1 : AceData.Decodes zaid .mcnp 95 242 m sym) (h2 : AceData.Decodes zaid .nndc 95 242 m' sym)
    (hm : m = 1 ∧ m' = 0 ∨ m = 0 ∧ m' = 1) {t s : AceData.Table K} {ts : List (AceData.Table K)} (ht : Readable urrOf zaid t) (hs : Readable urrOf zaid s)
    (hd : tempName s.temperature ≠ tempName t.temperature) (xs : Except PyErr (Tab1D K)) : fromNjoy urrOf xs (t :: s :: ts) = .error .valueError := by
  obtain ⟨m1, g1, g2⟩ := meta_name h1
  obtain ⟨m2, g3, g4⟩ := meta_name h2
  obtain ⟨n0, f1, f2⟩ := fromAce_of ht g1
  obtain ⟨d, f3, f4⟩ := fromAce_of hs g3
  obtain ⟨-, -, f5, -⟩ := fromAce_ok f1
  have hne : d.name ≠ n0.name := by
    rw [f2, f4]
    intro e
    rw [e, ← g2] at g4
    rcases hm with ⟨rfl, rfl⟩ | ⟨rfl, rfl⟩
    · exact gnd_am g4.symm
    · exact gnd_am g4
  have := C211_other (n := n0) f3 (by rw [f5, List.map_cons, List.map_nil, List.mem_singleton, tempOf_mul]; exact hd) hne
  unfold fromNjoy
  simp only [f1, bind, Except.bind, List.foldlM_cons]
  unfold addTable
  simp only [f3, this, bind, Except.bind]

/-- The hypotheses of `C212_am242_refuted` are those of the identifiers 95242 and 95642. -/
theorem am242_schemes {sym : Endf.Line} (h : AceData.Element 95 sym) : (AceData.Decodes 95242 .mcnp 95 242 1 sym ∧ AceData.Decodes 95242 .nndc 95 242 0 sym) ∧
    AceData.Decodes 95642 .mcnp 95 242 0 sym ∧ AceData.Decodes 95642 .nndc 95 242 1 sym := by
  refine ⟨⟨?_, ?_⟩, ?_, ?_⟩
  · have := AceData.C58_mcnp h 242 1 le_rfl (by decide) (by decide) (by decide) (by decide)
    rwa [AceData.mcnpId, if_pos ⟨rfl, rfl⟩, if_neg (by decide)] at this
  · exact AceData.C58_nndc_partial h 242 0 (by decide) (by decide) (by decide) (by decide)
  · have := AceData.C58_mcnp h 242 0 (by decide) (by decide) (by decide) (by decide) (by decide)
    rwa [AceData.mcnpId, if_pos ⟨rfl, rfl⟩, if_pos rfl] at this
  · exact AceData.C58_nndc_partial h 242 1 le_rfl (by decide) (by decide) (by decide)

end

/-! ## Examples -/

section
open FromAce.Example
local instance : ExpLog ℚ := ⟨id, id⟩

def noUrr : AceData.Table ℚ → Except PyErr (Option Unit) := fun _ => .ok none

/-- The table of FromAce/Example.lean at another temperature. -/
def hot : AceData.Table ℚ := { table with temperature := 517 / 10 ^ 10 }

theorem reactions_of (t : AceData.Table ℚ) (h : (FromAce.reactions t).toOption.any (fun rs => decide (2 ∈ Dict.keys rs)) = true) : ∃ rs, FromAce.reactions t = .ok rs ∧ 2 ∈ Dict.keys rs := by
  cases e : FromAce.reactions t with
  | error x => rw [e] at h; cases h
  | ok rs => rw [e] at h; exact ⟨rs, rfl, of_decide_eq_true h⟩

theorem cold_readable : Readable noUrr 92235 table :=
  ⟨by decide +kernel, by decide +kernel, ⟨_, rfl⟩, reactions_of _ (by decide +kernel), ⟨_, rfl⟩⟩

theorem hot_readable : Readable noUrr 92235 hot :=
  ⟨by decide +kernel, by decide +kernel, ⟨_, rfl⟩, reactions_of _ (by decide +kernel), ⟨_, rfl⟩⟩

/-- C212 (and with it C211) applies: uranium-235 at 294 K and 600 K. -/
example (xs : Tab1D ℚ) : ∃ n, fromNjoy noUrr (.ok xs) [table, hot] = .ok n ∧ n.kTs = [253 / 10000, 517 / 10000] ∧ Has noUrr table n ∧ Has noUrr hot n ∧ xsAt n 2 c!"0K" = some xs := by
  have hu : AceData.Element 92 "U".toList := by unfold AceData.Element; decide +kernel
  have d1 := AceData.C58_mcnp hu 235 0 (by decide) (by decide) (by decide) (by decide) (by decide)
  have d2 := AceData.C58_nndc_partial hu 235 0 (by decide) (by decide) (by decide) (by decide)
  obtain ⟨n, name, h1, -, -, h2, -, h3, h4⟩ := C212_from_njoy_partial (zaid := 92235) (urrOf := noUrr) d1 d2 (t := table) (ts := [hot]) (by
    intro s hs
    simp only [List.mem_cons, List.not_mem_nil, or_false] at hs
    rcases hs with rfl | rfl
    · exact cold_readable
    · exact hot_readable) (by decide +kernel) xs
  refine ⟨n, h1, by rw [h2]; show [253 / 10 ^ 10 * 1000000, 517 / 10 ^ 10 * 1000000] = _; norm_num, h3 _ (by simp), h3 _ (by simp), (h4 ?_).2.1⟩
  intro s hs
  simp only [List.mem_cons, List.not_mem_nil, or_false] at hs
  rcases hs with rfl | rfl <;> decide +kernel

/-- `C211_rounding_refuted` applies: 293.6 K and 294.4 K (0.0253 eV and 0.02537 eV). -/
def warm : AceData.Table ℚ := { table with temperature := 2537 / 10 ^ 11 }

theorem warm_readable : Readable noUrr 92235 warm :=
  ⟨by decide +kernel, by decide +kernel, ⟨_, rfl⟩, reactions_of _ (by decide +kernel), ⟨_, rfl⟩⟩

example : ∃ data n, fromAce noUrr .nndc table = .ok n ∧ fromAce noUrr .nndc warm = .ok data ∧ (addTemperature tempOf data n).2.kTs = [253 / 10 ^ 10 * 1000000] := by
  have hu : AceData.Element 92 "U".toList := by unfold AceData.Element; decide +kernel
  obtain ⟨m, hm, -⟩ := meta_name (zaid := 92235) (AceData.C58_nndc_partial hu 235 0 (by decide) (by decide) (by decide) (by decide))
  obtain ⟨n, h1, -⟩ := fromAce_of cold_readable hm
  obtain ⟨data, h2, -⟩ := fromAce_of warm_readable hm
  exact ⟨data, n, h1, h2, C211_rounding_refuted h1 h2 (by decide +kernel)⟩

/-- `C212_am242_refuted` applies: Am-242 at two temperatures. -/
def amCold : AceData.Table ℚ := { table with name := "95242.80c".toList }
def amHot : AceData.Table ℚ := { table with name := "95242.81c".toList, temperature := 517 / 10 ^ 10 }

theorem amCold_readable : Readable noUrr 95242 amCold :=
  ⟨by decide +kernel, by decide +kernel, ⟨_, rfl⟩, reactions_of _ (by decide +kernel), ⟨_, rfl⟩⟩

theorem amHot_readable : Readable noUrr 95242 amHot :=
  ⟨by decide +kernel, by decide +kernel, ⟨_, rfl⟩, reactions_of _ (by decide +kernel), ⟨_, rfl⟩⟩

example (xs : Except PyErr (Tab1D ℚ)) : fromNjoy noUrr xs [amCold, amHot] = .error .valueError :=
  have h := am242_schemes (sym := "Am".toList) (by unfold AceData.Element; decide +kernel)
  C212_am242_refuted h.1.1 h.1.2 (Or.inl ⟨rfl, rfl⟩) amCold_readable amHot_readable (by decide +kernel) xs

end

end ASAPy.DNjoy
