import Verif.Heap.Lemmas

/-! # The model with references refines the model without -/

set_option linter.unusedSimpArgs false
set_option linter.unusedSectionVars false

namespace ASAPy.Heap
open ASAPy.Ace

variable {K : Type*} [Field K] [LinearOrder K] [ExpLog K]

theorem nuRef_view (t : HTable) (h : Addr → List K) :
    ((t.view h).rx 18).toOption.bind (fun r => r.nu.map (·.yield_)) = t.nuRef.map (HTab.view h) := by
  unfold Table.rx HTable.nuRef HTable.view
  simp only
  rw [get?_mapv]
  cases Dict.get? t.reactions 18 with
  | none => rfl
  | some r => cases hn : r.nu <;> simp [Except.toOption, HRx.view, HNu.view, hn]

theorem getNuDistro_ref {s : St K} {u : Bool} {t : Tab1D K} (hn : getNuDistro s.view u = .ok t) :
    (if u then s.ed.original else s.ed.table).nuRef.map (HTab.view s.heap) = some t := by
  have hv : (if u then s.view.original else s.view.table) = (if u then s.ed.original else s.ed.table).view s.heap := by cases u <;> rfl
  unfold getNuDistro at hn
  rw [hv] at hn
  rw [← nuRef_view]
  cases hr : ((if u then s.ed.original else s.ed.table).view s.heap).rx 18 with
  | error e => rw [hr] at hn; cases hn
  | ok r =>
    rw [hr] at hn
    simp only at hn
    cases hnu : r.nu with
    | none => rw [hnu] at hn; cases hn
    | some nu =>
      rw [hnu] at hn
      simp only at hn
      split_ifs at hn
      cases hst : saysTabulated nu.yield_.y with
      | error e => rw [hst] at hn; cases hn
      | ok b =>
        rw [hst] at hn
        simp only at hn
        split_ifs at hn
        cases hn
        simp [Except.toOption, hnu]

theorem getChiDistro_ref {s : St K} {u : Bool} {c : Chi K} (hn : getChiDistro s.view u = .ok c) :
    (if u then s.ed.original else s.ed.table).chiRef.map (HChi.view s.heap) = some c := by
  have hv : (if u then s.view.original else s.view.table) = (if u then s.ed.original else s.ed.table).view s.heap := by cases u <;> rfl
  unfold getChiDistro at hn
  rw [hv] at hn
  clear hv
  generalize (if u then s.ed.original else s.ed.table) = t at hn ⊢
  by_cases hp : checkIfMtsPresent [18] s.view.allMts ≠ []
  swap
  · rw [if_neg hp] at hn; cases hn
  rw [if_pos hp] at hn
  unfold HTable.chiRef
  unfold Table.rx HTable.view at hn
  simp only at hn
  rw [get?_mapv] at hn
  cases hr : Dict.get? t.reactions 18 with
  | none => rw [hr] at hn; cases hn
  | some r =>
    rw [hr] at hn
    simp only [Option.map_some, bind, Except.bind] at hn
    cases hc : r.chi with
    | none => simp [HRx.view, hc] at hn
    | some chi =>
      simp only [HRx.view, hc, Option.map_some] at hn
      by_cases hp : (HChi.view s.heap chi).prompt = false
      · rw [if_pos hp] at hn; cases hn
      rw [if_neg hp] at hn
      cases hn
      simp [hc]

/-- `get_energy` returns references to arrays with the values the model without references gives, or the same exception. -/
theorem getEnergy_view (s : St K) (mt : MT) : (getEnergy s mt).map (HVal.view s.heap) = Ace.getEnergy s.view mt := by
  have key : ∀ v, Ace.getEnergy s.view mt = .ok v → (s.ed.energyRef mt).map (HVal.view s.heap) = some v := by
    intro v hv
    unfold Ace.getEnergy at hv
    unfold HEd.energyRef
    by_cases h1 : mt = 452
    · rw [if_pos h1] at hv ⊢
      cases hn : getNuDistro s.view false with
      | error e => rw [hn] at hv; cases hv
      | ok t =>
        rw [hn] at hv
        cases hv
        have := getNuDistro_ref hn
        simp only [Bool.false_eq_true, if_false] at this
        obtain ⟨t', ht, rfl⟩ := Option.map_eq_some_iff.mp this
        rw [ht]
        rfl
    rw [if_neg h1] at hv ⊢
    by_cases h2 : mt = 1018
    · rw [if_pos h2] at hv ⊢
      cases hn : getChiDistro s.view false with
      | error e => rw [hn] at hv; cases hv
      | ok t =>
        rw [hn] at hv
        cases hv
        have := getChiDistro_ref hn
        simp only [Bool.false_eq_true, if_false] at this
        obtain ⟨t', ht, rfl⟩ := Option.map_eq_some_iff.mp this
        rw [ht]
        simp [HVal.view, HChi.view, HDist.view, Function.comp_def]
    rw [if_neg h2] at hv ⊢
    unfold HTable.firstRef
    unfold Table.rx at hv
    have : s.view.table.reactions = s.ed.table.reactions.map fun e => (e.1, e.2.view s.heap) := rfl
    rw [this, get?_mapv] at hv
    cases hr : Dict.get? s.ed.table.reactions mt with
    | none => rw [hr] at hv; cases hv
    | some r =>
      rw [hr] at hv
      simp only [Option.map_some, bind, Except.bind, HRx.view] at hv
      cases hx : r.xs with
      | nil => rw [hx] at hv; cases hv
      | cons e l =>
        rw [hx] at hv
        cases hv
        simp [hx, HVal.view, HTab.view]
  unfold getEnergy
  cases hv : Ace.getEnergy s.view mt with
  | error e => rfl
  | ok v =>
    have := key v hv
    obtain ⟨r, hr, hrv⟩ := Option.map_eq_some_iff.mp this
    rw [hr]
    simp [Except.map, hrv]

theorem liveRef_view {s : St K} {mt : MT} (hmt : mt = 452 ∨ mt = 1018) {at' : Option (List K)} {u : Bool} {v : Val K}
    (hv : Ace.getSigma s.view mt at' u = .ok v) : (s.ed.liveRef mt u).map (HVal.view s.heap) = some v := by
  unfold Ace.getSigma at hv
  unfold HEd.liveRef
  rcases hmt with rfl | rfl
  · rw [if_pos rfl] at hv ⊢
    cases hn : getNuDistro s.view u with
    | error e => rw [hn] at hv; cases hv
    | ok t =>
      rw [hn] at hv
      cases hv
      obtain ⟨t', ht, rfl⟩ := Option.map_eq_some_iff.mp (getNuDistro_ref hn)
      rw [ht]
      rfl
  · rw [if_neg (by decide), if_pos rfl] at hv
    rw [if_neg (by decide)]
    cases hn : getChiDistro s.view u with
    | error e => rw [hn] at hv; cases hv
    | ok t =>
      rw [hn] at hv
      cases hv
      obtain ⟨t', ht, rfl⟩ := Option.map_eq_some_iff.mp (getChiDistro_ref hn)
      rw [ht]
      simp [HVal.view, HChi.view, HDist.view, Function.comp_def]

theorem getSigma_arr {ed : Editor K} {mt : MT} (h1 : mt ≠ 1018) {at' : Option (List K)} {u : Bool} {v : Val K}
    (hv : Ace.getSigma ed mt at' u = .ok v) : ∃ l, v = .arr l := by
  unfold Ace.getSigma at hv
  by_cases h2 : mt = 452
  · rw [if_pos h2] at hv
    cases hn : getNuDistro ed u with
    | error e => rw [hn] at hv; cases hv
    | ok t => rw [hn] at hv; cases hv; exact ⟨_, rfl⟩
  rw [if_neg h2, if_neg h1] at hv
  cases hn : getTab ed mt u with
  | error e => rw [hn] at hv; cases hv
  | ok t =>
    rw [hn] at hv
    simp only [bind, Except.bind] at hv
    cases at' with
    | none => cases hv; exact ⟨_, rfl⟩
    | some es =>
      simp only at hv
      cases he : t.evals es with
      | error e => rw [he] at hv; cases hv
      | ok vs => rw [he] at hv; cases hv; exact ⟨_, rfl⟩

/-- `get_sigma` too; it may add an array, and changes nothing else. -/
theorem getSigma_view (s : St K) (mt : MT) (at' : Option Addr) (u : Bool) :
    (getSigma s mt at' u).2.map (HVal.view (getSigma s mt at' u).1.heap) = Ace.getSigma s.view mt (at'.map s.heap) u ∧
    Grows s (getSigma s mt at' u).1 ∧ (getSigma s mt at' u).1.ed = s.ed ∧
    (∀ a, (getSigma s mt at' u).2 = .ok (.arr a) → mt ≠ 452 → s.next ≤ a ∧ a < (getSigma s mt at' u).1.next) := by
  unfold getSigma
  cases hv : Ace.getSigma s.view mt (at'.map s.heap) u with
  | error e => exact ⟨rfl, Grows.refl _, rfl, by simp⟩
  | ok v =>
    simp only
    by_cases hm : mt = 452 ∨ mt = 1018
    · rw [if_pos hm]
      obtain ⟨r, hr, hrv⟩ := Option.map_eq_some_iff.mp (liveRef_view hm hv)
      rw [hr]
      refine ⟨by simp [Except.map, hrv], Grows.refl _, rfl, ?_⟩
      intro a ha hne
      have h1018 : mt = 1018 := hm.resolve_left hne
      simp only [Except.ok.injEq] at ha
      subst ha
      subst h1018
      unfold HEd.liveRef at hr
      rw [if_neg (by decide)] at hr
      obtain ⟨c, _, hc⟩ := Option.map_eq_some_iff.mp hr
      cases hc
    · rw [if_neg hm]
      obtain ⟨l, rfl⟩ := getSigma_arr (fun h => hm (Or.inr h)) hv
      refine ⟨by simp [Except.map, HVal.view, alloc_heap], alloc_grows _ _, rfl, ?_⟩
      intro a ha _
      simp only [Except.ok.injEq, HVal.arr.injEq] at ha
      rw [← ha, alloc_addr, alloc_next]
      exact ⟨le_refl _, Nat.lt_succ_self _⟩

/-! ### `set_sigma` -/

theorem addAdjusted_view (e : HEd) (mt : MT) (h : Addr → List K) : (e.addAdjusted mt).view h = (e.view h).addAdjusted mt := rfl

theorem setNu_view (e : HEd) (a : Addr) (h : Addr → List K) : (e.setNu a).view h = setNuDistro (e.view h) (h a) := by
  unfold HEd.setNu setNuDistro
  apply HEd.modifyRx_view
  intro r _
  cases hn : r.nu <;> simp [HRx.view, HNu.view, HTab.view, hn]

theorem setXs_view (e : HEd) (mt : MT) (a : Addr) (h : Addr → List K) : (e.setXs mt a).view h = Ace.setXs (e.view h) mt (h a) := by
  unfold HEd.setXs Ace.setXs
  apply HEd.modifyRx_view
  intro r _
  unfold HRx.view
  simp only
  congr 1
  exact modify_mapv (κ := Temp) (f := HTab.view h) (g := fun t => { t with y := a }) (g' := fun t => { t with y := h a }) (fun t => rfl) _ _

theorem setNu_all {P : Addr → Prop} {e : HEd} (he : e.All P) {a : Addr} (ha : P a) : (e.setNu a).All P := by
  apply HEd.modifyRx_all he
  intro r _ hr
  refine ⟨hr.1, ?_, hr.2.2⟩
  intro n hn
  obtain ⟨n', hn', rfl⟩ := Option.map_eq_some_iff.mp hn
  exact ⟨(hr.2.1 n' hn').1, ha⟩

theorem setXs_all {P : Addr → Prop} {e : HEd} (he : e.All P) {mt : MT} {a : Addr} (ha : P a) : (e.setXs mt a).All P := by
  apply HEd.modifyRx_all he
  intro r _ hr
  refine ⟨?_, hr.2⟩
  intro x hx
  rcases mem_modify (κ := Temp) hx with hx | ⟨t, h1, _, rfl⟩
  · exact hr.1 x hx
  · exact ⟨(hr.1 _ h1).1, ha⟩

theorem chiRef_all {P : Addr → Prop} {t : HTable} (ht : t.All P) {c : HChi} (hc : t.chiRef = some c) : c.All P := by
  unfold HTable.chiRef at hc
  obtain ⟨r, hr, hrc⟩ := Option.bind_eq_some_iff.mp hc
  exact (ht _ (mem_of_get?v hr)).2.2 c hrc

theorem liveRef_all {P : Addr → Prop} {e : HEd} (he : e.All P) {mt : MT} {u : Bool} {r : HVal} (hr : e.liveRef mt u = some r) : r.All P := by
  have ht : (if u then e.original else e.table).All P := by cases u; exacts [he.1, he.2.1]
  unfold HEd.liveRef at hr
  generalize (if u then e.original else e.table) = t at hr ht
  split_ifs at hr
  all_goals
    obtain ⟨c, hc, rfl⟩ := Option.map_eq_some_iff.mp hr
  · unfold HTable.nuRef at hc
    obtain ⟨n, hn, rfl⟩ := Option.map_eq_some_iff.mp hc
    obtain ⟨rx, hrx, hrn⟩ := Option.bind_eq_some_iff.mp hn
    exact ((ht _ (mem_of_get?v hrx)).2.1 n hrn).2
  · intro a ha
    obtain ⟨d, hd, rfl⟩ := List.mem_map.mp ha
    exact ((chiRef_all ht hc).2 d hd).2.1

/-- `original_sigma` gets what the model without references remembers. -/
theorem remember_spec {s : St K} (hs : Valid s) {mt : MT} {cur : Val K} (hcur : Ace.getSigma s.view mt none false = .ok cur) :
    (s.remember mt cur).view = s.view.remember mt cur ∧ Grows s (s.remember mt cur) ∧
    ∀ P : Addr → Prop, s.ed.All P → (∀ a, s.next ≤ a → a < (s.remember mt cur).next → P a) → (s.remember mt cur).ed.All P := by
  have hk : Dict.keys s.view.originalSigma = Dict.keys s.ed.originalSigma := keys_mapv _ _
  unfold St.remember Editor.remember
  rw [hk]
  by_cases h1 : mt ∈ Dict.keys s.ed.originalSigma
  · rw [if_pos h1, if_pos h1]
    exact ⟨rfl, Grows.refl _, fun P hP _ => hP⟩
  rw [if_neg h1, if_neg h1]
  by_cases h2 : mt = 1018
  · rw [if_pos h2]
    obtain ⟨r, hr, rfl⟩ := Option.map_eq_some_iff.mp (liveRef_view (Or.inr h2) hcur)
    rw [hr]
    refine ⟨?_, Grows.refl _, ?_⟩
    · unfold St.view HEd.view
      simp only
      rw [set_mapv]
    · intro P hP _
      refine ⟨hP.1, hP.2.1, ?_⟩
      intro v hv
      rcases mem_setv hv with hv | rfl
      · exact hP.2.2 v hv
      · exact liveRef_all hP hr
  · rw [if_neg h2]
    obtain ⟨l, rfl⟩ := getSigma_arr h2 hcur
    simp only
    refine ⟨?_, alloc_grows _ _, ?_⟩
    · unfold St.view HEd.view
      simp only
      rw [set_mapv]
      have := (alloc_grows s l).view_ed hs
      unfold HEd.view at this
      injection this with t1 t2 _ _ t3 _
      rw [alloc_ed, t1, t2, t3]
      simp only [HVal.view, alloc_heap]
    · intro P hP hfresh
      refine ⟨hP.1, hP.2.1, ?_⟩
      intro v hv
      rcases mem_setv hv with hv | rfl
      · exact hP.2.2 v hv
      · exact hfresh _ (le_refl _) (Nat.lt_succ_self _)

/-- One outgoing distribution. -/
theorem setDist_eq (d : Dist K) (pdf : List K) : Ace.setDist d pdf = match newDist d pdf with
    | .error e => (d, .error e)
    | .ok (c, p) => if p.any (fun v => decide (v < 0)) then ({ d with c := c }, .error .valueError) else ({ d with c := c, p := p }, .ok ()) := by
  unfold Ace.setDist newDist
  simp only [bind, Except.bind]
  cases bcast (· - ·) pdf d.p with
  | error e => rfl
  | ok dp =>
    simp only
    cases bcast (· * ·) dp (deltas d.x) with
    | error e => rfl
    | ok dc =>
      simp only
      cases d.c.getLast? with
      | none => rfl
      | some cn =>
        cases (prefixSums dc).getLast? with
        | none => rfl
        | some sn =>
          simp only
          cases bcast (· + ·) d.c (prefixSums dc) with
          | error e => rfl
          | ok c => rfl

theorem setDist_spec (s : St K) (d : HDist) (hd : d.All (· < s.next)) (pdf : List K) :
    (setDist s d pdf).2.1.view (setDist s d pdf).1.heap = (Ace.setDist (d.view s.heap) pdf).1 ∧
    (setDist s d pdf).2.2 = (Ace.setDist (d.view s.heap) pdf).2 ∧ Grows s (setDist s d pdf).1 ∧ (setDist s d pdf).1.ed = s.ed ∧
    ∀ P : Addr → Prop, d.All P → (∀ a, s.next ≤ a → a < (setDist s d pdf).1.next → P a) → (setDist s d pdf).2.1.All P := by
  rw [setDist_eq]
  unfold setDist
  cases hn : newDist (d.view s.heap) pdf with
  | error e => exact ⟨rfl, rfl, Grows.refl _, rfl, fun P hP _ => hP⟩
  | ok cp =>
    obtain ⟨c, p⟩ := cp
    simp only
    have g1 := alloc_grows s c
    have g2 := alloc_grows (s.alloc c).1 p
    split_ifs with hneg
    · refine ⟨?_, rfl, g1, rfl, ?_⟩
      · unfold HDist.view
        simp only [Dist.mk.injEq]
        exact ⟨g1.2 _ hd.1, g1.2 _ hd.2.1, alloc_heap _ _⟩
      · intro P hP hf
        exact ⟨hP.1, hP.2.1, hf _ (le_refl _) (Nat.lt_succ_self _)⟩
    · refine ⟨?_, rfl, g1.trans g2, rfl, ?_⟩
      · unfold HDist.view
        simp only [Dist.mk.injEq]
        refine ⟨(g1.trans g2).2 _ hd.1, alloc_heap _ _, ?_⟩
        rw [g2.2 (s.alloc c).2 (Nat.lt_succ_self s.next)]
        exact alloc_heap _ _
      · intro P hP hf
        exact ⟨hP.1, hf _ (Nat.le_succ s.next) (Nat.lt_succ_self (s.next + 1)), hf _ (le_refl s.next) (Nat.lt_succ_of_lt (Nat.lt_succ_self s.next))⟩

theorem setDists_spec : ∀ (ds : List HDist) (s : St K) (pdf : List (List K)), (∀ d ∈ ds, d.All (· < s.next)) →
    (setDists s ds pdf).2.1.map (HDist.view (setDists s ds pdf).1.heap) = (Ace.setDists (ds.map (HDist.view s.heap)) pdf).1 ∧
    (setDists s ds pdf).2.2 = (Ace.setDists (ds.map (HDist.view s.heap)) pdf).2 ∧ Grows s (setDists s ds pdf).1 ∧ (setDists s ds pdf).1.ed = s.ed ∧
    ∀ P : Addr → Prop, (∀ d ∈ ds, d.All P) → (∀ a, s.next ≤ a → a < (setDists s ds pdf).1.next → P a) → ∀ d ∈ (setDists s ds pdf).2.1, d.All P := by
  intro ds
  induction ds with
  | nil => intro s pdf _; exact ⟨rfl, rfl, Grows.refl _, rfl, fun P _ _ d hd => by simp [setDists] at hd⟩
  | cons d ds ih =>
    intro s pdf hds
    cases pdf with
    | nil => exact ⟨rfl, rfl, Grows.refl _, rfl, fun P hP _ => hP⟩
    | cons p ps =>
      obtain ⟨a1, a2, a3, a4, a5⟩ := setDist_spec s d (hds d (List.mem_cons_self ..)) p
      have hds' : ∀ d' ∈ ds, d'.All (· < (setDist s d p).1.next) := fun d' hd' =>
        (hds d' (List.mem_cons_of_mem _ hd')).mono fun a ha => lt_of_lt_of_le ha a3.1
      have hview : ∀ d' ∈ ds, HDist.view (setDist s d p).1.heap d' = HDist.view s.heap d' := fun d' hd' =>
        HDist.view_congr ((hds d' (List.mem_cons_of_mem _ hd')).mono fun a ha => a3.2 a ha)
      unfold setDists
      simp only [List.map_cons]
      unfold Ace.setDists
      rcases hx : setDist s d p with ⟨s1, d1, r1⟩
      rcases hy : Ace.setDist (d.view s.heap) p with ⟨e1, q1⟩
      rw [hx] at a1 a2 a3 a4 a5 hds' hview
      rw [hy] at a1 a2
      simp only at a1 a2 a3 a4 a5 hds' hview
      subst a2
      cases r1 with
      | error e =>
        refine ⟨?_, rfl, a3, a4, ?_⟩
        · simp only [List.map_cons, a1]
          rw [List.map_congr_left hview]
        · intro P hP hf d' hd'
          simp only [List.mem_cons] at hd'
          rcases hd' with rfl | hd'
          · exact a5 P (hP d (List.mem_cons_self ..)) hf
          · exact hP d' (List.mem_cons_of_mem _ hd')
      | ok _ =>
        obtain ⟨b1, b2, b3, b4, b5⟩ := ih s1 ps hds'
        rw [List.map_congr_left hview] at b1 b2
        refine ⟨?_, b2, a3.trans b3, b4.trans a4, ?_⟩
        · simp only [List.map_cons]
          rw [b1]
          have hd1 : d1.All (· < s1.next) := a5 _ ((hds d (List.mem_cons_self ..)).mono fun a ha => lt_of_lt_of_le ha a3.1) fun a _ ha => ha
          rw [HDist.view_congr (hd1.mono fun a ha => b3.2 a ha), a1]
        · intro P hP hf d' hd'
          simp only [List.mem_cons] at hd'
          rcases hd' with rfl | hd'
          · exact a5 P (hP d (List.mem_cons_self ..)) fun a h1 h2 => hf a h1 (lt_of_lt_of_le h2 b3.1)
          · exact b5 P (fun d'' hd'' => hP d'' (List.mem_cons_of_mem _ hd'')) (fun a h1 h2 => hf a (a3.1.trans h1) h2) d' hd'

/-- What `op` did: the contents are those of the model without references, old arrays are as they were, and references are old ones or new arrays or those in
`extra`. -/
structure Sim (s s' : St K) (ed' : Editor K) (extra : Addr → Prop) : Prop where
  view : s'.view = ed'
  grows : Grows s s'
  refs : ∀ P : Addr → Prop, s.ed.All P → (∀ a, extra a → P a) → (∀ a, s.next ≤ a → a < s'.next → P a) → s'.ed.All P

theorem Sim.refl (s : St K) (E : Addr → Prop) : Sim s s s.view E := ⟨rfl, Grows.refl _, fun _ h _ _ => h⟩

theorem Sim.valid {s s' : St K} {ed' : Editor K} {E : Addr → Prop} (h : Sim s s' ed' E) (hs : Valid s) (hE : ∀ a, E a → a < s.next) : Valid s' :=
  h.refs _ (hs.mono fun a ha => lt_of_lt_of_le ha h.grows.1) (fun a ha => lt_of_lt_of_le (hE a ha) h.grows.1) fun a _ ha => ha

theorem Sim.trans {s s' s'' : St K} {ed' ed'' : Editor K} {E : Addr → Prop} (h1 : Sim s s' ed' E) (h2 : Sim s' s'' ed'' E) : Sim s s'' ed'' E :=
  ⟨h2.view, h1.grows.trans h2.grows, fun P hP hE hf => h2.refs P (h1.refs P hP hE fun a x y => hf a x (lt_of_lt_of_le y h2.grows.1)) hE
    fun a x y => hf a (h1.grows.1.trans x) y⟩

theorem Sim.mono {s s' : St K} {ed' : Editor K} {E E' : Addr → Prop} (h : Sim s s' ed' E) (hE : ∀ a, E a → E' a) : Sim s s' ed' E' :=
  ⟨h.view, h.grows, fun P hP hE' hf => h.refs P hP (fun a ha => hE' a (hE a ha)) hf⟩

theorem setChi_spec {s : St K} (hs : Valid s) (pdf : List (List K)) :
    Sim s (setChiDistro s pdf).1 (Ace.setChiDistro s.view pdf).1 (fun _ => False) ∧ (setChiDistro s pdf).2 = (Ace.setChiDistro s.view pdf).2 := by
  unfold setChiDistro Ace.setChiDistro
  cases hc : getChiDistro s.view false with
  | error e => exact ⟨Sim.refl _ _, rfl⟩
  | ok chi =>
    have := getChiDistro_ref hc
    simp only [Bool.false_eq_true, if_false] at this
    obtain ⟨c, hcr, rfl⟩ := Option.map_eq_some_iff.mp this
    rw [hcr]
    simp only
    have hlen : (c.view s.heap).energyOut.length = c.energyOut.length := by simp [HChi.view]
    rw [hlen]
    by_cases h1 : c.energyOut.length ≠ pdf.length
    · rw [if_pos h1, if_pos h1]; exact ⟨Sim.refl _ _, rfl⟩
    rw [if_neg h1, if_neg h1]
    have hall : ∀ P : Addr → Prop, s.ed.All P → c.All P := fun P hP => chiRef_all hP.1 hcr
    have hout : (c.view s.heap).energyOut = c.energyOut.map (HDist.view s.heap) := rfl
    cases hco : c.energyOut with
    | nil => rw [hout, hco]; exact ⟨Sim.refl _ _, rfl⟩
    | cons d ds =>
      cases pdf with
      | nil => rw [hout, hco]; exact ⟨Sim.refl _ _, rfl⟩
      | cons p ps =>
        rw [hout, hco]
        simp only [List.map_cons]
        have hdx : (d.view s.heap).x = s.heap d.x := rfl
        rw [hdx]
        by_cases h2 : (s.heap d.x).length ≠ p.length
        · rw [if_pos h2, if_pos h2]; exact ⟨Sim.refl _ _, rfl⟩
        rw [if_neg h2, if_neg h2]
        obtain ⟨b1, b2, b3, b4, b5⟩ := setDists_spec (d :: ds) s (p :: ps) (hco ▸ (hall _ hs).2)
        rw [List.map_cons] at b1 b2
        refine ⟨⟨?_, b3, ?_⟩, b2⟩
        · show HEd.view _ _ = _
          simp only [b4]
          have hv : s.ed.view (setDists s (d :: ds) (p :: ps)).1.heap = s.view := b3.view_ed hs
          rw [← hv]
          apply HEd.modifyRx_view
          intro r _
          simp only [HRx.view, Option.map_some]
          congr 2
          unfold HChi.view
          simp only [← b1]
          congr 1
          exact (b3.2 _ (hall _ hs).1)
        · intro P hP _ hf
          show HEd.All P _
          simp only [b4]
          apply HEd.modifyRx_all hP
          intro r _ hr
          refine ⟨hr.1, hr.2.1, ?_⟩
          intro c' hc'
          cases hc'
          exact ⟨(hall P hP).1, b5 P (hco ▸ (hall P hP).2) hf⟩

theorem Sim.adjusted {s s' : St K} {ed' : Editor K} {E : Addr → Prop} (h : Sim s s' ed' E) (mt : MT) :
    Sim s { s' with ed := s'.ed.addAdjusted mt } (ed'.addAdjusted mt) E :=
  ⟨by rw [← h.view]; rfl, h.grows, fun P hP hE hf => h.refs P hP hE hf⟩

/-- The references in a value. -/
def HVal.Has (v : HVal) (a : Addr) : Prop := match v with
  | .arr b => a = b
  | .pdfs l => a ∈ l

theorem setSigma_spec {s : St K} (hs : Valid s) (mt : MT) (v : HVal) (hv : v.All (· < s.next)) :
    Sim s (setSigma s mt v).1 (Ace.setSigma s.view mt (v.view s.heap)).1 (fun a => mt ≠ 1018 ∧ v.Has a) ∧
    (setSigma s mt v).2 = (Ace.setSigma s.view mt (v.view s.heap)).2 := by
  unfold setSigma Ace.setSigma
  cases he : Ace.getEnergy s.view mt with
  | error e => exact ⟨Sim.refl _ _, rfl⟩
  | ok energy =>
    simp only
    by_cases h1 : (v.view s.heap).len ≠ energy.len
    · rw [if_pos h1, if_pos h1]; exact ⟨Sim.refl _ _, rfl⟩
    rw [if_neg h1, if_neg h1]
    cases hcur : Ace.getSigma s.view mt none false with
    | error e => exact ⟨Sim.refl _ _, rfl⟩
    | ok cur =>
      simp only
      obtain ⟨r1, r2, r3⟩ := remember_spec hs hcur
      have hsim : ∀ E, Sim s (s.remember mt cur) (s.view.remember mt cur) E := fun E => ⟨r1, r2, fun P hP _ hf => r3 P hP hf⟩
      have hval : Valid (s.remember mt cur) := (hsim fun _ => False).valid hs (by simp)
      have hheap : ∀ a, a < s.next → (s.remember mt cur).heap a = s.heap a := r2.2
      by_cases h2 : mt = 452
      · rw [if_pos h2, if_pos h2]
        cases v with
        | pdfs l => exact ⟨hsim _, rfl⟩
        | arr a =>
          refine ⟨Sim.adjusted (s' := { s.remember mt cur with ed := (s.remember mt cur).ed.setNu a }) ⟨?_, r2, ?_⟩ mt, rfl⟩
          · show HEd.view _ _ = _
            rw [setNu_view]
            show setNuDistro (s.remember mt cur).view _ = _
            rw [r1, hheap a hv]
          · intro P hP hE hf
            exact setNu_all (r3 P hP hf) (hE a ⟨by rw [h2]; decide, rfl⟩)
      rw [if_neg h2, if_neg h2]
      by_cases h3 : mt = 1018
      · rw [if_pos h3, if_pos h3]
        cases v with
        | arr a => exact ⟨hsim _, rfl⟩
        | pdfs l =>
          simp only [HVal.view]
          have hl : l.map (s.remember mt cur).heap = l.map s.heap := List.map_congr_left fun a ha => hheap a (hv a ha)
          rw [hl]
          obtain ⟨c1, c2⟩ := setChi_spec hval (l.map s.heap)
          rw [r1] at c1 c2
          rcases hx : setChiDistro (s.remember mt cur) (l.map s.heap) with ⟨s2, o2⟩
          rcases hy : Ace.setChiDistro (s.view.remember mt cur) (l.map s.heap) with ⟨e2, q2⟩
          rw [hx, hy] at c1 c2
          simp only at c1 c2
          subst c2
          have hs2 : Sim s s2 e2 (fun a => mt ≠ 1018 ∧ HVal.Has (.pdfs l) a) := ((hsim (fun _ => False)).trans c1).mono (by simp)
          cases o2 with
          | error e => exact ⟨hs2, rfl⟩
          | ok _ => exact ⟨hs2.adjusted mt, rfl⟩
      rw [if_neg h3, if_neg h3]
      cases v with
      | pdfs l => exact ⟨hsim _, rfl⟩
      | arr a =>
        refine ⟨Sim.adjusted (s' := { s.remember mt cur with ed := (s.remember mt cur).ed.setXs mt a }) ⟨?_, r2, ?_⟩ mt, rfl⟩
        · show HEd.view _ _ = _
          rw [setXs_view]
          show Ace.setXs (s.remember mt cur).view _ _ = _
          rw [r1, hheap a hv]
        · intro P hP hE hf
          exact setXs_all (r3 P hP hf) (hE a ⟨h3, rfl⟩)

theorem applyRule_spec {s : St K} (hs : Valid s) (rule : MT × List MT) :
    Sim s (applyRule s rule).1 (Ace.applyRule s.view rule).1 (fun _ => False) ∧ (applyRule s rule).2 = (Ace.applyRule s.view rule).2 := by
  unfold applyRule Ace.applyRule
  have e1 : s.view.allMts = s.ed.allMts := rfl
  have e2 : s.view.adjusted = s.ed.adjusted := rfl
  rw [e1, e2]
  by_cases h1 : rule.1 ∈ s.ed.allMts
  swap
  · rw [if_neg h1, if_neg h1]; exact ⟨Sim.refl _ _, rfl⟩
  rw [if_pos h1, if_pos h1]
  simp only
  by_cases h2 : checkIfMtsPresent rule.2 s.ed.allMts ≠ []
  swap
  · rw [if_neg h2, if_neg h2]; exact ⟨Sim.refl _ _, rfl⟩
  rw [if_pos h2, if_pos h2]
  by_cases h3 : checkIfMtsPresent s.ed.adjusted (checkIfMtsPresent rule.2 s.ed.allMts) ≠ []
  swap
  · rw [if_neg h3, if_neg h3]; exact ⟨Sim.refl _ _, rfl⟩
  rw [if_pos h3, if_pos h3]
  cases hv : sumValue s.view rule.1 (checkIfMtsPresent s.ed.adjusted (checkIfMtsPresent rule.2 s.ed.allMts)) with
  | error e => exact ⟨Sim.refl _ _, rfl⟩
  | ok v =>
    simp only
    have hsa : Valid (s.alloc v).1 := HEd.All.mono (fun a ha => Nat.lt_succ_of_lt ha) hs
    obtain ⟨b1, b2⟩ := setSigma_spec hsa rule.1 (.arr (s.alloc v).2) (Nat.lt_succ_self s.next)
    rw [alloc_view hs] at b1 b2
    simp only [HVal.view, alloc_heap] at b1 b2
    rcases hx : setSigma (s.alloc v).1 rule.1 (.arr (s.alloc v).2) with ⟨s2, o2⟩
    rcases hy : Ace.setSigma s.view rule.1 (.arr v) with ⟨e2, q2⟩
    rw [hx, hy] at b1 b2
    simp only at b1 b2
    subst b2
    have hs2 : Sim s s2 e2 (fun _ => False) := by
      refine ⟨b1.view, (alloc_grows s v).trans b1.grows, ?_⟩
      intro P hP _ hf
      refine b1.refs P hP ?_ fun a x y => hf a (le_trans (Nat.le_succ _) x) y
      rintro a ⟨_, ha⟩
      have : a = s.next := ha
      subst this
      exact hf _ (le_refl _) (lt_of_lt_of_le (Nat.lt_succ_self _) b1.grows.1)
    cases o2 with
    | error e => exact ⟨hs2, rfl⟩
    | ok _ => exact ⟨hs2.adjusted _, rfl⟩

theorem applyRules_spec : ∀ (rules : List (MT × List MT)) {s : St K}, Valid s →
    Sim s (applyRules s rules).1 (Ace.applyRules s.view rules).1 (fun _ => False) ∧ (applyRules s rules).2 = (Ace.applyRules s.view rules).2 := by
  intro rules
  induction rules with
  | nil => intro s _; exact ⟨Sim.refl _ _, rfl⟩
  | cons r rs ih =>
    intro s hs
    unfold applyRules Ace.applyRules
    obtain ⟨b1, b2⟩ := applyRule_spec hs r
    rcases hx : applyRule s r with ⟨s2, o2⟩
    rcases hy : Ace.applyRule s.view r with ⟨e2, q2⟩
    rw [hx, hy] at b1 b2
    simp only at b1 b2
    subst b2
    cases o2 with
    | error e => exact ⟨b1, rfl⟩
    | ok _ =>
      obtain ⟨c1, c2⟩ := ih (b1.valid hs (by simp))
      rw [b1.view] at c1 c2
      exact ⟨b1.trans c1, c2⟩

end ASAPy.Heap
