import Verif.Editor.Spec
import Verif.Util
import Verif.Tab1D.Props
import Mathlib.Tactic.Linarith

set_option linter.unusedSectionVars false

namespace ASAPy.Ace

variable {K : Type*}

/-- The part of a table that belongs to an MT. -/
inductive Comp (K : Type*) where
  | xs (o : Option (List (Temp × Tab1D K)))
  | nu (o : Option (Option (Nu K)))
  | chi (o : Option (Option (Chi K)))

def comp (t : Table K) (m : MT) : Comp K :=
  if m = 452 then .nu ((Dict.get? t.reactions 18).map (·.nu))
  else if m = 1018 then .chi ((Dict.get? t.reactions 18).map (·.chi))
  else .xs ((Dict.get? t.reactions m).map (·.xs))

theorem comp_xs {t : Table K} {m : MT} (h1 : m ≠ 452) (h2 : m ≠ 1018) :
    comp t m = .xs ((Dict.get? t.reactions m).map (·.xs)) := by simp [comp, h1, h2]
theorem comp_nu {t : Table K} : comp t 452 = .nu ((Dict.get? t.reactions 18).map (·.nu)) := by simp [comp]
theorem comp_chi {t : Table K} : comp t 1018 = .chi ((Dict.get? t.reactions 18).map (·.chi)) := by
  simp [comp]

/-- The parts of the editor that never change. -/
def SameBase (a b : Editor K) : Prop :=
  a.original = b.original ∧ a.temperature = b.temperature ∧ a.allMts = b.allMts

theorem SameBase.refl (a : Editor K) : SameBase a a := ⟨rfl, rfl, rfl⟩
theorem SameBase.trans {a b c : Editor K} (h : SameBase a b) (h' : SameBase b c) : SameBase a c :=
  ⟨h.1.trans h'.1, h.2.1.trans h'.2.1, h.2.2.trans h'.2.2⟩
theorem SameBase.symm {a b : Editor K} (h : SameBase a b) : SameBase b a :=
  ⟨h.1.symm, h.2.1.symm, h.2.2.symm⟩

section congr

variable {a b : Editor K}

theorem getNu_congr [LinearOrder K] (hb : SameBase a b) (hc : comp a.table 452 = comp b.table 452) (un : Bool) :
    getNuDistro a un = getNuDistro b un := by
  obtain ⟨h1, h2, h3⟩ := hb
  cases un with
  | true => simp [getNuDistro, h1]
  | false =>
    rw [comp_nu, comp_nu] at hc
    simp only [Comp.nu.injEq] at hc
    unfold getNuDistro Table.rx
    simp only [Bool.false_eq_true, if_false]
    cases ha : Dict.get? a.table.reactions 18 <;> cases hb' : Dict.get? b.table.reactions 18 <;>
      simp_all

theorem getChi_congr (hb : SameBase a b) (hc : comp a.table 1018 = comp b.table 1018) (un : Bool) :
    getChiDistro a un = getChiDistro b un := by
  obtain ⟨h1, h2, h3⟩ := hb
  cases un with
  | true => simp [getChiDistro, h1, h3]
  | false =>
    rw [comp_chi, comp_chi] at hc
    simp only [Comp.chi.injEq] at hc
    unfold getChiDistro Table.rx
    simp only [Bool.false_eq_true, if_false, h3]
    cases ha : Dict.get? a.table.reactions 18 <;> cases hb' : Dict.get? b.table.reactions 18 <;>
      simp_all [bind, Except.bind]

theorem getTab_congr (hb : SameBase a b) {m : MT} (h452 : m ≠ 452) (h1018 : m ≠ 1018)
    (hc : comp a.table m = comp b.table m) (un : Bool) :
    getTab a m un = getTab b m un := by
  obtain ⟨h1, h2, h3⟩ := hb
  cases un with
  | true => simp [getTab, h1, h2]
  | false =>
    rw [comp_xs h452 h1018, comp_xs h452 h1018] at hc
    simp only [Comp.xs.injEq] at hc
    unfold getTab
    simp only [Bool.false_eq_true, if_false, h2]
    cases ha : Dict.get? a.table.reactions m <;> cases hb' : Dict.get? b.table.reactions m <;>
      simp_all

theorem getEnergy_congr [LinearOrder K] (hb : SameBase a b) {m : MT} (hc : comp a.table m = comp b.table m) :
    getEnergy a m = getEnergy b m := by
  unfold getEnergy
  by_cases h1 : m = 452
  · subst h1; simp only [if_true]; rw [getNu_congr hb hc]
  · by_cases h2 : m = 1018
    · subst h2; simp only [h1, if_false, if_true]; rw [getChi_congr hb hc]
    · simp only [h1, h2, if_false]
      rw [comp_xs h1 h2, comp_xs h1 h2] at hc
      simp only [Comp.xs.injEq] at hc
      unfold Table.rx
      cases ha : Dict.get? a.table.reactions m <;> cases hb' : Dict.get? b.table.reactions m <;>
        simp_all [bind, Except.bind]

variable [Field K] [LinearOrder K] [ExpLog K]

theorem getSigma_congr (hb : SameBase a b) {m : MT} (hc : comp a.table m = comp b.table m)
    (at? : Option (List K)) (un : Bool) : getSigma a m at? un = getSigma b m at? un := by
  unfold getSigma
  by_cases h1 : m = 452
  · subst h1; simp only [if_true]; rw [getNu_congr hb hc]
  · by_cases h2 : m = 1018
    · subst h2; simp only [h1, if_false, if_true]; rw [getChi_congr hb hc]
    · simp only [h1, h2, if_false]; rw [getTab_congr hb h1 h2 hc]

theorem getSigma_unadjusted_congr (hb : SameBase a b) (m : MT)
    (at? : Option (List K)) : getSigma a m at? true = getSigma b m at? true := by
  obtain ⟨h1, h2, h3⟩ := hb
  unfold getSigma getNuDistro getChiDistro getTab
  simp [h1, h2, h3]

end congr

variable [Field K] [LinearOrder K] [ExpLog K]

/-! ### Effect of the setters on the components -/

theorem comp_modify_xs (t : Table K) (mt : MT) (f : List (Temp × Tab1D K) → List (Temp × Tab1D K))
    (h1 : mt ≠ 452) (h2 : mt ≠ 1018) (m : MT) :
    comp { t with reactions := Dict.modify t.reactions mt fun rx => { rx with xs := f rx.xs } } m =
      if m = mt then .xs ((Dict.get? t.reactions mt).map (fun r => f r.xs)) else comp t m := by
  by_cases hm : m = mt
  · subst hm
    rw [comp_xs h1 h2, if_pos rfl]
    simp only [Dict.get?_modify_same]
    cases Dict.get? t.reactions m <;> rfl
  · rw [if_neg hm]
    unfold comp
    have key : ∀ (g : Reaction K → Option (Nu K)), (∀ r x, g { r with xs := x } = g r) →
        Option.map g (Dict.get? (Dict.modify t.reactions mt fun rx => { rx with xs := f rx.xs }) 18) =
          Option.map g (Dict.get? t.reactions 18) := by
      intro g hg
      by_cases h18 : mt = 18
      · subst h18; rw [Dict.get?_modify_same]; cases Dict.get? t.reactions 18 <;> simp [hg]
      · rw [Dict.get?_modify_ne _ _ (Ne.symm h18)]
    have key' : ∀ (g : Reaction K → Option (Chi K)), (∀ r x, g { r with xs := x } = g r) →
        Option.map g (Dict.get? (Dict.modify t.reactions mt fun rx => { rx with xs := f rx.xs }) 18) =
          Option.map g (Dict.get? t.reactions 18) := by
      intro g hg
      by_cases h18 : mt = 18
      · subst h18; rw [Dict.get?_modify_same]; cases Dict.get? t.reactions 18 <;> simp [hg]
      · rw [Dict.get?_modify_ne _ _ (Ne.symm h18)]
    simp only
    rw [key (·.nu) (fun _ _ => rfl), key' (·.chi) (fun _ _ => rfl), Dict.get?_modify_ne _ _ hm]

theorem comp_modify_nu (t : Table K) (f : Option (Nu K) → Option (Nu K)) (m : MT) :
    comp { t with reactions := Dict.modify t.reactions 18 fun rx => { rx with nu := f rx.nu } } m =
      if m = 452 then .nu ((Dict.get? t.reactions 18).map (fun r => f r.nu)) else comp t m := by
  by_cases hm : m = 452
  · subst hm
    rw [comp_nu, if_pos rfl, Dict.get?_modify_same]
    cases Dict.get? t.reactions 18 <;> rfl
  · rw [if_neg hm]
    unfold comp
    rw [if_neg hm, if_neg hm, Dict.get?_modify_same]
    by_cases h18 : m = 18
    · subst h18; rw [Dict.get?_modify_same]; cases Dict.get? t.reactions 18 <;> simp
    · rw [Dict.get?_modify_ne _ _ h18]; cases Dict.get? t.reactions 18 <;> simp

theorem comp_modify_chi (t : Table K) (f : Option (Chi K) → Option (Chi K)) (m : MT) :
    comp { t with reactions := Dict.modify t.reactions 18 fun rx => { rx with chi := f rx.chi } } m =
      if m = 1018 then .chi ((Dict.get? t.reactions 18).map (fun r => f r.chi)) else comp t m := by
  by_cases hm : m = 1018
  · subst hm
    rw [comp_chi, if_pos rfl, Dict.get?_modify_same]
    cases Dict.get? t.reactions 18 <;> rfl
  · rw [if_neg hm]
    unfold comp
    rw [if_neg hm, if_neg hm, Dict.get?_modify_same]
    by_cases h18 : m = 18
    · subst h18; rw [Dict.get?_modify_same]; cases Dict.get? t.reactions 18 <;> simp
    · rw [Dict.get?_modify_ne _ _ h18]; cases Dict.get? t.reactions 18 <;> simp

theorem keys_modifyRx (ed : Editor K) (mt : MT) (f : Reaction K → Reaction K) :
    Dict.keys (ed.modifyRx mt f).table.reactions = Dict.keys ed.table.reactions :=
  Dict.keys_modify _ _ _

theorem setChi_frame (ed : Editor K) (l : List (List K)) :
    SameBase ed (setChiDistro ed l).1 ∧
    Dict.keys (setChiDistro ed l).1.table.reactions = Dict.keys ed.table.reactions ∧
    (∀ m, m ≠ 1018 → comp (setChiDistro ed l).1.table m = comp ed.table m) ∧
    (setChiDistro ed l).1.adjusted = ed.adjusted := by
  have same : SameBase ed ed ∧ Dict.keys ed.table.reactions = Dict.keys ed.table.reactions ∧
      (∀ m, m ≠ 1018 → comp ed.table m = comp ed.table m) ∧ ed.adjusted = ed.adjusted :=
    ⟨SameBase.refl _, rfl, fun _ _ => rfl, rfl⟩
  unfold setChiDistro
  cases hchi : getChiDistro ed false with
  | error e => exact same
  | ok chi =>
    simp only
    by_cases hc : chi.energyOut.length ≠ l.length
    · rw [if_pos hc]; exact same
    · rw [if_neg hc]
      cases he : chi.energyOut with
      | nil => exact same
      | cons d ds =>
        cases l with
        | nil => exact same
        | cons p ps =>
          simp only
          by_cases hx : d.x.length ≠ p.length
          · rw [if_pos hx]; exact same
          · rw [if_neg hx]
            refine ⟨⟨rfl, rfl, rfl⟩, Dict.keys_modify _ _ _, ?_, rfl⟩
            intro m hm
            have := comp_modify_chi ed.table (fun _ => some { chi with
                energyOut := (setDists (d :: ds) (p :: ps)).1 }) m
            rw [if_neg hm] at this
            exact this

/-- What `set_sigma` does, whatever its outcome: only the component of `mt` changes; `mt` is recorded exactly when it
succeeds. -/
theorem setSigma_frame (ed : Editor K) (mt : MT) (v : Val K) :
    SameBase ed (setSigma ed mt v).1 ∧
    Dict.keys (setSigma ed mt v).1.table.reactions = Dict.keys ed.table.reactions ∧
    (∀ m, m ≠ mt → comp (setSigma ed mt v).1.table m = comp ed.table m) ∧
    (∀ m, m ∈ (setSigma ed mt v).1.adjusted ↔
      m ∈ ed.adjusted ∨ (m = mt ∧ (setSigma ed mt v).2 = .ok ())) := by
  have adj : ∀ (e : Editor K), e.adjusted = ed.adjusted → ∀ m, m ∈ (e.addAdjusted mt).adjusted ↔
      m ∈ ed.adjusted ∨ m = mt := by
    intro e he m
    unfold Editor.addAdjusted
    rw [he]
    by_cases h : mt ∈ ed.adjusted
    · simp only [h, if_true]
      constructor
      · exact Or.inl
      · rintro (h' | rfl)
        · exact h'
        · exact h
    · simp [h]
  have same : ∀ e : PyErr, SameBase ed ed ∧ Dict.keys ed.table.reactions = Dict.keys ed.table.reactions ∧
      (∀ m, m ≠ mt → comp ed.table m = comp ed.table m) ∧
      (∀ m, m ∈ ed.adjusted ↔ m ∈ ed.adjusted ∨ (m = mt ∧ (Except.error e : Except PyErr Unit) = .ok ())) :=
    fun e => ⟨SameBase.refl _, rfl, fun _ _ => rfl, fun m => by simp⟩
  unfold setSigma
  cases hE : getEnergy ed mt with
  | error e => exact same e
  | ok energy =>
    simp only
    by_cases hlen : v.len ≠ energy.len
    · rw [if_pos hlen]
      exact same _
    · rw [if_neg hlen]
      cases hS : getSigma ed mt none false with
      | error e => exact same e
      | ok cur =>
        simp only
        have same' : ∀ e : PyErr, SameBase ed (ed.remember mt cur) ∧
            Dict.keys (ed.remember mt cur).table.reactions = Dict.keys ed.table.reactions ∧
            (∀ m, m ≠ mt → comp (ed.remember mt cur).table m = comp ed.table m) ∧
            (∀ m, m ∈ (ed.remember mt cur).adjusted ↔
              m ∈ ed.adjusted ∨ (m = mt ∧ (Except.error e : Except PyErr Unit) = .ok ())) :=
          fun e => ⟨⟨rfl, rfl, rfl⟩, rfl, fun _ _ => rfl, fun m => by simp [Editor.remember]⟩
        by_cases h1 : mt = 452
        · simp only [h1, if_true]
          subst h1
          cases v with
          | pdfs l => exact same' _
          | arr l =>
            refine ⟨⟨rfl, rfl, rfl⟩, Dict.keys_modify _ _ _, ?_, ?_⟩
            · intro m hm
              have := comp_modify_nu ed.table
                (fun o => o.map fun nu => { nu with yield_ := { nu.yield_ with y := l } }) m
              rw [if_neg hm] at this
              exact this
            · intro m; rw [adj (setNuDistro (ed.remember 452 cur) l) rfl]; simp
        · simp only [h1, if_false]
          by_cases h2 : mt = 1018
          · simp only [h2, if_true]
            subst h2
            cases v with
            | arr l => exact same' _
            | pdfs l =>
              obtain ⟨hb, hk, hcomp, hadj⟩ := setChi_frame (ed.remember 1018 cur) l
              cases hr : setChiDistro (ed.remember 1018 cur) l with
              | mk e r =>
                rw [hr] at hb hk hcomp hadj
                cases r with
                | error er =>
                  simp only [hr]
                  refine ⟨hb, hk, hcomp, ?_⟩
                  intro m
                  simp only at hadj
                  simp [hadj, Editor.remember]
                | ok u =>
                  simp only [hr]
                  refine ⟨hb, hk, hcomp, ?_⟩
                  intro m
                  rw [adj e hadj]; simp
          · simp only [h2, if_false]
            cases v with
            | pdfs l => exact same' _
            | arr l =>
              refine ⟨⟨rfl, rfl, rfl⟩, Dict.keys_modify _ _ _, ?_, ?_⟩
              · intro m hm
                have := comp_modify_xs ed.table mt
                  (fun xs => Dict.modify xs ed.temperature fun t => { t with y := l }) h1 h2 m
                rw [if_neg hm] at this
                exact this
              · intro m; rw [adj (setXs (ed.remember mt cur) mt l) rfl]; simp

end ASAPy.Ace
