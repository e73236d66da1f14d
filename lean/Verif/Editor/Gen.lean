import Verif.Editor.Order
import Mathlib.Algebra.BigOperators.Group.Finset.Basic
import Mathlib.Algebra.BigOperators.Ring.Finset

/-! Helper lemmas: histories on arbitrary (also ill-formed) tables, and sums over the parts. -/

set_option linter.unusedSectionVars false
set_option linter.unusedSimpArgs false

namespace ASAPy.Ace

variable {K : Type*} [Field K] [LinearOrder K] [ExpLog K]
variable {file : Table K} {T : Temp} {ed ed' : Editor K}

theorem addAdjusted_of_mem {ed : Editor K} {m : MT} (h : m ∈ ed.adjusted) : ed.addAdjusted m = ed := by
  unfold Editor.addAdjusted
  rw [if_pos h]

/-- One rule does nothing or sets the sum. -/
theorem applyRule_cases (ed : Editor K) (r : MT × List MT) :
    (applyRule ed r).1 = ed ∨ ∃ v, (applyRule ed r).1 = (setSigma ed r.1 (.arr v)).1 := by
  unfold applyRule
  split_ifs
  · simp only
    split_ifs
    · cases sumValue ed r.1 (checkIfMtsPresent ed.adjusted (checkIfMtsPresent r.2 ed.allMts)) with
      | error e => left; rfl
      | ok v =>
        right
        refine ⟨v, ?_⟩
        have h := (setSigma_frame ed r.1 (.arr v)).2.2.2 r.1
        cases hs : setSigma ed r.1 (.arr v) with
        | mk e o =>
          rw [hs] at h
          cases o with
          | error e' => simp only [hs]
          | ok u =>
            simp only [hs]
            rw [addAdjusted_of_mem]
            exact h.mpr (Or.inr ⟨rfl, rfl⟩)
    · left; rfl
    · left; rfl
  · left; rfl

/-- What every `set_sigma` keeps, every history keeps. -/
theorem applyRules_induct {P : Editor K → Prop} {rules : List (MT × List MT)}
    (h : ∀ ed mt v, mt ∈ rules.map Prod.fst → P ed → P (setSigma ed mt (.arr v)).1) :
    ∀ ed, P ed → P (applyRules ed rules).1 := by
  induction rules with
  | nil => intro ed hp; exact hp
  | cons r rs ih =>
    intro ed hp
    have h1 : P (applyRule ed r).1 := by
      rcases applyRule_cases ed r with h' | ⟨v, h'⟩
      · rw [h']; exact hp
      · rw [h']; exact h ed r.1 v (by simp) hp
    unfold applyRules
    cases hr : applyRule ed r with
    | mk e o =>
      rw [hr] at h1
      cases o with
      | error e' => exact h1
      | ok u => exact ih (fun ed mt v hm => h ed mt v (by simp only [List.map_cons]; exact List.mem_cons_of_mem _ hm)) e h1

theorem run_induct {P : Editor K → Prop} (h : ∀ ed mt v, P ed → P (setSigma ed mt v).1) (ops : List (Op K)) :
    ∀ ed, P ed → P (run ed ops) := by
  induction ops with
  | nil => intro ed hp; exact hp
  | cons op ops ih =>
    intro ed hp
    cases op with
    | set mt v => exact ih _ (h ed mt v hp)
    | sums => exact ih _ (applyRules_induct (fun ed mt v _ => h ed mt _) ed hp)

theorem sameBase_run (ops : List (Op K)) (ed : Editor K) : SameBase ed (run ed ops) :=
  run_induct (P := fun e => SameBase ed e) (fun e mt v h => h.trans (setSigma_frame e mt v).1) ops ed
    (SameBase.refl _)

theorem setDist_x (d : Dist K) (p : List K) : (setDist d p).1.x = d.x := by
  unfold setDist
  split
  · rfl
  · split
    · rfl
    · simp only
      split
      · split
        · rfl
        · split_ifs <;> rfl
      · rfl

theorem setDists_x (ds : List (Dist K)) : ∀ ps : List (List K), (setDists ds ps).1.map (·.x) = ds.map (·.x) := by
  induction ds with
  | nil => intro ps; rfl
  | cons d ds ih =>
    intro ps
    cases ps with
    | nil => rfl
    | cons p ps =>
      have hx := setDist_x d p
      unfold setDists
      cases hd : setDist d p with
      | mk d' o =>
        rw [hd] at hx
        simp only at hx
        cases o with
        | error e => simp only [List.map_cons, hx]
        | ok u => simp only [List.map_cons, hx, ih ps]

theorem saysTabulated_iff {l : List K} : saysTabulated l = .ok true ↔ ¬ Flat (.arr l) := by
  cases l with
  | nil => simp [Flat, saysTabulated]
  | cons y0 ys =>
    simp only [saysTabulated, Except.ok.injEq, Bool.not_eq_true', List.all_eq_false, decide_eq_true_eq]
    constructor
    · rintro ⟨v, hv, hne⟩ ⟨l, c, hl, hc⟩
      cases hl
      exact hne (by rw [hc v (List.mem_cons_of_mem _ hv), hc y0 (List.mem_cons_self ..)])
    · intro h
      by_contra hc
      push Not at hc
      exact h ⟨_, y0, rfl, by simpa using hc⟩

/-- No `set_sigma` moves an energy grid (that of nu-bar cannot be read any more when all its values are the same). -/
theorem setSigma_energy (ed : Editor K) (mt : MT) (v : Val K) (m : MT) (hflat : m = 452 → mt = 452 → ¬ Flat v) :
    getEnergy (setSigma ed mt v).1 m = getEnergy ed m := by
  obtain ⟨hb, _, hc, _⟩ := setSigma_frame ed mt v
  by_cases hm : m = mt
  swap
  · exact (getEnergy_congr hb (hc m hm).symm).symm
  subst hm
  unfold setSigma
  cases hE : getEnergy ed m with
  | error e => exact hE
  | ok energy =>
    simp only
    by_cases hlen : v.len ≠ energy.len
    · rw [if_pos hlen]; exact hE
    · rw [if_neg hlen]
      cases hS : getSigma ed m none false with
      | error e => exact hE
      | ok cur =>
        simp only
        by_cases h1 : m = 452
        · subst h1
          simp only [if_true]
          cases v with
          | pdfs l => exact hE
          | arr l =>
            rw [← hE]
            unfold getEnergy getNuDistro
            simp only [if_true, Editor.addAdjusted, setNuDistro, Editor.modifyRx, Table.rx, Editor.remember,
              Bool.false_eq_true, if_false, Dict.get?_modify_same]
            cases h18 : Dict.get? ed.table.reactions 18 with
            | none => rfl
            | some r =>
              simp only [Option.map_some]
              cases hn : r.nu with
              | none => rfl
              | some nu =>
                simp only [Option.map_some]
                by_cases ht : nu.tabulated = false
                · simp [ht, bind, Except.bind]
                · unfold getEnergy getNuDistro at hE
                  simp only [if_true, Table.rx, Bool.false_eq_true, if_false, h18, hn, if_neg ht] at hE
                  cases hs : saysTabulated nu.yield_.y with
                  | error e => rw [hs] at hE; simp [bind, Except.bind] at hE
                  | ok b =>
                    cases b with
                    | false => rw [hs] at hE; simp [bind, Except.bind] at hE
                    | true => simp [ht, hs, saysTabulated_iff.mpr (hflat rfl rfl), bind, Except.bind]
        · rw [if_neg h1]
          by_cases h2 : m = 1018
          · subst h2
            simp only [if_true]
            cases v with
            | arr l => exact hE
            | pdfs l =>
              simp only
              have key : getEnergy (setChiDistro (ed.remember 1018 cur) l).1 1018 = .ok energy := by
                unfold setChiDistro
                cases hchi : getChiDistro (ed.remember 1018 cur) false with
                | error e => exact hE
                | ok chi =>
                  simp only
                  split_ifs
                  · exact hE
                  · cases he : chi.energyOut with
                    | nil => exact hE
                    | cons d ds =>
                      cases l with
                      | nil => exact hE
                      | cons p ps =>
                        simp only
                        split_ifs
                        · exact hE
                        · rw [← he]
                          have hsame : getEnergy (ed.remember 1018 cur) 1018 = .ok energy := hE
                          rw [← hsame]
                          simp only [getEnergy, show (1018:Nat) ≠ 452 by decide, if_false, if_true, hchi]
                          have hchi' : getChiDistro ((ed.remember 1018 cur).modifyRx 18 fun rx => { rx with
                              chi := some { chi with energyOut := (setDists chi.energyOut (p :: ps)).1 } }) false =
                              .ok { chi with energyOut := (setDists chi.energyOut (p :: ps)).1 } := by
                            unfold getChiDistro at hchi ⊢
                            have hall : ((ed.remember 1018 cur).modifyRx 18 fun rx => { rx with
                              chi := some { chi with energyOut := (setDists chi.energyOut (p :: ps)).1 } }).allMts =
                              (ed.remember 1018 cur).allMts := rfl
                            rw [hall]
                            by_cases hp : checkIfMtsPresent [18] (ed.remember 1018 cur).allMts ≠ []
                            · rw [if_pos hp] at hchi ⊢
                              simp only [Bool.false_eq_true, if_false, Editor.modifyRx, Table.rx,
                                Dict.get?_modify_same] at hchi ⊢
                              cases h18 : Dict.get? (ed.remember 1018 cur).table.reactions 18 with
                              | none => rw [h18] at hchi; simp [bind, Except.bind] at hchi
                              | some r =>
                                rw [h18] at hchi
                                simp only [bind, Except.bind, Option.map_some] at hchi ⊢
                                cases hc : r.chi with
                                | none => rw [hc] at hchi; simp at hchi
                                | some chi0 =>
                                  rw [hc] at hchi
                                  simp only at hchi
                                  by_cases hpr : chi0.prompt = false
                                  · rw [if_pos hpr] at hchi; cases hchi
                                  · rw [if_neg hpr] at hchi
                                    cases hchi
                                    rw [if_neg hpr]
                            · rw [if_neg hp] at hchi; cases hchi
                          rw [hchi']
                          simp only [bind, Except.bind, setDists_x]
              cases hr : setChiDistro (ed.remember 1018 cur) l with
              | mk e o =>
                rw [hr] at key
                cases o <;> exact key
          · rw [if_neg h2]
            cases v with
            | pdfs l => exact hE
            | arr l =>
              rw [← hE]
              simp only [getEnergy, h1, h2, if_false, Editor.addAdjusted, setXs, Editor.modifyRx, Table.rx,
                Editor.remember, Dict.get?_modify_same]
              cases hr : Dict.get? ed.table.reactions m with
              | none => rfl
              | some r =>
                simp only [Option.map_some, bind, Except.bind]
                cases hx : r.xs with
                | nil => rfl
                | cons a rest =>
                  obtain ⟨k, t⟩ := a
                  by_cases hk : k = ed.temperature <;> simp [Dict.modify, hk]

theorem energy_run (ops : List (Op K)) (ed : Editor K) (m : MT) (hm : m ≠ 452) : getEnergy (run ed ops) m = getEnergy ed m :=
  run_induct (P := fun e => getEnergy e m = getEnergy ed m)
    (fun e mt v h => (setSigma_energy e mt v m fun h' => absurd h' hm).trans h) ops ed rfl

theorem energy_sums (ed : Editor K) (m : MT) : getEnergy (applySumRules ed).1 m = getEnergy ed m :=
  applyRules_induct (P := fun e => getEnergy e m = getEnergy ed m) (rules := sumRules)
    (fun e mt v hm h => (setSigma_energy e mt _ m fun _ h' => absurd (h' ▸ hm) (by decide)).trans h) ed rfl

/-- What can be read of the energies of nu-bar is what could be read at first. -/
theorem nu_energy_step (ed : Editor K) (mt : MT) (v : Val K) {es : Val K} (h : getEnergy (setSigma ed mt v).1 452 = .ok es) :
    getEnergy ed 452 = .ok es := by
  by_cases hm : mt = 452
  swap
  · rw [← setSigma_energy ed mt v 452 fun _ h => absurd h hm]; exact h
  subst hm
  unfold setSigma at h
  cases hE : getEnergy ed 452 with
  | error e => rw [hE] at h; simp only at h; rw [hE] at h; cases h
  | ok energy =>
    rw [hE] at h
    simp only at h
    by_cases hlen : v.len ≠ energy.len
    · rw [if_pos hlen] at h; rw [← hE]; exact h
    · rw [if_neg hlen] at h
      cases hS : getSigma ed 452 none false with
      | error e => rw [hS] at h; rw [← hE]; exact h
      | ok cur =>
        rw [hS] at h
        simp only [if_true] at h
        cases v with
        | pdfs l => rw [← hE]; exact h
        | arr l =>
          rw [← hE]
          unfold getEnergy getNuDistro at h hE ⊢
          simp only [if_true, Editor.addAdjusted, setNuDistro, Editor.modifyRx, Table.rx, Editor.remember,
            Bool.false_eq_true, if_false, Dict.get?_modify_same] at h hE ⊢
          cases h18 : Dict.get? ed.table.reactions 18 with
          | none => rw [h18] at h; simp [bind, Except.bind] at h
          | some r =>
            rw [h18] at h hE
            simp only [Option.map_some] at h hE ⊢
            cases hn : r.nu with
            | none => rw [hn] at h; simp [bind, Except.bind] at h
            | some nu =>
              rw [hn] at h hE
              simp only [Option.map_some] at h hE ⊢
              by_cases ht : nu.tabulated = false
              · rw [if_pos ht] at h; simp [bind, Except.bind] at h
              · rw [if_neg ht] at h hE ⊢
                cases hs : saysTabulated nu.yield_.y with
                | error e => rw [hs] at hE; simp [bind, Except.bind] at hE
                | ok b =>
                  cases b with
                  | false => rw [hs] at hE; simp [bind, Except.bind] at hE
                  | true =>
                    cases hl : saysTabulated l with
                    | error e => rw [hl] at h; simp [bind, Except.bind] at h
                    | ok b' =>
                      cases b' with
                      | false => rw [hl] at h; simp [bind, Except.bind] at h
                      | true => rw [hl] at h; exact h

theorem nu_energy_run {t : Option (List Char)} {ed0 : Editor K} (_h : init file t = .ok ed0) (ops : List (Op K)) {es : Val K}
    (hes : getEnergy (run ed0 ops) 452 = .ok es) : getEnergy ed0 452 = .ok es :=
  run_induct (P := fun e => ∀ es, getEnergy e 452 = .ok es → getEnergy ed0 452 = .ok es)
    (fun e mt v hp es hes => hp es (nu_energy_step e mt v hes)) ops ed0 (fun _ h => h) es hes

/-! ### Unadjusted MTs hold the data of the file -/

/-- The history invariant behind C04, for every table. -/
def Kept (ed : Editor K) : Prop :=
  ed.allMts = allMtsOf ed.original ∧ Dict.keys ed.table.reactions = Dict.keys ed.original.reactions ∧
  (∀ m ∈ ed.adjusted, m ∈ ed.allMts) ∧
  (∀ m, m ≠ 1018 → m ∉ ed.adjusted → comp ed.table m = comp ed.original m)

theorem setSigma_ok_mem {mt : MT} {v : Val K} (h1 : ed.allMts = allMtsOf ed.original)
    (h2 : Dict.keys ed.table.reactions = Dict.keys ed.original.reactions)
    (h : (setSigma ed mt v).2 = .ok ()) : mt ∈ ed.allMts := by
  have hE : ∃ e, getEnergy ed mt = .ok e := by
    unfold setSigma at h
    cases hE : getEnergy ed mt with
    | error e => rw [hE] at h; simp at h
    | ok e => exact ⟨e, rfl⟩
  obtain ⟨e, hE⟩ := hE
  have key18 : 18 ∈ Dict.keys ed.original.reactions → 452 ∈ ed.allMts ∧ 1018 ∈ ed.allMts := by
    intro h18
    rw [h1]
    unfold allMtsOf
    simp [h18]
  unfold getEnergy at hE
  by_cases h452 : mt = 452
  · subst h452
    simp only [if_true, getNuDistro, Bool.false_eq_true, if_false, Table.rx] at hE
    cases hr : Dict.get? ed.table.reactions 18 with
    | none => rw [hr] at hE; simp [bind, Except.bind] at hE
    | some r =>
      refine (key18 ?_).1
      rw [← h2]
      exact Dict.get?_isSome.mp (by rw [hr]; rfl)
  · rw [if_neg h452] at hE
    by_cases h1018 : mt = 1018
    · subst h1018
      simp only [if_true, getChiDistro, Bool.false_eq_true, if_false] at hE
      by_cases hp : checkIfMtsPresent [18] ed.allMts ≠ []
      · simp only [Table.rx] at hE
        cases hr : Dict.get? ed.table.reactions 18 with
        | none => rw [if_pos hp, hr] at hE; simp [bind, Except.bind] at hE
        | some r =>
          refine (key18 ?_).2
          rw [← h2]
          exact Dict.get?_isSome.mp (by rw [hr]; rfl)
      · rw [if_neg hp] at hE; simp [bind, Except.bind] at hE
    · rw [if_neg h1018] at hE
      simp only [Table.rx] at hE
      cases hr : Dict.get? ed.table.reactions mt with
      | none => rw [hr] at hE; simp [bind, Except.bind] at hE
      | some r =>
        rw [h1]
        apply keys_subset_allMtsOf
        rw [← h2]
        exact Dict.get?_isSome.mp (by rw [hr]; rfl)

theorem kept_set (h : Kept ed) (mt : MT) (v : Val K) : Kept (setSigma ed mt v).1 := by
  obtain ⟨h1, h2, h3, h4⟩ := h
  obtain ⟨hb, hk, hc, ha⟩ := setSigma_frame ed mt v
  refine ⟨?_, ?_, ?_, ?_⟩
  · rw [← hb.2.2, ← hb.1]; exact h1
  · rw [hk, ← hb.1]; exact h2
  · intro m hm
    rw [← hb.2.2]
    rcases (ha m).mp hm with hm | ⟨rfl, hm⟩
    · exact h3 m hm
    · exact setSigma_ok_mem h1 h2 hm
  · intro m hm hna
    rw [ha, not_or] at hna
    rw [← hb.1, ← h4 m hm hna.1]
    by_cases hmm : m = mt
    · subst hmm
      cases hr : (setSigma ed m v).2 with
      | ok u => exact absurd ⟨rfl, hr⟩ hna.2
      | error e => rw [setSigma_error_table hm hr]
    · exact hc m hmm

theorem kept_init {t : Option (List Char)} (h : init file t = .ok ed) : Kept ed := by
  unfold init at h
  split at h
  · cases h
  · cases h
    exact ⟨rfl, rfl, by simp, fun _ _ _ => rfl⟩

theorem kept_run {t : Option (List Char)} (h : init file t = .ok ed) (ops : List (Op K)) : Kept (run ed ops) :=
  run_induct (P := Kept) (fun _ mt v h => kept_set h mt v) ops ed (kept_init h)

/-- Chi as well, in histories without rejected chi. -/
theorem chi_kept (ops : List (Op K)) : ∀ {ed : Editor K},
    (1018 ∉ ed.adjusted → comp ed.table 1018 = comp ed.original 1018) → NoRejectedChi ed ops →
    1018 ∉ (run ed ops).adjusted → comp (run ed ops).table 1018 = comp ed.original 1018 := by
  induction ops with
  | nil => intro ed h _ hn; exact h hn
  | cons op ops ih =>
    intro ed h hno hn
    have hno' : NoRejectedChi (step ed op).1 ops := by
      intro pre v post heq
      exact hno (op :: pre) v post (by rw [heq]; rfl)
    cases op with
    | set mt v =>
      obtain ⟨hb, hk, hc, ha⟩ := setSigma_frame ed mt v
      have := ih (ed := (setSigma ed mt v).1) ?_ hno' hn
      · rw [hb.1]; exact this
      · intro hna
        rw [ha, not_or] at hna
        rw [← hb.1, ← h hna.1]
        by_cases hmm : 1018 = mt
        · subst hmm
          exact absurd ⟨rfl, hno [] v ops rfl⟩ hna.2
        · exact hc _ hmm
    | sums =>
      have hs : ∀ e : Editor K, (SameBase ed e ∧ (1018 ∈ e.adjusted ↔ 1018 ∈ ed.adjusted) ∧
          comp e.table 1018 = comp ed.table 1018) → ∀ mt v, mt ∈ sumRules.map Prod.fst →
          (SameBase ed (setSigma e mt (.arr v)).1 ∧ (1018 ∈ (setSigma e mt (.arr v)).1.adjusted ↔ 1018 ∈ ed.adjusted) ∧
          comp (setSigma e mt (.arr v)).1.table 1018 = comp ed.table 1018) := by
        intro e ⟨h1, h2, h3⟩ mt v hm
        obtain ⟨hb, hk, hc, ha⟩ := setSigma_frame e mt (.arr v)
        have hne : 1018 ≠ mt := by rintro rfl; revert hm; decide
        refine ⟨h1.trans hb, ?_, (hc _ hne).trans h3⟩
        rw [ha, h2]; simp [hne]
      obtain ⟨g1, g2, g3⟩ := applyRules_induct (P := fun e => SameBase ed e ∧
        (1018 ∈ e.adjusted ↔ 1018 ∈ ed.adjusted) ∧ comp e.table 1018 = comp ed.table 1018)
        (rules := sumRules) (fun e mt v hm hp => hs e hp mt v hm) ed ⟨SameBase.refl _, Iff.rfl, rfl⟩
      have := ih (ed := (applySumRules ed).1) ?_ hno' hn
      · rw [g1.1]; exact this
      · intro hna
        have e1 : comp (applySumRules ed).1.table 1018 = comp ed.table 1018 := g3
        have e2 : ed.original = (applySumRules ed).1.original := g1.1
        rw [e1, ← e2]
        exact h (fun hh => hna (g2.mpr hh))

/-- An MT with the file's data reads the same, unadjusted or not. -/
theorem sigma_unadjusted_of_comp {m : MT} (h : comp ed.table m = comp ed.original m) (at? : Option (List K)) :
    getSigma ed m at? false = getSigma ed m at? true := by
  have h1 := getSigma_congr (a := ed) (b := { ed with table := ed.original }) ⟨rfl, rfl, rfl⟩ (m := m) h at? false
  rw [h1]
  rfl

/-! ### Sums over the parts -/

theorem onFile_iff {m : MT} : OnFile file m ↔ m ∈ Dict.keys file.reactions := by
  unfold OnFile Dict.keys
  simp [List.mem_map]

/-- What a settled rule says, summed over all parts on the file. -/
theorem newVal_parts (hi : Inv file T ed) (hk : Kept ed) {s : MT} {l : List MT} (hsl : (s, l) ∈ sumRules)
    (parts : Finset MT) (hparts : ∀ c, c ∈ parts ↔ Part s c ∧ OnFile file c) (e : K) :
    newVal ed s l e - ∑ c ∈ parts, sigmaAt ed c false e =
      sigmaAt ed s true e - ∑ c ∈ parts, sigmaAt ed c true e := by
  obtain ⟨_, _, _, hl1, hl2⟩ := sumRules_ordered.2 (s, l) hsl
  set p := checkIfMtsPresent ed.adjusted (checkIfMtsPresent l ed.allMts) with hp
  have hnd : p.Nodup := nodup_check _ _
  have hsub : p.toFinset ⊆ parts := by
    intro c hc
    rw [List.mem_toFinset, hp, mem_check, mem_check] at hc
    rw [hparts, ← mem_rule_iff hsl, onFile_iff]
    refine ⟨hc.1.2, ?_⟩
    have h1 : c ≠ 452 := by rintro rfl; exact hl1 hc.1.2
    have h2 : c ≠ 1018 := by rintro rfl; exact hl2 hc.1.2
    rw [← mem_allMtsOf h1 h2, ← hi.allMts]
    exact hc.1.1
  have hzero : ∀ c ∈ parts, c ∉ p.toFinset → sigmaAt ed c false e - sigmaAt ed c true e = 0 := by
    intro c hc hcp
    rw [hparts, ← mem_rule_iff hsl, onFile_iff] at hc
    have h2 : c ≠ 1018 := by rintro rfl; exact hl2 hc.1
    have hna : c ∉ ed.adjusted := by
      intro ha
      apply hcp
      rw [List.mem_toFinset, hp, mem_check, mem_check]
      exact ⟨⟨by rw [hi.allMts]; exact keys_subset_allMtsOf hc.2, hc.1⟩, ha⟩
    have := sigma_unadjusted_of_comp (hk.2.2.2 c h2 hna) (some [e])
    unfold sigmaAt
    rw [this, sub_self]
  have hsum := Finset.sum_subset hsub hzero
  rw [Finset.sum_sub_distrib, Finset.sum_sub_distrib] at hsum
  have e1 : (p.map (sigmaAt ed · true e)).sum = ∑ c ∈ p.toFinset, sigmaAt ed c true e :=
    (List.sum_toFinset _ hnd).symm
  have e2 : (p.map (sigmaAt ed · false e)).sum = ∑ c ∈ p.toFinset, sigmaAt ed c false e :=
    (List.sum_toFinset _ hnd).symm
  have hnew : newVal ed s l e = sigmaAt ed s true e - ∑ c ∈ p.toFinset, sigmaAt ed c true e +
      ∑ c ∈ p.toFinset, sigmaAt ed c false e := by
    rw [← e1, ← e2]; rfl
  rw [hnew]
  linear_combination hsum

end ASAPy.Ace
