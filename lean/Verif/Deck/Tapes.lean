import Verif.Deck.Whole
import Verif.NjoyTapes.Props

/-!
# The tapes in the input are those of the model of the tapes (`Verif/NjoyTapes`)
-/

namespace ASAPy.Deck

open Njoy (Mod Kind)

/-- The tapes of a module as NJOY uses them, from the numbers on its first card. What COVR finds on its tape depends on the last ERRORR run before, `mf`. The modules for
thermal scattering are not in the model of the tapes. -/
def modOf (mf : Nat) : Run → Option Mod
  | .reconr ts _ _ => some ⟨.reconr, [(Dec.natVal (at_ ts 0), .endf)], [(Dec.natVal (at_ ts 1), .pendf)]⟩
  | .broadr ts _ _ _ => some ⟨.broadr, [(Dec.natVal (at_ ts 0), .endf), (Dec.natVal (at_ ts 1), .pendf)], [(Dec.natVal (at_ ts 2), .pendf)]⟩
  | .heatr ts _ _ => some ⟨.heatr, [(Dec.natVal (at_ ts 0), .endf), (Dec.natVal (at_ ts 1), .pendf)], [(Dec.natVal (at_ ts 2), .pendf)]⟩
  | .purr ts _ _ => some ⟨.purr, [(Dec.natVal (at_ ts 0), .endf), (Dec.natVal (at_ ts 1), .pendf)], [(Dec.natVal (at_ ts 2), .pendf)]⟩
  | .groupr ts _ _ _ _ _ _ => some ⟨.groupr, [(Dec.natVal (at_ ts 0), .endf), (Dec.natVal (at_ ts 1), .pendf)], [(Dec.natVal (at_ ts 3), .gendf)]⟩
  | .errorr ts _ _ _ mf' _ _ => some ⟨.errorr, [(Dec.natVal (at_ ts 0), .endf)] ++ (if at_ ts 1 = c!"0" then [] else [(Dec.natVal (at_ ts 1), .pendf)]) ++
      [(Dec.natVal (at_ ts 2), .gendf)], [(Dec.natVal (at_ ts 3), .errorr (Dec.natVal mf'))]⟩
  | .covrLib ts _ _ => some ⟨.covrLib, [(Dec.natVal (at_ ts 0), .errorr mf)], [(Dec.natVal (at_ ts 1), .boxer mf)]⟩
  | .covrPlot ts _ => some ⟨.covrPlot, [(Dec.natVal (at_ ts 0), .errorr mf)], [(Dec.natVal (at_ ts 2), .plot)]⟩
  | .viewr ts => some ⟨.viewr, [(Dec.natVal (at_ ts 0), .plot)], [(Dec.natVal (at_ ts 1), .eps)]⟩
  | .acer ts _ _ _ => some ⟨.acer, [(Dec.natVal (at_ ts 0), .endf), (Dec.natVal (at_ ts 1), .pendf)], [(Dec.natVal (at_ ts 3), .ace), (Dec.natVal (at_ ts 4), .xsdir)]⟩
  | .thermr .. => none
  | .acerThermal .. => none

/-- The covariance file of the last ERRORR run. -/
def mfAfter (mf : Nat) : Run → Nat
  | .errorr _ _ _ _ mf' _ _ => Dec.natVal mf'
  | _ => mf

/-- The tapes of the modules in turn. -/
def modsOf : Nat → List Run → List Mod
  | _, [] => []
  | mf, r :: rs => (modOf mf r).toList ++ modsOf (mfAfter mf r) rs

/-- The switches as the model of the tapes has them, and the names of the ACE and xsdir files. -/
def Opts.njoy (o : Opts) (ace xsdir : W) : Njoy.Opts :=
  { ace := ace, xsdir := xsdir, broadr := o.broadr, heatr := o.heatr, purr := o.purr, acer := o.acer, errorr := o.errorr, groups := o.groups.isSome, fluxOk := decide (o.iwt ≠ 1) || o.flux.isSome,
    plotMts := decide (o.mts ≠ []), chi := o.chi, nu := o.nu }

theorem modsOf_append (rs rs' : List Run) : ∀ mf, modsOf mf (rs ++ rs') = modsOf mf rs ++ modsOf (rs.foldl mfAfter mf) rs' := by
  induction rs with
  | nil => intro mf; rfl
  | cons r rs ih => intro mf; simp [modsOf, ih]

variable {o : Opts}

/-- The modules of one temperature in the model of the tapes. -/
def tempMods (o : Opts) (k : Nat) : List Mod :=
  [Njoy.groupr 22 (k + 1), ⟨.errorr, [(20, .endf), (k + 1, .gendf)], [(k + 2, .errorr 33)]⟩, Njoy.covrLib 33 (k + 2) (k + 3)]
  ++ if o.mts = [] then [] else [Njoy.covrPlot 33 (k + 2) (k + 4), Njoy.viewr (k + 4) (k + 5)]

theorem modsOf_covRuns (groups : List W) (k : Nat) (t : Njoy.Temp) (mf : Nat) (rs : List Run) :
    modsOf mf (covRuns o groups k t ++ rs) = tempMods o k ++ modsOf 33 rs := by
  by_cases hm : o.mts = [] <;>
  simp [covRuns, tempMods, hm, modsOf, modOf, mfAfter, at_, Dec.natVal_natStr, Njoy.groupr, Njoy.covrLib, Njoy.covrPlot, Njoy.viewr, Njoy.nendf, show Dec.natVal c!"33" = 33 from by decide]

theorem njoy_temps (l : List Njoy.Temp) (i : Nat) (s : Njoy.St) (hs : s.nlast = 22 + o.width * i) :
    (l.foldl (Njoy.tempStep (decide (o.mts ≠ [])) 22) s).mods = s.mods ++ (l.zipIdx i).flatMap (fun ti => tempMods o (22 + o.width * ti.2)) ∧
    (l.foldl (Njoy.tempStep (decide (o.mts ≠ [])) 22) s).nlast = 22 + o.width * (i + l.length) := by
  induction l generalizing i s with
  | nil => simp [hs]
  | cons t l ih =>
    have h1 : (Njoy.tempStep (decide (o.mts ≠ [])) 22 s t).mods = s.mods ++ tempMods o s.nlast ∧ (Njoy.tempStep (decide (o.mts ≠ [])) 22 s t).nlast = s.nlast + o.width := by
      by_cases hm : o.mts = [] <;> simp [Njoy.tempStep, tempMods, Opts.width, hm, Njoy.nendf]
    obtain ⟨h2, h3⟩ := ih (i + 1) (Njoy.tempStep (decide (o.mts ≠ [])) 22 s t) (by rw [h1.2, hs]; ring)
    rw [List.foldl_cons]
    refine ⟨?_, by rw [h3, List.length_cons]; ring⟩
    rw [h2, h1.1, hs, List.zipIdx_cons, List.flatMap_cons, List.append_assoc]

theorem modsOf_temps (groups : List W) (l : List (Njoy.Temp × Nat)) : ∀ (mf : Nat) (rs : List Run), l ≠ [] →
    modsOf mf ((l.flatMap fun ti => covRuns o groups (22 + o.width * ti.2) ti.1) ++ rs) = l.flatMap (fun ti => tempMods o (22 + o.width * ti.2)) ++ modsOf 33 rs := by
  induction l with
  | nil => intro mf rs h; exact absurd rfl h
  | cons t l ih =>
    intro mf rs _
    rw [List.flatMap_cons, List.flatMap_cons, List.append_assoc, modsOf_covRuns, List.append_assoc]
    by_cases hl : l = []
    · simp [hl]
    · rw [ih 33 rs hl]

theorem modsOf_nuRuns (groups : List W) (cases : List (List W)) (g k : Nat) (t : W) (mf' : W) (mf : Nat) (rs : List Run) (n : Nat) (hn : Dec.natVal mf' = n) :
    modsOf mf (nuRuns o groups mf' cases g k t ++ rs) =
      [⟨.errorr, [(20, .endf), (22, .pendf), (g, .gendf)], [(k + 1, .errorr n)]⟩, Njoy.covrPlot n (k + 1) (k + 2), Njoy.viewr (k + 2) (k + 3), Njoy.covrLib n (k + 1) (k + 4)]
      ++ modsOf n rs := by
  have h22 : Dec.natStr 22 ≠ ['0'] := natStr_ne (n := 0) (by decide)
  simp [nuRuns, modsOf, modOf, mfAfter, at_, Dec.natVal_natStr, Njoy.covrLib, Njoy.covrPlot, Njoy.viewr, hn, h22]

/-- The modules for nu-bar and chi in the model of the tapes. -/
def nuMods (n g k : Nat) : List Mod :=
  [⟨.errorr, [(20, .endf), (22, .pendf), (g, .gendf)], [(k + 1, .errorr n)]⟩, Njoy.covrPlot n (k + 1) (k + 2), Njoy.viewr (k + 2) (k + 3), Njoy.covrLib n (k + 1) (k + 4)]

def nuChiMods (o : Opts) (k : Nat) : List Mod :=
  if o.nu = false ∧ o.chi = false then [] else
    Njoy.groupr 22 (k + 1) :: ((if o.nu then nuMods 31 (k + 1) (k + 1) else []) ++ (if o.chi then nuMods 35 (k + 1) (if o.nu then k + 5 else k + 1) else []))

theorem modsOf_nuChi (groups : List W) (k mf : Nat) (rs : List Run) (hrs : ∀ a b, modsOf a rs = modsOf b rs) :
    modsOf mf (nuChiRuns o groups k ++ rs) = nuChiMods o k ++ modsOf 0 rs := by
  have h31 : Dec.natVal c!"31" = 31 := by decide
  have h35 : Dec.natVal c!"35" = 35 := by decide
  unfold nuChiRuns nuChiMods
  cases hnu : o.nu <;> cases hchi : o.chi
  · simpa using hrs _ _
  · simp only [Bool.true_eq_false, Bool.false_eq_true, and_false, if_false, List.nil_append, if_true, List.cons_append]
    rw [modsOf, modsOf_nuRuns groups _ _ _ _ _ _ _ _ h35, hrs 35 0]
    simp [modOf, at_, Dec.natVal_natStr, Njoy.groupr, Njoy.nendf, nuMods]
  · simp only [Bool.true_eq_false, false_and, Bool.false_eq_true, if_false, List.append_nil, if_true, List.cons_append]
    rw [modsOf, modsOf_nuRuns groups _ _ _ _ _ _ _ _ h31, hrs 31 0]
    simp [modOf, at_, Dec.natVal_natStr, Njoy.groupr, Njoy.nendf, nuMods]
  · simp only [Bool.true_eq_false, false_and, if_false, if_true, List.cons_append, List.append_assoc]
    rw [modsOf, modsOf_nuRuns groups _ _ _ _ _ _ _ _ h31, modsOf_nuRuns groups _ _ _ _ _ _ _ _ h35, hrs 35 0]
    simp [modOf, at_, Dec.natVal_natStr, Njoy.groupr, Njoy.nendf, nuMods]

theorem njoy_errorr {a x : W} (hw : o.Writable) (he : o.errorr = true) (s : Njoy.St) (hs : s.nlast = 22) :
    ∃ s', Njoy.errorrPart (o.njoy a x) (some 22) o.temps s = .ok s' ∧
      s'.mods = s.mods ++ (o.temps.zipIdx.flatMap (fun ti => tempMods o (22 + o.width * ti.2)) ++ nuChiMods o (22 + o.width * o.temps.length)) ∧ s'.nlast = o.afterCov := by
  obtain ⟨g, hg, -⟩ := hw.groups he
  have hfl : (decide (o.iwt ≠ 1) || o.flux.isSome) = true := by
    by_cases h1 : o.iwt = 1
    · obtain ⟨v, hv, -⟩ := hw.flux he h1
      simp [hv]
    · simp [h1]
  obtain ⟨h1, h2⟩ := njoy_temps (o := o) o.temps 0 s (by simpa using hs)
  rw [Nat.zero_add] at h2
  obtain ⟨t, htl⟩ : ∃ t, o.temps.getLast? = some t := ⟨_, List.getLast?_eq_some_getLast hw.temps⟩
  unfold Njoy.errorrPart
  simp only [Opts.njoy, hg, Option.isSome_some, Bool.true_eq_false, if_false, hfl, htl]
  generalize o.temps.foldl (Njoy.tempStep (decide (o.mts ≠ [])) 22) s = s1 at h1 h2 ⊢
  cases hnu : o.nu <;> cases hchi : o.chi
  · refine ⟨_, rfl, ?_, ?_⟩
    · rw [h1]; simp [nuChiMods, hnu, hchi]
    · rw [h2]; simp [Opts.afterCov, he, hnu, hchi]
  · refine ⟨_, rfl, ?_, ?_⟩
    · simp [Njoy.nuChiStep, Njoy.nuChiGroupr, h1, h2, nuChiMods, hnu, hchi, nuMods, Njoy.nendf]
    · simp [Njoy.nuChiStep, Njoy.nuChiGroupr, h2, Opts.afterCov, he, hnu, hchi]
  · refine ⟨_, rfl, ?_, ?_⟩
    · simp [Njoy.nuChiStep, Njoy.nuChiGroupr, h1, h2, nuChiMods, hnu, hchi, nuMods, Njoy.nendf]
    · simp [Njoy.nuChiStep, Njoy.nuChiGroupr, h2, Opts.afterCov, he, hnu, hchi]
  · refine ⟨_, rfl, ?_, ?_⟩
    · simp [Njoy.nuChiStep, Njoy.nuChiGroupr, h1, h2, nuChiMods, hnu, hchi, nuMods, Njoy.nendf]
    · simp [Njoy.nuChiStep, Njoy.nuChiGroupr, h2, Opts.afterCov, he, hnu, hchi]

/-- The modules of ACER in the model of the tapes. -/
def acerMods (k : Nat) (l : List (Njoy.Temp × Nat)) : List Mod :=
  l.map fun ti => ⟨.acer, [(20, .endf), (k, .pendf)], [(k + 1 + 2 * ti.2, .ace), (k + 2 + 2 * ti.2, .xsdir)]⟩

theorem njoy_acer (p : Njoy.Opts) (k : Nat) (l : List Njoy.Temp) : ∀ (i : Nat) (s : Njoy.St), (Njoy.acerLoop p k i l s).mods = s.mods ++ acerMods k (l.zipIdx i) := by
  induction l with
  | nil => intro i s; simp [Njoy.acerLoop, acerMods]
  | cons t l ih =>
    intro i s
    rw [Njoy.acerLoop, ih]
    simp [acerMods, Njoy.nendf, show k + 1 + 2 * i + 1 = k + 2 + 2 * i by ring]

theorem modsOf_acer (k : Nat) (l : List (Njoy.Temp × Nat)) (mf : Nat) : modsOf mf (l.map fun ti =>
      .acer [num 20, num k, c!"0", num (k + 1 + 2 * ti.2), num (k + 2 + 2 * ti.2)] (suffix ti.2) (num o.mat) ti.1.str) = acerMods k l := by
  induction l generalizing mf with
  | nil => rfl
  | cons t l ih => simp [modsOf, modOf, mfAfter, ih, acerMods, at_, Dec.natVal_natStr]

theorem njoy_ok {a x : W} (hw : o.Writable) : ∃ out, Njoy.makeNjoyRun (o.njoy a x) o.temps = .ok (modsOf 0 (asked o), out) := by
  -- the end does not depend on the covariances
  have htail : ∀ (k1 k2 k3 mf : Nat), modsOf mf ((if o.heatr then [.heatr [num 20, num 22, num (k1 + 1)] (num o.mat) [c!"302", c!"318", c!"402"]] else [])
      ++ (if o.purr then [.purr [num 20, num k2, num (k2 + 1)] (num o.mat) o.strs] else [])
      ++ (if o.acer then o.temps.zipIdx.map fun ti => Run.acer [num 20, num k3, c!"0", num (k3 + 1 + 2 * ti.2), num (k3 + 2 + 2 * ti.2)] (suffix ti.2) (num o.mat) ti.1.str else [])) =
      (if o.heatr then [⟨.heatr, [(20, .endf), (22, .pendf)], [(k1 + 1, .pendf)]⟩] else []) ++ (if o.purr then [⟨.purr, [(20, .endf), (k2, .pendf)], [(k2 + 1, .pendf)]⟩] else [])
      ++ (if o.acer then acerMods k3 o.temps.zipIdx else []) := by
    intro k1 k2 k3 mf
    cases o.heatr <;> cases o.purr <;> cases o.acer <;>
      simp [modsOf, modOf, mfAfter, at_, Dec.natVal_natStr, modsOf_acer]
  have hz : o.temps.zipIdx ≠ [] := by simpa using hw.temps
  cases hb : o.broadr with
  | false =>
    have he : o.errorr = false := by
      cases h : o.errorr with
      | false => rfl
      | true => exact absurd (hw.broadr (.inl h)) (by simp [hb])
    have hh : o.heatr = false := by
      cases h : o.heatr with
      | false => rfl
      | true => exact absurd (hw.broadr (.inr h)) (by simp [hb])
    have := htail 21 21 (if o.purr then 22 else 21) 0
    simp only [hh, Bool.false_eq_true, if_false, List.nil_append] at this
    unfold Njoy.makeNjoyRun asked
    simp only [Opts.njoy, hb, he, hh, Bool.false_eq_true, if_false, Opts.afterCov, List.append_nil, List.append_assoc, List.cons_append, List.nil_append]
    rw [modsOf]
    simp only [mfAfter]
    rw [this]
    cases o.purr <;> cases o.acer <;>
      simp [njoy_acer, modOf, at_, Dec.natVal_natStr, Njoy.nendf, Njoy.npendf]
  | true =>
    have hcov : ∃ s', (if o.errorr then Njoy.errorrPart (o.njoy a x) (some 22) o.temps
          ⟨[⟨.reconr, [(20, .endf)], [(21, .pendf)]⟩, ⟨.broadr, [(20, .endf), (21, .pendf)], [(22, .pendf)]⟩], 22, []⟩
        else .ok ⟨[⟨.reconr, [(20, .endf)], [(21, .pendf)]⟩, ⟨.broadr, [(20, .endf), (21, .pendf)], [(22, .pendf)]⟩], 22, []⟩) = .ok s' ∧
        s'.mods = [⟨.reconr, [(20, .endf)], [(21, .pendf)]⟩, ⟨.broadr, [(20, .endf), (21, .pendf)], [(22, .pendf)]⟩] ++
          (if o.errorr then o.temps.zipIdx.flatMap (fun ti => tempMods o (22 + o.width * ti.2)) ++ nuChiMods o (22 + o.width * o.temps.length) else []) ∧ s'.nlast = o.afterCov := by
      cases he : o.errorr with
      | false => exact ⟨_, rfl, rfl, by simp [Opts.afterCov, he, hb]⟩
      | true => exact njoy_errorr hw he _ rfl
    obtain ⟨s', h1, h2, h3⟩ := hcov
    have hrhs : modsOf 0 (asked o) = s'.mods ++ ((if o.heatr then [⟨.heatr, [(20, .endf), (22, .pendf)], [(o.afterCov + 1, .pendf)]⟩] else []) ++
        (if o.purr then [⟨.purr, [(20, .endf), (if o.heatr then o.afterCov + 1 else o.afterCov, .pendf)], [((if o.heatr then o.afterCov + 1 else o.afterCov) + 1, .pendf)]⟩] else [])
        ++ (if o.acer then acerMods (if o.purr then (if o.heatr then o.afterCov + 1 else o.afterCov) + 1 else (if o.heatr then o.afterCov + 1 else o.afterCov)) o.temps.zipIdx else [])) := by
      unfold asked
      rw [h2]
      have ht := htail o.afterCov (if o.heatr then o.afterCov + 1 else o.afterCov)
        (if o.purr then (if o.heatr then o.afterCov + 1 else o.afterCov) + 1 else (if o.heatr then o.afterCov + 1 else o.afterCov))
      rw [← ht 0]
      simp only [hb, if_true, List.append_assoc, List.singleton_append]
      simp only [List.append_assoc] at ht
      cases he : o.errorr with
      | false => simp [modsOf, modOf, mfAfter, at_, Dec.natVal_natStr]
      | true =>
        simp only [if_true, List.append_assoc, List.cons_append, List.nil_append, modsOf, mfAfter]
        rw [modsOf_temps _ _ _ _ hz, modsOf_nuChi _ _ _ _ (fun a b => by rw [ht a, ht b])]
        simp [modOf, at_, Dec.natVal_natStr]
    rw [hrhs]
    unfold Njoy.makeNjoyRun
    have e : (if (o.njoy a x).errorr then Njoy.errorrPart (o.njoy a x) (some 22) o.temps
          ⟨[⟨.reconr, [(20, .endf)], [(21, .pendf)]⟩, ⟨.broadr, [(20, .endf), (21, .pendf)], [(22, .pendf)]⟩], 22, []⟩
        else .ok ⟨[⟨.reconr, [(20, .endf)], [(21, .pendf)]⟩, ⟨.broadr, [(20, .endf), (21, .pendf)], [(22, .pendf)]⟩], 22, []⟩) = .ok s' := h1
    simp only [show (o.njoy a x).broadr = true from hb, if_true, show (o.njoy a x).pendf = none from rfl, Njoy.nendf, Njoy.npendf, List.singleton_append, Nat.reduceAdd, List.cons_append, List.nil_append]
    rw [e]
    simp only [show (o.njoy a x).heatr = o.heatr from rfl, show (o.njoy a x).purr = o.purr from rfl, show (o.njoy a x).acer = o.acer from rfl, show (o.njoy a x).run = false from rfl]
    cases o.heatr <;> cases o.purr <;> cases o.acer <;>
      simp [njoy_acer, h3]

end ASAPy.Deck
