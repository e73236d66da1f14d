import Verif.Deck.Covr

/-!
# The steps of `make_njoy_run`: what each adds to the input
-/

namespace ASAPy.Deck

set_option maxRecDepth 100000
set_option linter.unusedSimpArgs false

/-- From `s` to `s'` text without braces is added from which the modules `rs` are read, and `w` tapes are taken. -/
def Adds (s s' : St) (rs : List Run) (w : Nat) : Prop :=
  ∃ x, s'.commands = s.commands ++ x ∧ NoBrace x ∧ Part x rs ∧ s'.nlast = s.nlast + w

theorem Adds.refl (s : St) : Adds s s [] 0 := ⟨[], by simp, by intro c hc; simp at hc, Part.nil, rfl⟩

theorem Adds.trans {s s' s'' : St} {rs rs' : List Run} {w w' : Nat} (h : Adds s s' rs w) (h' : Adds s' s'' rs' w') : Adds s s'' (rs ++ rs') (w + w') := by
  obtain ⟨x, hx, hb, hp, hn⟩ := h
  obtain ⟨x', hx', hb', hp', hn'⟩ := h'
  exact ⟨x ++ x', by rw [hx', hx, List.append_assoc], noBrace_append hb hb', hp.append hp', by omega⟩

/-- The text of the weight and the weight that is read agree: no text for the options 2, 3 and 5 to 12, the user's function for 1. -/
inductive FluxOk (o : Opts) : Option W → Prop
  | none (h1 : o.iwt ≠ 1) (h4 : o.iwt ≠ 4) : FluxOk o none
  | user (vals : List W) (h1 : o.iwt = 1) (hf : o.flux = some vals) (hne : vals ≠ []) (hp : ∀ w ∈ vals, Plain w) : FluxOk o (some (fluxText vals))

theorem natStr_ne {m n : Nat} (h : m ≠ n) : Dec.natStr m ≠ Dec.natStr n := fun e => h (by simpa [Dec.natVal_natStr] using congrArg Dec.natVal e)

theorem noBrace_intercalate {sep : W} {ws : List W} (hs : NoBrace sep) (h : ∀ w ∈ ws, NoBrace w) : NoBrace (sep.intercalate ws) := by
  induction ws with
  | nil => intro c hc; simp [List.intercalate] at hc
  | cons w ws ih =>
    cases ws with
    | nil => simpa [List.intercalate, List.intersperse] using h w (by simp)
    | cons w' ws =>
      have e : sep.intercalate (w :: w' :: ws) = w ++ (sep ++ sep.intercalate (w' :: ws)) := by
        simp [List.intercalate, List.intersperse, List.append_assoc]
      rw [e]
      exact noBrace_append (h w (by simp)) (noBrace_append hs (ih fun x hx => h x (by simp [hx])))

theorem noBrace_flatten {ws : List W} (h : ∀ w ∈ ws, NoBrace w) : NoBrace ws.flatten := by
  intro c hc
  obtain ⟨w, hw, hcw⟩ := List.mem_flatten.1 hc
  exact h w hw c hcw

theorem noBrace_column {ws : List W} (h : ∀ w ∈ ws, Plain w) : NoBrace (column ws) := noBrace_intercalate (by decide +kernel) fun w hw => (h w hw).noBrace

theorem noBrace_temps {ts : List Njoy.Temp} (h : ∀ t ∈ ts, Plain t.str) : NoBrace (tempsText ts) := by
  refine noBrace_intercalate (by decide +kernel) fun w hw => ?_
  obtain ⟨t, ht, rfl⟩ := List.mem_map.1 hw
  exact (h t ht).noBrace

theorem noBrace_fluxText {ws : List W} (h : ∀ w ∈ ws, Plain w) : NoBrace (fluxText ws) :=
  noBrace_append (noBrace_append (noBrace_append (noBrace_append (noBrace_append (by decide +kernel) (noBrace_natStr _)) (by decide +kernel)) (noBrace_natStr _)) (by decide +kernel))
    (noBrace_column h)

theorem noBrace_reactionsTail (n : Nat) : NoBrace (reactionsTail n) :=
  noBrace_append (noBrace_flatten fun w hw => by rw [List.eq_of_mem_replicate hw]; decide +kernel) (by decide +kernel)

theorem noBrace_nuTail (n : Nat) : NoBrace ((List.replicate n tNuReactions).flatten ++ c!"0/\n") :=
  noBrace_append (noBrace_flatten fun w hw => by rw [List.eq_of_mem_replicate hw]; decide +kernel) (by decide +kernel)

theorem plain_of_ok {o : Opts} {groups : List W} (hg : ∀ w ∈ groups, Plain w) : NoBrace (column groups) := noBrace_column hg

variable {o : Opts} {groups : List W} {flux : Option W}

theorem strs_plain (h : ∀ t ∈ o.temps, Plain t.str) : ∀ w ∈ o.strs, Plain w := by
  intro w hw
  obtain ⟨t, ht, rfl⟩ := List.mem_map.1 hw
  exact h t ht

theorem strs_ne (h : o.temps ≠ []) : o.strs ≠ [] := by simpa [Opts.strs] using h

theorem strs_length : o.strs.length = o.temps.length := by simp [Opts.strs]

theorem temps_eq : tempsText o.temps = [' '].intercalate o.strs := rfl

/-- ERRORR for MF=33 with its weight. -/
theorem errorr33_ok (hf : FluxOk o flux) (hg : ∀ w ∈ groups, Plain w) (hne : groups ≠ []) {a b c : Nat} {t : W} (ht : Plain t) :
    Part (addFlux flux (xErrorr33 (num a) (num b) (num c) (num o.mat) (num o.iwt) t (num (groups.length - 1)) (column groups)))
      [.errorr [num a, c!"0", num b, num c] (num o.mat) (num o.iwt) t c!"33" groups o.weight] := by
  cases hf with
  | none h1 h4 =>
    have := part_errorr33 (plain_natStr a) (plain_natStr b) (plain_natStr c) (plain_natStr o.mat) (plain_natStr o.iwt) ht hg hne
      (weightIs_none (natStr_ne (n := 1) h1) (natStr_ne (n := 4) h4))
    simpa [addFlux, Opts.weight, h1] using this
  | user vals h1 hv hvn hp =>
    have := part_errorr33 (plain_natStr a) (plain_natStr b) (plain_natStr c) (plain_natStr o.mat) (plain_natStr o.iwt) ht hg hne
      (show WeightIs (Dec.natStr o.iwt) _ _ by rw [h1]; exact weightIs_flux hp hvn)
    simpa [addFlux, Opts.weight, h1, hv, fluxItems] using this

theorem errorr31_ok (hf : FluxOk o flux) (hg : ∀ w ∈ groups, Plain w) (hne : groups ≠ []) {a b c d : Nat} {t : W} (ht : Plain t) :
    Part (addFlux flux (xErrorr31 (num a) (num b) (num c) (num d) (num o.mat) (num o.iwt) t (num (groups.length - 1)) (column groups)))
      [.errorr [num a, num b, num c, num d] (num o.mat) (num o.iwt) t c!"31" groups o.weight] := by
  cases hf with
  | none h1 h4 =>
    have := part_errorr31 (plain_natStr a) (plain_natStr b) (plain_natStr c) (plain_natStr d) (plain_natStr o.mat) (plain_natStr o.iwt) ht hg hne
      (weightIs_none (natStr_ne (n := 1) h1) (natStr_ne (n := 4) h4))
    simpa [addFlux, Opts.weight, h1] using this
  | user vals h1 hv hvn hp =>
    have := part_errorr31 (plain_natStr a) (plain_natStr b) (plain_natStr c) (plain_natStr d) (plain_natStr o.mat) (plain_natStr o.iwt) ht hg hne
      (show WeightIs (Dec.natStr o.iwt) _ _ by rw [h1]; exact weightIs_flux hp hvn)
    simpa [addFlux, Opts.weight, h1, hv, fluxItems] using this

theorem errorr35_ok (hf : FluxOk o flux) (hg : ∀ w ∈ groups, Plain w) (hne : groups ≠ []) {a b c d : Nat} {t : W} (ht : Plain t) :
    Part (addFlux flux (xErrorr35 (num a) (num b) (num c) (num d) (num o.mat) (num o.iwt) t (num (groups.length - 1)) (column groups)))
      [.errorr [num a, num b, num c, num d] (num o.mat) (num o.iwt) t c!"35" groups o.weight] := by
  cases hf with
  | none h1 h4 =>
    have := part_errorr35 (plain_natStr a) (plain_natStr b) (plain_natStr c) (plain_natStr d) (plain_natStr o.mat) (plain_natStr o.iwt) ht hg hne
      (weightIs_none (natStr_ne (n := 1) h1) (natStr_ne (n := 4) h4))
    simpa [addFlux, Opts.weight, h1] using this
  | user vals h1 hv hvn hp =>
    have := part_errorr35 (plain_natStr a) (plain_natStr b) (plain_natStr c) (plain_natStr d) (plain_natStr o.mat) (plain_natStr o.iwt) ht hg hne
      (show WeightIs (Dec.natStr o.iwt) _ _ by rw [h1]; exact weightIs_flux hp hvn)
    simpa [addFlux, Opts.weight, h1, hv, fluxItems] using this

/-- GROUPR for one temperature. -/
def xGr (o : Opts) (groups : List W) (flux : Option W) (a b c : Nat) : W :=
  (match flux with
    | none => xGroupr (num a) (num b) (num c) (num o.mat) (num o.iwt) (num o.temps.length) (tempsText o.temps) (num (groups.length - 1)) (column groups)
    | some f => xGrouprFlux (num a) (num b) (num c) (num o.mat) (num o.temps.length) (tempsText o.temps) (num (groups.length - 1)) (column groups) f)
  ++ reactionsTail o.temps.length

theorem groupr_ok (hf : FluxOk o flux) (hg : ∀ w ∈ groups, Plain w) (hne : groups ≠ []) (ht : ∀ t ∈ o.temps, Plain t.str) (htn : o.temps ≠ []) {a b c : Nat} :
    Part (xGr o groups flux a b c)
      [.groupr [num a, num b, c!"0", num c] (num o.mat) (num o.iwt) o.strs groups o.weight (List.replicate o.temps.length [[c!"3"]])] := by
  unfold xGr
  cases hf with
  | none h1 h4 =>
    have := part_groupr (plain_natStr a) (plain_natStr b) (plain_natStr c) (plain_natStr o.mat) (plain_natStr o.iwt) (strs_plain ht) (strs_ne htn) hg hne
      (natStr_ne (n := 1) h1) (natStr_ne (n := 4) h4)
    rw [strs_length] at this
    simpa [addFlux, Opts.weight, h1, temps_eq] using this
  | user vals h1 hv hvn hp =>
    have := part_grouprFlux (plain_natStr a) (plain_natStr b) (plain_natStr c) (plain_natStr o.mat) (strs_plain ht) (strs_ne htn) hg hne hp hvn
    rw [strs_length] at this
    simpa [addFlux, Opts.weight, h1, hv, fluxItems, temps_eq, show num 1 = ['1'] from rfl] using this

theorem noBrace_xGr (hf : FluxOk o flux) (hg : ∀ w ∈ groups, Plain w) (ht : ∀ t ∈ o.temps, Plain t.str) {a b c : Nat} : NoBrace (xGr o groups flux a b c) := by
  refine noBrace_append ?_ (noBrace_reactionsTail _)
  cases hf with
  | none h1 h4 => exact noBrace_xGroupr (noBrace_natStr _) (noBrace_natStr _) (noBrace_natStr _) (noBrace_natStr _) (noBrace_natStr _) (noBrace_natStr _) (noBrace_temps ht) (noBrace_natStr _) (noBrace_column hg)
  | user vals h1 hv hvn hp => exact noBrace_xGrouprFlux (noBrace_natStr _) (noBrace_natStr _) (noBrace_natStr _) (noBrace_natStr _) (noBrace_natStr _) (noBrace_temps ht) (noBrace_natStr _) (noBrace_column hg) (noBrace_fluxText hp)

theorem noBrace_weight (hf : FluxOk o flux) {a : W} (ha : NoBrace a) : NoBrace (addFlux flux a) := by
  cases hf with
  | none h1 h4 => exact ha
  | user vals h1 hv hvn hp => exact noBrace_append ha (noBrace_append (noBrace_fluxText hp) (by decide +kernel))

theorem natStr_ne_zero (n : Nat) : Dec.natStr (n + 1) ≠ ['0'] := natStr_ne (m := n + 1) (n := 0) (by omega)

theorem tempStep_ok (hf : FluxOk o flux) (hg : ∀ w ∈ groups, Plain w) (hne : groups ≠ []) (ht : ∀ t ∈ o.temps, Plain t.str) (htn : o.temps ≠ []) (s : St) {t : Njoy.Temp}
    (htt : t ∈ o.temps) : ∃ s', tempStep o groups flux 22 s t = .ok s' ∧ Adds s s' (covRuns o groups s.nlast t) o.width := by
  have hgr := groupr_ok hf hg hne ht htn (a := 20) (b := 22) (c := s.nlast + 1)
  have her := errorr33_ok hf hg hne (a := 20) (b := s.nlast + 1) (c := s.nlast + 2) (ht t htt)
  have hlib := part_covrLib (plain_natStr (s.nlast + 2)) (plain_natStr (s.nlast + 3)) (natStr_ne_zero _) (plain_natStr o.mat)
  have hplot := part_covrPlot (plain_natStr (s.nlast + 2)) (plain_natStr (s.nlast + 4)) (plain_natStr o.mat) o.mts
  have hview := part_viewr (plain_natStr (s.nlast + 4)) (plain_natStr (s.nlast + 5))
  have bgr := noBrace_xGr hf hg ht (a := 20) (b := 22) (c := s.nlast + 1)
  have ber := noBrace_weight hf (noBrace_xErrorr33 (noBrace_natStr 20) (noBrace_natStr (s.nlast + 1)) (noBrace_natStr (s.nlast + 2)) (noBrace_natStr o.mat) (noBrace_natStr o.iwt) (ht t htt).noBrace
    (noBrace_natStr (groups.length - 1)) (noBrace_column hg))
  have blib := noBrace_xCovrLib (noBrace_natStr (s.nlast + 2)) (noBrace_natStr (s.nlast + 3)) (noBrace_natStr o.mat)
  have bplot := noBrace_xCovrPlot (noBrace_natStr (s.nlast + 2)) (noBrace_natStr (s.nlast + 4)) (noBrace_natStr o.mat) o.mts
  have bview := noBrace_xViewr (noBrace_natStr (s.nlast + 4)) (noBrace_natStr (s.nlast + 5))
  have f1 : (match flux with
      | some _ => format (tempEnv o groups flux 22 s.nlast t) (tGrouprFluxHead ++ reactionsTail o.temps.length)
      | none => format (tempEnv o groups flux 22 s.nlast t) (tGrouprHead ++ reactionsTail o.temps.length)) = .ok (xGr o groups flux 20 22 (s.nlast + 1)) := by
    cases flux with
    | none => exact format_ok_append (format_xGroupr rfl rfl rfl rfl rfl rfl rfl rfl rfl) (format_noBrace (noBrace_reactionsTail _) _)
    | some f => exact format_ok_append (format_xGrouprFlux rfl rfl rfl rfl rfl rfl rfl rfl rfl) (format_noBrace (noBrace_reactionsTail _) _)
  have f2 : format (tempEnv o groups flux 22 s.nlast t) tErrorr33 = .ok _ := format_xErrorr33 (nendf := num 20) rfl rfl rfl rfl rfl rfl rfl rfl
  have f3 : format (tempEnv o groups flux 22 s.nlast t) tCovrLib = .ok _ := format_xCovrLib rfl rfl rfl
  have f4 : (do let d ← tCovrPlot o.mts; format (tempEnv o groups flux 22 s.nlast t) d) = .ok _ := format_xCovrPlot rfl rfl rfl o.mts
  have f5 : format (tempEnv o groups flux 22 s.nlast t) tViewr = .ok _ := format_xViewr rfl rfl
  have e : tempStep o groups flux 22 s t = (do
      let a ← (match flux with
        | some _ => format (tempEnv o groups flux 22 s.nlast t) (tGrouprFluxHead ++ reactionsTail o.temps.length)
        | none => format (tempEnv o groups flux 22 s.nlast t) (tGrouprHead ++ reactionsTail o.temps.length))
      let b ← format (tempEnv o groups flux 22 s.nlast t) tErrorr33
      let c ← format (tempEnv o groups flux 22 s.nlast t) tCovrLib
      if o.mts ≠ [] then do
        let d ← (do let d ← tCovrPlot o.mts; format (tempEnv o groups flux 22 s.nlast t) d)
        let e ← format (tempEnv o groups flux 22 s.nlast t) tViewr
        pure ⟨s.commands ++ a ++ addFlux flux b ++ c ++ d ++ e, s.nlast + 5⟩
      else pure ⟨s.commands ++ a ++ addFlux flux b ++ c, s.nlast + 3⟩) := by
    unfold tempStep
    simp only [bind_assoc]
    cases flux <;> rfl
  rw [e, f1, f2, f3, f4, f5]
  by_cases hm : o.mts = []
  · refine ⟨_, by simp only [hm, ne_eq, not_true_eq_false, if_false]; rfl, _, ?_, noBrace_append bgr (noBrace_append ber blib), ?_, ?_⟩
    · simp only [List.append_assoc]
    · simpa [covRuns, hm] using hgr.append (her.append hlib)
    · simp [Opts.width, hm]
  · refine ⟨_, by simp only [hm, ne_eq, not_false_eq_true, if_true]; rfl, _, ?_, noBrace_append bgr (noBrace_append ber (noBrace_append blib (noBrace_append bplot bview))), ?_, ?_⟩
    · simp only [List.append_assoc]
    · simpa [covRuns, hm, plotCases] using hgr.append (her.append (hlib.append (hplot.append hview)))
    · simp [Opts.width, hm]

/-- All temperatures. -/
theorem temps_ok (hf : FluxOk o flux) (hg : ∀ w ∈ groups, Plain w) (hne : groups ≠ []) (ht : ∀ t ∈ o.temps, Plain t.str) (htn : o.temps ≠ []) (s : St) (l : List Njoy.Temp)
    (hl : ∀ t ∈ l, t ∈ o.temps) (i : Nat) (hs : s.nlast = 22 + o.width * i) :
    ∃ s', l.foldlM (tempStep o groups flux 22) s = .ok s' ∧
      Adds s s' ((l.zipIdx i).flatMap fun ti => covRuns o groups (22 + o.width * ti.2) ti.1) (o.width * l.length) := by
  induction l generalizing s i with
  | nil => exact ⟨s, rfl, by simpa using Adds.refl s⟩
  | cons t l ih =>
    obtain ⟨s1, h1, ha1⟩ := tempStep_ok hf hg hne ht htn s (hl t (by simp))
    obtain ⟨s2, h2, ha2⟩ := ih s1 (fun t h => hl t (by simp [h])) (i + 1) (by obtain ⟨x, _, _, _, hn⟩ := ha1; rw [hn, hs]; ring)
    refine ⟨s2, by rw [List.foldlM_cons, h1]; exact h2, ?_⟩
    have := ha1.trans ha2
    rw [hs] at this
    rw [List.zipIdx_cons, List.flatMap_cons, List.length_cons, show o.width * (l.length + 1) = o.width + o.width * l.length by ring]
    exact this

theorem nuChiGroupr_ok (h1 : o.iwt ≠ 1) (h4 : o.iwt ≠ 4) (hg : ∀ w ∈ groups, Plain w) (hne : groups ≠ []) (ht : ∀ t ∈ o.temps, Plain t.str) (htn : o.temps ≠ []) (s : St) :
    ∃ s', nuChiGroupr o groups 22 s = .ok s' ∧ Adds s s'
      [.groupr [num 20, num 22, c!"0", num (s.nlast + 1)] (num o.mat) (num o.iwt) o.strs groups o.weight (List.replicate o.temps.length nuReactions)] 1 := by
  have hp := part_grouprNu (plain_natStr 20) (plain_natStr 22) (plain_natStr (s.nlast + 1)) (plain_natStr o.mat) (plain_natStr o.iwt) (strs_plain ht) (strs_ne htn) hg hne
      (natStr_ne (n := 1) h1) (natStr_ne (n := 4) h4)
  rw [strs_length, ← temps_eq] at hp
  have hb := noBrace_append (noBrace_xGrouprNu (noBrace_natStr 20) (noBrace_natStr 22) (noBrace_natStr (s.nlast + 1)) (noBrace_natStr o.mat) (noBrace_natStr o.iwt) (noBrace_natStr o.temps.length)
    (noBrace_temps ht) (noBrace_natStr (groups.length - 1)) (noBrace_column hg)) (noBrace_nuTail o.temps.length)
  have f : format (grouprEnv o groups 22 s.nlast) (tGrouprNuHead ++ ((List.replicate o.temps.length tNuReactions).flatten ++ c!"0/\n")) = .ok _ :=
    format_ok_append (format_xGrouprNu rfl rfl rfl rfl rfl rfl rfl rfl rfl) (format_noBrace (noBrace_nuTail _) _)
  have hc : Part c!"\n-- Nu-bar / Chi groupr\n" [] := fun r xs hr => Reads.comment rfl hr
  unfold nuChiGroupr tGrouprNu
  rw [List.append_assoc, f]
  refine ⟨_, rfl, c!"\n-- Nu-bar / Chi groupr\n" ++ _, by simp only [List.append_assoc], noBrace_append (by decide +kernel) hb, ?_, rfl⟩
  simpa [Opts.weight, h1] using hc.append hp

/-- ERRORR for nu-bar or chi with plots and library. -/
theorem nuChiStep_ok {template comment mf : W} {mts : List Nat} {xt : W} (g : Nat) (s : St) {t : Njoy.Temp} (hc : Part comment []) (hcb : NoBrace comment)
    (ft : format (nuChiEnv o groups 22 g s.nlast t) template = .ok xt)
    (hx : Part (addFlux flux xt) [.errorr [num 20, num 22, num g, num (s.nlast + 1)] (num o.mat) (num o.iwt) t.str mf groups o.weight])
    (hxb : NoBrace (addFlux flux xt)) :
    ∃ s', nuChiStep o groups flux comment template mts 22 g t s = .ok s' ∧ Adds s s' (nuRuns o groups mf (plotCases (num o.mat) mts) g s.nlast t.str) 4 := by
  have hlib := part_covrLib (plain_natStr (s.nlast + 1)) (plain_natStr (s.nlast + 4)) (natStr_ne_zero _) (plain_natStr o.mat)
  have hplot := part_covrPlot (plain_natStr (s.nlast + 1)) (plain_natStr (s.nlast + 2)) (plain_natStr o.mat) mts
  have hview := part_viewr (plain_natStr (s.nlast + 2)) (plain_natStr (s.nlast + 3))
  have blib := noBrace_xCovrLib (noBrace_natStr (s.nlast + 1)) (noBrace_natStr (s.nlast + 4)) (noBrace_natStr o.mat)
  have bplot := noBrace_xCovrPlot (noBrace_natStr (s.nlast + 1)) (noBrace_natStr (s.nlast + 2)) (noBrace_natStr o.mat) mts
  have bview := noBrace_xViewr (noBrace_natStr (s.nlast + 2)) (noBrace_natStr (s.nlast + 3))
  have f3 : format (nuChiEnv o groups 22 g s.nlast t) tCovrLib = .ok _ := format_xCovrLib rfl rfl rfl
  have f4 : (do let d ← tCovrPlot mts; format (nuChiEnv o groups 22 g s.nlast t) d) = .ok _ := format_xCovrPlot rfl rfl rfl mts
  have f5 : format (nuChiEnv o groups 22 g s.nlast t) tViewr = .ok _ := format_xViewr rfl rfl
  have e : nuChiStep o groups flux comment template mts 22 g t s = (do
      let a ← format (nuChiEnv o groups 22 g s.nlast t) template
      let b ← (do let d ← tCovrPlot mts; format (nuChiEnv o groups 22 g s.nlast t) d)
      let c ← format (nuChiEnv o groups 22 g s.nlast t) tViewr
      let d ← format (nuChiEnv o groups 22 g s.nlast t) tCovrLib
      pure ⟨s.commands ++ comment ++ addFlux flux a ++ b ++ c ++ d, s.nlast + 4⟩) := by
    unfold nuChiStep
    simp only [bind_assoc]
  rw [e, ft, f3, f4, f5]
  refine ⟨_, rfl, comment ++ (addFlux flux xt ++ (_ ++ (_ ++ _))), by simp only [List.append_assoc], noBrace_append hcb (noBrace_append hxb (noBrace_append bplot (noBrace_append bview blib))), ?_, rfl⟩
  simpa [nuRuns] using hc.append (hx.append (hplot.append (hview.append hlib)))

theorem ok_bind {α β : Type} (x : α) (f : α → Except PyErr β) : (Except.ok x >>= f) = f x := rfl

/-- The weights for which nu-bar and chi can be processed: GROUPR for them gets no weight function. -/
def NuChiOk (o : Opts) : Prop := o.iwt ≠ 4 ∧ (o.iwt = 1 → o.nu = false ∧ o.chi = false)

theorem errorrPart_ok (hw : o.Writable) (he : o.errorr = true) (hn : NuChiOk o) (s : St) (hs : s.nlast = 22) :
    ∃ s', errorrPart o (some 22) s = .ok s' ∧
      Adds s s' ((o.temps.zipIdx.flatMap fun ti => covRuns o (o.groups.getD []) (22 + o.width * ti.2) ti.1) ++ nuChiRuns o (o.groups.getD []) (22 + o.width * o.temps.length))
        (o.afterCov - 22) := by
  obtain ⟨groups, hgs, hne, hg⟩ := hw.groups he
  have htn := hw.temps
  have ht := hw.temp
  obtain ⟨flux, hfl, hf⟩ : ∃ flux, fluxOf o = .ok flux ∧ FluxOk o flux := by
    unfold fluxOf
    by_cases h1 : o.iwt = 1
    · obtain ⟨v, hv, hvn, hp⟩ := hw.flux he h1
      exact ⟨_, by rw [if_pos h1, hv], .user v h1 hv hvn hp⟩
    · exact ⟨_, by rw [if_neg h1], .none h1 hn.1⟩
  obtain ⟨s1, h1, ha1⟩ := temps_ok hf hg hne ht htn s o.temps (fun t h => h) 0 (by simpa using hs)
  have hn1 : s1.nlast = 22 + o.width * o.temps.length := by obtain ⟨x, _, _, _, h⟩ := ha1; rw [h, hs]
  obtain ⟨t, htl⟩ : ∃ t, o.temps.getLast? = some t := ⟨_, List.getLast?_eq_some_getLast htn⟩
  have htm : t ∈ o.temps := List.mem_of_getLast? htl
  have e : errorrPart o (some 22) s = nuChiPart o groups flux 22 s1 := by
    simp only [errorrPart, hgs, hfl, ok_bind, h1]
  rw [e, hgs, Option.getD_some]
  unfold nuChiPart
  by_cases hnc : o.nu = false ∧ o.chi = false
  · refine ⟨s1, by rw [if_pos hnc], ?_⟩
    rw [show nuChiRuns o groups (22 + o.width * o.temps.length) = [] by simp [nuChiRuns, hnc],
      show o.afterCov - 22 = o.width * o.temps.length by simp [Opts.afterCov, he, hnc.1, hnc.2], List.append_nil]
    exact ha1
  · have h1' : o.iwt ≠ 1 := fun h => hnc (hn.2 h)
    obtain ⟨s2, h2, ha2⟩ := nuChiGroupr_ok h1' hn.1 hg hne ht htn s1
    have hn2 : s2.nlast = s1.nlast + 1 := by obtain ⟨x, _, _, _, h⟩ := ha2; rw [h]
    obtain ⟨s3, h3, ha3⟩ : ∃ s3, nuPart o groups flux 22 (s1.nlast + 1) t s2 = .ok s3 ∧
        Adds s2 s3 (if o.nu then nuRuns o groups c!"31" [[num o.mat, c!"452", num o.mat, c!"452"]] (s1.nlast + 1) s2.nlast t.str else []) (if o.nu then 4 else 0) := by
      by_cases hnu : o.nu = true
      · simp only [nuPart, hnu, if_true]
        exact nuChiStep_ok (mts := [452]) (s1.nlast + 1) s2 Part.nil (by intro c hc; simp at hc) (format_xErrorr31 rfl rfl rfl rfl rfl rfl rfl rfl rfl)
          (errorr31_ok hf hg hne (ht t htm)) (noBrace_weight hf (noBrace_xErrorr31 (noBrace_natStr _) (noBrace_natStr _) (noBrace_natStr _) (noBrace_natStr _) (noBrace_natStr _) (noBrace_natStr _)
            (ht t htm).noBrace (noBrace_natStr _) (noBrace_column hg)))
      · simp only [nuPart, hnu, if_false]
        exact ⟨s2, rfl, Adds.refl s2⟩
    have hn3 : s3.nlast = s2.nlast + (if o.nu then 4 else 0) := by obtain ⟨x, _, _, _, h⟩ := ha3; rw [h]
    obtain ⟨s4, h4, ha4⟩ : ∃ s4, chiPart o groups flux 22 (s1.nlast + 1) t s3 = .ok s4 ∧
        Adds s3 s4 (if o.chi then nuRuns o groups c!"35" [[num o.mat]] (s1.nlast + 1) s3.nlast t.str else []) (if o.chi then 4 else 0) := by
      by_cases hchi : o.chi = true
      · simp only [chiPart, hchi, if_true]
        exact nuChiStep_ok (mts := []) (s1.nlast + 1) s3 (fun r xs hr => Reads.comment rfl hr) (by decide +kernel) (format_xErrorr35 rfl rfl rfl rfl rfl rfl rfl rfl rfl)
          (errorr35_ok hf hg hne (ht t htm)) (noBrace_weight hf (noBrace_xErrorr35 (noBrace_natStr _) (noBrace_natStr _) (noBrace_natStr _) (noBrace_natStr _) (noBrace_natStr _) (noBrace_natStr _)
            (ht t htm).noBrace (noBrace_natStr _) (noBrace_column hg)))
      · simp only [chiPart, hchi, if_false]
        exact ⟨s3, rfl, Adds.refl s3⟩
    refine ⟨s4, ?_, ?_⟩
    · simp only [if_neg hnc, h2, ok_bind, htl, h3, h4]
    · have := ha1.trans (ha2.trans (ha3.trans ha4))
      rw [hn3, hn2, hn1] at this
      rw [show o.afterCov - 22 = o.width * o.temps.length + (1 + ((if o.nu then 4 else 0) + (if o.chi then 4 else 0))) by simp [Opts.afterCov, he, hnc]; omega]
      convert this using 2
      simp only [nuChiRuns, hnc, if_false, htl, Option.map_some, Option.getD_some, List.singleton_append]
      congr 2
      by_cases hnu : o.nu = true
      · simp [hnu]
      · simp [hnu]

end ASAPy.Deck
