import Verif.NjoyTapes.Model

/-! # C53, C54, C68, C69: tapes and files of the covariance chain -/

namespace ASAPy.Njoy
open ASAPy.Dec

/-! ### Specification -/

/-- A sequence of modules is wired correctly, given the tapes available at its start: every module finds on the tapes it reads the kind of
data it needs, and writes only to tapes never used before. -/
def Wired : List (Nat × Kind) → List Mod → Prop
  | _, [] => True
  | avail, m :: ms =>
    (∀ r ∈ m.reads, r ∈ avail) ∧ (∀ w ∈ m.writes, w.1 ∉ avail.map Prod.fst) ∧ (m.writes.map Prod.fst).Nodup ∧
      Wired (avail ++ m.writes) ms

instance decWired : ∀ (a : List (Nat × Kind)) (ms : List Mod), Decidable (Wired a ms)
  | _, [] => isTrue trivial
  | a, m :: ms => by
    unfold Wired
    have := decWired (a ++ m.writes) ms
    infer_instance

/-- The tapes written by a sequence of modules. -/
def written (ms : List Mod) : List (Nat × Kind) := ms.flatMap Mod.writes

/-- The tapes holding covariances in BOXER format, in the order they are written. -/
def boxerTapes (ms : List Mod) : List (Nat × Kind) := (written ms).filter fun p => match p.2 with | .boxer _ => true | _ => false

/-! ### Lemmas -/

/-- The tape the ENDF file is copied to. -/
def inputs : List (Nat × Kind) := [(20, .endf)]

theorem wired_append (ms ms' : List Mod) : ∀ a, Wired a (ms ++ ms') ↔ Wired a ms ∧ Wired (a ++ written ms) ms' := by
  induction ms with
  | nil => intro a; simp [Wired, written]
  | cons m ms ih =>
    intro a
    simp only [List.cons_append, Wired, ih, written, List.flatMap_cons, List.append_assoc]
    tauto

/-- Correctly wired so far, and all tapes are at most `n`. -/
def Good (ms : List Mod) (n : Nat) : Prop := Wired inputs ms ∧ ∀ p ∈ inputs ++ written ms, p.1 ≤ n

theorem good_snoc {ms : List Mod} {n : Nat} (h : Good ms n) {m : Mod} {k : Kind} (hw : m.writes = [(n + 1, k)])
    (hr : ∀ r ∈ m.reads, r ∈ inputs ++ written ms) : Good (ms ++ [m]) (n + 1) := by
  constructor
  · rw [wired_append]
    refine ⟨h.1, hr, ?_, by simp [hw], trivial⟩
    intro w hw'
    rw [hw, List.mem_singleton] at hw'
    subst hw'
    intro hc
    obtain ⟨p, hp, e⟩ := List.mem_map.mp hc
    have := h.2 p hp
    simp only at e
    omega
  · intro p hp
    simp only [written, List.flatMap_append, List.flatMap_cons, List.flatMap_nil, List.append_nil, hw] at hp
    rw [← List.append_assoc] at hp
    rcases List.mem_append.mp hp with hp | hp
    · exact Nat.le_succ_of_le (h.2 p hp)
    · rw [List.mem_singleton] at hp
      subst hp
      exact le_refl _

theorem written_snoc (ms : List Mod) (m : Mod) : written (ms ++ [m]) = written ms ++ m.writes := by simp [written]

theorem boxer_snoc (ms : List Mod) (m : Mod) : boxerTapes (ms ++ [m]) = boxerTapes ms ++ boxerTapes [m] := by
  simp [boxerTapes, written, List.filter_append]

theorem set_fresh {α : Type*} (d : List (Nat × α)) (k : Nat) (a : α) (h : ∀ k' ∈ Dict.keys d, k' < k) :
    Dict.set d k a = d ++ [(k, a)] := by
  induction d with
  | nil => rfl
  | cons e d ih =>
    obtain ⟨k', a'⟩ := e
    have : ¬ k' = k := by
      have := h k' (by simp [Dict.keys])
      omega
    simp only [Dict.set, if_neg this, ih fun k'' hk => h k'' (by simp only [Dict.keys, List.map_cons, List.mem_cons]; exact Or.inr hk),
      List.cons_append]

/-- A pair of entries of `tapeout`: covariance tape and plot. -/
abbrev Pr := (Nat × List Char) × (Nat × List Char)

def flat (ps : List Pr) : List (Nat × List Char) := ps.flatMap fun p => [p.1, p.2]

theorem everyOther_flat (ps : List Pr) : everyOther (flat ps) = ps.map Prod.fst := by
  induction ps with
  | nil => rfl
  | cons p ps ih =>
    simp only [flat, List.flatMap_cons, List.cons_append, List.nil_append, everyOther, List.map_cons]
    rw [← ih]
    rfl

/-- The invariant of the errorr part: `ps` are the pairs entered into `tapeout` so far, `mfs` the covariance files treated. -/
structure Inv (nb : Nat) (s : St) (ps : List Pr) (mfs : List Nat) : Prop where
  good : Good s.mods s.nlast
  broad : (nb, Kind.pendf) ∈ inputs ++ written s.mods
  out : s.out = flat ps
  keys : ∀ k ∈ Dict.keys s.out, k ≤ s.nlast
  boxer : boxerTapes s.mods = List.zipWith (fun p mf => (p.1.1, Kind.boxer mf)) ps mfs
  len : ps.length = mfs.length

theorem endf_mem (ms : List Mod) : (nendf, Kind.endf) ∈ inputs ++ written ms := by simp [inputs, nendf]

theorem inv_temp {nb : Nat} {s : St} {ps : List Pr} {mfs : List Nat} (h : Inv nb s ps mfs) (t : Temp) :
    ∃ a b, Inv nb (tempStep true nb s t) (ps ++ [((a, fname "covr" t ".txt"), (b, fname "viewr" t ".eps"))]) (mfs ++ [33]) := by
  obtain ⟨mods, n, out⟩ := s
  refine ⟨n + 3, n + 5, ?_⟩
  have hg := h.good
  have hb := h.broad
  simp only at hg hb
  have e : tempStep true nb ⟨mods, n, out⟩ t = ⟨((((mods ++ [groupr nb (n + 1)]) ++
      [⟨.errorr, [(nendf, .endf), (n + 1, .gendf)], [(n + 2, .errorr 33)]⟩]) ++ [covrLib 33 (n + 2) (n + 3)]) ++
      [covrPlot 33 (n + 2) (n + 4)]) ++ [viewr (n + 4) (n + 5)], n + 5,
      Dict.set (Dict.set out (n + 3) (fname "covr" t ".txt")) (n + 5) (fname "viewr" t ".eps")⟩ := by
    simp [tempStep]
  have hk := h.keys
  simp only at hk
  have hout : Dict.set (Dict.set out (n + 3) (fname "covr" t ".txt")) (n + 5) (fname "viewr" t ".eps") =
      out ++ [(n + 3, fname "covr" t ".txt"), (n + 5, fname "viewr" t ".eps")] := by
    rw [set_fresh out _ _ (fun k hk' => by have := hk k hk'; omega), set_fresh]
    · simp
    · intro k hk'
      simp only [Dict.keys, List.map_append, List.map_cons, List.map_nil, List.mem_append, List.mem_singleton] at hk'
      rcases hk' with hk' | rfl
      · have := hk k hk'; omega
      · omega
  rw [e, hout]
  constructor
  · refine good_snoc (good_snoc (good_snoc (good_snoc (good_snoc hg (k := .gendf) rfl ?_) (k := .errorr 33) rfl ?_) (k := .boxer 33) rfl ?_)
      (k := .plot) rfl ?_) (k := .eps) rfl ?_
    all_goals
      intro r hr
      simp only [groupr, covrLib, covrPlot, viewr, List.mem_cons, List.not_mem_nil, or_false] at hr
      rcases hr with rfl | rfl <;> simp_all [written, inputs, nendf, groupr, covrLib, covrPlot, viewr]
  · simp only [written_snoc]
    simp only [List.mem_append] at hb ⊢
    tauto
  · have := h.out
    simp only at this
    rw [this]
    simp [flat]
  · intro k hk'
    simp only [Dict.keys, List.map_append, List.map_cons, List.map_nil, List.mem_append, List.mem_cons, List.not_mem_nil, or_false] at hk'
    show k ≤ n + 5
    rcases hk' with hk' | rfl | rfl
    · have := hk k hk'; omega
    · omega
    · omega
  · simp only [boxer_snoc]
    have hbx := h.boxer
    simp only at hbx
    rw [hbx, List.zipWith_append h.len]
    simp [boxerTapes, written, groupr, covrLib, covrPlot, viewr]
  · simp [h.len]

theorem inv_temps {nb : Nat} (ts : List Temp) : ∀ {s : St} {ps : List Pr} {mfs : List Nat}, Inv nb s ps mfs →
    ∃ qs, Inv nb (ts.foldl (tempStep true nb) s) (ps ++ qs) (mfs ++ ts.map fun _ => 33) ∧
      qs.map (fun p => p.1.2) = ts.map fun t => fname "covr" t ".txt" := by
  induction ts with
  | nil => intro s ps mfs h; exact ⟨[], by simpa using h, rfl⟩
  | cons t ts ih =>
    intro s ps mfs h
    obtain ⟨a, b, h1⟩ := inv_temp h t
    obtain ⟨qs, h2, h3⟩ := ih h1
    exact ⟨((a, fname "covr" t ".txt"), (b, fname "viewr" t ".eps")) :: qs, by simpa using h2, by simp [h3]⟩

theorem inv_nuChiGroupr {nb : Nat} {s : St} {ps : List Pr} {mfs : List Nat} (h : Inv nb s ps mfs) :
    Inv nb (nuChiGroupr nb s) ps mfs ∧ (s.nlast + 1, Kind.gendf) ∈ inputs ++ written (nuChiGroupr nb s).mods := by
  have hb := h.broad
  refine ⟨⟨?_, ?_, h.out, ?_, ?_, h.len⟩, ?_⟩
  · refine good_snoc h.good (k := .gendf) rfl ?_
    intro r hr
    simp only [groupr, List.mem_cons, List.not_mem_nil, or_false] at hr
    rcases hr with rfl | rfl
    · exact endf_mem _
    · exact hb
  · simp only [nuChiGroupr, written_snoc]
    simp only [List.mem_append] at hb ⊢
    tauto
  · intro k hk
    exact Nat.le_succ_of_le (h.keys k hk)
  · simp only [nuChiGroupr, boxer_snoc]
    rw [h.boxer]
    simp [boxerTapes, written, groupr]
  · simp [nuChiGroupr, written_snoc, groupr]

theorem inv_nuChi {nb g : Nat} {s : St} {ps : List Pr} {mfs : List Nat} (h : Inv nb s ps mfs)
    (hgr : (g, Kind.gendf) ∈ inputs ++ written s.mods) (mf : Nat) (l lp : String) (t : Temp) :
    (∃ a b, Inv nb (nuChiStep mf l lp nb g t s) (ps ++ [((a, fname l t ".txt"), (b, fname lp t ".eps"))]) (mfs ++ [mf])) ∧
    (g, Kind.gendf) ∈ inputs ++ written (nuChiStep mf l lp nb g t s).mods := by
  obtain ⟨mods, n, out⟩ := s
  have hg := h.good
  have hb := h.broad
  simp only at hg hb hgr
  have e : nuChiStep mf l lp nb g t ⟨mods, n, out⟩ = ⟨(((mods ++
      [⟨.errorr, [(nendf, .endf), (nb, .pendf), (g, .gendf)], [(n + 1, .errorr mf)]⟩]) ++ [covrPlot mf (n + 1) (n + 2)]) ++
      [viewr (n + 2) (n + 3)]) ++ [covrLib mf (n + 1) (n + 4)], n + 4,
      Dict.set (Dict.set out (n + 4) (fname l t ".txt")) (n + 3) (fname lp t ".eps")⟩ := by
    simp [nuChiStep]
  have hk := h.keys
  simp only at hk
  have hset : ∀ (d : List (Nat × List Char)) (k k' : Nat) (a a' : List Char), (∀ x ∈ Dict.keys d, x < k') → k ≠ k' →
      Dict.set (d ++ [(k, a)]) k' a' = d ++ [(k, a), (k', a')] := by
    intro d k k' a a' hd hne
    induction d with
    | nil => simp [Dict.set, hne]
    | cons e d ih =>
      obtain ⟨k0, a0⟩ := e
      have : ¬ k0 = k' := by
        have := hd k0 (by simp [Dict.keys])
        omega
      simp only [List.cons_append, Dict.set, if_neg this,
        ih fun x hx => hd x (by simp only [Dict.keys, List.map_cons, List.mem_cons]; exact Or.inr hx)]
  have hout : Dict.set (Dict.set out (n + 4) (fname l t ".txt")) (n + 3) (fname lp t ".eps") =
      out ++ [(n + 4, fname l t ".txt"), (n + 3, fname lp t ".eps")] := by
    rw [set_fresh out _ _ (fun k hk' => by have := hk k hk'; omega), hset _ _ _ _ _ _ (by omega)]
    intro k hk'
    have := hk k hk'
    omega
  rw [e, hout]
  refine ⟨⟨n + 4, n + 3, ⟨?_, ?_, ?_, ?_, ?_, by simp [h.len]⟩⟩, ?_⟩
  · refine good_snoc (good_snoc (good_snoc (good_snoc hg (k := .errorr mf) rfl ?_) (k := .plot) rfl ?_) (k := .eps) rfl ?_)
      (k := .boxer mf) rfl ?_
    all_goals
      intro r hr
      simp only [covrLib, covrPlot, viewr, List.mem_cons, List.not_mem_nil, or_false] at hr
      try rcases hr with rfl | rfl | rfl
    all_goals simp_all [written, inputs, nendf, covrLib, covrPlot, viewr]
  · simp only [written_snoc]
    simp only [List.mem_append] at hb ⊢
    tauto
  · have := h.out
    simp only at this
    rw [this]
    simp [flat]
  · intro k hk'
    simp only [Dict.keys, List.map_append, List.map_cons, List.map_nil, List.mem_append, List.mem_cons, List.not_mem_nil, or_false] at hk'
    show k ≤ n + 4
    rcases hk' with hk' | rfl | rfl
    · have := hk k hk'; omega
    · omega
    · omega
  · simp only [boxer_snoc]
    have hbx := h.boxer
    simp only at hbx
    rw [hbx, List.zipWith_append h.len]
    simp [boxerTapes, written, covrLib, covrPlot, viewr]
  · simp only [written_snoc]
    simp only [List.mem_append] at hgr ⊢
    tauto

/-- The state after RECONR and BROADR. -/
def start : St := ⟨[⟨.reconr, [(20, .endf)], [(21, .pendf)]⟩, ⟨.broadr, [(20, .endf), (21, .pendf)], [(22, .pendf)]⟩], 22, []⟩

theorem inv_start : Inv 22 start [] [] := by
  refine ⟨⟨by decide, by decide⟩, by decide, rfl, by simp [start, Dict.keys], by decide, rfl⟩

/-- The covariance files treated, in order, and the names given to the tapes. -/
def mfsOf (temps : List Temp) (nu chi : Bool) : List Nat :=
  temps.map (fun _ => 33) ++ (if nu then [31] else []) ++ (if chi then [35] else [])

def namesOf (temps : List Temp) (nu chi : Bool) : List (List Char) :=
  temps.map (fun t => fname "covr" t ".txt") ++
    (if nu then temps.getLast?.toList.map fun t => fname "covr_nu" t ".txt" else []) ++
    (if chi then temps.getLast?.toList.map fun t => fname "covr_chi" t ".txt" else [])

theorem errorrPart_inv (o : Opts) (hgr : o.groups = true) (hf : o.fluxOk = true) (hp : o.plotMts = true) (temps : List Temp)
    (ht : temps ≠ []) :
    ∃ s ps, errorrPart o (some 22) temps start = .ok s ∧ Inv 22 s ps (mfsOf temps o.nu o.chi) ∧
      ps.map (fun p => p.1.2) = namesOf temps o.nu o.chi := by
  obtain ⟨qs, h1, h1n⟩ := inv_temps temps inv_start
  rw [List.nil_append, List.nil_append] at h1
  have hlast : temps.getLast? = some (temps.getLast ht) := List.getLast?_eq_some_getLast ht
  unfold errorrPart
  simp only [hgr, hf, hp, Bool.true_eq_false, if_false]
  by_cases hnc : o.nu = false ∧ o.chi = false
  · rw [if_pos hnc]
    exact ⟨_, qs, rfl, by simpa [mfsOf, hnc.1, hnc.2] using h1, by simp [namesOf, hnc.1, hnc.2, h1n]⟩
  · rw [if_neg hnc, hlast]
    obtain ⟨h2, h2g⟩ := inv_nuChiGroupr h1
    obtain ⟨⟨a, b, h3⟩, h3g⟩ := inv_nuChi h2 h2g 31 "covr_nu" "viewr_nu" (temps.getLast ht)
    obtain ⟨⟨a', b', h4⟩, _⟩ := inv_nuChi h3 h3g 35 "covr_chi" "viewr_chi" (temps.getLast ht)
    obtain ⟨⟨a'', b'', h5⟩, _⟩ := inv_nuChi h2 h2g 35 "covr_chi" "viewr_chi" (temps.getLast ht)
    rcases hnu : o.nu with _ | _ <;> rcases hchi : o.chi with _ | _
    · exact absurd ⟨hnu, hchi⟩ hnc
    · exact ⟨_, _, rfl, by simpa [mfsOf] using h5, by simp [namesOf, h1n, hlast]⟩
    · exact ⟨_, _, rfl, by simpa [mfsOf] using h3, by simp [namesOf, h1n, hlast]⟩
    · exact ⟨_, _, rfl, by simpa [mfsOf] using h4, by simp [namesOf, h1n, hlast]⟩

/-- MTs handed to NJOY, and to boxer2mat. -/
def njoyMts (mts : List Nat) (chi : Bool) : List Nat := if chi = true ∧ 18 ∉ mts then mts ++ [18] else mts
def boxMts (mts : List Nat) (nu chi : Bool) : List Nat := njoyMts mts chi ++ (if nu then [452] else []) ++ (if chi then [1018] else [])

theorem chain_inv (mts : List Nat) (temps : List Temp) (nu chi : Bool) (hm : mts ≠ [] ∨ chi = true) (ht : temps ≠ []) :
    ∃ c n out ps, runCoverChain mts temps nu chi = .ok c ∧ Inv 22 ⟨c.mods, n, out⟩ ps (mfsOf temps nu chi) ∧
      ps.map (fun p => p.1.2) = namesOf temps nu chi ∧ c.coverTapes = ps.map Prod.fst ∧
      c.files = matrixFiles c.coverTapes (boxMts mts nu chi) := by
  have hne : njoyMts mts chi ≠ [] := by
    unfold njoyMts
    split
    · simp
    · rename_i h
      rcases hm with h' | h'
      · exact h'
      · intro e
        subst e
        simp [h'] at h
  obtain ⟨s, ps, h1, h2, h3⟩ := errorrPart_inv
    { broadr := true, heatr := false, purr := false, acer := false, errorr := true, groups := true, plotMts := decide (njoyMts mts chi ≠ []), chi := chi, nu := nu }
    rfl rfl (by simpa using hne) temps ht
  obtain ⟨mods, n, out⟩ := s
  refine ⟨⟨mods, everyOther out, matrixFiles (everyOther out) (boxMts mts nu chi)⟩, n, out, ps, ?_, h2, h3, ?_, rfl⟩
  · unfold runCoverChain makeNjoyRun
    simp only [if_true]
    have h1' := h1
    simp only [start] at h1'
    rw [njoyMts] at h1'
    simp only [nendf, npendf, List.cons_append, List.nil_append]
    rw [h1']
    rfl
  · have := h2.out
    simp only at this
    show everyOther out = _
    rw [this, everyOther_flat]

theorem wired_nodup (ms : List Mod) : ∀ a, Wired a ms → ((written ms).map Prod.fst).Nodup ∧
    ∀ w ∈ written ms, w.1 ∉ a.map Prod.fst := by
  induction ms with
  | nil => intro a _; simp [written]
  | cons m ms ih =>
    intro a ⟨_, h2, h3, h4⟩
    obtain ⟨i1, i2⟩ := ih _ h4
    constructor
    · simp only [written, List.flatMap_cons, List.map_append]
      refine List.nodup_append.mpr ⟨h3, i1, ?_⟩
      intro x hx y hy e
      subst e
      obtain ⟨w, hw, rfl⟩ := List.mem_map.mp hy
      refine i2 w hw ?_
      simp only [List.map_append, List.mem_append]
      exact Or.inr hx
    · intro w hw
      simp only [written, List.flatMap_cons, List.mem_append] at hw
      rcases hw with hw | hw
      · exact h2 w hw
      · intro hc
        refine i2 w hw ?_
        simp only [List.map_append, List.mem_append]
        exact Or.inl hc

/-! ### C53 -/

/-- C53: for every non-empty list of reactions, every non-empty list of temperatures and every choice of nu and chi, the chain builds an NJOY
run that is wired correctly from the ENDF tape 20 on, no tape number is written twice, and the tapes taken as covariance tapes (every other
entry of the list of saved tapes) are exactly the tapes that NJOY writes in BOXER format: one with the cross section covariances (MF 33) for
each temperature, then those of nu-bar (MF 31) and of chi (MF 35), named after the temperatures. -/
theorem C53_cover_tapes (mts : List Nat) (temps : List Temp) (nu chi : Bool) (hm : mts ≠ []) (ht : temps ≠ []) :
    ∃ c, runCoverChain mts temps nu chi = .ok c ∧ Wired [(20, .endf)] c.mods ∧ (20 :: (written c.mods).map Prod.fst).Nodup ∧
      c.coverTapes.map Prod.fst = (boxerTapes c.mods).map Prod.fst ∧
      (boxerTapes c.mods).map Prod.snd =
        (temps.map (fun _ => 33) ++ (if nu then [31] else []) ++ (if chi then [35] else [])).map Kind.boxer ∧
      c.coverTapes.map Prod.snd = temps.map (fun t => "covr_".toList ++ t.str ++ ".txt".toList) ++
        (if nu then ["covr_nu_".toList ++ (temps.getLast ht).str ++ ".txt".toList] else []) ++
        (if chi then ["covr_chi_".toList ++ (temps.getLast ht).str ++ ".txt".toList] else []) := by
  obtain ⟨c, n, out, ps, h1, h2, h3, h4, -⟩ := chain_inv mts temps nu chi (Or.inl hm) ht
  have hw := h2.good.1
  have hl := h2.len
  have hb := h2.boxer
  simp only at hw hb
  refine ⟨c, h1, hw, ?_, ?_, ?_, ?_⟩
  · obtain ⟨w1, w2⟩ := wired_nodup _ _ hw
    refine List.nodup_cons.mpr ⟨?_, w1⟩
    intro hc
    obtain ⟨w, hw', e⟩ := List.mem_map.mp hc
    exact w2 w hw' (by simp [inputs, e])
  · rw [h4, hb, List.map_zipWith, List.map_map]
    generalize mfsOf temps nu chi = mfs at hl
    clear hb h4 h3 h2
    induction ps generalizing mfs with
    | nil => simp
    | cons p ps ih =>
      cases mfs with
      | nil => simp at hl
      | cons m mfs => simp [ih mfs (by simpa using hl)]
  · rw [hb, List.map_zipWith]
    show _ = (mfsOf temps nu chi).map Kind.boxer
    generalize mfsOf temps nu chi = mfs at hl
    clear hb h4 h3 h2
    induction ps generalizing mfs with
    | nil =>
      cases mfs with
      | nil => rfl
      | cons m mfs => simp at hl
    | cons p ps ih =>
      cases mfs with
      | nil => simp at hl
      | cons m mfs => simp [ih mfs (by simpa using hl)]
  · rw [h4, List.map_map]
    show ps.map (fun p => p.1.2) = _
    rw [h3]
    have hlast : temps.getLast? = some (temps.getLast ht) := List.getLast?_eq_some_getLast ht
    simp only [namesOf, hlast, Option.toList_some, List.map_cons, List.map_nil]
    rfl

example : (([2, 18, 102] : List Nat) ≠ []) ∧ ([⟨"293.6".toList, "293.6".toList⟩, ⟨"600".toList, "600.0".toList⟩] : List Temp) ≠ [] := by
  decide

/-- C53 needs a reaction: without any (and without chi), no plots are made, and every second covariance tape is left out. -/
theorem C53_no_reactions_refuted :
    ∃ c, runCoverChain [] [⟨"300".toList, "300.0".toList⟩, ⟨"600".toList, "600.0".toList⟩] false false = .ok c ∧
      c.coverTapes.map Prod.fst = [25] ∧ (boxerTapes c.mods).map Prod.fst = [25, 28] := by
  refine ⟨_, rfl, ?_, ?_⟩ <;> decide

/-! ### C54 -/

theorem natStr_suffix_inj {a b : List Char} {m n : Nat} (h : a ++ '_' :: natStr m ++ "_matrix.txt".toList =
    b ++ '_' :: natStr n ++ "_matrix.txt".toList) : a = b ∧ m = n := by
  have h := List.append_cancel_right h
  have key : ∀ (x y a b : List Char), (∀ c ∈ x, c ≠ '_') → (∀ c ∈ y, c ≠ '_') → x ++ '_' :: a = y ++ '_' :: b → x = y ∧ a = b := by
    intro x
    induction x with
    | nil =>
      intro y a b _ hy h
      cases y with
      | nil => simpa using h
      | cons c y =>
        simp only [List.nil_append, List.cons_append, List.cons.injEq] at h
        exact absurd h.1.symm (hy c (by simp))
    | cons c x ih =>
      intro y a b hx hy h
      cases y with
      | nil =>
        simp only [List.nil_append, List.cons_append, List.cons.injEq] at h
        exact absurd h.1 (hx c (by simp))
      | cons d y =>
        simp only [List.cons_append, List.cons.injEq] at h
        obtain ⟨e1, e2⟩ := ih y a b (fun z hz => hx z (by simp [hz])) (fun z hz => hy z (by simp [hz])) h.2
        exact ⟨by rw [h.1, e1], e2⟩
  have hr := congrArg List.reverse h
  simp only [List.reverse_append, List.reverse_cons, List.append_assoc, List.singleton_append] at hr
  have hd : ∀ k, ∀ c ∈ (natStr k).reverse, c ≠ '_' := by
    intro k c hc e
    have := natStr_digits k c (List.mem_reverse.mp hc)
    subst e
    exact absurd this (by decide)
  obtain ⟨e1, e2⟩ := key _ _ _ _ (hd m) (hd n) hr
  exact ⟨List.reverse_injective e2, natStr_injective (List.reverse_injective e1)⟩

theorem zip_mem {nm : List Char} {mf : Nat} : ∀ (ps : List Pr) (mfs : List Nat),
    (nm, mf) ∈ List.zip (ps.map fun p => p.1.2) mfs →
    ∃ tape, (tape, nm) ∈ ps.map Prod.fst ∧ (tape, Kind.boxer mf) ∈ List.zipWith (fun p mf => (p.1.1, Kind.boxer mf)) ps mfs := by
  intro ps
  induction ps with
  | nil => intro mfs h; simp at h
  | cons p ps ih =>
    intro mfs h
    cases mfs with
    | nil => simp at h
    | cons m mfs =>
      simp only [List.map_cons, List.zip_cons_cons, List.mem_cons, Prod.mk.injEq] at h
      rcases h with ⟨rfl, rfl⟩ | h
      · exact ⟨p.1.1, by simp, by simp⟩
      · obtain ⟨tp, t1, t2⟩ := ih mfs h
        exact ⟨tp, by simp only [List.map_cons, List.mem_cons]; exact Or.inr t1, by
          simp only [List.zipWith_cons_cons, List.mem_cons]; exact Or.inr t2⟩

theorem zip_names (temps : List Temp) (nu chi : Bool) (t : Temp) (ht : temps.getLast? = some t) :
    List.zip (namesOf temps nu chi) (mfsOf temps nu chi) = temps.map (fun t => (fname "covr" t ".txt", 33)) ++
      (if nu then [(fname "covr_nu" t ".txt", 31)] else []) ++ (if chi then [(fname "covr_chi" t ".txt", 35)] else []) := by
  have h0 : ∀ l : List Temp, List.zip (l.map fun t => fname "covr" t ".txt") (l.map fun _ => 33) =
      l.map (fun t => (fname "covr" t ".txt", 33)) := by
    intro l
    induction l with
    | nil => rfl
    | cons a l ih => simp only [List.map_cons, List.zip_cons_cons, ih]
  unfold namesOf mfsOf
  rw [List.append_assoc, List.append_assoc, List.zip_append (by simp), h0, List.append_assoc]
  congr 1
  rw [ht]
  rcases nu with _ | _ <;> rcases chi with _ | _ <;> simp

/-- C54 (files exist): for every reaction (other than 1018, the number the code gives to chi) and every temperature, the chain writes the matrix
file whose name is made of `covr_`, the temperature and the MT, and has boxer2mat take that MT from a tape with cross section covariances. With nu
(chi), the file for MT 452 (1018) exists for the last temperature, made from MT 452 (18) of the tape with covariances of nu-bar (of the fission
spectrum). -/
theorem C54_written_partial (mts : List Nat) (temps : List Temp) (nu chi : Bool) (hm : mts ≠ []) (ht : temps ≠ []) :
    ∃ c, runCoverChain mts temps nu chi = .ok c ∧
      (∀ t ∈ temps, ∀ mt ∈ mts, mt ≠ 1018 → ∃ tape, (tape, .boxer 33) ∈ boxerTapes c.mods ∧
        ("covr_".toList ++ t.str ++ ".txt".toList ++ '_' :: natStr mt ++ "_matrix.txt".toList, tape, mt) ∈ c.files) ∧
      (nu = true → ∃ tape, (tape, .boxer 31) ∈ boxerTapes c.mods ∧
        ("covr_nu_".toList ++ (temps.getLast ht).str ++ ".txt_452_matrix.txt".toList, tape, 452) ∈ c.files) ∧
      (chi = true → ∃ tape, (tape, .boxer 35) ∈ boxerTapes c.mods ∧
        ("covr_chi_".toList ++ (temps.getLast ht).str ++ ".txt_1018_matrix.txt".toList, tape, 18) ∈ c.files) := by
  obtain ⟨c, n, out, ps, h1, h2, h3, h4, h5⟩ := chain_inv mts temps nu chi (Or.inl hm) ht
  have hlast : temps.getLast? = some (temps.getLast ht) := List.getLast?_eq_some_getLast ht
  have hz := zip_names temps nu chi _ hlast
  have hb := h2.boxer
  simp only at hb
  have hz' : ∀ nm mf, (nm, mf) ∈ List.zip (namesOf temps nu chi) (mfsOf temps nu chi) →
      ∃ tape, (tape, Kind.boxer mf) ∈ boxerTapes c.mods ∧ ∀ mt ∈ boxMts mts nu chi,
        (nm ++ '_' :: natStr mt ++ "_matrix.txt".toList, tape, if mt = 1018 then 18 else mt) ∈ c.files := by
    intro nm mf h
    rw [← h3] at h
    obtain ⟨tape, t1, t2⟩ := zip_mem _ _ h
    refine ⟨tape, by rw [hb]; exact t2, ?_⟩
    intro mt hmt
    rw [h5, h4]
    exact List.mem_flatMap.mpr ⟨_, t1, List.mem_map.mpr ⟨mt, hmt, rfl⟩⟩
  have hsub : ∀ mt ∈ mts, mt ∈ boxMts mts nu chi := by
    intro mt hmt
    unfold boxMts njoyMts
    split <;> simp [hmt]
  refine ⟨c, h1, ?_, ?_, ?_⟩
  · intro t htm mt hmt hne
    obtain ⟨tape, t1, t2⟩ := hz' (fname "covr" t ".txt") 33 (by
      rw [hz]
      simp only [List.mem_append]
      exact Or.inl (Or.inl (List.mem_map.mpr ⟨t, htm, rfl⟩)))
    have := t2 mt (hsub mt hmt)
    rw [if_neg hne] at this
    exact ⟨tape, t1, this⟩
  · intro hnu
    subst hnu
    obtain ⟨tape, t1, t2⟩ := hz' (fname "covr_nu" (temps.getLast ht) ".txt") 31 (by
      rw [hz]
      simp)
    have := t2 452 (by simp [boxMts])
    refine ⟨tape, t1, ?_⟩
    have e : natStr 452 = ['4', '5', '2'] := by decide +kernel
    rw [e] at this
    simpa [fname] using this
  · intro hchi
    subst hchi
    obtain ⟨tape, t1, t2⟩ := hz' (fname "covr_chi" (temps.getLast ht) ".txt") 35 (by
      rw [hz]
      simp)
    have := t2 1018 (by simp [boxMts])
    refine ⟨tape, t1, ?_⟩
    have e : natStr 1018 = ['1', '0', '1', '8'] := by decide +kernel
    rw [e] at this
    simpa [fname] using this

/-- C54 (files are found): with one temperature, as the command line program runs it, every file name it then asks for is the name of a file
written by the chain. -/
theorem C54_asked (mts : List Nat) (t : Temp) (nu chi : Bool) (hm : mts ≠ []) :
    ∃ c, runCoverChain mts [t] nu chi = .ok c ∧ ∀ a ∈ asked mts t nu chi, a.1 ∈ c.files.map Prod.fst := by
  obtain ⟨c, n, out, ps, h1, h2, h3, h4, h5⟩ := chain_inv mts [t] nu chi (Or.inl hm) (by simp)
  refine ⟨c, h1, ?_⟩
  have hn : c.coverTapes.map Prod.snd = namesOf [t] nu chi := by
    rw [h4, List.map_map]
    exact h3
  have hf : ∀ nm ∈ namesOf [t] nu chi, ∀ mt ∈ boxMts mts nu chi, nm ++ '_' :: natStr mt ++ "_matrix.txt".toList ∈ c.files.map Prod.fst := by
    intro nm hnm mt hmt
    rw [← hn] at hnm
    obtain ⟨ct, hct, rfl⟩ := List.mem_map.mp hnm
    rw [h5]
    exact List.mem_map.mpr ⟨_, List.mem_flatMap.mpr ⟨ct, hct, List.mem_map.mpr ⟨mt, hmt, rfl⟩⟩, rfl⟩
  intro a ha
  simp only [asked, List.mem_append] at ha
  rcases ha with (ha | ha) | ha
  · obtain ⟨mt, hmt, rfl⟩ := List.mem_map.mp ha
    have hmem : mt ∈ boxMts mts nu chi := by
      unfold boxMts njoyMts
      split <;> simp [hmt]
    simpa [fname] using hf (fname "covr" t ".txt") (by simp [namesOf]) mt hmem
  · rcases nu with _ | _
    · simp at ha
    · simp only [if_true, List.mem_singleton] at ha
      subst ha
      simpa [fname] using hf (fname "covr_nu" t ".txt") (by simp [namesOf]) 452 (by simp [boxMts])
  · rcases chi with _ | _
    · simp at ha
    · simp only [if_true, List.mem_singleton] at ha
      subst ha
      simpa [fname] using hf (fname "covr_chi" t ".txt") (by simp [namesOf]) 1018 (by simp [boxMts])

theorem names_nodup (temps : List Temp) (nu chi : Bool) (hd : (temps.map Temp.str).Nodup)
    (hs : ∀ t ∈ temps, ∃ c r, t.str = c :: r ∧ isDigit c = true) : (namesOf temps nu chi).Nodup := by
  have h0 : (temps.map fun t => fname "covr" t ".txt").Nodup := by
    have : (temps.map fun t => fname "covr" t ".txt") = (temps.map Temp.str).map fun s => "covr".toList ++ '_' :: s ++ ".txt".toList := by
      simp [fname]
    rw [this]
    refine List.Nodup.map ?_ hd
    intro a b h
    simpa using h
  have hne : ∀ t' ∈ temps, ∀ x : List Char, ∀ c, isDigit c = false → fname "covr" t' ".txt" ≠ "covr".toList ++ '_' :: (c :: x) := by
    intro t' ht' x c hc h
    obtain ⟨d, r, e, hd'⟩ := hs t' ht'
    simp only [fname, e] at h
    simp only [List.append_assoc, List.cons_append] at h
    have := List.append_cancel_left h
    simp only [List.cons.injEq, true_and] at this
    rw [this.1] at hd'
    rw [hd'] at hc
    exact absurd hc (by decide)
  unfold namesOf
  rcases hl : temps.getLast? with _ | t
  · simpa using h0
  · have hnu : ∀ t' ∈ temps, fname "covr" t' ".txt" ≠ fname "covr_nu" t ".txt" := fun t' ht' h =>
      hne t' ht' (['u', '_'] ++ t.str ++ ".txt".toList) 'n' (by decide) (by rw [h]; simp [fname])
    have hchi : ∀ t' ∈ temps, fname "covr" t' ".txt" ≠ fname "covr_chi" t ".txt" := fun t' ht' h =>
      hne t' ht' (['h', 'i', '_'] ++ t.str ++ ".txt".toList) 'c' (by decide) (by rw [h]; simp [fname])
    have hnc : fname "covr_nu" t ".txt" ≠ fname "covr_chi" t ".txt" := by simp [fname]
    rcases nu with _ | _ <;> rcases chi with _ | _ <;> simp only [if_true, Bool.false_eq_true, if_false, Option.toList_some, List.map_cons,
      List.map_nil, List.append_nil, List.append_assoc, List.cons_append, List.nil_append]
    · exact h0
    · refine List.nodup_append.mpr ⟨h0, by simp, ?_⟩
      intro a ha b hb e
      obtain ⟨t', ht', rfl⟩ := List.mem_map.mp ha
      simp only [List.mem_singleton] at hb
      exact hchi t' ht' (e.trans hb)
    · refine List.nodup_append.mpr ⟨h0, by simp, ?_⟩
      intro a ha b hb e
      obtain ⟨t', ht', rfl⟩ := List.mem_map.mp ha
      simp only [List.mem_singleton] at hb
      exact hnu t' ht' (e.trans hb)
    · refine List.nodup_append.mpr ⟨h0, by simp [hnc], ?_⟩
      intro a ha b hb e
      obtain ⟨t', ht', rfl⟩ := List.mem_map.mp ha
      simp only [List.mem_cons, List.not_mem_nil, or_false] at hb
      rcases hb with hb | hb
      · exact hnu t' ht' (e.trans hb)
      · exact hchi t' ht' (e.trans hb)

/-- C54 (no overwriting): for temperatures whose texts are different and start with a digit, two matrix files of the chain with the same name
come from the same tape and the same MT. -/
theorem C54_no_clash (mts : List Nat) (temps : List Temp) (nu chi : Bool) (hm : mts ≠ []) (ht : temps ≠ [])
    (hd : (temps.map Temp.str).Nodup) (hs : ∀ t ∈ temps, ∃ c r, t.str = c :: r ∧ isDigit c = true) :
    ∃ c, runCoverChain mts temps nu chi = .ok c ∧ ∀ f ∈ c.files, ∀ f' ∈ c.files, f.1 = f'.1 → f = f' := by
  obtain ⟨c, n, out, ps, h1, h2, h3, h4, h5⟩ := chain_inv mts temps nu chi (Or.inl hm) ht
  refine ⟨c, h1, ?_⟩
  have hn : (c.coverTapes.map Prod.snd).Nodup := by
    rw [h4, List.map_map]
    show (ps.map fun p => p.1.2).Nodup
    rw [h3]
    exact names_nodup temps nu chi hd hs
  intro f hf f' hf' e
  rw [h5] at hf hf'
  obtain ⟨a, ha, ha'⟩ := List.mem_flatMap.mp hf
  obtain ⟨b, hb, hb'⟩ := List.mem_flatMap.mp hf'
  obtain ⟨m, hm, rfl⟩ := List.mem_map.mp ha'
  obtain ⟨m', hm', rfl⟩ := List.mem_map.mp hb'
  obtain ⟨e1, e2⟩ := natStr_suffix_inj e
  subst e2
  have : a = b := List.inj_on_of_nodup_map hn ha hb e1
  rw [this]

example : let temps : List Temp := [⟨"293.6".toList, "293.6".toList⟩, ⟨"600".toList, "600.0".toList⟩]
    (temps.map Temp.str).Nodup ∧ ∀ t ∈ temps, ∃ c r, t.str = c :: r ∧ isDigit c = true := by
  refine ⟨by decide, ?_⟩
  intro t ht
  simp only [List.mem_cons, List.not_mem_nil, or_false] at ht
  rcases ht with rfl | rfl
  · exact ⟨'2', _, rfl, by decide⟩
  · exact ⟨'6', _, rfl, by decide⟩

/-- Beyond one temperature, only the reactions are complete: the file for nu-bar at the first of two temperatures is not written. -/
theorem C54_first_temperature_refuted :
    ∃ c, runCoverChain [18] [⟨"300".toList, "300.0".toList⟩, ⟨"600".toList, "600.0".toList⟩] true false = .ok c ∧
      "covr_nu_300.txt_452_matrix.txt".toList ∉ c.files.map Prod.fst ∧
      "covr_nu_600.txt_452_matrix.txt".toList ∈ c.files.map Prod.fst := by
  refine ⟨_, rfl, ?_, ?_⟩ <;> decide +kernel

/-! ### C68 -/

/-- Wired so far, with the broadened PENDF tape at hand. -/
def GB (nb : Nat) (s : St) : Prop := Good s.mods s.nlast ∧ (nb, Kind.pendf) ∈ inputs ++ written s.mods

theorem gb_add {nb : Nat} {ms : List Mod} {n : Nat} {o o' : List (Nat × List Char)} (h : GB nb ⟨ms, n, o⟩) {m : Mod} {k : Kind}
    (hw : m.writes = [(n + 1, k)]) (hr : ∀ r ∈ m.reads, r ∈ inputs ++ written ms) : GB nb ⟨ms ++ [m], n + 1, o'⟩ := by
  refine ⟨good_snoc h.1 hw hr, ?_⟩
  have := h.2
  simp only [written_snoc, List.mem_append] at this ⊢
  tauto

theorem gb_temp {nb : Nat} {s : St} (h : GB nb s) (p : Bool) (t : Temp) : GB nb (tempStep p nb s t) := by
  obtain ⟨mods, n, out⟩ := s
  have hb := h.2
  simp only at hb
  have e : (tempStep false nb ⟨mods, n, out⟩ t) = ⟨((mods ++ [groupr nb (n + 1)]) ++
      [⟨.errorr, [(nendf, .endf), (n + 1, .gendf)], [(n + 2, .errorr 33)]⟩]) ++ [covrLib 33 (n + 2) (n + 3)], n + 3,
      Dict.set out (n + 3) (fname "covr" t ".txt")⟩ := by simp [tempStep]
  have e' : ∃ o', (tempStep true nb ⟨mods, n, out⟩ t) = ⟨((tempStep false nb ⟨mods, n, out⟩ t).mods ++
      [covrPlot 33 (n + 2) (n + 4)]) ++ [viewr (n + 4) (n + 5)], n + 3 + 1 + 1, o'⟩ := ⟨_, by simp [tempStep]; rfl⟩
  have h0 : GB nb (tempStep false nb ⟨mods, n, out⟩ t) := by
    rw [e]
    refine gb_add (gb_add (gb_add (o' := out) h (k := .gendf) rfl ?_) (o' := out) (k := .errorr 33) rfl ?_) (k := .boxer 33) rfl ?_
    all_goals
      intro r hr
      simp only [groupr, covrLib, List.mem_cons, List.not_mem_nil, or_false] at hr
      rcases hr with rfl | rfl <;> simp_all [written, inputs, nendf, groupr, covrLib]
  rcases p with _ | _
  · exact h0
  · obtain ⟨o', e'⟩ := e'
    rw [e']
    rw [e] at h0 ⊢
    refine gb_add (gb_add (o' := o') h0 (k := .plot) rfl ?_) (k := .eps) rfl ?_
    all_goals
      intro r hr
      simp only [covrPlot, viewr, List.mem_cons, List.not_mem_nil, or_false] at hr
      subst hr
      simp [written, inputs, covrPlot]

theorem gb_nuChi {nb g : Nat} {s : St} (h : GB nb s) (hgr : (g, Kind.gendf) ∈ inputs ++ written s.mods) (mf : Nat) (l lp : String) (t : Temp) :
    GB nb (nuChiStep mf l lp nb g t s) ∧ (g, Kind.gendf) ∈ inputs ++ written (nuChiStep mf l lp nb g t s).mods := by
  obtain ⟨mods, n, out⟩ := s
  have hb := h.2
  simp only at hb hgr
  have e : nuChiStep mf l lp nb g t ⟨mods, n, out⟩ = ⟨(((mods ++
      [⟨.errorr, [(nendf, .endf), (nb, .pendf), (g, .gendf)], [(n + 1, .errorr mf)]⟩]) ++ [covrPlot mf (n + 1) (n + 2)]) ++
      [viewr (n + 2) (n + 3)]) ++ [covrLib mf (n + 1) (n + 4)], n + 4,
      Dict.set (Dict.set out (n + 4) (fname l t ".txt")) (n + 3) (fname lp t ".eps")⟩ := by
    simp [nuChiStep]
  rw [e]
  refine ⟨gb_add (gb_add (gb_add (gb_add (o' := out) h (k := .errorr mf) rfl ?_) (o' := out) (k := .plot) rfl ?_)
    (o' := out) (k := .eps) rfl ?_) (k := .boxer mf) rfl ?_, ?_⟩
  all_goals
    try intro r hr
    try simp only [covrLib, covrPlot, viewr, List.mem_cons, List.not_mem_nil, or_false] at hr
    try rcases hr with rfl | rfl | rfl
  all_goals simp_all [written, inputs, nendf, covrLib, covrPlot, viewr]

theorem gb_errorr {o : Opts} {nb : Nat} {temps : List Temp} {s s' : St} (h : GB nb s) (he : errorrPart o (some nb) temps s = .ok s') :
    GB nb s' := by
  have hf : ∀ (ts : List Temp) (s : St), GB nb s → GB nb (ts.foldl (tempStep o.plotMts nb) s) := by
    intro ts
    induction ts with
    | nil => intro s h; exact h
    | cons t ts ih => intro s h; exact ih _ (gb_temp h _ t)
  have h1 := hf temps s h
  unfold errorrPart at he
  split at he
  · exact absurd he (by simp)
  split at he
  · exact absurd he (by simp)
  simp only at he
  generalize hs1 : temps.foldl (tempStep o.plotMts nb) s = s1 at he h1
  obtain ⟨m1, n1, o1⟩ := s1
  split at he
  · simp only [Except.ok.injEq] at he
    rw [← he]
    exact h1
  · have h2 : GB nb (nuChiGroupr nb ⟨m1, n1, o1⟩) := by
      refine gb_add h1 (k := .gendf) rfl ?_
      intro r hr
      simp only [groupr, List.mem_cons, List.not_mem_nil, or_false] at hr
      rcases hr with rfl | rfl
      · exact endf_mem _
      · exact h1.2
    have hg : (n1 + 1, Kind.gendf) ∈ inputs ++ written (nuChiGroupr nb ⟨m1, n1, o1⟩).mods := by
      simp [nuChiGroupr, written, groupr]
    rcases hl : temps.getLast? with _ | t
    · rw [hl] at he
      exact absurd he (by simp)
    · rw [hl] at he
      simp only [Except.ok.injEq] at he
      rw [← he]
      rcases o.nu with _ | _ <;> rcases o.chi with _ | _
      · exact h2
      · exact (gb_nuChi h2 hg _ _ _ _).1
      · exact (gb_nuChi h2 hg _ _ _ _).1
      · obtain ⟨h3, hg3⟩ := gb_nuChi h2 hg 31 "covr_nu" "viewr_nu" t
        exact (gb_nuChi h3 hg3 _ _ _ _).1

theorem wired_acer (o : Opts) (nin : Nat) : ∀ (ts : List Temp) (i : Nat) (s : St), Good s.mods (nin + 2 * i) →
    (nin, Kind.pendf) ∈ inputs ++ written s.mods → Wired inputs (acerLoop o nin i ts s).mods := by
  intro ts
  induction ts with
  | nil => intro i s h _; exact h.1
  | cons t ts ih =>
    intro i s h hp
    rw [acerLoop]
    refine ih (i + 1) _ ⟨?_, ?_⟩ ?_
    · rw [wired_append]
      refine ⟨h.1, ?_, ?_, ?_, trivial⟩
      · intro r hr
        simp only [List.mem_cons, List.not_mem_nil, or_false] at hr
        rcases hr with rfl | rfl
        · exact endf_mem _
        · exact hp
      · intro w hw hc
        obtain ⟨p, hp', e⟩ := List.mem_map.mp hc
        have := h.2 p hp'
        simp only [List.mem_cons, List.not_mem_nil, or_false] at hw
        rcases hw with rfl | rfl <;> simp only at e <;> omega
      · simp
    · intro p hp'
      simp only [written_snoc] at hp'
      rw [← List.append_assoc] at hp'
      rcases List.mem_append.mp hp' with hp' | hp'
      · have := h.2 p hp'
        omega
      · simp only [List.mem_cons, List.not_mem_nil, or_false] at hp'
        rcases hp' with rfl | rfl <;> simp only <;> omega
    · simp only [written_snoc, List.mem_append] at hp ⊢
      tauto

/-- HEATR, PURR and ACER after the covariance part. -/
theorem wired_tail (o : Opts) (temps : List Temp) (nb : Nat) (s : St) (h : GB nb s)
    (hl : o.heatr = false → (o.purr = true ∨ o.acer = true) → (s.nlast, Kind.pendf) ∈ inputs ++ written s.mods) :
    let s1 : St := if o.heatr then ⟨s.mods ++ [⟨.heatr, [(nendf, .endf), (nb, .pendf)], [(s.nlast + 1, .pendf)]⟩], s.nlast + 1, s.out⟩ else s
    let s2 : St := if o.purr then ⟨s1.mods ++ [⟨.purr, [(nendf, .endf), (s1.nlast, .pendf)], [(s1.nlast + 1, .pendf)]⟩], s1.nlast + 1, s1.out⟩ else s1
    Wired inputs (if o.acer then acerLoop o s2.nlast 0 temps s2 else s2).mods := by
  intro s1 s2
  have h1 : GB nb s1 ∧ ((o.purr = true ∨ o.acer = true) → (s1.nlast, Kind.pendf) ∈ inputs ++ written s1.mods) := by
    rcases hh : o.heatr with _ | _
    · have : s1 = s := by simp [s1, hh]
      rw [this]
      exact ⟨h, hl hh⟩
    · have : s1 = ⟨s.mods ++ [⟨.heatr, [(nendf, .endf), (nb, .pendf)], [(s.nlast + 1, .pendf)]⟩], s.nlast + 1, s.out⟩ := by simp [s1, hh]
      rw [this]
      refine ⟨gb_add h (k := .pendf) rfl ?_, fun _ => by simp [written]⟩
      intro r hr
      simp only [List.mem_cons, List.not_mem_nil, or_false] at hr
      rcases hr with rfl | rfl
      · exact endf_mem _
      · exact h.2
  have h2 : GB nb s2 ∧ (o.acer = true → (s2.nlast, Kind.pendf) ∈ inputs ++ written s2.mods) := by
    rcases hh : o.purr with _ | _
    · have : s2 = s1 := by simp [s2, hh]
      rw [this]
      exact ⟨h1.1, fun ha => h1.2 (Or.inr ha)⟩
    · have : s2 = ⟨s1.mods ++ [⟨.purr, [(nendf, .endf), (s1.nlast, .pendf)], [(s1.nlast + 1, .pendf)]⟩], s1.nlast + 1, s1.out⟩ := by
        simp [s2, hh]
      rw [this]
      refine ⟨gb_add h1.1 (k := .pendf) rfl ?_, fun _ => by simp [written]⟩
      intro r hr
      simp only [List.mem_cons, List.not_mem_nil, or_false] at hr
      rcases hr with rfl | rfl
      · exact endf_mem _
      · exact h1.2 (Or.inl hh)
  rcases ha : o.acer with _ | _
  · exact h2.1.1.1
  · exact wired_acer o s2.nlast temps 0 s2 (by simpa using h2.1.1) (h2.2 ha)

/-- C68, the part that holds: whatever the switches, the temperatures and the names, a run that `make_njoy_run` builds is wired correctly from
the ENDF tape 20 on, provided that covariances are not asked for together with PURR or ACER but without HEATR. -/
theorem C68_wired_partial (o : Opts) (temps : List Temp) (mods : List Mod) (out : List (Nat × List Char))
    (h : makeNjoyRun o temps = .ok (mods, out)) (hc : o.errorr = true → o.heatr = false → o.purr = false ∧ o.acer = false) :
    Wired [(20, .endf)] mods := by
  show Wired inputs mods
  unfold makeNjoyRun at h
  rcases hb : o.broadr with _ | _
  · -- without BROADR nothing can read the broadened tape
    simp only [hb, Bool.false_eq_true, if_false] at h
    generalize hs0 : (⟨[⟨.reconr, [(nendf, .endf)], [(npendf, .pendf)]⟩], npendf,
      match o.pendf with | some f => [(npendf, f)] | none => []⟩ : St) = s0 at h
    have hm0 : s0.mods = [⟨.reconr, [(20, .endf)], [(21, .pendf)]⟩] ∧ s0.nlast = 21 := by rw [← hs0]; exact ⟨rfl, rfl⟩
    have hgb0 : GB 21 s0 := by
      unfold GB
      rw [hm0.1, hm0.2]
      exact ⟨⟨by decide, by decide⟩, by decide⟩
    have hl0 : (s0.nlast, Kind.pendf) ∈ inputs ++ written s0.mods := by
      rw [hm0.1, hm0.2]
      decide
    have he : (if o.errorr = true then errorrPart o none temps s0 else .ok s0) = .ok s0 ∨
        ∃ e, (if o.errorr = true then errorrPart o none temps s0 else .ok s0) = .error e := by
      rcases o.errorr with _ | _
      · exact Or.inl rfl
      · simp only [if_true]
        unfold errorrPart
        by_cases h1 : o.groups = false
        · exact Or.inr ⟨_, by rw [if_pos h1]⟩
        by_cases h2 : o.fluxOk = false
        · exact Or.inr ⟨_, by rw [if_neg h1, if_pos h2]⟩
        rw [if_neg h1, if_neg h2]
        simp only
        by_cases h3 : temps = [] ∧ o.nu = false ∧ o.chi = false
        · exact Or.inl (by rw [if_pos h3])
        · exact Or.inr ⟨_, by rw [if_neg h3]⟩
    rcases he with he | ⟨e, he⟩
    · rw [he] at h
      simp only at h
      rcases hh : o.heatr with _ | _
      · have ht := wired_tail o temps 21 s0 hgb0 (fun _ _ => hl0)
        simp only [hh, Bool.false_eq_true, if_false] at h ht
        split at h
        · exact absurd h (by simp)
        · simp only [Except.ok.injEq, Prod.mk.injEq] at h
          rw [← h.1]
          exact ht
      · simp only [hh, if_true] at h
        exact absurd h (by simp)
    · rw [he] at h
      exact absurd h (by simp)
  · simp only [hb, if_true] at h
    generalize hs0 : (⟨[⟨.reconr, [(nendf, .endf)], [(npendf, .pendf)]⟩] ++
      [⟨.broadr, [(nendf, .endf), (npendf, .pendf)], [(npendf + 1, .pendf)]⟩], npendf + 1,
      match o.pendf with | some f => [(npendf, f)] | none => []⟩ : St) = s0 at h
    have hm0 : s0.mods = [⟨.reconr, [(20, .endf)], [(21, .pendf)]⟩, ⟨.broadr, [(20, .endf), (21, .pendf)], [(22, .pendf)]⟩] ∧
        s0.nlast = 22 := by rw [← hs0]; exact ⟨rfl, rfl⟩
    have hgb0 : GB (npendf + 1) s0 := by
      unfold GB
      rw [hm0.1, hm0.2]
      exact ⟨⟨by decide, by decide⟩, by decide⟩
    have hl0 : (s0.nlast, Kind.pendf) ∈ inputs ++ written s0.mods := by
      rw [hm0.1, hm0.2]
      decide
    rcases hes : (if o.errorr = true then errorrPart o (some (npendf + 1)) temps s0 else .ok s0) with e | s
    · rw [hes] at h
      exact absurd h (by simp)
    · have hgb : GB (npendf + 1) s ∧ (o.heatr = false → (o.purr = true ∨ o.acer = true) → (s.nlast, Kind.pendf) ∈ inputs ++ written s.mods) := by
        rcases hE : o.errorr with _ | _
        · simp only [hE, Bool.false_eq_true, if_false, Except.ok.injEq] at hes
          rw [← hes]
          exact ⟨hgb0, fun _ _ => hl0⟩
        · simp only [hE, if_true] at hes
          refine ⟨gb_errorr hgb0 hes, ?_⟩
          intro hh hpa
          obtain ⟨c1, c2⟩ := hc hE hh
          rcases hpa with hpa | hpa
          · rw [c1] at hpa; exact absurd hpa (by decide)
          · rw [c2] at hpa; exact absurd hpa (by decide)
      rw [hes] at h
      have ht := wired_tail o temps (npendf + 1) s hgb.1 hgb.2
      simp only at h ht
      rcases hh : o.heatr with _ | _ <;> simp only [hh, if_true, Bool.false_eq_true, if_false] at h ht
      all_goals
        split at h
        · exact absurd h (by simp)
        · simp only [Except.ok.injEq, Prod.mk.injEq] at h
          rw [← h.1]
          exact ht

/-- The default chain (all modules on) with groups given satisfies the hypotheses of `C68_wired_partial`. -/
example : ∃ m, makeNjoyRun { groups := true, nu := true, chi := true, plotMts := true }
    [⟨"300".toList, "300.0".toList⟩, ⟨"600".toList, "600.0".toList⟩] = .ok m := ⟨_, rfl⟩

/-- C68 as stated is false: with the covariances, without HEATR and with PURR, PURR is told to read its PENDF data from the tape that COVR
just wrote. -/
theorem C68_refuted : ∃ mods out, makeNjoyRun { groups := true, heatr := false, acer := false } [⟨"300".toList, "300.0".toList⟩] = .ok (mods, out) ∧
    ¬ Wired [(20, .endf)] mods ∧ (25, Kind.boxer 33) ∈ written mods ∧
      ∃ m ∈ mods, m.name = .purr ∧ (25, Kind.pendf) ∈ m.reads := by
  refine ⟨_, _, rfl, by decide, by decide, ?_⟩
  exact ⟨_, List.mem_append_right _ (List.mem_singleton.mpr rfl), rfl, by decide⟩

/-- The switch `run=True` of `make_njoy_run` never runs NJOY: the parameter hides the function of that name, and the call fails, whatever
the other arguments. -/
theorem C68_run_refuted (o : Opts) (temps : List Temp) : ∃ e, makeNjoyRun { o with run := true } temps = .error e := by
  unfold makeNjoyRun
  simp only [if_true]
  split
  · exact ⟨_, rfl⟩
  · split
    · exact ⟨_, rfl⟩
    · exact ⟨_, rfl⟩

/-! ### C69 -/

/-- C69 is false: `make_pendf` always raises, for every name and temperature, since covariances are switched on by default and no group
structure is given. -/
theorem C69_refuted (f : List Char) (t : Temp) : makePendf f t = .error .exception := rfl

/-- C69, with the switch the call leaves out: RECONR alone, its output tape saved under the name asked for. -/
theorem C69_partial (f : List Char) (t : Temp) :
    makeNjoyRun { pendf := some f, broadr := false, heatr := false, purr := false, acer := false, errorr := false } [t] =
      .ok ([⟨.reconr, [(20, .endf)], [(21, .pendf)]⟩], [(21, f)]) := rfl

end ASAPy.Njoy
