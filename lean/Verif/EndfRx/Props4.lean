import Verif.EndfRx.Nuclide
import Verif.EndfRx.Props3

/-!
# C162: a nuclide read from an evaluation
-/

namespace ASAPy.EndfRx
open ASAPy.Endf
open ASAPy.Func (Fn)

theorem set_new {κ α : Type} [DecidableEq κ] : ∀ {d : List (κ × α)} {k : κ} (a : α), k ∉ d.map (·.1) → Dict.set d k a = d ++ [(k, a)]
  | [], _, _, _ => rfl
  | (k', a') :: d, k, a, h => by
    rw [List.map_cons, List.mem_cons, not_or] at h
    rw [Dict.set, if_neg (fun h' => h.1 h'.symm), set_new a h.2]
    rfl

theorem get_new {κ α : Type} [DecidableEq κ] : ∀ {ks : List κ} {as : List α} {k : κ} {a : α}, ks.Nodup → (k, a) ∈ ks.zip as → Dict.get? (ks.zip as) k = some a
  | [], _, _, _, _, h => by simp at h
  | _ :: _, [], _, _, _, h => by simp at h
  | k' :: ks, a' :: as, k, a, hn, h => by
    rw [List.nodup_cons] at hn
    rw [List.zip_cons_cons, List.mem_cons] at h
    rw [List.zip_cons_cons, Dict.get?]
    by_cases he : k' = k
    · obtain h | h := h
      · rw [if_pos he]
        exact congrArg some (congrArg _root_.Prod.snd h).symm
      · exact absurd (he ▸ (List.of_mem_zip h).1) hn.1
    · rw [if_neg he]
      exact get_new hn.2 (h.resolve_left fun h' => he (congrArg _root_.Prod.fst h').symm)

theorem name_ok {z a m : Nat} {sym : Line} (h : AceData.Element z sym) : nuclideName z a m = .ok (Decay.nuclideName sym a m) := by
  rw [nuclideName, AceData.symbol_of h]
  simp only
  by_cases hm : m = 0
  · rw [if_neg (by omega), Decay.nuclideName, if_pos hm]
    rfl
  · rw [if_pos (by omega), Decay.nuclideName, if_neg hm]
    simp [AceData.intStr_nat]

/-- The numbers of the reactions with a cross section (file 3), as the directory lists them. -/
def listed (l : List (Int × Int)) : List Int := (l.filter fun e => decide (e.1 = 3)).map (·.2)

/-- First-chance fission and so on, without a section of file 5. -/
def NeedsSpectrum (ev : Ev) (mt : Int) : Prop := (mt = 19 ∨ mt = 20 ∨ mt = 21 ∨ mt = 38) ∧ Dict.get? ev.sections (5, mt) = none

instance (ev : Ev) (mt : Int) : Decidable (NeedsSpectrum ev mt) := by unfold NeedsSpectrum; infer_instance

/-- The reaction with the distributions of the neutron `n` for its first product. -/
def withSpectrum (n : Prod) (r : Rx) : Rx :=
  match r.products with
  | [] => r
  | p :: ps => { r with products := { p with applicability := n.applicability, dist := n.dist } :: ps }

/-- A range has resonances. -/
def HasResonances (rs : List Res.Range) : Prop := ∃ r ∈ rs, (∃ x, r = .bw x) ∨ (∃ x, r = .rm x) ∨ ∃ x, r = .rml x

variable [ExpLog ℚ]

theorem readReactions_ok {ev : Ev} : ∀ {l : List (Int × Int)} {rxs : List Rx} (d : List (Int × Rx)), List.Forall₂ (fun mt r => rxFromEndf ev mt = .ok r) (listed l) rxs →
    (listed l).Nodup → (∀ mt ∈ listed l, mt ∉ d.map (·.1)) → readReactions ev l d = .ok (d ++ (listed l).zip rxs)
  | [], rxs, d, _, _, _ => by
    rw [readReactions]
    simp [listed]
  | (mf, mt) :: l, rxs, d, h, hn, hd => by
    rw [readReactions]
    by_cases h3 : mf = 3
    · have hl : listed ((mf, mt) :: l) = mt :: listed l := by rw [listed, List.filter_cons_of_pos (by simpa using h3)]; rfl
      rw [hl] at h hn hd ⊢
      cases h with
      | @cons _ r _ rxs hr h =>
        rw [List.nodup_cons] at hn
        rw [if_pos h3, hr]
        simp only [bind, Except.bind]
        rw [set_new r (hd mt (List.mem_cons_self ..)), readReactions_ok (d ++ [(mt, r)]) h hn.2, List.append_assoc]
        · rfl
        · intro m hm
          rw [List.map_append, List.mem_append, not_or]
          refine ⟨hd m (List.mem_cons_of_mem _ hm), ?_⟩
          simp only [List.map_cons, List.map_nil, List.mem_singleton]
          rintro rfl
          exact hn.1 hm
    · have hl : listed ((mf, mt) :: l) = listed l := by rw [listed, List.filter_cons_of_neg (by simpa using h3)]; rfl
      rw [hl] at h hn hd ⊢
      rw [if_neg h3, readReactions_ok d h hn hd]

omit [ExpLog ℚ] in
theorem get_zip_none {ks : List Int} {as : List Rx} {k : Int} (h : k ∉ ks) : Dict.get? (ks.zip as) k = none := by
  rw [Dict.get?_eq_none]
  intro h'
  obtain ⟨⟨k', a⟩, hm, rfl⟩ := List.mem_map.mp h'
  exact h (List.of_mem_zip hm).1

omit [ExpLog ℚ] in
theorem mem_zip_of {α β : Type} : ∀ {ks : List α} {as : List β} {k : α}, ks.length = as.length → k ∈ ks → ∃ a, (k, a) ∈ ks.zip as
  | [], _, _, _, h => by simp at h
  | _ :: _, [], _, hl, _ => by simp at hl
  | k' :: ks, a' :: as, k, hl, h => by
    rw [List.zip_cons_cons]
    obtain rfl | h := List.mem_cons.mp h
    · exact ⟨a', List.mem_cons_self ..⟩
    · obtain ⟨a, ha⟩ := mem_zip_of (by simpa using hl) h
      exact ⟨a, List.mem_cons_of_mem _ ha⟩

omit [ExpLog ℚ] in
theorem replaceXs_ok {mts : List Int} {rxs : List Rx} (hn : mts.Nodup) (hl : mts.length = rxs.length) (hx : ∀ r ∈ rxs, r.xs ≠ none) :
    ∀ l : List Int, replaceXs (mts.zip rxs) l = .ok (l.filter fun mt => decide (mt ∈ mts))
  | [] => rfl
  | mt :: l => by
    rw [replaceXs]
    by_cases hm : mt ∈ mts
    · obtain ⟨r, hr⟩ := mem_zip_of hl hm
      rw [get_new hn hr, List.filter_cons_of_pos (by simpa using hm)]
      simp only
      cases hrx : r.xs with
      | none => exact absurd hrx (hx r (List.of_mem_zip hr).2)
      | some t =>
        simp only [bind, Except.bind, pure, Except.pure, replaceXs_ok hn hl hx l]
    · rw [get_zip_none hm, List.filter_cons_of_neg (by simpa using hm)]
      simp only
      exact replaceXs_ok hn hl hx l

omit [ExpLog ℚ] in
theorem resolved_iff (rs : List Res.Range) : rs.any isResolved = true ↔ HasResonances rs := by
  rw [List.any_eq_true]
  unfold HasResonances
  constructor
  · rintro ⟨r, hr, h⟩
    refine ⟨r, hr, ?_⟩
    cases r with
    | radius b => cases h
    | bw x => exact Or.inl ⟨x, rfl⟩
    | rm x => exact Or.inr (Or.inl ⟨x, rfl⟩)
    | rml x => exact Or.inr (Or.inr ⟨x, rfl⟩)
    | unr x => cases h
  · rintro ⟨r, hr, ⟨x, rfl⟩ | ⟨x, rfl⟩ | ⟨x, rfl⟩⟩ <;> exact ⟨_, hr, rfl⟩

instance (rs : List Res.Range) : Decidable (HasResonances rs) := decidable_of_iff _ (resolved_iff rs)

omit [ExpLog ℚ] in
theorem needs_iff (ev : Ev) (mt : Int) : (mt ∈ [(19 : Int), 20, 21, 38] ∧ ev.has 5 mt = false) ↔ NeedsSpectrum ev mt := by
  unfold NeedsSpectrum Ev.has
  cases Dict.get? ev.sections (5, mt) <;> simp

/-- C162: a nuclide has the name, numbers and mass of the target, the resonances of file 2 and exactly the reactions the directory lists in file 3, each as `Reaction.from_endf` gives it. With
resonances in a range, the cross sections of elastic scattering, capture and fission have them added. Chances of fission without a section of file 5 have the spectrum of fission. -/
theorem C162_nuclide_partial {ev : Evaluation} {z a m : Nat} {sym : Line} {rs : List Res.Range} {f2 : List Line} {rxs : List Rx} (hz : ev.z = z) (ha : ev.a = a) (hm : ev.m = m)
    (hs : AceData.Element z sym) (hmass : 0 < ev.mass) (h2 : Dict.get? ev.sections (2, 151) = some f2) (hrs : Res.fromEndf ev.mass f2 = .ok rs) (hn : (listed ev.list).Nodup)
    (hr : List.Forall₂ (fun mt r => rxFromEndf ev.toEv mt = .ok r) (listed ev.list) rxs) (hx : ∀ r ∈ rxs, r.xs ≠ none) {n : Prod}
    (hc : (∀ mt ∈ listed ev.list, ¬ NeedsSpectrum ev.toEv mt) ∨
      (∃ r18 ns, (18, r18) ∈ (listed ev.list).zip rxs ∧ r18.products = n :: ns) ∧ ∀ mt r, (mt, r) ∈ (listed ev.list).zip rxs → NeedsSpectrum ev.toEv mt → r.products ≠ []) :
    nuclideFromEndf ev = .ok ⟨Decay.nuclideName sym a m, z, a, m, ev.mass, .number ev.temperature, some rs,
      ((listed ev.list).zip rxs).map (fun e => if NeedsSpectrum ev.toEv e.1 then (e.1, withSpectrum n e.2) else e),
      if HasResonances rs then [2, 102, 18].filter (fun mt => decide (mt ∈ listed ev.list)) else []⟩ := by
  have hread := readReactions_ok (ev := ev.toEv) [] hr hn (by simp)
  rw [List.nil_append] at hread
  have hres : resonantXs (some rs) ((listed ev.list).zip rxs) = .ok (if HasResonances rs then [2, 102, 18].filter (fun mt => decide (mt ∈ listed ev.list)) else []) := by
    rw [resonantXs]
    by_cases h : HasResonances rs
    · rw [if_pos ((resolved_iff rs).mpr h), if_pos h, replaceXs_ok hn hr.length_eq hx]
    · rw [if_neg (fun h' => h ((resolved_iff rs).mp h')), if_neg h]
  have hcopy : ((listed ev.list).zip rxs).mapM (copyFission ev.toEv ((listed ev.list).zip rxs)) =
      .ok (((listed ev.list).zip rxs).map fun e => if NeedsSpectrum ev.toEv e.1 then (e.1, withSpectrum n e.2) else e) := by
    have key : ∀ e ∈ (listed ev.list).zip rxs, copyFission ev.toEv ((listed ev.list).zip rxs) e =
        .ok (if NeedsSpectrum ev.toEv e.1 then (e.1, withSpectrum n e.2) else e) := by
      rintro ⟨mt, r⟩ he
      rw [copyFission]
      by_cases hne : NeedsSpectrum ev.toEv mt
      · rw [if_pos ((needs_iff _ _).mpr hne), if_pos hne]
        obtain h | ⟨⟨r18, ns, h18, hp⟩, hall⟩ := hc
        · exact absurd hne (h mt (List.of_mem_zip he).1)
        · rw [get_new hn h18]
          simp only [hp]
          have := hall mt r he hne
          unfold withSpectrum
          cases hpr : r.products with
          | nil => exact absurd hpr this
          | cons p ps => rfl
      · rw [if_neg (fun h' => hne ((needs_iff _ _).mp h')), if_neg hne]
    revert key
    generalize copyFission ev.toEv ((listed ev.list).zip rxs) = g
    generalize (listed ev.list).zip rxs = l
    intro key
    induction l with
    | nil => rfl
    | cons e l ih =>
      rw [List.mapM_cons, key e (List.mem_cons_self ..), ih fun x hx => key x (List.mem_cons_of_mem _ hx)]
      rfl
  have hnew : newNuclide (Decay.nuclideName sym a m) z a m ev.mass (.number ev.temperature) = .ok ⟨Decay.nuclideName sym a m, z, a, m, ev.mass, .number ev.temperature, none, [], []⟩ := by
    rw [newNuclide, if_neg]
    rintro (h | h | h | h)
    · omega
    · omega
    · omega
    · linarith
  have hrr : readResonances ev = .ok (some rs) := by
    rw [readResonances, h2]
    simp only [hrs]
    rfl
  rw [nuclideFromEndf, hz, ha, hm, name_ok hs]
  simp only [bind, Except.bind, pure, Except.pure, hnew, hrr, hread, hres, hcopy]

/-- C162, what does not hold: an evaluation without file 2 cannot be read, although the code asks whether it is there. -/
theorem C162_file2_refuted {ev : Evaluation} {z a m : Nat} {sym : Line} {rxs : List Rx} (hz : ev.z = z) (ha : ev.a = a) (hm : ev.m = m) (hs : AceData.Element z sym) (hmass : 0 < ev.mass)
    (h2 : Dict.get? ev.sections (2, 151) = none) (hn : (listed ev.list).Nodup) (hr : List.Forall₂ (fun mt r => rxFromEndf ev.toEv mt = .ok r) (listed ev.list) rxs) :
    nuclideFromEndf ev = .error .typeError := by
  have hread := readReactions_ok (ev := ev.toEv) [] hr hn (by simp)
  have hnew : newNuclide (Decay.nuclideName sym a m) z a m ev.mass (.number ev.temperature) = .ok ⟨Decay.nuclideName sym a m, z, a, m, ev.mass, .number ev.temperature, none, [], []⟩ := by
    rw [newNuclide, if_neg]
    rintro (h | h | h | h)
    · omega
    · omega
    · omega
    · linarith
  have hrr : readResonances ev = .ok none := by rw [readResonances, h2]
  rw [nuclideFromEndf, hz, ha, hm, name_ok hs]
  simp only [bind, Except.bind, hnew, hrr, hread]
  rfl

/-- C162, what does not hold: the temperatures of a nuclide read from an evaluation cannot be asked for, since the temperature stands where a list of energies is expected. -/
theorem C162_temperatures_refuted {ev : Evaluation} {n : Nuclide} (h : nuclideFromEndf ev = .ok n) (k : ℚ) (text : ℚ → Line) : temperatures k text n.kTs = .error .typeError := by
  rw [nuclideFromEndf] at h
  simp only [bind, Except.bind, pure, Except.pure] at h
  split at h
  · cases h
  split at h
  · cases h
  rename_i n0 hn0
  rw [newNuclide] at hn0
  split at hn0
  · cases hn0
  cases hn0
  repeat' (split at h; · cases h)
  cases h
  rfl

omit [ExpLog ℚ] in
/-- C162, what does not hold: a chance of fission with its spectrum in file 6 gets that of fission in place of its own. -/
theorem C162_chances_refuted {ev : Evaluation} {r r18 : Rx} {p n : Prod} {ps ns : List Prod} {d : List (Int × Rx)} {f6 : List Line} (_h6 : Dict.get? ev.sections (6, 19) = some f6)
    (h5 : Dict.get? ev.sections (5, 19) = none) (h18 : Dict.get? d 18 = some r18) (hn : r18.products = n :: ns) (hp : r.products = p :: ps) :
    copyFission ev.toEv d (19, r) = .ok (19, { r with products := { p with applicability := n.applicability, dist := n.dist } :: ps }) := by
  rw [copyFission, if_pos ((needs_iff _ _).mpr ⟨Or.inl rfl, h5⟩), h18]
  simp only [hn, hp]

end ASAPy.EndfRx
