import Verif.Thermal.Spec2
import Verif.Hdf5.Round6

/-!
# Thermal scattering data are read back from HDF5
-/

set_option linter.unusedSectionVars false

namespace ASAPy.Thermal

open ASAPy
open ASAPy.Hdf5
open Dec

variable {K : Type} [Field K] [LinearOrder K] [IsStrictOrderedRing K]

theorem FullOn.get {α : Type} {Ts : List Text} {d : List (Text × α)} (h : FullOn Ts d) {T : Text} (hT : T ∈ Ts) : ∃ v, Dict.get? d T = some v :=
  Option.isSome_iff_exists.1 (Dict.get?_isSome.2 ((h T).2 hT))

theorem FullOn.none {α : Type} {Ts : List Text} {d : List (Text × α)} (h : FullOn Ts d) {T : Text} (hT : T ∉ Ts) : Dict.get? d T = none :=
  Dict.get?_eq_none.2 fun hk => hT ((h T).1 hk)

theorem elastic_round {e : Elastic K} (h : e.Stored) : ∃ v a, elasticTo e = .ok (.data v a) ∧ elasticFrom (v, a) = .ok (some e) := by
  cases e with
  | coherent e f =>
    refine ⟨.rows [e, f], [(c!"type", .str c!"bragg")], ?_, ?_⟩
    · simp [elasticTo, vstack, show e.length = f.length from h]
    · simp [elasticFrom, getAttr, Dict.get?, Val.toStr, Val.toRows, row]
  | incoherent t =>
    refine ⟨_, _, tabTo_ok h, ?_⟩
    have : getAttr [(c!"type", (.str c!"Tabulated1D" : Val K)), (c!"breakpoints", .ints t.breakpoints), (c!"interpolation", .ints (t.interpolation.map Int.ofNat))] c!"type" = .ok (.str c!"Tabulated1D") := rfl
    unfold elasticFrom
    rw [tabFrom_ok]
    simp [this, Val.toStr]

/-- Copies at one temperature. -/
def copyAll (T : Text) (s d : Data K) : Data K := { d with
  elasticXs := copyAt T s.elasticXs d.elasticXs, elasticMu := copyAt T s.elasticMu d.elasticMu, inelasticXs := copyAt T s.inelasticXs d.inelasticXs, inelasticE := copyAt T s.inelasticE d.inelasticE,
  inelasticMu := copyAt T s.inelasticMu d.inelasticMu, inelasticDist := copyAt T s.inelasticDist d.inelasticDist }

theorem elasticGroup_ok {temp : K → Text} {d : Data K} (h : d.Stored temp) {T : Text} (hT : T ∈ d.kTs.map temp) : ∃ o, elasticGroup d T = .ok o ∧
    ∀ (g : Grp K) (d0 : Data K), Dict.get? g.items c!"elastic" = o.map Grp.node →
      elasticAt T g d0 = .ok { d0 with elasticXs := copyAt T d.elasticXs d0.elasticXs, elasticMu := copyAt T d.elasticMu d0.elasticMu } := by
  by_cases hx : d.elasticXs = []
  · have hm : d.elasticMu = [] := h.cosines.resolve_right fun hc => hc.1 hx
    refine ⟨none, by simp [elasticGroup, hx], fun g d0 hg => ?_⟩
    simp [elasticAt, Grp.has, hg, hx, hm, copyAt, Dict.get?]
  · obtain ⟨e, he⟩ := (h.elastic.resolve_left hx).get hT
    obtain ⟨v, a, e1, e2⟩ := elastic_round (h.elasticTables T e he)
    have hne : d.elasticXs.isEmpty = false := by simpa using hx
    by_cases hm : d.elasticMu = []
    · refine ⟨some ⟨[], [(c!"xs", .data v a)]⟩, ?_, fun g d0 hg => ?_⟩
      · unfold elasticGroup
        simp only [hne, Bool.false_eq_true, if_false, look, he, e1, ok_bind]
        rw [add_ok rfl]
        simp [muTo, hm, Grp.empty]
      · have hh : g.has c!"elastic" = true := by simp [Grp.has, hg]
        unfold elasticAt
        rw [if_pos hh, group_of hg]
        simp only [ok_bind]
        rw [dset_of (v := v) (a := a) rfl]
        simp [e2, elasticMuFrom, Grp.has, Dict.get?, hm, copyAt, he]
    · obtain ⟨mu, hmu⟩ := (h.cosines.resolve_left hm).2.get hT
      have hne' : d.elasticMu.isEmpty = false := by simpa using hm
      refine ⟨some ⟨[], [(c!"xs", .data v a), (c!"mu_out", .data (.rows mu) [])]⟩, ?_, fun g d0 hg => ?_⟩
      · unfold elasticGroup
        simp only [hne, Bool.false_eq_true, if_false, look, he, e1, ok_bind]
        rw [add_ok rfl]
        simp only [muTo, hne', ok_bind, Bool.false_eq_true, if_false, look, hmu]
        rw [add_ok rfl]
        rfl
      · have hh : g.has c!"elastic" = true := by simp [Grp.has, hg]
        unfold elasticAt
        rw [if_pos hh, group_of hg]
        simp only [ok_bind]
        rw [dset_of (v := v) (a := a) rfl]
        have hm2 : (⟨[], [(c!"xs", .data v a), (c!"mu_out", .data (.rows mu) [])]⟩ : Grp K).dset c!"mu_out" = .ok (.rows mu, []) := dset_of rfl
        have hm3 : (⟨[], [(c!"xs", .data v a), (c!"mu_out", .data (.rows mu) [])]⟩ : Grp K).has c!"mu_out" = true := rfl
        simp only [ok_bind, e2, elasticMuFrom, hm3, if_true, hm2, Val.toRows, copyAt, he, hmu]

/-- The distributions as they come back. -/
def backs (l : List (Text × Dist K)) : List (Text × Dist K) := l.map fun p => (p.1, p.2.back)

theorem backs_get (l : List (Text × Dist K)) (T : Text) : Dict.get? (backs l) T = (Dict.get? l T).map Dist.back := by
  induction l with
  | nil => rfl
  | cons p l ih =>
    obtain ⟨k, v⟩ := p
    simp only [backs, List.map_cons, Dict.get?]
    split
    · rfl
    · exact ih

theorem xs_free {n : Node K} : (⟨[], [(c!"xs", n)]⟩ : Grp K).Free := by
  intro k hk
  simp only [names, List.mem_cons, List.not_mem_nil, or_false] at hk
  rcases hk with rfl | rfl | rfl | rfl | rfl | rfl | rfl | rfl | rfl <;> rfl

theorem inelasticGroup_ok {temp : K → Text} {d : Data K} (h : d.Stored temp) {T : Text} (hT : T ∈ d.kTs.map temp) : ∃ o, inelasticGroup d T = .ok o ∧
    ∀ (g : Grp K) (d0 : Data K), d0.mode = d.mode → Dict.get? g.items c!"inelastic" = o.map Grp.node →
      inelasticAt T g d0 = .ok { d0 with inelasticXs := copyAt T d.inelasticXs d0.inelasticXs, inelasticE := copyAt T d.inelasticE d0.inelasticE, inelasticMu := copyAt T d.inelasticMu d0.inelasticMu,
                                         inelasticDist := copyAt T (backs d.inelasticDist) d0.inelasticDist } := by
  obtain ⟨t, ht⟩ := h.inelastic.get hT
  have hst := tabTo_ok (h.inelasticTables T t ht)
  have hne : d.inelasticXs.isEmpty = false := by
    cases hc : d.inelasticXs with
    | nil => rw [hc] at ht; simp [Dict.get?] at ht
    | cons _ _ => rfl
  set nd : Node K := .data (.rows [t.x, t.y]) [(c!"type", .str c!"Tabulated1D"), (c!"breakpoints", .ints t.breakpoints), (c!"interpolation", .ints (t.interpolation.map Int.ofNat))] with hnd
  rcases h.out with ⟨hmode, hE, hMu, hD⟩ | ⟨hmode, hE, hMu, hD, hDs⟩
  · obtain ⟨e, he⟩ := hE.get hT
    obtain ⟨mu, hmu⟩ := hMu.get hT
    refine ⟨some ⟨[], [(c!"xs", nd), (c!"energy_out", .data (.rows e) []), (c!"mu_out", .data (.cube mu) [])]⟩, ?_, fun g d0 hm hg => ?_⟩
    · unfold inelasticGroup
      simp only [hne, Bool.false_eq_true, if_false, look, ht, hst, ok_bind]
      rw [add_ok rfl]
      simp only [ok_bind, outTo]
      rw [if_pos hmode]
      simp only [look, he, hmu, ok_bind]
      rw [add_ok rfl]
      simp only [ok_bind]
      rw [add_ok rfl]
      rfl
    · have hh : g.has c!"inelastic" = true := by simp [Grp.has, hg]
      unfold inelasticAt
      rw [if_pos hh, group_of hg]
      simp only [ok_bind]
      rw [dset_of (v := .rows [t.x, t.y]) (a := [(c!"type", .str c!"Tabulated1D"), (c!"breakpoints", .ints t.breakpoints), (c!"interpolation", .ints (t.interpolation.map Int.ofNat))]) rfl]
      simp only [ok_bind, tabFrom_ok, outFrom]
      rw [if_pos (by rw [hm]; exact hmode)]
      rw [dset_of (v := .rows e) (a := []) rfl, dset_of (v := .cube mu) (a := []) rfl]
      simp [Val.toRows, Val.toCube, copyAt, ht, he, hmu, hD, backs, Dict.get?]
  · obtain ⟨e, he⟩ := hD.get hT
    obtain ⟨g', g1, g2, g3⟩ := dist_round (xs_free (n := nd)) (hDs T e he)
    refine ⟨some g', ?_, fun g d0 hm hg => ?_⟩
    · unfold inelasticGroup
      simp only [hne, Bool.false_eq_true, if_false, look, ht, hst, ok_bind]
      rw [add_ok rfl]
      simp only [ok_bind, outTo]
      rw [if_neg (by rw [hmode]; decide), if_pos hmode]
      simp only [look, he, ok_bind]
      have : (⟨(Grp.empty : Grp K).attrs, (Grp.empty : Grp K).items ++ [(c!"xs", nd)]⟩ : Grp K) = ⟨[], [(c!"xs", nd)]⟩ := rfl
      rw [this, g1]
      rfl
    · have hh : g.has c!"inelastic" = true := by simp [Grp.has, hg]
      unfold inelasticAt
      rw [if_pos hh, group_of hg]
      simp only [ok_bind]
      have hx : Dict.get? g'.items c!"xs" = some nd := by rw [g2 _ (by decide)]; rfl
      rw [dset_of (v := .rows [t.x, t.y]) (a := [(c!"type", .str c!"Tabulated1D"), (c!"breakpoints", .ints t.breakpoints), (c!"interpolation", .ints (t.interpolation.map Int.ofNat))]) hx]
      simp only [ok_bind, tabFrom_ok, outFrom]
      rw [if_neg (by rw [hm, hmode]; decide), if_pos (by rw [hm]; exact hmode)]
      have hk : knownDist g' = .ok e.back := by simp [knownDist, g3]
      have hk' : knownDist ⟨g'.attrs, g'.items⟩ = .ok e.back := hk
      simp only [hk', ok_bind]
      simp [copyAt, ht, hE, hMu, backs_get, he, Dict.get?]

/-- The data as they come back. -/
def Data.back (d : Data K) : Data K := { d with inelasticDist := backs d.inelasticDist }

theorem tempGroup_ok {temp : K → Text} {d : Data K} (h : d.Stored temp) {T : Text} (hT : T ∈ d.kTs.map temp) : ∃ g, tempGroup d T = .ok g ∧
    ∀ d0 : Data K, d0.mode = d.mode → (elasticAt T g d0 >>= inelasticAt T g) = .ok (copyAll T d.back d0) := by
  obtain ⟨o1, h1, h2⟩ := elasticGroup_ok h hT
  obtain ⟨o2, h3, h4⟩ := inelasticGroup_ok h hT
  refine ⟨⟨[], optItem c!"elastic" o1 ++ optItem c!"inelastic" o2⟩, ?_, fun d0 hm => ?_⟩
  · unfold tempGroup
    simp only [h1, h3, ok_bind]
    rw [addIf_ok o1 rfl]
    simp only [ok_bind]
    rw [addIf_ok o2 (by cases o1 <;> rfl)]
    simp [Grp.empty]
  · rw [h2 _ d0 (by cases o1 <;> cases o2 <;> rfl)]
    simp only [ok_bind]
    exact h4 _ _ (show Data.mode { d0 with elasticXs := copyAt T d.elasticXs d0.elasticXs, elasticMu := copyAt T d.elasticMu d0.elasticMu } = d.mode from hm) (by cases o1 <;> cases o2 <;> rfl)

theorem tempsTo_ok {d : Data K} {G : Text → Grp K} : ∀ (l : List Text) (g : Grp K), l.Nodup → (∀ T ∈ l, tempGroup d T = .ok (G T)) → (∀ T ∈ l, Dict.get? g.items T = none) →
    tempsTo d l g = .ok ⟨g.attrs, g.items ++ l.map fun T => (T, (G T).node)⟩ := by
  intro l
  induction l with
  | nil => intro g _ _ _; simp [tempsTo]
  | cons T l ih =>
    intro g hn hG hf
    rw [List.nodup_cons] at hn
    unfold tempsTo
    rw [hG T (by simp)]
    simp only [ok_bind]
    rw [add_ok (hf T (by simp))]
    simp only [ok_bind]
    rw [ih _ hn.2 (fun T' h => hG T' (by simp [h])) (fun T' h => by
      rw [get?_app, hf T' (by simp [h])]
      simp only [Dict.get?, Option.none_or]
      rw [if_neg]
      rintro rfl
      exact hn.1 h)]
    simp

theorem get?_mapped (G : Text → Grp K) : ∀ (l : List Text) (T : Text), T ∈ l → Dict.get? (l.map fun T => (T, (G T).node)) T = some (G T).node := by
  intro l
  induction l with
  | nil => simp
  | cons T' l ih =>
    intro T hT
    simp only [List.map_cons, Dict.get?]
    split
    · next h => rw [h]
    · next h => exact ih T ((List.mem_cons.1 hT).resolve_left (Ne.symm h))

theorem tempsFrom_ok {temp : K → Text} {d : Data K} {G : Text → Grp K} {g : Grp K} (hG : ∀ T ∈ d.kTs.map temp, ∀ d0 : Data K, d0.mode = d.mode → (elasticAt T (G T) d0 >>= inelasticAt T (G T)) = .ok (copyAll T d.back d0))
    (hg : ∀ T ∈ d.kTs.map temp, g.group T = .ok (G T)) : ∀ (l : List Text) (d0 : Data K), (∀ T ∈ l, T ∈ d.kTs.map temp) → d0.mode = d.mode →
    tempsFrom g l d0 = .ok (l.foldl (fun a T => copyAll T d.back a) d0) := by
  intro l
  induction l with
  | nil => intro d0 _ _; rfl
  | cons T l ih =>
    intro d0 hl hm
    unfold tempsFrom
    rw [hg T (hl T (by simp))]
    have := hG T (hl T (by simp)) d0 hm
    simp only [bind, Except.bind] at this ⊢
    cases h1 : elasticAt T (G T) d0 with
    | error e => rw [h1] at this; simp at this
    | ok d1 =>
      rw [h1] at this
      simp only at this ⊢
      rw [this]
      simp only
      exact ih (copyAll T d.back d0) (fun T' h => hl T' (by simp [h])) hm

theorem copyAt_get {α : Type} (T T' : Text) (s d : List (Text × α)) : Dict.get? (copyAt T s d) T' = if T' = T then (Dict.get? s T').or (Dict.get? d T') else Dict.get? d T' := by
  by_cases h : T' = T
  · subst h
    rw [if_pos rfl, copyAt]
    cases hs : Dict.get? s T' with
    | none => rfl
    | some v => simp [Dict.get?_set_same]
  · rw [if_neg h, copyAt]
    cases hs : Dict.get? s T with
    | none => rfl
    | some v => exact Dict.get?_set_ne _ _ h

theorem copies_get {α : Type} (s : List (Text × α)) : ∀ (l : List Text) (d : List (Text × α)) (T : Text),
    Dict.get? (l.foldl (fun a T => copyAt T s a) d) T = if T ∈ l then (Dict.get? s T).or (Dict.get? d T) else Dict.get? d T := by
  intro l
  induction l with
  | nil => intro d T; simp
  | cons T' l ih =>
    intro d T
    rw [List.foldl_cons, ih, copyAt_get]
    by_cases h1 : T = T'
    · subst h1
      cases hs : Dict.get? s T <;> simp
    · simp [h1]

theorem fold_fields (s : Data K) : ∀ (l : List Text) (d : Data K), l.foldl (fun a T => copyAll T s a) d = { d with
    elasticXs := l.foldl (fun a T => copyAt T s.elasticXs a) d.elasticXs, elasticMu := l.foldl (fun a T => copyAt T s.elasticMu a) d.elasticMu,
    inelasticXs := l.foldl (fun a T => copyAt T s.inelasticXs a) d.inelasticXs, inelasticE := l.foldl (fun a T => copyAt T s.inelasticE a) d.inelasticE,
    inelasticMu := l.foldl (fun a T => copyAt T s.inelasticMu a) d.inelasticMu, inelasticDist := l.foldl (fun a T => copyAt T s.inelasticDist a) d.inelasticDist } := by
  intro l
  induction l with
  | nil => intro d; rfl
  | cons T l ih => intro d; rw [List.foldl_cons, ih]; rfl

theorem temp_ne_kTs {T : Text} (h : IsTemp T) : T ≠ c!"kTs" := by
  obtain ⟨c, r, rfl, hc⟩ := head_digit h
  intro e
  injection e with e1 _
  subst e1
  exact absurd hc (by decide)

theorem data_round (temp : K → Text) {ord : List (Text × Node K) → List (Text × Node K)} (ho : ∀ l, (ord l).Perm l) {d : Data K} (h : d.Stored temp) :
    ∃ g d', dataTo temp d = .ok g ∧ dataFrom temp ord d.name g = .ok d' ∧ SameData d d' := by
  have hch : ∀ T : Text, ∃ g : Grp K, T ∈ d.kTs.map temp → tempGroup d T = .ok g ∧ ∀ d0 : Data K, d0.mode = d.mode → (elasticAt T g d0 >>= inelasticAt T g) = .ok (copyAll T d.back d0) := by
    intro T
    by_cases hT : T ∈ d.kTs.map temp
    · obtain ⟨g, hg⟩ := tempGroup_ok h hT
      exact ⟨g, fun _ => hg⟩
    · exact ⟨Grp.empty, fun hc => absurd hc hT⟩
  choose G hG using hch
  have k1 := kTsTo_ok temp d.kTs Grp.empty h.temps (fun _ _ => rfl)
  obtain ⟨mode, hmode⟩ : ∃ m, d.mode = some m := by
    rcases h.out with ⟨h1 | h1, _⟩ | ⟨h1, _⟩ <;> exact ⟨_, h1⟩
  obtain ⟨kTs, c1, c2⟩ := kTsFrom_perm temp d.kTs (ho (d.kTs.map fun x => (temp x, Node.data (.num x) [])))
  have hto : dataTo temp d = .ok ⟨[(c!"atomic_weight_ratio", .num d.awr), (c!"nuclides", .strs d.nuclides), (c!"secondary_mode", .str mode)],
      (c!"kTs", Node.group [] (d.kTs.map fun x => (temp x, Node.data (.num x) []))) :: (d.kTs.map temp).map fun T => (T, (G T).node)⟩ := by
    unfold dataTo
    simp only [k1, ok_bind]
    rw [add_ok rfl]
    simp only [ok_bind]
    rw [tempsTo_ok (G := G) _ _ h.temps (fun T hT => (hG T hT).1) (fun T hT => by
      simp only [Grp.attr, Grp.empty, List.nil_append, Dict.get?]
      rw [if_neg (Ne.symm (temp_ne_kTs (h.named T hT)))])]
    simp [Grp.attr, Grp.empty, Grp.node, Dict.set, hmode]
  have hgrp : ∀ T ∈ d.kTs.map temp, (⟨[(c!"atomic_weight_ratio", .num d.awr), (c!"nuclides", .strs d.nuclides), (c!"secondary_mode", .str mode)],
      (c!"kTs", Node.group [] (d.kTs.map fun x => (temp x, Node.data (.num x) []))) :: (d.kTs.map temp).map fun T => (T, (G T).node)⟩ : Grp K).group T = .ok (G T) := by
    intro T hT
    apply group_of
    simp only [Dict.get?]
    rw [if_neg (Ne.symm (temp_ne_kTs (h.named T hT))), get?_mapped G _ T hT]
    rfl
  have hfrom : dataFrom temp ord d.name ⟨[(c!"atomic_weight_ratio", .num d.awr), (c!"nuclides", .strs d.nuclides), (c!"secondary_mode", .str mode)],
      (c!"kTs", Node.group [] (d.kTs.map fun x => (temp x, Node.data (.num x) []))) :: (d.kTs.map temp).map fun T => (T, (G T).node)⟩ =
      .ok ((kTs.map temp).foldl (fun a T => copyAll T d.back a) ⟨d.name, d.awr, kTs, [], [], [], [], [], [], some mode, d.nuclides⟩) := by
    unfold dataFrom
    rw [group_of (a := []) (i := d.kTs.map fun x => (temp x, Node.data (.num x) [])) rfl]
    simp only [getAttr, Dict.get?]
    simp only [ok_bind, c1]
    apply tempsFrom_ok (fun T hT => (hG T hT).2) hgrp
    · intro T hT
      exact ((c2.map temp).mem_iff).1 hT
    · exact hmode.symm
  refine ⟨_, _, hto, hfrom, ?_⟩
  rw [fold_fields]
  have hmem : ∀ T, T ∈ kTs.map temp ↔ T ∈ d.kTs.map temp := fun T => (c2.map temp).mem_iff
  have key : ∀ {α : Type} (s : List (Text × α)), (s = [] ∨ FullOn (d.kTs.map temp) s) → ∀ T, Dict.get? ((kTs.map temp).foldl (fun a T => copyAt T s a) []) T = Dict.get? s T := by
    intro α s hs T
    rw [copies_get]
    simp only [Dict.get?, Option.or_none, hmem]
    split
    · rfl
    · next hT =>
      rcases hs with rfl | hs
      · rfl
      · exact (hs.none hT).symm
  refine ⟨rfl, rfl, c2, fun T => key _ h.elastic T, fun T => key _ (h.cosines.imp id And.right) T, fun T => key _ (Or.inr h.inelastic) T, fun T => key _ ?_ T, fun T => key _ ?_ T, fun T => ?_, hmode.symm, rfl⟩
  · rcases h.out with ⟨_, h1, _⟩ | ⟨_, h1, _⟩
    · exact Or.inr h1
    · exact Or.inl h1
  · rcases h.out with ⟨_, _, h1, _⟩ | ⟨_, _, h1, _⟩
    · exact Or.inr h1
    · exact Or.inl h1
  · simp only
    rw [← backs_get]
    apply key
    rcases h.out with ⟨_, _, _, h1⟩ | ⟨_, _, _, h1, _⟩
    · left
      simp [Data.back, h1, backs]
    · right
      intro T
      rw [← h1 T]
      simp [Data.back, backs, Dict.keys]

end ASAPy.Thermal
