import Verif.Thermal.Props2
import Verif.Thermal.Round

/-!
# Thermal scattering data: HDF5 (C129)
-/

set_option linter.unusedSectionVars false

namespace ASAPy.Thermal

open ASAPy
open ASAPy.Hdf5 (Text Dist Uni Grp Node IsTemp Table)
open ASAPy.FromAce (Arrays AtL pyRound)
open Dec

variable {K : Type} [Field K] [LinearOrder K] [IsStrictOrderedRing K]

/-- C129, what holds: data where every temperature has the same parts are read back from the group they were written to, whatever the order in which the items of a group are met; the temperatures may
come in another order. -/
theorem C129_round_partial (temp : K → Text) {ord : List (Text × Node K) → List (Text × Node K)} (ho : ∀ l, (ord l).Perm l) {d : Data K} (h : d.Stored temp) :
    ∃ g d', dataTo temp d = .ok g ∧ dataFrom temp ord d.name g = .ok d' ∧ SameData d d' := data_round temp ho h

variable [FloorRing K]

theorem pyRound_near (x : K) : |x - (pyRound x : K)| ≤ 1 / 2 := by
  have h1 := Int.floor_le x
  have h2 := Int.lt_floor_add_one x
  unfold pyRound
  simp only
  split
  · rw [abs_le]; constructor <;> linarith
  · split
    · push_cast; rw [abs_le]; constructor <;> linarith
    · split
      · rw [abs_le]; constructor <;> linarith
      · push_cast; rw [abs_le]; constructor <;> linarith

theorem pyRound_nonneg {x : K} (h : 0 ≤ x) : 0 ≤ pyRound x := by
  have : 0 ≤ ⌊x⌋ := Int.floor_nonneg.2 h
  unfold pyRound
  simp only
  split
  · exact this
  · split
    · omega
    · split <;> omega

/-- C128: the temperature is named by the nearest whole number of kelvin. -/
theorem C128_kelvin {kT : K} (h : 0 ≤ kT) : ∃ n : Nat, tempName kT = natStr n ++ c!"K" ∧ |kT / (86173303 / 10 ^ 12) - (n : K)| ≤ 1 / 2 := by
  have hr : 0 ≤ pyRound (kT / (86173303 / 10 ^ 12)) := pyRound_nonneg (by positivity)
  have hn := pyRound_near (kT / (86173303 / 10 ^ 12) : K)
  refine ⟨(pyRound (kT / (86173303 / 10 ^ 12))).natAbs, ?_, ?_⟩
  · unfold tempName
    simp only
    rw [if_neg (by omega)]
    simp
  · have : ((pyRound (kT / (86173303 / 10 ^ 12))).natAbs : K) = ((pyRound (kT / (86173303 / 10 ^ 12)) : Int) : K) := by
      rw [← Int.cast_natCast, Int.natAbs_of_nonneg hr]
    rw [this]
    exact hn

/-- Two tables have the same parts. -/
def Alike (s s' : Sab K) : Prop := s.secondary.kind = s'.secondary.kind ∧
  (s.elastic = .absent ∧ s'.elastic = .absent ∨ (∃ e e', s.elastic = .coherent e ∧ s'.elastic = .coherent e') ∨ ∃ p c p' c', s.elastic = .incoherent p c ∧ s'.elastic = .incoherent p' c')

/-- Every spectrum has an outgoing energy and every outgoing energy a cosine. -/
def Sab.Full (s : Sab K) : Prop := ∀ locs out, s.secondary = .continuous locs out → ∀ r ∈ out, r ≠ [] ∧ ∀ e ∈ r, e.2.2.2 ≠ []

theorem curve_stored (l : List (K × K)) : Hdf5.Tab1D.Stored (curve l) := by simp [Hdf5.Tab1D.Stored, curve]

theorem kind_discrete {s : Secondary K} : s.kind = c!"continuous" ∨ ∃ sk out, s = .discrete sk out := by
  cases s with
  | discrete sk out => exact Or.inr ⟨sk, out, rfl⟩
  | continuous locs out => exact Or.inl rfl

theorem dist_stored {a : Arrays K} {s : Sab K} (h : s.In a) (hf : s.Full) {locs : List Nat} {out : List (List (K × K × K × List K))} (e : s.secondary = .continuous locs out) :
    (Dist.correlated ⟨[(s.inelastic.length : Int)], [2], s.inelastic.map fun p => p.1 * 1000000⟩ (out.map spectrumEv) (out.map fun r => r.map fun e => equallyLikely e.2.2.2)).Stored := by
  have hs := h.secondary
  rw [e] at hs
  obtain ⟨p, m, k, _, _, _, _, _, ho, _⟩ := hs
  have hfull := hf locs out e
  refine ⟨⟨rfl, by simp [ho]⟩, ?_, by simp, ?_, ?_⟩
  · intro d hd
    obtain ⟨r, hr, rfl⟩ := List.mem_map.1 hd
    refine ⟨⟨⟨by simpa using (hfull r hr).1, by simp, by simp⟩, Or.inr rfl, by simp⟩, ?_⟩
    intros
    simp [spectrumEv]
  · intro i hi hm
    simp [spectrumEv, Uni.points]
  · intro l hl d hd
    obtain ⟨r, hr, rfl⟩ := List.mem_map.1 hl
    obtain ⟨x, hx, rfl⟩ := List.mem_map.1 hd
    refine ⟨⟨(hfull r hr).2 x hx, by simp, by simp⟩, ?_⟩
    intro y hy
    obtain ⟨_, _, rfl⟩ := List.mem_map.1 hy
    positivity

theorem dist_back (h : Hdf5.Head K) (out : List (Uni K)) (mus : List (List (List K))) :
    (Dist.correlated h out (mus.map fun r => r.map equallyLikely)).back = .correlated h out (mus.map fun r => r.map equallyLikely) := by
  simp only [Dist.back, List.map_map]
  congr 1
  apply List.map_congr_left
  intro r _
  simp only [Function.comp, List.map_map]
  apply List.map_congr_left
  intro x _
  rfl

theorem fullOn_of {α : Type} {Ts : List Text} {d : List (Text × α)} (h1 : ∀ T ∈ Ts, ∃ v, Dict.get? d T = some v) (h2 : ∀ T, T ∉ Ts → Dict.get? d T = none) : FullOn Ts d := by
  intro T
  constructor
  · intro h
    by_contra hT
    rw [Dict.get?_eq_none.1 (h2 T hT) |> fun h' => (iff_false_intro h').eq] at h
    exact h
  · intro h
    obtain ⟨v, hv⟩ := h1 T h
    exact Dict.get?_isSome.1 (by rw [hv]; rfl)

theorem empty_of {α : Type} {d : List (Text × α)} (h : ∀ T, Dict.get? d T = none) : d = [] := by
  cases d with
  | nil => rfl
  | cons p d =>
    have := h p.1
    simp [Dict.get?] at this

/-- C129 for tables of one material, with the same parts, at temperatures that differ when rounded to kelvin: what the tables say is what is read back. -/
theorem C129_tables_partial (close : Text → List Text → List Text) {ord : List (Text × Node K) → List (Text × Node K)} (ho : ∀ l, (ord l).Perm l) {stem : Text} (hs : '.' ∉ stem) (t : Ace K) (s : Sab K)
    (l : List (Ace K × Sab K)) (hr : ∀ p ∈ (t, s) :: l, Reads stem p.1 p.2) (hd : (((t, s) :: l).map fun p => p.1.temp).Nodup) (h0 : ∀ p ∈ (t, s) :: l, 0 ≤ p.1.temperature)
    (hlike : ∀ p ∈ l, Alike s p.2) (hfull : ∀ p ∈ (t, s) :: l, p.2.Full) :
    ∃ d g d', fromTables close (((t, s) :: l).map Prod.fst) = .ok d ∧ dataTo tempName d = .ok g ∧ dataFrom tempName ord d.name g = .ok d' ∧
      d'.kTs.Perm (((t, s) :: l).map (fun p => p.1.temperature * 1000000)) ∧ (∀ p ∈ (t, s) :: l, p.2.At p.1.temp d') ∧ (∀ T, (∀ p ∈ (t, s) :: l, p.1.temp ≠ T) → d'.Nothing T) ∧
      d'.name = thermalName close stem ∧ d'.awr = t.awr ∧ d'.mode = some s.secondary.kind ∧ ∀ n, n ∈ d'.nuclides ↔ Applies t.pairs n := by
  obtain ⟨d, h1, h2, h3, h4, h5, h6, h7, h8⟩ := C128_temperatures_partial close hs t s l hr hd
  have htemps : d.kTs.map tempName = ((t, s) :: l).map fun p => p.1.temp := by
    rw [h2, List.map_map]
    rfl
  have hmem : ∀ T ∈ d.kTs.map tempName, ∃ p ∈ (t, s) :: l, p.1.temp = T := by
    intro T hT
    rw [htemps] at hT
    exact List.mem_map.1 hT
  have hno : ∀ T, T ∉ d.kTs.map tempName → d.Nothing T := by
    intro T hT
    apply h4
    intro p hp he
    apply hT
    rw [htemps]
    exact List.mem_map.2 ⟨p, hp, he⟩
  have hkind : ∀ p ∈ (t, s) :: l, s.secondary.kind = p.2.secondary.kind := by
    intro p hp
    rcases List.mem_cons.1 hp with rfl | hp
    · rfl
    · exact (hlike p hp).1
  have hlik : ∀ p ∈ (t, s) :: l, Alike s p.2 := by
    intro p hp
    rcases List.mem_cons.1 hp with rfl | hp
    · refine ⟨rfl, ?_⟩
      cases s.elastic with
      | absent => exact Or.inl ⟨rfl, rfl⟩
      | coherent e => exact Or.inr (Or.inl ⟨e, e, rfl, rfl⟩)
      | incoherent p c => exact Or.inr (Or.inr ⟨p, c, p, c, rfl, rfl⟩)
    · exact hlike p hp
  -- what is stored where
  have hone : (t, s) ∈ (t, s) :: l := by simp
  have hlook : ∀ {α : Type} (f : List (Text × α)), (∀ T, d.Nothing T → Dict.get? f T = none) → ∀ T v, Dict.get? f T = some v → ∃ p ∈ (t, s) :: l, p.1.temp = T := by
    intro α f hf T v hv
    by_contra hc
    have hT : T ∉ d.kTs.map tempName := fun hT => hc (hmem T hT)
    rw [hf T (hno T hT)] at hv
    cases hv
  have hst : d.Stored tempName := by
    refine ⟨by rw [htemps]; exact hd, ?_, ?_, ?_, ?_, ?_, ?_, ?_⟩
    · intro T hT
      obtain ⟨p, hp, rfl⟩ := hmem T hT
      obtain ⟨n, hn, _⟩ := C128_kelvin (K := K) (kT := p.1.temperature * 1000000) (mul_nonneg (h0 p hp) (by norm_num))
      exact ⟨n, hn⟩
    · cases hse : s.elastic with
      | absent =>
        left
        apply empty_of
        intro T
        by_cases hT : T ∈ d.kTs.map tempName
        · obtain ⟨p, hp, rfl⟩ := hmem T hT
          rcases (hlik p hp).2 with ⟨_, he⟩ | ⟨e, e', he, _⟩ | ⟨_, _, _, _, he, _⟩
          · exact ((h3 p hp).absent he).1
          · rw [hse] at he; cases he
          · rw [hse] at he; cases he
        · exact (hno T hT).elasticXs
      | coherent e0 =>
        right
        refine fullOn_of (fun T hT => ?_) fun T hT => (hno T hT).elasticXs
        obtain ⟨p, hp, rfl⟩ := hmem T hT
        rcases (hlik p hp).2 with ⟨he, _⟩ | ⟨e, e', _, he⟩ | ⟨_, _, _, _, he, _⟩
        · rw [hse] at he; cases he
        · exact ⟨_, ((h3 p hp).coherent _ he).1⟩
        · rw [hse] at he; cases he
      | incoherent p0 c0 =>
        right
        refine fullOn_of (fun T hT => ?_) fun T hT => (hno T hT).elasticXs
        obtain ⟨p, hp, rfl⟩ := hmem T hT
        rcases (hlik p hp).2 with ⟨he, _⟩ | ⟨e, e', he, _⟩ | ⟨_, _, p', c', _, he⟩
        · rw [hse] at he; cases he
        · rw [hse] at he; cases he
        · exact ⟨_, ((h3 p hp).incoherent _ _ he).1⟩
    · intro T e he
      obtain ⟨p, hp, rfl⟩ := hlook d.elasticXs (fun T h => h.elasticXs) T e he
      cases hpe : p.2.elastic with
      | absent => rw [((h3 p hp).absent hpe).1] at he; cases he
      | coherent x =>
        rw [((h3 p hp).coherent _ hpe).1] at he
        cases he
        simp [Elastic.Stored]
      | incoherent x y =>
        rw [((h3 p hp).incoherent _ _ hpe).1] at he
        cases he
        exact curve_stored _
    · cases hse : s.elastic with
      | absent =>
        left
        apply empty_of
        intro T
        by_cases hT : T ∈ d.kTs.map tempName
        · obtain ⟨p, hp, rfl⟩ := hmem T hT
          rcases (hlik p hp).2 with ⟨_, he⟩ | ⟨e, e', he, _⟩ | ⟨_, _, _, _, he, _⟩
          · exact ((h3 p hp).absent he).2
          · rw [hse] at he; cases he
          · rw [hse] at he; cases he
        · exact (hno T hT).elasticMu
      | coherent e0 =>
        left
        apply empty_of
        intro T
        by_cases hT : T ∈ d.kTs.map tempName
        · obtain ⟨p, hp, rfl⟩ := hmem T hT
          rcases (hlik p hp).2 with ⟨he, _⟩ | ⟨e, e', _, he⟩ | ⟨_, _, _, _, he, _⟩
          · rw [hse] at he; cases he
          · exact ((h3 p hp).coherent _ he).2
          · rw [hse] at he; cases he
        · exact (hno T hT).elasticMu
      | incoherent p0 c0 =>
        right
        refine ⟨fun hnil => ?_, fullOn_of (fun T hT => ?_) fun T hT => (hno T hT).elasticMu⟩
        · have := ((h3 (t, s) hone).incoherent _ _ hse).1
          rw [hnil] at this
          simp [Dict.get?] at this
        · obtain ⟨p, hp, rfl⟩ := hmem T hT
          rcases (hlik p hp).2 with ⟨he, _⟩ | ⟨e, e', he, _⟩ | ⟨_, _, p', c', _, he⟩
          · rw [hse] at he; cases he
          · rw [hse] at he; cases he
          · exact ⟨_, ((h3 p hp).incoherent _ _ he).2⟩
    · refine fullOn_of (fun T hT => ?_) fun T hT => (hno T hT).inelasticXs
      obtain ⟨p, hp, rfl⟩ := hmem T hT
      exact ⟨_, (h3 p hp).inelastic⟩
    · intro T e he
      obtain ⟨p, hp, rfl⟩ := hlook d.inelasticXs (fun T h => h.inelasticXs) T e he
      rw [(h3 p hp).inelastic] at he
      cases he
      exact curve_stored _
    · cases hsec : s.secondary with
      | discrete sk out =>
        left
        have hdis : ∀ p ∈ (t, s) :: l, ∃ sk out, p.2.secondary = .discrete sk out := by
          intro p hp
          rcases kind_discrete (s := p.2.secondary) with hk | hk
          · have := hkind p hp
            rw [hsec, hk] at this
            cases sk <;> simp [Secondary.kind] at this
          · exact hk
        refine ⟨?_, fullOn_of (fun T hT => ?_) fun T hT => (hno T hT).inelasticE, fullOn_of (fun T hT => ?_) fun T hT => (hno T hT).inelasticMu, empty_of fun T => ?_⟩
        · rw [h7, hsec]
          cases sk <;> simp [Secondary.kind]
        · obtain ⟨p, hp, rfl⟩ := hmem T hT
          obtain ⟨sk, out, he⟩ := hdis p hp
          exact ⟨_, ((h3 p hp).discrete _ _ he).1⟩
        · obtain ⟨p, hp, rfl⟩ := hmem T hT
          obtain ⟨sk, out, he⟩ := hdis p hp
          exact ⟨_, ((h3 p hp).discrete _ _ he).2.1⟩
        · by_cases hT : T ∈ d.kTs.map tempName
          · obtain ⟨p, hp, rfl⟩ := hmem T hT
            obtain ⟨sk, out, he⟩ := hdis p hp
            exact ((h3 p hp).discrete _ _ he).2.2
          · exact (hno T hT).inelasticDist
      | continuous locs out =>
        right
        have hcon : ∀ p ∈ (t, s) :: l, ∃ locs out, p.2.secondary = .continuous locs out := by
          intro p hp
          have := hkind p hp
          rw [hsec] at this
          cases hp2 : p.2.secondary with
          | discrete sk out =>
            rw [hp2] at this
            cases sk <;> simp [Secondary.kind] at this
          | continuous locs out => exact ⟨_, _, rfl⟩
        refine ⟨by rw [h7, hsec]; rfl, empty_of fun T => ?_, empty_of fun T => ?_, fullOn_of (fun T hT => ?_) fun T hT => (hno T hT).inelasticDist, ?_⟩
        · by_cases hT : T ∈ d.kTs.map tempName
          · obtain ⟨p, hp, rfl⟩ := hmem T hT
            obtain ⟨_, _, he⟩ := hcon p hp
            exact ((h3 p hp).continuous _ _ he).1
          · exact (hno T hT).inelasticE
        · by_cases hT : T ∈ d.kTs.map tempName
          · obtain ⟨p, hp, rfl⟩ := hmem T hT
            obtain ⟨_, _, he⟩ := hcon p hp
            exact ((h3 p hp).continuous _ _ he).2.1
          · exact (hno T hT).inelasticMu
        · obtain ⟨p, hp, rfl⟩ := hmem T hT
          obtain ⟨_, _, he⟩ := hcon p hp
          exact ⟨_, ((h3 p hp).continuous _ _ he).2.2⟩
        · intro T e he
          obtain ⟨p, hp, rfl⟩ := hlook d.inelasticDist (fun T h => h.inelasticDist) T e he
          obtain ⟨_, _, hc⟩ := hcon p hp
          rw [((h3 p hp).continuous _ _ hc).2.2] at he
          cases he
          exact dist_stored (hr p hp).table (hfull p hp) hc
  obtain ⟨g, d', g1, g2, g3⟩ := data_round tempName ho hst
  refine ⟨d, g, d', h1, g1, g2, by rw [← h2]; exact g3.kTs, fun p hp => ?_, fun T hT => ?_, g3.name.trans h5, g3.awr.trans h6, g3.mode.trans h7, by rw [g3.nuclides]; exact h8⟩
  · have h := h3 p hp
    refine ⟨by rw [g3.inelasticXs]; exact h.inelastic, fun sk out e => ?_, fun locs out e => ?_, fun e => ?_, fun x e => ?_, fun x y e => ?_⟩
    · rw [g3.inelasticE, g3.inelasticMu, g3.inelasticDist, (h.discrete _ _ e).2.2]
      exact ⟨(h.discrete _ _ e).1, (h.discrete _ _ e).2.1, rfl⟩
    · rw [g3.inelasticE, g3.inelasticMu, g3.inelasticDist, (h.continuous _ _ e).2.2]
      refine ⟨(h.continuous _ _ e).1, (h.continuous _ _ e).2.1, ?_⟩
      have := dist_back ⟨[(p.2.inelastic.length : Int)], [2], p.2.inelastic.map fun p => p.1 * 1000000⟩ (out.map spectrumEv) (out.map fun r => r.map fun e => e.2.2.2)
      simp only [List.map_map, Function.comp_def] at this
      rw [Option.map_some]
      exact congrArg some this
    · rw [g3.elasticXs, g3.elasticMu]
      exact h.absent e
    · rw [g3.elasticXs, g3.elasticMu]
      exact h.coherent x e
    · rw [g3.elasticXs, g3.elasticMu]
      exact h.incoherent x y e
  · have h := h4 T hT
    exact ⟨by rw [g3.elasticXs]; exact h.1, by rw [g3.elasticMu]; exact h.2, by rw [g3.inelasticXs]; exact h.3, by rw [g3.inelasticE]; exact h.4, by rw [g3.inelasticMu]; exact h.5,
      by rw [g3.inelasticDist, h.6]; rfl⟩

/-- The two tables of water. -/
example (close : Text → List Text → List Text) {ord : List (Text × Node ℚ) → List (Text × Node ℚ)} (ho : ∀ l, (ord l).Perm l) : ∃ d g d', fromTables close [exWater (253 / 10 ^ 10), exWater (517 / 10 ^ 10)] = .ok d ∧
    dataTo tempName d = .ok g ∧ dataFrom tempName ord d.name g = .ok d' ∧ exSab.At c!"294K" d' ∧ exSab.At c!"600K" d' := by
  obtain ⟨d, g, d', h1, h2, h3, _, h4, _⟩ := C129_tables_partial close ho (stem := c!"lwtr") (by decide) (exWater (253 / 10 ^ 10)) exSab [(exWater (517 / 10 ^ 10), exSab)]
    (by
      intro p hp
      simp only [List.mem_cons, List.not_mem_nil, or_false] at hp
      rcases hp with rfl | rfl <;> exact exWater_reads _)
    (by decide +kernel)
    (by
      intro p hp
      simp only [List.mem_cons, List.not_mem_nil, or_false] at hp
      rcases hp with rfl | rfl <;> (simp only [exWater]; positivity))
    (by
      intro p hp
      simp only [List.mem_cons, List.not_mem_nil, or_false] at hp
      rcases hp with rfl
      exact ⟨rfl, Or.inr (Or.inr ⟨_, _, _, _, rfl, rfl⟩)⟩)
    (by
      intro p hp
      simp only [List.mem_cons, List.not_mem_nil, or_false] at hp
      rcases hp with rfl | rfl <;> (intro locs out h; simp [exSab] at h))
  refine ⟨d, g, d', h1, h2, h3, ?_, ?_⟩
  · have := h4 (exWater (253 / 10 ^ 10), exSab) (by simp)
    have e : (exWater (253 / 10 ^ 10)).temp = c!"294K" := by decide +kernel
    rwa [e] at this
  · have := h4 (exWater (517 / 10 ^ 10), exSab) (by simp)
    have e : (exWater (517 / 10 ^ 10)).temp = c!"600K" := by decide +kernel
    rwa [e] at this

theorem tempsTo_fails {d : Data K} {T : Text} (ht : ∀ o, tempGroup d T ≠ .ok o) : ∀ (l : List Text) (g : Grp K), T ∈ l → ∀ g', tempsTo d l g ≠ .ok g' := by
  intro l
  induction l with
  | nil => intro g h; simp at h
  | cons T' l ih =>
    intro g h g' hc
    unfold tempsTo at hc
    simp only [bind, Except.bind] at hc
    cases h3 : tempGroup d T' with
    | error e => rw [h3] at hc; cases hc
    | ok o =>
      rw [h3] at hc
      simp only at hc
      split at hc
      · cases hc
      · rcases List.mem_cons.1 h with rfl | h
        · exact ht o h3
        · exact ih _ h _ hc

/-- C129 is false when the temperatures do not have the same parts: if the first table has discrete outgoing energies and a temperature has none, nothing is exported. -/
theorem C129_mixed_refuted (temp : K → Text) {d : Data K} (hm : d.mode = some c!"equal" ∨ d.mode = some c!"skewed") (kT : K) (hk : kT ∈ d.kTs) (hT : Dict.get? d.inelasticE (temp kT) = none)
    (hx : d.inelasticXs ≠ []) : ∀ g, dataTo temp d ≠ .ok g := by
  intro g hc
  have hg : ∀ o, inelasticGroup d (temp kT) ≠ .ok o := by
    intro o ho
    unfold inelasticGroup at ho
    rw [if_neg (by simpa using hx)] at ho
    simp only [bind, Except.bind] at ho
    cases h1 : look d.inelasticXs (temp kT) with
    | error e => rw [h1] at ho; cases ho
    | ok t =>
      rw [h1] at ho
      simp only at ho
      cases h2 : Hdf5.tabTo t with
      | error e => rw [h2] at ho; cases ho
      | ok n =>
        rw [h2] at ho
        simp only at ho
        cases h3 : (Grp.empty : Grp K).add c!"xs" n with
        | error e => rw [h3] at ho; cases ho
        | ok g' =>
          rw [h3] at ho
          simp only [outTo] at ho
          rw [if_pos hm] at ho
          simp [look, hT, bind, Except.bind] at ho
  have ht : ∀ o, tempGroup d (temp kT) ≠ .ok o := by
    intro o ho
    unfold tempGroup at ho
    simp only [bind, Except.bind] at ho
    cases h1 : elasticGroup d (temp kT) with
    | error e => rw [h1] at ho; cases ho
    | ok eg =>
      rw [h1] at ho
      simp only at ho
      cases h2 : (Grp.empty : Grp K).addIf c!"elastic" eg with
      | error e => rw [h2] at ho; cases ho
      | ok g' =>
        rw [h2] at ho
        simp only at ho
        cases h3 : inelasticGroup d (temp kT) with
        | error e => rw [h3] at ho; cases ho
        | ok o => exact hg o h3
  unfold dataTo at hc
  simp only [bind, Except.bind] at hc
  cases h1 : Hdf5.kTsTo temp d.kTs (Grp.empty : Grp K) with
  | error e => rw [h1] at hc; cases hc
  | ok kg =>
    rw [h1] at hc
    simp only at hc
    split at hc
    · cases hc
    · exact tempsTo_fails ht _ _ (List.mem_map.2 ⟨kT, hk, rfl⟩) g hc

/-- Continuous outgoing energies, with one cosine. -/
def exCont : Sab ℚ := ⟨[(1 / 100, 20)], .continuous [6] [[(1 / 200, 1, 1, [0])]], .absent⟩

def exContArrays : Arrays ℚ where
  nxs := [0, 0, 0, 2, 1, 0, -1, 2]
  jxs := [0, 1, 0, 4, 0, 0, 0]
  xss := [0, 1, 1 / 100, 20, 6, 1, 0, 1 / 200, 1, 1, 0]

theorem exCont_in : exCont.In exContArrays where
  inelastic := ⟨1, rfl, at_of_take (by decide +kernel)⟩
  secondary := ⟨4, 1, 1, rfl, rfl, rfl, rfl, rfl, rfl, by decide +kernel, at_of_take (by decide +kernel), by
    intro i l r h1 h2
    cases i with
    | zero =>
      cases h1
      cases h2
      exact at_of_take (by decide +kernel)
    | succ i => cases h1⟩
  elastic := ⟨rfl, -1, rfl⟩

/-- Continuous at 294 K, with an outgoing energy and a cosine: stored and read back. -/
def exGas (kT : ℚ) : Ace ℚ := ⟨c!"lwtr.20t", kT, 1, [(1001, 1), (0, 0)], exContArrays⟩

theorem exGas_reads (kT : ℚ) : Reads c!"lwtr" (exGas kT) exCont where
  named := ⟨c!"20t", rfl, by decide⟩
  known := (exWater_reads kT).known
  table := exCont_in

example (close : Text → List Text → List Text) {ord : List (Text × Node ℚ) → List (Text × Node ℚ)} (ho : ∀ l, (ord l).Perm l) : ∃ d g d', fromTables close [exGas (253 / 10 ^ 10)] = .ok d ∧
    dataTo tempName d = .ok g ∧ dataFrom tempName ord d.name g = .ok d' ∧ exCont.At c!"294K" d' := by
  obtain ⟨d, g, d', h1, h2, h3, _, h4, _⟩ := C129_tables_partial close ho (stem := c!"lwtr") (by decide) (exGas (253 / 10 ^ 10)) exCont []
    (by
      intro p hp
      simp only [List.mem_cons, List.not_mem_nil, or_false] at hp
      rcases hp with rfl
      exact exGas_reads _)
    (by decide +kernel)
    (by
      intro p hp
      simp only [List.mem_cons, List.not_mem_nil, or_false] at hp
      rcases hp with rfl
      simp only [exGas]
      positivity)
    (by simp)
    (by
      intro p hp
      simp only [List.mem_cons, List.not_mem_nil, or_false] at hp
      rcases hp with rfl
      intro locs out h
      simp only [exCont, Secondary.continuous.injEq] at h
      obtain ⟨rfl, rfl⟩ := h
      decide +kernel)
  refine ⟨d, g, d', h1, h2, h3, ?_⟩
  have := h4 (exGas (253 / 10 ^ 10), exCont) (by simp)
  have e : (exGas (253 / 10 ^ 10)).temp = c!"294K" := by decide +kernel
  rwa [e] at this

/-- Data that are not exported come from two tables of one material: discrete outgoing energies at 294 K and continuous ones at 600 K. -/
example (close : Text → List Text → List Text) : ∃ d, fromTables close [exWater (253 / 10 ^ 10), exGas (517 / 10 ^ 10)] = .ok d ∧ ∀ g, dataTo tempName d ≠ .ok g := by
  obtain ⟨d, h1, h2, h3, _, _, _, h4, _⟩ := C128_temperatures_partial close (stem := c!"lwtr") (by decide) (exWater (253 / 10 ^ 10)) exSab [(exGas (517 / 10 ^ 10), exCont)]
    (by
      intro p hp
      simp only [List.mem_cons, List.not_mem_nil, or_false] at hp
      rcases hp with rfl | rfl
      · exact exWater_reads _
      · exact exGas_reads _)
    (by decide +kernel)
  have hat := h3 (exGas (517 / 10 ^ 10), exCont) (by simp)
  refine ⟨d, h1, C129_mixed_refuted tempName (Or.inr h4) (517 / 10 ^ 10 * 1000000) (by rw [h2]; simp [exGas]) (hat.continuous _ _ rfl).1 ?_⟩
  intro hnil
  have := hat.inelastic
  rw [hnil] at this
  simp [Dict.get?] at this

end ASAPy.Thermal
