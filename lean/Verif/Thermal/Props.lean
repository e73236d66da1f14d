import Verif.Thermal.Lemmas
import Verif.Thermal.Names

/-!
# Thermal scattering data: what is read from a table (C125), coherent elastic scattering (C126), names (C127), temperatures (C128)
-/

set_option linter.unusedSectionVars false

namespace ASAPy.Thermal

open ASAPy.Hdf5 (Text Dist Uni)
open ASAPy.FromAce (Arrays AtL item slice slice_at at_append item_nat pyTrunc_nat)
open Dec

variable {K : Type} [Field K] [LinearOrder K] [FloorRing K] [IsStrictOrderedRing K]

/-! ### C125 -/

theorem at_pairs {a : Arrays K} {p : Nat} {l : List (K × K)} (h : AtL a.xss p (pairsNumbers l)) :
    a.int (p : Int) = .ok (l.length : Int) ∧ slice a.xss ((p : Int) + 1) ((p : Int) + 1 + l.length) = l.map Prod.fst ∧
      slice a.xss ((p : Int) + 1 + l.length) ((p : Int) + 1 + 2 * l.length) = l.map Prod.snd := by
  have h0 := Dists.at_nat h 0 (n := l.length) (by simp [pairsNumbers]) p (by simp)
  have h' : AtL a.xss (p + 1) (l.map Prod.fst ++ l.map Prod.snd) := by
    intro k v hk
    have := h (k + 1) v (by simpa [pairsNumbers] using hk)
    rw [← this]
    congr 1
    omega
  obtain ⟨h1, h2⟩ := at_append h'
  exact ⟨h0, slice_at h1 _ _ (by push_cast; ring) (by simp), slice_at h2 _ _ (by simp) (by simp; ring)⟩

/-- What is kept of the elastic part. -/
def elasticBack : ElasticPart K → Option (Elastic K × Option (List (List K)))
  | .absent => none
  | .coherent edges => some (.coherent (edges.map fun p => p.1 * 1000000) (edges.map fun p => p.2 * 1000000), none)
  | .incoherent points cosines => some (.incoherent (curve points), some cosines)

theorem elasticOf_ok {a : Arrays K} {e : ElasticPart K} (h : e.In a) : elasticOf a = .ok (elasticBack e) := by
  cases e with
  | absent =>
    obtain ⟨h1, k, h2⟩ := h
    have i1 : item a.jxs 4 = .ok 0 := item_nat a.jxs 4 _ h1
    have i2 : item a.nxs 6 = .ok k := item_nat a.nxs 6 _ h2
    unfold elasticOf
    rw [i1, i2]
    rfl
  | coherent edges =>
    obtain ⟨p, hp, h1, h2, h3, h4⟩ := h
    obtain ⟨e1, e2, e3⟩ := at_pairs h4
    have i1 : item a.jxs 4 = .ok (p : Int) := item_nat a.jxs 4 _ h1
    have i2 : item a.nxs 6 = .ok (-1) := item_nat a.nxs 6 _ h3
    have i3 : item a.nxs 5 = .ok 4 := item_nat a.nxs 5 _ h2
    unfold elasticOf
    rw [i1, i2]
    simp only [bind, Except.bind]
    rw [if_neg (by omega), e1, i3]
    simp only [e2, e3]
    simp [elasticBack]
  | incoherent points cosines =>
    obtain ⟨p, q, m, k, hp, h1, h2, h3, h4, h5, h6, h7, h8, h9⟩ := h
    obtain ⟨e1, e2, e3⟩ := at_pairs h6
    have i1 : item a.jxs 4 = .ok (p : Int) := item_nat a.jxs 4 _ h1
    have i2 : item a.nxs 6 = .ok (m : Int) := item_nat a.nxs 6 _ h5
    have i3 : item a.nxs 5 = .ok k := item_nat a.nxs 5 _ h3
    have i4 : item a.jxs 6 = .ok (q : Int) := item_nat a.jxs 6 _ h2
    unfold elasticOf
    rw [i1, i2]
    simp only [bind, Except.bind]
    rw [if_neg (by omega), e1, i3, i4]
    simp only [e2, e3]
    rw [if_neg h4, if_neg (by omega)]
    rw [slice_at h9 _ _ rfl (by rw [flatten_length cosines h8, h7]; push_cast; ring), reshape_flatten cosines h8 _ _ (by rw [h7]) (by push_cast; ring)]
    simp [elasticBack, curve, Tab1D.linlin]

/-- C125: what a thermal scattering table says is what the data hold, in eV, at the temperature of the table: the inelastic cross section, the outgoing energies and cosines, the elastic cross section
and its cosines; and the nuclides are those the table applies to. -/
theorem C125_read_partial (close : Text → List Text → List Text) (t : Ace K) (stem ext : Text) (s : Sab K) (arg : Option Text)
    (hname : t.name = stem ++ '.' :: ext) (hs : '.' ∉ stem) (he : '.' ∉ ext) (hk : Known t.pairs) (h : s.In t.arrays) :
    ∃ d, fromAce close t arg = .ok d ∧ d.name = thermalName close stem ∧ d.awr = t.awr ∧ d.kTs = [t.temperature * 1000000] ∧ s.Read (tempName (t.temperature * 1000000)) d ∧
      ∀ n, n ∈ d.nuclides ↔ Applies t.pairs n := by
  obtain ⟨⟨p, h1, h2⟩, h3, h4⟩ := h
  obtain ⟨e1, e2, e3⟩ := at_pairs h2
  have hstem : stemOf t.name = .ok stem := by
    have : t.name.splitOnP (· = '.') = [stem, ext] := by
      rw [hname]
      have := List.splitOnP_append_cons (p := fun c => decide (c = '.')) stem ext (sep := '.') (by simp)
      rw [this, List.splitOnP_eq_singleton (by intro c hc; simp; rintro rfl; exact hs hc), List.splitOnP_eq_singleton (by intro c hc; simp; rintro rfl; exact he hc)]
      rfl
    rw [stemOf, this]
  obtain ⟨ns, n1, n2⟩ := nuclidesOf_ok t.pairs [] hk
  have hel := elasticOf_ok h4
  have hin : ∃ n7 : Int, t.arrays.nxs[7]? = some n7 ∧ inelasticOf t.arrays (modeOf n7) (s.inelastic.length : Int) (s.inelastic.map fun p => p.1 * 1000000) = .ok (match s.secondary with
      | .discrete _ out => (some (out.map fun r => r.map fun e => e.1 * 1000000, out.map fun r => r.map fun e => e.2), none)
      | .continuous _ out => (none, some (.correlated ⟨[(s.inelastic.length : Int)], [2], s.inelastic.map fun p => p.1 * 1000000⟩ (out.map spectrumEv) (out.map fun r => r.map fun e => equallyLikely e.2.2.2)))) ∧
      modeOf n7 = some (match s.secondary with
        | .discrete sk _ => if sk then c!"skewed" else c!"equal"
        | .continuous _ _ => c!"continuous") := by
    cases hsec : s.secondary with
    | discrete sk out =>
      rw [hsec] at h3
      obtain ⟨q, k, m, a1, a2, a3, a4, a5, a6, a7⟩ := h3
      refine ⟨_, a2, ?_, by cases sk <;> simp [modeOf]⟩
      unfold inelasticOf
      rw [show ((4 : Int)) = ((4 : Nat) : Int) from rfl, item_nat _ _ _ a4, show ((3 : Int)) = ((3 : Nat) : Int) from rfl, item_nat _ _ _ a3, item_nat _ _ _ a1]
      simp only [bind, Except.bind]
      rw [if_pos (by cases sk <;> simp [modeOf]), discreteOut_ok a6 a7 _ (by rw [a5])]
    | continuous locs out =>
      rw [hsec] at h3
      obtain ⟨q, m, k, a1, a2, a3, a4, a5, a6, a7, a8, a9⟩ := h3
      refine ⟨_, a2, ?_, by simp [modeOf]⟩
      unfold inelasticOf
      rw [show ((4 : Int)) = ((4 : Nat) : Int) from rfl, item_nat _ _ _ a4, show ((3 : Int)) = ((3 : Nat) : Int) from rfl, item_nat _ _ _ a3, item_nat _ _ _ a1]
      simp only [bind, Except.bind]
      rw [if_neg (by simp [modeOf]), show (m : Int) + 1 - 1 = (m : Int) by ring, continuousOut_ok a5 a6 a7 a8 a9]
  obtain ⟨n7, b1, b2, b3⟩ := hin
  have hx : (slice t.arrays.xss ((p : Int) + 1) ((p : Int) + 1 + s.inelastic.length)).map (· * (1000000 : K)) = s.inelastic.map fun p => p.1 * 1000000 := by
    rw [e2, List.map_map]; rfl
  have hcurve : Tab1D.linlin (s.inelastic.map fun p => p.1 * 1000000) (s.inelastic.map Prod.snd) = curve s.inelastic := by simp [curve, Tab1D.linlin]
  unfold fromAce
  rw [hstem]
  simp only [bind, Except.bind]
  rw [show ((1 : Int)) = ((1 : Nat) : Int) from rfl, item_nat _ _ _ h1]
  simp only
  rw [e1]
  simp only
  rw [show ((7 : Int)) = ((7 : Nat) : Int) from rfl, item_nat _ _ _ b1]
  simp only [Nat.cast_one, hx, e3]
  rw [b2]
  simp only
  rw [hel]
  simp only
  rw [n1]
  simp only
  refine ⟨_, rfl, rfl, rfl, rfl, ?_, fun n => by simpa using n2 n⟩
  refine ⟨by simp only [hcurve], ?_, ?_, ?_, ?_, ?_⟩
  · intro sk out e
    simp only [e] at b3 ⊢
    simp [b3]
  · intro locs out e
    simp only [e] at b3 ⊢
    simp [b3]
  · intro e
    simp [e, elasticBack]
  · intro edges e
    simp [e, elasticBack]
  · intro points cosines e
    simp [e, elasticBack]

/-- C125 for a name given by the caller: it is not used; the result is the same for every name. -/
theorem C125_name_refuted (close : Text → List Text → List Text) (t : Ace K) (a b : Option Text) : fromAce close t a = fromAce close t b := rfl

/-! ### C126 -/

/-- The documented coherent elastic cross section (thermal.py 126): the sum of the structure factors of all Bragg edges below the energy, divided by the energy. -/
def documented (edges : List (K × K)) (e : K) : K := ((edges.filter fun p => decide (p.1 < e)).map Prod.snd).sum / e

/-- The partial sums of structure factors: at each edge the sum up to and including this edge. -/
def partialSums (edges : List (K × K)) : List K := (List.range edges.length).map fun k => ((edges.take (k + 1)).map Prod.snd).sum

theorem filter_sorted {edges : List (K × K)} (hs : edges.Pairwise fun p q => p.1 < q.1) (e : K) :
    edges.filter (fun p => decide (p.1 < e)) = edges.take (Np.searchsortedLeft (edges.map Prod.fst) e) := by
  induction edges with
  | nil => simp
  | cons p l ih =>
    rw [List.pairwise_cons] at hs
    unfold Np.searchsortedLeft
    by_cases h : p.1 < e
    · rw [List.filter_cons, if_pos (by simpa using h), List.map_cons, List.takeWhile_cons, if_pos (by simpa using h), List.length_cons, List.take_succ_cons]
      congr 1
      exact ih hs.2
    · rw [List.map_cons, List.takeWhile_cons, if_neg (by simpa using h)]
      rw [List.filter_eq_nil_iff.2]
      · rfl
      · intro q hq
        rcases List.mem_cons.1 hq with rfl | hq
        · simpa using h
        · simp only [decide_eq_true_eq, not_lt]
          exact le_trans (not_lt.1 h) (le_of_lt (hs.1 q hq))

/-- C126, what holds: up to the last edge the value has the structure factor of the next edge, at or above the energy, in addition; above the last edge there is none. -/
theorem C126_next_partial {edges : List (K × K)} (hs : edges.Pairwise fun p q => p.1 < q.1) (e : K) :
    (∀ k (hk : k < edges.length), (∀ i (hi : i < k), (edges[i]'(by omega)).1 < e) → e ≤ edges[k].1 → braggAt (edges.map Prod.fst) (partialSums edges) e = .ok (documented edges e + edges[k].2 / e)) ∧
      ((∀ p ∈ edges, p.1 < e) → braggAt (edges.map Prod.fst) (partialSums edges) e = .error .indexError) := by
  constructor
  · intro k hk hlt hge
    have hk' : Np.searchsortedLeft (edges.map Prod.fst) e = k := by
      apply Np.searchsortedLeft_eq _ _ _ (by simpa using hk.le)
      · intro i hi
        simpa using hlt i hi
      · intro _
        simpa using hge
    unfold braggAt documented
    rw [filter_sorted hs, hk']
    have : (partialSums edges)[k]? = some (((edges.take k).map Prod.snd).sum + edges[k].2) := by
      rw [partialSums, List.getElem?_map, List.getElem?_range hk, Option.map_some, List.take_add_one, List.getElem?_eq_getElem hk, Option.toList_some, List.map_append, List.sum_append]
      simp
    rw [this]
    simp only [add_div]
  · intro h
    have hk' : Np.searchsortedLeft (edges.map Prod.fst) e = edges.length := by
      apply Np.searchsortedLeft_eq _ _ _ (by simp)
      · intro i hi
        simpa using h _ (List.getElem_mem hi)
      · intro hc
        simp at hc
    unfold braggAt
    rw [hk', List.getElem?_eq_none (by simp [partialSums])]

/-- C126 is false: with positive structure factors the value is wrong at every energy. -/
theorem C126_coherent_refuted {edges : List (K × K)} (hs : edges.Pairwise fun p q => p.1 < q.1) (hp : ∀ p ∈ edges, 0 < p.2) {e : K} (he : 0 < e) :
    braggAt (edges.map Prod.fst) (partialSums edges) e ≠ .ok (documented edges e) := by
  obtain ⟨h1, h2⟩ := C126_next_partial hs e
  by_cases h : ∀ p ∈ edges, p.1 < e
  · rw [h2 h]
    exact fun h => by cases h
  · have hk : Np.searchsortedLeft (edges.map Prod.fst) e < edges.length := by
      have hle := Np.searchsortedLeft_le (edges.map Prod.fst) e
      rw [List.length_map] at hle
      apply lt_of_le_of_ne hle
      intro heq
      apply h
      intro p hp'
      obtain ⟨i, hi, rfl⟩ := List.getElem_of_mem hp'
      simpa using Np.lt_of_lt_searchsortedLeft (edges.map Prod.fst) e i (by rw [heq]; exact hi)
    rw [h1 _ hk (fun i hi => by simpa using Np.lt_of_lt_searchsortedLeft (edges.map Prod.fst) e i hi) (by
      have := Np.le_of_searchsortedLeft (edges.map Prod.fst) e (by simpa using hk)
      rwa [List.getElem_map] at this)]
    intro hc
    injection hc with hc
    have : 0 < (edges[Np.searchsortedLeft (edges.map Prod.fst) e]).2 / e := div_pos (hp _ (List.getElem_mem hk)) he
    linarith

/-- Two Bragg edges, an energy between them: 7/3 instead of 1/3. -/
example : braggAt [2, 4] (partialSums [((2 : ℚ), (1 : ℚ)), (4, 6)]) 3 = .ok (7 / 3) ∧ documented [((2 : ℚ), (1 : ℚ)), (4, 6)] 3 = 1 / 3 := by
  constructor
  · decide +kernel
  · decide +kernel

/-! ### C127 -/

/-- C127: every listed name of a table, in capital or small letters, gives the material it is listed under, and no other material lists it. -/
theorem C127_listed (close : Text → List Text → List Text) {k : Text} {names : List Text} (h : (k, names) ∈ thermalNames) {name : Text} (hn : lower name ∈ names) :
    thermalName close name = k ∧ ∀ k' names', (k', names') ∈ thermalNames → lower name ∈ names' → k' = k := by
  have hk := keyOf_mem thermalNames names_unique h hn
  constructor
  · unfold thermalName
    rw [if_neg, hk]
    intro hm
    exact keys_apart name hm (List.mem_flatten.2 ⟨names, List.mem_map.2 ⟨_, h, rfl⟩, hn⟩)
  · intro k' names' h' hn'
    rw [keyOf_mem thermalNames names_unique h' hn'] at hk
    injection hk

/-- C127: a name of a material is kept. -/
theorem C127_kept (close : Text → List Text → List Text) {k : Text} (h : k ∈ thermalNames.map Prod.fst) : thermalName close k = k := by
  unfold thermalName
  rw [if_pos h]

/-- C127: every other name gives one of the materials, if something similar is found in the list, and otherwise `c_` and the name. -/
theorem C127_known (close : Text → List Text → List Text) (hc : ∀ n l, ∀ m ∈ close n l, m ∈ l) (name : Text) :
    thermalName close name ∈ thermalNames.map Prod.fst ∨ (close name allNames = [] ∧ thermalName close name = c!"c_" ++ name) := by
  unfold thermalName
  by_cases h : name ∈ thermalNames.map Prod.fst
  · rw [if_pos h]
    exact Or.inl h
  · rw [if_neg h]
    cases hk : keyOf (lower name) thermalNames with
    | some k =>
      obtain ⟨ns, h1, _⟩ := keyOf_some hk
      exact Or.inl (List.mem_map.2 ⟨_, h1, rfl⟩)
    | none =>
      simp only
      cases hm : close name allNames with
      | nil => exact Or.inr ⟨rfl, rfl⟩
      | cons m ms =>
        left
        simp only
        have hmem := hc name allNames m (by simp [hm])
        by_cases h' : m ∈ thermalNames.map Prod.fst
        · rw [if_pos h']
          exact h'
        · rw [if_neg h']
          unfold allNames at hmem
          rcases List.mem_append.1 hmem with hmem | hmem
          · exact absurd hmem h'
          · obtain ⟨ns, h1, h2⟩ := List.mem_flatten.1 hmem
            obtain ⟨⟨k, ns'⟩, h3, rfl⟩ := List.mem_map.1 h1
            rw [keyOf_mem thermalNames names_unique h3 h2]
            exact List.mem_map.2 ⟨_, h3, rfl⟩

/-- C127: no nuclide is listed twice if no ZAID is given twice. -/
theorem C127_once {pairs : List (Int × K)} (hk : Known pairs) (hz : ((pairs.map Prod.fst).filter fun z => decide (0 < z)).Nodup) : ∃ l, nuclidesOf pairs [] = .ok l ∧ l.Nodup ∧ ∀ n, n ∈ l ↔ Applies pairs n := by
  obtain ⟨l, h1, h2⟩ := nuclidesOf_ok pairs [] hk
  exact ⟨l, h1, nuclidesOf_nodup pairs [] hk hz (by simp) (by simp) l h1, fun n => by simpa using h2 n⟩

/-- Water and zirconium. -/
example : nuclidesOf [((1001 : Int), (1 : ℚ)), (8016, 16), (40000, 90), (0, 0)] [] =
    .ok [c!"H1", c!"O0", c!"O16", c!"O17", c!"O18", c!"Zr0", c!"Zr90", c!"Zr91", c!"Zr92", c!"Zr94", c!"Zr96"] := by decide +kernel

example : thermalName (fun _ _ => []) c!"LWTR" = c!"c_H_in_H2O" := by decide +kernel

end ASAPy.Thermal
