import Verif.Dists.NeutronProps
import Verif.Dists.SpectrumProps

/-! # C114 and C115: photons and probability tables -/

set_option linter.unusedSimpArgs false
set_option linter.unusedSectionVars false

namespace ASAPy.Dists
open ASAPy.FromAce ASAPy.Func

section
variable {K : Type} [Field K] [LinearOrder K] [FloorRing K] [IsStrictOrderedRing K] [ExpLog K]

theorem item_neg_one {α : Type} {l : List α} {v : α} (h : l.getLast? = some v) : item l (-1) = .ok v := by
  have hne : l ≠ [] := by rintro rfl; cases h
  rw [item_last l hne]
  rw [List.getLast?_eq_some_getLast hne, Option.some.injEq] at h
  rw [h]

theorem ratio_values {R : K → K → Prop} : ∀ {es ss vs : List K}, List.Forall₂ R es ss → vs.length = es.length → ∀ (k : Nat) (e v w : K), es[k]? = some e → vs[k]? = some v →
    (List.zipWith (fun p s => if s > 0 then p / s else 0) vs ss)[k]? = some w → ∃ s, R e s ∧ (0 < s → w * s = v) ∧ (s ≤ 0 → w = 0)
  | _, _, _, .nil, _, k, _, _, _, he, _, _ => by simp at he
  | _, _, [], .cons _ _, hl, _, _, _, _, _, _, _ => by simp at hl
  | _ :: es, s :: ss, v' :: vs, .cons hr ht, hl, k, e, v, w, he, hv, hw => by
    cases k with
    | zero =>
      simp only [List.getElem?_cons_zero, Option.some.injEq, List.zipWith_cons_cons] at he hv hw
      subst he hv hw
      refine ⟨s, hr, fun hs => ?_, fun hs => ?_⟩
      · rw [if_pos hs, div_mul_cancel₀ _ (ne_of_gt hs)]
      · rw [if_neg (not_lt.mpr hs)]
    | succ k =>
      simp only [List.getElem?_cons_succ, List.zipWith_cons_cons] at he hv hw
      exact ratio_values ht (by simpa using hl) k e v w he hv hw

theorem at_sub {α : Type} {l vs : List α} {p : Nat} (h : AtL l p vs) (i n : Nat) : AtL l (p + i) ((vs.drop i).take n) := by
  intro k v hk
  rw [List.getElem?_take] at hk
  split_ifs at hk with hkn
  rw [List.getElem?_drop] at hk
  have := h (i + k) v hk
  rwa [← Nat.add_assoc] at this

theorem photonYield_at {a : Arrays K} {mt : Nat} {xs : Tab1D K} {i place j j' j1 : Nat} {places : List K} {p : Production K} {grid : List K} (hg : AtL a.xss j1 grid)
    (h1 : a.jxs[1]? = some (j1 : Int)) (h14 : a.jxs[14]? = some (j : Int)) (h15 : a.jxs[15]? = some (j' : Int)) (hp : AtL a.xss j places) (hi : places[i]? = some (place : K)) (hpos : 0 < place)
    (hat : AtL a.xss (j' + place - 1) p.numbers) (hgood : p.Good grid mt) (hw : Tab1D.WF xs) : ∃ y, photonYield a mt xs i = .ok y ∧ p.Is grid xs y ∧ y.x ≠ [] := by
  have e14 := at_nat hp i hi ((j : Int) + i) rfl
  cases p with
  | yields mf mt' t =>
    obtain ⟨hmf, rfl, hf, hne⟩ := hgood
    refine ⟨tabEv t, ?_, rfl, by simpa [tabEv] using hne⟩
    have e0 := at_nat hat 0 (n := mf) rfl ((j' : Int) + place - 1) (by omega)
    have e1 := at_nat hat 1 (n := mt') rfl ((j' : Int) + place - 1 + 1) (by omega)
    have ht := tab1_at (at_append hat).2 hf ((j' : Int) + place - 1 + 1 + 1) (by simp only [List.length_cons, List.length_nil]; omega)
    unfold photonYield
    simp only [bind, Except.bind, item_some h14 14 rfl, item_some h15 15 rfl, e14, e0, e1]
    rw [if_pos (by omega)]
    simp only [ne_eq, not_true_eq_false, if_false, ht]
  | crossSection first vals =>
    obtain ⟨hf, hlen, hne⟩ := hgood
    have e0 := at_int hat 0 (n := 13) (by simp [Production.numbers]) ((j' : Int) + place - 1) (by omega)
    have e1 := at_nat hat 1 (n := first) rfl ((j' : Int) + place - 1 + 1) (by omega)
    have e2 := at_nat hat 2 (n := vals.length) rfl ((j' : Int) + place - 1 + 1 + 1) (by omega)
    have hv := slice_at (at_append hat).2 ((j' : Int) + place - 1 + 1 + 2) ((j' : Int) + place - 1 + 1 + 2 + vals.length) (by simp only [List.length_cons, List.length_nil]; omega) rfl
    have hl : ((grid.drop (first - 1)).take vals.length).length = vals.length := by simp; omega
    have hs := slice_at (at_sub hg (first - 1) vals.length) ((j1 : Int) + ((first : Int) - 1)) ((j1 : Int) + ((first : Int) - 1) + vals.length) (by push_cast; omega) (by rw [hl])
    obtain ⟨ss, hss, hR⟩ := evals_ok hw (((grid.drop (first - 1)).take vals.length).map (· * 1000000))
    have hsl : ss.length = vals.length := by rw [← hR.length_eq, List.length_map, hl]
    have hcomm : ((grid.drop (first - 1)).take vals.length).map (1000000 * ·) = ((grid.drop (first - 1)).take vals.length).map (· * 1000000) :=
      List.map_congr_left fun v _ => mul_comm _ _
    refine ⟨.linlin (((grid.drop (first - 1)).take vals.length).map (· * 1000000)) (List.zipWith (fun p s => if s > 0 then p / s else 0) vals ss), ?_,
      ⟨List.zipWith (fun p s => if s > 0 then p / s else 0) vals ss, ?_, ?_, ?_⟩, ?_⟩
    · unfold photonYield
      simp only [bind, Except.bind, item_some h14 14 rfl, item_some h15 15 rfl, item_some h1 1 rfl, e14, e0, e1, e2, hs, hv, hss, pure, Except.pure]
      rw [if_neg (by decide), if_pos trivial, if_neg (by simp [hsl])]
    · rw [hcomm]
    · simp [hsl]
    · intro k e v w he hv hw
      have hk : k < vals.length := (List.getElem?_eq_some_iff.mp hv).1
      have hek : (((grid.drop (first - 1)).take vals.length).map (· * 1000000))[k]? = some (e * 1000000) := by
        rw [List.getElem?_map, List.getElem?_take, if_pos hk, List.getElem?_drop, he]; rfl
      obtain ⟨s, h1, h2, h3⟩ := ratio_values hR (by rw [List.length_map, hl]) k _ v w hek hv hw
      exact ⟨s, by rwa [mul_comm], h2, h3⟩
    · intro h0
      have : (((grid.drop (first - 1)).take vals.length).map (· * 1000000)).length = 0 := by
        have h0' : (((grid.drop (first - 1)).take vals.length).map (· * 1000000)) = [] := h0
        rw [h0']; rfl
      rw [List.length_map, hl] at this
      exact hne (List.length_eq_zero_iff.mp this)

theorem photon_at {a : Arrays K} {awr : K} {grid : List K} {ps : List (Photon K)} (h : HoldsPhotons a awr grid ps) {xs : Tab1D K} (hw : Tab1D.WF xs) {i : Nat} {p : Photon K} (hi : ps[i]? = some p) :
    ∃ y d, photonYield a ((p.number / 1000 : Nat) : Int) xs i = .ok y ∧ photonDist a awr y i = .ok d ∧ IsPhoton grid xs p (y, d) := by
  obtain ⟨-, ⟨j1, h1, hg⟩, -, ⟨j14, j15, h14, h15, hp, hin⟩, ⟨j18, j19, h18, h19, hs, hspec⟩, ⟨j16, j17, h16, h17, ha, hang⟩⟩ := h
  have hmem : p ∈ ps := List.mem_of_getElem? hi
  obtain ⟨hpos, hat, hgood⟩ := hin p hmem
  obtain ⟨y, hy, his, hne⟩ := photonYield_at (i := i) hg h1 h14 h15 hp (by rw [List.getElem?_map, hi]; rfl) hpos hat hgood hw
  have e18 := at_nat hs i (n := p.start) (by rw [List.getElem?_map, hi]; rfl) ((j18 : Int) + i) rfl
  have e16 := at_nat ha i (n := p.loc) (by rw [List.getElem?_map, hi]; rfl) ((j16 : Int) + i) rfl
  obtain ⟨hlaw, hun⟩ := hspec p hmem
  obtain ⟨e0, he0⟩ : ∃ e0, y.x.head? = some e0 := ⟨_, List.head?_eq_some_head hne⟩
  obtain ⟨e1, he1⟩ : ∃ e1, y.x.getLast? = some e1 := ⟨_, List.getLast?_eq_some_getLast hne⟩
  by_cases h0 : p.loc = 0
  · refine ⟨y, (p.spectrum, ⟨[e0, e1], [.uniform, .uniform]⟩), hy, ?_, his, rfl, fun _ => ⟨e0, e1, he0, he1, rfl⟩, fun hc => by omega⟩
    unfold photonDist
    simp only [bind, Except.bind, item_some h18 18 rfl, item_some h19 19 rfl, e18, hlaw, hun, not_true_eq_false, if_false, item_some h16 16 rfl, e16, h0, Nat.cast_zero, if_true,
      item_some (l := y.x) (k := 0) (by rw [← List.head?_eq_getElem?]; exact he0) 0 rfl, item_neg_one he1, pure, Except.pure]
  · obtain ⟨hlen, hcin, hcat⟩ := (hang p hmem).resolve_left h0
    obtain ⟨ang, ha1, ha2, ha3⟩ := C108_angles (by omega) hlen hcin hcat
    refine ⟨y, (p.spectrum, ang), hy, ?_, his, rfl, fun hc => absurd hc h0, fun _ => ⟨ha2, ha3⟩⟩
    unfold photonDist
    simp only [bind, Except.bind, item_some h18 18 rfl, item_some h19 19 rfl, e18, hlaw, hun, not_true_eq_false, if_false, item_some h16 16 rfl, e16, Nat.cast_eq_zero, h0,
      item_some h17 17 rfl, ha1, pure, Except.pure]

/-- **C114.** The photons of a reaction are those of the file whose number names the reaction, in the order of the file, with their yields, spectra and angular distributions. -/
theorem C114_photons {a : Arrays K} {awr : K} {grid : List K} {ps : List (Photon K)} (h : HoldsPhotons a awr grid ps) {xs : Tab1D K} (hw : Tab1D.WF xs) (mt : Nat) :
    ∃ rs, photonsOf a awr mt xs = .ok rs ∧ List.Forall₂ (IsPhoton grid xs) (ps.filter fun p => p.number / 1000 = mt) rs := by
  obtain ⟨j13, h13, hnum⟩ := h.numbers
  have hn := h.count
  have hmts : (slice a.xss (j13 : Int) ((j13 : Int) + ps.length)).map pyTrunc = ps.map fun p => (p.number : Int) := by
    rw [slice_at hnum _ _ rfl (by rw [List.length_map]), List.map_map]
    exact List.map_congr_left fun p _ => pyTrunc_nat _
  have loop : ∀ (n : Nat), n ≤ ps.length → ∃ rs, photonLoop a awr mt xs (ps.map fun p => (p.number : Int)) ((List.range ps.length).drop (ps.length - n)) = .ok rs ∧
      List.Forall₂ (IsPhoton grid xs) ((ps.drop (ps.length - n)).filter fun p => p.number / 1000 = mt) rs := by
    intro n
    induction n with
    | zero => intro _; exact ⟨[], by rw [List.drop_of_length_le (by simp)]; rfl, by simp⟩
    | succ n ih =>
      intro hle
      obtain ⟨rs, h1, h2⟩ := ih (by omega)
      have hlt : ps.length - (n + 1) < ps.length := by omega
      have hidx : ps.length - (n + 1) + 1 = ps.length - n := by omega
      have hr : (List.range ps.length).drop (ps.length - (n + 1)) = (ps.length - (n + 1)) :: (List.range ps.length).drop (ps.length - n) := by
        rw [List.drop_eq_getElem_cons (by simpa using hlt), List.getElem_range, hidx]
      have hps : ps.drop (ps.length - (n + 1)) = ps[ps.length - (n + 1)] :: ps.drop (ps.length - n) := by
        rw [List.drop_eq_getElem_cons hlt, hidx]
      have hi : ps[ps.length - (n + 1)]? = some ps[ps.length - (n + 1)] := List.getElem?_eq_getElem hlt
      rw [hr, hps]
      generalize ps[ps.length - (n + 1)] = p at hi ⊢
      have hitem : item (ps.map fun p => (p.number : Int)) ((ps.length - (n + 1) : Nat) : Int) = .ok (p.number : Int) :=
        item_nat _ _ _ (by rw [List.getElem?_map, hi]; rfl)
      have hdiv : ((p.number : Int) / 1000 = (mt : Int)) ↔ p.number / 1000 = mt := by omega
      unfold photonLoop
      simp only [bind, Except.bind, hitem, ne_eq, hdiv]
      by_cases hmt : p.number / 1000 = mt
      · obtain ⟨y, d, hy, hd, hp⟩ := photon_at h hw hi
        rw [hmt] at hy
        refine ⟨(y, d) :: rs, ?_, ?_⟩
        · rw [if_neg (by simpa using hmt), hy]
          simp only [hd, h1, pure, Except.pure]
        · rw [List.filter_cons_of_pos (by simpa using hmt)]
          exact .cons hp h2
      · refine ⟨rs, ?_, ?_⟩
        · rw [if_pos hmt, h1]
        · rwa [List.filter_cons_of_neg (by simpa using hmt)]
  obtain ⟨rs, h1, h2⟩ := loop ps.length le_rfl
  rw [Nat.sub_self, List.drop_zero] at h1 h2
  refine ⟨rs, ?_, h2⟩
  unfold photonsOf
  simp only [bind, Except.bind, item_some hn 6 rfl, item_some h13 13 rfl, hmts, Int.toNat_natCast, h1]

/-- **C114.** A yield that names another reaction than its photon is refused. -/
theorem C114_other {a : Arrays K} {mt mt' mf : Nat} {xs : Tab1D K} {i place j j' : Nat} {places : List K} (h14 : a.jxs[14]? = some (j : Int)) (h15 : a.jxs[15]? = some (j' : Int))
    (hp : AtL a.xss j places) (hi : places[i]? = some (place : K)) (hpos : 0 < place) (hmf : mf = 12 ∨ mf = 16) (hat : AtL a.xss (j' + place - 1) [(mf : K), (mt' : K)]) (hne : mt' ≠ mt) :
    photonYield a mt xs i = .error .assertionError := by
  have e14 := at_nat hp i hi ((j : Int) + i) rfl
  have e0 := at_nat hat 0 (n := mf) rfl ((j' : Int) + place - 1) (by omega)
  have e1 := at_nat hat 1 (n := mt') rfl ((j' : Int) + place - 1 + 1) (by omega)
  unfold photonYield
  simp only [bind, Except.bind, item_some h14 14 rfl, item_some h15 15 rfl, e14, e0, e1]
  rw [if_pos (by omega), if_pos (by exact_mod_cast hne)]

/-! ### Probability tables -/

theorem flatten_get {α : Type} : ∀ {n : Nat} {ls : List (List α)}, (∀ l ∈ ls, l.length = n) → ∀ (i j : Nat), j < n → ls.flatten[n * i + j]? = ls[i]?.bind (·[j]?)
  | n, [], _, i, j, _ => by simp
  | n, l :: ls, h, i, j, hj => by
    have hl : l.length = n := h l (by simp)
    rw [List.flatten_cons]
    cases i with
    | zero => rw [Nat.mul_zero, Nat.zero_add, List.getElem?_append_left (by omega)]; rfl
    | succ i =>
      rw [List.getElem?_append_right (by rw [hl]; have : n * (i + 1) = n * i + n := by ring
                                         omega), List.getElem?_cons_succ, ← flatten_get (fun l hl => h l (by simp [hl])) i j hj]
      congr 1
      rw [hl]
      have : n * (i + 1) = n * i + n := by ring
      omega

theorem flatten_six {α : Type} {m : Nat} : ∀ {rows : List (List (List α))}, (∀ t ∈ rows, t.length = 6 ∧ ∀ r ∈ t, r.length = m) → rows.flatten.length = 6 * rows.length ∧
    rows.flatten.flatten.length = rows.length * 6 * m := by
  intro rows h
  have h1 : rows.flatten.length = 6 * rows.length := by
    rw [List.length_flatten, List.sum_eq_card_nsmul _ 6]
    · simp [mul_comm]
    · intro x hx
      obtain ⟨t, ht, rfl⟩ := List.mem_map.mp hx
      exact (h t ht).1
  refine ⟨h1, ?_⟩
  rw [List.length_flatten, List.sum_eq_card_nsmul _ m]
  · rw [List.length_map, h1, smul_eq_mul]; ring
  · intro x hx
    obtain ⟨r, hr, rfl⟩ := List.mem_map.mp hx
    obtain ⟨t, ht, hrt⟩ := List.mem_flatten.mp hr
    exact (h t ht).2 r hrt

theorem flatten_map {α : Type} : ∀ rows : List (List (List α)), (rows.map List.flatten).flatten = rows.flatten.flatten
  | [] => rfl
  | t :: rows => by simp [flatten_map rows]

/-- What is read before the interpolation rule is checked. -/
theorem urr_at {a : Arrays K} {interpolation inelastic absorption smooth : Int} {m : Nat} {energies : List K} {rows : List (List (List K))}
    (h : HoldsUrr a interpolation inelastic absorption smooth m energies rows) :
    urr a = if interpolation ≠ 2 ∧ interpolation ≠ 5 then .error .valueError
      else .ok (some ⟨energies.map (1000000 * ·), rows.map heatingEv, interpolation, inelastic, absorption, decide (smooth = 1)⟩) := by
  obtain ⟨⟨j, h23, hj, hat⟩, htab, hsix⟩ := h
  obtain ⟨hf, hfl⟩ := flatten_six hsix
  rw [flatten_map] at hat
  have e0 := at_nat hat 0 (n := energies.length) rfl j (by simp)
  have e1 := at_nat hat 1 (n := m) rfl ((j : Int) + 1) (by simp)
  have e2 := at_int hat 2 (n := interpolation) rfl ((j : Int) + 2) (by simp)
  have e3 := at_int hat 3 (n := inelastic) rfl ((j : Int) + 3) (by simp)
  have e4 := at_int hat 4 (n := absorption) rfl ((j : Int) + 4) (by simp)
  have e5 := at_int hat 5 (n := smooth) rfl ((j : Int) + 5) (by simp)
  obtain ⟨hat', hd⟩ := at_append hat
  obtain ⟨-, hE⟩ := at_append hat'
  have sE := slice_at hE ((j : Int) + 6) ((j : Int) + 6 + energies.length) (by simp) rfl
  have sD := slice_at hd ((j : Int) + 6 + energies.length) ((j : Int) + 6 + energies.length + (energies.length : Int) * 6 * m) (by simp; ring) (by rw [hfl, ← htab]; push_cast; ring)
  unfold urr
  simp only [bind, Except.bind, item_some h23 23 rfl, e0, e1, e2, e3, e4, e5, sE, sD, pure, Except.pure]
  rw [if_neg (by omega), if_neg (by rw [hfl, ← htab]; push_cast; simp)]
  refine if_congr Iff.rfl rfl ?_
  congr 3
  · exact List.map_congr_left fun v _ => mul_comm _ _
  · rw [Int.toNat_natCast, ← htab]
    apply List.ext_getElem?
    intro i
    rw [List.getElem?_map, List.getElem?_map]
    by_cases hi : i < rows.length
    · have ht : rows[i] ∈ rows := List.getElem_mem hi
      obtain ⟨h6, hm⟩ := hsix _ ht
      rw [List.getElem?_range hi, List.getElem?_eq_getElem hi]
      simp only [Option.map_some, Option.some.injEq]
      have row : ∀ k, k < 6 → ∀ hk : k < rows[i].length, slice rows.flatten.flatten ((6 * (i : Int) + (k : Int)) * m) ((6 * (i : Int) + (k : Int) + 1) * m) = rows[i][k] := by
        intro k hk hk'
        have hlt : 6 * i + k < rows.flatten.length := by rw [hf]; omega
        have := slice_flatten (n := m) rows.flatten (by
          intro r hr
          obtain ⟨t, ht, hrt⟩ := List.mem_flatten.mp hr
          exact (hsix t ht).2 r hrt) (6 * i + k) hlt
        push_cast at this
        rw [this]
        have hg := flatten_get (n := 6) (fun l hl => (hsix l hl).1) i k hk
        rw [List.getElem?_eq_getElem hlt, List.getElem?_eq_getElem hi] at hg
        simpa [List.getElem?_eq_getElem hk'] using hg
      apply List.ext_getElem?
      intro k
      rw [List.getElem?_map]
      unfold heatingEv
      by_cases hk : k < 6
      · rw [List.getElem?_range hk]
        simp only [Option.map_some, row k hk (by omega)]
        by_cases hk5 : k = 5
        · subst hk5
          rw [if_pos rfl, List.getElem?_append_right (by simp), List.getElem?_map, List.getElem?_drop, List.length_take]
          have : 5 + (5 - min 5 rows[i].length) = 5 := by omega
          rw [this, List.getElem?_eq_getElem (by omega)]
          simp only [Option.map_some, Option.some.injEq]
          exact List.map_congr_left fun v _ => mul_comm _ _
        · rw [if_neg (by omega), List.getElem?_append_left (by simp; omega), List.getElem?_take, if_pos (by omega), List.getElem?_eq_getElem (by omega)]
      · rw [List.getElem?_eq_none (by simp; omega), List.getElem?_eq_none (by simp; omega)]
        rfl
    · rw [List.getElem?_eq_none (by simp; omega), List.getElem?_eq_none (by omega)]
      rfl

/-- **C115.** The probability tables are those of the file, energies and heating in eV. -/
theorem C115_urr {a : Arrays K} {interpolation inelastic absorption smooth : Int} {m : Nat} {energies : List K} {rows : List (List (List K))}
    (h : HoldsUrr a interpolation inelastic absorption smooth m energies rows) (hi : interpolation = 2 ∨ interpolation = 5) :
    urr a = .ok (some ⟨energies.map (1000000 * ·), rows.map heatingEv, interpolation, inelastic, absorption, decide (smooth = 1)⟩) := by
  rw [urr_at h, if_neg (by omega)]

/-- **C115.** Other interpolation rules are refused. -/
theorem C115_interpolation {a : Arrays K} {interpolation inelastic absorption smooth : Int} {m : Nat} {energies : List K} {rows : List (List (List K))}
    (h : HoldsUrr a interpolation inelastic absorption smooth m energies rows) (h2 : interpolation ≠ 2) (h5 : interpolation ≠ 5) : urr a = .error .valueError := by
  rw [urr_at h, if_pos ⟨h2, h5⟩]

/-- **C115.** Without the block there are none. -/
theorem C115_none {a : Arrays K} (h : a.jxs[23]? = some 0) : urr a = .ok none := by
  unfold urr
  simp only [bind, Except.bind, item_some h 23 rfl, if_true, pure, Except.pure]

end
end ASAPy.Dists
