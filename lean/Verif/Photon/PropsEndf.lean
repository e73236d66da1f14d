import Verif.Photon.SpecEndf
import Verif.Photon.Props
import Verif.EndfRx.Lemmas

/-!
# C176 and C177: photon data from evaluations and from the files beside the module
-/

namespace ASAPy.Photon
open ASAPy.Endf
open ASAPy.EndfRx (TabRec rdTab rdTab_rec)
open ASAPy.FromAce

/-! ### C176: reactions -/

theorem secTab_read {sections : List ((Int × Int) × List Line)} {mf mt : Int} {o : Option (Cont × Tab1D ℚ)} (h : SecTab sections mf mt o) :
    tabSection sections mf mt = .ok (o.map fun p => ((p.1.c1, p.1.c2, p.1.l1, p.1.l2), p.2)) := by
  unfold tabSection
  cases o with
  | none => rw [show Dict.get? sections (mf, mt) = none from h]; rfl
  | some p =>
    obtain ⟨c, t⟩ := p
    obtain ⟨h, l, ls, rest, hg, hh, ht⟩ := h
    rw [hg]
    simp only [getHead_line hh, bind, Except.bind, rdTab_rec ht]
    rfl

/-- C176: a reaction has the cross section of file 23 and the form factor of file 27; a subshell has its binding energy and fluorescence yield; coherent scattering has the anomalous scattering
factors. What has no section is left out. -/
theorem C176_reaction {sections : List ((Int × Int) × List Line)} {mt : Int} {xs factor real imag : Option (Cont × Tab1D ℚ)} (h1 : SecTab sections 23 mt xs) (h2 : SecTab sections 27 mt factor)
    (h3 : SecTab sections 27 506 real) (h4 : SecTab sections 27 505 imag) : ∃ r, prxFromEndf sections mt = .ok r ∧ r.mt = mt ∧ r.xs = xs.map (·.2) ∧ r.factor = factor.map (·.2) ∧
      r.real = (if mt = 502 then real.map (·.2) else none) ∧ r.imag = (if mt = 502 then imag.map (·.2) else none) ∧
      r.binding = (if 534 ≤ mt ∧ mt ≤ 599 then xs.map (·.1.c1) else none) ∧ r.fluorescence = (if 534 ≤ mt ∧ mt ≤ 572 then xs.map (·.1.c2) else none) := by
  unfold prxFromEndf
  by_cases h : mt = 502
  · subst h
    simp only [secTab_read h1, secTab_read h2, secTab_read h3, secTab_read h4, bind, Except.bind, pure, Except.pure, if_true]
    refine ⟨_, rfl, rfl, ?_, ?_, ?_, ?_, ?_, ?_⟩ <;> simp [Function.comp_def]
  · simp only [secTab_read h1, secTab_read h2, bind, Except.bind, pure, Except.pure, if_neg h]
    refine ⟨_, rfl, rfl, ?_, ?_, ?_, ?_, ?_, ?_⟩ <;> simp [Function.comp_def]

/-- C176: all reactions of file 23 are read, in the order of the list of the evaluation. -/
theorem C176_list {sections : List ((Int × Int) × List Line)} : ∀ (l : List (Int × Int)) (rs : List (PRx ℚ)), (l.filter fun e => e.1 = 23).Nodup →
    List.Forall₂ (fun e r => prxFromEndf sections e.2 = .ok r) (l.filter fun e => e.1 = 23) rs → photonRxs sections l [] = .ok (((l.filter fun e => e.1 = 23).map Prod.snd).zip rs) := by
  have key : ∀ (l : List (Int × Int)) (rs : List (PRx ℚ)) (d : List (Int × PRx ℚ)), (d.map Prod.fst ++ (l.filter fun e => e.1 = 23).map Prod.snd).Nodup →
      List.Forall₂ (fun e r => prxFromEndf sections e.2 = .ok r) (l.filter fun e => e.1 = 23) rs → photonRxs sections l d = .ok (d ++ ((l.filter fun e => e.1 = 23).map Prod.snd).zip rs) := by
    intro l
    induction l with
    | nil => intro rs d _ h; simp at h; subst h; simp [photonRxs]
    | cons e l ih =>
      intro rs d hn h
      obtain ⟨mf, mt⟩ := e
      unfold photonRxs
      by_cases hm : mf = 23
      · subst hm
        simp only [List.filter_cons, decide_true, if_true] at h hn ⊢
        cases h with
        | cons h1 h2 =>
          rename_i r rs
          simp only [h1, bind, Except.bind]
          rw [set_app _ _ _ (by
            rw [List.nodup_append] at hn
            intro hmem
            exact hn.2.2 _ hmem _ (by simp) rfl), ih rs _ (by simpa using hn) h2]
          simp
      · rw [if_neg hm]
        simp only [List.filter_cons, hm, decide_false] at h hn ⊢
        exact ih rs d hn h
  intro l rs hn h
  have := key l rs [] (by
    simp only [List.map_nil, List.nil_append]
    apply List.Nodup.map_on _ hn
    intro a ha b hb hab
    have h1 := List.mem_filter.mp ha
    have h2 := List.mem_filter.mp hb
    simp only [decide_eq_true_eq] at h1 h2
    exact Prod.ext (h1.2.trans h2.2.symm) hab) h
  simpa using this

/-! ### C177: the dictionaries of the module -/

theorem fill_ok {E : Type} (f : Int → Except PyErr E) (g : Int → E) : ∀ (n : Nat) (i : Int) (d : List (Int × E)), (∀ k ∈ d.map Prod.fst, k < i) → (∀ j : Nat, j < n → f (i + j) = .ok (g (i + j))) →
    fillFrom f n i d = (d ++ (List.range n).map fun j : Nat => (i + j, g (i + j)), .ok ()) := by
  intro n
  induction n with
  | zero => intro i d _ _; simp [fillFrom]
  | succ n ih =>
    intro i d hd hf
    unfold fillFrom
    have h0 := hf 0 (by omega)
    simp only [Nat.cast_zero, add_zero] at h0
    rw [h0]
    simp only
    rw [set_app _ _ _ (fun hm => absurd (hd _ hm) (lt_irrefl _)), ih (i + 1) _ (by
      intro k hk
      simp only [List.map_append, List.map_cons, List.map_nil, List.mem_append, List.mem_cons, List.not_mem_nil, or_false] at hk
      rcases hk with hk | rfl
      · have := hd k hk; omega
      · omega) (by
      intro j hj
      have := hf (j + 1) (by omega)
      push_cast at this
      rw [show i + 1 + (j : Int) = i + (j + 1) by ring]
      exact this), List.range_succ_eq_map]
    simp only [List.map_cons, List.map_map, Nat.cast_zero, add_zero, List.append_assoc, List.cons_append, List.nil_append, Prod.mk.injEq, and_true, List.append_cancel_left_eq, List.cons.injEq, true_and]
    apply List.map_congr_left
    intro j _
    simp only [Function.comp, Nat.succ_eq_add_one, Nat.cast_add, Nat.cast_one]
    rw [show i + 1 + (j : Int) = i + (j + 1) by ring]

theorem fill_fail {E : Type} (f : Int → Except PyErr E) (g : Int → E) (e : PyErr) : ∀ (m n : Nat) (i : Int) (d : List (Int × E)), m < n → (∀ k ∈ d.map Prod.fst, k < i) →
    (∀ j : Nat, j < m → f (i + j) = .ok (g (i + j))) → f (i + m) = .error e → fillFrom f n i d = (d ++ (List.range m).map fun j : Nat => (i + j, g (i + j)), .error e) := by
  intro m
  induction m with
  | zero =>
    intro n i d hmn _ _ he
    obtain ⟨n, rfl⟩ : ∃ n', n = n' + 1 := ⟨n - 1, by omega⟩
    unfold fillFrom
    simp only [Nat.cast_zero, add_zero] at he
    rw [he]
    simp
  | succ m ih =>
    intro n i d hmn hd hf he
    obtain ⟨n, rfl⟩ : ∃ n', n = n' + 1 := ⟨n - 1, by omega⟩
    unfold fillFrom
    have h0 := hf 0 (by omega)
    simp only [Nat.cast_zero, add_zero] at h0
    rw [h0]
    simp only
    rw [set_app _ _ _ (fun hm => absurd (hd _ hm) (lt_irrefl _)), ih n (i + 1) _ (by omega) (by
      intro k hk
      simp only [List.map_append, List.map_cons, List.map_nil, List.mem_append, List.mem_cons, List.not_mem_nil, or_false] at hk
      rcases hk with hk | rfl
      · have := hd k hk; omega
      · omega) (by
      intro j hj
      have := hf (j + 1) (by omega)
      push_cast at this
      rw [show i + 1 + (j : Int) = i + (j + 1) by ring]
      exact this) (by
      push_cast at he
      rw [show i + 1 + (m : Int) = i + (m + 1) by ring]
      exact he), List.range_succ_eq_map]
    simp only [List.map_cons, List.map_map, Nat.cast_zero, add_zero, List.append_assoc, List.cons_append, List.nil_append, Prod.mk.injEq, and_true, List.append_cancel_left_eq, List.cons.injEq, true_and]
    apply List.map_congr_left
    intro j _
    simp only [Function.comp, Nat.succ_eq_add_one, Nat.cast_add, Nat.cast_one]
    rw [show i + 1 + (j : Int) = i + (j + 1) by ring]

/-- The entry of a number in a dictionary that was filled from 1 on. -/
theorem get_filled {E : Type} (g : Int → E) : ∀ (n : Nat) (i : Int) (z : Int), Dict.get? ((List.range n).map fun j : Nat => (i + j, g (i + j))) z = if i ≤ z ∧ z < i + n then some (g z) else none := by
  intro n
  induction n with
  | zero =>
    intro i z
    rw [if_neg (by push_cast; omega)]
    rfl
  | succ n ih =>
    intro i z
    rw [List.range_succ_eq_map]
    simp only [List.map_cons, List.map_map, Nat.cast_zero, add_zero]
    have e : ((List.range n).map ((fun j : Nat => (i + (j : Int), g (i + j))) ∘ Nat.succ)) = (List.range n).map fun j : Nat => (i + 1 + (j : Int), g (i + 1 + j)) := by
      apply List.map_congr_left
      intro j _
      simp only [Function.comp, Nat.succ_eq_add_one, Nat.cast_add, Nat.cast_one]
      rw [show i + 1 + (j : Int) = i + (j + 1) by ring]
    rw [e]
    unfold Dict.get?
    by_cases h : i = z
    · subst h
      rw [if_pos rfl, if_pos (by push_cast; omega)]
    · rw [if_neg h, ih (i + 1) z]
      by_cases h2 : i + 1 ≤ z ∧ z < i + 1 + n
      · rw [if_pos h2, if_pos (by push_cast; omega)]
      · rw [if_neg h2, if_neg (by push_cast; omega)]

variable {K : Type} [Field K] [ExpLog K]

/-- The entry for an element that the first call makes. -/
def gC (w : Files K) (i : Int) : CGroup K := match w.compton i with
  | none => ⟨[], [], []⟩
  | some g => ⟨g.electrons, eV g.binding, g.j⟩

def gS (w : Files K) (i : Int) : SGroup K := match w.stopping i with
  | none => ⟨0, [], []⟩
  | some g => ⟨g.i, eV g.collision, eV g.radiative⟩

def gB (toK : ℚ → K) (spline : List K → List K → K → K) (grid : List K) (xs ks : List ℚ) (tables : List (List (List ℚ))) (i : Int) : List (List K) :=
  bremData toK spline grid xs ks.length ((tables[(i - 1).toNat]?).getD [])

def fullC (w : Files K) (m : Nat) : Cache (List K) (CGroup K) := ⟨some w.pz, (List.range m).map fun j : Nat => (1 + (j : Int), gC w (1 + j))⟩
def fullS (w : Files K) : Cache (List K) (SGroup K) := ⟨some (eV w.energy), (List.range 98).map fun j : Nat => (1 + (j : Int), gS w (1 + j))⟩
def fullB (toK : ℚ → K) (spline : List K → List K → K → K) (grid : List K) (xs ks : List ℚ) (tables : List (List (List ℚ))) : Cache (List K × Option (List K)) (List (List K)) :=
  ⟨some (grid, some (ks.map toK)), (List.range 100).map fun j : Nat => (1 + (j : Int), gB toK spline grid xs ks tables (1 + j))⟩

theorem empty_isEmpty {H E : Type} : ({} : Cache H E).isEmpty = true := rfl

omit [ExpLog K] in
theorem loadC {w : Files K} (h : ∀ i : Nat, 1 ≤ i → i ≤ 100 → (w.compton i).isSome) {c : Cache (List K) (CGroup K)} (hc : c = {} ∨ c = fullC w 100) : loadCompton w c = (fullC w 100, .ok ()) := by
  unfold loadCompton
  rcases hc with rfl | rfl
  · rw [if_pos empty_isEmpty]
    simp only
    rw [fill_ok _ (gC w) 100 1 [] (by simp) (by
      intro j hj
      have := h (j + 1) (by omega) (by omega)
      rw [show ((j + 1 : Nat) : Int) = 1 + (j : Int) by push_cast; ring] at this
      obtain ⟨g, hg⟩ := Option.isSome_iff_exists.mp this
      simp only [gC, hg, eV])]
    rfl
  · rw [if_neg (by simp [Cache.isEmpty, fullC])]

omit [ExpLog K] in
theorem loadS {w : Files K} (h : ∀ i : Nat, 1 ≤ i → i ≤ 98 → (w.stopping i).isSome) {c : Cache (List K) (SGroup K)} (hc : c = {} ∨ c = fullS w) : loadStopping w c = (fullS w, .ok ()) := by
  unfold loadStopping
  rcases hc with rfl | rfl
  · rw [if_pos empty_isEmpty]
    simp only
    rw [fill_ok _ (gS w) 98 1 [] (by simp) (by
      intro j hj
      have := h (j + 1) (by omega) (by omega)
      rw [show ((j + 1 : Nat) : Int) = 1 + (j : Int) by push_cast; ring] at this
      obtain ⟨g, hg⟩ := Option.isSome_iff_exists.mp this
      simp only [gS, hg, eV])]
    rfl
  · rw [if_neg (by simp [Cache.isEmpty, fullS])]

omit [Field K] [ExpLog K] in
theorem fromIter_ok (toK : ℚ → K) {ws : List Line} {vs : List ℚ} (h : List.Forall₂ (fun w v => pyFloat w = .ok v) ws vs) {n : Int} (hn : n = vs.length) : fromIter toK ws n = .ok (vs.map toK) := by
  have : ws.mapM (fun w => (pyFloat w).map toK) = .ok (vs.map toK) := by
    induction h generalizing n with
    | nil => rfl
    | cons h1 h2 ih =>
      rw [List.mapM_cons, h1, ih rfl]
      rfl
  unfold fromIter
  rw [this]
  simp only [bind, Except.bind, List.length_map]
  rw [if_pos hn.symm]

theorem range_filterMap {α β : Type} (l : List α) (f : Nat → Option β) (g : α → Option β) (h : ∀ r x, l[r]? = some x → f r = g x) : (List.range l.length).filterMap f = l.filterMap g := by
  induction l using List.reverseRecOn with
  | nil => rfl
  | append_singleton l x ih =>
    rw [List.length_append, List.length_singleton, List.range_succ, List.filterMap_append, List.filterMap_append, ih (fun j y hj => h j y (by
      have hlt : j < l.length := by
        by_contra hc
        rw [List.getElem?_eq_none (by omega)] at hj
        cases hj
      rw [List.getElem?_append_left hlt, hj]))]
    simp only [List.filterMap_cons, List.filterMap_nil, h l.length x (by simp)]

theorem flatten_at {α : Type} {l : List α} {p L : Nat} {wts : List (List α)} (h : AtL l p wts.flatten) (hL : ∀ wt ∈ wts, wt.length = L) {i : Nat} {wt : List α} (hi : wts[i]? = some wt) :
    AtL l (p + L * i) wt := by
  intro k v hk
  have hlt : k < wt.length := by
    by_contra hc
    rw [List.getElem?_eq_none (by omega)] at hk
    cases hk
  have hwl := hL wt (List.mem_of_getElem? hi)
  have := flatN L (fun x : List α => x) wts hL i wt hi k (by omega)
  rw [Nat.add_assoc]
  apply h
  have e : wts.flatMap (fun x => x) = wts.flatten := by rw [← List.flatMap_id]; rfl
  rw [← e, this, hk]

omit [Field K] [ExpLog K] in
theorem flat_get {toK : ℚ → K} {t : List (List ℚ)} {k : Nat} (ht : ∀ r ∈ t, r.length = k) {r : Nat} {row : List ℚ} (hr : t[r]? = some row) {j : Nat} (hj : j < k) :
    (t.flatten.map toK)[r * k + j]? = (row[j]?).map toK := by
  have := flatN k (fun x : List ℚ => x) t ht r row hr j hj
  have e : t.flatMap (fun x => x) = t.flatten := by rw [← List.flatMap_id]; rfl
  rw [e] at this
  rw [List.getElem?_map, Nat.mul_comm, this]

theorem forall₂_len {wts : List (List Line)} {tables : List (List (List ℚ))} {n k : Nat} (ht : ∀ t ∈ tables, t.length = n ∧ ∀ r ∈ t, r.length = k)
    (h : List.Forall₂ (fun wt (t : List (List ℚ)) => List.Forall₂ (fun w v => pyFloat w = .ok v) wt t.flatten) wts tables) : ∀ wt ∈ wts, wt.length = n * k := by
  induction h with
  | nil => simp
  | cons h1 h2 ih =>
    rename_i wt t wts ts
    intro x hx
    rcases List.mem_cons.mp hx with rfl | hx
    · rw [h1.length_eq, List.length_flatten]
      obtain ⟨hn, hk⟩ := ht t (by simp)
      have : t.map List.length = List.replicate n k := by
        rw [← hn, ← List.map_const']
        exact List.map_congr_left hk
      rw [this]; simp
    · exact ih (fun t ht' => ht t (by simp [ht'])) x hx

theorem loadB (toK : ℚ → K) (spline : List K → List K → K → K) (grid : List K) {w : Files K} {xs ks : List ℚ} {tables : List (List (List ℚ))} (h : BremFile w.brem xs ks tables)
    {c : Cache (List K × Option (List K)) (List (List K))} (hc : c = {} ∨ c = fullB toK spline grid xs ks tables) :
    loadBrem toK spline grid w c = (fullB toK spline grid xs ks tables, .ok ()) := by
  unfold loadBrem
  rcases hc with rfl | rfl
  · rw [if_pos empty_isEmpty]
    obtain ⟨pre, wn, wk, wxs, wks, wts, rest, hw, hpre, hn, hk, hx, hks, h100, htab, hwt⟩ := h
    have hat : AtL w.brem 0 (pre ++ ([wn, wk] ++ (wxs ++ (wks ++ (wts.flatten ++ rest))))) := by
      intro i v hi
      rw [hw, Nat.zero_add]
      simpa using hi
    obtain ⟨-, h1⟩ := at_append hat
    obtain ⟨h1, h2⟩ := at_append h1
    obtain ⟨ax, h3⟩ := at_append h2
    obtain ⟨ak, h4⟩ := at_append h3
    obtain ⟨at_, -⟩ := at_append h4
    simp only [hpre, List.length_cons, List.length_nil, hx.length_eq, hks.length_eq] at h1 ax ak at_
    have i37 : item w.brem 37 = .ok wn := item_nat _ 37 _ (h1 0 wn rfl)
    have i38 : item w.brem 38 = .ok wk := item_nat _ 38 _ (h1 1 wk rfl)
    simp only [i37, i38, bind, Except.bind, hn, hk, pure, Except.pure]
    rw [slice_at ax _ _ (by simp) (by rw [hx.length_eq]), fromIter_ok toK hx rfl]
    simp only
    rw [slice_at ak _ _ (by push_cast; ring) (by rw [hks.length_eq]), fromIter_ok toK hks rfl]
    simp only
    rw [fill_ok _ (gB toK spline grid xs ks tables) 100 1 [] (by simp) (by
      intro j hj
      have hjt : j < tables.length := by omega
      have hjw : j < wts.length := by rw [hwt.length_eq]; exact hjt
      have hlen := forall₂_len htab hwt
      have hblock := flatten_at at_ hlen (List.getElem?_eq_getElem hjw)
      have hread := List.Forall₂.get hwt hjw hjt
      simp only [List.get_eq_getElem] at hread
      obtain ⟨htn, htk⟩ := htab _ (List.getElem_mem hjt)
      have hl : (tables[j]).flatten.length = xs.length * ks.length := by rw [← hread.length_eq]; exact hlen _ (List.getElem_mem hjw)
      unfold bremEntry
      rw [slice_at hblock _ _ (by push_cast; ring) (by rw [hread.length_eq, hl]; push_cast; ring), fromIter_ok toK hread (by rw [hl]; push_cast; ring)]
      simp only [bind, Except.bind, pure, Except.pure, Int.toNat_natCast]
      congr 1
      unfold gB bremData
      rw [show ((1 + (j : Int) - 1).toNat) = j by omega, List.getElem?_eq_getElem hjt]
      simp only [Option.getD_some, List.map_map]
      apply List.map_congr_left
      intro c hc
      have hck := List.mem_range.mp hc
      have : (List.range xs.length).filterMap (fun r => ((List.map toK (tables[j]).flatten)[r * ks.length + c]?).map (· / 1000)) = (tables[j]).filterMap fun row => (row[c]?).map fun v => toK v / 1000 := by
        rw [← htn]
        apply range_filterMap
        intro r row hr
        rw [flat_get htk hr hck, Option.map_map]
        rfl
      rw [this]
      rfl)]
    rfl
  · rw [if_neg (by simp [Cache.isEmpty, fullB])]

/-- Every dictionary is as it was at first, or filled. -/
structure Inv (toK : ℚ → K) (spline : List K → List K → K → K) (grid : List K) (w : Files K) (xs ks : List ℚ) (tables : List (List (List ℚ))) (s : Caches K) : Prop where
  compton : s.compton = {} ∨ s.compton = fullC w 100
  stopping : s.stopping = {} ∨ s.stopping = fullS w
  brem : s.brem = {} ∨ s.brem = fullB toK spline grid xs ks tables

/-- What the dictionaries give, once filled. -/
def given (toK : ℚ → K) (spline : List K → List K → K → K) (grid : List K) (w : Files K) (xs ks : List ℚ) (tables : List (List (List ℚ))) (z : Int) : Except PyErr (Extra K) :=
  if 1 ≤ z ∧ z ≤ 100 then .ok ⟨⟨(gC w z).electrons, (gC w z).binding, (gC w z).j.map (.linlin w.pz)⟩, if z < 99 then some (eV w.energy, gS w z) else none,
    (grid, ks.map toK, gB toK spline grid xs ks tables z)⟩ else .error .keyError

theorem extra_inv {toK : ℚ → K} {spline : List K → List K → K → K} {grid : List K} {w : Files K} {xs ks : List ℚ} {tables : List (List (List ℚ))} {s : Caches K}
    (hC : ∀ i : Nat, 1 ≤ i → i ≤ 100 → (w.compton i).isSome) (hS : ∀ i : Nat, 1 ≤ i → i ≤ 98 → (w.stopping i).isSome) (hB : BremFile w.brem xs ks tables)
    (hs : Inv toK spline grid w xs ks tables s) (z : Int) :
    (extra toK spline grid w z s).2 = given toK spline grid w xs ks tables z ∧ Inv toK spline grid w xs ks tables (extra toK spline grid w z s).1 := by
  unfold extra given
  rw [loadC hC hs.compton]
  simp only [headOf, entryOf, fullC, bind, Except.bind, pure, Except.pure]
  rw [get_filled (gC w)]
  by_cases hz : 1 ≤ z ∧ z ≤ 100
  · rw [if_pos (by push_cast; omega), if_pos hz]
    simp only
    rw [loadS hS hs.stopping]
    simp only [fullS]
    rw [get_filled (gS w)]
    by_cases h99 : z < 99
    · rw [if_pos h99, if_pos (by push_cast; omega)]
      simp only
      rw [loadB toK spline grid hB hs.brem]
      simp only [fullB]
      rw [get_filled (gB toK spline grid xs ks tables), if_pos (by push_cast; omega), if_pos h99]
      exact ⟨rfl, Or.inr rfl, Or.inr rfl, Or.inr rfl⟩
    · rw [if_neg h99]
      simp only
      rw [loadB toK spline grid hB hs.brem]
      simp only [fullB]
      rw [get_filled (gB toK spline grid xs ks tables), if_pos (by push_cast; omega), if_neg h99]
      exact ⟨rfl, Or.inr rfl, Or.inr rfl, Or.inr rfl⟩
  · rw [if_neg (by push_cast; omega), if_neg hz]
    exact ⟨rfl, Or.inr rfl, hs.stopping, hs.brem⟩

theorem Complete.comptons {w : Files K} {cs ss xs ks tables} (h : Complete w cs ss xs ks tables) (i : Nat) (h1 : 1 ≤ i) (h2 : i ≤ 100) : (w.compton i).isSome := by
  rw [h.compton.2 i h1 h2, List.getElem?_eq_getElem (by rw [h.compton.1]; omega)]
  rfl

theorem Complete.stoppings {w : Files K} {cs ss xs ks tables} (h : Complete w cs ss xs ks tables) (i : Nat) (h1 : 1 ≤ i) (h2 : i ≤ 98) : (w.stopping i).isSome := by
  rw [h.stopping.2 i h1 h2, List.getElem?_eq_getElem (by rw [h.stopping.1]; omega)]
  rfl

theorem Inv.empty (toK : ℚ → K) (spline : List K → List K → K → K) (grid : List K) (w : Files K) (xs ks : List ℚ) (tables : List (List (List ℚ))) : Inv toK spline grid w xs ks tables {} :=
  ⟨Or.inl rfl, Or.inl rfl, Or.inl rfl⟩

/-- C177: an element has the Compton profiles, the stopping powers (up to 98) and the bremsstrahlung of the files, in eV and b. -/
theorem C177_data {toK : ℚ → K} {spline : List K → List K → K → K} {grid : List K} {w : Files K} {cs : List (CGroup K)} {ss : List (SGroup K)} {xs ks : List ℚ} {tables : List (List (List ℚ))}
    (h : Complete w cs ss xs ks tables) {z : Nat} {c : CGroup K} {t : List (List ℚ)} (h1 : 1 ≤ z) (hc : cs[z - 1]? = some c) (ht : tables[z - 1]? = some t) :
    (extra toK spline grid w z {}).2 = .ok ⟨comptonData w.pz c, (ss[z - 1]?).map (stoppingData w.energy), (grid, ks.map toK, bremData toK spline grid xs ks.length t)⟩ := by
  have h100 : z ≤ 100 := by
    have : z - 1 < cs.length := by
      by_contra hx
      rw [List.getElem?_eq_none (by omega)] at hc
      cases hc
    rw [h.compton.1] at this
    omega
  rw [(extra_inv h.comptons h.stoppings h.brem (Inv.empty toK spline grid w xs ks tables) z).1, given, if_pos (by omega)]
  have e1 : gC w z = ⟨c.electrons, eV c.binding, c.j⟩ := by
    unfold gC
    rw [h.compton.2 z h1 h100, hc]
  have e3 : gB toK spline grid xs ks tables z = bremData toK spline grid xs ks.length t := by
    unfold gB
    rw [show (((z : Int) - 1).toNat) = z - 1 by omega, ht]
    rfl
  have e2 : (if (z : Int) < 99 then some (eV w.energy, gS w z) else none) = (ss[z - 1]?).map (stoppingData w.energy) := by
    by_cases h99 : z ≤ 98
    · rw [if_pos (by omega)]
      have hlt : z - 1 < ss.length := by rw [h.stopping.1]; omega
      unfold gS
      rw [h.stopping.2 z h1 h99, List.getElem?_eq_getElem hlt]
      rfl
    · rw [if_neg (by omega), List.getElem?_eq_none (by rw [h.stopping.1]; omega)]
      rfl
  rw [e1, e2, e3]
  rfl

/-- C177: an element without profiles (no number from 1 to 100) is refused. -/
theorem C177_range {toK : ℚ → K} {spline : List K → List K → K → K} {grid : List K} {w : Files K} {cs : List (CGroup K)} {ss : List (SGroup K)} {xs ks : List ℚ} {tables : List (List (List ℚ))}
    (h : Complete w cs ss xs ks tables) {z : Int} (hz : z < 1 ∨ 100 < z) : (extra toK spline grid w z {}).2 = .error .keyError := by
  rw [(extra_inv h.comptons h.stoppings h.brem (Inv.empty toK spline grid w xs ks tables) z).1, given, if_neg (by omega)]

theorem call_inv {toK : ℚ → K} {spline : List K → List K → K → K} {grid : List K} {w : Files K} {cs : List (CGroup K)} {ss : List (SGroup K)} {xs ks : List ℚ} {tables : List (List (List ℚ))}
    (h : Complete w cs ss xs ks tables) {s : Caches K} (hs : Inv toK spline grid w xs ks tables s) (ev : PEv) (r : Option (List ((Int × Int) × List Line))) :
    (photonFromEndf toK spline grid w ev r s).2 = (photonFromEndf toK spline grid w ev r {}).2 ∧ Inv toK spline grid w xs ks tables (photonFromEndf toK spline grid w ev r s).1 := by
  obtain ⟨h1, h2⟩ := extra_inv h.comptons h.stoppings h.brem hs ev.z
  obtain ⟨h3, -⟩ := extra_inv h.comptons h.stoppings h.brem (Inv.empty toK spline grid w xs ks tables) ev.z
  unfold photonFromEndf
  split
  · exact ⟨rfl, hs⟩
  · rename_i rs relax _
    rw [← h1] at h3
    revert h2 h3
    generalize extra toK spline grid w ev.z s = a
    generalize extra toK spline grid w ev.z {} = b
    obtain ⟨a1, a2⟩ := a
    obtain ⟨b1, b2⟩ := b
    intro h2 h3
    simp only at h2 h3
    subst h3
    cases b2 with
    | error e => exact ⟨rfl, h2⟩
    | ok x => exact ⟨rfl, h2⟩

/-- C177: with complete files every call gives what it would give as the first call, whatever was read before it. -/
theorem C177_history_partial {toK : ℚ → K} {spline : List K → List K → K → K} {grid : List K} {w : Files K} {cs : List (CGroup K)} {ss : List (SGroup K)} {xs ks : List ℚ}
    {tables : List (List (List ℚ))} (h : Complete w cs ss xs ks tables) (calls : List (PEv × Option (List ((Int × Int) × List Line)))) :
    photonCalls toK spline grid w calls {} = calls.map fun c => (photonFromEndf toK spline grid w c.1 c.2 {}).2 := by
  have key : ∀ (calls : List (PEv × Option (List ((Int × Int) × List Line)))) (s : Caches K), Inv toK spline grid w xs ks tables s →
      photonCalls toK spline grid w calls s = calls.map fun c => (photonFromEndf toK spline grid w c.1 c.2 {}).2 := by
    intro calls
    induction calls with
    | nil => intro s _; rfl
    | cons c calls ih =>
      intro s hs
      obtain ⟨ev, r⟩ := c
      obtain ⟨h1, h2⟩ := call_inv h hs ev r
      unfold photonCalls
      rw [List.map_cons, ← h1, ← ih _ h2]
  exact key calls {} (Inv.empty toK spline grid w xs ks tables)

/-- C177: together: reactions, relaxation and the data of the files. -/
theorem C177_all {toK : ℚ → K} {spline : List K → List K → K → K} {grid : List K} {w : Files K} {ev : PEv} {rel : Option (List ((Int × Int) × List Line))} {rs : List (Int × PRx ℚ)}
    {relax : Option (Relax ℚ)} {x : Extra K} {s s' : Caches K} (hz : 0 ≤ ev.z) (hrs : photonRxs ev.sections ev.list [] = .ok rs)
    (hrel : (rel = none ∧ relax = none) ∨ ∃ d r, rel = some d ∧ relaxFromEndf d = .ok r ∧ relax = some r) (hx : extra toK spline grid w ev.z s = (s', .ok x)) :
    photonFromEndf toK spline grid w ev rel s = (s', .ok (rs, relax, x)) := by
  unfold photonFromEndf
  rcases hrel with ⟨rfl, rfl⟩ | ⟨d, r, rfl, hr, rfl⟩
  · simp only [not_lt.mpr hz, if_false, hrs, bind, Except.bind, pure, Except.pure, hx]
  · simp only [not_lt.mpr hz, if_false, hrs, hr, bind, Except.bind, pure, Except.pure, hx]

/-- C177, what does not hold: if the profiles of an element `m + 1` are missing, the first call is refused, but the next one for an element before it goes through with the part that was read:
the same call has two outcomes. -/
theorem C177_broken_refuted {toK : ℚ → K} {spline : List K → List K → K → K} {grid : List K} {w : Files K} {xs ks : List ℚ} {tables : List (List (List ℚ))} {m z : Nat} (hm : m < 100)
    (hC : ∀ i : Nat, 1 ≤ i → i ≤ m → (w.compton i).isSome) (hno : w.compton (m + 1 : Nat) = none) (hS : ∀ i : Nat, 1 ≤ i → i ≤ 98 → (w.stopping i).isSome) (hB : BremFile w.brem xs ks tables)
    (hz : 1 ≤ z) (hzm : z ≤ m) : (extra toK spline grid w z {}).2 = .error .keyError ∧ ∃ x, (extra toK spline grid w z (extra toK spline grid w z {}).1).2 = .ok x := by
  have h1 : loadCompton w {} = (fullC w m, .error .keyError) := by
    unfold loadCompton
    rw [if_pos empty_isEmpty]
    simp only
    rw [fill_fail _ (gC w) .keyError m 100 1 [] hm (by simp) (by
      intro j hj
      have := hC (j + 1) (by omega) (by omega)
      rw [show ((j + 1 : Nat) : Int) = 1 + (j : Int) by push_cast; ring] at this
      obtain ⟨g, hg⟩ := Option.isSome_iff_exists.mp this
      simp only [gC, hg, eV]) (by
      rw [show ((m + 1 : Nat) : Int) = 1 + (m : Int) by push_cast; ring] at hno
      rw [hno])]
    rfl
  have h2 : extra toK spline grid w z {} = ({ compton := fullC w m }, .error .keyError) := by
    unfold extra
    rw [h1]
  have h3 : loadCompton w (fullC w m) = (fullC w m, .ok ()) := by
    unfold loadCompton
    rw [if_neg (by simp [Cache.isEmpty, fullC])]
  rw [h2]
  refine ⟨rfl, ?_⟩
  unfold extra
  simp only [h3]
  simp only [headOf, entryOf, fullC, bind, Except.bind, pure, Except.pure]
  rw [get_filled (gC w), if_pos (by push_cast; omega)]
  simp only
  rw [loadS hS (Or.inl rfl)]
  simp only [fullS]
  rw [get_filled (gS w)]
  by_cases h99 : (z : Int) < 99
  · rw [if_pos h99, if_pos (by push_cast; omega)]
    simp only
    rw [loadB toK spline grid hB (Or.inl rfl)]
    simp only [fullB]
    rw [get_filled (gB toK spline grid xs ks tables), if_pos (by push_cast; omega)]
    exact ⟨_, rfl⟩
  · rw [if_neg h99]
    simp only
    rw [loadB toK spline grid hB (Or.inl rfl)]
    simp only [fullB]
    rw [get_filled (gB toK spline grid xs ks tables), if_pos (by push_cast; omega)]
    exact ⟨_, rfl⟩

/-! ### Examples -/

section
local instance : ExpLog ℚ := ⟨id, id⟩

/-- Two electron energies, one photon energy. -/
def exBrem : List Line := List.replicate 37 c!"-" ++ c!"2" :: c!"1" :: ([c!"0.5", c!"1e1"] ++ [c!"0.25"] ++ (List.replicate 100 [c!"4.0", c!"8.0"]).flatten ++ [])

theorem exBrem_ok : BremFile exBrem [1 / 2, 10] [1 / 4] (List.replicate 100 [[4], [8]]) := by
  refine ⟨List.replicate 37 c!"-", c!"2", c!"1", [c!"0.5", c!"1e1"], [c!"0.25"], List.replicate 100 [c!"4.0", c!"8.0"], [], rfl, by decide, by decide, by decide,
    .cons (by decide +kernel) (.cons (by decide +kernel) .nil), .cons (by decide +kernel) .nil, by decide, ?_, ?_⟩
  · intro t ht
    rw [List.eq_of_mem_replicate ht]
    refine ⟨rfl, ?_⟩
    intro r hr
    simp only [List.mem_cons, List.not_mem_nil, or_false] at hr
    rcases hr with rfl | rfl <;> rfl
  · have h : List.Forall₂ (fun w v => pyFloat w = .ok v) [c!"4.0", c!"8.0"] (List.flatten [[(4 : ℚ)], [8]]) := .cons (by decide +kernel) (.cons (by decide +kernel) .nil)
    generalize 100 = n
    induction n with
    | zero => exact .nil
    | succ n ih => exact .cons h ih

/-- Files in which every element has one shell. -/
def exFiles : Files ℚ := ⟨[0, 1], fun i => if i ≤ 100 then some ⟨[i], [1 / 1000], [[3, 2]]⟩ else none, [1 / 10, 1], fun i => some ⟨19, [i, 2], [1, i]⟩, exBrem⟩

theorem exFiles_ok : Complete exFiles ((List.range 100).map fun i : Nat => ⟨[((i : Int) + 1 : ℚ)], [1 / 1000], [[3, 2]]⟩) ((List.range 98).map fun i : Nat => ⟨19, [((i : Int) + 1 : ℚ), 2], [1, ((i : Int) + 1 : ℚ)]⟩)
    [1 / 2, 10] [1 / 4] (List.replicate 100 [[4], [8]]) := by
  refine ⟨⟨by simp, ?_⟩, ⟨by simp, ?_⟩, exBrem_ok⟩
  · intro i h1 h2
    rw [List.getElem?_map, List.getElem?_range (by omega)]
    simp only [exFiles, Option.map_some]
    rw [if_pos (by omega)]
    congr
    push_cast [Nat.cast_sub h1]
    ring
  · intro i h1 h2
    rw [List.getElem?_map, List.getElem?_range (by omega)]
    simp only [exFiles, Option.map_some]
    congr <;> (push_cast [Nat.cast_sub h1]; ring)

example : (extra id (fun _ y _ => y.sum) [1] exFiles 8 {}).2 = .ok ⟨⟨[8], [1000], [⟨[0, 1], [3, 2], [2], [2]⟩]⟩, some ([100000, 1000000], ⟨19, [8000000, 2000000], [1000000, 8000000]⟩),
    ([1], [1 / 4], [[3 / 250]])⟩ := by
  have := C177_data (toK := id) (spline := fun _ y _ => y.sum) (grid := [1]) exFiles_ok (z := 8) (by norm_num) rfl rfl
  rw [show ((8 : Nat) : Int) = 8 from rfl] at this
  rw [this]
  simp [comptonData, eV, stoppingData, bremData, Tab1D.linlin, exFiles]
  norm_num

example : ∃ x, (extra id (fun _ y _ => y.sum) [1] { exFiles with compton := fun i => if i ≤ 9 then some ⟨[i], [1 / 1000], [[3, 2]]⟩ else none } 8 (extra id (fun _ y _ => y.sum) [1]
    { exFiles with compton := fun i => if i ≤ 9 then some ⟨[i], [1 / 1000], [[3, 2]]⟩ else none } 8 {}).1).2 = .ok x :=
  (C177_broken_refuted (m := 9) (z := 8) (by norm_num) (by
    intro i h1 h2
    simp only
    rw [if_pos (by omega)]
    rfl) rfl (fun _ _ _ => rfl) exBrem_ok (by norm_num) (by norm_num)).2

end

/-! A photoatomic evaluation: the K subshell and coherent scattering with one anomalous factor. -/

def exQHead : Line := c!" 8.000000+3 1.586000+1          0          0          0          0 80023534    1\n"
def exQTab : List Line := [c!" 5.437500+2 1.250000-1          0          0          1          2 80023534    2\n",
  c!"          2          5                                             80023534    3\n",
  c!" 5.437500+2 4.000000+5 1.000000+6 2.500000-1                       80023534    4\n"]
def exQEv : List ((Int × Int) × List Line) := [((23, 534), exQHead :: exQTab), ((23, 502), exQHead :: exQTab), ((27, 506), exQHead :: exQTab)]
def exQT : Tab1D ℚ := ⟨[2175 / 4, 1000000], [400000, 1 / 4], [2], [5]⟩
def exQC : Cont := ⟨2175 / 4, 1 / 8, 0, 0, 1, 2⟩

theorem exQ_sec : ∃ h, HeadLine h exQHead ∧ TabRec exQC exQT exQTab := ⟨⟨8000, 15.86, 0, 0, 0, 0⟩, headLine_of (by decide +kernel) (by decide), EndfRx.tabRec_of (by decide +kernel)⟩

theorem exQ_some {mf mt : Int} (h : Dict.get? exQEv (mf, mt) = some (exQHead :: exQTab)) : SecTab exQEv mf mt (some (exQC, exQT)) := by
  obtain ⟨hd, h1, h2⟩ := exQ_sec
  exact ⟨hd, exQHead, exQTab, [], by rw [h, List.append_nil], h1, h2⟩

example : ∃ r, prxFromEndf exQEv 534 = .ok r ∧ r.xs = some exQT ∧ r.binding = some (2175 / 4) ∧ r.fluorescence = some (1 / 8) ∧ r.real = none := by
  obtain ⟨r, h, -, h1, -, h2, -, h3, h4⟩ := C176_reaction (sections := exQEv) (mt := 534) (exQ_some rfl) (factor := none) rfl (exQ_some rfl) (imag := none) rfl
  exact ⟨r, h, h1, h3, h4, h2⟩

example : ∃ r, prxFromEndf exQEv 502 = .ok r ∧ r.xs = some exQT ∧ r.real = some exQT ∧ r.imag = none ∧ r.binding = none := by
  obtain ⟨r, h, -, h1, -, h2, h5, h3, h4⟩ := C176_reaction (sections := exQEv) (mt := 502) (exQ_some rfl) (factor := none) rfl (exQ_some rfl) (imag := none) rfl
  exact ⟨r, h, h1, h2, h5, h3⟩

end ASAPy.Photon
