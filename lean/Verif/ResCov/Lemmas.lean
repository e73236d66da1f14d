import Verif.ResCov.Spec
import Verif.Res.Props2
import Mathlib.Data.List.Sort

/-!
# Lemmas on triangles, sorting and slices
-/

namespace ASAPy.ResCov
open ASAPy.Endf ASAPy.Res ASAPy.Decay

/-! ### Triangles -/

theorem mem_triuIdx {n i j : Nat} : (i, j) ∈ triuIdx n ↔ i ≤ j ∧ j < n := by
  unfold triuIdx
  simp only [List.mem_flatMap, List.mem_range, List.mem_map, Prod.mk.injEq]
  constructor
  · rintro ⟨a, ha, k, hk, rfl, rfl⟩
    omega
  · rintro ⟨h1, h2⟩
    exact ⟨i, by omega, j - i, by omega, rfl, by omega⟩

theorem upper_eq (n : Nat) (S : Nat → Nat → ℚ) : upper n S = (triuIdx n).map fun p => S p.1 p.2 := by
  unfold upper triuIdx
  rw [List.map_flatMap]
  simp only [List.map_map, Function.comp_def]

theorem lookup_map {κ α : Type} [BEq κ] [LawfulBEq κ] [DecidableEq κ] (l : List κ) (f : κ → α) (k : κ) : (l.map fun x => (x, f x)).lookup k = if k ∈ l then some (f k) else none := by
  induction l with
  | nil => rfl
  | cons x l ih =>
    rw [List.map_cons, List.lookup_cons, ih]
    by_cases h : k = x
    · subst h; simp
    · have : (k == x) = false := by simpa using h
      simp [this, h]

/-- The matrix of an upper triangle. -/
theorem setTriu_upper (n : Nat) (S : Nat → Nat → ℚ) :
    setTriu n (upper n S) = .ok ⟨n, fun i j => if i ≤ j ∧ j < n then S i j else 0⟩ := by
  unfold setTriu
  rw [if_pos (by rw [upper_eq, List.length_map])]
  congr 2
  funext i j
  rw [upper_eq]
  have : (triuIdx n).zip ((triuIdx n).map fun p => S p.1 p.2) = (triuIdx n).map fun p => (p, S p.1 p.2) := by
    conv_lhs => rw [show (triuIdx n).zip = ((triuIdx n).map id).zip by rw [List.map_id]]
    rw [List.zip_map']
    rfl
  rw [this, lookup_map (triuIdx n) (fun p => S p.1 p.2) (i, j)]
  by_cases h : i ≤ j ∧ j < n
  · rw [if_pos (mem_triuIdx.mpr h), if_pos h]; rfl
  · rw [if_neg (fun hh => h (mem_triuIdx.mp hh)), if_neg h]; rfl

/-- The pairs of a list, the first not behind the second. -/
def pairsOf {α : Type} : List α → List (α × α)
  | [] => []
  | x :: xs => (x :: xs).map (fun y => (x, y)) ++ pairsOf xs

theorem pairsOf_map {α β : Type} (f : α → β) (l : List α) : pairsOf (l.map f) = (pairsOf l).map fun p => (f p.1, f p.2) := by
  induction l with
  | nil => rfl
  | cons x l ih =>
    simp only [List.map_cons, pairsOf, ih, List.map_append, List.map_map, Function.comp_def]

theorem pairsOf_range' (s n : Nat) : pairsOf (List.range' s n) = (List.range n).flatMap fun i => (List.range (n - i)).map fun k => (s + i, s + i + k) := by
  induction n generalizing s with
  | zero => rfl
  | succ n ih =>
    rw [List.range'_succ, pairsOf, ih, List.range_succ_eq_map, List.flatMap_cons, List.flatMap_map]
    congr 1
    · rw [← List.range'_succ, List.range'_eq_map_range, List.map_map]
      simp [Function.comp_def]
    · apply List.flatMap_congr
      intro i _
      rw [show n + 1 - i.succ = n - i by omega]
      apply List.map_congr_left
      intro k _
      rw [show s + 1 + i = s + i.succ by omega]

theorem triuIdx_eq (n : Nat) : triuIdx n = pairsOf (List.range n) := by
  rw [List.range_eq_range', pairsOf_range']
  simp [triuIdx]

theorem pairsOf_sorted (L : List Nat) (h : L.Pairwise (· < ·)) :
    (L.flatMap fun x => (L.filter fun y => x ≤ y).map fun y => (x, y)) = pairsOf L := by
  induction L with
  | nil => rfl
  | cons x L ih =>
    rw [List.pairwise_cons] at h
    rw [List.flatMap_cons, pairsOf, ← ih h.2]
    congr 1
    · rw [List.filter_eq_self.mpr]
      intro y hy
      rcases List.mem_cons.mp hy with rfl | hy
      · simp
      · simpa using le_of_lt (h.1 y hy)
    · apply List.flatMap_congr
      intro y hy
      rw [List.filter_cons_of_neg (by simpa using h.1 y hy)]

/-! ### Sorting -/

theorem sort_unique {α : Type} (key : α → ℚ) {l1 l2 : List α} (hp : (l1.map key).Perm (l2.map key)) (h1 : l1.Pairwise fun a b => key a ≤ key b)
    (h2 : l2.Pairwise fun a b => key a ≤ key b) : l1.map key = l2.map key := by
  apply List.Perm.eq_of_pairwise' (r := (· ≤ ·)) _ _ hp
  · exact List.pairwise_map.mpr h1
  · exact List.pairwise_map.mpr h2

theorem sorted_key {α : Type} {κ : Type} [LinearOrder κ] (key : α → κ) (l : List α) :
    (l.mergeSort fun a b => decide (key a ≤ key b)).Pairwise fun a b => key a ≤ key b := by
  have := List.pairwise_mergeSort (le := fun a b => decide (key a ≤ key b)) (fun a b c h1 h2 => by simp at *; exact le_trans h1 h2)
    (fun a b => by simp; exact le_total _ _) l
  exact this.imp fun h => by simpa using h

theorem zipIdx_sorted {α : Type} (l : List α) (n : Nat) : (l.zipIdx n).Pairwise fun a b => a.2 < b.2 := by
  induction l generalizing n with
  | nil => simp
  | cons a l ih =>
    rw [List.zipIdx_cons, List.pairwise_cons]
    refine ⟨fun b hb => ?_, ih _⟩
    obtain ⟨b, i⟩ := b
    have := (List.mem_zipIdx hb).1
    simp only
    omega

/-- Rows come back to their order, each with what is added for its energy. -/
theorem addFile2_spec {ρ : Type} (fmt : Fmt ρ) (base : ρ → ρ) (he : ∀ r, fmt.energy (base r) = fmt.energy r) {rows par : List ρ}
    (hp : (rows.map fmt.energy).Perm (par.map fmt.energy)) (ha : ∀ r ∈ rows, ∀ p ∈ par, fmt.energy r = fmt.energy p → fmt.add (base r) p = r) :
    addFile2 fmt (rows.map base) par = .ok rows := by
  unfold addFile2
  simp only
  set s2 := par.mergeSort fun a b => decide (fmt.energy a ≤ fmt.energy b) with hs2
  set s32 := (rows.map base).zipIdx.mergeSort fun a b => decide (fmt.energy a.1 ≤ fmt.energy b.1) with hs32
  have p2 : s2.Perm par := List.mergeSort_perm _ _
  have p32 : s32.Perm (rows.map base).zipIdx := List.mergeSort_perm _ _
  have e : s32.map (fun x => fmt.energy x.1) = s2.map fmt.energy := by
    have q : (s32.map (fun x => fmt.energy x.1)).Perm (s2.map fmt.energy) := by
      refine (p32.map _).trans ((List.Perm.trans ?_ hp).trans (p2.map _).symm)
      have : (rows.map base).zipIdx.map (fun x => fmt.energy x.1) = rows.map fmt.energy := by
        rw [show (fun x : ρ × Nat => fmt.energy x.1) = fmt.energy ∘ Prod.fst from rfl, ← List.map_map, List.zipIdx_map_fst, List.map_map]
        apply List.map_congr_left
        intro r _
        exact he r
      rw [this]
    apply List.Perm.eq_of_pairwise' (r := (· ≤ ·)) _ _ q
    · exact List.pairwise_map.mpr (sorted_key (fun x : ρ × Nat => fmt.energy x.1) _)
    · exact List.pairwise_map.mpr (sorted_key fmt.energy _)
  have hlen : s2.length = s32.length := by
    have := congrArg List.length e
    simpa using this.symm
  rw [if_neg (by simp [hlen])]
  congr 1
  -- pairs with equal energies
  have hz : s32.zipWith (fun r f => (fmt.add r.1 f, r.2)) s2 = s32.filterMap fun x => (rows[x.2]?).map fun r => (r, x.2) := by
    have hm2 : ∀ f ∈ s2, f ∈ par := fun f hf => p2.mem_iff.mp hf
    have hm32 : ∀ x ∈ s32, ∃ r, rows[x.2]? = some r ∧ x.1 = base r := by
      rintro ⟨x, i⟩ hx
      have := p32.mem_iff.mp hx
      rw [List.mem_zipIdx_iff_getElem?] at this
      simp only [List.getElem?_map, Option.map_eq_some_iff] at this
      obtain ⟨r, h1, h2⟩ := this
      exact ⟨r, h1, h2.symm⟩
    clear_value s2 s32
    clear p2 p32 hs2 hs32 hlen
    induction s32 generalizing s2 with
    | nil => simp
    | cons x s32 ih =>
      cases s2 with
      | nil => simp at e
      | cons f s2 =>
        simp only [List.map_cons, List.cons.injEq] at e
        obtain ⟨r, hr, hx⟩ := hm32 x (by simp)
        rw [List.zipWith_cons_cons, List.filterMap_cons_some (b := (r, x.2)) (by rw [hr]; rfl), ih s2 e.2 (fun f hf => hm2 f (by simp [hf])) (fun y hy => hm32 y (by simp [hy])),
          hx, ha r (List.mem_of_getElem? hr) f (hm2 f (by simp)) (by rw [← he r, ← hx]; exact e.1)]
  have hperm : (s32.zipWith (fun r f => (fmt.add r.1 f, r.2)) s2).Perm rows.zipIdx := by
    rw [hz]
    refine (p32.filterMap _).trans ?_
    have : (rows.map base).zipIdx.filterMap (fun x => (rows[x.2]?).map fun r => (r, x.2)) = rows.zipIdx := by
      rw [List.zipIdx_map, List.filterMap_map]
      conv_rhs => rw [← List.filterMap_some (l := rows.zipIdx)]
      apply List.filterMap_congr
      rintro ⟨x, i⟩ hx
      rw [List.mem_zipIdx_iff_getElem?] at hx
      simp [hx]
    rw [this]
  have hfin : (s32.zipWith (fun r f => (fmt.add r.1 f, r.2)) s2).mergeSort (fun a b => decide (a.2 ≤ b.2)) = rows.zipIdx := by
    have q : ((s32.zipWith (fun r f => (fmt.add r.1 f, r.2)) s2).mergeSort (fun a b => decide (a.2 ≤ b.2))).Perm rows.zipIdx := (List.mergeSort_perm _ _).trans hperm
    apply List.Perm.eq_of_pairwise (le := fun a b : ρ × Nat => a.2 ≤ b.2) _ _ _ q
    · intro a b ha hb h1 h2
      obtain ⟨a, i⟩ := a
      obtain ⟨b, j⟩ := b
      have ha := List.mem_zipIdx_iff_getElem?.mp (q.mem_iff.mp ha)
      have hb := List.mem_zipIdx_iff_getElem?.mp hb
      simp only at h1 h2 ha hb
      have : i = j := by omega
      subst this
      rw [ha] at hb
      simpa using hb
    · exact sorted_key (fun x : ρ × Nat => x.2) _
    · exact (zipIdx_sorted rows 0).imp fun h => le_of_lt h
  rw [hfin, List.zipIdx_map_fst]

/-! ### Rows -/

theorem rowsFrom_of {α : Type} {row : Nat → Except PyErr α} {xs : List α} {s : Nat} (h : ∀ i (hi : i < xs.length), row (s + i) = .ok xs[i]) :
    rowsFrom row s xs.length = .ok xs := by
  induction xs generalizing s with
  | nil => rfl
  | cons x xs ih =>
    have h0 := h 0 (by simp)
    simp only [Nat.add_zero, List.getElem_cons_zero] at h0
    have := ih (s := s + 1) (fun i hi => by
      have := h (i + 1) (by simpa using hi)
      rw [show s + 1 + i = s + (i + 1) by omega, this]
      rfl)
    simp only [List.length_cons, rowsFrom, bind, Except.bind, h0, this, pure, Except.pure]

end ASAPy.ResCov
