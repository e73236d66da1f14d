import Verif.RankOrder.Model
import Mathlib.Data.List.Nodup
import Mathlib.Data.List.Perm.Subperm
import Mathlib.Tactic.Linarith
import Mathlib.Algebra.Order.Field.Rat

/-! # C42: reordering keeps the samples and imposes the rank order -/

namespace ASAPy.RankOrder
variable {K : Type*} [LinearOrder K]

variable {a : List K}

theorem before_iff {k i : Nat} (hk : k < a.length) (hi : i < a.length) :
    before a k i = true ↔ a[k] < a[i] ∨ (a[k] = a[i] ∧ k < i) := by
  simp [before, hk, hi]

theorem before_trans {i j k : Nat} (hi : i < a.length) (hj : j < a.length) (hk : k < a.length)
    (h1 : before a i j = true) (h2 : before a j k = true) : before a i k = true := by
  rw [before_iff hi hj] at h1
  rw [before_iff hj hk] at h2
  rw [before_iff hi hk]
  rcases h1 with h1 | ⟨h1, h1'⟩ <;> rcases h2 with h2 | ⟨h2, h2'⟩
  · exact Or.inl (h1.trans h2)
  · exact Or.inl (h2 ▸ h1)
  · exact Or.inl (h1 ▸ h2)
  · exact Or.inr ⟨h1.trans h2, by omega⟩

theorem before_irrefl {i : Nat} (hi : i < a.length) : before a i i = false := by
  rw [← Bool.not_eq_true, before_iff hi hi]
  simp

/-- The rank of element `i`. -/
def rk (a : List K) (i : Nat) : Nat := (List.range a.length).countP fun k => before a k i

theorem rankCol_eq (a : List K) : rankCol a = (List.range a.length).map (rk a) := rfl

theorem countP_lt {l : List Nat} {p q : Nat → Bool} (himp : ∀ x ∈ l, p x = true → q x = true) {y : Nat} (hy : y ∈ l)
    (hq : q y = true) (hp : p y = false) : l.countP p < l.countP q := by
  induction l with
  | nil => cases hy
  | cons b l ih =>
    simp only [List.countP_cons]
    have hle : l.countP p ≤ l.countP q :=
      List.countP_mono_left fun x hx => himp x (List.mem_cons_of_mem _ hx)
    rcases List.mem_cons.mp hy with rfl | hy
    · simp [hq, hp]; omega
    · have := ih (fun x hx => himp x (List.mem_cons_of_mem _ hx)) hy
      have hb := himp b (List.mem_cons_self ..)
      by_cases hpb : p b = true
      · simp [hpb, hb hpb]; omega
      · simp only [Bool.not_eq_true] at hpb
        simp only [hpb, Bool.false_eq_true, if_false]
        omega

theorem rk_lt_of_before {i k : Nat} (hi : i < a.length) (hk : k < a.length) (h : before a i k = true) : rk a i < rk a k := by
  unfold rk
  refine countP_lt (y := i) ?_ (List.mem_range.mpr hi) h (before_irrefl hi)
  intro x hx hxi
  exact before_trans (List.mem_range.mp hx) hi hk hxi h

theorem rk_lt_length {i : Nat} (hi : i < a.length) : rk a i < a.length := by
  unfold rk
  have : (List.range a.length).countP (fun k => before a k i) < (List.range a.length).countP fun _ => true :=
    countP_lt (y := i) (by simp) (List.mem_range.mpr hi) rfl (before_irrefl hi)
  simpa using this

theorem before_total {i k : Nat} (hi : i < a.length) (hk : k < a.length) (h : i ≠ k) :
    before a i k = true ∨ before a k i = true := by
  rw [before_iff hi hk, before_iff hk hi]
  rcases lt_trichotomy a[i] a[k] with h1 | h1 | h1
  · exact Or.inl (Or.inl h1)
  · rcases lt_or_gt_of_ne h with h2 | h2
    · exact Or.inl (Or.inr ⟨h1, h2⟩)
    · exact Or.inr (Or.inr ⟨h1.symm, h2⟩)
  · exact Or.inr (Or.inl h1)

theorem rk_lt_iff {i k : Nat} (hi : i < a.length) (hk : k < a.length) : rk a i < rk a k ↔ before a i k = true := by
  refine ⟨fun h => ?_, rk_lt_of_before hi hk⟩
  by_cases hne : i = k
  · subst hne; omega
  · rcases before_total hi hk hne with h1 | h1
    · exact h1
    · have := rk_lt_of_before hk hi h1
      omega

theorem rk_injOn {i k : Nat} (hi : i < a.length) (hk : k < a.length) (h : rk a i = rk a k) : i = k := by
  by_contra hne
  rcases before_total hi hk hne with h1 | h1
  · have := rk_lt_of_before hi hk h1; omega
  · have := rk_lt_of_before hk hi h1; omega

/-- **C42.** The ranks of a column are 0, ..., n-1 in some order. -/
theorem C42_ranks (a : List K) : (rankCol a).Perm (List.range a.length) := by
  have hnd : (rankCol a).Nodup := by
    rw [rankCol_eq]
    apply List.Nodup.map_on _ List.nodup_range
    intro i hi k hk h
    exact rk_injOn (List.mem_range.mp hi) (List.mem_range.mp hk) h
  have hsub : rankCol a ⊆ List.range a.length := by
    intro x hx
    rw [rankCol_eq, List.mem_map] at hx
    obtain ⟨i, hi, rfl⟩ := hx
    exact List.mem_range.mpr (rk_lt_length (List.mem_range.mp hi))
  exact (List.subperm_of_subset hnd hsub).perm_of_length_le (by simp [rankCol])

theorem orderCol_eq {a b : List K} (h : a.length = b.length) : ∃ out, orderCol (rankCol a) b = .ok out ∧ out.length = b.length ∧
    ∀ i, i < b.length → out[i]? = (b.insertionSort (· ≤ ·))[rk a i]? := by
  have hlen : (b.insertionSort (· ≤ ·)).length = b.length := List.length_insertionSort _ _
  have key : ∀ l : List Nat, (∀ i ∈ l, i < a.length) → ∃ out,
      (l.map (rk a)).mapM (fun i => match (b.insertionSort (· ≤ ·))[i]? with
        | some x => Except.ok (ε := PyErr) x
        | none => .error .indexError) = .ok out ∧ out.length = l.length ∧
      ∀ i : Nat, out[i]? = (l[i]?).bind fun j => (b.insertionSort (· ≤ ·))[rk a j]? := by
    intro l
    induction l with
    | nil => intro _; exact ⟨[], rfl, rfl, by simp⟩
    | cons j l ih =>
      intro hl
      obtain ⟨out, h1, h2, h3⟩ := ih (fun i hi => hl i (List.mem_cons_of_mem _ hi))
      have hj : rk a j < (b.insertionSort (· ≤ ·)).length := by
        rw [hlen, ← h]
        exact rk_lt_length (hl j (List.mem_cons_self ..))
      refine ⟨(b.insertionSort (· ≤ ·))[rk a j] :: out, ?_, by simp [h2], ?_⟩
      · rw [List.map_cons, List.mapM_cons, h1]
        simp only [List.getElem?_eq_getElem hj]
        rfl
      · intro i
        cases i with
        | zero => simp [List.getElem?_eq_getElem hj]
        | succ i => simp [h3 i]
  obtain ⟨out, h1, h2, h3⟩ := key (List.range a.length) (fun i hi => List.mem_range.mp hi)
  refine ⟨out, h1, by rw [h2, List.length_range, h], ?_⟩
  intro i hi
  rw [h3 i, List.getElem?_range (by omega)]
  rfl

/-- **C42.** Reordering a column `b` of samples by the ranks of a column `a` of the same length succeeds (no index is out
of range); the result is a permutation of the samples, and larger elements of `a` never get smaller samples; equal elements
of `a` get their samples in increasing order. -/
theorem C42_reorder {a b : List K} (h : a.length = b.length) : ∃ out, orderCol (rankCol a) b = .ok out ∧ out.Perm b ∧
    ∀ i k (hi : i < a.length) (hk : k < a.length) (hi' : i < out.length) (hk' : k < out.length),
      (a[i] < a[k] ∨ (a[i] = a[k] ∧ i < k)) → out[i] ≤ out[k] := by
  obtain ⟨out, h1, h2, h3⟩ := orderCol_eq h
  have hlen : (b.insertionSort (· ≤ ·)).length = b.length := List.length_insertionSort _ _
  refine ⟨out, h1, ?_, ?_⟩
  · have hout : out.map some = (rankCol a).map fun i => (b.insertionSort (· ≤ ·))[i]? := by
      apply List.ext_getElem?
      intro i
      by_cases hi : i < b.length
      · rw [List.getElem?_map, List.getElem?_map, rankCol_eq, List.getElem?_map, List.getElem?_range (by omega)]
        simp only [Option.map_some]
        have := h3 i hi
        rw [List.getElem?_eq_getElem (by omega)] at this ⊢
        rw [← this]
        rfl
      · rw [List.getElem?_eq_none (by simp; omega), List.getElem?_eq_none (by simp [rankCol]; omega)]
    have hs : (b.insertionSort (· ≤ ·)).map some = (List.range a.length).map fun i => (b.insertionSort (· ≤ ·))[i]? := by
      apply List.ext_getElem?
      intro i
      by_cases hi : i < b.length
      · rw [List.getElem?_map, List.getElem?_map, List.getElem?_range (by omega), List.getElem?_eq_getElem (by omega)]
        simp only [Option.map_some]
        rw [List.getElem?_eq_getElem (by omega)]
      · rw [List.getElem?_eq_none (by simp; omega), List.getElem?_eq_none (by simp; omega)]
    have hp : (out.map some).Perm (b.map some) := by
      rw [hout]
      refine ((C42_ranks a).map _).trans ?_
      rw [← hs]
      exact (List.perm_insertionSort (· ≤ ·) b).map some
    have := hp.filterMap id
    simpa [List.filterMap_map] using this
  · intro i k hi hk hi' hk' hb
    have hlt := rk_lt_of_before hi hk ((before_iff hi hk).mpr hb)
    have e1 := h3 i (by omega)
    have e2 := h3 k (by omega)
    have l1 := rk_lt_length hi
    have l2 := rk_lt_length hk
    rw [List.getElem?_eq_getElem hi', List.getElem?_eq_getElem (by omega)] at e1
    rw [List.getElem?_eq_getElem hk', List.getElem?_eq_getElem (by omega)] at e2
    rw [Option.some.injEq] at e1 e2
    rw [e1, e2]
    exact (List.pairwise_iff_getElem.mp (List.pairwise_insertionSort (· ≤ ·) b)) _ _ _ _ hlt

/-- **C42.** For different samples the result has exactly the ranks of `a`. -/
theorem C42_same_ranks {a b : List K} (h : a.length = b.length) (hnd : b.Nodup) : ∃ out, orderCol (rankCol a) b = .ok out ∧
    rankCol out = rankCol a := by
  obtain ⟨out, h1, hp, hmono⟩ := C42_reorder h
  refine ⟨out, h1, ?_⟩
  have hlen : out.length = a.length := by rw [hp.length_eq, h]
  have hnd' : out.Nodup := hp.nodup_iff.mpr hnd
  have hb : ∀ i k, i < a.length → k < a.length → before out i k = before a i k := by
    intro i k hi hk
    have hi' : i < out.length := by omega
    have hk' : k < out.length := by omega
    rw [Bool.eq_iff_iff, before_iff hi' hk']
    constructor
    · intro hh
      by_cases hne : i = k
      · subst hne; simp at hh
      · rcases before_total hi hk hne with hx | hx
        · exact hx
        · have := hmono k i hk hi hk' hi' ((before_iff hk hi).mp hx)
          have hne' : out[i] ≠ out[k] := fun he => hne (hnd'.getElem_inj_iff.mp he)
          rcases hh with hh | ⟨hh, _⟩
          · exact absurd hh (not_lt.mpr this)
          · exact absurd hh hne'
    · intro hh
      left
      refine lt_of_le_of_ne (hmono i k hi hk hi' hk' ((before_iff hi hk).mp hh)) ?_
      intro he
      have := hnd'.getElem_inj_iff.mp he
      subst this
      rw [before_irrefl hi] at hh
      cases hh
  rw [rankCol_eq, rankCol_eq, hlen]
  apply List.map_congr_left
  intro i hi
  unfold rk
  rw [hlen]
  apply List.countP_congr
  intro k hk
  rw [hb k i (List.mem_range.mp hk) (List.mem_range.mp hi)]

/-- **C42, whole arrays.** With as many columns on both sides and columns of equal lengths, every column is treated that
way. -/
theorem C42_all_columns {N S : List (List K)} (h : List.Forall₂ (fun a b => a.length = b.length) N S) :
    ∃ out, order (rank N) S = .ok out ∧ List.Forall₂ (fun o b => o.Perm b) out S ∧
      List.Forall₂ (fun o p => orderCol (rankCol p.1) p.2 = .ok o) out (N.zip S) := by
  induction h with
  | nil => exact ⟨[], rfl, .nil, .nil⟩
  | cons hab hrest ih =>
    rename_i a b as bs
    obtain ⟨out, h1, h2, h3⟩ := ih
    obtain ⟨o, ho, hp, _⟩ := C42_reorder hab
    refine ⟨o :: out, ?_, .cons hp h2, .cons ho h3⟩
    unfold order rank at *
    rw [List.map_cons, List.zip_cons_cons, List.mapM_cons, h1]
    simp only [ho]
    rfl

/-- With ties on both sides. -/
example : orderCol (rankCol [(3 : ℚ), 1, 3, 2]) [7, 5, 5, 9] = .ok [7, 5, 9, 5] := by decide +kernel

example : rankCol [(3 : ℚ), 1, 3, 2] = [2, 0, 3, 1] := by decide +kernel

end ASAPy.RankOrder
