import Verif.FromAce.Model
import Verif.FromAce.Spec
import Verif.Components.Props

/-! # Reading numbers out of the arrays -/

namespace ASAPy.FromAce
open ASAPy.Ace

theorem item_cons {α : Type} (d : α) (l : List α) (i : Nat) (hi : 0 < i) (v : α) (h : l[i - 1]? = some v) : item (d :: l) (i : Int) = .ok v := by
  unfold item pyGet
  obtain ⟨k, rfl⟩ : ∃ k, i = k + 1 := ⟨i - 1, by omega⟩
  have h0 : (0:Int) ≤ ((k + 1 : Nat) : Int) := by omega
  simp only [if_pos h0, Int.toNat_natCast, List.getElem?_cons_succ]
  simp only [Nat.add_sub_cancel] at h
  rw [h]

theorem item_nat {α : Type} (l : List α) (i : Nat) (v : α) (h : l[i]? = some v) : item l (i : Int) = .ok v := by
  unfold item pyGet
  have h0 : (0:Int) ≤ (i : Int) := by omega
  rw [if_pos h0, Int.toNat_natCast, h]

theorem clamp_nat (n i : Nat) : clamp n (i : Int) = min i n := by
  unfold clamp
  rw [if_neg (by omega), Int.toNat_natCast]

theorem slice_nat {α : Type} (l : List α) (a b : Nat) : slice l (a : Int) (b : Int) = (l.take b).drop a := by
  unfold slice
  rw [clamp_nat, clamp_nat]
  apply List.ext_getElem?
  intro i
  simp only [List.getElem?_drop, List.getElem?_take]
  by_cases ha : a ≤ l.length
  · rw [min_eq_left ha]
    by_cases hb : b ≤ l.length
    · rw [min_eq_left hb]
    · rw [min_eq_right (by omega)]
      by_cases hlt : a + i < l.length
      · rw [if_pos hlt, if_pos (by omega)]
      · rw [if_neg hlt]
        by_cases h2 : a + i < b
        · rw [if_pos h2, List.getElem?_eq_none (by omega)]
        · rw [if_neg h2]
  · rw [min_eq_right (by omega)]
    have h1 : l[a + i]? = none := List.getElem?_eq_none (by omega)
    have h2 : l[l.length + i]? = none := List.getElem?_eq_none (by omega)
    rw [h1, h2]
    split_ifs <;> rfl

/-- The numbers `vs` stand in `l` from position `p` on. -/
def AtL {α : Type} (l : List α) (p : Nat) (vs : List α) : Prop := ∀ (k : Nat) (v : α), vs[k]? = some v → l[p + k]? = some v

theorem slice_at {α : Type} {l vs : List α} {p : Nat} (h : AtL l p vs) (a b : Int) (ha : a = p) (hb : b = a + vs.length) : slice l a b = vs := by
  subst ha
  have hb' : b = ((p + vs.length : Nat) : Int) := by rw [hb]; push_cast; rfl
  rw [hb', slice_nat]
  apply List.ext_getElem?
  intro i
  simp only [List.getElem?_drop, List.getElem?_take]
  by_cases hi : i < vs.length
  · rw [if_pos (by omega)]
    rw [h i vs[i] (List.getElem?_eq_getElem hi), List.getElem?_eq_getElem hi]
  · rw [if_neg (by omega), List.getElem?_eq_none (by omega)]

theorem at_append {α : Type} {l u v : List α} {p : Nat} (h : AtL l p (u ++ v)) : AtL l p u ∧ AtL l (p + u.length) v := by
  constructor
  · intro k x hk
    apply h
    have : k < u.length := by
      by_contra hc
      rw [List.getElem?_eq_none (by omega)] at hk
      cases hk
    rw [List.getElem?_append_left this, hk]
  · intro k x hk
    have := h (u.length + k) x (by rw [List.getElem?_append_right (by omega), Nat.add_sub_cancel_left, hk])
    rw [← Nat.add_assoc] at this
    exact this

variable {K : Type} [Field K] [LinearOrder K]

/-- `l'` is `l` with some negative numbers set to zero. -/
def Fixed (l l' : List K) : Prop :=
  l'.length = l.length ∧ ∀ (p : Nat) (v : K), l[p]? = some v → l'[p]? = some v ∨ (v < 0 ∧ l'[p]? = some 0)

theorem Fixed.refl (l : List K) : Fixed l l := ⟨rfl, fun _ _ h => Or.inl h⟩

theorem Fixed.zeroNeg {l l' : List K} (h : Fixed l l') (a b : Int) : Fixed l (zeroNeg l' a b) := by
  refine ⟨by simp [FromAce.zeroNeg, h.1], ?_⟩
  intro p v hp
  unfold FromAce.zeroNeg
  rw [List.getElem?_mapIdx]
  rcases h.2 p v hp with h1 | ⟨hv, h1⟩
  · rw [h1]
    simp only [Option.map_some]
    by_cases hc : clamp l'.length a ≤ p ∧ p < clamp l'.length b ∧ v < 0
    · rw [if_pos hc]; exact Or.inr ⟨hc.2.2, rfl⟩
    · rw [if_neg hc]; exact Or.inl rfl
  · rw [h1]
    right
    refine ⟨hv, ?_⟩
    simp only [Option.map_some]
    split_ifs <;> rfl

theorem Fixed.nonneg {l l' : List K} (h : Fixed l l') {p : Nat} {v : K} (hp : l[p]? = some v) (hv : 0 ≤ v) : l'[p]? = some v := by
  rcases h.2 p v hp with h1 | ⟨h1, _⟩
  · exact h1
  · exact absurd hv (not_le.mpr h1)

theorem Fixed.at {l l' vs : List K} (h : Fixed l l') {p : Nat} (hp : AtL l p vs) (hv : ∀ v ∈ vs, 0 ≤ v) : AtL l' p vs :=
  fun k v hk => h.nonneg (hp k v hk) (hv v (List.mem_of_getElem? hk))

/-- A block after its negative numbers have been set to zero. -/
theorem Fixed.cleaned {l l' vs : List K} (h : Fixed l l') {p : Nat} (hp : AtL l p vs) (a b : Int) (ha : a = p) (hb : b = a + vs.length) :
    slice (FromAce.zeroNeg l' a b) a b = cleaned vs := by
  have hb2 : b = ((p + vs.length : Nat) : Int) := by rw [hb, ha]; push_cast; rfl
  apply slice_at (p := p)
  · intro k v hk
    unfold FromAce.cleaned at hk
    rw [List.getElem?_map] at hk
    obtain ⟨w, hw, hwv⟩ := Option.map_eq_some_iff.mp hk
    subst hwv
    have hkl : k < vs.length := by
      by_contra hc
      rw [List.getElem?_eq_none (by omega)] at hw
      cases hw
    have h1 := hp k w hw
    have hlen : p + k < l'.length := by
      rw [h.1]
      by_contra hc
      rw [List.getElem?_eq_none (by omega)] at h1
      cases h1
    unfold FromAce.zeroNeg
    rw [List.getElem?_mapIdx, hb2, ha, clamp_nat, clamp_nat]
    rcases h.2 _ _ h1 with h2 | ⟨hw0, h2⟩
    · rw [h2]
      simp only [Option.map_some]
      by_cases hw0 : w < 0
      · rw [if_pos ⟨by omega, by omega, hw0⟩, if_pos hw0]
      · rw [if_neg (fun hc => hw0 hc.2.2), if_neg hw0]
    · rw [h2, if_pos hw0]
      simp only [Option.map_some]
      split_ifs <;> rfl
  · exact ha
  · rw [hb]; simp [FromAce.cleaned]

variable [FloorRing K] [IsStrictOrderedRing K]

theorem pyTrunc_nat (n : Nat) : pyTrunc (n : K) = n := by
  unfold pyTrunc
  rw [if_pos (Nat.cast_nonneg n)]
  exact Int.floor_natCast n

end ASAPy.FromAce
