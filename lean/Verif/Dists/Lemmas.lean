import Verif.Dists.Spec
import Verif.FromAce.NuProps

namespace ASAPy.Dists
open ASAPy.FromAce

section
variable {K : Type} [Field K] [LinearOrder K] [FloorRing K] [IsStrictOrderedRing K]

theorem at_item {α : Type} {l vs : List α} {p : Nat} (h : AtL l p vs) (k : Nat) {v : α} (hk : vs[k]? = some v) (q : Int) (hq : q = p + k) : item l q = .ok v := by
  subst hq
  have := item_nat l (p + k) v (h k v hk)
  push_cast at this
  exact this

theorem pyTrunc_int (n : Int) : pyTrunc (n : K) = n := by
  unfold pyTrunc
  split_ifs
  · exact Int.floor_intCast n
  · exact Int.ceil_intCast n

theorem at_int {a : Arrays K} {vs : List K} {p : Nat} (h : AtL a.xss p vs) (k : Nat) {n : Int} (hk : vs[k]? = some (n : K)) (q : Int) (hq : q = p + k) : a.int q = .ok n := by
  unfold Arrays.int
  rw [at_item h k hk q hq]
  simp [bind, Except.bind, pure, Except.pure, pyTrunc_int]

theorem at_nat {a : Arrays K} {vs : List K} {p : Nat} (h : AtL a.xss p vs) (k : Nat) {n : Nat} (hk : vs[k]? = some (n : K)) (q : Int) (hq : q = p + k) : a.int q = .ok (n : Int) :=
  at_int h k (by rw [hk]; push_cast; rfl) q hq

/-- The parts of a written table. -/
theorem tab_parts {a : Arrays K} {p : Nat} {n : Tab K} (h : AtL a.xss p n.numbers) (hf : Fits n) :
    a.int p = .ok (n.breakpoints.length : Int) ∧ a.int ((p : Int) + 1 + 2 * (n.breakpoints.length : Int)) = .ok (n.energies.length : Int) ∧
    AtL a.xss (p + 1) (n.breakpoints.map fun v : Nat => (v : K)) ∧ AtL a.xss (p + 1 + n.breakpoints.length) (n.laws.map fun v : Nat => (v : K)) ∧
    AtL a.xss (p + 2 + 2 * n.breakpoints.length) n.energies ∧ AtL a.xss (p + 2 + 2 * n.breakpoints.length + n.energies.length) n.values := by
  obtain ⟨f1, f2⟩ := hf
  have h0 := at_nat h 0 (n := n.breakpoints.length) rfl p (by simp)
  obtain ⟨hat, hV⟩ := at_append h
  obtain ⟨hat, hE⟩ := at_append hat
  obtain ⟨hat, hN⟩ := at_append hat
  obtain ⟨hat, hI⟩ := at_append hat
  obtain ⟨_, hB⟩ := at_append hat
  simp only [List.length_append, List.length_map, List.length_cons, List.length_nil] at hV hE hN hI hB
  have e1 : p + (0 + 1 + n.breakpoints.length + n.laws.length + (0 + 1)) = p + 2 + 2 * n.breakpoints.length := by omega
  rw [e1] at hE
  have e2 : p + (0 + 1 + n.breakpoints.length + n.laws.length + (0 + 1) + n.energies.length) = p + 2 + 2 * n.breakpoints.length + n.energies.length := by omega
  rw [e2] at hV
  refine ⟨h0, at_nat hN 0 rfl _ (by push_cast; omega), hB, ?_, hE, hV⟩
  convert hI using 1; omega

theorem tab1_at {a : Arrays K} {p : Nat} {n : Tab K} (h : AtL a.xss p n.numbers) (hf : Fits n) (q : Int) (hq : q = p) : tab1 a q = .ok (tabEv n) := by
  subst hq
  obtain ⟨h0, h1, hB, hI, hE, hV⟩ := tab_parts h hf
  obtain ⟨f1, f2⟩ := hf
  unfold tab1
  simp only [bind, Except.bind, h0, h1, pure, Except.pure, tabEv, Except.ok.injEq, Tab1D.mk.injEq]
  refine ⟨?_, ?_, ?_, ?_⟩
  · rw [slice_at hE _ _ (by push_cast; ring) rfl]
  · rw [slice_at hV _ _ (by push_cast; ring) (by rw [f2]; ring)]
  · by_cases hb : n.breakpoints = []
    · rw [if_pos hb, hb]; simp
    · have : 0 < n.breakpoints.length := List.length_pos_iff.mpr hb
      rw [if_neg hb, if_pos (by omega), slice_at hB _ _ (by push_cast; ring) (by rw [List.length_map]), map_trunc]
  · by_cases hb : n.breakpoints = []
    · rw [if_pos hb, hb]; simp
    · have : 0 < n.breakpoints.length := List.length_pos_iff.mpr hb
      rw [if_neg hb, if_pos (by omega), slice_at hI _ _ (by push_cast; ring) (by rw [List.length_map, f1]; ring), List.map_map]
      conv_rhs => rw [← List.map_id n.laws]
      apply List.map_congr_left
      intro v _
      simp [pyTrunc_nat]

theorem numbers_length {n : Tab K} (hf : Fits n) : n.numbers.length = 2 + 2 * n.breakpoints.length + 2 * n.energies.length := by
  obtain ⟨f1, f2⟩ := hf
  simp [Tab.numbers, f1, f2]; omega

theorem afterTab_at {a : Arrays K} {p : Nat} {n : Tab K} (h : AtL a.xss p n.numbers) (hf : Fits n) (q : Int) (hq : q = p) : afterTab a q = .ok ((p + n.numbers.length : Nat) : Int) := by
  subst hq
  obtain ⟨h0, h1, -⟩ := tab_parts h hf
  unfold afterTab
  simp only [bind, Except.bind, h0, h1, pure, Except.pure, Except.ok.injEq, numbers_length hf]
  push_cast; ring

theorem at_cons {α : Type} {l : List α} {p : Nat} {v : α} {vs : List α} (h : AtL l p (v :: vs)) : AtL l (p + 1) vs := by
  have := (at_append (u := [v]) (v := vs) h).2
  simpa using this

end
end ASAPy.Dists
