import Mathlib.Data.List.Basic
import Mathlib.Data.List.Forall2

/-! Helper lemmas about lists and `Except` used by several areas. -/

namespace ASAPy

theorem mapM_ok_iff {α β ε : Type*} (f : α → Except ε β) (l : List α) (out : List β) :
    l.mapM f = .ok out ↔ List.Forall₂ (fun a b => f a = .ok b) l out := by
  induction l generalizing out with
  | nil =>
    simp [pure, Except.pure, eq_comm]
  | cons a t ih =>
    rw [List.mapM_cons]
    cases hfa : f a with
    | error x =>
      simp only [bind, Except.bind]
      constructor
      · intro h; cases h
      · intro h; cases h with
        | cons h1 _ => rw [hfa] at h1; cases h1
    | ok b =>
      cases ht : t.mapM f with
      | error x =>
        simp only [bind, Except.bind]
        constructor
        · intro h; cases h
        · intro h; cases h with
          | cons h1 h2 => rw [← ih] at h2; rw [ht] at h2; cases h2
      | ok bs =>
        simp only [bind, Except.bind, pure, Except.pure]
        constructor
        · intro h; cases h
          exact List.Forall₂.cons hfa ((ih bs).mp ht)
        · intro h; cases h with
          | cons h1 h2 =>
            rw [hfa] at h1; cases h1
            rw [← ih, ht] at h2; cases h2; rfl

end ASAPy
