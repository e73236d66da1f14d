import Verif.Deck.Whole

/-!
# Reading is deterministic, and can be computed
-/

namespace ASAPy.Deck

theorem readModule_stop (s : W) : readModule c!"stop" s = none := rfl
theorem readModule_comment (s : W) : readModule c!"--" s = none := rfl

/-- What NJOY reads is determined by the input. -/
theorem Reads.unique {s : W} {rs rs' : List Run} (h : Reads s rs) (h' : Reads s rs') : rs = rs' := by
  induction h generalizing rs' with
  | stop h =>
    cases h' with
    | stop _ => rfl
    | comment h2 _ => rw [h] at h2; exact absurd h2 (by decide)
    | run h2 hm _ => rw [h] at h2; obtain rfl : c!"stop" = _ := by simpa using h2
                     simp [readModule_stop] at hm
  | comment h hr ih =>
    cases h' with
    | stop h2 => rw [h] at h2; exact absurd h2 (by decide)
    | comment _ hr2 => exact ih hr2
    | run h2 hm _ => rw [h] at h2; obtain rfl : c!"--" = _ := by simpa using h2
                     simp [readModule_comment] at hm
  | run h hm hr ih =>
    cases h' with
    | stop h2 => rw [h] at h2; obtain rfl := by simpa using h2
                 simp [readModule_stop] at hm
    | comment h2 _ => rw [h] at h2; obtain rfl := by simpa using h2
                      simp [readModule_comment] at hm
    | run h2 hm2 hr2 =>
      rw [h] at h2; obtain rfl := by simpa using h2
      rw [hm] at hm2
      simp only [Option.some.injEq, Prod.mk.injEq] at hm2
      obtain ⟨rfl, rfl⟩ := hm2
      rw [ih hr2]

/-- The outcome of reading. -/
inductive Res where
  | ok (rs : List Run) | bad | more
deriving DecidableEq

/-- Reading with a bound on the number of modules. -/
def readF : Nat → W → Res
  | 0, _ => .more
  | n + 1, s => match (card 1 s).1 with
    | [name] =>
      if name = c!"stop" then .ok []
      else if name = c!"--" then readF n (card 1 s).2
      else match readModule name (card 1 s).2 with
        | none => .bad
        | some (r, s') => match readF n s' with
          | .ok rs => .ok (r :: rs)
          | x => x
    | _ => .bad

theorem readF_ok {n : Nat} {s : W} {rs : List Run} (h : readF n s = .ok rs) : Reads s rs := by
  induction n generalizing s rs with
  | zero => simp [readF] at h
  | succ n ih =>
    unfold readF at h
    split at h
    · rename_i name hn
      split at h
      · rename_i e; subst e
        simp only [Res.ok.injEq] at h; subst h
        exact .stop hn
      · split at h
        · rename_i _ e; subst e
          exact .comment hn (ih h)
        · split at h
          · simp at h
          · rename_i r s' hm
            cases hr : readF n s' with
            | ok xs => simp only [hr, Res.ok.injEq] at h; subst h; exact .run hn hm (ih hr)
            | bad => simp [hr] at h
            | more => simp [hr] at h
    · simp at h

theorem readF_bad {n : Nat} {s : W} (h : readF n s = .bad) (rs : List Run) : ¬ Reads s rs := by
  induction n generalizing s rs with
  | zero => simp [readF] at h
  | succ n ih =>
    intro hr
    unfold readF at h
    cases hr with
    | stop h2 => simp [h2] at h
    | comment h2 hr =>
      simp only [h2, if_true] at h
      rw [if_neg (by decide)] at h
      exact ih h _ hr
    | @run _ s' name r xs h2 hm hr =>
      simp only [h2] at h
      split at h
      · simp at h
      · split at h
        · rename_i _ e; subst e
          simp [readModule_comment] at hm
        · simp only [hm] at h
          cases hx : readF n s' with
          | ok xs => simp [hx] at h
          | more => simp [hx] at h
          | bad => exact ih hx _ hr

end ASAPy.Deck
