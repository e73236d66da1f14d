import Mathlib.Data.List.Basic

/-!
# Insertion-ordered dictionaries

Python `dict`s (and `OrderedDict`s) as association lists: lookup finds the first entry of a key, assignment to
an existing key keeps its place, assignment to a new key appends.
-/

namespace ASAPy.Dict

variable {κ α : Type*} [DecidableEq κ]

/-- `d[k]`, `none` for a missing key. -/
def get? : List (κ × α) → κ → Option α
  | [], _ => none
  | (k', a) :: d, k => if k' = k then some a else get? d k

/-- `d[k] = f(d[k])` for an existing key; nothing happens for a missing one. -/
def modify (d : List (κ × α)) (k : κ) (f : α → α) : List (κ × α) :=
  match d with
  | [] => []
  | (k', a) :: d => if k' = k then (k', f a) :: d else (k', a) :: modify d k f

/-- `d[k] = a`. -/
def set : List (κ × α) → κ → α → List (κ × α)
  | [], k, a => [(k, a)]
  | (k', a') :: d, k, a => if k' = k then (k', a) :: d else (k', a') :: set d k a

/-- `list(d.keys())`. -/
def keys (d : List (κ × α)) : List κ := d.map Prod.fst

theorem get?_isSome {d : List (κ × α)} {k : κ} : (get? d k).isSome ↔ k ∈ keys d := by
  induction d with
  | nil => simp [get?, keys]
  | cons e d ih =>
    obtain ⟨k', a⟩ := e
    simp only [get?, keys, List.map_cons, List.mem_cons]
    by_cases h : k' = k
    · simp [h]
    · have h' : ¬ k = k' := fun h' => h h'.symm
      rw [if_neg h, ih]; simp [h', keys]

theorem get?_eq_none {d : List (κ × α)} {k : κ} : get? d k = none ↔ k ∉ keys d := by
  rw [← get?_isSome]; simp

theorem get?_modify_same (d : List (κ × α)) (k : κ) (f : α → α) :
    get? (modify d k f) k = (get? d k).map f := by
  induction d with
  | nil => rfl
  | cons e d ih =>
    obtain ⟨k', a⟩ := e
    by_cases h : k' = k <;> simp [get?, modify, h, ih]

theorem get?_modify_ne (d : List (κ × α)) {k k' : κ} (f : α → α) (h : k' ≠ k) :
    get? (modify d k f) k' = get? d k' := by
  induction d with
  | nil => rfl
  | cons e d ih =>
    obtain ⟨k'', a⟩ := e
    by_cases h1 : k'' = k
    · subst h1; simp [get?, modify, h.symm]
    · simp [get?, modify, h1, ih]

theorem keys_modify (d : List (κ × α)) (k : κ) (f : α → α) : keys (modify d k f) = keys d := by
  induction d with
  | nil => rfl
  | cons e d ih =>
    obtain ⟨k', a⟩ := e
    by_cases h : k' = k <;> simp_all [keys, modify]

theorem modify_congr (d : List (κ × α)) (k : κ) {f g : α → α} (h : ∀ a, get? d k = some a → f a = g a) :
    modify d k f = modify d k g := by
  induction d with
  | nil => rfl
  | cons e d ih =>
    obtain ⟨k', a⟩ := e
    by_cases h' : k' = k
    · subst h'; simp [modify]; apply h; simp [get?]
    · simp only [modify, h', if_false]
      rw [ih]
      intro b hb; apply h; simp [get?, h', hb]

theorem modify_id (d : List (κ × α)) (k : κ) {f : α → α} (h : ∀ a, get? d k = some a → f a = a) :
    modify d k f = d := by
  induction d with
  | nil => rfl
  | cons e d ih =>
    obtain ⟨k', a⟩ := e
    by_cases h' : k' = k
    · subst h'; simp only [modify, if_true]; rw [h a (by simp [get?])]
    · simp only [modify, h', if_false]
      rw [ih]
      intro b hb; apply h; simp [get?, h', hb]

theorem get?_set_same (d : List (κ × α)) (k : κ) (a : α) : get? (set d k a) k = some a := by
  induction d with
  | nil => simp [set, get?]
  | cons e d ih =>
    obtain ⟨k', a'⟩ := e
    by_cases h : k' = k <;> simp [get?, set, h, ih]

theorem get?_set_ne (d : List (κ × α)) {k k' : κ} (a : α) (h : k' ≠ k) :
    get? (set d k a) k' = get? d k' := by
  induction d with
  | nil => simp [set, get?, h.symm]
  | cons e d ih =>
    obtain ⟨k'', a'⟩ := e
    by_cases h1 : k'' = k
    · subst h1; simp [get?, set, h.symm]
    · simp [get?, set, h1, ih]

theorem mem_keys_set (d : List (κ × α)) (k k' : κ) (a : α) :
    k' ∈ keys (set d k a) ↔ k' = k ∨ k' ∈ keys d := by
  rw [← get?_isSome, ← get?_isSome]
  by_cases h : k' = k
  · subst h; simp [get?_set_same]
  · simp [get?_set_ne d a h, h]

/-- Two dictionaries with the same keys, without repetition, and the same values are the same. -/
theorem ext {d d' : List (κ × α)} (hk : keys d = keys d') (hn : (keys d).Nodup)
    (h : ∀ k, get? d k = get? d' k) : d = d' := by
  induction d generalizing d' with
  | nil => cases d' with
    | nil => rfl
    | cons e d' => simp [keys] at hk
  | cons e d ih =>
    cases d' with
    | nil => simp [keys] at hk
    | cons e' d' =>
      obtain ⟨k, a⟩ := e
      obtain ⟨k', a'⟩ := e'
      simp only [keys, List.map_cons, List.cons.injEq] at hk
      obtain ⟨rfl, hk⟩ := hk
      have ha := h k
      simp only [get?, if_true, Option.some.injEq] at ha
      subst ha
      simp only [keys, List.map_cons, List.nodup_cons] at hn
      congr 1
      apply ih hk hn.2
      intro k'
      by_cases hkk : k = k'
      · subst hkk
        have h1 : k ∉ keys d := hn.1
        have h2 : k ∉ keys d' := by
          rw [show keys d' = keys d from hk.symm]; exact h1
        rw [get?_eq_none.mpr h1, get?_eq_none.mpr h2]
      · have := h k'
        simpa [get?, hkk] using this

end ASAPy.Dict
