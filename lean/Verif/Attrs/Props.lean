import Verif.Attrs.Spec
import Mathlib.Data.List.Forall2

/-!
# Properties of the attributes of the data classes (C226)
-/

namespace ASAPy.Attrs
open ASAPy.Check (checkGreater)

/-! ### The checks -/

theorem checkType_ok {v : Val} {t : Ty} : checkType v t = .ok () ↔ isA v t = true := by
  unfold checkType
  split_ifs with h <;> simp [h]

theorem both_ok {a b : Except PyErr Unit} : both a b = .ok () ↔ a = .ok () ∧ b = .ok () := by
  unfold both
  cases a <;> simp

theorem all_ok {l : List (Except PyErr Unit)} : all l = .ok () ↔ ∀ a ∈ l, a = .ok () := by
  induction l with
  | nil => simp [all]
  | cons a l ih => simp [all, both_ok, ih]

theorem isA_str {v : Val} : isA v .str = true ↔ IsText v := by
  cases v <;> simp [isA, IsText]

theorem isA_bool {v : Val} : isA v .boolean = true ↔ IsBool v := by
  cases v <;> simp [isA, IsBool]

theorem isA_cls {v : Val} {c : Cls} : isA v (.cls c) = true ↔ IsObj c v := by
  cases v <;> simp [isA, IsObj]

theorem isA_mapping {v : Val} : isA v .mapping = true ↔ ∃ l, v = .dict l := by
  cases v <;> simp [isA]

theorem isA_ndarray {v : Val} : isA v .ndarray = true ↔ ∃ k n, v = .array k n := by
  cases v <;> simp [isA]

theorem isA_integral {v : Val} : isA v .integral = true ↔ IsWhole v := by
  cases v with
  | bool b => cases b <;> simp [isA, IsWhole, Whole]
  | _ => simp [isA, IsWhole, Whole]

theorem isA_real {v : Val} : isA v .real = true ↔ IsReal v := by
  cases v with
  | bool b => cases b <;> simp [isA, IsReal, Real, Whole]
  | _ => simp [isA, IsReal, Real, Whole]

theorem isA_callable {v : Val} : isA v .callable = true ↔ ∃ c, v = .obj c ∧ c ∈ [Cls.tabulated1D, .polynomial, .combination] := by
  cases v with
  | obj c => cases c <;> simp [isA]
  | _ => simp [isA]

theorem isA_function {v : Val} : isA v .function1D = true ↔ v = .obj .tabulated1D ∨ v = .obj .polynomial := by
  cases v with
  | obj c => cases c <;> simp [isA]
  | _ => simp [isA]

theorem number_iff {v : Val} {x : Flt ℚ} : v.number = some x ↔ Real v x := by
  cases v with
  | bool b => cases b <;> simp [Val.number, Real, Whole, eq_comm]
  | int i => simp [Val.number, Real, Whole, eq_comm]
  | _ => simp [Val.number, Real, Whole]

theorem real_unique {v : Val} {x y : Flt ℚ} (h : Real v x) (h' : Real v y) : x = y := by
  rw [← number_iff] at h h'
  rw [h] at h'
  exact Option.some.inj h'

theorem greater_true {x : Flt ℚ} : checkGreater x (.fin 0) true = .ok () ↔ NotBelow x := by
  cases x with
  | fin q =>
    simp only [checkGreater, Flt.lt, NotBelow]
    by_cases h : q < 0 <;> simp [h, not_lt.mp]
  | _ => simp [checkGreater, Flt.lt, NotBelow]

theorem greater_false {x : Flt ℚ} : checkGreater x (.fin 0) false = .ok () ↔ Over x := by
  cases x with
  | fin q =>
    simp only [checkGreater, Flt.lt, ASAPy.Check.same, Over]
    rcases lt_trichotomy q 0 with h | h | h
    · simp [h, h.le]
    · simp [h]
    · simp [h, h.le, h.ne']
  | _ => simp [checkGreater, Flt.lt, ASAPy.Check.same, Over]

theorem above_ok {v : Val} {e : Bool} : checkAbove v e = .ok () ↔ ∃ x, Real v x ∧ checkGreater x (.fin 0) e = .ok () := by
  unfold checkAbove
  cases h : v.number with
  | none =>
    simp only [reduceCtorEq, false_iff, not_exists, not_and]
    intro x hx
    rw [← number_iff, h] at hx
    cases hx
  | some x =>
    have hx := number_iff.mp h
    simp only
    exact ⟨fun g => ⟨x, hx, g⟩, fun ⟨y, hy, g⟩ => by rwa [real_unique hx hy]⟩

theorem real_whole {v : Val} {n : Int} (h : Whole v n) : Real v (.fin n) := Or.inr ⟨n, h, rfl⟩

theorem count_ok {v : Val} : checkCount v = .ok () ↔ Count v := by
  unfold checkCount Count
  rw [both_ok, checkType_ok, isA_integral, above_ok]
  constructor
  · rintro ⟨⟨n, hn⟩, x, hx, hg⟩
    rw [real_unique hx (real_whole hn), greater_true] at hg
    rcases hg with hg | hg | ⟨q, hq, h0⟩
    · cases hg
    · cases hg
    · refine ⟨n, hn, ?_⟩
      rw [Flt.fin.injEq] at hq
      rw [← hq] at h0
      exact_mod_cast h0
  · rintro ⟨n, hn, h0⟩
    exact ⟨⟨n, hn⟩, _, real_whole hn, greater_true.mpr (Or.inr (Or.inr ⟨n, rfl, by exact_mod_cast h0⟩))⟩

theorem whole_positive_ok {v : Val} : both (checkType v .integral) (checkAbove v false) = .ok () ↔ ∃ n, Whole v n ∧ 0 < n := by
  rw [both_ok, checkType_ok, isA_integral, above_ok]
  constructor
  · rintro ⟨⟨n, hn⟩, x, hx, hg⟩
    rw [real_unique hx (real_whole hn), greater_false] at hg
    rcases hg with hg | hg | ⟨q, hq, h0⟩
    · cases hg
    · cases hg
    · refine ⟨n, hn, ?_⟩
      rw [Flt.fin.injEq] at hq
      rw [← hq] at h0
      exact_mod_cast h0
  · rintro ⟨n, hn, h0⟩
    exact ⟨⟨n, hn⟩, _, real_whole hn, greater_false.mpr (Or.inr (Or.inr ⟨n, rfl, by exact_mod_cast h0⟩))⟩

theorem positive_ok {v : Val} : checkPositive v = .ok () ↔ Positive v := by
  unfold checkPositive Positive
  rw [both_ok, checkType_ok, isA_real, above_ok]
  constructor
  · rintro ⟨-, x, hx, hg⟩
    exact ⟨x, hx, greater_false.mp hg⟩
  · rintro ⟨x, hx, hg⟩
    exact ⟨⟨x, hx⟩, x, hx, greater_false.mpr hg⟩

theorem not_below_ok {v : Val} : both (checkType v .real) (checkAbove v true) = .ok () ↔ ∃ x, Real v x ∧ NotBelow x := by
  rw [both_ok, checkType_ok, isA_real, above_ok]
  constructor
  · rintro ⟨-, x, hx, hg⟩
    exact ⟨x, hx, greater_true.mp hg⟩
  · rintro ⟨x, hx, hg⟩
    exact ⟨⟨x, hx⟩, x, hx, greater_true.mpr hg⟩

theorem uncertain_ok {v : Val} : checkUncertain v = .ok () ↔ Uncertain v := by
  unfold Uncertain
  cases v with
  | ufloat n s => simp [checkUncertain, both_ok, greater_true]
  | _ => simp [checkUncertain]

theorem items_ok {v : Val} {t : Ty} {P : Val → Prop} (hP : ∀ v, isA v t = true ↔ P v) :
    checkItems v t = .ok () ↔ Items P v ∨ (∃ s, v = .text s ∧ ∀ c ∈ s, P (.text [c])) ∨ ∃ k n, v = .array k n ∧ k.isA t = true := by
  unfold Items checkItems
  cases v with
  | text s =>
    constructor
    · intro h
      refine Or.inr (Or.inl ⟨s, rfl, ?_⟩)
      simp only at h
      split_ifs at h with h'
      intro c hc
      exact (hP _).mp (List.all_eq_true.mp h' c hc)
    · rintro ((⟨l, h, -⟩ | ⟨l, h, -⟩ | h | ⟨k, h⟩) | ⟨s', h, h'⟩ | ⟨k, n, h, -⟩) <;> cases h
      · simp
      · exact if_pos (List.all_eq_true.mpr fun c hc => (hP _).mpr (h' c hc))
  | seq l => simp [hP]
  | dict l => simp [hP]
  | array k n =>
    cases hk : k.isA t <;> simp [hk]
  | _ => simp

theorem items_obj {v : Val} {c : Cls} : checkItems v (.cls c) = .ok () ↔ Items (IsObj c) v := by
  rw [items_ok (fun v => isA_cls)]
  constructor
  · rintro (h | ⟨s, rfl, hs⟩ | ⟨k, n, rfl, hk⟩)
    · exact h
    · cases s with
      | nil => exact Or.inr (Or.inr (Or.inl rfl))
      | cons a s => exact absurd (hs a (by simp)) (by simp [IsObj])
    · cases k <;> simp [Kind.isA] at hk
  · exact Or.inl

theorem items_text {v : Val} : checkItems v .str = .ok () ↔ Items IsText v ∨ IsText v := by
  rw [items_ok (fun v => isA_str)]
  constructor
  · rintro (h | ⟨s, rfl, hs⟩ | ⟨k, n, rfl, hk⟩)
    · exact Or.inl h
    · exact Or.inr ⟨s, rfl⟩
    · cases k <;> simp [Kind.isA] at hk
  · rintro (h | ⟨s, rfl⟩)
    · exact Or.inl h
    · exact Or.inr (Or.inl ⟨s, rfl, fun c _ => ⟨_, rfl⟩⟩)

theorem items_real {v : Val} : checkItems v .real = .ok () ↔ Items IsReal v ∨ ∃ n, v = .array .int n ∨ v = .array .float n := by
  rw [items_ok (fun v => isA_real)]
  constructor
  · rintro (h | ⟨s, rfl, hs⟩ | ⟨k, n, rfl, hk⟩)
    · exact Or.inl h
    · cases s with
      | nil => exact Or.inl (Or.inr (Or.inr (Or.inl rfl)))
      | cons a s => exact absurd (hs a (by simp)) (by simp [IsReal, Real, Whole])
    · refine Or.inr ⟨n, ?_⟩
      cases k <;> simp [Kind.isA] at hk ⊢
  · rintro (h | ⟨n, rfl | rfl⟩)
    · exact Or.inl h
    · exact Or.inr (Or.inr ⟨_, _, rfl, rfl⟩)
    · exact Or.inr (Or.inr ⟨_, _, rfl, rfl⟩)

theorem text_ok {v : Val} {a b c : Text} : checkText v [a, b, c] = .ok () ↔ v = .text a ∨ v = .text b ∨ v = .text c := by
  cases v with
  | text s =>
    simp only [checkText, List.mem_cons, List.not_mem_nil, or_false, Val.text.injEq]
    by_cases h : s = a ∨ s = b ∨ s = c <;> simp [h]
  | _ => simp [checkText]

theorem int_ok {v : Val} : checkInt v [2, 5] = .ok () ↔ ∃ n : Int, (Whole v n ∨ v = .float (.fin n)) ∧ (n = 2 ∨ n = 5) := by
  have key : checkInt v [2, 5] = .ok () ↔ ∃ n : Int, Real v (.fin n) ∧ (n = 2 ∨ n = 5) := by
    unfold checkInt
    cases h : v.number with
    | none =>
      simp only [reduceCtorEq, false_iff, not_exists, not_and]
      intro n hn
      rw [← number_iff, h] at hn
      cases hn
    | some x =>
      have hx := number_iff.mp h
      cases x with
      | fin q =>
        constructor
        · intro g
          simp only at g
          split_ifs at g with g'
          obtain ⟨n, hn, rfl⟩ := g'
          exact ⟨n, hx, by simpa using hn⟩
        · rintro ⟨n, hn, hn'⟩
          exact if_pos ⟨n, by simpa using hn', by simpa using real_unique hx hn⟩
      | _ =>
        simp only [reduceCtorEq, false_iff, not_exists, not_and]
        intro n hn
        exact absurd (real_unique hx hn) (by simp)
  rw [key]
  constructor
  · rintro ⟨n, hn | ⟨m, hm, he⟩, h⟩
    · exact ⟨n, Or.inr hn, h⟩
    · have : n = m := by simpa using he
      exact ⟨n, Or.inl (this ▸ hm), h⟩
  · rintro ⟨n, hn | hn, h⟩
    · exact ⟨n, real_whole hn, h⟩
    · exact ⟨n, Or.inl hn, h⟩

theorem items_whole {v : Val} : checkItems v .integral = .ok () ↔ Wholes v := by
  rw [items_ok (fun v => isA_integral)]
  constructor
  · rintro (h | ⟨s, rfl, hs⟩ | ⟨k, n, rfl, hk⟩)
    · exact Or.inl h
    · cases s with
      | nil => exact Or.inl (Or.inr (Or.inr (Or.inl rfl)))
      | cons a s => exact absurd (hs a (by simp)) (by simp [IsWhole, Whole])
    · refine Or.inr ⟨n, ?_⟩
      cases k <;> simp [Kind.isA] at hk ⊢
  · rintro (h | ⟨n, rfl⟩)
    · exact Or.inl h
    · exact Or.inr (Or.inr ⟨_, _, rfl, rfl⟩)

theorem function_ok {v : Val} : checkType v .callable = .ok () ↔ IsFunction v := by
  rw [checkType_ok, isA_callable]
  cases v <;> simp [IsFunction]

theorem shell_iff {s : Text} : s ∈ subshells ↔ s = ['K'] ∨ ∃ p ∈ shells, ∃ k : Nat, 1 ≤ k ∧ k ≤ p.2 ∧ s = p.1 :: (toString k).toList := by
  have h1 : ∀ s ∈ subshells, s = ['K'] ∨ ∃ p ∈ shells, ∃ k ∈ List.range 12, 1 ≤ k ∧ k ≤ p.2 ∧ s = p.1 :: (toString k).toList := by decide +kernel
  have h2 : ∀ p ∈ shells, p.2 < 12 ∧ ∀ k ∈ List.range 12, 1 ≤ k → k ≤ p.2 → (p.1 :: (toString k).toList) ∈ subshells := by decide +kernel
  constructor
  · intro h
    rcases h1 s h with h | ⟨p, hp, k, -, h⟩
    · exact Or.inl h
    · exact Or.inr ⟨p, hp, k, h⟩
  · rintro (rfl | ⟨p, hp, k, hk1, hk2, rfl⟩)
    · decide
    · obtain ⟨h3, h4⟩ := h2 p hp
      exact h4 k (List.mem_range.mpr (by omega)) hk1 hk2

theorem checkText_mem {v : Val} {l : List Text} : checkText v l = .ok () ↔ ∃ s ∈ l, v = .text s := by
  cases v with
  | text s =>
    simp only [checkText, Val.text.injEq, exists_eq_right']
    by_cases h : s ∈ l <;> simp [h]
  | _ => simp [checkText]

theorem shells_ok {v : Val} {f : Val → Except PyErr Unit} {P : Val → Prop} (h : ∀ x, f x = .ok () ↔ P x) : checkShells v f = .ok () ↔ ByShell P v := by
  have hs : ∀ x, checkText x subshells = .ok () ↔ IsShell x := by
    intro x
    rw [checkText_mem]
    constructor
    · rintro ⟨s, hs, rfl⟩
      rcases shell_iff.mp hs with rfl | ⟨p, hp, k, h1, h2, rfl⟩
      · exact Or.inl rfl
      · exact Or.inr ⟨p, hp, k, h1, h2, rfl⟩
    · rintro (rfl | ⟨p, hp, k, h1, h2, rfl⟩)
      · exact ⟨_, shell_iff.mpr (Or.inl rfl), rfl⟩
      · exact ⟨_, shell_iff.mpr (Or.inr ⟨p, hp, k, h1, h2, rfl⟩), rfl⟩
  unfold ByShell
  cases v with
  | dict l =>
    simp only [checkShells, all_ok, List.mem_map, Val.dict.injEq, exists_eq_left', forall_exists_index, and_imp, forall_apply_eq_imp_iff₂, both_ok, hs, h]
  | _ => simp [checkShells]

/-! ### Objects -/

/-- Each attribute of the documentation has a setter that accepts what is documented. -/
def Agrees (c : Class) (d : Doc) : Prop := ∀ a D, Dict.get? d a = some D → ∃ check, Dict.get? c.setters a = some check ∧ ∀ v, check v = .ok () ↔ D v

/-- A `TypeError` or a `ValueError`, or nothing. -/
def Refusal (r : Except PyErr Unit) : Prop := ∀ e, r = .error e → e = .typeError ∨ e = .valueError

theorem refusal_ok : Refusal (.ok ()) := by
  intro e h
  cases h

theorem refusal_type : Refusal (.error .typeError) := by
  intro e h
  cases h
  exact Or.inl rfl

theorem refusal_value : Refusal (.error .valueError) := by
  intro e h
  cases h
  exact Or.inr rfl

theorem refusal_checkType (v : Val) (t : Ty) : Refusal (checkType v t) := by
  unfold checkType
  split_ifs
  · exact refusal_ok
  · exact refusal_type

theorem refusal_both {a b : Except PyErr Unit} (ha : Refusal a) (hb : Refusal b) : Refusal (both a b) := by
  unfold both
  cases a with
  | ok u => exact hb
  | error e =>
    intro e' h
    cases h
    exact ha e rfl

theorem refusal_all {l : List (Except PyErr Unit)} (h : ∀ a ∈ l, Refusal a) : Refusal (all l) := by
  induction l with
  | nil => exact refusal_ok
  | cons a l ih => exact refusal_both (h a (by simp)) (ih fun b hb => h b (by simp [hb]))

theorem refusal_greater (x y : Flt ℚ) (e : Bool) : Refusal (checkGreater x y e) := by
  unfold checkGreater
  split_ifs <;> first | exact refusal_ok | exact refusal_value

theorem refusal_above (v : Val) (e : Bool) : Refusal (checkAbove v e) := by
  unfold checkAbove
  cases v.number with
  | none => exact refusal_type
  | some x => exact refusal_greater x _ e

theorem refusal_items (v : Val) (t : Ty) : Refusal (checkItems v t) := by
  unfold checkItems
  cases v <;> simp only <;> first | exact refusal_type | (split_ifs <;> first | exact refusal_ok | exact refusal_type)

theorem refusal_text (v : Val) (l : List Text) : Refusal (checkText v l) := by
  unfold checkText
  cases v <;> simp only <;> first | exact refusal_value | (split_ifs <;> first | exact refusal_ok | exact refusal_value)

theorem refusal_int (v : Val) (l : List Int) : Refusal (checkInt v l) := by
  unfold checkInt
  split
  · split_ifs <;> first | exact refusal_ok | exact refusal_value
  · exact refusal_value

theorem refusal_count (v : Val) : Refusal (checkCount v) := refusal_both (refusal_checkType v _) (refusal_above v _)
theorem refusal_positive (v : Val) : Refusal (checkPositive v) := refusal_both (refusal_checkType v _) (refusal_above v _)

theorem refusal_uncertain (v : Val) : Refusal (checkUncertain v) := by
  cases v with
  | ufloat n s => exact refusal_both (refusal_greater n _ _) (refusal_greater s _ _)
  | _ => exact refusal_type

theorem refusal_urr (v : Val) : Refusal (checkUrr v) := by
  unfold checkUrr
  cases v with
  | dict l =>
    simp only
    apply refusal_all
    intro a ha
    obtain ⟨kv, -, rfl⟩ := List.mem_map.mp ha
    split <;> first | exact refusal_both (refusal_checkType _ _) (refusal_checkType _ _) | exact refusal_value | exact refusal_type
  | _ => exact refusal_type

theorem refusal_shells (v : Val) {f : Val → Except PyErr Unit} (hf : ∀ x, Refusal (f x)) : Refusal (checkShells v f) := by
  cases v with
  | dict l =>
    apply refusal_all
    intro a ha
    obtain ⟨kv, -, rfl⟩ := List.mem_map.mp ha
    exact refusal_both (refusal_text _ _) (hf _)
  | _ => exact refusal_type

theorem refusals {c : Class} {d : Doc} (h : Documented c d) : ∀ p ∈ c.setters, ∀ v, Refusal (p.2 v) := by
  cases h
  all_goals
    simp only [neutron, reaction, product, decayMode, tables, nbody, maxwell, watt, madland, line, level, continuous, kalbach, angle, release, coherent,
      relaxation, photon, photonReaction, uncorrelated, List.forall_mem_cons]
    repeat' apply And.intro
  all_goals first
    | (intro v; first
      | exact refusal_checkType v _
      | exact refusal_items v _
      | exact refusal_text v _
      | exact refusal_int v _
      | exact refusal_count v
      | exact refusal_positive v
      | exact refusal_uncertain v
      | exact refusal_urr v
      | exact refusal_shells v fun x => refusal_both (refusal_checkType x _) (refusal_above x _)
      | exact refusal_shells v fun x => refusal_checkType x _
      | exact refusal_both (refusal_checkType v _) (refusal_above v _))
    | exact fun p hp => absurd hp List.not_mem_nil
    | skip
  intro v
  cases v with
  | dict l =>
    apply refusal_all
    intro a ha
    obtain ⟨kv, -, rfl⟩ := List.mem_map.mp ha
    exact refusal_both (refusal_checkType _ _) (refusal_checkType _ _)
  | _ => exact refusal_type

theorem get?_mem {α : Type} {d : List (Text × α)} {a : Text} {x : α} (h : Dict.get? d a = some x) : (a, x) ∈ d := by
  induction d with
  | nil => cases h
  | cons e d ih =>
    obtain ⟨b, y⟩ := e
    simp only [Dict.get?] at h
    split_ifs at h with hb
    · cases h
      rw [hb]
      simp
    · exact List.mem_cons_of_mem _ (ih h)

theorem agrees_cons {a : Text} {D : Val → Prop} {d : Doc} {check : Val → Except PyErr Unit} {s : List (Text × (Val → Except PyErr Unit))}
    (h : ∀ v, check v = .ok () ↔ D v) (hd : Agrees ⟨s⟩ d) : Agrees ⟨(a, check) :: s⟩ ((a, D) :: d) := by
  intro b E hb
  simp only [Dict.get?] at hb ⊢
  split_ifs at hb ⊢ with hab
  · cases hb
    exact ⟨check, rfl, h⟩
  · exact hd b E hb

theorem agrees_nil {s : List (Text × (Val → Except PyErr Unit))} : Agrees ⟨s⟩ [] := by
  intro a D h
  cases h

theorem agrees {c : Class} {d : Doc} (h : Documented c d) : Agrees c d := by
  have txt : ∀ v, checkType v .str = .ok () ↔ IsText v := fun v => checkType_ok.trans isA_str
  have bl : ∀ v, checkType v .boolean = .ok () ↔ IsBool v := fun v => checkType_ok.trans isA_bool
  have ob : ∀ c v, checkType v (.cls c) = .ok () ↔ IsObj c v := fun c v => checkType_ok.trans isA_cls
  have rl : ∀ v, checkType v .real = .ok () ↔ IsReal v := fun v => checkType_ok.trans isA_real
  have wh : ∀ v, checkType v .integral = .ok () ↔ IsWhole v := fun v => checkType_ok.trans isA_integral
  cases h with
  | neutron =>
    exact agrees_cons txt <| agrees_cons (fun v => count_ok) <| agrees_cons (fun v => count_ok) <| agrees_cons (fun v => count_ok) <|
      agrees_cons (fun v => positive_ok) <| agrees_cons (ob _) <| agrees_cons (fun v => checkType_ok.trans isA_mapping) <| agrees_cons (ob _) <|
      agrees_cons (ob _) agrees_nil
  | reaction =>
    refine agrees_cons bl <| agrees_cons bl <| agrees_cons rl <| agrees_cons (fun v => items_obj) <| agrees_cons (fun v => items_obj) <|
      agrees_cons (fun v => ?_) agrees_nil
    cases v with
    | dict l =>
      simp only [all_ok, List.mem_map, Val.dict.injEq, exists_eq_left', forall_exists_index, and_imp, forall_apply_eq_imp_iff₂]
      simp only [both_ok, checkType_ok, isA_str, isA_callable]
    | _ => simp
  | product =>
    exact agrees_cons (fun v => items_obj) <| agrees_cons (fun v => not_below_ok) <| agrees_cons (fun v => items_obj) <| agrees_cons (fun v => text_ok) <|
      agrees_cons txt <| agrees_cons (fun v => checkType_ok.trans isA_function) agrees_nil
  | decayMode =>
    exact agrees_cons (fun v => uncertain_ok) <| agrees_cons (fun v => uncertain_ok) <| agrees_cons (fun v => items_text) <| agrees_cons txt agrees_nil
  | tables =>
    exact agrees_cons wh <| agrees_cons (fun v => items_real) <| agrees_cons wh <| agrees_cons (fun v => int_ok) <| agrees_cons bl <|
      agrees_cons (fun v => checkType_ok.trans isA_ndarray) agrees_nil
  | nbody =>
    exact agrees_cons (fun v => positive_ok) <| agrees_cons (fun v => whole_positive_ok) <| agrees_cons (fun v => positive_ok) <| agrees_cons rl agrees_nil
  | maxwell => exact agrees_cons (ob _) <| agrees_cons rl agrees_nil
  | watt => exact agrees_cons (ob _) <| agrees_cons (ob _) <| agrees_cons rl agrees_nil
  | madland => exact agrees_cons (fun v => positive_ok) <| agrees_cons (fun v => positive_ok) <| agrees_cons (ob _) agrees_nil
  | line => exact agrees_cons wh <| agrees_cons rl <| agrees_cons rl agrees_nil
  | level => exact agrees_cons rl <| agrees_cons rl agrees_nil
  | continuous =>
    exact agrees_cons (fun v => items_whole) <| agrees_cons (fun v => items_whole) <| agrees_cons (fun v => items_real) <| agrees_cons (fun v => items_obj) agrees_nil
  | kalbach =>
    exact agrees_cons (fun v => items_whole) <| agrees_cons (fun v => items_whole) <| agrees_cons (fun v => items_real) <| agrees_cons (fun v => items_obj) <|
      agrees_cons (fun v => items_obj) <| agrees_cons (fun v => items_obj) agrees_nil
  | angle => exact agrees_cons (fun v => items_real) <| agrees_cons (fun v => items_obj) agrees_nil
  | release =>
    exact agrees_cons (fun v => function_ok) <| agrees_cons (fun v => function_ok) <| agrees_cons (fun v => function_ok) <| agrees_cons (fun v => function_ok) <|
      agrees_cons (fun v => function_ok) <| agrees_cons (fun v => function_ok) <| agrees_cons (fun v => function_ok) agrees_nil
  | coherent => exact agrees_cons (fun v => items_real) <| agrees_cons (fun v => items_real) agrees_nil
  | relaxation =>
    exact agrees_cons (fun v => shells_ok fun x => not_below_ok) <| agrees_cons (fun v => shells_ok fun x => not_below_ok) <| agrees_cons (fun v => shells_ok (ob _)) agrees_nil
  | photon => exact agrees_cons (fun v => count_ok) <| agrees_cons (ob _) agrees_nil
  | photonReaction =>
    exact agrees_cons (fun v => function_ok) <| agrees_cons (fun v => function_ok) <| agrees_cons (fun v => function_ok) <| agrees_cons (fun v => function_ok) agrees_nil
  | uncorrelated => exact agrees_cons (ob _) <| agrees_cons (ob _) agrees_nil

/-- **C226.** What is documented is accepted and read back; everything else is refused with a `TypeError` or `ValueError`, and the object stays as it was. Other attributes are not touched. -/
theorem C226_assigned {c : Class} {d : Doc} (h : Documented c d) {a : Text} {D : Val → Prop} (ha : Dict.get? d a = some D) (o : Obj) (v : Val) :
    (D v → (assign c o a v).2 = none ∧ get (assign c o a v).1 a = .ok v) ∧
    (¬ D v → (assign c o a v).1 = o ∧ ((assign c o a v).2 = some .typeError ∨ (assign c o a v).2 = some .valueError)) ∧
    ∀ b, b ≠ a → get (assign c o a v).1 b = get o b := by
  obtain ⟨check, hs, hD⟩ := agrees h a D ha
  have hr := refusals h _ (get?_mem hs) v
  unfold assign
  rw [hs]
  simp only at hr ⊢
  rw [← hD]
  cases hc : check v with
  | ok u =>
    simp only
    refine ⟨fun _ => ⟨trivial, by simp [get, Dict.get?_set_same]⟩, fun hn => absurd trivial hn, fun b hb => ?_⟩
    simp only [get, Dict.get?_set_ne _ _ hb]
  | error e =>
    simp only
    refine ⟨fun hh => (by cases hh), fun _ => ⟨trivial, ?_⟩, fun b _ => trivial⟩
    rcases hr e hc with rfl | rfl <;> simp

theorem history_inv {c : Class} {P : Text → Val → Prop} (hP : ∀ a check v, Dict.get? c.setters a = some check → check v = .ok () → P a v) :
    ∀ (l : List (Text × Val)) (o : Obj), (∀ a v, (Dict.get? c.setters a).isSome → Dict.get? o a = some v → P a v) →
      ∀ a v, (Dict.get? c.setters a).isSome → Dict.get? (history c o l) a = some v → P a v
  | [], o, h => h
  | (b, w) :: l, o, h => by
    rw [history]
    apply history_inv hP l
    intro a v ha hv
    unfold assign at hv
    cases hb : Dict.get? c.setters b with
    | none =>
      rw [hb] at hv
      simp only at hv
      by_cases hab : a = b
      · subst hab
        rw [hb] at ha
        cases ha
      · rw [Dict.get?_set_ne _ _ hab] at hv
        exact h a v ha hv
    | some check =>
      rw [hb] at hv
      simp only at hv
      cases hc : check w with
      | error e =>
        rw [hc] at hv
        exact h a v ha hv
      | ok u =>
        rw [hc] at hv
        simp only at hv
        by_cases hab : a = b
        · subst hab
          rw [Dict.get?_set_same] at hv
          cases hv
          exact hP a check w hb hc
        · rw [Dict.get?_set_ne _ _ hab] at hv
          exact h a v ha hv

/-- A constructor that ends does what its assignments do. -/
theorem construct_history {c : Class} : ∀ (l : List (Text × Val)) (o o' : Obj), construct c o l = .ok o' → o' = history c o l
  | [], o, o', h => by
    rw [construct] at h
    cases h
    rfl
  | (a, v) :: l, o, o', h => by
    rw [construct] at h
    rw [history]
    generalize assign c o a v = r at h
    obtain ⟨o1, e⟩ := r
    cases e with
    | none => exact construct_history l o1 o' h
    | some e => cases h

theorem history_append {c : Class} : ∀ (l l' : List (Text × Val)) (o : Obj), history c (history c o l) l' = history c o (l ++ l')
  | [], _, _ => rfl
  | (a, v) :: l, l', o => by
    rw [history, List.cons_append, history]
    exact history_append l l' _

theorem assign_has {c : Class} {o : Obj} {a b : Text} {v : Val} (h : (Dict.get? o b).isSome) : (Dict.get? (assign c o a v).1 b).isSome := by
  have key : (Dict.get? (Dict.set o a v) b).isSome := by
    by_cases hab : b = a
    · subst hab
      rw [Dict.get?_set_same]
      rfl
    · rwa [Dict.get?_set_ne _ _ hab]
  unfold assign
  split
  · exact key
  · split
    · exact key
    · exact h

theorem history_has {c : Class} {b : Text} : ∀ (l : List (Text × Val)) (o : Obj), (Dict.get? o b).isSome → (Dict.get? (history c o l) b).isSome
  | [], _, h => h
  | (_, _) :: l, _, h => history_has l _ (assign_has h)

theorem construct_has {c : Class} {b : Text} : ∀ (l : List (Text × Val)) (o o' : Obj), construct c o l = .ok o' → (Dict.get? o b).isSome ∨ b ∈ l.map Prod.fst →
    (Dict.get? o' b).isSome
  | [], o, o', h, hb => by
    rw [construct] at h
    cases h
    simpa using hb
  | (a, v) :: l, o, o', h, hb => by
    rw [construct] at h
    generalize hr : assign c o a v = r at h
    obtain ⟨o1, e⟩ := r
    cases e with
    | some e => cases h
    | none =>
      apply construct_has l o1 o' h
      rcases hb with hb | hb
      · have := assign_has (c := c) (a := a) (v := v) hb
        rw [hr] at this
        exact Or.inl this
      · simp only [List.map_cons, List.mem_cons] at hb
        rcases hb with rfl | hb
        · left
          have : o1 = Dict.set o b v := by
            unfold assign at hr
            split at hr
            · cases hr
              rfl
            · split at hr <;> cases hr
              rfl
          rw [this, Dict.get?_set_same]
          rfl
        · exact Or.inr hb

theorem get_ok {o : Obj} {a : Text} {v : Val} : get o a = .ok v ↔ Dict.get? o a = some v := by
  unfold get
  cases Dict.get? o a <;> simp

theorem kept {c : Class} {d : Doc} (h : Documented c d) {o0 o : Obj} {l : List (Text × Val)} (ho : construct c o0 l = .ok o) (ops : List (Text × Val)) {a : Text}
    {D : Val → Prop} (ha : Dict.get? d a = some D) : ((Dict.get? o0 a).isSome ∨ a ∈ l.map Prod.fst → ∃ v, get (history c o ops) a = .ok v) ∧
      ∀ v, get (history c o ops) a = .ok v → D v ∨ Dict.get? o0 a = some v := by
  obtain ⟨check, hs, hD⟩ := agrees h a D ha
  constructor
  · intro hb
    obtain ⟨v, hv⟩ := Option.isSome_iff_exists.mp (history_has (c := c) ops o (construct_has l o0 o ho hb))
    exact ⟨v, get_ok.mpr hv⟩
  · intro v hv
    rw [get_ok, construct_history l o0 o ho, history_append] at hv
    have := history_inv (c := c) (P := fun a v => (∀ check, Dict.get? c.setters a = some check → check v = .ok ()) ∨ Dict.get? o0 a = some v)
      (fun a check v h1 h2 => Or.inl fun check' h3 => by
        rw [h1] at h3
        cases h3
        exact h2) _ o0 (fun a v _ h2 => Or.inr h2) a v (by rw [hs]; rfl) hv
    rcases this with h1 | h1
    · exact Or.inl ((hD v).mp (h1 check hs))
    · exact Or.inr h1

/-- **C226** (partial: but for `urr` and `resonance_covariance`). Whatever is assigned to a nuclide, accepted or refused, its attributes are there and as documented; `fission_energy` and
`resonances` may be `None` as long as they were not assigned. -/
theorem C226_neutron_partial {name z a m awr kTs : Val} {o : Obj} (h : makeNeutron name z a m awr kTs = .ok o) (ops : List (Text × Val)) {n : Text} {D : Val → Prop}
    (hn : Dict.get? neutronDoc n = some D) : (n ≠ c!"resonance_covariance" → ∃ v, get (history neutron o ops) n = .ok v) ∧
      ∀ v, get (history neutron o ops) n = .ok v → D v ∨ v = .none ∧ (n = c!"fission_energy" ∨ n = c!"resonances") := by
  obtain ⟨h1, h2⟩ := kept .neutron h ops hn
  have hm := get?_mem hn
  constructor
  · intro hne
    apply h1
    simp only [neutronDoc, List.mem_cons, Prod.mk.injEq, List.not_mem_nil, or_false] at hm
    rcases hm with ⟨rfl, -⟩ | ⟨rfl, -⟩ | ⟨rfl, -⟩ | ⟨rfl, -⟩ | ⟨rfl, -⟩ | ⟨rfl, -⟩ | ⟨rfl, -⟩ | ⟨rfl, -⟩ | ⟨rfl, -⟩
    all_goals first | exact absurd rfl hne | exact Or.inl rfl | exact Or.inr (by simp)
  · intro v hv
    rcases h2 v hv with g | g
    · exact Or.inl g
    · have := get?_mem g
      simp only [List.mem_cons, Prod.mk.injEq, List.not_mem_nil, or_false] at this
      rcases this with ⟨rfl, rfl⟩ | ⟨rfl, rfl⟩ | ⟨rfl, rfl⟩
      · exact Or.inr ⟨rfl, Or.inl rfl⟩
      · have : ¬ (Dict.get? neutronDoc c!"urr").isSome := by decide
        rw [hn] at this
        exact absurd rfl this
      · exact Or.inr ⟨rfl, Or.inr rfl⟩

/-- **C226 is false for `urr`:** a dictionary of probability tables by temperature, as documented, is refused, whatever the nuclide, unless it is empty. -/
theorem C226_urr_refuted (o : Obj) {v : Val} (hv : UrrDoc v) : (v = .dict [] ∧ (assign neutron o c!"urr" v).2 = none) ∨
    ((assign neutron o c!"urr" v).1 = o ∧ (assign neutron o c!"urr" v).2 ≠ none) := by
  obtain ⟨l, rfl, hl⟩ := hv
  have hs : Dict.get? neutron.setters c!"urr" = some checkUrr := rfl
  cases l with
  | nil => exact Or.inl ⟨rfl, rfl⟩
  | cons kv l =>
    right
    obtain ⟨⟨s, hs1⟩, -⟩ := hl kv (by simp)
    have hbad : checkUrr (.dict (kv :: l)) ≠ .ok () := by
      intro hok
      unfold checkUrr at hok
      simp only [List.map_cons, all, both_ok] at hok
      have := hok.1
      rw [hs1] at this
      match s, this with
      | [], h => cases h
      | [_], h => cases h
      | [x, y], h => simp [both_ok, checkType_ok, isA] at h
      | _ :: _ :: _ :: _, h => cases h
    unfold assign
    rw [hs]
    simp only
    cases hc : checkUrr (.dict (kv :: l)) with
    | ok u => exact absurd hc hbad
    | error e => exact ⟨rfl, by simp⟩

/-- **C226 is false for `resonance_covariance`:** a nuclide that was just made has no such attribute; reading it raises, where `None` is documented. -/
theorem C226_covariance_refuted {name z a m awr kTs : Val} {o : Obj} (h : makeNeutron name z a m awr kTs = .ok o) :
    get o c!"resonance_covariance" = .error .attributeError := by
  have key : ∀ (l : List (Text × Val)) (o o' : Obj), construct neutron o l = .ok o' → Dict.get? o c!"resonance_covariance" = none →
      c!"resonance_covariance" ∉ l.map Prod.fst → Dict.get? o' c!"resonance_covariance" = none := by
    intro l
    induction l with
    | nil =>
      intro o o' h h0 _
      rw [construct] at h
      cases h
      exact h0
    | cons p l ih =>
      intro o o' h h0 hn
      obtain ⟨a, v⟩ := p
      rw [construct] at h
      generalize hr : assign neutron o a v = r at h
      obtain ⟨o1, e⟩ := r
      cases e with
      | some e => cases h
      | none =>
        simp only [List.map_cons, List.mem_cons, not_or] at hn
        refine ih o1 o' h ?_ hn.2
        have : o1 = Dict.set o a v := by
          unfold assign at hr
          split at hr
          · cases hr
            rfl
          · split at hr <;> cases hr
            rfl
        rw [this, Dict.get?_set_ne _ _ hn.1]
        exact h0
  unfold get
  rw [key _ _ _ h (by decide) (by simp only [List.map_cons, List.map_nil]; decide)]

/-- **C226.** The attributes of a reaction are there and as documented, whatever is assigned. -/
theorem C226_reaction {mt : Val} {o : Obj} (h : makeReaction mt = .ok o) (ops : List (Text × Val)) {n : Text} {D : Val → Prop}
    (hn : Dict.get? reactionDoc n = some D) : ∃ v, get (history reaction o ops) n = .ok v ∧ D v := by
  obtain ⟨h1, h2⟩ := kept .reaction h ops hn
  have hm := get?_mem hn
  simp only [reactionDoc, List.mem_cons, Prod.mk.injEq, List.not_mem_nil, or_false] at hm
  have hp : ∃ v, get (history reaction o ops) n = .ok v := by
    apply h1
    left
    rcases hm with ⟨rfl, -⟩ | ⟨rfl, -⟩ | ⟨rfl, -⟩ | ⟨rfl, -⟩ | ⟨rfl, -⟩ | ⟨rfl, -⟩ <;> rfl
  obtain ⟨v, hv⟩ := hp
  refine ⟨v, hv, ?_⟩
  rcases h2 v hv with g | g
  · exact g
  · rcases hm with ⟨rfl, rfl⟩ | ⟨rfl, rfl⟩ | ⟨rfl, rfl⟩ | ⟨rfl, rfl⟩ | ⟨rfl, rfl⟩ | ⟨rfl, rfl⟩ <;> simp [Dict.get?] at g <;> subst g
    · exact ⟨_, rfl⟩
    · exact ⟨_, rfl⟩
    · exact ⟨_, Or.inl rfl⟩
    · exact Or.inl ⟨_, rfl, by simp⟩
    · exact Or.inl ⟨_, rfl, by simp⟩
    · exact ⟨_, rfl, by simp⟩

/-- **C226.** The same for a class whose constructor assigns all of its attributes. -/
theorem made {c : Class} {d : Doc} (hd : Documented c d) {o0 o : Obj} {l : List (Text × Val)} (h : construct c o0 l = .ok o) (h0 : ∀ n ∈ d.map Prod.fst, Dict.get? o0 n = none)
    (hl : ∀ n ∈ d.map Prod.fst, n ∈ l.map Prod.fst) (ops : List (Text × Val)) {n : Text} {D : Val → Prop} (hn : Dict.get? d n = some D) :
    ∃ v, get (history c o ops) n = .ok v ∧ D v := by
  obtain ⟨h1, h2⟩ := kept hd h ops hn
  have hm : n ∈ d.map Prod.fst := List.mem_map_of_mem (get?_mem hn)
  obtain ⟨v, hv⟩ := h1 (Or.inr (hl n hm))
  refine ⟨v, hv, ?_⟩
  rcases h2 v hv with g | g
  · exact g
  · rw [h0 n hm] at g
    cases g

/-- **C226.** The attributes of a product. -/
theorem C226_product {particle : Val} {o : Obj} (h : makeProduct particle = .ok o) (ops : List (Text × Val)) {n : Text} {D : Val → Prop}
    (hn : Dict.get? productDoc n = some D) : ∃ v, get (history product o ops) n = .ok v ∧ D v :=
  made .product h (fun _ _ => rfl) (by simp only [productDoc, List.map_cons, List.map_nil]; decide) ops hn

/-- **C226.** The attributes of a decay mode. -/
theorem C226_decay {parent modes state energy ratio : Val} {o : Obj} (h : makeDecayMode parent modes state energy ratio = .ok o) (ops : List (Text × Val)) {n : Text}
    {D : Val → Prop} (hn : Dict.get? decayDoc n = some D) : ∃ v, get (history decayMode o ops) n = .ok v ∧ D v := by
  refine made .decayMode h ?_ (by simp only [decayDoc, List.map_cons, List.map_nil]; decide) ops hn
  intro n hn
  simp only [decayDoc, List.map_cons, List.map_nil, List.mem_cons, List.not_mem_nil, or_false] at hn
  rcases hn with rfl | rfl | rfl | rfl <;> rfl

/-- **C226.** The attributes of probability tables. -/
theorem C226_tables {energy table interpolation inelastic absorption multiply : Val} {o : Obj} (h : makeTables energy table interpolation inelastic absorption multiply = .ok o)
    (ops : List (Text × Val)) {n : Text} {D : Val → Prop} (hn : Dict.get? tablesDoc n = some D) : ∃ v, get (history tables o ops) n = .ok v ∧ D v :=
  made .tables h (fun _ _ => rfl) (by simp only [tablesDoc, List.map_cons, List.map_nil]; decide) ops hn

/-- **C226.** The attributes of an N-body distribution. -/
theorem C226_nbody {mass k awr q : Val} {o : Obj} (h : makeNBody mass k awr q = .ok o)
    (ops : List (Text × Val)) {n : Text} {D : Val → Prop} (hn : Dict.get? nbodyDoc n = some D) : ∃ v, get (history nbody o ops) n = .ok v ∧ D v :=
  made .nbody h (fun _ _ => rfl) (by simp only [nbodyDoc, List.map_cons, List.map_nil]; decide) ops hn

/-! ### Examples -/

/-- Uranium 235. -/
example : ∃ o, makeNeutron (.text c!"U235") (.int 92) (.int 235) (.int 0) (.float (.fin 233)) (.seq [.float (.fin 0)]) = .ok o ∧
    get (history neutron o [(c!"atomic_number", .int (-1)), (c!"metastable", .int 1)]) c!"atomic_number" = .ok (.int 92) :=
  ⟨_, rfl, rfl⟩

/-- A dictionary of tables is refused. -/
example : UrrDoc (.dict [(.text c!"294K", .obj .probabilityTables)]) ∧ (assign neutron [] c!"urr" (.dict [(.text c!"294K", .obj .probabilityTables)])).2 = some .valueError :=
  ⟨⟨_, rfl, by simp [IsText, IsObj]⟩, rfl⟩

example : ∃ o, makeReaction (.int 102) = .ok o := ⟨_, rfl⟩
example : ∃ o, makeProduct (.text c!"neutron") = .ok o := ⟨_, rfl⟩

/-- One text is taken for a list of modes, each letter for a mode. -/
example : ∃ o, makeDecayMode (.text c!"U238") (.text c!"alpha") (.int 0) (.ufloat (.fin 4) (.fin 0)) (.ufloat (.fin 1) (.fin 0)) = .ok o := ⟨_, rfl⟩

example : ∃ o, makeTables (.array .float 3) (.array .float 3) (.int 2) (.int (-1)) (.int (-1)) (.bool false) = .ok o := by
  have : checkInt (.int 2) [2, 5] = .ok () := int_ok.mpr ⟨2, Or.inl (Or.inl rfl), Or.inl rfl⟩
  simp [makeTables, construct, assign, tables, Dict.get?, Dict.set, this, checkItems, checkType, isA, Kind.isA]

example : ∃ o, makeNBody (.float (.fin 3)) (.int 3) (.float (.fin 2)) (.float (.fin (-2))) = .ok o := ⟨_, rfl⟩

end ASAPy.Attrs
