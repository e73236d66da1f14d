import Verif.Check.Model
import Mathlib.Tactic.Ring
import Mathlib.Order.Basic

/-!
# Properties of the checks of values and of equality (C142-C144)
-/

namespace ASAPy.Check

/-! ### Specification -/

/-- An item with `d` sequences around it is as documented: of the expected type with at least `lo` sequences around it, or itself iterable, with at most `hi`
sequences around its items, which are all as documented. -/
inductive Good (lo hi : ℕ) : ℕ → Item → Prop
  | leaf {d : ℕ} : lo ≤ d → Good lo hi d .good
  | seq {d : ℕ} {l : List Item} : d + 1 ≤ hi → (∀ c ∈ l, Good lo hi (d + 1) c) → Good lo hi d (.seq l)
  | text {d : ℕ} {s : List Char} : d + 1 ≤ hi → (∀ c ∈ s, Good lo hi (d + 1) (.text [c])) → Good lo hi d (.text s)

/-! ### `check_iterable_type` -/

/-- Turns that go on. -/
inductive Goes (lo hi : ℕ) : ℕ → Stack → Stack → Prop
  | refl {s : Stack} : Goes lo hi 0 s s
  | step {n : ℕ} {s s' s'' : Stack} : turn lo hi s = .next s' → Goes lo hi n s' s'' → Goes lo hi (n + 1) s s''

theorem Goes.trans {lo hi m n : ℕ} {a b c : Stack} (h : Goes lo hi m a b) (h' : Goes lo hi n b c) : Goes lo hi (m + n) a c := by
  induction h with
  | refl => simpa using h'
  | @step m s s' s'' h1 _ ih =>
    have := Goes.step h1 (ih h')
    rwa [show m + 1 + n = m + n + 1 by omega]

theorem loop_goes {lo hi n : ℕ} {a b : Stack} (h : Goes lo hi n a b) (k : ℕ) : loop lo hi (n + k) a = loop lo hi k b := by
  induction h with
  | refl => simp
  | @step m s s' s'' h1 _ ih =>
    rw [show m + 1 + k = (m + k) + 1 by omega, loop, h1]
    exact ih

/-- The loop ends so. -/
def Ends (lo hi : ℕ) (s : Stack) (r : Except PyErr Unit) : Prop := ∃ n b, Goes lo hi n s b ∧ turn lo hi b = .done r

theorem Ends.of_goes {lo hi n : ℕ} {a b : Stack} {r : Except PyErr Unit} (h : Goes lo hi n a b) (h' : Ends lo hi b r) : Ends lo hi a r := by
  obtain ⟨m, c, h1, h2⟩ := h'
  exact ⟨n + m, c, h.trans h1, h2⟩

theorem Ends.of_turn {lo hi : ℕ} {a b : Stack} {r : Except PyErr Unit} (h : turn lo hi a = .next b) (h' : Ends lo hi b r) : Ends lo hi a r :=
  Ends.of_goes (Goes.step h .refl) h'

/-- The bottom sequence is not done with, whatever is above it. -/
def Open (rest : Stack) : Prop := rest ≠ [] → bottomDone rest = false

theorem bottomDone_cons {x : List Item × ℕ} {rest : Stack} (h : rest ≠ []) : bottomDone (x :: rest) = bottomDone rest := by
  unfold bottomDone
  rw [List.getLast?_cons_of_ne_nil h]

theorem not_done {l : List Item} {i : ℕ} {rest : Stack} (hr : Open rest) (hi : i < l.length) : bottomDone ((l, i) :: rest) = false := by
  by_cases h : rest = []
  · subst h
    simp [bottomDone]; omega
  · rw [bottomDone_cons h]; exact hr h

theorem turn_look {lo hi : ℕ} {l : List Item} {i : ℕ} {rest : Stack} (hr : Open rest) {it : Item} (h : l[i]? = some it) :
    turn lo hi ((l, i) :: rest) = look lo hi ((l, i) :: rest) it := by
  have hi' : i < l.length := (List.getElem?_eq_some_iff.mp h).1
  unfold turn
  rw [if_neg (by rw [not_done hr hi']; simp)]
  simp only [h]
  rw [if_neg (by omega)]

theorem good_items {lo hi d : ℕ} {it : Item} (h1 : it ≠ .good) (h2 : it ≠ .bad) : Good lo hi d it ↔ d + 1 ≤ hi ∧ ∀ c ∈ it.items, Good lo hi (d + 1) c := by
  cases it with
  | good => exact absurd rfl h1
  | bad => exact absurd rfl h2
  | seq l => exact ⟨fun h => by cases h with | seq a b => exact ⟨a, b⟩, fun h => .seq h.1 h.2⟩
  | text s =>
    simp only [Item.items, List.mem_map, forall_exists_index, and_imp, forall_apply_eq_imp_iff₂]
    exact ⟨fun h => by cases h with | text a b => exact ⟨a, b⟩, fun h => .text h.1 h.2⟩

theorem look_items {lo hi : ℕ} {s : Stack} {it : Item} (h1 : it ≠ .good) (h2 : it ≠ .bad) :
    look lo hi s it = if s.length + 1 > hi then .done (.error .typeError) else .next ((it.items, 0) :: s) := by
  cases it <;> first | exact absurd rfl h1 | exact absurd rfl h2 | rfl

/-- The rest of a sequence is gone through when all its items are as documented; otherwise the loop ends with an exception. -/
theorem level (lo hi : ℕ) : ∀ (k : ℕ) (l : List Item) (i : ℕ) (rest : Stack), i ≤ l.length → Open rest → hi + 1 - (rest.length + 1) ≤ k →
    ((∀ c ∈ l.drop i, Good lo hi (rest.length + 1) c) → ∃ n, Goes lo hi n ((l, i) :: rest) ((l, l.length) :: rest)) ∧
    ((¬ ∀ c ∈ l.drop i, Good lo hi (rest.length + 1) c) → Ends lo hi ((l, i) :: rest) (.error .typeError)) := by
  intro k
  induction k with
  | zero =>
    intro l i rest hil hr hk
    obtain ⟨m, hm⟩ : ∃ m, l.length - i = m := ⟨_, rfl⟩
    induction m generalizing i with
    | zero =>
      have : i = l.length := by omega
      subst this
      exact ⟨fun _ => ⟨0, .refl⟩, fun h => absurd (by simp) h⟩
    | succ m ih =>
      have hlt : i < l.length := by omega
      have hg : l[i]? = some l[i] := List.getElem?_eq_getElem hlt
      have ht := turn_look (lo := lo) (hi := hi) hr hg
      rw [List.drop_eq_getElem_cons hlt]
      simp only [List.mem_cons, forall_eq_or_imp]
      obtain ⟨ih1, ih2⟩ := ih (i + 1) (by omega) (by omega)
      generalize l[i] = it at ht
      cases it with
      | good =>
        rw [look] at ht
        by_cases hlo : ((l, i) :: rest).length < lo
        · rw [if_pos hlo] at ht
          refine ⟨fun h => ?_, fun _ => ⟨0, _, .refl, ht⟩⟩
          cases h.1 with | leaf h0 => simp at hlo; omega
        · rw [if_neg hlo] at ht
          have h0 : Good lo hi (rest.length + 1) .good := .leaf (by simpa using hlo)
          refine ⟨fun h => ?_, fun h => Ends.of_turn ht (ih2 (fun h' => h ⟨h0, h'⟩))⟩
          obtain ⟨n, hn⟩ := ih1 h.2
          exact ⟨n + 1, .step ht hn⟩
      | bad => exact ⟨fun h => (by cases h.1), fun _ => ⟨0, _, .refl, ht⟩⟩
      | seq q =>
        rw [look_items (by simp) (by simp), if_pos (by simp; omega)] at ht
        refine ⟨fun h => ?_, fun _ => ⟨0, _, .refl, ht⟩⟩
        have := ((good_items (by simp) (by simp)).mp h.1).1
        omega
      | text q =>
        rw [look_items (by simp) (by simp), if_pos (by simp; omega)] at ht
        refine ⟨fun h => ?_, fun _ => ⟨0, _, .refl, ht⟩⟩
        have := ((good_items (by simp) (by simp)).mp h.1).1
        omega
  | succ k ihk =>
    intro l i rest hil hr hk
    obtain ⟨m, hm⟩ : ∃ m, l.length - i = m := ⟨_, rfl⟩
    induction m generalizing i with
    | zero =>
      have : i = l.length := by omega
      subst this
      exact ⟨fun _ => ⟨0, .refl⟩, fun h => absurd (by simp) h⟩
    | succ m ih =>
      have hlt : i < l.length := by omega
      have hg : l[i]? = some l[i] := List.getElem?_eq_getElem hlt
      have ht := turn_look (lo := lo) (hi := hi) hr hg
      rw [List.drop_eq_getElem_cons hlt]
      simp only [List.mem_cons, forall_eq_or_imp]
      obtain ⟨ih1, ih2⟩ := ih (i + 1) (by omega) (by omega)
      have nest : ∀ it : Item, it ≠ .good → it ≠ .bad → turn lo hi ((l, i) :: rest) = look lo hi ((l, i) :: rest) it →
          ((Good lo hi (rest.length + 1) it ∧ ∀ c ∈ l.drop (i + 1), Good lo hi (rest.length + 1) c) → ∃ n, Goes lo hi n ((l, i) :: rest) ((l, l.length) :: rest)) ∧
          ((¬ (Good lo hi (rest.length + 1) it ∧ ∀ c ∈ l.drop (i + 1), Good lo hi (rest.length + 1) c)) → Ends lo hi ((l, i) :: rest) (.error .typeError)) := by
        intro it g1 g2 ht
        rw [look_items g1 g2] at ht
        by_cases hhi : ((l, i) :: rest).length + 1 > hi
        · rw [if_pos hhi] at ht
          refine ⟨fun h => ?_, fun _ => ⟨0, _, .refl, ht⟩⟩
          have := ((good_items g1 g2).mp h.1).1
          simp at hhi; omega
        · rw [if_neg hhi] at ht
          have hop : Open ((l, i) :: rest) := fun _ => not_done hr hlt
          obtain ⟨a1, a2⟩ := ihk it.items 0 ((l, i) :: rest) (by omega) hop (by simp; omega)
          rw [List.drop_zero, List.length_cons] at a1 a2
          have hpop : turn lo hi ((it.items, it.items.length) :: (l, i) :: rest) = .next ((l, i + 1) :: rest) := by
            unfold turn
            rw [if_neg (by rw [bottomDone_cons (by simp), not_done hr hlt]; simp)]
            simp [advance]
          have hh : rest.length + 1 + 1 ≤ hi := by simpa using hhi
          constructor
          · rintro ⟨b1, b2⟩
            obtain ⟨n1, hn1⟩ := a1 ((good_items g1 g2).mp b1).2
            obtain ⟨n2, hn2⟩ := ih1 b2
            exact ⟨_, Goes.step ht (hn1.trans (.step hpop hn2))⟩
          · intro hb
            refine Ends.of_turn ht ?_
            by_cases hall : ∀ c ∈ it.items, Good lo hi (rest.length + 1 + 1) c
            · obtain ⟨n1, hn1⟩ := a1 hall
              refine Ends.of_goes hn1 (Ends.of_turn hpop (ih2 fun h' => hb ⟨(good_items g1 g2).mpr ⟨hh, hall⟩, h'⟩))
            · exact a2 hall
      generalize l[i] = it at ht
      cases it with
      | good =>
        rw [look] at ht
        by_cases hlo : ((l, i) :: rest).length < lo
        · rw [if_pos hlo] at ht
          refine ⟨fun h => ?_, fun _ => ⟨0, _, .refl, ht⟩⟩
          cases h.1 with | leaf h0 => simp at hlo; omega
        · rw [if_neg hlo] at ht
          have h0 : Good lo hi (rest.length + 1) .good := .leaf (by simpa using hlo)
          refine ⟨fun h => ?_, fun h => Ends.of_turn ht (ih2 (fun h' => h ⟨h0, h'⟩))⟩
          obtain ⟨n, hn⟩ := ih1 h.2
          exact ⟨n + 1, .step ht hn⟩
      | bad => exact ⟨fun h => (by cases h.1), fun _ => ⟨0, _, .refl, ht⟩⟩
      | seq q => exact nest _ (by simp) (by simp) ht
      | text q => exact nest _ (by simp) (by simp) ht

/-- C142: the check ends for every value, and accepts it exactly when all its items are as documented; otherwise it raises a TypeError. -/
theorem C142_check (lo hi : ℕ) (value : List Item) : ∃ n, ∀ m, n ≤ m →
    ((∀ c ∈ value, Good lo hi 1 c) → checkIterable lo hi m value = some (.ok ())) ∧
    ((¬ ∀ c ∈ value, Good lo hi 1 c) → checkIterable lo hi m value = some (.error .typeError)) := by
  obtain ⟨h1, h2⟩ := level lo hi (hi + 1) value 0 [] (by omega) (fun h => absurd rfl h) (by simp)
  rw [List.drop_zero] at h1 h2
  simp only [List.length_nil, Nat.zero_add] at h1 h2
  by_cases h : ∀ c ∈ value, Good lo hi 1 c
  · obtain ⟨n, hn⟩ := h1 h
    refine ⟨n + 1, fun m hm => ⟨fun _ => ?_, fun h' => absurd h h'⟩⟩
    obtain ⟨k, rfl⟩ : ∃ k, m = n + (k + 1) := ⟨m - n - 1, by omega⟩
    unfold checkIterable
    rw [loop_goes hn, loop]
    have : turn lo hi [(value, value.length)] = .done (.ok ()) := by simp [turn, bottomDone]
    rw [this]
  · obtain ⟨n, b, hb, ht⟩ := h2 h
    refine ⟨n + 1, fun m hm => ⟨fun h' => absurd h' h, fun _ => ?_⟩⟩
    obtain ⟨k, rfl⟩ : ∃ k, m = n + (k + 1) := ⟨m - n - 1, by omega⟩
    unfold checkIterable
    rw [loop_goes hb, loop, ht]

/-- Two layers are asked for: `[[x, x], []]` is accepted, and `[[x], x]` is not, nor is a text. -/
example : (∀ c ∈ [Item.seq [.good, .good], .seq []], Good 2 2 1 c) ∧ (¬ ∀ c ∈ [Item.seq [.good], .good], Good 2 2 1 c) ∧ ¬ Good 2 2 1 (.text ['a']) := by
  refine ⟨?_, ?_, ?_⟩
  · intro c hc
    simp only [List.mem_cons, List.not_mem_nil, or_false] at hc
    rcases hc with rfl | rfl
    · exact .seq (by omega) (by intro c hc; simp only [List.mem_cons, List.not_mem_nil, or_false, or_self] at hc; subst hc; exact .leaf (by omega))
    · exact .seq (by omega) (by simp)
  · intro h
    have := h .good (by simp)
    cases this with | leaf h => omega
  · intro h
    cases h with
    | text _ h => cases h 'a' (by simp) with | text h _ => omega

/-! ### `CheckedList` -/

section
variable {α : Type*} (good : α → Bool)

theorem appendAll_good : ∀ (s xs : List α), xs.all good = true → appendAll good s xs = (s ++ xs, none)
  | s, [], _ => by simp [appendAll]
  | s, x :: xs, h => by
    simp only [List.all_cons, Bool.and_eq_true] at h
    rw [appendAll, append, if_pos h.1]
    simp only
    rw [appendAll_good (s ++ [x]) xs h.2]
    simp

theorem appendAll_bad : ∀ (s xs : List α), xs.all good = false → (appendAll good s xs).2 = some .typeError
  | s, [], h => by simp at h
  | s, x :: xs, h => by
    rw [appendAll, append]
    by_cases hx : good x
    · rw [if_pos hx]
      simp only [List.all_cons, hx, Bool.true_and] at h
      exact appendAll_bad _ xs h
    · rw [if_neg hx]

/-- An operation the class checks. -/
def Op.checked : Op α → Prop
  | .append _ => True
  | .insert _ _ => True
  | .iadd _ => True
  | .delete _ => True
  | .set _ _ => False
  | .extend _ => False

/-- C143: constructing a list of items takes them all, in order, when they are of the type expected, and raises a TypeError otherwise. -/
theorem C143_construct (items : List α) :
    ((∀ x ∈ items, good x = true) → mk good items = .ok items) ∧ ((∃ x ∈ items, good x = false) → mk good items = .error .typeError) := by
  constructor
  · intro h
    unfold mk
    rw [appendAll_good good [] items (by simpa using h)]
    simp
  · intro h
    unfold mk
    have := appendAll_bad good [] items (by simpa using h)
    cases e : appendAll good [] items with
    | mk r o => rw [e] at this; simp only at this; subst this; rfl

/-- C143: what an operation does: it takes what it is given, or raises an exception and leaves the list as it was. -/
theorem C143_operation (s : List α) :
    (∀ x, apply good s (.append x) = if good x then (s ++ [x], none) else (s, some .typeError)) ∧
    (∀ l, apply good s (.iadd (.seq l)) = if ∀ x ∈ l, good x = true then (s ++ l, none) else (s, some .typeError)) ∧
    (apply good s (.iadd .other) = (s, some .typeError)) ∧
    (∀ i x, good x = true → ∃ a b, s = a ++ b ∧ apply good s (.insert i x) = (a ++ x :: b, none) ∧
      (0 ≤ i → i ≤ s.length → (a.length : Int) = i) ∧ (i < 0 → - (s.length : Int) ≤ i → (a.length : Int) = s.length + i)) ∧
    (∀ o, o.checked → (apply good s o).2 ≠ none → (apply good s o).1 = s) := by
  have hseq : ∀ l, apply good s (.iadd (.seq l)) = if ∀ x ∈ l, good x = true then (s ++ l, none) else (s, some .typeError) := by
    intro l
    show iadd good s (.seq l) = _
    simp only [iadd, checkItems]
    by_cases h : ∀ x ∈ l, good x = true
    · have h' : l.all good = true := by simpa using h
      rw [if_pos h, if_pos h']
      exact appendAll_good good s l h'
    · have h' : ¬ l.all good = true := by simpa using h
      rw [if_neg h, if_neg h']
  refine ⟨fun x => rfl, hseq, rfl, ?_, ?_⟩
  · intro i x hx
    refine ⟨s.take (place s.length i), s.drop (place s.length i), by simp, ?_, ?_, ?_⟩
    · show insert good s i x = _
      rw [insert, if_pos hx]
    · intro h1 h2
      unfold place
      rw [if_neg (by omega), List.length_take]
      omega
    · intro h1 h2
      unfold place
      rw [if_pos h1, List.length_take]
      omega
  · intro o ho he
    cases o with
    | append x =>
      simp only [apply, append] at he ⊢
      split at he <;> simp_all
    | insert i x =>
      simp only [apply, insert] at he ⊢
      split at he <;> simp_all
    | iadd p =>
      cases p with
      | seq l =>
        rw [hseq] at he ⊢
        by_cases hl : ∀ x ∈ l, good x = true
        · rw [if_pos hl] at he; exact absurd rfl he
        · rw [if_neg hl]
      | iter l =>
        simp only [apply, iadd, checkItems] at he ⊢
        by_cases hl : l.all good = true
        · rw [if_pos hl] at he; exact absurd rfl he
        · rw [if_neg hl]
      | other => rfl
    | delete i =>
      simp only [apply] at he ⊢
      by_cases hl : i < s.length
      · rw [if_pos hl] at he; exact absurd rfl he
      · rw [if_neg hl]
    | set i x => exact ho.elim
    | extend l => exact ho.elim

/-- C143 (partial: `l[i] = x` and `l.extend` are not checked): after any history of the operations the class checks, with exceptions caught, all elements are
of the type expected. -/
theorem C143_history_partial (items : List α) (s : List α) (h : mk good items = .ok s) (os : List (Op α)) (hos : ∀ o ∈ os, o.checked) :
    ∀ x ∈ runOps good s os, good x = true := by
  have h0 : ∀ x ∈ s, good x = true := by
    by_cases hb : ∀ x ∈ items, good x = true
    · rw [(C143_construct good items).1 hb] at h
      injection h with h
      subst h
      exact hb
    · push Not at hb
      obtain ⟨x, hx, hb⟩ := hb
      rw [(C143_construct good items).2 ⟨x, hx, by simpa using hb⟩] at h
      cases h
  clear h
  unfold runOps
  induction os generalizing s with
  | nil => exact h0
  | cons o os ih =>
    rw [List.foldl_cons]
    refine ih _ (fun p hp => hos p (by simp [hp])) ?_
    obtain ⟨c1, c2, c3, c4, c5⟩ := C143_operation good s
    by_cases he : (apply good s o).2 = none
    · cases o with
      | append x =>
        rw [c1] at he ⊢
        split at he
        · rename_i hx
          rw [if_pos hx]
          intro y hy
          rcases List.mem_append.mp hy with hy | hy
          · exact h0 y hy
          · simp at hy; subst hy; exact hx
        · simp at he
      | insert i x =>
        by_cases hx : good x = true
        · obtain ⟨a, b, hs, ha, _⟩ := c4 i x hx
          rw [ha]
          intro y hy
          simp only [List.mem_append, List.mem_cons] at hy
          rcases hy with hy | rfl | hy
          · exact h0 y (by rw [hs]; simp [hy])
          · exact hx
          · exact h0 y (by rw [hs]; simp [hy])
        · simp [apply, insert, hx] at he
      | iadd p =>
        cases p with
        | seq l =>
          rw [c2] at he ⊢
          split at he
          · rename_i hx
            rw [if_pos hx]
            intro y hy
            rcases List.mem_append.mp hy with hy | hy
            · exact h0 y hy
            · exact hx y hy
          · simp at he
        | iter l =>
          intro y hy
          simp only [apply, iadd, checkItems] at hy
          by_cases hl : l.all good = true
          · rw [if_pos hl] at hy; simp only [appendAll] at hy; exact h0 y hy
          · rw [if_neg hl] at hy; exact h0 y hy
        | other => rw [c3] at he; simp at he
      | delete i =>
        intro y hy
        simp only [apply] at hy
        split at hy
        · exact h0 y (List.mem_of_mem_eraseIdx hy)
        · exact h0 y hy
      | set i x => exact False.elim (hos (.set i x) (by simp))
      | extend l => exact False.elim (hos (.extend l) (by simp))
    · rw [c5 o (hos o (by simp)) he]
      exact h0

/-- C143: sums of a checked list and a plain list. -/
theorem C143_sum (s l : List α) (h : ∀ x ∈ l, good x = true) : add good s (.seq l) = .ok (s ++ l) := by
  have := (C143_operation good s).2.1 l
  rw [if_pos h] at this
  unfold add
  rw [show iadd good s (.seq l) = _ from this]

/-- C143 (refuted): assignment to an element and `extend` take anything. -/
theorem C143_unchecked_refuted (x y : α) (_ : good x = true) (hy : good y = false) :
    mk good [x] = .ok [x] ∧ runOps good [x] [.set 0 y] = [y] ∧ runOps good [x] [.extend [y]] = [x, y] ∧ ¬ ∀ z ∈ [y], good z = true := by
  refine ⟨(C143_construct good [x]).1 (by simpa), rfl, rfl, by simp [hy]⟩

/-- C143 (refuted for iterators): the check of `+=` uses the iterator up, and nothing is added. -/
theorem C143_iterator_refuted (s l : List α) (h : ∀ x ∈ l, good x = true) : apply good s (.iadd (.iter l)) = (s, none) := by
  have h' : l.all good = true := by simpa using h
  simp [apply, iadd, checkItems, h', appendAll]

/-- C143 (refuted for a plain list in front): `l + checked` has the elements of `l` behind. -/
theorem C143_order_refuted (s l : List α) (h : ∀ x ∈ l, good x = true) : radd good (.seq l) s = .ok (s ++ l) := C143_sum good s l h

end

example : mk (fun n : ℕ => decide (n < 5)) [1, 2] = .ok [1, 2] ∧
    runOps (fun n : ℕ => decide (n < 5)) [1, 2] [.append 7, .insert (-1) 3, .iadd (.seq [4, 9]), .iadd (.seq [0, 4]), .delete 0] = [3, 2, 0, 4] := by decide

/-! ### Equality -/

section
variable {C V : Type*} [DecidableEq C] (sub : C → C → Bool) (same : V → V → Bool) (none' : V)

theorem get_mem {d : List (List Char × V)} {k : List Char} {v : V} (h : Dict.get? d k = some v) : (k, v) ∈ d := by
  induction d with
  | nil => simp [Dict.get?] at h
  | cons e d ih =>
    obtain ⟨k', a⟩ := e
    rw [Dict.get?] at h
    split at h
    · rename_i hk
      injection h with h
      subst h hk
      simp
    · exact List.mem_cons_of_mem _ (ih h)

theorem get_of_mem {d : List (List Char × V)} (hd : (Dict.keys d).Nodup) {k : List Char} {v : V} (h : (k, v) ∈ d) : Dict.get? d k = some v := by
  induction d with
  | nil => simp at h
  | cons e d ih =>
    obtain ⟨k', a⟩ := e
    simp only [Dict.keys, List.map_cons, List.nodup_cons] at hd
    rw [Dict.get?]
    rcases List.mem_cons.mp h with h | h
    · injection h with h1 h2
      rw [if_pos h1.symm, h2]
    · rw [if_neg ?_, ih hd.2 h]
      rintro rfl
      exact hd.1 (List.mem_map.mpr ⟨_, h, rfl⟩)

/-- Objects of a class with its attributes: each name once, and the same names in both. -/
structure Alike (a b : Obj C V) : Prop where
  cls : a.cls = b.cls
  nodup : (Dict.keys a.attrs).Nodup
  nodup' : (Dict.keys b.attrs).Nodup
  keys : ∀ k, k ∈ Dict.keys a.attrs ↔ k ∈ Dict.keys b.attrs

/-- C144 (partial: objects of the same class with the same attributes): they are equal exactly when all attributes are. -/
theorem C144_equal_partial (hrefl : ∀ c, sub c c = true) (a b : Obj C V) (h : Alike a b) :
    pyEq sub same none' a b = true ↔ ∀ k v w, Dict.get? a.attrs k = some v → Dict.get? b.attrs k = some w → same v w = true := by
  unfold pyEq mixinEq
  rw [if_neg (by intro hh; exact hh.1 h.cls), h.cls, hrefl, Bool.true_and, List.all_eq_true]
  constructor
  · intro hh k v w hv hw
    have := hh (k, v) (get_mem hv)
    simpa [hw] using this
  · rintro hh ⟨k, v⟩ hkv
    have hv := get_of_mem h.nodup hkv
    have hk : k ∈ Dict.keys b.attrs := (h.keys k).mp (List.mem_map.mpr ⟨_, hkv, rfl⟩)
    obtain ⟨w, hw⟩ := Option.isSome_iff_exists.mp (Dict.get?_isSome.mpr hk)
    simp only [hw, Option.getD_some]
    exact hh k v w hv hw

/-- C144 (partial): equality does not depend on the order of the operands. -/
theorem C144_symmetric_partial (hrefl : ∀ c, sub c c = true) (hsymm : ∀ v w, same v w = same w v) (a b : Obj C V) (h : Alike a b) :
    pyEq sub same none' a b = pyEq sub same none' b a := by
  rw [Bool.eq_iff_iff, C144_equal_partial sub same none' hrefl a b h,
    C144_equal_partial sub same none' hrefl b a ⟨h.cls.symm, h.nodup', h.nodup, fun k => (h.keys k).symm⟩]
  constructor
  · intro hh k v w hv hw; rw [hsymm]; exact hh k w v hw hv
  · intro hh k v w hv hw; rw [hsymm]; exact hh k w v hw hv

/-- C144: objects of different classes are never equal, in either order; also not when one class is a subclass of the other. -/
theorem C144_classes (hanti : ∀ c d, sub c d = true → sub d c = true → c = d) (a b : Obj C V) (h : a.cls ≠ b.cls) :
    pyEq sub same none' a b = false := by
  unfold pyEq
  split
  · rename_i hs
    have : sub a.cls b.cls = false := by
      by_contra hc
      exact h (hanti _ _ (by simpa using hc) hs.2)
    simp [mixinEq, this]
  · rename_i hs
    have : sub b.cls a.cls = false := by
      by_contra hc
      exact hs ⟨h, by simpa using hc⟩
    simp [mixinEq, this]

/-- C144 (refuted when one object has more attributes): the answer depends on the order. -/
theorem C144_symmetric_refuted (hrefl : ∀ c, sub c c = true) (c : C) (k k' : List Char) (hk : k ≠ k') (v w : V) (hv : same v v = true) (hw : same w none' = false) :
    pyEq sub same none' ⟨c, [(k, v)]⟩ ⟨c, [(k, v), (k', w)]⟩ = true ∧ pyEq sub same none' ⟨c, [(k, v), (k', w)]⟩ ⟨c, [(k, v)]⟩ = false := by
  simp [pyEq, mixinEq, hrefl, Dict.get?, hv, hw, hk]

end

example : Alike (C := ℕ) (V := ℕ) ⟨0, [(['x'], 1), (['y'], 2)]⟩ ⟨0, [(['y'], 2), (['x'], 1)]⟩ ∧
    pyEq (fun a b : ℕ => a == b) (fun v w : ℕ => v == w) 0 ⟨0, [(['x'], 1), (['y'], 2)]⟩ ⟨0, [(['y'], 2), (['x'], 1)]⟩ = true :=
  ⟨⟨rfl, by decide, by decide, by intro k; simp [Dict.keys, or_comm]⟩, by decide⟩

end ASAPy.Check
