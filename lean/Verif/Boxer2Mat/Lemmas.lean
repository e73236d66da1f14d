import Verif.Boxer2Mat.Spec
import Mathlib.Tactic.Ring
import Mathlib.Tactic.Linarith
import Mathlib.Data.List.Basic
import Mathlib.Algebra.BigOperators.Group.List.Basic

/-! # Loading the elements, one by one -/

namespace ASAPy.Boxr

variable {α : Type}

/-- A row from column `j + 1` on. -/
def rowFrom (ncol i j : Nat) : List (Nat × Nat) := (List.range' (j + 1) (ncol - j)).map fun b => (i, b)

/-- The column before the first of a row. -/
def before (sym : Bool) (i : Nat) : Nat := if sym then i - 1 else 0

/-- The elements after `(i, j)`. -/
def after (nrow ncol : Nat) (sym : Bool) (i j : Nat) : List (Nat × Nat) :=
  rowFrom ncol i j ++ (List.range' (i + 1) (nrow - i)).flatMap fun a => rowFrom ncol a (before sym a)

theorem cells_eq (nrow ncol : Nat) (sym : Bool) : cells nrow ncol sym = (List.range' 1 nrow).flatMap fun a => rowFrom ncol a (before sym a) := by
  unfold cells
  apply List.flatMap_congr
  intro a ha
  rw [List.mem_range'_1] at ha
  unfold rowFrom before
  cases sym
  · simp
  · simp only [if_true]
    rw [show a - 1 + 1 = a by omega, show ncol - (a - 1) = ncol + 1 - a by omega]

theorem cells_after {nrow ncol : Nat} {sym : Bool} (h : 1 ≤ nrow) : cells nrow ncol sym = after nrow ncol sym 1 0 := by
  rw [cells_eq, after]
  obtain ⟨n, rfl⟩ : ∃ n, nrow = n + 1 := ⟨nrow - 1, by omega⟩
  rw [List.range'_succ, List.flatMap_cons]
  have : before sym 1 = 0 := by unfold before; split_ifs <;> rfl
  rw [this]
  simp

/-- A possible size: the number of columns is that of rows if the matrix is symmetric. -/
def Size (nrow ncol : Nat) (sym : Bool) : Prop := 1 ≤ nrow ∧ 1 ≤ ncol ∧ (sym = true → ncol = nrow)

theorem after_same {nrow ncol : Nat} {sym : Bool} {i j : Nat} (h : j < ncol) :
    after nrow ncol sym i j = (i, j + 1) :: after nrow ncol sym i (j + 1) := by
  unfold after rowFrom
  obtain ⟨d, hd⟩ : ∃ d, ncol - j = d + 1 := ⟨ncol - j - 1, by omega⟩
  rw [hd, List.range'_succ, show ncol - (j + 1) = d by omega]
  simp

theorem after_new {nrow ncol : Nat} {sym : Bool} {i j : Nat} (hz : Size nrow ncol sym) (h : ncol ≤ j) (hi : i < nrow) :
    after nrow ncol sym i j = (i + 1, if sym then i + 1 else 1) :: after nrow ncol sym (i + 1) (if sym then i + 1 else 1) := by
  have hb : before sym (i + 1) + 1 = if sym then i + 1 else 1 := by
    unfold before
    cases sym <;> simp
  have hlt : before sym (i + 1) < ncol := by
    obtain ⟨h1, h2, h3⟩ := hz
    unfold before
    cases sym
    · simp; omega
    · have := h3 rfl
      simp; omega
  have e : after nrow ncol sym i j = after nrow ncol sym (i + 1) (before sym (i + 1)) := by
    unfold after
    obtain ⟨d, hd⟩ : ∃ d, nrow - i = d + 1 := ⟨nrow - i - 1, by omega⟩
    rw [hd, List.range'_succ, List.flatMap_cons, show nrow - (i + 1) = d by omega]
    have : rowFrom ncol i j = [] := by
      unfold rowFrom
      rw [show ncol - j = 0 by omega]
      rfl
    rw [this, List.nil_append]
  rw [e, after_same hlt, hb]

theorem after_end {nrow ncol : Nat} {sym : Bool} {i j : Nat} (h : ncol ≤ j) (hi : nrow ≤ i) : after nrow ncol sym i j = [] := by
  unfold after rowFrom
  rw [show ncol - j = 0 by omega, show nrow - i = 0 by omega]
  rfl

theorem mem_cells {nrow ncol : Nat} {sym : Bool} {a b : Nat} :
    (a, b) ∈ cells nrow ncol sym ↔ 1 ≤ a ∧ a ≤ nrow ∧ 1 ≤ b ∧ b ≤ ncol ∧ (sym = true → a ≤ b) := by
  unfold cells
  simp only [List.mem_flatMap, List.mem_map, List.mem_range'_1, Prod.mk.injEq]
  cases sym
  · simp only [Bool.false_eq_true, if_false]
    constructor
    · rintro ⟨x, hx, y, hy, rfl, rfl⟩; refine ⟨by omega, by omega, by omega, by omega, by simp⟩
    · rintro ⟨h1, h2, h3, h4, -⟩; exact ⟨a, by omega, b, by omega, rfl, rfl⟩
  · simp only [if_true, forall_const]
    constructor
    · rintro ⟨x, hx, y, hy, rfl, rfl⟩; omega
    · rintro ⟨h1, h2, h3, h4, h5⟩; exact ⟨a, by omega, b, by omega, rfl, rfl⟩

/-- The order of the elements. -/
def Before (p q : Nat × Nat) : Prop := p.1 < q.1 ∨ p.1 = q.1 ∧ p.2 < q.2

theorem cells_sorted (nrow ncol : Nat) (sym : Bool) : (cells nrow ncol sym).Pairwise Before := by
  unfold cells
  rw [List.pairwise_flatMap]
  constructor
  · intro a _
    rw [List.pairwise_map]
    exact (List.pairwise_lt_range' (s := if sym = true then a else 1)).imp fun h => Or.inr ⟨rfl, h⟩
  · apply (List.pairwise_lt_range' (s := 1)).imp
    intro a b h p hp q hq
    rw [List.mem_map] at hp hq
    obtain ⟨_, _, rfl⟩ := hp
    obtain ⟨_, _, rfl⟩ := hq
    exact Or.inl h

theorem Before.irrefl {p q : Nat × Nat} (h : Before p q) : p ≠ q := by
  rintro rfl
  rcases h with h | h <;> omega

theorem Before.asymm {p q : Nat × Nat} (h : Before p q) : ¬ Before q p := by
  rcases h with h | h <;> rintro (g | g) <;> omega

/-- Facts on an element that is next. -/
theorem next_facts {nrow ncol : Nat} {sym : Bool} {done R : List (Nat × Nat)} {i j : Nat} (h : done ++ (i, j) :: R = cells nrow ncol sym) :
    (i, j) ∉ done ∧ (i, j) ∈ cells nrow ncol sym ∧ (2 ≤ i → (i - 1, j) ∈ done) ∧ (∀ p ∈ done, p ∈ cells nrow ncol sym) := by
  have hs := cells_sorted nrow ncol sym
  rw [← h, List.pairwise_append] at hs
  obtain ⟨-, h2, h3⟩ := hs
  have hm : (i, j) ∈ cells nrow ncol sym := by rw [← h]; simp
  refine ⟨fun hc => (h3 _ hc (i, j) (by simp)).irrefl rfl, hm, fun hi => ?_, fun p hp => by rw [← h]; simp [hp]⟩
  have hm' : (i - 1, j) ∈ cells nrow ncol sym := by
    rw [mem_cells] at hm ⊢
    refine ⟨by omega, by omega, by omega, by omega, fun hsym => ?_⟩
    have := hm.2.2.2.2 hsym
    omega
  rw [← h, List.mem_append, List.mem_cons] at hm'
  rcases hm' with hm' | hm' | hm'
  · exact hm'
  · simp only [Prod.mk.injEq] at hm'; omega
  · rw [List.pairwise_cons] at h2
    have h5 := h2.1 _ hm'
    rcases h5 with h6 | h6 <;> simp only at h6 <;> omega

theorem zip_mem_take {β γ : Type} : ∀ (l : List β) (ts : List γ) (d : β × γ), d ∈ List.zip l ts → d.1 ∈ l.take ts.length
  | [], ts, d, h => by simp at h
  | a :: l, [], d, h => by simp at h
  | a :: l, t :: ts, d, h => by
    rw [List.zip_cons_cons, List.mem_cons] at h
    rcases h with rfl | h
    · simp
    · simp only [List.length_cons, List.take_succ_cons, List.mem_cons]
      exact Or.inr (zip_mem_take l ts d h)

/-- The first rows come first. -/
theorem cells_rows (nrow ncol : Nat) (sym : Bool) (r : Nat) :
    (cells nrow ncol sym).take ((cells nrow ncol sym).filter fun p => decide (p.1 ≤ r)).length =
      (cells nrow ncol sym).filter fun p => decide (p.1 ≤ r) := by
  have : ∀ l : List (Nat × Nat), l.Pairwise Before → l.take (l.filter fun p => decide (p.1 ≤ r)).length = l.filter fun p => decide (p.1 ≤ r) := by
    intro l
    induction l with
    | nil => intro _; rfl
    | cons p l ih =>
      intro h
      rw [List.pairwise_cons] at h
      by_cases hp : p.1 ≤ r
      · rw [List.filter_cons, if_pos (by simpa using hp)]
        simp [ih h.2]
      · have : ∀ q ∈ p :: l, ¬ q.1 ≤ r := by
          intro q hq
          rw [List.mem_cons] at hq
          rcases hq with rfl | hq
          · exact hp
          · rcases h.1 q hq with g | g <;> omega
        have e : (p :: l).filter (fun p => decide (p.1 ≤ r)) = [] := by
          rw [List.filter_eq_nil_iff]
          intro q hq
          simpa using this q hq
        rw [e]
        rfl
  exact this _ (cells_sorted nrow ncol sym)

/-- The number of assignments for an element. -/
def weight (sym : Bool) (p : Nat × Nat) : Nat := if sym = false ∨ p.1 = p.2 then 1 else 2

theorem sum_rowFrom_sym (ncol i : Nat) : ∀ d j, ncol - j = d → i ≤ j → ((rowFrom ncol i j).map (weight true)).sum = 2 * d
  | 0, j, h, _ => by
    unfold rowFrom
    rw [h]; rfl
  | d + 1, j, h, hij => by
    have := sum_rowFrom_sym ncol i d (j + 1) (by omega) (by omega)
    unfold rowFrom at this ⊢
    rw [h, List.range'_succ]
    rw [show ncol - (j + 1) = d by omega] at this
    simp only [List.map_cons, List.sum_cons, this]
    have : weight true (i, j + 1) = 2 := by
      unfold weight
      rw [if_neg (by simp; omega)]
    omega

theorem sum_row (ncol : Nat) (sym : Bool) (a : Nat) (ha : 1 ≤ a) (hn : sym = true → a ≤ ncol) :
    ((rowFrom ncol a (before sym a)).map (weight sym)).sum = if sym then 2 * (ncol - a) + 1 else ncol := by
  cases sym
  · have : ∀ p, weight false p = 1 := fun p => by simp [weight]
    simp [rowFrom, before, Function.comp_def, this]
  · simp only [before, if_true]
    have := hn rfl
    have h2 := sum_rowFrom_sym ncol a (ncol - a) a rfl le_rfl
    have e : rowFrom ncol a (a - 1) = (a, a) :: rowFrom ncol a a := by
      unfold rowFrom
      rw [show ncol - (a - 1) = (ncol - a) + 1 by omega, List.range'_succ, show a - 1 + 1 = a by omega]
      rfl
    rw [e, List.map_cons, List.sum_cons, h2]
    simp [weight]
    omega

theorem sum_cells_go (ncol : Nat) (sym : Bool) : ∀ d a, 1 ≤ a → (sym = true → a + d = ncol + 1) →
    (((List.range' a d).flatMap fun a => rowFrom ncol a (before sym a)).map (weight sym)).sum = if sym then d * d else d * ncol
  | 0, a, _, _ => by simp
  | d + 1, a, ha, hn => by
    rw [List.range'_succ, List.flatMap_cons, List.map_append, List.sum_append, sum_row ncol sym a ha (fun h => by have := hn h; omega),
      sum_cells_go ncol sym d (a + 1) (by omega) (fun h => by have := hn h; omega)]
    cases sym
    · simp; ring
    · simp only [if_true]
      have := hn rfl
      rw [show ncol - a = d by omega]
      ring

theorem sum_cells {nrow ncol : Nat} {sym : Bool} (hz : Size nrow ncol sym) : ((cells nrow ncol sym).map (weight sym)).sum = nrow * ncol := by
  rw [cells_eq, sum_cells_go ncol sym nrow 1 le_rfl (fun h => by have := hz.2.2 h; omega)]
  cases sym
  · simp
  · rw [if_pos rfl, hz.2.2 rfl]

theorem sum_pos {sym : Bool} {l : List (Nat × Nat)} (h : (l.map (weight sym)).sum = 0) : l = [] := by
  cases l with
  | nil => rfl
  | cons p l =>
    rw [List.map_cons, List.sum_cons] at h
    have : 1 ≤ weight sym p := by unfold weight; split_ifs <;> omega
    omega

/-! ### The loop over elements -/

/-- Load the elements one after the other. -/
def fill [Zero α] (nrow ncol : Nat) (sym : Bool) (istart : Nat) : List (Option α) → St α → Except Halt (St α)
  | [], s => .ok s
  | t :: ts, s => match place nrow ncol sym istart s t with
    | .error e => .error e
    | .ok s' => fill nrow ncol sym istart ts s'

theorem fill_append [Zero α] {nrow ncol : Nat} {sym : Bool} {istart : Nat} : ∀ (us ts : List (Option α)) (s : St α),
    fill nrow ncol sym istart (us ++ ts) s = match fill nrow ncol sym istart us s with
      | .error e => .error e
      | .ok s' => fill nrow ncol sym istart ts s'
  | [], ts, s => rfl
  | u :: us, ts, s => by
    rw [List.cons_append, fill, fill]
    cases place nrow ncol sym istart s u with
    | error e => rfl
    | ok s' => exact fill_append us ts s'

theorem placeN_eq [Zero α] {nrow ncol : Nat} {sym : Bool} {istart : Nat} (t : Option α) : ∀ (n : Nat) (s : St α),
    placeN nrow ncol sym istart t n s = fill nrow ncol sym istart (List.replicate n t) s
  | 0, s => rfl
  | n + 1, s => by
    rw [placeN, List.replicate_succ, fill]
    cases place nrow ncol sym istart s t with
    | error e => rfl
    | ok s' => exact placeN_eq t n s'

/-- The control numbers do what they stand for. -/
theorem controls_ok [Zero α] {nrow ncol : Nat} {sym : Bool} {istart : Nat} : ∀ (ks : List Int) (vs : List α) (s s' : St α),
    controls nrow ncol sym istart ks vs s = .ok s' ↔ ∃ ts, expand ks vs = some ts ∧ fill nrow ncol sym istart ts s = .ok s'
  | [], vs, s, s' => by
    rw [controls.eq_def, expand]
    simp only
    constructor
    · intro h; exact ⟨[], rfl, h⟩
    · rintro ⟨ts, h, h'⟩
      cases h
      exact h'
  | k :: ks, vs, s, s' => by
    rw [controls.eq_def, expand.eq_def]
    simp only
    by_cases hk : k < 0
    · rw [if_pos hk, if_pos hk]
      cases vs with
      | nil => simp
      | cons v vs =>
        simp only
        rw [placeN_eq]
        have key := fun s => controls_ok (nrow := nrow) (ncol := ncol) (sym := sym) (istart := istart) ks vs s s'
        constructor
        · intro h
          cases hf : fill nrow ncol sym istart (List.replicate (-k).toNat (some v)) s with
          | error e => rw [hf] at h; cases h
          | ok s1 =>
            rw [hf] at h
            obtain ⟨ts, h1, h2⟩ := (key s1).1 h
            exact ⟨_, by rw [h1]; rfl, by rw [fill_append, hf]; exact h2⟩
        · rintro ⟨ts, h1, h2⟩
          cases he : expand ks vs with
          | none => rw [he] at h1; cases h1
          | some us =>
            rw [he] at h1
            simp only [Option.map_some, Option.some.injEq] at h1
            subst h1
            rw [fill_append] at h2
            cases hf : fill nrow ncol sym istart (List.replicate (-k).toNat (some v)) s with
            | error e => rw [hf] at h2; cases h2
            | ok s1 =>
              rw [hf] at h2
              exact (key s1).2 ⟨us, he, h2⟩
    · rw [if_neg hk, if_neg hk]
      by_cases h0 : k = 0
      · rw [if_pos h0, if_pos h0]; simp
      · rw [if_neg h0, if_neg h0, placeN_eq]
        have key := fun s => controls_ok (nrow := nrow) (ncol := ncol) (sym := sym) (istart := istart) ks vs s s'
        constructor
        · intro h
          cases hf : fill nrow ncol sym istart (List.replicate k.toNat (none : Option α)) s with
          | error e => rw [hf] at h; cases h
          | ok s1 =>
            rw [hf] at h
            obtain ⟨ts, h1, h2⟩ := (key s1).1 h
            exact ⟨_, by rw [h1]; rfl, by rw [fill_append, hf]; exact h2⟩
        · rintro ⟨ts, h1, h2⟩
          cases he : expand ks vs with
          | none => rw [he] at h1; cases h1
          | some us =>
            rw [he] at h1
            simp only [Option.map_some, Option.some.injEq] at h1
            subst h1
            rw [fill_append] at h2
            cases hf : fill nrow ncol sym istart (List.replicate k.toNat (none : Option α)) s with
            | error e => rw [hf] at h2; cases h2
            | ok s1 =>
              rw [hf] at h2
              exact (key s1).2 ⟨us, he, h2⟩

/-- The state after the elements `done`. -/
structure Inv (nrow ncol : Nat) (sym : Bool) (done : List (Nat × Nat)) (s : St α) : Prop where
  split : done ++ after nrow ncol sym s.i s.j = cells nrow ncol sym
  col : s.j ≤ ncol
  row : s.i ≤ nrow
  count : s.nx = (done.map (weight sym)).sum
  mirror : sym = true → ∀ p ∈ done, s.c p.2 p.1 = s.c p.1 p.2
  last : done = [] ∨ (s.i, s.j) ∈ done

/-- What is loaded for an element. -/
def loaded [Zero α] (istart : Nat) (c : Nat → Nat → α) (p : Nat × Nat) (t : Option α) : α :=
  t.getD (if istart < p.1 then c (p.1 - 1) p.2 else 0)

/-- One element. -/
theorem place_spec [Zero α] {nrow ncol : Nat} {sym : Bool} {istart : Nat} (hz : Size nrow ncol sym) {done : List (Nat × Nat)} {s : St α}
    (hi : Inv nrow ncol sym done s) (t : Option α) :
    (after nrow ncol sym s.i s.j = [] → place nrow ncol sym istart s t = .error (.stop 10)) ∧
    ∀ p R, after nrow ncol sym s.i s.j = p :: R → ∃ s', place nrow ncol sym istart s t = .ok s' ∧ Inv nrow ncol sym (done ++ [p]) s' ∧
      after nrow ncol sym s'.i s'.j = R ∧ (s'.i, s'.j) = p ∧ s'.c p.1 p.2 = loaded istart s.c p t ∧ ∀ q ∈ done, s'.c q.1 q.2 = s.c q.1 q.2 := by
  have hgo : ∀ i j R, after nrow ncol sym s.i s.j = (i, j) :: R → after nrow ncol sym i j = R → i ≤ nrow → j ≤ ncol →
      (if s.j + 1 ≤ ncol then (.ok (s.i, s.j + 1) : Except Halt (Nat × Nat)) else if s.i + 1 > nrow then .error (.stop 10)
        else .ok (s.i + 1, if sym then s.i + 1 else 1)) = .ok (i, j) →
      ∃ s', place nrow ncol sym istart s t = .ok s' ∧ Inv nrow ncol sym (done ++ [(i, j)]) s' ∧
      after nrow ncol sym s'.i s'.j = R ∧ (s'.i, s'.j) = (i, j) ∧ s'.c i j = loaded istart s.c (i, j) t ∧ ∀ q ∈ done, s'.c q.1 q.2 = s.c q.1 q.2 := by
    intro i j R hR hR' hi1 hj1 hnext
    have hsplit := hi.split
    rw [hR] at hsplit
    obtain ⟨f1, f2, f3, f4⟩ := next_facts hsplit
    rw [mem_cells] at f2
    have hput : ∀ (c : Nat → Nat → α) (x : α) (q : Nat × Nat), q ≠ (i, j) → put c i j x q.1 q.2 = c q.1 q.2 := by
      intro c x q hq
      unfold put
      rw [if_neg (fun h => hq (Prod.ext h.1 h.2))]
    have hsplit' : done ++ [(i, j)] ++ R = cells nrow ncol sym := by simpa using hsplit
    by_cases hw : sym = false ∨ i = j
    · refine ⟨⟨put s.c i j (loaded istart s.c (i, j) t), i, j, s.nx + 1⟩, ?_, ⟨by rw [hR']; exact hsplit', hj1, hi1, ?_, ?_, Or.inr (by simp)⟩, hR', rfl, ?_, ?_⟩
      · unfold place
        simp only
        rw [hnext]
        simp only
        rw [if_pos hw]
        rfl
      · simp only [List.map_append, List.sum_append, hi.count, List.map_cons, List.map_nil, List.sum_cons, List.sum_nil, weight, add_zero]
        rw [if_pos hw]
      · intro hsym p hp
        have hij : i = j := hw.resolve_left (by rw [hsym]; decide)
        rw [List.mem_append, List.mem_singleton] at hp
        rcases hp with hp | hp
        · have hp' : p ≠ (i, j) := fun h => f1 (h ▸ hp)
          have hp2 : (p.2, p.1) ≠ (i, j) := by
            intro h
            rw [Prod.mk.injEq] at h
            exact hp' (Prod.ext (by omega) (by omega))
          simp only
          rw [hput _ _ p hp', hput _ _ (p.2, p.1) hp2]
          exact hi.mirror hsym p hp
        · rw [hp, hij]
      · simp [put]
      · intro q hq
        exact hput _ _ q (fun h => f1 (h ▸ hq))
    · have hne : i ≠ j := fun h => hw (Or.inr h)
      have hsym : sym = true := by
        cases sym
        · exact absurd (Or.inl rfl) hw
        · rfl
      have hlt : i < j := by
        have := f2.2.2.2.2 hsym
        omega
      have hlow : ∀ q ∈ cells nrow ncol sym, q ≠ (j, i) := by
        rintro ⟨a, b⟩ hq h
        rw [mem_cells] at hq
        have := hq.2.2.2.2 hsym
        rw [Prod.mk.injEq] at h
        omega
      have hput2 : ∀ (c : Nat → Nat → α) (x : α) (q : Nat × Nat), q ≠ (j, i) → put c j i x q.1 q.2 = c q.1 q.2 := by
        intro c x q hq
        unfold put
        rw [if_neg (fun h => hq (Prod.ext h.1 h.2))]
      refine ⟨⟨put (put s.c i j (loaded istart s.c (i, j) t)) j i (loaded istart s.c (i, j) t), i, j, s.nx + 2⟩, ?_,
        ⟨by rw [hR']; exact hsplit', hj1, hi1, ?_, ?_, Or.inr (by simp)⟩, hR', rfl, ?_, ?_⟩
      · unfold place
        simp only
        rw [hnext]
        simp only
        rw [if_neg hw]
        rfl
      · simp only [List.map_append, List.sum_append, hi.count, List.map_cons, List.map_nil, List.sum_cons, List.sum_nil, weight, add_zero]
        rw [if_neg hw]
      · intro _ p hp
        rw [List.mem_append, List.mem_singleton] at hp
        rcases hp with hp | hp
        · have hp' : p ≠ (i, j) := fun h => f1 (h ▸ hp)
          have hp2 : (p.2, p.1) ≠ (j, i) := fun h => hp' (by rw [Prod.mk.injEq] at h; exact Prod.ext h.2 h.1)
          have hp3 : (p.2, p.1) ≠ (i, j) := fun h => hlow p (f4 p hp) (by rw [Prod.mk.injEq] at h; exact Prod.ext h.2 h.1)
          simp only
          rw [hput2 _ _ p (hlow p (f4 p hp)), hput2 _ _ (p.2, p.1) hp2, hput _ _ p hp', hput _ _ (p.2, p.1) hp3]
          exact hi.mirror hsym p hp
        · rw [hp]
          simp only
          have e1 : put (put s.c i j (loaded istart s.c (i, j) t)) j i (loaded istart s.c (i, j) t) j i = loaded istart s.c (i, j) t := by
            simp [put]
          have e2 : put (put s.c i j (loaded istart s.c (i, j) t)) j i (loaded istart s.c (i, j) t) i j = loaded istart s.c (i, j) t := by
            simp [put]
          rw [e1, e2]
      · simp [put]
      · intro q hq
        simp only
        rw [hput2 _ _ q (hlow q (f4 q hq)), hput _ _ q (fun h => f1 (h ▸ hq))]
  by_cases hj : s.j + 1 ≤ ncol
  · have e := after_same (nrow := nrow) (sym := sym) (i := s.i) (show s.j < ncol by omega)
    refine ⟨fun h => (by rw [h] at e; simp at e), fun p R h => ?_⟩
    rw [h] at e
    obtain ⟨rfl, rfl⟩ := List.cons_eq_cons.1 e
    exact hgo _ _ _ h rfl hi.row hj (by rw [if_pos hj])
  · by_cases hr : s.i + 1 > nrow
    · have e : after nrow ncol sym s.i s.j = [] := after_end (by omega) (by omega)
      refine ⟨fun _ => ?_, fun p R h => (by rw [e] at h; simp at h)⟩
      unfold place
      simp only
      rw [if_neg hj, if_pos hr]
    · have e := after_new hz (show ncol ≤ s.j by omega) (show s.i < nrow by omega)
      refine ⟨fun h => (by rw [h] at e; simp at e), fun p R h => ?_⟩
      rw [h] at e
      obtain ⟨rfl, rfl⟩ := List.cons_eq_cons.1 e
      refine hgo _ _ _ h rfl (by omega) ?_ (by rw [if_neg hj, if_neg hr])
      split_ifs with hs
      · have := hz.2.2 hs
        omega
      · exact hz.2.1

/-- The elements of a page. -/
theorem fill_spec [Zero α] {nrow ncol : Nat} {sym : Bool} {istart : Nat} (h0 : 1 ≤ istart) (hz : Size nrow ncol sym) :
    ∀ (ts : List (Option α)) (done : List (Nat × Nat)) (s : St α), Inv nrow ncol sym done s →
    ((∃ s', fill nrow ncol sym istart ts s = .ok s') ↔ ts.length ≤ (after nrow ncol sym s.i s.j).length) ∧
    ∀ s', fill nrow ncol sym istart ts s = .ok s' →
      Inv nrow ncol sym (done ++ (after nrow ncol sym s.i s.j).take ts.length) s' ∧
      after nrow ncol sym s'.i s'.j = (after nrow ncol sym s.i s.j).drop ts.length ∧
      (∀ q ∈ done, s'.c q.1 q.2 = s.c q.1 q.2) ∧
      (∀ p ∈ List.zip (after nrow ncol sym s.i s.j) ts, s'.c p.1.1 p.1.2 = loaded istart s'.c p.1 p.2)
  | [], done, s, hi => by
    refine ⟨⟨fun _ => Nat.zero_le _, fun _ => ⟨s, rfl⟩⟩, fun s' h => ?_⟩
    rw [fill] at h
    cases h
    refine ⟨by simpa using hi, by simp, fun _ _ => rfl, ?_⟩
    simp
  | t :: ts, done, s, hi => by
    obtain ⟨h1, h2⟩ := place_spec (istart := istart) hz hi t
    cases hR : after nrow ncol sym s.i s.j with
    | nil =>
      have h3 : ∀ s', fill nrow ncol sym istart (t :: ts) s ≠ .ok s' := by
        intro s' h
        rw [fill, h1 hR] at h
        cases h
      refine ⟨⟨fun ⟨s', h⟩ => absurd h (h3 s'), fun h => by simp at h⟩, fun s' h => absurd h (h3 s')⟩
    | cons p R =>
      obtain ⟨s1, e1, i1, r1, p1, v1, q1⟩ := h2 p R hR
      have ih := fill_spec h0 hz ts (done ++ [p]) s1 i1
      rw [r1] at ih
      have hf : fill nrow ncol sym istart (t :: ts) s = fill nrow ncol sym istart ts s1 := by rw [fill, e1]
      rw [hf]
      refine ⟨by rw [ih.1]; simp, fun s' h => ?_⟩
      obtain ⟨j1, j2, j3, j4⟩ := ih.2 s' h
      refine ⟨by simpa using j1, by simpa using j2, fun q hq => ?_, ?_⟩
      · rw [j3 q (by simp [hq]), q1 q hq]
      · intro q hq
        rw [List.zip_cons_cons, List.mem_cons] at hq
        rcases hq with rfl | hq
        · rw [j3 p (by simp), v1]
          unfold loaded
          cases t with
          | some v => rfl
          | none =>
            simp only [Option.getD_none]
            split_ifs with hlt
            · have hsplit := hi.split
              rw [hR] at hsplit
              obtain ⟨-, -, f3, -⟩ := next_facts (i := p.1) (j := p.2) hsplit
              have hm := f3 (by omega)
              have a1 := j3 (p.1 - 1, p.2) (by simp [hm])
              have a2 := q1 (p.1 - 1, p.2) hm
              simp only at a1 a2
              rw [a1, a2]
            · rfl
        · exact j4 q hq

end ASAPy.Boxr
