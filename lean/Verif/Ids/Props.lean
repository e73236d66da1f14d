import Verif.Ids.Model
import Mathlib.Data.List.Nodup
import Mathlib.Tactic.Tauto
import Mathlib.Tactic.Linarith

/-!
# C168: automatic identifiers
-/

namespace ASAPy.Ids

/-! ### The loop -/

/-- The loop ends with the first number from `n` on that is not used. -/
theorem skip_spec : ∀ (f : Nat) (used : List Int) (n : Int), (used.filter (fun m => decide (n ≤ m))).length ≤ f →
    n ≤ skip f used n ∧ skip f used n ∉ used ∧ ∀ m, n ≤ m → m < skip f used n → m ∈ used
  | 0, used, n, h => by
    rw [skip]
    refine ⟨le_refl n, fun hn => ?_, fun m h1 h2 => by omega⟩
    have : used.filter (fun m => decide (n ≤ m)) = [] := List.eq_nil_of_length_eq_zero (Nat.le_zero.1 h)
    have hm : n ∈ used.filter (fun m => decide (n ≤ m)) := List.mem_filter.2 ⟨hn, by simp⟩
    rw [this] at hm
    simp at hm
  | f + 1, used, n, h => by
    rw [skip]
    split_ifs with hn
    · have hlt : (used.filter (fun m => decide (n + 1 ≤ m))).length < (used.filter (fun m => decide (n ≤ m))).length := by
        have e : used.filter (fun m => decide (n + 1 ≤ m)) = (used.filter (fun m => decide (n ≤ m))).filter (fun m => decide (n + 1 ≤ m)) := by
          rw [List.filter_filter]
          refine List.filter_congr fun m _ => ?_
          by_cases h1 : n + 1 ≤ m
          · simp [h1, show n ≤ m by omega]
          · simp [h1]
        rw [e]
        refine List.length_filter_lt_length_iff_exists.2 ⟨n, List.mem_filter.2 ⟨hn, by simp⟩, by simp⟩
      obtain ⟨h1, h2, h3⟩ := skip_spec f used (n + 1) (by omega)
      refine ⟨by omega, h2, fun m hm hm' => ?_⟩
      by_cases e : m = n
      · rw [e]; exact hn
      · exact h3 m (by omega) hm'
    · exact ⟨le_refl n, hn, fun m h1 h2 => by omega⟩

theorem skip_len (used : List Int) (n : Int) : n ≤ skip used.length used n ∧ skip used.length used n ∉ used ∧ ∀ m, n ≤ m → m < skip used.length used n → m ∈ used :=
  skip_spec _ _ _ (List.length_filter_le _ _)

variable {K : Type} [DecidableEq K] {direct : K → Bool}

/-- An identifier was reserved for a class: by name, or for all classes. -/
def Reserved (direct : K → Bool) (k : K) (n : Int) (ops : List (Op K)) : Prop :=
  ∃ ids t, Op.reserve ids t ∈ ops ∧ n ∈ ids ∧ (t = some k ∨ (t = none ∧ direct k = true))

theorem reserved_cons {k : K} {n : Int} {op : Op K} {ops : List (Op K)} : Reserved direct k n (op :: ops) ↔ Reserved direct k n [op] ∨ Reserved direct k n ops := by
  constructor
  · rintro ⟨ids, t, hm, h⟩
    rcases List.mem_cons.1 hm with e | hm
    · exact Or.inl ⟨ids, t, by simp [e], h⟩
    · exact Or.inr ⟨ids, t, hm, h⟩
  · rintro (⟨ids, t, hm, h⟩ | ⟨ids, t, hm, h⟩)
    · exact ⟨ids, t, by simp only [List.mem_singleton] at hm; simp [hm], h⟩
    · exact ⟨ids, t, List.mem_cons_of_mem _ hm, h⟩

/-- What a call adds to the used identifiers. -/
theorem step_used {s : State K} {op : Op K} (hr : op ≠ .reset) (k : K) (n : Int) :
    n ∈ ((step direct s op).1 k).used ↔ n ∈ (s k).used ∨ (∃ w, (step direct s op).2 = some (k, n, w)) ∨ Reserved direct k n [op] := by
  cases op with
  | reset => exact absurd rfl hr
  | setAuto v =>
    have : ¬ Reserved direct k n [.setAuto v] := by rintro ⟨ids, t, hm, -⟩; simp at hm
    simp only [step, setAuto, this, or_false, reduceCtorEq, exists_false]
    split_ifs <;> rfl
  | reserve ids t =>
    have e : Reserved direct k n [.reserve ids t] ↔ n ∈ ids ∧ (t = some k ∨ (t = none ∧ direct k = true)) := by
      constructor
      · rintro ⟨ids', t', hm, h⟩
        simp only [List.mem_singleton, Op.reserve.injEq] at hm
        rw [hm.1, hm.2] at h
        exact h
      · exact fun h => ⟨ids, t, by simp, h⟩
    rw [e]
    cases t with
    | none =>
      simp only [step, reserve, reduceCtorEq, exists_false, false_or, true_and]
      by_cases hd : direct k = true
      · simp only [hd, if_true, List.mem_append, and_true]; tauto
      · simp only [hd]; simp
    | some j =>
      simp only [step, reserve, put, reduceCtorEq, exists_false, false_or, Option.some.injEq, false_and, or_false]
      by_cases hj : k = j
      · subst hj
        simp only [if_true, List.mem_append, and_true]; tauto
      · simp [hj, Ne.symm (Ne.intro hj)]
  | assign j u =>
    have : ¬ Reserved direct k n [.assign j u] := by rintro ⟨ids, t, hm, -⟩; simp at hm
    simp only [this, or_false, step]
    cases u with
    | other => simp [assign]
    | none =>
      simp only [assign, put, Option.some.injEq, Prod.mk.injEq]
      by_cases hj : k = j
      · subst hj
        simp only [if_true, List.mem_cons, true_and]
        constructor
        · rintro (h | h)
          · exact Or.inr ⟨false, h.symm, rfl⟩
          · exact Or.inl h
        · rintro (h | ⟨w, h, -⟩)
          · exact Or.inr h
          · exact Or.inl h.symm
      · simp [hj, Ne.symm (Ne.intro hj)]
    | int v =>
      simp only [assign]
      split_ifs with h1 h2
      · simp
      · simp only [Option.some.injEq, Prod.mk.injEq]
        constructor
        · exact Or.inl
        · rintro (h | ⟨w, rfl, rfl, -⟩)
          · exact h
          · exact h2
      · simp only [put, Option.some.injEq, Prod.mk.injEq]
        by_cases hj : k = j
        · subst hj
          simp only [if_true, List.mem_cons, true_and]
          constructor
          · rintro (h | h)
            · exact Or.inr ⟨false, h.symm, rfl⟩
            · exact Or.inl h
          · rintro (h | ⟨w, h, -⟩)
            · exact Or.inr h
            · exact Or.inl h.symm
        · simp [hj, Ne.symm (Ne.intro hj)]

theorem run_used (k : K) (n : Int) : ∀ (ops : List (Op K)) (s : State K), Op.reset ∉ ops →
    (n ∈ ((run direct s ops).1 k).used ↔ n ∈ (s k).used ∨ (∃ w, (k, n, w) ∈ (run direct s ops).2) ∨ Reserved direct k n ops)
  | [], s, _ => by
    have : ¬ Reserved direct k n ([] : List (Op K)) := by rintro ⟨ids, t, hm, -⟩; simp at hm
    simp [run, this]
  | op :: ops, s, h => by
    have ho : op ≠ .reset := fun e => h (by simp [e])
    rw [run, run_used k n ops _ (fun hm => h (List.mem_cons_of_mem _ hm)), step_used ho, reserved_cons (op := op) (ops := ops)]
    simp only [List.mem_append, Option.mem_toList, exists_or]
    tauto

theorem run_distinct : ∀ (ops : List (Op K)) (s : State K), Op.reset ∉ ops → (∀ x ∈ (run direct s ops).2, x.2.2 = false) →
    ((run direct s ops).2.map fun x => (x.1, x.2.1)).Nodup ∧ ∀ x ∈ (run direct s ops).2, x.2.1 ∉ (s x.1).used
  | [], s, _, _ => by simp [run]
  | op :: ops, s, h, hw => by
    have ho : op ≠ .reset := fun e => h (by simp [e])
    rw [run] at hw ⊢
    simp only at hw ⊢
    obtain ⟨h1, h2⟩ := run_distinct ops (step direct s op).1 (fun hm => h (List.mem_cons_of_mem _ hm)) (fun x hx => hw x (List.mem_append_right _ hx))
    have hmono : ∀ k n, n ∈ (s k).used → n ∈ ((step direct s op).1 k).used := fun k n hn => (step_used ho k n).2 (Or.inl hn)
    cases e : (step direct s op).2 with
    | none =>
      simp only [Option.toList_none, List.nil_append]
      exact ⟨h1, fun x hx hu => h2 x hx (hmono _ _ hu)⟩
    | some y =>
      obtain ⟨k, n, w⟩ := y
      have hin : n ∈ ((step direct s op).1 k).used := (step_used ho k n).2 (Or.inr (Or.inl ⟨w, e⟩))
      have hnew : n ∉ (s k).used := by
        have hwf : w = false := hw (k, n, w) (by simp [e])
        cases op with
        | reset => exact absurd rfl ho
        | setAuto v => simp [step] at e
        | reserve ids t => simp [step] at e
        | assign j u =>
          cases u with
          | other => simp [step, assign] at e
          | none =>
            simp only [step, assign, Option.some.injEq, Prod.mk.injEq] at e
            obtain ⟨rfl, rfl, -⟩ := e
            exact (skip_len _ _).2.1
          | int v =>
            simp only [step, assign] at e
            by_cases g1 : v < 0
            · simp [g1] at e
            by_cases g2 : v ∈ (s j).used
            · simp only [g1, g2, if_true, if_false, Option.some.injEq, Prod.mk.injEq] at e
              rw [hwf] at e
              simp at e
            · simp only [g1, g2, if_false, Option.some.injEq, Prod.mk.injEq] at e
              obtain ⟨rfl, rfl, -⟩ := e
              exact g2
      simp only [Option.toList_some, List.singleton_append, List.map_cons, List.nodup_cons, List.mem_map, List.mem_cons]
      refine ⟨⟨?_, h1⟩, ?_⟩
      · rintro ⟨x, hx, ex⟩
        simp only [Prod.mk.injEq] at ex
        have := h2 x hx
        rw [ex.1, ex.2] at this
        exact this hin
      · rintro x (rfl | hx)
        · exact hnew
        · exact fun hu => h2 x hx (hmono _ _ hu)

/-! ### C168 -/

/-- C168: an identifier given automatically was not given to an object of this class before, nor reserved for it, since the last reset; no call raises. -/
theorem C168_automatic (ops : List (Op K)) (h : Op.reset ∉ ops) (k : K) : ∃ s' n, assign (run direct fresh ops).1 k .none = .ok (s', n, false) ∧
    (∀ w, (k, n, w) ∉ (run direct fresh ops).2) ∧ ¬ Reserved direct k n ops := by
  refine ⟨_, _, rfl, ?_⟩
  have hn := (skip_len ((run direct fresh ops).1 k).used ((run direct fresh ops).1 k).next).2.1
  rw [run_used k _ ops fresh h] at hn
  push Not at hn
  exact ⟨hn.2.1, hn.2.2⟩

/-- C168: unless the counters are set it is the smallest positive number of this kind. -/
theorem C168_smallest (ops : List (Op K)) (h : Op.reset ∉ ops) (hs : ∀ v, Op.setAuto v ∉ ops) (k : K) : ∃ s' n, assign (run direct fresh ops).1 k .none = .ok (s', n, false) ∧ 1 ≤ n ∧
    ∀ m, 1 ≤ m → m < n → (∃ w, (k, m, w) ∈ (run direct fresh ops).2) ∨ Reserved direct k m ops := by
  have key : ∀ (ops : List (Op K)) (s : State K), Op.reset ∉ ops → (∀ v, Op.setAuto v ∉ ops) → (1 ≤ (s k).next ∧ ∀ m, 1 ≤ m → m < (s k).next → m ∈ (s k).used) →
      1 ≤ ((run direct s ops).1 k).next ∧ ∀ m, 1 ≤ m → m < ((run direct s ops).1 k).next → m ∈ ((run direct s ops).1 k).used := by
    intro ops
    induction ops with
    | nil => exact fun s _ _ h => h
    | cons op ops ih =>
      intro s hr hv hi
      rw [run]
      refine ih _ (fun hm => hr (List.mem_cons_of_mem _ hm)) (fun v hm => hv v (List.mem_cons_of_mem _ hm)) ?_
      have hu : ∀ n, n ∈ (s k).used → n ∈ ((step direct s op).1 k).used := fun n hn => (step_used (fun e => hr (by simp [e])) k n).2 (Or.inl hn)
      cases op with
      | reset => exact absurd List.mem_cons_self hr
      | setAuto v => exact absurd List.mem_cons_self (hv v)
      | reserve ids t =>
        have e : ((step direct s (.reserve ids t)).1 k).next = (s k).next := by
          cases t with
          | none => simp only [step, reserve]; split_ifs <;> rfl
          | some j =>
            simp only [step, reserve, put]
            split_ifs with g
            · rw [g]
            · rfl
        rw [e]
        exact ⟨hi.1, fun m h1 h2 => hu m (hi.2 m h1 h2)⟩
      | assign j u =>
        cases u with
        | other => exact hi
        | int v =>
          have e : ((step direct s (.assign j (.int v))).1 k).next = (s k).next := by
            simp only [step, assign]
            split_ifs with g1 g2
            · rfl
            · rfl
            · simp only [put]
              split_ifs with g
              · rw [g]
              · rfl
          rw [e]
          exact ⟨hi.1, fun m h1 h2 => hu m (hi.2 m h1 h2)⟩
        | none =>
          by_cases g : k = j
          · subst g
            obtain ⟨h1, -, h3⟩ := skip_len (s k).used (s k).next
            have e : (step direct s (.assign k .none)).1 k = ⟨skip (s k).used.length (s k).used (s k).next, skip (s k).used.length (s k).used (s k).next :: (s k).used⟩ := by
              simp [step, assign, put]
            rw [e]
            refine ⟨by simp only; omega, fun m hm hm' => List.mem_cons_of_mem _ ?_⟩
            simp only at hm'
            by_cases hc : m < (s k).next
            · exact hi.2 m hm hc
            · exact h3 m (by omega) hm'
          · have e : (step direct s (.assign j .none)).1 k = s k := by simp [step, assign, put, g]
            rw [e]
            exact hi
  obtain ⟨h1, h2⟩ := key ops fresh h hs ⟨le_refl 1, fun m h1 h2 => by have : m < 1 := h2; omega⟩
  obtain ⟨g1, -, g3⟩ := skip_len ((run direct fresh ops).1 k).used ((run direct fresh ops).1 k).next
  refine ⟨_, _, rfl, by omega, fun m hm hm' => ?_⟩
  have hu : m ∈ ((run direct fresh ops).1 k).used := by
    by_cases hc : m < ((run direct fresh ops).1 k).next
    · exact h2 m hm hc
    · exact g3 m (by omega) hm'
  rw [run_used k m ops fresh h] at hu
  rcases hu with hu | hu
  · simp [fresh] at hu
  · exact hu

/-- C168: after `set_auto_id(v)` automatic identifiers of a class start from v. -/
theorem C168_set (s : State K) (v : Int) {k : K} (hk : direct k = true) : ∃ s' n, assign (setAuto direct s v) k .none = .ok (s', n, false) ∧ v ≤ n ∧ n ∉ (s k).used ∧
    ∀ m, v ≤ m → m < n → m ∈ (s k).used := by
  have := skip_len (s k).used v
  have e : setAuto direct s v k = ⟨v, (s k).used⟩ := by simp only [setAuto, hk, if_true]
  rw [assign, e]
  exact ⟨_, _, rfl, this.1, this.2.1, this.2.2⟩

/-- C168: identifiers that were asked for are given, negative ones refused. -/
theorem C168_given (s : State K) (k : K) (n : Int) : (n < 0 → assign s k (.int n) = .error .valueError) ∧ (0 ≤ n → ∃ s' w, assign s k (.int n) = .ok (s', n, w) ∧ (w = true ↔ n ∈ (s k).used)) := by
  refine ⟨fun h => by rw [assign, if_pos h], fun h => ?_⟩
  rw [assign, if_neg (by omega)]
  split_ifs with hu
  · exact ⟨_, _, rfl, by simp [hu]⟩
  · exact ⟨_, _, rfl, by simp [hu]⟩

/-- C168: without warnings and resets all identifiers of a class are different. -/
theorem C168_unique_partial (ops : List (Op K)) (h : Op.reset ∉ ops) (hw : ∀ x ∈ (run direct fresh ops).2, x.2.2 = false) :
    ((run direct fresh ops).2.map fun x => (x.1, x.2.1)).Nodup := (run_distinct ops fresh h hw).1

/-- C168, what does not hold: an identifier in use can be given again, with a warning only. -/
theorem C168_warning_refuted (k : K) (n : Int) (h : 0 ≤ n) : (run direct fresh [.assign k (.int n), .assign k (.int n)]).2 = [(k, n, false), (k, n, true)] := by
  have hn : ¬ n < 0 := by omega
  simp [run, step, assign, fresh, put, hn]

/-- C168, what does not hold: after a reset automatic identifiers repeat, without a warning. -/
theorem C168_reset_refuted {k : K} (hk : direct k = true) : (run direct fresh [.assign k .none, .reset, .assign k .none]).2 = [(k, 1, false), (k, 1, false)] := by
  simp [run, step, assign, fresh, reset, hk, skip]

/-- C168, what does not hold: the counters of a class that is derived from another one are not reset. -/
theorem C168_nested_refuted {k : K} (hk : direct k = false) : (run direct fresh [.assign k .none, .reset, .assign k .none]).2 = [(k, 1, false), (k, 2, false)] := by
  simp [run, step, assign, fresh, put, reset, hk, skip]

/-- C168, what does not hold: automatic identifiers can be negative, which are refused otherwise. -/
theorem C168_negative_refuted {k : K} (hk : direct k = true) : (run direct fresh [.setAuto (-5), .assign k .none, .assign k (.int (-4))]).2 = [(k, -5, false)] := by
  simp [run, step, assign, fresh, put, setAuto, hk, skip]

/-- Two classes; 1 and 3 are reserved for both. -/
example : (run (fun _ : Bool => true) fresh [.reserve [1, 3] none, .assign true .none, .assign true .none, .assign false (.int 2), .assign false .none]).2 =
    [(true, 2, false), (true, 4, false), (false, 2, false), (false, 4, false)] := by
  simp [run, step, assign, fresh, put, reserve, skip]

end ASAPy.Ids
