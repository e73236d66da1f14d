import Verif.Heap.Model

/-! # References and contents -/

set_option linter.unusedSimpArgs false
set_option linter.unusedSectionVars false

namespace ASAPy.Heap
open ASAPy.Ace

/-! ### Dictionaries -/

section
variable {κ α β : Type*} [DecidableEq κ]

theorem get?_mapv (f : α → β) (d : List (κ × α)) (k : κ) : Dict.get? (d.map fun e => (e.1, f e.2)) k = (Dict.get? d k).map f := by
  induction d with
  | nil => rfl
  | cons e d ih =>
    obtain ⟨k', a⟩ := e
    by_cases h : k' = k <;> simp [Dict.get?, h, ih]

theorem modify_mapv {f : α → β} {g : α → α} {g' : β → β} (h : ∀ a, f (g a) = g' (f a)) (d : List (κ × α)) (k : κ) :
    (Dict.modify d k g).map (fun e => (e.1, f e.2)) = Dict.modify (d.map fun e => (e.1, f e.2)) k g' := by
  induction d with
  | nil => rfl
  | cons e d ih =>
    obtain ⟨k', a⟩ := e
    by_cases hk : k' = k <;> simp [Dict.modify, hk, ih, h]

theorem modify_mapv_get {f : α → β} {g : α → α} {g' : β → β} (d : List (κ × α)) (k : κ) (h : ∀ a, Dict.get? d k = some a → f (g a) = g' (f a)) :
    (Dict.modify d k g).map (fun e => (e.1, f e.2)) = Dict.modify (d.map fun e => (e.1, f e.2)) k g' := by
  induction d with
  | nil => rfl
  | cons e d ih =>
    obtain ⟨k', a⟩ := e
    by_cases hk : k' = k
    · subst hk
      simp [Dict.modify, h a (by simp [Dict.get?])]
    · simp only [Dict.modify, hk, if_false, List.map_cons]
      rw [ih fun a ha => h a (by simp [Dict.get?, hk, ha])]

theorem set_mapv (f : α → β) (d : List (κ × α)) (k : κ) (a : α) :
    (Dict.set d k a).map (fun e => (e.1, f e.2)) = Dict.set (d.map fun e => (e.1, f e.2)) k (f a) := by
  induction d with
  | nil => rfl
  | cons e d ih =>
    obtain ⟨k', a'⟩ := e
    by_cases hk : k' = k <;> simp [Dict.set, hk, ih]

theorem keys_mapv (f : α → β) (d : List (κ × α)) : Dict.keys (d.map fun e => (e.1, f e.2)) = Dict.keys d := by
  simp [Dict.keys, Function.comp_def]

theorem mem_modify {d : List (κ × α)} {k : κ} {g : α → α} {e : κ × α} (h : e ∈ Dict.modify d k g) : e ∈ d ∨ ∃ a, (k, a) ∈ d ∧ Dict.get? d k = some a ∧ e = (k, g a) := by
  induction d with
  | nil => simp [Dict.modify] at h
  | cons e' d ih =>
    obtain ⟨k', a'⟩ := e'
    by_cases hk : k' = k
    · subst hk
      simp only [Dict.modify, if_true, List.mem_cons] at h
      rcases h with rfl | h
      · right; exact ⟨a', by simp, by simp [Dict.get?], rfl⟩
      · left; exact List.mem_cons_of_mem _ h
    · simp only [Dict.modify, hk, if_false, List.mem_cons] at h
      rcases h with rfl | h
      · left; simp
      · rcases ih h with h | ⟨a, h1, h2, h3⟩
        · left; exact List.mem_cons_of_mem _ h
        · right; exact ⟨a, List.mem_cons_of_mem _ h1, by simp [Dict.get?, hk, h2], h3⟩

theorem mem_setv {d : List (κ × α)} {k : κ} {a : α} {e : κ × α} (h : e ∈ Dict.set d k a) : e ∈ d ∨ e = (k, a) := by
  induction d with
  | nil => simp [Dict.set] at h; exact Or.inr h
  | cons e' d ih =>
    obtain ⟨k', a'⟩ := e'
    by_cases hk : k' = k
    · subst hk
      simp only [Dict.set, if_true, List.mem_cons] at h
      rcases h with h | h
      · exact Or.inr h
      · exact Or.inl (List.mem_cons_of_mem _ h)
    · simp only [Dict.set, hk, if_false, List.mem_cons] at h
      rcases h with rfl | h
      · left; simp
      · exact (ih h).imp (List.mem_cons_of_mem _) id

theorem mem_of_get?v {d : List (κ × α)} {k : κ} {a : α} (h : Dict.get? d k = some a) : (k, a) ∈ d := by
  induction d with
  | nil => simp [Dict.get?] at h
  | cons e d ih =>
    obtain ⟨k', a'⟩ := e
    by_cases hk : k' = k
    · subst hk
      simp [Dict.get?] at h
      simp [h]
    · simp [Dict.get?, hk] at h
      exact List.mem_cons_of_mem _ (ih h)
end

/-! ### All references satisfy something -/

def HTab.All (P : Addr → Prop) (t : HTab) : Prop := P t.x ∧ P t.y
def HDist.All (P : Addr → Prop) (d : HDist) : Prop := P d.x ∧ P d.p ∧ P d.c
def HChi.All (P : Addr → Prop) (c : HChi) : Prop := P c.energyIn ∧ ∀ d ∈ c.energyOut, d.All P
def HRx.All (P : Addr → Prop) (r : HRx) : Prop :=
  (∀ e ∈ r.xs, e.2.All P) ∧ (∀ n, r.nu = some n → n.yield_.All P) ∧ ∀ c, r.chi = some c → c.All P
def HTable.All (P : Addr → Prop) (t : HTable) : Prop := ∀ e ∈ t.reactions, e.2.All P
def HVal.All (P : Addr → Prop) : HVal → Prop
  | .arr a => P a
  | .pdfs l => ∀ a ∈ l, P a
/-- Every array the editor refers to. -/
def HEd.All (P : Addr → Prop) (e : HEd) : Prop := e.table.All P ∧ e.original.All P ∧ ∀ v ∈ e.originalSigma, v.2.All P

section
variable {P Q : Addr → Prop}
theorem HTab.All.mono (h : ∀ a, P a → Q a) {t : HTab} (ht : t.All P) : t.All Q := ⟨h _ ht.1, h _ ht.2⟩
theorem HDist.All.mono (h : ∀ a, P a → Q a) {t : HDist} (ht : t.All P) : t.All Q := ⟨h _ ht.1, h _ ht.2.1, h _ ht.2.2⟩
theorem HChi.All.mono (h : ∀ a, P a → Q a) {t : HChi} (ht : t.All P) : t.All Q := ⟨h _ ht.1, fun d hd => (ht.2 d hd).mono h⟩
theorem HRx.All.mono (h : ∀ a, P a → Q a) {t : HRx} (ht : t.All P) : t.All Q :=
  ⟨fun e he => (ht.1 e he).mono h, fun n hn => (ht.2.1 n hn).mono h, fun c hc => (ht.2.2 c hc).mono h⟩
theorem HVal.All.mono (h : ∀ a, P a → Q a) {v : HVal} (hv : v.All P) : v.All Q := by
  cases v with
  | arr a => exact h _ hv
  | pdfs l => exact fun a ha => h _ (hv a ha)
theorem HEd.All.mono (h : ∀ a, P a → Q a) {e : HEd} (he : e.All P) : e.All Q :=
  ⟨fun x hx => (he.1 x hx).mono h, fun x hx => (he.2.1 x hx).mono h, fun v hv => (he.2.2 v hv).mono h⟩
theorem HEd.All.and {e : HEd} (h1 : e.All P) (h2 : e.All Q) : e.All (fun a => P a ∧ Q a) := by
  obtain ⟨a1, a2, a3⟩ := h1
  obtain ⟨b1, b2, b3⟩ := h2
  have hrx : ∀ r : HRx, r.All P → r.All Q → r.All (fun a => P a ∧ Q a) := fun r h h' =>
    ⟨fun e he => ⟨⟨(h.1 e he).1, (h'.1 e he).1⟩, ⟨(h.1 e he).2, (h'.1 e he).2⟩⟩,
     fun n hn => ⟨⟨(h.2.1 n hn).1, (h'.2.1 n hn).1⟩, ⟨(h.2.1 n hn).2, (h'.2.1 n hn).2⟩⟩,
     fun c hc => ⟨⟨(h.2.2 c hc).1, (h'.2.2 c hc).1⟩, fun d hd =>
      ⟨⟨((h.2.2 c hc).2 d hd).1, ((h'.2.2 c hc).2 d hd).1⟩, ⟨((h.2.2 c hc).2 d hd).2.1, ((h'.2.2 c hc).2 d hd).2.1⟩,
        ⟨((h.2.2 c hc).2 d hd).2.2, ((h'.2.2 c hc).2 d hd).2.2⟩⟩⟩⟩
  refine ⟨fun e he => hrx _ (a1 e he) (b1 e he), fun e he => hrx _ (a2 e he) (b2 e he), fun v hv => ?_⟩
  have u1 := a3 v hv
  have u2 := b3 v hv
  obtain ⟨k, v⟩ := v
  cases v with
  | arr a => exact ⟨u1, u2⟩
  | pdfs l => exact fun a ha => ⟨u1 a ha, u2 a ha⟩
end

variable {K : Type*} {h h' : Addr → List K}

theorem HTab.view_congr {t : HTab} (ht : t.All fun a => h a = h' a) : t.view h = t.view h' := by
  unfold HTab.view; rw [ht.1, ht.2]
theorem HDist.view_congr {d : HDist} (hd : d.All fun a => h a = h' a) : d.view h = d.view h' := by
  unfold HDist.view; rw [hd.1, hd.2.1, hd.2.2]
theorem HChi.view_congr {c : HChi} (hc : c.All fun a => h a = h' a) : c.view h = c.view h' := by
  unfold HChi.view
  rw [hc.1, List.map_congr_left fun d hd => HDist.view_congr (hc.2 d hd)]
theorem HRx.view_congr {r : HRx} (hr : r.All fun a => h a = h' a) : r.view h = r.view h' := by
  unfold HRx.view
  congr 1
  · exact List.map_congr_left fun e he => by rw [HTab.view_congr (hr.1 e he)]
  · cases hn : r.nu with
    | none => rfl
    | some n => simp [HNu.view, HTab.view_congr (hr.2.1 n hn)]
  · cases hn : r.chi with
    | none => rfl
    | some n => simp [HChi.view_congr (hr.2.2 n hn)]
theorem HTable.view_congr {t : HTable} (ht : t.All fun a => h a = h' a) : t.view h = t.view h' := by
  unfold HTable.view
  congr 1
  exact List.map_congr_left fun e he => by rw [HRx.view_congr (ht e he)]
theorem HVal.view_congr {v : HVal} (hv : v.All fun a => h a = h' a) : v.view h = v.view h' := by
  cases v with
  | arr a => exact congrArg Val.arr hv
  | pdfs l => exact congrArg Val.pdfs (List.map_congr_left hv)
theorem HEd.view_congr {e : HEd} (he : e.All fun a => h a = h' a) : e.view h = e.view h' := by
  unfold HEd.view
  rw [HTable.view_congr he.1, HTable.view_congr he.2.1]
  congr 1
  exact List.map_congr_left fun v hv => by rw [HVal.view_congr (he.2.2 v hv)]

/-! ### Growing -/

/-- Arrays may have been added; the old ones are as they were. -/
def Grows (s s' : St K) : Prop := s.next ≤ s'.next ∧ ∀ a < s.next, s'.heap a = s.heap a

theorem Grows.refl (s : St K) : Grows s s := ⟨le_refl _, fun _ _ => rfl⟩
theorem Grows.trans {s s' s'' : St K} (h1 : Grows s s') (h2 : Grows s' s'') : Grows s s'' :=
  ⟨h1.1.trans h2.1, fun a ha => (h2.2 a (lt_of_lt_of_le ha h1.1)).trans (h1.2 a ha)⟩

/-- No reference of the editor is dangling. -/
def Valid (s : St K) : Prop := s.ed.All (· < s.next)

theorem alloc_grows (s : St K) (l : List K) : Grows s (s.alloc l).1 := by
  refine ⟨Nat.le_succ _, fun a ha => ?_⟩
  simp [St.alloc, Function.update, (Nat.ne_of_lt ha)]

theorem alloc_next (s : St K) (l : List K) : (s.alloc l).1.next = s.next + 1 := rfl
theorem alloc_addr (s : St K) (l : List K) : (s.alloc l).2 = s.next := rfl
theorem alloc_ed (s : St K) (l : List K) : (s.alloc l).1.ed = s.ed := rfl
theorem alloc_heap (s : St K) (l : List K) : (s.alloc l).1.heap (s.alloc l).2 = l := by simp [St.alloc]

theorem Grows.view_ed {s s' : St K} (hg : Grows s s') {e : HEd} (he : e.All (· < s.next)) : e.view s'.heap = e.view s.heap :=
  HEd.view_congr (he.mono fun a ha => hg.2 a ha)

theorem alloc_view {s : St K} (hs : Valid s) (l : List K) : (s.alloc l).1.view = s.view := (alloc_grows s l).view_ed hs

/-- What changes in a table when one reaction is replaced. -/
theorem HEd.modifyRx_view {e : HEd} {mt : MT} {f : HRx → HRx} {g : Reaction K → Reaction K}
    (hf : ∀ r, Dict.get? e.table.reactions mt = some r → (f r).view h = g (r.view h)) : (e.modifyRx mt f).view h = (e.view h).modifyRx mt g := by
  unfold HEd.modifyRx HEd.view Editor.modifyRx HTable.view
  simp only
  rw [modify_mapv_get _ _ hf]

theorem HEd.modifyRx_all {P : Addr → Prop} {e : HEd} {mt : MT} {f : HRx → HRx} (he : e.All P)
    (hf : ∀ r, Dict.get? e.table.reactions mt = some r → r.All P → (f r).All P) : (e.modifyRx mt f).All P := by
  refine ⟨?_, he.2⟩
  intro x hx
  rcases mem_modify hx with hx | ⟨r, h1, h2, rfl⟩
  · exact he.1 x hx
  · exact hf r h2 (he.1 _ h1)

end ASAPy.Heap
