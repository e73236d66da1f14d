import Verif.Endf.Props

/-!
# Checks of concrete records

Decidable conditions under which lines are records, for the examples of sections of ENDF files.
-/

namespace ASAPy.Endf
open ASAPy.Str ASAPy.Dec ASAPy.Boxer

def chkCont (c : Cont) (l : Line) : Bool :=
  decide (66 ≤ l.length) && decide (floatEndf (l.take 11) = .ok c.c1) && decide (floatEndf ((l.drop 11).take 11) = .ok c.c2) &&
  decide (pyInt ((l.drop 22).take 11) = .ok c.l1) && decide (pyInt ((l.drop 33).take 11) = .ok c.l2) && decide (pyInt ((l.drop 44).take 11) = .ok c.n1) &&
  decide (pyInt ((l.drop 55).take 11) = .ok c.n2)

theorem cut6 (l : Line) : l = l.take 11 ++ (l.drop 11).take 11 ++ (l.drop 22).take 11 ++ (l.drop 33).take 11 ++ (l.drop 44).take 11 ++
    (l.drop 55).take 11 ++ l.drop 66 := by
  have e : ∀ n, (l.drop n).take 11 ++ l.drop (n + 11) = l.drop n := by
    intro n
    rw [← List.drop_drop, List.take_append_drop]
  simp only [List.append_assoc]
  rw [e 55, e 44, e 33, e 22, e 11, List.take_append_drop]

theorem contLine_of {c : Cont} {l : Line} (h : chkCont c l = true) : ContLine c l := by
  simp only [chkCont, Bool.and_eq_true, decide_eq_true_eq] at h
  obtain ⟨⟨⟨⟨⟨⟨h0, h1⟩, h2⟩, h3⟩, h4⟩, h5⟩, h6⟩ := h
  refine ⟨_, _, _, _, _, _, _, cut6 l, ⟨?_, h1⟩, ⟨?_, h2⟩, ⟨?_, h3⟩, ⟨?_, h4⟩, ⟨?_, h5⟩, ⟨?_, h6⟩⟩ <;> simp <;> omega

def chkHead (h : Head) (l : Line) : Bool := chkCont ⟨(h.za : ℚ), h.awr, h.l1, h.l2, h.n1, h.n2⟩ l

theorem headLine_of {h : Head} {l : Line} (hc : chkHead h l = true) (h0 : 0 ≤ h.za) : HeadLine h l := by
  obtain ⟨t1, t2, t3, t4, t5, t6, tail, e, f1, f2, f3, f4, f5, f6⟩ := contLine_of hc
  exact ⟨h.za, t1, t2, t3, t4, t5, t6, tail, e, f1, Or.inl ⟨by exact_mod_cast h0, by simp⟩, f2, f3, f4, f5, f6⟩

def chkStarts : List ℚ → Line → Bool
  | [], _ => true
  | v :: vs, l => decide (11 ≤ l.length) && decide (floatEndf (l.take 11) = .ok v) && chkStarts vs (l.drop 11)

theorem starts_of : ∀ {vs : List ℚ} {l : Line}, chkStarts vs l = true → Starts floatEndf vs l
  | [], l, _ => .nil l
  | v :: vs, l, h => by
    simp only [chkStarts, Bool.and_eq_true, decide_eq_true_eq] at h
    have := Starts.cons (rd := floatEndf) (t := l.take 11) ⟨by simp; omega, h.1.2⟩ (starts_of h.2)
    rwa [List.take_append_drop] at this

def chkLines : List ℚ → List Line → Bool
  | [], [] => true
  | [], _ :: _ => false
  | _ :: _, [] => false
  | v :: vs, l :: ls => chkStarts ((v :: vs).take 6) l && (if (v :: vs).length ≤ 6 then ls.isEmpty else chkLines ((v :: vs).drop 6) ls)

theorem lines_of : ∀ {ls : List Line} {vs : List ℚ}, chkLines vs ls = true → Lines (Starts floatEndf) 6 vs ls
  | [], [], _ => .nil
  | [], _ :: _, h => by simp [chkLines] at h
  | _ :: _, [], h => by simp [chkLines] at h
  | l :: ls, v :: vs, h => by
    simp only [chkLines, Bool.and_eq_true] at h
    by_cases hl : (v :: vs).length ≤ 6
    · rw [if_pos hl, List.isEmpty_iff] at h
      obtain ⟨h1, rfl⟩ := h
      rw [List.take_of_length_le hl] at h1
      exact .last (by simp) hl (starts_of h1)
    · rw [if_neg hl] at h
      have := Lines.more (st := Starts floatEndf) (k := 6) (vs := (v :: vs).take 6) (ws := (v :: vs).drop 6) (by simp at hl ⊢; omega)
        (by intro e; have := congrArg List.length e; simp at this hl; omega) (starts_of h.1) (lines_of h.2)
      rwa [List.take_append_drop] at this

def chkPairs {α β : Type} [DecidableEq α] [DecidableEq β] (rd : Line → Except PyErr α) (rd' : Line → Except PyErr β) : List (α × β) → Line → Bool
  | [], _ => true
  | v :: vs, l => decide (22 ≤ l.length) && decide (rd (l.take 11) = .ok v.1) && decide (rd' ((l.drop 11).take 11) = .ok v.2) && chkPairs rd rd' vs (l.drop 22)

theorem startsPairs_of {α β : Type} [DecidableEq α] [DecidableEq β] {rd : Line → Except PyErr α} {rd' : Line → Except PyErr β} :
    ∀ {vs : List (α × β)} {l : Line}, chkPairs rd rd' vs l = true → StartsPairs rd rd' vs l
  | [], l, _ => .nil l
  | (a, b) :: vs, l, h => by
    simp only [chkPairs, Bool.and_eq_true, decide_eq_true_eq] at h
    have := StartsPairs.cons (rd := rd) (rd' := rd') (t := l.take 11) (t' := (l.drop 11).take 11) ⟨by simp; omega, h.1.1.2⟩ ⟨by simp; omega, h.1.2⟩
      (startsPairs_of h.2)
    have e : l.take 11 ++ (l.drop 11).take 11 ++ l.drop 22 = l := by
      have e' : (l.drop 11).take 11 ++ l.drop 22 = l.drop 11 := by
        rw [show 22 = 11 + 11 from rfl, ← List.drop_drop, List.take_append_drop]
      rw [List.append_assoc, e', List.take_append_drop]
    rwa [e] at this

def chkPairLines {α β : Type} [DecidableEq α] [DecidableEq β] (rd : Line → Except PyErr α) (rd' : Line → Except PyErr β) : List (α × β) → List Line → Bool
  | [], [] => true
  | [], _ :: _ => false
  | _ :: _, [] => false
  | v :: vs, l :: ls => chkPairs rd rd' ((v :: vs).take 3) l && (if (v :: vs).length ≤ 3 then ls.isEmpty else chkPairLines rd rd' ((v :: vs).drop 3) ls)

theorem pairLines_of {α β : Type} [DecidableEq α] [DecidableEq β] {rd : Line → Except PyErr α} {rd' : Line → Except PyErr β} :
    ∀ {ls : List Line} {vs : List (α × β)}, chkPairLines rd rd' vs ls = true → Lines (StartsPairs rd rd') 3 vs ls
  | [], [], _ => .nil
  | [], _ :: _, h => by simp [chkPairLines] at h
  | _ :: _, [], h => by simp [chkPairLines] at h
  | l :: ls, v :: vs, h => by
    simp only [chkPairLines, Bool.and_eq_true] at h
    by_cases hl : (v :: vs).length ≤ 3
    · rw [if_pos hl, List.isEmpty_iff] at h
      obtain ⟨h1, rfl⟩ := h
      rw [List.take_of_length_le hl] at h1
      exact .last (by simp) hl (startsPairs_of h1)
    · rw [if_neg hl] at h
      have := Lines.more (st := StartsPairs rd rd') (k := 3) (vs := (v :: vs).take 3) (ws := (v :: vs).drop 3) (by simp at hl ⊢; omega)
        (by intro e; have := congrArg List.length e; simp at this hl; omega) (startsPairs_of h.1) (pairLines_of h.2)
      rwa [List.take_append_drop] at this

end ASAPy.Endf
