import Verif.Deck.Spec

/-!
# `str.format` and the templates
-/

namespace ASAPy.Deck

theorem parseGo_append {a : W} : ∀ {m : Mode} {p : List Piece}, parseGo m a = some p → ∀ b, parseGo m (a ++ b) = (p ++ ·) <$> parse b := by
  induction a with
  | nil =>
    intro m p h b
    cases m <;> simp [parseGo] at h
    subst h; simp [parse]
  | cons c a ih =>
    intro m p h b
    cases m with
    | text =>
      simp only [parseGo, List.cons_append] at h ⊢
      split_ifs at h ⊢ with h1 h2
      · exact ih h b
      · exact ih h b
      · simp only [Option.map_eq_map, Option.map_eq_some_iff] at h
        obtain ⟨q, hq, rfl⟩ := h
        rw [ih hq b]; cases parse b <;> simp
    | opened =>
      simp only [parseGo, List.cons_append] at h ⊢
      split_ifs at h ⊢ with h1 h2
      · simp only [Option.map_eq_map, Option.map_eq_some_iff] at h
        obtain ⟨q, hq, rfl⟩ := h
        rw [ih hq b]; cases parse b <;> simp
      · simp only [Option.map_eq_map, Option.map_eq_some_iff] at h
        obtain ⟨q, hq, rfl⟩ := h
        rw [ih hq b]; cases parse b <;> simp
      · exact ih h b
    | field n =>
      simp only [parseGo, List.cons_append] at h ⊢
      split_ifs at h ⊢ with h1
      · simp only [Option.map_eq_map, Option.map_eq_some_iff] at h
        obtain ⟨q, hq, rfl⟩ := h
        rw [ih hq b]; cases parse b <;> simp
      · exact ih h b
    | closed =>
      simp only [parseGo, List.cons_append] at h ⊢
      split_ifs at h ⊢ with h1
      simp only [Option.map_eq_map, Option.map_eq_some_iff] at h
      obtain ⟨q, hq, rfl⟩ := h
      rw [ih hq b]; cases parse b <;> simp

theorem render_append (env : List (W × W)) (p q : List Piece) : render env (p ++ q) = (do let a ← render env p; let b ← render env q; pure (a ++ b)) := by
  induction p with
  | nil => simp only [List.nil_append, render]; cases render env q <;> rfl
  | cons x p ih =>
    cases x with
    | chr c =>
      simp only [List.cons_append, render, ih]
      cases render env p <;> cases render env q <;> rfl
    | fld n =>
      simp only [List.cons_append, render, ih]
      cases Dict.get? env n with
      | none => rfl
      | some v => cases render env p <;> cases render env q <;> simp [bind, Except.bind, pure, Except.pure, Functor.map, Except.map]

/-- A part that can be formatted by itself. -/
theorem format_append {env : List (W × W)} {a x : W} (h : format env a = .ok x) (b : W) : format env (a ++ b) = (x ++ ·) <$> format env b := by
  unfold format at h ⊢
  cases hp : parse a with
  | none => simp [hp] at h
  | some p =>
    simp only [hp] at h
    have := parseGo_append hp b
    unfold parse at this ⊢
    rw [this]
    cases hb : parseGo .text b with
    | none => simp [Functor.map, Except.map]
    | some q =>
      simp only [parse, hb, Option.map_eq_map, Option.map_some, render_append, h]
      cases render env q <;> rfl

/-- Text without braces is unchanged by `format`. -/
def NoBrace (s : W) : Prop := ∀ c ∈ s, c ≠ '{' ∧ c ≠ '}'

theorem parse_noBrace {s : W} (h : NoBrace s) : parse s = some (s.map .chr) := by
  unfold parse
  induction s with
  | nil => rfl
  | cons c s ih =>
    have hc := h c (by simp)
    rw [parseGo, if_neg hc.1, if_neg hc.2, ih (fun d hd => h d (by simp [hd]))]; rfl

theorem render_chr (env : List (W × W)) (s : W) : render env (s.map .chr) = .ok s := by
  induction s with
  | nil => rfl
  | cons c s ih => simp only [List.map_cons, render, ih]; rfl

theorem format_noBrace {s : W} (h : NoBrace s) (env : List (W × W)) : format env s = .ok s := by
  simp [format, parse_noBrace h, render_chr]

end ASAPy.Deck
