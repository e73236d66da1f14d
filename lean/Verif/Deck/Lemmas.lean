import Verif.Deck.Format

/-!
# Reading cards
-/

namespace ASAPy.Deck

theorem skipBlank_space {c : Char} (h : Str.isSpace c = true) (s : W) : skipBlank (c :: s) = skipBlank s := by simp [skipBlank, h]

theorem skipBlank_other {c : Char} (h : Str.isSpace c = false) (s : W) : skipBlank (c :: s) = c :: s := by simp [skipBlank, h]

theorem word_plain {w : W} (h : Plain w) {c : Char} (hc : Str.isSpace c = true ∨ c = '/') (s : W) : word (w ++ c :: s) = (w, c :: s) := by
  obtain ⟨-, h⟩ := h
  induction w with
  | nil => simp [word, hc]
  | cons d w ih =>
    have hd := h d (by simp)
    rw [List.cons_append, word, if_neg (by simp [hd.1, hd.2.1]), ih (fun x hx => h x (by simp [hx]))]

theorem word_cons {c : Char} (h : Str.isSpace c = false) (h' : c ≠ '/') (s : W) : word (c :: s) = (c :: (word s).1, (word s).2) := by
  simp [word, h, h']

theorem word_end {c : Char} (hc : Str.isSpace c = true ∨ c = '/') (s : W) : word (c :: s) = ([], c :: s) := by simp [word, hc]

/-- An item of a card. -/
theorem card_word {w : W} (h : Plain w) {c : Char} (hc : Str.isSpace c = true ∨ c = '/') (n : Nat) (s : W) :
    card (n + 1) (w ++ c :: s) = (w :: (card n (c :: s)).1, (card n (c :: s)).2) := by
  have hw := word_plain h hc s
  obtain ⟨hne, hp⟩ := h
  cases w with
  | nil => exact absurd rfl hne
  | cons d w =>
    have hd := hp d (by simp)
    rw [List.cons_append] at hw ⊢
    rw [card, skipBlank_other hd.1]
    simp only [hd.2.1, hd.2.2.1, if_false, hw]

theorem card_blank {c : Char} (h : Str.isSpace c = true) (n : Nat) (s : W) : card (n + 1) (c :: s) = card (n + 1) s := by
  rw [card, skipBlank_space h]; rfl

theorem card_slash (n : Nat) (s : W) : card (n + 1) ('/' :: s) = ([], endLine s) := by
  rw [card, skipBlank_other (by decide)]; rfl

theorem card_zero (s : W) : card 0 s = ([], endLine s) := rfl

/-- An item that is written out. -/
theorem card_lit {c : Char} (h : Str.isSpace c = false) (h1 : c ≠ '/') (h2 : c ≠ '\'') (n : Nat) (s : W) :
    card (n + 1) (c :: s) = ((c :: (word s).1) :: (card n (word s).2).1, (card n (word s).2).2) := by
  rw [card, skipBlank_other h]; simp only [h1, h2, if_false, word_cons h h1]

theorem quoted_append {s : W} (h : Quotable s) (r : W) : quoted (s ++ '\'' :: r) = (s, r) := by
  induction s with
  | nil => simp [quoted]
  | cons c s ih =>
    have hc : c ≠ '\'' := fun e => h (by simp [e])
    have hs : Quotable s := fun e => h (by simp [e])
    simp [quoted, hc, ih hs]

theorem card_quote {s : W} (h : Quotable s) (n : Nat) (r : W) : card (n + 1) ('\'' :: (s ++ '\'' :: r)) = (s :: (card n r).1, (card n r).2) := by
  rw [card, skipBlank_other (by decide)]
  simp only [quoted_append h]; rfl

theorem endLine_end (s : W) : endLine ('\n' :: s) = s := rfl

theorem endLine_other {c : Char} (h : c ≠ '\n') (s : W) : endLine (c :: s) = endLine s := by simp [endLine, h]

theorem plain_natStr (n : Nat) : Plain (Dec.natStr n) := by
  refine ⟨Dec.natStr_ne_nil n, fun c hc => ?_⟩
  have hd := Dec.natStr_digits n c hc
  refine ⟨Dec.isDigit_noSpace hd, ?_, ?_, ?_, ?_⟩ <;> rintro rfl <;> revert hd <;> decide

/-- Several items separated by blanks and line ends. -/
theorem card_many {sep : W} (hs : ∀ c ∈ sep, Str.isSpace c = true) (hne : sep ≠ []) {ws : List W} (h : ∀ w ∈ ws, Plain w) (hw : ws ≠ []) {c : Char}
    (hc : Str.isSpace c = true ∨ c = '/') (n : Nat) (s : W) :
    card (ws.length + n) (sep.intercalate ws ++ c :: s) = (ws ++ (card n (c :: s)).1, (card n (c :: s)).2) := by
  have skip : ∀ (l : W) (k : Nat) (r : W), (∀ c ∈ l, Str.isSpace c = true) → card (k + 1) (l ++ r) = card (k + 1) r := by
    intro l k r hl
    induction l with
    | nil => rfl
    | cons d l ih => rw [List.cons_append, card_blank (hl d (by simp)), ih (fun x hx => hl x (by simp [hx]))]
  induction ws with
  | nil => exact absurd rfl hw
  | cons w ws ih =>
    have hpw := h w (by simp)
    cases ws with
    | nil =>
      have e : sep.intercalate [w] = w := by simp [List.intercalate, List.intersperse]
      rw [e, List.length_singleton, Nat.add_comm, card_word hpw hc]; rfl
    | cons w' ws =>
      have e : sep.intercalate (w :: w' :: ws) = w ++ sep ++ sep.intercalate (w' :: ws) := by
        simp [List.intercalate, List.intersperse, List.append_assoc]
      have e2 : (w :: w' :: ws).length + n = ((w' :: ws).length + n) + 1 := by simp; omega
      rw [e, e2]
      obtain ⟨d, sep', rfl⟩ : ∃ d sep', sep = d :: sep' := by
        cases sep with
        | nil => exact absurd rfl hne
        | cons d sep' => exact ⟨d, sep', rfl⟩
      have hd := hs d (by simp)
      have e3 : w ++ d :: sep' ++ (d :: sep').intercalate (w' :: ws) ++ c :: s = w ++ d :: (sep' ++ ((d :: sep').intercalate (w' :: ws) ++ c :: s)) := by simp
      rw [e3, card_word hpw (.inl hd)]
      have e4 : (w' :: ws).length + n = (ws.length + n) + 1 := by simp; omega
      have key : card ((w' :: ws).length + n) (d :: (sep' ++ ((d :: sep').intercalate (w' :: ws) ++ c :: s))) = ((w' :: ws) ++ (card n (c :: s)).1, (card n (c :: s)).2) := by
        rw [← ih (fun x hx => h x (by simp [hx])) (by simp), e4, card_blank hd, skip sep' _ _ (fun x hx => hs x (by simp [hx]))]
      rw [key]; rfl

/-- A text after which NJOY reads on as if it had not been there, but for the modules `rs`. -/
def Part (t : W) (rs : List Run) : Prop := ∀ s xs, Reads s xs → Reads (t ++ s) (rs ++ xs)

theorem Part.append {t u : W} {rs xs : List Run} (h : Part t rs) (h' : Part u xs) : Part (t ++ u) (rs ++ xs) := by
  intro s ys hy
  rw [List.append_assoc, List.append_assoc]
  exact h _ _ (h' _ _ hy)

theorem Part.nil : Part [] [] := fun _ _ h => h

/-- One module: the line with its name, and its cards. -/
theorem Part.one {pre body : W} {name : W} {r : Run} (h : ∀ s, card 1 (pre ++ s) = ([name], s)) (hm : ∀ s, readModule name (body ++ s) = some (r, s)) :
    Part (pre ++ body) [r] := by
  intro s xs hx
  rw [List.append_assoc]
  exact Reads.run (name := name) (s' := s) (by rw [h]) (by rw [h]; exact hm s) hx

end ASAPy.Deck
