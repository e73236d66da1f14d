import Verif.Deck.Texts

/-!
# What NJOY reads from each template
-/

namespace ASAPy.Deck

set_option maxRecDepth 100000
set_option linter.unusedSimpArgs false

theorem quoted_skip {a : W} (h : Quotable a) (r : W) : quoted (a ++ r) = (a ++ (quoted r).1, (quoted r).2) := by
  induction a with
  | nil => rfl
  | cons c a ih =>
    have hc : c ≠ '\'' := fun e => h (by simp [e])
    have ha : Quotable a := fun e => h (by simp [e])
    simp [quoted, hc, ih ha]

theorem quoted_cons {c : Char} (h : c ≠ '\'') (r : W) : quoted (c :: r) = (c :: (quoted r).1, (quoted r).2) := by simp [quoted, h]

theorem quoted_end (r : W) : quoted ('\'' :: r) = ([], r) := by simp [quoted]

theorem card_quoted (n : Nat) (r : W) : card (n + 1) ('\'' :: r) = ((quoted r).1 :: (card n (quoted r).2).1, (card n (quoted r).2).2) := by
  rw [card, skipBlank_other (by decide)]; rfl

/-- A slash ends a card, also after its last item. -/
theorem card_done (n : Nat) (s : W) : card n ('/' :: s) = ([], endLine s) := by
  cases n with
  | zero => rw [card_zero, endLine_other (by decide)]
  | succ n => exact card_slash n s

theorem column_card {ws : List W} (h : ∀ w ∈ ws, Plain w) (hne : ws ≠ []) (n : Nat) (s : W) : card (ws.length + n) (column ws ++ '/' :: s) = (ws, endLine s) := by
  unfold column
  rw [card_many (by decide) (by decide) h hne (.inr rfl), card_done, List.append_nil]

theorem temps_card {ts : List W} (h : ∀ w ∈ ts, Plain w) (hne : ts ≠ []) (s : W) : card ts.length ([' '].intercalate ts ++ '\n' :: s) = (ts, s) := by
  have := card_many (sep := [' ']) (by decide) (by decide) h hne (c := '\n') (.inl (by decide)) 0 s
  simpa [card_zero, endLine] using this

theorem temps_card' {ts : List W} (h : ∀ w ∈ ts, Plain w) (hne : ts ≠ []) (s : W) : card ts.length ([' '].intercalate ts ++ '/' :: s) = (ts, endLine s) := by
  have := card_many (sep := [' ']) (by decide) (by decide) h hne (c := '/') (.inr (by decide)) 0 s
  rw [card_done] at this
  simpa using this

theorem natVal1 : Dec.natVal ['1'] = 1 := by decide
theorem natVal2 : Dec.natVal ['2'] = 2 := by decide
theorem natVal3 : Dec.natVal ['3'] = 3 := by decide

attribute [local simp] card_word card_blank card_done card_zero card_lit word_cons word_end word_plain endLine_end endLine_other plain_natStr at_ Dec.natVal_natStr Str.isSpace
  quoted_skip quoted_cons quoted_end card_quoted natVal1 natVal2 natVal3 cards

theorem part_reconr {a b library zsymam mat error : W} (ha : Plain a) (hb : Plain b) (hl : Quotable library) (hz : Quotable zsymam) (hm : Plain mat) (he : Plain error) :
    Part (xReconr a b library zsymam mat error) [.reconr [a, b] mat error] := by
  refine Part.one (name := c!"reconr") (fun s => rfl) ?_
  intro s
  show readReconr _ = _
  simp [readReconr, ha, hb, hl, hz, hm, he]

theorem part_broadr {a b c mat error : W} {ts : List W} (ha : Plain a) (hb : Plain b) (hc : Plain c) (hm : Plain mat) (he : Plain error) (ht : ∀ w ∈ ts, Plain w) (hne : ts ≠ []) :
    Part (xBroadr a b c mat (num ts.length) error ([' '].intercalate ts)) [.broadr [a, b, c] mat error ts] := by
  refine Part.one (name := c!"broadr") (fun s => rfl) ?_
  intro s
  show readBroadr _ = _
  simp [readBroadr, ha, hb, hc, hm, he, temps_card ht hne]

theorem part_heatr {a b c mat : W} (ha : Plain a) (hb : Plain b) (hc : Plain c) (hm : Plain mat) :
    Part (xHeatr a b c mat) [.heatr [a, b, c] mat [c!"302", c!"318", c!"402"]] := by
  refine Part.one (name := c!"heatr") (fun s => rfl) ?_
  intro s
  show readHeatr _ = _
  simp [readHeatr, ha, hb, hc, hm]

theorem part_purr {a b c mat : W} {ts : List W} (ha : Plain a) (hb : Plain b) (hc : Plain c) (hm : Plain mat) (ht : ∀ w ∈ ts, Plain w) (hne : ts ≠ []) :
    Part (xPurr a b c mat (num ts.length) ([' '].intercalate ts)) [.purr [a, b, c] mat ts] := by
  refine Part.one (name := c!"purr") (fun s => rfl) ?_
  intro s
  show readPurr _ = _
  simp [readPurr, ha, hb, hc, hm, temps_card ht hne]

theorem part_acer {a b c d e library zsymam temp mat : W} (ha : Plain a) (hb : Plain b) (hc : Plain c) (hd : Plain d) (he : Plain e) (hl : Quotable library)
    (hz : Quotable zsymam) (ht : Plain temp) (hm : Plain mat) :
    Part (xAcer a b c d e library zsymam temp mat) [.acer [a, b, c!"0", c, d] ('.' :: e) mat temp] := by
  have hq : Quotable temp := fun h => (ht.2 _ h).2.2.1 rfl
  refine Part.one (name := c!"acer") (fun s => rfl) ?_
  intro s
  show readAcer _ = _
  simp [readAcer, ha, hb, hc, hd, he, hl, hz, ht, hm, hq]

theorem part_viewr {a b : W} (ha : Plain a) (hb : Plain b) : Part (xViewr a b) [.viewr [a, b]] := by
  refine Part.one (name := c!"viewr") (fun s => rfl) ?_
  intro s
  show readViewr _ = _
  simp [readViewr, ha, hb]

theorem part_covrLib {a b mat : W} (ha : Plain a) (hb : Plain b) (hb0 : b ≠ ['0']) (hm : Plain mat) : Part (xCovrLib a b mat) [.covrLib [a, b] c!"3" [[mat]]] := by
  refine Part.one (name := c!"covr") (fun s => rfl) ?_
  intro s
  show readCovr _ = _
  simp [readCovr, ha, hb, hb0, hm]

/-- The weight function as it is read. -/
def fluxItems (vals : List W) : List W :=
  [c!"0.", c!"0.", c!"0", c!"0", c!"1", num (vals.length / 2), num (vals.length / 2), c!"2"] ++ vals

theorem length_intercalate {ws : List W} (h : ∀ w ∈ ws, Plain w) (sep : W) : ws.length ≤ (sep.intercalate ws).length := by
  induction ws with
  | nil => simp
  | cons w ws ih =>
    have hw : 1 ≤ w.length := List.length_pos_iff.2 (h w (by simp)).1
    cases ws with
    | nil => simpa [List.intercalate, List.intersperse] using hw
    | cons w' ws =>
      have := ih (fun x hx => h x (by simp [hx]))
      have e : sep.intercalate (w :: w' :: ws) = w ++ sep ++ sep.intercalate (w' :: ws) := by
        simp [List.intercalate, List.intersperse, List.append_assoc]
      rw [e]
      simp only [List.length_append, List.length_cons] at this ⊢
      omega

theorem card_flux {vals : List W} (h : ∀ w ∈ vals, Plain w) (hne : vals ≠ []) (k : Nat) (s : W) :
    card (vals.length + k + 8) (fluxText vals ++ '/' :: '\n' :: s) = (fluxItems vals, s) := by
  have hc := column_card h hne k ('\n' :: s)
  obtain ⟨v, vs, rfl⟩ : ∃ v vs, vals = v :: vs := by
    cases vals with
    | nil => exact absurd rfl hne
    | cons v vs => exact ⟨v, vs, rfl⟩
  have e : (v :: vs).length + k = (vs.length + k) + 1 := by simp; omega
  simp only [e] at hc ⊢
  simp [fluxText, fluxItems, hc]

theorem card_flux_length {vals : List W} (h : ∀ w ∈ vals, Plain w) (hne : vals ≠ []) (s : W) :
    weight ['1'] (fluxText vals ++ '/' :: '\n' :: s) = (fluxItems vals, s) := by
  unfold weight
  rw [if_pos rfl]
  have hl := length_intercalate h c!" \n"
  obtain ⟨k, hk⟩ : ∃ k, (fluxText vals ++ '/' :: '\n' :: s).length = vals.length + k + 8 := by
    refine ⟨(fluxText vals ++ '/' :: '\n' :: s).length - 8 - vals.length, ?_⟩
    simp only [fluxText, column, List.length_append, List.length_cons, List.length_nil] at hl ⊢
    omega
  rw [hk]
  exact card_flux h hne k s

/-- What is read for the weight from the text written for it. -/
def WeightIs (iwt : W) (f : W) (flux : List W) : Prop := ∀ s, weight iwt (f ++ s) = (flux, s)

theorem weightIs_none {iwt : W} (h1 : iwt ≠ ['1']) (h4 : iwt ≠ ['4']) : WeightIs iwt [] [] := by
  intro s; simp [weight, h1, h4]

theorem weightIs_flux {vals : List W} (h : ∀ w ∈ vals, Plain w) (hne : vals ≠ []) : WeightIs ['1'] (fluxText vals ++ c!"/\n") (fluxItems vals) := by
  intro s
  rw [List.append_assoc]
  exact card_flux_length h hne s

theorem bounds_card {gs : List W} (h : ∀ w ∈ gs, Plain w) (hne : gs ≠ []) (s : W) : card (gs.length - 1 + 1) (column gs ++ '/' :: s) = (gs, endLine s) := by
  have : gs.length - 1 + 1 = gs.length + 0 := by
    have := List.length_pos_iff.2 hne
    omega
  rw [this]
  exact column_card h hne 0 s

theorem part_errorr33 {a b c mat iwt temp f : W} {gs flux : List W} (ha : Plain a) (hb : Plain b) (hc : Plain c) (hm : Plain mat) (hi : Plain iwt) (ht : Plain temp)
    (hg : ∀ w ∈ gs, Plain w) (hne : gs ≠ []) (hw : WeightIs iwt f flux) :
    Part (xErrorr33 a b c mat iwt temp (num (gs.length - 1)) (column gs) ++ f) [.errorr [a, c!"0", b, c] mat iwt temp c!"33" gs flux] := by
  unfold xErrorr33
  rw [List.append_assoc]
  refine Part.one (name := c!"errorr") (fun s => rfl) ?_
  intro s
  show readErrorr _ = _
  have hb' := bounds_card hg hne
  simp [readErrorr, ha, hb, hc, hm, hi, ht, hb', hw s]

theorem part_errorr31 {a b c d mat iwt temp f : W} {gs flux : List W} (ha : Plain a) (hb : Plain b) (hc : Plain c) (hd : Plain d) (hm : Plain mat) (hi : Plain iwt) (ht : Plain temp)
    (hg : ∀ w ∈ gs, Plain w) (hne : gs ≠ []) (hw : WeightIs iwt f flux) :
    Part (xErrorr31 a b c d mat iwt temp (num (gs.length - 1)) (column gs) ++ f) [.errorr [a, b, c, d] mat iwt temp c!"31" gs flux] := by
  unfold xErrorr31
  rw [List.append_assoc]
  refine Part.one (name := c!"errorr") (fun s => rfl) ?_
  intro s
  show readErrorr _ = _
  have hb' := bounds_card hg hne
  simp [readErrorr, ha, hb, hc, hd, hm, hi, ht, hb', hw s]

theorem part_errorr35 {a b c d mat iwt temp f : W} {gs flux : List W} (ha : Plain a) (hb : Plain b) (hc : Plain c) (hd : Plain d) (hm : Plain mat) (hi : Plain iwt) (ht : Plain temp)
    (hg : ∀ w ∈ gs, Plain w) (hne : gs ≠ []) (hw : WeightIs iwt f flux) :
    Part (xErrorr35 a b c d mat iwt temp (num (gs.length - 1)) (column gs) ++ f) [.errorr [a, b, c, d] mat iwt temp c!"35" gs flux] := by
  unfold xErrorr35
  rw [List.append_assoc]
  refine Part.one (name := c!"errorr") (fun s => rfl) ?_
  intro s
  show readErrorr _ = _
  have hb' := bounds_card hg hne
  simp [readErrorr, ha, hb, hc, hd, hm, hi, ht, hb', hw s]

theorem lists_xsec (n : Nat) (s : W) : lists 3 n ((List.replicate n c!"3/\n0/\n").flatten ++ s) = (List.replicate n [[c!"3"]], s) := by
  induction n with
  | zero => rfl
  | succ n ih =>
    simp only [List.replicate_succ, List.flatten_cons, List.append_assoc, lists]
    simp [cardsTo0, ih]

theorem cardsTo0_nu (n : Nat) (s : W) : cardsTo0 3 (tNuReactions ++ s).length (tNuReactions ++ s) = (nuReactions, s) := by
  simp [tNuReactions, nuReactions, cardsTo0]

theorem cardsTo0_nu_tail (s : W) : cardsTo0 3 (tNuReactions.tail ++ s).length (tNuReactions.tail ++ s) = (nuReactions, s) := by
  simp [tNuReactions, nuReactions, cardsTo0]

theorem lists_nu (n : Nat) (s : W) : lists 3 n ((List.replicate n tNuReactions).flatten ++ s) = (List.replicate n nuReactions, s) := by
  induction n with
  | zero => rfl
  | succ n ih =>
    simp only [List.replicate_succ, List.flatten_cons, List.append_assoc, lists, cardsTo0_nu n, ih]

theorem lists_nu_end (n : Nat) (s : W) : lists 3 (n + 1) (endLine ((List.replicate (n + 1) tNuReactions).flatten ++ s)) = (List.replicate (n + 1) nuReactions, s) := by
  have e : ∀ r, endLine (tNuReactions ++ r) = tNuReactions.tail ++ r := by
    intro r; simp [tNuReactions, endLine]
  simp only [List.replicate_succ, List.flatten_cons, List.append_assoc, lists, e, cardsTo0_nu_tail, lists_nu]

theorem part_groupr {a b c mat iwt : W} {ts gs : List W} (ha : Plain a) (hb : Plain b) (hc : Plain c) (hm : Plain mat) (hi : Plain iwt)
    (ht : ∀ w ∈ ts, Plain w) (htn : ts ≠ []) (hg : ∀ w ∈ gs, Plain w) (hne : gs ≠ []) (h1 : iwt ≠ ['1']) (h4 : iwt ≠ ['4']) :
    Part (xGroupr a b c mat iwt (num ts.length) ([' '].intercalate ts) (num (gs.length - 1)) (column gs) ++ reactionsTail ts.length)
      [.groupr [a, b, c!"0", c] mat iwt ts gs [] (List.replicate ts.length [[c!"3"]])] := by
  unfold xGroupr
  rw [List.append_assoc]
  refine Part.one (name := c!"groupr") (fun s => rfl) ?_
  intro s
  show readGroupr _ = _
  have hb' := bounds_card hg hne
  have hl := lists_xsec ts.length
  simp [readGroupr, ha, hb, hc, hm, hi, hb', temps_card' ht htn, weight, h1, h4, reactionsTail, hl]

theorem part_grouprFlux {a b c mat : W} {ts gs vals : List W} (ha : Plain a) (hb : Plain b) (hc : Plain c) (hm : Plain mat)
    (ht : ∀ w ∈ ts, Plain w) (htn : ts ≠ []) (hg : ∀ w ∈ gs, Plain w) (hne : gs ≠ []) (hv : ∀ w ∈ vals, Plain w) (hvn : vals ≠ []) :
    Part (xGrouprFlux a b c mat (num ts.length) ([' '].intercalate ts) (num (gs.length - 1)) (column gs) (fluxText vals) ++ reactionsTail ts.length)
      [.groupr [a, b, c!"0", c] mat c!"1" ts gs (fluxItems vals) (List.replicate ts.length [[c!"3"]])] := by
  unfold xGrouprFlux
  rw [List.append_assoc]
  refine Part.one (name := c!"groupr") (fun s => rfl) ?_
  intro s
  show readGroupr _ = _
  have hb' := bounds_card hg hne
  have hl := lists_xsec ts.length
  have hw := card_flux_length hv hvn
  simp [readGroupr, ha, hb, hc, hm, hb', temps_card' ht htn, hw, reactionsTail, hl]

theorem part_grouprNu {a b c mat iwt : W} {ts gs : List W} (ha : Plain a) (hb : Plain b) (hc : Plain c) (hm : Plain mat) (hi : Plain iwt)
    (ht : ∀ w ∈ ts, Plain w) (htn : ts ≠ []) (hg : ∀ w ∈ gs, Plain w) (hne : gs ≠ []) (h1 : iwt ≠ ['1']) (h4 : iwt ≠ ['4']) :
    Part (xGrouprNu a b c mat iwt (num ts.length) ([' '].intercalate ts) (num (gs.length - 1)) (column gs) ++ ((List.replicate ts.length tNuReactions).flatten ++ c!"0/\n"))
      [.groupr [a, b, c!"0", c] mat iwt ts gs [] (List.replicate ts.length nuReactions)] := by
  unfold xGrouprNu
  rw [List.append_assoc]
  refine Part.one (name := c!"groupr") (fun s => rfl) ?_
  intro s
  show readGroupr _ = _
  have hb' := bounds_card hg hne
  obtain ⟨t, ts, rfl⟩ : ∃ v vs, ts = v :: vs := by
    cases ts with
    | nil => exact absurd rfl htn
    | cons v vs => exact ⟨v, vs, rfl⟩
  have hl := lists_nu_end ts.length
  have ht' := temps_card' ht htn
  rw [List.length_cons] at ht' ⊢
  simp [-List.replicate_succ, readGroupr, ha, hb, hc, hm, hi, hb', ht', weight, h1, h4, hl]

end ASAPy.Deck
