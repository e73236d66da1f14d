import Verif.AceData.AsciiProps

/-! # C76: numbers without the letter E in ASCII ACE files -/

set_option linter.unusedSimpArgs false

namespace ASAPy.AceData
open ASAPy.Str ASAPy.Dec ASAPy.Boxer
open ASAPy.Endf (Line pyInt strip readline subGo matchAt matchBody endfSub isLead digits_run digits_spec signText match_core)

/-! ### The substitution, piece by piece -/

theorem body_parts {o s g1 g2 r : Line} (h : matchBody o s = some (g1, g2, r)) : o ++ s = g1 ++ g2 ++ r ∧ g2 ≠ [] := by
  unfold matchBody at h
  split at h
  · exact absurd h (by simp)
  · rename_i p s3 e3
    split at h
    · rename_i hp
      split at h
      · exact absurd h (by simp)
      · rename_i c s5 e5
        split at h
        · obtain ⟨i1, -⟩ := digits_spec s
          obtain ⟨f1, -⟩ := digits_spec s3
          obtain ⟨p1, -⟩ := digits_spec s5
          simp only [Option.some.injEq, Prod.mk.injEq] at h
          obtain ⟨rfl, rfl, rfl⟩ := h
          refine ⟨?_, by simp⟩
          conv_lhs => rw [i1, e3, f1, e5, p1]
          simp [hp.1]
        · exact absurd h (by simp)
    · exact absurd h (by simp)

theorem match_parts {s g1 g2 r : Line} (h : matchAt s = some (g1, g2, r)) : s = g1 ++ g2 ++ r ∧ g2 ≠ [] := by
  cases s with
  | nil => exact absurd h (by simp [matchAt])
  | cons c s =>
    rw [matchAt] at h
    split at h
    · simpa using body_parts h
    · simpa using body_parts h

theorem sub_fuel : ∀ (n m : Nat) (s : Line), s.length ≤ n → s.length ≤ m → subGo n s = subGo m s
  | 0, m, s, hn, _ => by
    have : s = [] := List.length_eq_zero_iff.1 (by omega)
    subst this
    cases m <;> rfl
  | n + 1, 0, s, _, hm => by
    have : s = [] := List.length_eq_zero_iff.1 (by omega)
    subst this
    rfl
  | n + 1, m + 1, [], _, _ => rfl
  | n + 1, m + 1, c :: cs, hn, hm => by
    simp only [List.length_cons] at hn hm
    rw [subGo, subGo]
    rcases h : matchAt (c :: cs) with _ | ⟨g1, g2, r⟩
    · rw [Option.elim_none, Option.elim_none, sub_fuel n m cs (by omega) (by omega)]
    · obtain ⟨e, hne⟩ := match_parts h
      have el := congrArg List.length e
      have : 1 ≤ g2.length := List.length_pos_of_ne_nil hne
      simp only [List.length_cons, List.length_append] at el
      rw [Option.elim_some, Option.elim_some, sub_fuel n m r (by omega) (by omega)]

theorem sub_skip {c : Char} {cs : Line} (h : matchAt (c :: cs) = none) : endfSub (c :: cs) = c :: endfSub cs := by
  unfold endfSub
  rw [List.length_cons, subGo, h, Option.elim_none]

theorem sub_match {s g1 g2 r : Line} (h : matchAt s = some (g1, g2, r)) : endfSub s = g1 ++ 'e' :: g2 ++ endfSub r := by
  unfold endfSub
  obtain ⟨e, hne⟩ := match_parts h
  cases s with
  | nil => exact absurd h (by simp [matchAt])
  | cons c cs =>
    have el := congrArg List.length e
    have : 1 ≤ g2.length := List.length_pos_of_ne_nil hne
    simp only [List.length_cons, List.length_append] at el
    rw [List.length_cons, subGo, h, Option.elim_some, sub_fuel cs.length r.length r (by omega) le_rfl]

theorem sub_nil : endfSub [] = [] := rfl

/-- Digits followed by something other than a digit or a point are no match. -/
theorem body_none (o ds : Line) (hd : ∀ c ∈ ds, isDigit c = true) (r : Line) (hr : ∀ c r', r = c :: r' → isDigit c = false ∧ c ≠ '.') :
    matchBody o (ds ++ r) = none := by
  have h0 : digits (ds ++ r) = (ds, r) := by
    refine digits_run ds r hd ?_
    cases r with
    | nil => rfl
    | cons c r' => exact digits_stop (hr c r' rfl).1
  unfold matchBody
  rw [h0]
  cases r with
  | nil => rfl
  | cons c r' => simp [(hr c r' rfl).2]

/-- A decimal number followed by something other than a digit or a sign is no match. -/
theorem body_none' (o ip fp : Line) (hi : ∀ c ∈ ip, isDigit c = true) (hf : ∀ c ∈ fp, isDigit c = true) (r : Line)
    (hr : ∀ c r', r = c :: r' → isDigit c = false ∧ c ≠ '+' ∧ c ≠ '-') : matchBody o (ip ++ '.' :: (fp ++ r)) = none := by
  have h1 : digits (ip ++ '.' :: (fp ++ r)) = (ip, '.' :: (fp ++ r)) := digits_run _ _ hi (digits_stop isDigit_dot)
  have h2 : digits (fp ++ r) = (fp, r) := by
    refine digits_run fp r hf ?_
    cases r with
    | nil => rfl
    | cons c r' => exact digits_stop (hr c r' rfl).1
  unfold matchBody
  rw [h1]
  simp only [h2]
  cases r with
  | nil => simp
  | cons c r' =>
    have := hr c r' rfl
    simp [this.2.1, this.2.2]

theorem sub_digits (ds : Line) (hd : ∀ c ∈ ds, isDigit c = true) (r : Line) (hr : ∀ c r', r = c :: r' → isDigit c = false ∧ c ≠ '.') :
    endfSub (ds ++ r) = ds ++ endfSub r := by
  induction ds with
  | nil => rfl
  | cons d ds ih =>
    rw [List.cons_append, sub_skip, ih fun c hc => hd c (by simp [hc]), List.cons_append]
    rw [matchAt, if_neg (by rw [Endf.digit_not_lead (hd d (by simp))]; simp)]
    exact body_none [] (d :: ds) hd r hr

theorem sub_decimal (ip fp : Line) (hi : ∀ c ∈ ip, isDigit c = true) (hf : ∀ c ∈ fp, isDigit c = true) (r : Line)
    (hr : ∀ c r', r = c :: r' → isDigit c = false ∧ c ≠ '+' ∧ c ≠ '-' ∧ c ≠ '.') : endfSub (ip ++ '.' :: (fp ++ r)) = ip ++ '.' :: (fp ++ endfSub r) := by
  have hr' : ∀ c r', r = c :: r' → isDigit c = false ∧ c ≠ '+' ∧ c ≠ '-' := fun c r' e => ⟨(hr c r' e).1, (hr c r' e).2.1, (hr c r' e).2.2.1⟩
  induction ip with
  | nil =>
    rw [List.nil_append, List.nil_append, sub_skip, sub_digits fp hf r fun c r' e => ⟨(hr c r' e).1, (hr c r' e).2.2.2⟩]
    rw [matchAt, if_neg (by decide)]
    exact body_none' [] [] fp (by simp) hf r hr'
  | cons d ip ih =>
    rw [List.cons_append, sub_skip, ih fun c hc => hi c (by simp [hc]), List.cons_append]
    rw [matchAt, if_neg (by rw [Endf.digit_not_lead (hi d (by simp))]; simp)]
    exact body_none' [] (d :: ip) fp hi hf r hr'

/-- Whitespace in front of something that is neither digit nor point. -/
theorem sub_space {c : Char} {r : Line} (hc : isLead c = true) (hr : ∀ d r', r = d :: r' → isDigit d = false ∧ d ≠ '.') :
    endfSub (c :: r) = c :: endfSub r := by
  refine sub_skip ?_
  rw [matchAt, if_pos hc]
  have := body_none [c] [] (by simp) r hr
  simpa using this

theorem space_lead {c : Char} (h : isSpace c = true) : isLead c = true := by simp [isLead, h]

theorem space_not_digit {c : Char} (h : isSpace c = true) : isDigit c = false ∧ c ≠ '.' ∧ c ≠ '+' ∧ c ≠ '-' := by
  refine ⟨Endf.lead_not_digit (space_lead h), ?_, ?_, ?_⟩ <;> rintro rfl <;> exact absurd h (by decide)

theorem sub_spaces (g : Line) (hg : ∀ c ∈ g, isSpace c = true) (r : Line) (hr : ∀ d r', r = d :: r' → isDigit d = false ∧ d ≠ '.') :
    endfSub (g ++ r) = g ++ endfSub r := by
  induction g with
  | nil => rfl
  | cons c g ih =>
    rw [List.cons_append, sub_space (space_lead (hg c (by simp))), ih fun c hc => hg c (by simp [hc]), List.cons_append]
    intro d r' e
    cases g with
    | nil => exact hr d r' e
    | cons c' g =>
      simp only [List.cons_append, List.cons.injEq] at e
      have := space_not_digit (hg c' (by simp))
      rw [← e.1]
      exact ⟨this.1, this.2.1⟩

/-- The number with a letter. -/
def Written.fixed (x : Written) : Line :=
  signText x.sign ++ x.ip ++ '.' :: x.fp ++ (if x.letter then 'E' else 'e') :: (if x.negExp then '-' else '+') :: x.ep

theorem sign_lead (b : Bool) : isLead (if b then '-' else '+') = true ∧ isDigit (if b then '-' else '+') = false ∧ (if b then '-' else '+') ≠ '.' := by
  cases b <;> decide

theorem sign_text (s : Option Bool) : s = none ∧ signText s = [] ∨ ∃ b : Bool, s = some b ∧ signText s = [if b then '-' else '+'] := by
  rcases s with _ | (_ | _)
  · exact .inl ⟨rfl, rfl⟩
  · exact .inr ⟨false, rfl, rfl⟩
  · exact .inr ⟨true, rfl, rfl⟩

/-- Nothing or whitespace follows. -/
def Clean (r : Line) : Prop := ∀ c r', r = c :: r' → isSpace c = true

theorem clean_digits {r : Line} (h : Clean r) : digits r = ([], r) := by
  cases r with
  | nil => rfl
  | cons c r' => exact digits_stop (space_not_digit (h c r' rfl)).1

/-- One number with the whitespace before it. -/
theorem sub_number (x : Written) (hx : x.Ok) (g : Line) (hgn : g ≠ []) (hg : ∀ c ∈ g, isSpace c = true) (r : Line) (hr : Clean r) :
    endfSub (g ++ x.text ++ r) = g ++ x.fixed ++ endfSub r := by
  obtain ⟨hi, hf, he, hfn, hen⟩ := hx
  have hr' : ∀ c r', r = c :: r' → isDigit c = false ∧ c ≠ '.' := fun c r' e => ⟨(space_not_digit (hr c r' e)).1, (space_not_digit (hr c r' e)).2.1⟩
  obtain ⟨q, c, rfl⟩ : ∃ q c, g = q ++ [c] := by
    rcases List.eq_nil_or_concat g with h | ⟨q, c, h⟩
    · exact absurd h hgn
    · exact ⟨q, c, by simpa using h⟩
  have hc : isSpace c = true := hg c (by simp)
  have hq : ∀ c ∈ q, isSpace c = true := fun d hd => hg d (by simp [hd])
  have hcd := space_not_digit hc
  have hstep : ∀ w : Line, endfSub (q ++ c :: w) = q ++ endfSub (c :: w) := fun w =>
    sub_spaces q hq (c :: w) fun d r' e => by
      simp only [List.cons.injEq] at e
      rw [← e.1]
      exact ⟨hcd.1, hcd.2.1⟩
  unfold Written.text Written.fixed
  rcases hl : x.letter with _ | _
  · -- without the letter
    simp only [Bool.false_eq_true, if_false, List.append_nil]
    rcases sign_text x.sign with ⟨-, hs⟩ | ⟨b, -, hs⟩
    · have hm := match_core [c] x.ip x.fp x.ep r (if x.negExp then '-' else '+') (.inr ⟨c, rfl, space_lead hc⟩) hi hf he hfn hen
        (by cases x.negExp <;> simp) (clean_digits hr)
      have := hstep (x.ip ++ '.' :: x.fp ++ (if x.negExp then '-' else '+') :: x.ep ++ r)
      rw [hs]
      have e1 : q ++ [c] ++ ([] ++ x.ip ++ '.' :: x.fp ++ (if x.negExp then '-' else '+') :: x.ep) ++ r =
          q ++ c :: (x.ip ++ '.' :: x.fp ++ (if x.negExp then '-' else '+') :: x.ep ++ r) := by simp
      rw [e1, this]
      have e2 : c :: (x.ip ++ '.' :: x.fp ++ (if x.negExp then '-' else '+') :: x.ep ++ r) =
          [c] ++ x.ip ++ '.' :: x.fp ++ (if x.negExp then '-' else '+') :: x.ep ++ r := by simp
      rw [e2, sub_match hm]
      simp
    · have hm := match_core [if b then '-' else '+'] x.ip x.fp x.ep r (if x.negExp then '-' else '+') (.inr ⟨_, rfl, (sign_lead b).1⟩) hi hf he hfn hen
        (by cases x.negExp <;> simp) (clean_digits hr)
      have := hstep ([if b then '-' else '+'] ++ x.ip ++ '.' :: x.fp ++ (if x.negExp then '-' else '+') :: x.ep ++ r)
      rw [hs]
      have e1 : q ++ [c] ++ ([if b then '-' else '+'] ++ x.ip ++ '.' :: x.fp ++ (if x.negExp then '-' else '+') :: x.ep) ++ r =
          q ++ c :: ([if b then '-' else '+'] ++ x.ip ++ '.' :: x.fp ++ (if x.negExp then '-' else '+') :: x.ep ++ r) := by simp
      rw [e1, this, sub_space (space_lead hc), sub_match hm]
      · simp
      · intro d r' e
        simp only [List.cons_append, List.nil_append, List.cons.injEq] at e
        rw [← e.1]
        exact ⟨(sign_lead b).2.1, (sign_lead b).2.2⟩
  · -- with the letter
    simp only [if_true]
    have hE : ∀ w : Line, endfSub ('E' :: (if x.negExp then '-' else '+') :: w) = 'E' :: endfSub ((if x.negExp then '-' else '+') :: w) := fun w => by
      refine sub_skip ?_
      rw [matchAt, if_neg (by decide)]
      exact body_none [] [] (by simp) _ fun d r' e => by
        simp only [List.cons.injEq] at e
        rw [← e.1]
        decide
    have hsg : endfSub ((if x.negExp then '-' else '+') :: (x.ep ++ r)) = (if x.negExp then '-' else '+') :: (x.ep ++ endfSub r) := by
      rw [sub_skip, sub_digits x.ep he r hr']
      rw [matchAt, if_pos (sign_lead x.negExp).1]
      exact body_none _ x.ep he r hr'
    have hEr : ∀ c r', 'E' :: (if x.negExp then '-' else '+') :: (x.ep ++ r) = c :: r' → isDigit c = false ∧ c ≠ '+' ∧ c ≠ '-' ∧ c ≠ '.' := by
      intro d r' e
      simp only [List.cons.injEq] at e
      rw [← e.1]
      decide
    have hdec := sub_decimal x.ip x.fp hi hf ('E' :: (if x.negExp then '-' else '+') :: (x.ep ++ r)) hEr
    rw [hE, hsg] at hdec
    have hnone : ∀ o, matchBody o (x.ip ++ '.' :: (x.fp ++ 'E' :: (if x.negExp then '-' else '+') :: (x.ep ++ r))) = none := fun o =>
      body_none' o x.ip x.fp hi hf _ fun c r' e => ⟨(hEr c r' e).1, (hEr c r' e).2.1, (hEr c r' e).2.2.1⟩
    rcases sign_text x.sign with ⟨-, hs⟩ | ⟨b, -, hs⟩
    · rw [hs]
      have := hstep (x.ip ++ '.' :: (x.fp ++ 'E' :: (if x.negExp then '-' else '+') :: (x.ep ++ r)))
      rw [sub_skip (by rw [matchAt, if_pos (space_lead hc)]; exact hnone _), hdec] at this
      simpa using this
    · rw [hs]
      have := hstep ((if b then '-' else '+') :: (x.ip ++ '.' :: (x.fp ++ 'E' :: (if x.negExp then '-' else '+') :: (x.ep ++ r))))
      rw [sub_space (space_lead hc) (fun d r' e => by
        simp only [List.cons.injEq] at e
        rw [← e.1]
        exact ⟨(sign_lead b).2.1, (sign_lead b).2.2⟩), sub_skip (by rw [matchAt, if_pos (sign_lead b).1]; exact hnone _), hdec] at this
      simpa using this

/-- A text of numbers, each with whitespace before it, and whitespace behind them. -/
def textOf (f : Written → Line) (gaps : List Line) (xs : List Written) (tail : Line) : Line := (List.zipWith (fun g x => g ++ f x) gaps xs).flatten ++ tail

theorem textOf_clean (f : Written → Line) (tail : Line) (ht : ∀ c ∈ tail, isSpace c = true) : ∀ (gaps : List Line) (xs : List Written),
    (∀ g ∈ gaps, g ≠ [] ∧ ∀ c ∈ g, isSpace c = true) → Clean (textOf f gaps xs tail) := by
  intro gaps xs hg c r' e
  cases gaps with
  | nil =>
    simp only [textOf, List.zipWith_nil_left, List.flatten_nil, List.nil_append] at e
    exact ht c (by rw [e]; simp)
  | cons g gaps =>
    cases xs with
    | nil =>
      simp only [textOf, List.zipWith_nil_right, List.flatten_nil, List.nil_append] at e
      exact ht c (by rw [e]; simp)
    | cons x xs =>
      obtain ⟨hn, hs⟩ := hg g (by simp)
      cases g with
      | nil => exact absurd rfl hn
      | cons d g =>
        simp only [textOf, List.zipWith_cons_cons, List.flatten_cons, List.cons_append, List.cons.injEq] at e
        rw [← e.1]
        exact hs d (by simp)

theorem sub_text (tail : Line) (ht : ∀ c ∈ tail, isSpace c = true) : ∀ (gaps : List Line) (xs : List Written), gaps.length = xs.length →
    (∀ g ∈ gaps, g ≠ [] ∧ ∀ c ∈ g, isSpace c = true) → (∀ x ∈ xs, x.Ok) →
    endfSub (textOf Written.text gaps xs tail) = textOf Written.fixed gaps xs tail := by
  intro gaps
  induction gaps with
  | nil =>
    intro xs hl _ _
    have : xs = [] := List.length_eq_zero_iff.1 hl.symm
    subst this
    have := sub_spaces tail ht [] (by simp)
    rw [sub_nil] at this
    simpa [textOf] using this
  | cons g gaps ih =>
    intro xs hl hg hx
    cases xs with
    | nil => simp at hl
    | cons x xs =>
      have := sub_number x (hx x (by simp)) g (hg g (by simp)).1 (hg g (by simp)).2 (textOf Written.text gaps xs tail)
        (textOf_clean _ tail ht gaps xs fun g' h' => hg g' (by simp [h']))
      rw [ih xs (by simpa using hl) (fun g' h' => hg g' (by simp [h'])) (fun x' h' => hx x' (by simp [h']))] at this
      simpa [textOf] using this

theorem split_spaces (g : Line) (hg : ∀ c ∈ g, isSpace c = true) (r : Line) : split (g ++ r) = split r := by
  induction g with
  | nil => rfl
  | cons c g ih =>
    have := split_space [] (hg c (by simp)) (g ++ r)
    rw [List.nil_append] at this
    rw [List.cons_append, this, ih fun c hc => hg c (by simp [hc])]
    rfl

theorem split_clean {w r : Line} (hr : Clean r) : split (w ++ r) = split w ++ split r := by
  cases r with
  | nil => simp [split, splitGo, flush]
  | cons c r =>
    have hc := hr c r rfl
    have e1 := split_space w hc r
    have e2 := split_space [] hc r
    rw [List.nil_append] at e2
    rw [e1, e2]
    rfl

theorem split_text (f : Written → Line) (hf : ∀ x : Written, x.Ok → Word (f x)) (tail : Line) (ht : ∀ c ∈ tail, isSpace c = true) :
    ∀ (gaps : List Line) (xs : List Written), gaps.length = xs.length → (∀ g ∈ gaps, g ≠ [] ∧ ∀ c ∈ g, isSpace c = true) → (∀ x ∈ xs, x.Ok) →
    split (textOf f gaps xs tail) = xs.map f := by
  intro gaps
  induction gaps with
  | nil =>
    intro xs hl _ _
    have : xs = [] := List.length_eq_zero_iff.1 hl.symm
    subst this
    have := split_spaces tail ht []
    simpa [textOf, split, splitGo, flush] using this
  | cons g gaps ih =>
    intro xs hl hg hx
    cases xs with
    | nil => simp at hl
    | cons x xs =>
      have hi := ih xs (by simpa using hl) (fun g' h' => hg g' (by simp [h'])) (fun x' h' => hx x' (by simp [h']))
      have e : textOf f (g :: gaps) (x :: xs) tail = g ++ (f x ++ textOf f gaps xs tail) := by simp [textOf]
      rw [e, split_spaces g (hg g (by simp)).2, split_clean (textOf_clean _ tail ht gaps xs fun g' h' => hg g' (by simp [h'])), hi,
        split_word (hf x (hx x (by simp)))]
      rfl

/-! ### The values -/

theorem number_signed (sg : Option Bool) (u : Line) (v : ℚ) (r : Line) (hu : unsignedPart u = some (v, r))
    (hh : ∃ c u', u = c :: u' ∧ c ≠ '-' ∧ c ≠ '+') : number (signText sg ++ u) = some ((if sg = some true then -1 else 1) * v, r) := by
  obtain ⟨c, u', rfl, h1, h2⟩ := hh
  rcases sg with _ | (_ | _)
  · simp only [signText, List.nil_append, reduceCtorEq, if_false, one_mul]
    unfold number
    split
    · rename_i heq
      simp only [List.cons.injEq] at heq
      exact absurd heq.1 h1
    · rename_i heq
      simp only [List.cons.injEq] at heq
      exact absurd heq.1 h2
    · exact hu
  · simp [signText, number, hu]
  · simp [signText, number, hu]

theorem head_decimal (ip fp r : Line) (hi : ∀ c ∈ ip, isDigit c = true) : ∃ c u', ip ++ '.' :: fp ++ r = c :: u' ∧ c ≠ '-' ∧ c ≠ '+' := by
  cases ip with
  | nil => exact ⟨'.', _, rfl, by decide, by decide⟩
  | cons c ip =>
    have hc := hi c (by simp)
    refine ⟨c, _, rfl, ?_, ?_⟩ <;> rintro rfl <;> exact absurd hc (by decide)

theorem unsigned_letter (ip fp ep : Line) (l : Char) (hl : l = 'e' ∨ l = 'E') (ne : Bool) (hi : ∀ c ∈ ip, isDigit c = true)
    (hf : ∀ c ∈ fp, isDigit c = true) (he : ∀ c ∈ ep, isDigit c = true) (hfn : fp ≠ []) (hen : ep ≠ []) :
    unsignedPart (ip ++ '.' :: fp ++ l :: (if ne then '-' else '+') :: ep) =
      some ((natVal (ip ++ fp) : ℚ) * (10 : ℚ) ^ ((if ne then -(natVal ep : Int) else (natVal ep : Int)) - fp.length), []) := by
  have h1 : digits (ip ++ '.' :: (fp ++ l :: (if ne then '-' else '+') :: ep)) = (ip, '.' :: (fp ++ l :: (if ne then '-' else '+') :: ep)) :=
    digits_run _ _ hi (digits_stop isDigit_dot)
  have h2 : digits (fp ++ l :: (if ne then '-' else '+') :: ep) = (fp, l :: (if ne then '-' else '+') :: ep) :=
    digits_run _ _ hf (digits_stop (by rcases hl with rfl | rfl <;> decide))
  have h3 : digits ep = (ep, []) := by simpa using digits_run ep [] he rfl
  have h4 : expPart (l :: (if ne then '-' else '+') :: ep) = (if ne then -(natVal ep : Int) else (natVal ep : Int), []) := by
    cases ne <;> simp [expPart, h3, hen, hl]
  unfold unsignedPart
  rw [List.append_assoc, List.cons_append, h1]
  simp only [h2, h4]
  rw [if_neg (by tauto)]

theorem unsigned_bare (ip fp ep : Line) (ne : Bool) (hi : ∀ c ∈ ip, isDigit c = true) (hf : ∀ c ∈ fp, isDigit c = true) (hfn : fp ≠ []) :
    unsignedPart (ip ++ '.' :: fp ++ (if ne then '-' else '+') :: ep) =
      some ((natVal (ip ++ fp) : ℚ) * (10 : ℚ) ^ ((0 : Int) - fp.length), (if ne then '-' else '+') :: ep) := by
  have h1 : digits (ip ++ '.' :: (fp ++ (if ne then '-' else '+') :: ep)) = (ip, '.' :: (fp ++ (if ne then '-' else '+') :: ep)) :=
    digits_run _ _ hi (digits_stop isDigit_dot)
  have h2 : digits (fp ++ (if ne then '-' else '+') :: ep) = (fp, (if ne then '-' else '+') :: ep) := digits_run _ _ hf (digits_stop (sign_lead ne).2.1)
  have h4 : expPart ((if ne then '-' else '+') :: ep) = (0, (if ne then '-' else '+') :: ep) := by
    cases ne <;> simp [expPart]
  unfold unsignedPart
  rw [List.append_assoc, List.cons_append, h1]
  simp only [h2, h4]
  rw [if_neg (by tauto)]

theorem number_letter (x : Written) (hx : x.Ok) (l : Char) (hl : l = 'e' ∨ l = 'E') :
    number (signText x.sign ++ x.ip ++ '.' :: x.fp ++ l :: (if x.negExp then '-' else '+') :: x.ep) = some (x.value, []) := by
  obtain ⟨hi, hf, he, hfn, hen⟩ := hx
  have hu := unsigned_letter x.ip x.fp x.ep l hl x.negExp hi hf he hfn hen
  have := number_signed x.sign _ _ _ hu (head_decimal x.ip x.fp _ hi)
  rw [← List.append_assoc, ← List.append_assoc] at this
  rw [this]
  simp only [Option.some.injEq, Prod.mk.injEq, and_true]
  unfold Written.value Written.mantissa
  rw [zpow_sub₀ (by norm_num)]
  rcases x.negExp with _ | _
  · simp only [Bool.false_eq_true, if_false, zpow_natCast]
    ring
  · simp only [if_true, zpow_neg, zpow_natCast]
    field_simp

theorem number_fixed (x : Written) (hx : x.Ok) : number x.fixed = some (x.value, []) :=
  number_letter x hx _ (by cases x.letter <;> simp)

theorem number_with (x : Written) (hx : x.Ok) (hl : x.letter = true) : number x.text = some (x.value, []) := by
  have := number_letter x hx 'E' (.inr rfl)
  unfold Written.text
  rw [hl]
  simpa using this

theorem number_bare (x : Written) (hx : x.Ok) (hl : x.letter = false) :
    number x.text = some (x.mantissa, (if x.negExp then '-' else '+') :: x.ep) := by
  obtain ⟨hi, hf, he, hfn, hen⟩ := hx
  have hu := unsigned_bare x.ip x.fp x.ep x.negExp hi hf hfn
  have := number_signed x.sign _ _ _ hu (head_decimal x.ip x.fp _ hi)
  rw [← List.append_assoc, ← List.append_assoc] at this
  unfold Written.text
  rw [hl]
  simp only [Bool.false_eq_true, if_false, List.append_nil]
  rw [this]
  simp only [Option.some.injEq, Prod.mk.injEq, and_true]
  unfold Written.mantissa
  rw [zero_sub, zpow_neg, zpow_natCast]
  field_simp

theorem word_letter (x : Written) (hx : x.Ok) (l : Line) (hl : ∀ c ∈ l, isSpace c = false) :
    Word (signText x.sign ++ x.ip ++ '.' :: x.fp ++ l ++ (if x.negExp then '-' else '+') :: x.ep) := by
  obtain ⟨hi, hf, he, hfn, hen⟩ := hx
  refine ⟨by simp, ?_⟩
  intro c hc
  simp only [List.mem_append, List.mem_cons] at hc
  rcases hc with (((h | h) | (h | h)) | h) | (h | h)
  · rcases sign_text x.sign with ⟨-, e⟩ | ⟨b, -, e⟩
    · rw [e] at h
      exact absurd h (by simp)
    · rw [e, List.mem_singleton] at h
      subst h
      cases b <;> decide
  · exact isDigit_noSpace (hi c h)
  · subst h; decide
  · exact isDigit_noSpace (hf c h)
  · exact hl c h
  · subst h
    cases x.negExp <;> decide
  · exact isDigit_noSpace (he c h)

theorem word_text (x : Written) (hx : x.Ok) : Word x.text :=
  word_letter x hx _ (by cases x.letter <;> simp; decide)

theorem word_fixed (x : Written) (hx : x.Ok) : Word x.fixed := by
  have := word_letter x hx [if x.letter then 'E' else 'e'] (by cases x.letter <;> simp <;> decide)
  unfold Written.fixed
  simpa using this

/-! ### The array -/

theorem fromPieces_all (f : Written → Line) (hf : ∀ x : Written, x.Ok → number (f x) = some (x.value, [])) (xs : List Written) (hx : ∀ x ∈ xs, x.Ok) :
    fromPieces (xs.map f) = xs.map Written.value := by
  induction xs with
  | nil => rfl
  | cons x xs ih => simp [fromPieces, hf x (hx x (by simp)), ih fun y hy => hx y (by simp [hy])]

/-- The reading stops behind the first number without the letter. -/
theorem fromPieces_stop (pre post : List Written) (x : Written) (hx : ∀ y ∈ pre ++ x :: post, y.Ok) (hl : ∀ y ∈ pre, y.letter = true)
    (hb : x.letter = false) : fromPieces ((pre ++ x :: post).map Written.text) = pre.map Written.value ++ [x.mantissa] := by
  induction pre with
  | nil => simp [fromPieces, number_bare x (hx x (by simp)) hb]
  | cons y pre ih =>
    simp only [List.cons_append, List.map_cons, fromPieces, number_with y (hx y (by simp)) (hl y (by simp))]
    rw [ih (fun z hz => hx z (by simp at hz ⊢; tauto)) (fun z hz => hl z (by simp [hz]))]

/-- The text handed to numpy, as words, before and after the substitution. -/
theorem holds_words {xss : List Line} {xs : List Written} (h : Holds xss xs) :
    split ("0.0 ".toList ++ xss.flatten) = "0.0".toList :: xs.map Written.text ∧
      split (endfSub ("0.0 ".toList ++ xss.flatten)) = "0.0".toList :: xs.map Written.fixed := by
  obtain ⟨gaps, tail, hl, e, hg, ht, hx⟩ := h
  have e' : "0.0 ".toList ++ xss.flatten = "0.0".toList ++ ' ' :: textOf Written.text gaps xs tail := by
    rw [e]
    rfl
  rw [e']
  constructor
  · rw [split_space _ isSpace_blank, split_text _ word_text tail ht gaps xs hl hg hx]
    rfl
  · have hs : endfSub (' ' :: textOf Written.text gaps xs tail) = ' ' :: textOf Written.fixed gaps xs tail := by
      rw [sub_space (space_lead isSpace_blank), sub_text tail ht gaps xs hl hg hx]
      intro d r' e
      have := space_not_digit (textOf_clean Written.text tail ht gaps xs hg d r' e)
      exact ⟨this.1, this.2.1⟩
    have hz := sub_decimal ['0'] ['0'] (by simp; decide) (by simp; decide) (' ' :: textOf Written.text gaps xs tail)
      (fun c r' e => by
        simp only [List.cons.injEq] at e
        rw [← e.1]
        decide)
    rw [hs] at hz
    have e2 : "0.0".toList ++ ' ' :: textOf Written.text gaps xs tail = ['0'] ++ '.' :: (['0'] ++ ' ' :: textOf Written.text gaps xs tail) := rfl
    have e3 : ['0'] ++ '.' :: (['0'] ++ ' ' :: textOf Written.fixed gaps xs tail) = "0.0".toList ++ ' ' :: textOf Written.fixed gaps xs tail := rfl
    rw [e2, hz, e3, split_space _ isSpace_blank, split_text _ word_fixed tail ht gaps xs hl hg hx]
    rfl

/-- C76: what the array is, for any numbers with or without the letter: right unless the last number is the only one without it, in which case its
power of ten is lost. -/
theorem readXss_holds {xss : List Line} {xs : List Written} (h : Holds xss xs) :
    readXss xs.length ("0.0 ".toList ++ xss.flatten) = .ok (0 :: (match xs.getLast? with
      | none => []
      | some x => if x.letter = false ∧ ∀ y ∈ xs.dropLast, y.letter = true then xs.dropLast.map Written.value ++ [x.mantissa] else xs.map Written.value)) := by
  obtain ⟨w1, w2⟩ := holds_words h
  obtain ⟨-, -, -, -, -, -, hx⟩ := h
  have n2 : npFloats (endfSub ("0.0 ".toList ++ xss.flatten)) = 0 :: xs.map Written.value := by
    rw [npFloats, w2, fromPieces, zero_numeral, fromPieces_all _ number_fixed xs hx]
  by_cases hall : ∀ x ∈ xs, x.letter = true
  · have n1 : npFloats ("0.0 ".toList ++ xss.flatten) = 0 :: xs.map Written.value := by
      rw [npFloats, w1, fromPieces, zero_numeral]
      have : xs.map Written.text = xs.map Written.fixed := by
        refine List.map_congr_left fun x hm => ?_
        simp [Written.text, Written.fixed, hall x hm]
      rw [this, fromPieces_all _ number_fixed xs hx]
    unfold readXss
    simp only [n1]
    rw [if_neg (by simp)]
    rcases List.eq_nil_or_concat xs with rfl | ⟨q, x, rfl⟩
    · rfl
    · simp only [List.concat_eq_append, List.getLast?_append, List.getLast?_singleton, Option.some_or]
      rw [if_neg]
      rintro ⟨hb, -⟩
      rw [hall x (by simp)] at hb
      exact absurd hb (by decide)
  · -- the first one without the letter
    obtain ⟨pre, x, post, rfl, hp, hb⟩ : ∃ pre x post, xs = pre ++ x :: post ∧ (∀ y ∈ pre, y.letter = true) ∧ x.letter = false := by
      clear n2 w1 w2 hx
      induction xs with
      | nil => simp at hall
      | cons y ys ih =>
        by_cases hy : y.letter = true
        · have : ¬ ∀ x ∈ ys, x.letter = true := by
            intro h'
            exact hall fun z hz => by
              rcases List.mem_cons.1 hz with rfl | hz
              · exact hy
              · exact h' z hz
          obtain ⟨pre, x, post, rfl, hp, hb⟩ := ih this
          exact ⟨y :: pre, x, post, rfl, by
            intro z hz
            rcases List.mem_cons.1 hz with rfl | hz
            · exact hy
            · exact hp z hz, hb⟩
        · exact ⟨[], y, ys, rfl, by simp, by simpa using hy⟩
    have n1 : npFloats ("0.0 ".toList ++ xss.flatten) = 0 :: (pre.map Written.value ++ [x.mantissa]) := by
      rw [npFloats, w1, fromPieces, zero_numeral, fromPieces_stop pre post x hx hp hb]
    unfold readXss
    simp only [n1, n2]
    rcases List.eq_nil_or_concat post with rfl | ⟨q, z, rfl⟩
    · rw [if_neg (by simp)]
      simp only [List.getLast?_append, List.getLast?_singleton, Option.some_or, List.dropLast_concat]
      rw [if_pos ⟨hb, hp⟩]
    · rw [if_pos (by simp; omega), if_pos (by simp)]
      have e : pre ++ x :: (q.concat z) = (pre ++ x :: q) ++ [z] := by simp
      rw [e]
      simp only [List.getLast?_append, List.getLast?_singleton, Option.some_or, List.dropLast_concat]
      rw [if_neg]
      rintro ⟨-, h2⟩
      have := h2 x (by simp)
      rw [hb] at this
      exact absurd this (by decide)

/-- C76, the part that holds: a table in which the last number has the letter E, or some other number lacks it too, is read with the exact values of all
numbers, whatever their exponents. -/
theorem C76_values_partial (t : Table ℚ) (start xss : List Line) (xs : List Written) (hs : AsciiStart t start) (hm : xss.length = (t.xss.length + 3) / 4)
    (he : Even xss) (hh : Holds xss xs) (hv : t.xss = xs.map Written.value)
    (hok : ∀ x, xs.getLast? = some x → x.letter = false → ∃ y ∈ xs.dropLast, y.letter = false) (ts : List (Table ℚ)) (texts : List (List Line))
    (hts : List.Forall₂ AsciiTable ts texts) (tail : List Line) (ht : strip (tail.headD []) = []) :
    library none (start ++ xss ++ (texts.flatten ++ tail)) = .ok (t :: ts) := by
  have ev := readXss_holds hh
  have hl : t.xss.length = xs.length := by rw [hv, List.length_map]
  have e : (match xs.getLast? with
      | none => []
      | some x => if x.letter = false ∧ ∀ y ∈ xs.dropLast, y.letter = true then xs.dropLast.map Written.value ++ [x.mantissa] else xs.map Written.value) =
      t.xss := by
    rcases hx : xs.getLast? with _ | x
    · rw [hv, List.getLast?_eq_none_iff.1 hx]
      rfl
    · simp only
      rw [if_neg, hv]
      rintro ⟨h1, h2⟩
      obtain ⟨y, hy, hy'⟩ := hok x hx h1
      rw [h2 y hy] at hy'
      exact absurd hy' (by decide)
  rw [e, ← hl] at ev
  have := readAscii_values hs hm he ev none [] (texts.flatten ++ tail) ((start ++ xss ++ (texts.flatten ++ tail)).length) (by simp)
  unfold library
  rw [this]
  have hsl : 0 < start.length := by
    obtain ⟨l0, l1, c, p, n, j, rfl, -⟩ := hs
    simp
  have hrest := read_tables none hts tail ht (by simp) ((start ++ xss ++ (texts.flatten ++ tail)).length - 1) [t.name]
    (by
      have := texts_length hts
      simp only [List.length_append]
      omega) (by simp)
  rw [Nat.sub_add_cancel (by simp only [List.length_append]; omega)] at hrest
  rw [hrest]
  rfl

/-- C76 is false: if the last number of a table is the only one without the letter, its power of ten is lost: 1.0-120 is read as 1. -/
theorem C76_last_refuted (t : Table ℚ) (start xss : List Line) (pre : List Written) (x : Written) (hs : AsciiStart t start)
    (hm : xss.length = (t.xss.length + 3) / 4) (he : Even xss) (hh : Holds xss (pre ++ [x])) (hl : t.xss.length = pre.length + 1)
    (hp : ∀ y ∈ pre, y.letter = true) (hx : x.letter = false) (tail : List Line) (ht : strip (tail.headD []) = []) :
    library none (start ++ xss ++ tail) = .ok [{ t with xss := pre.map Written.value ++ [x.mantissa] }] := by
  have ev := readXss_holds hh
  simp only [List.getLast?_append, List.getLast?_singleton, Option.some_or, List.dropLast_concat] at ev
  rw [if_pos ⟨hx, hp⟩, show ((pre ++ [x]).length : Int) = (t.xss.length : Int) by simp [hl]] at ev
  have := readAscii_values hs hm he ev none [] tail ((start ++ xss ++ tail).length) (by simp)
  unfold library
  rw [this, blank_end none _ _ tail ht]
  rfl

/-- The small file, with the last number too small for the letter. -/
example : ∃ pre x, Holds ["  1.00000000000E-11  1.03125000000E-11  1.06250000000-101  1.09375000000E-11\n".toList, "  20.0000000000E+00  -2.5000000000-120\n".toList]
    (pre ++ [x]) ∧ x.letter = false ∧ ∃ y ∈ pre, y.letter = false := by
  refine ⟨[⟨none, ['1'], "00000000000".toList, true, true, "11".toList⟩, ⟨none, ['1'], "03125000000".toList, true, true, "11".toList⟩,
    ⟨none, ['1'], "06250000000".toList, false, true, "101".toList⟩, ⟨none, ['1'], "09375000000".toList, true, true, "11".toList⟩,
    ⟨none, "20".toList, "0000000000".toList, true, false, "00".toList⟩], ⟨some true, ['2'], "5000000000".toList, false, true, "120".toList⟩,
    ⟨["  ".toList, "  ".toList, "  ".toList, "  ".toList, "\n  ".toList, "  ".toList], "\n".toList, rfl, by decide +kernel, by decide +kernel, by decide +kernel, ?_⟩,
    rfl, ⟨none, ['1'], "06250000000".toList, false, true, "101".toList⟩, by simp, rfl⟩
  simp only [List.cons_append, List.nil_append, List.mem_cons, List.not_mem_nil, or_false, forall_eq_or_imp, forall_eq, Written.Ok]
  decide +kernel

/-- Only the last: its value is 1e-120, the program reads 1. -/
example : ∃ x : Written, Holds [" 1.0E-11 2.0E+00 1.0E-11 3.0E-11\n".toList, " 1.0-120\n".toList]
    ([⟨none, ['1'], ['0'], true, true, "11".toList⟩, ⟨none, ['2'], ['0'], true, false, "00".toList⟩, ⟨none, ['1'], ['0'], true, true, "11".toList⟩,
      ⟨none, ['3'], ['0'], true, true, "11".toList⟩] ++ [x]) ∧ x.letter = false ∧ x.mantissa = 1 ∧ x.value = 1 / 10 ^ 120 := by
  refine ⟨⟨none, ['1'], ['0'], false, true, "120".toList⟩, ⟨[" ".toList, " ".toList, " ".toList, " ".toList, "\n ".toList], "\n".toList, rfl, by decide +kernel,
    by decide +kernel, by decide +kernel, ?_⟩, rfl, by decide +kernel, by decide +kernel⟩
  simp only [List.cons_append, List.nil_append, List.mem_cons, List.not_mem_nil, or_false, forall_eq_or_imp, forall_eq, Written.Ok]
  decide +kernel

end ASAPy.AceData
