import Verif.Endf.Spec
import Verif.Boxer.Props
import Mathlib.Tactic.FieldSimp
import Mathlib.Tactic.Ring

/-! # C55-C57, C70-C73: the ENDF reader -/

set_option linter.unusedSimpArgs false

namespace ASAPy.Endf
open ASAPy.Str ASAPy.Dec ASAPy.Boxer

/-! ### C55: numbers -/

theorem digits_run (ds t : List Char) (h : ∀ c ∈ ds, isDigit c = true) (ht : digits t = ([], t)) : digits (ds ++ t) = (ds, t) := by
  induction ds with
  | nil => simpa using ht
  | cons c ds ih =>
    rw [List.cons_append, digits_cons (h c (by simp)), ih fun d hd => h d (by simp [hd])]

theorem digits_spec (s : List Char) : s = (digits s).1 ++ (digits s).2 ∧ (∀ c ∈ (digits s).1, isDigit c = true) := by
  induction s with
  | nil => simp [digits_nil]
  | cons c s ih =>
    rcases h : isDigit c with _ | _
    · rw [digits_stop h]
      simp
    · rw [digits_cons h]
      refine ⟨by simpa using ih.1, ?_⟩
      intro d hd
      simp only [List.mem_cons] at hd
      rcases hd with rfl | hd
      · exact h
      · exact ih.2 d hd

theorem lead_not_digit {c : Char} (h : isLead c = true) : isDigit c = false := by
  rcases hd : isDigit c with _ | _
  · rfl
  · have := isDigit_noSpace hd
    simp only [isLead, this, Bool.false_or, Bool.or_eq_true, decide_eq_true_eq] at h
    rcases h with rfl | rfl <;> exact absurd hd (by decide)

theorem digit_not_lead {c : Char} (h : isDigit c = true) : isLead c = false := by
  rcases hl : isLead c with _ | _
  · rfl
  · rw [lead_not_digit hl] at h
    exact absurd h (by decide)

theorem match_core (o ip fp ep rest : List Char) (e : Char) (ho : o = [] ∨ ∃ c, o = [c] ∧ isLead c = true)
    (hi : ∀ c ∈ ip, isDigit c = true) (hf : ∀ c ∈ fp, isDigit c = true) (he : ∀ c ∈ ep, isDigit c = true) (hfn : fp ≠ []) (hen : ep ≠ [])
    (hs : e = '+' ∨ e = '-') (hr : digits rest = ([], rest)) :
    matchAt (o ++ ip ++ '.' :: fp ++ e :: ep ++ rest) = some (o ++ ip ++ '.' :: fp, e :: ep, rest) := by
  have hes : isDigit e = false := by rcases hs with rfl | rfl <;> decide
  have h1 : digits (ip ++ '.' :: (fp ++ e :: (ep ++ rest))) = (ip, '.' :: (fp ++ e :: (ep ++ rest))) :=
    digits_run _ _ hi (digits_stop isDigit_dot)
  have h2 : digits (fp ++ e :: (ep ++ rest)) = (fp, e :: (ep ++ rest)) := digits_run _ _ hf (digits_stop hes)
  have h3 : digits (ep ++ rest) = (ep, rest) := digits_run _ _ he hr
  have hb : matchBody o (ip ++ '.' :: (fp ++ e :: (ep ++ rest))) = some (o ++ ip ++ '.' :: fp, e :: ep, rest) := by
    unfold matchBody
    rw [h1]
    simp only [h2, h3]
    rw [if_pos ⟨trivial, hfn⟩, if_pos ⟨hs, hen⟩]
  rcases ho with rfl | ⟨c, rfl, hc⟩
  · cases ip with
    | nil =>
      have hd : isLead '.' = false := by decide
      simp only [List.nil_append, List.append_assoc, List.cons_append, matchAt, hd, Bool.false_eq_true, if_false] at hb ⊢
      exact hb
    | cons c ip =>
      have hd := digit_not_lead (hi c (by simp))
      simp only [List.nil_append, List.append_assoc, List.cons_append, matchAt, hd, Bool.false_eq_true, if_false] at hb ⊢
      exact hb
  · simp only [List.nil_append, List.append_assoc, List.cons_append, matchAt, hc, if_true] at hb ⊢
    exact hb

theorem body_sign {o s g1 g2 rest : List Char} (h : matchBody o s = some (g1, g2, rest)) : SignBetweenDigits s := by
  unfold matchBody at h
  split at h
  · exact absurd h (by simp)
  · rename_i p s3 e3
    split at h
    · rename_i hp
      split at h
      · exact absurd h (by simp)
      · rename_i c s5 e5
        split at h
        · rename_i hc
          obtain ⟨i1, i2⟩ := digits_spec s
          obtain ⟨f1, f2⟩ := digits_spec s3
          obtain ⟨p1, p2⟩ := digits_spec s5
          obtain ⟨d', r', hd'⟩ := List.exists_cons_of_ne_nil hc.2
          rcases List.eq_nil_or_concat (digits s3).1 with hn | ⟨q, d, hq⟩
          · exact absurd hn hp.2
          · refine ⟨(digits s).1 ++ p :: q, d, c, d', r' ++ (digits s5).2, ?_, ?_, hc.1, ?_⟩
            · rw [hq] at f1
              rw [hd'] at p1
              conv_lhs => rw [i1, e3, f1, e5, p1]
              simp
            · exact f2 d (by rw [hq]; simp)
            · exact p2 d' (by rw [hd']; simp)
        · exact absurd h (by simp)
    · exact absurd h (by simp)

/-- A match means a sign between two digits. -/
theorem match_sign {s g1 g2 rest : List Char} (h : matchAt s = some (g1, g2, rest)) : SignBetweenDigits s := by
  cases s with
  | nil => exact absurd h (by simp [matchAt])
  | cons c r =>
    rw [matchAt] at h
    split at h
    · obtain ⟨a, d, e, d', b, rfl, h'⟩ := body_sign h
      exact ⟨c :: a, d, e, d', b, rfl, h'⟩
    · exact body_sign h

theorem sub_id : ∀ (n : Nat) (s : List Char), ¬ SignBetweenDigits s → subGo n s = s := by
  intro n
  induction n with
  | zero => intro s _; rfl
  | succ n ih =>
    intro s h
    cases s with
    | nil => rfl
    | cons c cs =>
      rw [subGo]
      have hm : matchAt (c :: cs) = none := by
        rcases hm : matchAt (c :: cs) with _ | ⟨g1, g2, r⟩
        · rfl
        · exact absurd (match_sign hm) h
      rw [hm, Option.elim_none, ih]
      rintro ⟨a, d, e, d', b, rfl, h1, h2, h3⟩
      exact h ⟨c :: a, d, e, d', b, rfl, h1, h2, h3⟩

/-- C55 (other texts): a text without a sign directly between two digits (in particular every number with the letter E, every integer and every
plain decimal number) is read by `float_endf` as by `float`. -/
theorem C55_others (s : List Char) (h : ¬ SignBetweenDigits s) : floatEndf s = pyFloat s := by
  rw [floatEndf, endfSub, sub_id _ _ h]

theorem blank_step (s : List Char) (h : matchAt s = none) (n : Nat) (c : Char) (cs : List Char) (e : s = c :: cs) :
    subGo (n + 1) s = c :: subGo n cs := by
  subst e
  rw [subGo, h, Option.elim_none]

/-- A blank in front of something other than a digit or a point is no match. -/
theorem match_blank (c : Char) (r : List Char) (hc : isDigit c = false) (hd : c ≠ '.') : matchAt (' ' :: c :: r) = none := by
  have hl : isLead ' ' = true := by decide
  rw [matchAt, if_pos hl, matchBody, digits_stop hc]
  simp only [hd, false_and, if_false]

theorem subGo_nil (n : Nat) : subGo n [] = [] := by cases n <;> rfl

/-- Blanks alone are not changed. -/
theorem sub_blanks (n k : Nat) : subGo n (List.replicate k ' ') = List.replicate k ' ' := by
  refine sub_id _ _ ?_
  rintro ⟨a, d, e, d', b, h, h1, -, -⟩
  have : d ∈ List.replicate k ' ' := by rw [h]; simp
  rw [List.eq_of_mem_replicate this] at h1
  exact absurd h1 (by decide)

theorem sub_body (x : Num) (hx : x.Ok) (o : List Char) (ho : o = [] ∨ ∃ c, o = [c] ∧ isLead c = true) (n : Nat) :
    subGo (n + 1) (o ++ x.ip ++ '.' :: x.fp ++ (if x.negExp then '-' else '+') :: x.ep ++ List.replicate x.post ' ') =
      o ++ x.ip ++ '.' :: x.fp ++ 'e' :: (if x.negExp then '-' else '+') :: x.ep ++ List.replicate x.post ' ' := by
  have hm := match_core o x.ip x.fp x.ep (List.replicate x.post ' ') (if x.negExp then '-' else '+') ho hx.1 hx.2.1 hx.2.2.1 hx.2.2.2.1
    hx.2.2.2.2 (by cases x.negExp <;> simp) (by
      cases x.post with
      | zero => rfl
      | succ k => exact digits_stop (by decide))
  generalize hs : o ++ x.ip ++ '.' :: x.fp ++ (if x.negExp then '-' else '+') :: x.ep ++ List.replicate x.post ' ' = s at hm ⊢
  cases s with
  | nil =>
    have := congrArg List.length hs
    simp at this
  | cons c cs =>
    rw [subGo, hm, Option.elim_some]
    simp [sub_blanks]

/-- The letter is inserted. -/
theorem sub_num (x : Num) (hx : x.Ok) :
    endfSub x.text = List.replicate x.pre ' ' ++ signText x.sign ++ x.ip ++ '.' :: x.fp ++ 'e' :: (if x.negExp then '-' else '+') :: x.ep ++
      List.replicate x.post ' ' := by
  have key : ∀ (k n : Nat), k < n → subGo n (List.replicate k ' ' ++ signText x.sign ++ x.ip ++ '.' :: x.fp ++
      (if x.negExp then '-' else '+') :: x.ep ++ List.replicate x.post ' ') =
      List.replicate k ' ' ++ signText x.sign ++ x.ip ++ '.' :: x.fp ++ 'e' :: (if x.negExp then '-' else '+') :: x.ep ++
      List.replicate x.post ' ' := by
    intro k
    induction k with
    | zero =>
      intro n hn
      obtain ⟨n, rfl⟩ : ∃ m, n = m + 1 := ⟨n - 1, by omega⟩
      have := sub_body x hx (signText x.sign) (by
        rcases x.sign with _ | (_ | _)
        · exact Or.inl rfl
        · exact Or.inr ⟨'+', rfl, by decide⟩
        · exact Or.inr ⟨'-', rfl, by decide⟩) n
      simpa using this
    | succ k ih =>
      intro n hn
      obtain ⟨n, rfl⟩ : ∃ m, n = m + 1 := ⟨n - 1, by omega⟩
      by_cases hlast : k = 0 ∧ x.sign = none
      · obtain ⟨rfl, hsg⟩ := hlast
        have := sub_body x hx [' '] (Or.inr ⟨' ', rfl, by decide⟩) n
        simpa [hsg, signText] using this
      · have hne : ∃ c r, List.replicate k ' ' ++ signText x.sign ++ x.ip ++ '.' :: x.fp ++
            (if x.negExp then '-' else '+') :: x.ep ++ List.replicate x.post ' ' = c :: r ∧ isDigit c = false ∧ c ≠ '.' := by
          cases k with
          | succ k => exact ⟨' ', _, by rw [List.replicate_succ]; rfl, by decide, by decide⟩
          | zero =>
            rcases hsg : x.sign with _ | (_ | _)
            · exact absurd ⟨rfl, hsg⟩ hlast
            · exact ⟨'+', _, rfl, by decide, by decide⟩
            · exact ⟨'-', _, rfl, by decide, by decide⟩
        obtain ⟨c, r, e, h1, h2⟩ := hne
        have e' : List.replicate (k + 1) ' ' ++ signText x.sign ++ x.ip ++ '.' :: x.fp ++
            (if x.negExp then '-' else '+') :: x.ep ++ List.replicate x.post ' ' = ' ' :: c :: r := by
          rw [← e, List.replicate_succ]
          rfl
        rw [e', blank_step _ (match_blank c r h1 h2) n _ _ rfl, ← e, ih n (by omega), List.replicate_succ]
        rfl
  unfold endfSub Num.text
  refine key x.pre _ ?_
  simp only [List.length_append, List.length_replicate, List.length_cons]
  omega

theorem dropWhile_blanks (k : Nat) (s : List Char) (h : ∀ c r, s = c :: r → isSpace c = false) :
    (List.replicate k ' ' ++ s).dropWhile isSpace = s := by
  induction k with
  | zero =>
    cases s with
    | nil => rfl
    | cons c r => simp [h c r rfl]
  | succ k ih =>
    rw [List.replicate_succ, List.cons_append, List.dropWhile_cons, if_pos (by decide), ih]

/-- Blanks around a text are stripped. -/
theorem strip_blanks (j k : Nat) (s : List Char) (c d : Char) (r q : List Char) (h1 : s = c :: r) (h2 : s = q ++ [d])
    (hc : isSpace c = false) (hd : isSpace d = false) : strip (List.replicate j ' ' ++ s ++ List.replicate k ' ') = s := by
  unfold strip
  rw [List.append_assoc, dropWhile_blanks]
  · rw [List.reverse_append, List.reverse_replicate, dropWhile_blanks]
    · simp
    · intro c' r' he
      rw [h2] at he
      simp only [List.reverse_append, List.reverse_cons, List.reverse_nil, List.nil_append, List.cons_append, List.cons.injEq] at he
      rw [← he.1]
      exact hd
  · intro c' r' he
    rw [h1] at he
    simp only [List.cons_append, List.cons.injEq] at he
    rw [← he.1]
    exact hc

theorem unsigned_e (ip fp ep : List Char) (ne : Bool) {L : Char} (hL : L = 'e' ∨ L = 'E') (hi : ∀ c ∈ ip, isDigit c = true) (hf : ∀ c ∈ fp, isDigit c = true)
    (he : ∀ c ∈ ep, isDigit c = true) (hfn : fp ≠ []) (hen : ep ≠ []) :
    unsignedPart (ip ++ '.' :: fp ++ L :: (if ne then '-' else '+') :: ep) =
      some ((natVal (ip ++ fp) : ℚ) * (10 : ℚ) ^ ((if ne then -(natVal ep : Int) else (natVal ep : Int)) - fp.length), []) := by
  have h1 : digits (ip ++ '.' :: (fp ++ L :: (if ne then '-' else '+') :: ep)) = (ip, '.' :: (fp ++ L :: (if ne then '-' else '+') :: ep)) :=
    digits_run _ _ hi (digits_stop isDigit_dot)
  have h2 : digits (fp ++ L :: (if ne then '-' else '+') :: ep) = (fp, L :: (if ne then '-' else '+') :: ep) :=
    digits_run _ _ hf (digits_stop (by rcases hL with rfl | rfl <;> decide))
  have h3 : digits ep = (ep, []) := by simpa using digits_run ep [] he rfl
  have h4 : expPart (L :: (if ne then '-' else '+') :: ep) = (if ne then -(natVal ep : Int) else (natVal ep : Int), []) := by
    cases ne <;> simp [expPart, h3, hen, hL]
  unfold unsignedPart
  rw [List.append_assoc, List.cons_append, h1]
  simp only [h2, h4]
  rw [if_neg (by tauto)]

/-- `float` of a number with a letter in front of the exponent. -/
theorem pyFloat_letter (x : Num) (hx : x.Ok) {L : Char} (hL : L = 'e' ∨ L = 'E') : pyFloat (x.letterText L) = .ok x.value := by
  have hx' := hx
  obtain ⟨hi, hf, he, hfn, hen⟩ := hx'
  rw [Num.letterText, pyFloat]
  have hbody : strip (List.replicate x.pre ' ' ++ signText x.sign ++ x.ip ++ '.' :: x.fp ++ L :: (if x.negExp then '-' else '+') :: x.ep ++
      List.replicate x.post ' ') = signText x.sign ++ (x.ip ++ '.' :: x.fp ++ L :: (if x.negExp then '-' else '+') :: x.ep) := by
    obtain ⟨q, d, hq⟩ : ∃ q d, x.ep = q ++ [d] := by
      rcases List.eq_nil_or_concat x.ep with h | ⟨q, d, h⟩
      · exact absurd h hen
      · exact ⟨q, d, by simpa using h⟩
    have hd : isSpace d = false := isDigit_noSpace (he d (by rw [hq]; simp))
    have hhead : ∃ c r, signText x.sign ++ (x.ip ++ '.' :: x.fp ++ L :: (if x.negExp then '-' else '+') :: x.ep) = c :: r ∧ isSpace c = false := by
      rcases x.sign with _ | (_ | _)
      · rcases hip : x.ip with _ | ⟨c, r⟩
        · exact ⟨'.', _, rfl, by decide⟩
        · exact ⟨c, _, rfl, isDigit_noSpace (hi c (by rw [hip]; simp))⟩
      · exact ⟨'+', _, rfl, by decide⟩
      · exact ⟨'-', _, rfl, by decide⟩
    obtain ⟨c, r, hcr, hc⟩ := hhead
    have := strip_blanks x.pre x.post _ c d r (signText x.sign ++ (x.ip ++ '.' :: x.fp ++ L :: (if x.negExp then '-' else '+') :: q)) hcr
      (by rw [hq]; simp) hc hd
    rw [← this]
    simp
  rw [hbody]
  have hu := unsigned_e x.ip x.fp x.ep x.negExp hL hi hf he hfn hen
  have hval : (natVal (x.ip ++ x.fp) : ℚ) * (10 : ℚ) ^ ((if x.negExp then -(natVal x.ep : Int) else (natVal x.ep : Int)) - x.fp.length) =
      ((natVal (x.ip ++ x.fp) : ℕ) : ℚ) / 10 ^ x.fp.length * (if x.negExp then 1 / (10 : ℚ) ^ natVal x.ep else (10 : ℚ) ^ natVal x.ep) := by
    rw [zpow_sub₀ (by norm_num)]
    rcases x.negExp with _ | _
    · simp only [Bool.false_eq_true, if_false, zpow_natCast]
      ring
    · simp only [if_true, zpow_neg, zpow_natCast]
      field_simp
  have hnum : number (signText x.sign ++ (x.ip ++ '.' :: x.fp ++ L :: (if x.negExp then '-' else '+') :: x.ep)) = some (x.value, []) := by
    unfold Num.value
    rcases x.sign with _ | (_ | _)
    · have hh : ∀ r, signText none ++ (x.ip ++ '.' :: x.fp ++ L :: (if x.negExp then '-' else '+') :: x.ep) ≠ '-' :: r ∧
          signText none ++ (x.ip ++ '.' :: x.fp ++ L :: (if x.negExp then '-' else '+') :: x.ep) ≠ '+' :: r := by
        intro r
        rcases hip : x.ip with _ | ⟨c, r'⟩
        · simp [signText]
        · have := hi c (by rw [hip]; simp)
          constructor
          · intro h
            simp only [signText, List.nil_append, List.cons_append, List.cons.injEq] at h
            rw [h.1] at this
            exact absurd this (by decide)
          · intro h
            simp only [signText, List.nil_append, List.cons_append, List.cons.injEq] at h
            rw [h.1] at this
            exact absurd this (by decide)
      unfold number
      split
      · rename_i heq; exact absurd heq (hh _).1
      · rename_i heq; exact absurd heq (hh _).2
      · rw [signText, List.nil_append, hu, hval]
        simp
    · simp only [signText, List.cons_append, List.nil_append, number]
      rw [hu, hval]
      simp
    · simp only [signText, List.cons_append, List.nil_append, number]
      rw [hu, hval]
      simp only [Option.map_some, if_true]
      congr 2
      ring
  rw [hnum]

/-- C55: every number in the ENDF form, with any digits, signs and surrounding blanks, is read as its value. -/
theorem C55_value (x : Num) (hx : x.Ok) : floatEndf x.text = .ok x.value := by
  rw [floatEndf, sub_num x hx]
  exact pyFloat_letter x hx (Or.inl rfl)

theorem between_cons {c : Char} {l : List Char} (hc : isDigit c = false) (h : SignBetweenDigits (c :: l)) : SignBetweenDigits l := by
  obtain ⟨a, d, e, d', b, h, h1, h2, h3⟩ := h
  cases a with
  | nil =>
    simp only [List.nil_append, List.cons.injEq] at h
    rw [← h.1, hc] at h1
    exact absurd h1 (by decide)
  | cons z a =>
    simp only [List.cons_append, List.cons.injEq] at h
    exact ⟨a, d, e, d', b, h.2, h1, h2, h3⟩

/-- Signs between digits of a text whose first part has no sign and ends with a letter are in the second part. -/
theorem between_letter {u v : List Char} {L : Char} (hu : ∀ c ∈ u, c ≠ '+' ∧ c ≠ '-') (hL : L ≠ '+' ∧ L ≠ '-') (hd : isDigit L = false)
    (h : SignBetweenDigits (u ++ L :: v)) : SignBetweenDigits v := by
  induction u with
  | nil => exact between_cons hd h
  | cons z u ih =>
    refine ih (fun c hc => hu c (by simp [hc])) ?_
    obtain ⟨a, d, e, d', b, h, h1, h2, h3⟩ := h
    cases a with
    | nil =>
      simp only [List.nil_append, List.cons_append, List.cons.injEq] at h
      exfalso
      cases u with
      | nil =>
        simp only [List.nil_append, List.cons.injEq] at h
        rw [← h.2.1] at h2
        tauto
      | cons w u =>
        simp only [List.cons_append, List.cons.injEq] at h
        have := hu w (by simp)
        rw [← h.2.1] at h2
        tauto
    | cons y a =>
      simp only [List.cons_append, List.cons.injEq] at h
      exact ⟨a, d, e, d', b, h.2, h1, h2, h3⟩

theorem between_none {u : List Char} (hu : ∀ c ∈ u, c ≠ '+' ∧ c ≠ '-') : ¬ SignBetweenDigits u := by
  rintro ⟨a, d, e, d', b, rfl, h1, h2, h3⟩
  have := hu e (by simp)
  tauto

theorem digit_noSign {c : Char} (h : isDigit c = true) : c ≠ '+' ∧ c ≠ '-' := by
  constructor <;> (rintro rfl; exact absurd h (by decide))

/-- C55 (letters): a number with the letter e or E in front of its exponent is read as its value. -/
theorem C55_letter (x : Num) (hx : x.Ok) {L : Char} (hL : L = 'e' ∨ L = 'E') : floatEndf (x.letterText L) = .ok x.value := by
  rw [C55_others, pyFloat_letter x hx hL]
  obtain ⟨hi, hf, he, -, -⟩ := hx
  intro h
  have h1 : SignBetweenDigits (x.ip ++ '.' :: x.fp ++ L :: (if x.negExp then '-' else '+') :: x.ep ++ List.replicate x.post ' ') := by
    rw [Num.letterText] at h
    generalize x.pre = k at h
    generalize x.sign = sg at h
    simp only [List.append_assoc] at h
    induction k with
    | zero =>
      rcases sg with _ | (_ | _)
      · simpa [signText] using h
      · simpa using between_cons (c := '+') (by decide) h
      · simpa using between_cons (c := '-') (by decide) h
    | succ k ih =>
      rw [List.replicate_succ, List.cons_append] at h
      exact ih (between_cons (by decide) h)
  have h2 : SignBetweenDigits ((if x.negExp then '-' else '+') :: x.ep ++ List.replicate x.post ' ') := by
    refine between_letter (u := x.ip ++ '.' :: x.fp) (L := L) ?_ ?_ ?_ (by simpa using h1)
    · intro c hc
      simp only [List.mem_append, List.mem_cons] at hc
      rcases hc with hc | rfl | hc
      · exact digit_noSign (hi c hc)
      · decide
      · exact digit_noSign (hf c hc)
    · rcases hL with rfl | rfl <;> decide
    · rcases hL with rfl | rfl <;> decide
  rw [List.cons_append] at h2
  refine between_none ?_ (between_cons (by cases x.negExp <;> decide) h2)
  intro c hc
  rcases List.mem_append.mp hc with hc | hc
  · exact digit_noSign (he c hc)
  · rw [List.eq_of_mem_replicate hc]
    decide

/-- C55 (other texts): what is not a number is refused with a ValueError, in particular a blank field. -/
theorem C55_refused : (∀ s, (∃ v, floatEndf s = .ok v) ∨ floatEndf s = .error .valueError) ∧
    ∀ k, floatEndf (List.replicate k ' ') = .error .valueError := by
  constructor
  · intro s
    unfold floatEndf pyFloat
    split
    · exact Or.inl ⟨_, rfl⟩
    · exact Or.inr rfl
  · intro k
    have h : strip (List.replicate k ' ') = [] := by
      unfold strip
      rw [show (List.replicate k ' ').dropWhile isSpace = [] by simpa using dropWhile_blanks k [] (by simp)]
      rfl
    rw [floatEndf, endfSub, sub_blanks, pyFloat, h]
    rfl

/-- ` -1.23481+10 ` is such a number. -/
example : (⟨1, some true, ['1'], ['2', '3', '4', '8', '1'], false, ['1', '0'], 1⟩ : Num).Ok ∧
    (⟨1, some true, ['1'], ['2', '3', '4', '8', '1'], false, ['1', '0'], 1⟩ : Num).text = " -1.23481+10 ".toList ∧
    (⟨1, some true, ['1'], ['2', '3', '4', '8', '1'], false, ['1', '0'], 1⟩ : Num).value = -12348100000 := by
  refine ⟨by unfold Num.Ok; decide, by decide, by decide +kernel⟩

example : ¬ SignBetweenDigits "1.5E+3".toList := by
  rintro ⟨a, d, c, d', b, h, h1, h2, h3⟩
  have : ∀ a : List Char, ∀ d c d' b, ("1.5E+3".toList : List Char) = a ++ d :: c :: d' :: b → a.length ≤ 3 := by
    intro a d c d' b h
    have := congrArg List.length h
    simp at this
    omega
  have hl := this a d c d' b h
  match a, hl with
  | [], _ => simp at h; rcases h with ⟨-, rfl, -⟩; simp at h2
  | [_], _ => simp at h; rcases h with ⟨-, rfl, -⟩; exact absurd h1 (by decide)
  | [_, _], _ => simp at h; rcases h with ⟨-, -, -, rfl, -⟩; simp at h2
  | [_, _, _], _ => simp at h; rcases h with ⟨-, -, -, rfl, -⟩; exact absurd h1 (by decide)

/-! ### C56: records -/

theorem intGo_digits (ds : List Char) (h : ∀ c ∈ ds, isDigit c = true) : ∀ b, intGo b ds = (b || decide (ds ≠ [])) := by
  induction ds with
  | nil => intro b; simp [intGo]
  | cons c ds ih =>
    intro b
    rw [intGo, if_pos (h c (by simp)), ih (fun x hx => h x (by simp [hx]))]
    simp

/-- C56, integer fields: digits with or without a sign, with blanks around them, are read as their value. -/
theorem C56_integer (pre post : Nat) (sign : Option Bool) (ds : List Char) (h : ∀ c ∈ ds, isDigit c = true) (hne : ds ≠ []) :
    pyInt (List.replicate pre ' ' ++ (signText sign ++ ds) ++ List.replicate post ' ') =
      .ok (if sign = some true then -(natVal ds : Int) else (natVal ds : Int)) := by
  obtain ⟨q, d, hq⟩ : ∃ q d, ds = q ++ [d] := by
    rcases List.eq_nil_or_concat ds with h | ⟨q, d, h⟩
    · exact absurd h hne
    · exact ⟨q, d, by simpa using h⟩
  have hd : isSpace d = false := isDigit_noSpace (h d (by rw [hq]; simp))
  obtain ⟨a, as, ha⟩ := List.exists_cons_of_ne_nil hne
  have had : isDigit a = true := h a (by rw [ha]; simp)
  have hhead : ∃ c r, signText sign ++ ds = c :: r ∧ isSpace c = false := by
    rcases sign with _ | (_ | _)
    · exact ⟨a, as, by rw [ha]; rfl, isDigit_noSpace had⟩
    · exact ⟨'+', _, rfl, by decide⟩
    · exact ⟨'-', _, rfl, by decide⟩
  obtain ⟨c, r, hcr, hc⟩ := hhead
  have hs := strip_blanks pre post _ c d r (signText sign ++ q) hcr (by rw [hq]; simp) hc hd
  have hf : ds.filter isDigit = ds := List.filter_eq_self.mpr h
  have hplus : a ≠ '+' := by rintro rfl; exact absurd had (by decide)
  have hminus : a ≠ '-' := by rintro rfl; exact absurd had (by decide)
  unfold pyInt
  simp only [hs]
  rcases sign with _ | (_ | _)
  · have hi : isInt (signText none ++ ds) = true := by
      rw [ha]
      simp only [signText, List.nil_append, isInt]
      rw [if_neg (by simp [hplus, hminus]), ← ha, intGo_digits ds h]
      simp [hne]
    rw [if_pos hi]
    simp only [signText, List.nil_append]
    split
    · injection ha with e1 _
      exact absurd e1.symm hminus
    · rw [hf]
      simp
  · have hi : isInt (signText (some false) ++ ds) = true := by
      simp only [signText, List.cons_append, List.nil_append, isInt]
      rw [if_pos (by simp), intGo_digits ds h]
      simp [hne]
    rw [if_pos hi]
    simp only [signText, List.cons_append, List.nil_append]
    have e : ('+' :: ds).filter isDigit = ds := by
      rw [List.filter_cons_of_neg (by decide), hf]
    show Except.ok ((natVal (('+' :: ds).filter isDigit) : Nat) : Int) = _
    rw [e]
    simp
  · have hi : isInt (signText (some true) ++ ds) = true := by
      simp only [signText, List.cons_append, List.nil_append, isInt]
      rw [if_pos (by simp), intGo_digits ds h]
      simp [hne]
    rw [if_pos hi]
    simp only [signText, List.cons_append, List.nil_append, hf]
    simp

theorem col_mid (a b c : Line) (i j : Nat) (hi : i = a.length) (hj : j = a.length + b.length) : col (a ++ b ++ c) i j = b := by
  subst hi hj
  exact slice_mid a b c _ _ rfl rfl

theorem getCont_line {c : Cont} {l : Line} (h : ContLine c l) (rest : List Line) : getCont (l :: rest) = .ok (c, rest) := by
  obtain ⟨t1, t2, t3, t4, t5, t6, tail, rfl, ⟨l1, r1⟩, ⟨l2, r2⟩, ⟨l3, r3⟩, ⟨l4, r4⟩, ⟨l5, r5⟩, ⟨l6, r6⟩⟩ := h
  have e1 : col (t1 ++ t2 ++ t3 ++ t4 ++ t5 ++ t6 ++ tail) 0 11 = t1 := by
    have := col_mid [] t1 (t2 ++ t3 ++ t4 ++ t5 ++ t6 ++ tail) 0 11 rfl (by simp [l1])
    simpa using this
  have e2 : col (t1 ++ t2 ++ t3 ++ t4 ++ t5 ++ t6 ++ tail) 11 22 = t2 := by
    have := col_mid t1 t2 (t3 ++ t4 ++ t5 ++ t6 ++ tail) 11 22 (by simp [l1]) (by simp [l1, l2])
    simpa using this
  have e3 : col (t1 ++ t2 ++ t3 ++ t4 ++ t5 ++ t6 ++ tail) 22 33 = t3 := by
    have := col_mid (t1 ++ t2) t3 (t4 ++ t5 ++ t6 ++ tail) 22 33 (by simp [l1, l2]) (by simp [l1, l2, l3])
    simpa using this
  have e4 : col (t1 ++ t2 ++ t3 ++ t4 ++ t5 ++ t6 ++ tail) 33 44 = t4 := by
    have := col_mid (t1 ++ t2 ++ t3) t4 (t5 ++ t6 ++ tail) 33 44 (by simp [l1, l2, l3]) (by simp [l1, l2, l3, l4])
    simpa using this
  have e5 : col (t1 ++ t2 ++ t3 ++ t4 ++ t5 ++ t6 ++ tail) 44 55 = t5 := by
    have := col_mid (t1 ++ t2 ++ t3 ++ t4) t5 (t6 ++ tail) 44 55 (by simp [l1, l2, l3, l4]) (by simp [l1, l2, l3, l4, l5])
    simpa using this
  have e6 : col (t1 ++ t2 ++ t3 ++ t4 ++ t5 ++ t6 ++ tail) 55 66 = t6 := by
    exact col_mid (t1 ++ t2 ++ t3 ++ t4 ++ t5) t6 tail 55 66 (by simp [l1, l2, l3, l4, l5]) (by simp [l1, l2, l3, l4, l5, l6])
  unfold getCont
  simp only [readline, e1, e2, e3, e4, e5, e6, r1, r2, r3, r4, r5, r6]
  rfl

/-- `List.mapM` over a range, in `Except`. -/
theorem mapM_ok {α β : Type} (f : α → Except PyErr β) (g : α → β) : ∀ (l : List α), (∀ a ∈ l, f a = .ok (g a)) → l.mapM f = .ok (l.map g) := by
  intro l
  induction l with
  | nil => intro _; rfl
  | cons a l ih =>
    intro h
    rw [List.mapM_cons, h a (by simp), ih fun b hb => h b (by simp [hb])]
    rfl

theorem starts_field {α : Type} {rd : Line → Except PyErr α} {vs : List α} {l : Line} (h : Starts rd vs l) :
    ∀ (j : Nat) (v : α), vs[j]? = some v → rd (col l (11 * j) (11 * (j + 1))) = .ok v := by
  induction h with
  | nil tail => intro j v hj; simp at hj
  | @cons t v' vs l hf _ ih =>
    intro j v hj
    obtain ⟨hl, hr⟩ := hf
    cases j with
    | zero =>
      simp only [List.getElem?_cons_zero, Option.some.injEq] at hj
      subst hj
      have : col (t ++ l) (11 * 0) (11 * (0 + 1)) = t := by
        have := col_mid [] t l 0 11 rfl (by simp [hl])
        simpa using this
      rw [this, hr]
    | succ j =>
      simp only [List.getElem?_cons_succ] at hj
      have : col (t ++ l) (11 * (j + 1)) (11 * (j + 1 + 1)) = col l (11 * j) (11 * (j + 1)) := by
        unfold col slice
        rw [List.take_append, List.drop_append]
        have h1 : t.take (11 * (j + 1 + 1)) = t := List.take_of_length_le (by omega)
        rw [h1, List.drop_of_length_le (by omega : t.length ≤ 11 * (j + 1)), hl]
        simp only [List.nil_append]
        congr 1
      rw [this]
      exact ih j v hj

theorem fields_starts {vs : List ℚ} {l : Line} (h : Starts floatEndf vs l) : fields l vs.length = .ok vs := by
  unfold fields
  have := mapM_ok (fun j => floatEndf (col l (11 * j) (11 * (j + 1)))) (fun j => vs.getD j 0) (List.range vs.length) (by
    intro j hj
    have hj' := List.mem_range.mp hj
    have e : vs[j]? = some (vs.getD j 0) := by
      rw [List.getD_eq_getElem?_getD, List.getElem?_eq_getElem hj']
      rfl
    exact starts_field h j _ e)
  rw [this]
  congr 1
  refine List.ext_getElem (by simp) ?_
  intro i h1 h2
  simp [List.getD_eq_getElem?_getD, List.getElem?_eq_getElem h2]

theorem lines_count {α : Type} {st : List α → Line → Prop} {k : Nat} (hk : 0 < k) {vs : List α} {ls : List Line} (h : Lines st k vs ls) :
    ls.length = (((vs.length : Int) - 1) / (k : Int) + 1).toNat := by
  have hk' : (k : Int) ≠ 0 := by omega
  induction h with
  | nil =>
    have : ((0 : Int) - 1) / (k : Int) = -1 := by
      rw [Int.ediv_eq_iff_of_pos (by omega)]
      constructor <;> simp
      omega
    simp only [List.length_nil, Nat.cast_zero, this]
    rfl
  | @last vs l hne hle _ =>
    have h0 : 0 < vs.length := List.length_pos_iff.mpr hne
    have : (((vs.length : Int) - 1) / (k : Int)) = 0 := Int.ediv_eq_zero_of_lt (by omega) (by omega)
    simp [this]
  | @more vs ws l ls hlen hne _ _ ih =>
    have h0 : 0 < ws.length := List.length_pos_iff.mpr hne
    rw [List.length_cons, ih, List.length_append, hlen]
    have : (((k + ws.length : Nat) : Int) - 1) = ((ws.length : Int) - 1) + 1 * (k : Int) := by push_cast; ring
    rw [this, Int.add_mul_ediv_right _ _ hk']
    have h1 : 0 ≤ ((ws.length : Int) - 1) / (k : Int) := Int.ediv_nonneg (by omega) (by omega)
    omega

theorem listLoop_lines {vs : List ℚ} {ls : List Line} (h : Lines (Starts floatEndf) 6 vs ls) :
    ∀ (npl i : Nat) (rest : List Line), npl = 6 * i + vs.length → listLoop npl i ls.length (ls ++ rest) = .ok (vs, rest) := by
  induction h with
  | nil => intro npl i rest _; rfl
  | @last vs l hne hle hst =>
    intro npl i rest e
    have : min 6 (npl - 6 * i) = vs.length := by omega
    simp only [List.length_cons, List.length_nil, Nat.zero_add, listLoop, List.cons_append, List.nil_append, readline, this,
      fields_starts hst]
    simp [bind, Except.bind, pure, Except.pure]
  | @more vs ws l ls hlen hne hst _ ih =>
    intro npl i rest e
    have h0 : 0 < ws.length := List.length_pos_iff.mpr hne
    rw [List.length_append] at e
    have hmin : min 6 (npl - 6 * i) = vs.length := by omega
    have hih := ih npl (i + 1) rest (by omega)
    simp only [List.length_cons, listLoop, List.cons_append, readline, hmin, fields_starts hst]
    simp [bind, Except.bind, pure, Except.pure, hih]

/-- C56 (LIST): a control line announcing as many values as there are, then lines with six values each (the last with the rest; no line if there is
none), is read as the control fields and the values in order, and reading goes on behind it; for every number of values. -/
theorem C56_list (c : Cont) (l : Line) (vs : List ℚ) (ls rest : List Line) (hc : ContLine c l) (hn : c.n1 = vs.length)
    (hv : Lines (Starts floatEndf) 6 vs ls) : getList (l :: (ls ++ rest)) = .ok (c, vs, rest) := by
  unfold getList
  rw [getCont_line hc]
  have hcount := lines_count (by decide) hv
  have e : ((c.n1 - 1) / 6 + 1).toNat = ls.length := by
    rw [hn, hcount]
    rfl
  have := listLoop_lines hv c.n1.toNat 0 rest (by simp [hn])
  simp only [bind, Except.bind, pure, Except.pure, e, this]

theorem pairsOf_starts {α β : Type} {rd : Line → Except PyErr α} {rd' : Line → Except PyErr β} {vs : List (α × β)} {l : Line}
    (h : StartsPairs rd rd' vs l) : pairsOf rd rd' vs.length l = .ok vs := by
  induction h with
  | nil tail => rfl
  | @cons t t' a b vs l hf hf' _ ih =>
    obtain ⟨hl, hr⟩ := hf
    obtain ⟨hl', hr'⟩ := hf'
    have e1 : col (t ++ t' ++ l) 0 11 = t := by
      have := col_mid [] t (t' ++ l) 0 11 rfl (by simp [hl])
      simpa using this
    have e2 : col (t ++ t' ++ l) 11 22 = t' := col_mid t t' l 11 22 (by simp [hl]) (by simp [hl, hl'])
    have e3 : (t ++ t' ++ l).drop 22 = l := List.drop_left' (by simp [hl, hl'])
    simp only [List.length_cons, pairsOf, e1, e2, e3, hr, hr', ih]
    rfl

theorem pairsLoop_lines {α β : Type} {rd : Line → Except PyErr α} {rd' : Line → Except PyErr β} {vs : List (α × β)} {ls : List Line}
    (h : Lines (StartsPairs rd rd') 3 vs ls) :
    ∀ (n m : Nat) (rest : List Line), n = m + vs.length → pairsLoop rd rd' n m ls.length (ls ++ rest) = .ok (vs, rest) := by
  induction h with
  | nil => intro n m rest _; rfl
  | @last vs l hne hle hst =>
    intro n m rest e
    have : min 3 (n - m) = vs.length := by omega
    simp only [List.length_cons, List.length_nil, Nat.zero_add, pairsLoop, List.cons_append, List.nil_append, readline, this,
      pairsOf_starts hst]
    simp [bind, Except.bind, pure, Except.pure]
  | @more vs ws l ls hlen hne hst _ ih =>
    intro n m rest e
    have h0 : 0 < ws.length := List.length_pos_iff.mpr hne
    rw [List.length_append] at e
    have hmin : min 3 (n - m) = vs.length := by omega
    have hih := ih n (m + vs.length) rest (by omega)
    simp only [List.length_cons, pairsLoop, List.cons_append, readline, hmin, pairsOf_starts hst]
    simp [bind, Except.bind, pure, Except.pure, hih]

theorem pairsTable_lines {α β : Type} {rd : Line → Except PyErr α} {rd' : Line → Except PyErr β} {vs : List (α × β)} {ls : List Line}
    (h : Lines (StartsPairs rd rd') 3 vs ls) (n : Int) (hn : n = vs.length) (rest : List Line) :
    pairsTable rd rd' n (ls ++ rest) = .ok (vs, rest) := by
  unfold pairsTable
  rw [if_neg (by omega)]
  have hcount := lines_count (by decide) h
  have e : ((n - 1) / 3 + 1).toNat = ls.length := by
    rw [hn, hcount]
    rfl
  rw [e]
  exact pairsLoop_lines h _ 0 rest (by simp [hn])

/-- C56 (TAB1): a control line, the announced number of (breakpoint, scheme) pairs three to a line, the announced number of (x, y) pairs three
to a line, is read as exactly those, and reading goes on behind it; for every number of regions and points. -/
theorem C56_tab1 (c : Cont) (l : Line) (regions : List (Int × Int)) (xy : List (ℚ × ℚ)) (rl pl rest : List Line) (hc : ContLine c l)
    (h1 : c.n1 = regions.length) (h2 : c.n2 = xy.length) (hr : Lines (StartsPairs pyInt pyInt) 3 regions rl)
    (hp : Lines (StartsPairs floatEndf floatEndf) 3 xy pl) :
    getTab1 (l :: (rl ++ (pl ++ rest))) = .ok ((c.c1, c.c2, c.l1, c.l2), regions, xy, rest) := by
  unfold getTab1
  rw [getCont_line hc]
  simp only [bind, Except.bind, pure, Except.pure, pairsTable_lines hr c.n1 h1, pairsTable_lines hp c.n2 h2]

/-- C56 (TAB2). -/
theorem C56_tab2 (c : Cont) (l : Line) (regions : List (Int × Int)) (rl rest : List Line) (hc : ContLine c l)
    (h1 : c.n1 = regions.length) (hr : Lines (StartsPairs pyInt pyInt) 3 regions rl) :
    getTab2 (l :: (rl ++ rest)) = .ok (c, regions, rest) := by
  unfold getTab2
  rw [getCont_line hc]
  simp only [bind, Except.bind, pure, Except.pure, pairsTable_lines hr c.n1 h1]

/-- A concrete LIST record: 7 values on two lines, with the tags behind. -/
def exHead : Line := " 1.001000+3 9.991673-1          0          0          7          09999 3  1    1\n".toList
def exL1 : Line := " 1.000000+0 2.000000+0 3.000000+0 4.000000+0 5.000000+0 6.000000+09999 3  1    2\n".toList
def exL2 : Line := "-7.500000-1                                                       9999 3  1    3\n".toList

example : getList [exHead, exL1, exL2, exHead] = .ok (⟨1001, 9991673 / 10000000, 0, 0, 7, 0⟩, [1, 2, 3, 4, 5, 6, -3 / 4], [exHead]) := by
  decide +kernel

/-- The hypotheses of `C56_list` hold for it. -/
example : ContLine ⟨1001, 9991673 / 10000000, 0, 0, 7, 0⟩ exHead ∧ Lines (Starts floatEndf) 6 [1, 2, 3, 4, 5, 6, -3 / 4] [exL1, exL2] := by
  refine ⟨⟨" 1.001000+3".toList, " 9.991673-1".toList, "          0".toList, "          0".toList, "          7".toList, "          0".toList,
    "9999 3  1    1\n".toList, by decide, ⟨by decide, by decide +kernel⟩, ⟨by decide, by decide +kernel⟩, ⟨by decide, by decide +kernel⟩,
    ⟨by decide, by decide +kernel⟩, ⟨by decide, by decide +kernel⟩, ⟨by decide, by decide +kernel⟩⟩, ?_⟩
  refine Lines.more (vs := [1, 2, 3, 4, 5, 6]) (ws := [-3 / 4]) rfl (by simp) ?_ (Lines.last (by simp) (by simp) ?_)
  · have e : exL1 = " 1.000000+0".toList ++ (" 2.000000+0".toList ++ (" 3.000000+0".toList ++ (" 4.000000+0".toList ++
        (" 5.000000+0".toList ++ (" 6.000000+0".toList ++ "9999 3  1    2\n".toList))))) := by decide
    rw [e]
    exact .cons ⟨by decide, by decide +kernel⟩ (.cons ⟨by decide, by decide +kernel⟩ (.cons ⟨by decide, by decide +kernel⟩
      (.cons ⟨by decide, by decide +kernel⟩ (.cons ⟨by decide, by decide +kernel⟩ (.cons ⟨by decide, by decide +kernel⟩ (.nil _))))))
  · have e : exL2 = "-7.500000-1".toList ++ "                                                       9999 3  1    3\n".toList := by decide
    rw [e]
    exact .cons ⟨by decide, by decide +kernel⟩ (.nil _)

/-! ### C57: termination -/

theorem Ends.cons {s s' : Ev} {t : Turn} (h : step s = .next s') (ht : Ends s' t) : Ends s t := by
  obtain ⟨n, s'', h1, h2, h3⟩ := ht
  refine ⟨n + 1, s'', ?_, h2, h3⟩
  simp only [after, h, h1]

theorem Ends.now {s : Ev} {t : Turn} (h : step s = t) (hn : ∀ s'', t ≠ .next s'') : Ends s t := ⟨0, s, rfl, h, hn⟩

/-- A loop has one end at most. -/
theorem Ends.unique {s : Ev} {t t' : Turn} (h : Ends s t) (h' : Ends s t') : t = t' := by
  obtain ⟨n, u, h1, h2, h3⟩ := h
  obtain ⟨m, v, g1, g2, g3⟩ := h'
  induction n generalizing s m with
  | zero =>
    simp only [after, Option.some.injEq] at h1
    subst h1
    cases m with
    | zero =>
      simp only [after, Option.some.injEq] at g1
      subst g1
      exact h2.symm.trans g2
    | succ m =>
      rw [after] at g1
      split at g1
      · rename_i s' e
        rw [h2] at e
        exact absurd e (h3 s')
      · exact absurd g1 (by simp)
  | succ n ih =>
    rw [after] at h1
    split at h1
    · rename_i s' e
      cases m with
      | zero =>
        simp only [after, Option.some.injEq] at g1
        subst g1
        rw [g2] at e
        exact absurd e (g3 s')
      | succ m =>
        simp only [after, e] at g1
        exact ih h1 m g1
    · exact absurd h1 (by simp)

/-- What one turn can do. -/
theorem step_findMat (rest : List Line) (mat : Int) (secs : List ((Int × Int) × List Line)) :
    (∃ e, step ⟨rest, .findMat, mat, secs⟩ = .error e) ∨
    (rest ≠ [] ∧ step ⟨rest, .findMat, mat, secs⟩ = .next ⟨rest.tail, .findMat, mat, secs⟩) ∨
    ∃ mat', step ⟨rest, .findMat, mat, secs⟩ = .next ⟨rest, .findSec, mat', secs⟩ := by
  cases rest with
  | nil => exact Or.inl ⟨.valueError, by rfl⟩
  | cons l ls =>
    simp only [step, readline]
    rcases h1 : pyInt (col l 70 72) with e | mf
    · exact Or.inl ⟨e, by simp [bind, Except.bind, Turn.ofExcept]⟩
    · by_cases h0 : mf = 0
      · exact Or.inr (Or.inl ⟨by simp, by simp [bind, Except.bind, Turn.ofExcept, h0, pure, Except.pure]⟩)
      · rcases h2 : pyInt (col l 66 70) with e | mat'
        · exact Or.inl ⟨e, by simp [bind, Except.bind, Turn.ofExcept, h0]⟩
        · exact Or.inr (Or.inr ⟨mat', by simp [bind, Except.bind, Turn.ofExcept, h0, pure, Except.pure]⟩)

theorem step_findSec (rest : List Line) (mat : Int) (secs : List ((Int × Int) × List Line)) :
    (∃ e, step ⟨rest, .findSec, mat, secs⟩ = .error e) ∨ (∃ s, step ⟨rest, .findSec, mat, secs⟩ = .done s) ∨
    (rest ≠ [] ∧ step ⟨rest, .findSec, mat, secs⟩ = .next ⟨rest.tail, .findSec, mat, secs⟩) ∨
    ∃ mf mt, rest ≠ [] ∧ step ⟨rest, .findSec, mat, secs⟩ = .next ⟨rest, .inSec mf mt [], mat, secs⟩ := by
  cases rest with
  | nil => exact Or.inl ⟨.valueError, by rfl⟩
  | cons l ls =>
    simp only [step, readline]
    rcases h1 : pyInt (col l 66 70) with e | mat'
    · exact Or.inl ⟨e, by simp [bind, Except.bind, Turn.ofExcept]⟩
    rcases h2 : pyInt (col l 70 72) with e | mf
    · exact Or.inl ⟨e, by simp [bind, Except.bind, Turn.ofExcept]⟩
    rcases h3 : pyInt (col l 72 75) with e | mt
    · exact Or.inl ⟨e, by simp [bind, Except.bind, Turn.ofExcept]⟩
    by_cases h0 : mat' = 0
    · exact Or.inr (Or.inl ⟨⟨ls, .findSec, mat, secs⟩, by simp [bind, Except.bind, Turn.ofExcept, h0, pure, Except.pure]⟩)
    · by_cases h4 : mt > 0
      · exact Or.inr (Or.inr (Or.inr ⟨mf, mt, by simp, by simp [bind, Except.bind, Turn.ofExcept, h0, h4, pure, Except.pure]⟩))
      · exact Or.inr (Or.inr (Or.inl ⟨by simp, by simp [bind, Except.bind, Turn.ofExcept, h0, h4, pure, Except.pure]⟩))

theorem step_inSec_send (l : Line) (ls : List Line) (mf mt mat : Int) (d : List Line) (secs : List ((Int × Int) × List Line)) (h : IsSend l) :
    step ⟨l :: ls, .inSec mf mt d, mat, secs⟩ = .next ⟨ls, .findSec, mat, Dict.set secs (mf, mt) d⟩ := by
  exact if_pos h

theorem step_inSec_line (l : Line) (ls : List Line) (mf mt mat : Int) (d : List Line) (secs : List ((Int × Int) × List Line)) (h : ¬ IsSend l) :
    step ⟨l :: ls, .inSec mf mt d, mat, secs⟩ = .next ⟨ls, .inSec mf mt (if l = [] then d else d ++ [l]), mat, secs⟩ := by
  exact if_neg h

/-- The last line ends a section. -/
def LastSend (f : List Line) : Prop := ∃ l, f.getLast? = some l ∧ IsSend l

theorem LastSend.tail {l : Line} {ls : List Line} (h : LastSend (l :: ls)) : ls = [] ∨ LastSend ls := by
  cases ls with
  | nil => exact Or.inl rfl
  | cons a as =>
    obtain ⟨x, hx, hs⟩ := h
    exact Or.inr ⟨x, by simpa [List.getLast?_cons_cons] using hx, hs⟩

/-- C57, the part that holds: on every file whose last line ends a section (columns 73-75 `  0`, as the line that ends an ENDF tape),
whatever else is on it, the reading of the sections comes to an end, with a result or with an exception. -/
theorem C57_terminates_partial (f : List Line) (l : Line) (hl : f.getLast? = some l) (hs : IsSend l) : ∃ t, Ends (evStart f) t := by
  have key : ∀ (k : Nat) (rest : List Line) (ph : Phase) (mat : Int) (secs : List ((Int × Int) × List Line)),
      3 * rest.length + (match ph with | .findMat => 2 | .findSec => 1 | .inSec .. => 0) ≤ k →
      (match ph with | .inSec .. => LastSend rest | _ => rest = [] ∨ LastSend rest) → ∃ t, Ends ⟨rest, ph, mat, secs⟩ t := by
    intro k
    induction k with
    | zero =>
      intro rest ph mat secs hk hi
      have h0 : rest = [] := List.length_eq_zero_iff.mp (by omega)
      subst h0
      cases ph with
      | findMat => simp at hk
      | findSec => simp at hk
      | inSec mf mt d => obtain ⟨x, hx, -⟩ := hi; simp at hx
    | succ k ih =>
      intro rest ph mat secs hk hi
      cases ph with
      | findMat =>
        simp only at hi hk
        rcases step_findMat rest mat secs with ⟨e, h⟩ | ⟨hne, h⟩ | ⟨mat', h⟩
        · exact ⟨_, Ends.now h (by simp)⟩
        · obtain ⟨a, as, rfl⟩ := List.exists_cons_of_ne_nil hne
          obtain ⟨t, ht⟩ := ih as .findMat mat secs (by simp at hk ⊢; omega) (by
            rcases hi with hi | hi
            · simp at hi
            · exact hi.tail)
          exact ⟨t, Ends.cons h ht⟩
        · obtain ⟨t, ht⟩ := ih rest .findSec mat' secs (by simp at hk ⊢; omega) hi
          exact ⟨t, Ends.cons h ht⟩
      | findSec =>
        simp only at hi hk
        rcases step_findSec rest mat secs with ⟨e, h⟩ | ⟨s, h⟩ | ⟨hne, h⟩ | ⟨mf, mt, hne, h⟩
        · exact ⟨_, Ends.now h (by simp)⟩
        · exact ⟨_, Ends.now h (by simp)⟩
        · obtain ⟨a, as, rfl⟩ := List.exists_cons_of_ne_nil hne
          obtain ⟨t, ht⟩ := ih as .findSec mat secs (by simp at hk ⊢; omega) (by
            rcases hi with hi | hi
            · simp at hi
            · exact hi.tail)
          exact ⟨t, Ends.cons h ht⟩
        · obtain ⟨t, ht⟩ := ih rest (.inSec mf mt []) mat secs (by simp at hk ⊢; omega) (hi.resolve_left hne)
          exact ⟨t, Ends.cons h ht⟩
      | inSec mf mt d =>
        simp only at hi hk
        cases rest with
        | nil => obtain ⟨x, hx, -⟩ := hi; simp at hx
        | cons a as =>
          by_cases ha : IsSend a
          · obtain ⟨t, ht⟩ := ih as .findSec mat _ (by simp at hk ⊢; omega) hi.tail
            exact ⟨t, Ends.cons (step_inSec_send a as mf mt mat d secs ha) ht⟩
          · have hl' : LastSend as := by
              refine hi.tail.resolve_left ?_
              rintro rfl
              obtain ⟨x, hx, hxs⟩ := hi
              simp only [List.getLast?_singleton, Option.some.injEq] at hx
              subst hx
              exact ha hxs
            obtain ⟨t, ht⟩ := ih as (.inSec mf mt _) mat secs (by simp at hk ⊢; omega) hl'
            exact ⟨t, Ends.cons (step_inSec_line a as mf mt mat d secs ha) ht⟩
  exact key _ f .findMat 0 [] le_rfl (Or.inr ⟨l, hl, hs⟩)

/-- C57 is false for truncated files: from inside a section without a line that ends it, the loop never ends. -/
theorem inSec_forever (rest : List Line) (hno : ∀ l ∈ rest, ¬ IsSend l) (mf mt mat : Int) (secs : List ((Int × Int) × List Line)) :
    ∀ (n : Nat) (d : List Line), ∃ rest' d', after n ⟨rest, .inSec mf mt d, mat, secs⟩ = some ⟨rest', .inSec mf mt d', mat, secs⟩ ∧
      (∀ l ∈ rest', ¬ IsSend l) := by
  intro n
  induction n generalizing rest with
  | zero => intro d; exact ⟨rest, d, rfl, hno⟩
  | succ n ih =>
    intro d
    cases rest with
    | nil =>
      have : step ⟨[], .inSec mf mt d, mat, secs⟩ = .next ⟨[], .inSec mf mt d, mat, secs⟩ := rfl
      obtain ⟨r, d', h1, h2⟩ := ih [] (by simp) d
      exact ⟨r, d', by simp only [after, this, h1], h2⟩
    | cons l ls =>
      obtain ⟨r, d', h1, h2⟩ := ih ls (fun x hx => hno x (by simp [hx])) (if l = [] then d else d ++ [l])
      exact ⟨r, d', by simp only [after, step_inSec_line l ls mf mt mat d secs (hno l (by simp)), h1], h2⟩

theorem not_ends_inSec (rest : List Line) (hno : ∀ l ∈ rest, ¬ IsSend l) (mf mt mat : Int) (secs : List ((Int × Int) × List Line))
    (d : List Line) (t : Turn) : ¬ Ends ⟨rest, .inSec mf mt d, mat, secs⟩ t := by
  rintro ⟨n, s, h1, h2, h3⟩
  obtain ⟨r, d', e, hr⟩ := inSec_forever rest hno mf mt mat secs n d
  rw [e] at h1
  simp only [Option.some.injEq] at h1
  subst h1
  cases r with
  | nil => exact h3 _ (h2.symm.trans rfl)
  | cons l ls => exact h3 _ (h2.symm.trans (step_inSec_line l ls mf mt mat d' secs (hr l (by simp))))

/-- C57 as stated is false: on every file that starts with a section and breaks off before the line that ends it, `Evaluation` runs forever. -/
theorem C57_truncated_refuted (hd : Line) (body : List Line) (mat mf mt : Int) (ht : Tag mat mf mt hd) (h1 : mat ≠ 0) (h2 : mf ≠ 0) (h3 : 0 < mt)
    (hno : ∀ l ∈ hd :: body, ¬ IsSend l) : ¬ ∃ t, Ends (evStart (hd :: body)) t := by
  rintro ⟨t, n, s, e1, e2, e3⟩
  obtain ⟨ta, tb, tc⟩ := ht
  have s1 : step (evStart (hd :: body)) = .next ⟨hd :: body, .findSec, mat, []⟩ := by
    simp [step, evStart, readline, ta, tb, bind, Except.bind, Turn.ofExcept, h2, pure, Except.pure]
  have s2 : step ⟨hd :: body, .findSec, mat, []⟩ = .next ⟨hd :: body, .inSec mf mt [], mat, []⟩ := by
    simp [step, readline, ta, tb, tc, bind, Except.bind, Turn.ofExcept, h1, h3, pure, Except.pure]
  match n with
  | 0 =>
    simp only [after, Option.some.injEq] at e1
    subst e1
    exact e3 _ (e2.symm.trans s1)
  | 1 =>
    simp only [after, s1, Option.some.injEq] at e1
    subst e1
    exact e3 _ (e2.symm.trans s2)
  | n + 2 =>
    simp only [after, s1, s2] at e1
    exact not_ends_inSec _ hno mf mt mat [] [] t ⟨n, s, e1, e2, e3⟩

/-- Two lines of a section, cut off. -/
example : ¬ ∃ t, Ends (evStart [exHead, exL1]) t :=
  C57_truncated_refuted exHead [exL1] 9999 3 1 ⟨by decide +kernel, by decide +kernel, by decide +kernel⟩ (by decide) (by decide) (by decide)
    (by decide)

/-! ### C70: all sections are read -/

theorem after_add (n m : Nat) (s s' : Ev) (h : after n s = some s') : after (n + m) s = after m s' := by
  induction n generalizing s with
  | zero =>
    simp only [after, Option.some.injEq] at h
    subst h
    simp
  | succ n ih =>
    rw [after] at h
    split at h
    · rename_i s1 e
      have : n + 1 + m = (n + m) + 1 := by omega
      rw [this]
      simp only [after, e]
      exact ih s1 h
    · exact absurd h (by simp)

/-- `s` leads to `s'` without ending. -/
def Leads (s s' : Ev) : Prop := ∃ n, after n s = some s'

theorem Leads.trans {a b c : Ev} (h : Leads a b) (h' : Leads b c) : Leads a c := by
  obtain ⟨n, hn⟩ := h
  obtain ⟨m, hm⟩ := h'
  exact ⟨n + m, by rw [after_add n m a b hn, hm]⟩

theorem Leads.one {a b : Ev} (h : step a = .next b) : Leads a b := ⟨1, by simp [after, h]⟩

theorem Leads.refl (a : Ev) : Leads a a := ⟨0, rfl⟩

theorem Leads.ends {a b : Ev} {t : Turn} (h : Leads a b) (ht : Ends b t) : Ends a t := by
  obtain ⟨n, hn⟩ := h
  obtain ⟨m, s, h1, h2, h3⟩ := ht
  exact ⟨n + m, s, by rw [after_add n m a b hn, h1], h2, h3⟩

theorem leads_body (ls rest : List Line) (h : ∀ l ∈ ls, ¬ IsSend l ∧ l ≠ []) (mf mt mat : Int) (secs : List ((Int × Int) × List Line)) :
    ∀ d, Leads ⟨ls ++ rest, .inSec mf mt d, mat, secs⟩ ⟨rest, .inSec mf mt (d ++ ls), mat, secs⟩ := by
  induction ls with
  | nil => intro d; simpa using Leads.refl _
  | cons l ls ih =>
    intro d
    have hl := h l (by simp)
    have e := step_inSec_line l (ls ++ rest) mf mt mat d secs hl.1
    rw [if_neg hl.2] at e
    have := ih (fun x hx => h x (by simp [hx])) (d ++ [l])
    rw [List.append_assoc] at this
    exact (Leads.one e).trans this

theorem step_tag_sec {mat mf mt : Int} {l : Line} (ht : Tag mat mf mt l) (h0 : mat ≠ 0) (hm : 0 < mt) (ls : List Line) (mat' : Int)
    (secs : List ((Int × Int) × List Line)) :
    step ⟨l :: ls, .findSec, mat', secs⟩ = .next ⟨l :: ls, .inSec mf mt [], mat', secs⟩ := by
  obtain ⟨ta, tb, tc⟩ := ht
  simp [step, readline, ta, tb, tc, bind, Except.bind, Turn.ofExcept, h0, hm, pure, Except.pure]

theorem step_tag_sep {mat mf mt : Int} {l : Line} (ht : Tag mat mf mt l) (h0 : mat ≠ 0) (hm : mt ≤ 0) (ls : List Line) (mat' : Int)
    (secs : List ((Int × Int) × List Line)) :
    step ⟨l :: ls, .findSec, mat', secs⟩ = .next ⟨ls, .findSec, mat', secs⟩ := by
  obtain ⟨ta, tb, tc⟩ := ht
  have : ¬ mt > 0 := by omega
  simp [step, readline, ta, tb, tc, bind, Except.bind, Turn.ofExcept, h0, this, pure, Except.pure]

theorem leads_seps (seps rest : List Line) (h : ∀ l ∈ seps, ∃ mat' mf' mt', Tag mat' mf' mt' l ∧ mat' ≠ 0 ∧ mt' ≤ 0) (mat : Int)
    (secs : List ((Int × Int) × List Line)) : Leads ⟨seps ++ rest, .findSec, mat, secs⟩ ⟨rest, .findSec, mat, secs⟩ := by
  induction seps with
  | nil => exact Leads.refl _
  | cons l ls ih =>
    obtain ⟨a, b, c, ht, h0, hm⟩ := h l (by simp)
    exact (Leads.one (step_tag_sep ht h0 hm _ mat secs)).trans (ih fun x hx => h x (by simp [hx]))

theorem leads_sec (mat : Int) (h0 : mat ≠ 0) (s : Sec) (hs : s.Ok mat) (rest : List Line) (mat' : Int) (secs : List ((Int × Int) × List Line)) :
    Leads ⟨s.text ++ rest, .findSec, mat', secs⟩ ⟨rest, .findSec, mat', Dict.set secs (s.mf, s.mt) (s.head :: s.body)⟩ := by
  obtain ⟨hmt, hmf, htag, hbody, hsend, hseps⟩ := hs
  have e : s.text ++ rest = s.head :: s.body ++ (s.send :: (s.seps ++ rest)) := by simp [Sec.text]
  rw [e]
  refine (Leads.one (step_tag_sec htag h0 hmt _ mat' secs)).trans ?_
  refine (leads_body (s.head :: s.body) _ hbody s.mf s.mt mat' secs []).trans ?_
  refine (Leads.one (step_inSec_send _ _ _ _ _ _ _ hsend)).trans ?_
  exact leads_seps _ _ hseps _ _

theorem set_new {α β : Type*} [DecidableEq α] (d : List (α × β)) (k : α) (v : β) (h : k ∉ Dict.keys d) : Dict.set d k v = d ++ [(k, v)] := by
  induction d with
  | nil => rfl
  | cons e d ih =>
    obtain ⟨k', v'⟩ := e
    simp only [Dict.keys, List.map_cons, List.mem_cons, not_or] at h
    have hne : ¬ k' = k := fun e => h.1 e.symm
    simp only [Dict.set, if_neg hne, List.cons_append]
    rw [ih (by simpa [Dict.keys] using h.2)]

theorem leads_secs (mat : Int) (h0 : mat ≠ 0) (rest : List Line) (mat' : Int) : ∀ (ss : List Sec) (secs : List ((Int × Int) × List Line)),
    (∀ s ∈ ss, s.Ok mat) → (Dict.keys secs ++ ss.map fun s => (s.mf, s.mt)).Nodup →
    Leads ⟨ss.flatMap Sec.text ++ rest, .findSec, mat', secs⟩
      ⟨rest, .findSec, mat', secs ++ ss.map fun s => ((s.mf, s.mt), s.head :: s.body)⟩ := by
  intro ss
  induction ss with
  | nil => intro secs _ _; simpa using Leads.refl _
  | cons s ss ih =>
    intro secs hok hnd
    have h1 := leads_sec mat h0 s (hok s (by simp)) (ss.flatMap Sec.text ++ rest) mat' secs
    have hk : (s.mf, s.mt) ∉ Dict.keys secs := by
      intro hc
      simp only [List.map_cons] at hnd
      exact (List.nodup_append.mp hnd).2.2 _ hc _ (by simp) rfl
    rw [set_new _ _ _ hk] at h1
    have h2 := ih (secs ++ [((s.mf, s.mt), s.head :: s.body)]) (fun x hx => hok x (by simp [hx])) (by
      simpa [Dict.keys] using hnd)
    have e : List.flatMap Sec.text (s :: ss) ++ rest = s.text ++ (ss.flatMap Sec.text ++ rest) := by simp
    rw [e]
    refine h1.trans ?_
    simpa using h2

theorem leads_pre (pre rest : List Line) (h : ∀ l ∈ pre, pyInt (col l 70 72) = .ok 0) (mat : Int) (secs : List ((Int × Int) × List Line)) :
    Leads ⟨pre ++ rest, .findMat, mat, secs⟩ ⟨rest, .findMat, mat, secs⟩ := by
  induction pre with
  | nil => exact Leads.refl _
  | cons l ls ih =>
    have : step ⟨l :: (ls ++ rest), .findMat, mat, secs⟩ = .next ⟨ls ++ rest, .findMat, mat, secs⟩ := by
      simp [step, readline, h l (by simp), bind, Except.bind, Turn.ofExcept, pure, Except.pure]
    exact (Leads.one this).trans (ih fun x hx => h x (by simp [hx]))

/-- C70: on every file that starts with a well formed material, `Evaluation` reads exactly its sections, each with exactly its lines, in order,
and stops behind the material. -/
theorem C70_sections (mat : Int) (pre : List Line) (secs : List Sec) (mend : Line) (rest : List Line) (h : MaterialOk mat pre secs mend) :
    Ends (evStart (materialText pre secs mend ++ rest))
      (.done ⟨rest, .findSec, mat, secs.map fun s => ((s.mf, s.mt), s.head :: s.body)⟩) := by
  obtain ⟨h0, hne, hpre, hok, hnd, mf, mt, ta, tb, tc⟩ := h
  have e : materialText pre secs mend ++ rest = pre ++ (secs.flatMap Sec.text ++ mend :: rest) := by simp [materialText]
  rw [e]
  refine (leads_pre pre _ hpre 0 []).ends ?_
  obtain ⟨s, ss, rfl⟩ := List.exists_cons_of_ne_nil hne
  have hs := hok s (by simp)
  obtain ⟨hmt, hmf, ⟨sa, sb, sc⟩, hbody, hsend, hseps⟩ := hs
  have e2 : List.flatMap Sec.text (s :: ss) ++ mend :: rest = s.head :: (s.body ++ s.send :: s.seps ++ (ss.flatMap Sec.text ++ mend :: rest)) := by
    simp [Sec.text]
  have s1 : step ⟨List.flatMap Sec.text (s :: ss) ++ mend :: rest, .findMat, 0, []⟩ =
      .next ⟨List.flatMap Sec.text (s :: ss) ++ mend :: rest, .findSec, mat, []⟩ := by
    rw [e2]
    simp [step, readline, sa, sb, bind, Except.bind, Turn.ofExcept, hmf, pure, Except.pure]
  refine (Leads.one s1).ends ?_
  refine (leads_secs mat h0 (mend :: rest) mat (s :: ss) [] hok (by simpa [Dict.keys] using hnd)).ends ?_
  refine Ends.now ?_ (by simp)
  simp [step, readline, ta, tb, tc, bind, Except.bind, Turn.ofExcept, pure, Except.pure]

/-- A small material: a tape line, one section of three lines, the end lines. -/
def exTape : Line := " tape                                                             9999 0  0    0\n".toList
def exSend : Line := "                                                                  9999 3  099999\n".toList
def exFend : Line := "                                                                  9999 0  0    0\n".toList
def exMend : Line := "                                                                     0 0  0    0\n".toList

theorem exMaterial : MaterialOk 9999 [exTape] [⟨3, 1, exHead, [exL1, exL2], exSend, [exFend]⟩] exMend := by
  refine ⟨by decide, by simp, by decide +kernel, ?_, by decide, 0, 0, by decide +kernel, by decide +kernel, by decide +kernel⟩
  intro s hs
  rw [List.mem_singleton] at hs
  subst hs
  refine ⟨by decide, by decide, ⟨by decide +kernel, by decide +kernel, by decide +kernel⟩, ?_, by decide, ?_⟩
  · decide
  · intro l hl
    rw [List.mem_singleton] at hl
    subst hl
    exact ⟨9999, 0, 0, ⟨by decide +kernel, by decide +kernel, by decide +kernel⟩, by decide, by decide⟩

/-! ### C71: several evaluations on a tape -/

theorem headerOf_ok (m : Mate) (hm : m.Ok) (rest : List Line) : headerOf (m.result rest).1 = .ok m.header := by
  obtain ⟨⟨-, -, -, -, hnd, -⟩, -, s, hs, h1, h2, h3⟩ := hm
  have hget : Dict.get? (m.result rest).1.sections ((1 : Int), (451 : Int)) = some (s.head :: s.body) := by
    show Dict.get? (m.secs.map fun s => ((s.mf, s.mt), s.head :: s.body)) _ = _
    generalize hss : m.secs = ss at hs hnd
    clear hss
    induction ss with
    | nil => simp at hs
    | cons a ss ih =>
      simp only [List.map_cons, Dict.get?]
      simp only [List.map_cons, List.nodup_cons] at hnd
      rcases List.mem_cons.mp hs with rfl | hs
      · rw [if_pos (by rw [h1, h2])]
      · rw [if_neg ?_]
        · exact ih hs hnd.2
        · intro e
          refine hnd.1 (List.mem_map.mpr ⟨s, hs, ?_⟩)
          rw [h1, h2]
          exact e.symm
  unfold headerOf
  rw [hget]
  exact h3

/-- C71, with the reader of ASAPy/data/endf.py (which leaves the file open): every well formed evaluation on a tape, for any number of them, is
read, in order, up to the line that ends the tape. -/
theorem C71_all_read_partial (ms : List Mate) (hok : ∀ m ∈ ms, m.Ok) (tend : List Line) (ht : col (readline tend).1 66 70 = "  -1".toList)
    (acc : List (Ev × Header)) : GetEvals false (matesText ms tend) acc (.ok (acc ++ matesResult ms tend)) := by
  induction ms generalizing acc with
  | nil => simpa [matesText, matesResult] using GetEvals.stop ht
  | cons m ms ih =>
    have hm := hok m (by simp)
    have e : matesText (m :: ms) tend = materialText m.pre m.secs m.mend ++ matesText ms tend := by simp [matesText, Mate.text]
    have hne : materialText m.pre m.secs m.mend ≠ [] := by simp [materialText]
    obtain ⟨a, as, ha⟩ := List.exists_cons_of_ne_nil hne
    have hfirst : col (readline (matesText (m :: ms) tend)).1 66 70 ≠ "  -1".toList := by
      rw [e, ha]
      exact hm.2.1 a (by simp [Mate.text, ha])
    have hends := C70_sections m.mat m.pre m.secs m.mend (matesText ms tend) hm.1
    rw [← e] at hends
    have hih := ih (fun x hx => hok x (by simp [hx])) (acc ++ [m.result (matesText ms tend)])
    rw [List.append_assoc, List.singleton_append] at hih
    exact GetEvals.next rfl hfirst hends (headerOf_ok m hm _) hih

/-- C71 is false for the `get_evaluations` of ASAPy/endf.py: with one or more well formed evaluations on the tape it raises `ValueError`. -/
theorem C71_closed_refuted (m : Mate) (ms : List Mate) (hm : m.Ok) (tend : List Line) :
    GetEvals true (matesText (m :: ms) tend) [] (.error .valueError) := by
  have e : matesText (m :: ms) tend = materialText m.pre m.secs m.mend ++ matesText ms tend := by simp [matesText, Mate.text]
  have hne : materialText m.pre m.secs m.mend ≠ [] := by simp [materialText]
  obtain ⟨a, as, ha⟩ := List.exists_cons_of_ne_nil hne
  have hfirst : col (readline (matesText (m :: ms) tend)).1 66 70 ≠ "  -1".toList := by
    rw [e, ha]
    exact hm.2.1 a (by simp [Mate.text, ha])
  have hends := C70_sections m.mat m.pre m.secs m.mend (matesText ms tend) hm.1
  rw [← e] at hends
  exact GetEvals.closed rfl hfirst hends (headerOf_ok m hm _)

/-- And whatever the tape: since `Evaluation` closes the file, it never returns on any tape that does not start
with the line that ends it. -/
theorem C71_never_refuted (f : List Line) (hf : col (readline f).1 66 70 ≠ "  -1".toList) (r : Except PyErr (List (Ev × Header)))
    (h : GetEvals true f [] r) : ∃ e, r = .error e := by
  cases h with
  | stop h => exact absurd h hf
  | fail => exact ⟨_, rfl⟩
  | header => exact ⟨_, rfl⟩
  | closed => exact ⟨_, rfl⟩
  | next h => exact absurd h (by decide)

/-! ### C72: the header -/

theorem trunc_spec {q : ℚ} {n : Int} (h : Truncates q n) : trunc q = n := by
  unfold trunc
  rcases h with ⟨h0, rfl⟩ | ⟨h0, rfl⟩
  · rw [Rat.floor_def', Int.tdiv_eq_ediv_of_nonneg (Rat.num_nonneg.mpr h0)]
  · have hn : q.num < 0 := Rat.num_neg.mpr h0
    rw [← neg_neg ⌈q⌉, ← Int.floor_neg, Rat.floor_def', Rat.num_neg_eq_neg_num, Rat.den_neg_eq_den]
    conv_lhs => rw [← neg_neg q.num, Int.neg_tdiv]
    rw [Int.tdiv_eq_ediv_of_nonneg (by omega)]

theorem trunc_zero_iff (q : ℚ) : trunc q = 0 ↔ |q| < 1 := by
  rcases le_or_gt 0 q with h | h
  · rw [trunc_spec (Or.inl ⟨h, rfl⟩), abs_of_nonneg h, Int.floor_eq_zero_iff, Set.mem_Ico]
    exact ⟨fun x => x.2, fun x => ⟨h, x⟩⟩
  · rw [trunc_spec (Or.inr ⟨h, rfl⟩), abs_of_neg h, Int.ceil_eq_zero_iff, Set.mem_Ioc]
    constructor
    · intro x; linarith [x.1]
    · intro x; exact ⟨by linarith, h.le⟩

theorem getHead_line {h : Head} {l : Line} (hl : HeadLine h l) (rest : List Line) : getHead (l :: rest) = .ok (h, rest) := by
  obtain ⟨q, t1, t2, t3, t4, t5, t6, tail, rfl, h1, hq, h2, h3, h4, h5, h6⟩ := hl
  have := getCont_line (c := ⟨q, h.awr, h.l1, h.l2, h.n1, h.n2⟩) ⟨t1, t2, t3, t4, t5, t6, tail, rfl, h1, h2, h3, h4, h5, h6⟩ rest
  unfold getCont at this
  unfold getHead
  simp only [bind, Except.bind, pure, Except.pure] at this ⊢
  split at this
  · exact absurd this (by simp)
  rename_i v1 e1
  split at this
  · exact absurd this (by simp)
  rename_i v2 e2
  split at this
  · exact absurd this (by simp)
  rename_i v3 e3
  split at this
  · exact absurd this (by simp)
  rename_i v4 e4
  split at this
  · exact absurd this (by simp)
  rename_i v5 e5
  split at this
  · exact absurd this (by simp)
  rename_i v6 e6
  simp only [Except.ok.injEq, Prod.mk.injEq, Cont.mk.injEq] at this
  obtain ⟨⟨rfl, rfl, rfl, rfl, rfl, rfl⟩, hrest⟩ := this
  simp only [e1, e2, e3, e4, e5, e6, hrest]
  rw [trunc_spec hq]

theorem dirEntry_line {e : Int × Int × Int × Int} {l : Line} (h : DirLine e l) : dirEntry l = .ok e := by
  obtain ⟨b, t3, t4, t5, t6, tail, rfl, lb, ⟨l3, r3⟩, ⟨l4, r4⟩, ⟨l5, r5⟩, l6, r6⟩ := h
  have e3 : col (b ++ t3 ++ t4 ++ t5 ++ t6 ++ tail) 22 33 = t3 := by
    have := col_mid b t3 (t4 ++ t5 ++ t6 ++ tail) 22 33 (by simp [lb]) (by simp [lb, l3])
    simpa using this
  have e4 : col (b ++ t3 ++ t4 ++ t5 ++ t6 ++ tail) 33 44 = t4 := by
    have := col_mid (b ++ t3) t4 (t5 ++ t6 ++ tail) 33 44 (by simp [lb, l3]) (by simp [lb, l3, l4])
    simpa using this
  have e5 : col (b ++ t3 ++ t4 ++ t5 ++ t6 ++ tail) 44 55 = t5 := by
    have := col_mid (b ++ t3 ++ t4) t5 (t6 ++ tail) 44 55 (by simp [lb, l3, l4]) (by simp [lb, l3, l4, l5])
    simpa using this
  have e6 : col (b ++ t3 ++ t4 ++ t5 ++ t6 ++ tail) 55 66 = t6 :=
    col_mid (b ++ t3 ++ t4 ++ t5) t6 tail 55 66 (by simp [lb, l3, l4, l5]) (by simp [lb, l3, l4, l5, l6])
  obtain ⟨mf, mt, nc, md⟩ := e
  simp only at r3 r4 r5 r6
  unfold dirEntry
  simp only [e3, e4, e5, e6, r3, r4, r5, bind, Except.bind, pure, Except.pure]
  rcases r6 with r6 | ⟨r6, r7⟩
  · simp only [r6]
  · simp only [r6, r7]

theorem texts_lines (ts rest : List Line) : texts ts.length (ts ++ rest) = (ts.map (·.take 66), rest) := by
  induction ts with
  | nil => rfl
  | cons t ts ih => simp [texts, getText, readline, ih]

theorem directory_lines {es : List (Int × Int × Int × Int)} {ls : List Line} (h : List.Forall₂ DirLine es ls) (rest : List Line) :
    directory es.length (ls ++ rest) = .ok es := by
  induction h with
  | nil => rfl
  | @cons e l es ls he _ ih =>
    simp only [List.length_cons, directory, List.cons_append, readline, dirEntry_line he, ih]
    rfl

/-- C72: a section (1, 451) in the ENDF-6 format is read exactly, for every number of text lines and of directory entries: charge and mass number,
mass, flags, temperature, text, and the whole directory in order; entries without MOD count as MOD 0. (The one exception is deliberate: the
first metastable state of Am-242.) -/
theorem C72_header (r : Recs) (lh l1 l2 l3 : Line) (ts : List Line) (es : List (Int × Int × Int × Int)) (ds rest : List Line)
    (hh : HeadLine r.head lh) (h1 : ContLine r.c1 l1) (h2 : ContLine r.c2 l2) (h3 : ContLine r.c3 l3) (hfmt : r.c1.n2 = 6)
    (hnw : r.c3.n1 = ts.length) (hnx : r.c3.n2 = es.length) (hd : List.Forall₂ DirLine es ds) :
    ∃ H, readHeader (lh :: l1 :: l2 :: l3 :: (ts ++ (ds ++ rest))) = .ok H ∧ H.za = r.head.za ∧ H.mass = r.head.awr ∧
      H.fissionable = decide (r.head.l2 = 1) ∧ H.libraryCode = r.head.n1 ∧ H.modification = r.head.n2 ∧ H.lrp = r.head.l1 ∧ (H.stable = true ↔ |r.c1.c2| < 1) ∧ H.release = r.c2.l1 ∧ H.excitation = r.c1.c1 ∧ H.isomeric = r.c1.l2 ∧
      (¬ (r.head.za = 95242 ∧ r.c1.l2 = 1) → H.state = r.c1.l1) ∧ H.projectileMass = r.c2.c1 ∧ H.energyMax = r.c2.c2 ∧
      H.sublibrary = r.c2.n1 ∧ H.version = r.c2.n2 ∧ H.temperature = r.c3.c1 ∧ H.derived = decide (r.c3.l1 > 0) ∧
      H.text = ts.map (·.take 66) ∧ H.reactions = es := by
  have ht := texts_lines ts (ds ++ rest)
  have hdir := directory_lines hd rest
  refine ⟨{ za := r.head.za, mass := r.head.awr, lrp := r.head.l1, fissionable := decide (r.head.l2 = 1), libraryCode := r.head.n1,
            modification := r.head.n2, excitation := r.c1.c1, stable := decide (trunc r.c1.c2 = 0),
            state := if r.head.za / 1000 = 95 ∧ r.head.za % 1000 = 242 ∧ r.c1.l2 = 1 then 2 else r.c1.l1,
            isomeric := r.c1.l2, projectileMass := r.c2.c1, energyMax := r.c2.c2, release := r.c2.l1, sublibrary := r.c2.n1,
            version := r.c2.n2, temperature := r.c3.c1, derived := decide (r.c3.l1 > 0), text := ts.map (·.take 66), reactions := es },
    ?_, rfl, rfl, rfl, rfl, rfl, rfl, ?_, rfl, rfl, rfl, ?_, rfl, rfl, rfl, rfl, rfl, rfl, rfl, rfl⟩
  · unfold readHeader
    simp only [bind, Except.bind, pure, Except.pure, getHead_line hh, getCont_line h1, getCont_line h2, getCont_line h3, hfmt, ne_eq,
      not_true_eq_false, if_false, hnw, hnx, Int.toNat_natCast, ht, hdir]
  · simp only [decide_eq_true_eq, trunc_zero_iff]
  · intro hn
    simp only
    rw [if_neg]
    rintro ⟨a, b, c⟩
    exact hn ⟨by omega, c⟩

/-- A header section with one text line and two directory entries, the second without MOD. -/
def exA1 : Line := " 1.001000+3 9.991673-1          0          0          7          19999 1451    1\n".toList
def exA2 : Line := " 0.000000+0 0.000000+0          0          0          0          69999 1451    2\n".toList
def exA3 : Line := " 1.000000+0 2.000000+7          0          0         10          89999 1451    3\n".toList
def exA4 : Line := " 2.936000+2 0.000000+0          1          0          1          29999 1451    4\n".toList
def exA5 : Line := "  1-H -  1 text                                                   9999 1451    5\n".toList
def exA6 : Line := "                                1        451          7          59999 1451    6\n".toList
def exA7 : Line := "                                3          1          3           9999 1451    7\n".toList
def exHdr : Header := ⟨1001, 9991673 / 10000000, 0, false, 7, 1, 0, true, 0, 0, 1, 20000000, 0, 10, 8, 1468 / 5, true, [exA5.take 66], [(1, 451, 7, 5), (3, 1, 3, 0)]⟩

example : HeadLine ⟨1001, 9991673 / 10000000, 0, 0, 7, 1⟩ exA1 ∧ List.Forall₂ DirLine [(1, 451, 7, 5), (3, 1, 3, 0)] [exA6, exA7] := by
  have f : ∀ {α : Type} {r : List Char → Except PyErr α} {t : List Char} {v : α}, t.length = 11 → r t = .ok v → Field r t v := fun h1 h2 => ⟨h1, h2⟩
  refine ⟨⟨1001, exA1.take 11, (exA1.drop 11).take 11, (exA1.drop 22).take 11, (exA1.drop 33).take 11, (exA1.drop 44).take 11, (exA1.drop 55).take 11,
    exA1.drop 66, by decide, f (by decide) (by decide +kernel), Or.inl ⟨by norm_num, by norm_num⟩, f (by decide) (by decide +kernel), f (by decide) (by decide +kernel),
    f (by decide) (by decide +kernel), f (by decide) (by decide +kernel), f (by decide) (by decide +kernel)⟩, .cons ?_ (.cons ?_ .nil)⟩
  · exact ⟨exA6.take 22, (exA6.drop 22).take 11, (exA6.drop 33).take 11, (exA6.drop 44).take 11, (exA6.drop 55).take 11,
      exA6.drop 66, by decide, by decide, f (by decide) (by decide +kernel), f (by decide) (by decide +kernel), f (by decide) (by decide +kernel),
      by decide, .inl (by decide +kernel)⟩
  · exact ⟨exA7.take 22, (exA7.drop 22).take 11, (exA7.drop 33).take 11, (exA7.drop 44).take 11, (exA7.drop 55).take 11,
      exA7.drop 66, by decide, by decide, f (by decide) (by decide +kernel), f (by decide) (by decide +kernel), f (by decide) (by decide +kernel),
      by decide, .inr ⟨by decide +kernel, rfl⟩⟩

/-- The evaluation with this header and a second section: it meets the hypotheses of C71. -/
def exSend1 : Line := "                                                                  9999 1  099999\n".toList
def exMate : Mate :=
  ⟨9999, [exTape], [⟨1, 451, exA1, [exA2, exA3, exA4, exA5, exA6, exA7], exSend1, [exFend]⟩, ⟨3, 1, exHead, [exL1, exL2], exSend, [exFend]⟩], exMend, exHdr⟩

theorem exMate_ok : exMate.Ok := by
  refine ⟨⟨by decide, by simp [exMate], by decide +kernel, ?_, by decide, 0, 0, by decide +kernel, by decide +kernel, by decide +kernel⟩, ?_,
    ⟨1, 451, exA1, [exA2, exA3, exA4, exA5, exA6, exA7], exSend1, [exFend]⟩, by simp [exMate], rfl, rfl, by decide +kernel⟩
  · intro s hs
    have hs : s ∈ [(⟨1, 451, exA1, [exA2, exA3, exA4, exA5, exA6, exA7], exSend1, [exFend]⟩ : Sec), ⟨3, 1, exHead, [exL1, exL2], exSend, [exFend]⟩] := hs
    rw [List.mem_cons] at hs
    rcases hs with rfl | hs
    · refine ⟨by decide, by decide, ⟨by decide +kernel, by decide +kernel, by decide +kernel⟩, by decide, by decide, ?_⟩
      intro l hl
      rw [List.mem_singleton] at hl
      subst hl
      exact ⟨9999, 0, 0, ⟨by decide +kernel, by decide +kernel, by decide +kernel⟩, by decide, by decide⟩
    · rw [List.mem_singleton] at hs
      subst hs
      exact exMaterial.2.2.2.1 _ (by simp)
  · intro l hl
    have : l = exTape := by simpa [Mate.text, materialText, exMate] using hl.symm
    subst this
    decide +kernel

def exTend : Line := "                                                                    -1 0  0    0\n".toList

example : ∃ r, GetEvals false (matesText [exMate, exMate] [exTend]) [] (.ok r) ∧ r.length = 2 :=
  ⟨_, C71_all_read_partial [exMate, exMate] (by intro m hm; simp at hm; exact hm ▸ exMate_ok) [exTend] (by decide +kernel) [], rfl⟩

/-! ### C73: INTG records -/

/-- C73 is false: a line with the two elements (3,1) = 12 and (3,2) = 34 (two digits) gives the correlation 0.345 to (3,1) and none to (3,2): all
elements of a line are put on its first column. -/
def exIntg : List Line :=
  [" 0.000000+0 0.000000+0          2          3          1          09999 3  1    1\n".toList,
   "    3    1  12 34\n".toList]

theorem C73_refuted : (match getIntg exIntg with
    | .ok ⟨3, m, _⟩ => decide (m 2 0 = 345 / 1000 ∧ m 2 1 = 0)
    | _ => false) = true := by decide +kernel

theorem intgRow_diag {n : Nat} (ndigit : Nat) (line : Line) (ii jj : Int) (h1 : 0 ≤ jj) : ∀ (k j : Nat) (m m' : Mat n),
    intgRow ndigit line ii jj j k m = .ok m' → ∀ a, m' a a = m a a := by
  intro k
  induction k with
  | zero =>
    intro j m m' h a
    simp only [intgRow, Except.ok.injEq] at h
    rw [h]
  | succ k ih =>
    intro j m m' h a
    rw [intgRow] at h
    split at h
    · simp only [Except.ok.injEq] at h
      rw [h]
    rename_i hlt
    have hne : ∀ r c : Fin n, npIndex n ii = .ok r → npIndex n jj = .ok c → r ≠ c := by
      intro r c hr hc e
      subst e
      unfold npIndex at hr hc
      have hji : jj < ii := by omega
      rw [dif_neg (c := 0 ≤ jj ∧ jj.toNat < n)] at hc
      · rw [dif_neg (by omega)] at hc
        exact absurd hc (by simp)
      · intro hjn
        rw [dif_pos hjn] at hc
        split at hr
        · simp only [Except.ok.injEq, Fin.ext_iff] at hr hc
          rw [← hr] at hc
          omega
        · split at hr
          · omega
          · exact absurd hr (by simp)
    simp only [bind, Except.bind] at h
    split at h
    · exact absurd h (by simp)
    split at h
    · split at h
      · exact absurd h (by simp)
      rename_i r hr
      split at h
      · exact absurd h (by simp)
      rename_i c hc
      rw [ih _ _ _ h a]
      rw [if_neg]
      rintro ⟨e1, e2⟩
      exact hne r c hr hc (e1.symm.trans e2)
    · split at h
      · split at h
        · exact absurd h (by simp)
        rename_i r hr
        split at h
        · exact absurd h (by simp)
        rename_i c hc
        rw [ih _ _ _ h a]
        rw [if_neg]
        rintro ⟨e1, e2⟩
        exact hne r c hr hc (e1.symm.trans e2)
      · exact ih _ _ _ h a

theorem intgLines_diag {n : Nat} (ndigit nrow : Nat) : ∀ (k : Nat) (m : Mat n) (f : List Line) (m' : Mat n) (f' : List Line),
    intgLines ndigit nrow k m f = .ok (m', f') → (∀ l ∈ f.take k, ∃ v : Int, 1 ≤ v ∧ intEndf (col l 5 10) = .ok v) → k ≤ f.length →
    ∀ a, m' a a = m a a := by
  intro k
  induction k with
  | zero =>
    intro m f m' f' h _ _ a
    simp only [intgLines, Except.ok.injEq, Prod.mk.injEq] at h
    rw [h.1]
  | succ k ih =>
    intro m f m' f' h hj hlen a
    cases f with
    | nil => simp at hlen
    | cons l ls =>
      obtain ⟨v, hv, hv'⟩ := hj l (by simp)
      simp only [intgLines, bind, Except.bind, readline, hv'] at h
      split at h
      · exact absurd h (by simp)
      split at h
      · exact absurd h (by simp)
      rename_i m1 hm1
      rw [ih m1 ls m' f' h (fun x hx => hj x (by simp [hx])) (by simpa using hlen) a]
      exact intgRow_diag ndigit l _ _ (by omega) _ _ _ _ hm1 a

/-- C73, the part that holds: the matrix read from an INTG record is symmetric; and its diagonal is 1 if every line is there and gives a column number
of at least 1. -/
theorem C73_symmetric_partial (l : Line) (c : Cont) (hc : ContLine c l) (ls : List Line) (n : Nat) (m : Mat n) (rest : List Line)
    (h : getIntg (l :: ls) = .ok ⟨n, m, rest⟩) :
    (∀ a b, m a b = m b a) ∧
    (c.n1.toNat ≤ ls.length → (∀ x ∈ ls.take c.n1.toNat, ∃ v : Int, 1 ≤ v ∧ intEndf (col x 5 10) = .ok v) → ∀ a, m a a = 1) := by
  unfold getIntg at h
  simp only [bind, Except.bind, pure, Except.pure, getCont_line hc] at h
  split at h
  · exact absurd h (by simp)
  split at h
  · exact absurd h (by simp)
  split at h
  · exact absurd h (by simp)
  rename_i p hp
  simp only [Except.ok.injEq] at h
  obtain ⟨m1, f1⟩ := p
  injection h with hn hm
  subst hn
  simp only [heq_eq_eq, Prod.mk.injEq] at hm
  obtain ⟨hm, -⟩ := hm
  subst hm
  constructor
  · intro a b
    by_cases e : a = b
    · subst e; rfl
    · show m1 a b + m1 b a - (if a = b then m1 a a else 0) = m1 b a + m1 a b - (if b = a then m1 b b else 0)
      rw [if_neg e, if_neg (fun h => e h.symm)]
      ring
  · intro hlen hj a
    have := intgLines_diag _ _ _ _ _ _ _ hp hj hlen a
    simp only [if_true] at this ⊢
    rw [this]
    ring

example : ∃ m rest, getIntg exIntg = .ok ⟨3, m, rest⟩ := by
  have := C73_refuted
  split at this
  · rename_i m f e
    exact ⟨m, f, e⟩
  · exact absurd this (by decide)

theorem intgRow_zeros {n : Nat} (nd : Nat) (l : Line) (ii jj : Int) (m : Mat n)
    (h : ∀ j : Nat, 1 ≤ j → jj + j < ii → intEndf (col l (11 + (nd + 1) * j) (11 + (nd + 1) * (j + 1))) = .ok 0) :
    ∀ (k j : Nat), 1 ≤ j → intgRow nd l ii jj j k m = .ok m := by
  intro k
  induction k with
  | zero => intros; rfl
  | succ k ih =>
    intro j hj
    rw [intgRow]
    split
    · rfl
    · rw [h j hj (by omega)]
      exact ih (j + 1) (by omega)

theorem npIndex_ok {n : Nat} {i : Int} (h0 : 0 ≤ i) (h1 : i < n) : ∃ r : Fin n, npIndex n i = .ok r ∧ (r.val : Int) = i := by
  have h : 0 ≤ i ∧ i.toNat < n := ⟨h0, by omega⟩
  refine ⟨⟨i.toNat, h.2⟩, ?_, by simp [h0]⟩
  unfold npIndex
  rw [dif_pos h]

theorem intgRow_single {n nd : Nat} {ii jj e : Int} {l : Line} (hl : IntgLine n nd ii jj e l) (k : Nat) (m : Mat n) :
    intgRow nd l (ii - 1) (jj - 1) 0 (k + 1) m =
      .ok fun a b => if (a.val : Int) = ii - 1 ∧ (b.val : Int) = jj - 1 then corrOf nd e else m a b := by
  obtain ⟨-, -, h1, h2, h3, h4, h5, h6⟩ := hl
  have hz := fun m : Mat n => intgRow_zeros nd l (ii - 1) (jj - 1) m (fun j hj hlt => h6 j hj (by omega)) k 1 le_rfl
  obtain ⟨r, hr, hr'⟩ := npIndex_ok (n := n) (i := ii - 1) (by omega) (by omega)
  obtain ⟨c, hc, hc'⟩ := npIndex_ok (n := n) (i := jj - 1) (by omega) (by omega)
  have hrc : ∀ a b : Fin n, (a = r ∧ b = c) ↔ ((a.val : Int) = ii - 1 ∧ (b.val : Int) = jj - 1) := by
    intro a b
    rw [Fin.ext_iff, Fin.ext_iff]
    omega
  have h5' : intEndf (col l (11 + (nd + 1) * 0) (11 + (nd + 1) * (0 + 1))) = .ok e := by
    rw [show 11 + (nd + 1) * 0 = 11 by omega, show 11 + (nd + 1) * (0 + 1) = 12 + nd by omega]
    exact h5
  rw [intgRow, if_neg (by omega), h5']
  simp only [bind, Except.bind, hr, hc]
  by_cases he : e > 0
  · rw [if_pos he, Nat.zero_add, hz]
    congr 1
    funext a b
    simp only [hrc, corrOf, if_pos he]
  · rw [if_neg he, if_pos (by omega), Nat.zero_add, hz]
    congr 1
    funext a b
    simp only [hrc, corrOf, if_neg he]

theorem intgLines_single {n nd k : Nat} {es : List (Int × Int × Int)} {ls : List Line}
    (h : List.Forall₂ (fun e l => IntgLine n nd e.1 e.2.1 e.2.2 l) es ls) (hd : (es.map fun e => (e.1, e.2.1)).Nodup) (rest : List Line) :
    ∀ m : Mat n, ∃ m', intgLines nd (k + 1) es.length m (ls ++ rest) = .ok (m', rest) ∧
      (∀ e ∈ es, ∀ a b : Fin n, (a.val : Int) = e.1 - 1 → (b.val : Int) = e.2.1 - 1 → m' a b = corrOf nd e.2.2) ∧
      ∀ a b : Fin n, (∀ e ∈ es, ¬ ((a.val : Int) = e.1 - 1 ∧ (b.val : Int) = e.2.1 - 1)) → m' a b = m a b := by
  induction h with
  | nil => intro m; exact ⟨m, rfl, by simp, by simp⟩
  | @cons e l es ls hl hls ih =>
    intro m
    simp only [List.map_cons, List.nodup_cons] at hd
    obtain ⟨m', h1, h2, h3⟩ := ih hd.2 (fun a b => if (a.val : Int) = e.1 - 1 ∧ (b.val : Int) = e.2.1 - 1 then corrOf nd e.2.2 else m a b)
    refine ⟨m', ?_, ?_, ?_⟩
    · simp only [List.length_cons, intgLines, List.cons_append, readline, bind, Except.bind, hl.1, hl.2.1, intgRow_single hl]
      exact h1
    · intro x hx a b ha hb
      rcases List.mem_cons.mp hx with rfl | hx
      · rw [h3 a b, if_pos ⟨ha, hb⟩]
        rintro y hy ⟨ha', hb'⟩
        exact hd.1 (List.mem_map.mpr ⟨y, hy, by ext <;> simp <;> omega⟩)
      · exact h2 x hx a b ha hb
    · intro a b hne
      rw [h3 a b (fun y hy => hne y (by simp [hy])), if_neg (hne e (by simp))]

/-- C73, another part that holds: if every line of the record has one element, the matrix has exactly these correlations, at their rows and columns
(and symmetrically), 1 on the diagonal and 0 elsewhere; and the record is consumed. -/
theorem C73_single_partial (l : Line) (c : Cont) (hc : ContLine c l) (n nrow : Nat) (hn : c.l2 = n) (hr : nrowRules c.l1 = .ok nrow)
    (es : List (Int × Int × Int)) (ls rest : List Line) (hk : c.n1 = es.length)
    (h : List.Forall₂ (fun e l => IntgLine n c.l1.toNat e.1 e.2.1 e.2.2 l) es ls) (hd : (es.map fun e => (e.1, e.2.1)).Nodup) :
    ∃ m : Mat n, getIntg (l :: (ls ++ rest)) = .ok ⟨n, m, rest⟩ ∧ (∀ a, m a a = 1) ∧ (∀ a b, m a b = m b a) ∧
      (∀ e ∈ es, ∀ a b : Fin n, (a.val : Int) = e.1 - 1 → (b.val : Int) = e.2.1 - 1 → m a b = corrOf c.l1.toNat e.2.2) ∧
      ∀ a b : Fin n, b < a → (∀ e ∈ es, ¬ ((a.val : Int) = e.1 - 1 ∧ (b.val : Int) = e.2.1 - 1)) → m a b = 0 := by
  obtain ⟨k, rfl⟩ : ∃ k, nrow = k + 1 := by
    unfold nrowRules at hr
    split at hr <;> simp at hr <;> exact ⟨nrow - 1, by omega⟩
  have hlt : ∀ e ∈ es, e.2.1 < e.1 := by
    clear hk hd
    induction h with
    | nil => simp
    | @cons a b es ls h1 _ ih =>
      intro e he
      rcases List.mem_cons.mp he with rfl | he
      · exact h1.2.2.2.1
      · exact ih e he
  obtain ⟨m', h1, h2, h3⟩ := intgLines_single (k := k) h hd rest fun a b => if a = b then 1 else 0
  have hup : ∀ a b : Fin n, a ≤ b → m' a b = if a = b then 1 else 0 := by
    intro a b hab
    apply h3
    rintro e he ⟨ha, hb⟩
    have := hlt e he
    have : a.val ≤ b.val := hab
    omega
  have hoff : ∀ a b : Fin n, b < a → m' a b + m' b a - (if a = b then m' a a else 0) = m' a b := by
    intro a b hab
    rw [hup b a (le_of_lt hab), if_neg (ne_of_lt hab), if_neg (ne_of_gt hab)]
    ring
  refine ⟨fun a b => m' a b + m' b a - (if a = b then m' a a else 0), ?_, ?_, ?_, ?_, ?_⟩
  · unfold getIntg
    have e0 : ¬ c.l2 < 0 := by omega
    simp only [bind, Except.bind, pure, Except.pure, getCont_line hc, hr, if_neg e0]
    have en : c.l2.toNat = n := by omega
    have ek : c.n1.toNat = es.length := by omega
    rw [ek]
    subst en
    rw [h1]
  · intro a
    show m' a a + m' a a - (if a = a then m' a a else 0) = 1
    rw [if_pos rfl, hup a a le_rfl, if_pos rfl]
    ring
  · intro a b
    show m' a b + m' b a - (if a = b then m' a a else 0) = m' b a + m' a b - (if b = a then m' b b else 0)
    by_cases e : a = b
    · subst e; rfl
    · rw [if_neg e, if_neg (fun h => e h.symm)]
      ring
  · intro e he a b ha hb
    have : b < a := by
      have := hlt e he
      show b.val < a.val
      omega
    show m' a b + m' b a - (if a = b then m' a a else 0) = _
    rw [hoff a b this]
    exact h2 e he a b ha hb
  · intro a b hab hne
    show m' a b + m' b a - (if a = b then m' a a else 0) = _
    rw [hoff a b hab, h3 a b hne, if_neg (ne_of_gt hab)]

example : IntgLine 3 2 3 1 (-12) "    3    1 -12\n".toList := by
  refine ⟨by decide +kernel, by decide +kernel, by decide, by decide, by decide, by decide, by decide +kernel, ?_⟩
  intro j hj hlt
  have : j = 1 := by omega
  subst this
  decide +kernel

end ASAPy.Endf
