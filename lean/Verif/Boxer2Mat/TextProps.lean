import Verif.Boxer2Mat.Text
import Verif.Boxer2Mat.TextSpec
import Verif.Boxer2Mat.FileProps

/-! # boxer2mat on text does what it does on pages -/

namespace ASAPy.Boxr
open ASAPy.Dec ASAPy.Boxer

/-! ### Fields -/

theorem field_exact {w : Nat} {t rest : Line} (hl : t.length = w) (hc : ',' ∉ t) : field w (t ++ rest) = (t, rest) := by
  subst hl
  unfold field
  rw [List.take_left, List.drop_left, if_neg hc]

theorem digits_ok {s : Line} (h0 : s ≠ []) (h : ∀ c ∈ s, isDigit c = true) : digits s = some (natVal s) := by
  unfold digits
  rw [if_pos ⟨h0, by simpa [List.all_eq_true] using h⟩]

theorem filter_blanks (b : Nat) {s : Line} (h : ∀ c ∈ s, c ≠ ' ') : (List.replicate b ' ' ++ s).filter (fun c => decide (c ≠ ' ')) = s := by
  rw [List.filter_append, List.filter_eq_nil_iff.mpr (by intro a ha; simp [List.eq_of_mem_replicate ha]), List.nil_append, List.filter_eq_self.mpr (by intro a ha; simpa using h a ha)]

theorem digit_ne {c d : Char} (h : isDigit c = true) (hd : isDigit d = false) : c ≠ d := by rintro rfl; rw [h] at hd; cases hd

theorem intStr_plain (n : Int) : (∀ c ∈ AceData.intStr n, c ≠ ' ' ∧ c ≠ ',') := by
  intro c hc
  unfold AceData.intStr at hc
  split_ifs at hc with h
  · rcases List.mem_cons.mp hc with rfl | hc
    · decide
    · have := natStr_digits _ c hc
      exact ⟨digit_ne this (by decide), digit_ne this (by decide)⟩
  · have := natStr_digits _ c hc
    exact ⟨digit_ne this (by decide), digit_ne this (by decide)⟩

theorem natStr_cons (n : Nat) : ∃ c cs, natStr n = c :: cs ∧ isDigit c = true := by
  cases h : natStr n with
  | nil => exact absurd h (natStr_ne_nil n)
  | cons c cs => exact ⟨c, cs, rfl, natStr_digits n c (by rw [h]; simp)⟩

theorem readInt_field {w : Nat} {t : Line} {n : Int} (h : IntField w t n) : readInt t = some n ∧ ',' ∉ t := by
  obtain ⟨-, b, rfl⟩ := h
  have hp := intStr_plain n
  constructor
  · unfold readInt
    rw [filter_blanks b fun c hc => (hp c hc).1]
    unfold AceData.intStr
    split_ifs with h
    · show Option.map _ (digits (natStr n.natAbs)) = _
      rw [digits_ok (natStr_ne_nil _) (natStr_digits _), natVal_natStr, Option.map_some, Option.some.injEq]
      omega
    · obtain ⟨c, cs, e, hc⟩ := natStr_cons n.natAbs
      have hd : digits (natStr n.natAbs) = some n.natAbs := by rw [digits_ok (natStr_ne_nil _) (natStr_digits _), natVal_natStr]
      rw [e] at hd ⊢
      split
      · rename_i he; cases he
      · rename_i he; obtain ⟨rfl, -⟩ := List.cons.inj he; exact absurd hc (by decide)
      · rename_i he; obtain ⟨rfl, -⟩ := List.cons.inj he; exact absurd hc (by decide)
      · rw [hd, Option.map_some, Option.some.injEq]
        omega
  · intro hc
    rcases List.mem_append.mp hc with hc | hc
    · exact absurd (List.eq_of_mem_replicate hc) (by decide)
    · exact (hp _ hc).2 rfl

theorem readNat_field {w : Nat} {t : Line} {n : Nat} (h : IntField w t n) : readNat t = some n := by
  unfold readNat
  rw [(readInt_field h).1]

theorem readNats_fields : ∀ {ts : List Line} {fs : List (Nat × Nat)} (_ : List.Forall₂ (fun t (f : Nat × Nat) => IntField f.1 t f.2) ts fs) (tail : Line),
    readNats (fs.map Prod.fst) (ts.flatten ++ tail) = some (fs.map Prod.snd)
  | _, _, .nil, tail => rfl
  | _, _, .cons h hs, tail => by
    rw [List.map_cons, List.map_cons, readNats, List.flatten_cons, List.append_assoc, field_exact h.1 (readInt_field h).2]
    simp only
    rw [readNat_field h, readNats_fields hs tail]
    rfl

theorem readHead_card {p : Page ℚ} {l : Line} (h : HeadCard p l) : readHead l = some (p.head, p.xval.length, p.icon.length) := by
  obtain ⟨ht, t, ts, tail, rfl, h1, h2⟩ := h
  have h3 := readNats_fields h2 tail
  simp only [List.map_cons, List.map_nil] at h3
  unfold readHead
  rw [List.append_assoc, List.append_assoc, field_exact h1.1 (readInt_field h1).2]
  simp only
  have e1 : (p.head.title ++ (ts.flatten ++ tail)).take 35 = p.head.title := by rw [← ht, List.take_left]
  have e2 : (p.head.title ++ (ts.flatten ++ tail)).drop 35 = ts.flatten ++ tail := by rw [← ht, List.drop_left]
  rw [e1, e2, readNat_field h1, h3, ht]
  simp

/-! ### Values -/

theorem takeWhile_digits {ds rest : Line} (h : ∀ c ∈ ds, isDigit c = true) (hr : ∀ c ∈ rest.head?, isDigit c = false) :
    (ds ++ rest).takeWhile isDigit = ds ∧ (ds ++ rest).dropWhile isDigit = rest := by
  have h' : ∀ c ∈ ds, isDigit c = true := h
  constructor
  · rw [List.takeWhile_append_of_pos h']
    cases rest with
    | nil => simp
    | cons c r => rw [List.takeWhile_cons_of_neg (by simp [hr c (by simp)])]; simp
  · rw [List.dropWhile_append_of_pos h']
    cases rest with
    | nil => rfl
    | cons c r => rw [List.dropWhile_cons_of_neg (by simp [hr c (by simp)])]

theorem readExp_ok {l : Char} (hl : l = 'E' ∨ l = 'e' ∨ l = 'D' ∨ l = 'd') {neg : Bool} {ds : Line} (h0 : ds ≠ []) (h : ∀ c ∈ ds, isDigit c = true) :
    readExp (l :: (if neg then '-' else '+') :: ds) = some (if neg then -(natVal ds : Int) else natVal ds) := by
  unfold readExp
  rcases hl with rfl | rfl | rfl | rfl <;> cases neg <;> simp [digits_ok h0 h]

theorem ten_pow (neg : Bool) (n : Nat) : ten (if neg then -(n : Int) else n) = if neg then 1 / (10 : ℚ) ^ n else 10 ^ n := by
  unfold ten
  cases neg
  · simp
  · rcases Nat.eq_zero_or_pos n with rfl | hn
    · simp
    · simp [hn]

theorem letter_digit {l : Char} (hl : l = 'E' ∨ l = 'e' ∨ l = 'D' ∨ l = 'd') : isDigit l = false ∧ l ≠ '.' ∧ l ≠ ' ' ∧ l ≠ ',' := by
  rcases hl with rfl | rfl | rfl | rfl <;> decide

/-- The exponent as it is read. -/
def exRead (k : Nat) (x : Lit) : Option Int := if x.exText = [] then some (-(k : Int)) else readExp x.exText

theorem readUnsigned_parts {x : Lit} (hx : x.Ok) {d k : Nat} :
    readUnsigned d k (x.ip ++ ((if x.point then '.' :: x.fp else []) ++ x.exText)) =
      (exRead k x).map fun e => (natVal (x.ip ++ x.fp) : ℚ) / 10 ^ (if x.point then x.fp.length else d) * ten e := by
  have hdot : isDigit '.' = false := by decide
  have hex : ∀ c ∈ x.exText.head?, isDigit c = false ∧ c ≠ '.' := by
    intro c hc
    unfold Lit.exText at hc
    cases he : x.ex with
    | none => rw [he] at hc; simp at hc
    | some e =>
      rw [he] at hc
      simp at hc
      subst hc
      exact ⟨(letter_digit hx.letter).1, (letter_digit hx.letter).2.1⟩
  cases hp : x.point with
  | true =>
    simp only [if_true, List.cons_append]
    obtain ⟨e1, e2⟩ := takeWhile_digits (rest := '.' :: (x.fp ++ x.exText)) hx.ip (by simp [hdot])
    obtain ⟨e3, e4⟩ := takeWhile_digits (rest := x.exText) hx.fp (fun c hc => (hex c hc).1)
    unfold readUnsigned exRead
    simp only [e1, e2, e3, e4, if_neg hx.some]
  | false =>
    have hfp := hx.point hp
    have hs := hx.some
    rw [hfp] at hs
    simp only [Bool.false_eq_true, if_false, List.nil_append]
    obtain ⟨e1, e2⟩ := takeWhile_digits (rest := x.exText) hx.ip (fun c hc => (hex c hc).1)
    unfold readUnsigned exRead
    simp only [e1, e2, hfp]
    cases ht : x.exText with
    | nil => simp only [if_neg hs]
    | cons c r =>
      have hc : c ≠ '.' := (hex c (by rw [ht]; rfl)).2
      split
      · rename_i h
        exact absurd (List.cons.inj h).1 hc
      · simp only [if_neg hs]

theorem exRead_ok {x : Lit} (hx : x.Ok) (w : Nat) : ∃ e, exRead (scaleOf w) x = some e ∧
    ten e = match x.ex with | none => if w ≤ 8 then 1 else 1 / 10 | some (neg, ds) => if neg then 1 / 10 ^ natVal ds else 10 ^ natVal ds := by
  unfold exRead Lit.exText
  cases he : x.ex with
  | none =>
    refine ⟨_, if_pos rfl, ?_⟩
    unfold scaleOf
    by_cases h : w ≤ 8
    · rw [if_pos (by omega), if_pos h]; simp [ten]
    · rw [if_neg (by omega), if_neg h]; simp [ten]
  | some e =>
    obtain ⟨neg, ds⟩ := e
    obtain ⟨h0, hd⟩ := hx.ex (neg, ds) (by rw [he]; rfl)
    refine ⟨_, (if_neg (by simp)).trans (readExp_ok hx.letter h0 hd), ?_⟩
    rw [ten_pow]

theorem readUnsigned_ok {x : Lit} (hx : x.Ok) (w : Nat) :
    (if x.neg then -1 else 1) * ((readUnsigned (decimalsOf w) (scaleOf w) (x.ip ++ ((if x.point then '.' :: x.fp else []) ++ x.exText))).getD 0) = x.value w ∧
      (readUnsigned (decimalsOf w) (scaleOf w) (x.ip ++ ((if x.point then '.' :: x.fp else []) ++ x.exText))).isSome := by
  obtain ⟨e, h1, h2⟩ := exRead_ok hx w
  rw [readUnsigned_parts hx, h1, Option.map_some, h2]
  refine ⟨?_, rfl⟩
  unfold Lit.value decimalsOf
  simp only [Option.getD_some, show (w < 9) ↔ w ≤ 8 by omega]
  cases x.ex <;> rfl

theorem lit_chars {x : Lit} (hx : x.Ok) : ∀ c ∈ x.text, c ≠ ' ' ∧ c ≠ ',' := by
  intro c hc
  have hdig : isDigit c = true → c ≠ ' ' ∧ c ≠ ',' := fun h => ⟨digit_ne h (by decide), digit_ne h (by decide)⟩
  unfold Lit.text at hc
  simp only [List.mem_append] at hc
  rcases hc with hc | hc | hc | hc
  · split_ifs at hc
    · simp at hc; subst hc; decide
    · simp at hc
  · exact hdig (hx.ip c hc)
  · split_ifs at hc
    · rcases List.mem_cons.1 hc with rfl | hc
      · decide
      · exact hdig (hx.fp c hc)
    · simp at hc
  · unfold Lit.exText at hc
    cases he : x.ex with
    | none => rw [he] at hc; simp at hc
    | some e =>
      rw [he] at hc
      obtain ⟨neg, ds⟩ := e
      simp only [List.mem_cons] at hc
      rcases hc with rfl | rfl | hc
      · exact (letter_digit hx.letter).2.2
      · cases neg <;> decide
      · exact hdig ((hx.ex _ (by rw [he]; rfl)).2 c hc)

theorem readReal_field {w : Nat} {t : Line} {q : ℚ} (h : RealField w t q) : readReal (decimalsOf w) (scaleOf w) t = some q ∧ ',' ∉ t := by
  obtain ⟨-, b, x, hx, rfl, hv⟩ := h
  have hp := lit_chars hx
  constructor
  · unfold readReal
    rw [filter_blanks b fun c hc => (hp c hc).1]
    obtain ⟨hu, hsome⟩ := readUnsigned_ok hx w
    obtain ⟨y, hy⟩ := Option.isSome_iff_exists.1 hsome
    rw [hy, Option.getD_some, hv] at hu
    rw [← hu]
    unfold Lit.text
    by_cases hn : x.neg = true
    · rw [if_pos hn, if_pos hn, List.singleton_append]
      simp only
      rw [hy]
      simp
    · simp only [Bool.not_eq_true] at hn
      simp only [hn, Bool.false_eq_true, if_false, List.nil_append, one_mul]
      rw [← hy]
      have hne : x.ip ++ ((if x.point then '.' :: x.fp else []) ++ x.exText) ≠ [] := by
        intro h0
        cases hpt : x.point with
        | true => rw [hpt] at h0; simp at h0
        | false =>
          have := hx.some
          rw [hx.point hpt, List.append_nil] at this
          exact this (List.append_eq_nil_iff.1 h0).1
      have hh : ∀ c ∈ (x.ip ++ ((if x.point then '.' :: x.fp else []) ++ x.exText)).head?, c ≠ '-' ∧ c ≠ '+' := by
        intro c hc
        cases hip : x.ip with
        | nil =>
          rw [hip] at hc
          cases hpt : x.point with
          | true => rw [hpt] at hc; simp at hc; subst hc; decide
          | false =>
            have := hx.some
            rw [hip, hx.point hpt] at this
            exact absurd rfl this
        | cons a r =>
          rw [hip] at hc
          simp at hc
          subst hc
          have := hx.ip a (by rw [hip]; simp)
          exact ⟨digit_ne this (by decide), digit_ne this (by decide)⟩
      split
      · rename_i he
        exact absurd he hne
      · rename_i he
        exact absurd rfl (hh '-' (by rw [he]; rfl)).1
      · rename_i he
        exact absurd rfl (hh '+' (by rw [he]; rfl)).2
      · rfl
  · intro hc
    rcases List.mem_append.mp hc with hc | hc
    · exact absurd (List.eq_of_mem_replicate hc) (by decide)
    · exact (hp _ hc).2 rfl

/-- A number without point in `F8.5`, one without exponent in `1PE9.2`, and one with another letter. -/
example : RealField 8 c!"  123456" (123456 / 100000) ∧ RealField 9 c!"     1.50" (15 / 100) ∧ RealField 9 c!" 1.50d-01" (15 / 100) := by
  refine ⟨⟨rfl, 2, ⟨false, c!"123456", false, [], 'E', none⟩, ⟨?_, ?_, ?_, ?_, ?_, ?_⟩, rfl, ?_⟩, ⟨rfl, 5, ⟨false, c!"1", true, c!"50", 'E', none⟩, ⟨?_, ?_, ?_, ?_, ?_, ?_⟩, rfl, ?_⟩,
    ⟨rfl, 1, ⟨false, c!"1", true, c!"50", 'd', some (true, c!"01")⟩, ⟨?_, ?_, ?_, ?_, ?_, ?_⟩, rfl, ?_⟩⟩ <;> decide +kernel

/-! ### Records -/

theorem readFields_ok {β : Type} {rd : Line → Option β} {F : Line → β → Prop} {w : Nat} (hF : ∀ t x, F t x → t.length = w ∧ ',' ∉ t ∧ rd t = some x) :
    ∀ {ts : List Line} {xs : List β} (_ : List.Forall₂ F ts xs) (tail : Line), readFields rd w xs.length (ts.flatten ++ tail) = some xs
  | _, _, .nil, _ => rfl
  | _, _, .cons h hs, tail => by
    obtain ⟨h1, h2, h3⟩ := hF _ _ h
    rw [List.length_cons, readFields, List.flatten_cons, List.append_assoc, field_exact h1 h2]
    simp only
    rw [h3, readFields_ok hF hs tail]
    rfl

theorem readData_ok {β : Type} {rd : Line → Option β} {F : Line → β → Prop} {w per : Nat} (hF : ∀ t x, F t x → t.length = w ∧ ',' ∉ t ∧ rd t = some x) (hper : 0 < per) (more : List Line) :
    ∀ {xs : List β} {ls : List Line} (_ : Records F per xs ls), readData rd w per xs.length (ls ++ more) = some (xs, more)
  | _, _, .nil => by simp [readData]
  | _, _, .last (xs := xs) (ts := ts) (tail := tail) h0 hl hf => by
    obtain ⟨n, hn⟩ : ∃ n, xs.length = n + 1 := ⟨xs.length - 1, by have := List.length_pos_iff.mpr h0; omega⟩
    rw [hn, List.singleton_append, readData, Nat.min_eq_right (by omega), ← hn, readFields_ok hF hf tail]
    simp only
    rw [Nat.sub_eq_zero_of_le hl]
    simp [readData]
  | _, _, .full (xs := xs) (ts := ts) (tail := tail) (rest := rest) (ls := ls) hl hf hr => by
    obtain ⟨n, hn⟩ : ∃ n, (xs ++ rest).length = n + 1 := ⟨(xs ++ rest).length - 1, by rw [List.length_append]; omega⟩
    have hle : per ≤ n + 1 := by rw [← hn, List.length_append]; omega
    rw [hn, List.cons_append, readData, Nat.min_eq_left hle, ← hl, readFields_ok hF hf tail]
    simp only
    have : n + 1 - xs.length = rest.length := by rw [← hn, List.length_append]; omega
    rw [this, hl, readData_ok hF hper more hr]
    rfl

theorem per_eq {w : Nat} (h1 : 1 ≤ w) (h2 : w ≤ 14) : perRecord w = 80 / w := by interval_cases w <;> rfl

theorem readPage_ok {p : Page ℚ} {vs ks : List Line} (hf : p.head.Formats) (hv : Records (RealField p.head.nvf) (80 / p.head.nvf) p.xval vs)
    (hk : Records (IntField p.head.ncf) (80 / p.head.ncf) p.icon ks) (more : List Line) : readPage p.head p.xval.length p.icon.length (vs ++ ks ++ more) = some (p, more) := by
  obtain ⟨⟨a, b⟩, c, d⟩ := hf
  unfold readPage
  rw [per_eq (by omega) b, per_eq c (by omega), List.append_assoc]
  rw [readData_ok (F := RealField p.head.nvf) (fun t x h => ⟨h.1, (readReal_field h).2, (readReal_field h).1⟩) (Nat.div_pos (by omega) (by omega)) (ks ++ more) hv]
  simp only
  rw [readData_ok (F := IntField p.head.ncf) (fun t x h => ⟨h.1, (readInt_field h).2, (readInt_field h).1⟩) (Nat.div_pos (by omega) (by omega)) more hk]

/-! ### Files -/

theorem findText_cons (r : Req) {l : Line} {ls ls' : List Line} {p : Page ℚ} (hh : readHead l = some (p.head, p.xval.length, p.icon.length)) (hf : formatsOk p.head = true)
    (hp : readPage p.head p.xval.length p.icon.length ls = some (p, ls')) :
    findText r (l :: ls) = if p.head.itype = 9 then .error .missing else if p.xval.length > 1880 then .error (.stop 3) else if p.icon.length > 1900 then .error (.stop 4)
      else if wanted r p.head = true then .ok (p, ls') else findText r ls' := by
  rw [findText]
  simp only [hh]
  rw [if_pos hf]
  congr 3
  split
  · rename_i he; rw [hp] at he; cases he
  · rename_i he
    rw [hp] at he
    obtain ⟨rfl, rfl⟩ := Prod.mk.inj (Option.some.inj he)
    rfl

theorem findText_ok (r : Req) {ps : List (Page ℚ)} {ls : List Line} (h : TapeText ps ls) :
    match find r ps with
    | .error e => findText r ls = .error e
    | .ok (p, rest) => ∃ ls', TapeText rest ls' ∧ findText r ls = .ok (p, ls') := by
  induction h with
  | nil => simp [find, findText]
  | @cons p ps l ls hp hs ih =>
    obtain ⟨l, vs, ks, rfl, hc, hf, hv, hk⟩ := hp
    rw [List.cons_append, findText_cons r (readHead_card hc) (formats_iff.mpr hf) (readPage_ok hf hv hk ls), find]
    by_cases h1 : p.head.itype = 9
    · rw [if_pos h1, if_pos h1]
    rw [if_neg h1, if_neg h1]
    by_cases h2 : p.xval.length > 1880
    · rw [if_pos h2, if_pos h2]
    rw [if_neg h2, if_neg h2]
    by_cases h3 : p.icon.length > 1900
    · rw [if_pos h3, if_pos h3]
    rw [if_neg h3, if_neg h3, if_pos (formats_iff.mpr hf)]
    by_cases h4 : wanted r p.head = true
    · rw [if_pos h4, if_pos h4]
      exact ⟨ls, hs, rfl⟩
    · rw [if_neg h4, if_neg h4]
      exact ih

/-- The part of a page before the next one is read. -/
theorem loadPages_eq (p : Page ℚ) (ps : List (Page ℚ)) (k : Nat) (s : St ℚ) :
    (∃ e, loadPages p ps k s = .error e ∧ ∀ ls, loadText p ls k s = .error e) ∨
    (∃ s', loadPages p ps k s = .ok (s', p, ps) ∧ ∀ ls, loadText p ls k s = .ok (s', p, ls)) ∨
    (∃ s' : St ℚ, (loadPages p ps k s = match ps with
        | [] => .error .ended
        | q :: rest => if formatsOk q.head then loadPages q rest (s'.i + 1) s' else .error .formats) ∧
      loadText p [] k s = .error .ended ∧
      ∀ l ls ls' q, readHead l = some (q.head, q.xval.length, q.icon.length) → formatsOk q.head = true → readPage q.head q.xval.length q.icon.length ls = some (q, ls') →
        loadText p (l :: ls) k s = loadText q ls' (s'.i + 1) s') := by
  by_cases h1 : p.head.nrow > 800 ∨ p.head.columns > 800
  · left
    exact ⟨.groups, by rw [loadPages, if_pos h1], fun ls => by rw [loadText, if_pos h1]⟩
  cases hc : controls p.head.nrow p.head.columns p.head.sym k p.icon p.xval s with
  | error e =>
    left
    exact ⟨e, by rw [loadPages, if_neg h1, hc], fun ls => by rw [loadText, if_neg h1, hc]⟩
  | ok s' =>
    by_cases h2 : p.head.nrowm = 0
    · by_cases h3 : s'.nx = p.head.nrow * p.head.columns
      · right; left
        exact ⟨s', by rw [loadPages, if_neg h1, hc]; simp only; rw [if_pos h2, if_pos h3], fun ls => by rw [loadText, if_neg h1, hc]; simp only; rw [if_pos h2, if_pos h3]⟩
      · left
        exact ⟨.stop 12, by rw [loadPages, if_neg h1, hc]; simp only; rw [if_pos h2, if_neg h3], fun ls => by rw [loadText, if_neg h1, hc]; simp only; rw [if_pos h2, if_neg h3]⟩
    · by_cases h3 : s'.j ≠ p.head.columns
      · left
        exact ⟨.stop 11, by rw [loadPages, if_neg h1, hc]; simp only; rw [if_neg h2, if_pos h3], fun ls => by rw [loadText, if_neg h1, hc]; simp only; rw [if_neg h2, if_pos h3]⟩
      · right; right
        refine ⟨s', by rw [loadPages, if_neg h1, hc]; simp only; rw [if_neg h2, if_neg h3]; cases ps <;> rfl, by rw [loadText, if_neg h1, hc]; simp only; rw [if_neg h2, if_neg h3], ?_⟩
        intro l ls ls' q hh hf hp
        rw [loadText, if_neg h1, hc]
        simp only
        rw [if_neg h2, if_neg h3]
        simp only [hh]
        rw [if_pos hf]
        split
        · rename_i he; rw [hp] at he; cases he
        · rename_i he
          rw [hp] at he
          obtain ⟨rfl, rfl⟩ := Prod.mk.inj (Option.some.inj he)
          rfl

theorem loadText_ok {ps : List (Page ℚ)} {ls : List Line} (h : TapeText ps ls) : ∀ (p : Page ℚ) (k : Nat) (s : St ℚ),
    match loadPages p ps k s with
    | .error e => loadText p ls k s = .error e
    | .ok (s', last, rest) => ∃ ls', TapeText rest ls' ∧ loadText p ls k s = .ok (s', last, ls') := by
  induction h with
  | nil =>
    intro p k s
    rcases loadPages_eq p [] k s with ⟨e, h1, h2⟩ | ⟨s', h1, h2⟩ | ⟨s', h1, h2, -⟩
    · rw [h1]; exact h2 []
    · rw [h1]; exact ⟨[], .nil, h2 []⟩
    · rw [h1]; exact h2
  | @cons q ps l ls hq hs ih =>
    intro p k s
    have hq' := hq
    obtain ⟨l, vs, ks, rfl, hc, hf, hv, hk⟩ := hq
    rcases loadPages_eq p (q :: ps) k s with ⟨e, h1, h2⟩ | ⟨s', h1, h2⟩ | ⟨s', h1, -, h2⟩
    · rw [h1]; exact h2 _
    · rw [h1]; exact ⟨_, .cons hq' hs, h2 _⟩
    · rw [h1]
      simp only
      rw [if_pos (formats_iff.mpr hf), List.cons_append, h2 l (vs ++ ks ++ ls) ls q (readHead_card hc) (formats_iff.mpr hf) (readPage_ok hf hv hk ls)]
      exact ih q (s'.i + 1) s'

theorem boxrText_ok (prt : ℚ → Fld) : ∀ (ins : List Line) (rs : List Req) (_ : ins.map readReq = rs.map some) (c : Nat → Nat → ℚ) {ps : List (Page ℚ)} {ls : List Line} (_ : TapeText ps ls),
    boxrText prt ins c ls = boxr prt rs c ps
  | [], [], _, _, _, _, _ => rfl
  | l :: ins, r :: rs, hr, c, ps, ls, h => by
    simp only [List.map_cons, List.cons.injEq] at hr
    rw [boxrText, boxr, hr.1]
    simp only
    split_ifs with h0
    · rfl
    unfold serveText serve
    have h1 := findText_ok r h
    cases hf : find r ps with
    | error e => rw [hf] at h1; simp only at h1; rw [h1]
    | ok x =>
      obtain ⟨p, rest⟩ := x
      rw [hf] at h1
      simp only at h1
      obtain ⟨ls1, ht, e⟩ := h1
      rw [e]
      simp only
      have h2 := loadText_ok ht p 1 ⟨c, 1, 0, 0⟩
      cases hl : loadPages p rest 1 ⟨c, 1, 0, 0⟩ with
      | error e => rw [hl] at h2; simp only at h2; rw [h2]
      | ok y =>
        obtain ⟨s, last, rest'⟩ := y
        rw [hl] at h2
        simp only at h2
        obtain ⟨ls2, ht2, e2⟩ := h2
        rw [e2]
        simp only
        rw [boxrText_ok prt ins rs hr.2 s.c ht2]
  | [], _ :: _, hr, _, _, _, _ => by simp at hr
  | _ :: _, [], hr, _, _, _, _ => by simp at hr

end ASAPy.Boxr
