import Verif.Boxer2Mat.Prog
import Verif.Boxer2Mat.TextProps
import Verif.Boxer2Mat.FileProps
import Verif.WriteAce.Props
import Verif.Files.Here

/-!
# C229: boxer2mat from the text of its input and of the BOXER file
-/

namespace ASAPy.Boxr
open ASAPy.Dec ASAPy.Boxer

/-! ### Specification -/

/-- The pages of a BOXER file have, in this order, the bounds `e 1`, ..., `e (n + 1)` of `n` groups, the cross sections `x`, the relative deviations `s` and the covariances `v` of a reaction with itself, each
compressed in whatever way, with other data before, between and after them. -/
def Carries (ps : List (Page ℚ)) (mat mt n : Nat) (e x s : Nat → ℚ) (v : Nat → Nat → ℚ) : Prop :=
  ∃ o0 o1 o2 o3 ps0 ps1 ps2 ps3 rest p0 p1 p2 p3 t0 t1 t2 t3,
    ps = o0 ++ (p0 :: ps0) ++ (o1 ++ (p1 :: ps1) ++ (o2 ++ (p2 :: ps2) ++ (o3 ++ (p3 :: ps3) ++ rest))) ∧
    Answer ⟨0, mat, mt, mat, mt⟩ (n + 1) 1 o0 p0 ps0 t0 ∧ Answer ⟨1, mat, mt, mat, mt⟩ n 1 o1 p1 ps1 t1 ∧
    Answer ⟨2, mat, mt, mat, mt⟩ n 1 o2 p2 ps2 t2 ∧ Answer ⟨3, mat, mt, mat, mt⟩ n n o3 p3 ps3 t3 ∧
    Decoded (fun i _ => e i) (cells (n + 1) 1 p0.head.sym) t0 ∧ Decoded (fun i _ => x i) (cells n 1 p1.head.sym) t1 ∧
    Decoded (fun i _ => s i) (cells n 1 p2.head.sym) t2 ∧ Decoded v (cells n n p3.head.sym) t3 ∧
    (p3.head.ncol = 0 → ∀ i j, 1 ≤ i → i ≤ n → 1 ≤ j → j ≤ n → v i j = v j i)

/-- The text of a BOXER file with these data. -/
def Tells (t : List Char) (mat mt n : Nat) (e x s : Nat → ℚ) (v : Nat → Nat → ℚ) : Prop :=
  ∃ ps, TapeText ps (linesOf t) ∧ Carries ps mat mt n e x s v

/-! ### Lines -/

/-- A line that ends where it should. -/
def Proper (l : Line) : Prop := ∃ body, l = body ++ ['\n'] ∧ '\n' ∉ body

theorem readlines_flatten {ls : List Line} (h : ∀ l ∈ ls, Proper l) : Str.readlines ls.flatten = ls := by
  have := WriteAce.readlines_header h []
  rw [List.append_nil] at this
  rw [this, show Str.readlines [] = [] from rfl, List.append_nil]

theorem linesOf_flatten {bs : List Line} (h : ∀ b ∈ bs, '\n' ∉ b) : linesOf (bs.map (· ++ ['\n'])).flatten = bs := by
  unfold linesOf
  rw [readlines_flatten (by
    intro l hl
    obtain ⟨b, hb, rfl⟩ := List.mem_map.1 hl
    exact ⟨b, rfl, h b hb⟩), List.map_map]
  conv_rhs => rw [← List.map_id bs]
  refine List.map_congr_left fun b hb => ?_
  simp only [Function.comp, List.filter_append, id]
  have : b.filter (fun c => decide (c ≠ '\n')) = b := List.filter_eq_self.2 fun c hc => decide_eq_true (by rintro rfl; exact h b hb hc)
  rw [this]
  simp

theorem linesOf_plain (t : List Char) : ∀ l ∈ linesOf t, '\n' ∉ l := by
  intro l hl
  obtain ⟨l', -, rfl⟩ := List.mem_map.1 hl
  simp

/-! ### The input -/

theorem natStr_length {n k : Nat} (hk : 0 < k) (h : n < 10 ^ k) : (natStr n).length ≤ k := by
  unfold natStr
  split_ifs with h0
  · exact hk
  · rw [List.length_reverse, List.length_map]
    exact (Nat.digits_length_le_iff (by norm_num) n).2 h

theorem digits_plain {s : Line} (h : ∀ c ∈ s, isDigit c = true) : ',' ∉ s ∧ '\n' ∉ s ∧ ' ' ∉ s :=
  ⟨fun hc => absurd (h _ hc) (by decide), fun hc => absurd (h _ hc) (by decide), fun hc => absurd (h _ hc) (by decide)⟩

theorem field_comma {w : Nat} {t rest : Line} (hl : t.length < w) (hc : ',' ∉ t) : field w (t ++ ',' :: rest) = (t, rest) := by
  have hm : ',' ∈ (t ++ ',' :: rest).take w := by
    rw [List.take_append, List.take_of_length_le (by omega)]
    obtain ⟨k, hk⟩ : ∃ k, w - t.length = k + 1 := ⟨w - t.length - 1, by omega⟩
    rw [hk]
    simp
  have ht : ∀ c ∈ t, decide (c ≠ ',') = true := fun c h => decide_eq_true fun e => hc (e ▸ h)
  unfold field
  rw [if_pos hm, List.takeWhile_append_of_pos ht, List.dropWhile_append_of_pos ht]
  simp

theorem field_short {w : Nat} {t : Line} (hl : t.length ≤ w) (hc : ',' ∉ t) : field w t = (t, []) := by
  unfold field
  rw [List.take_of_length_le hl, if_neg hc, List.drop_eq_nil_of_le hl]

theorem readNat_natStr (n : Nat) : readNat (natStr n) = some n :=
  readNat_field (w := (natStr n).length) ⟨rfl, 0, by simp [AceData.intStr]⟩

theorem readNats_commas : ∀ (ns : List Nat) (n : Nat), (∀ m ∈ n :: ns, m < 10 ^ 5) → ∀ k,
    readNats (List.replicate (ns.length + 1 + k) 6) (List.intercalate [','] ((n :: ns).map natStr)) = some (n :: ns ++ List.replicate k 0)
  | [], n, h, k => by
    have h1 := natStr_length (by norm_num) (h n (by simp))
    have hd := digits_plain (natStr_digits n)
    have e : List.intercalate [','] ([n].map natStr) = natStr n := by simp [List.intercalate]
    have hz : ∀ k, readNats (List.replicate k 6) [] = some (List.replicate k 0) := by
      intro k
      induction k with
      | zero => rfl
      | succ k ih =>
        rw [List.replicate_succ, readNats]
        have : readNat (field 6 []).1 = some 0 := by decide
        rw [this]
        simp only
        rw [show (field 6 []).2 = [] from rfl, ih]
        rfl
    rw [e, show [].length + 1 + k = k + 1 by simp [Nat.add_comm], List.replicate_succ, readNats, field_short (by omega) hd.1, readNat_natStr]
    simp [hz]
  | m :: ns, n, h, k => by
    have h1 := natStr_length (by norm_num) (h n (by simp))
    have hd := digits_plain (natStr_digits n)
    have e : List.intercalate [','] ((n :: m :: ns).map natStr) = natStr n ++ ',' :: List.intercalate [','] ((m :: ns).map natStr) := by simp [List.intercalate]
    rw [e, show (m :: ns).length + 1 + k = (ns.length + 1 + k) + 1 by simp; omega, List.replicate_succ, readNats, field_comma (by omega) hd.1, readNat_natStr]
    simp only
    rw [readNats_commas ns m (fun x hx => h x (by simp [hx])) k]
    rfl

theorem readReq_row (a b c d e : Nat) (h : ∀ m ∈ [a, b, c, d, e], m < 10 ^ 5) : readReq (List.intercalate [','] ([a, b, c, d, e].map natStr)) = some ⟨a, b, c, d, e⟩ := by
  have := readNats_commas [b, c, d, e] a h 0
  unfold readReq
  rw [show [6, 6, 6, 6, 6] = List.replicate ([b, c, d, e].length + 1 + 0) 6 from rfl, this]
  rfl

theorem readReq_end : readReq (List.intercalate [','] ([0, 0].map natStr)) = some ⟨0, 0, 0, 0, 0⟩ := by decide

theorem row_plain (ns : List Nat) : '\n' ∉ List.intercalate [','] (ns.map natStr) := by
  intro h
  have : ∀ l : List (List Char), (∀ x ∈ l, '\n' ∉ x) → '\n' ∉ List.intercalate [','] l := by
    intro l
    induction l with
    | nil => simp [List.intercalate]
    | cons x l ih =>
      intro hx
      cases l with
      | nil => simpa [List.intercalate] using hx x (by simp)
      | cons y l =>
        have := ih (fun z hz => hx z (by simp [hz]))
        simp only [List.intercalate, List.intersperse, List.flatten_cons, List.mem_append, not_or] at this ⊢
        exact ⟨hx x (by simp), by decide, this⟩
  exact this _ (fun x hx => by
    obtain ⟨n, -, rfl⟩ := List.mem_map.1 hx
    exact (digits_plain (natStr_digits n)).2.1) h

/-! ### The output -/

theorem fInt_plain (w n : Nat) : '\n' ∉ fInt w n := by
  unfold fInt
  split_ifs
  · rw [List.mem_append, not_or]
    exact ⟨fun h => absurd (List.eq_of_mem_replicate h) (by decide), (digits_plain (natStr_digits n)).2.1⟩
  · exact fun h => absurd (List.eq_of_mem_replicate h) (by decide)

theorem headLine_proper {t : Line} (p : Page ℚ) (ht : '\n' ∉ t) : Proper (headLine t p) := by
  refine ⟨_, rfl, ?_⟩
  simp only [List.mem_append, not_or]
  simp only [fInt_plain, ht, not_false_eq_true, and_self]

theorem lineOf_proper (fs : List Fld) : Proper (lineOf fs) := by
  refine ⟨_, rfl, fun h => ?_⟩
  simp only [List.mem_flatMap] at h
  obtain ⟨f, -, hf⟩ := h
  have hd : ∀ d, '\n' ≠ digitChar d := fun d h => digitChar_ne (d := d) (c := '\n') (by decide) h.symm
  obtain ⟨neg, m, ne, e⟩ := f
  cases neg <;> cases ne <;> simp [Fld.text, hd] at hf

theorem block_proper (prt : ℚ → Fld) (r : Req) {p : Page ℚ} (q : Page ℚ) (c : Nat → Nat → ℚ) (hp : '\n' ∉ p.head.title) : ∀ l ∈ block prt r p q c, Proper l := by
  intro l hl
  unfold block at hl
  rw [List.mem_append, List.mem_cons] at hl
  rcases hl with h | rfl | h
  · rw [List.eq_of_mem_replicate h]
    exact ⟨[], rfl, by simp⟩
  · exact headLine_proper _ hp
  · obtain ⟨row, -, h⟩ := List.mem_flatMap.1 h
    obtain ⟨x, -, rfl⟩ := List.mem_map.1 h
    exact lineOf_proper _

theorem message_proper (r : Req) (e : Halt) : ∀ l ∈ message r e, Proper l := by
  intro l hl
  have h0 : Proper ['\n'] := ⟨[], rfl, by simp⟩
  cases e with
  | stop n => cases hl
  | ended => cases hl
  | missing =>
    simp only [message, List.mem_cons, List.not_mem_nil, or_false] at hl
    rcases hl with rfl | rfl
    · exact h0
    · refine ⟨_, rfl, ?_⟩
      simp only [List.mem_append, not_or]
      simp only [fInt_plain, not_false_eq_true, and_true]
      decide
  | groups =>
    simp only [message, List.mem_cons, List.not_mem_nil, or_false] at hl
    rcases hl with rfl | rfl
    · exact h0
    · exact ⟨" ***ERROR IN BOXR*** NUMBER OF GROUPS EXCEEDS 800".toList, by decide, by decide⟩
  | formats =>
    simp only [message, List.mem_cons, List.not_mem_nil, or_false] at hl
    rcases hl with rfl | rfl
    · exact h0
    · exact ⟨" ***ERROR IN SETFOR***NVF (=   ) OR NCF (=   ) IS ILLEGAL.".toList, by decide, by decide⟩

theorem find_sub {r : Req} {ps : List (Page ℚ)} {x : Page ℚ × List (Page ℚ)} (h : find r ps = .ok x) : x.1 ∈ ps ∧ ∀ q ∈ x.2, q ∈ ps := by
  induction ps with
  | nil => cases h
  | cons p ps ih =>
    unfold find at h
    split_ifs at h
    · obtain rfl := Except.ok.inj h
      exact ⟨by simp, fun q hq => by simp [hq]⟩
    · obtain ⟨h1, h2⟩ := ih h
      exact ⟨by simp [h1], fun q hq => by simp [h2 q hq]⟩

theorem loadPages_sub : ∀ (ps : List (Page ℚ)) {p : Page ℚ} {k : Nat} {s : St ℚ} {x : St ℚ × Page ℚ × List (Page ℚ)}, loadPages p ps k s = .ok x → ∀ q ∈ x.2.2, q ∈ ps
  | [], p, k, s, x, h => by
    rw [loadPages] at h
    by_cases h1 : p.head.nrow > 800 ∨ p.head.columns > 800
    · rw [if_pos h1] at h; cases h
    · rw [if_neg h1] at h
      cases hc : controls p.head.nrow p.head.columns p.head.sym k p.icon p.xval s with
      | error e => rw [hc] at h; cases h
      | ok s' =>
        rw [hc] at h
        simp only at h
        split_ifs at h
        obtain rfl := Except.ok.inj h
        simp
  | q :: ps, p, k, s, x, h => by
    rw [loadPages] at h
    by_cases h1 : p.head.nrow > 800 ∨ p.head.columns > 800
    · rw [if_pos h1] at h; cases h
    · rw [if_neg h1] at h
      cases hc : controls p.head.nrow p.head.columns p.head.sym k p.icon p.xval s with
      | error e => rw [hc] at h; cases h
      | ok s' =>
        rw [hc] at h
        simp only at h
        split_ifs at h
        · obtain rfl := Except.ok.inj h
          exact fun q hq => hq
        · exact fun z hz => by simp [loadPages_sub ps h z hz]

theorem boxr_proper (prt : ℚ → Fld) : ∀ (rs : List Req) (c : Nat → Nat → ℚ) {ps : List (Page ℚ)}, (∀ p ∈ ps, '\n' ∉ p.head.title) → ∀ l ∈ (boxr prt rs c ps).1, Proper l
  | [], _, _, _ => by simp [boxr]
  | r :: rs, c, ps, h => by
    rw [boxr]
    split_ifs
    · simp
    · cases hs : serve prt r c ps with
      | error e => exact message_proper r e
      | ok x =>
        obtain ⟨out, c', rest⟩ := x
        simp only [List.mem_append]
        unfold serve at hs
        cases hf : find r ps with
        | error e => rw [hf] at hs; cases hs
        | ok y =>
          obtain ⟨p, ps'⟩ := y
          rw [hf] at hs
          simp only at hs
          cases hl : loadPages p ps' 1 ⟨c, 1, 0, 0⟩ with
          | error e => rw [hl] at hs; cases hs
          | ok z =>
            obtain ⟨s, last, rest'⟩ := z
            rw [hl] at hs
            simp only [Except.ok.injEq, Prod.mk.injEq] at hs
            obtain ⟨rfl, rfl, rfl⟩ := hs
            obtain ⟨f1, f2⟩ := find_sub hf
            rintro l (hl' | hl')
            · exact block_proper prt r last s.c (h _ f1) l hl'
            · exact boxr_proper prt rs s.c (fun q hq => h q (f2 q (loadPages_sub _ hl q hq))) l hl'

theorem tape_titles {ps : List (Page ℚ)} {ls : List Line} (h : TapeText ps ls) (hl : ∀ l ∈ ls, '\n' ∉ l) : ∀ p ∈ ps, '\n' ∉ p.head.title := by
  induction h with
  | nil => simp
  | cons hp _ ih =>
    obtain ⟨l, vs, ks, rfl, ⟨-, t, ts, tail, rfl, -⟩, -⟩ := hp
    intro q hq
    rcases List.mem_cons.1 hq with rfl | hq
    · intro hn
      exact hl _ (List.mem_cons_self ..) (by simp [hn])
    · exact ih (fun l' h' => hl l' (by simp [h'])) q hq


end ASAPy.Boxr
