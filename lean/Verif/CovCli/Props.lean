import Verif.CovCli.Model
import Verif.Batch.Props
import Verif.Library.Props

/-! # C220: the command line of EndfToCov -/

namespace ASAPy.CovCli
open ASAPy.AceData ASAPy.Dec
open ASAPy.Batch (toInt looksNegative toInt_intStr natStr_head natStr_no_minus all_digits)

/-- What a user writes: the ENDF file, or an option with its value. -/
inductive Item
  | file (f : Text)
  | groups (g : Text)
  | path (p : Text)
  | store (s : Text)
  | weight (w : Int)
  | mts (m : Int) (ms : List Int)
  | temp (t : Int)
  | njoy (s : Text)
  | boxer (s : Text)

/-- How it is written. -/
def Item.words : Item → List Text
  | .file f => [f]
  | .groups g => [c!"-energy_bin_structure", g]
  | .path p => [c!"-output_path", p]
  | .store s => [c!"-output_store", s]
  | .weight w => [c!"-njoy_spectrum_weighting", intStr w]
  | .mts m ms => c!"-mts" :: (m :: ms).map intStr
  | .temp t => [c!"-temperature", intStr t]
  | .njoy s => [c!"-njoy_exec", s]
  | .boxer s => [c!"-boxer_exec", s]

/-- What may be written: texts that do not begin with a minus sign, a group structure and a weight that are offered. -/
def Item.Valid : Item → Prop
  | .file f => f.head? ≠ some '-'
  | .groups g => g = c!"SCALE_3" ∨ g = c!"SCALE_44" ∨ g = c!"SCALE_56" ∨ g = c!"SCALE_238" ∨ g = c!"SCALE_252"
  | .path p => p.head? ≠ some '-'
  | .store s => s.head? ≠ some '-'
  | .weight w => 2 ≤ w ∧ w ≤ 12
  | .mts _ _ => True
  | .temp _ => True
  | .njoy s => s.head? ≠ some '-'
  | .boxer s => s.head? ≠ some '-'

/-- What it means. -/
def Item.set (a : Cli) : Item → Cli
  | .file f => { a with endf := f }
  | .groups g => { a with groups := g }
  | .path p => { a with path := some p }
  | .store s => { a with store := some s }
  | .weight w => { a with weight := w }
  | .mts m ms => { a with mts := some (m :: ms) }
  | .temp t => { a with temp := t }
  | .njoy s => { a with njoy := s }
  | .boxer s => { a with boxer := s }

def Item.isFile : Item → Bool
  | .file _ => true
  | _ => false

def Item.isMts : Item → Bool
  | .mts _ _ => true
  | _ => false

/-- The kind of an item. -/
def Item.kind : Item → Nat
  | .file _ => 0 | .groups _ => 1 | .path _ => 2 | .store _ => 3 | .weight _ => 4 | .mts _ _ => 5 | .temp _ => 6 | .njoy _ => 7 | .boxer _ => 8

theorem cls_of_head {w : Text} (h : w.head? ≠ some '-') : cls w = .arg := by
  cases w with
  | nil => rfl
  | cons c w =>
    unfold cls
    split
    · rename_i r heq
      simp only [List.cons.injEq] at heq
      exact absurd (by simp [heq.1]) h
    · rfl

theorem no_option {c : Char} (hc : isDigit c = true) (r : Text) : ∀ p ∈ table, ('-' :: c :: r).isPrefixOf p.1 = false := by
  have hne : c ≠ 'h' ∧ c ≠ '-' ∧ c ≠ 'm' ∧ c ≠ 'n' ∧ c ≠ 'e' ∧ c ≠ 'o' ∧ c ≠ 't' ∧ c ≠ 'b' := by
    refine ⟨?_, ?_, ?_, ?_, ?_, ?_, ?_, ?_⟩ <;> (rintro rfl; exact absurd hc (by decide))
  obtain ⟨h1, h2, h3, h4, h5, h6, h7, h8⟩ := hne
  simp [table, List.isPrefixOf, h1, h2, h3, h4, h5, h6, h7, h8]

theorem lookup_none {t : Text} (h : ∀ p ∈ table, t.isPrefixOf p.1 = false) : table.lookup t = none := by
  rw [List.lookup_eq_none_iff]
  intro p hp
  by_contra hc
  have : t = p.1 := by simpa using hc
  have h2 := h p hp
  rw [this, List.isPrefixOf_iff_prefix.mpr (List.prefix_refl _)] at h2
  exact absurd h2 (by decide)

theorem cls_intStr (i : Int) : cls (intStr i) = .arg := by
  unfold intStr
  split
  · obtain ⟨c, r, h, hc⟩ := natStr_head i.natAbs
    have hno := no_option hc r
    have hfil : (table.filter fun p => ('-' :: c :: r).isPrefixOf p.1) = [] := by
      rw [List.filter_eq_nil_iff]
      intro p hp
      rw [hno p hp]
      decide
    have hneg : looksNegative ('-' :: c :: r) = true := by
      unfold looksNegative
      have := all_digits (natStr_digits i.natAbs)
      rw [h] at this
      simp [this]
    rw [h]
    unfold cls
    rw [lookup_none hno]
    simp only
    rw [if_neg (by simp), hfil, hneg]
    rfl
  · exact cls_of_head (natStr_no_minus _)

/-- Options only. -/
def setOpt (a : Cli) (i : Item) : Cli := if i.isFile then a else i.set a

def files : List Item → List Text
  | [] => []
  | .file f :: is => f :: files is
  | _ :: is => files is

/-- The MTs being read are stored. -/
def close (a : Cli) : Mode → Cli
  | .many l => { a with mts := some l }
  | _ => a

theorem go_ints (a : Cli) (pos : List Text) (ts : List Text) (is l : List Int) : go a pos (.many l) (is.map intStr ++ ts) = go a pos (.many (l ++ is)) ts := by
  induction is generalizing l with
  | nil => simp
  | cons i is ih =>
    rw [List.map_cons, List.cons_append, go, cls_intStr]
    simp only [toInt_intStr]
    rw [ih]
    simp

theorem weight_mem {w : Int} (h : 2 ≤ w ∧ w ≤ 12) : w ∈ weights := by
  obtain ⟨h1, h2⟩ := h
  simp only [weights, List.mem_cons, List.not_mem_nil, or_false]
  omega

/-- One option and its value, in free mode. -/
theorem go_item {i : Item} (hv : i.Valid) (hf : i.isFile = false) (a : Cli) (pos ts : List Text) :
    ∃ m, go a pos .free (i.words ++ ts) = go (if i.isMts then a else i.set a) pos m ts ∧ (i.isMts = false → m = .free) ∧ ∀ k ks, i = .mts k ks → m = .many (k :: ks) := by
  have one : ∀ (w t : Text) (o : Opt) (b : Cli), cls w = .opt o → start o = .ok (.one o) → cls t = .arg → assign a t o = .ok b → go a pos .free ([w, t] ++ ts) = go b pos .free ts := by
    intro w t o b h1 h2 h3 h4
    rw [List.cons_append, List.cons_append, List.nil_append, go, h1]
    simp only [h2]
    rw [go, h3]
    simp only [h4]
  cases i with
  | file f => cases hf
  | groups g =>
    refine ⟨.free, one _ _ .groups _ (by decide +kernel) rfl (cls_of_head ?_) ?_, fun _ => rfl, fun k ks h => by cases h⟩
    · rcases hv with rfl | rfl | rfl | rfl | rfl <;> decide
    · have : g ∈ choices := by rcases hv with rfl | rfl | rfl | rfl | rfl <;> decide
      rw [assign, if_pos this]; rfl
  | path p => exact ⟨.free, one _ _ .path _ (by decide +kernel) rfl (cls_of_head hv) rfl, fun _ => rfl, fun k ks h => by cases h⟩
  | store s => exact ⟨.free, one _ _ .store _ (by decide +kernel) rfl (cls_of_head hv) rfl, fun _ => rfl, fun k ks h => by cases h⟩
  | weight w =>
    refine ⟨.free, one _ _ .weight _ (by decide +kernel) rfl (cls_intStr w) ?_, fun _ => rfl, fun k ks h => by cases h⟩
    rw [assign, toInt_intStr]
    simp only
    rw [if_pos (weight_mem hv)]; rfl
  | mts m ms =>
    refine ⟨.many (m :: ms), ?_, fun h => (by cases h), fun k ks h => by cases h; rfl⟩
    have hc : cls c!"-mts" = .opt .mts := by decide +kernel
    rw [Item.words, List.cons_append, go, hc]
    simp only [start]
    rw [go_ints]
    rfl
  | temp t =>
    refine ⟨.free, one _ _ .temp _ (by decide +kernel) rfl (cls_intStr t) ?_, fun _ => rfl, fun k ks h => by cases h⟩
    rw [assign, toInt_intStr]; rfl
  | njoy s => exact ⟨.free, one _ _ .njoy _ (by decide +kernel) rfl (cls_of_head hv) rfl, fun _ => rfl, fun k ks h => by cases h⟩
  | boxer s => exact ⟨.free, one _ _ .boxer _ (by decide +kernel) rfl (cls_of_head hv) rfl, fun _ => rfl, fun k ks h => by cases h⟩

/-- An option ends a list of MTs. -/
theorem go_close {i : Item} (hf : i.isFile = false) (a : Cli) (pos ts : List Text) {l : List Int} (hl : l ≠ []) :
    go a pos (.many l) (i.words ++ ts) = go { a with mts := some l } pos .free (i.words ++ ts) := by
  have key : ∀ (w : Text) (o : Opt) (us : List Text), cls w = .opt o → go a pos (.many l) (w :: us) = go { a with mts := some l } pos .free (w :: us) := by
    intro w o us h
    rw [go, h, go, h]
    simp only [if_neg hl]
  cases i with
  | file f => cases hf
  | groups g => exact key _ .groups _ (by decide +kernel)
  | path p => exact key _ .path _ (by decide +kernel)
  | store s => exact key _ .store _ (by decide +kernel)
  | weight w => exact key _ .weight _ (by decide +kernel)
  | mts m ms => exact key _ .mts _ (by decide +kernel)
  | temp t => exact key _ .temp _ (by decide +kernel)
  | njoy s => exact key _ .njoy _ (by decide +kernel)
  | boxer s => exact key _ .boxer _ (by decide +kernel)

/-- A file does not stand behind a list of MTs. -/
abbrev Apart (a b : Item) : Prop := ¬ (a.isMts = true ∧ b.isFile = true)

theorem go_items : ∀ (is : List Item) (a : Cli) (pos ts : List Text) (m : Mode), (∀ i ∈ is, i.Valid) → is.IsChain Apart →
    (m = .free ∨ ∃ l, l ≠ [] ∧ m = .many l ∧ ∀ i ∈ is.head?, i.isFile = false) →
    ∃ a' m', go a pos m (is.flatMap Item.words ++ ts) = go a' (pos ++ files is) m' ts ∧ (m' = .free ∨ ∃ l, l ≠ [] ∧ m' = .many l) ∧ close a' m' = is.foldl setOpt (close a m)
  | [], a, pos, ts, m, _, _, hm => ⟨a, m, by simp [files], by rcases hm with h | ⟨l, h1, h2, _⟩; exacts [Or.inl h, Or.inr ⟨l, h1, h2⟩], rfl⟩
  | i :: is, a, pos, ts, m, hv, hc, hm => by
    have hvi := hv i (List.mem_cons_self ..)
    have hvs : ∀ j ∈ is, j.Valid := fun j hj => hv j (List.mem_cons_of_mem _ hj)
    have hcs : is.IsChain Apart := hc.tail
    rw [List.flatMap_cons, List.append_assoc]
    -- in free mode first
    have free : ∀ a : Cli, ∃ a' m', go a pos .free (i.words ++ (is.flatMap Item.words ++ ts)) = go a' (pos ++ files (i :: is)) m' ts ∧ (m' = .free ∨ ∃ l, l ≠ [] ∧ m' = .many l) ∧
        close a' m' = (i :: is).foldl setOpt a := by
      intro a
      cases hf : i.isFile with
      | true =>
        cases i with
        | file f =>
          obtain ⟨a', m', h1, h2, h3⟩ := go_items is a (pos ++ [f]) ts .free hvs hcs (Or.inl rfl)
          refine ⟨a', m', ?_, h2, h3⟩
          rw [Item.words, List.cons_append, List.nil_append, go, cls_of_head hvi]
          simp only
          rw [h1, files, List.append_assoc]
          rfl
        | _ => cases hf
      | false =>
        have hfiles : files (i :: is) = files is := by cases i <;> first | rfl | cases hf
        obtain ⟨m, h1, h2, h3⟩ := go_item hvi hf a pos (is.flatMap Item.words ++ ts)
        rw [h1, hfiles]
        cases hmts : i.isMts with
        | false =>
          obtain rfl := h2 hmts
          obtain ⟨a', m', h4, h5, h6⟩ := go_items is (i.set a) pos ts .free hvs hcs (Or.inl rfl)
          refine ⟨a', m', by simpa using h4, h5, ?_⟩
          rw [h6, List.foldl_cons]
          simp [setOpt, hf, close]
        | true =>
          cases i with
          | mts k ks =>
            obtain rfl := h3 k ks rfl
            obtain ⟨a', m', h4, h5, h6⟩ := go_items is a pos ts (.many (k :: ks)) hvs hcs (Or.inr ⟨_, by simp, rfl, by
              intro j hj
              have := (List.isChain_cons.1 hc).1 j hj
              cases hjf : j.isFile with
              | false => rfl
              | true => exact absurd ⟨rfl, hjf⟩ this⟩)
            exact ⟨a', m', by simpa using h4, h5, h6⟩
          | _ => cases hmts
    rcases hm with rfl | ⟨l, hl, rfl, hh⟩
    · exact free a
    · have hf := hh i (by simp)
      rw [go_close hf _ _ _ hl]
      exact free _

theorem foldl_files (is : List Item) (a : Cli) : is.foldl Item.set a = { is.foldl setOpt a with endf := (files is).getLastD a.endf } := by
  have hset : ∀ (is : List Item) (a : Cli) (f : Text), is.foldl setOpt { a with endf := f } = { is.foldl setOpt a with endf := f } := by
    intro is
    induction is with
    | nil => exact fun a f => rfl
    | cons i is ih =>
      intro a f
      have hi : setOpt { a with endf := f } i = { setOpt a i with endf := f } := by cases i <;> rfl
      rw [List.foldl_cons, List.foldl_cons, hi]
      exact ih _ f
  have hendf : ∀ (is : List Item) (a : Cli), (is.foldl setOpt a).endf = a.endf := by
    intro is
    induction is with
    | nil => exact fun a => rfl
    | cons i is ih =>
      intro a
      rw [List.foldl_cons, ih]
      cases i <;> rfl
  induction is generalizing a with
  | nil => rfl
  | cons i is ih =>
    rw [List.foldl_cons, List.foldl_cons, ih]
    cases i with
    | file f =>
      simp only [files, setOpt, Item.isFile, if_true, Item.set]
      rw [hset]
      congr 1
      simp [List.getLastD_eq_getLast?, List.getLast?_cons]
    | _ => rfl

/-- **C220.** A command line of one ENDF file and options with their values, in any order and number, is accepted if the file does not follow the numbers of `-mts` directly; every option has the value given last, and
every other one its default. -/
theorem C220_accepted (is : List Item) (hv : ∀ i ∈ is, i.Valid) (hone : (is.filter Item.isFile).length = 1) (hc : is.IsChain Apart) :
    parse (is.flatMap Item.words) = .ok (is.foldl Item.set ⟨[], c!"SCALE_252", none, none, 6, none, 300, c!"njoy", c!"boxer2mat"⟩) := by
  have hfl : ∀ is : List Item, (files is).length = (is.filter Item.isFile).length := by
    intro is
    induction is with
    | nil => rfl
    | cons i is ih => cases i <;> simp [files, Item.isFile, List.filter_cons, ih]
  obtain ⟨f, hf⟩ := List.length_eq_one_iff.1 ((hfl is).trans hone)
  obtain ⟨a', m', h1, h2, h3⟩ := go_items is blank [] [] .free hv hc (Or.inl rfl)
  rw [List.append_nil] at h1
  unfold parse
  rw [h1, hf, foldl_files, hf]
  change close a' m' = is.foldl setOpt ⟨[], c!"SCALE_252", none, none, 6, none, 300, c!"njoy", c!"boxer2mat"⟩ at h3
  rw [← h3]
  rcases h2 with rfl | ⟨l, hl, rfl⟩
  · rfl
  · rw [go, if_neg hl]; rfl

/-- **C220.** With no ENDF file, or with more than one, the command line is refused. -/
theorem C220_one_file (is : List Item) (hv : ∀ i ∈ is, i.Valid) (hone : (is.filter Item.isFile).length ≠ 1) (hc : is.IsChain Apart) : parse (is.flatMap Item.words) = .error .exception := by
  have hfl : ∀ is : List Item, (files is).length = (is.filter Item.isFile).length := by
    intro is
    induction is with
    | nil => rfl
    | cons i is ih => cases i <;> simp [files, Item.isFile, List.filter_cons, ih]
  rw [← hfl] at hone
  obtain ⟨a', m', h1, h2, -⟩ := go_items is blank [] [] .free hv hc (Or.inl rfl)
  rw [List.append_nil] at h1
  have hfin : ∀ a : Cli, finish a (files is) = .error .exception := by
    intro a
    match hfs : files is with
    | [] => rfl
    | [f] => rw [hfs] at hone; exact absurd rfl hone
    | _ :: _ :: _ => rfl
  unfold parse
  rw [h1]
  rcases h2 with rfl | ⟨l, hl, rfl⟩
  · exact hfin _
  · rw [go, if_neg hl]; exact hfin _

/-- **C220.** Where no option is given twice the order does not matter. -/
theorem C220_order {is js : List Item} (hp : is.Perm js) (hv : ∀ i ∈ is, i.Valid) (hn : (is.map Item.kind).Nodup) (hone : (is.filter Item.isFile).length = 1) (hi : is.IsChain Apart) (hj : js.IsChain Apart) :
    parse (is.flatMap Item.words) = parse (js.flatMap Item.words) := by
  rw [C220_accepted is hv hone hi, C220_accepted js (fun i h => hv i (hp.mem_iff.2 h)) (by rw [← (hp.filter _).length_eq]; exact hone) hj]
  congr 1
  refine hp.foldl_eq' (fun x hx y hy z => ?_) _
  by_cases hk : x.kind = y.kind
  · have : x = y := List.inj_on_of_nodup_map hn hx hy hk
    rw [this]
  · cases x <;> cases y <;> first | rfl | exact absurd rfl hk

/-- What every accepted command line satisfies. -/
def Inv (a : Cli) : Prop := a.groups ∈ choices ∧ a.weight ∈ weights ∧ a.mts ≠ some []

theorem assign_inv {a b : Cli} {t : Text} {o : Opt} (h : Inv a) (hs : assign a t o = .ok b) : Inv b := by
  obtain ⟨h1, h2, h3⟩ := h
  cases o <;> simp only [assign] at hs
  · cases hs
  · split_ifs at hs with hg; cases hs; exact ⟨hg, h2, h3⟩
  · cases hs; exact ⟨h1, h2, h3⟩
  · cases hs; exact ⟨h1, h2, h3⟩
  · split at hs
    · split_ifs at hs with hg; cases hs; exact ⟨h1, hg, h3⟩
    · cases hs
  · cases hs
  · split at hs
    · cases hs; exact ⟨h1, h2, h3⟩
    · cases hs
  · cases hs; exact ⟨h1, h2, h3⟩
  · cases hs; exact ⟨h1, h2, h3⟩

theorem finish_inv {a b : Cli} {p : List Text} (h : Inv a) (hs : finish a p = .ok b) : Inv b := by
  unfold finish at hs
  split at hs
  · cases hs; exact h
  · cases hs

theorem go_inv : ∀ (ts : List Text) (a b : Cli) (pos : List Text) (m : Mode), Inv a → go a pos m ts = .ok b → Inv b := by
  intro ts
  have hm : ∀ {a : Cli} {l : List Int}, Inv a → l ≠ [] → Inv { a with mts := some l } := fun h hl => ⟨h.1, h.2.1, by simpa using hl⟩
  induction ts with
  | nil =>
    intro a b pos m h hs
    cases m with
    | free => exact finish_inv h hs
    | one o => cases hs
    | many l =>
      rw [go] at hs
      split_ifs at hs with hl
      exact finish_inv (hm h hl) hs
  | cons t ts ih =>
    intro a b pos m h hs
    cases m with
    | free =>
      rw [go] at hs
      split at hs
      · exact ih _ _ _ _ h hs
      · split at hs
        · cases hs
        · exact ih _ _ _ _ h hs
      · cases hs
    | one o =>
      rw [go] at hs
      split at hs
      · split at hs
        · cases hs
        · rename_i h'
          exact ih _ _ _ _ (assign_inv h h') hs
      · cases hs
    | many l =>
      rw [go] at hs
      split at hs
      · split at hs
        · exact ih _ _ _ _ h hs
        · cases hs
      · split_ifs at hs with hl
        split at hs
        · cases hs
        · exact ih _ _ _ _ (hm h hl) hs
      · cases hs

/-- The options of the program. -/
def optionNames : List Text := [c!"-h", c!"--help", c!"-energy_bin_structure", c!"-output_path", c!"-output_store", c!"-njoy_spectrum_weighting", c!"-mts", c!"-temperature", c!"-njoy_exec", c!"-boxer_exec"]

/-- A word like an option that is none, nor the beginning of one: it begins with a minus sign and something else than a digit or a point, and has no blank or equals sign in it. -/
def Misspelt (t : Text) : Prop := (∃ c r, t = '-' :: c :: r ∧ isDigit c = false ∧ c ≠ '.') ∧ ' ' ∉ t ∧ '=' ∉ t ∧ ∀ n ∈ optionNames, ¬ t <+: n

theorem cls_misspelt {t : Text} (h : Misspelt t) : cls t = .bad := by
  obtain ⟨⟨c, r, rfl, hc, hp⟩, hb, -, hn⟩ := h
  have hno : ∀ p ∈ table, ('-' :: c :: r).isPrefixOf p.1 = false := by
    intro p hpt
    by_contra hcon
    rw [Bool.not_eq_false, List.isPrefixOf_iff_prefix] at hcon
    refine hn p.1 ?_ hcon
    have : ∀ p ∈ table, p.1 ∈ optionNames := by decide +kernel
    exact this p hpt
  have hf : (table.filter fun p => ('-' :: c :: r).isPrefixOf p.1) = [] := List.filter_eq_nil_iff.mpr fun p hpt => by rw [hno p hpt]; decide
  unfold cls
  simp only [lookup_none hno, hf]
  rw [if_neg (by simp), if_neg]
  have hl : looksNegative ('-' :: c :: r) = false := by
    have hd : (c :: r).dropWhile isDigit = c :: r := by rw [List.dropWhile_cons_of_neg (by simp [hc])]
    have ha : (c :: r).all isDigit = false := by simp [hc]
    unfold looksNegative
    simp only [hd, ha]
    split
    · rename_i h1
      simp only [List.cons.injEq] at h1
      exact absurd h1.1 hp
    · rfl
  rw [hl]
  simpa using hb

theorem go_misspelt {t : Text} (h : Misspelt t) : ∀ (ts : List Text) (a : Cli) (pos : List Text) (m : Mode), t ∈ ts → ∀ b, go a pos m ts ≠ .ok b := by
  intro ts
  induction ts with
  | nil => intro a pos m h; cases h
  | cons w ts ih =>
    intro a pos m hm b hs
    have hw : cls w ≠ .bad → t ∈ ts := by
      intro hw
      rcases List.mem_cons.mp hm with rfl | hm
      · exact absurd (cls_misspelt h) hw
      · exact hm
    cases m with
    | free =>
      rw [go] at hs
      split at hs
      · exact ih _ _ _ (hw (by simp [*])) b hs
      · split at hs
        · cases hs
        · exact ih _ _ _ (hw (by simp [*])) b hs
      · cases hs
    | one o =>
      rw [go] at hs
      split at hs
      · split at hs
        · cases hs
        · exact ih _ _ _ (hw (by simp [*])) b hs
      · cases hs
    | many l =>
      rw [go] at hs
      split at hs
      · split at hs
        · exact ih _ _ _ (hw (by simp [*])) b hs
        · cases hs
      · split_ifs at hs with hl
        split at hs
        · cases hs
        · exact ih _ _ _ (hw (by simp [*])) b hs
      · cases hs

/-- **C220.** A command line with a misspelt option is not accepted. -/
theorem C220_misspelt {t : Text} (h : Misspelt t) {ws : List Text} (hw : t ∈ ws) (a : Cli) : parse ws ≠ .ok a := go_misspelt h ws _ _ _ hw a

example (a : Cli) : parse [c!"u.endf", c!"-temprature", c!"300"] ≠ .ok a :=
  C220_misspelt (t := c!"-temprature") ⟨⟨'t', _, rfl, by decide, by decide⟩, by decide, by decide, by decide⟩ (by simp) a

/-- **C220.** Whatever is accepted names a group structure that exists and has the number of groups in its name, a weight from 2 to 12, and at least one MT if any. -/
theorem C220_sound {ws : List Text} {a : Cli} (h : parse ws = .ok a) :
    (∃ (n : Nat) (b : List ℚ), a.groups = c!"SCALE_" ++ natStr n ∧ groupsOf a.groups = some b ∧ b.length = n + 1) ∧ (2 ≤ a.weight ∧ a.weight ≤ 12) ∧ a.mts ≠ some [] := by
  obtain ⟨h1, h2, h3⟩ := go_inv ws blank a [] .free ⟨by decide, by decide, by simp [blank]⟩ h
  refine ⟨?_, ?_, h3⟩
  · simp only [choices, List.mem_cons, List.not_mem_nil, or_false] at h1
    rcases h1 with h | h | h | h | h <;> rw [h]
    · exact ⟨3, _, by decide +kernel, rfl, by decide +kernel⟩
    · exact ⟨44, _, by decide +kernel, rfl, by decide +kernel⟩
    · exact ⟨56, _, by decide +kernel, rfl, by decide +kernel⟩
    · exact ⟨238, _, by decide +kernel, rfl, by decide +kernel⟩
    · exact ⟨252, _, by decide +kernel, rfl, by decide +kernel⟩
  · simp only [weights, List.mem_cons, List.not_mem_nil, or_false] at h2
    omega

/-- **C220, what does not hold:** the file directly behind the numbers of `-mts` is taken for a number, and the command line is refused, whatever stands before. -/
theorem C220_mts_refuted (is : List Item) (hv : ∀ i ∈ is, i.Valid) (hc : is.IsChain Apart) (m : Int) (ms : List Int) (f : Text) (hf : f.head? ≠ some '-') (hn : toInt f = none) (rest : List Text) :
    parse (is.flatMap Item.words ++ (c!"-mts" :: (m :: ms).map intStr ++ f :: rest)) = .error .exception := by
  obtain ⟨a', m', h1, h2, _⟩ := go_items is blank [] (c!"-mts" :: (m :: ms).map intStr ++ f :: rest) .free hv hc (Or.inl rfl)
  unfold parse
  rw [h1]
  have fin : ∀ (a : Cli) (pos : List Text), go a pos .free (c!"-mts" :: (m :: ms).map intStr ++ f :: rest) = .error .exception := by
    intro a pos
    have hc : cls c!"-mts" = .opt .mts := by decide +kernel
    rw [List.cons_append, go, hc]
    simp only [start]
    rw [go_ints, go, cls_of_head hf]
    simp only [hn]
  rcases h2 with rfl | ⟨l, hl, rfl⟩
  · exact fin _ _
  · have := go_close (i := .mts m ms) rfl a' ([] ++ files is) (f :: rest) hl
    simp only [Item.words] at this
    rw [this]
    exact fin _ _

/-- **C220, what does not hold:** weight 1, which the help describes, is refused. -/
theorem C220_weight_refuted (f : Text) (hf : f.head? ≠ some '-') : parse [f, c!"-njoy_spectrum_weighting", c!"1"] = .error .exception := by
  have h1 : cls c!"-njoy_spectrum_weighting" = .opt .weight := by decide +kernel
  have h2 : cls c!"1" = .arg := by decide +kernel
  have h3 : assign blank c!"1" .weight = .error .exception := by decide +kernel
  unfold parse
  rw [go, cls_of_head hf]
  simp only
  rw [go, h1]
  simp only [start]
  rw [go, h2]
  simp only [h3]

/-- **C220, the store.** Stores of the same name for different structures are different files, and so are stores of different names. -/
theorem C220_store {a b : Cli} {s t : Text} (ha : a.store = some s) (hb : b.store = some t) (sym sym' : Text) (m m' n n' : Nat) (hn : n ∈ [3, 44, 56, 238, 252]) (hn' : n' ∈ [3, 44, 56, 238, 252])
    (h : storeName a sym m n = storeName b sym' m' n') : s = t ∧ n = n' := by
  simp only [storeName, ha, hb] at h
  have h0 := List.append_cancel_right h
  have e3 : natStr 3 = c!"3" := by decide +kernel
  have e44 : natStr 44 = c!"4" ++ c!"4" := by decide +kernel
  have e56 : natStr 56 = c!"5" ++ c!"6" := by decide +kernel
  have e238 : natStr 238 = c!"23" ++ c!"8" := by decide +kernel
  have e252 : natStr 252 = c!"25" ++ c!"2" := by decide +kernel
  have hl := congrArg List.getLast? h0
  simp only [List.mem_cons, List.not_mem_nil, or_false] at hn hn'
  rcases hn with rfl | rfl | rfl | rfl | rfl <;> rcases hn' with rfl | rfl | rfl | rfl | rfl <;>
    first
    | exact ⟨List.append_cancel_right h0, rfl⟩
    | (exfalso
       simp only [e3, e44, e56, e238, e252, ← List.append_assoc, List.getLast?_append] at hl
       simp at hl)

/-- The longest beginning with `p` is unique. -/
theorem split_unique {p : Char → Bool} : ∀ {a b c d : Text}, (∀ x ∈ a, p x = true) → (∀ x ∈ b, p x = true) → (∀ x ∈ c.head?, p x = false) → (∀ x ∈ d.head?, p x = false) → a ++ c = b ++ d → a = b ∧ c = d
  | [], [], c, d, _, _, _, _, h => ⟨rfl, h⟩
  | [], y :: b, c, d, _, hb, hc, _, h => by
    simp only [List.nil_append, List.cons_append] at h
    have h1 := hb y (List.mem_cons_self ..)
    rw [hc y (by rw [h]; rfl)] at h1
    cases h1
  | x :: a, [], c, d, ha, _, _, hd, h => by
    simp only [List.nil_append, List.cons_append] at h
    have h1 := ha x (List.mem_cons_self ..)
    rw [hd x (by rw [← h]; rfl)] at h1
    cases h1
  | x :: a, y :: b, c, d, ha, hb, hc, hd, h => by
    simp only [List.cons_append, List.cons.injEq] at h
    obtain ⟨rfl, h⟩ := h
    obtain ⟨h1, h2⟩ := split_unique (fun z hz => ha z (List.mem_cons_of_mem _ hz)) (fun z hz => hb z (List.mem_cons_of_mem _ hz)) hc hd h
    exact ⟨by rw [h1], h2⟩

/-- **C220, the store.** Where no name is given, targets of different elements or mass numbers and different numbers of groups have different stores. -/
theorem C220_default_store {a b : Cli} (ha : a.store = none) (hb : b.store = none) {sym sym' : Text} (hs : ∀ c ∈ sym, isDigit c = false) (hs' : ∀ c ∈ sym', isDigit c = false) {m m' n n' : Nat}
    (h : storeName a sym m n = storeName b sym' m' n') : sym = sym' ∧ m = m' ∧ n = n' := by
  simp only [storeName, ha, hb] at h
  have h0 := List.append_cancel_right h
  simp only [List.append_assoc] at h0
  have hd : ∀ (k : Nat) (r : Text), ∀ x ∈ (natStr k ++ r).head?, (!isDigit x) = false := by
    intro k r x hx
    obtain ⟨c, t, hk, hc⟩ := natStr_head k
    rw [hk] at hx
    cases hx
    simp [hc]
  obtain ⟨h1, h2⟩ := split_unique (p := fun x => !isDigit x) (fun x hx => by simp [hs x hx]) (fun x hx => by simp [hs' x hx]) (hd _ _) (hd _ _) h0
  have hu : ∀ r : Text, ∀ x ∈ (c!"_" ++ r).head?, isDigit x = false := by
    intro r x hx
    cases hx
    decide
  obtain ⟨h3, h4⟩ := split_unique (p := isDigit) (natStr_digits _) (natStr_digits _) (hu _) (hu _) h2
  exact ⟨h1, natStr_injective h3, natStr_injective (List.append_cancel_left h4)⟩

/-- **C220, what does not hold:** the number of groups is appended to the name given without the underscore the help tells of. -/
theorem C220_name_refuted {a : Cli} {s : Text} (ha : a.store = some s) (sym : Text) (m n : Nat) : storeName a sym m n ≠ s ++ c!"_" ++ natStr n ++ c!"g.h5" := by
  simp only [storeName, ha]
  intro h
  have := congrArg List.length h
  simp at this

/-- **C220, the file.** A relative path is taken from the working directory, an absolute one as it is. -/
theorem C220_file (cwd ns : List Text) (hne : ns ≠ []) (hn : ∀ c ∈ ns, Library.Name c) (a : Cli) :
    (a.endf = ['/'].intercalate ns → endfPath cwd a = cwd ++ ns) ∧ (a.endf = '/' :: ['/'].intercalate ns → endfPath cwd a = ns) := by
  have hsp := List.splitOn_intercalate '/' (fun c hc => (hn c hc).2.2.2) hne
  unfold endfPath
  constructor <;> intro h <;> rw [h]
  · unfold Library.absPath
    have hh : (['/'].intercalate ns).head? ≠ some '/' := by
      have := Library.relText_head (rel := ns) fun c hc => ⟨(hn c hc).2.2.2, (hn c hc).1, (hn c hc).2.1⟩
      rwa [if_neg hne] at this
    rw [if_neg hh, hsp, Library.step_names hn]
  · rw [Library.absPath_root, hsp, Library.step_names hn, List.nil_append]

example : endfPath [c!"home", c!"user"] { blank with endf := c!"data/u235.txt" } = [c!"home", c!"user", c!"data", c!"u235.txt"] :=
  (C220_file [c!"home", c!"user"] [c!"data", c!"u235.txt"] (by simp) (by unfold Library.Name; decide) { blank with endf := c!"data/u235.txt" }).1 (by decide)

/-- **C220, the output.** -/
theorem C220_output (cwd : List Text) (a : Cli) : (a.path = none ∨ a.path = some [] → outputPath cwd a = .inr c!"./") ∧ ∀ p, a.path = some p → p ≠ [] → outputPath cwd a = .inl (Library.absPath cwd p) := by
  constructor
  · rintro (h | h) <;> simp [outputPath, h]
  · intro p h hp
    cases p with
    | nil => exact absurd rfl hp
    | cons c p => simp [outputPath, h]

/-- A command line with the file in the middle, and a temperature given twice. -/
def exItems : List Item := [.mts 2 [18, 102], .groups c!"SCALE_44", .file c!"U235.endf", .temp 300, .store c!"u", .temp 600]

example : (∀ i ∈ exItems, i.Valid) ∧ (exItems.filter Item.isFile).length = 1 ∧ exItems.IsChain Apart ∧
    exItems.foldl Item.set blank = ⟨c!"U235.endf", c!"SCALE_44", none, some c!"u", 6, some [2, 18, 102], 600, c!"njoy", c!"boxer2mat"⟩ := by
  refine ⟨?_, rfl, ?_, by decide +kernel⟩
  · intro i hi
    simp only [exItems, List.mem_cons, List.not_mem_nil, or_false] at hi
    rcases hi with rfl | rfl | rfl | rfl | rfl | rfl <;> simp [Item.Valid]
  · simp [exItems, Item.isMts, Item.isFile]

example : toInt c!"U235.endf" = none ∧ parse [c!"-mts", c!"2", c!"U235.endf"] = .error .exception := by decide +kernel

end ASAPy.CovCli
