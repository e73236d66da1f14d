import Verif.DataNjoy.Text

/-!
# The files after the run: lemmas
-/

namespace ASAPy.DNjoy
open Files
open Deck (W Opts)

theorem fname_ne (p : Path) (t : Njoy.Temp) : fname p t ≠ p := by
  intro h
  have := congrArg List.length h
  simp [fname] at this

/-! ### Identifiers -/

theorem natStr_snoc {n d : Nat} (hn : n ≠ 0) (hd : d < 10) : Dec.natStr (10 * n + d) = Dec.natStr n ++ [Dec.digitChar d] := by
  unfold Dec.natStr
  rw [if_neg (by omega), if_neg hn, Nat.add_comm, Nat.digits_add 10 (by norm_num) d n hd (Or.inr hn)]
  simp

theorem natStr_thousands {z h u v : Nat} (hz : z ≠ 0) (hh : h < 10) (hu : u < 10) (hv : v < 10) :
    Dec.natStr (1000 * z + (100 * h + 10 * u + v)) = Dec.natStr z ++ [Dec.digitChar h, Dec.digitChar u, Dec.digitChar v] := by
  rw [show 1000 * z + (100 * h + 10 * u + v) = 10 * (10 * (10 * z + h) + u) + v by ring, natStr_snoc (by omega) hv, natStr_snoc (by omega) hu, natStr_snoc hz hh]
  simp

theorem natVal_digit {d : Nat} (h : d < 10) : Dec.natVal [Dec.digitChar d] = d := by
  simp [Dec.natVal, (Dec.digitChar_spec d h).2]

theorem natStr_digit {d : Nat} (h : d < 10) : Dec.natStr d = [Dec.digitChar d] := by
  interval_cases d <;> decide

/-- The identifier of a table with a number of at least four digits: three columns, the hundreds digit of `A`, and the rest. -/
theorem named_split {z a : Nat} {t : Text} (hz : 1 ≤ z) (ha : a < 1000) (h : Named (1000 * z + a) t) :
    ∃ P c rest, P.length = 3 ∧ Dec.isDigit c = false ∧ P = List.replicate (3 - (Dec.natStr z).length) ' ' ++ Dec.natStr z ∧ (Dec.natStr z).length ≤ 3 ∧
      t = P ++ Dec.digitChar (a / 100) :: Dec.digitChar (a / 10 % 10) :: Dec.digitChar (a % 10) :: c :: rest := by
  obtain ⟨c, rest, hc, hl, rfl⟩ := h
  have e : a = 100 * (a / 100) + 10 * (a / 10 % 10) + a % 10 := by omega
  have hs : Dec.natStr (1000 * z + a) = Dec.natStr z ++ [Dec.digitChar (a / 100), Dec.digitChar (a / 10 % 10), Dec.digitChar (a % 10)] := by
    conv_lhs => rw [e]
    exact natStr_thousands (by omega) (by omega) (by omega) (by omega)
  rw [hs] at hl ⊢
  have hl3 : (Dec.natStr z).length ≤ 3 := by simp at hl; exact hl
  refine ⟨_, c, rest, ?_, hc, rfl, hl3, ?_⟩
  · simp; omega
  · simp only [List.length_append, List.length_cons, List.length_nil, Nat.reduceAdd, List.append_assoc]
    rw [show 6 - ((Dec.natStr z).length + 3) = 3 - (Dec.natStr z).length by omega]
    simp

theorem named_of {z a : Nat} {P rest : Text} {c : Char} (hz : 1 ≤ z) (ha : a < 1000) (hc : Dec.isDigit c = false)
    (hP : P = List.replicate (3 - (Dec.natStr z).length) ' ' ++ Dec.natStr z) (hl : (Dec.natStr z).length ≤ 3) :
    Named (1000 * z + a) (P ++ Dec.digitChar (a / 100) :: Dec.digitChar (a / 10 % 10) :: Dec.digitChar (a % 10) :: c :: rest) := by
  have e : a = 100 * (a / 100) + 10 * (a / 10 % 10) + a % 10 := by omega
  have hs : Dec.natStr (1000 * z + a) = Dec.natStr z ++ [Dec.digitChar (a / 100), Dec.digitChar (a / 10 % 10), Dec.digitChar (a % 10)] := by
    conv_lhs => rw [e]
    exact natStr_thousands (by omega) (by omega) (by omega) (by omega)
  refine ⟨c, rest, hc, ?_, ?_⟩
  · rw [hs]; simp; omega
  · rw [hs, hP]
    simp only [List.length_append, List.length_cons, List.length_nil, Nat.reduceAdd, List.append_assoc]
    rw [show 6 - ((Dec.natStr z).length + 3) = 3 - (Dec.natStr z).length by omega]
    simp

theorem mark_named {isomer : Int} {z a : Nat} {t : Text} (hi : 0 < isomer) (hz : 1 ≤ z) (ha : a < 300) (h : Named (1000 * z + a) t) :
    ∃ t', mark isomer t = .ok t' ∧ Named (1000 * z + a + 400) t' := by
  obtain ⟨P, c, rest, h3, hc, hP, hl, rfl⟩ := named_split hz (by omega) h
  refine ⟨P ++ Dec.digitChar ((a + 400) / 100) :: Dec.digitChar ((a + 400) / 10 % 10) :: Dec.digitChar ((a + 400) % 10) :: c :: rest, ?_, ?_⟩
  · unfold mark
    have hg : ∀ (d : Char) (l : Text), (P ++ d :: l)[3]? = some d := fun d l => by rw [List.getElem?_append_right (by omega), h3]; rfl
    have hd := Dec.digitChar_spec (a / 100) (by omega)
    rw [if_pos hi, hg]
    simp only [hd.1, if_true, natVal_digit (show a / 100 < 10 by omega)]
    rw [if_pos (by omega), natStr_digit (by omega), show (a + 400) / 100 = a / 100 + 4 by omega, show (a + 400) / 10 % 10 = a / 10 % 10 by omega,
      show (a + 400) % 10 = a % 10 by omega, List.take_left' h3, show 4 = P.length + 1 by omega, ← List.drop_drop, List.drop_left]
    simp
  · rw [show 1000 * z + a + 400 = 1000 * z + (a + 400) by ring]
    exact named_of hz (by omega) hc hP hl

theorem mark_columns {isomer : Int} {t t' : Text} (h : mark isomer t = .ok t') : t'.take 3 = t.take 3 ∧ t'.drop 4 = t.drop 4 := by
  unfold mark at h
  split_ifs at h with hi
  · cases ht : t[3]? with
    | none => rw [ht] at h; cases h
    | some ch =>
      rw [ht] at h
      simp only at h
      split_ifs at h with h1 h2
      · cases h
        have hlen : (t.take 3).length = 3 := by
          have : 3 < t.length := by
            by_contra hn
            rw [List.getElem?_eq_none (by omega)] at ht
            cases ht
          rw [List.length_take]; omega
        rw [natStr_digit (by omega), List.append_assoc]
        refine ⟨List.take_left' hlen, ?_⟩
        rw [← List.append_assoc]
        exact List.drop_left' (by simp [hlen])
      · cases h; exact ⟨rfl, rfl⟩
  · cases h; exact ⟨rfl, rfl⟩

theorem mark_relabelled {isomer : Int} {t t' : Text} (h : mark isomer t = .ok t') : Relabelled isomer t t' := by
  refine ⟨fun hi => ?_, (mark_columns h).1, (mark_columns h).2, fun hi z a hz _ ha hN => ?_⟩
  · unfold mark at h
    rw [if_neg (by omega)] at h
    exact (Except.ok.inj h).symm
  · obtain ⟨x, hx, hN'⟩ := mark_named hi hz ha hN
    rw [hx] at h
    cases h
    exact hN'

/-! ### Concatenation -/

section
variable {isomer : Int} {ace xsdir : Path}

theorem concat_each (hne : ace ≠ xsdir) (l : List Njoy.Temp) (hx : ∀ t ∈ l, fname ace t ≠ xsdir ∧ fname xsdir t ≠ ace) : ∀ (fs : FS) (A X : Text), fs ace = some A → fs xsdir = some X →
    (∀ p, p ≠ ace → p ≠ xsdir → (each (concat isomer ace xsdir) l fs).1 p = fs p) ∧
    ((each (concat isomer ace xsdir) l fs).2 = none → ∃ ts ms xs : List Text, l.map (fun t => fs (fname ace t)) = ts.map some ∧ ts.map (mark isomer) = ms.map .ok ∧
      l.map (fun t => fs (fname xsdir t)) = xs.map some ∧ (each (concat isomer ace xsdir) l fs).1 ace = some (A ++ ms.flatten) ∧
      (each (concat isomer ace xsdir) l fs).1 xsdir = some (X ++ xs.flatten)) ∧
    ((∀ t ∈ l, (∃ x y, fs (fname ace t) = some x ∧ mark isomer x = .ok y) ∧ (fs (fname xsdir t)).isSome) → (each (concat isomer ace xsdir) l fs).2 = none) := by
  induction l with
  | nil =>
    intro fs A X hA hX
    exact ⟨fun p _ _ => rfl, fun _ => ⟨[], [], [], rfl, rfl, rfl, by simpa [each] using hA, by simpa [each] using hX⟩, fun _ => rfl⟩
  | cons t l ih =>
    intro fs A X hA hX
    have ih := ih (fun t ht => hx t (by simp [ht]))
    obtain ⟨h1, h2⟩ := hx t (by simp)
    have h0 := fname_ne ace t
    have h0' := fname_ne xsdir t
    simp only [each]
    cases ea : fs (fname ace t) with
    | none =>
      have e : concat isomer ace xsdir t fs = (fs, some .fileNotFound) := by unfold concat; rw [ea]
      rw [e, andThen_some rfl]
      exact ⟨fun p _ _ => rfl, fun h => (by cases h), fun h => by obtain ⟨⟨x, y, hx, -⟩, -⟩ := h t (by simp); rw [ea] at hx; cases hx⟩
    | some text =>
      cases em : mark isomer text with
      | error err =>
        have e : concat isomer ace xsdir t fs = (fs, some err) := by unfold concat; rw [ea]; simp only [em]
        rw [e, andThen_some rfl]
        exact ⟨fun p _ _ => rfl, fun h => (by cases h), fun h => by
          obtain ⟨⟨x, y, hx, hm⟩, -⟩ := h t (by simp); rw [ea] at hx; cases hx; rw [em] at hm; cases hm⟩
      | ok m =>
        have ex : append ace m fs (fname xsdir t) = fs (fname xsdir t) := put_ne h2
        cases eb : fs (fname xsdir t) with
        | none =>
          have e : concat isomer ace xsdir t fs = (append ace m fs, some .fileNotFound) := by unfold concat; rw [ea]; simp only [em, ex, eb]
          rw [e, andThen_some rfl]
          exact ⟨fun p hp _ => put_ne hp, fun h => (by cases h), fun h => by obtain ⟨-, h⟩ := h t (by simp); rw [eb] at h; cases h⟩
        | some d =>
          have e : concat isomer ace xsdir t fs = (append xsdir d (append ace m fs), none) := by unfold concat; rw [ea]; simp only [em, ex, eb]
          rw [e, andThen_none rfl]
          simp only
          have hp : ∀ p, p ≠ ace → p ≠ xsdir → append xsdir d (append ace m fs) p = fs p := fun p hp hp' => (put_ne hp').trans (put_ne hp)
          have hA' : append xsdir d (append ace m fs) ace = some (A ++ m) := by
            refine (put_ne hne).trans ?_
            simp [append, hA]
          have hX' : append xsdir d (append ace m fs) xsdir = some (X ++ d) := by
            simp [append, put_ne hne.symm, hX]
          obtain ⟨i1, i2, i3⟩ := ih _ _ _ hA' hX'
          have hna : ∀ u ∈ l, append xsdir d (append ace m fs) (fname ace u) = fs (fname ace u) := fun u hu => hp _ (fname_ne ace u) (hx u (by simp [hu])).1
          have hnx : ∀ u ∈ l, append xsdir d (append ace m fs) (fname xsdir u) = fs (fname xsdir u) := fun u hu => hp _ (hx u (by simp [hu])).2 (fname_ne xsdir u)
          refine ⟨fun p h h' => (i1 p h h').trans (hp p h h'), fun h => ?_, fun h => i3 fun u hu => ?_⟩
          · obtain ⟨ts, ms, xs, j1, j2, j3, j4, j5⟩ := i2 h
            rw [List.map_congr_left hna] at j1
            rw [List.map_congr_left hnx] at j3
            exact ⟨text :: ts, m :: ms, d :: xs, by simp [ea, j1], by simp [em, j2], by simp [eb, j3], by simpa using j4, by simpa using j5⟩
          · rw [hna u hu, hnx u hu]
            exact h u (by simp [hu])

end

/-! ### Removal -/

theorem each_append {α : Type} (f : α → FS → Res) (l l' : List α) (fs : FS) : each f (l ++ l') fs = (each f l fs).andThen (each f l') := by
  induction l generalizing fs with
  | nil => rfl
  | cons a l ih =>
    simp only [List.cons_append, each]
    cases h : (f a fs).2 with
    | none => rw [andThen_none h, andThen_none h, ih]
    | some e => rw [andThen_some h, andThen_some h, andThen_some h]

theorem removeBoth_each (ace xsdir : Path) (l : List Njoy.Temp) (fs : FS) :
    each (removeBoth ace xsdir) l fs = each remove (l.flatMap fun t => [fname ace t, fname xsdir t]) fs := by
  induction l generalizing fs with
  | nil => rfl
  | cons t l ih =>
    rw [List.flatMap_cons, each_append]
    simp only [each]
    have e : removeBoth ace xsdir t fs = (remove (fname ace t) fs).andThen fun fs => (remove (fname xsdir t) fs).andThen (each remove []) := by
      unfold removeBoth
      congr 1
      funext g
      cases h : (remove (fname xsdir t) g).2 with
      | none => rw [andThen_none h]; exact Prod.ext rfl h
      | some e => rw [andThen_some h]
    simp only [each] at e
    rw [e]
    congr 1
    funext g
    exact ih g

theorem remove_each (l : List Path) : ∀ fs : FS,
    (∀ p, p ∉ l → (each remove l fs).1 p = fs p) ∧
    ((each remove l fs).2 = none → l.Nodup ∧ (∀ p ∈ l, (fs p).isSome) ∧ ∀ p ∈ l, (each remove l fs).1 p = none) ∧
    (l.Nodup → (∀ p ∈ l, (fs p).isSome) → (each remove l fs).2 = none) := by
  induction l with
  | nil => intro fs; exact ⟨fun p _ => rfl, fun _ => by simp, fun _ _ => rfl⟩
  | cons q l ih =>
    intro fs
    simp only [each]
    cases eq : fs q with
    | none =>
      have e : remove q fs = (fs, some .fileNotFound) := by unfold remove; rw [eq]
      rw [e, andThen_some rfl]
      exact ⟨fun p _ => rfl, fun h => (by cases h), fun _ h => by have := h q (by simp); rw [eq] at this; cases this⟩
    | some t =>
      have e : remove q fs = (put fs q none, none) := by unfold remove; rw [eq]
      rw [e, andThen_none rfl]
      simp only
      obtain ⟨i1, i2, i3⟩ := ih (put fs q none)
      refine ⟨fun p hp => ?_, fun h => ?_, fun hn h => ?_⟩
      · simp only [List.mem_cons, not_or] at hp
        exact (i1 p hp.2).trans (put_ne hp.1)
      · obtain ⟨j1, j2, j3⟩ := i2 h
        have hq : q ∉ l := fun hq => by have := j2 q hq; rw [put_same] at this; cases this
        refine ⟨List.nodup_cons.2 ⟨hq, j1⟩, fun p hp => ?_, fun p hp => ?_⟩
        · rcases List.mem_cons.1 hp with rfl | hp
          · simp [eq]
          · have := j2 p hp
            rwa [put_ne (fun e : p = q => hq (e ▸ hp))] at this
        · rcases List.mem_cons.1 hp with rfl | hp
          · rw [i1 p hq, put_same]
          · exact j3 p hp
      · obtain ⟨hq, hl⟩ := List.nodup_cons.1 hn
        refine i3 hl fun p hp => ?_
        rw [put_ne (fun e : p = q => hq (e ▸ hp))]
        exact h p (by simp [hp])

end ASAPy.DNjoy
