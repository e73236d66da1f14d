import Verif.Masses.Lemmas

/-!
# Atomic masses: C169, and atomic weights: C170
-/

namespace ASAPy.Masses
open ASAPy.Endf ASAPy.Dec

theorem known_mass {file : List Line} {es : List Entry} {isos : List Iso} (h : FileOk file es isos) : ∃ m : Iso → ℚ, ∀ i ∈ isos, HasMass es i (m i) := by
  classical
  refine ⟨fun i => if hi : i ∈ isos then (Classical.choose (h.known i hi)).mass else 0, fun i hi => ?_⟩
  have := Classical.choose_spec (h.known i hi)
  exact ⟨_, this.1, this.2.1, this.2.2, by simp only; rw [dif_pos hi]⟩

/-- What a full table gives. -/
def look (c : Cache) (n : Line) : Except PyErr ℚ := match Dict.get? c (lower (n.takeWhile (· ≠ '_'))) with
  | some m => .ok m
  | none => .error .keyError

theorem mass_empty {file : List Line} {ab : List (Line × ℚ)} {L : Cache} (h : load file ab [] = (L, none)) (n : Line) :
    atomicMass file ab [] n = (L, look L n) := by
  unfold atomicMass
  rw [if_pos rfl, h]
  rfl

theorem mass_full (file : List Line) (ab : List (Line × ℚ)) {L : Cache} (h : L ≠ []) (n : Line) : atomicMass file ab L n = (L, look L n) := by
  unfold atomicMass
  rw [if_neg h]
  rfl

theorem mass_ready {file : List Line} {ab : List (Line × ℚ)} {L c : Cache} (h : load file ab [] = (L, none)) (hL : L ≠ []) (hc : c = [] ∨ c = L)
    (n : Line) : atomicMass file ab c n = (L, look L n) := by
  rcases hc with rfl | rfl
  · exact mass_empty h n
  · exact mass_full file ab hL n

theorem weight_ready {file : List Line} {ab : List (Line × ℚ)} {L c : Cache} (h : load file ab [] = (L, none)) (hL : L ≠ []) (hc : c = [] ∨ c = L)
    (el : Line) : ∀ (l : List (Line × ℚ)) (s : ℚ), (weightLoop file ab el l c s).2 = (weightLoop file ab el l [] s).2 ∧
      ((weightLoop file ab el l c s).1 = [] ∨ (weightLoop file ab el l c s).1 = L)
  | [], s => ⟨rfl, hc⟩
  | (iso, w) :: l, s => by
    unfold weightLoop
    split
    · rw [mass_ready h hL hc, mass_empty h]
      cases look L iso with
      | error e => exact ⟨rfl, .inr rfl⟩
      | ok m => exact ⟨rfl, (weight_ready h hL (.inr rfl) el l _).2⟩
    · exact weight_ready h hL hc el l s

theorem call_ready {file : List Line} {ab : List (Line × ℚ)} {L c : Cache} (h : load file ab [] = (L, none)) (hL : L ≠ []) (hc : c = [] ∨ c = L)
    (k : Call) : (call file ab c k).2 = (call file ab [] k).2 ∧ ((call file ab c k).1 = [] ∨ (call file ab c k).1 = L) := by
  cases k with
  | mass n => exact ⟨by simp only [call, mass_ready h hL hc, mass_empty h], .inr (by simp only [call, mass_ready h hL hc])⟩
  | weight el =>
    obtain ⟨h1, h2⟩ := weight_ready h hL hc el ab 0
    simp only [call, atomicWeight]
    rcases hx : weightLoop file ab el ab c 0 with ⟨x, r⟩
    rcases hy : weightLoop file ab el ab [] 0 with ⟨y, r'⟩
    rw [hx, hy] at h1
    rw [hx] at h2
    cases h1
    cases r <;> exact ⟨rfl, h2⟩

/-- C169, history: with a file that can be read, every call gives what it would give as the first one. -/
theorem C169_history_partial (file : List Line) (es : List Entry) (isos : List Iso) (h : FileOk file es isos) (ks : List Call) :
    calls file (table isos) [] ks = ks.map fun k => (call file (table isos) [] k).2 := by
  obtain ⟨m, hm⟩ := known_mass h
  obtain ⟨L, hload, hL, _⟩ := load_ok h m hm
  suffices ∀ (ks : List Call) (c : Cache), c = [] ∨ c = L → calls file (table isos) c ks = ks.map fun k => (call file (table isos) [] k).2 from
    this ks [] (.inl rfl)
  intro ks
  induction ks with
  | nil => intro c _; rfl
  | cons k ks ih =>
    intro c hc
    obtain ⟨h1, h2⟩ := call_ready hload hL hc k
    rw [calls, List.map_cons, ih _ h2, h1]

theorem takeWhile_plain {n t : Line} (hn : ∀ c ∈ n, c ≠ '_') (ht : t = [] ∨ ∃ r, t = '_' :: r) : (n ++ t).takeWhile (· ≠ '_') = n := by
  rw [List.takeWhile_append_of_pos (fun c hc => by simpa using hn c hc)]
  rcases ht with rfl | ⟨r, rfl⟩ <;> simp

theorem same_plain {n s : Line} (h : Same n s) (hs : ∀ c ∈ s, c ≠ '_') : ∀ c ∈ n, c ≠ '_' := by
  rintro c hc rfl
  have : ('_' : Char).toLower ∈ s.map Char.toLower := by rw [← h]; exact List.mem_map.mpr ⟨_, hc, rfl⟩
  obtain ⟨x, hx, e⟩ := List.mem_map.mp this
  exact hs x hx (toLower_under e)

theorem name_plain {s : Line} (hs : Letters s) (a : Nat) : ∀ c ∈ s ++ natStr a, c ≠ '_' := by
  intro c hc
  rcases List.mem_append.mp hc with h | h
  · exact (hs.2 c h).2.2
  · rintro rfl; exact absurd (natStr_digits a _ h) (by decide)

/-- C169, mass: the mass of a nuclide of the file, whatever capitals its name is written with and whatever excited state is behind it. -/
theorem C169_mass (file : List Line) (es : List Entry) (isos : List Iso) (h : FileOk file es isos) (e : Entry) (he : e ∈ es) (n t : Line)
    (hn : Same n (e.sym ++ natStr e.a)) (ht : t = [] ∨ ∃ r, t = '_' :: r) : (atomicMass file (table isos) [] (n ++ t)).2 = .ok e.mass := by
  obtain ⟨m, hm⟩ := known_mass h
  obtain ⟨L, hload, hL, h1, _⟩ := load_ok h m hm
  have h2 : lower n = key e := by
    rw [lower, hn]
    exact lower_name e.sym e.a
  rw [mass_empty hload, look, takeWhile_plain (same_plain hn (name_plain (h.ok e he).sym e.a)) ht, h2, h1 e he]

theorem mixed_naturals : mixed = naturals := rfl

/-- C169, mixtures: mass number 0 of carbon, zinc, platinum, osmium and thallium is the mean of the natural isotopes of that element alone. -/
theorem C169_mixture (file : List Line) (es : List Entry) (isos : List Iso) (h : FileOk file es isos) (m : Iso → ℚ) (hm : ∀ i ∈ isos, HasMass es i (m i))
    (el : Line) (hel : el ∈ mixed) (n t : Line) (hn : Same n (el ++ ['0'])) (ht : t = [] ∨ ∃ r, t = '_' :: r) :
    (atomicMass file (table isos) [] (n ++ t)).2 = .ok ((isotopes isos el).map fun i => i.w * m i).sum := by
  obtain ⟨L, hload, hL, _, h1, _⟩ := load_ok h m hm
  rw [mixed_naturals] at hel
  have hp : ∀ c ∈ el ++ ['0'], c ≠ '_' := by
    have := name_plain (naturals_letters el hel) 0
    rwa [zero_key] at this
  have h2 : lower n = lower el ++ ['0'] := by
    rw [lower, hn, List.map_append]
    rfl
  rw [mass_empty hload, look, takeWhile_plain (same_plain hn hp) ht, h2, h1 el hel]

/-- C169, other names: a name of no nuclide of the file and of no mixture is a `KeyError`. -/
theorem C169_unknown (file : List Line) (es : List Entry) (isos : List Iso) (h : FileOk file es isos) (n t : Line) (hp : ∀ c ∈ n, c ≠ '_')
    (ht : t = [] ∨ ∃ r, t = '_' :: r) (h1 : ∀ e ∈ es, ¬ Same n (e.sym ++ natStr e.a)) (h2 : ∀ el ∈ mixed, ¬ Same n (el ++ ['0'])) :
    (atomicMass file (table isos) [] (n ++ t)).2 = .error .keyError := by
  obtain ⟨m, hm⟩ := known_mass h
  obtain ⟨L, hload, hL, _, _, h3⟩ := load_ok h m hm
  have := h3 (lower n) (fun e he hk => h1 e he (by unfold Same; rw [← lower, ← lower, lower_name]; exact hk.symm))
    (fun el hel hk => h2 el hel (by unfold Same; rw [← lower, ← hk, List.map_append]; rfl))
  rw [mass_empty hload, look, takeWhile_plain hp ht, this]

/-- C169 is false when a line of the file cannot be read: the first call raises `ValueError`, but the masses read up to there stay, and the second
call, of the same nuclide, returns its mass. -/
theorem C169_broken_refuted (hdr : List Line) (hh : hdr.length = 39) (e : Entry) (he : e.Ok) (l bad : Line) (hl : e.On l)
    (hb : pyInt (col bad 16 19) = .error .valueError) (rest : List Line) (isos : List Iso) :
    calls (hdr ++ l :: bad :: rest) (table isos) [] [.mass (e.sym ++ natStr e.a), .mass (e.sym ++ natStr e.a)] =
      [.error .valueError, .ok e.mass] := by
  have hd : (hdr ++ l :: bad :: rest).drop 39 = l :: bad :: rest := by rw [← hh, List.drop_left]
  have hbad : massEntry bad = .error .valueError := by unfold massEntry; rw [hb]; rfl
  have hload : load (hdr ++ l :: bad :: rest) (table isos) [] = ([(key e, e.mass)], some .valueError) := by
    unfold load
    rw [hd, readLines, massEntry_on hl he]
    simp only [Dict.set, readLines, hbad]
  have h1 : atomicMass (hdr ++ l :: bad :: rest) (table isos) [] (e.sym ++ natStr e.a) = ([(key e, e.mass)], .error .valueError) := by
    unfold atomicMass
    rw [if_pos rfl, hload]
  have h2 : look [(key e, e.mass)] (e.sym ++ natStr e.a) = .ok e.mass := by
    have := takeWhile_plain (name_plain he.sym e.a) (t := []) (.inl rfl)
    rw [List.append_nil] at this
    unfold look
    rw [this, lower_name]
    simp [Dict.get?, key]
  simp only [calls, call, h1, mass_full _ _ (List.cons_ne_nil _ _), h2]

/-! ### Weights -/

theorem weightLoop_ok {file : List Line} {es : List Entry} {isos : List Iso} (h : FileOk file es isos) (m : Iso → ℚ)
    (hm : ∀ i ∈ isos, HasMass es i (m i)) {el : Line} (hel : Letters el) : ∀ (l : List Iso) (c : Cache) (s : ℚ), (∀ i ∈ l, i ∈ isos) →
    (∃ L, load file (table isos) [] = (L, none) ∧ L ≠ [] ∧ (c = [] ∨ c = L)) →
    (weightLoop file (table isos) el (table l) c s).2 = .ok (s + ((isotopes l el).map fun i => m i * i.w).sum)
  | [], c, s, _, _ => by simp [weightLoop, table, isotopes]
  | i :: l, c, s, hl, hc => by
    have hi := hl i (by simp)
    have hn : ∀ c ∈ i.sym, isDigit c = false := fun c hc => ((h.letters i hi).2 c hc).2.1
    have hen : ∀ c ∈ el, isDigit c = false := fun c hc => (hel.2 c hc).2.1
    show (weightLoop file (table isos) el ((i.sym ++ natStr i.a, i.w) :: table l) c s).2 = _
    rw [weightLoop]
    obtain ⟨L, hload, hL, hcc⟩ := hc
    by_cases he : i.sym = el
    · rw [if_pos ((isotopeOf_iff i.a hen hn).mpr he)]
      obtain ⟨e, hee, hs, ha, hv⟩ := hm i hi
      have hmass : (atomicMass file (table isos) [] (i.sym ++ natStr i.a)).2 = .ok e.mass := by
        have := C169_mass file es isos h e hee (i.sym ++ natStr i.a) [] (by unfold Same; rw [List.map_append, List.map_append, hs, ha]) (.inl rfl)
        rwa [List.append_nil] at this
      rw [mass_empty hload] at hmass
      rw [mass_ready hload hL hcc]
      simp only at hmass
      rw [hmass]
      simp only
      rw [weightLoop_ok h m hm hel l L _ (fun j hj => hl j (by simp [hj])) ⟨L, hload, hL, .inr rfl⟩]
      simp [isotopes, he, hv, add_assoc]
    · rw [if_neg (fun hx => he ((isotopeOf_iff i.a hen hn).mp hx)),
        weightLoop_ok h m hm hel l c s (fun j hj => hl j (by simp [hj])) ⟨L, hload, hL, hcc⟩]
      simp [isotopes, he]

theorem weight_sum {file : List Line} {es : List Entry} {isos : List Iso} (h : FileOk file es isos) (m : Iso → ℚ)
    (hm : ∀ i ∈ isos, HasMass es i (m i)) {el : Line} (hel : Letters el) : (atomicWeight file (table isos) [] el).2 =
      if 0 < ((isotopes isos el).map fun i => m i * i.w).sum then .ok ((isotopes isos el).map fun i => m i * i.w).sum else .error .valueError := by
  obtain ⟨L, hload, hL, _⟩ := load_ok h m hm
  have := weightLoop_ok h m hm hel isos [] 0 (fun _ hi => hi) ⟨L, hload, hL, .inl rfl⟩
  unfold atomicWeight
  rcases hx : weightLoop file (table isos) el (table isos) [] 0 with ⟨c, r⟩
  rw [hx] at this
  simp only [zero_add] at this
  subst this
  rfl

theorem sum_pos' {α : Type} {f : α → ℚ} : ∀ {l : List α}, l ≠ [] → (∀ x ∈ l, 0 < f x) → 0 < (l.map f).sum
  | [], h, _ => absurd rfl h
  | [x], _, h => by simpa using h x (by simp)
  | x :: y :: l, _, h => by
    rw [List.map_cons, List.sum_cons]
    exact add_pos (h x (by simp)) (sum_pos' (List.cons_ne_nil y l) fun z hz => h z (List.mem_cons_of_mem x hz))

/-- C170, weight: the weight of an element is the mean of the masses of its own natural isotopes, by their fractions. -/
theorem C170_weight (file : List Line) (es : List Entry) (isos : List Iso) (h : FileOk file es isos) (m : Iso → ℚ) (hm : ∀ i ∈ isos, HasMass es i (m i))
    (el : Line) (hel : Letters el) (hne : isotopes isos el ≠ []) (hw : ∀ i ∈ isotopes isos el, 0 < i.w ∧ 0 < m i) :
    (atomicWeight file (table isos) [] el).2 = .ok ((isotopes isos el).map fun i => m i * i.w).sum := by
  rw [weight_sum h m hm hel, if_pos]
  exact sum_pos' hne fun i hi => mul_pos (hw i hi).2 (hw i hi).1

/-- C170, others: an element without natural isotopes is a `ValueError`. -/
theorem C170_none (file : List Line) (es : List Entry) (isos : List Iso) (h : FileOk file es isos) (el : Line) (hel : Letters el)
    (hne : ∀ i ∈ isos, i.sym ≠ el) : (atomicWeight file (table isos) [] el).2 = .error .valueError := by
  obtain ⟨m, hm⟩ := known_mass h
  have : isotopes isos el = [] := List.filter_eq_nil_iff.mpr fun i hi => by simpa using hne i hi
  rw [weight_sum h m hm hel, this]
  simp

/-- C170, mixtures: the mass of the mixture of an element is its weight. -/
theorem C170_mixture (file : List Line) (es : List Entry) (isos : List Iso) (h : FileOk file es isos) (el : Line) (hel : el ∈ mixed) (w : ℚ)
    (hw : (atomicWeight file (table isos) [] el).2 = .ok w) : (atomicMass file (table isos) [] (el ++ ['0'])).2 = .ok w := by
  obtain ⟨m, hm⟩ := known_mass h
  have h1 := C169_mixture file es isos h m hm el hel (el ++ ['0']) [] rfl (.inl rfl)
  rw [List.append_nil] at h1
  rw [weight_sum h m hm (naturals_letters el (mixed_naturals ▸ hel))] at hw
  split at hw
  · cases hw
    rw [h1]
    simp only [mul_comm]
  · cases hw

/-- C170 is false of names in other capitals, which masses are found with: `atomic_weight` raises. -/
theorem C170_capitals_refuted (file : List Line) (es : List Entry) (isos : List Iso) (h : FileOk file es isos) (i : Iso) (hi : i ∈ isos) (el : Line)
    (hel : Letters el) (hs : Same el i.sym) (hne : ∀ j ∈ isos, j.sym ≠ el) :
    (∃ x, (atomicMass file (table isos) [] (el ++ natStr i.a)).2 = .ok x) ∧ (atomicWeight file (table isos) [] el).2 = .error .valueError := by
  obtain ⟨e, he, h1, h2⟩ := h.known i hi
  refine ⟨⟨e.mass, ?_⟩, C170_none file es isos h el hel hne⟩
  have := C169_mass file es isos h e he (el ++ natStr i.a) [] (by unfold Same; rw [List.map_append, List.map_append, hs, h1, h2]) (.inl rfl)
  rwa [List.append_nil] at this

/-! ### A file -/

/-- Lines of mass.mas12. -/
def lC12 : Line := c!"   0    6    6   12 C             0.0        0.0       7680.144    0.000 B- -17338.072    1.000  12 000000.0        0.0"
def lC13 : Line := c!"   1    7    6   13 C          3125.00875    0.00021   7469.849    0.000 B-  -2220.472    0.270  13 003354.83507    0.00023"

def eC12 : Entry := ⟨c!"C", 12, c!"12", c!"000000", c!"0"⟩
def eC13 : Entry := ⟨c!"C", 13, c!"13", c!"003354", c!"83507"⟩

def exFile : List Line := List.replicate 39 [] ++ [lC12, lC13]

def exIsos : List Iso := [⟨c!"C", 12, 988922 / 1000000⟩, ⟨c!"C", 13, 11078 / 1000000⟩]

theorem exFile_ok : FileOk exFile [eC12, eC13] exIsos where
  lines := by
    have : exFile.drop 39 = [lC12, lC13] := rfl
    rw [this]
    refine .cons ⟨⟨1, 0, c!"12", by decide, ?_, by decide, by decide⟩, ⟨0, 1, by decide⟩, ⟨1, 0, by decide⟩, by decide, ⟨4, by decide⟩⟩
      (.cons ⟨⟨1, 0, c!"13", by decide, ?_, by decide, by decide⟩, ⟨0, 1, by decide⟩, ⟨1, 0, by decide⟩, by decide, ⟨0, by decide⟩⟩ .nil)
    · unfold Digits; decide
    · unfold Digits; decide
  ok := by
    intro e he
    simp only [List.mem_cons, List.not_mem_nil, or_false] at he
    rcases he with rfl | rfl <;>
      exact ⟨⟨by decide, by decide⟩, by unfold Digits; decide, by decide, by unfold Digits; decide, by decide, by unfold Digits; decide⟩
  once := by decide
  pos := by
    intro e he
    simp only [List.mem_cons, List.not_mem_nil, or_false] at he
    rcases he with rfl | rfl <;> decide
  some := by simp
  letters := by
    intro i hi
    simp only [exIsos, List.mem_cons, List.not_mem_nil, or_false] at hi
    rcases hi with rfl | rfl <;> exact ⟨by decide, by decide⟩
  known := by
    intro i hi
    simp only [exIsos, List.mem_cons, List.not_mem_nil, or_false] at hi
    rcases hi with rfl | rfl
    · exact ⟨eC12, by simp, rfl, rfl⟩
    · exact ⟨eC13, by simp, rfl, rfl⟩

example : (atomicMass exFile (table exIsos) [] c!"c13_m1").2 = .ok eC13.mass :=
  C169_mass _ _ _ exFile_ok eC13 (by simp) c!"c13" c!"_m1" (by unfold Same; decide) (.inr ⟨_, rfl⟩)

theorem eC12_mass : eC12.mass = 12 := by
  have h1 : natVal eC12.whole = 12 := by decide
  have h2 : natVal (eC12.micro ++ eC12.frac) = 0 := by decide
  simp [Entry.mass, h1, h2]

theorem eC13_mass : eC13.mass = 13 + 335483507 / 100000000000 := by
  have h1 : natVal eC13.whole = 13 := by decide
  have h2 : natVal (eC13.micro ++ eC13.frac) = 335483507 := by decide
  have h3 : eC13.frac.length = 5 := rfl
  norm_num [Entry.mass, h1, h2, h3]

example : (atomicMass exFile (table exIsos) [] c!"Nh284").2 = .error .keyError :=
  C169_unknown _ _ _ exFile_ok c!"Nh284" [] (by decide) (.inl rfl) (by unfold Same; decide) (by unfold Same; decide)

example : (atomicWeight exFile (table exIsos) [] c!"C").2 = .ok (eC12.mass * (988922 / 1000000) + (eC13.mass * (11078 / 1000000) + 0)) := by
  have := C170_weight _ _ _ exFile_ok (fun i => if i.a = 12 then eC12.mass else eC13.mass) (by
    intro i hi
    simp only [exIsos, List.mem_cons, List.not_mem_nil, or_false] at hi
    rcases hi with rfl | rfl
    · exact ⟨eC12, by simp, rfl, rfl, rfl⟩
    · exact ⟨eC13, by simp, rfl, rfl, rfl⟩) c!"C" ⟨by decide, by decide⟩ (by decide) (by
    intro i hi
    have hi : i ∈ exIsos := (List.mem_filter.mp hi).1
    simp only [exIsos, List.mem_cons, List.not_mem_nil, or_false] at hi
    rcases hi with rfl | rfl <;> norm_num [eC12_mass, eC13_mass])
  simpa [isotopes, exIsos] using this

example : (atomicWeight exFile (table exIsos) [] c!"c").2 = .error .valueError :=
  (C170_capitals_refuted _ _ _ exFile_ok ⟨c!"C", 12, 988922 / 1000000⟩ (by simp [exIsos]) c!"c" ⟨by decide, by decide⟩ rfl (by decide)).2

example : calls (List.replicate 39 [] ++ [lC12, c!"end"]) (table exIsos) [] [.mass c!"C12", .mass c!"C12"] = [.error .valueError, .ok eC12.mass] :=
  C169_broken_refuted (List.replicate 39 []) rfl eC12 (exFile_ok.ok _ (by simp)) lC12 c!"end"
    (by cases exFile_ok.lines with | cons h _ => exact h) (by decide) [] exIsos

end ASAPy.Masses
