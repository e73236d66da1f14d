import Verif.Uni.Props

/-!
# C216-C218: attributes of distributions, XML
-/

noncomputable section

namespace ASAPy.Uni

/-! ### C216: assignments -/

theorem history_inv {α β : Type} {run : α → β → Except PyErr α} {Q : α → Prop} (h : ∀ o op o', Q o → run o op = .ok o' → Q o') :
    ∀ (ops : List β) (o : α), Q o → Q (history run o ops)
  | [], _, ho => ho
  | op :: ops, o, ho => by
    rw [history, List.foldl_cons]
    refine history_inv h ops _ ?_
    cases e : run o op with
    | ok o' => exact h o op o' ho e
    | error _ => exact ho

theorem checkReals_ok {a b : Arg} (h : checkReals a = .ok b) : b = a.used ∧ ((∃ l, a = .seq l) ∨ ∃ l, a = .once l) := by
  cases a <;> simp [checkReals] at h <;> exact ⟨h.symm, by simp⟩

theorem checkNonneg_ok {a b : Arg} (h : checkNonneg a = .ok b) : b = a.used ∧ ∀ v ∈ a.items, 0 ≤ v := by
  rw [checkNonneg] at h
  split_ifs at h with hn
  cases h
  simpa using hn

theorem checkNonneg_seq (p : List ℝ) : checkNonneg (.seq p) = if ∀ v ∈ p, 0 ≤ v then .ok (.seq p) else .error .valueError := by
  have e : ((Arg.seq p).items.any fun v => decide (v < 0)) = true ↔ ¬ ∀ v ∈ p, 0 ≤ v := by simp [Arg.items]
  rw [checkNonneg]
  by_cases h : ∀ v ∈ p, 0 ≤ v
  · rw [if_neg (fun h' => e.1 h' h), if_pos h]
    rfl
  · rw [if_pos (e.2 h), if_neg h]

theorem tabularP_ok {ign : Bool} {p q : Arg} (h : tabularP ign p = .ok q) (hi : ign = false) : ∀ v ∈ q.items, 0 ≤ v := by
  simp only [tabularP, bind, Except.bind, pure, Except.pure] at h
  cases e : checkReals p with
  | error _ => simp [e] at h
  | ok p' =>
    simp only [e, hi, Bool.false_eq_true, if_false] at h
    obtain ⟨rfl, hv⟩ := checkNonneg_ok h
    obtain ⟨rfl, hs⟩ := checkReals_ok e
    rcases hs with ⟨l, rfl⟩ | ⟨l, rfl⟩
    · exact hv
    · simp [Arg.used, Arg.items]

theorem tabularInterpolation_ok {s t : Text} (h : tabularInterpolation s = .ok t) : t ∈ schemes := by
  rw [tabularInterpolation] at h
  split_ifs at h with hs
  cases h
  exact hs

/-- C216: whatever is assigned to a `Tabular`, and however often, its scheme is one of the five and, unless it was made to ignore them, no probability is negative. -/
theorem C216_tabular {x p : Arg} {i : Text} {ign : Bool} {t : Tabular} (h : mkTabular x p i ign = .ok t) (ops : List TabOp) :
    (history TabOp.run t ops).interpolation ∈ ([c!"histogram", c!"linear-linear", c!"linear-log", c!"log-linear", c!"log-log"] : List Text) ∧
      (history TabOp.run t ops).ignoreNegative = ign ∧ (ign = false → ∀ v ∈ (history TabOp.run t ops).p.items, 0 ≤ v) := by
  refine history_inv (Q := fun t : Tabular => t.interpolation ∈ schemes ∧ t.ignoreNegative = ign ∧ (ign = false → ∀ v ∈ t.p.items, 0 ≤ v)) ?_ ops t ?_
  · rintro t op t' ⟨h1, h2, h3⟩ h
    cases op with
    | setX x =>
      simp only [TabOp.run, bind, Except.bind, pure, Except.pure] at h
      cases e : tabularX x <;> simp only [e] at h <;> cases h
      exact ⟨h1, h2, h3⟩
    | setP p =>
      simp only [TabOp.run, bind, Except.bind, pure, Except.pure] at h
      cases e : tabularP t.ignoreNegative p <;> simp only [e] at h <;> cases h
      exact ⟨h1, h2, fun hi => tabularP_ok e (h2.trans hi)⟩
    | setInterpolation s =>
      simp only [TabOp.run, bind, Except.bind, pure, Except.pure] at h
      cases e : tabularInterpolation s <;> simp only [e] at h <;> cases h
      exact ⟨tabularInterpolation_ok e, h2, h3⟩
  · simp only [mkTabular, bind, Except.bind, pure, Except.pure] at h
    cases e1 : tabularX x <;> simp only [e1] at h
    · cases h
    cases e2 : tabularP ign p <;> simp only [e2] at h
    · cases h
    cases e3 : tabularInterpolation i <;> simp only [e3] at h <;> cases h
    exact ⟨tabularInterpolation_ok e3, rfl, fun hi => tabularP_ok e2 hi⟩

/-- C216: lists are kept as they are, and exactly those without negative probabilities are accepted, whatever their lengths. -/
theorem C216_tabular_lists (x p : List ℝ) (i : Text) (ign : Bool) (hi : i ∈ schemes) : mkTabular (.seq x) (.seq p) i ign =
    if ign = true ∨ ∀ v ∈ p, 0 ≤ v then .ok ⟨.seq x, .seq p, i, ign⟩ else .error .valueError := by
  have hp : tabularP ign (.seq p) = if ign = true ∨ ∀ v ∈ p, 0 ≤ v then .ok (.seq p) else .error .valueError := by
    simp only [tabularP, checkReals, Arg.used, bind, Except.bind, pure, Except.pure, checkNonneg_seq]
    cases ign with
    | true => simp
    | false => simp
  simp only [mkTabular, bind, Except.bind, pure, Except.pure, hp, tabularX, checkReals, Arg.used, tabularInterpolation, if_pos hi]
  split_ifs <;> rfl

/-- C216: a name that is none of the five is refused. -/
theorem C216_interpolation (t : Tabular) (s : Text) : TabOp.run t (.setInterpolation s) =
    if s ∈ ([c!"histogram", c!"linear-linear", c!"linear-log", c!"log-linear", c!"log-log"] : List Text) then .ok { t with interpolation := s } else .error .valueError := by
  rw [TabOp.run, tabularInterpolation, show schemes = _ from rfl]
  by_cases h : s ∈ ([c!"histogram", c!"linear-linear", c!"linear-log", c!"log-linear", c!"log-log"] : List Text)
  · rw [if_pos h, if_pos (show s ∈ schemes from h)]; rfl
  · rw [if_neg h, if_neg (show s ∉ schemes from h)]; rfl

/-- C216: a `Discrete` of lists or numbers, which count as lists of one. -/
theorem C216_discrete_lists (x p : List ℝ) : mkDiscrete (.seq x) (.seq p) = if ∀ v ∈ p, 0 ≤ v then .ok ⟨.seq x, .seq p⟩ else .error .valueError := by
  simp only [mkDiscrete, discreteX, discreteP, Arg.wrap, bind, Except.bind, pure, Except.pure, checkReals, Arg.used, checkNonneg_seq]
  by_cases h : ∀ v ∈ p, 0 ≤ v
  · rw [if_pos h, if_pos h]
  · rw [if_neg h, if_neg h]

/-- C216: numbers. -/
theorem C216_discrete_numbers (x p : ℝ) : mkDiscrete (.number x) (.number p) = if 0 ≤ p then .ok ⟨.seq [x], .seq [p]⟩ else .error .valueError := by
  have := C216_discrete_lists [x] [p]
  simp only [List.mem_singleton, forall_eq] at this
  exact this

/-- C216: whatever is assigned to a `Discrete`, and however often, no probability is negative. -/
theorem C216_discrete {x p : Arg} {d : Discrete} (h : mkDiscrete x p = .ok d) (ops : List DiscOp) : ∀ v ∈ (history DiscOp.run d ops).p.items, 0 ≤ v := by
  have hp : ∀ {p q : Arg}, discreteP p = .ok q → ∀ v ∈ q.items, 0 ≤ v := fun {p q} e => tabularP_ok (ign := false) (p := p.wrap) (by simpa [tabularP, discreteP] using e) rfl
  refine history_inv (Q := fun d : Discrete => ∀ v ∈ d.p.items, 0 ≤ v) ?_ ops d ?_
  · intro d op d' hd h
    cases op with
    | setX x =>
      simp only [DiscOp.run, bind, Except.bind, pure, Except.pure] at h
      cases e : discreteX x <;> simp only [e] at h <;> cases h
      exact hd
    | setP p =>
      simp only [DiscOp.run, bind, Except.bind, pure, Except.pure] at h
      cases e : discreteP p <;> simp only [e] at h <;> cases h
      exact hp e
  · simp only [mkDiscrete, bind, Except.bind, pure, Except.pure] at h
    cases e1 : discreteX x <;> simp only [e1] at h
    · cases h
    cases e2 : discreteP p <;> simp only [e2] at h <;> cases h
    exact hp e2

theorem checkPositive_ok {a : Arg} {v : ℝ} (h : checkPositive a = .ok v) : 0 < v := by
  cases a <;> simp only [checkPositive] at h <;> try cases h
  split_ifs at h with hv
  cases h
  exact not_le.1 hv

/-- C216: both parameters of a `Watt` are positive, whatever is assigned and however often. -/
theorem C216_watt {a b : Arg} {w : Watt} (h : mkWatt a b = .ok w) (ops : List WattOp) : 0 < (history WattOp.run w ops).a ∧ 0 < (history WattOp.run w ops).b := by
  refine history_inv (Q := fun w : Watt => 0 < w.a ∧ 0 < w.b) ?_ ops w ?_
  · rintro w op w' ⟨ha, hb⟩ h
    cases op with
    | setA a =>
      simp only [WattOp.run, bind, Except.bind, pure, Except.pure] at h
      cases e : checkPositive a <;> simp only [e] at h <;> cases h
      exact ⟨checkPositive_ok e, hb⟩
    | setB b =>
      simp only [WattOp.run, bind, Except.bind, pure, Except.pure] at h
      cases e : checkPositive b <;> simp only [e] at h <;> cases h
      exact ⟨ha, checkPositive_ok e⟩
  · simp only [mkWatt, bind, Except.bind, pure, Except.pure] at h
    cases e1 : checkPositive a <;> simp only [e1] at h
    · cases h
    cases e2 : checkPositive b <;> simp only [e2] at h <;> cases h
    exact ⟨checkPositive_ok e1, checkPositive_ok e2⟩

/-- C216: and all positive parameters are accepted as they are. -/
theorem C216_watt_numbers (a b : ℝ) : mkWatt (.number a) (.number b) = if 0 < a ∧ 0 < b then .ok ⟨a, b⟩ else .error .valueError := by
  simp only [mkWatt, checkPositive, bind, Except.bind, pure, Except.pure]
  by_cases ha : 0 < a
  · by_cases hb : 0 < b
    · rw [if_neg (not_le.2 ha)]; simp only; rw [if_neg (not_le.2 hb), if_pos ⟨ha, hb⟩]
    · rw [if_neg (not_le.2 ha)]; simp only; rw [if_pos (not_lt.1 hb), if_neg (fun h => hb h.2)]
  · rw [if_pos (not_lt.1 ha), if_neg (show ¬ (0 < a ∧ 0 < b) from fun h => ha h.1)]

/-- C216, what does not hold: an iterator that can be run through once is accepted, run through by the checks and kept empty; negative probabilities in it are not seen. -/
theorem C216_iterator_refuted (t : Tabular) (l : List ℝ) : ∃ t', TabOp.run t (.setP (.once l)) = .ok t' ∧ t'.p.items = [] ∧ ∃ t'', TabOp.run t (.setX (.once l)) = .ok t'' ∧ t''.x.items = [] := by
  refine ⟨{ t with p := .once [] }, ?_, rfl, { t with x := .once [] }, rfl, rfl⟩
  simp only [TabOp.run, tabularP, checkReals, Arg.used, checkNonneg, Arg.items, bind, Except.bind, pure, Except.pure]
  cases t.ignoreNegative <;> simp

/-- C216, what does not hold: values and probabilities need not be as many. -/
theorem C216_lengths_refuted : ∃ t, mkTabular (.seq [0, 1, 2]) (.seq [1 / 2]) c!"histogram" false = .ok t ∧ t.x.items.length ≠ t.p.items.length :=
  ⟨_, (C216_tabular_lists [0, 1, 2] [1 / 2] c!"histogram" false (by simp [schemes])).trans (if_pos (Or.inr (by simp))), by simp [Arg.items]⟩

/-- C216: a `Uniform` with a < b becomes a histogram over [a, b] whose density integrates to 1 and whose cumulative probabilities are 0 and 1. -/
theorem C216_uniform {a b : ℝ} (h : a < b) : ∃ v, uniformTabular a b = .ok (⟨.seq [a, b], .seq [v, v], c!"histogram", false⟩, [0, 1]) ∧ 0 < v ∧ (∫ _ in a..b, v) = 1 := by
  have hb : 0 < b - a := sub_pos.2 h
  refine ⟨1 / (b - a), ?_, one_div_pos.2 hb, ?_⟩
  · rw [uniformTabular, if_neg hb.ne', C216_tabular_lists _ _ _ _ (by simp [schemes]), if_pos]
    · rfl
    · right
      intro v hv
      simp at hv
      rw [hv]
      exact inv_nonneg.2 hb.le
  · rw [intervalIntegral.integral_const, smul_eq_mul, mul_one_div_cancel hb.ne']

/-- C216: with b < a it raises ValueError, with a = b ZeroDivisionError: nothing keeps the bounds of a `Uniform` in order. -/
theorem C216_uniform_refuted {a b : ℝ} (h : b < a) : uniformTabular a b = .error .valueError ∧ uniformTabular a a = .error .zeroDivision := by
  have hb : b - a < 0 := sub_neg.2 h
  refine ⟨?_, by rw [uniformTabular, if_pos (sub_self a)]⟩
  rw [uniformTabular, if_neg hb.ne, C216_tabular_lists _ _ _ _ (by simp [schemes]), if_neg]
  · rfl
  · rintro (h | h)
    · simp at h
    · have := h (1 / (b - a)) (by simp)
      exact absurd this (not_le.2 (one_div_neg.2 hb))

/-- A history in which two of three assignments are refused. -/
example : history TabOp.run ⟨.seq [0, 1], .seq [1, 1], c!"histogram", false⟩ [.setP (.seq [1, -1]), .setInterpolation c!"cubic", .setP (.seq [2, 0])] =
    ⟨.seq [0, 1], .seq [2, 0], c!"histogram", false⟩ := by
  have h3 : (2 : ℝ) < 0 ↔ False := by norm_num
  simp [history, TabOp.run, tabularP, checkReals, Arg.used, checkNonneg, Arg.items, bind, Except.bind, pure, Except.pure, tabularInterpolation, schemes, h3]

/-! ### C217: XML of distributions -/

theorem split_text {str : ℝ → Text} {x p : List ℝ} (h : ∀ v ∈ x ++ p, Str.Word (str v)) : Str.split (Str.join (x.map str) ++ ' ' :: Str.join (p.map str)) = x.map str ++ p.map str := by
  rw [Str.split_space _ Str.isSpace_blank, Str.split_join, Str.split_join]
  · intro w hw
    obtain ⟨v, hv, rfl⟩ := List.mem_map.1 hw
    exact h v (List.mem_append_right _ hv)
  · intro w hw
    obtain ⟨v, hv, rfl⟩ := List.mem_map.1 hw
    exact h v (List.mem_append_left _ hv)

/-- C217: an XML element of a `Tabular` tells its type, its scheme and, if there are as many values as probabilities, the first half of its words are the values and the second the probabilities. -/
theorem C217_tabular_partial {str : ℝ → Text} {name : Text} {t : Tabular} (h : ∀ v ∈ t.x.items ++ t.p.items, Str.Word (str v)) (hl : t.x.items.length = t.p.items.length) :
    (t.xml str name).tag = name ∧ (t.xml str name).attrs.lookup c!"type" = some c!"tabular" ∧ (t.xml str name).attrs.lookup c!"interpolation" = some t.interpolation ∧
    ∃ text, (t.xml str name).kids = [.node c!"parameters" [] (some text) none []] ∧ (Str.split text).take ((Str.split text).length / 2) = t.x.items.map str ∧
      (Str.split text).drop ((Str.split text).length / 2) = t.p.items.map str := by
  refine ⟨rfl, rfl, rfl, _, rfl, ?_⟩
  rw [split_text h]
  have : (t.x.items.map str ++ t.p.items.map str).length / 2 = (t.x.items.map str).length := by
    rw [List.length_append, List.length_map, List.length_map, ← hl]
    omega
  rw [this]
  exact ⟨List.take_left, List.drop_left⟩

/-- C217: the same for a `Discrete`. -/
theorem C217_discrete_partial {str : ℝ → Text} {name : Text} {d : Discrete} (h : ∀ v ∈ d.x.items ++ d.p.items, Str.Word (str v)) (hl : d.x.items.length = d.p.items.length) :
    (d.xml str name).tag = name ∧ (d.xml str name).attrs = [(c!"type", c!"discrete")] ∧
    ∃ text, (d.xml str name).kids = [.node c!"parameters" [] (some text) none []] ∧ (Str.split text).take ((Str.split text).length / 2) = d.x.items.map str ∧
      (Str.split text).drop ((Str.split text).length / 2) = d.p.items.map str := by
  obtain ⟨h1, -, -, h2⟩ := C217_tabular_partial (name := name) (t := ⟨d.x, d.p, [], false⟩) h hl
  exact ⟨h1, rfl, h2⟩

/-- C217: a `Watt` has its two parameters in an attribute. -/
theorem C217_watt {str : ℝ → Text} {name : Text} {w : Watt} (ha : Str.Word (str w.a)) (hb : Str.Word (str w.b)) :
    (w.xml str name).attrs.lookup c!"type" = some c!"watt" ∧ ∃ text, (w.xml str name).attrs.lookup c!"parameters" = some text ∧ Str.split text = [str w.a, str w.b] :=
  ⟨rfl, _, rfl, by rw [Str.split_space _ Str.isSpace_blank, Str.split_word ha, Str.split_word hb]; rfl⟩

theorem join_snoc (v : Text) : ∀ (ws : List Text), ws ≠ [] → Str.join (ws ++ [v]) = Str.join ws ++ ' ' :: v
  | [], h => absurd rfl h
  | [w], _ => by
    rw [List.singleton_append, Str.join_cons_cons]
    simp [Str.join, List.intercalate, List.intersperse]
  | w :: w' :: ws, _ => by
    rw [List.cons_append, List.cons_append, Str.join_cons_cons, ← List.cons_append, join_snoc v (w' :: ws) (by simp), Str.join_cons_cons]
    simp

/-- C217, what does not hold: nothing separates values from probabilities. Distributions with a different number of each have the same element. -/
theorem C217_ambiguous_refuted (str : ℝ → Text) (name : Text) {x p : List ℝ} (v : ℝ) (hx : x ≠ []) (hp : p ≠ []) (i : Text) :
    Tabular.xml str name ⟨.seq (x ++ [v]), .seq p, i, false⟩ = Tabular.xml str name ⟨.seq x, .seq (v :: p), i, false⟩ := by
  simp only [Tabular.xml, listXml, Arg.items, List.map_append, List.map_cons, List.map_nil]
  rw [join_snoc _ _ (by simpa using hx)]
  cases p with
  | nil => exact absurd rfl hp
  | cons q p =>
    rw [List.map_cons, Str.join_cons_cons]
    simp

example : ∃ text, (Tabular.xml (fun v => if v = 0 then c!"0" else c!"1") c!"energy" ⟨.seq [0, 1], .seq [1, 1], c!"histogram", false⟩).kids = [.node c!"parameters" [] (some text) none []] ∧
    (Str.split text).take ((Str.split text).length / 2) = [c!"0", c!"1"] := by
  obtain ⟨-, -, -, text, h1, h2, -⟩ := C217_tabular_partial (str := fun v => if v = 0 then c!"0" else c!"1") (name := c!"energy") (t := ⟨.seq [0, 1], .seq [1, 1], c!"histogram", false⟩)
    (by
      intro v _
      split_ifs
      · exact ⟨by simp, by decide⟩
      · exact ⟨by simp, by decide⟩) rfl
  exact ⟨text, h1, by rw [h2]; simp [Arg.items]⟩

/-! ### C218: XML trees -/

/-- Blank texts left out. -/
def strip (t : Option Text) : Option Text := if blank t then none else t

mutual
/-- An element without its blank texts: tags, attributes, subelements and the texts and tails that are not blank. -/
def core : Xml → Xml
  | .node tag attrs text tail kids => .node tag attrs (strip text) (strip tail) (coreAll kids)
def coreAll : List Xml → List Xml
  | [] => []
  | k :: ks => core k :: coreAll ks
end

theorem blank_indent (s l n : Nat) : blank (some (indent s l ++ List.replicate n ' ')) = true := by
  simp only [blank, List.all_eq_true]
  intro c hc
  rw [indent] at hc
  simp only [List.cons_append, List.mem_cons, List.mem_append, List.mem_replicate] at hc
  rcases hc with rfl | ⟨-, rfl⟩ | ⟨-, rfl⟩
  · exact Str.isSpace_newline
  · exact Str.isSpace_blank
  · exact Str.isSpace_blank

theorem blank_indent' (s l : Nat) : blank (some (indent s l)) = true := by simpa using blank_indent s l 0

theorem strip_fill {i : Text} (h : blank (some i) = true) (t : Option Text) : strip (fill t i) = strip t := by
  rw [fill]
  split_ifs with hb
  · rw [strip, strip, if_pos h, if_pos hb]
  · rfl

theorem fill_fill {i : Text} (h : blank (some i) = true) (t : Option Text) (j : Text) : fill (fill t i) j = fill t j := by
  rw [fill, fill, fill]
  split_ifs with hb h1 <;> simp_all

theorem coreAll_lastTail {i : Text} (h : blank (some i) = true) : ∀ es, coreAll (lastTail i es) = coreAll es
  | [] => rfl
  | [.node t a x l k] => by simp only [lastTail, coreAll, core, strip_fill h]
  | e :: e' :: es => by
    rw [lastTail, coreAll, coreAll_lastTail h (e' :: es), ← coreAll]
    simp

mutual
theorem core_clean (s : Nat) : ∀ (e : Xml) (l : Nat), core (clean s l e) = core e
  | .node tag attrs text tail [], l => by
    rw [clean, core, core]
    congr 1
    split_ifs
    · exact strip_fill (blank_indent' s l) tail
    · rfl
  | .node tag attrs text tail (k :: ks), l => by
    rw [clean, core, core, strip_fill (blank_indent' s l), strip_fill (blank_indent s l s), coreAll_lastTail (blank_indent' s l), coreAll_clean s (k :: ks) (l + 1)]
theorem coreAll_clean (s : Nat) : ∀ (es : List Xml) (l : Nat), coreAll (cleanAll s l es) = coreAll es
  | [], l => by rw [cleanAll]
  | k :: ks, l => by rw [cleanAll, coreAll, coreAll, core_clean s k l, coreAll_clean s ks l]
end

/-- C218: `clean_indentation` keeps tags, attributes, the order of subelements and every text that is not blank. -/
theorem C218_kept (s l : Nat) (e : Xml) : core (clean s l e) = core e := core_clean s e l

/-- C218: the text of an element without subelements is kept, blank or not. -/
theorem C218_leaf (s l : Nat) (tag : Text) (attrs : List (Text × Text)) (text tail : Option Text) : ∃ tail', clean s l (.node tag attrs text tail []) = .node tag attrs text tail' [] := by
  rw [clean]
  exact ⟨_, rfl⟩

theorem lastTail_ne {i : Text} : ∀ {es : List Xml}, es ≠ [] → lastTail i es ≠ []
  | [], h => absurd rfl h
  | [.node t a x l k], _ => by simp [lastTail]
  | e :: e' :: es, _ => by simp [lastTail]

theorem fill_blank {t : Option Text} {i : Text} (h : blank (fill t i) = true) : fill t i = some i := by
  rw [fill] at h ⊢
  by_cases hb : blank t = true
  · rw [if_pos hb]
  · rw [if_neg hb] at h
    exact absurd h hb

mutual
/-- Indented from a level on, apart from the tail: blank texts before subelements are a new line and the blanks of the next level, blank tails of subelements as well, of the last one those of this
level. -/
def Laid (s : Nat) : Nat → Xml → Prop
  | l, .node _ _ text _ kids => (kids ≠ [] → blank text = true → text = some ('\n' :: List.replicate ((l + 1) * s) ' ')) ∧ LaidAll s l kids
/-- The subelements of an element of a level. -/
def LaidAll (s : Nat) : Nat → List Xml → Prop
  | _, [] => True
  | l, .node t a x tail k :: es => (blank tail = true → tail = some ('\n' :: List.replicate ((if es = [] then l else l + 1) * s) ' ')) ∧ Laid s (l + 1) (.node t a x tail k) ∧ LaidAll s l es
end

theorem laid_tail {s l : Nat} {t : Text} {a : List (Text × Text)} {x : Option Text} {k : List Xml} (tail tail' : Option Text) (h : Laid s l (.node t a x tail k)) : Laid s l (.node t a x tail' k) := by
  rw [Laid] at h ⊢
  exact h

theorem indent_succ (s l : Nat) : indent s l ++ List.replicate s ' ' = indent s (l + 1) := by
  rw [indent, indent, List.cons_append, ← List.replicate_add]
  congr 2
  ring

theorem clean_tail {s l : Nat} (hl : l ≠ 0) (e : Xml) : ∃ t a x tail k, clean s l e = .node t a x (fill tail (indent s l)) k := by
  cases e with
  | node tag attrs text tail kids =>
    cases kids with
    | nil => rw [clean]; simp only [ne_eq, hl, not_false_eq_true, if_true]; exact ⟨_, _, _, _, _, rfl⟩
    | cons k ks => rw [clean]; exact ⟨_, _, _, _, _, rfl⟩

mutual
theorem laid_clean (s : Nat) : ∀ (e : Xml) (l : Nat), Laid s l (clean s l e)
  | .node tag attrs text tail [], l => by
    rw [clean, Laid, LaidAll]
    exact ⟨fun h => absurd rfl h, trivial⟩
  | .node tag attrs text tail (k :: ks), l => by
    rw [clean, Laid]
    refine ⟨fun _ hb => ?_, laidAll_clean s (k :: ks) l⟩
    rw [fill_blank hb, indent_succ, indent]
theorem laidAll_clean (s : Nat) : ∀ (es : List Xml) (l : Nat), LaidAll s l (lastTail (indent s l) (cleanAll s (l + 1) es))
  | [], l => by rw [cleanAll, lastTail, LaidAll]; trivial
  | [e], l => by
    have he := laid_clean s e (l + 1)
    rw [cleanAll, cleanAll]
    generalize clean s (l + 1) e = e' at he
    cases e' with
    | node t a x tail k =>
      rw [lastTail, LaidAll, LaidAll]
      refine ⟨fun hb => ?_, laid_tail _ _ he, trivial⟩
      rw [fill_blank hb, if_pos rfl, indent]
  | e :: e' :: es, l => by
    have he := laid_clean s e (l + 1)
    have hes := laidAll_clean s (e' :: es) l
    obtain ⟨t, a, x, tail, k, hc⟩ := clean_tail (s := s) (Nat.succ_ne_zero l) e
    rw [cleanAll, cleanAll] at *
    rw [lastTail]
    rw [hc] at he ⊢
    rw [LaidAll]
    refine ⟨fun hb => ?_, he, hes⟩
    rw [fill_blank hb, if_neg (lastTail_ne (List.cons_ne_nil _ _)), indent]
    · simp
end

/-- C218: afterwards the tree is indented: every blank text and tail inside it is a new line and as many blanks as its level asks for. -/
theorem C218_indented (s l : Nat) (e : Xml) : Laid s l (clean s l e) := laid_clean s e l

theorem fill_tail_clean {s l : Nat} (t : Text) (a : List (Text × Text)) (x tail : Option Text) (k : List Xml) (hl : l ≠ 0) {i : Text} (hi : blank (some i) = true) :
    clean s l (.node t a x (fill tail i) k) = clean s l (.node t a x tail k) := by
  cases k with
  | nil => rw [clean, clean]; simp only [ne_eq, hl, not_false_eq_true, if_true, fill_fill hi]
  | cons k ks => rw [clean, clean]; simp only [fill_fill hi]

theorem cleanAll_lastTail {s l : Nat} (hl : l ≠ 0) {i : Text} (hi : blank (some i) = true) : ∀ es, cleanAll s l (lastTail i es) = cleanAll s l es
  | [] => rfl
  | [.node t a x tail k] => by simp only [lastTail, cleanAll, fill_tail_clean t a x tail k hl hi]
  | e :: e' :: es => by
    rw [lastTail, cleanAll, cleanAll_lastTail hl hi (e' :: es), ← cleanAll]
    simp

theorem cleanAll_ne {s l : Nat} {e : Xml} {es : List Xml} : ∃ e' es', cleanAll s l (e :: es) = e' :: es' := ⟨_, _, by rw [cleanAll]⟩

mutual
theorem clean_clean (s s' : Nat) : ∀ (e : Xml) (l : Nat), clean s l (clean s' l e) = clean s l e
  | .node tag attrs text tail [], l => by
    rw [clean, clean, clean]
    congr 1
    split_ifs
    · exact fill_fill (blank_indent' s' l) tail _
    · rfl
  | .node tag attrs text tail (k :: ks), l => by
    have h := cleanAll_clean s s' (k :: ks) (l + 1)
    have hne : lastTail (indent s' l) (cleanAll s' (l + 1) (k :: ks)) ≠ [] := lastTail_ne (by rw [cleanAll]; exact List.cons_ne_nil _ _)
    have hl := cleanAll_lastTail (s := s) (Nat.succ_ne_zero l) (blank_indent' s' l) (cleanAll s' (l + 1) (k :: ks))
    rw [clean]
    generalize lastTail (indent s' l) (cleanAll s' (l + 1) (k :: ks)) = es at hne hl
    cases es with
    | nil => exact absurd rfl hne
    | cons e es =>
      rw [clean, hl, h, clean, fill_fill (blank_indent' s' l), fill_fill (blank_indent s' l s')]
theorem cleanAll_clean (s s' : Nat) : ∀ (es : List Xml) (l : Nat), cleanAll s l (cleanAll s' l es) = cleanAll s l es
  | [], l => by rw [cleanAll, cleanAll]
  | k :: ks, l => by rw [cleanAll, cleanAll, cleanAll, clean_clean s s' k l, cleanAll_clean s s' ks l]
end

/-- C218: cleaning twice, with any widths, is the last cleaning; with the same width the second changes nothing. -/
theorem C218_again (s s' l : Nat) (e : Xml) : clean s l (clean s' l e) = clean s l e := clean_clean s s' e l

/-- C218: `get_text` prefers an attribute, then takes the text of the first subelement of this tag, then the default. -/
theorem C218_text (tag : Text) (attrs : List (Text × Text)) (text tail : Option Text) (kids : List Xml) (name : Text) (d : Option Text) :
    (∀ v, attrs.lookup name = some v → getText (.node tag attrs text tail kids) name d = some v) ∧
    (∀ before k after, attrs.lookup name = none → kids = before ++ k :: after → (∀ e ∈ before, e.tag ≠ name) → k.tag = name → getText (.node tag attrs text tail kids) name d = k.text) ∧
    (attrs.lookup name = none → (∀ e ∈ kids, e.tag ≠ name) → getText (.node tag attrs text tail kids) name d = d) := by
  refine ⟨fun v hv => ?_, fun before k after ha e hb hk => ?_, fun ha hk => ?_⟩
  · simp [getText, Xml.attrs, hv]
  · subst e
    have : (before ++ k :: after).find? (fun e => decide (e.tag = name)) = some k := by
      rw [List.find?_append, List.find?_eq_none.2 (by simpa using hb), List.find?_cons_of_pos (by simpa using hk)]
      rfl
    simp [getText, Xml.attrs, Xml.kids, ha, this, -List.find?_append]
  · have : kids.find? (fun e => decide (e.tag = name)) = none := List.find?_eq_none.2 (by simpa using hk)
    simp [getText, Xml.attrs, Xml.kids, ha, this]

/-- C218, what does not hold: a subelement without text gives None although there is a default. -/
theorem C218_default_refuted (d : Text) : getText (.node c!"nuclide" [] none none [.node c!"density" [] none none []]) c!"density" (some d) = none := by
  simp [getText, Xml.attrs, Xml.kids, Xml.tag, Xml.text]

/-- `<a x="1"><b> text </b><c/></a>`. -/
def exXml : Xml := .node c!"a" [(c!"x", c!"1")] none none [.node c!"b" [] (some c!" text ") none [], .node c!"c" [] none none [.node c!"d" [] none none []]]

example : clean 2 0 exXml = .node c!"a" [(c!"x", c!"1")] (some c!"\n  ") (some c!"\n")
    [.node c!"b" [] (some c!" text ") (some c!"\n  ") [], .node c!"c" [] (some c!"\n    ") (some c!"\n") [.node c!"d" [] none (some c!"\n  ") []]] := by
  simp [exXml, clean, cleanAll, lastTail, fill, blank, indent, List.replicate, Str.isSpace]

end ASAPy.Uni
