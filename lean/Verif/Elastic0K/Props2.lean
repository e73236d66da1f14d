import Verif.Elastic0K.Props
import Mathlib.Tactic.NormNum

/-!
# C163-C166: the elastic cross section at 0 K, theorems
-/

namespace ASAPy.Elastic0K
open ASAPy.Endf (Line)

/-! ### C163 -/

/-- **C163.** Whatever the evaluation: a call that raises leaves the nuclide as it was. A call that returns sets the energies and the elastic cross section at 0 K, to the same energies, and nothing else. Data at
0 K that are there already are only replaced if that is asked for. The nuclide must have an elastic cross section at some temperature. -/
theorem C163_kept_partial {k : Nat} {n n' : Nuclide} {data : Except PyErr Data} {overwrite : Bool} {r : Except PyErr Unit} (h2 : (Dict.get? n.reactions 2).isSome)
    (h : addElastic k n data overwrite = some (r, n')) :
    (∀ e, r = .error e → n' = n) ∧
    (r = .ok () → ∃ p : List (ℝ × ℝ), Dict.get? n'.energy c!"0K" = some (p.map Prod.fst) ∧ n'.xs 2 c!"0K" = some ⟨p.map Prod.fst, p.map Prod.snd, [(p.length : Int)], [2]⟩) ∧
    (∀ t, t ≠ c!"0K" → Dict.get? n'.energy t = Dict.get? n.energy t) ∧ (∀ mt t, mt ≠ 2 ∨ t ≠ c!"0K" → n'.xs mt t = n.xs mt t) ∧
    ((Dict.get? n.energy c!"0K").isSome → overwrite = false → r = .error .valueError) := by
  unfold addElastic at h
  split at h
  · cases h
    exact ⟨fun _ _ => rfl, fun h => (by cases h), fun _ _ => rfl, fun _ _ _ => rfl, fun _ _ => rfl⟩
  · rename_i hc
    have hc' : (Dict.get? n.energy c!"0K").isSome → overwrite = false → r = .error .valueError := fun h1 h2 => absurd ⟨h1, h2⟩ hc
    cases data with
    | error e =>
      cases h
      exact ⟨fun _ _ => rfl, fun h => (by cases h), fun _ _ => rfl, fun _ _ _ => rfl, hc'⟩
    | ok d =>
      simp only at h
      obtain ⟨q, -, hq⟩ := Option.map_eq_some_iff.1 h
      cases q with
      | error e =>
        cases hq
        exact ⟨fun _ _ => rfl, fun h => (by cases h), fun _ _ => rfl, fun _ _ _ => rfl, hc'⟩
      | ok p =>
        simp only at hq
        obtain ⟨xs, hxs⟩ := Option.isSome_iff_exists.1 h2
        have hr : r = .ok () := by
          unfold store at hq
          simp only [hxs] at hq
          cases hq
          rfl
        subst hr
        obtain ⟨h3, h4, h5, h6⟩ := store_spec hq
        exact ⟨fun _ h => (by cases h), fun _ => ⟨p, h3, h4⟩, h5, h6, hc'⟩

/-- Without an elastic cross section the call raises, but the energies are set already. -/
theorem C163_half_refuted : ∃ (k : Nat) (n n' : Nuclide) (d : Data), addElastic k n (.ok d) false = some (.error .keyError, n') ∧
    Dict.get? n.energy c!"0K" = none ∧ Dict.get? n'.energy c!"0K" = some [] :=
  ⟨0, ⟨[], []⟩, ⟨[(c!"0K", [])], []⟩, ⟨some [], fun _ => 1, []⟩, rfl, rfl, rfl⟩

/-! ### C164 -/

/-- **C164.** For every evaluation with resonances whose ranges are not empty and whose widths are not negative, a call that returns stores one table for each range that is not unresolved, in order, and these
ranges are all Breit-Wigner or Reich-Moore ranges. Each table starts and ends at the limits of its range, has the values of the cross section, and interpolates it within a thousandth at the points of a
finer grid, among them a thousand energies in equal ratios and the points around each resonance, and in the middle between neighbours of that grid. -/
theorem C164_table_partial {k : Nat} {n n' : Nuclide} {d : Data} {overwrite : Bool} {rs : List Res.Range} (hrs : d.resonances = some rs)
    (hr : ∀ r ∈ rs, ∀ a b ps, HasPeaks r a b ps → a ≤ b ∧ ∀ p ∈ ps, a < p.1 → p.1 < b → 0 ≤ p.2)
    (h : addElastic k n (.ok d) overwrite = some (.ok (), n')) :
    ∃ parts, Parts d.elastic rs parts ∧ Dict.get? n'.energy c!"0K" = some (parts.flatten.map Prod.fst) ∧
      n'.xs 2 c!"0K" = some ⟨parts.flatten.map Prod.fst, parts.flatten.map Prod.snd, [(parts.flatten.length : Int)], [2]⟩ := by
  unfold addElastic at h
  split at h
  · cases h
  · simp only at h
    obtain ⟨q, hq, hs⟩ := Option.map_eq_some_iff.1 h
    cases q with
    | error e => cases hs
    | ok p =>
      unfold points at hq
      simp only [hrs] at hq
      obtain ⟨parts, h1, rfl⟩ := rangePoints_parts hr hq
      have h2 := store_spec hs
      exact ⟨parts, h1, h2.1, h2.2.1⟩

/-- Without resonances the table is that of the energies of the cross section. -/
theorem C164_plain {k : Nat} {n n' : Nuclide} {d : Data} {overwrite : Bool} {a b : ℝ} (hrs : d.resonances = none) (hg : d.grid.Pairwise (· < ·))
    (ha : d.grid.head? = some a) (hb : d.grid.getLast? = some b) (h : addElastic k n (.ok d) overwrite = some (.ok (), n')) :
    ∃ pts, TableOf d.elastic a b (· ∈ d.grid) pts ∧ Dict.get? n'.energy c!"0K" = some (pts.map Prod.fst) ∧
      n'.xs 2 c!"0K" = some ⟨pts.map Prod.fst, pts.map Prod.snd, [(pts.length : Int)], [2]⟩ := by
  unfold addElastic at h
  split at h
  · cases h
  · simp only at h
    obtain ⟨q, hq, hs⟩ := Option.map_eq_some_iff.1 h
    cases q with
    | error e => cases hs
    | ok p =>
      unfold points at hq
      simp only [hrs] at hq
      obtain ⟨l, hl, hl'⟩ := Option.map_eq_some_iff.1 hq
      cases hl'
      have h2 := store_spec hs
      exact ⟨_, linearThin_spec hg hl ha hb, h2.1, h2.2.1⟩

/-- Evaluations with a scattering radius only, as of most light nuclides, are refused, whatever they are. -/
theorem C164_radius_refuted (k : Nat) (n : Nuclide) (b : Res.Base) (f : ℝ → ℝ) (g : List ℝ) : addElastic k n (.ok ⟨some [.radius b], f, g⟩) true = some (.error .attributeError, n) := by
  simp [addElastic, points, rangePoints, peaks]

/-- With unresolved resonances only, the table stored is empty, whatever the cross section. -/
theorem C164_unresolved_refuted (k : Nat) (u : Res.Unr) (f : ℝ → ℝ) (g : List ℝ) (t : Line) :
    ∃ n', addElastic k ⟨[], [(2, [(t, Tab1D.linlin [] [])])]⟩ (.ok ⟨some [.unr u], f, g⟩) false = some (.ok (), n') ∧ Dict.get? n'.energy c!"0K" = some [] := ⟨_, rfl, rfl⟩

/-- A range without a resonance inside it is refused, whatever its limits, although its cross section is defined. -/
theorem C164_no_resonance_refuted (k : Nat) (n : Nuclide) (r : Res.Bw) (f : ℝ → ℝ) (g : List ℝ) (hr : r.rows = []) :
    addElastic k n (.ok ⟨some [.bw r], f, g⟩) true = some (.error .valueError, n) := by
  have h1 : energies (limits (.bw r)) (r.rows.map fun p => ((p.energy : ℝ), (p.gt : ℝ))) = .error .valueError := by
    rw [hr]
    simp [energies, inRange, aroundAll]
  simp [addElastic, points, rangePoints, peaks, h1]

/-- A range that starts at zero is refused. -/
theorem C164_zero_refuted (k : Nat) (n : Nuclide) (r : Res.Bw) (f : ℝ → ℝ) (g : List ℝ) (hr : r.base.emin ≤ 0) :
    addElastic k n (.ok ⟨some [.bw r], f, g⟩) true = some (.error .valueError, n) := by
  have h1 : energies (limits (.bw r)) (r.rows.map fun p => ((p.energy : ℝ), (p.gt : ℝ))) = .error .valueError := by
    unfold energies
    simp only
    split
    · rfl
    · rw [if_pos]
      left
      show ((r.base.emin : ℚ) : ℝ) ≤ 0
      exact_mod_cast hr
  simp [addElastic, points, rangePoints, peaks, h1]

theorem step_int (m : Nat) : step (10 * m) = (10 : ℝ) ^ ((m : ℝ) - 3) := by
  unfold step
  congr 1
  push_cast
  ring

theorem step30 : step 30 = 1 := by
  have := step_int 3
  norm_num at this
  exact this

theorem step40 : step 40 = 10 := by
  have := step_int 4
  norm_num at this
  exact this

/-- A negative width, as for amplitudes with a sign, leads to energies above the range. -/
theorem C164_negative_refuted : ∃ es, energies (1, 10) [(5, -1)] = .ok es ∧ (15 : ℝ) ∈ es := by
  have hin : inside 1 10 [((5 : ℝ), (-1 : ℝ))] = [(5, -1)] := by
    unfold inside
    rw [List.filter_cons_of_pos (by norm_num)]
    rfl
  have hok : ∃ es, energies (1, 10) [(5, -1)] = .ok es := by
    unfold energies
    simp only
    rw [inRange_eq, hin, if_neg (by simp [aroundAll, bounds, middles]), if_neg (by norm_num)]
    exact ⟨_, rfl⟩
  obtain ⟨es, hes⟩ := hok
  refine ⟨es, hes, ((energies_spec hes).2.2.2.2 15).2 (Or.inr ⟨[], (5, -1), [], hin, Or.inl ⟨40, by norm_num, ?_, ?_⟩⟩)⟩
  · rw [step40]; norm_num
  · simp only [lower, List.getLast?_nil]; norm_num

/-! ### C165 -/

theorem aroundFrom_gt {b : ℝ} : ∀ {ps : List (ℝ × ℝ)} {a : ℝ}, (ps.map Prod.fst).Pairwise (· < ·) → (∀ p ∈ ps, a < p.1 ∧ 0 ≤ p.2) →
    (∀ L ∈ aroundFrom b a ps, ∀ x ∈ L, a < x) ∧ (aroundFrom b a ps).Pairwise fun L M => ∀ x ∈ L, ∀ y ∈ M, x < y
  | [], _, _, _ => by simp [aroundFrom]
  | [p], a, _, h => by
    refine ⟨fun L hL x hx => ?_, by simp [aroundFrom]⟩
    rw [aroundFrom, List.mem_singleton] at hL
    subst hL
    obtain ⟨h1, h2⟩ := h p (by simp)
    rcases mem_around.1 hx with ⟨i, -, -, h3⟩ | ⟨i, -, -, rfl, -⟩
    · exact h3
    · have := mul_nonneg h2 (step_pos i).le
      linarith
  | p :: q :: t, a, hs, h => by
    obtain ⟨h1, h2⟩ := h p (by simp)
    rw [List.map_cons, List.pairwise_cons] at hs
    have hpq : p.1 < q.1 := hs.1 q.1 (by simp)
    have ih := aroundFrom_gt (b := b) (a := (q.1 + p.1) / 2) hs.2 (fun r hr => by
      refine ⟨?_, (h r (List.mem_cons_of_mem _ hr)).2⟩
      have : q.1 ≤ r.1 := by
        rcases List.mem_cons.1 hr with rfl | hr
        · exact le_rfl
        · exact ((List.pairwise_cons.1 hs.2).1 r.1 (List.mem_map_of_mem hr)).le
      linarith)
    have hfirst : ∀ x ∈ around p a ((q.1 + p.1) / 2), a < x ∧ x < (q.1 + p.1) / 2 := fun x hx => by
      rcases mem_around.1 hx with ⟨i, -, rfl, h3⟩ | ⟨i, -, -, rfl, h3⟩
      · have := mul_nonneg h2 (step_pos i).le
        exact ⟨h3, by linarith⟩
      · have := mul_nonneg h2 (step_pos i).le
        exact ⟨by linarith, h3⟩
    rw [aroundFrom]
    refine ⟨fun L hL x hx => ?_, List.pairwise_cons.2 ⟨fun M hM x hx y hy => ?_, ih.2⟩⟩
    · rcases List.mem_cons.1 hL with rfl | hL
      · exact (hfirst x hx).1
      · have := ih.1 L hL x hx
        linarith
    · have h4 := (hfirst x hx).2
      have h5 := ih.1 M hM y hy
      linarith

/-- **C165.** For every range whose resonances are listed by increasing energy and have widths that are not negative, points around one resonance do not overlap with points around another: all points of a
resonance are below all points of the next. -/
theorem C165_apart_partial (a b : ℝ) (ps : List (ℝ × ℝ)) (hs : ((inside a b ps).map Prod.fst).Pairwise (· < ·)) (hw : ∀ p ∈ ps, 0 ≤ p.2) :
    (aroundAll (a, b) (inRange (a, b) ps)).length = (inside a b ps).length ∧
    (aroundAll (a, b) (inRange (a, b) ps)).Pairwise fun L M => ∀ x ∈ L, ∀ y ∈ M, x < y := by
  rw [aroundAll_eq, inRange_eq]
  exact ⟨aroundFrom_length _ _ _, (aroundFrom_gt hs (fun p hp => ⟨(mem_inside.1 hp).2.1, hw p (mem_inside.1 hp).1⟩)).2⟩

/-- Resonances are listed by their angular momentum first. If a resonance at 3 eV comes before one at 1 eV, there is no point above 3 eV for the first, and the points for the second reach beyond it. -/
theorem C165_order_refuted : ∃ L M, aroundAll (1 / 2, 4) [(3, 1), (1, 2)] = [L, M] ∧ (∀ x ∈ L, x < 3) ∧ (∃ y ∈ M, y = 3) ∧ ∀ y ∈ M, 1 < y := by
  refine ⟨_, _, rfl, fun x hx => ?_, ⟨3, mem_around.2 ?_, rfl⟩, fun y hy => ?_⟩
  · have hx' : x ∈ around (3, 1) (1 / 2) ((1 + 3) / 2) := hx
    rcases mem_around.1 hx' with ⟨i, -, rfl, -⟩ | ⟨i, -, -, rfl, h⟩
    · have := step_pos i
      norm_num
      exact this
    · have := step_pos i
      norm_num at h
      linarith
  · exact Or.inr ⟨30, by norm_num, by norm_num, by rw [step30]; norm_num, by norm_num⟩
  · have hy' : y ∈ around (1, 2) ((1 + 3) / 2) 4 := hy
    rcases mem_around.1 hy' with ⟨i, -, rfl, h⟩ | ⟨i, -, -, rfl, -⟩
    · have := step_pos i
      norm_num at h
      linarith
    · have := step_pos i
      simp only
      linarith

/-- The energy of a resonance itself is not among its points, whatever its width. -/
theorem C165_peak_refuted (a b e g : ℝ) (hg : g ≠ 0) : e ∉ (aroundAll (a, b) [(e, g)]).flatten := by
  rw [aroundAll_eq]
  intro h
  simp only [aroundFrom, List.flatten_cons, List.flatten_nil, List.append_nil] at h
  rcases mem_around.1 h with ⟨i, -, h, -⟩ | ⟨i, -, -, h, -⟩
  · have h1 : g * step i = 0 := by simp only at h; linarith
    rcases mul_eq_zero.1 h1 with h2 | h2
    · exact hg h2
    · exact (step_pos i).ne' h2
  · have h1 : g * step i = 0 := by simp only at h; linarith
    rcases mul_eq_zero.1 h1 with h2 | h2
    · exact hg h2
    · exact (step_pos i).ne' h2

/-! ### C166 -/

theorem addWithin_eq (rec : ℝ → ℝ) (c : ℝ → Bool) : ∀ (x xs : List ℝ), x.length = xs.length →
    addWithin ((x.map c).zip xs) (((x.zip (x.map c)).filter (·.2)).map fun p => rec p.1) = (x.zip xs).map fun p => if c p.1 then p.2 + rec p.1 else p.2
  | [], [], _ => rfl
  | [], _ :: _, h => by simp at h
  | _ :: _, [], h => by simp at h
  | e :: x, v :: xs, h => by
    have ih := addWithin_eq rec c x xs (by simpa using h)
    cases hc : c e with
    | false => simp [hc, addWithin, ih]
    | true => simp [hc, addWithin, ih]

theorem addRangeAll_eq (rec : Res.Range → ℝ → ℝ) (r : Res.Range) (x : List ℝ) (F : ℝ → ℝ) : addRangeAll rec x (x.map F) r = x.map fun e => addRange rec e (F e) r := by
  unfold addRangeAll addRange
  split
  · rfl
  · simp only
    rw [addWithin_eq (rec r) (fun e => decide ((limits r).1 ≤ e ∧ e ≤ (limits r).2)) x (x.map F) (by simp)]
    rw [show x.zip (x.map F) = x.map fun e => (e, F e) from by
      induction x with
      | nil => rfl
      | cons a x ih => simp [ih], List.map_map]
    refine List.map_congr_left fun e _ => ?_
    simp

/-- **C166, arrays.** A cross section with resonances called with an array gives, for every array, the values of the calls with its elements. -/
theorem C166_array (rec : Res.Range → ℝ → ℝ) (background : ℝ → ℝ) (rs : List Res.Range) (x : List ℝ) :
    withBackgroundAll rec background rs x = x.map (withBackground rec background rs) := by
  unfold withBackgroundAll withBackground
  generalize background = F
  induction rs generalizing F with
  | nil => rfl
  | cons r rs ih =>
    simp only [List.foldl_cons]
    rw [addRangeAll_eq]
    exact ih fun e => addRange rec e (F e) r

/-- A resolved range, of its limits. -/
inductive Covers : Res.Range → ℝ → Prop
  | bw {r : Res.Bw} {x : ℝ} : r.base.emin ≤ x → x ≤ r.base.emax → Covers (.bw r) x
  | rm {r : Res.Rm} {x : ℝ} : r.base.emin ≤ x → x ≤ r.base.emax → Covers (.rm r) x
  | rml {r : Res.Rml} {x : ℝ} : r.emin ≤ x → x ≤ r.emax → Covers (.rml r) x

theorem covers_iff {r : Res.Range} {x : ℝ} : Covers r x ↔ resolved r = true ∧ (limits r).1 ≤ x ∧ x ≤ (limits r).2 := by
  constructor
  · intro h
    cases h <;> exact ⟨rfl, ‹_›, ‹_›⟩
  · rintro ⟨h, h1, h2⟩
    cases r with
    | bw r => exact .bw h1 h2
    | rm r => exact .rm h1 h2
    | rml r => exact .rml h1 h2
    | radius b => cases h
    | unr u => cases h

theorem addRange_covers {rec : Res.Range → ℝ → ℝ} {r : Res.Range} {x v : ℝ} (h : Covers r x) : addRange rec x v r = v + rec r x := by
  obtain ⟨h1, h2⟩ := covers_iff.1 h
  simp [addRange, h1, h2]

theorem addRange_not {rec : Res.Range → ℝ → ℝ} {r : Res.Range} {x v : ℝ} (h : ¬ Covers r x) : addRange rec x v r = v := by
  unfold addRange
  split
  · rfl
  · rename_i h1
    rw [if_neg]
    intro h2
    exact h (covers_iff.2 ⟨by simpa using h1, h2⟩)

theorem foldl_not {rec : Res.Range → ℝ → ℝ} {x : ℝ} : ∀ {rs : List Res.Range} {v : ℝ}, (∀ r ∈ rs, ¬ Covers r x) → rs.foldl (addRange rec x) v = v
  | [], _, _ => rfl
  | r :: rs, v, h => by
    rw [List.foldl_cons, addRange_not (h r (by simp))]
    exact foldl_not fun r hr => h r (by simp [hr])

/-- **C166.** Where one resolved range covers the energy, the value is the background plus the cross section reconstructed for this range; where none does, it is the background. -/
theorem C166_value_partial (rec : Res.Range → ℝ → ℝ) (background : ℝ → ℝ) (x : ℝ) (rs : List Res.Range) :
    ((∀ r ∈ rs, ¬ Covers r x) → withBackground rec background rs x = background x) ∧
    (∀ pre r post, rs = pre ++ r :: post → Covers r x → (∀ s ∈ pre, ¬ Covers s x) → (∀ s ∈ post, ¬ Covers s x) →
      withBackground rec background rs x = background x + rec r x) := by
  refine ⟨fun h => foldl_not h, ?_⟩
  rintro pre r post rfl h h1 h2
  unfold withBackground
  rw [List.foldl_append, foldl_not h1, List.foldl_cons, addRange_covers h, foldl_not h2]

/-- At a limit that two ranges share, both are added: with the same cross section in both, it is counted twice. -/
theorem C166_shared_refuted (rec : Res.Range → ℝ → ℝ) (background : ℝ → ℝ) (r s : Res.Rm) (hr : r.base.emin ≤ r.base.emax) (hs : s.base.emin ≤ s.base.emax)
    (h : r.base.emax = s.base.emin) : withBackground rec background [.rm r, .rm s] r.base.emax = background r.base.emax + rec (.rm r) r.base.emax + rec (.rm s) r.base.emax := by
  have h1 : Covers (.rm r) r.base.emax := .rm (by exact_mod_cast hr) le_rfl
  have h2 : Covers (.rm s) r.base.emax := .rm (by rw [h]) (by rw [h]; exact_mod_cast hs)
  simp only [withBackground, List.foldl_cons, List.foldl_nil]
  rw [addRange_covers h1, addRange_covers h2]

/-! ### Examples -/

/-- A range from 1 eV to 10 eV with two resonances. -/
def exBw : Res.Bw := ⟨true, ⟨0, 1, 10, [], []⟩, [], 1, [⟨3, 0, 1 / 2, 1, 1 / 2, 1 / 2, 0, 0⟩, ⟨6, 0, 1 / 2, 2, 1, 1, 0, 0⟩]⟩

theorem exBw_peaks : HasPeaks (.bw exBw) 1 10 [(3, 1), (6, 2)] := by
  have h := HasPeaks.bw exBw
  simpa [exBw] using h

theorem exBw_inside : inside 1 10 [((3 : ℝ), (1 : ℝ)), (6, 2)] = [(3, 1), (6, 2)] := by
  unfold inside
  rw [List.filter_cons_of_pos (by norm_num), List.filter_cons_of_pos (by norm_num)]
  rfl

theorem exBw_energies : ∃ es, energies (limits (.bw exBw)) [(3, 1), (6, 2)] = .ok es := by
  have h : limits (.bw exBw) = (1, 10) := by simp [limits, exBw]
  rw [h]
  unfold energies
  simp only
  rw [inRange_eq, exBw_inside, if_neg (by simp [aroundAll, bounds, middles]), if_neg (by norm_num)]
  exact ⟨_, rfl⟩

/-- The hypotheses of C163 and C164 are met by a range with two resonances and a cross section that varies, and the call returns. -/
example : ∃ k n', addElastic k ⟨[(c!"294K", [1, 2])], [(2, [(c!"294K", Tab1D.linlin [1, 2] [5, 5])])]⟩ (.ok ⟨some [.bw exBw], fun x => 1 + x * x, []⟩) false = some (.ok (), n') ∧
    (∀ r ∈ [Res.Range.bw exBw], ∀ a b ps, HasPeaks r a b ps → a ≤ b ∧ ∀ p ∈ ps, a < p.1 → p.1 < b → 0 ≤ p.2) := by
  obtain ⟨es, hes⟩ := exBw_energies
  have hlim : limits (.bw exBw) = (1, 10) := by simp [limits, exBw]
  rw [hlim] at hes
  obtain ⟨-, -, -, h1, h2⟩ := energies_spec hes
  have hne : es ≠ [] := by
    rintro rfl
    exact absurd ((h2 1).2 (Or.inl ⟨0, by norm_num, (logPoint_zero 1 10).symm⟩)) (by simp)
  obtain ⟨x, xs, rfl⟩ := List.exists_cons_of_ne_nil hne
  have hr : ∀ t ∈ x :: xs, (1 : ℝ) ≤ t ∧ t ≤ 10 := fun t ht => by
    rcases (h2 t).1 ht with ⟨i, hi, rfl⟩ | h
    · exact logPoint_mem (by norm_num) (by norm_num) hi
    · have := nearPeak_range (a := 1) (b := 10) (by
        intro p hp _ _
        rcases List.mem_cons.1 hp with rfl | hp
        · norm_num
        · rw [List.mem_singleton] at hp
          subst hp
          norm_num) h
      exact ⟨this.1.le, this.2.le⟩
  obtain ⟨k, out, hk⟩ := Grid.C77_terminates (1 / 1000) (by norm_num) (fun x => 1 + x * x) x xs h1 1 10 hr (by fun_prop)
    (fun t _ => by have := mul_self_nonneg t; exact (by linarith : (0 : ℝ) < 1 + t * t).ne')
  have hp : peaks (.bw exBw) = .ok (some [(3, 1), (6, 2)]) := by
    have := hasPeaks_iff (r := .bw exBw) (ps := [(3, 1), (6, 2)])
    rw [hlim] at this
    exact this.2 exBw_peaks
  refine ⟨k, ?_⟩
  have hl : ∃ p, linearThin k (fun x => 1 + x * x) (x :: xs) = some p := by
    unfold linearThin
    rw [hk]
    exact ⟨_, rfl⟩
  obtain ⟨p, hl⟩ := hl
  have hpts : points k ⟨some [.bw exBw], fun x => 1 + x * x, []⟩ = some (.ok p) := by
    simp only [points, rangePoints, hp, hlim, hes, hl, Option.map_some, Except.map, List.append_nil]
  refine ⟨(store ⟨[(c!"294K", [1, 2])], [(2, [(c!"294K", Tab1D.linlin [1, 2] [5, 5])])]⟩ p).2, ?_, ?_⟩
  · unfold addElastic
    rw [if_neg (by simp [Dict.get?])]
    simp only [hpts]
    rfl
  · intro r hr a b ps h
    rw [List.mem_singleton] at hr
    subst hr
    cases h
    constructor
    · simp [exBw]
    · intro p hp _ _
      simp only [exBw, List.map_cons, List.map_nil, List.mem_cons, List.not_mem_nil, or_false] at hp
      rcases hp with rfl | rfl <;> norm_num

/-- The hypotheses of C165 are met by these resonances. -/
example : ((inside 1 10 [((3 : ℝ), (1 : ℝ)), (6, 2)]).map Prod.fst).Pairwise (· < ·) ∧ ∀ p ∈ [((3 : ℝ), (1 : ℝ)), (6, 2)], 0 ≤ p.2 := by
  rw [exBw_inside]
  norm_num

/-- The hypotheses of C166 are met: 3 eV is in the first range and not in the second, from 10 eV on. -/
example : Covers (.bw exBw) 3 ∧ ¬ Covers (.rm ⟨⟨0, 10, 20, [], []⟩, [], false, 0, 1⟩) 3 :=
  ⟨.bw (by norm_num [exBw]) (by norm_num [exBw]), fun h => by cases h; norm_num at *⟩

/-- The hypotheses of `C166_shared_refuted` and `C164_zero_refuted` are met by ranges that follow each other. -/
example : (⟨⟨0, 0, 10, [], []⟩, [], false, 0, 1⟩ : Res.Rm).base.emax = (⟨⟨0, 10, 20, [], []⟩, [], false, 0, 1⟩ : Res.Rm).base.emin := rfl

end ASAPy.Elastic0K
