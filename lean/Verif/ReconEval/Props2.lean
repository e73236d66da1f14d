import Verif.ReconEval.Props
import Verif.Tab1D.Props

/-!
# Cross sections of an evaluation: what goes wrong, arrays, abundances
-/

namespace ASAPy.ReconEval
open ASAPy.Recon ASAPy.Recon.Spec Spec
open ASAPy.Elastic0K (resolved limits addWithin)
open ASAPy.Endf (Line Cont ContLine)

noncomputable section

/-! ### C206 -/

theorem outer_zero : ∀ l : ℕ, (outer l 0).1 = 0
  | 0 => rfl
  | l + 1 => by simp [outer]

theorem get?_const {bs : List Res.BwL} {t : Res.Radius} (h : ∀ b ∈ bs, b.channel = t) {l : ℤ} (hl : ∃ b ∈ bs, b.l = l) :
    Dict.get? (bs.map fun b => (b.l, b.channel)) l = some t := by
  induction bs with
  | nil => obtain ⟨b, hb, -⟩ := hl; cases hb
  | cons b bs ih =>
    by_cases hb : b.l = l
    · simp [Dict.get?, hb, h b List.mem_cons_self]
    · obtain ⟨c, hc, e⟩ := hl
      rcases List.mem_cons.mp hc with rfl | hc
      · exact absurd e hb
      · have := ih (fun b hb => h b (List.mem_cons_of_mem _ hb)) ⟨c, hc, e⟩
        simp only [Dict.get?, List.map_cons] at this ⊢
        simpa [hb] using this

theorem table_below {regions : List (Int × Int)} {points : List (ℚ × ℚ)} (hw : Tab1D.WF (table regions points)) (hp : ∀ p ∈ points, 0 ≤ p.1) {E : ℝ} (hE : E < -1e-13) :
    radius (.table regions points) E = 0 := by
  have hx : ∀ x ∈ (table regions points).x, 0 ≤ x := by
    intro x hx
    obtain ⟨p, h, rfl⟩ := List.mem_map.mp hx
    exact_mod_cast hp p h
  have hfar : ∀ x ∈ (table regions points).x, ¬ Tab1D.TakenFor E x := by
    intro x h hc
    have h0 := hx x h
    unfold Tab1D.TakenFor at hc
    rw [abs_of_nonneg h0, abs_sub_comm] at hc
    have := le_abs_self (x - E)
    norm_num at hc hE
    linarith
  have h0 := hx _ (List.head_mem hw.nonempty)
  have := Tab1D.C16_zero_outside hw (v := E) (.inl (by norm_num at hE; linarith)) (hfar _ (List.head_mem _)) (hfar _ (List.getLast_mem _))
  simp only [radius, this]

/-- C206. With a radius that depends on energy for channels as well (NRO = 1, NAPS = 1), the penetration at every level below zero, by which its neutron width is divided, is zero:
the table gives zero there. -/
theorem C206_bound_refuted {items : Cont} {r : Res.Bw} {ls : List Line} (h : Res.BwRec items r ls) (h1 : items.n1 = 1) (h2 : items.n2 = 1) :
    ∃ regions points, (∀ q ∈ r.rows, Dict.get? r.base.channel q.l = some (.table regions points)) ∧
      (Tab1D.WF (table regions points) → (∀ p ∈ points, 0 ≤ p.1) → ∀ d, SameBw r d → ∀ q ∈ d.rows, q.energy < -1e-13 → pen d.toBase q.l q.energy = 0) := by
  obtain ⟨t, ape, l, c, bs, bls, -, ha, -, -, hne, -, hb, hbase, -, hrows⟩ := h
  rw [h1] at ha hb
  rw [h2] at hb
  cases ha with
  | table ht =>
  rename_i cc regions points
  have hch : ∀ b ∈ bs, b.channel = .table regions points ∧ ∀ q ∈ b.rows, q.l = b.l := by
    clear hrows hbase hne
    induction hb with
    | nil => intro b hb; cases hb
    | cons hx _ ih =>
      intro b hb
      rcases List.mem_cons.mp hb with rfl | hb
      · obtain ⟨c', -, -, -, -, -, hl, hR⟩ := hx
        refine ⟨?_, hl⟩
        generalize b.channel = x at hR
        generalize b.scattering = y at hR
        cases hR
        rfl
      · exact ih b hb
  have hget : ∀ q ∈ r.rows, Dict.get? r.base.channel q.l = some (.table regions points) := by
    intro q hq
    rw [hrows, List.mem_flatMap] at hq
    obtain ⟨b, hb, hq⟩ := hq
    rw [hbase]
    exact get?_const (fun b hb => (hch b hb).1) ⟨b, hb, ((hch b hb).2 q hq).symm⟩
  refine ⟨regions, points, hget, fun hw hp d hd q hq hE => ?_⟩
  obtain rfl := bw_unique hd
  obtain ⟨q', hq', rfl⟩ := List.mem_map.mp hq
  unfold pen
  have : Recon.Spec.radius (bwData r).channel q'.l q'.energy = 0 := by
    show ((radii r.base.channel q'.l).getD 0) _ = 0
    rw [radii, hget q' hq']
    exact table_below hw hp hE
  show (outer _ (_ * Recon.Spec.radius (bwData r).channel q'.l q'.energy)).1 = 0
  rw [this, mul_zero, outer_zero]

/-- C206. A range of the R-matrix limited format that covers the energy raises; AttributeError, if it is the first range. -/
theorem C206_rml_refuted {mt : ℤ} {E : ℝ} {rs : List Res.Range} {q : Res.Rml} (hq : .rml q ∈ rs) (h : Covers E (.rml q)) (background : ℝ → ℝ) :
    (∃ e, call mt background rs E = .error e) ∧ (rs.head? = some (.rml q) → call mt background rs E = .error .attributeError) := by
  refine ⟨?_, ?_⟩
  rotate_left
  · intro hh
    cases rs with
    | nil => cases hh
    | cons r rs =>
      simp only [List.head?_cons, Option.some.injEq] at hh
      subst hh
      unfold call
      rw [List.foldlM_cons, addRange_covers h]
      rfl
  unfold call
  generalize background E = v
  induction rs generalizing v with
  | nil => cases hq
  | cons r rs ih =>
    rw [List.foldlM_cons]
    rcases List.mem_cons.mp hq with rfl | hq
    · rw [addRange_covers h]
      exact ⟨_, rfl⟩
    · cases addRange mt E v r with
      | error e => exact ⟨e, rfl⟩
      | ok w => exact ih hq w

/-! ### C207 -/

theorem range_floats {r : Res.Range} {E0 : ℝ} {x0 : Result} (h0 : reconstructRange r (.number E0) = .ok x0) {es : List ℝ} {f : ℝ → Xs}
    (h : ∀ E ∈ es, reconstructRange r (.number E) = .ok (.number (f E))) :
    reconstructRange r (.floats es) = .ok (.floats (es.map fun E => (f E).elastic) (es.map fun E => (f E).capture) (es.map fun E => (f E).fission)) := by
  cases r with
  | bw b =>
    simp only [reconstructRange] at h0 h ⊢
    split
    · rename_i hb
      simp only [hb, if_true] at h0 h
      exact C200_floats_partial (F := mlbwF) h0 h
    · rename_i hb
      simp only [hb] at h0 h
      exact C200_floats_partial (F := slbwF) h0 h
  | rm b => exact C200_floats_partial (F := rmF) h0 h
  | radius b => cases h0
  | rml b => cases h0
  | unr b => cases h0

theorem range_number {r : Res.Range} {E : ℝ} {x : Result} (h : reconstructRange r (.number E) = .ok x) : ∃ y, x = .number y := by
  have hx : ∀ {D K V : Type} (F : Formalism D (K → Option V)) (d : D), xsOf F d E = .ok x → ∃ y, x = .number y := by
    intro D K V F d hF
    obtain ⟨ls, m, hp⟩ := xsOf_prepared hF
    rw [xsOf, reconstruct_fresh, hp] at hF
    simp only [evalAll] at hF
    cases he : F.eval d ls m E with
    | error e => rw [he] at hF; cases hF
    | ok y => rw [he] at hF; cases hF; exact ⟨y, rfl⟩
  cases r with
  | bw b =>
    simp only [reconstructRange] at h
    split at h
    · exact hx mlbwF _ h
    · exact hx slbwF _ h
  | rm b => exact hx rmF _ h
  | radius b => cases h
  | rml b => cases h
  | unr b => cases h

theorem addWithin_map {p : ℝ → Bool} {g v : ℝ → ℝ} : ∀ es : List ℝ,
    addWithin ((es.map p).zip (es.map g)) ((((es.zip (es.map p)).filter (·.2)).map (·.1)).map v) = es.map fun E => if p E then g E + v E else g E
  | [] => rfl
  | e :: es => by
    have ih := addWithin_map (p := p) (g := g) (v := v) es
    cases hp : p e with
    | true => rw [List.map_map] at ih; simpa [hp, addWithin] using ih
    | false => rw [List.map_map] at ih; simpa [hp, addWithin] using ih

/-- C207. For an array of floats the values are those for its items, if every resolved range can be reconstructed at some energy. -/
theorem C207_array_partial {mt : ℤ} (hmt : mt = 2 ∨ mt = 102 ∨ mt = 18) {rs : List Res.Range} (hr : ∀ r ∈ rs, resolved r = true → ∃ E0 x, reconstructRange r (.number E0) = .ok x)
    {background f : ℝ → ℝ} {es : List ℝ} (h : ∀ E ∈ es, call mt background rs E = .ok (f E)) : callAll mt background rs es = .ok (es.map f) := by
  unfold callAll
  unfold call at h
  induction rs generalizing background with
  | nil =>
    have : ∀ E ∈ es, background E = f E := fun E hE => by simpa [pure, Except.pure] using h E hE
    show Except.ok _ = _
    rw [List.map_congr_left this]
  | cons r rs ih =>
    have hr' := fun q hq => hr q (List.mem_cons_of_mem _ hq)
    rw [List.foldlM_cons]
    by_cases hR : resolved r = false
    · have : ∀ x xs, addRangeAll mt x xs r = .ok xs := fun x xs => by rw [addRangeAll, if_pos hR]
      rw [this]
      refine ih hr' fun E hE => ?_
      have h' := h E hE
      rw [List.foldlM_cons, addRange, if_pos hR] at h'
      exact h'
    · obtain ⟨E0, x0, h0⟩ := hr r List.mem_cons_self (by simpa using hR)
      have hx : ∀ E ∈ es, (limits r).1 ≤ E ∧ E ≤ (limits r).2 → ∃ x, reconstructRange r (.number E) = .ok (.number x) := by
        intro E hE hc
        have h' := h E hE
        rw [List.foldlM_cons, addRange, if_neg hR, if_pos hc] at h'
        cases hx : reconstructRange r (.number E) with
        | error e => rw [hx] at h'; cases h'
        | ok x =>
          obtain ⟨y, rfl⟩ := range_number hx
          exact ⟨y, rfl⟩
      have : Nonempty Xs := ⟨⟨0, 0, 0⟩⟩
      choose! x ex using hx
      let val : Xs → ℝ := fun y => if mt = 2 then y.elastic else if mt = 102 then y.capture else y.fission
      have hpick : ∀ y, pick mt (.number y) = .ok (val y) := by
        intro y
        rcases hmt with rfl | rfl | rfl <;> simp [pick, val]
      have hfl := range_floats h0 (es := ((es.zip (es.map fun e => decide ((limits r).1 ≤ e ∧ e ≤ (limits r).2))).filter (·.2)).map (·.1)) (f := x) (by
        intro E hE
        obtain ⟨⟨a, b⟩, hm, rfl⟩ := List.mem_map.mp hE
        rw [List.mem_filter] at hm
        obtain ⟨i, hi, e⟩ := List.getElem_of_mem hm.1
        simp only [List.getElem_zip, List.getElem_map, Prod.mk.injEq] at e
        refine ex a (by rw [← e.1]; exact List.getElem_mem _) ?_
        have := hm.2
        rw [← e.2, e.1] at this
        exact of_decide_eq_true this)
      have hpa : ∀ l : List ℝ, pickAll mt (.floats (l.map fun E => (x E).elastic) (l.map fun E => (x E).capture) (l.map fun E => (x E).fission)) = .ok (l.map fun E => val (x E)) := by
        intro l
        rcases hmt with rfl | rfl | rfl <;> simp [pickAll, val]
      rw [addRangeAll, if_neg hR]
      simp only [hfl, bind, Except.bind, hpa, pure, Except.pure]
      rw [addWithin_map (v := fun E => val (x E))]
      refine ih hr' fun E hE => ?_
      have h' := h E hE
      rw [List.foldlM_cons, addRange, if_neg hR] at h'
      by_cases hc : (limits r).1 ≤ E ∧ E ≤ (limits r).2
      · rw [if_pos hc, ex E hE hc] at h'
        simp only [bind, Except.bind, hpick, pure, Except.pure] at h'
        rw [if_pos (decide_eq_true hc)]
        exact h'
      · rw [if_neg hc] at h'
        rw [if_neg (by simpa using hc)]
        exact h'

/-- C207. With a range of the R-matrix limited format an array raises, even if it is empty; AttributeError, if it is the first range. -/
theorem C207_rml_refuted {mt : ℤ} {rs : List Res.Range} {q : Res.Rml} (hq : .rml q ∈ rs) (background : ℝ → ℝ) (es : List ℝ) :
    (∃ e, callAll mt background rs es = .error e) ∧ (rs.head? = some (.rml q) → callAll mt background rs es = .error .attributeError) := by
  refine ⟨?_, ?_⟩
  rotate_left
  · intro hh
    cases rs with
    | nil => cases hh
    | cons r rs =>
      simp only [List.head?_cons, Option.some.injEq] at hh
      subst hh
      rfl
  unfold callAll
  generalize es.map background = v
  induction rs generalizing v with
  | nil => cases hq
  | cons r rs ih =>
    rw [List.foldlM_cons]
    rcases List.mem_cons.mp hq with rfl | hq
    · exact ⟨_, rfl⟩
    · cases addRangeAll mt es v r with
      | error e => exact ⟨e, rfl⟩
      | ok w => exact ih hq w

end
end ASAPy.ReconEval
