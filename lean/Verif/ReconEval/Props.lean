import Verif.ReconEval.Model
import Verif.ReconEval.Spec
import Verif.Recon.Wave
import Verif.Recon.Props3
import Verif.Res.Props2

/-!
# Cross sections of an evaluation: proofs
-/

namespace ASAPy.ReconEval
open ASAPy.Recon ASAPy.Recon.Spec Spec
open ASAPy.Elastic0K (resolved limits addWithin)
open ASAPy.Endf (Line)

noncomputable section

/-! ### The data -/

theorem radius_unique {R : Res.Radius} {f : ℝ → ℝ} (h : IsRadius R f) : f = radius R := by
  funext E
  cases h with
  | const h => rw [h]; rfl
  | mass ha h =>
    rename_i a
    have h1 := h E
    show f E = 0.123 * (neutronWeight * (a : ℝ)) ^ (1 / 3 : ℝ) + 0.08
    have h0 : (0 : ℝ) ≤ neutronWeight * a := mul_nonneg (by norm_num [neutronWeight]) (by exact_mod_cast ha)
    have h2 : (0.123 * (neutronWeight * (a : ℝ)) ^ (1 / 3 : ℝ)) ^ 3 = 0.123 ^ 3 * (1.00866491588 * a) := by
      rw [mul_pow, ← Real.rpow_natCast ((neutronWeight * (a : ℝ)) ^ (1 / 3 : ℝ)) 3, ← Real.rpow_mul h0]
      norm_num [neutronWeight]
    have h3 : f E - 0.08 = 0.123 * (neutronWeight * (a : ℝ)) ^ (1 / 3 : ℝ) := (Odd.strictMono_pow (by decide : Odd 3)).injective (h1.trans h2.symm)
    linarith
  | table h =>
    rename_i regions points
    show f E = match (table regions points).eval E with
      | .ok v => v
      | .error _ => 0
    rw [show (table regions points).eval E = .ok (f E) from h E]

theorem dict_unique {D : List (Int × Res.Radius)} {d : ℤ → Option (ℝ → ℝ)} (h : ∀ l, Option.Rel IsRadius (Dict.get? D l) (d l)) : d = radii D := by
  funext l
  unfold radii
  have := h l
  revert this
  generalize Dict.get? D l = a
  generalize d l = b
  intro h
  cases h with
  | none => rfl
  | some h => rw [radius_unique h]; rfl

theorem base_unique {b : Res.Base} {awri : ℚ} {d : Base} (h : SameBase b awri d) : d = baseData b awri := by
  obtain ⟨h1, h2, h3, h4⟩ := h
  obtain ⟨s, a, c, t⟩ := d
  simp only at h1 h2 h3 h4
  rw [h1, h2, dict_unique h3, dict_unique h4]
  rfl

theorem bw_unique {r : Res.Bw} {d : Bw} (h : SameBw r d) : d = bwData r := by
  obtain ⟨h1, h2⟩ := h
  obtain ⟨b, rows⟩ := d
  unfold bwData
  congr 1
  · exact base_unique h1
  · simp only at h2
    clear h1
    generalize r.rows = rs at h2
    induction h2 with
    | nil => rfl
    | cons h _ ih =>
      rw [List.map_cons, ← ih]
      congr 1
      rename_i q p _ _ _
      obtain ⟨e1, e2, e3, e4, e5, e6, e7, e8⟩ := h
      cases p
      simp only at e1 e2 e3 e4 e5 e6 e7 e8
      rw [e1, e2, e3, e4, e5, e6, e7, e8]

theorem rm_unique {r : Res.Rm} {d : Rm} (h : SameRm r d) : d = rmData r := by
  obtain ⟨h1, h2⟩ := h
  obtain ⟨b, rows⟩ := d
  unfold rmData
  congr 1
  · exact base_unique h1
  · simp only at h2
    clear h1
    generalize r.rows = rs at h2
    induction h2 with
    | nil => rfl
    | cons h _ ih =>
      rw [List.map_cons, ← ih]
      congr 1
      rename_i q p _ _ _
      obtain ⟨e1, e2, e3, e4, e5, e6, e7⟩ := h
      cases p
      simp only at e1 e2 e3 e4 e5 e6 e7
      rw [e1, e2, e3, e4, e5, e6, e7]

/-! ### One range -/

theorem range_formula {E : ℝ} {r : Res.Range} (h : Sound E r) : ∃ x, reconstructRange r (.number E) = .ok (.number x) ∧ Formula E r x := by
  cases h with
  | bw h hd =>
    rename_i r d
    obtain rfl := bw_unique h
    cases hm : r.multi with
    | true =>
      obtain ⟨x, ex, h1, h2, h3⟩ := C204_mlbw_formula hd
      refine ⟨x, ?_, .mlbw hm h h1 h2 h3⟩
      simp only [reconstructRange, hm, if_true, Bool.false_eq_true, if_false]
      exact ex
    | false =>
      obtain ⟨x, ex, h1, h2, h3, -⟩ := C195_slbw_partial hd
      refine ⟨x, ?_, .slbw hm h h1 h2 h3⟩
      simp only [reconstructRange, hm, if_true, Bool.false_eq_true, if_false]
      exact ex
  | rm h hd =>
    rename_i r d
    obtain rfl := rm_unique h
    obtain ⟨x, el, ca, ex, e1, e2, e3, h1, h2, -⟩ := C203_collision hd
    subst e1 e3
    exact ⟨x, ex, .rm h h1 h2 e2⟩

theorem covers_iff {E : ℝ} {r : Res.Range} : Covers E r ↔ resolved r = true ∧ (limits r).1 ≤ E ∧ E ≤ (limits r).2 := by
  constructor
  · intro h
    cases h <;> exact ⟨rfl, ‹_›, ‹_›⟩
  · rintro ⟨h, h1, h2⟩
    cases r with
    | bw r => exact .bw h1 h2
    | rm r => exact .rm h1 h2
    | rml r => exact .rml h1 h2
    | radius b => cases h
    | unr u => cases h

theorem addRange_not {mt : ℤ} {E v : ℝ} {r : Res.Range} (h : ¬ Covers E r) : addRange mt E v r = .ok v := by
  unfold addRange
  split
  · rfl
  · rename_i hr
    rw [if_neg]
    intro hl
    exact h (covers_iff.mpr ⟨by simpa using hr, hl⟩)

theorem addRange_covers {mt : ℤ} {E v : ℝ} {r : Res.Range} (h : Covers E r) : addRange mt E v r = (do
    let x ← reconstructRange r (.number E)
    let v' ← pick mt x
    return v + v') := by
  obtain ⟨h1, h2⟩ := covers_iff.mp h
  unfold addRange
  rw [if_neg (by simp [h1]), if_pos h2]

theorem call_sum {mt : ℤ} {E : ℝ} {f : Res.Range → ℝ} (rs : List Res.Range) : (∀ r ∈ rs, Covers E r → ∃ x, reconstructRange r (.number E) = .ok x ∧ pick mt x = .ok (f r)) →
    ∀ v : ℝ, rs.foldlM (addRange mt E) v = .ok (v + covering rs E f) := by
  classical
  induction rs with
  | nil => intro _ v; simp [covering, pure, Except.pure]
  | cons r rs ih =>
    intro h v
    have hs : covering (r :: rs) E f = (if Covers E r then f r else 0) + covering rs E f := by
      unfold covering
      rw [List.map_cons, List.sum_cons]
    rw [List.foldlM_cons, hs]
    by_cases hc : Covers E r
    · obtain ⟨x, e1, e2⟩ := h r List.mem_cons_self hc
      rw [addRange_covers hc, e1, if_pos hc]
      simp only [bind, Except.bind, e2, pure, Except.pure]
      rw [ih fun q hq => h q (List.mem_cons_of_mem _ hq), add_assoc]
    · rw [addRange_not hc, if_neg hc, zero_add]
      exact ih (fun q hq => h q (List.mem_cons_of_mem _ hq)) v

/-- C206. The cross section of a reaction at an energy is, for every file 2 that is as the format says, the background plus the formulas of the ranges that cover the energy, with
the numbers of the file, if these data make sense. -/
theorem C206_values_partial {mass : ℚ} {isos : List (List Res.Range)} {ls : List Line} (h : Res.SectionRec mass isos ls) {E : ℝ}
    (hs : ∀ r ∈ isos.flatten, Covers E r → Sound E r) (background : ℝ → ℝ) :
    ∃ rs, Res.fromEndf mass ls = .ok rs ∧ ∃ x : Res.Range → Xs, (∀ r ∈ isos.flatten, Covers E r → Formula E r (x r)) ∧
      call 2 background rs E = .ok (background E + covering isos.flatten E fun r => (x r).elastic) ∧
      call 102 background rs E = .ok (background E + covering isos.flatten E fun r => (x r).capture) ∧
      call 18 background rs E = .ok (background E + covering isos.flatten E fun r => (x r).fission) := by
  classical
  refine ⟨_, Res.C148_section_partial mass isos ls h, ?_⟩
  have : Nonempty Xs := ⟨⟨0, 0, 0⟩⟩
  choose! x ex fx using fun r (hr : r ∈ isos.flatten) (hc : Covers E r) => range_formula (hs r hr hc)
  refine ⟨x, fx, ?_, ?_, ?_⟩ <;> exact call_sum _ (fun r hr hc => ⟨_, ex r hr hc, rfl⟩) _

end
end ASAPy.ReconEval
