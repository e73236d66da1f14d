import Verif.Groups.Spec
import Verif.Store.Props
import Mathlib.Tactic.Linarith
import Mathlib.Tactic.Positivity
import Mathlib.Tactic.FieldSimp
import Mathlib.Data.List.Chain

/-! # C63: the built-in group structures -/

namespace ASAPy.Groups
open ASAPy.Boxer

/-- Neighbouring bounds differ by more than one part in a thousand. -/
def Wide (g : List ℚ) : Prop := g.IsChain fun a b => 0 < a ∧ 2001 * a < 1999 * b

instance (g : List ℚ) : Decidable (Wide g) := by unfold Wide; infer_instance

theorem wide_238 : Wide groups238 := by decide +kernel
theorem wide_44 : Wide groups44 := by decide +kernel
theorem wide_56 : Wide groups56 := by decide +kernel
theorem wide_252 : Wide groups252 := by decide +kernel
theorem wide_3 : Wide groups3 := by decide +kernel

theorem wide_structures : ∀ g ∈ structures, Wide g := by
  simp only [structures, List.mem_cons, List.not_mem_nil, or_false, forall_eq_or_imp, forall_eq]
  exact ⟨wide_238, wide_44, wide_56, wide_252, wide_3⟩

/-- **C63.** Each structure is strictly increasing, and has the number of groups in its name. -/
theorem C63_increasing : (∀ g ∈ structures, g.Pairwise (· < ·)) ∧ structures.map (fun g => g.length - 1) = [238, 44, 56, 252, 3] := by
  refine ⟨fun g hg => ?_, by decide +kernel⟩
  have := wide_structures g hg
  unfold Wide at this
  exact List.isChain_iff_pairwise.1 (this.imp fun a b h => by linarith [h.1, h.2])

theorem value_ulp (f : Fld) (h : f.neg = false) : f.value = (f.mant : ℕ) * ulp f := by
  unfold Fld.value ulp
  rw [h]
  simp only [Bool.false_eq_true, if_false]
  ring

theorem ulp_pos (f : Fld) : 0 < ulp f := by
  unfold ulp
  cases f.negExp <;> simp <;> positivity

/-- A printed number is off by at most one part in two thousand. -/
theorem rounds_near {q : ℚ} {f : Fld} (h : Rounds q f) : 0 < f.value ∧ 1999 * f.value ≤ 2000 * q ∧ 2000 * q ≤ 2001 * f.value := by
  obtain ⟨h1, h2, h3⟩ := h
  have hu := ulp_pos f
  have hv := value_ulp f h1
  have hm : (1000 : ℚ) ≤ ((f.mant : ℕ) : ℚ) := by exact_mod_cast h2
  have hle : 1000 * ulp f ≤ f.value := by
    rw [hv]
    exact mul_le_mul_of_nonneg_right hm hu.le
  rw [abs_le] at h3
  refine ⟨by linarith, by linarith [h3.1], by linarith [h3.2]⟩

theorem rounds_lt {a b : ℚ} {f g : Fld} (hf : Rounds a f) (hg : Rounds b g) (h : 2001 * a < 1999 * b) : f.value < g.value := by
  have h1 := rounds_near hf
  have h2 := rounds_near hg
  nlinarith [h1.1, h1.2.1, h1.2.2, h2.1, h2.2.1, h2.2.2]

/-- **C63.** However the bounds of a structure are rounded to four digits, they stay strictly increasing. This holds of every structure whose bounds
differ by more than one part in a thousand. -/
theorem C63_rounded (g : List ℚ) (hg : Wide g) (fs : List Fld) (h : List.Forall₂ Rounds g fs) : (fs.map Fld.value).Pairwise (· < ·) := by
  rw [← List.isChain_iff_pairwise, List.isChain_map]
  unfold Wide at hg
  induction h with
  | nil => simp
  | @cons a f g fs h1 h2 ih =>
    cases h2 with
    | nil => simp
    | @cons b f' g fs h3 h4 =>
      rw [List.isChain_cons_cons] at hg ⊢
      exact ⟨rounds_lt h1 h3 hg.1.2, ih hg.2⟩

/-- **C63, end to end.** A covariance file on any of the built-in structures, with the bounds printed to four digits from high to low, passes the order
check and is stored, whatever the cross sections, deviations and covariances. -/
theorem C63_stored (g : List ℚ) (hg : g ∈ structures) (s : Store.Store) (zaid mt : Nat) (pre b x r c : List (List Fld)) (h0 h1 h2 h3 : List Char)
    (hh : isStart h0 = true ∧ isStart h1 = true ∧ isStart h2 = true ∧ isStart h3 = true)
    (he : ∀ h ∈ [h0, h1, h2, h3], ¬ "***ERROR IN BOXR***".toList <:+: h)
    (hb : List.Forall₂ Rounds g.reverse b.flatten) (hx : x.flatten.length + 1 = g.length) (hr : r.flatten.length + 1 = g.length)
    (hc : c.flatten.length = x.flatten.length * x.flatten.length) :
    (Store.process s zaid mt (pre.map lineOf ++ h0 :: b.map lineOf ++ h1 :: x.map lineOf ++ h2 :: r.map lineOf ++ h3 :: c.map lineOf)).2 = .ok () := by
  have hl := hb.length_eq
  rw [List.length_reverse] at hl
  have hdec : (b.flatten.map Fld.value).Pairwise (· > ·) := by
    have := C63_rounded g (wide_structures g hg) b.flatten.reverse (by
      have := List.rel_reverse hb
      rwa [List.reverse_reverse] at this)
    rw [List.map_reverse, List.pairwise_reverse] at this
    exact this
  exact (Store.C67_written_file s zaid mt pre b x r c h0 h1 h2 h3 hh he _ _ _ rfl rfl rfl (by omega) (by omega) hc hdec _ rfl).1

/-- The bounds of the three-group structure as printed. -/
example : List.Forall₂ Rounds groups3 [⟨false, 1000, true, 5⟩, ⟨false, 6250, true, 1⟩, ⟨false, 5500, false, 3⟩, ⟨false, 2000, false, 7⟩] := by
  have e : groups3 = [1 / 100000, 625 / 1000, 5500, 20000000] := by decide +kernel
  rw [e]
  refine .cons ⟨rfl, by decide, ?_⟩ (.cons ⟨rfl, by decide, ?_⟩ (.cons ⟨rfl, by decide, ?_⟩ (.cons ⟨rfl, by decide, ?_⟩ .nil))) <;> decide +kernel

/-- A bound with five digits: 1.7333E7 is printed as 1.733E+07. -/
example : Rounds (lit 17333 3) ⟨false, 1733, false, 7⟩ := ⟨rfl, by decide, by decide +kernel⟩

end ASAPy.Groups
