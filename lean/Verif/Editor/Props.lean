import Verif.Editor.Gen
import Mathlib.Tactic.FieldSimp

/-!
# C01-C11, C14: the ACE editor

Vocabulary in `Spec.lean`; the calls are those of `Model.lean`.
-/

set_option linter.unusedSectionVars false
set_option linter.unusedSimpArgs false

namespace ASAPy.Ace

variable {K : Type*} [Field K] [LinearOrder K] [ExpLog K]
variable {file : Table K} {T : Temp} {ed ed' : Editor K}

/-! ### A concrete file over the rationals, for the examples and refutations -/

section concrete

/-- The laws with logarithms do not occur in the examples. -/
local instance : ExpLog ℚ := ⟨id, id⟩

/-- A reaction at 300K and 600K. -/
def demoRx (x y : List ℚ) : Reaction ℚ :=
  ⟨[("300K".toList, Tab1D.linlin x y), ("600K".toList, Tab1D.linlin x (y.map (· + 1)))], none, none⟩

/-- A fissionable material: total, elastic, inelastic with two levels, fission with nu-bar and chi, capture and
(n,p) with one level, absorption. -/
def demo : Table ℚ :=
  { temperatures := ["300K".toList]
    reactions :=
      [(1, demoRx [1, 2, 3] [100, 110, 120]), (2, demoRx [1, 2, 3] [40, 41, 42]),
       (4, demoRx [1, 2, 3] [9, 9, 9]), (51, demoRx [2, 3] [5, 6]), (52, demoRx [2, 3] [4, 3]),
       (18, { demoRx [1, 2, 3] [20, 21, 22] with
              nu := some ⟨true, Tab1D.linlin [1, 3] [2, 3]⟩
              chi := some ⟨true, [1, 2], [⟨[0, 1, 2], [1/2, 1/2, 1/2], [0, 1/2, 1]⟩,
                ⟨[0, 1, 2], [1/2, 1/2, 1/2], [0, 1/2, 1]⟩]⟩ }),
       (102, demoRx [1, 2, 3] [30, 31, 32]), (103, demoRx [1, 2, 3] [1, 1, 1]),
       (600, demoRx [1, 2, 3] [1, 1, 1]), (101, demoRx [1, 2, 3] [31, 32, 33])] }

/-- The editor opened on it. -/
def demoEd : Editor ℚ :=
  { table := demo, original := demo, temperature := "300K".toList, allMts := allMtsOf demo,
    originalSigma := [], adjusted := [] }

theorem demo_open : init demo none = .ok demoEd := rfl

theorem demo_wf : WellFormed demo "300K".toList := by
  refine ⟨by decide, ?_, ?_⟩
  · intro r; simp [demo]
  · intro mt r h
    simp only [demo, List.mem_cons, Prod.mk.injEq, List.not_mem_nil, or_false] at h
    rcases h with ⟨rfl, rfl⟩ | ⟨rfl, rfl⟩ | ⟨rfl, rfl⟩ | ⟨rfl, rfl⟩ | ⟨rfl, rfl⟩ | ⟨rfl, rfl⟩ | ⟨rfl, rfl⟩ |
      ⟨rfl, rfl⟩ | ⟨rfl, rfl⟩ | ⟨rfl, rfl⟩ <;>
    exact ⟨_, _, _, rfl, rfl, by simp⟩

/-- Some calls. -/
def demoOps : List (Op ℚ) := [.set 51 (.arr [6, 7]), .sums, .set 452 (.arr [3, 4]), .set 7 (.arr []), .sums]

end concrete

/-! ### C01 -/

/-- **C01 (partial).** A value that was set is read back (cross sections and nu-bar). Missing: nu-bar with the same value at all
energies, see `C01_flat_refuted`. -/
theorem C01_set_then_get_partial {mt : MT} {v : Val K} (h1018 : mt ≠ 1018) (hflat : mt = 452 → ¬ Flat v)
    (h : setSigma ed mt v = (ed', .ok ())) :
    getSigma ed' mt none false = .ok v := by
  unfold setSigma at h
  cases hE : getEnergy ed mt with
  | error e => rw [hE] at h; simp at h
  | ok energy =>
    rw [hE] at h
    simp only at h
    by_cases hlen : v.len ≠ energy.len
    · rw [if_pos hlen] at h; simp at h
    · rw [if_neg hlen] at h
      cases hS : getSigma ed mt none false with
      | error e => rw [hS] at h; simp at h
      | ok cur =>
        rw [hS] at h
        simp only at h
        by_cases h1 : mt = 452
        · subst h1
          simp only [if_true] at h
          cases v with
          | pdfs l => simp at h
          | arr l =>
            simp only [Prod.mk.injEq, and_true] at h
            subst h
            simp only [getSigma, getNuDistro, if_true, Bool.false_eq_true, if_false, Editor.addAdjusted, setNuDistro,
              Editor.modifyRx, Table.rx, Editor.remember, Dict.get?_modify_same] at hS ⊢
            cases h18 : Dict.get? ed.table.reactions 18 with
            | none => rw [h18] at hS; simp [bind, Except.bind] at hS
            | some r =>
              rw [h18] at hS
              simp only [Option.map_some] at hS ⊢
              cases hn : r.nu with
              | none => rw [hn] at hS; simp [bind, Except.bind] at hS
              | some nu =>
                rw [hn] at hS
                simp only [Option.map_some] at hS ⊢
                by_cases ht : nu.tabulated = false
                · rw [if_pos ht] at hS; simp [bind, Except.bind] at hS
                · rw [if_neg ht, saysTabulated_iff.mpr (hflat rfl)]; rfl
        · rw [if_neg h1, if_neg h1018] at h
          cases v with
          | pdfs l => simp at h
          | arr l =>
            simp only [Prod.mk.injEq, and_true] at h
            subst h
            simp only [getSigma, getTab, h1, h1018, Bool.false_eq_true, if_false, Editor.addAdjusted, setXs,
              Editor.modifyRx, Editor.remember, Dict.get?_modify_same] at hS ⊢
            cases hr : Dict.get? ed.table.reactions mt with
            | none => rw [hr] at hS; simp [bind, Except.bind] at hS
            | some r =>
              rw [hr] at hS
              simp only [Option.map_some, Dict.get?_modify_same] at hS ⊢
              cases hx : Dict.get? r.xs ed.temperature with
              | none => rw [hx] at hS; simp [bind, Except.bind] at hS
              | some t => rfl

/-- **C01.** Setting an MT moves nothing else: the data of every other MT and every energy grid (that of nu-bar cannot be read any more
if all values of nu-bar are the same). -/
theorem C01_nothing_else (mt : MT) (v : Val K) :
    (∀ m, m ≠ mt → ∀ at? un, getSigma (setSigma ed mt v).1 m at? un = getSigma ed m at? un) ∧
    (∀ m, m ≠ mt → getEnergy (setSigma ed mt v).1 m = getEnergy ed m) ∧
    ((mt = 452 → ¬ Flat v) → getEnergy (setSigma ed mt v).1 mt = getEnergy ed mt) := by
  obtain ⟨hb, _, hc, _⟩ := setSigma_frame ed mt v
  exact ⟨fun m hm at? un => (getSigma_congr hb (hc m hm).symm at? un).symm,
    fun m hm => setSigma_energy ed mt v m fun h h' => absurd (h.trans h'.symm) hm,
    fun hf => setSigma_energy ed mt v mt fun _ h => hf h⟩

section
local instance : ExpLog ℚ := ⟨id, id⟩

/-- **C01 is false in full**: after nu-bar was set to the same value at all energies it can neither be read nor be set any more, since
it is then not recognised as a tabulated yield. -/
theorem C01_flat_refuted : ∃ ed' : Editor ℚ, Reachable demo "300K".toList ed' ∧ setSigma demoEd 452 (.arr [5/2, 5/2]) = (ed', .ok ()) ∧
    getSigma ed' 452 none false = .error .typeError ∧ (setSigma ed' 452 (.arr [2, 3])).2 = .error .typeError :=
  ⟨_, ⟨none, demoEd, [.set 452 (.arr [5/2, 5/2])], demo_open, rfl, rfl⟩, Prod.ext rfl (by decide +kernel), by decide +kernel,
    by decide +kernel⟩
example : (setSigma demoEd 51 (.arr [6, 7])).2 = .ok () ∧ (setSigma demoEd 452 (.arr [6, 7])).2 = .ok () := by
  decide +kernel
end

/-! ### C02 -/

/-- **C02.** After any history the unadjusted data are those of the file, and so are the energy grids (that of nu-bar as long as it
can be read, see `C01_flat_refuted`). -/
theorem C02_original_survives {t : Option (List Char)} {ed0 : Editor K} (h : init file t = .ok ed0)
    (ops : List (Op K)) (mt : MT) :
    (∀ at?, getSigma (run ed0 ops) mt at? true = getSigma ed0 mt at? false) ∧
    (mt ≠ 452 → getEnergy (run ed0 ops) mt = getEnergy ed0 mt) ∧
    (∀ es, getEnergy (run ed0 ops) mt = .ok es → getEnergy ed0 mt = .ok es) := by
  refine ⟨fun at? => ?_, energy_run ops ed0 mt, fun es hes => ?_⟩
  swap
  · by_cases hm : mt = 452
    · subst hm; exact nu_energy_run h ops hes
    · rw [← energy_run ops ed0 mt hm]; exact hes
  have hk := kept_init h
  rw [← getSigma_unadjusted_congr (sameBase_run ops ed0)]
  have hcomp : ed0.table = ed0.original := by
    unfold init at h
    split at h
    · cases h
    · cases h; rfl
  exact (sigma_unadjusted_of_comp (by rw [hcomp]) at?).symm

section
local instance : ExpLog ℚ := ⟨id, id⟩
-- the calls of the example do change the current data
example : getSigma (run demoEd demoOps) 1 none false ≠ getSigma demoEd 1 none false ∧
    getSigma (run demoEd demoOps) 1 none true = getSigma demoEd 1 none false := by decide +kernel
end

/-! ### C03 -/

/-- Two editors with the same answers and the same adjusted MTs. -/
theorem sameData_of_table {a b : Editor K} (hb : SameBase a b) (ht : a.table = b.table) : SameData a b :=
  sameData_of_comp hb (fun m => by rw [ht])

/-- **C03 (partial).** A rejected set leaves the editor as it was, except when chi distributions are rejected after
the check of their number and of the length of the first one. -/
theorem C03_rejected_set_partial {mt : MT} {v : Val K} {e : PyErr} (h : setSigma ed mt v = (ed', .error e))
    (hchi : mt = 1018 → ∀ chi l, getChiDistro ed false = .ok chi → v = .pdfs l →
      l.length ≠ chi.energyOut.length ∨ l.head?.map List.length ≠ chi.energyOut.head?.map (fun d => d.x.length)) :
    SameData ed ed' ∧ ∀ m, m ∈ ed'.adjusted ↔ m ∈ ed.adjusted := by
  obtain ⟨hb, _, hc, ha⟩ := setSigma_frame ed mt v
  have herr : (setSigma ed mt v).2 = .error e := by rw [h]
  have hadj : ∀ m, m ∈ ed'.adjusted ↔ m ∈ ed.adjusted := by
    intro m
    have := ha m
    rw [h] at this
    simpa using this
  have ht : ed'.table = ed.table := by
    by_cases h1018 : mt = 1018
    · subst h1018
      unfold setSigma at h
      cases hE : getEnergy ed 1018 with
      | error e => rw [hE] at h; simp only [Prod.mk.injEq] at h; rw [h.1]
      | ok energy =>
        rw [hE] at h
        simp only at h
        by_cases hlen : v.len ≠ energy.len
        · rw [if_pos hlen] at h; simp only [Prod.mk.injEq] at h; rw [h.1]
        · rw [if_neg hlen] at h
          cases hS : getSigma ed 1018 none false with
          | error e => rw [hS] at h; simp only [Prod.mk.injEq] at h; rw [h.1]
          | ok cur =>
            rw [hS] at h
            simp only [show (1018:Nat) ≠ 452 by decide, if_false, if_true] at h
            cases v with
            | arr l => simp only [Prod.mk.injEq] at h; rw [← h.1]; rfl
            | pdfs l =>
              simp only at h
              have hcc : getChiDistro (ed.remember 1018 cur) false = getChiDistro ed false := rfl
              have key : (setChiDistro (ed.remember 1018 cur) l).1.table = ed.table := by
                unfold setChiDistro
                rw [hcc]
                cases hch : getChiDistro ed false with
                | error e => rfl
                | ok chi =>
                  simp only
                  rcases hchi rfl chi l hch rfl with hl | hl
                  · rw [if_pos (fun h => hl h.symm)]; rfl
                  · split_ifs
                    · rfl
                    · cases he : chi.energyOut with
                      | nil => rfl
                      | cons d ds =>
                        cases l with
                        | nil => rfl
                        | cons p ps =>
                          rw [he] at hl
                          simp only [List.head?_cons, Option.map_some, ne_eq, Option.some.injEq] at hl
                          simp only
                          rw [if_pos (fun h => hl h.symm)]; rfl
              cases hr : setChiDistro (ed.remember 1018 cur) l with
              | mk e1 o =>
                rw [hr] at h key
                cases o with
                | ok u => simp at h
                | error e2 => simp only [Prod.mk.injEq] at h; rw [← h.1]; exact key
    · have := setSigma_error_table h1018 herr
      rw [h] at this
      exact this
  rw [h] at hb
  exact ⟨sameData_of_table hb ht.symm, hadj⟩

section
local instance : ExpLog ℚ := ⟨id, id⟩

example : (setSigma demoEd 51 (.arr [6])).2 = .error .indexError ∧
    (setSigma demoEd 7 (.arr [6])).2 = .error .keyError := by decide +kernel

/-- **C03 is false in full**: chi distributions of which the second has the wrong length are rejected after the first
one was stored, and a negative pdf is rejected after the cdf was stored. -/
theorem C03_rejected_set_refuted :
    (∃ (ed : Editor ℚ) (ed' : Editor ℚ) (l : List (List ℚ)) (e : PyErr), Reachable demo "300K".toList ed ∧
      setSigma ed 1018 (.pdfs l) = (ed', .error e) ∧ getSigma ed' 1018 none false ≠ getSigma ed 1018 none false) ∧
    (∃ (ed : Editor ℚ) (ed' : Editor ℚ) (l : List (List ℚ)) (e : PyErr), Reachable demo "300K".toList ed ∧
      setSigma ed 1018 (.pdfs l) = (ed', .error e) ∧
      (getChiDistro ed' false).map (fun chi => chi.energyOut.map (·.c)) ≠
        (getChiDistro ed false).map (fun chi => chi.energyOut.map (·.c))) := by
  refine ⟨⟨demoEd, _, [[1, 2, 1], [1, 1]], .valueError, ⟨none, demoEd, [], demo_open, rfl, rfl⟩,
    Prod.ext rfl ?_, ?_⟩, ⟨demoEd, _, [[1, -1, 2], [1, 1, 1]], .valueError,
    ⟨none, demoEd, [], demo_open, rfl, rfl⟩, Prod.ext rfl ?_, ?_⟩⟩ <;> decide +kernel

end

/-! ### C04 -/

/-- **C04 (partial).** After any history, an MT that is not reported as adjusted has the data of the file, and only
MTs of the editor are reported. For chi (MT 1018) this needs that no set of chi was rejected in the history. -/
theorem C04_changed_is_adjusted_partial {t : Option (List Char)} {ed0 : Editor K} (h : init file t = .ok ed0)
    (ops : List (Op K)) :
    (∀ mt, mt ∉ (run ed0 ops).adjusted → (mt = 1018 → NoRejectedChi ed0 ops) →
      ∀ at?, getSigma (run ed0 ops) mt at? false = getSigma ed0 mt at? false) ∧
    ∀ mt ∈ (run ed0 ops).adjusted, mt ∈ ed0.allMts := by
  have hk := kept_run h ops
  have hb := sameBase_run ops ed0
  refine ⟨?_, fun mt hm => hb.2.2 ▸ hk.2.2.1 mt hm⟩
  intro mt hm hchi at?
  have hcomp : comp (run ed0 ops).table mt = comp (run ed0 ops).original mt := by
    by_cases h1 : mt = 1018
    · subst h1
      rw [← hb.1]
      refine chi_kept ops (fun _ => ?_) (hchi rfl) hm
      have hc : ed0.table = ed0.original := by
        unfold init at h
        split at h
        · cases h
        · cases h; rfl
      rw [hc]
    · exact hk.2.2.2 mt h1 hm
  rw [sigma_unadjusted_of_comp hcomp]
  exact (C02_original_survives h ops mt).1 at?

section
local instance : ExpLog ℚ := ⟨id, id⟩

example : (run demoEd demoOps).adjusted = [51, 4, 1, 452] ∧ 2 ∉ (run demoEd demoOps).adjusted := by decide +kernel

/-- A history with an accepted set of chi. -/
example : NoRejectedChi demoEd [.set 1018 (.pdfs [[1, 1, 1], [1, 1, 1]])] := by
  intro pre v post h
  cases pre with
  | nil =>
    simp only [List.nil_append, List.cons.injEq, Op.set.injEq, true_and] at h
    rw [← h.1]
    decide +kernel
  | cons a pre => simp at h

/-- **C04 is false for chi**: after a rejected set chi differs from the file and is not reported. -/
theorem C04_changed_is_adjusted_refuted : ∃ (t : Option (List Char)) (ed0 : Editor ℚ) (ops : List (Op ℚ)),
    init demo t = .ok ed0 ∧ 1018 ∉ (run ed0 ops).adjusted ∧
    getSigma (run ed0 ops) 1018 none false ≠ getSigma ed0 1018 none false := by
  refine ⟨none, demoEd, [.set 1018 (.pdfs [[1, 2, 1], [1, 1]])], demo_open, ?_, ?_⟩ <;> decide +kernel

end

/-! ### C05 -/

theorem reachable_inv (hf : WellFormed file T) (hr : Reachable file T ed) : Inv file T ed ∧ Kept ed := by
  obtain ⟨t, ed0, ops, hi, hT, rfl⟩ := hr
  exact ⟨inv_run hf ops (inv_init hf hi hT), kept_run hi ops⟩

theorem reachable_step (hr : Reachable file T ed) (op : Op K) : Reachable file T (step ed op).1 := by
  obtain ⟨t, ed0, ops, hi, hT, rfl⟩ := hr
  refine ⟨t, ed0, ops ++ [op], hi, hT, ?_⟩
  rw [run_append]; rfl

/-- **C05.** After `apply_sum_rules`, for every redundant reaction `s` on the file with an adjusted part on the file,
at every energy of its grid: the stored value minus the total of its parts on the file is what it is in the loaded
data. -/
theorem C05_gap_is_kept (hf : WellFormed file T) (hr : Reachable file T ed)
    (hed' : ed' = (applySumRules ed).1) {s c : MT} (hs : OnFile file s) (hc : OnFile file c) (hsc : Part s c)
    (hadj : c ∈ ed'.adjusted) (parts : Finset MT) (hparts : ∀ c, c ∈ parts ↔ Part s c ∧ OnFile file c) :
    ∃ es vs, getEnergy ed' s = .ok (.arr es) ∧ getSigma ed' s none false = .ok (.arr vs) ∧
      List.Forall₂ (fun e v => v - ∑ c ∈ parts, sigmaAt ed' c false e =
        sigmaAt ed' s true e - ∑ c ∈ parts, sigmaAt ed' c true e) es vs := by
  obtain ⟨hi, hk⟩ := reachable_inv hf hr
  have hr' : Reachable file T ed' := by rw [hed']; exact reachable_step hr .sums
  obtain ⟨hi', hk'⟩ := reachable_inv hf hr'
  obtain ⟨l, hsl, hcl⟩ := part_rule hsc
  have hset := applyRules_settled hf sumRules_ordered hi (s, l) hsl
  obtain ⟨_, hs1, hs2, hl1, hl2⟩ := sumRules_ordered.2 (s, l) hsl
  rw [onFile_iff] at hs hc
  change Settled file T ed (applySumRules ed).1 s l at hset
  rw [← hed'] at hset
  rcases hset with ⟨_, _, _, x, y0, rest, h0, h1⟩ | ⟨h, _⟩
  · obtain ⟨_, ht, hE⟩ := hi'.tabs hf hs h0 h1
    refine ⟨x, x.map (newVal ed' s l), hE, ?_, ?_⟩
    · rw [getSigma_full hs1 hs2 ht]; rfl
    · rw [List.forall₂_map_right_iff, List.forall₂_same]
      intro e _
      exact newVal_parts hi' hk' hsl parts hparts e
  · exact absurd ⟨by rw [hi'.allMts]; exact keys_subset_allMtsOf hs, c, hcl,
      by rw [hi'.allMts]; exact keys_subset_allMtsOf hc, hadj⟩ h

/-- What was adjusted stays adjusted, so a part adjusted before the call serves as well. -/
theorem C05_adjusted_stays (hf : WellFormed file T) (hr : Reachable file T ed) {c : MT} (h : c ∈ ed.adjusted) :
    c ∈ (applySumRules ed).1.adjusted :=
  (applyRules_frame hf sumRules_ordered (reachable_inv hf hr).1).2.2.2.2.2 c h

section
local instance : ExpLog ℚ := ⟨id, id⟩

theorem demo_reachable (ops : List (Op ℚ)) : Reachable demo "300K".toList (run demoEd ops) :=
  ⟨none, demoEd, ops, demo_open, rfl, rfl⟩

-- 51 is raised by 1: so are 4 and, through it, 1 (the gap 120 - (42+9+22+32+1) is kept)
example : getSigma (applySumRules (run demoEd [.set 51 (.arr [6, 7])])).1 1 none false = .ok (.arr [100, 111, 121]) ∧
    getSigma (applySumRules (run demoEd [.set 51 (.arr [6, 7])])).1 4 none false = .ok (.arr [9, 10, 10]) ∧
    51 ∈ (run demoEd [.set 51 (.arr [6, 7])]).adjusted ∧ Part 4 51 ∧ Part 1 4 := by
  refine ⟨by decide +kernel, by decide +kernel, by decide +kernel, by unfold Part; omega, by unfold Part; omega⟩
end

/-! ### C06 -/

theorem applyRule_settled (hf : WellFormed file T) (hi : Inv file T ed) {before : Editor K} {s : MT} {l : List MT}
    (hs1 : s ≠ 452) (hs2 : s ≠ 1018) (hl : 452 ∉ l ∧ 1018 ∉ l)
    (h : Settled file T before ed s l) : applyRule ed (s, l) = (ed, .ok ()) := by
  rcases h with ⟨h1, h2, h3, x, y0, rest, h0, hcomp⟩ | ⟨h, _⟩
  · obtain ⟨x', y0', y1, rest', h0', hc', _, _, happ, _, _⟩ := applyRule_apply hf hi hs1 hs2 hl ⟨h1, h2⟩
    rw [hcomp] at hc'
    simp only [Comp.xs.injEq, Option.some.injEq, List.cons.injEq, Prod.mk.injEq, true_and, Tab1D.linlin,
      Tab1D.mk.injEq] at hc'
    obtain ⟨⟨rfl, _⟩, _⟩ := hc'
    rw [happ]
    have hrem : ∀ v, ed.remember s v = ed := by
      intro v
      unfold Editor.remember
      rw [if_pos (hi.remembered s h3)]
    rw [hrem]
    have hset : setXs ed s (x.map (newVal ed s l)) = ed := by
      rw [comp_xs hs1 hs2] at hcomp
      simp only [Comp.xs.injEq, Option.map_eq_some_iff] at hcomp
      obtain ⟨r, hr, hxs⟩ := hcomp
      have hrfix : ({ r with xs := Dict.modify r.xs ed.temperature fun t => { t with y := x.map (newVal ed s l) } } :
          Reaction K) = r := by
        cases r with
        | mk xs nu chi =>
          simp only at hxs
          subst hxs
          simp [Dict.modify, hi.temperature, Tab1D.linlin]
      have hmod : Dict.modify ed.table.reactions s (fun rx => { rx with
          xs := Dict.modify rx.xs ed.temperature fun t => { t with y := x.map (newVal ed s l) } }) =
          ed.table.reactions := by
        apply Dict.modify_id
        intro r' hr'
        rw [hr] at hr'
        cases hr'
        exact hrfix
      unfold setXs Editor.modifyRx
      rw [hmod]
    rw [hset, addAdjusted_of_mem h3]
  · exact applyRule_skip h

theorem applyRules_fix {ed : Editor K} {rules : List (MT × List MT)} (h : ∀ r ∈ rules, applyRule ed r = (ed, .ok ())) :
    applyRules ed rules = (ed, .ok ()) := by
  induction rules with
  | nil => rfl
  | cons r rs ih =>
    unfold applyRules
    rw [h r (List.mem_cons_self ..)]
    exact ih (fun r hr => h r (List.mem_cons_of_mem _ hr))

/-- **C06.** A second `apply_sum_rules` right after the first changes nothing (not even hidden state). -/
theorem C06_apply_twice (hf : WellFormed file T) (hr : Reachable file T ed) :
    applySumRules (applySumRules ed).1 = ((applySumRules ed).1, .ok ()) := by
  obtain ⟨hi, _⟩ := reachable_inv hf hr
  obtain ⟨hi', _⟩ := reachable_inv hf (reachable_step hr .sums)
  refine applyRules_fix ?_
  intro r hrm
  obtain ⟨s, l⟩ := r
  obtain ⟨_, hs1, hs2, hl1, hl2⟩ := sumRules_ordered.2 (s, l) hrm
  exact applyRule_settled hf hi' hs1 hs2 ⟨hl1, hl2⟩ (applyRules_settled hf sumRules_ordered hi (s, l) hrm)

section
local instance : ExpLog ℚ := ⟨id, id⟩
example : (applySumRules (run demoEd [.set 51 (.arr [6, 7])])).1 ≠ run demoEd [.set 51 (.arr [6, 7])] := by
  decide +kernel
end

/-! ### C07 -/

/-- **C07.** Let `ops` be any history (with `apply_sum_rules` anywhere) that sets pairwise different MTs, and `sets`
any reordering of what it sets. Then `ops` followed by `apply_sum_rules` gives the same data and the same adjusted
MTs as `sets` followed by one `apply_sum_rules`. -/
theorem C07_order_irrelevant (hf : WellFormed file T) (hr : Reachable file T ed) (ops : List (Op K))
    (hdist : ((setsOf ops).map Prod.fst).Nodup) (sets : List (MT × Val K)) (hperm : sets.Perm (setsOf ops)) :
    SameData (run ed (ops ++ [.sums])) (run ed (sets.map (fun p => .set p.1 p.2) ++ [.sums])) ∧
    ∀ m, m ∈ (run ed (ops ++ [.sums])).adjusted ↔
      m ∈ (run ed (sets.map (fun p => .set p.1 p.2) ++ [.sums])).adjusted := by
  obtain ⟨hi, _⟩ := reachable_inv hf hr
  rw [run_append, run_append]
  have hdist' : (sets.map Prod.fst).Nodup := (hperm.map Prod.fst).nodup_iff.mpr hdist
  have h1 := agree_run hf ops hi hi (agree_refl sumRules ed)
  -- the reordered sets give the same components
  have h2 : Agree sumRules (run ed ((setsOf ops).map fun p => .set p.1 p.2))
      (run ed (sets.map fun p => .set p.1 p.2)) := by
    obtain ⟨b1, n1, m1⟩ := run_sets (setsOf ops) hdist ed
    obtain ⟨b2, n2, m2⟩ := run_sets sets hdist' ed
    have all : ∀ m, comp (run ed ((setsOf ops).map fun p => .set p.1 p.2)).table m =
        comp (run ed (sets.map fun p => .set p.1 p.2)).table m ∧
        (m ∈ (run ed ((setsOf ops).map fun p => .set p.1 p.2)).adjusted ↔
          m ∈ (run ed (sets.map fun p => .set p.1 p.2)).adjusted) := by
      intro m
      by_cases hm : m ∈ (setsOf ops).map Prod.fst
      · obtain ⟨p, hp, rfl⟩ := List.mem_map.mp hm
        obtain ⟨e1, a1⟩ := m1 p hp
        obtain ⟨e2, a2⟩ := m2 p (hperm.mem_iff.mpr hp)
        exact ⟨e1.trans e2.symm, a1.trans a2.symm⟩
      · have hm' : m ∉ sets.map Prod.fst := by
          rw [(hperm.map Prod.fst).mem_iff]; exact hm
        obtain ⟨e1, a1⟩ := n1 m hm
        obtain ⟨e2, a2⟩ := n2 m hm'
        exact ⟨e1.trans e2.symm, a1.trans a2.symm⟩
    exact ⟨b1.symm.trans b2, fun m _ => all m, fun r _ _ => all r.1⟩
  have i1 := inv_run hf ops hi
  have i2 := inv_run hf ((setsOf ops).map fun p => .set p.1 p.2) hi
  have i3 := inv_run hf (sets.map fun p => .set p.1 p.2) hi
  have f1 := agree_rules hf sumRules_ordered i1 i2 h1
  have f2 := agree_rules hf sumRules_ordered i2 i3 h2
  refine ⟨sameData_of_comp (f1.1.trans f2.1) (fun m => ?_), fun m => ?_⟩
  · exact (f1.2.1 m (by simp)).1.trans (f2.2.1 m (by simp)).1
  · exact (f1.2.1 m (by simp)).2.trans (f2.2.1 m (by simp)).2

section
local instance : ExpLog ℚ := ⟨id, id⟩
-- fission set before, between and after applications; the order does not matter
example : getSigma (run demoEd ([.set 51 (.arr [6, 7]), .sums, .set 18 (.arr [1, 1, 1])] ++ [.sums])) 1 none false =
    getSigma (run demoEd ([.set 18 (.arr [1, 1, 1]), .set 51 (.arr [6, 7])] ++ [.sums])) 1 none false ∧
    getSigma (run demoEd ([.set 18 (.arr [1, 1, 1]), .set 51 (.arr [6, 7])] ++ [.sums])) 1 none false =
      .ok (.arr [81, 91, 100]) := by decide +kernel
-- without the final application it does
example : getSigma (run demoEd [.set 51 (.arr [6, 7]), .sums]) 1 none false ≠
    getSigma (run demoEd [.sums, .set 51 (.arr [6, 7])]) 1 none false := by decide +kernel
end

/-! ### C08 -/

theorem reached_of_applyRules (hf : WellFormed file T) {adj : List MT} : ∀ {rules : List (MT × List MT)}
    (_ : Ordered rules) (_ : ∀ r ∈ rules, r ∈ sumRules) {ed : Editor K}, Inv file T ed →
    (∀ m ∈ ed.adjusted, Reached file adj m) → ∀ m ∈ (applyRules ed rules).1.adjusted, Reached file adj m := by
  intro rules
  induction rules with
  | nil => intro _ _ ed _ h; exact h
  | cons r rs ih =>
    intro ho hsub ed hi h
    obtain ⟨s, l⟩ := r
    have hrule := ho.2
    obtain ⟨hsl, hs1, hs2, hl1, hl2⟩ := hrule (s, l) (List.mem_cons_self ..)
    have ho' : Ordered rs := ⟨(List.pairwise_cons.mp ho.1).2, fun r hr => hrule r (List.mem_cons_of_mem _ hr)⟩
    rw [applyRules_cons hf hi hs1 hs2 ⟨hl1, hl2⟩]
    obtain ⟨_, hi1, _, _, ha⟩ := applyRule_frame hf hi hs1 hs2 ⟨hl1, hl2⟩
    refine ih ho' (fun r hr => hsub r (List.mem_cons_of_mem _ hr)) hi1 ?_
    intro m hm
    rcases (ha m).mp hm with hm | ⟨rfl, hall, c, hc1, hc2, hc3⟩
    · exact h m hm
    · have hcon : c ≠ 452 ∧ c ≠ 1018 := ⟨by rintro rfl; exact hl1 hc1, by rintro rfl; exact hl2 hc1⟩
      refine Reached.up (c := c) ?_ ?_ ((mem_rule_iff (hsub _ (List.mem_cons_self ..)) c).mp hc1) (h c hc3)
      · rw [onFile_iff, ← mem_allMtsOf hs1 hs2, ← hi.allMts]; exact hall
      · rw [onFile_iff, ← mem_allMtsOf hcon.1 hcon.2, ← hi.allMts]; exact hc2

/-- **C08.** The MTs adjusted after `apply_sum_rules` are exactly those reached from the ones adjusted before: these and
the redundant reactions on the file above them. -/
theorem C08_adjusted_exactly (hf : WellFormed file T) (hr : Reachable file T ed) (m : MT) :
    m ∈ (applySumRules ed).1.adjusted ↔ Reached file ed.adjusted m := by
  obtain ⟨hi, _⟩ := reachable_inv hf hr
  obtain ⟨hi', _⟩ := reachable_inv hf (reachable_step hr .sums)
  constructor
  · exact reached_of_applyRules hf sumRules_ordered (fun _ h => h) hi (fun _ h => .here h) m
  · intro h
    induction h with
    | here h => exact C05_adjusted_stays hf hr h
    | @up s c hs hc hsc _ ih =>
      obtain ⟨l, hsl, hcl⟩ := part_rule hsc
      rcases applyRules_settled hf sumRules_ordered hi (s, l) hsl with ⟨_, _, h, _⟩ | ⟨h, _⟩
      · exact h
      · rw [onFile_iff] at hs hc
        exact absurd ⟨by rw [(show (applyRules ed sumRules).1.allMts = _ from hi'.allMts)]; exact keys_subset_allMtsOf hs,
          c, hcl, by rw [(show (applyRules ed sumRules).1.allMts = _ from hi'.allMts)]; exact keys_subset_allMtsOf hc, ih⟩ h

/-- **C08.** `apply_sum_rules` leaves alone every MT that is not a redundant reaction on the file with a reached part
on the file: data, grid and being reported. -/
theorem C08_untouched (hf : WellFormed file T) (hr : Reachable file T ed) {m : MT}
    (hm : ¬ (OnFile file m ∧ ∃ c, OnFile file c ∧ Part m c ∧ Reached file ed.adjusted c)) :
    getEnergy (applySumRules ed).1 m = getEnergy ed m ∧
    (∀ at? un, getSigma (applySumRules ed).1 m at? un = getSigma ed m at? un) ∧
    (m ∈ (applySumRules ed).1.adjusted ↔ m ∈ ed.adjusted) := by
  obtain ⟨hi, _⟩ := reachable_inv hf hr
  obtain ⟨_, hi', hb, hc, ha, _⟩ := applyRules_frame hf sumRules_ordered hi
  have key : comp (applySumRules ed).1.table m = comp ed.table m ∧
      (m ∈ (applySumRules ed).1.adjusted ↔ m ∈ ed.adjusted) := by
    by_cases hs : m ∈ sumRules.map Prod.fst
    · obtain ⟨⟨s, l⟩, hsl, rfl⟩ := List.mem_map.mp hs
      obtain ⟨_, hs1, hs2, hl1, hl2⟩ := sumRules_ordered.2 (s, l) hsl
      rcases applyRules_settled hf sumRules_ordered hi (s, l) hsl with ⟨h1, ⟨c, hcl, hc2, hc3⟩, _⟩ | ⟨_, h2, h3⟩
      · exfalso
        apply hm
        have hcon : c ≠ 452 ∧ c ≠ 1018 := ⟨by rintro rfl; exact hl1 hcl, by rintro rfl; exact hl2 hcl⟩
        rw [hi'.allMts] at h1 hc2
        refine ⟨?_, c, ?_, (mem_rule_iff hsl c).mp hcl, (C08_adjusted_exactly hf hr c).mp hc3⟩
        · rw [onFile_iff, ← mem_allMtsOf hs1 hs2]; exact h1
        · rw [onFile_iff, ← mem_allMtsOf hcon.1 hcon.2]; exact hc2
      · exact ⟨h2, h3⟩
    · exact ⟨hc m hs, ha m hs⟩
  exact ⟨(getEnergy_congr hb key.1.symm).symm, fun at? un => (getSigma_congr hb key.1.symm at? un).symm, key.2⟩

/-- **C08.** With nothing adjusted `apply_sum_rules` changes nothing. -/
theorem C08_nothing_adjusted (h : ed.adjusted = []) : applySumRules ed = (ed, .ok ()) := by
  refine applyRules_fix ?_
  rintro ⟨s, l⟩ _
  apply applyRule_skip
  rintro ⟨_, c, _, _, hc⟩
  rw [h] at hc
  simp at hc

/-- The redundant reactions are the twelve of the documentation. -/
theorem C08_redundant (s : MT) : (∃ c, Part s c) ↔ s ∈ [107, 106, 105, 104, 103, 101, 18, 27, 16, 4, 3, 1] := by
  constructor
  · rintro ⟨c, hc⟩
    obtain ⟨l, hl, _⟩ := part_rule hc
    rw [← sumRules_fst]
    exact List.mem_map_of_mem hl
  · intro h
    rw [← sumRules_fst] at h
    obtain ⟨⟨s, l⟩, hsl, rfl⟩ := List.mem_map.mp h
    have : l ≠ [] := by
      revert hsl
      simp only [sumRules, List.mem_cons, Prod.mk.injEq, List.not_mem_nil, or_false]
      rintro (⟨_, rfl⟩ | ⟨_, rfl⟩ | ⟨_, rfl⟩ | ⟨_, rfl⟩ | ⟨_, rfl⟩ | ⟨_, rfl⟩ | ⟨_, rfl⟩ | ⟨_, rfl⟩ | ⟨_, rfl⟩ |
        ⟨_, rfl⟩ | ⟨_, rfl⟩ | ⟨_, rfl⟩) <;> decide
    obtain ⟨c, hc⟩ := List.exists_mem_of_ne_nil l this
    exact ⟨c, (mem_rule_iff hsl c).mp hc⟩

section
local instance : ExpLog ℚ := ⟨id, id⟩
-- after adjusting 51: 4 and 1 are reached, 102 and 101 are not
example : (applySumRules (run demoEd [.set 51 (.arr [6, 7])])).1.adjusted = [51, 4, 1] := by decide +kernel
end

/-! ### C09, C10 -/

/-- If of all parts of a redundant reaction `s` on the file only `p` is reached, the stored values of `s` move by what
`p` moves. -/
theorem sum_moves_with_part (hf : WellFormed file T) (hr : Reachable file T ed)
    (hed' : ed' = (applySumRules ed).1) {s p : MT} (hs : OnFile file s) (hp : OnFile file p) (hsp : Part s p)
    (hrp : Reached file ed.adjusted p)
    (honly : ∀ c, Part s c → OnFile file c → Reached file ed.adjusted c → c = p) :
    ∃ es vs, getEnergy ed' s = .ok (.arr es) ∧ getSigma ed' s none false = .ok (.arr vs) ∧
      List.Forall₂ (fun e v => v - sigmaAt ed' s true e = sigmaAt ed' p false e - sigmaAt ed' p true e) es vs := by
  classical
  have hr' : Reachable file T ed' := by rw [hed']; exact reachable_step hr .sums
  obtain ⟨hi', hk'⟩ := reachable_inv hf hr'
  let parts : Finset MT := (Dict.keys file.reactions).toFinset.filter (Part s)
  have hparts : ∀ c, c ∈ parts ↔ Part s c ∧ OnFile file c := by
    intro c
    simp only [parts, Finset.mem_filter, List.mem_toFinset, onFile_iff]
    exact And.comm
  have hadj : p ∈ ed'.adjusted := by rw [hed']; exact (C08_adjusted_exactly hf hr p).mpr hrp
  obtain ⟨es, vs, h1, h2, h3⟩ := C05_gap_is_kept hf hr hed' hs hp hsp hadj parts hparts
  refine ⟨es, vs, h1, h2, h3.imp ?_⟩
  intro e v hv
  have hone : ∑ c ∈ parts, (sigmaAt ed' c false e - sigmaAt ed' c true e) =
      sigmaAt ed' p false e - sigmaAt ed' p true e := by
    refine Finset.sum_eq_single_of_mem p ((hparts p).mpr ⟨hsp, hp⟩) ?_
    intro c hc hne
    rw [hparts] at hc
    have hna : c ∉ ed'.adjusted := by
      intro h
      rw [hed'] at h
      exact hne (honly c hc.1 hc.2 ((C08_adjusted_exactly hf hr c).mp h))
    have h1018 : c ≠ 1018 := (special_not_key hf (onFile_iff.mp hc.2)).2
    have := sigma_unadjusted_of_comp (hk'.2.2.2 c h1018 hna) (some [e])
    unfold sigmaAt
    rw [this, sub_self]
  rw [Finset.sum_sub_distrib] at hone
  linear_combination hv + hone

theorem part18 {c : MT} (h : Part 18 c) : c = 19 ∨ c = 20 ∨ c = 21 ∨ c = 38 := by
  simp only [Part, Nat.reduceEqDiff, false_and, true_and, false_or, or_false] at h
  exact h

theorem part4 {c : MT} (h : Part 4 c) : 50 ≤ c ∧ c ≤ 91 := by
  simp only [Part, Nat.reduceEqDiff, false_and, true_and, false_or, or_false] at h
  exact h

theorem part_above18 {s c : MT} (h : Part s c) (hc : c = 19 ∨ c = 20 ∨ c = 21 ∨ c = 38) : s = 18 ∨ s = 27 := by
  rcases hc with rfl | rfl | rfl | rfl <;>
    simpa [Part] using h

theorem part_above4 {s c : MT} (h : Part s c) (hc : 50 ≤ c ∧ c ≤ 91) : s = 4 := by
  unfold Part at h
  rcases h with h | h | h | h | h | h | h | h | h | h | h <;> omega

theorem part_above_inter {s c : MT} (h : Part s c) (hc : c = 18 ∨ c = 4) : s = 3 ∨ s = 1 := by
  rcases hc with rfl | rfl <;> simpa [Part] using h

theorem part_above_direct {s c : MT} (h : Part s c) (hc : c = 18 ∨ (103 ≤ c ∧ c ≤ 107)) : s = 3 ∨ s = 1 := by
  unfold Part at h
  rcases h with h | h | h | h | h | h | h | h | h | h | h <;> omega

theorem no_part_top {s c : MT} (hc : c = 1 ∨ c = 3 ∨ c = 27) : ¬ Part s c := by
  intro h
  rcases hc with rfl | rfl | rfl <;> simp [Part] at h

/-- **C09 (partial).** In an editor where one part `c` of the intermediate sum `s` (18 or 4) is adjusted, with `s`
and the total MT 1 on the file: the total moves by what the intermediate sum moves. -/
theorem C09_reaches_total_partial (hf : WellFormed file T) (hr : Reachable file T ed)
    (hed' : ed' = (applySumRules ed).1) {s c : MT} (hs4 : s = 18 ∨ s = 4) (hs : OnFile file s) (hc : OnFile file c)
    (hsc : Part s c) (h1 : OnFile file 1) (hadj : ed.adjusted = [c]) :
    ∃ es vs, getEnergy ed' 1 = .ok (.arr es) ∧ getSigma ed' 1 none false = .ok (.arr vs) ∧
      List.Forall₂ (fun e v => v - sigmaAt ed' 1 true e = sigmaAt ed' s false e - sigmaAt ed' s true e) es vs := by
  have hreach : ∀ m, Reached file ed.adjusted m → m = c ∨ m = s ∨ m = 3 ∨ m = 1 ∨ m = 27 := by
    intro m hm
    induction hm with
    | here h => rw [hadj] at h; left; simpa using h
    | @up s' c' _ _ hp _ ih =>
      rcases ih with rfl | rfl | rfl | rfl | rfl
      · rcases hs4 with rfl | rfl
        · have := part18 hsc
          have := part_above18 hp this
          omega
        · have := part_above4 hp (part4 hsc)
          omega
      · have := part_above_inter hp hs4
        omega
      all_goals exact absurd hp (no_part_top (by simp))
  refine sum_moves_with_part hf hr hed' h1 hs ?_ (.up hs hc hsc (.here (by rw [hadj]; simp))) ?_
  · rcases hs4 with rfl | rfl <;> simp [Part]
  · intro m hm _ hmr
    rcases hreach m hmr with rfl | rfl | rfl | rfl | rfl
    · rcases hs4 with rfl | rfl
      · have := part_above18 hm (part18 hsc)
        omega
      · have := part_above4 hm (part4 hsc)
        omega
    · rfl
    all_goals exact absurd hm (no_part_top (by simp))

/-- **C10 (partial).** In an editor where only the intermediate sum `c` (103 to 107, or 18) is adjusted, the sums MT 3
and MT 1 on the file move by what it moves. -/
theorem C10_direct_adjustment_partial (hf : WellFormed file T) (hr : Reachable file T ed)
    (hed' : ed' = (applySumRules ed).1) {s c : MT} (hc0 : c = 18 ∨ (103 ≤ c ∧ c ≤ 107)) (hs3 : s = 3 ∨ s = 1)
    (hs : OnFile file s) (hc : OnFile file c) (hadj : ed.adjusted = [c]) :
    ∃ es vs, getEnergy ed' s = .ok (.arr es) ∧ getSigma ed' s none false = .ok (.arr vs) ∧
      List.Forall₂ (fun e v => v - sigmaAt ed' s true e = sigmaAt ed' c false e - sigmaAt ed' c true e) es vs := by
  have hreach : ∀ m, Reached file ed.adjusted m → m = c ∨ m = 3 ∨ m = 1 := by
    intro m hm
    induction hm with
    | here h => rw [hadj] at h; left; simpa using h
    | @up s' c' _ _ hp _ ih =>
      rcases ih with rfl | rfl | rfl
      · right; exact part_above_direct hp hc0
      all_goals exact absurd hp (no_part_top (by simp))
  refine sum_moves_with_part hf hr hed' hs hc ?_ (.here (by rw [hadj]; simp)) ?_
  · rcases hs3 with rfl | rfl <;> simp only [Part, Nat.reduceEqDiff, false_and, true_and, false_or, true_or, or_true] <;> omega
  · intro m hm _ hmr
    rcases hreach m hmr with rfl | rfl | rfl
    · rfl
    all_goals exact absurd hm (no_part_top (by simp))

section
local instance : ExpLog ℚ := ⟨id, id⟩

example : (run demoEd [.set 51 (.arr [6, 7])]).adjusted = [51] ∧ Part 4 51 ∧ OnFile demo 1 ∧ OnFile demo 4 ∧
    OnFile demo 51 := by
  refine ⟨by decide +kernel, by unfold Part; omega, ?_, ?_, ?_⟩ <;> simp [OnFile, demo]

example : (run demoEd [.set 103 (.arr [6, 7, 8])]).adjusted = [103] := by decide +kernel

/-- A file without MT 4 and MT 18 but with a part of each. -/
def noInter : Table ℚ :=
  { temperatures := ["300K".toList]
    reactions := [(1, demoRx [1, 2] [10, 10]), (2, demoRx [1, 2] [5, 5]), (19, demoRx [1, 2] [3, 3]),
      (51, demoRx [1, 2] [2, 2])] }

theorem noInter_wf : WellFormed noInter "300K".toList := by
  refine ⟨by decide, ?_, ?_⟩
  · intro r; simp [noInter]
  · intro mt r h
    simp only [noInter, List.mem_cons, Prod.mk.injEq, List.not_mem_nil, or_false] at h
    rcases h with ⟨rfl, rfl⟩ | ⟨rfl, rfl⟩ | ⟨rfl, rfl⟩ | ⟨rfl, rfl⟩ <;>
    exact ⟨_, _, _, rfl, rfl, by simp⟩

/-- **C09 is false**: on a well-formed file without MT 18 and MT 4, adjusting their parts 19 and 51 leaves the total
unchanged. -/
theorem C09_reaches_total_refuted : ∃ (file : Table ℚ) (T : Temp) (ed0 ed : Editor ℚ), WellFormed file T ∧
    init file none = .ok ed0 ∧ ed = run ed0 [.set 19 (.arr [4, 4]), .set 51 (.arr [3, 3]), .sums] ∧
    getSigma ed 19 none false = .ok (.arr [4, 4]) ∧ getSigma ed 51 none false = .ok (.arr [3, 3]) ∧
    getSigma ed0 19 none false = .ok (.arr [3, 3]) ∧ getSigma ed0 51 none false = .ok (.arr [2, 2]) ∧
    getSigma ed 1 none false = getSigma ed0 1 none false := by
  refine ⟨noInter, _, _, _, noInter_wf, rfl, rfl, ?_⟩
  decide +kernel

/-- **C10 is false**: adjusting MT 103 leaves the redundant absorption MT 101 unchanged. -/
theorem C10_direct_adjustment_refuted : ∃ (file : Table ℚ) (T : Temp) (ed0 ed : Editor ℚ), WellFormed file T ∧
    init file none = .ok ed0 ∧ ed = run ed0 [.set 103 (.arr [5, 5, 5]), .sums] ∧
    getSigma ed0 103 none false = .ok (.arr [1, 1, 1]) ∧ getSigma ed 103 none false = .ok (.arr [5, 5, 5]) ∧
    getSigma ed 101 none false = getSigma ed0 101 none false := by
  refine ⟨demo, _, demoEd, _, demo_wf, rfl, rfl, ?_⟩
  decide +kernel

end

/-! ### C11 -/

/-- **C11.** On a well-formed file `apply_sum_rules` succeeds in every reachable state, and afterwards every reaction
on the file still has one value per energy of its grid. -/
theorem C11_never_fails (hf : WellFormed file T) (hr : Reachable file T ed) :
    (applySumRules ed).2 = .ok () ∧ ∀ m, OnFile file m → ∃ es vs,
      getEnergy (applySumRules ed).1 m = .ok (.arr es) ∧
      getSigma (applySumRules ed).1 m none false = .ok (.arr vs) ∧ vs.length = es.length := by
  obtain ⟨hi, _⟩ := reachable_inv hf hr
  obtain ⟨hok, hi', _⟩ := applyRules_frame hf sumRules_ordered hi
  refine ⟨hok, ?_⟩
  intro m hm
  rw [onFile_iff] at hm
  obtain ⟨x, y0, y1, rest, h0, h1, _, hl, _⟩ := hi'.data m hm
  obtain ⟨_, ht, hE⟩ := hi'.tabs hf hm h0 h1
  obtain ⟨hs1, hs2⟩ := special_not_key hf hm
  exact ⟨x, y1, hE, getSigma_full hs1 hs2 ht, hl⟩

section
local instance : ExpLog ℚ := ⟨id, id⟩
example : Reachable demo "300K".toList (run demoEd demoOps) := demo_reachable demoOps
end

/-! ### C14 -/

/-- **C14 (partial).** Without a temperature argument the editor opens a file with one temperature, at it. -/
theorem C14_default_temperature_partial (h : file.temperatures = [T]) :
    ∃ ed, init file none = .ok ed ∧ ed.temperature = T ∧ ed.table = file := by
  refine ⟨_, by unfold init chooseTemperature; simp only [h]; rfl, rfl, rfl⟩

/-- ... and refuses one with several. -/
theorem C14_ambiguous (h : 1 < file.temperatures.length) : init file none = .error .exception := by
  unfold init chooseTemperature
  simp [h]

/-- **C14 is false**: whatever the file, every temperature argument is rejected (the check compares it with its own
characters), except `"K"`, which is always accepted although no file has it. -/
theorem C14_temperature_refuted (file : Table K) (t : List Char) (hne : t ≠ []) :
    (t ≠ ['K'] → init file (some t) = .error .exception) ∧
    ∃ ed, init file (some ['K']) = .ok ed ∧ ed.temperature = ['K'] := by
  refine ⟨?_, ⟨_, by unfold init chooseTemperature; rfl, rfl⟩⟩
  intro hK
  unfold init chooseTemperature
  cases t with
  | nil => exact absurd rfl hne
  | cons c cs =>
    simp only
    have : (if ['K'] <:+ c :: cs then c :: cs else c :: cs ++ ['K']) ∉
        (if ['K'] <:+ c :: cs then c :: cs else c :: cs ++ ['K']).map (fun c => [c]) := by
      intro h
      rw [List.mem_map] at h
      obtain ⟨d, _, hd⟩ := h
      split_ifs at hd with hsuf
      · rw [← hd] at hsuf hK
        obtain ⟨pre, hpre⟩ := hsuf
        cases pre with
        | nil => simp at hpre; exact hK (by rw [← hpre])
        | cons a pre => simp at hpre
      · have := congrArg List.length hd
        simp at this
    rw [if_pos this]

example : ("300K".toList : Temp) ∈ demo.temperatures ∧ ("300K".toList : Temp) ≠ ['K'] := by decide

end ASAPy.Ace
