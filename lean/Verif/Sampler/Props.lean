import Verif.Sampler.Model
import Mathlib.Tactic.Linarith
import Mathlib.Tactic.FieldSimp
import Mathlib.Algebra.Order.Ring.Rat
import Mathlib.Data.Rat.Floor

/-! # C30-C32: the samples handed on -/

set_option linter.unusedSectionVars false

namespace ASAPy.Sampler

variable {K : Type*} [Field K] [LinearOrder K]

/-- The drawn matrix fits the group structure: one value per group in every sample. -/
def Fits (draws : List (List K)) (mean : List K) : Prop := ∀ d ∈ draws, d.length = mean.length

theorem pick_range {α : Type*} (l : List α) (n : Nat) (h : l.length ≤ n) : pick l (List.range n) = l := by
  unfold pick
  induction l generalizing n with
  | nil => simp
  | cons a l ih =>
    obtain ⟨k, rfl⟩ : ∃ k, n = k + 1 := ⟨n - 1, by simp at h; omega⟩
    rw [List.range_succ_eq_map, List.filterMap_cons, List.filterMap_map]
    simp only [List.getElem?_cons_zero, Function.comp_def, List.getElem?_cons_succ]
    rw [ih k (by simpa using h)]

theorem dropna_eq (f : Frame K) (h : ∀ c ∈ f.cols, c.length = f.index.length ∧ ∀ v ∈ c, v.isNan = false) :
    dropna f = f := by
  have hk : (List.range f.index.length).filter (rowKept f.cols) = List.range f.index.length := by
    rw [List.filter_eq_self]
    intro i _
    unfold rowKept
    rw [List.all_eq_true]
    intro c hc
    cases hi : c[i]? with
    | none => rfl
    | some v => simp [(h c hc).2 v (List.mem_of_getElem? hi)]
  unfold dropna
  simp only [hk]
  have h1 := pick_range f.index f.index.length le_rfl
  have h2 : f.cols.map (pick · (List.range f.index.length)) = f.cols := by
    conv_rhs => rw [← List.map_id f.cols]
    apply List.map_congr_left
    intro c hc
    exact pick_range c _ (h c hc).1.le
  rw [h1, h2]

theorem zipWith_ones (d : List K) (n : Nat) (h : d.length = n) :
    List.zipWith Flt.div d (List.replicate n 1) = d.map Flt.fin := by
  subst h
  induction d with
  | nil => rfl
  | cons a d ih => simp [List.replicate_succ, ih]

theorem zipWith_div (d mean : List K) (hm : ∀ m ∈ mean, m ≠ 0) :
    List.zipWith Flt.div d mean = (List.zipWith (· / ·) d mean).map Flt.fin := by
  induction d generalizing mean with
  | nil => simp
  | cons a d ih =>
    cases mean with
    | nil => simp
    | cons m mean =>
      have h0 : m ≠ 0 := hm m (List.mem_cons_self ..)
      simp [Flt.div_of_ne h0, ih mean (fun m h => hm m (List.mem_cons_of_mem _ h))]

/-- What the check does when no value is NaN: the samples without a negative value, in order. -/
theorem sampleCheck_finite (draws : List (List K)) (mean : List K) (hf : Fits draws mean) (rel : List K → List K)
    (hrel : ∀ d ∈ draws, List.zipWith Flt.div d mean = (rel d).map Flt.fin) (removeNeg : Bool) :
    sampleCheck draws mean removeNeg =
      { index := List.range' 1 mean.length
        cols := ((if removeNeg then draws.filter (fun d => decide (∀ v ∈ rel d, 0 ≤ v)) else draws).map rel).map (·.map Flt.fin) } := by
  unfold sampleCheck
  have hmap : draws.map (List.zipWith Flt.div · mean) = (draws.map rel).map (·.map Flt.fin) := by
    rw [List.map_map]
    exact List.map_congr_left hrel
  cases removeNeg with
  | false => simp only [hmap]; rfl
  | true =>
    simp only [hmap, if_true]
    have hfil : ((draws.map rel).map (·.map Flt.fin)).filter (fun c => c.all fun v => !v.isNeg) =
        ((draws.filter (fun d => decide (∀ v ∈ rel d, 0 ≤ v))).map rel).map (·.map Flt.fin) := by
      rw [List.map_map, List.filter_map, List.map_map]
      congr 1
      apply List.filter_congr
      intro d _
      simp [Function.comp, Flt.isNeg, List.all_eq]
    rw [hfil]
    apply dropna_eq
    intro c hc
    obtain ⟨c', hc', rfl⟩ := List.mem_map.mp hc
    obtain ⟨d, hd, rfl⟩ := List.mem_map.mp hc'
    have hd := (List.mem_filter.mp hd).1
    refine ⟨?_, ?_⟩
    · have h1 := congrArg List.length (hrel d hd)
      simp only [List.length_zipWith, List.length_map, hf d hd, min_self] at h1
      simp [← h1]
    · intro v hv
      obtain ⟨x, _, rfl⟩ := List.mem_map.mp hv
      rfl

/-- **C30.** Asking for the sampled values themselves: with `remove_neg` the samples are exactly the drawn ones without
a negative value, in the order drawn (numbered by their position), one value per group; without it they are all drawn
ones. (`raise_on_bad_sample` off.) -/
theorem C30_full_values (draws : List (List K)) (mean : List K) (hf : Fits draws mean) (n : Nat) (removeNeg : Bool) :
    sample draws mean n false removeNeg false false = .ok
      { index := List.range' 1 mean.length
        cols := (if removeNeg then draws.filter (fun d => decide (∀ v ∈ d, 0 ≤ v)) else draws).map (·.map Flt.fin) } := by
  unfold sample
  have h := sampleCheck_finite draws (List.replicate mean.length 1) (by intro d hd; simp [hf d hd]) id
    (fun d hd => zipWith_ones d _ (hf d hd)) removeNeg
  simp only [List.length_replicate, List.map_id, id] at h
  simp [h]

/-- **C30 (partial).** The same for relative samples when all means are positive: a sample is negative relative to the
mean exactly when it is negative. Missing: zero means, see `C30_zero_mean_refuted`. -/
theorem C30_relative_partial [IsStrictOrderedRing K] (draws : List (List K)) (mean : List K) (hf : Fits draws mean) (hpos : ∀ m ∈ mean, 0 < m) (n : Nat)
    (removeNeg : Bool) :
    sample draws mean n false removeNeg true false = .ok
      { index := List.range' 1 mean.length
        cols := (if removeNeg then draws.filter (fun d => decide (∀ v ∈ d, 0 ≤ v)) else draws).map
          (fun d => (List.zipWith (· / ·) d mean).map Flt.fin) } := by
  unfold sample
  have h := sampleCheck_finite draws mean hf (fun d => List.zipWith (· / ·) d mean)
    (fun d _ => zipWith_div d mean (fun m hm => (hpos m hm).ne')) removeNeg
  have hneg : ∀ (d mean : List K), d.length = mean.length → (∀ m ∈ mean, 0 < m) →
      ((∀ v ∈ List.zipWith (· / ·) d mean, 0 ≤ v) ↔ ∀ v ∈ d, 0 ≤ v) := by
    intro d
    induction d with
    | nil => simp
    | cons a d ih =>
      intro mean hl hp
      cases mean with
      | nil => simp at hl
      | cons m mean =>
        have hm := hp m (List.mem_cons_self ..)
        have := ih mean (by simpa using hl) (fun m h => hp m (List.mem_cons_of_mem _ h))
        simp only [List.zipWith_cons_cons, List.forall_mem_cons, this, div_nonneg_iff]
        constructor
        · rintro ⟨h | h, h2⟩
          · exact ⟨h.1, h2⟩
          · exact absurd h.2 (not_le.mpr hm)
        · rintro ⟨h, h2⟩; exact ⟨Or.inl ⟨h, hm.le⟩, h2⟩
  have hfil : draws.filter (fun d => decide (∀ v ∈ List.zipWith (· / ·) d mean, 0 ≤ v)) =
      draws.filter (fun d => decide (∀ v ∈ d, 0 ≤ v)) := by
    apply List.filter_congr
    intro d hd
    rw [decide_eq_decide]
    exact hneg d mean (hf d hd) hpos
  rw [hfil] at h
  simp only [if_true, h]
  simp [List.map_map, Function.comp]

example : Fits [[(1 : ℚ), 2], [-1, 3], [0, 1]] [2, 4] ∧ (∀ m ∈ [(2 : ℚ), 4], 0 < m) ∧
    sample [[(1 : ℚ), 2], [-1, 3], [0, 1]] [2, 4] 3 false true true false =
      .ok ⟨[1, 2], [[.fin (1/2), .fin (1/2)], [.fin 0, .fin (1/4)]]⟩ := by
  refine ⟨?_, ?_, ?_⟩
  · unfold Fits; decide
  · decide
  · decide +kernel

/-- **C30 is false for zero means**: relative samples lose the group (all values of group 1 are gone), even though no
value is negative. -/
theorem C30_zero_mean_refuted :
    sample [[(0 : ℚ), 2], [0, 3]] [0, 4] 2 false true true false =
      .ok ⟨[2], [[.fin (1/2)], [.fin (3/4)]]⟩ := by decide +kernel

/-! ### C31 -/

/-- **C31 (partial).** The number of samples delivered is the number of drawn samples without a negative value; so it
is the number drawn when there is none. Missing: the oversampling number has no influence at all. -/
theorem C31_delivered_partial (draws : List (List K)) (mean : List K) (hf : Fits draws mean) (n m : Nat) :
    ∃ rel full, sampleXsec draws mean n m true false = .ok (rel, full) ∧
      full.cols.length = (draws.filter (fun d => decide (∀ v ∈ d, 0 ≤ v))).length ∧
      rel.cols.length = full.cols.length ∧
      ((∀ d ∈ draws, ∀ v ∈ d, 0 ≤ v) → rel.cols.length = draws.length) := by
  unfold sampleXsec
  rw [C30_full_values draws mean hf n true]
  refine ⟨_, _, rfl, by simp, by simp [sampleCheck], ?_⟩
  intro hall
  have : draws.filter (fun d => decide (∀ v ∈ d, 0 ≤ v)) = draws := by
    rw [List.filter_eq_self]
    intro d hd
    simpa using hall d hd
  simp [sampleCheck, this]

example : Fits [[(1 : ℚ), 2], [0, 1]] [2, 4] ∧ ∀ d ∈ [[(1 : ℚ), 2], [0, 1]], ∀ v ∈ d, 0 ≤ v :=
  ⟨by unfold Fits; decide, by decide⟩

/-- **C31, the check.** When asked to raise on bad samples, the function raises exactly when fewer non-negative samples than requested were
drawn. -/
theorem C31_raises (draws : List (List K)) (mean : List K) (hf : Fits draws mean) (n m : Nat) :
    (∃ e, sampleXsec draws mean n m true true = .error e) ↔
      (draws.filter (fun d => decide (∀ v ∈ d, 0 ≤ v))).length < n := by
  have h := C30_full_values draws mean hf n true
  unfold sample at h
  simp only [Bool.false_eq_true, and_false, if_false, Except.ok.injEq] at h
  unfold sampleXsec sample
  simp only [Bool.false_eq_true, if_false, and_true]
  rw [h]
  split_ifs with h1
  all_goals simp_all

/-- **C31 is false**: two samples are asked for, with oversampling to any number `m`; one is delivered for one reaction
and two for another. -/
theorem C31_delivered_refuted (m : Nat) :
    ∃ rel full rel' full',
      sampleXsec [[(1 : ℚ)], [-1]] [1] 2 m true false = .ok (rel, full) ∧ rel.cols.length = 1 ∧
      sampleXsec [[(1 : ℚ)], [1]] [1] 2 m true false = .ok (rel', full') ∧ rel'.cols.length = 2 := by
  refine ⟨⟨[1], [[.fin 1]]⟩, ⟨[1], [[.fin 1]]⟩, ⟨[1], [[.fin 1], [.fin 1]]⟩, ⟨[1], [[.fin 1], [.fin 1]]⟩, ?_, rfl, ?_, rfl⟩
  · have h : sampleXsec [[(1 : ℚ)], [-1]] [1] 2 0 true false = .ok (⟨[1], [[.fin 1]]⟩, ⟨[1], [[.fin 1]]⟩) := by decide +kernel
    exact h
  · have h : sampleXsec [[(1 : ℚ)], [1]] [1] 2 0 true false =
        .ok (⟨[1], [[.fin 1], [.fin 1]]⟩, ⟨[1], [[.fin 1], [.fin 1]]⟩) := by decide +kernel
    exact h

/-! ### C32 -/

/-- **C32 (partial).** For every sample and group: with a non-zero mean the relative value times the mean is the full
value; with zero mean and zero value the relative value is that zero. Missing: zero mean and a non-zero value. -/
theorem C32_relative_times_mean_partial (draws : List (List K)) (mean : List K) (hf : Fits draws mean) (n m : Nat)
    (removeNeg : Bool) :
    ∃ rel full, sampleXsec draws mean n m removeNeg false = .ok (rel, full) ∧ rel.index = full.index ∧
      rel.cols.length = full.cols.length ∧
      ∀ (k i : Nat) (rc fc : List (Flt K)) (r f : Flt K) (mu : K), rel.cols[k]? = some rc → full.cols[k]? = some fc →
        rc[i]? = some r → fc[i]? = some f → mean[i]? = some mu →
        (mu ≠ 0 → ∃ x y, r = .fin x ∧ f = .fin y ∧ x * mu = y) ∧ (mu = 0 → f = .fin 0 → r = .fin 0) := by
  unfold sampleXsec
  rw [C30_full_values draws mean hf n removeNeg]
  refine ⟨_, _, rfl, rfl, by simp [sampleCheck], ?_⟩
  intro k i rc fc r f mu hrc hfc hr hf' hmu
  generalize hds : (if removeNeg = true then draws.filter (fun d => decide (∀ v ∈ d, 0 ≤ v)) else draws) = ds at hrc hfc
  simp only [List.getElem?_map, Option.map_eq_some_iff] at hfc
  obtain ⟨d, hd, rfl⟩ := hfc
  simp only [List.getElem?_map, Option.map_eq_some_iff] at hf'
  obtain ⟨y, hy, rfl⟩ := hf'
  simp only [sampleCheck, List.map_map, Bool.false_eq_true, if_false, List.getElem?_zipWith, List.getElem?_map, hd,
    Option.map_some, Function.comp, Option.some.injEq] at hrc
  subst hrc
  simp only [List.getElem?_zipWith, List.getElem?_map, hy, Option.map_some, hmu, Option.some.injEq] at hr
  subst hr
  constructor
  · intro h0
    refine ⟨y / mu, y, ?_, rfl, by field_simp⟩
    simp [Flt.div_of_ne h0, Flt.isNan, finite]
  · intro h0 hy0
    simp only [Flt.fin.injEq] at hy0
    subst h0; subst hy0
    simp [Flt.div, Flt.isNan, finite]

example : sampleXsec [[(3 : ℚ), 0]] [2, 0] 1 1 true false =
    .ok (⟨[1, 2], [[.fin (3/2), .fin 0]]⟩, ⟨[1, 2], [[.fin 3, .fin 0]]⟩) := by decide +kernel

/-- **C32 is false for zero means**: any non-zero value sampled in a group with zero mean gets an infinite relative
value. -/
theorem C32_zero_mean_refuted {v : K} (hv : 0 < v) :
    sampleXsec [[v]] [0] 1 1 true false = .ok (⟨[1], [[.pinf]]⟩, ⟨[1], [[.fin v]]⟩) := by
  unfold sampleXsec
  rw [C30_full_values [[v]] [0] (by intro d hd; simp at hd; subst hd; rfl) 1 true]
  have : ([[v]] : List (List K)).filter (fun d => decide (∀ v ∈ d, 0 ≤ v)) = [[v]] := by
    simp [hv.le]
  simp [this, sampleCheck, finite, Flt.div, hv, hv.ne', Flt.isNan]

end ASAPy.Sampler
