import Verif.Sampler.Props

/-! # C219: options for negative samples (ASAPy/XsecSampler.py 166-200) -/

namespace ASAPy.Sampler

variable {K : Type*} [Field K] [LinearOrder K]

/-- What is returned for a drawn sample: the values, or their ratios to the means. -/
def asked (relative : Bool) (mean d : List K) : List K := if relative then List.zipWith (· / ·) d mean else d

theorem check_eq (draws : List (List K)) (mean : List K) (hf : Fits draws mean) (relative : Bool) (hm : relative = true → ∀ m ∈ mean, m ≠ 0) (removeNeg : Bool) :
    sampleCheck draws (if relative then mean else List.replicate mean.length 1) removeNeg =
      { index := List.range' 1 mean.length
        cols := ((if removeNeg then draws.filter (fun d => decide (∀ v ∈ asked relative mean d, 0 ≤ v)) else draws).map (asked relative mean)).map (·.map Flt.fin) } := by
  cases relative with
  | true => exact sampleCheck_finite draws mean hf _ (fun d _ => by simpa [asked] using zipWith_div d mean (hm rfl)) removeNeg
  | false =>
    have := sampleCheck_finite draws (List.replicate mean.length 1) (by intro d hd; simp [hf d hd]) (asked false mean) (fun d hd => by simpa [asked] using zipWith_ones d _ (hf d hd)) removeNeg
    simpa using this

/-- **C219, set_neg_to_zero.** Where negative samples are not removed, every drawn sample is returned, in order, with 0 in place of each negative value and all others as they are; asked for ratios, if no mean is zero. -/
theorem C219_set_to_zero (draws : List (List K)) (mean : List K) (hf : Fits draws mean) (n : Nat) (relative : Bool) (hm : relative = true → ∀ m ∈ mean, m ≠ 0) :
    sample draws mean n false false relative true = .ok
      { index := List.range' 1 mean.length
        cols := draws.map fun d => (asked relative mean d).map fun v => Flt.fin (max 0 v) } := by
  unfold sample
  dsimp only
  rw [check_eq draws mean hf relative hm false]
  simp only [negToZero, Bool.false_eq_true, if_false, and_false, if_true, List.map_map, Function.comp_def]
  congr 2
  refine List.map_congr_left fun d _ => ?_
  refine List.map_congr_left fun v _ => ?_
  simp only [Flt.isNeg, decide_eq_true_eq]
  split_ifs with h
  · rw [max_eq_left h.le]
  · rw [max_eq_right (not_lt.1 h)]

theorem negToZero_of {f : Frame K} (h : ∀ c ∈ f.cols, ∀ v ∈ c, v.isNeg = false) : negToZero f = f := by
  unfold negToZero
  have : (f.cols.map fun c => c.map fun v => if v.isNeg then Flt.fin 0 else v) = f.cols := by
    refine (List.map_congr_left fun c hc => ?_).trans (List.map_id f.cols)
    refine (List.map_congr_left fun v hv => ?_).trans (List.map_id c)
    rw [h c hc v hv]; rfl
  rw [this]

/-- **C219.** Where they are removed, which is the default, set_neg_to_zero changes nothing, whatever was drawn. -/
theorem C219_no_effect (draws : List (List K)) (mean : List K) (n : Nat) (raiseOnBad relative : Bool) :
    sample draws mean n raiseOnBad true relative true = sample draws mean n raiseOnBad true relative false := by
  unfold sample
  simp only [if_true, Bool.false_eq_true, if_false]
  rw [negToZero_of]
  intro c hc v hv
  simp only [sampleCheck, if_true, dropna] at hc
  obtain ⟨c', hc', rfl⟩ := List.mem_map.1 hc
  have h1 := (List.mem_filter.1 hc').2
  obtain ⟨i, _, hi⟩ := List.mem_filterMap.1 hv
  simpa using List.all_eq_true.1 h1 v (List.mem_of_getElem? hi)

/-- **C219, raise_on_bad_sample.** Where negative samples are removed the call raises exactly when fewer than `n` samples without a negative value were drawn (asked for ratios: if no mean is zero). -/
theorem C219_raises (draws : List (List K)) (mean : List K) (hf : Fits draws mean) (n : Nat) (relative setNegToZero : Bool) (hm : relative = true → ∀ m ∈ mean, m ≠ 0) :
    sample draws mean n true true relative setNegToZero = .error .exception ↔ (draws.filter fun d => decide (∀ v ∈ asked relative mean d, 0 ≤ v)).length < n := by
  have key : sample draws mean n true true relative setNegToZero = sample draws mean n true true relative false := by
    cases setNegToZero
    · rfl
    · exact C219_no_effect draws mean n true relative
  rw [key]
  unfold sample
  dsimp only
  rw [check_eq draws mean hf relative hm true]
  simp only [if_true, Bool.false_eq_true, if_false, List.length_map, and_true]
  split_ifs with h
  · simp [h]
  · simp [h]

/-- **C219, what does not hold:** where negative samples are not removed the call never raises because of them, although raise_on_bad_sample is documented to raise if a negative sample is found. -/
theorem C219_raise_refuted (draws : List (List K)) (mean : List K) (n : Nat) (relative setNegToZero : Bool) (hn : n ≤ draws.length) :
    ∃ f, sample draws mean n true false relative setNegToZero = .ok f ∧ f.cols.length = draws.length := by
  unfold sample
  have : (if setNegToZero = true then negToZero (sampleCheck draws (if relative = true then mean else List.replicate mean.length 1) false)
      else sampleCheck draws (if relative = true then mean else List.replicate mean.length 1) false).cols.length = draws.length := by
    cases setNegToZero <;> simp [sampleCheck, negToZero]
  refine ⟨_, if_neg ?_, this⟩
  rw [this]
  omega

/-- **C219, what does not hold:** a value drawn where the mean is zero is not made finite: a positive one is infinite, and zero is not a number. -/
theorem C219_zero_mean_refuted : sample [[(2 : ℚ), -1], [0, 3], [-1, 4]] [0, 2] 3 false false true true =
    .ok ⟨[1, 2], [[.pinf, .fin 0], [.nan, .fin (3 / 2)], [.fin 0, .fin 2]]⟩ := by decide +kernel

example : Fits [[(1 : ℚ), 2], [-1, 3]] [2, 4] ∧ (∀ m ∈ [(2 : ℚ), 4], m ≠ 0) ∧
    sample [[(1 : ℚ), 2], [-1, 3]] [2, 4] 2 false false true true = .ok ⟨[1, 2], [[.fin (1/2), .fin (1/2)], [.fin 0, .fin (3/4)]]⟩ ∧
    sample [[(1 : ℚ), 2], [-1, 3]] [2, 4] 2 true true true true = .error .exception := by
  refine ⟨?_, ?_, ?_, ?_⟩
  · unfold Fits; decide
  · decide
  · decide +kernel
  · decide +kernel

end ASAPy.Sampler
