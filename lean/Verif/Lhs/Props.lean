import Verif.Lhs.Model
import Verif.Lhs.Spec
import Verif.SampleCorr.Props
import Verif.SampleCorr.DistProps
import Verif.Sampler.Props
import Verif.Run.Props
import Verif.Tab1D.RealExpLog
import Mathlib.Probability.CDF
import Mathlib.MeasureTheory.Measure.Stieltjes
import Mathlib.Topology.Order.IntermediateValue

/-! # Stratified samples (C106) and the sample types (C107) -/

set_option linter.unusedSectionVars false

namespace ASAPy.Lhs
open SampleCorr (Distro Shape Drawn Sampled)

/-! ### One variable -/

theorem latin_length {n : Nat} {l : List ℝ} (h : Latin n l) : l.length = n := by
  obtain ⟨u, _, hp⟩ := h
  simp [hp.length_eq]

theorem latin_mem {n : Nat} {l : List ℝ} (h : Latin n l) : ∀ p ∈ l, 0 < p ∧ p < 1 := by
  obtain ⟨u, hu, hp⟩ := h
  intro p hpl
  obtain ⟨j, hj, rfl⟩ := List.mem_map.mp (hp.mem_iff.mp hpl)
  have hjn : j < n := List.mem_range.mp hj
  have hn : (0 : ℝ) < n := by exact_mod_cast (by omega : 0 < n)
  have h1 : (j : ℝ) + 1 ≤ n := by exact_mod_cast hjn
  have := hu j
  have hj0 : (0 : ℝ) ≤ j := Nat.cast_nonneg j
  exact ⟨div_pos (by linarith) hn, (div_lt_one hn).mpr (by linarith)⟩

/-- A function whose distribution function undoes it maps Latin numbers to stratified values. -/
theorem stratified_map {n : Nat} {l : List ℝ} (h : Latin n l) {F f : ℝ → ℝ} (hF : ∀ p, 0 < p → p < 1 → F (f p) = p) {c : List ℝ} (hc : c.Perm (l.map f)) : Stratified n F c := by
  classical
  intro j hj
  have hmem := latin_mem h
  obtain ⟨u, hu, hp⟩ := h
  have hn : (0 : ℝ) < n := by exact_mod_cast (by omega : 0 < n)
  rw [(hc.filter _).length_eq, List.filter_map, List.length_map]
  have h1 : (l.filter ((fun v => decide ((j : ℝ) / n ≤ F v ∧ F v < ((j : ℝ) + 1) / n)) ∘ f)) = l.filter fun p => decide ((j : ℝ) / n ≤ p ∧ p < ((j : ℝ) + 1) / n) := by
    apply List.filter_congr
    intro p hpl
    simp only [Function.comp, hF p (hmem p hpl).1 (hmem p hpl).2]
  rw [h1, (hp.filter _).length_eq, List.filter_map, List.length_map]
  have h2 : ((List.range n).filter ((fun p => decide ((j : ℝ) / n ≤ p ∧ p < ((j : ℝ) + 1) / n)) ∘ fun j : Nat => ((j : ℝ) + u j) / n)) = (List.range n).filter fun i => decide (i = j) := by
    apply List.filter_congr
    intro i _
    simp only [Function.comp, decide_eq_decide]
    rw [div_le_div_iff_of_pos_right hn, div_lt_div_iff_of_pos_right hn]
    have := hu i
    constructor
    · rintro ⟨a, b⟩
      have h3 : (j : ℝ) < (i : ℝ) + 1 := by linarith
      have h4 : (i : ℝ) < (j : ℝ) + 1 := by linarith
      have h3' : j < i + 1 := by exact_mod_cast h3
      have h4' : i < j + 1 := by exact_mod_cast h4
      omega
    · rintro rfl
      constructor <;> linarith
  rw [h2, ← List.countP_eq_length_filter]
  have : List.countP (fun i => decide (i = j)) (List.range n) = List.count j (List.range n) := by
    rw [List.count]
    apply List.countP_congr
    intro i _
    simp
  rw [this, List.count_eq_one_of_mem List.nodup_range (List.mem_range.mpr hj)]

/-- The distribution function undoes what is computed from the uniform numbers. -/
theorem cdf_value {Φ q : ℝ → ℝ} (hq : ∀ p, 0 < p → p < 1 → Φ (q p) = p) {d : Distro} (hd : d ≠ .other) {m s : ℝ} (hs : 0 < s) {F : ℝ → ℝ} (hF : IsCdf Φ d m s F)
    {p : ℝ} (h0 : 0 < p) (h1 : p < 1) : F (SampleCorr.value q d m s p) = p := by
  cases d with
  | other => exact absurd rfl hd
  | normal =>
    rw [hF, SampleCorr.value, add_sub_cancel_left, mul_div_cancel_left₀ _ hs.ne', hq p h0 h1]
  | uniform =>
    have := mul_pos hs h0
    have h2 : s * p ≤ s := by nlinarith
    simp only [SampleCorr.value]
    rw [hF _ (by linarith) (by linarith), add_sub_cancel_left, mul_div_cancel_left₀ _ hs.ne']
  | lognormal =>
    obtain ⟨μ, σ, hσ, hm, hv, hF⟩ := hF
    have hm0 : 0 < m := by rw [← hm]; exact Real.exp_pos _
    have hsq : s ^ 2 = (Real.exp (σ ^ 2) - 1) * m ^ 2 := by
      rw [← hv, ← hm, ← Real.exp_nat_mul]
      congr 2
      push_cast
      ring
    have hr : 1 + s ^ 2 / m ^ 2 = Real.exp (σ ^ 2) := by
      rw [hsq, mul_div_assoc, div_self (by positivity)]
      ring
    have hsig : SampleCorr.logSigma m s = σ := by
      rw [SampleCorr.logSigma, hr, Real.log_exp, Real.sqrt_sq hσ.le]
    have hmu : SampleCorr.logMean m s = μ := by
      rw [SampleCorr.logMean, hr, ← hm]
      have : Real.sqrt (Real.exp (σ ^ 2)) = Real.exp (σ ^ 2 / 2) := by
        rw [← SampleCorr.exp_half_log (Real.exp_pos _), Real.log_exp]
      rw [this, ← Real.exp_sub, Real.log_exp]
      ring
    simp only [SampleCorr.value, hsig, hmu]
    rw [hF _ (Real.exp_pos _), Real.log_exp, add_sub_cancel_left, mul_div_cancel_left₀ _ hσ.ne', hq p h0 h1]

/-! ### C106 -/

/-- **C106.** Every column of `sample_with_corr` that is sampled has exactly one value in each of the intervals of equal probability of its distribution, whatever the correlation matrix. -/
theorem C106_stratified {Φ q : ℝ → ℝ} (hq : ∀ p, 0 < p → p < 1 → Φ (q p) = p) {scores : List ℝ → List ℝ → List (List ℝ) → Except PyErr (List (List ℝ))} {lhs : Nat → List ℝ}
    {mean std : List ℝ} {corr : List (List ℝ)} {num : Nat} {d : Distro} {out : List (List ℝ)} (hl : ∀ v, Latin num (lhs v))
    (hsc : ∀ mean std corr N, scores mean std corr = .ok N → N.length = mean.length ∧ ∀ c ∈ N, c.length = num) (sh : Shape mean std corr) (hd : d ≠ .other)
    (h : SampleCorr.sample scores (draw q lhs d) mean std corr num d = .ok out) (i : Nat) (hi : i < mean.length) (hS : Sampled mean std corr d i) {F : ℝ → ℝ}
    (hF : IsCdf Φ d mean[i] (std[i]'(by rw [sh.std]; exact hi)) F) : ∃ c, out[i]? = some c ∧ Stratified num F c := by
  classical
  have hdr : Drawn scores (draw q lhs d) num := ⟨hsc, fun v m s => by simp [draw, latin_length (hl v)]⟩
  obtain ⟨_, _, hcol⟩ := SampleCorr.C43_result sh hdr h
  obtain ⟨c, hc, hp⟩ := (hcol i hi).2 hS
  refine ⟨c, hc, stratified_map (hl _) (fun p h0 h1 => cdf_value hq hd ?_ hF h0 h1) hp⟩
  have h1 := hS.1
  unfold SampleCorr.Fixed at h1
  push Not at h1
  have h2 := h1.1 _ (List.getElem?_eq_getElem (by rw [sh.std]; exact hi))
  have : (0 : ℝ) < 1 / 10 ^ 30 := by positivity
  linarith

/-- **C106.** So has every column of `lhs_normal_sample`. -/
theorem C106_normal {Φ q : ℝ → ℝ} (hq : ∀ p, 0 < p → p < 1 → Φ (q p) = p) {lhs : Nat → List ℝ} {means std : List ℝ} {num : Nat} {out : List (List ℝ)} (hl : ∀ v, Latin num (lhs v))
    (h : lhsNormal q lhs means std = .ok out) : out.length = means.length ∧ ∀ (i : Nat) (m s : ℝ), means[i]? = some m → std[i]? = some s → 0 < s →
      ∃ c, out[i]? = some c ∧ Stratified num (fun x => Φ ((x - m) / s)) c := by
  have hgen : ∀ (l : List (ℝ × Nat)) (o : List (List ℝ)), (l.mapM fun p => match std[p.2]? with
      | some s => (Except.ok ((lhs p.2).map fun u => p.1 + s * q u) : Except PyErr (List ℝ))
      | none => .error .indexError) = .ok o → List.Forall₂ (fun p c => ∃ s, std[p.2]? = some s ∧ c = (lhs p.2).map fun u => p.1 + s * q u) l o := by
    intro l
    induction l with
    | nil => intro o ho; simp [pure, Except.pure] at ho; subst ho; exact .nil
    | cons p l ih =>
      intro o ho
      rw [List.mapM_cons] at ho
      cases hs : std[p.2]? with
      | none => simp [hs, bind, Except.bind] at ho
      | some s =>
        simp only [hs, bind, Except.bind] at ho
        split at ho
        · cases ho
        · rename_i rest hrest
          simp only [pure, Except.pure, Except.ok.injEq] at ho
          subst ho
          exact .cons ⟨s, hs, rfl⟩ (ih _ hrest)
  have hf := hgen _ _ h
  refine ⟨by simpa using hf.length_eq.symm, ?_⟩
  intro i m s hm hs hs0
  have hi : i < means.length := (List.getElem?_eq_some_iff.mp hm).1
  have hio : i < out.length := by rw [← hf.length_eq]; simpa using hi
  obtain ⟨s', hs', hc⟩ := List.forall₂_iff_get.mp hf |>.2 i (by simpa using hi) hio
  have hm' : means[i] = m := by rw [List.getElem?_eq_getElem hi] at hm; exact Option.some.inj hm
  simp only [List.get_eq_getElem, List.getElem_zipIdx, Nat.zero_add] at hs' hc
  rw [hs] at hs'
  cases hs'
  refine ⟨out[i], List.getElem?_eq_getElem hio, ?_⟩
  refine stratified_map (hl i) (f := fun u => m + s * q u) (fun p h0 h1 => ?_) (by rw [hc, hm'])
  simp only [add_sub_cancel_left, mul_div_cancel_left₀ _ hs0.ne', hq p h0 h1]

/-! ### C107 -/

theorem identity_shape (mean std : List ℝ) (h : std.length = mean.length) : Shape mean std (identity mean.length) where
  std := h
  rows := by simp [identity]
  cols := by
    intro r hr
    simp only [identity, List.mem_map] at hr
    obtain ⟨i, _, rfl⟩ := hr
    simp

/-- With the identity a variable is sampled exactly if it is not fixed. -/
theorem identity_sampled (mean std : List ℝ) (d : Distro) {i : Nat} (hi : i < mean.length) : Sampled mean std (identity mean.length) d i ↔ ¬ SampleCorr.Fixed mean std d i := by
  unfold Sampled
  constructor
  · exact fun h => h.1
  · intro h
    refine ⟨h, fun hn => ?_⟩
    simp [SampleCorr.NoData, identity, hi] at hn

/-- The types a user can give. -/
def types : List (List Char) := ["normal".toList, "lognormal".toList, "uncorrelated".toList, "uniform".toList, "loguncorrelated".toList]

/-- What is asked of the matrix of scores: a column per variable, an entry per sample. -/
def ScoresShape (scores : Distro → List ℝ → List ℝ → List (List ℝ) → Except PyErr (List (List ℝ))) (num : Nat) : Prop :=
  ∀ d mean std corr N, scores d mean std corr = .ok N → N.length = mean.length ∧ ∀ c ∈ N, c.length = num

section
variable {scores : Distro → List ℝ → List ℝ → List (List ℝ) → Except PyErr (List (List ℝ))} {q : ℝ → ℝ} {lhs : Nat → List ℝ} {mean std : List ℝ} {corr : List (List ℝ)} {num : Nat}

/-- **C107.** Any other sample type is refused. -/
theorem C107_unknown {t : List Char} (h : lower t ∉ types) : sampleXsec scores q lhs t mean std corr num = fun _ _ _ => .error .exception := by
  simp only [types, List.mem_cons, List.not_mem_nil, or_false, not_or] at h
  obtain ⟨h1, h2, h3, h4, h5⟩ := h
  funext make r b
  simp only [sampleXsec, draws, kind, if_neg h1, if_neg h2, if_neg h3, if_neg h4, if_neg h5]

/-- **C107.** Upper and lower case make no difference. -/
theorem C107_case {t t' : List Char} (h : lower t = lower t') : sampleXsec scores q lhs t mean std corr num = sampleXsec scores q lhs t' mean std corr num := by
  funext make r b
  simp only [sampleXsec, draws, kind, h]

/-- **C107.** The uncorrelated types sample as the others do with the identity for the correlation matrix, and so do not depend on the correlations stored. -/
theorem C107_uncorrelated : ∃ one, IsIdentity mean.length one ∧
    sampleXsec scores q lhs "uncorrelated".toList mean std corr num = sampleXsec scores q lhs "normal".toList mean std one num ∧
    sampleXsec scores q lhs "loguncorrelated".toList mean std corr num = sampleXsec scores q lhs "lognormal".toList mean std one num := by
  have k1 : kind "uncorrelated".toList mean.length corr = kind "normal".toList mean.length (identity mean.length) := by
    unfold kind
    rw [if_neg (by decide), if_neg (by decide), if_pos (by decide), if_pos (by decide)]
  have k2 : kind "loguncorrelated".toList mean.length corr = kind "lognormal".toList mean.length (identity mean.length) := by
    unfold kind
    rw [if_neg (by decide), if_neg (by decide), if_neg (by decide), if_neg (by decide), if_pos (by decide), if_neg (by decide), if_pos (by decide)]
  refine ⟨identity mean.length, ⟨by simp [identity], ?_, ?_⟩, ?_, ?_⟩
  · intro r hr
    simp only [identity, List.mem_map] at hr
    obtain ⟨i, -, rfl⟩ := hr
    simp
  · intro i j r v hr hv
    simp only [identity, List.getElem?_map, Option.map_eq_some_iff, List.getElem?_eq_some_iff, List.getElem_range] at hr
    obtain ⟨i', ⟨-, rfl⟩, rfl⟩ := hr
    simp only [List.getElem?_map, Option.map_eq_some_iff, List.getElem?_eq_some_iff, List.getElem_range] at hv
    obtain ⟨j', ⟨-, rfl⟩, rfl⟩ := hv
    exact ⟨fun h => if_pos h, fun h => if_neg h⟩
  · funext make r b
    unfold sampleXsec draws
    rw [k1]
  · funext make r b
    unfold sampleXsec draws
    rw [k2]

/-- The draws of a type, from the model of `sample_with_corr`. -/
theorem draws_spec {t : List Char} (sh : Shape mean std corr) {ds : List (List ℝ)} (h : draws scores q lhs t mean std corr num = .ok ds) :
    ∃ d c out, kind t mean.length corr = .ok (d, c) ∧ Shape mean std c ∧ d ≠ .other ∧ SampleCorr.sample (scores d) (draw q lhs d) mean std c num d = .ok out ∧ ds = rows num out := by
  unfold draws at h
  cases hk : kind t mean.length corr with
  | error e => simp [hk] at h
  | ok dc =>
    obtain ⟨d, c⟩ := dc
    simp only [hk] at h
    have hsd : Shape mean std c ∧ d ≠ .other := by
      unfold kind at hk
      split_ifs at hk
      all_goals
        simp only [Except.ok.injEq, Prod.mk.injEq] at hk
        obtain ⟨rfl, rfl⟩ := hk
        first
          | exact ⟨sh, by decide⟩
          | exact ⟨identity_shape mean std sh.std, by decide⟩
    cases ho : SampleCorr.sample (scores d) (draw q lhs d) mean std c num d with
    | error e => simp [ho, Except.map] at h
    | ok out =>
      simp only [ho, Except.map, Except.ok.injEq] at h
      exact ⟨d, c, out, rfl, hsd.1, hsd.2, ho, h.symm⟩

theorem rows_fits {out : List (List ℝ)} (h : out.length = mean.length) : Sampler.Fits (rows num out) mean := by
  intro r hr
  simp only [rows, List.mem_map] at hr
  obtain ⟨k, _, rfl⟩ := hr
  simpa using h

/-- **C107.** The types with positive values (lognormal, with or without correlation, and uniform) deliver exactly as many samples as asked for, if no mean is negative: no sample is removed and
no call fails for that reason, and no value is negative. -/
theorem C107_delivered_partial {t : List Char} (ht : lower t = "lognormal".toList ∨ lower t = "loguncorrelated".toList ∨ lower t = "uniform".toList) (sh : Shape mean std corr)
    (hsc : ScoresShape scores num) (hl : ∀ v, Latin num (lhs v)) (hm : ∀ m ∈ mean, 0 ≤ m) {ds : List (List ℝ)} (h : draws scores q lhs t mean std corr num = .ok ds) (make : Nat) :
    (∀ raise, ∃ rel full, sampleXsec scores q lhs t mean std corr num make true raise = .ok (rel, full) ∧ rel.cols.length = num ∧ full.cols = ds.map (·.map Flt.fin)) ∧
    ds.length = num ∧ ∀ d ∈ ds, d.length = mean.length ∧ ∀ v ∈ d, 0 ≤ v := by
  classical
  obtain ⟨d, c, out, hk, shc, hd, ho, rfl⟩ := draws_spec sh h
  have hdn : d ≠ .normal := by
    rintro rfl
    unfold kind at hk
    rcases ht with ht | ht | ht
    all_goals rw [ht] at hk; revert hk; simp
  have hdr : Drawn (scores d) (draw q lhs d) num := ⟨hsc d, fun v m s => by simp [draw, latin_length (hl v)]⟩
  obtain ⟨hlen, hcl, hcol⟩ := SampleCorr.C43_result shc hdr ho
  have hpos : ∀ col ∈ out, ∀ v ∈ col, (0 : ℝ) ≤ v := by
    intro col hc v hv
    obtain ⟨i, hi, rfl⟩ := List.mem_iff_getElem.mp hc
    have him : i < mean.length := by omega
    by_cases hS : Sampled mean std c d i
    · obtain ⟨col', hc', hp⟩ := (hcol i him).2 hS
      rw [List.getElem?_eq_getElem hi, Option.some.injEq] at hc'
      rw [hc'] at hv
      obtain ⟨p, hpl, rfl⟩ := List.mem_map.mp (hp.mem_iff.mp hv)
      have hp0 := latin_mem (hl _) p hpl
      cases d with
      | normal => exact absurd rfl hdn
      | other => exact absurd rfl hd
      | lognormal => exact (SampleCorr.C45_positive _ _ _ _).le
      | uniform =>
        have hs1 := hS.1
        unfold SampleCorr.Fixed at hs1
        push Not at hs1
        have hs2 := hs1.1 _ (List.getElem?_eq_getElem (by rw [sh.std]; exact him))
        have : (0 : ℝ) < 1 / 10 ^ 30 := by positivity
        have h3 := hm _ (List.getElem_mem him)
        have h4 := mul_pos (this.trans hs2) hp0.1
        simp only [SampleCorr.value]
        linarith
    · have hc' := (hcol i him).1 hS
      rw [List.getElem?_eq_getElem hi, Option.some.injEq] at hc'
      rw [hc'] at hv
      rw [List.eq_of_mem_replicate hv]
      exact hm _ (List.getElem_mem him)
  have hall : ∀ r ∈ rows num out, ∀ v ∈ r, (0 : ℝ) ≤ v := by
    intro r hr v hv
    simp only [rows, List.mem_map] at hr
    obtain ⟨k, _, rfl⟩ := hr
    simp only [List.mem_map] at hv
    obtain ⟨col, hc, rfl⟩ := hv
    rw [List.getD_eq_getElem?_getD]
    cases hk : col[k]? with
    | none => simp
    | some v => exact hpos col hc v (List.mem_of_getElem? hk)
  have hfit := rows_fits (num := num) hlen
  have hrl : (rows num out).length = num := by simp [rows]
  have hfil : (rows num out).filter (fun d => decide (∀ v ∈ d, 0 ≤ v)) = rows num out := by
    rw [List.filter_eq_self]
    intro r hr
    simpa using hall r hr
  refine ⟨?_, hrl, fun r hr => ⟨hfit r hr, hall r hr⟩⟩
  intro raise
  have hx : ∃ rel full, Sampler.sampleXsec (rows num out) mean num make true raise = .ok (rel, full) ∧ rel.cols.length = num ∧ full.cols = (rows num out).map (·.map Flt.fin) := by
    have h30 := Sampler.C30_full_values (rows num out) mean hfit num true
    simp only [if_true, hfil] at h30
    have hs : Sampler.sample (rows num out) mean num raise true false false = Sampler.sample (rows num out) mean num false true false false := by
      cases raise with
      | false => rfl
      | true =>
        rw [h30]
        unfold Sampler.sample at h30 ⊢
        simp only [Bool.false_eq_true, and_false, if_false, Except.ok.injEq, and_true] at h30 ⊢
        rw [h30]
        simp [hrl]
    unfold Sampler.sampleXsec
    rw [hs, h30]
    refine ⟨_, _, rfl, ?_, rfl⟩
    simp [Sampler.sampleCheck, hrl]
  obtain ⟨rel, full, hx1, hx2, hx3⟩ := hx
  refine ⟨rel, full, ?_, hx2, hx3⟩
  unfold sampleXsec
  rw [h]
  exact hx1

/-- **C107 is false for the normal types**, and not by bad luck: if the relative deviation of one variable is large enough (`m + s q(1/n) ≤ 0`), then whatever the random numbers fewer samples
than asked for are delivered, or an error is raised if the user wants that. -/
theorem C107_normal_refuted {t : List Char} (ht : lower t = "normal".toList ∨ lower t = "uncorrelated".toList) (sh : Shape mean std corr) (hsc : ScoresShape scores num)
    (hl : ∀ v, Latin num (lhs v)) (hq : ∀ p p', 0 < p → p < p' → p' < 1 → q p < q p') (hnum : 2 ≤ num) {i : Nat} {m s : ℝ} (hmi : mean[i]? = some m) (hsi : std[i]? = some s)
    (hS : Sampled mean std corr .normal i) (hbig : m + s * q (1 / num) ≤ 0) {ds : List (List ℝ)} (h : draws scores q lhs t mean std corr num = .ok ds) (make : Nat) :
    (∃ rel full, sampleXsec scores q lhs t mean std corr num make true false = .ok (rel, full) ∧ rel.cols.length < num) ∧
    ∃ e, sampleXsec scores q lhs t mean std corr num make true true = .error e := by
  classical
  obtain ⟨d, c, out, hk, shc, hd, ho, rfl⟩ := draws_spec sh h
  have him : i < mean.length := (List.getElem?_eq_some_iff.mp hmi).1
  have hmi' : mean[i] = m := (List.getElem?_eq_some_iff.mp hmi).2
  have his : i < std.length := (List.getElem?_eq_some_iff.mp hsi).1
  have hsi' : std[i] = s := (List.getElem?_eq_some_iff.mp hsi).2
  have hdc : d = .normal ∧ Sampled mean std c .normal i := by
    unfold kind at hk
    rcases ht with ht | ht
    · rw [ht] at hk
      simp only [if_true, Except.ok.injEq, Prod.mk.injEq] at hk
      obtain ⟨rfl, rfl⟩ := hk
      exact ⟨rfl, hS⟩
    · rw [ht] at hk
      simp at hk
      obtain ⟨rfl, rfl⟩ := hk
      exact ⟨rfl, (identity_sampled mean std _ him).mpr hS.1⟩
  obtain ⟨rfl, hSc⟩ := hdc
  have hdr : Drawn (scores .normal) (draw q lhs .normal) num := ⟨hsc _, fun v m s => by simp [draw, latin_length (hl v)]⟩
  obtain ⟨hlen, hcl, hcol⟩ := SampleCorr.C43_result shc hdr ho
  obtain ⟨col, hc, hp⟩ := (hcol i him).2 hSc
  have hs0 : 0 < s := by
    have hs1 := hS.1
    unfold SampleCorr.Fixed at hs1
    push Not at hs1
    have hs2 := hs1.1 _ hsi
    have : (0 : ℝ) < 1 / 10 ^ 30 := by positivity
    linarith
  -- the value in the lowest interval
  obtain ⟨v, hv, hneg⟩ : ∃ v ∈ col, v < 0 := by
    obtain ⟨u, hu, hpu⟩ := hl (((List.range i).filter fun k => decide (Sampled mean std c .normal k)).length)
    have hn : (2 : ℝ) ≤ num := by exact_mod_cast hnum
    have hn0 : (0 : ℝ) < num := by linarith
    have hin : u 0 / num ∈ lhs (((List.range i).filter fun k => decide (Sampled mean std c .normal k)).length) := by
      rw [hpu.mem_iff]
      exact List.mem_map.mpr ⟨0, List.mem_range.mpr (by omega), by simp⟩
    refine ⟨SampleCorr.value q .normal m s (u 0 / num), ?_, ?_⟩
    · rw [hp.mem_iff]
      exact List.mem_map.mpr ⟨_, hin, by rw [hmi', hsi']⟩
    · have hlt := hq (u 0 / num) (1 / num) (div_pos (hu 0).1 hn0) (by rw [div_lt_div_iff_of_pos_right hn0]; exact (hu 0).2) (by rw [div_lt_one hn0]; linarith)
      have := mul_lt_mul_of_pos_left hlt hs0
      simp only [SampleCorr.value]
      linarith
  obtain ⟨k, hk', rfl⟩ := List.mem_iff_getElem.mp hv
  have hcm : col ∈ out := List.mem_of_getElem? hc
  have hkn : k < num := by rw [← hcl col hcm]; exact hk'
  have hfit := rows_fits (num := num) hlen
  have hless : ((rows num out).filter (fun d => decide (∀ v ∈ d, 0 ≤ v))).length < num := by
    have h2 : (rows num out).length = num := by simp [rows]
    rw [← h2, h2]
    conv_rhs => rw [← h2]
    rw [List.length_filter_lt_length_iff_exists]
    refine ⟨out.map fun c => c.getD k 0, List.mem_map.mpr ⟨k, List.mem_range.mpr hkn, rfl⟩, ?_⟩
    simp only [decide_eq_true_eq, not_forall]
    refine ⟨col[k], List.mem_map.mpr ⟨col, hcm, by simp [hk']⟩, by linarith⟩
  constructor
  · obtain ⟨rel, full, h1, h2, h3, _⟩ := Sampler.C31_delivered_partial (rows num out) mean hfit num make
    refine ⟨rel, full, ?_, by omega⟩
    unfold sampleXsec
    rw [h]
    exact h1
  · obtain ⟨e, he⟩ := (Sampler.C31_raises (rows num out) mean hfit num make).mpr hless
    refine ⟨e, ?_⟩
    unfold sampleXsec
    rw [h]
    exact he

end

/-! ### The hypotheses are met -/

open MeasureTheory ProbabilityTheory Set in
/-- There is a quantile function of the standard normal distribution, and it is increasing. -/
theorem normal_quantile : ∃ q : ℝ → ℝ, (∀ p, 0 < p → p < 1 → cdf (gaussianReal 0 1) (q p) = p) ∧ ∀ p p', 0 < p → p < p' → p' < 1 → q p < q p' := by
  have hcont : Continuous (cdf (gaussianReal 0 1)) := by
    rw [continuous_iff_continuousAt]
    intro x
    rw [(cdf (gaussianReal 0 1)).mono.continuousAt_iff_leftLim_eq_rightLim, StieltjesFunction.rightLim_eq]
    have h1 := (cdf (gaussianReal 0 1)).measure_singleton x
    rw [measure_cdf] at h1
    have h2 : gaussianReal 0 1 {x} = 0 := by
      have := nullSingletonClass_gaussianReal (μ := 0) (v := 1) (by norm_num)
      exact measure_singleton x
    rw [h2] at h1
    have h3 := ENNReal.ofReal_eq_zero.mp h1.symm
    have h4 := (cdf (gaussianReal 0 1)).mono.leftLim_le (le_refl x)
    linarith
  have hex : ∀ p : ℝ, 0 < p → p < 1 → ∃ x, cdf (gaussianReal 0 1) x = p := by
    intro p h0 h1
    apply mem_range_of_exists_le_of_exists_ge hcont
    · obtain ⟨a, ha⟩ := ((tendsto_cdf_atBot (gaussianReal 0 1)).eventually (gt_mem_nhds h0)).exists
      exact ⟨a, ha.le⟩
    · obtain ⟨a, ha⟩ := ((tendsto_cdf_atTop (gaussianReal 0 1)).eventually (lt_mem_nhds h1)).exists
      exact ⟨a, ha.le⟩
  classical
  let q : ℝ → ℝ := fun p => if h : 0 < p ∧ p < 1 then (hex p h.1 h.2).choose else 0
  have hq : ∀ p, 0 < p → p < 1 → cdf (gaussianReal 0 1) (q p) = p := by
    intro p h0 h1
    simp only [q, dif_pos (And.intro h0 h1)]
    exact (hex p h0 h1).choose_spec
  refine ⟨q, hq, fun p p' h0 h1 h2 => ?_⟩
  by_contra hle
  have := monotone_cdf (gaussianReal 0 1) (not_lt.mp hle)
  rw [hq p h0 (h1.trans h2), hq p' (h0.trans h1) h2] at this
  linarith

/-- **C107.** So a run of the main program on lognormal samples (with or without correlation) meets the conditions of `C94_requested_partial` and `C94_values`: all the requested files are
written, with the values drawn. -/
theorem C107_run {s : Run.Setup ℝ} {j : Run.Job ℝ} (h : ∀ mt ∈ j.mts, ∀ en, s.entry mt = .ok en → ∃ scores q lhs t std corr, (lower t = "lognormal".toList ∨ lower t = "loguncorrelated".toList) ∧
      Shape en.mean std corr ∧ ScoresShape scores s.n ∧ (∀ v, Latin s.n (lhs v)) ∧ (∀ m ∈ en.mean, 0 ≤ m) ∧ draws scores q lhs t en.mean std corr s.n = .ok (en.draws s.n)) :
    Run.DrawsGood s j ∧ Run.ZerosGood s j := by
  classical
  constructor
  · intro mt hmt en hen
    obtain ⟨scores, q, lhs, t, std, corr, ht, sh, hsc, hl, hm, hd⟩ := h mt hmt en hen
    have := C107_delivered_partial (by tauto) sh hsc hl hm hd 0
    exact this.2
  · intro mt hmt en hen
    obtain ⟨scores, q, lhs, t, std, corr, ht, sh, hsc, hl, hm, hd⟩ := h mt hmt en hen
    obtain ⟨d, c, out, hk, shc, hdo, ho, hrows⟩ := draws_spec sh hd
    have hdl : d = .lognormal := by
      unfold kind at hk
      rcases ht with ht | ht
      all_goals rw [ht] at hk; revert hk; simp; intro a _; exact a.symm
    subst hdl
    have hdr : Drawn (scores .lognormal) (draw q lhs .lognormal) s.n := ⟨hsc _, fun v m s => by simp [draw, latin_length (hl v)]⟩
    obtain ⟨hlen, hcl, hcol⟩ := SampleCorr.C43_result shc hdr ho
    rw [hrows]
    intro r hr p hp hp0
    simp only [rows, List.mem_map] at hr
    obtain ⟨k, hk, rfl⟩ := hr
    obtain ⟨i, hi, hip⟩ := List.mem_iff_getElem.mp hp
    simp only [List.length_zip, List.length_map] at hi
    have hio : i < out.length := by omega
    have him : i < en.mean.length := by omega
    simp only [List.getElem_zip, List.getElem_map] at hip
    subst hip
    simp only at hp0 ⊢
    have hnS : ¬ Sampled en.mean std c .lognormal i := by
      intro hS
      apply hS.1
      right
      exact ⟨rfl, by rw [List.getElem?_eq_getElem him, hp0]⟩
    have hc := (hcol i him).1 hnS
    rw [List.getElem?_eq_getElem hio, Option.some.injEq] at hc
    rw [hc, hp0, List.getD_eq_getElem?_getD, List.getElem?_replicate]
    split <;> rfl

/-- Every mean and deviation the program can be given has a distribution function in the sense of `IsCdf`. -/
theorem isCdf_exists (Φ : ℝ → ℝ) (d : Distro) {m s : ℝ} (hm : 0 < m) (hs : 0 < s) : ∃ F, IsCdf Φ d m s F := by
  cases d with
  | normal => exact ⟨fun x => Φ ((x - m) / s), fun _ => rfl⟩
  | uniform => exact ⟨fun x => (x - m) / s, fun _ _ _ => rfl⟩
  | other => exact ⟨fun _ => 0, trivial⟩
  | lognormal =>
    have h1 := SampleCorr.one_lt_ratio hm hs
    refine ⟨fun x => Φ ((Real.log x - SampleCorr.logMean m s) / SampleCorr.logSigma m s), SampleCorr.logMean m s, SampleCorr.logSigma m s, ?_, SampleCorr.log_first hm hs, ?_, fun _ _ => rfl⟩
    · exact Real.sqrt_pos.mpr (Real.log_pos h1)
    · have e : 2 * SampleCorr.logMean m s + SampleCorr.logSigma m s ^ 2 = (SampleCorr.logMean m s + SampleCorr.logSigma m s ^ 2 / 2) + (SampleCorr.logMean m s + SampleCorr.logSigma m s ^ 2 / 2) := by
        ring
      rw [e, Real.exp_add, SampleCorr.log_first hm hs, SampleCorr.logSigma_sq hm hs, Real.exp_log (by linarith)]
      field_simp
      ring

namespace Example

/-- Two samples, from the middle of the two intervals. -/
noncomputable def middle (_ : Nat) : List ℝ := [((0 : Nat) + 1 / 2) / (2 : Nat), ((1 : Nat) + 1 / 2) / (2 : Nat)]

theorem middle_latin (v : Nat) : Latin 2 (middle v) := ⟨fun _ => 1 / 2, fun _ => by norm_num, List.Perm.refl _⟩

def someScores (_ : Distro) (mean _ : List ℝ) (_ : List (List ℝ)) : Except PyErr (List (List ℝ)) := .ok (mean.map fun _ => [0, 1])

theorem someScores_shape : ScoresShape someScores 2 := by
  intro d mean std corr N h
  simp only [someScores, Except.ok.injEq] at h
  subst h
  refine ⟨by simp, ?_⟩
  intro c hc
  obtain ⟨_, _, rfl⟩ := List.mem_map.mp hc
  rfl

theorem shape : Shape [(1 : ℝ), 2] [3, 1] [[1, 1 / 2], [1 / 2, 1]] := ⟨rfl, rfl, by simp⟩

/-- The call succeeds for the types `normal` and `loguncorrelated`; the first variable is sampled. -/
theorem succeeds (q : ℝ → ℝ) {t : List Char} (ht : t = "Normal".toList ∨ t = "loguncorrelated".toList) : ∃ ds, draws someScores q middle t [1, 2] [3, 1] [[1, 1 / 2], [1 / 2, 1]] 2 = .ok ds := by
  have hgen : ∀ (d : Distro) (c : List (List ℝ)), d ≠ .other → Shape [(1 : ℝ), 2] [3, 1] c → ∃ out, SampleCorr.sample (someScores d) (draw q middle d) [1, 2] [3, 1] c 2 d = .ok out := by
    intro d c hd sh
    exact SampleCorr.C43_returns sh ⟨someScores_shape d, fun v m s => by simp [draw, middle]⟩ (by simp) hd (fun m s c => ⟨_, rfl⟩) (fun _ => by simp)
  unfold draws kind
  rcases ht with rfl | rfl
  · rw [if_pos (by decide)]
    obtain ⟨out, ho⟩ := hgen .normal _ (by decide) shape
    exact ⟨rows 2 out, by simp only [ho, Except.map]⟩
  · rw [if_neg (by decide), if_neg (by decide), if_neg (by decide), if_neg (by decide), if_pos (by decide)]
    obtain ⟨out, ho⟩ := hgen .lognormal _ (by decide) (identity_shape [(1 : ℝ), 2] [3, 1] rfl)
    exact ⟨rows 2 out, by simp only [List.length_cons, List.length_nil] at ho ⊢; simp only [ho, Except.map]⟩

theorem sampled : Sampled [(1 : ℝ), 2] [3, 1] [[1, 1 / 2], [1 / 2, 1]] .normal 0 := by
  refine ⟨?_, fun h => ?_⟩
  · simp only [SampleCorr.Fixed]
    norm_num
  · simp [SampleCorr.NoData] at h

/-- All of the hypotheses of `C106_stratified`, `C107_delivered_partial` and `C107_normal_refuted` are met; with two samples `q (1 / 2)` is the median, 0 for the normal distribution, and the relative
deviation must be infinite, so here `q` is another increasing function. -/
example (make : Nat) : ∃ rel full, sampleXsec someScores (fun p => p - 1) middle "Normal".toList [1, 2] [3, 1] [[1, 1 / 2], [1 / 2, 1]] 2 make true false = .ok (rel, full) ∧ rel.cols.length < 2 := by
  obtain ⟨ds, hds⟩ := succeeds (fun p => p - 1) (Or.inl rfl)
  exact (C107_normal_refuted (Or.inl (by decide)) shape someScores_shape middle_latin (fun p p' _ h _ => by linarith) le_rfl (i := 0) rfl rfl sampled (by norm_num) hds make).1

example (q : ℝ → ℝ) (make : Nat) : ∃ rel full, sampleXsec someScores q middle "loguncorrelated".toList [1, 2] [3, 1] [[1, 1 / 2], [1 / 2, 1]] 2 make true true = .ok (rel, full) ∧ rel.cols.length = 2 := by
  obtain ⟨ds, hds⟩ := succeeds q (Or.inr rfl)
  obtain ⟨rel, full, h1, h2, _⟩ := (C107_delivered_partial (Or.inr (Or.inl (by decide))) shape someScores_shape middle_latin (by simp) hds make).1 true
  exact ⟨rel, full, h1, h2⟩

example : lower "gaussian".toList ∉ types ∧ lower "LogNormal".toList = lower "lognormal".toList := by decide

example (q : ℝ → ℝ) : ∃ out, lhsNormal q middle [1, 2] [3, 1] = .ok out := ⟨_, rfl⟩

end Example

end ASAPy.Lhs
