import Verif.Plots.Spec
import Mathlib.Tactic.Linarith
import Mathlib.Tactic.Positivity
import Mathlib.Tactic.FieldSimp

/-! # C130-C132: step curves, correlation maps and their colours -/

namespace ASAPy.Plots

section
variable {K : Type*} [Field K] [LinearOrder K]

theorem withLast_ok {α : Type*} (f : α → α) {l : List α} {v : α} (h : l.getLast? = some v) : withLast f l = .ok (l ++ [f v]) := by
  unfold withLast; rw [h]

theorem getLast_of {α : Type*} {l : List α} {n : Nat} (h : l.length = n) (hn : 0 < n) : ∃ v, l.getLast? = some v ∧ l[n - 1]? = some v := by
  subst h
  refine ⟨l[l.length - 1], ?_, ?_⟩
  · rw [List.getLast?_eq_getElem?]; simp
  · simp

/-- A step curve with decreasing points shows between two neighbours the value of the first. -/
theorem only_between {x : List K} {y : List (Flt K)} (hx : x.Pairwise (· > ·)) {i : Nat} {a b e : K} {v : Flt K}
    (ha : x[i]? = some a) (hb : x[i + 1]? = some b) (h1 : b < e) (h2 : e < a) (hv : y[i]? = some v) : (Steps.mk x y).Only e v := by
  intro w
  constructor
  · rintro ⟨j, c, d, hc, hd, h3, h4, hw⟩
    simp only at hc hd hw
    have hcd : d < c := by
      obtain ⟨hj, rfl⟩ := List.getElem?_eq_some_iff.mp hc
      obtain ⟨hj', rfl⟩ := List.getElem?_eq_some_iff.mp hd
      exact List.pairwise_iff_getElem.mp hx j (j + 1) hj hj' (by omega)
    rw [min_eq_right hcd.le] at h3
    rw [max_eq_left hcd.le] at h4
    have hij : i = j := by
      rcases Nat.lt_trichotomy i j with h | h | h
      · -- x[j] ≤ x[i+1] < e
        have : c ≤ b := by
          obtain ⟨hj, rfl⟩ := List.getElem?_eq_some_iff.mp hc
          obtain ⟨hj', rfl⟩ := List.getElem?_eq_some_iff.mp hb
          rcases Nat.eq_or_lt_of_le (show i + 1 ≤ j from h) with h | h
          · subst h; exact le_rfl
          · exact (List.pairwise_iff_getElem.mp hx (i + 1) j hj' hj h).le
        exact absurd h4 (not_lt.mpr (this.trans h1.le))
      · exact h
      · have : a ≤ d := by
          obtain ⟨hj, rfl⟩ := List.getElem?_eq_some_iff.mp ha
          obtain ⟨hj', rfl⟩ := List.getElem?_eq_some_iff.mp hd
          rcases Nat.eq_or_lt_of_le (show j + 1 ≤ i from h) with h | h
          · subst h; exact le_rfl
          · exact (List.pairwise_iff_getElem.mp hx (j + 1) i hj' hj h).le
        exact absurd h3 (not_lt.mpr (h2.le.trans this))
    subst hij
    rw [hv] at hw
    exact (Option.some.inj hw).symm
  · rintro rfl
    have hba := h1.trans h2
    exact ⟨i, a, b, ha, hb, by rwa [min_eq_right hba.le], by rwa [max_eq_left hba.le], hv⟩

/-- `high` with one more point below: still decreasing. -/
theorem decreasing_snoc {g : Groups K} {n : Nat} (h : Proper g n) {hl b : K} (hh : g.high[n - 1]? = some hl) (hb : b < hl) :
    (g.high ++ [b]).Pairwise (· > ·) := by
  rw [List.pairwise_append]
  refine ⟨h.decreasing, by simp, ?_⟩
  intro a ha c hc
  rw [List.mem_singleton] at hc
  subst hc
  obtain ⟨i, hi, rfl⟩ := List.mem_iff_getElem.mp ha
  obtain ⟨hj, rfl⟩ := List.getElem?_eq_some_iff.mp hh
  refine lt_of_lt_of_le hb ?_
  have hn := h.high
  rcases Nat.eq_or_lt_of_le (show i ≤ n - 1 by omega) with h' | h'
  · subst h'; exact le_rfl
  · exact (List.pairwise_iff_getElem.mp h.decreasing i (n - 1) hi hj h').le

/-- A step curve over the upper bounds and one more point below shows every group's value inside the group, as far down as that point. -/
theorem steps_groups {g : Groups K} {n : Nat} (h : Proper g n) (hn : 0 < n) {hl b : K} (hh : g.high[n - 1]? = some hl) (hb : b < hl)
    {y : List (Flt K)} (hy : y.length = n) (z : Flt K) {i : Nat} {e : K} {v : Flt K} (hi : Inside g i e) (hv : y[i]? = some v)
    (hlast : i + 1 = n → b < e) : (Steps.mk (g.high ++ [b]) (y ++ [z])).Only e v := by
  obtain ⟨l, u, hl1, hu, h1, h2⟩ := hi
  have hin : i < n := by have := (List.getElem?_eq_some_iff.mp hu).1; rw [h.high] at this; exact this
  have hlen := h.high
  have hv' : (y ++ [z])[i]? = some v := by rw [List.getElem?_append_left (by omega)]; exact hv
  have hu' : (g.high ++ [b])[i]? = some u := by rw [List.getElem?_append_left (by omega)]; exact hu
  by_cases hlt : i + 1 < n
  · rw [h.contiguous i hlt] at hl1
    exact only_between (decreasing_snoc h hh hb) hu' (by rw [List.getElem?_append_left (by omega)]; exact hl1) h1 h2 hv'
  · have hin' : i + 1 = n := by omega
    exact only_between (decreasing_snoc h hh hb) hu' (b := b) (by rw [List.getElem?_append_right (by omega)]; simp [hin', hlen]) (hlast hin') h2 hv'

end

section
variable {K : Type*} [Field K] [LinearOrder K] [IsStrictOrderedRing K]

/-- **C130 (partial).** For every group structure with at least two groups the figure `sampled_cov` has two curves, and at every energy inside a
group they show the group's variance in the store and the variance of its samples, and nothing else - in the last group down to half its upper bound.
Missing: the rest of the last group, see `C130_last_refuted`, and structures with one group, see `C130_single_refuted`. -/
theorem C130_cov_partial {m : Nat} {g : Groups K} {n : Nat} (h : Proper g n) (hn : 2 ≤ n) {rows : List (Fin m → K)} (hr : rows.length = n) :
    ∃ s t, covSteps g rows = .ok (s, t) ∧ ∀ i e, Inside g i e → (i + 1 = n → ∀ u, g.high[i]? = some u → u / 2 < e) →
      (∀ d, g.sd[i]? = some d → s.Only e (.fin (d ^ 2))) ∧
      (2 ≤ m → ∀ r, rows[i]? = some r → t.Only e (.fin (sxy r r / ((m : K) - 1)))) := by
  obtain ⟨hl, hl1, hl2⟩ := getLast_of h.high (by omega)
  obtain ⟨dl, hd1, -⟩ := getLast_of (l := g.sd.map fun s => Flt.fin (s ^ 2)) (n := n) (by simp [h.sd]) (by omega)
  obtain ⟨vl, hv1, -⟩ := getLast_of (l := rows.map fun r => cov r r) (n := n) (by simp [hr]) (by omega)
  have hlpos : 0 < hl := by
    obtain ⟨ll, _, hll⟩ := getLast_of h.low (by omega)
    have := h.bottom _ _ hll hl2
    exact this.1.trans_lt this.2
  have hhalf : hl / 2 < hl := by linarith
  refine ⟨⟨g.high ++ [hl / 2], (g.sd.map fun s => Flt.fin (s ^ 2)) ++ [dl]⟩, ⟨g.high ++ [hl / 2], (rows.map fun r => cov r r) ++ [vl]⟩, ?_, ?_⟩
  · unfold covSteps diagCov
    rw [withLast_ok _ hl1, withLast_ok _ hd1, if_neg (by omega)]
    simp only [bind, Except.bind, withLast_ok _ hv1]
    rfl
  · intro i e hi hlast
    have hlast' : i + 1 = n → hl / 2 < e := by
      intro hin
      exact hlast hin hl (by rw [← hl2, ← hin]; simp)
    refine ⟨fun d hd => ?_, fun hm r hr' => ?_⟩
    · exact steps_groups h (by omega) hl2 hhalf (by simp [h.sd]) _ hi (by simp [hd]) hlast'
    · refine steps_groups h (by omega) hl2 hhalf (by simp [hr]) _ hi (v := _) ?_ hlast'
      rw [List.getElem?_map, hr']
      simp only [Option.map_some, cov, if_neg (show ¬ m ≤ 1 by omega), sxy, mean]

/-- **C130 (relative deviations, partial).** If the ACE file reaches down to the lower end of the groups, the figure `base_xsec_with_std` shows at every energy
inside a group the group's relative deviation in percent, and nothing else. Missing: see `C130_rel_refuted`. -/
theorem C130_rel_partial {g : Groups K} {n : Nat} (h : Proper g n) (hn : 0 < n) {e : List K} {e0 : K} (he : e.head? = some e0)
    (hlow : ∀ l, g.low[n - 1]? = some l → e0 ≤ l) :
    ∃ s, relSteps g e = .ok s ∧ ∀ i x r, Inside g i x → g.rel[i]? = some r → s.Only x (.fin (r * 100)) := by
  obtain ⟨hl, hl1, hl2⟩ := getLast_of h.high hn
  obtain ⟨rl, hr1, -⟩ := getLast_of (l := g.rel.map fun s => Flt.fin (s * 100)) (n := n) (by simp [h.rel]) hn
  obtain ⟨ll, _, hll⟩ := getLast_of h.low hn
  have hb := h.bottom _ _ hll hl2
  have he0 : e0 < hl := (hlow _ hll).trans_lt hb.2
  refine ⟨⟨g.high ++ [e0], (g.rel.map fun s => Flt.fin (s * 100)) ++ [rl]⟩, ?_, ?_⟩
  · unfold relSteps
    rw [he, hl1]
    simp only [if_pos he0, withLast_ok _ hr1]
    rfl
  · intro i x r hi hr
    refine steps_groups h hn hl2 he0 (by simp [h.rel]) _ hi (by simp [hr]) ?_
    intro hin
    obtain ⟨l, u, h1, -, h3, -⟩ := hi
    have : i = n - 1 := by omega
    subst this
    exact (hlow l h1).trans_lt h3

end

/-- Two groups, 4-2 and 2-1/2. -/
def exG : Groups ℚ := ⟨[4, 2], [2, 1/2], [3, 5], [1/10, 1/5]⟩

theorem exG_proper : Proper exG 2 where
  high := rfl
  low := rfl
  sd := rfl
  rel := rfl
  decreasing := by simp [exG]; norm_num
  contiguous := by intro i hi; have : i = 0 := by omega
                   subst this; rfl
  bottom := by
    intro l h hl hh
    simp only [exG, List.getElem?_cons_succ, List.getElem?_cons_zero, Option.some.injEq] at hl hh
    subst hl hh
    norm_num

def exRows : List (Fin 3 → ℚ) := [![1, 2, 3], ![5, 5, 8]]

example : ∃ s t, covSteps exG exRows = .ok (s, t) ∧ ∀ i e, Inside exG i e → (i + 1 = 2 → ∀ u, exG.high[i]? = some u → u / 2 < e) →
      (∀ d, exG.sd[i]? = some d → s.Only e (.fin (d ^ 2))) ∧
      (2 ≤ 3 → ∀ r, exRows[i]? = some r → t.Only e (.fin (sxy r r / ((3 : Nat) - 1)))) :=
  C130_cov_partial exG_proper le_rfl rfl

example : Inside exG 1 (3/2) ∧ (∀ u, exG.high[1]? = some u → u / 2 < 3/2) :=
  ⟨⟨1/2, 2, rfl, rfl, by norm_num, by norm_num⟩, by intro u hu; simp [exG] at hu; subst hu; norm_num⟩

example : ∃ s, relSteps exG [1/100000, 1, 20] = .ok s ∧ ∀ i x r, Inside exG i x → exG.rel[i]? = some r → s.Only x (.fin (r * 100)) :=
  C130_rel_partial exG_proper (by norm_num) rfl (by intro l hl; simp [exG] at hl; subst hl; norm_num)

/-- **C130 is false for the last group**: it reaches from 2 down to 1/2, but below 1 nothing is shown. With a last group from 10 to 8 the curve shows its value
at 6, where it has none. -/
theorem C130_last_refuted :
    (∃ s t, covSteps exG exRows = .ok (s, t) ∧ Inside exG 1 (3/4) ∧ ∀ v, ¬ s.Shows (3/4) v) ∧
    (∃ s t, covSteps ⟨[20, 10], [10, 8], [3, 5], [1/10, 1/5]⟩ exRows = .ok (s, t) ∧ s.Shows 6 (.fin 25)) := by
  constructor
  · refine ⟨_, _, rfl, ⟨1/2, 2, rfl, rfl, by norm_num, by norm_num⟩, ?_⟩
    rintro v ⟨i, a, b, ha, hb, h1, h2, -⟩
    match i with
    | 0 => simp [exG] at ha hb; subst ha; subst hb; revert h1 h2; norm_num
    | 1 => simp [exG] at ha hb; subst ha; subst hb; revert h1 h2; norm_num
    | n + 2 => simp [exG] at hb
  · exact ⟨_, _, rfl, 1, 10, 5, rfl, by simp; norm_num, by norm_num, by norm_num, by simp; norm_num⟩

/-- **C130 is false for a single group**: nothing is shown, the program ends with a `ValueError`. -/
theorem C130_single_refuted {K : Type*} [Field K] [LinearOrder K] {m : Nat} {g : Groups K} (h : Proper g 1) (r : Fin m → K) :
    covSteps g [r] = .error .valueError := by
  obtain ⟨hl, hl1, -⟩ := getLast_of h.high (by omega)
  obtain ⟨dl, hd1, -⟩ := getLast_of (l := g.sd.map fun s => Flt.fin (s ^ 2)) (n := 1) (by simp [h.sd]) (by omega)
  unfold covSteps diagCov
  rw [withLast_ok _ hl1, withLast_ok _ hd1]
  rfl

/-- **C130 is false if the ACE file begins above the last group's upper bound** (a threshold reaction): the last group is not shown. -/
theorem C130_rel_refuted : ∃ s, relSteps exG [3, 4] = .ok s ∧ Inside exG 1 1 ∧ ∀ v, ¬ s.Shows 1 v := by
  refine ⟨_, rfl, ⟨1/2, 2, rfl, rfl, by norm_num, by norm_num⟩, ?_⟩
  rintro v ⟨i, a, b, ha, hb, h1, h2, -⟩
  match i with
  | 0 => simp [exG] at ha hb; subst ha; subst hb; revert h1 h2; norm_num
  | n + 1 => simp [exG] at hb

end ASAPy.Plots
