import Verif.Plots.Props
import Mathlib.Algebra.Order.BigOperators.Ring.Finset

/-! # C131 and C132: correlation maps and their colours -/

namespace ASAPy.Plots

section
variable {K : Type*} [Field K] [LinearOrder K]

theorem same_cell {E : List K} (hE : E.Pairwise (· < ·)) {i j : Nat} {a b c d x : K} (ha : E[i]? = some a) (hb : E[i + 1]? = some b)
    (hc : E[j]? = some c) (hd : E[j + 1]? = some d) (h1 : a < x) (h2 : x < b) (h3 : c < x) (h4 : x < d) : i = j := by
  have key : ∀ {i j : Nat} {b c : K}, E[i + 1]? = some b → E[j]? = some c → i < j → b ≤ c := by
    intro i j b c hb hc h
    obtain ⟨hi, rfl⟩ := List.getElem?_eq_some_iff.mp hb
    obtain ⟨hj, rfl⟩ := List.getElem?_eq_some_iff.mp hc
    rcases Nat.eq_or_lt_of_le (show i + 1 ≤ j from h) with h | h
    · subst h; exact le_rfl
    · exact (List.pairwise_iff_getElem.mp hE (i + 1) j hi hj h).le
  rcases Nat.lt_trichotomy i j with h | h | h
  · exact absurd ((h2.trans_le (key hb hc h)).trans h3) (lt_irrefl _)
  · exact h
  · exact absurd ((h4.trans_le (key hd ha h)).trans h1) (lt_irrefl _)

theorem mesh_only {m : Mesh K} (hE : m.edges.Pairwise (· < ·)) {i j : Nat} {a b c d x y v : K} (ha : m.edges[j]? = some a)
    (hb : m.edges[j + 1]? = some b) (h1 : a < x) (h2 : x < b) (hc : m.edges[i]? = some c) (hd : m.edges[i + 1]? = some d) (h3 : c < y) (h4 : y < d)
    (hv : Entry m.vals i j v) : m.Only x y v := by
  obtain ⟨r, hr, hrv⟩ := hv
  intro w
  constructor
  · rintro ⟨i', j', a', b', c', d', r', ha', hb', h1', h2', hc', hd', h3', h4', hr', hw⟩
    have hj := same_cell hE ha hb ha' hb' h1 h2 h1' h2'
    have hi := same_cell hE hc hd hc' hd' h3 h4 h3' h4'
    subst hi; subst hj
    rw [hr] at hr'
    cases hr'
    rw [hrv] at hw
    exact (Option.some.inj hw).symm
  · rintro rfl
    exact ⟨i, j, a, b, c, d, r, ha, hb, h1, h2, hc, hd, h3, h4, hr, hrv⟩

theorem entry_flip {c : List (List K)} {n i j : Nat} (hc : Square c n) {v : K} (h : Entry c i j v) : Entry (flip c) (n - 1 - i) (n - 1 - j) v := by
  obtain ⟨r, hr, hv⟩ := h
  obtain ⟨hlen, hrows⟩ := hc
  have hi : i < n := hlen ▸ (List.getElem?_eq_some_iff.mp hr).1
  have hrl := hrows r (List.mem_of_getElem? hr)
  have hj : j < n := hrl ▸ (List.getElem?_eq_some_iff.mp hv).1
  refine ⟨r.reverse, ?_, ?_⟩
  · unfold flip
    rw [List.getElem?_reverse (by simp; omega)]
    simp only [List.length_map, hlen, List.getElem?_map]
    rw [show n - 1 - (n - 1 - i) = i by omega, hr]
    rfl
  · rw [List.getElem?_reverse (by omega), hrl, show n - 1 - (n - 1 - j) = j by omega]
    exact hv

/-- The edges around a group in the reversed list of edges. -/
theorem edges_group {g : Groups K} {n : Nat} (h : Proper g n) {b : K} {i : Nat} {e : K} (hi : Inside g i e) (hlast : i + 1 = n → b < e) :
    ∃ l u, (g.high ++ [b]).reverse[n - 1 - i]? = some l ∧ (g.high ++ [b]).reverse[n - 1 - i + 1]? = some u ∧ l < e ∧ e < u := by
  obtain ⟨l, u, hl1, hu, h1, h2⟩ := hi
  have hin : i < n := by have := (List.getElem?_eq_some_iff.mp hu).1; rw [h.high] at this; exact this
  have hlen := h.high
  have e1 : ∀ k, k ≤ n → (g.high ++ [b]).reverse[k]? = (g.high ++ [b])[n - k]? := by
    intro k hk
    rw [List.getElem?_reverse (by simp; omega)]
    simp [hlen]
  have hu' : (g.high ++ [b]).reverse[n - 1 - i + 1]? = some u := by
    rw [e1 _ (by omega), show n - (n - 1 - i + 1) = i by omega, List.getElem?_append_left (by omega)]
    exact hu
  by_cases hlt : i + 1 < n
  · refine ⟨l, u, ?_, hu', h1, h2⟩
    rw [e1 _ (by omega), show n - (n - 1 - i) = i + 1 by omega, List.getElem?_append_left (by omega), ← h.contiguous i hlt]
    exact hl1
  · refine ⟨b, u, ?_, hu', hlast (by omega), h2⟩
    rw [e1 _ (by omega), show n - (n - 1 - i) = n by omega, List.getElem?_append_right (by omega)]
    simp [hlen]

theorem mesh_groups {g : Groups K} {n : Nat} (h : Proper g n) {b hl vmin vmax : K} (hh : g.high[n - 1]? = some hl) (hb : b < hl)
    {c : List (List K)} (hc : Square c n) {i j : Nat} {x y v : K} (hx : Inside g j x) (hy : Inside g i y) (hx' : j + 1 = n → b < x)
    (hy' : i + 1 = n → b < y) (hv : Entry c i j v) : (Mesh.mk (g.high ++ [b]).reverse (flip c) vmin vmax).Only x y v := by
  have hE : (g.high ++ [b]).reverse.Pairwise (· < ·) := by
    rw [List.pairwise_reverse]
    exact (decreasing_snoc h hh hb).imp fun h => h
  obtain ⟨l, u, h1, h2, h3, h4⟩ := edges_group h hx hx'
  obtain ⟨l', u', h1', h2', h3', h4'⟩ := edges_group h hy hy'
  exact mesh_only hE h1 h2 h3 h4 h1' h2' h3' h4' (entry_flip hc hv)

theorem zeroDiag_get (c : List (List K)) {i : Nat} {r : List K} {d : K} (hr : c[i]? = some r) (hd : r[i]? = some d) :
    (zeroDiag c)[i]? = some (decide (d = 0)) := by
  unfold zeroDiag
  simp [List.getElem?_map, List.getElem?_zipIdx, hr, hd]

theorem zeroDiag_length (c : List (List K)) : (zeroDiag c).length = c.length := by simp [zeroDiag]

theorem blank_ok {z : List Bool} {c : List (List K)} {n : Nat} (hz : z.length = n) (hc : Square c n) :
    ∃ c', blank z c = .ok c' ∧ Square c' n ∧ ∀ i j a b v, z[i]? = some a → z[j]? = some b → Entry c i j v →
      Entry c' i j (if a = true ∨ b = true then 0 else v) := by
  obtain ⟨hl, hrows⟩ := hc
  refine ⟨_, if_pos (by omega), ⟨by simp [hz, hl], ?_⟩, ?_⟩
  · intro r hr
    obtain ⟨i, hi, rfl⟩ := List.mem_iff_getElem.mp hr
    simp only [List.length_zipWith] at hi
    rw [List.getElem_zipWith]
    have := hrows (c[i]'(by omega)) (List.getElem_mem _)
    split
    · simp [this]
    · simp [this, hz]
  · rintro i j a b v ha hb ⟨r, hr, hv⟩
    refine ⟨if a then r.map fun _ => 0 else List.zipWith (fun b v => if b then 0 else v) z r, ?_, ?_⟩
    · rw [List.getElem?_zipWith, ha, hr]
    · cases a
      · simp only [Bool.false_eq_true, if_false, List.getElem?_zipWith, hb, hv, false_or]
      · simp only [if_true, List.getElem?_map, hv, Option.map_some, true_or]

end

section
variable {m : Nat}

theorem varies_iff (r : Fin m → ℝ) : Varies r ↔ 0 < sxy r r := by
  have hsq : sxy r r = ∑ k, (r k - (∑ l, r l) / m) ^ 2 := by
    unfold sxy; exact Finset.sum_congr rfl fun k _ => by ring
  rw [hsq]
  constructor
  · rintro ⟨k, l, hkl⟩
    by_contra hneg
    have h0 : ∑ k, (r k - (∑ l, r l) / m) ^ 2 = 0 := le_antisymm (not_lt.mp hneg) (Finset.sum_nonneg fun k _ => sq_nonneg _)
    rw [Finset.sum_eq_zero_iff_of_nonneg fun k _ => sq_nonneg _] at h0
    have e1 := h0 k (Finset.mem_univ _)
    have e2 := h0 l (Finset.mem_univ _)
    rw [sq_eq_zero_iff, sub_eq_zero] at e1 e2
    exact hkl (e1.trans e2.symm)
  · intro hpos
    by_contra hno
    unfold Varies at hno
    push Not at hno
    rcases Nat.eq_zero_or_pos m with rfl | hm
    · simp at hpos
    · refine absurd hpos (not_lt.mpr (le_of_eq (Finset.sum_eq_zero fun k _ => ?_)))
      have : ∑ l, r l = m * r k := by
        rw [Finset.sum_congr rfl fun l _ => hno l k]; simp
      have hm' : (m : ℝ) ≠ 0 := by positivity
      rw [this, mul_div_cancel_left₀ _ hm', sub_self]; ring

theorem sxy_of_const {r s : Fin m → ℝ} (h : ¬ Varies r) : sxy r s = 0 := by
  unfold Varies at h
  push Not at h
  rcases Nat.eq_zero_or_pos m with rfl | hm
  · simp [sxy]
  · refine Finset.sum_eq_zero fun k _ => ?_
    have : ∑ l, r l = m * r k := by
      rw [Finset.sum_congr rfl fun l _ => h l k]; simp
    have hm' : (m : ℝ) ≠ 0 := by positivity
    rw [this, mul_div_cancel_left₀ _ hm', sub_self, zero_mul]

theorem sxy_comm (r s : Fin m → ℝ) : sxy r s = sxy s r := Finset.sum_congr rfl fun _ _ => mul_comm _ _

theorem sxy_sq_le (r s : Fin m → ℝ) : sxy r s ^ 2 ≤ sxy r r * sxy s s := by
  have := Finset.sum_mul_sq_le_sq_mul_sq Finset.univ (fun k => r k - (∑ l, r l) / m) (fun k => s k - (∑ l, s l) / m)
  unfold sxy
  simpa [sq] using this

/-- Cauchy and Schwarz: a correlation coefficient lies between -1 and 1. -/
theorem pearson_bounds (r s : Fin m → ℝ) : -1 ≤ pearson r s ∧ pearson r s ≤ 1 := by
  rw [← abs_le]
  unfold pearson
  rw [abs_div, abs_of_nonneg (Real.sqrt_nonneg _)]
  refine div_le_one_of_le₀ ?_ (Real.sqrt_nonneg _)
  rw [← Real.sqrt_sq_eq_abs]
  exact Real.sqrt_le_sqrt (sxy_sq_le r s)

open Classical in
theorem noNan_corrcoef (r s : Fin m → ℝ) : noNan (corrcoef r s) = if Varies r ∧ Varies s then pearson r s else 0 := by
  by_cases hm : m ≤ 1
  · have hr : ¬ Varies r := by
      rintro ⟨k, l, h⟩
      exact h (by congr 1; exact Fin.ext (by omega))
    simp [corrcoef, cov, hm, noNan, hr]
  · have hcov : ∀ r s : Fin m → ℝ, cov r s = .fin (sxy r s / ((m : ℝ) - 1)) := by
      intro r s; simp only [cov, if_neg hm, sxy, mean]
    have hm1 : (0 : ℝ) < (m : ℝ) - 1 := by
      have : (2 : ℝ) ≤ m := by exact_mod_cast (show 2 ≤ m by omega)
      linarith
    unfold corrcoef
    rw [hcov, hcov, hcov]
    simp only
    by_cases hr : Varies r
    · have hr' := (varies_iff r).mp hr
      have ha : Real.sqrt (sxy r r / ((m : ℝ) - 1)) ≠ 0 := (Real.sqrt_pos.mpr (div_pos hr' hm1)).ne'
      rw [Flt.div, if_pos ha]
      simp only
      by_cases hs : Varies s
      · have hs' := (varies_iff s).mp hs
        have hb : Real.sqrt (sxy s s / ((m : ℝ) - 1)) ≠ 0 := (Real.sqrt_pos.mpr (div_pos hs' hm1)).ne'
        rw [Flt.div, if_pos hb, if_pos ⟨hr, hs⟩]
        have hval : sxy r s / ((m : ℝ) - 1) / Real.sqrt (sxy r r / ((m : ℝ) - 1)) / Real.sqrt (sxy s s / ((m : ℝ) - 1)) = pearson r s := by
          unfold pearson
          rw [div_div, ← Real.sqrt_mul (div_pos hr' hm1).le, div_mul_div_comm, Real.sqrt_div' _ (mul_pos hm1 hm1).le,
            Real.sqrt_mul_self hm1.le]
          have : Real.sqrt (sxy r r * sxy s s) ≠ 0 := (Real.sqrt_pos.mpr (mul_pos hr' hs')).ne'
          have hm1' := hm1.ne'
          field_simp
        simp only [hval, noNan]
        obtain ⟨h1, h2⟩ := pearson_bounds r s
        rw [min_eq_left h2, max_eq_right h1]
      · have h0 : sxy r s = 0 := by rw [sxy_comm]; exact sxy_of_const hs
        have h1 : sxy s s = 0 := sxy_of_const hs
        simp [h0, h1, Flt.div, noNan, hs]
    · have h0 : sxy r s = 0 := sxy_of_const hr
      have h1 : sxy r r = 0 := sxy_of_const hr
      simp [h0, h1, Flt.div, noNan, hr]

open Classical in
/-- What the second map is to show for the samples `r`, `s` of two groups whose diagonal entries in the store are `a` and `b`: their correlation
coefficient; 0 if one of them does not vary or has no correlation in the store. -/
noncomputable def shown (a b : ℝ) (r s : Fin m → ℝ) : ℝ :=
  if a = 0 ∨ b = 0 then 0 else if Varies r ∧ Varies s then pearson r s else 0

theorem sampledCorr_ok {corr : List (List ℝ)} {n : Nat} (hc : Square corr n) {rows : List (Fin m → ℝ)} (hr : rows.length = n) :
    ∃ c2, sampledCorr corr rows = .ok c2 ∧ Square c2 n ∧ ∀ i j a b r s, Entry corr i i a → Entry corr j j b → rows[i]? = some r → rows[j]? = some s →
      Entry c2 i j (shown a b r s) := by
  have hsq : Square (rows.map fun r => rows.map fun s => noNan (corrcoef r s)) n := by
    refine ⟨by simp [hr], ?_⟩
    intro r hr'
    obtain ⟨r0, -, rfl⟩ := List.mem_map.mp hr'
    simp [hr]
  obtain ⟨c2, h1, h2, h3⟩ := blank_ok (z := zeroDiag corr) (by rw [zeroDiag_length, hc.1]) hsq
  refine ⟨c2, h1, h2, ?_⟩
  rintro i j a b r s ⟨ra, hra, ha⟩ ⟨rb, hrb, hb⟩ hri hsj
  have hent : Entry (rows.map fun r => rows.map fun s => noNan (corrcoef r s)) i j (noNan (corrcoef r s)) :=
    ⟨rows.map fun s => noNan (corrcoef r s), by simp [hri], by simp [hsj]⟩
  have := h3 i j _ _ _ (zeroDiag_get corr hra ha) (zeroDiag_get corr hrb hb) hent
  simp only [decide_eq_true_eq, noNan_corrcoef] at this
  exact this

theorem square_entry {c : List (List ℝ)} {n : Nat} (hc : Square c n) {i j : Nat} (hi : i < n) (hj : j < n) : ∃ v, Entry c i j v := by
  have h1 : i < c.length := by rw [hc.1]; exact hi
  have h2 : j < c[i].length := by rw [hc.2 _ (List.getElem_mem h1)]; exact hj
  exact ⟨c[i][j], c[i], List.getElem?_eq_getElem h1, List.getElem?_eq_getElem h2⟩

theorem flatten_ne {c : List (List ℝ)} {n : Nat} (hc : Square c n) (hn : 0 < n) : ∃ a b, c.flatten.max? = some a ∧ c.flatten.min? = some b := by
  obtain ⟨v, r, hr, hv⟩ := square_entry hc hn hn
  have hmem : v ∈ c.flatten := List.mem_flatten.mpr ⟨r, List.mem_of_getElem? hr, List.mem_of_getElem? hv⟩
  refine ⟨c.flatten.max (List.ne_nil_of_mem hmem), c.flatten.min (List.ne_nil_of_mem hmem), ?_, ?_⟩
  · exact List.max?_eq_some_max _
  · exact List.min?_eq_some_min _

theorem colourRange_ok {c c2 : List (List ℝ)} {n : Nat} (hc : Square c n) (hc2 : Square c2 n) (hn : 0 < n) (u : Bool) :
    ∃ p, colourRange u c c2 = .ok p := by
  obtain ⟨a, b, h1, h2⟩ := flatten_ne hc hn
  obtain ⟨a', b', h1', h2'⟩ := flatten_ne hc2 hn
  unfold colourRange
  rw [h1, h2, h1', h2']
  exact ⟨_, rfl⟩

theorem corrEdges_ok {g : Groups ℝ} {n : Nat} (h : Proper g n) (hn : 0 < n) (hz : g.low[n - 1]? = some 0 → 2 ≤ n) :
    ∃ b hl, corrEdges g = .ok (g.high ++ [b]).reverse ∧ g.high[n - 1]? = some hl ∧ b < hl ∧
      (g.low[n - 1]? = some 0 → b = hl / 2) ∧ (g.low[n - 1]? ≠ some 0 → g.low[n - 1]? = some b) := by
  obtain ⟨hl, -, hl2⟩ := getLast_of h.high hn
  obtain ⟨ll, hll1, hll2⟩ := getLast_of h.low hn
  have hb := h.bottom _ _ hll2 hl2
  unfold corrEdges
  rw [hll1]
  simp only
  by_cases h0 : ll = 0
  · subst h0
    have h2 := hz hll2
    have hnext : g.low[n - 2]? = some hl := by
      rw [h.contiguous (n - 2) (by omega), show n - 2 + 1 = n - 1 by omega]; exact hl2
    have hget : pyGet g.low (-2) = some hl := by
      unfold pyGet
      rw [if_neg (by omega), if_pos (by rw [h.low]; omega), h.low, show ((n : Int) + -2).toNat = n - 2 by omega]
      exact hnext
    refine ⟨hl / 2, hl, ?_, hl2, by linarith [hb.2], fun _ => rfl, fun hne => absurd hll2 hne⟩
    rw [if_pos rfl, hget]
    rfl
  · refine ⟨ll, hl, ?_, hl2, hb.2, fun h => ?_, fun _ => hll2⟩
    · rw [if_neg h0]; rfl
    · rw [hll2] at h; exact absurd (Option.some.inj h) h0

/-- The lowest energy the maps reach: the lower end of the groups, or half the last group's upper bound if that is 0. -/
def Reached (g : Groups ℝ) (n i : Nat) (e : ℝ) : Prop :=
  i + 1 = n → g.low[n - 1]? = some 0 → ∀ u, g.high[n - 1]? = some u → u / 2 < e

/-- **C131 (partial).** The figure `sampled_corr_compare` has two maps. At energies inside two groups the first one shows the correlation of these groups in
the store - the vertical axis the row, the horizontal one the column - and the second one the correlation coefficient of their samples, and nothing else. A group
whose samples are all equal, or which has a zero on the diagonal in the store, is shown with 0. The maps reach down to the lower end of the groups, or, if that
is 0, to half the last group's upper bound. Missing: what is below that, and a single group down to 0 (`C131_single_refuted`). -/
theorem C131_maps_partial {g : Groups ℝ} {n : Nat} (h : Proper g n) (hn : 0 < n) (hz : g.low[n - 1]? = some 0 → 2 ≤ n)
    {corr : List (List ℝ)} (hc : Square corr n) {rows : List (Fin m → ℝ)} (hr : rows.length = n) (u : Bool) :
    ∃ p q, corrMaps g corr rows u = .ok (p, q) ∧ ∀ i j x y, Inside g j x → Inside g i y → Reached g n j x → Reached g n i y →
      (∀ v, Entry corr i j v → p.Only x y v) ∧
      (∀ a b r s, Entry corr i i a → Entry corr j j b → rows[i]? = some r → rows[j]? = some s → q.Only x y (shown a b r s)) := by
  obtain ⟨b, hl, he, hl2, hb, hb0, hb1⟩ := corrEdges_ok h hn hz
  obtain ⟨c2, hs, hsq, hent⟩ := sampledCorr_ok (m := m) hc hr
  obtain ⟨⟨vmin, vmax⟩, hcr⟩ := colourRange_ok hc hsq hn u
  refine ⟨⟨(g.high ++ [b]).reverse, flip corr, vmin, vmax⟩, ⟨(g.high ++ [b]).reverse, flip c2, vmin, vmax⟩, ?_, ?_⟩
  · unfold corrMaps
    rw [he, hs]
    simp only [bind, Except.bind, hcr]
  · intro i j x y hx hy hx' hy'
    have key : ∀ {k : Nat} {e : ℝ}, Inside g k e → Reached g n k e → k + 1 = n → b < e := by
      intro k e hk hk' hkn
      by_cases h0 : g.low[n - 1]? = some 0
      · rw [hb0 h0]; exact hk' hkn h0 _ hl2
      · obtain ⟨l, _, h1, -, h3, -⟩ := hk
        have : k = n - 1 := by omega
        subst this
        rw [hb1 h0] at h1
        cases h1
        exact h3
    exact ⟨fun v hv => mesh_groups h hl2 hb hc hx hy (key hx hx') (key hy hy') hv,
      fun a b r s ha hb' hri hsj => mesh_groups h hl2 hb hsq hx hy (key hx hx') (key hy hy') (hent i j a b r s ha hb' hri hsj)⟩

theorem corrMaps_inv {g : Groups ℝ} {corr : List (List ℝ)} {rows : List (Fin m → ℝ)} {u : Bool} {p q : Mesh ℝ}
    (h : corrMaps g corr rows u = .ok (p, q)) : ∃ c2, sampledCorr corr rows = .ok c2 ∧ p.vals = flip corr ∧ q.vals = flip c2 ∧
      colourRange u corr c2 = .ok (p.vmin, p.vmax) ∧ q.vmin = p.vmin ∧ q.vmax = p.vmax := by
  unfold corrMaps at h
  cases he : corrEdges g with
  | error e => rw [he] at h; cases h
  | ok E =>
    cases hs : sampledCorr corr rows with
    | error e => rw [he, hs] at h; cases h
    | ok c2 =>
      cases hcr : colourRange u corr c2 with
      | error e => rw [he, hs] at h; simp only [bind, Except.bind, hcr] at h; cases h
      | ok pr =>
        rw [he, hs] at h
        simp only [bind, Except.bind, hcr] at h
        cases h
        exact ⟨c2, rfl, rfl, rfl, hcr, rfl, rfl⟩

theorem mem_flip {c : List (List ℝ)} {i j : Nat} {r : List ℝ} {v : ℝ} (h : (flip c)[i]? = some r) (hv : r[j]? = some v) : v ∈ c.flatten := by
  have h1 := List.mem_of_getElem? h
  unfold flip at h1
  rw [List.mem_reverse, List.mem_map] at h1
  obtain ⟨r0, hr0, rfl⟩ := h1
  exact List.mem_flatten.mpr ⟨r0, hr0, List.mem_reverse.mp (List.mem_of_getElem? hv)⟩

/-- **C132 (partial).** With the default setting both maps have the same colour range, -1 to 1, and every value shown in either of them lies in it, for
every correlation matrix with entries between -1 and 1 and all samples. Missing: the other setting, see `C132_data_range_refuted`. -/
theorem C132_range_partial {g : Groups ℝ} {n : Nat} {corr : List (List ℝ)} (hc : Square corr n)
    (hcorr : ∀ i j v, Entry corr i j v → -1 ≤ v ∧ v ≤ 1) {rows : List (Fin m → ℝ)} (hr : rows.length = n) {p q : Mesh ℝ}
    (h : corrMaps g corr rows true = .ok (p, q)) :
    (p.vmin = -1 ∧ p.vmax = 1) ∧ (q.vmin = -1 ∧ q.vmax = 1) ∧ ∀ x y v, p.Shows x y v ∨ q.Shows x y v → -1 ≤ v ∧ v ≤ 1 := by
  obtain ⟨c2, hs, hp, hq, hcr, h1, h2⟩ := corrMaps_inv h
  have hmem : ∀ {c : List (List ℝ)} {v : ℝ}, v ∈ c.flatten → ∃ i j, Entry c i j v := by
    intro c v hv
    obtain ⟨r, hrc, hvr⟩ := List.mem_flatten.mp hv
    obtain ⟨i, hi⟩ := List.mem_iff_getElem?.mp hrc
    obtain ⟨j, hj⟩ := List.mem_iff_getElem?.mp hvr
    exact ⟨i, j, r, hi, hj⟩
  have hc2 : ∀ v ∈ c2.flatten, -1 ≤ v ∧ v ≤ 1 := by
    intro v hv
    obtain ⟨c2', hs', hsq, hent⟩ := sampledCorr_ok hc hr
    rw [hs] at hs'
    cases hs'
    obtain ⟨i, j, r, hi, hj⟩ := hmem hv
    have hin : i < n := hsq.1 ▸ (List.getElem?_eq_some_iff.mp hi).1
    have hjn : j < n := hsq.2 r (List.mem_of_getElem? hi) ▸ (List.getElem?_eq_some_iff.mp hj).1
    obtain ⟨a, ha⟩ := square_entry hc hin hin
    obtain ⟨b, hb⟩ := square_entry hc hjn hjn
    obtain ⟨r', hr', hv'⟩ := hent i j a b _ _ ha hb (List.getElem?_eq_getElem (by omega)) (List.getElem?_eq_getElem (by omega))
    rw [hi] at hr'
    cases hr'
    rw [hj] at hv'
    rw [Option.some.inj hv', shown]
    split
    · norm_num
    · split
      · exact pearson_bounds _ _
      · norm_num
  have hrange : p.vmin = -1 ∧ p.vmax = 1 := by
    unfold colourRange at hcr
    split at hcr
    · rename_i cmax cmin smax smin h1 h2 h3 h4
      have hsm := hc2 smax (List.max?_mem h3)
      have hsn := hc2 smin (List.min?_mem h4)
      simp only [if_true, if_neg (not_lt.mpr hsm.2 : ¬ smax > 1), if_neg (not_lt.mpr hsn.1)] at hcr
      simp only [Except.ok.injEq, Prod.mk.injEq] at hcr
      exact ⟨hcr.1.symm, hcr.2.symm⟩
    · cases hcr
  refine ⟨hrange, ⟨h1.trans hrange.1, h2.trans hrange.2⟩, ?_⟩
  rintro x y v (⟨i, j, a, b, c, d, r, -, -, -, -, -, -, -, -, hr', hv⟩ | ⟨i, j, a, b, c, d, r, -, -, -, -, -, -, -, -, hr', hv⟩)
  · rw [hp] at hr'
    obtain ⟨i, j, he⟩ := hmem (mem_flip hr' hv)
    exact hcorr _ _ _ he
  · rw [hq] at hr'
    exact hc2 v (mem_flip hr' hv)

end

/-- Two groups down to 1/2. -/
noncomputable def exGR : Groups ℝ := ⟨[4, 2], [2, 1/2], [3, 5], [1/10, 1/5]⟩

theorem exGR_proper : Proper exGR 2 where
  high := rfl
  low := rfl
  sd := rfl
  rel := rfl
  decreasing := by simp [exGR]; norm_num
  contiguous := by intro i hi; have : i = 0 := by omega
                   subst this; rfl
  bottom := by
    intro l h hl hh
    simp only [exGR, List.getElem?_cons_succ, List.getElem?_cons_zero, Option.some.injEq] at hl hh
    subst hl hh
    norm_num

noncomputable def exCorr : List (List ℝ) := [[1, -1/2], [-1/2, 1]]

theorem exCorr_square : Square exCorr 2 := ⟨rfl, by intro r hr; simp [exCorr] at hr; rcases hr with rfl | rfl <;> rfl⟩

/-- Two samples, the same in both groups. -/
noncomputable def exRowsR : List (Fin 2 → ℝ) := [![1, 2], ![1, 2]]

example : ∃ p q, corrMaps exGR exCorr exRowsR true = .ok (p, q) ∧ p.Only 1 3 (-1/2) ∧ q.Only 1 3 (pearson ![1, 2] ![1, 2]) := by
  obtain ⟨p, q, h, hpq⟩ := C131_maps_partial exGR_proper (by norm_num) (fun _ => le_rfl) exCorr_square (rows := exRowsR) rfl true
  have hx : Inside exGR 1 1 := ⟨1/2, 2, rfl, rfl, by norm_num, by norm_num⟩
  have hy : Inside exGR 0 3 := ⟨2, 4, rfl, rfl, by norm_num, by norm_num⟩
  obtain ⟨h1, h2⟩ := hpq 0 1 1 3 hx hy (by intro _ h0; simp [exGR] at h0) (by intro h; omega)
  refine ⟨p, q, h, h1 _ ⟨[1, -1/2], rfl, rfl⟩, ?_⟩
  have := h2 1 1 ![1, 2] ![1, 2] ⟨[1, -1/2], rfl, rfl⟩ ⟨[-1/2, 1], rfl, rfl⟩ rfl rfl
  have hv : Varies (![1, 2] : Fin 2 → ℝ) := ⟨0, 1, by simp⟩
  rwa [shown, if_neg (by norm_num), if_pos ⟨hv, hv⟩] at this

theorem ex_pearson : pearson (![1, 2] : Fin 2 → ℝ) ![1, 2] = 1 := by
  have hs : sxy (![1, 2] : Fin 2 → ℝ) ![1, 2] = 1/2 := by simp [sxy, Fin.sum_univ_two]; norm_num
  unfold pearson
  rw [hs, Real.sqrt_mul_self (by norm_num)]
  norm_num

/-- **C132 is false with `use_max_range_for_correlation_plot=False`**: minimum and maximum of the original matrix are swapped, so that a correlation of -1/2
is shown in a map whose colours range from 1 to 1. -/
theorem C132_data_range_refuted : ∃ p q, corrMaps exGR exCorr exRowsR false = .ok (p, q) ∧ p.Only 1 3 (-1/2) ∧ p.vmin = 1 ∧ p.vmax = 1 := by
  obtain ⟨p, q, h, hpq⟩ := C131_maps_partial exGR_proper (by norm_num) (fun _ => le_rfl) exCorr_square (rows := exRowsR) rfl false
  have hx : Inside exGR 1 1 := ⟨1/2, 2, rfl, rfl, by norm_num, by norm_num⟩
  have hy : Inside exGR 0 3 := ⟨2, 4, rfl, rfl, by norm_num, by norm_num⟩
  obtain ⟨h1, -⟩ := hpq 0 1 1 3 hx hy (by intro _ h0; simp [exGR] at h0) (by intro h; omega)
  refine ⟨p, q, h, h1 _ ⟨[1, -1/2], rfl, rfl⟩, ?_⟩
  obtain ⟨c2, hs, -, -, hcr, -, -⟩ := corrMaps_inv h
  have hv : Varies (![1, 2] : Fin 2 → ℝ) := ⟨0, 1, by simp⟩
  have hc2 : c2 = [[1, 1], [1, 1]] := by
    have hn : noNan (corrcoef (![1, 2] : Fin 2 → ℝ) ![1, 2]) = 1 := by
      rw [noNan_corrcoef, if_pos ⟨hv, hv⟩, ex_pearson]
    unfold sampledCorr blank at hs
    simp [zeroDiag, exCorr, exRowsR, hn] at hs
    exact hs.symm
  subst hc2
  have hmax : exCorr.flatten.max? = some 1 := by
    rw [List.max?_eq_some_iff]; simp [exCorr]; norm_num
  have hmin : exCorr.flatten.min? = some (-1/2) := by
    rw [List.min?_eq_some_iff]; simp [exCorr]; norm_num
  have hmax2 : ([[1, 1], [1, 1]] : List (List ℝ)).flatten.max? = some 1 := by
    rw [List.max?_eq_some_iff]; simp
  have hmin2 : ([[1, 1], [1, 1]] : List (List ℝ)).flatten.min? = some 1 := by
    rw [List.min?_eq_some_iff]; simp
  unfold colourRange at hcr
  rw [hmax, hmin, hmax2, hmin2] at hcr
  simp only [Bool.false_eq_true, if_false] at hcr
  rw [if_neg (lt_irrefl _), if_pos (by norm_num)] at hcr
  simp only [Except.ok.injEq, Prod.mk.injEq] at hcr
  exact ⟨hcr.1.symm, hcr.2.symm⟩

/-- **C131 is false for a single group that reaches down to 0**: an `IndexError`. -/
theorem C131_single_refuted {m : Nat} (h d r : ℝ) (corr : List (List ℝ)) (rows : List (Fin m → ℝ)) (u : Bool) :
    corrMaps ⟨[h], [0], [d], [r]⟩ corr rows u = .error .indexError := by
  simp [corrMaps, corrEdges, pyGet, bind, Except.bind]

end ASAPy.Plots
