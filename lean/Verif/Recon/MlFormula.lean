import Verif.Recon.Props

/-!
# The formula of multi-level Breit-Wigner
-/

namespace ASAPy.Recon
open Spec

noncomputable section

/-! ### The possible J -/

theorem allowed_of_index {n L i : ℕ} (hi : (i : ℤ) < nJ ((n : ℝ) / 2) (L : ℤ)) : Allowed ((n : ℝ) / 2) (L : ℤ) (jmin ((n : ℝ) / 2) (L : ℤ) + i) := by
  have hi0 : (0 : ℝ) ≤ i := Nat.cast_nonneg i
  rcases jmin_cases n L with ⟨h, hj, hN⟩ | ⟨h, hj, hN⟩ | ⟨h, hj, hN⟩
  · rw [hN] at hi
    rw [hj]
    have h' : (2 * L + 1 : ℝ) ≤ n := by exact_mod_cast h
    by_cases hlast : i ≤ 2 * L
    · have hl' : (i : ℝ) ≤ 2 * L := by exact_mod_cast hlast
      have es : |(n : ℝ) / 2 - 1 / 2| = (n : ℝ) / 2 - 1 / 2 := abs_of_nonneg (by linarith [(Nat.cast_nonneg L : (0 : ℝ) ≤ L)])
      refine ⟨(n : ℝ) / 2 - 1 / 2, .inl es.symm, i, ?_, ?_⟩ <;> push_cast
      · rw [abs_of_nonpos (by linarith)]; ring
      · linarith
    · have he : i = 2 * L + 1 := by omega
      refine ⟨(n : ℝ) / 2 + 1 / 2, .inr rfl, 2 * L, ?_, ?_⟩ <;> rw [he] <;> push_cast
      · rw [abs_of_nonpos (by linarith)]; ring
      · linarith
  · rw [hN] at hi
    rw [hj]
    have h' : (n : ℝ) = 2 * L := by exact_mod_cast h
    have hl' : (i : ℝ) ≤ 2 * L := by exact_mod_cast (by omega : i ≤ 2 * L)
    refine ⟨(n : ℝ) / 2 + 1 / 2, .inr rfl, i, ?_, ?_⟩ <;> push_cast
    · rw [h', abs_of_nonpos (by linarith)]; ring
    · linarith
  · rw [hN] at hi
    rw [hj]
    have h' : (n + 1 : ℝ) ≤ 2 * L := by exact_mod_cast h
    have hl' : (i : ℝ) ≤ n + 1 := by exact_mod_cast (by omega : i ≤ n + 1)
    refine ⟨(n : ℝ) / 2 + 1 / 2, .inr rfl, i, ?_, ?_⟩ <;> push_cast
    · rw [abs_of_nonneg (by linarith)]; ring
    · linarith

theorem finsum_allowed (n L : ℕ) (F : ℝ → ℝ) : ∑ᶠ J ∈ {J | Allowed ((n : ℝ) / 2) (L : ℤ) J}, F J =
    ((List.range (nJ ((n : ℝ) / 2) (L : ℤ)).toNat).map fun i : ℕ => F (jmin ((n : ℝ) / 2) (L : ℤ) + i)).sum := by
  classical
  have e : {J | Allowed ((n : ℝ) / 2) (L : ℤ) J} = ↑(((List.range (nJ ((n : ℝ) / 2) (L : ℤ)).toNat).map fun i : ℕ => jmin ((n : ℝ) / 2) (L : ℤ) + i).toFinset) := by
    ext J
    rw [Finset.mem_coe, List.mem_toFinset, List.mem_map, Set.mem_setOf_eq]
    constructor
    · intro h
      obtain ⟨i, hi, hlt⟩ := index_of h
      exact ⟨i, by rw [List.mem_range]; omega, hi.symm⟩
    · rintro ⟨i, hi, rfl⟩
      rw [List.mem_range] at hi
      exact allowed_of_index (by omega)
  have hnd : ((List.range (nJ ((n : ℝ) / 2) (L : ℤ)).toNat).map fun i : ℕ => jmin ((n : ℝ) / 2) (L : ℤ) + i).Nodup := by
    apply List.Nodup.map _ List.nodup_range
    intro a b h
    have : (a : ℝ) = b := by simpa using h
    exact_mod_cast this
  rw [e, finsum_mem_coe_finset, List.sum_toFinset F hnd, List.map_map]
  rfl

/-! ### The sums of each J -/

theorem xOf_eq (b : Base) (E : ℝ) (r : BwRow) : xOf b E r = detuning b r E := rfl

theorem fOf_eq (b : Base) (E : ℝ) (r : BwRow) : fOf b E r = strength b r E := by
  unfold fOf strength
  rw [xOf_eq, div_mul_div_comm, sq, mul_comm 2]

theorem mlbwRow_s {b : Base} {E : ℝ} {l : ℤ} {t t' : MlState} {r : BwRow} (hl : r.l = l) {i : ℕ} (hi : r.j = jmin b.spin l + i)
    (h : mlbwRow b.spin E (pen b l E) (shift b l E) (jmin b.spin l) (nJ b.spin l) t (prepared b r) = .ok t') :
    t'.s = Function.update t.s i ((t.s i).1 + fOf b E r, (t.s i).2 + fOf b E r * xOf b E r) := by
  have hw := bwWidths_eq b E r
  rw [hl] at hw
  have hidx : trunc ((prepared b r).j - jmin b.spin l) = i := trunc_int (by show r.j - _ = _; rw [hi]; simp)
  unfold mlbwRow at h
  rw [hidx, hw] at h
  simp only [] at h
  split at h
  · cases h
  · injection h with h
    rw [← h]
    rfl

theorem mlbw_s {b : Base} {E : ℝ} {l : ℤ} : ∀ (rows : List BwRow) (t t' : MlState), (∀ r ∈ rows, r.l = l ∧ HasIndex b.spin l r) →
    (rows.map (prepared b)).foldlM (mlbwRow b.spin E (pen b l E) (shift b l E) (jmin b.spin l) (nJ b.spin l)) t = .ok t' → ∀ i : ℕ,
      t'.s i = ((t.s i).1 + (rows.map fun r => if r.j = jmin b.spin l + i then fOf b E r else 0).sum,
        (t.s i).2 + (rows.map fun r => if r.j = jmin b.spin l + i then fOf b E r * xOf b E r else 0).sum)
  | [], t, t', _, h, i => by
    injection h with h
    simp [← h]
  | r :: rows, t, t', hr, h, i => by
    rw [List.map_cons, List.foldlM_cons] at h
    obtain ⟨hl, k, hk, -⟩ := hr r List.mem_cons_self
    cases h1 : mlbwRow b.spin E (pen b l E) (shift b l E) (jmin b.spin l) (nJ b.spin l) t (prepared b r) with
    | error e => rw [h1] at h; cases h
    | ok t1 =>
      rw [h1, ok_bind] at h
      have ih := mlbw_s rows t1 t' (fun q hq => hr q (List.mem_cons_of_mem _ hq)) h i
      rw [ih, mlbwRow_s hl hk h1, List.map_cons, List.sum_cons, List.map_cons, List.sum_cons]
      by_cases e : i = k
      · subst e
        rw [Function.update_self, if_pos hk, if_pos hk]
        simp only [add_assoc]
      · have hne : (i : ℤ) ≠ k := by exact_mod_cast e
        have hj : ¬(r.j = jmin b.spin l + i) := by
          rw [hk]
          intro h
          have : (k : ℝ) = i := by linarith
          exact e (by exact_mod_cast this.symm)
        rw [Function.update_of_ne hne, if_neg hj, if_neg hj, zero_add, zero_add]

theorem sum_rows_of (d : Bw) (l : ℤ) (J : ℝ) (f : BwRow → ℝ) : ((rowsOf d l).map fun r => if r.j = J then f r else 0).sum = sumOver d l J f := by
  classical
  unfold sumOver rowsOf
  induction d.rows with
  | nil => rfl
  | cons r rows ih =>
    rw [List.filter_cons]
    by_cases h : r.l = l
    · rw [if_pos (by simpa using h), List.map_cons, List.sum_cons, List.map_cons, List.sum_cons, ih]
      congr 1
      by_cases hj : r.j = J
      · rw [if_pos hj, if_pos ⟨h, hj⟩]
      · rw [if_neg hj, if_neg fun e => hj e.2]
    · rw [if_neg (by simpa using h), List.map_cons, List.sum_cons, if_neg fun e => h e.1, zero_add, ih]

/-- Elastic scattering of an l. -/
theorem mlbwAt_elastic {d : Bw} {E : ℝ} (h : BwOk d E) {l : ℤ} (hl : l ∈ firsts [] (d.rows.map (·.l))) {x : Xs}
    (hx : mlbwAt d.toBase E l ((rowsOf d l).map (prepared d.toBase)) = .ok x) : x.elastic = multiLevel d E l := by
  obtain ⟨r, hr, hrl⟩ := firsts_row hl
  have hok := (h.2 r hr).1
  rw [hrl] at hok
  have hφ := phi_same hok
  have hrows : ∀ q ∈ rowsOf d l, q.l = l ∧ HasIndex d.spin l q := fun q hq => by
    obtain ⟨hq1, hq2⟩ := rowsOf_mem hq
    exact ⟨hq2, hq2 ▸ hasIndex_of h hq1⟩
  unfold mlbwAt at hx
  rw [waves_ok hok] at hx
  simp only [ok_bind] at hx
  cases ht : ((rowsOf d l).map (prepared d.toBase)).foldlM (mlbwRow d.spin E (pen d.toBase l E) (shift d.toBase l E) (jmin d.spin l) (nJ d.spin l)) ⟨fun _ => (0, 0), 0, 0⟩ with
  | error e => rw [ht] at hx; cases hx
  | ok t =>
    rw [ht] at hx
    simp only [ok_bind] at hx
    injection hx with hx
    rw [← hx]
    simp only []
    have hs := mlbw_s (rowsOf d l) ⟨fun _ => (0, 0), 0, 0⟩ t hrows ht
    simp only [zero_add, sum_rows_of, fOf_eq, xOf_eq] at hs
    obtain ⟨n, hn⟩ := h.1.1
    obtain ⟨L, hL⟩ := Int.eq_ofNat_of_zero_le hok.1
    unfold multiLevel dl
    simp only []
    rw [hφ.1, hφ.2.1]
    have e1 : ∑ᶠ J ∈ {J | Allowed d.spin l J}, weight d.spin J = ((List.range (nJ d.spin l).toNat).map fun ij : ℕ => gJ d.spin (jmin d.spin l) ij).sum := by
      rw [hn, hL, finsum_allowed]
      congr 1
      apply List.map_congr_left
      intro i _
      rw [gJ_weight]
    rw [e1]
    congr 1
    have e2 : ∀ F : ℝ → ℝ, ∑ᶠ J ∈ {J | Allowed d.spin l J}, F J = ((List.range (nJ d.spin l).toNat).map fun i : ℕ => F (jmin d.spin l + i)).sum := by
      intro F
      rw [hn, hL]
      exact finsum_allowed n L F
    rw [e2]
    congr 1
    apply List.map_congr_left
    intro i _
    rw [hs i, gJ_weight]

theorem fold_elastic {d : Bw} {E : ℝ} (h : BwOk d E) {m : BwMatrix} (hm : ∀ l ∈ firsts [] (d.rows.map (·.l)), rowsAt m l = .ok ((rowsOf d l).map (prepared d.toBase)))
    (ls : List ℤ) : ∀ t x : Xs, (∀ l ∈ ls, l ∈ firsts [] (d.rows.map (·.l))) → ls.foldlM (fun (t : Xs) l => do
      let rows ← rowsAt m l
      let d ← mlbwAt d.toBase E l rows
      return (⟨t.elastic + d.elastic, t.capture + d.capture, t.fission + d.fission⟩ : Xs)) t = .ok x → x.elastic = t.elastic + (ls.map (multiLevel d E)).sum := by
  induction ls with
  | nil =>
    intro t x _ hx
    injection hx with hx
    simp [← hx]
  | cons l ls ih =>
    intro t x hl hx
    rw [List.foldlM_cons, hm l (hl l List.mem_cons_self)] at hx
    simp only [ok_bind] at hx
    obtain ⟨y, ey, -⟩ := mlbwAt_ok h (hl l List.mem_cons_self)
    rw [ey] at hx
    have := ih _ x (fun q hq => hl q (List.mem_cons_of_mem _ hq)) hx
    rw [this, mlbwAt_elastic h (hl l List.mem_cons_self) ey, List.map_cons, List.sum_cons, add_assoc]

/-- C204. Multi-level Breit-Wigner cross sections: elastic scattering is the sum of the formula over the l of the resonances, with resonances of the same l and J interfering
and potential scattering of the J that are formed twice; capture and fission are sums over the resonances. -/
theorem C204_mlbw_formula {d : Bw} {E : ℝ} (h : BwOk d E) :
    ∃ x, xsOf mlbwF d E = .ok (.number x) ∧ x.elastic = Real.pi / waveNumber d.awr E ^ 2 * ∑ l ∈ lvalues (d.rows.map (·.l)), multiLevel d E l ∧
      x.capture = (d.rows.map fun r => line d.toBase r E * r.gg).sum ∧ x.fission = (d.rows.map fun r => line d.toBase r E * r.gf).sum := by
  obtain ⟨x, ex, -, h2, h3, -⟩ := mlbw_ok h (rowsAt_dict d fun _ => none)
  refine ⟨x, xsOf_ok (F := mlbwF) (prepareBw_ok h _) ex, ?_, h2, h3⟩
  obtain ⟨y, ey, -⟩ := fold_mlbw h (rowsAt_dict d fun _ => none) (firsts [] (d.rows.map (·.l))) ⟨0, 0, 0⟩ fun _ hl => hl
  have hy := fold_elastic h (rowsAt_dict d fun _ => none) (firsts [] (d.rows.map (·.l))) ⟨0, 0, 0⟩ y (fun _ hl => hl) ey
  unfold mlbw at ex
  simp only [] at ex
  rw [ey] at ex
  simp only [ok_bind] at ex
  injection ex with ex
  rw [← ex]
  simp only []
  rw [hy, zero_add, firsts_sum, sq, mul_comm]
  rfl

end
end ASAPy.Recon
