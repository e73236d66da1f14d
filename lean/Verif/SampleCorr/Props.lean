import Verif.SampleCorr.Model
import Verif.RankOrder.Props
import Mathlib.Tactic.NormNum
import Mathlib.Tactic.Linarith
import Mathlib.Tactic.Tauto

/-! # C43 and C44: which variables are sampled, and where the samples go -/

set_option linter.unusedSectionVars false

namespace ASAPy.SampleCorr
variable {K : Type*} [Field K] [LinearOrder K]

/-! ### Specification -/

/-- Variable `i` must not be sampled: no deviation, or mean zero under lognormal. -/
def Fixed (mean std : List K) (d : Distro) (i : Nat) : Prop :=
  (∃ s, std[i]? = some s ∧ s ≤ 1 / 10 ^ 30) ∨ (d = .lognormal ∧ mean[i]? = some 0)

/-- Variable `i` has no correlation data. -/
def NoData (corr : List (List K)) (i : Nat) : Prop := (corr[i]?).bind (fun r => r[i]?) = some 0

/-- Well-shaped arguments. -/
structure Shape (mean std : List K) (corr : List (List K)) : Prop where
  std : std.length = mean.length
  rows : corr.length = mean.length
  cols : ∀ r ∈ corr, r.length = mean.length

/-- The scores have a column per variable and an entry per sample, and so many values are drawn. -/
structure Drawn (scores : List K → List K → List (List K) → Except PyErr (List (List K))) (draw : Nat → K → K → List K)
    (num : Nat) : Prop where
  scores : ∀ mean std corr N, scores mean std corr = .ok N → N.length = mean.length ∧ ∀ c ∈ N, c.length = num
  draw : ∀ v m s, (draw v m s).length = num

/-! ### Lemmas -/

theorem foldl_min (l : List K) : ∀ a, let m := l.foldl (fun m x => if x < m then x else m) a
    (m = a ∨ m ∈ l) ∧ m ≤ a ∧ ∀ x ∈ l, m ≤ x := by
  induction l with
  | nil => intro a; simp
  | cons b l ih =>
    intro a
    simp only [List.foldl_cons]
    obtain ⟨h1, h2, h3⟩ := ih (if b < a then b else a)
    split_ifs at h1 h2 h3 ⊢ with hab
    · refine ⟨?_, h2.trans hab.le, ?_⟩
      · rcases h1 with h1 | h1
        · right; rw [h1]; exact List.mem_cons_self ..
        · right; exact List.mem_cons_of_mem _ h1
      · intro x hx
        rcases List.mem_cons.mp hx with rfl | hx
        · exact h2
        · exact h3 x hx
    · refine ⟨?_, h2, ?_⟩
      · rcases h1 with h1 | h1
        · left; exact h1
        · right; exact List.mem_cons_of_mem _ h1
      · intro x hx
        rcases List.mem_cons.mp hx with rfl | hx
        · exact h2.trans (not_lt.mp hab)
        · exact h3 x hx

theorem pyMin_spec {l : List K} {m : K} (h : pyMin l = .ok m) : m ∈ l ∧ ∀ x ∈ l, m ≤ x := by
  cases l with
  | nil => cases h
  | cons a l =>
    obtain ⟨h1, h2, h3⟩ := foldl_min l a
    simp only [pyMin, Except.ok.injEq] at h
    subst h
    refine ⟨List.mem_cons.mpr h1, ?_⟩
    intro x hx
    rcases List.mem_cons.mp hx with rfl | hx
    · exact h2
    · exact h3 x hx

theorem diag_getElem? (corr : List (List K)) (hsq : ∀ r ∈ corr, r.length = corr.length) (i : Nat) :
    (diag corr)[i]? = (corr[i]?).bind fun r => r[i]? := by
  have key : ∀ (l : List (List K)) (k : Nat), (∀ r ∈ l, k + l.length ≤ r.length) → ∀ i : Nat,
      ((l.zipIdx k).filterMap fun p => p.1[p.2]?)[i]? = (l[i]?).bind fun r => r[k + i]? := by
    intro l
    induction l with
    | nil => intro k _ i; simp
    | cons r l ih =>
      intro k hl i
      have hr := hl r (List.mem_cons_self ..)
      simp only [List.length_cons] at hr
      have hk : k < r.length := by omega
      simp only [List.zipIdx_cons, List.filterMap_cons, List.getElem?_eq_getElem hk]
      cases i with
      | zero => simp [List.getElem?_eq_getElem hk]
      | succ i =>
        simp only [List.getElem?_cons_succ]
        rw [ih (k + 1) (fun r hr => by have := hl r (List.mem_cons_of_mem _ hr); simp only [List.length_cons] at this; omega) i]
        congr 1
        funext r
        congr 1
        omega
  have := key corr 0 (fun r hr => by rw [hsq r hr]; omega) i
  simpa [diag] using this

theorem diag_length (corr : List (List K)) (hsq : ∀ r ∈ corr, r.length = corr.length) : (diag corr).length = corr.length := by
  have hdiag := diag_getElem? corr hsq
  have h1 : ∀ i : Nat, i < corr.length → i < (diag corr).length := by
    intro i hic
    by_contra hc
    have h2 := hdiag i
    rw [List.getElem?_eq_none (by omega), List.getElem?_eq_getElem hic, Option.bind_some,
      List.getElem?_eq_getElem (by rw [hsq _ (List.getElem_mem hic)]; exact hic)] at h2
    cases h2
  have h3 : (diag corr).length ≤ corr.length := by
    unfold diag
    exact (List.length_filterMap_le _ _).trans (by simp)
  by_contra hne
  have := h1 (diag corr).length (by omega)
  omega

theorem mem_select {α : Type*} {x : α} : ∀ (m : List Bool) (l : List α), x ∈ select m l →
    ∃ i : Nat, i < l.length ∧ m[i]? = some false ∧ l[i]? = some x
  | [], _, h => by simp [select] at h
  | _ :: _, [], h => by simp [select] at h
  | true :: m, y :: l, h => by
    obtain ⟨i, h1, h2, h3⟩ := mem_select m l (by simpa [select] using h)
    exact ⟨i + 1, by simpa using h1, by simpa using h2, by simpa using h3⟩
  | false :: m, y :: l, h => by
    simp only [select, Bool.false_eq_true, if_false, List.mem_cons] at h
    rcases h with rfl | h
    · exact ⟨0, by simp, rfl, rfl⟩
    · obtain ⟨i, h1, h2, h3⟩ := mem_select m l h
      exact ⟨i + 1, by simpa using h1, by simpa using h2, by simpa using h3⟩

/-- Number of sampled variables before `i`. -/
def pos (m : List Bool) (i : Nat) : Nat := (m.take i).countP (· == false)

theorem select_pos {α : Type*} : ∀ (m : List Bool) (l : List α) (i : Nat), m.length = l.length → m[i]? = some false →
    (select m l)[pos m i]? = l[i]?
  | [], _, _, _, h => by simp at h
  | b :: m, [], _, hl, _ => by simp at hl
  | b :: m, x :: l, 0, _, h => by
    simp only [List.getElem?_cons_zero, Option.some.injEq] at h
    subst h
    simp [select, pos]
  | b :: m, x :: l, i + 1, hl, h => by
    simp only [List.getElem?_cons_succ] at h ⊢
    have ih := select_pos m l i (by simpa using hl) h
    cases b
    · simp only [select, pos, List.take_succ_cons, List.countP_cons] at ih ⊢
      simpa using ih
    · simp only [select, pos, List.take_succ_cons, List.countP_cons] at ih ⊢
      simpa using ih

theorem select_length {α : Type*} : ∀ (m : List Bool) (l : List α), m.length = l.length →
    (select m l).length = m.countP (· == false)
  | [], [], _ => rfl
  | [], _ :: _, h => by simp at h
  | _ :: _, [], h => by simp at h
  | b :: m, x :: l, h => by
    have ih := select_length m l (by simpa using h)
    cases b <;> simp [select, ih]

theorem pos_lt : ∀ (m : List Bool) (i : Nat), m[i]? = some false → pos m i < m.countP (· == false)
  | [], _, h => by simp at h
  | b :: m, 0, h => by
    simp only [List.getElem?_cons_zero, Option.some.injEq] at h
    subst h
    simp [pos]
  | b :: m, i + 1, h => by
    have ih := pos_lt m i (by simpa using h)
    cases b <;> simp [pos] at ih ⊢ <;> omega

theorem place_spec (num : Nat) : ∀ (m : List Bool) (mean : List K) (cols : List (List K)), m.length = mean.length →
    cols.length = m.countP (· == false) → (place num m mean cols).length = mean.length ∧
    ∀ i, (m[i]? = some true → (place num m mean cols)[i]? = (mean[i]?).map (List.replicate num)) ∧
      (m[i]? = some false → (place num m mean cols)[i]? = cols[pos m i]?)
  | [], [], cols, _, _ => by simp [place]
  | [], _ :: _, _, h, _ => by simp at h
  | _ :: _, [], _, h, _ => by simp at h
  | true :: m, x :: mean, cols, h, hc => by
    obtain ⟨h1, h2⟩ := place_spec num m mean cols (by simpa using h) (by simpa using hc)
    refine ⟨by simp [place, h1], ?_⟩
    intro i
    cases i with
    | zero => simp [place]
    | succ i => simpa [place, pos] using h2 i
  | false :: m, x :: mean, [], h, hc => by simp at hc
  | false :: m, x :: mean, c :: cols, h, hc => by
    obtain ⟨h1, h2⟩ := place_spec num m mean cols (by simpa using h) (by simpa using hc)
    refine ⟨by simp [place, h1], ?_⟩
    intro i
    cases i with
    | zero => simp [place, pos]
    | succ i => simpa [place, pos] using h2 i

/-- What the mask is: none if no variable is fixed by its deviation or (seen by the test on the smallest mean) by its mean. -/
theorem mask_spec {mean std dg : List K} {d : Distro} {m : Option (List Bool)} (hl1 : std.length = mean.length)
    (hl2 : dg.length = mean.length) (h : mask mean std dg d = .ok m) :
    (m = none → (∀ s ∈ std, ¬ s ≤ 1 / 10 ^ 30) ∧ (d = .lognormal → ∀ mm, pyMin mean = .ok mm → mm ≠ 0)) ∧
    ∀ l, m = some l → l.length = mean.length ∧
      ((∃ s ∈ std, s ≤ 1 / 10 ^ 30) ∨ (d = .lognormal ∧ ∃ mm, pyMin mean = .ok mm ∧ mm = 0)) ∧
      ∀ i (hi : i < mean.length), l[i]? = some true ↔
        (std[i]'(by omega) ≤ 1 / 10 ^ 30 ∨ (d = .lognormal ∧ (∃ mm, pyMin mean = .ok mm ∧ mm = 0) ∧ mean[i] = 0) ∨
          dg[i]'(by omega) = 0) := by
  unfold mask at h
  cases hs : pyMin std with
  | error e => simp [hs] at h
  | ok smin =>
    cases hm : pyMin mean with
    | error e => simp [hs, hm] at h
    | ok mmin =>
      simp only [hs, hm, Except.ok.injEq] at h
      obtain ⟨hs1, hs2⟩ := pyMin_spec hs
      have hno : ¬ smin ≤ 1 / 10 ^ 30 → ∀ s ∈ std, ¬ s ≤ 1 / 10 ^ 30 := fun hc s hx hle => hc ((hs2 s hx).trans hle)
      have hnd : (dg.map fun x => decide (x = 0)).any id = false → ∀ i (hi : i < dg.length), dg[i] ≠ 0 := by
        intro hf i hi h0
        rw [List.any_eq_false] at hf
        exact hf true (List.mem_map.mpr ⟨dg[i], List.getElem_mem hi, by simp [h0]⟩) rfl
      by_cases c1 : smin ≤ 1 / 10 ^ 30 <;> by_cases c2 : mmin = 0 ∧ d = .lognormal <;>
        cases c3 : (dg.map fun x => decide (x = 0)).any id <;> simp only [c1, c2, c3, if_true, if_false, and_self, Bool.false_eq_true] at h <;>
        subst h
      all_goals refine ⟨fun hc => ?_, fun l hl => ?_⟩
      all_goals first
        | (exfalso; exact Option.noConfusion rfl (heq_of_eq hc); done)
        | (exfalso; simp at hc; done)
        | (exfalso; simp at hl; done)
        | exact ⟨hno c1, fun hd mm hmm h0 => c2 ⟨by cases hmm; exact h0, hd⟩⟩
        | skip
      all_goals
        simp only [Option.some.injEq] at hl
        subst hl
      all_goals refine ⟨by simp [hl1, hl2], ?_, ?_⟩
      all_goals first
        | exact Or.inl ⟨smin, hs1, c1⟩
        | exact Or.inr ⟨c2.2, mmin, rfl, c2.1⟩
        | skip
      all_goals
        intro i hi
        have hi1 : i < std.length := by omega
        have hi2 : i < dg.length := by omega
        have hex : (∃ mm, Except.ok (ε := PyErr) mmin = Except.ok mm ∧ mm = 0) ↔ mmin = 0 := by
          constructor
          · rintro ⟨mm, h1, h2⟩; cases h1; exact h2
          · intro h; exact ⟨mmin, rfl, h⟩
        have hno' := fun hc => hno hc _ (List.getElem_mem hi1)
        have hnd' := fun hc => hnd hc i hi2
        simp only [hex, List.getElem?_zipWith, List.getElem?_map, List.getElem?_eq_getElem hi, List.getElem?_eq_getElem hi1,
          List.getElem?_eq_getElem hi2, Option.map_some, Option.some.injEq]
        first
          | (simp_all; done)
          | (simp_all; tauto)

theorem select_none {α : Type*} (l : List α) : select (List.replicate l.length false) l = l := by
  induction l with
  | nil => rfl
  | cons x l ih => simp [List.replicate_succ, select, ih]

theorem place_none (num : Nat) : ∀ (mean : List K) (cols : List (List K)), cols.length = mean.length →
    place num (List.replicate mean.length false) mean cols = cols
  | [], [], _ => rfl
  | [], _ :: _, h => by simp at h
  | _ :: _, [], h => by simp at h
  | x :: mean, c :: cols, h => by
    simp [List.replicate_succ, place, place_none num mean cols (by simpa using h)]

/-- The mask used, as a list. -/
def maskList (n : Nat) (m : Option (List Bool)) : List Bool := m.getD (List.replicate n false)

theorem dists_getElem? (draw : Nat → K → K → List K) (a b : List K) (i : Nat) {x y : K} (hx : a[i]? = some x)
    (hy : b[i]? = some y) : ((a.zip b).zipIdx.map fun p => draw p.2 p.1.1 p.1.2)[i]? = some (draw i x y) := by
  have : (a.zip b)[i]? = some (x, y) := List.getElem?_zip_eq_some.mpr ⟨hx, hy⟩
  simp [this]

/-- Body of `sample` after the mask, uniformly in the mask. -/
theorem sample_ok {scores : List K → List K → List (List K) → Except PyErr (List (List K))} {draw : Nat → K → K → List K}
    {mean std : List K} {corr : List (List K)} {num : Nat} {d : Distro} {m : Option (List Bool)} {out : List (List K)}
    (sh : Shape mean std corr) (hd : Drawn scores draw num) (hm : mask mean std (diag corr) d = .ok m)
    (hlen : (maskList mean.length m).length = mean.length)
    (h : sample scores draw mean std corr num d = .ok out) :
    (d = .lognormal → ∀ i : Nat, (maskList mean.length m)[i]? = some false → mean[i]? ≠ some 0) ∧
    out.length = mean.length ∧ (∀ c ∈ out, c.length = num) ∧
    ∀ i (hi : i < mean.length),
      ((maskList mean.length m)[i]? = some true → out[i]? = some (List.replicate num mean[i])) ∧
      ((maskList mean.length m)[i]? = some false → ∃ c, out[i]? = some c ∧
        c.Perm (draw (pos (maskList mean.length m) i) mean[i] (std[i]'(by rw [sh.std]; exact hi)))) := by
  obtain ⟨l, hl⟩ : ∃ l, maskList mean.length m = l := ⟨_, rfl⟩
  rw [hl] at hlen ⊢
  obtain ⟨mean', hmean'⟩ : ∃ x, select l mean = x := ⟨_, rfl⟩
  obtain ⟨std', hstd'⟩ : ∃ x, select l std = x := ⟨_, rfl⟩
  have hbody : ∃ corr', sampleReduced scores draw mean num d m mean' std' corr' = .ok out := by
    cases m with
    | some l' =>
      simp only [maskList, Option.getD_some] at hl
      subst hl hmean' hstd'
      refine ⟨(select l' corr).map (select l'), ?_⟩
      simpa only [sample, hm] using h
    | none =>
      simp only [maskList, Option.getD_none] at hl
      subst hl
      rw [select_none] at hmean'
      have : select (List.replicate mean.length false) std = std := by rw [← sh.std]; exact select_none std
      rw [this] at hstd'
      subst hmean' hstd'
      refine ⟨corr, ?_⟩
      simpa only [sample, hm] using h
  obtain ⟨corr', hb⟩ := hbody
  unfold sampleReduced at hb
  have hml : mean'.length = l.countP (· == false) := by rw [← hmean', select_length l mean hlen]
  have hsl : std'.length = l.countP (· == false) := by rw [← hstd', select_length l std (by rw [hlen, sh.std])]
  have hgetm : ∀ i : Nat, l[i]? = some false → mean'[pos l i]? = mean[i]? := by
    intro i hi; rw [← hmean']; exact select_pos l mean i hlen hi
  have hgets : ∀ i : Nat, l[i]? = some false → std'[pos l i]? = std[i]? := by
    intro i hi; rw [← hstd']; exact select_pos l std i (by rw [hlen, sh.std]) hi
  by_cases hnil : mean' = []
  · rw [if_pos hnil, Except.ok.injEq] at hb
    subst hb
    have hno : ∀ i : Nat, l[i]? ≠ some false := by
      intro i hi
      have := pos_lt l i hi
      rw [← hml, hnil] at this
      simp at this
    refine ⟨fun _ i hi => absurd hi (hno i), by simp, ?_, ?_⟩
    · intro c hc
      obtain ⟨x, _, rfl⟩ := List.mem_map.mp hc
      simp
    · intro i hi
      exact ⟨fun _ => by simp [hi], fun h => absurd h (hno i)⟩
  rw [if_neg hnil] at hb
  by_cases hz : d = .lognormal ∧ (mean'.any fun x => decide (x = 0)) = true
  · rw [if_pos hz] at hb; cases hb
  rw [if_neg hz] at hb
  have hzero : d = .lognormal → ∀ i : Nat, l[i]? = some false → mean[i]? ≠ some 0 := by
    intro hdl i hi h0
    apply hz
    refine ⟨hdl, ?_⟩
    rw [List.any_eq_true]
    refine ⟨0, ?_, by simp⟩
    have := hgetm i hi
    rw [h0] at this
    exact List.mem_of_getElem? this
  cases hs : scores mean' std' corr' with
  | error e => simp [hs] at hb
  | ok N =>
    simp only [hs] at hb
    by_cases ho : d = .other
    · rw [if_pos ho] at hb; cases hb
    rw [if_neg ho] at hb
    obtain ⟨hN, hNc⟩ := hd.scores _ _ _ _ hs
    obtain ⟨dists, hdists⟩ : ∃ x, ((mean'.zip std').zipIdx.map fun p => draw p.2 p.1.1 p.1.2) = x := ⟨_, rfl⟩
    rw [hdists] at hb
    have hdl : dists.length = mean'.length := by rw [← hdists]; simp [hml, hsl]
    have hdc : ∀ c ∈ dists, c.length = num := by
      intro c hc
      rw [← hdists] at hc
      obtain ⟨p, _, rfl⟩ := List.mem_map.mp hc
      exact hd.draw ..
    have hF : List.Forall₂ (fun a b : List K => a.length = b.length) N dists := by
      rw [List.forall₂_iff_get]
      refine ⟨by rw [hN, hdl], ?_⟩
      intro i h1 h2
      rw [hNc _ (List.get_mem ..), hdc _ (List.get_mem ..)]
    obtain ⟨cols, hcols, hperm, _⟩ := RankOrder.C42_all_columns hF
    rw [hcols] at hb
    have hcl : cols.length = mean'.length := by rw [hperm.length_eq, hdl]
    have hout : out = place num l mean cols := by
      cases m with
      | some l' =>
        simp only [maskList, Option.getD_some] at hl
        subst hl
        simpa using hb.symm
      | none =>
        simp only [maskList, Option.getD_none] at hl
        subst hl
        rw [place_none num mean cols]
        · simpa using hb.symm
        · rw [hcl, ← hmean', select_none]
    obtain ⟨hp1, hp2⟩ := place_spec num l mean cols hlen (by rw [hcl, hml])
    rw [← hout] at hp1 hp2
    have hmain : ∀ i (hi : i < mean.length),
      (l[i]? = some true → out[i]? = some (List.replicate num mean[i])) ∧
      (l[i]? = some false → ∃ c, out[i]? = some c ∧
        c.Perm (draw (pos l i) mean[i] (std[i]'(by rw [sh.std]; exact hi)))) := by
      intro i hi
      have hi' : i < std.length := by rw [sh.std]; exact hi
      refine ⟨fun ht => ?_, fun hf => ?_⟩
      · rw [(hp2 i).1 ht, List.getElem?_eq_getElem hi]; rfl
      · rw [(hp2 i).2 hf]
        have hpl : pos l i < cols.length := by rw [hcl, hml]; exact pos_lt l i hf
        refine ⟨cols[pos l i], List.getElem?_eq_getElem hpl, ?_⟩
        have hpl2 : pos l i < dists.length := by rw [hdl, ← hcl]; exact hpl
        have h1 : cols[pos l i].Perm dists[pos l i] := by
          have := (List.forall₂_iff_get.mp hperm).2 (pos l i) hpl hpl2
          simpa using this
        have h2 : dists[pos l i]? = some (draw (pos l i) mean[i] std[i]) := by
          rw [← hdists]
          exact dists_getElem? draw mean' std' (pos l i) (by rw [hgetm i hf, List.getElem?_eq_getElem hi])
            (by rw [hgets i hf, List.getElem?_eq_getElem hi'])
        rw [List.getElem?_eq_getElem hpl2, Option.some.injEq] at h2
        rw [← h2]
        exact h1
    refine ⟨hzero, hp1, ?_, hmain⟩
    intro c hc
    obtain ⟨i, hi, rfl⟩ := List.mem_iff_getElem.mp hc
    have hi1 : i < mean.length := by rw [← hp1]; exact hi
    have hi2 : i < l.length := by rw [hlen]; exact hi1
    obtain ⟨ht, hf⟩ := hmain i hi1
    rw [List.getElem?_eq_getElem hi2, List.getElem?_eq_getElem hi] at ht hf
    cases hb : l[i] with
    | true =>
      have := ht (by rw [hb])
      rw [Option.some.injEq] at this
      rw [this]; simp
    | false =>
      obtain ⟨c, hc, hp⟩ := hf (by rw [hb])
      rw [Option.some.injEq] at hc
      rw [hc, hp.length_eq, hd.draw]

/-! ### The properties -/

/-- Variable `i` is sampled. The second part is C44's defect: missing correlation data count only if some variable is fixed. -/
def Sampled (mean std : List K) (corr : List (List K)) (d : Distro) (i : Nat) : Prop :=
  ¬ Fixed mean std d i ∧ (NoData corr i → ∀ k < mean.length, ¬ Fixed mean std d k)

open Classical in
/-- **C43.** On every successful call there are as many columns as variables and as many entries in each as samples; a variable
that is not to be sampled has its mean in every sample; and the column of a variable that is sampled, the `v`-th of those,
holds the values drawn for the `v`-th sampled variable with this variable's mean and deviation, in some order. -/
theorem C43_result {scores : List K → List K → List (List K) → Except PyErr (List (List K))} {draw : Nat → K → K → List K}
    {mean std : List K} {corr : List (List K)} {num : Nat} {d : Distro} {out : List (List K)}
    (sh : Shape mean std corr) (hd : Drawn scores draw num) (h : sample scores draw mean std corr num d = .ok out) :
    out.length = mean.length ∧ (∀ c ∈ out, c.length = num) ∧
    ∀ i (hi : i < mean.length),
      (¬ Sampled mean std corr d i → out[i]? = some (List.replicate num mean[i])) ∧
      (Sampled mean std corr d i → ∃ c, out[i]? = some c ∧
        c.Perm (draw (((List.range i).filter fun k => decide (Sampled mean std corr d k)).length) mean[i]
          (std[i]'(by rw [sh.std]; exact hi)))) := by
  cases hm : mask mean std (diag corr) d with
  | error e => simp [sample, hm] at h
  | ok m =>
    have hsq : ∀ r ∈ corr, r.length = corr.length := fun r hr => by rw [sh.cols r hr, sh.rows]
    have hdiag : ∀ i : Nat, (diag corr)[i]? = (corr[i]?).bind fun r => r[i]? := diag_getElem? corr hsq
    have hdl : (diag corr).length = mean.length := by rw [diag_length corr hsq, sh.rows]
    obtain ⟨hnone, hsome⟩ := mask_spec sh.std hdl hm
    have hlen : (maskList mean.length m).length = mean.length := by
      cases m with
      | none => simp [maskList]
      | some l => simpa [maskList] using (hsome l rfl).1
    obtain ⟨hz, h1, h2, h3⟩ := sample_ok sh hd hm hlen h
    have hstd : ∀ i, i < mean.length → i < std.length := fun i hi => by rw [sh.std]; exact hi
    have hnd : ∀ i (hi : i < mean.length), NoData corr i ↔ (diag corr)[i]'(by omega) = 0 := by
      intro i hi
      unfold NoData
      rw [← hdiag i, List.getElem?_eq_getElem (by omega), Option.some.injEq]
    have hfx : ∀ i (hi : i < mean.length), Fixed mean std d i ↔
        (std[i]'(hstd i hi) ≤ 1 / 10 ^ 30 ∨ (d = .lognormal ∧ mean[i] = 0)) := by
      intro i hi
      unfold Fixed
      rw [List.getElem?_eq_getElem (hstd i hi), List.getElem?_eq_getElem hi]
      simp
    have hmask : ∀ i, i < mean.length → ((maskList mean.length m)[i]? = some true ↔ ¬ Sampled mean std corr d i) := by
      intro i hi
      cases m with
      | none =>
        obtain ⟨hn1, hn2⟩ := hnone rfl
        have hall : ∀ k < mean.length, ¬ Fixed mean std d k := by
          intro k hk hF
          rcases (hfx k hk).mp hF with hF | ⟨hF1, hF2⟩
          · exact hn1 _ (List.getElem_mem (hstd k hk)) hF
          · exact hz hF1 k (by simp [maskList, hk]) (by rw [List.getElem?_eq_getElem hk, hF2])
        have hS : Sampled mean std corr d i := ⟨hall i hi, fun _ => hall⟩
        simp [maskList, hS, hi]
      | some l =>
        obtain ⟨hl1, hl2, hl3⟩ := hsome l rfl
        simp only [maskList, Option.getD_some] at hz ⊢
        rw [hl3 i hi]
        have hsomeF : ∃ k < mean.length, Fixed mean std d k := by
          rcases hl2 with ⟨s, hs, hs'⟩ | ⟨hd1, mm, hmm, h0⟩
          · obtain ⟨k, hk, rfl⟩ := List.mem_iff_getElem.mp hs
            rw [sh.std] at hk
            exact ⟨k, hk, (hfx k hk).mpr (Or.inl hs')⟩
          · obtain ⟨k, hk, hk'⟩ := List.mem_iff_getElem.mp (pyMin_spec hmm).1
            exact ⟨k, hk, (hfx k hk).mpr (Or.inr ⟨hd1, by rw [hk', h0]⟩)⟩
        have hzz : d = .lognormal → mean[i] = 0 → l[i]? = some true := by
          intro hdl' h0
          have hil : i < l.length := by omega
          cases hb : l[i] with
          | true => rw [List.getElem?_eq_getElem hil, hb]
          | false =>
            exact absurd (by rw [List.getElem?_eq_getElem hi, h0])
              (hz hdl' i (by rw [List.getElem?_eq_getElem hil, hb]))
        unfold Sampled
        rw [hfx i hi, hnd i hi]
        constructor
        · rintro (hc | ⟨hc1, _, hc2⟩ | hc) ⟨hs1, hs2⟩
          · exact hs1 (Or.inl hc)
          · exact hs1 (Or.inr ⟨hc1, hc2⟩)
          · obtain ⟨k, hk, hkF⟩ := hsomeF
            exact hs2 hc k hk hkF
        · intro hc
          by_cases hA : std[i]'(hstd i hi) ≤ 1 / 10 ^ 30
          · exact Or.inl hA
          by_cases hB : d = .lognormal ∧ mean[i] = 0
          · exact (hl3 i hi).mp (hzz hB.1 hB.2)
          by_cases hC : (diag corr)[i]'(by omega) = 0
          · exact Or.inr (Or.inr hC)
          exact absurd ⟨fun h => h.elim hA hB, fun h => absurd h hC⟩ hc
    have hmaskf : ∀ i, i < mean.length → ((maskList mean.length m)[i]? = some false ↔ Sampled mean std corr d i) := by
      intro i hi
      have := hmask i hi
      have hil : i < (maskList mean.length m).length := by omega
      rw [List.getElem?_eq_getElem hil] at this ⊢
      cases hb : (maskList mean.length m)[i] <;> rw [hb] at this <;> simp at this ⊢ <;> exact this
    have hpos : ∀ i, i ≤ mean.length → pos (maskList mean.length m) i =
        ((List.range i).filter fun k => decide (Sampled mean std corr d k)).length := by
      intro i
      induction i with
      | zero => intro _; simp [pos]
      | succ i ih =>
        intro hi
        have hil : i < (maskList mean.length m).length := by omega
        have hi1 : i < mean.length := by omega
        unfold pos at ih ⊢
        rw [List.take_succ, List.countP_append, ih (by omega), List.range_succ, List.filter_append, List.length_append]
        congr 1
        have hf := hmaskf i hi1
        rw [List.getElem?_eq_getElem hil] at hf ⊢
        by_cases hS : Sampled mean std corr d i
        · have := hf.mpr hS
          rw [Option.some.injEq] at this
          simp [this, hS]
        · have : (maskList mean.length m)[i] = true := by
            have := (hmask i hi1).mpr hS
            rwa [List.getElem?_eq_getElem hil, Option.some.injEq] at this
          simp [this, hS]
    refine ⟨h1, h2, ?_⟩
    intro i hi
    obtain ⟨ha, hb⟩ := h3 i hi
    refine ⟨fun hn => ha ((hmask i hi).mpr hn), fun hs => ?_⟩
    rw [← hpos i (by omega)]
    exact hb ((hmaskf i hi).mpr hs)

/-- **C44, what holds.** When some variable is fixed, a variable without correlation data keeps its mean. -/
theorem C44_no_data_partial {scores : List K → List K → List (List K) → Except PyErr (List (List K))}
    {draw : Nat → K → K → List K} {mean std : List K} {corr : List (List K)} {num : Nat} {d : Distro} {out : List (List K)}
    (sh : Shape mean std corr) (hd : Drawn scores draw num) (h : sample scores draw mean std corr num d = .ok out)
    {i k : Nat} (hi : i < mean.length) (hn : NoData corr i) (hk : k < mean.length) (hF : Fixed mean std d k) :
    out[i]? = some (List.replicate num mean[i]) :=
  ((C43_result sh hd h).2.2 i hi).1 fun hs => hs.2 hn k hk hF

/-- **C44 fails.** When no variable is fixed, a variable without correlation data is sampled like any other. -/
theorem C44_no_data_refuted : ¬ ∀ (scores : List ℚ → List ℚ → List (List ℚ) → Except PyErr (List (List ℚ)))
    (draw : Nat → ℚ → ℚ → List ℚ) (mean std : List ℚ) (corr : List (List ℚ)) (num : Nat) (d : Distro) (out : List (List ℚ)),
    Shape mean std corr → Drawn scores draw num → sample scores draw mean std corr num d = .ok out →
    ∀ i (hi : i < mean.length), NoData corr i → out[i]? = some (List.replicate num mean[i]) := by
  intro H
  have := H (fun m _ _ => .ok (m.map fun _ => [0, 1])) (fun _ m s => [m - s, m + s]) [1, 2] [1, 1] [[1, 0], [0, 0]] 2 .normal
    [[0, 2], [1, 3]] ⟨rfl, rfl, by simp⟩ ⟨?_, fun _ _ _ => rfl⟩ (by decide +kernel) 1 (by decide) rfl
  · revert this; decide +kernel
  · intro mean std corr N h
    simp only [Except.ok.injEq] at h
    subst h
    refine ⟨by simp, ?_⟩
    intro c hc
    obtain ⟨x, _, rfl⟩ := List.mem_map.mp hc
    rfl

/-- **C43.** The call does return: with at least one variable, a supported distribution, scores that can be computed, and for the
lognormal distribution no negative means. -/
theorem C43_returns {scores : List K → List K → List (List K) → Except PyErr (List (List K))} {draw : Nat → K → K → List K}
    {mean std : List K} {corr : List (List K)} {num : Nat} {d : Distro} (sh : Shape mean std corr)
    (hd : Drawn scores draw num) (hne : mean ≠ []) (hdd : d ≠ .other) (hsc : ∀ m s c, ∃ N, scores m s c = .ok N)
    (hpos : d = .lognormal → ∀ x ∈ mean, 0 ≤ x) : ∃ out, sample scores draw mean std corr num d = .ok out := by
  have hpm : ∀ l : List K, l ≠ [] → ∃ x, pyMin l = .ok x := by
    intro l hl
    cases l with
    | nil => exact absurd rfl hl
    | cons a l => exact ⟨_, rfl⟩
  obtain ⟨mm, hmm⟩ := hpm mean hne
  obtain ⟨sm, hsm⟩ := hpm std (by intro h; apply hne; have := sh.std; rw [h] at this; exact List.length_eq_zero_iff.mp this.symm)
  have hred : ∀ (m : Option (List Bool)) (mean' std' : List K) (corr' : List (List K)), mean'.length = std'.length →
      (d = .lognormal → (0 : K) ∉ mean') →
      ∃ out, sampleReduced scores draw mean num d m mean' std' corr' = .ok out := by
    intro m mean' std' corr' hlen hz
    unfold sampleReduced
    by_cases hnil : mean' = []
    · exact ⟨_, if_pos hnil⟩
    have hz' : ¬ (d = .lognormal ∧ (mean'.any fun x => decide (x = 0)) = true) := by
      rintro ⟨h1, h2⟩
      rw [List.any_eq_true] at h2
      obtain ⟨x, hx, hx0⟩ := h2
      simp only [decide_eq_true_eq] at hx0
      exact hz h1 (hx0 ▸ hx)
    obtain ⟨N, hN⟩ := hsc mean' std' corr'
    simp only [if_neg hnil, if_neg hz', hN, if_neg hdd]
    obtain ⟨hN1, hN2⟩ := hd.scores _ _ _ _ hN
    have hF : List.Forall₂ (fun a b : List K => a.length = b.length) N
        ((mean'.zip std').zipIdx.map fun p => draw p.2 p.1.1 p.1.2) := by
      rw [List.forall₂_iff_get]
      refine ⟨by simp [hN1, ← hlen], ?_⟩
      intro i h1 h2
      rw [hN2 _ (List.get_mem ..)]
      obtain ⟨p, _, hp⟩ := List.mem_map.mp (List.get_mem _ ⟨i, h2⟩)
      rw [← hp, hd.draw]
    obtain ⟨cols, hcols, _⟩ := RankOrder.C42_all_columns hF
    rw [hcols]
    cases m with
    | none => exact ⟨_, rfl⟩
    | some m => exact ⟨_, rfl⟩
  have hmask : ∃ m, mask mean std (diag corr) d = .ok m := by
    unfold mask
    simp only [hsm, hmm]
    exact ⟨_, rfl⟩
  obtain ⟨m, hm⟩ := hmask
  have hsq : ∀ r ∈ corr, r.length = corr.length := fun r hr => by rw [sh.cols r hr, sh.rows]
  obtain ⟨hnone, hsome⟩ := mask_spec sh.std (by rw [diag_length corr hsq, sh.rows]) hm
  obtain ⟨hm1, hm2⟩ := pyMin_spec hmm
  unfold sample
  rw [hm]
  cases m with
  | none =>
    apply hred _ _ _ _ sh.std.symm
    intro hdl h0
    exact (hnone rfl).2 hdl mm hmm (le_antisymm (hm2 0 h0) (hpos hdl mm hm1))
  | some l =>
    obtain ⟨hl1, hl2, hl3⟩ := hsome l rfl
    apply hred
    · rw [select_length l mean hl1, select_length l std (by rw [hl1, sh.std])]
    · intro hdl h0
      obtain ⟨i, hi, hli, hmi⟩ := mem_select l mean h0
      have := (hl3 i (List.getElem?_eq_some_iff.mp hmi).1).mpr (Or.inr (Or.inl ⟨hdl,
        ⟨mm, hmm, le_antisymm (hm2 0 (List.mem_of_getElem? hmi)) (hpos hdl mm hm1)⟩, (List.getElem?_eq_some_iff.mp hmi).2⟩))
      rw [this] at hli
      cases hli

/-- Concrete call: the second variable has no deviation, the third has no correlation data; only the first is sampled. -/
example : sample (fun m _ _ => .ok (m.map fun _ => [1, 0])) (fun _ m s => [m - s, m + s]) [(1 : ℚ), 2, 3] [1, 0, 1]
    [[1, 0, 0], [0, 1, 0], [0, 0, 0]] 2 .lognormal = .ok [[2, 0], [2, 2], [3, 3]] := by decide +kernel

end ASAPy.SampleCorr
