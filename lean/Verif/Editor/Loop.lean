import Verif.Editor.Rules

/-! Helper lemmas: the loop over the sum rules. -/

set_option linter.unusedSectionVars false
set_option linter.unusedSimpArgs false

namespace ASAPy.Ace

variable {K : Type*} [Field K] [LinearOrder K] [ExpLog K]
variable {file : Table K} {T : Temp} {ed ed' : Editor K}

/-- A rule has an adjusted constituent on the file. -/
def Touched (ed : Editor K) (l : List MT) : Prop := ∃ c ∈ l, c ∈ ed.allMts ∧ c ∈ ed.adjusted

theorem touched_iff (ed : Editor K) (l : List MT) :
    Touched ed l ↔ checkIfMtsPresent ed.adjusted (checkIfMtsPresent l ed.allMts) ≠ [] := by
  rw [List.ne_nil_iff_exists_cons]
  constructor
  · rintro ⟨c, h1, h2, h3⟩
    have : c ∈ checkIfMtsPresent ed.adjusted (checkIfMtsPresent l ed.allMts) :=
      mem_check.mpr ⟨mem_check.mpr ⟨h2, h1⟩, h3⟩
    cases h : checkIfMtsPresent ed.adjusted (checkIfMtsPresent l ed.allMts) with
    | nil => rw [h] at this; simp at this
    | cons a b => exact ⟨a, b, rfl⟩
  · rintro ⟨a, b, h⟩
    have : a ∈ checkIfMtsPresent ed.adjusted (checkIfMtsPresent l ed.allMts) := by rw [h]; simp
    rw [mem_check, mem_check] at this
    exact ⟨a, this.1.2, this.1.1, this.2⟩

/-- A rule that does not apply leaves the editor alone. -/
theorem applyRule_skip {s : MT} {l : List MT} (h : ¬ (s ∈ ed.allMts ∧ Touched ed l)) :
    applyRule ed (s, l) = (ed, .ok ()) := by
  unfold applyRule
  simp only
  by_cases hs : s ∈ ed.allMts
  · have ht : ¬ Touched ed l := fun ht => h ⟨hs, ht⟩
    rw [touched_iff, not_not] at ht
    simp [hs, ht]
  · simp [hs]

/-- A rule that applies. -/
theorem applyRule_apply (hf : WellFormed file T) (hi : Inv file T ed) {s : MT} {l : List MT}
    (hs1 : s ≠ 452) (hs2 : s ≠ 1018) (hl : 452 ∉ l ∧ 1018 ∉ l)
    (h : s ∈ ed.allMts ∧ Touched ed l) :
    ∃ x y0 y1 rest, comp file s = .xs (some ((T, Tab1D.linlin x y0) :: rest)) ∧
      comp ed.table s = .xs (some ((T, Tab1D.linlin x y1) :: rest)) ∧ y1.length = x.length ∧
      getEnergy ed s = .ok (.arr x) ∧
      applyRule ed (s, l) =
        ((setXs (ed.remember s (.arr y1)) s (x.map (newVal ed s l))).addAdjusted s, .ok ()) ∧
      applyRule ed (s, l) = setSigma ed s (.arr (x.map (newVal ed s l))) ∧
      comp (applyRule ed (s, l)).1.table s =
        .xs (some ((T, Tab1D.linlin x (x.map (newVal ed s l))) :: rest)) := by
  have hsk : s ∈ Dict.keys file.reactions := by
    rw [← mem_allMtsOf hs1 hs2, ← hi.allMts]; exact h.1
  obtain ⟨x, y0, y1, rest, h0, h1, hl0, hl1, hx⟩ := hi.data s hsk
  obtain ⟨ht0, ht1, hE⟩ := hi.tabs hf hsk h0 h1
  have hset := setSigma_xs hf hi hsk h1 hE ht1 (v := x.map (newVal ed s l)) (by simp)
  have hadd : ∀ e : Editor K, (e.addAdjusted s).addAdjusted s = e.addAdjusted s := by
    intro e
    unfold Editor.addAdjusted
    by_cases h : s ∈ e.adjusted <;> simp [h]
  have heq : applyRule ed (s, l) =
      ((setXs (ed.remember s (.arr y1)) s (x.map (newVal ed s l))).addAdjusted s, .ok ()) := by
    have ht := (touched_iff ed l).mp h.2
    have hp : checkIfMtsPresent l ed.allMts ≠ [] := by
      obtain ⟨c, hc1, hc2, _⟩ := h.2
      intro h0
      have : c ∈ checkIfMtsPresent l ed.allMts := mem_check.mpr ⟨hc2, hc1⟩
      rw [h0] at this; simp at this
    unfold applyRule
    simp only [h.1, if_true, hp, ht, ne_eq, not_false_eq_true, sumValue_eq hf hi hsk hl hE, hset.1]
    rw [hadd]
  refine ⟨x, y0, y1, rest, h0, h1, hl1, hE, heq, heq.trans hset.1.symm, ?_⟩
  rw [heq.trans hset.1.symm]
  exact hset.2

/-- Everything about one rule. -/
theorem applyRule_frame (hf : WellFormed file T) (hi : Inv file T ed) {s : MT} {l : List MT}
    (hs1 : s ≠ 452) (hs2 : s ≠ 1018) (hl : 452 ∉ l ∧ 1018 ∉ l) :
    (applyRule ed (s, l)).2 = .ok () ∧ Inv file T (applyRule ed (s, l)).1 ∧
    SameBase ed (applyRule ed (s, l)).1 ∧
    (∀ m, m ≠ s → comp (applyRule ed (s, l)).1.table m = comp ed.table m) ∧
    (∀ m, m ∈ (applyRule ed (s, l)).1.adjusted ↔
      m ∈ ed.adjusted ∨ (m = s ∧ s ∈ ed.allMts ∧ Touched ed l)) := by
  by_cases h : s ∈ ed.allMts ∧ Touched ed l
  · obtain ⟨x, y0, y1, rest, _, _, _, _, h1, h2, _⟩ := applyRule_apply hf hi hs1 hs2 hl h
    have hok : (applyRule ed (s, l)).2 = .ok () := by rw [h1]
    obtain ⟨hb, _, hc, ha⟩ := setSigma_frame ed s (.arr (x.map (newVal ed s l)))
    have hi' := inv_set hf hi s (.arr (x.map (newVal ed s l)))
    rw [← h2] at hb hc ha hi'
    refine ⟨hok, hi', hb, hc, ?_⟩
    intro m
    rw [ha]
    simp [hok, h.1, h.2]
  · rw [applyRule_skip h]
    exact ⟨rfl, hi, SameBase.refl _, fun _ _ => rfl, fun m => by
      constructor
      · exact Or.inl
      · rintro (h' | ⟨_, h'⟩)
        · exact h'
        · exact absurd h' h⟩

/-- The loop over ordered rules succeeds, keeps the invariant, changes only the sums. -/
theorem applyRules_frame (hf : WellFormed file T) {rules : List (MT × List MT)} (ho : Ordered rules) :
    ∀ {ed : Editor K}, Inv file T ed →
    (applyRules ed rules).2 = .ok () ∧ Inv file T (applyRules ed rules).1 ∧
    SameBase ed (applyRules ed rules).1 ∧
    (∀ m, m ∉ rules.map Prod.fst → comp (applyRules ed rules).1.table m = comp ed.table m) ∧
    (∀ m, m ∉ rules.map Prod.fst → (m ∈ (applyRules ed rules).1.adjusted ↔ m ∈ ed.adjusted)) ∧
    (∀ m, m ∈ ed.adjusted → m ∈ (applyRules ed rules).1.adjusted) := by
  induction rules with
  | nil => intro ed hi; exact ⟨rfl, hi, SameBase.refl _, fun _ _ => rfl, fun _ _ => Iff.rfl, fun _ h => h⟩
  | cons r rs ih =>
    intro ed hi
    obtain ⟨s, l⟩ := r
    obtain ⟨hord, hrule⟩ := ho
    rw [List.pairwise_cons] at hord
    have ho' : Ordered rs := ⟨hord.2, fun r hr => hrule r (List.mem_cons_of_mem _ hr)⟩
    obtain ⟨_, hs1, hs2, hl1, hl2⟩ := hrule (s, l) (List.mem_cons_self ..)
    obtain ⟨hok, hi1, hb1, hc1, ha1⟩ := applyRule_frame hf hi hs1 hs2 ⟨hl1, hl2⟩
    have hstep : applyRules ed ((s, l) :: rs) = applyRules (applyRule ed (s, l)).1 rs := by
      conv_lhs => unfold applyRules
      cases hr : applyRule ed (s, l) with
      | mk e o => rw [hr] at hok; simp only at hok; subst hok; rfl
    rw [hstep]
    obtain ⟨hok2, hi2, hb2, hc2, ha2, hmono⟩ := ih ho' hi1
    refine ⟨hok2, hi2, hb1.trans hb2, ?_, ?_, ?_⟩
    · intro m hm
      simp only [List.map_cons, List.mem_cons, not_or] at hm
      rw [hc2 m hm.2, hc1 m hm.1]
    · intro m hm
      simp only [List.map_cons, List.mem_cons, not_or] at hm
      rw [ha2 m hm.2, ha1]
      simp [hm.1]
    · intro m hm
      exact hmono m ((ha1 m).mpr (Or.inl hm))

theorem applyRules_cons (hf : WellFormed file T) (hi : Inv file T ed) {s : MT} {l : List MT}
    {rs : List (MT × List MT)} (hs1 : s ≠ 452) (hs2 : s ≠ 1018) (hl : 452 ∉ l ∧ 1018 ∉ l) :
    applyRules ed ((s, l) :: rs) = applyRules (applyRule ed (s, l)).1 rs := by
  have hok := (applyRule_frame hf hi hs1 hs2 hl).1
  conv_lhs => unfold applyRules
  cases hr : applyRule ed (s, l) with
  | mk e o => rw [hr] at hok; simp only at hok; subst hok; rfl

/-- `newVal` depends on the unadjusted data, on the constituents and on which of them are adjusted. -/
theorem newVal_congr {a b : Editor K} (hb : SameBase a b) {s : MT} {l : List MT}
    (hc : ∀ c ∈ l, comp a.table c = comp b.table c) (ha : ∀ c ∈ l, (c ∈ a.adjusted ↔ c ∈ b.adjusted)) (e : K) :
    newVal a s l e = newVal b s l e := by
  have hp : checkIfMtsPresent a.adjusted (checkIfMtsPresent l a.allMts) =
      checkIfMtsPresent b.adjusted (checkIfMtsPresent l b.allMts) := by
    unfold checkIfMtsPresent
    rw [hb.2.2]
    congr 1
    apply List.filter_congr
    intro c hcm
    simp only [List.mem_dedup, List.mem_filter, decide_eq_true_eq] at hcm
    simp [ha c hcm.2]
  have htrue : ∀ m, sigmaAt a m true e = sigmaAt b m true e := by
    intro m; unfold sigmaAt; rw [getSigma_unadjusted_congr hb]
  unfold newVal
  simp only
  rw [hp, htrue s]
  have h1 : List.map (fun x => sigmaAt a x true e) (checkIfMtsPresent b.adjusted (checkIfMtsPresent l b.allMts)) =
      List.map (fun x => sigmaAt b x true e) (checkIfMtsPresent b.adjusted (checkIfMtsPresent l b.allMts)) :=
    List.map_congr_left (fun m _ => htrue m)
  have h2 : List.map (fun x => sigmaAt a x false e) (checkIfMtsPresent b.adjusted (checkIfMtsPresent l b.allMts)) =
      List.map (fun x => sigmaAt b x false e) (checkIfMtsPresent b.adjusted (checkIfMtsPresent l b.allMts)) := by
    apply List.map_congr_left
    intro m hm
    rw [mem_check, mem_check] at hm
    unfold sigmaAt
    rw [getSigma_congr hb (hc m hm.1.2)]
  rw [h1, h2]

theorem touched_congr {a b : Editor K} (hb : SameBase a b) {l : List MT}
    (ha : ∀ c ∈ l, (c ∈ a.adjusted ↔ c ∈ b.adjusted)) : Touched a l ↔ Touched b l := by
  unfold Touched
  rw [hb.2.2]
  constructor
  · rintro ⟨c, h1, h2, h3⟩; exact ⟨c, h1, h2, (ha c h1).mp h3⟩
  · rintro ⟨c, h1, h2, h3⟩; exact ⟨c, h1, h2, (ha c h1).mpr h3⟩

/-- After the loop every rule is settled: either it does not apply and its sum was left alone, or the sum holds
the values that the rule prescribes in the final state. -/
def Settled (file : Table K) (T : Temp) (before after : Editor K) (s : MT) (l : List MT) : Prop :=
  (s ∈ after.allMts ∧ Touched after l ∧ s ∈ after.adjusted ∧
    ∃ x y0 rest, comp file s = .xs (some ((T, Tab1D.linlin x y0) :: rest)) ∧
      comp after.table s = .xs (some ((T, Tab1D.linlin x (x.map (newVal after s l))) :: rest))) ∨
  (¬ (s ∈ after.allMts ∧ Touched after l) ∧ comp after.table s = comp before.table s ∧
    (s ∈ after.adjusted ↔ s ∈ before.adjusted))

theorem applyRules_settled (hf : WellFormed file T) {rules : List (MT × List MT)} (ho : Ordered rules) :
    ∀ {ed : Editor K}, Inv file T ed → ∀ r ∈ rules,
      Settled file T ed (applyRules ed rules).1 r.1 r.2 := by
  induction rules with
  | nil => intro ed hi r hr; simp at hr
  | cons r0 rs ih =>
    intro ed hi r hr
    obtain ⟨s, l⟩ := r0
    obtain ⟨hord, hrule⟩ := ho
    rw [List.pairwise_cons] at hord
    have ho' : Ordered rs := ⟨hord.2, fun r hr => hrule r (List.mem_cons_of_mem _ hr)⟩
    obtain ⟨hsl, hs1, hs2, hl1, hl2⟩ := hrule (s, l) (List.mem_cons_self ..)
    obtain ⟨hok, hi1, hb1, hc1, ha1⟩ := applyRule_frame hf hi hs1 hs2 ⟨hl1, hl2⟩
    rw [applyRules_cons hf hi hs1 hs2 ⟨hl1, hl2⟩]
    obtain ⟨_, hi2, hb2, hc2, ha2, hmono⟩ := applyRules_frame hf ho' hi1
    rcases List.mem_cons.mp hr with rfl | hr
    · -- the first rule: later rules change neither its sum nor its constituents
      have hnot : ∀ c, c = s ∨ c ∈ l → c ∉ rs.map Prod.fst := by
        intro c hc hcm
        obtain ⟨r', hr', rfl⟩ := List.mem_map.mp hcm
        have := hord.1 r' hr'
        rcases hc with hc | hc
        · exact this.2 hc
        · exact this.1 hc
      set e1 := (applyRule ed (s, l)).1 with he1
      set e2 := (applyRules e1 rs).1 with he2
      have hadj1 : ∀ c ∈ l, (c ∈ e1.adjusted ↔ c ∈ ed.adjusted) := by
        intro c hc
        rw [ha1]
        have : c ≠ s := by rintro rfl; exact hsl hc
        simp [this]
      have hadj : ∀ c ∈ l, (c ∈ e2.adjusted ↔ c ∈ ed.adjusted) := by
        intro c hc
        rw [ha2 c (hnot c (Or.inr hc)), hadj1 c hc]
      have hcomp : ∀ c ∈ l, comp e2.table c = comp ed.table c := by
        intro c hc
        rw [hc2 c (hnot c (Or.inr hc)), hc1]
        rintro rfl; exact hsl hc
      have hbase : SameBase e2 ed := (hb1.trans hb2).symm
      have htouch : Touched e2 l ↔ Touched ed l := touched_congr hbase hadj
      by_cases h : s ∈ ed.allMts ∧ Touched ed l
      · left
        obtain ⟨x, y0, y1, rest, h0, _, _, _, _, _, hnew⟩ := applyRule_apply hf hi hs1 hs2 ⟨hl1, hl2⟩ h
        refine ⟨by rw [hbase.2.2]; exact h.1, htouch.mpr h.2, ?_, x, y0, rest, h0, ?_⟩
        · exact hmono s ((ha1 s).mpr (Or.inr ⟨rfl, h⟩))
        · simp only
          rw [hc2 s (hnot s (Or.inl rfl)), hnew]
          have : x.map (newVal ed s l) = x.map (newVal e2 s l) :=
            List.map_congr_left (fun e _ => (newVal_congr hbase hcomp hadj e).symm)
          rw [this]
      · right
        refine ⟨?_, ?_, ?_⟩
        · simp only
          rw [hbase.2.2, htouch]; exact h
        · simp only
          rw [hc2 s (hnot s (Or.inl rfl)), he1, applyRule_skip h]
        · simp only
          rw [ha2 s (hnot s (Or.inl rfl)), he1, applyRule_skip h]
    · have hset := ih ho' hi1 r hr
      rcases hset with h | ⟨h1, h2, h3⟩
      · exact Or.inl h
      · have hne : r.1 ≠ s := (hord.1 r hr).2
        refine Or.inr ⟨h1, ?_, ?_⟩
        · rw [h2, hc1 _ hne]
        · rw [h3, ha1]; simp [hne]

/-- The invariant holds after every history. -/
theorem inv_step (hf : WellFormed file T) (hi : Inv file T ed) (op : Op K) : Inv file T (step ed op).1 := by
  cases op with
  | set mt v => exact inv_set hf hi mt v
  | sums => exact (applyRules_frame hf sumRules_ordered hi).2.1

theorem inv_run (hf : WellFormed file T) (ops : List (Op K)) : ∀ {ed : Editor K}, Inv file T ed →
    Inv file T (run ed ops) := by
  induction ops with
  | nil => intro ed hi; exact hi
  | cons op ops ih => intro ed hi; exact ih (inv_step hf hi op)

end ASAPy.Ace
