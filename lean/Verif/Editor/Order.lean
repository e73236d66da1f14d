import Verif.Editor.Loop

/-! Helper lemmas for C04 and C07: errors leave the table alone, setting depends only on the own component,
earlier applications of the sum rules are absorbed by later ones. -/

set_option linter.unusedSectionVars false
set_option linter.unusedSimpArgs false

namespace ASAPy.Ace

variable {K : Type*} [Field K] [LinearOrder K] [ExpLog K]
variable {file : Table K} {T : Temp} {ed ed' : Editor K}

theorem sameData_of_comp {a b : Editor K} (hb : SameBase a b) (h : ∀ m, comp a.table m = comp b.table m) :
    SameData a b :=
  fun m => ⟨getEnergy_congr hb (h m), fun at? un => getSigma_congr hb (h m) at? un⟩

/-- A rejected `set_sigma` of anything but chi leaves the table as it was. -/
theorem setSigma_error_table {mt : MT} {v : Val K} (h1018 : mt ≠ 1018) {e : PyErr}
    (h : (setSigma ed mt v).2 = .error e) : (setSigma ed mt v).1.table = ed.table := by
  unfold setSigma at *
  cases hE : getEnergy ed mt with
  | error e => rfl
  | ok energy =>
    rw [hE] at h
    simp only at h ⊢
    by_cases hlen : v.len ≠ energy.len
    · rw [if_pos hlen]
    · rw [if_neg hlen] at h ⊢
      cases hS : getSigma ed mt none false with
      | error e => rfl
      | ok cur =>
        rw [hS] at h
        simp only at h ⊢
        by_cases h1 : mt = 452
        · rw [if_pos h1] at h ⊢
          cases v with
          | arr l => simp at h
          | pdfs l => rfl
        · rw [if_neg h1, if_neg h1018] at h ⊢
          cases v with
          | arr l => simp at h
          | pdfs l => rfl

/-- The new component and the outcome of `set_sigma` depend only on the old component. -/
theorem setSigma_congr {a b : Editor K} (hb : SameBase a b) {mt : MT}
    (hc : comp a.table mt = comp b.table mt) (v : Val K) :
    (setSigma a mt v).2 = (setSigma b mt v).2 ∧
      comp (setSigma a mt v).1.table mt = comp (setSigma b mt v).1.table mt := by
  have hE := getEnergy_congr hb hc
  have hS := getSigma_congr hb hc none false
  unfold setSigma
  rw [← hE, ← hS]
  cases getEnergy a mt with
  | error e => exact ⟨rfl, hc⟩
  | ok energy =>
    simp only
    by_cases hlen : v.len ≠ energy.len
    · rw [if_pos hlen, if_pos hlen]; exact ⟨rfl, hc⟩
    · rw [if_neg hlen, if_neg hlen]
      cases getSigma a mt none false with
      | error e => exact ⟨rfl, hc⟩
      | ok cur =>
        simp only
        by_cases h1 : mt = 452
        · subst h1
          simp only [if_true]
          cases v with
          | pdfs l => exact ⟨rfl, hc⟩
          | arr l =>
            refine ⟨rfl, ?_⟩
            have ha := comp_modify_nu a.table
              (fun o => o.map fun nu => { nu with yield_ := { nu.yield_ with y := l } }) 452
            have hb' := comp_modify_nu b.table
              (fun o => o.map fun nu => { nu with yield_ := { nu.yield_ with y := l } }) 452
            rw [if_pos rfl] at ha hb'
            refine Eq.trans ha (Eq.trans ?_ hb'.symm)
            rw [comp_nu, comp_nu] at hc
            simp only [Comp.nu.injEq] at hc ⊢
            cases h1 : Dict.get? a.table.reactions 18 <;> cases h2 : Dict.get? b.table.reactions 18 <;> simp_all
        · rw [if_neg h1, if_neg h1]
          by_cases h2 : mt = 1018
          · subst h2
            simp only [if_true]
            cases v with
            | arr l => exact ⟨rfl, hc⟩
            | pdfs l =>
              simp only
              have hchi := getChi_congr (a := a.remember 1018 cur) (b := b.remember 1018 cur) hb hc false
              have key : (setChiDistro (a.remember 1018 cur) l).2 = (setChiDistro (b.remember 1018 cur) l).2 ∧
                  comp (setChiDistro (a.remember 1018 cur) l).1.table 1018 =
                    comp (setChiDistro (b.remember 1018 cur) l).1.table 1018 := by
                unfold setChiDistro
                rw [← hchi]
                cases getChiDistro (a.remember 1018 cur) false with
                | error e => exact ⟨rfl, hc⟩
                | ok chi =>
                  simp only
                  by_cases hl : chi.energyOut.length ≠ l.length
                  · rw [if_pos hl, if_pos hl]; exact ⟨rfl, hc⟩
                  · rw [if_neg hl, if_neg hl]
                    cases he : chi.energyOut with
                    | nil => exact ⟨rfl, hc⟩
                    | cons d ds =>
                      cases l with
                      | nil => exact ⟨rfl, hc⟩
                      | cons p ps =>
                        simp only
                        by_cases hx : d.x.length ≠ p.length
                        · rw [if_pos hx, if_pos hx]; exact ⟨rfl, hc⟩
                        · rw [if_neg hx, if_neg hx]
                          refine ⟨rfl, ?_⟩
                          have ha := comp_modify_chi a.table (fun _ => some { chi with
                            energyOut := (setDists (d :: ds) (p :: ps)).1 }) 1018
                          have hb' := comp_modify_chi b.table (fun _ => some { chi with
                            energyOut := (setDists (d :: ds) (p :: ps)).1 }) 1018
                          rw [if_pos rfl] at ha hb'
                          refine Eq.trans ha (Eq.trans ?_ hb'.symm)
                          rw [comp_chi, comp_chi] at hc
                          simp only [Comp.chi.injEq] at hc ⊢
                          cases h1 : Dict.get? a.table.reactions 18 <;>
                            cases h2 : Dict.get? b.table.reactions 18 <;> simp_all
              cases h1 : setChiDistro (a.remember 1018 cur) l with
              | mk e o =>
                cases h2 : setChiDistro (b.remember 1018 cur) l with
                | mk e' o' =>
                  rw [h1, h2] at key
                  simp only at key
                  obtain ⟨rfl, hk⟩ := key
                  cases o with
                  | error er => exact ⟨rfl, hk⟩
                  | ok u => exact ⟨rfl, hk⟩
          · rw [if_neg h2, if_neg h2]
            cases v with
            | pdfs l => exact ⟨rfl, hc⟩
            | arr l =>
              refine ⟨rfl, ?_⟩
              have ha := comp_modify_xs a.table mt
                (fun xs => Dict.modify xs a.temperature fun t => { t with y := l }) h1 h2 mt
              have hb' := comp_modify_xs b.table mt
                (fun xs => Dict.modify xs b.temperature fun t => { t with y := l }) h1 h2 mt
              rw [if_pos rfl] at ha hb'
              refine Eq.trans ha (Eq.trans ?_ hb'.symm)
              rw [comp_xs h1 h2, comp_xs h1 h2] at hc
              simp only [Comp.xs.injEq] at hc ⊢
              rw [hb.2.1]
              cases h1 : Dict.get? a.table.reactions mt <;> cases h2 : Dict.get? b.table.reactions mt <;> simp_all

/-- Two editors agree outside the sums still to be processed, and on those of them that no rule will overwrite. -/
def Agree (rem : List (MT × List MT)) (a b : Editor K) : Prop :=
  SameBase a b ∧
  (∀ m, m ∉ rem.map Prod.fst → comp a.table m = comp b.table m ∧ (m ∈ a.adjusted ↔ m ∈ b.adjusted)) ∧
  (∀ r ∈ rem, ¬ (r.1 ∈ a.allMts ∧ Touched a r.2) →
    comp a.table r.1 = comp b.table r.1 ∧ (r.1 ∈ a.adjusted ↔ r.1 ∈ b.adjusted))

theorem touched_mono {a b : Editor K} (hb : SameBase a b) (h : ∀ m, m ∈ a.adjusted → m ∈ b.adjusted)
    {l : List MT} (ht : Touched a l) : Touched b l := by
  obtain ⟨c, h1, h2, h3⟩ := ht
  exact ⟨c, h1, hb.2.2 ▸ h2, h c h3⟩

theorem agree_rule (hf : WellFormed file T) {s : MT} {l : List MT} {rs : List (MT × List MT)}
    (ho : Ordered ((s, l) :: rs)) {a b : Editor K} (ha : Inv file T a) (hb : Inv file T b)
    (h : Agree ((s, l) :: rs) a b) : Agree rs (applyRule a (s, l)).1 (applyRule b (s, l)).1 := by
  obtain ⟨hord, hrule⟩ := ho
  rw [List.pairwise_cons] at hord
  obtain ⟨hsl, hs1, hs2, hl1, hl2⟩ := hrule (s, l) (List.mem_cons_self ..)
  obtain ⟨hbase, hset, hrem⟩ := h
  obtain ⟨_, hia, hba, hca, haa⟩ := applyRule_frame hf ha hs1 hs2 ⟨hl1, hl2⟩
  obtain ⟨_, hib, hbb, hcb, hab⟩ := applyRule_frame hf hb hs1 hs2 ⟨hl1, hl2⟩
  have hnot : ∀ c ∈ l, c ∉ ((s, l) :: rs).map Prod.fst := by
    intro c hc hcm
    rcases List.mem_cons.mp hcm with rfl | hcm
    · exact hsl hc
    · obtain ⟨r', hr', rfl⟩ := List.mem_map.mp hcm
      exact (hord.1 r' hr').1 hc
  have hcl : ∀ c ∈ l, comp a.table c = comp b.table c := fun c hc => (hset c (hnot c hc)).1
  have hal : ∀ c ∈ l, (c ∈ a.adjusted ↔ c ∈ b.adjusted) := fun c hc => (hset c (hnot c hc)).2
  have htouch : Touched a l ↔ Touched b l := touched_congr hbase hal
  refine ⟨(hba.symm.trans hbase).trans hbb, ?_, ?_⟩
  · intro m hm
    by_cases hms : m = s
    · subst hms
      by_cases happ : m ∈ a.allMts ∧ Touched a l
      · have happ' : m ∈ b.allMts ∧ Touched b l := ⟨hbase.2.2 ▸ happ.1, htouch.mp happ.2⟩
        obtain ⟨x, y0, _, rest, h0, _, _, _, _, _, hA⟩ := applyRule_apply hf ha hs1 hs2 ⟨hl1, hl2⟩ happ
        obtain ⟨x', y0', _, rest', h0', _, _, _, _, _, hB⟩ := applyRule_apply hf hb hs1 hs2 ⟨hl1, hl2⟩ happ'
        rw [h0] at h0'
        simp only [Comp.xs.injEq, Option.some.injEq, List.cons.injEq, Prod.mk.injEq, true_and, Tab1D.linlin,
          Tab1D.mk.injEq] at h0'
        obtain ⟨⟨rfl, _⟩, rfl⟩ := h0'
        refine ⟨?_, ?_⟩
        · rw [hA, hB]
          have : x.map (newVal a m l) = x.map (newVal b m l) :=
            List.map_congr_left (fun e _ => newVal_congr hbase hcl hal e)
          rw [this]
        · rw [haa, hab]; simp [happ, happ']
      · have happ' : ¬ (m ∈ b.allMts ∧ Touched b l) := by
          rw [← hbase.2.2, ← htouch]; exact happ
        rw [applyRule_skip happ, applyRule_skip happ']
        exact hrem (m, l) (List.mem_cons_self ..) happ
    · rw [hca m hms, hcb m hms, haa, hab]
      have := hset m (by simp only [List.map_cons, List.mem_cons, not_or]; exact ⟨hms, hm⟩)
      refine ⟨this.1, ?_⟩
      simp [hms, this.2]
  · intro r hr hun
    have hne : r.1 ≠ s := (hord.1 r hr).2
    have hun' : ¬ (r.1 ∈ a.allMts ∧ Touched a r.2) := by
      rintro ⟨h1, h2⟩
      apply hun
      exact ⟨hba.2.2 ▸ h1, touched_mono hba (fun m hm => (haa m).mpr (Or.inl hm)) h2⟩
    have := hrem r (List.mem_cons_of_mem _ hr) hun'
    rw [hca _ hne, hcb _ hne, haa, hab]
    refine ⟨this.1, ?_⟩
    simp [hne, this.2]

theorem agree_rules (hf : WellFormed file T) {rs : List (MT × List MT)} (ho : Ordered rs) :
    ∀ {a b : Editor K}, Inv file T a → Inv file T b → Agree rs a b →
      Agree [] (applyRules a rs).1 (applyRules b rs).1 := by
  induction rs with
  | nil => intro a b _ _ h; exact h
  | cons r rs ih =>
    intro a b ha hb h
    obtain ⟨s, l⟩ := r
    have hrule := ho.2
    obtain ⟨hsl, hs1, hs2, hl1, hl2⟩ := hrule (s, l) (List.mem_cons_self ..)
    have ho' : Ordered rs := ⟨(List.pairwise_cons.mp ho.1).2, fun r hr => hrule r (List.mem_cons_of_mem _ hr)⟩
    rw [applyRules_cons hf ha hs1 hs2 ⟨hl1, hl2⟩, applyRules_cons hf hb hs1 hs2 ⟨hl1, hl2⟩]
    exact ih ho' (applyRule_frame hf ha hs1 hs2 ⟨hl1, hl2⟩).2.1 (applyRule_frame hf hb hs1 hs2 ⟨hl1, hl2⟩).2.1
      (agree_rule hf ho ha hb h)

/-- Applying the sum rules to one of two agreeing editors keeps them agreeing. -/
theorem agree_apply_left (hf : WellFormed file T) {a b : Editor K} (ha : Inv file T a)
    (h : Agree sumRules a b) : Agree sumRules (applySumRules a).1 b := by
  obtain ⟨hbase, hset, hrem⟩ := h
  obtain ⟨_, hi, hb1, hc, hadj, hmono⟩ := applyRules_frame hf sumRules_ordered ha
  refine ⟨hb1.symm.trans hbase, ?_, ?_⟩
  · intro m hm
    exact ⟨(hc m hm).trans (hset m hm).1, (hadj m hm).trans (hset m hm).2⟩
  · intro r hr hun
    rcases applyRules_settled hf sumRules_ordered ha r hr with ⟨h1, h2, _⟩ | ⟨h1, h2, h3⟩
    · exact absurd ⟨h1, h2⟩ hun
    · have hun' : ¬ (r.1 ∈ a.allMts ∧ Touched a r.2) := by
        rintro ⟨h1', h2'⟩
        exact hun ⟨hb1.2.2 ▸ h1', touched_mono hb1 hmono h2'⟩
      have := hrem r hr hun'
      exact ⟨h2.trans this.1, h3.trans this.2⟩

/-- Setting the same thing in two agreeing editors keeps them agreeing. -/
theorem agree_set (hf : WellFormed file T) {a b : Editor K} (ha : Inv file T a) (hb : Inv file T b)
    (h : Agree sumRules a b) (mt : MT) (v : Val K) :
    Agree sumRules (setSigma a mt v).1 (setSigma b mt v).1 := by
  obtain ⟨hbase, hset, hrem⟩ := h
  obtain ⟨hba, _, hca, haa⟩ := setSigma_frame a mt v
  obtain ⟨hbb, _, hcb, hab⟩ := setSigma_frame b mt v
  -- the component of `mt` itself: for cross sections on the file the outcome depends on the grid only
  have hout : mt ∈ Dict.keys file.reactions → (setSigma a mt v).2 = (setSigma b mt v).2 ∧
      ((setSigma a mt v).2 = .ok () → comp (setSigma a mt v).1.table mt = comp (setSigma b mt v).1.table mt) := by
    intro hm
    obtain ⟨x, y0, y1, rest, h0, h1, hl0, hl1, hx⟩ := ha.data mt hm
    obtain ⟨x', y0', y1', rest', h0', h1', hl0', hl1', hx'⟩ := hb.data mt hm
    rw [h0] at h0'
    simp only [Comp.xs.injEq, Option.some.injEq, List.cons.injEq, Prod.mk.injEq, true_and, Tab1D.linlin,
      Tab1D.mk.injEq] at h0'
    obtain ⟨⟨rfl, _⟩, rfl⟩ := h0'
    obtain ⟨_, ht, hE⟩ := ha.tabs hf hm h0 h1
    obtain ⟨_, ht', hE'⟩ := hb.tabs hf hm h0 h1'
    obtain ⟨hs1, hs2⟩ := special_not_key hf hm
    cases v with
    | arr l =>
      by_cases hl : l.length = x.length
      · have e1 := setSigma_xs hf ha hm h1 hE ht hl
        have e2 := setSigma_xs hf hb hm h1' hE' ht' hl
        refine ⟨by rw [e1.1, e2.1], fun _ => by rw [e1.2, e2.2]⟩
      · have e1 : setSigma a mt (.arr l) = (a, .error .indexError) := by simp [setSigma, hE, Val.len, hl]
        have e2 : setSigma b mt (.arr l) = (b, .error .indexError) := by simp [setSigma, hE', Val.len, hl]
        rw [e1, e2]; simp
    | pdfs l =>
      by_cases hl : l.length = x.length
      · have e1 : (setSigma a mt (.pdfs l)).2 = .error .typeError := by
          simp [setSigma, hE, Val.len, hl, getSigma_full hs1 hs2 ht, hs1, hs2]
        have e2 : (setSigma b mt (.pdfs l)).2 = .error .typeError := by
          simp [setSigma, hE', Val.len, hl, getSigma_full hs1 hs2 ht', hs1, hs2]
        rw [e1, e2]; simp
      · have e1 : setSigma a mt (.pdfs l) = (a, .error .indexError) := by simp [setSigma, hE, Val.len, hl]
        have e2 : setSigma b mt (.pdfs l) = (b, .error .indexError) := by simp [setSigma, hE', Val.len, hl]
        rw [e1, e2]; simp
  have hout2 : comp a.table mt = comp b.table mt → (setSigma a mt v).2 = (setSigma b mt v).2 ∧
      comp (setSigma a mt v).1.table mt = comp (setSigma b mt v).1.table mt :=
    fun h => setSigma_congr hbase h v
  -- off the file the components agree anyway
  have hoff : mt ∉ Dict.keys file.reactions → comp a.table mt = comp b.table mt := by
    intro hm
    by_cases hr : mt ∈ sumRules.map Prod.fst
    · have h1 : mt ≠ 452 := by rintro rfl; revert hr; decide
      have h2 : mt ≠ 1018 := by rintro rfl; revert hr; decide
      rw [comp_xs h1 h2, comp_xs h1 h2]
      have ka : mt ∉ Dict.keys a.table.reactions := by rw [ha.keys]; exact hm
      have kb : mt ∉ Dict.keys b.table.reactions := by rw [hb.keys]; exact hm
      rw [Dict.get?_eq_none.mpr ka, Dict.get?_eq_none.mpr kb]
    · exact (hset mt hr).1
  have hsame : (setSigma a mt v).2 = (setSigma b mt v).2 := by
    by_cases hm : mt ∈ Dict.keys file.reactions
    · exact (hout hm).1
    · exact (hout2 (hoff hm)).1
  refine ⟨(hba.symm.trans hbase).trans hbb, ?_, ?_⟩
  · intro m hm
    by_cases hmm : m = mt
    · subst hmm
      refine ⟨(hout2 (hset m hm).1).2, ?_⟩
      rw [haa, hab, hsame, (hset m hm).2]
    · rw [hca m hmm, hcb m hmm, haa, hab]
      refine ⟨(hset m hm).1, ?_⟩
      rw [(hset m hm).2]; simp [hmm]
  · intro r hr hun
    have hun' : ¬ (r.1 ∈ a.allMts ∧ Touched a r.2) := by
      rintro ⟨h1, h2⟩
      exact hun ⟨hba.2.2 ▸ h1, touched_mono hba (fun m hm => (haa m).mpr (Or.inl hm)) h2⟩
    have hr' := hrem r hr hun'
    by_cases hmm : r.1 = mt
    · rw [haa, hab, hsame]
      rw [hmm] at hr' ⊢
      exact ⟨(hout2 hr'.1).2, by rw [hr'.2]⟩
    · rw [hca _ hmm, hcb _ hmm, haa, hab]
      refine ⟨hr'.1, ?_⟩
      rw [hr'.2]; simp [hmm]

theorem agree_run (hf : WellFormed file T) (ops : List (Op K)) : ∀ {a b : Editor K}, Inv file T a →
    Inv file T b → Agree sumRules a b →
    Agree sumRules (run a ops) (run b ((setsOf ops).map fun p => .set p.1 p.2)) := by
  induction ops with
  | nil => intro a b _ _ h; exact h
  | cons op ops ih =>
    intro a b ha hb h
    cases op with
    | set mt v => exact ih (inv_set hf ha mt v) (inv_set hf hb mt v) (agree_set hf ha hb h mt v)
    | sums => exact ih (inv_step hf ha .sums) hb (agree_apply_left hf ha h)

theorem agree_refl (rs : List (MT × List MT)) (a : Editor K) : Agree rs a a :=
  ⟨SameBase.refl _, fun _ _ => ⟨rfl, Iff.rfl⟩, fun _ _ _ => ⟨rfl, Iff.rfl⟩⟩

theorem run_append (a : Editor K) (l l' : List (Op K)) : run a (l ++ l') = run (run a l) l' := by
  induction l generalizing a with
  | nil => rfl
  | cons op l ih => exact ih _

/-- The result of setting pairwise different MTs: each gets what setting it alone would give. -/
theorem run_sets (U : List (MT × Val K)) (hn : (U.map Prod.fst).Nodup) : ∀ (a : Editor K),
    SameBase a (run a (U.map fun p => .set p.1 p.2)) ∧
    (∀ m, m ∉ U.map Prod.fst →
      comp (run a (U.map fun p => .set p.1 p.2)).table m = comp a.table m ∧
      (m ∈ (run a (U.map fun p => .set p.1 p.2)).adjusted ↔ m ∈ a.adjusted)) ∧
    (∀ p ∈ U, comp (run a (U.map fun p => .set p.1 p.2)).table p.1 = comp (setSigma a p.1 p.2).1.table p.1 ∧
      (p.1 ∈ (run a (U.map fun p => .set p.1 p.2)).adjusted ↔
        p.1 ∈ a.adjusted ∨ (setSigma a p.1 p.2).2 = .ok ())) := by
  induction U with
  | nil => intro a; exact ⟨SameBase.refl _, fun m _ => ⟨rfl, Iff.rfl⟩, by simp⟩
  | cons p U ih =>
    intro a
    simp only [List.map_cons, List.nodup_cons] at hn
    obtain ⟨hb, _, hc, ha⟩ := setSigma_frame a p.1 p.2
    obtain ⟨hb2, h2, h3⟩ := ih hn.2 (setSigma a p.1 p.2).1
    have hrun : run a ((p :: U).map fun p => .set p.1 p.2) =
        run (setSigma a p.1 p.2).1 (U.map fun p => .set p.1 p.2) := rfl
    rw [hrun]
    refine ⟨hb.trans hb2, ?_, ?_⟩
    · intro m hm
      simp only [List.map_cons, List.mem_cons, not_or] at hm
      obtain ⟨h, h'⟩ := h2 m hm.2
      refine ⟨h.trans (hc m hm.1), ?_⟩
      rw [h', ha]; simp [hm.1]
    · intro q hq
      rcases List.mem_cons.mp hq with rfl | hq
      · obtain ⟨h, h'⟩ := h2 q.1 hn.1
        refine ⟨h, ?_⟩
        rw [h', ha]; simp
      · have hne : q.1 ≠ p.1 := by
          intro h; apply hn.1; rw [← h]; exact List.mem_map_of_mem hq
        obtain ⟨h, h'⟩ := h3 q hq
        have hcong := setSigma_congr hb.symm (hc q.1 hne) q.2
        refine ⟨h.trans hcong.2, ?_⟩
        rw [h', hcong.1, ha]; simp [hne]

end ASAPy.Ace
