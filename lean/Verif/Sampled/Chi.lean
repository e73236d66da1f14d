import Verif.Sampled.Props
import Verif.Editor.ChiProps

/-! # C232: a sampled fission spectrum -/

set_option linter.unusedSectionVars false

namespace ASAPy.Sampled
open ASAPy.Ace ASAPy.MapGroups

variable {K : Type*} [Field K] [LinearOrder K] [ExpLog K] {file : Table K} {T : Temp}

/-! ### Specification -/

/-- The values `q` are those of the pdf of `d` times the relative value of the group of each outgoing energy (1 outside the groups). -/
def TimesGroups (high : List K) (maxE minE : K) (rel : Nat → K) (d : Ace.Dist K) (q : List K) : Prop :=
  q.length = d.x.length ∧ ∀ (j : Nat) (E p v : K), d.x[j]? = some E → d.p[j]? = some p → q[j]? = some v →
    (∀ g, InGroup high maxE minE g E → v = rel g * p) ∧ ((E < minE ∨ maxE < E) → v = p)

/-- The data of a sample of chi: the sampled relative values are not negative; the groups are usable; the distributions have as many values as energies, no negative ones, no energy at the lower end of the groups (see C28),
and the sum by which the code normalises (the last value of the cdf plus the change of the integral) is positive. -/
structure FitsChi (chi : Chi K) (k : Nat) (inp : Input K) (high : List K) (maxE minE : K) (rel : Nat → K) : Prop where
  mt : inp.mt = 1018
  sample : ∃ col, inp.cols[k]? = some col ∧ ∀ g, 1 ≤ g → g ≤ high.length → col.get (g : Int) = some (rel g) ∧ 0 ≤ rel g
  bounds : ∃ low, inp.bounds = .ok (high, low) ∧ IsLeast {x | x ∈ low} minE
  max : IsGreatest {x | x ∈ high} maxE
  usable : Usable high maxE minE
  some : chi.energyOut ≠ []
  dists : ∀ d ∈ chi.energyOut, d.Shaped ∧ (∀ v ∈ d.p, 0 ≤ v) ∧ minE ∉ d.x ∧ ∀ q, TimesGroups high maxE minE rel d q → 0 < chiNorm d q

/-! ### Proofs -/

theorem chi_modify (ed : Editor K) (mt : MT) {f : Reaction K → Reaction K} (hf : ∀ r, (f r).chi = r.chi) : getChiDistro (ed.modifyRx mt f) false = getChiDistro ed false := by
  unfold getChiDistro
  rw [show (ed.modifyRx mt f).allMts = ed.allMts from rfl]
  have : ∀ {β : Type _} (F : Option (Chi K) → Except PyErr β), ((ed.modifyRx mt f).table.rx 18 >>= fun r => F r.chi) = (ed.table.rx 18 >>= fun r => F r.chi) := by
    intro β F
    simp only [Editor.modifyRx, Table.rx]
    by_cases hm : mt = 18
    · subst hm
      rw [Dict.get?_modify_same]
      cases Dict.get? ed.table.reactions 18 with
      | none => rfl
      | some r => simp only [Option.map_some, bind, Except.bind, hf]
    · rw [Dict.get?_modify_ne _ _ (Ne.symm hm)]
  by_cases h : checkIfMtsPresent [18] ed.allMts ≠ []
  · rw [if_pos h, if_pos h]
    simp only [Bool.false_eq_true, if_false]
    exact this fun o => match o with
      | none => .error .indexError
      | some chi => if chi.prompt = false then .error .exception else .ok chi
  · rw [if_neg h, if_neg h]

theorem chi_set (ed : Editor K) {mt : MT} (hm : mt ≠ 1018) (v : Val K) : getChiDistro (setSigma ed mt v).1 false = getChiDistro ed false := by
  unfold setSigma
  cases hE : getEnergy ed mt with
  | error e => rfl
  | ok energy =>
    simp only
    by_cases hl : v.len ≠ energy.len
    · rw [if_pos hl]
    · rw [if_neg hl]
      cases hS : getSigma ed mt none false with
      | error e => rfl
      | ok cur =>
        simp only
        by_cases h1 : mt = 452
        · rw [if_pos h1]
          cases v with
          | arr l => exact chi_modify (ed.remember mt cur) 18 (fun _ => rfl)
          | pdfs l => rfl
        · rw [if_neg h1, if_neg hm]
          cases v with
          | arr l => exact chi_modify (ed.remember mt cur) mt (fun _ => rfl)
          | pdfs l => rfl

theorem chi_sums (ed : Editor K) : getChiDistro (applySumRules ed).1 false = getChiDistro ed false :=
  applyRules_induct (P := fun e => getChiDistro e false = getChiDistro ed false) (rules := sumRules)
    (fun e mt _ hm h => (chi_set e (fun h' => absurd (h' ▸ hm) (by decide)) _).trans h) ed rfl

theorem times_exists [IsStrictOrderedRing K] {chi : Chi K} {k : Nat} {inp : Input K} {high low : List K} {maxE minE : K} {rel : Nat → K} (h : FitsChi chi k inp high maxE minE rel) (hmin : IsLeast {x | x ∈ low} minE)
    {col : Series K} (hrel : ∀ g, 1 ≤ g → g ≤ high.length → col.get (g : Int) = some (rel g)) :
    ∀ ds : List (Ace.Dist K), (∀ d ∈ ds, d ∈ chi.energyOut) → ∃ qs, factorTimesAll high low col (ds.map (·.p)) (ds.map (·.x)) = .ok qs ∧ List.Forall₂ (TimesGroups high maxE minE rel) ds qs
  | [], _ => ⟨[], rfl, .nil⟩
  | d :: ds, hd => by
    obtain ⟨qs, h1, h2⟩ := times_exists h hmin hrel ds (fun d hd' => hd d (List.mem_cons_of_mem _ hd'))
    obtain ⟨hsh, -, hno, -⟩ := h.dists d (hd d (List.mem_cons_self ..))
    obtain ⟨f, hf, hfa⟩ := mapGroups_ok (maxE? := none) (minE? := some minE) (1 : K) (Or.inr ⟨rfl, h.max⟩) (Or.inl rfl) h.usable col rel hrel d.x (fun e he hem => hno (hem ▸ he))
    have hfl := hfa.length_eq
    have hone : factorTimes high low col d.x d.p = .ok (List.zipWith (· * ·) f d.p) := by
      unfold factorTimes
      rw [min?_of_least hmin]
      simp only [hf]
      unfold bcast
      rw [if_pos (by rw [← hfl, hsh.1])]
    refine ⟨List.zipWith (· * ·) f d.p :: qs, by simp only [List.map_cons, factorTimesAll, hone, h1], .cons ⟨by simp [← hfl, hsh.1], ?_⟩ h2⟩
    intro j E p v hE hp hv
    rw [List.forall₂_iff_get] at hfa
    have hj : j < d.x.length := (List.getElem?_eq_some_iff.mp hE).1
    have hjf : j < f.length := hfl ▸ hj
    have hr := hfa.2 j hj hjf
    have hee : d.x[j] = E := (List.getElem?_eq_some_iff.mp hE).2
    simp only [List.get_eq_getElem, hee] at hr
    simp only [List.getElem?_zipWith, hp, List.getElem?_eq_getElem hjf, Option.some.injEq] at hv
    subst hv
    exact ⟨fun g hg => by rw [hr.1 g hg], fun hout => by rw [hr.2 hout, one_mul]⟩

theorem times_nonneg [IsStrictOrderedRing K] {chi : Chi K} {k : Nat} {inp : Input K} {high : List K} {maxE minE : K} {rel : Nat → K} (h : FitsChi chi k inp high maxE minE rel) {d : Ace.Dist K} (hd : d ∈ chi.energyOut)
    {q : List K} (hq : TimesGroups high maxE minE rel d q) : ∀ v ∈ q, 0 ≤ v := by
  obtain ⟨hsh, hpos, hno, -⟩ := h.dists d hd
  obtain ⟨col, -, hrel⟩ := h.sample
  intro v hv
  obtain ⟨j, hj, rfl⟩ := List.getElem_of_mem hv
  have hjx : j < d.x.length := hq.1 ▸ hj
  have hjp : j < d.p.length := by rw [hsh.1]; exact hjx
  have := hq.2 j _ _ _ (List.getElem?_eq_getElem hjx) (List.getElem?_eq_getElem hjp) (List.getElem?_eq_getElem hj)
  have hp := hpos _ (List.getElem_mem hjp)
  rcases lt_trichotomy d.x[j] minE with hlt | heq | hgt
  · rw [this.2 (Or.inl hlt)]; exact hp
  · exact absurd (heq ▸ List.getElem_mem hjx) hno
  · by_cases hm : maxE < d.x[j]
    · rw [this.2 (Or.inr hm)]; exact hp
    · obtain ⟨g, hg, -⟩ := C26_every_energy_has_one_group h.usable hgt (not_lt.1 hm)
      rw [this.1 g hg]
      exact mul_nonneg (hrel g hg.1 hg.2.1).2 hp

theorem setDists_fine [IsStrictOrderedRing K] : ∀ {ds : List (Ace.Dist K)} {qs : List (List K)},
    List.Forall₂ (fun d q => d.Shaped ∧ q.length = d.x.length ∧ (∀ v ∈ q, 0 ≤ v) ∧ 0 < chiNorm d q) ds qs → (setDists ds qs).2 = .ok ()
  | _, _, .nil => rfl
  | _, _, .cons (a := d) (b := q) ⟨h1, h2, h3, h4⟩ hs => by
    have hany : ((q.map (· / chiNorm d q)).any fun v => decide (v < 0)) = false := by
      rw [List.any_eq_false]
      intro v hv
      obtain ⟨u, hu, rfl⟩ := List.mem_map.1 hv
      simpa using div_nonneg (h3 u hu) h4.le
    have hone : (setDist d q).2 = .ok () := by
      rw [setDist_eq h1 h2]
      simp only [hany]
      rfl
    simp only [setDists]
    cases hd : setDist d q with
    | mk d' o =>
      rw [hd] at hone
      simp only at hone
      subst hone
      exact setDists_fine hs

/-- **C232.** Sampling chi succeeds; afterwards each outgoing distribution has its energies, a cdf ending in 1, and the pdf of the file times the sampled relative value of the group of each energy, divided by one
positive number. Cross sections and nu-bar are as they were, but for the sums. -/
theorem C232_chi [IsStrictOrderedRing K] (hf : WellFormed file T) {ed : Editor K} (hr : Reachable file T ed) {chi : Chi K} (hchi : getChiDistro ed false = .ok chi) {k : Nat} {inp : Input K} {high : List K}
    {maxE minE : K} {rel : Nat → K} (h : FitsChi chi k inp high maxE minE rel) :
    ∃ (ed' : Editor K) (chi' : Chi K), sampleMt ed k inp = (ed', .ok ()) ∧ Reachable file T ed' ∧ getChiDistro ed' false = .ok chi' ∧ chi'.energyIn = chi.energyIn ∧ chi'.energyOut.length = chi.energyOut.length ∧
      (∀ (i : Nat) (d : Ace.Dist K), chi.energyOut[i]? = some d → ∃ (d' : Ace.Dist K) (c : K), chi'.energyOut[i]? = some d' ∧ d'.x = d.x ∧ d'.c.getLast? = some 1 ∧ 0 < c ∧ TimesGroups high maxE minE rel d (d'.p.map (· * c))) ∧
      ∀ m, m ≠ 1018 → (∀ c, ¬ Part m c) → ∀ at? un, getSigma ed' m at? un = getSigma ed m at? un := by
  obtain ⟨col, hcol, hrel⟩ := h.sample
  obtain ⟨low, hb, hmin⟩ := h.bounds
  obtain ⟨qs, hqs, hall⟩ := times_exists h hmin (fun g h1 h2 => (hrel g h1 h2).1) chi.energyOut (fun _ h => h)
  have hfine : List.Forall₂ (fun d q => d.Shaped ∧ q.length = d.x.length ∧ (∀ v ∈ q, 0 ≤ v) ∧ 0 < chiNorm d q) chi.energyOut qs := by
    rw [List.forall₂_iff_get] at hall ⊢
    refine ⟨hall.1, fun i h1 h2 => ?_⟩
    have hq := hall.2 i h1 h2
    have hm : chi.energyOut.get ⟨i, h1⟩ ∈ chi.energyOut := List.get_mem ..
    obtain ⟨g1, -, -, g4⟩ := h.dists _ hm
    exact ⟨g1, hq.1, times_nonneg h hm hq, g4 _ hq⟩
  have hE : getEnergy ed 1018 = .ok (.pdfs (chi.energyOut.map (·.x))) := by
    simp only [getEnergy, show (1018 : Nat) ≠ 452 by decide, if_false, if_true, hchi, bind, Except.bind]
  have hS : getSigma ed 1018 none false = .ok (.pdfs (chi.energyOut.map (·.p))) := by
    simp only [getSigma, show (1018 : Nat) ≠ 452 by decide, if_false, if_true, hchi, bind, Except.bind]
  have hset : (setSigma ed 1018 (.pdfs qs)).2 = .ok () := by
    unfold setSigma
    simp only [hE, hS, Val.len, List.length_map, ← hall.length_eq, ne_eq, not_true_eq_false, if_false, show (1018 : Nat) ≠ 452 by decide, if_true]
    unfold setChiDistro
    rw [show getChiDistro (ed.remember 1018 (.pdfs (chi.energyOut.map (·.p)))) false = .ok chi from hchi]
    simp only [hall.length_eq, ne_eq, not_true_eq_false, if_false]
    have hfin := setDists_fine hfine
    cases he : chi.energyOut with
    | nil => exact absurd he h.some
    | cons d ds =>
      rw [he] at hfin hall
      cases hall with
      | cons hd hds =>
        simp only
        rw [if_neg (not_not.2 hd.1.symm), hfin]
  cases hs : setSigma ed 1018 (.pdfs qs) with
  | mk ed1 o =>
    rw [hs] at hset
    simp only at hset
    subst hset
    obtain ⟨hok, hlen, hget⟩ := setSigma_chi hchi hs
    have hr1 : Reachable file T ed1 := by
      have := reachable_step hr (.set 1018 (.pdfs qs))
      simp only [step, hs] at this
      exact this
    have hun : ∀ m, (∀ c, ¬ Part m c) → ¬ (OnFile file m ∧ ∃ c, OnFile file c ∧ Part m c ∧ Reached file ed1.adjusted c) := by
      rintro m hm ⟨_, c, _, hp, _⟩
      exact hm c hp
    have hne := C01_nothing_else (ed := ed) 1018 (.pdfs qs)
    rw [hs] at hne
    refine ⟨(applySumRules ed1).1, _, ?_, reachable_step hr1 .sums, (chi_sums ed1).trans hget, rfl, ?_, ?_, ?_⟩
    · unfold sampleMt
      simp only [hcol, hb, h.mt, hE, hS, hqs, Except.map, hs]
      exact Prod.ext rfl (C11_never_fails hf hr1).1
    · have := congrArg List.length (setDists_x chi.energyOut qs)
      simpa using this
    · intro i d hd
      rw [List.forall₂_iff_get] at hfine hall
      have hi : i < chi.energyOut.length := (List.getElem?_eq_some_iff.1 hd).1
      have hiq : i < qs.length := hall.1 ▸ hi
      obtain ⟨g1, g2, g3, g4⟩ := hfine.2 i hi hiq
      have hq := hall.2 i hi hiq
      have hdd : chi.energyOut.get ⟨i, hi⟩ = d := by
        rw [List.getElem?_eq_getElem hi] at hd
        exact Option.some.inj hd
      rw [hdd] at g1 g2 g4 hq
      obtain ⟨d', q1, q2⟩ := setDists_ok _ _ hok i d _ hd (List.getElem?_eq_getElem hiq)
      obtain ⟨hx, hc, hpp⟩ := setDist_ok g1 g2 g4.ne' q2
      refine ⟨d', _, q1, hx, hc, g4, ?_⟩
      rw [hpp, List.map_map]
      have : ((· * chiNorm d (qs.get ⟨i, hiq⟩)) ∘ (· / chiNorm d (qs.get ⟨i, hiq⟩)) : K → K) = id := by
        funext v
        exact div_mul_cancel₀ v g4.ne'
      rw [this, List.map_id]
      exact hq
    · intro m hm hp at? un
      rw [(C08_untouched hf hr1 (hun m hp)).2.1, hne.1 m hm]

theorem rightSum_pos [IsStrictOrderedRing K] : ∀ (x p : List K) (j : Nat) (v : K), x.Pairwise (· < ·) → (∀ u ∈ p, 0 ≤ u) → j + 1 < x.length → p[j + 1]? = some v → 0 < v → 0 < rightSum x p
  | [], _, _, _, _, _, h, _, _ => by simp at h
  | [_], _, _, _, _, _, h, _, _ => by simp at h
  | _ :: _ :: _, [], _, _, _, _, _, h, _ => by simp at h
  | _ :: _ :: _, [_], _, _, _, _, _, h, _ => by simp at h
  | x0 :: x1 :: xs, p0 :: p1 :: ps, 0, v, hx, hp, _, hv, h0 => by
    simp only [List.getElem?_cons_succ, List.getElem?_cons_zero, Option.some.injEq] at hv
    subst hv
    simp only [rightSum]
    exact add_pos_of_pos_of_nonneg (mul_pos h0 (sub_pos.2 ((List.pairwise_cons.1 hx).1 _ (List.mem_cons_self ..))))
      (rightSum_nonneg _ _ (fun u hu => hp u (List.mem_cons_of_mem _ hu)) (List.pairwise_cons.1 hx).2)
  | x0 :: x1 :: xs, p0 :: p1 :: ps, j + 1, v, hx, hp, hj, hv, h0 => by
    simp only [rightSum]
    refine add_pos_of_nonneg_of_pos (mul_nonneg (hp _ (by simp)) (sub_pos.2 ((List.pairwise_cons.1 hx).1 _ (List.mem_cons_self ..))).le) ?_
    exact rightSum_pos (x1 :: xs) (p1 :: ps) j v (List.pairwise_cons.1 hx).2 (fun u hu => hp u (List.mem_cons_of_mem _ hu)) (by simpa using hj) (by simpa using hv) h0

/-- **C232, on ordinary files**: the sum by which the code normalises is positive - and is the integral of the new pdf by right rectangles - if the cdf of the file ends in the integral of its pdf by right rectangles,
the energies increase, the sampled values are positive, and the pdf has a positive value after the first energy. -/
theorem C232_norm [IsStrictOrderedRing K] {high : List K} {maxE minE : K} (hu : Usable high maxE minE) {rel : Nat → K} (hrel : ∀ g, 1 ≤ g → g ≤ high.length → 0 < rel g) {d : Ace.Dist K} (hsh : d.Shaped)
    (hpos : ∀ v ∈ d.p, 0 ≤ v) (hno : minE ∉ d.x) (hx : d.x.Pairwise (· < ·)) (hc : d.c.getLast? = some (rightSum d.x d.p)) (hex : ∃ (j : Nat) (v : K), d.p[j + 1]? = some v ∧ 0 < v)
    {q : List K} (hq : TimesGroups high maxE minE rel d q) : chiNorm d q = rightSum d.x q ∧ 0 < chiNorm d q := by
  have heq : chiNorm d q = rightSum d.x q := by simp [chiNorm, hc]
  refine ⟨heq, heq ▸ ?_⟩
  have key : ∀ (j : Nat) (hj : j < q.length) (p : K), d.p[j]? = some p → (0 ≤ p → 0 ≤ q[j]) ∧ (0 < p → 0 < q[j]) := by
    intro j hj p hp
    have hjx : j < d.x.length := hq.1 ▸ hj
    have := hq.2 j _ _ _ (List.getElem?_eq_getElem hjx) hp (List.getElem?_eq_getElem hj)
    rcases lt_trichotomy d.x[j] minE with hlt | he | hgt
    · rw [this.2 (Or.inl hlt)]; exact ⟨id, id⟩
    · exact absurd (he ▸ List.getElem_mem hjx) hno
    · by_cases hm : maxE < d.x[j]
      · rw [this.2 (Or.inr hm)]; exact ⟨id, id⟩
      · obtain ⟨g, hg, -⟩ := C26_every_energy_has_one_group hu hgt (not_lt.1 hm)
        rw [this.1 g hg]
        have := hrel g hg.1 hg.2.1
        exact ⟨mul_nonneg this.le, mul_pos this⟩
  obtain ⟨j, v, hv, hv0⟩ := hex
  have hjp := (List.getElem?_eq_some_iff.1 hv).1
  have hjq : j + 1 < q.length := by rw [hq.1, ← hsh.1]; exact hjp
  refine rightSum_pos _ _ j q[j + 1] hx ?_ (hq.1 ▸ hjq) (List.getElem?_eq_getElem hjq) ((key _ hjq _ hv).2 hv0)
  intro u hu'
  obtain ⟨i, hi, rfl⟩ := List.getElem_of_mem hu'
  have hip : i < d.p.length := by rw [hsh.1, ← hq.1]; exact hi
  exact (key i hi _ (List.getElem?_eq_getElem hip)).1 (hpos _ (List.getElem_mem hip))

/-- **C35 for the fission spectrum.** A sample of ones leaves the spectrum as it is, if its cdfs end in one. -/
theorem C35_chi [IsStrictOrderedRing K] (hf : WellFormed file T) {ed : Editor K} (hr : Reachable file T ed) {chi : Chi K} (hchi : getChiDistro ed false = .ok chi) {k : Nat} {inp : Input K} {high : List K}
    {maxE minE : K} (h : FitsChi chi k inp high maxE minE fun _ => 1) (hc : ∀ d ∈ chi.energyOut, d.c.getLast? = some 1) :
    ∃ ed', sampleMt ed k inp = (ed', .ok ()) ∧ getChiDistro ed' false = .ok chi := by
  obtain ⟨col, hcol, hrel⟩ := h.sample
  obtain ⟨low, hb, hmin⟩ := h.bounds
  obtain ⟨qs, hqs, hall⟩ := times_exists h hmin (fun g h1 h2 => (hrel g h1 h2).1) chi.energyOut (fun _ h => h)
  have hq : qs = chi.energyOut.map (·.p) := by
    have key : ∀ (ds : List (Ace.Dist K)) (qs : List (List K)), (∀ d ∈ ds, d ∈ chi.energyOut) → List.Forall₂ (TimesGroups high maxE minE fun _ => 1) ds qs → qs = ds.map (·.p) := by
      intro ds qs hd hall
      induction hall with
      | nil => rfl
      | @cons d q ds qs h1 _ ih =>
        obtain ⟨hsh, -, hno, -⟩ := h.dists d (hd d (List.mem_cons_self ..))
        rw [List.map_cons, ih fun d hd' => hd d (List.mem_cons_of_mem _ hd')]
        congr 1
        refine List.ext_getElem (by rw [h1.1, hsh.1]) fun i hi1 hi2 => ?_
        have hx : i < d.x.length := h1.1 ▸ hi1
        obtain ⟨s1, s2⟩ := h1.2 i _ _ _ (List.getElem?_eq_getElem hx) (List.getElem?_eq_getElem hi2) (List.getElem?_eq_getElem hi1)
        rcases lt_trichotomy d.x[i] minE with hlt | he | hgt
        · exact s2 (Or.inl hlt)
        · exact absurd (he ▸ List.getElem_mem hx) hno
        · by_cases hm : maxE < d.x[i]
          · exact s2 (Or.inr hm)
          · obtain ⟨g, hg, -⟩ := C26_every_energy_has_one_group h.usable hgt (not_lt.1 hm)
            rw [s1 g hg, one_mul]
    exact key _ _ (fun _ h => h) hall
  subst hq
  obtain ⟨ed1, hs, hget, -⟩ := C12_same_pdf hchi h.some (fun d hd => ⟨(h.dists d hd).1, hc d hd, (h.dists d hd).2.1⟩)
  have hr1 : Reachable file T ed1 := by
    have := reachable_step hr (.set 1018 (.pdfs (chi.energyOut.map (·.p))))
    simp only [step, hs] at this
    exact this
  refine ⟨(applySumRules ed1).1, ?_, (chi_sums ed1).trans hget⟩
  unfold sampleMt
  have hE : getEnergy ed 1018 = .ok (.pdfs (chi.energyOut.map (·.x))) := by
    simp only [getEnergy, show (1018 : Nat) ≠ 452 by decide, if_false, if_true, hchi, bind, Except.bind]
  have hS : getSigma ed 1018 none false = .ok (.pdfs (chi.energyOut.map (·.p))) := by
    simp only [getSigma, show (1018 : Nat) ≠ 452 by decide, if_false, if_true, hchi, bind, Except.bind]
  simp only [hcol, hb, h.mt, hE, hS, hqs, Except.map, hs]
  exact Prod.ext rfl (C11_never_fails hf hr1).1

/-! ### A concrete case -/

section
local instance : ExpLog ℚ := ⟨id, id⟩

/-- Groups (1/2, 3/2] with the relative value 1/2 and (3/2, 4] with 2. -/
def chiInput : Input ℚ := ⟨1018, [[(1, 2), (2, 1/2)]], .ok ([4, 3/2], [3/2, 1/2])⟩

def chiDist : Ace.Dist ℚ := ⟨[0, 1, 2], [1/2, 1/2, 1/2], [0, 1/2, 1]⟩

theorem chi_usable : Usable ([4, 3/2] : List ℚ) 4 (1/2) := by
  constructor
  · simp
  · simp; norm_num
  · simp; norm_num
  · simp; norm_num

theorem chi_fits : FitsChi ⟨true, [1, 2], [chiDist, chiDist]⟩ 0 chiInput [4, 3/2] 4 (1/2) (fun g => if g = 1 then 2 else 1/2) where
  mt := rfl
  sample := by
    refine ⟨[(1, 2), (2, 1/2)], rfl, ?_⟩
    intro g h1 h2
    have : g = 1 ∨ g = 2 := by simp at h2; omega
    rcases this with rfl | rfl <;> decide +kernel
  bounds := ⟨[3/2, 1/2], rfl, by constructor <;> simp [lowerBounds]; norm_num⟩
  max := by constructor <;> simp [upperBounds]; norm_num
  usable := chi_usable
  some := by simp
  dists := by
    intro d hd
    simp only [List.mem_cons, List.not_mem_nil, or_false, or_self] at hd
    subst hd
    have h1 : chiDist.Shaped := ⟨rfl, rfl, by simp [chiDist]⟩
    have h2 : ∀ v ∈ chiDist.p, (0 : ℚ) ≤ v := by decide +kernel
    have h3 : (1/2 : ℚ) ∉ chiDist.x := by decide +kernel
    exact ⟨h1, h2, h3, fun q hq => (C232_norm chi_usable (fun g _ _ => by split <;> norm_num) h1 h2 h3 (by decide +kernel) (by decide +kernel) ⟨0, 1/2, rfl, by norm_num⟩ hq).2⟩

/-- The group numbered 1 is the one of the highest energies: 1/2 times 1/2 at the energy 1, 1/2 times 2 at the energy 2, and the pdf of the file at the energy 0; all over the integral 5/4. -/
example : ∃ ed, sampleMt demoEd 0 chiInput = (ed, .ok ()) ∧ getSigma ed 1018 none false = .ok (.pdfs [[2/5, 1/5, 4/5], [2/5, 1/5, 4/5]]) := by
  refine ⟨_, Prod.ext rfl ?_, ?_⟩ <;> decide +kernel

example : ∃ ed' chi', sampleMt demoEd 0 chiInput = (ed', .ok ()) ∧ getChiDistro ed' false = .ok chi' ∧ chi'.energyIn = [1, 2] := by
  obtain ⟨ed', chi', h1, -, h2, h3, -⟩ := C232_chi demo_wf (demo_reachable []) (chi := ⟨true, [1, 2], [chiDist, chiDist]⟩) rfl chi_fits
  exact ⟨ed', chi', h1, h2, h3⟩

/-- A sample of ones. -/
def chiOnes : Input ℚ := { chiInput with cols := [[(1, 1), (2, 1)]] }

theorem chi_fits_ones : FitsChi ⟨true, [1, 2], [chiDist, chiDist]⟩ 0 chiOnes [4, 3/2] 4 (1/2) (fun _ => 1) :=
  { chi_fits with
    mt := rfl
    bounds := chi_fits.bounds
    sample := by
      refine ⟨[(1, 1), (2, 1)], rfl, ?_⟩
      intro g h1 h2
      have : g = 1 ∨ g = 2 := by simp at h2; omega
      rcases this with rfl | rfl <;> decide +kernel
    dists := by
      intro d hd
      have hd' := chi_fits.dists d hd
      simp only [List.mem_cons, List.not_mem_nil, or_false, or_self] at hd
      subst hd
      exact ⟨hd'.1, hd'.2.1, hd'.2.2.1, fun q hq => (C232_norm chi_usable (fun g _ _ => one_pos) hd'.1 hd'.2.1 hd'.2.2.1 (by decide +kernel) (by decide +kernel) ⟨0, 1/2, rfl, by norm_num⟩ hq).2⟩ }

example : ∃ ed', sampleMt demoEd 0 chiOnes = (ed', .ok ()) ∧ getChiDistro ed' false = .ok ⟨true, [1, 2], [chiDist, chiDist]⟩ :=
  C35_chi demo_wf (demo_reachable []) rfl chi_fits_ones (by decide +kernel)

end

end ASAPy.Sampled
