import Verif.Dists.LawProps
import Verif.Func.SumProps
import Verif.Tab1D.Props

/-! # C111: delayed neutrons -/

set_option linter.unusedSimpArgs false
set_option linter.unusedSectionVars false

namespace ASAPy.Dists
open ASAPy.FromAce ASAPy.Func

section
variable {K : Type} [Field K] [LinearOrder K] [FloorRing K] [IsStrictOrderedRing K] [ExpLog K]

theorem item_of {α : Type} {l : List α} {i : Nat} {v : α} (h : l[i]? = some v) : item l (i : Int) = .ok v := item_nat l i v h

theorem groups_at {a : Arrays K} {awr : K} {yd : Tab1D K} {j26 j27 : Nat} (ygs : Group K → Tab1D K × K) (L : Nat → Law K) : ∀ (gs : List (Group K)) (g p : Nat) (total : K),
    AtL a.xss p (gs.flatMap fun g => g.rate :: g.probability.numbers) → AtL a.xss (j26 + g) (gs.map fun g => (g.start : K)) →
    (∀ g ∈ gs, Fits g.probability ∧ 0 ≤ g.rate ∧ groupYield yd (tabEv g.probability) = .ok (ygs g) ∧ lawAt a awr none j27 g.start = .ok (L g.start)) →
    groups a awr yd j26 j27 gs.length g p total =
      .ok (gs.map fun g => ⟨.delayed, g.rate * 100000000, .tab (ygs g).1, [], [L g.start]⟩, total + (gs.map fun g => (ygs g).2).sum)
  | [], g, p, total, _, _, _ => by simp [groups]
  | gr :: gs, g, p, total, hat, hst, hg => by
    obtain ⟨h1, h2, h3, h4⟩ := hg gr (by simp)
    rw [List.flatMap_cons] at hat
    obtain ⟨hat1, hat2⟩ := at_append hat
    have hrate := at_item hat1 0 (v := gr.rate) rfl p (by simp)
    have htab := at_cons hat1
    have hs0 := at_nat hst 0 (n := gr.start) rfl ((j26 : Int) + g) (by push_cast; omega)
    have hst' : AtL a.xss (j26 + (g + 1)) (gs.map fun g => (g.start : K)) := by
      have := at_cons hst
      rwa [Nat.add_assoc] at this
    have ih := groups_at ygs L gs (g + 1) (p + (1 + gr.probability.numbers.length)) (total + (ygs gr).2) (by convert hat2 using 1; simp; omega) hst' fun g hg' => hg g (by simp [hg'])
    simp only [List.length_cons, groups]
    rw [hrate]
    simp only [bind, Except.bind]
    rw [if_neg (not_lt.mpr (by positivity)), tab1_at htab h1 _ (by push_cast; rfl)]
    simp only [h3]
    rw [afterTab_at htab h1 _ (by push_cast; rfl)]
    simp only [hs0, h4]
    have e : ((p + 1 + gr.probability.numbers.length : Nat) : Int) = ((p + (1 + gr.probability.numbers.length) : Nat) : Int) := by push_cast; ring
    rw [e, ih]
    simp only [pure, Except.pure, List.map_cons, List.sum_cons, Except.ok.injEq, Prod.mk.injEq, true_and]
    ring

/-- The products of fission with delayed neutrons. -/
theorem fission_at {a : Arrays K} {awr : K} {nu : Tab K} {gs : List (Group K)} (h : HoldsDelayed a nu gs) {L : Nat → Law K} (hL : Spectra a awr gs L) {q : Neutron K} {derived : List (Neutron K)}
    (hn : NuBlock a q derived) (ygs : Group K → Tab1D K × K) (hy : ∀ g ∈ gs, groupYield (tabEv nu) (tabEv g.probability) = .ok (ygs g)) :
    fission a awr = .ok (q :: gs.map fun g => (if (gs.map fun g => (ygs g).2).sum > 0 then Neutron.divide (gs.map fun g => (ygs g).2).sum else id)
      ⟨.delayed, g.rate * 100000000, .tab (ygs g).1, [], [L g.start]⟩, derived) := by
  obtain ⟨⟨j24, hd, i24, j24p, hnu, hf⟩, hnum, ⟨j25, i25, hgr⟩, ⟨j26, i26, hst⟩, hfits⟩ := h
  obtain ⟨j27, i27, hsp⟩ := hL
  obtain ⟨j2, j24', i2, j2ne, i24', hnus⟩ := hn
  have : j24' = j24 := by rw [i24] at i24'; exact (Option.some.inj i24').symm
  subst this
  have hg := groups_at (j26 := j26) (j27 := j27) (yd := tabEv nu) ygs L gs 0 j25 0 hgr (by simpa using hst) fun g hg => ⟨(hfits g hg).1, (hfits g hg).2.2, hy g hg, hsp g hg⟩
  unfold fission
  have k2 := item_of i2
  have k24 := item_of i24
  have k25 := item_of i25
  have k26 := item_of i26
  have k27 := item_of i27
  have k8 := item_of hnum
  push_cast at k2 k24 k25 k26 k27 k8
  have hyd := tab1_at (at_cons hnu) hf ((j24 : Int) + 1) (by push_cast; rfl)
  have hg' : groups a awr (tabEv nu) j26 j27 gs.length 0 j25 0 = _ := hg
  rw [zero_add] at hg'
  simp only [bind, Except.bind, k2, if_neg j2ne, k24, hnus, gt_iff_lt]
  rw [if_pos (by omega)]
  unfold addDelayed
  simp only [bind, Except.bind, hyd, k25, k8, k26, k27, Int.toNat_natCast, hg', pure, Except.pure, List.cons_append, List.nil_append, List.take_succ_cons, List.take_zero, List.drop_succ_cons, List.drop_zero, List.map_map, Except.ok.injEq, Prod.mk.injEq, and_true, List.cons.injEq, true_and]
  apply List.map_congr_left
  intro g _
  simp only [Function.comp_apply, gt_iff_lt]
  split_ifs <;> rfl

theorem groupYield_constant {yd : Tab1D K} {g : Group K} (hne : g.probability.values ≠ []) (hc : g.Constant) : groupYield yd (tabEv g.probability) = .ok (scaleY g.share yd, g.share) := by
  obtain ⟨p, hp⟩ := hc
  obtain ⟨v, vs, hv⟩ := List.exists_cons_of_ne_nil hne
  have hs : g.share = v := by simp [Group.share, hv]
  have hi : item (tabEv g.probability).y 0 = .ok v := by
    have : (tabEv g.probability).y[0]? = some v := by simp [tabEv, hv]
    exact item_of this
  unfold groupYield
  simp only [bind, Except.bind, hi]
  rw [if_pos]
  · rw [hs]; rfl
  · apply List.all_eq_true.mpr
    intro w hw
    have h1 : w = p := hp w hw
    have h2 : v = p := hp v (by simp [hv])
    simp [h1, h2]

theorem sum_map_div (l : List K) (c d : K) : (l.map fun p => c * p / d).sum = c * l.sum / d := by
  induction l with
  | nil => simp
  | cons a l ih => simp only [List.map_cons, List.sum_cons, ih]; ring

/-- **C111.** If the probabilities of the groups do not depend on the energy, the groups share the delayed neutrons: at every energy their yields add up to the delayed nu, each in proportion to
the probability of its group, although the probabilities of the file need not add up to one. Decay rates are in 1/s, and each group has its spectrum.
Missing from the full property: groups with probabilities that depend on the energy (see `C111_varying_partial`, `C111_mixed_refuted`). -/
theorem C111_constant_partial {a : Arrays K} {awr : K} {nu : Tab K} {gs : List (Group K)} (h : HoldsDelayed a nu gs) {L : Nat → Law K} (hL : Spectra a awr gs L) {q : Neutron K}
    {derived : List (Neutron K)} (hn : NuBlock a q derived) (hc : ∀ g ∈ gs, g.Constant) (hpos : 0 < (gs.map Group.share).sum) :
    ∃ ds, fission a awr = .ok (q :: ds, derived) ∧ List.Forall₂ (IsGroup L) gs ds ∧ ∀ E y, (tabEv nu).eval E = .ok y →
      IsSum (ds.map (·.yield_)) E y ∧ List.Forall₂ (fun g d => Fn.eval d.yield_ E = .ok (y * g.share / (gs.map Group.share).sum)) gs ds := by
  have hy : ∀ g ∈ gs, groupYield (tabEv nu) (tabEv g.probability) = .ok (scaleY g.share (tabEv nu), g.share) := fun g hg => groupYield_constant (h.fits g hg).2.1 (hc g hg)
  refine ⟨_, fission_at h hL hn (fun g => (scaleY g.share (tabEv nu), g.share)) hy, ?_, ?_⟩
  · simp only [gt_iff_lt, if_pos hpos]
    rw [List.forall₂_map_right_iff]
    apply List.forall₂_same.mpr
    intro g _
    exact ⟨rfl, by norm_num [Neutron.divide, mul_comm], rfl⟩
  · intro E y hE
    have hshare : ∀ g : Group K, Fn.eval (Neutron.divide (gs.map fun g => g.share).sum ⟨.delayed, g.rate * 100000000, .tab (scaleY g.share (tabEv nu)), [], [L g.start]⟩).yield_ E =
        .ok (y * g.share / (gs.map Group.share).sum) := by
      intro g
      have : ({ scaleY g.share (tabEv nu) with y := (scaleY g.share (tabEv nu)).y.map (· / (gs.map fun g => g.share).sum) } : Tab1D K) = scaleY (g.share / (gs.map Group.share).sum) (tabEv nu) := by
        unfold scaleY
        simp only [List.map_map]
        congr 1
        apply List.map_congr_left
        intro v _
        simp only [Function.comp_apply]
        ring
      simp only [Neutron.divide, Fn.eval, this, eval_scaleY, hE, Except.map]
      rw [mul_div_assoc]
    have hF : List.Forall₂ (fun g d => Fn.eval d.yield_ E = .ok (y * g.share / (gs.map Group.share).sum)) gs
        (gs.map fun g => (if (gs.map fun g => (scaleY g.share (tabEv nu), g.share).2).sum > 0 then Neutron.divide (gs.map fun g => (scaleY g.share (tabEv nu), g.share).2).sum else id)
          (⟨.delayed, g.rate * 100000000, .tab (scaleY g.share (tabEv nu), g.share).1, [], [L g.start]⟩ : Neutron K)) := by
      simp only [gt_iff_lt, if_pos hpos]
      rw [List.forall₂_map_right_iff]
      exact List.forall₂_same.mpr fun g _ => hshare g
    refine ⟨⟨gs.map fun g => y * g.share / (gs.map Group.share).sum, ?_, ?_⟩, hF⟩
    · rw [List.forall₂_map_left_iff, List.forall₂_map_right_iff]
      exact hF.flip
    · have := sum_map_div (gs.map Group.share) y (gs.map Group.share).sum
      rw [List.map_map] at this
      have h2 : (gs.map fun g => y * g.share / (gs.map Group.share).sum).sum = y := by
        rw [show (gs.map fun g => y * g.share / (gs.map Group.share).sum) = gs.map ((fun p => y * p / (gs.map Group.share).sum) ∘ Group.share) from rfl, this]
        field_simp
      exact h2.symm

theorem item_last {α : Type} (l : List α) (hne : l ≠ []) : item l (-1) = .ok (l.getLast hne) := by
  have hpos : 0 < l.length := List.length_pos_iff.mpr hne
  unfold item pyGet
  rw [if_neg (by decide), if_pos (by omega)]
  have : ((l.length : Int) + -1).toNat = l.length - 1 := by omega
  rw [this, List.getElem?_eq_getElem (by omega), List.getLast_eq_getElem]

theorem evals_ok {t : Tab1D K} (hw : Tab1D.WF t) (es : List K) : ∃ ys, t.evals es = .ok ys ∧ List.Forall₂ (fun e y => t.eval e = .ok y) es ys := by
  obtain ⟨ys, h1, h2⟩ := mapM_means (f := t.eval) (R := fun e y => t.eval e = .ok y) es fun e _ => by
    obtain ⟨y, hy⟩ := Tab1D.C16_total hw e
    exact ⟨y, hy, hy⟩
  exact ⟨ys, h1, h2⟩

theorem zip_values {R S : K → K → Prop} : ∀ {es ys zs : List K}, List.Forall₂ R es ys → List.Forall₂ S es zs →
    (List.zipWith (· * ·) ys zs).length = es.length ∧ ∀ (k : Nat) (e v : K), es[k]? = some e → (List.zipWith (· * ·) ys zs)[k]? = some v → ∃ n p, R e n ∧ S e p ∧ v = n * p
  | _, _, _, .nil, .nil => ⟨rfl, by simp⟩
  | _, _, _, .cons h1 t1, .cons h2 t2 => by
    obtain ⟨hl, hk⟩ := zip_values t1 t2
    refine ⟨by simp [hl], ?_⟩
    intro k e v he hv
    cases k with
    | zero =>
      simp only [List.getElem?_cons_zero, Option.some.injEq, List.zipWith_cons_cons] at he hv
      exact ⟨_, _, he ▸ h1, he ▸ h2, hv.symm⟩
    | succ k =>
      simp only [List.getElem?_cons_succ, List.zipWith_cons_cons] at he hv
      exact hk k e v he hv

theorem groupYield_varying {yd : Tab1D K} (hw : Tab1D.WF yd) {g : Group K} (hg : Tab1D.WF (tabEv g.probability)) (hv : ¬ g.Constant) :
    ∃ t, groupYield yd (tabEv g.probability) = .ok (t, 0) ∧ IsProduct yd (tabEv g.probability) t := by
  have hne : g.probability.values ≠ [] := fun h => hv ⟨0, by simp [h]⟩
  obtain ⟨v, vs, hvs⟩ := List.exists_cons_of_ne_nil hne
  have hi : item (tabEv g.probability).y 0 = .ok v := by
    have : (tabEv g.probability).y[0]? = some v := by simp [tabEv, hvs]
    exact item_of this
  set es := (Func.union1d yd.x (tabEv g.probability).x).filter fun e => decide (e ≤ min (yd.x.getLast hw.nonempty) ((tabEv g.probability).x.getLast hg.nonempty)) with hes
  obtain ⟨ys, h1, f1⟩ := evals_ok hw es
  obtain ⟨zs, h2, f2⟩ := evals_ok hg es
  obtain ⟨hl, hk⟩ := zip_values f1 f2
  refine ⟨.linlin es (List.zipWith (· * ·) ys zs), ?_, ?_, hl, rfl, rfl, ?_, hk⟩
  · unfold groupYield
    simp only [bind, Except.bind, hi]
    rw [if_neg]
    · simp only [item_last yd.x hw.nonempty, item_last _ hg.nonempty]
      rw [← hes, h1, h2]
      rfl
    · intro hcon
      apply hv
      refine ⟨v, fun w hw' => ?_⟩
      have := List.all_eq_true.mp hcon w hw'
      simpa using this
  · exact (union1d_increasing _ _).filter _
  · intro e
    simp only [Tab1D.linlin, hes, List.mem_filter, mem_union1d, decide_eq_true_eq, le_min_iff, List.getLast?_eq_some_getLast hw.nonempty, List.getLast?_eq_some_getLast hg.nonempty, Option.some.injEq, forall_eq']

theorem sum_const_zero {α : Type} (l : List α) : (l.map fun _ => (0 : K)).sum = 0 := by simp

/-- **C111.** If the probabilities of all groups depend on the energy, the yield of a group is tabulated at the energies of the delayed nu and of the probability, up to the smaller of their last
energies, and is the product of both there.
Missing from the full property: the yields add up to the delayed nu (between these energies they are interpolated; and the probabilities of the file need not add up to one). -/
theorem C111_varying_partial {a : Arrays K} {awr : K} {nu : Tab K} {gs : List (Group K)} (h : HoldsDelayed a nu gs) {L : Nat → Law K} (hL : Spectra a awr gs L) {q : Neutron K}
    {derived : List (Neutron K)} (hn : NuBlock a q derived) (hv : ∀ g ∈ gs, ¬ g.Constant) (hw : Tab1D.WF (tabEv nu)) (hwg : ∀ g ∈ gs, Tab1D.WF (tabEv g.probability)) :
    ∃ ds, fission a awr = .ok (q :: ds, derived) ∧ List.Forall₂ (IsGroup L) gs ds ∧
      List.Forall₂ (fun g d => ∃ t, d.yield_ = .tab t ∧ IsProduct (tabEv nu) (tabEv g.probability) t) gs ds := by
  classical
  let ygs : Group K → Tab1D K × K := fun g => if hh : g ∈ gs then (Classical.choose (groupYield_varying hw (hwg g hh) (hv g hh)), 0) else (tabEv nu, 0)
  have hspec : ∀ g ∈ gs, groupYield (tabEv nu) (tabEv g.probability) = .ok (ygs g) ∧ IsProduct (tabEv nu) (tabEv g.probability) (ygs g).1 := by
    intro g hg
    have := Classical.choose_spec (groupYield_varying hw (hwg g hg) (hv g hg))
    simp only [ygs, dif_pos hg]
    exact this
  have hz : (gs.map fun g => (ygs g).2).sum = 0 := by
    have : gs.map (fun g => (ygs g).2) = gs.map fun _ => (0 : K) := by
      apply List.map_congr_left
      intro g hg
      simp [ygs, dif_pos hg]
    rw [this, sum_const_zero]
  refine ⟨_, fission_at h hL hn ygs fun g hg => (hspec g hg).1, ?_, ?_⟩
  all_goals
    simp only [hz, gt_iff_lt, lt_irrefl, if_false, id]
    rw [List.forall₂_map_right_iff]
    apply List.forall₂_same.mpr
    intro g hg
  · exact ⟨rfl, by norm_num [mul_comm], rfl⟩
  · exact ⟨_, rfl, (hspec g hg).2⟩

end

theorem at_of_take {α : Type} {l vs : List α} {p : Nat} (h : (l.drop p).take vs.length = vs) : AtL l p vs := by
  intro k v hk
  have hlt : k < vs.length := (List.getElem?_eq_some_iff.mp hk).1
  rw [← h, List.getElem?_take, if_pos hlt, List.getElem?_drop] at hk
  exact hk

namespace Mixed

local instance : ExpLog ℚ := ⟨id, id⟩

/-- A constant delayed nu of 1 between 1 and 2 MeV. -/
def nu : Tab ℚ := ⟨[], [], [1, 2], [1, 1]⟩

/-- A group with these probabilities at 1 and 2 MeV. -/
def group (p q : ℚ) : Group ℚ := ⟨1 / 100, ⟨[], [], [1, 2], [p, q]⟩, 1⟩

/-- Two groups with constant probabilities and two with varying ones. -/
def gs : List (Group ℚ) := [group (1 / 4) (1 / 4), group (1 / 4) (1 / 4), group (1 / 5) (3 / 10), group (3 / 10) (1 / 5)]

/-- A table with at most four such groups: nu, delayed nu, the spectra, their places, the groups. -/
def arrays (gs : List (Group ℚ)) : Arrays ℚ where
  nxs := [0, 0, 0, 0, 0, 0, 0, 0, gs.length]
  jxs := [0, 0, 1] ++ List.replicate 21 0 ++ [4, 20, 16, 11]
  xss := [0] ++ [1, 1, 12 / 5] ++ (2 :: nu.numbers) ++ [0, 3, 4, 5 / 2, 1 / 2] ++ [1, 1, 1, 1] ++ gs.flatMap fun g => g.rate :: g.probability.numbers

/-- The spectrum of all groups. -/
def law : Law ℚ := .level 2500000 (1 / 2)

/-- The prompt neutrons. -/
def prompt : Neutron ℚ := ⟨.prompt, 0, .poly [12 / 5], [], []⟩

/-- Two groups with constant probabilities. -/
def constant : List (Group ℚ) := [group (1 / 4) (1 / 4), group (3 / 4) (3 / 4)]

/-- Two groups with varying ones. -/
def varying : List (Group ℚ) := [group (1 / 5) (3 / 10), group (4 / 5) (7 / 10)]

theorem holds_constant : HoldsDelayed (arrays constant) nu constant where
  nu := ⟨4, 2, rfl, by decide, at_of_take (by decide +kernel), rfl, rfl⟩
  number := rfl
  groups := ⟨20, rfl, at_of_take (by decide +kernel)⟩
  starts := ⟨16, rfl, at_of_take (by decide +kernel)⟩
  fits := by
    intro g hg
    simp only [constant, List.mem_cons, List.not_mem_nil, or_false] at hg
    rcases hg with rfl | rfl <;> exact ⟨⟨rfl, rfl⟩, by simp [group], by simp [group]⟩

theorem holds_varying : HoldsDelayed (arrays varying) nu varying where
  nu := ⟨4, 2, rfl, by decide, at_of_take (by decide +kernel), rfl, rfl⟩
  number := rfl
  groups := ⟨20, rfl, at_of_take (by decide +kernel)⟩
  starts := ⟨16, rfl, at_of_take (by decide +kernel)⟩
  fits := by
    intro g hg
    simp only [varying, List.mem_cons, List.not_mem_nil, or_false] at hg
    rcases hg with rfl | rfl <;> exact ⟨⟨rfl, rfl⟩, by simp [group], by simp [group]⟩

-- The hypotheses of `C111_constant_partial` are met by a quarter and three quarters of the delayed neutrons.
example : ∃ ds, fission (arrays constant) 1 = .ok (prompt :: ds, []) ∧ List.Forall₂ (IsGroup fun _ => law) constant ds := by
  obtain ⟨ds, h1, h2, -⟩ := C111_constant_partial (L := fun _ => law) (q := prompt) (derived := []) (awr := 1) holds_constant
    ⟨11, rfl, fun g hg => by
      simp only [constant, List.mem_cons, List.not_mem_nil, or_false] at hg
      rcases hg with rfl | rfl <;> decide +kernel⟩
    ⟨1, 4, rfl, by decide, rfl, by decide +kernel⟩
    (by
      intro g hg
      simp only [constant, List.mem_cons, List.not_mem_nil, or_false] at hg
      rcases hg with rfl | rfl
      · exact ⟨1 / 4, by simp [group]⟩
      · exact ⟨3 / 4, by simp [group]⟩)
    (by decide +kernel)
  exact ⟨ds, h1, h2⟩

/-- A table with two points and no regions can be evaluated everywhere. -/
theorem wf_group (p q : ℚ) : Tab1D.WF (tabEv (group p q).probability) where
  increasing := by simp [tabEv, group]
  len := rfl
  nonempty := by simp [tabEv, group]
  bp_increasing := by simp [tabEv, group]
  bp_pos := by simp [tabEv, group]
  bp_last := by simp [tabEv, group]
  laws := rfl

-- The hypotheses of `C111_varying_partial` are met by groups of 20 to 30 and 80 to 70 percent of the delayed neutrons.
example : ∃ ds, fission (arrays varying) 1 = .ok (prompt :: ds, []) ∧ List.Forall₂ (IsGroup fun _ => law) varying ds := by
  obtain ⟨ds, h1, h2, -⟩ := C111_varying_partial (L := fun _ => law) (q := prompt) (derived := []) (awr := 1) holds_varying
    ⟨11, rfl, fun g hg => by
      simp only [varying, List.mem_cons, List.not_mem_nil, or_false] at hg
      rcases hg with rfl | rfl <;> decide +kernel⟩
    ⟨1, 4, rfl, by decide, rfl, by decide +kernel⟩
    (by
      intro g hg
      simp only [varying, List.mem_cons, List.not_mem_nil, or_false] at hg
      rcases hg with rfl | rfl <;> rintro ⟨p, hp⟩ <;> simp [group] at hp <;> grind)
    (wf_group 1 1)
    (by
      intro g hg
      simp only [varying, List.mem_cons, List.not_mem_nil, or_false] at hg
      rcases hg with rfl | rfl <;> exact wf_group _ _)
  exact ⟨ds, h1, h2⟩

theorem holds_mixed : HoldsDelayed (arrays gs) nu gs where
  nu := ⟨4, 2, rfl, by decide, at_of_take (by decide +kernel), rfl, rfl⟩
  number := rfl
  groups := ⟨20, rfl, at_of_take (by decide +kernel)⟩
  starts := ⟨16, rfl, at_of_take (by decide +kernel)⟩
  fits := by
    intro g hg
    simp only [gs, List.mem_cons, List.not_mem_nil, or_false] at hg
    rcases hg with rfl | rfl | rfl | rfl <;> exact ⟨⟨rfl, rfl⟩, by simp [group], by simp [group]⟩

theorem spectra_mixed : Spectra (arrays gs) 1 gs fun _ => law := by
  refine ⟨11, rfl, fun g hg => ?_⟩
  simp only [gs, List.mem_cons, List.not_mem_nil, or_false] at hg
  rcases hg with rfl | rfl | rfl | rfl <;> decide +kernel

theorem block_mixed : NuBlock (arrays gs) prompt [] := ⟨1, 4, rfl, by decide, rfl, by decide +kernel⟩

/-- C111 is false if some groups have constant probabilities and others not: the yields of all groups are divided by the sum of the constant ones. The delayed nu is 1, the probabilities add up
to 1 at both energies, and the yields to 2. -/
theorem C111_mixed_refuted : ∃ (a : Arrays ℚ) (nu : Tab ℚ) (gs : List (Group ℚ)) (L : Nat → Law ℚ) (q : Neutron ℚ) (ds : List (Neutron ℚ)),
    HoldsDelayed a nu gs ∧ Spectra a 1 gs L ∧ NuBlock a q [] ∧
    (∀ e ∈ [1000000, 2000000], (tabEv nu).eval e = .ok 1 ∧ IsSum (gs.map fun g => .tab (tabEv g.probability)) e 1) ∧
    fission a 1 = .ok (q :: ds, []) ∧ ∀ e ∈ [1000000, 2000000], IsSum (ds.map (·.yield_)) e 2 := by
  refine ⟨arrays gs, nu, gs, fun _ => law, prompt, (fission (arrays gs) 1).toOption.getD ([], []) |>.1.tail, holds_mixed, spectra_mixed, block_mixed, ?_, by decide +kernel, ?_⟩
  · intro e he
    simp only [List.mem_cons, List.not_mem_nil, or_false] at he
    rcases he with rfl | rfl
    · exact ⟨by decide +kernel, [1 / 4, 1 / 4, 1 / 5, 3 / 10], by decide +kernel, by decide +kernel⟩
    · exact ⟨by decide +kernel, [1 / 4, 1 / 4, 3 / 10, 1 / 5], by decide +kernel, by decide +kernel⟩
  · intro e he
    simp only [List.mem_cons, List.not_mem_nil, or_false] at he
    rcases he with rfl | rfl
    · exact ⟨[1 / 2, 1 / 2, 2 / 5, 3 / 5], by decide +kernel, by decide +kernel⟩
    · exact ⟨[1 / 2, 1 / 2, 3 / 5, 2 / 5], by decide +kernel, by decide +kernel⟩

end Mixed
end ASAPy.Dists
