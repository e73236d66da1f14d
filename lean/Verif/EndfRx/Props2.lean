import Verif.EndfRx.Props
import Verif.Dists.DelayedProps
import Verif.Func.SumProps

/-!
# C158: fission neutrons
-/

namespace ASAPy.EndfRx
open ASAPy.Endf
open ASAPy.Res (Reader many many_spec)
open ASAPy.Decay (ListRec Tab1Rec getList_rec getTab1_rec trunc_nat)
open ASAPy.Func (Fn)
open ASAPy.FromAce (Mode item)

theorem rdNu_rec {lnu : Int} {y : Fn ℚ} {ls : List Line} (h : NuRec lnu y ls) (rest : List Line) : rdNu lnu (ls ++ rest) = .ok (some y, rest) := by
  cases h with
  | @poly c a ls h ha =>
    rw [rdNu, if_pos rfl, getList_rec h]
    simp only [bind, Except.bind, pure, Except.pure]
    rw [if_neg ha]
  | @tab c t ls h =>
    rw [rdNu, if_neg (by decide), if_pos rfl, rdTab_rec h]
    rfl

theorem nuProduct_rec (mode : Mode) {y : Fn ℚ} {f : List Line} (h : NuSection y f) : nuProduct mode f = .ok ⟨c!"neutron", mode, 0, y, [], []⟩ := by
  obtain ⟨h, l, b, rest, rfl, hh, hn⟩ := h
  rw [nuProduct, getHead_line hh]
  simp only [bind, Except.bind, pure, Except.pure, rdNu_rec hn]
  rfl

/-- A delayed neutron before its spectrum is read. -/
def fresh (y : Fn ℚ) (rate : ℚ) : Prod := ⟨c!"neutron", .delayed, rate, y, [], []⟩

theorem delayedProducts_ok : ∀ {cs : List ℚ}, (∀ c ∈ cs, 0 ≤ c) → delayedProducts cs = .ok (cs.map (fresh (.poly [1])))
  | [], _ => rfl
  | c :: cs, h => by
    have ih := delayedProducts_ok (cs := cs) fun x hx => h x (List.mem_cons_of_mem _ hx)
    rw [delayedProducts] at ih ⊢
    rw [List.mapM_cons, ih, if_neg (not_lt.mpr (h c (List.mem_cons_self ..)))]
    rfl

variable [ExpLog ℚ]

theorem spectra_ok (p : Prod) {xs : List (Tab1D ℚ × EnDist)} {bs : List (List Line)} (h : List.Forall₂ Part xs bs) (rest : List Line) :
    ∀ (done todo outs : List Prod), todo.length = xs.length →
      List.Forall₂ (fun (dx : Prod × (Tab1D ℚ × EnDist)) (d' : Prod) => ∃ y, groupYield dx.1.yield_ dx.2.1 = .ok y ∧
        d' = { dx.1 with yield_ := y, dist := dx.1.dist ++ [.uncorrelated none (some dx.2.2)] }) (todo.zip xs) outs →
      spectra xs.length done.length (p :: (done ++ todo)) (bs.flatten ++ rest) = .ok (p :: (done ++ outs), rest) := by
  induction h with
  | nil =>
    intro done todo outs hl ho
    have : todo = [] := List.length_eq_zero_iff.mp hl
    subst this
    rw [List.zip_nil_left] at ho
    cases ho
    rfl
  | @cons x b xs bs hx _ ih =>
    intro done todo outs hl ho
    cases todo with
    | nil => simp at hl
    | cons d todo =>
      rw [List.zip_cons_cons] at ho
      cases ho with
      | @cons _ d' _ outs hd ho =>
        obtain ⟨y, hy, rfl⟩ := hd
        rw [List.length_cons, spectra, List.flatten_cons, List.append_assoc, rdPart_rec x b hx]
        have hg : (p :: (done ++ d :: todo))[1 + done.length]? = some d := by
          rw [Nat.add_comm, List.getElem?_cons_succ, List.getElem?_append_right (Nat.le_refl _), Nat.sub_self, List.getElem?_cons_zero]
        have hs : ∀ d', (p :: (done ++ d :: todo)).set (1 + done.length) d' = p :: (done ++ [d'] ++ todo) := by
          intro d'
          rw [Nat.add_comm, List.set_cons_succ, List.set_append_right _ _ (Nat.le_refl _), Nat.sub_self, List.set_cons_zero, List.append_assoc]
          rfl
        simp only [bind, Except.bind, hg, hy, hs]
        have := ih (done ++ [{ d with yield_ := y, dist := d.dist ++ [.uncorrelated none (some x.2)] }]) todo outs (by simpa using hl) ho
        rw [List.length_append, List.length_singleton] at this
        rw [this, List.append_assoc]
        rfl

/-- What `addDelayed` makes of one neutron product and the delayed neutrons, whose yields are then `ys`. -/
theorem addDelayed_ok {ev : Ev} {p p' : Prod} {rates : List ℚ} {nu : Fn ℚ} {fd fs : List Line} {xs : List (Tab1D ℚ × EnDist)} {ds outs : List Prod} (hd : DelayedSection rates nu fd)
    (h5 : Dict.get? ev.sections (5, 455) = some fs) (hs : EnergySection xs fs) (hl : xs.length = rates.length)
    (hset : setLast6 (some nu) (p :: rates.map (fresh (.poly [1]))) = p' :: ds) (hds : ds.length = xs.length)
    (ho : List.Forall₂ (fun (dx : Prod × (Tab1D ℚ × EnDist)) (d' : Prod) => ∃ y, groupYield dx.1.yield_ dx.2.1 = .ok y ∧
        d' = { dx.1 with yield_ := y, dist := dx.1.dist ++ [.uncorrelated none (some dx.2.2)] }) (ds.zip xs) outs) :
    addDelayed ev [p] fd = .ok (p' :: outs) := by
  obtain ⟨h, c, l, a, b, rest, rfl, hh, h1, ha, hr, hn⟩ := hd
  obtain ⟨g, l', bs, rest', rfl, hg, hgn, hx⟩ := hs
  have hh5 : ev.has 5 455 = true := by rw [Ev.has, h5]; rfl
  have hsp := spectra_ok p' hx rest' [] ds outs hds ho
  rw [List.nil_append, List.nil_append, List.length_nil] at hsp
  rw [addDelayed, getHead_line hh]
  simp only [bind, Except.bind, pure, Except.pure, h1, show ((0 : Int) = 1) = False by decide, if_false, if_true, getList_rec ha, Option.getD_some, delayedProducts_ok hr, rdNu_rec hn,
    List.singleton_append, hset, hh5, Ev.get, h5, getHead_line hg, hgn, hl, ne_eq, not_true_eq_false, Int.toNat_natCast]
  rw [← hl, hsp]

omit [ExpLog ℚ] in
theorem setLast6_six (p : Prod) (y y0 : Fn ℚ) {rates : List ℚ} (h : rates.length = 6) : setLast6 (some y) (p :: rates.map (fresh y0)) = p :: rates.map (fresh y) := by
  rw [setLast6]
  simp only [List.length_cons, List.length_map, h, show 6 + 1 - 6 = 1 from rfl, List.take_succ_cons, List.take_zero, List.drop_succ_cons, List.drop_zero, List.map_map, List.singleton_append]
  rfl

omit [ExpLog ℚ] in
theorem item_zero {α : Type} {l : List α} (h : l ≠ []) : ∃ a, item l 0 = .ok a ∧ a ∈ l := by
  cases l with
  | nil => exact absurd rfl h
  | cons a l => exact ⟨a, rfl, List.mem_cons_self ..⟩

omit [ExpLog ℚ] in
theorem forall₂_map_self {α β : Type} (f : α → β) : ∀ l : List α, List.Forall₂ (fun a b => b = f a) l (l.map f)
  | [] => .nil
  | _ :: l => .cons rfl (forall₂_map_self f l)

omit [ExpLog ℚ] in
theorem item_last' {α : Type} {l : List α} (h : l ≠ []) : ∃ a, item l (-1) = .ok a ∧ l.getLast? = some a :=
  ⟨l.getLast h, Dists.item_last l h, List.getLast?_eq_some_getLast h⟩

theorem products_ok {t a : Tab1D ℚ} (ht : Tab1D.WF t) (ha : Tab1D.WF a) (es : List ℚ) :
    ∃ y1 y2, t.evals es = .ok y1 ∧ a.evals es = .ok y2 ∧
      List.Forall₂ (fun e y => ∃ u v, t.eval e = .ok u ∧ a.eval e = .ok v ∧ y = u * v) es (List.zipWith (· * ·) y1 y2) := by
  obtain ⟨y1, h1, f1⟩ := Dists.evals_ok ht es
  obtain ⟨y2, h2, f2⟩ := Dists.evals_ok ha es
  refine ⟨y1, y2, h1, h2, ?_⟩
  clear h1 h2
  induction f1 generalizing y2 with
  | nil => cases f2; exact .nil
  | @cons e u es y1 hu _ ih =>
    cases f2 with
    | @cons _ v _ y2 hv f2 => exact .cons ⟨u, v, hu, hv, rfl⟩ (ih y2 f2)

theorem groupYield_tab {t a : Tab1D ℚ} (ht : Tab1D.WF t) (ha : Tab1D.WF a) : ∃ y, groupYield (.tab t) a = .ok y ∧ GroupYield (.tab t) a y := by
  have hne : a.y ≠ [] := by
    intro h0
    have := ha.len
    rw [h0, List.length_nil] at this
    exact ha.nonempty (List.length_eq_zero_iff.mp this.symm)
  obtain ⟨a0, h0, hm⟩ := item_zero hne
  by_cases hc : (a.y.all fun v => decide (v = a0)) = true
  · have hall : ∀ v ∈ a.y, v = a0 := fun v hv => by simpa using List.all_eq_true.mp hc v hv
    refine ⟨.tab { t with y := t.y.map (· * a0) }, ?_, .constant hne hall (forall₂_map_self (· * a0) t.y)⟩
    rw [groupYield]
    simp only [bind, Except.bind, pure, Except.pure, h0, hc, if_true]
  · have hex : ∃ v ∈ a.y, v ≠ a0 := by
      by_contra hcon
      push Not at hcon
      exact hc (List.all_eq_true.mpr fun v hv => by simpa using hcon v hv)
    obtain ⟨v, hv, hva⟩ := hex
    obtain ⟨m1, e1, g1⟩ := item_last' ht.nonempty
    obtain ⟨m2, e2, g2⟩ := item_last' ha.nonempty
    obtain ⟨y1, y2, r1, r2, hy⟩ := products_ok ht ha ((Func.union1d t.x a.x).filter fun e => decide (e ≤ min m1 m2))
    refine ⟨_, ?_, .varying ⟨v, hv, a0, hm, hva⟩ g1 g2 (es := (Func.union1d t.x a.x).filter fun e => decide (e ≤ min m1 m2)) ⟨?_, ?_⟩ hy⟩
    · rw [groupYield]
      simp only [bind, Except.bind, pure, Except.pure, h0, hc, Bool.false_eq_true, if_false, e1, e2, r1, r2, Tab1D.linlin]
    · exact (Func.union1d_increasing t.x a.x).filter _
    · intro e
      rw [List.mem_filter, Func.mem_union1d, decide_eq_true_eq]

theorem groupYield_number (nu : ℚ) (a : Tab1D ℚ) : ∃ y, groupYield (.poly [nu]) a = .ok y ∧ GroupYield (.poly [nu]) a y :=
  ⟨.tab { a with y := a.y.map (· * nu) }, rfl, .number (forall₂_map_self (· * nu) a.y)⟩

/-- Nu is a table or a constant. -/
def GoodNu (nu : Fn ℚ) : Prop := (∃ t, nu = .tab t ∧ Tab1D.WF t) ∨ ∃ c, nu = .poly [c]

theorem groupYield_good {nu : Fn ℚ} {a : Tab1D ℚ} (h : GoodNu nu) (ha : Tab1D.WF a) : ∃ y, groupYield nu a = .ok y ∧ GroupYield nu a y := by
  obtain ⟨t, rfl, ht⟩ | ⟨c, rfl⟩ := h
  · exact groupYield_tab ht ha
  · exact groupYield_number c a

theorem groups_ok {nu : Fn ℚ} (hnu : GoodNu nu) : ∀ {rates : List ℚ} {xs : List (Tab1D ℚ × EnDist)}, (∀ x ∈ xs, Tab1D.WF x.1) →
    ∃ ds, List.Forall₂ (fun (dx : Prod × (Tab1D ℚ × EnDist)) (d' : Prod) => ∃ y, groupYield dx.1.yield_ dx.2.1 = .ok y ∧
        d' = { dx.1 with yield_ := y, dist := dx.1.dist ++ [.uncorrelated none (some dx.2.2)] }) ((rates.map (fresh nu)).zip xs) ds ∧
      List.Forall₂ (fun (rx : ℚ × (Tab1D ℚ × EnDist)) d => GroupProduct nu rx.1 rx.2 d) (rates.zip xs) ds
  | [], xs, _ => ⟨[], by simp, by simp⟩
  | _ :: _, [], _ => ⟨[], by simp, by simp⟩
  | r :: rates, x :: xs, h => by
    obtain ⟨ds, h1, h2⟩ := groups_ok hnu (rates := rates) (xs := xs) fun x hx => h x (List.mem_cons_of_mem _ hx)
    obtain ⟨y, hy, hg⟩ := groupYield_good hnu (h x (List.mem_cons_self ..))
    exact ⟨_ :: ds, .cons ⟨y, hy, rfl⟩ h1, .cons ⟨rfl, rfl, rfl, hg, rfl, rfl⟩ h2⟩

/-- C158: with six groups of delayed neutrons the prompt neutrons have the prompt nu of the file, the total nu is a derived product, and each group has its decay constant, its spectrum and the
delayed nu times its fraction as yield. -/
theorem C158_neutrons_partial {ev : Ev} {fp ft fd fs : List Line} {prompt total nu : Fn ℚ} {rates : List ℚ} {xs : List (Tab1D ℚ × EnDist)}
    (h456 : Dict.get? ev.sections (1, 456) = some fp) (h452 : Dict.get? ev.sections (1, 452) = some ft) (h455 : Dict.get? ev.sections (1, 455) = some fd)
    (h5 : Dict.get? ev.sections (5, 455) = some fs) (hp : NuSection prompt fp) (ht : NuSection total ft) (hd : DelayedSection rates nu fd) (hs : EnergySection xs fs)
    (h6 : rates.length = 6) (hl : xs.length = rates.length) (hnu : GoodNu nu) (hx : ∀ x ∈ xs, Tab1D.WF x.1) :
    ∃ ds, fissionFromEndf ev = .ok (⟨c!"neutron", .prompt, 0, prompt, [], []⟩ :: ds, [⟨c!"neutron", .total, 0, total, [], []⟩]) ∧
      List.Forall₂ (fun (rx : ℚ × (Tab1D ℚ × EnDist)) d => GroupProduct nu rx.1 rx.2 d) (rates.zip xs) ds := by
  obtain ⟨ds, h1, h2⟩ := groups_ok hnu (rates := rates) hx
  refine ⟨ds, ?_, h2⟩
  have e1 : ev.has 1 456 = true := by rw [Ev.has, h456]; rfl
  have e2 : ev.has 1 452 = true := by rw [Ev.has, h452]; rfl
  have e3 : ev.has 1 455 = true := by rw [Ev.has, h455]; rfl
  rw [fissionFromEndf]
  simp only [bind, Except.bind, pure, Except.pure, e1, e2, e3, if_true, Ev.get, h456, h452, h455, nuProduct_rec _ hp, nuProduct_rec _ ht]
  rw [addDelayed_ok hd h5 hs hl (setLast6_six _ _ _ h6) (by rw [List.length_map, hl]) h1]

/-- C158: without a section for prompt neutrons the total nu is the yield of the first product and nothing is derived. -/
theorem C158_total_partial {ev : Ev} {ft fd fs : List Line} {total nu : Fn ℚ} {rates : List ℚ} {xs : List (Tab1D ℚ × EnDist)}
    (h456 : Dict.get? ev.sections (1, 456) = none) (h452 : Dict.get? ev.sections (1, 452) = some ft) (h455 : Dict.get? ev.sections (1, 455) = some fd)
    (h5 : Dict.get? ev.sections (5, 455) = some fs) (ht : NuSection total ft) (hd : DelayedSection rates nu fd) (hs : EnergySection xs fs)
    (h6 : rates.length = 6) (hl : xs.length = rates.length) (hnu : GoodNu nu) (hx : ∀ x ∈ xs, Tab1D.WF x.1) :
    ∃ ds, fissionFromEndf ev = .ok (⟨c!"neutron", .total, 0, total, [], []⟩ :: ds, []) ∧
      List.Forall₂ (fun (rx : ℚ × (Tab1D ℚ × EnDist)) d => GroupProduct nu rx.1 rx.2 d) (rates.zip xs) ds := by
  obtain ⟨ds, h1, h2⟩ := groups_ok hnu (rates := rates) hx
  refine ⟨ds, ?_, h2⟩
  have e1 : ev.has 1 456 = false := by rw [Ev.has, h456]; rfl
  have e2 : ev.has 1 452 = true := by rw [Ev.has, h452]; rfl
  have e3 : ev.has 1 455 = true := by rw [Ev.has, h455]; rfl
  rw [fissionFromEndf]
  simp only [bind, Except.bind, pure, Except.pure, e1, e2, e3, if_true, Bool.false_eq_true, if_false, Ev.get, h452, h455, nuProduct_rec _ ht, List.nil_append]
  rw [addDelayed_ok hd h5 hs hl (setLast6_six _ _ _ h6) (by rw [List.length_map, hl]) h1]

/-- C158: without delayed neutrons there is only one product. -/
theorem C158_prompt_only {ev : Ev} {ft : List Line} {total : Fn ℚ} (h456 : Dict.get? ev.sections (1, 456) = none) (h452 : Dict.get? ev.sections (1, 452) = some ft)
    (h455 : Dict.get? ev.sections (1, 455) = none) (ht : NuSection total ft) : fissionFromEndf ev = .ok ([⟨c!"neutron", .total, 0, total, [], []⟩], []) := by
  have e1 : ev.has 1 456 = false := by rw [Ev.has, h456]; rfl
  have e2 : ev.has 1 452 = true := by rw [Ev.has, h452]; rfl
  have e3 : ev.has 1 455 = false := by rw [Ev.has, h455]; rfl
  rw [fissionFromEndf]
  simp only [bind, Except.bind, pure, Except.pure, e1, e2, e3, if_true, Bool.false_eq_true, if_false, Ev.get, h452, nuProduct_rec _ ht, List.nil_append]

omit [ExpLog ℚ] in
theorem setLast6_few (p : Prod) (y y0 : Fn ℚ) {rates : List ℚ} (h : rates.length < 6) : setLast6 (some y) (p :: rates.map (fresh y0)) = { p with yield_ := y } :: rates.map (fresh y) := by
  rw [setLast6]
  have e : (p :: rates.map (fresh y0)).length - 6 = 0 := by simp only [List.length_cons, List.length_map]; omega
  simp only [e, List.take_zero, List.drop_zero, List.nil_append, List.map_cons, List.map_map]
  rfl

omit [ExpLog ℚ] in
theorem setLast6_many (p : Prod) (y y0 : Fn ℚ) {r0 : ℚ} {rates : List ℚ} (h : 6 ≤ rates.length) :
    setLast6 (some y) (p :: (r0 :: rates).map (fresh y0)) =
      p :: (fresh y0 r0 :: ((rates.take (rates.length - 6)).map (fresh y0) ++ (rates.drop (rates.length - 6)).map (fresh y))) := by
  rw [setLast6]
  have e : (p :: (r0 :: rates).map (fresh y0)).length - 6 = (rates.length - 6) + 1 + 1 := by simp only [List.length_cons, List.length_map]; omega
  rw [List.map_cons] at e ⊢
  simp only [e, List.take_succ_cons, List.drop_succ_cons, List.cons_append, ← List.map_take, ← List.map_drop, List.map_map]
  rfl

/-- C158, what does not hold: with fewer than six groups the delayed nu replaces the prompt nu, which is lost. -/
theorem C158_few_refuted {ev : Ev} {fp ft fd fs : List Line} {prompt total nu : Fn ℚ} {rates : List ℚ} {xs : List (Tab1D ℚ × EnDist)}
    (h456 : Dict.get? ev.sections (1, 456) = some fp) (h452 : Dict.get? ev.sections (1, 452) = some ft) (h455 : Dict.get? ev.sections (1, 455) = some fd)
    (h5 : Dict.get? ev.sections (5, 455) = some fs) (hp : NuSection prompt fp) (ht : NuSection total ft) (hd : DelayedSection rates nu fd) (hs : EnergySection xs fs)
    (h6 : rates.length < 6) (hl : xs.length = rates.length) (hnu : GoodNu nu) (hx : ∀ x ∈ xs, Tab1D.WF x.1) :
    ∃ ds, fissionFromEndf ev = .ok (⟨c!"neutron", .prompt, 0, nu, [], []⟩ :: ds, [⟨c!"neutron", .total, 0, total, [], []⟩]) := by
  obtain ⟨ds, h1, h2⟩ := groups_ok hnu (rates := rates) hx
  refine ⟨ds, ?_⟩
  have e1 : ev.has 1 456 = true := by rw [Ev.has, h456]; rfl
  have e2 : ev.has 1 452 = true := by rw [Ev.has, h452]; rfl
  have e3 : ev.has 1 455 = true := by rw [Ev.has, h455]; rfl
  rw [fissionFromEndf]
  simp only [bind, Except.bind, pure, Except.pure, e1, e2, e3, if_true, Ev.get, h456, h452, h455, nuProduct_rec _ hp, nuProduct_rec _ ht]
  rw [addDelayed_ok hd h5 hs hl (setLast6_few _ _ _ h6) (by rw [List.length_map, hl]) h1]

theorem groups_mixed (nus : List (Fn ℚ × ℚ)) (xs : List (Tab1D ℚ × EnDist)) (h1 : ∀ n ∈ nus, GoodNu n.1) (h : ∀ x ∈ xs, Tab1D.WF x.1) :
    ∃ ds, List.Forall₂ (fun (dx : Prod × (Tab1D ℚ × EnDist)) (d' : Prod) => ∃ y, groupYield dx.1.yield_ dx.2.1 = .ok y ∧
        d' = { dx.1 with yield_ := y, dist := dx.1.dist ++ [.uncorrelated none (some dx.2.2)] }) ((nus.map fun n => fresh n.1 n.2).zip xs) ds := by
  induction nus generalizing xs with
  | nil => exact ⟨[], by simp⟩
  | cons n nus ih =>
    cases xs with
    | nil => exact ⟨[], by simp⟩
    | cons x xs =>
      obtain ⟨ds, hds⟩ := ih xs (fun m hm => h1 m (List.mem_cons_of_mem _ hm)) fun x hx => h x (List.mem_cons_of_mem _ hx)
      obtain ⟨y, hy, -⟩ := groupYield_good (h1 n (List.mem_cons_self ..)) (h x (List.mem_cons_self ..))
      exact ⟨{ fresh n.1 n.2 with yield_ := y, dist := [.uncorrelated none (some x.2)] } :: ds, .cons ⟨y, hy, rfl⟩ hds⟩

/-- C158, what does not hold: with more than six groups the yield of the first group is its fraction alone, without the delayed nu. -/
theorem C158_many_refuted {ev : Ev} {fp ft fd fs : List Line} {prompt total nu : Fn ℚ} {r0 : ℚ} {rates : List ℚ} {x0 : Tab1D ℚ × EnDist} {xs : List (Tab1D ℚ × EnDist)}
    (h456 : Dict.get? ev.sections (1, 456) = some fp) (h452 : Dict.get? ev.sections (1, 452) = some ft) (h455 : Dict.get? ev.sections (1, 455) = some fd)
    (h5 : Dict.get? ev.sections (5, 455) = some fs) (hp : NuSection prompt fp) (ht : NuSection total ft) (hd : DelayedSection (r0 :: rates) nu fd) (hs : EnergySection (x0 :: xs) fs)
    (h6 : 6 ≤ rates.length) (hl : xs.length = rates.length) (hnu : GoodNu nu) (hx : ∀ x ∈ x0 :: xs, Tab1D.WF x.1) :
    ∃ d ds, fissionFromEndf ev = .ok (⟨c!"neutron", .prompt, 0, prompt, [], []⟩ :: d :: ds, [⟨c!"neutron", .total, 0, total, [], []⟩]) ∧ d.decayRate = r0 ∧ d.yield_ = .tab x0.1 := by
  have h1' : GoodNu (.poly [1]) := Or.inr ⟨1, rfl⟩
  obtain ⟨ds, hds⟩ := groups_mixed ((rates.take (rates.length - 6)).map (fun r => (Fn.poly [1], r)) ++ (rates.drop (rates.length - 6)).map fun r => (nu, r)) xs
    (by
      intro n hn
      rw [List.mem_append, List.mem_map, List.mem_map] at hn
      obtain ⟨r, -, rfl⟩ | ⟨r, -, rfl⟩ := hn
      · exact h1'
      · exact hnu) fun x hx' => hx x (List.mem_cons_of_mem _ hx')
  rw [List.map_append, List.map_map, List.map_map] at hds
  have e1 : ev.has 1 456 = true := by rw [Ev.has, h456]; rfl
  have e2 : ev.has 1 452 = true := by rw [Ev.has, h452]; rfl
  have e3 : ev.has 1 455 = true := by rw [Ev.has, h455]; rfl
  refine ⟨{ fresh (.poly [1]) r0 with yield_ := .tab x0.1, dist := [.uncorrelated none (some x0.2)] }, ds, ?_, rfl, rfl⟩
  rw [fissionFromEndf]
  simp only [bind, Except.bind, pure, Except.pure, e1, e2, e3, if_true, Ev.get, h456, h452, h455, nuProduct_rec _ hp, nuProduct_rec _ ht]
  have hy : groupYield (.poly [1]) x0.1 = .ok (.tab x0.1) := by
    rw [groupYield]
    simp
  rw [addDelayed_ok (outs := { fresh (.poly [1]) r0 with yield_ := .tab x0.1, dist := [.uncorrelated none (some x0.2)] } :: ds) hd h5 hs (by simp [hl]) (setLast6_many _ _ _ h6)
    (by simp only [List.length_cons, List.length_append, List.length_map, List.length_take, List.length_drop]; omega) (List.Forall₂.cons ⟨.tab x0.1, hy, rfl⟩ hds)]

/-- C158, what does not hold: of a polynomial of degree one or more only the constant term is scaled by the fraction of the group. -/
theorem C158_polynomial_refuted {c0 c1 k : ℚ} {cs : List ℚ} {a : Tab1D ℚ} (h0 : a.y ≠ []) (h : ∀ v ∈ a.y, v = k) :
    groupYield (.poly (c0 :: c1 :: cs)) a = .ok (.poly (c0 * k :: c1 :: cs)) := by
  obtain ⟨a0, e0, hm⟩ := item_zero h0
  have hk := h a0 hm
  subst hk
  have hall : (a.y.all fun v => decide (v = a0)) = true := List.all_eq_true.mpr fun v hv => by simpa using h v hv
  rw [groupYield]
  simp [bind, Except.bind, pure, Except.pure, e0, hall]

end ASAPy.EndfRx
