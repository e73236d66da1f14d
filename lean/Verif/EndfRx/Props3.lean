import Verif.EndfRx.Props2

/-!
# C159-C161: production of nuclides and photons, and whole reactions
-/

namespace ASAPy.EndfRx
open ASAPy.Endf
open ASAPy.Res (Reader many many_spec)
open ASAPy.Decay (ListRec Tab1Rec getList_rec getTab1_rec trunc_nat)
open ASAPy.Func (Fn)
open ASAPy.FromAce (Mode item)

/-! ### C159: activation products -/

theorem activationName_rec {z a lfs : Nat} {sym name : Line} (h : StateName z a lfs sym name) : activationName ((1000 * z + a : Nat) : Int) lfs = .ok name := by
  obtain ⟨hs, ha, h⟩ := h
  have e1 : ((1000 * z + a : Nat) : Int) / 1000 = z := by omega
  have e2 : ((1000 * z + a : Nat) : Int) % 1000 = a := by omega
  rw [activationName, e1, e2, AceData.symbol_of hs]
  obtain ⟨h0, rfl⟩ | ⟨h0, rfl⟩ := h
  · simp only [h0]
    rfl
  · simp only
    rw [if_pos (by omega)]
    rfl

/-- A product with the yield of a state of its name. -/
def putYield (s : Line × Tab1D ℚ) (p : Prod) : Prod := if s.1 = p.particle then { p with yield_ := .tab s.2 } else p

/-- What the list of products becomes with a state. -/
def putState (s : Line × Tab1D ℚ) (on : List Prod × List Prod) : List Prod × List Prod :=
  match overwrite s.1 (.tab s.2) on.1 with
  | some old => (old, on.2)
  | none => (on.1, on.2 ++ [stateProduct s])

variable [ExpLog ℚ]

/-- The yield of a state. -/
def YieldOf (mf : Int) (xs : Option (Tab1D ℚ)) (t s : Line × Tab1D ℚ) : Prop := s.1 = t.1 ∧ stateYield mf xs t.2 = .ok s.2

theorem activationStates_ok {mf : Int} {xs : Option (Tab1D ℚ)} {ts ss : List (Line × Tab1D ℚ)} {bs : List (List Line)} (h : List.Forall₂ StateRec ts bs)
    (hy : List.Forall₂ (YieldOf mf xs) ts ss) (rest : List Line) : ∀ old new, activationStates mf xs ts.length old new (bs.flatten ++ rest) = .ok (ss.foldl (fun on s => putState s on) (old, new), rest) := by
  induction h generalizing ss with
  | nil => cases hy; intro old new; rfl
  | @cons t b ts bs hb _ ih =>
    cases hy with
    | @cons _ s _ ss hy0 hy =>
      intro old new
      obtain ⟨hn, hy0⟩ := hy0
      obtain ⟨c, z, a, lfs, sym, ht, hc1, hc2, hname⟩ := hb
      rw [List.length_cons, activationStates, List.flatten_cons, List.append_assoc, rdTab_rec ht]
      simp only [bind, Except.bind, hc1, hc2, activationName_rec hname, hy0, List.foldl_cons]
      rw [putState]
      simp only [hn]
      cases ho : overwrite t.1 (.tab s.2) old with
      | some old' =>
        simp only
        exact ih hy old' new
      | none =>
        simp only
        have : ({ newProduct t.1 with yield_ := .tab s.2 } : Prod) = stateProduct s := by rw [stateProduct, hn]; rfl
        rw [this]
        exact ih hy old _

omit [ExpLog ℚ] in
theorem overwrite_none {name : Line} {y : Fn ℚ} : ∀ {ps : List Prod}, name ∉ ps.map (·.particle) → overwrite name y ps = none
  | [], _ => rfl
  | p :: ps, h => by
    rw [List.map_cons, List.mem_cons, not_or] at h
    rw [overwrite, if_neg h.1, overwrite_none h.2]
    rfl

omit [ExpLog ℚ] in
theorem overwrite_some {s : Line × Tab1D ℚ} : ∀ {ps : List Prod}, s.1 ∈ ps.map (·.particle) → (ps.map (·.particle)).Nodup →
    overwrite s.1 (.tab s.2) ps = some (ps.map (putYield s))
  | [], h, _ => by simp at h
  | p :: ps, h, hn => by
    rw [List.map_cons, List.nodup_cons] at hn
    rw [overwrite]
    by_cases he : s.1 = p.particle
    · rw [if_pos he, List.map_cons, putYield, if_pos he]
      congr 2
      conv_lhs => rw [← List.map_id ps]
      apply List.map_congr_left
      intro q hq
      rw [putYield, if_neg]
      · rfl
      · intro h'
        exact hn.1 (he ▸ h' ▸ List.mem_map_of_mem hq)
    · rw [if_neg he, List.map_cons, putYield, if_neg he, overwrite_some (ps := ps) (by
        rw [List.map_cons, List.mem_cons] at h
        exact h.resolve_left he) hn.2]
      rfl

omit [ExpLog ℚ] in
theorem forall₂_mem {α β : Type} {R : α → β → Prop} {l : List α} {l' : List β} (h : List.Forall₂ R l l') : List.Forall₂ (fun a b => a ∈ l ∧ R a b) l l' := by
  induction h with
  | nil => exact .nil
  | cons h _ ih => exact .cons ⟨List.mem_cons_self .., h⟩ (ih.imp fun {a b} h' => ⟨List.mem_cons_of_mem _ h'.1, h'.2⟩)

omit [ExpLog ℚ] in
theorem fold_states (ss : List (Line × Tab1D ℚ)) (hs : (ss.map (·.1)).Nodup) : ∀ (old new : List Prod), (old.map (·.particle)).Nodup →
    ∃ old', List.Forall₂ (Replaced ss) old old' ∧
      ss.foldl (fun on s => putState s on) (old, new) = (old', new ++ (ss.filter fun s => decide (s.1 ∉ old.map (·.particle))).map stateProduct) := by
  induction ss with
  | nil =>
    intro old new _
    refine ⟨old, ?_, by simp⟩
    exact List.forall₂_same.mpr fun p _ => Or.inr ⟨by simp, rfl⟩
  | cons s ss ih =>
    intro old new hold
    rw [List.map_cons, List.nodup_cons] at hs
    rw [List.foldl_cons, putState]
    by_cases hm : s.1 ∈ old.map (·.particle)
    · rw [overwrite_some hm hold]
      simp only
      have hnames : (old.map (putYield s)).map (·.particle) = old.map (·.particle) := by
        rw [List.map_map]
        apply List.map_congr_left
        intro p _
        simp only [Function.comp_apply, putYield]
        split <;> rfl
      obtain ⟨old', h1, h2⟩ := ih hs.2 (old.map (putYield s)) new (by rw [hnames]; exact hold)
      refine ⟨old', ?_, ?_⟩
      · rw [List.forall₂_map_left_iff] at h1
        refine h1.imp ?_
        intro p p' hp
        by_cases he : s.1 = p.particle
        · rw [putYield, if_pos he] at hp
          obtain ⟨y, hy, -⟩ | ⟨-, rfl⟩ := hp
          · exfalso
            apply hs.1
            rw [he]
            exact List.mem_map.mpr ⟨_, hy, rfl⟩
          · exact Or.inl ⟨s.2, by rw [← he]; exact List.mem_cons_self .., rfl⟩
        · rw [putYield, if_neg he] at hp
          obtain ⟨y, hy, rfl⟩ | ⟨h0, rfl⟩ := hp
          · exact Or.inl ⟨y, List.mem_cons_of_mem _ hy, rfl⟩
          · refine Or.inr ⟨?_, rfl⟩
            rw [List.map_cons, List.mem_cons, not_or]
            exact ⟨fun h' => he h'.symm, h0⟩
      · rw [h2, hnames, List.filter_cons_of_neg (by simpa using hm)]
    · rw [overwrite_none hm]
      simp only
      obtain ⟨old', h1, h2⟩ := ih hs.2 old (new ++ [stateProduct s]) hold
      refine ⟨old', ?_, ?_⟩
      · refine (forall₂_mem h1).imp ?_
        rintro p p' ⟨hp, ⟨y, hy, rfl⟩ | ⟨h0, rfl⟩⟩
        · exact Or.inl ⟨y, List.mem_cons_of_mem _ hy, rfl⟩
        · refine Or.inr ⟨?_, rfl⟩
          rw [List.map_cons, List.mem_cons, not_or]
          refine ⟨fun h' => hm ?_, h0⟩
          rw [← h']
          exact List.mem_map_of_mem hp
      · rw [h2, List.filter_cons_of_pos (by simpa using hm), List.map_cons, List.append_assoc]
        rfl

theorem ratio_ok {p xs : Tab1D ℚ} (hp : Tab1D.WF p) (hx : Tab1D.WF xs) : ∃ y, ratio p (some xs) = .ok y ∧ Ratio p xs y := by
  obtain ⟨y1, h1, f1⟩ := Dists.evals_ok hp (Func.union1d p.x xs.x)
  obtain ⟨y2, h2, f2⟩ := Dists.evals_ok hx (Func.union1d p.x xs.x)
  refine ⟨.linlin (Func.union1d p.x xs.x) (List.zipWith (fun p s => if s > 0 then p / s else 0) y1 y2), ?_, rfl, rfl, Func.union1d_increasing _ _, fun e => Func.mem_union1d _ _ e, ?_⟩
  · rw [ratio]
    simp only [bind, Except.bind, pure, Except.pure, h1, h2]
  · show List.Forall₂ _ (Func.union1d p.x xs.x) (List.zipWith (fun p s => if s > 0 then p / s else 0) y1 y2)
    clear h1 h2
    generalize Func.union1d p.x xs.x = es at f1 f2
    induction f1 generalizing y2 with
    | nil => cases f2; exact .nil
    | @cons e u es y1 hu _ ih =>
      cases f2 with
      | @cons _ v _ y2 hv f2 =>
        refine .cons ⟨u, v, hu, hv, ?_⟩ (ih y2 f2)
        by_cases h0 : v > 0
        · refine Or.inl ⟨h0, ?_⟩
          show (if v > 0 then u / v else 0) * v = u
          rw [if_pos h0, div_mul_cancel₀ _ (ne_of_gt h0)]
        · exact Or.inr ⟨not_lt.mp h0, if_neg h0⟩

omit [ExpLog ℚ] in
theorem rdState_rec {files : List Int} {bs : List (List Line)} {n2 : Int}
    (h : (n2 = 1 ∧ List.Forall₂ (fun lmf ls => ∃ c l, ls = [l] ∧ ContLine c l ∧ c.l1 = lmf) files bs) ∨
      (n2 ≠ 1 ∧ List.Forall₂ (fun lmf ls => ∃ c vs, ListRec c vs ls ∧ c.l1 = lmf) files bs)) (rest : List Line) :
    many (rdState (decide (n2 = 1))) files.length (bs.flatten ++ rest) = .ok (files, rest) := by
  obtain ⟨h1, h⟩ | ⟨h1, h⟩ := h
  · rw [h1]
    refine many_spec (h.imp ?_) rest
    rintro lmf ls ⟨c, l, rfl, hc, rfl⟩ rest
    rw [rdState, if_pos (by decide), List.singleton_append, getCont_line hc]
    rfl
  · refine many_spec (h.imp ?_) rest
    rintro lmf ls ⟨c, vs, hl, rfl⟩ rest
    rw [rdState, if_neg (by simpa using h1), getList_rec hl]
    rfl

theorem activationFile_ok {ev : Ev} {rx : Rx} {files : List Int} {mf : Int} {ts ss : List (Line × Tab1D ℚ)} (h : StateFile ev rx.mt files mf ts)
    (hy : List.Forall₂ (YieldOf mf rx.xs) ts ss) (old new : List Prod) :
    activationFile ev rx files mf old new = .ok (ss.foldl (fun on s => putState s on) (old, new)) := by
  obtain ⟨hm, rfl⟩ | ⟨hm, f, hf, h⟩ := h
  · cases hy
    rw [activationFile, if_neg hm]
    rfl
  · obtain ⟨h, l, bs, rest, rfl, hh, hn, hx⟩ := h
    rw [activationFile, if_pos hm, Ev.get, hf]
    simp only [bind, Except.bind, pure, Except.pure, getHead_line hh, hn, Int.toNat_natCast, activationStates_ok hx hy]

theorem yields9 (xs : Option (Tab1D ℚ)) (ts : List (Line × Tab1D ℚ)) : List.Forall₂ (YieldOf 9 xs) ts ts := List.forall₂_same.mpr fun t _ => ⟨rfl, by rw [stateYield, if_pos rfl]⟩

theorem yields10 {xs : Tab1D ℚ} (hx : Tab1D.WF xs) : ∀ (ts : List (Line × Tab1D ℚ)), (∀ t ∈ ts, Tab1D.WF t.2) →
    ∃ ss, List.Forall₂ (YieldOf 10 (some xs)) ts ss ∧ List.Forall₂ (fun t s => s.1 = t.1 ∧ Ratio t.2 xs s.2) ts ss
  | [], _ => ⟨[], .nil, .nil⟩
  | t :: ts, h => by
    obtain ⟨ss, h1, h2⟩ := yields10 hx ts fun t ht => h t (List.mem_cons_of_mem _ ht)
    obtain ⟨y, hy, hr⟩ := ratio_ok (h t (List.mem_cons_self ..)) hx
    exact ⟨(t.1, y) :: ss, .cons ⟨rfl, by rw [stateYield, if_neg (by decide)]; exact hy⟩ h1, .cons ⟨rfl, hr⟩ h2⟩

/-- C159: the states that files 9 and 10 list become products: with the yield of file 9, or with the ratio of the production cross section of file 10 and the cross section of the reaction. A
product that is there already takes the yield; the others are added behind, in order. -/
theorem C159_states_partial {ev : Ev} {rx : Rx} {xs : Tab1D ℚ} {files : List Int} {f8 : List Line} {t9 t10 : List (Line × Tab1D ℚ)} (h8 : Dict.get? ev.sections (8, rx.mt) = some f8)
    (hd : DecaySection files f8) (h9 : StateFile ev rx.mt files 9 t9) (h10 : StateFile ev rx.mt files 10 t10) (hxs : rx.xs = some xs) (hx : Tab1D.WF xs)
    (hw : ∀ t ∈ t10, Tab1D.WF t.2) (hn : ((t9 ++ t10).map (·.1)).Nodup) (hold : (rx.products.map (·.particle)).Nodup) :
    ∃ s10 old', List.Forall₂ (fun t s => s.1 = t.1 ∧ Ratio t.2 xs s.2) t10 s10 ∧ List.Forall₂ (Replaced (t9 ++ s10)) rx.products old' ∧
      addActivation ev rx = .ok { rx with products := old' ++ ((t9 ++ s10).filter fun s => decide (s.1 ∉ rx.products.map (·.particle))).map stateProduct } := by
  obtain ⟨s10, hy10, hr10⟩ := yields10 hx t10 hw
  have hnames : s10.map (·.1) = t10.map (·.1) := by
    clear hy10 h10 hw hn
    induction hr10 with
    | nil => rfl
    | cons h _ ih => rw [List.map_cons, List.map_cons, h.1, ih]
  have hn' : ((t9 ++ s10).map (·.1)).Nodup := by
    rw [List.map_append, hnames, ← List.map_append]
    exact hn
  obtain ⟨old', ho, hf⟩ := fold_states (t9 ++ s10) hn' rx.products [] hold
  refine ⟨s10, old', hr10, ho, ?_⟩
  obtain ⟨h, l, bs, rest, rfl, hh, hnf, hb⟩ := hd
  rw [addActivation, Ev.get, h8]
  simp only [bind, Except.bind, pure, Except.pure, getHead_line hh, hnf, Int.toNat_natCast, rdState_rec hb]
  rw [activationFile_ok h9 (yields9 rx.xs t9)]
  simp only
  rw [activationFile_ok h10 (by rw [hxs]; exact hy10)]
  simp only
  rw [_root_.Prod.eta, ← List.foldl_append, hf, List.nil_append]

/-- C159, what does not hold: of two products of the same name, as file 6 gives for a ground state and an isomer, only the first takes the yield. -/
theorem C159_isomer_refuted {s : Line × Tab1D ℚ} {b : List Line} {xs : Option (Tab1D ℚ)} {p p' : Prod} {ps new : List Prod} (hb : StateRec s b) (h : p.particle = s.1)
    (_h' : p'.particle = s.1) (rest : List Line) :
    activationStates 9 xs 1 (p :: p' :: ps) new (b ++ rest) = .ok (({ p with yield_ := .tab s.2 } :: p' :: ps, new), rest) := by
  have := activationStates_ok (mf := 9) (xs := xs) (List.Forall₂.cons hb .nil) (yields9 xs [s]) rest (p :: p' :: ps) new
  rw [List.flatten_cons, List.flatten_nil, List.append_nil] at this
  rw [show (1 : Nat) = [s].length from rfl, this, List.foldl_cons, List.foldl_nil, putState, overwrite, if_pos h.symm]

/-! ### C160: photons -/

omit [ExpLog ℚ] in
theorem skipTotal_ok {n : Nat} {t : List Line} (h : TotalFirst n t) (rest : List Line) : skipTotal n (t ++ rest) = .ok rest := by
  obtain ⟨h1, rfl⟩ | ⟨h1, c, y, ht⟩ := h
  · rw [skipTotal, if_neg (by omega)]
    rfl
  · rw [skipTotal, if_pos (by omega), rdTab_rec ht]
    rfl

omit [ExpLog ℚ] in
theorem photonDist_ok {mass : ℚ} {t : Tab1D ℚ} {e : Option EnDist} {ls : List Line} (h : PhotonRec mass t e ls) :
    ∃ c : Cont, TabRec c t ls ∧ photonDist mass (c.c1, c.c2, c.l1, c.l2) = .uncorrelated none e := by
  cases h with
  | @discrete c _ _ h h2 => exact ⟨c, h, by rw [photonDist, if_pos h2]⟩
  | @continuum c _ _ h h1 => exact ⟨c, h, by rw [photonDist, if_neg (by simp [h1])]⟩

/-- C160: the photons of a section of file 12 with multiplicities are products with those yields, the discrete ones with their energies. -/
theorem C160_multiplicities_partial {ev : Ev} {rx : Rx} {f : List Line} {xs : List (Tab1D ℚ × Option EnDist)} (hf : Dict.get? ev.sections (12, rx.mt) = some f)
    (h : PhotonSection ev.mass (some 1) xs f) : photonsFromEndf ev rx = .ok (xs.map fun x => photonProduct x.1 x.2) := by
  obtain ⟨h, l, t, bs, rest, rfl, hh, hlo, hn, ht, hx⟩ := h
  have e1 : ev.has 12 rx.mt = true := by rw [Ev.has, hf]; rfl
  have hm := many_spec (rd := rdPhoton12 ev.mass) (as := xs.map fun x => photonProduct x.1 x.2) (lss := bs) (List.forall₂_map_left_iff.mpr (hx.imp (by
    rintro x b hb rest
    obtain ⟨c, hc, hd⟩ := photonDist_ok hb
    rw [rdPhoton12, rdTab_rec hc]
    simp only [bind, Except.bind, pure, Except.pure, hd]
    rfl))) rest
  rw [List.length_map] at hm
  rw [photonsFromEndf, if_pos e1, Ev.get, hf]
  simp only [bind, Except.bind, pure, Except.pure, getHead_line hh, hlo 1 rfl, if_true, hn, skipTotal_ok ht, Int.toNat_natCast, hm]

/-- C160: those of file 13 have the ratio of their production cross section and the cross section of the reaction as yield. -/
theorem C160_cross_sections_partial {ev : Ev} {rx : Rx} {s : Tab1D ℚ} {f : List Line} {xs : List (Tab1D ℚ × Option EnDist)} (h12 : Dict.get? ev.sections (12, rx.mt) = none)
    (hf : Dict.get? ev.sections (13, rx.mt) = some f) (h : PhotonSection ev.mass none xs f) (hs : rx.xs = some s) (hw : Tab1D.WF s) (hx : ∀ x ∈ xs, Tab1D.WF x.1) :
    ∃ ys, List.Forall₂ (fun x y => Ratio x.1 s y) xs ys ∧ photonsFromEndf ev rx = .ok (List.zipWith (fun y x => photonProduct y x.2) ys xs) := by
  obtain ⟨h, l, t, bs, rest, rfl, hh, -, hn, ht, hb⟩ := h
  have e1 : ev.has 12 rx.mt = false := by rw [Ev.has, h12]; rfl
  have e2 : ev.has 13 rx.mt = true := by rw [Ev.has, hf]; rfl
  obtain ⟨ys, hr, hm⟩ : ∃ ys, List.Forall₂ (fun (x : Tab1D ℚ × Option EnDist) y => Ratio x.1 s y) xs ys ∧
      many (rdPhoton13 ev.mass (some s)) xs.length (bs.flatten ++ rest) = .ok (List.zipWith (fun y x => photonProduct y x.2) ys xs, rest) := by
    clear hn ht hf
    induction hb with
    | nil => exact ⟨[], .nil, rfl⟩
    | @cons x b xs bs hb _ ih =>
      obtain ⟨ys, h1, h2⟩ := ih fun x hx' => hx x (List.mem_cons_of_mem _ hx')
      obtain ⟨y, hy, hr⟩ := ratio_ok (hx x (List.mem_cons_self ..)) hw
      obtain ⟨c, hc, hd⟩ := photonDist_ok hb
      refine ⟨y :: ys, .cons hr h1, ?_⟩
      rw [List.length_cons, many, List.flatten_cons, List.append_assoc, rdPhoton13, rdTab_rec hc]
      simp only [bind, Except.bind, pure, Except.pure, hy, hd, h2]
      rfl
  refine ⟨ys, hr, ?_⟩
  rw [photonsFromEndf, if_neg (by simp [e1]), if_pos e2, Ev.get, hf]
  simp only [bind, Except.bind, pure, Except.pure, getHead_line hh, hn, skipTotal_ok ht, Int.toNat_natCast, hs, hm]

/-- C160, what does not hold: a section of file 12 with transition probabilities gives no photons. -/
theorem C160_transitions_refuted {ev : Ev} {rx : Rx} {h : Head} {c : Cont} {l : Line} {vs : List ℚ} {b rest : List Line} (hf : Dict.get? ev.sections (12, rx.mt) = some (l :: (b ++ rest)))
    (hh : HeadLine h l) (h2 : h.l1 = 2) (hb : ListRec c vs b) : photonsFromEndf ev rx = .ok [] := by
  have e1 : ev.has 12 rx.mt = true := by rw [Ev.has, hf]; rfl
  rw [photonsFromEndf, if_pos e1, Ev.get, hf]
  simp only [bind, Except.bind, pure, Except.pure, getHead_line hh, h2, show ((2 : Int) = 1) = False by decide, if_false, if_true, getList_rec hb]

/-- C160, what does not hold: photons with a continuous spectrum have no distribution of energy, whatever file 15 says. -/
theorem C160_continuum_refuted {ev : Ev} {rx : Rx} {h : Head} {l : Line} {c : Cont} {t : Tab1D ℚ} {b rest f15 : List Line} (hf : Dict.get? ev.sections (12, rx.mt) = some (l :: (b ++ rest)))
    (_h15 : Dict.get? ev.sections (15, rx.mt) = some f15) (hh : HeadLine h l) (h1 : h.l1 = 1) (hn : h.n1 = 1) (hb : TabRec c t b) (hc : c.l2 = 1) :
    photonsFromEndf ev rx = .ok [⟨c!"photon", .prompt, 0, .tab t, [], [.uncorrelated none none]⟩] :=
  C160_multiplicities_partial (xs := [(t, none)]) hf ⟨h, l, [], [b], rest, by simp, hh, fun k hk => by rw [h1]; exact Option.some.inj hk, hn, Or.inl ⟨Nat.le_refl 1, rfl⟩,
    .cons (.continuum hb hc) .nil⟩

/-! ### C161: reactions -/

omit [ExpLog ℚ] in
theorem has_some {ev : Ev} {mf mt : Int} {f : List Line} (h : Dict.get? ev.sections (mf, mt) = some f) : ev.has mf mt = true := by rw [Ev.has, h]; rfl

omit [ExpLog ℚ] in
theorem has_none {ev : Ev} {mf mt : Int} (h : Dict.get? ev.sections (mf, mt) = none) : ev.has mf mt = false := by rw [Ev.has, h]; rfl

omit [ExpLog ℚ] in
theorem crossSection_ok {ev : Ev} {mt : Int} {q : ℚ} {xs : Tab1D ℚ} {f : List Line} (hf : Dict.get? ev.sections (3, mt) = some f) (h : XsSection q xs f) :
    crossSection ev mt = .ok (some xs, q) := by
  obtain ⟨h, l, c, b, rest, rfl, hh, hb, rfl⟩ := h
  rw [crossSection, if_pos (has_some hf), Ev.get, hf]
  simp only [bind, Except.bind, pure, Except.pure, getHead_line hh, rdTab_rec hb]

omit [ExpLog ℚ] in
theorem fission_iff (mt : Int) : isFission mt = true ↔ Fission mt := by simp [isFission, Fission]

omit [ExpLog ℚ] in
theorem merge_plain {mt : Int} (h : ¬ Fission mt) : ∀ (ps qs : List Prod), mergeProducts mt ps qs = .ok (ps ++ qs)
  | ps, [] => by rw [mergeProducts.eq_def, List.append_nil]
  | ps, q :: qs => by
    rw [mergeProducts.eq_def]
    simp only
    rw [if_neg (by rw [fission_iff]; tauto), merge_plain h, List.append_assoc]
    rfl

omit [ExpLog ℚ] in
/-- The angles of file 4 go to every distribution. -/
theorem angles_ok {ev : Ev} {mt : Int} {a : Option Angle} (h : AngleOf ev mt a) (es : List (Option EnDist)) :
    addAngles ev mt (es.map fun e => Dist.uncorrelated none e) = .ok (es.map fun e => .uncorrelated a e) := by
  obtain ⟨h4, rfl⟩ | ⟨f, xs, lct, h4, ha, rfl⟩ := h
  · rw [addAngles, if_neg (by simp [has_none h4])]
  · rw [addAngles, if_pos (has_some h4)]
    induction es with
    | nil => rfl
    | cons e es ih =>
      rw [List.map_cons, List.mapM_cons, ih, Ev.get, h4]
      simp only [bind, Except.bind, C155_angles_partial ha, pure, Except.pure]
      rfl

omit [ExpLog ℚ] in
theorem addNeutron_parts {ev : Ev} {mt : Int} {q : ℚ} {f : List Line} {xs : List (Tab1D ℚ × EnDist)} {a : Option Angle} (hm : ¬ Fission mt) (h5 : Dict.get? ev.sections (5, mt) = some f)
    (h : EnergySection xs f) (ha : AngleOf ev mt a) (ps : List Prod) :
    addNeutron ev mt q ps = .ok (ps ++ [oneNeutron (xs.map (·.1)) (xs.map fun x => .uncorrelated a (some x.2))]) := by
  rw [addNeutron, C156_section_partial h5 h]
  have hang := angles_ok ha (xs.map fun x => some x.2)
  rw [List.map_map, List.map_map] at hang
  simp only [bind, Except.bind, Function.comp_def] at hang ⊢
  simp only [hang]
  rw [if_neg (by rw [fission_iff]; tauto)]
  rfl

omit [ExpLog ℚ] in
theorem addNeutron_alone {ev : Ev} {mt : Int} {q : ℚ} {e : Option EnDist} {a : Option Angle} (hm : ¬ Fission mt) (hn : neutronParts ev mt q = .ok ([], [.uncorrelated none e]))
    (ha : AngleOf ev mt a) (ps : List Prod) : addNeutron ev mt q ps = .ok (ps ++ [oneNeutron [] [.uncorrelated a e]]) := by
  rw [addNeutron, hn]
  have hang := angles_ok ha [e]
  simp only [List.map_cons, List.map_nil] at hang
  simp only [bind, Except.bind, hang]
  rw [if_neg (by rw [fission_iff]; tauto)]
  rfl

omit [ExpLog ℚ] in
theorem has4 {ev : Ev} {mt : Int} {a : Angle} (h : AngleOf ev mt (some a)) : ev.has 4 mt = true := by
  obtain ⟨-, h0⟩ | ⟨f, -, -, h4, -⟩ := h
  · cases h0
  · exact has_some h4

omit [ExpLog ℚ] in
/-- The products before those of files 8, 12 and 13. -/
theorem emission_ok {ev : Ev} {mt : Int} {q : ℚ} {ps : List Prod} (hmass : 0 < ev.mass) (hm : ¬ Fission mt) (h : Emission ev mt q ps) :
    emitted ev mt q [] = .ok ps := by
  rw [emitted]
  cases h with
  | none h6 h5 h4 =>
    rw [if_neg (by simp [has_none h6]), if_neg (by simp [has_none h5, has_none h4])]
  | @file6 f ps lct h6 h =>
    rw [if_pos (has_some h6), Ev.get, h6]
    simp only [bind, Except.bind, C157_products_partial h, merge_plain hm, List.nil_append]
  | @parts f xs a h6 h5 h ha =>
    rw [if_neg (by simp [has_none h6]), if_pos (Or.inr (has_some h5)), addNeutron_parts hm h5 h ha]
    rfl
  | @elastic a h2 h6 h5 ha =>
    rw [if_neg (by simp [has_none h6]), if_pos (Or.inl (has4 ha)),
      addNeutron_alone hm (by rw [neutronParts, if_neg (by simp [has_none h5]), if_pos h2]) ha]
    rfl
  | @level a threshold ratio h51 h90 h6 h5 ha ht hr =>
    have e1 : (ev.mass + 1) / ev.mass * |q| = threshold := by field_simp; linarith
    have e2 : (ev.mass / (ev.mass + 1)) ^ 2 = ratio := by
      have : ev.mass + 1 ≠ 0 := by positivity
      field_simp
      linarith
    rw [if_neg (by simp [has_none h6]), if_pos (Or.inl (has4 ha)),
      addNeutron_alone hm (e := some (.level threshold ratio)) (by rw [neutronParts, if_neg (by simp [has_none h5]), if_neg (by omega), if_pos (by omega), e1, e2]) ha]
    rfl

/-- C161: a reaction other than fission has the number, Q and cross section of file 3 and the products of files 4, 5 and 6. -/
theorem C161_reaction_partial {ev : Ev} {mt : Int} {q : ℚ} {xs : Tab1D ℚ} {f : List Line} {ps : List Prod} (hmass : 0 < ev.mass) (hm : ¬ Fission mt)
    (h3 : Dict.get? ev.sections (3, mt) = some f) (hx : XsSection q xs f) (h : Emission ev mt q ps) (h8 : Dict.get? ev.sections (8, mt) = none)
    (h12 : Dict.get? ev.sections (12, mt) = none) (h13 : Dict.get? ev.sections (13, mt) = none) : rxFromEndf ev mt = .ok ⟨mt, true, q, some xs, ps, []⟩ := by
  have hff : fissionPart ev mt = .ok ([], []) := by rw [fissionPart, if_neg (by rw [fission_iff]; exact hm)]
  rw [rxFromEndf, crossSection_ok h3 hx]
  simp only [bind, Except.bind, hff, emission_ok hmass hm h]
  rw [withStates, if_neg (by simp [has_none h8])]
  simp only
  rw [withPhotons, if_neg (by simp [has_none h12, has_none h13])]

/-- C161: states of nuclides and photons come behind the emitted particles. -/
theorem C161_all_partial {ev : Ev} {mt : Int} {q : ℚ} {xs : Tab1D ℚ} {f f8 f12 : List Line} {ps : List Prod} {files : List Int} {t9 t10 : List (Line × Tab1D ℚ)}
    {gs : List (Tab1D ℚ × Option EnDist)} (hmass : 0 < ev.mass) (hm : ¬ Fission mt) (h3 : Dict.get? ev.sections (3, mt) = some f) (hx : XsSection q xs f) (h : Emission ev mt q ps)
    (h8 : Dict.get? ev.sections (8, mt) = some f8) (hd : DecaySection files f8) (h9 : StateFile ev mt files 9 t9) (h10 : StateFile ev mt files 10 t10) (hw : Tab1D.WF xs)
    (hw10 : ∀ t ∈ t10, Tab1D.WF t.2) (hn : ((t9 ++ t10).map (·.1)).Nodup) (hold : (ps.map (·.particle)).Nodup) (h12 : Dict.get? ev.sections (12, mt) = some f12)
    (hg : PhotonSection ev.mass (some 1) gs f12) :
    ∃ s10 ps', List.Forall₂ (fun t s => s.1 = t.1 ∧ Ratio t.2 xs s.2) t10 s10 ∧ List.Forall₂ (Replaced (t9 ++ s10)) ps ps' ∧
      rxFromEndf ev mt = .ok ⟨mt, true, q, some xs, ps' ++ ((t9 ++ s10).filter fun s => decide (s.1 ∉ ps.map (·.particle))).map stateProduct ++ gs.map fun x => photonProduct x.1 x.2, []⟩ := by
  obtain ⟨s10, ps', hr, ho, ha⟩ := C159_states_partial (rx := ⟨mt, true, q, some xs, ps, []⟩) h8 hd h9 h10 rfl hw hw10 hn hold
  refine ⟨s10, ps', hr, ho, ?_⟩
  have hff : fissionPart ev mt = .ok ([], []) := by rw [fissionPart, if_neg (by rw [fission_iff]; exact hm)]
  rw [rxFromEndf, crossSection_ok h3 hx]
  simp only [bind, Except.bind, hff, emission_ok hmass hm h]
  rw [withStates, if_pos (has_some h8), ha]
  simp only
  rw [withPhotons, if_pos (Or.inl (has_some h12)), C160_multiplicities_partial (rx := ⟨mt, true, q, some xs, _, []⟩) h12 hg]
  rfl

/-- C161: the neutron of fission with a section of file 5 is the first product of `_get_fission_products_endf`, with the distributions of file 5. -/
theorem C161_fission_partial {ev : Ev} {mt : Int} {q : ℚ} {s : Tab1D ℚ} {f f5 : List Line} {p : Prod} {ds derived : List Prod} {xs : List (Tab1D ℚ × EnDist)} {a : Option Angle}
    (hm : Fission mt) (h3 : Dict.get? ev.sections (3, mt) = some f) (hx : XsSection q s f) (hf : fissionFromEndf ev = .ok (p :: ds, derived))
    (h6 : Dict.get? ev.sections (6, mt) = none) (h5 : Dict.get? ev.sections (5, mt) = some f5) (h : EnergySection xs f5) (ha : AngleOf ev mt a)
    (h8 : Dict.get? ev.sections (8, mt) = none) (h12 : Dict.get? ev.sections (12, mt) = none) (h13 : Dict.get? ev.sections (13, mt) = none) :
    rxFromEndf ev mt = .ok ⟨mt, true, q, some s, { p with applicability := xs.map (·.1), dist := xs.map fun x => .uncorrelated a (some x.2) } :: ds, derived⟩ := by
  have hang := angles_ok ha (xs.map fun x => some x.2)
  rw [List.map_map, List.map_map] at hang
  simp only [Function.comp_def] at hang
  have hff : fissionPart ev mt = .ok (p :: ds, derived) := by rw [fissionPart, if_pos ((fission_iff mt).mpr hm), hf]
  have he : emitted ev mt q (p :: ds) = .ok ({ p with applicability := xs.map (·.1), dist := xs.map fun x => .uncorrelated a (some x.2) } :: ds) := by
    rw [emitted, if_neg (by simp [has_none h6]), if_pos (Or.inr (has_some h5)), addNeutron, C156_section_partial h5 h]
    simp only [bind, Except.bind, hang]
    rw [if_pos ⟨(fission_iff mt).mpr hm, has_some h5⟩]
    rfl
  rw [rxFromEndf, crossSection_ok h3 hx]
  simp only [bind, Except.bind, hff, he]
  rw [withStates, if_neg (by simp [has_none h8])]
  simp only
  rw [withPhotons, if_neg (by simp [has_none h12, has_none h13])]

/-- C161: without distributions the neutrons of fission have their yields alone. -/
theorem C161_yields_partial {ev : Ev} {mt : Int} {q : ℚ} {s : Tab1D ℚ} {f : List Line} {ps derived : List Prod} (hm : Fission mt) (h3 : Dict.get? ev.sections (3, mt) = some f)
    (hx : XsSection q s f) (hf : fissionFromEndf ev = .ok (ps, derived)) (h6 : Dict.get? ev.sections (6, mt) = none) (h5 : Dict.get? ev.sections (5, mt) = none)
    (h4 : Dict.get? ev.sections (4, mt) = none) (h8 : Dict.get? ev.sections (8, mt) = none) (h12 : Dict.get? ev.sections (12, mt) = none)
    (h13 : Dict.get? ev.sections (13, mt) = none) : rxFromEndf ev mt = .ok ⟨mt, true, q, some s, ps, derived⟩ := by
  have hff : fissionPart ev mt = .ok (ps, derived) := by rw [fissionPart, if_pos ((fission_iff mt).mpr hm), hf]
  have he : emitted ev mt q ps = .ok ps := by
    rw [emitted, if_neg (by simp [has_none h6]), if_neg (by simp [has_none h5, has_none h4])]
  rw [rxFromEndf, crossSection_ok h3 hx]
  simp only [bind, Except.bind, hff, he]
  rw [withStates, if_neg (by simp [has_none h8])]
  simp only
  rw [withPhotons, if_neg (by simp [has_none h12, has_none h13])]

omit [ExpLog ℚ] in
theorem merge_others {mt : Int} : ∀ (ps qs : List Prod), (∀ q ∈ qs, q.particle ≠ c!"neutron") → mergeProducts mt ps qs = .ok (ps ++ qs)
  | ps, [], _ => by rw [mergeProducts.eq_def, List.append_nil]
  | ps, q :: qs, h => by
    rw [mergeProducts.eq_def]
    simp only
    rw [if_neg (fun h' => h q (List.mem_cons_self ..) h'.2), merge_others _ _ fun x hx => h x (List.mem_cons_of_mem _ hx), List.append_assoc]
    rfl

/-- C161: with a section of file 6 the neutron of fission keeps its yield, has the distribution of file 6, and the other products of that file come behind the delayed neutrons. -/
theorem C161_fission6_partial {ev : Ev} {mt lct : Int} {q : ℚ} {s : Tab1D ℚ} {f f6 : List Line} {p n : Prod} {ds derived before after : List Prod} (hm : Fission mt)
    (h3 : Dict.get? ev.sections (3, mt) = some f) (hx : XsSection q s f) (hf : fissionFromEndf ev = .ok (p :: ds, derived)) (h6 : Dict.get? ev.sections (6, mt) = some f6)
    (h : ProductSection (before ++ n :: after) lct f6) (hn : n.particle = c!"neutron") (hb : ∀ x ∈ before, x.particle ≠ c!"neutron") (ha : ∀ x ∈ after, x.particle ≠ c!"neutron")
    (h8 : Dict.get? ev.sections (8, mt) = none) (h12 : Dict.get? ev.sections (12, mt) = none) (h13 : Dict.get? ev.sections (13, mt) = none) :
    rxFromEndf ev mt = .ok ⟨mt, true, q, some s, { p with applicability := n.applicability, dist := n.dist } :: (ds ++ before ++ after), derived⟩ := by
  have hff : fissionPart ev mt = .ok (p :: ds, derived) := by rw [fissionPart, if_pos ((fission_iff mt).mpr hm), hf]
  have hmg : ∀ (bs as : List Prod), (∀ x ∈ bs, x.particle ≠ c!"neutron") → mergeProducts mt (p :: as) (bs ++ n :: after) =
      .ok ({ p with applicability := n.applicability, dist := n.dist } :: (as ++ bs ++ after)) := by
    intro bs
    induction bs with
    | nil =>
      intro as _
      rw [List.nil_append, mergeProducts.eq_def]
      simp only
      rw [if_pos ⟨(fission_iff mt).mpr hm, hn⟩]
      rw [merge_others _ _ ha, List.append_nil]
      rfl
    | cons b bs ih =>
      intro as hbs
      rw [List.cons_append, mergeProducts.eq_def]
      simp only
      rw [if_neg (fun h' => hbs b (List.mem_cons_self ..) h'.2), List.cons_append, ih (as ++ [b]) fun x hx => hbs x (List.mem_cons_of_mem _ hx)]
      simp only [List.append_assoc, List.singleton_append]
  have he : emitted ev mt q (p :: ds) = .ok ({ p with applicability := n.applicability, dist := n.dist } :: (ds ++ before ++ after)) := by
    rw [emitted, if_pos (has_some h6), Ev.get, h6]
    simp only [bind, Except.bind, C157_products_partial h]
    exact hmg before ds hb
  rw [rxFromEndf, crossSection_ok h3 hx]
  simp only [bind, Except.bind, hff, he]
  rw [withStates, if_neg (by simp [has_none h8])]
  simp only
  rw [withPhotons, if_neg (by simp [has_none h12, has_none h13])]

theorem addActivation_com {ev : Ev} {rx r : Rx} (h : addActivation ev rx = .ok r) : r.com = rx.com := by
  rw [addActivation] at h
  simp only [bind, Except.bind, pure, Except.pure] at h
  repeat' split at h
  all_goals first | cases h; rfl | cases h

/-- C161, what does not hold: every reaction is marked as in the center-of-mass system, also if LCT of file 4 says the laboratory system. -/
theorem C161_frame_refuted {ev : Ev} {mt : Int} {r : Rx} (h : rxFromEndf ev mt = .ok r) : r.com = true := by
  rw [rxFromEndf] at h
  simp only [bind, Except.bind] at h
  split at h
  · cases h
  split at h
  · cases h
  split at h
  · cases h
  split at h
  · cases h
  rename_i rx hrx
  have hc : rx.com = true := by
    rw [withStates] at hrx
    split at hrx
    · exact addActivation_com hrx
    · cases hrx; rfl
  rw [withPhotons] at h
  split at h
  · simp only [bind, Except.bind, pure, Except.pure] at h
    split at h
    · cases h
    · cases h; exact hc
  · cases h; exact hc

/-- C161, what does not hold: the yield of a neutron described by files 4 and 5 is one, also for reactions with two neutrons or more as (n,2n), MT 16. -/
theorem C161_multiplicity_refuted {ev : Ev} {q : ℚ} {s : Tab1D ℚ} {f f5 : List Line} {xs : List (Tab1D ℚ × EnDist)} {a : Option Angle} (hmass : 0 < ev.mass)
    (h3 : Dict.get? ev.sections (3, 16) = some f) (hx : XsSection q s f) (h6 : Dict.get? ev.sections (6, 16) = none) (h5 : Dict.get? ev.sections (5, 16) = some f5)
    (h : EnergySection xs f5) (ha : AngleOf ev 16 a) (h8 : Dict.get? ev.sections (8, 16) = none) (h12 : Dict.get? ev.sections (12, 16) = none)
    (h13 : Dict.get? ev.sections (13, 16) = none) :
    ∃ p, rxFromEndf ev 16 = .ok ⟨16, true, q, some s, [p], []⟩ ∧ p.particle = c!"neutron" ∧ p.yield_ = .poly [1] :=
  ⟨_, C161_reaction_partial hmass (by unfold Fission; omega) h3 hx (.parts h6 h5 h ha) h8 h12 h13, rfl, rfl⟩

end ASAPy.EndfRx
