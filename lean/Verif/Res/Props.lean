import Verif.Res.Spec
import Verif.Decay.Props2
import Mathlib.Tactic.Linarith

/-!
# Properties of resonance parameters (C145-C148)
-/

namespace ASAPy.Res
open ASAPy.Endf ASAPy.Decay

/-! ### Repeated parts -/

theorem many_spec {α : Type} {rd : Reader α} {as : List α} {lss : List (List Line)}
    (h : List.Forall₂ (fun a ls => ∀ rest, rd (ls ++ rest) = .ok (a, rest)) as lss) (rest : List Line) :
    many rd as.length (lss.flatten ++ rest) = .ok (as, rest) := by
  induction h with
  | nil => rfl
  | @cons a ls as lss h1 _ ih =>
    rw [List.length_cons, many, List.flatten_cons, List.append_assoc, h1]
    simp only [bind, Except.bind, ih, pure, Except.pure]

theorem many_of {α : Type} {rd : Reader α} {as : List α} {lss : List (List Line)} {n : Int} (hn : n = as.length)
    (h : List.Forall₂ (fun a ls => ∀ rest, rd (ls ++ rest) = .ok (a, rest)) as lss) (rest : List Line) :
    many rd n.toNat (lss.flatten ++ rest) = .ok (as, rest) := by
  rw [hn]
  exact many_spec h rest

/-- Rows of a list that is cut into pieces of `k` values. -/
theorem rowsFrom_pieces {α : Type} {row : List ℚ → Nat → Except PyErr α} {k : Nat} {xs : List α} {vss : List (List ℚ)}
    (h : List.Forall₂ (fun a vs => vs.length = k ∧ ∀ (pre post : List ℚ) (i : Nat), pre.length = k * i → row (pre ++ vs ++ post) i = .ok a) xs vss)
    (pre post : List ℚ) (i : Nat) (hp : pre.length = k * i) :
    rowsFrom (row (pre ++ vss.flatten ++ post)) i xs.length = .ok xs := by
  induction h generalizing pre i with
  | nil => rfl
  | @cons a vs xs vss h1 _ ih =>
    rw [List.length_cons, rowsFrom]
    have e1 : pre ++ (vs :: vss).flatten ++ post = pre ++ vs ++ (vss.flatten ++ post) := by simp
    have e2 : pre ++ (vs :: vss).flatten ++ post = (pre ++ vs) ++ vss.flatten ++ post := by simp
    have := ih (pre ++ vs) (i + 1) (by rw [List.length_append, hp, h1.1]; ring)
    rw [← e2] at this
    rw [this]
    rw [e1, h1.2 pre _ i hp]
    rfl

theorem flatMap_pieces {α : Type} {row : List ℚ → Nat → Except PyErr α} (k : Nat) {xs : List α} (enc : α → List ℚ)
    (h : ∀ a ∈ xs, (enc a).length = k ∧ ∀ (pre post : List ℚ) (i : Nat), pre.length = k * i → row (pre ++ enc a ++ post) i = .ok a)
    (pre post : List ℚ) (i : Nat) (hp : pre.length = k * i) :
    rowsFrom (row (pre ++ xs.flatMap enc ++ post)) i xs.length = .ok xs := by
  rw [List.flatMap_def]
  refine rowsFrom_pieces (k := k) ?_ pre post i hp
  rw [List.forall₂_map_right_iff, List.forall₂_same]
  exact h

theorem nth_at {pre vs post : List ℚ} {n k : Nat} (hp : pre.length = n) {v : ℚ} (h : vs[k]? = some v) : nth (pre ++ vs ++ post) (n + k) = .ok v := by
  subst hp
  exact nth_mid pre vs post k v h

theorem nth_at0 {pre vs post : List ℚ} {n : Nat} (hp : pre.length = n) {v : ℚ} (h : vs[0]? = some v) : nth (pre ++ vs ++ post) n = .ok v := nth_at (k := 0) hp h

theorem count6_of {α : Type} (xs : List α) (enc : α → List ℚ) (h : ∀ a, (enc a).length = 6) : count6 (xs.flatMap enc) = xs.length := by
  have : (xs.flatMap enc).length = 6 * xs.length := by
    induction xs with
    | nil => rfl
    | cons x xs ih => rw [List.flatMap_cons, List.length_append, ih, h, List.length_cons]; ring
  rw [count6, this]
  omega

theorem readRadius_spec {nro : Int} {ape : Option Radius} {ls : List Line} (h : ApE nro ape ls) (rest : List Line) :
    readRadius nro (ls ++ rest) = .ok (ape, rest) := by
  cases h with
  | none => rfl
  | @table c regions points _ h =>
    unfold readRadius
    rw [if_pos (by decide), getTab1_rec h]
    rfl

/-! ### Breit-Wigner -/

theorem bwRow_spec {l lrx : Int} {r : BwRow} (hl : r.l = l) (hx : (lrx = 0 ∧ r.gx = 0) ∨ (lrx = 1 ∧ r.gt = r.gn + r.gg + r.gf + r.gx))
    (pre post : List ℚ) (i : Nat) (hp : pre.length = 6 * i) :
    bwRow l lrx (pre ++ [r.energy, r.j, r.gt, r.gn, r.gg, r.gf] ++ post) i = .ok r := by
  unfold bwRow
  rw [nth_at0 hp rfl, nth_at hp (k := 1) rfl, nth_at hp (k := 2) rfl, nth_at hp (k := 3) rfl, nth_at hp (k := 4) rfl, nth_at hp (k := 5) rfl]
  simp only [bind, Except.bind, pure, Except.pure]
  congr 1
  obtain ⟨e, l', j, gt, gn, gg, gf, gx⟩ := r
  simp only at hl hx ⊢
  subst hl
  congr 1
  rcases hx with ⟨rfl, h⟩ | ⟨rfl, h⟩
  · simp [h]
  · rw [if_pos (by decide)]
    linarith

theorem bwBlock_spec {nro naps : Int} {ap awri : ℚ} {ape : Option Radius} {b : BwL} {ls : List Line} (h : b.Rec nro naps ap ape awri ls) :
    ∃ c : Cont, c.c1 = awri ∧ c.c2 = b.q ∧ c.l1 = b.l ∧ Radii (.const ap) awri nro naps ape b.channel b.scattering ∧
      ∀ rest, bwBlock (ls ++ rest) = .ok ((c, b.rows), rest) := by
  obtain ⟨c, h1, h2, h3, h4, h5, h6, h7⟩ := h
  refine ⟨c, h2, h3, h4, h7, fun rest => ?_⟩
  unfold bwBlock
  rw [getList_rec h1]
  simp only [bind, Except.bind]
  rw [count6_of _ _ (fun a => rfl)]
  have := flatMap_pieces (row := bwRow c.l1 c.l2) 6 (xs := b.rows) (fun r => [r.energy, r.j, r.gt, r.gn, r.gg, r.gf])
    (fun r hr => ⟨rfl, fun pre post i hp => bwRow_spec ((h6 r hr).trans h4.symm)
      (h5.imp (fun x => ⟨x.1, x.2 r hr⟩) (fun x => ⟨x.1, x.2 r hr⟩)) pre post i hp⟩) [] [] 0 rfl
  rw [List.nil_append, List.append_nil] at this
  rw [this]
  rfl

theorem bwRadii_spec {nro naps : Int} {ap : Radius} {ape : Option Radius} {awri : ℚ} {ch sc : Radius} (h : Radii ap awri nro naps ape ch sc)
    (d : List (Int × Radius) × List (Int × Radius)) (c : Cont) (hc : c.c1 = awri) (h1 : c.l1 ∉ d.1.map (·.1)) (h2 : c.l1 ∉ d.2.map (·.1)) :
    bwRadii nro naps ap ape d c = (d.1 ++ [(c.l1, ch)], d.2 ++ [(c.l1, sc)]) := by
  subst hc
  cases h <;> simp [bwRadii, Decay.set_new _ _ _ h1, Decay.set_new _ _ _ h2]

/-- The radii of all l. -/
theorem fold_radii {β : Type} (f : List (Int × Radius) × List (Int × Radius) → Cont → List (Int × Radius) × List (Int × Radius))
    (l : β → Int) (ch sc : β → Radius) : ∀ (bs : List β) (cs : List Cont) (d : List (Int × Radius) × List (Int × Radius)),
    List.Forall₂ (fun b c => c.l1 = l b ∧ ∀ d : List (Int × Radius) × List (Int × Radius), c.l1 ∉ d.1.map (·.1) → c.l1 ∉ d.2.map (·.1) →
      f d c = (d.1 ++ [(c.l1, ch b)], d.2 ++ [(c.l1, sc b)])) bs cs →
    (bs.map l).Nodup → (∀ b ∈ bs, l b ∉ d.1.map (·.1)) → (∀ b ∈ bs, l b ∉ d.2.map (·.1)) →
    cs.foldl f d = (d.1 ++ bs.map (fun b => (l b, ch b)), d.2 ++ bs.map (fun b => (l b, sc b))) := by
  intro bs cs d h
  induction h generalizing d with
  | nil => intros; simp
  | @cons b c bs cs h1 _ ih =>
    intro hn hd1 hd2
    obtain ⟨e, h1⟩ := h1
    rw [List.map_cons, List.nodup_cons] at hn
    rw [List.foldl_cons, h1 d (by rw [e]; exact hd1 b (by simp)) (by rw [e]; exact hd2 b (by simp)), e, ih _ hn.2]
    · simp
    · intro x hx
      simp only [List.map_append, List.map_cons, List.map_nil, List.mem_append, List.mem_singleton, not_or]
      exact ⟨hd1 x (by simp [hx]), fun hh => hn.1 (by rw [← hh]; exact List.mem_map_of_mem hx)⟩
    · intro x hx
      simp only [List.map_append, List.map_cons, List.map_nil, List.mem_append, List.mem_singleton, not_or]
      exact ⟨hd2 x (by simp [hx]), fun hh => hn.1 (by rw [← hh]; exact List.mem_map_of_mem hx)⟩

theorem fold_q {β : Type} (l : β → Int) (q : β → ℚ) : ∀ (bs : List β) (d : List (Int × ℚ)), (bs.map l).Nodup → (∀ b ∈ bs, l b ∉ d.map (·.1)) →
    bs.foldl (fun d b => Dict.set d (l b) (q b)) d = d ++ bs.map fun b => (l b, q b) := by
  intro bs
  induction bs with
  | nil => intros; simp
  | cons b bs ih =>
    intro d hn hd
    rw [List.map_cons, List.nodup_cons] at hn
    rw [List.foldl_cons, Decay.set_new _ _ _ (hd b (by simp)), ih _ hn.2]
    · simp
    · intro x hx
      simp only [List.map_append, List.map_cons, List.map_nil, List.mem_append, List.mem_singleton, not_or]
      exact ⟨hd x (by simp [hx]), fun hh => hn.1 (by rw [← hh]; exact List.mem_map_of_mem hx)⟩

theorem fold_conts {bs : List BwL} {cs : List Cont} (h : List.Forall₂ (fun (b : BwL) (c : Cont) => c.l1 = b.l ∧ c.c2 = b.q) bs cs) (d : List (Int × ℚ)) :
    cs.foldl (fun q c => Dict.set q c.l1 c.c2) d = bs.foldl (fun q b => Dict.set q b.l b.q) d := by
  induction h generalizing d with
  | nil => rfl
  | cons a _ ih =>
    rw [List.foldl_cons, List.foldl_cons, a.1, a.2]
    exact ih _

/-- Choose the control records of all blocks. -/
theorem choose_conts {β γ : Type} {P : β → Cont → Prop} {rd : Reader (Cont × γ)} {rows : β → γ} {bs : List β} {lss : List (List Line)}
    (h : List.Forall₂ (fun b ls => ∃ c, P b c ∧ ∀ rest, rd (ls ++ rest) = .ok ((c, rows b), rest)) bs lss) :
    ∃ cs : List Cont, List.Forall₂ P bs cs ∧ List.Forall₂ (fun a ls => ∀ rest, rd (ls ++ rest) = .ok (a, rest)) (cs.zip (bs.map rows)) lss := by
  induction h with
  | nil => exact ⟨[], .nil, .nil⟩
  | cons h1 _ ih =>
    obtain ⟨c, hc, hr⟩ := h1
    obtain ⟨cs, h2, h3⟩ := ih
    exact ⟨c :: cs, .cons hc h2, .cons hr h3⟩

/-- C145: a Breit-Wigner range is read as it is given: limits, spin, radii by l, Q-values, and all resonances of all l in order, with the competitive width
where there is one. -/
theorem C145_breit_wigner (multi : Bool) (items : Cont) (r : Bw) (hm : r.multi = multi) (ls rest : List Line) (h : BwRec items r ls) :
    readBw multi items (ls ++ rest) = .ok (.bw r, rest) := by
  obtain ⟨t, ape, l, c, bs, bls, rfl, h1, h2, h3, h4, h5, h6, h7, h8, h9⟩ := h
  have hb : List.Forall₂ (fun (b : BwL) ls => ∃ c' : Cont, (c'.c1 = r.awri ∧ c'.c2 = b.q ∧ c'.l1 = b.l ∧
      Radii (.const c.c2) r.awri items.n1 items.n2 ape b.channel b.scattering) ∧ ∀ rest, bwBlock (ls ++ rest) = .ok ((c', b.rows), rest)) bs bls := by
    refine h6.imp fun b ls hh => ?_
    obtain ⟨c', a1, a2, a3, a4, a5⟩ := bwBlock_spec hh
    exact ⟨c', ⟨a1, a2, a3, a4⟩, a5⟩
  obtain ⟨cs, g1, g2⟩ := choose_conts hb
  have hlen : cs.length = bs.length := g1.length_eq.symm
  unfold readBw
  rw [List.append_assoc, readRadius_spec h1]
  simp only [bind, Except.bind, List.cons_append]
  rw [getCont_line h2]
  simp only
  rw [many_of (n := c.n1) (as := cs.zip (bs.map (·.rows))) (by rw [h3]; simp [hlen]) g2]
  simp only
  have hne : cs ≠ [] := by
    intro hh; rw [hh] at hlen; exact h4 (List.length_eq_zero_iff.mp hlen.symm)
  have hz : cs.zip (bs.map (·.rows)) ≠ [] := by
    cases cs with
    | nil => exact absurd rfl hne
    | cons => cases bs with
      | nil => exact absurd rfl h4
      | cons => simp
  have hfst : (cs.zip (bs.map (·.rows))).map Prod.fst = cs := List.map_fst_zip (by simp [hlen])
  have hsnd : (cs.zip (bs.map (·.rows))).map Prod.snd = bs.map (·.rows) := List.map_snd_zip (by simp [hlen])
  rw [List.getLast?_eq_some_getLast hz]
  simp only [pure, Except.pure]
  have hlast : ((cs.zip (bs.map (·.rows))).getLast hz).1.c1 = r.awri := by
    have hmem : ((cs.zip (bs.map (·.rows))).getLast hz).1 ∈ cs := by
      exact (List.of_mem_zip (List.getLast_mem hz)).1
    obtain ⟨i, hi, he⟩ := List.getElem_of_mem hmem
    have := ((List.forall₂_iff_get.mp g1).2 i (by omega) hi).1
    rw [← he]; exact this
  have hrad := fold_radii (bwRadii items.n1 items.n2 (.const c.c2) ape) (fun b : BwL => b.l) (fun b => b.channel) (fun b => b.scattering) bs cs ([], [])
    (g1.imp fun b c' ⟨a1, a2, a3, a4⟩ => ⟨a3, fun d d1 d2 => bwRadii_spec a4 d c' a1 d1 d2⟩) h5 (by simp) (by simp)
  have hq : (cs.zip (bs.map (·.rows))).foldl (fun q b => Dict.set q b.1.l1 b.1.c2) [] = bs.map fun b => (b.l, b.q) := by
    have e1 : (cs.zip (bs.map (·.rows))).foldl (fun q b => Dict.set q b.1.l1 b.1.c2) [] = cs.foldl (fun q c => Dict.set q c.l1 c.c2) [] := by
      conv_rhs => rw [← hfst, List.foldl_map]
    have e2 : cs.foldl (fun q c => Dict.set q c.l1 c.c2) [] = bs.foldl (fun (q : List (Int × ℚ)) b => Dict.set q b.l b.q) [] := by
      exact fold_conts (g1.imp fun b c a => ⟨a.2.2.1, a.2.1⟩) []
    rw [e1, e2, fold_q (fun b : BwL => b.l) (fun b => b.q) bs [] h5 (by simp)]
    rfl
  have hrows : (cs.zip (bs.map (·.rows))).flatMap (·.2) = bs.flatMap (·.rows) := by
    rw [List.flatMap_def, List.flatMap_def, hsnd]
  rw [hfst, hrad, hq, hrows, hlast]
  obtain ⟨m, base, q, awri, rows⟩ := r
  simp only at h7 h8 h9 hm
  subst h7 h8 h9 hm
  rfl

/-! ### Reich-Moore -/

theorem rmRow_spec {l : Int} {r : RmRow} (hl : r.l = l) (pre post : List ℚ) (i : Nat) (hp : pre.length = 6 * i) :
    rmRow l (pre ++ [r.energy, r.j, r.gn, r.gg, r.gfa, r.gfb] ++ post) i = .ok r := by
  unfold rmRow
  rw [nth_at0 hp rfl, nth_at hp (k := 1) rfl, nth_at hp (k := 2) rfl, nth_at hp (k := 3) rfl, nth_at hp (k := 4) rfl, nth_at hp (k := 5) rfl]
  subst hl
  rfl

theorem rmBlock_spec {nro naps : Int} {ap awri : ℚ} {ape : Option Radius} {b : RmL} {ls : List Line} (h : b.Rec nro naps ap ape awri ls) :
    ∃ c : Cont, (c.c1 = awri ∧ c.l1 = b.l ∧ Radii (apl ap c) awri nro naps ape b.channel b.scattering) ∧
      ∀ rest, rmBlock (ls ++ rest) = .ok ((c, b.rows), rest) := by
  obtain ⟨c, a, h1, h2, h3, h4, h5, h6⟩ := h
  refine ⟨c, ⟨h2, h3, ?_⟩, fun rest => ?_⟩
  · unfold apl
    rcases h5 with ⟨e, rfl⟩ | ⟨e, rfl⟩
    · rw [if_neg (by simpa using e)]; exact h6
    · rw [if_pos e]; exact h6
  unfold rmBlock
  rw [getList_rec h1]
  simp only [bind, Except.bind]
  rw [count6_of _ _ (fun a => rfl)]
  have := flatMap_pieces (row := rmRow c.l1) 6 (xs := b.rows) (fun r => [r.energy, r.j, r.gn, r.gg, r.gfa, r.gfb])
    (fun r hr => ⟨rfl, fun pre post i hp => rmRow_spec ((h4 r hr).trans h3.symm) pre post i hp⟩) [] [] 0 rfl
  rw [List.nil_append, List.append_nil] at this
  rw [this]
  rfl

theorem rmRadii_spec {nro naps : Int} {ap : ℚ} {ape : Option Radius} {awri : ℚ} {ch sc : Radius} (c : Cont) (h : Radii (apl ap c) awri nro naps ape ch sc)
    (d : List (Int × Radius) × List (Int × Radius)) (hc : c.c1 = awri) (h1 : c.l1 ∉ d.1.map (·.1)) (h2 : c.l1 ∉ d.2.map (·.1)) :
    rmRadii nro naps ap ape d c = (d.1 ++ [(c.l1, ch)], d.2 ++ [(c.l1, sc)]) := by
  subst hc
  cases h <;> simp [rmRadii, Decay.set_new _ _ _ h1, Decay.set_new _ _ _ h2]

/-- C145: a Reich-Moore range is read as it is given, with the radius of each l where it has its own. -/
theorem C145_reich_moore (items : Cont) (r : Rm) (ls rest : List Line) (h : RmRec items r ls) : readRm items (ls ++ rest) = .ok (.rm r, rest) := by
  obtain ⟨t, ape, l, c, bs, bls, rfl, h1, h2, h3, h4, h5, h6, h7, h8, h9, h10⟩ := h
  obtain ⟨cs, g1, g2⟩ := choose_conts (h6.imp fun b ls hh => rmBlock_spec hh)
  have hlen : cs.length = bs.length := g1.length_eq.symm
  unfold readRm
  rw [List.append_assoc, readRadius_spec h1]
  simp only [bind, Except.bind, List.cons_append]
  rw [getCont_line h2]
  simp only
  rw [many_of (n := c.n1) (as := cs.zip (bs.map (·.rows))) (by rw [h3]; simp [hlen]) g2]
  simp only
  have hne : cs ≠ [] := by
    intro hh; rw [hh] at hlen; exact h4 (List.length_eq_zero_iff.mp hlen.symm)
  have hz : cs.zip (bs.map (·.rows)) ≠ [] := by
    cases cs with
    | nil => exact absurd rfl hne
    | cons => cases bs with
      | nil => exact absurd rfl h4
      | cons => simp
  have hfst : (cs.zip (bs.map (·.rows))).map Prod.fst = cs := List.map_fst_zip (by simp [hlen])
  have hsnd : (cs.zip (bs.map (·.rows))).map Prod.snd = bs.map (·.rows) := List.map_snd_zip (by simp [hlen])
  rw [List.getLast?_eq_some_getLast hz]
  simp only [pure, Except.pure]
  have hlast : ((cs.zip (bs.map (·.rows))).getLast hz).1.c1 = r.awri := by
    have hmem : ((cs.zip (bs.map (·.rows))).getLast hz).1 ∈ cs := by
      exact (List.of_mem_zip (List.getLast_mem hz)).1
    obtain ⟨i, hi, he⟩ := List.getElem_of_mem hmem
    have := ((List.forall₂_iff_get.mp g1).2 i (by omega) hi).1
    rw [← he]; exact this
  have hrad := fold_radii (rmRadii items.n1 items.n2 c.c2 ape) (fun b : RmL => b.l) (fun b => b.channel) (fun b => b.scattering) bs cs ([], [])
    (g1.imp fun b c' ⟨a1, a3, a4⟩ => ⟨a3, fun d d1 d2 => rmRadii_spec c' a4 d a1 d1 d2⟩) h5 (by simp) (by simp)
  have hrows : (cs.zip (bs.map (·.rows))).flatMap (·.2) = bs.flatMap (·.rows) := by
    rw [List.flatMap_def, List.flatMap_def, hsnd]
  rw [hfst, hrad, hrows, hlast]
  obtain ⟨base, rows, angle, conv, awri⟩ := r
  simp only at h7 h8 h9 h10
  subst h7 h8 h10
  have : decide (c.l2 = 1) = angle := by
    rw [Bool.eq_iff_iff, decide_eq_true_iff, h9]
  rw [this]
  rfl

end ASAPy.Res
