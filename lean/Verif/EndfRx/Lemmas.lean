import Verif.EndfRx.Spec
import Verif.Decay.Props2
import Verif.Res.Props

/-! # Lemmas for C155-C162: the records -/

namespace ASAPy.EndfRx
open ASAPy.Endf
open ASAPy.Res (Reader many many_spec)
open ASAPy.Decay (ListRec Tab1Rec getList_rec getTab1_rec)
open ASAPy.Func (Fn)

theorem toNat_map (l : List (Int × Int)) (t : List Nat) (h : t.map (fun n : Nat => (n : Int)) = l.map (·.2)) : (l.map fun r => r.2.toNat) = t := by
  have h' := congrArg (List.map Int.toNat) h
  simp only [List.map_map] at h'
  have e1 : (Int.toNat ∘ fun n : Nat => (n : Int)) = id := by funext n; simp
  rw [e1, List.map_id] at h'
  exact h'.symm

theorem rdTab_rec {c : Cont} {t : Tab1D ℚ} {ls : List Line} (h : TabRec c t ls) (rest : List Line) :
    rdTab (ls ++ rest) = .ok (((c.c1, c.c2, c.l1, c.l2), t), rest) := by
  obtain ⟨regions, points, h0, hx, hy, hb, hi⟩ := h
  rw [rdTab, getTab1_rec h0]
  simp only [bind, Except.bind, pure, Except.pure]
  rw [toNat_map _ _ hi, ← hx, ← hy, ← hb]

theorem getTab2_rec {c : Cont} {regions : List (Int × Int)} {ls : List Line} (h : Tab2Rec c regions ls) (rest : List Line) :
    getTab2 (ls ++ rest) = .ok (c, regions, rest) := by
  obtain ⟨l, rl, rfl, hc, h1, hr⟩ := h
  exact C56_tab2 c l regions rl rest hc h1 hr

theorem size_nat (n : Nat) : size (n : Int) = .ok n := by
  unfold size
  rw [if_neg (by omega)]
  rfl

/-- A record that is announced is read as announced. -/
theorem announced {α : Type} {rec : α → List Line → Prop} {rd : Reader α} (hrd : ∀ x ls, rec x ls → ∀ rest, rd (ls ++ rest) = .ok (x, rest))
    {c : Cont} {regions : List (Int × Int)} {xs : List α} {ls : List Line} (h : Announced rec c regions xs ls) (rest : List Line) :
    ∃ f, getTab2 (ls ++ rest) = .ok (c, regions, f) ∧ size c.n2 = .ok xs.length ∧ many rd xs.length f = .ok (xs, rest) := by
  obtain ⟨a, bs, rfl, h2, hn, hx⟩ := h
  refine ⟨bs.flatten ++ rest, ?_, ?_, many_spec (hx.imp fun {x b} h => hrd x b h) rest⟩
  · rw [List.append_assoc, getTab2_rec h2]
  · rw [hn, size_nat]

theorem legendre_ok {c : List ℚ} (h : c ≠ []) : legendre c = .ok (.legendre c) := by rw [legendre, if_neg h]

theorem tabular_ok (k : Nat) (x : List ℚ) {p : List ℚ} (h : ∀ v ∈ p, 0 ≤ v) : tabular k x p = .ok ⟨k, x, p⟩ := by
  rw [tabular, if_neg]
  rw [List.any_eq_true]
  rintro ⟨v, hv, hlt⟩
  exact absurd (h v hv) (not_le.mpr (by simpa using hlt))

theorem scheme_ok {k : Nat} (h1 : 1 ≤ k) (h5 : k ≤ 5) : scheme (k : Int) = .ok k := by
  rw [scheme, if_pos (by omega)]
  rfl

theorem rdLegendre_rec (x : ℚ × Mu) (ls : List Line) (h : LegendreAt x ls) (rest : List Line) : rdLegendre (ls ++ rest) = .ok (x, rest) := by
  obtain ⟨c, a, hl, h1, h2⟩ := h
  rw [rdLegendre, getList_rec hl]
  simp only [bind, Except.bind, pure, Except.pure, legendre_ok (List.cons_ne_nil _ _)]
  rw [← h1, ← h2]

theorem rdTabular_rec (x : ℚ × Mu) (ls : List Line) (h : TabularAt x ls) (rest : List Line) : rdTabular (ls ++ rest) = .ok (x, rest) := by
  obtain ⟨c, t, k, ht, hk, h1, h5, hp, he, hm⟩ := h
  have hb : t.breakpoints.length = 1 := by
    obtain ⟨regions, points, -, -, -, hb, hi⟩ := ht
    have := congrArg List.length hi
    rw [hk] at this
    simp only [List.length_map, List.length_cons, List.length_nil] at this
    rw [hb, List.length_map, ← this]
  rw [rdTabular, rdTab_rec ht]
  simp only [bind, Except.bind, pure, Except.pure, hb]
  rw [if_neg (by omega), hk]
  have hi : FromAce.item [k] 0 = .ok k := rfl
  rw [hi]
  simp only [scheme_ok h1 h5, tabular_ok k t.x hp]
  rw [← he, ← hm]

theorem rdAngles_rec {rec : ℚ × Mu → List Line → Prop} {rd : Reader (ℚ × Mu)} (hrd : ∀ x ls, rec x ls → ∀ rest, rd (ls ++ rest) = .ok (x, rest))
    {c : Cont} {regions : List (Int × Int)} {xs : List (ℚ × Mu)} {ls : List Line} (h : Announced rec c regions xs ls) (rest : List Line) :
    rdAngles rd (ls ++ rest) = .ok (xs, rest) := by
  obtain ⟨f, h1, h2, h3⟩ := announced hrd h rest
  rw [rdAngles, h1]
  simp only [bind, Except.bind, h2, h3]

theorem lines_length {α : Type} {st : List α → Line → Prop} {k : Nat} (hk : 0 < k) {vs : List α} {ls : List Line} (h : Lines st k vs ls) :
    ls.length = (vs.length + (k - 1)) / k := by
  induction h with
  | nil =>
    rw [List.length_nil, List.length_nil, Nat.zero_add, Nat.div_eq_of_lt (by omega)]
  | @last vs l h0 h1 _ =>
    have : 0 < vs.length := List.length_pos_of_ne_nil h0
    rw [List.length_singleton]
    symm
    apply Nat.div_eq_of_lt_le <;> omega
  | @more vs ws l ls h1 _ _ _ ih =>
    rw [List.length_cons, ih, List.length_append, h1, Nat.add_assoc, Nat.add_comm k, Nat.add_div_right _ hk]

theorem matrix_drop {lvt nk : Int} {m : List Line} (h : OldMatrix lvt nk m) (rest : List Line) :
    (if lvt > 0 then (m ++ rest).drop ((nk + 5) / 6).toNat else m ++ rest) = rest := by
  obtain ⟨h0, rfl⟩ | ⟨h1, u, hn, hl⟩ := h
  · rw [if_neg (by omega), List.nil_append]
  · rw [if_pos (by omega)]
    have := lines_length (by omega) hl
    have e : ((nk + 5) / 6).toNat = m.length := by rw [this, hn]; omega
    rw [e, List.drop_left]

theorem part_energy {p : Cont} {d : EnDist} {ls : List Line} (h : EnLaw p d ls) (rest : List Line) :
    rdEnergy (p.c1, p.c2, p.l1, p.l2) (ls ++ rest) = .ok (d, rest) := by
  have nb : ∀ {a b : Int}, p.l2 = a → a ≠ b → ¬ p.l2 = b := fun h1 h2 h3 => h2 (h1 ▸ h3)
  cases h with
  | @arbitrary c regions xs ls h hx =>
    obtain ⟨a, bs, rfl, h2, hn, hx⟩ := hx
    rw [rdEnergy, if_pos h, List.append_assoc, getTab2_rec h2]
    simp only [bind, Except.bind, pure, Except.pure, hn, size_nat]
    obtain ⟨cs, hcs⟩ : ∃ cs : List Cont, List.Forall₂ (fun (y : Cont × ℚ × Tab1D ℚ) b => TabRec y.1 y.2.2 b ∧ y.2.1 = y.1.c2) (cs.zip xs) bs ∧ cs.length = xs.length := by
      clear h2 hn h
      induction hx with
      | nil => exact ⟨[], List.Forall₂.nil, rfl⟩
      | @cons x b xs bs h1 _ ih =>
        obtain ⟨c', h1a, h1b⟩ := h1
        obtain ⟨cs, h3, h4⟩ := ih
        exact ⟨c' :: cs, List.Forall₂.cons ⟨h1a, h1b⟩ h3, by rw [List.length_cons, List.length_cons, h4]⟩
    obtain ⟨hcs, hlen⟩ := hcs
    have hm := many_spec (rd := rdTab) (as := (cs.zip xs).map fun y => ((y.1.c1, y.1.c2, y.1.l1, y.1.l2), y.2.2)) (lss := bs)
      (List.forall₂_map_left_iff.mpr (hcs.imp fun {y b} hy rest => rdTab_rec hy.1 rest)) rest
    rw [List.length_map, List.length_zip, hlen, Nat.min_self] at hm
    rw [hm]
    simp only [List.map_map, Function.comp_def]
    have e1 : ((cs.zip xs).map fun y => y.1.c2) = xs.map (·.1) := by
      have : ((cs.zip xs).map fun y => y.1.c2) = (cs.zip xs).map fun y => y.2.1 := by
        apply List.map_congr_left
        intro y hy
        have := (List.forall₂_iff_get.mp hcs).2
        obtain ⟨i, hi, rfl⟩ := List.getElem_of_mem hy
        have h' := (List.forall₂_iff_get.mp hcs).1
        exact (this i hi (by omega)).2.symm
      rw [this]
      conv_rhs => rw [← List.map_snd_zip (l₁ := cs) (l₂ := xs) (by omega), List.map_map]
      rfl
    have e2 : ((cs.zip xs).map fun y => y.2.2) = xs.map (·.2) := by
      conv_rhs => rw [← List.map_snd_zip (l₁ := cs) (l₂ := xs) (by omega), List.map_map]
      rfl
    rw [e1, e2]
  | @general c c' theta g a b h ha hb =>
    rw [rdEnergy, if_neg (nb h (by decide)), if_pos h, List.append_assoc, rdTab_rec ha]
    simp only [bind, Except.bind, pure, Except.pure, rdTab_rec hb]
  | @maxwell c theta a h ha =>
    rw [rdEnergy, if_neg (nb h (by decide)), if_neg (nb h (by decide)), if_pos h, rdTab_rec ha]
    rfl
  | @evaporation c theta a h ha =>
    rw [rdEnergy, if_neg (nb h (by decide)), if_neg (nb h (by decide)), if_neg (nb h (by decide)), if_pos h, rdTab_rec ha]
    rfl
  | @watt c c' t t' a b h ha hb =>
    rw [rdEnergy, if_neg (nb h (by decide)), if_neg (nb h (by decide)), if_neg (nb h (by decide)), if_neg (nb h (by decide)), if_pos h, List.append_assoc, rdTab_rec ha]
    simp only [bind, Except.bind, pure, Except.pure, rdTab_rec hb]
  | @madlandNix c tm a h ha h1 h2 =>
    rw [rdEnergy, if_neg (nb h (by decide)), if_neg (nb h (by decide)), if_neg (nb h (by decide)), if_neg (nb h (by decide)), if_neg (nb h (by decide)), if_pos h, rdTab_rec ha]
    simp only [bind, Except.bind, pure, Except.pure]
    rw [if_neg (by rintro (h' | h') <;> linarith)]

theorem rdPart_rec (x : Tab1D ℚ × EnDist) (ls : List Line) (h : Part x ls) (rest : List Line) :
    rdPart (ls ++ rest) = .ok ((x.1, .uncorrelated none (some x.2)), rest) := by
  obtain ⟨p, a, b, rfl, ha, hb⟩ := h
  rw [rdPart, List.append_assoc, rdTab_rec ha]
  simp only [bind, Except.bind, pure, Except.pure, part_energy hb]

/-- The parts of a section. -/
theorem parts_rec {xs : List (Tab1D ℚ × EnDist)} {bs : List (List Line)} (h : List.Forall₂ Part xs bs) (rest : List Line) :
    many rdPart xs.length (bs.flatten ++ rest) = .ok (xs.map fun x => (x.1, .uncorrelated none (some x.2)), rest) := by
  have := many_spec (rd := rdPart) (as := xs.map fun x => (x.1, Dist.uncorrelated none (some x.2))) (lss := bs)
    (List.forall₂_map_left_iff.mpr (h.imp fun {x b} hx rest => rdPart_rec x b hx rest)) rest
  rwa [List.length_map] at this

end ASAPy.EndfRx
