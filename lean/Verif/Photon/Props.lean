import Verif.Photon.Lemmas
import Verif.EndfRx.Example

/-!
# C172 and C173: atomic relaxation
-/

namespace ASAPy.Photon
open ASAPy.Endf
open ASAPy.Decay (ListRec getList_rec trunc_nat listRec_of)
open ASAPy.FromAce

/-! ### C172: from ENDF -/

/-- What is read before the constructor looks at it. -/
theorem relaxFromEndf_read {sections : List ((Int × Int) × List Line)} {f : List Line} {ss : List (Shell ℚ)} (hf : Dict.get? sections (28, 533) = some f) (h : RelaxSection ss f)
    (hs : ∀ s ∈ ss, s.Known) (hd : (ss.map (·.d)).Nodup) : relaxFromEndf sections = mkRelax (relaxOf ss) := by
  obtain ⟨h, l, bs, rest, rfl, hh, hn, hb⟩ := h
  unfold relaxFromEndf
  rw [hf]
  simp only [getHead_line hh, bind, Except.bind, hn, Int.toNat_natCast]
  have := endfShells_ok ss [] bs rest hs (names_nodup_of hs hd) hb
  have e : relaxOf ([] : List (Shell ℚ)) = ⟨[], [], []⟩ := rfl
  rw [e] at this
  rw [this]
  rfl

/-- C172: every subshell of section (28, 533) is kept under its name, with its energy, electrons and transitions in order. -/
theorem C172_section {sections : List ((Int × Int) × List Line)} {f : List Line} {ss : List (Shell ℚ)} (hf : Dict.get? sections (28, 533) = some f) (h : RelaxSection ss f)
    (hs : ∀ s ∈ ss, s.Ok) (hd : (ss.map (·.d)).Nodup) : relaxFromEndf sections = .ok (relaxOf ss) := by
  rw [relaxFromEndf_read hf h (fun s hm => (hs s hm).1) hd, mkRelax_ok hs]

/-- C172: without this section the evaluation is refused. -/
theorem C172_none {sections : List ((Int × Int) × List Line)} (hf : Dict.get? sections (28, 533) = none) : relaxFromEndf sections = .error .exception := by
  unfold relaxFromEndf
  rw [hf]

/-- C172: data of no subshell (number 0), a negative energy or a negative number of electrons are refused. -/
theorem C172_refused {sections : List ((Int × Int) × List Line)} {f : List Line} {ss : List (Shell ℚ)} {s : Shell ℚ} (hf : Dict.get? sections (28, 533) = some f) (h : RelaxSection ss f)
    (hs : ∀ s ∈ ss, s.Known) (hd : (ss.map (·.d)).Nodup) (hm : s ∈ ss) (hbad : s.d = 0 ∨ s.energy < 0 ∨ s.electrons < 0) : relaxFromEndf sections = .error .valueError := by
  rw [relaxFromEndf_read hf h hs hd, mkRelax_bad hm hbad]

theorem endfShells_high : ∀ (u : List (Shell ℚ)) (r : Relax ℚ) (s : Shell ℚ) (n : Nat) (bs : List (List Line)) (ls rest : List Line), (∀ s ∈ u, s.Known) → List.Forall₂ ShellRec u bs →
    ShellRec s ls → 40 ≤ s.d → endfShells (u.length + (n + 1)) r (bs.flatten ++ (ls ++ rest)) = .error .indexError := by
  intro u
  induction u with
  | nil =>
    intro r s n bs ls rest _ hb hl hd
    cases hb
    obtain ⟨c, z1, z2, z3, z4, zs, hc1, hc2, hz, hl⟩ := hl
    simp only [List.length_nil, Nat.zero_add, List.flatten_nil, List.nil_append]
    unfold endfShells endfShell
    rw [getList_rec hl]
    have : subshell (s.d : Int) = .error .indexError := by
      unfold subshell item pyGet
      rw [if_neg (by omega), if_pos (by omega), List.getElem?_eq_none (by rw [subshells_eq, names_length]; omega)]
      rfl
    simp only [bind, Except.bind, hc1, trunc_nat, this]
  | cons t u ih =>
    intro r s n bs ls rest hu hb hl hd
    cases hb with
    | cons h1 h2 =>
      rename_i b bs
      have e : (t :: u).length + (n + 1) = (u.length + (n + 1)) + 1 := by simp; omega
      rw [e]
      unfold endfShells
      rw [List.flatten_cons, List.append_assoc]
      have ht := hu t (by simp)
      obtain ⟨c, z1, z2, z3, z4, zs, hc1, hc2, hz, hl1⟩ := h1
      have : ∃ r', endfShell r (b ++ (bs.flatten ++ (ls ++ rest))) = .ok (r', bs.flatten ++ (ls ++ rest)) := by
        unfold endfShell
        rw [getList_rec hl1]
        simp only [bind, Except.bind, pure, Except.pure, hc1, trunc_nat, subshell_nat _ ht.1]
        have h0 := item_nat (t.energy :: t.electrons :: z1 :: z2 :: z3 :: z4 :: (t.jumps.zip zs).flatMap fun t => [(t.1.j : ℚ), t.1.k, t.1.energy, t.1.probability, t.2.1, t.2.2]) 0 _ rfl
        have h1 := item_nat (t.energy :: t.electrons :: z1 :: z2 :: z3 :: z4 :: (t.jumps.zip zs).flatMap fun t => [(t.1.j : ℚ), t.1.k, t.1.energy, t.1.probability, t.2.1, t.2.2]) 1 _ rfl
        push_cast at h0 h1
        rw [h0, h1]
        simp only
        split_ifs
        · rw [hc2, Int.toNat_natCast,
            mapM_range_ok _ t.jumps (fun t => ⟨shellName t.j, shellName t.k, t.energy, t.probability⟩) (fun j x hx => endfTrans_ok t _ _ _ _ _ _ zs hz ht.2 j x hx)]
          exact ⟨_, rfl⟩
        · exact ⟨_, rfl⟩
      obtain ⟨r', hr'⟩ := this
      rw [hr']
      simp only [bind, Except.bind]
      exact ih r' s n bs ls rest (fun x hx => hu x (by simp [hx])) h2 hl hd

/-- C172: a number of a subshell behind Q3 (39) is refused. -/
theorem C172_high {sections : List ((Int × Int) × List Line)} {f : List Line} {u v : List (Shell ℚ)} {s : Shell ℚ} (hf : Dict.get? sections (28, 533) = some f)
    (h : RelaxSection (u ++ s :: v) f) (hu : ∀ t ∈ u, t.Known) (hs : 40 ≤ s.d) : relaxFromEndf sections = .error .indexError := by
  obtain ⟨h, l, bs, rest, rfl, hh, hn, hb⟩ := h
  unfold relaxFromEndf
  rw [hf]
  simp only [getHead_line hh, bind, Except.bind, hn, Int.toNat_natCast]
  obtain ⟨b1, b2, h1, h2, rfl⟩ : ∃ b1 b2, List.Forall₂ ShellRec u b1 ∧ List.Forall₂ ShellRec (s :: v) b2 ∧ bs = b1 ++ b2 := by
    have h1 := List.forall₂_take u.length hb
    have h2 := List.forall₂_drop u.length hb
    rw [List.take_left'  rfl] at h1
    rw [List.drop_left' rfl] at h2
    exact ⟨_, _, h1, h2, (List.take_append_drop _ _).symm⟩
  cases h2 with
  | cons h3 h4 =>
    rename_i b bs
    have := endfShells_high u ⟨[], [], []⟩ s v.length b1 b (bs.flatten ++ rest) hu h1 h3 hs
    have e : (u ++ s :: v).length = u.length + (v.length + 1) := by simp
    rw [e]
    simp only [List.flatten_append, List.flatten_cons, List.append_assoc] at this ⊢
    rw [this]

/-! Oxygen, two subshells; the K shell is filled from L1 or L2, with a photon or an electron of L1. -/

def exRHead : Line := c!" 8.000000+3 1.586000+1          0          0          2          0 80028533    1\n"
def exRK : List Line := [c!" 1.000000+0 0.000000+0          0          0         18          2 80028533    2\n",
  c!" 5.437500+2 2.000000+0 0.000000+0 0.000000+0 0.000000+0 0.000000+0 80028533    3\n",
  c!" 3.000000+0 0.000000+0 5.235000+2 1.250000-1 0.000000+0 0.000000+0 80028533    4\n",
  c!" 2.000000+0 4.000000+0 4.785000+2 8.750000-1 0.000000+0 0.000000+0 80028533    5\n"]
def exRL : List Line := [c!" 2.000000+0 0.000000+0          0          0          6          0 80028533    6\n",
  c!" 2.850000+1 2.000000+0 0.000000+0 0.000000+0 0.000000+0 0.000000+0 80028533    7\n"]
def exRLneg : List Line := [c!"-1.000000+0 0.000000+0          0          0          6          0 80028533    6\n",
  c!" 2.850000+1 2.000000+0 0.000000+0 0.000000+0 0.000000+0 0.000000+0 80028533    7\n"]

def exJumps : List (Jump ℚ) := [⟨3, 0, 1047 / 2, 1 / 8⟩, ⟨2, 4, 957 / 2, 7 / 8⟩]
def exK : Shell ℚ := ⟨1, 2175 / 4, 2, exJumps⟩
def exL1 : Shell ℚ := ⟨2, 57 / 2, 2, []⟩

theorem exRelaxSection : RelaxSection [exK, exL1] (exRHead :: (exRK ++ exRL)) := by
  refine ⟨⟨8000, 15.86, 0, 0, 2, 0⟩, exRHead, [exRK, exRL], [], by simp, headLine_of (by decide +kernel) (by decide), rfl, .cons ?_ (.cons ?_ .nil)⟩
  · exact ⟨⟨1, 0, 0, 0, 18, 2⟩, 0, 0, 0, 0, [(0, 0), (0, 0)], by norm_num [exK], rfl, rfl, listRec_of (by decide +kernel)⟩
  · exact ⟨⟨2, 0, 0, 0, 6, 0⟩, 0, 0, 0, 0, [], by norm_num [exL1], rfl, rfl, listRec_of (by decide +kernel)⟩

theorem exShells_ok : ∀ s ∈ [exK, exL1], s.Ok := by
  intro s hs
  simp only [List.mem_cons, List.not_mem_nil, or_false] at hs
  rcases hs with rfl | rfl
  · refine ⟨⟨by decide, ?_⟩, by decide, by norm_num [exK], by norm_num [exK]⟩
    intro t ht
    simp only [exK, exJumps, List.mem_cons, List.not_mem_nil, or_false] at ht
    rcases ht with rfl | rfl <;> decide
  · exact ⟨⟨by decide, by simp [exL1]⟩, by decide, by norm_num [exL1], by norm_num [exL1]⟩

example : relaxFromEndf [((28, 533), exRHead :: (exRK ++ exRL))] =
    .ok ⟨[(some c!"K", 2175 / 4), (some c!"L1", 57 / 2)], [(some c!"K", 2), (some c!"L1", 2)], [(some c!"K", [⟨some c!"L2", none, 1047 / 2, 1 / 8⟩, ⟨some c!"L1", some c!"L3", 957 / 2, 7 / 8⟩])]⟩ :=
  C172_section (ss := [exK, exL1]) rfl exRelaxSection exShells_ok (by decide)

/-- C172, what does not hold: a negative number of a subshell is not refused; -1 is taken for Q2, counted from the end of the names. -/
theorem C172_negative_refuted : ∃ (c : Cont) (vs : List ℚ) (l : Line) (ls : List Line) (r : Relax ℚ), ListRec c vs ls ∧ c.c1 = -1 ∧ HeadLine ⟨8000, 15.86, 0, 0, 1, 0⟩ l ∧
    relaxFromEndf [((28, 533), l :: ls)] = .ok r ∧ r.binding = [(some c!"Q2", 57 / 2)] := by
  have hl : ListRec ⟨-1, 0, 0, 0, 6, 0⟩ [57 / 2, 2, 0, 0, 0, 0] exRLneg := listRec_of (by decide +kernel)
  have hh : HeadLine ⟨8000, 15.86, 0, 0, 1, 0⟩ c!" 8.000000+3 1.586000+1          0          0          1          0 80028533    1\n" := headLine_of (by decide +kernel) (by decide)
  refine ⟨_, _, _, _, ⟨[(some c!"Q2", 57 / 2)], [(some c!"Q2", 2)], []⟩, hl, rfl, hh, ?_, rfl⟩
  unfold relaxFromEndf
  simp only [Dict.get?, if_true, getHead_line hh, bind, Except.bind]
  have := getList_rec hl []
  rw [List.append_nil] at this
  simp only [Int.toNat_one, endfShells, endfShell, bind, Except.bind, this]
  decide +kernel

/-! ### C173: from ACE -/

variable {K : Type} [Field K] [LinearOrder K] [FloorRing K] [IsStrictOrderedRing K]

theorem relaxFromAce_read {a : Arrays K} {ss : List (Shell K)} (h : HoldsRelax a ss) (hs : ∀ s ∈ ss, s.Known) (hd : (ss.map (·.d)).Nodup) :
    relaxFromAce a = mkRelax (relaxOf ss) := by
  obtain ⟨hn, ⟨p1, j1, a1⟩, ⟨p2, j2, a2⟩, ⟨p3, j3, a3⟩, ⟨p4, j4, a4⟩, ⟨p5, j5, a5⟩⟩ := h
  have hn' := item_nat _ _ _ hn
  have j1' := item_nat _ _ _ j1
  have j2' := item_nat _ _ _ j2
  have j3' := item_nat _ _ _ j3
  have j4' := item_nat _ _ _ j4
  have j5' := item_nat _ _ _ j5
  push_cast at hn' j1' j2' j3' j4' j5'
  have hm : (ss.map fun s => (s.d : K)).mapM (fun v => subshell (pyTrunc v)) = .ok (ss.map fun s => shellName s.d) :=
    mapM_ok' _ ss _ _ fun s hm => by rw [pyTrunc_nat, subshell_nat _ (hs s hm).1]
  have hz : ∀ g : Shell K → K, (ss.map fun s => shellName s.d).zip (ss.map g) = ss.map fun s => (shellName s.d, g s) := by
    intro g
    rw [List.zip_map']
  have hnd := names_nodup_of hs hd
  have hel := fold_set (fun v : K => v) (ss.map fun s => (shellName s.d, s.electrons)) [] (by simpa [Function.comp_def] using hnd)
  have hbi := fold_set (fun v : K => v * 1000000) (ss.map fun s => (shellName s.d, s.energy / 1000000)) [] (by simpa [Function.comp_def] using hnd)
  have htr := aceTransitions_ok a p4 ss [] p5 hs (by simpa using hnd) (by simpa using a4) a5
  unfold relaxFromAce
  simp only [hn', j1', j2', j3', j5', bind, Except.bind, pure, Except.pure]
  rw [slice_at a1 _ _ rfl (by simp), hm]
  simp only
  rw [slice_at a2 _ _ rfl (by simp), slice_at a3 _ _ rfl (by simp), hz, hz, hel, hbi]
  have he : ∀ x : K, x / 1000000 * 1000000 = x := by
    intro x
    have : (1000000 : K) ≠ 0 := by norm_num
    field_simp
  have hbind : ([] : List (Option Line × K)) ++ (ss.map fun s => (shellName s.d, s.energy / 1000000)).map (fun p => (p.1, p.2 * 1000000)) = (relaxOf ss).binding := by
    simp [relaxOf, he]
  have helec : ([] : List (Option Line × K)) ++ (ss.map fun s => (shellName s.d, s.electrons)).map (fun p => (p.1, p.2)) = (relaxOf ss).electrons := by
    simp [relaxOf]
  rw [hbind, helec]
  by_cases hss : ss = []
  · subst hss
    simp only [List.map_nil, if_true, aceTransitions]
    rfl
  · rw [if_neg (by simpa using hss), j4']
    simp only
    simp only [List.length_nil, List.nil_append] at htr
    have e : (relaxOf ([] : List (Shell K))).transitions = [] := rfl
    rw [e] at htr
    rw [htr]

/-- C173: every subshell of an ACE table is kept under its name, energies in eV and each transition with its own probability. -/
theorem C173_table {a : Arrays K} {ss : List (Shell K)} (h : HoldsRelax a ss) (hs : ∀ s ∈ ss, s.Ok) (hd : (ss.map (·.d)).Nodup) : relaxFromAce a = .ok (relaxOf ss) := by
  rw [relaxFromAce_read h (fun s hm => (hs s hm).1) hd, mkRelax_ok hs]

/-- C173: data of no subshell, a negative energy or a negative number of electrons are refused. -/
theorem C173_refused {a : Arrays K} {ss : List (Shell K)} {s : Shell K} (h : HoldsRelax a ss) (hs : ∀ s ∈ ss, s.Known) (hd : (ss.map (·.d)).Nodup) (hm : s ∈ ss)
    (hbad : s.d = 0 ∨ s.energy < 0 ∨ s.electrons < 0) : relaxFromAce a = .error .valueError := by
  rw [relaxFromAce_read h hs hd, mkRelax_bad hm hbad]

/-- C173: an evaluation and an ACE table of the same subshells give the same data. -/
theorem C173_agree {a : Arrays ℚ} {sections : List ((Int × Int) × List Line)} {f : List Line} {ss : List (Shell ℚ)} (ha : HoldsRelax a ss)
    (hf : Dict.get? sections (28, 533) = some f) (h : RelaxSection ss f) (hs : ∀ s ∈ ss, s.Known) (hd : (ss.map (·.d)).Nodup) : relaxFromAce a = relaxFromEndf sections := by
  rw [relaxFromAce_read ha hs hd, relaxFromEndf_read hf h hs hd]

def exRArrays : Arrays ℚ :=
  ⟨[0, 0, 0, 0, 0, 0, 0, 2], [0, 0, 0, 0, 0, 0, 0, 0, 0, 0, 0, 1, 3, 5, 0, 7, 0, 0, 9],
    [0, 1, 2, 2, 2, 2175 / 4000000, 57 / 2000000, 2, 0, 3, 0, 1047 / 2000000, 1 / 8, 2, 4, 957 / 2000000, 1]⟩

/-- Numbers stand at a position if they are what is cut out there. -/
theorem atL_of {α : Type} {l vs : List α} {p : Nat} (h : (l.drop p).take vs.length = vs) : AtL l p vs := by
  intro k v hk
  have hlt : k < vs.length := by
    by_contra hc
    rw [List.getElem?_eq_none (by omega)] at hk
    cases hk
  rw [← h, List.getElem?_take_of_lt hlt, List.getElem?_drop] at hk
  exact hk

theorem exRArrays_ok : HoldsRelax exRArrays [exK, exL1] := by
  refine ⟨rfl, ⟨1, rfl, atL_of ?_⟩, ⟨3, rfl, atL_of ?_⟩, ⟨5, rfl, atL_of ?_⟩, ⟨7, rfl, atL_of ?_⟩, ⟨9, rfl, atL_of ?_⟩⟩ <;> decide +kernel

example : relaxFromAce exRArrays =
    .ok ⟨[(some c!"K", 2175 / 4), (some c!"L1", 57 / 2)], [(some c!"K", 2), (some c!"L1", 2)], [(some c!"K", [⟨some c!"L2", none, 1047 / 2, 1 / 8⟩, ⟨some c!"L1", some c!"L3", 957 / 2, 7 / 8⟩])]⟩ :=
  C173_table exRArrays_ok exShells_ok (by decide)

end ASAPy.Photon
