import Verif.Dists.Lemmas

/-! # C108: angular distributions -/

set_option linter.unusedSimpArgs false
set_option linter.unusedSectionVars false

namespace ASAPy.Dists
open ASAPy.FromAce

section
variable {K : Type} [Field K] [LinearOrder K] [FloorRing K] [IsStrictOrderedRing K]

theorem diff_get : ∀ (l : List K) (k : Nat), (diff l)[k]? = (l[k]?).bind fun x0 => (l[k + 1]?).map fun x1 => x1 - x0
  | [], k => by simp [diff]
  | [a], k => by cases k <;> simp [diff]
  | a :: b :: l, 0 => by simp [diff]
  | a :: b :: l, k + 1 => by
    simp only [diff, List.getElem?_cons_succ]
    rw [diff_get (b :: l) k]
    simp

theorem diff_length : ∀ (l : List K), (diff l).length = l.length - 1
  | [] => rfl
  | [_] => rfl
  | a :: b :: l => by simp [diff, diff_length (b :: l)]

theorem muTable_at {a : Arrays K} {p law : Nat} {x d c : List K} (h : TableAt a.xss p law x d c) (q : Int) (hq : q = p) : muTable a q = .ok (.tabular law x d c) := by
  subst hq
  obtain ⟨l1, l5, hd, hc, hnn, hat⟩ := h
  have h0 := at_nat hat 0 (n := law) rfl p (by simp)
  have h1 := at_nat hat 1 (n := x.length) rfl ((p : Int) + 1) (by simp)
  rw [List.append_assoc, List.append_assoc] at hat
  have hat2 := (at_append hat).2
  have hdata : slice a.xss ((p : Int) + 2) ((p : Int) + 2 + 3 * (x.length : Int)) = x ++ (d ++ c) :=
    slice_at hat2 _ _ (by simp) (by simp only [List.length_append, hd, hc]; push_cast; ring)
  have hs := at_self (x ++ (d ++ c))
  obtain ⟨hX, hs⟩ := at_append hs
  obtain ⟨hD, hC⟩ := at_append hs
  unfold muTable
  simp only [bind, Except.bind, h0, h1, hdata]
  have rx : slice (x ++ (d ++ c)) 0 (x.length : Int) = x := slice_at hX _ _ rfl (by ring)
  have rd : slice (x ++ (d ++ c)) (x.length : Int) (2 * (x.length : Int)) = d := slice_at hD _ _ (by simp) (by rw [hd]; ring)
  have rc : slice (x ++ (d ++ c)) (2 * (x.length : Int)) (3 * (x.length : Int)) = c := slice_at hC _ _ (by rw [hd]; push_cast; ring) (by rw [hc]; ring)
  rw [rx, rd, rc, if_neg, if_neg, if_neg]
  · rfl
  · intro hcon
    obtain ⟨v, hv, hlt⟩ := List.any_eq_true.mp hcon
    exact absurd (hnn v hv) (not_le.mpr (by simpa using hlt))
  · push Not; omega
  · simp only [List.length_append, hd, hc]; push_cast; intro hcon; apply hcon; ring

theorem equiprobable_means {limits : List K} (hl : limits.length = 33) (hinc : limits.Pairwise (· < ·)) (loc : Nat) :
    ∃ m, equiprobable limits = .ok m ∧ (Cosines.bins loc limits).Means m := by
  refine ⟨_, by rw [equiprobable, if_neg (by simpa using hl)], _, _, rfl, ?_, ?_, ?_, ?_⟩
  · simp [diff_length, hl]
  · simp
  · intro k x0 x1 v h0 h1 hv
    have hk : k + 1 < 33 := by rw [← hl]; exact (List.getElem?_eq_some_iff.mp h1).1
    rw [List.getElem?_append_left (by simp [diff_length, hl]; omega), List.getElem?_map, diff_get, h0, h1] at hv
    simp only [Option.bind_some, Option.map_some, Option.some.injEq] at hv
    subst hv
    have hlt : x0 < x1 := by
      have := List.pairwise_iff_getElem.mp hinc k (k + 1) (by omega) (by omega) (by omega)
      rwa [(List.getElem?_eq_some_iff.mp h0).2, (List.getElem?_eq_some_iff.mp h1).2] at this
    have : x1 - x0 ≠ 0 := sub_ne_zero.mpr (ne_of_gt hlt)
    field_simp
  · intro k v hv
    simp only [List.getElem?_map, Option.map_eq_some_iff, List.getElem?_eq_some_iff, List.getElem_range] at hv
    obtain ⟨j, ⟨-, rfl⟩, rfl⟩ := hv
    ring

theorem muAt_means {a : Arrays K} {block : Nat} {cs : Cosines K} (h : cs.In a.xss block) : ∃ m, muAt a block (pyTrunc cs.locator) = .ok m ∧ cs.Means m := by
  cases cs with
  | isotropic => exact ⟨.uniform, by simp [Cosines.locator, muAt, pyTrunc], rfl⟩
  | bins loc limits =>
    obtain ⟨h0, hl, hinc, hat⟩ := h
    obtain ⟨m, hm, hM⟩ := equiprobable_means hl hinc loc
    refine ⟨m, ?_, hM⟩
    simp only [Cosines.locator, pyTrunc_nat, muAt]
    rw [if_pos (by omega), Nat.abs_cast, slice_at hat _ _ (by omega) (by rw [hl]; rfl), hm]
  | table loc law x p c =>
    obtain ⟨h0, hat⟩ := h
    refine ⟨_, ?_, rfl⟩
    have : pyTrunc (-(loc : K)) = -(loc : Int) := by
      have := pyTrunc_int (K := K) (-(loc : Int))
      push_cast at this
      exact this
    simp only [Cosines.locator, this, muAt]
    rw [if_neg (by omega), if_pos (by omega), abs_neg, Nat.abs_cast]
    exact muTable_at hat _ (by omega)

theorem mapM_means {α β : Type} {f : α → Except PyErr β} {R : α → β → Prop} : ∀ (l : List α), (∀ v ∈ l, ∃ m, f v = .ok m ∧ R v m) → ∃ ms, l.mapM f = .ok ms ∧ List.Forall₂ R l ms
  | [], _ => ⟨[], by simp [pure, Except.pure], .nil⟩
  | v :: l, h => by
    obtain ⟨m, hm, hR⟩ := h v (by simp)
    obtain ⟨ms, hms, hF⟩ := mapM_means l fun w hw => h w (by simp [hw])
    exact ⟨m :: ms, by simp [List.mapM_cons, hm, hms, bind, Except.bind, pure, Except.pure], .cons hR hF⟩

/-- **C108.** An angular distribution of the table is read for every incident energy (in eV), whatever forms its parts have: isotropic, 32 bins with the probability 1/32 each, or a table of
densities, with the interpolation and the numbers of the file. -/
theorem C108_angles {a : Arrays K} {block start : Nat} (hs : 0 < start) {energies : List K} {cs : List (Cosines K)} (hlen : cs.length = energies.length)
    (hin : ∀ c ∈ cs, c.In a.xss block) (h : AtL a.xss (block + start - 1) ([(energies.length : K)] ++ energies ++ cs.map Cosines.locator)) :
    ∃ ang, angleDist a block start = .ok ang ∧ ang.energy = energies.map (1000000 * ·) ∧ List.Forall₂ Cosines.Means cs ang.mu := by
  have h0 := at_nat h 0 (n := energies.length) rfl ((block : Int) + start - 1) (by omega)
  rw [List.append_assoc] at h
  have h1 := (at_append h).2
  obtain ⟨hE, hL⟩ := at_append h1
  have rE : slice a.xss ((block : Int) + start - 1 + 1) ((block : Int) + start - 1 + 1 + (energies.length : Int)) = energies := slice_at hE _ _ (by simp; omega) rfl
  have rL : slice a.xss ((block : Int) + start - 1 + 1 + (energies.length : Int)) ((block : Int) + start - 1 + 1 + (energies.length : Int) + (energies.length : Int)) =
      cs.map Cosines.locator := slice_at hL _ _ (by simp; omega) (by simp [hlen])
  obtain ⟨ms, hms, hF⟩ := mapM_means (f := fun c : Cosines K => muAt a block (pyTrunc c.locator)) cs fun c hc => muAt_means (hin c hc)
  refine ⟨⟨energies.map (1000000 * ·), ms⟩, ?_, rfl, hF⟩
  unfold angleDist
  simp only [bind, Except.bind, h0, rE, rL]
  have : ((cs.map Cosines.locator).map pyTrunc).mapM (muAt a (block : Int)) = .ok ms := by
    rw [← hms]
    clear hms hF rL hL h1 h hlen hin
    induction cs with
    | nil => rfl
    | cons c cs ih => simp only [List.map_cons, List.mapM_cons, ih]
  rw [this]
  simp only [List.length_map, hlen, lt_irrefl, if_false, pure, Except.pure, Except.ok.injEq, Angle.mk.injEq, and_true]
  exact List.map_congr_left fun v _ => mul_comm _ _

/-- **C108.** A density of cosines that is negative is refused. -/
theorem C108_negative {a : Arrays K} {block loc n law : Nat} (hl : 0 < loc) {x d c : List K} (hx : x.length = n) (hd : d.length = n) (hc : c.length = n) (hneg : ∃ v ∈ d, v < 0)
    (hlaw : 1 ≤ law ∧ law ≤ 5) (h : AtL a.xss (block + loc - 1) ([(law : K), (n : K)] ++ x ++ d ++ c)) : muAt a block (-(loc : Int)) = .error .valueError := by
  have h0 := at_nat h 0 (n := law) rfl ((block : Int) + loc - 1) (by omega)
  have h1 := at_nat h 1 (n := n) rfl ((block : Int) + loc - 1 + 1) (by omega)
  rw [List.append_assoc, List.append_assoc] at h
  have hat2 := (at_append h).2
  have hdata : slice a.xss ((block : Int) + loc - 1 + 2) ((block : Int) + loc - 1 + 2 + 3 * (n : Int)) = x ++ (d ++ c) :=
    slice_at hat2 _ _ (by simp; omega) (by simp only [List.length_append, hx, hd, hc]; push_cast; ring)
  obtain ⟨hX, hs⟩ := at_append (at_self (x ++ (d ++ c)))
  obtain ⟨hD, hC⟩ := at_append hs
  have rd : slice (x ++ (d ++ c)) (n : Int) (2 * (n : Int)) = d := slice_at hD _ _ (by simp [hx]) (by rw [hd]; ring)
  unfold muAt
  rw [if_neg (by omega), if_pos (by omega), abs_neg, Nat.abs_cast]
  unfold muTable
  simp only [bind, Except.bind, h0, h1, hdata, rd]
  rw [if_neg, if_neg, if_pos]
  · obtain ⟨v, hv, hlt⟩ := hneg
    exact List.any_eq_true.mpr ⟨v, hv, by simpa using hlt⟩
  · push Not; omega
  · simp only [List.length_append, hx, hd, hc]; push_cast; intro hcon; apply hcon; ring

end

/-- Three incident energies: isotropic, bins, and a table. -/
example : ∃ (a : Arrays ℚ) (ang : Angle ℚ), ∃ p c, angleDist a 2 1 = .ok ang ∧ ang = ⟨[1000000, 2000000, 3000000], [.uniform, .tabular 1 ((List.range 33).map fun k : Nat => (k : ℚ) / 16 - 1) p c,
    .tabular 2 [-1, 1] [1 / 4, 3 / 4] [0, 1]]⟩ :=
  ⟨⟨[], [], [0, 9] ++ [3, 1, 2, 3, 0, 8, -41] ++ (List.range 33).map (fun k : Nat => (k : ℚ) / 16 - 1) ++ [2, 2, -1, 1, 1 / 4, 3 / 4, 0, 1]⟩, _, List.replicate 32 (1 / 2) ++ [0],
    (List.range 33).map fun k : Nat => (k : ℚ) / 32, by decide +kernel, rfl⟩

end ASAPy.Dists
