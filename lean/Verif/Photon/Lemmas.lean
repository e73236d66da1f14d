import Verif.Photon.Spec
import Verif.Decay.Props2
import Verif.EndfRx.Lemmas

/-!
# Lemmas on atomic relaxation
-/

namespace ASAPy.Photon
open ASAPy.Endf
open ASAPy.Decay (ListRec getList_rec trunc_nat)
open ASAPy.FromAce

theorem subshells_eq : subshells = shellNames := by decide

theorem names_length : shellNames.length = 39 := by decide

theorem names_nodup : shellNames.Nodup := by decide

theorem subshell_nat (d : Nat) (h : d ≤ 39) : subshell (d : Int) = .ok (shellName d) := by
  unfold subshell shellName
  by_cases h0 : d = 0
  · subst h0; rfl
  rw [if_neg (by exact_mod_cast h0), if_neg h0]
  have e : ((d : Int) - 1) = ((d - 1 : Nat) : Int) := by omega
  have hl : d - 1 < shellNames.length := by rw [names_length]; omega
  rw [e, subshells_eq, item_nat _ _ _ (List.getElem?_eq_getElem hl), List.getElem?_eq_getElem hl]
  rfl

theorem name_some (d : Nat) (h1 : 1 ≤ d) (h2 : d ≤ 39) : (shellName d).isSome = true := by
  unfold shellName
  rw [if_neg (by omega)]
  have hl : d - 1 < shellNames.length := by rw [names_length]; omega
  rw [List.getElem?_eq_getElem hl]
  rfl

theorem name_inj {d e : Nat} (hd : d ≤ 39) (he : e ≤ 39) (h : shellName d = shellName e) : d = e := by
  by_cases h0 : d = 0
  · subst h0
    by_contra hc
    have := name_some e (by omega) he
    rw [← h] at this
    cases this
  by_cases h1 : e = 0
  · subst h1
    have := name_some d (by omega) hd
    rw [h] at this
    cases this
  unfold shellName at h
  rw [if_neg h0, if_neg h1] at h
  have hl : d - 1 < shellNames.length := by rw [names_length]; omega
  have := (List.getElem?_inj hl names_nodup).mp h
  omega

variable {K : Type} [Field K] [LinearOrder K]

theorem mkRelax_ok {ss : List (Shell K)} (h : ∀ s ∈ ss, s.Ok) : mkRelax (relaxOf ss) = .ok (relaxOf ss) := by
  unfold mkRelax
  rw [if_pos]
  simp only [relaxOf, Bool.and_eq_true, List.all_eq_true, List.mem_map, forall_exists_index, and_imp, List.mem_filter, decide_eq_true_eq]
  refine ⟨⟨?_, ?_⟩, ?_⟩
  · rintro _ s hs rfl
    exact ⟨name_some _ (h s hs).2.1 (h s hs).1.1, (h s hs).2.2.1⟩
  · rintro _ s hs rfl
    exact ⟨name_some _ (h s hs).2.1 (h s hs).1.1, (h s hs).2.2.2⟩
  · rintro _ s hs _ rfl
    exact name_some _ (h s hs).2.1 (h s hs).1.1

theorem mkRelax_bad {ss : List (Shell K)} {s : Shell K} (hs : s ∈ ss) (h : s.d = 0 ∨ s.energy < 0 ∨ s.electrons < 0) : mkRelax (relaxOf ss) = .error .valueError := by
  unfold mkRelax
  rw [if_neg]
  simp only [relaxOf, Bool.and_eq_true, List.all_eq_true, List.mem_map, forall_exists_index, and_imp, List.mem_filter, decide_eq_true_eq]
  rintro ⟨⟨h1, h2⟩, -⟩
  rcases h with h | h | h
  · have := (h1 _ s hs rfl).1
    rw [h] at this
    cases this
  · exact absurd (h1 _ s hs rfl).2 (not_le.mpr h)
  · exact absurd (h2 _ s hs rfl).2 (not_le.mpr h)

/-- Setting a key that is not there yet appends it. -/
theorem set_app {α β : Type} [DecidableEq α] (d : List (α × β)) (k : α) (v : β) (h : k ∉ d.map Prod.fst) : Dict.set d k v = d ++ [(k, v)] := by
  induction d with
  | nil => rfl
  | cons p d ih =>
    obtain ⟨k', v'⟩ := p
    simp only [List.map_cons, List.mem_cons, not_or] at h
    unfold Dict.set
    rw [if_neg (fun e => h.1 e.symm), ih h.2]
    rfl

theorem fold_set {α β γ : Type} [DecidableEq α] (g : γ → β) (l : List (α × γ)) : ∀ d : List (α × β), (d.map Prod.fst ++ l.map Prod.fst).Nodup →
    l.foldl (fun d p => Dict.set d p.1 (g p.2)) d = d ++ l.map fun p => (p.1, g p.2) := by
  induction l with
  | nil => intro d _; simp
  | cons p l ih =>
    intro d h
    rw [List.foldl_cons, set_app _ _ _ (by
      rw [List.nodup_append] at h
      intro hm
      exact h.2.2 _ hm _ (by simp) rfl), ih _ (by simpa using h)]
    simp

theorem names_nodup_of {ss : List (Shell K)} (h : ∀ s ∈ ss, s.Known) (hd : (ss.map (·.d)).Nodup) : (ss.map fun s => shellName s.d).Nodup := by
  have : (ss.map fun s => shellName s.d) = (ss.map (·.d)).map shellName := by simp
  rw [this]
  apply List.Nodup.map_on _ hd
  intro d hd e he hde
  obtain ⟨s, hs, rfl⟩ := List.mem_map.mp hd
  obtain ⟨t, ht, rfl⟩ := List.mem_map.mp he
  exact name_inj (h s hs).1 (h t ht).1 hde

/-- Rows of transitions as the data have them. -/
def rowsOf (js : List (Jump K)) : List (Trans K) := js.map fun t => ⟨shellName t.j, shellName t.k, t.energy, t.probability⟩

theorem relaxOf_append (u : List (Shell K)) (s : Shell K) : relaxOf (u ++ [s]) =
    ⟨(relaxOf u).binding ++ [(shellName s.d, s.energy)], (relaxOf u).electrons ++ [(shellName s.d, s.electrons)],
      if s.jumps = [] then (relaxOf u).transitions else (relaxOf u).transitions ++ [(shellName s.d, rowsOf s.jumps)]⟩ := by
  unfold relaxOf rowsOf
  by_cases h : s.jumps = []
  · simp [h, List.filter_append]
  · have h2 : s.jumps.isEmpty = false := by simpa using h
    simp [h, h2, List.filter_append, List.filter_cons]

theorem keys_binding (u : List (Shell K)) : (relaxOf u).binding.map Prod.fst = u.map fun s => shellName s.d := by simp [relaxOf]
theorem keys_electrons (u : List (Shell K)) : (relaxOf u).electrons.map Prod.fst = u.map fun s => shellName s.d := by simp [relaxOf]
theorem keys_transitions (u : List (Shell K)) : ∀ k ∈ (relaxOf u).transitions.map Prod.fst, k ∈ u.map fun s => shellName s.d := by
  intro k hk
  simp only [relaxOf, List.map_map, List.mem_map, List.mem_filter, Function.comp] at hk ⊢
  obtain ⟨s, hs, rfl⟩ := hk
  exact ⟨s, hs.1, rfl⟩

/-! ## ENDF -/

theorem flatN {α β : Type} (n : Nat) (g : α → List β) (l : List α) : (∀ x ∈ l, (g x).length = n) → ∀ (j : Nat) (x : α), l[j]? = some x → ∀ (i : Nat), i < n →
    (l.flatMap g)[n * j + i]? = (g x)[i]? := by
  induction l with
  | nil => intro _ j x h; simp at h
  | cons y l ih =>
    intro hg j x h i hi
    rw [List.flatMap_cons]
    cases j with
    | zero =>
      simp only [List.getElem?_cons_zero, Option.some.injEq] at h
      subst h
      rw [List.getElem?_append_left (by rw [hg _ (by simp)]; omega)]
      congr 1; omega
    | succ j =>
      simp only [List.getElem?_cons_succ] at h
      have e : n * (j + 1) + i = n + (n * j + i) := by ring
      rw [e, List.getElem?_append_right (by rw [hg _ (by simp)]; omega), hg _ (by simp), Nat.add_sub_cancel_left]
      exact ih (fun x hx => hg x (by simp [hx])) j x h i hi

theorem endfTrans_ok (s : Shell ℚ) (a b z1 z2 z3 z4 : ℚ) (zs : List (ℚ × ℚ)) (hz : zs.length = s.jumps.length) (hs : ∀ t ∈ s.jumps, t.j ≤ 39 ∧ t.k ≤ 39) (j : Nat) (t : Jump ℚ)
    (hj : s.jumps[j]? = some t) :
    endfTrans (a :: b :: z1 :: z2 :: z3 :: z4 :: (s.jumps.zip zs).flatMap fun t => [(t.1.j : ℚ), t.1.k, t.1.energy, t.1.probability, t.2.1, t.2.2]) j =
      .ok ⟨shellName t.j, shellName t.k, t.energy, t.probability⟩ := by
  have hlt : j < s.jumps.length := by
    by_contra hc
    rw [List.getElem?_eq_none (by omega)] at hj
    cases hj
  have hzz : (s.jumps.zip zs)[j]? = some (t, zs[j]'(by omega)) := by
    rw [List.getElem?_zip_eq_some]
    exact ⟨hj, List.getElem?_eq_getElem _⟩
  have key : ∀ i v, i < 6 → [(t.j : ℚ), t.k, t.energy, t.probability, (zs[j]'(by omega)).1, (zs[j]'(by omega)).2][i]? = some v →
      item (a :: b :: z1 :: z2 :: z3 :: z4 :: (s.jumps.zip zs).flatMap fun t => [(t.1.j : ℚ), t.1.k, t.1.energy, t.1.probability, t.2.1, t.2.2]) ((6 * (j + 1) + i : Nat) : Int) = .ok v := by
    intro i v hi hv
    apply item_nat
    have e : 6 * (j + 1) + i = (6 * j + i) + 6 := by omega
    rw [e]
    simp only [List.getElem?_cons_succ]
    rw [flatN 6 _ _ (fun _ _ => rfl) j _ hzz i hi]
    exact hv
  have h0 := key 0 _ (by omega) rfl
  have h1 := key 1 _ (by omega) rfl
  have h2 := key 2 _ (by omega) rfl
  have h3 := key 3 _ (by omega) rfl
  push_cast at h0 h1 h2 h3
  rw [add_zero] at h0
  have hm := hs t (List.mem_of_getElem? hj)
  unfold endfTrans
  simp only [h0, h1, h2, h3, bind, Except.bind, pure, Except.pure, trunc_nat, subshell_nat _ hm.1, subshell_nat _ hm.2]

theorem mapM_range_ok {α β : Type} (f : Nat → Except PyErr β) (l : List α) (g : α → β) (h : ∀ j x, l[j]? = some x → f j = .ok (g x)) :
    (List.range l.length).mapM f = .ok (l.map g) := by
  induction l using List.reverseRecOn with
  | nil => rfl
  | append_singleton l x ih =>
    rw [List.length_append, List.length_singleton, List.range_succ, List.mapM_append, ih (fun j y hj => h j y (by
      have hlt : j < l.length := by
        by_contra hc
        rw [List.getElem?_eq_none (by omega)] at hj
        cases hj
      rw [List.getElem?_append_left hlt, hj]))]
    simp only [bind, Except.bind, pure, Except.pure, List.mapM_cons, List.mapM_nil, h l.length x (by simp), List.map_append, List.map_cons, List.map_nil]

theorem endfShell_ok (u : List (Shell ℚ)) (s : Shell ℚ) (hs : s.Known) (hk : shellName s.d ∉ u.map fun s => shellName s.d) {ls : List Line} (h : ShellRec s ls) (rest : List Line) :
    endfShell (relaxOf u) (ls ++ rest) = .ok (relaxOf (u ++ [s]), rest) := by
  obtain ⟨c, z1, z2, z3, z4, zs, hc1, hc2, hz, hl⟩ := h
  unfold endfShell
  rw [getList_rec hl]
  simp only [bind, Except.bind, pure, Except.pure, hc1, trunc_nat, subshell_nat _ hs.1]
  have h0 := item_nat (s.energy :: s.electrons :: z1 :: z2 :: z3 :: z4 :: (s.jumps.zip zs).flatMap fun t => [(t.1.j : ℚ), t.1.k, t.1.energy, t.1.probability, t.2.1, t.2.2]) 0 _ rfl
  have h1 := item_nat (s.energy :: s.electrons :: z1 :: z2 :: z3 :: z4 :: (s.jumps.zip zs).flatMap fun t => [(t.1.j : ℚ), t.1.k, t.1.energy, t.1.probability, t.2.1, t.2.2]) 1 _ rfl
  push_cast at h0 h1
  rw [h0, h1]
  simp only
  rw [set_app _ _ _ (by rw [keys_binding]; exact hk), set_app _ _ _ (by rw [keys_electrons]; exact hk), relaxOf_append]
  by_cases hj : s.jumps = []
  · rw [if_neg (by rw [hc2, hj]; simp), if_pos hj]
  · have hp : 0 < s.jumps.length := List.length_pos_iff.mpr hj
    rw [if_pos (by rw [hc2]; exact_mod_cast hp), if_neg hj, hc2, Int.toNat_natCast,
      mapM_range_ok _ s.jumps (fun t => ⟨shellName t.j, shellName t.k, t.energy, t.probability⟩) (fun j t ht => endfTrans_ok s _ _ _ _ _ _ zs hz hs.2 j t ht)]
    simp only
    rw [set_app _ _ _ (fun hm => hk (keys_transitions u _ hm))]
    rfl

theorem endfShells_ok : ∀ (ss u : List (Shell ℚ)) (bs : List (List Line)) (rest : List Line), (∀ s ∈ ss, s.Known) → ((u ++ ss).map fun s => shellName s.d).Nodup → List.Forall₂ ShellRec ss bs →
    endfShells ss.length (relaxOf u) (bs.flatten ++ rest) = .ok (relaxOf (u ++ ss), rest) := by
  intro ss
  induction ss with
  | nil => intro u bs rest _ _ h; cases h; simp [endfShells]
  | cons s ss ih =>
    intro u bs rest hs hn h
    cases h with
    | cons h1 h2 =>
      rename_i b bs
      rw [List.length_cons]
      unfold endfShells
      rw [List.flatten_cons, List.append_assoc, endfShell_ok u s (hs s (by simp)) (by
        rw [List.map_append, List.nodup_append] at hn
        intro hm
        exact hn.2.2 _ hm _ (by simp) rfl) h1]
      simp only [bind, Except.bind]
      rw [ih (u ++ [s]) bs rest (fun t ht => hs t (by simp [ht])) (by simpa using hn) h2]
      simp

/-! ## ACE -/

section
omit [LinearOrder K]

theorem aceRows_length (js : List (Jump K)) : (aceRows js).length = 4 * js.length := by
  unfold aceRows
  rw [List.length_flatMap]
  rw [List.map_congr_left (g := fun _ => 4) (by
    intro i hi
    rw [List.getElem?_eq_getElem (List.mem_range.mp hi)]
    rfl)]
  simp [Nat.mul_comm]

theorem aceRows_get {js : List (Jump K)} {j : Nat} {t : Jump K} (hj : js[j]? = some t) (i : Nat) (hi : i < 4) :
    (aceRows js)[4 * j + i]? = [(t.j : K), (t.k : K), t.energy / 1000000, ((js.take (j + 1)).map (·.probability)).sum][i]? := by
  have hlt : j < js.length := by
    by_contra hc
    rw [List.getElem?_eq_none (by omega)] at hj
    cases hj
  unfold aceRows
  rw [flatN 4 _ _ (by
    intro i hi
    rw [List.getElem?_eq_getElem (List.mem_range.mp hi)]
    rfl) j j (by rw [List.getElem?_range hlt]) i hi]
  simp only [hj]

theorem sum_take_succ' (js : List (Jump K)) (j : Nat) (t : Jump K) (hj : js[j]? = some t) :
    ((js.take (j + 1)).map (·.probability)).sum = ((js.take j).map (·.probability)).sum + t.probability := by
  rw [List.take_add_one, hj]
  simp
end

variable [FloorRing K] [IsStrictOrderedRing K]

theorem aceTrans_ok (a : Arrays K) (p : Nat) (js : List (Jump K)) (hj : ∀ t ∈ js, t.j ≤ 39 ∧ t.k ≤ 39) (hat : AtL a.xss p (aceRows js)) : ∀ (todo done : List (Jump K)), js = done ++ todo →
    aceTrans a todo.length done.length ((p + 4 * done.length : Nat) : Int) = .ok (rowsOf todo, ((p + 4 * js.length : Nat) : Int)) := by
  intro todo
  induction todo with
  | nil =>
    intro done h
    simp only [List.append_nil] at h
    subst h
    rfl
  | cons t todo ih =>
    intro done h
    have hget : js[done.length]? = some t := by rw [h]; simp
    have key : ∀ i v, i < 4 → [(t.j : K), (t.k : K), t.energy / 1000000, ((js.take (done.length + 1)).map (·.probability)).sum][i]? = some v →
        item a.xss ((p + 4 * done.length + i : Nat) : Int) = .ok v := by
      intro i v hi hv
      apply item_nat
      have := hat (4 * done.length + i) v (by rw [aceRows_get hget i hi]; exact hv)
      rw [← this]
      congr 1
      omega
    have h0 := key 0 _ (by omega) rfl
    have h1 := key 1 _ (by omega) rfl
    have h2 := key 2 _ (by omega) rfl
    have h3 := key 3 _ (by omega) rfl
    rw [Nat.add_zero] at h0
    rw [Nat.cast_add _ 1] at h1
    rw [Nat.cast_add _ 2] at h2
    rw [Nat.cast_add _ 3] at h3
    have hm := hj t (List.mem_of_getElem? hget)
    rw [List.length_cons]
    unfold aceTrans
    have h1' : item a.xss (((p + 4 * done.length : Nat) : Int) + 1) = .ok (t.k : K) := h1
    have h2' : item a.xss (((p + 4 * done.length : Nat) : Int) + 2) = .ok (t.energy / 1000000) := h2
    have h3' : item a.xss (((p + 4 * done.length : Nat) : Int) + 3) = .ok (((js.take (done.length + 1)).map (·.probability)).sum) := h3
    simp only [h0, h1', h2', h3', bind, Except.bind, pure, Except.pure, pyTrunc_nat, subshell_nat _ hm.1, subshell_nat _ hm.2]
    have hnext : ((p + 4 * done.length : Nat) : Int) + 4 = ((p + 4 * (done ++ [t]).length : Nat) : Int) := by simp; ring
    have hih := ih (done ++ [t]) (by rw [h]; simp)
    have hl1 : done.length + 1 = (done ++ [t]).length := by simp
    rw [hnext, hl1, hih]
    have hsum := sum_take_succ' js done.length t hget
    have he : t.energy / 1000000 * 1000000 = t.energy := by
      have : (1000000 : K) ≠ 0 := by norm_num
      field_simp
    by_cases hd : done = []
    · subst hd
      simp only [List.length_nil, if_true]
      rw [he]
      simp only [List.length_nil, List.take_zero, List.map_nil, List.sum_nil, zero_add] at hsum
      rw [← hl1]
      simp only [List.length_nil, zero_add] at hsum ⊢
      rw [hsum]
      rfl
    · have hpos : 0 < done.length := List.length_pos_iff.mpr hd
      obtain ⟨m, hm⟩ : ∃ m, done.length = m + 1 := ⟨done.length - 1, by omega⟩
      obtain ⟨w, hlast⟩ : ∃ w, js[m]? = some w := by
        rw [h, List.getElem?_append_left (by omega)]
        exact ⟨_, List.getElem?_eq_getElem (by omega)⟩
      have hprev : item a.xss (((p + 4 * done.length : Nat) : Int) - 1) = .ok (((js.take done.length).map (·.probability)).sum) := by
        have e : ((p + 4 * done.length : Nat) : Int) - 1 = ((p + (4 * m + 3) : Nat) : Int) := by rw [hm]; push_cast; ring
        rw [e]
        apply item_nat
        apply hat
        rw [aceRows_get hlast 3 (by omega), hm]
        rfl
      rw [if_neg (by omega), hprev]
      simp only
      rw [← hl1, hsum, he, add_sub_cancel_left]
      rfl

theorem aceTransitions_ok (a : Arrays K) (q : Nat) : ∀ (ss u : List (Shell K)) (p : Nat), (∀ s ∈ ss, s.Known) → ((u ++ ss).map fun s => shellName s.d).Nodup →
    AtL a.xss (q + u.length) (ss.map fun s => (s.jumps.length : K)) → AtL a.xss p (ss.flatMap fun s => aceRows s.jumps) →
    aceTransitions a (q : Int) (ss.map fun s => shellName s.d) u.length (p : Int) (relaxOf u).transitions = .ok (relaxOf (u ++ ss)).transitions := by
  intro ss
  induction ss with
  | nil => intro u p _ _ _ _; simp [aceTransitions]
  | cons s ss ih =>
    intro u p hs hn hc hr
    rw [List.map_cons]
    unfold aceTransitions
    have hcount : item a.xss ((q : Int) + u.length) = .ok (s.jumps.length : K) := by
      have := hc 0 (s.jumps.length : K) (by simp)
      rw [Nat.add_zero] at this
      have := item_nat _ _ _ this
      push_cast at this
      exact this
    rw [hcount]
    simp only [bind, Except.bind, pyTrunc_nat]
    have hk : shellName s.d ∉ u.map fun s => shellName s.d := by
      rw [List.map_append, List.nodup_append] at hn
      intro hm
      exact hn.2.2 _ hm _ (by simp) rfl
    rw [List.flatMap_cons] at hr
    obtain ⟨hr1, hr2⟩ := at_append hr
    rw [aceRows_length] at hr2
    have hc2 : AtL a.xss (q + (u ++ [s]).length) (ss.map fun s => (s.jumps.length : K)) := by
      have : AtL a.xss (q + u.length) ([(s.jumps.length : K)] ++ ss.map fun s => (s.jumps.length : K)) := by simpa using hc
      have := (at_append this).2
      simpa [Nat.add_assoc] using this
    have hl : u.length + 1 = (u ++ [s]).length := by simp
    by_cases hj : s.jumps = []
    · rw [if_neg (by rw [hj]; simp)]
      have hih := ih (u ++ [s]) p (fun t ht => hs t (by simp [ht])) (by simpa using hn) hc2 (by rw [hj] at hr2; simpa using hr2)
      rw [relaxOf_append, if_pos hj] at hih
      rw [hl]
      simpa using hih
    · have hp : 0 < s.jumps.length := List.length_pos_iff.mpr hj
      rw [if_pos (by exact_mod_cast hp), Int.toNat_natCast]
      have hat := aceTrans_ok a p s.jumps (hs s (by simp)).2 hr1 s.jumps [] (by simp)
      simp only [List.length_nil, Nat.mul_zero, Nat.add_zero] at hat
      rw [hat]
      simp only
      have hih := ih (u ++ [s]) (p + 4 * s.jumps.length) (fun t ht => hs t (by simp [ht])) (by simpa using hn) hc2 hr2
      rw [relaxOf_append, if_neg hj] at hih
      rw [hl, set_app _ _ _ (fun hm => hk (keys_transitions u _ hm)), hih]
      simp

theorem mapM_ok' {α β γ : Type} (f : α → Except PyErr β) (l : List γ) (g : γ → α) (h : γ → β) (H : ∀ x ∈ l, f (g x) = .ok (h x)) : (l.map g).mapM f = .ok (l.map h) := by
  induction l with
  | nil => rfl
  | cons x l ih =>
    rw [List.map_cons, List.mapM_cons, H x (by simp), ih (fun y hy => H y (by simp [hy]))]
    rfl

end ASAPy.Photon
