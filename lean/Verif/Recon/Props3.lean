import Verif.Recon.Props2
import Mathlib.Analysis.Real.Pi.Irrational

/-!
# Arrays of energies and histories of ranges
-/

namespace ASAPy.Recon
open Spec

noncomputable section

theorem reconstruct_fresh {D K V : Type} (F : Formalism D (K → Option V)) (d : D) (e : Energies) : (reconstruct true F (fresh d) 0 e).1 =
    match F.prepare d (fun _ => none) with
    | .error x => .error x
    | .ok (ls, m) => evalAll F d ls m e := by
  unfold reconstruct fresh ensure
  simp only [List.getElem?_cons_zero, Bool.false_eq_true, if_false, Bool.true_eq_false]
  cases F.prepare d (fun _ => none) <;> rfl

theorem xsOf_parts {D K V : Type} {F : Formalism D (K → Option V)} {d : D} {E : ℝ} {x : Xs} (h : xsOf F d E = .ok (.number x)) {ls : List ℤ} {m : K → Option V}
    (hp : F.prepare d (fun _ => none) = .ok (ls, m)) : F.eval d ls m E = .ok x := by
  unfold xsOf at h
  rw [reconstruct_fresh, hp] at h
  simp only [evalAll] at h
  cases he : F.eval d ls m E with
  | error e => rw [he] at h; cases h
  | ok y =>
    rw [he] at h
    injection h with h
    injection h with h
    rw [h]

theorem xsOf_prepared {D K V : Type} {F : Formalism D (K → Option V)} {d : D} {E : ℝ} {r : Result} (h : xsOf F d E = .ok r) :
    ∃ ls m, F.prepare d (fun _ => none) = .ok (ls, m) := by
  unfold xsOf at h
  rw [reconstruct_fresh] at h
  cases hp : F.prepare d (fun _ => none) with
  | error e => rw [hp] at h; cases h
  | ok p => exact ⟨p.1, p.2, rfl⟩

/-- C200. For an array of numbers `reconstruct` returns arrays of the same length, whose items are the values at the energies, with every formalism. -/
theorem C200_floats_partial {D K V : Type} {F : Formalism D (K → Option V)} {d : D} {E0 : ℝ} {r0 : Result} (h0 : xsOf F d E0 = .ok r0) {es : List ℝ} {f : ℝ → Xs}
    (h : ∀ E ∈ es, xsOf F d E = .ok (.number (f E))) :
    (reconstruct true F (fresh d) 0 (.floats es)).1 =
      .ok (.floats (es.map fun E => (f E).elastic) (es.map fun E => (f E).capture) (es.map fun E => (f E).fission)) := by
  obtain ⟨ls, m, hp⟩ := xsOf_prepared h0
  rw [reconstruct_fresh, hp]
  simp only [evalAll]
  rw [mapM_ok (g := f) fun E hE => xsOf_parts (h E hE) hp, ok_bind, List.map_map, List.map_map, List.map_map]
  rfl

/-- C200. For an array of whole numbers every value is cut to a whole number. -/
theorem C200_ints_refuted {D K V : Type} {F : Formalism D (K → Option V)} {d : D} {E0 : ℝ} {r0 : Result} (h0 : xsOf F d E0 = .ok r0) {es : List ℤ} {f : ℝ → Xs}
    (h : ∀ E : ℤ, E ∈ es → xsOf F d E = .ok (.number (f E))) :
    (reconstruct true F (fresh d) 0 (.ints es)).1 =
      .ok (.ints (es.map fun E : ℤ => trunc (f E).elastic) (es.map fun E : ℤ => trunc (f E).capture) (es.map fun E : ℤ => trunc (f E).fission)) := by
  obtain ⟨ls, m, hp⟩ := xsOf_prepared h0
  rw [reconstruct_fresh, hp]
  simp only [evalAll]
  rw [mapM_ok (g := fun E : ℤ => f E) fun E hE => xsOf_parts (h E hE) hp, ok_bind, List.map_map, List.map_map, List.map_map]
  rfl

theorem k1_rational : ∃ q : ℚ, q ≠ 0 ∧ waveNumber 1 1 ^ 2 = (q : ℝ) := by
  refine ⟨(1 / 2 / 19732697.88) ^ 2 * (2 * 939565413.3), by norm_num, ?_⟩
  unfold waveNumber neutronMass hbarC
  rw [div_pow, mul_pow, abs_one, Real.sq_sqrt (by norm_num)]
  push_cast
  norm_num

/-- C200. Values of the range are not whole numbers: the cut values differ from those of the same energy given as a number. -/
theorem C200_cut_refuted : ∃ (d : Bw) (x : Xs) (a b c : ℤ), BwOk d 1 ∧ xsOf slbwF d 1 = .ok (.number x) ∧
    (reconstruct true slbwF (fresh d) 0 (.ints [1])).1 = .ok (.ints [a] [b] [c]) ∧ (a : ℝ) ≠ x.elastic := by
  obtain ⟨x, ex, e⟩ := levels_elastic 0
  refine ⟨levels 1, x, trunc x.elastic, trunc x.capture, trunc x.fission, levels_ok 1, ex, ?_, ?_⟩
  · have := C200_ints_refuted (F := slbwF) (d := levels 1) (E0 := 1) ex (es := [1]) (f := fun _ => x) fun E hE => by
      rw [List.mem_singleton.mp hE]
      exact_mod_cast ex
    exact this
  · intro h
    obtain ⟨q, hq, hk⟩ := k1_rational
    have hi : Irrational (Real.pi * ((1 / 2 / q : ℚ) : ℝ)) := irrational_pi.mul_ratCast (by positivity)
    apply hi
    refine ⟨(trunc x.elastic : ℤ), ?_⟩
    rw [Rat.cast_intCast, h, e, hk]
    push_cast
    ring

/-- C200. Without the compiled extension `reconstruct` raises a `RuntimeError` for every range and every argument, and changes nothing. -/
theorem C200_unavailable {D M : Type} (F : Formalism D M) (f : Family D M) {i : ℕ} (hi : i < f.objs.length) (e : Energies) :
    reconstruct false F f i e = (.error .runtimeError, f) := by
  unfold reconstruct
  rw [List.getElem?_eq_getElem hi]
  rfl

/-! ### Histories -/

/-- Families of copies of one range that has never been changed. -/
def Intact {D K V : Type} (F : Formalism D (K → Option V)) (d : D) (f : Family D (K → Option V)) : Prop :=
  (∀ o ∈ f.objs, o.data = d) ∧ (f.matrix = (fun _ => none) ∧ (∀ o ∈ f.objs, o.prepared = false) ∨
    ∃ ls, F.prepare d (fun _ => none) = .ok (ls, f.matrix) ∧ ∀ o ∈ f.objs, o.prepared = true → o.ls = ls)

/-- Preparing again changes nothing. -/
def Stable {D K V : Type} (F : Formalism D (K → Option V)) : Prop := ∀ d ls m, F.prepare d (fun _ => none) = .ok (ls, m) → F.prepare d m = .ok (ls, m)

theorem prepareBw_again (d : Bw) (ls : List ℤ) (m : BwMatrix) (h : prepareBw d (fun _ => none) = .ok (ls, m)) : prepareBw d m = .ok (ls, m) := by
  unfold prepareBw at h ⊢
  cases hm : d.rows.mapM (prepBwRow d.toBase) with
  | error e => rw [hm] at h; cases h
  | ok rows =>
    rw [hm] at h
    simp only [ok_bind] at h ⊢
    injection h with h
    injection h with h1 h2
    rw [← h1, ← h2]
    congr 2
    funext l
    by_cases hl : l ∈ firsts [] (d.rows.map (·.l)) <;> simp only [hl, if_true, if_false]

theorem prepareRm_again (d : Rm) (ls : List ℤ) (m : RmMatrix) (h : prepareRm d (fun _ => none) = .ok (ls, m)) : prepareRm d m = .ok (ls, m) := by
  unfold prepareRm at h ⊢
  cases hm : d.rows.mapM (prepRmRow d.toBase) with
  | error e => rw [hm] at h; cases h
  | ok rows =>
    rw [hm] at h
    simp only [ok_bind] at h ⊢
    injection h with h
    injection h with h1 h2
    rw [← h1, ← h2]
    congr 2
    funext l
    by_cases hl : l ∈ firsts [] (d.rows.map fun q => (q.l, |q.j|)) <;> simp only [hl, if_true, if_false]

theorem intact_fresh {D K V : Type} (F : Formalism D (K → Option V)) (d : D) : Intact F d (fresh d) :=
  ⟨fun o ho => by rw [List.mem_singleton.mp ho], .inl ⟨rfl, fun o ho => by rw [List.mem_singleton.mp ho]⟩⟩

/-- What a range of an intact family finds. -/
theorem intact_ensure {D K V : Type} {F : Formalism D (K → Option V)} (hF : Stable F) {d : D} {f : Family D (K → Option V)} (h : Intact F d f) {o : Obj D} (ho : o ∈ f.objs) :
    ensure F o f.matrix = F.prepare d (fun _ => none) := by
  unfold ensure
  rw [h.1 o ho]
  rcases h.2 with ⟨hm, hp⟩ | ⟨ls, hp, hl⟩
  · rw [hp o ho, hm]
    rfl
  · split
    · rename_i hx
      rw [hl o ho hx, hp]
    · rw [hF d ls f.matrix hp, hp]

theorem intact_value {D K V : Type} {F : Formalism D (K → Option V)} (hF : Stable F) {d : D} {f : Family D (K → Option V)} (h : Intact F d f) {i : ℕ} (hi : i < f.objs.length)
    (e : Energies) : (reconstruct true F f i e).1 = (reconstruct true F (fresh d) 0 e).1 := by
  rw [reconstruct_fresh]
  unfold reconstruct
  rw [List.getElem?_eq_getElem hi]
  simp only [Bool.true_eq_false, if_false]
  rw [intact_ensure hF h (List.getElem_mem hi), h.1 _ (List.getElem_mem hi)]
  cases F.prepare d (fun _ => none) <;> rfl

theorem intact_reconstruct {D K V : Type} {F : Formalism D (K → Option V)} (hF : Stable F) {d : D} {f : Family D (K → Option V)} (h : Intact F d f) (av : Bool) (i : ℕ)
    (e : Energies) : Intact F d (reconstruct av F f i e).2 := by
  unfold reconstruct
  cases ho : f.objs[i]? with
  | none => exact h
  | some o =>
    have hmem : o ∈ f.objs := List.mem_of_getElem? ho
    simp only []
    split
    · exact h
    · rw [intact_ensure hF h hmem]
      cases hp : F.prepare d (fun _ => none) with
      | error x => exact h
      | ok p =>
        obtain ⟨ls, m⟩ := p
        simp only []
        refine ⟨?_, .inr ⟨ls, hp, ?_⟩⟩
        · intro o' ho'
          rcases List.mem_or_eq_of_mem_set ho' with ho' | rfl
          · exact h.1 o' ho'
          · exact h.1 o hmem
        · intro o' ho' hx
          rcases List.mem_or_eq_of_mem_set ho' with ho' | rfl
          · rcases h.2 with ⟨-, hq⟩ | ⟨ls', hp', hl⟩
            · rw [hq o' ho'] at hx; cases hx
            · rw [hl o' ho' hx]
              rw [hp] at hp'
              injection hp' with hp'
              injection hp' with hp' _
              exact hp'.symm
          · rfl

theorem intact_step {D K V : Type} {F : Formalism D (K → Option V)} (hF : Stable F) {d : D} {f : Family D (K → Option V)} (h : Intact F d f) (av : Bool) {op : Op D}
    (hop : ∀ i d', op ≠ .assign i d') : Intact F d (step av F f op) := by
  cases op with
  | assign i d' => exact absurd rfl (hop i d')
  | reconstruct i e => exact intact_reconstruct hF h av i e
  | copy i =>
    cases ho : f.objs[i]? with
    | none =>
      simp only [step, ho]
      exact h
    | some o =>
      have hmem : o ∈ f.objs := List.mem_of_getElem? ho
      simp only [step, ho]
      refine ⟨?_, ?_⟩
      · intro o' ho'
        rcases List.mem_append.mp ho' with ho' | ho'
        · exact h.1 o' ho'
        · rw [List.mem_singleton.mp ho']; exact h.1 o hmem
      · rcases h.2 with ⟨hm, hq⟩ | ⟨ls, hp, hl⟩
        · left
          refine ⟨hm, fun o' ho' => ?_⟩
          rcases List.mem_append.mp ho' with ho' | ho'
          · exact hq o' ho'
          · rw [List.mem_singleton.mp ho']
        · right
          refine ⟨ls, hp, fun o' ho' hx => ?_⟩
          rcases List.mem_append.mp ho' with ho' | ho'
          · exact hl o' ho' hx
          · rw [List.mem_singleton.mp ho'] at hx; cases hx

theorem intact_history {D K V : Type} {F : Formalism D (K → Option V)} (hF : Stable F) {d : D} (ops : List (Op D)) (hops : ∀ op ∈ ops, ∀ i d', op ≠ .assign i d') :
    ∀ {f : Family D (K → Option V)}, Intact F d f → Intact F d (ops.foldl (step true F) f) := by
  induction ops with
  | nil => intro f h; exact h
  | cons op ops ih =>
    intro f h
    exact ih (fun o ho => hops o (List.mem_cons_of_mem _ ho)) (intact_step hF h true (hops op List.mem_cons_self))

/-- C201. However often and in whatever order a range and its copies have been copied and reconstructed, with whatever arguments, each returns what a new range returns,
as long as nobody has assigned to an attribute: Breit-Wigner ranges, and Reich-Moore ranges. -/
theorem C201_histories_partial :
    (∀ F ∈ [mlbwF, slbwF], ∀ (d : Bw) (ops : List (Op Bw)), (∀ op ∈ ops, ∀ i d', op ≠ .assign i d') → ∀ i < (ops.foldl (step true F) (fresh d)).objs.length, ∀ e,
      (reconstruct true F (ops.foldl (step true F) (fresh d)) i e).1 = (reconstruct true F (fresh d) 0 e).1) ∧
    (∀ (d : Rm) (ops : List (Op Rm)), (∀ op ∈ ops, ∀ i d', op ≠ .assign i d') → ∀ i < (ops.foldl (step true rmF) (fresh d)).objs.length, ∀ e,
      (reconstruct true rmF (ops.foldl (step true rmF) (fresh d)) i e).1 = (reconstruct true rmF (fresh d) 0 e).1) := by
  constructor
  · intro F hF d ops hops i hi e
    have hs : Stable F := by
      simp only [List.mem_cons, List.not_mem_nil, or_false] at hF
      rcases hF with rfl | rfl
      · exact prepareBw_again
      · exact prepareBw_again
    exact intact_value hs (intact_history hs ops hops (intact_fresh F d)) hi e
  · intro d ops hops i hi e
    have hs : Stable rmF := prepareRm_again
    exact intact_value hs (intact_history hs ops hops (intact_fresh rmF d)) hi e

/-- The histories are there: a range reconstructed, copied, and both reconstructed, has two members. -/
example (d : Bw) (E : ℝ) : ([.reconstruct 0 (.number E), .copy 0, .reconstruct 1 (.floats [E]), .reconstruct 0 (.number E)].foldl (step true mlbwF) (fresh d)).objs.length = 2 := by
  have hlen : ∀ (f : Family Bw BwMatrix) i e, (reconstruct true mlbwF f i e).2.objs.length = f.objs.length := by
    intro f i e
    unfold reconstruct
    cases f.objs[i]? with
    | none => rfl
    | some o =>
      simp only [Bool.true_eq_false, if_false]
      cases ensure mlbwF o f.matrix with
      | error x => rfl
      | ok p => simp
  have hc : ∀ f : Family Bw BwMatrix, f.objs.length = 1 → (step true mlbwF f (.copy 0)).objs.length = 2 := by
    intro f hf
    have ho : f.objs[0]? = some (f.objs[0]'(by omega)) := List.getElem?_eq_getElem (by omega)
    simp [step, ho, hf]
  simp only [List.foldl_cons, List.foldl_nil]
  rw [show ∀ f : Family Bw BwMatrix, ∀ i e, step true mlbwF f (.reconstruct i e) = (reconstruct true mlbwF f i e).2 from fun _ _ _ => rfl, hlen,
    show ∀ f : Family Bw BwMatrix, ∀ i e, step true mlbwF f (.reconstruct i e) = (reconstruct true mlbwF f i e).2 from fun _ _ _ => rfl, hlen]
  apply hc
  rw [show ∀ f : Family Bw BwMatrix, ∀ i e, step true mlbwF f (.reconstruct i e) = (reconstruct true mlbwF f i e).2 from fun _ _ _ => rfl, hlen]
  rfl

theorem stale_value {D K V : Type} {F : Formalism D (K → Option V)} {d d' : D} {ls : List ℤ} {m : K → Option V} (h : F.prepare d (fun _ => none) = .ok (ls, m)) (e e' : Energies) :
    (reconstruct true F ([.reconstruct 0 e, .assign 0 d'].foldl (step true F) (fresh d)) 0 e').1 = evalAll F d' ls m e' := by
  simp [step, reconstruct, fresh, ensure, h]

theorem shared_value {D K V : Type} {F : Formalism D (K → Option V)} {d d' : D} {ls ls' : List ℤ} {m m' : K → Option V} (h : F.prepare d (fun _ => none) = .ok (ls, m))
    (h' : F.prepare d' m = .ok (ls', m')) (e e' : Energies) :
    (reconstruct true F ([.reconstruct 0 e, .copy 0, .assign 1 d', .reconstruct 1 e].foldl (step true F) (fresh d)) 0 e').1 = evalAll F d ls m' e' := by
  simp [step, reconstruct, fresh, ensure, h, h']

theorem levels_ls (n : ℕ) : firsts [] ((levels (n + 1)).rows.map (·.l)) = [0] := by
  show firsts [] ((List.replicate (n + 1) (rowAt2 1 1)).map (·.l)) = [0]
  rw [List.map_replicate, List.replicate_succ, firsts, if_neg (by simp), List.nil_append]
  show firsts [0] (List.replicate n 0) = [0]
  induction n with
  | zero => rfl
  | succ n ih => rw [List.replicate_succ, firsts, if_pos (by simp), ih]

/-- The value of `levels (n + 1)` does not depend on the dict it was prepared in. -/
theorem levels_value (n : ℕ) (m : BwMatrix) : ∃ x, slbw (levels (n + 1)) [0] (bwDict (levels (n + 1)) m) 1 = .ok x ∧ xsOf slbwF (levels (n + 1)) 1 = .ok (.number x) ∧
    x.elastic = (2 - (n + 1) * (3 / 2)) * (Real.pi / waveNumber 1 1 ^ 2) := by
  obtain ⟨x, ex, e⟩ := levels_elastic n
  have h1 := slbw_ok (levels_ok (n + 1)) (rowsAt_dict (levels (n + 1)) m)
  have h2 := xsOf_ok (F := slbwF) (prepareBw_ok (levels_ok (n + 1)) _) (slbw_ok (levels_ok (n + 1)) (rowsAt_dict (levels (n + 1)) fun _ => none))
  rw [levels_ls] at h1
  rw [h2] at ex
  injection ex with ex
  injection ex with ex
  exact ⟨_, h1, h2, by rw [ex]; exact e⟩

theorem unit_pos : 0 < Real.pi / waveNumber 1 1 ^ 2 := by
  have := k1_pos
  have := Real.pi_pos
  positivity

/-- C201. After a range has been reconstructed, new parameters are not taken into account: the cross sections stay those of the old ones. -/
theorem C201_stale_refuted : ∃ (d d' : Bw) (E : ℝ) (x y : Xs), BwOk d E ∧ BwOk d' E ∧
    (reconstruct true slbwF ([.reconstruct 0 (.number E), .assign 0 d'].foldl (step true slbwF) (fresh d)) 0 (.number E)).1 = .ok (.number x) ∧
    xsOf slbwF d E = .ok (.number x) ∧ xsOf slbwF d' E = .ok (.number y) ∧ x.elastic ≠ y.elastic := by
  obtain ⟨x, ex, fx, vx⟩ := levels_value 0 fun _ => none
  obtain ⟨y, -, fy, vy⟩ := levels_value 1 fun _ => none
  refine ⟨levels 1, levels 2, 1, x, y, levels_ok 1, levels_ok 2, ?_, fx, fy, ?_⟩
  · rw [stale_value (F := slbwF) (prepareBw_ok (levels_ok 1) _), levels_ls]
    have : slbw (levels 2) [0] (bwDict (levels 1) fun _ => none) 1 = slbw (levels 1) [0] (bwDict (levels 1) fun _ => none) 1 := rfl
    simp only [evalAll]
    rw [show slbwF.eval = slbw from rfl, this, ex]
    rfl
  · rw [vx, vy]
    have := unit_pos
    intro h
    push_cast at h
    linarith

/-- C201. Changing a copy changes the original: after a copy has been given other parameters and reconstructed, the original returns the cross sections of the copy. -/
theorem C201_shared_refuted : ∃ (d d' : Bw) (E : ℝ) (x y : Xs), BwOk d E ∧ BwOk d' E ∧
    (reconstruct true slbwF ([.reconstruct 0 (.number E), .copy 0, .assign 1 d', .reconstruct 1 (.number E)].foldl (step true slbwF) (fresh d)) 0 (.number E)).1 =
      .ok (.number y) ∧
    xsOf slbwF d E = .ok (.number x) ∧ xsOf slbwF d' E = .ok (.number y) ∧ x.elastic ≠ y.elastic := by
  obtain ⟨x, -, fx, vx⟩ := levels_value 0 fun _ => none
  obtain ⟨y, ey, fy, vy⟩ := levels_value 1 (bwDict (levels 1) fun _ => none)
  refine ⟨levels 1, levels 2, 1, x, y, levels_ok 1, levels_ok 2, ?_, fx, fy, ?_⟩
  · rw [shared_value (F := slbwF) (prepareBw_ok (levels_ok 1) _) (prepareBw_ok (levels_ok 2) _), levels_ls]
    have : slbw (levels 1) [0] (bwDict (levels 2) (bwDict (levels 1) fun _ => none)) 1 = slbw (levels 2) [0] (bwDict (levels 2) (bwDict (levels 1) fun _ => none)) 1 := rfl
    simp only [evalAll]
    rw [show slbwF.eval = slbw from rfl, this, ey]
    rfl
  · rw [vx, vy]
    have := unit_pos
    intro h
    push_cast at h
    linarith

end
end ASAPy.Recon
