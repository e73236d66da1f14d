import Verif.Thermal.Spec
import Verif.Dists.Lemmas

/-!
# Reading of thermal scattering data
-/

set_option linter.unusedSectionVars false

namespace ASAPy.Thermal

open ASAPy.Hdf5 (Text Dist Uni mkDiscrete mkTabular)
open ASAPy.FromAce (Arrays AtL item slice pyTrunc slice_at at_append item_nat slice_nat)
open Dec

/-! ### Strides -/

theorem everyFrom_get {α : Type} (s : Nat) (hs : 0 < s) : ∀ (l : List α) (j i : Nat), (everyFrom s j l)[i]? = l[j + i * s]? := by
  intro l
  induction l with
  | nil => intro j i; simp [everyFrom]
  | cons a l ih =>
    intro j i
    cases j with
    | zero =>
      cases i with
      | zero => simp [everyFrom]
      | succ i =>
        simp only [everyFrom, List.getElem?_cons_succ, ih]
        rw [show 0 + (i + 1) * s = (s - 1 + i * s) + 1 by rw [Nat.succ_mul]; omega, List.getElem?_cons_succ]
    | succ j =>
      simp only [everyFrom, ih]
      rw [show j + 1 + i * s = (j + i * s) + 1 by omega, List.getElem?_cons_succ]

theorem strided_get {α : Type} (l : List α) {a m s : Nat} (hs : 0 < s) (a' b' s' : Int) (ha : a' = a) (hb : b' = ((a + m * s : Nat) : Int)) (hs' : s' = s) :
    ∃ r, strided l a' b' s' = .ok r ∧ ∀ i, r[i]? = if i < m then l[a + i * s]? else none := by
  subst ha hb hs'
  refine ⟨_, by rw [strided, if_neg (by omega)], fun i => ?_⟩
  rw [everyFrom_get _ (by omega), slice_nat]
  simp only [List.getElem?_drop, List.getElem?_take, Int.toNat_natCast, Nat.zero_add]
  by_cases hi : i < m
  · rw [if_pos hi, if_pos]
    have : (i + 1) * s ≤ m * s := Nat.mul_le_mul_right s hi
    rw [Nat.succ_mul] at this
    omega
  · rw [if_neg hi, if_neg]
    have : m * s ≤ i * s := Nat.mul_le_mul_right s (by omega)
    omega

/-- Records of the same length. -/
theorem flatten_get {α : Type} {s : Nat} : ∀ (recs : List (List α)), (∀ r ∈ recs, r.length = s) → ∀ (i j : Nat), j < s → recs.flatten[i * s + j]? = recs[i]?.bind (·[j]?) := by
  intro recs
  induction recs with
  | nil => intro _ i j _; simp
  | cons r recs ih =>
    intro h i j hj
    have hr := h r (by simp)
    cases i with
    | zero =>
      simp only [List.flatten_cons, Nat.zero_mul, Nat.zero_add, List.getElem?_cons_zero, Option.bind_some]
      rw [List.getElem?_append_left (by omega)]
    | succ i =>
      simp only [List.flatten_cons, List.getElem?_cons_succ]
      rw [List.getElem?_append_right (by rw [Nat.succ_mul]; omega), ← ih (fun r hr => h r (by simp [hr])) i j hj]
      congr 1
      rw [Nat.succ_mul, hr]
      omega

theorem flatten_length {α : Type} {s : Nat} : ∀ (recs : List (List α)), (∀ r ∈ recs, r.length = s) → recs.flatten.length = recs.length * s := by
  intro recs
  induction recs with
  | nil => simp
  | cons r recs ih =>
    intro h
    rw [List.flatten_cons, List.length_append, h r (by simp), ih (fun r hr => h r (by simp [hr])), List.length_cons, Nat.succ_mul, Nat.add_comm]

theorem getElem?_of_lt_flatten {α : Type} {s : Nat} {l : List α} {p : Nat} {recs : List (List α)} (h : AtL l p recs.flatten) (hl : ∀ r ∈ recs, r.length = s) {i j : Nat} (hi : i < recs.length) (hj : j < s) :
    l[p + (i * s + j)]? = recs[i][j]? := by
  have hr : recs[i].length = s := hl _ (List.getElem_mem hi)
  have h1 : recs.flatten[i * s + j]? = some (recs[i][j]'(by omega)) := by
    rw [flatten_get recs hl i j hj, List.getElem?_eq_getElem hi, Option.bind_some, List.getElem?_eq_getElem (by omega)]
  rw [h _ _ h1, List.getElem?_eq_getElem (by omega)]

/-- Column `j` of records. -/
theorem strided_column {α β : Type} {l : List α} {p s j : Nat} {recs : List β} (g : β → List α) (f : β → α) (h : AtL l p (recs.map g).flatten) (hl : ∀ r ∈ recs, (g r).length = s) (hj : j < s)
    (hf : ∀ r ∈ recs, (g r)[j]? = some (f r)) (a' b' s' : Int) (ha : a' = ((p + j : Nat) : Int)) (hb : b' = a' + recs.length * s') (hs' : s' = s) : strided l a' b' s' = .ok (recs.map f) := by
  obtain ⟨r, h1, h2⟩ := strided_get l (a := p + j) (m := recs.length) (s := s) (by omega) a' b' s' ha (by subst ha hb hs'; push_cast; ring) hs'
  rw [h1]
  congr 1
  apply List.ext_getElem?
  intro i
  rw [h2, List.getElem?_map]
  by_cases hi : i < recs.length
  · rw [if_pos hi, List.getElem?_eq_getElem hi, Option.map_some]
    have := getElem?_of_lt_flatten h (fun r hr => by
      obtain ⟨b, hb, rfl⟩ := List.mem_map.1 hr
      exact hl b hb) (i := i) (j := j) (by simpa using hi) hj
    rw [show p + j + i * s = p + (i * s + j) by omega, this, List.getElem_map]
    exact hf _ (List.getElem_mem hi)
  · rw [if_neg hi, List.getElem?_eq_none (by omega)]
    rfl

/-! ### Reshaping -/

theorem chunk_flatten {α : Type} {m : Nat} : ∀ (rows : List (List α)), (∀ r ∈ rows, r.length = m) → (List.range rows.length).map (fun i => (rows.flatten.drop (i * m)).take m) = rows := by
  intro rows h
  apply List.ext_getElem
  · simp
  · intro i h1 h2
    simp only [List.getElem_map, List.getElem_range]
    apply List.ext_getElem?
    intro j
    have hr := h _ (List.getElem_mem h2)
    rw [List.getElem?_take]
    by_cases hj : j < m
    · rw [if_pos hj, List.getElem?_drop, flatten_get rows h i j hj, List.getElem?_eq_getElem h2, Option.bind_some]
    · rw [if_neg hj, List.getElem?_eq_none (by omega)]

theorem reshape_flatten {α : Type} {m : Nat} (rows : List (List α)) (h : ∀ r ∈ rows, r.length = m) (n' m' : Int) (hn : n' = rows.length) (hm : m' = m) : reshape rows.flatten n' m' = .ok rows := by
  subst hn hm
  have hl := flatten_length rows h
  rw [reshape, if_neg]
  · simp only [Int.toNat_natCast]
    rw [chunk_flatten rows h]
  · rw [hl]; push_cast
    simp

theorem mapM_ok {α β : Type} {f : α → Except PyErr β} {g : α → β} : ∀ (l : List α), (∀ x ∈ l, f x = .ok (g x)) → l.mapM f = .ok (l.map g) := by
  intro l
  induction l with
  | nil => intro _; rfl
  | cons x l ih =>
    intro h
    rw [List.mapM_cons, h x (by simp), ih fun y hy => h y (by simp [hy])]
    rfl

section
variable {K : Type} [Field K] [LinearOrder K] [FloorRing K]

/-- Discrete outgoing energies. -/
theorem discreteOut_ok {a : Arrays K} {p k m : Nat} {out : List (List (K × List K))} (hr : ∀ r ∈ out, r.length = k ∧ ∀ e ∈ r, e.2.length = m + 1) (h : AtL a.xss p (out.flatten.map fun e => e.1 :: e.2).flatten)
    (n' : Int) (hn : n' = out.length) : discreteOut a n' k m p = .ok (out.map fun r => r.map fun e => e.1 * 1000000, out.map fun r => r.map fun e => e.2) := by
  subst hn
  have hflat : out.flatten.length = out.length * k := flatten_length out fun r hr' => (hr r hr').1
  have hrec : ∀ e ∈ out.flatten, (e.1 :: e.2).length = m + 2 := by
    intro e he
    obtain ⟨r, h1, h2⟩ := List.mem_flatten.1 he
    simp [(hr r h1).2 e h2]
  have h1 : strided a.xss (p : Int) (p + out.length * k * (m + 2)) (m + 2) = .ok (out.flatten.map Prod.fst) :=
    strided_column (s := m + 2) (j := 0) (fun e : K × List K => e.1 :: e.2) Prod.fst h hrec (by omega) (fun r _ => rfl) _ _ _ (by simp) (by rw [hflat]; push_cast; ring) (by push_cast; ring)
  have h2 : (out.flatten.map Prod.fst).map (· * (1000000 : K)) = (out.map fun r => r.map fun e => e.1 * 1000000).flatten := by
    rw [List.map_map, List.map_flatten]
    rfl
  have h3 : slice a.xss (p : Int) (p + out.length * k * (m + 2)) = (out.map fun r => (r.map fun e => e.1 :: e.2).flatten).flatten := by
    rw [slice_at h _ _ rfl]
    · rw [List.map_flatten, List.flatten_flatten, List.map_map]
      rfl
    · rw [flatten_length (s := m + 2) _ (fun r hr' => by
        obtain ⟨e, he, rfl⟩ := List.mem_map.1 hr'
        exact hrec e he), List.length_map, hflat]
      push_cast
      ring
  have hrow : ∀ r ∈ out, (r.map fun e => e.1 :: e.2).flatten.length = k * (m + 2) := by
    intro r hr'
    rw [flatten_length (s := m + 2) _ (fun x hx => by
      obtain ⟨e, he, rfl⟩ := List.mem_map.1 hx
      simp [(hr r hr').2 e he]), List.length_map, (hr r hr').1]
  unfold discreteOut
  rw [h1]
  simp only [bind, Except.bind]
  rw [h2, reshape_flatten (m := k) _ (fun r hr' => by
    obtain ⟨e, he, rfl⟩ := List.mem_map.1 hr'
    simp [(hr e he).1]) _ _ (by simp) rfl]
  simp only
  rw [h3, reshape_flatten (m := k * (m + 2)) _ (fun r hr' => by
    obtain ⟨e, he, rfl⟩ := List.mem_map.1 hr'
    exact hrow e he) _ _ (by simp) (by push_cast; ring)]
  simp only
  rw [List.mapM_map, mapM_ok (g := fun r => r.map fun e => e.1 :: e.2) out]
  · simp only [Except.ok.injEq, Prod.mk.injEq, true_and, List.map_map]
    apply List.map_congr_left
    intro r _
    simp
  · intro r hr'
    simp only [Function.comp]
    exact reshape_flatten (m := m + 2) _ (fun x hx => by
      obtain ⟨e, he, rfl⟩ := List.mem_map.1 hx
      simp [(hr r hr').2 e he]) _ _ (by simp [(hr r hr').1]) (by push_cast; ring)

theorem cumsum_replicate (q : K) : ∀ (m : Nat) (acc : K), cumsum acc (List.replicate m q) = (List.range m).map fun k : Nat => acc + ((k : K) + 1) * q := by
  intro m
  induction m with
  | zero => intro acc; simp [cumsum]
  | succ m ih =>
    intro acc
    rw [List.replicate_succ, cumsum, ih, List.range_succ_eq_map, List.map_cons, List.map_map]
    congr 1
    · simp
    · apply List.map_congr_left
      intro k _
      simp only [Function.comp]
      push_cast
      ring

variable [IsStrictOrderedRing K]

theorem equallyLikely_eq {mu : List K} {m : Nat} (h : mu.length = m) :
    mkDiscrete mu (List.replicate m (1 / (m : K))) (cumsum 0 (List.replicate m (1 / (m : K)))) = .ok (equallyLikely mu) := by
  subst h
  rw [mkDiscrete, if_pos]
  · rw [equallyLikely, cumsum_replicate]
    congr 2
    · simp
    · apply List.map_congr_left
      intro k _
      ring
  · simp only [List.all_eq_true, decide_eq_true_eq]
    intro x hx
    rw [(List.mem_replicate.1 hx).2]
    positivity

theorem cosinesOut_ok {a : Arrays K} {m : Nat} : ∀ (r : List (K × K × K × List K)) (l : Nat), (∀ e ∈ r, e.2.2.2.length = m) →
    AtL a.xss (l + 1) (r.map fun e => e.1 :: e.2.1 :: e.2.2.1 :: e.2.2.2).flatten → cosinesOut a m r.length l = .ok (r.map fun e => equallyLikely e.2.2.2) := by
  intro r
  induction r with
  | nil => intro l _ _; rfl
  | cons e r ih =>
    intro l hm h
    have hme := hm e (by simp)
    rw [List.map_cons, List.flatten_cons] at h
    obtain ⟨h1, h2⟩ := at_append h
    have h1' : AtL a.xss (l + 4) e.2.2.2 := by
      intro k v hk
      have := h1 (k + 3) v (by simpa using hk)
      rw [← this]
      congr 1
      omega
    rw [List.length_cons, cosinesOut, if_neg (by omega)]
    simp only [Int.toNat_natCast, Int.cast_natCast]
    rw [slice_at h1' _ _ (by push_cast; ring) (by rw [hme]), equallyLikely_eq hme]
    simp only [bind, Except.bind]
    have := ih (l + (3 + m)) (fun e he => hm e (by simp [he])) (by
      intro k v hk
      rw [← h2 k v hk]
      congr 1
      simp [hme]
      omega)
    rw [show ((l : Int) + (3 + (m : Int))) = ((l + (3 + m) : Nat) : Int) by push_cast; ring, this]
    rfl

theorem spectrumOut_ok {a : Arrays K} {m : Nat} {r : List (K × K × K × List K)} {l : Nat} (hm : ∀ e ∈ r, e.2.2.2.length = m)
    (h : AtL a.xss (l + 1) (r.map fun e => e.1 :: e.2.1 :: e.2.2.1 :: e.2.2.2).flatten) : spectrumOut a m l r.length = .ok (spectrumEv r, r.map fun e => equallyLikely e.2.2.2) := by
  have hl : ∀ e ∈ r, (e.1 :: e.2.1 :: e.2.2.1 :: e.2.2.2).length = m + 3 := fun e he => by simp [hm e he]
  unfold spectrumOut
  rw [strided_column (s := m + 3) (j := 0) (fun e : K × K × K × List K => e.1 :: e.2.1 :: e.2.2.1 :: e.2.2.2) (fun e => e.1) h hl (by omega) (fun _ _ => rfl) _ _ _ (by push_cast; ring) rfl (by push_cast; ring),
    strided_column (s := m + 3) (j := 1) (fun e : K × K × K × List K => e.1 :: e.2.1 :: e.2.2.1 :: e.2.2.2) (fun e => e.2.1) h hl (by omega) (fun _ _ => rfl) _ _ _ (by push_cast; ring) rfl (by push_cast; ring),
    strided_column (s := m + 3) (j := 2) (fun e : K × K × K × List K => e.1 :: e.2.1 :: e.2.2.1 :: e.2.2.2) (fun e => e.2.2.1) h hl (by omega) (fun _ _ => rfl) _ _ _ (by push_cast; ring) rfl (by push_cast; ring)]
  simp only [bind, Except.bind, mkTabular, Bool.true_or, if_true, Int.toNat_natCast]
  rw [cosinesOut_ok r l hm h]
  simp [spectrumEv]

theorem continuousOut_ok {a : Arrays K} {p m n : Nat} {locs : List Nat} {out : List (List (K × K × K × List K))} {energy : List K} (hl : locs.length = n) (ho : out.length = n)
    (hm : ∀ r ∈ out, ∀ e ∈ r, e.2.2.2.length = m) (h : AtL a.xss p (locs.map (fun l : Nat => (l : K)) ++ out.map fun r => (r.length : K)))
    (hd : ∀ (i l : Nat) r, locs[i]? = some l → out[i]? = some r → AtL a.xss (l + 1) (r.map fun e => e.1 :: e.2.1 :: e.2.2.1 :: e.2.2.2).flatten) :
    continuousOut a n m p energy = .ok (.correlated ⟨[(n : Int)], [2], energy⟩ (out.map spectrumEv) (out.map fun r => r.map fun e => equallyLikely e.2.2.2)) := by
  obtain ⟨h1, h2⟩ := at_append h
  have e1 : (slice a.xss (p : Int) (p + n)).map pyTrunc = locs.map fun l : Nat => (l : Int) := by
    rw [slice_at h1 _ _ rfl (by simp [hl]), List.map_map]
    apply List.map_congr_left
    intro l _
    exact FromAce.pyTrunc_nat l
  have e2 : (slice a.xss ((p : Int) + n) (p + 2 * n)).map pyTrunc = out.map fun r => (r.length : Int) := by
    rw [slice_at h2 _ _ (by simp [hl]) (by simp [ho]; ring), List.map_map]
    apply List.map_congr_left
    intro r _
    exact FromAce.pyTrunc_nat _
  unfold continuousOut
  simp only [e1, e2]
  rw [if_neg (by simp [hl, ho])]
  have hz : (locs.map (fun l : Nat => (l : Int))).zip (out.map fun r => (r.length : Int)) = (locs.zip out).map fun q => ((q.1 : Int), (q.2.length : Int)) := by
    rw [List.zip_map]
    rfl
  rw [hz, List.mapM_map, mapM_ok (g := fun q : Nat × List (K × K × K × List K) => (spectrumEv q.2, q.2.map fun e => equallyLikely e.2.2.2))]
  · have h3 : (locs.zip out).map Prod.snd = out := List.map_snd_zip (by omega)
    simp only [bind, Except.bind, List.map_map]
    congr 2
    · conv_rhs => rw [← h3]
      rw [List.map_map]; rfl
    · conv_rhs => rw [← h3]
      rw [List.map_map]; rfl
  · intro q hq
    obtain ⟨i, hi, rfl⟩ := List.getElem_of_mem hq
    simp only [Function.comp, List.getElem_zip]
    have hi' : i < locs.length ∧ i < out.length := by simpa using hi
    exact spectrumOut_ok (hm _ (List.getElem_mem _)) (hd i _ _ (List.getElem?_eq_getElem hi'.1) (List.getElem?_eq_getElem hi'.2))

end

end ASAPy.Thermal
