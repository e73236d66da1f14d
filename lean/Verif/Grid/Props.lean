import Verif.Grid.Spec
import Mathlib.Topology.MetricSpace.UniformConvergence
import Mathlib.Topology.Order.Compact
import Mathlib.Topology.Instances.Real.Lemmas
import Mathlib.Topology.Algebra.Order.Archimedean
import Mathlib.Tactic.FieldSimp
import Mathlib.Tactic.Ring
import Mathlib.Tactic.Linarith
import Mathlib.Algebra.Order.Ring.Rat
import Mathlib.Data.List.Chain

/-! # C62, C77: thinning and linearization -/

namespace ASAPy.Grid

variable {K : Type} [Field K] [LinearOrder K] [IsStrictOrderedRing K]

theorem chord_slope (a fa b fb x : K) (h : b - a ≠ 0) : fa + (fb - fa) / (b - a) * (x - a) = chord a fa b fb x := by
  unfold chord
  field_simp
  ring

/-- A point that passes the test. -/
def Good (tol : K) (x y : Nat → K) (l r i : Nat) : Prop := |chord (x l) (y l) (x r) (y r) (x i) - y i| ≤ tol * |y i|

theorem good_of_bad {tol : K} (ht : 0 < tol) {x y : Nat → K} {l r i : Nat} (hx : x l ≠ x r) (h : bad tol x y l r i = false) : Good tol x y l r i := by
  unfold bad at h
  have hd : x r - x l ≠ 0 := sub_ne_zero.2 (Ne.symm hx)
  by_cases hy : |y i| > 0
  · rw [if_pos hy, if_neg hd] at h
    simp only [gt_iff_lt, decide_eq_false_iff_not, not_lt] at h
    rw [chord_slope _ _ _ _ _ hd, abs_div, div_le_iff₀ hy] at h
    exact h
  · rw [if_neg hy] at h
    simp only [gt_iff_lt, decide_eq_false_iff_not, not_lt] at h
    linarith

theorem anyBad_false {tol : K} {x y : Nat → K} {l r : Nat} (h : anyBad tol x y l r = false) (i : Nat) (h1 : l < i) (h2 : i < r) :
    bad tol x y l r i = false := by
  unfold anyBad at h
  rw [List.any_eq_false] at h
  have := h (i - (l + 1)) (List.mem_range.2 (by omega))
  rw [show l + 1 + (i - (l + 1)) = i by omega] at this
  simpa using this

/-- What holds of the removed points up to `l`: each lies between two that are kept, with only removed points between these, and is good. -/
def Settled (tol : K) (x y : Nat → K) (gone : Nat → Bool) (l : Nat) : Prop :=
  ∀ i, gone i = true → ∃ a b, a < i ∧ i < b ∧ b ≤ l ∧ gone a = false ∧ gone b = false ∧ (∀ j, a < j → j < b → gone j = true) ∧ Good tol x y a b i

theorem settled_remove {tol : K} {x y : Nat → K} {gone : Nat → Bool} {l r : Nat} (hlr : l + 2 ≤ r) (hs : Settled tol x y gone l) (hl : gone l = false)
    (hg : ∀ i, l < i → i < r - 1 → Good tol x y l (r - 1) i) : Settled tol x y (remove gone l r) (r - 1) ∧ remove gone l r (r - 1) = false := by
  have hbelow : ∀ i, gone i = true → i < l := by
    intro i hi
    obtain ⟨a, b, -, h2, h3, -⟩ := hs i hi
    omega
  have hlow : ∀ j, j ≤ l → remove gone l r j = gone j := by
    intro j hj
    simp only [remove]
    rw [show decide (l + 1 ≤ j) = false by simp; omega]
    simp
  have hlast : remove gone l r (r - 1) = false := by
    simp only [remove, Bool.or_eq_false_iff]
    refine ⟨?_, by simp⟩
    by_contra hc
    have := hbelow (r - 1) (by simpa using hc)
    omega
  refine ⟨?_, hlast⟩
  intro i hi
  by_cases h : gone i = true
  · obtain ⟨a, b, h1, h2, h3, h4, h5, h6, h7⟩ := hs i h
    refine ⟨a, b, h1, h2, by omega, by rw [hlow a (by omega), h4], by rw [hlow b h3, h5], fun j hj hj' => by rw [hlow j (by omega), h6 j hj hj'], h7⟩
  · simp only [remove, Bool.or_eq_true, Bool.and_eq_true, decide_eq_true_eq] at hi
    have hi' : l + 1 ≤ i ∧ i < r - 1 := by
      rcases hi with hi | hi
      · exact absurd hi h
      · exact hi
    refine ⟨l, r - 1, by omega, by omega, le_rfl, by rw [hlow l le_rfl, hl], hlast, fun j hj hj' => ?_, hg i (by omega) hi'.2⟩
    simp only [remove, Bool.or_eq_true, Bool.and_eq_true, decide_eq_true_eq]
    right
    omega

theorem thinGo_settled {tol : K} (ht : 0 < tol) {x y : Nat → K} {n : Nat} (hx : ∀ l r, l + 2 ≤ r → r < n → x l ≠ x r) :
    ∀ (k l r : Nat) (gone : Nat → Bool), n ≤ k + r → l + 2 ≤ r → r ≤ n → Settled tol x y gone l → gone l = false →
      (∀ i, l < i → i < r - 1 → Good tol x y l (r - 1) i) → Settled tol x y (thinGo tol x y n k l r gone) (n - 1) ∧ thinGo tol x y n k l r gone (n - 1) = false
  | 0, l, r, gone, hk, hlr, hrn, hs, hl, hg => by
    have : r = n := by omega
    subst this
    exact settled_remove hlr hs hl hg
  | k + 1, l, r, gone, hk, hlr, hrn, hs, hl, hg => by
    rw [thinGo]
    by_cases hc : l + 2 < n ∧ r < n
    · rw [if_pos hc]
      by_cases hb : anyBad tol x y l r = true
      · rw [if_pos hb]
        obtain ⟨h1, h2⟩ := settled_remove hlr hs hl hg
        exact thinGo_settled ht hx k (r - 1) (r + 1) _ (by omega) (by omega) (by omega) h1 h2 fun i hi hi' => by omega
      · rw [if_neg hb]
        refine thinGo_settled ht hx k l (r + 1) gone (by omega) (by omega) (by omega) hs hl fun i hi hi' => ?_
        have := anyBad_false (by simpa using hb) i hi (by omega)
        exact good_of_bad ht (hx l r hlr hc.2) this
    · rw [if_neg hc]
      have : r = n := by omega
      subst this
      exact settled_remove hlr hs hl hg

theorem settled_thin {tol : K} (ht : 0 < tol) {x y : Nat → K} {n : Nat} (hx : ∀ l r, l + 2 ≤ r → r < n → x l ≠ x r) :
    Settled tol x y (thinGo tol x y n n 0 2 fun _ => false) (n - 1) ∧ thinGo tol x y n n 0 2 (fun _ => false) (n - 1) = false := by
  by_cases hn : 2 ≤ n
  · exact thinGo_settled ht hx n 0 2 (fun _ => false) (by omega) (by omega) hn (fun i hi => absurd hi (by simp)) rfl fun i hi hi' => by omega
  · have h0 : ∀ k i, thinGo tol x y n k 0 2 (fun _ => false) i = false := by
      intro k i
      have hr : remove (fun _ => false) 0 2 i = false := by
        simp only [remove, Bool.false_or, Bool.and_eq_false_iff, decide_eq_false_iff_not]
        omega
      cases k with
      | zero => exact hr
      | succ k =>
        rw [thinGo, if_neg (by omega)]
        exact hr
    refine ⟨fun i hi => ?_, h0 _ _⟩
    rw [h0] at hi
    exact absurd hi (by decide)

/-- C62: for every tolerance above zero and every grid in which no value is repeated more than once, the points returned are a subsequence with the
first and the last point, and every other point is reproduced within the relative tolerance by the straight line through the two points kept next to it. -/
theorem C62_thin_partial (tol : K) (ht : 0 < tol) (x y : Nat → K) (n : Nat) (hn : 0 < n) (hx : ∀ l r, l + 2 ≤ r → r < n → x l ≠ x r) :
    (thin tol x y n).Sublist (List.range n) ∧ 0 ∈ thin tol x y n ∧ n - 1 ∈ thin tol x y n ∧
    ∀ i < n, i ∉ thin tol x y n → ∃ l r, l ∈ thin tol x y n ∧ r ∈ thin tol x y n ∧ l < i ∧ i < r ∧ (∀ j, l < j → j < r → j ∉ thin tol x y n) ∧
      |chord (x l) (y l) (x r) (y r) (x i) - y i| ≤ tol * |y i| := by
  obtain ⟨h1, h2⟩ := settled_thin ht (y := y) hx
  have hm : ∀ i, i ∈ thin tol x y n ↔ i < n ∧ thinGo tol x y n n 0 2 (fun _ => false) i = false := by
    intro i
    simp [thin]
  refine ⟨List.filter_sublist, (hm 0).2 ⟨hn, ?_⟩, (hm _).2 ⟨by omega, h2⟩, ?_⟩
  · by_contra hc
    obtain ⟨a, b, h, -⟩ := h1 0 (by simpa using hc)
    omega
  · intro i hi hni
    have hg : thinGo tol x y n n 0 2 (fun _ => false) i = true := by
      by_contra hc
      exact hni ((hm i).2 ⟨hi, by simpa using hc⟩)
    obtain ⟨a, b, h3, h4, h5, h6, h7, h8, h9⟩ := h1 i hg
    refine ⟨a, b, (hm a).2 ⟨by omega, h6⟩, (hm b).2 ⟨by omega, h7⟩, h3, h4, fun j hj hj' hjm => ?_, h9⟩
    have := ((hm j).1 hjm).2
    rw [h8 j hj hj'] at this
    exact absurd this (by decide)

/-- Without a tolerance above zero the test of points with the value zero is lost: they are dropped wherever the others allow it. -/
theorem C62_zero_tolerance_refuted : thin (0 : ℚ) (fun i => i) (fun i => if i = 1 then 0 else 1) 3 = [0, 2] := by decide +kernel

/-- Five points of which two lie on straight lines. -/
example : thin (1 / 1000 : ℚ) (fun i => i) (fun i => [1, 2, 3, 1, 2].getD i 0) 5 = [0, 2, 3, 4] := by decide +kernel

/-! ### Linearization -/

/-- The points without the values, which are always those of the function. -/
def refineX (tol : K) (f : K → K) : Nat → List K → Option (List K × List K)
  | 0, _ => none
  | _ + 1, [] => some ([], [])
  | _ + 1, [a] => some ([], [a])
  | k + 1, lo :: hi :: rest =>
    if tooFar tol f (lo, f lo) (hi, f hi) then refineX tol f k (lo :: 2⁻¹ * (lo + hi) :: hi :: rest)
    else (refineX tol f k (hi :: rest)).map fun p => (lo :: p.1, p.2)

def linearizeGoX (tol : K) (f : K → K) (k : Nat) : List K → List K → Option (List K × List K)
  | stack, [] => some ([], stack)
  | stack, x :: xs => match refineX tol f k (stack ++ [x]) with
    | none => none
    | some (out, stack) => (linearizeGoX tol f k stack xs).map fun p => (out ++ p.1, p.2)

/-- A point with its value. -/
def pt (f : K → K) (x : K) : K × K := (x, f x)

theorem refine_eq (tol : K) (f : K → K) : ∀ (k : Nat) (st : List K),
    refine tol f k (st.map (pt f)) = (refineX tol f k st).map fun p => (p.1.map (pt f), p.2.map (pt f))
  | 0, st => by cases st <;> rfl
  | _ + 1, [] => rfl
  | _ + 1, [a] => rfl
  | k + 1, lo :: hi :: rest => by
    simp only [List.map_cons, refine, refineX]
    have h1 := refine_eq tol f k (lo :: 2⁻¹ * (lo + hi) :: hi :: rest)
    have h2 := refine_eq tol f k (hi :: rest)
    simp only [List.map_cons] at h1 h2
    by_cases h : tooFar tol f (lo, f lo) (hi, f hi) = true
    · rw [if_pos h, if_pos (show tooFar tol f (pt f lo) (pt f hi) = true from h)]
      exact h1
    · rw [if_neg h, if_neg (show ¬ tooFar tol f (pt f lo) (pt f hi) = true from h), h2]
      cases refineX tol f k (hi :: rest) <;> rfl

theorem linearizeGo_eq (tol : K) (f : K → K) (k : Nat) : ∀ (xs st : List K),
    linearizeGo tol f k (st.map (pt f)) xs = (linearizeGoX tol f k st xs).map fun p => (p.1.map (pt f), p.2.map (pt f))
  | [], st => rfl
  | x :: xs, st => by
    have h := refine_eq tol f k (st ++ [x])
    rw [List.map_append] at h
    rw [linearizeGo, linearizeGoX, show (x, f x) = pt f x from rfl, show [pt f x] = [x].map (pt f) from rfl, h]
    rcases refineX tol f k (st ++ [x]) with _ | ⟨o, r⟩
    · rfl
    · simp only [Option.map_some]
      rw [linearizeGo_eq tol f k xs r]
      rcases linearizeGoX tol f k r xs with _ | ⟨o', r'⟩
      · rfl
      · simp

theorem midOk_of_tooFar {tol : K} (ht : 0 ≤ tol) {f : K → K} {a b : K} (hab : a < b) (h : tooFar tol f (a, f a) (b, f b) = false) : MidOk tol f a b := by
  unfold tooFar at h
  have hd : b - a ≠ 0 := (sub_pos.2 hab).ne'
  simp only [chord_slope _ _ _ _ _ hd] at h
  have e : (2 : K)⁻¹ * (a + b) = (a + b) / 2 := by field_simp
  rw [e] at h
  unfold MidOk
  by_cases hz : f ((a + b) / 2) = 0
  · rw [if_pos hz] at h
    simp only [ne_eq, decide_not, Bool.not_eq_eq_eq_not, Bool.not_false, decide_eq_true_eq] at h
    rw [h, hz]
    simp
  · rw [if_neg hz] at h
    simp only [gt_iff_lt, decide_eq_false_iff_not, not_lt] at h
    rw [abs_div, div_le_iff₀ (abs_pos.2 hz)] at h
    exact h

/-- The relation between neighbours of the result. -/
def Step (tol : K) (f : K → K) (a b : K) : Prop := a < b ∧ MidOk tol f a b

theorem refine_spec {tol : K} (ht : 0 ≤ tol) {f : K → K} : ∀ (k : Nat) (a : K) (st out rest : List K), refineX tol f k (a :: st) = some (out, rest) →
    (a :: st).IsChain (· < ·) → ∃ z, rest = [z] ∧ (a :: st).getLast? = some z ∧ (out ++ [z]).IsChain (Step tol f) ∧ (a :: st).Sublist (out ++ [z]) ∧
      (out ++ [z]).head? = some a
  | 0, _, _, _, _, h, _ => by simp [refineX] at h
  | k + 1, a, [], out, rest, h, _ => by
    simp only [refineX, Option.some.injEq, Prod.mk.injEq] at h
    obtain ⟨rfl, rfl⟩ := h
    exact ⟨a, rfl, rfl, by simp, by simp, rfl⟩
  | k + 1, a, b :: st, out, rest, h, hc => by
    rw [refineX] at h
    rw [List.isChain_cons_cons] at hc
    by_cases hf : tooFar tol f (a, f a) (b, f b) = true
    · rw [if_pos hf] at h
      have e : (2 : K)⁻¹ * (a + b) = (a + b) / 2 := by field_simp
      rw [e] at h
      obtain ⟨z, h1, h2, h3, h4, h5⟩ := refine_spec ht k a _ out rest h (by
        rw [List.isChain_cons_cons, List.isChain_cons_cons]
        exact ⟨by linarith [hc.1], by linarith [hc.1], hc.2⟩)
      refine ⟨z, h1, by simpa [List.getLast?_cons] using h2, h3, ?_, h5⟩
      exact (List.Sublist.cons₂ a (List.sublist_cons_self _ _)).trans h4
    · rw [if_neg hf] at h
      rcases hr : refineX tol f k (b :: st) with _ | ⟨o, r⟩
      · rw [hr] at h; simp at h
      · rw [hr] at h
        simp only [Option.map_some, Option.some.injEq, Prod.mk.injEq] at h
        obtain ⟨rfl, rfl⟩ := h
        obtain ⟨z, h1, h2, h3, h4, h5⟩ := refine_spec ht k b st o r hr hc.2
        refine ⟨z, h1, by rw [List.getLast?_cons_cons]; exact h2, ?_, ?_, rfl⟩
        · cases ho : o ++ [z] with
          | nil => simp at ho
          | cons w ws =>
            rw [ho] at h3 h5
            simp only [List.head?_cons, Option.some.injEq] at h5
            rw [List.cons_append, ho, List.isChain_cons_cons, h5]
            exact ⟨⟨hc.1, midOk_of_tooFar ht hc.1 (by simpa using hf)⟩, h5 ▸ h3⟩
        · rw [List.cons_append]
          exact List.Sublist.cons₂ a h4

theorem linearizeGo_spec {tol : K} (ht : 0 ≤ tol) {f : K → K} {k : Nat} : ∀ (xs : List K) (a : K) (out rest : List K),
    linearizeGoX tol f k [a] xs = some (out, rest) → (a :: xs).IsChain (· < ·) →
    ∃ z, rest = [z] ∧ (a :: xs).getLast? = some z ∧ (out ++ [z]).IsChain (Step tol f) ∧ (a :: xs).Sublist (out ++ [z]) ∧ (out ++ [z]).head? = some a
  | [], a, out, rest, h, _ => by
    simp only [linearizeGoX, Option.some.injEq, Prod.mk.injEq] at h
    obtain ⟨rfl, rfl⟩ := h
    exact ⟨a, rfl, rfl, by simp, by simp, rfl⟩
  | b :: xs, a, out, rest, h, hc => by
    rw [List.isChain_cons_cons] at hc
    rw [linearizeGoX] at h
    rcases hr : refineX tol f k ([a] ++ [b]) with _ | ⟨o, r⟩
    · rw [hr] at h; simp at h
    · rw [hr] at h
      obtain ⟨z, rfl, h2, h3, h4, h5⟩ := refine_spec ht k a [b] o r hr (by simpa using hc.1)
      simp only [List.getLast?_cons_cons, List.getLast?_singleton, Option.some.injEq] at h2
      subst h2
      simp only at h
      rcases hl : linearizeGoX tol f k [b] xs with _ | ⟨o', r'⟩
      · rw [hl] at h; simp at h
      · rw [hl] at h
        simp only [Option.map_some, Option.some.injEq, Prod.mk.injEq] at h
        obtain ⟨rfl, rfl⟩ := h
        obtain ⟨z, g1, g2, g3, g4, g5⟩ := linearizeGo_spec ht xs b o' r' hl hc.2
        cases ho : o' ++ [z] with
        | nil => simp at ho
        | cons w ws =>
          rw [ho] at g3 g4 g5
          simp only [List.head?_cons, Option.some.injEq] at g5
          subst g5
          refine ⟨z, g1, by rw [List.getLast?_cons_cons]; exact g2, ?_, ?_, ?_⟩
          · rw [List.append_assoc, ho]
            exact List.isChain_split.2 ⟨h3, g3⟩
          · rw [List.append_assoc, ho]
            have h6 : [a].Sublist o := by
              cases o with
              | nil =>
                simp only [List.nil_append, List.head?_cons, Option.some.injEq] at h5
                exact absurd hc.1 (by rw [h5]; exact lt_irrefl _)
              | cons c o =>
                simp only [List.cons_append, List.head?_cons, Option.some.injEq] at h5
                subst h5
                simp
            exact h6.append g4
          · rw [List.append_assoc, ho]
            cases o with
            | nil =>
              simp only [List.nil_append, List.head?_cons, Option.some.injEq] at h5
              exact absurd hc.1 (by rw [h5]; exact lt_irrefl _)
            | cons c o =>
              simp only [List.cons_append, List.head?_cons] at h5 ⊢
              exact h5

/-! Termination -/

theorem refineX_rest {tol : K} {f : K → K} : ∀ (k : Nat) (a : K) (st out rest : List K), refineX tol f k (a :: st) = some (out, rest) →
    rest = [(a :: st).getLast (by simp)]
  | 0, _, _, _, _, h => by simp [refineX] at h
  | k + 1, a, [], out, rest, h => by
    simp only [refineX, Option.some.injEq, Prod.mk.injEq] at h
    exact h.2.symm
  | k + 1, a, b :: st, out, rest, h => by
    rw [refineX] at h
    by_cases hf : tooFar tol f (a, f a) (b, f b) = true
    · rw [if_pos hf] at h
      have := refineX_rest k a _ out rest h
      simpa using this
    · rw [if_neg hf] at h
      rcases hr : refineX tol f k (b :: st) with _ | ⟨o, r⟩
      · rw [hr] at h; simp at h
      · rw [hr] at h
        simp only [Option.map_some, Option.some.injEq, Prod.mk.injEq] at h
        have := refineX_rest k b st o r hr
        rw [← h.2]
        simpa using this

theorem refineX_mono {tol : K} {f : K → K} : ∀ (k : Nat) (st : List K) (p : List K × List K), refineX tol f k st = some p →
    ∀ k', k ≤ k' → refineX tol f k' st = some p
  | 0, _, _, h, _, _ => by simp [refineX] at h
  | k + 1, st, p, h, 0, hk => by omega
  | k + 1, [], p, h, k' + 1, hk => h
  | k + 1, [a], p, h, k' + 1, hk => h
  | k + 1, lo :: hi :: rest, p, h, k' + 1, hk => by
    rw [refineX] at h ⊢
    by_cases hf : tooFar tol f (lo, f lo) (hi, f hi) = true
    · rw [if_pos hf] at h ⊢
      exact refineX_mono k _ p h k' (by omega)
    · rw [if_neg hf] at h ⊢
      rcases hr : refineX tol f k (hi :: rest) with _ | q
      · rw [hr] at h; simp at h
      · rw [refineX_mono k _ q hr k' (by omega)]
        rw [hr] at h
        exact h

/-- If short intervals are never too far off, an interval of at most `2 ^ n` times that length is finished. -/
theorem refineX_terminates {tol : K} {f : K → K} {A B δ : K} (h : ∀ a b, A ≤ a → b ≤ B → a < b → b - a ≤ δ → tooFar tol f (a, f a) (b, f b) = false) :
    ∀ (n : Nat) (a b : K) (rest : List K), A ≤ a → b ≤ B → a < b → b - a ≤ 2 ^ n * δ → (∃ k p, refineX tol f k (b :: rest) = some p) →
      ∃ k p, refineX tol f k (a :: b :: rest) = some p := by
  have hstop : ∀ (a b : K) (rest : List K), tooFar tol f (a, f a) (b, f b) = false → (∃ k p, refineX tol f k (b :: rest) = some p) →
      ∃ k p, refineX tol f k (a :: b :: rest) = some p := by
    rintro a b rest hf ⟨k, p, hp⟩
    exact ⟨k + 1, (a :: p.1, p.2), by rw [refineX, if_neg (by rw [hf]; decide), hp]; rfl⟩
  intro n
  induction n with
  | zero =>
    intro a b rest hA hB hab hd hr
    rw [pow_zero, one_mul] at hd
    exact hstop a b rest (h a b hA hB hab hd) hr
  | succ n ih =>
    intro a b rest hA hB hab hd hr
    by_cases hf : tooFar tol f (a, f a) (b, f b) = true
    · have e : (2 : K)⁻¹ * (a + b) = (a + b) / 2 := by field_simp
      have h1 := ih ((a + b) / 2) b rest (by linarith) hB (by linarith) (by rw [pow_succ] at hd; linarith) hr
      obtain ⟨k, p, hp⟩ := ih a ((a + b) / 2) (b :: rest) hA (by linarith) (by linarith) (by rw [pow_succ] at hd; linarith) h1
      exact ⟨k + 1, p, by rw [refineX, if_pos hf, e]; exact hp⟩
    · exact hstop a b rest (by simpa using hf) hr

theorem linearizeGoX_terminates {tol : K} {f : K → K} {A B δ : K} [Archimedean K] (hδ : 0 < δ)
    (h : ∀ a b, A ≤ a → b ≤ B → a < b → b - a ≤ δ → tooFar tol f (a, f a) (b, f b) = false) :
    ∀ (xs : List K) (a : K), (a :: xs).IsChain (· < ·) → (∀ x ∈ a :: xs, A ≤ x ∧ x ≤ B) →
      ∃ k, ∀ k', k ≤ k' → ∃ p, linearizeGoX tol f k' [a] xs = some p
  | [], a, _, _ => ⟨0, fun _ _ => ⟨_, rfl⟩⟩
  | b :: xs, a, hc, hm => by
    rw [List.isChain_cons_cons] at hc
    obtain ⟨k1, h1⟩ := linearizeGoX_terminates hδ h xs b hc.2 fun x hx => hm x (List.mem_cons_of_mem _ hx)
    obtain ⟨n, hn⟩ := pow_unbounded_of_one_lt ((b - a) / δ) (one_lt_two : (1 : K) < 2)
    obtain ⟨k, ⟨o, r⟩, hp⟩ := refineX_terminates h n a b [] (hm a (by simp)).1 (hm b (by simp)).2 hc.1 (by
      rw [div_lt_iff₀ hδ] at hn; exact hn.le) ⟨1, _, rfl⟩
    have hr : r = [b] := by
      rcases hq : refineX tol f k [a, b] with _ | q
      · rw [hp] at hq; simp at hq
      · exact refineX_rest k a [b] o r hp
    refine ⟨max k k1, fun k' hk => ?_⟩
    obtain ⟨p, h2⟩ := h1 k' (le_trans (le_max_right _ _) hk)
    have h3 := refineX_mono k _ _ hp k' (le_trans (le_max_left _ _) hk)
    refine ⟨(o ++ p.1, p.2), ?_⟩
    rw [linearizeGoX, show [a] ++ [b] = [a, b] from rfl, h3]
    simp only
    rw [hr, h2]
    rfl

/-- **C77.** For every function and every increasing list of points, if `linearize` returns, it returns values of the function at increasing points. All
the given points are among them, the first and the last of them first and last. Between neighbours the middle is reproduced by linear
interpolation within the relative tolerance. -/
theorem C77_linearize (tol : K) (ht : 0 ≤ tol) (f : K → K) (k : Nat) (xs : List K) (out : List (K × K)) (hxs : xs.Pairwise (· < ·))
    (h : linearize tol f k xs = some out) : (∀ p ∈ out, p.2 = f p.1) ∧ (out.map Prod.fst).Pairwise (· < ·) ∧ xs.Sublist (out.map Prod.fst) ∧
      (out.map Prod.fst).head? = xs.head? ∧ (out.map Prod.fst).getLast? = xs.getLast? ∧
      ∀ pre a b post, out = pre ++ a :: b :: post → MidOk tol f a.1 b.1 := by
  cases xs with
  | nil => simp [linearize] at h
  | cons x xs =>
    rw [linearize, show [(x, f x)] = [x].map (pt f) from rfl, linearizeGo_eq] at h
    rcases hl : linearizeGoX tol f k [x] xs with _ | ⟨o, r⟩
    · rw [hl] at h; simp at h
    · rw [hl] at h
      simp only [Option.map_some, Option.some.injEq] at h
      obtain ⟨z, rfl, h2, h3, h4, h5⟩ := linearizeGo_spec ht xs x o r hl (List.isChain_iff_pairwise.2 hxs)
      rw [← List.map_append] at h
      have he : out.map Prod.fst = o ++ [z] := by
        rw [← h, List.map_map]
        exact List.map_id' _
      refine ⟨?_, ?_, ?_, ?_, ?_, ?_⟩
      · intro p hp
        rw [← h] at hp
        obtain ⟨y, -, rfl⟩ := List.mem_map.1 hp
        rfl
      · rw [he]; exact List.isChain_iff_pairwise.1 (h3.imp fun a b h => h.1)
      · rw [he]; exact h4
      · rw [he, h5]; rfl
      · rw [he, h2]; simp
      · intro pre a b post e
        rw [e] at he
        simp only [List.map_append, List.map_cons] at he
        rw [← he] at h3
        exact ((List.isChain_append_cons_cons.1 h3).2.1).2

/-- A continuous function without zeros is nearly constant on short intervals. -/
theorem short_ok (tol : ℝ) (ht : 0 < tol) (f : ℝ → ℝ) (A B : ℝ) (hf : ContinuousOn f (Set.Icc A B)) (h0 : ∀ t ∈ Set.Icc A B, f t ≠ 0) :
    ∃ δ, 0 < δ ∧ ∀ a b, A ≤ a → b ≤ B → a < b → b - a ≤ δ → tooFar tol f (a, f a) (b, f b) = false := by
  by_cases hne : A ≤ B
  swap
  · exact ⟨1, one_pos, fun a b h1 h2 h3 => by linarith⟩
  obtain ⟨m, hm, hmin⟩ := isCompact_Icc.exists_isMinOn (Set.nonempty_Icc.2 hne) (hf.abs)
  have hm0 : 0 < |f m| := abs_pos.2 (h0 m hm)
  have hu := isCompact_Icc.uniformContinuousOn_of_continuous hf
  rw [Metric.uniformContinuousOn_iff] at hu
  obtain ⟨δ, hδ, hd⟩ := hu (tol * |f m|) (mul_pos ht hm0)
  refine ⟨δ / 2, by linarith, fun a b hA hB hab hl => ?_⟩
  have hb : b - a ≠ 0 := (sub_pos.2 hab).ne'
  have e : (2 : ℝ)⁻¹ * (a + b) = (a + b) / 2 := by field_simp
  have ha' : a ∈ Set.Icc A B := ⟨hA, by linarith⟩
  have hb' : b ∈ Set.Icc A B := ⟨by linarith, hB⟩
  have hc' : (a + b) / 2 ∈ Set.Icc A B := ⟨by linarith, by linarith⟩
  have h1 := hd a ha' ((a + b) / 2) hc' (by rw [Real.dist_eq, abs_lt]; constructor <;> linarith)
  have h2 := hd b hb' ((a + b) / 2) hc' (by rw [Real.dist_eq, abs_lt]; constructor <;> linarith)
  rw [Real.dist_eq] at h1 h2
  have h3 : |f m| ≤ |f ((a + b) / 2)| := hmin hc'
  unfold tooFar
  simp only [e]
  rw [if_neg (h0 _ hc')]
  simp only [gt_iff_lt, decide_eq_false_iff_not, not_lt]
  rw [abs_div, div_le_iff₀ (abs_pos.2 (h0 _ hc'))]
  have e2 : f a + (f b - f a) / (b - a) * ((a + b) / 2 - a) - f ((a + b) / 2) = ((f a - f ((a + b) / 2)) + (f b - f ((a + b) / 2))) / 2 := by
    field_simp
    ring
  rw [e2, abs_div, abs_two]
  have h4 := abs_add_le (f a - f ((a + b) / 2)) (f b - f ((a + b) / 2))
  have h5 := mul_le_mul_of_nonneg_left h3 ht.le
  linarith

/-- **C77, termination.** For a positive tolerance and a function without zeros, continuous on the range of the given points, `linearize` returns. -/
theorem C77_terminates (tol : ℝ) (ht : 0 < tol) (f : ℝ → ℝ) (x : ℝ) (xs : List ℝ) (hxs : (x :: xs).Pairwise (· < ·))
    (A B : ℝ) (hAB : ∀ t ∈ x :: xs, A ≤ t ∧ t ≤ B) (hf : ContinuousOn f (Set.Icc A B)) (h0 : ∀ t ∈ Set.Icc A B, f t ≠ 0) :
    ∃ k out, linearize tol f k (x :: xs) = some out := by
  obtain ⟨δ, hδ, hd⟩ := short_ok tol ht f A B hf h0
  obtain ⟨k, hk⟩ := linearizeGoX_terminates hδ hd xs x (List.isChain_iff_pairwise.2 hxs) hAB
  obtain ⟨p, hp⟩ := hk k le_rfl
  refine ⟨k, (p.1.map (pt f)) ++ p.2.map (pt f), ?_⟩
  rw [linearize, show [(x, f x)] = [x].map (pt f) from rfl, linearizeGo_eq, hp]
  rfl

/-- A parabola on three points: the wide interval is divided, the narrow ones are not. -/
example : linearize (1 / 10 : ℚ) (fun x => x * x) 10 [1, 5 / 4, 3] =
    some [(1, 1), (5 / 4, 25 / 16), (17 / 8, 289 / 64), (3, 9)] := by decide +kernel

end ASAPy.Grid
