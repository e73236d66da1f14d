import Verif.Multipole.SpecEval
import Verif.Multipole.Factors
import Verif.Multipole.Faddeeva

/-! # Lemmas on the evaluation -/

namespace ASAPy.Multipole
open ASAPy.FromAce (item)

theorem item_nat {α : Type} (l : List α) {i : ℕ} (h : i < l.length) (d : α) : item l (i : Int) = .ok (l.getD i d) := by
  unfold item pyGet
  simp [h]

theorem item_out {α : Type} (l : List α) {i : ℕ} (h : l.length ≤ i) : item l (i : Int) = .error .indexError := by
  unfold item pyGet
  simp [h]

theorem ok_bind {α β : Type} (x : α) (f : α → Except PyErr β) : (Except.ok x >>= f) = f x := rfl

/-- A coefficient. -/
def Wmp.coeff (m : Wmp) (i k c : ℕ) : ℝ := ((m.curvefit.getD i []).getD k []).getD c 0

theorem getD_mem {α : Type} {l : List α} {i : ℕ} (h : i < l.length) (d : α) : l.getD i d ∈ l := by
  simp [List.getD, h]

theorem Wmp.Valid.item3 {m : Wmp} (v : m.Valid) {i k c : ℕ} (hi : i < m.windows.length) (hk : k < m.terms) (hc : c < m.channels) :
    item3 m.curvefit i k c = .ok (m.coeff i k c) := by
  have h1 : i < m.curvefit.length := by rw [v.curvefit]; exact hi
  obtain ⟨s1, s2⟩ := v.shape _ (getD_mem h1 [])
  have h2 : k < (m.curvefit.getD i []).length := by rw [s1]; exact hk
  have h3 := s2 _ (getD_mem h2 [])
  unfold Multipole.item3 item2
  rw [item_nat _ h1 [], ok_bind, item_nat _ h2 [], ok_bind, item_nat _ (by rw [h3]; exact hc) 0]
  rfl

/-- Zero without fission data. -/
def Wmp.fis (m : Wmp) (x : ℝ) : ℝ := if m.fissionable then x else 0

theorem Wmp.Valid.addTerm {m : Wmp} (v : m.Valid) {i k : ℕ} (hi : i < m.windows.length) (hk : k < m.terms) (y : ℝ) (x : Sigma) :
    addTerm m i k y x = .ok ⟨x.s + m.coeff i k 0 * y, x.a + m.coeff i k 1 * y, x.f + m.fis (m.coeff i k 2 * y)⟩ := by
  have c2 : 2 ≤ m.channels := by rcases v.channels with h | h <;> omega
  have e0 := v.item3 hi hk (c := 0) (by omega)
  have e1 := v.item3 hi hk (c := 1) (by omega)
  unfold Multipole.addTerm Wmp.fis
  rw [show ((0 : ℕ) : Int) = 0 from rfl] at e0
  rw [show ((1 : ℕ) : Int) = 1 from rfl] at e1
  rw [e0, ok_bind, e1, ok_bind]
  split
  · next h =>
    have c3 : m.channels = 3 := v.fission (by simpa [Wmp.fissionable] using h)
    have e2 := v.item3 hi hk (c := 2) (by omega)
    rw [show ((2 : ℕ) : Int) = 2 from rfl] at e2
    rw [e2, ok_bind]; rfl
  · rw [add_zero]; rfl

theorem Wmp.fis_add (m : Wmp) (x y : ℝ) : m.fis x + m.fis y = m.fis (x + y) := by
  unfold Wmp.fis; split <;> simp

theorem Wmp.Valid.broadened {m : Wmp} (v : m.Valid) {i : ℕ} (hi : i < m.windows.length) (F : ℕ → ℝ) :
    curveBroadened m i ((List.range m.terms).map F) = .ok ⟨∑ k ∈ Finset.range m.terms, m.coeff i k 0 * F k, ∑ k ∈ Finset.range m.terms, m.coeff i k 1 * F k,
      m.fis (∑ k ∈ Finset.range m.terms, m.coeff i k 2 * F k)⟩ := by
  unfold curveBroadened
  suffices h : ∀ n, n ≤ m.terms → (List.range n).foldlM (fun (x : Sigma) (p : ℕ) => do
    let v ← item ((List.range m.terms).map F) (p : Int)
    Multipole.addTerm m i p v x) (⟨0, 0, 0⟩ : Sigma) = (.ok ⟨∑ k ∈ Finset.range n, m.coeff i k 0 * F k, ∑ k ∈ Finset.range n, m.coeff i k 1 * F k,
      m.fis (∑ k ∈ Finset.range n, m.coeff i k 2 * F k)⟩ : Except PyErr Sigma) from h _ le_rfl
  intro n
  induction n with
  | zero => intro _; simp [Wmp.fis]; rfl
  | succ n ih =>
    intro hn
    rw [List.range_succ, List.foldlM_append, ih (by omega), ok_bind]
    simp only [List.foldlM_cons, List.foldlM_nil, bind_pure]
    rw [item_nat _ (by simpa using hn) 0, ok_bind, v.addTerm hi (by omega)]
    simp only [Finset.sum_range_succ, Wmp.fis_add]
    have : ((List.range m.terms).map F).getD n 0 = F n := by
      have : n < m.terms := by omega
      simp [List.getD, this]
    rw [this]

theorem Wmp.Valid.plain {m : Wmp} (v : m.Valid) {i : ℕ} (hi : i < m.windows.length) (s e : ℝ) :
    ∃ t, curvePlain m i s e = .ok (⟨∑ k ∈ Finset.range m.terms, m.coeff i k 0 * (e * s ^ k), ∑ k ∈ Finset.range m.terms, m.coeff i k 1 * (e * s ^ k),
      m.fis (∑ k ∈ Finset.range m.terms, m.coeff i k 2 * (e * s ^ k))⟩, t) := by
  unfold curvePlain
  suffices h : ∀ n, n ≤ m.terms → (List.range n).foldlM (fun (x : Sigma × ℝ) (p : ℕ) => do
    let y ← Multipole.addTerm m i p x.2 x.1
    return (y, x.2 * s)) ((⟨0, 0, 0⟩ : Sigma), e) = (.ok (⟨∑ k ∈ Finset.range n, m.coeff i k 0 * (e * s ^ k), ∑ k ∈ Finset.range n, m.coeff i k 1 * (e * s ^ k),
      m.fis (∑ k ∈ Finset.range n, m.coeff i k 2 * (e * s ^ k))⟩, e * s ^ n) : Except PyErr (Sigma × ℝ)) from ⟨_, h _ le_rfl⟩
  intro n
  induction n with
  | zero => intro _; simp [Wmp.fis]; rfl
  | succ n ih =>
    intro hn
    rw [List.range_succ, List.foldlM_append, ih (by omega), ok_bind]
    simp only [List.foldlM_cons, List.foldlM_nil, bind_pure]
    rw [v.addTerm hi (by omega), ok_bind]
    simp only [Finset.sum_range_succ, Wmp.fis_add]
    rw [pow_succ, mul_assoc e]
    rfl

/-- What a row adds. -/
noncomputable def addRow (m : Wmp) (c : List ℂ → ℂ) (x : Sigma) (r : List ℂ) : Sigma :=
  ⟨x.s + (r.getD 1 0 * c r).re, x.a + (r.getD 2 0 * c r).re, x.f + m.fis (r.getD 3 0 * c r).re⟩

theorem Wmp.Valid.addPole {m : Wmp} (v : m.Valid) {j : ℕ} (hj : j < m.data.length) (c : List ℂ → ℂ) (x : Sigma) :
    addPole m j (c (m.data.getD j [])) x = .ok (addRow m c x (m.data.getD j [])) := by
  have h := v.data _ (getD_mem hj [])
  have c3 : 3 ≤ m.cols := by rcases v.cols with h | h <;> omega
  unfold Multipole.addPole item2 addRow Wmp.fis
  rw [item_nat _ hj [], ok_bind, ok_bind, show (1 : Int) = ((1 : ℕ) : Int) from rfl, item_nat _ (by omega) 0, ok_bind,
    show (2 : Int) = ((2 : ℕ) : Int) from rfl, item_nat _ (by omega) 0, ok_bind]
  split
  · next q =>
    have : m.cols = 4 := by simpa [Wmp.fissionable] using q
    rw [ok_bind, show (3 : Int) = ((3 : ℕ) : Int) from rfl, item_nat _ (by omega) 0, ok_bind]
    rfl
  · rw [add_zero]; rfl

theorem Wmp.Valid.item2 {m : Wmp} (v : m.Valid) {j : ℕ} (hj : j < m.data.length) : item2 m.data j 0 = .ok ((m.data.getD j []).getD 0 0) := by
  have h := v.data _ (getD_mem hj [])
  have c3 : 3 ≤ m.cols := by rcases v.cols with h | h <;> omega
  unfold Multipole.item2
  rw [item_nat _ hj [], ok_bind, show (0 : Int) = ((0 : ℕ) : Int) from rfl, item_nat _ (by omega) 0]

theorem Wmp.Valid.rows {m : Wmp} (v : m.Valid) (c : ℂ → ℂ) : ∀ (js : List ℕ) (x : Sigma), (∀ j ∈ js, j < m.data.length) →
    (js.map fun j : ℕ => (j : Int)).foldlM (fun x i => do
      let p ← Multipole.item2 m.data i 0
      Multipole.addPole m i (c p) x) x = (.ok ((js.map fun j => m.data.getD j []).foldl (addRow m fun r => c (r.getD 0 0)) x) : Except PyErr Sigma)
  | [], x, _ => rfl
  | j :: js, x, h => by
    have hj := h j (by simp)
    simp only [List.map_cons, List.foldlM_cons, List.foldl_cons]
    rw [v.item2 hj, ok_bind, v.addPole hj (fun r => c (r.getD 0 0)), ok_bind]
    exact v.rows c js _ fun j hj => h j (by simp [hj])

theorem rows_sum (m : Wmp) (c : List ℂ → ℂ) : ∀ (rs : List (List ℂ)) (x : Sigma), rs.foldl (addRow m c) x =
    ⟨x.s + (rs.map fun r => (r.getD 1 0 * c r).re).sum, x.a + (rs.map fun r => (r.getD 2 0 * c r).re).sum, x.f + m.fis (rs.map fun r => (r.getD 3 0 * c r).re).sum⟩
  | [], x => by simp [Wmp.fis]
  | r :: rs, x => by
    rw [List.foldl_cons, rows_sum m c rs]
    simp only [addRow, List.map_cons, List.sum_cons, ← Wmp.fis_add]
    congr 1 <;> ring

theorem range_rows {m : Wmp} {a b : ℕ} (ha : 1 ≤ a) (hb : b ≤ m.data.length) :
    ∃ js : List ℕ, pyRange ((a : Int) - 1) b = js.map (fun j : ℕ => (j : Int)) ∧ (∀ j ∈ js, j < m.data.length) ∧
      (js.map fun j => m.data.getD j []) = (m.data.take b).drop (a - 1) := by
  refine ⟨(List.range (b - (a - 1))).map fun k => a - 1 + k, ?_, ?_, ?_⟩
  · unfold pyRange
    rw [List.map_map, show ((b : Int) - ((a : Int) - 1)).toNat = b - (a - 1) by omega]
    apply List.map_congr_left
    intro k _
    simp only [Function.comp]
    omega
  · intro j hj
    obtain ⟨k, hk, rfl⟩ := List.mem_map.1 hj
    have := List.mem_range.1 hk
    omega
  · apply List.ext_getElem
    · simp; omega
    · intro k h1 h2
      simp only [List.length_map, List.length_range] at h1
      have : a - 1 + k < m.data.length := by omega
      simp [List.getD, this]

end ASAPy.Multipole
