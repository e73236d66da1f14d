import Verif.Recon.RmChannel

/-!
# Sums over the channels of Reich-Moore
-/

namespace ASAPy.Recon
open Spec

noncomputable section

/-- What is known of the sums after a part of weight `w` has been added; `small`: the series may have been used. -/
structure Grows (t t' : RmSum) (w : ℝ) (exact : Prop) : Prop where
  elastic : t.elastic ≤ t'.elastic
  fission : t.fission ≤ t'.fission
  capture : t.total - t.elastic - t.fission - 25e-15 * w ≤ t'.total - t'.elastic - t'.fission
  exactCapture : exact → t.total - t.elastic - t.fission ≤ t'.total - t'.elastic - t'.fission
  exactElastic : exact → t'.elastic ≤ t.elastic + 4 * w
  exactTotal : exact → t'.total - t'.elastic ≤ t.total - t.elastic + w

theorem Grows.refl (t : RmSum) (p : Prop) : Grows t t 0 p := ⟨le_rfl, le_rfl, by simp, fun _ => le_rfl, fun _ => by simp, fun _ => by simp⟩

theorem Grows.trans {t t' t'' : RmSum} {w w' : ℝ} {p : Prop} (h : Grows t t' w p) (h' : Grows t' t'' w' p) : Grows t t'' (w + w') p :=
  ⟨h.elastic.trans h'.elastic, h.fission.trans h'.fission, by have := h.capture; have := h'.capture; linarith, fun x => (h.exactCapture x).trans (h'.exactCapture x),
    fun x => by have := h.exactElastic x; have := h'.exactElastic x; linarith, fun x => by have := h.exactTotal x; have := h'.exactTotal x; linarith⟩

theorem grows_channel {k : KState} (h : Dissipative k) (I φ J : ℝ) (hg : 0 ≤ (2 * J + 1) / (4 * I + 2)) (t : RmSum) :
    ∃ d, rmChannel I φ J k = .ok d ∧ Grows t ⟨t.elastic + d.elastic, t.total + d.total, t.fission + d.fission⟩ ((2 * J + 1) / (4 * I + 2)) (3e-4 ≤ |φ|) := by
  cases hf : k.fission with
  | true =>
    obtain ⟨d, e, h1, h2, h3, h4, h5⟩ := channel_fission h hf I φ J hg
    refine ⟨d, e, ⟨by simpa using h1, by simpa using h2, ?_, fun _ => ?_, fun _ => ?_, fun _ => ?_⟩⟩ <;> simp only []
    · have : 0 ≤ 25e-15 * ((2 * J + 1) / (4 * I + 2)) := by positivity
      linarith
    · linarith
    · linarith
    · linarith
  | false =>
    obtain ⟨d, e, h1, h2, h3, h4⟩ := channel_plain h hf I φ J hg
    refine ⟨d, e, ⟨by simpa using h1, by simp [h2], ?_, fun x => ?_, fun x => ?_, fun x => ?_⟩⟩ <;> simp only []
    · rw [h2]; linarith
    · obtain ⟨a, -, -⟩ := h4 x
      rw [h2]; linarith
    · obtain ⟨-, a, -⟩ := h4 x
      linarith
    · obtain ⟨-, -, a⟩ := h4 x
      linarith

theorem dissipative_kOf {I E P : ℝ} {l : ℤ} {m : RmMatrix} (hm : ∀ k rows, m k = some rows → ∀ q ∈ rows, 0 ≤ q.gg) (c : ℝ × ℝ) : Dissipative (kOf I E P l m c) := by
  unfold kOf
  split
  · exact dissipative_rows _ _ dissipative_zero (hm _ _ ‹_›)
  · exact dissipative_zero

theorem grows_channels {I E P φ : ℝ} (hI : 0 ≤ I) {l : ℤ} {m : RmMatrix} (hm : ∀ k rows, m k = some rows → ∀ q ∈ rows, 0 ≤ q.gg) (cs : List (ℝ × ℝ)) :
    ∀ t : RmSum, (∀ c ∈ cs, 0 ≤ c.2) → ∃ t', cs.foldlM (fun (t : RmSum) c => do
      let d ← rmChannel I φ c.2 (kOf I E P l m c)
      return (⟨t.elastic + d.elastic, t.total + d.total, t.fission + d.fission⟩ : RmSum)) t = .ok t' ∧
      Grows t t' ((cs.map fun c => (2 * c.2 + 1) / (4 * I + 2)).sum) (3e-4 ≤ |φ|) := by
  induction cs with
  | nil => intro t _; exact ⟨t, rfl, by simpa using Grows.refl t _⟩
  | cons c cs ih =>
    intro t h
    have h0 := h c List.mem_cons_self
    obtain ⟨d, e, hd⟩ := grows_channel (dissipative_kOf (I := I) (E := E) (P := P) (l := l) hm c) I φ c.2 (by positivity) t
    obtain ⟨t', e', hd'⟩ := ih ⟨t.elastic + d.elastic, t.total + d.total, t.fission + d.fission⟩ fun q hq => h q (List.mem_cons_of_mem _ hq)
    refine ⟨t', ?_, ?_⟩
    · rw [List.foldlM_cons, e]
      exact e'
    · rw [List.map_cons, List.sum_cons]
      exact hd.trans hd'

theorem grows_at {d : Rm} {E : ℝ} (h : RmOk d E) {m : RmMatrix} (hm : ∀ k rows, m k = some rows → ∀ q ∈ rows, 0 ≤ q.gg) {r : RmRow} (hr : r ∈ d.rows) (t : RmSum) :
    ∃ t', rmAt d.toBase m E t r.l = .ok t' ∧ Grows t t' (2 * (r.l : ℝ) + 1) (3e-4 ≤ |phaseshift r.l (waveNumber d.awr E * radius d.scattering r.l E)|) := by
  obtain ⟨⟨⟨n, hn⟩, -, -⟩, hrows⟩ := h
  have hok := (hrows r hr).1
  obtain ⟨L, hL⟩ := Int.eq_ofNat_of_zero_le hok.1
  unfold rmAt
  rw [waves_ok hok]
  simp only [ok_bind]
  obtain ⟨t', e, hg⟩ := grows_channels (I := d.spin) (E := E) (P := pen d.toBase r.l E) (φ := phaseshift r.l (waveNumber d.awr E * radius d.scattering r.l E)) (l := r.l)
    (by rw [hn]; positivity) hm (channels d.spin r.l) t fun c hc => channels_nonneg hc
  refine ⟨t', e, ?_⟩
  have hs : ((channels d.spin r.l).map fun c => (2 * c.2 + 1) / (4 * d.spin + 2)).sum = 2 * (r.l : ℝ) + 1 := by
    rw [hn, hL]
    simpa using sum_channels n L
  rw [hs] at hg
  exact hg

theorem grows_all {d : Rm} {E : ℝ} (h : RmOk d E) {m : RmMatrix} (hm : ∀ k rows, m k = some rows → ∀ q ∈ rows, 0 ≤ q.gg) (ls : List ℤ) :
    ∀ t : RmSum, (∀ l ∈ ls, ∃ r ∈ d.rows, r.l = l) → ∃ t', ls.foldlM (rmAt d.toBase m E) t = .ok t' ∧
      Grows t t' ((ls.map fun l : ℤ => 2 * (l : ℝ) + 1).sum) (NotSmall d E) := by
  induction ls with
  | nil => intro t _; exact ⟨t, rfl, by simpa using Grows.refl t _⟩
  | cons l ls ih =>
    intro t hl
    obtain ⟨r, hr, rfl⟩ := hl l List.mem_cons_self
    obtain ⟨t1, e, hd⟩ := grows_at h hm hr t
    obtain ⟨t', e', hd'⟩ := ih t1 fun q hq => hl q (List.mem_cons_of_mem _ hq)
    refine ⟨t', ?_, ?_⟩
    · rw [List.foldlM_cons, e]
      exact e'
    · rw [List.map_cons, List.sum_cons]
      exact Grows.trans ⟨hd.elastic, hd.fission, hd.capture, fun x => hd.exactCapture (x r hr), fun x => hd.exactElastic (x r hr), fun x => hd.exactTotal (x r hr)⟩ hd'

/-! ### Preparing -/

def rmPrepared (b : Base) (r : RmRow) : RmPrep := ⟨r, pen b r.l r.energy⟩

/-- The dict of a range that has been prepared. -/
def rmDict (d : Rm) (m : RmMatrix) : RmMatrix := fun k =>
  if k ∈ firsts [] (d.rows.map fun q => (q.l, |q.j|)) then some ((d.rows.map (rmPrepared d.toBase)).filter fun q => q.l = k.1 ∧ |q.j| = k.2) else m k

theorem prepareRm_rows {d : Rm} {E : ℝ} (h : ∀ r ∈ d.rows, RowOk d.toBase E r.l r.energy) (m : RmMatrix) : prepareRm d m = .ok (firsts [] (d.rows.map (·.l)), rmDict d m) := by
  unfold prepareRm
  rw [mapM_ok (g := rmPrepared d.toBase)]
  · rfl
  · intro r hr
    unfold prepRmRow
    rw [prepRow_ok (h r hr)]
    rfl

theorem prepareRm_ok {d : Rm} {E : ℝ} (h : RmOk d E) (m : RmMatrix) : prepareRm d m = .ok (firsts [] (d.rows.map (·.l)), rmDict d m) :=
  prepareRm_rows (fun r hr => (h.2 r hr).1) m

theorem rmDict_gg {d : Rm} {E : ℝ} (h : RmOk d E) : ∀ k rows, rmDict d (fun _ => none) k = some rows → ∀ q ∈ rows, 0 ≤ q.gg := by
  intro k rows hk q hq
  unfold rmDict at hk
  split at hk
  · injection hk with hk
    rw [← hk] at hq
    obtain ⟨hq, -⟩ := List.mem_filter.mp hq
    obtain ⟨r, hr, rfl⟩ := List.mem_map.mp hq
    exact (h.2 r hr).2.2.1
  · simp at hk

theorem rm_ok {d : Rm} {E : ℝ} (h : RmOk d E) {m : RmMatrix} (hm : ∀ k rows, m k = some rows → ∀ q ∈ rows, 0 ≤ q.gg) :
    ∃ x, rm d (firsts [] (d.rows.map (·.l))) m E = .ok x ∧ 0 ≤ x.elastic ∧ 0 ≤ x.fission ∧ -(25e-15 * unitarity d E) ≤ x.capture ∧
      (NotSmall d E → 0 ≤ x.capture ∧ x.elastic ≤ 4 * unitarity d E ∧ x.capture + x.fission ≤ unitarity d E) := by
  obtain ⟨t, e, hg⟩ := grows_all h hm (firsts [] (d.rows.map (·.l))) ⟨0, 0, 0⟩ fun l hl => by
    rw [mem_firsts] at hl
    rcases hl with hl | hl
    · simp at hl
    · obtain ⟨r, hr, rfl⟩ := List.mem_map.mp hl
      exact ⟨r, hr, rfl⟩
  rw [firsts_sum] at hg
  unfold rm
  rw [e]
  simp only [ok_bind]
  have hk : 0 ≤ Real.pi / (waveNumber d.awr E * waveNumber d.awr E) := div_nonneg Real.pi_pos.le (mul_self_nonneg _)
  have hu : unitarity d E = Real.pi / (waveNumber d.awr E * waveNumber d.awr E) * ∑ l ∈ (d.rows.map fun r : RmRow => (r.l : ℤ)).toFinset, (2 * ((l : ℤ) : ℝ) + 1) := by
    unfold unitarity lvalues
    rw [sq]
  set p := Real.pi / (waveNumber d.awr E * waveNumber d.awr E)
  set w := ∑ l ∈ (d.rows.map fun r : RmRow => (r.l : ℤ)).toFinset, (2 * ((l : ℤ) : ℝ) + 1)
  have h1 := hg.elastic
  have h2 := hg.fission
  have h3 := hg.capture
  simp only [sub_zero] at h1 h2 h3
  refine ⟨_, rfl, mul_nonneg h1 hk, mul_nonneg h2 hk, ?_, fun x => ⟨?_, ?_, ?_⟩⟩
  · simp only []
    rw [hu]
    nlinarith
  · have h4 := hg.exactCapture x
    simp only [sub_zero] at h4
    exact mul_nonneg h4 hk
  · have h4 := hg.exactElastic x
    simp only [] at h4
    rw [hu]
    nlinarith
  · have h4 := hg.exactTotal x
    simp only [] at h4
    rw [hu]
    nlinarith

end
end ASAPy.Recon
