import Verif.Recon.Props

/-!
# Data on which the properties fail
-/

namespace ASAPy.Recon
open Spec

noncomputable section

/-! ### A negative elastic cross section -/

/-- A target of spin zero and mass 1, of channel radius 1 and scattering radius `r`. -/
def target (r : ℝ) : Base := ⟨0, 1, fun l => if l = 0 then some fun _ => 1 else none, fun l => if l = 0 then some fun _ => r else none⟩

/-- Wave numbers at 1 eV and 2 eV. -/
theorem k1_pos : 0 < waveNumber 1 1 := waveNumber_pos one_pos one_ne_zero
theorem k2_pos : 0 < waveNumber 1 2 := waveNumber_pos one_pos two_ne_zero

/-- A resonance at 2 eV whose neutron width at 1 eV is `g`. -/
def rowAt2 (g gg : ℝ) : BwRow := ⟨2, 0, 1 / 2, 0, g * (waveNumber 1 2 / waveNumber 1 1), gg, 0, 0⟩

/-- Data of `n` equal resonances, where the phase shift at 1 eV is an eighth of a turn. -/
def levels (n : ℕ) : Bw := ⟨target (Real.pi / 4 / waveNumber 1 1), List.replicate n (rowAt2 1 1)⟩

theorem pen_target (r : ℝ) (E : ℝ) : pen (target r) 0 E = waveNumber 1 E := by
  simp [pen, target, outer, radius]

theorem phi_target (r : ℝ) (E : ℝ) : phi (target r) 0 E = waveNumber 1 E * r := by
  simp [phi, target, phase, radius]

theorem allowed_half : Allowed 0 0 (1 / 2) := ⟨1 / 2, .inr (by norm_num), 0, by norm_num, by norm_num⟩

theorem rowOk_target {r : ℝ} : RowOk (target r) 1 0 2 :=
  ⟨le_rfl, by norm_num, two_ne_zero, ⟨fun _ => 1, by simp [target], one_pos⟩, ⟨fun _ => 1, by simp [target], one_pos⟩, by simp [target]⟩

theorem targetOk_target (r : ℝ) : TargetOk (target r) 1 := ⟨⟨0, by simp [target]⟩, one_pos, one_pos⟩

theorem levels_ok (n : ℕ) : BwOk (levels n) 1 := by
  refine ⟨targetOk_target _, ?_⟩
  intro r hr
  obtain rfl := List.eq_of_mem_replicate hr
  have := k1_pos
  have := k2_pos
  have hg : 0 ≤ (rowAt2 1 1).gn := by show 0 ≤ 1 * (waveNumber 1 2 / waveNumber 1 1); positivity
  refine ⟨rowOk_target, hg, zero_le_one, le_rfl, ?_, le_rfl, allowed_half⟩
  show 0 < (rowAt2 1 1).gn + 1 + 0
  linarith

theorem neutron_at2 (r g gg : ℝ) : neutronWidth (target r) (rowAt2 g gg) 1 = g := by
  have := k1_pos
  have := k2_pos
  show g * (waveNumber 1 2 / waveNumber 1 1) * (pen (target r) 0 1 / pen (target r) 0 2) = g
  rw [pen_target, pen_target]
  field_simp

theorem level_value : elasticLevel (levels 0).toBase 1 (rowAt2 1 1) = -(3 / 2) * (Real.pi / waveNumber 1 1 ^ 2) := by
  have h1 := k1_pos
  show elasticLevel (target (Real.pi / 4 / waveNumber 1 1)) 1 (rowAt2 1 1) = _
  have hn := neutron_at2 (Real.pi / 4 / waveNumber 1 1) 1 1
  have hφ : phi (target (Real.pi / 4 / waveNumber 1 1)) (rowAt2 1 1).l 1 = Real.pi / 4 := by
    show phi _ 0 1 = _
    rw [phi_target]
    field_simp
  have ht : totalWidth (target (Real.pi / 4 / waveNumber 1 1)) (rowAt2 1 1) 1 = 2 := by
    unfold totalWidth
    rw [hn]
    show (1 : ℝ) + 1 + 0 = 2
    norm_num
  have hp : peak (target (Real.pi / 4 / waveNumber 1 1)) (rowAt2 1 1) 1 = 2 := by
    have hs : ∀ E, shift (target (Real.pi / 4 / waveNumber 1 1)) 0 E = 0 := by intro E; simp [shift, outer]
    show 2 + (shift (target (Real.pi / 4 / waveNumber 1 1)) 0 2 - shift (target (Real.pi / 4 / waveNumber 1 1)) 0 1) / _ * _ = 2
    rw [hs, hs]
    simp
  have hw : weight (target (Real.pi / 4 / waveNumber 1 1)).spin (rowAt2 1 1).j = 1 := by
    show weight 0 (1 / 2) = 1
    norm_num [weight]
  have e : 2 * (Real.pi / 4) = Real.pi / 2 := by ring
  unfold elasticLevel line
  rw [hn, hφ, ht, hp, hw, e, Real.cos_pi_div_two, Real.sin_pi_div_two, Real.sin_pi_div_four]
  show Real.pi / waveNumber 1 1 ^ 2 * 1 * (1 / ((1 - 2) ^ 2 + 2 ^ 2 / 4)) * (1 * 0 - 2 * (1 + 0) * (√2 / 2) ^ 2 + 2 * (1 - 2) * 1) = _
  rw [div_pow, Real.sq_sqrt (by norm_num)]
  ring

/-- The elastic cross section of `n + 1` equal levels at 1 eV. -/
theorem levels_elastic (n : ℕ) : ∃ x, xsOf slbwF (levels (n + 1)) 1 = .ok (.number x) ∧ x.elastic = (2 - (n + 1) * (3 / 2)) * (Real.pi / waveNumber 1 1 ^ 2) := by
  obtain ⟨x, ex, e1, -⟩ := C195_slbw_partial (levels_ok (n + 1))
  refine ⟨x, ex, ?_⟩
  rw [e1]
  have hl : lvalues ((levels (n + 1)).rows.map (·.l)) = {0} := by
    unfold lvalues
    ext a
    simp [levels, rowAt2]
  have hpot : potential (levels (n + 1)).toBase 1 0 = 2 * (Real.pi / waveNumber 1 1 ^ 2) := by
    have h1 := k1_pos
    have hφ : phi (levels (n + 1)).toBase 0 1 = Real.pi / 4 := by
      show phi (target _) 0 1 = _
      rw [phi_target]
      field_simp
    unfold potential
    rw [hφ, Real.sin_pi_div_four, div_pow, Real.sq_sqrt (by norm_num)]
    show 4 * Real.pi / waveNumber 1 1 ^ 2 * ((2 * ((0 : ℤ) : ℝ) + 1) * (2 / 2 ^ 2)) = _
    push_cast
    ring
  rw [hl, Finset.sum_singleton, hpot]
  have hr : (levels (n + 1)).rows.map (elasticLevel (levels (n + 1)).toBase 1) = List.replicate (n + 1) (-(3 / 2) * (Real.pi / waveNumber 1 1 ^ 2)) := by
    show (List.replicate (n + 1) (rowAt2 1 1)).map _ = _
    rw [List.map_replicate]
    congr 1
    exact level_value
  rw [hr, List.sum_replicate, nsmul_eq_mul]
  push_cast
  ring

/-- C195. The elastic cross section of single-level Breit-Wigner is not always positive: two equal levels of sound data give a negative one. -/
theorem C195_negative_refuted : ∃ (d : Bw) (E : ℝ) (x : Xs), BwOk d E ∧ xsOf slbwF d E = .ok (.number x) ∧ x.elastic < 0 := by
  obtain ⟨x, ex, e⟩ := levels_elastic 1
  refine ⟨levels 2, 1, x, levels_ok 2, ex, ?_⟩
  rw [e]
  have := k1_pos
  have : 0 < Real.pi / waveNumber 1 1 ^ 2 := by have := Real.pi_pos; positivity
  push_cast
  linarith

/-! ### Competitive widths -/

theorem mapM_error {α β : Type} {f : α → Except PyErr β} {g : α → β} {e : PyErr} : ∀ {l : List α}, (∀ a ∈ l, f a = .ok (g a) ∨ f a = .error e) →
    (∃ a ∈ l, f a = .error e) → l.mapM f = .error e
  | a :: l, h, hx => by
    rw [List.mapM_cons]
    rcases h a List.mem_cons_self with h1 | h1
    · rw [h1, ok_bind]
      have : ∃ b ∈ l, f b = .error e := by
        obtain ⟨b, hb, hbe⟩ := hx
        rcases List.mem_cons.mp hb with rfl | hb
        · rw [h1] at hbe; cases hbe
        · exact ⟨b, hb, hbe⟩
      rw [mapM_error (fun b hb => h b (List.mem_cons_of_mem _ hb)) this]
      rfl
    · rw [h1]
      rfl
  | [], _, hx => by obtain ⟨a, ha, -⟩ := hx; simp at ha

/-- C198. A range in which a resonance has a competitive width cannot be reconstructed: an `AttributeError` at every energy, with both formalisms. -/
theorem C198_competitive_refuted {d : Bw} {E : ℝ} (h : ∀ r ∈ d.rows, RowOk d.toBase E r.l r.energy) {r : BwRow} (hr : r ∈ d.rows) (hx : 0 < r.gx) :
    xsOf mlbwF d E = .error .attributeError ∧ xsOf slbwF d E = .error .attributeError := by
  have : prepareBw d (fun _ => none) = .error .attributeError := by
    have he : ∀ q ∈ d.rows, 0 < q.gx → prepBwRow d.toBase q = .error .attributeError := by
      intro q hq hg
      unfold prepBwRow
      rw [prepRow_ok (h q hq), ok_bind]
      simp only []
      rw [if_pos hg]
    unfold prepareBw
    rw [mapM_error (g := prepared d.toBase) (e := .attributeError)]
    · rfl
    · intro q hq
      by_cases hg : 0 < q.gx
      · exact .inr (he q hq hg)
      · left
        unfold prepBwRow
        rw [prepRow_ok (h q hq), ok_bind]
        simp only []
        rw [if_neg hg]
        rfl
    · exact ⟨r, hr, he r hr hx⟩
  exact ⟨xsOf_error this, xsOf_error this⟩

/-- C198. Without competitive widths there is a value at every energy of sound data, with both formalisms. -/
theorem C198_values_partial {d : Bw} {E : ℝ} (h : BwOk d E) : (∃ x, xsOf mlbwF d E = .ok (.number x)) ∧ ∃ x, xsOf slbwF d E = .ok (.number x) := by
  obtain ⟨x, y, hx, hy, -⟩ := C196_agree h
  exact ⟨⟨x, hx⟩, ⟨y, hy⟩⟩

/-! ### A negative capture cross section -/

/-- A phase shift below the threshold of the series. -/
def tiny : ℝ := 1e-4

/-- One resonance without capture width. -/
def bound : Rm := ⟨target (tiny / waveNumber 1 1), [⟨2, 0, 1 / 2, (2 + tiny) * (waveNumber 1 2 / waveNumber 1 1), 0, 0, 0⟩]⟩

theorem bound_ok : RmOk bound 1 := by
  refine ⟨targetOk_target _, ?_⟩
  intro r hr
  rw [show r = _ from List.mem_singleton.mp hr]
  have := k1_pos
  have := k2_pos
  refine ⟨rowOk_target, ?_, le_rfl, .inr (by norm_num)⟩
  show 0 ≤ (2 + tiny) * (waveNumber 1 2 / waveNumber 1 1)
  unfold tiny
  positivity

theorem channels_zero : channels 0 0 = [(1 / 2, 1 / 2)] := by
  unfold channels
  rw [spins_zero]
  have := momenta_eq 0 1
  simp only [Nat.cast_one, CharP.cast_eq_zero] at this
  simp only [List.flatMap_cons, List.flatMap_nil, List.append_nil]
  rw [this]
  simp

/-- The matrix K of a channel: the sum over its rows, if there are any. -/
theorem kOf_dict (d : Rm) (E P : ℝ) (l : ℤ) (c : ℝ × ℝ) : kOf d.spin E P l (rmDict d fun _ => none) c =
    ((d.rows.map (rmPrepared d.toBase)).filter fun q => q.l = l ∧ |q.j| = c.2).foldl (rmRow E P (smin d.spin) (smax d.spin) c.1 l) ⟨0, 0, 0, 0, 0, 0, false⟩ := by
  unfold kOf rmDict
  by_cases h : (l, c.2) ∈ firsts [] (d.rows.map fun q => (q.l, |q.j|))
  · simp only [if_pos h]
  · simp only [if_neg h]
    have : (d.rows.map (rmPrepared d.toBase)).filter (fun q => q.l = l ∧ |q.j| = c.2) = [] := by
      rw [List.filter_eq_nil_iff]
      intro q hq hx
      obtain ⟨r, hr, rfl⟩ := List.mem_map.mp hq
      apply h
      rw [mem_firsts]
      right
      rw [List.mem_map]
      refine ⟨r, hr, ?_⟩
      obtain ⟨a, b⟩ : r.l = l ∧ |r.j| = c.2 := of_decide_eq_true hx
      rw [a, b]
    rw [this]
    rfl

theorem k_bound : kOf 0 1 (waveNumber 1 1) 0 (rmDict bound fun _ => none) (1 / 2, 1 / 2) = ⟨((1 + tiny / 2 : ℝ) : ℂ) * Complex.I, 0, 0, 0, 0, 0, false⟩ := by
  have h1 := k1_pos
  have h2 := k2_pos
  rw [show (0 : ℝ) = bound.spin from rfl, kOf_dict]
  have hp : pen bound.toBase 0 2 = waveNumber 1 2 := pen_target _ _
  simp only [bound, List.map_cons, List.map_nil, rmPrepared]
  rw [List.filter_cons_of_pos (by norm_num)]
  simp only [List.filter_nil, List.foldl_cons, List.foldl_nil]
  unfold rmRow
  simp only [lt_irrefl, false_and, if_false, ne_eq, not_true_eq_false, or_self]
  have hp' : pen (target (tiny / waveNumber 1 1)) 0 2 = waveNumber 1 2 := pen_target _ _
  have e1 : waveNumber 1 1 * ((2 + tiny) * (waveNumber 1 2 / waveNumber 1 1)) / pen (target (tiny / waveNumber 1 1)) 0 2 = 2 + tiny := by
    rw [hp']
    field_simp
  rw [e1]
  have e2 : ((√(2 + tiny) : ℝ) : ℂ) * ((√(2 + tiny) : ℝ) : ℂ) = ((2 + tiny : ℝ) : ℂ) := by
    rw [← Complex.ofReal_mul, Real.mul_self_sqrt (by unfold tiny; norm_num)]
  rw [e2]
  congr 1
  push_cast
  norm_num
  ring

/-- C197. The capture cross section of Reich-Moore is not always positive: where the code uses a series for a small phase shift, sound data can give a negative one. -/
theorem C197_negative_refuted : ∃ (d : Rm) (E : ℝ) (x : Xs), RmOk d E ∧ xsOf rmF d E = .ok (.number x) ∧ x.capture < 0 := by
  have h1 := k1_pos
  have hw := waves_ok (bound_ok.2 _ (List.mem_singleton.mpr rfl)).1
  have hphi : phaseshift 0 (waveNumber bound.awr 1 * radius bound.scattering 0 1) = tiny := by
    have hr : radius bound.scattering 0 1 = tiny / waveNumber 1 1 := by simp [radius, bound, target]
    rw [hr]
    show waveNumber 1 1 * (tiny / waveNumber 1 1) = tiny
    field_simp
  have hp : pen bound.toBase 0 1 = waveNumber 1 1 := pen_target _ _
  rw [hphi, hp] at hw
  set K : ℂ := ((1 + tiny / 2 : ℝ) : ℂ) * Complex.I with hK
  have hre : K.re = 0 := by simp [hK]
  have him : K.im = 1 + tiny / 2 := by simp [hK]
  set u := Complex.exp (-2 * Complex.I * tiny) * (2 / (1 - K) - 1) with hu
  have hs := series_eq (K := K) hre.le tiny
  set X := 2 * (-K.re + (K.re * K.re + K.im * K.im) * (1 - tiny * tiny) + tiny * tiny - Real.sin (2 * tiny) * K.im) / ((1 - K.re) * (1 - K.re) + K.im * K.im) with hX
  have hg : (2 * (1 / 2 : ℝ) + 1) / (4 * 0 + 2) = 1 := by norm_num
  have hc : rmChannel 0 tiny (1 / 2) ⟨K, 0, 0, 0, 0, 0, false⟩ = .ok ⟨X * X + u.im ^ 2, 2 * X, 0⟩ := by
    unfold rmChannel
    simp only [Bool.false_eq_true, if_false]
    rw [if_pos ⟨by rw [hre]; norm_num, by unfold tiny; norm_num [abs_of_pos]⟩, hg, one_mul, mul_one]
  have hev : rm bound [0] (rmDict bound fun _ => none) 1 = .ok ⟨(X * X + u.im ^ 2) * (Real.pi / (waveNumber 1 1 * waveNumber 1 1)),
      (2 * X - (X * X + u.im ^ 2) - 0) * (Real.pi / (waveNumber 1 1 * waveNumber 1 1)), 0 * (Real.pi / (waveNumber 1 1 * waveNumber 1 1))⟩ := by
    unfold rm
    simp only [List.foldlM_cons, List.foldlM_nil]
    unfold rmAt
    rw [hw]
    simp only [ok_bind]
    rw [show bound.spin = 0 from rfl, channels_zero]
    simp only [List.foldlM_cons, List.foldlM_nil]
    rw [k_bound, hc]
    simp only [ok_bind, pure_bind]
    simp only [zero_add]
    rfl
  refine ⟨bound, 1, _, bound_ok, xsOf_ok (F := rmF) (prepareRm_ok bound_ok _) hev, ?_⟩
  simp only []
  have hk : 0 < Real.pi / (waveNumber 1 1 * waveNumber 1 1) := by have := Real.pi_pos; positivity
  apply mul_neg_of_neg_of_pos _ hk
  obtain ⟨w1, w2, hD⟩ := w_parts (K := K) hre.le
  have hn : Complex.normSq u = 1 := by
    rw [hu, normSq_ubar_mul, Complex.normSq_apply, w1, w2, Complex.normSq_apply, hre, him]
    unfold tiny
    norm_num
  have hreu : u.re = Real.cos (2 * tiny) * ((1 - Complex.normSq K) / ((1 - K.re) * (1 - K.re) + K.im * K.im)) +
      Real.sin (2 * tiny) * (2 * K.im / ((1 - K.re) * (1 - K.re) + K.im * K.im)) := by
    rw [hu, ubar_mul, w1, w2]
  have hcos : 1 - (2 * tiny) ^ 2 / 2 < Real.cos (2 * tiny) := Real.one_sub_sq_div_two_lt_cos (by unfold tiny; norm_num)
  have hcos1 : Real.cos (2 * tiny) ≤ 1 := Real.cos_le_one _
  have hsin : 2 * tiny - (2 * tiny) ^ 3 / 6 < Real.sin (2 * tiny) := Real.sin_gt_sub_cube (by unfold tiny; norm_num)
  rw [Complex.normSq_apply, hre, him] at hreu
  rw [hre, him] at hs
  have hneg : (1 - (0 * 0 + (1 + tiny / 2) * (1 + tiny / 2))) / ((1 - 0) * (1 - 0) + (1 + tiny / 2) * (1 + tiny / 2)) < 0 := by unfold tiny; norm_num
  have hneg2 : -1e-4 < (1 - (0 * 0 + (1 + tiny / 2) * (1 + tiny / 2))) / ((1 - 0) * (1 - 0) + (1 + tiny / 2) * (1 + tiny / 2)) := by unfold tiny; norm_num
  have hpos : (0.9 : ℝ) < 2 * (1 + tiny / 2) / ((1 - 0) * (1 - 0) + (1 + tiny / 2) * (1 + tiny / 2)) := by unfold tiny; norm_num
  set a := (1 - (0 * 0 + (1 + tiny / 2) * (1 + tiny / 2))) / ((1 - 0) * (1 - 0) + (1 + tiny / 2) * (1 + tiny / 2))
  set b := 2 * (1 + tiny / 2) / ((1 - 0) * (1 - 0) + (1 + tiny / 2) * (1 + tiny / 2))
  have hδ : X - (1 - u.re) < 0 := by
    rw [hs]
    exact mul_neg_of_pos_of_neg (by linarith) hneg
  have hup : 0 < u.re := by
    rw [hreu]
    have hsin' : (1.9e-4 : ℝ) < Real.sin (2 * tiny) := lt_trans (by unfold tiny; norm_num) hsin
    have hcos' : 0 < Real.cos (2 * tiny) := lt_trans (by unfold tiny; norm_num) hcos
    nlinarith
  have hnu := Complex.normSq_apply u
  have : 2 * X - (X * X + u.im ^ 2) - 0 = (1 - Complex.normSq u) + (X - (1 - u.re)) * (2 * u.re - (X - (1 - u.re))) := by rw [hnu]; ring
  rw [this, hn]
  have : (X - (1 - u.re)) * (2 * u.re - (X - (1 - u.re))) < 0 := mul_neg_of_neg_of_pos hδ (by linarith)
  linarith

/-! ### A resonance that is left out -/

theorem foldlM_congr' {α β : Type} {f g : β → α → Except PyErr β} : ∀ {l : List α}, (∀ a ∈ l, ∀ t, f t a = g t a) → ∀ t, l.foldlM f t = l.foldlM g t
  | [], _, _ => rfl
  | a :: l, h, t => by
    rw [List.foldlM_cons, List.foldlM_cons, h a List.mem_cons_self]
    congr 1
    funext y
    exact foldlM_congr' (fun b hb => h b (List.mem_cons_of_mem _ hb)) y

theorem firsts_append {α : Type} [DecidableEq α] : ∀ (l1 l2 seen : List α), firsts seen (l1 ++ l2) = firsts (firsts seen l1) l2
  | [], _, _ => rfl
  | a :: l1, l2, seen => by
    rw [List.cons_append, firsts, firsts, firsts_append]

theorem firsts_drop {α : Type} [DecidableEq α] {l1 l2 : List α} {a : α} (h : a ∈ l1) : firsts [] (l1 ++ a :: l2) = firsts [] (l1 ++ l2) := by
  rw [firsts_append, firsts_append, firsts, if_pos (mem_firsts.mpr (.inr h))]

/-- C199. A resonance of l > 0 and J > 0 that only the lower channel spin can form is left out by Reich-Moore: with it, the cross sections are those without it, at every
energy and whatever its widths. (`J < |l - (I + 1/2)|`: the upper channel spin cannot form J.) -/
theorem C199_left_out_refuted {b : Base} {rs1 rs2 : List RmRow} {r : RmRow} {E : ℝ} (h : ∀ q ∈ rs1 ++ r :: rs2, RowOk b E q.l q.energy)
    (hl : 0 < r.l) (hj : 0 < r.j) (hj' : r.j < |r.l - (b.spin + 1 / 2)|) (hrs : ∃ q ∈ rs1, q.l = r.l) :
    xsOf rmF ⟨b, rs1 ++ r :: rs2⟩ E = xsOf rmF ⟨b, rs1 ++ rs2⟩ E := by
  have h2 : ∀ q ∈ rs1 ++ rs2, RowOk b E q.l q.energy := by
    intro q hq
    apply h
    rcases List.mem_append.mp hq with hq | hq
    · exact List.mem_append.mpr (.inl hq)
    · exact List.mem_append.mpr (.inr (List.mem_cons_of_mem _ hq))
  have p1 := prepareRm_rows (d := ⟨b, rs1 ++ r :: rs2⟩) h fun _ => none
  have p2 := prepareRm_rows (d := ⟨b, rs1 ++ rs2⟩) h2 fun _ => none
  have hf : firsts [] ((rs1 ++ r :: rs2).map fun q : RmRow => (q.l : ℤ)) = firsts [] ((rs1 ++ rs2).map fun q : RmRow => (q.l : ℤ)) := by
    rw [List.map_append, List.map_cons, List.map_append]
    obtain ⟨q, hq, e⟩ := hrs
    exact firsts_drop (List.mem_map.mpr ⟨q, hq, e⟩)
  simp only [] at p1 p2
  rw [hf] at p1
  set ls := firsts [] ((rs1 ++ rs2).map fun q : RmRow => (q.l : ℤ))
  have hk : ∀ P l, ∀ c ∈ channels b.spin l, kOf b.spin E P l (rmDict ⟨b, rs1 ++ r :: rs2⟩ fun _ => none) c = kOf b.spin E P l (rmDict ⟨b, rs1 ++ rs2⟩ fun _ => none) c := by
    intro P l c hc
    have a1 := kOf_dict ⟨b, rs1 ++ r :: rs2⟩ E P l c
    have a2 := kOf_dict ⟨b, rs1 ++ rs2⟩ E P l c
    simp only [] at a1 a2
    rw [a1, a2]
    simp only [List.map_append, List.map_cons, List.filter_append, List.foldl_append]
    by_cases hm : r.l = l ∧ |r.j| = c.2
    · rw [List.filter_cons_of_pos (by show decide (r.l = l ∧ |r.j| = c.2) = true; exact decide_eq_true hm), List.foldl_cons]
      congr 1
      obtain ⟨hm1, hm2⟩ := hm
      have hs : c.1 ≠ smax b.spin := by
        intro e
        unfold channels at hc
        obtain ⟨s, -, hc⟩ := List.mem_flatMap.mp hc
        obtain ⟨J, hJ, rfl⟩ := List.mem_map.mp hc
        simp only [] at e hm2
        obtain ⟨i, -, rfl⟩ := List.mem_map.mp hJ
        rw [abs_of_pos hj] at hm2
        rw [hm2, e, hm1] at hj'
        unfold smax at hj'
        have : |(l : ℝ) - (b.spin + 1 / 2)| = |(l : ℝ) - (b.spin + 0.5)| := by norm_num
        rw [this] at hj'
        have : (0 : ℝ) ≤ i := Nat.cast_nonneg i
        linarith
      unfold rmRow
      rw [if_pos ⟨by rw [← hm1]; exact hl, .inr ⟨hj, hs⟩⟩]
    · rw [List.filter_cons_of_neg (by show ¬decide (r.l = l ∧ |r.j| = c.2) = true; exact fun e => hm (of_decide_eq_true e))]
  have he : rm ⟨b, rs1 ++ r :: rs2⟩ ls (rmDict ⟨b, rs1 ++ r :: rs2⟩ fun _ => none) E = rm ⟨b, rs1 ++ rs2⟩ ls (rmDict ⟨b, rs1 ++ rs2⟩ fun _ => none) E := by
    unfold rm
    simp only []
    rw [foldlM_congr' (f := rmAt b (rmDict ⟨b, rs1 ++ r :: rs2⟩ fun _ => none) E) (g := rmAt b (rmDict ⟨b, rs1 ++ rs2⟩ fun _ => none) E)]
    intro l _ t
    unfold rmAt
    congr 1
    funext w
    apply foldlM_congr'
    intro c hc t
    rw [hk _ _ c hc]
  unfold xsOf reconstruct fresh ensure
  simp only [List.getElem?_cons_zero, Bool.false_eq_true, if_false, Bool.true_eq_false]
  rw [show rmF.prepare = prepareRm from rfl, p1, p2]
  simp only [evalAll]
  rw [show rmF.eval = rm from rfl, he]

/-- The momenta are possible ones: with a target of spin 5/2, l = 1 and the channel spin 2 form J = 1; the channel spin 3 does not. -/
example : Allowed (5 / 2) 1 1 ∧ (1 : ℝ) < |((1 : ℤ) : ℝ) - (5 / 2 + 1 / 2)| := by
  refine ⟨⟨2, .inl (by norm_num [abs_of_pos]), 0, ?_, ?_⟩, ?_⟩
  · norm_num
  · norm_num
  · norm_num

/-- Ranges that differ by such a resonance. -/
example : ∃ (b : Base) (rs : List RmRow) (r : RmRow), rs ≠ [] ∧ 0 < r.gn ∧ Allowed b.spin r.l r.j ∧ ∀ E, 0 < E → xsOf rmF ⟨b, rs ++ [r]⟩ E = xsOf rmF ⟨b, rs ++ []⟩ E := by
  refine ⟨⟨5 / 2, 1, fun _ => some fun _ => 1, fun _ => some fun _ => 1⟩, [⟨1, 1, 2, 1, 1, 0, 0⟩], ⟨2, 1, 1, 1, 1, 0, 0⟩, by simp, one_pos, ?_, ?_⟩
  · exact ⟨2, .inl (by norm_num [abs_of_pos]), 0, by norm_num, by norm_num⟩
  · intro E hE
    apply C199_left_out_refuted
    · intro q hq
      simp only [List.cons_append, List.nil_append, List.mem_cons, List.not_mem_nil, or_false] at hq
      rcases hq with rfl | rfl
      · exact ⟨zero_le_one, by norm_num, one_ne_zero, ⟨_, rfl, one_pos⟩, ⟨_, rfl, one_pos⟩, rfl⟩
      · exact ⟨zero_le_one, by norm_num, two_ne_zero, ⟨_, rfl, one_pos⟩, ⟨_, rfl, one_pos⟩, rfl⟩
    · exact one_pos
    · exact one_pos
    · norm_num
    · exact ⟨_, List.mem_singleton.mpr rfl, rfl⟩

end
end ASAPy.Recon
