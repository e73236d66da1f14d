import Verif.Recon.Props2

/-!
# Reich-Moore and Breit-Wigner for s waves
-/

namespace ASAPy.Recon
open Spec Complex

noncomputable section

/-- `(1 + K)/(1 - K)` of one resonance. -/
theorem w_level {D g n f x : ℝ} (hg : 0 ≤ g) (hn : 0 ≤ n) (hp : 0 < g ∨ D ≠ 0) (h1 : f * ((n + g) - 2 * D * x) = 2 * n) (h2 : x * (n + g) = -(2 * D)) :
    (2 / (1 - (n : ℂ) * (0.5 * I / ((D : ℂ) - 0.5 * I * g))) - 1 : ℂ) = ((1 - f : ℝ) : ℂ) + ((-(f * x) : ℝ) : ℂ) * I := by
  have hden : (D : ℂ) - 0.5 * I * g ≠ 0 := by
    intro h
    have hr := congrArg re h
    have hi := congrArg im h
    norm_num at hr hi
    rcases hp with hp | hp
    · exact hp.ne' hi
    · exact hp hr
  have hK : (1 - (n : ℂ) * (0.5 * I / ((D : ℂ) - 0.5 * I * g))) ≠ 0 := by
    intro h
    have hr := congrArg re h
    rw [sub_re, one_re, re_ofReal_mul, zero_re] at hr
    have := factor_re (D := D) hg
    nlinarith
  have hI : I * I = -1 := I_mul_I
  have e1 : ((n : ℂ) + g - 2 * D * x) * f = 2 * n := by
    rw [mul_comm]; exact_mod_cast h1
  have e2 : (x : ℂ) * (n + g) = -(2 * D) := by exact_mod_cast h2
  have key : (2 - (f : ℂ) - f * x * I) * ((D : ℂ) - 0.5 * I * g - 0.5 * I * n) = 2 * ((D : ℂ) - 0.5 * I * g) := by
    norm_num
    linear_combination (1 / 2 * I) * e1 + (-(f : ℂ) / 2) * e2 + (f * x * (g + n) / 2 : ℂ) * hI
  have : (2 / (1 - (n : ℂ) * (0.5 * I / ((D : ℂ) - 0.5 * I * g))) : ℂ) = 2 - f - f * x * I := by
    rw [div_eq_iff hK]
    have : (1 - (n : ℂ) * (0.5 * I / ((D : ℂ) - 0.5 * I * g))) = ((D : ℂ) - 0.5 * I * g - 0.5 * I * n) / ((D : ℂ) - 0.5 * I * g) := by
      field_simp
    rw [this, mul_div_assoc', key, mul_div_assoc, div_self hden, mul_one]
  rw [this]
  push_cast
  ring

/-- A channel whose `(1 + K)/(1 - K)` is known, away from the series. -/
theorem channel_known {Isp φ J f y : ℝ} {K : ℂ} (hφ : 3e-4 ≤ |φ|) (hw : (2 / (1 - K) - 1 : ℂ) = ((1 - f : ℝ) : ℂ) + ((-y : ℝ) : ℂ) * I) :
    ∃ d, rmChannel Isp φ J ⟨K, 0, 0, 0, 0, 0, false⟩ = .ok d ∧
      d.elastic = (2 * J + 1) / (4 * Isp + 2) * (2 * (1 - Real.cos (2 * φ)) + quad (Real.cos (2 * φ)) (Real.sin (2 * φ)) (f, y)) ∧
      d.total - d.elastic = (2 * J + 1) / (4 * Isp + 2) * (2 * f - f ^ 2 - y ^ 2) ∧ d.fission = 0 := by
  have hre : (2 / (1 - K) - 1 : ℂ).re = 1 - f := by rw [hw]; simp
  have him : (2 / (1 - K) - 1 : ℂ).im = -y := by rw [hw]; simp
  have hu := ubar_mul φ (2 / (1 - K) - 1)
  have hn : normSq (exp (-2 * I * φ) * (2 / (1 - K) - 1)) = (1 - f) * (1 - f) + (-y) * (-y) := by
    rw [normSq_ubar_mul, normSq_apply, hre, him]
  rw [hre, him] at hu
  unfold rmChannel
  simp only [Bool.false_eq_true, if_false]
  rw [if_neg fun h => absurd h.2 (not_lt.mpr hφ)]
  refine ⟨_, rfl, ?_, ?_, rfl⟩
  · simp only []
    rw [normSq_one_sub, hn, hu]
    unfold quad
    ring
  · simp only []
    rw [normSq_one_sub, hn, hu]
    ring

/-- The rows of a Breit-Wigner range, as rows of a Reich-Moore range. -/
def asRm (d : Bw) : Rm := ⟨d.toBase, d.rows.map fun r => ⟨r.energy, r.l, r.j, r.gn, r.gg, 0, 0⟩⟩

theorem rows_of_channel {d : Bw} {E : ℝ} (h : BwOk d E) (hl : ∀ r ∈ d.rows, r.l = 0) (J : ℝ) :
    (((asRm d).rows.map (rmPrepared (asRm d).toBase)).filter fun q => q.l = 0 ∧ |q.j| = J) =
      (d.rows.filter fun r => r.j = J).map fun r => rmPrepared d.toBase ⟨r.energy, r.l, r.j, r.gn, r.gg, 0, 0⟩ := by
  unfold asRm
  rw [List.map_map, List.filter_map]
  congr 1
  apply List.filter_congr
  intro r hr
  have hj : 0 ≤ r.j := by
    obtain ⟨i, hi, -⟩ := hasIndex_of h hr
    rw [hi]
    have := jmin_nonneg d.spin r.l
    positivity
  show decide (r.l = 0 ∧ |r.j| = J) = decide (r.j = J)
  rw [abs_of_nonneg hj]
  simp [hl r hr]

theorem one_row {l : List BwRow} {J : ℝ} (h : l.Pairwise fun a b => a.j ≠ b.j) : (l.filter fun r => r.j = J) = [] ∨ ∃ r, (l.filter fun r => r.j = J) = [r] := by
  have hp := List.Pairwise.filter (fun r : BwRow => decide (r.j = J)) h
  have hm : ∀ r ∈ l.filter fun r => r.j = J, r.j = J := fun r hr => of_decide_eq_true (List.mem_filter.mp hr).2
  generalize (l.filter fun r => r.j = J) = q at hp hm ⊢
  match q, hp, hm with
  | [], _, _ => exact .inl rfl
  | [r], _, _ => exact .inr ⟨r, rfl⟩
  | a :: b :: t, hp, hm =>
    rw [List.pairwise_cons] at hp
    exact absurd ((hm a (by simp)).trans (hm b (by simp)).symm) (hp.1 b (by simp))

/-- The matrix of a channel of an s wave, and what comes of it. -/
theorem channel_core {d : Bw} {E : ℝ} (h : BwOk d E) (hr : RmOk (asRm d) E) (hl : ∀ r ∈ d.rows, r.l = 0) (hf : ∀ r ∈ d.rows, r.gf = 0) (ho : OnePerChannel d) (c : ℝ × ℝ) :
    ∃ (K : ℂ) (f y : ℝ), kOf d.spin E (pen d.toBase 0 E) 0 (rmDict (asRm d) fun _ => none) c = ⟨K, 0, 0, 0, 0, 0, false⟩ ∧
      (2 / (1 - K) - 1 : ℂ) = ((1 - f : ℝ) : ℂ) + ((-y : ℝ) : ℂ) * I ∧
      (∀ C S, (2 * c.2 + 1) / (4 * d.spin + 2) * quad C S (f, y) = ((d.rows.filter fun r => r.j = c.2).map fun r =>
        weight d.spin r.j * quad C S (fOf d.toBase E r, fOf d.toBase E r * xOf d.toBase E r)).sum) ∧
      (2 * c.2 + 1) / (4 * d.spin + 2) * (2 * f - f ^ 2 - y ^ 2) =
        ((d.rows.filter fun r => r.j = c.2).map fun r => 2 * (fOf d.toBase E r * weight d.spin r.j * r.gg / totalWidth d.toBase r E)).sum := by
  have hk := kOf_dict (asRm d) E (pen d.toBase 0 E) 0 c
  rw [rows_of_channel h hl, show (asRm d).spin = d.spin from rfl] at hk
  rw [hk]
  have hp : d.rows.Pairwise fun a b => a.j ≠ b.j := ho.imp_of_mem fun {a b} ha hb hab e => hab ⟨(hl a ha).trans (hl b hb).symm, e⟩
  have hmem : ∀ r ∈ d.rows.filter fun r => r.j = c.2, r ∈ d.rows ∧ r.j = c.2 := fun r hr => ⟨(List.mem_filter.mp hr).1, of_decide_eq_true (List.mem_filter.mp hr).2⟩
  rcases one_row (J := c.2) hp with e | ⟨r, e⟩
  · rw [e]
    simp only [List.map_nil, List.foldl_nil, List.sum_nil, add_zero]
    refine ⟨0, 0, 0, rfl, by norm_num, fun C S => by simp [quad], by simp⟩
  · obtain ⟨hrm, hj⟩ := hmem r (by rw [e]; simp)
    rw [e]
    simp only [List.map_cons, List.map_nil, List.foldl_cons, List.foldl_nil, List.sum_cons, List.sum_nil, add_zero]
    obtain ⟨ht, hn⟩ := total_pos h hrm
    have hrow := hr.2 ⟨r.energy, r.l, r.j, r.gn, r.gg, 0, 0⟩ (List.mem_map.mpr ⟨r, hrm, rfl⟩)
    obtain ⟨-, -, hg, hpole⟩ := hrow
    simp only [] at hg hpole
    have htw : totalWidth d.toBase r E = neutronWidth d.toBase r E + r.gg := by unfold totalWidth; rw [hf r hrm, add_zero]
    have hpk : peak d.toBase r E = r.energy := by
      unfold peak
      have hs : ∀ e, shift d.toBase r.l e = 0 := by intro e; rw [hl r hrm]; simp [shift, outer]
      rw [hs, hs]
      simp
    have hx2 : xOf d.toBase E r * (neutronWidth d.toBase r E + r.gg) = -(2 * (r.energy - E)) := by
      rw [← htw]
      unfold xOf
      rw [hpk, div_mul_cancel₀ _ ht.ne']
      ring
    have hq : 0 < 1 + xOf d.toBase E r * xOf d.toBase E r := by have := mul_self_nonneg (xOf d.toBase E r); linarith
    have hfx : fOf d.toBase E r * (1 + xOf d.toBase E r * xOf d.toBase E r) * totalWidth d.toBase r E = 2 * neutronWidth d.toBase r E := by
      unfold fOf
      field_simp
    have hx1 : fOf d.toBase E r * ((neutronWidth d.toBase r E + r.gg) - 2 * (r.energy - E) * xOf d.toBase E r) = 2 * neutronWidth d.toBase r E := by
      rw [htw] at hfx
      linear_combination hfx - fOf d.toBase E r * xOf d.toBase E r * hx2
    have hw := w_level (D := r.energy - E) hg hn (hpole.imp id sub_ne_zero.mpr) hx1 hx2
    have hK : rmRow E (pen d.toBase 0 E) (smin d.spin) (smax d.spin) c.1 0 ⟨0, 0, 0, 0, 0, 0, false⟩ (rmPrepared d.toBase ⟨r.energy, r.l, r.j, r.gn, r.gg, 0, 0⟩) =
        ⟨(neutronWidth d.toBase r E : ℂ) * (0.5 * I / (((r.energy - E : ℝ) : ℂ) - 0.5 * I * r.gg)), 0, 0, 0, 0, 0, false⟩ := by
      unfold rmRow rmPrepared
      simp only [lt_irrefl, false_and, if_false, ne_eq, not_true_eq_false, or_self]
      have e1 : pen d.toBase 0 E * r.gn / pen d.toBase r.l r.energy = neutronWidth d.toBase r E := by
        unfold neutronWidth
        rw [hl r hrm]
        ring
      rw [e1, ← ofReal_mul, Real.mul_self_sqrt hn, zero_add, ofReal_sub]
    rw [hK]
    have hwt : weight d.spin r.j = (2 * c.2 + 1) / (4 * d.spin + 2) := by
      unfold weight
      rw [hj]
      congr 1
      ring
    refine ⟨_, _, _, rfl, hw, fun C S => by rw [hwt], ?_⟩
    · rw [hwt]
      have : 2 * fOf d.toBase E r - fOf d.toBase E r ^ 2 - (fOf d.toBase E r * xOf d.toBase E r) ^ 2 = 2 * (fOf d.toBase E r * r.gg / totalWidth d.toBase r E) := by
        rw [mul_div_assoc', eq_div_iff ht.ne']
        linear_combination (2 * fOf d.toBase E r) * htw - fOf d.toBase E r * hfx
      rw [this]
      ring

/-- What a channel of an s wave adds. -/
theorem channel_s {d : Bw} {E : ℝ} (h : BwOk d E) (hr : RmOk (asRm d) E) (hl : ∀ r ∈ d.rows, r.l = 0) (hf : ∀ r ∈ d.rows, r.gf = 0) (ho : OnePerChannel d)
    {φ : ℝ} (hφ : 3e-4 ≤ |φ|) (c : ℝ × ℝ) :
    ∃ x, rmChannel d.spin φ c.2 (kOf d.spin E (pen d.toBase 0 E) 0 (rmDict (asRm d) fun _ => none) c) = .ok x ∧
      x.elastic = (2 * c.2 + 1) / (4 * d.spin + 2) * (2 * (1 - Real.cos (2 * φ))) + ((d.rows.filter fun r => r.j = c.2).map fun r =>
        weight d.spin r.j * quad (Real.cos (2 * φ)) (Real.sin (2 * φ)) (fOf d.toBase E r, fOf d.toBase E r * xOf d.toBase E r)).sum ∧
      x.total - x.elastic = ((d.rows.filter fun r => r.j = c.2).map fun r => 2 * (fOf d.toBase E r * weight d.spin r.j * r.gg / totalWidth d.toBase r E)).sum ∧ x.fission = 0 := by
  obtain ⟨K, f, y, hk, hw, q1, q2⟩ := channel_core h hr hl hf ho c
  rw [hk]
  obtain ⟨x, ex, e1, e2, e3⟩ := channel_known (Isp := d.spin) (J := c.2) hφ hw
  exact ⟨x, ex, by rw [e1, mul_add, q1], by rw [e2, q2], e3⟩

theorem momenta_s (m : ℕ) : momenta 0 ((m : ℝ) / 2) = [(m : ℝ) / 2] := by
  have := momenta_eq 0 m
  simp only [CharP.cast_eq_zero] at this
  rw [this]
  simp
  positivity

theorem channels_s (n : ℕ) : ((channels ((n : ℝ) / 2) 0).map Prod.snd).Nodup ∧ ∀ J, Allowed ((n : ℝ) / 2) 0 J → J ∈ (channels ((n : ℝ) / 2) 0).map Prod.snd := by
  have hJ : ∀ J, Allowed ((n : ℝ) / 2) 0 J → J = |(n : ℝ) / 2 - 1 / 2| ∨ J = (n : ℝ) / 2 + 1 / 2 := by
    rintro J ⟨s, hs, k, hk, hle⟩
    have hs0 : 0 ≤ s := by
      rcases hs with rfl | rfl
      · exact abs_nonneg _
      · positivity
    have hk0 : (0 : ℝ) ≤ k := Nat.cast_nonneg k
    have : |((0 : ℤ) : ℝ) - s| = s := by simp [abs_of_nonneg hs0]
    rw [this] at hk
    push_cast at hle
    have : J = s := by linarith
    rw [this]
    exact hs
  cases n with
  | zero =>
    have e : ((0 : ℕ) : ℝ) / 2 = 0 := by simp
    rw [e, channels_zero]
    refine ⟨by simp, fun J h => ?_⟩
    rw [← e] at h
    rcases hJ J h with rfl | rfl
    · simp
    · simp
  | succ n =>
    have e : channels (((n + 1 : ℕ) : ℝ) / 2) 0 = [((n : ℝ) / 2, (n : ℝ) / 2), (((n : ℝ) + 2) / 2, ((n : ℝ) + 2) / 2)] := by
      unfold channels
      rw [spins_succ]
      have h2 := momenta_s (n + 2)
      push_cast at h2
      simp only [List.flatMap_cons, List.flatMap_nil, List.append_nil]
      rw [momenta_s n, h2]
      rfl
    rw [e]
    refine ⟨?_, fun J h => ?_⟩
    · simp only [List.map_cons, List.map_nil, List.nodup_cons, List.mem_singleton, List.not_mem_nil, not_false_eq_true, List.nodup_nil, and_true]
      intro h
      linarith
    · rcases hJ J h with rfl | rfl
      · have : |((n + 1 : ℕ) : ℝ) / 2 - 1 / 2| = (n : ℝ) / 2 := by
          push_cast
          rw [abs_of_nonneg] <;> ring_nf
          positivity
        rw [this]
        simp
      · have : ((n + 1 : ℕ) : ℝ) / 2 + 1 / 2 = ((n : ℝ) + 2) / 2 := by push_cast; ring
        rw [this]
        simp

theorem fold_known {α : Type} {f : α → Except PyErr RmSum} {A B : α → ℝ} (cs : List α) :
    (∀ c ∈ cs, ∃ x, f c = .ok x ∧ x.elastic = A c ∧ x.total - x.elastic = B c ∧ x.fission = 0) → ∀ t : RmSum,
    ∃ t', cs.foldlM (fun (t : RmSum) c => do
      let d ← f c
      return (⟨t.elastic + d.elastic, t.total + d.total, t.fission + d.fission⟩ : RmSum)) t = .ok t' ∧
      t'.elastic = t.elastic + (cs.map A).sum ∧ t'.total - t'.elastic = t.total - t.elastic + (cs.map B).sum ∧ t'.fission = t.fission := by
  induction cs with
  | nil => intro _ t; exact ⟨t, rfl, by simp, by simp, rfl⟩
  | cons c cs ih =>
    intro h t
    obtain ⟨x, e, e1, e2, e3⟩ := h c List.mem_cons_self
    obtain ⟨t', f1, f2, f3, f4⟩ := ih (fun c hc => h c (List.mem_cons_of_mem _ hc)) ⟨t.elastic + x.elastic, t.total + x.total, t.fission + x.fission⟩
    refine ⟨t', ?_, ?_, ?_, ?_⟩
    · rw [List.foldlM_cons, e]
      exact f1
    · rw [f2, List.map_cons, List.sum_cons, e1]; ring
    · rw [f3, List.map_cons, List.sum_cons, ← e2]; ring
    · rw [f4, e3, add_zero]

theorem ls_s {d : Bw} (hl : ∀ r ∈ d.rows, r.l = 0) (hne : d.rows ≠ []) : firsts [] (d.rows.map (·.l)) = [0] := by
  have : ∀ rows : List BwRow, (∀ r ∈ rows, r.l = 0) → firsts [0] (rows.map (·.l)) = [0] := by
    intro rows
    induction rows with
    | nil => intro _; rfl
    | cons r rows ih =>
      intro h
      rw [List.map_cons, firsts, if_pos (by simp [h r List.mem_cons_self])]
      exact ih fun q hq => h q (List.mem_cons_of_mem _ hq)
  cases hd : d.rows with
  | nil => exact absurd hd hne
  | cons r rows =>
    rw [hd] at hl
    rw [List.map_cons, firsts, if_neg (by simp), hl r List.mem_cons_self]
    exact this rows fun q hq => hl q (List.mem_cons_of_mem _ hq)

/-- C202. For resonances of s waves without fission, at most one for each J, and away from the series, the three formalisms give the same cross sections. -/
theorem C202_s_wave {d : Bw} {E : ℝ} (h : BwOk d E) (hr : RmOk (asRm d) E) (hs : NotSmall (asRm d) E) (hl : ∀ r ∈ d.rows, r.l = 0) (hf : ∀ r ∈ d.rows, r.gf = 0)
    (ho : OnePerChannel d) : ∃ x, xsOf mlbwF d E = .ok (.number x) ∧ xsOf slbwF d E = .ok (.number x) ∧ xsOf rmF (asRm d) E = .ok (.number x) := by
  obtain ⟨x, y, ex, ey, h1, h2, h3⟩ := C196_agree h
  have hxy : x = y := by
    have h3 := h3 ho
    obtain ⟨a, b, c⟩ := x
    obtain ⟨a', b', c'⟩ := y
    simp only [] at h1 h2 h3
    rw [h1, h2, h3]
  subst hxy
  refine ⟨x, ex, ey, ?_⟩
  have hv := xsOf_ok (F := slbwF) (prepareBw_ok h _) (slbw_ok h (rowsAt_dict d fun _ => none))
  rw [hv] at ey
  injection ey with ey
  injection ey with ey
  have hls : (asRm d).rows.map (·.l) = d.rows.map (·.l) := by
    show (d.rows.map _).map _ = _
    rw [List.map_map]
    rfl
  apply xsOf_ok (F := rmF) (prepareRm_ok hr _)
  show rm (asRm d) (firsts [] ((asRm d).rows.map (·.l))) (rmDict (asRm d) fun _ => none) E = .ok x
  rw [hls, ← ey]
  by_cases hne : d.rows = []
  · unfold rm
    simp only [hne, List.map_nil, firsts, List.foldlM_nil, lvalues, List.toFinset_nil, Finset.sum_empty, List.sum_nil]
    show (.ok _ : Except PyErr Xs) = _
    simp
  · rw [ls_s hl hne]
    obtain ⟨r0, hr0⟩ := List.exists_mem_of_ne_nil _ hne
    have hok := (h.2 r0 hr0).1
    rw [hl r0 hr0] at hok
    have hφ := hs ⟨r0.energy, r0.l, r0.j, r0.gn, r0.gg, 0, 0⟩ (List.mem_map.mpr ⟨r0, hr0, rfl⟩)
    simp only [hl r0 hr0] at hφ
    replace hφ : 3e-4 ≤ |phaseshift 0 (waveNumber d.awr E * radius d.scattering 0 E)| := hφ
    have hphi := phi_same hok
    simp only [] at hphi
    obtain ⟨c1, c2, -⟩ := hphi
    obtain ⟨n, hn⟩ := h.1.1
    have hw := waves_ok hok
    set φ := phaseshift 0 (waveNumber d.awr E * radius d.scattering 0 E) with hφd
    obtain ⟨t, et, t1, t2, t3⟩ := fold_known (channels d.spin 0) (fun c _ => channel_s h hr hl hf ho hφ c) ⟨0, 0, 0⟩
    have hch := channels_s n
    rw [← hn] at hch
    have hkey : ∀ g : BwRow → ℝ, ((channels d.spin 0).map fun c => ((d.rows.filter fun r => r.j = c.2).map g).sum).sum = (d.rows.map g).sum := by
      intro g
      have := sum_groups (fun r : BwRow => r.j) g d.rows ((channels d.spin 0).map Prod.snd) hch.1 fun r hr => hch.2 _ (by
        have := (h.2 r hr).2.2.2.2.2.2
        rwa [hl r hr] at this)
      rw [List.map_map] at this
      exact this
    have hsum : ((channels d.spin 0).map fun c => (2 * c.2 + 1) / (4 * d.spin + 2)).sum = 1 := by
      have := sum_channels n 0
      rw [← hn] at this
      simpa using this
    rw [List.sum_map_add, hkey, List.sum_map_mul_right, hsum] at t1
    rw [hkey] at t2
    have hev : (List.foldlM (rmAt (asRm d).toBase (rmDict (asRm d) fun _ => none) E) (⟨0, 0, 0⟩ : RmSum) [0]) = .ok t := by
      rw [List.foldlM_cons]
      unfold rmAt
      rw [show (asRm d).toBase = d.toBase from rfl, hw]
      simp only [ok_bind]
      rw [et]
      rfl
    unfold rm
    simp only []
    rw [hev]
    simp only [ok_bind]
    show (.ok _ : Except PyErr Xs) = _
    congr 1
    have hlv : lvalues (d.rows.map (·.l)) = {0} := by
      unfold lvalues
      ext a
      simp only [List.mem_toFinset, List.mem_map, Finset.mem_singleton]
      constructor
      · rintro ⟨r, hr, rfl⟩; exact hl r hr
      · rintro rfl; exact ⟨r0, hr0, hl r0 hr0⟩
    rw [hlv, Finset.sum_singleton]
    simp only [zero_add, sub_zero] at t1 t2 t3
    congr 1
    · rw [t1, one_mul, mul_comm, mul_add, ← List.sum_map_mul_left, show (asRm d).awr = d.awr from rfl]
      congr 1
      · rw [c1]
        have hs : Real.cos (2 * phi d.toBase 0 E) = 1 - 2 * Real.sin (phi d.toBase 0 E) ^ 2 := by rw [Real.cos_two_mul, Real.cos_sq']; ring
        unfold potential
        rw [hs]
        push_cast
        ring
      · congr 1
        apply List.map_congr_left
        intro r hr
        rw [c1, c2]
        have := level_same (b := d.toBase) (total_pos h hr).1
        rw [hl r hr] at this
        exact this
    · rw [t3, sub_zero, t2, mul_comm, ← List.sum_map_mul_left, show (asRm d).awr = d.awr from rfl]
      congr 1
      apply List.map_congr_left
      intro r hr
      rw [← f_line (total_pos h hr).1 r.gg]
      ring
    · rw [t3, zero_mul]
      symm
      apply List.sum_eq_zero
      intro v hv
      obtain ⟨r, hr, rfl⟩ := List.mem_map.mp hv
      rw [hf r hr, mul_zero]

end
end ASAPy.Recon
