import Verif.Deck.Steps

/-!
# The whole input
-/

namespace ASAPy.Deck

set_option maxRecDepth 100000
set_option linter.unusedSimpArgs false

variable {o : Opts}

theorem natStr_length_lt {n : Nat} (h : n < 10) : (Dec.natStr n).length = 1 := by
  interval_cases n <;> rfl

theorem natStr_length_ge {n : Nat} (h : 10 ≤ n) : 2 ≤ (Dec.natStr n).length := by
  have h0 : n ≠ 0 := by omega
  rw [Dec.natStr, if_neg h0, List.length_reverse, List.length_map]
  have := Nat.digits_len 10 n (by norm_num) h0
  rw [this]
  have : 1 ≤ Nat.log 10 n := Nat.le_log_of_pow_le (by norm_num) (by simpa using h)
  omega

theorem ext_suffix (i : Nat) : '.' :: ext i = suffix i := by
  unfold ext suffix
  split
  · rename_i h; rw [natStr_length_lt h]; rfl
  · rename_i h
    have := natStr_length_ge (Nat.le_of_not_lt h)
    rw [Nat.sub_eq_zero_of_le this]; rfl

theorem plain_ext (i : Nat) : Plain (ext i) := by
  refine ⟨by simp [ext, Dec.natStr_ne_nil], fun c hc => ?_⟩
  rcases List.mem_append.1 hc with h | h
  · rw [List.eq_of_mem_replicate h]; decide
  · exact (plain_natStr _).2 c h

theorem acer_ok (hw : o.Writable) (k : Nat) (l : List Njoy.Temp) (hl : ∀ t ∈ l, t ∈ o.temps) (i : Nat) (s : W) :
    ∃ x, acerLoop o k i l s = .ok (s ++ x) ∧ Part x ((l.zipIdx i).map fun ti =>
      .acer [num 20, num k, c!"0", num (k + 1 + 2 * ti.2), num (k + 2 + 2 * ti.2)] (suffix ti.2) (num o.mat) ti.1.str) := by
  induction l generalizing i s with
  | nil => exact ⟨[], by simp [acerLoop], Part.nil⟩
  | cons t l ih =>
    have hp := part_acer (plain_natStr 20) (plain_natStr k) (plain_natStr (k + 1 + 2 * i)) (plain_natStr (k + 1 + 2 * i + 1)) (plain_ext i) hw.library hw.zsymam
      (hw.temp t (hl t (by simp))) (plain_natStr o.mat)
    have f : format (acerEnv o k (k + 1 + 2 * i) (ext i) t) tAcer = .ok _ := format_xAcer rfl rfl rfl rfl rfl rfl rfl rfl rfl
    generalize xAcer (Dec.natStr 20) (Dec.natStr k) (Dec.natStr (k + 1 + 2 * i)) (Dec.natStr (k + 1 + 2 * i + 1)) (ext i) o.library o.zsymam t.str (Dec.natStr o.mat) = y at hp f
    obtain ⟨x, hx, hpx⟩ := ih (fun t h => hl t (by simp [h])) (i + 1) (s ++ y)
    refine ⟨y ++ x, ?_, ?_⟩
    · rw [acerLoop, f, ok_bind, hx, List.append_assoc]
    · rw [List.zipIdx_cons, List.map_cons]
      have := hp.append hpx
      rw [ext_suffix, show k + 1 + 2 * i + 1 = k + 2 + 2 * i by ring] at this
      exact this

theorem temps_part (hw : o.Writable) : (∀ w ∈ o.strs, Plain w) ∧ o.strs ≠ [] := ⟨strs_plain hw.temp, strs_ne hw.temps⟩

theorem reads_stop : Reads c!"stop\n" [] := .stop rfl

theorem makeDeck_ok (hw : o.Writable) (hn : o.errorr = true → NuChiOk o) : ∃ t, makeDeck o = .ok t ∧ Reads t (asked o) := by
  -- up to BROADR
  have hrec := part_reconr (plain_natStr 20) (plain_natStr 21) hw.library hw.zsymam (plain_natStr o.mat) hw.error
  have hbro := part_broadr (plain_natStr 20) (plain_natStr 21) (plain_natStr 22) (plain_natStr o.mat) hw.error (temps_part hw).1 (temps_part hw).2
  rw [strs_length] at hbro
  have p1 : ∀ a b, ∃ x, format (lastEnv o (broadrPart o).2 a b) (broadrPart o).1.commands = .ok x ∧
      Part x ([.reconr [num 20, num 21] (num o.mat) o.error] ++ (if o.broadr then [.broadr [num 20, num 21, num 22] (num o.mat) o.error o.strs] else [])) := by
    intro a b
    unfold broadrPart
    cases hb : o.broadr with
    | false => exact ⟨_, format_xReconr rfl rfl rfl rfl rfl rfl, by simpa using hrec⟩
    | true => exact ⟨_, format_ok_append (format_xReconr rfl rfl rfl rfl rfl rfl) (format_xBroadr rfl rfl rfl rfl rfl rfl rfl), hrec.append hbro⟩
  -- covariances
  obtain ⟨s2, h2, y, hy, hyb, hyp, hyn⟩ : ∃ s2, covPart o (broadrPart o).2 (broadrPart o).1 = .ok s2 ∧ ∃ y, s2.commands = (broadrPart o).1.commands ++ y ∧ NoBrace y ∧
      Part y (if o.errorr then (o.temps.zipIdx.flatMap fun ti => covRuns o (o.groups.getD []) (22 + o.width * ti.2) ti.1) ++ nuChiRuns o (o.groups.getD []) (22 + o.width * o.temps.length) else []) ∧
      s2.nlast = o.afterCov := by
    unfold covPart
    cases he : o.errorr with
    | false => exact ⟨_, rfl, [], by simp, by intro c hc; simp at hc, Part.nil, by cases hb : o.broadr <;> simp [broadrPart, Opts.afterCov, he, hb]⟩
    | true =>
      have hb := hw.broadr (.inl he)
      obtain ⟨s2, h2, y, hy, hyb, hyp, hyn⟩ := errorrPart_ok hw he (hn he) (broadrPart o).1 (by simp [broadrPart, hb])
      refine ⟨s2, ?_, y, hy, hyb, hyp, ?_⟩
      · simp only [if_true]
        rw [show (broadrPart o).2 = some 22 by simp [broadrPart, hb]]
        exact h2
      · rw [hyn]
        have : 22 ≤ o.afterCov := by
          simp only [Opts.afterCov, he, if_true]; omega
        simp only [broadrPart, hb, if_true]; omega
  -- HEATR
  have hhe := part_heatr (plain_natStr 20) (plain_natStr 22) (plain_natStr (s2.nlast + 1)) (plain_natStr o.mat)
  obtain ⟨h, h3, hz, hzf⟩ : ∃ h, heatrPart o (broadrPart o).2 s2 = .ok h ∧ h.1.nlast = (if o.heatr then o.afterCov + 1 else o.afterCov) ∧
      ∃ z, h.1.commands = s2.commands ++ z ∧ ∀ b, ∃ x, format (lastEnv o (broadrPart o).2 h.2 b) z = .ok x ∧
      Part x (if o.heatr then [.heatr [num 20, num 22, num (o.afterCov + 1)] (num o.mat) [c!"302", c!"318", c!"402"]] else []) := by
    unfold heatrPart
    cases hh : o.heatr with
    | false => exact ⟨(s2, 0), rfl, hyn, [], by simp, fun b => ⟨[], rfl, Part.nil⟩⟩
    | true =>
      have hb := hw.broadr (.inr hh)
      rw [show (broadrPart o).2 = some 22 by simp [broadrPart, hb]]
      refine ⟨_, rfl, by simp [hyn], tHeatr, rfl, fun b => ⟨_, format_xHeatr rfl rfl rfl rfl, ?_⟩⟩
      rw [← hyn]; exact hhe
  obtain ⟨z, hzc, hzf⟩ := hzf
  -- PURR
  have hpu := part_purr (plain_natStr 20) (plain_natStr h.1.nlast) (plain_natStr (h.1.nlast + 1)) (plain_natStr o.mat) (temps_part hw).1 (temps_part hw).2
  rw [strs_length] at hpu
  obtain ⟨u, huc, hun, v, hv, hvp⟩ : ∃ u, (purrPart o h.1).commands = h.1.commands ++ u ∧ (purrPart o h.1).nlast = (if o.purr then h.1.nlast + 1 else h.1.nlast) ∧
      ∃ x, format (lastEnv o (broadrPart o).2 h.2 h.1.nlast) u = .ok x ∧
      Part x (if o.purr then [.purr [num 20, num h.1.nlast, num (h.1.nlast + 1)] (num o.mat) o.strs] else []) := by
    unfold purrPart
    cases hh : o.purr with
    | false => exact ⟨[], by simp, rfl, [], rfl, Part.nil⟩
    | true => exact ⟨tPurr, rfl, rfl, _, format_xPurr rfl rfl rfl rfl rfl rfl, hpu⟩
  obtain ⟨x1, hx1, hp1⟩ := p1 h.2 h.1.nlast
  obtain ⟨x3, hx3, hp3⟩ := hzf h.1.nlast
  have hfmt : format (lastEnv o (broadrPart o).2 h.2 h.1.nlast) (purrPart o h.1).commands = .ok (x1 ++ y ++ x3 ++ v) := by
    rw [huc, hzc, hy]
    exact format_ok_append (format_ok_append (format_ok_append hx1 (format_noBrace hyb _)) hx3) hv
  -- ACER
  obtain ⟨w, hw4, hwp⟩ : ∃ w, acerPart o (purrPart o h.1).nlast (x1 ++ y ++ x3 ++ v) = .ok (x1 ++ y ++ x3 ++ v ++ w) ∧
      Part w (if o.acer then o.temps.zipIdx.map fun ti => .acer [num 20, num (purrPart o h.1).nlast, c!"0", num ((purrPart o h.1).nlast + 1 + 2 * ti.2),
        num ((purrPart o h.1).nlast + 2 + 2 * ti.2)] (suffix ti.2) (num o.mat) ti.1.str else []) := by
    unfold acerPart
    cases hh : o.acer with
    | false => exact ⟨[], by simp, Part.nil⟩
    | true => exact acer_ok hw _ o.temps (fun t h => h) 0 _
  refine ⟨x1 ++ y ++ x3 ++ v ++ w ++ c!"stop\n", ?_, ?_⟩
  · unfold makeDeck
    simp only [h2, h3, ok_bind, hfmt, hw4]
    rfl
  · have := ((((hp1.append hyp).append hp3).append hvp).append hwp) _ _ reads_stop
    rw [List.append_nil] at this
    convert this using 1
    simp only [asked, hun, hz]

end ASAPy.Deck
