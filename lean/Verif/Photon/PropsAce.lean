import Verif.Photon.SpecAce
import Verif.Photon.Props
import Verif.AceData.Props

/-!
# C174 and C175: photon data from ACE tables
-/

namespace ASAPy.Photon
open ASAPy.Endf
open ASAPy.FromAce
open ASAPy.AceData (Element)

/-! ### C174: reactions -/

theorem exp_loggedMeV (e : ℝ) (h : 0 < e) : ExpLog.exp (loggedMeV e) * 1000000 = e := by
  rw [realExp, loggedMeV, Real.exp_log (by positivity)]
  field_simp

theorem unlog_logged (v : ℝ) (h : Told v) : unlog (logged v) = v := by
  unfold unlog logged
  rcases h with rfl | ⟨h0, h1⟩
  · simp
  · have hl : Real.log v ≠ 0 := Real.log_ne_zero_of_pos_of_ne_one h0 h1
    rw [if_neg h0.ne', if_pos hl, realExp, Real.exp_log h0]

theorem map_energy {es : List ℝ} (h : ∀ e ∈ es, 0 < e) : (es.map loggedMeV).map (fun v => ExpLog.exp v * 1000000) = es := by
  rw [List.map_map]
  conv_rhs => rw [← List.map_id es]
  exact List.map_congr_left fun e he => exp_loggedMeV e (h e he)

theorem map_unlog {vs : List ℝ} (h : ∀ v ∈ vs, Told v) : (vs.map logged).map unlog = vs := by
  rw [List.map_map]
  conv_rhs => rw [← List.map_id vs]
  exact List.map_congr_left fun v hv => unlog_logged v (h v hv)

/-- The blocks of the cross sections. -/
theorem eszg_blocks {a : Arrays ℝ} {s : Eszg} (h : HoldsEszg a s) (ok : s.Ok) : ∃ p : Nat, item a.nxs 3 = .ok (s.energy.length : Int) ∧ item a.jxs 1 = .ok (p : Int) ∧
    slice a.xss p (p + s.energy.length) = s.energy.map loggedMeV ∧
    slice a.xss (p + s.energy.length) (p + s.energy.length + s.energy.length) = s.incoherent.map logged ∧
    slice a.xss (p + 2 * s.energy.length) (p + 2 * s.energy.length + s.energy.length) = s.coherent.map logged ∧
    slice a.xss (p + 3 * s.energy.length) (p + 3 * s.energy.length + s.energy.length) = s.photoelectric.map logged ∧
    slice a.xss (p + 4 * s.energy.length) (p + 4 * s.energy.length + s.energy.length) = s.pair.map logged := by
  obtain ⟨p, hj, hat⟩ := h.block
  obtain ⟨l1, l2, l3, l4⟩ := ok.lengths
  obtain ⟨h1, a5⟩ := at_append hat
  obtain ⟨h1, a4⟩ := at_append h1
  obtain ⟨h1, a3⟩ := at_append h1
  obtain ⟨a1, a2⟩ := at_append h1
  simp only [List.length_append, List.length_map, l1, l2, l3, l4] at a2 a3 a4 a5
  refine ⟨p, ?_, ?_, ?_, ?_, ?_, ?_, ?_⟩
  · have := item_nat _ _ _ h.number
    exact this
  · have := item_nat _ _ _ hj
    exact this
  · exact slice_at a1 _ _ rfl (by simp)
  · exact slice_at a2 _ _ (by push_cast; ring) (by simp [l1])
  · exact slice_at a3 _ _ (by push_cast; ring) (by simp [l2])
  · exact slice_at a4 _ _ (by push_cast; ring) (by simp [l3])
  · exact slice_at a5 _ _ (by push_cast; ring) (by simp [l4])

theorem old_inc : (oldIncoherent : List ℝ) = incPoints.map fun n : Nat => (n : ℝ) / 1000 := by
  simp only [oldIncoherent, incPoints, List.map_cons, List.map_nil]
  norm_num

theorem old_coh : (oldCoherent : List ℝ) = cohPoints.map fun n : Nat => (n : ℝ) / 100 := by
  have : cohPoints = [0, 1, 2, 3, 4, 5, 6, 8, 10, 12, 15, 18, 20, 25, 30, 35, 40, 45, 50, 55, 60, 70, 80, 90, 100, 110, 120, 130, 140, 150, 160, 170, 180, 190, 200, 220, 240, 260, 280, 300, 320,
    340, 360, 380, 400, 420, 440, 460, 480, 500, 520, 540, 560, 580, 600] := by decide
  rw [this]
  simp only [oldCoherent, List.map_cons, List.map_nil]
  norm_num

/-- The form factors. -/
theorem factors_read {a : Arrays ℝ} {f : Factors} (h : HoldsFactors a f) :
    factorFromAce a 502 = .ok (some (.linlin f.xCoh f.coh)) ∧ factorFromAce a 504 = .ok (some (.linlin f.xInc f.inc)) ∧ factorFromAce a 515 = .ok none ∧ factorFromAce a 522 = .ok none := by
  unfold factorFromAce
  cases h with
  | new n p hn h0 hi hc h2 h3 h4 hat =>
    have i6 : item a.nxs 6 = .ok n := item_nat _ _ _ hn
    have i2 : item a.jxs 2 = .ok (p : Int) := item_nat _ _ _ h2
    have i3 : item a.jxs 3 = .ok ((p + 2 * f.xInc.length : Nat) : Int) := item_nat _ _ _ h3
    have i4 : item a.jxs 4 = .ok ((p + 2 * f.xInc.length + 3 * f.xCoh.length : Nat) : Int) := item_nat _ _ _ h4
    obtain ⟨h1, a5⟩ := at_append hat
    obtain ⟨h1, a4⟩ := at_append h1
    obtain ⟨h1, a3⟩ := at_append h1
    obtain ⟨a1, a2⟩ := at_append h1
    simp only [List.length_append, hi, hc.1] at a2 a3 a4 a5
    have n3 : (((p + 2 * f.xInc.length + 3 * f.xCoh.length : Nat) : Int) - ((p + 2 * f.xInc.length : Nat) : Int)) / 3 = f.xCoh.length := by push_cast; omega
    have n2 : (((p + 2 * f.xInc.length : Nat) : Int) - (p : Int)) / 2 = f.xInc.length := by push_cast; omega
    simp only [i6, i2, i3, i4, bind, Except.bind, pure, Except.pure, if_pos h0, n3, n2]
    refine ⟨?_, ?_, rfl, rfl⟩
    · rw [if_pos trivial, slice_at a3 _ _ (by push_cast; ring) rfl, slice_at a5 _ _ (by push_cast; ring) (by rw [hc.2]; ring)]
    · rw [if_neg (by decide), if_pos trivial, slice_at a1 _ _ rfl rfl, slice_at a2 _ _ (by push_cast; ring) (by rw [hi])]
  | old n p q hn h0 hxi hxc hi hc h2 h3 hat hat' =>
    have i6 : item a.nxs 6 = .ok n := item_nat _ _ _ hn
    have i2 : item a.jxs 2 = .ok (p : Int) := item_nat _ _ _ h2
    have i3 : item a.jxs 3 = .ok (q : Int) := item_nat _ _ _ h3
    obtain ⟨a1, a2⟩ := at_append hat'
    rw [hc.1] at a2
    have l1 : (oldCoherent (K := ℝ)).length = 55 := rfl
    have l2 : (oldIncoherent (K := ℝ)).length = 21 := rfl
    simp only [i6, i2, i3, bind, Except.bind, pure, Except.pure, if_neg (not_lt.mpr h0), l1, l2]
    refine ⟨?_, ?_, rfl, rfl⟩
    · rw [if_pos trivial, slice_at a2 _ _ (by push_cast; ring) (by rw [hc.2]; push_cast; ring), old_coh, hxc]
    · rw [if_neg (by decide), if_pos trivial, slice_at hat _ _ rfl (by rw [hi]), old_inc, hxi]

/-- C174: the reactions of a table have its energies in eV, its cross sections and its form factors. -/
theorem C174_reactions_partial {a : Arrays ℝ} {s : Eszg} {f : Factors} (hs : HoldsEszg a s) (ok : s.Ok) (hf : HoldsFactors a f) :
    rxFromAce a 502 = .ok { mt := 502, xs := some (loglog s.energy s.coherent), factor := some (.linlin f.xCoh f.coh) } ∧
    rxFromAce a 504 = .ok { mt := 504, xs := some (loglog s.energy s.incoherent), factor := some (.linlin f.xInc f.inc) } ∧
    rxFromAce a 515 = .ok { mt := 515, xs := some (loglog s.energy s.pair) } ∧
    rxFromAce a 522 = .ok { mt := 522, xs := some (loglog s.energy s.photoelectric) } := by
  obtain ⟨p, i3, i1, b0, b1, b2, b3, b4⟩ := eszg_blocks hs ok
  obtain ⟨f1, f2, f3, f4⟩ := factors_read hf
  have t1 := map_unlog (vs := s.incoherent) fun v hv => ok.told v (by simp [hv])
  have t2 := map_unlog (vs := s.coherent) fun v hv => ok.told v (by simp [hv])
  have t3 := map_unlog (vs := s.photoelectric) fun v hv => ok.told v (by simp [hv])
  have t4 := map_unlog (vs := s.pair) fun v hv => ok.told v (by simp [hv])
  have te := map_energy ok.energies
  unfold rxFromAce
  simp only [i3, i1, bind, Except.bind, pure, Except.pure, b0, te, f1, f2, f3, f4, xsAt]
  refine ⟨?_, ?_, ?_, ?_⟩
  · rw [if_pos trivial]
    simp only [b2, t2]
    rfl
  · rw [if_neg (by decide), if_pos trivial]
    simp only [b1, t1]
    rfl
  · rw [if_neg (by decide), if_neg (by decide), if_pos trivial]
    simp only [b4, t4]
    rfl
  · rw [if_neg (by decide), if_neg (by decide), if_neg (by decide), if_pos trivial]
    simp only [b3, t3]
    rfl

/-- C174: other reactions are refused. -/
theorem C174_other {a : Arrays ℝ} {s : Eszg} (hs : HoldsEszg a s) (ok : s.Ok) (mt : Int) (h : mt ∉ [502, 504, 515, 522]) : rxFromAce a mt = .error .valueError := by
  obtain ⟨p, i3, i1, -⟩ := eszg_blocks hs ok
  simp only [List.mem_cons, List.not_mem_nil, or_false, not_or] at h
  unfold rxFromAce xsAt
  simp only [i3, i1, bind, Except.bind, if_neg h.1, if_neg h.2.1, if_neg h.2.2.1, if_neg h.2.2.2]

/-- C174, what does not hold: a cross section of exactly 1 b is read as 0. -/
theorem C174_one_refuted {a : Arrays ℝ} {e : ℝ} (he : 0 < e) (hn : a.nxs[3]? = some 1) (p : Nat) (hj : a.jxs[1]? = some (p : Int)) (hat : AtL a.xss p [loggedMeV e, logged 1, logged 1, logged 1, logged 1]) :
    ∀ r, rxFromAce a 522 = .ok r → r.xs = some (loglog [e] [0]) := by
  intro r hr
  have i3 : item a.nxs 3 = .ok 1 := item_nat _ _ _ hn
  have i1 : item a.jxs 1 = .ok (p : Int) := item_nat _ _ _ hj
  have b0 : slice a.xss p (p + 1) = [loggedMeV e] := slice_at (p := p) (fun k v hk => hat k v (by
    cases k with
    | zero => simpa using hk
    | succ k => simp at hk)) _ _ rfl rfl
  have b3 : slice a.xss (p + 3 * 1) (p + 3 * 1 + 1) = [logged 1] := slice_at (p := p + 3) (fun k v hk => by
    cases k with
    | zero => exact hat 3 v (by simpa using hk)
    | succ k => simp at hk) _ _ (by push_cast; ring) rfl
  unfold rxFromAce xsAt at hr
  simp only [i3, i1, bind, Except.bind, pure, Except.pure, b0, b3] at hr
  rw [if_neg (by decide), if_neg (by decide), if_neg (by decide), if_pos trivial] at hr
  simp only [b3] at hr
  cases hfx : factorFromAce a 522 with
  | error e => rw [hfx] at hr; cases hr
  | ok f =>
    rw [hfx] at hr
    simp only [Except.ok.injEq] at hr
    subst hr
    simp [loglog, exp_loggedMeV e he, unlog, logged]

/-! ### C175: all data of a table -/

theorem profile_read {a : Arrays ℝ} {p q k : Nat} {c : CShell} {loca : Nat} (h9 : item a.jxs 9 = .ok (p : Int)) (h10 : item a.jxs 10 = .ok (q : Int)) (hk : a.xss[p + k]? = some (loca : ℝ))
    (h : HoldsProfile a q c loca) : profile a k = .ok ⟨c.pz, c.pdf, [(c.pz.length : Int)], [c.scheme]⟩ := by
  obtain ⟨hl, hlen, hat⟩ := h
  have e : (c.scheme : ℝ) :: (c.pz.length : ℝ) :: (c.pz ++ c.pdf) = [(c.scheme : ℝ), (c.pz.length : ℝ)] ++ (c.pz ++ c.pdf) := rfl
  have h0 := hat 0 _ rfl
  have h1 := hat 1 _ rfl
  rw [e] at hat
  obtain ⟨-, h2⟩ := at_append hat
  obtain ⟨a1, a2⟩ := at_append h2
  have i0 : item a.xss ((p : Int) + k) = .ok (loca : ℝ) := by
    have := item_nat _ _ _ hk
    push_cast at this
    exact this
  have i1 : item a.xss ((q : Int) + loca - 1) = .ok (c.scheme : ℝ) := by
    have := item_nat _ _ _ h0
    have e : ((q + loca - 1 + 0 : Nat) : Int) = (q : Int) + loca - 1 := by omega
    rwa [e] at this
  have i2 : item a.xss ((q : Int) + loca) = .ok (c.pz.length : ℝ) := by
    have := item_nat _ _ _ h1
    have e : ((q + loca - 1 + 1 : Nat) : Int) = (q : Int) + loca := by omega
    rwa [e] at this
  unfold profile
  simp only [h9, h10, i0, bind, Except.bind, pure, Except.pure, pyTrunc_nat, i1, i2, Int.toNat_natCast]
  rw [slice_at a1 _ _ (by simp; omega) rfl, slice_at a2 _ _ (by simp; omega) (by rw [hlen]; ring)]

theorem compton_read {a : Arrays ℝ} {cs : List CShell} (h : HoldsCompton a cs) : comptonFromAce a = .ok (if cs = [] then none else some (comptonOf cs)) := by
  obtain ⟨hn, ⟨p6, j6, a6⟩, ⟨p7, j7, a7⟩, ⟨p9, p10, locas, j9, j10, a9, hp⟩⟩ := h
  have i5 : item a.nxs 5 = .ok (cs.length : Int) := item_nat _ _ _ hn
  have i6 : item a.jxs 6 = .ok (p6 : Int) := item_nat _ _ _ j6
  have i7 : item a.jxs 7 = .ok (p7 : Int) := item_nat _ _ _ j7
  have i9 : item a.jxs 9 = .ok (p9 : Int) := item_nat _ _ _ j9
  have i10 : item a.jxs 10 = .ok (p10 : Int) := item_nat _ _ _ j10
  unfold comptonFromAce
  simp only [i5, bind, Except.bind, pure, Except.pure]
  by_cases hc : cs = []
  · subst hc
    rw [if_neg (by simp), if_pos rfl]
  · have h0 : ((cs.length : Nat) : Int) ≠ 0 := by
      have := List.length_pos_iff.mpr hc
      omega
    rw [if_pos h0, if_neg hc]
    simp only [i6, i7, Int.toNat_natCast]
    have hlen := hp.length_eq
    rw [mapM_range_ok (profile a) cs (fun c => ⟨c.pz, c.pdf, [(c.pz.length : Int)], [c.scheme]⟩) (by
      intro j c hj
      have hlt : j < cs.length := by
        by_contra hx
        rw [List.getElem?_eq_none (by omega)] at hj
        cases hj
      have hlt' : j < locas.length := by omega
      have hprof := List.Forall₂.get hp hlt hlt'
      have ec : cs.get ⟨j, hlt⟩ = c := by
        rw [List.getElem?_eq_getElem hlt] at hj
        exact Option.some.inj hj
      rw [ec] at hprof
      exact profile_read i9 i10 (a9 j _ (by rw [List.getElem?_map, List.getElem?_eq_getElem hlt']; rfl)) hprof)]
    simp only
    rw [slice_at a6 _ _ rfl (by simp), slice_at a7 _ _ rfl (by simp)]
    have he : ∀ x : ℝ, x / 1000000 * 1000000 = x := fun x => by field_simp
    simp [comptonOf, he]

theorem get_binding {ss : List (Shell ℝ)} (hd : (ss.map fun s => shellName s.d).Nodup) {s : Shell ℝ} (hs : s ∈ ss) : Dict.get? (relaxOf ss).binding (shellName s.d) = some s.energy := by
  apply AceData.get?_of_mem
  · rw [keys_binding]; exact hd
  · exact List.mem_map.mpr ⟨s, hs, rfl⟩

theorem subshells_read {a : Arrays ℝ} {all : List (Shell ℝ)} {s : Eszg} (hd : (all.map fun s => shellName s.d).Nodup) :
    ∀ (ss : List (Shell ℝ × List ℝ)) (p : Nat) (rs : List (Int × PRx ℝ)), (∀ t ∈ ss, t.1 ∈ all ∧ t.1.d ≤ 39 ∧ t.2.length = s.energy.length ∧ ∀ v ∈ t.2, Told v) →
      AtL a.xss p (ss.flatMap fun t => t.2.map logged) → (rs.map Prod.fst ++ ss.map fun t => (533 + t.1.d : Int)).Nodup →
      subshellRxs a (relaxOf all) (s.energy.length : Int) s.energy (ss.map fun t => (t.1.d : Int)) (p : Int) rs = .ok (rs ++ aceSubshells s ss) := by
  intro ss
  induction ss with
  | nil => intro p rs _ _ _; simp [subshellRxs, aceSubshells]
  | cons t ss ih =>
    intro p rs hs hat hn
    obtain ⟨hm, h39, hl, ht⟩ := hs t (by simp)
    rw [List.flatMap_cons] at hat
    obtain ⟨h1, h2⟩ := at_append hat
    rw [List.length_map, hl] at h2
    rw [List.map_cons]
    unfold subshellRxs
    simp only [subshell_nat _ h39, bind, Except.bind, get_binding hd hm]
    rw [slice_at h1 _ _ rfl (by rw [List.length_map, hl]), map_unlog ht, set_app _ _ _ (by
      rw [List.nodup_append] at hn
      intro hmem
      exact hn.2.2 _ hmem _ (by simp) rfl)]
    have e : (p : Int) + (s.energy.length : Int) = ((p + s.energy.length : Nat) : Int) := by push_cast; rfl
    rw [e, ih _ _ (fun x hx => hs x (by simp [hx])) h2 (by simpa using hn)]
    simp [aceSubshells, loglog]

/-- `int` of the decimal digits of a number. -/
theorem pyInt_natStr (n : Nat) : pyInt (Dec.natStr n) = .ok (n : Int) := by
  have := C56_integer 0 0 none (Dec.natStr n) (Dec.natStr_digits n) (Dec.natStr_ne_nil n)
  simpa [signText, Dec.natVal_natStr] using this

/-- C175: from a photoatomic table come the atomic number of its name, the four reactions, the Compton profiles, and of a new table also the atomic relaxation and the reactions of the subshells with
their binding energies. -/
theorem C175_table_partial {a : Arrays ℝ} {z : Nat} {sym ext : Line} {s : Eszg} {f : Factors} {cs : List CShell} {ss : List (Shell ℝ × List ℝ)} (hz : Element z sym) (hs : HoldsEszg a s) (ok : s.Ok)
    (hf : HoldsFactors a f) (hc : HoldsCompton a cs) (hr : HoldsRelax a (ss.map (·.1))) (hx : HoldsSubshells a (ss.map (·.2))) (hok : ∀ t ∈ ss, t.1.Ok)
    (hxs : ∀ t ∈ ss, t.2.length = s.energy.length ∧ ∀ v ∈ t.2, Told v) (hd : (ss.map fun t => t.1.d).Nodup) :
    photonFromAce (Dec.natStr (1000 * z) ++ '.' :: ext) a =
      .ok ⟨z, aceReactions s f ++ aceSubshells s ss, if ss = [] then none else some (relaxOf (ss.map (·.1))), if cs = [] then none else some (comptonOf cs)⟩ := by
  obtain ⟨r1, r2, r3, r4⟩ := C174_reactions_partial hs ok hf
  obtain ⟨p, i3, i1, b0, -⟩ := eszg_blocks hs ok
  have i7 : item a.nxs 7 = .ok (((ss.map (·.1)).length : Nat) : Int) := item_nat _ _ _ hr.number
  have hname : pyInt ((Dec.natStr (1000 * z) ++ '.' :: ext).takeWhile (· ≠ '.')) = .ok ((1000 * z : Nat) : Int) := by
    rw [List.takeWhile_append_of_pos (fun c hc => by
      have := Dec.natStr_digits _ c hc
      simp only [ne_eq, decide_eq_true_eq]
      rintro rfl
      revert this; decide), List.takeWhile_cons, if_neg (by decide), List.append_nil]
    exact pyInt_natStr _
  obtain ⟨nm, -, hmeta⟩ := AceData.decodes_nndc hz ((1000 * z : Nat) : Int) 0 0 (by push_cast; omega) (by
    have e : ((1000 * z : Nat) : Int) % 1000 = 0 := by omega
    rw [e]
    exact AceData.strip100_le (by positivity)) (by push_cast; omega)
  unfold photonFromAce
  simp only [hname, hmeta, bind, Except.bind, pure, Except.pure, List.mapM_cons, List.mapM_nil, r1, r2, r3, r4, compton_read hc, i7]
  have hfold : [({ mt := 502, xs := some (loglog s.energy s.coherent), factor := some (.linlin f.xCoh f.coh) } : PRx ℝ),
      { mt := 504, xs := some (loglog s.energy s.incoherent), factor := some (.linlin f.xInc f.inc) }, { mt := 515, xs := some (loglog s.energy s.pair) },
      { mt := 522, xs := some (loglog s.energy s.photoelectric) }].foldl (fun d r => Dict.set d r.mt r) [] = aceReactions s f := rfl
  rw [hfold]
  by_cases h0 : ss = []
  · subst h0
    rw [if_neg (by simp), if_pos rfl]
    simp [aceSubshells]
  · have hpos := List.length_pos_iff.mpr h0
    rw [if_pos (by simp; omega), if_neg h0]
    have hdd : ((ss.map (·.1)).map (·.d)).Nodup := by simpa [Function.comp_def] using hd
    have hokk : ∀ x ∈ ss.map (·.1), x.Ok := by
      intro x hx
      obtain ⟨t, ht, rfl⟩ := List.mem_map.mp hx
      exact hok t ht
    rw [C173_table hr hokk hdd]
    obtain ⟨p11, j11, a11⟩ := hr.shells
    obtain ⟨p16, j16, a16⟩ := hx
    have i11 : item a.jxs 11 = .ok (p11 : Int) := item_nat _ _ _ j11
    have i16 : item a.jxs 16 = .ok (p16 : Int) := item_nat _ _ _ j16
    simp only [i11, i3, i1, i16, b0, map_energy ok.energies]
    rw [slice_at a11 _ _ rfl (by simp)]
    have hds : ((ss.map (·.1)).map fun s => (s.d : ℝ)).map pyTrunc = ss.map fun t => (t.1.d : Int) := by
      simp only [List.map_map]
      exact List.map_congr_left fun t _ => pyTrunc_nat _
    rw [hds, subshells_read (names_nodup_of (fun x hx => (hokk x hx).1) hdd) ss p16 (aceReactions s f)
      (fun t ht => ⟨List.mem_map_of_mem ht, (hok t ht).1.1, hxs t ht⟩) (by rw [List.flatMap_map] at a16; exact a16) ?_]
    rw [List.nodup_append]
    refine ⟨by simp [aceReactions], ?_, ?_⟩
    · have : (ss.map fun t => (533 + t.1.d : Int)) = (ss.map fun t => t.1.d).map fun d : Nat => (533 + d : Int) := by simp
      rw [this]
      exact hd.map (fun x y h => by simpa using h)
    · intro m hm m' hm' e
      subst e
      obtain ⟨t, ht, rfl⟩ := List.mem_map.mp hm'
      have := (hok t ht).2.1
      simp only [aceReactions, List.map_cons, List.map_nil, List.mem_cons, List.not_mem_nil, or_false] at hm
      omega

/-! ### Examples -/

/-- Oxygen at two energies. -/
noncomputable def exS : Eszg := ⟨[1000, 2000000], [1 / 2, 3], [4, 1 / 4], [100, 2], [0, 7]⟩

theorem exS_ok : exS.Ok := by
  refine ⟨⟨rfl, rfl, rfl, rfl⟩, ?_, ?_⟩
  · intro e he
    simp only [exS, List.mem_cons, List.not_mem_nil, or_false] at he
    rcases he with rfl | rfl <;> norm_num
  · intro v hv
    simp only [exS, List.cons_append, List.nil_append, List.mem_cons, List.not_mem_nil, or_false] at hv
    rcases hv with rfl | rfl | rfl | rfl | rfl | rfl | rfl | rfl <;> first | exact Or.inl rfl | (right; norm_num)

/-- The K shell with two transitions. -/
noncomputable def exShell : Shell ℝ := ⟨1, 500, 2, [⟨3, 0, 400, 1 / 4⟩, ⟨3, 3, 450, 3 / 4⟩]⟩

def exC : List CShell := [⟨2, 500, 2, [0, 1, 2], [3, 2, 1]⟩, ⟨6, 30, 2, [0, 5], [4, 1]⟩]

/-- Form factors with their points. -/
def exF : Factors := ⟨[0, 1], [0, 8], [0, 2, 3], [0, 1, 2], [8, 4, 1]⟩

/-- A new table. Positions from 1 on: cross sections at 1, form factors at 11 and 15, profiles at 24, 26, 28, 30, subshells at 45. -/
noncomputable def exPArrays : Arrays ℝ :=
  ⟨[0, 0, 0, 2, 0, 2, 1, 1], [0, 1, 11, 15, 24, 0, 24, 26, 0, 28, 30, 46, 47, 48, 0, 49, 50, 0, 52],
   [0] ++ (exS.energy.map loggedMeV ++ exS.incoherent.map logged ++ exS.coherent.map logged ++ exS.photoelectric.map logged ++ exS.pair.map logged) ++
   (exF.xInc ++ exF.inc ++ exF.xCoh ++ exF.integ ++ exF.coh) ++ exC.map (·.electrons) ++ (exC.map fun c => c.energy / 1000000) ++ [1, 9] ++
   [2, 3, 0, 1, 2, 3, 2, 1, 2, 2, 0, 5, 4, 1] ++ [0, 0] ++ [1, 2, 500 / 1000000, 2] ++ [90, 2].map logged ++ aceRows exShell.jumps⟩

theorem exPArrays_eszg : HoldsEszg exPArrays exS := ⟨rfl, 1, rfl, atL_of rfl⟩

theorem exPArrays_factors : HoldsFactors exPArrays exF := .new 1 11 rfl (by norm_num) rfl ⟨rfl, rfl⟩ rfl rfl rfl (atL_of rfl)

theorem exPArrays_compton : HoldsCompton exPArrays exC := by
  refine ⟨rfl, ⟨24, rfl, atL_of rfl⟩, ⟨26, rfl, atL_of rfl⟩, ⟨28, 30, [1, 9], rfl, rfl, atL_of ?_, .cons ?_ (.cons ?_ .nil)⟩⟩
  · simp [exPArrays, exS, exF, exC]
  · exact ⟨by norm_num, rfl, atL_of (by simp [exPArrays, exS, exF, exC])⟩
  · exact ⟨by norm_num, rfl, atL_of (by simp [exPArrays, exS, exF, exC])⟩

theorem exPArrays_relax : HoldsRelax exPArrays [exShell] := by
  refine ⟨rfl, ⟨46, rfl, atL_of ?_⟩, ⟨47, rfl, atL_of ?_⟩, ⟨48, rfl, atL_of ?_⟩, ⟨49, rfl, atL_of ?_⟩, ⟨52, rfl, atL_of ?_⟩⟩ <;>
    simp [exPArrays, exS, exF, exC, exShell, aceRows_length]

theorem exShell_ok : exShell.Ok := by
  refine ⟨⟨by decide, ?_⟩, by decide, by norm_num [exShell], by norm_num [exShell]⟩
  intro t ht
  simp only [exShell, List.mem_cons, List.not_mem_nil, or_false] at ht
  rcases ht with rfl | rfl <;> decide

example : photonFromAce c!"8000.84p" exPArrays =
    .ok ⟨8, aceReactions exS exF ++ [(534, { mt := 534, xs := some ⟨[1000, 2000000], [90, 2], [2], [5]⟩, binding := some 500 })], some (relaxOf [exShell]), some (comptonOf exC)⟩ := by
  have := C175_table_partial (a := exPArrays) (z := 8) (sym := c!"O") (ext := c!"84p") (s := exS) (f := exF) (cs := exC) (ss := [(exShell, [90, 2])]) (by unfold Element; decide) exPArrays_eszg exS_ok
    exPArrays_factors exPArrays_compton exPArrays_relax ⟨50, rfl, atL_of (by simp [exPArrays, exS, exF, exC])⟩ (by simpa using exShell_ok)
    (by
      intro t ht
      simp only [List.mem_cons, List.not_mem_nil, or_false] at ht
      subst ht
      refine ⟨rfl, ?_⟩
      intro v hv
      simp only [List.mem_cons, List.not_mem_nil, or_false] at hv
      rcases hv with rfl | rfl <;> (right; norm_num)) (by simp)
  exact this

/-- An old table, with the points left out: nothing but cross sections and form factors. -/
noncomputable def exOldArrays : Arrays ℝ :=
  ⟨[0, 0, 0, 2, 0, 0, 0, 0], [0, 1, 11, 32, 0],
   [0] ++ (exS.energy.map loggedMeV ++ exS.incoherent.map logged ++ exS.coherent.map logged ++ exS.photoelectric.map logged ++ exS.pair.map logged) ++
   List.replicate 21 (7 : ℝ) ++ (List.replicate 55 (1 : ℝ) ++ List.replicate 55 (2 : ℝ))⟩

example : HoldsFactors exOldArrays ⟨incPoints.map fun n : Nat => (n : ℝ) / 1000, List.replicate 21 7, cohPoints.map fun n : Nat => (n : ℝ) / 100, List.replicate 55 1, List.replicate 55 2⟩ :=
  .old 0 11 32 rfl le_rfl rfl rfl rfl ⟨rfl, rfl⟩ rfl rfl (atL_of rfl) (atL_of rfl)

/-- A table with a cross section of 1 b. -/
example : ∃ a : Arrays ℝ, a.nxs[3]? = some 1 ∧ a.jxs[1]? = some ((1 : Nat) : Int) ∧ AtL a.xss 1 [loggedMeV 1000, logged 1, logged 1, logged 1, logged 1] ∧ ∃ r, rxFromAce a 522 = .ok r :=
  ⟨⟨[0, 0, 0, 1, 0, 0, 0], [0, 1], [0, loggedMeV 1000, logged 1, logged 1, logged 1, logged 1]⟩, rfl, rfl, atL_of rfl, _, rfl⟩

end ASAPy.Photon
