import Verif.Decay.Props

/-!
# Properties of the sections of decay data and yields (C138, C139)
-/

namespace ASAPy.Decay
open ASAPy.Str ASAPy.Dec ASAPy.Endf ASAPy.AceData

theorem ufloat_ok {u : U} (h : u.Ok) : ufloat u.n u.s = .ok u := by
  unfold ufloat
  rw [if_neg (not_lt.mpr h)]

theorem getList_rec {c : Cont} {vs : List ℚ} {ls : List Line} (h : ListRec c vs ls) (rest : List Line) : getList (ls ++ rest) = .ok (c, vs, rest) := by
  obtain ⟨l, rows, rfl, hc, hn, hv⟩ := h
  exact C56_list c l vs rows rest hc hn hv

theorem getTab1_rec {c : Cont} {regions : List (Int × Int)} {points : List (ℚ × ℚ)} {ls : List Line} (h : Tab1Rec c regions points ls) (rest : List Line) :
    getTab1 (ls ++ rest) = .ok ((c.c1, c.c2, c.l1, c.l2), regions, points, rest) := by
  obtain ⟨l, rl, pl, rfl, hc, h1, h2, hr, hp⟩ := h
  have := C56_tab1 c l regions points rl pl rest hc h1 h2 hr hp
  simpa using this

theorem trunc_nat (n : Nat) : trunc (n : ℚ) = n := trunc_spec (Or.inl ⟨by positivity, by simp⟩)

theorem pairs_flat (ps : List (ℚ × ℚ)) : pairs (ps.flatMap fun p => [p.1, p.2]) = ps := by
  induction ps with
  | nil => rfl
  | cons p ps ih => simp only [List.flatMap_cons, List.cons_append, List.nil_append, pairs, ih]

theorem pairs_us (us : List U) : pairs (us.flatMap fun u => [u.n, u.s]) = us.map fun u => (u.n, u.s) := by
  induction us with
  | nil => rfl
  | cons p ps ih => simp only [List.flatMap_cons, List.cons_append, List.nil_append, pairs, ih, List.map_cons]

/-! ### Average energies -/

theorem averagesFrom_ok : ∀ (ns : List Line) (us pre : List U), ns.length = us.length → (∀ u ∈ us, u.Ok) →
    averagesFrom ((pre ++ us).map fun u => (u.n, u.s)) pre.length ns = .ok (ns.zip us)
  | [], us, pre, h, _ => by
    cases us with
    | nil => rfl
    | cons => simp at h
  | n :: ns, [], pre, h, _ => by simp at h
  | n :: ns, u :: us, pre, h, hu => by
    have e : pairAt ((pre ++ u :: us).map fun u => (u.n, u.s)) pre.length = .ok u := by
      unfold pairAt
      simp only [List.getElem?_map, List.getElem?_append_right (le_refl _), Nat.sub_self, List.getElem?_cons_zero, Option.map_some]
      exact ufloat_ok (hu u (by simp))
    have ih := averagesFrom_ok ns us (pre ++ [u]) (by simpa using h) (fun x hx => hu x (by simp [hx]))
    simp only [List.append_assoc, List.singleton_append, List.length_append, List.length_cons, List.length_nil, Nat.zero_add] at ih
    rw [averagesFrom, e]
    simp only [bind, Except.bind, ih, pure, Except.pure, List.zip_cons_cons]

theorem averages_ok {us : List U} {av : List (Line × U)} {n1 : Int} (hn : n1 = (us.flatMap fun u => [u.n, u.s]).length) (hu : ∀ u ∈ us, u.Ok)
    (h : (us.length = 3 ∧ av = components.zip us) ∨ (us.length = 17 ∧ av = (components ++ radiations).zip us)) :
    averages n1 (us.flatMap fun u => [u.n, u.s]) = .ok av := by
  have hlen : (us.flatMap fun u => [u.n, u.s]).length = 2 * us.length := by
    clear hn hu h
    induction us with
    | nil => rfl
    | cons u us ih => rw [List.flatMap_cons, List.length_append, ih]; simp; omega
  unfold averages
  rw [pairs_us]
  rcases h with ⟨h1, rfl⟩ | ⟨h1, rfl⟩
  · rw [if_neg (by omega)]
    exact averagesFrom_ok _ us [] (by rw [h1]; rfl) hu
  · rw [if_pos (by omega)]
    exact averagesFrom_ok _ us [] (by rw [h1]; rfl) hu

/-! ### Modes -/

theorem nth_mid (pre vs post : List ℚ) (k : Nat) (v : ℚ) (h : vs[k]? = some v) : nth (pre ++ vs ++ post) (pre.length + k) = .ok v := by
  unfold nth
  have hk : k < vs.length := (List.getElem?_eq_some_iff.mp h).1
  rw [List.append_assoc, List.getElem?_append_right (by omega), Nat.add_sub_cancel_left, List.getElem?_append_left hk, h]

theorem uAt_mid (pre vs post : List ℚ) (k : Nat) (u : U) (h : (vs.drop k).take 2 = [u.n, u.s]) (hu : u.Ok) :
    uAt (pre ++ vs ++ post) (pre.length + k) = .ok u := by
  unfold uAt
  have e : ((pre ++ vs ++ post).drop (pre.length + k)).take 2 = [u.n, u.s] := by
    have hlen : 2 ≤ (vs.drop k).length := by
      have := congrArg List.length h
      simp only [List.length_take, List.length_cons, List.length_nil] at this
      omega
    have hk : k ≤ vs.length := by simp only [List.length_drop] at hlen; omega
    rw [List.append_assoc, List.drop_append, List.drop_eq_nil_of_le (by omega), Nat.add_sub_cancel_left, List.nil_append, List.drop_append_of_le_length hk,
      List.take_append_of_le_length hlen, h]
  rw [e]
  exact ufloat_ok hu

theorem mkMode_ok {m : Mode} (h1 : 0 ≤ m.energy.n) (h2 : m.energy.Ok) (h3 : 0 ≤ m.ratio.n) (h4 : m.ratio.Ok) :
    mkMode m.parent m.modes m.state m.energy m.ratio = .ok m := by
  unfold mkMode
  rw [if_neg (not_lt.mpr h1), if_neg (not_lt.mpr h2), if_neg (not_lt.mpr h3), if_neg (not_lt.mpr h4)]

theorem readModes_ok {parent : Line} {ms : List Mode} {vss : List (List ℚ)} (h : List.Forall₂ (ModeValues parent) ms vss) :
    ∀ (pre : List ℚ) (i : Nat), pre.length = 6 * i → readModes parent (pre ++ vss.flatten) i vss.length = .ok ms := by
  induction h with
  | nil => intro pre i _; rfl
  | @cons m vs ms vss h1 _ ih =>
    intro pre i hi
    obtain ⟨q, st, rfl, hq, hst, hp, e0, e1, b0, b1⟩ := h1
    have ih := ih (pre ++ [q, (st : ℚ), m.energy.n, m.energy.s, m.ratio.n, m.ratio.s]) (i + 1) (by simp [hi]; omega)
    rw [List.flatten_cons, ← List.append_assoc, List.length_cons, readModes]
    have n0 := nth_mid pre [q, (st : ℚ), m.energy.n, m.energy.s, m.ratio.n, m.ratio.s] vss.flatten 0 q rfl
    have n1 := nth_mid pre [q, (st : ℚ), m.energy.n, m.energy.s, m.ratio.n, m.ratio.s] vss.flatten 1 st rfl
    have u2 := uAt_mid pre [q, (st : ℚ), m.energy.n, m.energy.s, m.ratio.n, m.ratio.s] vss.flatten 2 m.energy rfl e1
    have u4 := uAt_mid pre [q, (st : ℚ), m.energy.n, m.energy.s, m.ratio.n, m.ratio.s] vss.flatten 4 m.ratio rfl b1
    rw [hi] at n0 n1 u2 u4
    have hm := mkMode_ok e0 e1 b0 b1
    rw [hst, hp] at hm
    rw [Nat.add_zero] at n0
    simp only [bind, Except.bind, pure, Except.pure, n0, C136_modes_partial q _ hq, n1, u2, u4, trunc_nat, hm, ih]

/-! ### Spectra -/

theorem look_type {t : ℚ} {o : Option Line} (h : TypeCode t o) : look discreteTable t = .ok o := by
  cases h <;> decide +kernel

theorem look_radiation {t : ℚ} {o : Line} (h : Radiation t o) : look radiationTable t = .ok o := by
  cases h <;> decide +kernel

theorem discOf_ok {type : Line} {d : Disc} {c : Cont} {q t : ℚ} {us : List U} (he : d.energy = ⟨c.c1, c.c2⟩) (he' : d.energy.Ok) (hq : Rtyp q d.fromMode)
    (ht : TypeCode t d.type) (hi : d.intensity.Ok) (hu : ∀ u ∈ us, u.Ok) (hx : Extra type d us) :
    discOf type c (q :: t :: (d.intensity :: us).flatMap fun u => [u.n, u.s]) = .ok d := by
  have e1 : ufloat c.c1 c.c2 = .ok d.energy := by
    have := ufloat_ok he'
    rw [he] at this ⊢
    exact this
  obtain ⟨de, dm, dt, di, dp, dr, dto, dk, dl⟩ := d
  simp only at *
  have n0 : nth (q :: t :: (di :: us).flatMap fun u => [u.n, u.s]) 0 = .ok q := rfl
  have n1 : nth (q :: t :: (di :: us).flatMap fun u => [u.n, u.s]) 1 = .ok t := rfl
  have u2 : uAt (q :: t :: (di :: us).flatMap fun u => [u.n, u.s]) 2 = .ok di := ufloat_ok hi
  unfold discOf
  simp only [bind, Except.bind, pure, Except.pure, e1, n0, C136_modes_partial q _ hq, n1, look_type ht, u2]
  cases hx with
  | other us h1 h2 hp hr ht hk hl =>
    simp only at hp hr ht hk hl
    subst hp hr ht hk hl
    simp [optU, h1, h2]
  | positron p us hp hr ht hk hl =>
    simp only at hp hr ht hk hl
    subst hp hr ht hk hl
    have u4 : uAt (q :: t :: (di :: p :: us).flatMap fun u => [u.n, u.s]) 4 = .ok p := ufloat_ok (hu p (by simp))
    rw [u4]
    simp [optU, Except.map]
  | gamma1 p hp hr ht hk hl =>
    simp only at hp hr ht hk hl
    subst hp hr ht hk hl
    have u4 : uAt (q :: t :: (di :: [p]).flatMap fun u => [u.n, u.s]) 4 = .ok p := ufloat_ok (hu p (by simp))
    rw [u4]
    simp [optU, Except.map]
  | gamma2 p t' hp hr ht hk hl =>
    simp only at hp hr ht hk hl
    subst hp hr ht hk hl
    have u4 : uAt (q :: t :: (di :: [p, t']).flatMap fun u => [u.n, u.s]) 4 = .ok p := ufloat_ok (hu p (by simp))
    have u6 : uAt (q :: t :: (di :: [p, t']).flatMap fun u => [u.n, u.s]) 6 = .ok t' := ufloat_ok (hu t' (by simp))
    rw [u4, u6]
    simp [optU, Except.map]
  | gamma4 p t' k l hp hr ht hk hl =>
    simp only at hp hr ht hk hl
    subst hp hr ht hk hl
    have u4 : uAt (q :: t :: (di :: [p, t', k, l]).flatMap fun u => [u.n, u.s]) 4 = .ok p := ufloat_ok (hu p (by simp))
    have u6 : uAt (q :: t :: (di :: [p, t', k, l]).flatMap fun u => [u.n, u.s]) 6 = .ok t' := ufloat_ok (hu t' (by simp))
    have u8 : uAt (q :: t :: (di :: [p, t', k, l]).flatMap fun u => [u.n, u.s]) 8 = .ok k := ufloat_ok (hu k (by simp))
    have u10 : uAt (q :: t :: (di :: [p, t', k, l]).flatMap fun u => [u.n, u.s]) 10 = .ok l := ufloat_ok (hu l (by simp))
    rw [u4, u6, u8, u10]
    simp [optU, Except.map]

theorem readDisc_ok {type : Line} {ds : List Disc} {ls : List (List Line)} (h : List.Forall₂ (DiscRec type) ds ls) (rest : List Line) :
    readDisc type ds.length (ls.flatten ++ rest) = .ok (ds, rest) := by
  induction h with
  | nil => rfl
  | @cons d l ds ls h1 _ ih =>
    obtain ⟨c, q, t, us, hl, he, he', hq, ht, hi, hu, hx⟩ := h1
    rw [List.length_cons, List.flatten_cons, List.append_assoc, readDisc]
    simp only [bind, Except.bind, pure, Except.pure, getList_rec hl, discOf_ok he he' hq ht hi hu hx, ih]

theorem readCont_ok {ci : Contin} {ls : List Line} (h : ContRec ci ls) (rest : List Line) : readCont (ls ++ rest) = .ok (ci, rest) := by
  obtain ⟨c, a, b, rfl, ht, hq, h⟩ := h
  rw [List.append_assoc]
  unfold readCont
  simp only [bind, Except.bind, pure, Except.pure, getTab1_rec ht, C136_modes_partial _ _ hq]
  obtain ⟨r, p, ty, cov⟩ := ci
  rcases h with ⟨h0, rfl, hc⟩ | ⟨h0, c', ps, hl, hc⟩
  · simp only at hc
    subst hc
    simp [h0]
  · simp only at hc
    subst hc
    simp only [h0, ne_eq, not_false_eq_true, if_true, getList_rec hl, pairs_flat]

theorem readSpectrum_ok {s : Spectrum} {ls : List Line} (h : SpectrumRec s ls) (rest : List Line) : readSpectrum (ls ++ rest) = .ok (s, rest) := by
  obtain ⟨c, n, a, b, rfl, hl, h1, h2, h3, hr, hn, hp⟩ := h
  have u0 : uAt [s.discNorm.n, s.discNorm.s, s.energyAverage.n, s.energyAverage.s, s.contNorm.n, s.contNorm.s] 0 = .ok s.discNorm := ufloat_ok h1
  have u2 : uAt [s.discNorm.n, s.discNorm.s, s.energyAverage.n, s.energyAverage.s, s.contNorm.n, s.contNorm.s] 2 = .ok s.energyAverage := ufloat_ok h2
  have u4 : uAt [s.discNorm.n, s.discNorm.s, s.energyAverage.n, s.energyAverage.s, s.contNorm.n, s.contNorm.s] 4 = .ok s.contNorm := ufloat_ok h3
  rw [List.append_assoc]
  unfold readSpectrum
  simp only [bind, Except.bind, pure, Except.pure, getList_rec hl, look_radiation hr, u0, u2, u4, hn, Int.toNat_natCast]
  obtain ⟨ty, fl, dn, ea, cn, sd, sc⟩ := s
  generalize c.l1 = lcon at hp
  cases hp with
  | discrete hf hd hc hds =>
    simp only at hf hd hc hds
    subst hf hd hc
    have e : look flagTable 0 = .ok c!"discrete" := by decide +kernel
    simp only [e, discPart, contPart, readDisc_ok hds, Except.map]
    simp
  | continuous n hf hd hc hci =>
    simp only at hf hd hc
    subst hf hd hc
    have e : look flagTable 1 = .ok c!"continuous" := by decide +kernel
    simp only [e, discPart, contPart, Except.map]
    simp [readCont_ok hci]
  | both hf hd hc hds hci =>
    simp only at hf hd hc hds
    subst hf hd hc
    have e : look flagTable 2 = .ok c!"both" := by decide +kernel
    simp only [e, discPart, contPart, List.append_assoc, readDisc_ok hds, Except.map]
    simp [readCont_ok hci]

theorem set_new {κ α : Type} [DecidableEq κ] (d : List (κ × α)) (k : κ) (a : α) (h : k ∉ d.map (·.1)) : Dict.set d k a = d ++ [(k, a)] := by
  induction d with
  | nil => rfl
  | cons e d ih =>
    obtain ⟨k', a'⟩ := e
    simp only [List.map_cons, List.mem_cons, not_or] at h
    rw [Dict.set, if_neg (fun e => h.1 e.symm), ih h.2]
    rfl

theorem readSpectra_ok {sps : List Spectrum} {sls : List (List Line)} (h : List.Forall₂ SpectrumRec sps sls) (rest : List Line) :
    ∀ (d : List (Line × Spectrum)), (d.map (·.1) ++ sps.map (·.type)).Nodup →
      readSpectra sps.length d (sls.flatten ++ rest) = .ok (d ++ sps.map fun s => (s.type, s)) := by
  induction h with
  | nil => intro d _; simp [readSpectra]
  | @cons s l sps sls h1 _ ih =>
    intro d hd
    rw [List.length_cons, List.flatten_cons, List.append_assoc, readSpectra]
    simp only [bind, Except.bind, readSpectrum_ok h1]
    have hnew : s.type ∉ d.map (·.1) := by
      intro hm
      rw [List.nodup_append] at hd
      exact hd.2.2 _ hm _ (by simp) rfl
    rw [set_new _ _ _ hnew, ih]
    · simp
    · simpa [List.append_assoc] using hd

/-! ### C138 -/

theorem head_ok {d : Data} {nst nsp : Int} {l : Line} (h : NuclideHead d nst nsp l) (rest : List Line) :
    ∃ hd : Head, getHead (l :: rest) = .ok (hd, rest) ∧ hd.za / 1000 = d.z ∧ hd.za % 1000 = d.a ∧ hd.l2 = d.m ∧ gndName d.z d.a d.m = .ok d.name ∧
      hd.awr = d.mass ∧ hd.l1 = d.excited ∧ hd.n1 = nst ∧ hd.n2 = nsp := by
  obtain ⟨z, a, m, sym, hz, ha, h1, h2, h3, h4, hl⟩ := h
  refine ⟨_, getHead_line hl rest, ?_, ?_, h3.symm, ?_, rfl, rfl, rfl, rfl⟩
  · rw [h1]; show (1000 * (z : Int) + a) / 1000 = z; omega
  · rw [h2]; show (1000 * (z : Int) + a) % 1000 = a; omega
  · rw [h1, h2, h3, h4]; exact gndName_nuclide hz a m

/-- C138 (radioactive nuclides): all data of a section of decay data are read, each into its place: nuclide, half-life, average energies, spin, parity,
modes and spectra, for any number of modes, spectra and lines. -/
theorem C138_radioactive_partial (d : Data) (ls : List Line) (h : RadioactiveSection d ls) : readDecay ls = .ok d := by
  obtain ⟨l, c, c', hl, us, vss, a, b, sps, sls, rfl, hh, hst, ha, hhl, hhl', hlok, hu, hav, hb, hsp, hpar, hn2, hms, hsps, hnd, hspec⟩ := h
  obtain ⟨hd, g, e1, e2, e3, e4, e5, e6, e7, e8⟩ := head_ok hh (a ++ (b ++ sls.flatten))
  unfold readDecay
  simp only [bind, Except.bind, g, e1, e2, e3, e4, e7]
  rw [if_neg (by decide)]
  unfold readUnstable
  have hlo : ufloat c.c1 c.c2 = .ok hl := by
    have := ufloat_ok hlok
    rw [hhl'] at this ⊢
    exact this
  have hn1 : c.n1 = (us.flatMap fun u => [u.n, u.s]).length := ha.choose_spec.choose_spec.2.2.1
  have hm := readModes_ok hms [] 0 rfl
  rw [List.nil_append] at hm
  have hs := readSpectra_ok hsps [] [] (by simpa using hnd)
  rw [List.append_nil, List.nil_append] at hs
  simp only [bind, Except.bind, pure, Except.pure, getList_rec ha, hlo, averages_ok hn1 hu hav, getList_rec hb, hn2, Int.toNat_natCast, hm, e8, hs]
  obtain ⟨dz, da, dm, dn, dmass, dex, dstab, dspin, dpar, dhl, dav, dms, dsp⟩ := d
  simp only at *
  subst hst hhl hspec hpar
  congr 2
  rcases hsp with ⟨x, rfl⟩ | ⟨x, rfl⟩
  · rw [if_pos x]
  · rw [if_neg x]

/-- C138 (stable nuclides, partial: of known spin). -/
theorem C138_stable_partial (d : Data) (ls : List Line) (h : StableSection d ls) : readDecay ls = .ok d := by
  obtain ⟨l, nsp, c, c', vs, vs', a, b, rest, rfl, hh, hst, ha, hb, hk, hsp, hpar, hhl, hav, hms, hspec⟩ := h
  obtain ⟨hd, g, e1, e2, e3, e4, e5, e6, e7, e8⟩ := head_ok hh (a ++ (b ++ rest))
  unfold readDecay
  simp only [bind, Except.bind, g, e1, e2, e3, e4, e7]
  rw [if_pos trivial]
  unfold readStable
  simp only [bind, Except.bind, pure, Except.pure, getList_rec ha, getList_rec hb]
  obtain ⟨dz, da, dm, dn, dmass, dex, dstab, dspin, dpar, dhl, dav, dms, dsp⟩ := d
  simp only at *
  subst hst hhl hspec hpar hsp hav hms
  rw [e1, e2, e3, e5, e6]

/-- C138 (refuted for a stable nuclide of unknown spin): the mark for an unknown spin, which is `None` for a radioactive nuclide, is taken for the spin. -/
theorem C138_stable_spin_refuted (l : Line) (d : Data) (nsp : Int) (hh : NuclideHead d 1 nsp l) (c c' : Cont) (vs vs' : List ℚ) (a b rest : List Line)
    (ha : ListRec c vs a) (hb : ListRec c' vs' b) (hk : c'.c1 = -77777 / 1000) :
    ∃ r, readDecay (l :: (a ++ (b ++ rest))) = .ok r ∧ r.spin = some (-77777 / 1000) := by
  obtain ⟨hd, g, e1, e2, e3, e4, e5, e6, e7, e8⟩ := head_ok hh (a ++ (b ++ rest))
  unfold readDecay
  simp only [bind, Except.bind, g, e1, e2, e3, e4, e7]
  rw [if_pos trivial]
  unfold readStable
  simp only [bind, Except.bind, pure, Except.pure, getList_rec ha, getList_rec hb]
  exact ⟨_, rfl, by rw [hk]⟩

/-- C138 (refuted for a nuclide whose mode of decay is not known): the mode, of code 10, becomes the modes beta- and gamma, and so the nuclide next to it
becomes its daughter. -/
theorem C138_unknown_refuted (parent : Line) (e b : U) (he : 0 ≤ e.n ∧ e.Ok) (hb : 0 ≤ b.n ∧ b.Ok) :
    readModes parent [10, 0, e.n, e.s, b.n, b.s] 0 1 = .ok [⟨parent, [c!"beta-", c!"gamma"], 0, e, b⟩] := by
  have n0 : nth [10, 0, e.n, e.s, b.n, b.s] (6 * 0) = .ok 10 := rfl
  have n1 : nth [10, 0, e.n, e.s, b.n, b.s] (6 * 0 + 1) = .ok 0 := rfl
  have u2 : uAt [10, 0, e.n, e.s, b.n, b.s] (6 * 0 + 2) = .ok e := ufloat_ok he.2
  have u4 : uAt [10, 0, e.n, e.s, b.n, b.s] (6 * 0 + 4) = .ok b := ufloat_ok hb.2
  have hm := mkMode_ok (m := ⟨parent, [c!"beta-", c!"gamma"], 0, e, b⟩) he.1 he.2 hb.1 hb.2
  have t0 : trunc 0 = 0 := by decide +kernel
  simp only [readModes, bind, Except.bind, pure, Except.pure, n0, C136_unknown_refuted.1, n1, u2, u4, t0, hm]

/-- C138: an evaluation without the section is a `KeyError`. -/
theorem C138_missing (sections : List ((Int × Int) × List Line)) (h : ((8 : Int), (457 : Int)) ∉ sections.map (·.1)) :
    decayOf sections = .error .keyError := by
  unfold decayOf look
  rw [(Dict.get?_eq_none (d := sections)).mpr h]
  rfl

theorem C138_section (sections : List ((Int × Int) × List Line)) (ls : List Line) (hn : (sections.map (·.1)).Nodup) (h : ((8, 457), ls) ∈ sections) :
    decayOf sections = readDecay ls := by
  unfold decayOf look
  rw [get?_of_mem hn h]
  rfl

/-! ### C139 -/

theorem nuclide_injective {z z' : Nat} {sym sym' : Line} (h : Element z sym) (h' : Element z' sym') {a m a' m' : Nat}
    (he : nuclideName sym a m = nuclideName sym' a' m') : (z, a, m) = (z', a', m') := by
  have := C60_injective h h' a m a' m' (by rw [gndName_nuclide h, gndName_nuclide h', he])
  rw [this.1, this.2.1, this.2.2]

theorem products_ok : ∀ (ps : List Product) (pre : List ℚ) (j : Nat) (d : List (Line × U)), pre.length = 4 * j → (∀ p ∈ ps, p.Ok) →
    (d.map (·.1) ++ ps.map fun p => nuclideName p.sym p.a p.m).Nodup →
    products (pre ++ ps.flatMap fun p => [((1000 * p.z + p.a : Nat) : ℚ), (p.m : ℚ), p.yield.n, p.yield.s]) j ps.length d =
      .ok (d ++ ps.map fun p => (nuclideName p.sym p.a p.m, p.yield))
  | [], pre, j, d, _, _, _ => by simp [products]
  | p :: ps, pre, j, d, hj, hok, hnd => by
    obtain ⟨hz, ha, hy⟩ := hok p (by simp)
    have ih := products_ok ps (pre ++ [((1000 * p.z + p.a : Nat) : ℚ), (p.m : ℚ), p.yield.n, p.yield.s]) (j + 1)
      (d ++ [(nuclideName p.sym p.a p.m, p.yield)]) (by simp [hj]; omega) (fun x hx => hok x (by simp [hx]))
      (by simpa [List.append_assoc] using hnd)
    rw [List.flatMap_cons, ← List.append_assoc, List.length_cons, products]
    generalize (ps.flatMap fun p => [((1000 * p.z + p.a : Nat) : ℚ), (p.m : ℚ), p.yield.n, p.yield.s]) = post at ih ⊢
    have n0 := nth_mid pre [((1000 * p.z + p.a : Nat) : ℚ), (p.m : ℚ), p.yield.n, p.yield.s] post 0 _ rfl
    have n1 := nth_mid pre [((1000 * p.z + p.a : Nat) : ℚ), (p.m : ℚ), p.yield.n, p.yield.s] post 1 _ rfl
    have n2 := nth_mid pre [((1000 * p.z + p.a : Nat) : ℚ), (p.m : ℚ), p.yield.n, p.yield.s] post 2 _ rfl
    have n3 := nth_mid pre [((1000 * p.z + p.a : Nat) : ℚ), (p.m : ℚ), p.yield.n, p.yield.s] post 3 _ rfl
    rw [hj] at n0 n1 n2 n3
    rw [Nat.add_zero] at n0
    have hp : productOf (pre ++ [((1000 * p.z + p.a : Nat) : ℚ), (p.m : ℚ), p.yield.n, p.yield.s] ++ post) j =
        .ok (nuclideName p.sym p.a p.m, p.yield) := by
      have e1 : ((1000 * p.z + p.a : Nat) : Int) / 1000 = p.z := by omega
      have e2 : ((1000 * p.z + p.a : Nat) : Int) % 1000 = p.a := by omega
      unfold productOf
      simp only [bind, Except.bind, pure, Except.pure, n0, n1, n2, n3, trunc_nat, e1, e2, gndName_nuclide hz, ufloat_ok hy]
    simp only [bind, Except.bind, hp]
    have hnew : nuclideName p.sym p.a p.m ∉ d.map (·.1) := by
      intro hm
      rw [List.nodup_append] at hnd
      exact hnd.2.2 _ hm _ (by simp) rfl
    rw [set_new _ _ _ hnew, ih]
    simp

theorem names_nodup {ps : List Product} (hok : ∀ p ∈ ps, p.Ok) (h : (ps.map fun p => (p.z, p.a, p.m)).Nodup) :
    (ps.map fun p => nuclideName p.sym p.a p.m).Nodup := by
  rw [List.nodup_map_iff_inj_on (List.Nodup.of_map _ h)]
  intro x hx y hy he
  exact List.inj_on_of_nodup_map h hx hy (nuclide_injective (hok x hx).1 (hok y hy).1 he)

theorem yieldsLoop_ok {es : List (ℚ × List Product)} {recs : List (List Line)} (h : List.Forall₂ EnergyRec es recs) (rest : List Line) :
    yieldsLoop es.length (recs.flatten ++ rest) = .ok (es.map fun e => (e.1, byName e)) := by
  induction h with
  | nil => rfl
  | @cons e l es recs h1 _ ih =>
    obtain ⟨c, hl, hc, hn, hok, hnd⟩ := h1
    have hp := products_ok e.2 [] 0 [] rfl hok (by simpa using names_nodup hok hnd)
    rw [List.nil_append, List.nil_append] at hp
    rw [List.length_cons, List.flatten_cons, List.append_assoc, yieldsLoop]
    simp only [bind, Except.bind, pure, Except.pure, getList_rec hl, hn, Int.toNat_natCast, hp, ih, hc, List.map_cons]
    rfl

theorem getYields_ok {es : List (ℚ × List Product)} {ls : List Line} (h : YieldSection es ls) :
    getYields ls = .ok (es.map (·.1), es.map byName) := by
  obtain ⟨h, l, recs, rest, rfl, hl, hn, hr⟩ := h
  unfold getYields
  simp only [bind, Except.bind, pure, Except.pure, getHead_line hl, hn]
  rw [if_neg (by omega), Int.toNat_natCast, yieldsLoop_ok hr]
  simp [Function.comp_def]

/-- C139 (partial: with independent yields): the independent and cumulative yields of a section are given for each energy by the name of the nuclide, with
their uncertainties, in the order of the energies, and the energies of both are the same. -/
theorem C139_yields_partial (sections : List ((Int × Int) × List Line)) (hn : (sections.map (·.1)).Nodup) (ind cum : List (ℚ × List Product))
    (l1 l2 : List Line) (h1 : ((8, 454), l1) ∈ sections) (h2 : ((8, 459), l2) ∈ sections) (s1 : YieldSection ind l1) (s2 : YieldSection cum l2)
    (he : cum.map (·.1) = ind.map (·.1)) :
    readYields sections = .ok ⟨some (ind.map (·.1)), some (ind.map byName), some (cum.map byName)⟩ := by
  unfold readYields readIndependent readCumulative
  rw [get?_of_mem hn h1, get?_of_mem hn h2]
  simp only [bind, Except.bind, pure, Except.pure, Except.map, getYields_ok s1, getYields_ok s2, Option.map_some, he]
  simp [allEq]

/-- C139: without cumulative yields only the independent ones are set. -/
theorem C139_independent (sections : List ((Int × Int) × List Line)) (hn : (sections.map (·.1)).Nodup) (ind : List (ℚ × List Product))
    (l1 : List Line) (h1 : ((8, 454), l1) ∈ sections) (h2 : ((8 : Int), (459 : Int)) ∉ sections.map (·.1)) (s1 : YieldSection ind l1) :
    readYields sections = .ok ⟨some (ind.map (·.1)), some (ind.map byName), none⟩ := by
  unfold readYields readIndependent readCumulative
  rw [get?_of_mem hn h1, (Dict.get?_eq_none (d := sections)).mpr h2]
  simp only [bind, Except.bind, pure, Except.pure, Except.map, getYields_ok s1, Option.map_some]

/-- C139: different numbers of energies (of more than one each) or different energies are an error. -/
theorem C139_energies (sections : List ((Int × Int) × List Line)) (hn : (sections.map (·.1)).Nodup) (ind cum : List (ℚ × List Product))
    (l1 l2 : List Line) (h1 : ((8, 454), l1) ∈ sections) (h2 : ((8, 459), l2) ∈ sections) (s1 : YieldSection ind l1) (s2 : YieldSection cum l2)
    (he : cum.map (·.1) ≠ ind.map (·.1)) (hl : ind.length = cum.length ∨ (ind.length ≠ 1 ∧ cum.length ≠ 1)) :
    readYields sections = .error .assertionError := by
  unfold readYields readIndependent readCumulative
  rw [get?_of_mem hn h1, get?_of_mem hn h2]
  have hf : allEq (cum.map (·.1)) (ind.map (·.1)) = false := by
    unfold allEq
    rcases hl with hl | ⟨hl, hl'⟩
    · rw [if_pos (by simp [hl])]; simpa using he
    · by_cases hc : cum.length = ind.length
      · rw [if_pos (by simp [hc])]; simpa using he
      · rw [if_neg (by simpa using hc), if_neg (by simpa using hl'), if_neg (by simpa using hl)]
  simp only [bind, Except.bind, Except.map, getYields_ok s1, getYields_ok s2, hf]
  simp

/-- C139 (refuted for an evaluation with cumulative yields only): they cannot be read. -/
theorem C139_cumulative_refuted (sections : List ((Int × Int) × List Line)) (hn : (sections.map (·.1)).Nodup) (cum : List (ℚ × List Product))
    (l2 : List Line) (h1 : ((8 : Int), (454 : Int)) ∉ sections.map (·.1)) (h2 : ((8, 459), l2) ∈ sections) (s2 : YieldSection cum l2) :
    readYields sections = .error .exception := by
  unfold readYields readIndependent readCumulative
  rw [get?_of_mem hn h2, (Dict.get?_eq_none (d := sections)).mpr h1]
  simp only [bind, Except.bind, getYields_ok s2]

/-- C139 (refuted for an evaluation with independent yields at one energy and cumulative yields at none): this passes for equal energies. -/
theorem C139_broadcast_refuted (sections : List ((Int × Int) × List Line)) (hn : (sections.map (·.1)).Nodup) (e : ℚ × List Product)
    (l1 l2 : List Line) (h1 : ((8, 454), l1) ∈ sections) (h2 : ((8, 459), l2) ∈ sections) (s1 : YieldSection [e] l1) (s2 : YieldSection [] l2) :
    readYields sections = .ok ⟨some [e.1], some [byName e], some []⟩ := by
  unfold readYields readIndependent readCumulative
  rw [get?_of_mem hn h1, get?_of_mem hn h2]
  simp only [bind, Except.bind, pure, Except.pure, Except.map, getYields_ok s1, getYields_ok s2, Option.map_some]
  simp [allEq]

end ASAPy.Decay
