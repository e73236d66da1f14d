import Verif.AceData.Props

/-! # C59: binary ACE files -/

set_option linter.unusedSimpArgs false

namespace ASAPy.AceData
open ASAPy.Str ASAPy.Dec ASAPy.Boxer
open ASAPy.Endf (Line pyInt strip readline)

theorem leBytes_length (k n : Nat) : (leBytes k n).length = k := by
  induction k generalizing n with
  | zero => rfl
  | succ k ih => simp [leBytes, ih]

theorem leVal_leBytes (k n : Nat) : leVal (leBytes k n) = n % 256 ^ k := by
  induction k generalizing n with
  | zero => simp [leBytes, leVal, Nat.mod_one]
  | succ k ih =>
    simp only [leBytes, leVal, ih]
    rw [Nat.pow_succ, Nat.mul_comm (256 ^ k) 256, Nat.mod_mul]

theorem packD_length (x : Bits) : (packD x).length = 8 := leBytes_length 8 _

theorem unpackD_packD (x : Bits) : unpackD (packD x) = x := by
  unfold unpackD packD
  apply Fin.ext
  simp only
  rw [leVal_leBytes]
  have h := x.isLt
  rw [show (256 : Nat) ^ 8 = 2 ^ 64 by norm_num, Nat.mod_mod, Nat.mod_eq_of_lt h]

theorem packI_ok {n : Int} (h : -2 ^ 31 ≤ n ∧ n < 2 ^ 31) : ∃ b, packI n = .ok b ∧ b.length = 4 ∧ unpackI b = n := by
  refine ⟨_, if_pos h, leBytes_length 4 _, ?_⟩
  unfold unpackI
  rw [leVal_leBytes]
  norm_num at h
  norm_num
  split <;> omega

theorem packIs_ok (ns : List Int) (h : Int32s ns) : ∃ bs, packIs ns = .ok bs ∧ bs.length = 4 * ns.length ∧ ∀ tail, unpackIs ns.length (bs ++ tail) = ns := by
  induction ns with
  | nil => exact ⟨[], rfl, rfl, fun _ => rfl⟩
  | cons n ns ih =>
    obtain ⟨b, hb, hl, hu⟩ := packI_ok (h n (by simp))
    obtain ⟨bs, hbs, hls, hus⟩ := ih (fun x hx => h x (by simp [hx]))
    refine ⟨b ++ bs, by simp [packIs, hb, hbs], by simp [hl, hls]; omega, ?_⟩
    intro tail
    simp only [List.length_cons, unpackIs, List.append_assoc]
    rw [List.take_left' hl, List.drop_left' hl, hu, hus]

theorem packIs_append (a b : List Int) {ba bb : List Byte} (ha : packIs a = .ok ba) (hb : packIs b = .ok bb) : packIs (a ++ b) = .ok (ba ++ bb) := by
  induction a generalizing ba with
  | nil =>
    simp only [packIs, Except.ok.injEq] at ha
    subst ha
    simpa using hb
  | cons n a ih =>
    simp only [packIs, List.cons_append] at ha ⊢
    cases h1 : packI n with
    | error e => rw [h1] at ha; simp at ha
    | ok x =>
      cases h2 : packIs a with
      | error e => rw [h1, h2] at ha; simp at ha
      | ok y =>
        rw [h1, h2] at ha
        simp only [Except.ok.injEq] at ha
        subst ha
        rw [ih h2]
        simp

theorem packPairs_ok (ps : List (Int × Bits)) (h : Int32s (ps.map (·.1))) :
    ∃ bs, packPairs ps = .ok bs ∧ bs.length = 12 * ps.length ∧ ∀ tail, unpackPairs ps.length (bs ++ tail) = ps := by
  induction ps with
  | nil => exact ⟨[], rfl, rfl, fun _ => rfl⟩
  | cons p ps ih =>
    obtain ⟨n, x⟩ := p
    obtain ⟨b, hb, hl, hu⟩ := packI_ok (h n (by simp))
    obtain ⟨bs, hbs, hls, hus⟩ := ih (fun x hx => h x (by simp only [List.map_cons, List.mem_cons]; exact Or.inr hx))
    refine ⟨b ++ packD x ++ bs, by simp [packPairs, hb, hbs], by simp [hl, hls, packD_length]; omega, ?_⟩
    intro tail
    simp only [List.length_cons, unpackPairs, List.append_assoc]
    rw [List.take_left' hl, List.drop_left' hl, hu, List.take_left' (packD_length x), unpackD_packD, ← List.append_assoc,
      List.drop_left' (by simp [hl, packD_length]), hus]

theorem packDs_length (xs : List Bits) : (xs.flatMap packD).length = 8 * xs.length := by
  induction xs with
  | nil => rfl
  | cons x xs ih => simp [packD_length, ih]; omega

theorem unpackDs_packDs (xs : List Bits) : ∀ tail, unpackDs xs.length (xs.flatMap packD ++ tail) = xs := by
  induction xs with
  | nil => intro; rfl
  | cons x xs ih =>
    intro tail
    simp only [List.length_cons, unpackDs, List.flatMap_cons, List.append_assoc]
    rw [List.take_left' (packD_length x), List.drop_left' (packD_length x), unpackD_packD, ih]

theorem packS_length (n : Nat) (bs : List Byte) : (packS n bs).length = n := by
  unfold packS
  simp
  omega

theorem packS_full {n : Nat} {bs : List Byte} (h : bs.length = n) : packS n bs = bs := by
  unfold packS
  simp [← h]

theorem decode_encode (s : Line) (h : ∀ c ∈ s, c.toNat < 128) : decode (encode s) = .ok s := by
  have h1 : (encode s).all (fun b => decide (b.val < 128)) = true := by
    simp only [encode, List.all_map, List.all_eq_true, Function.comp_apply, decide_eq_true_eq]
    intro c hc
    have := h c hc
    show c.toNat % 256 < 128
    omega
  unfold decode
  rw [if_pos h1]
  congr 1
  simp only [encode, List.map_map]
  conv_rhs => rw [← List.map_id s]
  apply List.map_congr_left
  intro c hc
  have := h c hc
  simp only [Function.comp_apply, id]
  rw [Nat.mod_eq_of_lt (by omega)]
  exact Char.ofNat_toNat c

theorem mapE_reads {α : Type} {f : Line → Except PyErr α} {ws : List Line} {vs : List α} (h : Reads f ws vs) : mapE f ws = .ok vs := by
  induction h with
  | nil => rfl
  | cons h1 _ ih => simp [mapE, h1, ih]

theorem split_join_words (ls : List Line) : split (join ls) = words ls := by
  unfold words
  induction ls with
  | nil => rfl
  | cons l ls ih =>
    cases ls with
    | nil => simp
    | cons l' ls =>
      rw [join_cons_cons, List.flatMap_cons, ← ih]
      exact split_space l isSpace_blank _

theorem evens_pairs (ws : List (Line × Line)) : evens (ws.flatMap fun p => [p.1, p.2]) = ws.map (·.1) := by
  induction ws with
  | nil => rfl
  | cons w ws ih => simp [evens, ih]

theorem odds_pairs (ws : List (Line × Line)) : odds (ws.flatMap fun p => [p.1, p.2]) = ws.map (·.2) := by
  unfold odds
  induction ws with
  | nil => rfl
  | cons w ws ih =>
    simp only [List.flatMap_cons, List.cons_append, List.nil_append, List.tail_cons, List.map_cons]
    cases hws : ws with
    | nil => simp [evens]
    | cons w' ws' =>
      rw [hws] at ih
      simp only [List.flatMap_cons, List.cons_append, List.nil_append, List.tail_cons, List.map_cons] at ih ⊢
      rw [evens, ih]

theorem zip_map_fst_snd {α β : Type} (ps : List (α × β)) : (ps.map (·.1)).zip (ps.map (·.2)) = ps := by
  induction ps with
  | nil => rfl
  | cons p ps ih => simp [ih]

/-- The bytes of a table in their order. -/
structure Layout (t : Table Bits) (bs : List Byte) where
  h : List Byte
  p : List Byte
  nx : List Byte
  jx : List Byte
  zeros : List Byte
  xs : List Byte
  fill : List Byte
  eq : bs = h ++ p ++ nx ++ jx ++ zeros ++ xs ++ fill
  hl : h.length = 116
  pl : p.length = 192
  nl : nx.length = 64
  jl : jx.length = 128
  zl : zeros.length = 3596
  xl : xs.length = 8 * t.xss.length
  fl : 8 * t.xss.length + fill.length = 4096 * ((t.xss.length + 511) / 512)
  name : ∃ n, decode (h.take 10) = .ok n ∧ strip n = t.name
  awr : unpackD ((h.drop 10).take 8) = t.awr
  temp : unpackD ((h.drop 18).take 8) = t.temperature
  pairs : unpackPairs 16 p = t.pairs
  nxs : unpackIs 16 nx = t.nxs
  jxs : unpackIs 32 jx = t.jxs
  xss : unpackDs t.xss.length xs = t.xss

theorem convertTable_body {pf : Line → Except PyErr Bits} {t : Table Bits} {ls : List Line} (h : Body pf t ls) (rest : List Line) :
    ∃ bs, convertTable pf (ls ++ rest) = .ok (bs, rest) ∧ Nonempty (Layout t bs) := by
  obtain ⟨⟨l0, l1, pairs, nxs, jxs, xss, rfl, ⟨-, name, awr, temp, tail, rfl, n1, n2, n3, hascii, hname, hawr, htemp⟩, lp, ln, lj, lx,
    ⟨ws, hw, hiz, haw⟩, hnx, hjx, hx⟩, ⟨cp, ip⟩, ⟨cn, inn⟩, ⟨cj, ij⟩, hlen⟩ := h
  have e0 : Endf.col (name ++ awr ++ temp ++ tail) 0 10 = name := by
    have := slice_mid [] name (awr ++ temp ++ tail) 0 10 rfl (by simp [n1])
    simpa [Endf.col] using this
  have e1 : Endf.col (name ++ awr ++ temp ++ tail) 10 22 = awr := by
    have := slice_mid name awr (temp ++ tail) 10 22 (by simp [n1]) (by simp [n1, n2])
    simpa [Endf.col] using this
  have e2 : Endf.col (name ++ awr ++ temp ++ tail) 22 34 = temp := by
    have := slice_mid (name ++ awr) temp tail 22 34 (by simp [n1, n2]) (by simp [n1, n2, n3])
    simpa [Endf.col] using this
  have s1 : slice ((name ++ awr ++ temp ++ tail) :: l1 :: (pairs ++ nxs ++ jxs ++ xss) ++ rest) 2 6 = pairs := by
    have := slice_mid [name ++ awr ++ temp ++ tail, l1] pairs (nxs ++ jxs ++ xss ++ rest) 2 6 rfl (by simp [lp])
    simpa using this
  have s2 : slice ((name ++ awr ++ temp ++ tail) :: l1 :: (pairs ++ nxs ++ jxs ++ xss) ++ rest) 6 8 = nxs := by
    have := slice_mid ([name ++ awr ++ temp ++ tail, l1] ++ pairs) nxs (jxs ++ xss ++ rest) 6 8 (by simp [lp]) (by simp [lp, ln])
    simpa using this
  have s3 : slice ((name ++ awr ++ temp ++ tail) :: l1 :: (pairs ++ nxs ++ jxs ++ xss) ++ rest) 8 12 = jxs := by
    have := slice_mid ([name ++ awr ++ temp ++ tail, l1] ++ pairs ++ nxs) jxs (xss ++ rest) 8 12 (by simp [lp, ln]) (by simp [lp, ln, lj])
    simpa using this
  have en : (12 + ((t.xss.length : Int) + 3) / 4).toNat = 12 + xss.length := by omega
  have s4 : slice ((name ++ awr ++ temp ++ tail) :: l1 :: (pairs ++ nxs ++ jxs ++ xss) ++ rest) 12 (12 + xss.length) = xss := by
    have := slice_mid ([name ++ awr ++ temp ++ tail, l1] ++ pairs ++ nxs ++ jxs) xss rest 12 (12 + xss.length) (by simp [lp, ln, lj])
      (by simp [lp, ln, lj])
    simpa using this
  have s5 : List.drop (12 + xss.length) ((name ++ awr ++ temp ++ tail) :: l1 :: (pairs ++ nxs ++ jxs ++ xss) ++ rest) = rest := by
    apply List.drop_left'
    simp [lp, ln, lj]
    omega
  obtain ⟨bp, hbp, lbp, ubp⟩ := packPairs_ok t.pairs ip
  obtain ⟨bn, hbn, lbn, ubn⟩ := packIs_ok t.nxs inn
  obtain ⟨bj, hbj, lbj, ubj⟩ := packIs_ok t.jxs ij
  have hzip : (t.pairs.map (·.1)).zip (t.pairs.map (·.2)) = t.pairs := zip_map_fst_snd _
  obtain ⟨n, ns, hns⟩ : ∃ n ns, t.nxs = n :: ns := by
    cases e : t.nxs with
    | nil => rw [e] at cn; simp at cn
    | cons n ns => exact ⟨n, ns, rfl⟩
  have hn : n = (t.xss.length : Int) := by
    rw [hns] at hlen
    simpa using hlen
  have hnj := packIs_append t.nxs t.jxs hbn hbj
  refine ⟨(packS 10 (encode name) ++ packD t.awr ++ packD t.temperature ++
      packS 10 (encode (Endf.col (name ++ awr ++ temp ++ tail) 35 45)) ++ packS 70 (encode (Endf.col l1 0 70)) ++
      packS 10 (encode (Endf.col l1 70 80))) ++ bp ++ ((bn ++ bj) ++ List.replicate (4096 - 500) 0) ++
      (t.xss.flatMap packD ++ List.replicate (4096 - (((t.xss.length : Int) * 8 - 1) % 4096 + 1)).toNat 0), ?_, ?_⟩
  · rw [List.cons_append, List.cons_append] at s1 s2 s3 s4 s5 ⊢
    unfold convertTable
    simp only [e0, e1, e2, hawr, htemp, s1, s2, s3, split_join_words, hw, evens_pairs, odds_pairs, mapE_reads hiz, mapE_reads haw, hzip, cp,
      if_true, hbp, mapE_reads hnx, mapE_reads hjx, List.length_append, cn, cj, Nat.reduceAdd, hnj, bind, Except.bind, pure, Except.pure]
    rw [hns]
    simp only [hn, en, s4, s5, split_join_words, mapE_reads hx, if_true]
  · refine ⟨⟨packS 10 (encode name) ++ packD t.awr ++ packD t.temperature ++
      packS 10 (encode (Endf.col (name ++ awr ++ temp ++ tail) 35 45)) ++ packS 70 (encode (Endf.col l1 0 70)) ++
      packS 10 (encode (Endf.col l1 70 80)), bp, bn, bj, List.replicate (4096 - 500) 0, t.xss.flatMap packD,
      List.replicate (4096 - (((t.xss.length : Int) * 8 - 1) % 4096 + 1)).toNat 0, by simp only [List.append_assoc],
      by simp [packS_length, packD_length], by rw [lbp, cp], by rw [lbn, cn], by rw [lbj, cj], by rw [List.length_replicate], packDs_length _, ?_, ?_, ?_, ?_, ?_, ?_,
      ?_, ?_⟩⟩
    · rw [List.length_replicate]
      omega
    · refine ⟨name, ?_, hname⟩
      rw [packS_full (by simp [encode, n1])]
      simp only [List.append_assoc]
      rw [List.take_left' (by simp [encode, n1]), decode_encode _ hascii]
    · simp only [List.append_assoc]
      rw [List.drop_left' (packS_length 10 _), List.take_left' (packD_length _), unpackD_packD]
    · have : packS 10 (encode name) ++ packD t.awr ++ packD t.temperature ++
          packS 10 (encode (Endf.col (name ++ awr ++ temp ++ tail) 35 45)) ++ packS 70 (encode (Endf.col l1 0 70)) ++
          packS 10 (encode (Endf.col l1 70 80)) = (packS 10 (encode name) ++ packD t.awr) ++ (packD t.temperature ++
          (packS 10 (encode (Endf.col (name ++ awr ++ temp ++ tail) 35 45)) ++ packS 70 (encode (Endf.col l1 0 70)) ++
          packS 10 (encode (Endf.col l1 70 80)))) := by simp only [List.append_assoc]
      rw [this, List.drop_left' (by simp [packS_length, packD_length]), List.take_left' (packD_length _), unpackD_packD]
    · have := ubp []
      rwa [cp, List.append_nil] at this
    · have := ubn []
      rwa [cn, List.append_nil] at this
    · have := ubj []
      rwa [cj, List.append_nil] at this
    · have := unpackDs_packDs t.xss []
      rwa [List.append_nil] at this

theorem layout_length {t : Table Bits} {bs : List Byte} (L : Layout t bs) : bs.length = 4096 * ((t.xss.length + 511) / 512 + 1) := by
  rw [L.eq]
  have := L.fl
  simp only [List.length_append, L.hl, L.pl, L.nl, L.jl, L.zl, L.xl]
  omega

theorem readAt_mid (a b c : List Byte) (pos n : Nat) (hp : pos = a.length) (hn : n = b.length) : readAt (a ++ b ++ c) pos n = b := by
  subst hp hn
  unfold readAt
  rw [List.append_assoc, List.drop_left, List.take_left]

theorem readBinary_layout (names : Option (List Line)) {t : Table Bits} {bs : List Byte} (L : Layout t bs) (hlen : t.nxs.head? = some (t.xss.length : Int))
    (pre post : List Byte) (k : Nat) :
    readBinary names (pre ++ bs ++ post) (k + 1) pre.length =
      (readBinary names (pre ++ bs ++ post) k (pre ++ bs).length).map fun ts => (if names.elim true (fun ns => decide (t.name ∈ ns)) then [t] else []) ++ ts := by
  have hbl := layout_length L
  obtain ⟨n, hn, hs⟩ := L.name
  have E : pre ++ bs ++ post = pre ++ (L.h ++ L.p ++ L.nx ++ L.jx ++ L.zeros ++ L.xs ++ L.fill) ++ post := congrArg (fun x => pre ++ x ++ post) L.eq
  have r1 : readAt (pre ++ bs ++ post) pre.length 1 ≠ [] := by
    unfold readAt
    rw [List.append_assoc, List.drop_left]
    intro h
    have := congrArg List.length h
    simp [hbl] at this
  have r2 : readAt (pre ++ bs ++ post) pre.length 116 = L.h := by
    rw [E]
    have := readAt_mid pre L.h (L.p ++ L.nx ++ L.jx ++ L.zeros ++ L.xs ++ L.fill ++ post) pre.length 116 rfl L.hl.symm
    simpa only [List.append_assoc] using this
  have r3 : readAt (pre ++ bs ++ post) (pre.length + 116) 192 = L.p := by
    rw [E]
    have := readAt_mid (pre ++ L.h) L.p (L.nx ++ L.jx ++ L.zeros ++ L.xs ++ L.fill ++ post) (pre.length + 116) 192 (by simp [L.hl]) L.pl.symm
    simpa only [List.append_assoc] using this
  have r4 : readAt (pre ++ bs ++ post) (pre.length + 308) 64 = L.nx := by
    rw [E]
    have := readAt_mid (pre ++ L.h ++ L.p) L.nx (L.jx ++ L.zeros ++ L.xs ++ L.fill ++ post) (pre.length + 308) 64 (by simp [L.hl, L.pl]) L.nl.symm
    simpa only [List.append_assoc] using this
  have r5 : readAt (pre ++ bs ++ post) (pre.length + 372) 128 = L.jx := by
    rw [E]
    have := readAt_mid (pre ++ L.h ++ L.p ++ L.nx) L.jx (L.zeros ++ L.xs ++ L.fill ++ post) (pre.length + 372) 128 (by simp [L.hl, L.pl, L.nl])
      L.jl.symm
    simpa only [List.append_assoc] using this
  have r6 : readAt (pre ++ bs ++ post) (pre.length + 4096) (8 * t.xss.length) = L.xs := by
    rw [E]
    have := readAt_mid (pre ++ L.h ++ L.p ++ L.nx ++ L.jx ++ L.zeros) L.xs (L.fill ++ post) (pre.length + 4096) (8 * t.xss.length)
      (by simp [L.hl, L.pl, L.nl, L.jl, L.zl]) L.xl.symm
    simpa only [List.append_assoc] using this
  have hhead : t.nxs.headD 0 = (t.xss.length : Int) := by
    cases e : t.nxs with
    | nil => rw [e] at hlen; simp at hlen
    | cons a l => rw [e] at hlen; simpa using hlen
  have hnext : ((pre.length : Int) + 4096 * (((t.xss.length : Int) + 512 - 1) / 512 + 1)).toNat = (pre ++ bs).length := by
    rw [List.length_append, hbl]
    omega
  rw [readBinary, if_neg r1]
  simp only [bind, Except.bind, pure, Except.pure, r2, r3, r4, exactly, L.hl, L.pl, L.nl, if_true, hn, hs, L.nxs, hhead, hnext]
  cases names with
  | none =>
    simp only [Option.elim_none, Bool.false_eq_true, if_false, r5, L.jl, if_true]
    rw [if_neg (by omega)]
    simp only [Int.toNat_natCast, r6, L.xl, if_true, L.xss, L.awr, L.temp, L.pairs, L.jxs]
    cases readBinary none (pre ++ bs ++ post) k (pre ++ bs).length with
    | error e => rfl
    | ok ts => rfl
  | some ns =>
    simp only [Option.elim_some]
    by_cases hmem : t.name ∈ ns
    · simp only [hmem, not_true_eq_false, decide_false, Bool.false_eq_true, if_false, decide_true, if_true, r5, L.jl]
      rw [if_neg (by omega)]
      simp only [Int.toNat_natCast, r6, L.xl, if_true, L.xss, L.awr, L.temp, L.pairs, L.jxs]
      cases readBinary (some ns) (pre ++ bs ++ post) k (pre ++ bs).length with
      | error e => rfl
      | ok ts => rfl
    · simp only [hmem, not_false_eq_true, decide_true, if_true, decide_false, Bool.false_eq_true, if_false, List.nil_append]
      cases readBinary (some ns) (pre ++ bs ++ post) k (pre ++ bs).length with
      | error e => rfl
      | ok ts => rfl

theorem skipHeader_text {pf : Line → Except PyErr Bits} {t : Table Bits} {ls : List Line} (h : TableText pf t ls) (rest : List Line) :
    ls ≠ [] ∧ ∃ body, skipHeader (ls ++ rest) = .ok (body ++ rest) ∧ Body pf t body := by
  rcases h with h | ⟨h0, h1, h2, body, rfl, hb, ⟨c, w, ws, hw⟩, h3⟩
  · obtain ⟨l0, l1, pairs, nxs, jxs, xss, e, ⟨⟨c, c', w, ws, hw, hc⟩, -⟩, -⟩ := h.lines
    refine ⟨by rw [e]; simp, ls, ?_, h⟩
    rw [e]
    simp only [List.cons_append, skipHeader, hw]
  · refine ⟨by simp, body, ?_, hb⟩
    simp only [List.cons_append, skipHeader, hw, h3, if_true, List.drop_succ_cons, List.drop_zero]

theorem body_pos {pf : Line → Except PyErr Bits} {t : Table Bits} {ls : List Line} (h : TableText pf t ls) : 1 ≤ ls.length := by
  have := (skipHeader_text h []).1
  cases ls with
  | nil => exact absurd rfl this
  | cons a l => simp

theorem body_len {pf : Line → Except PyErr Bits} {t : Table Bits} {ls : List Line} (h : TableText pf t ls) : t.nxs.head? = some (t.xss.length : Int) := by
  rcases h with h | ⟨_, _, _, _, _, h, _⟩ <;> exact h.length

theorem convert_all {pf : Line → Except PyErr Bits} {ts : List (Table Bits)} {texts : List (List Line)} (h : List.Forall₂ (TableText pf) ts texts) :
    ∀ k, ts.length ≤ k → ∃ bss, asciiToBinary pf k texts.flatten = .ok bss.flatten ∧ List.Forall₂ (fun t bs => Nonempty (Layout t bs)) ts bss := by
  induction h with
  | nil =>
    intro k _
    refine ⟨[], ?_, .nil⟩
    cases k <;> simp [asciiToBinary]
  | @cons t ls ts texts ht _ ih =>
    intro k hk
    obtain ⟨k, rfl⟩ : ∃ k', k = k' + 1 := ⟨k - 1, by simp at hk; omega⟩
    obtain ⟨bss, hb, hl⟩ := ih k (by simpa using hk)
    obtain ⟨hne, body, hs, hbody⟩ := skipHeader_text ht texts.flatten
    obtain ⟨bs, hc, hL⟩ := convertTable_body hbody texts.flatten
    refine ⟨bs :: bss, ?_, .cons hL hl⟩
    rw [List.flatten_cons, asciiToBinary, if_neg (by simp [hne])]
    simp only [bind, Except.bind, pure, Except.pure, hs, hc, hb, List.flatten_cons]

theorem read_all (names : Option (List Line)) {ts : List (Table Bits)} {bss : List (List Byte)}
    (h : List.Forall₂ (fun t bs => Nonempty (Layout t bs)) ts bss) (hlen : ∀ t ∈ ts, t.nxs.head? = some (t.xss.length : Int)) :
    ∀ (k : Nat) (pre : List Byte), ts.length ≤ k →
      readBinary names (pre ++ bss.flatten) k pre.length = .ok (ts.filter fun t => names.elim true fun ns => decide (t.name ∈ ns)) := by
  induction h with
  | nil =>
    intro k pre _
    cases k with
    | zero => rfl
    | succ k =>
      rw [readBinary, if_pos]
      · rfl
      · simp [readAt]
  | @cons t bs ts bss hL _ ih =>
    intro k pre hk
    obtain ⟨k, rfl⟩ : ∃ k', k = k' + 1 := ⟨k - 1, by simp at hk; omega⟩
    obtain ⟨L⟩ := hL
    have e := readBinary_layout names L (hlen t (by simp)) pre bss.flatten k
    have i := ih (fun x hx => hlen x (by simp [hx])) k (pre ++ bs) (by simpa using hk)
    rw [List.flatten_cons, ← List.append_assoc, e, i]
    simp only [Except.map, List.filter_cons]
    congr 1
    cases names with
    | none => simp
    | some ns => by_cases hm : t.name ∈ ns <;> simp [hm]

/-- C59: whatever the number of tables and their lengths, with old or new headers, the binary file made from an ASCII file is made of whole records,
and the reader finds every table in it, with all its data, or those asked for by name. -/
theorem C59_round_trip (pf : Line → Except PyErr Bits) (ts : List (Table Bits)) (texts : List (List Line)) (h : List.Forall₂ (TableText pf) ts texts) :
    ∃ file, binaryOf pf texts.flatten = .ok file ∧ file.length % 4096 = 0 ∧ libraryBinary none file = .ok ts ∧
      ∀ names, libraryBinary (some names) file = .ok (ts.filter fun t => decide (t.name ∈ names)) := by
  have hk : ts.length ≤ texts.flatten.length := by
    induction h with
    | nil => simp
    | cons h1 _ ih =>
      have := body_pos h1
      simp only [List.length_cons, List.flatten_cons, List.length_append]
      omega
  obtain ⟨bss, hb, hl⟩ := convert_all h texts.flatten.length hk
  have hlen : ∀ t ∈ ts, t.nxs.head? = some (t.xss.length : Int) := by
    clear hb hk hl
    induction h with
    | nil => simp
    | cons h1 _ ih =>
      intro t ht
      rcases List.mem_cons.mp ht with rfl | ht
      · exact body_len h1
      · exact ih t ht
  have hsize : ts.length ≤ bss.flatten.length ∧ bss.flatten.length % 4096 = 0 := by
    clear hb hk h
    induction hl with
    | nil => simp
    | cons h1 _ ih =>
      obtain ⟨L⟩ := h1
      have := layout_length L
      have := ih (fun t ht => hlen t (by simp [ht]))
      simp only [List.length_cons, List.flatten_cons, List.length_append]
      omega
  refine ⟨bss.flatten, hb, hsize.2, ?_, ?_⟩
  · have := read_all none hl hlen bss.flatten.length [] hsize.1
    simpa [libraryBinary] using this
  · intro names
    have := read_all (some names) hl hlen bss.flatten.length [] hsize.1
    simpa [libraryBinary] using this

end ASAPy.AceData
