import Verif.DataNjoy.Lemmas

/-!
# C209, C210: the ACE files of `make_ace`, and the identifiers in them
-/

namespace ASAPy.DNjoy
open Files
open Deck (W Opts Run num Plain Quotable suffix Reads)

/-! ### The tapes -/

section
variable {ace xsdir : Path} {k : Nat}

theorem acerTapes_snd (l : List Njoy.Temp) : ∀ i, (acerTapes ace xsdir k i l).map Prod.snd = l.flatMap fun t => [fname ace t, fname xsdir t] := by
  induction l with
  | nil => intro i; rfl
  | cons t l ih => intro i; simp [acerTapes, ih]

theorem acerTapes_fst (l : List Njoy.Temp) : ∀ i, (∀ n ∈ (acerTapes ace xsdir k i l).map Prod.fst, k + 1 + 2 * i ≤ n) ∧ ((acerTapes ace xsdir k i l).map Prod.fst).Nodup := by
  induction l with
  | nil => intro i; simp [acerTapes]
  | cons t l ih =>
    intro i
    obtain ⟨h1, h2⟩ := ih (i + 1)
    refine ⟨fun n hn => ?_, ?_⟩
    · simp only [acerTapes, List.map_cons, List.mem_cons] at hn
      rcases hn with rfl | rfl | hn
      · exact le_rfl
      · omega
      · have := h1 n hn; omega
    · simp only [acerTapes, List.map_cons, List.nodup_cons, List.mem_cons, not_or]
      exact ⟨⟨by omega, fun hn => by have := h1 _ hn; omega⟩, fun hn => (by have := h1 _ hn; omega), h2⟩

theorem acerTapes_mem (l : List Njoy.Temp) : ∀ i j t, l[j]? = some t →
    (k + 1 + 2 * (i + j), fname ace t) ∈ acerTapes ace xsdir k i l ∧ (k + 1 + 2 * (i + j) + 1, fname xsdir t) ∈ acerTapes ace xsdir k i l := by
  induction l with
  | nil => intro i j t h; simp at h
  | cons u l ih =>
    intro i j t h
    cases j with
    | zero => obtain rfl : u = t := by simpa using h
              simp [acerTapes]
    | succ j =>
      obtain ⟨h1, h2⟩ := ih (i + 1) j t (by simpa using h)
      rw [show i + 1 + j = i + (j + 1) by ring] at h1 h2
      exact ⟨by simp [acerTapes, h1], by simp [acerTapes, h2]⟩

end

/-! ### After the run -/

section
variable {isomer : Int} {ace xsdir : Path} {temps : List Njoy.Temp} {fs : FS}

/-- The names of the files of the single temperatures. -/
abbrev both (ace xsdir : Path) (temps : List Njoy.Temp) : List Path := temps.flatMap fun t => [fname ace t, fname xsdir t]

theorem both_mem {t : Njoy.Temp} (h : t ∈ temps) : fname ace t ∈ both ace xsdir temps ∧ fname xsdir t ∈ both ace xsdir temps :=
  ⟨List.mem_flatMap.2 ⟨t, h, by simp⟩, List.mem_flatMap.2 ⟨t, h, by simp⟩⟩

theorem both_cases {p : Path} (h : p ∈ both ace xsdir temps) : ∃ t ∈ temps, p = fname ace t ∨ p = fname xsdir t := by
  obtain ⟨t, ht, hp⟩ := List.mem_flatMap.1 h
  exact ⟨t, ht, by simpa using hp⟩

theorem finish_nodup (h : (finish isomer ace xsdir temps fs).2 = none) : (both ace xsdir temps).Nodup := by
  obtain ⟨-, h2, -⟩ := andThen_ok h
  rw [removeBoth_each] at h2
  exact ((remove_each _ _).2.1 h2).1

theorem finish_ok (hd : (ace :: xsdir :: both ace xsdir temps).Nodup) (h : (finish isomer ace xsdir temps fs).2 = none) :
    ∃ ts ms xs : List Text, temps.map (fun t => fs (fname ace t)) = ts.map some ∧ ts.map (mark isomer) = ms.map .ok ∧ temps.map (fun t => fs (fname xsdir t)) = xs.map some ∧
      (finish isomer ace xsdir temps fs).1 ace = some ms.flatten ∧ (finish isomer ace xsdir temps fs).1 xsdir = some xs.flatten ∧
      (∀ p ∈ both ace xsdir temps, (finish isomer ace xsdir temps fs).1 p = none) ∧
      ∀ p, p ≠ ace → p ≠ xsdir → p ∉ both ace xsdir temps → (finish isomer ace xsdir temps fs).1 p = fs p := by
  simp only [List.nodup_cons, List.mem_cons, not_or] at hd
  obtain ⟨⟨hne, hna⟩, hnx, -⟩ := hd
  obtain ⟨h1, h2, e⟩ := andThen_ok h
  have hx : ∀ t ∈ temps, fname ace t ≠ xsdir ∧ fname xsdir t ≠ ace := fun t ht => ⟨fun e => hnx (e ▸ (both_mem ht).1), fun e => hna (e ▸ (both_mem ht).2)⟩
  have c := concat_each (isomer := isomer) hne temps hx (put (put fs ace (some [])) xsdir (some [])) [] [] ((put_ne hne).trans (put_same ..)) (put_same ..)
  obtain ⟨ts, ms, xs, j1, j2, j3, j4, j5⟩ := c.2.1 h1
  have hp : ∀ p, p ≠ ace → p ≠ xsdir → put (put fs ace (some [])) xsdir (some []) p = fs p := fun p h h' => (put_ne h').trans (put_ne h)
  rw [List.map_congr_left fun t ht => hp _ (fname_ne ace t) (hx t ht).1] at j1
  rw [List.map_congr_left fun t ht => hp _ (hx t ht).2 (fname_ne xsdir t)] at j3
  unfold finish
  rw [e]
  rw [removeBoth_each] at h2 ⊢
  obtain ⟨r1, r2, -⟩ := remove_each (both ace xsdir temps) (each (concat isomer ace xsdir) temps (put (put fs ace (some [])) xsdir (some []))).1
  refine ⟨ts, ms, xs, j1, j2, j3, (r1 _ hna).trans (by simpa using j4), (r1 _ hnx).trans (by simpa using j5), (r2 h2).2.2, fun p h h' hp' => ?_⟩
  exact (r1 p hp').trans ((c.1 p h h').trans (hp p h h'))

theorem finish_returns (hd : (ace :: xsdir :: both ace xsdir temps).Nodup)
    (hall : ∀ t ∈ temps, (∃ x y, fs (fname ace t) = some x ∧ mark isomer x = .ok y) ∧ (fs (fname xsdir t)).isSome) : (finish isomer ace xsdir temps fs).2 = none := by
  have hd' := hd
  simp only [List.nodup_cons, List.mem_cons, not_or] at hd
  obtain ⟨⟨hne, hna⟩, hnx, hb⟩ := hd
  have hx : ∀ t ∈ temps, fname ace t ≠ xsdir ∧ fname xsdir t ≠ ace := fun t ht => ⟨fun e => hnx (e ▸ (both_mem ht).1), fun e => hna (e ▸ (both_mem ht).2)⟩
  have c := concat_each (isomer := isomer) hne temps hx (put (put fs ace (some [])) xsdir (some [])) [] [] ((put_ne hne).trans (put_same ..)) (put_same ..)
  have hp : ∀ p, p ≠ ace → p ≠ xsdir → put (put fs ace (some [])) xsdir (some []) p = fs p := fun p h h' => (put_ne h').trans (put_ne h)
  have h1 := c.2.2 fun t ht => by
    rw [hp _ (fname_ne ace t) (hx t ht).1, hp _ (hx t ht).2 (fname_ne xsdir t)]
    exact hall t ht
  unfold finish
  rw [andThen_none h1, removeBoth_each]
  refine (remove_each _ _).2.2 hb fun p hp' => ?_
  have hpa : p ≠ ace := fun e => hna (e ▸ hp')
  have hpx : p ≠ xsdir := fun e => hnx (e ▸ hp')
  rw [c.1 p hpa hpx, hp p hpa hpx]
  obtain ⟨t, ht, rfl | rfl⟩ := both_cases hp'
  · obtain ⟨⟨x, y, hx, -⟩, -⟩ := hall t ht
    simp [hx]
  · exact (hall t ht).2

end

section
variable {njoy : Prog} {tmp text ace xsdir : Path} {tapein pre : List (Nat × Path)} {temps : List Njoy.Temp} {input : Option Path} {isomer : Int} {k : Nat} {fs : FS}

/-- A run of NJOY with an ACER run for each temperature, and what is done afterwards. -/
theorem run_finish (hl : Local njoy) (hc : Files.Call tmp tapein (pre ++ acerTapes ace xsdir k 0 temps) input fs) (hd : (ace :: xsdir :: both ace xsdir temps).Nodup)
    (hfree : ∀ p ∈ both ace xsdir temps, withInput fs text input p = none)
    (h : ((run njoy tmp text tapein (pre ++ acerTapes ace xsdir k 0 temps) input fs).andThen (finish isomer ace xsdir temps)).2 = none) :
    ∃ g, Prepared tmp tapein (withInput fs text input) g ∧ (njoy text tmp g).2 = 0 ∧
      ∃ tables tables' entries : List Text, tables.length = temps.length ∧ entries.length = temps.length ∧
        (∀ i T, temps[i]? = some T → (njoy text tmp g).1 (join tmp (tape (k + 1 + 2 * i))) = tables[i]? ∧ (njoy text tmp g).1 (join tmp (tape (k + 1 + 2 * i + 1))) = entries[i]?) ∧
        List.Forall₂ (Relabelled isomer) tables tables' ∧
        ((run njoy tmp text tapein (pre ++ acerTapes ace xsdir k 0 temps) input fs).andThen (finish isomer ace xsdir temps)).1 ace = some tables'.flatten ∧
        ((run njoy tmp text tapein (pre ++ acerTapes ace xsdir k 0 temps) input fs).andThen (finish isomer ace xsdir temps)).1 xsdir = some entries.flatten ∧
        (∀ p ∈ both ace xsdir temps, ((run njoy tmp text tapein (pre ++ acerTapes ace xsdir k 0 temps) input fs).andThen (finish isomer ace xsdir temps)).1 p = none) ∧
        (∀ n p, (n, p) ∈ pre → p ≠ ace → p ≠ xsdir → p ∉ both ace xsdir temps →
          ((run njoy tmp text tapein (pre ++ acerTapes ace xsdir k 0 temps) input fs).andThen (finish isomer ace xsdir temps)).1 p =
            ((njoy text tmp g).1 (join tmp (tape n))).orElse fun _ => withInput fs text input p) ∧
        (∀ p, ¬ Inside tmp p → p ∉ pre.map Prod.snd → p ≠ ace → p ≠ xsdir → p ∉ both ace xsdir temps →
          ((run njoy tmp text tapein (pre ++ acerTapes ace xsdir k 0 temps) input fs).andThen (finish isomer ace xsdir temps)).1 p = withInput fs text input p) := by
  obtain ⟨h1, h2, e⟩ := andThen_ok h
  rw [e]
  obtain ⟨g, p1, p2, p3, p4, p5, p6⟩ := C119_success_partial hl hc h1
  obtain ⟨ts, ms, xs, j1, j2, j3, j4, j5, j6, j7⟩ := finish_ok hd h2
  generalize hfs' : (run njoy tmp text tapein (pre ++ acerTapes ace xsdir k 0 temps) input fs).1 = fs' at p3 p4 p5 p6 j1 j2 j3 j4 j5 j6 j7 ⊢
  have hout : ∀ n f, (n, f) ∈ pre ++ acerTapes ace xsdir k 0 temps → fs' f = ((njoy text tmp g).1 (join tmp (tape n))).orElse fun _ => withInput fs text input f := by
    intro n f hm
    cases hq : (njoy text tmp g).1 (join tmp (tape n)) with
    | some t => exact p3 n f hm t hq
    | none => exact p4 n f hm hq
  have hacer : ∀ n f, (n, f) ∈ acerTapes ace xsdir k 0 temps → fs' f = (njoy text tmp g).1 (join tmp (tape n)) := fun n f hm => by
    rw [hout n f (List.mem_append_right _ hm), hfree f (by rw [both, ← acerTapes_snd (k := k) temps 0]; exact List.mem_map.2 ⟨_, hm, rfl⟩)]
    cases (njoy text tmp g).1 (join tmp (tape n)) <;> rfl
  have hlen : ∀ {f : Njoy.Temp → Option Text} {l : List Text}, temps.map f = l.map some → l.length = temps.length ∧ ∀ (i : Nat) (T : Njoy.Temp), temps[i]? = some T → f T = l[i]? := by
    intro f l hfl
    refine ⟨by simpa using (congrArg List.length hfl).symm, fun i T hT => ?_⟩
    have := congrArg (·[i]?) hfl
    simp only [List.getElem?_map, hT, Option.map_some] at this
    cases hq : l[i]? with
    | none => rw [hq] at this; cases this
    | some x => rw [hq] at this; simpa using this
  obtain ⟨l1, g1⟩ := hlen j1
  obtain ⟨l3, g3⟩ := hlen j3
  refine ⟨g, p1, p2, ts, ms, xs, l1, l3, fun i T hT => ?_, ?_, j4, j5, j6, fun n p hp q1 q2 q3 => ?_, fun p hp hp' q1 q2 q3 => ?_⟩
  · obtain ⟨m1, m2⟩ := acerTapes_mem (ace := ace) (xsdir := xsdir) (k := k) temps 0 i T hT
    rw [Nat.zero_add] at m1 m2
    rw [← hacer _ _ m1, ← hacer _ _ m2]
    exact ⟨g1 i T hT, g3 i T hT⟩
  · have : List.Forall₂ (fun a b => mark isomer a = .ok b) ts ms := by
      rw [← List.forall₂_eq_eq_eq] at j2
      exact (List.forall₂_map_left_iff.1 (List.forall₂_map_right_iff.1 j2))
    exact this.imp fun a b => mark_relabelled
  · rw [j7 p q1 q2 q3]
    exact hout n p (List.mem_append_left _ hp)
  · rw [j7 p q1 q2 q3]
    refine p5 p hp fun hm => ?_
    rw [List.map_append, acerTapes_snd, List.mem_append] at hm
    exact hm.elim hp' q3

/-- If NJOY writes all tapes, nothing is raised. -/
theorem run_finish_returns (hl : Local njoy) (hc : Files.Call tmp tapein (pre ++ acerTapes ace xsdir k 0 temps) input fs) (hd : (ace :: xsdir :: both ace xsdir temps).Nodup) {g : FS}
    (hg : Prepared tmp tapein (withInput fs text input) g) (hrc : (njoy text tmp g).2 = 0)
    (hall : ∀ i T, temps[i]? = some T → (∃ x y, (njoy text tmp g).1 (join tmp (tape (k + 1 + 2 * i))) = some x ∧ mark isomer x = .ok y) ∧
      ((njoy text tmp g).1 (join tmp (tape (k + 1 + 2 * i + 1)))).isSome) :
    ((run njoy tmp text tapein (pre ++ acerTapes ace xsdir k 0 temps) input fs).andThen (finish isomer ace xsdir temps)).2 = none := by
  have h1 := (C119_returns hc).2 ⟨g, hg, hrc⟩
  rw [andThen_none h1]
  obtain ⟨g', q1, -, q3, -⟩ := C119_success_partial hl hc h1
  obtain rfl := prepared_unique q1 hg
  refine finish_returns hd fun t ht => ?_
  obtain ⟨i, hi⟩ := List.mem_iff_getElem?.1 ht
  obtain ⟨⟨x, y, hx, hm⟩, hs⟩ := hall i t hi
  obtain ⟨m1, m2⟩ := acerTapes_mem (ace := ace) (xsdir := xsdir) (k := k) temps 0 i t hi
  rw [Nat.zero_add] at m1 m2
  obtain ⟨z, hz⟩ := Option.isSome_iff_exists.1 hs
  exact ⟨⟨x, y, q3 _ _ (List.mem_append_right _ m1) x hx, hm⟩, by rw [q3 _ _ (List.mem_append_right _ m2) z hz]; rfl⟩

end

/-! ## C209 -/

section
variable {njoy : Prog} {tmp : Path} {c : Call} {fs : FS}

theorem afterPurr_ge (o : Opts) : 21 ≤ afterPurr o := by
  unfold afterPurr afterHeatr afterBroadr; split_ifs <;> omega

theorem singles_eq : singles c = both c.ace c.xsdir c.opts.temps := rfl

theorem tapeout_fst : (c.tapeout.map Prod.fst).Nodup := by
  have h := acerTapes_fst (ace := c.ace) (xsdir := c.xsdir) (k := afterPurr c.opts) c.opts.temps 0
  have hk := afterPurr_ge c.opts
  unfold Call.tapeout
  cases c.pendf <;> cases c.opts.acer
  · simp
  · simpa using h.2
  · simp
  · simp only [if_true, List.cons_append, List.nil_append, List.map_cons, List.nodup_cons]
    exact ⟨fun hm => by have := h.1 _ hm; omega, h.2⟩

theorem tapeout_snd : (c.tapeout.map Prod.snd) = c.pendf.toList ++ if c.opts.acer then singles c else [] := by
  unfold Call.tapeout
  rw [singles_eq]
  cases c.pendf <;> cases c.opts.acer <;> simp [acerTapes_snd, both]

theorem tapeout_sub {p : Path} (h : p ∈ c.tapeout.map Prod.snd) : p ∈ c.pendf.toList ++ singles c := by
  rw [tapeout_snd] at h
  split_ifs at h
  · exact h
  · simp only [List.append_nil] at h; simp [h]

theorem Names.call (hn : Names tmp c fs) : Files.Call tmp [(20, c.filename)] c.tapeout c.input fs where
  fresh := hn.fresh
  inputTapes := by simp
  outputTapes := tapeout_fst
  outputFiles := by
    have := hn.distinct
    rw [tapeout_snd]
    rw [List.append_assoc] at this
    have h2 := (List.nodup_append.1 this).2.1
    obtain ⟨h3, h4, h5⟩ := List.nodup_append.1 h2
    simp only [List.nodup_cons] at h4
    split_ifs
    · exact List.nodup_append.2 ⟨h3, h4.2.2, fun a ha b hb => h5 a ha b (by simp [hb])⟩
    · simpa using h3
  inputPath := fun f hf => hn.outside f (by simp [hf])
  inputPaths := fun e he => by
    obtain rfl : e = (20, c.filename) := by simpa using he
    exact hn.outside _ (by simp)
  outputPaths := fun e he => hn.outside _ (by
    have := tapeout_sub (c := c) (p := e.2) (List.mem_map.2 ⟨e, he, rfl⟩)
    simp only [List.mem_append, List.mem_cons] at this ⊢
    tauto)

theorem Names.outputs (hn : Names tmp c fs) : (c.ace :: c.xsdir :: both c.ace c.xsdir c.opts.temps).Nodup := (List.nodup_append.1 hn.distinct).2.1

theorem Names.input_ne (hn : Names tmp c fs) {p : Path} (hp : p ∈ c.pendf.toList ++ c.ace :: c.xsdir :: singles c) (text : Text) : withInput fs text c.input p = fs p := by
  unfold withInput
  cases hi : c.input with
  | none => rfl
  | some f =>
    have := hn.distinct
    rw [hi, List.append_assoc] at this
    exact put_ne ((List.nodup_append.1 this).2.2 f (by simp) p hp).symm

theorem mem_more {l s : List Path} {a x p : Path} (h : p ∈ l ++ s) : p ∈ l ++ a :: x :: s := by
  rcases List.mem_append.1 h with h | h
  · exact List.mem_append_left _ h
  · exact List.mem_append_right _ (by simp [h])

/-- C209, the part that holds: if `make_ace` returns, NJOY has read the modules asked for and ended with return code 0 on the evaluation; the ACE file holds, in the order of the
temperatures, the tables that the ACER runs of these temperatures wrote, and the xsdir file their directory entries; the PENDF file holds what RECONR wrote; the files of the single
temperatures are gone and no other file has changed. This is if no files of these names were there before (`C209_leftover_refuted`). For a metastable state, the identifiers are
those of `Relabelled`. -/
theorem C209_files_partial (hl : Local njoy) (hw : CanWrite c.opts) (ha : c.opts.acer = true) (hn : Names tmp c fs) (hfree : ∀ p ∈ c.pendf.toList ++ singles c, fs p = none)
    (h : (makeAce njoy tmp c fs).2 = none) :
    ∃ text g, Reads text (askedAce c.opts) ∧ Prepared tmp [(20, c.filename)] (withInput fs text c.input) g ∧ (njoy text tmp g).2 = 0 ∧
      ∃ tables tables' entries : List Text, tables.length = c.opts.temps.length ∧ entries.length = c.opts.temps.length ∧
        (∀ i T, c.opts.temps[i]? = some T → ∃ inp n, Run.acer [num 20, inp, c!"0", num n, num (n + 1)] (suffix i) (num c.opts.mat) T.str ∈ askedAce c.opts ∧
          (njoy text tmp g).1 (join tmp (tape n)) = tables[i]? ∧ (njoy text tmp g).1 (join tmp (tape (n + 1))) = entries[i]?) ∧
        List.Forall₂ (Relabelled c.isomer) tables tables' ∧
        (makeAce njoy tmp c fs).1 c.ace = some tables'.flatten ∧ (makeAce njoy tmp c fs).1 c.xsdir = some entries.flatten ∧
        (∀ p ∈ singles c, (makeAce njoy tmp c fs).1 p = none) ∧
        (∀ p, c.pendf = some p → (makeAce njoy tmp c fs).1 p = (njoy text tmp g).1 (join tmp (tape 21))) ∧
        (∀ p, ¬ Inside tmp p → p ∉ c.pendf.toList ++ c.ace :: c.xsdir :: singles c → (makeAce njoy tmp c fs).1 p = withInput fs text c.input p) := by
  obtain ⟨text, ht, hr⟩ := makeText_ok hw
  have em : makeAce njoy tmp c fs = (run njoy tmp text [(20, c.filename)] c.tapeout c.input fs).andThen (finish c.isomer c.ace c.xsdir c.opts.temps) := by
    unfold makeAce; simp only [ht, ha, if_true]
  have et : c.tapeout = (match c.pendf with | none => [] | some p => [(21, p)]) ++ acerTapes c.ace c.xsdir (afterPurr c.opts) 0 c.opts.temps := by
    unfold Call.tapeout; simp only [ha, if_true]; rfl
  have hc := hn.call
  rw [em, et] at h
  rw [em, et]
  rw [et] at hc
  obtain ⟨g, p1, p2, ts, ms, xs, l1, l3, p3, p4, p5, p6, p7, p8, p9⟩ := run_finish hl hc hn.outputs
    (fun p hp => (hn.input_ne (mem_more (List.mem_append_right _ hp)) text).trans (hfree p (List.mem_append_right _ hp))) h
  refine ⟨text, g, hr, p1, p2, ts, ms, xs, l1, l3, fun i T hT => ?_, p4, p5, p6, p7, fun p hp => ?_, fun p hp hp' => ?_⟩
  · refine ⟨num (afterPurr c.opts), afterPurr c.opts + 1 + 2 * i, ?_, p3 i T hT⟩
    unfold askedAce
    simp only [ha, if_true]
    refine List.mem_append_right _ (List.mem_map.2 ⟨(T, i), List.mem_zipIdx_iff_getElem?.2 (by simpa using hT), ?_⟩)
    rw [show afterPurr c.opts + 1 + 2 * i + 1 = afterPurr c.opts + 2 + 2 * i by ring]
    rfl
  · have hd := hn.distinct
    rw [hp, List.append_assoc] at hd
    obtain ⟨-, hd, -⟩ := List.nodup_append.1 hd
    have hd := (List.nodup_append.1 hd).2.2 p (by simp)
    rw [p8 21 p (by simp [hp]) (hd _ (by simp)) (hd _ (by simp)) (fun hm => hd p (by simp [singles_eq, hm]) rfl), hn.input_ne (by simp [hp]) text, hfree p (by simp [hp])]
    cases (njoy text tmp g).1 (join tmp (tape 21)) <;> rfl
  · simp only [List.mem_append, List.mem_cons, not_or] at hp'
    refine p9 p hp (fun hm => hp'.1 ?_) hp'.2.1 hp'.2.2.1 hp'.2.2.2
    revert hm
    cases c.pendf <;> simp

end
end ASAPy.DNjoy
