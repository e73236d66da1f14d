import Verif.EndfRx.Lemmas
import Verif.EndfRx.Example
import Verif.AceData.Props

/-!
# C155-C157: distributions of the files 4, 5 and 6
-/

namespace ASAPy.EndfRx
open ASAPy.Endf
open ASAPy.Res (Reader many many_spec)
open ASAPy.Decay (ListRec Tab1Rec getList_rec getTab1_rec trunc_nat)
open ASAPy.Func (Fn)

/-! ### C155: angular distributions -/

/-- C155: the angular distribution read from a section of file 4 has the energies and the distributions of the section, in every representation, with or without the matrix of old files. -/
theorem C155_angles_partial {energyMax : ℚ} {xs : List (ℚ × Mu)} {lct : Int} {ls : List Line} (h : AngleSection energyMax xs lct ls) :
    angleFromEndf energyMax ls = .ok ⟨xs.map (·.1), xs.map (·.2)⟩ := by
  obtain ⟨h, c, l, l', m, body, rest, rfl, hh, hc, -, hm, hb⟩ := h
  rw [angleFromEndf, getHead_line hh]
  simp only [bind, Except.bind, getCont_line hc, matrix_drop hm]
  generalize hl : h.l2 = ltt at hb ⊢
  generalize hi : c.l1 = li at hb ⊢
  cases hb with
  | isotropic => rfl
  | legendre hx =>
    rw [if_neg (by decide), if_pos (by decide), rdAngles_rec rdLegendre_rec hx]
    rfl
  | tabular hx =>
    rw [if_neg (by decide), if_neg (by decide), if_pos (by decide), rdAngles_rec rdTabular_rec hx]
    rfl
  | @both _ _ _ _ xs xs' ls ls' hx hx' =>
    rw [if_neg (by decide), if_neg (by decide), if_neg (by decide), if_pos (by decide), List.append_assoc, rdAngles_rec rdLegendre_rec hx]
    simp only [pure, Except.pure]
    rw [rdAngles_rec rdTabular_rec hx']
    simp only [List.map_append]

/-- C155, what does not hold: how to interpolate between the incident energies is not kept. Two sections with the same distributions and different schemes between them give the same. -/
theorem C155_schemes_refuted {energyMax : ℚ} {xs : List (ℚ × Mu)} {h : Head} {c c1 c2 : Cont} {r1 r2 : List (Int × Int)} {l l' : Line} {b1 b2 : List Line} (hh : HeadLine h l)
    (hc : ContLine c l') (h0 : h.l1 = 0) (ht : h.l2 = 1) (hi : c.l1 = 0) (h1 : Announced LegendreAt c1 r1 xs b1) (h2 : Announced LegendreAt c2 r2 xs b2) :
    angleFromEndf energyMax (l :: l' :: b1) = angleFromEndf energyMax (l :: l' :: b2) := by
  have key : ∀ {c' r b}, Announced LegendreAt c' r xs b → AngleSection energyMax xs c.l2 (l :: l' :: b) := by
    intro c' r b hb
    refine ⟨h, c, l, l', [], b, [], by simp, hh, hc, rfl, Or.inl ⟨h0, rfl⟩, ?_⟩
    rw [ht, hi]
    exact .legendre hb
  rw [C155_angles_partial (key h1), C155_angles_partial (key h2)]

/-! ### C156: energy distributions -/

/-- C156: a distribution of file 5 is read with the law, the parameters and the tables of the file, and the lines behind it are left. -/
theorem C156_laws_partial {p : Cont} {d : EnDist} {ls : List Line} (h : EnLaw p d ls) (rest : List Line) : rdEnergy (p.c1, p.c2, p.l1, p.l2) (ls ++ rest) = .ok (d, rest) :=
  part_energy h rest

/-- C156: all partial distributions of a section are kept, in order, each with its probability. -/
theorem C156_section_partial {ev : Ev} {mt : Int} {q : ℚ} {f : List Line} {xs : List (Tab1D ℚ × EnDist)} (hf : Dict.get? ev.sections (5, mt) = some f) (h : EnergySection xs f) :
    neutronParts ev mt q = .ok (xs.map (·.1), xs.map fun x => .uncorrelated none (some x.2)) := by
  obtain ⟨h, l, bs, rest, rfl, hh, hn, hx⟩ := h
  have hh' : ev.has 5 mt = true := by rw [Ev.has, hf]; rfl
  rw [neutronParts, if_pos hh', Ev.get, hf]
  simp only [bind, Except.bind, pure, Except.pure, getHead_line hh, hn, Int.toNat_natCast]
  rw [parts_rec hx]
  simp only [List.map_map, Function.comp_def]

/-- C156, what does not hold: the schemes between the incident energies of tabulated spectra are not kept. -/
theorem C156_schemes_refuted {p c1 c2 : Cont} {r1 r2 : List (Int × Int)} {xs : List (ℚ × Tab1D ℚ)} {b1 b2 : List Line} (hp : p.l2 = 1) (h1 : Announced SpectrumAt c1 r1 xs b1)
    (h2 : Announced SpectrumAt c2 r2 xs b2) (rest : List Line) :
    rdEnergy (p.c1, p.c2, p.l1, p.l2) (b1 ++ rest) = rdEnergy (p.c1, p.c2, p.l1, p.l2) (b2 ++ rest) := by
  rw [part_energy (.arbitrary hp h1), part_energy (.arbitrary hp h2)]

/-! ### C157: products of file 6 -/

theorem pieces {α : Type} (w : Nat) : ∀ (rows : List (List α)), (∀ r ∈ rows, r.length = w) →
    ((List.range rows.length).map fun i => (rows.flatten.drop (w * i)).take w) = rows
  | [], _ => rfl
  | r :: rows, h => by
    have hr : r.length = w := h r (List.mem_cons_self ..)
    have ih := pieces w rows fun x hx => h x (List.mem_cons_of_mem _ hx)
    rw [List.length_cons, List.range_succ_eq_map, List.map_cons, List.map_map, List.flatten_cons]
    congr 1
    · rw [Nat.mul_zero, List.drop_zero, ← hr, List.take_left]
    · conv_rhs => rw [← ih]
      apply List.map_congr_left
      intro i _
      have e : w * (i + 1) = r.length + w * i := by rw [hr]; ring
      simp only [Function.comp_apply, Nat.succ_eq_add_one]
      rw [e, ← List.drop_drop, List.drop_left]

theorem flatten_length {α : Type} (w : Nat) : ∀ (rows : List (List α)), (∀ r ∈ rows, r.length = w) → rows.flatten.length = rows.length * w
  | [], _ => by simp
  | r :: rows, h => by
    rw [List.flatten_cons, List.length_append, h r (List.mem_cons_self ..), flatten_length w rows fun x hx => h x (List.mem_cons_of_mem _ hx), List.length_cons]
    ring

theorem reshape_rows {n w : Int} {m : Nat} {rows : List (List ℚ)} (hn : n = rows.length) (hw : w = (m : Int)) (h : ∀ r ∈ rows, r.length = m) :
    reshape n w rows.flatten = .ok rows := by
  subst hn hw
  rw [reshape, if_neg]
  · simp only [Int.toNat_natCast, pieces m rows h]
  · rw [flatten_length m rows h]
    push_cast
    omega

theorem column_ok {w : Int} {j : Nat} (h : (j : Int) < w) (rows : List (List ℚ)) : column w rows j = .ok (rows.map fun r => r.getD j 0) := by rw [column, if_pos h]

theorem rdCorrelated_rec {lep : Nat} (h1 : 1 ≤ lep) (h5 : lep ≤ 5) (x : ℚ × EOut × List Mu) (ls : List Line) (h : CorrelatedAt lep x ls) (rest : List Line) :
    rdCorrelated lep (ls ++ rest) = .ok (x, rest) := by
  obtain ⟨c, na, rows, hl, hna, hn, hr, e1, e2, e3⟩ := h
  have hrs : reshape c.n2 (c.l2 + 2) (rows.flatMap fun r => r.1 :: r.2.1 :: r.2.2) = .ok (rows.map fun r => r.1 :: r.2.1 :: r.2.2) := by
    rw [List.flatMap_def]
    refine reshape_rows (m := na + 2) (by simpa using hn) (by rw [hna]; push_cast; ring) ?_
    simp only [List.mem_map, forall_exists_index, and_imp]
    rintro r x hx rfl
    simp [hr x hx]
  have hm : (rows.map fun r => r.1 :: r.2.1 :: r.2.2).mapM (fun r => legendre (r.drop 1)) = .ok (rows.map fun r => Mu.legendre (r.2.1 :: r.2.2)) := by
    clear hl hn hr e2 e3 hrs
    induction rows with
    | nil => rfl
    | cons r rows ih =>
      rw [List.map_cons, List.mapM_cons, ih]
      simp only [List.drop_succ_cons, List.drop_zero, legendre_ok (List.cons_ne_nil _ _)]
      rfl
  rw [rdCorrelated, getList_rec hl]
  simp only [bind, Except.bind, pure, Except.pure, hrs, column_ok (show ((0 : Nat) : Int) < c.l2 + 2 by omega), column_ok (show ((1 : Nat) : Int) < c.l2 + 2 by omega),
    scheme_ok h1 h5, hm]
  simp only [List.map_map, Function.comp_def, List.getD_cons_zero, List.getD_cons_succ]
  rw [← e1, ← e3]
  congr 2
  rw [← e2]

theorem rdKalbach_rec {lep : Nat} (h1 : 1 ≤ lep) (h5 : lep ≤ 5) (x : ℚ × EOut × Tab1D ℚ × Tab1D ℚ) (ls : List Line) (h : KalbachAt lep x ls) (rest : List Line) :
    rdKalbach lep (ls ++ rest) = .ok (x, rest) := by
  obtain ⟨c, rows, hl, hna, hn, hp, e1, e2, e3, e4⟩ | ⟨c, rows, hl, hna, hn, hp, e1, e2, e3, e4⟩ := h
  · have hrs : reshape c.n2 (c.l2 + 2) (rows.flatMap fun r => [r.1, r.2.1, r.2.2.1, r.2.2.2]) = .ok (rows.map fun r => [r.1, r.2.1, r.2.2.1, r.2.2.2]) := by
      rw [List.flatMap_def]
      refine reshape_rows (m := 4) (by simpa using hn) (by rw [hna]; rfl) ?_
      simp only [List.mem_map, forall_exists_index, and_imp]
      rintro r x hx rfl
      rfl
    rw [rdKalbach, getList_rec hl]
    have hp' : ∀ v ∈ rows.map (·.2.1), 0 ≤ v := by
      simp only [List.mem_map, forall_exists_index, and_imp]
      rintro r x hx rfl
      exact hp x hx
    rw [hna] at hrs
    simp only [bind, Except.bind, pure, Except.pure, hna, hrs, column_ok (show ((0 : Nat) : Int) < 2 + 2 by omega), column_ok (show ((1 : Nat) : Int) < 2 + 2 by omega),
      scheme_ok h1 h5, column_ok (show ((2 : Nat) : Int) < 2 + 2 by omega), column_ok (show ((3 : Nat) : Int) < 2 + 2 by omega), if_true]
    simp only [List.map_map, Function.comp_def, List.getD_cons_zero, List.getD_cons_succ, tabular_ok lep _ hp', Tab1D.linlin, List.length_map]
    rw [← e1, ← e2, ← e3, ← e4]
  · have hrs : reshape c.n2 (c.l2 + 2) (rows.flatMap fun r => [r.1, r.2.1, r.2.2]) = .ok (rows.map fun r => [r.1, r.2.1, r.2.2]) := by
      rw [List.flatMap_def]
      refine reshape_rows (m := 3) (by simpa using hn) (by rw [hna]; rfl) ?_
      simp only [List.mem_map, forall_exists_index, and_imp]
      rintro r x hx rfl
      rfl
    rw [rdKalbach, getList_rec hl]
    have hp' : ∀ v ∈ rows.map (·.2.1), 0 ≤ v := by
      simp only [List.mem_map, forall_exists_index, and_imp]
      rintro r x hx rfl
      exact hp x hx
    rw [hna] at hrs
    simp only [bind, Except.bind, pure, Except.pure, hna, hrs, column_ok (show ((0 : Nat) : Int) < 1 + 2 by omega), column_ok (show ((1 : Nat) : Int) < 1 + 2 by omega),
      scheme_ok h1 h5, column_ok (show ((2 : Nat) : Int) < 1 + 2 by omega), show ((1 : Int) = 2) = False by decide, if_false]
    simp only [List.map_map, Function.comp_def, List.getD_cons_zero, List.getD_cons_succ, tabular_ok lep _ hp', Tab1D.linlin, List.length_map]
    rw [← e1, ← e2, ← e3, ← e4]

theorem evens_pairs : ∀ pts : List (ℚ × ℚ), evens (pts.flatMap fun p => [p.1, p.2]) = pts.map (·.1)
  | [] => rfl
  | p :: pts => by simp [evens, evens_pairs pts]

theorem odds_pairs : ∀ pts : List (ℚ × ℚ), odds (pts.flatMap fun p => [p.1, p.2]) = pts.map (·.2)
  | [] => rfl
  | p :: pts => by simp [odds, odds_pairs pts]

theorem rdTwoBody_rec (x : ℚ × Mu) (ls : List Line) (h : TwoBodyAt x ls) (rest : List Line) : rdTwoBody (ls ++ rest) = .ok ((x.1, [x.2]), rest) := by
  obtain ⟨c, pts, k, hl, hk, hp, e1, e2⟩ := h
  have hp' : ∀ v ∈ pts.map (·.2), 0 ≤ v := by
    simp only [List.mem_map, forall_exists_index, and_imp]
    rintro r x hx rfl
    exact hp x hx
  rw [rdTwoBody, getList_rec hl]
  obtain ⟨hk, rfl⟩ | ⟨hk, rfl⟩ := hk
  · simp only [bind, Except.bind, pure, Except.pure, hk, evens_pairs, odds_pairs, tabular_ok _ _ hp', show ((12 : Int) = 0) = False by decide, if_false, if_true]
    rw [← e1, ← e2]
  · simp only [bind, Except.bind, pure, Except.pure, hk, evens_pairs, odds_pairs, tabular_ok _ _ hp', show ((14 : Int) = 0) = False by decide,
      show ((14 : Int) = 12) = False by decide, if_false, if_true]
    rw [← e1, ← e2]

theorem rdCosine_rec (x : ℚ × EOut) (ls : List Line) (h : CosineAt x ls) (rest : List Line) : rdCosine (ls ++ rest) = .ok ((x.1, x.2.p.sum, x.2), rest) := by
  obtain ⟨c, t, ht, -, hp, e1, e2⟩ := h
  rw [rdCosine, rdTab_rec ht]
  simp only [bind, Except.bind, pure, Except.pure, tabular_ok _ _ hp]
  rw [← e1, e2]

theorem announced_map {α β : Type} {rec : α → List Line → Prop} {rd : Reader β} (g : α → β) (hrd : ∀ x ls, rec x ls → ∀ rest, rd (ls ++ rest) = .ok (g x, rest))
    {c : Cont} {regions : List (Int × Int)} {xs : List α} {ls : List Line} (h : Announced rec c regions xs ls) (rest : List Line) :
    ∃ f, getTab2 (ls ++ rest) = .ok (c, regions, f) ∧ size c.n2 = .ok xs.length ∧ many rd xs.length f = .ok (xs.map g, rest) := by
  obtain ⟨a, bs, rfl, h2, hn, hx⟩ := h
  refine ⟨bs.flatten ++ rest, ?_, ?_, ?_⟩
  · rw [List.append_assoc, getTab2_rec h2]
  · rw [hn, size_nat]
  · have := many_spec (rd := rd) (as := xs.map g) (lss := bs) (List.forall₂_map_left_iff.mpr (hx.imp fun {x b} h => hrd x b h)) rest
    rwa [List.length_map] at this

theorem rdLab_rec (x : ℚ × List (ℚ × EOut)) (ls : List Line) (h : LabAt x ls) (rest : List Line) :
    rdLab (ls ++ rest) = .ok ((x.1, ⟨2, x.2.map (·.1), x.2.map fun y => y.2.p.sum⟩, x.2.map (·.2)), rest) := by
  obtain ⟨c, regions, ha, he⟩ := h
  have hp : ∀ v ∈ x.2.map (fun y => y.2.p.sum), 0 ≤ v := by
    obtain ⟨a, bs, -, -, -, hx⟩ := ha
    simp only [List.mem_map, forall_exists_index, and_imp]
    rintro v y hy rfl
    obtain ⟨i, hi, rfl⟩ := List.getElem_of_mem hy
    obtain ⟨-, t, -, -, hp, -, e⟩ := (List.forall₂_iff_get.mp hx).2 i hi (by rw [← (List.forall₂_iff_get.mp hx).1]; exact hi)
    simp only [List.get_eq_getElem] at e
    rw [e]
    exact List.sum_nonneg hp
  obtain ⟨f, h1, h2, h3⟩ := announced_map (fun y : ℚ × EOut => (y.1, y.2.p.sum, y.2)) rdCosine_rec ha rest
  rw [rdLab, h1]
  simp only [bind, Except.bind, pure, Except.pure, h2, h3, List.map_map, Function.comp_def, tabular_ok _ _ hp]
  rw [← he]

theorem cont_of_tab2 {c : Cont} {regions : List (Int × Int)} {f g : List Line} (h : getTab2 f = .ok (c, regions, g)) : ∃ g', getCont f = .ok (c, g') := by
  rw [getTab2] at h
  cases hc : getCont f with
  | error e => rw [hc] at h; cases h
  | ok v =>
    obtain ⟨c', g'⟩ := v
    rw [hc] at h
    simp only [bind, Except.bind, pure, Except.pure] at h
    split at h
    · cases h
    · rename_i v hv
      cases h
      exact ⟨g', rfl⟩

theorem rdLaw_rec {law : Int} {ds : List Dist} {ls : List Line} (h : LawRec law ds ls) (rest : List Line) : rdLaw law (ls ++ rest) = .ok (ds, rest) := by
  cases h with
  | unknown => rfl
  | recoil => rfl
  | @correlated c regions lep xs ls h1 h2 h3 h4 h =>
    obtain ⟨f, e1, e2, e3⟩ := announced (rdCorrelated_rec h3 h4) h rest
    obtain ⟨g, hg⟩ := cont_of_tab2 e1
    rw [rdLaw, if_pos rfl, hg]
    simp only [bind, Except.bind, pure, Except.pure, h1, if_true, correlatedFromEndf, e1, e2, h2, e3]
  | @kalbach c regions lep xs ls h1 h2 h3 h4 h =>
    obtain ⟨f, e1, e2, e3⟩ := announced (rdKalbach_rec h3 h4) h rest
    obtain ⟨g, hg⟩ := cont_of_tab2 e1
    rw [rdLaw, if_pos rfl, hg]
    simp only [bind, Except.bind, pure, Except.pure, h1, if_true, kalbachFromEndf, e1, e2, h2, e3, show ((2 : Int) = 1) = False by decide, if_false]
  | @twoBody c regions xs ls h =>
    obtain ⟨f, e1, e2, e3⟩ := announced_map (fun x : ℚ × Mu => (x.1, [x.2])) rdTwoBody_rec h rest
    rw [rdLaw, if_neg (by decide), if_pos rfl, e1]
    simp only [bind, Except.bind, pure, Except.pure, e2, e3, List.map_map, Function.comp_def, List.flatMap_map]
    rw [← List.map_eq_flatMap]
  | isotropic => rfl
  | @nbody c l h h1 h2 =>
    rw [rdLaw, if_neg (by decide), if_neg (by decide), if_neg (by decide), if_pos rfl, nbodyFromEndf, List.cons_append, List.nil_append, getCont_line h]
    simp only [bind, Except.bind, pure, Except.pure]
    rw [if_neg (by rintro (h' | h') <;> [linarith; omega])]
  | @laboratory c regions xs ls h =>
    obtain ⟨f, e1, e2, e3⟩ := announced_map (fun x : ℚ × List (ℚ × EOut) => (x.1, EOut.mk 2 (x.2.map (·.1)) (x.2.map fun y => y.2.p.sum), x.2.map (·.2))) rdLab_rec h rest
    rw [rdLaw, if_neg (by decide), if_neg (by decide), if_neg (by decide), if_neg (by decide), if_pos rfl, labFromEndf, e1]
    simp only [bind, Except.bind, pure, Except.pure, e2, e3, List.map_map, Function.comp_def]

theorem particleOf_rec {zap : Nat} {name : Line} (h : Particle zap name) : particleOf (zap : Int) = .ok name := by
  cases h with
  | photon => rfl
  | neutron => rfl
  | @nuclide z a sym h ha ha' hs =>
    rw [particleOf, if_neg (by omega), if_neg (by omega), if_neg (by omega)]
    have e1 : ((1000 * z + a : Nat) : Int) / 1000 = z := by omega
    have e2 : ((1000 * z + a : Nat) : Int) % 1000 = a := by omega
    rw [e1, e2, AceData.symbol_of hs]
    rfl

theorem rdProduct_rec (p : Prod) (ls : List Line) (h : ProductRec p ls) (rest : List Line) : rdProduct (ls ++ rest) = .ok (p, rest) := by
  obtain ⟨c, zap, y, a, b, rfl, ha, hz, hp, hl, hy, hm, hd, happ⟩ := h
  rw [rdProduct, List.append_assoc, rdTab_rec ha]
  simp only [bind, Except.bind, pure, Except.pure, hz, trunc_nat, particleOf_rec hp, rdLaw_rec hl]
  cases p
  simp only at hy hm hd happ
  subst hy hm hd happ
  rfl

/-- C157: the products of a section of file 6 are those of the section, in order, with their names, yields and distributions. -/
theorem C157_products_partial {ps : List Prod} {lct : Int} {ls : List Line} (h : ProductSection ps lct ls) : productsFromEndf ls = .ok ps := by
  obtain ⟨h, l, bs, rest, rfl, hh, hl, h1, h4, hn, hx⟩ := h
  rw [productsFromEndf, getHead_line hh]
  simp only [bind, Except.bind, pure, Except.pure, hl]
  rw [if_neg (by simp [h1, h4]), hn, Int.toNat_natCast, many_spec (hx.imp fun {p b} h => rdProduct_rec p b h)]

/-- C157, what does not hold: the Legendre coefficients of LAW 2 begin with the first in the file; the zeroth, which is 1, is not put in front as it is for file 4, so that each is taken for the
one before. -/
theorem C157_legendre_refuted {c : Cont} {regions : List (Int × Int)} {xs : List (ℚ × List ℚ)} {ls : List Line} (hx : xs ≠ [])
    (h : Announced (fun (x : ℚ × List ℚ) ls => ∃ c', ListRec c' x.2 ls ∧ c'.l1 = 0 ∧ x.1 = c'.c2 ∧ x.2 ≠ []) c regions xs ls) (rest : List Line) :
    rdLaw 2 (ls ++ rest) = .ok ([.uncorrelated (some ⟨xs.map (·.1), xs.map fun x => .legendre x.2⟩) none], rest) ∧
      rdLaw 2 (ls ++ rest) ≠ .ok ([.uncorrelated (some ⟨xs.map (·.1), xs.map fun x => .legendre (1 :: x.2)⟩) none], rest) := by
  have e : rdLaw 2 (ls ++ rest) = .ok ([.uncorrelated (some ⟨xs.map (·.1), xs.map fun x => .legendre x.2⟩) none], rest) := by
    obtain ⟨f, e1, e2, e3⟩ := announced_map (rd := rdTwoBody) (fun x : ℚ × List ℚ => (x.1, [Mu.legendre x.2])) (by
      rintro x ls ⟨c', hl, h0, he, hne⟩ rest
      rw [rdTwoBody, getList_rec hl]
      simp only [bind, Except.bind, pure, Except.pure, h0, if_true, legendre_ok hne]
      rw [← he]) h rest
    rw [rdLaw, if_neg (by decide), if_pos rfl, e1]
    simp only [bind, Except.bind, pure, Except.pure, e2, e3, List.map_map, Function.comp_def, List.flatMap_map]
    rw [← List.map_eq_flatMap]
  refine ⟨e, ?_⟩
  rw [e]
  intro h'
  simp only [Except.ok.injEq, _root_.Prod.mk.injEq, List.cons.injEq, Dist.uncorrelated.injEq, Option.some.injEq, Angle.mk.injEq, and_true, true_and] at h'
  cases xs with
  | nil => exact hx rfl
  | cons x xs =>
    simp only [List.map_cons, List.cons.injEq, Mu.legendre.injEq] at h'
    exact absurd (congrArg List.length h'.1) (by simp)

/-- C157, what does not hold: the records of LAW 5 (scattering of charged particles) are not skipped, whatever they are; the next product is read from them. -/
theorem C157_charged_refuted {c : Cont} {zap : Nat} {y : Tab1D ℚ} {a : List Line} {name : Line} (ha : TabRec c y a) (hz : c.c1 = zap) (hp : Particle zap name) (h5 : c.l2 = 5)
    (b : List Line) : rdProduct (a ++ b) = .ok (⟨name, .prompt, 0, .tab y, [], []⟩, b) := by
  rw [rdProduct, rdTab_rec ha]
  simp only [bind, Except.bind, pure, Except.pure, hz, trunc_nat, particleOf_rec hp, h5]
  rfl

/-- C157, what does not hold: nor are the records of LAW 1 with tabulated angles (LANG 11 to 15). -/
theorem C157_tabulated_refuted {c' : Cont} {regions : List (Int × Int)} {b1 : List Line} (hb : Tab2Rec c' regions b1) (hl : 11 ≤ c'.l1) (b : List Line) :
    rdLaw 1 (b1 ++ b) = .ok ([], b1 ++ b) := by
  obtain ⟨g, hg⟩ := cont_of_tab2 (getTab2_rec hb b)
  rw [rdLaw, if_pos rfl, hg]
  simp only [bind, Except.bind, pure, Except.pure]
  rw [if_neg (by omega), if_neg (by omega)]

/-- C157, what does not hold: LIP, the number of the level of a product, is not kept; a ground state and an isomer of the same nuclide give the same. -/
theorem C157_isomer_refuted {c c' : Cont} {y : Tab1D ℚ} {a a' : List Line} (ha : TabRec c y a) (ha' : TabRec c' y a') (h1 : c'.c1 = c.c1) (h2 : c'.l2 = c.l2) (b : List Line) :
    rdProduct (a ++ b) = rdProduct (a' ++ b) := by
  rw [rdProduct, rdProduct, rdTab_rec ha, rdTab_rec ha']
  simp only [bind, Except.bind, h1, h2]

/-- C157, what does not hold: the n-body distribution has a target of mass 1 and Q = 0 whatever those of the reaction are. -/
theorem C157_nbody_refuted {c : Cont} {l : Line} (h : ContLine c l) (h1 : 0 < c.c1) (h2 : 0 < c.n2) (awr q : ℚ) (ha : awr ≠ 1 ∨ q ≠ 0) (rest : List Line) :
    rdLaw 6 (l :: rest) ≠ .ok ([.nbody c.c1 c.n2 awr q], rest) := by
  have := rdLaw_rec (.nbody h h1 h2) rest
  rw [List.singleton_append] at this
  rw [this]
  intro h'
  simp only [Except.ok.injEq, _root_.Prod.mk.injEq, List.cons.injEq, Dist.nbody.injEq, and_true, true_and] at h'
  obtain h0 | h0 := ha
  · exact h0 h'.1.symm
  · exact h0 h'.2.symm

/-- C157, what does not hold: the scheme of a spectrum of LAW 7 is taken as linear whatever it is. -/
theorem C157_spectrum_refuted {c : Cont} {t : Tab1D ℚ} {ls : List Line} (h : TabRec c t ls) (hp : ∀ v ∈ t.y, 0 ≤ v) (rest : List Line) :
    rdCosine (ls ++ rest) = .ok ((c.c2, t.y.sum, ⟨2, t.x, t.y⟩), rest) := by
  rw [rdCosine, rdTab_rec h]
  simp only [bind, Except.bind, pure, Except.pure, tabular_ok _ _ hp]

/-- C157, what does not hold: the weight of a cosine is not the integral of its spectrum but the sum of the tabulated probabilities; the same spectrum with one more point weighs more. -/
theorem C157_cosines_refuted : ∃ (x0 x1 : ℚ × EOut) (b0 b1 : List Line) (w0 w1 : ℚ), CosineAt x0 b0 ∧ CosineAt x1 b1 ∧ integral x0.2.x x0.2.p = integral x1.2.x x1.2.p ∧
    rdCosine b0 = .ok ((x0.1, w0, x0.2), []) ∧ rdCosine b1 = .ok ((x1.1, w1, x1.2), []) ∧ w0 ≠ w1 := by
  refine ⟨_, _, exP7a, exP7b, 2, 3, exCosine0_ok, exCosine1_ok, by norm_num [integral], ?_, ?_, by norm_num⟩
  · have := C157_spectrum_refuted (c := ⟨0, -1, 0, 0, 1, 2⟩) (t := ⟨[0, 2], [1, 1], [2], [2]⟩) (ls := exP7a) (tabRec_of (by decide +kernel)) (by norm_num) []
    rw [List.append_nil] at this
    rw [this]
    norm_num
  · have := C157_spectrum_refuted (c := ⟨0, 1, 0, 0, 1, 3⟩) (t := ⟨[0, 1, 2], [1, 1, 1], [3], [2]⟩) (ls := exP7b) (tabRec_of (by decide +kernel)) (by norm_num) []
    rw [List.append_nil] at this
    rw [this]
    norm_num

end ASAPy.EndfRx
