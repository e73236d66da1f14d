import Verif.Plots.Props2
import Verif.Sampled.Props
import Verif.Tab1D.Props

/-! # C133 and C134: the sampled curves, and the files the figures are saved in -/

namespace ASAPy.Plots
open ASAPy.Ace ASAPy.Sampled ASAPy.MapGroups

section
variable {K : Type*} [Field K] [LinearOrder K] [ExpLog K] [IsStrictOrderedRing K]

/-- The sampled values are determined by the data. -/
theorem scaled_unique {ed : Editor K} {k : Nat} {inp : Input K} {d : Data K} (h : Fits ed k inp d) {o o' : List K} (ho : Scaled d o)
    (ho' : Scaled d o') : o = o' := by
  have hl := ho.1
  have hl' := ho'.1
  have hb := h.length
  apply List.ext_getElem
  · omega
  · intro i hi hi'
    have e1 : d.es[i]? = some d.es[i] := List.getElem?_eq_getElem (by omega)
    have e2 : d.base[i]? = some d.base[i] := List.getElem?_eq_getElem (by omega)
    have s1 := ho.2 i _ _ _ e1 e2 (List.getElem?_eq_getElem hi)
    have s2 := ho'.2 i _ _ _ e1 e2 (List.getElem?_eq_getElem hi')
    have hne : d.es[i] ≠ d.minE := fun hc => h.noMin (hc ▸ List.getElem_mem _)
    by_cases h1 : d.es[i] < d.minE ∨ d.maxE < d.es[i]
    · rw [s1.2 h1, s2.2 h1]
    · push Not at h1
      obtain ⟨g, hg, -⟩ := C26_every_energy_has_one_group h.usable (lt_of_le_of_ne h1.1 hne.symm) h1.2
      rw [s1.1 g hg, s2.1 g hg]

/-- What `get_mt_from_ace` returns: the editor's energies and values, the latter evaluated at the energies. -/
theorem fromAce_ok {ed : Editor K} {mt : Nat} (h : mt ≠ 1018) {es base : List K} (he : getEnergy ed mt = .ok (.arr es))
    (hs : getSigma ed mt (some es) false = .ok (.arr base)) : fromAce ed mt = .ok (es, base) := by
  unfold fromAce
  by_cases h452 : mt = 452
  · rw [if_pos h452]
    unfold getEnergy at he
    unfold getSigma at hs
    rw [if_pos h452] at he hs
    cases hn : getNuDistro ed false with
    | error e => rw [hn] at he; cases he
    | ok y =>
      rw [hn] at he hs
      simp only [bind, Except.bind, Except.ok.injEq, Val.arr.injEq] at he hs
      rw [← he, ← hs]
      rfl
  · rw [if_neg h452, if_neg h, he]
    simp only [hs]

theorem curves_ok {g : Groups K} {es st : List K} : ∀ {cols : List (Series K)} (out : Nat → List K),
    (∀ k col, cols[k]? = some col → factorTimes g.high g.low col es st = .ok (out k)) →
    ∃ cs, curves g es st cols = .ok cs ∧ cs.length = cols.length ∧ ∀ k, k < cols.length → cs[k]? = some (out k)
  | [], _, _ => ⟨[], rfl, rfl, by simp⟩
  | col :: cols, out, h => by
    obtain ⟨cs, h1, h2, h3⟩ := curves_ok (cols := cols) (fun k => out (k + 1)) (fun k c hc => h (k + 1) c (by simpa using hc))
    refine ⟨out 0 :: cs, ?_, by simp [h2], ?_⟩
    · simp only [curves, h 0 col rfl, h1]
    · intro k hk
      match k with
      | 0 => rfl
      | k + 1 =>
        rw [List.length_cons] at hk
        simpa using h3 k (by omega)

theorem fewLog_ok {st : List K} (h0 : st ≠ []) (hnz : (0 : K) ∉ st) : ∃ b, fewLog st = .ok b := by
  have hf : st.filter (· ≠ 0) = st := by
    rw [List.filter_eq_self]
    intro a ha
    simp only [decide_eq_true_eq]
    rintro rfl
    exact hnz ha
  unfold fewLog
  rw [hf, List.max?_eq_some_max h0, List.min?_eq_some_min h0]
  exact ⟨_, rfl⟩

/-- **C133 (partial).** For an elementary reaction (or nu-bar) without zeros in the cross section: the figure `few_sampled_xsec` is made, its base curve is the
cross section on its own energies, it has one curve for each of the first ten samples (all of them, if there are less), and curve `k` is the cross
section that is put into the file of sample `k`. `hgrid` is C15. Missing: cross sections with zeros (`C133_zero_refuted`) and fission spectra
(`C133_chi_refuted`). -/
theorem C133_curves_partial {file : Table K} {T : Temp} (hf : WellFormed file T) {ed : Editor K} (hr : Reachable file T ed) {inp : Input K} {g : Groups K}
    (hg : inp.bounds = .ok (g.high, g.low)) {es base : List K} {d : Nat → Data K}
    (hd : ∀ k, k < inp.cols.length → Fits ed k inp (d k) ∧ (d k).es = es ∧ (d k).base = base)
    (hcols : inp.cols ≠ []) (hne : base ≠ []) (hnz : (0 : K) ∉ base) (hgrid : getSigma ed inp.mt (some es) false = .ok (.arr base)) :
    ∃ f, few ed inp.mt g inp.cols = .ok f ∧ f.es = es ∧ f.base = base ∧ f.curves.length = min 10 inp.cols.length ∧
      ∀ k c, f.curves[k]? = some c → ∃ ed', sampleMt ed k inp = (ed', .ok ()) ∧ getSigma ed' inp.mt none false = .ok (.arr c) := by
  have hmap : (base.map fun v => if v = 0 then 1 else v) = base := by
    conv_rhs => rw [← List.map_id base]
    apply List.map_congr_left
    intro v hv
    rw [if_neg (fun h0 : v = 0 => hnz (h0 ▸ hv)), id]
  have hout : ∀ k, ∃ o, ∀ col, inp.cols[k]? = some col → factorTimes g.high g.low col es base = .ok o ∧ Scaled (d k) o := by
    intro k
    by_cases hk : k < inp.cols.length
    · obtain ⟨hfit, he, hb⟩ := hd k hk
      obtain ⟨col, low, o, h1, h2, h3, h4⟩ := factorTimes_spec hfit
      refine ⟨o, fun col' hc => ?_⟩
      rw [h1] at hc
      cases hc
      rw [h2] at hg
      simp only [Except.ok.injEq, Prod.mk.injEq] at hg
      rw [he, hb, hmap, hg.1, hg.2] at h3
      exact ⟨h3, h4⟩
    · exact ⟨[], fun col hc => absurd (List.getElem?_eq_some_iff.mp hc).1 hk⟩
  choose out hout using hout
  have hpos : 0 < inp.cols.length := List.length_pos_iff.mpr hcols
  obtain ⟨h0, he0, hb0⟩ := hd 0 hpos
  have hacc := fromAce_ok h0.notChi (he0 ▸ h0.energies) hgrid
  let num := if 10 > inp.cols.length then inp.cols.length else 10
  have hnum : num = min 10 inp.cols.length := by
    simp only [num]; split <;> omega
  obtain ⟨cs, hc1, hc2, hc3⟩ := curves_ok (g := g) (es := es) (st := base) (cols := inp.cols.take num) out (by
    intro k col hc
    rw [List.getElem?_take] at hc
    split at hc
    · exact (hout k col hc).1
    · cases hc)
  obtain ⟨b, hlog⟩ := fewLog_ok hne hnz
  have hlen : cs.length = min 10 inp.cols.length := by rw [hc2, List.length_take, hnum]; omega
  refine ⟨⟨es, base, cs, b⟩, ?_, rfl, rfl, hlen, ?_⟩
  · unfold few
    simp only [hacc, bind, Except.bind]
    simp only [num] at hc1
    rw [hc1]
    simp only [hlog, Except.map]
  · intro k c hk
    have hkl : k < cs.length := (List.getElem?_eq_some_iff.mp hk).1
    have hkn : k < inp.cols.length := by omega
    have hck := hc3 k (by omega)
    rw [hk] at hck
    cases Option.some.inj hck
    obtain ⟨ed', h1, -, ⟨o, h2, h3⟩, -⟩ := sampleMt_spec hf hr (hd k hkn).1
    refine ⟨ed', h1, ?_⟩
    have := (hout k inp.cols[k] (List.getElem?_eq_getElem hkn)).2
    rw [h2, scaled_unique (hd k hkn).1 h3 this]

end

/-- The hypothesis `hgrid` of `C133_curves_partial` for a reaction whose table is well formed and has no inner point close to its ends (C15). -/
theorem grid_values {ed : Editor ℝ} {mt : Nat} (h1 : mt ≠ 1018) (h2 : mt ≠ 452) {t : Tab1D ℝ} (ht : getTab ed mt false = .ok t) (hw : Tab1D.WF t)
    (hlaw : ∀ law ∈ t.interpolation, law = 2)
    (hfar : ∀ i (hi : i < t.x.length), (i = 0 ∨ ¬ Tab1D.TakenFor t.x[i] (t.x.head hw.nonempty)) ∧
      (i + 1 = t.x.length ∨ ¬ Tab1D.TakenFor t.x[i] (t.x.getLast hw.nonempty))) :
    getSigma ed mt (some t.x) false = .ok (.arr t.y) := by
  have hev : t.evals t.x = .ok t.y := by
    have hall : ∀ i (hi : i < t.x.length), t.eval t.x[i] = .ok (t.y[i]'(by rw [hw.len]; exact hi)) := by
      intro i hi
      exact Tab1D.C15_grid_point_value_partial hw hi (fun l hl => by rw [hlaw l hl]; norm_num)
        (Or.inr fun l hl => by rw [hlaw l hl]; norm_num) (hfar i hi).1 (hfar i hi).2
    unfold Tab1D.evals
    have gen : ∀ (xs ys : List ℝ) (f : ℝ → Except PyErr ℝ), ys.length = xs.length →
        (∀ i (hi : i < xs.length) (hi' : i < ys.length), f xs[i] = .ok ys[i]) → xs.mapM f = .ok ys := by
      intro xs
      induction xs with
      | nil => intro ys f hl _; cases ys with
        | nil => rfl
        | cons _ _ => simp at hl
      | cons x xs ih =>
        intro ys f hl h
        cases ys with
        | nil => simp at hl
        | cons y ys =>
          have h0 := h 0 (by simp) (by simp)
          simp only [List.getElem_cons_zero] at h0
          have hi := ih ys f (by simpa using hl) (fun i hi hi' => by
            have := h (i + 1) (by simpa using hi) (by simpa using hi')
            simpa using this)
          rw [List.mapM_cons, h0, hi]
          rfl
    exact gen _ _ _ hw.len fun i hi _ => hall i hi
  unfold getSigma
  rw [if_neg h2, if_neg h1, ht]
  simp only [bind, Except.bind, hev]

section
local instance : ExpLog ℚ := ⟨id, id⟩

def exBounds : Groups ℚ := ⟨[4, 2], [2, 1/2], [3, 5], [1/10, 1/5]⟩

example : ∃ f, few demoEd 102 exBounds demoInput.cols = .ok f ∧ f.es = [1, 2, 3] ∧ f.base = [30, 31, 32] ∧ f.curves.length = 2 ∧
      ∀ k c, f.curves[k]? = some c → ∃ ed', sampleMt demoEd k demoInput = (ed', .ok ()) ∧ getSigma ed' 102 none false = .ok (.arr c) :=
  C133_curves_partial demo_wf ⟨none, demoEd, [], demo_open, rfl, rfl⟩ (inp := demoInput) (g := exBounds) rfl
    (d := fun k => demoData fun g => if k = 0 then (if g = 1 then 2 else 1/2) else 1)
    (by
      intro k hk
      have : k = 0 ∨ k = 1 := by simp [demoInput] at hk; omega
      rcases this with rfl | rfl
      · exact ⟨demo_fits, rfl, rfl⟩
      · exact ⟨demo_fits_unit, rfl, rfl⟩)
    (by simp [demoInput]) (by simp) (by simp) (by decide +kernel)

/-- **C133 is false where the cross section is zero**: the curve of the sample is zero there, the file holds the relative value. -/
theorem C133_zero_refuted : ∃ ed0 ed f, init zeroFile none = .ok ed0 ∧ few ed0 102 exBounds demoInput.cols = .ok f ∧ f.curves[0]? = some [0, 31/2, 64] ∧
    sampleMts ed0 0 [demoInput] = (ed, .ok ()) ∧ getSigma ed 102 none false = .ok (.arr [1/2, 31/2, 64]) := by
  refine ⟨_, _, ⟨[1, 2, 3], [0, 31, 32], [[0, 31/2, 64], [0, 31, 32]], false⟩, rfl, ?_, rfl, Prod.ext rfl ?_, ?_⟩ <;> decide +kernel

/-- **C133 is false for fission spectra**: the curve is the spectrum times the relative values, the file holds it normalised; and only the first of the two
incident energies is shown. -/
theorem C133_chi_refuted : ∃ f ed, few demoEd 1018 ⟨[4, 1], [1, 1/2], [3, 5], [1, 1]⟩ [[(1, 2), (2, 2)]] = .ok f ∧ f.curves = [[1/2, 1, 1]] ∧
    sampleMt demoEd 0 ⟨1018, [[(1, 2), (2, 2)]], .ok ([4, 1], [1, 1/2])⟩ = (ed, .ok ()) ∧
    getSigma ed 1018 none false = .ok (.pdfs [[1/4, 1/2, 1/2], [1/4, 1/2, 1/2]]) := by
  refine ⟨⟨[0, 1, 2], [1/2, 1/2, 1/2], [[1/2, 1, 1]], false⟩, _, ?_, rfl, Prod.ext rfl ?_, ?_⟩ <;> decide +kernel

end

/-- **C133, a cross section that is zero everywhere**: no figure is made, the program ends with a `ValueError`. -/
theorem C133_all_zero {K : Type*} [Field K] [LinearOrder K] (n : Nat) : fewLog (List.replicate n (0 : K)) = .error .valueError := by
  simp [fewLog]

/-- `plot_sampled_info` draws exactly the figures of which C130-C133 speak, and it ends normally if each of them can be made. -/
theorem C130_figures {m : Nat} {ed : Editor ℝ} {mt : Nat} {g : Groups ℝ} {corr : List (List ℝ)} {cols : List (Series ℝ)} {rows : List (Fin m → ℝ)}
    {u : Bool} {F : Figures} : plotSampledInfo ed mt g corr cols rows u = .ok F ↔
      covSteps g rows = .ok F.cov ∧ few ed mt g cols = .ok F.few ∧ corrMaps g corr rows u = .ok F.corr ∧ relSteps g F.few.es = .ok F.rel := by
  unfold plotSampledInfo
  constructor
  · intro h
    cases h1 : covSteps g rows with
    | error e => rw [h1] at h; cases h
    | ok a =>
      cases h2 : few ed mt g cols with
      | error e => rw [h1, h2] at h; cases h
      | ok b =>
        cases h3 : corrMaps g corr rows u with
        | error e => rw [h1, h2, h3] at h; cases h
        | ok c =>
          cases h4 : relSteps g b.es with
          | error e => rw [h1, h2, h3] at h; simp only [bind, Except.bind, h4] at h; cases h
          | ok d =>
            rw [h1, h2, h3] at h
            simp only [bind, Except.bind, h4] at h
            cases h
            exact ⟨rfl, rfl, rfl, h4⟩
  · rintro ⟨h1, h2, h3, h4⟩
    rw [h1, h2, h3]
    simp only [bind, Except.bind, h4]

/-! ## Files -/

theorem split_under {a b a' b' : List Char} (ha : '_' ∉ a) (ha' : '_' ∉ a') (h : a ++ '_' :: b = a' ++ '_' :: b') : a = a' ∧ b = b' := by
  induction a generalizing a' with
  | nil =>
    cases a' with
    | nil => simpa using h
    | cons c a' =>
      simp only [List.nil_append, List.cons_append, List.cons.injEq] at h
      exact absurd (h.1 ▸ List.mem_cons_self ..) ha'
  | cons c a ih =>
    cases a' with
    | nil =>
      simp only [List.nil_append, List.cons_append, List.cons.injEq] at h
      exact absurd (h.1 ▸ List.mem_cons_self ..) ha
    | cons c' a' =>
      simp only [List.cons_append, List.cons.injEq] at h
      obtain ⟨h1, h2⟩ := ih (fun hc => ha (List.mem_cons_of_mem _ hc)) (fun hc => ha' (List.mem_cons_of_mem _ hc)) h.2
      exact ⟨by rw [h.1, h1], h2⟩

theorem under_not_digit {s : List Char} (h : ∀ c ∈ s, Dec.isDigit c = true) : '_' ∉ s :=
  fun hc => absurd (h _ hc) (by decide)

/-- **C134.** No figure overwrites another: within one folder the names of the figures of different nuclides (identified by digits), MTs and kinds are different,
and the four kinds are four. -/
theorem C134_no_overwrite (base : List Char) {z z' : List Char} (hz : ∀ c ∈ z, Dec.isDigit c = true) (hz' : ∀ c ∈ z', Dec.isDigit c = true)
    {mt mt' : Nat} {k k' : List Char} (h : fileName base z mt k = fileName base z' mt' k') : z = z' ∧ mt = mt' ∧ k = k' := by
  unfold fileName at h
  simp only [List.append_assoc, List.append_cancel_left_eq, List.cons_append, List.nil_append, List.cons.injEq, true_and] at h
  obtain ⟨h1, h2⟩ := split_under (under_not_digit hz) (under_not_digit hz') h
  obtain ⟨h3, h4⟩ := split_under (under_not_digit (Dec.natStr_digits mt)) (under_not_digit (Dec.natStr_digits mt')) h2
  exact ⟨h1, Dec.natStr_injective h3, List.append_cancel_right h4⟩

theorem C134_four : kinds.Nodup ∧ kinds.length = 4 := by decide +kernel

/-- **C134.** With the folder the program gives, `./`, all figures are saved there. -/
theorem C134_folder_partial (z : List Char) (mt : Nat) (k : List Char) : c!"./" <+: fileName c!"./" z mt k := by
  simp [fileName]

/-- **C134 is false for the default folder**: without `output_base` the figures are not saved in the current folder, but in the root of the file system. -/
theorem C134_default_refuted (z : List Char) (mt : Nat) (k : List Char) : ∃ rest, fileName [] z mt k = '/' :: rest := ⟨_, rfl⟩

example : fileName c!"./" c!"92235" 18 c!"sampled_cov" = c!".//92235_18_sampled_cov.png" := by decide +kernel

end ASAPy.Plots
