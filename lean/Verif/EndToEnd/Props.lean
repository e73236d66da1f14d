import Verif.Sampled.Mixed
import Verif.EndToEnd.Reload
import Verif.FromAce.FormProps

/-! # From the relative values of a sample to the values loaded from its file (C88) -/

set_option linter.unusedSimpArgs false

namespace ASAPy.EndToEnd
open ASAPy.WriteAce ASAPy.AceData ASAPy.Str ASAPy.Sampled ASAPy.FromAce ASAPy.MapGroups
open ASAPy.Ace (Editor init getSigma getEnergy WellFormed)

theorem rounded_nonneg {x : ℚ} (hx : 0 ≤ x) : 0 ≤ rounded x := by
  unfold rounded
  rw [if_neg (not_lt.mpr hx), one_mul]
  exact mul_nonneg (Nat.cast_nonneg _) (zpow_pos (by norm_num) _).le

/-- **C88.** A sample of an ACE file is written as in C86, the sampled MTs being elementary ones as in C34, and chi as in C232. If the written file can be loaded, then for every
sampled MT of the table whose values were replaced at their place, at every energy in group `g` the loaded cross section is the original one times the sampled
relative value of the group, with a relative error of at most 5e-12; at energies outside the groups it is the original one, with the same error. (For original
values that are positive and relative values that are not negative. A value of zero becomes the relative value, see `C34_zero_refuted`.) -/
theorem C88_sampled_file [ExpLog ℚ] {t : AceData.Table ℚ} {text : List Char} {hs xss : List (List Char)} (ht : AceText t text hs xss)
    {c : Content ℚ} (hc : FromAce.Holds t c) {file : Ace.Table ℚ} (hp : load t = .ok file) {ed0 ed : Editor ℚ} (hi : init file none = .ok ed0)
    (hsound : c.Sound) {k : Nat} {ins : List (Input ℚ)}
    (hfit : ∀ inp ∈ ins, Sampleable ed0 k inp) (hnd : (ins.map (·.mt)).Nodup)
    (hs : sampleMts ed0 k ins = (ed, .ok ())) {w : Writer} (hw : WriteAce.read text = .ok w)
    {groups : List (List (Job ℚ))}
    (hrep : List.Forall₂ (fun mt js => Replaces ed0 ed mt js ∧ (mt = 452 → ∀ j ∈ js, j.maxReplaces = 9999))
      (ed.adjusted.insertionSort (· ≤ ·)) groups)
    (jobs : List (Job ℚ × Nat)) (hjobs : jobs.map Prod.fst = groups.flatten)
    (hok : ∀ js ∈ jobs, js.1.base.length = js.1.new.length ∧ js.1.base ≠ [] ∧ 0 < js.1.maxReplaces)
    (hfin : ∀ js ∈ jobs, ∀ x ∈ js.1.new, Finite x)
    (hdis : jobs.Pairwise (fun a b => ∀ i, ¬ (Covers a i ∧ Covers b i)))
    (hstr : ∀ js ∈ jobs, ∀ i, Covers js i → ¬ Structural t c (i + 1))
    (hocc : ∀ pre js post, jobs = pre ++ js :: post →
      FoundAt fmtE (runGroup fmtE w (pre.map Prod.fst)).1.singleLine js.1 js.2) :
    ∃ text', render fmtE parse ins text k = .ok text' ∧ ∀ file' ed', parse text' = .ok file' → init file' none = .ok ed' →
      ∀ inp ∈ ins, ∀ d, Fits ed0 k inp d → ∀ i r, c.Last i r → r.mt = inp.mt → ¬ LeftOut r.mt → r.mt ≠ 101 ∧ r.mt ≠ 452 →
      ∀ js ∈ jobs, getSigma ed0 r.mt none false = .ok (.arr js.1.base) → getSigma ed r.mt none false = .ok (.arr js.1.new) → PlaceOf t r js.2 →
      getEnergy ed' r.mt = .ok (.arr d.es) ∧ ∃ out, getSigma ed' r.mt none false = .ok (.arr out) ∧ out.length = d.es.length ∧
        ∀ (n : Nat) (e b v : ℚ), d.es[n]? = some e → d.base[n]? = some b → out[n]? = some v → 0 < b →
          (∀ g, InGroup d.high d.maxE d.minE g e → 0 ≤ d.rel g → |v - d.rel g * b| ≤ d.rel g * b / (2 * 10 ^ 11)) ∧
          ((e < d.minE ∨ d.maxE < e) → |v - b| ≤ b / (2 * 10 ^ 11)) := by
  obtain ⟨text', xss', g1, _, g3, g4⟩ := C86_sample_table ht hp hi hs hw hrep jobs hjobs hok hfin hdis hocc
  refine ⟨text', g1, ?_⟩
  have hwf : WellFormed file ed0.temperature := by
    have := C89_well_formed hc hsound hp
    obtain ⟨rs, _, hT⟩ := load_split hp
    rw [hT] at hi
    unfold init Ace.chooseTemperature at hi
    simp only [List.length_cons, List.length_nil] at hi
    cases hi
    exact this
  intro file' ed' hfile' hed' inp hinp d hd i r hlast hmt hout hne js hjs hb hn hplace
  rw [g3] at hfile'
  have h1018 : r.mt ≠ 1018 := hmt ▸ hd.notChi
  obtain ⟨_, q2, out0, q3, q4⟩ := (C87_reload hc g4 hstr hfile' hed').1 i r hlast hout ⟨hne.1, hne.2, h1018⟩ js.2 hplace
  obtain ⟨_, p2, p3⟩ := C78_reactions hc hp hi hlast hout ⟨hne.1, hne.2, h1018⟩
  -- the energies and values of the input are those of the table
  have hes : c.energiesOf r = d.es := by
    have := p2.symm.trans (hmt ▸ hd.energies)
    simpa using this
  have hbase : cleaned r.vals = d.base := by
    have := p3.symm.trans (hmt ▸ hd.values)
    simpa using this
  have hjb : js.1.base = cleaned r.vals := by
    have := hb.symm.trans p3
    simpa using this
  have hjl : js.1.base.length = r.vals.length := by rw [hjb]; simp [cleaned]
  have hnew := q3.1 js hjs rfl hjl ((hok js hjs).1 ▸ hjl)
  obtain ⟨ed1, s1, s2, -⟩ := C34_with_chi hwf hi rfl k ins hfit hnd
  rw [hs] at s1
  cases s1
  obtain ⟨o, ho, hsc⟩ := s2 inp hinp d hd
  have hno : js.1.new = o := by
    have := hn.symm.trans (hmt ▸ ho)
    simpa using this
  refine ⟨by rw [q2, hes], cleaned out0, q4, ?_, ?_⟩
  · rw [hnew]
    simp only [cleaned, List.length_map]
    rw [hno]; exact hsc.1
  · intro n e b v hne' hbn hvn hbpos
    rw [hnew, hno] at hvn
    simp only [cleaned, List.getElem?_map, Option.map_map] at hvn
    cases hon : o[n]? with
    | none => rw [hon] at hvn; cases hvn
    | some x =>
      rw [hon] at hvn
      simp only [Option.map_some, Function.comp, Option.some.injEq] at hvn
      obtain ⟨t1, t2⟩ := hsc.2 n e b x hne' hbn hon
      rw [if_neg hbpos.ne'] at t1 t2
      have hx : Finite x := hfin js hjs x (hno ▸ List.mem_of_getElem? hon)
      have hclose : 0 ≤ x → |v - x| ≤ x / (2 * 10 ^ 11) := by
        intro hx0
        rw [if_neg (not_lt.mpr (rounded_nonneg hx0))] at hvn
        have := (C84_written x hx).2
        rw [hvn] at this
        rwa [abs_of_nonneg hx0] at this
      refine ⟨fun g hg hrel => ?_, fun hg => ?_⟩
      · have e1 := t1 g hg
        rw [← e1]
        exact hclose (by rw [e1]; exact mul_nonneg hrel hbpos.le)
      · have e1 := t2 hg
        rw [← e1]
        exact hclose (by rw [e1]; exact hbpos.le)

end ASAPy.EndToEnd
