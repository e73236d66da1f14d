import Verif.CovRun.Written
import Verif.EndToEnd.ChiExample

/-! # C231: from the groups of the BOXER file to nu-bar and the fission spectra of the sampled ACE files -/

namespace ASAPy.CovRun
open ASAPy.WriteAce ASAPy.AceData ASAPy.Str ASAPy.Sampled ASAPy.FromAce ASAPy.MapGroups ASAPy.EndToEnd
open ASAPy.Ace (Editor init getSigma getEnergy getChiDistro WellFormed Chi)

/-- **C231 (nu-bar).** As `C231_written`, for nu-bar: in the file of the sample it is, at an energy in group `i` of the tape, that of the original file times the sampled relative value of the row of this group, with a
relative error of at most 5e-12; below and above all groups it is that of the original file, with the same error. -/
theorem C231_written_nu [ExpLog ℚ] {t : AceData.Table ℚ} {text : List Char} {hs xss : List (List Char)} (ht : AceText t text hs xss)
    {c : Content ℚ} (hc : FromAce.Holds t c) {file : Ace.Table ℚ} (hp : load t = .ok file) {ed0 ed : Editor ℚ} (hi : init file none = .ok ed0)
    (hsound : c.Sound) {k : Nat} {ins : List (Input ℚ)}
    (hfit : ∀ inp ∈ ins, AnyFromTape ed0 k inp) (hnd : (ins.map (·.mt)).Nodup)
    (hs : sampleMts ed0 k ins = (ed, .ok ())) {w : Writer} (hw : WriteAce.read text = .ok w)
    {groups : List (List (Job ℚ))}
    (hrep : List.Forall₂ (fun mt js => Replaces ed0 ed mt js ∧ (mt = 452 → ∀ j ∈ js, j.maxReplaces = 9999))
      (ed.adjusted.insertionSort (· ≤ ·)) groups)
    (jobs : List (Job ℚ × Nat)) (hjobs : jobs.map Prod.fst = groups.flatten)
    (hok : ∀ js ∈ jobs, js.1.base.length = js.1.new.length ∧ js.1.base ≠ [] ∧ 0 < js.1.maxReplaces)
    (hfin : ∀ js ∈ jobs, ∀ x ∈ js.1.new, Finite x)
    (hdis : jobs.Pairwise (fun a b => ∀ i, ¬ (Covers a i ∧ Covers b i)))
    (hstr : ∀ js ∈ jobs, ∀ i, Covers js i → ¬ Structural t c (i + 1))
    (hocc : ∀ pre js post, jobs = pre ++ js :: post →
      FoundAt fmtE (runGroup fmtE w (pre.map Prod.fst)).1.singleLine js.1 js.2)
    {q : Nat} {r : Entry ℚ} (hlast : c.Last q r) (hmt : r.mt = 18) (hf : IsFission t q) {nu : Tab ℚ} (hn : HoldsNu t c nu) (hvary : ∃ v ∈ nu.values, ∃ w ∈ nu.values, v ≠ w)
    (hfree : ∀ js ∈ jobs, ∀ i, Covers js i → ¬ FissionMark t q (i + 1) ∧ ¬ NuFrame t nu (i + 1)) :
    ∃ text', render fmtE parse ins text k = .ok text' ∧ ∀ file' ed', parse text' = .ok file' → init file' none = .ok ed' →
      ∀ inp ∈ ins, ∀ es base rel n e, FromTape ed0 k inp es base rel n e → inp.mt = 452 →
      ∀ js ∈ jobs, getSigma ed0 452 none false = .ok (.arr js.1.base) → getSigma ed 452 none false = .ok (.arr js.1.new) → NuPlace t nu js.2 →
      (∀ v ∈ js.1.new, 0 ≤ v) → (∃ v ∈ js.1.new.map rounded, ∃ w ∈ js.1.new.map rounded, v ≠ w) →
      getEnergy ed' 452 = .ok (.arr es) ∧ ∃ out, getSigma ed' 452 none false = .ok (.arr out) ∧ out.length = es.length ∧
        ∀ (j : Nat) (E b v : ℚ), es[j]? = some E → base[j]? = some b → out[j]? = some v → 0 < b →
          (∀ i, 1 ≤ i → i ≤ n → e i < E → E ≤ e (i + 1) → |v - rel (n + 1 - i) * b| ≤ rel (n + 1 - i) * b / (2 * 10 ^ 11)) ∧
          ((E < e 1 ∨ e (n + 1) < E) → |v - b| ≤ b / (2 * 10 ^ 11)) := by
  obtain ⟨text', h1, h2⟩ := C233_nu_file ht hc hp hi hsound (fun inp hi => sampleable_of (hfit inp hi)) hnd hs hw hrep jobs hjobs hok hfin hdis hstr hocc hlast hmt hf hn hvary hfree
  refine ⟨text', h1, fun file' ed' hp' hi' inp hin es base rel n e h hm js hjs hb hnew hpl hpos hfl => ?_⟩
  obtain ⟨g1, out, g2, g3, g4⟩ := h2 file' ed' hp' hi' inp hin _ (fits_of h) hm js hjs hb hnew hpl hpos hfl
  refine ⟨g1, out, g2, g3, fun j E b v hE hbj hv hpos => ?_⟩
  obtain ⟨q1, q2⟩ := g4 j E b v hE hbj hv hpos
  exact ⟨fun i hi hin hlow hhi => q1 (n + 1 - i) (inGroup_row hi hin hlow hhi), q2⟩

/-- **C231 (fission spectrum).** As `C231_written`, for the fission spectrum: in the file of the sample each spectrum has, up to one positive factor, at an outgoing energy in group `i` of the tape the density of the original
file times the sampled relative value of the row of this group, with a relative error of at most 5e-12; below and above all groups that of the original file, with the same error. -/
theorem C231_written_chi [ExpLog ℚ] {t : AceData.Table ℚ} {text : List Char} {hs xss : List (List Char)} (ht : AceText t text hs xss)
    {c : Content ℚ} (hc : FromAce.Holds t c) {file : Ace.Table ℚ} (hp : load t = .ok file) {ed0 ed : Editor ℚ} (hi : init file none = .ok ed0)
    (hsound : c.Sound) {k : Nat} {ins : List (Input ℚ)} (hall : ∀ inp ∈ ins, AnyFromTape ed0 k inp) (hnd : (ins.map (·.mt)).Nodup) {inp : Input ℚ} (hin : inp ∈ ins) {chi chi' : Chi ℚ} (hchi : getChiDistro ed0 false = .ok chi) {rel : Nat → ℚ} {n : Nat} {e : Nat → ℚ}
    (hfit : ChiFromTape chi k inp rel n e) (hs : sampleMts ed0 k ins = (ed, .ok ())) (hchi' : getChiDistro ed false = .ok chi') {w : Writer} (hw : WriteAce.read text = .ok w)
    {groups : List (List (Job ℚ))}
    (hrep : List.Forall₂ (fun mt js => Replaces ed0 ed mt js ∧ (mt = 452 → ∀ j ∈ js, j.maxReplaces = 9999))
      (ed.adjusted.insertionSort (· ≤ ·)) groups)
    (jobs : List (Job ℚ × Nat)) (hjobs : jobs.map Prod.fst = groups.flatten)
    (hok : ∀ js ∈ jobs, js.1.base.length = js.1.new.length ∧ js.1.base ≠ [] ∧ 0 < js.1.maxReplaces)
    (hfin : ∀ js ∈ jobs, ∀ x ∈ js.1.new, Finite x)
    (hdis : jobs.Pairwise (fun a b => ∀ i, ¬ (Covers a i ∧ Covers b i)))
    (hstr : ∀ js ∈ jobs, ∀ i, Covers js i → ¬ Structural t c (i + 1))
    (hocc : ∀ pre js post, jobs = pre ++ js :: post →
      FoundAt fmtE (runGroup fmtE w (pre.map Prod.fst)).1.singleLine js.1 js.2)
    {q : Nat} {r : Entry ℚ} (hlast : c.Last q r) (hmt : r.mt = 18) (hf : IsFission t q) (hpr : PromptFirst t c) {incident : List ℚ} {spectra : List (Spectrum ℚ)} (hh : HoldsChi t q incident spectra)
    (hfree : ∀ js ∈ jobs, ∀ i, Covers js i → ¬ FissionMark t q (i + 1) ∧ JXS t 2 ≠ some ((i + 1 : Nat) : Int) ∧ ¬ ChiFrame t q incident spectra (i + 1))
    (hat : ∀ (i : Nat) s (d d' : Ace.Dist ℚ), spectra[i]? = some s → chi.energyOut[i]? = some d → chi'.energyOut[i]? = some d' → ReplacedAt t jobs s d d')
    (hcdf : ∀ d ∈ chi'.energyOut, ∀ v ∈ d.c, 0 ≤ v) :
    ∃ text', render fmtE parse ins text k = .ok text' ∧ ∀ file' ed', parse text' = .ok file' → init file' none = .ok ed' →
      getEnergy ed' 1018 = .ok (.pdfs (chi.energyOut.map (·.x))) ∧ ∃ outs, getSigma ed' 1018 none false = .ok (.pdfs outs) ∧ outs.length = chi.energyOut.length ∧
        ∀ (m : Nat) (d : Ace.Dist ℚ) (out : List ℚ), chi.energyOut[m]? = some d → outs[m]? = some out → out.length = d.x.length ∧ ∃ f : ℚ, 0 < f ∧
          ∀ (j : Nat) (E p v : ℚ), d.x[j]? = some E → d.p[j]? = some p → out[j]? = some v →
            (∀ i, 1 ≤ i → i ≤ n → e i < E → E ≤ e (i + 1) → |v * f - rel (n + 1 - i) * p| ≤ rel (n + 1 - i) * p / (2 * 10 ^ 11)) ∧
            ((E < e 1 ∨ e (n + 1) < E) → |v * f - p| ≤ p / (2 * 10 ^ 11)) := by
  obtain ⟨text', h1, h2⟩ := C233_chi_file ht hc hp hi hsound (fun inp hi => sampleable_of (hall inp hi)) hnd hin hchi (fitsChi_of hfit) hs hchi' hw hrep jobs hjobs hok hfin hdis hstr hocc hlast hmt hf hpr hh hfree hat hcdf
  refine ⟨text', h1, fun file' ed' hp' hi' => ?_⟩
  obtain ⟨g1, outs, g2, g3, g4⟩ := h2 file' ed' hp' hi'
  refine ⟨g1, outs, g2, g3, fun m d out hd ho => ?_⟩
  obtain ⟨k1, f, k2, k3⟩ := g4 m d out hd ho
  refine ⟨k1, f, k2, fun j E p v hE hpj hv => ?_⟩
  obtain ⟨q1, q2⟩ := k3 j E p v hE hpj hv
  exact ⟨fun i hi hin hlow hhi => q1 (n + 1 - i) (inGroup_row hi hin hlow hhi), q2⟩

/-! ### Cases: the ACE files of `Verif/EndToEnd/Nu` and `Verif/EndToEnd/ChiExample`, tables of two groups -/

namespace WrittenExample.Nu
open ASAPy.EndToEnd.Example (editor)
open ASAPy.EndToEnd.Example.Nu (input fits data)

local instance : ExpLog ℚ := ⟨id, id⟩

theorem fromTape : FromTape editor 0 input [1000000, 3000000] [3, 4] (fun g => if g = 1 then 2 else 1 / 2) 2 bound where
  elementary := ⟨by decide, by intro c; simp [input, Ace.Part]⟩
  energies := by decide +kernel
  values := by decide +kernel
  length := rfl
  sample := by
    refine ⟨[(1, 2), (2, 1 / 2)], rfl, ?_⟩
    intro g h1 h2
    have : g = 1 ∨ g = 2 := by omega
    rcases this with rfl | rfl <;> decide +kernel
  table := ⟨_, _, rows, cov, _, _, _, rfl, rfl, rfl, opened⟩
  groups := by
    refine ⟨by decide, fun i h1 h2 => ?_⟩
    have : i = 1 ∨ i = 2 := by omega
    rcases this with rfl | rfl <;> decide +kernel
  noMin := by decide +kernel
  nuVaries := by
    rintro - out ⟨hl, h⟩ ⟨l, c, hf, hc⟩
    cases hf
    match out, hl with
    | [x, y], _ =>
      have e1 := (h 0 1000000 3 x rfl rfl rfl).1 1 (by decide) (by decide) (by norm_num [bound]) (by norm_num [bound])
      have e2 := (h 1 3000000 4 y rfl rfl rfl).1 2 (by decide) (by decide) (by norm_num [bound]) (by norm_num [bound])
      have h1 := hc x (by simp)
      have h2 := hc y (by simp)
      simp at e1 e2
      rw [h1] at e1; rw [h2] at e2
      rw [e1] at e2
      norm_num at e2

open ASAPy.EndToEnd.Example (text aceText holds load_table init_file sound read_ok) in
open ASAPy.EndToEnd.Example.Nu in
/-- All hypotheses of `C231_written_nu` hold. -/
example : ∃ text', render fmtE parse [input] text 0 = .ok text' ∧ ∀ file' ed', parse text' = .ok file' → init file' none = .ok ed' →
    ∃ out, getSigma ed' 452 none false = .ok (.arr out) ∧ out.length = 2 := by
  obtain ⟨text', h1, h2⟩ := C231_written_nu aceText holds load_table init_file sound (k := 0) (ins := [input])
    (fun inp hinp => by rw [List.mem_singleton.mp hinp]; exact .inl ⟨_, _, _, _, _, fromTape⟩) (by simp) sampled_ok read_ok replaces jobs rfl (by decide +kernel)
    (by
      have h : ∀ js ∈ jobs, ∀ x ∈ js.1.new, x = 0 ∨ 1 / 10 ≤ |x| ∧ |x| < 1000 := by decide +kernel
      exact fun js hjs x hx => EndToEnd.Example.finite_of (h js hjs x hx)) (by simp [jobs])
    (fun js hjs i hc => Example.Nu.not_structural (by have := covers hjs hc; omega)) occurs last0 rfl isFission holdsNu (by decide +kernel)
    (fun js hjs i hc => ⟨not_mark (by have := covers hjs hc; omega), not_frame (by have := covers hjs hc; omega)⟩)
  refine ⟨text', h1, fun file' ed' h3 h4 => ?_⟩
  obtain ⟨_, out, h6, h7, _⟩ := h2 file' ed' h3 h4 input (List.mem_singleton_self _) _ _ _ _ _ fromTape rfl
    (⟨[3, 4], [3 / 2, 8], 9999⟩, 28) (by simp [jobs]) (by decide +kernel) (by decide +kernel) ⟨16, 7, e2, x16, rfl⟩ (by decide +kernel) (by decide +kernel)
  exact ⟨out, h6, h7⟩

end WrittenExample.Nu

namespace WrittenExample.Spectrum
open ASAPy.EndToEnd.ChiExample

local instance : ExpLog ℚ := ⟨id, id⟩

def bound (i : Nat) : ℚ := if i = 1 then 500 else if i = 2 then 1000000 else 5000000

noncomputable def rows : List (Load.Row ℝ) := [⟨1, (bound 2 : ℚ), (bound 3 : ℚ), [((1 / 10 : ℚ) : ℝ), ((1 : ℚ) : ℝ)]⟩, ⟨2, (bound 1 : ℚ), (bound 2 : ℚ), [((1 / 10 : ℚ) : ℝ), ((1 : ℚ) : ℝ)]⟩]

theorem opened : Opened rows cov 2 bound (fun _ => 1) (fun _ => 1 / 10) (fun i j => if i = j then 1 / 100 else 0) where
  groups := rfl
  rows := by
    intro i hi
    have hd : deviation 1 (1 / 10) = 1 / 10 := by norm_num [deviation]
    have : i = 0 ∨ i = 1 := by omega
    rcases this with rfl | rfl <;> simp only [hd] <;> rfl
  square := WrittenExample.opened.square
  covariance := WrittenExample.opened.covariance

theorem chiFromTape : ChiFromTape chi 0 input (fun g => if g = 1 then 2 else 1 / 2) 2 bound where
  mt := rfl
  sample := by
    refine ⟨[(1, 2), (2, 1 / 2)], rfl, ?_⟩
    intro g h1 h2
    have : g = 1 ∨ g = 2 := by omega
    rcases this with rfl | rfl <;> decide +kernel
  table := ⟨_, _, rows, cov, _, _, _, rfl, rfl, rfl, opened⟩
  groups := by
    refine ⟨by decide, fun i h1 h2 => ?_⟩
    have : i = 1 ∨ i = 2 := by omega
    rcases this with rfl | rfl <;> decide +kernel
  nonempty := by simp [chi]
  dists := by
    intro d hd
    simp only [chi, List.mem_cons, List.not_mem_nil, or_false] at hd
    rcases hd with rfl | rfl
    · exact ⟨⟨rfl, rfl, by simp⟩, by decide +kernel, by decide +kernel, by decide +kernel, by decide +kernel, 0, 1 / 2000000, rfl, by norm_num⟩
    · exact ⟨⟨rfl, rfl, by simp⟩, by decide +kernel, by decide +kernel, by decide +kernel, by decide +kernel, 0, 1 / 4000000, rfl, by norm_num⟩

/-- All hypotheses of `C231_written_chi` hold. -/
example : ∃ text', render fmtE parse [input] text 0 = .ok text' ∧ ∀ file' ed', parse text' = .ok file' → init file' none = .ok ed' →
    ∃ outs, getSigma ed' 1018 none false = .ok (.pdfs outs) ∧ outs.length = 2 := by
  obtain ⟨text', h1, h2⟩ := C231_written_chi aceText holds load_table init_file sound (fun inp hinp => by rw [List.mem_singleton.mp hinp]; exact .inr ⟨_, _, _, _, chi_ok, chiFromTape⟩) (by simp) (List.mem_singleton_self _) chi_ok chiFromTape sampled_ok chi'_ok read_ok replaces jobs rfl (by decide +kernel) jobs_finite jobs_disjoint
    (fun js hjs i hc => not_structural (by have := covers hjs hc; omega)) occurs last0 rfl isFission promptFirst holdsChi
    (fun js hjs i hc => ⟨not_mark (by have := covers hjs hc; omega), by rw [e2]; have := covers hjs hc; simp only [ne_eq, Option.some.injEq]; omega,
      not_chiFrame (by have := covers hjs hc; omega)⟩) replacedAt (by decide +kernel)
  refine ⟨text', h1, fun file' ed' h3 h4 => ?_⟩
  obtain ⟨_, outs, h6, h7, -⟩ := h2 file' ed' h3 h4
  exact ⟨outs, h6, h7⟩

end WrittenExample.Spectrum

end ASAPy.CovRun
