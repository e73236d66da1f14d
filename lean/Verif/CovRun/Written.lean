import Verif.CovRun.Applied
import Verif.EndToEnd.Example

/-! # C231: from the groups of the BOXER file to the cross sections of the sampled ACE files -/

namespace ASAPy.CovRun
open ASAPy.WriteAce ASAPy.AceData ASAPy.Str ASAPy.Sampled ASAPy.FromAce ASAPy.MapGroups ASAPy.EndToEnd
open ASAPy.Ace (Editor init getSigma getEnergy WellFormed)

/-- An elementary reaction, nu-bar, or the fission spectrum, with the groups of a tape. -/
def AnyFromTape [ExpLog ℚ] (ed : Editor ℚ) (k : Nat) (inp : Input ℚ) : Prop :=
  (∃ es base rel n e, FromTape ed k inp es base rel n e) ∨ ∃ (chi : Ace.Chi ℚ) (rel : Nat → ℚ) (n : Nat) (e : Nat → ℚ), Ace.getChiDistro ed false = .ok chi ∧ ChiFromTape chi k inp rel n e

theorem sampleable_of [ExpLog ℚ] {ed : Editor ℚ} {k : Nat} {inp : Input ℚ} (h : AnyFromTape ed k inp) : Sampleable ed k inp := by
  rcases h with ⟨es, base, rel, n, e, h⟩ | ⟨chi, rel, n, e, h1, h2⟩
  · exact .inl ⟨_, fits_of h⟩
  · exact .inr ⟨_, _, _, _, _, h1, fitsChi_of h2⟩

/-- **C231.** A sample of an ACE file is written as in C88, with the tables of opened samplers. If the written file can be loaded, its cross section of a sampled reaction at an energy in group `i` of the tape is that of
the original file times the sampled relative value of the row of this group, with a relative error of at most 5e-12; below and above all groups it is that of the original file, with the same error. -/
theorem C231_written [ExpLog ℚ] {t : AceData.Table ℚ} {text : List Char} {hs xss : List (List Char)} (ht : AceText t text hs xss)
    {c : Content ℚ} (hc : FromAce.Holds t c) {file : Ace.Table ℚ} (hp : load t = .ok file) {ed0 ed : Editor ℚ} (hi : init file none = .ok ed0)
    (hsound : c.Sound) {k : Nat} {ins : List (Input ℚ)}
    (hfit : ∀ inp ∈ ins, AnyFromTape ed0 k inp) (hnd : (ins.map (·.mt)).Nodup)
    (hs : sampleMts ed0 k ins = (ed, .ok ())) {w : Writer} (hw : WriteAce.read text = .ok w)
    {groups : List (List (Job ℚ))}
    (hrep : List.Forall₂ (fun mt js => Replaces ed0 ed mt js ∧ (mt = 452 → ∀ j ∈ js, j.maxReplaces = 9999))
      (ed.adjusted.insertionSort (· ≤ ·)) groups)
    (jobs : List (Job ℚ × Nat)) (hjobs : jobs.map Prod.fst = groups.flatten)
    (hok : ∀ js ∈ jobs, js.1.base.length = js.1.new.length ∧ js.1.base ≠ [] ∧ 0 < js.1.maxReplaces)
    (hfin : ∀ js ∈ jobs, ∀ x ∈ js.1.new, Finite x)
    (hdis : jobs.Pairwise (fun a b => ∀ i, ¬ (Covers a i ∧ Covers b i)))
    (hstr : ∀ js ∈ jobs, ∀ i, Covers js i → ¬ Structural t c (i + 1))
    (hocc : ∀ pre js post, jobs = pre ++ js :: post →
      FoundAt fmtE (runGroup fmtE w (pre.map Prod.fst)).1.singleLine js.1 js.2) :
    ∃ text', render fmtE parse ins text k = .ok text' ∧ ∀ file' ed', parse text' = .ok file' → init file' none = .ok ed' →
      ∀ inp ∈ ins, ∀ es base rel n e, FromTape ed0 k inp es base rel n e → ∀ i r, c.Last i r → r.mt = inp.mt → ¬ LeftOut r.mt → r.mt ≠ 101 ∧ r.mt ≠ 452 →
      ∀ js ∈ jobs, getSigma ed0 r.mt none false = .ok (.arr js.1.base) → getSigma ed r.mt none false = .ok (.arr js.1.new) → PlaceOf t r js.2 →
      getEnergy ed' r.mt = .ok (.arr es) ∧ ∃ out, getSigma ed' r.mt none false = .ok (.arr out) ∧ out.length = es.length ∧
        ∀ (j : Nat) (E b v : ℚ), es[j]? = some E → base[j]? = some b → out[j]? = some v → 0 < b →
          (∀ i, 1 ≤ i → i ≤ n → e i < E → E ≤ e (i + 1) → 0 ≤ rel (n + 1 - i) → |v - rel (n + 1 - i) * b| ≤ rel (n + 1 - i) * b / (2 * 10 ^ 11)) ∧
          ((E < e 1 ∨ e (n + 1) < E) → |v - b| ≤ b / (2 * 10 ^ 11)) := by
  obtain ⟨text', h1, h2⟩ := C88_sampled_file ht hc hp hi hsound (fun inp hi => sampleable_of (hfit inp hi)) hnd hs hw hrep jobs hjobs hok hfin hdis hstr hocc
  refine ⟨text', h1, fun file' ed' hp' hi' inp hin es base rel n e h i r hl hmt hlo hne js hjs hb hnew hpl => ?_⟩
  obtain ⟨g1, out, g2, g3, g4⟩ := h2 file' ed' hp' hi' inp hin _ (fits_of h) i r hl hmt hlo hne js hjs hb hnew hpl
  refine ⟨g1, out, g2, g3, fun j E b v hE hbj hv hpos => ?_⟩
  obtain ⟨q1, q2⟩ := g4 j E b v hE hbj hv hpos
  refine ⟨fun i hi hin hlow hhi hrel => q1 (n + 1 - i) (inGroup_row hi hin hlow hhi) hrel, q2⟩

/-! ### A case: the ACE file of `Verif/EndToEnd/Example` and a table of two groups -/

namespace WrittenExample
open ASAPy.EndToEnd.Example

local instance : ExpLog ℚ := ⟨id, id⟩

def bound (i : Nat) : ℚ := if i = 1 then 500000 else if i = 2 then 2000000 else 4000000

noncomputable def rows : List (Load.Row ℝ) := [⟨1, (bound 2 : ℚ), (bound 3 : ℚ), [((1 / 10 : ℚ) : ℝ), ((1 : ℚ) : ℝ)]⟩, ⟨2, (bound 1 : ℚ), (bound 2 : ℚ), [((1 / 10 : ℚ) : ℝ), ((1 : ℚ) : ℝ)]⟩]

noncomputable def cov : List (List ℝ) := [[((1 / 10 : ℚ) : ℝ) * ((1 / 10 : ℚ) : ℝ), 0], [0, ((1 / 10 : ℚ) : ℝ) * ((1 / 10 : ℚ) : ℝ)]]

theorem opened : Opened rows cov 2 bound (fun _ => 1) (fun _ => 1 / 10) (fun i j => if i = j then 1 / 100 else 0) where
  groups := rfl
  rows := by
    intro i hi
    have hd : deviation 1 (1 / 10) = 1 / 10 := by norm_num [deviation]
    have : i = 0 ∨ i = 1 := by omega
    rcases this with rfl | rfl <;> simp only [hd] <;> rfl
  square := ⟨rfl, by simp [cov]⟩
  covariance := by
    intro i j hi hj
    have hd : deviation 1 (1 / 10) = 1 / 10 := by norm_num [deviation]
    simp only [hd]
    have hs : √(((1 / 100 : ℚ) : ℝ)) * √(((1 / 100 : ℚ) : ℝ)) = ((1 / 100 : ℚ) : ℝ) := Real.mul_self_sqrt (by norm_num)
    have hi' : i = 0 ∨ i = 1 := by omega
    have hj' : j = 0 ∨ j = 1 := by omega
    rcases hi' with rfl | rfl <;> rcases hj' with rfl | rfl
    · exact ⟨1, by simp only [if_true]; rw [one_mul, hs], by simp [cov, Load.entry]⟩
    · exact ⟨0, by simp, by simp [cov, Load.entry]⟩
    · exact ⟨0, by simp, by simp [cov, Load.entry]⟩
    · exact ⟨1, by simp only [if_true]; rw [one_mul, hs], by simp [cov, Load.entry]⟩

theorem fromTape : FromTape editor 0 input [2000000, 3000000] [5, 1] (fun g => if g = 1 then 2 else 1 / 2) 2 bound where
  elementary := ⟨by decide, by intro c; simp [input, Ace.Part]⟩
  energies := by decide +kernel
  values := by decide +kernel
  length := rfl
  sample := by
    refine ⟨[(1, 2), (2, 1 / 2)], rfl, ?_⟩
    intro g h1 h2
    have : g = 1 ∨ g = 2 := by omega
    rcases this with rfl | rfl <;> decide +kernel
  table := ⟨_, _, rows, cov, _, _, _, rfl, rfl, rfl, opened⟩
  groups := by
    refine ⟨by decide, fun i h1 h2 => ?_⟩
    have : i = 1 ∨ i = 2 := by omega
    rcases this with rfl | rfl <;> decide +kernel
  noMin := by decide +kernel
  nuVaries := fun h => absurd h (by decide)

/-- All hypotheses of `C231_written` hold. -/
example : ∃ text', render fmtE parse [input] text 0 = .ok text' ∧ ∀ file' ed', parse text' = .ok file' → init file' none = .ok ed' →
    ∃ out, getSigma ed' 102 none false = .ok (.arr out) ∧ out.length = 2 := by
  obtain ⟨text', h1, h2⟩ := C231_written aceText holds load_table init_file sound (k := 0) (ins := [input])
    (fun inp hinp => by rw [List.mem_singleton.mp hinp]; exact .inl ⟨_, _, _, _, _, fromTape⟩) (by simp) sampled_ok read_ok replaces jobs rfl jobs_ok jobs_finite jobs_disjoint
    not_structural occurs
  refine ⟨text', h1, fun file' ed' h3 h4 => ?_⟩
  obtain ⟨_, out, h5, h6, _⟩ := h2 file' ed' h3 h4 input (List.mem_singleton_self _) _ _ _ _ _ fromTape 1 _ last1 rfl (by unfold LeftOut; decide) (by decide)
    (⟨[5, 1], [5 / 2, 2], 1⟩, 45) (by simp [jobs]) (by decide +kernel) (by decide +kernel) ⟨39, by decide +kernel, rfl⟩
  exact ⟨out, h5, h6⟩

end WrittenExample

end ASAPy.CovRun
