import Verif.CovRun.Sampled
import Verif.Sampled.Chi

/-!
# C231: the groups of the BOXER file in the sampled cross sections

The table of an opened sampler in the hands of `sample_mts` (`Verif/Sampled`, ASAPy/XsecSampler.py 735-763).
-/

namespace ASAPy.CovRun
open ASAPy.Ace ASAPy.MapGroups ASAPy.Sampled

section
variable [ExpLog ℚ]

/-! ### Specification -/

/-- The values `out` are the cross sections (or nu-bar) `base` times the relative value of the row of the group `i` of the tape in which each energy lies, above its lower and up to its upper bound; below and above
all groups they are those of `base`. A value of zero counts as one (see C34). -/
def TapeScaled (es base : List ℚ) (rel : Nat → ℚ) (n : Nat) (e : Nat → ℚ) (out : List ℚ) : Prop :=
  out.length = es.length ∧ ∀ (j : Nat) (E b o : ℚ), es[j]? = some E → base[j]? = some b → out[j]? = some o →
    (∀ i, 1 ≤ i → i ≤ n → e i < E → E ≤ e (i + 1) → o = rel (n + 1 - i) * (if b = 0 then 1 else b)) ∧ (E < e 1 ∨ e (n + 1) < E → o = if b = 0 then 1 else b)

/-- The table of `inp` is that of an opened sampler with the `n` groups of the tape between the bounds `e`. -/
def TapeTable (inp : Input ℚ) (n : Nat) (e : Nat → ℚ) : Prop :=
  ∃ high low sd cov x s v, inp.bounds = .ok (high, low) ∧ high.map (fun q : ℚ => (q : ℝ)) = sd.map Load.Row.hi ∧ low.map (fun q : ℚ => (q : ℝ)) = sd.map Load.Row.lo ∧ Opened sd cov n e x s v

/-- The data of an elementary reaction or of nu-bar that enter sample `k`: the energies `es` and cross sections `base` of the ACE file, the relative values `rel` of the groups, counted from the highest, and
the bounds in the table of the sampler, which are those of the `n` groups of the tape. No energy of the file is the lowest bound (see C28); a sampled nu-bar
does not have the same value at all energies (see `C01_flat_refuted`). -/
structure FromTape (ed : Editor ℚ) (k : Nat) (inp : Input ℚ) (es base : List ℚ) (rel : Nat → ℚ) (n : Nat) (e : Nat → ℚ) : Prop where
  elementary : inp.mt ≠ 1018 ∧ ∀ c, ¬ Part inp.mt c
  energies : getEnergy ed inp.mt = .ok (.arr es)
  values : getSigma ed inp.mt none false = .ok (.arr base)
  length : base.length = es.length
  sample : ∃ col, inp.cols[k]? = some col ∧ ∀ g, 1 ≤ g → g ≤ n → col.get (g : Int) = some (rel g)
  table : TapeTable inp n e
  groups : 0 < n ∧ ∀ i, 1 ≤ i → i ≤ n → e i < e (i + 1)
  noMin : e 1 ∉ es
  nuVaries : inp.mt = 452 → ∀ out, TapeScaled es base rel n e out → ¬ Flat (.arr out)

/-! ### Proofs -/

theorem Opened.high {sd : List (Load.Row ℝ)} {cov : List (List ℝ)} {n : Nat} {e x s : Nat → ℚ} {v : Nat → Nat → ℚ} (ho : Opened sd cov n e x s v) {high : List ℚ}
    (h : high.map (fun q : ℚ => (q : ℝ)) = sd.map Load.Row.hi) : high = (List.range n).map fun i => e (n + 1 - i) := by
  apply List.map_injective_iff.2 (Rat.cast_injective (α := ℝ))
  rw [h]
  apply List.ext_getElem?
  intro i
  by_cases hi : i < n
  · rw [List.getElem?_map, ho.rows i hi]
    simp [hi]
  · rw [List.getElem?_eq_none (by simp [ho.groups]; omega), List.getElem?_eq_none (by simp; omega)]

theorem Opened.low {sd : List (Load.Row ℝ)} {cov : List (List ℝ)} {n : Nat} {e x s : Nat → ℚ} {v : Nat → Nat → ℚ} (ho : Opened sd cov n e x s v) {low : List ℚ}
    (h : low.map (fun q : ℚ => (q : ℝ)) = sd.map Load.Row.lo) : low = (List.range n).map fun i => e (n - i) := by
  apply List.map_injective_iff.2 (Rat.cast_injective (α := ℝ))
  rw [h]
  apply List.ext_getElem?
  intro i
  by_cases hi : i < n
  · rw [List.getElem?_map, ho.rows i hi]
    simp [hi]
  · rw [List.getElem?_eq_none (by simp [ho.groups]; omega), List.getElem?_eq_none (by simp; omega)]

theorem increasing {n : Nat} {e : Nat → ℚ} (h : ∀ i, 1 ≤ i → i ≤ n → e i < e (i + 1)) {i j : Nat} (hi : 1 ≤ i) (hij : i < j) (hj : j ≤ n + 1) : e i < e j := by
  induction j, hij using Nat.le_induction with
  | base => exact h i hi (by omega)
  | succ j hij ih => exact (ih (by omega)).trans (h j (by omega) (by omega))

/-- The groups of the table are those of the tape, from the highest on. -/
theorem inGroup_tape {n : Nat} {e : Nat → ℚ} {g : Nat} {E : ℚ} (hg : 1 ≤ g) (hn : g ≤ n) (h1 : e (n + 1 - g) < E) (h2 : E ≤ e (n + 2 - g)) :
    InGroup ((List.range n).map fun i => e (n + 1 - i)) (e (n + 1)) (e 1) g E := by
  refine ⟨hg, by simpa using hn, ⟨_, ?_, h1⟩, ⟨_, ?_, h2⟩⟩
  · by_cases h : g = n
    · left
      simp [h]
    · right
      refine ⟨by simp; omega, ?_⟩
      simp [show g < n by omega]
  · by_cases h : g = 1
    · left
      simp [h]
    · right
      refine ⟨by omega, ?_⟩
      simp only [List.getElem?_map, List.getElem?_range (show g - 1 < n by omega), Option.map_some]
      congr 2
      omega

/-- The groups of the table as `map_groups_to_continuous` needs them. -/
theorem tape_groups {inp : Input ℚ} {n : Nat} {e : Nat → ℚ} (ht : TapeTable inp n e) (hn : 0 < n) (hg : ∀ i, 1 ≤ i → i ≤ n → e i < e (i + 1)) :
    (∃ low, inp.bounds = .ok ((List.range n).map fun i => e (n + 1 - i), low) ∧ IsLeast {x | x ∈ low} (e 1)) ∧ IsGreatest {x | x ∈ (List.range n).map fun i => e (n + 1 - i)} (e (n + 1)) ∧
      Usable ((List.range n).map fun i => e (n + 1 - i)) (e (n + 1)) (e 1) := by
  obtain ⟨high, low, sd, cov, x, s, v, hb, hh, hl, ho⟩ := ht
  obtain rfl := ho.high hh
  obtain rfl := ho.low hl
  have hinc := fun {i j : Nat} => increasing (i := i) (j := j) hg
  refine ⟨⟨_, hb, ?_, ?_⟩, ⟨List.mem_map.2 ⟨0, List.mem_range.2 hn, rfl⟩, ?_⟩, ?_⟩
  · exact List.mem_map.2 ⟨n - 1, List.mem_range.2 (by omega), by congr 1; omega⟩
  · intro q hq
    obtain ⟨i, hi, rfl⟩ := List.mem_map.1 hq
    have hi := List.mem_range.1 hi
    by_cases h1 : n - i = 1
    · rw [h1]
    · exact (hinc (by omega) (by omega) (by omega)).le
  · intro q hq
    obtain ⟨i, hi, rfl⟩ := List.mem_map.1 hq
    have hi := List.mem_range.1 hi
    by_cases h1 : i = 0
    · rw [h1]; rfl
    · exact (hinc (by omega) (by omega) (by omega)).le
  · exact {
      nonempty := by simp; omega
      decreasing := by
        refine List.pairwise_map.2 (List.pairwise_lt_range.imp_of_mem ?_)
        intro i j hi hj hij
        have := List.mem_range.1 hj
        exact hinc (by omega) (by omega) (by omega)
      min_below := by
        intro q hq
        obtain ⟨i, hi, rfl⟩ := List.mem_map.1 hq
        have hi := List.mem_range.1 hi
        exact hinc (by omega) (by omega) (by omega)
      max_above := by
        intro q hq
        obtain ⟨i, hi, rfl⟩ := List.mem_map.1 hq
        have hi := List.mem_range.1 hi
        by_cases h1 : i = 0
        · rw [h1]; rfl
        · exact (hinc (by omega) (by omega) (by omega)).le }

/-- Row `n + 1 - i` of the table is group `i` of the tape. -/
theorem inGroup_row {n : Nat} {e : Nat → ℚ} {i : Nat} {E : ℚ} (hi : 1 ≤ i) (hn : i ≤ n) (h1 : e i < E) (h2 : E ≤ e (i + 1)) :
    InGroup ((List.range n).map fun i => e (n + 1 - i)) (e (n + 1)) (e 1) (n + 1 - i) E := by
  refine inGroup_tape (by omega) (by omega) ?_ ?_
  · rwa [show n + 1 - (n + 1 - i) = i by omega]
  · rwa [show n + 2 - (n + 1 - i) = i + 1 by omega]

theorem tapeScaled_of {es base out : List ℚ} {rel : Nat → ℚ} {n : Nat} {e : Nat → ℚ} (h : Scaled ⟨es, base, rel, (List.range n).map fun i => e (n + 1 - i), e 1, e (n + 1)⟩ out) :
    TapeScaled es base rel n e out :=
  ⟨h.1, fun j E b o hE hb ho => ⟨fun _ hi hin hlo hhi => (h.2 j E b o hE hb ho).1 _ (inGroup_row hi hin hlo hhi), (h.2 j E b o hE hb ho).2⟩⟩

theorem fits_of {ed : Editor ℚ} {k : Nat} {inp : Input ℚ} {es base : List ℚ} {rel : Nat → ℚ} {n : Nat} {e : Nat → ℚ} (h : FromTape ed k inp es base rel n e) :
    Fits ed k inp ⟨es, base, rel, (List.range n).map fun i => e (n + 1 - i), e 1, e (n + 1)⟩ where
  notChi := h.elementary.1
  elementary := h.elementary.2
  energies := h.energies
  values := h.values
  length := h.length
  sample := by simpa using h.sample
  bounds := (tape_groups h.table h.groups.1 h.groups.2).1
  max := (tape_groups h.table h.groups.1 h.groups.2).2.1
  usable := (tape_groups h.table h.groups.1 h.groups.2).2.2
  noMin := h.noMin
  nuVaries := fun h' out ho => h.nuVaries h' out (tapeScaled_of ho)

variable {file : Table ℚ} {T : Temp}

/-- **C231.** Sampling with the tables of opened samplers: for any number of different elementary reactions (and nu-bar), the cross section that the editor has afterwards at an energy in group `i` of the tape, above its
lower and up to its upper bound, is that of the file times the sampled relative value of the row of this group; below and above all groups it is that of the file. A cross section of zero counts as one
(see C34). -/
theorem C231_applied (hf : WellFormed file T) {ed0 : Editor ℚ} (h0 : init file none = .ok ed0) (hT : ed0.temperature = T) (k : Nat) (ins : List (Input ℚ))
    (hfit : ∀ inp ∈ ins, ∃ es base rel n e, FromTape ed0 k inp es base rel n e) (hnd : (ins.map (·.mt)).Nodup) :
    ∃ ed, sampleMts ed0 k ins = (ed, .ok ()) ∧
      ∀ inp ∈ ins, ∀ es base rel n e, FromTape ed0 k inp es base rel n e → ∃ out, getSigma ed inp.mt none false = .ok (.arr out) ∧ TapeScaled es base rel n e out := by
  obtain ⟨ed, h1, h2⟩ := C34_sampled_values_partial hf h0 hT k ins (fun inp hi => by
    obtain ⟨es, base, rel, n, e, h⟩ := hfit inp hi
    exact ⟨_, fits_of h⟩) hnd
  refine ⟨ed, h1, fun inp hi es base rel n e h => ?_⟩
  obtain ⟨out, g1, g2⟩ := h2 inp hi _ (fits_of h)
  exact ⟨out, g1, tapeScaled_of g2⟩

/-- The data of the fission spectrum that enter sample `k`: relative values `rel` of the rows, which are positive; the groups of the tape; distributions with as many pdf and cdf values as energies, increasing
energies of which none is the lowest bound, no negative pdf values, a positive one after the first energy, and cdfs that end in the integral by right rectangles. -/
structure ChiFromTape (chi : Chi ℚ) (k : Nat) (inp : Input ℚ) (rel : Nat → ℚ) (n : Nat) (e : Nat → ℚ) : Prop where
  mt : inp.mt = 1018
  sample : ∃ col, inp.cols[k]? = some col ∧ ∀ g, 1 ≤ g → g ≤ n → col.get (g : Int) = some (rel g) ∧ 0 < rel g
  table : TapeTable inp n e
  groups : 0 < n ∧ ∀ i, 1 ≤ i → i ≤ n → e i < e (i + 1)
  nonempty : chi.energyOut ≠ []
  dists : ∀ d ∈ chi.energyOut, d.Shaped ∧ (∀ v ∈ d.p, 0 ≤ v) ∧ e 1 ∉ d.x ∧ d.x.Pairwise (· < ·) ∧ d.c.getLast? = some (rightSum d.x d.p) ∧ ∃ (j : Nat) (v : ℚ), d.p[j + 1]? = some v ∧ 0 < v

theorem fitsChi_of {chi : Chi ℚ} {k : Nat} {inp : Input ℚ} {rel : Nat → ℚ} {n : Nat} {e : Nat → ℚ} (h : ChiFromTape chi k inp rel n e) :
    FitsChi chi k inp ((List.range n).map fun i => e (n + 1 - i)) (e (n + 1)) (e 1) rel := by
  obtain ⟨hb, hm, hu⟩ := tape_groups h.table h.groups.1 h.groups.2
  obtain ⟨col, hc, hrel⟩ := h.sample
  exact {
    mt := h.mt
    sample := ⟨col, hc, fun g h1 h2 => ⟨(hrel g h1 (by simpa using h2)).1, (hrel g h1 (by simpa using h2)).2.le⟩⟩
    bounds := hb
    max := hm
    usable := hu
    some := h.nonempty
    dists := fun d hd => by
      obtain ⟨h1, h2, h3, h4, h5, h6⟩ := h.dists d hd
      exact ⟨h1, h2, h3, fun q hq => (C232_norm hu (fun g g1 g2 => (hrel g g1 (by simpa using g2)).2) h1 h2 h3 h4 h5 h6 hq).2⟩ }

/-- **C231 for the fission spectrum.** Sampling chi with the table of an opened sampler succeeds. Afterwards every distribution has its energies, a cdf that ends in one, and the pdf of the file times the relative value of
the row of the group of the tape in which each outgoing energy lies (times one below and above all groups), divided by one positive number. -/
theorem C231_chi (hf : WellFormed file T) {ed : Editor ℚ} (hr : Reachable file T ed) {chi : Chi ℚ} (hchi : getChiDistro ed false = .ok chi) {k : Nat} {inp : Input ℚ} {rel : Nat → ℚ} {n : Nat} {e : Nat → ℚ}
    (h : ChiFromTape chi k inp rel n e) :
    ∃ (ed' : Editor ℚ) (chi' : Chi ℚ), sampleMt ed k inp = (ed', .ok ()) ∧ getChiDistro ed' false = .ok chi' ∧ chi'.energyIn = chi.energyIn ∧ chi'.energyOut.length = chi.energyOut.length ∧
      ∀ (i : Nat) (d : Ace.Dist ℚ), chi.energyOut[i]? = some d → ∃ (d' : Ace.Dist ℚ) (c : ℚ), chi'.energyOut[i]? = some d' ∧ d'.x = d.x ∧ d'.p.length = d.x.length ∧ d'.c.getLast? = some 1 ∧ 0 < c ∧
        ∀ (j : Nat) (E p p' : ℚ), d.x[j]? = some E → d.p[j]? = some p → d'.p[j]? = some p' →
          (∀ m, 1 ≤ m → m ≤ n → e m < E → E ≤ e (m + 1) → p' * c = rel (n + 1 - m) * p) ∧ (E < e 1 ∨ e (n + 1) < E → p' * c = p) := by
  obtain ⟨ed', chi', h1, -, h2, h3, h4, h5, -⟩ := C232_chi hf hr hchi (fitsChi_of h)
  refine ⟨ed', chi', h1, h2, h3, h4, fun i d hd => ?_⟩
  obtain ⟨d', c, g1, g2, g3, g4, g5, g6⟩ := h5 i d hd
  refine ⟨d', c, g1, g2, by simpa using g5, g3, g4, fun j E p p' hE hp hp' => ?_⟩
  obtain ⟨q1, q2⟩ := g6 j E p (p' * c) hE hp (by simp [hp'])
  exact ⟨fun m hm1 hm2 hlo hhi => q1 _ (inGroup_row hm1 hm2 hlo hhi), q2⟩

end

/-! ### A case -/

section
local instance : ExpLog ℚ := ⟨id, id⟩

/-- Capture with the two groups of the tape of `cap_stored`, and the relative values 2 and 1/2. -/
def capInput : Input ℚ := ⟨102, [[(1, 2), (2, 1/2)]], .ok ([10000000, 1], [1, 1 / 100000])⟩

theorem cap_table : TapeTable capInput 2 fun i => (Boxr.printF (capE i)).value := by
  obtain ⟨p, -, hp⟩ := cap_opened (fun _ => [])
  refine ⟨_, _, p.1, Store.calcCov p, _, _, _, rfl, ?_, ?_, hp⟩
  · have h : p.1.map Load.Row.hi = [(((Boxr.printF (capE 3)).value : ℚ) : ℝ), ((Boxr.printF (capE 2)).value : ℚ)] := by
      apply List.ext_getElem?
      intro i
      have hl := hp.groups
      match i with
      | 0 => rw [List.getElem?_map, hp.rows 0 (by decide)]; rfl
      | 1 => rw [List.getElem?_map, hp.rows 1 (by decide)]; rfl
      | i + 2 => rw [List.getElem?_eq_none (by simp [hl])]; rfl
    rw [h, show (Boxr.printF (capE 3)).value = 10000000 by decide +kernel, show (Boxr.printF (capE 2)).value = 1 by decide +kernel]
    rfl
  · have h : p.1.map Load.Row.lo = [(((Boxr.printF (capE 2)).value : ℚ) : ℝ), ((Boxr.printF (capE 1)).value : ℚ)] := by
      apply List.ext_getElem?
      intro i
      have hl := hp.groups
      match i with
      | 0 => rw [List.getElem?_map, hp.rows 0 (by decide)]; rfl
      | 1 => rw [List.getElem?_map, hp.rows 1 (by decide)]; rfl
      | i + 2 => rw [List.getElem?_eq_none (by simp [hl])]; rfl
    rw [h, show (Boxr.printF (capE 2)).value = 1 by decide +kernel, show (Boxr.printF (capE 1)).value = 1 / 100000 by decide +kernel]
    rfl

theorem cap_fromTape : FromTape demoEd 0 capInput [1, 2, 3] [30, 31, 32] (fun g => if g = 1 then 2 else 1/2) 2 (fun i => (Boxr.printF (capE i)).value) where
  elementary := ⟨by decide, by intro c; simp [capInput, Ace.Part]⟩
  energies := by decide +kernel
  values := by decide +kernel
  length := rfl
  sample := by
    refine ⟨[(1, 2), (2, 1/2)], rfl, ?_⟩
    intro g h1 h2
    have : g = 1 ∨ g = 2 := by omega
    rcases this with rfl | rfl <;> decide +kernel
  table := cap_table
  groups := by
    refine ⟨by decide, fun i h1 h2 => ?_⟩
    have : i = 1 ∨ i = 2 := by omega
    rcases this with rfl | rfl <;> decide +kernel
  noMin := by decide +kernel
  nuVaries := fun h => absurd h (by decide)

/-- The energy of 1 eV is in the lower group, the others in the upper one. -/
example : ∃ ed, sampleMts demoEd 0 [capInput] = (ed, .ok ()) ∧ getSigma ed 102 none false = .ok (.arr [15, 62, 64]) := by
  obtain ⟨ed, h1, -⟩ := C231_applied demo_wf demo_open rfl 0 [capInput] (by
    intro inp hi
    rw [List.mem_singleton.1 hi]
    exact ⟨_, _, _, _, _, cap_fromTape⟩) (by simp)
  refine ⟨ed, h1, ?_⟩
  have : ed = (sampleMts demoEd 0 [capInput]).1 := by rw [h1]
  rw [this]
  decide +kernel

/-- The spectrum of the example file with the same table. -/
theorem cap_chi : ChiFromTape ⟨true, [1, 2], [chiDist, chiDist]⟩ 0 { capInput with mt := 1018 } (fun g => if g = 1 then 2 else 1/2) 2 (fun i => (Boxr.printF (capE i)).value) where
  mt := rfl
  sample := by
    refine ⟨[(1, 2), (2, 1/2)], rfl, ?_⟩
    intro g h1 h2
    have : g = 1 ∨ g = 2 := by omega
    rcases this with rfl | rfl <;> decide +kernel
  table := cap_table
  groups := cap_fromTape.groups
  nonempty := by simp
  dists := by
    intro d hd
    simp only [List.mem_cons, List.not_mem_nil, or_false, or_self] at hd
    subst hd
    exact ⟨⟨rfl, rfl, by simp [chiDist]⟩, by decide +kernel, by decide +kernel, by decide +kernel, by decide +kernel, ⟨0, 1/2, rfl, by norm_num⟩⟩

/-- The energies 0, 1, 2: below the groups, in the lower group, in the upper one. -/
example : ∃ ed, sampleMt demoEd 0 { capInput with mt := 1018 } = (ed, .ok ()) ∧ getSigma ed 1018 none false = .ok (.pdfs [[2/5, 1/5, 4/5], [2/5, 1/5, 4/5]]) := by
  obtain ⟨ed, chi', h1, -⟩ := C231_chi demo_wf (demo_reachable []) rfl cap_chi
  refine ⟨ed, h1, ?_⟩
  have : ed = (sampleMt demoEd 0 { capInput with mt := 1018 }).1 := (congrArg Prod.fst h1).symm
  rw [this]
  decide +kernel

/-- Nu-bar of the example file, 2 at 1 eV and 3 at 3 eV, with the same table: 1 and 6. -/
theorem cap_nu : FromTape demoEd 0 { capInput with mt := 452 } [1, 3] [2, 3] (fun g => if g = 1 then 2 else 1/2) 2 (fun i => (Boxr.printF (capE i)).value) where
  elementary := ⟨by decide, by intro c; simp [Ace.Part]⟩
  energies := by decide +kernel
  values := by decide +kernel
  length := rfl
  sample := cap_fromTape.sample
  table := cap_table
  groups := cap_fromTape.groups
  noMin := by decide +kernel
  nuVaries := by
    rintro - out ⟨hl, ho⟩
    match out, hl with
    | [a, b], _ =>
      have h1 := (ho 0 1 2 a rfl rfl rfl).1 1 (by decide) (by decide) (by decide +kernel) (by decide +kernel)
      have h2 := (ho 1 3 3 b rfl rfl rfl).1 2 (by decide) (by decide) (by decide +kernel) (by decide +kernel)
      norm_num at h1 h2
      subst h1
      subst h2
      rintro ⟨l, c, h, hc⟩
      cases h
      have e1 := hc 1 (by simp)
      have e2 := hc 6 (by simp)
      norm_num [← e1] at e2

end

end ASAPy.CovRun
