import Verif.Editor.Props
import Mathlib.Algebra.Order.BigOperators.Group.List
import Mathlib.Tactic.Linarith

/-!
# C12, C13: setting the fission spectrum
-/

set_option linter.unusedSectionVars false
set_option linter.unusedSimpArgs false

namespace ASAPy.Ace

variable {K : Type*} [Field K] [LinearOrder K] [ExpLog K]
variable {ed ed' : Editor K}

/-! ### Vocabulary -/

/-- One pdf value and one cdf value per energy point, at least one point. -/
def Dist.Shaped (d : Dist K) : Prop := d.p.length = d.x.length ∧ d.c.length = d.x.length ∧ d.x ≠ []

/-- The integral of a tabulated pdf by right rectangles: the sum of `p_i (x_i - x_{i-1})`. -/
def rightSum : List K → List K → K
  | x0 :: x1 :: xs, _ :: p1 :: ps => p1 * (x1 - x0) + rightSum (x1 :: xs) (p1 :: ps)
  | _, _ => 0

/-- The cdf of a pdf by right rectangles, starting from `c0`. -/
def rightCdf (c0 : K) : List K → List K → List K
  | [], _ => []
  | [_], _ => [c0]
  | x0 :: x1 :: xs, p => match p with
    | p0 :: p1 :: ps => c0 :: rightCdf (c0 + p1 * (x1 - x0)) (x1 :: xs) (p1 :: ps)
    | _ => []

/-- The factor by which the code divides: the last value of the old cdf plus the change of the integral. -/
def chiNorm (d : Dist K) (pdf : List K) : K :=
  d.c.getLast?.getD 0 + (rightSum d.x pdf - rightSum d.x d.p)

/-! ### Lemmas on the arithmetic of the code -/

theorem bcast_eq {f : K → K → K} {a b : List K} (h : a.length = b.length) :
    bcast f a b = .ok (List.zipWith f a b) := by
  unfold bcast; rw [if_pos h]

theorem length_deltas {x : List K} (hx : x ≠ []) : (deltas x).length = x.length := by
  cases x with
  | nil => exact absurd rfl hx
  | cons a x => simp [deltas]

theorem length_prefixSums (l : List K) : (prefixSums l).length = l.length := by simp [prefixSums]

theorem getLast_prefixSums {l : List K} (hl : l ≠ []) : (prefixSums l).getLast? = some l.sum := by
  have hn : l.length ≠ 0 := fun h => hl (List.length_eq_zero_iff.mp h)
  unfold prefixSums
  rw [List.getLast?_eq_getElem?]
  simp only [List.length_map, List.length_range]
  rw [List.getElem?_map, List.getElem?_range (by omega)]
  simp only [Option.map_some, Option.some.injEq]
  rw [List.take_of_length_le (by omega)]

/-- The change of the right-rectangle integral. -/
theorem sum_delta (x : List K) : ∀ (p q : List K), p.length = x.length → q.length = x.length →
    (List.zipWith (· * ·) (List.zipWith (· - ·) q p) (deltas x)).sum = rightSum x q - rightSum x p := by
  have gen : ∀ (x : List K) (x0 : K) (p q : List K), p.length = x.length → q.length = x.length →
      (List.zipWith (· * ·) (List.zipWith (· - ·) q p) (List.zipWith (fun b a => b - a) x (x0 :: x))).sum =
        rightSum (x0 :: x) (0 :: q) - rightSum (x0 :: x) (0 :: p) := by
    intro x
    induction x with
    | nil => intro x0 p q hp hq; simp [rightSum]
    | cons x1 x ih =>
      intro x0 p q hp hq
      cases p with
      | nil => simp at hp
      | cons p1 p =>
        cases q with
        | nil => simp at hq
        | cons q1 q =>
          have := ih x1 p q (by simpa using hp) (by simpa using hq)
          simp only [List.zipWith_cons_cons, List.sum_cons, this, rightSum]
          have hr : ∀ (r : K) (l : List K), rightSum (x1 :: x) (r :: l) = rightSum (x1 :: x) (0 :: l) := by
            intro r l
            cases x <;> cases l <;> simp [rightSum]
          rw [hr q1 q, hr p1 p]
          ring
  intro p q hp hq
  cases x with
  | nil => simp at hp hq; subst hp; subst hq; simp [rightSum]
  | cons x0 x =>
    cases p with
    | nil => simp at hp
    | cons p0 p =>
      cases q with
      | nil => simp at hq
      | cons q0 q =>
        have := gen x x0 p q (by simpa using hp) (by simpa using hq)
        have hr : ∀ (r : K) (l : List K), rightSum (x0 :: x) (r :: l) = rightSum (x0 :: x) (0 :: l) := by
          intro r l
          cases x <;> cases l <;> simp [rightSum]
        simp only [deltas, List.tail_cons, List.zipWith_cons_cons, mul_zero, List.sum_cons, zero_add, this]
        rw [hr q0 q, hr p0 p]

/-- What the loop body of `set_chi_distro` does to a well-shaped distribution given a pdf of the right length. -/
theorem setDist_eq {d : Dist K} (hd : d.Shaped) {pdf : List K} (hpdf : pdf.length = d.x.length) :
    setDist d pdf =
      let c := (List.zipWith (· + ·) d.c
        (prefixSums (List.zipWith (· * ·) (List.zipWith (· - ·) pdf d.p) (deltas d.x)))).map (· / chiNorm d pdf)
      if (pdf.map (· / chiNorm d pdf)).any (fun v => decide (v < 0)) then ({ d with c := c }, .error .valueError)
      else ({ x := d.x, c := c, p := pdf.map (· / chiNorm d pdf) }, .ok ()) := by
  obtain ⟨hp, hc, hx⟩ := hd
  have h1 : bcast (· - ·) pdf d.p = .ok (List.zipWith (· - ·) pdf d.p) := bcast_eq (by omega)
  have hn : d.x.length ≠ 0 := fun h => hx (List.length_eq_zero_iff.mp h)
  have h2 : bcast (· * ·) (List.zipWith (· - ·) pdf d.p) (deltas d.x) =
      .ok (List.zipWith (· * ·) (List.zipWith (· - ·) pdf d.p) (deltas d.x)) :=
    bcast_eq (by rw [length_deltas hx, List.length_zipWith]; omega)
  set dc := List.zipWith (· * ·) (List.zipWith (· - ·) pdf d.p) (deltas d.x) with hdc
  have hdcl : dc.length = d.x.length := by
    rw [hdc, List.length_zipWith, length_deltas hx, List.length_zipWith]; omega
  have hdcne : dc ≠ [] := by intro h; rw [h] at hdcl; simp at hdcl; omega
  have hcne : d.c ≠ [] := by intro h; rw [h] at hc; simp at hc; omega
  have h3 : bcast (· + ·) d.c (prefixSums dc) = .ok (List.zipWith (· + ·) d.c (prefixSums dc)) :=
    bcast_eq (by rw [length_prefixSums]; omega)
  have hlast : d.c.getLast? = some (d.c.getLast hcne) := List.getLast?_eq_some_getLast hcne
  have hnorm : d.c.getLast hcne + dc.sum = chiNorm d pdf := by
    unfold chiNorm
    rw [hlast, hdc, sum_delta d.x d.p pdf hp hpdf]
    rfl
  unfold setDist
  simp only [h1, h2, ← hdc, h3, hlast, getLast_prefixSums hdcne, hnorm]

theorem getLast_zipWith_add {a b : List K} (h : a.length = b.length) (ha : a ≠ []) :
    (List.zipWith (· + ·) a b).getLast? = some (a.getLast?.getD 0 + b.getLast?.getD 0) := by
  have hn : a.length ≠ 0 := fun h => ha (List.length_eq_zero_iff.mp h)
  have h1 : a.length - 1 < a.length := by omega
  have h2 : a.length - 1 < b.length := by omega
  rw [List.getLast?_eq_getElem?, List.getLast?_eq_getElem?, List.getLast?_eq_getElem?, List.length_zipWith, ← h,
    Nat.min_self, List.getElem?_eq_getElem h1, List.getElem?_eq_getElem h2,
    List.getElem?_eq_getElem (by rw [List.length_zipWith]; omega)]
  simp

theorem setDist_ok {d d' : Dist K} (hd : d.Shaped) {pdf : List K} (hpdf : pdf.length = d.x.length)
    (hnorm : chiNorm d pdf ≠ 0) (h : setDist d pdf = (d', .ok ())) :
    d'.x = d.x ∧ d'.c.getLast? = some 1 ∧ d'.p = pdf.map (· / chiNorm d pdf) := by
  rw [setDist_eq hd hpdf] at h
  simp only at h
  split_ifs at h
  · simp at h
  · simp only [Prod.mk.injEq, and_true] at h
    subst h
    obtain ⟨hp, hc, hx⟩ := hd
    have hn : d.x.length ≠ 0 := fun h => hx (List.length_eq_zero_iff.mp h)
    refine ⟨rfl, ?_, rfl⟩
    simp only
    set dc := List.zipWith (· * ·) (List.zipWith (· - ·) pdf d.p) (deltas d.x) with hdc
    have hdcl : dc.length = d.x.length := by
      rw [hdc, List.length_zipWith, length_deltas hx, List.length_zipWith]; omega
    have hdcne : dc ≠ [] := by intro h; rw [h] at hdcl; simp at hdcl; omega
    have hcne : d.c ≠ [] := by intro h; rw [h] at hc; simp at hc; omega
    rw [List.getLast?_map, getLast_zipWith_add (by rw [length_prefixSums]; omega) hcne, getLast_prefixSums hdcne]
    have hs : dc.sum = rightSum d.x pdf - rightSum d.x d.p := sum_delta d.x d.p pdf hp hpdf
    simp only [Option.map_some, Option.getD_some, Option.some.injEq]
    rw [hs]
    exact div_self hnorm

/-- Setting the same pdf changes nothing. -/
theorem setDist_same {d : Dist K} (hd : d.Shaped) (hc1 : d.c.getLast? = some 1)
    (hpos : ∀ v ∈ d.p, 0 ≤ v) : setDist d d.p = (d, .ok ()) := by
  have hnorm : chiNorm d d.p = 1 := by simp [chiNorm, hc1]
  rw [setDist_eq hd hd.1, hnorm]
  obtain ⟨hp, hc, hx⟩ := hd
  have hz : List.zipWith (· - ·) d.p d.p = d.p.map (fun _ => (0:K)) := by
    rw [List.zipWith_self]; simp
  have hz2 : ∀ (l m : List K), m.length = l.length →
      List.zipWith (· * ·) (l.map (fun _ => (0:K))) m = List.replicate l.length 0 := by
    intro l
    induction l with
    | nil => intro m _; simp
    | cons a l ih =>
      intro m hm
      cases m with
      | nil => simp at hm
      | cons b m => simp only [List.map_cons, List.zipWith_cons_cons, zero_mul, ih m (by simpa using hm)]; rfl
  rw [hz, hz2 _ _ (by rw [length_deltas hx, hp])]
  have hpre : prefixSums (List.replicate d.p.length (0:K)) = List.replicate d.p.length 0 := by
    unfold prefixSums
    apply List.ext_getElem
    · simp
    · intro i h1 h2
      simp
  have hadd : ∀ (l : List K), List.zipWith (· + ·) l (List.replicate l.length (0:K)) = l := by
    intro l
    induction l with
    | nil => rfl
    | cons a l ih => simp only [List.length_cons, List.replicate_succ, List.zipWith_cons_cons, add_zero, ih]
  rw [hpre, hp, ← hc, hadd]
  simp only [div_one, List.map_id']
  rw [if_neg]
  simp only [List.any_eq_true, decide_eq_true_eq, not_exists, not_and, not_lt]
  exact hpos

/-- Pointwise form of the loop when it succeeds. -/
theorem setDists_ok : ∀ (ds : List (Dist K)) (ps : List (List K)), (setDists ds ps).2 = .ok () →
    ∀ (i : Nat) d p, ds[i]? = some d → ps[i]? = some p →
      ∃ d', (setDists ds ps).1[i]? = some d' ∧ setDist d p = (d', .ok ()) := by
  intro ds
  induction ds with
  | nil => intro ps _ i d p h; simp at h
  | cons d0 ds ih =>
    intro ps h i d p hd hp
    cases ps with
    | nil => simp [setDists] at h
    | cons p0 ps =>
      unfold setDists at h ⊢
      cases h0 : setDist d0 p0 with
      | mk d1 o =>
        rw [h0] at h
        cases o with
        | error e => simp at h
        | ok u =>
          simp only at h ⊢
          cases i with
          | zero =>
            simp only [List.getElem?_cons_zero, Option.some.injEq] at hd hp
            subst hd; subst hp
            exact ⟨d1, by simp, h0⟩
          | succ i =>
            simp only [List.getElem?_cons_succ] at hd hp
            obtain ⟨d', h1, h2⟩ := ih ps h i d p hd hp
            exact ⟨d', by simpa using h1, h2⟩

/-- What a successful set of chi stores. -/
theorem setSigma_chi {l : List (List K)} {chi : Chi K} (hchi : getChiDistro ed false = .ok chi)
    (h : setSigma ed 1018 (.pdfs l) = (ed', .ok ())) :
    (setDists chi.energyOut l).2 = .ok () ∧ chi.energyOut.length = l.length ∧
    getChiDistro ed' false = .ok { chi with energyOut := (setDists chi.energyOut l).1 } := by
  unfold setSigma at h
  cases hE : getEnergy ed 1018 with
  | error e => rw [hE] at h; simp at h
  | ok energy =>
    rw [hE] at h
    simp only at h
    by_cases hlen : (Val.pdfs l).len ≠ energy.len
    · rw [if_pos hlen] at h; simp at h
    · rw [if_neg hlen] at h
      cases hS : getSigma ed 1018 none false with
      | error e => rw [hS] at h; simp at h
      | ok cur =>
        rw [hS] at h
        simp only [show (1018:Nat) ≠ 452 by decide, if_false, if_true] at h
        have hchi0 : getChiDistro (ed.remember 1018 cur) false = .ok chi := hchi
        set e1 := ed.remember 1018 cur with he1
        unfold setChiDistro at h
        rw [hchi0] at h
        simp only at h
        by_cases hl : chi.energyOut.length ≠ l.length
        · rw [if_pos hl] at h; simp at h
        · rw [if_neg hl] at h
          cases he : chi.energyOut with
          | nil => rw [he] at h; simp at h
          | cons d ds =>
            cases hlc : l with
            | nil => rw [he, hlc] at h; simp at h
            | cons p ps =>
              rw [he, hlc] at h
              simp only at h
              by_cases hx : d.x.length ≠ p.length
              · rw [if_pos hx] at h; simp at h
              · rw [if_neg hx] at h
                rw [he, hlc] at hl
                cases hr : (setDists (d :: ds) (p :: ps)).2 with
                | error e => rw [hr] at h; simp at h
                | ok u =>
                  rw [hr] at h
                  simp only [Prod.mk.injEq, and_true] at h
                  refine ⟨rfl, not_not.mp hl, ?_⟩
                  rw [← h]
                  unfold getChiDistro at hchi0 ⊢
                  change (if checkIfMtsPresent [18] e1.allMts ≠ [] then _ else _) = _
                  by_cases hp : checkIfMtsPresent [18] e1.allMts ≠ []
                  · rw [if_pos hp] at hchi0 ⊢
                    simp only [Bool.false_eq_true, if_false, Editor.addAdjusted, Editor.modifyRx, Table.rx,
                      Dict.get?_modify_same] at hchi0 ⊢
                    cases h18 : Dict.get? e1.table.reactions 18 with
                    | none => rw [h18] at hchi0; simp [bind, Except.bind] at hchi0
                    | some r =>
                      rw [h18] at hchi0
                      simp only [bind, Except.bind, Option.map_some] at hchi0 ⊢
                      cases hc : r.chi with
                      | none => rw [hc] at hchi0; simp at hchi0
                      | some chi0 =>
                        rw [hc] at hchi0
                        simp only at hchi0
                        by_cases hpr : chi0.prompt = false
                        · rw [if_pos hpr] at hchi0; cases hchi0
                        · rw [if_neg hpr] at hchi0
                          cases hchi0
                          rw [if_neg hpr]
                  · rw [if_neg hp] at hchi0; cases hchi0

/-! ### C12 -/

/-- **C12.** After chi was set, every outgoing distribution has its old energies, a cdf ending in 1, and the given pdf
divided by one factor. The factor must not be zero (a zero factor gives NaN). -/
theorem C12_chi_normalised {l : List (List K)} {chi : Chi K} (hchi : getChiDistro ed false = .ok chi)
    (h : setSigma ed 1018 (.pdfs l) = (ed', .ok ())) :
    ∃ chi', getChiDistro ed' false = .ok chi' ∧ chi'.energyIn = chi.energyIn ∧
      ∀ (i : Nat) d pdf, chi.energyOut[i]? = some d → l[i]? = some pdf → d.Shaped → pdf.length = d.x.length →
        chiNorm d pdf ≠ 0 →
        ∃ d', chi'.energyOut[i]? = some d' ∧ d'.x = d.x ∧ d'.c.getLast? = some 1 ∧
          ∃ k, k ≠ 0 ∧ d'.p = pdf.map (· / k) := by
  obtain ⟨hok, _, hget⟩ := setSigma_chi hchi h
  refine ⟨_, hget, rfl, ?_⟩
  intro i d pdf hd hp hsh hlen hn
  obtain ⟨d', h1, h2⟩ := setDists_ok _ _ hok i d pdf hd hp
  obtain ⟨hx, hc, hpp⟩ := setDist_ok hsh hlen hn h2
  exact ⟨d', h1, hx, hc, _, hn, hpp⟩

/-- **C12.** The pdfs that are read back are the given ones up to one factor per distribution. -/
theorem C12_read_back {l : List (List K)} {chi : Chi K} (hchi : getChiDistro ed false = .ok chi)
    (hsh : ∀ d ∈ chi.energyOut, d.Shaped) (hl : List.Forall₂ (fun (d : Dist K) p => p.length = d.x.length) chi.energyOut l)
    (hn : List.Forall₂ (fun d p => chiNorm d p ≠ 0) chi.energyOut l)
    (h : setSigma ed 1018 (.pdfs l) = (ed', .ok ())) :
    ∃ ks, getSigma ed' 1018 none false = .ok (.pdfs (List.zipWith (fun k pdf => pdf.map (· / k)) ks l)) ∧
      ks.length = l.length ∧ ∀ k ∈ ks, k ≠ 0 := by
  obtain ⟨hok, hlen, hget⟩ := setSigma_chi hchi h
  have key : ∀ (ds : List (Dist K)) (l : List (List K)), (∀ d ∈ ds, d.Shaped) →
      List.Forall₂ (fun (d : Dist K) p => p.length = d.x.length) ds l →
      List.Forall₂ (fun d p => chiNorm d p ≠ 0) ds l → (setDists ds l).2 = .ok () →
      (setDists ds l).1.map (·.p) = List.zipWith (fun k pdf => pdf.map (· / k)) (List.zipWith chiNorm ds l) l := by
    intro ds
    induction ds with
    | nil => intro l _ hl _ _; cases hl; rfl
    | cons d ds ih =>
      intro l hsh hl hn hok
      cases hl with
      | @cons _ p _ ps hp hl =>
        cases hn with
        | cons hn1 hn =>
          unfold setDists at hok ⊢
          cases h0 : setDist d p with
          | mk d1 o =>
            rw [h0] at hok
            cases o with
            | error e => simp at hok
            | ok u =>
              simp only at hok
              simp only [List.map_cons, List.zipWith_cons_cons]
              rw [ih ps (fun d hd => hsh d (List.mem_cons_of_mem _ hd)) hl hn hok,
                (setDist_ok (hsh d (List.mem_cons_self ..)) hp hn1 h0).2.2]
  refine ⟨List.zipWith chiNorm chi.energyOut l, ?_, by simp [List.length_zipWith, hlen], ?_⟩
  · unfold getSigma
    simp only [show (1018:Nat) ≠ 452 by decide, if_false, if_true, hget, bind, Except.bind]
    rw [key _ _ hsh hl hn hok]
  · have all : ∀ (ds : List (Dist K)) (l : List (List K)), List.Forall₂ (fun d p => chiNorm d p ≠ 0) ds l →
        ∀ k ∈ List.zipWith chiNorm ds l, k ≠ 0 := by
      intro ds l hn
      induction hn with
      | nil => intro k hk; simp at hk
      | cons h1 _ ih =>
        intro k hk
        simp only [List.zipWith_cons_cons, List.mem_cons] at hk
        rcases hk with rfl | hk
        · exact h1
        · exact ih k hk
    exact all _ _ hn

/-- **C12.** Setting the pdfs that are already there succeeds and changes no data. -/
theorem C12_same_pdf {chi : Chi K} (hchi : getChiDistro ed false = .ok chi) (hne : chi.energyOut ≠ [])
    (hsh : ∀ d ∈ chi.energyOut, d.Shaped ∧ d.c.getLast? = some 1 ∧ ∀ v ∈ d.p, 0 ≤ v) :
    ∃ ed', setSigma ed 1018 (.pdfs (chi.energyOut.map (·.p))) = (ed', .ok ()) ∧
      getChiDistro ed' false = .ok chi ∧ SameData ed' ed := by
  have hds : ∀ ds : List (Dist K), (∀ d ∈ ds, d.Shaped ∧ d.c.getLast? = some 1 ∧ ∀ v ∈ d.p, 0 ≤ v) →
      setDists ds (ds.map (·.p)) = (ds, .ok ()) := by
    intro ds
    induction ds with
    | nil => intro _; rfl
    | cons d ds ih =>
      intro h
      obtain ⟨h1, h2, h3⟩ := h d (List.mem_cons_self ..)
      simp only [List.map_cons, setDists]
      rw [setDist_same h1 h2 h3]
      simp only
      rw [ih (fun d hd => h d (List.mem_cons_of_mem _ hd))]
  have hok : (setSigma ed 1018 (.pdfs (chi.energyOut.map (·.p)))).2 = .ok () := by
    unfold setSigma
    simp only [getEnergy, getSigma, show (1018:Nat) ≠ 452 by decide, if_false, if_true, hchi, bind, Except.bind, Val.len,
      List.length_map, ne_eq, not_true_eq_false]
    have hchi0 : ∀ c, getChiDistro (ed.remember 1018 c) false = .ok chi := fun c => hchi
    unfold setChiDistro
    rw [hchi0]
    simp only [List.length_map, ne_eq, not_true_eq_false, if_false]
    cases he : chi.energyOut with
    | nil => exact absurd he hne
    | cons d ds =>
      have := hds chi.energyOut hsh
      rw [he] at this
      simp only [List.map_cons] at this ⊢
      have hl : d.p.length = d.x.length := (hsh d (by rw [he]; exact List.mem_cons_self ..)).1.1
      rw [if_neg (not_not.mpr hl.symm), this]
  refine ⟨_, Prod.ext rfl hok, ?_, ?_⟩
  · have := (setSigma_chi hchi (Prod.ext rfl hok)).2.2
    rw [this, hds chi.energyOut hsh]
  · obtain ⟨hb, _, hc, _⟩ := setSigma_frame ed 1018 (.pdfs (chi.energyOut.map (·.p)))
    intro m
    by_cases hm : m = 1018
    · subst hm
      refine ⟨setSigma_energy _ _ _ _ (fun h => absurd h (by decide)), fun at? un => ?_⟩
      cases un with
      | true => exact (getSigma_unadjusted_congr hb 1018 at?).symm
      | false =>
        have := (setSigma_chi hchi (Prod.ext rfl hok)).2.2
        rw [hds chi.energyOut hsh] at this
        simp only [getSigma, show (1018:Nat) ≠ 452 by decide, if_false, if_true, hchi]
        rw [this]
    · exact ⟨(getEnergy_congr hb (hc m hm).symm).symm, fun at? un => (getSigma_congr hb (hc m hm).symm at? un).symm⟩

section
local instance : ExpLog ℚ := ⟨id, id⟩

/-- The chi of the example file is well shaped and can be set with a factor that is neither 0 nor 1. -/
example : ∃ chi, getChiDistro demoEd false = .ok chi ∧
    (setSigma demoEd 1018 (.pdfs [[1, 2, 1], [1, 1, 1]])).2 = .ok () ∧
    (∀ d ∈ chi.energyOut, d.Shaped ∧ chiNorm d [1, 2, 1] = 3 ∧ d.c.getLast? = some 1) := by
  refine ⟨_, rfl, by decide +kernel, ?_⟩
  intro d hd
  simp only [demoRx, List.mem_cons, List.not_mem_nil, or_false, or_self] at hd
  subst hd
  refine ⟨⟨rfl, rfl, by simp⟩, by decide +kernel, rfl⟩
end

/-! ### C13 -/

variable [IsStrictOrderedRing K]

/-- The new cdf is the right-rectangle cdf of the new pdf if the old one was that of the old pdf. -/
theorem rightCdf_update (x : List K) : ∀ (p q : List K) (c0 a : K), p.length = x.length → q.length = x.length → x ≠ [] →
    List.zipWith (· + ·) (rightCdf c0 x p)
      ((prefixSums (List.zipWith (· * ·) (List.zipWith (· - ·) q p) (deltas x))).map (a + ·)) =
      rightCdf (c0 + a) x q := by
  have hcons : ∀ (b : K) (l : List K), prefixSums (b :: l) = b :: (prefixSums l).map (b + ·) := by
    intro b l
    unfold prefixSums
    simp only [List.length_cons, List.range_succ_eq_map, List.map_cons, List.map_map]
    simp [Function.comp_def]
  have hmap : ∀ (x1 : K) (x : List K), deltas (x1 :: x) = 0 :: List.zipWith (fun b a => b - a) x (x1 :: x) := by
    intro x1 x; simp [deltas]
  induction x with
  | nil => intro _ _ _ _ _ _ h; exact absurd rfl h
  | cons x0 x ih =>
    intro p q c0 a hp hq _
    cases p with
    | nil => simp at hp
    | cons p0 p =>
      cases q with
      | nil => simp at hq
      | cons q0 q =>
        cases x with
        | nil =>
          simp at hp hq; subst hp; subst hq
          simp [rightCdf, deltas, prefixSums]
        | cons x1 x =>
          cases p with
          | nil => simp at hp
          | cons p1 p =>
            cases q with
            | nil => simp at hq
            | cons q1 q =>
              have hrec := ih (p1 :: p) (q1 :: q) (c0 + p1 * (x1 - x0)) (a + (q1 - p1) * (x1 - x0)) (by simpa using hp)
                (by simpa using hq) (by simp)
              rw [hmap] at hrec ⊢
              simp only [List.zipWith_cons_cons, mul_zero, hcons, List.map_cons, List.map_map, rightCdf,
                Function.comp_def, add_zero, zero_add] at hrec ⊢
              congr 1
              have e1 : c0 + p1 * (x1 - x0) + (a + (q1 - p1) * (x1 - x0)) = c0 + a + q1 * (x1 - x0) := by ring
              rw [e1] at hrec
              rw [← hrec]
              congr 1
              congr 1
              apply List.map_congr_left
              intro v _
              ring

theorem rightCdf_chain (x : List K) : ∀ (p : List K) (c0 : K), p.length = x.length → (∀ v ∈ p, 0 ≤ v) →
    x.Pairwise (· < ·) → (rightCdf c0 x p).Pairwise (· ≤ ·) ∧ ∀ c ∈ rightCdf c0 x p, c0 ≤ c := by
  induction x with
  | nil => intro p c0 _ _ _; simp [rightCdf]
  | cons x0 x ih =>
    intro p c0 hp hpos hx
    cases x with
    | nil => simp [rightCdf]
    | cons x1 x =>
      cases p with
      | nil => simp at hp
      | cons p0 p =>
        cases p with
        | nil => simp at hp
        | cons p1 p =>
          rw [List.pairwise_cons] at hx
          obtain ⟨h1, h2⟩ := ih (p1 :: p) (c0 + p1 * (x1 - x0)) (by simpa using hp)
            (fun v hv => hpos v (List.mem_cons_of_mem _ hv)) hx.2
          have hstep : c0 ≤ c0 + p1 * (x1 - x0) := by
            have : 0 ≤ p1 * (x1 - x0) := mul_nonneg (hpos p1 (by simp)) (by
              have := hx.1 x1 (by simp); linarith)
            linarith
          simp only [rightCdf, List.pairwise_cons, List.mem_cons]
          refine ⟨⟨fun c hc => hstep.trans (h2 c hc), h1⟩, ?_⟩
          rintro c (rfl | hc)
          · exact le_rfl
          · exact hstep.trans (h2 c hc)

theorem rightCdf_last (x : List K) : ∀ (p : List K) (c0 : K), p.length = x.length → x ≠ [] →
    (rightCdf c0 x p).getLast? = some (c0 + rightSum x p) := by
  induction x with
  | nil => intro _ _ _ h; exact absurd rfl h
  | cons x0 x ih =>
    intro p c0 hp _
    cases x with
    | nil => cases p <;> simp [rightCdf, rightSum]
    | cons x1 x =>
      cases p with
      | nil => simp at hp
      | cons p0 p =>
        cases p with
        | nil => simp at hp
        | cons p1 p =>
          have h := ih (p1 :: p) (c0 + p1 * (x1 - x0)) (by simpa using hp) (by simp)
          simp only [rightCdf]
          rw [List.getLast?_cons, h]
          simp only [rightSum, Option.getD_some, Option.some.injEq]
          ring

theorem length_rightCdf (x : List K) : ∀ (p : List K) (c0 : K), p.length = x.length → (rightCdf c0 x p).length = x.length := by
  induction x with
  | nil => intro _ _ _; rfl
  | cons x0 x ih =>
    intro p c0 hp
    cases x with
    | nil => simp [rightCdf]
    | cons x1 x =>
      cases p with
      | nil => simp at hp
      | cons p0 p =>
        cases p with
        | nil => simp at hp
        | cons p1 p => simp only [rightCdf, List.length_cons]; rw [ih (p1 :: p) _ (by simpa using hp)]; rfl

theorem rightSum_nonneg (x : List K) : ∀ (p : List K), (∀ v ∈ p, 0 ≤ v) → x.Pairwise (· < ·) → 0 ≤ rightSum x p := by
  induction x with
  | nil => intro p _ _; simp [rightSum]
  | cons x0 x ih =>
    intro p hpos hx
    cases x with
    | nil => simp [rightSum]
    | cons x1 x =>
      cases p with
      | nil => simp [rightSum]
      | cons p0 p =>
        cases p with
        | nil => simp [rightSum]
        | cons p1 p =>
          rw [List.pairwise_cons] at hx
          have h := ih (p1 :: p) (fun v hv => hpos v (List.mem_cons_of_mem _ hv)) hx.2
          have : 0 ≤ p1 * (x1 - x0) := mul_nonneg (hpos p1 (by simp)) (by have := hx.1 x1 (by simp); linarith)
          simp only [rightSum]
          linarith

/-- **C13 (partial).** If the stored cdf is the right-rectangle cdf of the stored pdf (starting at 0), and the new pdf
is non-negative with a positive integral, the new cdf is the one of the normalised new pdf: it starts at 0, is
non-decreasing and within [0, 1]. Missing: cdfs by other rules (histogram, trapezoid), for which it fails. -/
theorem C13_cdf_monotone_partial {d : Dist K} (hd : d.Shaped) (hx : d.x.Pairwise (· < ·))
    (hcdf : d.c = rightCdf 0 d.x d.p) {pdf : List K} (hlen : pdf.length = d.x.length) (hpos : ∀ v ∈ pdf, 0 ≤ v)
    (hint : rightSum d.x pdf ≠ 0) :
    ∃ d', setDist d pdf = (d', .ok ()) ∧ d'.c = (rightCdf 0 d.x pdf).map (· / rightSum d.x pdf) ∧
      d'.c.Pairwise (· ≤ ·) ∧ ∀ c ∈ d'.c, 0 ≤ c ∧ c ≤ 1 := by
  have hnorm : chiNorm d pdf = rightSum d.x pdf := by
    unfold chiNorm
    rw [hcdf, rightCdf_last _ _ _ hd.1 hd.2.2]
    simp
  have hS : 0 < rightSum d.x pdf := lt_of_le_of_ne (rightSum_nonneg _ _ hpos hx) (Ne.symm hint)
  have hup := rightCdf_update d.x d.p pdf 0 0 hd.1 hlen hd.2.2
  simp only [zero_add, List.map_id'] at hup
  obtain ⟨hch, hge⟩ := rightCdf_chain d.x pdf 0 hlen hpos hx
  have hle : ∀ c ∈ rightCdf 0 d.x pdf, c ≤ rightSum d.x pdf := by
    intro c hc
    have hl := rightCdf_last d.x pdf 0 hlen hd.2.2
    rw [zero_add] at hl
    have hne : rightCdf 0 d.x pdf ≠ [] := by rintro h; rw [h] at hc; simp at hc
    have hlast : (rightCdf 0 d.x pdf).getLast hne = rightSum d.x pdf := by
      rw [List.getLast?_eq_some_getLast hne] at hl; exact Option.some.inj hl
    have : rightCdf 0 d.x pdf = (rightCdf 0 d.x pdf).dropLast ++ [rightSum d.x pdf] := by
      rw [← hlast, List.dropLast_append_getLast]
    rw [this] at hc hch
    rw [List.pairwise_append] at hch
    rcases List.mem_append.mp hc with hc | hc
    · exact hch.2.2 c hc _ (by simp)
    · simp at hc; exact hc.le
  refine ⟨{ x := d.x, c := (rightCdf 0 d.x pdf).map (· / rightSum d.x pdf), p := pdf.map (· / rightSum d.x pdf) },
    ?_, rfl, ?_, ?_⟩
  · rw [setDist_eq hd hlen, hnorm, hcdf, hup]
    simp only
    rw [if_neg]
    simp only [List.any_eq_true, List.mem_map, decide_eq_true_eq, not_exists, not_and, not_lt]
    rintro v ⟨w, hw, rfl⟩
    exact div_nonneg (hpos w hw) hS.le
  · rw [List.pairwise_map]
    exact hch.imp (fun h => div_le_div_of_nonneg_right h hS.le)
  · intro c hc
    rw [List.mem_map] at hc
    obtain ⟨v, hv, rfl⟩ := hc
    exact ⟨div_nonneg (hge v hv) hS.le, (div_le_one hS).mpr (hle v hv)⟩

section
local instance : ExpLog ℚ := ⟨id, id⟩

/-- The chi of the example file has right-rectangle cdfs. -/
example : rightCdf 0 [0, 1, 2] [1/2, 1/2, 1/2] = ([0, 1/2, 1] : List ℚ) ∧ rightSum [0, 1, 2] [1, 2, 1] = (3 : ℚ) := by
  decide +kernel

/-- **C13 is false for a histogram cdf** (`c_{i+1} = c_i + p_i (x_{i+1} - x_i)`, the ENDF convention for interpolation
law 1): a valid distribution and a non-negative pdf give a decreasing cdf with a negative value. -/
theorem C13_cdf_monotone_refuted : ∃ (d d' : Dist ℚ) (pdf : List ℚ),
    d.x = [0, 1, 2] ∧ d.p = [1/10, 9/10, 0] ∧ d.c = [0, 1/10 * (1 - 0), 1/10 * (1 - 0) + 9/10 * (2 - 1)] ∧
    pdf = [1/2, 0, 1/2] ∧ setDist d pdf = (d', .ok ()) ∧ d'.c = [0, -4/3, 1] := by
  refine ⟨⟨[0, 1, 2], [1/10, 9/10, 0], [0, 1/10 * (1 - 0), 1/10 * (1 - 0) + 9/10 * (2 - 1)]⟩, _, [1/2, 0, 1/2],
    rfl, rfl, rfl, rfl, Prod.ext rfl ?_, ?_⟩ <;> decide +kernel
end

end ASAPy.Ace
