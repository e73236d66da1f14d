import Verif.EndfRx.Model
import Verif.Decay.Spec
import Verif.AceData.Spec

/-!
# Specification for C155-C162: what the sections of an evaluation say about reactions

Taken from the ENDF-6 format (ENDF-102): files 1, 3, 4, 5, 6, 8, 9, 10, 12 and 13.
-/

namespace ASAPy.EndfRx
open ASAPy.Endf
open ASAPy.Decay (ListRec Tab1Rec)
open ASAPy.Func (Fn)
open ASAPy.FromAce (Mode)

/-- The lines of a TAB1 record with the function `t`; `c` are the six items of its first line. -/
def TabRec (c : Cont) (t : Tab1D ℚ) (ls : List Line) : Prop :=
  ∃ (regions : List (Int × Int)) (points : List (ℚ × ℚ)), Tab1Rec c regions points ls ∧ t.x = points.map (·.1) ∧ t.y = points.map (·.2) ∧
    t.breakpoints = regions.map (·.1) ∧ t.interpolation.map (fun n : Nat => (n : Int)) = regions.map (·.2)

/-- The lines of a TAB2 record. -/
def Tab2Rec (c : Cont) (regions : List (Int × Int)) (ls : List Line) : Prop :=
  ∃ l rl, ls = l :: rl ∧ ContLine c l ∧ c.n1 = regions.length ∧ Lines (StartsPairs pyInt pyInt) 3 regions rl

/-- A TAB2 record that announces `xs`, and their lines. -/
def Announced {α : Type} (rec : α → List Line → Prop) (c : Cont) (regions : List (Int × Int)) (xs : List α) (ls : List Line) : Prop :=
  ∃ (a : List Line) (bs : List (List Line)), ls = a ++ bs.flatten ∧ Tab2Rec c regions a ∧ c.n2 = xs.length ∧ List.Forall₂ rec xs bs

/-! ### File 4 -/

/-- T, E and the coefficients from the first on; the zeroth is 1. -/
def LegendreAt (x : ℚ × Mu) (ls : List Line) : Prop := ∃ (c : Cont) (a : List ℚ), ListRec c a ls ∧ x.1 = c.c2 ∧ x.2 = .legendre (1 :: a)

/-- T, E and a table with one scheme of interpolation and probabilities that are not negative. -/
def TabularAt (x : ℚ × Mu) (ls : List Line) : Prop :=
  ∃ (c : Cont) (t : Tab1D ℚ) (k : Nat), TabRec c t ls ∧ t.interpolation = [k] ∧ 1 ≤ k ∧ k ≤ 5 ∧ (∀ v ∈ t.y, 0 ≤ v) ∧ x.1 = c.c2 ∧ x.2 = .tabular k t.x t.y

/-- The transformation matrix of old files: LVT says whether it is there, NK how many numbers it has. -/
def OldMatrix (lvt nk : Int) (ls : List Line) : Prop := (lvt = 0 ∧ ls = []) ∨ (lvt = 1 ∧ ∃ u : List ℚ, nk = u.length ∧ Lines (Starts floatEndf) 6 u ls)

/-- What follows the first two records, by LTT and LI: energies and distributions. -/
inductive AngleBody (energyMax : ℚ) : Int → Int → List (ℚ × Mu) → List Line → Prop
  | isotropic : AngleBody energyMax 0 1 [(0, .uniform), (energyMax, .uniform)] []
  | legendre {c : Cont} {regions : List (Int × Int)} {xs : List (ℚ × Mu)} {ls : List Line} (h : Announced LegendreAt c regions xs ls) : AngleBody energyMax 1 0 xs ls
  | tabular {c : Cont} {regions : List (Int × Int)} {xs : List (ℚ × Mu)} {ls : List Line} (h : Announced TabularAt c regions xs ls) : AngleBody energyMax 2 0 xs ls
  | both {c c' : Cont} {regions regions' : List (Int × Int)} {xs xs' : List (ℚ × Mu)} {ls ls' : List Line} (h : Announced LegendreAt c regions xs ls)
      (h' : Announced TabularAt c' regions' xs' ls') : AngleBody energyMax 3 0 (xs ++ xs') (ls ++ ls')

/-- Section (4, MT); LCT is the frame. -/
def AngleSection (energyMax : ℚ) (xs : List (ℚ × Mu)) (lct : Int) (ls : List Line) : Prop :=
  ∃ (h : Head) (c : Cont) (l l' : Line) (m body rest : List Line), ls = l :: l' :: (m ++ (body ++ rest)) ∧ HeadLine h l ∧ ContLine c l' ∧ c.l2 = lct ∧
    OldMatrix h.l1 c.n1 m ∧ AngleBody energyMax h.l2 c.l1 xs body

/-! ### File 5 -/

/-- E and a table. -/
def SpectrumAt (x : ℚ × Tab1D ℚ) (ls : List Line) : Prop := ∃ c : Cont, TabRec c x.2 ls ∧ x.1 = c.c2

/-- What follows the first record of a partial distribution, whose items are `p`: U and LF. -/
inductive EnLaw (p : Cont) : EnDist → List Line → Prop
  | arbitrary {c : Cont} {regions : List (Int × Int)} {xs : List (ℚ × Tab1D ℚ)} {ls : List Line} (h : p.l2 = 1) (hx : Announced SpectrumAt c regions xs ls) :
      EnLaw p (.arbitrary (xs.map (·.1)) (xs.map (·.2))) ls
  | general {c c' : Cont} {theta g : Tab1D ℚ} {a b : List Line} (h : p.l2 = 5) (ha : TabRec c theta a) (hb : TabRec c' g b) : EnLaw p (.general theta g p.c1) (a ++ b)
  | maxwell {c : Cont} {theta : Tab1D ℚ} {a : List Line} (h : p.l2 = 7) (ha : TabRec c theta a) : EnLaw p (.maxwell theta p.c1) a
  | evaporation {c : Cont} {theta : Tab1D ℚ} {a : List Line} (h : p.l2 = 9) (ha : TabRec c theta a) : EnLaw p (.evaporation theta p.c1) a
  | watt {c c' : Cont} {t t' : Tab1D ℚ} {a b : List Line} (h : p.l2 = 11) (ha : TabRec c t a) (hb : TabRec c' t' b) : EnLaw p (.watt t t' p.c1) (a ++ b)
  | madlandNix {c : Cont} {tm : Tab1D ℚ} {a : List Line} (h : p.l2 = 12) (ha : TabRec c tm a) (h1 : 0 < c.c1) (h2 : 0 < c.c2) : EnLaw p (.madlandNix c.c1 c.c2 tm) a

/-- A partial distribution: its probability and the distribution. -/
def Part (x : Tab1D ℚ × EnDist) (ls : List Line) : Prop := ∃ (p : Cont) (a b : List Line), ls = a ++ b ∧ TabRec p x.1 a ∧ EnLaw p x.2 b

/-- Section (5, MT). -/
def EnergySection (xs : List (Tab1D ℚ × EnDist)) (ls : List Line) : Prop :=
  ∃ (h : Head) (l : Line) (bs : List (List Line)) (rest : List Line), ls = l :: (bs.flatten ++ rest) ∧ HeadLine h l ∧ h.n1 = xs.length ∧ List.Forall₂ Part xs bs

/-! ### File 6 -/

/-- Names of the particles by ZAP = 1000 Z + A. -/
inductive Particle : Nat → Line → Prop
  | photon : Particle 0 c!"photon"
  | neutron : Particle 1 c!"neutron"
  | nuclide {z a : Nat} {sym : Line} (h : 0 < z) (ha : 0 < a) (ha' : a < 1000) (hs : AceData.Element z sym) : Particle (1000 * z + a) (sym ++ Dec.natStr a)

/-- LAW 1, LANG 1: an incident energy, and for each outgoing energy its probability and the Legendre coefficients, of which the zeroth is that probability. -/
def CorrelatedAt (lep : Nat) (x : ℚ × EOut × List Mu) (ls : List Line) : Prop :=
  ∃ (c : Cont) (na : Nat) (rows : List (ℚ × ℚ × List ℚ)), ListRec c (rows.flatMap fun r => r.1 :: r.2.1 :: r.2.2) ls ∧ c.l2 = na ∧ c.n2 = rows.length ∧
    (∀ r ∈ rows, r.2.2.length = na) ∧ x.1 = c.c2 ∧ x.2.1 = ⟨lep, rows.map (·.1), rows.map (·.2.1)⟩ ∧ x.2.2 = rows.map fun r => .legendre (r.2.1 :: r.2.2)

/-- LAW 1, LANG 2: for each outgoing energy its probability, the precompound fraction and, for NA = 2, the slope. -/
def KalbachAt (lep : Nat) (x : ℚ × EOut × Tab1D ℚ × Tab1D ℚ) (ls : List Line) : Prop :=
  (∃ (c : Cont) (rows : List (ℚ × ℚ × ℚ × ℚ)), ListRec c (rows.flatMap fun r => [r.1, r.2.1, r.2.2.1, r.2.2.2]) ls ∧ c.l2 = 2 ∧ c.n2 = rows.length ∧
    (∀ r ∈ rows, 0 ≤ r.2.1) ∧ x.1 = c.c2 ∧ x.2.1 = ⟨lep, rows.map (·.1), rows.map (·.2.1)⟩ ∧
    x.2.2.1 = ⟨rows.map (·.1), rows.map (·.2.2.1), [(rows.length : Int)], [2]⟩ ∧ x.2.2.2 = ⟨rows.map (·.1), rows.map (·.2.2.2), [(rows.length : Int)], [2]⟩) ∨
  (∃ (c : Cont) (rows : List (ℚ × ℚ × ℚ)), ListRec c (rows.flatMap fun r => [r.1, r.2.1, r.2.2]) ls ∧ c.l2 = 1 ∧ c.n2 = rows.length ∧
    (∀ r ∈ rows, 0 ≤ r.2.1) ∧ x.1 = c.c2 ∧ x.2.1 = ⟨lep, rows.map (·.1), rows.map (·.2.1)⟩ ∧
    x.2.2.1 = ⟨rows.map (·.1), rows.map (·.2.2), [(rows.length : Int)], [2]⟩ ∧ x.2.2.2 = ⟨rows.map (·.1), rows.map (fun _ => 0), [(rows.length : Int)], [2]⟩)

/-- LAW 2 with a table: LANG 12 is linear, 14 logarithmic in the probability. -/
def TwoBodyAt (x : ℚ × Mu) (ls : List Line) : Prop :=
  ∃ (c : Cont) (pts : List (ℚ × ℚ)) (k : Nat), ListRec c (pts.flatMap fun p => [p.1, p.2]) ls ∧ ((c.l1 = 12 ∧ k = 2) ∨ (c.l1 = 14 ∧ k = 4)) ∧ (∀ p ∈ pts, 0 ≤ p.2) ∧
    x.1 = c.c2 ∧ x.2 = .tabular k (pts.map (·.1)) (pts.map (·.2))

/-- LAW 7: a cosine and the spectrum at that cosine, linear between the points. -/
def CosineAt (x : ℚ × EOut) (ls : List Line) : Prop :=
  ∃ (c : Cont) (t : Tab1D ℚ), TabRec c t ls ∧ t.interpolation = [2] ∧ (∀ v ∈ t.y, 0 ≤ v) ∧ x.1 = c.c2 ∧ x.2 = ⟨2, t.x, t.y⟩

/-- LAW 7: an incident energy and its cosines. -/
def LabAt (x : ℚ × List (ℚ × EOut)) (ls : List Line) : Prop := ∃ (c : Cont) (regions : List (Int × Int)), Announced CosineAt c regions x.2 ls ∧ x.1 = c.c2

/-- What follows the first record of a product, by LAW. The weights of the cosines of LAW 7 are `w`. -/
inductive LawRec : Int → List Dist → List Line → Prop
  | unknown : LawRec 0 [] []
  | recoil : LawRec 4 [] []
  | correlated {c : Cont} {regions : List (Int × Int)} {lep : Nat} {xs : List (ℚ × EOut × List Mu)} {ls : List Line} (h1 : c.l1 = 1) (h2 : c.l2 = lep) (h3 : 1 ≤ lep)
      (h4 : lep ≤ 5) (h : Announced (CorrelatedAt lep) c regions xs ls) : LawRec 1 [.correlated regions (xs.map (·.1)) (xs.map (·.2.1)) (xs.map (·.2.2))] ls
  | kalbach {c : Cont} {regions : List (Int × Int)} {lep : Nat} {xs : List (ℚ × EOut × Tab1D ℚ × Tab1D ℚ)} {ls : List Line} (h1 : c.l1 = 2) (h2 : c.l2 = lep) (h3 : 1 ≤ lep)
      (h4 : lep ≤ 5) (h : Announced (KalbachAt lep) c regions xs ls) :
      LawRec 1 [.kalbach regions (xs.map (·.1)) (xs.map (·.2.1)) (xs.map (·.2.2.1)) (xs.map (·.2.2.2))] ls
  | twoBody {c : Cont} {regions : List (Int × Int)} {xs : List (ℚ × Mu)} {ls : List Line} (h : Announced TwoBodyAt c regions xs ls) :
      LawRec 2 [.uncorrelated (some ⟨xs.map (·.1), xs.map (·.2)⟩) none] ls
  | isotropic : LawRec 3 [.uncorrelated none none] []
  | nbody {c : Cont} {l : Line} (h : ContLine c l) (h1 : 0 < c.c1) (h2 : 0 < c.n2) : LawRec 6 [.nbody c.c1 c.n2 1 0] [l]
  | laboratory {c : Cont} {regions : List (Int × Int)} {xs : List (ℚ × List (ℚ × EOut))} {ls : List Line} (h : Announced LabAt c regions xs ls) :
      LawRec 7 [.laboratory regions (xs.map (·.1)) (xs.map fun x => ⟨2, x.2.map (·.1), x.2.map fun y => y.2.p.sum⟩) (xs.map fun x => x.2.map (·.2))] ls

/-- A product: ZAP, LAW and the yield, then the distribution. -/
def ProductRec (p : Prod) (ls : List Line) : Prop :=
  ∃ (c : Cont) (zap : Nat) (y : Tab1D ℚ) (a b : List Line), ls = a ++ b ∧ TabRec c y a ∧ c.c1 = zap ∧ Particle zap p.particle ∧ LawRec c.l2 p.dist b ∧ p.yield_ = .tab y ∧
    p.mode = .prompt ∧ p.decayRate = 0 ∧ p.applicability = []

/-- Section (6, MT); LCT is the frame. -/
def ProductSection (ps : List Prod) (lct : Int) (ls : List Line) : Prop :=
  ∃ (h : Head) (l : Line) (bs : List (List Line)) (rest : List Line), ls = l :: (bs.flatten ++ rest) ∧ HeadLine h l ∧ h.l2 = lct ∧ 1 ≤ lct ∧ lct ≤ 4 ∧ h.n1 = ps.length ∧
    List.Forall₂ ProductRec ps bs

/-! ### Nu and delayed neutrons (files 1 and 5) -/

/-- Nu behind the first record: LNU 1 is a polynomial, 2 a table. -/
inductive NuRec : Int → Fn ℚ → List Line → Prop
  | poly {c : Cont} {a : List ℚ} {ls : List Line} (h : ListRec c a ls) (ha : a ≠ []) : NuRec 1 (.poly a) ls
  | tab {c : Cont} {t : Tab1D ℚ} {ls : List Line} (h : TabRec c t ls) : NuRec 2 (.tab t) ls

/-- Sections (1, 452) and (1, 456). -/
def NuSection (y : Fn ℚ) (ls : List Line) : Prop :=
  ∃ (h : Head) (l : Line) (b rest : List Line), ls = l :: (b ++ rest) ∧ HeadLine h l ∧ NuRec h.l2 y b

/-- Section (1, 455) with constants that do not depend on energy (LDG = 0): decay constants and the delayed nu. -/
def DelayedSection (rates : List ℚ) (y : Fn ℚ) (ls : List Line) : Prop :=
  ∃ (h : Head) (c : Cont) (l : Line) (a b rest : List Line), ls = l :: (a ++ (b ++ rest)) ∧ HeadLine h l ∧ h.l1 = 0 ∧ ListRec c rates a ∧ (∀ r ∈ rates, 0 ≤ r) ∧ NuRec h.l2 y b

/-- The distinct energies of two grids in increasing order, up to `m`. -/
def UnionUpTo (a b : List ℚ) (m : ℚ) (es : List ℚ) : Prop := es.Pairwise (· < ·) ∧ ∀ e, e ∈ es ↔ (e ∈ a ∨ e ∈ b) ∧ e ≤ m

/-- The yield of a group is the delayed nu times the fraction of the group: with a constant fraction each value times that fraction, otherwise on the union of both grids, up to the smaller of
the last energies; a constant nu gives the fractions times nu. -/
inductive GroupYield [ExpLog ℚ] : Fn ℚ → Tab1D ℚ → Fn ℚ → Prop
  | constant {t a : Tab1D ℚ} {k : ℚ} {ys : List ℚ} (h0 : a.y ≠ []) (h : ∀ v ∈ a.y, v = k) (hy : List.Forall₂ (fun u v => v = u * k) t.y ys) :
      GroupYield (.tab t) a (.tab ⟨t.x, ys, t.breakpoints, t.interpolation⟩)
  | varying {t a : Tab1D ℚ} {m1 m2 : ℚ} {es ys : List ℚ} (h : ∃ u ∈ a.y, ∃ v ∈ a.y, u ≠ v) (h1 : t.x.getLast? = some m1) (h2 : a.x.getLast? = some m2)
      (he : UnionUpTo t.x a.x (min m1 m2) es) (hy : List.Forall₂ (fun e y => ∃ u v, t.eval e = .ok u ∧ a.eval e = .ok v ∧ y = u * v) es ys) :
      GroupYield (.tab t) a (.tab ⟨es, ys, [(es.length : Int)], [2]⟩)
  | number {a : Tab1D ℚ} {nu : ℚ} {ys : List ℚ} (hy : List.Forall₂ (fun u v => v = u * nu) a.y ys) :
      GroupYield (.poly [nu]) a (.tab ⟨a.x, ys, a.breakpoints, a.interpolation⟩)

/-- The product of a group. -/
def GroupProduct [ExpLog ℚ] (nu : Fn ℚ) (rate : ℚ) (x : Tab1D ℚ × EnDist) (p : Prod) : Prop :=
  p.particle = c!"neutron" ∧ p.mode = .delayed ∧ p.decayRate = rate ∧ GroupYield nu x.1 p.yield_ ∧ p.applicability = [] ∧ p.dist = [.uncorrelated none (some x.2)]

/-! ### Production cross sections (files 8, 9, 10, 12, 13) -/

/-- The yield as ratio of a production cross section and that of the reaction, on the distinct energies of both; 0 where the latter is not positive. -/
def Ratio [ExpLog ℚ] (prod xs y : Tab1D ℚ) : Prop :=
  y.breakpoints = [(y.x.length : Int)] ∧ y.interpolation = [2] ∧ y.x.Pairwise (· < ·) ∧ (∀ e, e ∈ y.x ↔ e ∈ prod.x ∨ e ∈ xs.x) ∧
    List.Forall₂ (fun e v => ∃ p s, prod.eval e = .ok p ∧ xs.eval e = .ok s ∧ ((0 < s ∧ v * s = p) ∨ (s ≤ 0 ∧ v = 0))) y.x y.y

/-- The name of a state of the nuclide IZAP = 1000 Z + A: with the number of the level unless it is the ground state. -/
def StateName (z a lfs : Nat) (sym name : Line) : Prop :=
  AceData.Element z sym ∧ a < 1000 ∧ ((lfs = 0 ∧ name = sym ++ Dec.natStr a) ∨ (0 < lfs ∧ name = sym ++ Dec.natStr a ++ c!"_e" ++ Dec.natStr lfs))

/-- A state of files 9 and 10: its name and its table. -/
def StateRec (x : Line × Tab1D ℚ) (ls : List Line) : Prop :=
  ∃ (c : Cont) (z a lfs : Nat) (sym : Line), TabRec c x.2 ls ∧ c.l1 = (1000 * z + a : Nat) ∧ c.l2 = lfs ∧ StateName z a lfs sym x.1

/-- Section (9, MT) or (10, MT). -/
def StateSection (xs : List (Line × Tab1D ℚ)) (ls : List Line) : Prop :=
  ∃ (h : Head) (l : Line) (bs : List (List Line)) (rest : List Line), ls = l :: (bs.flatten ++ rest) ∧ HeadLine h l ∧ h.n1 = xs.length ∧ List.Forall₂ StateRec xs bs

/-- Section (8, MT): for each state the file where its production is given; NO = 1 says that decay data are elsewhere. -/
def DecaySection (files : List Int) (ls : List Line) : Prop :=
  ∃ (h : Head) (l : Line) (bs : List (List Line)) (rest : List Line), ls = l :: (bs.flatten ++ rest) ∧ HeadLine h l ∧ h.n1 = files.length ∧
    ((h.n2 = 1 ∧ List.Forall₂ (fun lmf ls => ∃ c l, ls = [l] ∧ ContLine c l ∧ c.l1 = lmf) files bs) ∨
      (h.n2 ≠ 1 ∧ List.Forall₂ (fun lmf ls => ∃ c vs, ListRec c vs ls ∧ c.l1 = lmf) files bs))

/-- A discrete photon (LF = 2): its table, ES and LP; or one with a spectrum in file 15 (LF = 1). -/
inductive PhotonRec (mass : ℚ) : Tab1D ℚ → Option EnDist → List Line → Prop
  | discrete {c : Cont} {t : Tab1D ℚ} {ls : List Line} (h : TabRec c t ls) (h2 : c.l2 = 2) : PhotonRec mass t (some (.discretePhoton c.l1 c.c2 mass)) ls
  | continuum {c : Cont} {t : Tab1D ℚ} {ls : List Line} (h : TabRec c t ls) (h1 : c.l2 = 1) : PhotonRec mass t none ls

/-- With more than one photon a table of the total comes first. -/
def TotalFirst (n : Nat) (ls : List Line) : Prop := (n ≤ 1 ∧ ls = []) ∨ (1 < n ∧ ∃ c t, TabRec c t ls)

/-- Section (12, MT) with multiplicities (`some 1`) and section (13, MT) (`none`): tables and energies of the photons. -/
def PhotonSection (mass : ℚ) (lo : Option Int) (xs : List (Tab1D ℚ × Option EnDist)) (ls : List Line) : Prop :=
  ∃ (h : Head) (l : Line) (t : List Line) (bs : List (List Line)) (rest : List Line), ls = l :: (t ++ (bs.flatten ++ rest)) ∧ HeadLine h l ∧
    (∀ k, lo = some k → h.l1 = k) ∧ h.n1 = xs.length ∧ TotalFirst xs.length t ∧ List.Forall₂ (fun x b => PhotonRec mass x.1 x.2 b) xs bs

/-- Section (3, MT): Q and the cross section. -/
def XsSection (q : ℚ) (xs : Tab1D ℚ) (ls : List Line) : Prop :=
  ∃ (h : Head) (l : Line) (c : Cont) (b rest : List Line), ls = l :: (b ++ rest) ∧ HeadLine h l ∧ TabRec c xs b ∧ c.c2 = q

/-! ### Whole reactions -/

/-- File `mf` lists the states `ts`, if file 8 says that they are there. -/
def StateFile (ev : Ev) (mt : Int) (files : List Int) (mf : Int) (ts : List (Line × Tab1D ℚ)) : Prop :=
  (mf ∉ files ∧ ts = []) ∨ (mf ∈ files ∧ ∃ f, Dict.get? ev.sections (mf, mt) = some f ∧ StateSection ts f)

/-- A product takes the yield of the state with its name. -/
def Replaced (ss : List (Line × Tab1D ℚ)) (p p' : Prod) : Prop :=
  (∃ y, (p.particle, y) ∈ ss ∧ p' = { p with yield_ := .tab y }) ∨ (p.particle ∉ ss.map (·.1) ∧ p' = p)

/-- The product of a state that file 6 does not list. -/
def stateProduct (s : Line × Tab1D ℚ) : Prod := ⟨s.1, .prompt, 0, .tab s.2, [], []⟩

/-- A photon. -/
def photonProduct (y : Tab1D ℚ) (e : Option EnDist) : Prod := ⟨c!"photon", .prompt, 0, .tab y, [], [.uncorrelated none e]⟩

/-- The angles of file 4, if there is a section. -/
def AngleOf (ev : Ev) (mt : Int) (a : Option Angle) : Prop :=
  (Dict.get? ev.sections (4, mt) = none ∧ a = none) ∨
    ∃ f xs lct, Dict.get? ev.sections (4, mt) = some f ∧ AngleSection ev.energyMax xs lct f ∧ a = some ⟨xs.map (·.1), xs.map (·.2)⟩

/-- A neutron with a yield of one. -/
def oneNeutron (app : List (Tab1D ℚ)) (ds : List Dist) : Prod := ⟨c!"neutron", .prompt, 0, .poly [1], app, ds⟩

/-- The products of a reaction other than fission: those of file 6; or a neutron with the energies of file 5 and the angles of file 4; with file 4 alone a neutron scattered elastically, or
inelastically by a level, where energy and momentum fix its energy. -/
inductive Emission (ev : Ev) (mt : Int) (q : ℚ) : List Prod → Prop
  | none (h6 : Dict.get? ev.sections (6, mt) = none) (h5 : Dict.get? ev.sections (5, mt) = none) (h4 : Dict.get? ev.sections (4, mt) = none) : Emission ev mt q []
  | file6 {f : List Line} {ps : List Prod} {lct : Int} (h6 : Dict.get? ev.sections (6, mt) = some f) (h : ProductSection ps lct f) : Emission ev mt q ps
  | parts {f : List Line} {xs : List (Tab1D ℚ × EnDist)} {a : Option Angle} (h6 : Dict.get? ev.sections (6, mt) = .none) (h5 : Dict.get? ev.sections (5, mt) = some f)
      (h : EnergySection xs f) (ha : AngleOf ev mt a) : Emission ev mt q [oneNeutron (xs.map (·.1)) (xs.map fun x => .uncorrelated a (some x.2))]
  | elastic {a : Angle} (h2 : mt = 2) (h6 : Dict.get? ev.sections (6, mt) = .none) (h5 : Dict.get? ev.sections (5, mt) = .none) (ha : AngleOf ev mt (some a)) :
      Emission ev mt q [oneNeutron [] [.uncorrelated (some a) .none]]
  | level {a : Angle} {threshold ratio : ℚ} (h51 : 51 ≤ mt) (h90 : mt ≤ 90) (h6 : Dict.get? ev.sections (6, mt) = .none) (h5 : Dict.get? ev.sections (5, mt) = .none)
      (ha : AngleOf ev mt (some a)) (ht : threshold * ev.mass = (ev.mass + 1) * |q|) (hr : ratio * (ev.mass + 1) ^ 2 = ev.mass ^ 2) :
      Emission ev mt q [oneNeutron [] [.uncorrelated (some a) (some (.level threshold ratio))]]

/-- The numbers of fission reactions. -/
def Fission (mt : Int) : Prop := mt = 18 ∨ mt = 19 ∨ mt = 20 ∨ mt = 21 ∨ mt = 38

/-- Integral of a table that is linear between its points. -/
def integral : List ℚ → List ℚ → ℚ
  | x :: x' :: xs, y :: y' :: ys => (x' - x) * (y + y') / 2 + integral (x' :: xs) (y' :: ys)
  | _, _ => 0

end ASAPy.EndfRx
