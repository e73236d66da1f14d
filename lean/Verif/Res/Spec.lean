import Verif.Res.Model
import Verif.Decay.Spec

/-!
# Specification of file 2

Written from the ENDF-6 manual (chapter on file 2). Only the types of the attributes (`Range` and its parts) and the layout of records (`Verif.Endf.Spec`,
`Decay.ListRec`, `Decay.Tab1Rec`) are shared with the model.
-/

namespace ASAPy.Res
open ASAPy.Endf ASAPy.Decay

/-- The energy-dependent radius AP(E): a TAB1 record if NRO is 1, none if NRO is 0. -/
inductive ApE : Int → Option Radius → List Line → Prop
  | none : ApE 0 none []
  | table {c : Cont} {regions : List (Int × Int)} {points : List (ℚ × ℚ)} {ls : List Line} (h : Tab1Rec c regions points ls) :
      ApE 1 (some (.table regions points)) ls

/-- Channel and scattering radius by NRO and NAPS, from the radius that is a function of energy, the constant one, and the mass. -/
inductive Radii (ap : Radius) (awri : ℚ) : Int → Int → Option Radius → Radius → Radius → Prop
  | massConst : Radii ap awri 0 0 none (.fromMass awri) ap
  | const : Radii ap awri 0 1 none ap ap
  | massTable {t : Radius} : Radii ap awri 1 0 (some t) (.fromMass awri) t
  | table {t : Radius} : Radii ap awri 1 1 (some t) t t
  | constTable {t : Radius} : Radii ap awri 1 2 (some t) ap t

/-! ### Breit-Wigner -/

/-- The parameters of one l. -/
structure BwL where
  l : Int
  q : ℚ
  channel : Radius
  scattering : Radius
  rows : List BwRow

/-- The record of one l: AWRI, QX, L, LRX and six numbers for each resonance. The competitive width is what is left of the total width if LRX is 1. -/
def BwL.Rec (nro naps : Int) (ap : ℚ) (ape : Option Radius) (awri : ℚ) (b : BwL) (ls : List Line) : Prop :=
  ∃ c : Cont, ListRec c (b.rows.flatMap fun r => [r.energy, r.j, r.gt, r.gn, r.gg, r.gf]) ls ∧ c.c1 = awri ∧ c.c2 = b.q ∧ c.l1 = b.l ∧
    ((c.l2 = 0 ∧ ∀ r ∈ b.rows, r.gx = 0) ∨ (c.l2 = 1 ∧ ∀ r ∈ b.rows, r.gt = r.gn + r.gg + r.gf + r.gx)) ∧ (∀ r ∈ b.rows, r.l = b.l) ∧
    Radii (.const ap) awri nro naps ape b.channel b.scattering

/-- A Breit-Wigner range behind its first record. -/
def BwRec (items : Cont) (r : Bw) (ls : List Line) : Prop :=
  ∃ (t : List Line) (ape : Option Radius) (l : Line) (c : Cont) (bs : List BwL) (bls : List (List Line)), ls = t ++ (l :: bls.flatten) ∧
    ApE items.n1 ape t ∧ ContLine c l ∧ c.n1 = bs.length ∧ bs ≠ [] ∧ (bs.map (·.l)).Nodup ∧
    List.Forall₂ (BwL.Rec items.n1 items.n2 c.c2 ape r.awri) bs bls ∧
    r.base = ⟨c.c1, items.c1, items.c2, bs.map fun b => (b.l, b.channel), bs.map fun b => (b.l, b.scattering)⟩ ∧
    r.q = (bs.map fun b => (b.l, b.q)) ∧ r.rows = bs.flatMap (·.rows)

/-! ### Reich-Moore -/

structure RmL where
  l : Int
  channel : Radius
  scattering : Radius
  rows : List RmRow

/-- The record of one l: AWRI, APL, L and six numbers for each resonance. APL takes the place of AP if it is not 0. -/
def RmL.Rec (nro naps : Int) (ap : ℚ) (ape : Option Radius) (awri : ℚ) (b : RmL) (ls : List Line) : Prop :=
  ∃ (c : Cont) (a : ℚ), ListRec c (b.rows.flatMap fun r => [r.energy, r.j, r.gn, r.gg, r.gfa, r.gfb]) ls ∧ c.c1 = awri ∧ c.l1 = b.l ∧
    (∀ r ∈ b.rows, r.l = b.l) ∧ ((c.c2 = 0 ∧ a = ap) ∨ (c.c2 ≠ 0 ∧ a = c.c2)) ∧ Radii (.const a) awri nro naps ape b.channel b.scattering

/-- A Reich-Moore range behind its first record: SPI, AP, LAD, NLS, NLSC. -/
def RmRec (items : Cont) (r : Rm) (ls : List Line) : Prop :=
  ∃ (t : List Line) (ape : Option Radius) (l : Line) (c : Cont) (bs : List RmL) (bls : List (List Line)), ls = t ++ (l :: bls.flatten) ∧
    ApE items.n1 ape t ∧ ContLine c l ∧ c.n1 = bs.length ∧ bs ≠ [] ∧ (bs.map (·.l)).Nodup ∧
    List.Forall₂ (RmL.Rec items.n1 items.n2 c.c2 ape r.awri) bs bls ∧
    r.base = ⟨c.c1, items.c1, items.c2, bs.map fun b => (b.l, b.channel), bs.map fun b => (b.l, b.scattering)⟩ ∧
    r.rows = bs.flatMap (·.rows) ∧ (r.angle = true ↔ c.l2 = 1) ∧ r.conv = c.n2

/-! ### R-matrix limited -/

/-- The twelve numbers of a particle pair: MA, MB, ZA, ZB, IA, IB, Q, PNT, SHF, MT, PA, PB. -/
def pairValues (p : Pair) : List ℚ :=
  [p.first.mass, p.second.mass, p.first.z, p.second.z, p.first.spin, p.second.spin, p.q, p.penetrability, p.shift, p.mt, p.first.parity, p.second.parity]

/-- The six numbers of a channel: the number of the pair, counted from 1, L, SCH, BND, APE, APT. -/
def ChannelValues (pairs : List Pair) (c : Channel) (vs : List ℚ) : Prop :=
  ∃ k : Nat, pairs[k]? = some c.pair ∧ vs = [((k + 1 : Nat) : ℚ), c.l, c.spin, c.boundary, c.effective, c.true]

/-- The numbers of a resonance: its energy, the widths of the `n` channels, and zeros up to the end of the line. -/
def ResValues (n : Nat) (row vs : List ℚ) : Prop :=
  row.length = n + 1 ∧ ∃ pad : List ℚ, vs = row ++ pad ∧ 6 ∣ vs.length ∧ pad.length < 6

/-- The name of the column of a channel: that of the reaction. -/
inductive ColumnOf : Int → Column → Prop
  | elastic : ColumnOf 2 .neutron
  | fission : ColumnOf 18 .fission
  | capture : ColumnOf 102 .capture
  | other {mt : Int} (h : mt ≠ 2 ∧ mt ≠ 18 ∧ mt ≠ 102) : ColumnOf mt (.mt mt)

/-- A background R-matrix (KBK) or phase shifts (KPS) for at most one channel: none; a LIST record with parameters; or one that is followed by the tables of the real and the imaginary part. -/
inductive ExtRec : Int → List Line → Prop
  | none : ExtRec 0 []
  | parameters {c : Cont} {vs : List ℚ} {a : List Line} (h : ListRec c vs a) (hn : c.n1 ≠ 1) : ExtRec 1 a
  | tables {c c1 c2 : Cont} {vs : List ℚ} {r1 r2 : List (Int × Int)} {p1 p2 : List (ℚ × ℚ)} {a b1 b2 : List Line} (h : ListRec c vs a) (hn : c.n1 = 1) (h1 : Tab1Rec c1 r1 p1 b1)
      (h2 : Tab1Rec c2 r2 p2 b2) : ExtRec 1 (a ++ (b1 ++ b2))

/-- The records of a spin group: AJ, PJ, and the channels, then the resonances. The sign of AJ is the parity; for spin 0 it is PJ. -/
def GroupBody (pairs : List Pair) (g : Group) (c : Cont) (a b : List Line) : Prop :=
  ∃ (c' : Cont) (cvs rvs : List (List ℚ)) (extra : List ℚ), ListRec c cvs.flatten a ∧
    c.n2 = g.channels.length ∧ List.Forall₂ (ChannelValues pairs) g.channels cvs ∧
    0 ≤ g.spin ∧ ((c.c1 ≠ 0 ∧ c.c1 = (if g.parity then g.spin else -g.spin)) ∨ (c.c1 = 0 ∧ g.spin = 0 ∧ c.c2 = (if g.parity then 1 else -1))) ∧
    List.Forall₂ (fun ch col => ColumnOf ch.pair.mt col) g.channels g.columns ∧
    ListRec c' (rvs.flatten ++ extra) b ∧ c'.l2 = g.rows.length ∧ List.Forall₂ (ResValues g.channels.length) g.rows rvs ∧ (g.rows ≠ [] → extra = [])

/-- A spin group with its extensions, KBK and KPS of them. -/
def GroupRec (pairs : List Pair) (g : Group) (ls : List Line) : Prop :=
  ∃ (c : Cont) (a b bk ps : List Line), ls = a ++ (b ++ (bk ++ ps)) ∧ GroupBody pairs g c a b ∧ ExtRec c.l1 bk ∧ ExtRec c.l2 ps

/-- A range of the R-matrix limited format behind its first record. -/
def RmlRec (items : Cont) (r : Rml) (ls : List Line) : Prop :=
  ∃ (l : Line) (c c' : Cont) (a : List Line) (gls : List (List Line)), ls = l :: (a ++ gls.flatten) ∧ ContLine c l ∧ (r.reduced = true ↔ c.l1 = 1) ∧
    r.formalism = c.l2 ∧ c.n1 = r.groups.length ∧ ListRec c' (r.pairs.flatMap pairValues) a ∧ c'.n2 = 2 * r.pairs.length ∧
    List.Forall₂ (GroupRec r.pairs) r.groups gls ∧ r.emin = items.c1 ∧ r.emax = items.c2

/-! ### Unresolved -/

/-- SPI, AP and LSSF, and the radius by NRO. -/
def UnrHead (items : Cont) (ape : Option Radius) (spi ap : ℚ) (lssf : Int) (r : Unr) : Prop :=
  r.spin = spi ∧ r.emin = items.c1 ∧ r.emax = items.c2 ∧ (r.background = true ↔ lssf = 0) ∧
    ((items.n1 = 0 ∧ ape = none ∧ r.scattering = .const ap) ∨ (items.n1 = 1 ∧ ape = some r.scattering))

/-- Case A: the record of one l, with D, AJ, AMUN, GNO, GG and a sixth number for each J. -/
def ARec (rows : List RowA) (ls : List Line) : Prop :=
  ∃ (c : Cont) (vss : List (List ℚ)), ListRec c vss.flatten ls ∧ c.n2 = rows.length ∧
    List.Forall₂ (fun (r : RowA) vs => r.l = c.l1 ∧ r.gf = 0 ∧ ∃ x, vs = [r.d, r.j, r.amun, r.gn, r.gg, x]) rows vss

/-- Case A behind the first record. -/
def UnrA (items : Cont) (r : Unr) (ls : List Line) : Prop :=
  ∃ (t : List Line) (ape : Option Radius) (l : Line) (c : Cont) (rss : List (List RowA)) (bls : List (List Line)), ls = t ++ (l :: bls.flatten) ∧
    ApE items.n1 ape t ∧ ContLine c l ∧ c.n1 = rss.length ∧ UnrHead items ape c.c1 c.c2 c.l1 r ∧ List.Forall₂ ARec rss bls ∧ r.energies = none ∧
    r.par = .a rss.flatten

/-- Case C: the record of one J, with six numbers for the degrees of freedom and six for each energy. -/
def CRec (l : Int) (rows : List RowC) (ls : List Line) : Prop :=
  ∃ (c : Cont) (dof : List ℚ), ListRec c (dof ++ rows.flatMap fun r => [r.e, r.d, r.gx, r.gn0, r.gg, r.gf]) ls ∧ dof.length = 6 ∧ c.n2 = rows.length ∧
    ∀ r ∈ rows, r.l = l ∧ r.j = c.c1

/-- Case C: the records of one l. -/
def CBlock (rows : List RowC) (ls : List Line) : Prop :=
  ∃ (l : Line) (c : Cont) (rss : List (List RowC)) (lss : List (List Line)), ls = l :: lss.flatten ∧ ContLine c l ∧ c.n1 = rss.length ∧
    List.Forall₂ (CRec c.l1) rss lss ∧ rows = rss.flatten

/-- Case C behind the first record. -/
def UnrC (items : Cont) (r : Unr) (ls : List Line) : Prop :=
  ∃ (t : List Line) (ape : Option Radius) (l : Line) (c : Cont) (rss : List (List RowC)) (bls : List (List Line)), ls = t ++ (l :: bls.flatten) ∧
    ApE items.n1 ape t ∧ ContLine c l ∧ c.n1 = rss.length ∧ UnrHead items ape c.c1 c.c2 c.l1 r ∧ List.Forall₂ CBlock rss bls ∧ r.energies = none ∧
    r.par = .c rss.flatten

/-- Case B: the parameters of one l and J, with a fission width for each energy. -/
structure ParB where
  l : Int
  j : ℚ
  d : ℚ
  amun : ℚ
  gn0 : ℚ
  gg : ℚ
  gf : List ℚ

/-- Case B: the record of one J. -/
def BRec (ne : Nat) (l : Int) (p : ParB) (ls : List Line) : Prop :=
  ∃ (c : Cont) (x : ℚ), ListRec c ([p.d, p.j, p.amun, p.gn0, p.gg, x] ++ p.gf) ls ∧ p.l = l ∧ p.gf.length = ne

/-- Case B: the records of one l. -/
def BBlock (ne : Nat) (ps : List ParB) (ls : List Line) : Prop :=
  ∃ (l : Line) (c : Cont) (lss : List (List Line)), ls = l :: lss.flatten ∧ ContLine c l ∧ c.n1 = ps.length ∧ List.Forall₂ (BRec ne c.l1) ps lss

/-- Case B behind the first record, up to the table of parameters: energies and parameters. -/
def UnrB (items : Cont) (r : Unr) (es : List ℚ) (ps : List ParB) (ls : List Line) : Prop :=
  ∃ (t : List Line) (ape : Option Radius) (c : Cont) (e : List Line) (pss : List (List ParB)) (bls : List (List Line)), ls = t ++ (e ++ bls.flatten) ∧
    ApE items.n1 ape t ∧ ListRec c es e ∧ c.n2 = pss.length ∧ UnrHead items ape c.c1 c.c2 c.l1 r ∧ List.Forall₂ (BBlock es.length) pss bls ∧
    r.energies = some es ∧ ps = pss.flatten

/-! ### The section -/

/-- What follows the first record of a range, by LRU (L1), LRF (L2) and LFW; without case B. -/
inductive Body (mass : ℚ) (items : Cont) : Bool → Range → List Line → Prop
  | radius {lfw : Bool} {c : Cont} {l : Line} (h1 : items.l1 = 0) (h2 : items.l2 = 0) (h3 : items.n1 = 0) (hc : ContLine c l) :
      Body mass items lfw (.radius ⟨c.c1, items.c1, items.c2, [(0, .fromMass mass)], [(0, .const c.c2)]⟩) [l]
  | slbw {lfw : Bool} {r : Bw} {ls : List Line} (h1 : items.l1 = 1) (h2 : items.l2 = 1) (h3 : r.multi = false) (h : BwRec items r ls) : Body mass items lfw (.bw r) ls
  | mlbw {lfw : Bool} {r : Bw} {ls : List Line} (h1 : items.l1 = 1) (h2 : items.l2 = 2) (h3 : r.multi = true) (h : BwRec items r ls) : Body mass items lfw (.bw r) ls
  | rm {lfw : Bool} {r : Rm} {ls : List Line} (h1 : items.l1 = 1) (h2 : items.l2 = 3) (h : RmRec items r ls) : Body mass items lfw (.rm r) ls
  | rml {lfw : Bool} {r : Rml} {ls : List Line} (h1 : items.l1 = 1) (h2 : items.l2 = 7) (h : RmlRec items r ls) : Body mass items lfw (.rml r) ls
  | unrA {r : Unr} {ls : List Line} (h1 : items.l1 = 2) (h2 : items.l2 = 1) (h : UnrA items r ls) : Body mass items false (.unr r) ls
  | unrC {lfw : Bool} {r : Unr} {ls : List Line} (h1 : items.l1 = 2) (h2 : items.l2 = 2) (h : UnrC items r ls) : Body mass items lfw (.unr r) ls

/-- A range with its first record. -/
def RangeRec (mass : ℚ) (lfw : Bool) (r : Range) (ls : List Line) : Prop :=
  ∃ (l : Line) (items : Cont) (body : List Line), ls = l :: body ∧ ContLine items l ∧ Body mass items lfw r body

/-- An isotope: LFW, NER and its ranges. -/
def IsotopeRec (mass : ℚ) (rs : List Range) (ls : List Line) : Prop :=
  ∃ (l : Line) (c : Cont) (lfw : Bool) (rls : List (List Line)), ls = l :: rls.flatten ∧ ContLine c l ∧ c.l2 = (if lfw then 1 else 0) ∧ c.n1 = rs.length ∧
    List.Forall₂ (RangeRec mass lfw) rs rls

/-- Section (2, 151). -/
def SectionRec (mass : ℚ) (isos : List (List Range)) (ls : List Line) : Prop :=
  ∃ (l : Line) (h : Head) (ils : List (List Line)) (rest : List Line), ls = l :: (ils.flatten ++ rest) ∧ HeadLine h l ∧ h.n1 = isos.length ∧
    List.Forall₂ (IsotopeRec mass) isos ils

end ASAPy.Res
