import Verif.ResCov.Model
import Verif.Res.Spec

/-!
# Specification of file 32

Written from the ENDF-6 manual (chapter on file 32) and the documentation of the class. The types of rows are shared with the model, and the layout of records.
-/

namespace ASAPy.ResCov
open ASAPy.Endf ASAPy.Res ASAPy.Decay

/-- The upper triangle of a matrix, by rows. -/
def upper (n : Nat) (S : Nat → Nat → ℚ) : List ℚ := (List.range n).flatMap fun i => (List.range (n - i)).map fun k => S i (i + k)

/-- The six numbers of a resonance. -/
def sixBw (r : BwRow) : List ℚ := [r.energy, r.j, r.gt, r.gn, r.gg, r.gf]

def sixRm (r : RmRow) : List ℚ := [r.energy, r.j, r.gn, r.gg, r.gfa, r.gfb]

/-- What file 32 does not have is that of the resonance of file 2 with the same energy: l, and the competitive width. -/
def FromFile2Bw (rows par : List BwRow) : Prop :=
  (par.map (·.energy)).Nodup ∧ (rows.map (·.energy)).Perm (par.map (·.energy)) ∧ ∀ r ∈ rows, ∀ p ∈ par, r.energy = p.energy → r.l = p.l ∧ r.gx = p.gx

def FromFile2Rm (rows par : List RmRow) : Prop :=
  (par.map (·.energy)).Nodup ∧ (rows.map (·.energy)).Perm (par.map (·.energy)) ∧ ∀ r ∈ rows, ∀ p ∈ par, r.energy = p.energy → r.l = p.l

/-- The beginning of a range behind its first record: a radius that depends on energy if NRO is 1, and a record with LCOMP and NLS. -/
def Begin (items : Cont) (lcomp : Int) (nls : Int) (ls : List Line) : Prop :=
  ∃ (t : List Line) (ape : Option Radius) (l : Line) (c : Cont), ls = t ++ [l] ∧ ApE items.n1 ape t ∧ ContLine c l ∧ c.l2 = lcomp ∧ c.n1 = nls

/-- LCOMP = 1: a record with NSRS, and one block with MPAR, the resonances and the upper triangle of the covariance matrix. -/
def General {ρ : Type} (six : ρ → List ℚ) (rows : List ρ) (mpar : Nat) (S : Nat → Nat → ℚ) (ls : List Line) : Prop :=
  ∃ (l : Line) (c c' : Cont) (b : List Line), ls = l :: b ∧ ContLine c l ∧ c.n1 = 1 ∧ ListRec c' (rows.flatMap six ++ upper (mpar * rows.length) S) b ∧
    c'.l1 = mpar ∧ c'.n2 = rows.length

/-- LCOMP = 2, Breit-Wigner: six numbers and six uncertainties of a resonance, and the list of those that take part: not those of spin and total width, and that of
the fission width only if it is not 0. -/
inductive CompactBw : BwRow → List ℚ → List ℚ → Prop
  | three (r : BwRow) (de dn dg : ℚ) : CompactBw r [r.energy, r.j, r.gt, r.gn, r.gg, r.gf, de, 0, 0, dn, dg, 0] [de, dn, dg]
  | four (r : BwRow) (de dn dg df : ℚ) (h : df ≠ 0) : CompactBw r [r.energy, r.j, r.gt, r.gn, r.gg, r.gf, de, 0, 0, dn, dg, df] [de, dn, dg, df]

/-- LCOMP = 2, Reich-Moore: those that take part are those that are not 0. -/
inductive CompactRm : RmRow → List ℚ → List ℚ → Prop
  | three (r : RmRow) (de dn dg : ℚ) (h1 : de ≠ 0) (h2 : dn ≠ 0) (h3 : dg ≠ 0) :
      CompactRm r [r.energy, r.j, r.gn, r.gg, r.gfa, r.gfb, de, 0, dn, dg, 0, 0] [de, dn, dg]
  | four (r : RmRow) (de dn dg da : ℚ) (h1 : de ≠ 0) (h2 : dn ≠ 0) (h3 : dg ≠ 0) (h4 : da ≠ 0) :
      CompactRm r [r.energy, r.j, r.gn, r.gg, r.gfa, r.gfb, de, 0, dn, dg, da, 0] [de, dn, dg, da]
  | five (r : RmRow) (de dn dg da db : ℚ) (h1 : de ≠ 0) (h2 : dn ≠ 0) (h3 : dg ≠ 0) (h4 : da ≠ 0) (h5 : db ≠ 0) :
      CompactRm r [r.energy, r.j, r.gn, r.gg, r.gfa, r.gfb, de, 0, dn, dg, da, db] [de, dn, dg, da, db]

/-- LCOMP = 2: one record with twelve numbers for each resonance. `us` are the uncertainties that take part, resonance by resonance. -/
def Compact {ρ : Type} (one : ρ → List ℚ → List ℚ → Prop) (rows : List ρ) (us : List (List ℚ)) (ls : List Line) : Prop :=
  ∃ (c : Cont) (xs : List (List ℚ × List ℚ)), ListRec c (xs.flatMap (·.1)) ls ∧ c.n2 = rows.length ∧ us = xs.map (·.2) ∧
    List.Forall₂ (fun r x => one r x.1 x.2) rows xs

/-- LCOMP = 0: the variances and covariances of a resonance: DE², DN², DN·DG, DG², DN·DF, DG·DF, DF². -/
structure Vars where
  ee : ℚ
  nn : ℚ
  ng : ℚ
  gg : ℚ
  nf : ℚ
  gf : ℚ
  ff : ℚ

/-- The covariance of two parameters of a resonance, numbered in the order energy, neutron, capture and fission width. -/
def Vars.cov (v : Vars) : Nat → Nat → ℚ
  | 0, 0 => v.ee
  | 1, 1 => v.nn
  | 1, 2 => v.ng
  | 1, 3 => v.nf
  | 2, 2 => v.gg
  | 2, 3 => v.gf
  | 3, 3 => v.ff
  | _, _ => 0

/-- The 18 numbers of a resonance; the last five are covariances with the spin, and a zero. -/
def Compat18 (r : BwRow) (v : Vars) (vs : List ℚ) : Prop :=
  ∃ a b c d e : ℚ, vs = [r.energy, r.j, r.gt, r.gn, r.gg, r.gf, v.ee, v.nn, v.ng, v.gg, v.nf, v.gf, v.ff, a, b, c, d, e]

/-- LCOMP = 0: the record of one l. -/
def CompatL (rs : List (BwRow × Vars)) (ls : List Line) : Prop :=
  ∃ (c : Cont) (vss : List (List ℚ)), ListRec c vss.flatten ls ∧ c.n2 = rs.length ∧ List.Forall₂ (fun (r : BwRow × Vars) vs => Compat18 r.1 r.2 vs) rs vss

/-- The parameters of a draw of `mpar` numbers for a resonance: energy, neutron and capture width, and fission and competitive width where they are drawn; l, spin and
what is not drawn are those of the resonance, and the total width is the sum of the others. -/
inductive DrawnBw (r : BwRow) : List ℚ → BwRow → Prop
  | three (e gn gg : ℚ) : DrawnBw r [e, gn, gg] ⟨e, r.l, r.j, gn + gg + r.gf + r.gx, gn, gg, r.gf, r.gx⟩
  | four (e gn gg gf : ℚ) : DrawnBw r [e, gn, gg, gf] ⟨e, r.l, r.j, gn + gg + gf + r.gx, gn, gg, gf, r.gx⟩
  | five (e gn gg gf gx : ℚ) : DrawnBw r [e, gn, gg, gf, gx] ⟨e, r.l, r.j, gn + gg + gf + gx, gn, gg, gf, gx⟩

inductive DrawnRm (r : RmRow) : List ℚ → RmRow → Prop
  | three (e gn gg : ℚ) : DrawnRm r [e, gn, gg] ⟨e, r.l, r.j, gn, gg, r.gfa, r.gfb⟩
  | four (e gn gg gfa : ℚ) : DrawnRm r [e, gn, gg, gfa] ⟨e, r.l, r.j, gn, gg, gfa, r.gfb⟩
  | five (e gn gg gfa gfb : ℚ) : DrawnRm r [e, gn, gg, gfa, gfb] ⟨e, r.l, r.j, gn, gg, gfa, gfb⟩

end ASAPy.ResCov
