import Verif.Hdf5.Spec
import Verif.Hdf5.Nuclide

/-!
# What has to come back: products, reactions, nuclides
-/

namespace ASAPy.Hdf5

open Dec

variable {K : Type} [Field K] [LinearOrder K]

def Fun1.Stored : Fun1 K → Prop
  | .tab t => Tab1D.Stored t
  | .poly _ => True

/-- The products the setters accept, with distributions that come back: there is a probability for each distribution, or none. -/
structure Product.Stored (p : Product K) : Prop where
  mode : p.mode = c!"prompt" ∨ p.mode = c!"delayed" ∨ p.mode = c!"total"
  decay : 0 ≤ p.decay
  yield_ : p.yield_.Stored
  number : p.applicability = [] ∨ p.applicability.length = p.dists.length
  tables : ∀ t ∈ p.applicability, Tab1D.Stored t
  dists : ∀ d ∈ p.dists, d.Stored

/-- What comes back. -/
def Product.back (p : Product K) : Product K := { p with dists := p.dists.map Dist.back }

/-- A name of a temperature. -/
def IsTemp (T : Text) : Prop := ∃ n, T = natStr n ++ c!"K"

/-- A cross section of a reaction, linear on the energies of the nuclide at this temperature from its threshold on. -/
def OnGrid (energy : List (Text × List K)) (T : Text) (x : Xs K) : Prop :=
  ∃ e y th, Dict.get? energy T = some e ∧ x = .tab (Tab1D.linlin (e.drop (th.getD 0)) y) th

structure Reaction.Stored (energy : List (Text × List K)) (r : Reaction K) : Prop where
  keys : (Dict.keys r.xs).Nodup
  temps : ∀ T ∈ Dict.keys r.xs, IsTemp T
  xs : ∀ T x, (T, some x) ∈ r.xs → OnGrid energy T x
  products : ∀ p ∈ r.products, p.Stored

/-- The cross section that comes back for one: a table without an index of its threshold starts at the first energy. -/
def Xs.back : Xs K → Xs K
  | .tab t th => .tab t (some (th.getD 0))
  | x => x

/-- Two reactions are the same apart from the order in which the temperatures are listed and from temperatures without a cross section; the total yield is compared apart. -/
structure SameReaction (r r' : Reaction K) : Prop where
  mt : r'.mt = r.mt
  q : r'.q = r.q
  com : r'.com = r.com
  redundant : r'.redundant = r.redundant
  products : r'.products = r.products.map Product.back
  xs : ∀ T, (Dict.get? r'.xs T).join = (Dict.get? r.xs T).join.map Xs.back

end ASAPy.Hdf5
