import Verif.Func.Model
import Verif.Tab1D.Spec

/-!
# Vocabulary of the properties of sums of functions (C100-C104)

Nothing here refers to how `sum_functions` works.
-/

namespace ASAPy.Func
open ASAPy.Tab1D

variable {K : Type*} [Field K] [LinearOrder K] [ExpLog K]

/-- `s` is the sum of the values of the functions at `v`. -/
def IsSum (fs : List (Fn K)) (v s : K) : Prop := ∃ ys : List K, List.Forall₂ (fun f y => Fn.eval f v = .ok y) fs ys ∧ s = ys.sum

/-- An end point, or not so close to one that `Tabulated1D` takes it for one. -/
def Fine (a b v : K) : Prop := v = a ∨ v = b ∨ (¬ TakenFor v a ∧ ¬ TakenFor v b)

/-- A lin-lin table from `a` to `b`, without further points that are taken for end points. -/
structure LinTab (a b : K) (t : Tab1D K) : Prop where
  wf : WF t
  law : ∀ l ∈ t.interpolation, l = 2
  first : t.x.head wf.nonempty = a
  last : t.x.getLast wf.nonempty = b
  fine : ∀ x ∈ t.x, Fine a b x

/-- A lin-lin table from `a` to `b`, or a polynomial of degree at most one: what a lin-lin table from `a` to `b` can represent. -/
def Affine (a b : K) : Fn K → Prop
  | .tab t => LinTab a b t
  | .poly c => c ≠ [] ∧ c.length ≤ 2

/-- The components in the order of ENDF-6, 1.5 (IFC 1 to 7). -/
def Release.list (r : Release K) : List (Fn K) :=
  [r.fragments, r.promptNeutrons, r.delayedNeutrons, r.promptPhotons, r.delayedPhotons, r.betas, r.neutrinos]

/-- A coefficient of second order, in a polynomial of second order, that changes the energy released by more than 100 MeV for a neutron of 5 MeV, was given in MeV. -/
def inEv (npoly k : Nat) (c : K) : K := if npoly = 2 ∧ k = 2 ∧ 100 * 10 ^ 6 < |c| * (5 * 10 ^ 6) ^ 2 then c / 10 ^ 6 else c

end ASAPy.Func
