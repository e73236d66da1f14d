import Verif.Components.Model
import Mathlib.Logic.Relation

/-! # Specification: what a reaction is made of -/

namespace ASAPy.Comp

/-- `m` is `mt` itself, or one of the reactions `mt` is the sum of, or one of those they are the sum of, and so on. -/
def PartOf (mt m : Nat) : Prop := Relation.ReflTransGen (fun a b => b ∈ parts a) mt m

/-- The reaction is on the file, and nothing it is made of is. -/
def Leaf (present : Nat → Bool) (m : Nat) : Prop := present m = true ∧ ∀ m', PartOf m m' → m' ≠ m → present m' = false

end ASAPy.Comp
