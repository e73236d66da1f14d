import Mathlib.Data.List.Nodup

/-! # Model: reaction components (ASAPy/data/neutron.py, ASAPy/data/endf.py) -/

namespace ASAPy.Comp

/-- `list(range(a, a + n))`. -/
def range (a n : Nat) : List Nat := (List.range n).map (a + ·)

/-- `SUM_RULES`, ASAPy/data/endf.py lines 51-67, as a list of entries. -/
def sumRules : List (Nat × List Nat) :=
  [(1, [2, 3]),
   (3, [4, 5, 11, 16, 17, 22, 23, 24, 25, 27, 28, 29, 30, 32, 33, 34, 35, 36, 37, 41, 42, 44, 45, 152, 153, 154, 156, 157, 158, 159, 160, 161, 162, 163,
     164, 165, 166, 167, 168, 169, 170, 171, 172, 173, 174, 175, 176, 177, 178, 179, 180, 181, 183, 184, 185, 186, 187, 188, 189, 190, 194, 195, 196, 198,
     199, 200]),
   (4, range 50 42),
   (16, range 875 17),
   (18, [19, 20, 21, 38]),
   (27, [18, 101]),
   (101, [102, 103, 104, 105, 106, 107, 108, 109, 111, 112, 113, 114, 115, 116, 117, 155, 182, 191, 192, 193, 197]),
   (103, range 600 50),
   (104, range 650 50),
   (105, range 700 50),
   (106, range 750 50),
   (107, range 800 50)]

/-- `SUM_RULES[mt]`, or nothing if `mt not in SUM_RULES`. -/
def parts (mt : Nat) : List Nat := (sumRules.lookup mt).getD []

/-- Lines 394-395: the components `f` of some reactions, one after the other. -/
def concatAll (f : Nat → Option (List Nat)) : List Nat → Option (List Nat)
  | [] => some []
  | mt :: mts => match f mt, concatAll f mts with
    | some a, some b => some (a ++ b)
    | _, _ => none

/-- `IncidentNeutron.get_reaction_components(mt)`, ASAPy/data/neutron.py lines 377-399, where `present mt` is `mt in self`. `none` means that the
recursion is deeper than the first argument. -/
def components (present : Nat → Bool) : Nat → Nat → Option (List Nat)
  | 0, _ => none
  | k + 1, mt => match concatAll (components present k) (parts mt) with       -- 392-395
    | none => none
    | some mts => if mts ≠ [] then some mts                                   -- 396-397
      else some (if present mt then [mt] else [])                             -- 399

end ASAPy.Comp
