import Verif.Editor.Model

/-!
# Vocabulary of the properties C01-C11

The properties are stated with the public methods (`getSigma`, `getEnergy`, `setSigma`, `applySumRules`,
`adjusted`) and the definitions of this file.
-/

namespace ASAPy.Ace

variable {K : Type*} [Field K] [LinearOrder K] [ExpLog K]

/-- `mt` is one of the cross sections on the file. -/
def OnFile (file : Table K) (mt : MT) : Prop := ∃ r, (mt, r) ∈ file.reactions

/-- A well-formed file: every MT once; 452 and 1018 are no reactions; at the temperature `T` (the first one of the
reaction) every reaction has a non-empty lin-lin table with one value per energy. `from_ace` produces such tables
(data/neutron.py 571-700, data/reaction.py 959-). -/
structure WellFormed (file : Table K) (T : Temp) : Prop where
  nodup : (file.reactions.map Prod.fst).Nodup
  noSpecial : ∀ r, (452, r) ∉ file.reactions ∧ (1018, r) ∉ file.reactions
  data : ∀ mt r, (mt, r) ∈ file.reactions →
    ∃ x y rest, r.xs = (T, Tab1D.linlin x y) :: rest ∧ y.length = x.length ∧ x ≠ []

/-- The sum rules of ASAPy as documented: `Part s c` says that reaction `c` is a part of the redundant reaction
`s`. -/
def Part (s c : MT) : Prop :=
  (s = 103 ∧ 600 ≤ c ∧ c < 650) ∨ (s = 104 ∧ 650 ≤ c ∧ c < 700) ∨ (s = 105 ∧ 700 ≤ c ∧ c < 750) ∨
  (s = 106 ∧ 750 ≤ c ∧ c < 800) ∨ (s = 107 ∧ 800 ≤ c ∧ c < 850) ∨
  ((s = 101 ∨ s = 27) ∧ (c = 102 ∨ (600 ≤ c ∧ c < 850) ∨ c = 108 ∨ c = 109 ∨ (111 ≤ c ∧ c ≤ 117) ∨ c = 155 ∨
    c = 182 ∨ c = 191 ∨ c = 192 ∨ c = 193 ∨ c = 197)) ∨
  ((s = 18 ∨ s = 27) ∧ (c = 19 ∨ c = 20 ∨ c = 21 ∨ c = 38)) ∨
  (s = 16 ∧ 875 ≤ c ∧ c ≤ 891) ∨ (s = 4 ∧ 50 ≤ c ∧ c ≤ 91) ∨
  ((s = 3 ∨ s = 1) ∧ (c = 4 ∨ c = 5 ∨ c = 11 ∨ c = 16 ∨ c = 17 ∨ c = 18 ∨ (22 ≤ c ∧ c ≤ 26) ∨
    (28 ≤ c ∧ c ≤ 37) ∨ c = 41 ∨ c = 42 ∨ c = 44 ∨ c = 45 ∨ (102 ≤ c ∧ c ≤ 117))) ∨
  (s = 1 ∧ c = 2)

/-- The value of `mt` at one energy, as `get_sigma(mt, at_energies=[e])` gives it (0 if it raises). -/
def sigmaAt (ed : Editor K) (mt : MT) (unadjusted : Bool) (e : K) : K :=
  match getSigma ed mt (some [e]) unadjusted with
  | .ok (.arr [v]) => v
  | _ => 0

/-- An array whose values are all the same. -/
def Flat (v : Val K) : Prop := ∃ l c, v = .arr l ∧ ∀ y ∈ l, y = c

/-- Two editors give the same answers, for the current as well as for the unadjusted data. -/
def SameData (ed ed' : Editor K) : Prop :=
  ∀ mt, getEnergy ed mt = getEnergy ed' mt ∧
    ∀ at? un, getSigma ed mt at? un = getSigma ed' mt at? un

/-- The calls of a history that set something. -/
def setsOf : List (Op K) → List (MT × Val K)
  | [] => []
  | .set mt v :: ops => (mt, v) :: setsOf ops
  | .sums :: ops => setsOf ops

/-- An editor that was opened on the file at temperature `T` and on which any calls were made. -/
def Reachable (file : Table K) (T : Temp) (ed : Editor K) : Prop :=
  ∃ t ed0 ops, init file t = .ok ed0 ∧ ed0.temperature = T ∧ ed = run ed0 ops

/-- The MTs whose data follow from adjusting the MTs in `adj`: those themselves, and every redundant reaction on the
file with such a part on the file. -/
inductive Reached (file : Table K) (adj : List MT) : MT → Prop
  | here {m : MT} : m ∈ adj → Reached file adj m
  | up {s c : MT} : OnFile file s → OnFile file c → Part s c → Reached file adj c → Reached file adj s

/-- No call of the history that sets chi is rejected. -/
def NoRejectedChi (ed : Editor K) (ops : List (Op K)) : Prop :=
  ∀ pre v post, ops = pre ++ .set 1018 v :: post → (setSigma (run ed pre) 1018 v).2 = .ok ()

end ASAPy.Ace
