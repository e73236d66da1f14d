import Verif.Py
import Verif.Flt
import Verif.Dict
import Verif.Chars
import Verif.Check.Bounds
import Mathlib.Algebra.Order.Ring.Rat

/-!
# Model of the attributes of the data classes (setters in ASAPy/data)

An object has its attributes by name. Values are immutable here: what is put into a dictionary or list that an object already holds is no assignment. Iterators that can be
run through once are not modelled (C216 has them), nor are attributes with a leading underscore assigned from outside.
-/

namespace ASAPy.Attrs
open ASAPy.Check (checkGreater)

abbrev Text := List Char

/-- The classes of objects that the checks tell apart; `combination` stands for every other function of one number, too. -/
inductive Cls where
  | tabulated1D | polynomial | combination | resonances | covariances | fissionEnergy | probabilityTables | product | angleEnergy | univariate
  | angleDistribution | energyDistribution | relaxation | dataFrame | other
deriving DecidableEq

/-- The types of the elements of an array. -/
inductive Kind where
  | int | float | other
deriving DecidableEq

/-- A Python value: a number with NaN and infinities, a list or tuple, a dictionary, an array (the type of its elements and its length), a number with an uncertainty. -/
inductive Val where
  | none
  | bool (b : Bool)
  | int (i : Int)
  | float (x : Flt ℚ)
  | text (s : Text)
  | seq (l : List Val)
  | dict (l : List (Val × Val))
  | array (k : Kind) (len : Nat)
  | ufloat (nominal std : Flt ℚ)
  | obj (c : Cls)

/-- The types that values are checked against. -/
inductive Ty where
  | integral | real | str | boolean | iterable | mapping | callable | ndarray | function1D | uncertain | cls (c : Cls)

/-- `isinstance`. A `bool` is an `int`; functions can be called, of the other objects only these. (ASAPy/data/function.py 57, 98, 403, 439 for the kinds of functions) -/
def isA : Val → Ty → Bool
  | .bool _, .integral => true
  | .int _, .integral => true
  | .bool _, .real => true
  | .int _, .real => true
  | .float _, .real => true
  | .text _, .str => true
  | .bool _, .boolean => true
  | .text _, .iterable => true
  | .seq _, .iterable => true
  | .dict _, .iterable => true
  | .array _ _, .iterable => true
  | .dict _, .mapping => true
  | .array _ _, .ndarray => true
  | .ufloat _ _, .uncertain => true
  | .obj .tabulated1D, .callable => true
  | .obj .polynomial, .callable => true
  | .obj .combination, .callable => true
  | .obj .tabulated1D, .function1D => true
  | .obj .polynomial, .function1D => true
  | .obj c, .cls c' => decide (c = c')
  | _, _ => false

/-- `check_type(name, value, expected_type)`, ASAPy/data/checkvalue.py 25-34. -/
def checkType (v : Val) (t : Ty) : Except PyErr Unit := if isA v t then .ok () else .error .typeError

/-- Is the type of the elements of an array of the type expected? -/
def Kind.isA : Kind → Ty → Bool
  | .int, .integral => true
  | .int, .real => true
  | .float, .real => true
  | _, _ => false

/-- `check_type(name, value, Iterable, expected_iter_type)`, ASAPy/data/checkvalue.py 25-55. Iterating over a dictionary gives its keys. The items of an array whose elements are of another type
are of another type, too; there may be none (line 38 makes a message, but does not raise it). -/
def checkItems (v : Val) (t : Ty) : Except PyErr Unit :=
  match v with
  | .text s => if s.all fun c => isA (.text [c]) t then .ok () else .error .typeError
  | .seq l => if l.all fun x => isA x t then .ok () else .error .typeError
  | .dict l => if l.all fun x => isA x.1 t then .ok () else .error .typeError
  | .array k n => if k.isA t || n == 0 then .ok () else .error .typeError
  | _ => .error .typeError

/-- The number that a value stands for in a comparison. -/
def Val.number : Val → Option (Flt ℚ)
  | .bool b => some (.fin (if b then 1 else 0))
  | .int i => some (.fin i)
  | .float x => some x
  | _ => Option.none

/-- `check_greater_than(name, value, 0, equality)` after a check of the type, ASAPy/data/checkvalue.py 215-239. -/
def checkAbove (v : Val) (equality : Bool) : Except PyErr Unit :=
  match v.number with
  | none => .error .typeError
  | some x => checkGreater x (.fin 0) equality

/-- One check after another. -/
def both (a b : Except PyErr Unit) : Except PyErr Unit :=
  match a with
  | .error e => .error e
  | .ok _ => b

/-- Every check of a list, in order. -/
def all : List (Except PyErr Unit) → Except PyErr Unit
  | [] => .ok ()
  | a :: l => both a (all l)

/-- `check_value(name, value, accepted)` for texts, ASAPy/data/checkvalue.py 169-186. -/
def checkText (v : Val) (accepted : List Text) : Except PyErr Unit :=
  match v with
  | .text s => if s ∈ accepted then .ok () else .error .valueError
  | _ => .error .valueError

/-- `check_value(name, value, accepted)` for whole numbers: `2.0 in [2, 5]` is true. -/
def checkInt (v : Val) (accepted : List Int) : Except PyErr Unit :=
  match v.number with
  | some (.fin x) => if ∃ i ∈ accepted, x = (i : ℚ) then .ok () else .error .valueError
  | _ => .error .valueError

/-! ### Classes -/

/-- The setters of a class by the name of the attribute. -/
structure Class where
  setters : List (Text × (Val → Except PyErr Unit))

/-- The attributes that an object has. -/
abbrev Obj := List (Text × Val)

/-- Reading an attribute; the property of one that was never assigned raises. -/
def get (o : Obj) (a : Text) : Except PyErr Val :=
  match Dict.get? o a with
  | some v => .ok v
  | none => .error .attributeError

/-- `o.a = v`: the object as it is then, and the exception raised, if any. Attributes without a setter are assigned as they are. -/
def assign (c : Class) (o : Obj) (a : Text) (v : Val) : Obj × Option PyErr :=
  match Dict.get? c.setters a with
  | none => (Dict.set o a v, none)
  | some check =>
    match check v with
    | .ok _ => (Dict.set o a v, none)
    | .error e => (o, some e)

/-- Any number of assignments, whose exceptions are caught. -/
def history (c : Class) : Obj → List (Text × Val) → Obj
  | o, [] => o
  | o, (a, v) :: l => history c (assign c o a v).1 l

/-- The assignments of a constructor; the first exception is raised. -/
def construct (c : Class) : Obj → List (Text × Val) → Except PyErr Obj
  | o, [] => .ok o
  | o, (a, v) :: l =>
    match assign c o a v with
    | (o', none) => construct c o' l
    | (_, some e) => .error e

/-- The checks of `IncidentNeutron.urr`, ASAPy/data/neutron.py 229-233: `for key, value in urr` goes over the keys, and takes each apart. -/
def checkUrr (v : Val) : Except PyErr Unit :=
  match v with
  | .dict l => all (l.map fun kv =>
      match kv.1 with
      | (.text [a, b]) => both (checkType (.text [a]) .str) (checkType (.text [b]) (.cls .probabilityTables))
      | .text _ => .error .valueError
      | .seq [a, b] => both (checkType a .str) (checkType b (.cls .probabilityTables))
      | .seq _ => .error .valueError
      | _ => .error .typeError)
  | _ => .error .typeError

/-- A whole number that is not negative. -/
def checkCount (v : Val) : Except PyErr Unit := both (checkType v .integral) (checkAbove v true)

/-- A number above 0. -/
def checkPositive (v : Val) : Except PyErr Unit := both (checkType v .real) (checkAbove v false)

/-- `IncidentNeutron`, ASAPy/data/neutron.py 173-234. -/
def neutron : Class := ⟨[
  (c!"name", fun v => checkType v .str),
  (c!"atomic_number", checkCount),
  (c!"mass_number", checkCount),
  (c!"metastable", checkCount),
  (c!"atomic_weight_ratio", checkPositive),
  (c!"fission_energy", fun v => checkType v (.cls .fissionEnergy)),
  (c!"reactions", fun v => checkType v .mapping),
  (c!"resonances", fun v => checkType v (.cls .resonances)),
  (c!"resonance_covariance", fun v => checkType v (.cls .covariances)),
  (c!"urr", checkUrr)]⟩

/-- `IncidentNeutron.__init__`, ASAPy/data/neutron.py 100-113; there is no `_resonance_covariance`. The attributes that are assigned without a setter are there from the start here. -/
def makeNeutron (name z a m awr kTs : Val) : Except PyErr Obj :=
  construct neutron [(c!"fission_energy", .none), (c!"urr", .dict []), (c!"resonances", .none)]
    [(c!"name", name), (c!"atomic_number", z), (c!"mass_number", a), (c!"metastable", m), (c!"atomic_weight_ratio", awr), (c!"kTs", kTs), (c!"energy", .dict []),
      (c!"reactions", .dict [])]

/-- `Reaction`, ASAPy/data/reaction.py 839-871. -/
def reaction : Class := ⟨[
  (c!"center_of_mass", fun v => checkType v .boolean),
  (c!"redundant", fun v => checkType v .boolean),
  (c!"q_value", fun v => checkType v .real),
  (c!"products", fun v => checkItems v (.cls .product)),
  (c!"derived_products", fun v => checkItems v (.cls .product)),
  (c!"xs", fun v => match v with
    | .dict l => all (l.map fun kv => both (checkType kv.1 .str) (checkType kv.2 .callable))
    | _ => .error .typeError)]⟩

/-- `Reaction.__init__`, ASAPy/data/reaction.py 799-807. -/
def makeReaction (mt : Val) : Except PyErr Obj :=
  construct reaction [(c!"center_of_mass", .bool true), (c!"redundant", .bool false), (c!"q_value", .float (.fin 0)), (c!"xs", .dict []), (c!"products", .seq []),
    (c!"derived_products", .seq [])] [(c!"mt", mt)]

/-- `Product`, ASAPy/data/product.py 89-121. -/
def product : Class := ⟨[
  (c!"applicability", fun v => checkItems v (.cls .tabulated1D)),
  (c!"decay_rate", fun v => both (checkType v .real) (checkAbove v true)),
  (c!"distribution", fun v => checkItems v (.cls .angleEnergy)),
  (c!"emission_mode", fun v => checkText v [c!"prompt", c!"delayed", c!"total"]),
  (c!"particle", fun v => checkType v .str),
  (c!"yield_", fun v => checkType v .function1D)]⟩

/-- `Product.__init__`, ASAPy/data/product.py 42-48. -/
def makeProduct (particle : Val) : Except PyErr Obj :=
  construct product [] [(c!"particle", particle), (c!"decay_rate", .float (.fin 0)), (c!"emission_mode", .text c!"prompt"), (c!"distribution", .seq []),
    (c!"applicability", .seq []), (c!"yield_", .obj .polynomial)]

/-- The checks of a number with an uncertainty, ASAPy/data/decay.py 258-265 and 270-273; the warning about a ratio of 0 is left out. -/
def checkUncertain (v : Val) : Except PyErr Unit :=
  match v with
  | .ufloat n s => both (checkGreater n (.fin 0) true) (checkGreater s (.fin 0) true)
  | _ => .error .typeError

/-- `DecayMode`, ASAPy/data/decay.py 256-284. -/
def decayMode : Class := ⟨[
  (c!"branching_ratio", checkUncertain),
  (c!"energy", checkUncertain),
  (c!"modes", fun v => checkItems v .str),
  (c!"parent", fun v => checkType v .str)]⟩

/-- `DecayMode.__init__`, ASAPy/data/decay.py 206-212. -/
def makeDecayMode (parent modes state energy ratio : Val) : Except PyErr Obj :=
  construct decayMode [(c!"_daughter_state", state)] [(c!"parent", parent), (c!"modes", modes), (c!"energy", energy), (c!"branching_ratio", ratio)]

/-- `ProbabilityTables`, ASAPy/data/urr.py 102-130. -/
def tables : Class := ⟨[
  (c!"absorption_flag", fun v => checkType v .integral),
  (c!"energy", fun v => checkItems v .real),
  (c!"inelastic_flag", fun v => checkType v .integral),
  (c!"interpolation", fun v => checkInt v [2, 5]),
  (c!"multiply_smooth", fun v => checkType v .boolean),
  (c!"table", fun v => checkType v .ndarray)]⟩

/-- `ProbabilityTables.__init__`, ASAPy/data/urr.py 69-76. -/
def makeTables (energy table interpolation inelastic absorption multiply : Val) : Except PyErr Obj :=
  construct tables [] [(c!"energy", energy), (c!"table", table), (c!"interpolation", interpolation), (c!"inelastic_flag", inelastic), (c!"absorption_flag", absorption),
    (c!"multiply_smooth", multiply)]

/-- `NBodyPhaseSpace`, ASAPy/data/nbody.py 58-83. -/
def nbody : Class := ⟨[
  (c!"total_mass", checkPositive),
  (c!"n_particles", fun v => both (checkType v .integral) (checkAbove v false)),
  (c!"atomic_weight_ratio", checkPositive),
  (c!"q_value", fun v => checkType v .real)]⟩

/-- `NBodyPhaseSpace.__init__`, ASAPy/data/nbody.py 36-40. -/
def makeNBody (mass n awr q : Val) : Except PyErr Obj :=
  construct nbody [] [(c!"total_mass", mass), (c!"n_particles", n), (c!"atomic_weight_ratio", awr), (c!"q_value", q)]

/-! ### Distributions, atomic data -/

/-- A class whose constructor assigns its arguments to these attributes, in this order. -/
def make (c : Class) (order : List Text) (args : List Val) : Except PyErr Obj := construct c [] (order.zip args)

/-- `MaxwellEnergy` (ASAPy/data/energy_distribution.py 247-268) and `Evaporation` (380-401). -/
def maxwell : Class := ⟨[
  (c!"theta", fun v => checkType v (.cls .tabulated1D)),
  (c!"u", fun v => checkType v .real)]⟩

/-- `WattEnergy`, ASAPy/data/energy_distribution.py 516-547. -/
def watt : Class := ⟨[
  (c!"a", fun v => checkType v (.cls .tabulated1D)),
  (c!"b", fun v => checkType v (.cls .tabulated1D)),
  (c!"u", fun v => checkType v .real)]⟩

/-- `MadlandNix`, ASAPy/data/energy_distribution.py 684-719. -/
def madland : Class := ⟨[
  (c!"efl", checkPositive),
  (c!"efh", checkPositive),
  (c!"tm", fun v => checkType v (.cls .tabulated1D))]⟩

/-- `DiscretePhoton`, ASAPy/data/energy_distribution.py 807-838. -/
def line : Class := ⟨[
  (c!"primary_flag", fun v => checkType v .integral),
  (c!"energy", fun v => checkType v .real),
  (c!"atomic_weight_ratio", fun v => checkType v .real)]⟩

/-- `LevelInelastic`, ASAPy/data/energy_distribution.py 916-937. -/
def level : Class := ⟨[
  (c!"threshold", fun v => checkType v .real),
  (c!"mass_ratio", fun v => checkType v .real)]⟩

/-- `ContinuousTabular`, ASAPy/data/energy_distribution.py 1021-1066. -/
def continuous : Class := ⟨[
  (c!"breakpoints", fun v => checkItems v .integral),
  (c!"interpolation", fun v => checkItems v .integral),
  (c!"energy", fun v => checkItems v .real),
  (c!"energy_out", fun v => checkItems v (.cls .univariate))]⟩

/-- `KalbachMann`, ASAPy/data/kalbach_mann.py 55-122. -/
def kalbach : Class := ⟨[
  (c!"breakpoints", fun v => checkItems v .integral),
  (c!"interpolation", fun v => checkItems v .integral),
  (c!"energy", fun v => checkItems v .real),
  (c!"energy_out", fun v => checkItems v (.cls .univariate)),
  (c!"precompound", fun v => checkItems v (.cls .tabulated1D)),
  (c!"slope", fun v => checkItems v (.cls .tabulated1D))]⟩

/-- `AngleDistribution`, ASAPy/data/angle_distribution.py 36-59. -/
def angle : Class := ⟨[
  (c!"energy", fun v => checkItems v .real),
  (c!"mu", fun v => checkItems v (.cls .univariate))]⟩

/-- `FissionEnergyRelease`, ASAPy/data/fission_energy.py 93-101 and 161-194. -/
def release : Class := ⟨[
  (c!"fragments", fun v => checkType v .callable),
  (c!"prompt_neutrons", fun v => checkType v .callable),
  (c!"delayed_neutrons", fun v => checkType v .callable),
  (c!"prompt_photons", fun v => checkType v .callable),
  (c!"delayed_photons", fun v => checkType v .callable),
  (c!"betas", fun v => checkType v .callable),
  (c!"neutrinos", fun v => checkType v .callable)]⟩

/-- `CoherentElastic`, ASAPy/data/thermal.py 137-167. -/
def coherent : Class := ⟨[
  (c!"bragg_edges", fun v => checkItems v .real),
  (c!"factors", fun v => checkItems v .real)]⟩

/-- `_SUBSHELLS`, ASAPy/data/photon.py 22-26. -/
def subshells : List Text := [c!"K", c!"L1", c!"L2", c!"L3", c!"M1", c!"M2", c!"M3", c!"M4", c!"M5", c!"N1", c!"N2", c!"N3", c!"N4", c!"N5", c!"N6", c!"N7", c!"O1", c!"O2",
  c!"O3", c!"O4", c!"O5", c!"O6", c!"O7", c!"O8", c!"O9", c!"P1", c!"P2", c!"P3", c!"P4", c!"P5", c!"P6", c!"P7", c!"P8", c!"P9", c!"P10", c!"P11", c!"Q1", c!"Q2", c!"Q3"]

/-- The checks of a dictionary by subshells, ASAPy/data/photon.py 182-206. -/
def checkShells (v : Val) (f : Val → Except PyErr Unit) : Except PyErr Unit :=
  match v with
  | .dict l => all (l.map fun kv => both (checkText kv.1 subshells) (f kv.2))
  | _ => .error .typeError

/-- `AtomicRelaxation`, ASAPy/data/photon.py 161-206. -/
def relaxation : Class := ⟨[
  (c!"binding_energy", fun v => checkShells v fun x => both (checkType x .real) (checkAbove x true)),
  (c!"num_electrons", fun v => checkShells v fun x => both (checkType x .real) (checkAbove x true)),
  (c!"transitions", fun v => checkShells v fun x => checkType x (.cls .dataFrame))]⟩

/-- `IncidentPhoton`, ASAPy/data/photon.py 414-424. -/
def photon : Class := ⟨[
  (c!"atomic_number", checkCount),
  (c!"atomic_relaxation", fun v => checkType v (.cls .relaxation))]⟩

/-- `IncidentPhoton.__init__`, ASAPy/data/photon.py 379-385. -/
def makePhoton (z : Val) : Except PyErr Obj :=
  construct photon [(c!"atomic_relaxation", .none)] [(c!"atomic_number", z), (c!"reactions", .dict []), (c!"compton_profiles", .dict []), (c!"stopping_powers", .dict []),
    (c!"bremsstrahlung", .dict [])]

/-- `PhotonReaction`, ASAPy/data/photon.py 844-864. -/
def photonReaction : Class := ⟨[
  (c!"anomalous_real", fun v => checkType v .callable),
  (c!"anomalous_imag", fun v => checkType v .callable),
  (c!"scattering_factor", fun v => checkType v .callable),
  (c!"xs", fun v => checkType v .callable)]⟩

/-- `PhotonReaction.__init__`, ASAPy/data/photon.py 813-818. -/
def makePhotonReaction (mt : Val) : Except PyErr Obj :=
  construct photonReaction [(c!"xs", .none), (c!"scattering_factor", .none), (c!"anomalous_real", .none), (c!"anomalous_imag", .none)] [(c!"mt", mt)]

/-- `UncorrelatedAngleEnergy`, ASAPy/data/uncorrelated.py 45-55. -/
def uncorrelated : Class := ⟨[
  (c!"angle", fun v => checkType v (.cls .angleDistribution)),
  (c!"energy", fun v => checkType v (.cls .energyDistribution))]⟩

/-- `UncorrelatedAngleEnergy.__init__`, ASAPy/data/uncorrelated.py 27-34. -/
def makeUncorrelated (angle energy : Val) : Except PyErr Obj :=
  construct uncorrelated [(c!"angle", .none), (c!"energy", .none)]
    ((match angle with | .none => [] | v => [(c!"angle", v)]) ++ match energy with | .none => [] | v => [(c!"energy", v)])

end ASAPy.Attrs
