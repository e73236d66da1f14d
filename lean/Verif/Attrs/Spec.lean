import Verif.Attrs.Model

/-!
# What the attributes are documented to be (C226)

For each class, what each of its attributes may be. This file does not use the checks of the model.
-/

namespace ASAPy.Attrs

/-- A whole number; `True` counts as 1. -/
def Whole (v : Val) (n : Int) : Prop := v = .int n ∨ (v = .bool true ∧ n = 1) ∨ (v = .bool false ∧ n = 0)

/-- A number. -/
def Real (v : Val) (x : Flt ℚ) : Prop := v = .float x ∨ ∃ n : Int, Whole v n ∧ x = .fin n

/-- Not below 0; NaN is below nothing. -/
def NotBelow (x : Flt ℚ) : Prop := x = .nan ∨ x = .pinf ∨ ∃ q : ℚ, x = .fin q ∧ 0 ≤ q

/-- Above 0, or NaN. -/
def Over (x : Flt ℚ) : Prop := x = .nan ∨ x = .pinf ∨ ∃ q : ℚ, x = .fin q ∧ 0 < q

def IsText (v : Val) : Prop := ∃ s, v = .text s
def IsBool (v : Val) : Prop := ∃ b, v = .bool b
def IsObj (c : Cls) (v : Val) : Prop := v = .obj c
def IsWhole (v : Val) : Prop := ∃ n, Whole v n
def IsReal (v : Val) : Prop := ∃ x, Real v x
def Count (v : Val) : Prop := ∃ n, Whole v n ∧ 0 ≤ n
def Positive (v : Val) : Prop := ∃ x, Real v x ∧ Over x

/-- A list of such values, or what can be iterated like one: a text of no letters, a dictionary with such keys, an array without elements. -/
def Items (P : Val → Prop) (v : Val) : Prop :=
  (∃ l, v = .seq l ∧ ∀ x ∈ l, P x) ∨ (∃ l : List (Val × Val), v = .dict l ∧ ∀ x ∈ l, P x.1) ∨ v = .text [] ∨ ∃ k, v = .array k 0

/-- The attributes of a class and what they may be. -/
abbrev Doc := List (Text × (Val → Prop))

def neutronDoc : Doc := [
  (c!"name", IsText),
  (c!"atomic_number", Count),
  (c!"mass_number", Count),
  (c!"metastable", Count),
  (c!"atomic_weight_ratio", Positive),
  (c!"fission_energy", IsObj .fissionEnergy),
  (c!"reactions", fun v => ∃ l, v = .dict l),
  (c!"resonances", IsObj .resonances),
  (c!"resonance_covariance", IsObj .covariances)]

/-- The documentation of `IncidentNeutron.urr`: temperatures and probability tables. -/
def UrrDoc (v : Val) : Prop := ∃ l : List (Val × Val), v = .dict l ∧ ∀ kv ∈ l, IsText kv.1 ∧ IsObj .probabilityTables kv.2

def reactionDoc : Doc := [
  (c!"center_of_mass", IsBool),
  (c!"redundant", IsBool),
  (c!"q_value", IsReal),
  (c!"products", Items (IsObj .product)),
  (c!"derived_products", Items (IsObj .product)),
  (c!"xs", fun v => ∃ l : List (Val × Val), v = .dict l ∧
    ∀ kv ∈ l, IsText kv.1 ∧ ∃ c, kv.2 = .obj c ∧ c ∈ [Cls.tabulated1D, .polynomial, .combination])]

def productDoc : Doc := [
  (c!"applicability", Items (IsObj .tabulated1D)),
  (c!"decay_rate", fun v => ∃ x, Real v x ∧ NotBelow x),
  (c!"distribution", Items (IsObj .angleEnergy)),
  (c!"emission_mode", fun v => v = .text c!"prompt" ∨ v = .text c!"delayed" ∨ v = .text c!"total"),
  (c!"particle", IsText),
  (c!"yield_", fun v => v = .obj .tabulated1D ∨ v = .obj .polynomial)]

/-- A number with an uncertainty. -/
def Uncertain (v : Val) : Prop := ∃ n s, v = .ufloat n s ∧ NotBelow n ∧ NotBelow s

/-- (Not documented, but accepted, is one text for `modes`, which is then a list of letters.) -/
def decayDoc : Doc := [
  (c!"branching_ratio", Uncertain),
  (c!"energy", Uncertain),
  (c!"modes", fun v => Items IsText v ∨ IsText v),
  (c!"parent", IsText)]

def tablesDoc : Doc := [
  (c!"absorption_flag", IsWhole),
  (c!"energy", fun v => Items IsReal v ∨ ∃ n, v = .array .int n ∨ v = .array .float n),
  (c!"inelastic_flag", IsWhole),
  (c!"interpolation", fun v => ∃ n : Int, (Whole v n ∨ v = .float (.fin n)) ∧ (n = 2 ∨ n = 5)),
  (c!"multiply_smooth", IsBool),
  (c!"table", fun v => ∃ k n, v = .array k n)]

def nbodyDoc : Doc := [
  (c!"total_mass", Positive),
  (c!"n_particles", fun v => ∃ n, Whole v n ∧ 0 < n),
  (c!"atomic_weight_ratio", Positive),
  (c!"q_value", IsReal)]

/-- Whole numbers: a list, or an array of them. -/
def Wholes (v : Val) : Prop := Items IsWhole v ∨ ∃ n, v = .array .int n

/-- Numbers: a list, or an array of them. -/
def Reals (v : Val) : Prop := Items IsReal v ∨ ∃ n, v = .array .int n ∨ v = .array .float n

/-- Something that can be called with a number. -/
def IsFunction (v : Val) : Prop := v = .obj .tabulated1D ∨ v = .obj .polynomial ∨ v = .obj .combination

def maxwellDoc : Doc := [(c!"theta", IsObj .tabulated1D), (c!"u", IsReal)]

def wattDoc : Doc := [(c!"a", IsObj .tabulated1D), (c!"b", IsObj .tabulated1D), (c!"u", IsReal)]

def madlandDoc : Doc := [(c!"efl", Positive), (c!"efh", Positive), (c!"tm", IsObj .tabulated1D)]

def lineDoc : Doc := [(c!"primary_flag", IsWhole), (c!"energy", IsReal), (c!"atomic_weight_ratio", IsReal)]

def levelDoc : Doc := [(c!"threshold", IsReal), (c!"mass_ratio", IsReal)]

def continuousDoc : Doc := [(c!"breakpoints", Wholes), (c!"interpolation", Wholes), (c!"energy", Reals), (c!"energy_out", Items (IsObj .univariate))]

def kalbachDoc : Doc := [(c!"breakpoints", Wholes), (c!"interpolation", Wholes), (c!"energy", Reals), (c!"energy_out", Items (IsObj .univariate)),
  (c!"precompound", Items (IsObj .tabulated1D)), (c!"slope", Items (IsObj .tabulated1D))]

def angleDoc : Doc := [(c!"energy", Reals), (c!"mu", Items (IsObj .univariate))]

def releaseDoc : Doc := [(c!"fragments", IsFunction), (c!"prompt_neutrons", IsFunction), (c!"delayed_neutrons", IsFunction), (c!"prompt_photons", IsFunction),
  (c!"delayed_photons", IsFunction), (c!"betas", IsFunction), (c!"neutrinos", IsFunction)]

def coherentDoc : Doc := [(c!"bragg_edges", Reals), (c!"factors", Reals)]

/-- Letter of a shell and the number of its subshells (none is counted in the K shell). -/
def shells : List (Char × Nat) := [('L', 3), ('M', 5), ('N', 7), ('O', 9), ('P', 11), ('Q', 3)]

/-- The name of a subshell. -/
def IsShell (v : Val) : Prop := v = .text ['K'] ∨ ∃ s ∈ shells, ∃ k : Nat, 1 ≤ k ∧ k ≤ s.2 ∧ v = .text (s.1 :: (toString k).toList)

/-- A dictionary of such values by subshells. -/
def ByShell (P : Val → Prop) (v : Val) : Prop := ∃ l : List (Val × Val), v = .dict l ∧ ∀ kv ∈ l, IsShell kv.1 ∧ P kv.2

def relaxationDoc : Doc := [(c!"binding_energy", ByShell fun v => ∃ x, Real v x ∧ NotBelow x), (c!"num_electrons", ByShell fun v => ∃ x, Real v x ∧ NotBelow x),
  (c!"transitions", ByShell (IsObj .dataFrame))]

def photonDoc : Doc := [(c!"atomic_number", Count), (c!"atomic_relaxation", IsObj .relaxation)]

def photonReactionDoc : Doc := [(c!"anomalous_real", IsFunction), (c!"anomalous_imag", IsFunction), (c!"scattering_factor", IsFunction), (c!"xs", IsFunction)]

def uncorrelatedDoc : Doc := [(c!"angle", IsObj .angleDistribution), (c!"energy", IsObj .energyDistribution)]

/-- The classes and their documentation. -/
inductive Documented : Class → Doc → Prop
  | neutron : Documented neutron neutronDoc
  | reaction : Documented reaction reactionDoc
  | product : Documented product productDoc
  | decayMode : Documented decayMode decayDoc
  | tables : Documented tables tablesDoc
  | nbody : Documented nbody nbodyDoc
  | maxwell : Documented maxwell maxwellDoc
  | watt : Documented watt wattDoc
  | madland : Documented madland madlandDoc
  | line : Documented line lineDoc
  | level : Documented level levelDoc
  | continuous : Documented continuous continuousDoc
  | kalbach : Documented kalbach kalbachDoc
  | angle : Documented angle angleDoc
  | release : Documented release releaseDoc
  | coherent : Documented coherent coherentDoc
  | relaxation : Documented relaxation relaxationDoc
  | photon : Documented photon photonDoc
  | photonReaction : Documented photonReaction photonReactionDoc
  | uncorrelated : Documented uncorrelated uncorrelatedDoc

end ASAPy.Attrs
