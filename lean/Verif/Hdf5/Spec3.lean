import Verif.Hdf5.Spec2

/-!
# What has to come back: nuclides
-/

namespace ASAPy.Hdf5

open Dec

variable {K : Type} [Field K] [LinearOrder K] [ExpLog K]

/-- Functions that can be written. -/
def FnStored (f : Func.Fn K) : Prop := (ofFn f).Stored

/-- A fission energy release whose functions, and whose two Q values, can be written. -/
structure ReleaseStored (r : Func.Release K) : Prop where
  parts : ∀ f ∈ [r.fragments, r.promptNeutrons, r.delayedNeutrons, r.promptPhotons, r.delayedPhotons, r.betas, r.neutrinos], FnStored f
  prompt : ∃ f, r.qPrompt = .ok f ∧ FnStored f
  recoverable : ∃ f, r.qRecoverable = .ok f ∧ FnStored f

/-- Nuclides that can be written: different temperatures have different names, there are energies for exactly these, maybe also for 0 K, the reactions that are written can
be, have a cross section at every temperature, and those for fission have the same total yield of neutrons. -/
structure Nuclide.Stored (temp : K → Text) (n : Nuclide K) : Prop where
  temps : (n.kTs.map temp).Nodup
  grids : ∀ T ∈ n.kTs.map temp, T ∈ Dict.keys n.energy
  only : ∀ T ∈ Dict.keys n.energy, T ∈ n.kTs.map temp ∨ T = c!"0K"
  mts : (Dict.keys n.reactions).Nodup
  numbers : ∀ e ∈ n.reactions, e.2.mt = e.1
  reactions : ∀ e ∈ n.reactions, written e.2 = true → e.2.Stored n.energy
  full : ∀ e ∈ n.reactions, written e.2 = true → ∀ T ∈ n.kTs.map temp, ∃ x, Dict.get? e.2.xs T = some (some x)
  nu : ∃ nu : Option (Product K), (∀ p, nu = some p → p.Stored) ∧ ∀ e ∈ n.reactions, written e.2 = true → e.2.derived = if e.1 ∈ [18, 19, 20, 21, 38] then nu.toList else []
  urr : (Dict.keys n.urr).Nodup
  fission : ∀ r, n.fission = some r → ReleaseStored r

/-- The nuclide `n'` is what has to come back for `n`. -/
structure SameNuclide (n n' : Nuclide K) : Prop where
  z : n'.z = n.z
  a : n'.a = n.a
  m : n'.m = n.m
  awr : n'.awr = n.awr
  kTs : n'.kTs.Perm n.kTs
  energy : ∀ T, Dict.get? n'.energy T = Dict.get? n.energy T
  reactions : ∀ mt r, Dict.get? n.reactions mt = some r → written r = true → ∃ r', Dict.get? n'.reactions mt = some r' ∧ SameReaction r r' ∧ r'.derived = r.derived.map Product.back
  urr : ∀ T, Dict.get? n'.urr T = Dict.get? n.urr T
  fission : n'.fission = n.fission

end ASAPy.Hdf5
