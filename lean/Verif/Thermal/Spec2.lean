import Verif.Thermal.Spec
import Verif.Hdf5.Spec2

/-!
# Thermal scattering data in HDF5, vocabulary of C129
-/

namespace ASAPy.Thermal

open ASAPy.Hdf5 (Text Dist IsTemp)
open Dec

variable {K : Type} [Field K] [LinearOrder K]

/-- As many edges as factors; as many energies as cross sections. -/
def Elastic.Stored : Elastic K → Prop
  | .coherent e f => e.length = f.length
  | .incoherent t => Hdf5.Tab1D.Stored t

/-- Something is stored at each of the temperatures, and only there. -/
def FullOn {α : Type} (Ts : List Text) (d : List (Text × α)) : Prop := ∀ T, T ∈ Dict.keys d ↔ T ∈ Ts

/-- Data that come back: every temperature has everything any temperature has, as the kind of secondary neutrons says. -/
structure Data.Stored (temp : K → Text) (d : Data K) : Prop where
  temps : (d.kTs.map temp).Nodup
  named : ∀ T ∈ d.kTs.map temp, IsTemp T
  elastic : d.elasticXs = [] ∨ FullOn (d.kTs.map temp) d.elasticXs
  elasticTables : ∀ T e, Dict.get? d.elasticXs T = some e → e.Stored
  cosines : d.elasticMu = [] ∨ d.elasticXs ≠ [] ∧ FullOn (d.kTs.map temp) d.elasticMu
  inelastic : FullOn (d.kTs.map temp) d.inelasticXs
  inelasticTables : ∀ T t, Dict.get? d.inelasticXs T = some t → Hdf5.Tab1D.Stored t
  out : (d.mode = some c!"equal" ∨ d.mode = some c!"skewed") ∧ FullOn (d.kTs.map temp) d.inelasticE ∧ FullOn (d.kTs.map temp) d.inelasticMu ∧ d.inelasticDist = [] ∨
    d.mode = some c!"continuous" ∧ d.inelasticE = [] ∧ d.inelasticMu = [] ∧ FullOn (d.kTs.map temp) d.inelasticDist ∧ ∀ T e, Dict.get? d.inelasticDist T = some e → e.Stored

/-- The data `d'` are what has to come back for `d`. -/
structure SameData (d d' : Data K) : Prop where
  name : d'.name = d.name
  awr : d'.awr = d.awr
  kTs : d'.kTs.Perm d.kTs
  elasticXs : ∀ T, Dict.get? d'.elasticXs T = Dict.get? d.elasticXs T
  elasticMu : ∀ T, Dict.get? d'.elasticMu T = Dict.get? d.elasticMu T
  inelasticXs : ∀ T, Dict.get? d'.inelasticXs T = Dict.get? d.inelasticXs T
  inelasticE : ∀ T, Dict.get? d'.inelasticE T = Dict.get? d.inelasticE T
  inelasticMu : ∀ T, Dict.get? d'.inelasticMu T = Dict.get? d.inelasticMu T
  inelasticDist : ∀ T, Dict.get? d'.inelasticDist T = (Dict.get? d.inelasticDist T).map Dist.back
  mode : d'.mode = d.mode
  nuclides : d'.nuclides = d.nuclides

end ASAPy.Thermal
