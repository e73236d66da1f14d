import Verif.Py
import Verif.Np
import Verif.Util
import Verif.MapGroups.Props
import Verif.Tab1D.Props
import Verif.Tab1D.Laws
import Verif.Tab1D.IntegralProps
import Verif.Editor.Props
import Verif.Editor.ChiProps
import Verif.Editor.ChiSingle
import Verif.WriteAce.Props
import Verif.Flt
import Verif.Dec
import Verif.Sampler.Options
import Verif.Sampled.Props
import Verif.Sampled.Chi
import Verif.Sampled.Mixed
import Verif.Mpi.Props
import Verif.EigenFix.Props
import Verif.Load.Props
import Verif.CovCorr.Props
import Verif.Gmw.Bound
import Verif.RankOrder.Props
import Verif.SampleCorr.Props
import Verif.SampleCorr.DistProps
import Verif.Boxer.Props
import Verif.Store.Props
import Verif.Store.Calc
import Verif.Attrs.Props
import Verif.Attrs.More
import Verif.NjoyTapes.Props
import Verif.Endf.Props
import Verif.AceData.BinaryProps
import Verif.AceData.AsciiProps
import Verif.AceData.RepairProps
import Verif.Components.Props
import Verif.Grid.Props
import Verif.Groups.Props
import Verif.Boxer2Mat.FileProps
import Verif.Boxer2Mat.Text
import Verif.Boxer2Mat.TextSpec
import Verif.Boxer2Mat.TextProps
import Verif.Boxer2Mat.Prog
import Verif.Boxer2Mat.ProgProps
import Verif.Boxer2Mat.Print
import Verif.AceData.LengthProps
import Verif.AceData.Detect
import Verif.FromAce.ReadProps
import Verif.FromAce.SumProps
import Verif.FromAce.PhotonSum
import Verif.FromAce.PhotonProducts
import Verif.FromAce.Temp
import Verif.EndToEnd.Example
import Verif.EndToEnd.ChiExample
import Verif.Heap.Props
import Verif.Run.Props
import Verif.Subprocess.Props
import Verif.CovCli.Props
import Verif.CovRun.Props
import Verif.CovRun.WholeModel
import Verif.CovRun.Whole
import Verif.CovRun.WholeExample
import Verif.CovRun.FromFile
import Verif.CovRun.Boxer
import Verif.CovRun.BoxerExample
import Verif.CovRun.Sampled
import Verif.CovRun.Applied
import Verif.CovRun.Written
import Verif.CovRun.WrittenNu
import Verif.Func.Props
import Verif.Scores.Props
import Verif.Lhs.Props
import Verif.Dists.Model
import Verif.Dists.Spec
import Verif.Dists.Lemmas
import Verif.Dists.AngleProps
import Verif.Dists.Scale
import Verif.Dists.LawProps
import Verif.Dists.SpectrumProps
import Verif.Dists.DelayedProps
import Verif.Dists.NeutronProps
import Verif.Dists.PhotonProps
import Verif.Dists.Examples
import Verif.Chars
import Verif.Deck.Model
import Verif.Deck.Spec
import Verif.Deck.Format
import Verif.Deck.Lemmas
import Verif.Deck.Texts
import Verif.Deck.Parts
import Verif.Deck.Covr
import Verif.Deck.Steps
import Verif.Deck.Whole
import Verif.Deck.Eval
import Verif.Deck.Tapes
import Verif.Deck.Props
import Verif.Deck.Thermal
import Verif.Deck.ThermalProps
import Verif.Deck.ThermalExample
import Verif.Files.Model
import Verif.Files.Props
import Verif.Files.Chain
import Verif.Files.Here
import Verif.Hdf5.Props2
import Verif.Hdf5.Props3
import Verif.Thermal.Props3
import Verif.Plots.Props3
import Verif.Batch.Props
import Verif.Endf.Check
import Verif.Decay.Props2
import Verif.Decay.Example
import Verif.Library.Props
import Verif.Check.Props
import Verif.Check.Bounds
import Verif.Res.Example
import Verif.ResCov.Example
import Verif.EndfRx.Model
import Verif.EndfRx.Spec
import Verif.EndfRx.Lemmas
import Verif.EndfRx.Example
import Verif.EndfRx.Props
import Verif.EndfRx.Props2
import Verif.EndfRx.Props3
import Verif.EndfRx.Nuclide
import Verif.EndfRx.Props4
import Verif.EndfRx.Examples
import Verif.Elastic0K.Model
import Verif.Elastic0K.Spec
import Verif.Elastic0K.Props
import Verif.Elastic0K.Props2
import Verif.Masses.Props
import Verif.Water.Props
import Verif.Photon.PropsAce
import Verif.Photon.PropsEndf
import Verif.Photon.ExHdf5
import Verif.Multipole.Ex
import Verif.Recon.Ex
import Verif.ReconEval.Ex
import Verif.DataNjoy.Props3
import Verif.Uni.Props2
import Verif.Ids.Props
