import Verif.Props.Realization
import Verif.Props.Lensing
import Verif.Props.Shift
import Verif.Props.Render
import Verif.Props.Planes
import Verif.Props.MassFunction
import Verif.Props.Spatial
import Verif.Props.Sheets
import Verif.Props.Accretion
import Verif.Props.Cosmology
import Verif.Props.LensCosmo
import Verif.Props.HaloObject
import Verif.Props.Tnfw
import Verif.Props.Concentration
import Verif.Model.MassLossTables
import Verif.Model.MassLoss
import Verif.Model.Sidm
import Verif.Model.Truncation
import Verif.Props.MassLoss
import Verif.Props.Sidm
import Verif.Props.Truncation
import Verif.Model.Extensions
import Verif.Props.Extensions
import Verif.Props.Populations
import Verif.Props.Primordial
import Verif.Props.Transfer
import Verif.Props.TransferTable
import Verif.Model.Galacticus
import Verif.Model.Collapsed
import Verif.Spec.Galacticus
import Verif.Lemmas.Galacticus
import Verif.Props.Galacticus
import Verif.Props.Collapsed
import Verif.Model.Presets
import Verif.Props.Presets
import Verif.Props.PresetRequests
import Verif.Props.PresetMixed
import Verif.Model.Profiles
import Verif.Props.Profiles
import Verif.Model.Uldm
import Verif.Props.Uldm
import Verif.Model.Warm
import Verif.Lemmas.Warm
import Verif.Lemmas.WarmBatch
import Verif.Props.Warm
import Verif.Model.PresetsMore
import Verif.Props.PresetsMore
import Verif.Model.Run
import Verif.Lemmas.Run
import Verif.Props.Run
import Verif.Props.RunWorks
import Verif.Props.RunMore
import Verif.Props.RunFit
import Verif.Props.RunExamples
import Verif.Model.Whole
import Verif.Model.WholeUldm
import Verif.Spec.Whole
import Verif.Props.Whole
import Verif.Props.WholeCdm
import Verif.Props.WholeSidm
import Verif.Props.WholeExamples
import Verif.Props.RunCount
import Verif.Props.WholeBH
import Verif.Props.WholeBHExamples
import Verif.Props.WholeSheets
import Verif.Props.WholeBHNumber
import Verif.Props.External
import Verif.Props.WholeWdm
import Verif.Props.WholeUldm
import Verif.Props.WdmCount
import Verif.Props.WdmSheets
import Verif.Props.InfallLaw
import Verif.Lemmas.PoissonProcess
import Verif.Props.SamplerLaw
import Verif.Props.PositionLaw
import Verif.Model.Rays
import Verif.Props.Rays
import Verif.Model.Correlation
import Verif.Props.Correlation
import Verif.Props.Multipoles
import Verif.Model.Host
import Verif.Props.Host
import Verif.Model.Single
import Verif.Props.Single
import Verif.Model.Emulator
import Verif.Lemmas.Emulator
import Verif.Props.Emulator
import Verif.Model.Volume
import Verif.Props.Volume
import Verif.Model.Slopes
import Verif.Lemmas.Slopes
import Verif.Props.Slopes
import Verif.Model.Spectrum
import Verif.Props.Spectrum
import Verif.Model.Boost
import Verif.Props.Boost
import Verif.Model.Smooth
import Verif.Props.Smooth
import Verif.Model.Direct
import Verif.Props.Direct
import Verif.Model.Resample
import Verif.Props.Resample
import Verif.Props.Dynamics
