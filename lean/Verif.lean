import Verif.Props.Conversions
import Verif.Props.Match
import Verif.Props.Pads
import Verif.Props.Noise
import Verif.Props.PhenomDSmooth
import Verif.Props.PhenomD
import Verif.Props.PhenomDGen
import Verif.Props.PhenomDPhys
import Verif.Props.TaylorF2
import Verif.Props.F2vsD
import Verif.Props.Taper
import Verif.Props.NRTidalFits
import Verif.Props.NRTidalv2
import Verif.Props.SineGaussian
import Verif.Props.SineGaussianGrad
import Verif.Props.Pv2Grad
import Verif.Props.Pv2Jump
import Verif.Proofs.Pv2Limit
import Verif.Props.Pv2Limit
import Verif.Props.Arrival
import Verif.Props.ArrivalX
import Verif.Props.Chirp
import Verif.Props.Pv2Frame
import Verif.Props.Pv2Parts
import Verif.Props.Pv2
import Verif.Props.Pv2Aligned
import Verif.Props.Pv2Sym
import Verif.Props.QNM
import Verif.Props.Pv2Phys
import Verif.Props.XASGen
import Verif.Props.XASPhase
import Verif.Props.XASAmp
import Verif.Props.XASPN
import Verif.Props.XASPhys
import Verif.Props.XASFits
import Verif.Props.Isco
import Verif.Props.FD
import Verif.Props.RemnantCompare
import Verif.Props.XASPos
import Verif.Props.Amp22
import Verif.Props.PhenomDPos
import Verif.Props.XASRingdown
import Verif.Props.XASGrad
import Verif.Props.PhenomDGrad
import Verif.Props.TidalGrad
import Verif.Props.Pv2Freq
import Verif.Props.Autodiff
import Verif.Props.AutodiffPv2
import Verif.Props.PhysicalForms
import Verif.Props.Rounded
import Verif.Props.RoundedNoise
import Verif.Props.RoundedMatch
import Verif.Props.RoundedAccuracy
import Verif.Props.RoundedTable
import Verif.Props.RoundedLIGOI
import Verif.Props.Identify
