/-
  Model of src/ripplegw/FD_waveform.py.
-/
import Verif.Model.PhenomXAS
import Verif.Model.PhenomD
import Verif.Model.NRTidalv2
import Verif.Model.PhenomPv2

namespace Ripple
namespace FD
noncomputable section

/-- a generator function called with three positional arguments; exceptions are values -/
abbrev Generator := List ℝ → List ℝ → ℝ → Except PyErr (List ℂ × List ℂ)

/-- The dictionary `self.generators` built by `FD_waveform_generator.__init__`, in source order.
    src/ripplegw/FD_waveform.py:10-17. The keyword arguments of the tidal generator keep their defaults
    (IMRPhenomD_NRTidalv2.py:464-470). `Q` is the quasi-normal-mode table read by the PhenomD family. -/
def generators (Q : QNM) : List (String × Generator) :=
  [("XAS", fun fs theta f_ref => .ok (XAS.gen_IMRPhenomXAS_hphc fs theta f_ref)),
   ("D", fun fs theta f_ref => .ok (PhenomD.gen_IMRPhenomD_hphc Q fs theta f_ref)),
   ("D_NRTidalv2", fun fs theta f_ref => .ok (NRTidalv2.gen_IMRPhenomD_NRTidalv2_hphc Q fs theta f_ref true false)),
   ("Pv2", fun fs theta f_ref => Pv2.gen_IMRPhenomPv2 Q fs theta f_ref)]

/-- `FD_waveform_generator.generate_waveform`. src/ripplegw/FD_waveform.py:19-24. -/
def generate_waveform (Q : QNM) (model_type : String) (fs theta_ripple : List ℝ) (f_ref : ℝ) :
    Except PyErr (List ℂ × List ℂ) :=
  match (generators Q).lookup model_type with
  | some gen_func => gen_func fs theta_ripple f_ref
  | none => .error .valueError

end
end FD
end Ripple
