/-
  Model of src/ripplegw/waveforms/IMRPhenomD_QNMdata.py: the tables built at import time.
-/
import Verif.Model.PhenomDUtils
import Verif.Model.QNMData
import Verif.Prelude.Scipy

namespace Ripple
noncomputable section

/-- `jnp.linspace(start, stop, num)` in exact arithmetic (num ≥ 2) -/
def Jnp.linspace (start stop : ℝ) (num : ℕ) : List ℝ :=
  (List.range num).map fun k : ℕ => start + (stop - start) * k / ((num : ℝ) - 1)

namespace QNMData

/-- `_QNMData_a`. src/ripplegw/waveforms/IMRPhenomD_QNMdata.py:6-1012. -/
def knots : List ℝ := a.map fun k : Int => (k : ℝ) / 1000
/-- `_QNMData_fRD`. src/ripplegw/waveforms/IMRPhenomD_QNMdata.py:1014-2020. -/
def valRD : List ℝ := fRD.map fun k : Int => (k : ℝ) / 100000000
/-- `_QNMData_fdamp`. src/ripplegw/waveforms/IMRPhenomD_QNMdata.py:2022-3028. -/
def valdamp : List ℝ := fdamp.map fun k : Int => (k : ℝ) / 100000000

/-- `QNMData_a`. src/ripplegw/waveforms/IMRPhenomD_QNMdata.py:3033. -/
def grid : List ℝ := Jnp.linspace (-1) 1 500000

end QNMData

/-- `QNMData_a`, `QNMData_fRD`, `QNMData_fdamp`. src/ripplegw/waveforms/IMRPhenomD_QNMdata.py:3033-3035.
    `eps` is the guard inside `jnp.interp`, see `Jnp.interp`. -/
def qnmTable (eps : ℝ) : QNM where
  eps := eps
  a := QNMData.grid
  fRD := QNMData.grid.map (Scipy.CubicSpline QNMData.knots QNMData.valRD)
  fdamp := QNMData.grid.map (Scipy.CubicSpline QNMData.knots QNMData.valdamp)

end
end Ripple
