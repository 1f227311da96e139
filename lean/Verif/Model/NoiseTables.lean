/-
  The noise curves shipped with the package (src/ripplegw/noise.py:87-148), built by `_load_noise` from the
  generated data tables.
-/
import Verif.Model.Noise
import Verif.Model.NoiseData.O2
import Verif.Model.NoiseData.ALIGO
import Verif.Model.NoiseData.CE
import Verif.Model.NoiseData.ET
import Verif.Model.NoiseData.ZDHP
import Verif.Model.NoiseData.O3a

namespace Ripple
noncomputable section
open NoiseData

/-- first column of a data file: integers in units of 10^-p -/
def tableF (l : List ℕ) (p : ℕ) : List ℝ := l.map fun m : ℕ => (m : ℝ) / 10 ^ p

/-- second column of a data file: `ninf` rows `inf`, then integers in units of 10^-q -/
def tableCol (ninf : ℕ) (l : List ℕ) (q : ℕ) : List XR :=
  List.replicate ninf .pinf ++ l.map fun m : ℕ => .fin ((m : ℝ) / 10 ^ q)

/-- noise.py:87 -/
def Sn_aLIGO (eps : ℝ) := _load_noise eps (tableF ALIGO.freqs ALIGO.fexp) (tableCol ALIGO.ninf ALIGO.vals ALIGO.sexp) true
/-- noise.py:94 -/
def Sn_ce (eps : ℝ) := _load_noise eps (tableF CE.freqs CE.fexp) (tableCol CE.ninf CE.vals CE.sexp) true
/-- noise.py:101 -/
def Sn_et (eps : ℝ) := _load_noise eps (tableF ET.freqs ET.fexp) (tableCol ET.ninf ET.vals ET.sexp) true
/-- noise.py:109-111 -/
def Sn_aLIGOZeroDetHighPower (eps : ℝ) :=
  _load_noise eps (tableF ZDHP.freqs ZDHP.fexp) (tableCol ZDHP.ninf ZDHP.vals ZDHP.sexp) false
/-- noise.py:124 -/
def Sn_O3a (eps : ℝ) := _load_noise eps (tableF O3a.freqs O3a.fexp) (tableCol O3a.ninf O3a.vals O3a.sexp) true
/-- noise.py:137 -/
def Sn_O2 (eps : ℝ) := _load_noise eps (tableF O2.freqs O2.fexp) (tableCol O2.ninf O2.vals O2.sexp) true

end
end Ripple
