/-
  The tabulated noise curves of src/ripplegw/noise.py in floating-point arithmetic.
-/
import Verif.Model.NoiseTables
import Verif.Prelude.Fp

namespace Ripple
namespace Fp

noncomputable section
open Jnp NoiseData

/-- The same format with subnormal numbers kept: conversions by numpy never flush. -/
def Fmt.gradual (F : Fmt) : Fmt := { F with ftz := false }

/-- `jnp.interp(x, xp, fp, left=left, right=right)` in rounded arithmetic (`jax.numpy.interp`, as in `Jnp.interpX`). -/
def interp (F : Fmt) (eps x : ℝ) (xp : List ℝ) (fp : List XR) (left right : XR) : XR :=
  let n := xp.length
  let i := min (max (searchsortedRight xp x) 1) (n - 1)
  let df := F.sub (fp.getD i .nan) (fp.getD (i - 1) .nan)
  let dx := F.rd (xp.getD i 0 - xp.getD (i - 1) 0)
  let delta := F.rd (x - xp.getD (i - 1) 0)
  let f := if |dx| ≤ eps then fp.getD (i - 1) .nan
    else F.add (fp.getD (i - 1) .nan) (F.mul (F.div (.fin delta) (.fin dx)) df)
  let f := if x < xp.getD 0 0 then left else f
  if xp.getD (n - 1) 0 < x then right else f

/-- `_load_noise` with arrays of the format `F`. src/ripplegw/noise.py:51-84.  `np.loadtxt` and the square are in double
    precision and so is the replacement of zeros; `jnp.array` converts to `F`.  Frequencies and their differences are far from
    overflow and are real numbers here. -/
def _load_noise (F : Fmt) (eps : ℝ) (fs : List ℝ) (col : List XR) (asd : Bool) : (ℝ → XR) × (ℝ × ℝ) :=
  let fs := fs.map (binary64 false).rd
  let Sns := col.map (binary64 false).round
  let Sns := if asd then Sns.map fun s => (binary64 false).mul s s else Sns
  let Sns := Sns.map zeroToInf
  let fs := fs.map F.gradual.rd
  let Sns := Sns.map F.gradual.round
  let f_range := (fs.getD 0 0, fs.getD (fs.length - 1) 0)
  (fun f => interp F eps f fs Sns .pinf .pinf, f_range)

/-- noise.py:87 -/
def Sn_aLIGO (F : Fmt) (eps : ℝ) :=
  _load_noise F eps (tableF ALIGO.freqs ALIGO.fexp) (tableCol ALIGO.ninf ALIGO.vals ALIGO.sexp) true
/-- noise.py:94 -/
def Sn_ce (F : Fmt) (eps : ℝ) := _load_noise F eps (tableF CE.freqs CE.fexp) (tableCol CE.ninf CE.vals CE.sexp) true
/-- noise.py:101 -/
def Sn_et (F : Fmt) (eps : ℝ) := _load_noise F eps (tableF ET.freqs ET.fexp) (tableCol ET.ninf ET.vals ET.sexp) true
/-- noise.py:109-111 -/
def Sn_aLIGOZeroDetHighPower (F : Fmt) (eps : ℝ) :=
  _load_noise F eps (tableF ZDHP.freqs ZDHP.fexp) (tableCol ZDHP.ninf ZDHP.vals ZDHP.sexp) false
/-- noise.py:124 -/
def Sn_O3a (F : Fmt) (eps : ℝ) := _load_noise F eps (tableF O3a.freqs O3a.fexp) (tableCol O3a.ninf O3a.vals O3a.sexp) true
/-- noise.py:137 -/
def Sn_O2 (F : Fmt) (eps : ℝ) := _load_noise F eps (tableF O2.freqs O2.fexp) (tableCol O2.ninf O2.vals O2.sexp) true

end
end Fp
end Ripple
