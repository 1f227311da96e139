/-
  `scipy.interpolate.CubicSpline` with its default boundary condition 'not-a-knot', as implemented in scipy (file
  scipy/interpolate/_cubic.py, external to the repository): knot slopes from a tridiagonal system, then cubic Hermite pieces.
-/
import Mathlib.LinearAlgebra.Matrix.NonsingularInverse
import Mathlib.Data.Real.Basic
import Verif.Prelude.Jnp

namespace Ripple.Scipy
noncomputable section

/-- `dx = np.diff(x)` -/
def dx (x : List ℝ) (i : ℕ) : ℝ := x.getD (i + 1) 0 - x.getD i 0

/-- `slope = np.diff(y) / dxr` -/
def slope (x y : List ℝ) (i : ℕ) : ℝ := (y.getD (i + 1) 0 - y.getD i 0) / dx x i

/-- diagonal `A[1]` -/
def diag (x : List ℝ) (i : ℕ) : ℝ :=
  if i = 0 then dx x 1
  else if i = x.length - 1 then dx x (x.length - 3)
  else 2 * (dx x (i - 1) + dx x i)

/-- upper diagonal `A[0]`, indexed by row -/
def upper (x : List ℝ) (i : ℕ) : ℝ :=
  if i = 0 then x.getD 2 0 - x.getD 0 0 else dx x (i - 1)

/-- lower diagonal `A[-1]`, indexed by row -/
def lower (x : List ℝ) (i : ℕ) : ℝ :=
  if i = x.length - 1 then x.getD (x.length - 1) 0 - x.getD (x.length - 3) 0 else dx x i

/-- right-hand side `b` -/
def rhs (x y : List ℝ) (i : ℕ) : ℝ :=
  if i = 0 then
    let d := x.getD 2 0 - x.getD 0 0
    ((dx x 0 + 2 * d) * dx x 1 * slope x y 0 + dx x 0 ^ 2 * slope x y 1) / d
  else if i = x.length - 1 then
    let d := x.getD (x.length - 1) 0 - x.getD (x.length - 3) 0
    (dx x (x.length - 2) ^ 2 * slope x y (x.length - 3) +
      (2 * d + dx x (x.length - 2)) * dx x (x.length - 3) * slope x y (x.length - 2)) / d
  else 3 * (dx x i * slope x y (i - 1) + dx x (i - 1) * slope x y i)

/-- the banded matrix as a full one -/
def matrix (x : List ℝ) : Matrix (Fin x.length) (Fin x.length) ℝ := fun i j =>
  (if (j : ℕ) = i then diag x i else 0) + (if (j : ℕ) = i + 1 then upper x i else 0) +
    (if (j : ℕ) + 1 = i then lower x i else 0)

/-- `s = solve_banded((1, 1), A, b)`: slopes at the knots.  Simplification: for a singular matrix (where scipy raises) this is
    the zero vector; the theorems prove that the matrix is invertible. -/
def slopes (x y : List ℝ) (i : ℕ) : ℝ :=
  if h : i < x.length then ((matrix x)⁻¹.mulVec fun k => rhs x y k) ⟨i, h⟩ else 0

/-- value at offset `u` of the cubic piece `i`: coefficients `c` of `CubicHermiteSpline` -/
def piece (x y : List ℝ) (i : ℕ) (u : ℝ) : ℝ :=
  let h := dx x i
  let t := (slopes x y i + slopes x y (i + 1) - 2 * slope x y i) / h
  t / h * u ^ 3 + ((slope x y i - slopes x y i) / h - t) * u ^ 2 + slopes x y i * u + y.getD i 0

/-- `CubicSpline(x, y)(v)`; more than three knots.  The first and last piece extrapolate. -/
def CubicSpline (x y : List ℝ) (v : ℝ) : ℝ :=
  let i := min (max (Jnp.searchsortedRight x v) 1) (x.length - 1) - 1
  piece x y i (v - x.getD i 0)

end
end Ripple.Scipy
