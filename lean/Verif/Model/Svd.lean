import Mathlib.Data.Real.Basic
import Mathlib.Algebra.Order.Group.Abs

/-
Solutions and covariances from a singular value decomposition.  Arrays are flat, as in the code: element `row, col` of a
matrix with physical row length `np` is cell `row * np + col`.
-/
noncomputable section
namespace Sla

/-- A flat array of doubles. -/
abbrev FMem := ℕ → ℝ

/-- Assignment `a[i] = v`. -/
def FMem.set (a : FMem) (i : ℕ) (v : ℝ) : FMem := fun j => if j = i then v else a j

/-- src/svdsol.cc:74-107 `svdsol`: final contents of `ws` and `x`.  The output arrays must not overlap the inputs or each
    other (not checked by the code).  `dv` is the division: dividing a real number by zero gives zero here but not in C++, so the
    theorems that the code never does so take any `dv` that is right for other divisors. -/
def svdsolDiv (dv : ℝ → ℝ → ℝ) (m n np : ℕ) (b u w v ws x : FMem) : FMem × FMem :=
  let ws := (List.range n).foldl (fun ws j =>
    let s1 := if w j ≠ 0 then dv ((List.range m).foldl (fun s1 i => s1 + u (i * np + j) * b i) 0) (w j) else 0
    ws.set j s1) ws
  let x := (List.range n).foldl (fun x k =>
    let s2 := (List.range n).foldl (fun s2 l => s2 + v (k * np + l) * ws l) 0
    x.set k s2) x
  (ws, x)

/-- src/svdsol.cc:74-107 `svdsol` -/
def svdsol (m n np : ℕ) (b u w v ws x : FMem) : FMem × FMem := svdsolDiv (· / ·) m n np b u w v ws x

/-- src/svdcov.cc:39-65 `svdcov`: final contents of `ws` and `cvm`; `dv` as for `svdsolDiv`. -/
def svdcovDiv (dv : ℝ → ℝ → ℝ) (n np nc : ℕ) (w v ws cvm : FMem) : FMem × FMem :=
  let ws := (List.range n).foldl (fun ws l =>
    let s1 := w l
    ws.set l (if s1 ≠ 0 then dv 1 (s1 * s1) else 0)) ws
  let cvm := (List.range n).foldl (fun cvm i =>
    (List.range (i + 1)).foldl (fun cvm j =>
      let s2 := (List.range n).foldl (fun s2 k => s2 + v (i * np + k) * v (j * np + k) * ws k) 0
      (cvm.set (i * nc + j) s2).set (j * nc + i) s2) cvm) cvm
  (ws, cvm)

/-- src/svdcov.cc:39-65 `svdcov` -/
def svdcov (n np nc : ℕ) (w v ws cvm : FMem) : FMem × FMem := svdcovDiv (· / ·) n np nc w v ws cvm

end Sla
