import Mathlib.Data.Real.Basic
import Mathlib.Data.List.FinRange
import Mathlib.Data.Fintype.Fin
import Mathlib.LinearAlgebra.Matrix.Defs

/-
Matrix inversion and simultaneous equations.  `smat` (src/smat.cc:52-143) is the same code with `float`.
The row-major array `mat[i * n + j]` (src/dmat.cc:56-59) is a function of the two indices; loops are folds over the
index list in the order of the code, and every element assignment is an explicit update.
-/
noncomputable section
namespace Sla
open Matrix

variable {n : ℕ}

abbrev NMat (n : ℕ) := Matrix (Fin n) (Fin n) ℝ

/-- Assignment `element(i, j) = v` (src/dmat.cc:56-59). -/
def setE (m : NMat n) (i j : Fin n) (v : ℝ) : NMat n := fun a b => if a = i ∧ b = j then v else m a b

/-- Assignment `vec[i] = v`. -/
def setV (x : Fin n → ℝ) (i : Fin n) (v : ℝ) : Fin n → ℝ := fun a => if a = i then v else x a

/-- The variables of `dmat` (src/dmat.cc:52-65).  `ws` is the caller's int array with arbitrary contents. -/
structure DmatState (n : ℕ) where
  mat : NMat n
  vec : Fin n → ℝ
  det : ℝ
  ws : Fin n → ℤ
  singular : Bool

/-- The search for the pivot (src/dmat.cc:67-77): `amx` and `imx`. -/
def dmatPivot (m : NMat n) (k : Fin n) : ℝ × Fin n :=
  ((List.finRange n).filter fun i => k < i).foldl
    (fun s i => let t0 := |m i k|; if t0 > s.1 then (t0, i) else s) (|m k k|, k)

/-- The loop exchanging rows (src/dmat.cc:82-86). -/
def dmatSwapRows (m : NMat n) (k imx : Fin n) : NMat n :=
  (List.finRange n).foldl (fun m j => let t1 := m k j; setE (setE m k j (m imx j)) imx j t1) m

/-- The loop scaling the pivot row (src/dmat.cc:100-104). -/
def dmatScale (m : NMat n) (k : Fin n) (akk : ℝ) : NMat n :=
  (List.finRange n).foldl (fun m j => if j ≠ k then setE m k j (m k j * akk) else m) m

/-- The loop over the columns of one row (src/dmat.cc:110-114). -/
def dmatElimRow (m : NMat n) (k i : Fin n) (aik : ℝ) : NMat n :=
  (List.finRange n).foldl (fun m j => if j ≠ k then setE m i j (m i j - aik * m k j) else m) m

/-- The elimination loop (src/dmat.cc:107-117). -/
def dmatElim (m : NMat n) (vec : Fin n → ℝ) (k : Fin n) (yk : ℝ) : NMat n × (Fin n → ℝ) :=
  (List.finRange n).foldl (fun s i =>
    let aik := s.1 i k
    if i ≠ k then (dmatElimRow s.1 k i aik, setV s.2 i (s.2 i - aik * yk)) else s) (m, vec)

/-- The loop over the pivot column (src/dmat.cc:118-122). -/
def dmatColumn (m : NMat n) (k : Fin n) (akk : ℝ) : NMat n :=
  (List.finRange n).foldl (fun m i => if i ≠ k then setE m i k (-m i k * akk) else m) m

/-- One pass of the main loop (src/dmat.cc:66-125), with the threshold EPSILON as parameter. -/
def dmatStep (eps : ℝ) (s : DmatState n) (k : Fin n) : DmatState n :=
  let amx := (dmatPivot s.mat k).1
  let imx := (dmatPivot s.mat k).2
  if amx < eps then { s with singular := true }
  else
    let mat := if imx ≠ k then dmatSwapRows s.mat k imx else s.mat
    let vec := if imx ≠ k then (let t2 := s.vec k; setV (setV s.vec k (s.vec imx)) imx t2) else s.vec
    let det := if imx ≠ k then -s.det else s.det
    let ws : Fin n → ℤ := fun a => if a = k then (imx : ℕ) else s.ws a
    let akk := mat k k
    let det := det * akk
    if |det| < eps then { mat := mat, vec := vec, det := det, ws := ws, singular := true }
    else
      let akk := 1 / akk
      let mat := setE mat k k akk
      let mat := dmatScale mat k akk
      let yk := vec k * akk
      let vec := setV vec k yk
      let me := dmatElim mat vec k yk
      let mat := dmatColumn me.1 k akk
      { mat := mat, vec := me.2, det := det, ws := ws, singular := s.singular }

/-- The loop exchanging two columns (src/dmat.cc:134-138). -/
def dmatSwapCols (m : NMat n) (p ki : Fin n) : NMat n :=
  (List.finRange n).foldl (fun m i => let t3 := m i p; setE (setE m i p (m i ki)) i ki t3) m

/-- The unscrambling loop (src/dmat.cc:130-140); `none` if a workspace entry outside 0..n-1 would be used as an
    index (undefined behaviour). -/
def dmatUnscramble (ws : Fin n → ℤ) (m : NMat n) : Option (NMat n) :=
  (List.finRange n).reverse.foldl (fun m p => m.bind fun m =>
    if h : 0 ≤ ws p ∧ (ws p).toNat < n then
      let ki : Fin n := ⟨(ws p).toNat, h.2⟩
      some (if p ≠ ki then dmatSwapCols m p ki else m)
    else none) (some m)

/-- The outputs of `dmat`. -/
structure DmatResult (n : ℕ) where
  mat : NMat n
  vec : Fin n → ℝ
  det : ℝ
  singular : Bool

/-- The main loop (src/dmat.cc:61-125). -/
def dmatLoop (eps : ℝ) (mat : NMat n) (vec : Fin n → ℝ) (ws : Fin n → ℤ) : DmatState n :=
  (List.finRange n).foldl (dmatStep eps) { mat := mat, vec := vec, det := 1, ws := ws, singular := false }

/-- src/dmat.cc:52-143 `dmat` with the threshold EPSILON as parameter; `none` is undefined behaviour. -/
def dmatEps (eps : ℝ) (mat : NMat n) (vec : Fin n → ℝ) (ws : Fin n → ℤ) : Option (DmatResult n) :=
  let s := dmatLoop eps mat vec ws
  if s.singular then some { mat := s.mat, vec := s.vec, det := 0, singular := true }
  else (dmatUnscramble s.ws s.mat).map fun m => { mat := m, vec := s.vec, det := s.det, singular := false }

/-- src/dmat.cc:52-143 `dmat` for n unknowns (n ≥ 0), and src/smat.cc:52-143 `smat`. -/
def dmat (mat : NMat n) (vec : Fin n → ℝ) (ws : Fin n → ℤ) : Option (DmatResult n) := dmatEps 1e-20 mat vec ws

end Sla
