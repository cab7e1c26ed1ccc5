import Verif.Model.Fp
import Verif.Model.Linear

/-
Matrix inversion and simultaneous equations with the rounding of every operation: `R` rounds to `double` for `dmat`
(src/dmat.cc:52-143) and to `float` for `smat` (src/smat.cc:52-143), which is the same code.  Searching for the pivot and
exchanging rows and columns involve no arithmetic and are those of `Model/Linear`.
-/
noncomputable section
namespace Sla.Fp

variable {n : ℕ}

/-- The loop scaling the pivot row (src/dmat.cc:100-104). -/
def dmatScale (R : ℝ → ℝ) (m : NMat n) (k : Fin n) (akk : ℝ) : NMat n :=
  (List.finRange n).foldl (fun m j => if j ≠ k then setE m k j (R (m k j * akk)) else m) m

/-- The loop over the columns of one row (src/dmat.cc:110-114). -/
def dmatElimRow (R : ℝ → ℝ) (m : NMat n) (k i : Fin n) (aik : ℝ) : NMat n :=
  (List.finRange n).foldl (fun m j => if j ≠ k then setE m i j (R (m i j - R (aik * m k j))) else m) m

/-- The elimination loop (src/dmat.cc:107-117). -/
def dmatElim (R : ℝ → ℝ) (m : NMat n) (vec : Fin n → ℝ) (k : Fin n) (yk : ℝ) : NMat n × (Fin n → ℝ) :=
  (List.finRange n).foldl (fun s i =>
    let aik := s.1 i k
    if i ≠ k then (dmatElimRow R s.1 k i aik, setV s.2 i (R (s.2 i - R (aik * yk)))) else s) (m, vec)

/-- The loop over the pivot column (src/dmat.cc:118-122). -/
def dmatColumn (R : ℝ → ℝ) (m : NMat n) (k : Fin n) (akk : ℝ) : NMat n :=
  (List.finRange n).foldl (fun m i => if i ≠ k then setE m i k (R (-m i k * akk)) else m) m

/-- One pass of the main loop (src/dmat.cc:66-125), with the threshold EPSILON as parameter. -/
def dmatStep (R : ℝ → ℝ) (eps : ℝ) (s : DmatState n) (k : Fin n) : DmatState n :=
  let amx := (dmatPivot s.mat k).1
  let imx := (dmatPivot s.mat k).2
  open Classical in
  if amx < eps then { s with singular := true }
  else
    let mat := if imx ≠ k then dmatSwapRows s.mat k imx else s.mat
    let vec := if imx ≠ k then (let t2 := s.vec k; setV (setV s.vec k (s.vec imx)) imx t2) else s.vec
    let det := if imx ≠ k then -s.det else s.det
    let ws : Fin n → ℤ := fun a => if a = k then (imx : ℕ) else s.ws a
    let akk := mat k k
    let det := R (det * akk)
    if |det| < eps then { mat := mat, vec := vec, det := det, ws := ws, singular := true }
    else
      let akk := R (1 / akk)
      let mat := setE mat k k akk
      let mat := dmatScale R mat k akk
      let yk := R (vec k * akk)
      let vec := setV vec k yk
      let me := dmatElim R mat vec k yk
      let mat := dmatColumn R me.1 k akk
      { mat := mat, vec := me.2, det := det, ws := ws, singular := s.singular }

/-- The main loop (src/dmat.cc:61-125). -/
def dmatLoop (R : ℝ → ℝ) (eps : ℝ) (mat : NMat n) (vec : Fin n → ℝ) (ws : Fin n → ℤ) : DmatState n :=
  (List.finRange n).foldl (dmatStep R eps) { mat := mat, vec := vec, det := 1, ws := ws, singular := false }

/-- src/dmat.cc:52-143 `dmat` and src/smat.cc:52-143 `smat`; `none` is undefined behaviour. -/
def dmat (R : ℝ → ℝ) (mat : NMat n) (vec : Fin n → ℝ) (ws : Fin n → ℤ) : Option (DmatResult n) :=
  let s := dmatLoop R (R 1e-20) mat vec ws
  if s.singular then some { mat := s.mat, vec := s.vec, det := 0, singular := true }
  else (dmatUnscramble s.ws s.mat).map fun m => { mat := m, vec := s.vec, det := s.det, singular := false }

end Sla.Fp
