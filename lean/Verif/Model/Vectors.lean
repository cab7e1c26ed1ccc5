import Verif.Model.CMath
import Mathlib.Data.Matrix.Mul
import Mathlib.LinearAlgebra.Matrix.Notation

/-
3-vectors, 3x3 matrices, axial vectors and Euler rotations.
`Vector<T>` and `Matrix<T>` (src/slalib.h:101-106) are `T[3]` and `T[3][3]`; here they are functions of the
indices.  The float twins (mxm, mxv, imxv, vdv, vxv, vn, av2m, m2av, euler) are the same code with `float`;
mxv/mxm/... share these models.
-/
noncomputable section
namespace Sla

/-- `Vector<T>` (src/slalib.h:101-102) -/
abbrev Vec := Fin 3 → ℝ

/-- `Matrix<T>` (src/slalib.h:105-106); first index is the row. -/
abbrev Mat := Matrix (Fin 3) (Fin 3) ℝ

/-- The accumulation loop `element = 0; for (k = 0; k < 3; k++) element += f(k)`
    (src/dmxm.cc:38-41, src/dmxv.cc:37-40, src/dimxv.cc:36-39). -/
def acc3 (f : Fin 3 → ℝ) : ℝ := 0 + f 0 + f 1 + f 2

/-- src/dmxm.cc:33-52 `dmxm` (and src/mxm.cc `mxm`) -/
def dmxm (ma mb : Mat) : Mat := fun i j => acc3 fun k => ma i k * mb k j

/-- src/dmxv.cc:33-48 `dmxv` (and src/mxv.cc `mxv`) -/
def dmxv (mat : Mat) (va : Vec) : Vec := fun j => acc3 fun i => mat j i * va i

/-- src/dimxv.cc:33-47 `dimxv` (and src/imxv.cc `imxv`) -/
def dimxv (mat : Mat) (va : Vec) : Vec := fun j => acc3 fun i => mat i j * va i

/-- src/dvdv.cc:32-34 `dvdv` (and src/vdv.cc `vdv`) -/
def dvdv (va vb : Vec) : ℝ := va 0 * vb 0 + va 1 * vb 1 + va 2 * vb 2

/-- src/dvxv.cc:32-44 `dvxv` (and src/vxv.cc `vxv`) -/
def dvxv (va vb : Vec) : Vec :=
  ![va 1 * vb 2 - va 2 * vb 1, va 2 * vb 0 - va 0 * vb 2, va 0 * vb 1 - va 1 * vb 0]

/-- src/dvn.cc:34-52 `dvn` (and src/vn.cc:35-53 `vn`): modulus and normalised vector. -/
def dvn (vec : Vec) : ℝ × Vec :=
  let modulus := Real.sqrt (acc3 fun i => vec i * vec i)
  let d := if modulus ≤ 0 then 1 else modulus
  (modulus, fun i => vec i / d)

/-- src/dav2m.cc:34-60 `dav2m` (and src/av2m.cc `av2m`) -/
def dav2m (vec : Vec) : Mat :=
  let x := vec 0
  let y := vec 1
  let z := vec 2
  let phi := Real.sqrt (x * x + y * y + z * z)
  let sin_phi := Real.sin phi
  let cos_phi := Real.cos phi
  let w := 1 - cos_phi
  let x := if phi ≠ 0 then x / phi else x
  let y := if phi ≠ 0 then y / phi else y
  let z := if phi ≠ 0 then z / phi else z
  ![![x * x * w + cos_phi, x * y * w + z * sin_phi, x * z * w - y * sin_phi],
    ![x * y * w - z * sin_phi, y * y * w + cos_phi, y * z * w + x * sin_phi],
    ![x * z * w + y * sin_phi, y * z * w - x * sin_phi, z * z * w + cos_phi]]

/-- src/dm2av.cc:35-52 `dm2av` (and src/m2av.cc `m2av`) -/
def dm2av (mat : Mat) : Vec :=
  let x := mat 1 2 - mat 2 1
  let y := mat 2 0 - mat 0 2
  let z := mat 0 1 - mat 1 0
  let s2 := Real.sqrt (x * x + y * y + z * z)
  if s2 ≠ 0 then
    let c2 := mat 0 0 + mat 1 1 + mat 2 2 - 1
    let phi := atan2 (s2 / 2) (c2 / 2)
    let f := phi / s2
    ![x * f, y * f, z * f]
  else ![0, 0, 0]

/-- The identity initialisation loops of src/deuler.cc:54-60 and 71-77. -/
def identity3 : Mat := fun i j => if i = j then 1 else 0

/-- The `switch (axis)` of src/deuler.cc:95-127: the rotation matrix for one axis letter, starting from the
    identity; `none` for an unrecognised character (the `default` branch). -/
def eulerRotation (axis : Char) (sin_a cos_a : ℝ) : Option Mat :=
  if axis = 'X' ∨ axis = 'x' ∨ axis = '1' then
    some ![![identity3 0 0, identity3 0 1, identity3 0 2], ![identity3 1 0, cos_a, sin_a],
      ![identity3 2 0, -sin_a, cos_a]]
  else if axis = 'Y' ∨ axis = 'y' ∨ axis = '2' then
    some ![![cos_a, identity3 0 1, -sin_a], ![identity3 1 0, identity3 1 1, identity3 1 2],
      ![sin_a, identity3 2 1, cos_a]]
  else if axis = 'Z' ∨ axis = 'z' ∨ axis = '3' then
    some ![![cos_a, sin_a, identity3 0 2], ![-sin_a, cos_a, identity3 1 2],
      ![identity3 2 0, identity3 2 1, identity3 2 2]]
  else none

/-- One iteration `n` of the loop src/deuler.cc:69-145 if the loop condition `n < l` holds; the state is
    `(l, result)`.  An unrecognised character sets `l = 0` and still multiplies by the identity `rotation`. -/
def eulerStep (order : List Char) (phi theta psi : ℝ) (st : Nat × Mat) (n : Nat) : Nat × Mat :=
  if n < st.1 then
    let angle := if n = 0 then phi else if n = 1 then theta else psi
    match eulerRotation (order.getD n '\x00') (Real.sin angle) (Real.cos angle) with
    | some rotation => (st.1, dmxm rotation st.2)
    | none => (0, dmxm identity3 st.2)
  else st

/-- src/deuler.cc:52-153 `deuler` (and src/euler.cc `euler`, which calls it or is the same code in float).
    `order` is the C string up to its terminating NUL; `l` is cut to 3, so the loop visits at most n = 0, 1, 2. -/
def deuler (order : List Char) (phi theta psi : ℝ) : Mat :=
  let l := if order.length > 3 then 3 else order.length
  ([0, 1, 2].foldl (eulerStep order phi theta psi) (l, identity3)).2

end Sla
