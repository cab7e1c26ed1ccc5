import Verif.Model.Vectors

/-
The array arguments of the vector functions as regions of one flat memory, so that they may overlap.
An array argument is the address of its first element; `T[3][3]` is stored by rows.
Local arrays (`result`, `tmp`) are separate storage, so the loops that fill them read the unmodified memory.
-/
noncomputable section
namespace Sla

/-- Memory cells holding numbers. -/
abbrev Mem := Nat → ℝ

/-- Assignment to one cell. -/
def Mem.store (m : Mem) (p : Nat) (x : ℝ) : Mem := fun q => if q = p then x else m q

/-- The three numbers stored from address `p` on. -/
def Mem.vec (m : Mem) (p : Nat) : Vec := fun i => m (p + i)

/-- The nine numbers stored from address `p` on, by rows. -/
def Mem.mat (m : Mem) (p : Nat) : Mat := fun i j => m (p + 3 * i + j)

/-- The copy loop `for (k = 0; k < 3; k++) vb[k] = result[k]`
    (src/dmxv.cc:44-47, src/dimxv.cc:43-46, src/dvxv.cc:40-43). -/
def Mem.copyVec (m : Mem) (p : Nat) (result : Vec) : Mem :=
  [(0 : Fin 3), 1, 2].foldl (fun m (k : Fin 3) => m.store (p + (k : Nat)) (result k)) m

/-- The copy loop of src/dmxm.cc:47-51. -/
def Mem.copyMat (m : Mem) (p : Nat) (result : Mat) : Mem :=
  [(0 : Fin 3), 1, 2].foldl (fun m (i : Fin 3) =>
    [(0 : Fin 3), 1, 2].foldl (fun m (j : Fin 3) => m.store (p + 3 * (i : Nat) + (j : Nat)) (result i j)) m) m

/-- src/dmxm.cc:33-52 on memory: arguments are addresses. -/
def dmxmMem (m : Mem) (ma mb mc : Nat) : Mem := m.copyMat mc (dmxm (m.mat ma) (m.mat mb))

/-- src/dmxv.cc:33-48 on memory -/
def dmxvMem (m : Mem) (mat va vb : Nat) : Mem := m.copyVec vb (dmxv (m.mat mat) (m.vec va))

/-- src/dimxv.cc:33-47 on memory -/
def dimxvMem (m : Mem) (mat va vb : Nat) : Mem := m.copyVec vb (dimxv (m.mat mat) (m.vec va))

/-- src/dvxv.cc:32-44 on memory -/
def dvxvMem (m : Mem) (va vb vc : Nat) : Mem := m.copyVec vc (dvxv (m.vec va) (m.vec vb))

/-- src/dvn.cc:34-52 on memory.  There is no scratch array: the loop at lines 48-50 reads `vec[i]` after having
    written `nvec[0..i-1]`. -/
def dvnMem (m : Mem) (vec nvec : Nat) : ℝ × Mem :=
  let modulus := Real.sqrt (acc3 fun i => m (vec + i) * m (vec + i))
  let d := if modulus ≤ 0 then 1 else modulus
  (modulus, [(0 : Fin 3), 1, 2].foldl (fun m (i : Fin 3) => m.store (nvec + (i : Nat)) (m (vec + (i : Nat)) / d)) m)

end Sla
