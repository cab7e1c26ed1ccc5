import Verif.Model.Alias
import Verif.Lemmas.Vectors

/-
Property theorems C19: output arrays that share storage with input arrays.
-/
namespace Sla.Props

private theorem copyVec_spec (m : Mem) (p : Nat) (r : Vec) :
    (m.copyVec p r).vec p = r ∧ ∀ q, q < p ∨ p + 3 ≤ q → m.copyVec p r q = m q := by
  constructor
  · funext i
    fin_cases i <;> simp [Mem.copyVec, Mem.vec, Mem.store]
  · intro q hq
    have h0 : q ≠ p + ((0 : Fin 3) : Nat) := by simp; omega
    have h1 : q ≠ p + ((1 : Fin 3) : Nat) := by simp; omega
    have h2 : q ≠ p + ((2 : Fin 3) : Nat) := by simp; omega
    simp only [Mem.copyVec, Mem.store, List.foldl_cons, List.foldl_nil, if_neg h0, if_neg h1, if_neg h2]

private theorem copyMat_spec (m : Mem) (p : Nat) (r : Mat) :
    (m.copyMat p r).mat p = r ∧ ∀ q, q < p ∨ p + 9 ≤ q → m.copyMat p r q = m q := by
  constructor
  · ext i j
    fin_cases i <;> fin_cases j <;> simp [Mem.copyMat, Mem.mat, Mem.store]
    all_goals (repeat rw [if_neg (by omega)])
  · intro q hq
    have h : ∀ i j : Fin 3, q ≠ p + 3 * (i : Nat) + (j : Nat) := by intro i j; omega
    simp only [Mem.copyMat, Mem.store, List.foldl_cons, List.foldl_nil, if_neg (h _ _)]

/-- C19: wherever the three matrices are in memory, the output region ends up holding the product of what the
    input regions held before the call, and nothing outside the output region changes. -/
theorem C19_dmxm (m : Mem) (a b c : Nat) :
    (dmxmMem m a b c).mat c = m.mat a * m.mat b ∧ ∀ q, q < c ∨ c + 9 ≤ q → dmxmMem m a b c q = m q := by
  rw [← dmxm_eq]; exact copyMat_spec _ _ _

theorem C19_dmxv (m : Mem) (a v w : Nat) :
    (dmxvMem m a v w).vec w = (m.mat a).mulVec (m.vec v) ∧
    ∀ q, q < w ∨ w + 3 ≤ q → dmxvMem m a v w q = m q := by
  rw [← dmxv_eq]; exact copyVec_spec _ _ _

theorem C19_dimxv (m : Mem) (a v w : Nat) :
    (dimxvMem m a v w).vec w = (m.mat a).transpose.mulVec (m.vec v) ∧
    ∀ q, q < w ∨ w + 3 ≤ q → dimxvMem m a v w q = m q := by
  rw [← dimxv_eq]; exact copyVec_spec _ _ _

theorem C19_dvxv (m : Mem) (u v w : Nat) :
    (dvxvMem m u v w).vec w = crossProduct (m.vec u) (m.vec v) ∧
    ∀ q, q < w ∨ w + 3 ≤ q → dvxvMem m u v w q = m q := by
  rw [← dvxv_eq]; exact copyVec_spec _ _ _

/-- C19: dvn may normalise in place (same array), or into a separate array, or into one that starts at a lower
    address; the result is that of the value-level function. -/
theorem C19_dvn (m : Mem) (v w : Nat) (h : w ≤ v ∨ v + 3 ≤ w) :
    (dvnMem m v w).1 = (dvn (m.vec v)).1 ∧ (dvnMem m v w).2.vec w = (dvn (m.vec v)).2 ∧
    ∀ q, q < w ∨ w + 3 ≤ q → (dvnMem m v w).2 q = m q := by
  refine ⟨rfl, ?_, ?_⟩
  · have n1 : v + 1 ≠ w := by omega
    have n2 : v + 2 ≠ w := by omega
    have n3 : v + 2 ≠ w + 1 := by omega
    funext i
    fin_cases i <;> simp [dvnMem, dvn, Mem.vec, Mem.store, n1, n2, n3] <;> rfl
  · intro q hq
    have h0 : q ≠ w + ((0 : Fin 3) : Nat) := by simp; omega
    have h1 : q ≠ w + ((1 : Fin 3) : Nat) := by simp; omega
    have h2 : q ≠ w + ((2 : Fin 3) : Nat) := by simp; omega
    simp only [dvnMem, Mem.store, List.foldl_cons, List.foldl_nil, if_neg h0, if_neg h1, if_neg h2]

/-- C19: dvn has no scratch vector: for an output that overlaps the input one element further on the result is
    not the normalised input. -/
theorem C19_dvn_overlap_hazard : ∃ m : Mem, (dvnMem m 0 1).2.vec 1 ≠ (dvn (m.vec 0)).2 := by
  refine ⟨fun q => if q = 0 then 1 else 0, fun h => ?_⟩
  have := congrFun h 1
  simp [dvnMem, dvn, Mem.vec, Mem.store, acc3] at this

/-- The aliased call computes the product of the old contents: squaring a matrix in place. -/
example (m : Mem) (p : Nat) : (dmxmMem m p p p).mat p = m.mat p * m.mat p := (C19_dmxm m p p p).1
example : (5 : Nat) ≤ 5 ∨ 5 + 3 ≤ 5 := Or.inl le_rfl

end Sla.Props
