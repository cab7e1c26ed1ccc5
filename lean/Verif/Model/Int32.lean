/-
32-bit `int` arithmetic of C++ with overflow (undefined behaviour) as a distinct outcome.
`none` means: the program has executed an undefined operation.
-/
namespace Sla.I32

/-- `z` is a value of a 32-bit `int`. -/
def InRange (z : Int) : Prop := -2147483648 ≤ z ∧ z ≤ 2147483647

instance (z : Int) : Decidable (InRange z) := by unfold InRange; infer_instance

/-- A result outside the `int` range is undefined behaviour. -/
def chk (z : Int) : Option Int := if InRange z then some z else none

/-- `a + b` -/
def add (a b : Int) : Option Int := chk (a + b)
/-- `a - b` -/
def sub (a b : Int) : Option Int := chk (a - b)
/-- `a * b` -/
def mul (a b : Int) : Option Int := chk (a * b)
/-- `a / b`: truncating; division by zero and `INT_MIN / -1` are undefined -/
def div (a b : Int) : Option Int := if b = 0 then none else chk (a.tdiv b)
/-- `a % b`: sign of the dividend -/
def mod (a b : Int) : Option Int := if b = 0 then none else (chk (a.tdiv b)).map fun _ => a.tmod b

theorem chk_eq {z : Int} (h : InRange z) : chk z = some z := by simp [chk, h]
theorem add_eq {a b : Int} (h : InRange (a + b)) : add a b = some (a + b) := chk_eq h
theorem sub_eq {a b : Int} (h : InRange (a - b)) : sub a b = some (a - b) := chk_eq h
theorem mul_eq {a b : Int} (h : InRange (a * b)) : mul a b = some (a * b) := chk_eq h
theorem div_eq {a b : Int} (hb : b ≠ 0) (h : InRange (a.tdiv b)) : div a b = some (a.tdiv b) := by
  simp [div, hb, chk_eq h]
theorem mod_eq {a b : Int} (hb : b ≠ 0) (h : InRange (a.tdiv b)) : mod a b = some (a.tmod b) := by
  simp [mod, hb, chk_eq h]

end Sla.I32
