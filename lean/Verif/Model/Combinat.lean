/-
Combinations and permutations: combn, permut.
Arrays are memories `Nat → Int` (element index to value) that extend beyond the array, so that
"writes nothing outside the array" can be stated.  `int` values are mathematical integers.
-/
namespace Sla

/-- Status codes of combn/permut (src/slalib.h `CPStatus`). -/
inductive CPStatus
  | invalidArg | ok | noMore
deriving DecidableEq, Repr

/-- An `int` array in memory. -/
abbrev IntMem := Nat → Int

/-- Assignment `a[i] = v`. -/
def IntMem.set (a : IntMem) (i : Nat) (v : Int) : IntMem := fun k => if k = i then v else a k

/-- The loops `for (j = 0; j < cnt;) { next = j + 1; list[j] = next; j = next; }` of
    src/combn.cc:59-63, 83-87, 93-97; `j` is the current value of the loop variable. -/
def combnFill (cnt j : Nat) (list : IntMem) : IntMem :=
  if j < cnt then combnFill cnt (j + 1) (list.set j ((j : Int) + 1)) else list
termination_by cnt - j

/-- The search loop of src/combn.cc:68-103, `i` being its loop variable (from 1). -/
def combnLoop (nsel : Nat) (ncand : Int) (i : Nat) (list : IntMem) : CPStatus × IntMem :=
  let list_i := list (i - 1)
  let nmax := if i ≥ nsel then ncand + 1 else list i
  if nmax - list_i > 1 then
    (.ok, combnFill (i - 1) 0 (list.set (i - 1) (list_i + 1)))
  else if i ≥ nsel then
    (.noMore, combnFill nsel 0 list)
  else combnLoop nsel ncand (i + 1) list
termination_by nsel - i

/-- src/combn.cc:51-104 `combn`: status and new contents of `list`. -/
def combn (nsel ncand : Int) (list : IntMem) : CPStatus × IntMem :=
  if nsel < 1 ∨ ncand < 1 ∨ nsel > ncand then (.invalidArg, list)
  else if list 0 < 1 then (.ok, combnFill nsel.toNat 0 list)
  else combnLoop nsel.toNat ncand 1 list

/-- src/permut.cc:57-59: `for (i = 1; i < n; i++) state[i] = 0`. -/
def permutClear (n i : Nat) (state : IntMem) : IntMem :=
  if i < n then permutClear n (i + 1) (state.set i 0) else state
termination_by n - i

/-- src/permut.cc:75-89: the carry loop, `j` its loop variable (from 1), `status` its status variable. -/
def permutCarry (n j : Nat) (status : CPStatus) (state : IntMem) : CPStatus × IntMem :=
  if j ≤ n then
    if state (j - 1) ≥ j then
      let state := state.set (j - 1) 0
      if j ≥ n then permutCarry n (j + 1) .noMore state
      else permutCarry n (j + 1) status (state.set j (state j + 1))
    else permutCarry n (j + 1) status state
  else (status, state)
termination_by n + 1 - j

/-- src/permut.cc:97-99: `for (k = 0; k < n; k++) order[k] = 1`. -/
def permutOnes (n k : Nat) (order : IntMem) : IntMem :=
  if k < n then permutOnes n (k + 1) (order.set k 1) else order
termination_by n - k

/-- src/permut.cc:109-111: `while (order[slot - 1] > 1) slot++`.  `fuel` bounds the number of iterations;
    `none` when it runs out, i.e. when the loop would leave the `n` element array (undefined behaviour). -/
def permutScan (order : IntMem) : (fuel : Nat) → (slot : Nat) → Option Nat
  | 0, _ => none
  | fuel + 1, slot => if order (slot - 1) > 1 then permutScan order fuel (slot + 1) else some slot

/-- src/permut.cc:106-112: `cnt` further executions of the body of the `skip` loop. -/
def permutSkip (n : Nat) (order : IntMem) : (cnt : Nat) → (slot : Nat) → Option Nat
  | 0, slot => some slot
  | cnt + 1, slot => do
    let slot ← permutScan order (n - slot) (slot + 1)
    permutSkip n order cnt slot

/-- src/permut.cc:102-115: the loop `for (l = n; l >= 2; l--)`. `none`: array bounds left. -/
def permutDecode (n : Nat) (state : IntMem) : (l : Nat) → IntMem → Option IntMem
  | 0, order => some order
  | 1, order => some order
  | l + 2, order => do
    let slot ← permutSkip n order (state (l + 1) + 1).toNat 0
    if slot = 0 then none else -- `order[-1] = l`, reached when the digit is negative
    permutDecode n state (l + 1) (order.set (slot - 1) ((l + 2 : Nat) : Int))

/-- src/permut.cc:49-117 `permut`: status, new `state`, new `order`; `none` if the code leaves the bounds of
    its arrays (which it does for inconsistent contents of `state`). -/
def permut (n : Int) (state order : IntMem) : Option (CPStatus × IntMem × IntMem) :=
  if n < 1 then some (.invalidArg, state, order)
  else do
    let state := if state 0 < 0 then permutClear n.toNat 1 (state.set 0 (-1)) else state
    let state := state.set 0 (state 0 + 1)
    let (status, state) := permutCarry n.toNat 1 .ok state
    let order ← permutDecode n.toNat state n.toNat (permutOnes n.toNat 0 order)
    return (status, state, order)

end Sla
