import Verif.Model.CMath
import Mathlib.Analysis.SpecialFunctions.Log.Base

/-
`gresid`, `random` and the version functions.

The standard library's random engine is not modelled: `gresid` draws from an arbitrary stream of uniform numbers, and
`random` uses an arbitrary engine. The static variables of the two functions are the state; they are per thread or per
process depending on SLALIB_THREAD_LOCAL, so the state is that of one thread (or of a program that calls them from one
thread).
-/
noncomputable section
namespace Sla

/-! ## Gaussian residuals -/

/-- The static variables of `gresid` (src/gresid.cc:38-40). `pos` counts the uniform numbers drawn so far from the
    generator, which is seeded with a fixed number on the first call (lines 47-50). `next` is `none` for a NaN. -/
structure Gresid where
  pos : ℕ
  first : Bool
  next : Option ℝ

/-- Before the first call. -/
def Gresid.init : Gresid := ⟨0, true, some 0⟩

/-- The rejection loop (src/gresid.cc:57-65) on the stream `u`, cut off after `fuel` rounds: the accepted x, y, r and
    the new position. -/
def gresidLoop (u : ℕ → ℝ) : ℕ → ℕ → Option (ℝ × ℝ × ℝ × ℕ)
  | 0, _ => none
  | fuel + 1, pos =>
    let x := 2 * u pos - 1
    let y := 2 * u (pos + 1) - 1
    let r := x * x + y * y
    if r ≥ 1 then gresidLoop u fuel (pos + 2) else some (x, y, r, pos + 2)

/-- src/gresid.cc:37-81 `gresid`: the returned value and the new state; `none` while the loop is still running. For
    r = 0 the code computes 0 * sqrt(-2 * log(0) / 1e-20), a NaN: the value is `none`. -/
def gresid (fuel : ℕ) (u : ℕ → ℝ) (s : Gresid) (stdev : ℝ) : Option (Option ℝ × Gresid) :=
  if s.first then
    match gresidLoop u fuel s.pos with
    | none => none
    | some (x, y, r, pos) =>
      if r = 0 then some (none, ⟨pos, false, none⟩)
      else
        let w := Real.sqrt (-2 * Real.log r / max r 1e-20)
        some (some (y * w * stdev), ⟨pos, false, some (x * w)⟩)
  else some (s.next.map (· * stdev), { s with first := true })

/-- A history of calls, one per standard deviation. -/
def gresidCalls (fuel : ℕ) (u : ℕ → ℝ) : Gresid → List ℝ → Option (List (Option ℝ) × Gresid)
  | s, [] => some ([], s)
  | s, d :: ds =>
    match gresid fuel u s d with
    | none => none
    | some (g, s') =>
      match gresidCalls fuel u s' ds with
      | none => none
      | some (gs, s'') => some (g :: gs, s'')

/-! ## Uniform random numbers -/

/-- A random engine of the standard library, with `std::generate_canonical`: seeding and drawing. -/
structure Engine where
  State : Type
  seed : ℤ → State
  next : State → ℝ × State

/-- The integer seed (src/random.cc:46-50). -/
def randomSeed (seed : ℝ) : ℤ :=
  let aseed := |seed| + 1
  let iseed := cround (aseed / (10 : ℝ) ^ (cround (Real.logb 10 aseed) - 6))
  if iseed % 2 = 0 then iseed + 1 else iseed

/-- src/random.cc:34-56 `random`; the state is `none` while `first_time` is true. -/
def random (e : Engine) (s : Option e.State) (seed : ℝ) : ℝ × Option e.State :=
  let g := match s with
    | none => e.seed (randomSeed seed)
    | some g => g
  ((e.next g).1, some (e.next g).2)

/-- A history of calls, one per seed argument. -/
def randomCalls (e : Engine) : Option e.State → List ℝ → List ℝ
  | _, [] => []
  | s, x :: xs => (random e s x).1 :: randomCalls e (random e s x).2 xs

/-! ## Version -/

/-- src/veri.cc:33-36 `veri`, for the version macros of src/slalib.h:39-41. -/
def veri (major minor release : ℕ) : ℕ := major * 1000000 + minor * 1000 + release

/-- src/vers.cc:28-47 `vers`: the macros are pasted as spelled; they are spelled as decimal numbers without leading
    zeros. -/
def vers (major minor release : ℕ) : List Char :=
  Nat.toDigits 10 major ++ '.' :: (Nat.toDigits 10 minor ++ '-' :: Nat.toDigits 10 release)

end Sla
