import Verif.Model.Fp
import Verif.Model.Misc

/-
Gaussian residuals in single precision, with rounding.  The uniform numbers and the library's logarithm are parameters.
-/
noncomputable section
namespace Sla.Fp

/-- src/gresid.cc:57-65: the rejection loop on the stream `u`, cut off after `fuel` rounds: the accepted x, y, r and the new position;
    `R` rounds to `float` -/
def gresidLoop (R : ℝ → ℝ) (u : ℕ → ℝ) : ℕ → ℕ → Option (ℝ × ℝ × ℝ × ℕ)
  | 0, _ => none
  | fuel + 1, pos =>
    let x := R (R (2 * u pos) - 1)
    let y := R (R (2 * u (pos + 1)) - 1)
    let r := R (R (x * x) + R (y * y))
    open Classical in
    if r ≥ 1 then gresidLoop R u fuel (pos + 2) else some (x, y, r, pos + 2)

/-- src/gresid.cc:37-81 `gresid`: the returned value and the new state; `none` while the loop is still running.  `lg` is the library's
    `log`.  For r = 0 the code computes 0 * sqrt(-2 * log(0) / 1e-20), a NaN: the value is `none`. -/
def gresid (R lg : ℝ → ℝ) (fuel : ℕ) (u : ℕ → ℝ) (s : Gresid) (stdev : ℝ) : Option (Option ℝ × Gresid) :=
  if s.first then
    match gresidLoop R u fuel s.pos with
    | none => none
    | some (x, y, r, pos) =>
      open Classical in
      if r = 0 then some (none, ⟨pos, false, none⟩)
      else
        let w := R (Real.sqrt (R (R (-2 * lg r) / max r (R 1e-20))))
        some (some (R (R (y * w) * stdev)), ⟨pos, false, some (R (x * w))⟩)
  else some (s.next.map (fun g => R (g * stdev)), { s with first := true })

/-- A history of calls of `gresid` (src/gresid.cc:37-81), one per standard deviation. -/
def gresidCalls (R lg : ℝ → ℝ) (fuel : ℕ) (u : ℕ → ℝ) : Gresid → List ℝ → Option (List (Option ℝ) × Gresid)
  | s, [] => some ([], s)
  | s, d :: ds =>
    match gresid R lg fuel u s d with
    | none => none
    | some (g, s') =>
      match gresidCalls R lg fuel u s' ds with
      | none => none
      | some (gs, s'') => some (g :: gs, s'')

end Sla.Fp
