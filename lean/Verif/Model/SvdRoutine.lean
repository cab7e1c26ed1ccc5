import Verif.Model.CMath
import Verif.Model.Svd
import Mathlib.Analysis.Real.Sqrt

/-
Singular value decomposition, `sla::svd` (src/svd.cc:67-378).

* `m`, `n` are natural numbers (with `n <= 0` every loop of the code is empty).
* The row-major arrays `a` and `v` (src/svd.cc:70-77) are functions of row and column: cells of different row or column are
  different because `n <= np` (src/svd.cc:68).  The four arrays must not overlap (not checked by the code).
* Loops are folds over the index list in the order of the code, every assignment an explicit update.
* Arithmetic is exact, with one exception: the test `an + fabs(x) == an`, which asks whether `x` disappears when added to
  `an` in floating point, is the parameter `negl an x`.  In exact arithmetic it is `x = 0` (`neglExact`); in floating point it
  holds of all `x` below some tiny fraction of `an`.
* The array access `w[-1]` is the distinct outcome `none`.
-/
noncomputable section
namespace Sla

/-- A two-dimensional array. -/
abbrev Arr2 := ℕ → ℕ → ℝ

/-- Assignment `a_elem(i, j) = x` or `v_elem(i, j) = x` (src/svd.cc:70-77). -/
def set2 (a : Arr2) (i j : ℕ) (x : ℝ) : Arr2 := fun r c => if r = i ∧ c = j then x else a r c

/-- `for (k = lo; k < hi; k++)`. -/
def forRange {σ : Type} (lo hi : ℕ) (body : σ → ℕ → σ) (s : σ) : σ := (List.range' lo (hi - lo)).foldl body s

/-- `for (i = n - 1; i >= 0; i--)`. -/
def forDown {σ : Type} (n : ℕ) (body : σ → ℕ → σ) (s : σ) : σ := (List.range n).reverse.foldl body s

/-! ### Householder reduction to bidiagonal form -/

/-- The left-hand transformation of column `i` (src/svd.cc:106-139): new `a`, and `g`, `scale` at line 140. -/
def houseLeft (m n i : ℕ) (a : Arr2) : Arr2 × ℝ × ℝ :=
  let l := i + 1
  if i < m then
    let scale := forRange i m (fun t k => t + |a k i|) 0
    if scale ≠ 0 then
      let as := forRange i m (fun (p : Arr2 × ℝ) k => let x := p.1 k i / scale; (set2 p.1 k i x, p.2 + x * x)) (a, 0)
      let a := as.1
      let s := as.2
      let f := a i i
      let g := -csign (Real.sqrt s) f
      let h := f * g - s
      let a := set2 a i i (f - g)
      let a := if i ≠ n - 1 then
          forRange l n (fun a j =>
            let s := forRange i m (fun s k => s + a k i * a k j) 0
            let f := s / h
            forRange i m (fun a k => set2 a k j (a k j + f * a k i)) a) a
        else a
      let a := forRange i m (fun a k => set2 a k i (a k i * scale)) a
      (a, g, scale)
    else (a, 0, scale)
  else (a, 0, 0)

/-- The right-hand transformation of row `i` (src/svd.cc:141-176): new `a` and `ws`, and `g`, `scale` at line 177. -/
def houseRight (m n i : ℕ) (a : Arr2) (ws : FMem) : Arr2 × FMem × ℝ × ℝ :=
  let l := i + 1
  if i < m ∧ i ≠ n - 1 then
    let scale := forRange l n (fun t k => t + |a i k|) 0
    if scale ≠ 0 then
      let as := forRange l n (fun (p : Arr2 × ℝ) k => let x := p.1 i k / scale; (set2 p.1 i k x, p.2 + x * x)) (a, 0)
      let a := as.1
      let s := as.2
      let f := a i l
      let g := -csign (Real.sqrt s) f
      let h := f * g - s
      let a := set2 a i l (f - g)
      let ws := forRange l n (fun ws k => FMem.set ws k (a i k / h)) ws
      let a := if i ≠ m - 1 then
          forRange l m (fun a j =>
            let s := forRange l n (fun s k => s + a j k * a i k) 0
            forRange l n (fun a k => set2 a j k (a j k + s * ws k)) a) a
        else a
      let a := forRange l n (fun a k => set2 a i k (a i k * scale)) a
      (a, ws, g, scale)
    else (a, ws, 0, scale)
  else (a, ws, 0, 0)

/-- The variables of the first loop. -/
structure HouseState where
  a : Arr2
  w : FMem
  ws : FMem
  g : ℝ
  scale : ℝ
  an : ℝ

/-- One pass of the first loop (src/svd.cc:103-179). -/
def houseStep (m n : ℕ) (st : HouseState) (i : ℕ) : HouseState :=
  let ws := FMem.set st.ws i (st.scale * st.g)
  let left := houseLeft m n i st.a
  let w := FMem.set st.w i (left.2.2 * left.2.1)
  let right := houseRight m n i left.1 ws
  { a := right.1, w := w, ws := right.2.1, g := right.2.2.1, scale := right.2.2.2,
    an := max st.an (|w i| + |right.2.1 i|) }

/-- The first loop (src/svd.cc:98-179). -/
def house (m n : ℕ) (a : Arr2) (w ws : FMem) : HouseState :=
  forRange 0 n (houseStep m n) { a := a, w := w, ws := ws, g := 0, scale := 0, an := 0 }

/-! ### Accumulation of the transformations -/

/-- One pass of the second loop (src/svd.cc:185-209), variables `v`, `g`, `l`. -/
def accRightStep (n : ℕ) (a : Arr2) (ws : FMem) (st : Arr2 × ℝ × ℕ) (i : ℕ) : Arr2 × ℝ × ℕ :=
  let v := st.1
  let g := st.2.1
  let l := st.2.2
  let v := if i ≠ n - 1 then
      let v := if g ≠ 0 then
          let v := forRange l n (fun v j => set2 v j i ((a i j / a i l) / g)) v
          forRange l n (fun v j =>
            let s := forRange l n (fun s k => s + a i k * v k j) 0
            forRange l n (fun v k => set2 v k j (v k j + s * v k i)) v) v
        else v
      forRange l n (fun v j => set2 (set2 v i j 0) j i 0) v
    else v
  (set2 v i i 1, ws i, i)

/-- One pass of the third loop (src/svd.cc:215-245). -/
def accLeftStep (m n : ℕ) (w : FMem) (a : Arr2) (i : ℕ) : Arr2 :=
  let l := i + 1
  let g := w i
  let a := if i ≠ n - 1 then forRange l n (fun a j => set2 a i j 0) a else a
  let a := if g ≠ 0 then
      let a := if i ≠ n - 1 then
          forRange l n (fun a j =>
            let s := forRange l m (fun s k => s + a k i * a k j) 0
            let f := (s / a i i) / g
            forRange i m (fun a k => set2 a k j (a k j + f * a k i)) a) a
        else a
      forRange i m (fun a j => set2 a j i (a j i / g)) a
    else forRange i m (fun a j => set2 a j i 0) a
  set2 a i i (a i i + 1)

/-! ### Diagonalisation of the bidiagonal form -/

/-- The rotation of columns `p` and `q` of an array with the given number of rows (src/svd.cc:287-292, 349-354, 363-368). -/
def rotCols (rows p q : ℕ) (c s : ℝ) (a : Arr2) : Arr2 :=
  forRange 0 rows (fun a j =>
    let y := a j p
    let z := a j q
    set2 (set2 a j p (y * c + z * s)) j q (-y * s + z * c)) a

/-- The search for a split (src/svd.cc:260-272), from `l` downwards: `l` and `cancel`; `none` for the access `w[-1]`. -/
def svdSplit (negl : ℝ → Bool) (w ws : FMem) : ℕ → Option (ℕ × Bool)
  | 0 => if negl (ws 0) then some (0, false) else none
  | l + 1 =>
    if negl (ws (l + 1)) then some (l + 1, false)
    else if negl (w l) then some (l + 1, true)
    else svdSplit negl w ws l

/-- The variables of the cancellation loop; `stop` is set by its `break`. -/
structure CancelState where
  a : Arr2
  w : FMem
  s : ℝ
  stop : Bool

/-- One pass of the cancellation loop (src/svd.cc:277-293). -/
def cancelStep (negl : ℝ → Bool) (m l1 : ℕ) (ws : FMem) (st : CancelState) (i : ℕ) : CancelState :=
  if st.stop then st
  else
    let f := st.s * ws i
    if negl f then { st with stop := true }
    else
      let g := st.w i
      let h := Real.sqrt (f * f + g * g)
      let c := g / h
      let s := -f / h
      { a := rotCols m l1 i c s st.a, w := FMem.set st.w i h, s := s, stop := false }

/-- The cancellation loop (src/svd.cc:275-294). -/
def svdCancel (negl : ℝ → Bool) (m l k : ℕ) (a : Arr2) (w ws : FMem) : CancelState :=
  forRange l (k + 1) (cancelStep negl m (l - 1) ws) { a := a, w := w, s := 1, stop := false }

/-- The variables of the QR transformation. -/
structure SweepState where
  a : Arr2
  v : Arr2
  w : FMem
  ws : FMem
  f : ℝ
  x : ℝ
  c : ℝ
  s : ℝ

/-- One pass of the QR loop (src/svd.cc:330-369). -/
def sweepStep (m n : ℕ) (st : SweepState) (i1 : ℕ) : SweepState :=
  let i := i1 + 1
  let g := st.ws i
  let y := st.w i
  let h := st.s * g
  let g := st.c * g
  let z := Real.sqrt (st.f * st.f + h * h)
  let ws := FMem.set st.ws i1 z
  let c := if z ≠ 0 then st.f / z else 1
  let s := if z ≠ 0 then h / z else 0
  let f := st.x * c + g * s
  let g := -st.x * s + g * c
  let h := y * s
  let y := y * c
  let v := rotCols n i1 i c s st.v
  let z := Real.sqrt (f * f + h * h)
  let w := FMem.set st.w i1 z
  let c' := if z ≠ 0 then f / z else c
  let s' := if z ≠ 0 then h / z else s
  { a := rotCols m i1 i c' s' st.a, v := v, w := w, ws := ws, f := c' * g + s' * y, x := -s' * g + c' * y, c := c', s := s' }

/-- The shift from the bottom 2 x 2 minor (src/svd.cc:317-325): the first `f` of the QR transformation; `none` for a division
    by zero. -/
def svdShift (w ws : FMem) (l k : ℕ) : Option ℝ :=
  let z := w k
  let x := w l
  let y := w (k - 1)
  let g := ws (k - 1)
  let h := ws k
  if 2 * h * y = 0 ∨ x = 0 then none
  else
    let f := ((y - z) * (y + z) + (g - h) * (g + h)) / (2 * h * y)
    let g := if |f| > 1.0e15 then |f| else Real.sqrt (f * f + 1)
    if f + csign g f = 0 then none else some (((x - z) * (x + z) + h * (y / (f + csign g f) - h)) / x)

/-- The arrays and the status. -/
structure SvdState where
  a : Arr2
  v : Arr2
  w : FMem
  ws : FMem
  status : ℤ

/-- The shift and the QR transformation (src/svd.cc:317-372). -/
def svdSweep (m n l k : ℕ) (st : SvdState) : Option SvdState :=
  (svdShift st.w st.ws l k).map fun f =>
    let r := forRange l k (sweepStep m n)
      { a := st.a, v := st.v, w := st.w, ws := st.ws, f := f, x := st.w l, c := 1, s := 1 }
    { st with a := r.a, v := r.v, w := FMem.set r.w k r.x, ws := FMem.set (FMem.set r.ws l 0) k r.f }

/-- Making a converged singular value non-negative (src/svd.cc:303-309). -/
def svdFlip (n k : ℕ) (st : SvdState) : SvdState :=
  if st.w k < 0 then
    { st with w := FMem.set st.w k (-st.w k), v := forRange 0 n (fun v j => set2 v j k (-v j k)) st.v }
  else st

/-- The iterations for one `k` (src/svd.cc:254-374), given the number still allowed. -/
def svdIterate (negl : ℝ → Bool) (m n k : ℕ) : ℕ → SvdState → Option SvdState
  | 0, st => some st
  | r + 1, st =>
    match svdSplit negl st.w st.ws k with
    | none => none
    | some (l, cancel) =>
      let st := if cancel then
          let cs := svdCancel negl m l k st.a st.w st.ws
          { st with a := cs.a, w := cs.w }
        else st
      if l = k then some (svdFlip n k st)
      else
        let st := if r = 0 then { st with status := (k : ℤ) } else st
        (svdSweep m n l k st).bind (svdIterate negl m n k r)

/-- The last loop (src/svd.cc:251-375), MAX_ITERATIONS = 30 (src/svd.cc:83). -/
def svdDiagonalise (negl : ℝ → Bool) (m n : ℕ) (st : SvdState) : Option SvdState :=
  forDown n (fun st k => st.bind (svdIterate negl m n k 30)) (some st)

/-- src/svd.cc:67-378 `svd`: final contents of `a`, `v`, `w`, `ws`, and the status. -/
def svd (negl : ℝ → ℝ → Bool) (m n : ℕ) (a v : Arr2) (w ws : FMem) : Option SvdState :=
  if m < n then some { a := a, v := v, w := w, ws := ws, status := -1 }
  else
    let hs := house m n a w ws
    let v := (forDown n (accRightStep n hs.a hs.ws) (v, hs.g, n)).1
    let a := forDown n (accLeftStep m n hs.w) hs.a
    svdDiagonalise (negl hs.an) m n { a := a, v := v, w := hs.w, ws := hs.ws, status := 0 }

/-- The test `an + fabs(x) == an` in exact arithmetic. -/
def neglExact (an x : ℝ) : Bool := decide (an + |x| = an)

end Sla
