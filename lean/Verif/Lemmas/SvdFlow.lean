import Verif.Lemmas.SvdLoops

/-
Data flow of `svd`: two runs that start from arrays which agree where the code may read stay in agreement, and neither
changes a cell outside its arrays.
-/
namespace Sla

/-- Two runs of a loop side by side. -/
theorem forRange_rel {σ τ : Type} {lo hi : ℕ} (Q : ℕ → σ → τ → Prop) {f : σ → ℕ → σ} {g : τ → ℕ → τ} {s : σ} {t : τ} (h0 : Q lo s t)
    (hs : ∀ k s t, lo ≤ k → k < hi → Q k s t → Q (k + 1) (f s k) (g t k)) (h : lo ≤ hi) :
    Q hi (forRange lo hi f s) (forRange lo hi g t) := by
  induction hi, h using Nat.le_induction with
  | base => rw [forRange_self le_rfl, forRange_self le_rfl]; exact h0
  | succ hi hle ih =>
    rw [forRange_succ hle, forRange_succ hle]
    exact hs hi _ _ hle (by omega) (ih fun k s t h1 h2 => hs k s t h1 (by omega))

/-- The same with a relation that does not change; the loop may be empty. -/
theorem forRange_rel' {σ τ : Type} {lo hi : ℕ} (Q : σ → τ → Prop) {f : σ → ℕ → σ} {g : τ → ℕ → τ} {s : σ} {t : τ} (h0 : Q s t)
    (hs : ∀ k s t, lo ≤ k → k < hi → Q s t → Q (f s k) (g t k)) : Q (forRange lo hi f s) (forRange lo hi g t) := by
  rcases Nat.lt_or_ge hi lo with h | h
  · rw [forRange_self (by omega), forRange_self (by omega)]; exact h0
  · exact forRange_rel (fun _ => Q) h0 hs h

theorem forDown_rel {σ τ : Type} {n : ℕ} (Q : ℕ → σ → τ → Prop) {f : σ → ℕ → σ} {g : τ → ℕ → τ} {s : σ} {t : τ} (h0 : Q n s t)
    (hs : ∀ i s t, i < n → Q (i + 1) s t → Q i (f s i) (g t i)) : Q 0 (forDown n f s) (forDown n g t) := by
  induction n generalizing s t with
  | zero => exact h0
  | succ n ih =>
    rw [forDown_succ, forDown_succ]
    exact ih (hs n s t (by omega) h0) fun i s t hi => hs i s t (by omega)

/-- Sums are equal when the terms are. -/
theorem forRange_eq {lo hi : ℕ} {F G : ℕ → ℝ} (h : ∀ k, lo ≤ k → k < hi → F k = G k) (s : ℝ) :
    forRange lo hi (fun t k => t + F k) s = forRange lo hi (fun t k => t + G k) s :=
  forRange_rel' Eq rfl fun k s t h1 h2 e => by rw [e, h k h1 h2]

/-- Two contents of a two-dimensional array, `a` and `b`, which were `a0` and `b0` to begin with: equal in the cells `D`, and
    unchanged outside the cells `P`. -/
structure Flow (P D : ℕ → ℕ → Prop) (a0 b0 a b : Arr2) : Prop where
  eq : ∀ i j, D i j → a i j = b i j
  left : ∀ i j, ¬P i j → a i j = a0 i j
  right : ∀ i j, ¬P i j → b i j = b0 i j

/-- The same for a one-dimensional array. -/
structure Flow1 (P D : ℕ → Prop) (a0 b0 a b : FMem) : Prop where
  eq : ∀ i, D i → a i = b i
  left : ∀ i, ¬P i → a i = a0 i
  right : ∀ i, ¬P i → b i = b0 i

variable {P D D' : ℕ → ℕ → Prop} {a0 b0 a b : Arr2} {P1 D1 D1' : ℕ → Prop} {w0 x0 w x : FMem}

theorem Flow.set (h : Flow P D a0 b0 a b) {i j : ℕ} (hP : P i j) {u v : ℝ} (e : u = v) : Flow P D a0 b0 (set2 a i j u) (set2 b i j v) where
  eq r c hD := by simp only [set2]; split_ifs; exacts [e, h.eq r c hD]
  left r c hn := by
    simp only [set2]
    rw [if_neg (by rintro ⟨rfl, rfl⟩; exact hn hP)]; exact h.left r c hn
  right r c hn := by
    simp only [set2]
    rw [if_neg (by rintro ⟨rfl, rfl⟩; exact hn hP)]; exact h.right r c hn

/-- A cell becomes known when it is written. -/
theorem Flow.define (h : Flow P D a0 b0 a b) {i j : ℕ} (hP : P i j) {u v : ℝ} (e : u = v) (hD : ∀ r c, D' r c → D r c ∨ (r = i ∧ c = j)) :
    Flow P D' a0 b0 (set2 a i j u) (set2 b i j v) where
  eq r c hd := by
    simp only [set2]
    split_ifs with hc
    · exact e
    · exact h.eq r c ((hD r c hd).resolve_right hc)
  left := (h.set hP e).left
  right := (h.set hP e).right

theorem Flow.mono (h : Flow P D a0 b0 a b) (hD : ∀ r c, D' r c → D r c) : Flow P D' a0 b0 a b :=
  ⟨fun r c hd => h.eq r c (hD r c hd), h.left, h.right⟩

theorem Flow1.set (h : Flow1 P1 D1 w0 x0 w x) {i : ℕ} (hP : P1 i) {u v : ℝ} (e : u = v) :
    Flow1 P1 D1 w0 x0 (FMem.set w i u) (FMem.set x i v) where
  eq r hD := by simp only [FMem.set]; split_ifs; exacts [e, h.eq r hD]
  left r hn := by
    simp only [FMem.set]
    rw [if_neg (by rintro rfl; exact hn hP)]; exact h.left r hn
  right r hn := by
    simp only [FMem.set]
    rw [if_neg (by rintro rfl; exact hn hP)]; exact h.right r hn

theorem Flow1.define (h : Flow1 P1 D1 w0 x0 w x) {i : ℕ} (hP : P1 i) {u v : ℝ} (e : u = v) (hD : ∀ r, D1' r → D1 r ∨ r = i) :
    Flow1 P1 D1' w0 x0 (FMem.set w i u) (FMem.set x i v) where
  eq r hd := by
    simp only [FMem.set]
    split_ifs with hc
    · exact e
    · exact h.eq r ((hD r hd).resolve_right hc)
  left := (h.set hP e).left
  right := (h.set hP e).right

theorem Flow1.mono (h : Flow1 P1 D1 w0 x0 w x) (hD : ∀ r, D1' r → D1 r) : Flow1 P1 D1' w0 x0 w x :=
  ⟨fun r hd => h.eq r (hD r hd), h.left, h.right⟩

/-! ### Householder reduction -/

/-- The cells of an `m` by `n` array. -/
def Box (m n i j : ℕ) : Prop := i < m ∧ j < n

theorem houseLeft_flow {m n i : ℕ} (hi : i < n) (hm : n ≤ m) (h : Flow (Box m n) (Box m n) a0 b0 a b) :
    Flow (Box m n) (Box m n) a0 b0 (houseLeft m n i a).1 (houseLeft m n i b).1 ∧ (houseLeft m n i a).2 = (houseLeft m n i b).2 := by
  unfold houseLeft
  have him : i < m := by omega
  dsimp only
  rw [if_pos him, if_pos him]
  rw [forRange_eq (F := fun k => |a k i|) (G := fun k => |b k i|) fun k _ hk => by rw [h.eq k i ⟨hk, hi⟩]]
  generalize forRange i m (fun t k => t + |b k i|) 0 = scale
  by_cases hs : scale ≠ 0
  swap
  · rw [if_neg hs, if_neg hs]; exact ⟨h, rfl⟩
  rw [if_pos hs, if_pos hs]
  have h1 := forRange_rel' (lo := i) (hi := m) (fun p q : Arr2 × ℝ => Flow (Box m n) (Box m n) a0 b0 p.1 q.1 ∧ p.2 = q.2)
    (f := fun p k => let x := p.1 k i / scale; (set2 p.1 k i x, p.2 + x * x))
    (g := fun p k => let x := p.1 k i / scale; (set2 p.1 k i x, p.2 + x * x)) (s := (a, 0)) (t := (b, 0)) ⟨h, rfl⟩
    fun k p q _ hk hpq => by
      have e : p.1 k i / scale = q.1 k i / scale := by rw [hpq.1.eq k i ⟨hk, hi⟩]
      exact ⟨hpq.1.set ⟨hk, hi⟩ e, by dsimp only; rw [e, hpq.2]⟩
  dsimp only at h1
  generalize forRange i m (fun (p : Arr2 × ℝ) k => (set2 p.1 k i (p.1 k i / scale), p.2 + p.1 k i / scale * (p.1 k i / scale))) (a, 0) = p at *
  generalize forRange i m (fun (p : Arr2 × ℝ) k => (set2 p.1 k i (p.1 k i / scale), p.2 + p.1 k i / scale * (p.1 k i / scale))) (b, 0) = q at *
  obtain ⟨h1, e1⟩ := h1
  rw [e1, h1.eq i i ⟨him, hi⟩]
  generalize csign (Real.sqrt q.2) (q.1 i i) = g
  have h2 := h1.set (i := i) (j := i) ⟨him, hi⟩ (rfl : q.1 i i - -g = q.1 i i - -g)
  generalize q.1 i i * -g - q.2 = hh
  generalize set2 p.1 i i (q.1 i i - -g) = a1 at *
  generalize set2 q.1 i i (q.1 i i - -g) = b1 at *
  have h3 : Flow (Box m n) (Box m n) a0 b0
      (if i ≠ n - 1 then forRange (i + 1) n (fun a j => forRange i m (fun a' k => set2 a' k j (a' k j + forRange i m (fun s k => s + a k i * a k j) 0 / hh * a' k i)) a) a1 else a1)
      (if i ≠ n - 1 then forRange (i + 1) n (fun a j => forRange i m (fun a' k => set2 a' k j (a' k j + forRange i m (fun s k => s + a k i * a k j) 0 / hh * a' k i)) a) b1 else b1) := by
    split_ifs
    · refine forRange_rel' _ h2 fun j a b hj hjn h => ?_
      rw [forRange_eq (F := fun k => a k i * a k j) (G := fun k => b k i * b k j) fun k _ hk => by rw [h.eq k i ⟨hk, hi⟩, h.eq k j ⟨hk, hjn⟩]]
      exact forRange_rel' _ h fun k a b _ hk h => h.set ⟨hk, hjn⟩ (by rw [h.eq k i ⟨hk, hi⟩, h.eq k j ⟨hk, hjn⟩])
    · exact h2
  exact ⟨forRange_rel' _ h3 fun k a b _ hk h => h.set ⟨hk, hi⟩ (by rw [h.eq k i ⟨hk, hi⟩]), rfl⟩

theorem houseRight_flow {m n i : ℕ} (hi : i < n) (hm : n ≤ m) (h : Flow (Box m n) (Box m n) a0 b0 a b)
    (hw : Flow1 (· < n) (· ≤ i) w0 x0 w x) :
    Flow (Box m n) (Box m n) a0 b0 (houseRight m n i a w).1 (houseRight m n i b x).1 ∧
      Flow1 (· < n) (· ≤ i) w0 x0 (houseRight m n i a w).2.1 (houseRight m n i b x).2.1 ∧
      (houseRight m n i a w).2.2 = (houseRight m n i b x).2.2 := by
  unfold houseRight
  have him : i < m := by omega
  dsimp only
  by_cases hin : i ≠ n - 1
  swap
  · rw [if_neg (by tauto), if_neg (by tauto)]; exact ⟨h, hw, rfl⟩
  have hl : i + 1 < n := by omega
  have hc : i < m ∧ i ≠ n - 1 := ⟨him, hin⟩
  rw [if_pos hc, if_pos hc]
  rw [forRange_eq (F := fun k => |a i k|) (G := fun k => |b i k|) fun k _ hk => by rw [h.eq i k ⟨him, hk⟩]]
  generalize forRange (i + 1) n (fun t k => t + |b i k|) 0 = scale
  by_cases hs : scale ≠ 0
  swap
  · rw [if_neg hs, if_neg hs]; exact ⟨h, hw, rfl⟩
  rw [if_pos hs, if_pos hs]
  have h1 := forRange_rel' (lo := i + 1) (hi := n) (fun p q : Arr2 × ℝ => Flow (Box m n) (Box m n) a0 b0 p.1 q.1 ∧ p.2 = q.2)
    (f := fun p k => let x := p.1 i k / scale; (set2 p.1 i k x, p.2 + x * x))
    (g := fun p k => let x := p.1 i k / scale; (set2 p.1 i k x, p.2 + x * x)) (s := (a, 0)) (t := (b, 0)) ⟨h, rfl⟩
    fun k p q _ hk hpq => by
      have e : p.1 i k / scale = q.1 i k / scale := by rw [hpq.1.eq i k ⟨him, hk⟩]
      exact ⟨hpq.1.set ⟨him, hk⟩ e, by dsimp only; rw [e, hpq.2]⟩
  dsimp only at h1
  generalize forRange (i + 1) n (fun (p : Arr2 × ℝ) k => (set2 p.1 i k (p.1 i k / scale), p.2 + p.1 i k / scale * (p.1 i k / scale))) (a, 0) = p at *
  generalize forRange (i + 1) n (fun (p : Arr2 × ℝ) k => (set2 p.1 i k (p.1 i k / scale), p.2 + p.1 i k / scale * (p.1 i k / scale))) (b, 0) = q at *
  obtain ⟨h1, e1⟩ := h1
  rw [e1, h1.eq i (i + 1) ⟨him, hl⟩]
  generalize csign (Real.sqrt q.2) (q.1 i (i + 1)) = g
  have h2 := h1.set (i := i) (j := i + 1) ⟨him, hl⟩ (rfl : q.1 i (i + 1) - -g = q.1 i (i + 1) - -g)
  generalize q.1 i (i + 1) * -g - q.2 = hh
  generalize set2 p.1 i (i + 1) (q.1 i (i + 1) - -g) = a1 at *
  generalize set2 q.1 i (i + 1) (q.1 i (i + 1) - -g) = b1 at *
  have hw2 : Flow1 (· < n) (· < n) w0 x0 (forRange (i + 1) n (fun ws k => FMem.set ws k (a1 i k / hh)) w)
      (forRange (i + 1) n (fun ws k => FMem.set ws k (b1 i k / hh)) x) :=
    forRange_rel (fun k w x => Flow1 (· < n) (· < k) w0 x0 w x) (hw.mono fun r hr => by omega)
      (fun k s t _ hk h => h.define hk (by rw [h2.eq i k ⟨him, hk⟩]) fun r hr => by omega) (by omega)
  generalize forRange (i + 1) n (fun ws k => FMem.set ws k (a1 i k / hh)) w = w1 at *
  generalize forRange (i + 1) n (fun ws k => FMem.set ws k (b1 i k / hh)) x = x1 at *
  have h3 : Flow (Box m n) (Box m n) a0 b0
      (if i ≠ m - 1 then forRange (i + 1) m (fun a j => forRange (i + 1) n (fun a' k => set2 a' j k (a' j k + forRange (i + 1) n (fun s k => s + a j k * a i k) 0 * w1 k)) a) a1 else a1)
      (if i ≠ m - 1 then forRange (i + 1) m (fun a j => forRange (i + 1) n (fun a' k => set2 a' j k (a' j k + forRange (i + 1) n (fun s k => s + a j k * a i k) 0 * x1 k)) a) b1 else b1) := by
    split_ifs
    · refine forRange_rel' _ h2 fun j a b hj hjm h => ?_
      rw [forRange_eq (F := fun k => a j k * a i k) (G := fun k => b j k * b i k) fun k _ hk => by rw [h.eq j k ⟨hjm, hk⟩, h.eq i k ⟨him, hk⟩]]
      exact forRange_rel' _ h fun k a b _ hk h => h.set ⟨hjm, hk⟩ (by rw [h.eq j k ⟨hjm, hk⟩, hw2.eq k hk])
    · exact h2
  exact ⟨forRange_rel' _ h3 fun k a b _ hk h => h.set ⟨him, hk⟩ (by rw [h.eq i k ⟨him, hk⟩]), hw2.mono fun r hr => by omega, rfl⟩

theorem house_flow {m n : ℕ} (hm : n ≤ m) (h : Flow (Box m n) (Box m n) a b a b) (w x ws xs : FMem) :
    Flow (Box m n) (Box m n) a b (house m n a w ws).a (house m n b x xs).a ∧
      Flow1 (· < n) (· < n) w x (house m n a w ws).w (house m n b x xs).w ∧
      Flow1 (· < n) (· < n) ws xs (house m n a w ws).ws (house m n b x xs).ws ∧
      (house m n a w ws).g = (house m n b x xs).g ∧ (house m n a w ws).an = (house m n b x xs).an := by
  have key := forRange_rel (lo := 0) (hi := n) (fun k (s t : HouseState) => Flow (Box m n) (Box m n) a b s.a t.a ∧
    Flow1 (· < n) (· < k) w x s.w t.w ∧ Flow1 (· < n) (· < k) ws xs s.ws t.ws ∧ s.g = t.g ∧ s.scale = t.scale ∧ s.an = t.an)
    (f := houseStep m n) (g := houseStep m n) (s := { a := a, w := w, ws := ws, g := 0, scale := 0, an := 0 })
    (t := { a := b, w := x, ws := xs, g := 0, scale := 0, an := 0 })
    ⟨h, ⟨fun i hi => by omega, fun _ _ => rfl, fun _ _ => rfl⟩, ⟨fun i hi => by omega, fun _ _ => rfl, fun _ _ => rfl⟩, rfl, rfl, rfl⟩
    (fun i s t _ hi ⟨ha, hw, hws, hg, hsc, han⟩ => by
      have hws1 : Flow1 (· < n) (· ≤ i) ws xs (FMem.set s.ws i (s.scale * s.g)) (FMem.set t.ws i (t.scale * t.g)) :=
        hws.define hi (by rw [hg, hsc]) fun r hr => by omega
      obtain ⟨hl, el⟩ := houseLeft_flow hi hm ha
      have hw1 : Flow1 (· < n) (· < i + 1) w x (FMem.set s.w i ((houseLeft m n i s.a).2.2 * (houseLeft m n i s.a).2.1))
          (FMem.set t.w i ((houseLeft m n i t.a).2.2 * (houseLeft m n i t.a).2.1)) :=
        hw.define hi (by rw [el]) fun r hr => by omega
      obtain ⟨hr, hws2, er⟩ := houseRight_flow hi hm hl hws1
      unfold houseStep
      dsimp only
      refine ⟨hr, hw1, hws2.mono fun r hr => by omega, by rw [er], by rw [er], ?_⟩
      rw [han, hw1.eq i (by omega), hws2.eq i le_rfl]) (Nat.zero_le n)
  exact ⟨key.1, key.2.1, key.2.2.1, key.2.2.2.1, key.2.2.2.2.2⟩

/-! ### Accumulation -/

theorem accRight_flow {m n : ℕ} (hm : n ≤ m) (ha : Flow (Box m n) (Box m n) a0 b0 a b) (hw : Flow1 (· < n) (· < n) w0 x0 w x) (v v' : Arr2) (g : ℝ) :
    Flow (Box n n) (Box n n) v v' (forDown n (accRightStep n a w) (v, g, n)).1 (forDown n (accRightStep n b x) (v', g, n)).1 := by
  have key := forDown_rel (n := n) (fun l (s t : Arr2 × ℝ × ℕ) => Flow (Box n n) (fun i j => l ≤ i ∧ l ≤ j ∧ i < n ∧ j < n) v v' s.1 t.1 ∧
    s.2 = t.2 ∧ s.2.2 = l) (f := accRightStep n a w) (g := accRightStep n b x) (s := (v, g, n)) (t := (v', g, n))
    ⟨⟨fun i j hij => by omega, fun _ _ _ => rfl, fun _ _ _ => rfl⟩, rfl, rfl⟩
    (fun i s t hi ⟨hv, e, el⟩ => by
      obtain ⟨v1, g, l⟩ := s
      obtain ⟨v2, g', l'⟩ := t
      dsimp only at hv e el
      obtain ⟨rfl, rfl⟩ := Prod.mk.inj e
      subst el
      unfold accRightStep
      dsimp only
      refine ⟨?_, by rw [hw.eq i hi], rfl⟩
      have him : i < m := by omega
      have h3 : Flow (Box n n) (fun r c => i ≤ r ∧ i ≤ c ∧ r < n ∧ c < n ∧ ¬(r = i ∧ c = i)) v v'
          (if i ≠ n - 1 then
            forRange (i + 1) n (fun v j => set2 (set2 v i j 0) j i 0)
              (if g ≠ 0 then
                forRange (i + 1) n (fun v j => forRange (i + 1) n (fun v'' k => set2 v'' k j (v'' k j + forRange (i + 1) n (fun s k => s + a i k * v k j) 0 * v'' k i)) v)
                  (forRange (i + 1) n (fun v j => set2 v j i ((a i j / a i (i + 1)) / g)) v1)
              else v1)
          else v1)
          (if i ≠ n - 1 then
            forRange (i + 1) n (fun v j => set2 (set2 v i j 0) j i 0)
              (if g ≠ 0 then
                forRange (i + 1) n (fun v j => forRange (i + 1) n (fun v'' k => set2 v'' k j (v'' k j + forRange (i + 1) n (fun s k => s + b i k * v k j) 0 * v'' k i)) v)
                  (forRange (i + 1) n (fun v j => set2 v j i ((b i j / b i (i + 1)) / g)) v2)
              else v2)
          else v2) := by
        by_cases hin : i ≠ n - 1
        swap
        · rw [if_neg hin, if_neg hin]; exact hv.mono fun r c h => by omega
        rw [if_pos hin, if_pos hin]
        have h2 : Flow (Box n n) (fun i' j => i + 1 ≤ i' ∧ i + 1 ≤ j ∧ i' < n ∧ j < n) v v'
            (if g ≠ 0 then
                forRange (i + 1) n (fun v j => forRange (i + 1) n (fun v'' k => set2 v'' k j (v'' k j + forRange (i + 1) n (fun s k => s + a i k * v k j) 0 * v'' k i)) v)
                  (forRange (i + 1) n (fun v j => set2 v j i ((a i j / a i (i + 1)) / g)) v1)
              else v1)
            (if g ≠ 0 then
                forRange (i + 1) n (fun v j => forRange (i + 1) n (fun v'' k => set2 v'' k j (v'' k j + forRange (i + 1) n (fun s k => s + b i k * v k j) 0 * v'' k i)) v)
                  (forRange (i + 1) n (fun v j => set2 v j i ((b i j / b i (i + 1)) / g)) v2)
              else v2) := by
          by_cases hg : g ≠ 0
          swap
          · rw [if_neg hg, if_neg hg]; exact hv
          rw [if_pos hg, if_pos hg]
          have h1 := forRange_rel (lo := i + 1) (hi := n)
            (fun k s t => Flow (Box n n) (fun r c => (i + 1 ≤ r ∧ i + 1 ≤ c ∧ r < n ∧ c < n) ∨ (c = i ∧ i + 1 ≤ r ∧ r < k)) v v' s t)
            (f := fun v j => set2 v j i ((a i j / a i (i + 1)) / g)) (g := fun v j => set2 v j i ((b i j / b i (i + 1)) / g))
            (hv.mono fun r c h => by omega)
            (fun k s t _ hk h => h.define ⟨hk, hi⟩ (by rw [ha.eq i k ⟨him, hk⟩, ha.eq i (i + 1) ⟨him, by omega⟩]) fun r c hD => by omega) (by omega)
          generalize forRange (i + 1) n (fun v j => set2 v j i ((a i j / a i (i + 1)) / g)) v1 = u1 at *
          generalize forRange (i + 1) n (fun v j => set2 v j i ((b i j / b i (i + 1)) / g)) v2 = u2 at *
          refine Flow.mono (forRange_rel' _ h1 fun j s t hj hjn h => ?_) fun r c h => Or.inl h
          rw [forRange_eq (F := fun k => a i k * s k j) (G := fun k => b i k * t k j) fun k h1 hk => by
            rw [ha.eq i k ⟨him, hk⟩, h.eq k j (by omega)]]
          exact forRange_rel' _ h fun k s t hk1 hk h => h.set ⟨hk, hjn⟩ (by rw [h.eq k j (by omega), h.eq k i (by omega)])
        refine Flow.mono (forRange_rel (lo := i + 1) (hi := n)
          (fun k s t => Flow (Box n n) (fun r c => (i + 1 ≤ r ∧ i + 1 ≤ c ∧ r < n ∧ c < n) ∨ (c = i ∧ i + 1 ≤ r ∧ r < k) ∨
            (r = i ∧ i + 1 ≤ c ∧ c < k)) v v' s t) (h2.mono fun r c h => by omega)
          (fun k s t hk1 hk h => ?_) (by omega)) fun r c h => by omega
        refine Flow.define (Flow.define (D' := fun r c => (i + 1 ≤ r ∧ i + 1 ≤ c ∧ r < n ∧ c < n) ∨ (c = i ∧ i + 1 ≤ r ∧ r < k) ∨
            (r = i ∧ i + 1 ≤ c ∧ c < k + 1)) h ⟨hi, hk⟩ rfl fun r c h => by omega) ⟨hk, hi⟩ rfl fun r c h => by omega
      exact h3.define ⟨hi, hi⟩ rfl fun r c h => by omega)
  exact key.1.mono fun r c h => ⟨by omega, by omega, h.1, h.2⟩

theorem accLeft_flow {m n : ℕ} (hm : n ≤ m) (ha : Flow (Box m n) (Box m n) a0 b0 a b) (hw : Flow1 (· < n) (· < n) w0 x0 w x) :
    Flow (Box m n) (Box m n) a0 b0 (forDown n (accLeftStep m n w) a) (forDown n (accLeftStep m n x) b) := by
  refine forDown_rel (fun _ s t => Flow (Box m n) (Box m n) a0 b0 s t) ha fun i a b hi h => ?_
  unfold accLeftStep
  dsimp only
  have him : i < m := by omega
  rw [hw.eq i hi]
  have h1 : Flow (Box m n) (Box m n) a0 b0 (if i ≠ n - 1 then forRange (i + 1) n (fun a j => set2 a i j 0) a else a)
      (if i ≠ n - 1 then forRange (i + 1) n (fun a j => set2 a i j 0) b else b) := by
    split_ifs
    · exact forRange_rel' _ h fun k a b _ hk h => h.set ⟨him, hk⟩ rfl
    · exact h
  generalize (if i ≠ n - 1 then forRange (i + 1) n (fun a j => set2 a i j 0) a else a) = a1 at *
  generalize (if i ≠ n - 1 then forRange (i + 1) n (fun a j => set2 a i j 0) b else b) = b1 at *
  have h2 : Flow (Box m n) (Box m n) a0 b0
      (if x i ≠ 0 then forRange i m (fun a j => set2 a j i (a j i / x i))
        (if i ≠ n - 1 then forRange (i + 1) n (fun a j => forRange i m (fun a' k => set2 a' k j (a' k j + (forRange (i + 1) m (fun s k => s + a k i * a k j) 0 / a i i) / x i * a' k i)) a) a1 else a1)
        else forRange i m (fun a j => set2 a j i 0) a1)
      (if x i ≠ 0 then forRange i m (fun a j => set2 a j i (a j i / x i))
        (if i ≠ n - 1 then forRange (i + 1) n (fun a j => forRange i m (fun a' k => set2 a' k j (a' k j + (forRange (i + 1) m (fun s k => s + a k i * a k j) 0 / a i i) / x i * a' k i)) a) b1 else b1)
        else forRange i m (fun a j => set2 a j i 0) b1) := by
    by_cases hx : x i ≠ 0
    · rw [if_pos hx, if_pos hx]
      refine forRange_rel' _ ?_ fun k a b _ hk h => h.set ⟨hk, hi⟩ (by rw [h.eq k i ⟨hk, hi⟩])
      split_ifs
      · refine forRange_rel' _ h1 fun j a b hj hjn h => ?_
        rw [forRange_eq (F := fun k => a k i * a k j) (G := fun k => b k i * b k j) fun k _ hk => by
          rw [h.eq k i ⟨hk, hi⟩, h.eq k j ⟨hk, hjn⟩], h.eq i i ⟨him, hi⟩]
        exact forRange_rel' _ h fun k a b _ hk h => h.set ⟨hk, hjn⟩ (by rw [h.eq k i ⟨hk, hi⟩, h.eq k j ⟨hk, hjn⟩])
      · exact h1
    · rw [if_neg hx, if_neg hx]
      exact forRange_rel' _ h1 fun k a b _ hk h => h.set ⟨hk, hi⟩ rfl
  exact h2.set ⟨him, hi⟩ (by rw [h2.eq i i ⟨him, hi⟩])

/-! ### Diagonalisation -/

/-- Two states in agreement. -/
structure FlowState (m n : ℕ) (s0 t0 s t : SvdState) : Prop where
  a : Flow (Box m n) (Box m n) s0.a t0.a s.a t.a
  v : Flow (Box n n) (Box n n) s0.v t0.v s.v t.v
  w : Flow1 (· < n) (· < n) s0.w t0.w s.w t.w
  ws : Flow1 (· < n) (· < n) s0.ws t0.ws s.ws t.ws
  status : s.status = t.status

/-- Both runs end in agreement, or both fail. -/
inductive FlowOption (m n : ℕ) (s0 t0 : SvdState) : Option SvdState → Option SvdState → Prop
  | none : FlowOption m n s0 t0 none none
  | some {s t : SvdState} (h : FlowState m n s0 t0 s t) : FlowOption m n s0 t0 (some s) (some t)

theorem rotCols_flow {m n p q : ℕ} (hp : p < n) (hq : q < n) (c s : ℝ) (h : Flow (Box m n) (Box m n) a0 b0 a b) :
    Flow (Box m n) (Box m n) a0 b0 (rotCols m p q c s a) (rotCols m p q c s b) :=
  forRange_rel' _ h fun j a b _ hj h => by
    dsimp only
    rw [h.eq j p ⟨hj, hp⟩, h.eq j q ⟨hj, hq⟩]
    exact (h.set ⟨hj, hp⟩ rfl).set ⟨hj, hq⟩ rfl

theorem svdSplit_flow {n : ℕ} (negl : ℝ → Bool) {ws xs ws0 xs0 : FMem} (hw : Flow1 (· < n) (· < n) w0 x0 w x)
    (hws : Flow1 (· < n) (· < n) ws0 xs0 ws xs) (l : ℕ) (hl : l < n) : svdSplit negl w ws l = svdSplit negl x xs l := by
  induction l with
  | zero => unfold svdSplit; rw [hws.eq 0 hl]
  | succ l ih => unfold svdSplit; rw [hws.eq _ hl, hw.eq l (by omega), ih (by omega)]

theorem svdSplit_le (negl : ℝ → Bool) (w ws : FMem) (k l : ℕ) (c : Bool) (h : svdSplit negl w ws k = some (l, c)) :
    l ≤ k ∧ (c = true → 0 < l) := by
  induction k with
  | zero =>
    unfold svdSplit at h
    split_ifs at h
    obtain ⟨rfl, rfl⟩ := Prod.mk.inj (Option.some.inj h)
    simp
  | succ k ih =>
    unfold svdSplit at h
    split_ifs at h
    · obtain ⟨rfl, rfl⟩ := Prod.mk.inj (Option.some.inj h); simp
    · obtain ⟨rfl, rfl⟩ := Prod.mk.inj (Option.some.inj h); simp
    · have := ih h; exact ⟨by omega, this.2⟩

theorem svdCancel_flow {m n l k : ℕ} (negl : ℝ → Bool) {ws xs ws0 xs0 : FMem} (hk : k < n) (hl : l ≤ k) (ha : Flow (Box m n) (Box m n) a0 b0 a b)
    (hw : Flow1 (· < n) (· < n) w0 x0 w x) (hws : Flow1 (· < n) (· < n) ws0 xs0 ws xs) :
    Flow (Box m n) (Box m n) a0 b0 (svdCancel negl m l k a w ws).a (svdCancel negl m l k b x xs).a ∧
      Flow1 (· < n) (· < n) w0 x0 (svdCancel negl m l k a w ws).w (svdCancel negl m l k b x xs).w := by
  have key := forRange_rel' (lo := l) (hi := k + 1) (fun s t : CancelState => Flow (Box m n) (Box m n) a0 b0 s.a t.a ∧ Flow1 (· < n) (· < n) w0 x0 s.w t.w ∧
    s.s = t.s ∧ s.stop = t.stop) (f := cancelStep negl m (l - 1) ws) (g := cancelStep negl m (l - 1) xs)
    (s := { a := a, w := w, s := 1, stop := false }) (t := { a := b, w := x, s := 1, stop := false }) ⟨ha, hw, rfl, rfl⟩
    (fun i s t h1 h2 ⟨ha, hw, es, et⟩ => by
      have hin : i < n := by omega
      unfold cancelStep
      dsimp only
      rw [es, et, hws.eq i hin, hw.eq i hin]
      split_ifs
      · exact ⟨ha, hw, es, et⟩
      · exact ⟨ha, hw, rfl, rfl⟩
      · exact ⟨rotCols_flow (by omega) hin _ _ ha, hw.set hin rfl, rfl, rfl⟩)
  exact ⟨key.1, key.2.1⟩

theorem svdSweep_flow {m n l k : ℕ} (hlk : l < k) (hk : k < n) {s0 t0 s t : SvdState} (h : FlowState m n s0 t0 s t) :
    FlowOption m n s0 t0 (svdSweep m n l k s) (svdSweep m n l k t) := by
  unfold svdSweep
  have e : svdShift s.w s.ws l k = svdShift t.w t.ws l k := by
    unfold svdShift
    rw [h.w.eq k hk, h.w.eq l (by omega), h.w.eq (k - 1) (by omega), h.ws.eq (k - 1) (by omega), h.ws.eq k hk]
  rw [e, h.w.eq l (by omega)]
  cases svdShift t.w t.ws l k with
  | none => exact .none
  | some f =>
    refine .some ?_
    dsimp only
    have key := forRange_rel' (lo := l) (hi := k) (fun p q : SweepState => Flow (Box m n) (Box m n) s0.a t0.a p.a q.a ∧ Flow (Box n n) (Box n n) s0.v t0.v p.v q.v ∧
      Flow1 (· < n) (· < n) s0.w t0.w p.w q.w ∧ Flow1 (· < n) (· < n) s0.ws t0.ws p.ws q.ws ∧ p.f = q.f ∧ p.x = q.x ∧ p.c = q.c ∧ p.s = q.s)
      (f := sweepStep m n) (g := sweepStep m n) (s := { a := s.a, v := s.v, w := s.w, ws := s.ws, f := f, x := t.w l, c := 1, s := 1 })
      (t := { a := t.a, v := t.v, w := t.w, ws := t.ws, f := f, x := t.w l, c := 1, s := 1 }) ⟨h.a, h.v, h.w, h.ws, rfl, rfl, rfl, rfl⟩
      (fun i p q h1 h2 ⟨ha, hv, hw, hws, e1, e2, e3, e4⟩ => by
        have hi : i < n := by omega
        have hi1 : i + 1 < n := by omega
        unfold sweepStep
        dsimp only
        rw [e1, e2, e3, e4, hw.eq (i + 1) hi1, hws.eq (i + 1) hi1]
        exact ⟨rotCols_flow hi hi1 _ _ ha, rotCols_flow hi hi1 _ _ hv, hw.set hi rfl, hws.set hi rfl, rfl, rfl, rfl, rfl⟩)
    obtain ⟨ha, hv, hw, hws, e1, e2, -, -⟩ := key
    exact ⟨ha, hv, hw.set hk e2, (hws.set (by omega) rfl).set hk e1, h.status⟩

theorem svdFlip_flow {m n k : ℕ} (hk : k < n) {s0 t0 s t : SvdState} (h : FlowState m n s0 t0 s t) :
    FlowState m n s0 t0 (svdFlip n k s) (svdFlip n k t) := by
  unfold svdFlip
  rw [h.w.eq k hk]
  split_ifs
  · exact ⟨h.a, forRange_rel' _ h.v fun j a b _ hj h => h.set ⟨hj, hk⟩ (by rw [h.eq j k ⟨hj, hk⟩]), h.w.set hk rfl, h.ws, h.status⟩
  · exact h

theorem svdIterate_flow {m n k : ℕ} (negl : ℝ → Bool) (hk : k < n) {s0 t0 : SvdState} (r : ℕ) (s t : SvdState) (h : FlowState m n s0 t0 s t) :
    FlowOption m n s0 t0 (svdIterate negl m n k r s) (svdIterate negl m n k r t) := by
  induction r generalizing s t with
  | zero => exact .some h
  | succ r ih =>
    unfold svdIterate
    rw [svdSplit_flow negl h.w h.ws k hk]
    cases hsp : svdSplit negl t.w t.ws k with
    | none => exact .none
    | some p =>
      obtain ⟨l, c⟩ := p
      obtain ⟨hl, -⟩ := svdSplit_le negl _ _ _ _ _ hsp
      dsimp only
      have h1 : FlowState m n s0 t0
          (if c = true then { s with a := (svdCancel negl m l k s.a s.w s.ws).a, w := (svdCancel negl m l k s.a s.w s.ws).w } else s)
          (if c = true then { t with a := (svdCancel negl m l k t.a t.w t.ws).a, w := (svdCancel negl m l k t.a t.w t.ws).w } else t) := by
        split_ifs
        · obtain ⟨ha, hw⟩ := svdCancel_flow negl hk hl h.a h.w h.ws
          exact ⟨ha, h.v, hw, h.ws, h.status⟩
        · exact h
      generalize (if c = true then { s with a := (svdCancel negl m l k s.a s.w s.ws).a, w := (svdCancel negl m l k s.a s.w s.ws).w } else s) = s1 at *
      generalize (if c = true then { t with a := (svdCancel negl m l k t.a t.w t.ws).a, w := (svdCancel negl m l k t.a t.w t.ws).w } else t) = t1 at *
      by_cases hlk : l = k
      · rw [if_pos hlk, if_pos hlk]
        exact .some (svdFlip_flow hk h1)
      · rw [if_neg hlk, if_neg hlk]
        have h2 : FlowState m n s0 t0 (if r = 0 then { s1 with status := (k : ℤ) } else s1) (if r = 0 then { t1 with status := (k : ℤ) } else t1) := by
          split_ifs
          · exact ⟨h1.a, h1.v, h1.w, h1.ws, rfl⟩
          · exact h1
        have h3 := svdSweep_flow (by omega : l < k) hk h2
        generalize svdSweep m n l k (if r = 0 then { s1 with status := (k : ℤ) } else s1) = o1 at *
        generalize svdSweep m n l k (if r = 0 then { t1 with status := (k : ℤ) } else t1) = o2 at *
        cases h3 with
        | none => exact .none
        | some h => exact ih _ _ h

theorem svd_flow (negl : ℝ → ℝ → Bool) {m n : ℕ} (hm : n ≤ m) (h : ∀ i j, i < m → j < n → a i j = b i j) (v v' : Arr2) (w x ws xs : FMem) :
    FlowOption m n ⟨a, v, w, ws, 0⟩ ⟨b, v', x, xs, 0⟩ (svd negl m n a v w ws) (svd negl m n b v' x xs) := by
  unfold svd
  rw [if_neg (by omega), if_neg (by omega)]
  obtain ⟨ha, hw, hws, eg, ean⟩ := house_flow hm (a := a) (b := b) ⟨fun i j hij => h i j hij.1 hij.2, fun _ _ _ => rfl, fun _ _ _ => rfl⟩ w x ws xs
  dsimp only
  rw [ean, eg]
  have hv := accRight_flow hm ha hws v v' (house m n b x xs).g
  have hA := accLeft_flow hm ha hw
  unfold svdDiagonalise
  refine forDown_rel (fun _ s t => FlowOption m n ⟨a, v, w, ws, 0⟩ ⟨b, v', x, xs, 0⟩ s t) (.some ⟨hA, hv, hw, hws, rfl⟩) fun k s t hk hst => ?_
  cases hst with
  | none => exact .none
  | some h => exact svdIterate_flow _ hk 30 _ _ h

end Sla
