import Verif.RefArgs.Spec

/-!
# Arguments that are references (property C104)
-/

namespace Verif.RefArgs

/-- The frame of a call holds, at every moment, what the direct call has in its parameters. -/
private theorem apply_direct {args : Nat → Arg} (hd : Distinct args) : ∀ (p : Prog) (fr loc vars : Nat → Int),
    (∀ i v, args i = .val v → fr i = loc i) → (∀ i x, args i = .ref x → fr i = vars x) →
    (direct args p loc vars).1 = (apply p fr).1 ∧
    (∀ i x, args i = .ref x → (direct args p loc vars).2 x = (apply p fr).2 i) ∧
    (∀ x, (∀ i, args i ≠ .ref x) → (direct args p loc vars).2 x = vars x)
  | .ret v, fr, loc, vars, h1, h2 => ⟨rfl, fun i x h => (h2 i x h).symm, fun _ _ => rfl⟩
  | .get i k, fr, loc, vars, h1, h2 => by
    simp only [direct, apply]
    cases ha : args i with
    | val v => rw [← h1 i v ha]; exact apply_direct hd (k (fr i)) fr loc vars h1 h2
    | ref x => simp only [← h2 i x ha]; exact apply_direct hd (k (fr i)) fr loc vars h1 h2
  | .set i v k, fr, loc, vars, h1, h2 => by
    simp only [direct, apply]
    cases ha : args i with
    | val u =>
      refine apply_direct hd k _ _ _ ?_ ?_
      · intro j w hj
        by_cases e : j = i
        · simp [e]
        · simp [e, h1 j w hj]
      · intro j x hj
        have e : j ≠ i := by rintro rfl; rw [ha] at hj; cases hj
        simp [e, h2 j x hj]
    | ref x =>
      obtain ⟨a, b, c⟩ := apply_direct hd k (fun j => if j = i then v else fr j) loc (fun y => if y = x then v else vars y)
        (by
          intro j w hj
          have e : j ≠ i := by rintro rfl; rw [ha] at hj; cases hj
          simp [e, h1 j w hj])
        (by
          intro j y hj
          by_cases e : j = i
          · subst e; rw [ha] at hj; cases hj; simp
          · have : y ≠ x := by rintro rfl; exact e (hd j i y hj ha)
            simp [e, this, h2 j y hj])
      refine ⟨a, b, ?_⟩
      intro y hy
      rw [c y hy]
      have : y ≠ x := by rintro rfl; exact hy i ha
      simp [this]

private theorem apply_reads {args : Nat → Arg} {vars : Nat → Int} : ∀ (p : Prog) (fr loc : Nat → Int), OnlyReads p args →
    (∀ i v, args i = .val v → fr i = loc i) → (∀ i x, args i = .ref x → fr i = vars x) →
    direct args p loc vars = ((apply p fr).1, vars)
  | .ret v, fr, loc, _, h1, h2 => rfl
  | .get i k, fr, loc, ho, h1, h2 => by
    simp only [direct, apply]
    have ho' : OnlyReads (k (fr i)) args := fun j hj => ho j ⟨_, hj⟩
    cases ha : args i with
    | val v => rw [← h1 i v ha]; exact apply_reads (k (fr i)) fr loc ho' h1 h2
    | ref x => simp only [← h2 i x ha]; exact apply_reads (k (fr i)) fr loc ho' h1 h2
  | .set i v k, fr, loc, ho, h1, h2 => by
    obtain ⟨u, hu⟩ := ho i (Or.inl rfl)
    simp only [direct, apply, hu]
    refine apply_reads k _ _ (fun j hj => ho j (Or.inr hj)) ?_ ?_
    · intro j w hj
      by_cases e : j = i
      · simp [e]
      · simp [e, h1 j w hj]
    · intro j x hj
      have e : j ≠ i := by rintro rfl; rw [hu] at hj; cases hj
      simp [e, h2 j x hj]

/-- **C104** (partial: for functions that only read what they are given by reference).  Calling such a function through
its proxy is as good as calling it, even if a variable is passed twice.  The full claim, for every function, is false:
`reference_lost`, `alias_lost`. -/
theorem references_read_partial {p : Prog} {args : Nat → Arg} (ho : OnlyReads p args) (vars : Nat → Int) :
    callOp p args vars = native p args vars := by
  unfold native callOp
  rw [apply_reads (vars := vars) p (fun i => (args i).value vars) _ ho]
  · intro i v h; simp [h, Arg.value]
  · intro i x h; simp [h, Arg.value]

/-- **C104**, exact condition if no variable is passed twice.  The result is always right, and the call is as good as a
direct one if and only if the function leaves every variable it was given as it found it. -/
theorem references_iff {p : Prog} {args : Nat → Arg} (hd : Distinct args) (vars : Nat → Int) :
    (callOp p args vars).1 = (native p args vars).1 ∧
      (callOp p args vars = native p args vars ↔ ∀ i x, args i = .ref x → (native p args vars).2 x = vars x) := by
  obtain ⟨a, -, c⟩ := apply_direct hd p (fun i => (args i).value vars)
    (fun i => match args i with | .val v => v | .ref _ => 0) vars
    (by intro i v h; simp [h, Arg.value]) (by intro i x h; simp [h, Arg.value])
  refine ⟨a.symm, ?_, ?_⟩
  · intro h i x _
    rw [← h]
    rfl
  · intro h
    refine Prod.ext a.symm (funext fun x => ?_)
    by_cases hx : ∃ i, args i = .ref x
    · obtain ⟨i, hi⟩ := hx; exact (h i x hi).symm
    · exact (c x (fun i hi => hx ⟨i, hi⟩)).symm

/-- `void f(int &r) { r = v; }` -/
def assign (v : Int) : Prog := .set 0 v (.ret 0)

/-- **C104**, the negation.  For every variable and every value but the one it has, the assignment is lost. -/
theorem reference_lost (args : Nat → Arg) (x : Nat) (h : args 0 = .ref x) (v : Int) (vars : Nat → Int) (hv : vars x ≠ v) :
    (native (assign v) args vars).2 x = v ∧ (callOp (assign v) args vars).2 x ≠ v := by
  refine ⟨?_, hv⟩
  simp [native, assign, direct, h]

/-- `int g(int &a, const int &b) { a = v; return b; }` -/
def writeRead (v : Int) : Prog := .set 0 v (.get 1 fun b => .ret b)

/-- **C104**, the negation.  With one variable passed twice even the result is wrong, the old value instead of
the new one. -/
theorem alias_lost (args : Nat → Arg) (x : Nat) (h0 : args 0 = .ref x) (h1 : args 1 = .ref x) (v : Int)
    (vars : Nat → Int) :
    (native (writeRead v) args vars).1 = v ∧ (callOp (writeRead v) args vars).1 = vars x := by
  constructor
  · simp [native, writeRead, direct, h0, h1]
  · simp [callOp, writeRead, apply, h1, Arg.value]

/-! ### Examples -/

/-- `int add(const int &a, int b) { b = a + b; return b; }` with a variable that holds 5 and with 3. -/
def exAdd : Prog := .get 0 fun a => .get 1 fun b => .set 1 (a + b) (.get 1 fun r => .ret r)

/-- One reference, then values. -/
def exArgs : Nat → Arg | 0 => .ref 7 | _ => .val 3

example : OnlyReads exAdd exArgs ∧ Distinct exArgs ∧ (callOp exAdd exArgs fun _ => 5).1 = 8 := by
  refine ⟨?_, ?_, rfl⟩
  · intro i h
    simp [exAdd, Prog.Stores] at h
    subst h
    exact ⟨3, rfl⟩
  · intro i j x hi hj
    cases i <;> cases j <;> simp [exArgs] at hi hj ⊢

/-- The assignment that is lost, and the swapped result. -/
example : (native (assign 9) exArgs fun _ => 5).2 7 = 9 ∧ (callOp (assign 9) exArgs fun _ => 5).2 7 = 5 ∧
    (native (writeRead 9) (fun _ => .ref 7) fun _ => 5).1 = 9 ∧ (callOp (writeRead 9) (fun _ => .ref 7) fun _ => 5).1 = 5 := by
  decide

end Verif.RefArgs
