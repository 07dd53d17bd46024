import Verif.Pivot.Model

/-!
# The stack pivot of the library runner: property C60
-/

namespace Verif.Pivot

/-! ### Specification -/

/-- A called function that keeps to the calling convention as far as its caller depends on it: it returns to the
address on the stack, removes that address, keeps `rbx`, pushes nothing on its caller's account, and leaves the bytes in
`keep` alone. -/
def Returns (f : St → St) (keep : Word → Prop) (s : St) : Prop :=
  (f s).rsp = s.rsp + 8 ∧ (f s).rip = load s.mem s.rsp ∧ (f s).rbx = s.rbx ∧ ∀ x, keep x → (f s).mem x = s.mem x

/-- The eight bytes at `a`. -/
def Within8 (a x : Word) : Prop := (x - a).toNat < 8

/-- The bytes of a block of memory. -/
def InBlock (p : Word) (n : Nat) (x : Word) : Prop := p.toNat ≤ x.toNat ∧ x.toNat < p.toNat + n

/-! ### Memory -/

theorem load_congr {m m' : Word → Byte} {a : Word} (h : ∀ x, Within8 a x → m x = m' x) : load m a = load m' a := by
  unfold load
  rw [h a (by unfold Within8; bv_omega), h (a + 1) (by unfold Within8; bv_omega), h (a + 2) (by unfold Within8; bv_omega),
    h (a + 3) (by unfold Within8; bv_omega), h (a + 4) (by unfold Within8; bv_omega),
    h (a + 5) (by unfold Within8; bv_omega), h (a + 6) (by unfold Within8; bv_omega),
    h (a + 7) (by unfold Within8; bv_omega)]

theorem load_store (m : Word → Byte) (a v : Word) : load (store m a v) a = v := by
  have e0 : (a - a).toNat = 0 := by bv_omega
  have e1 : (a + 1 - a).toNat = 1 := by bv_omega
  have e2 : (a + 2 - a).toNat = 2 := by bv_omega
  have e3 : (a + 3 - a).toNat = 3 := by bv_omega
  have e4 : (a + 4 - a).toNat = 4 := by bv_omega
  have e5 : (a + 5 - a).toNat = 5 := by bv_omega
  have e6 : (a + 6 - a).toNat = 6 := by bv_omega
  have e7 : (a + 7 - a).toNat = 7 := by bv_omega
  unfold load store
  simp only [e0, e1, e2, e3, e4, e5, e6, e7]
  simp
  apply BitVec.eq_of_toNat_eq
  rw [BitVec.toNat_ofNat]
  have := v.isLt
  omega

theorem store_other {m : Word → Byte} {a v x : Word} (h : ¬ Within8 a x) : store m a v x = m x := by
  unfold store
  exact if_neg h

theorem apart8 {a x : Word} (h : Within8 (a - 8) x) : ¬ Within8 (a - 16) x ∧ ¬ Within8 (a - 24) x := by
  unfold Within8 at *
  constructor <;> bv_omega

theorem sub16 (a : Word) : a - 8 - 8 = a - 16 := by bv_omega
theorem sub24 (a : Word) : a - 16 - 8 = a - 24 := by bv_omega
theorem add16 (a : Word) : a - 24 + 8 + 8 = a - 8 := by bv_omega

/-! ### C60 -/

theorem atEntry_eq (back : Word) (s : St) : atEntry back s =
    { rsp := s.rdi - 8 - 8 - 8, rbx := s.rsp, rdi := 0, rax := s.rax, rip := s.rip
      mem := store (store (store s.mem (s.rdi - 8) s.rsp) (s.rdi - 8 - 8) s.rsp) (s.rdi - 8 - 8 - 8) back
      pushed := [s.rdi - 8 - 8 - 8, s.rdi - 8 - 8, s.rdi - 8] ++ s.pushed } := rfl

theorem pivot_eq (runloop : St → St) (back : Word) (s : St) :
    pivot runloop back s = epilogue.foldl (exec runloop) (runloop (atEntry back s)) := rfl

/-- **C60, how the run loop begins.**  It finds depth 0 in its argument register, the address of the instruction after the call on top of
its stack, and the stack aligned as the calling convention wants if the new stack's address is a multiple of 16. -/
theorem entry_state (back : Word) (s : St) :
    (atEntry back s).rdi = 0 ∧ load (atEntry back s).mem (atEntry back s).rsp = back ∧
    (s.rdi.toNat % 16 = 0 → ((atEntry back s).rsp + 8).toNat % 16 = 0) := by
  rw [atEntry_eq]
  refine ⟨rfl, load_store _ _ _, fun h => ?_⟩
  show (s.rdi - 8 - 8 - 8 + 8).toNat % 16 = 0
  bv_omega

/-- **C60, the way back.**  If the run loop returns as the calling convention says and leaves alone the word that the pivot
saved and the caller's return address, and these do not overlap, the pivot returns to its caller with the caller's stack pointer. -/
theorem pivot_returns {runloop : St → St} {back : Word} {s : St}
    (hr : Returns runloop (fun x => Within8 (s.rdi - 8) x ∨ Within8 s.rsp x) (atEntry back s))
    (hd : ∀ x, Within8 s.rsp x → ¬ Within8 (s.rdi - 8) x ∧ ¬ Within8 (s.rdi - 16) x ∧ ¬ Within8 (s.rdi - 24) x) :
    (pivot runloop back s).rip = load s.mem s.rsp ∧ (pivot runloop back s).rsp = s.rsp + 8 := by
  obtain ⟨h1, -, -, h4⟩ := hr
  have e16 : s.rdi - 8 - 8 = s.rdi - 16 := sub16 _
  have e24 : s.rdi - 16 - 8 = s.rdi - 24 := sub24 _
  have hm : (atEntry back s).mem =
      store (store (store s.mem (s.rdi - 8) s.rsp) (s.rdi - 16) s.rsp) (s.rdi - 24) back := by
    rw [← e24, ← e16]; rfl
  have hsp : s.rdi - 24 + 8 + 8 = s.rdi - 8 := add16 _
  have hsaved : load (runloop (atEntry back s)).mem (s.rdi - 8) = s.rsp := by
    refine (load_congr fun x hx => ?_).trans (load_store s.mem (s.rdi - 8) s.rsp)
    rw [h4 x (Or.inl hx), hm, store_other (apart8 hx).2, store_other (apart8 hx).1]
  have hret : load (runloop (atEntry back s)).mem s.rsp = load s.mem s.rsp := by
    refine load_congr fun x hx => ?_
    obtain ⟨d1, d2, d3⟩ := hd x hx
    rw [h4 x (Or.inr hx), hm, store_other d3, store_other d2, store_other d1]
  have hrsp : (runloop (atEntry back s)).rsp + 8 = s.rdi - 8 := by
    rw [h1, ← hsp, ← e24, ← e16]; rfl
  rw [pivot_eq]
  simp only [epilogue, List.foldl, exec, hrsp, hsaved, hret]
  exact ⟨trivial, trivial⟩

/-- **C60 fails: a register is lost.**  The pivot does not give `rbx` back to its caller, as the calling convention demands: it
leaves the stack pointer there, whatever the run loop does within the convention. -/
theorem pivot_loses_rbx {runloop : St → St} {back : Word} {s : St} {keep : Word → Prop}
    (hr : Returns runloop keep (atEntry back s)) : (pivot runloop back s).rbx = s.rsp := by
  rw [pivot_eq]
  exact hr.2.2.1

/-- **C60 fails: the stack is not in the block.**  Wherever the block is, nothing that the pivot pushes and nothing that the run loop
can have on its stack lies in it: the stack begins at the block's lowest address and grows away from it. -/
theorem stack_outside_block {block back : Word} {s : St} (hlow : 24 ≤ block.toNat) :
    (∀ a ∈ (atEntry back (callPivot block s)).pushed.take 3, ∀ x, Within8 a x → ¬ InBlock block stackSize x) ∧
    ∀ x : Word, x.toNat < (atEntry back (callPivot block s)).rsp.toNat → ¬ InBlock block stackSize x := by
  rw [atEntry_eq]
  constructor
  · intro a ha x hx
    simp only [callPivot, List.cons_append, List.nil_append, List.take, List.mem_cons, List.not_mem_nil, or_false] at ha
    unfold Within8 at hx
    unfold InBlock
    rcases ha with rfl | rfl | rfl <;> bv_omega
  · intro x hx
    simp only [callPivot] at hx
    unfold InBlock
    bv_omega

/-- **C60**, the part that holds: given the *end* of a block, the assembly pushes into the block.  Missing: `main` passes the
beginning (`stack_outside_block`), and `rbx` is lost (`pivot_loses_rbx`). -/
theorem stack_inside_partial {block back : Word} {n : Nat} {s : St} (hn : 24 ≤ n) (hfit : block.toNat + n < 2 ^ 64)
    (hrdi : s.rdi.toNat = block.toNat + n) :
    ∀ a ∈ (atEntry back s).pushed.take 3, ∀ x, Within8 a x → InBlock block n x := by
  rw [atEntry_eq]
  intro a ha x hx
  simp only [List.cons_append, List.nil_append, List.take, List.mem_cons, List.not_mem_nil, or_false] at ha
  unfold Within8 at hx
  unfold InBlock
  rcases ha with rfl | rfl | rfl <;> bv_omega

/-- A processor before the pivot: the old stack at `0x7ffe0000`, a block at `0x10000000`; the caller is at `0x401000`. -/
def exS : St := ⟨0x7ffe0000, 0x55, 0x10000000, 0, 0, store (fun _ => 0) 0x7ffe0000 0x401000, []⟩

/-- A run loop that returns at once. -/
def exLoop (s : St) : St := { s with rip := load s.mem s.rsp, rsp := s.rsp + 8 }

example : Returns exLoop (fun x => Within8 (exS.rdi - 8) x ∨ Within8 exS.rsp x) (atEntry 0x402000 exS) ∧
    (∀ x, Within8 exS.rsp x →
      ¬ Within8 (exS.rdi - 8) x ∧ ¬ Within8 (exS.rdi - 16) x ∧ ¬ Within8 (exS.rdi - 24) x) ∧
    24 ≤ exS.rdi.toNat ∧ exS.rdi.toNat % 16 = 0 :=
  ⟨⟨rfl, rfl, rfl, fun _ _ => rfl⟩, fun x hx => by
    simp only [Within8, exS] at hx ⊢
    bv_omega, by decide, by decide⟩

/-- It comes back to its caller, with another `rbx`. -/
example : (pivot exLoop 0x402000 exS).rip = 0x401000 ∧ (pivot exLoop 0x402000 exS).rbx ≠ exS.rbx := by
  decide +kernel

/-- With the end of a block of 8 MiB. -/
example : (0x10800000 : Word).toNat = (0x10000000 : Word).toNat + stackSize ∧ 24 ≤ stackSize := by decide

/-! ### The portable version -/

/-- **C60, the portable version.**  Unlike the assembly it is given the lowest address as it wants it: the run loop runs in the block that
`main` allocated, and `main` goes on only after it, exactly if all four calls of the thread library succeed. -/
theorem portable_runs_iff (p : Pthread) (block lo : Word) (n size : Nat) :
    portable p block size = .ran lo n ↔
      (p.attrInit = true ∧ p.setStack = true ∧ p.create = true ∧ p.join = true) ∧ lo = block ∧ n = size := by
  obtain ⟨a, b, c, d⟩ := p
  cases a <;> cases b <;> cases c <;> cases d <;> simp [portable, attrInit, attrSetStack, eq_comm]

/-- **C60 fails in the portable version.**  No result is looked at.  If the attributes or the thread cannot be made, objects without a
value are used; if the stack is refused, the run loop runs on a stack outside the block, and nothing says so. -/
theorem portable_unchecked (p : Pthread) (block : Word) (size : Nat) :
    (portable p block size = .undefined ↔ p.attrInit = false ∨ p.create = false) ∧
    (portable p block size = .ranElsewhere ↔
      p.attrInit = true ∧ p.setStack = false ∧ p.create = true ∧ p.join = true) := by
  obtain ⟨a, b, c, d⟩ := p
  cases a <;> cases b <;> cases c <;> cases d <;> simp [portable, attrInit, attrSetStack]

/-- A library with all threads in use. -/
example : portable ⟨true, true, false, false⟩ 0x10000000 stackSize = .undefined := by decide

/-- A library where all goes well. -/
example : portable ⟨true, true, true, true⟩ 0x10000000 stackSize = .ran 0x10000000 stackSize := by decide

end Verif.Pivot
