import Verif.UserEnd.Model
import Verif.NetEnd.Props

/-!
# A callback of the sandboxed library into the host, end to end: theorems
-/

namespace Verif.UserEnd

open Verif.Bounds (Region contains contains_iff)
open Verif.FileTree (Export)
open Verif.Callback (Handler Packet Event Result tableOf dispatch_tableOf copyAddrs copyAddrs_length)
open Verif.Callback.Spec (handlerFor)
open Verif.Net (Config)
open Verif.ChildArgs (Bounds Child Wrapped wrapUser unwrap bytesAt Apart InHeap Object Private blit blit_bytes
  blit_else private_not_inside dupBytes inside inside_in_heap)
open Verif.Syscall (CInt Reply)
open Verif.EndToEnd (Outside copy_bytes answerOf bytesAt_length inHeap_mono outside_mono)

/-! ### Specification -/

/-- What is fixed: the two processes as in `Verif.NetEnd`; the host has registered the functions `users`, in this order,
and not more than the counter can count. -/
structure Setup (w : World) (hist : List Export) (users : List Nat) (conf : List Config) : Prop where
  base : NetEnd.Setup w.toNet hist users conf
  few : users.length + 7 < 2 ^ 31
  sizes : ∀ u, 0 < (w.fns u).size

/-- The number that `register_callback` gave for the function `u` (see C16: the numbers are 7, 8, 9, ...). -/
def Registered (users : List Nat) (u : Nat) (idx : CInt) : Prop :=
  ∃ i, users[i]? = some u ∧ idx.toNat = 7 + i

/-- No function and no built-in handler has this number. -/
def Unused (users : List Nat) (idx : CInt) : Prop := idx.toInt < 0 ∨ 7 + users.length ≤ idx.toNat

/-- The call is made properly, and the child has the memory for it: `size` bytes at `data`, wholly in the shared heap or
wholly outside; and `malloc` gives a block of the heap apart from them. -/
structure Ready (w : World) (c : Child) (data : Word) (size : Nat) : Prop where
  pos : 0 < size ∧ size < 2 ^ 64
  object : Object w.hdr w.region w.bounds data size
  fresh : ChildArgs.Fresh w.hdr w.region c data size

/-- The block that the child uses for itself. -/
def scratch (c : Child) (size : Nat) : List (Word × Nat) := (c.mallocs.take 1).map (·, size)

/-- What arrives in the host for the descriptor `fd` of the child: none if the number is negative. -/
def Arrives (w : World) (fd : CInt) (h : Int) : Prop :=
  (fd.toInt < 0 ∧ h = -1) ∨ (0 ≤ fd.toInt ∧ w.passed fd = some h)

/-- What the caller is told: the descriptor that came with the answer, and otherwise the lower 32 bits of the
function's number. -/
def told (w : World) (r : Result) : CInt :=
  if 0 ≤ r.handle then w.recv r.handle else BitVec.ofInt 32 r.integer

/-! ### Lemmas -/

theorem arrives_pass {w : World} {fd : CInt} {h : Int} (ha : Arrives w fd h) : NetEnd.pass w.toNet fd = .ok h := by
  rcases ha with ⟨h1, rfl⟩ | ⟨h1, h2⟩
  · rw [NetEnd.pass, if_pos h1]
  · rw [NetEnd.pass, if_neg (by omega), h2]

theorem resultOf_reply (w : World) (r : Result) :
    resultOf (EndToEnd.reply w.toNet.toWorld r.integer r.handle) = told w r := by
  unfold resultOf EndToEnd.reply told
  by_cases h : r.handle < 0
  · rw [if_pos h, if_neg (by omega)]
    simp only
    apply BitVec.eq_of_toNat_eq
    simp only [BitVec.toNat_setWidth, BitVec.toNat_ofInt]
    omega
  · rw [if_neg h, if_pos (by omega)]

theorem signExtend_nonneg {idx : CInt} (h : 0 ≤ idx.toInt) : (idx.signExtend 64).toNat = idx.toNat := by
  rw [BitVec.toInt_eq_msb_cond] at h
  have hm : idx.msb = false := by
    rcases hb : idx.msb with _ | _
    · rfl
    · rw [hb] at h
      have := idx.isLt
      simp at h
      omega
  rw [BitVec.signExtend_eq_setWidth_of_msb_false hm]
  simp only [BitVec.toNat_setWidth]
  have := idx.isLt
  omega

theorem signExtend_neg {idx : CInt} (h : idx.toInt < 0) : 2 ^ 32 ≤ (idx.signExtend 64).toNat := by
  have e : (idx.signExtend 64).toInt = idx.toInt := BitVec.toInt_signExtend_of_le (by omega)
  have h1 : (idx.signExtend 64).toInt < 0 := by rw [e]; exact h
  rw [BitVec.toInt_eq_toNat_cond] at h1
  split at h1 <;> omega

/-- The copy of the data. -/
theorem wrap_data {w : World} {c : Child} {data : Word} {size : Nat} (hr : Ready w c data size) :
    ∃ a c1, wrapUser w.bounds c data size = .ok (a, c1) ∧ InHeap w.hdr w.region a.arg size ∧
      bytesAt c1.mem a.arg size = bytesAt c.mem data size ∧ c1.live = a.copy.toList ++ c.live ∧
      (∀ x, Outside (scratch c size) x → c1.mem x = c.mem x) ∧
      (inside w.bounds data (BitVec.ofNat 64 size) = true → a.arg = data ∧ c1.mem = c.mem) := by
  obtain ⟨⟨hp, hn⟩, ho, p, rest, h1, h2, h3, h4⟩ := hr
  by_cases hi : inside w.bounds data (BitVec.ofNat 64 size)
  · exact ⟨⟨data, none⟩, c, by rw [wrapUser, if_pos hi], inside_in_heap ho hp (Nat.le_refl _) hi, rfl, rfl,
      fun _ _ => rfl, fun _ => ⟨rfl, rfl⟩⟩
  · refine ⟨⟨data, some p⟩, ⟨blit c.mem p data size, p :: c.live, rest⟩, ?_, h2, ?_, rfl, ?_, fun h => absurd h hi⟩
    · rw [wrapUser, if_neg hi, dupBytes, if_neg ho.1, h1]
    · exact blit_bytes _ _ _ _ hn
    · intro x hx
      apply blit_else
      intro i hi
      exact hx (p, size) (by simp [scratch, h1]) i hi

theorem unwrap_live {c : Child} {a : Wrapped} {n : Nat} {l : List Word} (h : c.live = a.copy.toList ++ l) :
    (unwrap false c a n).live = l ∧ (unwrap false c a n).mem = c.mem := by
  cases hc : a.copy with
  | none => simp [unwrap, hc, h]
  | some q => simp [unwrap, hc, h]

/-- The handler of a number. -/
theorem dispatch_registered {w : World} {hist : List Export} {users : List Nat} {conf : List Config}
    (hw : Setup w hist users conf) {u : Nat} {idx : CInt} (hu : Registered users u idx) :
    Callback.dispatch w.table (idx.signExtend 64) = some (.user u) := by
  obtain ⟨i, h1, h2⟩ := hu
  have hi : i < users.length := by
    rcases Nat.lt_or_ge i users.length with h | h
    · exact h
    · rw [List.getElem?_eq_none h] at h1; cases h1
  have hf := hw.few
  have e : (idx.signExtend 64).toNat = 7 + i := by
    rw [signExtend_nonneg, h2]
    rw [BitVec.toInt_eq_toNat_cond]
    split <;> omega
  rw [hw.base.base.table, dispatch_tableOf, e, handlerFor, if_neg (by omega)]
  simp [h1]

theorem dispatch_unused {w : World} {hist : List Export} {users : List Nat} {conf : List Config}
    (hw : Setup w hist users conf) {idx : CInt} (hu : Unused users idx) :
    Callback.dispatch w.table (idx.signExtend 64) = none := by
  have hf := hw.few
  have e : 7 + users.length ≤ (idx.signExtend 64).toNat := by
    by_cases h : idx.toInt < 0
    · have := signExtend_neg h
      omega
    · rw [signExtend_nonneg (by omega)]
      rcases hu with h1 | h1
      · exact absurd h1 h
      · exact h1
  rw [hw.base.base.table, dispatch_tableOf, handlerFor, if_neg (by omega), List.getElem?_eq_none (by omega)]
  rfl

/-- The host's turn on a well-formed message. -/
theorem turn_spec {w : World} {hist : List Export} {users : List Nat} {conf : List Config}
    (hw : Setup w hist users conf) (m : Mem) {u : Nat} {idx : CInt} (hu : Registered users u idx) {data : Word}
    {size : Nat} (hsz : size = (w.fns u).size) (hin : InHeap w.hdr w.region data size) (h : Int) :
    ∃ q, turn w m ⟨Callback.requestSize, ⟨idx.signExtend 64, .ofNat 64 size, data⟩, h⟩ =
      (.ok [.received q h, .replied ((w.fns u).result (bytesAt m data size) ((w.fns u).given h)).integer
          ((w.fns u).result (bytesAt m data size) ((w.fns u).given h)).handle],
        [(u, bytesAt m data size, (w.fns u).given h)],
        (w.fns u).effect (bytesAt m data size) ((w.fns u).given h) m) := by
  have hd := dispatch_registered hw hu
  have hpos := hw.sizes u
  have hrun : run w m (.user u) ⟨idx.signExtend 64, .ofNat 64 size, data⟩ h =
      (.ok ((w.fns u).result (bytesAt m data size) ((w.fns u).given h)), copyAddrs data size) := by
    have hc' : ¬ contains w.hdr w.region data (BitVec.ofNat 64 size) = false := by
      rw [show contains w.hdr w.region data (BitVec.ofNat 64 size) = true from hin]; simp
    simp only [run, Callback.invoke, ← hsz, if_neg hc', ne_eq, not_true, if_false]
    rw [copy_bytes]
  have hne : copyAddrs data size ≠ [] := by
    intro e
    have := copyAddrs_length data size
    rw [e] at this
    simp at this
    omega
  have hlen : ¬ (Callback.requestSize < Callback.requestSize) := by omega
  refine ⟨⟨idx.signExtend 64, .ofNat 64 size, data⟩, ?_⟩
  simp only [turn, effects, Callback.handle, if_neg hlen, hd, hrun, if_neg hne, copy_bytes, if_true]

/-- The host's turn on a message that reaches no function. -/
theorem turn_refused {w : World} {hist : List Export} {users : List Nat} {conf : List Config}
    (hw : Setup w hist users conf) (m : Mem) {idx : CInt} {data : Word} {size : Nat} (hn : size < 2 ^ 64)
    (hfn : ∀ u, (w.fns u).size < 2 ^ 64)
    (hbad : Unused users idx ∨ ∃ u, Registered users u idx ∧ size ≠ (w.fns u).size) (h : Int) :
    ∃ q, turn w m ⟨Callback.requestSize, ⟨idx.signExtend 64, .ofNat 64 size, data⟩, h⟩ =
      (.ok [.received q h, .replied (-38) (-1)], [], m) := by
  have hlen : ¬ (Callback.requestSize < Callback.requestSize) := by omega
  refine ⟨⟨idx.signExtend 64, .ofNat 64 size, data⟩, ?_⟩
  rcases hbad with hb | ⟨u, hu, hs⟩
  · have hd := dispatch_unused hw hb
    simp only [turn, effects, Callback.handle, if_neg hlen, hd, if_true]
    rfl
  · have hd := dispatch_registered hw hu
    have hne : (BitVec.ofNat 64 size : Word) ≠ BitVec.ofNat 64 (w.fns u).size := by
      intro e
      have := congrArg BitVec.toNat e
      have := hfn u
      simp only [BitVec.toNat_ofNat] at *
      omega
    have hrun : run w m (.user u) ⟨idx.signExtend 64, .ofNat 64 size, data⟩ h = (.ok {}, []) := by
      simp only [run, Callback.invoke, if_pos hne]
    simp only [turn, effects, Callback.handle, if_neg hlen, hd, hrun, if_true]
    rfl

/-! ## C89 -/

/-- **C89.**  A sandboxed library calls back with a number that the host has given out, data of the size that the
function expects, wherever the data is in its memory, and possibly one of its descriptors.  The function registered
under that number is called once and nothing else is called; it gets the bytes of the data, and the descriptor if it
takes one; the caller is told its result; the memory is as the function left it, apart from one block that the child
uses for the copy, which is free again. -/
theorem user_callback_end_to_end {w : World} {hist : List Export} {users : List Nat} {conf : List Config}
    (hw : Setup w hist users conf) {c : Child} {idx : CInt} {data : Word} {size : Nat} {fd : CInt} {u : Nat} {h : Int}
    (hu : Registered users u idx) (hsz : size = (w.fns u).size) (hr : Ready w c data size) (ha : Arrives w fd h) :
    ∃ m1 c', (∀ x, Outside (scratch c size) x → m1 x = c.mem x) ∧
      (inside w.bounds data (BitVec.ofNat 64 size) = true → m1 = c.mem) ∧
      invokeUser w c idx data size fd =
        .ok (told w ((w.fns u).result (bytesAt c.mem data size) (if (w.fns u).takes then h else -1)),
          [(u, bytesAt c.mem data size, if (w.fns u).takes then h else -1)], c') ∧
      c'.mem = (w.fns u).effect (bytesAt c.mem data size) (if (w.fns u).takes then h else -1) m1 ∧
      c'.live = c.live := by
  obtain ⟨a, c1, h1, h2, h3, h4, h5, h6⟩ := wrap_data hr
  obtain ⟨q, ht⟩ := turn_spec hw c1.mem hu hsz h2 h
  rw [h3] at ht
  have hg : (w.fns u).given h = if (w.fns u).takes then h else -1 := rfl
  rw [hg] at ht
  obtain ⟨l1, l2⟩ := unwrap_live (n := size) (a := a) (l := c.live)
    (c := { c1 with mem := (w.fns u).effect (bytesAt c.mem data size) (if (w.fns u).takes then h else -1) c1.mem }) h4
  refine ⟨c1.mem, _, h5, fun hi => (h6 hi).2, ?_, l2, l1⟩
  simp only [invokeUser, h1, callback, arrives_pass ha, ht, answerOf]
  rw [resultOf_reply]

/-- **C89, calls that reach no function.**  If the number is negative or has not been given out, or the size is not the
one that the function expects, nothing is called; the caller is told `-ENOSYS`; the memory is as before, apart from the
block, which is free again. -/
theorem bad_user_callback_refused {w : World} {hist : List Export} {users : List Nat} {conf : List Config}
    (hw : Setup w hist users conf) {c : Child} {idx : CInt} {data : Word} {size : Nat} {fd : CInt} {h : Int}
    (hfn : ∀ u, (w.fns u).size < 2 ^ 64) (hr : Ready w c data size) (ha : Arrives w fd h)
    (hbad : Unused users idx ∨ ∃ u, Registered users u idx ∧ size ≠ (w.fns u).size) :
    ∃ c', invokeUser w c idx data size fd = .ok (-38, [], c') ∧ c'.live = c.live ∧
      ∀ x, Outside (scratch c size) x → c'.mem x = c.mem x := by
  obtain ⟨a, c1, h1, h2, h3, h4, h5, h6⟩ := wrap_data hr
  obtain ⟨q, ht⟩ := turn_refused hw c1.mem (data := a.arg) hr.pos.2 hfn hbad h
  obtain ⟨l1, l2⟩ := unwrap_live (n := size) (a := a) (l := c.live) (c := c1) h4
  refine ⟨_, ?_, l1, fun x hx => by rw [l2, h5 x hx]⟩
  have hres : resultOf (EndToEnd.reply w.toNet.toWorld (-38) (-1)) = (-38 : CInt) := by
    have := resultOf_reply w ⟨-38, -1⟩
    rw [this, told, if_neg (by decide)]
    decide
  simp only [invokeUser, h1, callback, arrives_pass ha, ht, answerOf, hres]

/-- **C89, results.**  A number that fits an `int` arrives as it is, a descriptor as a descriptor of the child's; of
other numbers only the lower half arrives. -/
theorem told_exact (w : World) (r : Result) :
    (r.handle < 0 → -(2 ^ 31) ≤ r.integer → r.integer < 2 ^ 31 → (told w r).toInt = r.integer) ∧
    (0 ≤ r.handle → told w r = w.recv r.handle) ∧
    (∃ r' : Result, r'.handle < 0 ∧ r'.integer ≠ 0 ∧ told w r' = 0) := by
  refine ⟨?_, ?_, ⟨⟨2 ^ 32, -1⟩, by decide, by decide, ?_⟩⟩
  · intro h1 h2 h3
    rw [told, if_neg (by omega), BitVec.toInt_ofInt]
    simp only [Int.bmod]
    omega
  · intro h
    rw [told, if_pos h]
  · rw [told, if_neg (by decide)]
    decide

/-- **C89, a closed descriptor.**  If the library has no descriptor of the number that it passes, nothing is called and
the sandbox ends. -/
theorem closed_descriptor_ends_sandbox {w : World} {c : Child} {idx : CInt} {data : Word} {size : Nat} {fd : CInt}
    (hr : Ready w c data size) (hs : 0 ≤ fd.toInt) (hclosed : w.passed fd = none) :
    invokeUser w c idx data size fd = .abort := by
  obtain ⟨a, c1, h1, _⟩ := wrap_data hr
  have hp : NetEnd.pass w.toNet fd = .abort := by rw [NetEnd.pass, if_neg (by omega), hclosed]
  simp only [invokeUser, h1, callback, hp]

theorem turn_answered (w : World) (m : Mem) (q : Callback.Request) (h : Int) :
    ∃ es x, (turn w m ⟨Callback.requestSize, q, h⟩).1 = .ok es ∧ EndToEnd.answerOf es = some x := by
  have hrun : ∀ hd, ∃ res, (run w m hd q h).1 = .ok res := by
    intro hd
    cases hd with
    | user u =>
      simp only [run, Callback.invoke]
      split
      · exact ⟨_, rfl⟩
      · split <;> exact ⟨_, rfl⟩
    | base => exact ⟨_, rfl⟩
    | builtin k => exact ⟨_, rfl⟩
  simp only [turn, Callback.handle, Nat.lt_irrefl, if_false, if_true]
  split
  · exact ⟨_, _, rfl, rfl⟩
  all_goals
    rename_i hx
    exfalso
    split at hx
    · cases hx
    · cases hx
    · obtain ⟨res, hres⟩ := hrun ‹_›
      rw [hres] at hx
      cases hx

/-- **C89.** How a call of `invoke_user_callback` can end, for every number, pointer, size and descriptor and every state
of the child, if the functions of the host return: it is undefined exactly if the pointer is null and has to be copied;
it ends the child exactly if there is no memory for the copy, or if the child does not have the descriptor that it
wants to pass; and it returns otherwise. -/
theorem user_call_ends_iff (w : World) (c : Child) (idx : CInt) (data : Word) (size : Nat) (fd : CInt) :
    let copied := inside w.bounds data (.ofNat 64 size) = false
    (invokeUser w c idx data size fd = .ub ↔ copied ∧ data = 0) ∧
    (invokeUser w c idx data size fd = .abort ↔ (copied ∧ data ≠ 0 ∧ c.mallocs = []) ∨
      ((copied → data ≠ 0) ∧ 0 ≤ fd.toInt ∧ w.passed fd = none)) ∧
    invokeUser w c idx data size fd ≠ .throws := by
  intro copied
  obtain ⟨h1, h2, h3, h4⟩ := ChildArgs.wrap_ends_iff w.bounds c data size _ (.inr (.inl rfl))
  simp only at h1 h2 h3 h4
  rcases hw : wrapUser w.bounds c data size with ⟨a, c1⟩ | _ | _ | _
  · rw [hw] at h1 h2
    have hub : ¬ (copied ∧ data = 0) := fun h => by cases h1.2 h
    have hab : ¬ (copied ∧ data ≠ 0 ∧ c.mallocs = []) := fun h => by cases h2.2 h
    have hc : (copied → data ≠ 0) := fun h h0 => hub ⟨h, h0⟩
    have hinv : invokeUser w c idx data size fd = (match callback w c1 idx a.arg size fd with
      | .ok (r, calls, c) => .ok (resultOf r, calls, unwrap false c a size)
      | .abort => .abort
      | .throws => .throws
      | .ub => .ub) := by
      rw [invokeUser, hw]
      rcases hcb : callback w c1 idx a.arg size fd with ⟨_, _, _⟩ | _ | _ | _ <;> simp only [hcb]
    by_cases hp : 0 ≤ fd.toInt ∧ w.passed fd = none
    · have hpass : NetEnd.pass w.toNet fd = .abort := by rw [NetEnd.pass, if_neg (by omega), hp.2]
      have : invokeUser w c idx data size fd = .abort := by rw [hinv]; simp only [callback, hpass]
      rw [this]
      exact ⟨iff_of_false nofun hub, iff_of_true rfl (.inr ⟨hc, hp⟩), nofun⟩
    · obtain ⟨h, hpass⟩ : ∃ h, NetEnd.pass w.toNet fd = .ok h := by
        rw [NetEnd.pass]
        split
        · exact ⟨_, rfl⟩
        · split
          · exact ⟨_, rfl⟩
          · rename_i hlt hn
            exact absurd ⟨by omega, hn⟩ hp
      obtain ⟨es, ⟨x1, x2⟩, ht, he⟩ := turn_answered w c1.mem ⟨idx.signExtend 64, .ofNat 64 size, a.arg⟩ h
      rcases htt : turn w c1.mem ⟨Callback.requestSize, ⟨idx.signExtend 64, .ofNat 64 size, a.arg⟩, h⟩ with ⟨ev, calls, m⟩
      rw [htt] at ht
      simp only at ht
      subst ht
      have : ∃ y, invokeUser w c idx data size fd = .ok y := by
        rw [hinv]
        simp only [callback, hpass, htt, he]
        exact ⟨_, rfl⟩
      obtain ⟨y, hy⟩ := this
      rw [hy]
      refine ⟨iff_of_false nofun hub, iff_of_false nofun ?_, nofun⟩
      rintro (h | ⟨-, h⟩)
      · exact hab h
      · exact hp h
  · have hb := h2.1 hw
    have : invokeUser w c idx data size fd = .abort := by simp only [invokeUser, hw]
    rw [this]
    exact ⟨iff_of_false nofun (fun h => hb.2.1 h.2), iff_of_true rfl (.inl hb), nofun⟩
  · exact absurd hw h3
  · have hb := h1.1 hw
    have : invokeUser w c idx data size fd = .ub := by simp only [invokeUser, hw]
    rw [this]
    refine ⟨iff_of_true rfl hb, iff_of_false nofun ?_, nofun⟩
    rintro (h | ⟨h, -⟩)
    · exact h.2.1 hb.2
    · exact h hb.1 hb.2

/-- **C89, hostile sandboxes.**  Whatever message a sandbox sends and whatever its memory holds, at most one function is
called: the one registered under the number in the message; it gets as many bytes as it expects, taken from the
sandbox's heap at the address in the message; and no descriptor other than the one that came with the message. -/
theorem hostile_user_calls {w : World} {hist : List Export} {users : List Nat} {conf : List Config}
    (hw : Setup w hist users conf) (m : Mem) (p : Packet) :
    ((turn w m p).2 = ([], m)) ∨
    ∃ i u, users[i]? = some u ∧ p.req.kind.toNat = 7 + i ∧ p.req.size = BitVec.ofNat 64 (w.fns u).size ∧
      w.region.base.toNat + w.hdr.toNat ≤ p.req.data.toNat ∧
      p.req.data.toNat + p.req.size.toNat ≤ w.region.top.toNat ∧
      (turn w m p).2 = ([(u, bytesAt m p.req.data (w.fns u).size, if (w.fns u).takes then p.fd else -1)],
        (w.fns u).effect (bytesAt m p.req.data (w.fns u).size) (if (w.fns u).takes then p.fd else -1) m) := by
  show effects w m p = _ ∨ ∃ i u, _ ∧ _ ∧ _ ∧ _ ∧ _ ∧ effects w m p = _
  unfold effects
  split
  · rename_i u hd
    rw [hw.base.base.table, dispatch_tableOf, handlerFor] at hd
    have hk : ¬ p.req.kind.toNat < 7 := by
      intro hlt
      rw [if_pos hlt] at hd
      cases hd
    rw [if_neg hk] at hd
    have hu : users[p.req.kind.toNat - 7]? = some u := by
      rcases hx : users[p.req.kind.toNat - 7]? with _ | v
      · rw [hx] at hd; cases hd
      · rw [hx] at hd; cases hd; rfl
    by_cases hs : p.req.size ≠ BitVec.ofNat 64 (w.fns u).size
    · left
      simp only [run, Callback.invoke, if_pos hs, if_true]
    · by_cases hc : contains w.hdr w.region p.req.data p.req.size = false
      · left
        simp only [run, Callback.invoke, if_neg hs, if_pos hc, if_true]
      · right
        have hs' : p.req.size = BitVec.ofNat 64 (w.fns u).size := Classical.not_not.1 hs
        have hb := (contains_iff w.hdr w.region hw.base.base.wf p.req.data p.req.size).1 (by simpa using hc)
        have hne : copyAddrs p.req.data (w.fns u).size ≠ [] := by
          intro e
          have := copyAddrs_length p.req.data (w.fns u).size
          rw [e] at this
          have := hw.sizes u
          simp at *
          omega
        refine ⟨p.req.kind.toNat - 7, u, hu, by omega, hs', hb.1, hb.2.2, ?_⟩
        simp only [run, Callback.invoke, if_neg hs, if_neg hc, if_neg hne, copy_bytes, Fn.given]
  · exact .inl rfl

/-! ### A case that meets the conditions -/

/-- The functions 3 (which takes a descriptor, and returns one) and 5 (which does not, and writes to the heap); both
expect eight bytes. -/
def exWorld : World :=
  { NetEnd.exWorld with
    table := (tableOf [3, 5]).handlers
    fns := fun u =>
      if u = 3 then ⟨8, true, fun _ h => ⟨-38, h⟩, fun _ _ m => m⟩
      else ⟨8, false, fun bs _ => ⟨bs.length + 100, -1⟩, fun _ _ m x => if x = 0x19000 then 77 else m x⟩ }

theorem exSetup : Setup exWorld FileTree.exHist [3, 5] NetEnd.exConf where
  base := { NetEnd.exSetup with base := { NetEnd.exSetup.base with table := rfl } }
  few := by decide
  sizes := by
    intro u
    simp only [exWorld]
    split <;> decide

theorem exReady (data : Word) (h : data = 0x19000 ∨ data = 0x5000) : Ready exWorld NetEnd.exChild data 8 where
  pos := by decide
  object := by
    rcases h with rfl | rfl
    · exact ⟨by decide, .inl (by simp only [InHeap]; decide)⟩
    · exact ⟨by decide, .inr ⟨by decide, by decide⟩⟩
  fresh := by
    refine ⟨0x18000, [0x18200, 0x18400], rfl, by simp only [InHeap]; decide, ?_, by decide⟩
    rcases h with rfl | rfl
    · exact EndToEnd.apart_of_lt (by decide) (by decide)
    · exact EndToEnd.apart_of_gt (by decide) (by decide)

/-- Number 7 is function 3: it gets the data from outside the heap and the copy 12 of descriptor 7, which it sends
back; the caller gets 4. -/
example : ∃ c', invokeUser exWorld NetEnd.exChild 7 0x5000 8 7 =
    .ok (4, [(3, bytesAt NetEnd.exChild.mem 0x5000 8, 12)], c') := by
  obtain ⟨_, c', _, _, h, _⟩ := user_callback_end_to_end exSetup (c := NetEnd.exChild) (idx := 7) (data := 0x5000)
    (fd := 7) (u := 3) (h := 12) ⟨0, rfl, rfl⟩ rfl (exReady 0x5000 (.inr rfl)) (.inr ⟨by decide, rfl⟩)
  exact ⟨c', h⟩

/-- Number 8 is function 5, without a descriptor; its result is 108, and it has written to the heap. -/
example : ∃ c', invokeUser exWorld NetEnd.exChild 8 0x19000 8 (-1) =
    .ok (108, [(5, bytesAt NetEnd.exChild.mem 0x19000 8, -1)], c') ∧ c'.mem 0x19000 = 77 := by
  obtain ⟨_, c', _, _, h, hm, _⟩ := user_callback_end_to_end exSetup (c := NetEnd.exChild) (idx := 8) (data := 0x19000)
    (fd := -1) (u := 5) (h := -1) ⟨1, rfl, rfl⟩ rfl (exReady 0x19000 (.inl rfl)) (.inl ⟨by decide, rfl⟩)
  exact ⟨c', h, by rw [hm]; rfl⟩

/-- Number 9, number -1, and number 8 with the wrong size. -/
example : Unused [3, 5] 9 ∧ Unused [3, 5] (-1) ∧ (∀ u, (exWorld.fns u).size < 2 ^ 64) ∧
    ∃ u, Registered [3, 5] u 8 ∧ 16 ≠ (exWorld.fns u).size :=
  ⟨by unfold Unused; decide, by unfold Unused; decide,
    fun u => by simp only [exWorld]; split <;> decide, 5, ⟨1, rfl, rfl⟩, by decide⟩

/-- Without memory, and with a null pointer, the call ends otherwise. -/
example : inside exWorld.bounds 0x5000 (.ofNat 64 8) = false ∧ inside exWorld.bounds 0 (.ofNat 64 8) = false ∧
    invokeUser exWorld { NetEnd.exChild with mallocs := [] } 7 0x5000 8 7 = .abort ∧
    invokeUser exWorld NetEnd.exChild 7 0 8 7 = .ub :=
  ⟨by decide, by decide, ((user_call_ends_iff exWorld { NetEnd.exChild with mallocs := [] } 7 0x5000 8 7).2.1).2
    (.inl ⟨by decide, by decide, rfl⟩), ((user_call_ends_iff exWorld NetEnd.exChild 7 0 8 7).1).2 ⟨by decide, rfl⟩⟩

/-- The library has no descriptor 8. -/
example : invokeUser exWorld NetEnd.exChild 7 0x5000 8 8 = .abort :=
  closed_descriptor_ends_sandbox (exReady 0x5000 (.inr rfl)) (by decide) rfl

/-- A message that makes the host call something, so that `hostile_user_calls` says something. -/
example : (turn exWorld (fun _ => 9) ⟨24, ⟨7, 8, 0x18000⟩, 12⟩).2.1 = [(3, List.replicate 8 9, 12)] := by
  decide +kernel

end Verif.UserEnd
