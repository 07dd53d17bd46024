import Verif.Run.Props

/-!
# A sandboxed program without memory

Each call of the child into the host needs blocks of the shared memory, at least one for the frame if the stack is elsewhere (as it is).  Here: if `malloc`
has none, every such call ends the child, whatever its arguments, and the host is not asked.
-/

namespace Verif.Run

open Verif.ChildArgs (Child wrapPtr wrapCStr wrapUser wrapSockAddr wrapGetAddrInfo andThen no_memory_ends_child dupBytes)
open Verif.Syscall (CInt Regs Info abi libc found emulate_faithful)
open Verif.EndToEnd (Want asks reqOf wanted_asks)
open Verif.NetEnd (opAsked wanted_op)

/-- A pointer is passed as it is or, without memory, ends the child. -/
theorem wrap_or_end {b : ChildArgs.Bounds} {c : Child} (hm : c.mallocs = []) {p : Word} (hz : p ≠ 0) (n : Nat) :
    wrapPtr b c p n = .abort ∨ wrapPtr b c p n = .ok (⟨p, none⟩, c) := by
  cases h : ChildArgs.inside b p 1
  · exact .inl ((no_memory_ends_child hm hz).1 n h).1
  · exact .inr (by rw [wrapPtr, if_pos h])

/-- **C66, any path call without memory.**  If the child's stack is not in the shared memory and there is no block, `open`, `stat` and `access` end the
child, wherever their arguments are. -/
theorem path_no_memory {w : EndToEnd.World} {c : Child} {n : Nat} {i : Info} {r : Regs} {want : Want} {path sb : Word}
    (hcode : i.code = 1) (hcall : asks i.syscall (abi r) = some (want, path, sb)) (hz : path ≠ 0) (hb : want = .stat → sb ≠ 0)
    (hsp : w.sp ≠ 0) (hst : ChildArgs.inside w.bounds w.sp 1 = false) (hm : c.mallocs = []) : EndToEnd.trap w c n i r = .abort := by
  obtain ⟨hwant, hne⟩ := wanted_asks hcall
  have hsend : ∀ (c : Child) q, c.mallocs = [] → EndToEnd.send w c q = .abort := by
    intro c q hm
    have := fun n => ((no_memory_ends_child (b := w.bounds) (c := { c with mem := Strings.writeBytes c.mem w.sp (EndToEnd.encode w.pad q) }) hm hsp).1
      n hst).1
    simp only [EndToEnd.send, this]
  have hreq : EndToEnd.request w c n (reqOf path sb want) = .abort := by
    have hp := wrap_or_end (b := w.bounds) hm hz (n + 1)
    cases want with
    | stat =>
      have hs := wrap_or_end (b := w.bounds) hm (hb rfl) EndToEnd.statLen
      rcases hp with hp | hp <;> rcases hs with hs | hs <;> simp only [reqOf, EndToEnd.request, wrapCStr, hp, hs, hsend c _ hm]
    | open_ f md => rcases hp with hp | hp <;> simp only [reqOf, EndToEnd.request, wrapCStr, hp, hsend c _ hm]
    | access md => rcases hp with hp | hp <;> simp only [reqOf, EndToEnd.request, wrapCStr, hp, hsend c _ hm]
  obtain ⟨r', e1, _⟩ := emulate_faithful
    (v := ⟨EndToEnd.hostOf w c n, w.pid, w.str, fun f => f⟩) (a := .value 0) hcode hwant (fun h => absurd h hne)
    (by simp [Syscall.Answer.Proper]) (by simp only [EndToEnd.hostOf, hreq]; simp [Syscall.Arrives])
  rw [EndToEnd.trap, e1]
  simp only [hreq]

/-- **C80, without memory.**  `bind` and `connect` end the child, wherever the address is. -/
theorem network_no_memory {w : NetEnd.World} {c : Child} {i : Info} {r : Regs} {op : Net.Op} (hcode : i.code = 1)
    (hop : opAsked i.syscall = some op) (hz : r.rsi ≠ 0) (hsp : w.sp ≠ 0) (hst : ChildArgs.inside w.bounds w.sp 1 = false) (hm : c.mallocs = []) :
    NetEnd.trap w c i r = .abort := by
  obtain ⟨hwant, hne, hng⟩ := wanted_op (r := r) hop
  have hsend : ∀ k s a l, NetEnd.send w c k s a l = .abort := by
    intro k s a l
    have := fun n => ((no_memory_ends_child (b := w.bounds) (c := { c with mem := Strings.writeBytes c.mem w.sp (NetEnd.encode w s a l) }) hm hsp).1
      n hst).1
    simp only [NetEnd.send, this]
  have hreq : NetEnd.request w c ⟨NetEnd.kindOf op, [.int (r.rdi.setWidth 32), .raw r.rsi, .int (r.rdx.setWidth 32)],
      r.rdi.setWidth 32⟩ = .abort := by
    simp only [NetEnd.request]
    cases h : ChildArgs.inside w.bounds r.rsi (BitVec.ofNat 64 (r.rdx.setWidth 32 : CInt).toNat)
    · have : wrapSockAddr w.bounds c r.rsi (r.rdx.setWidth 32 : CInt).toNat = .ok (⟨r.rsi, none⟩, c) := by
        rw [wrapSockAddr, h]
        rfl
      simp only [this, hsend]
    · rw [(no_memory_ends_child hm hz).2.2.1 _ h]
  obtain ⟨r', f1, _⟩ := emulate_faithful (a := .value 0)
    (v := ⟨NetEnd.hostOf w c, w.pid, w.str, fun f => f⟩) hcode hwant (fun h => absurd h hne) (by simp [Syscall.Answer.Proper])
    (by simp only [NetEnd.hostOf, hreq]; simp [Syscall.Arrives])
  rw [NetEnd.trap, f1]
  simp only [hreq]

/-- **C92, without memory.**  `openat` with a relative path ends the child. -/
theorem relative_no_memory {w : NetEnd.World} {c : Child} {i : Info} {r : Regs} {s : List Byte} (hcode : i.code = 1) (hnr : i.syscall = 257)
    (hstr : w.str r.rsi = some s) (hrel : s.head? ≠ some 47) (hz : r.rsi ≠ 0) (hsp : w.sp ≠ 0)
    (hst : ChildArgs.inside w.bounds w.sp 1 = false) (hm : c.mallocs = []) : RelEnd.trap w c s.length i r = .abort := by
  have hsend : ∀ d p f m, RelEnd.send w c d p f m = .abort := by
    intro d p f m
    have := fun n => ((no_memory_ends_child (b := w.bounds) (c := { c with mem := Strings.writeBytes c.mem w.sp (RelEnd.encode w d p f m) }) hm hsp).1
      n hst).1
    simp only [RelEnd.send, this]
  have hreq : RelEnd.request w c s.length ⟨3, [.int (r.rdi.setWidth 32), .cstr r.rsi,
      .int (r.rdx.setWidth 32), .int (r.r10.setWidth 32)], r.rdi.setWidth 32⟩ = .abort := by
    rcases wrap_or_end (b := w.bounds) hm hz (s.length + 1) with hp | hp <;> simp only [RelEnd.request, wrapCStr, hp, hsend]
  obtain ⟨r', f1, _⟩ := emulate_faithful (a := .value 0)
    (v := ⟨RelEnd.hostOf w c s.length, w.pid, w.str, fun f => f⟩) hcode (RelEnd.wanted_openat r hnr)
    (fun _ => ⟨s, hstr, hz, hrel⟩) (by simp [Syscall.Answer.Proper]) (by simp only [RelEnd.hostOf, hreq]; simp [Syscall.Arrives])
  rw [RelEnd.trap, f1]
  simp only [hreq]

/-- **C89, without memory.**  A callback whose data is outside the shared memory ends the child; one whose data is inside needs no block. -/
theorem user_no_memory {w : UserEnd.World} {c : Child} {idx : CInt} {data : Word} {size : Nat} {fd : CInt} (hz : data ≠ 0)
    (ho : ChildArgs.inside w.bounds data (BitVec.ofNat 64 size) = false) (hm : c.mallocs = []) :
    UserEnd.invokeUser w c idx data size fd = .abort := by
  rw [UserEnd.invokeUser, (no_memory_ends_child hm hz).2.1 _ ho]

/-- **C90, without memory.**  A lookup ends the child, wherever its arguments are. -/
theorem lookup_no_memory {w : NameEnd.World} {c : Child} {host serv hints res : Word} {hl sl : Nat} (h1 : host ≠ 0) (h2 : serv ≠ 0) (h3 : hints ≠ 0)
    (h4 : w.localRes ≠ 0) (hsp : w.sp ≠ 0) (hst : ChildArgs.inside w.bounds w.sp 1 = false) (hm : c.mallocs = []) :
    NameEnd.getaddrinfo w c host serv hints res hl sl = .abort := by
  have hsend : ∀ a b d e, NameEnd.send w c a b d e = .abort := by
    intro a b d e
    have := fun n => ((no_memory_ends_child (b := w.bounds) (c := { c with mem := Strings.writeBytes c.mem w.sp (NameEnd.encode a b d e) }) hm hsp).1
      n hst).1
    simp only [NameEnd.send, this]
  have k1 := wrap_or_end (b := w.bounds) hm h1 (hl + 1)
  have k2 := wrap_or_end (b := w.bounds) hm h2 (sl + 1)
  have k3 := wrap_or_end (b := w.bounds) hm h3 AddrInfo.infoSize
  have k4 := wrap_or_end (b := w.bounds) hm h4 8
  rcases k1 with k1 | k1 <;> rcases k2 with k2 | k2 <;> rcases k3 with k3 | k3 <;> rcases k4 with k4 | k4 <;>
    simp [NameEnd.getaddrinfo, wrapGetAddrInfo, wrapCStr, andThen, k1, k2, k3, k4, hsend]

/-- The next call of the program needs memory that the child does not have: it is a path call, `bind`, `connect`, `openat` with a relative path, a callback with data
outside the shared memory, or a lookup, with pointers that are not null (`src/library_runner.cc:538-545`, `:742-748`, `:988-995`). -/
inductive Hungry (w : World) (m : Mem) : Act → Prop
  | path {i r want path sb} : i.code = 1 → asks i.syscall (abi r) = some (want, path, sb) → path ≠ 0 → (want = .stat → sb ≠ 0) →
    Hungry w m (.sys i r)
  | net {i r op} : i.code = 1 → opAsked i.syscall = some op → r.rsi ≠ 0 → Hungry w m (.sys i r)
  | relative {i r s} : i.code = 1 → i.syscall = 257 → readString m (2 ^ 64) r.rsi = some s → s.head? ≠ some 47 → r.rsi ≠ 0 →
    Hungry w m (.sys i r)
  | back {idx data size fd r} : data ≠ 0 → ChildArgs.inside w.bounds data (BitVec.ofNat 64 size) = false → Hungry w m (.back idx data size fd r)
  | look {host serv hints res r} : host ≠ 0 → serv ≠ 0 → hints ≠ 0 → Hungry w m (.look host serv hints res r)

/-- **C93, a program without memory.**  At any point of any run: if the child has no block when its program makes such a call, the child ends there.  The host has
not been asked, and the program does not go on with some result. -/
theorem no_memory_ends_run (W : Worlds) (P : Program) (s : State) (hc : Hungry (W (s.past.map Event.plain)) (P s.child.mem s.regs).1 (P s.child.mem s.regs).2)
    (hsp : (W (s.past.map Event.plain)).sp ≠ 0) (hl : (W (s.past.map Event.plain)).localRes ≠ 0)
    (hst : ChildArgs.inside (W (s.past.map Event.plain)).bounds (W (s.past.map Event.plain)).sp 1 = false) : step W P [] s = .abort := by
  unfold step
  generalize hq : P s.child.mem s.regs = q at hc ⊢
  obtain ⟨m, k⟩ := q
  simp only at hc ⊢
  cases hc with
  | path h1 h2 h3 h4 =>
    rename_i i r want path sb
    have hn : ¬ (i.syscall = 49 ∨ i.syscall = 42) ∧ i.syscall ≠ 257 := by
      unfold asks at h2
      split at h2
      · split at h2
        · omega
        · split at h2
          · omega
          · split at h2
            · omega
            · cases h2
      · cases h2
    simp only [hn.1, if_false, isRelative, hn.2, false_and]
    rw [path_no_memory (w := (now W s.past m).toNet.toWorld) h1 h2 h3 h4 hsp hst rfl]
  | net h1 h2 h3 =>
    rename_i i r op
    simp only [op_number h2, if_true]
    rw [network_no_memory (w := (now W s.past m).toNet) h1 h2 h3 hsp hst rfl]
  | relative h1 h2 h3 h4 h5 =>
    rename_i i r t
    have hn : ¬ (i.syscall = 49 ∨ i.syscall = 42) := by omega
    have hi : isRelative m i r := ⟨h2, by rw [h3]; exact h4⟩
    have hp : pathLength m i r = t.length := by simp [pathLength, h2, h3]
    simp only [hn, if_false, hi, if_true, hp]
    rw [relative_no_memory (w := (now W s.past m).toNet) h1 h2 h3 h4 h5 hsp hst rfl]
  | back h1 h2 =>
    dsimp only
    rw [user_no_memory (w := (now W s.past m).toUser) h1 h2 rfl]
  | look h1 h2 h3 =>
    dsimp only
    rw [lookup_no_memory (w := (now W s.past m).names) h1 h2 h3 hl hsp hst rfl]

/-- The program of the other examples, with its stack outside the shared memory (`src/library_runner.cc:649-655`). -/
def exOutside : Worlds := fun _ => { exWorld with toUser := { exWorld.toUser with toNet := { exWorld.toNet with toWorld :=
  { exWorld.toNet.toWorld with sp := 0x9000 } } } }

/-- Its first call is `open`. -/
example : step exOutside exProgram [] ⟨EndToEnd.exChild, ⟨0, 0, 0, 0, 0, 0, 0, 0⟩, []⟩ = .abort :=
  no_memory_ends_run _ _ _ (.path (want := .open_ 0 0) (path := 0x5000) (sb := 0) rfl rfl (by decide) (by simp))
    (by simp only [exOutside]; decide) (by simp only [exOutside, exWorld]; decide) (by simp only [exOutside]; decide)

end Verif.Run
