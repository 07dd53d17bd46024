import Verif.RelEnd.Props
import Verif.EndToEnd.Ends
import Verif.PathSyscall.Ends

/-!
# How every `openat` with a relative path ends, whatever the program passes (property C92)
-/

namespace Verif.RelEnd

open Verif.Strings
open Verif.Path (txt)
open Verif.FileTree Verif.FileTree.Spec
open Verif.Callback (Handler Packet Event Result)
open Verif.PathSyscall Verif.PathSyscall.Spec
open Verif.ChildArgs (Bounds Child Wrapped wrapPtr wrapCStr unwrap)
open Verif.Syscall (CInt Regs Info Arg Reply Answer Arrives abi wanted libc found emulate_faithful)
open Verif.EndToEnd (End converts copied Ended Answered Mild around wrap_ends ended_mem reply_proper answerOf)
open Verif.EndToEnd (fdAnswer)
open Verif.NetEnd (World pass)

/-- The program passes a number that may be a descriptor, and has no such descriptor. -/
def Closed (w : World) (dir : CInt) : Prop := 0 ≤ dir.toInt ∧ w.passed dir = none

theorem served_answers {w : World} {hist : List Export} {users : List Nat} (hw : Setup w hist users) (m : Mem)
    (bs : List Byte) (fd : Int) : ∃ res, servedResult w m bs fd = .ok res ∧ Mild res.integer := by
  have hk : ∀ l op, Mild (w.kernel l op).1 := by
    intro l op
    have h1 := hw.base.kernel l op
    have h2 := hw.fails l op
    unfold Mild
    by_cases h : 0 ≤ (w.kernel l op).1
    · have := h1.1 h; omega
    · have := h2 (by omega); omega
  have hp : ∃ o, getPath (w.toWorld.env m) (pathArg bs) = .ok o := by
    rcases strdupOut_safe w.hdr w.region w.malloc hw.base.mallocOk hw.base.mallocTotal m m (pathArg bs) with
      h | ⟨b, h, _⟩ <;> exact ⟨_, h⟩
  obtain ⟨o, ho⟩ := hp
  refine ⟨_, by rw [servedResult, served, handleOpenat, ho], ?_⟩
  exact hk _ _

theorem turn_answers {w : World} {hist : List Export} {users : List Nat} (hw : Setup w hist users) (m : Mem)
    (data : Word) (fd : Int) :
    ∃ i h log es, turn w m ⟨Callback.requestSize, ⟨3, .ofNat 64 frameSize, data⟩, fd⟩ = (.ok es, log) ∧
      answerOf es = some (i, h) ∧ Mild i := by
  have hd : Callback.dispatch w.table 3 = some (.builtin 3) := by
    rw [hw.base.table, Callback.dispatch_tableOf]
    rfl
  have hlen : ¬ (Callback.requestSize < Callback.requestSize) := by omega
  have hrun : ∃ res as, run w m (.builtin 3) ⟨3, .ofNat 64 frameSize, data⟩ fd = (.ok res, as) ∧ Mild res.integer := by
    have hz : ¬ (BitVec.ofNat 64 frameSize ≠ BitVec.ofNat 64 frameSize) := fun h => h rfl
    simp only [run, Callback.invoke, if_neg hz]
    split
    · exact ⟨_, _, rfl, (by decide : -4096 < -ENOSYS ∧ -ENOSYS < 2 ^ 31)⟩
    · obtain ⟨res, h1, h2⟩ := served_answers hw m ((Callback.copyAddrs data frameSize).map m) fd
      exact ⟨res, Callback.copyAddrs data frameSize, by rw [h1], h2⟩
  obtain ⟨res, as, h1, h2⟩ := hrun
  refine ⟨res.integer, res.handle, effects w m ⟨Callback.requestSize, ⟨3, .ofNat 64 frameSize, data⟩, fd⟩,
    [.received ⟨3, .ofNat 64 frameSize, data⟩ fd, .replied res.integer res.handle], ?_, rfl, h2⟩
  simp only [turn, Callback.handle, if_neg hlen, hd, h1, if_true]

/-- A message is answered, unless the directory cannot be sent. -/
theorem callback_ends {w : World} {hist : List Export} {users : List Nat} (hw : Setup w hist users) (c : Child)
    (data : Word) (dir : CInt) :
    Ended (fun rep => ¬ Closed w dir ∧ Answered rep) (Closed w dir) False c (callback w c data dir) .answered := by
  have go : ∀ fd, pass w dir = .ok fd → ¬ Closed w dir →
      Ended (fun rep => ¬ Closed w dir ∧ Answered rep) (Closed w dir) False c (callback w c data dir) .answered := by
    intro fd hfd hc
    obtain ⟨i, h, log, es, h1, h2, h3⟩ := turn_answers hw c.mem data fd
    simp only [callback, hfd, h1, h2, Ended]
    exact ⟨trivial, hc, reply_proper hw.base h3⟩
  by_cases h0 : dir.toInt < 0
  · exact go (-1) (by rw [pass, if_pos h0]) (fun h => by have := h.1; omega)
  · cases hp : w.passed dir with
    | some fd => exact go fd (by rw [pass, if_neg h0, hp]) (fun h => by have := h.2; rw [hp] at this; cases this)
    | none =>
      have : pass w dir = .abort := by rw [pass, if_neg h0, hp]
      simp only [callback, this, Ended]
      exact ⟨by omega, hp⟩

theorem send_ends {w : World} {hist : List Export} {users : List Nat} (hw : Setup w hist users) (c : Child)
    (dir : CInt) (path : Word) (flags mode : CInt) :
    Ended (fun rep => ¬ Closed w dir ∧ Answered rep) (Closed w dir) False c (send w c dir path flags mode)
      (converts [copied w.bounds w.sp] c.mallocs.length) := by
  have e : send w c dir path flags mode =
      around (wrapPtr w.bounds { c with mem := writeBytes c.mem w.sp (encode w dir path flags mode) } w.sp frameSize)
        (fun f c => callback w c f.arg dir) false frameSize := by
    simp only [send, around]
    rcases wrapPtr w.bounds { c with mem := writeBytes c.mem w.sp (encode w dir path flags mode) } w.sp frameSize with
      ⟨a, c1⟩ | _ | _ | _ <;> try rfl
    simp only
    rcases callback w c1 a.arg dir with ⟨x, y, z⟩ | _ | _ | _ <;> rfl
  rw [e]
  refine ended_mem (c' := { c with mem := writeBytes c.mem w.sp (encode w dir path flags mode) }) rfl ?_
  exact wrap_ends w.bounds { c with mem := writeBytes c.mem w.sp (encode w dir path flags mode) } w.sp frameSize false [] _
    fun a c' => callback_ends hw c' a.arg dir

theorem request_ends {w : World} {hist : List Export} {users : List Nat} (hw : Setup w hist users) (c : Child) (n : Nat)
    (dir : CInt) (path : Word) (flags mode fd : CInt) :
    Ended (fun rep => ¬ Closed w dir ∧ Answered rep) (Closed w dir) False c
      (request w c n ⟨3, [.int dir, .cstr path, .int flags, .int mode], fd⟩)
      (converts [copied w.bounds path, copied w.bounds w.sp] c.mallocs.length) := by
  have e : request w c n ⟨3, [.int dir, .cstr path, .int flags, .int mode], fd⟩ =
      around (wrapPtr w.bounds c path (n + 1)) (fun a c => send w c dir a.arg flags mode) false (n + 1) := by
    simp only [request, wrapCStr, around]
    rcases wrapPtr w.bounds c path (n + 1) with ⟨a, c1⟩ | _ | _ | _ <;> try rfl
    simp only
    rcases send w c1 dir a.arg flags mode with ⟨x, y, z⟩ | _ | _ | _ <;> rfl
  rw [e]
  exact wrap_ends w.bounds c path (n + 1) false [copied w.bounds w.sp] _ fun a c' => send_ends hw c' _ _ _ _

/-! ## C92 -/

/-- **C92, how every call ends.**  A sandboxed program makes `openat` with a relative path, any number for the directory,
and a path anywhere; its child has any number of blocks left.  The call ends as the conversion of the path and of the
frame does: it is undefined if a null pointer comes to be followed, and the child dies if a block is needed and there is
none.  Otherwise the child dies exactly if the number may be a descriptor and the program has no such one; and if it does
not die the program goes on after the call with a result that the C library can read, its argument registers are as they
were, and the child's blocks are free again. -/
theorem relative_ends {w : World} {hist : List Export} {users : List Nat} (hw : Setup w hist users) {c : Child}
    {n : Nat} {i : Info} {r : Regs} {s : List Byte} (hcode : i.code = 1) (hnr : i.syscall = 257)
    (hstr : w.str r.rsi = some s) (hrel : s.head? ≠ some 47) (hz : r.rsi ≠ 0) :
    match converts [copied w.bounds r.rsi, copied w.bounds w.sp] c.mallocs.length with
    | .answered =>
      (Closed w (r.rdi.setWidth 32) ∧ trap w c n i r = .abort) ∨
      (¬ Closed w (r.rdi.setWidth 32) ∧
        ∃ r' log c' ans, trap w c n i r = .ok (r', log, c') ∧ ans.Proper ∧ libc r'.rax = found ans ∧
          r'.rip = i.callAddr ∧ abi r' = abi r ∧ c'.live = c.live)
    | .dies => trap w c n i r = .abort
    | .undefined => trap w c n i r = .ub := by
  obtain ⟨q, hq⟩ : ∃ q : Syscall.Request, q = ⟨3, [.int (r.rdi.setWidth 32), .cstr r.rsi, .int (r.rdx.setWidth 32),
      .int (r.r10.setWidth 32)], r.rdi.setWidth 32⟩ := ⟨_, rfl⟩
  have hwant : wanted i.syscall (abi r) = some q := by rw [hq]; exact wanted_openat r hnr
  have he := request_ends hw c n (r.rdi.setWidth 32) r.rsi (r.rdx.setWidth 32) (r.r10.setWidth 32) (r.rdi.setWidth 32)
  rw [← hq] at he
  have hbad : (∀ x, request w c n q ≠ .ok x) →
      ∃ r', Syscall.emulate ⟨hostOf w c n, w.pid, w.str, fun f => f⟩ i r = .ok (r', [q]) := by
    intro hno
    obtain ⟨r', e1, _⟩ := emulate_faithful
      (v := ⟨hostOf w c n, w.pid, w.str, fun f => f⟩) (a := .value 0) hcode hwant (fun _ => ⟨s, hstr, hz, hrel⟩)
      (by simp [Syscall.Answer.Proper]) (by
        simp only [hostOf]
        split
        · rename_i x hx; exact absurd hx (hno _)
        · simp [Syscall.Arrives])
    exact ⟨r', e1⟩
  split
  all_goals
    rename_i hconv
    rw [hconv] at he
  · cases hr : request w c n q with
    | ok x =>
      obtain ⟨rep, log, c'⟩ := x
      rw [hr] at he
      obtain ⟨hl, hcl, ans, h3, h4⟩ := he
      have hhost : hostOf w c n q = rep := by rw [hostOf, hr]
      obtain ⟨r', e1, e2, e3, e4⟩ := emulate_faithful
        (v := ⟨hostOf w c n, w.pid, w.str, fun f => f⟩) hcode hwant (fun _ => ⟨s, hstr, hz, hrel⟩) h3
        (by simp only [hhost]; exact h4)
      exact .inr ⟨hcl, r', log, c', ans, by rw [trap, e1]; simp only [hr], h3, e2, e3, e4, hl⟩
    | abort =>
      rw [hr] at he
      obtain ⟨r', e1⟩ := hbad (by rw [hr]; exact fun _ h => nomatch h)
      exact .inl ⟨he, by rw [trap, e1]; simp only [hr]⟩
    | throws => rw [hr] at he; exact he.elim
    | ub => rw [hr] at he; exact he.elim
  · cases hr : request w c n q with
    | ok x => rw [hr] at he; exact he.elim
    | abort =>
      obtain ⟨r', e1⟩ := hbad (by rw [hr]; exact fun _ h => nomatch h)
      rw [trap, e1]
      simp only [hr]
    | throws => rw [hr] at he; exact he.elim
    | ub => rw [hr] at he; exact he.elim
  · cases hr : request w c n q with
    | ok x => rw [hr] at he; exact he.elim
    | ub =>
      obtain ⟨r', e1⟩ := hbad (by rw [hr]; exact fun _ h => nomatch h)
      rw [trap, e1]
      simp only [hr]
    | throws => rw [hr] at he; exact he.elim
    | abort => rw [hr] at he; exact he.elim

/-- A path outside the shared memory and no block; and a frame at address 0. -/
example : trap exWorld { exChild with mallocs := [] } 3 ⟨1, 257, 0x700⟩ ⟨257, 7, 0x5000, 2, 0, 0, 0, 0x6fe⟩ = .abort ∧
    trap { exWorld with sp := 0 } exChild 3 ⟨1, 257, 0x700⟩ ⟨257, 7, 0x5000, 2, 0, 0, 0, 0x6fe⟩ = .ub := by
  constructor
  · exact relative_ends exSetup (c := { exChild with mallocs := [] }) (n := 3) (i := ⟨1, 257, 0x700⟩)
      (r := ⟨257, 7, 0x5000, 2, 0, 0, 0, 0x6fe⟩) (s := txt "x/y") rfl rfl rfl (by decide +kernel) (by decide)
  · exact relative_ends (w := { exWorld with sp := 0 }) (hist := FileTree.exHist) (users := [3])
      { exSetup with base := { exSetup.base with } } (c := exChild) (n := 3)
      (i := ⟨1, 257, 0x700⟩) (r := ⟨257, 7, 0x5000, 2, 0, 0, 0, 0x6fe⟩) (s := txt "x/y") rfl rfl rfl (by decide +kernel)
      (by decide)

/-- **C92, exactly when the program is told right.**  It finds the number that a descriptor of the file has with it, or the
error of the host's kernel, exactly if the file happens to have the same number in the host, or the error happens to be
`EPERM`. -/
theorem relative_openat_faithful_iff {w : World} {hist : List Export} {users : List Nat} (hw : Setup w hist users)
    {c : Child} {n : Nat} {i : Info} {r : Regs} {s : List Byte} {fd : Int} (hcode : i.code = 1) (hnr : i.syscall = 257)
    (hstr : w.str r.rsi = some s) (hrel : s.head? ≠ some 47) (hr : Ready w c n r.rsi s)
    (hdir : Directory w (r.rdi.setWidth 32) fd) {ret err : Int}
    (hk : w.kernel [] (openOp fd s (r.rdx.setWidth 32) (r.r10.setWidth 32)) = (ret, err)) :
    (∃ r' log c', trap w c s.length i r = .ok (r', log, c') ∧ libc r'.rax = found (fdAnswer w.recv (ret, err))) ↔
    (0 ≤ ret ∧ ret = (w.recv ret).toNat) ∨ (ret < 0 ∧ err = 1) := by
  obtain ⟨r', c', h1, h2, _⟩ := relative_openat_partial hw hcode hnr hstr hrel hr hdir
  rw [hk] at h2
  have : (∃ r' log c', trap w c s.length i r = .ok (r', log, c') ∧ libc r'.rax = found (fdAnswer w.recv (ret, err))) ↔
      found (given (ret, err)) = found (fdAnswer w.recv (ret, err)) := by
    constructor
    · rintro ⟨r1, log, c1, g1, g2⟩
      rw [h1] at g1
      cases g1
      rw [← h2, g2]
    · intro h
      exact ⟨r', _, c', h1, by rw [h2, h]⟩
  rw [this]
  by_cases h0 : 0 ≤ ret
  · simp only [given, fdAnswer, if_pos h0, found, Prod.mk.injEq, and_true]
    omega
  · simp only [given, fdAnswer, if_neg h0, found, Prod.mk.injEq, true_and, Option.some.injEq]
    omega

/-- The file is descriptor 9 of the host; what the child would have called it decides. -/
example (ret err : Int) (h : exWorld.kernel [] (openOp 12 (txt "x/y") 2 0) = (ret, err)) :
    (∃ r' log c', trap exWorld exChild 3 ⟨1, 257, 0x700⟩ ⟨257, 7, 0x5000, 2, 0, 0, 0, 0x6fe⟩ = .ok (r', log, c') ∧
      libc r'.rax = found (fdAnswer exWorld.recv (ret, err))) ↔
    (0 ≤ ret ∧ ret = (exWorld.recv ret).toNat) ∨ (ret < 0 ∧ err = 1) :=
  relative_openat_faithful_iff exSetup (n := 32) (i := ⟨1, 257, 0x700⟩) (r := ⟨257, 7, 0x5000, 2, 0, 0, 0, 0x6fe⟩)
    (s := txt "x/y") (fd := 12) rfl rfl rfl (by decide +kernel) exReady (.given 12 (by decide) rfl (by decide)) h

/-- **C92**: where the host has no memory for the copy of the path, and only there, its behaviour is undefined (the null
pointer is written to); in every other case the handler answers. -/
theorem handler_ends_iff (w : World) (hwf : w.region.WF w.hdr) (hm : MallocOk w.malloc) (m : Mem) (bs : List Byte) (fd : Int) :
    (servedResult w m bs fd = .ub ↔ NoRoom w.hdr w.region w.malloc m (pathArg bs)) ∧
    (¬ NoRoom w.hdr w.region w.malloc m (pathArg bs) → ∃ res, servedResult w m bs fd = .ok res) := by
  obtain ⟨h1, h2⟩ := (serve_ends_iff (w.toWorld.env m) hwf hm).2 fd (pathArg bs) (flagsArg bs) (modeArg bs)
  by_cases hn : NoRoom w.hdr w.region w.malloc m (pathArg bs)
  · have : servedResult w m bs fd = .ub := by rw [servedResult, served, h1.2 hn]
    exact ⟨⟨fun _ => hn, fun _ => this⟩, fun h => absurd hn h⟩
  · obtain ⟨x, hx⟩ := h2 hn
    have : servedResult w m bs fd = .ok x.1 := by rw [servedResult, served, hx]
    exact ⟨⟨fun h => (by rw [this] at h; cases h), fun h => absurd h hn⟩, fun _ => ⟨_, this⟩⟩

example (m : Mem) (bs : List Byte) (fd : Int) :
    servedResult exWorld m bs fd = .ub ↔ NoRoom exWorld.hdr exWorld.region exWorld.malloc m (pathArg bs) :=
  (handler_ends_iff exWorld exSetup.base.wf exSetup.base.mallocOk m bs fd).1

end Verif.RelEnd
