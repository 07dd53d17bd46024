import Verif.RelEnd.Lemmas

/-!
# `openat` with a relative path, end to end: theorems
-/

namespace Verif.RelEnd

open Verif.Bounds (Region contains contains_iff)
open Verif.Strings Verif.Strings.Spec
open Verif.Path (txt)
open Verif.FileTree (Export)
open Verif.Callback (Handler Packet Event Result)
open Verif.PathSyscall (Log Kernel HostOp handleOpenat getPath)
open Verif.ChildArgs (Bounds Child Wrapped wrapPtr wrapCStr unwrap bytesAt Apart InHeap Object)
open Verif.Syscall (CInt Regs Info Arg Reply Answer Arrives abi wanted libc found emulate_faithful)
open Verif.EndToEnd (Pool Outside outside_mono outside_of_apart apart_symm apart_mono pool_last inHeap_mono
  bytesAt_congr wrap_spec wrap_pool cstring_moved getPath_string fdAnswer)
open Verif.NetEnd (World pass)

/-! ### Specification -/

/-- The program makes the call properly, and the child has the memory for it: there is a string at `path`, wholly in the
shared heap or wholly outside; the frame on the stack does not overlap it; and `malloc` has two more blocks that overlap
nothing (`n` bytes is enough for each). -/
structure Ready (w : World) (c : Child) (n : Nat) (path : Word) (s : List Byte) : Prop where
  room : s.length + 1 ≤ n ∧ 24 ≤ n ∧ n < 2 ^ 64
  string : CStringAt (asNat c.mem) path.toNat s
  object : Object w.hdr w.region w.bounds path (s.length + 1)
  apart : Apart path (s.length + 1) w.sp 24
  stack : Object w.hdr w.region w.bounds w.sp 24
  pool : Pool w.toWorld n c [(w.sp, 24), (path, s.length + 1)] 2

/-- The places that the child uses for itself while it makes a call: the frame on its stack and the blocks. -/
def scratch (w : World) (c : Child) (n : Nat) : List (Word × Nat) :=
  (w.sp, 24) :: (c.mallocs.take 2).map (·, n)

/-- The directory beneath which the host is to look: its copy of the program's descriptor, or none if the program gave
a negative number, such as `AT_FDCWD`. -/
inductive Directory (w : World) (dir : CInt) : Int → Prop where
  | given (h : Int) : 0 ≤ dir.toInt → w.passed dir = some h → 0 ≤ h → Directory w dir h
  | none : dir.toInt < 0 → Directory w dir (-1)

/-- What the program gets: the number of the file *in the host* if it was opened, and error 1, `EPERM`, for every
failure. -/
def given (r : Int × Int) : Answer := if 0 ≤ r.1 then .value r.1.toNat else .error 1

/-! ### Lemmas -/

theorem pass_directory {w : World} {dir : CInt} {fd : Int} (h : Directory w dir fd) : pass w dir = .ok fd := by
  cases h with
  | given h h1 h2 h3 => rw [pass, if_neg (by omega), h2]
  | none h => rw [pass, if_pos h]

theorem given_arrives {w : World} {hist : List Export} {users : List Nat} (hw : Setup w hist users) (l : Log)
    (op : HostOp) :
    (given (w.kernel l op)).Proper ∧
      Arrives (given (w.kernel l op)) (EndToEnd.reply w.toWorld (w.kernel l op).1 (-1)) := by
  have h := hw.base.kernel l op
  have hf := hw.fails l op
  unfold given
  split
  · rename_i h0
    have := h.1 h0
    refine ⟨?_, rfl, ?_⟩
    · show (w.kernel l op).1.toNat < 2 ^ 31
      omega
    · show BitVec.ofInt 64 (w.kernel l op).1 = BitVec.ofNat 64 (w.kernel l op).1.toNat
      rw [← BitVec.ofInt_natCast, Int.toNat_of_nonneg h0]
  · rename_i h0
    refine ⟨⟨by decide, by decide⟩, rfl, ?_⟩
    show BitVec.ofInt 64 (w.kernel l op).1 = BitVec.ofInt 64 (-((1 : Nat) : Int))
    rw [hf (by omega)]
    rfl

theorem no_zero {m : Nat → Byte} {a : Nat} {s : List Byte} (h : CStringAt m a s) : (0 : Byte) ∉ s := by
  intro hm
  obtain ⟨i, hi, he⟩ := List.getElem_of_mem hm
  exact (h.1 i hi).2 he

/-- The copy of the path. -/
theorem wrap_path {w : World} {hist : List Export} {users : List Nat} (hw : Setup w hist users) {c : Child} {n : Nat}
    {path : Word} {s : List Byte} (hr : Ready w c n path s) :
    ∃ a c1 p ps, wrapCStr w.bounds c path s.length = .ok (a, c1) ∧ InHeap w.hdr w.region a.arg (s.length + 1) ∧
      bytesAt c1.mem a.arg (s.length + 1) = bytesAt c.mem path (s.length + 1) ∧
      c1.live = a.copy.toList ++ c.live ∧ c1.mallocs = p :: ps ∧ InHeap w.hdr w.region p 24 ∧
      (∀ o ∈ [(w.sp, 24), (p, 24)], Apart o.1 o.2 a.arg (s.length + 1)) ∧ p ∈ c.mallocs.take 2 ∧
      (∀ q, a.copy = some q → q ∈ c.mallocs.take 2) ∧
      (∀ x, (∀ q, a.copy = some q → Outside [(q, s.length + 1)] x) → c1.mem x = c.mem x) := by
  obtain ⟨⟨hn1, hn2, hn3⟩, _, hobj, hap, _, hpool⟩ := hr
  obtain ⟨a, c1, ha, hin, hbytes, haorig, hpool1, hlive1, hsub1, hcopy, hmem1⟩ :=
    wrap_pool hw.base hpool hn3 (by omega) hn1 hobj
  obtain ⟨p, ps, hm, hp, hpa, hpin⟩ := pool_last hpool1
  refine ⟨a, c1, p, ps, ha, hin, hbytes, hlive1, hm, inHeap_mono hw.base hp hn3 hn2, ?_, hsub1 p hpin,
    fun q hq => (hcopy q hq).1, hmem1⟩
  intro o ho
  simp only [List.mem_cons, List.not_mem_nil, or_false] at ho
  cases hc : a.copy with
  | none =>
    have harg : a.arg = path := by simp [Wrapped.arg, hc, haorig]
    rw [harg]
    rcases ho with rfl | rfl
    · exact apart_symm hap
    · have := hpa (path, s.length + 1) (by simp [hc])
      exact apart_mono this hn2 (by omega)
  | some q =>
    have harg : a.arg = q := by simp [Wrapped.arg, hc]
    rw [harg]
    rcases ho with rfl | rfl
    · exact apart_symm (apart_mono ((hcopy q hc).2 (w.sp, 24) (by simp)) hn1 (by omega))
    · have := hpa (a.arg, n) (by simp [hc])
      rw [harg] at this
      exact apart_mono this hn2 hn1

/-- What a request to the host gives. -/
theorem request_spec {w : World} {hist : List Export} {users : List Nat} (hw : Setup w hist users) {c : Child} {n : Nat}
    {path : Word} {s : List Byte} (hr : Ready w c n path s) {dir : CInt} {fd : Int} (hfd : Directory w dir fd)
    (flags mode : CInt) :
    ∃ c', request w c s.length ⟨3, [.int dir, .cstr path, .int flags, .int mode], dir⟩ =
        .ok (EndToEnd.reply w.toWorld (w.kernel [] (openOp fd s flags mode)).1 (-1),
          calls w.kernel fd s flags mode, c') ∧ c'.live = c.live ∧
      ∀ x, Outside (scratch w c n) x → c'.mem x = c.mem x := by
  obtain ⟨a, c1, p, ps, h1, h2, h3, h4, h5, h6, h7, h8, h9, h10⟩ := wrap_path hw hr
  obtain ⟨⟨hn1, hn2, hn3⟩, hstr, _, _, hstack, _⟩ := hr
  obtain ⟨m1, hm1, hsend⟩ := send_spec hw c1 dir a.arg flags mode hstack p ps h5 h6 (pass_directory hfd)
  have hb1 : bytesAt m1 a.arg (s.length + 1) = bytesAt c.mem path (s.length + 1) := by
    rw [← h3]
    exact bytesAt_congr fun i hi => hm1 _ (outside_of_apart h7 hi)
  have hgp := getPath_string hw.base m1 a.arg s h2 (by omega) (cstring_moved hstr hb1)
  obtain ⟨c2, e1, e2, e3⟩ := hsend _ _ (handler_spec w m1 (no_zero hstr) hgp fd flags mode)
  refine ⟨unwrap false c2 a (s.length + 1), ?_, ?_, ?_⟩
  · simp only [request, h1, e1]
  · cases hc : a.copy with
    | none => simp [unwrap, hc, e2, h4]
    | some q => simp [unwrap, hc, e2, h4]
  · intro x hx
    have hu : (unwrap false c2 a (s.length + 1)).mem x = c2.mem x := by
      cases hc : a.copy <;> simp [unwrap, hc]
    rw [hu, e3, hm1, h10]
    · intro q hq
      apply outside_mono hx
      intro o ho
      simp only [List.mem_singleton] at ho
      subst ho
      exact ⟨(q, n), List.mem_cons_of_mem _ (List.mem_map.2 ⟨q, h9 q hq, rfl⟩), rfl, hn1⟩
    · apply outside_mono hx
      intro o ho
      simp only [List.mem_cons, List.not_mem_nil, or_false] at ho
      rcases ho with rfl | rfl
      · exact ⟨(w.sp, 24), by simp [scratch], rfl, by simp⟩
      · exact ⟨(p, n), List.mem_cons_of_mem _ (List.mem_map.2 ⟨p, h8, rfl⟩), rfl, hn2⟩

theorem wanted_openat {nr : Int} (r : Regs) (h : nr = 257) :
    wanted nr (abi r) = some ⟨3, [.int (r.rdi.setWidth 32), .cstr r.rsi, .int (r.rdx.setWidth 32),
      .int (r.r10.setWidth 32)], r.rdi.setWidth 32⟩ := by
  subst h
  rfl

/-! ## C92 -/

/-- **C92, what holds.**  A sandboxed program makes the system call `openat` with a relative path.  Whatever its memory
and the answers of the host's kernel: the host opens the path, as it stands, with the program's flags and mode, beneath
the directory whose descriptor the program gave and nowhere else (`RESOLVE_BENEATH`), closes its copy of that descriptor,
and does nothing else; the program goes on after the call with its other registers as they were; and its memory is as
before, apart from the child's own frame and blocks, which are free again.  What the program finds is the number that the
file has in the *host*, or the error `EPERM`.

Missing: that the program gets a descriptor of the file, or the error of the host's kernel.  See
`relative_openat_unfaithful`. -/
theorem relative_openat_partial {w : World} {hist : List Export} {users : List Nat} (hw : Setup w hist users) {c : Child}
    {n : Nat} {i : Info} {r : Regs} {s : List Byte} {fd : Int} (hcode : i.code = 1) (hnr : i.syscall = 257)
    (hstr : w.str r.rsi = some s) (hrel : s.head? ≠ some 47) (hr : Ready w c n r.rsi s)
    (hdir : Directory w (r.rdi.setWidth 32) fd) :
    ∃ r' c', trap w c s.length i r =
        .ok (r', calls w.kernel fd s (r.rdx.setWidth 32) (r.r10.setWidth 32), c') ∧
      libc r'.rax = found (given (w.kernel [] (openOp fd s (r.rdx.setWidth 32) (r.r10.setWidth 32)))) ∧
      r'.rip = i.callAddr ∧ abi r' = abi r ∧ c'.live = c.live ∧
      ∀ x, Outside (scratch w c n) x → c'.mem x = c.mem x := by
  obtain ⟨c', h1, h2, h3⟩ := request_spec hw hr hdir (r.rdx.setWidth 32) (r.r10.setWidth 32)
  obtain ⟨p1, p2⟩ := given_arrives hw [] (openOp fd s (r.rdx.setWidth 32) (r.r10.setWidth 32))
  have hhost := congrArg (fun x => x) (show hostOf w c s.length ⟨3, [.int (r.rdi.setWidth 32), .cstr r.rsi,
      .int (r.rdx.setWidth 32), .int (r.r10.setWidth 32)], r.rdi.setWidth 32⟩ = _ by rw [hostOf, h1])
  obtain ⟨r', f1, f2, f3, f4⟩ := emulate_faithful
    (v := ⟨hostOf w c s.length, w.pid, w.str, fun f => f⟩) hcode (wanted_openat r hnr)
    (fun _ => ⟨s, hstr, hr.object.1, hrel⟩) p1 (by simp only [hhost]; exact p2)
  exact ⟨r', c', by rw [trap, f1]; simp only [h1], f2, f3, f4, h2, h3⟩

/-- **C92, a closed directory.**  If the program has no descriptor of the number that it passes, nothing is opened; the
sandbox ends, where the system would have answered `EBADF`. -/
theorem closed_directory_ends_sandbox {w : World} {hist : List Export} {users : List Nat} (hw : Setup w hist users)
    {c : Child} {n : Nat} {i : Info} {r : Regs} {s : List Byte} (hcode : i.code = 1) (hnr : i.syscall = 257)
    (hstr : w.str r.rsi = some s) (hrel : s.head? ≠ some 47) (hr : Ready w c n r.rsi s)
    (hs : 0 ≤ (r.rdi.setWidth 32 : CInt).toInt) (hclosed : w.passed (r.rdi.setWidth 32) = none) :
    trap w c s.length i r = .abort := by
  have hfd : pass w (r.rdi.setWidth 32) = .abort := by rw [pass, if_neg (by omega), hclosed]
  obtain ⟨a, c1, p, ps, h1, h2, h3, h4, h5, h6, h7, h8, h9, h10⟩ := wrap_path hw hr
  obtain ⟨f, c2, e1, _⟩ := wrap_spec
    (c := { c1 with mem := writeBytes c1.mem w.sp (encode w (r.rdi.setWidth 32) a.arg (r.rdx.setWidth 32)
      (r.r10.setWidth 32)) })
    (n := 24) (by omega) (by omega) hr.stack h5 h6
  have hfs : frameSize = 24 := rfl
  have hreq : request w c s.length ⟨3, [.int (r.rdi.setWidth 32), .cstr r.rsi,
      .int (r.rdx.setWidth 32), .int (r.r10.setWidth 32)], r.rdi.setWidth 32⟩ = .abort := by
    simp only [request, h1, send, hfs, e1, callback, hfd]
  have hhost : hostOf w c s.length ⟨3, [.int (r.rdi.setWidth 32), .cstr r.rsi,
      .int (r.rdx.setWidth 32), .int (r.r10.setWidth 32)], r.rdi.setWidth 32⟩ = ⟨0, none⟩ := by rw [hostOf, hreq]
  obtain ⟨r', f1, _⟩ := emulate_faithful (a := .value 0)
    (v := ⟨hostOf w c s.length, w.pid, w.str, fun f => f⟩) hcode (wanted_openat r hnr)
    (fun _ => ⟨s, hstr, hr.object.1, hrel⟩) (by show 0 < 2 ^ 31; decide) (by simp only [hhost]; exact ⟨rfl, rfl⟩)
  rw [trap, f1]
  simp only [hreq]

/-- **C92, hostile sandboxes.**  Whatever message a sandbox sends and whatever its memory holds, this handler makes the host
do something only if the message is of kind 3 and names 24 bytes inside the sandbox; and then the host makes at most two
system calls: it opens something beneath the descriptor that came with the message, with `RESOLVE_BENEATH`, and closes that
descriptor. -/
theorem hostile_relative_openat {w : World} {hist : List Export} {users : List Nat} (hw : Setup w hist users) (m : Mem)
    (p : Packet) :
    (turn w m p).2 = [] ∨ p.req.kind = 3 ∧ p.req.size = 24 ∧ InHeap w.hdr w.region p.req.data 24 ∧
    ∃ path flags mode, ((turn w m p).2.map (·.op) = [.openat2 p.fd path flags mode 8, .close p.fd] ∧ 0 ≤ p.fd) ∨
      ((turn w m p).2.map (·.op) = [.openat2 p.fd path flags mode 8] ∧ p.fd < 0) := by
  show effects w m p = [] ∨ _ ∧ _ ∧ _ ∧ ∃ path flags mode, ((effects w m p).map (·.op) = _ ∧ _) ∨ ((effects w m p).map (·.op) = _ ∧ _)
  unfold effects
  split
  · rename_i hd
    have hk : p.req.kind.toNat = 3 := by
      rw [hw.base.table, Callback.dispatch_tableOf, Callback.Spec.handlerFor] at hd
      split at hd
      · simpa using hd
      · cases hu : users[p.req.kind.toNat - 7]? <;> simp [hu] at hd
    simp only
    split
    · exact .inl rfl
    · rename_i hne
      have hframe : p.req.size = 24 ∧ InHeap w.hdr w.region p.req.data 24 := by
        simp only [run, Callback.invoke] at hne
        by_cases h1 : p.req.size ≠ BitVec.ofNat 64 frameSize
        · rw [if_pos h1] at hne
          exact absurd rfl hne
        · rw [if_neg h1] at hne
          have h1 := Classical.not_not.1 h1
          by_cases h2 : contains w.hdr w.region p.req.data p.req.size = false
          · rw [if_pos h2] at hne
            exact absurd rfl hne
          · rw [h1] at h2
            exact ⟨h1, (Bool.not_eq_false _).mp h2⟩
      split
      · rename_i res log hs
        refine .inr ⟨BitVec.eq_of_toNat_eq hk, hframe.1, hframe.2, ?_⟩
        unfold served handleOpenat at hs
        split at hs
        · simp only [Outcome.ok.injEq, Prod.mk.injEq, PathSyscall.openatBeneath, PathSyscall.sys] at hs
          obtain ⟨-, rfl⟩ := hs
          by_cases h0 : 0 ≤ p.fd
          · rw [if_pos h0]
            exact ⟨_, _, _, .inl ⟨rfl, h0⟩⟩
          · rw [if_neg h0]
            exact ⟨_, _, _, .inr ⟨rfl, by omega⟩⟩
        · cases hs
        · cases hs
        · cases hs
      · exact .inl rfl
  · exact .inl rfl

/-! ### A case that meets the conditions -/

/-- The world of `Verif.NetEnd`; every call of the host's kernel gives 9, descriptor 7 of the child is 12 in the host, and
there is a relative path at `0x5000`. -/
def exWorld : World :=
  { NetEnd.exWorld with toWorld := { EndToEnd.exWorld with str := fun a => if a = 0x5000 then some (txt "x/y") else none } }

/-- The string is a constant of the library, outside the shared memory. -/
def exChild : Child where
  mem := fun a => ((txt "x/y")[(a - 0x5000).toNat]?).getD 0
  live := [0x17000]
  mallocs := [0x18000, 0x18200, 0x18400]

theorem exSetup : Setup exWorld FileTree.exHist [3] where
  base := { EndToEnd.exSetup with }
  pad2 := rfl
  fails := fun _ _ h => absurd h (by decide : ¬ (9 : Int) < 0)

theorem exReady : Ready exWorld exChild 32 0x5000 (txt "x/y") where
  room := by decide +kernel
  string := by
    have : ∀ i : Fin (txt "x/y").length,
        asNat exChild.mem ((0x5000 : Word).toNat + i.val) = (txt "x/y")[i.val] ∧ (txt "x/y")[i.val] ≠ 0 := by
      decide +kernel
    exact ⟨fun i hi => this ⟨i, hi⟩, by decide +kernel⟩
  object := ⟨by decide, .inr ⟨by decide +kernel, by decide +kernel⟩⟩
  apart := EndToEnd.apart_of_lt (by decide +kernel) (by decide +kernel)
  stack := ⟨by decide, .inl (by simp only [InHeap]; decide)⟩
  pool := by
    have hm : exChild.mallocs.take 2 = [0x18000, 0x18200] := rfl
    have hl : (txt "x/y").length + 1 = 4 := rfl
    rw [hl]
    refine ⟨by decide, ?_, ?_, ?_⟩
    · rw [hm]
      intro p hp
      simp only [List.mem_cons, List.not_mem_nil, or_false] at hp
      rcases hp with rfl | rfl <;> (simp only [InHeap]; decide)
    · rw [hm]
      intro p hp o ho
      simp only [List.mem_cons, List.not_mem_nil, or_false] at hp ho
      rcases hp with rfl | rfl <;> rcases ho with rfl | rfl <;>
        first
        | exact EndToEnd.apart_of_lt (by decide) (by decide)
        | exact EndToEnd.apart_of_gt (by decide) (by decide)
    · rw [hm]
      simp only [List.pairwise_cons, List.mem_cons, List.not_mem_nil, or_false, forall_eq,
        List.Pairwise.nil, and_true, false_implies, implies_true]
      exact EndToEnd.apart_of_gt (by decide) (by decide)

/-- `openat(7, "x/y", 2, 0)`: the host opens `x/y` beneath descriptor 12 and closes 12; the program finds 9. -/
example : ∃ r' c', trap exWorld exChild 3 ⟨1, 257, 0x700⟩ ⟨257, 7, 0x5000, 2, 0, 0, 0, 0x6fe⟩ =
      .ok (r', [⟨.openat2 12 (some (txt "x/y")) 2 0 8, 9, 0⟩, ⟨.close 12, 9, 0⟩], c') ∧ libc r'.rax = (9, none) := by
  obtain ⟨r', c', h1, h2, _⟩ := relative_openat_partial exSetup (n := 32) (s := txt "x/y") (fd := 12)
    (i := ⟨1, 257, 0x700⟩) (r := ⟨257, 7, 0x5000, 2, 0, 0, 0, 0x6fe⟩) rfl rfl rfl (by decide +kernel) exReady
    (.given 12 (by decide) rfl (by decide))
  exact ⟨r', c', h1, h2⟩

/-- `openat(AT_FDCWD, "x/y", 2, 0)`: the host gets no directory. -/
example : ∃ r' c', trap exWorld exChild 3 ⟨1, 257, 0x700⟩ ⟨257, 0xffffff9c, 0x5000, 2, 0, 0, 0, 0x6fe⟩ =
      .ok (r', [⟨.openat2 (-1) (some (txt "x/y")) 2 0 8, 9, 0⟩], c') := by
  obtain ⟨r', c', h1, h2, _⟩ := relative_openat_partial exSetup (n := 32) (s := txt "x/y") (fd := -1)
    (i := ⟨1, 257, 0x700⟩) (r := ⟨257, 0xffffff9c, 0x5000, 2, 0, 0, 0, 0x6fe⟩) rfl rfl rfl (by decide +kernel) exReady
    (.none (by decide))
  exact ⟨r', c', h1⟩

/-- `openat(8, "x/y", 2, 0)`: there is no descriptor 8. -/
example : trap exWorld exChild 3 ⟨1, 257, 0x700⟩ ⟨257, 8, 0x5000, 2, 0, 0, 0, 0x6fe⟩ = .abort :=
  closed_directory_ends_sandbox exSetup (n := 32) (s := txt "x/y") rfl rfl rfl (by decide +kernel) exReady (by decide) rfl

/-- **C92, what does not hold.**  That the program finds a descriptor of the file that was opened, or the error of the
host's kernel, is false: the host opens the file as its own descriptor 9, which it does not send. -/
theorem relative_openat_unfaithful :
    ¬ ∀ (w : World) (hist : List Export) (users : List Nat) (c : Child) (n : Nat) (i : Info) (r : Regs) (s : List Byte)
        (fd : Int), Setup w hist users → i.code = 1 → i.syscall = 257 → w.str r.rsi = some s → s.head? ≠ some 47 →
        Ready w c n r.rsi s → Directory w (r.rdi.setWidth 32) fd →
        ∃ r' log c', trap w c s.length i r = .ok (r', log, c') ∧
          libc r'.rax = found (fdAnswer w.recv (w.kernel [] (openOp fd s (r.rdx.setWidth 32) (r.r10.setWidth 32)))) := by
  intro h
  obtain ⟨r1, log, c1, h1, h2⟩ := h exWorld _ _ exChild 32 ⟨1, 257, 0x700⟩ ⟨257, 7, 0x5000, 2, 0, 0, 0, 0x6fe⟩
    (txt "x/y") 12 exSetup rfl rfl rfl (by decide +kernel) exReady (.given 12 (by decide) rfl (by decide))
  obtain ⟨r', c', h3, h4, _⟩ := relative_openat_partial exSetup (n := 32) (s := txt "x/y") (fd := 12)
    (i := ⟨1, 257, 0x700⟩) (r := ⟨257, 7, 0x5000, 2, 0, 0, 0, 0x6fe⟩) rfl rfl rfl (by decide +kernel) exReady
    (.given 12 (by decide) rfl (by decide))
  rw [h3] at h1
  cases h1
  rw [h2] at h4
  revert h4
  decide

/-- A message that does make the host open something, so that `hostile_relative_openat` says something. -/
example : ((turn exWorld (fun a => if a = 0x18009 then 0x90 else if a = 0x1800a then 1 else if a = 0x19000 then 120 else 0)
    ⟨24, ⟨3, 24, 0x18000⟩, 12⟩).2.map (·.op)) = [.openat2 12 (some (txt "x")) 0 0 8, .close 12] := by
  decide +kernel

end Verif.RelEnd
