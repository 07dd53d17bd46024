import Verif.BsdAuthority.AnswersExact
import Verif.Authority.PathsExact

/-!
# Exactly what a sandbox on FreeBSD is told about its calls on files: specification and theorems (property C132)

As `Verif.Authority.PathsExact`.  On FreeBSD the kernel confines a path by itself, so every request that an export answers makes
one system call (`Verif.BsdPath`); the frames are laid out in another order.
-/

namespace Verif.BsdAuthority

open Verif.Bounds (Region)
open Verif.Callback (Packet Event Result)
open Verif.FileTree (Export ShortPaths specHistory runHistory)
open Verif.FileTree.Spec (Answers cut)
open Verif.Path.Spec (resolve)
open Verif.PathSyscall (Call)
open Verif.PathSyscall.Spec (join textOf)
open Verif.BsdPath (HostOp Log Kernel getPath)
open Verif.AddrInfo.Spec (leNat)
open Verif.Strings (MallocOk asNat)
open Verif.Authority (Lib frameSize frameSize_pos ofLe_eq invoke_frame inside_iff frame_eq copied_unique copied_string)
open Verif.Authority.Spec (Accepted Inside frameOf arg64 arg32 NoString Copied number)
open Verif.BsdAuthority.Spec

namespace Spec

/-- The 16-bit argument at the beginning of a frame: `mode_t` has two bytes on FreeBSD (`src/libsandbox.cc:414`, `:444`). -/
def arg16 (bs : List Byte) : BitVec 32 := .ofNat 32 (leNat (bs.take 2))

/-- A call and what the kernel says to it, after the calls in `log` (`src/libsandbox.cc:386-607`). -/
def calledAfter (k : Kernel) (log : Log) (op : HostOp) : Log := log ++ [⟨op, (k log op).1, (k log op).2⟩]

/-- The one system call for the names `rest` beneath the export `h`; 0x800000 and 0x2000 forbid to leave the directory
(`include/process_sandbox/platform/safe_syscalls-freebsd.h:23-47`, `src/libsandbox.cc:414-430`, `:580-606`). -/
def theCall (h : Int) (rest : List (List Byte)) : Call → HostOp
  | .open_ _ flags mode => if rest = [] then .dup h else .openat h (some (join rest)) (flags ||| 0x800000) mode
  | .access _ mode => .faccessat h (if rest = [] then none else some (join rest)) mode 0x2000
  | .stat _ sb => if rest = [] then .fstat h sb else .fstatat h (some (join rest)) sb 0x2000

/-- The number and the descriptor that are said about the result of that call (`src/libsandbox.cc:338-355`).  Beside a
descriptor the number is the default, `-ENOSYS`; the child does not look at it. -/
def saying : Call → Int × Int → Int × Int
  | .open_ _ _ _, x => if 0 ≤ x.1 then (-78, x.1) else (-x.2, -1)
  | _, x => (number x, -1)

/-- The structure for the result of a `stat` is in the heap (`src/libsandbox.cc:597`, `:374-383`). -/
def Room (hdr : Word) (r : Region) : Call → Prop
  | .stat _ sb => Inside hdr r sb 224
  | _ => True

/-- What is said about a request on a path, and the system calls for it, if its arguments are `c`
(`src/libsandbox.cc:385-431`, `:577-607`). -/
inductive PathTold (hist : List Export) (hdr : Word) (r : Region) (o : Outside) (c : Call) : Int → Int → Log → Prop where
  | noString : NoString hdr r (asNat o.path.1) c.path → PathTold hist hdr r o c (-22) (-1) []
  | climbs (text) : Copied hdr r (asNat o.path.1) (asNat o.path.2) c.path text → resolve [] (cut text) = none →
      PathTold hist hdr r o c (-22) (-1) []
  | absent (text names) : Copied hdr r (asNat o.path.1) (asNat o.path.2) c.path text → resolve [] (cut text) = some names →
      (∀ h rest, ¬ Answers (specHistory hist) names h rest) → PathTold hist hdr r o c (-2) (-1) []
  | noRoom (text names h rest) : Copied hdr r (asNat o.path.1) (asNat o.path.2) c.path text →
      resolve [] (cut text) = some names → Answers (specHistory hist) names h rest → ¬ Room hdr r c →
      PathTold hist hdr r o c (-22) (-1) []
  | carried (text names h rest) : Copied hdr r (asNat o.path.1) (asNat o.path.2) c.path text →
      resolve [] (cut text) = some names → Answers (specHistory hist) names h rest → Room hdr r c →
      PathTold hist hdr r o c (saying c (o.bsd [] (theCall h rest c))).1 (saying c (o.bsd [] (theCall h rest c))).2
        (calledAfter o.bsd [] (theCall h rest c))

/-- What is said about an `openat` whose frame is `bs`, and the system calls for it (`src/libsandbox.cc:437-445`). -/
inductive RelTold (hdr : Word) (r : Region) (o : Outside) (fd : Int) (bs : List Byte) : Int → Log → Prop where
  | asked (path : Option (List Byte)) (op : HostOp) :
      (path = none ∧ NoString hdr r (asNat o.path.1) (arg64 bs 8)) ∨
        (∃ text, path = some text ∧ Copied hdr r (asNat o.path.1) (asNat o.path.2) (arg64 bs 8) text) →
      op = .openat fd path (arg32 (bs.drop 16) ||| 0x800000) (arg16 (bs.drop 20)) →
      RelTold hdr r o fd bs (o.bsd [] op).1
        (if 0 ≤ fd then calledAfter o.bsd (calledAfter o.bsd [] op) (.close fd) else calledAfter o.bsd [] op)

/-- The arguments of a request on a path as they lie in its frame, in the order of libc++ (`src/libsandbox.cc:414`, `:580`,
`:596`; numbers: `include/process_sandbox/callback_numbers.h:26-41`). -/
def pathCall (n : Nat) (bs : List Byte) : Call :=
  if n = 0 then .open_ (arg64 bs 0) (arg32 (bs.drop 8)) (arg16 (bs.drop 12))
  else if n = 1 then .stat (arg64 bs 0) (arg64 bs 8)
  else .access (arg64 bs 0) (arg32 (bs.drop 8))

end Spec

variable {hdr : Word} {r : Region} {l : Lib} {o : Outside}

/-- The private copy, in the words of the specification. -/
theorem getPath_spec (hwf : r.WF hdr) (hm : MallocOk o.malloc) (a : Word) {b : Option Strings.Buf}
    (h : getPath (pathEnv hdr r l o) a = .ok b) :
    (b = none ∧ NoString hdr r (asNat o.path.1) a) ∨
    ∃ s, b = some s ∧ Copied hdr r (asNat o.path.1) (asNat o.path.2) a (textOf s) :=
  Authority.getPath_spec (l := l) (o := o.toLinux) hwf hm a h

theorem wantedOp_eq (h : Int) (rest : List (List Byte)) (c : Call) : BsdPath.wantedOp c h rest = theCall h rest c := by
  cases c <;> rfl

theorem serve_told (hwf : r.WF hdr) (hm : MallocOk o.malloc) {hist : List Export} (hs : ShortPaths hist)
    (ht : l.tree = runHistory hist) (c : Call) {res : Result} {log : Log}
    (he : BsdPath.serve (pathEnv hdr r l o) c = .ok (res, log)) :
    PathTold hist hdr r o c res.integer res.handle log := by
  have hp : ∃ b, getPath (pathEnv hdr r l o) c.path = .ok b := by
    cases hg : getPath (pathEnv hdr r l o) c.path with
    | ok b => exact ⟨b, rfl⟩
    | abort => exfalso; cases c <;> simp [BsdPath.serve, BsdPath.handlePath, Call.path] at he hg <;> rw [hg] at he <;> cases he
    | throws => exfalso; cases c <;> simp [BsdPath.serve, BsdPath.handlePath, Call.path] at he hg <;> rw [hg] at he <;> cases he
    | ub => exfalso; cases c <;> simp [BsdPath.serve, BsdPath.handlePath, Call.path] at he hg <;> rw [hg] at he <;> cases he
  obtain ⟨b, hb⟩ := hp
  rcases getPath_spec hwf hm c.path hb with ⟨rfl, hno⟩ | ⟨s, rfl, hc⟩
  · have : BsdPath.serve (pathEnv hdr r l o) c = .ok (⟨-22, -1⟩, []) := by
      cases c <;> simp only [BsdPath.serve, BsdPath.handlePath, Call.path] at hb ⊢ <;> rw [hb] <;> rfl
    rw [this] at he
    cases he
    exact .noString hno
  · have hp := fun handler => BsdPath.handlePath_eq (pathEnv hdr r l o) hist hs ht c.path s hb handler
    cases hr : resolve [] (cut (textOf s)) with
    | none =>
      have : BsdPath.serve (pathEnv hdr r l o) c = .ok (⟨-22, -1⟩, []) := by
        cases c <;> exact (hp _).1 hr
      rw [this] at he
      cases he
      exact .climbs _ hc hr
    | some names =>
      by_cases hex : ∃ h rest, Answers (specHistory hist) names h rest
      · obtain ⟨h, rest, ha⟩ := hex
        by_cases hroom : Room hdr r c
        · have hsv := BsdPath.bsd_served (pathEnv hdr r l o) hwf hist hs ht c s hb names hr h rest ha
            (fun a sb e => by subst e; exact hroom)
          simp only [wantedOp_eq] at hsv
          rw [hsv] at he
          have hw : ∀ x : Int × Int, ((BsdPath.wantedResult c x).integer, (BsdPath.wantedResult c x).handle) = saying c x := by
            intro x
            cases c with
            | open_ a flags mode => simp only [BsdPath.wantedResult, saying]; split <;> rfl
            | access a mode => rfl
            | stat a sb => rfl
          have h1 := congrArg Prod.fst (hw (o.bsd [] (theCall h rest c)))
          have h2 := congrArg Prod.snd (hw (o.bsd [] (theCall h rest c)))
          simp only at h1 h2
          cases he
          have hc' := PathTold.carried (hist := hist) (o := o) (c := c) _ names h rest hc hr ha hroom
          rw [← h1, ← h2] at hc'
          exact hc'
        · cases c with
          | open_ a flags mode => exact absurd trivial hroom
          | access a mode => exact absurd trivial hroom
          | stat a sb =>
            simp only [BsdPath.serve] at he
            have hp := ((hp (BsdPath.statBody (pathEnv hdr r l o) sb)).2 names hr).2 h rest ha
            simp only [Call.path] at hp
            rw [hp, BsdPath.statBody] at he
            have hin : ¬ Bounds.contains hdr r sb (BitVec.ofNat 64 BsdPath.statSize) = true := by
              rw [show BsdPath.statSize = 224 from rfl, inside_iff hwf sb 224 (by omega) (by omega)]
              exact hroom
            rw [show (pathEnv hdr r l o).hdr = hdr from rfl, show (pathEnv hdr r l o).region = r from rfl, if_neg hin] at he
            cases he
            exact .noRoom _ names h rest hc hr ha hroom
      · have hall : ∀ h rest, ¬ Answers (specHistory hist) names h rest := fun h rest ha => hex ⟨h, rest, ha⟩
        have : BsdPath.serve (pathEnv hdr r l o) c = .ok (⟨-2, -1⟩, []) := by
          cases c <;> exact ((hp _).2 names hr).1 hall
        rw [this] at he
        cases he
        exact .absent _ names hc hr hall

/-- The reply to a message of a built-in kind: the code's own if the frame is not accepted, otherwise the handler's. -/
theorem builtin_reply (hdr : Word) (regs : Nat → Region) (hregs : ∀ i, (regs i).WF hdr)
    (as : List Action) (hfew : ∀ i, (handlersFor i as).length + 7 ≤ 2 ^ 31 - 1) (k i : Nat) (o : Outside) (p : Packet)
    (hk : as[k]? = some (.message i o p)) (n : Nat) (h7 : n < 7) (hkind : p.req.kind.toNat = n)
    (es : List Event) (e : Effects) (hs : (runAll hdr regs start as).1[k]? = some (.handled (.ok es) e))
    (x h : Int) (hx : Event.replied x h ∈ es) :
    ∃ l, Holds l i (as.take k) ∧
      ((¬ Accepted hdr (regs i) p (frameSize n) ∧ x = -78 ∧ h = -1 ∧ e = {}) ∨
       (Accepted hdr (regs i) p (frameSize n) ∧
        builtin hdr (regs i) l o n (frameOf o.toLinux p (frameSize n)) p.fd = (.ok ⟨x, h⟩, e))) := by
  obtain ⟨l, hl, he⟩ := at_message hdr regs as hfew k i o p hk
  refine ⟨l, hl, ?_⟩
  have hwf := hregs i
  rw [he] at hs
  simp only [Option.some.injEq, Seen.handled.injEq] at hs
  obtain ⟨h1, h2⟩ := hs
  have hd : Callback.dispatch l.table.handlers p.req.kind = some (.builtin n) := by
    rw [hl.table, Callback.dispatch_tableOf, Callback.Spec.handlerFor, if_pos (by omega), hkind]
  have hpos := frameSize_pos n
  have h64 : frameSize n < 2 ^ 64 := by unfold frameSize; split <;> decide
  unfold handle at h1 h2
  by_cases hlen : p.len < Callback.requestSize
  · rw [if_pos hlen] at h1; cases h1; cases hx
  rw [if_neg hlen] at h1 h2
  simp only [hd] at h1 h2
  have hres : run hdr (regs i) l o (.builtin n) p.req p.fd = (.ok ⟨x, h⟩, e) := by
    rcases hr : run hdr (regs i) l o (.builtin n) p.req p.fd with ⟨y, e'⟩
    rw [hr] at h1 h2
    cases y with
    | ok res =>
      cases h1
      cases h2
      simp only [List.mem_cons, List.not_mem_nil, or_false, reduceCtorEq, false_or] at hx
      split at hx
      · cases hx; rfl
      · cases hx
    | abort => cases h1
    | throws => cases h1
    | ub => cases h1
  unfold run at hres
  simp only [show (behind hdr (regs i) l o (.builtin n)).1 = frameSize n from rfl,
    show (behind hdr (regs i) l o (.builtin n)).2 = builtin hdr (regs i) l o n from rfl] at hres
  have hf := invoke_frame (o := o.toLinux) hwf p (frameSize n) hpos h64
    (fun bs f => (builtin hdr (regs i) l o n bs f).1)
  by_cases hacc : Accepted hdr (regs i) p (frameSize n)
  · refine .inr ⟨hacc, ?_⟩
    have ha : (Callback.invoke hdr (regs i) (frameSize n)
        (fun bs f => (builtin hdr (regs i) l o n bs f).1) o.frame p.req p.fd).2 =
        Callback.copyAddrs p.req.data (frameSize n) := by
      obtain ⟨a1, a2⟩ := hacc
      have hsz : p.req.size = BitVec.ofNat 64 (frameSize n) := by
        apply BitVec.eq_of_toNat_eq; rw [a1]; simp; omega
      unfold Callback.invoke
      rw [if_neg (by simpa using hsz), if_neg (by rw [hsz, (inside_iff hwf p.req.data _ hpos h64).2 a2]; decide)]
    have hne : Callback.copyAddrs p.req.data (frameSize n) ≠ [] := by
      intro h
      have := Callback.copyAddrs_length p.req.data (frameSize n)
      rw [h, List.length_nil] at this
      omega
    rw [ha, if_neg hne, hf.1 hacc, frame_eq] at hres
    exact hres
  · refine .inl ⟨hacc, ?_⟩
    rw [Callback.invoke_refuses hdr (regs i) hwf _ h64 _ o.frame p.req p.fd hacc] at hres
    cases hres
    exact ⟨rfl, rfl, rfl⟩

theorem frameOf_length (o : Authority.Outside) (p : Packet) (n : Nat) : (frameOf o p n).length = n := by
  rw [← frame_eq, List.length_map, Callback.copyAddrs_length]

/-- **C132.** Exactly what a sandbox is told about `open`, `stat` and `access`, and which system calls the host makes for them:
`ENOSYS` and none if the frame is not accepted; otherwise as the exports to this sandbox, and the kernel, have it. -/
theorem bsd_path_told (hdr : Word) (regs : Nat → Region) (hregs : ∀ i, (regs i).WF hdr)
    (as : List Action) (hshort : ∀ i, ShortPaths (exportsTo i as))
    (hfew : ∀ i, (handlersFor i as).length + 7 ≤ 2 ^ 31 - 1) (k i : Nat) (o : Outside) (p : Packet)
    (hk : as[k]? = some (.message i o p)) (hm : MallocOk o.malloc) (h3 : p.req.kind.toNat < 3)
    (es : List Event) (e : Effects) (hs : (runAll hdr regs start as).1[k]? = some (.handled (.ok es) e))
    (x h : Int) (hx : Event.replied x h ∈ es) :
    (¬ Accepted hdr (regs i) p 16 ∧ x = -78 ∧ h = -1 ∧ e = {}) ∨
    (Accepted hdr (regs i) p 16 ∧ ∃ log, e = { log := log } ∧
      PathTold (exportsTo i (as.take k)) hdr (regs i) o (pathCall p.req.kind.toNat (frameOf o.toLinux p 16)) x h log) := by
  have hwf := hregs i
  have hst : ShortPaths (exportsTo i (as.take k)) := by
    have h : exportsTo i (as.take k ++ as.drop k) = exportsTo i (as.take k) ++ exportsTo i (as.drop k) :=
      List.filterMap_append
    rw [List.take_append_drop] at h
    intro e he
    exact hshort i e (by rw [h]; exact List.mem_append_left _ he)
  obtain ⟨l, hl, hr⟩ := builtin_reply hdr regs hregs as hfew k i o p hk _ (by omega) rfl es e hs x h hx
  have h16 : frameSize p.req.kind.toNat = 16 := by
    generalize p.req.kind.toNat = n at h3
    match n, h3 with
    | 0, _ => rfl
    | 1, _ => rfl
    | 2, _ => rfl
  rw [h16] at hr
  rcases hr with hr | ⟨hacc, hr⟩
  · exact .inl hr
  · refine .inr ⟨hacc, ?_⟩
    have hd : BsdEnd.decode p.req.kind.toNat (frameOf o.toLinux p 16) =
        some (pathCall p.req.kind.toNat (frameOf o.toLinux p 16)) := by
      have hlen := frameOf_length o.toLinux p 16
      have ht : ((frameOf o.toLinux p 16).drop 8).take 8 = (frameOf o.toLinux p 16).drop 8 :=
        List.take_of_length_le (by rw [List.length_drop, hlen]; omega)
      generalize p.req.kind.toNat = n at h3
      match n, h3 with
      | 0, _ => simp only [BsdEnd.decode, pathCall, arg64, arg32, arg16, ofLe_eq, if_true, List.drop_zero]
      | 1, _ => simp only [BsdEnd.decode, pathCall, arg64, ofLe_eq, ht, List.drop_zero, Nat.one_ne_zero, if_false, if_true]
      | 2, _ => simp only [BsdEnd.decode, pathCall, arg64, arg32, ofLe_eq, List.drop_zero]; rfl
    have hb : builtin hdr (regs i) l o p.req.kind.toNat (frameOf o.toLinux p 16) p.fd =
        logged (BsdPath.serve (pathEnv hdr (regs i) l o) (pathCall p.req.kind.toNat (frameOf o.toLinux p 16))) := by
      unfold builtin
      rw [hd]
    rw [hb] at hr
    cases hsv : BsdPath.serve (pathEnv hdr (regs i) l o) (pathCall p.req.kind.toNat (frameOf o.toLinux p 16)) with
    | ok y =>
      obtain ⟨res, log⟩ := y
      rw [hsv] at hr
      cases hr
      exact ⟨log, rfl, serve_told hwf hm hst hl.tree _ hsv⟩
    | abort => rw [hsv] at hr; cases hr
    | throws => rw [hsv] at hr; cases hr
    | ub => rw [hsv] at hr; cases hr

/-- **C132.** Exactly what a sandbox is told about `openat`, and which system calls the host makes for it. -/
theorem bsd_openat_told (hdr : Word) (regs : Nat → Region) (hregs : ∀ i, (regs i).WF hdr)
    (as : List Action) (hfew : ∀ i, (handlersFor i as).length + 7 ≤ 2 ^ 31 - 1) (k i : Nat) (o : Outside) (p : Packet)
    (hk : as[k]? = some (.message i o p)) (hm : MallocOk o.malloc) (h3 : p.req.kind.toNat = 3)
    (es : List Event) (e : Effects) (hs : (runAll hdr regs start as).1[k]? = some (.handled (.ok es) e))
    (x h : Int) (hx : Event.replied x h ∈ es) : h = -1 ∧
    ((¬ Accepted hdr (regs i) p 24 ∧ x = -78 ∧ e = {}) ∨
     (Accepted hdr (regs i) p 24 ∧ ∃ log, e = { log := log } ∧
      RelTold hdr (regs i) o p.fd (frameOf o.toLinux p 24) x log)) := by
  have hwf := hregs i
  obtain ⟨l, hl, hr⟩ := builtin_reply hdr regs hregs as hfew k i o p hk 3 (by omega) h3 es e hs x h hx
  rw [show frameSize 3 = 24 from rfl] at hr
  rcases hr with ⟨h1, h2, h4, h5⟩ | ⟨hacc, hr⟩
  · exact ⟨h4, .inl ⟨h1, h2, h5⟩⟩
  · simp only [builtin, BsdEnd.decode, BsdPath.handleOpenat] at hr
    have e1 : BsdRel.pathArg (frameOf o.toLinux p 24) = arg64 (frameOf o.toLinux p 24) 8 := by
      unfold BsdRel.pathArg arg64; rw [ofLe_eq]
    have e2 : BsdRel.flagsArg (frameOf o.toLinux p 24) = arg32 ((frameOf o.toLinux p 24).drop 16) := by
      unfold BsdRel.flagsArg arg32; rw [ofLe_eq]
    have e3 : BsdRel.modeArg (frameOf o.toLinux p 24) = arg16 ((frameOf o.toLinux p 24).drop 20) := by
      unfold BsdRel.modeArg arg16; rw [ofLe_eq]
    rw [e1, e2, e3] at hr
    cases hg : getPath (pathEnv hdr (regs i) l o) (arg64 (frameOf o.toLinux p 24) 8) with
    | ok b =>
      rw [hg] at hr
      simp only [logged] at hr
      cases hr
      refine ⟨rfl, .inr ⟨hacc, _, rfl, ?_⟩⟩
      have hb := getPath_spec hwf hm _ hg
      exact .asked (b.map Strings.cText) _ (by
        rcases hb with ⟨rfl, hn⟩ | ⟨s, rfl, hc⟩
        · exact .inl ⟨rfl, hn⟩
        · exact .inr ⟨textOf s, by rw [Option.map_some, PathSyscall.cText_eq_textOf], hc⟩) rfl
    | abort => rw [hg] at hr; cases hr
    | throws => rw [hg] at hr; cases hr
    | ub => rw [hg] at hr; cases hr

/-- What is said about a request on a path, and what is called for it, is settled by the memory, the kernel and the exports. -/
theorem pathTold_unique {hist : List Export} (hs : ShortPaths hist) {c : Call} {x y d f : Int} {log log' : Log}
    (hx : PathTold hist hdr r o c x d log) (hy : PathTold hist hdr r o c y f log') : x = y ∧ d = f ∧ log = log' := by
  cases hx with
  | noString h =>
    cases hy with
    | noString => exact ⟨rfl, rfl, rfl⟩
    | climbs _ g => exact (copied_string g h).elim
    | absent _ _ g => exact (copied_string g h).elim
    | noRoom _ _ _ _ g => exact (copied_string g h).elim
    | carried _ _ _ _ g => exact (copied_string g h).elim
  | climbs s h1 h2 =>
    cases hy with
    | noString g => exact (copied_string h1 g).elim
    | climbs => exact ⟨rfl, rfl, rfl⟩
    | absent t names g1 g2 => cases copied_unique h1 g1; rw [h2] at g2; cases g2
    | noRoom => exact ⟨rfl, rfl, rfl⟩
    | carried t names _ _ g1 g2 => cases copied_unique h1 g1; rw [h2] at g2; cases g2
  | absent s names h1 h2 h3 =>
    cases hy with
    | noString g => exact (copied_string h1 g).elim
    | climbs t g1 g2 => cases copied_unique h1 g1; rw [h2] at g2; cases g2
    | absent => exact ⟨rfl, rfl, rfl⟩
    | noRoom t names' h rest g1 g2 g3 => cases copied_unique h1 g1; rw [h2] at g2; cases g2; exact (h3 _ _ g3).elim
    | carried t names' h rest g1 g2 g3 => cases copied_unique h1 g1; rw [h2] at g2; cases g2; exact (h3 _ _ g3).elim
  | noRoom s names h rest h1 h2 h3 h4 =>
    cases hy with
    | noString => exact ⟨rfl, rfl, rfl⟩
    | climbs => exact ⟨rfl, rfl, rfl⟩
    | absent t names' g1 g2 g3 => cases copied_unique h1 g1; rw [h2] at g2; cases g2; exact (g3 _ _ h3).elim
    | noRoom => exact ⟨rfl, rfl, rfl⟩
    | carried t names' h' rest' g1 g2 g3 g4 => exact absurd g4 h4
  | carried s names h rest h1 h2 h3 h4 =>
    cases hy with
    | noString g => exact (copied_string h1 g).elim
    | climbs t g1 g2 => cases copied_unique h1 g1; rw [h2] at g2; cases g2
    | absent t names' g1 g2 g3 => cases copied_unique h1 g1; rw [h2] at g2; cases g2; exact (g3 _ _ h3).elim
    | noRoom t names' h' rest' g1 g2 g3 g4 => exact absurd h4 g4
    | carried t names' h' rest' g1 g2 g3 g4 =>
      cases copied_unique h1 g1
      rw [h2] at g2
      cases g2
      obtain ⟨rfl, rfl⟩ := Run.answers_unique hs h3 g3
      exact ⟨rfl, rfl, rfl⟩

/-- So is what is said about an `openat`. -/
theorem relTold_unique {fd : Int} {bs : List Byte} {x y : Int} {log log' : Log}
    (hx : RelTold hdr r o fd bs x log) (hy : RelTold hdr r o fd bs y log') : x = y ∧ log = log' := by
  obtain ⟨p, op, h1, rfl⟩ := hx
  obtain ⟨q, op', g1, rfl⟩ := hy
  have : p = q := by
    rcases h1 with ⟨rfl, h⟩ | ⟨s, rfl, h⟩ <;> rcases g1 with ⟨rfl, g⟩ | ⟨t, rfl, g⟩
    · rfl
    · exact (copied_string g h).elim
    · exact (copied_string h g).elim
    · rw [copied_unique h g]
  subst this
  exact ⟨rfl, rfl⟩

/-! ### Examples -/

/-- Sandbox 0 gets a descriptor for its `open`, by virtue of what was exported to it. -/
example : ∃ log, PathTold (exportsTo 0 (exActs.take 3)) Rpc.exCfg.hdr (exRegs 0) (exOut (Rpc.exMap 0).base)
    (pathCall 0 (frameOf (exOut (Rpc.exMap 0).base).toLinux ⟨24, ⟨0, 16, (Rpc.exMap 0).base + 0x1000⟩, -1⟩ 16)) (-78) 9 log := by
  obtain ⟨h1, h2, h3, h4, h5⟩ := exActs_ok
  obtain ⟨es, e, ha, -, hb⟩ := bsd_every_message_answered _ _ exRegs_wf exActs h2 h3 3 0 _ _ rfl (h5 _)
  obtain ⟨x, h, rfl⟩ := hb (Nat.le_refl 24)
  have hx : Event.replied x h ∈ [Event.received ⟨0, 16, (Rpc.exMap 0).base + 0x1000⟩ (-1), .replied x h] := by simp
  have hl : ((runAll Rpc.exCfg.hdr exRegs start exActs).1[3]?).bind replyOf = some (-78, 9) := by decide +kernel
  rw [ha] at hl
  cases hl
  rcases bsd_path_told _ _ exRegs_wf exActs h1 h2 3 0 _ _ rfl
    (fun n b hb => by cases hb; exact List.length_replicate) (by decide) _ e ha _ _ hx with ⟨-, -, h, -⟩ | ⟨-, log, -, h⟩
  · cases h
  · exact ⟨log, h⟩

/-- The `openat` of sandbox 1 gives it the number of a descriptor of the host. -/
example : ∃ log, RelTold Rpc.exCfg.hdr (exRegs 1) (exOut (Rpc.exMap 1).base) 6
    (frameOf (exOut (Rpc.exMap 1).base).toLinux ⟨24, ⟨3, 24, (Rpc.exMap 1).base + 0x1000⟩, 6⟩ 24) 9 log := by
  obtain ⟨h1, h2, h3, h4, h5⟩ := exActs_ok
  obtain ⟨es, e, ha, -, hb⟩ := bsd_every_message_answered _ _ exRegs_wf exActs h2 h3 9 1 _ _ rfl (h5 _)
  obtain ⟨x, h, rfl⟩ := hb (Nat.le_refl 24)
  have hx : Event.replied x h ∈ [Event.received ⟨3, 24, (Rpc.exMap 1).base + 0x1000⟩ 6, .replied x h] := by simp
  have hl : ((runAll Rpc.exCfg.hdr exRegs start exActs).1[9]?).bind replyOf = some (9, -1) := by decide +kernel
  rw [ha] at hl
  cases hl
  obtain ⟨-, ⟨-, h, -⟩ | ⟨-, log, -, h⟩⟩ := bsd_openat_told _ _ exRegs_wf exActs h2 9 1 _ _ rfl
    (fun n b hb => by cases hb; exact List.length_replicate) (by decide) _ e ha _ _ hx
  · cases h
  · exact ⟨log, h⟩

end Verif.BsdAuthority
