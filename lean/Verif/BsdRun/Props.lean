import Verif.BsdRun.Spec

/-!
# Whole runs of a sandboxed program on FreeBSD: theorems
-/

namespace Verif.BsdRun

open Verif.Bounds (Region)
open Verif.Strings (asNat)
open Verif.Strings.Spec (CStringAt)
open Verif.FileTree (Export specHistory runHistory ShortPaths)
open Verif.FileTree.Spec (Answers cut)
open Verif.BsdPath (HostOp Entry Log Kernel)
open Verif.Net (Config Callee)
open Verif.ChildArgs (Child bytesAt Apart InHeap Object)
open Verif.Syscall (CInt Answer found)
open Verif.FreeBsd (Regs Info Call libc OnlyResult asks number getArg)
open Verif.EndToEnd (Want fdAnswer intAnswer Pool Outside)
open Verif.BsdEnd (Meant asksPath objects just)
open Verif.BsdNet (Makes asksNet)
open Verif.BsdRel (asksRel)
open Verif.NetEnd (Chosen given called)
open Verif.NameEnd (put put_in put_out asked)
open Verif.BsdName (looked)
open Verif.UserEnd (Registered Arrives told)
open Verif.Run (Same readString nameLength answers_unique apart_of outside_of same_bytes same_string put_same readString_eq
  take_of_take nameLength_eq asked_same off_toNat exOwn exConf)

/-! ### The meaning of a call is unique -/

theorem plain_just {k : Kernel} (hk : ∀ l op, k (plain l) (plainOp op) = k l op) (op : HostOp) :
    plain (just k op) = just k (plainOp op) := by
  have := hk [] op
  simp only [plain, List.map_nil] at this
  simp only [just, plain, List.map_cons, List.map_nil, this]

/-- **C127, what is not compared.**  Two system calls of the host count as the same exactly if they are, or differ only in the
address of the buffer of `fstat` or `fstatat`. -/
theorem plain_same_iff (a b : HostOp) : plainOp a = plainOp b ↔ a = b ∨
    (∃ fd s s', a = .fstat fd s ∧ b = .fstat fd s') ∨
    ∃ fd path flags s s', a = .fstatat fd path s flags ∧ b = .fstatat fd path s' flags := by
  cases a <;> cases b <;> grind [plainOp]

example : plainOp (.fstatat 5 none 0x18000 0x2000) = plainOp (.fstatat 5 none 0x18200 0x2000) ∧
    plainOp (.fstatat 5 none 0x18000 0x2000) ≠ plainOp (.fstatat 5 none 0x18000 0) := by decide

/-- **C127, one meaning.**  What a call on a path means is unique: the answer, and the host's calls apart from the address of
the buffer of `stat`. -/
theorem meant_unique {hist : List Export} (hs : ShortPaths hist) {k : Kernel} {recv : Int → BitVec 32} {s : List Byte}
    {want : Want} {ans ans' : Answer} {log log' : Log} (hk : ∀ l op, k (plain l) (plainOp op) = k l op)
    (h : Meant hist k recv s want ans log) (h' : Meant hist k recv s want ans' log') :
    ans = ans' ∧ plain log = plain log' := by
  have hf : ∀ h sb sb', k [] (.fstat h sb) = k [] (.fstat h sb') := fun h sb sb' => by
    rw [← hk [] (.fstat h sb), ← hk [] (.fstat h sb')]; rfl
  have hfa : ∀ p path sb sb' fl, k [] (.fstatat p path sb fl) = k [] (.fstatat p path sb' fl) :=
    fun p path sb sb' fl => by
      rw [← hk [] (.fstatat p path sb fl), ← hk [] (.fstatat p path sb' fl)]; rfl
  have hu := @answers_unique hist hs
  have hi : ∀ {a b : FileTree.Spec.Names} {o}, o = some a → o = some b → a = b :=
    fun h1 h2 => Option.some.inj (h1.symm.trans h2)
  have hstat : ∀ h sb sb', plain (just k (.fstat h sb)) = plain (just k (.fstat h sb')) := fun h sb sb' => by
    rw [plain_just hk, plain_just hk]; rfl
  have hstatat : ∀ p path sb sb' fl, plain (just k (.fstatat p path sb fl)) = plain (just k (.fstatat p path sb' fl)) :=
    fun p path sb sb' fl => by
      rw [plain_just hk, plain_just hk]; rfl
  cases h <;> cases h' <;> grind

/-! ### Registers and calls -/

/-- The registers are determined by what the C library reads and by those that are left alone. -/
theorem regs_unique {r r' : Regs} {a : Answer} (h : libc r' = found a) (ho : OnlyResult r r') : r' = after r a := by
  obtain ⟨rax, rdi, rsi, rdx, r10, r8, r9, rip, fl⟩ := r
  obtain ⟨rax', rdi', rsi', rdx', r10', r8', r9', rip', fl'⟩ := r'
  obtain ⟨rfl, rfl, rfl, rfl, rfl, rfl, rfl, hk⟩ := ho
  simp only at hk
  have hflag : ∀ b : Bool, fl'.getLsbD 0 = b → fl' = if b then fl ||| 1#64 else fl &&& ~~~1#64 := by
    intro b hb
    apply BitVec.eq_of_getLsbD_eq
    intro i hi
    by_cases h0 : i = 0
    · subst h0
      rw [hb]
      cases b <;> simp
    · rw [hk i h0]
      cases b
      · simp only [Bool.false_eq_true, if_false, BitVec.getLsbD_and, BitVec.getLsbD_not]
        simp [h0, hi]
      · simp [h0]
  unfold libc at h
  simp only at h
  cases hb : fl'.getLsbD 0 with
  | true =>
    rw [hb] at h
    simp only [if_true] at h
    cases a with
    | value v => cases h
    | descriptor f => cases h
    | error e =>
      simp only [found, Prod.mk.injEq, Option.some.injEq, true_and] at h
      have hf := hflag true hb
      simp only [if_true] at hf
      simp only [after, Regs.mk.injEq, true_and]
      exact ⟨by rw [← h]; simp, hf⟩
  | false =>
    rw [hb] at h
    have hf := hflag false hb
    simp only [Bool.false_eq_true, if_false] at h hf
    cases a with
    | value v =>
      simp only [found, Prod.mk.injEq, and_true] at h
      simp only [after, Regs.mk.injEq, true_and]
      exact ⟨by rw [← h, BitVec.ofInt_toInt], hf⟩
    | descriptor f =>
      simp only [found, Prod.mk.injEq, and_true] at h
      simp only [after, Regs.mk.injEq, true_and]
      exact ⟨by rw [← h, BitVec.ofInt_toInt], hf⟩
    | error e => simp [found] at h

theorem makes_number {i : Info} {r : Regs} {cl : Call} (h : Makes i r cl) : number i r = cl.nr := by
  rcases h with ⟨code, h1, rfl⟩ | ⟨h1, rfl⟩
  · exact FreeBsd.number_asks h1 r
  · simp only [number, h1]
    rfl

theorem makes_args {i : Info} {r : Regs} {cl : Call} (h : Makes i r cl) (n : Nat) (hn : n ≤ 5) :
    FreeBsd.extractArgs i r n = .ok (cl.args.take n) := by
  rcases h with ⟨code, h1, rfl⟩ | ⟨h1, rfl⟩
  · exact FreeBsd.extract_asks h1 r n hn
  · exact FreeBsd.extract_old h1 r n hn

theorem makes_arg {i : Info} {r : Regs} {cl : Call} (h : Makes i r cl) {k : Nat} {p : Word} (hk : k < 5)
    (hp : cl.args[k]? = some p) : getArg i r k = .ok p := by
  have h1 := makes_args h (k + 1) (by omega)
  have h2 := makes_args h k (by omega)
  rw [FreeBsd.extractArgs] at h1
  have he : cl.args.take (k + 1) = cl.args.take k ++ [p] := by
    rw [List.take_add_one, hp]
    rfl
  rcases hg : getArg i r k with w | _ | _ | _
  · rw [hg] at h1
    simp only [h2, he] at h1
    have := Outcome.ok.inj h1
    simp only [List.append_cancel_left_eq, List.cons.injEq, and_true] at this
    rw [this]
  all_goals
    rw [hg] at h1
    cases h1

theorem asks_path {cl : Call} {want : Want} {path sb : Word} (h : asksPath cl = some (want, path, sb)) :
    cl.args[0]? = some path ∧ (cl.nr = 5 ∨ cl.nr = 188 ∨ cl.nr = 33) := by
  obtain ⟨nr, args⟩ := cl
  simp only [asksPath] at h
  repeat' split at h
  all_goals first
    | contradiction
    | (simp only [Option.some.injEq, Prod.mk.injEq] at h; simp_all)

theorem asks_rel {cl : Call} {dir flags mode : CInt} {path : Word} (h : asksRel cl = some (dir, path, flags, mode)) :
    cl.args[1]? = some path ∧ cl.nr = 499 := by
  obtain ⟨nr, args⟩ := cl
  simp only [asksRel] at h
  repeat' split at h
  all_goals first
    | contradiction
    | (simp only [Option.some.injEq, Prod.mk.injEq] at h; simp_all)

theorem asks_net {cl : Call} {op : Net.Op} {s len : CInt} {addr : Word} (h : asksNet cl = some (op, s, addr, len)) :
    cl.nr = 104 ∨ cl.nr = 98 := by
  obtain ⟨nr, args⟩ := cl
  simp only [asksNet] at h
  repeat' split at h
  all_goals first
    | contradiction
    | simp_all

theorem pathArg_path {i : Info} {r : Regs} {cl : Call} (hm : Makes i r cl) {want : Want} {path sb : Word}
    (h : asksPath cl = some (want, path, sb)) : pathArg i r = path := by
  obtain ⟨h1, h2⟩ := asks_path h
  have hn : ¬ number i r = 499 := by
    rw [makes_number hm]
    rcases h2 with h | h | h <;> rw [h] <;> decide
  rw [pathArg, if_neg hn, makes_arg hm (by omega) h1]

theorem pathArg_rel {i : Info} {r : Regs} {cl : Call} (hm : Makes i r cl) {dir flags mode : CInt} {path : Word}
    (h : asksRel cl = some (dir, path, flags, mode)) : pathArg i r = path := by
  obtain ⟨h1, h2⟩ := asks_rel h
  rw [pathArg, if_pos (by rw [makes_number hm, h2]), makes_arg hm (by omega) h1]

/-- A call on a path, on systems with and without `si_syscall`. -/
theorem path_works {w : BsdEnd.World} {hist : List Export} {users : List Nat} (hw : BsdEnd.Setup w hist users) {c : Child}
    {n : Nat} {i : Info} {r : Regs} {cl : Call} {want : Want} {path sb : Word} {s : List Byte}
    (hcode : i.code = FreeBsd.trapCap) (hm : Makes i r cl) (hcall : asksPath cl = some (want, path, sb))
    (hr : BsdEnd.Ready w c n want path sb s) : BsdEnd.Works w hist c n i r want sb s := by
  rcases hm with ⟨code, hi, rfl⟩ | ⟨hi, rfl⟩
  · exact BsdEnd.bsd_end_to_end_partial hw hcode hi hcall hr
  · exact BsdEnd.bsd_end_to_end_old_partial hw hcode hi hcall hr

/-- `openat` of an absolute path, on systems with and without `si_syscall`. -/
theorem openat_works {w : BsdEnd.World} {hist : List Export} {users : List Nat} (hw : BsdEnd.Setup w hist users) {c : Child}
    {n : Nat} {i : Info} {r : Regs} {cl : Call} {dir flags mode : CInt} {path : Word} {s : List Byte}
    (hcode : i.code = FreeBsd.trapCap) (hm : Makes i r cl) (hcall : asksRel cl = some (dir, path, flags, mode))
    (hstr : w.str path = some s) (habs : s.head? = some 47)
    (hr : BsdEnd.Ready w c n (.open_ flags mode) path 0 s) :
    BsdEnd.Works w hist c n i r (.open_ flags mode) 0 s := by
  obtain ⟨nr, args⟩ := cl
  have hcl : ∃ d f m l, args = d :: path :: f :: m :: l ∧ nr = 499 ∧ flags = f.setWidth 32 ∧
      mode = (m.setWidth 16).setWidth 32 := by
    simp only [asksRel] at hcall
    split at hcall
    · rename_i d p f m l
      split at hcall
      · rename_i hnr
        simp only [Option.some.injEq, Prod.mk.injEq] at hcall
        obtain ⟨-, rfl, rfl, rfl⟩ := hcall
        exact ⟨d, f, m, l, rfl, hnr, rfl, rfl⟩
      · cases hcall
    · cases hcall
  obtain ⟨d, f, m, l, rfl, rfl, rfl, rfl⟩ := hcl
  obtain ⟨rep, log, c', ans, h1, h2, h3, h4, h5, h6, h7⟩ := BsdEnd.gives hw hr (by
    intro _ _ e
    cases e
    simp only [BitVec.toNat_setWidth]
    omega)
  have hz : path ≠ 0 := (hr.objs (path, s.length + 1) (by simp [objects])).1.1
  have hhost : BsdEnd.hostOf w c s.length (EndToEnd.reqOf path 0 (.open_ (f.setWidth 32) ((m.setWidth 16).setWidth 32))) = rep := by
    rw [BsdEnd.hostOf, h1]
  have ha : FreeBsd.callEntry ⟨BsdEnd.hostOf w c s.length, w.pid, w.str, fun f => f⟩ 3
      ((⟨499, d :: path :: f :: m :: l⟩ : Call).args.take (FreeBsd.arity 3)) =
      .ok ⟨BitVec.ofInt 32 (Syscall.asInt ans),
        [⟨0, [.cstr path, .int (f.setWidth 32), .int ((m.setWidth 16).setWidth 32)], -1⟩]⟩ := by
    simp only [FreeBsd.arity, List.take, FreeBsd.callEntry, FreeBsd.openat, if_neg hz, hstr, habs, if_true]
    refine congrArg Outcome.ok (Syscall.helper_arrives h3 ?_)
    simp only [EndToEnd.reqOf] at hhost
    simp only [FreeBsd.toMode, Syscall.toInt, hhost]
    exact h4
  have he : FreeBsd.emulate ⟨BsdEnd.hostOf w c s.length, w.pid, w.str, fun f => f⟩ i r =
      .ok (FreeBsd.resumed r (BitVec.ofInt 32 (Syscall.asInt ans)),
        [⟨0, [.cstr path, .int (f.setWidth 32), .int ((m.setWidth 16).setWidth 32)], -1⟩]) := by
    rw [FreeBsd.emulate, if_pos hcode, FreeBsd.dispatch_hit (n := 3) (by rw [makes_number hm]; rfl)
      (makes_args hm _ (by decide)) ha (Syscall.proper_ne_min h3 (Syscall.toInt_asInt h3)) (by omega)]
  refine ⟨FreeBsd.resumed r (BitVec.ofInt 32 (Syscall.asInt ans)), log, c', ans, ?_, h2, FreeBsd.libc_resumed h3 r,
    FreeBsd.resumed_only r _, h5, h6, h7⟩
  rw [BsdEnd.trap, he]
  simp only [EndToEnd.reqOf] at h1
  simp only [h1]

/-! ### One call -/

theorem now_setup {W : Worlds} {H : Host} {S : Word → Prop} (hf : Fixed W H S) (past : List Event) (m : Mem) :
    UserEnd.Setup (now W past m).toUser (H.exports (past.map Event.plain)) (H.users (past.map Event.plain))
      (H.conf (past.map Event.plain)) := by
  have h := hf.setup (past.map Event.plain)
  exact { h with base := { h.base with base := { h.base.base with } } }

theorem pool_of {W : Worlds} {S : Word → Prop} {n k : Nat} {live bs : List Word} (hb : Blocks W S n live bs)
    (past : List Event) (m m' : Mem) {objs : List (Word × Nat)} {j : Nat} (hj : j ≤ 32) (hk : k ≤ 5)
    (ho : ∀ o ∈ objs, ∀ i, i < o.2 → ¬ S (o.1 + BitVec.ofNat 64 i)) :
    Pool (now W past m).toNet.toWorld n ⟨m', live, bs⟩ (((now W past m).sp, j) :: objs) k where
  enough := Nat.le_trans hk hb.enough
  heap := fun p hp => hb.heap _ p (take_of_take hk hp)
  apart := by
    intro p hp o ho'
    rcases List.mem_cons.1 ho' with rfl | h
    · exact fun a b ha hb' => hb.frame (past.map Event.plain) p (take_of_take hk hp) a b ha (by simp only at hb'; omega)
    · exact EndToEnd.apart_symm (apart_of (ho o h) (hb.own p (take_of_take hk hp)))
  pairwise := by
    refine hb.pairwise.sublist ?_
    have : bs.take k = (bs.take 5).take k := by rw [List.take_take, Nat.min_eq_left hk]
    rw [this]
    exact List.take_sublist _ _

theorem object_mono {w : World} {hist : List Export} {users : List Nat} {conf : List Config}
    (hw : UserEnd.Setup w.toUser hist users conf) {p : Word} {n k : Nat} (h : Object w.hdr w.region w.bounds p n)
    (hn : n < 2 ^ 64) (hk : k ≤ n) : Object w.hdr w.region w.bounds p k := by
  refine ⟨h.1, ?_⟩
  rcases h.2 with h | h
  · exact .inl (EndToEnd.inHeap_mono hw.base.base h hn hk)
  · refine .inr ⟨?_, ?_⟩
    · have := h.1; omega
    · have := h.2; omega

theorem now_at {W : Worlds} {s : State} {t : Ideal} (h : s.past.map Event.plain = t.past) (m : Mem) :
    (now W s.past m).toNet.toWorld = { (W t.past).toNet.toWorld with str := readString m (2 ^ 64) } := by
  simp only [now, h]

theorem scratch_owned {W : Worlds} {H : Host} {S : Word → Prop} (hf : Fixed W H S) {n : Nat} {live bs : List Word}
    (hb : Blocks W S n live bs) (past : List Event) {j k : Nat} (hj : j ≤ 32) (hk : k ≤ 5) {x : Word} (hx : ¬ S x) :
    Outside (((W past).sp, j) :: (bs.take k).map (·, n)) x := by
  apply outside_of (S := S) _ hx
  intro o ho i hi
  rcases List.mem_cons.1 ho with rfl | h
  · exact (hf.stack past).2 i (by simp only at hi; omega)
  · obtain ⟨p, hp, rfl⟩ := List.mem_map.1 h
    exact hb.own p (take_of_take hk hp) i hi

/-- A call on a path is made properly. -/
theorem path_ready {W : Worlds} {H : Host} {S : Word → Prop} (hf : Fixed W H S) {n : Nat} (hn : 224 ≤ n ∧ n < 2 ^ 64)
    {live bs : List Word} (hb : Blocks W S n live bs) (past : List Event) {m m' : Mem} (hm : Same S m m') {want : Want}
    {path sb : Word} {text : List Byte} (ht : CStringAt (asNat m') path.toNat text)
    (ho : ∀ o ∈ objects want path sb text, Own (W (past.map Event.plain)) S n o) :
    BsdEnd.Ready (now W past m).path ⟨m, live, bs⟩ n want path sb text where
  room := ⟨(ho (path, text.length + 1) (by simp [objects])).2.1, hn⟩
  string := same_string hm (ho (path, text.length + 1) (by simp [objects])).2.2 ht
  objs := fun o h => ⟨(ho o h).1, apart_of (ho o h).2.2 fun i hi => (hf.stack (past.map Event.plain)).2 i (by omega)⟩
  stack := object_mono (hf.setup (past.map Event.plain)) (hf.stack _).1 (by omega) (by omega)
  pool := pool_of hb past m m (by omega) (by omega) fun o h => (ho o h).2.2

/-- The host's calls for a relative path put nothing into a buffer. -/
theorem rel_plain (k : Kernel) (fd : Int) (s : List Byte) (flags mode : BitVec 32) :
    plain (BsdRel.calls k fd s flags mode) = BsdRel.calls k fd s flags mode := by
  unfold BsdRel.calls
  split <;> rfl

/-- Nor do the memory afterwards, the answer and the calls. -/
theorem looked_same {S : Word → Prop} {w : NameEnd.World} (hl : ∀ i, i < 8 → ¬ S (w.localRes + BitVec.ofNat 64 i))
    {m m' : Mem} (h : Same S m m') (f : Option Callee) (q : AddrInfo.Query) (res : Word) :
    Same S (looked w f q res m).1 (looked w f q res m').1 ∧ (looked w f q res m).2 = (looked w f q res m').2 := by
  have hb := same_bytes h hl
  unfold looked
  cases f with
  | none => exact ⟨by rw [hb]; exact put_same h _ _, rfl⟩
  | some f =>
    simp only
    split
    · exact ⟨put_same (put_same (put_same h _ _) _ _) _ _, rfl⟩
    · exact ⟨by rw [hb]; exact put_same h _ _, rfl⟩

/-- **C127, one call.**  If the program, in the state of the ideal machine, makes a call properly, then the sandboxed
program makes the same call, it succeeds, and afterwards the two are alike again. -/
theorem step_alike {W : Worlds} {H : Host} {S : Word → Prop} (hf : Fixed W H S) {P : Program} (hP : Blind S P) {n : Nat}
    (hn : 224 ≤ n ∧ n < 2 ^ 64) {live bs : List Word} (hb : Blocks W S n live bs) {s : State} {t t' : Ideal}
    (ha : Alike S live s t) (ht : Step W H S n P t t') :
    ∃ s', step W P bs s = .ok (some s') ∧ Alike S live s' t' := by
  obtain ⟨⟨m0, live0, bs0⟩, regs, past⟩ := s
  obtain ⟨tm, tr, tp⟩ := t
  obtain ⟨hmem, hlive, hregs, hpast⟩ := ha
  simp only at hmem hlive hregs hpast
  subst hlive hregs hpast
  obtain ⟨hm1, hact⟩ := hP _ _ regs hmem
  have hs := now_setup hf past (P m0 regs).1
  have hshort := (hf.setup (past.map Event.plain)).base.base.short
  have hk := hf.kernel (past.map Event.plain)
  have hsp : BsdEnd.Setup (now W past (P m0 regs).1).path (H.exports (past.map Event.plain)) (H.users (past.map Event.plain)) :=
    ⟨hs.base.base, hf.bsd _, hf.bsdStat _⟩
  cases ht with
  | path m i r cl want path sb text ans log hp hcode hmk hask hstr hobj hmeant hplain =>
    simp only at hp hobj hmeant
    rw [hp] at hm1 hact
    simp only at hm1 hact
    have hr := path_ready hf hn hb past hm1 hstr hobj
    have hpath := pathArg_path hmk hask
    have hnr : number i r = 5 ∨ number i r = 188 ∨ number i r = 33 := by
      rw [makes_number hmk]; exact (asks_path hask).2
    have hne : number i r ≠ 499 := by rcases hnr with h | h | h <;> rw [h] <;> decide
    have hns : ¬ (number i r = 104 ∨ number i r = 98) := by rcases hnr with h | h | h <;> rw [h] <;> decide
    have hlen : pathLength (P m0 regs).1 i r = text.length := by
      rw [pathLength, hpath, readString_eq hr.string (by have := hr.room; omega)]
      rfl
    obtain ⟨r', log', c', ans', e1, e2, e3, e4, e6, e7, e8⟩ := path_works hsp hcode hmk hask hr
    obtain ⟨rfl, hlog⟩ := meant_unique hshort hk hmeant e2
    refine ⟨⟨c', r', past ++ [.host log']⟩, ?_, ?_, e6, regs_unique e3 e4, ?_⟩
    · simp only [step, hact, if_neg hns, if_neg (show ¬ isRelative (P m0 regs).1 i r from fun h => hne h.1), hlen, e1]
    · intro x hx
      have hout := scratch_owned hf hb (past.map Event.plain) (j := 16) (k := 3) (by omega) (by omega) hx
      have hst : ∀ l, ((now W past (P m0 regs).1).bsdStat l).length = 224 := hf.bsdStat (past.map Event.plain)
      have hbytes : (W (past.map Event.plain)).bsdStat log = (now W past (P m0 regs).1).bsdStat log' := by
        show _ = (W (past.map Event.plain)).bsdStat log'
        rw [← hf.stat _ log, hlog, hf.stat]
      simp only
      by_cases hw : want = .stat
      · subst hw
        by_cases hin : ∃ j, j < 224 ∧ x = sb + BitVec.ofNat 64 j
        · obtain ⟨j, hj, rfl⟩ := hin
          have hfill := e8 rfl
          have hsame : (P m0 regs).1 (sb + BitVec.ofNat 64 j) = m (sb + BitVec.ofNat 64 j) := hm1 _ hx
          cases ans with
          | value v =>
            have hv : bytesAt c'.mem sb 224 = (now W past (P m0 regs).1).bsdStat log' := hfill.1 ⟨v, rfl⟩
            simp only [stored]
            rw [put_in _ _ _ j (by rw [hbytes, hst]; exact hj) (by rw [hbytes, hst]; decide)]
            have := EndToEnd.bytesAt_get (m := c'.mem) (a := sb) (n := 224) j (by rw [EndToEnd.bytesAt_length]; exact hj)
            rw [← this]
            simp only [hv, hbytes]
          | descriptor v =>
            have hv := hfill.2 (by simp)
            exact (EndToEnd.bytesAt_eq_get hv j hj).trans hsame
          | error e =>
            have hv := hfill.2 (by simp)
            exact (EndToEnd.bytesAt_eq_get hv j hj).trans hsame
        · have hns : ∀ j, j < 224 → x ≠ sb + BitVec.ofNat 64 j := fun j hj e => hin ⟨j, hj, e⟩
          have h1 := e7 x hout fun _ o ho j hj => by
            rw [List.mem_singleton] at ho
            subst ho
            exact hns j hj
          rw [h1]
          have h2 : stored m sb ((W (past.map Event.plain)).bsdStat log) .stat ans x = m x := by
            cases ans
            · exact put_out _ _ _ _ (by rw [hbytes, hst]; exact hns)
            · rfl
            · rfl
          rw [h2]
          exact hm1 x hx
      · have h1 := e7 x hout fun h => absurd h hw
        rw [h1]
        have h2 : stored m sb ((W (past.map Event.plain)).bsdStat log) want ans x = m x := by
          cases want
          · rfl
          · rfl
          · exact absurd rfl hw
        rw [h2]
        exact hm1 x hx
    · simp only [List.map_append, List.map_cons, List.map_nil, Event.plain, ← hlog, hplain]
  | openat m i r cl dir path flags mode text ans log hp hcode hmk hask hstr habs hobj hmeant hplain =>
    simp only at hp hobj hmeant
    rw [hp] at hm1 hact
    simp only at hm1 hact
    have hr := path_ready (sb := 0) (want := .open_ flags mode) hf hn hb past hm1 hstr
      (by intro o ho; simp only [objects, reduceCtorEq, if_false, List.mem_singleton] at ho; subst ho; exact hobj)
    have hpath := pathArg_rel hmk hask
    have hnr : number i r = 499 := by rw [makes_number hmk]; exact (asks_rel hask).2
    have hread : readString (P m0 regs).1 (2 ^ 64) path = some text :=
      readString_eq hr.string (by have := hr.room; omega)
    have hlen : pathLength (P m0 regs).1 i r = text.length := by
      rw [pathLength, hpath, hread]
      rfl
    obtain ⟨r', log', c', ans', e1, e2, e3, e4, e6, e7, -⟩ := openat_works hsp hcode hmk hask hread habs hr
    obtain ⟨rfl, hlog⟩ := meant_unique hshort hk hmeant e2
    refine ⟨⟨c', r', past ++ [.host log']⟩, ?_, ?_, e6, regs_unique e3 e4, ?_⟩
    · have hnrel : ¬ isRelative (P m0 regs).1 i r := fun h => h.2 (by rw [hpath, hread]; exact habs)
      simp only [step, hact, if_neg (show ¬ (number i r = 104 ∨ number i r = 98) by rw [hnr]; decide), if_neg hnrel, hlen, e1]
    · intro x hx
      have hout := scratch_owned hf hb (past.map Event.plain) (j := 16) (k := 3) (by omega) (by omega) hx
      exact (e7 x hout nofun).trans (hm1 x hx)
    · simp only [List.map_append, List.map_cons, List.map_nil, Event.plain, ← hlog, hplain]
  | rel m i r cl dir path flags mode text fd hp hcode hmk hask hstr hrel hobj hdir =>
    simp only at hp hobj hdir
    rw [hp] at hm1 hact
    simp only at hm1 hact
    have hr0 := path_ready (sb := 0) (want := .open_ flags mode) hf hn hb past hm1 hstr
      (by intro o ho; simp only [objects, reduceCtorEq, if_false, List.mem_singleton] at ho; subst ho; exact hobj)
    have hpath := pathArg_rel hmk hask
    have hnr : number i r = 499 := by rw [makes_number hmk]; exact (asks_rel hask).2
    have hread : readString (P m0 regs).1 (2 ^ 64) path = some text :=
      readString_eq hr0.string (by have := hr0.room; omega)
    have hlen : pathLength (P m0 regs).1 i r = text.length := by
      rw [pathLength, hpath, hread]
      rfl
    have hset : BsdRel.Setup (now W past (P m0 regs).1).rel (H.exports (past.map Event.plain))
        (H.users (past.map Event.plain)) :=
      ⟨hs.base.base, hs.base.pad1, hs.base.pad2, hf.bsd _, hf.fails (past.map Event.plain)⟩
    have hr : BsdRel.Ready (now W past (P m0 regs).1).rel ⟨(P m0 regs).1, live0, bs⟩ n path text :=
      { room := ⟨hobj.2.1, by omega, hn.2⟩
        string := hr0.string
        object := hobj.1
        apart := apart_of hobj.2.2 fun i hi => (hf.stack (past.map Event.plain)).2 i (by omega)
        stack := object_mono (hf.setup (past.map Event.plain)) (hf.stack _).1 (by omega) (by omega)
        pool := pool_of hb past _ _ (by omega) (by omega) (by
          intro o ho; rw [List.mem_singleton] at ho; subst ho; exact hobj.2.2) }
    have hdir' : BsdRel.Directory (now W past (P m0 regs).1).rel dir fd := by
      cases hdir with
      | given h h1 h2 h3 => exact .given _ h1 h2 h3
      | none h1 => exact .none h1
    obtain ⟨r', c', e1, e2, e4, e5, e6⟩ := BsdRel.bsd_relative_openat_partial hset hcode hmk hask hread hrel hr hdir'
    refine ⟨⟨c', r', past ++ [.host (BsdRel.calls (now W past (P m0 regs).1).bsd fd text flags mode)]⟩,
      ?_, ?_, e5, regs_unique e2 e4, ?_⟩
    · have hyes : isRelative (P m0 regs).1 i r := ⟨hnr, by rw [hpath, hread]; exact hrel⟩
      simp only [step, hact, if_neg (show ¬ (number i r = 104 ∨ number i r = 98) by rw [hnr]; decide), if_pos hyes, hlen, e1]
      rfl
    · intro x hx
      have hout := scratch_owned hf hb (past.map Event.plain) (j := 24) (k := 2) (by omega) (by omega) hx
      exact (e6 x hout).trans (hm1 x hx)
    · simp only [List.map_append, List.map_cons, List.map_nil, Event.plain, rel_plain]
      rfl
  | sock m i r cl op sk addr len f h hp hcode hmk hask hch hmax hobj hheap hsock hpass hh =>
    simp only at hp hobj hheap hpass hch
    rw [hp] at hm1 hact
    simp only at hm1 hact
    have hr : NetEnd.Ready (now W past (P m0 regs).1).toNet ⟨(P m0 regs).1, live0, bs⟩ n addr len.toNat :=
      { room := ⟨hobj.2.1, by omega, hn.2⟩
        object := hobj.1
        apart := apart_of hobj.2.2 fun i hi => (hf.stack (past.map Event.plain)).2 i (by omega)
        stack := object_mono (hf.setup (past.map Event.plain)) (hf.stack _).1 (by omega) (by omega)
        pool := pool_of hb past _ _ (by omega) (by omega) (by
          intro o ho; rw [List.mem_singleton] at ho; subst ho; exact hobj.2.2) }
    obtain ⟨r', c', e1, e2, e4, e5, e6⟩ := BsdNet.bsd_network_call_end_to_end (h := h) hs.base hcode hmk hask hch hmax hr
      hheap hsock hpass hh
    have hbytes : bytesAt (P m0 regs).1 addr len.toNat = bytesAt m addr len.toNat := same_bytes hm1 hobj.2.2
    simp only [hbytes] at e1 e2
    have hns : number i r = 104 ∨ number i r = 98 := by rw [makes_number hmk]; exact asks_net hask
    refine ⟨⟨c', r', past ++ [.net (called (given h (bytesAt m addr len.toNat)) f)]⟩, ?_, ?_, e5, regs_unique e2 e4, ?_⟩
    · simp only [step, hact, if_pos hns, e1]
    · intro x hx
      have hout := scratch_owned hf hb (past.map Event.plain) (j := 24) (k := 2) (by omega) (by omega) hx
      exact (e6 x hout).trans (hm1 x hx)
    · simp only [List.map_append, List.map_cons, List.map_nil, Event.plain]
  | back m idx data size fd r u h d hp hu hsz hobj harr hd =>
    simp only at hp hobj hu hsz harr hd
    rw [hp] at hm1 hact
    simp only at hm1 hact
    have hpos : 0 < size := hsz ▸ hs.sizes u
    obtain ⟨p, ps, hps, hp3⟩ : ∃ p ps, bs = p :: ps ∧ p ∈ bs.take 5 := by
      cases bs with
      | nil => exact absurd hb.enough (by simp)
      | cons p ps => exact ⟨p, ps, rfl, by simp⟩
    have hr : UserEnd.Ready (now W past (P m0 regs).1).toUser ⟨(P m0 regs).1, live0, bs⟩ data size :=
      { pos := ⟨hpos, by have := hobj.2.1; omega⟩
        object := hobj.1
        fresh := ⟨p, ps, hps, EndToEnd.inHeap_mono hs.base.base (hb.heap _ p hp3) hn.2 hobj.2.1,
          EndToEnd.apart_symm (apart_of hobj.2.2 fun i hi => hb.own p hp3 i (by have := hobj.2.1; omega)),
          hb.new p hp3⟩ }
    obtain ⟨m1, c', e1, _, e2, e3, e4⟩ := UserEnd.user_callback_end_to_end hs hu hsz hr harr
    have hbytes : bytesAt (P m0 regs).1 data size = bytesAt m data size := same_bytes hm1 hobj.2.2
    simp only [hbytes] at e2 e3
    replace hd : d = if ((now W past (P m0 regs).1).fns u).takes then h else -1 := hd
    rw [← hd] at e2 e3
    refine ⟨⟨c', { r with rax := (told (W (past.map Event.plain)).toUser
        (((W (past.map Event.plain)).fns u).result (bytesAt m data size) d)).setWidth 64 },
      past ++ [.user [(u, bytesAt m data size, d)]]⟩, ?_, ?_, e4, rfl, ?_⟩
    · simp only [step, hact, invokeUser, e2, List.cons_ne_nil, false_and, if_false]
      rfl
    · rw [e3]
      apply hf.fns (past.map Event.plain)
      intro x hx
      rw [e1 x ?_]
      · exact hm1 x hx
      · apply outside_of (S := S) _ hx
        intro o ho j hj
        obtain ⟨q, hq, rfl⟩ := List.mem_map.1 ho
        exact hb.own q (take_of_take (by omega) hq) j (by have := hobj.2.1; simp only at hj; omega)
    · simp only [List.map_append, List.map_cons, List.map_nil, Event.plain]
  | look m host serv hints res r hs' ss f hp hhost hserv hobj hap hall hch =>
    simp only at hp hobj hap hall hch
    rw [hp] at hm1 hact
    simp only at hm1 hact
    have o1 := hobj _ (List.mem_cons_self ..)
    have o2 := hobj (serv, ss.length + 1) (by simp)
    have o3 := hobj (hints, 48) (by simp)
    have o4 := hobj (res, 8) (by simp)
    have hls := hf.localRes (past.map Event.plain)
    have hn1 := o1.2.1
    have hn2 := o2.2.1
    simp only at hn1 hn2
    have hset : NameEnd.Setup (now W past (P m0 regs).1).names (H.exports (past.map Event.plain))
        (H.users (past.map Event.plain)) (H.conf (past.map Event.plain)) :=
      ⟨hs.base, (hf.names (past.map Event.plain)).fits, (hf.names (past.map Event.plain)).alloc,
        (hf.names (past.map Event.plain)).mapped⟩
    have hown : ∀ o ∈ NameEnd.objects (now W past (P m0 regs).1).names host serv hints hs' ss,
        Object (W (past.map Event.plain)).hdr (W (past.map Event.plain)).region (W (past.map Event.plain)).bounds o.1 o.2 ∧
        ∀ i, i < o.2 → ¬ S (o.1 + BitVec.ofNat 64 i) := by
      intro o ho
      simp only [NameEnd.objects, List.mem_cons, List.not_mem_nil, or_false] at ho
      rcases ho with rfl | rfl | rfl | rfl
      · exact ⟨o1.1, o1.2.2⟩
      · exact ⟨o2.1, o2.2.2⟩
      · exact ⟨o3.1, o3.2.2⟩
      · exact hls
    have hr : NameEnd.Ready (now W past (P m0 regs).1).names ⟨(P m0 regs).1, live0, bs⟩ n host serv hints res hs' ss :=
      { room := ⟨hn1, hn2, by omega, hn.2⟩
        hostText := same_string hm1 o1.2.2 hhost
        servText := same_string hm1 o2.2.2 hserv
        objs := fun o ho => ⟨(hown o ho).1, apart_of (hown o ho).2 (hf.stack (past.map Event.plain)).2⟩
        stack := (hf.stack (past.map Event.plain)).1
        place := o4.1.1
        pool := pool_of hb past _ _ (by omega) (by omega) fun o ho => (hown o ho).2
        fresh := by
          intro k p hk o ho
          obtain ⟨l1, l2⟩ := hf.lists (past.map Event.plain) k p hk
          rcases List.mem_cons.1 ho with rfl | ho
          · exact hall k p hk
          · rcases List.mem_cons.1 ho with rfl | ho
            · exact apart_of l2 (hf.stack (past.map Event.plain)).2
            · rcases List.mem_cons.1 ho with rfl | ho
              · exact l1
              · obtain ⟨q, hq, rfl⟩ := List.mem_map.1 ho
                exact apart_of l2 (hb.own q hq) }
    obtain ⟨c', e1, e2, e3⟩ := BsdName.bsd_lookup_exact hset hr hap hch
    have hl1 : nameLength (P m0 regs).1 host = hs'.length := nameLength_eq hr.hostText (by omega)
    have hl2 : nameLength (P m0 regs).1 serv = ss.length := nameLength_eq hr.servText (by omega)
    simp only [asked_same hm1 o3.2.2] at e1 e3
    obtain ⟨k1, k2⟩ := looked_same (w := (W (past.map Event.plain)).names) hls.2 hm1 f (asked m hints hs' ss) res
    have hlk : ∀ m, looked (now W past (P m0 regs).1).names f (asked m hints hs' ss) res (P m0 regs).1 =
        looked (W (past.map Event.plain)).names f (asked m hints hs' ss) res (P m0 regs).1 := fun _ => rfl
    rw [hlk] at e1
    refine ⟨⟨c', { r with rax := (looked (W (past.map Event.plain)).names f (asked m hints hs' ss) res m).2.1.setWidth 64 },
      past ++ [.look (looked (W (past.map Event.plain)).names f (asked m hints hs' ss) res m).2.2]⟩, ?_, ?_, e2, rfl, ?_⟩
    · simp only [step, hact, hl1, hl2, e1, k2]
    · intro x hx
      have hout := scratch_owned hf hb (past.map Event.plain) (j := 32) (k := 5) (by omega) (by omega) hx
      exact (e3 x hout).trans (k1 x hx)
    · simp only [List.map_append, List.map_cons, List.map_nil, Event.plain]
  | badSock m i r cl op sk addr len hp hcode hmk hask hobj hsock hbad =>
    simp only at hp hobj hsock hbad
    rw [hp] at hm1 hact
    simp only at hm1 hact
    have hr : NetEnd.Ready (now W past (P m0 regs).1).toNet ⟨(P m0 regs).1, live0, bs⟩ n addr len.toNat :=
      { room := ⟨hobj.2.1, by omega, hn.2⟩
        object := hobj.1
        apart := apart_of hobj.2.2 fun i hi => (hf.stack (past.map Event.plain)).2 i (by omega)
        stack := object_mono (hf.setup (past.map Event.plain)) (hf.stack _).1 (by omega) (by omega)
        pool := pool_of hb past _ _ (by omega) (by omega) (by
          intro o ho; rw [List.mem_singleton] at ho; subst ho; exact hobj.2.2) }
    obtain ⟨r', c', e1, e2, e4, e5, e6⟩ := BsdNet.bsd_bad_network_call_refused hs.base hcode hmk hask hr
      (hf.agree (past.map Event.plain)) hsock hbad
    have hns : number i r = 104 ∨ number i r = 98 := by rw [makes_number hmk]; exact asks_net hask
    refine ⟨⟨c', r', past ++ [.net []]⟩, ?_, ?_, e5, regs_unique (a := .error 22) e2 e4, ?_⟩
    · simp only [step, hact, if_pos hns, e1]
    · intro x hx
      have hout := scratch_owned hf hb (past.map Event.plain) (j := 24) (k := 2) (by omega) (by omega) hx
      exact (e6 x hout).trans (hm1 x hx)
    · simp only [List.map_append, List.map_cons, List.map_nil, Event.plain]
  | badBack m idx data size fd r h hp hbad hpos hobj harr =>
    simp only at hp hobj hbad harr
    rw [hp] at hm1 hact
    simp only at hm1 hact
    obtain ⟨p, ps, hps, hp3⟩ : ∃ p ps, bs = p :: ps ∧ p ∈ bs.take 5 := by
      cases bs with
      | nil => exact absurd hb.enough (by simp)
      | cons p ps => exact ⟨p, ps, rfl, by simp⟩
    have hr : UserEnd.Ready (now W past (P m0 regs).1).toUser ⟨(P m0 regs).1, live0, bs⟩ data size :=
      { pos := ⟨hpos, by have := hobj.2.1; omega⟩
        object := hobj.1
        fresh := ⟨p, ps, hps, EndToEnd.inHeap_mono hs.base.base (hb.heap _ p hp3) hn.2 hobj.2.1,
          EndToEnd.apart_symm (apart_of hobj.2.2 fun i hi => hb.own p hp3 i (by have := hobj.2.1; omega)),
          hb.new p hp3⟩ }
    obtain ⟨c', e1, e2, e3⟩ := UserEnd.bad_user_callback_refused hs (hf.small (past.map Event.plain)) hr harr hbad
    refine ⟨⟨c', { r with rax := (-78 : CInt).setWidth 64 }, past ++ [.user []]⟩, ?_, ?_, e2, rfl, ?_⟩
    · simp only [step, hact, invokeUser, e1, and_self, if_true]
    · intro x hx
      refine (e3 x ?_).trans (hm1 x hx)
      apply outside_of (S := S) _ hx
      intro o ho j hj
      obtain ⟨q, hq, rfl⟩ := List.mem_map.1 ho
      exact hb.own q (take_of_take (by omega) hq) j (by have := hobj.2.1; simp only at hj; omega)
    · simp only [List.map_append, List.map_cons, List.map_nil, Event.plain]
  | other m i r cl hp hmk hnr =>
    simp only at hp
    rw [hp] at hm1 hact
    simp only at hm1 hact
    rw [← makes_number hmk] at hnr
    refine ⟨⟨⟨(P m0 regs).1, live0, bs⟩, r, past ++ [.host []]⟩, ?_, hm1, rfl, rfl, ?_⟩
    · have he : ∀ v, FreeBsd.emulate v i r = .ok (r, []) := fun v => by
        unfold FreeBsd.emulate
        split
        · apply FreeBsd.dispatch_miss
          intro k hk he
          have hmem : number i r ∈ FreeBsd.syscallNumbers := List.mem_of_getElem? he
          simp only [FreeBsd.syscallNumbers, List.mem_cons, List.not_mem_nil, or_false] at hmem
          exact hnr hmem
        · rfl
      simp only [step, hact, if_neg (show ¬ (number i r = 104 ∨ number i r = 98) from
          fun h => hnr (by unfold Six; rcases h with h | h <;> simp [h])),
        if_neg (show ¬ isRelative (P m0 regs).1 i r from fun h => hnr (by unfold Six; simp [h.1])), BsdEnd.trap, he]
    · simp only [List.map_append, List.map_cons, List.map_nil, Event.plain, plain]

/-! ## C127 -/

/-- **C127.**  A program runs in a sandbox: it computes, makes system calls on paths and sockets, calls functions of the
host, and goes on with what it finds, as often as it likes.  Suppose that the ideal machine, in which every call does at
once what it should and nothing else, runs the program through so many calls.  Then so does the sandbox, from every
memory that the program cannot tell from the ideal one and whatever blocks `malloc` gives: nothing ends early, the
program finds the same registers, the same memory and so the same results, and the host has made exactly the same system
calls and called the same functions, in the same order.  Afterwards all copies are free again. -/
theorem run_transparent {W : Worlds} {H : Host} {S : Word → Prop} (hf : Fixed W H S) {P : Program} (hP : Blind S P)
    {n : Nat} (hn : 224 ≤ n ∧ n < 2 ^ 64) {live : List Word} {blocks : List (List Word)}
    (hb : ∀ b ∈ blocks, Blocks W S n live b) {s : State} {t t' : Ideal} (ha : Alike S live s t)
    (ht : Steps W H S n P blocks.length t t') :
    ∃ s', run W P blocks s = .ok (some s') ∧ Alike S live s' t' := by
  induction blocks generalizing s t with
  | nil =>
    cases ht
    exact ⟨s, rfl, ha⟩
  | cons b bs ih =>
    cases ht with
    | more _ _ t1 _ h1 h2 =>
      obtain ⟨s1, e1, a1⟩ := step_alike hf hP hn (hb b List.mem_cons_self) ha h1
      obtain ⟨s', e2, a2⟩ := ih (fun b' h => hb b' (List.mem_cons_of_mem _ h)) a1 h2
      exact ⟨s', by rw [run, e1]; exact e2, a2⟩

/-- **C127, the end.**  If the program ends in the ideal machine, it ends in the sandbox. -/
theorem end_transparent {W : Worlds} {S : Word → Prop} {P : Program} (hP : Blind S P) {live b : List Word} {s : State}
    {t : Ideal} (ha : Alike S live s t) (h : (P t.mem t.regs).2 = .stop) : step W P b s = .ok none := by
  have := (hP _ _ s.regs ha.mem).2
  rw [← ha.regs] at h
  simp only [step, this, h]

/-- **C127, results do not depend on the sandbox.**  Two sandboxes that differ in what the child keeps for itself and in the
blocks that `malloc` gives run the program alike. -/
theorem runs_agree {W : Worlds} {H : Host} {S : Word → Prop} (hf : Fixed W H S) {P : Program} (hP : Blind S P)
    {n : Nat} (hn : 224 ≤ n ∧ n < 2 ^ 64) {live live' : List Word} {blocks blocks' : List (List Word)}
    (hb : ∀ b ∈ blocks, Blocks W S n live b) (hb' : ∀ b ∈ blocks', Blocks W S n live' b)
    (hl : blocks.length = blocks'.length) {s s2 : State} {t t' : Ideal} (ha : Alike S live s t) (ha2 : Alike S live' s2 t)
    (ht : Steps W H S n P blocks.length t t') :
    ∃ s' s2', run W P blocks s = .ok (some s') ∧ run W P blocks' s2 = .ok (some s2') ∧
      Same S s'.child.mem s2'.child.mem ∧ s'.regs = s2'.regs ∧ s'.past.map Event.plain = s2'.past.map Event.plain := by
  obtain ⟨s', e1, a1⟩ := run_transparent hf hP hn hb ha ht
  obtain ⟨s2', e2, a2⟩ := run_transparent hf hP hn hb' ha2 (hl ▸ ht)
  exact ⟨s', s2', e1, e2, fun x hx => (a1.mem x hx).trans (a2.mem x hx).symm, a1.regs.trans a2.regs.symm,
    a1.past.trans a2.past.symm⟩

/-! ### A case that meets the conditions -/

/-- As in the examples of `Verif.Run`, on FreeBSD. -/
def exWorld : World where
  toUser := { UserEnd.exWorld with toNet := { UserEnd.exWorld.toNet with policies := Net.configure exConf } }
  bsd := BsdEnd.exWorld.bsd
  bsdStat := BsdEnd.exWorld.bsdStat
  look := NameEnd.exWorld.look
  alloc := NameEnd.exWorld.alloc
  localRes := 0x7000

theorem exSetup : UserEnd.Setup exWorld.toUser FileTree.exHist [3, 5] exConf :=
  { UserEnd.exSetup with base := { UserEnd.exSetup.base with policies := rfl } }

/-- Nothing changes in the host but what it has recorded. -/
def exWorlds : Worlds := fun _ => exWorld

def exHost : Host := ⟨fun _ => FileTree.exHist, fun _ => [3, 5], fun _ => exConf⟩

/-- A program that opens `/lib/x`; if there is no error it asks about it, and the answer goes to `0x19000`; then, if the
first byte there is 7, it calls back, with these bytes and the descriptor that `open` gave; then it ends. -/
def exProgram : Program := fun m r =>
  if r.rip = 0 then (m, .sys ⟨5, some 5⟩ ⟨5, 0x5000, 0, 0, 0, 0, 0, 0x700, 1⟩)
  else if r.rip = 0x700 ∧ r.rflags &&& 1 = 0 then (m, .sys ⟨5, some 188⟩ ⟨188, 0x5000, 0x19000, r.rax, 0, 0, 0, 0x800, 1⟩)
  else if r.rip = 0x800 ∧ m 0x19000 = 7 then (m, .back 8 0x19000 8 (-1) { r with rip := 0x900 })
  else (m, .stop)

def exStart : Ideal := ⟨EndToEnd.exChild.mem, ⟨0, 0, 0, 0, 0, 0, 0, 0, 0⟩, []⟩

theorem exFixed : Fixed exWorlds exHost exOwn where
  setup := fun _ => exSetup
  names := fun _ => ⟨exSetup.base, NameEnd.exSetup.fits, NameEnd.exSetup.alloc,
    (by decide : 0 < exWorld.region.base.toNat)⟩
  bsd := fun _ => BsdEnd.exSetup.bsd
  bsdStat := fun _ _ => List.length_replicate
  kernel := fun _ _ op => by cases op <;> rfl
  fails := by
    intro p l op h
    simp only [exWorlds, exWorld, BsdEnd.exWorld] at h ⊢
    split at h
    · rfl
    · simp at h
  stat := fun _ _ => rfl
  fns := by
    intro p u bs h m m' hm x hx
    simp only [exWorlds, exWorld, UserEnd.exWorld]
    split
    · exact hm x hx
    · simp only
      split
      · rfl
      · exact hm x hx
  stack := by
    intro p
    simp only [exWorlds]
    refine ⟨⟨by decide, .inl (by simp only [InHeap]; decide)⟩, fun i hi => .inr ?_⟩
    rw [off_toNat _ i 0x19800 rfl (by omega)]
    omega
  small := by
    intro p u
    simp only [exWorlds, exWorld, UserEnd.exWorld]
    split <;> decide
  agree := by
    intro p
    simp only [exWorlds]
    exact ⟨by decide, by decide, by decide⟩
  localRes := by
    intro p
    refine ⟨⟨by simp only [exWorlds, exWorld]; decide, .inr ⟨by simp only [exWorlds]; decide, by simp only [exWorlds]; decide⟩⟩,
      fun i hi h => ?_⟩
    rw [exOwn, off_toNat _ i 0x7000 rfl (by omega)] at h
    omega
  lists := by
    intro p k b hb
    simp only [exWorlds, exWorld, NameEnd.exWorld] at hb
    split at hb
    · rename_i hk
      simp only [Option.some.injEq] at hb
      subst hb
      refine ⟨fun i j hi hj e => ?_, fun i hi h => ?_⟩
      · have := congrArg BitVec.toNat e
        rw [off_toNat _ i 0x1a000 rfl (by omega), off_toNat _ j 0x7000 rfl (by omega)] at this
        omega
      · rw [exOwn, off_toNat _ i 0x1a000 rfl (by omega)] at h
        omega
    · cases hb

theorem exBlind : Blind exOwn exProgram := by
  intro m m' r h
  have h7 : m 0x19000 = m' 0x19000 := h _ (by unfold exOwn; decide)
  simp only [exProgram, h7]
  repeat' split
  all_goals exact ⟨h, rfl⟩

theorem exBlocks : Blocks exWorlds exOwn 224 [0x17000] [0x18000, 0x18200, 0x18400, 0x18600, 0x18800] where
  enough := by decide
  heap := by
    intro w p hp
    simp only [List.take, List.mem_cons, List.not_mem_nil, or_false] at hp
    rcases hp with rfl | rfl | rfl | rfl | rfl <;> (simp only [InHeap, exWorlds]; decide)
  own := by
    intro p hp i hi
    simp only [List.take, List.mem_cons, List.not_mem_nil, or_false] at hp
    left
    rcases hp with rfl | rfl | rfl | rfl | rfl
    · rw [off_toNat _ i 0x18000 rfl (by omega)]; omega
    · rw [off_toNat _ i 0x18200 rfl (by omega)]; omega
    · rw [off_toNat _ i 0x18400 rfl (by omega)]; omega
    · rw [off_toNat _ i 0x18600 rfl (by omega)]; omega
    · rw [off_toNat _ i 0x18800 rfl (by omega)]; omega
  frame := by
    intro w p hp
    simp only [List.take, List.mem_cons, List.not_mem_nil, or_false] at hp
    simp only [exWorlds]
    rcases hp with rfl | rfl | rfl | rfl | rfl <;> exact EndToEnd.apart_of_lt (by decide) (by decide)
  pairwise := by
    simp only [List.take, List.pairwise_cons, List.mem_cons, List.not_mem_nil, or_false, forall_eq_or_imp, forall_eq,
      List.Pairwise.nil, and_true, false_implies, implies_true]
    refine ⟨⟨?_, ?_, ?_, ?_⟩, ⟨?_, ?_, ?_⟩, ⟨?_, ?_⟩, ?_⟩ <;> exact EndToEnd.apart_of_gt (by decide) (by decide)
  new := by
    intro p hp
    simp only [List.take, List.mem_cons, List.not_mem_nil, or_false] at hp
    rcases hp with rfl | rfl | rfl | rfl | rfl <;> simp

theorem exOwnPath : Own exWorld exOwn 224 (0x5000, 7) := by
  refine ⟨⟨by decide, .inr ⟨by decide, by decide⟩⟩, by decide, fun i hi h => ?_⟩
  simp only at hi h
  rw [exOwn, off_toNat 0x5000 i 0x5000 rfl (by omega)] at h
  omega

theorem exOwnBuffer {k : Nat} (hk : k ≤ 224) : Own exWorld exOwn 224 (0x19000, k) := by
  refine ⟨⟨by simp, .inl (EndToEnd.inHeap_mono exSetup.base.base (n := 224) (by simp only [InHeap]; decide)
    (by decide) hk)⟩, hk, fun i hi h => ?_⟩
  simp only at hi h
  rw [exOwn, off_toNat 0x19000 i 0x19000 rfl (by omega)] at h
  omega

theorem exAnswers : Answers (specHistory FileTree.exHist) [Path.txt "lib", Path.txt "x"] 5 [Path.txt "x"] :=
  .dir [Path.txt "lib"] _ 5 (by decide) rfl (by decide)

/-- The three calls of the program. -/
theorem exSteps : ∃ t, Steps exWorlds exHost exOwn 224 exProgram 3 exStart t ∧ t.regs.rax = 108 ∧
    (exProgram t.mem t.regs).2 = .stop := by
  refine ⟨_, .more _ _ _ _ (.path _ _ _ _ _ (.open_ 0 0) 0x5000 0 (Path.txt "/lib/x") _ _ rfl rfl (.inl ⟨_, rfl, rfl⟩) rfl
      EndToEnd.exString ?_ (.openBeneath [Path.txt "lib", Path.txt "x"] 5 [Path.txt "x"] 0 0 _ (by decide) exAnswers
        (by decide) rfl) rfl)
    (.more _ _ _ _ (.path _ _ _ _ _ .stat 0x5000 0x19000 (Path.txt "/lib/x") _ _ rfl rfl (.inl ⟨_, rfl, rfl⟩) rfl
      EndToEnd.exString ?_ (.statBeneath [Path.txt "lib", Path.txt "x"] 5 [Path.txt "x"] 0 _ (by decide) exAnswers
        (by decide) rfl) rfl)
    (.more _ _ _ _ (.back _ _ 8 0x19000 8 (-1) _ 5 (-1) (-1) rfl ⟨1, rfl, rfl⟩ rfl (exOwnBuffer (by decide))
      (.inl ⟨by decide, rfl⟩) rfl) (.none _))), ?_, ?_⟩
  · intro o ho
    simp only [objects, reduceCtorEq, if_false, List.mem_singleton] at ho
    subst ho
    exact exOwnPath
  · intro o ho
    simp only [objects, if_true, List.mem_cons, List.not_mem_nil, or_false] at ho
    rcases ho with rfl | rfl
    · exact exOwnPath
    · exact exOwnBuffer (by decide)
  · rfl
  · rfl

/-- So the sandboxed program makes these calls, too, and finds 108. -/
example : ∃ s', run exWorlds exProgram (List.replicate 3 [0x18000, 0x18200, 0x18400, 0x18600, 0x18800])
    ⟨⟨EndToEnd.exChild.mem, [0x17000], []⟩, ⟨0, 0, 0, 0, 0, 0, 0, 0, 0⟩, []⟩ = .ok (some s') ∧ s'.regs.rax = 108 ∧
    step exWorlds exProgram [] s' = .ok none := by
  obtain ⟨t, h1, h2, h3⟩ := exSteps
  obtain ⟨s', e1, e2⟩ := run_transparent exFixed exBlind (by decide) (live := [0x17000])
    (blocks := List.replicate 3 [0x18000, 0x18200, 0x18400, 0x18600, 0x18800])
    (s := ⟨⟨EndToEnd.exChild.mem, [0x17000], []⟩, ⟨0, 0, 0, 0, 0, 0, 0, 0, 0⟩, []⟩)
    (fun b hb => by rw [List.eq_of_mem_replicate hb]; exact exBlocks) ⟨fun _ _ => rfl, rfl, rfl, rfl⟩ h1
  exact ⟨s', e1, by rw [e2.regs, h2], end_transparent exBlind e2 h3⟩

end Verif.BsdRun
