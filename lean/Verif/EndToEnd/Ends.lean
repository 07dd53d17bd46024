import Verif.EndToEnd.Props

/-!
# How every trapped path call ends, whatever the program passes (property C66)
-/

namespace Verif.EndToEnd

open Verif.Bounds (Region contains contains_iff)
open Verif.Strings
open Verif.Path (txt)
open Verif.FileTree Verif.FileTree.Spec
open Verif.Callback (Handler Packet Event Result tableOf)
open Verif.PathSyscall Verif.PathSyscall.Spec
open Verif.ChildArgs (Bounds Child Wrapped wrapPtr wrapCStr unwrap)
open Verif.Syscall (CInt Regs Info Arg Reply Arrives abi libc found Answer emulate_faithful)

/-! ### Specification -/

/-- How a call ends. -/
inductive End where
  | answered
  | dies
  | undefined
  deriving Repr, DecidableEq

/-- A child that converts pointers one after another and has `k` more blocks; of each pointer it is told whether the child
copies what is there.  A null pointer that is to be copied is followed; any other needs a block. -/
def converts : List (Bool × Word) → Nat → End
  | [], _ => .answered
  | (false, _) :: ps, k => converts ps k
  | (true, p) :: ps, k =>
    if p = 0 then .undefined
    else
      match k with
      | 0 => .dies
      | k + 1 => converts ps k

/-- What is not in the shared memory is copied. -/
def copied (b : Bounds) (p : Word) : Bool × Word := (!ChildArgs.inside b p 1, p)

/-- The pointers that a call takes to the host, in order: the path, the buffer of `stat`, and the frame on the child's
stack. -/
def pointers (w : World) (want : Want) (path sb : Word) : List (Bool × Word) :=
  match want with
  | .stat => [copied w.bounds path, copied w.bounds sb, copied w.bounds w.sp]
  | _ => [copied w.bounds path, copied w.bounds w.sp]

/-! ### Lemmas -/

/-- A number that is no error, or minus the number of one. -/
def Mild (i : Int) : Prop := -4096 < i ∧ i < 2 ^ 31

/-- The answer of a kernel, as `KernelOk` says. -/
def Sane (r : Int × Int) : Prop := (0 ≤ r.1 → r.1 < 2 ^ 31) ∧ (r.1 < 0 → 0 < r.2 ∧ r.2 < 4096)

theorem beneath_sane {k : Kernel} (hk : KernelOk k) (log : Log) (fd : Int) (p : Option (List Byte))
    (mo fl : BitVec 32) (sb : Word) :
    Sane (faccessatBeneath k log fd p mo fl).1 ∧ Sane (fstatatBeneath k log fd p sb fl).1 := by
  constructor
  · unfold faccessatBeneath
    split
    rename_i q e log1 ho
    have h1 : Sane (q, e) := by
      have := hk log (.openat2 fd p (oPath.signExtend 64) ((0 : BitVec 32).setWidth 64) resolveBeneath)
      simp only [openatBeneath, sys, Prod.mk.injEq] at ho
      rw [ho.1] at this
      exact this
    split
    · rename_i hq
      exact ⟨fun h => absurd h (by simp), fun _ => h1.2 hq⟩
    · exact hk _ _
  · unfold fstatatBeneath
    split
    rename_i q e log1 ho
    have h1 : Sane (q, e) := by
      have := hk log (.openat2 fd p (oPath.signExtend 64) ((0 : BitVec 32).setWidth 64) resolveBeneath)
      simp only [openatBeneath, sys, Prod.mk.injEq] at ho
      rw [ho.1] at this
      exact this
    split
    · rename_i hq
      exact ⟨fun h => absurd h (by simp), fun _ => h1.2 hq⟩
    · exact hk _ _

theorem int_mild {r : Int × Int} (h : Sane r) : Mild (returnInt r).integer := by
  simp only [returnInt, Mild]
  split
  · rename_i h0
    have := h.1 h0
    omega
  · rename_i h0
    have := h.2 (by omega)
    omega

theorem fd_mild {r : Int × Int} (h : Sane r) : Mild (returnFd r).integer := by
  simp only [returnFd, Mild]
  split
  · exact (by decide : -4096 < -ENOSYS ∧ -ENOSYS < 2 ^ 31)
  · rename_i h0
    have := h.2 (by omega)
    simp only
    omega

theorem path_mild (v : Env) (a : Word) (f : Int → Verif.Path.Path → Result × Log) (hf : ∀ fd t, Mild (f fd t).1.integer)
    {res : Result} {log : Log} (h : handlePath v a f = .ok (res, log)) : Mild res.integer := by
  have hc : ∀ e : Int, e = EINVAL ∨ e = ENOENT → Mild (-e) := by
    rintro e (rfl | rfl) <;> (simp only [Mild]; decide)
  unfold handlePath at h
  split at h
  · cases h; exact hc _ (.inl rfl)
  · split at h
    · split at h
      · cases h; exact hc _ (.inl rfl)
      · split at h
        · cases h; exact hc _ (.inr rfl)
        · rename_i fd tail _
          have := hf fd tail
          cases h' : f fd tail with
          | mk x y =>
            rw [h'] at h this
            cases h
            exact this
    all_goals cases h
  all_goals cases h

theorem serve_mild {w : World} {hist : List Export} {users : List Nat} (hw : Setup w hist users) (m : Mem)
    (call : Call) : ∃ res log, serve (w.env m) call = .ok (res, log) ∧ Mild res.integer := by
  obtain ⟨⟨res, log⟩, h⟩ := serve_total (w.env m) hw.mallocOk hw.mallocTotal call
  refine ⟨res, log, h, ?_⟩
  cases call with
  | open_ a fl mo =>
    refine path_mild _ _ _ ?_ h
    intro fd t
    simp only [openBody]
    split
    · exact fd_mild (hw.kernel _ _)
    · exact fd_mild (hw.kernel _ _)
  | access a mo =>
    refine path_mild _ _ _ ?_ h
    intro fd t
    exact int_mild (beneath_sane hw.kernel _ _ _ _ _ 0).1
  | stat a sb =>
    refine path_mild _ _ _ ?_ h
    intro fd t
    simp only [statBody]
    split
    · split
      · exact int_mild (hw.kernel _ _)
      · exact int_mild (beneath_sane hw.kernel _ _ _ 0 _ _).2
    · show -4096 < -EINVAL ∧ -EINVAL < 2 ^ 31
      decide

/-- A request always gets an answer, wherever its frame is. -/
theorem callback_answers {w : World} {hist : List Export} {users : List Nat} (hw : Setup w hist users) (c : Child)
    (call : Call) (data : Word) :
    ∃ i h log m, callback w c (kindOf call) data (-1) = .ok (reply w i h, log, { c with mem := m }) ∧ Mild i := by
  have hd : Callback.dispatch w.table (BitVec.ofNat 64 (kindOf call)) = some (.builtin (kindOf call)) := by
    rw [hw.table, Callback.dispatch_tableOf]
    cases call <;> rfl
  have hlen : ¬ (Callback.requestSize < Callback.requestSize) := by omega
  have hrun : ∃ res as, run w c.mem (.builtin (kindOf call))
      ⟨.ofNat 64 (kindOf call), .ofNat 64 frameSize, data⟩ (-1) = (.ok res, as) ∧ Mild res.integer := by
    have hz : ¬ (BitVec.ofNat 64 frameSize ≠ BitVec.ofNat 64 frameSize) := fun h => h rfl
    simp only [run, Callback.invoke, if_neg hz]
    split
    · exact ⟨_, _, rfl, (by decide : -4096 < -ENOSYS ∧ -ENOSYS < 2 ^ 31)⟩
    · have hdec : ∀ bs, ∃ call', decode (kindOf call) bs = some call' := by
        intro bs
        cases call <;> exact ⟨_, rfl⟩
      obtain ⟨call', hc'⟩ := hdec ((Callback.copyAddrs data frameSize).map c.mem)
      obtain ⟨res, log, hs, hm⟩ := serve_mild hw c.mem call'
      exact ⟨res, Callback.copyAddrs data frameSize, by rw [servedResult, served, hc']; simp only [hs], hm⟩
  obtain ⟨res, as, h1, h2⟩ := hrun
  obtain ⟨e, he⟩ : ∃ e, e = effects w c.mem
    ⟨Callback.requestSize, ⟨.ofNat 64 (kindOf call), .ofNat 64 frameSize, data⟩, -1⟩ := ⟨_, rfl⟩
  refine ⟨res.integer, res.handle, e.1, e.2, ?_, h2⟩
  rw [he]
  · simp only [callback, Callback.handle, if_neg hlen, hd, h1, if_true, answerOf]

theorem reply_proper {w : World} {hist : List Export} {users : List Nat} (hw : Setup w hist users) {i h : Int}
    (hi : Mild i) : ∃ ans : Answer, ans.Proper ∧ Arrives ans (reply w i h) := by
  by_cases hh : h < 0
  · by_cases h0 : 0 ≤ i
    · refine ⟨.value i.toNat, ?_, ?_⟩
      · simp only [Answer.Proper]
        have := hi.2
        omega
      · obtain ⟨n, rfl⟩ := Int.eq_ofNat_of_zero_le h0
        simp [Arrives, reply, hh]
    · refine ⟨.error (-i).toNat, ?_, ?_⟩
      · simp only [Answer.Proper]
        have := hi.1
        omega
      · have : (((-i).toNat : Nat) : Int) = -i := by omega
        simp [Arrives, reply, hh, this]
  · refine ⟨.descriptor (w.recv h).toNat, hw.recv h (by omega), ?_⟩
    simp [Arrives, reply, hh]

/-- The outcome of a request, told as an end.  If the pointers are converted, `Q` holds of the answer, or the request ends
the child and `A`, or it throws and `T`. -/
def Ended {L : Type} (Q : Reply → Prop) (A T : Prop) (c : Child) : Outcome (Reply × L × Child) → End → Prop
  | .ok (rep, _, c'), .answered => c'.live = c.live ∧ Q rep
  | .abort, .answered => A
  | .throws, .answered => T
  | .abort, .dies => True
  | .ub, .undefined => True
  | _, _ => False

/-- A pointer is converted, the rest is done, and the block is given back. -/
def around {L : Type} (x : Outcome (Wrapped × Child)) (rest : Wrapped → Child → Outcome (Reply × L × Child)) (out : Bool)
    (n : Nat) : Outcome (Reply × L × Child) :=
  match x with
  | .ok (a, c) =>
    match rest a c with
    | .ok (r, log, c) => .ok (r, log, unwrap out c a n)
    | .abort => .abort
    | .throws => .throws
    | .ub => .ub
  | .abort => .abort
  | .throws => .throws
  | .ub => .ub

/-- One pointer converted before the rest, which gives the block back afterwards. -/
theorem wrapped_ends {L : Type} {Q : Reply → Prop} {A T : Prop} (c : Child) (p : Word) (n : Nat) (out cp : Bool)
    (ps : List (Bool × Word)) (x : Outcome (Wrapped × Child))
    (hx : x = if cp then
        match ChildArgs.dupBytes c p n with
        | .ok (q, c') => .ok (⟨p, some q⟩, c')
        | .abort => .abort
        | .throws => .throws
        | .ub => .ub
      else .ok (⟨p, none⟩, c))
    (rest : Wrapped → Child → Outcome (Reply × L × Child))
    (h : ∀ a c', Ended Q A T c' (rest a c') (converts ps c'.mallocs.length)) :
    Ended Q A T c (around x rest out n) (converts ((cp, p) :: ps) c.mallocs.length) := by
  have back : ∀ (a : Wrapped) (c' : Child) e, (∀ d : Child, d.live = c'.live → (unwrap out d a n).live = c.live) →
      Ended Q A T c' (rest a c') e → Ended Q A T c (match rest a c' with
        | .ok (r, log, c) => .ok (r, log, unwrap out c a n)
        | .abort => .abort
        | .throws => .throws
        | .ub => .ub) e := by
    intro a c' e hu he
    cases hr : rest a c' with
    | ok x =>
      obtain ⟨r, log, d⟩ := x
      rw [hr] at he
      cases e with
      | answered => exact ⟨hu d he.1, he.2⟩
      | dies => exact he
      | undefined => exact he
    | abort => rw [hr] at he; cases e <;> exact he
    | throws => rw [hr] at he; cases e <;> exact he
    | ub => rw [hr] at he; cases e <;> exact he
  subst hx
  cases cp with
  | false =>
    simp only [around, converts]
    exact back _ _ _ (fun d hd => by simp [unwrap, hd]) (h _ _)
  | true =>
    by_cases hp : p = 0
    · simp only [around, if_true, converts, ChildArgs.dupBytes, if_pos hp, Ended]
    · cases hm : c.mallocs with
      | nil => simp only [around, if_true, converts, ChildArgs.dupBytes, if_neg hp, hm, Ended, List.length_nil]
      | cons q qs =>
        simp only [around, if_true, converts, ChildArgs.dupBytes, if_neg hp, hm, List.length_cons]
        exact back _ _ _ (fun d hd => by simp [unwrap, hd]) (h _ _)

/-- The same for the wrappers of objects and strings. -/
theorem wrap_ends {L : Type} {Q : Reply → Prop} {A T : Prop} (b : Bounds) (c : Child) (p : Word) (n : Nat) (out : Bool)
    (ps : List (Bool × Word)) (rest : Wrapped → Child → Outcome (Reply × L × Child))
    (h : ∀ a c', Ended Q A T c' (rest a c') (converts ps c'.mallocs.length)) :
    Ended Q A T c (around (wrapPtr b c p n) rest out n) (converts (copied b p :: ps) c.mallocs.length) := by
  refine wrapped_ends c p n out _ ps _ ?_ rest h
  rw [wrapPtr]
  cases ChildArgs.inside b p 1 <;> rfl

/-- Nothing more to convert. -/
def Answered (rep : Reply) : Prop := ∃ ans : Answer, ans.Proper ∧ Arrives ans rep

/-- Writing to memory takes no block. -/
theorem ended_mem {L : Type} {Q : Reply → Prop} {A T : Prop} {c c' : Child} (hl : c'.live = c.live)
    {o : Outcome (Reply × L × Child)} {e : End} (h : Ended Q A T c' o e) : Ended Q A T c o e := by
  cases e <;> rcases o with ⟨_, _, _⟩ | _ | _ | _ <;> simp only [Ended] at h ⊢ <;>
    first
    | exact h
    | exact ⟨by rw [h.1, hl], h.2⟩

theorem send_around (w : World) (c : Child) (call : Call) : send w c call =
    around (wrapPtr w.bounds { c with mem := writeBytes c.mem w.sp (encode w.pad call) } w.sp frameSize)
      (fun f c => callback w c (kindOf call) f.arg (-1)) false frameSize := by
  simp only [send, around]
  rcases wrapPtr w.bounds { c with mem := writeBytes c.mem w.sp (encode w.pad call) } w.sp frameSize with
    ⟨a, c1⟩ | _ | _ | _ <;> try rfl
  simp only
  rcases callback w c1 (kindOf call) a.arg (-1) with ⟨x, y, z⟩ | _ | _ | _ <;> rfl

theorem send_ends {w : World} {hist : List Export} {users : List Nat} (hw : Setup w hist users) (c : Child)
    (call : Call) :
    Ended Answered False False c (send w c call) (converts [copied w.bounds w.sp] c.mallocs.length) := by
  rw [send_around]
  refine ended_mem (c' := { c with mem := writeBytes c.mem w.sp (encode w.pad call) }) rfl ?_
  refine wrap_ends w.bounds { c with mem := writeBytes c.mem w.sp (encode w.pad call) } w.sp frameSize false [] _ ?_
  intro a c'
  obtain ⟨i, h, log, m, h1, h2⟩ := callback_answers hw c' call a.arg
  simp only [h1, converts, Ended]
  exact ⟨trivial, reply_proper hw h2⟩

theorem request_around (w : World) (c : Child) (n : Nat) (want : Want) (path sb : Word) :
    request w c n (reqOf path sb want) = around (wrapPtr w.bounds c path (n + 1))
      (fun a c => if want = .stat then around (wrapPtr w.bounds c sb statLen)
          (fun b c => send w c (callOf a.arg b.arg want)) true statLen
        else send w c (callOf a.arg 0 want)) false (n + 1) := by
  cases want with
  | open_ fl mo =>
    simp only [reqOf, request, wrapCStr, around, callOf, reduceCtorEq, if_false]
    rcases wrapPtr w.bounds c path (n + 1) with ⟨a, c1⟩ | _ | _ | _ <;> try rfl
    simp only
    rcases send w c1 (.open_ a.arg fl mo) with ⟨x, y, z⟩ | _ | _ | _ <;> rfl
  | access mo =>
    simp only [reqOf, request, wrapCStr, around, callOf, reduceCtorEq, if_false]
    rcases wrapPtr w.bounds c path (n + 1) with ⟨a, c1⟩ | _ | _ | _ <;> try rfl
    simp only
    rcases send w c1 (.access a.arg mo) with ⟨x, y, z⟩ | _ | _ | _ <;> rfl
  | stat =>
    simp only [reqOf, request, wrapCStr, around, callOf, if_true]
    rcases wrapPtr w.bounds c path (n + 1) with ⟨a, c1⟩ | _ | _ | _ <;> try rfl
    simp only
    rcases wrapPtr w.bounds c1 sb statLen with ⟨b, c2⟩ | _ | _ | _ <;> try rfl
    simp only
    rcases send w c2 (.stat a.arg b.arg) with ⟨x, y, z⟩ | _ | _ | _ <;> rfl

theorem request_ends {w : World} {hist : List Export} {users : List Nat} (hw : Setup w hist users) (c : Child) (n : Nat)
    (want : Want) (path sb : Word) :
    Ended Answered False False c (request w c n (reqOf path sb want)) (converts (pointers w want path sb) c.mallocs.length) := by
  rw [request_around]
  by_cases hs : want = .stat
  · subst hs
    refine wrap_ends w.bounds c path (n + 1) false [copied w.bounds sb, copied w.bounds w.sp] _ fun a c' => ?_
    rw [if_pos rfl]
    exact wrap_ends w.bounds c' sb statLen true [copied w.bounds w.sp] _ fun b c'' => send_ends hw c'' _
  · have hp : pointers w want path sb = [copied w.bounds path, copied w.bounds w.sp] := by
      cases want <;> first | rfl | exact absurd rfl hs
    rw [hp]
    refine wrap_ends w.bounds c path (n + 1) false [copied w.bounds w.sp] _ fun a c' => ?_
    rw [if_neg hs]
    exact send_ends hw c' _

/-- A call that makes the request `q` ends as the request does. -/
theorem call_ends {w : World} {c : Child} {n : Nat} {i : Info} {r : Regs} {q : Syscall.Request} {e : End}
    (he : Ended Answered False False c (request w c n q) e)
    (hem : ∀ a : Syscall.Answer, a.Proper → Arrives a (hostOf w c n q) →
      ∃ r', Syscall.emulate ⟨hostOf w c n, w.pid, w.str, fun f => f⟩ i r = .ok (r', [q]) ∧ libc r'.rax = found a ∧
        r'.rip = i.callAddr ∧ abi r' = abi r) :
    match (generalizing := false) e with
    | .answered => ∃ r' log c' ans, trap w c n i r = .ok (r', log, c') ∧ ans.Proper ∧ libc r'.rax = found ans ∧
        r'.rip = i.callAddr ∧ abi r' = abi r ∧ c'.live = c.live
    | .dies => trap w c n i r = .abort
    | .undefined => trap w c n i r = .ub := by
  have hbad : (∀ x, request w c n q ≠ .ok x) →
      ∃ r', Syscall.emulate ⟨hostOf w c n, w.pid, w.str, fun f => f⟩ i r = .ok (r', [q]) := by
    intro hno
    obtain ⟨r', e1, _⟩ := hem (.value 0) (by simp [Syscall.Answer.Proper]) (by
      simp only [hostOf]
      split
      · rename_i x hx; exact absurd hx (hno _)
      · simp [Syscall.Arrives])
    exact ⟨r', e1⟩
  cases e
  · cases hr : request w c n q with
    | ok x =>
      obtain ⟨rep, log, c'⟩ := x
      rw [hr] at he
      obtain ⟨hl, ans, h3, h4⟩ := he
      have hhost : hostOf w c n q = rep := by rw [hostOf, hr]
      obtain ⟨r', e1, e2, e3, e4⟩ := hem ans h3 (by rw [hhost]; exact h4)
      exact ⟨r', log, c', ans, by rw [trap, e1]; simp only [hr], h3, e2, e3, e4, hl⟩
    | abort => rw [hr] at he; exact he.elim
    | throws => rw [hr] at he; exact he.elim
    | ub => rw [hr] at he; exact he.elim
  · cases hr : request w c n q with
    | ok x => rw [hr] at he; exact he.elim
    | abort =>
      obtain ⟨r', e1⟩ := hbad (by rw [hr]; exact fun _ h => nomatch h)
      rw [trap, e1]
      simp only [hr]
    | throws => rw [hr] at he; exact he.elim
    | ub => rw [hr] at he; exact he.elim
  · cases hr : request w c n q with
    | ok x => rw [hr] at he; exact he.elim
    | ub =>
      obtain ⟨r', e1⟩ := hbad (by rw [hr]; exact fun _ h => nomatch h)
      rw [trap, e1]
      simp only [hr]
    | throws => rw [hr] at he; exact he.elim
    | abort => rw [hr] at he; exact he.elim

/-! ## C66 -/

/-- **C66, how every call ends.**  A sandboxed program makes `open`, `stat` or `access` with any pointers at all, and its
child has any number of blocks left.  The call ends as the conversion of its pointers does: it is undefined if a null
pointer comes to be followed, the child dies if a block is needed and there is none, and otherwise the host answers, the
program goes on after the call with a result that the C library can read, its argument registers are as they were, and
the child's blocks are free again. -/
theorem trap_ends {w : World} {hist : List Export} {users : List Nat} (hw : Setup w hist users) {c : Child} {n : Nat}
    {i : Info} {r : Regs} {want : Want} {path sb : Word} (hcode : i.code = 1)
    (hcall : asks i.syscall (abi r) = some (want, path, sb)) :
    match converts (pointers w want path sb) c.mallocs.length with
    | .answered => ∃ r' log c' ans, trap w c n i r = .ok (r', log, c') ∧ ans.Proper ∧ libc r'.rax = found ans ∧
        r'.rip = i.callAddr ∧ abi r' = abi r ∧ c'.live = c.live
    | .dies => trap w c n i r = .abort
    | .undefined => trap w c n i r = .ub := by
  obtain ⟨hwant, hne⟩ := wanted_asks hcall
  exact call_ends (request_ends hw c n want path sb) fun a hp ha => emulate_faithful hcode hwant (fun h => absurd h hne) hp ha

/-- **C66, how every `openat` of an absolute path ends.**  The same for `openat` with an absolute path anywhere, unless the
path names the process's own descriptors. -/
theorem openat_ends {w : World} {hist : List Export} {users : List Nat} (hw : Setup w hist users) {c : Child} {n : Nat}
    {i : Info} {r : Regs} {s : List Byte} (hcode : i.code = 1) (hnr : i.syscall = 257) (hstr : w.str r.rsi = some s)
    (habs : s.head? = some 47) (hown : ¬ Syscall.fdDir w.pid <+: s) (hz : r.rsi ≠ 0) :
    match converts [copied w.bounds r.rsi, copied w.bounds w.sp] c.mallocs.length with
    | .answered => ∃ r' log c' ans, trap w c n i r = .ok (r', log, c') ∧ ans.Proper ∧ libc r'.rax = found ans ∧
        r'.rip = i.callAddr ∧ abi r' = abi r ∧ c'.live = c.live
    | .dies => trap w c n i r = .abort
    | .undefined => trap w c n i r = .ub :=
  call_ends (request_ends hw c n (.open_ (r.rdx.setWidth 32) (r.r10.setWidth 32)) r.rsi 0)
    fun _ hp ha => Syscall.openat_absolute (v := ⟨hostOf w c n, w.pid, w.str, fun f => f⟩) hcode hnr hstr hz hown habs hp ha

/-- An absolute path outside the shared memory needs a block. -/
example : trap exWorld { exChild with mallocs := [] } 6 ⟨1, 257, 0x700⟩ ⟨257, 0, 0x5000, 0, 0, 0, 0, 0x6fe⟩ = .abort :=
  openat_ends exSetup (c := { exChild with mallocs := [] }) (n := 6) (i := ⟨1, 257, 0x700⟩)
    (r := ⟨257, 0, 0x5000, 0, 0, 0, 0, 0x6fe⟩) (s := txt "/lib/x") rfl rfl rfl (by decide +kernel)
    (by decide +kernel) (by decide)

/-- `stat` with a path outside the shared memory and a buffer inside needs one block; with a null buffer it is undefined,
unless the child dies first. -/
example : converts (pointers exWorld .stat 0x5000 0x19000) 1 = .answered ∧
    converts (pointers exWorld .stat 0x5000 0) 1 = .undefined ∧
    converts (pointers exWorld .stat 0x5000 0) 0 = .dies := by
  refine ⟨by decide, by decide, by decide⟩

/-- A call with a null buffer, and what comes of it. -/
example : trap exWorld exChild 6 ⟨1, 4, 0x700⟩ ⟨4, 0x5000, 0, 0, 0, 0, 0, 0x6fe⟩ = .ub :=
  trap_ends exSetup (c := exChild) (n := 6) (i := ⟨1, 4, 0x700⟩) (r := ⟨4, 0x5000, 0, 0, 0, 0, 0, 0x6fe⟩) (want := .stat)
    (path := 0x5000) (sb := 0) rfl rfl

end Verif.EndToEnd
