import Verif.BsdEnd.Props
import Verif.BsdNet.Ends
import Verif.BsdRel.Spec
import Verif.EndToEnd.Ends
import Verif.FreeBsd.Ends

/-!
# How every refused call on a path ends on FreeBSD, whatever the program passes (property C121)
-/

namespace Verif.BsdEnd

open Verif.Strings
open Verif.Path (txt)
open Verif.FileTree (Export exHist)
open Verif.Callback (Result)
open Verif.PathSyscall (Call)
open Verif.BsdPath
open Verif.ChildArgs (Bounds Child Wrapped wrapPtr wrapCStr unwrap)
open Verif.Syscall (CInt Arg Reply Answer Arrives found)
open Verif.EndToEnd (Want End converts copied pointers Ended Answered Mild Sane around wrap_ends ended_mem reply_proper
  answerOf int_mild fd_mild reqOf callOf kindOf frameSize reply)
open Verif.FreeBsd (Regs Info libc OnlyResult trapCap told number_told extract_told)
open Verif.BsdNet (Makes)
open Verif.BsdRel (asksRel)

/-! ### Lemmas -/

theorem makes_told {i : Info} {r : Regs} {cl : FreeBsd.Call} (h : Makes i r cl) : cl = told i r := by
  rcases h with ⟨code, hi, rfl⟩ | ⟨hi, rfl⟩ <;> simp only [told, hi]

theorem told_makes (i : Info) (r : Regs) : Makes i r (told i r) := by
  cases h : i.syscall with
  | some code => exact .inl ⟨code, h, by simp only [told, h]⟩
  | none => exact .inr ⟨h, by simp only [told, h]⟩

theorem path_mild (v : BsdPath.Env) (a : Word) (f : Int → Verif.Path.Path → Result × Log)
    (hf : ∀ fd t, Mild (f fd t).1.integer) {res : Result} {log : Log} (h : handlePath v a f = .ok (res, log)) :
    Mild res.integer := by
  have hc : ∀ e : Int, e = EINVAL ∨ e = ENOENT → Mild (-e) := by
    rintro e (rfl | rfl) <;> (simp only [Mild]; decide)
  unfold handlePath at h
  split at h
  · cases h; exact hc _ (.inl rfl)
  · split at h
    · split at h
      · cases h; exact hc _ (.inl rfl)
      · split at h
        · cases h; exact hc _ (.inr rfl)
        · rename_i fd tail _
          have := hf fd tail
          cases h' : f fd tail with
          | mk x y =>
            rw [h'] at h this
            cases h
            exact this
    all_goals cases h
  all_goals cases h

theorem bsd_fd_mild {r : Int × Int} (h : Sane r) : Mild (BsdPath.returnFd r).integer := by
  simp only [BsdPath.returnFd, Mild]
  split
  · simp only; omega
  · rename_i h0
    have := h.2 (by omega)
    simp only
    omega

theorem serve_mild {w : World} {hist : List Export} {users : List Nat} (hw : Setup w hist users) (m : Mem)
    (call : Call) : ∃ res log, serve (w.env m) call = .ok (res, log) ∧ Mild res.integer := by
  have hk : ∀ l op, Sane (w.bsd l op) := fun l op => hw.bsd l op
  obtain ⟨⟨res, log⟩, h⟩ : ∃ x, serve (w.env m) call = .ok x := by
    refine ((bsd_ends_iff (w.env m) hw.base.wf hw.base.mallocOk).1 call).2 fun hn => ?_
    obtain ⟨-, t, -, -, hno⟩ := hn
    exact hw.base.mallocTotal _ hno
  refine ⟨res, log, h, ?_⟩
  cases call with
  | open_ a fl mo =>
    refine path_mild _ _ _ ?_ h
    intro fd t
    simp only [openBody]
    split
    · exact bsd_fd_mild (hk _ _)
    · exact bsd_fd_mild (hk _ _)
  | access a mo =>
    refine path_mild _ _ _ ?_ h
    intro fd t
    exact int_mild (hk _ _)
  | stat a sb =>
    refine path_mild _ _ _ ?_ h
    intro fd t
    simp only [statBody]
    split
    · split
      · exact int_mild (hk _ _)
      · exact int_mild (hk _ _)
    · show -4096 < -EINVAL ∧ -EINVAL < 2 ^ 31
      decide

/-- A request always gets an answer, wherever its frame is. -/
theorem callback_answers {w : World} {hist : List Export} {users : List Nat} (hw : Setup w hist users) (c : Child)
    (call : Call) (data : Word) :
    ∃ i h log m, callback w c (kindOf call) data (-1) = .ok (reply w.toWorld i h, log, { c with mem := m }) ∧ Mild i := by
  have hd : Callback.dispatch w.table (BitVec.ofNat 64 (kindOf call)) = some (.builtin (kindOf call)) := by
    rw [hw.base.table, Callback.dispatch_tableOf]
    cases call <;> rfl
  have hlen : ¬ (Callback.requestSize < Callback.requestSize) := by omega
  have hrun : ∃ res as, run w c.mem (.builtin (kindOf call))
      ⟨.ofNat 64 (kindOf call), .ofNat 64 frameSize, data⟩ (-1) = (.ok res, as) ∧ Mild res.integer := by
    have hz : ¬ (BitVec.ofNat 64 frameSize ≠ BitVec.ofNat 64 frameSize) := fun h => h rfl
    simp only [run, Callback.invoke, if_neg hz]
    split
    · exact ⟨_, _, rfl, (by decide : -4096 < -ENOSYS ∧ -ENOSYS < 2 ^ 31)⟩
    · have hdec : ∀ bs, ∃ call', decode (kindOf call) bs = some call' := by
        intro bs
        cases call <;> exact ⟨_, rfl⟩
      obtain ⟨call', hc'⟩ := hdec ((Callback.copyAddrs data frameSize).map c.mem)
      obtain ⟨res, log, hs, hm⟩ := serve_mild hw c.mem call'
      exact ⟨res, Callback.copyAddrs data frameSize, by rw [servedResult, served, hc']; simp only [hs], hm⟩
  obtain ⟨res, as, h1, h2⟩ := hrun
  obtain ⟨e, he⟩ : ∃ e, e = effects w c.mem
    ⟨Callback.requestSize, ⟨.ofNat 64 (kindOf call), .ofNat 64 frameSize, data⟩, -1⟩ := ⟨_, rfl⟩
  refine ⟨res.integer, res.handle, e.1, e.2, ?_, h2⟩
  rw [he]
  · simp only [callback, Callback.handle, if_neg hlen, hd, h1, if_true, answerOf]

theorem send_ends {w : World} {hist : List Export} {users : List Nat} (hw : Setup w hist users) (c : Child)
    (call : Call) :
    Ended Answered False False c (send w c call) (converts [copied w.bounds w.sp] c.mallocs.length) := by
  have e : send w c call =
      around (wrapPtr w.bounds { c with mem := writeBytes c.mem w.sp (encode w.pad call) } w.sp frameSize)
        (fun f c => callback w c (kindOf call) f.arg (-1)) false frameSize := by
    simp only [send, around]
    rcases wrapPtr w.bounds { c with mem := writeBytes c.mem w.sp (encode w.pad call) } w.sp frameSize with
      ⟨a, c1⟩ | _ | _ | _ <;> try rfl
    simp only
    rcases callback w c1 (kindOf call) a.arg (-1) with ⟨x, y, z⟩ | _ | _ | _ <;> rfl
  rw [e]
  refine ended_mem (c' := { c with mem := writeBytes c.mem w.sp (encode w.pad call) }) rfl ?_
  refine wrap_ends w.bounds { c with mem := writeBytes c.mem w.sp (encode w.pad call) } w.sp frameSize false [] _ ?_
  intro a c'
  obtain ⟨i, h, log, m, h1, h2⟩ := callback_answers hw c' call a.arg
  simp only [h1, converts, Ended]
  exact ⟨trivial, reply_proper hw.base h2⟩

theorem request_around (w : World) (c : Child) (n : Nat) (want : Want) (path sb : Word) :
    request w c n (reqOf path sb want) = around (wrapPtr w.bounds c path (n + 1))
      (fun a c => if want = .stat then around (wrapPtr w.bounds c sb statSize)
          (fun b c => send w c (callOf a.arg b.arg want)) true statSize
        else send w c (callOf a.arg 0 want)) false (n + 1) := by
  cases want with
  | open_ fl mo =>
    simp only [reqOf, request, wrapCStr, around, callOf, reduceCtorEq, if_false]
    rcases wrapPtr w.bounds c path (n + 1) with ⟨a, c1⟩ | _ | _ | _ <;> try rfl
    simp only
    rcases send w c1 (.open_ a.arg fl mo) with ⟨x, y, z⟩ | _ | _ | _ <;> rfl
  | access mo =>
    simp only [reqOf, request, wrapCStr, around, callOf, reduceCtorEq, if_false]
    rcases wrapPtr w.bounds c path (n + 1) with ⟨a, c1⟩ | _ | _ | _ <;> try rfl
    simp only
    rcases send w c1 (.access a.arg mo) with ⟨x, y, z⟩ | _ | _ | _ <;> rfl
  | stat =>
    simp only [reqOf, request, wrapCStr, around, callOf, if_true]
    rcases wrapPtr w.bounds c path (n + 1) with ⟨a, c1⟩ | _ | _ | _ <;> try rfl
    simp only
    rcases wrapPtr w.bounds c1 sb statSize with ⟨b, c2⟩ | _ | _ | _ <;> try rfl
    simp only
    rcases send w c2 (.stat a.arg b.arg) with ⟨x, y, z⟩ | _ | _ | _ <;> rfl

theorem request_ends {w : World} {hist : List Export} {users : List Nat} (hw : Setup w hist users) (c : Child) (n : Nat)
    (want : Want) (path sb : Word) :
    Ended Answered False False c (request w c n (reqOf path sb want))
      (converts (pointers w.toWorld want path sb) c.mallocs.length) := by
  rw [request_around]
  by_cases hs : want = .stat
  · subst hs
    refine wrap_ends w.bounds c path (n + 1) false [copied w.bounds sb, copied w.bounds w.sp] _ fun a c' => ?_
    rw [if_pos rfl]
    exact wrap_ends w.bounds c' sb statSize true [copied w.bounds w.sp] _ fun b c'' => send_ends hw c'' _
  · have hp : pointers w.toWorld want path sb = [copied w.bounds path, copied w.bounds w.sp] := by
      cases want <;> first | rfl | exact absurd rfl hs
    rw [hp]
    refine wrap_ends w.bounds c path (n + 1) false [copied w.bounds w.sp] _ fun a c' => ?_
    rw [if_neg hs]
    exact send_ends hw c' _

/-- A call that makes the request `q` ends as the request does. -/
theorem call_ends {w : World} {c : Child} {n : Nat} {i : Info} {r : Regs} {q : Syscall.Request} {e : End}
    (he : Ended Answered False False c (request w c n q) e)
    (hem : ∀ a : Syscall.Answer, a.Proper → Arrives a (hostOf w c n q) →
      ∃ r', FreeBsd.emulate ⟨hostOf w c n, w.pid, w.str, fun f => f⟩ i r = .ok (r', [q]) ∧ libc r' = found a ∧
        OnlyResult r r') :
    match (generalizing := false) e with
    | .answered => ∃ r' log c' ans, trap w c n i r = .ok (r', log, c') ∧ ans.Proper ∧ libc r' = found ans ∧
        OnlyResult r r' ∧ c'.live = c.live
    | .dies => trap w c n i r = .abort
    | .undefined => trap w c n i r = .ub := by
  have hbad : (∀ x, request w c n q ≠ .ok x) →
      ∃ r', FreeBsd.emulate ⟨hostOf w c n, w.pid, w.str, fun f => f⟩ i r = .ok (r', [q]) := by
    intro hno
    obtain ⟨r', e1, _⟩ := hem (.value 0) (by simp [Syscall.Answer.Proper]) (by
      simp only [hostOf]
      split
      · rename_i x hx; exact absurd hx (hno _)
      · simp [Syscall.Arrives])
    exact ⟨r', e1⟩
  cases e
  · cases hr : request w c n q with
    | ok x =>
      obtain ⟨rep, log, c'⟩ := x
      rw [hr] at he
      obtain ⟨hl, ans, h3, h4⟩ := he
      have hhost : hostOf w c n q = rep := by rw [hostOf, hr]
      obtain ⟨r', e1, e2, e3⟩ := hem ans h3 (by rw [hhost]; exact h4)
      exact ⟨r', log, c', ans, by rw [trap, e1]; simp only [hr], h3, e2, e3, hl⟩
    | abort => rw [hr] at he; exact he.elim
    | throws => rw [hr] at he; exact he.elim
    | ub => rw [hr] at he; exact he.elim
  · cases hr : request w c n q with
    | ok x => rw [hr] at he; exact he.elim
    | abort =>
      obtain ⟨r', e1⟩ := hbad (by rw [hr]; exact fun _ h => nomatch h)
      rw [trap, e1]
      simp only [hr]
    | throws => rw [hr] at he; exact he.elim
    | ub => rw [hr] at he; exact he.elim
  · cases hr : request w c n q with
    | ok x => rw [hr] at he; exact he.elim
    | ub =>
      obtain ⟨r', e1⟩ := hbad (by rw [hr]; exact fun _ h => nomatch h)
      rw [trap, e1]
      simp only [hr]
    | throws => rw [hr] at he; exact he.elim
    | abort => rw [hr] at he; exact he.elim

/-- What `openat` is asked for. -/
theorem asksRel_cases {cl : FreeBsd.Call} {dir flags mode : CInt} {path : Word}
    (h : asksRel cl = some (dir, path, flags, mode)) :
    ∃ d f m l, cl = ⟨499, d :: path :: f :: m :: l⟩ ∧ dir = d.setWidth 32 ∧ flags = f.setWidth 32 ∧
      mode = (m.setWidth 16).setWidth 32 := by
  obtain ⟨nr, args⟩ := cl
  simp only [asksRel] at h
  split at h
  · rename_i d p f m l
    split at h
    · rename_i hnr
      simp only [Option.some.injEq, Prod.mk.injEq] at h
      obtain ⟨rfl, rfl, rfl, rfl⟩ := h
      exact ⟨d, f, m, l, by rw [show nr = 499 from hnr], rfl, rfl, rfl⟩
    · cases h
  · cases h

/-! ## C121 -/

/-- **C121, how every call ends.**  A sandboxed program on FreeBSD makes `open`, `freebsd11_stat` or `access` with any pointers at
all, and its child has any number of blocks left.  The call ends as the conversion of its pointers does: it is undefined
if a null pointer comes to be followed, the child dies if a block is needed and there is none, and otherwise the host
answers, the program goes on after the call with a result that the C library can read, its other registers are as they
were, and the child's blocks are free again. -/
theorem bsd_trap_ends {w : World} {hist : List Export} {users : List Nat} (hw : Setup w hist users) {c : Child} {n : Nat}
    {i : Info} {r : Regs} {cl : FreeBsd.Call} {want : Want} {path sb : Word} (hcode : i.code = trapCap) (hm : Makes i r cl)
    (hcall : asksPath cl = some (want, path, sb)) :
    match converts (pointers w.toWorld want path sb) c.mallocs.length with
    | .answered => ∃ r' log c' ans, trap w c n i r = .ok (r', log, c') ∧ ans.Proper ∧ libc r' = found ans ∧
        OnlyResult r r' ∧ c'.live = c.live
    | .dies => trap w c n i r = .abort
    | .undefined => trap w c n i r = .ub := by
  refine call_ends (request_ends hw c n want path sb) fun a hp ha => ?_
  rcases hm with ⟨code, hi, rfl⟩ | ⟨hi, rfl⟩
  · obtain ⟨hwant, hne, _⟩ := wanted_asksPath (FreeBsd.asks_length code r) hcall
    exact FreeBsd.trapped_faithful hcode hi hwant (fun h => absurd h hne) hp ha
  · obtain ⟨hwant, hne, _⟩ := wanted_asksPath (by simp) hcall
    exact FreeBsd.trapped_faithful_old hcode hi hwant (fun h => absurd h hne) hp ha

/-- **C121, how every `openat` of an absolute path ends.**  The same for `openat` with an absolute path anywhere. -/
theorem bsd_openat_ends {w : World} {hist : List Export} {users : List Nat} (hw : Setup w hist users) {c : Child} {n : Nat}
    {i : Info} {r : Regs} {cl : FreeBsd.Call} {dir flags mode : CInt} {path : Word} {s : List Byte} (hcode : i.code = trapCap)
    (hm : Makes i r cl) (hcall : asksRel cl = some (dir, path, flags, mode)) (hstr : w.str path = some s)
    (habs : s.head? = some 47) (hz : path ≠ 0) :
    match converts [copied w.bounds path, copied w.bounds w.sp] c.mallocs.length with
    | .answered => ∃ r' log c' ans, trap w c n i r = .ok (r', log, c') ∧ ans.Proper ∧ libc r' = found ans ∧
        OnlyResult r r' ∧ c'.live = c.live
    | .dies => trap w c n i r = .abort
    | .undefined => trap w c n i r = .ub := by
  refine call_ends (request_ends hw c n (.open_ flags mode) path 0) fun a hp ha => ?_
  obtain ⟨d, f, m, l, hcl, -, rfl, rfl⟩ := asksRel_cases hcall
  have ht : told i r = ⟨499, d :: path :: f :: m :: l⟩ := by rw [← makes_told hm, hcl]
  refine ⟨FreeBsd.resumed r (BitVec.ofInt 32 (Syscall.asInt a)), ?_, FreeBsd.libc_resumed hp r, FreeBsd.resumed_only r _⟩
  have h3 : FreeBsd.callEntry ⟨hostOf w c n, w.pid, w.str, fun f => f⟩ 3 ((told i r).args.take (FreeBsd.arity 3)) =
      .ok ⟨BitVec.ofInt 32 (Syscall.asInt a), [⟨0, [.cstr path, .int (f.setWidth 32), .int ((m.setWidth 16).setWidth 32)], -1⟩]⟩ := by
    simp only [ht, FreeBsd.arity, List.take, FreeBsd.callEntry, FreeBsd.openat, if_neg hz, hstr, habs, if_true]
    exact congrArg Outcome.ok (Syscall.helper_arrives hp ha)
  rw [FreeBsd.emulate, if_pos hcode, FreeBsd.dispatch_hit (n := 3) (by rw [number_told, ht]; rfl)
    (extract_told i r _ (by decide)) h3 (Syscall.proper_ne_min hp (Syscall.toInt_asInt hp)) (by omega)]
  rfl

/-- An absolute path outside the shared memory needs a block. -/
example : trap exWorld { exChild with mallocs := [] } 6 ⟨5, some 499⟩ ⟨499, 0, 0x5000, 0, 0, 0, 0, 0x700, 1⟩ = .abort :=
  bsd_openat_ends exSetup (c := { exChild with mallocs := [] }) (n := 6) (i := ⟨5, some 499⟩)
    (r := ⟨499, 0, 0x5000, 0, 0, 0, 0, 0x700, 1⟩) (dir := 0) (path := 0x5000) (flags := 0) (mode := 0) (s := txt "/lib/x")
    rfl (.inl ⟨_, rfl, rfl⟩) rfl rfl (by decide +kernel) (by decide)

/-- A call with a null buffer, and what comes of it. -/
example : trap exWorld exChild 6 ⟨5, some 188⟩ ⟨188, 0x5000, 0, 0, 0, 0, 0, 0x700, 1⟩ = .ub :=
  bsd_trap_ends exSetup (c := exChild) (n := 6) (i := ⟨5, some 188⟩) (r := ⟨188, 0x5000, 0, 0, 0, 0, 0, 0x700, 1⟩)
    (want := .stat) (path := 0x5000) (sb := 0) rfl (.inl ⟨_, rfl, rfl⟩) rfl

end Verif.BsdEnd
