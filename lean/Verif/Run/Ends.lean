import Verif.Run.Props
import Verif.EndToEnd.Ends
import Verif.NetEnd.Ends
import Verif.RelEnd.Ends
import Verif.NameEnd.Ends
import Verif.Syscall.Ends

/-!
# How every step of a sandboxed program ends, whatever the program passes (property C117)

`Run.run_transparent` is about programs that make their calls properly.  Here the calls are any calls, with any pointers,
numbers and descriptors, and the child has any number of blocks left.
-/

namespace Verif.Run

open Verif.Net (Op Config)
open Verif.Net.Spec (IsLast)
open Verif.ChildArgs (Child Wrapped wrapUser unwrap inside)
open Verif.Syscall (CInt Regs Info abi)
open Verif.EndToEnd (End converts copied asks)
open Verif.NetEnd (Closed copiedAddr opAsked)

/-! ### Specification -/

/-- The pointers that the child converts for a call, in order, each with whether it copies what is there. -/
def pointers (w : World) : Act → List (Bool × Word)
  | .stop => []
  | .sys i r =>
    if i.code = 1 then
      match asks i.syscall (abi r) with
      | some (want, path, sb) => EndToEnd.pointers w.toNet.toWorld want path sb
      | none =>
        if i.syscall = 257 then if r.rsi = 0 then [] else [copied w.bounds r.rsi, copied w.bounds w.sp]
        else if i.syscall = 49 ∨ i.syscall = 42 then
          [copiedAddr w.bounds r.rsi (r.rdx.setWidth 32 : CInt).toNat, copied w.bounds w.sp]
        else []
    else []
  | .back _ data size _ _ => [(!inside w.bounds data (.ofNat 64 size), data)]
  | .look host serv hints _ _ => NameEnd.pointers w.names host serv hints

/-- The number of the descriptor that goes with a call: the socket, the directory of a relative path, or that of a callback. -/
def sends (m : Mem) : Act → Option CInt
  | .sys i r =>
    if i.code = 1 ∧ (i.syscall = 49 ∨ i.syscall = 42 ∨ (isRelative m i r ∧ r.rsi ≠ 0)) then some (r.rdi.setWidth 32) else none
  | .back _ _ _ fd _ => some fd
  | _ => none

/-- The operation on the network that a call asks for. -/
def operation : Act → Option Op
  | .sys i _ => if i.code = 1 then opAsked i.syscall else none
  | .look .. => some .getAddrInfo
  | _ => none

/-- The path of an `openat` is a string, and not that of one of the process's own descriptors. -/
def Plain (w : World) (m : Mem) : Act → Prop
  | .sys i r => i.code = 1 → i.syscall = 257 → ∃ s, readString m (2 ^ 64) r.rsi = some s ∧ ¬ Syscall.fdDir w.pid <+: s
  | _ => True

/-- The place for the result of a lookup is null. -/
def Nowhere : Act → Prop
  | .look _ _ _ res _ => res = 0
  | _ => False

/-! ### Lemmas -/

/-- A null path that is a string. -/
theorem emulate_null {v : Syscall.Env} {i : Info} {r : Regs} {s : List Byte} (hcode : i.code = 1) (hnr : i.syscall = 257)
    (h0 : r.rsi = 0) (hs : v.str r.rsi = some s) (hown : ¬ Syscall.fdDir v.pid <+: s) :
    Syscall.emulate v i r = .ok (Syscall.resumed i r (-22), []) := by
  have hp := Syscall.scan_outside hown
  rw [Syscall.emulate, if_pos hcode]
  refine Syscall.dispatch_hit (n := 3) (d := ⟨-22, []⟩) (by rw [hnr]; rfl) ?_ (by decide) (by omega)
  simp only [Syscall.callEntry, Syscall.openat, Regs.arg, hs, hp, if_pos h0]
  rfl

/-- A trap that is no system call of the table, or no trap. -/
theorem emulate_else {v : Syscall.Env} {i : Info} {r : Regs} (h : ¬ (i.code = 1 ∧ ∃ n, n < 6 ∧
    Syscall.syscallNumbers[n]? = some i.syscall)) : Syscall.emulate v i r = .ok (r, []) := by
  by_cases hc : i.code = 1
  · rw [Syscall.emulate, if_pos hc]
    exact Syscall.dispatch_miss v i r 6 fun m hm e => h ⟨hc, m, hm, e⟩
  · exact Syscall.other_signal v i r hc

theorem rel_null {w : NetEnd.World} {c : Child} {n : Nat} {i : Info} {r : Regs} {s : List Byte} (hcode : i.code = 1)
    (hnr : i.syscall = 257) (h0 : r.rsi = 0) (hs : w.str r.rsi = some s) (hown : ¬ Syscall.fdDir w.pid <+: s) :
    RelEnd.trap w c n i r = .ok (Syscall.resumed i r (-22), [], c) := by
  have e := emulate_null (v := ⟨RelEnd.hostOf w c n, w.pid, w.str, fun f => f⟩) hcode hnr h0 hs hown
  rw [RelEnd.trap, e]

theorem path_null {w : EndToEnd.World} {c : Child} {n : Nat} {i : Info} {r : Regs} {s : List Byte} (hcode : i.code = 1)
    (hnr : i.syscall = 257) (h0 : r.rsi = 0) (hs : w.str r.rsi = some s) (hown : ¬ Syscall.fdDir w.pid <+: s) :
    EndToEnd.trap w c n i r = .ok (Syscall.resumed i r (-22), [], c) := by
  have e := emulate_null (v := ⟨EndToEnd.hostOf w c n, w.pid, w.str, fun f => f⟩) hcode hnr h0 hs hown
  rw [EndToEnd.trap, e]

theorem path_else {w : EndToEnd.World} {c : Child} {n : Nat} {i : Info} {r : Regs} (h : ¬ (i.code = 1 ∧ ∃ n, n < 6 ∧
    Syscall.syscallNumbers[n]? = some i.syscall)) : EndToEnd.trap w c n i r = .ok (r, [], c) := by
  rw [EndToEnd.trap, emulate_else h]

/-- A callback leaves the child's blocks as they were. -/
theorem user_live {w : UserEnd.World} {c : Child} {idx : CInt} {data : Word} {size : Nat} {fd : CInt} {v : CInt}
    {calls : UserEnd.Calls} {c' : Child} (h : UserEnd.invokeUser w c idx data size fd = .ok (v, calls, c')) :
    c'.live = c.live := by
  have hcb : ∀ c1 data r calls c2, UserEnd.callback w c1 idx data size fd = .ok (r, calls, c2) → c2.live = c1.live := by
    intro c1 data r calls c2 h
    unfold UserEnd.callback at h
    repeat' split at h
    all_goals first
      | contradiction
      | (cases h; rfl)
  have hw : ∀ a c1, wrapUser w.bounds c data size = .ok (a, c1) → c1.live = a.copy.toList ++ c.live := by
    intro a c1 h
    unfold wrapUser at h
    split at h
    · cases h; rfl
    · split at h
      · rename_i p c2 hd
        cases h
        unfold ChildArgs.dupBytes at hd
        repeat' split at hd
        all_goals first
          | contradiction
          | (cases hd; rfl)
      all_goals contradiction
  unfold UserEnd.invokeUser at h
  split at h
  · rename_i a c1 h1
    split at h
    · rename_i r calls c2 h2
      cases h
      exact (UserEnd.unwrap_live (by rw [hcb _ _ _ _ _ h2, hw _ _ h1])).1
    all_goals contradiction
  all_goals contradiction

/-- How every callback ends. -/
theorem user_ends (w : UserEnd.World) (c : Child) (idx : CInt) (data : Word) (size : Nat) (fd : CInt) :
    match converts [(!inside w.bounds data (.ofNat 64 size), data)] c.mallocs.length with
    | .answered =>
      (Closed w.toNet fd ∧ UserEnd.invokeUser w c idx data size fd = .abort) ∨
      (¬ Closed w.toNet fd ∧ ∃ v calls c', UserEnd.invokeUser w c idx data size fd = .ok (v, calls, c') ∧ c'.live = c.live)
    | .dies => UserEnd.invokeUser w c idx data size fd = .abort
    | .undefined => UserEnd.invokeUser w c idx data size fd = .ub := by
  obtain ⟨h1, h2, h3⟩ := UserEnd.user_call_ends_iff w c idx data size fd
  have hl := @user_live w c idx data size fd
  have key : ¬ (inside w.bounds data (.ofNat 64 size) = false ∧ data = 0) →
      ¬ (inside w.bounds data (.ofNat 64 size) = false ∧ data ≠ 0 ∧ c.mallocs = []) →
      (Closed w.toNet fd ∧ UserEnd.invokeUser w c idx data size fd = .abort) ∨
      (¬ Closed w.toNet fd ∧ ∃ v calls c', UserEnd.invokeUser w c idx data size fd = .ok (v, calls, c') ∧
        c'.live = c.live) := by
    intro n1 n2
    by_cases hc : Closed w.toNet fd
    · exact .inl ⟨hc, h2.2 (.inr ⟨fun a b => n1 ⟨a, b⟩, hc⟩)⟩
    · refine .inr ⟨hc, ?_⟩
      cases ho : UserEnd.invokeUser w c idx data size fd with
      | ok x => obtain ⟨v, calls, c'⟩ := x; exact ⟨v, calls, c', rfl, hl ho⟩
      | abort =>
        rcases h2.1 ho with h | ⟨-, h⟩
        · exact absurd h n2
        · exact absurd h hc
      | throws => exact absurd ho h3
      | ub => exact absurd (h1.1 ho) n1
  cases hi : inside w.bounds data (.ofNat 64 size) with
  | true => exact key (by simp [hi]) (by simp [hi])
  | false =>
    by_cases h0 : data = 0
    · have : converts [(!false, data)] c.mallocs.length = .undefined := by simp [converts, h0]
      rw [this]
      exact h1.2 ⟨hi, h0⟩
    · cases hm : c.mallocs with
      | nil =>
        have : converts [(!false, data)] ([] : List Word).length = .dies := by
          show (if data = 0 then _ else _) = _
          rw [if_neg h0]
          rfl
        rw [this]
        exact h2.2 (.inl ⟨hi, h0, hm⟩)
      | cons b bs =>
        have : converts [(!false, data)] (b :: bs).length = .answered := by
          show (if data = 0 then _ else _) = _
          rw [if_neg h0]
          rfl
        rw [this]
        exact key (fun h => h0 h.2) (fun h => by rw [hm] at h; exact nomatch h.2.2)

/-- What a step makes of the end of a call. -/
def went {α β : Type} (f : α → β → Child → State) : Outcome (α × β × Child) → Outcome (Option State)
  | .ok (a, b, c) => .ok (some (f a b c))
  | .abort => .abort
  | .throws => .throws
  | .ub => .ub

/-- The ends of a step, in terms of those of the conversion. -/
def StepEnds (conf : List Config) (w : World) (m : Mem) (act : Act) (s : State) (o : Outcome (Option State)) : End → Prop
  | .undefined => o = .ub
  | .dies => o = .abort
  | .answered =>
    (∃ fd, sends m act = some fd ∧ Closed w.toNet fd ∧ o = .abort) ∨
    ((∀ fd, sends m act = some fd → ¬ Closed w.toNet fd) ∧
      ((act = .stop ∧ o = .ok none) ∨
       (∃ s' e, o = .ok (some s') ∧ s'.child.live = s.child.live ∧ s'.past = s.past ++ [e]) ∨
       (Nowhere act ∧ o = .ub) ∨
       (∃ op, operation act = some op ∧ IsLast conf op (.register op none) ∧ o = .throws)))

theorem back_ends {conf : List Config} {w : World} {m : Mem} {idx : CInt} {data : Word} {size : Nat} {fd : CInt} {r : Regs} (s : State) {blocks : List Word} :
    StepEnds conf w m (.back idx data size fd r) s (went (fun v calls c' => ⟨c', { r with rax := v.setWidth 64 }, s.past ++ [.user calls]⟩)
      (UserEnd.invokeUser w.toUser ⟨m, s.child.live, blocks⟩ idx data size fd)) (converts (pointers w (.back idx data size fd r)) blocks.length) := by
  have he := user_ends w.toUser ⟨m, s.child.live, blocks⟩ idx data size fd
  simp only [pointers]
  simp only at he
  generalize converts [(!inside w.bounds data (.ofNat 64 size), data)] blocks.length = e at he ⊢
  cases e with
  | dies => simp only at he ⊢; rw [he]; rfl
  | undefined => simp only at he ⊢; rw [he]; rfl
  | answered =>
    simp only at he ⊢
    rcases he with ⟨hc, he⟩ | ⟨hc, v, calls, c', he, hl⟩
    · exact .inl ⟨fd, rfl, hc, by rw [he]; rfl⟩
    · exact .inr ⟨fun x h => by cases h; exact hc, .inr (.inl ⟨_, _, by rw [he]; rfl, hl, rfl⟩)⟩

theorem look_ends {conf : List Config} {w : World} {hist : List Verif.FileTree.Export} {users : List Nat} {m : Mem}
    (hn : NameEnd.Setup w.names hist users conf) {host serv hints res : Word} {r : Regs} (s : State) {blocks : List Word} :
    StepEnds conf w m (.look host serv hints res r) s (went (fun v calls c' => ⟨c', { r with rax := v.setWidth 64 }, s.past ++ [.look calls]⟩)
      (NameEnd.getaddrinfo w.names ⟨m, s.child.live, blocks⟩ host serv hints res (nameLength m host) (nameLength m serv))) (converts (pointers w (.look host serv hints res r)) blocks.length) := by
  have he := NameEnd.lookup_ends hn ⟨m, s.child.live, blocks⟩ host serv hints res (nameLength m host) (nameLength m serv)
  simp only [pointers]
  simp only at he
  generalize converts (NameEnd.pointers w.names host serv hints) blocks.length = e at he ⊢
  cases e with
  | dies => simp only at he ⊢; rw [he]; rfl
  | undefined => simp only at he ⊢; rw [he]; rfl
  | answered =>
    simp only at he ⊢
    refine .inr ⟨fun _ h => (nomatch h), .inr ?_⟩
    rcases he with ⟨_, n, calls, c', he, hl⟩ | ⟨hz, he⟩ | ⟨he, hl⟩
    · exact .inl ⟨_, _, by rw [he]; rfl, hl, rfl⟩
    · exact .inr (.inl ⟨hz, by rw [he]; rfl⟩)
    · exact .inr (.inr ⟨_, rfl, hl, by rw [he]; rfl⟩)

theorem net_ends {conf : List Config} {w : World} {hist : List Verif.FileTree.Export} {users : List Nat} {m : Mem}
    (hu : UserEnd.Setup w.toUser hist users conf) {i : Info} {r : Regs} (hnet : i.syscall = 49 ∨ i.syscall = 42) (s : State) {blocks : List Word} :
    StepEnds conf w m (.sys i r) s (went (fun r' calls c' => ⟨c', r', s.past ++ [.net calls]⟩)
      (NetEnd.trap w.toNet ⟨m, s.child.live, blocks⟩ i r)) (converts (pointers w (.sys i r)) blocks.length) := by
  have hask : asks i.syscall (abi r) = none := by
    simp only [asks, abi]
    rw [if_neg (by omega), if_neg (by omega), if_neg (by omega)]
  by_cases hcode : i.code = 1
  · obtain ⟨op, hop⟩ : ∃ op, opAsked i.syscall = some op := by
      unfold opAsked
      rcases hnet with h | h <;> rw [h] <;> exact ⟨_, rfl⟩
    have he := NetEnd.network_ends hu.base (c := ⟨m, s.child.live, blocks⟩) (i := i) (r := r) hcode hop
    simp only [pointers, if_pos hcode, hask, if_neg (show ¬ i.syscall = 257 by omega), if_pos hnet]
    have hsend : sends m (.sys i r) = some (r.rdi.setWidth 32) := by
      simp only [sends]
      exact if_pos ⟨hcode, hnet.elim .inl (.inr ∘ .inl)⟩
    simp only at he
    generalize converts [copiedAddr w.bounds r.rsi (r.rdx.setWidth 32 : CInt).toNat, copied w.bounds w.sp]
      blocks.length = e at he ⊢
    cases e with
    | dies => simp only at he ⊢; rw [he]; rfl
    | undefined => simp only at he ⊢; rw [he]; rfl
    | answered =>
      simp only at he ⊢
      rcases he with ⟨hc, he⟩ | ⟨hc, ⟨r', calls, c', ans, he, -, -, -, -, hl⟩ | ⟨he, hl⟩⟩
      · exact .inl ⟨_, hsend, hc, by rw [he]; rfl⟩
      · exact .inr ⟨fun x h => by rw [hsend] at h; cases h; exact hc, .inr (.inl ⟨_, _, by rw [he]; rfl, hl, rfl⟩)⟩
      · refine .inr ⟨fun x h => by rw [hsend] at h; cases h; exact hc, .inr (.inr (.inr ⟨op, ?_, hl, by rw [he]; rfl⟩))⟩
        simp only [operation, if_pos hcode, hop]
  · have ht : NetEnd.trap w.toNet ⟨m, s.child.live, blocks⟩ i r = .ok (r, [], ⟨m, s.child.live, blocks⟩) := by
      rw [NetEnd.trap, emulate_else (fun h => hcode h.1)]
    simp only [pointers, if_neg hcode, converts]
    refine .inr ⟨fun x h => ?_, .inr (.inl ⟨_, _, congrArg (went _) ht, rfl, rfl⟩)⟩
    simp only [sends] at h
    rw [if_neg (fun h => hcode h.1)] at h
    cases h

theorem rel_ends {conf : List Config} {w : World} {hist : List Verif.FileTree.Export} {users : List Nat} {m : Mem}
    (hr : RelEnd.Setup w.toNet hist users) (hw : w.str = readString m (2 ^ 64)) {i : Info} {r : Regs}
    (hplain : Plain w m (.sys i r)) (hnet : ¬ (i.syscall = 49 ∨ i.syscall = 42)) (hrel : isRelative m i r) (s : State) {blocks : List Word} :
    StepEnds conf w m (.sys i r) s (went (fun r' log c' => ⟨c', r', s.past ++ [.host log]⟩)
      (RelEnd.trap w.toNet ⟨m, s.child.live, blocks⟩ (pathLength m i r) i r)) (converts (pointers w (.sys i r)) blocks.length) := by
  have hask : asks i.syscall (abi r) = none := by
    simp only [asks, abi]
    rw [if_neg (by rw [hrel.1]; decide), if_neg (by rw [hrel.1]; decide), if_neg (by rw [hrel.1]; decide)]
  by_cases hcode : i.code = 1
  · obtain ⟨t, ht1, ht2⟩ := hplain hcode hrel.1
    have hstr : w.str r.rsi = some t := by rw [hw]; exact ht1
    by_cases hz : r.rsi = 0
    · have ht : RelEnd.trap w.toNet ⟨m, s.child.live, blocks⟩ (pathLength m i r) i r =
          .ok (Syscall.resumed i r (-22), [], ⟨m, s.child.live, blocks⟩) := by
        exact rel_null hcode hrel.1 hz hstr ht2
      simp only [pointers, if_pos hcode, hask, if_pos hrel.1, if_pos hz, converts]
      refine .inr ⟨fun x h => ?_, .inr (.inl ⟨_, _, congrArg (went _) ht, rfl, rfl⟩)⟩
      simp only [sends] at h
      rw [if_neg (fun h => h.2.elim (fun h => hnet (.inl h)) (fun h => h.elim (fun h => hnet (.inr h)) (fun h => h.2 hz)))]
        at h
      cases h
    · have hhead : t.head? ≠ some 47 := by
        have := hrel.2
        rw [ht1] at this
        exact this
      have he := RelEnd.relative_ends hr (c := ⟨m, s.child.live, blocks⟩) (n := pathLength m i r) (i := i) (r := r)
        hcode hrel.1 hstr hhead hz
      have hsend : sends m (.sys i r) = some (r.rdi.setWidth 32) := by
        simp only [sends]
        exact if_pos ⟨hcode, .inr (.inr ⟨hrel, hz⟩)⟩
      simp only [pointers, if_pos hcode, hask, if_pos hrel.1, if_neg hz]
      simp only at he
      generalize converts [copied w.bounds r.rsi, copied w.bounds w.sp] blocks.length = e at he ⊢
      cases e with
      | dies => simp only at he ⊢; rw [he]; rfl
      | undefined => simp only at he ⊢; rw [he]; rfl
      | answered =>
        simp only at he ⊢
        rcases he with ⟨hc, he⟩ | ⟨hc, r', calls, c', ans, he, -, -, -, -, hl⟩
        · exact .inl ⟨_, hsend, hc, by rw [he]; rfl⟩
        · exact .inr ⟨fun x h => by rw [hsend] at h; cases h; exact hc,
            .inr (.inl ⟨_, _, by rw [he]; rfl, hl, rfl⟩)⟩
  · have ht : RelEnd.trap w.toNet ⟨m, s.child.live, blocks⟩ (pathLength m i r) i r =
        .ok (r, [], ⟨m, s.child.live, blocks⟩) := by
      rw [RelEnd.trap, emulate_else (fun h => hcode h.1)]
    simp only [pointers, if_neg hcode, converts]
    refine .inr ⟨fun x h => ?_, .inr (.inl ⟨_, _, congrArg (went _) ht, rfl, rfl⟩)⟩
    simp only [sends] at h
    rw [if_neg (fun h => hcode h.1)] at h
    cases h

theorem path_ends {conf : List Config} {w : World} {hist : List Verif.FileTree.Export} {users : List Nat} {m : Mem}
    (hu : UserEnd.Setup w.toUser hist users conf) (hw : w.str = readString m (2 ^ 64)) {i : Info} {r : Regs}
    (hplain : Plain w m (.sys i r)) (hnet : ¬ (i.syscall = 49 ∨ i.syscall = 42)) (hrel : ¬ isRelative m i r) (s : State) {blocks : List Word} :
    StepEnds conf w m (.sys i r) s (went (fun r' log c' => ⟨c', r', s.past ++ [.host log]⟩)
      (EndToEnd.trap w.toNet.toWorld ⟨m, s.child.live, blocks⟩ (pathLength m i r) i r)) (converts (pointers w (.sys i r)) blocks.length) := by
  have hsend : sends m (.sys i r) = none := by
    simp only [sends]
    exact if_neg (fun h => h.2.elim (fun h => hnet (.inl h)) (fun h => h.elim (fun h => hnet (.inr h)) (fun h => hrel h.1)))
  have fin : ∀ e : End, (match (generalizing := false) e with
      | .answered => ∃ r' log c', EndToEnd.trap w.toNet.toWorld ⟨m, s.child.live, blocks⟩ (pathLength m i r) i r =
          .ok (r', log, c') ∧ c'.live = s.child.live
      | .dies => EndToEnd.trap w.toNet.toWorld ⟨m, s.child.live, blocks⟩ (pathLength m i r) i r = .abort
      | .undefined => EndToEnd.trap w.toNet.toWorld ⟨m, s.child.live, blocks⟩ (pathLength m i r) i r = .ub) →
      StepEnds conf w m (.sys i r) s (went (fun r' log c' => ⟨c', r', s.past ++ [.host log]⟩)
        (EndToEnd.trap w.toNet.toWorld ⟨m, s.child.live, blocks⟩ (pathLength m i r) i r)) e := by
    intro e he
    cases e with
    | dies => simp only at he ⊢; rw [he]; rfl
    | undefined => simp only at he ⊢; rw [he]; rfl
    | answered =>
      simp only at he ⊢
      obtain ⟨r', log, c', he, hl⟩ := he
      exact .inr ⟨fun x h => (by rw [hsend] at h; cases h), .inr (.inl ⟨_, _, by rw [he]; rfl, hl, rfl⟩)⟩
  apply fin
  by_cases hcode : i.code = 1
  · simp only [pointers, if_pos hcode]
    cases hask : asks i.syscall (abi r) with
    | some x =>
      obtain ⟨want, path, sb⟩ := x
      have he := EndToEnd.trap_ends hu.base.base (c := ⟨m, s.child.live, blocks⟩) (n := pathLength m i r) hcode hask
      simp only at he ⊢
      generalize converts (EndToEnd.pointers w.toWorld want path sb) blocks.length = e at he ⊢
      cases e with
      | answered => obtain ⟨r', log, c', ans, he, -, -, -, -, hl⟩ := he; exact ⟨r', log, c', he, hl⟩
      | dies => exact he
      | undefined => exact he
    | none =>
      simp only [if_neg hnet]
      by_cases hnr : i.syscall = 257
      · obtain ⟨t, ht1, ht2⟩ := hplain hcode hnr
        have hstr : w.str r.rsi = some t := by rw [hw]; exact ht1
        simp only [if_pos hnr]
        by_cases hz : r.rsi = 0
        · simp only [if_pos hz, converts]
          exact ⟨_, _, _, path_null hcode hnr hz hstr ht2, rfl⟩
        · have hhead : t.head? = some 47 := by
            have : ¬ ((readString m (2 ^ 64) r.rsi).getD []).head? ≠ some 47 := fun h => hrel ⟨hnr, h⟩
            rw [ht1] at this
            exact Classical.not_not.1 this
          have he := EndToEnd.openat_ends hu.base.base (c := ⟨m, s.child.live, blocks⟩) (n := pathLength m i r)
            hcode hnr hstr hhead ht2 hz
          simp only [if_neg hz]
          simp only at he
          generalize converts [copied w.bounds r.rsi, copied w.bounds w.sp] blocks.length = e at he ⊢
          cases e with
          | answered => obtain ⟨r', log, c', ans, he, -, -, -, -, hl⟩ := he; exact ⟨r', log, c', he, hl⟩
          | dies => exact he
          | undefined => exact he
      · simp only [if_neg hnr, converts]
        have hno : ¬ (i.code = 1 ∧ ∃ n, n < 6 ∧ Syscall.syscallNumbers[n]? = some i.syscall) := by
          rintro ⟨-, n, hn6, hnn⟩
          have hc6 : n = 0 ∨ n = 1 ∨ n = 2 ∨ n = 3 ∨ n = 4 ∨ n = 5 := by omega
          simp only [asks, abi] at hask
          rcases hc6 with rfl | rfl | rfl | rfl | rfl | rfl <;> simp [Syscall.syscallNumbers] at hnn <;>
            rw [← hnn] at hask hnr hnet <;> simp at hask hnr hnet
        exact ⟨_, _, _, path_else hno, rfl⟩
  · simp only [pointers, if_neg hcode, converts]
    exact ⟨_, _, _, path_else (fun h => hcode h.1), rfl⟩

/-! ## C117 -/

/-- **C117, how every step ends.**  A sandboxed program makes any call, with any pointers, numbers and descriptors; its child
has any number of blocks left.  The step is undefined if in converting the pointers a null one comes to be followed, and
the child dies if a block is needed and there is none.  Otherwise the child dies exactly if the number of the descriptor
that goes with the call may be one and the program has no such one.  Otherwise the program goes on, with its blocks free
again and one thing more having happened; or the place for the result of a lookup is null, and the step is undefined; or
an exception goes through the host, which happens only if the host has registered an empty function for the operation. -/
theorem step_ends {W : Worlds} {H : Host} {S : Word → Prop} (hf : Fixed W H S) (P : Program) (blocks : List Word) (s : State)
    {m : Mem} {act : Act} (hP : P s.child.mem s.regs = (m, act)) (hplain : Plain (now W s.past m) m act) :
    match converts (pointers (now W s.past m) act) blocks.length with
    | .undefined => step W P blocks s = .ub
    | .dies => step W P blocks s = .abort
    | .answered =>
      (∃ fd, sends m act = some fd ∧ Closed (now W s.past m).toNet fd ∧ step W P blocks s = .abort) ∨
      ((∀ fd, sends m act = some fd → ¬ Closed (now W s.past m).toNet fd) ∧
        ((act = .stop ∧ step W P blocks s = .ok none) ∨
         (∃ s' e, step W P blocks s = .ok (some s') ∧ s'.child.live = s.child.live ∧ s'.past = s.past ++ [e]) ∨
         (Nowhere act ∧ step W P blocks s = .ub) ∨
         (∃ op, operation act = some op ∧ IsLast (H.conf (s.past.map Event.plain)) op (.register op none) ∧
           step W P blocks s = .throws))) := by
  have hu := now_setup hf s.past m
  have hn : NameEnd.Setup (now W s.past m).names (H.exports (s.past.map Event.plain)) (H.users (s.past.map Event.plain))
      (H.conf (s.past.map Event.plain)) := { hf.names (s.past.map Event.plain) with base := hu.base }
  have hr : RelEnd.Setup (now W s.past m).toNet (H.exports (s.past.map Event.plain)) (H.users (s.past.map Event.plain)) :=
    ⟨hu.base.base, hu.base.pad2, hf.fails _⟩
  have hstr : (now W s.past m).str = readString m (2 ^ 64) := rfl
  suffices h : StepEnds (H.conf (s.past.map Event.plain)) (now W s.past m) m act s (step W P blocks s)
      (converts (pointers (now W s.past m) act) blocks.length) by
    generalize converts (pointers (now W s.past m) act) blocks.length = e at h ⊢
    cases e <;> exact h
  generalize hw : now W s.past m = w at *
  cases act with
  | stop =>
    have hs : step W P blocks s = .ok none := by simp only [step, hP]
    exact .inr ⟨fun _ h => (nomatch h), .inl ⟨rfl, hs⟩⟩
  | back idx data size fd r =>
    have hs : step W P blocks s = went (fun v calls c' => ⟨c', { r with rax := v.setWidth 64 }, s.past ++ [.user calls]⟩)
        (UserEnd.invokeUser w.toUser ⟨m, s.child.live, blocks⟩ idx data size fd) := by
      simp only [step, hP, hw]
      rcases UserEnd.invokeUser w.toUser ⟨m, s.child.live, blocks⟩ idx data size fd with ⟨_, _, _⟩ | _ | _ | _ <;> rfl
    rw [hs]
    exact back_ends s
  | look host serv hints res r =>
    have hs : step W P blocks s = went (fun v calls c' => ⟨c', { r with rax := v.setWidth 64 }, s.past ++ [.look calls]⟩)
        (NameEnd.getaddrinfo w.names ⟨m, s.child.live, blocks⟩ host serv hints res (nameLength m host) (nameLength m serv)) := by
      simp only [step, hP, hw]
      rcases NameEnd.getaddrinfo w.names ⟨m, s.child.live, blocks⟩ host serv hints res (nameLength m host)
        (nameLength m serv) with ⟨_, _, _⟩ | _ | _ | _ <;> rfl
    rw [hs]
    exact look_ends hn s
  | sys i r =>
    by_cases hnet : i.syscall = 49 ∨ i.syscall = 42
    · have hs : step W P blocks s = went (fun r' calls c' => ⟨c', r', s.past ++ [.net calls]⟩)
          (NetEnd.trap w.toNet ⟨m, s.child.live, blocks⟩ i r) := by
        simp only [step, hP, hw, if_pos hnet]
        rcases NetEnd.trap w.toNet ⟨m, s.child.live, blocks⟩ i r with ⟨_, _, _⟩ | _ | _ | _ <;> rfl
      rw [hs]
      exact net_ends hu hnet s
    · by_cases hrel : isRelative m i r
      · have hs : step W P blocks s = went (fun r' log c' => ⟨c', r', s.past ++ [.host log]⟩)
            (RelEnd.trap w.toNet ⟨m, s.child.live, blocks⟩ (pathLength m i r) i r) := by
          simp only [step, hP, hw, if_neg hnet, if_pos hrel]
          rcases RelEnd.trap w.toNet ⟨m, s.child.live, blocks⟩ (pathLength m i r) i r with ⟨_, _, _⟩ | _ | _ | _ <;> rfl
        rw [hs]
        exact rel_ends hr hstr hplain hnet hrel s
      · have hs : step W P blocks s = went (fun r' log c' => ⟨c', r', s.past ++ [.host log]⟩)
            (EndToEnd.trap w.toNet.toWorld ⟨m, s.child.live, blocks⟩ (pathLength m i r) i r) := by
          simp only [step, hP, hw, if_neg hnet, if_neg hrel]
          rcases EndToEnd.trap w.toNet.toWorld ⟨m, s.child.live, blocks⟩ (pathLength m i r) i r with
            ⟨_, _, _⟩ | _ | _ | _ <;> rfl
        rw [hs]
        exact path_ends hu hstr hplain hnet hrel s

/-- The call that the program makes in a state: no pointer that would be copied is null, the descriptor that goes with it
exists, it is not one of the process's own, and the host has registered no empty function for it.  Nothing is said of
what the pointers point to, nor of whether the host would grant the call. -/
structure Careful (W : Worlds) (H : Host) (past : List Event) (m : Mem) (act : Act) : Prop where
  plain : Plain (now W past m) m act
  pointers : ∀ p ∈ pointers (now W past m) act, p.1 = true → p.2 ≠ 0
  sends : ∀ fd, sends m act = some fd → ¬ Closed (now W past m).toNet fd
  result : ¬ Nowhere act
  function : ∀ op, operation act = some op → ¬ IsLast (H.conf (past.map Event.plain)) op (.register op none)

theorem converts_enough : ∀ {ps : List (Bool × Word)} {k : Nat}, (∀ p ∈ ps, p.1 = true → p.2 ≠ 0) → ps.length ≤ k →
    converts ps k = .answered
  | [], _, _, _ => rfl
  | (false, p) :: ps, k, h, hl => converts_enough (ps := ps) (fun q hq => h q (List.mem_cons_of_mem _ hq)) (by simp at hl; omega)
  | (true, p) :: ps, 0, _, hl => by simp at hl
  | (true, p) :: ps, k + 1, h, hl => by
    have h0 : p ≠ 0 := h (true, p) (by simp) rfl
    show (if p = 0 then _ else _) = _
    rw [if_neg h0]
    exact converts_enough (ps := ps) (fun q hq => h q (List.mem_cons_of_mem _ hq)) (by simp at hl; omega)

theorem pointers_few (w : World) (act : Act) : (pointers w act).length ≤ 5 := by
  cases act with
  | stop => simp [pointers]
  | back => simp [pointers]
  | look => simp [pointers, NameEnd.pointers]
  | sys i r =>
    have hp : ∀ want path sb, (EndToEnd.pointers w.toNet.toWorld want path sb).length ≤ 5 := by
      intro want _ _
      cases want <;> simp [EndToEnd.pointers]
    unfold pointers
    repeat' split
    all_goals first
      | exact hp _ _ _
      | simp [NameEnd.pointers]

/-- **C117, careful programs go on.**  If the program makes its calls with care, whatever it sees, and the child's `malloc`
gives five blocks during each, then for as many calls as one likes the child neither dies nor meets undefined behaviour,
no exception goes through the host, and the child's blocks are free again after each. -/
theorem careful_goes_on {W : Worlds} {H : Host} {S : Word → Prop} (hf : Fixed W H S) {P : Program}
    (hP : ∀ m regs past, Careful W H past (P m regs).1 (P m regs).2) {bs : List (List Word)} (hbs : ∀ b ∈ bs, 5 ≤ b.length)
    (s : State) :
    run W P bs s = .ok none ∨
      ∃ s', run W P bs s = .ok (some s') ∧ s'.child.live = s.child.live ∧ s'.past.length = s.past.length + bs.length := by
  induction bs generalizing s with
  | nil => exact .inr ⟨s, rfl, rfl, rfl⟩
  | cons b bs ih =>
    have hc := hP s.child.mem s.regs s.past
    have he := step_ends hf P b s rfl hc.plain
    rw [converts_enough hc.pointers (Nat.le_trans (pointers_few _ _) (hbs b (by simp)))] at he
    rcases he with ⟨fd, h1, h2, -⟩ | ⟨-, ⟨-, h⟩ | ⟨s', e, h, hl, hp⟩ | ⟨h, -⟩ | ⟨op, h1, h2, -⟩⟩
    · exact absurd h2 (hc.sends fd h1)
    · exact .inl (by simp only [run, h])
    · have hr : run W P (b :: bs) s = run W P bs s' := by simp only [run, h]
      rcases ih (fun x hx => hbs x (List.mem_cons_of_mem _ hx)) s' with h' | ⟨s'', h', h2, h3⟩
      · exact .inl (by rw [hr, h'])
      · refine .inr ⟨s'', by rw [hr, h'], by rw [h2, hl], ?_⟩
        rw [h3, hp]
        simp
        omega
    · exact absurd h hc.result
    · exact absurd h2 (hc.function op h1)

/-- The program of the examples is careful. -/
theorem exCareful (m : Mem) (regs : Regs) (past : List Event) :
    Careful exWorlds exHost past (exProgram m regs).1 (exProgram m regs).2 := by
  have path : ∀ (i : Info) (r : Regs), i.code = 1 → (i.syscall = 2 ∨ i.syscall = 4) →
      (∀ p ∈ pointers (now exWorlds past m) (.sys i r), p.1 = true → p.2 ≠ 0) →
      Careful exWorlds exHost past m (.sys i r) := by
    intro i r hc hi hp
    have hne : ¬ i.syscall = 257 := by omega
    refine ⟨fun _ h => absurd h hne, hp, ?_, (nomatch ·), ?_⟩
    · intro fd h
      simp only [sends] at h
      rw [if_neg (fun h => h.2.elim (by omega) (fun h => h.elim (by omega) (fun h => hne h.1.1)))] at h
      cases h
    · intro op h
      simp only [operation, opAsked, if_pos hc] at h
      rw [if_neg (by omega), if_neg (by omega)] at h
      cases h
  unfold exProgram
  split
  · refine path _ _ rfl (.inl rfl) ?_
    intro p hp
    have hp' : p ∈ [copied exWorld.bounds 0x5000, copied exWorld.bounds exWorld.sp] := hp
    clear hp
    revert p
    decide
  split
  · refine path _ _ rfl (.inr rfl) ?_
    intro p hp
    have hp' : p ∈ [copied exWorld.bounds 0x5000, copied exWorld.bounds 0x19000, copied exWorld.bounds exWorld.sp] := hp
    clear hp
    revert p
    decide
  split
  · refine ⟨trivial, ?_, ?_, (nomatch ·), fun _ h => (nomatch h)⟩
    · intro p hp
      have hp' : p ∈ [(!inside exWorld.bounds 0x19000 (.ofNat 64 8), (0x19000 : Word))] := hp
      clear hp
      revert p
      decide
    · intro fd h
      cases h
      intro h
      exact absurd h.1 (by decide)
  · exact ⟨trivial, fun _ h => (nomatch h), fun _ h => (nomatch h), (nomatch ·), fun _ h => (nomatch h)⟩

/-- The blocks of the examples, as often as one likes. -/
def exMany (n : Nat) : List (List Word) := List.replicate n [0x18000, 0x18200, 0x18400, 0x18600, 0x18800]

/-- So it goes on, in any memory and from any registers. -/
example (s : State) (n : Nat) : run exWorlds exProgram (exMany n) s = .ok none ∨
    ∃ s', run exWorlds exProgram (exMany n) s = .ok (some s') ∧ s'.child.live = s.child.live ∧
      s'.past.length = s.past.length + (exMany n).length :=
  careful_goes_on exFixed exCareful (fun b hb => by rw [(List.mem_replicate.1 hb).2]; decide) s

/-- A program that asks about a null path. -/
def exNull : Program := fun m _ => (m, .sys ⟨1, 21, 0x700⟩ ⟨21, 0, 4, 0, 0, 0, 0, 0x6fe⟩)

/-- What it does is undefined. -/
example (s : State) : step exWorlds exNull [] s = .ub :=
  step_ends exFixed exNull [] s (m := s.child.mem) rfl (fun _ h => by cases h)

end Verif.Run
