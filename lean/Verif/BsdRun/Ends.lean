import Verif.BsdRun.Props
import Verif.BsdEnd.Ends
import Verif.BsdNet.Ends
import Verif.BsdRel.Ends
import Verif.BsdName.Ends
import Verif.Run.Ends

/-!
# How every step of a sandboxed program ends on FreeBSD, whatever the program passes (property C128)

`BsdRun.run_transparent` is about programs that make their calls properly.  Here the calls are any calls, with any pointers,
numbers and descriptors, and the child has any number of blocks left.
-/

namespace Verif.BsdRun

open Verif.Net (Op Config)
open Verif.Net.Spec (IsLast)
open Verif.FileTree (Export)
open Verif.ChildArgs (Child inside)
open Verif.Syscall (CInt)
open Verif.FreeBsd (Regs Info Call number told trapCap)
open Verif.EndToEnd (Want End converts copied)
open Verif.NetEnd (Closed copiedAddr)
open Verif.BsdEnd (asksPath told_makes)
open Verif.BsdNet (Makes asksNet)
open Verif.BsdRel (asksRel)
open Verif.Run (readString nameLength)

/-! ### Specification -/

/-- What a call asks for: a call on a path, one on a socket, `openat`, or nothing that is emulated. -/
inductive Wants where
  | path (want : Want) (path sb : Word)
  | sock (op : Op) (s : CInt) (addr : Word) (len : CInt)
  | openat (dir : CInt) (path : Word)
  | nothing

/-- The call that the signal tells of, if it is one of Capsicum's. -/
def wants (i : Info) (r : Regs) : Wants :=
  if i.code = 5 then
    match asksPath (told i r), asksNet (told i r), asksRel (told i r) with
    | some (want, path, sb), _, _ => .path want path sb
    | none, some (op, s, addr, len), _ => .sock op s addr len
    | none, none, some (dir, path, _, _) => .openat dir path
    | none, none, none => .nothing
  else .nothing

/-- The pointers that the child converts for a call, in order, each with whether it copies what is there. -/
def pointers (w : World) : Act → List (Bool × Word)
  | .stop => []
  | .sys i r =>
    match wants i r with
    | .path want path sb => EndToEnd.pointers w.toNet.toWorld want path sb
    | .sock _ _ addr len => [copiedAddr w.bounds addr len.toNat, copied w.bounds w.sp]
    | .openat _ path => if path = 0 then [] else [copied w.bounds path, copied w.bounds w.sp]
    | .nothing => []
  | .back _ data size _ _ => [(!inside w.bounds data (.ofNat 64 size), data)]
  | .look host serv hints _ _ => NameEnd.pointers w.names host serv hints

/-- The number of the descriptor that goes with a call: the socket, the directory of a relative path, or that of a callback. -/
def sends (m : Mem) : Act → Option CInt
  | .sys i r =>
    match wants i r with
    | .sock _ s _ _ => some s
    | .openat dir path =>
      if path ≠ 0 ∧ ((readString m (2 ^ 64) path).getD []).head? ≠ some 47 then some dir else none
    | _ => none
  | .back _ _ _ fd _ => some fd
  | _ => none

/-- The operation on the network that a call asks for. -/
def operation : Act → Option Op
  | .sys i r =>
    match wants i r with
    | .sock op _ _ _ => some op
    | _ => none
  | .look .. => some .getAddrInfo
  | _ => none

/-- An `openat` whose path is neither null nor a string. -/
def Unreadable (m : Mem) : Act → Prop
  | .sys i r => ∃ dir path, wants i r = .openat dir path ∧ path ≠ 0 ∧ readString m (2 ^ 64) path = none
  | _ => False

/-- The place for the result of a lookup is null. -/
def Nowhere : Act → Prop
  | .look _ _ _ res _ => res = 0
  | _ => False

/-! ### Lemmas -/

theorem wants_path {i : Info} {r : Regs} {want : Want} {path sb : Word} (h : wants i r = .path want path sb) :
    i.code = trapCap ∧ asksPath (told i r) = some (want, path, sb) := by
  unfold wants at h
  split at h
  · rename_i hc
    refine ⟨hc, ?_⟩
    split at h <;> first | contradiction | (cases h; assumption)
  · cases h

theorem wants_sock {i : Info} {r : Regs} {op : Op} {s len : CInt} {addr : Word} (h : wants i r = .sock op s addr len) :
    i.code = trapCap ∧ asksNet (told i r) = some (op, s, addr, len) := by
  unfold wants at h
  split at h
  · rename_i hc
    refine ⟨hc, ?_⟩
    split at h <;> first | contradiction | (cases h; assumption)
  · cases h

theorem wants_openat {i : Info} {r : Regs} {dir : CInt} {path : Word} (h : wants i r = .openat dir path) :
    i.code = trapCap ∧ ∃ flags mode, asksRel (told i r) = some (dir, path, flags, mode) := by
  unfold wants at h
  split at h
  · rename_i hc
    refine ⟨hc, ?_⟩
    split at h <;> first | contradiction | (cases h; exact ⟨_, _, by assumption⟩)
  · cases h

theorem wants_nothing {i : Info} {r : Regs} (h : wants i r = .nothing) : ¬ (i.code = trapCap ∧ Six (number i r)) := by
  rintro ⟨hc, h6⟩
  obtain ⟨a, b, c, d, l, ha⟩ := FreeBsd.told_args i r
  rw [FreeBsd.number_told] at h6
  unfold wants at h
  rw [if_pos (show i.code = 5 from hc)] at h
  generalize told i r = cl at *
  obtain ⟨nr, args⟩ := cl
  simp only at ha h6
  subst ha
  unfold Six at h6
  rcases h6 with rfl | rfl | rfl | rfl | rfl | rfl <;> simp [asksPath, asksNet, asksRel] at h

/-- What is not one of the six calls, or no trap of Capsicum's. -/
theorem emulate_else {v : Syscall.Env} {i : Info} {r : Regs} (h : ¬ (i.code = trapCap ∧ Six (number i r))) :
    FreeBsd.emulate v i r = .ok (r, []) := by
  unfold FreeBsd.emulate
  split
  · rename_i hc
    apply FreeBsd.dispatch_miss
    intro k _ he
    have hmem : number i r ∈ FreeBsd.syscallNumbers := List.mem_of_getElem? he
    simp only [FreeBsd.syscallNumbers, List.mem_cons, List.not_mem_nil, or_false] at hmem
    exact h ⟨hc, hmem⟩
  · rfl

/-- `openat` with a null path. -/
theorem emulate_null {v : Syscall.Env} {i : Info} {r : Regs} {dir flags mode : CInt} (hcode : i.code = trapCap)
    (hcall : asksRel (told i r) = some (dir, 0, flags, mode)) :
    FreeBsd.emulate v i r = .ok (FreeBsd.resumed r (-22), []) := by
  obtain ⟨d, f, m, l, hcl, -⟩ := BsdEnd.asksRel_cases hcall
  have h3 : FreeBsd.callEntry v 3 ((told i r).args.take (FreeBsd.arity 3)) = .ok ⟨-22, []⟩ := by
    simp only [hcl, FreeBsd.arity, List.take, FreeBsd.callEntry, FreeBsd.openat, if_true]
    rfl
  rw [FreeBsd.emulate, if_pos hcode, FreeBsd.dispatch_hit (n := 3) (by rw [FreeBsd.number_told, hcl]; rfl)
    (FreeBsd.extract_told i r _ (by decide)) h3 (by decide) (by omega)]

/-- `openat` with a path that cannot be read. -/
theorem emulate_unreadable {v : Syscall.Env} {i : Info} {r : Regs} {dir flags mode : CInt} {path : Word}
    (hcode : i.code = trapCap) (hcall : asksRel (told i r) = some (dir, path, flags, mode)) (hz : path ≠ 0)
    (hs : v.str path = none) : FreeBsd.emulate v i r = .ub := by
  obtain ⟨d, f, m, l, hcl, -⟩ := BsdEnd.asksRel_cases hcall
  exact (FreeBsd.emulate_ends_iff v i r).2.2.1.2 ⟨hcode, .inl ⟨d, path, f, m, l, hcl, hz, hs⟩⟩

/-- A callback on FreeBSD ends as elsewhere. -/
theorem user_ends (w : World) (c : Child) (idx : CInt) (data : Word) (size : Nat) (fd : CInt) :
    match converts [(!inside w.bounds data (.ofNat 64 size), data)] c.mallocs.length with
    | .answered =>
      (Closed w.toNet fd ∧ invokeUser w c idx data size fd = .abort) ∨
      (¬ Closed w.toNet fd ∧ ∃ v calls c', invokeUser w c idx data size fd = .ok (v, calls, c') ∧ c'.live = c.live)
    | .dies => invokeUser w c idx data size fd = .abort
    | .undefined => invokeUser w c idx data size fd = .ub := by
  have he := Run.user_ends w.toUser c idx data size fd
  generalize converts [(!inside w.bounds data (.ofNat 64 size), data)] c.mallocs.length = e at he ⊢
  cases e with
  | dies => simp only at he ⊢; rw [invokeUser, he]
  | undefined => simp only at he ⊢; rw [invokeUser, he]
  | answered =>
    simp only at he ⊢
    rcases he with ⟨hc, he⟩ | ⟨hc, v, calls, c', he, hl⟩
    · exact .inl ⟨hc, by rw [invokeUser, he]⟩
    · exact .inr ⟨hc, _, _, c', by rw [invokeUser, he], hl⟩

/-- What a step makes of the end of a call. -/
def went {α β : Type} (f : α → β → Child → State) : Outcome (α × β × Child) → Outcome (Option State)
  | .ok (a, b, c) => .ok (some (f a b c))
  | .abort => .abort
  | .throws => .throws
  | .ub => .ub

/-- The ends of a step, in terms of those of the conversion. -/
def StepEnds (conf : List Config) (w : World) (m : Mem) (act : Act) (s : State) (o : Outcome (Option State)) : End → Prop
  | .undefined => o = .ub
  | .dies => o = .abort
  | .answered =>
    (∃ fd, sends m act = some fd ∧ Closed w.toNet fd ∧ o = .abort) ∨
    ((∀ fd, sends m act = some fd → ¬ Closed w.toNet fd) ∧
      ((act = .stop ∧ o = .ok none) ∨
       (∃ s' e, o = .ok (some s') ∧ s'.child.live = s.child.live ∧ s'.past = s.past ++ [e]) ∨
       (Nowhere act ∧ o = .ub) ∨
       (∃ op, operation act = some op ∧ IsLast conf op (.register op none) ∧ o = .throws)))

theorem back_ends {conf : List Config} {w : World} {m : Mem} {idx : CInt} {data : Word} {size : Nat} {fd : CInt} {r : Regs}
    (s : State) {blocks : List Word} :
    StepEnds conf w m (.back idx data size fd r) s
      (went (fun v calls c' => ⟨c', { r with rax := v.setWidth 64 }, s.past ++ [.user calls]⟩)
        (invokeUser w ⟨m, s.child.live, blocks⟩ idx data size fd))
      (converts (pointers w (.back idx data size fd r)) blocks.length) := by
  have he := user_ends w ⟨m, s.child.live, blocks⟩ idx data size fd
  simp only [pointers]
  simp only at he
  generalize converts [(!inside w.bounds data (.ofNat 64 size), data)] blocks.length = e at he ⊢
  cases e with
  | dies => simp only at he ⊢; rw [he]; rfl
  | undefined => simp only at he ⊢; rw [he]; rfl
  | answered =>
    simp only at he ⊢
    rcases he with ⟨hc, he⟩ | ⟨hc, v, calls, c', he, hl⟩
    · exact .inl ⟨fd, rfl, hc, by rw [he]; rfl⟩
    · exact .inr ⟨fun x h => by cases h; exact hc, .inr (.inl ⟨_, _, by rw [he]; rfl, hl, rfl⟩)⟩

theorem look_ends {conf : List Config} {w : World} {hist : List Export} {users : List Nat} {m : Mem}
    (hn : NameEnd.Setup w.names hist users conf) {host serv hints res : Word} {r : Regs} (s : State) {blocks : List Word} :
    StepEnds conf w m (.look host serv hints res r) s
      (went (fun v calls c' => ⟨c', { r with rax := v.setWidth 64 }, s.past ++ [.look calls]⟩)
        (BsdName.getaddrinfo w.names ⟨m, s.child.live, blocks⟩ host serv hints res (nameLength m host) (nameLength m serv)))
      (converts (pointers w (.look host serv hints res r)) blocks.length) := by
  have he := BsdName.bsd_lookup_ends hn ⟨m, s.child.live, blocks⟩ host serv hints res (nameLength m host) (nameLength m serv)
  simp only [pointers]
  simp only at he
  generalize converts (NameEnd.pointers w.names host serv hints) blocks.length = e at he ⊢
  cases e with
  | dies => simp only at he ⊢; rw [he]; rfl
  | undefined => simp only at he ⊢; rw [he]; rfl
  | answered =>
    simp only at he ⊢
    refine .inr ⟨fun _ h => (nomatch h), .inr ?_⟩
    rcases he with ⟨_, n, calls, c', he, hl⟩ | ⟨hz, he⟩ | ⟨he, hl⟩
    · exact .inl ⟨_, _, by rw [he]; rfl, hl, rfl⟩
    · exact .inr (.inl ⟨hz, by rw [he]; rfl⟩)
    · exact .inr (.inr ⟨_, rfl, hl, by rw [he]; rfl⟩)

/-- A call for which the host is not asked. -/
theorem quiet {conf : List Config} {w : World} {m : Mem} {i : Info} {r : Regs} {s : State} {blocks : List Word} {β : Type}
    {f : Regs → β → Child → State} {o : Outcome (Regs × β × Child)} {r' : Regs} {b : β}
    (ho : o = .ok (r', b, ⟨m, s.child.live, blocks⟩)) (hs : sends m (.sys i r) = none)
    (hp : pointers w (.sys i r) = []) (hl : ∀ r' b c', (f r' b c').child = c')
    (hpast : ∀ r' b c', ∃ e, (f r' b c').past = s.past ++ [e]) :
    StepEnds conf w m (.sys i r) s (went f o) (converts (pointers w (.sys i r)) blocks.length) := by
  obtain ⟨e, he⟩ := hpast r' b ⟨m, s.child.live, blocks⟩
  rw [hp, converts]
  exact .inr ⟨fun x h => (by rw [hs] at h; cases h), .inr (.inl ⟨_, e, by rw [ho]; rfl, by rw [hl], he⟩)⟩

theorem net_ends {conf : List Config} {w : World} {hist : List Export} {users : List Nat} {m : Mem}
    (hu : UserEnd.Setup w.toUser hist users conf) {i : Info} {r : Regs} (hnet : number i r = 104 ∨ number i r = 98)
    (s : State) {blocks : List Word} :
    StepEnds conf w m (.sys i r) s (went (fun r' calls c' => ⟨c', r', s.past ++ [.net calls]⟩)
      (BsdNet.trap w.toNet ⟨m, s.child.live, blocks⟩ i r)) (converts (pointers w (.sys i r)) blocks.length) := by
  cases hw : wants i r with
  | path want path sb =>
    have h := (asks_path (wants_path hw).2).2
    rw [← FreeBsd.number_told] at h
    rcases hnet with hn | hn <;> rw [hn] at h <;> exact absurd h (by decide)
  | openat dir path =>
    obtain ⟨-, flags, mode, h⟩ := wants_openat hw
    have h := (asks_rel h).2
    rw [← FreeBsd.number_told] at h
    rcases hnet with hn | hn <;> rw [hn] at h <;> exact absurd h (by decide)
  | nothing =>
    refine quiet (r' := r) (b := []) ?_ (by simp only [sends, hw]) (by simp only [pointers, hw]) (fun _ _ _ => rfl)
      (fun _ _ _ => ⟨_, rfl⟩)
    rw [BsdNet.trap, emulate_else (wants_nothing hw)]
  | sock op sk addr len =>
    obtain ⟨hcode, hcall⟩ := wants_sock hw
    have he := BsdNet.bsd_network_ends hu.base (c := ⟨m, s.child.live, blocks⟩) hcode (told_makes i r) hcall
    have hsend : sends m (.sys i r) = some sk := by simp only [sends, hw]
    simp only [pointers, hw]
    simp only at he
    generalize converts [copiedAddr w.bounds addr len.toNat, copied w.bounds w.sp] blocks.length = e at he ⊢
    cases e with
    | dies => simp only at he ⊢; rw [he]; rfl
    | undefined => simp only at he ⊢; rw [he]; rfl
    | answered =>
      simp only at he ⊢
      rcases he with ⟨hc, he⟩ | ⟨hc, ⟨r', calls, c', ans, he, -, -, -, hl⟩ | ⟨he, hl⟩⟩
      · exact .inl ⟨_, hsend, hc, by rw [he]; rfl⟩
      · exact .inr ⟨fun x h => by rw [hsend] at h; cases h; exact hc, .inr (.inl ⟨_, _, by rw [he]; rfl, hl, rfl⟩)⟩
      · exact .inr ⟨fun x h => by rw [hsend] at h; cases h; exact hc, .inr (.inr (.inr ⟨op, by simp only [operation, hw], hl,
          by rw [he]; rfl⟩))⟩

theorem rel_ends {conf : List Config} {w : World} {hist : List Export} {users : List Nat} {m : Mem}
    (hr : BsdRel.Setup w.rel hist users) (hstr : w.str = readString m (2 ^ 64)) {i : Info} {r : Regs}
    (hread : ¬ Unreadable m (.sys i r)) (hrel : isRelative m i r) (s : State) {blocks : List Word} :
    StepEnds conf w m (.sys i r) s (went (fun r' log c' => ⟨c', r', s.past ++ [.host log]⟩)
      (BsdRel.trap w.rel ⟨m, s.child.live, blocks⟩ (pathLength m i r) i r)) (converts (pointers w (.sys i r)) blocks.length) := by
  cases hw : wants i r with
  | path want path sb =>
    have h := (asks_path (wants_path hw).2).2
    rw [← FreeBsd.number_told, hrel.1] at h
    exact absurd h (by decide)
  | sock op sk addr len =>
    have h := asks_net (wants_sock hw).2
    rw [← FreeBsd.number_told, hrel.1] at h
    exact absurd h (by decide)
  | nothing =>
    refine quiet (r' := r) (b := []) ?_ (by simp only [sends, hw]) (by simp only [pointers, hw]) (fun _ _ _ => rfl)
      (fun _ _ _ => ⟨_, rfl⟩)
    rw [BsdRel.trap, emulate_else (wants_nothing hw)]
  | openat dir path =>
    obtain ⟨hcode, flags, mode, hcall⟩ := wants_openat hw
    have hpath := pathArg_rel (told_makes i r) hcall
    have hhead := hrel.2
    rw [hpath] at hhead
    by_cases hz : path = 0
    · subst hz
      refine quiet (r' := FreeBsd.resumed r (-22)) (b := []) ?_ (by simp [sends, hw]) (by simp [pointers, hw])
        (fun _ _ _ => rfl) (fun _ _ _ => ⟨_, rfl⟩)
      rw [BsdRel.trap, emulate_null hcode hcall]
    · obtain ⟨t, ht⟩ : ∃ t, readString m (2 ^ 64) path = some t := by
        cases h : readString m (2 ^ 64) path with
        | some t => exact ⟨t, rfl⟩
        | none => exact absurd ⟨dir, path, hw, hz, h⟩ hread
      have hsend : sends m (.sys i r) = some dir := by
        simp only [sends, hw]
        exact if_pos ⟨hz, hhead⟩
      rw [ht] at hhead
      have he := BsdRel.bsd_relative_ends hr (c := ⟨m, s.child.live, blocks⟩) (n := pathLength m i r)
        hcode (told_makes i r) hcall (by show w.str path = some t; rw [hstr, ht]) hhead hz
      simp only [pointers, hw, if_neg hz]
      replace he : match converts [copied w.bounds path, copied w.bounds w.sp] blocks.length with
        | .answered => _ | .dies => _ | .undefined => _ := he
      generalize converts [copied w.bounds path, copied w.bounds w.sp] blocks.length = e at he ⊢
      cases e with
      | dies => simp only at he ⊢; rw [he]; rfl
      | undefined => simp only at he ⊢; rw [he]; rfl
      | answered =>
        simp only at he ⊢
        rcases he with ⟨hc, he⟩ | ⟨hc, r', calls, c', ans, he, -, -, -, hl⟩
        · exact .inl ⟨_, hsend, hc, by rw [he]; rfl⟩
        · exact .inr ⟨fun x h => by rw [hsend] at h; cases h; exact hc,
            .inr (.inl ⟨_, _, by rw [he]; rfl, hl, rfl⟩)⟩

theorem path_ends {conf : List Config} {w : World} {hist : List Export} {users : List Nat} {m : Mem}
    (hp : BsdEnd.Setup w.path hist users) (hstr : w.str = readString m (2 ^ 64)) {i : Info} {r : Regs}
    (hread : ¬ Unreadable m (.sys i r)) (hnet : ¬ (number i r = 104 ∨ number i r = 98)) (hrel : ¬ isRelative m i r)
    (s : State) {blocks : List Word} :
    StepEnds conf w m (.sys i r) s (went (fun r' log c' => ⟨c', r', s.past ++ [.host log]⟩)
      (BsdEnd.trap w.path ⟨m, s.child.live, blocks⟩ (pathLength m i r) i r)) (converts (pointers w (.sys i r)) blocks.length) := by
  have fin : ∀ e : End, sends m (.sys i r) = none → (match (generalizing := false) e with
      | .answered => ∃ r' log c', BsdEnd.trap w.path ⟨m, s.child.live, blocks⟩ (pathLength m i r) i r =
          .ok (r', log, c') ∧ c'.live = s.child.live
      | .dies => BsdEnd.trap w.path ⟨m, s.child.live, blocks⟩ (pathLength m i r) i r = .abort
      | .undefined => BsdEnd.trap w.path ⟨m, s.child.live, blocks⟩ (pathLength m i r) i r = .ub) →
      StepEnds conf w m (.sys i r) s (went (fun r' log c' => ⟨c', r', s.past ++ [.host log]⟩)
        (BsdEnd.trap w.path ⟨m, s.child.live, blocks⟩ (pathLength m i r) i r)) e := by
    intro e hsend he
    cases e with
    | dies => simp only at he ⊢; rw [he]; rfl
    | undefined => simp only at he ⊢; rw [he]; rfl
    | answered =>
      simp only at he ⊢
      obtain ⟨r', log, c', he, hl⟩ := he
      exact .inr ⟨fun x h => (by rw [hsend] at h; cases h), .inr (.inl ⟨_, _, by rw [he]; rfl, hl, rfl⟩)⟩
  cases hw : wants i r with
  | sock op sk addr len =>
    have h := asks_net (wants_sock hw).2
    rw [← FreeBsd.number_told] at h
    exact absurd h hnet
  | nothing =>
    refine quiet (r' := r) (b := []) ?_ (by simp only [sends, hw]) (by simp only [pointers, hw]) (fun _ _ _ => rfl)
      (fun _ _ _ => ⟨_, rfl⟩)
    rw [BsdEnd.trap, emulate_else (wants_nothing hw)]
  | path want path sb =>
    obtain ⟨hcode, hcall⟩ := wants_path hw
    apply fin _ (by simp only [sends, hw])
    have he := BsdEnd.bsd_trap_ends hp (c := ⟨m, s.child.live, blocks⟩) (n := pathLength m i r) hcode (told_makes i r) hcall
    simp only [pointers, hw]
    simp only at he ⊢
    replace he : match converts (EndToEnd.pointers w.toWorld want path sb) blocks.length with
      | .answered => _ | .dies => _ | .undefined => _ := he
    generalize converts (EndToEnd.pointers w.toWorld want path sb) blocks.length = e at he ⊢
    cases e with
    | answered => obtain ⟨r', log, c', ans, he, -, -, -, hl⟩ := he; exact ⟨r', log, c', he, hl⟩
    | dies => exact he
    | undefined => exact he
  | openat dir path =>
    obtain ⟨hcode, flags, mode, hcall⟩ := wants_openat hw
    have hpath := pathArg_rel (told_makes i r) hcall
    have hnr : number i r = 499 := by rw [FreeBsd.number_told]; exact (asks_rel hcall).2
    have hhead : ((readString m (2 ^ 64) path).getD []).head? = some 47 := by
      apply Classical.byContradiction
      intro h
      exact hrel ⟨hnr, by rw [hpath]; exact h⟩
    have hsend : sends m (.sys i r) = none := by
      simp only [sends, hw]
      exact if_neg fun h => h.2 hhead
    by_cases hz : path = 0
    · subst hz
      refine quiet (r' := FreeBsd.resumed r (-22)) (b := []) ?_ hsend (by simp [pointers, hw])
        (fun _ _ _ => rfl) (fun _ _ _ => ⟨_, rfl⟩)
      rw [BsdEnd.trap, emulate_null hcode hcall]
    · obtain ⟨t, ht⟩ : ∃ t, readString m (2 ^ 64) path = some t := by
        cases h : readString m (2 ^ 64) path with
        | some t => exact ⟨t, rfl⟩
        | none => exact absurd ⟨dir, path, hw, hz, h⟩ hread
      rw [ht] at hhead
      apply fin _ hsend
      have he := BsdEnd.bsd_openat_ends hp (c := ⟨m, s.child.live, blocks⟩) (n := pathLength m i r) hcode (told_makes i r) hcall
        (by show w.str path = some t; rw [hstr, ht]) hhead hz
      simp only [pointers, hw, if_neg hz]
      replace he : match converts [copied w.bounds path, copied w.bounds w.sp] blocks.length with
        | .answered => _ | .dies => _ | .undefined => _ := he
      generalize converts [copied w.bounds path, copied w.bounds w.sp] blocks.length = e at he ⊢
      cases e with
      | answered => obtain ⟨r', log, c', ans, he, -, -, -, hl⟩ := he; exact ⟨r', log, c', he, hl⟩
      | dies => exact he
      | undefined => exact he

/-! ## C128 -/

/-- **C128, a path that cannot be read.**  What an `openat` does whose path is neither null nor a string is undefined, however
many blocks there are. -/
theorem step_unreadable (W : Worlds) (P : Program) (blocks : List Word) (s : State)
    {m : Mem} {act : Act} (hP : P s.child.mem s.regs = (m, act)) (h : Unreadable m act) : step W P blocks s = .ub := by
  cases act with
  | stop => exact h.elim
  | back => exact h.elim
  | look => exact h.elim
  | sys i r =>
    obtain ⟨dir, path, hw, hz, hs⟩ := h
    obtain ⟨hcode, flags, mode, hcall⟩ := wants_openat hw
    have hpath := pathArg_rel (told_makes i r) hcall
    have hnr : number i r = 499 := by rw [FreeBsd.number_told]; exact (asks_rel hcall).2
    have hrel : isRelative m i r := ⟨hnr, by rw [hpath, hs]; simp⟩
    have hno : ¬ (number i r = 104 ∨ number i r = 98) := by rw [hnr]; decide
    have ht : BsdRel.trap (now W s.past m).rel ⟨m, s.child.live, blocks⟩ (pathLength m i r) i r = .ub := by
      rw [BsdRel.trap, emulate_unreadable hcode hcall hz (by exact hs)]
    simp only [step, hP, if_neg hno, if_pos hrel, ht]

/-- **C128, how every step ends.**  A sandboxed program on FreeBSD makes any call, with any pointers, numbers and descriptors,
except an `openat` whose path cannot be read; its child has any number of blocks left.  The step is undefined if in
converting the pointers a null one comes to be followed, and the child dies if a block is needed and there is none.
Otherwise the child dies exactly if the number of the descriptor that goes with the call may be one and the program has no
such one.  Otherwise the program goes on, with its blocks free again and one thing more having happened; or the place for
the result of a lookup is null, and the step is undefined; or an exception goes through the host, which happens only if
the host has registered an empty function for the operation. -/
theorem step_ends {W : Worlds} {H : Host} {S : Word → Prop} (hf : Fixed W H S) (P : Program) (blocks : List Word) (s : State)
    {m : Mem} {act : Act} (hP : P s.child.mem s.regs = (m, act)) (hread : ¬ Unreadable m act) :
    match converts (pointers (now W s.past m) act) blocks.length with
    | .undefined => step W P blocks s = .ub
    | .dies => step W P blocks s = .abort
    | .answered =>
      (∃ fd, sends m act = some fd ∧ Closed (now W s.past m).toNet fd ∧ step W P blocks s = .abort) ∨
      ((∀ fd, sends m act = some fd → ¬ Closed (now W s.past m).toNet fd) ∧
        ((act = .stop ∧ step W P blocks s = .ok none) ∨
         (∃ s' e, step W P blocks s = .ok (some s') ∧ s'.child.live = s.child.live ∧ s'.past = s.past ++ [e]) ∨
         (Nowhere act ∧ step W P blocks s = .ub) ∨
         (∃ op, operation act = some op ∧ IsLast (H.conf (s.past.map Event.plain)) op (.register op none) ∧
           step W P blocks s = .throws))) := by
  have hu := now_setup hf s.past m
  have hn : NameEnd.Setup (now W s.past m).names (H.exports (s.past.map Event.plain)) (H.users (s.past.map Event.plain))
      (H.conf (s.past.map Event.plain)) := { hf.names (s.past.map Event.plain) with base := hu.base }
  have hr : BsdRel.Setup (now W s.past m).rel (H.exports (s.past.map Event.plain)) (H.users (s.past.map Event.plain)) :=
    ⟨hu.base.base, hu.base.pad1, hu.base.pad2, hf.bsd _, hf.fails _⟩
  have hp : BsdEnd.Setup (now W s.past m).path (H.exports (s.past.map Event.plain)) (H.users (s.past.map Event.plain)) :=
    ⟨hu.base.base, hf.bsd _, hf.bsdStat _⟩
  have hstr : (now W s.past m).str = readString m (2 ^ 64) := rfl
  suffices h : StepEnds (H.conf (s.past.map Event.plain)) (now W s.past m) m act s (step W P blocks s)
      (converts (pointers (now W s.past m) act) blocks.length) by
    generalize converts (pointers (now W s.past m) act) blocks.length = e at h ⊢
    cases e <;> exact h
  generalize hw : now W s.past m = w at *
  cases act with
  | stop =>
    have hs : step W P blocks s = .ok none := by simp only [step, hP]
    exact .inr ⟨fun _ h => (nomatch h), .inl ⟨rfl, hs⟩⟩
  | back idx data size fd r =>
    have hs : step W P blocks s = went (fun v calls c' => ⟨c', { r with rax := v.setWidth 64 }, s.past ++ [.user calls]⟩)
        (invokeUser w ⟨m, s.child.live, blocks⟩ idx data size fd) := by
      simp only [step, hP, hw]
      rcases invokeUser w ⟨m, s.child.live, blocks⟩ idx data size fd with ⟨_, _, _⟩ | _ | _ | _ <;> rfl
    rw [hs]
    exact back_ends s
  | look host serv hints res r =>
    have hs : step W P blocks s = went (fun v calls c' => ⟨c', { r with rax := v.setWidth 64 }, s.past ++ [.look calls]⟩)
        (BsdName.getaddrinfo w.names ⟨m, s.child.live, blocks⟩ host serv hints res (nameLength m host) (nameLength m serv)) := by
      simp only [step, hP, hw]
      rcases BsdName.getaddrinfo w.names ⟨m, s.child.live, blocks⟩ host serv hints res (nameLength m host)
        (nameLength m serv) with ⟨_, _, _⟩ | _ | _ | _ <;> rfl
    rw [hs]
    exact look_ends hn s
  | sys i r =>
    by_cases hnet : number i r = 104 ∨ number i r = 98
    · have hs : step W P blocks s = went (fun r' calls c' => ⟨c', r', s.past ++ [.net calls]⟩)
          (BsdNet.trap w.toNet ⟨m, s.child.live, blocks⟩ i r) := by
        simp only [step, hP, hw, if_pos hnet]
        rcases BsdNet.trap w.toNet ⟨m, s.child.live, blocks⟩ i r with ⟨_, _, _⟩ | _ | _ | _ <;> rfl
      rw [hs]
      exact net_ends hu hnet s
    · by_cases hrel : isRelative m i r
      · have hs : step W P blocks s = went (fun r' log c' => ⟨c', r', s.past ++ [.host log]⟩)
            (BsdRel.trap w.rel ⟨m, s.child.live, blocks⟩ (pathLength m i r) i r) := by
          simp only [step, hP, hw, if_neg hnet, if_pos hrel]
          rcases BsdRel.trap w.rel ⟨m, s.child.live, blocks⟩ (pathLength m i r) i r with ⟨_, _, _⟩ | _ | _ | _ <;> rfl
        rw [hs]
        exact rel_ends hr hstr hread hrel s
      · have hs : step W P blocks s = went (fun r' log c' => ⟨c', r', s.past ++ [.host log]⟩)
            (BsdEnd.trap w.path ⟨m, s.child.live, blocks⟩ (pathLength m i r) i r) := by
          simp only [step, hP, hw, if_neg hnet, if_neg hrel]
          rcases BsdEnd.trap w.path ⟨m, s.child.live, blocks⟩ (pathLength m i r) i r with
            ⟨_, _, _⟩ | _ | _ | _ <;> rfl
        rw [hs]
        exact path_ends hp hstr hread hnet hrel s

/-- The call that the program makes in a state: the path of an `openat` can be read, no pointer that would be copied is null,
the descriptor that goes with it exists, and the host has registered no empty function for it.  Nothing is said of
what the pointers point to, nor of whether the host would grant the call. -/
structure Careful (W : Worlds) (H : Host) (past : List Event) (m : Mem) (act : Act) : Prop where
  readable : ¬ Unreadable m act
  pointers : ∀ p ∈ pointers (now W past m) act, p.1 = true → p.2 ≠ 0
  sends : ∀ fd, sends m act = some fd → ¬ Closed (now W past m).toNet fd
  result : ¬ Nowhere act
  function : ∀ op, operation act = some op → ¬ IsLast (H.conf (past.map Event.plain)) op (.register op none)

theorem pointers_few (w : World) (act : Act) : (pointers w act).length ≤ 5 := by
  cases act with
  | stop => simp [pointers]
  | back => simp [pointers]
  | look => simp [pointers, NameEnd.pointers]
  | sys i r =>
    have hp : ∀ want path sb, (EndToEnd.pointers w.toNet.toWorld want path sb).length ≤ 5 := by
      intro want _ _
      cases want <;> simp [EndToEnd.pointers]
    unfold pointers
    repeat' split
    all_goals first
      | exact hp _ _ _
      | simp [NameEnd.pointers]

/-- **C128, careful programs go on.**  If the program makes its calls with care, whatever it sees, and the child's `malloc`
gives five blocks during each, then for as many calls as one likes the child neither dies nor meets undefined behaviour,
no exception goes through the host, and the child's blocks are free again after each. -/
theorem careful_goes_on {W : Worlds} {H : Host} {S : Word → Prop} (hf : Fixed W H S) {P : Program}
    (hP : ∀ m regs past, Careful W H past (P m regs).1 (P m regs).2) {bs : List (List Word)} (hbs : ∀ b ∈ bs, 5 ≤ b.length)
    (s : State) :
    run W P bs s = .ok none ∨
      ∃ s', run W P bs s = .ok (some s') ∧ s'.child.live = s.child.live ∧ s'.past.length = s.past.length + bs.length := by
  induction bs generalizing s with
  | nil => exact .inr ⟨s, rfl, rfl, rfl⟩
  | cons b bs ih =>
    have hc := hP s.child.mem s.regs s.past
    have he := step_ends hf P b s rfl hc.readable
    rw [Run.converts_enough hc.pointers (Nat.le_trans (pointers_few _ _) (hbs b (by simp)))] at he
    rcases he with ⟨fd, h1, h2, -⟩ | ⟨-, ⟨-, h⟩ | ⟨s', e, h, hl, hp⟩ | ⟨h, -⟩ | ⟨op, h1, h2, -⟩⟩
    · exact absurd h2 (hc.sends fd h1)
    · exact .inl (by simp only [run, h])
    · have hr : run W P (b :: bs) s = run W P bs s' := by simp only [run, h]
      rcases ih (fun x hx => hbs x (List.mem_cons_of_mem _ hx)) s' with h' | ⟨s'', h', h2, h3⟩
      · exact .inl (by rw [hr, h'])
      · refine .inr ⟨s'', by rw [hr, h'], by rw [h2, hl], ?_⟩
        rw [h3, hp]
        simp
        omega
    · exact absurd h hc.result
    · exact absurd h2 (hc.function op h1)

/-- Pointers of which none is null, and fewer blocks than copies. -/
theorem converts_short : ∀ {ps : List (Bool × Word)} {k : Nat}, (∀ p ∈ ps, p.1 = true → p.2 ≠ 0) →
    k < (ps.filter (·.1)).length → converts ps k = .dies
  | [], _, _, h => by simp at h
  | (false, p) :: ps, k, h, hl =>
    converts_short (ps := ps) (fun q hq => h q (List.mem_cons_of_mem _ hq)) (by simpa using hl)
  | (true, p) :: ps, k, h, hl => by
    have h0 : p ≠ 0 := h (true, p) (by simp) rfl
    show (if p = 0 then _ else _) = _
    rw [if_neg h0]
    cases k with
    | zero => rfl
    | succ k => exact converts_short (ps := ps) (fun q hq => h q (List.mem_cons_of_mem _ hq)) (by simpa using hl)

/-- **C128, a program without memory.**  At any point of any run: if the program makes a call with care, and the child has fewer
blocks than things to copy, then the child ends there.  The program does not go on with some result. -/
theorem too_few_blocks {W : Worlds} {H : Host} {S : Word → Prop} (hf : Fixed W H S) (P : Program) (blocks : List Word)
    (s : State) {m : Mem} {act : Act} (hP : P s.child.mem s.regs = (m, act)) (hread : ¬ Unreadable m act)
    (hp : ∀ p ∈ pointers (now W s.past m) act, p.1 = true → p.2 ≠ 0)
    (hb : blocks.length < ((pointers (now W s.past m) act).filter (·.1)).length) : step W P blocks s = .abort := by
  have he := step_ends hf P blocks s hP hread
  rw [converts_short hp hb] at he
  exact he

/-- The program of the examples is careful. -/
theorem exCareful (m : Mem) (regs : Regs) (past : List Event) :
    Careful exWorlds exHost past (exProgram m regs).1 (exProgram m regs).2 := by
  have path : ∀ (i : Info) (r : Regs) (want : Want) (p sb : Word), wants i r = .path want p sb →
      (∀ q ∈ EndToEnd.pointers exWorld.toNet.toWorld want p sb, q.1 = true → q.2 ≠ 0) →
      Careful exWorlds exHost past m (.sys i r) := by
    intro i r want p sb hw hp
    refine ⟨?_, ?_, ?_, (nomatch ·), ?_⟩
    · rintro ⟨dir, q, h, -⟩
      rw [hw] at h
      cases h
    · intro q hq
      simp only [pointers, hw] at hq
      exact hp q hq
    · intro fd h
      simp only [sends, hw] at h
      cases h
    · intro op h
      simp only [operation, hw] at h
      cases h
  unfold exProgram
  split
  · refine path _ _ (.open_ 0 0) 0x5000 0 rfl ?_
    intro p hp
    have hp' : p ∈ [copied exWorld.bounds 0x5000, copied exWorld.bounds exWorld.sp] := hp
    clear hp
    revert p
    decide
  split
  · refine path _ _ .stat 0x5000 0x19000 rfl ?_
    intro p hp
    have hp' : p ∈ [copied exWorld.bounds 0x5000, copied exWorld.bounds 0x19000, copied exWorld.bounds exWorld.sp] := hp
    clear hp
    revert p
    decide
  split
  · refine ⟨id, ?_, ?_, (nomatch ·), fun _ h => (nomatch h)⟩
    · intro p hp
      have hp' : p ∈ [(!inside exWorld.bounds 0x19000 (.ofNat 64 8), (0x19000 : Word))] := hp
      clear hp
      revert p
      decide
    · intro fd h
      cases h
      intro h
      exact absurd h.1 (by decide)
  · exact ⟨id, fun _ h => (nomatch h), fun _ h => (nomatch h), (nomatch ·), fun _ h => (nomatch h)⟩

/-- So it goes on, in any memory and from any registers. -/
example (s : State) (n : Nat) : run exWorlds exProgram (Run.exMany n) s = .ok none ∨
    ∃ s', run exWorlds exProgram (Run.exMany n) s = .ok (some s') ∧ s'.child.live = s.child.live ∧
      s'.past.length = s.past.length + (Run.exMany n).length :=
  careful_goes_on exFixed exCareful (fun b hb => by rw [(List.mem_replicate.1 hb).2]; decide) s

/-- Its first call takes one block, for the path, and dies without. -/
example (m : Mem) (live : List Word) : step exWorlds exProgram [] ⟨⟨m, live, []⟩, ⟨0, 0, 0, 0, 0, 0, 0, 0, 0⟩, []⟩ = .abort := by
  have hc := exCareful m ⟨0, 0, 0, 0, 0, 0, 0, 0, 0⟩ []
  exact too_few_blocks exFixed exProgram [] ⟨⟨m, live, []⟩, ⟨0, 0, 0, 0, 0, 0, 0, 0, 0⟩, []⟩ rfl hc.readable hc.pointers
    (by show 0 < (List.filter (·.1) [copied exWorld.bounds 0x5000, copied exWorld.bounds exWorld.sp]).length; decide)

/-- A program that asks about a null path. -/
def exNull : Program := fun m _ => (m, .sys ⟨5, some 33⟩ ⟨33, 0, 4, 0, 0, 0, 0, 0x700, 1⟩)

/-- What it does is undefined. -/
example (s : State) : step exWorlds exNull [] s = .ub :=
  step_ends exFixed exNull [] s (m := s.child.mem) rfl (fun ⟨_, _, h, _⟩ => by cases h)

/-- A program that opens a path where no string ends. -/
def exEndless : Program := fun _ _ => (fun _ => 1, .sys ⟨5, some 499⟩ ⟨499, 3, 0x5000, 0, 0, 0, 0, 0x700, 1⟩)

private theorem endless : ∀ n p, readString (fun _ => 1) n p = none
  | 0, _ => rfl
  | n + 1, p => by simp [readString, endless n]

/-- What it does is undefined, too. -/
example (s : State) (blocks : List Word) : step exWorlds exEndless blocks s = .ub :=
  step_unreadable exWorlds exEndless blocks s (m := fun _ => 1) rfl ⟨3, 0x5000, rfl, by decide, endless _ _⟩

end Verif.BsdRun
