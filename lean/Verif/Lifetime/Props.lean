import Verif.Rpc.Lemmas
import Verif.Lifetime.Model

/-!
# The memory-service thread and the destruction of sandboxes: theorems

Specification: in no execution does the log of accesses contain a destroyed library (C44), and every access is to
the library of the sandbox that sent the message (C53).
-/

namespace Verif.Lifetime

open Verif.Rpc (Req Cfg)

/-! ### Specification -/

/-- The thread has used a library after its destruction. -/
def UsedDead (s : St) : Prop := ∃ a ∈ s.log, a.dead = true

/-- The thread has used the library of another sandbox than the one that asked. -/
def UsedOther (s : St) : Prop := ∃ a ∈ s.log, a.lib ≠ a.src

/-! ### Invariant: the table agrees with the descriptors -/

theorem find_some {r : List (Nat × Nat)} {fd l : Nat} (h : find r fd = some l) : (fd, l) ∈ r := by
  unfold find at h
  cases hf : r.find? (fun e => e.1 == fd) with
  | none => simp [hf] at h
  | some e =>
    have h1 := List.find?_some hf
    have h2 := List.mem_of_find?_eq_some hf
    simp [hf] at h
    simp at h1
    rcases e with ⟨a, b⟩
    simp_all

theorem find_none {r : List (Nat × Nat)} {fd : Nat} (h : find r fd = none) : ∀ l, (fd, l) ∉ r := by
  unfold find at h
  intro l hl
  simp at h
  exact h fd l hl rfl

/-- What the program counter remembers about the table. -/
def PcOk (s : St) : Prop :=
  match s.pc with
  | .idle => True
  | .polled _ _ => True
  | .found fd lib => (fd, lib) ∈ s.ranges
  | .got _ lib src _ => lib = src
  | .served _ lib src => lib = src
  | .failed lib src => lib = src

/-- The table has exactly the open sockets, under their descriptors. -/
structure Inv (s : St) : Prop where
  table : ∀ fd l, (fd, l) ∈ s.ranges ↔ s.sock fd = some l
  old : ∀ fd l, s.sock fd = some l → l < s.next
  pc : PcOk s
  log : ∀ a ∈ s.log, a.lib = a.src

theorem Inv.init : Inv St.init := by
  refine ⟨?_, ?_, ?_, ?_⟩ <;> simp [St.init, PcOk]

theorem remove_table {s : St} (h : ∀ fd l, (fd, l) ∈ s.ranges ↔ s.sock fd = some l) (fd : Nat) :
    ∀ x l, (x, l) ∈ (remove s fd).ranges ↔ (remove s fd).sock x = some l := by
  intro x l
  unfold remove
  split
  · simp only [upd, List.mem_filter]
    by_cases hx : x = fd
    · simp [hx]
    · simp [hx, h]
  · exact h x l

theorem remove_sub {s : St} {fd x l : Nat} (h : (remove s fd).sock x = some l) : s.sock x = some l := by
  unfold remove at h
  split at h
  · simp only [upd] at h
    split at h
    · simp at h
    · exact h
  · exact h

theorem remove_next (s : St) (fd : Nat) : (remove s fd).next = s.next := by unfold remove; split <;> rfl
theorem remove_log (s : St) (fd : Nat) : (remove s fd).log = s.log := by unfold remove; split <;> rfl
theorem remove_dead (s : St) (fd : Nat) : (remove s fd).dead = s.dead := by unfold remove; split <;> rfl
theorem remove_alive (s : St) (fd : Nat) : (remove s fd).alive = s.alive := by unfold remove; split <;> rfl
theorem remove_queue (s : St) (fd : Nat) : (remove s fd).queue = s.queue := by unfold remove; split <;> rfl
theorem remove_peer (s : St) (fd : Nat) : (remove s fd).peer = s.peer := by unfold remove; split <;> rfl

theorem Inv.remove {s : St} (h : Inv s) (fd : Nat) {pc : Pc} (hp : PcOk { Lifetime.remove s fd with pc := pc }) :
    Inv { Lifetime.remove s fd with pc := pc } :=
  ⟨remove_table h.table fd, fun x l hx => by
      rw [show ({ Lifetime.remove s fd with pc := pc } : St).next = s.next from remove_next s fd]
      exact h.old x l (remove_sub hx),
    hp, by
      show ∀ a ∈ (Lifetime.remove s fd).log, _
      rw [remove_log]; exact h.log⟩

theorem Inv.service {c : Cfg} {s s' : St} {ok : Bool} (h : Inv s) (hs : service c s ok = some s') : Inv s' := by
  have hpc := h.pc
  unfold Lifetime.service at hs
  cases e : s.pc with
  | idle => simp [e] at hs
  | polled fd eof =>
    cases eof
    · simp only [e] at hs
      cases hf : find s.ranges fd with
      | none =>
        simp only [hf, Option.some.injEq] at hs; subst hs
        exact ⟨h.table, h.old, trivial, h.log⟩
      | some l =>
        simp only [hf, Option.some.injEq] at hs; subst hs
        exact ⟨h.table, h.old, find_some hf, h.log⟩
    · simp only [e, Option.some.injEq] at hs; subst hs
      exact h.remove fd (by trivial)
  | found fd lib =>
    simp only [PcOk, e] at hpc
    have hso := (h.table fd lib).1 hpc
    simp only [e, hso] at hs
    cases hq : s.queue lib with
    | nil =>
      simp only [hq, Option.some.injEq] at hs; subst hs
      exact h.remove fd rfl
    | cons m rest =>
      cases m with
      | short =>
        simp only [hq, Option.some.injEq] at hs; subst hs
        have h' : Inv { s with queue := upd s.queue lib rest, pc := .found fd lib } :=
          ⟨h.table, h.old, hpc, h.log⟩
        exact h'.remove fd (pc := .failed lib lib) rfl
      | req q =>
        simp only [hq, Option.some.injEq] at hs; subst hs
        exact ⟨h.table, h.old, rfl, h.log⟩
  | got fd lib src q =>
    simp only [PcOk, e] at hpc
    simp only [e, Option.some.injEq] at hs
    by_cases hl : looks c q
    · simp only [hl, if_true, touch] at hs; subst hs
      refine ⟨h.table, h.old, hpc, ?_⟩
      intro a ha
      rcases List.mem_cons.1 ha with rfl | ha
      · exact hpc
      · exact h.log a ha
    · simp only [hl] at hs; subst hs
      exact ⟨h.table, h.old, hpc, h.log⟩
  | served fd lib src =>
    simp only [PcOk, e] at hpc
    simp only [e] at hs
    cases ok
    · simp only [Bool.false_eq_true, if_false, Option.some.injEq] at hs; subst hs
      exact h.remove fd hpc
    · simp only [if_true, Option.some.injEq] at hs; subst hs
      exact ⟨h.table, h.old, trivial, h.log⟩
  | failed lib src =>
    simp only [PcOk, e] at hpc
    simp only [e, Option.some.injEq, touch] at hs; subst hs
    refine ⟨h.table, h.old, trivial, ?_⟩
    intro a ha
    rcases List.mem_cons.1 ha with rfl | ha
    · exact hpc
    · exact h.log a ha

theorem Inv.step {c : Cfg} {s s' : St} {ev : Ev} (h : Inv s) (hs : step c s ev = some s') : Inv s' := by
  cases ev with
  | create fd =>
    simp only [Lifetime.step] at hs
    split at hs
    · rename_i hfree
      simp only [Option.some.injEq] at hs; subst hs
      have hnf : find s.ranges fd = none := by
        cases hf : find s.ranges fd with
        | none => rfl
        | some l =>
          have := (h.table fd l).1 (find_some hf)
          rw [hfree] at this; simp at this
      have hr : emplace s.ranges fd s.next = (fd, s.next) :: s.ranges := by simp [emplace, hnf]
      refine ⟨?_, ?_, ?_, h.log⟩
      · intro x l
        simp only [hr, upd, List.mem_cons, Prod.mk.injEq]
        by_cases hx : x = fd
        · subst hx
          have : (x, l) ∉ s.ranges := find_none hnf l
          simp [this, eq_comm]
        · simp [hx, h.table]
      · intro x l hx
        simp only [upd] at hx
        split at hx
        · simp at hx; show l < s.next + 1; omega
        · have := h.old x l hx; show l < s.next + 1; omega
      · have := h.pc
        unfold PcOk at this ⊢
        simp only at this ⊢
        cases e : s.pc <;> simp only [e] at this ⊢ <;> try exact this
        rw [hr]; exact List.mem_cons_of_mem _ this
    · simp at hs
  | send i m =>
    simp only [Lifetime.step] at hs
    split at hs
    · simp only [Option.some.injEq] at hs; subst hs
      exact ⟨h.table, h.old, h.pc, h.log⟩
    · simp at hs
  | exit i =>
    simp only [Lifetime.step] at hs
    split at hs
    · simp only [Option.some.injEq] at hs; subst hs
      exact ⟨h.table, h.old, h.pc, h.log⟩
    · simp at hs
  | hangup i =>
    simp only [Lifetime.step] at hs
    split at hs
    · simp only [Option.some.injEq] at hs; subst hs
      exact ⟨h.table, h.old, h.pc, h.log⟩
    · simp at hs
  | destroy i =>
    simp only [Lifetime.step] at hs
    split at hs
    · simp only [Option.some.injEq] at hs; subst hs
      exact ⟨h.table, h.old, h.pc, h.log⟩
    · simp at hs
  | poll fd =>
    simp only [Lifetime.step] at hs
    split at hs
    · split at hs
      · simp at hs
      · split at hs
        · simp only [Option.some.injEq] at hs; subst hs
          exact ⟨h.table, h.old, trivial, h.log⟩
        · split at hs
          · simp only [Option.some.injEq] at hs; subst hs
            exact ⟨h.table, h.old, trivial, h.log⟩
          · simp at hs
    · simp at hs
  | service ok => exact Inv.service h hs

theorem Inv.run {c : Cfg} : ∀ {evs : List Ev} {s s' : St}, Inv s → run c s evs = some s' → Inv s' := by
  intro evs
  induction evs with
  | nil => intro s s' h hr; simp only [Lifetime.run, Option.some.injEq] at hr; exact hr ▸ h
  | cons e es ih =>
    intro s s' h hr
    simp only [Lifetime.run] at hr
    cases hst : Lifetime.step c s e with
    | none => simp [hst] at hr
    | some t => simp only [hst] at hr; exact ih (h.step hst) hr

/-! ## C53 -/

/-- **C53.**  Whatever sandboxes are created and destroyed meanwhile, and however descriptor numbers are used
again, the service thread only ever acts on the library of the sandbox whose message it is handling. -/
theorem never_other_sandbox (c : Cfg) (evs : List Ev) (s : St) (h : run c St.init evs = some s) :
    ¬ UsedOther s := by
  rintro ⟨a, ha, hne⟩
  exact hne ((Inv.init.run h).log a ha)

/-- **C53, nobody else's socket.**  A socket is found under its own descriptor, so that the message of a sandbox
is looked up in the table under that sandbox. -/
theorem table_right (c : Cfg) (evs : List Ev) (s : St) (h : run c St.init evs = some s) (fd l : Nat) :
    find s.ranges fd = some l ↔ s.sock fd = some l := by
  have hi := Inv.init.run h
  constructor
  · intro hf; exact (hi.table fd l).1 (find_some hf)
  · intro hs
    cases hf : find s.ranges fd with
    | none => exact absurd ((hi.table fd l).2 hs) (find_none hf l)
    | some k =>
      have := (hi.table fd k).1 (find_some hf)
      rw [hs] at this; simpa using this.symm

/-- **C53, a new sandbox gets its entry.**  Whenever a sandbox can be made, the table has no entry under its descriptor, so
that `emplace`, which keeps an entry that is there, makes the new one; and the entries of the others stay as they are. -/
theorem new_entry (c : Cfg) (evs : List Ev) (s : St) (h : run c St.init evs = some s) (fd : Nat) (s' : St)
    (hs : step c s (.create fd) = some s') :
    find s.ranges fd = none ∧ find s'.ranges fd = some s.next ∧ ∀ x, x ≠ fd → find s'.ranges x = find s.ranges x := by
  have hfree : s.sock fd = none := by
    simp only [step] at hs
    split at hs
    · assumption
    · cases hs
  have hno : find s.ranges fd = none := by
    cases hf : find s.ranges fd with
    | none => rfl
    | some l => rw [(table_right c evs s h fd l).1 hf] at hfree; cases hfree
  simp only [step, if_pos hfree, Option.some.injEq] at hs
  subst hs
  refine ⟨hno, ?_, ?_⟩
  · simp only [emplace, hno, Option.isSome_none]
    simp [find]
  · intro x hx
    simp only [emplace, hno, Option.isSome_none]
    simp [find, Ne.symm hx]

/-- A configuration for the examples. -/
def exCfg : Cfg := ⟨14, 0x400, 0x40, fun x => x, fun _ => 0, ⟨0, 0⟩⟩

/-- A request for a chunk of 16 KiB. -/
def exReq : Req := ⟨0, 0x4000, 0, 0, 0⟩

/-- Two sandboxes, both using descriptor 5 one after the other. -/
def exTwo : List Ev :=
  [.create 5, .send 0 (.req exReq), .poll 5, .service true, .service true, .service true, .service true,
    .exit 0, .hangup 0, .destroy 0, .poll 5, .service true,
    .create 5, .send 1 (.req exReq), .poll 5, .service true, .service true, .service true, .service true]

example : (run exCfg St.init exTwo).map (·.log) = some [⟨1, 1, false⟩, ⟨0, 0, false⟩] := by decide +kernel

/-! ## C44 -/

/-- **C44 fails.**  A request that is waiting when the child ends is served after the library is destroyed.  This
needs no race: the host still holds a copy of the sandbox's end of the socket (see C47), so that there is no
hang-up. -/
theorem destroyed_used : ∃ (evs : List Ev) (s : St), run exCfg St.init evs = some s ∧ UsedDead s := by
  refine ⟨[.create 5, .send 0 (.req exReq), .exit 0, .destroy 0, .poll 5, .service true, .service true,
    .service true], _, rfl, ?_⟩
  exact ⟨⟨0, 0, true⟩, by decide +kernel, rfl⟩

/-- **C44 fails** even if the other end is closed with the child: the thread may have been told of the message
before. -/
theorem destroyed_used_race : ∃ (evs : List Ev) (s : St), run exCfg St.init evs = some s ∧ UsedDead s ∧
    s.peer 0 = false := by
  refine ⟨[.create 5, .send 0 (.req exReq), .poll 5, .service true, .exit 0, .hangup 0, .destroy 0, .service true,
    .service true], _, rfl, ?_, by decide +kernel⟩
  exact ⟨⟨0, 0, true⟩, by decide +kernel, rfl⟩

theorem looks_iff (c : Cfg) (hc : 0 < c.chunk) (q : Req) :
    looks c q = true ↔ (q.kind = 1 ∨ (q.kind = 0 ∧ c.chunk ≤ q.a0.toNat ∧ ∃ k, q.a0.toNat = 2 ^ k)) := by
  unfold looks
  by_cases h0 : q.kind = 0
  · have h1 : ¬ q.kind = 1 := by rw [h0]; decide
    rw [if_pos h0]
    by_cases hp : q.a0.toNat < c.chunk
    · simp only [hp, decide_true, Bool.true_or, Bool.not_true, Bool.false_eq_true, false_iff, h1, false_or]
      omega
    · have := Rpc.pow2_of_isPow2 q.a0 (by omega)
      simp only [hp, decide_false, Bool.false_or, Bool.not_not, h1, false_or]
      rw [this]
      exact ⟨fun h => ⟨h0, by omega, h⟩, fun h => h.2.2⟩
  · rw [if_neg h0, decide_eq_true_eq]
    exact ⟨.inl, fun h => h.elim id fun h => absurd h.1 h0⟩

/-- **C44 fails in every state** with a destroyed library whose socket has a waiting message, and no hang-up: the
next four steps of the service thread use the destroyed library exactly if the message is malformed or a proper
request; a request that is refused on the spot does no harm. -/
theorem waiting_message_used (c : Cfg) (hc : 0 < c.chunk) (evs : List Ev) (s : St) (h : run c St.init evs = some s)
    (fd i : Nat) (m : Msg) (rest : List Msg) (hpc : s.pc = .idle) (hsock : s.sock fd = some i)
    (hdead : s.dead i = true) (hpeer : s.peer i = true) (hq : s.queue i = m :: rest) (hclean : ¬ UsedDead s) :
    ∃ s', run c s [.poll fd, .service true, .service true, .service true] = some s' ∧
      (UsedDead s' ↔ ∀ q, m = .req q →
        q.kind = 1 ∨ (q.kind = 0 ∧ c.chunk ≤ q.a0.toNat ∧ ∃ k, q.a0.toNat = 2 ^ k)) := by
  have hf := (table_right c evs s h fd i).2 hsock
  cases m with
  | short =>
    simp only [run, step, service, hpc, hsock, hpeer, hq]
    simp only [ne_eq, reduceCtorEq, not_false_eq_true, if_true, Bool.true_eq_false, if_false, hf, hsock, hq]
    refine ⟨_, rfl, ?_⟩
    simp only [false_implies, implies_true, iff_true]
    exact ⟨⟨i, i, true⟩, by simp [touch, remove_dead, hdead], rfl⟩
  | req q =>
    simp only [run, step, service, hpc, hsock, hpeer, hq]
    simp only [ne_eq, reduceCtorEq, not_false_eq_true, if_true, Bool.true_eq_false, if_false, hf, hsock, hq]
    refine ⟨_, rfl, ?_⟩
    simp only [Msg.req.injEq, forall_eq', ← looks_iff c hc q]
    cases hl : looks c q with
    | true => exact ⟨fun _ => rfl, fun _ => ⟨⟨i, i, true⟩, by simp [touch, hdead], rfl⟩⟩
    | false => exact ⟨fun h => absurd h hclean, fun h => by cases h⟩

example : ∃ s, run exCfg St.init [.create 5, .send 0 (.req exReq), .exit 0, .destroy 0] = some s ∧
    s.pc = .idle ∧ s.sock 5 = some 0 ∧ s.dead 0 = true ∧ s.peer 0 = true ∧
    s.queue 0 = [.req exReq] ∧ exReq.kind = 0 ∧ exCfg.chunk ≤ exReq.a0.toNat ∧ exReq.a0.toNat = 2 ^ 14 ∧
    0 < exCfg.chunk ∧ s.log = [] :=
  ⟨_, rfl, by decide +kernel, by decide +kernel, by decide +kernel, by decide +kernel, by decide +kernel,
    by decide +kernel⟩

/-! ### The part that holds -/

/-- The service thread is busy with a sandbox. -/
def Busy (s : St) (i : Nat) : Prop :=
  match s.pc with
  | .idle => False
  | .polled fd eof => eof = false ∧ s.sock fd = some i
  | .found _ lib => lib = i
  | .got _ lib _ _ => lib = i
  | .served _ lib _ => lib = i
  | .failed lib _ => lib = i

/-- Nothing of a sandbox is waiting or being handled. -/
def Quiet (s : St) (i : Nat) : Prop := s.queue i = [] ∧ ¬ Busy s i

/-- An execution from `s` to `t` in which libraries are only destroyed when they are quiet. -/
def QuietRun (c : Cfg) : St → List Ev → St → Prop
  | s, [], t => t = s
  | s, e :: es, t => (∀ i, e = .destroy i → Quiet s i) ∧ ∃ s', step c s e = some s' ∧ QuietRun c s' es t

/-- What is known of destroyed libraries. -/
structure DInv (s : St) : Prop where
  dead : ∀ i, s.dead i = true → s.alive i = false ∧ Quiet s i ∧ i < s.next
  log : ∀ a ∈ s.log, a.dead = false

theorem DInv.init : DInv St.init := by
  constructor <;> simp [St.init]

theorem DInv.not_busy {s : St} (h : DInv s) {i : Nat} (hb : Busy s i) : s.dead i = false := by
  cases hd : s.dead i with
  | false => rfl
  | true => exact absurd hb (h.dead i hd).2.1.2

theorem DInv.remove {s : St} (h : DInv s) (fd : Nat) {pc : Pc}
    (hp : ∀ i, s.dead i = true → ¬ Busy { Lifetime.remove s fd with pc := pc } i) :
    DInv { Lifetime.remove s fd with pc := pc } := by
  constructor
  · intro i hi
    have hi' : s.dead i = true := by rw [← remove_dead s fd]; exact hi
    obtain ⟨h1, h2, h3⟩ := h.dead i hi'
    refine ⟨?_, ⟨?_, hp i hi'⟩, ?_⟩
    · show (Lifetime.remove s fd).alive i = false; rw [remove_alive]; exact h1
    · show (Lifetime.remove s fd).queue i = []; rw [remove_queue]; exact h2.1
    · show i < (Lifetime.remove s fd).next; rw [remove_next]; exact h3
  · show ∀ a ∈ (Lifetime.remove s fd).log, _
    rw [remove_log]; exact h.log

/-- Changing the program counter only. -/
theorem DInv.goto {s : St} (h : DInv s) {pc : Pc} (hp : ∀ i, s.dead i = true → ¬ Busy { s with pc := pc } i) :
    DInv { s with pc := pc } :=
  ⟨fun i hi => ⟨(h.dead i hi).1, ⟨(h.dead i hi).2.1.1, hp i hi⟩, (h.dead i hi).2.2⟩, h.log⟩

theorem DInv.touch {s : St} (h : DInv s) {lib src : Nat} (hb : Busy s lib) {pc : Pc}
    (hp : ∀ i, s.dead i = true → ¬ Busy { Lifetime.touch s lib src with pc := pc } i) :
    DInv { Lifetime.touch s lib src with pc := pc } := by
  refine ⟨fun i hi => ⟨(h.dead i hi).1, ⟨(h.dead i hi).2.1.1, hp i hi⟩, (h.dead i hi).2.2⟩, ?_⟩
  intro a ha
  rcases List.mem_cons.1 ha with rfl | ha
  · exact h.not_busy hb
  · exact h.log a ha

theorem DInv.service {c : Cfg} {s s' : St} {ok : Bool} (hi : Inv s) (h : DInv s)
    (hs : service c s ok = some s') : DInv s' := by
  have hpc := hi.pc
  unfold Lifetime.service at hs
  cases e : s.pc with
  | idle => simp [e] at hs
  | polled fd eof =>
    cases eof
    · simp only [e] at hs
      cases hf : find s.ranges fd with
      | none =>
        simp only [hf, Option.some.injEq] at hs; subst hs
        exact h.goto (fun i _ hb => hb)
      | some l =>
        simp only [hf, Option.some.injEq] at hs; subst hs
        apply h.goto
        intro i hd hb
        have hb' : l = i := hb
        subst hb'
        have : Busy s l := by simp only [Busy, e]; exact ⟨trivial, (hi.table fd l).1 (find_some hf)⟩
        rw [h.not_busy this] at hd; simp at hd
    · simp only [e, Option.some.injEq] at hs; subst hs
      exact h.remove fd (fun i _ hb => hb)
  | found fd lib =>
    have hbusy : Busy s lib := by simp only [Busy, e]
    have hlive := h.not_busy hbusy
    simp only [PcOk, e] at hpc
    have hso := (hi.table fd lib).1 hpc
    have hne : ∀ i, s.dead i = true → ¬ lib = i := by
      intro i hd hh; rw [← hh, hlive] at hd; simp at hd
    simp only [e, hso] at hs
    have hq' : ∀ rest, DInv { s with queue := upd s.queue lib rest, pc := .found fd lib } := by
      intro rest
      refine ⟨fun i hd => ⟨(h.dead i hd).1, ⟨?_, hne i hd⟩, (h.dead i hd).2.2⟩, h.log⟩
      simp only [upd, if_neg (Ne.symm (hne i hd))]
      exact (h.dead i hd).2.1.1
    cases hq : s.queue lib with
    | nil =>
      simp only [hq, Option.some.injEq] at hs; subst hs
      exact h.remove fd (fun i hd hb => hne i hd hb)
    | cons m rest =>
      cases m with
      | short =>
        simp only [hq, Option.some.injEq] at hs; subst hs
        exact (hq' rest).remove fd (fun i hd hb => hne i hd hb)
      | req q =>
        simp only [hq, Option.some.injEq] at hs; subst hs
        exact (hq' rest).goto (fun i hd hb => hne i hd hb)
  | got fd lib src q =>
    have hbusy : Busy s lib := by simp only [Busy, e]
    have hlive := h.not_busy hbusy
    have hne : ∀ i, s.dead i = true → ¬ lib = i := by
      intro i hd hh; rw [← hh, hlive] at hd; simp at hd
    simp only [e, Option.some.injEq] at hs
    by_cases hl : looks c q
    · simp only [hl, if_true] at hs; subst hs
      exact h.touch hbusy (fun i hd hb => hne i hd hb)
    · simp only [hl] at hs; subst hs
      exact h.goto (fun i hd hb => hne i hd hb)
  | served fd lib src =>
    have hbusy : Busy s lib := by simp only [Busy, e]
    have hlive := h.not_busy hbusy
    have hne : ∀ i, s.dead i = true → ¬ lib = i := by
      intro i hd hh; rw [← hh, hlive] at hd; simp at hd
    simp only [e] at hs
    cases ok
    · simp only [Bool.false_eq_true, if_false, Option.some.injEq] at hs; subst hs
      exact h.remove fd (fun i hd hb => hne i hd hb)
    · simp only [if_true, Option.some.injEq] at hs; subst hs
      exact h.goto (fun i _ hb => hb)
  | failed lib src =>
    have hbusy : Busy s lib := by simp only [Busy, e]
    simp only [e, Option.some.injEq] at hs; subst hs
    exact h.touch hbusy (fun i _ hb => hb)

theorem DInv.step {c : Cfg} {s s' : St} {ev : Ev} (hi : Inv s) (h : DInv s) (hq : ∀ i, ev = .destroy i → Quiet s i)
    (hs : step c s ev = some s') : DInv s' := by
  cases ev with
  | create fd =>
    simp only [Lifetime.step] at hs
    split at hs
    · simp only [Option.some.injEq] at hs; subst hs
      refine ⟨?_, h.log⟩
      intro i hd
      obtain ⟨h1, h2, h3⟩ := h.dead i hd
      refine ⟨?_, ⟨h2.1, ?_⟩, ?_⟩
      · simp only [upd, if_neg (show ¬ i = s.next by omega)]; exact h1
      · intro hb
        apply h2.2
        unfold Busy at hb ⊢
        cases e : s.pc <;> simp only [e] at hb ⊢ <;> try exact hb
        rename_i x eof
        simp only [upd] at hb
        refine ⟨hb.1, ?_⟩
        have hb2 := hb.2
        split at hb2
        · simp at hb2; omega
        · exact hb2
      · show i < s.next + 1; omega
    · simp at hs
  | send j m =>
    simp only [Lifetime.step] at hs
    split at hs
    · rename_i ha
      simp only [Option.some.injEq] at hs; subst hs
      refine ⟨?_, h.log⟩
      intro i hd
      obtain ⟨h1, h2, h3⟩ := h.dead i hd
      have hij : ¬ i = j := by intro hh; subst hh; rw [h1] at ha; simp at ha
      exact ⟨h1, ⟨by simp only [upd, if_neg hij]; exact h2.1, h2.2⟩, h3⟩
    · simp at hs
  | exit j =>
    simp only [Lifetime.step] at hs
    split at hs
    · simp only [Option.some.injEq] at hs; subst hs
      refine ⟨?_, h.log⟩
      intro i hd
      obtain ⟨h1, h2, h3⟩ := h.dead i hd
      exact ⟨by simp only [upd]; split <;> simp [h1], h2, h3⟩
    · simp at hs
  | hangup j =>
    simp only [Lifetime.step] at hs
    split at hs
    · simp only [Option.some.injEq] at hs; subst hs
      exact ⟨fun i hd => h.dead i hd, h.log⟩
    · simp at hs
  | destroy j =>
    simp only [Lifetime.step] at hs
    split at hs
    · rename_i hc
      simp only [Option.some.injEq] at hs; subst hs
      refine ⟨?_, h.log⟩
      intro i hd
      by_cases hij : i = j
      · subst hij; exact ⟨hc.2.1, hq i rfl, hc.1⟩
      · simp only [upd, if_neg hij] at hd; exact h.dead i hd
    · simp at hs
  | poll fd =>
    simp only [Lifetime.step] at hs
    split at hs
    · split at hs
      · simp at hs
      · rename_i j hj
        split at hs
        · simp only [Option.some.injEq] at hs; subst hs
          apply h.goto
          intro i hd hb
          exact absurd hb.1 (by simp)
        · split at hs
          · rename_i hne
            simp only [Option.some.injEq] at hs; subst hs
            apply h.goto
            intro i hd hb
            have hb2 : s.sock fd = some i := hb.2
            rw [hj] at hb2
            simp only [Option.some.injEq] at hb2
            subst hb2
            exact hne (h.dead j hd).2.1.1
          · simp at hs
    · simp at hs
  | service ok => exact DInv.service hi h hs

theorem DInv.run {c : Cfg} : ∀ {evs : List Ev} {s t : St}, Inv s → DInv s → QuietRun c s evs t → DInv t := by
  intro evs
  induction evs with
  | nil => intro s t _ h hr; exact hr ▸ h
  | cons e es ih =>
    intro s t hi h hr
    obtain ⟨hq, s', hs, hr'⟩ := hr
    exact ih (hi.step hs) (h.step hi hq hs) hr'

/-- **C44 (partial).**  If every library is destroyed at a moment when none of its messages is waiting or being
handled, the service thread never uses a destroyed library, in any interleaving.  Missing: the code does nothing
to bring about such a moment. -/
theorem never_dead_partial (c : Cfg) (evs : List Ev) (s : St) (h : QuietRun c St.init evs s) : ¬ UsedDead s := by
  rintro ⟨a, ha, hd⟩
  rw [(DInv.run Inv.init DInv.init h).log a ha] at hd
  simp at hd

/-- The two sandboxes above: the first is quiet when it is destroyed. -/
example : ∃ s, QuietRun exCfg St.init exTwo s ∧ s.dead 0 = true ∧ s.log.length = 2 := by
  have hq : ∀ s i, Quiet s i → ∀ j, Ev.destroy i = Ev.destroy j → Quiet s j := by
    intro s i h j e; cases e; exact h
  refine ⟨_, ⟨?_, _, rfl, ?_, _, rfl, ?_, _, rfl, ?_, _, rfl, ?_, _, rfl, ?_, _, rfl, ?_, _, rfl, ?_, _, rfl, ?_, _,
    rfl, ?_, _, rfl, ?_, _, rfl, ?_, _, rfl, ?_, _, rfl, ?_, _, rfl, ?_, _, rfl, ?_, _, rfl, ?_, _, rfl, ?_, _, rfl,
    ?_, _, rfl, rfl⟩, by decide +kernel, by decide +kernel⟩
  case refine_10 => exact hq _ _ ⟨by decide +kernel, fun h => h⟩
  all_goals (intro i e; cases e)

end Verif.Lifetime
