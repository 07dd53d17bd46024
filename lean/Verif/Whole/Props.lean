import Verif.Whole.Spec
import Verif.Run.Props
import Verif.Call.Props

/-!
# A program that uses a sandboxed library does what it would do with the library linked in
-/

namespace Verif.Whole

open Verif.Syscall (Regs)
open Verif.Run (Program Worlds Event State Ideal Host Same Blind Steps Blocks Fixed Alike)
open Verif.Call (Frame Export World Sandbox callOp honest bytesAt store Keeps finish)
open Verif.Call.Spec (Heap Within Gives LaidOut)

/-! ### Frames -/

/-- What is in the memory that the sandbox is handed. -/
theorem handed_spec {h : Heap} {fr : Frame} {cf : Word} (hl : LaidOut fr) (hi : cf.toNat + fr.size.toNat ≤ h.hi)
    {args : List Byte} (ha : args.length = fr.argLen) {w : World} (hq : w.env = fun _ m => m) :
    bytesAt (handed fr cf args w) (cf + BitVec.ofNat 64 fr.argOff) fr.argLen = args ∧
      ∀ x, ¬ Within cf fr.size.toNat x → handed fr cf args w x = w.mem x := by
  obtain ⟨l1, l2⟩ := hl
  have hok := h.ok
  have hoff : (cf + BitVec.ofNat 64 fr.argOff).toNat = cf.toNat + fr.argOff := Call.toNat_add_ofNat _ _ (by omega)
  have quiet : ∀ env : Nat → Mem → Mem, env = (fun _ m => m) → Keeps env fun _ => True := by
    intro env he t m a _; rw [he]
  have e1 := Call.writes_env w cf ((List.range fr.size.toNat).map fr.init)
  have m1 := Call.writes_store (F := fun _ => True) ((List.range fr.size.toNat).map fr.init) w w.mem cf
    (quiet _ hq) (fun _ _ => rfl)
  simp only [handed]
  generalize hw1 : w.writes cf ((List.range fr.size.toNat).map fr.init) = w1 at e1 m1
  have q1 : w1.env = fun _ m => m := by rw [e1]; exact hq
  have e2 := Call.writes_env w1 (cf + BitVec.ofNat 64 fr.argOff) args
  have m2 := Call.writes_store (F := fun _ => True) args w1 w1.mem (cf + BitVec.ofNat 64 fr.argOff) (quiet _ q1)
    (fun _ _ => rfl)
  generalize hw2 : w1.writes (cf + BitVec.ofNat 64 fr.argOff) args = w2 at e2 m2
  have q2 : w2.env = fun _ m => m := by rw [e2]; exact q1
  have ht : w2.turn.mem = w2.mem := by simp only [World.turn, q2]
  rw [ht]
  constructor
  · rw [← ha, Call.bytesAt_congr _ _ (store w1.mem (cf + BitVec.ofNat 64 fr.argOff) args),
      Call.bytesAt_store _ _ _ (by omega)]
    intro i _
    exact m2 _ trivial
  · intro x hx
    simp only [Within] at hx
    rw [m2 x trivial, Call.store_out _ _ _ _ (by omega) (by simp only [Within]; omega), m1 x trivial,
      Call.store_out _ _ _ _ (by simp; omega) (by simp only [Within, List.length_map, List.length_range]; omega)]

/-- A call while nobody else runs, of a function that returns. -/
theorem call_quiet {h : Heap} {alloc : Word → Option Word} (hg : Gives h alloc) {fs : List Export} {wild : Sandbox}
    {idx : Nat} {e : Export} (he : fs[idx]? = some e) (hl : LaidOut e.frame) {args : List Byte}
    (ha : args.length = e.frame.argLen) {w : World} (hq : w.env = fun _ m => m) {cf : Word}
    (hc : alloc e.frame.size = some cf) {r : List Byte} {m' : Mem}
    (hrun : e.run args (handed e.frame cf args w) = (some r, m')) (hlen : r.length = e.frame.retLen) :
    (callOp alloc (honest fs wild) idx e.frame args w).1 = .returned (if e.frame.isVoid then [] else r) ∧
      (callOp alloc (honest fs wild) idx e.frame args w).2.env = w.env ∧
      ∀ x, ¬ Within cf e.frame.size.toNat x → (callOp alloc (honest fs wild) idx e.frame args w).2.mem x = m' x := by
  obtain ⟨g0, g1, g2⟩ := hg _ _ hc
  obtain ⟨hargs, _⟩ := handed_spec hl g2 ha hq
  obtain ⟨l1, l2⟩ := hl
  have hok := h.ok
  simp only [callOp, Call.alloc_one, hc]
  have e1 := Call.writes_env w cf ((List.range e.frame.size.toNat).map e.frame.init)
  simp only [handed] at hargs hrun
  generalize hw1 : w.writes cf ((List.range e.frame.size.toNat).map e.frame.init) = w1 at e1 hargs hrun
  have e2 := Call.writes_env w1 (cf + BitVec.ofNat 64 e.frame.argOff) args
  generalize hw2 : w1.writes (cf + BitVec.ofNat 64 e.frame.argOff) args = w2 at e2 hargs hrun
  have q2 : w2.env = fun _ m => m := by rw [e2, e1]; exact hq
  have quiet : ∀ env : Nat → Mem → Mem, env = (fun _ m => m) → Keeps env fun _ => True := by
    intro env he t m a _; rw [he]
  have hsend : w2.send (honest fs wild) idx cf =
      (.back, { w2.turn with mem := if e.frame.isVoid then m' else store m' cf r, trace := w2.trace ++ [.send idx cf] }) := by
    simp only [World.send, honest, if_neg g0, he, Export.apply, hargs, hrun]
  rw [hsend]
  simp only
  by_cases hv : e.frame.isVoid = true
  · simp only [finish, hv, if_true, World.free, World.turn, q2]
    exact ⟨trivial, hq.symm, fun _ _ => trivial⟩
  · simp only [finish, hv, Bool.false_eq_true, if_false]
    generalize hw3 : ({ w2.turn with mem := store m' cf r, trace := w2.trace ++ [.send idx cf] } : World) = w3
    have q3 : w3.env = fun _ m => m := by rw [← hw3]; exact q2
    obtain ⟨r1, r2⟩ := Call.reads_bytesAt (F := fun _ => True) e.frame.retLen w3 w3.mem cf (quiet _ q3) (fun _ _ => rfl)
      (fun _ _ => trivial)
    obtain ⟨_, _, r3⟩ := Call.reads_spec w3 cf e.frame.retLen
    have hb := Call.bytesAt_store r m' cf (by omega)
    refine ⟨?_, ?_, fun x hx => ?_⟩
    · rw [r1, ← hw3, ← hlen]
      exact congrArg _ hb
    · show (w3.reads cf e.frame.retLen).2.env = w.env
      rw [r3, q3, hq]
    · have hq4 : (w3.reads cf e.frame.retLen).2.turn.mem = (w3.reads cf e.frame.retLen).2.mem := by
        simp only [World.turn, r3, q3]
      show (w3.reads cf e.frame.retLen).2.turn.mem x = m' x
      rw [hq4, r2 x trivial, ← hw3]
      simp only [Within] at hx
      exact Call.store_out _ _ _ _ (by omega) (by simp only [Within]; omega)

/-! ### Memory -/

theorem merge_in (h : Heap) (m o : Mem) {x : Word} (hx : h.Has x) : merge h m o x = m x := by
  simp only [merge]; exact if_pos hx

theorem merge_out (h : Heap) (m o : Mem) {x : Word} (hx : ¬ h.Has x) : merge h m o x = o x := by
  simp only [merge]; exact if_neg hx

/-- The child finds what the function finds in the ideal machine. -/
theorem merge_same {h : Heap} {S : Word → Prop} {m m' o o' i : Mem} (hm : ∀ x, h.Has x → ¬ S x → m x = m' x)
    (ho : Same S o o') (hi : IsMerge h m' o' i) : Same S (merge h m o) i := by
  intro x hx
  by_cases hh : h.Has x
  · rw [merge_in h m o hh, (hi x).1 hh]
    exact hm x hh hx
  · rw [merge_out h m o hh, (hi x).2 hh]
    exact ho x hx

/-! ### A function runs to its end -/

theorem toEnd_alike {W : Worlds} {H : Host} {S : Word → Prop} (hf : Fixed W H S) {P : Program} (hP : Blind S P)
    {n : Nat} (hn : 144 ≤ n ∧ n < 2 ^ 64) {live : List Word} {k : Nat} {t t' : Ideal} (ht : Steps W H S n P k t t')
    (hend : (P t'.mem t'.regs).2 = .stop) :
    ∀ {blocks : List (List Word)}, k ≤ blocks.length → (∀ b ∈ blocks, Blocks W S n live b) →
    ∀ {s : State}, Alike S live s t → ∃ s', toEnd W P blocks s = .ok (some s') ∧ Alike S live s' t' := by
  induction ht with
  | none t =>
    intro blocks _ _ s ha
    have h2 := (hP _ _ s.regs ha.mem).2
    rw [← ha.regs] at hend
    refine ⟨s, ?_, ha⟩
    unfold toEnd
    rw [h2, hend]
  | more k t t1 t' h1 _ ih =>
    intro blocks hk hb s ha
    cases blocks with
    | nil => simp at hk
    | cons b bs =>
      obtain ⟨s1, e1, a1⟩ := Run.step_alike hf hP hn (hb b List.mem_cons_self) ha h1
      obtain ⟨s', e2, a2⟩ := ih hend (by simp only [List.length_cons] at hk; omega)
        (fun b' h => hb b' (List.mem_cons_of_mem _ h)) a1
      refine ⟨s', ?_, a2⟩
      unfold toEnd
      cases hact : (P s.child.mem s.regs).2 with
      | stop => simp only [Run.step, hact, Outcome.ok.injEq, reduceCtorEq] at e1
      | sys i r => simp only [e1, e2]
      | back idx data size fd r => simp only [e1, e2]
      | look host serv hints res r => simp only [e1, e2]

/-- A function comes back only where it wants to: with its last stretch done, never in the middle of its calls. -/
theorem returns_at_end (W : Worlds) (P : Program) : ∀ (blocks : List (List Word)) {s s' : State},
    toEnd W P blocks s = .ok (some s') → (P s'.child.mem s'.regs).2 = .stop
  | [], s, s', h => by
    unfold toEnd at h
    cases hact : (P s.child.mem s.regs).2 with
    | stop => simp only [hact] at h; cases h; exact hact
    | sys i r => simp only [hact] at h; cases h
    | back idx data size fd r => simp only [hact] at h; cases h
    | look host serv hints res r => simp only [hact] at h; cases h
  | b :: bs, s, s', h => by
    have key : (match Run.step W P b s with | .ok (some s') => toEnd W P bs s' | o => o) = .ok (some s') →
        (P s'.child.mem s'.regs).2 = .stop := by
      cases ho : Run.step W P b s with
      | ok o =>
        cases o with
        | none => intro h; cases h
        | some t => exact returns_at_end W P bs
      | abort => intro h; cases h
      | throws => intro h; cases h
      | ub => intro h; cases h
    unfold toEnd at h
    cases hact : (P s.child.mem s.regs).2 with
    | stop => simp only [hact] at h; cases h; exact hact
    | sys i r => simp only [hact] at h; exact key h
    | back idx data size fd r => simp only [hact] at h; exact key h
    | look host serv hints res r => simp only [hact] at h; exact key h

/-! ## C94 -/

theorem turn_matches {L : Lib} {W : Worlds} {H : Host} {S : Word → Prop} (hf : Fixed W H S)
    (hL : ∀ f ∈ L.fns, Sound S f) {n : Nat} (hn : 144 ≤ n ∧ n < 2 ^ 64) {Q : Client} (hQ : Discreet L.heap S Q)
    (wild : Sandbox) {live : List Word} {p : (Word → Option Word) × List (List Word)} {k : Nat}
    (hp : Room L W S n live p k) {rs : List (List Byte)} {s : Sys} {t t' : Linked} (hm : Matches L S live rs s t)
    (ht : Called L W H S n Q k t t') :
    ∃ rs' s', turn L W wild Q p.1 p.2 rs s = .goes rs' s' ∧ Matches L S live rs' s' t' := by
  cases ht with
  | mk m start t1 idx args f m' mem hq hfn ha hstart hsteps hstop hmem =>
    have hfm := List.mem_of_getElem? hfn
    have hs := hL f hfm
    obtain ⟨cf, hc, hS⟩ := hp.frame f hfm
    obtain ⟨g0, g1, g2⟩ := hp.gives _ _ hc
    have hframe : ∀ x, Within cf f.frame.size.toNat x → Unused L.heap S x := fun x hx =>
      ⟨⟨by have := hx.1; omega, by have := hx.2; omega⟩, hS x hx⟩
    obtain ⟨q1, q2⟩ := hQ t.results _ _ hm.mem
    rw [hq] at q1 q2
    simp only at q1 q2
    have hr := hm.results
    subst hr
    generalize hw : ({ s.world with mem := (Q t.results s.world.mem).1 } : World) = w
    have hwm : Same (Unused L.heap S) w.mem m := by rw [← hw]; exact q1
    have hwq : w.env = fun _ m => m := by rw [← hw]; exact hm.quiet
    obtain ⟨_, b2⟩ := handed_spec (h := L.heap) hs.laid g2 ha hwq
    have hchild : Same S (merge L.heap (handed f.frame cf args w) s.child.own) start := by
      refine merge_same (fun x hx hn => ?_) hm.own hstart
      rw [b2 x (fun h => hn (hframe x h).2)]
      exact hwm x (fun h => hn h.2)
    obtain ⟨s', e1, e2⟩ := toEnd_alike hf (hs.blind args) hn hsteps (by rw [hstop]) hp.enough hp.blocks
      (s := ⟨⟨merge L.heap (handed f.frame cf args w) s.child.own, s.child.live, []⟩, f.entry, s.child.past⟩)
      (live := live) ⟨hchild, hm.live, rfl, hm.past⟩
    have he : enter L W p.2 s.child f args (handed f.frame cf args w) = .ok (some s') := e1
    have hres : f.result s'.child.mem s'.regs = f.result t1.mem t1.regs := by
      rw [e2.regs]; exact hs.result _ _ _ e2.mem
    have hleft : Same S (left f args s') m' := by
      have := (hs.blind args _ _ t1.regs e2.mem).1
      rw [hstop] at this
      rw [left, e2.regs]
      exact this
    have hrun : (entry L W p.2 s.child f).run args (handed (entry L W p.2 s.child f).frame cf args w) =
        (some (f.result t1.mem t1.regs), merge L.heap (left f args s') (handed f.frame cf args w)) := by
      simp only [entry, he, hres]
    obtain ⟨c1, c2, c3⟩ := call_quiet (h := L.heap) (wild := wild) hp.gives
      (fs := L.fns.map (entry L W p.2 s.child)) (e := entry L W p.2 s.child f) (idx := idx)
      (by rw [List.getElem?_map, hfn]; rfl) hs.laid ha hwq hc hrun (hs.length _ _)
    have hafter : childAfter L W p.2 s.child f cf args w = ⟨left f args s', s'.child.live, s'.past⟩ := by
      simp only [childAfter, he]
    generalize hcall : callOp p.1 (honest (L.fns.map (entry L W p.2 s.child)) wild) idx (entry L W p.2 s.child f).frame args w
      = out at c1 c2 c3
    refine ⟨_, ⟨out.2, ⟨left f args s', s'.child.live, s'.past⟩⟩, ?_, ?_, ?_, ?_, e2.live, e2.past, rfl⟩
    · simp only [turn, q2, hfn, call, hw, hc, hafter]
      have hcall' : callOp p.1 (honest (L.fns.map (entry L W p.2 s.child)) wild) idx f.frame args w = out := hcall
      rw [hcall']
      simp only [c1]
      rfl
    · intro x hx
      have hnf : ¬ Within cf f.frame.size.toNat x := fun h => hx (hframe x h)
      have h3 := c3 x hnf
      simp only
      rw [h3]
      by_cases hh : L.heap.Has x
      · rw [merge_in _ _ _ hh, (hmem x).1 hh]
        exact hleft x (fun h => hx ⟨hh, h⟩)
      · rw [merge_out _ _ _ hh, (hmem x).2 hh, b2 x hnf]
        exact hwm x hx
    · exact c2.trans hwq
    · exact hleft

/-- **C94.**  A program of the host uses a sandboxed library: it computes, calls a function of the library, goes on with the
result and what it finds in memory, and so on; and the functions compute, make system calls, call functions of the host.
Suppose that the machine in which the library is linked in – each call of it just runs the function, and each system call
of the function does at once what it should – makes so many calls.  Then so does the program with the sandbox, from every
memory that the programs cannot tell from it and whatever the allocators give: no call throws, every call returns the same
bytes, the memories of both programs are the same, and the host has made the same system calls for the library and run the
same functions for it, in the same order. -/
theorem library_transparent {L : Lib} {W : Worlds} {H : Host} {S : Word → Prop} (hf : Fixed W H S)
    (hL : ∀ f ∈ L.fns, Sound S f) {n : Nat} (hn : 144 ≤ n ∧ n < 2 ^ 64) {Q : Client} (hQ : Discreet L.heap S Q)
    (wild : Sandbox) {live : List Word} {ps : List (((Word → Option Word) × List (List Word)) × Nat)}
    (hp : ∀ p ∈ ps, Room L W S n live p.1 p.2) {rs : List (List Byte)} {s : Sys} {t t' : Linked}
    (hm : Matches L S live rs s t) (ht : Calls L W H S n Q (ps.map Prod.snd) t t') :
    ∃ rs' s', turns L W wild Q (ps.map Prod.fst) rs s = .goes rs' s' ∧ Matches L S live rs' s' t' := by
  induction ps generalizing rs s t with
  | nil =>
    cases ht
    exact ⟨rs, s, rfl, hm⟩
  | cons p ps ih =>
    cases ht with
    | more _ _ _ t1 _ h1 h2 =>
      obtain ⟨rs1, s1, e1, m1⟩ := turn_matches hf hL hn hQ wild (hp p List.mem_cons_self) hm h1
      obtain ⟨rs', s', e2, m2⟩ := ih (fun q h => hp q (List.mem_cons_of_mem _ h)) m1 h2
      exact ⟨rs', s', by simp only [List.map_cons, turns, e1]; exact e2, m2⟩

/-- **C94, the end.**  If the program ends with the library linked in, it ends with the sandbox, with the same results and
memory. -/
theorem client_ends {L : Lib} {S : Word → Prop} {Q : Client} (hQ : Discreet L.heap S Q) (W : Worlds) (wild : Sandbox)
    (alloc : Word → Option Word) (blocks : List (List Word)) {live : List Word} {rs : List (List Byte)} {s : Sys}
    {t : Linked} (hm : Matches L S live rs s t) (h : (Q t.results t.mem).2 = none) :
    ∃ s', turn L W wild Q alloc blocks rs s = .ended t.results s' ∧
      Same (Unused L.heap S) s'.world.mem (Q t.results t.mem).1 := by
  obtain ⟨q1, q2⟩ := hQ t.results _ _ hm.mem
  have hr := hm.results
  subst hr
  rw [h] at q2
  exact ⟨_, by simp only [turn, q2]; rfl, q1⟩

/-! ### A case that meets the conditions -/

/-- The memory that the programs do not use: as in `Verif.Run`, and the frame. -/
def exOwn (x : Word) : Prop := Run.exOwn x ∨ (0x10800 ≤ x.toNat ∧ x.toNat < 0x10808)

theorem exFixed : Fixed Run.exWorlds Run.exHost exOwn where
  setup := Run.exFixed.setup
  names := Run.exFixed.names
  kernel := fun _ _ _ => rfl
  stat := fun _ _ => rfl
  fns := by
    intro p u bs h m m' hm x hx
    simp only [Run.exWorlds, Run.exWorld, UserEnd.exWorld]
    split
    · exact hm x hx
    · simp only
      split
      · rfl
      · exact hm x hx
  stack := fun p => ⟨(Run.exFixed.stack p).1, fun i hi => .inl ((Run.exFixed.stack p).2 i hi)⟩
  small := Run.exFixed.small
  fails := Run.exFixed.fails
  agree := Run.exFixed.agree
  localRes := fun p => ⟨(Run.exFixed.localRes p).1, fun i hi h => by
    rcases h with h | h
    · exact (Run.exFixed.localRes p).2 i hi h
    · rw [Run.off_toNat _ i 0x7000 rfl (by omega)] at h
      omega⟩
  lists := by
    intro p k b hb
    refine ⟨(Run.exFixed.lists p k b hb).1, fun i hi h => ?_⟩
    rcases h with h | h
    · exact (Run.exFixed.lists p k b hb).2 i hi h
    · simp only [Run.exWorlds, Run.exWorld, NameEnd.exWorld] at hb
      split at hb
      · simp only [Option.some.injEq] at hb
        subst hb
        rw [Run.off_toNat _ i 0x1a000 rfl (by omega)] at h
        omega
      · cases hb

theorem exBlocks : Blocks Run.exWorlds exOwn 144 [0x17000] [0x18000, 0x18200, 0x18400, 0x18600, 0x18800] :=
  { Run.exBlocks with own := fun p hp i hi => .inl (Run.exBlocks.own p hp i hi) }

/-- A function that puts its argument in the heap, calls back with it, and returns what it then finds there, the result of
the callback, and its argument. -/
def exFn : Fn where
  frame := Call.exFrame
  ty := []
  body args := fun m r =>
    if r.rip = 0 then
      (fun x => if x = 0x19000 then args.headD 0 else m x,
        .back 8 0x19000 8 (-1) { r with rip := 0x900, rdi := (args.headD 0).toBitVec.setWidth 64 })
    else (m, .stop)
  entry := ⟨0, 0, 0, 0, 0, 0, 0, 0⟩
  result m r := [m 0x19000, ⟨r.rax.setWidth 8⟩, ⟨r.rdi.setWidth 8⟩, 0]

def exLib : Lib := ⟨Call.exHeap, [exFn]⟩

theorem exSound : ∀ f ∈ exLib.fns, Sound exOwn f := by
  intro f hf
  simp only [exLib, List.mem_singleton] at hf
  subst hf
  have h9 : ¬ exOwn 0x19000 := by unfold exOwn Run.exOwn; decide
  refine ⟨⟨by decide, by decide⟩, fun args m m' r h => ?_, fun m r => rfl, fun m m' r h => ?_⟩
  · simp only [exFn]
    split
    · refine ⟨fun x hx => ?_, rfl⟩
      simp only
      split
      · rfl
      · exact h x hx
    · exact ⟨h, rfl⟩
  · simp only [exFn, h _ h9]

/-- A program that stores in the heap, calls the function, and calls it again with what it returned. -/
def exClient : Client := fun rs m =>
  if rs = [] then (fun x => if x = 0x19008 then 5 else m x, some (0, [1, 2, 3, 4]))
  else if rs.length = 1 then (m, some (0, rs.headD []))
  else (m, none)

theorem exDiscreet : Discreet exLib.heap exOwn exClient := by
  intro rs m m' h
  simp only [exClient]
  repeat' split
  · refine ⟨fun x hx => ?_, rfl⟩
    simp only
    split
    · rfl
    · exact h x hx
  · exact ⟨h, rfl⟩
  · exact ⟨h, rfl⟩

theorem exRoom : Room exLib Run.exWorlds exOwn 144 [0x17000]
    (Call.exAlloc, [[0x18000, 0x18200, 0x18400, 0x18600, 0x18800], [0x18000, 0x18200, 0x18400, 0x18600, 0x18800]]) 1 where
  gives := Call.exAlloc_gives
  frame := by
    intro f hf
    simp only [exLib, List.mem_singleton] at hf
    subst hf
    refine ⟨0x10800, by decide, fun x hx => .inr ⟨hx.1, hx.2⟩⟩
  enough := by decide
  blocks := by
    intro b hb
    simp only [List.mem_cons, List.not_mem_nil, or_false, or_self] at hb
    subst hb
    exact exBlocks

theorem exBuffer : Run.Own Run.exWorld exOwn 144 (0x19000, 8) := by
  obtain ⟨h1, h2, h3⟩ := Run.exOwnBuffer (k := 8) (by decide)
  refine ⟨h1, h2, fun i hi h => ?_⟩
  rcases h with h | h
  · exact h3 i hi h
  · simp only at hi h
    rw [Run.off_toNat 0x19000 i 0x19000 rfl (by omega)] at h
    omega

theorem exMerge (m o : Mem) : IsMerge Call.exHeap m o (merge Call.exHeap m o) :=
  fun _ => ⟨fun h => merge_in _ _ _ h, fun h => merge_out _ _ _ h⟩

/-- The two calls of the program with the library linked in. -/
theorem exCalls (m o : Mem) : ∃ t, Calls exLib Run.exWorlds Run.exHost exOwn 144 exClient [1, 1] ⟨m, o, [], []⟩ t ∧
    t.results = [[77, 108, 1, 0], [77, 108, 77, 0]] ∧ t.mem 0x19008 = 5 := by
  refine ⟨_, .more _ _ _ _ _ (.mk _ _ _ _ 0 [1, 2, 3, 4] exFn _ _ rfl rfl rfl (exMerge _ _)
    (.more _ _ _ _ (.back _ _ 8 0x19000 8 (-1) _ 5 (-1) (-1) rfl ⟨1, rfl, rfl⟩ rfl exBuffer (.inl ⟨by decide, rfl⟩) rfl)
      (.none _)) rfl (exMerge _ _))
    (.more _ _ _ _ _ (.mk _ _ _ _ 0 [77, 108, 1, 0] exFn _ _ rfl rfl rfl (exMerge _ _)
    (.more _ _ _ _ (.back _ _ 8 0x19000 8 (-1) _ 5 (-1) (-1) rfl ⟨1, rfl, rfl⟩ rfl exBuffer (.inl ⟨by decide, rfl⟩) rfl)
      (.none _)) rfl (exMerge _ _)) (.none _)), ?_, ?_⟩
  · rfl
  · rfl

/-- So the program with the sandbox makes them, too, finds the same, and ends. -/
example (m o : Mem) (wild : Sandbox) : ∃ rs s s', turns exLib Run.exWorlds wild exClient
    (List.replicate 2 (Call.exAlloc, [[0x18000, 0x18200, 0x18400, 0x18600, 0x18800], [0x18000, 0x18200, 0x18400, 0x18600, 0x18800]])) []
    ⟨⟨m, [], fun _ m => m⟩, ⟨o, [0x17000], []⟩⟩ = .goes rs s ∧ rs = [[77, 108, 1, 0], [77, 108, 77, 0]] ∧
    s.world.mem 0x19008 = 5 ∧ turn exLib Run.exWorlds wild exClient Call.exAlloc [] rs s = .ended rs s' := by
  obtain ⟨t, h1, h2, h3⟩ := exCalls m o
  obtain ⟨rs, s, e1, e2⟩ := library_transparent exFixed exSound (by decide) exDiscreet wild
    (live := [0x17000]) (rs := []) (s := ⟨⟨m, [], fun _ m => m⟩, ⟨o, [0x17000], []⟩⟩)
    (ps := List.replicate 2 ((Call.exAlloc, [[0x18000, 0x18200, 0x18400, 0x18600, 0x18800], [0x18000, 0x18200, 0x18400, 0x18600, 0x18800]]), 1))
    (fun p hp => by rw [List.eq_of_mem_replicate hp]; exact exRoom)
    ⟨fun _ _ => rfl, rfl, fun _ _ => rfl, rfl, rfl, rfl⟩ h1
  have hr : rs = [[77, 108, 1, 0], [77, 108, 77, 0]] := e2.results.trans h2
  obtain ⟨s', e3, _⟩ := client_ends exDiscreet Run.exWorlds wild Call.exAlloc [] e2 (by rw [h2]; rfl)
  refine ⟨rs, s, s', e1, hr, ?_, by rw [e3, ← e2.results]⟩
  rw [e2.mem 0x19008 (fun h => absurd h.2 (by unfold exOwn Run.exOwn; decide)), h3]

/-- A function that makes no call comes back at once. -/
example (W : Worlds) (s : State) : toEnd W (fun m _ => (m, .stop)) [] s = .ok (some s) := by
  unfold toEnd
  rfl

/-- **C94** (no memory).  If there is no memory for the frame, the call raises `bad_alloc`, and neither the shared memory nor
the child has changed. -/
theorem no_frame_no_call (L : Lib) (W : Worlds) (wild : Sandbox) {alloc : Word → Option Word} (blocks : List (List Word))
    (idx : Nat) (f : Fn) (args : List Byte) (s : Sys) (h : alloc f.frame.size = none) :
    call L W wild alloc blocks idx f args s = (.badAlloc, s) := by
  simp only [call, callOp, Call.alloc_one, h]

/-- Such an allocator. -/
example (s : Sys) (wild : Sandbox) : call exLib Run.exWorlds wild (fun _ => none) [] 0 exFn [1, 2, 3, 4] s = (.badAlloc, s) :=
  no_frame_no_call _ _ _ _ _ _ _ _ rfl

end Verif.Whole
