import Verif.BsdWhole.Spec
import Verif.BsdRun.TotalProps
import Verif.Whole.Props

/-!
# On FreeBSD, a program that uses a sandboxed library does what it would do with the library linked in
-/

namespace Verif.BsdWhole

open Verif.FreeBsd (Regs)
open Verif.BsdRun (Program Worlds Event State Ideal Host Blind Steps Blocks Fixed Alike)
open Verif.Run (Same)
open Verif.Whole (Client IsMerge Unused Discreet merge handed handed_spec call_quiet merge_in merge_out merge_same
  exMerge exOwn exClient exDiscreet)
open Verif.Call (Frame Export World Sandbox callOp honest bytesAt store Keeps finish)
open Verif.Call.Spec (Heap Within Gives LaidOut)

/-! ### A function runs to its end -/

theorem toEnd_alike {W : Worlds} {H : Host} {S : Word → Prop} (hf : Fixed W H S) {P : Program} (hP : Blind S P)
    {n : Nat} (hn : 224 ≤ n ∧ n < 2 ^ 64) {live : List Word} {k : Nat} {t t' : Ideal} (ht : Steps W H S n P k t t')
    (hend : (P t'.mem t'.regs).2 = .stop) :
    ∀ {blocks : List (List Word)}, k ≤ blocks.length → (∀ b ∈ blocks, Blocks W S n live b) →
    ∀ {s : State}, Alike S live s t → ∃ s', toEnd W P blocks s = .ok (some s') ∧ Alike S live s' t' := by
  induction ht with
  | none t =>
    intro blocks _ _ s ha
    have h2 := (hP _ _ s.regs ha.mem).2
    rw [← ha.regs] at hend
    refine ⟨s, ?_, ha⟩
    unfold toEnd
    rw [h2, hend]
  | more k t t1 t' h1 _ ih =>
    intro blocks hk hb s ha
    cases blocks with
    | nil => simp at hk
    | cons b bs =>
      obtain ⟨s1, e1, a1⟩ := BsdRun.step_alike hf hP hn (hb b List.mem_cons_self) ha h1
      obtain ⟨s', e2, a2⟩ := ih hend (by simp only [List.length_cons] at hk; omega)
        (fun b' h => hb b' (List.mem_cons_of_mem _ h)) a1
      refine ⟨s', ?_, a2⟩
      unfold toEnd
      cases hact : (P s.child.mem s.regs).2 with
      | stop => simp only [BsdRun.step, hact, Outcome.ok.injEq, reduceCtorEq] at e1
      | sys i r => simp only [e1, e2]
      | back idx data size fd r => simp only [e1, e2]
      | look host serv hints res r => simp only [e1, e2]

/-- A function comes back only where it wants to: with its last stretch done, never in the middle of its calls. -/
theorem bsd_returns_at_end (W : Worlds) (P : Program) : ∀ (blocks : List (List Word)) {s s' : State},
    toEnd W P blocks s = .ok (some s') → (P s'.child.mem s'.regs).2 = .stop
  | [], s, s', h => by
    unfold toEnd at h
    cases hact : (P s.child.mem s.regs).2 with
    | stop => simp only [hact] at h; cases h; exact hact
    | sys i r => simp only [hact] at h; cases h
    | back idx data size fd r => simp only [hact] at h; cases h
    | look host serv hints res r => simp only [hact] at h; cases h
  | b :: bs, s, s', h => by
    have key : (match BsdRun.step W P b s with | .ok (some s') => toEnd W P bs s' | o => o) = .ok (some s') →
        (P s'.child.mem s'.regs).2 = .stop := by
      cases ho : BsdRun.step W P b s with
      | ok o =>
        cases o with
        | none => intro h; cases h
        | some t => exact bsd_returns_at_end W P bs
      | abort => intro h; cases h
      | throws => intro h; cases h
      | ub => intro h; cases h
    unfold toEnd at h
    cases hact : (P s.child.mem s.regs).2 with
    | stop => simp only [hact] at h; cases h; exact hact
    | sys i r => simp only [hact] at h; exact key h
    | back idx data size fd r => simp only [hact] at h; exact key h
    | look host serv hints res r => simp only [hact] at h; exact key h

/-! ## C131 -/

theorem turn_matches {L : Lib} {W : Worlds} {H : Host} {S : Word → Prop} (hf : Fixed W H S)
    (hL : ∀ f ∈ L.fns, Sound S f) {n : Nat} (hn : 224 ≤ n ∧ n < 2 ^ 64) {Q : Client} (hQ : Discreet L.heap S Q)
    (wild : Sandbox) {live : List Word} {p : (Word → Option Word) × List (List Word)} {k : Nat}
    (hp : Room L W S n live p k) {rs : List (List Byte)} {s : Sys} {t t' : Linked} (hm : Matches L S live rs s t)
    (ht : Called L W H S n Q k t t') :
    ∃ rs' s', turn L W wild Q p.1 p.2 rs s = .goes rs' s' ∧ Matches L S live rs' s' t' := by
  cases ht with
  | mk m start t1 idx args f m' mem hq hfn ha hstart hsteps hstop hmem =>
    have hfm := List.mem_of_getElem? hfn
    have hs := hL f hfm
    obtain ⟨cf, hc, hS⟩ := hp.frame f hfm
    obtain ⟨g0, g1, g2⟩ := hp.gives _ _ hc
    have hframe : ∀ x, Within cf f.frame.size.toNat x → Unused L.heap S x := fun x hx =>
      ⟨⟨by have := hx.1; omega, by have := hx.2; omega⟩, hS x hx⟩
    obtain ⟨q1, q2⟩ := hQ t.results _ _ hm.mem
    rw [hq] at q1 q2
    simp only at q1 q2
    have hr := hm.results
    subst hr
    generalize hw : ({ s.world with mem := (Q t.results s.world.mem).1 } : World) = w
    have hwm : Same (Unused L.heap S) w.mem m := by rw [← hw]; exact q1
    have hwq : w.env = fun _ m => m := by rw [← hw]; exact hm.quiet
    obtain ⟨_, b2⟩ := handed_spec (h := L.heap) hs.laid g2 ha hwq
    have hchild : Same S (merge L.heap (handed f.frame cf args w) s.child.own) start := by
      refine merge_same (fun x hx hn => ?_) hm.own hstart
      rw [b2 x (fun h => hn (hframe x h).2)]
      exact hwm x (fun h => hn h.2)
    obtain ⟨s', e1, e2⟩ := toEnd_alike hf (hs.blind args) hn hsteps (by rw [hstop]) hp.enough hp.blocks
      (s := ⟨⟨merge L.heap (handed f.frame cf args w) s.child.own, s.child.live, []⟩, f.entry, s.child.past⟩)
      (live := live) ⟨hchild, hm.live, rfl, hm.past⟩
    have he : enter L W p.2 s.child f args (handed f.frame cf args w) = .ok (some s') := e1
    have hres : f.result s'.child.mem s'.regs = f.result t1.mem t1.regs := by
      rw [e2.regs]; exact hs.result _ _ _ e2.mem
    have hleft : Same S (left f args s') m' := by
      have := (hs.blind args _ _ t1.regs e2.mem).1
      rw [hstop] at this
      rw [left, e2.regs]
      exact this
    have hrun : (entry L W p.2 s.child f).run args (handed (entry L W p.2 s.child f).frame cf args w) =
        (some (f.result t1.mem t1.regs), merge L.heap (left f args s') (handed f.frame cf args w)) := by
      simp only [entry, he, hres]
    obtain ⟨c1, c2, c3⟩ := call_quiet (h := L.heap) (wild := wild) hp.gives
      (fs := L.fns.map (entry L W p.2 s.child)) (e := entry L W p.2 s.child f) (idx := idx)
      (by rw [List.getElem?_map, hfn]; rfl) hs.laid ha hwq hc hrun (hs.length _ _)
    have hafter : childAfter L W p.2 s.child f cf args w = ⟨left f args s', s'.child.live, s'.past⟩ := by
      simp only [childAfter, he]
    generalize hcall : callOp p.1 (honest (L.fns.map (entry L W p.2 s.child)) wild) idx (entry L W p.2 s.child f).frame args w
      = out at c1 c2 c3
    refine ⟨_, ⟨out.2, ⟨left f args s', s'.child.live, s'.past⟩⟩, ?_, ?_, ?_, ?_, e2.live, e2.past, rfl⟩
    · simp only [turn, q2, hfn, call, hw, hc, hafter]
      have hcall' : callOp p.1 (honest (L.fns.map (entry L W p.2 s.child)) wild) idx f.frame args w = out := hcall
      rw [hcall']
      simp only [c1]
      rfl
    · intro x hx
      have hnf : ¬ Within cf f.frame.size.toNat x := fun h => hx (hframe x h)
      have h3 := c3 x hnf
      simp only
      rw [h3]
      by_cases hh : L.heap.Has x
      · rw [merge_in _ _ _ hh, (hmem x).1 hh]
        exact hleft x (fun h => hx ⟨hh, h⟩)
      · rw [merge_out _ _ _ hh, (hmem x).2 hh, b2 x hnf]
        exact hwm x hx
    · exact c2.trans hwq
    · exact hleft

/-- **C131.**  A program of the host uses a sandboxed library: it computes, calls a function of the library, goes on with the
result and what it finds in memory, and so on; and the functions compute, make system calls, call functions of the host.
Suppose that the machine in which the library is linked in – each call of it just runs the function, and each system call
of the function does at once what it should – makes so many calls.  Then so does the program with the sandbox, from every
memory that the programs cannot tell from it and whatever the allocators give: no call throws, every call returns the same
bytes, the memories of both programs are the same, and the host has made the same system calls for the library and run the
same functions for it, in the same order. -/
theorem bsd_library_transparent {L : Lib} {W : Worlds} {H : Host} {S : Word → Prop} (hf : Fixed W H S)
    (hL : ∀ f ∈ L.fns, Sound S f) {n : Nat} (hn : 224 ≤ n ∧ n < 2 ^ 64) {Q : Client} (hQ : Discreet L.heap S Q)
    (wild : Sandbox) {live : List Word} {ps : List (((Word → Option Word) × List (List Word)) × Nat)}
    (hp : ∀ p ∈ ps, Room L W S n live p.1 p.2) {rs : List (List Byte)} {s : Sys} {t t' : Linked}
    (hm : Matches L S live rs s t) (ht : Calls L W H S n Q (ps.map Prod.snd) t t') :
    ∃ rs' s', turns L W wild Q (ps.map Prod.fst) rs s = .goes rs' s' ∧ Matches L S live rs' s' t' := by
  induction ps generalizing rs s t with
  | nil =>
    cases ht
    exact ⟨rs, s, rfl, hm⟩
  | cons p ps ih =>
    cases ht with
    | more _ _ _ t1 _ h1 h2 =>
      obtain ⟨rs1, s1, e1, m1⟩ := turn_matches hf hL hn hQ wild (hp p List.mem_cons_self) hm h1
      obtain ⟨rs', s', e2, m2⟩ := ih (fun q h => hp q (List.mem_cons_of_mem _ h)) m1 h2
      exact ⟨rs', s', by simp only [List.map_cons, turns, e1]; exact e2, m2⟩

/-- **C131, the end.**  If the program ends with the library linked in, it ends with the sandbox, with the same results and
memory. -/
theorem bsd_client_ends {L : Lib} {S : Word → Prop} {Q : Client} (hQ : Discreet L.heap S Q) (W : Worlds) (wild : Sandbox)
    (alloc : Word → Option Word) (blocks : List (List Word)) {live : List Word} {rs : List (List Byte)} {s : Sys}
    {t : Linked} (hm : Matches L S live rs s t) (h : (Q t.results t.mem).2 = none) :
    ∃ s', turn L W wild Q alloc blocks rs s = .ended t.results s' ∧
      Same (Unused L.heap S) s'.world.mem (Q t.results t.mem).1 := by
  obtain ⟨q1, q2⟩ := hQ t.results _ _ hm.mem
  have hr := hm.results
  subst hr
  rw [h] at q2
  exact ⟨_, by simp only [turn, q2]; rfl, q1⟩

/-! ### A case that meets the conditions -/

theorem exFixed : Fixed BsdRun.exWorlds BsdRun.exHost exOwn where
  setup := BsdRun.exFixed.setup
  names := BsdRun.exFixed.names
  bsd := BsdRun.exFixed.bsd
  bsdStat := BsdRun.exFixed.bsdStat
  kernel := BsdRun.exFixed.kernel
  stat := fun _ _ => rfl
  fns := by
    intro p u bs h m m' hm x hx
    simp only [BsdRun.exWorlds, BsdRun.exWorld, UserEnd.exWorld]
    split
    · exact hm x hx
    · simp only
      split
      · rfl
      · exact hm x hx
  stack := fun p => ⟨(BsdRun.exFixed.stack p).1, fun i hi => .inl ((BsdRun.exFixed.stack p).2 i hi)⟩
  small := BsdRun.exFixed.small
  fails := BsdRun.exFixed.fails
  agree := BsdRun.exFixed.agree
  localRes := fun p => ⟨(BsdRun.exFixed.localRes p).1, fun i hi h => by
    rcases h with h | h
    · exact (BsdRun.exFixed.localRes p).2 i hi h
    · rw [Run.off_toNat _ i 0x7000 rfl (by omega)] at h
      omega⟩
  lists := by
    intro p k b hb
    refine ⟨(BsdRun.exFixed.lists p k b hb).1, fun i hi h => ?_⟩
    rcases h with h | h
    · exact (BsdRun.exFixed.lists p k b hb).2 i hi h
    · simp only [BsdRun.exWorlds, BsdRun.exWorld, NameEnd.exWorld] at hb
      split at hb
      · simp only [Option.some.injEq] at hb
        subst hb
        rw [Run.off_toNat _ i 0x1a000 rfl (by omega)] at h
        omega
      · cases hb

theorem exBlocks : Blocks BsdRun.exWorlds exOwn 224 [0x17000] [0x18000, 0x18200, 0x18400, 0x18600, 0x18800] :=
  { BsdRun.exBlocks with own := fun p hp i hi => .inl (BsdRun.exBlocks.own p hp i hi) }

/-- A function that puts its argument in the heap, calls back with it, and returns what it then finds there, the result of
the callback, and its argument. -/
def exFn : Fn where
  frame := Call.exFrame
  ty := []
  body args := fun m r =>
    if r.rip = 0 then
      (fun x => if x = 0x19000 then args.headD 0 else m x,
        .back 8 0x19000 8 (-1) { r with rip := 0x900, rdi := (args.headD 0).toBitVec.setWidth 64 })
    else (m, .stop)
  entry := ⟨0, 0, 0, 0, 0, 0, 0, 0, 0⟩
  result m r := [m 0x19000, ⟨r.rax.setWidth 8⟩, ⟨r.rdi.setWidth 8⟩, 0]

def exLib : Lib := ⟨Call.exHeap, [exFn]⟩

theorem exSound : ∀ f ∈ exLib.fns, Sound exOwn f := by
  intro f hf
  simp only [exLib, List.mem_singleton] at hf
  subst hf
  have h9 : ¬ exOwn 0x19000 := by unfold exOwn Run.exOwn; decide
  refine ⟨⟨by decide, by decide⟩, fun args m m' r h => ?_, fun m r => rfl, fun m m' r h => ?_⟩
  · simp only [exFn]
    split
    · refine ⟨fun x hx => ?_, rfl⟩
      simp only
      split
      · rfl
      · exact h x hx
    · exact ⟨h, rfl⟩
  · simp only [exFn, h _ h9]

theorem exRoom : Room exLib BsdRun.exWorlds exOwn 224 [0x17000]
    (Call.exAlloc, [[0x18000, 0x18200, 0x18400, 0x18600, 0x18800], [0x18000, 0x18200, 0x18400, 0x18600, 0x18800]]) 1 where
  gives := Call.exAlloc_gives
  frame := by
    intro f hf
    simp only [exLib, List.mem_singleton] at hf
    subst hf
    refine ⟨0x10800, by decide, fun x hx => .inr ⟨hx.1, hx.2⟩⟩
  enough := by decide
  blocks := by
    intro b hb
    simp only [List.mem_cons, List.not_mem_nil, or_false, or_self] at hb
    subst hb
    exact exBlocks

theorem exBuffer : BsdRun.Own BsdRun.exWorld exOwn 224 (0x19000, 8) := by
  obtain ⟨h1, h2, h3⟩ := BsdRun.exOwnBuffer (k := 8) (by decide)
  refine ⟨h1, h2, fun i hi h => ?_⟩
  rcases h with h | h
  · exact h3 i hi h
  · simp only at hi h
    rw [Run.off_toNat 0x19000 i 0x19000 rfl (by omega)] at h
    omega

/-- The two calls of the program with the library linked in. -/
theorem exCalls (m o : Mem) : ∃ t, Calls exLib BsdRun.exWorlds BsdRun.exHost exOwn 224 exClient [1, 1] ⟨m, o, [], []⟩ t ∧
    t.results = [[77, 108, 1, 0], [77, 108, 77, 0]] ∧ t.mem 0x19008 = 5 := by
  refine ⟨_, .more _ _ _ _ _ (.mk _ _ _ _ 0 [1, 2, 3, 4] exFn _ _ rfl rfl rfl (exMerge _ _)
    (.more _ _ _ _ (.back _ _ 8 0x19000 8 (-1) _ 5 (-1) (-1) rfl ⟨1, rfl, rfl⟩ rfl exBuffer (.inl ⟨by decide, rfl⟩) rfl)
      (.none _)) rfl (exMerge _ _))
    (.more _ _ _ _ _ (.mk _ _ _ _ 0 [77, 108, 1, 0] exFn _ _ rfl rfl rfl (exMerge _ _)
    (.more _ _ _ _ (.back _ _ 8 0x19000 8 (-1) _ 5 (-1) (-1) rfl ⟨1, rfl, rfl⟩ rfl exBuffer (.inl ⟨by decide, rfl⟩) rfl)
      (.none _)) rfl (exMerge _ _)) (.none _)), ?_, ?_⟩
  · rfl
  · rfl

/-- So the program with the sandbox makes them, too, finds the same, and ends. -/
example (m o : Mem) (wild : Sandbox) : ∃ rs s s', turns exLib BsdRun.exWorlds wild exClient
    (List.replicate 2 (Call.exAlloc, [[0x18000, 0x18200, 0x18400, 0x18600, 0x18800], [0x18000, 0x18200, 0x18400, 0x18600, 0x18800]])) []
    ⟨⟨m, [], fun _ m => m⟩, ⟨o, [0x17000], []⟩⟩ = .goes rs s ∧ rs = [[77, 108, 1, 0], [77, 108, 77, 0]] ∧
    s.world.mem 0x19008 = 5 ∧ turn exLib BsdRun.exWorlds wild exClient Call.exAlloc [] rs s = .ended rs s' := by
  obtain ⟨t, h1, h2, h3⟩ := exCalls m o
  obtain ⟨rs, s, e1, e2⟩ := bsd_library_transparent exFixed exSound (by decide) exDiscreet wild
    (live := [0x17000]) (rs := []) (s := ⟨⟨m, [], fun _ m => m⟩, ⟨o, [0x17000], []⟩⟩)
    (ps := List.replicate 2 ((Call.exAlloc, [[0x18000, 0x18200, 0x18400, 0x18600, 0x18800], [0x18000, 0x18200, 0x18400, 0x18600, 0x18800]]), 1))
    (fun p hp => by rw [List.eq_of_mem_replicate hp]; exact exRoom)
    ⟨fun _ _ => rfl, rfl, fun _ _ => rfl, rfl, rfl, rfl⟩ h1
  have hr : rs = [[77, 108, 1, 0], [77, 108, 77, 0]] := e2.results.trans h2
  obtain ⟨s', e3, _⟩ := bsd_client_ends exDiscreet BsdRun.exWorlds wild Call.exAlloc [] e2 (by rw [h2]; rfl)
  refine ⟨rs, s, s', e1, hr, ?_, by rw [e3, ← e2.results]⟩
  rw [e2.mem 0x19008 (fun h => absurd h.2 (by unfold exOwn Run.exOwn; decide)), h3]

/-- A function that makes no call comes back at once. -/
example (W : Worlds) (s : State) : toEnd W (fun m _ => (m, .stop)) [] s = .ok (some s) := by
  unfold toEnd
  rfl

/-- **C131** (no memory).  If there is no memory for the frame, the call raises `bad_alloc`, and neither the shared memory nor
the child has changed. -/
theorem bsd_no_frame_no_call (L : Lib) (W : Worlds) (wild : Sandbox) {alloc : Word → Option Word} (blocks : List (List Word))
    (idx : Nat) (f : Fn) (args : List Byte) (s : Sys) (h : alloc f.frame.size = none) :
    call L W wild alloc blocks idx f args s = (.badAlloc, s) := by
  simp only [call, callOp, Call.alloc_one, h]

/-- Such an allocator. -/
example (s : Sys) (wild : Sandbox) : call exLib BsdRun.exWorlds wild (fun _ => none) [] 0 exFn [1, 2, 3, 4] s = (.badAlloc, s) :=
  bsd_no_frame_no_call _ _ _ _ _ _ _ _ rfl

end Verif.BsdWhole
