import Verif.Call.Lemmas

/-!
# Calling a sandboxed function (properties C81, C82)
-/

namespace Verif.Call

open Spec
open Verif.AddrInfo (leBytes leBytes_length)

/-! ### C81: a call uses its frame and nothing else -/

/-- Whatever the sandbox does, a call either has no room and does nothing at all, or it uses one frame: it stores only
inside that frame, sends its own index with that frame once, and then either the sandbox has ended and the host does
nothing more, or it loads every byte of the result exactly once, in order, from the beginning of the frame, frees that
frame, and returns exactly the bytes that it loaded. -/
theorem call_uses_its_frame (h : Heap) (alloc : Word → Option Word) (hg : Gives h alloc) (sb : Sandbox) (idx : Nat)
    (fr : Frame) (hl : LaidOut fr) (args : List Byte) (ha : args.length = fr.argLen) (w : World) :
    (alloc fr.size = none → callOp alloc sb idx fr args w = (.badAlloc, w)) ∧
    ∀ cf, alloc fr.size = some cf → ∃ pre post,
      (callOp alloc sb idx fr args w).2.trace = w.trace ++ pre ++ [.send idx cf] ++ post ∧
      (∀ e ∈ pre, ∃ a b, e = .write a b ∧ Within cf fr.size.toNat a ∧ h.Has a) ∧
      (((callOp alloc sb idx fr args w).1 = .sendThrew ∧ post = []) ∨
        ∃ r, (callOp alloc sb idx fr args w).1 = .returned r ∧ r.length = (if fr.isVoid then 0 else fr.retLen) ∧
          post = loads cf r ++ [.free cf] ∧ ∀ i, i < r.length → h.Has (cf + BitVec.ofNat 64 i)) := by
  obtain ⟨l1, l2⟩ := hl
  refine ⟨fun hn => by simp only [callOp, alloc_one, hn], ?_⟩
  intro cf hc
  obtain ⟨_, g1, g2⟩ := hg _ _ hc
  have hok := h.ok
  have hoff : (cf + BitVec.ofNat 64 fr.argOff).toNat = cf.toNat + fr.argOff := toNat_add_ofNat _ _ (by omega)
  let w2 := (w.writes cf ((List.range fr.size.toNat).map fr.init)).writes (cf + BitVec.ofNat 64 fr.argOff) args
  have h2 : w2.trace = w.trace ++ (stores cf ((List.range fr.size.toNat).map fr.init) ++
      stores (cf + BitVec.ofNat 64 fr.argOff) args) := by
    show ((w.writes cf _).writes _ args).trace = _
    rw [writes_trace, writes_trace, List.append_assoc]
  have hpre : ∀ e ∈ stores cf ((List.range fr.size.toNat).map fr.init) ++ stores (cf + BitVec.ofNat 64 fr.argOff) args,
      ∃ a b, e = Ev.write a b ∧ Within cf fr.size.toNat a ∧ h.Has a := by
    intro e he
    rcases List.mem_append.mp he with he | he
    · obtain ⟨i, b, hi, rfl⟩ := mem_stores he
      simp only [List.length_map, List.length_range] at hi
      have := toNat_add_ofNat cf i (by omega)
      exact ⟨_, _, rfl, ⟨by omega, by omega⟩, ⟨by omega, by omega⟩⟩
    · obtain ⟨i, b, hi, rfl⟩ := mem_stores he
      have := toNat_add_ofNat (cf + BitVec.ofNat 64 fr.argOff) i (by omega)
      exact ⟨_, _, rfl, ⟨by omega, by omega⟩, ⟨by omega, by omega⟩⟩
  have hcall : callOp alloc sb idx fr args w = match w2.send sb idx cf with
      | (.threw, w3) => (.sendThrew, w3)
      | (.back, w3) => finish fr cf w3 := by
    simp only [callOp, alloc_one, hc]
    rfl
  have h3 : (w2.send sb idx cf).2.trace = w2.trace ++ [.send idx cf] := rfl
  rcases hs : w2.send sb idx cf with ⟨s, w3⟩
  rw [hs] at h3 hcall
  cases s with
  | threw =>
    simp only at hcall h3
    rw [hcall]
    exact ⟨_, [], by rw [h3, h2]; simp, hpre, Or.inl ⟨rfl, rfl⟩⟩
  | back =>
    simp only at hcall h3
    rw [hcall]
    by_cases hv : fr.isVoid = true
    · refine ⟨_, [.free cf], ?_, hpre, Or.inr ⟨[], ?_, ?_, rfl, ?_⟩⟩
      · simp only [finish, hv, if_true, World.free]
        rw [h3, h2]
      · simp [finish, hv]
      · simp [hv]
      · intro i hi; exact absurd hi (by simp)
    · obtain ⟨r1, r2, _⟩ := reads_spec w3 cf fr.retLen
      refine ⟨_, loads cf (w3.reads cf fr.retLen).1 ++ [.free cf], ?_, hpre,
        Or.inr ⟨(w3.reads cf fr.retLen).1, ?_, ?_, rfl, ?_⟩⟩
      · simp only [finish, hv, World.free]
        show (w3.reads cf fr.retLen).2.trace ++ [.free cf] = _
        rw [r2, h3, h2]; simp
      · simp [finish, hv]
      · rw [r1, if_neg hv]
      · intro i hi
        rw [r1] at hi
        have := toNat_add_ofNat cf i (by omega)
        exact ⟨by omega, by omega⟩

/-- A heap, an allocator and a frame for `int(int)` for the examples. -/
def exHeap : Heap := ⟨0x10000, 0x20000, by decide⟩
/-- An allocator that has room for small things at one place. -/
def exAlloc : Word → Option Word := fun sz => if sz.toNat ≤ 64 then some 0x10800 else none
/-- `int(int)`. -/
def exFrame : Frame := ⟨8, false, 4, 4, 4, fun _ => 0⟩

theorem exAlloc_gives : Gives exHeap exAlloc := by
  intro sz p hp
  simp only [exAlloc] at hp
  split at hp
  · cases hp
    refine ⟨by decide, by decide, ?_⟩
    show 0x10800 + sz.toNat ≤ 0x20000
    omega
  · cases hp

example : Gives exHeap exAlloc ∧ LaidOut exFrame ∧ [1, 2, 3, 4].length = exFrame.argLen ∧
    exAlloc exFrame.size = some 0x10800 :=
  ⟨exAlloc_gives, ⟨by decide, by decide⟩, rfl, by decide⟩

/-- If the sandbox and the other threads keep to the sandbox's memory, then a call leaves every byte of the host's own
memory as it was: nothing the sandbox answers makes the call store anywhere else. -/
theorem call_keeps_host_memory (h : Heap) (alloc : Word → Option Word) (hg : Gives h alloc) (sb : Sandbox) (idx : Nat)
    (hsb : ∀ p, Inside h fun m => (sb idx p m).2) (fr : Frame) (hl : LaidOut fr) (args : List Byte)
    (ha : args.length = fr.argLen) (w : World) (hw : ∀ t, Inside h (w.env t)) :
    ∀ a, ¬ h.Has a → (callOp alloc sb idx fr args w).2.mem a = w.mem a := by
  obtain ⟨l1, l2⟩ := hl
  show Same h w.mem _
  simp only [callOp, alloc_one]
  rcases hc : alloc fr.size with _ | cf
  · exact Same.refl _ _
  obtain ⟨_, g1, g2⟩ := hg _ _ hc
  have hok := h.ok
  have hoff : (cf + BitVec.ofNat 64 fr.argOff).toNat = cf.toNat + fr.argOff := toNat_add_ofNat _ _ (by omega)
  have s1 := writes_same ((List.range fr.size.toNat).map fr.init) w cf hw g1 (by simp; omega)
  have e1 := writes_env w cf ((List.range fr.size.toNat).map fr.init)
  generalize hw1 : w.writes cf ((List.range fr.size.toNat).map fr.init) = w1 at s1 e1
  have hw1e : ∀ t, Inside h (w1.env t) := by rw [e1]; exact hw
  have s2 := writes_same args w1 (cf + BitVec.ofNat 64 fr.argOff) hw1e (by omega) (by omega)
  have e2 := writes_env w1 (cf + BitVec.ofNat 64 fr.argOff) args
  simp only [hw1]
  generalize hw2 : w1.writes (cf + BitVec.ofNat 64 fr.argOff) args = w2 at s2 e2
  have hw2e : ∀ t, Inside h (w2.env t) := by rw [e2]; exact hw1e
  have s3 : Same h w2.mem (w2.send sb idx cf).2.mem := Same.trans (turn_same hw2e) (fun a ha => hsb cf _ a ha)
  have e3 : (w2.send sb idx cf).2.env = w2.env := rfl
  rcases hs : w2.send sb idx cf with ⟨s, w3⟩
  rw [hs] at s3 e3
  simp only at s3 e3
  have hw3e : ∀ t, Inside h (w3.env t) := by rw [e3]; exact hw2e
  have s03 := (s1.trans s2).trans s3
  cases s with
  | threw => exact s03
  | back =>
    simp only [finish]
    split
    · exact s03.trans (turn_same hw3e)
    · refine (s03.trans (reads_same fr.retLen w3 cf hw3e)).trans ?_
      obtain ⟨_, _, r3⟩ := reads_spec w3 cf fr.retLen
      exact turn_same (by rw [r3]; exact hw3e)

example : (∀ p, Inside exHeap fun m => ((fun _ _ m => (.back, fun x => if x = 0x10801 then 7 else m x) : Sandbox) 1 p m).2) ∧
    Gives exHeap exAlloc ∧ LaidOut exFrame ∧ ∀ t : Nat, Inside exHeap ((fun _ m => m : Nat → Mem → Mem) t) := by
  refine ⟨?_, exAlloc_gives, ⟨by decide, by decide⟩, fun _ _ _ _ => rfl⟩
  intro p m a ha
  show (if a = 0x10801 then 7 else m a) = m a
  rw [if_neg]
  rintro rfl
  exact ha ⟨by decide, by decide⟩

/-- With an honest sandbox, and if the other threads leave the frame alone, a call of the entry of the table with the
same frame hands it exactly the argument bytes and returns exactly the bytes that the function returned; if the
function throws, the call throws. -/
theorem call_returns_the_result (h : Heap) (alloc : Word → Option Word) (hg : Gives h alloc) (fs : List Export)
    (wild : Sandbox) (idx : Nat) (e : Export) (he : fs[idx]? = some e) (hl : LaidOut e.frame) (args : List Byte)
    (ha : args.length = e.frame.argLen) (w : World) (cf : Word) (hc : alloc e.frame.size = some cf)
    (hk : Keeps w.env (Within cf e.frame.size.toNat))
    (hr : ∀ m r, (e.run args m).1 = some r → r.length = e.frame.retLen) :
    ∃ m, bytesAt m (cf + BitVec.ofNat 64 e.frame.argOff) e.frame.argLen = args ∧
      (callOp alloc (honest fs wild) idx e.frame args w).1 =
        match (e.run args m).1 with
        | some r => .returned (if e.frame.isVoid then [] else r)
        | none => .sendThrew := by
  obtain ⟨l1, l2⟩ := hl
  obtain ⟨g0, g1, g2⟩ := hg _ _ hc
  have hok := h.ok
  have hoff : (cf + BitVec.ofNat 64 e.frame.argOff).toNat = cf.toNat + e.frame.argOff := toNat_add_ofNat _ _ (by omega)
  simp only [callOp, alloc_one, hc]
  have e1 := writes_env w cf ((List.range e.frame.size.toNat).map e.frame.init)
  generalize hw1 : w.writes cf ((List.range e.frame.size.toNat).map e.frame.init) = w1 at e1
  have k1 : Keeps w1.env (Within cf e.frame.size.toNat) := by rw [e1]; exact hk
  have e2 := writes_env w1 (cf + BitVec.ofNat 64 e.frame.argOff) args
  have m2 := writes_store (F := Within cf e.frame.size.toNat) args w1 w1.mem (cf + BitVec.ofNat 64 e.frame.argOff) k1
    (fun _ _ => rfl)
  generalize hw2 : w1.writes (cf + BitVec.ofNat 64 e.frame.argOff) args = w2 at e2 m2
  have k2 : Keeps w2.env (Within cf e.frame.size.toNat) := by rw [e2]; exact k1
  have hargs : bytesAt w2.turn.mem (cf + BitVec.ofNat 64 e.frame.argOff) e.frame.argLen = args := by
    rw [← ha, bytesAt_congr _ _ (store w1.mem (cf + BitVec.ofNat 64 e.frame.argOff) args),
      bytesAt_store _ _ _ (by omega)]
    intro i hi
    have hin : Within cf e.frame.size.toNat (cf + BitVec.ofNat 64 e.frame.argOff + BitVec.ofNat 64 i) := by
      have := toNat_add_ofNat (cf + BitVec.ofNat 64 e.frame.argOff) i (by omega)
      exact ⟨by omega, by omega⟩
    exact (k2 _ _ _ hin).trans (m2 _ hin)
  refine ⟨w2.turn.mem, hargs, ?_⟩
  have hsend : w2.send (honest fs wild) idx cf =
      ((e.apply cf w2.turn.mem).1,
        { w2.turn with mem := (e.apply cf w2.turn.mem).2, trace := w2.trace ++ [.send idx cf] }) := by
    simp only [World.send, honest, if_neg g0, he]
  rw [hsend]
  have happ : e.apply cf w2.turn.mem = match e.run args w2.turn.mem with
      | (some r, m') => (.back, if e.frame.isVoid then m' else store m' cf r)
      | (none, m') => (.threw, m') := by
    simp only [Export.apply, hargs]
    rfl
  rw [happ]
  rcases hrun : e.run args w2.turn.mem with ⟨_ | r, m'⟩
  · rfl
  · simp only
    by_cases hv : e.frame.isVoid = true
    · simp [finish, hv]
    · have hlen := hr w2.turn.mem r (by rw [hrun])
      simp only [finish, hv]
      have := (reads_bytesAt (F := Within cf e.frame.size.toNat) e.frame.retLen
        { w2.turn with mem := store m' cf r, trace := w2.trace ++ [.send idx cf] } (store m' cf r) cf k2 (fun _ _ => rfl)
        (fun i hi => by
          have := toNat_add_ofNat cf i (by omega)
          exact ⟨by omega, by omega⟩)).1
      have hb := bytesAt_store r m' cf (by omega)
      rw [hlen] at hb
      rw [hb] at this
      simpa using this

/-- `int f(int x) { return x + 1; }` on its first byte, for the examples. -/
def exFn : Export := ⟨exFrame, [102], fun args m => (some ((args.map (· + 1)).take 4), m)⟩

example : [exFn, exFn][1]? = some exFn ∧ exAlloc exFn.frame.size = some 0x10800 ∧
    (∀ m r, (exFn.run [1, 2, 3, 4] m).1 = some r → r.length = exFn.frame.retLen) ∧
    (callOp exAlloc (honest [exFn, exFn] fun _ _ m => (.back, m)) 1 exFrame [1, 2, 3, 4]
      ⟨fun _ => 0, [], fun _ m => m⟩).1 = .returned [2, 3, 4, 5] := by
  refine ⟨rfl, by decide, ?_, by decide +kernel⟩
  intro m r hr
  simp only [exFn, Option.some.injEq] at hr
  subst hr
  rfl

/-- A call that the sandbox answers honestly while nobody else runs: outside the frame the memory is what the function
made of the memory that it was given, and that was the host's memory as it was before the call. -/
theorem call_effect (h : Heap) (alloc : Word → Option Word) (hg : Gives h alloc) (fs : List Export)
    (wild : Sandbox) (idx : Nat) (e : Export) (he : fs[idx]? = some e) (hl : LaidOut e.frame) (args : List Byte)
    (ha : args.length = e.frame.argLen) (w : World) (hq : w.env = fun _ m => m) (cf : Word)
    (hc : alloc e.frame.size = some cf) (hr : ∀ m r, (e.run args m).1 = some r → r.length = e.frame.retLen) :
    ∃ m, (∀ x, ¬ Within cf e.frame.size.toNat x → m x = w.mem x) ∧
      ∀ x, ¬ Within cf e.frame.size.toNat x →
        (callOp alloc (honest fs wild) idx e.frame args w).2.mem x = (e.run args m).2 x := by
  obtain ⟨l1, l2⟩ := hl
  obtain ⟨g0, g1, g2⟩ := hg _ _ hc
  have hok := h.ok
  have hoff : (cf + BitVec.ofNat 64 e.frame.argOff).toNat = cf.toNat + e.frame.argOff := toNat_add_ofNat _ _ (by omega)
  simp only [callOp, alloc_one, hc]
  have quiet : ∀ env : Nat → Mem → Mem, env = (fun _ m => m) → Keeps env fun _ => True := by
    intro env he t m a _; rw [he]
  have e1 := writes_env w cf ((List.range e.frame.size.toNat).map e.frame.init)
  have m1 := writes_store (F := fun _ => True) ((List.range e.frame.size.toNat).map e.frame.init) w w.mem cf
    (quiet _ hq) (fun _ _ => rfl)
  generalize hw1 : w.writes cf ((List.range e.frame.size.toNat).map e.frame.init) = w1 at e1 m1
  have q1 : w1.env = fun _ m => m := by rw [e1]; exact hq
  have e2 := writes_env w1 (cf + BitVec.ofNat 64 e.frame.argOff) args
  have m2 := writes_store (F := fun _ => True) args w1 w1.mem (cf + BitVec.ofNat 64 e.frame.argOff) (quiet _ q1)
    (fun _ _ => rfl)
  generalize hw2 : w1.writes (cf + BitVec.ofNat 64 e.frame.argOff) args = w2 at e2 m2
  have q2 : w2.env = fun _ m => m := by rw [e2]; exact q1
  have ht : w2.turn.mem = w2.mem := by simp only [World.turn, q2]
  have hargs : bytesAt w2.turn.mem (cf + BitVec.ofNat 64 e.frame.argOff) e.frame.argLen = args := by
    rw [ht, ← ha, bytesAt_congr _ _ (store w1.mem (cf + BitVec.ofNat 64 e.frame.argOff) args),
      bytesAt_store _ _ _ (by omega)]
    intro i _
    exact m2 _ trivial
  refine ⟨w2.turn.mem, ?_, ?_⟩
  · intro x hx
    simp only [Within] at hx
    rw [ht, m2 x trivial, store_out _ _ _ _ (by omega) (by simp only [Within]; omega), m1 x trivial,
      store_out _ _ _ _ (by simp; omega) (by simp only [Within, List.length_map, List.length_range]; omega)]
  · intro x hx
    have hsend : w2.send (honest fs wild) idx cf =
        ((e.apply cf w2.turn.mem).1,
          { w2.turn with mem := (e.apply cf w2.turn.mem).2, trace := w2.trace ++ [.send idx cf] }) := by
      simp only [World.send, honest, if_neg g0, he]
    rw [hsend]
    have happ : e.apply cf w2.turn.mem = match e.run args w2.turn.mem with
        | (some r, m') => (.back, if e.frame.isVoid then m' else store m' cf r)
        | (none, m') => (.threw, m') := by
      simp only [Export.apply, hargs]
      rfl
    rw [happ]
    rcases hrun : e.run args w2.turn.mem with ⟨_ | r, m'⟩
    · rfl
    · simp only
      by_cases hv : e.frame.isVoid = true
      · simp only [finish, hv, if_true, World.free, World.turn, q2]
      · have hlen := hr w2.turn.mem r (by rw [hrun])
        simp only [finish, hv, Bool.false_eq_true, if_false]
        generalize hw3 : ({ w2.turn with mem := store m' cf r, trace := w2.trace ++ [.send idx cf] } : World) = w3
        have q3 : w3.env = fun _ m => m := by rw [← hw3]; exact q2
        have := (reads_bytesAt (F := fun _ => True) e.frame.retLen w3 w3.mem cf (quiet _ q3) (fun _ _ => rfl)
          (fun _ _ => trivial)).2 x trivial
        obtain ⟨_, _, r3⟩ := reads_spec w3 cf e.frame.retLen
        have hq4 : (w3.reads cf e.frame.retLen).2.turn.mem = (w3.reads cf e.frame.retLen).2.mem := by
          simp only [World.turn, r3, q3]
        show (w3.reads cf e.frame.retLen).2.turn.mem x = m' x
        rw [hq4, this, ← hw3]
        simp only [Within] at hx
        exact store_out _ _ _ _ (by omega) (by simp only [Within]; omega)

/-- Over any sequence of calls, whatever the sandbox does in each: exactly the frames of the calls that returned have been
freed, each once and in order. -/
theorem calls_free_their_frames (h : Heap)
    (cs : List ((Word → Option Word) × Sandbox × Nat × Frame × List Byte))
    (hcs : ∀ c ∈ cs, Gives h c.1 ∧ LaidOut c.2.2.2.1 ∧ c.2.2.2.2.length = c.2.2.2.1.argLen) (w : World) :
    (callMany w cs).1.length = cs.length ∧
    frees (callMany w cs).2.trace = frees w.trace ++ (cs.zip (callMany w cs).1).filterMap fun
      | (c, .returned _) => c.1 c.2.2.2.1.size
      | _ => none := by
  induction cs generalizing w with
  | nil => simp [callMany]
  | cons c cs ih =>
    obtain ⟨alloc, sb, idx, fr, args⟩ := c
    obtain ⟨hg, hl, ha⟩ := hcs _ List.mem_cons_self
    simp only at hg hl ha
    obtain ⟨i1, i2⟩ := ih (fun c hc => hcs c (List.mem_cons_of_mem _ hc)) (callOp alloc sb idx fr args w).2
    refine ⟨by simp only [callMany, List.length_cons, i1], ?_⟩
    simp only [callMany, List.zip_cons_cons]
    rw [i2]
    have key : frees (callOp alloc sb idx fr args w).2.trace = frees w.trace ++
        ([((alloc, sb, idx, fr, args), (callOp alloc sb idx fr args w).1)].filterMap fun
          | ((c : (Word → Option Word) × Sandbox × Nat × Frame × List Byte), .returned _) => c.1 c.2.2.2.1.size
          | _ => none) := by
      obtain ⟨c1, c2⟩ := call_uses_its_frame h alloc hg sb idx fr hl args ha w
      rcases hc : alloc fr.size with _ | cf
      · rw [c1 hc]; simp
      · obtain ⟨pre, post, t1, t2, t3⟩ := c2 cf hc
        have hpre : frees pre = [] := by
          apply List.filterMap_eq_nil_iff.mpr
          intro e he
          obtain ⟨a, b, rfl, _⟩ := t2 e he
          rfl
        rw [t1]
        rcases t3 with ⟨hres, rfl⟩ | ⟨r, hres, _, rfl, _⟩
        · rw [hres]
          simp [frees] at hpre ⊢
          exact hpre
        · rw [hres]
          have hlo : frees (loads cf r) = [] := by
            apply List.filterMap_eq_nil_iff.mpr
            intro e he
            obtain ⟨i, b, _, rfl⟩ := mem_loads he
            rfl
          simp only [frees] at hpre hlo
          simp only [frees, List.filterMap_append, hpre, hlo]
          simp [hc]
    rw [key, List.append_assoc]
    congr 1
    rw [← List.filterMap_append]
    rfl

example : frees (callMany ⟨fun _ => 0, [], fun _ m => m⟩
    [(exAlloc, honest [exFn] (fun _ _ m => (.back, m)), 0, exFrame, [1, 2, 3, 4]),
     (exAlloc, fun _ _ m => (.threw, m), 0, exFrame, [1, 2, 3, 4])]).2.trace = [0x10800] := by decide +kernel

/-! ### C82: creating a proxy -/

theorem pre_silent {h : Heap} {cf : Word} {n : Nat} {pre : List Ev}
    (hp : ∀ e ∈ pre, ∃ a b, e = Ev.write a b ∧ Within cf n a ∧ h.Has a) :
    frees pre = [] ∧ sent pre = [] ∧ ∀ a ∈ touched pre, h.Has a := by
  refine ⟨List.filterMap_eq_nil_iff.mpr ?_, List.filterMap_eq_nil_iff.mpr ?_, ?_⟩
  · intro e he
    obtain ⟨a, b, rfl, _⟩ := hp e he
    rfl
  · intro e he
    obtain ⟨a, b, rfl, _⟩ := hp e he
    rfl
  · intro a ha
    simp only [touched, List.mem_filterMap] at ha
    obtain ⟨e, he, ha⟩ := ha
    obtain ⟨a', b, rfl, _, hh⟩ := hp e he
    cases ha
    exact hh

theorem reads_silent {p : Word} {n : Nat} {rd : List Ev}
    (hp : ∀ e ∈ rd, ∃ i b, i ≤ n ∧ e = Ev.read (p + BitVec.ofNat 64 i) b) :
    frees rd = [] ∧ sent rd = [] ∧ ∀ a ∈ touched rd, ∃ i, i ≤ n ∧ a = p + BitVec.ofNat 64 i := by
  refine ⟨List.filterMap_eq_nil_iff.mpr ?_, List.filterMap_eq_nil_iff.mpr ?_, ?_⟩
  · intro e he
    obtain ⟨a, b, _, rfl⟩ := hp e he
    rfl
  · intro e he
    obtain ⟨a, b, _, rfl⟩ := hp e he
    rfl
  · intro a ha
    simp only [touched, List.mem_filterMap] at ha
    obtain ⟨e, he, ha⟩ := ha
    obtain ⟨i, b, hi, rfl⟩ := hp e he
    cases ha
    exact ⟨i, hi, rfl⟩

/-- What is known of the check of a debug build when the sandbox is honest and nobody else runs.  Missing: the full claim
is about any sandbox, and `hostile_check_leaves_sandbox` shows that it is false then.

A release build does nothing at all.  A debug build throws if there is no room for the frame.  Otherwise it sends one
message, for slot 0, and creates the proxy exactly if the sandbox exported a function of that type in that slot; all the
memory it touches is in the sandbox, and it frees the frame, and the string if the types agree, each once. -/
theorem honest_check_partial (h : Heap) (alloc : Word → Option Word) (hg : Gives h alloc) (tys : List (List Byte))
    (hz : ∀ t ∈ "PFPciE".toUTF8.toList :: tys, (0 : Byte) ∉ t) (place : Nat → Option Word)
    (hp : ∀ n p, place n = some p → p ≠ 0 ∧ h.lo ≤ p.toNat ∧ p.toNat + n ≤ h.hi)
    (rest : List Export) (wild : Sandbox) (slot : Nat) (hs : slot < 2 ^ 31) (name : List Byte) (hn : (0 : Byte) ∉ name)
    (hd : ∀ cf n p, alloc typeFrame.size = some cf → place n = some p →
      cf.toNat + 16 ≤ p.toNat ∨ p.toNat + n ≤ cf.toNat)
    (w : World) (hq : w.env = fun _ m => m) (ht : w.trace = []) (out : Created × World)
    (hout : construct true alloc (honest (typeEncoding tys place :: rest) wild) slot name w = out) :
    construct false alloc (honest (typeEncoding tys place :: rest) wild) slot name w = (.ok, w) ∧
    (alloc typeFrame.size = none → out = (.threw, w)) ∧
    ∀ cf, alloc typeFrame.size = some cf →
      (∀ a ∈ touched out.2.trace, h.Has a) ∧ sent out.2.trace = [(0, cf)] ∧
      match ("PFPciE".toUTF8.toList :: tys)[slot]? with
      | none => out.1 = .threw ∧ frees out.2.trace = []
      | some t =>
        match place (t.length + 1) with
        | none => out.1 = .exited ∧ frees out.2.trace = [cf]
        | some p =>
          out.1 = (if t = name then .ok else .exited) ∧
          frees out.2.trace = (if t = name then [cf, p] else [cf]) := by
  have hl : LaidOut typeFrame := ⟨by decide, by decide⟩
  have ha : (leBytes 4 slot).length = typeFrame.argLen := leBytes_length 4 slot
  have hv : leVal (leBytes 4 slot) = slot := leVal_leBytes 4 slot (by omega)
  generalize hfs : (typeEncoding tys place :: rest) = fs at hout ⊢
  obtain ⟨c1, c2⟩ := call_uses_its_frame h alloc hg (honest fs wild) 0 typeFrame hl (leBytes 4 slot) ha w
  refine ⟨rfl, ?_, ?_⟩
  · intro hnone
    rw [← hout]
    simp only [construct, if_true, c1 hnone]
  intro cf hc
  obtain ⟨_, g1, g2⟩ := hg _ _ hc
  have hok := h.ok
  have he : fs[0]? = some (typeEncoding tys place) := by rw [← hfs]; rfl
  have hrun : ∀ m, (typeEncoding tys place).run (leBytes 4 slot) m =
      match ("PFPciE".toUTF8.toList :: tys)[slot]? with
      | none => (none, m)
      | some t =>
        match place (t.length + 1) with
        | none => (some (leBytes 8 0), m)
        | some p => (some (leBytes 8 p.toNat), store m p (t ++ [0])) := by
    intro m
    simp only [typeEncoding, hv]
    rfl
  have hr : ∀ m r, ((typeEncoding tys place).run (leBytes 4 slot) m).1 = some r →
      r.length = (typeEncoding tys place).frame.retLen := by
    intro m r hr
    rw [hrun] at hr
    split at hr
    · cases hr
    · split at hr
      · cases hr; exact leBytes_length 8 0
      · cases hr; exact leBytes_length 8 _
  obtain ⟨m1, _, hres⟩ := call_returns_the_result h alloc hg fs wild 0 (typeEncoding tys place) he hl (leBytes 4 slot) ha w cf
    hc (by rw [hq]; intro _ _ _ _; rfl) hr
  obtain ⟨m2, _, heff⟩ := call_effect h alloc hg fs wild 0 (typeEncoding tys place) he hl (leBytes 4 slot) ha w hq cf hc hr
  obtain ⟨pre, post, htr, hpre, hpost⟩ := c2 cf hc
  have henv := callOp_env alloc (honest fs wild) 0 typeFrame (leBytes 4 slot) w
  obtain ⟨p1, p2, p3⟩ := pre_silent hpre
  have hfr : (typeEncoding tys place).frame = typeFrame := rfl
  rw [hfr] at hres heff
  rw [hrun] at hres
  simp only [hrun] at heff
  rcases hcall : callOp alloc (honest fs wild) 0 typeFrame (leBytes 4 slot) w with ⟨res, w1⟩
  rw [hcall] at hres heff hpost htr henv
  simp only [construct, if_true, hcall] at hout
  simp only [ht, List.nil_append] at hres heff hpost htr henv
  rcases hty : ("PFPciE".toUTF8.toList :: tys)[slot]? with _ | t
  · -- the type function throws
    simp only [hty] at hres
    subst hres
    simp only at hout
    subst hout
    rcases hpost with ⟨_, rfl⟩ | ⟨r, hr', _⟩
    · simp only [htr, List.append_nil]
      refine ⟨?_, ?_, trivial, ?_⟩
      · intro a ha
        simp only [touched, List.filterMap_append, List.mem_append] at ha
        rcases ha with ha | ha
        · exact p3 a ha
        · cases ha
      · simp only [sent, List.filterMap_append] at p2 ⊢
        rw [p2]; rfl
      · simp only [frees, List.filterMap_append] at p1 ⊢
        rw [p1]; rfl
    · cases hr'
  simp only [hty] at hres heff
  have hpost' : ∀ bytes, res = .returned bytes → bytes.length = 8 → post = loads cf bytes ++ [.free cf] ∧
      (∀ e ∈ loads cf bytes, ∃ i b, i ≤ 7 ∧ e = Ev.read (cf + BitVec.ofNat 64 i) b) := by
    intro bytes hb hl8
    rcases hpost with ⟨hx, _⟩ | ⟨r, hr', _, hp', _⟩
    · rw [hb] at hx; cases hx
    · rw [hb] at hr'
      cases hr'
      refine ⟨hp', ?_⟩
      intro e he
      obtain ⟨i, b, hi, rfl⟩ := mem_loads he
      exact ⟨i, b, by omega, rfl⟩
  have hframe : ∀ i, i ≤ 7 → h.Has (cf + BitVec.ofNat 64 i) := by
    intro i hi
    have hsz : (typeFrame.size).toNat = 16 := by decide
    have := toNat_add_ofNat cf i (by omega)
    exact ⟨by omega, by omega⟩
  simp only
  rcases hpl : place (t.length + 1) with _ | p
  · -- no room for the string
    simp only [hpl] at hres
    have hres' : res = .returned (leBytes 8 0) := hres
    obtain ⟨q1, q2⟩ := hpost' _ hres' (leBytes_length 8 0)
    obtain ⟨s1, s2, s3⟩ := reads_silent q2
    subst hres'
    simp only [leVal_leBytes 8 0 (by decide)] at hout
    have hout' : out = (.exited, w1) := by rw [← hout]; rfl
    subst hout'
    simp only [htr, q1]
    refine ⟨?_, ?_, trivial, ?_⟩
    · intro a ha
      simp only [touched, List.filterMap_append, List.mem_append] at ha
      rcases ha with (ha | ha) | (ha | ha)
      · exact p3 a ha
      · cases ha
      · obtain ⟨i, hi, rfl⟩ := s3 a ha
        exact hframe i hi
      · cases ha
    · simp only [sent, List.filterMap_append] at p2 s2 ⊢
      rw [p2, s2]; rfl
    · simp only [frees, List.filterMap_append] at p1 s1 ⊢
      rw [p1, s1]; rfl
  · simp only [hpl] at hres heff
    have hres' : res = .returned (leBytes 8 p.toNat) := hres
    obtain ⟨q1, q2⟩ := hpost' _ hres' (leBytes_length 8 _)
    obtain ⟨s1, s2, s3⟩ := reads_silent q2
    obtain ⟨hp0, hp1, hp2⟩ := hp _ _ hpl
    have hdis := hd cf _ p hc hpl
    subst hres'
    have hexp : BitVec.ofNat 64 (leVal (leBytes 8 p.toNat)) = p := by
      rw [leVal_leBytes 8 _ p.isLt, BitVec.ofNat_toNat, BitVec.setWidth_eq]
    simp only [hexp, if_neg hp0] at hout
    have hb : bytesAt w1.mem p (t.length + 1) = t ++ [0] := by
      have hlen : (t ++ [(0 : Byte)]).length = t.length + 1 := by simp
      rw [← hlen, bytesAt_congr _ w1.mem (store m2 p (t ++ [0])), bytesAt_store _ _ _ (by rw [hlen]; omega)]
      intro i hi
      rw [hlen] at hi
      apply heff
      have hsz : (typeFrame.size).toNat = 16 := by decide
      have := toNat_add_ofNat p i (by omega)
      simp only [Within]
      omega
    have htz : (0 : Byte) ∉ t := hz t (List.mem_of_getElem? hty)
    obtain ⟨k1, rd, k2, k3⟩ := strcmpEq_spec name hn t p w1 htz (henv.trans hq) hb
    obtain ⟨d1, d2, d3⟩ := reads_silent k3
    have hstr : ∀ i, i ≤ t.length → h.Has (p + BitVec.ofNat 64 i) := by
      intro i hi
      have := toNat_add_ofNat p i (by omega)
      exact ⟨by omega, by omega⟩
    rcases hcmp : strcmpEq w1 p name with ⟨b, w2⟩
    rw [hcmp] at k1 k2 hout
    simp only at k1 k2
    have touchedRd : ∀ a ∈ touched w2.trace, h.Has a := by
      intro a ha
      simp only [k2, htr, q1, touched, List.filterMap_append, List.mem_append] at ha
      rcases ha with ((ha | ha) | (ha | ha)) | ha
      · exact p3 a ha
      · cases ha
      · obtain ⟨i, hi, rfl⟩ := s3 a ha
        exact hframe i hi
      · cases ha
      · obtain ⟨i, hi, rfl⟩ := d3 a ha
        exact hstr i hi
    have sentRd : sent w2.trace = [(0, cf)] := by
      simp only [sent] at p2 s2 d2
      simp only [k2, htr, q1, sent, List.filterMap_append, p2, s2, d2]
      rfl
    have freesRd : frees w2.trace = [cf] := by
      simp only [frees] at p1 s1 d1
      simp only [k2, htr, q1, frees, List.filterMap_append, p1, s1, d1]
      rfl
    by_cases htn : t = name
    · rw [decide_eq_true htn] at k1
      subst k1
      simp only at hout
      subst hout
      simp only [if_pos htn, World.free]
      refine ⟨?_, ?_, trivial, ?_⟩
      · intro a ha
        simp only [touched, List.filterMap_append, List.mem_append] at ha
        rcases ha with ha | ha
        · exact touchedRd a ha
        · cases ha
      · simp only [sent, List.filterMap_append] at sentRd ⊢
        rw [sentRd]; rfl
      · simp only [frees, List.filterMap_append] at freesRd ⊢
        rw [freesRd]; rfl
    · rw [decide_eq_false htn] at k1
      subst k1
      simp only at hout
      subst hout
      simp only [if_neg htn]
      exact ⟨touchedRd, sentRd, trivial, freesRd⟩

/-- A table with one function of type `FiiE`. -/
def exTys : List (List Byte) := ["PFiiE".toUTF8.toList]
/-- Room for strings behind the frames. -/
def exPlace : Nat → Option Word := fun n => if n ≤ 64 then some 0x10900 else none

theorem exPlace_gives : ∀ n p, exPlace n = some p → p ≠ 0 ∧ exHeap.lo ≤ p.toNat ∧ p.toNat + n ≤ exHeap.hi := by
  intro n p hp
  simp only [exPlace] at hp
  split at hp
  · cases hp
    refine ⟨by decide, by decide, ?_⟩
    show 0x10900 + n ≤ 0x20000
    omega
  · cases hp

example : Gives exHeap exAlloc ∧ (∀ t ∈ "PFPciE".toUTF8.toList :: exTys, (0 : Byte) ∉ t) ∧
    (∀ cf n p, exAlloc typeFrame.size = some cf → exPlace n = some p →
      cf.toNat + 16 ≤ p.toNat ∨ p.toNat + n ≤ cf.toNat) ∧
    (construct true exAlloc (honest [typeEncoding exTys exPlace, exFn] fun _ _ m => (.back, m)) 1 "PFiiE".toUTF8.toList
      ⟨fun _ => 0, [], fun _ m => m⟩).1 = .ok ∧
    (construct true exAlloc (honest [typeEncoding exTys exPlace, exFn] fun _ _ m => (.back, m)) 1 "PFvvE".toUTF8.toList
      ⟨fun _ => 0, [], fun _ m => m⟩).1 = .exited := by
  refine ⟨exAlloc_gives, by decide +kernel, ?_, by decide +kernel, by decide +kernel⟩
  intro cf n p h1 h2
  have : exAlloc typeFrame.size = some 0x10800 := by decide
  rw [this] at h1
  cases h1
  simp only [exPlace] at h2
  split at h2
  · cases h2
    left
    decide
  · cases h2

/-- A sandbox that answers a message about the frame `cf` with the pointer `a`, and changes nothing else. -/
def answers (cf a : Word) : Sandbox := fun _ p m => if p = cf then (.back, store m cf (leBytes 8 a.toNat)) else (.back, m)

theorem answers_inside (h : Heap) (cf a : Word) (h1 : h.lo ≤ cf.toNat) (h2 : cf.toNat + 16 ≤ h.hi) (i : Nat) (p : Word) :
    Inside h fun m => (answers cf a i p m).2 := by
  intro m x hx
  have hok := h.ok
  simp only [answers]
  split
  · simp only
    apply store_out _ _ _ _ (by rw [leBytes_length]; omega)
    rw [leBytes_length]
    intro hw
    exact hx ⟨by have := hw.1; omega, by have := hw.2; omega⟩
  · rfl

theorem answers_call (h : Heap) (alloc : Word → Option Word) (hg : Gives h alloc) (cf : Word)
    (hc : alloc typeFrame.size = some cf) (slot : Nat) (a : Word) (w : World) (hq : w.env = fun _ m => m) :
    (callOp alloc (answers cf a) 0 typeFrame (leBytes 4 slot) w).1 = .returned (leBytes 8 a.toNat) := by
  obtain ⟨g0, _, _⟩ := hg _ _ hc
  have hl : LaidOut typeFrame := ⟨by decide, by decide⟩
  let e : Export := ⟨typeFrame, [], fun _ m => (some (leBytes 8 a.toNat), m)⟩
  rw [callOp_congr alloc (answers cf a) (honest [e] fun _ _ m => (.back, m)) 0 typeFrame (leBytes 4 slot) w cf hc]
  · obtain ⟨m, _, hres⟩ := call_returns_the_result h alloc hg [e] (fun _ _ m => (.back, m)) 0 e rfl hl
      (leBytes 4 slot) (leBytes_length 4 slot) w cf hc (by rw [hq]; intro _ _ _ _; rfl)
      (by intro m r hr; cases hr; exact leBytes_length 8 _)
    exact hres
  · intro m
    simp only [answers, if_true, honest, if_neg g0]
    rfl

/-- The full claim of C82 is false for a debug build.  Wherever in the host's own memory the name of the type stands (it
stands at least where `typeid(fn).name()` points to), a sandbox that changes nothing but its own memory and answers with
that address makes the host load from there, take it for agreement, and free that address.  And a sandbox that answers
with a null pointer ends the host's process. -/
theorem hostile_check_leaves_sandbox (h : Heap) (alloc : Word → Option Word) (hg : Gives h alloc) (cf : Word)
    (hc : alloc typeFrame.size = some cf) (slot : Nat) (name : List Byte) (hn : (0 : Byte) ∉ name) (a : Word)
    (ha0 : a ≠ 0) (hout : a.toNat + name.length < h.lo ∨ h.hi ≤ a.toNat) (hwrap : a.toNat + name.length < 2 ^ 64)
    (w : World) (hq : w.env = fun _ m => m) (hb : bytesAt w.mem a (name.length + 1) = name ++ [0]) :
    (∃ sb : Sandbox, (∀ i p, Inside h fun m => (sb i p m).2) ∧ ¬ h.Has a ∧
      (construct true alloc sb slot name w).1 = .ok ∧
      a ∈ frees (construct true alloc sb slot name w).2.trace ∧
      a ∈ touched (construct true alloc sb slot name w).2.trace) ∧
    ∃ sb : Sandbox, (∀ i p, Inside h fun m => (sb i p m).2) ∧
      (construct true alloc sb slot name w).1 = .exited := by
  obtain ⟨g0, g1, g2⟩ := hg _ _ hc
  have hsz : (typeFrame.size).toNat = 16 := by decide
  rw [hsz] at g2
  refine ⟨⟨answers cf a, answers_inside h cf a g1 g2, ?_, ?_⟩, answers cf 0, answers_inside h cf 0 g1 g2, ?_⟩
  · intro hh; simp only [Heap.Has] at hh; omega
  · have hres := answers_call h alloc hg cf hc slot a w hq
    have hmem := call_keeps_host_memory h alloc hg (answers cf a) 0 (answers_inside h cf a g1 g2 0) typeFrame
      ⟨by decide, by decide⟩ (leBytes 4 slot) (leBytes_length 4 slot) w (by rw [hq]; intro _ _ _ _; rfl)
    have henv := callOp_env alloc (answers cf a) 0 typeFrame (leBytes 4 slot) w
    rcases hcall : callOp alloc (answers cf a) 0 typeFrame (leBytes 4 slot) w with ⟨res, w1⟩
    rw [hcall] at hres hmem henv
    simp only at hres hmem henv
    subst hres
    have hexp : BitVec.ofNat 64 (leVal (leBytes 8 a.toNat)) = a := by
      rw [leVal_leBytes 8 _ a.isLt, BitVec.ofNat_toNat, BitVec.setWidth_eq]
    have hb1 : bytesAt w1.mem a (name.length + 1) = name ++ [0] := by
      rw [← hb]
      apply bytesAt_congr
      intro i hi
      apply hmem
      have := toNat_add_ofNat a i (by omega)
      simp only [Heap.Has]
      omega
    obtain ⟨k1, _⟩ := strcmpEq_spec name hn name a w1 hn (henv.trans hq) hb1
    obtain ⟨b, hfirst⟩ := strcmpEq_first name a w1
    rcases hcmp : strcmpEq w1 a name with ⟨ok, w2⟩
    rw [hcmp] at k1 hfirst
    simp only [decide_true] at k1 hfirst
    subst k1
    have hcon : construct true alloc (answers cf a) slot name w = (.ok, w2.free a) := by
      simp only [construct, if_true, hcall, hexp, if_neg ha0, hcmp]
    rw [hcon]
    refine ⟨rfl, ?_, ?_⟩
    · simp [World.free, frees]
    · simp only [World.free, touched, List.mem_filterMap, List.mem_append]
      exact ⟨_, Or.inl hfirst, rfl⟩
  · have hres := answers_call h alloc hg cf hc slot 0 w hq
    rcases hcall : callOp alloc (answers cf 0) 0 typeFrame (leBytes 4 slot) w with ⟨res, w1⟩
    rw [hcall] at hres
    simp only at hres
    subst hres
    have hexp : BitVec.ofNat 64 (leVal (leBytes 8 (0 : Word).toNat)) = 0 := by decide
    simp only [construct, if_true, hcall, hexp]

example : Gives exHeap exAlloc ∧ exAlloc typeFrame.size = some 0x10800 ∧ (0 : Byte) ∉ [102] ∧ (0x7000 : Word) ≠ 0 ∧
    (0x7000 : Word).toNat + [(102 : Byte)].length < exHeap.lo ∧
    bytesAt (fun x => if x = 0x7000 then 102 else 0) 0x7000 ([(102 : Byte)].length + 1) = [102] ++ [0] :=
  ⟨exAlloc_gives, by decide, by decide, by decide, by decide, by decide⟩

end Verif.Call
