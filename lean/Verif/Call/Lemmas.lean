import Verif.Call.Spec
import Verif.AddrInfo.Lemmas

/-!
# Calling a sandboxed function (lemmas)
-/

namespace Verif.Call

open Spec
open Verif.Bounds (allocInSandbox)
open Verif.AddrInfo (leBytes leBytes_length)

theorem add_ofNat_succ (a : Word) (i : Nat) : a + 1 + BitVec.ofNat 64 i = a + BitVec.ofNat 64 (i + 1) := by
  rw [BitVec.ofNat_add, BitVec.add_assoc, BitVec.add_comm (1 : Word)]; rfl

theorem toNat_add_ofNat (a : Word) (i : Nat) (h : a.toNat + i < 2 ^ 64) :
    (a + BitVec.ofNat 64 i).toNat = a.toNat + i := by
  rw [BitVec.toNat_add, BitVec.toNat_ofNat, Nat.mod_eq_of_lt (a := i) (by omega), Nat.mod_eq_of_lt h]

theorem alloc_one (alloc : Word → Option Word) (sz : Word) : (allocInSandbox alloc sz 1).1 = alloc sz := by
  have h : ¬ (2 ^ 64 ≤ sz.toNat * (1 : Word).toNat) := by
    have := sz.isLt
    show ¬ (2 ^ 64 ≤ sz.toNat * 1)
    omega
  have e : (sz * 1 : Word) = sz := BitVec.mul_one sz
  simp only [allocInSandbox, Bounds.umul, decide_eq_true_eq]
  rw [if_neg h, e]

/-! ### Stores -/

/-- The events of `World.writes`. -/
def stores (a : Word) (bs : List Byte) : List Ev := bs.zipIdx.map fun (b, i) => .write (a + BitVec.ofNat 64 i) b

theorem zipIdx_succ (bs : List Byte) (k : Nat) :
    bs.zipIdx (k + 1) = (bs.zipIdx k).map fun (b, i) => (b, i + 1) := by
  induction bs generalizing k with
  | nil => rfl
  | cons b bs ih => simp [List.zipIdx_cons, ih]

theorem stores_cons (a : Word) (b : Byte) (bs : List Byte) : stores a (b :: bs) = .write a b :: stores (a + 1) bs := by
  simp only [stores, List.zipIdx_cons, List.map_cons, zipIdx_succ, List.map_map]
  congr 1
  · simp
  · apply List.map_congr_left
    intro x _
    simp only [Function.comp]
    rw [add_ofNat_succ]

theorem loads_cons (a : Word) (b : Byte) (bs : List Byte) : loads a (b :: bs) = .read a b :: loads (a + 1) bs := by
  simp only [loads, List.zipIdx_cons, List.map_cons, zipIdx_succ, List.map_map]
  congr 1
  · simp
  · apply List.map_congr_left
    intro x _
    simp only [Function.comp]
    rw [add_ofNat_succ]

theorem writes_trace (w : World) (a : Word) (bs : List Byte) : (w.writes a bs).trace = w.trace ++ stores a bs := by
  induction bs generalizing w a with
  | nil => simp [World.writes, stores]
  | cons b bs ih =>
    rw [World.writes, ih, stores_cons]
    simp [World.write]

theorem writes_env (w : World) (a : Word) (bs : List Byte) : (w.writes a bs).env = w.env := by
  induction bs generalizing w a with
  | nil => rfl
  | cons b bs ih => rw [World.writes, ih]; rfl

theorem mem_stores {a : Word} {bs : List Byte} {e : Ev} (h : e ∈ stores a bs) :
    ∃ i b, i < bs.length ∧ e = .write (a + BitVec.ofNat 64 i) b := by
  simp only [stores, List.mem_map] at h
  obtain ⟨⟨b, i⟩, hm, he⟩ := h
  have := List.mem_zipIdx hm
  exact ⟨i, b, by omega, he.symm⟩

theorem mem_loads {a : Word} {bs : List Byte} {e : Ev} (h : e ∈ loads a bs) :
    ∃ i b, i < bs.length ∧ e = .read (a + BitVec.ofNat 64 i) b := by
  simp only [loads, List.mem_map] at h
  obtain ⟨⟨b, i⟩, hm, he⟩ := h
  have := List.mem_zipIdx hm
  exact ⟨i, b, by omega, he.symm⟩

/-! ### Loads -/

theorem reads_spec (w : World) (a : Word) (n : Nat) :
    (w.reads a n).1.length = n ∧ (w.reads a n).2.trace = w.trace ++ loads a (w.reads a n).1 ∧
      (w.reads a n).2.env = w.env := by
  induction n generalizing w a with
  | zero => simp [World.reads, loads]
  | succ n ih =>
    obtain ⟨h1, h2, h3⟩ := ih (w.read a).2 (a + 1)
    simp only [World.reads]
    refine ⟨by rw [List.length_cons, h1], ?_, ?_⟩
    · rw [h2, loads_cons]
      simp [World.read]
    · rw [h3]; rfl

/-! ### Memory outside the sandbox -/

/-- Both memories agree outside the sandbox. -/
def Same (h : Heap) (m m' : Mem) : Prop := ∀ a, ¬ h.Has a → m' a = m a

theorem Same.refl (h : Heap) (m : Mem) : Same h m m := fun _ _ => rfl

theorem Same.trans {h : Heap} {m m' m'' : Mem} (a : Same h m m') (b : Same h m' m'') : Same h m m'' :=
  fun x hx => (b x hx).trans (a x hx)

theorem turn_same {h : Heap} {w : World} (he : ∀ t, Inside h (w.env t)) : Same h w.mem w.turn.mem :=
  fun a ha => he _ _ a ha

theorem writes_same {h : Heap} (bs : List Byte) : ∀ (w : World) (a : Word), (∀ t, Inside h (w.env t)) →
    h.lo ≤ a.toNat → a.toNat + bs.length ≤ h.hi → Same h w.mem (w.writes a bs).mem := by
  induction bs with
  | nil => intro w a _ _ _; exact Same.refl _ _
  | cons b bs ih =>
    intro w a he h1 h2
    have hok := h.ok
    simp only [List.length_cons] at h2
    have ha1 : (a + 1).toNat = a.toNat + 1 := toNat_add_ofNat a 1 (by omega)
    refine Same.trans (m' := (w.write a b).mem) ?_ (ih (w.write a b) (a + 1) he (by omega) (by omega))
    refine Same.trans (turn_same he) ?_
    intro x hx
    show (if x = a then b else w.turn.mem x) = w.turn.mem x
    rw [if_neg]
    rintro rfl
    exact hx ⟨h1, by omega⟩

theorem reads_same {h : Heap} (n : Nat) : ∀ (w : World) (a : Word), (∀ t, Inside h (w.env t)) →
    Same h w.mem (w.reads a n).2.mem := by
  induction n with
  | zero => intro w a _; exact Same.refl _ _
  | succ n ih =>
    intro w a he
    exact Same.trans (m' := (w.read a).2.mem) (turn_same he) (ih (w.read a).2 (a + 1) he)

/-! ### Memory that nobody else touches -/

/-- The others leave the addresses in `F` alone. -/
def Keeps (env : Nat → Mem → Mem) (F : Word → Prop) : Prop := ∀ t m a, F a → env t m a = m a

theorem writes_store {F : Word → Prop} (bs : List Byte) : ∀ (w : World) (m : Mem) (a : Word), Keeps w.env F →
    (∀ x, F x → w.mem x = m x) → ∀ x, F x → (w.writes a bs).mem x = store m a bs x := by
  induction bs with
  | nil => intro w m a _ h x hx; exact h x hx
  | cons b bs ih =>
    intro w m a hk h x hx
    refine ih (w.write a b) _ (a + 1) hk ?_ x hx
    intro y hy
    show (if y = a then b else w.turn.mem y) = if y = a then b else m y
    by_cases hya : y = a
    · rw [if_pos hya, if_pos hya]
    · rw [if_neg hya, if_neg hya]
      exact (hk _ _ y hy).trans (h y hy)

theorem reads_bytesAt {F : Word → Prop} (n : Nat) : ∀ (w : World) (m : Mem) (a : Word), Keeps w.env F →
    (∀ x, F x → w.mem x = m x) → (∀ i, i < n → F (a + BitVec.ofNat 64 i)) →
    (w.reads a n).1 = bytesAt m a n ∧ ∀ x, F x → (w.reads a n).2.mem x = m x := by
  induction n with
  | zero => intro w m a _ h _; exact ⟨rfl, h⟩
  | succ n ih =>
    intro w m a hk h hF
    have ht : ∀ x, F x → w.turn.mem x = m x := fun x hx => (hk _ _ x hx).trans (h x hx)
    have := ih (w.read a).2 m (a + 1) hk ht (fun i hi => by rw [add_ofNat_succ]; exact hF _ (by omega))
    refine ⟨?_, this.2⟩
    show (w.read a).1 :: ((w.read a).2.reads (a + 1) n).1 = m a :: bytesAt m (a + 1) n
    rw [this.1]
    congr 1
    have h0 := hF 0 (by omega)
    have e0 : a + BitVec.ofNat 64 0 = a := by simp
    rw [e0] at h0
    exact ht a h0

theorem store_out (bs : List Byte) : ∀ (m : Mem) (a x : Word), a.toNat + bs.length < 2 ^ 64 →
    ¬ Within a bs.length x → store m a bs x = m x := by
  induction bs with
  | nil => intro m a x _ _; rfl
  | cons b bs ih =>
    intro m a x h hx
    simp only [List.length_cons] at h
    simp only [Within, List.length_cons] at hx
    have ha1 : (a + 1).toNat = a.toNat + 1 := toNat_add_ofNat a 1 (by omega)
    rw [store, ih _ (a + 1) x (by omega) (by simp only [Within]; omega), if_neg]
    rintro rfl
    omega

theorem bytesAt_congr (n : Nat) : ∀ (m m' : Mem) (a : Word),
    (∀ i, i < n → m (a + BitVec.ofNat 64 i) = m' (a + BitVec.ofNat 64 i)) → bytesAt m a n = bytesAt m' a n := by
  induction n with
  | zero => intro _ _ _ _; rfl
  | succ n ih =>
    intro m m' a h
    rw [bytesAt, bytesAt, ih m m' (a + 1) (fun i hi => by rw [add_ofNat_succ]; exact h _ (by omega))]
    have h0 := h 0 (by omega)
    have e0 : a + BitVec.ofNat 64 0 = a := by simp
    rw [e0] at h0
    rw [h0]

theorem bytesAt_store (bs : List Byte) : ∀ (m : Mem) (a : Word), a.toNat + bs.length < 2 ^ 64 →
    bytesAt (store m a bs) a bs.length = bs := by
  induction bs with
  | nil => intro _ _ _; rfl
  | cons b bs ih =>
    intro m a h
    simp only [List.length_cons] at h ⊢
    have ha1 : (a + 1).toNat = a.toNat + 1 := toNat_add_ofNat a 1 (by omega)
    rw [bytesAt, store, ih _ (a + 1) (by omega), store_out bs _ (a + 1) a (by omega) (by simp only [Within]; omega),
      if_pos rfl]

theorem bytesAt_out (n : Nat) (bs : List Byte) (m : Mem) (a p : Word) (ha : a.toNat + n < 2 ^ 64)
    (hp : p.toNat + bs.length < 2 ^ 64) (hd : a.toNat + n ≤ p.toNat ∨ p.toNat + bs.length ≤ a.toNat) :
    bytesAt (store m p bs) a n = bytesAt m a n := by
  apply bytesAt_congr
  intro i hi
  apply store_out _ _ _ _ hp
  simp only [Within]
  rw [toNat_add_ofNat a i (by omega)]
  omega

theorem leVal_leBytes (n v : Nat) (h : v < 256 ^ n) : leVal (leBytes n v) = v := by
  induction n generalizing v with
  | zero => simp [leBytes, leVal] at *; omega
  | succ n ih =>
    simp only [leBytes, leVal]
    rw [ih (v / 256) (by rw [Nat.div_lt_iff_lt_mul (by omega)]; rw [Nat.pow_succ] at h; omega)]
    have : (UInt8.ofNat (v % 256)).toNat = v % 256 := by simp
    rw [this]
    omega

theorem callOp_env (alloc : Word → Option Word) (sb : Sandbox) (idx : Nat) (fr : Frame) (args : List Byte) (w : World) :
    (callOp alloc sb idx fr args w).2.env = w.env := by
  simp only [callOp, alloc_one]
  rcases alloc fr.size with _ | cf
  · rfl
  simp only
  have key : ∀ w2 : World, w2.env = w.env → (match w2.send sb idx cf with
      | (.threw, w3) => (.sendThrew, w3)
      | (.back, w3) => finish fr cf w3 : Result × World).2.env = w.env := by
    intro w2 e2
    have e3 : (w2.send sb idx cf).2.env = w2.env := rfl
    rcases hs : w2.send sb idx cf with ⟨s, w3⟩
    rw [hs] at e3
    simp only at e3
    cases s with
    | threw => exact e3.trans e2
    | back =>
      simp only [finish]
      split
      · exact e3.trans e2
      · exact ((reads_spec w3 cf fr.retLen).2.2.trans e3).trans e2
  exact key _ (by simp only [writes_env])

/-- Comparing with a string in memory that nobody changes: the answer is right, and no byte after the end of that string is
loaded. -/
theorem strcmpEq_spec (name : List Byte) (hn : (0 : Byte) ∉ name) : ∀ (t : List Byte) (a : Word) (w : World),
    (0 : Byte) ∉ t → (w.env = fun _ m => m) → bytesAt w.mem a (t.length + 1) = t ++ [0] →
    (strcmpEq w a name).1 = decide (t = name) ∧
    ∃ rd, (strcmpEq w a name).2.trace = w.trace ++ rd ∧
      ∀ e ∈ rd, ∃ i b, i ≤ t.length ∧ e = Ev.read (a + BitVec.ofNat 64 i) b := by
  induction name with
  | nil =>
    intro t a w ht hq hb
    have hm : (w.read a).1 = w.mem a := by simp only [World.read, World.turn, hq]
    refine ⟨?_, [.read a (w.turn.mem a)], rfl, ?_⟩
    · simp only [strcmpEq, hm]
      cases t with
      | nil =>
        simp only [List.length_nil, bytesAt, List.nil_append, List.cons.injEq, and_true] at hb
        simp [hb]
      | cons c t =>
        simp only [List.length_cons, bytesAt, List.cons_append, List.cons.injEq] at hb
        have : c ≠ 0 := fun h => ht (h ▸ List.mem_cons_self)
        simp [hb.1, this]
    · intro e he
      simp only [List.mem_singleton] at he
      exact ⟨0, w.turn.mem a, by omega, by rw [he]; simp⟩
  | cons c cs ih =>
    intro t a w ht hq hb
    have hm : (w.read a).1 = w.mem a := by simp only [World.read, World.turn, hq]
    have hc0 : c ≠ 0 := fun h => hn (h ▸ List.mem_cons_self)
    have hcs : (0 : Byte) ∉ cs := fun h => hn (List.mem_cons_of_mem _ h)
    have e0 : a + BitVec.ofNat 64 0 = a := by simp
    cases t with
    | nil =>
      simp only [List.length_nil, bytesAt, List.nil_append, List.cons.injEq, and_true] at hb
      have hne : ¬ (w.read a).1 = c := by rw [hm, hb]; exact fun h => hc0 h.symm
      rw [strcmpEq, if_neg hne]
      refine ⟨by simp, [.read a (w.turn.mem a)], rfl, ?_⟩
      intro e he
      simp only [List.mem_singleton] at he
      exact ⟨0, _, by simp, by rw [he, e0]⟩
    | cons d t =>
      simp only [List.length_cons, bytesAt, List.cons_append, List.cons.injEq] at hb
      by_cases hdc : d = c
      · have heq : (w.read a).1 = c := by rw [hm, hb.1, hdc]
        rw [strcmpEq, if_pos heq]
        have hmem : (w.read a).2.mem = w.mem := by simp only [World.read, World.turn, hq]
        obtain ⟨i1, rd, i2, i3⟩ := ih hcs t (a + 1) (w.read a).2 (fun h => ht (List.mem_cons_of_mem _ h)) hq
          (by rw [hmem]; simpa [bytesAt] using hb.2)
        refine ⟨by rw [i1]; simp [hdc], .read a (w.turn.mem a) :: rd, ?_, ?_⟩
        · rw [i2]; simp [World.read]
        · intro e he
          rcases List.mem_cons.mp he with he | he
          · exact ⟨0, _, by simp, by rw [he, e0]⟩
          · obtain ⟨i, b, hi, hie⟩ := i3 e he
            exact ⟨i + 1, b, by simp; omega, by rw [hie, add_ofNat_succ]⟩
      · have hne : ¬ (w.read a).1 = c := by rw [hm, hb.1]; exact hdc
        rw [strcmpEq, if_neg hne]
        refine ⟨by simp [hdc], [.read a (w.turn.mem a)], rfl, ?_⟩
        intro e he
        simp only [List.mem_singleton] at he
        exact ⟨0, _, by simp, by rw [he, e0]⟩

theorem strcmpEq_mono (name : List Byte) : ∀ (a : Word) (w : World),
    ∃ rd, (strcmpEq w a name).2.trace = w.trace ++ rd := by
  induction name with
  | nil => intro a w; exact ⟨_, rfl⟩
  | cons c cs ih =>
    intro a w
    rw [strcmpEq]
    split
    · obtain ⟨rd, h⟩ := ih (a + 1) (w.read a).2
      exact ⟨_, by rw [h]; exact List.append_assoc _ _ _⟩
    · exact ⟨_, rfl⟩

theorem strcmpEq_first (name : List Byte) (a : Word) (w : World) :
    ∃ b, Ev.read a b ∈ (strcmpEq w a name).2.trace := by
  refine ⟨w.turn.mem a, ?_⟩
  cases name with
  | nil => simp [strcmpEq, World.read]
  | cons c cs =>
    rw [strcmpEq]
    split
    · obtain ⟨rd, h⟩ := strcmpEq_mono cs (a + 1) (w.read a).2
      rw [h]; simp [World.read]
    · simp [World.read]

theorem callOp_congr (alloc : Word → Option Word) (sb sb' : Sandbox) (idx : Nat) (fr : Frame) (args : List Byte) (w : World)
    (cf : Word) (hc : alloc fr.size = some cf) (h : ∀ m, sb idx cf m = sb' idx cf m) :
    callOp alloc sb idx fr args w = callOp alloc sb' idx fr args w := by
  simp only [callOp, alloc_one, hc, World.send, h]

end Verif.Call
