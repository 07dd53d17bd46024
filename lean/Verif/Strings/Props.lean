import Verif.Strings.Lemmas

/-!
# C03, C04: copying strings out of and into the sandbox
-/

namespace Verif.Strings

open Verif.Bounds Spec

/-- A host allocator: a block it returns has the size asked for. -/
def MallocOk (malloc : Nat → Option Buf) : Prop :=
  ∀ n b, malloc n = some b → b.length = n

/-- The allocator does not fail. -/
def MallocTotal (malloc : Nat → Option Buf) : Prop := ∀ n, malloc n ≠ none

/-- Sandbox memory seen as a function of natural-number addresses. -/
def asNat (m : Mem) : Nat → Byte := fun a => m (BitVec.ofNat 64 a)

/-- An allocator used in the examples. -/
def exMalloc : Nat → Option Buf := fun n => some (List.replicate n 0xAA)

/-- The region used in the examples. -/
def exRegion : Region := ⟨0x1000, 0x1010⟩

/-- Memory used in the examples: `"hi"` at `0x1008`. -/
def exMem : Mem := fun a => if a = 0x1008 then 104 else if a = 0x1009 then 105 else 0

/-- **C03.** Every sandbox byte that `strdup_out` reads, in the scan or in the copy, is inside
the part of the heap accepted by the bounds check; this holds for all addresses and for
any concurrent modification. -/
theorem strdupOut_reads_inside (hdr : Word) (r : Region) (h : r.WF hdr)
    (malloc : Nat → Option Buf) (rd1 rd2 : Mem) (str : Word) :
    ∀ a ∈ (strdupOut hdr r malloc rd1 rd2 str).reads,
      r.base.toNat + hdr.toNat ≤ a.toNat ∧ a.toNat < r.top.toNat := by
  intro a ha
  unfold strdupOut at ha
  split at ha
  next hc =>
    have hmax := toNat_sub_top hdr r h str hc
    have hle := strnlenFrom_le rd1 str 0 (r.top - str).toNat
    have key : ∀ j, j < (r.top - str).toNat → a = str + BitVec.ofNat 64 j →
        r.base.toNat + hdr.toNat ≤ a.toNat ∧ a.toNat < r.top.toNat := by
      intro j hj hj'
      have := toNat_off hdr r h str hc j (by omega)
      rw [contains_iff hdr r h] at hc
      rw [hj', this]
      omega
    have k1 : a ∈ (strnlenFrom rd1 str 0 (r.top - str).toNat).2 →
        r.base.toNat + hdr.toNat ≤ a.toNat ∧ a.toNat < r.top.toNat := by
      intro ha
      obtain ⟨j, _, h2, h3⟩ := strnlenFrom_reads _ _ _ _ a ha
      exact key j (by omega) h3
    have k2 : ∀ b, a ∈ (copyOut rd2 str 0
          (strnlenFrom rd1 str 0 (r.top - str).toNat).1 b).2 →
        r.base.toNat + hdr.toNat ≤ a.toNat ∧ a.toNat < r.top.toNat := by
      intro b ha
      obtain ⟨j, _, h2, h3⟩ := copyOut_reads _ _ _ _ _ a ha
      exact key j (by omega) h3
    simp only at ha
    split at ha
    · exact k1 ha
    · split at ha
      · exact k1 ha
      · split at ha
        · split at ha
          · rcases List.mem_append.1 ha with h' | h'
            · exact k1 h'
            · exact k2 _ h'
          · rcases List.mem_append.1 ha with h' | h'
            · exact k1 h'
            · exact k2 _ h'
        · rcases List.mem_append.1 ha with h' | h'
          · exact k1 h'
          · exact k2 _ h'
  next => simp at ha

example : exRegion.WF 8 ∧
    (strdupOut 8 exRegion exMalloc exMem exMem 0x1008).reads =
      [0x1008, 0x1009, 0x100a, 0x1008, 0x1009] := by decide

/-- **C03.** With a host allocator that honours its contract and does not fail, `strdup_out`
never performs an out-of-bounds host write, whatever the sandbox does to the string between
scan and copy: the outcome is either null or a block whose last byte is zero. -/
theorem strdupOut_safe (hdr : Word) (r : Region) (malloc : Nat → Option Buf)
    (hm : MallocOk malloc) (ht : MallocTotal malloc) (rd1 rd2 : Mem) (str : Word) :
    (strdupOut hdr r malloc rd1 rd2 str).result = .ok none ∨
      ∃ b, (strdupOut hdr r malloc rd1 rd2 str).result = .ok (some b) ∧
        b.getLast? = some 0 ∧ Terminated b := by
  unfold strdupOut
  split
  · simp only
    split
    · exact Or.inl rfl
    · split
      next hn => exact absurd hn (ht _)
      next b hb =>
        have hl := hm _ _ hb
        obtain ⟨b', h1, h2, _, _⟩ := copyOut_spec rd2 str 0
          (strnlenFrom rd1 str 0 (r.top - str).toNat).1 b (by omega)
        rw [h1]
        right
        have hlt : (strnlenFrom rd1 str 0 (r.top - str).toNat).1 < b'.length := by omega
        simp only [Buf.store, hlt, if_true]
        refine ⟨_, rfl, ?_, ?_⟩
        · rw [List.getLast?_eq_getElem?]
          simp [h2, hl]
        · exact List.mem_iff_getElem.2 ⟨_, by simpa using hlt, by simp⟩
  · exact Or.inl rfl

example : MallocOk exMalloc ∧ MallocTotal exMalloc ∧
    (strdupOut 8 exRegion exMalloc exMem (fun _ => 65) 0x1008).result =
      .ok (some [65, 65, 0]) :=
  ⟨fun n b h => by simp [exMalloc] at h; simp [← h], fun n => by simp [exMalloc], by decide⟩

/-- **C03.** Null is returned exactly when the first byte is not contained or no zero byte was
seen between the address and the top of the heap. -/
theorem strdupOut_null_iff (hdr : Word) (r : Region) (h : r.WF hdr)
    (malloc : Nat → Option Buf) (hm : MallocOk malloc) (ht : MallocTotal malloc)
    (rd1 rd2 : Mem) (str : Word) :
    (strdupOut hdr r malloc rd1 rd2 str).result = .ok none ↔
      ¬ (r.base.toNat + hdr.toNat ≤ str.toNat ∧ str.toNat < r.top.toNat) ∨
      ∀ a, str.toNat ≤ a → a < r.top.toNat → asNat rd1 a ≠ 0 := by
  have hcon : contains hdr r str 1 = true ↔
      r.base.toNat + hdr.toNat ≤ str.toNat ∧ str.toNat < r.top.toNat := by
    rw [contains_iff hdr r h]; simp; omega
  rw [← hcon]
  unfold strdupOut
  split
  next hc =>
    have hmax := toNat_sub_top hdr r h str hc
    have hstr := (contains_iff hdr r h str 1).1 hc
    have addr : ∀ j, BitVec.ofNat 64 (str.toNat + j) = str + BitVec.ofNat 64 j := by
      intro j; simp [BitVec.ofNat_add]
    simp only
    split
    next heq =>
      simp only [true_iff]
      right
      intro a h1 h2
      have := strnlenFrom_nonzero rd1 str 0 (r.top - str).toNat (a - str.toNat) (by omega)
        (by omega)
      rw [← addr] at this
      have e : str.toNat + (a - str.toNat) = a := by omega
      rw [e] at this
      exact this
    next hne =>
      have hz := strnlenFrom_zero rd1 str 0 (r.top - str).toNat (by omega)
      have hle := strnlenFrom_le rd1 str 0 (r.top - str).toNat
      have hnot : ¬ ∀ a, str.toNat ≤ a → a < r.top.toNat → asNat rd1 a ≠ 0 := by
        intro hall
        have := hall (str.toNat + (strnlenFrom rd1 str 0 (r.top - str).toNat).1) (by omega)
          (by omega)
        rw [asNat, addr] at this
        exact this hz
      split
      next hn => exact absurd hn (ht _)
      next b hb =>
        have hl := hm _ _ hb
        obtain ⟨b', h1, h2, _, _⟩ := copyOut_spec rd2 str 0
          (strnlenFrom rd1 str 0 (r.top - str).toNat).1 b (by omega)
        rw [h1]
        have hlt : (strnlenFrom rd1 str 0 (r.top - str).toNat).1 < b'.length := by omega
        simp only [Buf.store, hlt, if_true]
        exact iff_of_false (by simp) (fun hor => hor.elim (fun hx => hx hc) hnot)
  next hc => exact iff_of_true rfl (Or.inl hc)

example : (strdupOut 8 exRegion exMalloc (fun _ => 7) exMem 0x1008).result = .ok none ∧
    (strdupOut 8 exRegion exMalloc exMem exMem 0x1004).result = .ok none := by decide

/-- **C03.** Whatever the sandbox writes between the scan and the copy or during either, a non-null
result has exactly as many bytes as the scan saw before the first zero byte, each of them what the
copy read at that place, and then a terminator; and the zero byte the scan saw lies in the heap. -/
theorem strdupOut_bytes (hdr : Word) (r : Region) (h : r.WF hdr)
    (malloc : Nat → Option Buf) (hm : MallocOk malloc) (rd1 rd2 : Mem) (str : Word) (b : Buf)
    (hr : (strdupOut hdr r malloc rd1 rd2 str).result = .ok (some b)) :
    ∃ n, (∀ i, i < n → asNat rd1 (str.toNat + i) ≠ 0) ∧ asNat rd1 (str.toNat + n) = 0 ∧
      r.base.toNat + hdr.toNat ≤ str.toNat ∧ str.toNat + n < r.top.toNat ∧
      b = (List.range n).map (fun i => asNat rd2 (str.toNat + i)) ++ [0] := by
  unfold strdupOut at hr
  split at hr
  next hc =>
    have hcon : r.base.toNat + hdr.toNat ≤ str.toNat ∧ str.toNat < r.top.toNat := by
      rw [contains_iff hdr r h] at hc; simp at hc; omega
    have addr : ∀ j, BitVec.ofNat 64 (str.toNat + j) = str + BitVec.ofNat 64 j := by
      intro j; simp [BitVec.ofNat_add]
    have hmax : (r.top - str).toNat = r.top.toNat - str.toNat := by bv_omega
    simp only at hr
    split at hr
    · simp at hr
    next hne =>
      have hz := strnlenFrom_zero rd1 str 0 (r.top - str).toNat (by omega)
      have hnz := strnlenFrom_nonzero rd1 str 0 (r.top - str).toNat
      have hle : (strnlenFrom rd1 str 0 (r.top - str).toNat).1 ≤ (r.top - str).toNat := by
        have := strnlenFrom_le rd1 str 0 (r.top - str).toNat
        omega
      split at hr
      · simp at hr
      next b0 hb0 =>
        have hl := hm _ _ hb0
        generalize hlen : (strnlenFrom rd1 str 0 (r.top - str).toNat).1 = len at *
        obtain ⟨b', h1, h2, h3, _⟩ := copyOut_spec rd2 str 0 len b0 (by omega)
        rw [h1] at hr
        have hlt : len < b'.length := by omega
        simp only [Buf.store, hlt, if_true, Outcome.ok.injEq, Option.some.injEq] at hr
        refine ⟨len, ?_, ?_, hcon.1, by omega, ?_⟩
        · intro i hi
          rw [asNat, addr]
          exact hnz i (by omega) hi
        · rw [asNat, addr]
          exact hz
        · rw [← hr]
          apply List.ext_getElem?
          intro i
          rcases Nat.lt_trichotomy i len with hi | hi | hi
          · rw [List.getElem?_set_ne (by omega), List.getElem?_append_left (by simp; omega)]
            have := h3 i (by omega) (by omega)
            rw [this]
            simp [hi, asNat, addr]
          · subst hi
            rw [List.getElem?_append_right (by simp)]
            simp [hlt]
          · rw [List.getElem?_eq_none (by simp; omega), List.getElem?_eq_none (by simp; omega)]
  · simp at hr

/-- The hypotheses can be met by a sandbox that changes the string between scan and copy: the text
has the old length and the new bytes, one of which is zero. -/
example : exRegion.WF 8 ∧ MallocOk exMalloc ∧
    (strdupOut 8 exRegion exMalloc exMem (fun a => if a = 0x1009 then 0 else 66) 0x1008).result =
      .ok (some [66, 0, 0]) :=
  ⟨by decide, fun n b h => by simp [exMalloc] at h; simp [← h], by decide⟩

/-- **C03.** If the sandbox does not modify the string, a non-null result is exactly the C
string stored at the address, including its terminator. -/
theorem strdupOut_faithful (hdr : Word) (r : Region)
    (malloc : Nat → Option Buf) (hm : MallocOk malloc) (m : Mem) (str : Word) (b : Buf)
    (hr : (strdupOut hdr r malloc m m str).result = .ok (some b)) :
    ∃ s, b = s ++ [0] ∧ CStringAt (asNat m) str.toNat s := by
  unfold strdupOut at hr
  split at hr
  next hc =>
    have addr : ∀ j, BitVec.ofNat 64 (str.toNat + j) = str + BitVec.ofNat 64 j := by
      intro j; simp [BitVec.ofNat_add]
    simp only at hr
    split at hr
    · simp at hr
    next hne =>
      have hz := strnlenFrom_zero m str 0 (r.top - str).toNat (by omega)
      have hnz := strnlenFrom_nonzero m str 0 (r.top - str).toNat
      split at hr
      · simp at hr
      next b0 hb0 =>
        have hl := hm _ _ hb0
        generalize hlen : (strnlenFrom m str 0 (r.top - str).toNat).1 = len at *
        obtain ⟨b', h1, h2, h3, _⟩ := copyOut_spec m str 0 len b0 (by omega)
        rw [h1] at hr
        have hlt : len < b'.length := by omega
        simp only [Buf.store, hlt, if_true, Outcome.ok.injEq, Option.some.injEq] at hr
        refine ⟨b'.take len, ?_, ?_, ?_⟩
        · rw [← hr]
          apply List.ext_getElem?
          intro i
          rcases Nat.lt_trichotomy i len with hi | hi | hi
          · rw [List.getElem?_set_ne (by omega), List.getElem?_append_left (by simp; omega),
              List.getElem?_take_of_lt hi]
          · subst hi
            rw [List.getElem?_append_right (by simp; omega)]
            have : i - min i b'.length = 0 := by omega
            simp [hlt, this]
          · rw [List.getElem?_eq_none (by simp; omega), List.getElem?_eq_none (by simp; omega)]
        · intro i hi
          simp only [List.length_take] at hi
          have hi' : i < len := by omega
          have := h3 i (by omega) (by omega)
          have hlt' : i < b'.length := by omega
          rw [List.getElem?_eq_getElem hlt', Option.some.injEq] at this
          simp only [List.getElem_take, asNat, addr, this]
          exact ⟨trivial, hnz i (by omega) hi'⟩
        · have : (b'.take len).length = len := by simp; omega
          rw [this, asNat, addr]
          exact hz
  · simp at hr

example : (strdupOut 8 exRegion exMalloc exMem exMem 0x1008).result =
    .ok (some [104, 105, 0]) := by decide

/-- **C03, finding.** A failing host allocation is not checked: the code then copies to a null
pointer. -/
theorem strdupOut_malloc_failure_ub :
    (strdupOut 8 exRegion (fun _ => none) exMem exMem 0x1008).result = .ub := by decide

theorem copyOut_short (rd : Mem) (str : Word) : ∀ (n i : Nat) (b : Buf), b.length < i + n → i ≤ b.length →
    (copyOut rd str i n b).1 = .ub := by
  intro n
  induction n with
  | zero => intro i b h h'; omega
  | succ n ih =>
    intro i b h h'
    simp only [copyOut, Buf.store]
    by_cases hi : i < b.length
    · rw [if_pos hi]
      exact ih (i + 1) _ (by simp; omega) (by simp; omega)
    · rw [if_neg hi]

/-- **C03, the size asked for is the least that will do.**  The host is to copy a string of the heap; whatever block the
allocator gives it for that, the copy is made exactly if the block has the bytes asked for, and otherwise the host writes
past the block. -/
theorem strdupOut_block_iff (hdr : Word) (r : Region) (malloc : Nat → Option Buf) (rd1 rd2 : Mem)
    (str : Word) (hin : contains hdr r str 1 = true) (n : Nat) (hn : (strnlenFrom rd1 str 0 (r.top - str).toNat).1 = n)
    (hend : n ≠ (r.top - str).toNat) (b : Buf) (hb : malloc (n + 1) = some b) :
    ((∃ c, (strdupOut hdr r malloc rd1 rd2 str).result = .ok (some c)) ↔ n + 1 ≤ b.length) ∧
    ((strdupOut hdr r malloc rd1 rd2 str).result = .ub ↔ b.length ≤ n) := by
  unfold strdupOut
  simp only [hin, if_true, hn, if_neg hend, hb]
  rcases Nat.lt_or_ge b.length n with hl | hl
  · simp only [copyOut_short rd2 str n 0 b (by omega) (by omega)]
    refine ⟨⟨?_, fun h => by omega⟩, ⟨fun _ => by omega, fun _ => trivial⟩⟩
    rintro ⟨c, h⟩
    cases h
  · obtain ⟨b', h1, h2, _⟩ := copyOut_spec rd2 str 0 n b (by omega)
    simp only [h1, Buf.store]
    by_cases h : n < b'.length
    · simp only [if_pos h]
      refine ⟨⟨fun _ => by omega, fun _ => ⟨_, rfl⟩⟩, ⟨nofun, fun _ => by omega⟩⟩
    · simp only [if_neg h]
      refine ⟨⟨?_, fun _ => by omega⟩, ⟨fun _ => by omega, fun _ => trivial⟩⟩
      rintro ⟨c, h⟩
      cases h

/-- The string of the example needs three bytes: with two the host writes past the block. -/
example : (strdupOut 8 exRegion (fun _ => some [1, 1]) exMem exMem 0x1008).result = .ub ∧
    (strdupOut 8 exRegion (fun _ => some [1, 1, 1]) exMem exMem 0x1008).result = .ok (some [104, 105, 0]) := by decide

/-- The host is to copy the string at `a` and has no memory for it: the address lies in the heap, a zero byte follows it
there, and the allocator fails for the length of the string and one byte more. -/
def NoRoom (hdr : Word) (r : Region) (malloc : Nat → Option Buf) (m : Mem) (a : Word) : Prop :=
  r.base.toNat + hdr.toNat ≤ a.toNat ∧
    ∃ s, CStringAt (asNat m) a.toNat s ∧ a.toNat + s.length < r.top.toNat ∧ malloc (s.length + 1) = none

theorem cstring_len {m : Mem} {a n : Nat} {s : List Byte} (hs : CStringAt (asNat m) a s)
    (hz : asNat m (a + n) = 0) (hnz : ∀ j, j < n → asNat m (a + j) ≠ 0) : s.length = n := by
  rcases Nat.lt_trichotomy s.length n with h | h | h
  · exact absurd hs.2 (hnz _ h)
  · exact h
  · have := hs.1 n h
    exact absurd (this.1.symm.trans hz) this.2

/-- **C03.** For every address, content of the memory and allocator, `strdup_out` neither throws nor aborts, and its
behaviour is undefined exactly if there is a string to copy and no memory for the copy. -/
theorem strdupOut_outcome (hdr : Word) (r : Region) (h : r.WF hdr) (malloc : Nat → Option Buf) (hm : MallocOk malloc)
    (rd1 rd2 : Mem) (str : Word) :
    ((strdupOut hdr r malloc rd1 rd2 str).result = .ub ↔ NoRoom hdr r malloc rd1 str) ∧
      (¬ NoRoom hdr r malloc rd1 str → ∃ b, (strdupOut hdr r malloc rd1 rd2 str).result = .ok b) := by
  have hcon : contains hdr r str 1 = true ↔
      r.base.toNat + hdr.toNat ≤ str.toNat ∧ str.toNat < r.top.toNat := by
    rw [contains_iff hdr r h]; simp; omega
  have addr : ∀ j, BitVec.ofNat 64 (str.toNat + j) = str + BitVec.ofNat 64 j := by
    intro j; simp [BitVec.ofNat_add]
  unfold strdupOut
  split
  next hc =>
    have hmax := toNat_sub_top hdr r h str hc
    have hin := hcon.1 hc
    have hle := strnlenFrom_le rd1 str 0 (r.top - str).toNat
    have hnz : ∀ j, j < (strnlenFrom rd1 str 0 (r.top - str).toNat).1 → asNat rd1 (str.toNat + j) ≠ 0 := by
      intro j hj
      have := strnlenFrom_nonzero rd1 str 0 (r.top - str).toNat j (by omega) hj
      rwa [← addr] at this
    simp only
    split
    next heq =>
      have hno : ¬ NoRoom hdr r malloc rd1 str := by
        rintro ⟨-, s, hs, hlt, -⟩
        exact hnz s.length (by omega) hs.2
      exact ⟨iff_of_false (by simp) hno, fun _ => ⟨_, rfl⟩⟩
    next hne =>
      have hz : asNat rd1 (str.toNat + (strnlenFrom rd1 str 0 (r.top - str).toNat).1) = 0 := by
        have := strnlenFrom_zero rd1 str 0 (r.top - str).toNat (by omega)
        rwa [← addr] at this
      have hroom : NoRoom hdr r malloc rd1 str ↔
          malloc ((strnlenFrom rd1 str 0 (r.top - str).toNat).1 + 1) = none := by
        constructor
        · rintro ⟨-, s, hs, -, hn⟩
          rwa [cstring_len hs hz hnz] at hn
        · intro hn
          refine ⟨hin.1, (List.range (strnlenFrom rd1 str 0 (r.top - str).toNat).1).map
            (fun j => asNat rd1 (str.toNat + j)), ⟨?_, ?_⟩, ?_, ?_⟩
          · intro j hj
            simp only [List.length_map, List.length_range] at hj
            simp only [List.getElem_map, List.getElem_range]
            exact ⟨trivial, hnz j hj⟩
          · simpa using hz
          · simp only [List.length_map, List.length_range]; omega
          · simpa using hn
      rw [hroom]
      split
      next hn => exact ⟨iff_of_true rfl hn, fun hx => absurd hn hx⟩
      next b hb =>
        have hl := hm _ _ hb
        obtain ⟨b', h1, h2, _, _⟩ := copyOut_spec rd2 str 0
          (strnlenFrom rd1 str 0 (r.top - str).toNat).1 b (by omega)
        rw [h1]
        have hlt : (strnlenFrom rd1 str 0 (r.top - str).toNat).1 < b'.length := by omega
        simp only [Buf.store, hlt, if_true]
        exact ⟨iff_of_false nofun (by rw [hb]; nofun), fun _ => ⟨_, rfl⟩⟩
  next hc =>
    have hno : ¬ NoRoom hdr r malloc rd1 str := by
      rintro ⟨h1, s, -, h2, -⟩
      exact hc (hcon.2 ⟨h1, by omega⟩)
    exact ⟨iff_of_false (by simp) hno, fun _ => ⟨_, rfl⟩⟩

/-- With an allocator that only fails for large blocks, the first string is copied and the second is not. -/
example : ¬ NoRoom 8 exRegion (fun n => if n < 3 then some (List.replicate n 0) else none) exMem 0x100A ∧
    NoRoom 8 exRegion (fun n => if n < 3 then some (List.replicate n 0) else none) exMem 0x1008 := by
  refine ⟨?_, by decide, [104, 105], ⟨?_, by decide⟩, by decide, by decide⟩
  · rintro ⟨-, s, hs, -, hn⟩
    have := cstring_len (n := 0) hs (by decide) (fun j hj => absurd hj (by omega))
    rw [this] at hn
    exact absurd hn (by decide)
  · decide

/-- **C04 (part that holds).** If the allocation succeeds, the returned block holds the text of
the string: byte `i` of the block is byte `i` of the text.  What is missing from the full
claim is the terminating zero, see `strdup_unterminated`. -/
theorem strdup_text_partial (alloc : Word → Option Word) (m m' : Mem) (s : List Byte) (p : Word)
    (hlen : s.length < 2 ^ 64) (h : strdup alloc m s = (some p, m')) :
    ∀ i (hi : i < (cText s).length), m' (p + BitVec.ofNat 64 i) = (cText s)[i] := by
  intro i hi
  have hle : ∀ l : List Byte, (cText l).length ≤ l.length := by
    intro l
    induction l with
    | nil => simp [cText]
    | cons a l ih => simp only [cText]; split <;> simp; omega
  unfold strdup at h
  simp only at h
  split at h
  · simp at h
  · simp only [Prod.mk.injEq, Option.some.injEq] at h
    obtain ⟨rfl, rfl⟩ := h
    exact writeBytes_in _ _ _ (by have := hle s; omega) i hi

example : (strdup (fun _ => some 0x1008) (fun _ => 0x55) [104, 105, 0]).1 = some 0x1008 := by
  decide

/-- **C04, finding.** The sandbox's allocator is asked for exactly as many bytes as the text has: there is no room for
the terminating zero in the block.  The copy is made exactly if that block can be had. -/
theorem strdup_asks (alloc : Word → Option Word) (m : Mem) (s : List Byte) :
    (strdup alloc m s).1 = alloc (BitVec.ofNat 64 (cText s).length) := by
  have ha : (allocInSandbox alloc 1 (BitVec.ofNat 64 (cText s).length)).1 = alloc (BitVec.ofNat 64 (cText s).length) := by
    unfold allocInSandbox umul
    rw [show ((1 : Word).toNat) = 1 from rfl]
    simp only [BitVec.toNat_ofNat]
    rw [decide_eq_false (by omega)]
    simp
  unfold strdup
  simp only [ha]
  split
  · rename_i h; rw [h]
  · rename_i h; rw [h]

example : (strdup (fun n => if n = 2 then some 0x1008 else none) (fun _ => 0) [104, 105, 0]).1 = some 0x1008 := by decide

/-- **C04.** The only memory `strdup` writes is the block of `strlen` bytes it allocated, so
the byte that should hold the terminator keeps its previous value. -/
theorem strdup_frame (alloc : Word → Option Word) (m m' : Mem) (s : List Byte) (p : Word)
    (h : strdup alloc m s = (some p, m')) (x : Word)
    (hx : ∀ i, i < (cText s).length → x ≠ p + BitVec.ofNat 64 i) : m' x = m x := by
  unfold strdup at h
  simp only at h
  split at h
  · simp at h
  · simp only [Prod.mk.injEq, Option.some.injEq] at h
    obtain ⟨rfl, rfl⟩ := h
    rw [writeBytes_out _ _ _ _ hx, writeBytes_out]
    simpa using hx

example : ((strdup (fun _ => some 0x1008) (fun _ => 0x55) [104, 105, 0]).2 0x100a) = 0x55 := by
  decide

/-- **C04.** Exact condition for the round trip: with an uninterrupted copy in and out, the
string read back is the text that was copied in exactly when the byte after the block was
already zero. -/
theorem strdup_roundtrip_iff (hdr : Word) (r : Region) (h : r.WF hdr)
    (alloc : Word → Option Word) (malloc : Nat → Option Buf) (hm : MallocOk malloc)
    (ht : MallocTotal malloc) (m m' : Mem) (s : List Byte) (p : Word)
    (hs : strdup alloc m s = (some p, m'))
    (hin : r.base.toNat + hdr.toNat ≤ p.toNat)
    (hroom : p.toNat + (cText s).length < r.top.toNat)
    (hlen : s.length < 2 ^ 64) :
    (strdupOut hdr r malloc m' m' p).result = .ok (some (cText s ++ [0])) ↔
      m (p + BitVec.ofNat 64 (cText s).length) = 0 := by
  have htext := strdup_text_partial alloc m m' s p hlen hs
  have htop := r.top.isLt
  have addr : ∀ j, BitVec.ofNat 64 (p.toNat + j) = p + BitVec.ofNat 64 j := by
    intro j; simp [BitVec.ofNat_add]
  have hframe : m' (p + BitVec.ofNat 64 (cText s).length) =
      m (p + BitVec.ofNat 64 (cText s).length) := by
    refine strdup_frame alloc m m' s p hs _ ?_
    intro i hi he
    have e : (BitVec.ofNat 64 (cText s).length) = BitVec.ofNat 64 i := by bv_omega
    have := congrArg BitVec.toNat e
    rw [BitVec.toNat_ofNat, BitVec.toNat_ofNat, Nat.mod_eq_of_lt (by omega),
      Nat.mod_eq_of_lt (by omega)] at this
    omega
  rw [← hframe]
  constructor
  · intro hr
    obtain ⟨t, ht1, _, ht2⟩ := strdupOut_faithful hdr r malloc hm m' p _ hr
    have : cText s = t := by simpa using ht1
    rw [this, ← addr]
    exact ht2
  · intro hz
    rcases strdupOut_safe hdr r malloc hm ht m' m' p with hn | ⟨b, hb, _⟩
    · rw [strdupOut_null_iff hdr r h malloc hm ht] at hn
      exfalso
      rcases hn with hn | hn
      · omega
      · exact hn (p.toNat + (cText s).length) (by omega) hroom (by rw [asNat, addr]; exact hz)
    · obtain ⟨t, rfl, ht1, ht2⟩ := strdupOut_faithful hdr r malloc hm m' p _ hb
      rw [hb]
      have hnz := cText_nonzero s
      have hlen' : t.length = (cText s).length := by
        rcases Nat.lt_trichotomy t.length (cText s).length with hl | hl | hl
        · have h1 := htext t.length hl
          rw [asNat, addr, h1] at ht2
          exact absurd ht2 (hnz _ (List.getElem_mem hl))
        · exact hl
        · have h1 := ht1 (cText s).length hl
          rw [asNat, addr, hz] at h1
          exact absurd h1.1.symm h1.2
      have : t = cText s := by
        apply List.ext_getElem hlen'
        intro i h1 h2
        have := (ht1 i h1).1
        rw [asNat, addr, htext i h2] at this
        exact this.symm
      rw [this]

example : (strdup (fun _ => some 0x1008) (fun _ => 0) [104, 105, 0]).1 = some 0x1008 ∧
    (strdupOut 8 exRegion exMalloc (strdup (fun _ => some 0x1008) (fun _ => 0) [104, 105, 0]).2
      (strdup (fun _ => some 0x1008) (fun _ => 0) [104, 105, 0]).2 0x1008).result =
      .ok (some [104, 105, 0]) := by decide

/-- **C04 is violated.** With a heap whose old contents are not zero, the copied string is not
terminated: reading `"hi"` back gives a longer string. -/
theorem strdup_unterminated :
    let m0 : Mem := fun a => if a = 0x100f then 0 else 0x55
    let st := strdup (fun _ => some 0x1008) m0 [104, 105, 0]
    st.1 = some 0x1008 ∧
    (strdupOut 8 exRegion exMalloc st.2 st.2 0x1008).result =
      .ok (some [104, 105, 0x55, 0x55, 0x55, 0x55, 0x55, 0]) := by decide

end Verif.Strings
