import Verif.Strings.Props
import Verif.AddrInfo.Model
import Verif.AddrInfo.Spec

/-!
# Address lists (lemmas)
-/

namespace Verif.AddrInfo

open Verif.Bounds Verif.Strings Verif.Callback Verif.Net Spec

theorem leBytes_length (n v : Nat) : (leBytes n v).length = n := by
  induction n generalizing v with
  | zero => rfl
  | succ n ih => simp [leBytes, ih]

theorem leNat_leBytes (n v : Nat) (h : v < 256 ^ n) : leNat (leBytes n v) = v := by
  induction n generalizing v with
  | zero => simp [leBytes, leNat] at *; omega
  | succ n ih =>
    simp only [leBytes, leNat]
    rw [ih (v / 256) (by rw [Nat.div_lt_iff_lt_mul (by omega)]; rw [Nat.pow_succ] at h; omega)]
    have : (UInt8.ofNat (v % 256)).toNat = v % 256 := by
      simp
    rw [this]
    omega

/-- Memory `m` holds the bytes `bs` from address `a` on. -/
def Holds (m : Mem) (a : Nat) (bs : List Byte) : Prop :=
  ∀ i (h : i < bs.length), m (BitVec.ofNat 64 (a + i)) = bs[i]

theorem holds_write (m : Mem) (a : Nat) (bs : List Byte) (h : a + bs.length < 2 ^ 64) :
    Holds (writeBytes m (BitVec.ofNat 64 a) bs) a bs := by
  intro i hi
  have := writeBytes_in m (BitVec.ofNat 64 a) bs (by omega) i hi
  rw [← this, BitVec.ofNat_add]

theorem holds_frame (m : Mem) (a : Nat) (bs : List Byte) (c : Nat) (cs : List Byte)
    (h : Holds m a bs) (ha : a + bs.length < 2 ^ 64) (hc : c + cs.length < 2 ^ 64)
    (hd : a + bs.length ≤ c ∨ c + cs.length ≤ a) :
    Holds (writeBytes m (BitVec.ofNat 64 c) cs) a bs := by
  intro i hi
  rw [writeBytes_out]
  · exact h i hi
  · intro j hj he
    have := congrArg BitVec.toNat he
    simp only [BitVec.toNat_ofNat, BitVec.toNat_add] at this
    omega

theorem holds_append (m : Mem) (a : Nat) (xs ys : List Byte) :
    Holds m a (xs ++ ys) ↔ Holds m a xs ∧ Holds m (a + xs.length) ys := by
  constructor
  · intro h
    refine ⟨fun i hi => ?_, fun i hi => ?_⟩
    · have := h i (by simp; omega)
      rw [List.getElem_append_left hi] at this
      exact this
    · have := h (xs.length + i) (by simp; omega)
      rw [List.getElem_append_right (by omega)] at this
      simp only [Nat.add_sub_cancel_left] at this
      rw [Nat.add_assoc]
      exact this
  · rintro ⟨h1, h2⟩ i hi
    by_cases hlt : i < xs.length
    · rw [List.getElem_append_left hlt]; exact h1 i hlt
    · rw [List.getElem_append_right (by omega)]
      have := h2 (i - xs.length) (by simp at hi; omega)
      rw [show a + xs.length + (i - xs.length) = a + i by omega] at this
      exact this

theorem holds_bytesAt (m : Mem) (a : Nat) (bs : List Byte) (h : Holds m a bs) :
    bytesAt (asNat m) a bs.length = bs := by
  apply List.ext_getElem
  · simp [bytesAt]
  · intro i h1 h2
    simp only [bytesAt, List.getElem_map, List.getElem_range, asNat]
    exact h i h2

theorem holds_numAt (m : Mem) (a n v : Nat) (h : Holds m a (leBytes n v)) (hv : v < 256 ^ n) :
    numAt (asNat m) a n = v := by
  unfold numAt
  have := holds_bytesAt m a _ h
  rw [leBytes_length] at this
  rw [this, leNat_leBytes n v hv]

/-- The first 24 bytes of a structure, which hold no pointer. -/
def Info.head (e : Info) : List Byte :=
  leBytes 4 e.flags.toNat ++ leBytes 4 e.family.toNat ++ leBytes 4 e.socktype.toNat ++
  leBytes 4 e.protocol.toNat ++ leBytes 4 e.addr.length ++ leBytes 4 e.pad.toNat

theorem Info.head_length (e : Info) : e.head.length = 24 := by
  simp [Info.head, leBytes_length]

theorem Info.bytes_length (e : Info) : e.bytes.length = 48 := by
  simp [Info.bytes, leBytes_length]

/-- One element in its final place. -/
def Placed (m : Mem) (p sa next : Nat) (e : Info) : Prop :=
  Holds m p e.head ∧ Holds m (p + 24) (leBytes 8 sa) ∧ Holds m (p + 32) (leBytes 8 e.canon.toNat) ∧
    Holds m (p + 40) (leBytes 8 next) ∧ Holds m sa e.addr

/-- A run of elements in their final places; `last` is the next-pointer of the last one. -/
def Seg (m : Mem) (p sa last : Nat) : List Info → Prop
  | [] => True
  | [e] => Placed m p sa last e
  | e :: es => Placed m p sa (p + 48) e ∧ Seg m (p + 48) (sa + e.addr.length) last es

theorem placed_frame (m : Mem) (p sa next : Nat) (e : Info) (c : Nat) (cs : List Byte)
    (h : Placed m p sa next e) (hp : p + 48 < 2 ^ 64) (hs : sa + e.addr.length < 2 ^ 64)
    (hc : c + cs.length < 2 ^ 64) (hd : p + 48 ≤ c ∨ c + cs.length ≤ p)
    (hd2 : sa + e.addr.length ≤ c ∨ c + cs.length ≤ sa) :
    Placed (writeBytes m (BitVec.ofNat 64 c) cs) p sa next e := by
  obtain ⟨h1, h2, h3, h4, h5⟩ := h
  have hl := e.head_length
  refine ⟨holds_frame m p _ c cs h1 (by omega) hc (by omega),
    holds_frame m _ _ c cs h2 (by rw [leBytes_length]; omega) hc (by rw [leBytes_length]; omega),
    holds_frame m _ _ c cs h3 (by rw [leBytes_length]; omega) hc (by rw [leBytes_length]; omega),
    holds_frame m _ _ c cs h4 (by rw [leBytes_length]; omega) hc (by rw [leBytes_length]; omega),
    holds_frame m _ _ c cs h5 (by omega) hc hd2⟩

theorem copyLoop_nat (ais sa i : Nat) (e : Info) (es : List Info)
    (h1 : ais + 48 * (i + 1) < 2 ^ 64) (h2 : sa < 2 ^ 64) :
    copyLoop (BitVec.ofNat 64 ais) (BitVec.ofNat 64 sa) i (e :: es) =
      [⟨BitVec.ofNat 64 (ais + 48 * i), e.bytes⟩, ⟨BitVec.ofNat 64 sa, e.addr⟩,
       ⟨BitVec.ofNat 64 (ais + 48 * i + 24), leBytes 8 sa⟩,
       ⟨BitVec.ofNat 64 (ais + 48 * i + 40), leBytes 8 (ais + 48 * (i + 1))⟩] ++
      copyLoop (BitVec.ofNat 64 ais) (BitVec.ofNat 64 (sa + e.addr.length)) (i + 1) es := by
  have e1 : (BitVec.ofNat 64 sa).toNat = sa := by simp; omega
  have e2 : (BitVec.ofNat 64 (ais + 48 * (i + 1))).toNat = ais + 48 * (i + 1) := by simp; omega
  conv => lhs; unfold copyLoop
  simp only [infoSize, ← BitVec.ofNat_add, e1, e2]
  simp only [BitVec.ofNat_add]
  rfl

theorem applyStores_append (m : Mem) (xs ys : List Store) :
    applyStores m (xs ++ ys) = applyStores (applyStores m xs) ys := by
  induction xs generalizing m with
  | nil => rfl
  | cons x xs ih => simp [applyStores, ih]

theorem Info.bytes_eq (e : Info) : e.bytes =
    e.head ++ (leBytes 8 e.hostAddr.toNat ++ (leBytes 8 e.canon.toNat ++
      leBytes 8 e.hostNext.toNat)) := by
  simp [Info.bytes, Info.head]

theorem copyLoop_run (ais : Nat) (es : List Info) : ∀ (m : Mem) (sa i : Nat),
    ais + 48 * (i + es.length) ≤ sa → sa + extraOf es < 2 ^ 64 →
    Seg (applyStores m (copyLoop (BitVec.ofNat 64 ais) (BitVec.ofNat 64 sa) i es))
      (ais + 48 * i) sa (ais + 48 * (i + es.length)) es ∧
    ∀ a bs, Holds m a bs → a + bs.length < 2 ^ 64 →
      (a + bs.length ≤ ais + 48 * i ∨
        (ais + 48 * (i + es.length) ≤ a ∧ a + bs.length ≤ sa) ∨ sa + extraOf es ≤ a) →
      Holds (applyStores m (copyLoop (BitVec.ofNat 64 ais) (BitVec.ofNat 64 sa) i es)) a bs := by
  induction es with
  | nil =>
    intro m sa i _ _
    exact ⟨trivial, fun a bs h _ _ => h⟩
  | cons e es ih =>
    intro m sa i h1 h2
    simp only [List.length_cons] at h1
    have hx : extraOf (e :: es) = e.addr.length + extraOf es := by simp [extraOf]
    rw [hx] at h2
    rw [copyLoop_nat ais sa i e es (by omega) (by omega), applyStores_append]
    have hbl := e.bytes_length
    have hhl := e.head_length
    have l8 : ∀ v, (leBytes 8 v).length = 8 := leBytes_length 8
    generalize hm1 : applyStores m [⟨BitVec.ofNat 64 (ais + 48 * i), e.bytes⟩,
      ⟨BitVec.ofNat 64 sa, e.addr⟩, ⟨BitVec.ofNat 64 (ais + 48 * i + 24), leBytes 8 sa⟩,
      ⟨BitVec.ofNat 64 (ais + 48 * i + 40), leBytes 8 (ais + 48 * (i + 1))⟩] = m1
    simp only [applyStores] at hm1
    have hplaced : Placed m1 (ais + 48 * i) sa (ais + 48 * (i + 1)) e := by
      subst hm1
      have w0 := holds_write m (ais + 48 * i) e.bytes (by omega)
      have w0' := w0
      rw [e.bytes_eq, holds_append, holds_append, holds_append, hhl, l8, l8] at w0'
      obtain ⟨a1, a2, a3, a4⟩ := w0'
      rw [← e.bytes_eq] at a1 a3
      refine ⟨?_, ?_, ?_, ?_, ?_⟩
      · have := holds_frame _ _ _ sa e.addr a1 (by omega) (by omega) (by omega)
        have := holds_frame _ _ _ (ais + 48 * i + 24) (leBytes 8 sa) this (by omega)
          (by simp only [l8]; omega) (by simp only [l8]; omega)
        exact holds_frame _ _ _ (ais + 48 * i + 40) (leBytes 8 (ais + 48 * (i + 1))) this (by omega)
          (by simp only [l8]; omega) (by simp only [l8]; omega)
      · have := holds_write (writeBytes (writeBytes m (BitVec.ofNat 64 (ais + 48 * i)) e.bytes)
          (BitVec.ofNat 64 sa) e.addr) (ais + 48 * i + 24) (leBytes 8 sa) (by simp only [l8]; omega)
        exact holds_frame _ _ _ (ais + 48 * i + 40) (leBytes 8 (ais + 48 * (i + 1))) this
          (by simp only [l8]; omega) (by simp only [l8]; omega) (by simp only [l8]; omega)
      · have a3 : Holds (writeBytes m (BitVec.ofNat 64 (ais + 48 * i)) e.bytes)
            (ais + 48 * i + 32) (leBytes 8 e.canon.toNat) := a3
        have := holds_frame _ _ _ sa e.addr a3 (by simp only [l8]; omega) (by omega) (by simp only [l8]; omega)
        have := holds_frame _ _ _ (ais + 48 * i + 24) (leBytes 8 sa) this (by simp only [l8]; omega)
          (by simp only [l8]; omega) (by simp only [l8]; omega)
        exact holds_frame _ _ _ (ais + 48 * i + 40) (leBytes 8 (ais + 48 * (i + 1))) this
          (by simp only [l8]; omega) (by simp only [l8]; omega) (by simp only [l8]; omega)
      · exact holds_write _ _ _ (by simp only [l8]; omega)
      · have := holds_write (writeBytes m (BitVec.ofNat 64 (ais + 48 * i)) e.bytes) sa e.addr
          (by omega)
        have := holds_frame _ _ _ (ais + 48 * i + 24) (leBytes 8 sa) this (by omega)
          (by simp only [l8]; omega) (by simp only [l8]; omega)
        exact holds_frame _ _ _ (ais + 48 * i + 40) (leBytes 8 (ais + 48 * (i + 1))) this (by omega)
          (by simp only [l8]; omega) (by simp only [l8]; omega)
    have hframe1 : ∀ a bs, Holds m a bs → a + bs.length < 2 ^ 64 →
        (a + bs.length ≤ ais + 48 * i ∨
          (ais + 48 * (i + 1) ≤ a ∧ a + bs.length ≤ sa) ∨ sa + e.addr.length ≤ a) →
        Holds m1 a bs := by
      intro a bs h ha hd
      subst hm1
      have := holds_frame _ _ _ (ais + 48 * i) e.bytes h ha (by omega) (by omega)
      have := holds_frame _ _ _ sa e.addr this ha (by omega) (by omega)
      have := holds_frame _ _ _ (ais + 48 * i + 24) (leBytes 8 sa) this ha (by simp only [l8]; omega)
        (by simp only [l8]; omega)
      exact holds_frame _ _ _ (ais + 48 * i + 40) (leBytes 8 (ais + 48 * (i + 1))) this ha
        (by simp only [l8]; omega) (by simp only [l8]; omega)
    obtain ⟨hseg, hfr⟩ := ih m1 (sa + e.addr.length) (i + 1) (by omega) (by omega)
    constructor
    · have hp2 : Placed (applyStores m1 (copyLoop (BitVec.ofNat 64 ais)
          (BitVec.ofNat 64 (sa + e.addr.length)) (i + 1) es)) (ais + 48 * i) sa
          (ais + 48 * (i + 1)) e := by
        obtain ⟨a1, a2, a3, a4, a5⟩ := hplaced
        exact ⟨hfr _ _ a1 (by omega) (by omega), hfr _ _ a2 (by simp only [l8]; omega) (by simp only [l8]; omega),
          hfr _ _ a3 (by simp only [l8]; omega) (by simp only [l8]; omega),
          hfr _ _ a4 (by simp only [l8]; omega) (by simp only [l8]; omega),
          hfr _ _ a5 (by omega) (by omega)⟩
      cases es with
      | nil => exact hp2
      | cons e2 es2 =>
        refine ⟨hp2, ?_⟩
        have e1 : ais + 48 * (i + 1) = ais + 48 * i + 48 := by omega
        have e2 : i + 1 + (e2 :: es2).length = i + (e :: e2 :: es2).length := by simp; omega
        rw [e1, e2] at hseg
        exact hseg
    · intro a bs h ha hd
      rw [hx] at hd
      simp only [List.length_cons] at hd
      exact hfr a bs (hframe1 a bs h ha (by omega)) ha (by omega)

/-- Overwriting the last next-pointer with a terminator. -/
theorem seg_terminate (es : List Info) : ∀ (m : Mem) (p sa last : Nat),
    es ≠ [] → p + 48 * es.length ≤ sa → sa + extraOf es < 2 ^ 64 → Seg m p sa last es →
    Seg (writeBytes m (BitVec.ofNat 64 (p + 48 * (es.length - 1) + 40)) (leBytes 8 0)) p sa 0 es := by
  induction es with
  | nil => intro m p sa last h; exact absurd rfl h
  | cons e es ih =>
    intro m p sa last _ h1 h2 hs
    have hx : extraOf (e :: es) = e.addr.length + extraOf es := by simp [extraOf]
    have l8 : ∀ v, (leBytes 8 v).length = 8 := leBytes_length 8
    have hhl := e.head_length
    simp only [List.length_cons] at h1
    rw [hx] at h2
    cases es with
    | nil =>
      obtain ⟨a1, a2, a3, a4, a5⟩ := hs
      simp only [List.length_nil] at h1
      simp only [List.length_cons, List.length_nil, Nat.mul_zero, Nat.add_zero,
        Nat.zero_add, Nat.sub_self]
      exact ⟨holds_frame _ _ _ _ _ a1 (by omega) (by simp only [l8]; omega) (by omega),
        holds_frame _ _ _ _ _ a2 (by simp only [l8]; omega) (by simp only [l8]; omega) (by simp only [l8]; omega),
        holds_frame _ _ _ _ _ a3 (by simp only [l8]; omega) (by simp only [l8]; omega) (by simp only [l8]; omega),
        holds_write _ _ _ (by simp only [l8]; omega),
        holds_frame _ _ _ _ _ a5 (by omega) (by simp only [l8]; omega) (by simp only [l8]; omega)⟩
    | cons e2 es2 =>
      obtain ⟨hp, hs⟩ := hs
      have := ih m (p + 48) (sa + e.addr.length) last (by simp)
        (by simp only [List.length_cons] at *; omega) (by omega) hs
      have he : p + 48 + 48 * ((e2 :: es2).length - 1) + 40 =
          p + 48 * ((e :: e2 :: es2).length - 1) + 40 := by
        simp only [List.length_cons]; omega
      rw [he] at this
      refine ⟨placed_frame m p sa (p + 48) e _ _ hp (by omega) (by omega) ?_ ?_ ?_, this⟩
      · rw [l8]; simp only [List.length_cons] at *; omega
      · left; simp only [List.length_cons]; omega
      · right; rw [l8]; simp only [List.length_cons] at *; omega

theorem seg_frame (es : List Info) : ∀ (m : Mem) (p sa last c : Nat) (cs : List Byte),
    p + 48 * es.length ≤ sa → sa + extraOf es < 2 ^ 64 → c + cs.length < 2 ^ 64 →
    (sa + extraOf es ≤ c ∨ c + cs.length ≤ p) → Seg m p sa last es →
    Seg (writeBytes m (BitVec.ofNat 64 c) cs) p sa last es := by
  induction es with
  | nil => intros; trivial
  | cons e es ih =>
    intro m p sa last c cs h1 h2 h3 h4 hs
    have hx : extraOf (e :: es) = e.addr.length + extraOf es := by simp [extraOf]
    simp only [List.length_cons] at h1
    rw [hx] at h2 h4
    cases es with
    | nil => exact placed_frame m p sa last e c cs hs (by omega) (by omega) h3 (by omega) (by omega)
    | cons e2 es2 =>
      obtain ⟨hp, hs⟩ := hs
      exact ⟨placed_frame m p sa (p + 48) e c cs hp (by omega) (by omega) h3 (by omega) (by omega),
        ih m _ _ last c cs (by simp only [List.length_cons] at *; omega) (by omega) h3 (by omega) hs⟩

/-- What a reader should see of an element. -/
def Info.seen (e : Info) : Seen :=
  ⟨e.flags.toNat, e.family.toNat, e.socktype.toNat, e.protocol.toNat, e.addr, e.canon.toNat⟩

theorem seg_chain (lo hi : Nat) (hhi : hi < 2 ^ 64) (es : List Info) : ∀ (m : Mem) (p sa : Nat),
    es ≠ [] → p ≠ 0 → lo ≤ p → p + 48 * es.length ≤ sa → sa + extraOf es ≤ hi →
    (∀ e ∈ es, e.addr.length < 2 ^ 32) →
    Seg m p sa 0 es → Chain (asNat m) lo hi p (es.map Info.seen) := by
  induction es with
  | nil => intro m p sa h; exact absurd rfl h
  | cons e es ih =>
    intro m p sa _ hp0 hlo h1 h2 hlen hs
    have hx : extraOf (e :: es) = e.addr.length + extraOf es := by simp [extraOf]
    simp only [List.length_cons] at h1
    rw [hx] at h2
    have key : ∀ next, next < 2 ^ 64 → Placed m p sa next e →
        Chain (asNat m) lo hi next (es.map Info.seen) →
        Chain (asNat m) lo hi p ((e :: es).map Info.seen) := by
      intro next hnext hpl hch
      obtain ⟨a1, a2, a3, a4, a5⟩ := hpl
      unfold Info.head at a1
      simp only [holds_append, leBytes_length, List.length_append] at a1
      obtain ⟨⟨⟨⟨⟨b1, b2⟩, b3⟩, b4⟩, b5⟩, b6⟩ := a1
      have n32 : ∀ v : BitVec 32, v.toNat < 256 ^ 4 := fun v => v.isLt
      have hsa : numAt (asNat m) (p + 24) 8 = sa := holds_numAt m _ 8 _ a2 (by
        have : (256 : Nat) ^ 8 = 2 ^ 64 := by decide
        omega)
      have hne : numAt (asNat m) (p + 40) 8 = next := holds_numAt m _ 8 _ a4 (by
        have : (256 : Nat) ^ 8 = 2 ^ 64 := by decide
        omega)
      simp only [List.map_cons]
      refine .cons p _ _ hp0 hlo (by omega) (holds_numAt m _ 4 _ b1 (n32 _))
        (holds_numAt m _ 4 _ b2 (n32 _)) (holds_numAt m _ 4 _ b3 (n32 _))
        (holds_numAt m _ 4 _ b4 (n32 _)) (holds_numAt m _ 4 _ b5 (hlen e (by simp))) ?_ ?_ ?_ ?_ ?_
      · rw [hsa]; omega
      · rw [hsa]; simp only [Info.seen]; omega
      · rw [hsa]; exact holds_bytesAt m sa e.addr a5
      · exact holds_numAt m _ 8 _ a3 (by
          have h64 : (256 : Nat) ^ 8 = 2 ^ 64 := by decide
          rw [h64]
          exact e.canon.isLt)
      · rw [hne]; exact hch
    cases es with
    | nil => exact key 0 (by omega) hs .nil
    | cons e2 es2 =>
      obtain ⟨hp, hs⟩ := hs
      refine key (p + 48) (by omega) hp ?_
      exact ih m (p + 48) (sa + e.addr.length) (by simp) (by omega) (by omega)
        (by simp only [List.length_cons] at *; omega) (by omega)
        (fun x hx => hlen x (by simp [hx])) hs

end Verif.AddrInfo
