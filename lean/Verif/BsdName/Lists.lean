import Verif.AddrInfo.Props
import Verif.NameEnd.Props
import Verif.BsdName.Model
import Verif.BsdName.Spec

/-!
# Address lists on FreeBSD (lemmas)
-/

namespace Verif.BsdName

open Verif.Bounds Verif.Strings Verif.Callback
open Verif.Net (Callee Policies configure)
open Verif.AddrInfo (Query Info Out Env Store leBytes applyStores infoSize extraOf blockSize copyHints leBytes_length Holds
  holds_write holds_frame holds_append holds_bytesAt holds_numAt applyStores_append AllocOk needed ListsFit allocInSandbox_one
  calleeOf)
open Verif.AddrInfo.Spec (numAt bytesAt Seen)
open Spec

theorem infoBytes_length (e : Info) : (infoBytes e).length = 48 := by
  simp [infoBytes, leBytes_length]

/-- One element in its final place, as `src/libsandbox.cc:554-563` should leave it. -/
def Placed (m : Mem) (p sa next : Nat) (e : Info) : Prop :=
  Holds m p e.head ∧ Holds m (p + 32) (leBytes 8 sa) ∧ Holds m (p + 24) (leBytes 8 e.canon.toNat) ∧
    Holds m (p + 40) (leBytes 8 next) ∧ Holds m sa e.addr

/-- A run of elements in their final places (`src/libsandbox.cc:552-563`); `last` is the next-pointer of the last one. -/
def Seg (m : Mem) (p sa last : Nat) : List Info → Prop
  | [] => True
  | [e] => Placed m p sa last e
  | e :: es => Placed m p sa (p + 48) e ∧ Seg m (p + 48) (sa + e.addr.length) last es

theorem placed_frame (m : Mem) (p sa next : Nat) (e : Info) (c : Nat) (cs : List Byte)
    (h : Placed m p sa next e) (hp : p + 48 < 2 ^ 64) (hs : sa + e.addr.length < 2 ^ 64)
    (hc : c + cs.length < 2 ^ 64) (hd : p + 48 ≤ c ∨ c + cs.length ≤ p)
    (hd2 : sa + e.addr.length ≤ c ∨ c + cs.length ≤ sa) :
    Placed (writeBytes m (BitVec.ofNat 64 c) cs) p sa next e := by
  obtain ⟨h1, h2, h3, h4, h5⟩ := h
  have hl := e.head_length
  refine ⟨holds_frame m p _ c cs h1 (by omega) hc (by omega),
    holds_frame m _ _ c cs h2 (by rw [leBytes_length]; omega) hc (by rw [leBytes_length]; omega),
    holds_frame m _ _ c cs h3 (by rw [leBytes_length]; omega) hc (by rw [leBytes_length]; omega),
    holds_frame m _ _ c cs h4 (by rw [leBytes_length]; omega) hc (by rw [leBytes_length]; omega),
    holds_frame m _ _ c cs h5 (by omega) hc hd2⟩

theorem copyLoop_nat (ais sa i : Nat) (e : Info) (es : List Info)
    (h1 : ais + 48 * (i + 1) < 2 ^ 64) (h2 : sa < 2 ^ 64) :
    copyLoop (BitVec.ofNat 64 ais) (BitVec.ofNat 64 sa) i (e :: es) =
      [⟨BitVec.ofNat 64 (ais + 48 * i), (infoBytes e)⟩, ⟨BitVec.ofNat 64 sa, e.addr⟩,
       ⟨BitVec.ofNat 64 (ais + 48 * i + 32), leBytes 8 sa⟩,
       ⟨BitVec.ofNat 64 (ais + 48 * i + 40), leBytes 8 (ais + 48 * (i + 1))⟩] ++
      copyLoop (BitVec.ofNat 64 ais) (BitVec.ofNat 64 (sa + e.addr.length)) (i + 1) es := by
  have e1 : (BitVec.ofNat 64 sa).toNat = sa := by simp; omega
  have e2 : (BitVec.ofNat 64 (ais + 48 * (i + 1))).toNat = ais + 48 * (i + 1) := by simp; omega
  conv => lhs; unfold copyLoop
  simp only [infoSize, ← BitVec.ofNat_add, e1, e2]
  simp only [BitVec.ofNat_add]
  rfl

theorem infoBytes_eq (e : Info) : infoBytes e =
    e.head ++ (leBytes 8 e.canon.toNat ++ (leBytes 8 e.hostAddr.toNat ++
      leBytes 8 e.hostNext.toNat)) := by
  simp [infoBytes, Info.head]

theorem copyLoop_run (ais : Nat) (es : List Info) : ∀ (m : Mem) (sa i : Nat),
    ais + 48 * (i + es.length) ≤ sa → sa + extraOf es < 2 ^ 64 →
    Seg (applyStores m (copyLoop (BitVec.ofNat 64 ais) (BitVec.ofNat 64 sa) i es))
      (ais + 48 * i) sa (ais + 48 * (i + es.length)) es ∧
    ∀ a bs, Holds m a bs → a + bs.length < 2 ^ 64 →
      (a + bs.length ≤ ais + 48 * i ∨
        (ais + 48 * (i + es.length) ≤ a ∧ a + bs.length ≤ sa) ∨ sa + extraOf es ≤ a) →
      Holds (applyStores m (copyLoop (BitVec.ofNat 64 ais) (BitVec.ofNat 64 sa) i es)) a bs := by
  induction es with
  | nil =>
    intro m sa i _ _
    exact ⟨trivial, fun a bs h _ _ => h⟩
  | cons e es ih =>
    intro m sa i h1 h2
    simp only [List.length_cons] at h1
    have hx : extraOf (e :: es) = e.addr.length + extraOf es := by simp [extraOf]
    rw [hx] at h2
    rw [copyLoop_nat ais sa i e es (by omega) (by omega), applyStores_append]
    have hbl := infoBytes_length e
    have hhl := e.head_length
    have l8 : ∀ v, (leBytes 8 v).length = 8 := leBytes_length 8
    generalize hm1 : applyStores m [⟨BitVec.ofNat 64 (ais + 48 * i), (infoBytes e)⟩,
      ⟨BitVec.ofNat 64 sa, e.addr⟩, ⟨BitVec.ofNat 64 (ais + 48 * i + 32), leBytes 8 sa⟩,
      ⟨BitVec.ofNat 64 (ais + 48 * i + 40), leBytes 8 (ais + 48 * (i + 1))⟩] = m1
    simp only [applyStores] at hm1
    have hplaced : Placed m1 (ais + 48 * i) sa (ais + 48 * (i + 1)) e := by
      subst hm1
      have w0 := holds_write m (ais + 48 * i) (infoBytes e) (by omega)
      have w0' := w0
      rw [infoBytes_eq e, holds_append, holds_append, holds_append, hhl, l8, l8] at w0'
      obtain ⟨a1, a2, a3, a4⟩ := w0'
      rw [← infoBytes_eq e] at a1 a2
      refine ⟨?_, ?_, ?_, ?_, ?_⟩
      · have := holds_frame _ _ _ sa e.addr a1 (by omega) (by omega) (by omega)
        have := holds_frame _ _ _ (ais + 48 * i + 32) (leBytes 8 sa) this (by omega)
          (by simp only [l8]; omega) (by simp only [l8]; omega)
        exact holds_frame _ _ _ (ais + 48 * i + 40) (leBytes 8 (ais + 48 * (i + 1))) this (by omega)
          (by simp only [l8]; omega) (by simp only [l8]; omega)
      · have := holds_write (writeBytes (writeBytes m (BitVec.ofNat 64 (ais + 48 * i)) (infoBytes e))
          (BitVec.ofNat 64 sa) e.addr) (ais + 48 * i + 32) (leBytes 8 sa) (by simp only [l8]; omega)
        exact holds_frame _ _ _ (ais + 48 * i + 40) (leBytes 8 (ais + 48 * (i + 1))) this
          (by simp only [l8]; omega) (by simp only [l8]; omega) (by simp only [l8]; omega)
      · have a3 : Holds (writeBytes m (BitVec.ofNat 64 (ais + 48 * i)) (infoBytes e))
            (ais + 48 * i + 24) (leBytes 8 e.canon.toNat) := a2
        have := holds_frame _ _ _ sa e.addr a3 (by simp only [l8]; omega) (by omega) (by simp only [l8]; omega)
        have := holds_frame _ _ _ (ais + 48 * i + 32) (leBytes 8 sa) this (by simp only [l8]; omega)
          (by simp only [l8]; omega) (by simp only [l8]; omega)
        exact holds_frame _ _ _ (ais + 48 * i + 40) (leBytes 8 (ais + 48 * (i + 1))) this
          (by simp only [l8]; omega) (by simp only [l8]; omega) (by simp only [l8]; omega)
      · exact holds_write _ _ _ (by simp only [l8]; omega)
      · have := holds_write (writeBytes m (BitVec.ofNat 64 (ais + 48 * i)) (infoBytes e)) sa e.addr
          (by omega)
        have := holds_frame _ _ _ (ais + 48 * i + 32) (leBytes 8 sa) this (by omega)
          (by simp only [l8]; omega) (by simp only [l8]; omega)
        exact holds_frame _ _ _ (ais + 48 * i + 40) (leBytes 8 (ais + 48 * (i + 1))) this (by omega)
          (by simp only [l8]; omega) (by simp only [l8]; omega)
    have hframe1 : ∀ a bs, Holds m a bs → a + bs.length < 2 ^ 64 →
        (a + bs.length ≤ ais + 48 * i ∨
          (ais + 48 * (i + 1) ≤ a ∧ a + bs.length ≤ sa) ∨ sa + e.addr.length ≤ a) →
        Holds m1 a bs := by
      intro a bs h ha hd
      subst hm1
      have := holds_frame _ _ _ (ais + 48 * i) (infoBytes e) h ha (by omega) (by omega)
      have := holds_frame _ _ _ sa e.addr this ha (by omega) (by omega)
      have := holds_frame _ _ _ (ais + 48 * i + 32) (leBytes 8 sa) this ha (by simp only [l8]; omega)
        (by simp only [l8]; omega)
      exact holds_frame _ _ _ (ais + 48 * i + 40) (leBytes 8 (ais + 48 * (i + 1))) this ha
        (by simp only [l8]; omega) (by simp only [l8]; omega)
    obtain ⟨hseg, hfr⟩ := ih m1 (sa + e.addr.length) (i + 1) (by omega) (by omega)
    constructor
    · have hp2 : Placed (applyStores m1 (copyLoop (BitVec.ofNat 64 ais)
          (BitVec.ofNat 64 (sa + e.addr.length)) (i + 1) es)) (ais + 48 * i) sa
          (ais + 48 * (i + 1)) e := by
        obtain ⟨a1, a2, a3, a4, a5⟩ := hplaced
        exact ⟨hfr _ _ a1 (by omega) (by omega), hfr _ _ a2 (by simp only [l8]; omega) (by simp only [l8]; omega),
          hfr _ _ a3 (by simp only [l8]; omega) (by simp only [l8]; omega),
          hfr _ _ a4 (by simp only [l8]; omega) (by simp only [l8]; omega),
          hfr _ _ a5 (by omega) (by omega)⟩
      cases es with
      | nil => exact hp2
      | cons e2 es2 =>
        refine ⟨hp2, ?_⟩
        have e1 : ais + 48 * (i + 1) = ais + 48 * i + 48 := by omega
        have e2 : i + 1 + (e2 :: es2).length = i + (e :: e2 :: es2).length := by simp; omega
        rw [e1, e2] at hseg
        exact hseg
    · intro a bs h ha hd
      rw [hx] at hd
      simp only [List.length_cons] at hd
      exact hfr a bs (hframe1 a bs h ha (by omega)) ha (by omega)

/-- Overwriting the last next-pointer with a terminator. -/
theorem seg_terminate (es : List Info) : ∀ (m : Mem) (p sa last : Nat),
    es ≠ [] → p + 48 * es.length ≤ sa → sa + extraOf es < 2 ^ 64 → Seg m p sa last es →
    Seg (writeBytes m (BitVec.ofNat 64 (p + 48 * (es.length - 1) + 40)) (leBytes 8 0)) p sa 0 es := by
  induction es with
  | nil => intro m p sa last h; exact absurd rfl h
  | cons e es ih =>
    intro m p sa last _ h1 h2 hs
    have hx : extraOf (e :: es) = e.addr.length + extraOf es := by simp [extraOf]
    have l8 : ∀ v, (leBytes 8 v).length = 8 := leBytes_length 8
    have hhl := e.head_length
    simp only [List.length_cons] at h1
    rw [hx] at h2
    cases es with
    | nil =>
      obtain ⟨a1, a2, a3, a4, a5⟩ := hs
      simp only [List.length_nil] at h1
      simp only [List.length_cons, List.length_nil, Nat.mul_zero, Nat.add_zero,
        Nat.zero_add, Nat.sub_self]
      exact ⟨holds_frame _ _ _ _ _ a1 (by omega) (by simp only [l8]; omega) (by omega),
        holds_frame _ _ _ _ _ a2 (by simp only [l8]; omega) (by simp only [l8]; omega) (by simp only [l8]; omega),
        holds_frame _ _ _ _ _ a3 (by simp only [l8]; omega) (by simp only [l8]; omega) (by simp only [l8]; omega),
        holds_write _ _ _ (by simp only [l8]; omega),
        holds_frame _ _ _ _ _ a5 (by omega) (by simp only [l8]; omega) (by simp only [l8]; omega)⟩
    | cons e2 es2 =>
      obtain ⟨hp, hs⟩ := hs
      have := ih m (p + 48) (sa + e.addr.length) last (by simp)
        (by simp only [List.length_cons] at *; omega) (by omega) hs
      have he : p + 48 + 48 * ((e2 :: es2).length - 1) + 40 =
          p + 48 * ((e :: e2 :: es2).length - 1) + 40 := by
        simp only [List.length_cons]; omega
      rw [he] at this
      refine ⟨placed_frame m p sa (p + 48) e _ _ hp (by omega) (by omega) ?_ ?_ ?_, this⟩
      · rw [l8]; simp only [List.length_cons] at *; omega
      · left; simp only [List.length_cons]; omega
      · right; rw [l8]; simp only [List.length_cons] at *; omega

theorem seg_frame (es : List Info) : ∀ (m : Mem) (p sa last c : Nat) (cs : List Byte),
    p + 48 * es.length ≤ sa → sa + extraOf es < 2 ^ 64 → c + cs.length < 2 ^ 64 →
    (sa + extraOf es ≤ c ∨ c + cs.length ≤ p) → Seg m p sa last es →
    Seg (writeBytes m (BitVec.ofNat 64 c) cs) p sa last es := by
  induction es with
  | nil => intros; trivial
  | cons e es ih =>
    intro m p sa last c cs h1 h2 h3 h4 hs
    have hx : extraOf (e :: es) = e.addr.length + extraOf es := by simp [extraOf]
    simp only [List.length_cons] at h1
    rw [hx] at h2 h4
    cases es with
    | nil => exact placed_frame m p sa last e c cs hs (by omega) (by omega) h3 (by omega) (by omega)
    | cons e2 es2 =>
      obtain ⟨hp, hs⟩ := hs
      exact ⟨placed_frame m p sa (p + 48) e c cs hp (by omega) (by omega) h3 (by omega) (by omega),
        ih m _ _ last c cs (by simp only [List.length_cons] at *; omega) (by omega) h3 (by omega) hs⟩

theorem seg_chain (lo hi : Nat) (hhi : hi < 2 ^ 64) (es : List Info) : ∀ (m : Mem) (p sa : Nat),
    es ≠ [] → p ≠ 0 → lo ≤ p → p + 48 * es.length ≤ sa → sa + extraOf es ≤ hi →
    (∀ e ∈ es, e.addr.length < 2 ^ 32) →
    Seg m p sa 0 es → Chain (asNat m) lo hi p (es.map Info.seen) := by
  induction es with
  | nil => intro m p sa h; exact absurd rfl h
  | cons e es ih =>
    intro m p sa _ hp0 hlo h1 h2 hlen hs
    have hx : extraOf (e :: es) = e.addr.length + extraOf es := by simp [extraOf]
    simp only [List.length_cons] at h1
    rw [hx] at h2
    have key : ∀ next, next < 2 ^ 64 → Placed m p sa next e →
        Chain (asNat m) lo hi next (es.map Info.seen) →
        Chain (asNat m) lo hi p ((e :: es).map Info.seen) := by
      intro next hnext hpl hch
      obtain ⟨a1, a2, a3, a4, a5⟩ := hpl
      unfold Info.head at a1
      simp only [holds_append, leBytes_length, List.length_append] at a1
      obtain ⟨⟨⟨⟨⟨b1, b2⟩, b3⟩, b4⟩, b5⟩, b6⟩ := a1
      have n32 : ∀ v : BitVec 32, v.toNat < 256 ^ 4 := fun v => v.isLt
      have hsa : numAt (asNat m) (p + 32) 8 = sa := holds_numAt m _ 8 _ a2 (by
        have : (256 : Nat) ^ 8 = 2 ^ 64 := by decide
        omega)
      have hne : numAt (asNat m) (p + 40) 8 = next := holds_numAt m _ 8 _ a4 (by
        have : (256 : Nat) ^ 8 = 2 ^ 64 := by decide
        omega)
      simp only [List.map_cons]
      refine .cons p _ _ hp0 hlo (by omega) (holds_numAt m _ 4 _ b1 (n32 _))
        (holds_numAt m _ 4 _ b2 (n32 _)) (holds_numAt m _ 4 _ b3 (n32 _))
        (holds_numAt m _ 4 _ b4 (n32 _)) (holds_numAt m _ 4 _ b5 (hlen e (by simp))) ?_ ?_ ?_ ?_ ?_
      · rw [hsa]; omega
      · rw [hsa]; simp only [Info.seen]; omega
      · rw [hsa]; exact holds_bytesAt m sa e.addr a5
      · exact holds_numAt m _ 8 _ a3 (by
          have h64 : (256 : Nat) ^ 8 = 2 ^ 64 := by decide
          rw [h64]
          exact e.canon.isLt)
      · rw [hne]; exact hch
    cases es with
    | nil => exact key 0 (by omega) hs .nil
    | cons e2 es2 =>
      obtain ⟨hp, hs⟩ := hs
      refine key (p + 48) (by omega) hp ?_
      exact ih m (p + 48) (sa + e.addr.length) (by simp) (by omega) (by omega)
        (by simp only [List.length_cons] at *; omega) (by omega)
        (fun x hx => hlen x (by simp [hx])) hs


theorem ask_some (v : Env) (slot : Word) (q : Query) (c : Callee)
    (h : calleeOf v.policies = some c) :
    ask v slot q = finish v slot (v.call c q).1 (v.call c q).2 [(c, q)] := by
  unfold calleeOf at h
  unfold ask Net.invoke
  split at h
  · simp at h
  · rename_i hp; simp only [Option.some.injEq] at h; subst h; rw [hp]
  · rename_i f hp
    rw [hp]
    cases f with
    | none => simp at h
    | some f => simp only [Option.map_some, Option.some.injEq] at h; subst h; rfl

theorem ask_none (v : Env) (slot : Word) (q : Query) (h : calleeOf v.policies = none) :
    ask v slot q = ⟨.ok ⟨-78, -1⟩, [], [], false⟩ ∨ ask v slot q = ⟨.throws, [], [], false⟩ := by
  unfold calleeOf at h
  unfold ask Net.invoke
  split at h
  · rename_i hp; rw [hp]; exact Or.inl rfl
  · simp at h
  · rename_i f hp
    rw [hp]
    cases f with
    | none => exact Or.inr rfl
    | some f => simp at h

/-- Every request either ends before the policy is asked, or ends as `ask` does. -/
theorem gai_shape (v : Env) (host service hints slot : Word) :
    (∃ res, handleGetaddrinfo v host service hints slot = ⟨res, [], [], false⟩) ∨
    ∃ q, contains v.hdr v.region slot 8 = true ∧
      handleGetaddrinfo v host service hints slot = ask v slot q := by
  unfold handleGetaddrinfo
  split
  · exact Or.inl ⟨_, rfl⟩
  · rename_i h1
    have h1 : contains v.hdr v.region slot 8 = true := by simpa using h1
    split
    · exact Or.inl ⟨_, rfl⟩
    · split
      · exact Or.inr ⟨_, h1, rfl⟩
      · exact Or.inl ⟨_, rfl⟩

/-- Sandbox memory is touched in one way only: the lookup succeeded with a non-empty list, and one
block of the needed size was allocated. -/
theorem gai_stores (v : Env) (host service hints slot : Word)
    (hst : (handleGetaddrinfo v host service hints slot).stores ≠ []) :
    ∃ c q p, (v.call c q).1.1 = 0 ∧ (v.call c q).2 ≠ [] ∧
      v.alloc (BitVec.ofNat 64 (needed (v.call c q).2)) = some p ∧
      contains v.hdr v.region slot 8 = true ∧
      handleGetaddrinfo v host service hints slot =
        ⟨.ok ⟨0, -1⟩, [(c, q)], fillBlock p slot (v.call c q).2, true⟩ := by
  rcases gai_shape v host service hints slot with ⟨res, h⟩ | ⟨q, hs, h⟩
  · rw [h] at hst; simp at hst
  · rcases hc : calleeOf v.policies with _ | c
    · rcases ask_none v slot q hc with h' | h' <;> rw [h, h'] at hst <;> simp at hst
    · rw [ask_some v slot q c hc] at h
      rw [h] at hst ⊢
      unfold finish at hst ⊢
      have hneeded : blockSize (v.call c q).2 = needed (v.call c q).2 := rfl
      rw [hneeded, allocInSandbox_one] at hst ⊢
      split at hst
      · rename_i h0
        split at hst
        · rename_i hne
          split at hst
          · simp at hst
          · rename_i p hp
            exact ⟨c, q, p, h0, hne, hp, hs, by rw [if_pos h0, if_pos hne]⟩
        · simp at hst
      · simp at hst

theorem copyLoop_inside (ais E : Nat) (es : List Info) : ∀ (sa i : Nat),
    ais + 48 * (i + es.length) ≤ sa → sa + extraOf es ≤ E → E < 2 ^ 64 →
    ∀ s ∈ copyLoop (BitVec.ofNat 64 ais) (BitVec.ofNat 64 sa) i es,
      ais ≤ s.addr.toNat ∧ s.addr.toNat + s.bytes.length ≤ E := by
  induction es with
  | nil => intro sa i _ _ _ s hs; simp [copyLoop] at hs
  | cons e es ih =>
    intro sa i h1 h2 hE s hs
    have hx : extraOf (e :: es) = e.addr.length + extraOf es := by simp [extraOf]
    simp only [List.length_cons] at h1
    rw [hx] at h2
    rw [copyLoop_nat ais sa i e es (by omega) (by omega)] at hs
    simp only [List.cons_append, List.nil_append, List.mem_cons] at hs
    have hb := infoBytes_length e
    rcases hs with rfl | rfl | rfl | rfl | hs
    · simp only [BitVec.toNat_ofNat]; omega
    · simp only [BitVec.toNat_ofNat]; omega
    · simp only [BitVec.toNat_ofNat, leBytes_length]; omega
    · simp only [BitVec.toNat_ofNat, leBytes_length]; omega
    · exact ih _ (i + 1) (by omega) (by omega) hE s hs

theorem fillBlock_nat (b : Word) (slot : Word) (es : List Info) :
    fillBlock b slot es =
      [⟨BitVec.ofNat 64 b.toNat, List.replicate (needed es) 0⟩] ++
      copyLoop (BitVec.ofNat 64 b.toNat) (BitVec.ofNat 64 (b.toNat + 48 * es.length)) 0 es ++
      [⟨BitVec.ofNat 64 (b.toNat + 48 * (es.length - 1) + 40), leBytes 8 0⟩,
       ⟨slot, leBytes 8 b.toNat⟩] := by
  unfold fillBlock
  simp only [infoSize, BitVec.ofNat_add, BitVec.ofNat_toNat, BitVec.setWidth_eq]
  rfl

/-- Every byte the parent stores in answer to a name lookup is either inside one block,
which the sandbox's own allocator returned for exactly the size needed by the result list, or is
one of the eight bytes of the caller's result slot, which lies inside the heap; and the block is
allocated once. -/
theorem gai_stores_inside (v : Env) (hwf : v.region.WF v.hdr) (hfit : ListsFit v.call)
    (halloc : AllocOk v.region v.alloc) (host service hints slot : Word)
    (hst : (handleGetaddrinfo v host service hints slot).stores ≠ []) :
    ∃ c q p n, (handleGetaddrinfo v host service hints slot).calls = [(c, q)] ∧
      (handleGetaddrinfo v host service hints slot).result = .ok ⟨0, -1⟩ ∧
      v.alloc n = some p ∧ n.toNat = needed (v.call c q).2 ∧
      v.region.base.toNat ≤ p.toNat ∧ p.toNat + n.toNat ≤ v.region.top.toNat ∧
      v.region.base.toNat + v.hdr.toNat ≤ slot.toNat ∧ slot.toNat + 8 ≤ v.region.top.toNat ∧
      ∀ s ∈ (handleGetaddrinfo v host service hints slot).stores,
        (p.toNat ≤ s.addr.toNat ∧ s.addr.toNat + s.bytes.length ≤ p.toNat + n.toNat) ∨
        (s.addr = slot ∧ s.bytes.length = 8) := by
  obtain ⟨c, q, p, h0, hne, hp, hslot, he⟩ := gai_stores v host service hints slot hst
  have hn : (BitVec.ofNat 64 (needed (v.call c q).2)).toNat = needed (v.call c q).2 := by
    have := (hfit c q).1
    simp only [BitVec.toNat_ofNat]; omega
  obtain ⟨a1, a2, a3⟩ := halloc _ _ hp
  rw [contains_iff v.hdr v.region hwf] at hslot
  have h8 : (8 : Word).toNat = 8 := rfl
  refine ⟨c, q, p, _, by rw [he], by rw [he], hp, hn, a1, a2, by omega, by omega, ?_⟩
  rw [he, fillBlock_nat p slot, hn]
  rw [hn] at a2
  have htop := v.region.top.isLt
  have hpos : 0 < (v.call c q).2.length := List.length_pos_iff.2 hne
  have hnx : needed (v.call c q).2 = 48 * (v.call c q).2.length + extraOf (v.call c q).2 := rfl
  intro s hs
  simp only [List.mem_append, List.mem_cons, List.not_mem_nil, or_false] at hs
  rcases hs with (rfl | hs) | (rfl | rfl)
  · left
    simp only [BitVec.toNat_ofNat, List.length_replicate]
    omega
  · left
    exact copyLoop_inside p.toNat (p.toNat + needed (v.call c q).2) _ _ 0 (by omega) (by omega)
      (by omega) s hs
  · left
    simp only [BitVec.toNat_ofNat, leBytes_length]
    omega
  · right
    exact ⟨rfl, leBytes_length 8 _⟩

/-- After a successful lookup, the result slot holds a pointer to a
null-terminated list inside the allocated block, with the same elements in the same order and the
same socket-address bytes; every `ai_addr` and `ai_next` is null or points into the block.  The slot must not overlap the fresh
block. -/
theorem gai_list_partial (v : Env) (hfit : ListsFit v.call)
    (halloc : AllocOk v.region v.alloc) (host service hints slot : Word) (m : Mem)
    (hst : (handleGetaddrinfo v host service hints slot).stores ≠ []) :
    ∃ c q p n, (handleGetaddrinfo v host service hints slot).calls = [(c, q)] ∧
      (handleGetaddrinfo v host service hints slot).result = .ok ⟨0, -1⟩ ∧
      v.alloc n = some p ∧ n.toNat = needed (v.call c q).2 ∧
      (slot.toNat + 8 ≤ p.toNat ∨ p.toNat + n.toNat ≤ slot.toNat ∧ slot.toNat + 8 < 2 ^ 64 →
        let m' := asNat (applyStores m (handleGetaddrinfo v host service hints slot).stores)
        numAt m' slot.toNat 8 = p.toNat ∧
        Chain m' p.toNat (p.toNat + n.toNat) p.toNat ((v.call c q).2.map Info.seen)) := by
  obtain ⟨c, q, p, h0, hne, hp, hslot, he⟩ := gai_stores v host service hints slot hst
  have hn : (BitVec.ofNat 64 (needed (v.call c q).2)).toNat = needed (v.call c q).2 := by
    have := (hfit c q).1
    simp only [BitVec.toNat_ofNat]; omega
  obtain ⟨a1, a2, a3⟩ := halloc _ _ hp
  refine ⟨c, q, p, _, by rw [he], by rw [he], hp, hn, ?_⟩
  intro hdis
  rw [hn] at a2 hdis ⊢
  have htop := v.region.top.isLt
  have hp0 : p.toNat ≠ 0 := by
    intro h
    exact a3 (BitVec.eq_of_toNat_eq (by simpa using h))
  have hpos : 0 < (v.call c q).2.length := List.length_pos_iff.2 hne
  have hnx : needed (v.call c q).2 = 48 * (v.call c q).2.length + extraOf (v.call c q).2 := rfl
  have hfit2 := (hfit c q).2
  rw [he, fillBlock_nat p slot]
  generalize hes : (v.call c q).2 = es at *
  simp only [List.append_assoc]
  rw [applyStores_append, applyStores_append]
  generalize applyStores m [⟨BitVec.ofNat 64 p.toNat, List.replicate (needed es) 0⟩] = m1
  obtain ⟨hseg, -⟩ := copyLoop_run p.toNat es m1 (p.toNat + 48 * es.length) 0 (by omega) (by omega)
  generalize applyStores m1 (copyLoop (BitVec.ofNat 64 p.toNat)
    (BitVec.ofNat 64 (p.toNat + 48 * es.length)) 0 es) = m2 at hseg ⊢
  simp only [Nat.mul_zero, Nat.add_zero] at hseg
  have hseg := seg_terminate es m2 p.toNat (p.toNat + 48 * es.length) _ hne (by omega) (by omega)
    hseg
  simp only [applyStores]
  generalize writeBytes m2 (BitVec.ofNat 64 (p.toNat + 48 * (es.length - 1) + 40)) (leBytes 8 0)
    = m3 at hseg ⊢
  have hsl : slot = BitVec.ofNat 64 slot.toNat := by simp
  have hs64 : slot.toNat + 8 < 2 ^ 64 := by omega
  refine ⟨?_, ?_⟩
  · have hw := holds_write m3 slot.toNat (leBytes 8 p.toNat) (by rw [leBytes_length]; omega)
    rw [← hsl] at hw
    exact holds_numAt _ _ _ _ hw (by
      have h64 : (256 : Nat) ^ 8 = 2 ^ 64 := by decide
      rw [h64]; exact p.isLt)
  · have hseg := seg_frame es m3 p.toNat (p.toNat + 48 * es.length) 0 slot.toNat
      (leBytes 8 p.toNat) (by omega) (by omega) (by rw [leBytes_length]; omega)
      (by rw [leBytes_length]; omega) hseg
    rw [← hsl] at hseg
    exact seg_chain p.toNat (p.toNat + needed es) (by omega) es _ p.toNat
      (p.toNat + 48 * es.length) hne hp0 (by omega) (by omega) (by omega) hfit2 hseg

/-- In a list that memory holds, every element's canonical-name pointer is at the place of some element. -/
theorem chain_canon {m : Nat → Byte} {lo hi p : Nat} {es : List Seen} (h : Chain m lo hi p es) :
    ∀ e ∈ es, ∃ a, lo ≤ a ∧ a + 48 ≤ hi ∧ numAt m (a + 24) 8 = e.canon := by
  induction h with
  | nil => intro e he; cases he
  | cons p e es _ h1 h2 _ _ _ _ _ _ _ _ hc _ ih =>
    intro x hx
    rcases List.mem_cons.1 hx with rfl | hx
    · exact ⟨p, h1, h2, hc⟩
    · exact ih x hx

end Verif.BsdName
