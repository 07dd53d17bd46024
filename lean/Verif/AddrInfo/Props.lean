import Verif.Net.Props
import Verif.AddrInfo.Lemmas

/-!
# `getaddrinfo` requests (properties C20, C21)
-/

namespace Verif.AddrInfo

open Verif.Bounds Verif.Strings Verif.Callback Verif.Net Spec

/-- The sandbox allocator returns blocks inside the heap, never null (law of snmalloc and of the
range it works on; see the trusted base). -/
def AllocOk (r : Region) (alloc : Word → Option Word) : Prop :=
  ∀ n p, alloc n = some p → r.base.toNat ≤ p.toNat ∧ p.toNat + n.toNat ≤ r.top.toNat ∧ p ≠ 0

/-- The size needed for a result list: 48 bytes per element and the socket addresses. -/
def needed (es : List Info) : Nat := 48 * es.length + (es.map (fun e => e.addr.length)).sum

/-- All result lists of the callee fit in memory. -/
def ListsFit (call : Callee → Query → (Int × Int) × List Info) : Prop :=
  ∀ c q, needed (call c q).2 < 2 ^ 64 ∧ ∀ e ∈ (call c q).2, e.addr.length < 2 ^ 32

theorem allocInSandbox_one (alloc : Word → Option Word) (n : Nat) :
    (allocInSandbox alloc 1 (BitVec.ofNat 64 n)).1 = alloc (BitVec.ofNat 64 n) := by
  have h1 : (1 : Word).toNat = 1 := rfl
  have h : (1 : Word).toNat * (BitVec.ofNat 64 n).toNat < 2 ^ 64 := by
    rw [h1, Nat.one_mul]; exact (BitVec.ofNat 64 n).isLt
  obtain ⟨sz, h2, h3⟩ := (allocInSandbox_exact alloc 1 (BitVec.ofNat 64 n)).2 h
  rw [h3]
  have : sz = BitVec.ofNat 64 n := by
    apply BitVec.eq_of_toNat_eq
    rw [h2, h1, Nat.one_mul]
  rw [this]

/-- The policy in force for a lookup: which callee, if any. -/
def calleeOf (ps : Policies) : Option Callee :=
  match ps.get .getAddrInfo with
  | .deny => none
  | .allow => some (.system .getAddrInfo)
  | .handler f => f.map .callback

theorem ask_some (v : Env) (slot : Word) (q : Query) (c : Callee)
    (h : calleeOf v.policies = some c) :
    ask v slot q = finish v slot (v.call c q).1 (v.call c q).2 [(c, q)] := by
  unfold calleeOf at h
  unfold ask Net.invoke
  split at h
  · simp at h
  · rename_i hp; simp only [Option.some.injEq] at h; subst h; rw [hp]
  · rename_i f hp
    rw [hp]
    cases f with
    | none => simp at h
    | some f => simp only [Option.map_some, Option.some.injEq] at h; subst h; rfl

theorem ask_none (v : Env) (slot : Word) (q : Query) (h : calleeOf v.policies = none) :
    ask v slot q = ⟨.ok ⟨-38, -1⟩, [], [], false⟩ ∨ ask v slot q = ⟨.throws, [], [], false⟩ := by
  unfold calleeOf at h
  unfold ask Net.invoke
  split at h
  · rename_i hp; rw [hp]; exact Or.inl rfl
  · simp at h
  · rename_i f hp
    rw [hp]
    cases f with
    | none => exact Or.inr rfl
    | some f => simp at h

/-- Every request either ends before the policy is asked, or ends as `ask` does. -/
theorem gai_shape (v : Env) (host service hints slot : Word) :
    (∃ res, handleGetaddrinfo v host service hints slot = ⟨res, [], [], false⟩) ∨
    ∃ q, contains v.hdr v.region slot 8 = true ∧
      handleGetaddrinfo v host service hints slot = ask v slot q := by
  unfold handleGetaddrinfo
  split
  · exact Or.inl ⟨_, rfl⟩
  · rename_i h1
    have h1 : contains v.hdr v.region slot 8 = true := by simpa using h1
    split
    · exact Or.inl ⟨_, rfl⟩
    · split
      · exact Or.inr ⟨_, h1, rfl⟩
      · exact Or.inl ⟨_, rfl⟩

/-- Sandbox memory is touched in one way only: the lookup succeeded with a non-empty list, and one
block of the needed size was allocated. -/
theorem gai_stores (v : Env) (host service hints slot : Word)
    (hst : (handleGetaddrinfo v host service hints slot).stores ≠ []) :
    ∃ c q p, (v.call c q).1.1 = 0 ∧ (v.call c q).2 ≠ [] ∧
      v.alloc (BitVec.ofNat 64 (needed (v.call c q).2)) = some p ∧
      contains v.hdr v.region slot 8 = true ∧
      handleGetaddrinfo v host service hints slot =
        ⟨.ok ⟨0, -1⟩, [(c, q)], fillBlock p slot (v.call c q).2, true⟩ := by
  rcases gai_shape v host service hints slot with ⟨res, h⟩ | ⟨q, hs, h⟩
  · rw [h] at hst; simp at hst
  · rcases hc : calleeOf v.policies with _ | c
    · rcases ask_none v slot q hc with h' | h' <;> rw [h, h'] at hst <;> simp at hst
    · rw [ask_some v slot q c hc] at h
      rw [h] at hst ⊢
      unfold finish at hst ⊢
      have hneeded : blockSize (v.call c q).2 = needed (v.call c q).2 := rfl
      rw [hneeded, allocInSandbox_one] at hst ⊢
      split at hst
      · rename_i h0
        split at hst
        · rename_i hne
          split at hst
          · simp at hst
          · rename_i p hp
            exact ⟨c, q, p, h0, hne, hp, hs, by rw [if_pos h0, if_pos hne]⟩
        · simp at hst
      · simp at hst

theorem copyLoop_inside (ais E : Nat) (es : List Info) : ∀ (sa i : Nat),
    ais + 48 * (i + es.length) ≤ sa → sa + extraOf es ≤ E → E < 2 ^ 64 →
    ∀ s ∈ copyLoop (BitVec.ofNat 64 ais) (BitVec.ofNat 64 sa) i es,
      ais ≤ s.addr.toNat ∧ s.addr.toNat + s.bytes.length ≤ E := by
  induction es with
  | nil => intro sa i _ _ _ s hs; simp [copyLoop] at hs
  | cons e es ih =>
    intro sa i h1 h2 hE s hs
    have hx : extraOf (e :: es) = e.addr.length + extraOf es := by simp [extraOf]
    simp only [List.length_cons] at h1
    rw [hx] at h2
    rw [copyLoop_nat ais sa i e es (by omega) (by omega)] at hs
    simp only [List.cons_append, List.nil_append, List.mem_cons] at hs
    have hb := e.bytes_length
    rcases hs with rfl | rfl | rfl | rfl | hs
    · simp only [BitVec.toNat_ofNat]; omega
    · simp only [BitVec.toNat_ofNat]; omega
    · simp only [BitVec.toNat_ofNat, leBytes_length]; omega
    · simp only [BitVec.toNat_ofNat, leBytes_length]; omega
    · exact ih _ (i + 1) (by omega) (by omega) hE s hs

theorem fillBlock_nat (b : Word) (slot : Word) (es : List Info) :
    fillBlock b slot es =
      [⟨BitVec.ofNat 64 b.toNat, List.replicate (needed es) 0⟩] ++
      copyLoop (BitVec.ofNat 64 b.toNat) (BitVec.ofNat 64 (b.toNat + 48 * es.length)) 0 es ++
      [⟨BitVec.ofNat 64 (b.toNat + 48 * (es.length - 1) + 40), leBytes 8 0⟩,
       ⟨slot, leBytes 8 b.toNat⟩] := by
  unfold fillBlock
  simp only [infoSize, BitVec.ofNat_add, BitVec.ofNat_toNat, BitVec.setWidth_eq]
  rfl

/-- **C20.** Every byte the parent stores in answer to a name lookup is either inside one block,
which the sandbox's own allocator returned for exactly the size needed by the result list, or is
one of the eight bytes of the caller's result slot, which lies inside the heap; and the block is
allocated once. -/
theorem gai_stores_inside (v : Env) (hwf : v.region.WF v.hdr) (hfit : ListsFit v.call)
    (halloc : AllocOk v.region v.alloc) (host service hints slot : Word)
    (hst : (handleGetaddrinfo v host service hints slot).stores ≠ []) :
    ∃ c q p n, (handleGetaddrinfo v host service hints slot).calls = [(c, q)] ∧
      (handleGetaddrinfo v host service hints slot).result = .ok ⟨0, -1⟩ ∧
      v.alloc n = some p ∧ n.toNat = needed (v.call c q).2 ∧
      v.region.base.toNat ≤ p.toNat ∧ p.toNat + n.toNat ≤ v.region.top.toNat ∧
      v.region.base.toNat + v.hdr.toNat ≤ slot.toNat ∧ slot.toNat + 8 ≤ v.region.top.toNat ∧
      ∀ s ∈ (handleGetaddrinfo v host service hints slot).stores,
        (p.toNat ≤ s.addr.toNat ∧ s.addr.toNat + s.bytes.length ≤ p.toNat + n.toNat) ∨
        (s.addr = slot ∧ s.bytes.length = 8) := by
  obtain ⟨c, q, p, h0, hne, hp, hslot, he⟩ := gai_stores v host service hints slot hst
  have hn : (BitVec.ofNat 64 (needed (v.call c q).2)).toNat = needed (v.call c q).2 := by
    have := (hfit c q).1
    simp only [BitVec.toNat_ofNat]; omega
  obtain ⟨a1, a2, a3⟩ := halloc _ _ hp
  rw [contains_iff v.hdr v.region hwf] at hslot
  have h8 : (8 : Word).toNat = 8 := rfl
  refine ⟨c, q, p, _, by rw [he], by rw [he], hp, hn, a1, a2, by omega, by omega, ?_⟩
  rw [he, fillBlock_nat p slot, hn]
  rw [hn] at a2
  have htop := v.region.top.isLt
  have hpos : 0 < (v.call c q).2.length := List.length_pos_iff.2 hne
  have hnx : needed (v.call c q).2 = 48 * (v.call c q).2.length + extraOf (v.call c q).2 := rfl
  intro s hs
  simp only [List.mem_append, List.mem_cons, List.not_mem_nil, or_false] at hs
  rcases hs with (rfl | hs) | (rfl | rfl)
  · left
    simp only [BitVec.toNat_ofNat, List.length_replicate]
    omega
  · left
    exact copyLoop_inside p.toNat (p.toNat + needed (v.call c q).2) _ _ 0 (by omega) (by omega)
      (by omega) s hs
  · left
    simp only [BitVec.toNat_ofNat, leBytes_length]
    omega
  · right
    exact ⟨rfl, leBytes_length 8 _⟩

/-- **C20.** A request whose result slot, or whose non-null hints, are not inside the heap is
refused: the policy is not asked and nothing is stored. -/
theorem gai_refused (v : Env) (hwf : v.region.WF v.hdr) (host service hints slot : Word) :
    (¬ (v.region.base.toNat + v.hdr.toNat ≤ slot.toNat ∧ slot.toNat + 8 ≤ v.region.top.toNat) →
      handleGetaddrinfo v host service hints slot = ⟨.ok ⟨-10, -1⟩, [], [], false⟩) ∧
    (v.region.base.toNat + v.hdr.toNat ≤ slot.toNat ∧ slot.toNat + 8 ≤ v.region.top.toNat →
      hints ≠ 0 →
      ¬ (v.region.base.toNat + v.hdr.toNat ≤ hints.toNat ∧
        hints.toNat + 48 ≤ v.region.top.toNat) →
      handleGetaddrinfo v host service hints slot = ⟨.ok ⟨-1, -1⟩, [], [], false⟩) := by
  have h8 : (8 : Word).toNat = 8 := rfl
  have h48 : (BitVec.ofNat 64 infoSize).toNat = 48 := rfl
  constructor
  · intro hbad
    unfold handleGetaddrinfo
    rw [if_pos]
    · rfl
    · rw [Bool.eq_false_iff]
      intro hc
      rw [contains_iff v.hdr v.region hwf] at hc
      omega
  · intro hslot hh hbad
    unfold handleGetaddrinfo
    rw [if_neg, if_pos]
    · rfl
    · refine ⟨hh, ?_⟩
      rw [Bool.eq_false_iff]
      intro hc
      rw [contains_iff v.hdr v.region hwf] at hc
      omega
    · rw [Bool.not_eq_false, contains_iff v.hdr v.region hwf]
      omega

/-- Two results used in the examples. -/
def exInfos : List Info :=
  [⟨0, 2, 1, 6, [2, 0, 0, 80], 0, 0x7f0000001000, 0, 0x7f0000002000⟩,
   ⟨0, 2, 2, 17, [2, 0, 0, 53, 9], 0, 0x7f0000001100, 0, 0⟩]

/-- An environment used in the examples: everything allowed, the callee returns `exInfos`, the
allocator returns `0x18000`. -/
def exEnv : Env where
  hdr := 0x100
  region := ⟨0x10000, 0x20000⟩
  malloc := fun n => some (List.replicate n 0xAA)
  policies := configure [.allow .getAddrInfo]
  call := fun _ _ => ((0, 0), exInfos)
  alloc := fun n => if n.toNat ≤ 0x1000 then some 0x18000 else none
  rdHost := (fun _ => 0, fun _ => 0)
  rdService := (fun _ => 0, fun _ => 0)
  rdHints := fun _ => 0

theorem exEnv_ok : exEnv.region.WF exEnv.hdr ∧ ListsFit exEnv.call ∧
    AllocOk exEnv.region exEnv.alloc := by
  refine ⟨by decide, ?_, ?_⟩
  · intro c q
    have h : needed exInfos < 2 ^ 64 ∧ ∀ e ∈ exInfos, e.addr.length < 2 ^ 32 := by decide
    exact h
  · intro n p h
    simp only [exEnv] at h ⊢
    split at h
    · simp only [Option.some.injEq] at h
      subst h
      refine ⟨by decide, ?_, by decide⟩
      have : (0x18000 : Word).toNat = 0x18000 := rfl
      have : (0x20000 : Word).toNat = 0x20000 := rfl
      omega
    · simp at h

/-- The hypotheses of `gai_stores_inside` can be met. -/
example : (handleGetaddrinfo exEnv 0x11000 0x11000 0 0x12000).stores ≠ [] := by decide +kernel

/-- **C21 (part that holds).** After a successful lookup, the result slot holds a pointer to a
null-terminated list inside the allocated block, with the same elements in the same order and the
same socket-address bytes; every `ai_addr` and `ai_next` is null or points into the block.  What is
missing for the full property: the canonical-name pointer is copied as it is, so it is a pointer
into the sandbox only if it was null (see `gai_canon_leak`).  The slot must not overlap the fresh
block. -/
theorem gai_list_partial (v : Env) (hfit : ListsFit v.call)
    (halloc : AllocOk v.region v.alloc) (host service hints slot : Word) (m : Mem)
    (hst : (handleGetaddrinfo v host service hints slot).stores ≠ []) :
    ∃ c q p n, (handleGetaddrinfo v host service hints slot).calls = [(c, q)] ∧
      (handleGetaddrinfo v host service hints slot).result = .ok ⟨0, -1⟩ ∧
      v.alloc n = some p ∧ n.toNat = needed (v.call c q).2 ∧
      (slot.toNat + 8 ≤ p.toNat ∨ p.toNat + n.toNat ≤ slot.toNat ∧ slot.toNat + 8 < 2 ^ 64 →
        let m' := asNat (applyStores m (handleGetaddrinfo v host service hints slot).stores)
        numAt m' slot.toNat 8 = p.toNat ∧
        Chain m' p.toNat (p.toNat + n.toNat) p.toNat ((v.call c q).2.map Info.seen)) := by
  obtain ⟨c, q, p, h0, hne, hp, hslot, he⟩ := gai_stores v host service hints slot hst
  have hn : (BitVec.ofNat 64 (needed (v.call c q).2)).toNat = needed (v.call c q).2 := by
    have := (hfit c q).1
    simp only [BitVec.toNat_ofNat]; omega
  obtain ⟨a1, a2, a3⟩ := halloc _ _ hp
  refine ⟨c, q, p, _, by rw [he], by rw [he], hp, hn, ?_⟩
  intro hdis
  rw [hn] at a2 hdis ⊢
  have htop := v.region.top.isLt
  have hp0 : p.toNat ≠ 0 := by
    intro h
    exact a3 (BitVec.eq_of_toNat_eq (by simpa using h))
  have hpos : 0 < (v.call c q).2.length := List.length_pos_iff.2 hne
  have hnx : needed (v.call c q).2 = 48 * (v.call c q).2.length + extraOf (v.call c q).2 := rfl
  have hfit2 := (hfit c q).2
  rw [he, fillBlock_nat p slot]
  generalize hes : (v.call c q).2 = es at *
  simp only [List.append_assoc]
  rw [applyStores_append, applyStores_append]
  generalize applyStores m [⟨BitVec.ofNat 64 p.toNat, List.replicate (needed es) 0⟩] = m1
  obtain ⟨hseg, -⟩ := copyLoop_run p.toNat es m1 (p.toNat + 48 * es.length) 0 (by omega) (by omega)
  generalize applyStores m1 (copyLoop (BitVec.ofNat 64 p.toNat)
    (BitVec.ofNat 64 (p.toNat + 48 * es.length)) 0 es) = m2 at hseg ⊢
  simp only [Nat.mul_zero, Nat.add_zero] at hseg
  have hseg := seg_terminate es m2 p.toNat (p.toNat + 48 * es.length) _ hne (by omega) (by omega)
    hseg
  simp only [applyStores]
  generalize writeBytes m2 (BitVec.ofNat 64 (p.toNat + 48 * (es.length - 1) + 40)) (leBytes 8 0)
    = m3 at hseg ⊢
  have hsl : slot = BitVec.ofNat 64 slot.toNat := by simp
  have hs64 : slot.toNat + 8 < 2 ^ 64 := by omega
  refine ⟨?_, ?_⟩
  · have hw := holds_write m3 slot.toNat (leBytes 8 p.toNat) (by rw [leBytes_length]; omega)
    rw [← hsl] at hw
    exact holds_numAt _ _ _ _ hw (by
      have h64 : (256 : Nat) ^ 8 = 2 ^ 64 := by decide
      rw [h64]; exact p.isLt)
  · have hseg := seg_frame es m3 p.toNat (p.toNat + 48 * es.length) 0 slot.toNat
      (leBytes 8 p.toNat) (by omega) (by omega) (by rw [leBytes_length]; omega)
      (by rw [leBytes_length]; omega) hseg
    rw [← hsl] at hseg
    exact seg_chain p.toNat (p.toNat + needed es) (by omega) es _ p.toNat
      (p.toNat + 48 * es.length) hne hp0 (by omega) (by omega) (by omega) hfit2 hseg

/-- The hypotheses can be met: the slot `0x12000` and the block at `0x18000` are disjoint, and
there are two elements. -/
example : (0x12000 : Word).toNat + 8 ≤ (0x18000 : Word).toNat ∧ exInfos.length = 2 := by decide

/-- In a list that memory holds, every element's canonical-name pointer is at the place of some element. -/
theorem chain_canon {m : Nat → Byte} {lo hi p : Nat} {es : List Seen} (h : Chain m lo hi p es) :
    ∀ e ∈ es, ∃ a, lo ≤ a ∧ a + 48 ≤ hi ∧ numAt m (a + 32) 8 = e.canon := by
  induction h with
  | nil => intro e he; cases he
  | cons p e es _ h1 h2 _ _ _ _ _ _ _ _ hc _ ih =>
    intro x hx
    rcases List.mem_cons.1 hx with rfl | hx
    · exact ⟨p, h1, h2, hc⟩
    · exact ih x hx

/-- **C21, violation, for every lookup.** Whatever canonical-name pointers the host's resolver gives, after a lookup that
wrote to the sandbox each of them is in the block that the sandbox was given, at the place of an element. -/
theorem gai_canon_copied (v : Env) (hfit : ListsFit v.call)
    (halloc : AllocOk v.region v.alloc) (host service hints slot : Word) (m : Mem)
    (hst : (handleGetaddrinfo v host service hints slot).stores ≠ []) :
    ∃ c q p n, (handleGetaddrinfo v host service hints slot).calls = [(c, q)] ∧ v.alloc n = some p ∧
      (slot.toNat + 8 ≤ p.toNat ∨ p.toNat + n.toNat ≤ slot.toNat ∧ slot.toNat + 8 < 2 ^ 64 →
        ∀ e ∈ (v.call c q).2, ∃ a, p.toNat ≤ a ∧ a + 48 ≤ p.toNat + n.toNat ∧
          numAt (asNat (applyStores m (handleGetaddrinfo v host service hints slot).stores)) (a + 32) 8 =
            e.canon.toNat) := by
  obtain ⟨c, q, p, n, h1, -, h3, -, h5⟩ := gai_list_partial v hfit halloc host service hints slot m hst
  refine ⟨c, q, p, n, h1, h3, fun hd e he => ?_⟩
  exact chain_canon (h5 hd).2 e.seen (List.mem_map_of_mem he)

/-- The hypotheses can be met: the lookup of the example writes, and the slot is before the block. -/
example : ListsFit exEnv.call ∧ AllocOk exEnv.region exEnv.alloc ∧
    (handleGetaddrinfo exEnv 0x11000 0x11000 0 0x12000).stores ≠ [] ∧
    (0x12000 : Word).toNat + 8 ≤ (0x18000 : Word).toNat :=
  ⟨exEnv_ok.2.1, exEnv_ok.2.2, by decide +kernel, by decide⟩

/-- **C21, violation.** If the result carries a canonical name (as it does whenever the sandbox sets
`AI_CANONNAME`), the host address of that name ends up in sandbox memory. -/
theorem gai_canon_leak :
    ∃ (v : Env) (slot p : Word) (host : Word), (exEnv.region.WF exEnv.hdr) ∧
      v.alloc 48 = some p ∧
      ¬ (v.region.base.toNat ≤ host.toNat ∧ host.toNat < v.region.top.toNat) ∧
      numAt (asNat (applyStores (fun _ => 0) (handleGetaddrinfo v 0x11000 0x11000 0 slot).stores))
        (p.toNat + 32) 8 = host.toNat ∧ host ≠ 0 := by
  refine ⟨{ exEnv with call := fun _ _ => ((0, 0), [⟨0, 2, 1, 6, [], 0, 0, 0x7f0000003000, 0⟩]) },
    0x12000, 0x18000, 0x7f0000003000, by decide, by decide +kernel, by decide, by decide +kernel,
    by decide⟩

/-- **C21, violation.** For every successful non-empty lookup there is a moment (after the second
store) when the sandbox's memory holds the host's own `ai_addr` and `ai_next` pointers and the
padding bytes of the host's structure. -/
theorem gai_transient_leak (m : Mem) (b slot : Word) (e : Info) (es : List Info)
    (hb : b.toNat + needed (e :: es) < 2 ^ 64) :
    let m' := asNat (applyStores m ((fillBlock b slot (e :: es)).take 2))
    numAt m' (b.toNat + 24) 8 = e.hostAddr.toNat ∧ numAt m' (b.toNat + 40) 8 = e.hostNext.toNat ∧
      numAt m' (b.toNat + 20) 4 = e.pad.toNat := by
  have hneed : 48 ≤ needed (e :: es) := by simp only [needed, List.length_cons]; omega
  have h48 : needed (e :: es) ≥ 48 * (0 + 1) := by omega
  have ht : (fillBlock b slot (e :: es)).take 2 =
      [⟨b, List.replicate (needed (e :: es)) 0⟩, ⟨BitVec.ofNat 64 b.toNat, e.bytes⟩] := by
    rw [fillBlock_nat b slot, copyLoop_nat _ _ _ _ _ (by omega) (by
      simp only [needed, List.length_cons] at hb ⊢; omega)]
    simp
  simp only [ht, applyStores]
  have w := holds_write (writeBytes m b (List.replicate (needed (e :: es)) 0)) b.toNat e.bytes (by
    rw [e.bytes_length]; omega)
  rw [e.bytes_eq] at w
  unfold Info.head at w
  simp only [holds_append, leBytes_length, List.length_append] at w
  obtain ⟨⟨⟨⟨⟨⟨-, -⟩, -⟩, -⟩, -⟩, w5⟩, w6, w7, w8⟩ := w
  rw [← Info.head.eq_def, ← e.bytes_eq] at w5 w6 w8
  have h64 : (256 : Nat) ^ 8 = 2 ^ 64 := by decide
  refine ⟨holds_numAt _ _ 8 _ w6 (by rw [h64]; exact e.hostAddr.isLt),
    holds_numAt _ _ 8 _ w8 (by rw [h64]; exact e.hostNext.isLt),
    holds_numAt _ _ 4 _ w5 e.pad.isLt⟩

/-- The hypothesis can be met. -/
example : (0x18000 : Word).toNat + needed exInfos < 2 ^ 64 := by decide

/-- **C21, finding.** When the callee reports an error, the reply is `-errno`, whatever the error
code: all `EAI_*` codes of Linux are negative and so are treated like a failed system call. -/
theorem gai_error_mangled (v : Env) (slot : Word) (q : Query) (c : Callee)
    (h : calleeOf v.policies = some c) (hneg : (v.call c q).1.1 < 0) :
    (ask v slot q).result = .ok ⟨-(v.call c q).1.2, -1⟩ := by
  rw [ask_some v slot q c h]
  unfold finish
  rw [if_neg (by omega), if_neg (by omega)]

/-- The hypotheses can be met: the system's lookup fails with `EAI_NONAME` (-2). -/
example : calleeOf (configure [.allow .getAddrInfo]) = some (.system .getAddrInfo) ∧
    ((-2 : Int) < 0) := by decide

/-- **C20, finding.** If the block cannot be allocated the result list is not freed, and the reply is
`-errno` instead of `EAI_MEMORY`. -/
theorem gai_alloc_failure (v : Env) (slot : Word) (q : Query) (c : Callee)
    (h : calleeOf v.policies = some c) (h0 : (v.call c q).1.1 = 0) (hne : (v.call c q).2 ≠ [])
    (ha : v.alloc (BitVec.ofNat 64 (needed (v.call c q).2)) = none) :
    ask v slot q = ⟨.ok ⟨-(v.call c q).1.2, -1⟩, [(c, q)], [], false⟩ := by
  rw [ask_some v slot q c h]
  unfold finish
  have hneeded : blockSize (v.call c q).2 = needed (v.call c q).2 := rfl
  rw [hneeded, allocInSandbox_one, if_pos h0, if_pos hne, ha]
  rfl

/-- The hypotheses can be met. -/
example : ({ exEnv with alloc := fun _ => none } : Env).alloc
    (BitVec.ofNat 64 (needed exInfos)) = none ∧ exInfos ≠ [] := by decide

/-- **C20, finding.** A successful lookup with an empty list reports success without writing the
result slot. -/
theorem gai_empty_list (v : Env) (slot : Word) (q : Query) (c : Callee)
    (h : calleeOf v.policies = some c) (h0 : (v.call c q).1.1 = 0) (hnil : (v.call c q).2 = []) :
    ask v slot q = ⟨.ok ⟨0, -1⟩, [(c, q)], [], false⟩ := by
  rw [ask_some v slot q c h]
  unfold finish
  rw [if_pos h0, if_neg (by simp [hnil])]

/-- The hypotheses can be met. -/
example : ((({ exEnv with call := fun _ _ => ((0, 0), []) } : Env).call (.system .getAddrInfo)
    ⟨none, none, none⟩)).2 = [] := rfl

theorem cText_of_cstring (s : List Byte) (h : ∀ i (hi : i < s.length), s[i] ≠ 0) :
    cText (s ++ [0]) = s := by
  induction s with
  | nil => rfl
  | cons a l ih =>
    have ha : a ≠ 0 := h 0 (by simp)
    simp only [List.cons_append, cText, if_neg ha]
    rw [ih (fun i hi => by
      have := h (i + 1) (by simpa using hi)
      simpa using this)]

theorem read32_num (m : Mem) (a : Word) (k : Nat) :
    (read32 m (a + BitVec.ofNat 64 k)).toNat = numAt (asNat m) (a.toNat + k) 4 := by
  have e : ∀ j, j < 4 → asNat m (a.toNat + k + j) = m (a + BitVec.ofNat 64 k + BitVec.ofNat 64 j) := by
    intro j hj
    simp [asNat, BitVec.ofNat_add]
  have e0 := e 0 (by omega)
  have e1 := e 1 (by omega)
  have e2 := e 2 (by omega)
  have e3 := e 3 (by omega)
  have hr : List.range 4 = [0, 1, 2, 3] := by decide
  unfold read32 numAt bytesAt
  rw [hr]
  simp only [List.map_cons, List.map_nil, leNat]
  rw [e0, e1, e2, e3]
  have z : a + BitVec.ofNat 64 k + BitVec.ofNat 64 0 = a + BitVec.ofNat 64 k := by simp
  rw [z]
  have b0 := (m (a + BitVec.ofNat 64 k)).toNat_lt
  have b1 := (m (a + BitVec.ofNat 64 k + 1)).toNat_lt
  have b2 := (m (a + BitVec.ofNat 64 k + 2)).toNat_lt
  have b3 := (m (a + BitVec.ofNat 64 k + 3)).toNat_lt
  have f1 : (BitVec.ofNat 64 1 : Word) = 1 := rfl
  have f2 : (BitVec.ofNat 64 2 : Word) = 2 := rfl
  have f3 : (BitVec.ofNat 64 3 : Word) = 3 := rfl
  rw [f1, f2, f3]
  simp only [BitVec.toNat_ofNat]
  omega

/-- What the policy may be told of a name at address `a`, when memory is `m` and the heap is
`[lo, hi)`: nothing if no terminated string inside the heap starts there, and otherwise exactly
that string. -/
def NameSeen (m : Nat → Byte) (lo hi a : Nat) (name : Option (List Byte)) : Prop :=
  match name with
  | none => ¬ (lo ≤ a ∧ a < hi) ∨ ∀ x, a ≤ x → x < hi → m x ≠ 0
  | some s => lo ≤ a ∧ a + s.length < hi ∧ Strings.Spec.CStringAt m a s

theorem strdupOut_nameSeen (v : Env) (hwf : v.region.WF v.hdr) (hm : MallocOk v.malloc)
    (ht : MallocTotal v.malloc) (m : Mem) (a : Word) :
    ∃ o, (strdupOut v.hdr v.region v.malloc m m a).result = .ok o ∧
      NameSeen (asNat m) (v.region.base.toNat + v.hdr.toNat) v.region.top.toNat a.toNat
        (o.map cText) := by
  have hn := strdupOut_null_iff v.hdr v.region hwf v.malloc hm ht m m a
  rcases strdupOut_safe v.hdr v.region v.malloc hm ht m m a with h | ⟨b, h, -⟩
  · exact ⟨none, h, hn.1 h⟩
  · refine ⟨some b, h, ?_⟩
    obtain ⟨s, rfl, hs⟩ := strdupOut_faithful v.hdr v.region v.malloc hm m a b h
    have hne : ¬ (strdupOut v.hdr v.region v.malloc m m a).result = .ok none := by rw [h]; simp
    rw [hn] at hne
    simp only [Option.map_some]
    rw [cText_of_cstring s (fun i hi => (hs.1 i hi).2)]
    have hin : v.region.base.toNat + v.hdr.toNat ≤ a.toNat ∧ a.toNat < v.region.top.toNat :=
      Decidable.byContradiction (fun hc => hne (Or.inl hc))
    refine ⟨hin.1, ?_, hs⟩
    apply Decidable.byContradiction
    intro hc
    apply hne
    right
    intro x hx1 hx2
    have hb := hs.1 (x - a.toNat) (by omega)
    rw [show a.toNat + (x - a.toNat) = x by omega] at hb
    rw [hb.1]; exact hb.2

/-- **C54.** The policy is asked exactly what the sandbox asked.  If the result slot and the hints
lie inside the heap and the policy in force has a callee `c`, then `c` is called once.  Each name it
receives is the terminated string inside the heap at the sandbox's pointer (null if there is none);
the hints are absent exactly if the sandbox's pointer was null, and otherwise are the four integers
at offsets 0, 4, 8 and 12 of the sandbox's structure.  The sandbox's memory is taken not to change
during the copies. -/
theorem gai_query (v : Env) (hwf : v.region.WF v.hdr) (hm : MallocOk v.malloc)
    (ht : MallocTotal v.malloc) (m : Mem)
    (h1 : v.rdHost = (m, m)) (h2 : v.rdService = (m, m)) (h3 : v.rdHints = m)
    (host service hints slot : Word) (c : Callee) (hc : calleeOf v.policies = some c)
    (hslot : v.region.base.toNat + v.hdr.toNat ≤ slot.toNat ∧
      slot.toNat + 8 ≤ v.region.top.toNat)
    (hhints : hints = 0 ∨ v.region.base.toNat + v.hdr.toNat ≤ hints.toNat ∧
      hints.toNat + 48 ≤ v.region.top.toNat) :
    ∃ q, (handleGetaddrinfo v host service hints slot).calls = [(c, q)] ∧
      NameSeen (asNat m) (v.region.base.toNat + v.hdr.toNat) v.region.top.toNat host.toNat q.host ∧
      NameSeen (asNat m) (v.region.base.toNat + v.hdr.toNat) v.region.top.toNat service.toNat
        q.service ∧
      (hints = 0 → q.hints = none) ∧
      (hints ≠ 0 → ∃ fl fam ty pr, q.hints = some (fl, fam, ty, pr) ∧
        fl.toNat = numAt (asNat m) hints.toNat 4 ∧
        fam.toNat = numAt (asNat m) (hints.toNat + 4) 4 ∧
        ty.toNat = numAt (asNat m) (hints.toNat + 8) 4 ∧
        pr.toNat = numAt (asNat m) (hints.toNat + 12) 4) := by
  have h8 : (8 : Word).toNat = 8 := rfl
  have h48 : (BitVec.ofNat 64 infoSize).toNat = 48 := rfl
  obtain ⟨o1, e1, n1⟩ := strdupOut_nameSeen v hwf hm ht m host
  obtain ⟨o2, e2, n2⟩ := strdupOut_nameSeen v hwf hm ht m service
  refine ⟨⟨o1.map cText, o2.map cText, copyHints v hints⟩, ?_, n1, n2, ?_, ?_⟩
  · unfold handleGetaddrinfo
    rw [if_neg, if_neg, h1, h2]
    · simp only [e1, e2]
      rw [ask_some v slot _ c hc]
      unfold finish
      split
      · split
        · split <;> rfl
        · rfl
      · rfl
    · rintro ⟨hne, hcon⟩
      rw [Bool.eq_false_iff] at hcon
      apply hcon
      rw [contains_iff v.hdr v.region hwf]
      rcases hhints with h | h
      · exact absurd h hne
      · omega
    · rw [Bool.not_eq_false, contains_iff v.hdr v.region hwf]
      omega
  · intro h
    simp [copyHints, h]
  · intro h
    refine ⟨read32 m hints, read32 m (hints + 4), read32 m (hints + 8), read32 m (hints + 12),
      by simp only [copyHints, if_neg h, h3], ?_, ?_, ?_, ?_⟩
    · have := read32_num m hints 0
      simpa using this
    · exact read32_num m hints 4
    · exact read32_num m hints 8
    · exact read32_num m hints 12

/-- The hypotheses can be met, with a host name and hints in memory. -/
example : exEnv.region.WF exEnv.hdr ∧ calleeOf exEnv.policies = some (.system .getAddrInfo) ∧
    exEnv.rdHost = (exEnv.rdHints, exEnv.rdHints) ∧ exEnv.rdService = (exEnv.rdHints, exEnv.rdHints) ∧
    MallocOk exEnv.malloc ∧ MallocTotal exEnv.malloc ∧
    (0x10100 ≤ (0x12000 : Word).toNat ∧ (0x12000 : Word).toNat + 48 ≤ 0x20000) :=
  ⟨by decide, rfl, rfl, rfl, by intro n b h; simp [exEnv] at h; simp [← h],
    by intro n; simp [exEnv], by decide⟩

/-- What the policy may be told of a name at address `a`, when the sandbox changes its memory
meanwhile: `scan` is what the search for the terminator read, `copy` what the copy read, and the heap
is `[lo, hi)`.  Nothing if the search left the heap; otherwise, with a terminator seen after `n`
bytes, the bytes read by the copy up to the first zero among those `n`. -/
def NameCopied (scan copy : Nat → Byte) (lo hi a : Nat) (name : Option (List Byte)) : Prop :=
  match name with
  | none => ¬ (lo ≤ a ∧ a < hi) ∨ ∀ x, a ≤ x → x < hi → scan x ≠ 0
  | some s => ∃ n, lo ≤ a ∧ a + n < hi ∧ (∀ i, i < n → scan (a + i) ≠ 0) ∧ scan (a + n) = 0 ∧
      s.length ≤ n ∧ (∀ i (h : i < s.length), s[i] = copy (a + i) ∧ s[i] ≠ 0) ∧
      (s.length < n → copy (a + s.length) = 0)

theorem cText_map (f : Nat → Byte) (n : Nat) : ∀ (a : Nat),
    let s := cText ((List.range' a n).map f ++ [0])
    s.length ≤ n ∧ (∀ i (h : i < s.length), s[i] = f (a + i) ∧ s[i] ≠ 0) ∧
      (s.length < n → f (a + s.length) = 0) := by
  induction n with
  | zero => intro a; simp [cText]
  | succ n ih =>
    intro a
    simp only [List.range'_succ, List.map_cons, List.cons_append, cText]
    split
    next h => simp [h]
    next h =>
      obtain ⟨h1, h2, h3⟩ := ih (a + 1)
      refine ⟨by simpa using h1, ?_, ?_⟩
      · intro i hi
        cases i with
        | zero => simpa using h
        | succ i =>
          have := h2 i (by simpa using hi)
          simp only [List.getElem_cons_succ]
          rw [show a + (i + 1) = a + 1 + i by omega]
          exact this
      · intro hl
        simp only [List.length_cons] at hl ⊢
        rw [show ∀ k, a + (k + 1) = a + 1 + k by intro k; omega]
        exact h3 (by omega)

theorem strdupOut_nameCopied (v : Env) (hwf : v.region.WF v.hdr) (hm : MallocOk v.malloc)
    (ht : MallocTotal v.malloc) (m1 m2 : Mem) (a : Word) :
    ∃ o, (strdupOut v.hdr v.region v.malloc m1 m2 a).result = .ok o ∧
      NameCopied (asNat m1) (asNat m2) (v.region.base.toNat + v.hdr.toNat) v.region.top.toNat
        a.toNat (o.map cText) := by
  have hn := strdupOut_null_iff v.hdr v.region hwf v.malloc hm ht m1 m2 a
  rcases strdupOut_safe v.hdr v.region v.malloc hm ht m1 m2 a with h | ⟨b, h, -⟩
  · exact ⟨none, h, hn.1 h⟩
  · refine ⟨some b, h, ?_⟩
    obtain ⟨n, h1, h2, h3, h4, rfl⟩ := strdupOut_bytes v.hdr v.region hwf v.malloc hm m1 m2 a b h
    have := cText_map (fun i => asNat m2 (a.toNat + i)) n 0
    simp only [← List.range_eq_range', Nat.zero_add] at this
    exact ⟨n, h3, h4, h1, h2, this⟩

/-- **C54** (memory that changes).  Whatever the sandbox writes to its memory during the call, the
policy in force is called once, with names that are bytes of the sandbox's heap, ended by a zero the
copy read or at the place where the search saw one, and with hints that are the four integers the
copy read at offsets 0, 4, 8 and 12 of the sandbox's structure. -/
theorem gai_query_changing (v : Env) (hwf : v.region.WF v.hdr) (hm : MallocOk v.malloc)
    (ht : MallocTotal v.malloc)
    (host service hints slot : Word) (c : Callee) (hc : calleeOf v.policies = some c)
    (hslot : v.region.base.toNat + v.hdr.toNat ≤ slot.toNat ∧
      slot.toNat + 8 ≤ v.region.top.toNat)
    (hhints : hints = 0 ∨ v.region.base.toNat + v.hdr.toNat ≤ hints.toNat ∧
      hints.toNat + 48 ≤ v.region.top.toNat) :
    ∃ q, (handleGetaddrinfo v host service hints slot).calls = [(c, q)] ∧
      NameCopied (asNat v.rdHost.1) (asNat v.rdHost.2) (v.region.base.toNat + v.hdr.toNat)
        v.region.top.toNat host.toNat q.host ∧
      NameCopied (asNat v.rdService.1) (asNat v.rdService.2) (v.region.base.toNat + v.hdr.toNat)
        v.region.top.toNat service.toNat q.service ∧
      (hints = 0 → q.hints = none) ∧
      (hints ≠ 0 → ∃ fl fam ty pr, q.hints = some (fl, fam, ty, pr) ∧
        fl.toNat = numAt (asNat v.rdHints) hints.toNat 4 ∧
        fam.toNat = numAt (asNat v.rdHints) (hints.toNat + 4) 4 ∧
        ty.toNat = numAt (asNat v.rdHints) (hints.toNat + 8) 4 ∧
        pr.toNat = numAt (asNat v.rdHints) (hints.toNat + 12) 4) := by
  have h8 : (8 : Word).toNat = 8 := rfl
  have h48 : (BitVec.ofNat 64 infoSize).toNat = 48 := rfl
  obtain ⟨o1, e1, n1⟩ := strdupOut_nameCopied v hwf hm ht v.rdHost.1 v.rdHost.2 host
  obtain ⟨o2, e2, n2⟩ := strdupOut_nameCopied v hwf hm ht v.rdService.1 v.rdService.2 service
  refine ⟨⟨o1.map cText, o2.map cText, copyHints v hints⟩, ?_, n1, n2, ?_, ?_⟩
  · unfold handleGetaddrinfo
    rw [if_neg, if_neg]
    · simp only [e1, e2]
      rw [ask_some v slot _ c hc]
      unfold finish
      split
      · split
        · split <;> rfl
        · rfl
      · rfl
    · rintro ⟨hne, hcon⟩
      rw [Bool.eq_false_iff] at hcon
      apply hcon
      rw [contains_iff v.hdr v.region hwf]
      rcases hhints with h | h
      · exact absurd h hne
      · omega
    · rw [Bool.not_eq_false, contains_iff v.hdr v.region hwf]
      omega
  · intro h
    simp [copyHints, h]
  · intro h
    refine ⟨read32 v.rdHints hints, read32 v.rdHints (hints + 4), read32 v.rdHints (hints + 8),
      read32 v.rdHints (hints + 12), by simp only [copyHints, if_neg h], ?_, ?_, ?_, ?_⟩
    · have := read32_num v.rdHints hints 0
      simpa using this
    · exact read32_num v.rdHints hints 4
    · exact read32_num v.rdHints hints 8
    · exact read32_num v.rdHints hints 12

/-- The hypotheses can be met by a sandbox that replaces its host name after the search for the
terminator: the policy is asked about the bytes the copy read. -/
example :
    let v : Env := { exEnv with
      rdHost := (fun a => if a = 0x11002 then 0 else 65, fun a => if a = 0x11002 then 0 else 66) }
    v.region.WF v.hdr ∧ MallocOk v.malloc ∧ MallocTotal v.malloc ∧
    calleeOf v.policies = some (.system .getAddrInfo) ∧
    (handleGetaddrinfo v 0x11000 0x11000 0x12000 0x12000).calls =
      [(.system .getAddrInfo, ⟨some [66, 66], some [], some (0, 0, 0, 0)⟩)] := by
  refine ⟨by decide, ?_, ?_, rfl, by decide +kernel⟩
  · intro n b h; simp [exEnv] at h; simp [← h]
  · intro n; simp [exEnv]

/-- **C54, finding.** A name pointer that is not null but does not point to a terminated string
inside the heap is passed on as a null pointer: the sandbox's malformed request is answered as the
different, valid request without that name. -/
theorem gai_bad_name_is_null (v : Env) (hwf : v.region.WF v.hdr) (hm : MallocOk v.malloc)
    (ht : MallocTotal v.malloc) (hbase : 0 < v.region.base.toNat) (host service hints slot : Word)
    (hbad : ¬ (v.region.base.toNat + v.hdr.toNat ≤ host.toNat ∧
      host.toNat < v.region.top.toNat)) :
    handleGetaddrinfo v host service hints slot = handleGetaddrinfo v 0 service hints slot := by
  have hn : ∀ a : Word, ¬ (v.region.base.toNat + v.hdr.toNat ≤ a.toNat ∧
      a.toNat < v.region.top.toNat) →
      (strdupOut v.hdr v.region v.malloc v.rdHost.1 v.rdHost.2 a).result = .ok none := fun a ha =>
    (strdupOut_null_iff v.hdr v.region hwf v.malloc hm ht _ _ a).2 (Or.inl ha)
  have h0 : (0 : Word).toNat = 0 := rfl
  unfold handleGetaddrinfo
  rw [hn host hbad, hn 0 (by omega)]

/-- The hypotheses can be met: a host name pointer below the heap. -/
example : exEnv.region.WF exEnv.hdr ∧ 0 < exEnv.region.base.toNat ∧
    ¬ (exEnv.region.base.toNat + exEnv.hdr.toNat ≤ (0x666 : Word).toNat) := by decide

end Verif.AddrInfo
