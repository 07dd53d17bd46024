import Verif.BsdNet.Model
import Verif.BsdNet.Spec
import Verif.NetEnd.Props
import Verif.FreeBsd.Props

/-!
# Network calls on FreeBSD, end to end: lemmas
-/

namespace Verif.BsdNet

open Verif.Bounds (Region contains contains_iff)
open Verif.Strings
open Verif.FileTree (Export)
open Verif.Callback (Handler Packet Event Result tableOf dispatch_tableOf copyAddrs copyAddrs_length)
open Verif.Net (Op Policies Config Callee SockArgs SockOut handleBindOrConnect configure BadSock)
open Verif.ChildArgs (Bounds Child Wrapped wrapPtr wrapSockAddr unwrap bytesAt Apart InHeap Object Private blit blit_bytes
  blit_else private_not_inside)
open Verif.Syscall (CInt Arg Reply Answer Arrives)
open Verif.EndToEnd (le ofLe le_length ofLe_le64 ofLe_le32 copy_bytes Pool Outside outside_mono outside_of_apart apart_symm
  apart_mono pool_last wrap_spec bytesAt_write bytesAt_congr bytesAt_length answerOf inHeap_mono)
open Verif.NetEnd (World Calls frameSize opOf pass Setup Chosen called given code code_intAnswer kindOf Ready scratch wrap_addr)

/-! ### The host's side -/

theorem answer_proper {w : World} {hist : List Export} {users : List Nat} {conf : List Config}
    (hw : Setup w hist users conf) (a : SockArgs) (f : Option Callee) :
    (answer w.call a f).Proper ∧
      Arrives (answer w.call a f) (EndToEnd.reply w.toWorld (code (answer w.call a f)) (-1)) := by
  cases f with
  | none => exact ⟨⟨by decide, by decide⟩, rfl, rfl⟩
  | some f =>
    have h := hw.call f a
    simp only [answer, EndToEnd.intAnswer]
    split
    · rename_i h0
      have := h.1 h0
      refine ⟨?_, rfl, ?_⟩
      · show (w.call f a).1.toNat < 2 ^ 31
        omega
      · show BitVec.ofInt 64 (((w.call f a).1.toNat : Nat) : Int) = BitVec.ofNat 64 (w.call f a).1.toNat
        rw [BitVec.ofInt_natCast]
    · rename_i h0
      have := h.2 (by omega)
      refine ⟨?_, rfl, rfl⟩
      show 0 < (w.call f a).2.toNat ∧ (w.call f a).2.toNat < 4096
      omega

/-- An answer that comes with a call is what the function gave. -/
theorem handled_calls (w : World) (op : Op) (m : Mem) (fd : Int) (addr : Word) (len : CInt) :
    (handled w op m fd addr len).calls =
      (handleBindOrConnect w.hdr w.region w.policies op w.call m fd addr len).calls := by
  simp only [handled]
  split <;> rfl

theorem handled_throws (w : World) (op : Op) (m : Mem) (fd : Int) (addr : Word) (len : CInt) :
    (handled w op m fd addr len).result = .throws ↔
      (handleBindOrConnect w.hdr w.region w.policies op w.call m fd addr len).result = .throws := by
  simp only [handled]
  split
  · cases (handleBindOrConnect w.hdr w.region w.policies op w.call m fd addr len).result <;> simp [noSys]
  · exact Iff.rfl

theorem handled_ub (w : World) (op : Op) (m : Mem) (fd : Int) (addr : Word) (len : CInt) :
    (handled w op m fd addr len).result = .ub ↔
      (handleBindOrConnect w.hdr w.region w.policies op w.call m fd addr len).result = .ub := by
  simp only [handled]
  split
  · cases (handleBindOrConnect w.hdr w.region w.policies op w.call m fd addr len).result <;> simp [noSys]
  · exact Iff.rfl

theorem handled_abort (w : World) (op : Op) (m : Mem) (fd : Int) (addr : Word) (len : CInt) :
    (handled w op m fd addr len).result = .abort ↔
      (handleBindOrConnect w.hdr w.region w.policies op w.call m fd addr len).result = .abort := by
  simp only [handled]
  split
  · cases (handleBindOrConnect w.hdr w.region w.policies op w.call m fd addr len).result <;> simp [noSys]
  · exact Iff.rfl

/-- The handler on an address in the heap. -/
theorem handled_spec {w : World} {hist : List Export} {users : List Nat} {conf : List Config}
    (hw : Setup w hist users conf) {op : Op} {f : Option Callee} (hf : Chosen conf op f) (m : Mem) {h : Int} (hh : 0 ≤ h)
    {addr : Word} {len : CInt} (hl : len.toNat ≤ 4096) (hin : InHeap w.hdr w.region addr len.toNat) :
    ∃ reads, handled w op m h addr len =
      ⟨.ok ⟨code (answer w.call (given h (bytesAt m addr len.toNat)) f), -1⟩,
        called (given h (bytesAt m addr len.toNat)) f, reads⟩ := by
  obtain ⟨reads, hs⟩ := NetEnd.handler_spec hw hf m hh hl hin
  refine ⟨reads, ?_⟩
  rw [handled, hs]
  cases f with
  | none => rfl
  | some f => rfl

theorem encode_length {w : World} {hist : List Export} {users : List Nat} {conf : List Config}
    (hw : Setup w hist users conf) (s : CInt) (addr : Word) (len : CInt) : (encode w s addr len).length = 24 := by
  simp [encode, le_length, hw.pad1, hw.pad2]

theorem decode_encode {w : World} {hist : List Export} {users : List Nat} {conf : List Config}
    (hw : Setup w hist users conf) (s : CInt) (addr : Word) (len : CInt) :
    addrArg (encode w s addr len) = addr ∧ lenArg (encode w s addr len) = len := by
  have h4 : ∀ v, (le 4 v).length = 4 := le_length 4
  have h8 : ∀ v, (le 8 v).length = 8 := le_length 8
  constructor
  · have e : (((encode w s addr len).drop 8).take 8) = le 8 addr.toNat := by
      have : encode w s addr len = (le 4 s.toNat ++ w.pad1) ++ (le 8 addr.toNat ++ (le 4 len.toNat ++ w.pad2)) := by
        simp [encode]
      rw [this, List.drop_left' (by simp [h4, hw.pad1]), List.take_left' (h8 _)]
    rw [addrArg, e, ofLe_le64]
  · have e : (((encode w s addr len).drop 16).take 4) = le 4 len.toNat := by
      have : encode w s addr len = (le 4 s.toNat ++ w.pad1 ++ le 8 addr.toNat) ++ (le 4 len.toNat ++ w.pad2) := by
        simp [encode]
      rw [this, List.drop_left' (by simp [h4, h8, hw.pad1]), List.take_left' (h4 _)]
    rw [lenArg, e, ofLe_le32]

/-- The host's turn: a well-formed frame in the heap is served. -/
theorem turn_spec {w : World} {hist : List Export} {users : List Nat} {conf : List Config}
    (hw : Setup w hist users conf) (m : Mem) {op : Op} (hop : op ≠ .getAddrInfo) (data : Word)
    (hin : InHeap w.hdr w.region data 24) {s : CInt} {addr : Word} {len : CInt}
    (hb : bytesAt m data 24 = encode w s addr len) (fd : Int) {res : Result} {calls : Calls} {reads : List Word}
    (hs : handled w op m fd addr len = ⟨.ok res, calls, reads⟩) :
    ∃ q, turn w m ⟨Callback.requestSize, ⟨.ofNat 64 (kindOf op), .ofNat 64 frameSize, data⟩, fd⟩ =
      (.ok [.received q fd, .replied res.integer res.handle], calls) := by
  have hd : Callback.dispatch w.table (BitVec.ofNat 64 (kindOf op)) = some (.builtin (kindOf op)) := by
    rw [hw.base.table, dispatch_tableOf]
    cases op <;> rfl
  have hsv : served w m (kindOf op) (bytesAt m data 24) fd = ⟨.ok res, calls, reads⟩ := by
    obtain ⟨d1, d2⟩ := decode_encode hw s addr len
    have ho : opOf (kindOf op) = some op := by cases op <;> first | rfl | exact absurd rfl hop
    rw [hb, served, ho]
    simp only [d1, d2]
    exact hs
  have hrun : run w m (.builtin (kindOf op)) ⟨.ofNat 64 (kindOf op), .ofNat 64 frameSize, data⟩ fd =
      (.ok res, copyAddrs data 24) := by
    have hc : contains w.hdr w.region data (BitVec.ofNat 64 frameSize) = true := hin
    have hc' : ¬ contains w.hdr w.region data (BitVec.ofNat 64 frameSize) = false := by rw [hc]; simp
    have hz : ¬ (BitVec.ofNat 64 frameSize ≠ BitVec.ofNat 64 frameSize) := fun h => h rfl
    have hne : copyAddrs data frameSize ≠ [] := by
      intro e
      have := copyAddrs_length data frameSize
      rw [e] at this
      simp [frameSize] at this
    simp only [run, Callback.invoke, if_neg hz, if_neg hc']
    have : (copyAddrs data frameSize).map m = bytesAt m data 24 := copy_bytes _ _ _
    rw [this, hsv]
    simp only [if_neg hne]
    rfl
  have hlen : ¬ (Callback.requestSize < Callback.requestSize) := by omega
  have hne : copyAddrs data 24 ≠ [] := by
    intro e
    have := copyAddrs_length data 24
    rw [e] at this
    simp at this
  refine ⟨⟨.ofNat 64 (kindOf op), .ofNat 64 frameSize, data⟩, ?_⟩
  simp only [turn, effects, Callback.handle, if_neg hlen, hd, hrun, if_neg hne, copy_bytes, hsv, if_true]

/-- The host's turn, when the handler throws: the exception leaves the dispatcher. -/
theorem turn_throws {w : World} {hist : List Export} {users : List Nat} {conf : List Config}
    (hw : Setup w hist users conf) (m : Mem) {op : Op} (hop : op ≠ .getAddrInfo) (data : Word)
    (hin : InHeap w.hdr w.region data 24) {s : CInt} {addr : Word} {len : CInt}
    (hb : bytesAt m data 24 = encode w s addr len) (fd : Int)
    (hs : (handled w op m fd addr len).result = .throws) :
    (turn w m ⟨Callback.requestSize, ⟨.ofNat 64 (kindOf op), .ofNat 64 frameSize, data⟩, fd⟩).1 = .throws := by
  have hd : Callback.dispatch w.table (BitVec.ofNat 64 (kindOf op)) = some (.builtin (kindOf op)) := by
    rw [hw.base.table, dispatch_tableOf]
    cases op <;> rfl
  have hsv : (served w m (kindOf op) (bytesAt m data 24) fd).result = .throws := by
    obtain ⟨d1, d2⟩ := decode_encode hw s addr len
    have ho : opOf (kindOf op) = some op := by cases op <;> first | rfl | exact absurd rfl hop
    rw [hb, served, ho]
    simp only [d1, d2]
    exact hs
  have hrun : run w m (.builtin (kindOf op)) ⟨.ofNat 64 (kindOf op), .ofNat 64 frameSize, data⟩ fd =
      (.throws, copyAddrs data 24) := by
    have hc : contains w.hdr w.region data (BitVec.ofNat 64 frameSize) = true := hin
    have hc' : ¬ contains w.hdr w.region data (BitVec.ofNat 64 frameSize) = false := by rw [hc]; simp
    have hz : ¬ (BitVec.ofNat 64 frameSize ≠ BitVec.ofNat 64 frameSize) := fun h => h rfl
    have hne : copyAddrs data frameSize ≠ [] := by
      intro e
      have := copyAddrs_length data frameSize
      rw [e] at this
      simp [frameSize] at this
    simp only [run, Callback.invoke, if_neg hz, if_neg hc']
    have : (copyAddrs data frameSize).map m = bytesAt m data 24 := copy_bytes _ _ _
    rw [this, hsv]
    simp only [if_neg hne]
    rfl
  have hlen : ¬ (Callback.requestSize < Callback.requestSize) := by omega
  simp only [turn, Callback.handle, if_neg hlen, hd, hrun]

/-! ### The child's side -/

/-- Sending a request: the frame arrives, the host serves it, and only the frame and its copy are written. -/
theorem send_spec {w : World} {hist : List Export} {users : List Nat} {conf : List Config}
    (hw : Setup w hist users conf) (c : Child) {op : Op} (hop : op ≠ .getAddrInfo) (s : CInt) (addr : Word) (len : CInt)
    (ho : Object w.hdr w.region w.bounds w.sp 24) (p : Word) (ps : List Word)
    (hm : c.mallocs = p :: ps) (hp : InHeap w.hdr w.region p 24) {fd : Int} (hfd : pass w s = .ok fd) :
    ∃ m1, (∀ x, Outside [(w.sp, 24), (p, 24)] x → m1 x = c.mem x) ∧
      (∀ res calls reads,
        handled w op m1 fd addr len = ⟨.ok res, calls, reads⟩ →
        ∃ c', send w c (kindOf op) s addr len = .ok (EndToEnd.reply w.toWorld res.integer res.handle, calls, c') ∧
          c'.live = c.live ∧ c'.mem = m1) ∧
      ((handled w op m1 fd addr len).result = .throws →
        send w c (kindOf op) s addr len = .throws) := by
  have hlen := encode_length hw s addr len
  obtain ⟨a, c1, hwr, hin, hbytes, hcase⟩ :=
    wrap_spec (c := { c with mem := writeBytes c.mem w.sp (encode w s addr len) }) (n := 24) (by omega) (by omega)
      ho hm hp
  have hb : bytesAt c1.mem a.arg 24 = encode w s addr len := by
    rw [hbytes]
    have := bytesAt_write c.mem w.sp (encode w s addr len) (by omega)
    rw [hlen] at this
    exact this
  refine ⟨c1.mem, ?_, ?_, ?_⟩
  · intro x hx
    have hw1 : writeBytes c.mem w.sp (encode w s addr len) x = c.mem x :=
      writeBytes_out _ _ _ _ fun i hi => hx (w.sp, 24) (by simp) i (by omega)
    rcases hcase with ⟨_, rfl⟩ | ⟨_, rfl⟩
    · exact hw1
    · simp only
      rw [blit_else, hw1]
      intro i hi
      exact hx (p, 24) (by simp) i hi
  · intro res calls reads hs
    obtain ⟨q, hcb⟩ := turn_spec hw c1.mem hop a.arg hin hb fd hs
    have hfs : frameSize = 24 := rfl
    simp only [hfs] at hcb
    simp only [send, hfs, hwr, callback, hfd, hcb, answerOf]
    rcases hcase with ⟨rfl, rfl⟩ | ⟨rfl, rfl⟩
    · exact ⟨_, rfl, rfl, rfl⟩
    · exact ⟨_, rfl, by simp [unwrap], by simp [unwrap]⟩
  · intro hs
    have hcb := turn_throws hw c1.mem hop a.arg hin hb fd hs
    have hfs : frameSize = 24 := rfl
    simp only [hfs] at hcb
    simp only [send, hfs, hwr, callback, hfd]
    rcases ht : turn w c1.mem ⟨Callback.requestSize, ⟨.ofNat 64 (kindOf op), .ofNat 64 24, a.arg⟩, fd⟩ with ⟨o, calls⟩
    rw [ht] at hcb
    simp only at hcb
    subst hcb
    rfl

/-- What a request to the host gives, in terms of the host's handler. -/
theorem request_spec {w : World} {hist : List Export} {users : List Nat} {conf : List Config}
    (hw : Setup w hist users conf) {c : Child} {n : Nat} {s : CInt} {addr : Word} {len : CInt}
    (hr : Ready w c n addr len.toNat) {op : Op} (hop : op ≠ .getAddrInfo) {fd : Int} (hfd : pass w s = .ok fd) :
    ∃ a m1, (InHeap w.hdr w.region addr len.toNat → InHeap w.hdr w.region a len.toNat) ∧
      bytesAt m1 a len.toNat = bytesAt c.mem addr len.toNat ∧
      (Private w.bounds addr len.toNat → 0 < len.toNat → a = addr) ∧
      (∀ res calls reads,
        handled w op m1 fd a len = ⟨.ok res, calls, reads⟩ →
        ∃ c', request w c ⟨kindOf op, [.int s, .raw addr, .int len], s⟩ =
            .ok (EndToEnd.reply w.toWorld res.integer res.handle, calls, c') ∧ c'.live = c.live ∧
          ∀ x, Outside (scratch w c n) x → c'.mem x = c.mem x) ∧
      ((handled w op m1 fd a len).result = .throws →
        request w c ⟨kindOf op, [.int s, .raw addr, .int len], s⟩ = .throws) := by
  obtain ⟨a, c1, h1, h2, h3, h4, h5, h6, h7, h8, h9, h10⟩ := wrap_addr hw hr
  obtain ⟨⟨hn1, hn2, hn3⟩, _, _, hstack, _⟩ := hr
  obtain ⟨p, ps, hm, hp, hpa, hpin⟩ := pool_last h5
  obtain ⟨m1, hm1, hsend, hthrow⟩ := send_spec hw c1 hop s a.arg len hstack p ps hm (inHeap_mono hw.base hp hn3 hn2) hfd
  refine ⟨a.arg, m1, h2, ?_, h4, ?_, fun h => by simp only [request, h1, hthrow h]⟩
  · rw [← h3]
    refine bytesAt_congr fun i hi => hm1 _ (outside_of_apart ?_ hi)
    intro o ho
    simp only [List.mem_cons, List.not_mem_nil, or_false] at ho
    rcases ho with rfl | rfl
    · exact apart_symm h6
    · exact apart_mono (hpa (a.arg, len.toNat) (by simp)) hn2 (by simp)
  · intro res calls reads hs
    obtain ⟨c2, e1, e2, e3⟩ := hsend res calls reads hs
    refine ⟨unwrap false c2 a len.toNat, ?_, ?_, ?_⟩
    · simp only [request, h1, e1]
    · cases hc : a.copy with
      | none => simp [unwrap, hc, e2, h7]
      | some q => simp [unwrap, hc, e2, h7]
    · intro x hx
      have hu : (unwrap false c2 a len.toNat).mem x = c2.mem x := by
        cases hc : a.copy <;> simp [unwrap, hc]
      rw [hu, e3, hm1, h10]
      · intro q hq
        apply outside_mono hx
        intro o ho
        simp only [List.mem_singleton] at ho
        subst ho
        exact ⟨(q, n), List.mem_cons_of_mem _ (List.mem_map.2 ⟨q, h9 q hq, rfl⟩), rfl, hn1⟩
      · apply outside_mono hx
        intro o ho
        simp only [List.mem_cons, List.not_mem_nil, or_false] at ho
        rcases ho with rfl | rfl
        · exact ⟨(w.sp, 24), by simp [scratch], rfl, by simp⟩
        · exact ⟨(p, n), List.mem_cons_of_mem _ (List.mem_map.2 ⟨p, h8 p hpin, rfl⟩), rfl, hn2⟩

end Verif.BsdNet
