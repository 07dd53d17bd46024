import Verif.NetEnd.Model
import Verif.NetEnd.Spec
import Verif.EndToEnd.Props
import Verif.Net.Props

/-!
# Network calls, end to end: lemmas
-/

namespace Verif.NetEnd

open Verif.Bounds (Region contains contains_iff)
open Verif.Strings
open Verif.FileTree (Export)
open Verif.Callback (Handler Packet Event Result tableOf dispatch_tableOf copyAddrs copyAddrs_length)
open Verif.Net (Op Policies Config Callee SockArgs SockOut handleBindOrConnect configure invoke invoke_default_deny
  invoke_last BadSock sock_mediated sock_refused)
open Verif.Net.Spec (IsLast Untouched)
open Verif.ChildArgs (Bounds Child Wrapped wrapPtr wrapSockAddr unwrap bytesAt Apart InHeap Object Private blit blit_bytes
  blit_else private_not_inside)
open Verif.Syscall (CInt Regs Info Arg Reply Answer Arrives abi wanted)
open Verif.EndToEnd (le ofLe le_length ofLe_le64 ofLe_le32 copy_bytes Pool Outside wrap_spec bytesAt_write bytesAt_congr
  bytesAt_get bytesAt_length answerOf inHeap_mono)

/-- What is fixed: the two processes as in `Verif.EndToEnd`, the host's configuration `conf`, and functions whose
results are results of system calls. -/
structure Setup (w : World) (hist : List Export) (users : List Nat) (conf : List Config) : Prop where
  base : EndToEnd.Setup w.toWorld hist users
  policies : w.policies = configure conf
  pad1 : w.pad1.length = 4
  pad2 : w.pad2.length = 4
  call : ∀ f a, (0 ≤ (w.call f a).1 → (w.call f a).1 < 2 ^ 31) ∧
    ((w.call f a).1 < 0 → 0 < (w.call f a).2 ∧ (w.call f a).2 < 4096)

/-! ### The host's side -/

theorem invoke_chosen {conf : List Config} {op : Op} {f : Option Callee} (h : Chosen conf op f)
    (call : Callee → SockArgs → Int × Int) (a : SockArgs) :
    invoke (configure conf) op call a =
      .ok (match f with | none => ((-1, 38), []) | some f => (call f a, [(f, a)])) := by
  cases h with
  | untouched h => exact invoke_default_deny conf op h call a
  | denied h => exact (invoke_last SockArgs conf op _ h call a).1 rfl
  | allowed h => exact (invoke_last SockArgs conf op _ h call a).2.1 rfl
  | handled f h => exact (invoke_last SockArgs conf op _ h call a).2.2.1 f rfl

/-- The number that goes back. -/
def code : Answer → Int
  | .value v => v
  | .descriptor v => v
  | .error e => -(e : Int)

theorem answer_proper {w : World} {hist : List Export} {users : List Nat} {conf : List Config}
    (hw : Setup w hist users conf) (a : SockArgs) (f : Option Callee) :
    (answer w.call a f).Proper ∧
      Arrives (answer w.call a f) (EndToEnd.reply w.toWorld (code (answer w.call a f)) (-1)) := by
  cases f with
  | none => exact ⟨⟨by decide, by decide⟩, rfl, rfl⟩
  | some f =>
    have h := hw.call f a
    simp only [answer, EndToEnd.intAnswer]
    split
    · rename_i h0
      have := h.1 h0
      refine ⟨?_, rfl, ?_⟩
      · show (w.call f a).1.toNat < 2 ^ 31
        omega
      · show BitVec.ofInt 64 (((w.call f a).1.toNat : Nat) : Int) = BitVec.ofNat 64 (w.call f a).1.toNat
        rw [BitVec.ofInt_natCast]
    · rename_i h0
      have := h.2 (by omega)
      refine ⟨?_, rfl, rfl⟩
      show 0 < (w.call f a).2.toNat ∧ (w.call f a).2.toNat < 4096
      omega

theorem code_intAnswer (r : Int × Int) (h : (0 ≤ r.1 → r.1 < 2 ^ 31) ∧ (r.1 < 0 → 0 < r.2 ∧ r.2 < 4096)) :
    (if 0 ≤ r.1 then r.1 else -r.2) = code (EndToEnd.intAnswer r) := by
  unfold EndToEnd.intAnswer
  split
  · simp only [code]; omega
  · have := h.2 (by omega)
    simp only [code]; omega

/-- The handler on an address in the heap. -/
theorem handler_spec {w : World} {hist : List Export} {users : List Nat} {conf : List Config}
    (hw : Setup w hist users conf) {op : Op} {f : Option Callee} (hf : Chosen conf op f) (m : Mem) {h : Int} (hh : 0 ≤ h)
    {addr : Word} {len : CInt} (hl : len.toNat ≤ 4096) (hin : InHeap w.hdr w.region addr len.toNat) :
    ∃ reads, handleBindOrConnect w.hdr w.region w.policies op w.call m h addr len =
      ⟨.ok ⟨code (answer w.call (given h (bytesAt m addr len.toNat)) f), -1⟩,
        called (given h (bytesAt m addr len.toNat)) f, reads⟩ := by
  have hc := (contains_iff w.hdr w.region hw.base.wf addr _).1 hin
  have e1 : (BitVec.ofNat 64 len.toNat).toNat = len.toNat := by simp; omega
  have hgood : ¬ BadSock w.hdr w.region h addr len := by
    unfold BadSock
    omega
  obtain ⟨buf, reads, b1, b2, b3, _, b5⟩ :=
    sock_mediated w.hdr w.region hw.base.wf w.policies op w.call m h addr len hgood
  have hbuf : (⟨h, buf, len.toNat⟩ : SockArgs) = given h (bytesAt m addr len.toNat) := by
    rw [given, bytesAt_length]
    congr 1
    apply List.ext_getElem?
    intro i
    by_cases h1 : i < len.toNat
    · rw [b2 i h1, List.getElem?_append_left (by rw [bytesAt_length]; exact h1),
        List.getElem?_eq_getElem (by rw [bytesAt_length]; exact h1), bytesAt_get]
      congr 2
      apply BitVec.eq_of_toNat_eq
      simp
    · rw [List.getElem?_append_right (by rw [bytesAt_length]; omega), bytesAt_length, List.getElem?_replicate]
      by_cases h2 : i < 4096
      · rw [b3 i (by omega) h2, if_pos (by omega)]
      · rw [if_neg (by omega)]
        exact List.getElem?_eq_none (by omega)
  refine ⟨reads, ?_⟩
  rw [b5, hbuf, hw.policies, invoke_chosen hf]
  cases f with
  | none => rfl
  | some f =>
    have hk := code_intAnswer _ (hw.call f (given h (bytesAt m addr len.toNat)))
    simp only [answer, called, hk]

theorem encode_length {w : World} {hist : List Export} {users : List Nat} {conf : List Config}
    (hw : Setup w hist users conf) (s : CInt) (addr : Word) (len : CInt) : (encode w s addr len).length = 24 := by
  simp [encode, le_length, hw.pad1, hw.pad2]

theorem decode_encode {w : World} {hist : List Export} {users : List Nat} {conf : List Config}
    (hw : Setup w hist users conf) (s : CInt) (addr : Word) (len : CInt) :
    addrArg (encode w s addr len) = addr ∧ lenArg (encode w s addr len) = len := by
  have h4 : ∀ v, (le 4 v).length = 4 := le_length 4
  have h8 : ∀ v, (le 8 v).length = 8 := le_length 8
  constructor
  · have e : (((encode w s addr len).drop 8).take 8) = le 8 addr.toNat := by
      have : encode w s addr len = (le 4 len.toNat ++ w.pad1) ++ (le 8 addr.toNat ++ (le 4 s.toNat ++ w.pad2)) := by
        simp [encode]
      rw [this, List.drop_left' (by simp [h4, hw.pad1]), List.take_left' (h8 _)]
    rw [addrArg, e, ofLe_le64]
  · have e : (encode w s addr len).take 4 = le 4 len.toNat := by
      simp only [encode, List.append_assoc]
      rw [List.take_left' (h4 _)]
    rw [lenArg, e, ofLe_le32]

/-- The kinds of the two operations. -/
def kindOf : Op → Nat
  | .bind => 4
  | .connect => 5
  | .getAddrInfo => 6

/-- The host's turn: a well-formed frame in the heap is served. -/
theorem turn_spec {w : World} {hist : List Export} {users : List Nat} {conf : List Config}
    (hw : Setup w hist users conf) (m : Mem) {op : Op} (hop : op ≠ .getAddrInfo) (data : Word)
    (hin : InHeap w.hdr w.region data 24) {s : CInt} {addr : Word} {len : CInt}
    (hb : bytesAt m data 24 = encode w s addr len) (fd : Int) {res : Result} {calls : Calls} {reads : List Word}
    (hs : handleBindOrConnect w.hdr w.region w.policies op w.call m fd addr len = ⟨.ok res, calls, reads⟩) :
    ∃ q, turn w m ⟨Callback.requestSize, ⟨.ofNat 64 (kindOf op), .ofNat 64 frameSize, data⟩, fd⟩ =
      (.ok [.received q fd, .replied res.integer res.handle], calls) := by
  have hd : Callback.dispatch w.table (BitVec.ofNat 64 (kindOf op)) = some (.builtin (kindOf op)) := by
    rw [hw.base.table, dispatch_tableOf]
    cases op <;> rfl
  have hsv : served w m (kindOf op) (bytesAt m data 24) fd = ⟨.ok res, calls, reads⟩ := by
    obtain ⟨d1, d2⟩ := decode_encode hw s addr len
    have ho : opOf (kindOf op) = some op := by cases op <;> first | rfl | exact absurd rfl hop
    rw [hb, served, ho]
    simp only [d1, d2]
    exact hs
  have hrun : run w m (.builtin (kindOf op)) ⟨.ofNat 64 (kindOf op), .ofNat 64 frameSize, data⟩ fd =
      (.ok res, copyAddrs data 24) := by
    have hc : contains w.hdr w.region data (BitVec.ofNat 64 frameSize) = true := hin
    have hc' : ¬ contains w.hdr w.region data (BitVec.ofNat 64 frameSize) = false := by rw [hc]; simp
    have hz : ¬ (BitVec.ofNat 64 frameSize ≠ BitVec.ofNat 64 frameSize) := fun h => h rfl
    simp only [run, Callback.invoke, if_neg hz, if_neg hc']
    have : (copyAddrs data frameSize).map m = bytesAt m data 24 := copy_bytes _ _ _
    rw [this, hsv]
    rfl
  have hlen : ¬ (Callback.requestSize < Callback.requestSize) := by omega
  have hne : copyAddrs data 24 ≠ [] := by
    intro e
    have := copyAddrs_length data 24
    rw [e] at this
    simp at this
  refine ⟨⟨.ofNat 64 (kindOf op), .ofNat 64 frameSize, data⟩, ?_⟩
  simp only [turn, effects, Callback.handle, if_neg hlen, hd, hrun, if_neg hne, copy_bytes, hsv, if_true]

/-- The host's turn, when the handler throws: the exception leaves the dispatcher. -/
theorem turn_throws {w : World} {hist : List Export} {users : List Nat} {conf : List Config}
    (hw : Setup w hist users conf) (m : Mem) {op : Op} (hop : op ≠ .getAddrInfo) (data : Word)
    (hin : InHeap w.hdr w.region data 24) {s : CInt} {addr : Word} {len : CInt}
    (hb : bytesAt m data 24 = encode w s addr len) (fd : Int)
    (hs : (handleBindOrConnect w.hdr w.region w.policies op w.call m fd addr len).result = .throws) :
    (turn w m ⟨Callback.requestSize, ⟨.ofNat 64 (kindOf op), .ofNat 64 frameSize, data⟩, fd⟩).1 = .throws := by
  have hd : Callback.dispatch w.table (BitVec.ofNat 64 (kindOf op)) = some (.builtin (kindOf op)) := by
    rw [hw.base.table, dispatch_tableOf]
    cases op <;> rfl
  have hsv : (served w m (kindOf op) (bytesAt m data 24) fd).result = .throws := by
    obtain ⟨d1, d2⟩ := decode_encode hw s addr len
    have ho : opOf (kindOf op) = some op := by cases op <;> first | rfl | exact absurd rfl hop
    rw [hb, served, ho]
    simp only [d1, d2]
    exact hs
  have hrun : run w m (.builtin (kindOf op)) ⟨.ofNat 64 (kindOf op), .ofNat 64 frameSize, data⟩ fd =
      (.throws, copyAddrs data 24) := by
    have hc : contains w.hdr w.region data (BitVec.ofNat 64 frameSize) = true := hin
    have hc' : ¬ contains w.hdr w.region data (BitVec.ofNat 64 frameSize) = false := by rw [hc]; simp
    have hz : ¬ (BitVec.ofNat 64 frameSize ≠ BitVec.ofNat 64 frameSize) := fun h => h rfl
    simp only [run, Callback.invoke, if_neg hz, if_neg hc']
    have : (copyAddrs data frameSize).map m = bytesAt m data 24 := copy_bytes _ _ _
    rw [this, hsv]
    rfl
  have hlen : ¬ (Callback.requestSize < Callback.requestSize) := by omega
  simp only [turn, Callback.handle, if_neg hlen, hd, hrun]

/-! ### The child's side -/

/-- Sending a request: the frame arrives, the host serves it, and only the frame and its copy are written. -/
theorem send_spec {w : World} {hist : List Export} {users : List Nat} {conf : List Config}
    (hw : Setup w hist users conf) (c : Child) {op : Op} (hop : op ≠ .getAddrInfo) (s : CInt) (addr : Word) (len : CInt)
    (ho : Object w.hdr w.region w.bounds w.sp 24) (p : Word) (ps : List Word)
    (hm : c.mallocs = p :: ps) (hp : InHeap w.hdr w.region p 24) {fd : Int} (hfd : pass w s = .ok fd) :
    ∃ m1, (∀ x, Outside [(w.sp, 24), (p, 24)] x → m1 x = c.mem x) ∧
      (∀ res calls reads,
        handleBindOrConnect w.hdr w.region w.policies op w.call m1 fd addr len = ⟨.ok res, calls, reads⟩ →
        ∃ c', send w c (kindOf op) s addr len = .ok (EndToEnd.reply w.toWorld res.integer res.handle, calls, c') ∧
          c'.live = c.live ∧ c'.mem = m1) ∧
      ((handleBindOrConnect w.hdr w.region w.policies op w.call m1 fd addr len).result = .throws →
        send w c (kindOf op) s addr len = .throws) := by
  have hlen := encode_length hw s addr len
  obtain ⟨a, c1, hwr, hin, hbytes, hcase⟩ :=
    wrap_spec (c := { c with mem := writeBytes c.mem w.sp (encode w s addr len) }) (n := 24) (by omega) (by omega)
      ho hm hp
  have hb : bytesAt c1.mem a.arg 24 = encode w s addr len := by
    rw [hbytes]
    have := bytesAt_write c.mem w.sp (encode w s addr len) (by omega)
    rw [hlen] at this
    exact this
  refine ⟨c1.mem, ?_, ?_, ?_⟩
  · intro x hx
    have hw1 : writeBytes c.mem w.sp (encode w s addr len) x = c.mem x :=
      writeBytes_out _ _ _ _ fun i hi => hx (w.sp, 24) (by simp) i (by omega)
    rcases hcase with ⟨_, rfl⟩ | ⟨_, rfl⟩
    · exact hw1
    · simp only
      rw [blit_else, hw1]
      intro i hi
      exact hx (p, 24) (by simp) i hi
  · intro res calls reads hs
    obtain ⟨q, hcb⟩ := turn_spec hw c1.mem hop a.arg hin hb fd hs
    have hfs : frameSize = 24 := rfl
    simp only [hfs] at hcb
    simp only [send, hfs, hwr, callback, hfd, hcb, answerOf]
    rcases hcase with ⟨rfl, rfl⟩ | ⟨rfl, rfl⟩
    · exact ⟨_, rfl, rfl, rfl⟩
    · exact ⟨_, rfl, by simp [unwrap], by simp [unwrap]⟩
  · intro hs
    have hcb := turn_throws hw c1.mem hop a.arg hin hb fd hs
    have hfs : frameSize = 24 := rfl
    simp only [hfs] at hcb
    simp only [send, hfs, hwr, callback, hfd]
    rcases ht : turn w c1.mem ⟨Callback.requestSize, ⟨.ofNat 64 (kindOf op), .ofNat 64 24, a.arg⟩, fd⟩ with ⟨o, calls⟩
    rw [ht] at hcb
    simp only at hcb
    subst hcb
    rfl

end Verif.NetEnd
