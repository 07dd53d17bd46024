import Verif.RelEnd.Model
import Verif.NetEnd.Props

/-!
# `openat` with a relative path, end to end: lemmas
-/

namespace Verif.RelEnd

open Verif.Bounds (Region contains contains_iff)
open Verif.Strings Verif.Strings.Spec
open Verif.FileTree (Export)
open Verif.Callback (Handler Packet Event Result tableOf dispatch_tableOf copyAddrs copyAddrs_length)
open Verif.PathSyscall (Log Kernel HostOp handleOpenat getPath openatBeneath sys resolveBeneath)
open Verif.ChildArgs (Bounds Child Wrapped wrapPtr wrapCStr unwrap bytesAt Apart InHeap Object blit blit_bytes blit_else)
open Verif.Syscall (CInt Regs Info Arg Reply)
open Verif.EndToEnd (le ofLe le_length ofLe_le64 ofLe_le32 copy_bytes Pool Outside wrap_spec bytesAt_write
  bytesAt_congr answerOf inHeap_mono textOf_snoc then_)
open Verif.NetEnd (World pass)

/-- What is fixed: the two processes as in `Verif.EndToEnd`; a system call of the host that fails gives `-1`. -/
structure Setup (w : World) (hist : List Export) (users : List Nat) : Prop where
  base : EndToEnd.Setup w.toWorld hist users
  pad2 : w.pad2.length = 4
  fails : ∀ l op, (w.kernel l op).1 < 0 → (w.kernel l op).1 = -1

/-- The call that opens the path `s`, as it stands, beneath the directory `fd` and nowhere else (`RESOLVE_BENEATH`). -/
def openOp (fd : Int) (s : List Byte) (flags mode : BitVec 32) : HostOp :=
  .openat2 fd (some s) (flags.signExtend 64) (mode.setWidth 64) 8

/-- What the host should do: open the path beneath the directory, and close its copy of the directory's descriptor if
it got one. -/
def calls (k : Kernel) (fd : Int) (s : List Byte) (flags mode : BitVec 32) : Log :=
  if 0 ≤ fd then then_ k (then_ k [] (openOp fd s flags mode)) (.close fd) else then_ k [] (openOp fd s flags mode)

theorem cText_snoc (s : List Byte) (h : (0 : Byte) ∉ s) : cText (s ++ [0]) = s := by
  rw [PathSyscall.cText_eq_textOf]
  exact textOf_snoc s h

/-- The handler on a path that can be read. -/
theorem handler_spec (w : World) (m : Mem) {a : Word} {s : List Byte} (h0 : (0 : Byte) ∉ s)
    (hp : getPath (w.toWorld.env m) a = .ok (some (s ++ [0]))) (fd : Int) (flags mode : CInt) :
    handleOpenat (w.toWorld.env m) fd a flags mode =
      .ok (⟨(w.kernel [] (openOp fd s flags mode)).1, -1⟩, calls w.kernel fd s flags mode) := by
  rw [handleOpenat, hp]
  simp only [Option.map_some, cText_snoc s h0, openatBeneath, sys, calls, then_, openOp, resolveBeneath, ge_iff_le]
  rfl

theorem encode_length {w : World} {hist : List Export} {users : List Nat} (hw : Setup w hist users) (dir : CInt)
    (path : Word) (flags mode : CInt) : (encode w dir path flags mode).length = 24 := by
  simp [encode, le_length, hw.pad2]

theorem decode_encode (w : World) (dir : CInt) (path : Word) (flags mode : CInt) :
    pathArg (encode w dir path flags mode) = path ∧ flagsArg (encode w dir path flags mode) = flags ∧
      modeArg (encode w dir path flags mode) = mode := by
  have h4 : ∀ v, (le 4 v).length = 4 := le_length 4
  have h8 : ∀ v, (le 8 v).length = 8 := le_length 8
  refine ⟨?_, ?_, ?_⟩
  · have e : (((encode w dir path flags mode).drop 8).take 8) = le 8 path.toNat := by
      have : encode w dir path flags mode =
          (le 4 mode.toNat ++ le 4 flags.toNat) ++ (le 8 path.toNat ++ (le 4 dir.toNat ++ w.pad2)) := by
        simp [encode]
      rw [this, List.drop_left' (by simp [h4]), List.take_left' (h8 _)]
    rw [pathArg, e, ofLe_le64]
  · have e : (((encode w dir path flags mode).drop 4).take 4) = le 4 flags.toNat := by
      have : encode w dir path flags mode =
          le 4 mode.toNat ++ (le 4 flags.toNat ++ (le 8 path.toNat ++ (le 4 dir.toNat ++ w.pad2))) := by
        simp [encode]
      rw [this, List.drop_left' (h4 _), List.take_left' (h4 _)]
    rw [flagsArg, e, ofLe_le32]
  · have e : (encode w dir path flags mode).take 4 = le 4 mode.toNat := by
      simp only [encode, List.append_assoc]
      rw [List.take_left' (h4 _)]
    rw [modeArg, e, ofLe_le32]

/-- The host's turn: a well-formed frame in the heap is served. -/
theorem turn_spec {w : World} {hist : List Export} {users : List Nat} (hw : Setup w hist users) (m : Mem) (data : Word)
    (hin : InHeap w.hdr w.region data 24) {dir : CInt} {path : Word} {flags mode : CInt}
    (hb : bytesAt m data 24 = encode w dir path flags mode) (fd : Int) {res : Result} {log : Log}
    (hs : handleOpenat (w.toWorld.env m) fd path flags mode = .ok (res, log)) :
    ∃ q, turn w m ⟨Callback.requestSize, ⟨3, .ofNat 64 frameSize, data⟩, fd⟩ =
      (.ok [.received q fd, .replied res.integer res.handle], log) := by
  have hd : Callback.dispatch w.table 3 = some (.builtin 3) := by
    rw [hw.base.table, dispatch_tableOf]
    rfl
  have hsv : served w m (bytesAt m data 24) fd = .ok (res, log) := by
    obtain ⟨d1, d2, d3⟩ := decode_encode w dir path flags mode
    rw [hb, served, d1, d2, d3]
    exact hs
  have hrun : run w m (.builtin 3) ⟨3, .ofNat 64 frameSize, data⟩ fd = (.ok res, copyAddrs data 24) := by
    have hc : contains w.hdr w.region data (BitVec.ofNat 64 frameSize) = true := hin
    have hc' : ¬ contains w.hdr w.region data (BitVec.ofNat 64 frameSize) = false := by rw [hc]; simp
    have hz : ¬ (BitVec.ofNat 64 frameSize ≠ BitVec.ofNat 64 frameSize) := fun h => h rfl
    simp only [run, Callback.invoke, if_neg hz, if_neg hc']
    have : (copyAddrs data frameSize).map m = bytesAt m data 24 := copy_bytes _ _ _
    rw [this, servedResult, hsv]
    rfl
  have hlen : ¬ (Callback.requestSize < Callback.requestSize) := by omega
  have hne : copyAddrs data 24 ≠ [] := by
    intro e
    have := copyAddrs_length data 24
    rw [e] at this
    simp at this
  refine ⟨⟨3, .ofNat 64 frameSize, data⟩, ?_⟩
  simp only [turn, effects, Callback.handle, if_neg hlen, hd, hrun, if_neg hne, copy_bytes, hsv, if_true]

attribute [local irreducible] encode in
/-- Sending a request: the frame arrives, the host serves it, and only the frame and its copy are written. -/
theorem send_spec {w : World} {hist : List Export} {users : List Nat} (hw : Setup w hist users) (c : Child) (dir : CInt)
    (path : Word) (flags mode : CInt) (ho : Object w.hdr w.region w.bounds w.sp 24) (p : Word) (ps : List Word)
    (hm : c.mallocs = p :: ps) (hp : InHeap w.hdr w.region p 24) {fd : Int} (hfd : pass w dir = .ok fd) :
    ∃ m1, (∀ x, Outside [(w.sp, 24), (p, 24)] x → m1 x = c.mem x) ∧
      ∀ res log, handleOpenat (w.toWorld.env m1) fd path flags mode = .ok (res, log) →
        ∃ c', send w c dir path flags mode = .ok (EndToEnd.reply w.toWorld res.integer res.handle, log, c') ∧
          c'.live = c.live ∧ c'.mem = m1 := by
  have hlen := encode_length hw dir path flags mode
  obtain ⟨a, c1, hwr, hin, hbytes, hcase⟩ :=
    wrap_spec (c := { c with mem := writeBytes c.mem w.sp (encode w dir path flags mode) }) (n := 24)
      (by omega) (by omega) ho hm hp
  have hb : bytesAt c1.mem a.arg 24 = encode w dir path flags mode := by
    rw [hbytes]
    have := bytesAt_write c.mem w.sp (encode w dir path flags mode) (by omega)
    rw [hlen] at this
    exact this
  refine ⟨c1.mem, ?_, ?_⟩
  · intro x hx
    have hw1 : writeBytes c.mem w.sp (encode w dir path flags mode) x = c.mem x :=
      writeBytes_out _ _ _ _ fun i hi => hx (w.sp, 24) (by simp) i (by rw [hlen] at hi; exact hi)
    rcases hcase with ⟨_, rfl⟩ | ⟨_, rfl⟩
    · exact hw1
    · simp only
      rw [blit_else, hw1]
      intro i hi
      exact hx (p, 24) (by simp) i hi
  · intro res log hs
    obtain ⟨q, hcb⟩ := turn_spec hw c1.mem a.arg hin hb fd hs
    have hfs : frameSize = 24 := rfl
    simp only [hfs] at hcb
    simp only [send, hfs, hwr, callback, hfd, hcb, answerOf]
    rcases hcase with ⟨rfl, rfl⟩ | ⟨rfl, rfl⟩
    · exact ⟨_, rfl, rfl, rfl⟩
    · exact ⟨_, rfl, by simp [unwrap], by simp [unwrap]⟩

end Verif.RelEnd
