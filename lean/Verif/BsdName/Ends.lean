import Verif.BsdName.Props
import Verif.NameEnd.Ends

/-!
# How every name lookup on FreeBSD ends, whatever the program passes (property C126)
-/

namespace Verif.BsdName

open Verif.Strings
open Verif.FileTree (Export)
open Verif.Callback (Handler Packet Event Result)
open Verif.Net (Op Policies Config Callee configure)
open Verif.Net.Spec (IsLast Untouched target)
open Verif.AddrInfo (Query Info Out infoSize)
open Verif.ChildArgs (Bounds Child Wrapped wrapPtr wrapGetAddrInfo unwrap blit)
open Verif.Syscall (CInt Reply)
open Verif.EndToEnd (End converts copied Ended around wrap_ends ended_mem)
open Verif.NameEnd (World Calls frameSize release Setup World.env pointers wrapGetAddrInfo_all wrapAll)

theorem served_ends {w : World} {hist : List Export} {users : List Nat} {conf : List Config}
    (hw : Setup w hist users conf) (m : Mem) (bs : List Byte) :
    ((served w m 6 bs).result = .throws ∧ IsLast conf .getAddrInfo (.register .getAddrInfo none)) ∨
    ∃ res, (served w m 6 bs).result = .ok res := by
  have str : ∀ a, ∃ o, (strdupOut w.hdr w.region w.malloc m m a).result = .ok o := by
    intro a
    rcases strdupOut_safe w.hdr w.region w.malloc hw.base.base.mallocOk hw.base.base.mallocTotal m m a with
      h | ⟨b, h, _⟩ <;> exact ⟨_, h⟩
  rw [served, if_pos rfl, handleGetaddrinfo]
  split
  · exact .inr ⟨_, rfl⟩
  · split
    · exact .inr ⟨_, rfl⟩
    · obtain ⟨o1, h1⟩ := str (arg bs 0)
      obtain ⟨o2, h2⟩ := str (arg bs 1)
      simp only [World.env, h1, h2]
      by_cases hg : w.policies.get .getAddrInfo = .handler none
      · left
        refine ⟨by simp only [ask, Net.invoke, hg], ?_⟩
        rw [hw.base.policies] at hg
        exact (NetEnd.empty_last conf .getAddrInfo).1 hg
      · right
        have fin : ∀ v slot r res calls, ∃ x, (finish v slot r res calls).result = .ok x := by
          intro v slot r res calls
          unfold finish
          split
          · split
            · split <;> exact ⟨_, rfl⟩
            · exact ⟨_, rfl⟩
          · exact ⟨_, rfl⟩
        unfold ask Net.invoke
        rcases hp : w.policies.get .getAddrInfo with _ | _ | _ | g
        · exact fin _ _ _ _ _
        · exact fin _ _ _ _ _
        · exact absurd hp hg
        · exact fin _ _ _ _ _

theorem callback_ends {w : World} {hist : List Export} {users : List Nat} {conf : List Config}
    (hw : Setup w hist users conf) (c : Child) (data : Word) :
    Ended (fun _ => True) False (IsLast conf .getAddrInfo (.register .getAddrInfo none)) c (callback w c data)
      .answered := by
  have hd : Callback.dispatch w.table (6 : Word) = some (.builtin 6) := by
    rw [hw.base.base.table, Callback.dispatch_tableOf]
    rfl
  have hlen : ¬ (Callback.requestSize < Callback.requestSize) := by omega
  have hrun : ((run w c.mem (.builtin 6) ⟨6, .ofNat 64 frameSize, data⟩ (-1)).1 = .throws ∧
        IsLast conf .getAddrInfo (.register .getAddrInfo none)) ∨
      ∃ res, (run w c.mem (.builtin 6) ⟨6, .ofNat 64 frameSize, data⟩ (-1)).1 = .ok res := by
    have hz : ¬ (BitVec.ofNat 64 frameSize ≠ BitVec.ofNat 64 frameSize) := fun h => h rfl
    simp only [run, Callback.invoke, if_neg hz]
    split
    · exact .inr ⟨_, rfl⟩
    · exact served_ends hw c.mem _
  rcases hrun with ⟨h1, h2⟩ | ⟨res, h1⟩
  · simp only [callback, turn, Callback.handle, if_neg hlen, hd, h1, Ended]
    exact h2
  · simp only [callback, turn, Callback.handle, if_neg hlen, hd, h1, if_true, EndToEnd.answerOf, Ended]
    exact ⟨trivial, trivial⟩

theorem send_ends {w : World} {hist : List Export} {users : List Nat} {conf : List Config}
    (hw : Setup w hist users conf) (c : Child) (host serv hints res : Word) :
    Ended (fun _ => True) False (IsLast conf .getAddrInfo (.register .getAddrInfo none)) c
      (send w c host serv hints res) (converts [copied w.bounds w.sp] c.mallocs.length) := by
  have e : send w c host serv hints res =
      around (wrapPtr w.bounds { c with mem := writeBytes c.mem w.sp (encode host serv hints res) } w.sp frameSize)
        (fun f c => callback w c f.arg) false frameSize := by
    simp only [send, around]
    rcases wrapPtr w.bounds { c with mem := writeBytes c.mem w.sp (encode host serv hints res) } w.sp frameSize with
      ⟨a, c1⟩ | _ | _ | _ <;> try rfl
    simp only
    rcases callback w c1 a.arg with ⟨x, y, z⟩ | _ | _ | _ <;> rfl
  rw [e]
  refine ended_mem (c' := { c with mem := writeBytes c.mem w.sp (encode host serv hints res) }) rfl ?_
  exact wrap_ends w.bounds { c with mem := writeBytes c.mem w.sp (encode host serv hints res) } w.sp frameSize false [] _
    fun a c' => callback_ends hw c' a.arg

/-- The lookup up to the point where the arguments are released, `src/library_runner.cc:961-974`, as one nest. -/
def asking (w : World) (c : Child) (host serv hints : Word) (hl sl : Nat) : Outcome (Reply × Calls × Child) :=
  around (wrapPtr w.bounds c host (hl + 1)) (fun h c =>
    around (wrapPtr w.bounds c serv (sl + 1)) (fun s c =>
      around (wrapPtr w.bounds c hints infoSize) (fun hi c =>
        around (wrapPtr w.bounds c w.localRes 8) (fun r c => send w c h.arg s.arg hi.arg r.arg) true 8)
        false infoSize) false (sl + 1)) false (hl + 1)

theorem getaddrinfo_asked (w : World) (c : Child) (host serv hints res : Word) (hl sl : Nat) :
    getaddrinfo w c host serv hints res hl sl =
      (match asking w c host serv hints hl sl with
        | .ok (rep, calls, c) =>
          if res = 0 then .ub
          else .ok (rep.response.setWidth 32, calls, { c with mem := blit c.mem res w.localRes 8 })
        | .abort => .abort
        | .throws => .throws
        | .ub => .ub) := by
  simp only [getaddrinfo, asking, around, wrapGetAddrInfo_all, wrapAll, release]
  rcases wrapPtr w.bounds c host (hl + 1) with ⟨a1, c1⟩ | _ | _ | _ <;> try rfl
  simp only
  rcases wrapPtr w.bounds c1 serv (sl + 1) with ⟨a2, c2⟩ | _ | _ | _ <;> try rfl
  simp only
  rcases wrapPtr w.bounds c2 hints infoSize with ⟨a3, c3⟩ | _ | _ | _ <;> try rfl
  simp only
  rcases wrapPtr w.bounds c3 w.localRes 8 with ⟨a4, c4⟩ | _ | _ | _ <;> try rfl
  simp only
  rcases send w c4 a1.arg a2.arg a3.arg a4.arg with ⟨x, y, z⟩ | _ | _ | _ <;> rfl

/-! ## C126 -/

/-- **C126, how every lookup ends.**  A sandboxed program calls `getaddrinfo` with any pointers at all, and its child has
any number of blocks left.  The call ends as the conversion of its pointers does: it is undefined if a null pointer comes
to be followed, the child dies if a block is needed and there is none, and otherwise the host answers; the call returns,
and the child's blocks are free again; unless the place for the result is null, when the child then writes to address
zero, or the host has registered an empty function for lookups and an exception goes through the host. -/
theorem bsd_lookup_ends {w : World} {hist : List Export} {users : List Nat} {conf : List Config}
    (hw : Setup w hist users conf) (c : Child) (host serv hints res : Word) (hl sl : Nat) :
    match converts (pointers w host serv hints) c.mallocs.length with
    | .answered =>
      (res ≠ 0 ∧ ∃ n calls c', getaddrinfo w c host serv hints res hl sl = .ok (n, calls, c') ∧ c'.live = c.live) ∨
      (res = 0 ∧ getaddrinfo w c host serv hints res hl sl = .ub) ∨
      (getaddrinfo w c host serv hints res hl sl = .throws ∧ IsLast conf .getAddrInfo (.register .getAddrInfo none))
    | .dies => getaddrinfo w c host serv hints res hl sl = .abort
    | .undefined => getaddrinfo w c host serv hints res hl sl = .ub := by
  have he : Ended (fun _ => True) False (IsLast conf .getAddrInfo (.register .getAddrInfo none)) c
      (asking w c host serv hints hl sl) (converts (pointers w host serv hints) c.mallocs.length) := by
    refine wrap_ends w.bounds c host (hl + 1) false _ _ fun h c => ?_
    refine wrap_ends w.bounds c serv (sl + 1) false _ _ fun s c => ?_
    refine wrap_ends w.bounds c hints infoSize false _ _ fun hi c => ?_
    exact wrap_ends w.bounds c w.localRes 8 true _ _ fun r c => send_ends hw c _ _ _ _
  rw [getaddrinfo_asked]
  generalize asking w c host serv hints hl sl = r at he
  generalize converts (pointers w host serv hints) c.mallocs.length = e at he
  rcases r with ⟨rep, calls, c'⟩ | _ | _ | _ <;> cases e <;> simp only [Ended] at he
  · by_cases hz : res = 0
    · exact .inr (.inl ⟨hz, by simp only [if_pos hz]⟩)
    · refine .inl ⟨hz, rep.response.setWidth 32, calls, { c' with mem := blit c'.mem res w.localRes 8 }, ?_, he.1⟩
      simp only [if_neg hz]
  · rfl
  · exact .inr (.inr ⟨rfl, he⟩)
  · rfl

/-- With three blocks everything of the example is converted, with two it is not; and a lookup without hints, which is
permitted, is undefined. -/
example : converts (pointers NameEnd.exWorld 0x5000 0x5100 0x19000) 3 = .answered ∧
    getaddrinfo NameEnd.exWorld { NameEnd.exChild 104 with mallocs := [0x18000, 0x18200] } 0x5000 0x5100 0x19000 0x6000 1 0 = .abort ∧
    getaddrinfo NameEnd.exWorld (NameEnd.exChild 104) 0x5000 0x5100 0 0x6000 1 0 = .ub := by
  refine ⟨by decide, ?_, ?_⟩
  · exact bsd_lookup_ends NameEnd.exSetup { NameEnd.exChild 104 with mallocs := [0x18000, 0x18200] } 0x5000 0x5100 0x19000 0x6000 1 0
  · exact bsd_lookup_ends NameEnd.exSetup (NameEnd.exChild 104) 0x5000 0x5100 0 0x6000 1 0

end Verif.BsdName
