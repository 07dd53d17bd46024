import Verif.BsdAuthority.UsersExact

/-!
# Messages do not change how later messages are judged, on FreeBSD (property C133)

As `Verif.Authority.Memoryless`.
-/

namespace Verif.BsdAuthority

open Verif.Callback (Packet Event)
open Verif.Bounds (Region)
open Verif.Authority (Lib)
open Spec

theorem holds_unique {l l' : Lib} {i j : Nat} {as bs : List Action} (h : Holds l i as) (h' : Holds l' j bs)
    (he : exportsTo i as = exportsTo j bs) (hc : configsFor i as = configsFor j bs)
    (hh : handlersFor i as = handlersFor j bs) : l = l' := by
  obtain ⟨t, p, b⟩ := l
  obtain ⟨t', p', b'⟩ := l'
  have h1 : t = t' := h.tree.trans ((congrArg _ he).trans h'.tree.symm)
  have h2 : p = p' := h.policies.trans ((congrArg _ hc).trans h'.policies.symm)
  have h3 : b = b' := h.table.trans ((congrArg _ hh).trans h'.table.symm)
  rw [h1, h2, h3]

/-- **C133.** Two sandboxes of the same shape to which their hosts have granted the same are treated alike: the same message,
with the same memory, kernel and functions, gets the same reply, and the host does the same for it, whatever else happened before
in either host. -/
theorem bsd_same_grants_same_treatment (hdr : Word) (regs regs' : Nat → Region) (as bs : List Action)
    (hfew : ∀ i, (handlersFor i as).length + 7 ≤ 2 ^ 31 - 1) (hfew' : ∀ i, (handlersFor i bs).length + 7 ≤ 2 ^ 31 - 1)
    (k n i j : Nat) (o : Outside) (p : Packet) (hk : as[k]? = some (.message i o p)) (hn : bs[n]? = some (.message j o p))
    (hmap : regs i = regs' j)
    (he : exportsTo i (as.take k) = exportsTo j (bs.take n)) (hc : configsFor i (as.take k) = configsFor j (bs.take n))
    (hh : handlersFor i (as.take k) = handlersFor j (bs.take n)) :
    (runAll hdr regs start as).1[k]? = (runAll hdr regs' start bs).1[n]? := by
  obtain ⟨l, hl, h1⟩ := at_message hdr regs as hfew k i o p hk
  obtain ⟨l', hl', h2⟩ := at_message hdr regs' bs hfew' n j o p hn
  rw [h1, h2, holds_unique hl hl' he hc hh, hmap]

/-- Whether an action is one of the host's grants (`src/libsandbox.cc:691-697`). -/
def isGrant : Action → Bool
  | .exports _ _ => true
  | .config _ _ => true
  | .register _ _ => true
  | _ => false

theorem grants_kept (i : Nat) (as : List Action) : exportsTo i (as.filter isGrant) = exportsTo i as ∧
    configsFor i (as.filter isGrant) = configsFor i as ∧ handlersFor i (as.filter isGrant) = handlersFor i as := by
  unfold exportsTo configsFor handlersFor
  simp only [List.filterMap_filter]
  refine ⟨?_, ?_, ?_⟩ <;> congr 1 <;> funext a <;> cases a <;> simp [isGrant]

/-- **C133.** Earlier messages make no difference: what the host says and does about a message is what it would say and do if
nothing but its own grants had come before. -/
theorem bsd_messages_leave_no_trace (hdr : Word) (regs : Nat → Region) (as : List Action)
    (hfew : ∀ i, (handlersFor i as).length + 7 ≤ 2 ^ 31 - 1) (k i : Nat) (o : Outside) (p : Packet)
    (hk : as[k]? = some (.message i o p)) :
    (runAll hdr regs start as).1[k]? =
      (runAll hdr regs start ((as.take k).filter isGrant ++ [.message i o p])).1[((as.take k).filter isGrant).length]? := by
  obtain ⟨g1, g2, g3⟩ := grants_kept i (as.take k)
  have ht : ((as.take k).filter isGrant ++ [Action.message i o p]).take ((as.take k).filter isGrant).length =
      (as.take k).filter isGrant := List.take_left'  rfl
  refine bsd_same_grants_same_treatment hdr regs regs as _ hfew ?_ k _ i i o p hk ?_ rfl ?_ ?_ ?_
  · intro m
    have hm : handlersFor m ((as.take k).filter isGrant ++ [.message i o p]) = handlersFor m (as.take k) := by
      rw [← (grants_kept m (as.take k)).2.2]
      unfold handlersFor
      rw [List.filterMap_append]
      simp
    have hsplit : handlersFor m (as.take k ++ as.drop k) = handlersFor m (as.take k) ++ handlersFor m (as.drop k) :=
      List.filterMap_append
    rw [List.take_append_drop] at hsplit
    have := hfew m
    rw [hsplit, List.length_append] at this
    rw [hm]
    omega
  · simp
  · rw [ht, g1]
  · rw [ht, g2]
  · rw [ht, g3]

/-- The message of sandbox 0 that calls its function comes after others. -/
example : (runAll Rpc.exCfg.hdr exRegs start exActs).1[7]? =
    (runAll Rpc.exCfg.hdr exRegs start
      [.exports 0 ⟨true, [47, 97], 5⟩, .config 0 (.allow .connect), .register 0 33, exMsg 0 7 8 (-1)]).1[3]? :=
  bsd_messages_leave_no_trace Rpc.exCfg.hdr exRegs exActs exActs_ok.2.1 7 0 _ _ rfl

end Verif.BsdAuthority
