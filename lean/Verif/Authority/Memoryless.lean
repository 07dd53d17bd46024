import Verif.Authority.UsersExact

/-!
# Messages do not change how later messages are judged (property C133)

What the host does with a message depends on the message, on what is outside the library at that moment, and on what the host
has granted to this sandbox; not on which sandbox it is, nor on any earlier message.
-/

namespace Verif.Authority

open Verif.Callback (Packet Event)
open Verif.Rpc (Cfg Range Mapping Sys exCfg exMap exSys buddyRange)
open Spec

theorem holds_unique {l l' : Lib} {i j : Nat} {as bs : List Action} (h : Holds l i as) (h' : Holds l' j bs)
    (he : exportsTo i as = exportsTo j bs) (hc : configsFor i as = configsFor j bs)
    (hh : handlersFor i as = handlersFor j bs) : l = l' := by
  obtain ⟨t, p, b⟩ := l
  obtain ⟨t', p', b'⟩ := l'
  have h1 : t = t' := h.tree.trans ((congrArg _ he).trans h'.tree.symm)
  have h2 : p = p' := h.policies.trans ((congrArg _ hc).trans h'.policies.symm)
  have h3 : b = b' := h.table.trans ((congrArg _ hh).trans h'.table.symm)
  rw [h1, h2, h3]

/-- **C133.** Two sandboxes of the same shape to which their hosts have granted the same are treated alike: the same message,
with the same memory, kernel and functions, gets the same reply, and the host does the same for it, whatever else happened before
in either host. -/
theorem same_grants_same_treatment {σ τ} (c : Cfg) (R : Range σ) (maps : Nat → Mapping) (sys : Sys σ) (c' : Cfg) (R' : Range τ)
    (maps' : Nat → Mapping) (sys' : Sys τ) (as bs : List Action)
    (hfew : ∀ i, (handlersFor i as).length + 7 ≤ 2 ^ 31 - 1) (hfew' : ∀ i, (handlersFor i bs).length + 7 ≤ 2 ^ 31 - 1)
    (k n i j : Nat) (o : Outside) (p : Packet) (hk : as[k]? = some (.message i o p)) (hn : bs[n]? = some (.message j o p))
    (hhdr : c.hdr = c'.hdr) (hmap : (maps i).region c = (maps' j).region c')
    (he : exportsTo i (as.take k) = exportsTo j (bs.take n)) (hc : configsFor i (as.take k) = configsFor j (bs.take n))
    (hh : handlersFor i (as.take k) = handlersFor j (bs.take n)) :
    (runAll c R maps (start sys) as).1[k]? = (runAll c' R' maps' (start sys') bs).1[n]? := by
  obtain ⟨l, hl, h1⟩ := at_message c R maps sys as hfew k i o p hk
  obtain ⟨l', hl', h2⟩ := at_message c' R' maps' sys' bs hfew' n j o p hn
  rw [h1, h2, holds_unique hl hl' he hc hh, hhdr, hmap]

/-- Whether an action is one of the host's grants (`src/libsandbox.cc:691-697`). -/
def isGrant : Action → Bool
  | .exports _ _ => true
  | .config _ _ => true
  | .register _ _ => true
  | _ => false

theorem grants_kept (i : Nat) (as : List Action) : exportsTo i (as.filter isGrant) = exportsTo i as ∧
    configsFor i (as.filter isGrant) = configsFor i as ∧ handlersFor i (as.filter isGrant) = handlersFor i as := by
  unfold exportsTo configsFor handlersFor
  simp only [List.filterMap_filter]
  refine ⟨?_, ?_, ?_⟩ <;> congr 1 <;> funext a <;> cases a <;> simp [isGrant]

/-- **C133.** Earlier messages make no difference: what the host says and does about a message is what it would say and do if
nothing but its own grants had come before. -/
theorem messages_leave_no_trace {σ} (c : Cfg) (R : Range σ) (maps : Nat → Mapping) (sys : Sys σ) (as : List Action)
    (hfew : ∀ i, (handlersFor i as).length + 7 ≤ 2 ^ 31 - 1) (k i : Nat) (o : Outside) (p : Packet)
    (hk : as[k]? = some (.message i o p)) :
    (runAll c R maps (start sys) as).1[k]? =
      (runAll c R maps (start sys) ((as.take k).filter isGrant ++ [.message i o p])).1[((as.take k).filter isGrant).length]? := by
  obtain ⟨g1, g2, g3⟩ := grants_kept i (as.take k)
  have ht : ((as.take k).filter isGrant ++ [Action.message i o p]).take ((as.take k).filter isGrant).length =
      (as.take k).filter isGrant := List.take_left'  rfl
  refine same_grants_same_treatment c R maps sys c R maps sys as _ hfew ?_ k _ i i o p hk ?_ rfl rfl ?_ ?_ ?_
  · intro m
    have hm : handlersFor m ((as.take k).filter isGrant ++ [.message i o p]) = handlersFor m (as.take k) := by
      rw [← (grants_kept m (as.take k)).2.2]
      unfold handlersFor
      rw [List.filterMap_append]
      simp
    have hsplit : handlersFor m (as.take k ++ as.drop k) = handlersFor m (as.take k) ++ handlersFor m (as.drop k) :=
      List.filterMap_append
    rw [List.take_append_drop] at hsplit
    have := hfew m
    rw [hsplit, List.length_append] at this
    rw [hm]
    omega
  · simp
  · rw [ht, g1]
  · rw [ht, g2]
  · rw [ht, g3]

/-- The message of sandbox 0 that calls its function comes after others. -/
example : (runAll exCfg (buddyRange exCfg) exMap (start exSys) exActs).1[9]? =
    (runAll exCfg (buddyRange exCfg) exMap (start exSys)
      [.exports 0 ⟨true, [47, 97], 5⟩, .config 0 (.allow .connect), .register 0 33, exMsg 0 7 8 (-1)]).1[3]? :=
  messages_leave_no_trace exCfg (buddyRange exCfg) exMap exSys exActs exActs_ok.2.1 9 0 _ _ rfl

end Verif.Authority
