import Verif.BsdAuthority.PathsExact
import Verif.Authority.UsersExact

/-!
# Exactly what a sandbox on FreeBSD is told about its calls to the functions of the host: specification and theorems (property C132)

As `Verif.Authority.UsersExact`; `ENOSYS` is 78.
-/

namespace Verif.BsdAuthority

open Verif.Bounds (Region)
open Verif.Callback (Packet Event Result)
open Verif.Authority (inside_iff invoke_frame frame_eq)
open Verif.Authority.Spec (Accepted frameOf)
open Verif.BsdAuthority.Spec

namespace Spec

/-- What is said about a message of a kind from 7 upwards, number and descriptor, and the functions that are called for it with
their arguments: the `n`-th function registered for this sandbox has the kind `7 + n` (`src/libsandbox.cc:626-697`,
`include/process_sandbox/callbacks.h:149-163`).  The size of a type is never 0. -/
inductive UserTold (users : List Nat) (hdr : Word) (r : Region) (o : Outside) (p : Packet) :
    Int → Int → List (Nat × List Byte × Int) → Prop where
  | unknown : 7 + users.length ≤ p.req.kind.toNat → UserTold users hdr r o p (-78) (-1) []
  | frame (n u : Nat) : p.req.kind.toNat = 7 + n → users[n]? = some u → ¬ Accepted hdr r p (max 1 (o.user u).1) →
      UserTold users hdr r o p (-78) (-1) []
  | called (n u : Nat) (x h : Int) : p.req.kind.toNat = 7 + n → users[n]? = some u → Accepted hdr r p (max 1 (o.user u).1) →
      (o.user u).2 (frameOf o.toLinux p (max 1 (o.user u).1)) p.fd = .ok ⟨x, h⟩ →
      UserTold users hdr r o p x h [(u, frameOf o.toLinux p (max 1 (o.user u).1), p.fd)]

end Spec

variable {hdr : Word} {r : Region} {o : Outside}

/-- **C132.** Exactly what a sandbox is told about a message of a kind that is not built in: `ENOSYS` if the host has registered
no such function for this sandbox or the frame does not fit it; otherwise that function is called, once, with the bytes that
were in the frame and the descriptor that came, and its result is passed on, with the descriptor that it returned. -/
theorem bsd_user_told (hdr : Word) (regs : Nat → Region) (hregs : ∀ i, (regs i).WF hdr)
    (as : List Action) (hfew : ∀ i, (handlersFor i as).length + 7 ≤ 2 ^ 31 - 1) (k i : Nat) (o : Outside) (p : Packet)
    (hk : as[k]? = some (.message i o p)) (h7 : 7 ≤ p.req.kind.toNat) (hsize : ∀ u, (o.user u).1 < 2 ^ 64)
    (es : List Event) (e : Effects) (hs : (runAll hdr regs start as).1[k]? = some (.handled (.ok es) e))
    (x h : Int) (hx : Event.replied x h ∈ es) : ∃ calls, e = { users := calls } ∧
    UserTold (handlersFor i (as.take k)) hdr (regs i) o p x h calls := by
  obtain ⟨l, hl, he⟩ := at_message hdr regs as hfew k i o p hk
  have hwf := hregs i
  rw [he] at hs
  simp only [Option.some.injEq, Seen.handled.injEq] at hs
  obtain ⟨h1, h2⟩ := hs
  have hd : Callback.dispatch l.table.handlers p.req.kind =
      ((handlersFor i (as.take k))[p.req.kind.toNat - 7]?).map .user := by
    rw [hl.table, Callback.dispatch_tableOf, Callback.Spec.handlerFor, if_neg (by omega)]
  unfold handle at h1 h2
  by_cases hlen : p.len < Callback.requestSize
  · rw [if_pos hlen] at h1; cases h1; cases hx
  rw [if_neg hlen] at h1 h2
  cases hu : (handlersFor i (as.take k))[p.req.kind.toNat - 7]? with
  | none =>
    rw [hu, Option.map_none] at hd
    simp only [hd] at h1 h2
    have hge := List.getElem?_eq_none_iff.1 hu
    cases h1
    cases h2
    refine ⟨[], rfl, ?_⟩
    simp only [List.mem_cons, List.not_mem_nil, or_false, reduceCtorEq, false_or] at hx
    split at hx
    · cases hx; exact .unknown (by omega)
    · cases hx
  | some u =>
    rw [hu, Option.map_some] at hd
    simp only [hd] at h1 h2
    have hn : p.req.kind.toNat = 7 + (p.req.kind.toNat - 7) := by omega
    have hpos : 0 < max 1 (o.user u).1 := by omega
    have h64 : max 1 (o.user u).1 < 2 ^ 64 := by have := hsize u; omega
    have hres : run hdr (regs i) l o (.user u) p.req p.fd = (.ok ⟨x, h⟩, e) := by
      rcases hr : run hdr (regs i) l o (.user u) p.req p.fd with ⟨y, e'⟩
      rw [hr] at h1 h2
      cases y with
      | ok res =>
        cases h1
        cases h2
        simp only [List.mem_cons, List.not_mem_nil, or_false, reduceCtorEq, false_or] at hx
        split at hx
        · cases hx; rfl
        · cases hx
      | abort => cases h1
      | throws => cases h1
      | ub => cases h1
    unfold run at hres
    simp only [show (behind hdr (regs i) l o (.user u)).1 = max 1 (o.user u).1 from rfl,
      show (behind hdr (regs i) l o (.user u)).2 =
        fun bs fd => ((o.user u).2 bs fd, { users := [(u, bs, fd)] }) from rfl] at hres
    have hf := invoke_frame (o := o.toLinux) hwf p (max 1 (o.user u).1) hpos h64 (fun bs f => (o.user u).2 bs f)
    by_cases hacc : Accepted hdr (regs i) p (max 1 (o.user u).1)
    · have ha : (Callback.invoke hdr (regs i) (max 1 (o.user u).1)
          (fun bs f => (o.user u).2 bs f) o.frame p.req p.fd).2 = Callback.copyAddrs p.req.data (max 1 (o.user u).1) := by
        obtain ⟨a1, a2⟩ := hacc
        have hsz : p.req.size = BitVec.ofNat 64 (max 1 (o.user u).1) := by
          apply BitVec.eq_of_toNat_eq; rw [a1]; simp; omega
        unfold Callback.invoke
        rw [if_neg (by simpa using hsz), if_neg (by rw [hsz, (inside_iff hwf p.req.data _ hpos h64).2 a2]; decide)]
      have hne : Callback.copyAddrs p.req.data (max 1 (o.user u).1) ≠ [] := by
        intro h
        have := Callback.copyAddrs_length p.req.data (max 1 (o.user u).1)
        rw [h, List.length_nil] at this
        omega
      rw [ha, if_neg hne, hf.1 hacc, frame_eq] at hres
      obtain ⟨g1, g2⟩ := Prod.mk.inj hres
      exact ⟨_, g2.symm, .called _ u x h hn hu hacc g1⟩
    · rw [Callback.invoke_refuses hdr (regs i) hwf _ h64 _ o.frame p.req p.fd hacc] at hres
      cases hres
      exact ⟨[], rfl, .frame _ u hn hu hacc⟩

/-- What is said, and what is called, is settled by the message, the memory, the functions and their registrations. -/
theorem userTold_unique {users : List Nat} {p : Packet} {x y h g : Int} {cs ds : List (Nat × List Byte × Int)}
    (hx : UserTold users hdr r o p x h cs) (hy : UserTold users hdr r o p y g ds) : x = y ∧ h = g ∧ cs = ds := by
  have key : ∀ {n m u v : Nat}, p.req.kind.toNat = 7 + n → p.req.kind.toNat = 7 + m → users[n]? = some u →
      users[m]? = some v → u = v := by
    intro n m u v h1 h2 h3 h4
    have : n = m := by omega
    subst this
    rw [h3] at h4
    exact Option.some.inj h4
  have none : ∀ {n u : Nat} {q : Prop}, p.req.kind.toNat = 7 + n → users[n]? = some u →
      7 + users.length ≤ p.req.kind.toNat → q := by
    intro n u q h1 h2 h3
    obtain ⟨h4, -⟩ := List.getElem?_eq_some_iff.1 h2
    omega
  cases hx with
  | unknown h1 =>
    cases hy with
    | unknown => exact ⟨rfl, rfl, rfl⟩
    | frame n u g1 g2 => exact none g1 g2 h1
    | called n u _ _ g1 g2 => exact none g1 g2 h1
  | frame n u h1 h2 h3 =>
    cases hy with
    | unknown => exact ⟨rfl, rfl, rfl⟩
    | frame => exact ⟨rfl, rfl, rfl⟩
    | called m v _ _ g1 g2 g3 =>
      obtain rfl := key h1 g1 h2 g2
      exact absurd g3 h3
  | called n u _ _ h1 h2 h3 h4 =>
    cases hy with
    | unknown g1 => exact none h1 h2 g1
    | frame m v g1 g2 g3 =>
      obtain rfl := key h1 g1 h2 g2
      exact absurd h3 g3
    | called m v _ _ g1 g2 g3 g4 =>
      obtain rfl := key h1 g1 h2 g2
      rw [h4] at g4
      cases g4
      exact ⟨rfl, rfl, rfl⟩

/-! ### Examples -/

/-- Function 33 is registered for sandbox 0, which gets its answer. -/
example : ∃ calls, UserTold [33] Rpc.exCfg.hdr (exRegs 0) (exOut (Rpc.exMap 0).base)
    ⟨24, ⟨7, 8, (Rpc.exMap 0).base + 0x1000⟩, -1⟩ 33 (-1) calls := by
  obtain ⟨h1, h2, h3, h4, h5⟩ := exActs_ok
  obtain ⟨es, e, ha, -, hb⟩ := bsd_every_message_answered _ _ exRegs_wf exActs h2 h3 7 0 _ _ rfl (h5 _)
  obtain ⟨x, h, rfl⟩ := hb (Nat.le_refl 24)
  have hx : Event.replied x h ∈ [Event.received ⟨7, 8, (Rpc.exMap 0).base + 0x1000⟩ (-1), .replied x h] := by simp
  have hl : ((runAll Rpc.exCfg.hdr exRegs start exActs).1[7]?).bind replyOf = some (33, -1) := by decide +kernel
  rw [ha] at hl
  have hl : some (x, h) = some ((33 : Int), (-1 : Int)) := hl
  cases hl
  obtain ⟨calls, -, h⟩ := bsd_user_told _ _ exRegs_wf exActs h2 7 0 _ _ rfl (by decide)
    (fun u => by show 8 < 2 ^ 64; decide) _ e ha _ _ hx
  exact ⟨calls, h⟩

/-- Nothing is registered for sandbox 1. -/
example : UserTold [] Rpc.exCfg.hdr (exRegs 1) (exOut (Rpc.exMap 1).base)
    ⟨24, ⟨7, 8, (Rpc.exMap 1).base + 0x1000⟩, -1⟩ (-78) (-1) [] := .unknown (by decide)

end Verif.BsdAuthority
