import Verif.Authority.PathsExact

/-!
# Exactly what a sandbox is told about its calls to the functions of the host: specification and theorems (property C132)

For messages of the kinds from 7 upwards, in runs with any number of sandboxes: the answer and the function that is called, in
terms of the message, the memory and the functions that the host has registered for this sandbox.
-/

namespace Verif.Authority

open Verif.Bounds (Region)
open Verif.Callback (Packet Event Result)
open Verif.Rpc (Cfg Range Mapping Sys exCfg exMap exSys buddyRange)
open Verif.Rpc.Spec (MapOk)
open Spec

namespace Spec

/-- What is said about a message of a kind from 7 upwards, number and descriptor, and the functions that are called for it with
their arguments: the `n`-th function registered for this sandbox has the kind `7 + n` (`src/libsandbox.cc:626-697`,
`include/process_sandbox/callbacks.h:149-163`).  The size of a type is never 0. -/
inductive UserTold (users : List Nat) (hdr : Word) (r : Region) (o : Outside) (p : Packet) :
    Int → Int → List (Nat × List Byte × Int) → Prop where
  | unknown : 7 + users.length ≤ p.req.kind.toNat → UserTold users hdr r o p (-38) (-1) []
  | frame (n u : Nat) : p.req.kind.toNat = 7 + n → users[n]? = some u → ¬ Accepted hdr r p (max 1 (o.user u).1) →
      UserTold users hdr r o p (-38) (-1) []
  | called (n u : Nat) (x h : Int) : p.req.kind.toNat = 7 + n → users[n]? = some u → Accepted hdr r p (max 1 (o.user u).1) →
      (o.user u).2 (frameOf o p (max 1 (o.user u).1)) p.fd = .ok ⟨x, h⟩ →
      UserTold users hdr r o p x h [(u, frameOf o p (max 1 (o.user u).1), p.fd)]

end Spec

variable {hdr : Word} {r : Region} {o : Outside}

/-- **C132.** Exactly what a sandbox is told about a message of a kind that is not built in: `ENOSYS` if the host has registered
no such function for this sandbox or the frame does not fit it; otherwise that function is called, once, with the bytes that
were in the frame and the descriptor that came, and its result is passed on, with the descriptor that it returned. -/
theorem user_told {σ} (c : Cfg) (R : Range σ) (maps : Nat → Mapping) (hmaps : ∀ i, MapOk c (maps i)) (sys : Sys σ)
    (as : List Action) (hfew : ∀ i, (handlersFor i as).length + 7 ≤ 2 ^ 31 - 1) (k i : Nat) (o : Outside) (p : Packet)
    (hk : as[k]? = some (.message i o p)) (h7 : 7 ≤ p.req.kind.toNat) (hsize : ∀ u, (o.user u).1 < 2 ^ 64)
    (es : List Event) (e : Effects) (hs : (runAll c R maps (start sys) as).1[k]? = some (.handled (.ok es) e))
    (x h : Int) (hx : Event.replied x h ∈ es) : ∃ calls, e = { users := calls } ∧
    UserTold (handlersFor i (as.take k)) c.hdr ((maps i).region c) o p x h calls := by
  obtain ⟨l, hl, he⟩ := at_message c R maps sys as hfew k i o p hk
  have hwf : ((maps i).region c).WF c.hdr := Bounds.ofMapping_wf _ _ _ (hmaps i).room (hmaps i).no_wrap
  rw [he] at hs
  simp only [Option.some.injEq, Seen.handled.injEq] at hs
  obtain ⟨h1, h2⟩ := hs
  have hd : Callback.dispatch l.table.handlers p.req.kind =
      ((handlersFor i (as.take k))[p.req.kind.toNat - 7]?).map .user := by
    rw [hl.table, Callback.dispatch_tableOf, Callback.Spec.handlerFor, if_neg (by omega)]
  by_cases hlen : p.len < Callback.requestSize
  · unfold Callback.handle at h1
    simp only at h1
    rw [if_pos hlen] at h1; cases h1; cases hx
  unfold Callback.handle at h1
  unfold effects at h2
  simp only at h1
  rw [if_neg hlen] at h1 h2
  cases hu : (handlersFor i (as.take k))[p.req.kind.toNat - 7]? with
  | none =>
    rw [hu, Option.map_none] at hd
    simp only [hd] at h1 h2
    have hge := List.getElem?_eq_none_iff.1 hu
    refine ⟨[], h2.symm, ?_⟩
    split at h1
    · cases h1
      simp only [List.mem_cons, List.not_mem_nil, or_false, reduceCtorEq, false_or] at hx
      cases hx
      exact .unknown (by omega)
    · cases h1
      simp at hx
  | some u =>
    rw [hu, Option.map_some] at hd
    simp only [hd] at h1 h2
    have hn : p.req.kind.toNat = 7 + (p.req.kind.toNat - 7) := by omega
    have hpos : 0 < max 1 (o.user u).1 := by omega
    have h64 : max 1 (o.user u).1 < 2 ^ 64 := by have := hsize u; omega
    have hres : run c.hdr ((maps i).region c) l o (.user u) p.req p.fd = .ok ⟨x, h⟩ := by
      rcases hr : run c.hdr ((maps i).region c) l o (.user u) p.req p.fd with res | _ | _ | _ <;> rw [hr] at h1
      · simp only at h1
        split at h1
        · cases h1
          simp only [List.mem_cons, List.not_mem_nil, or_false, reduceCtorEq, false_or] at hx
          cases hx
          rfl
        · cases h1
          simp at hx
      · cases h1
      · cases h1
      · cases h1
    unfold run at hres
    simp only [show (behind c.hdr ((maps i).region c) l o (.user u)).1 = max 1 (o.user u).1 from rfl,
      show (behind c.hdr ((maps i).region c) l o (.user u)).2 =
        fun bs fd => ((o.user u).2 bs fd, { users := [(u, bs, fd)] }) from rfl] at h2 hres
    have hf := invoke_frame (o := o) hwf p (max 1 (o.user u).1) hpos h64 (fun bs f => (o.user u).2 bs f)
    by_cases hacc : Accepted c.hdr ((maps i).region c) p (max 1 (o.user u).1)
    · rw [hf.1 hacc] at hres
      have ha : (Callback.invoke c.hdr ((maps i).region c) (max 1 (o.user u).1)
          (fun bs f => (o.user u).2 bs f) o.frame p.req p.fd).2 = Callback.copyAddrs p.req.data (max 1 (o.user u).1) := by
        obtain ⟨a1, a2⟩ := hacc
        have hsz : p.req.size = BitVec.ofNat 64 (max 1 (o.user u).1) := by
          apply BitVec.eq_of_toNat_eq; rw [a1]; simp; omega
        unfold Callback.invoke
        rw [if_neg (by simpa using hsz), if_neg (by rw [hsz, (inside_iff hwf p.req.data _ hpos h64).2 a2]; decide)]
      have hne : Callback.copyAddrs p.req.data (max 1 (o.user u).1) ≠ [] := by
        intro h
        have := Callback.copyAddrs_length p.req.data (max 1 (o.user u).1)
        rw [h, List.length_nil] at this
        omega
      rw [ha, if_neg hne, frame_eq] at h2
      exact ⟨_, h2.symm, .called _ u x h hn hu hacc hres⟩
    · rw [hf.2 hacc] at hres
      cases hres
      rw [Callback.invoke_refuses c.hdr ((maps i).region c) hwf _ h64 _ o.frame p.req p.fd hacc] at h2
      exact ⟨[], h2.symm, .frame _ u hn hu hacc⟩

/-- What is said, and what is called, is settled by the message, the memory, the functions and their registrations. -/
theorem userTold_unique {users : List Nat} {p : Packet} {x y h g : Int} {cs ds : List (Nat × List Byte × Int)}
    (hx : UserTold users hdr r o p x h cs) (hy : UserTold users hdr r o p y g ds) : x = y ∧ h = g ∧ cs = ds := by
  have key : ∀ {n m u v : Nat}, p.req.kind.toNat = 7 + n → p.req.kind.toNat = 7 + m → users[n]? = some u →
      users[m]? = some v → u = v := by
    intro n m u v h1 h2 h3 h4
    have : n = m := by omega
    subst this
    rw [h3] at h4
    exact Option.some.inj h4
  have none : ∀ {n u : Nat} {q : Prop}, p.req.kind.toNat = 7 + n → users[n]? = some u →
      7 + users.length ≤ p.req.kind.toNat → q := by
    intro n u q h1 h2 h3
    obtain ⟨h4, -⟩ := List.getElem?_eq_some_iff.1 h2
    omega
  cases hx with
  | unknown h1 =>
    cases hy with
    | unknown => exact ⟨rfl, rfl, rfl⟩
    | frame n u g1 g2 => exact none g1 g2 h1
    | called n u _ _ g1 g2 => exact none g1 g2 h1
  | frame n u h1 h2 h3 =>
    cases hy with
    | unknown => exact ⟨rfl, rfl, rfl⟩
    | frame => exact ⟨rfl, rfl, rfl⟩
    | called m v _ _ g1 g2 g3 =>
      obtain rfl := key h1 g1 h2 g2
      exact absurd g3 h3
  | called n u _ _ h1 h2 h3 h4 =>
    cases hy with
    | unknown g1 => exact none h1 h2 g1
    | frame m v g1 g2 g3 =>
      obtain rfl := key h1 g1 h2 g2
      exact absurd h3 g3
    | called m v _ _ g1 g2 g3 g4 =>
      obtain rfl := key h1 g1 h2 g2
      rw [h4] at g4
      cases g4
      exact ⟨rfl, rfl, rfl⟩

/-! ### Examples -/

/-- Function 33 is registered for sandbox 0, which gets its answer. -/
example : ∃ calls, UserTold [33] exCfg.hdr ((exMap 0).region exCfg) (exOut (exMap 0).base)
    ⟨24, ⟨7, 8, (exMap 0).base + 0x1000⟩, -1⟩ 33 (-1) calls := by
  obtain ⟨h1, h2, h3, -⟩ := exActs_ok
  obtain ⟨es, e, ha, -, hb⟩ := every_message_answered exCfg (buddyRange exCfg) exMap Rpc.exMap_ok exSys exActs h2 exNoEmpty
    9 0 _ _ rfl (exCalm _)
  obtain ⟨x, h, rfl⟩ := hb (Nat.le_refl 24)
  have hx : Event.replied x h ∈ [Event.received ⟨7, 8, (exMap 0).base + 0x1000⟩ (-1), .replied x h] := by simp
  have hl : ((runAll exCfg (buddyRange exCfg) exMap (start exSys) exActs).1[9]?).bind (fun s => match s with
    | .handled (.ok [_, .replied x h]) _ => some (x, h) | _ => none) = some (33, -1) := by decide +kernel
  rw [ha] at hl
  have hl : some (x, h) = some ((33 : Int), (-1 : Int)) := hl
  cases hl
  obtain ⟨calls, -, h⟩ := user_told exCfg (buddyRange exCfg) exMap Rpc.exMap_ok exSys exActs h2 9 0 _ _ rfl (by decide)
    (fun u => by show 8 < 2 ^ 64; decide) _ e ha _ _ hx
  exact ⟨calls, h⟩

/-- Nothing is registered for sandbox 1. -/
example : UserTold [] exCfg.hdr ((exMap 1).region exCfg) (exOut (exMap 1).base)
    ⟨24, ⟨7, 8, (exMap 1).base + 0x1000⟩, -1⟩ (-38) (-1) [] := .unknown (by decide)

end Verif.Authority
