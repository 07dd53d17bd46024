import Verif.Authority.Props

/-!
# What a sandbox gets from the host does not depend on the other sandboxes: theorems
-/

namespace Verif.Authority

open Verif.Rpc (Cfg Range Mapping Sys Pm World chunkSize_dvd setMeta_block allOwned_block region_contains)
open Verif.Rpc.Spec (MapOk Contained Covers ChunkSize BlockIn InMap)
open Verif.Authority.Spec

section memory

variable {σ : Type} {c : Cfg} {R : Range σ} {m : Mapping} {Inv : σ → Prop}

/-- The page maps agree about the chunks of a mapping. -/
abbrev Alike (c : Cfg) (m : Mapping) (pm pm' : Pm) : Prop :=
  SameIn (2 ^ c.bits) m.base.toNat (m.base.toNat + m.size.toNat) pm pm'

/-- What two executions have in common. -/
def Same3 {α β} (c : Cfg) (m : Mapping) (x y : α × β × Pm) : Prop := x.1 = y.1 ∧ x.2.1 = y.2.1 ∧ Alike c m x.2.2 y.2.2

theorem setMeta_alike {pm pm' : Pm} (h : Alike c m pm pm') {p n : Nat} (hp : 2 ^ c.bits ∣ p) (hn : 2 ^ c.bits ∣ n)
    (t : Rpc.Entry) : Alike c m (Rpc.setMeta c pm p (p + n) t) (Rpc.setMeta c pm' p (p + n) t) := by
  intro j hj
  rw [setMeta_block c t pm p n j hp hn, setMeta_block c t pm' p n j hp hn, h j hj]

theorem dealloc_alike (hL : Local c R m.base.toNat (m.base.toNat + m.size.toNat) Inv) {s : σ} (hs : Inv s) {pm pm' : Pm}
    (h : Alike c m pm pm') {p n : Nat} (hb : BlockIn (2 ^ c.bits) m.base.toNat (m.base.toNat + m.size.toNat) p n) :
    (Rpc.deallocRange c R s pm p n).1 = (Rpc.deallocRange c R s pm' p n).1 ∧
      Alike c m (Rpc.deallocRange c R s pm p n).2 (Rpc.deallocRange c R s pm' p n).2 :=
  hL.dealloc s _ _ p n hs hb (setMeta_alike h hb.2.1 (chunkSize_dvd hb.1) _)

theorem serve_alike (hm : MapOk c m) (hR : Contained c R m.base.toNat (m.base.toNat + m.size.toNat) Inv)
    (hL : Local c R m.base.toNat (m.base.toNat + m.size.toNat) Inv) {s : σ} (hs : Inv s) {pm pm' : Pm}
    (h : Alike c m pm pm') (q : Rpc.Req) :
    Same3 c m (Rpc.serve c R (m.region c) s pm q) (Rpc.serve c R (m.region c) s pm' q) := by
  unfold Rpc.serve
  split
  · unfold Rpc.serveAlloc
    split
    · exact ⟨rfl, rfl, h⟩
    · rename_i hsz
      split
      · exact ⟨rfl, rfl, h⟩
      · have hc := (Rpc.chunkSize_iff c q.a0).1 hsz
        obtain ⟨h1, h2, h3⟩ := hL.alloc s pm pm' q.a0.toNat hs hc h
        have hin := hR.alloc_in s pm q.a0.toNat
        revert h1 h2 h3 hin
        generalize R.alloc s pm q.a0.toNat = x
        generalize R.alloc s pm' q.a0.toNat = y
        obtain ⟨x1, x2, x3⟩ := x
        obtain ⟨y1, y2, y3⟩ := y
        rintro h1 h2 h3 hin
        simp only at h1 h2 h3 hin
        subst h1 h2
        cases x1 with
        | none => exact ⟨rfl, rfl, h3⟩
        | some p =>
          have hb := hin p hs hc rfl
          exact ⟨rfl, rfl, setMeta_alike h3 hb.2.1 (chunkSize_dvd hb.1) _⟩
  · split
    · unfold Rpc.serveDealloc
      split
      · exact ⟨rfl, rfl, h⟩
      · rename_i hin
        split
        · exact ⟨rfl, rfl, h⟩
        · rename_i hsz
          split
          · exact ⟨rfl, rfl, h⟩
          · rename_i hal
            have hb : BlockIn (2 ^ c.bits) m.base.toNat (m.base.toNat + m.size.toNat) q.a0.toNat q.a1.toNat := by
              rw [Bool.not_eq_false, region_contains c m hm] at hin
              rw [Decidable.not_not, Rpc.chunkSize_iff'] at hsz
              rw [Decidable.not_not] at hal
              exact ⟨hsz, Nat.dvd_of_mod_eq_zero hal, by omega, hin.2.2⟩
            have ho : Rpc.allOwned c pm q.a0.toNat (q.a0.toNat + q.a1.toNat) =
                Rpc.allOwned c pm' q.a0.toNat (q.a0.toNat + q.a1.toNat) := by
              rw [Bool.eq_iff_iff, allOwned_block c pm _ _ hb.2.1 (chunkSize_dvd hb.1),
                allOwned_block c pm' _ _ hb.2.1 (chunkSize_dvd hb.1)]
              refine forall_congr' fun j => imp_congr_right fun hj => ?_
              have : pm j = pm' j := by
                apply h j
                obtain ⟨h1, h2⟩ := hj
                obtain ⟨-, -, h3, h4⟩ := hb
                exact ⟨by omega, by omega⟩
              simp only [Rpc.Spec.Owned, this]
            rw [ho]
            split
            · exact ⟨rfl, rfl, h⟩
            · have := dealloc_alike hL hs h hb
              exact ⟨rfl, this.1, this.2⟩
    · exact ⟨rfl, rfl, h⟩

end memory

section runs

variable {σ : Type} {c : Cfg} {R : Range σ} {maps : Nat → Mapping} {Inv : Nat → σ → Prop}

/-- Two states of the host in which sandbox `i` cannot tell the difference. -/
structure SameFor (c : Cfg) (maps : Nat → Mapping) (i : Nat) (st st' : Host σ) : Prop where
  lib : st.libs i = st'.libs i
  range : st.sys.ranges i = st'.sys.ranges i
  pages : Alike c (maps i) st.sys.pm st'.sys.pm

theorem put_same {i : Nat} {st st' : Host σ} (h : SameFor c maps i st st') (l : Lib) :
    SameFor c maps i (st.put i l) (st'.put i l) := by
  refine ⟨?_, h.range, h.pages⟩
  simp only [Host.put, if_true]

theorem sys_same {i : Nat} {st st' : Host σ} (h : SameFor c maps i st st') {s s' : σ} {pm pm' : Pm} (hs : s = s')
    (hp : Alike c (maps i) pm pm') :
    SameFor c maps i { st with sys := st.sys.put i s pm } { st' with sys := st'.sys.put i s' pm' } := by
  refine ⟨h.lib, ?_, hp⟩
  simp only [Sys.put, if_true, hs]

/-- An action that concerns sandbox `i` looks the same from both, and leaves both the same. -/
theorem act_same (hw : World c R maps Inv)
    (hL : ∀ i, Local c R (maps i).base.toNat ((maps i).base.toNat + (maps i).size.toNat) (Inv i))
    {i : Nat} {st st' : Host σ} (h : SameFor c maps i st st') (hs : Inv i (st.sys.ranges i)) {a : Action}
    (ha : about a = i) (hop : HostSane (2 ^ c.bits) maps a) :
    (act c R maps st a).1 = (act c R maps st' a).1 ∧
      SameFor c maps i (act c R maps st a).2 (act c R maps st' a).2 := by
  cases a with
  | exports j e =>
    obtain rfl : i = j := ha.symm
    simp only [act, h.lib]
    exact ⟨trivial, put_same h _⟩
  | config j x =>
    obtain rfl : i = j := ha.symm
    simp only [act, h.lib]
    exact ⟨trivial, put_same h _⟩
  | register j x =>
    obtain rfl : i = j := ha.symm
    simp only [act, h.lib]
    split
    · exact ⟨rfl, put_same h _⟩
    · exact ⟨rfl, h⟩
    · exact ⟨rfl, h⟩
    · exact ⟨rfl, h⟩
  | message j o p =>
    obtain rfl : i = j := ha.symm
    simp only [act, h.lib]
    exact ⟨trivial, h⟩
  | memory op =>
    cases op with
    | rpc j q =>
      obtain rfl : i = j := ha.symm
      have hv := serve_alike (hw.maps_ok i) (hw.contained i) (hL i) hs h.pages q
      simp only [act, replyTo, Rpc.step]
      rw [← h.range]
      obtain ⟨h1, h2, h3⟩ := hv
      rw [h1]
      exact ⟨rfl, sys_same h h2 h3⟩
    | hostAlloc j n slab ras =>
      obtain rfl : i = j := ha.symm
      obtain ⟨hn, -⟩ := hop
      simp only [act, replyTo, Rpc.step, Rpc.hostAlloc]
      rw [← h.range]
      obtain ⟨h1, h2, h3⟩ := (hL i).alloc (st.sys.ranges i) st.sys.pm st'.sys.pm n hs hn h.pages
      have hin := (hw.contained i).alloc_in (st.sys.ranges i) st.sys.pm n
      revert h1 h2 h3 hin
      generalize R.alloc (st.sys.ranges i) st.sys.pm n = x
      generalize R.alloc (st.sys.ranges i) st'.sys.pm n = y
      obtain ⟨x1, x2, x3⟩ := x
      obtain ⟨y1, y2, y3⟩ := y
      intro h1 h2 h3 hin
      simp only at h1 h2 h3 hin
      subst h1 h2
      cases x1 with
      | none => exact ⟨rfl, sys_same h rfl h3⟩
      | some p =>
        have hb := hin p hs hn rfl
        exact ⟨rfl, sys_same h rfl (setMeta_alike h3 hb.2.1 (chunkSize_dvd hb.1) _)⟩
    | hostFree j p n =>
      obtain rfl : i = j := ha.symm
      simp only [act, replyTo, Rpc.step, Rpc.hostFree]
      rw [← h.range]
      have := dealloc_alike (hL i) hs h.pages hop
      exact ⟨trivial, sys_same h this.1 this.2⟩

theorem act_inv (hw : World c R maps Inv) {st : Host σ} (hs : ∀ k, Inv k (st.sys.ranges k)) {a : Action}
    (hop : HostSane (2 ^ c.bits) maps a) : ∀ k, Inv k ((act c R maps st a).2.sys.ranges k) := by
  cases a with
  | exports => exact hs
  | config => exact hs
  | register j x =>
    simp only [act]
    split <;> exact hs
  | message => exact hs
  | memory op => exact (Rpc.step_frame c R maps Inv hw st.sys op hs hop).1

/-- An action that concerns another sandbox is not noticed. -/
theorem act_other (hw : World c R maps Inv) {i : Nat} {st st' : Host σ} (h : SameFor c maps i st st')
    (hs : ∀ k, Inv k (st.sys.ranges k)) {a : Action} (ha : about a ≠ i) (hop : HostSane (2 ^ c.bits) maps a)
    (hd : ∀ j, InMap (2 ^ c.bits) (maps i) j → ¬ InMap (2 ^ c.bits) (maps (about a)) j) :
    SameFor c maps i (act c R maps st a).2 st' := by
  have put : ∀ k l, k ≠ i → SameFor c maps i (st.put k l) st' := by
    intro k l hk
    refine ⟨?_, h.range, h.pages⟩
    simp only [Host.put, if_neg (Ne.symm hk), h.lib]
  cases a with
  | exports j e => exact put j _ ha
  | config j x => exact put j _ ha
  | register j x =>
    simp only [act]
    split
    · exact put j _ ha
    · exact h
    · exact h
    · exact h
  | message => exact h
  | memory op =>
    obtain ⟨-, hf, -⟩ := Rpc.step_frame c R maps Inv hw st.sys op hs hop
    refine ⟨h.lib, ?_, ?_⟩
    · have : (Rpc.step c R maps st.sys op).2.ranges i = st.sys.ranges i := by
        cases op <;> exact if_neg (Ne.symm ha)
      exact this.trans h.range
    · intro j hj
      have hj' : InMap (2 ^ c.bits) (maps i) j := by
        unfold InMap
        have e : (maps i).base.toNat + (maps i).size.toNat - (maps i).base.toNat = (maps i).size.toNat := by omega
        rwa [e] at hj
      refine Eq.trans ?_ (h.pages j hj)
      exact Classical.byContradiction fun hne => hd j hj' (hf j hne)

theorem runs_same (hw : World c R maps Inv)
    (hL : ∀ i, Local c R (maps i).base.toNat ((maps i).base.toNat + (maps i).size.toNat) (Inv i)) {S : Nat → Prop}
    (hdis : ∀ i k, S i → S k → i ≠ k → ∀ j, InMap (2 ^ c.bits) (maps i) j → ¬ InMap (2 ^ c.bits) (maps k) j)
    (i : Nat) (hi : S i) :
    ∀ (as : List Action) (st st' : Host σ), SameFor c maps i st st' → (∀ k, Inv k (st.sys.ranges k)) →
    (∀ a ∈ as, S (about a) ∧ HostSane (2 ^ c.bits) maps a) →
    seenBy i as (runAll c R maps st as).1 = (runAll c R maps st' (as.filter (fun a => about a = i))).1 ∧
      SameFor c maps i (runAll c R maps st as).2 (runAll c R maps st' (as.filter (fun a => about a = i))).2 := by
  intro as
  induction as with
  | nil => intro st st' h _ _; exact ⟨rfl, h⟩
  | cons a as ih =>
    intro st st' h hs hall
    obtain ⟨hSa, hop⟩ := hall a (by simp)
    have hall' : ∀ b ∈ as, S (about b) ∧ HostSane (2 ^ c.bits) maps b := fun b hb => hall b (by simp [hb])
    by_cases ha : about a = i
    · obtain ⟨h1, h2⟩ := act_same hw hL h (hs i) ha hop
      obtain ⟨h3, h4⟩ := ih _ _ h2 (act_inv hw hs hop) hall'
      rw [List.filter_cons_of_pos (by simpa using ha)]
      simp only [runAll, seenBy, List.zip_cons_cons]
      rw [List.filter_cons_of_pos (by simpa using ha), List.map_cons, h1]
      exact ⟨congrArg _ h3, h4⟩
    · have h2 := act_other hw h hs ha hop (hdis i (about a) hi hSa (Ne.symm ha))
      obtain ⟨h3, h4⟩ := ih _ _ h2 (act_inv hw hs hop) hall'
      rw [List.filter_cons_of_neg (by simpa using ha)]
      simp only [runAll, seenBy, List.zip_cons_cons]
      rw [List.filter_cons_of_neg (by simpa using ha)]
      exact ⟨h3, h4⟩

/-- **C84.** Whatever the other sandboxes send, and whatever the host does for them, a sandbox sees no difference: every
reply to it, everything that the host does on its behalf, and every block of memory that it or the host gets from its
heap is the same as in the run in which the other sandboxes' actions are left out. -/
theorem isolation (hw : World c R maps Inv)
    (hL : ∀ i, Local c R (maps i).base.toNat ((maps i).base.toNat + (maps i).size.toNat) (Inv i)) {S : Nat → Prop}
    (hdis : ∀ i k, S i → S k → i ≠ k → ∀ j, InMap (2 ^ c.bits) (maps i) j → ¬ InMap (2 ^ c.bits) (maps k) j)
    (i : Nat) (hi : S i) (as : List Action) (st : Host σ) (hs : ∀ k, Inv k (st.sys.ranges k))
    (hall : ∀ a ∈ as, S (about a) ∧ HostSane (2 ^ c.bits) maps a) :
    seenBy i as (runAll c R maps st as).1 = (runAll c R maps st (as.filter (fun a => about a = i))).1 :=
  (runs_same hw hL hdis i hi as st st ⟨rfl, rfl, fun _ _ => rfl⟩ hs hall).1

end runs

/-! ## The hypotheses can be met -/

open Verif.Rpc (exCfg exMap exSys exWorld exLo buddyRange FreeIn)

theorem mark_alike (c : Cfg) (f : Rpc.Free) {C lo hi : Nat} {pm pm' : Pm} (h : SameIn C lo hi pm pm') :
    SameIn C lo hi (Rpc.mark c pm f) (Rpc.mark c pm' f) := by
  intro j hj
  simp only [Rpc.mark, h j hj]

theorem exLocal (i : Nat) : Local exCfg (buddyRange exCfg) (exMap i).base.toNat
    ((exMap i).base.toNat + (exMap i).size.toNat) (FreeIn (exLo i) (2 ^ 4)) := by
  constructor
  · intro s pm pm' n _ _ h
    simp only [buddyRange]
    split
    · exact ⟨rfl, rfl, h⟩
    · exact ⟨rfl, rfl, mark_alike _ _ h⟩
  · intro s pm pm' p n _ _ h
    exact ⟨rfl, mark_alike _ _ h⟩


/-- The memory of the sandbox whose mapping starts at `b`: a frame at offset 0x1000 whose second word points to offset
0x2000, where the path `/a/b` is; with `flags` 0 and `mode` 0, or as the argument of a handler, zeros and a pointer. -/
def exMem (b : Word) : Mem := fun a =>
  let d := (a - b).toNat
  if 0x1008 ≤ d ∧ d < 0x1010 then ((EndToEnd.le 8 (b + 0x2000).toNat)[d - 0x1008]?).getD 0
  else if 0x2000 ≤ d then (([47, 97, 47, 98] : List Byte)[d - 0x2000]?).getD 0
  else 0

/-- What is outside, for a sandbox whose mapping starts at `b`. -/
def exOut (b : Word) : Outside where
  frame := exMem b
  path := (exMem b, exMem b)
  address := exMem b
  node := (exMem b, exMem b)
  service := (exMem b, exMem b)
  hints := exMem b
  malloc := fun n => some (List.replicate n 0xAA)
  alloc := fun _ => none
  kernel := fun _ _ => (9, 0)
  socket := fun _ _ => (0, 0)
  lookup := fun _ _ => ((0, 0), [])
  user := fun h => (8, fun _ _ => .ok ⟨h, -1⟩)
  sendOk := true

/-- A message of sandbox `i` of the given kind, with a frame of `n` bytes. -/
def exMsg (i : Nat) (kind n : Word) (fd : Int) : Action :=
  .message i (exOut (exMap i).base) ⟨24, ⟨kind, n, (exMap i).base + 0x1000⟩, fd⟩

/-- The host exports a directory to sandbox 0, allows it `connect`, and registers a handler for it; to sandbox 1 it
grants nothing.  Both ask for everything, and for memory. -/
def exActs : List Action :=
  [.exports 0 ⟨true, [47, 97], 5⟩, .config 0 (.allow .connect), .register 0 33,
   exMsg 0 0 16 (-1), exMsg 1 0 16 (-1),
   .memory (.rpc 0 ⟨0, 0x4000, 0, 0, 0⟩), .memory (.rpc 1 ⟨0, 0x4000, 0, 0, 0⟩),
   exMsg 0 5 24 6, exMsg 1 5 24 6, exMsg 0 7 8 (-1), exMsg 1 7 8 (-1), exMsg 1 3 24 6]

/-- The hypotheses of `authority` and `isolation` can be met. -/
theorem exActs_ok : (∀ i, FileTree.ShortPaths (exportsTo i exActs)) ∧ (∀ i, (handlersFor i exActs).length + 7 ≤ 2 ^ 31 - 1) ∧
    (∀ i, Sane ((exMap i).region exCfg) (exOut (exMap i).base)) ∧
    (∀ a ∈ exActs, about a < 2 ∧ Spec.HostSane (2 ^ exCfg.bits) exMap a) ∧
    (∀ i k, i < 2 → k < 2 → i ≠ k → ∀ j, InMap (2 ^ exCfg.bits) (exMap i) j → ¬ InMap (2 ^ exCfg.bits) (exMap k) j) ∧
    (∀ k, FreeIn (exLo k) (2 ^ 4) (exSys.ranges k)) ∧
    World exCfg (buddyRange exCfg) exMap (fun i => FreeIn (exLo i) (2 ^ 4)) := by
  refine ⟨?_, ?_, ?_, ?_, fun i k hi hk h j => Rpc.exMap_disjoint k i hk hi (Ne.symm h) j, ?_, exWorld⟩
  · intro i e he
    by_cases h : 0 = i
    · simp [exportsTo, exActs, exMsg, h] at he
      rw [he]; decide
    · simp [exportsTo, exActs, exMsg, h] at he
  · intro i
    by_cases h : 0 = i
    · subst h; decide
    · simp [handlersFor, exActs, exMsg, h]
  · intro i
    refine ⟨nofun, ?_⟩
    intro f q
    exact ⟨by simp [exOut, AddrInfo.needed], nofun⟩
  · intro a ha
    simp only [exActs, exMsg, List.mem_cons, List.not_mem_nil, or_false] at ha
    rcases ha with rfl | rfl | rfl | rfl | rfl | rfl | rfl | rfl | rfl | rfl | rfl | rfl <;>
      exact ⟨by decide, trivial⟩
  · exact fun k => (Rpc.exSys_free k).inside

/-- What one sees: sandbox 0 has a file opened beneath descriptor 5, its `connect` reaches the system, its handler is
called; sandbox 1 gets nothing but an `openat` relative to the descriptor that it sent. -/
def glance : Seen → Option (List (Option (Int × Int)) × Nat × Nat × Nat)
  | .handled (.ok _) e => some (e.log.map (fun x => match x.op with
      | .openat2 fd _ _ _ r => some (fd, (r.toNat : Int))
      | _ => none), e.sockets.length, e.lookups.length, e.users.length)
  | _ => none

example : (runAll exCfg (buddyRange exCfg) exMap (start exSys) exActs).1.map glance =
    [none, none, none, some ([some (5, 8)], 0, 0, 0), some ([], 0, 0, 0), none, none,
     some ([], 1, 0, 0), some ([], 0, 0, 0), some ([], 0, 0, 1), some ([], 0, 0, 0),
     some ([some (6, 8), none], 0, 0, 0)] := by
  decide +kernel

/-- And sandbox 1 sees what it would see if sandbox 0 were not there. -/
example : seenBy 1 exActs (runAll exCfg (buddyRange exCfg) exMap (start exSys) exActs).1 =
    (runAll exCfg (buddyRange exCfg) exMap (start exSys) (exActs.filter (fun a => about a = 1))).1 := by
  obtain ⟨-, -, -, h1, h2, h3, h4⟩ := exActs_ok
  exact isolation h4 exLocal h2 1 (by decide) exActs (start exSys) h3 h1

/-- The block of memory is not the same for both, and does not depend on the other. -/
example : (runAll exCfg (buddyRange exCfg) exMap (start exSys) exActs).1.filterMap (fun x => match x with
    | .memory (some r) _ => some (r.error, r.ret) | _ => none) = [(0, 0x7f0000004000), (0, 0x7f0000044000)] := by
  decide +kernel

end Verif.Authority
