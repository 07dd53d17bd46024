import Verif.BsdMake.Props
import Verif.Capsicum.Props
import Verif.Make.Props

/-!
# Making a sandbox on FreeBSD: what its process starts with (lemmas)
-/

namespace Verif.BsdMake

open Verif.Fd Verif.Start Verif.FileTree
open Verif.Make (fill free_fill free_fill_one fill_fill fill_nil fill_keeps opened Handed PmAt close_other free_above streams created created_length)

/-! ### Specification -/

/-- A host that can make a sandbox with the page map `pm`: what it has and can open is older than what it will make, and neither the page map, nor a
file, nor a standard stream is a queue (`include/process_sandbox/platform/poller_kqueue.h:22`). -/
structure Sound (disk : List Byte → Option Obj) (h : Host) (pm : Obj) : Prop where
  old : Old disk h
  queues : ∀ q ∈ h.queues, q < h.next ∧ ∀ p o, disk p = some o → o.id ≠ q
  streams : ∀ i, i < 3 → ∀ o, h.t i = some o → o.id ∉ h.queues
  map : h.plain.mapObj pm
  mapNoQueue : pm.id ∉ h.queues

/-- What the program is meant to find at each number, with the standard streams `st` (`include/process_sandbox/platform/sandbox_capsicum.h:46-56`,
`src/libsandbox.cc:826-850`). -/
def finds (st : Table) (shm pm cb lib rpc d0 d1 d2 : Obj) : Table := fun i =>
  match i with
  | 8 => some d0
  | 9 => some d1
  | 10 => some d2
  | i => wanted st shm pm cb lib rpc i

/-! ### Lemmas -/

theorem allQueues_mem {h : Host} {q : Nat} (hq : q ∈ h.allQueues) : q ∈ h.queues ∨ (q = h.next + 4 ∧ h.poller = none) := by
  unfold Host.allQueues at hq
  split at hq
  · exact .inl hq
  · rename_i hp
    rcases List.mem_append.1 hq with hq | hq
    · exact .inl hq
    · exact .inr ⟨by simpa using hq, hp⟩

/-- The first three things that the constructor opens are not queues. -/
theorem early_no_queue {disk : List Byte → Option Obj} {h : Host} (hq : ∀ q ∈ h.queues, q < h.next ∧ ∀ p o, disk p = some o → o.id ≠ q)
    (hd : ∀ p o, disk p = some o → o.id < h.next) {k : Nat} (hk : k < 3) {o : Obj} (ho : (created disk h.plain)[k]? = some o) :
    o.id ∉ h.allQueues ∧ o.id ≠ h.next + 8 := by
  -- an object of the first three is new and before the queue, or a file
  have hcase : (∃ p, disk p = some o) ∨ o.id = h.next ∨ o.id = h.next + 1 ∨ o.id = h.next + 2 ∨ o.id = h.next + 3 := by
    have hfile : ∀ x ∈ opened disk, ∃ p, disk p = some x := by
      intro x hx
      simp only [opened, List.mem_filterMap] at hx
      obtain ⟨d, -, hd'⟩ := hx
      exact ⟨_, hd'⟩
    obtain ⟨P, hP⟩ : ∃ P : List Obj, P = [⟨h.next, true⟩] ++ (if h.pagemap = none then [⟨h.next + 1, true⟩] else []) ++ opened disk ++
        [⟨h.next + 2, true⟩, ⟨h.next + 3, true⟩] := ⟨_, rfl⟩
    have hlen : 3 ≤ P.length := by
      rw [hP]
      simp only [List.length_append, List.length_cons, List.length_nil]
      omega
    have hm : o ∈ P := by
      have hcr : created disk h.plain = P ++ ((if h.plain.service then [] else [⟨h.next + 4, true⟩]) ++ [⟨h.next + 5, true⟩, ⟨h.next + 6, true⟩]) := by
        rw [hP]
        simp only [created, Host.plain, List.append_assoc]
        rfl
      rw [hcr, List.getElem?_append_left (by omega)] at ho
      exact List.mem_of_getElem? ho
    rw [hP] at hm
    simp only [List.mem_append, List.mem_cons, List.not_mem_nil, or_false] at hm
    rcases hm with ((rfl | hm) | hm) | (rfl | rfl)
    · simp
    · split at hm
      · simp only [List.mem_cons, List.not_mem_nil, or_false] at hm
        subst hm
        simp
      · simp at hm
    · exact .inl (hfile _ hm)
    · simp
    · simp
  constructor
  · intro hc
    rcases allQueues_mem hc with hc | ⟨hc, -⟩
    · obtain ⟨h1, h2⟩ := hq _ hc
      rcases hcase with ⟨p, hp⟩ | hcase
      · exact h2 p o hp rfl
      · omega
    · rcases hcase with ⟨p, hp⟩ | hcase
      · have := hd p o hp
        omega
      · omega
  · rcases hcase with ⟨p, hp⟩ | hcase
    · have := hd p o hp
      omega
    · omega

theorem inherited_keeps {qs : List Nat} {t : Table} {i : Nat} {o : Obj} (h : t i = some o) (hq : o.id ∉ qs) : inherited qs t i = some o :=
  inherited_some.2 ⟨h, hq⟩

theorem make_child (dbg : Bool) (fuel : Nat) (e : Env) (disk : List Byte → Option Obj) (s : Sys) (h : Host) (pm lib : Obj)
    (hg : s.good) (hr : h.plain.roomy e disk) (sd : Sound disk h pm) (hlib : e.lib = some lib) (hfuel : 10 ≤ fuel) :
    ∃ m t', make dbg fuel e disk s h = .made m ∧ m.child = .exec t' ∧
      ∀ i, t' i = wanted (streams disk h.plain) ⟨h.next, true⟩ pm ⟨h.next + 6, true⟩ lib ⟨h.next + 3, true⟩ i := by
  obtain ⟨b, hb8, hb, hl⟩ := hr
  have hb' : ∀ i, b ≤ i → h.t i = none := hb
  have hfree := free_above hb' e.lim
  have hcl := created_length disk h.plain
  have hbef : before (opened disk).length h.pagemap.isNone h.poller.isNone + 2 ≤ free h.t e.lim := by
    have : before (opened disk).length h.pagemap.isNone h.poller.isNone = (created disk h.plain).length := by
      rw [hcl]
      rcases h with ⟨t, nx, pmo, po, qs⟩
      rcases pmo <;> rcases po <;> simp [before, Make.need, Host.plain, Make.Host.firstMap] <;> omega
    omega
  obtain ⟨m, hm⟩ := (bsd_shortage dbg fuel e disk s h hg).1.2 hbef
  obtain ⟨r, t1', t2', proc, kq, hp, -, -, -, -, rfl⟩ := made_late hm
  obtain ⟨t1, t2, t, shm, svc, own, rpc, cb, pmH, poller, hh, -, hp'⟩ := (prepare_steps dbg e.lim disk s h).2 (by rw [hp]; rfl)
  rw [hp] at hp'
  cases hp'
  simp only at hm ⊢
  -- the new objects are not queues
  have hnew : ∀ k, h.next ≤ k → k ≠ h.next + 4 → k ∉ h.allQueues := by
    intro k hk hk4 hc
    rcases allQueues_mem hc with hc | ⟨hc, -⟩
    · have := (sd.queues _ hc).1
      omega
    · omega
  have hpmq : pm.id ∉ h.allQueues := by
    intro hc
    rcases allQueues_mem hc with hc | ⟨hc, -⟩
    · exact sd.mapNoQueue hc
    · have hmap := sd.map
      unfold Make.Host.mapObj at hmap
      split at hmap
      · rename_i p hpp
        obtain ⟨n, -, hn⟩ := at_nonneg hmap
        have := sd.old.table n pm hn
        omega
      · rw [hmap] at hc
        simp only [Host.plain] at hc
        omega
  have hroom : Room e.lim (inherited h.allQueues t) := by
    refine ⟨b + (created disk h.plain).length, by omega, fun i hi => ?_, by omega⟩
    have : t i = none := by
      rw [hh.table]
      have h1 := hb i (by omega)
      simp only [fill, h1]
      have := free_above hb i
      exact List.getElem?_eq_none (by omega)
    simp only [inherited, this]
  have href : Refer (inherited h.allQueues t) ⟨shm, pmH, rpc, cb⟩ ⟨h.next, true⟩ pm ⟨h.next + 6, true⟩ ⟨h.next + 3, true⟩ := by
    refine ⟨?_, ?_, ?_, ?_⟩
    · rw [at_nat]
      exact inherited_keeps hh.atShm.1 (hnew _ (by simp) (by simp))
    · have hp := hh.atPm
      have hpm := sd.map
      unfold PmAt at hp
      unfold Make.Host.mapObj at hpm
      split at hpm
      · rename_i p hpp
        rw [hpp] at hp
        obtain ⟨n, rfl, hn⟩ := at_nonneg hpm
        subst hp
        rw [at_nat]
        exact inherited_keeps (hh.keep.2 n _ (hh.keep.1 n _ hn)) hpmq
      · rename_i hpp
        rw [hpp] at hp
        obtain ⟨n, rfl, hn, -⟩ := hp
        rw [at_nat]
        rw [← hpm] at hn
        exact inherited_keeps hn hpmq
    · rw [at_nat]
      exact inherited_keeps hh.atCb (hnew _ (by simp) (by simp))
    · rw [at_nat]
      exact inherited_keeps hh.atRpc (hnew _ (by simp) (by simp))
  have hlen : 5 ≤ (created disk h.plain).length := by
    rw [hcl, Make.need]
    omega
  -- the standard streams
  have hstr : ∀ i, i < 3 → t i = streams disk h.plain i ∧ ∃ o, t i = some o ∧ o.id ∉ h.allQueues := by
    intro i hi
    have e1 : t i = streams disk h.plain i := by
      rw [hh.table]
      rfl
    refine ⟨e1, ?_⟩
    rw [e1]
    unfold streams
    rcases ht : h.plain.t i with _ | o
    · have hf := free_le h.plain.t i
      simp only
      obtain ⟨o, ho⟩ : ∃ o, (created disk h.plain)[free h.plain.t i]? = some o := ⟨_, List.getElem?_eq_getElem (by omega)⟩
      exact ⟨o, ho, (early_no_queue sd.queues sd.old.files (by omega) ho).1⟩
    · refine ⟨o, rfl, fun hc => ?_⟩
      rcases allQueues_mem hc with hc | ⟨hc, -⟩
      · exact sd.streams i hi o ht hc
      · have := sd.old.table i o ht
        omega
  have hseen : ∀ i, i < 3 → inherited h.allQueues t i = streams disk h.plain i := by
    intro i hi
    obtain ⟨e1, o, e2, e3⟩ := hstr i hi
    rw [← e1, e2]
    exact inherited_keeps e2 e3
  have hstd : ∀ i, i < 3 → inherited h.allQueues t i ≠ none := by
    intro i hi
    obtain ⟨-, o, e2, e3⟩ := hstr i hi
    rw [inherited_keeps e2 e3]
    simp
  obtain ⟨t', hs, c1, c2⟩ := child_descriptors_partial (fuel := fuel) (e := { e with proc := false }) hroom href hlib hfuel hstd
  refine ⟨_, t', hm, ?_, fun i => ?_⟩
  · simp only [c1]
  · rw [c2 i]
    simp only [Bool.false_eq_true, if_false]
    rcases i with _ | _ | _ | _ | _ | _ | _ | _ | i
    · exact hseen 0 (by omega)
    · exact hseen 1 (by omega)
    · exact hseen 2 (by omega)
    all_goals rfl

theorem free_inj {t : Table} {i j : Nat} (hi : t i = none) (hj : t j = none) (h : free t i = free t j) : i = j := by
  have step : ∀ {a b : Nat}, t a = none → a < b → free t a < free t b := by
    intro a b ha hab
    have h1 := Cycle.free_le_of_le t (a := a + 1) (b := b) hab
    have h2 : free t (a + 1) = free t a + 1 := by simp [free, ha]
    omega
  rcases Nat.lt_trichotomy i j with hlt | heq | hgt
  · have := step hi hlt
    omega
  · exact heq
  · have := step hj hgt
    omega

/-- Of what a first sandbox opens only the second is the page map. -/
theorem created_map {disk : List Byte → Option Obj} {h : Host} (hd : ∀ p o, disk p = some o → o.id < h.next) (hn : h.pagemap = none) {k : Nat} {o : Obj}
    (ho : (created disk h.plain)[k]? = some o) (hid : o.id = h.next + 1) : k = 1 := by
  have hcr : created disk h.plain = ⟨h.next, true⟩ :: ⟨h.next + 1, true⟩ :: (opened disk ++ [⟨h.next + 2, true⟩, ⟨h.next + 3, true⟩] ++
      (if h.poller.isSome then [] else [⟨h.next + 4, true⟩]) ++ [⟨h.next + 5, true⟩, ⟨h.next + 6, true⟩]) := by
    simp [created, Host.plain, hn]
  rw [hcr] at ho
  rcases k with _ | _ | k
  · simp only [List.getElem?_cons_zero, Option.some.injEq] at ho
    subst ho
    simp only at hid
    omega
  · rfl
  · simp only [List.getElem?_cons_succ] at ho
    have hm := List.mem_of_getElem? ho
    simp only [List.mem_append, List.mem_cons, List.not_mem_nil, or_false] at hm
    rcases hm with ((hm | hm) | hm) | hm
    · simp only [opened, List.mem_filterMap] at hm
      obtain ⟨d, -, hd'⟩ := hm
      have := hd _ _ hd'
      omega
    · rcases hm with rfl | rfl <;> simp only at hid <;> omega
    · split at hm
      · simp at hm
      · simp only [List.mem_cons, List.not_mem_nil, or_false] at hm
        subst hm
        simp only at hid
        omega
    · rcases hm with rfl | rfl <;> simp only at hid <;> omega

/-- The standard streams and the page map of a host that has made a sandbox. -/
theorem made_map {dbg : Bool} {fuel : Nat} {e : Env} {disk : List Byte → Option Obj} {s : Sys} {h : Host} {m : Made}
    (ho : Old disk h) (hm : make dbg fuel e disk s h = .made m) :
    (∀ i, i < 3 → ∀ o, (m.t i = some o → streams disk h.plain i = some o) ∧
      (streams disk h.plain i = some o → o.id ≠ h.next + 3 → o.id ≠ h.next + 6 → m.t i = some o)) ∧
    (∀ p, h.pagemap = some p → m.pm = p ∧ ∀ n : Nat, p = n → ∀ o, h.t n = some o → m.t n = some o) ∧
    (h.pagemap = none → ∃ n : Nat, m.pm = n ∧ m.t n = some ⟨h.next + 1, true⟩ ∧ h.t n = none ∧ free h.t n = 1) ∧
    (∀ i o, m.t i = some o → h.t i = some o ∨ (∃ p, disk p = some o) ∨
      (h.next ≤ o.id ∧ (h.pagemap = none → o.id = h.next + 1 → h.t i = none ∧ free h.t i = 1))) := by
  obtain ⟨r, t1', t2', proc, kq, hp, c1, c1', c2, c2', rfl⟩ := made_late hm
  obtain ⟨t1, t2, t, shm, svc, own, rpc, cb, pmH, poller, hh, -, hp'⟩ := (prepare_steps dbg e.lim disk s h).2 (by rw [hp]; rfl)
  rw [hp] at hp'
  cases hp'
  obtain ⟨-, x, -, rfl, -⟩ := create_nonneg c1 c1'
  obtain ⟨-, y, -, rfl, -⟩ := create_nonneg c2 c2'
  simp only
  have hcl := created_length disk h.plain
  have hlen : 5 ≤ (created disk h.plain).length := by
    rw [hcl, Make.need]
    omega
  have hkeep : ∀ i o, t i = some o → fill (fill t [⟨h.next + 7, true⟩]) [⟨h.next + 8, true⟩] i = some o := fun i o hi => fill_keeps (fill_keeps hi)
  have hup : ∀ n o, t n = some o → n ≠ cb → n ≠ rpc →
      close (close (fill (fill t [⟨h.next + 7, true⟩]) [⟨h.next + 8, true⟩]) (cb : Int)) (rpc : Int) n = some o := by
    intro n o hn h1 h2
    rw [close_other (by omega), close_other (by omega)]
    exact hkeep n o hn
  have hdown : ∀ i o, close (close (fill (fill t [⟨h.next + 7, true⟩]) [⟨h.next + 8, true⟩]) (cb : Int)) (rpc : Int) i = some o →
      fill (fill t [⟨h.next + 7, true⟩]) [⟨h.next + 8, true⟩] i = some o := by
    intro i o hio
    have := closes_mem [(cb : Int), (rpc : Int)] (fill (fill t [⟨h.next + 7, true⟩]) [⟨h.next + 8, true⟩]) i
    simp only [List.foldl_cons, List.foldl_nil] at this
    rw [this] at hio
    split at hio
    · cases hio
    · exact hio
  have hmapAt : ∀ i o, h.pagemap = none → t i = some o → o.id = h.next + 1 → h.t i = none ∧ free h.t i = 1 := by
    intro i o hn hio hid
    rw [hh.table] at hio
    unfold fill at hio
    split at hio
    · rename_i x hx
      cases hio
      have := ho.table i _ hx
      omega
    · rename_i hx
      exact ⟨hx, created_map ho.files hn hio hid⟩
  have e1 : ∀ i, t i = streams disk h.plain i := by
    intro i
    rw [hh.table]
    rfl
  refine ⟨fun i hi o => ⟨fun hio => ?_, fun hio h3 h6 => ?_⟩, fun p hp => ?_, fun hn => ?_, fun i o hio => ?_⟩
  · have hsub := hdown i o hio
    have e1 := e1 i
    rcases hti : t i with _ | x
    · rw [hti] at e1
      unfold streams at e1
      split at e1
      · cases e1
      · have hf := free_le h.plain.t i
        rw [List.getElem?_eq_getElem (by omega)] at e1
        cases e1
    · rw [hkeep i x hti] at hsub
      cases hsub
      rw [← e1, hti]
  · rw [← e1 i] at hio
    refine hup i o hio ?_ ?_
    · rintro rfl
      rw [hh.atCb] at hio
      cases hio
      simp [Host.plain] at h6
    · rintro rfl
      rw [hh.atRpc] at hio
      cases hio
      simp [Host.plain] at h3
  · have hpa := hh.atPm
    unfold PmAt at hpa
    have : h.plain.pagemap = some p := hp
    rw [this] at hpa
    refine ⟨hpa, fun n hn o hno => hup n o (hh.keep.2 n o (hh.keep.1 n o hno)) ?_ ?_⟩
    · rintro rfl
      have h1 := hh.keep.1 _ _ hno
      rw [hh.fresh.2.2.1] at h1
      cases h1
    · rintro rfl
      have h1 := hh.keep.1 _ _ hno
      rw [hh.fresh.1] at h1
      cases h1
  · have hpa := hh.atPm
    unfold PmAt at hpa
    have : h.plain.pagemap = none := hn
    rw [this] at hpa
    obtain ⟨n, h1, h2, -⟩ := hpa
    refine ⟨n, h1, hup n _ h2 ?_ ?_, hmapAt n _ hn h2 rfl⟩
    · rintro rfl
      rw [hh.atCb] at h2
      simp at h2
    · rintro rfl
      rw [hh.atRpc] at h2
      simp at h2
  · have hsub := hdown i o hio
    have htab : fill (fill t [⟨h.next + 7, true⟩]) [⟨h.next + 8, true⟩] =
        fill h.plain.t (created disk h.plain ++ [⟨h.next + 7, true⟩, ⟨h.next + 8, true⟩]) := by
      rw [hh.table, fill_fill, fill_fill]
      simp
    rw [htab] at hsub
    unfold fill at hsub
    split at hsub
    · rename_i x hx
      cases hsub
      exact .inl hx
    · rename_i hx
      have hm := List.mem_of_getElem? hsub
      simp only [List.mem_append, List.mem_cons, List.not_mem_nil, or_false] at hm
      rcases hm with hm | rfl | rfl
      · rcases created_new hm with hle | hp
        · refine .inr (.inr ⟨hle, fun hn hid => ⟨hx, ?_⟩⟩)
          rcases Nat.lt_or_ge (free h.plain.t i) (created disk h.plain).length with hlt | hge
          · rw [List.getElem?_append_left hlt] at hsub
            exact created_map ho.files hn hsub hid
          · rw [List.getElem?_append_right hge] at hsub
            have hm := List.mem_of_getElem? hsub
            simp only [List.mem_cons, List.not_mem_nil, or_false] at hm
            rcases hm with rfl | rfl <;> simp only at hid <;> omega
        · exact .inr (.inl hp)
      · exact .inr (.inr ⟨by simp, fun _ hid => by simp only at hid; omega⟩)
      · exact .inr (.inr ⟨by simp, fun _ hid => by simp only at hid; omega⟩)

/-- What holds besides in every state of the host (`src/libsandbox.cc:865-932`). -/
structure Keeps (t0 : Table) (n0 : Nat) (w : World) : Prop where
  queues : ∀ q ∈ w.h.queues, n0 ≤ q ∧ q < w.h.next ∧ q ≠ n0 + 1
  streams : ∀ i, i < 3 → ∀ o, w.h.t i = some o → o.id ∉ w.h.queues
  first : w.h.pagemap = none → w.h.t = t0 ∧ w.h.next = n0 ∧ w.libs = [] ∧ w.ranges = []
  map : ∀ p, w.h.pagemap = some p → ∃ n : Nat, p = n ∧ w.h.t n = some ⟨n0 + 1, true⟩ ∧ n0 + 1 < w.h.next ∧ t0 n = none ∧ free t0 n = 1 ∧
    ∀ i o, w.h.t i = some o → o.id = n0 + 1 → i = n

theorem keeps_close {lim : Nat} {disk : List Byte → Option Obj} {t0 : Table} {n0 : Nat} {w : World} (hi : Inv lim disk t0 n0 w) (hk : Keeps t0 n0 w)
    {xs : List Int} {w' : World} (h : w'.h = { w.h with t := xs.foldl close w.h.t }) (hx : w.owned.Perm (xs ++ w'.owned))
    (hne : w.libs ≠ [] ∨ w.ranges ≠ []) : Keeps t0 n0 w' := by
  have hsub : ∀ i o, w'.h.t i = some o → w.h.t i = some o := by
    intro i o hio
    rw [h] at hio
    simp only at hio
    rw [closes_mem] at hio
    split at hio
    · cases hio
    · exact hio
  refine ⟨?_, fun i hi3 o hio => ?_, fun hn => ?_, fun p hp => ?_⟩
  · rw [h]
    exact hk.queues
  · have := hk.streams i hi3 o (hsub i o hio)
    rw [h]
    exact this
  · rw [h] at hn
    obtain ⟨-, -, h1, h2⟩ := hk.first hn
    rcases hne with hne | hne
    · exact absurd h1 hne
    · exact absurd h2 hne
  · have hp0 : w.h.pagemap = some p := by
      rw [h] at hp
      exact hp
    obtain ⟨n, rfl, h1, h2, h3, h4, h5⟩ := hk.map p hp0
    refine ⟨n, rfl, ?_, by rw [h]; exact h2, h3, h4, fun i o hio => h5 i o (hsub i o hio)⟩
    have hnx : (n : Int) ∉ xs := by
      intro hc
      have hnd := hx.nodup_iff.1 hi.acc.nodup
      exact (List.nodup_append.1 hnd).2.2 _ hc (n : Int) (by simp [World.owned, hp]) rfl
    rw [h]
    simp only
    rw [closes_mem, if_neg hnx]
    exact h1

theorem keeps_step {dbg : Bool} {fuel : Nat} {e : Env} {disk : List Byte → Option Obj} {t0 : Table} {n0 : Nat} {w w' : World} {ev : Ev}
    (hi : Inv e.lim disk t0 n0 w) (hk : Keeps t0 n0 w) (h : step dbg fuel e disk w ev = some w') : Keeps t0 n0 w' := by
  have drop : ∀ {k : Nat} {x : Int} {p : Nat}, w.ranges[k]? = some (x, p) → Keeps t0 n0 (w.drop k x) := by
    intro k x p hkx
    refine keeps_close hi hk (xs := [x]) rfl ?_ (.inr fun hc => by simp [hc] at hkx)
    have h1 : (w.ranges.map (·.1)).Perm (x :: (w.ranges.eraseIdx k).map (·.1)) := (perm_erase hkx).map (·.1)
    rw [List.perm_iff_count] at h1 ⊢
    intro a
    have := h1 a
    simp only [World.owned, World.drop, List.count_append, List.count_cons, List.count_nil] at this ⊢
    omega
  cases ev with
  | make s =>
    simp only [step] at h
    split at h
    · rename_i m hm
      have ho : Old disk w.h := ⟨hi.old, fun p o hp => Nat.lt_of_lt_of_le (hi.files.2 p o hp) hi.files.1⟩
      obtain ⟨m1, m2, m3, m4⟩ := made_map ho hm
      cases h
      have hn := hi.files.1
      have hnq : ∀ k, k < w.h.next → k ∉ w.h.queues → k ∉ w.h.allQueues ++ [w.h.next + 8] := by
        intro k hk1 hk2 hc
        rcases List.mem_append.1 hc with hc | hc
        · rcases allQueues_mem hc with hc | ⟨hc, -⟩
          · exact hk2 hc
          · omega
        · have : k = w.h.next + 8 := by simpa using hc
          omega
      have hfst : w.h.pagemap = none → w.h.next = n0 := fun hn => (hk.first hn).2.1
      have hle : n0 + 1 < w.h.next ∨ w.h.next = n0 := by
        rcases hpp : w.h.pagemap with _ | p0
        · exact .inr (hfst hpp)
        · obtain ⟨-, -, -, h2, -⟩ := hk.map p0 hpp
          exact .inl h2
      refine ⟨fun q hq => ?_, fun i hi3 o hio => ?_, fun hn => (nomatch hn), fun p hp => ?_⟩
      · rcases List.mem_append.1 hq with hq | hq
        · rcases allQueues_mem hq with hq | ⟨hq, -⟩
          · have := hk.queues q hq
            simp only
            omega
          · simp only
            omega
        · have : q = w.h.next + 8 := by simpa using hq
          simp only
          omega
      · have hs := (m1 i hi3 o).1 hio
        unfold Make.streams at hs
        split at hs
        · rename_i x hx
          cases hs
          exact hnq _ (hi.old i _ hx) (hk.streams i hi3 _ hx)
        · have hf := free_le w.h.plain.t i
          obtain ⟨g1, g2⟩ := early_no_queue (h := w.h) (fun q hq => ⟨(hk.queues q hq).2.1, fun p o hp => by
            have := hi.files.2 p o hp
            have := (hk.queues q hq).1
            omega⟩) ho.files (by omega) hs
          intro hc
          rcases List.mem_append.1 hc with hc | hc
          · exact g1 hc
          · exact g2 (by simpa using hc)
      · cases hp
        rcases hpp : w.h.pagemap with _ | p0
        · obtain ⟨n, h1, h2, h3, h4⟩ := m3 hpp
          obtain ⟨f1, f2, -, -⟩ := hk.first hpp
          refine ⟨n, h1, by rw [← f2]; exact h2, by simp only; omega, by rw [← f1]; exact h3, by rw [← f1]; exact h4, fun i o hio hid => ?_⟩
          rcases m4 i o hio with g | ⟨p, g⟩ | ⟨-, g⟩
          · have := hi.old i o g
            omega
          · have := hi.files.2 p o g
            omega
          · obtain ⟨k1, k2⟩ := g hpp (by omega)
            exact free_inj k1 h3 (by omega)
        · obtain ⟨h1, h2⟩ := m2 p0 hpp
          obtain ⟨n, g1, g2, g3, g4, g5, g6⟩ := hk.map p0 hpp
          refine ⟨n, h1.trans g1, h2 n g1 _ g2, by simp only; omega, g4, g5, fun i o hio hid => ?_⟩
          rcases m4 i o hio with g | ⟨p, g⟩ | ⟨g, -⟩
          · exact g6 i o g hid
          · have := hi.files.2 p o g
            omega
          · omega
    · cases h
  | ends k =>
    simp only [step] at h
    split at h
    · rename_i l hl
      cases h
      exact ⟨hk.queues, hk.streams, fun hn => (by simp [(hk.first hn).2.2.1] at hl), hk.map⟩
    · cases h
  | forks k =>
    simp only [step] at h
    split at h
    · split at h
      · cases h
        exact ⟨hk.queues, hk.streams, hk.first, hk.map⟩
      · cases h
    · cases h
  | again j =>
    simp only [step] at h
    split at h
    · cases h
      exact ⟨hk.queues, hk.streams, hk.first, hk.map⟩
    · cases h
  | strayEnds j =>
    simp only [step] at h
    split at h
    · cases h
      exact ⟨hk.queues, hk.streams, hk.first, hk.map⟩
    · cases h
  | destroy k =>
    simp only [step] at h
    split at h
    · rename_i l hl
      split at h
      · cases h
      cases h
      refine keeps_close hi hk (xs := l.own :: (l.files ++ [l.shm, l.proc, l.kq])) (by simp only [Lib.closed_eq]) ?_ (.inl fun hc => by simp [hc] at hl)
      have h1 : (w.libs.flatMap Lib.fds).Perm ((l :: w.libs.eraseIdx k).flatMap Lib.fds) := (perm_erase hl).flatMap_right _
      rw [List.perm_iff_count] at h1 ⊢
      intro a
      have := h1 a
      simp only [World.owned, Lib.fds, List.flatMap_cons, List.count_append, List.count_cons, List.count_nil] at this ⊢
      omega
    · cases h
  | eof k =>
    simp only [step] at h
    split at h
    · rename_i x p hkx
      split at h
      · cases h
        exact drop hkx
      · cases h
    · cases h
  | fail k =>
    simp only [step] at h
    split at h
    · rename_i x p hkx
      cases h
      exact drop hkx
    · cases h

theorem keeps_run {dbg : Bool} {fuel : Nat} {e : Env} {disk : List Byte → Option Obj} {t0 : Table} {n0 : Nat} : ∀ {evs : List Ev} {w w' : World},
    Inv e.lim disk t0 n0 w → Keeps t0 n0 w → run dbg fuel e disk w evs = some w' → Keeps t0 n0 w'
  | [], w, w', hi, hk, h => by
    cases h
    exact hk
  | ev :: evs, w, w', hi, hk, h => by
    rw [run] at h
    split at h
    · rename_i w1 h1
      exact keeps_run (inv_step hi h1) (keeps_step hi hk h1) h
    · cases h

theorem keeps_start {t0 : Table} {n0 : Nat} : Keeps t0 n0 (start t0 n0) :=
  ⟨by simp [start], by simp [start], fun _ => ⟨rfl, rfl, rfl, rfl⟩, by simp [start]⟩

end Verif.BsdMake
