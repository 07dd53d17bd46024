import Verif.BsdMake.Core

/-!
# Making and destroying sandboxes on FreeBSD: whose descriptors are open
-/

namespace Verif.BsdMake

open Verif.Fd Verif.Start Verif.FileTree Verif.FileTree.Spec
open Verif.Make (close_other)

/-! ### Specification -/

/-- The descriptors that a `Library` is responsible for (`include/process_sandbox/sandbox.h:510-611`). -/
def Lib.fds (l : Lib) : List Int := l.own :: l.shm :: l.proc :: l.kq :: l.files

/-- The descriptors that someone in the host is responsible for: the page map, the queue of the memory service, the sandboxes that exist, and the memory
service for each of its entries (`src/libsandbox.cc:102-105`). -/
def World.owned (w : World) : List Int :=
  w.h.pagemap.toList ++ (w.h.poller.toList ++ (w.libs.flatMap Lib.fds ++ w.ranges.map (·.1)))

/-- A table is that of the beginning, and besides the descriptors `xs` are open: each is one of its own, and none was open at the beginning
(`include/process_sandbox/platform/platform.h:34`). -/
structure Accounted (lim : Nat) (t0 t : Table) (xs : List Int) : Prop where
  nodup : xs.Nodup
  mine : ∀ x ∈ xs, ∃ n : Nat, x = n ∧ n < lim ∧ t0 n = none ∧ t n ≠ none
  rest : ∀ i : Nat, (i : Int) ∉ xs → t i = t0 i

/-! ### Lemmas -/

theorem closes_mem : ∀ (xs : List Int) (t : Table) (i : Nat), xs.foldl close t i = if (i : Int) ∈ xs then none else t i
  | [], _, _ => by simp
  | x :: xs, t, i => by
    rw [List.foldl_cons, closes_mem xs]
    by_cases h1 : (i : Int) ∈ xs
    · simp [h1]
    · by_cases h2 : x = i
      · subst h2
        simp [close_nat]
      · rw [close_other h2]
        simp [h1, Ne.symm h2]

theorem Accounted.perm {lim : Nat} {t0 t : Table} {xs ys : List Int} (h : Accounted lim t0 t xs) (p : xs.Perm ys) : Accounted lim t0 t ys :=
  ⟨p.nodup_iff.1 h.nodup, fun x hx => h.mine x (p.mem_iff.2 hx), fun i hi => h.rest i fun hc => hi (p.mem_iff.1 hc)⟩

theorem Accounted.close {lim : Nat} {t0 t : Table} {xs ys : List Int} (h : Accounted lim t0 t (xs ++ ys)) :
    Accounted lim t0 (xs.foldl Fd.close t) ys := by
  have hd := List.nodup_append.1 h.nodup
  refine ⟨hd.2.1, fun x hx => ?_, fun i hi => ?_⟩
  · obtain ⟨n, rfl, h1, h2, h3⟩ := h.mine x (by simp [hx])
    refine ⟨n, rfl, h1, h2, ?_⟩
    rw [closes_mem, if_neg fun hc => hd.2.2 _ hc _ hx rfl]
    exact h3
  · rw [closes_mem]
    split
    · rename_i hx
      obtain ⟨n, h1, -, h2, -⟩ := h.mine i (by simp [hx])
      have : n = i := by omega
      rw [← this, h2]
    · rename_i hx
      exact h.rest i (by simp [hx, hi])

theorem Accounted.opens {lim : Nat} {t0 t t' : Table} {xs : List Int} {ns : List Nat} (h : Accounted lim t0 t xs) (o : Opens lim t t' ns) :
    Accounted lim t0 t' (xs ++ ns.map Int.ofNat) := by
  have out : ∀ n ∈ ns, (n : Int) ∉ xs := by
    intro n hn hc
    obtain ⟨m, h1, -, -, h2⟩ := h.mine _ hc
    have : m = n := by omega
    subst this
    exact h2 (o.new m hn).2.1
  refine ⟨List.nodup_append.2 ⟨h.nodup, ?_, ?_⟩, fun x hx => ?_, fun i hi => ?_⟩
  · unfold List.Nodup
    rw [List.pairwise_map]
    exact List.Pairwise.imp (fun hab hc => hab (Int.ofNat.inj hc)) o.nodup
  · rintro a ha b hb rfl
    obtain ⟨n, hn, rfl⟩ := List.mem_map.1 hb
    exact out n hn ha
  · rcases List.mem_append.1 hx with hx | hx
    · obtain ⟨n, rfl, h1, h2, h3⟩ := h.mine x hx
      refine ⟨n, rfl, h1, h2, ?_⟩
      rw [o.rest n fun hn => out n hn hx]
      exact h3
    · obtain ⟨n, hn, rfl⟩ := List.mem_map.1 hx
      obtain ⟨h1, h2, h3⟩ := o.new n hn
      exact ⟨n, rfl, h1, by rw [← h.rest n (out n hn)]; exact h2, h3⟩
  · simp only [List.mem_append, not_or] at hi
    rw [o.rest i fun hc => hi.2 (List.mem_map_of_mem hc), h.rest i hi.1]

theorem flatMap_set {α β : Type} {f : α → List β} {l : List α} {k : Nat} {a b : α} (ha : l[k]? = some a) (hf : f b = f a) :
    (l.set k b).flatMap f = l.flatMap f := by
  obtain ⟨hk, rfl⟩ := List.getElem?_eq_some_iff.1 ha
  rw [List.flatMap_def, List.map_set, hf, List.flatMap_def]
  congr 1
  apply List.ext_getElem?
  intro i
  rw [List.getElem?_set]
  split
  · rename_i hi
    subst hi
    simp [hk]
  · rfl

theorem perm_erase {α : Type} {l : List α} {k : Nat} {a : α} (ha : l[k]? = some a) : l.Perm (a :: l.eraseIdx k) := by
  induction l generalizing k with
  | nil => simp at ha
  | cons x l ih =>
    rcases k with _ | k
    · simp at ha
      subst ha
      exact List.Perm.refl _
    · simp only [List.getElem?_cons_succ] at ha
      exact ((ih ha).cons x).trans (List.Perm.swap _ _ _)

theorem Lib.closed_eq (l : Lib) (t : Table) : l.closed t = (l.own :: (l.files ++ [l.shm, l.proc, l.kq])).foldl Fd.close t := by
  simp [Lib.closed, List.foldl_append]

/-! ### The invariant -/

/-- What holds in every state of a host that had the table `t0` and made its first object with the number `n0` (`src/libsandbox.cc:865-932`). -/
structure Inv (lim : Nat) (disk : List Byte → Option Obj) (t0 : Table) (n0 : Nat) (w : World) : Prop where
  acc : Accounted lim t0 w.h.t w.owned
  files : n0 ≤ w.h.next ∧ ∀ p o, disk p = some o → o.id < n0
  old : ∀ i o, w.h.t i = some o → o.id < w.h.next
  queues : ∀ q ∈ w.h.queues, q < w.h.next
  peers : ∀ r ∈ w.ranges, n0 ≤ r.2 ∧ r.2 < w.h.next ∧ openId lim w.h.t r.2 = false
  libs : ∀ l ∈ w.libs, n0 ≤ l.peer ∧ l.peer < w.h.next ∧ openId lim l.seen l.peer = true ∧ (∀ i o, l.seen i = some o → o.id < w.h.next) ∧
    ∀ p, n0 ≤ p → p < w.h.next → p ≠ l.peer → (∃ r ∈ w.ranges, r.2 = p) → openId lim l.seen p = false
  distinct : (w.libs.map (·.peer)).Nodup

theorem inv_start {lim : Nat} {disk : List Byte → Option Obj} {t0 : Table} {n0 : Nat} (ht : ∀ i o, t0 i = some o → o.id < n0)
    (hd : ∀ p o, disk p = some o → o.id < n0) : Inv lim disk t0 n0 (start t0 n0) :=
  ⟨⟨by simp [World.owned, start], by simp [World.owned, start], fun i _ => rfl⟩, ⟨by simp [start], hd⟩, ht, by simp [start], by simp [start], by simp [start],
    by simp [start]⟩

theorem openId_false {lim : Nat} {t : Table} {p : Nat} : openId lim t p = false ↔ ∀ i o, i < lim → t i = some o → o.id ≠ p := by
  rw [← Bool.not_eq_true, openId_iff]
  constructor
  · intro h i o h1 h2 h3
    exact h ⟨i, o, h1, h2, h3⟩
  · rintro h ⟨i, o, h1, h2, h3⟩
    exact h i o h1 h2 h3

theorem inherited_some {qs : List Nat} {t : Table} {i : Nat} {o : Obj} : inherited qs t i = some o ↔ t i = some o ∧ o.id ∉ qs := by
  unfold inherited
  split
  · rename_i x hx
    split
    · rename_i hq
      constructor
      · intro h
        cases h
      · rintro ⟨h1, h2⟩
        rw [hx] at h1
        cases h1
        exact absurd hq h2
    · rename_i hq
      constructor
      · intro h
        cases h
        exact ⟨hx, hq⟩
      · rintro ⟨h1, -⟩
        rw [hx] at h1
        exact h1
  · rename_i hx
    rw [hx]
    simp

theorem inv_make {dbg : Bool} {fuel : Nat} {e : Env} {disk : List Byte → Option Obj} {t0 : Table} {n0 : Nat} {w w' : World} {s : Sys}
    (hi : Inv e.lim disk t0 n0 w) (h : step dbg fuel e disk w (.make s) = some w') : Inv e.lim disk t0 n0 w' := by
  simp only [step] at h
  split at h
  · rename_i m hm
    have ho : Old disk w.h := ⟨hi.old, fun p o hp => Nat.lt_of_lt_of_le (hi.files.2 p o hp) hi.files.1⟩
    obtain ⟨t, tr, pmNew, poNew, shm, svc, own, rpc, cb, proc, kq, ns, p⟩ := made_parts ho hm
    cases h
    obtain ⟨g1, g2, g3, g4, g5, g6⟩ := p.handles
    have hacc := hi.acc.opens p.opens
    have hout : ∀ i o, m.t i = some o → t i = some o ∧ i ≠ rpc := by
      intro i o hio
      rw [p.host] at hio
      by_cases h1 : i = rpc
      · subst h1
        rw [close_nat, put_same] at hio
        cases hio
      rw [close_other (by omega)] at hio
      by_cases h2 : i = cb
      · subst h2
        rw [close_nat, put_same] at hio
        cases hio
      rw [close_other (by omega)] at hio
      exact ⟨hio, h1⟩
    have hallq : ∀ q ∈ w.h.allQueues, q < w.h.next ∨ q = w.h.next + 4 := by
      intro q hq
      unfold Host.allQueues at hq
      split at hq
      · exact .inl (hi.queues q hq)
      · rcases List.mem_append.1 hq with hq | hq
        · exact .inl (hi.queues q hq)
        · exact .inr (by simpa using hq)
    have hrpcLim : rpc < e.lim := (p.opens.new rpc (by simp)).1
    -- nobody else has the other end of an old socket
    have hno : ∀ q, n0 ≤ q → q < w.h.next → openId e.lim w.h.t q = false → openId e.lim t q = false := by
      intro q h1 h2 h3
      rw [openId_false] at h3 ⊢
      intro i o hil hio
      rcases p.news i o hio with h4 | h4 | ⟨x, h4⟩
      · exact h3 i o hil h4
      · omega
      · have := hi.files.2 x o h4
        omega
    have hmono : ∀ (T T' : Table) q, (∀ i o, T' i = some o → T i = some o) → openId e.lim T q = false → openId e.lim T' q = false := by
      intro T T' q hs hf
      rw [openId_false] at hf ⊢
      exact fun i o h1 h2 => hf i o h1 (hs i o h2)
    have hseen : ∀ i o, m.seen i = some o → t i = some o := by
      intro i o hio
      rw [p.seen, inherited_some] at hio
      exact p.born.2 i o hio.1
    refine ⟨?_, ⟨?_, hi.files.2⟩, ?_, ?_, ?_, ?_, ?_⟩
    · -- the account
      have hperm : (w.owned ++ (pmNew.toList ++ (poNew.toList ++ (shm :: svc :: own :: rpc :: cb :: proc :: kq :: ns))).map Int.ofNat).Perm
          ([(cb : Int), (rpc : Int)] ++ World.owned ⟨⟨m.t, w.h.next + 9, some m.pm, some m.poller, w.h.allQueues ++ [w.h.next + 8]⟩,
            w.libs ++ [⟨handlesOf m.tree, m.shm, m.own, m.proc, m.kq, w.h.next + 3, m.seen, true⟩],
            w.ranges ++ [(m.svc, w.h.next + 3)], w.strays⟩) := by
        rw [List.perm_iff_count]
        intro a
        simp only [World.owned, Lib.fds, List.flatMap_append, List.flatMap_cons, List.flatMap_nil, List.map_append, List.map_cons, List.map_nil,
          List.count_append, List.count_cons, List.count_nil, List.append_nil, Option.toList_some, g1, g2, g3, g4, g5, g6, Int.ofNat_eq_natCast]
        rcases p.pagemap with ⟨x1, rfl⟩ | ⟨n, rfl, x1, x2⟩ <;> rcases p.poller with ⟨y1, rfl⟩ | ⟨k, rfl, y1, y2⟩ <;>
          simp only [x1, y1, Option.toList_none, Option.toList_some, List.map_nil, List.map_cons, List.count_nil, List.count_cons, Int.ofNat_eq_natCast] <;>
          first
            | (rw [x2, y2]; omega)
            | (rw [x2]; omega)
            | (rw [y2]; omega)
            | omega
      have hc := (hacc.perm hperm).close
      have : [(cb : Int), (rpc : Int)].foldl Fd.close t = m.t := by
        rw [p.host]
        rfl
      rw [this] at hc
      exact hc
    · show n0 ≤ w.h.next + 9
      have := hi.files.1
      omega
    · intro i o hio
      exact p.ids i o (hout i o hio).1
    · intro q hq
      show q < w.h.next + 9
      rcases List.mem_append.1 hq with hq | hq
      · rcases hallq q hq with h1 | h1 <;> omega
      · have : q = w.h.next + 8 := by simpa using hq
        omega
    · intro r hr
      have hn := hi.files.1
      rcases List.mem_append.1 hr with hr | hr
      · obtain ⟨h1, h2, h3⟩ := hi.peers r hr
        refine ⟨h1, ?_, hmono t _ _ (fun i o hio => (hout i o hio).1) (hno _ h1 h2 h3)⟩
        show r.2 < w.h.next + 9
        omega
      · simp only [List.mem_cons, List.not_mem_nil, or_false] at hr
        subst hr
        refine ⟨by show n0 ≤ w.h.next + 3; omega, by show w.h.next + 3 < w.h.next + 9; omega, ?_⟩
        rw [openId_false]
        intro i o _ hio hid
        obtain ⟨h1, h2⟩ := hout i o hio
        exact h2 (p.atRpc.2 i o h1 hid)
    · intro l hl
      have hn := hi.files.1
      rcases List.mem_append.1 hl with hl | hl
      · obtain ⟨h1, h2, h3, h4, h5⟩ := hi.libs l hl
        refine ⟨h1, by show l.peer < w.h.next + 9; omega, h3, fun i o hio => by have := h4 i o hio; show o.id < w.h.next + 9; omega, ?_⟩
        intro q q1 q2 q3 ⟨r, hr, hq⟩
        rcases List.mem_append.1 hr with hr | hr
        · exact h5 q q1 (by have := (hi.peers r hr).2.1; omega) q3 ⟨r, hr, hq⟩
        · simp only [List.mem_cons, List.not_mem_nil, or_false] at hr
          subst hr
          simp only at hq
          rw [openId_false]
          intro i o _ hio hid
          have := h4 i o hio
          omega
      · simp only [List.mem_cons, List.not_mem_nil, or_false] at hl
        subst hl
        refine ⟨by show n0 ≤ w.h.next + 3; omega, by show w.h.next + 3 < w.h.next + 9; omega, ?_, fun i o hio => p.ids i o (hseen i o hio), ?_⟩
        · rw [openId_iff]
          refine ⟨rpc, ⟨w.h.next + 3, true⟩, hrpcLim, ?_, rfl⟩
          show m.seen rpc = _
          rw [p.seen, inherited_some]
          refine ⟨p.born.1, fun hq => ?_⟩
          rcases hallq _ hq with h1 | h1 <;> simp only at h1 <;> omega
        · intro q q1 q2 q3 ⟨r, hr, hq⟩
          simp only at q3
          rcases List.mem_append.1 hr with hr | hr
          · obtain ⟨h1, h2, h3⟩ := hi.peers r hr
            subst hq
            exact hmono t _ _ hseen (hno _ h1 h2 h3)
          · simp only [List.mem_cons, List.not_mem_nil, or_false] at hr
            subst hr
            exact absurd hq.symm q3
    · rw [List.map_append, List.nodup_append]
      refine ⟨hi.distinct, by simp, ?_⟩
      rintro a ha b hb rfl
      simp only [List.map_cons, List.map_nil, List.mem_cons, List.not_mem_nil, or_false] at hb
      obtain ⟨l, hl, rfl⟩ := List.mem_map.1 ha
      have := (hi.libs l hl).2.1
      omega
  · cases h

theorem inv_drop {lim : Nat} {disk : List Byte → Option Obj} {t0 : Table} {n0 : Nat} {w : World} (hi : Inv lim disk t0 n0 w) {k : Nat} {x : Int} {p : Nat}
    (hk : w.ranges[k]? = some (x, p)) : Inv lim disk t0 n0 (w.drop k x) := by
  have hsub : ∀ i o, close w.h.t x i = some o → w.h.t i = some o := by
    intro i o hio
    have := closes_mem [x] w.h.t i
    simp only [List.foldl_cons, List.foldl_nil] at this
    rw [this] at hio
    split at hio
    · cases hio
    · exact hio
  refine ⟨?_, hi.files, fun i o hio => hi.old i o (hsub i o hio), hi.queues, ?_, ?_, hi.distinct⟩
  · have hp : w.owned.Perm ([x] ++ (w.drop k x).owned) := by
      have h1 : (w.ranges.map (·.1)).Perm (x :: (w.ranges.eraseIdx k).map (·.1)) := (perm_erase hk).map (·.1)
      rw [List.perm_iff_count] at h1 ⊢
      intro a
      have := h1 a
      simp only [World.owned, World.drop, List.count_append, List.count_cons, List.count_nil] at this ⊢
      omega
    exact (hi.acc.perm hp).close
  · intro r hr
    obtain ⟨h1, h2, h3⟩ := hi.peers r (List.mem_of_mem_eraseIdx hr)
    refine ⟨h1, h2, ?_⟩
    rw [openId_false] at h3 ⊢
    exact fun i o hl hio => h3 i o hl (hsub i o hio)
  · intro l hl
    obtain ⟨h1, h2, h3, h4, h5⟩ := hi.libs l hl
    refine ⟨h1, h2, h3, h4, fun q q1 q2 q3 ⟨r, hr, hq⟩ => h5 q q1 q2 q3 ⟨r, List.mem_of_mem_eraseIdx hr, hq⟩⟩

theorem inv_step {dbg : Bool} {fuel : Nat} {e : Env} {disk : List Byte → Option Obj} {t0 : Table} {n0 : Nat} {w w' : World} {ev : Ev}
    (hi : Inv e.lim disk t0 n0 w) (h : step dbg fuel e disk w ev = some w') : Inv e.lim disk t0 n0 w' := by
  cases ev with
  | make s => exact inv_make hi h
  | ends k =>
    simp only [step] at h
    split at h
    · rename_i l hl
      cases h
      refine ⟨?_, hi.files, hi.old, hi.queues, hi.peers, ?_, ?_⟩
      · have : World.owned { w with libs := w.libs.set k { l with runs := false } } = w.owned := by
          simp only [World.owned]
          rw [flatMap_set (f := Lib.fds) (b := { l with runs := false }) hl rfl]
        rw [this]
        exact hi.acc
      · intro l' hl'
        rcases List.mem_or_eq_of_mem_set hl' with hl' | rfl
        · exact hi.libs l' hl'
        · exact hi.libs l (List.mem_of_getElem? hl)
      · have : (w.libs.set k { l with runs := false }).map (·.peer) = w.libs.map (·.peer) := by
          obtain ⟨hk, rfl⟩ := List.getElem?_eq_some_iff.1 hl
          rw [List.map_set]
          apply List.ext_getElem?
          intro i
          rw [List.getElem?_set]
          split
          · rename_i hik
            subst hik
            simp [hk]
          · rfl
        show ((w.libs.set k { l with runs := false }).map (·.peer)).Nodup
        rw [this]
        exact hi.distinct
    · cases h
  | forks k =>
    simp only [step] at h
    split at h
    · split at h
      · cases h
        exact ⟨hi.acc, hi.files, hi.old, hi.queues, hi.peers, hi.libs, hi.distinct⟩
      · cases h
    · cases h
  | again j =>
    simp only [step] at h
    split at h
    · cases h
      exact ⟨hi.acc, hi.files, hi.old, hi.queues, hi.peers, hi.libs, hi.distinct⟩
    · cases h
  | strayEnds j =>
    simp only [step] at h
    split at h
    · cases h
      exact ⟨hi.acc, hi.files, hi.old, hi.queues, hi.peers, hi.libs, hi.distinct⟩
    · cases h
  | destroy k =>
    simp only [step] at h
    split at h
    · rename_i l hl
      split at h
      · cases h
      cases h
      have hsub : ∀ i o, l.closed w.h.t i = some o → w.h.t i = some o := by
        intro i o hio
        rw [Lib.closed_eq, closes_mem] at hio
        split at hio
        · cases hio
        · exact hio
      refine ⟨?_, hi.files, fun i o hio => hi.old i o (hsub i o hio), hi.queues, ?_, ?_, ?_⟩
      · have hp : w.owned.Perm ((l.own :: (l.files ++ [l.shm, l.proc, l.kq])) ++
            World.owned { w with h := { w.h with t := l.closed w.h.t }, libs := w.libs.eraseIdx k }) := by
          have h1 : (w.libs.flatMap Lib.fds).Perm ((l :: w.libs.eraseIdx k).flatMap Lib.fds) := (perm_erase hl).flatMap_right _
          rw [List.perm_iff_count] at h1 ⊢
          intro a
          have := h1 a
          simp only [World.owned, Lib.fds, List.flatMap_cons, List.count_append, List.count_cons, List.count_nil] at this ⊢
          omega
        have hc := (hi.acc.perm hp).close
        rw [← Lib.closed_eq] at hc
        exact hc
      · intro r hr
        obtain ⟨h1, h2, h3⟩ := hi.peers r hr
        refine ⟨h1, h2, ?_⟩
        rw [openId_false] at h3 ⊢
        exact fun i o hlt hio => h3 i o hlt (hsub i o hio)
      · intro l' hl'
        exact hi.libs l' (List.mem_of_mem_eraseIdx hl')
      · have h1 := ((perm_erase hl).map (·.peer)).nodup_iff.1 hi.distinct
        simp only [List.map_cons, List.nodup_cons] at h1
        exact h1.2
    · cases h
  | eof k =>
    simp only [step] at h
    split at h
    · rename_i x p hk
      split at h
      · cases h
        exact inv_drop hi hk
      · cases h
    · cases h
  | fail k =>
    simp only [step] at h
    split at h
    · rename_i x p hk
      cases h
      exact inv_drop hi hk
    · cases h

theorem inv_run {dbg : Bool} {fuel : Nat} {e : Env} {disk : List Byte → Option Obj} {t0 : Table} {n0 : Nat} : ∀ {evs : List Ev} {w w' : World},
    Inv e.lim disk t0 n0 w → run dbg fuel e disk w evs = some w' → Inv e.lim disk t0 n0 w'
  | [], w, w', hi, h => by
    cases h
    exact hi
  | ev :: evs, w, w', hi, h => by
    rw [run] at h
    split at h
    · rename_i w1 h1
      exact inv_run (inv_step hi h1) h
    · cases h

end Verif.BsdMake
