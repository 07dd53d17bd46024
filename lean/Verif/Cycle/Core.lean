import Verif.Cycle.Lemmas

/-!
# Making and destroying sandboxes: one sandbox
-/

namespace Verif.Cycle

open Verif.Fd Verif.Start Verif.FileTree Verif.Make Verif.FileTree.Spec

/-- A host between two sandboxes: what it has open and what it can open is older than what it will make, and the memory service has dropped
everything that has lost its peer (`src/libsandbox.cc:115-129`). -/
structure Sound (lim : Nat) (disk : List Byte → Option Obj) (w : World) : Prop where
  old : ∀ i o, w.h.t i = some o → o.id < w.h.next
  files : ∀ p o, disk p = some o → o.id < w.h.next
  stuck : ∀ x ∈ w.ranges, openId lim w.h.t x.2 = true

/-- What is known after a sandbox has been made: the table `t` of the host when its child was started, and the numbers in it (`src/libsandbox.cc:865-925`);
`ns` are those of the exported files (`src/libsandbox.cc:705-718`). -/
structure Parts (fuel : Nat) (e : Env) (disk : List Byte → Option Obj) (w : World) (m : Make.Made) (t : Table) (shm svc own rpc cb : Nat)
    (ns : List Nat) (out : Start.Out) (hs : Handles) : Prop where
  room : (created disk w.h).length ≤ free w.h.t e.lim
  table : t = fill w.h.t (created disk w.h)
  atShm : t shm = some ⟨w.h.next, true⟩
  atSvc : t svc = some ⟨w.h.next + 2, true⟩
  atRpc : t rpc = some ⟨w.h.next + 3, true⟩
  atOwn : t own = some ⟨w.h.next + 5, true⟩
  atCb : t cb = some ⟨w.h.next + 6, true⟩
  atPm : PmAt w.h t m.pm
  files : ns.Nodup ∧ ns.length = (opened disk).length ∧ ∀ n ∈ ns, w.h.t n = none ∧ ∃ p o, disk p = some o ∧ t n = some o
  child : startChild fuel e t ⟨shm, m.pm, rpc, cb⟩ = (out, hs) ∧ out ≠ .looping ∧ m.child = some out
  host : m.t = close (close t hs.cb) hs.rpc
  handles : m.shm = hs.shm ∧ m.cb = own ∧ m.svc = svc ∧ handlesOf m.tree = ns.map Int.ofNat

/-- The handles as the parent finds them: the shared memory's is gone, and after an `execve` those of the sockets are. -/
theorem startChild_taken {fuel : Nat} {e : Env} {t : Table} {hs hs' : Handles} {out : Start.Out} (h : startChild fuel e t hs = (out, hs')) :
    hs'.shm = -1 ∧ ∀ t', out = .exec t' → hs'.cb = -1 ∧ hs'.rpc = -1 := by
  unfold startChild at h
  have fin : ∀ (cbFd rpcFd shmFd pmFd : Int) (op : Int × Table),
      (if op.1 < 0 then (Start.Out.exit, { hs with shm := -1, cb := cbFd, rpc := rpcFd })
        else match moveFd e.lim fuel op.2 op.1 with
          | none => (.looping, { hs with shm := -1, cb := cbFd, rpc := rpcFd })
          | some (libFd, t) =>
            (.exec (dropWrite e (closefrom (dup2 (dup2 (dup2 (dup2 (dup2 t shmFd 3) pmFd 4) cbFd 5) libFd 6) rpcFd 7) lastFd)),
              { hs with shm := -1, cb := -1, rpc := -1 })) = (out, hs') →
      hs'.shm = -1 ∧ ∀ t', out = .exec t' → hs'.cb = -1 ∧ hs'.rpc = -1 := by
    intro cbFd rpcFd shmFd pmFd op h
    split at h
    · simp only [Prod.mk.injEq] at h
      obtain ⟨rfl, rfl⟩ := h
      exact ⟨rfl, nofun⟩
    · split at h
      · simp only [Prod.mk.injEq] at h
        obtain ⟨rfl, rfl⟩ := h
        exact ⟨rfl, nofun⟩
      · simp only [Prod.mk.injEq] at h
        obtain ⟨rfl, rfl⟩ := h
        exact ⟨rfl, fun _ _ => ⟨rfl, rfl⟩⟩
  split at h
  · simp only [Prod.mk.injEq] at h
    obtain ⟨rfl, rfl⟩ := h
    exact ⟨rfl, nofun⟩
  split at h
  · simp only [Prod.mk.injEq] at h
    obtain ⟨rfl, rfl⟩ := h
    exact ⟨rfl, nofun⟩
  split at h
  · simp only [Prod.mk.injEq] at h
    obtain ⟨rfl, rfl⟩ := h
    exact ⟨rfl, nofun⟩
  split at h
  · simp only [Prod.mk.injEq] at h
    obtain ⟨rfl, rfl⟩ := h
    exact ⟨rfl, nofun⟩
  exact fin _ _ _ _ _ h

theorem parts_of {fuel : Nat} {e : Env} {disk : List Byte → Option Obj} {w : World} {t1 t2 t : Table} {shm svc own rpc cb : Nat} {pm : Int}
    {out : Start.Out} {hs : Handles} (hh : Handed disk w.h e.lim t1 t2 t shm svc own rpc cb pm)
    (hst : startChild fuel e t ⟨shm, pm, rpc, cb⟩ = (out, hs)) (ho : out ≠ .looping) :
    ∃ ns, Parts fuel e disk w ⟨(Defaults.construct disk e.lim t1).1, some out, close (close t hs.cb) hs.rpc, hs.shm, own, svc, pm⟩
      t shm svc own rpc cb ns out hs := by
  obtain ⟨ns, n1, n2, n3, n4⟩ := construct_slots hh.before.1 hh.before.2
  refine ⟨ns, hh.room, hh.table, hh.atShm.1, hh.atSvc, hh.atRpc, hh.atOwn, hh.atCb, hh.atPm, ⟨n2, n3, fun n hn => ?_⟩, ⟨hst, ho, rfl⟩, rfl,
    rfl, rfl, rfl, n1⟩
  obtain ⟨y1, -, p, o, y2, y3⟩ := n4 n hn
  refine ⟨?_, p, o, y2, hh.keep.2 n o (by rw [hh.after]; exact y3)⟩
  rcases ht : w.h.t n with _ | x
  · rfl
  · rw [hh.start n x ht] at y1
    cases y1

theorem parts {dbg : Bool} {fuel : Nat} {e : Env} {disk : List Byte → Option Obj} {s : Sys} {w : World} {m : Make.Made}
    (hm : make dbg fuel e disk s w.h = .made m) (hf : s.forked = true) :
    ∃ t shm svc own rpc cb ns out hs, Parts fuel e disk w m t shm svc own rpc cb ns out hs := by
  obtain ⟨t1, t2, t, shm, svc, own, rpc, cb, pm, hh, hmk⟩ := (make_steps dbg fuel e disk s w.h).2 (early_made hm)
  rw [hm, forks, if_pos hf] at hmk
  rcases hst : startChild fuel e t ⟨shm, pm, rpc, cb⟩ with ⟨out, hs⟩
  rw [hst] at hmk
  have ho : out ≠ .looping := by
    rintro rfl
    cases hmk
  obtain ⟨ns, p⟩ := parts_of hh hst ho
  refine ⟨t, shm, svc, own, rpc, cb, ns, out, hs, ?_⟩
  cases out with
  | looping => cases hmk
  | exec t' => cases hmk; exact p
  | exit => cases hmk; exact p

section
variable {fuel : Nat} {e : Env} {disk : List Byte → Option Obj} {w : World} {m : Make.Made} {t : Table} {shm svc own rpc cb : Nat}
  {ns : List Nat} {out : Start.Out} {hs : Handles}

theorem Parts.new (p : Parts fuel e disk w m t shm svc own rpc cb ns out hs) (hw : Sound e.lim disk w) {i : Nat} {o : Obj}
    (hi : t i = some o) (ho : w.h.next ≤ o.id) : w.h.t i = none ∧ i < e.lim ∧ i ∉ ns := by
  have h1 : w.h.t i = none := by
    rcases ht : w.h.t i with _ | x
    · rfl
    · have h2 := fill_keeps (os := created disk w.h) ht
      rw [← p.table, hi] at h2
      cases h2
      have := hw.old i _ ht
      omega
  refine ⟨h1, fill_below p.room h1 (by rw [← p.table, hi]; simp), fun hc => ?_⟩
  obtain ⟨-, q, x, hx, hy⟩ := p.files.2.2 i hc
  rw [hi] at hy
  cases hy
  have := hw.files q _ hx
  omega

/-- The table after everything that the sandbox owned has been closed, before the memory service looks
(`src/libsandbox.cc:757-788`). -/
def Parts.left (_ : Parts fuel e disk w m t shm svc own rpc cb ns out hs) : Table :=
  (ns.map Int.ofNat).foldl close (close (close (close t hs.cb) hs.rpc) (own : Int))

/-- Everything that was open when the child was started is open afterwards, but for the two sockets of the child, those of the host and
the exported files. -/
theorem Parts.kept (p : Parts fuel e disk w m t shm svc own rpc cb ns out hs) {i : Nat} {o : Obj} (hi : t i = some o)
    (h1 : i ≠ rpc) (h2 : i ≠ cb) (h3 : i ≠ own) (h4 : i ∉ ns) : p.left i = some o := by
  obtain ⟨c1, c2⟩ := startChild_handles p.child.1 p.child.2.1
  have ne2 : ∀ y : Int, (y = rpc ∨ y = cb ∨ t.at y = none) → y ≠ i := by
    rintro y (hy | hy | hy) he
    · omega
    · omega
    · rw [he, at_nat, hi] at hy
      cases hy
  unfold Parts.left
  rw [closes_other ns _ h4, close_other, close_other, close_other, hi]
  · exact ne2 _ (c1.elim (fun c => .inr (.inl c)) (fun c => .inr (.inr c)))
  · exact ne2 _ (c2.elim .inl (fun c => .inr (.inr c)))
  · omega

theorem Parts.keptOld (p : Parts fuel e disk w m t shm svc own rpc cb ns out hs) (hw : Sound e.lim disk w) {i : Nat} {o : Obj}
    (hi : w.h.t i = some o) : p.left i = some o ∧ i ≠ svc := by
  have hti : t i = some o := by
    rw [p.table]
    exact fill_keeps hi
  have ne : ∀ (k : Nat) (x : Obj), t k = some x → w.h.next ≤ x.id → i ≠ k := by
    rintro k x hk hx rfl
    have := (p.new hw hk hx).1
    rw [hi] at this
    cases this
  refine ⟨p.kept hti (ne rpc _ p.atRpc (by simp)) (ne cb _ p.atCb (by simp)) (ne own _ p.atOwn (by simp)) fun hc => ?_, ne svc _ p.atSvc (by simp)⟩
  rw [(p.files.2.2 i hc).1] at hi
  cases hi

theorem Parts.destroyed (p : Parts fuel e disk w m t shm svc own rpc cb ns out hs) (hw : Sound e.lim disk w) :
    destroy e.lim w m =
      if openId e.lim p.left (w.h.next + 3) then ⟨⟨p.left, w.h.next + 7, some m.pm, true⟩, (m.svc, w.h.next + 3) :: w.ranges⟩
      else ⟨⟨close p.left (svc : Int), w.h.next + 7, some m.pm, true⟩, w.ranges⟩ := by
  obtain ⟨s1, -⟩ := startChild_taken p.child.1
  obtain ⟨g1, g2, g3, g4⟩ := p.handles
  have hT : close ((handlesOf m.tree).foldl close (close m.t m.cb)) m.shm = p.left := by
    rw [g4, g2, g1, s1, close_neg, p.host]
    rfl
  have hold : ∀ i o, w.h.t i = some o → p.left i = some o ∧ i ≠ svc := fun i o hi => p.keptOld hw hi
  have hst : ∀ T : Table, (∀ i o, w.h.t i = some o → T i = some o) → ∀ x ∈ w.ranges, openId e.lim T x.2 = true := by
    intro T hT x hx
    obtain ⟨i, o, h1, h2, h3⟩ := openId_iff.1 (hw.stuck x hx)
    exact openId_iff.2 ⟨i, o, h1, hT i o h2, h3⟩
  unfold destroy
  simp only [hT, hangup]
  split
  · rename_i ho
    rw [hangup_stuck _ (hst _ fun i o hi => (hold i o hi).1)]
  · rw [g3, hangup_stuck _ (hst _ fun i o hi => by
      rw [close_other (by have := (hold i o hi).2; omega)]
      exact (hold i o hi).1)]

/-- Nothing new is opened by destroying. -/
theorem Parts.from (p : Parts fuel e disk w m t shm svc own rpc cb ns out hs) {i : Nat} {o : Obj} (hi : p.left i = some o) : t i = some o := by
  have cl : ∀ (T : Table) (x : Int), close T x i = some o → T i = some o := by
    intro T x h
    by_cases hx : x = i
    · subst hx
      rw [close_nat, put_same] at h
      cases h
    · rwa [close_other hx] at h
  unfold Parts.left at hi
  by_cases hn : i ∈ ns
  · rw [closes_in ns _ hn] at hi
    cases hi
  · rw [closes_other ns _ hn] at hi
    exact cl _ _ (cl _ _ (cl _ _ hi))

theorem created_ids {h : Make.Host} {o : Obj} (hf : ∀ p o, disk p = some o → o.id < h.next) (ho : o ∈ created disk h) : o.id < h.next + 7 := by
  simp only [created, List.mem_append, List.mem_cons, List.not_mem_nil, or_false] at ho
  rcases ho with ((((rfl | ho) | ho) | ho) | ho) | ho
  · simp
  · split at ho
    · simp only [List.mem_cons, List.not_mem_nil, or_false] at ho
      subst ho
      simp
    · simp at ho
  · simp only [opened, List.mem_filterMap] at ho
    obtain ⟨d, -, hd⟩ := ho
    have := hf _ _ hd
    omega
  · rcases ho with rfl | rfl <;> simp
  · split at ho
    · simp at ho
    · simp only [List.mem_cons, List.not_mem_nil, or_false] at ho
      subst ho
      simp
  · rcases ho with rfl | rfl <;> simp

/-- A host stays sound, keeps what it had, and has lost the shared memory of the sandbox. -/
theorem Parts.sound (p : Parts fuel e disk w m t shm svc own rpc cb ns out hs) (hw : Sound e.lim disk w) :
    Sound e.lim disk (destroy e.lim w m) ∧ (∀ i o, w.h.t i = some o → (destroy e.lim w m).h.t i = some o) ∧
      (destroy e.lim w m).h.t shm = some ⟨w.h.next, true⟩ ∧ w.h.t shm = none ∧ shm < e.lim := by
  have hsm : p.left shm = some ⟨w.h.next, true⟩ := by
    have ne : ∀ (k : Nat) (x : Obj), t k = some x → x.id ≠ w.h.next → shm ≠ k := by
      rintro k x hk hx rfl
      rw [p.atShm] at hk
      cases hk
      exact hx rfl
    exact p.kept p.atShm (ne rpc _ p.atRpc (by simp)) (ne cb _ p.atCb (by simp)) (ne own _ p.atOwn (by simp)) (p.new hw p.atShm (by simp)).2.2
  have hss : shm ≠ svc := by
    intro h
    have := p.atShm
    rw [h, p.atSvc] at this
    simp at this
  have hids : ∀ i o, t i = some o → o.id < w.h.next + 7 := by
    intro i o hi
    rw [p.table] at hi
    unfold fill at hi
    split at hi
    · rename_i x hx
      cases hi
      have := hw.old i _ hx
      omega
    · exact created_ids hw.files (List.mem_of_getElem? hi)
  have hfiles : ∀ q o, disk q = some o → o.id < w.h.next + 7 := fun q o hq => by
    have := hw.files q o hq
    omega
  obtain ⟨f1, f2, -⟩ := p.new hw p.atShm (by simp)
  rw [p.destroyed hw]
  split
  · rename_i ho
    refine ⟨⟨fun i o hi => hids i o (p.from hi), hfiles, fun x hx => ?_⟩, fun i o hi => (p.keptOld hw hi).1, hsm, f1, f2⟩
    simp only [List.mem_cons] at hx
    rcases hx with rfl | hx
    · exact ho
    · obtain ⟨i, o, h1, h2, h3⟩ := openId_iff.1 (hw.stuck x hx)
      exact openId_iff.2 ⟨i, o, h1, (p.keptOld hw h2).1, h3⟩
  · have hk : ∀ i o, i ≠ svc → p.left i = some o → close p.left (svc : Int) i = some o := fun i o h1 h2 => by
      rw [close_other (by omega)]
      exact h2
    refine ⟨⟨fun i o hi => hids i o (p.from ?_), hfiles, fun x hx => ?_⟩, fun i o hi => hk i o (p.keptOld hw hi).2 (p.keptOld hw hi).1,
      hk _ _ hss hsm, f1, f2⟩
    · by_cases hx : i = svc
      · simp only [hx, close_nat, put_same] at hi
        cases hi
      · simp only [close_other (show (svc : Int) ≠ i by omega)] at hi
        exact hi
    · obtain ⟨i, o, h1, h2, h3⟩ := openId_iff.1 (hw.stuck x hx)
      exact openId_iff.2 ⟨i, o, h1, hk i o (p.keptOld hw h2).2 (p.keptOld hw h2).1, h3⟩

/-- If the child has executed its program, the host keeps four descriptors of the sandbox, and the page map and the poller of the first. -/
theorem Parts.exec (p : Parts fuel e disk w m t shm svc own rpc cb ns out hs) (hw : Sound e.lim disk w) {t' : Table} (ho : out = .exec t') :
    free (destroy e.lim w m).h.t e.lim + 4 + (created disk w.h).length = free w.h.t e.lim + 5 + (opened disk).length := by
  obtain ⟨-, s2⟩ := startChild_taken p.child.1
  obtain ⟨s3, s4⟩ := s2 t' ho
  have hl : p.left = (ns.map Int.ofNat).foldl close (close t (own : Int)) := by
    unfold Parts.left
    rw [s3, s4, close_neg, close_neg]
  have hown := p.new hw p.atOwn (by simp)
  have hrpc : p.left rpc = some ⟨w.h.next + 3, true⟩ := by
    rw [hl, closes_other ns _ (p.new hw p.atRpc (by simp)).2.2, close_other, p.atRpc]
    intro h
    have h' : own = rpc := by omega
    have := p.atOwn
    rw [h', p.atRpc] at this
    simp at this
  have hopen : openId e.lim p.left (w.h.next + 3) = true :=
    openId_iff.2 ⟨rpc, _, (p.new hw p.atRpc (by simp)).2.1, hrpc, rfl⟩
  rw [p.destroyed hw, if_pos hopen]
  simp only
  have hc : free (close t (own : Int)) e.lim = free t e.lim + 1 := free_close (by rw [p.atOwn]; simp) hown.2.1
  rw [hl, free_closes ns _ p.files.1, hc, p.files.2.1, p.table, free_fill]
  · have := p.room
    omega
  · intro n hn
    obtain ⟨h1, q, o, -, h2⟩ := p.files.2.2 n hn
    refine ⟨fill_below p.room h1 (by rw [← p.table, h2]; simp), ?_⟩
    rw [close_other, h2]
    · simp
    · intro h
      have h' : own = n := by omega
      exact hown.2.2 (h' ▸ hn)

end

end Verif.Cycle
