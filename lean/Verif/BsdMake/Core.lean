import Verif.BsdMake.Steps

/-!
# Making a sandbox on FreeBSD: which numbers are taken
-/

namespace Verif.BsdMake

open Verif.Fd Verif.Start Verif.FileTree Verif.FileTree.Spec
open Verif.Make (fill free_fill free_fill_one fill_fill fill_nil fill_keeps fill_zero create_ok create_full create_fill none_of_fill construct_fill opened
  Handed PmAt close_other)
open Verif.Cycle (construct_slots free_mono free_closes closes_in closes_other close_nat fill_below openId_iff free_close)

/-- The numbers `ns` have been opened, and nothing else has changed (`src/libsandbox.cc:865-932`). -/
structure Opens (lim : Nat) (t t' : Table) (ns : List Nat) : Prop where
  nodup : ns.Nodup
  new : ∀ n ∈ ns, n < lim ∧ t n = none ∧ t' n ≠ none
  rest : ∀ i, i ∉ ns → t' i = t i

/-- As many numbers as objects: these are all. -/
theorem opens_fill {lim : Nat} {t : Table} {os : List Obj} {ns : List Nat} (hr : os.length ≤ free t lim) (hd : ns.Nodup)
    (hn : ∀ n ∈ ns, t n = none ∧ fill t os n ≠ none) (hl : ns.length = os.length) : Opens lim t (fill t os) ns := by
  refine ⟨hd, fun n h => ⟨fill_below hr (hn n h).1 (hn n h).2, hn n h⟩, fun i hi => ?_⟩
  rcases ht : t i with _ | o
  · refine Classical.byContradiction fun hc => ?_
    have hc' : fill t os i ≠ none := hc
    have hall : ∀ n ∈ i :: ns, n < lim ∧ fill t os n ≠ none := by
      intro n hn'
      rcases List.mem_cons.1 hn' with rfl | hn'
      · exact ⟨fill_below hr ht hc', hc'⟩
      · exact ⟨fill_below hr (hn n hn').1 (hn n hn').2, (hn n hn').2⟩
    have h1 := free_closes (lim := lim) (i :: ns) (fill t os) (List.nodup_cons.2 ⟨hi, hd⟩) hall
    have h2 : free (((i :: ns).map Int.ofNat).foldl close (fill t os)) lim ≤ free t lim := by
      refine free_mono (fun k o hk => ?_) _
      rw [closes_other, fill_keeps hk]
      intro hm
      rcases List.mem_cons.1 hm with rfl | hm
      · rw [ht] at hk
        cases hk
      · rw [(hn k hm).1] at hk
        cases hk
    rw [h1, free_fill] at h2
    simp only [List.length_cons] at h2
    omega
  · exact fill_keeps ht

/-- What the host holds for a sandbox that has been made (`src/libsandbox.cc:865-932`). -/
structure Parts (lim : Nat) (disk : List Byte → Option Obj) (h : Host) (m : Made) (t tr : Table) (pmNew poNew : Option Nat)
    (shm svc own rpc cb proc kq : Nat) (ns : List Nat) : Prop where
  opens : Opens lim h.t t (pmNew.toList ++ (poNew.toList ++ (shm :: svc :: own :: rpc :: cb :: proc :: kq :: ns)))
  ids : ∀ i o, t i = some o → o.id < h.next + 9
  news : ∀ i o, t i = some o → h.t i = some o ∨ h.next ≤ o.id ∨ ∃ p, disk p = some o
  atRpc : t rpc = some ⟨h.next + 3, true⟩ ∧ ∀ i o, t i = some o → o.id = h.next + 3 → i = rpc
  born : tr rpc = some ⟨h.next + 3, true⟩ ∧ ∀ i o, tr i = some o → t i = some o
  seen : m.seen = inherited h.allQueues tr
  host : m.t = close (close t (cb : Int)) (rpc : Int)
  handles : m.shm = shm ∧ m.svc = svc ∧ m.own = own ∧ m.proc = proc ∧ m.kq = kq ∧ handlesOf m.tree = ns.map Int.ofNat
  pagemap : (h.pagemap = some m.pm ∧ pmNew = none) ∨ (∃ n, pmNew = some n ∧ h.pagemap = none ∧ m.pm = n)
  poller : (h.poller = some m.poller ∧ poNew = none) ∨ (∃ n, poNew = some n ∧ h.poller = none ∧ m.poller = n)

/-- Everything in the host and on the disk is older than what it makes (`src/libsandbox.cc:865`). -/
structure Old (disk : List Byte → Option Obj) (h : Host) : Prop where
  table : ∀ i o, h.t i = some o → o.id < h.next
  files : ∀ p o, disk p = some o → o.id < h.next

theorem made_late {dbg : Bool} {fuel : Nat} {e : Env} {disk : List Byte → Option Obj} {s : Sys} {h : Host} {m : Made}
    (hm : make dbg fuel e disk s h = .made m) :
    ∃ r t1 t2 proc kq, prepare dbg e.lim disk s h = .ok r ∧ create e.lim r.t ⟨h.next + 7, true⟩ = (proc, t1) ∧ 0 ≤ proc ∧
      create e.lim t1 ⟨h.next + 8, true⟩ = (kq, t2) ∧ 0 ≤ kq ∧
      m = ⟨r.tree, close (close t2 r.cb) r.rpc, inherited h.allQueues r.t,
        (startChild fuel { e with proc := false } (inherited h.allQueues r.t) ⟨r.shm, r.pm, r.rpc, r.cb⟩).1,
        r.shm, r.pm, r.svc, r.poller, r.own, proc, kq⟩ := by
  unfold make at hm
  rcases hp : prepare dbg e.lim disk s h with o | r
  · rw [hp] at hm
    cases hm
  · rw [hp] at hm
    simp only at hm
    rcases h1 : create e.lim r.t ⟨h.next + 7, true⟩ with ⟨proc, t1⟩
    rw [h1] at hm
    simp only at hm
    split at hm
    · cases hm
    rename_i hf
    rcases h2 : create e.lim t1 ⟨h.next + 8, true⟩ with ⟨kq, t2⟩
    rw [h2] at hm
    simp only at hm
    split at hm
    · cases hm
    rename_i hk
    cases hm
    simp only [not_or, Int.not_lt] at hf hk
    exact ⟨r, t1, t2, proc, kq, rfl, h1, hf.2, h2, hk.1, rfl⟩

theorem create_nonneg {lim : Nat} {t t' : Table} {o : Obj} {x : Int} (h : create lim t o = (x, t')) (hx : 0 ≤ x) :
    0 < free t lim ∧ ∃ n : Nat, x = n ∧ t' = fill t [o] ∧ t n = none ∧ fill t [o] n = some o := by
  by_cases hf : 0 < free t lim
  · obtain ⟨n, h1, h2, h3, -⟩ := create_ok (o := o) hf
    rw [h1] at h
    cases h
    exact ⟨hf, n, rfl, rfl, h2, h3⟩
  · rw [create_full (by omega)] at h
    cases h
    omega

theorem nodup_of_objects {t : Table} {ns : List Nat} (h : (ns.map (fun n => (t n).map (·.id))).Nodup) : ns.Nodup := by
  induction ns with
  | nil => simp
  | cons n ns ih =>
    simp only [List.map_cons, List.nodup_cons] at h ⊢
    exact ⟨fun hm => h.1 (List.mem_map_of_mem hm), ih h.2⟩

theorem created_new {disk : List Byte → Option Obj} {h : Make.Host} {o : Obj} (hm : o ∈ Make.created disk h) :
    h.next ≤ o.id ∨ ∃ p, disk p = some o := by
  simp only [Make.created, List.mem_append, List.mem_cons, List.not_mem_nil, or_false] at hm
  rcases hm with ((((rfl | ho) | ho) | ho) | ho) | ho
  · simp
  · split at ho
    · simp only [List.mem_cons, List.not_mem_nil, or_false] at ho
      subst ho
      simp
    · simp at ho
  · right
    simp only [opened, List.mem_filterMap] at ho
    obtain ⟨d, -, hd⟩ := ho
    exact ⟨_, hd⟩
  · rcases ho with rfl | rfl <;> simp
  · split at ho
    · simp at ho
    · simp only [List.mem_cons, List.not_mem_nil, or_false] at ho
      subst ho
      simp
  · rcases ho with rfl | rfl <;> simp

theorem made_parts {dbg : Bool} {fuel : Nat} {e : Env} {disk : List Byte → Option Obj} {s : Sys} {h : Host} {m : Made}
    (ho : Old disk h) (hm : make dbg fuel e disk s h = .made m) :
    ∃ t tr pmNew poNew shm svc own rpc cb proc kq ns, Parts e.lim disk h m t tr pmNew poNew shm svc own rpc cb proc kq ns := by
  obtain ⟨r, t1', t2', proc', kq', hp, c1, c1', c2, c2', rfl⟩ := made_late hm
  obtain ⟨t1, t2, t, shm, svc, own, rpc, cb, pm, poller, hh, hpo, hp'⟩ := (prepare_steps dbg e.lim disk s h).2 (by rw [hp]; rfl)
  rw [hp] at hp'
  cases hp'
  obtain ⟨f1, proc, rfl, rfl, p1, p2⟩ := create_nonneg c1 c1'
  obtain ⟨f2, kq, rfl, rfl, q1, q2⟩ := create_nonneg c2 c2'
  simp only at c1 c2 f1 f2 p1 p2 q1 q2 ⊢
  have htab : fill (fill t [⟨h.next + 7, true⟩]) [⟨h.next + 8, true⟩] = fill h.t (Make.created disk h.plain ++ [⟨h.next + 7, true⟩, ⟨h.next + 8, true⟩]) := by
    rw [hh.table, fill_fill, fill_fill]
    simp [Host.plain]
  have hroom : (Make.created disk h.plain ++ ([⟨h.next + 7, true⟩, ⟨h.next + 8, true⟩] : List Obj)).length ≤ free h.t e.lim := by
    rw [free_fill_one, hh.table, free_fill] at f2
    simp only [List.length_append, List.length_cons, List.length_nil]
    simp only [Host.plain] at f2 ⊢
    omega
  generalize hT : fill (fill t [⟨h.next + 7, true⟩]) [⟨h.next + 8, true⟩] = T at *
  have hup : ∀ i o, t i = some o → T i = some o := fun i o hi => by
    rw [← hT]
    exact fill_keeps (fill_keeps hi)
  obtain ⟨ns, n1, n2, n3, n4⟩ := construct_slots hh.before.1 hh.before.2
  have hnew : ∀ i o, T i = some o → h.next ≤ o.id → h.t i = none := by
    intro i o hi hle
    rcases hx : h.t i with _ | x
    · rfl
    · have := ho.table i x hx
      rw [htab, fill_keeps hx] at hi
      cases hi
      omega
  have hns : ∀ n ∈ ns, h.t n = none ∧ ∃ o, T n = some o ∧ o.id < h.next := by
    intro n hn
    obtain ⟨y1, -, p, o, y2, y3⟩ := n4 n hn
    refine ⟨?_, o, hup _ _ (hh.keep.2 n o (by rw [hh.after]; exact y3)), ho.files p o y2⟩
    rcases hx : h.t n with _ | x
    · rfl
    · have := hh.start n x hx
      rw [this] at y1
      cases y1
  have aShm := hup _ _ hh.atShm.1
  have aSvc := hup _ _ hh.atSvc
  have aRpc := hup _ _ hh.atRpc
  have aOwn := hup _ _ hh.atOwn
  have aCb := hup _ _ hh.atCb
  have aProc : T proc = some ⟨h.next + 7, true⟩ := by
    rw [← hT]
    exact fill_keeps p2
  have aKq : T kq = some ⟨h.next + 8, true⟩ := by
    exact q2
  simp only [Host.plain] at aShm aSvc aRpc aOwn aCb
  -- the page map and the queue
  obtain ⟨pmNew, hpm1, hpm2⟩ : ∃ pmNew : Option Nat, (∀ n ∈ pmNew.toList, T n = some ⟨h.next + 1, true⟩) ∧
      ((h.pagemap = some pm ∧ pmNew = none) ∨ (∃ n, pmNew = some n ∧ h.pagemap = none ∧ pm = n)) := by
    have := hh.atPm
    unfold PmAt at this
    split at this
    · rename_i p hpp
      exact ⟨none, by simp, .inl ⟨by rw [this]; exact hpp, rfl⟩⟩
    · rename_i hpp
      obtain ⟨n, hn1, hn2, -⟩ := this
      exact ⟨some n, by simpa [Host.plain] using hup _ _ hn2, .inr ⟨n, rfl, hpp, hn1⟩⟩
  obtain ⟨poNew, hpo1, hpo2⟩ : ∃ poNew : Option Nat, (∀ n ∈ poNew.toList, T n = some ⟨h.next + 4, true⟩) ∧
      ((h.poller = some poller ∧ poNew = none) ∨ (∃ n, poNew = some n ∧ h.poller = none ∧ poller = n)) := by
    unfold PollerAt at hpo
    split at hpo
    · rename_i p hpp
      exact ⟨none, by simp, .inl ⟨by rw [hpo]; exact hpp, rfl⟩⟩
    · rename_i hpp
      obtain ⟨n, hn1, hn2⟩ := hpo
      exact ⟨some n, by simpa using hup _ _ hn2, .inr ⟨n, rfl, hpp, hn1⟩⟩
  have hids : ∀ i o, T i = some o → o.id < h.next + 9 := by
    intro i o hi
    rw [htab] at hi
    unfold fill at hi
    split at hi
    · rename_i x hx
      cases hi
      have := ho.table i _ hx
      omega
    · have hmem := List.mem_of_getElem? hi
      rcases List.mem_append.1 hmem with hmem | hmem
      · have := Cycle.created_ids (h := h.plain) ho.files hmem
        simp only [Host.plain] at this
        omega
      · simp only [List.mem_cons, List.not_mem_nil, or_false] at hmem
        rcases hmem with rfl | rfl <;> simp
  -- all the new numbers
  have hnod : (pmNew.toList ++ (poNew.toList ++ (shm :: svc :: own :: rpc :: cb :: proc :: kq :: ns))).Nodup := by
    have hreg : (pmNew.toList ++ (poNew.toList ++ [shm, svc, own, rpc, cb, proc, kq])).Nodup := by
      refine nodup_of_objects (t := T) ?_
      rcases pmNew with _ | a <;> rcases poNew with _ | b <;>
        simp only [Option.toList_none, Option.toList_some, List.nil_append, List.cons_append, List.mem_cons, List.not_mem_nil, or_false, forall_eq,
          List.map_cons, List.map_nil] at hpm1 hpo1 ⊢ <;>
        simp [aShm, aSvc, aRpc, aOwn, aCb, aProc, aKq, hpm1, hpo1]
    have happ : pmNew.toList ++ (poNew.toList ++ (shm :: svc :: own :: rpc :: cb :: proc :: kq :: ns)) =
        (pmNew.toList ++ (poNew.toList ++ [shm, svc, own, rpc, cb, proc, kq])) ++ ns := by simp
    rw [happ, List.nodup_append]
    refine ⟨hreg, n2, ?_⟩
    rintro a ha b hb rfl
    obtain ⟨-, o, ho1, ho2⟩ := hns a hb
    have : ∃ o, T a = some o ∧ h.next ≤ o.id := by
      simp only [List.mem_append, List.mem_cons, List.not_mem_nil, or_false] at ha
      rcases ha with ha | ha | rfl | rfl | rfl | rfl | rfl | rfl | rfl
      · exact ⟨_, hpm1 a ha, by simp⟩
      · exact ⟨_, hpo1 a ha, by simp⟩
      · exact ⟨_, aShm, by simp⟩
      · exact ⟨_, aSvc, by simp⟩
      · exact ⟨_, aOwn, by simp⟩
      · exact ⟨_, aRpc, by simp⟩
      · exact ⟨_, aCb, by simp⟩
      · exact ⟨_, aProc, by simp⟩
      · exact ⟨_, aKq, by simp⟩
    obtain ⟨o', h1, h2⟩ := this
    rw [ho1] at h1
    cases h1
    omega
  have hop : Opens e.lim h.t T (pmNew.toList ++ (poNew.toList ++ (shm :: svc :: own :: rpc :: cb :: proc :: kq :: ns))) := by
    rw [htab]
    refine opens_fill hroom hnod ?_ ?_
    · rw [← htab]
      intro n hn
      have : ∀ o, T n = some o → h.next ≤ o.id → h.t n = none ∧ T n ≠ none := fun o h1 h2 => ⟨hnew n o h1 h2, by rw [h1]; simp⟩
      simp only [List.mem_append, List.mem_cons] at hn
      rcases hn with ha | ha | rfl | rfl | rfl | rfl | rfl | rfl | rfl | ha
      · exact this _ (hpm1 n ha) (by simp)
      · exact this _ (hpo1 n ha) (by simp)
      · exact this _ aShm (by simp)
      · exact this _ aSvc (by simp)
      · exact this _ aOwn (by simp)
      · exact this _ aRpc (by simp)
      · exact this _ aCb (by simp)
      · exact this _ aProc (by simp)
      · exact this _ aKq (by simp)
      · obtain ⟨x1, o, x2, -⟩ := hns n ha
        exact ⟨x1, by rw [x2]; simp⟩
    · have hc := Make.created_length disk h.plain
      unfold Make.need at hc
      simp only [List.length_append, List.length_cons, List.length_nil, hc, n3]
      rcases hpm2 with ⟨x1, rfl⟩ | ⟨a, rfl, x1, -⟩ <;> rcases hpo2 with ⟨y1, rfl⟩ | ⟨b, rfl, y1, -⟩ <;>
        simp [Make.Host.firstMap, Host.plain, x1, y1] <;> omega
  have hnews : ∀ i o, T i = some o → h.t i = some o ∨ h.next ≤ o.id ∨ ∃ p, disk p = some o := by
    intro i o hi
    rw [htab] at hi
    unfold fill at hi
    split at hi
    · rename_i x hx
      cases hi
      exact .inl hx
    · right
      rcases List.mem_append.1 (List.mem_of_getElem? hi) with hmem | hmem
      · exact created_new hmem
      · left
        simp only [List.mem_cons, List.not_mem_nil, or_false] at hmem
        rcases hmem with rfl | rfl <;> simp
  refine ⟨T, t, pmNew, poNew, shm, svc, own, rpc, cb, proc, kq, ns, hop, hids, hnews, ⟨aRpc, ?_⟩, ⟨by simpa [Host.plain] using hh.atRpc, hup⟩, rfl, rfl,
    ⟨rfl, rfl, rfl, rfl, rfl, n1⟩, hpm2, hpo2⟩
  intro i o hi hid
  refine Classical.byContradiction fun hne => ?_
  by_cases hmem : i ∈ pmNew.toList ++ (poNew.toList ++ (shm :: svc :: own :: rpc :: cb :: proc :: kq :: ns))
  · have : ∀ o', T i = some o' → o'.id ≠ h.next + 3 → False := fun o' h1 h2 => by
      rw [hi] at h1
      cases h1
      exact h2 hid
    simp only [List.mem_append, List.mem_cons] at hmem
    rcases hmem with ha | ha | rfl | rfl | rfl | rfl | rfl | rfl | rfl | ha
    · exact this _ (hpm1 i ha) (by simp)
    · exact this _ (hpo1 i ha) (by simp)
    · exact this _ aShm (by simp)
    · exact this _ aSvc (by simp)
    · exact this _ aOwn (by simp)
    · exact hne rfl
    · exact this _ aCb (by simp)
    · exact this _ aProc (by simp)
    · exact this _ aKq (by simp)
    · obtain ⟨-, o', x2, x3⟩ := hns i ha
      exact this _ x2 (by omega)
  · have := hop.rest i hmem
    rw [hi] at this
    have := ho.table i o this.symm
    omega

end Verif.BsdMake
