import Verif.Authority.PathsExact

/-!
# Exactly what a sandbox is told about a name lookup: specification and theorems (property C132)

For `getaddrinfo`, in runs with any number of sandboxes: the answer, the lookup that the host makes and what it leaves in the
memory of the sandbox, in terms of the message, the memory, the functions of the host, the allocator of the sandbox and the
network configuration that the host has made for this sandbox.
-/

namespace Verif.Authority

open Verif.Bounds (Region)
open Verif.Callback (Packet Event Result)
open Verif.Net (Config Op Callee configure)
open Verif.NetEnd (Chosen)
open Verif.AddrInfo (Query Info Store applyStores handleGetaddrinfo AllocOk ListsFit)
open Verif.AddrInfo.Spec (numAt Chain)
open Verif.PathSyscall.Spec (textOf)
open Verif.Strings (MallocOk asNat)
open Verif.Rpc (Cfg Range Mapping Sys exCfg exMap exSys buddyRange)
open Verif.Rpc.Spec (MapOk)
open Spec

namespace Spec

/-- The string at `a` as the host has copied it, or nothing if there is none in the heap (`src/libsandbox.cc:521-522`). -/
def Text (hdr : Word) (r : Region) (m : Mem × Mem) (a : Word) : Option (List Byte) → Prop
  | none => NoString hdr r (asNat m.1) a
  | some s => Copied hdr r (asNat m.1) (asNat m.2) a s

/-- Four numbers of 32 bits that follow each other in memory, or nothing for a null pointer (`src/libsandbox.cc:494-520`). -/
def Four (m : Nat → Byte) (a : Word) : Option (BitVec 32 × BitVec 32 × BitVec 32 × BitVec 32) → Prop
  | none => a = 0
  | some (w, x, y, z) => a ≠ 0 ∧ w.toNat = numAt m a.toNat 4 ∧ x.toNat = numAt m (a.toNat + 4) 4 ∧
      y.toNat = numAt m (a.toNat + 8) 4 ∧ z.toNat = numAt m (a.toNat + 12) 4

/-- The host asks about the node, the service and the hints to which the frame `bs` points (`src/libsandbox.cc:484-525`). -/
structure Asked (hdr : Word) (r : Region) (o : Outside) (bs : List Byte) (q : Query) : Prop where
  node : Text hdr r o.node (arg64 bs 24) q.host
  service : Text hdr r o.service (arg64 bs 16) q.service
  hints : Four (asNat o.hints) (arg64 bs 8) q.hints

/-- The size of the block for the list: 48 bytes for each structure, and the addresses (`src/libsandbox.cc:527-540`). -/
def room (es : List Info) : Nat := 48 * es.length + (es.map (fun e => e.addr.length)).sum

/-- If the place for the result is not in the block at `p`, then after the stores it holds a pointer to the list, and the list
is in the block (`src/libsandbox.cc:540-563`). -/
def Left (slot p : Word) (es : List Info) (stores : List Store) : Prop :=
  ∀ m : Mem, slot.toNat + 8 ≤ p.toNat ∨ p.toNat + room es ≤ slot.toNat ∧ slot.toNat + 8 < 2 ^ 64 →
    numAt (asNat (applyStores m stores)) slot.toNat 8 = p.toNat ∧
    Chain (asNat (applyStores m stores)) p.toNat (p.toNat + room es) p.toNat (es.map fun e =>
      ⟨e.flags.toNat, e.family.toNat, e.socktype.toNat, e.protocol.toNat, e.addr, e.canon.toNat⟩)

/-- What is said about a lookup whose frame is `bs`, the lookups that the host makes for it, and what the host stores
(`src/libsandbox.cc:484-571`; -10 is `EAI_MEMORY`, -1 is `EAI_BADFLAGS`). -/
inductive LookupTold (conf : List Config) (hdr : Word) (r : Region) (o : Outside) (bs : List Byte) :
    Int → List (Callee × Query) → List Store → Prop where
  | badSlot : ¬ Inside hdr r (arg64 bs 0) 8 → LookupTold conf hdr r o bs (-10) [] []
  | badHints : Inside hdr r (arg64 bs 0) 8 → arg64 bs 8 ≠ 0 → ¬ Inside hdr r (arg64 bs 8) 48 →
      LookupTold conf hdr r o bs (-1) [] []
  | denied : Lookable hdr r bs → Chosen conf .getAddrInfo none → LookupTold conf hdr r o bs (-38) [] []
  | failed (f q) : Lookable hdr r bs → Chosen conf .getAddrInfo (some f) → Asked hdr r o bs q → (o.lookup f q).1.1 ≠ 0 →
      LookupTold conf hdr r o bs (number (o.lookup f q).1) [(f, q)] []
  | nothing (f q) : Lookable hdr r bs → Chosen conf .getAddrInfo (some f) → Asked hdr r o bs q → (o.lookup f q).1.1 = 0 →
      (o.lookup f q).2 = [] → LookupTold conf hdr r o bs 0 [(f, q)] []
  | noMemory (f q) : Lookable hdr r bs → Chosen conf .getAddrInfo (some f) → Asked hdr r o bs q → (o.lookup f q).1.1 = 0 →
      (o.lookup f q).2 ≠ [] → o.alloc (.ofNat 64 (room (o.lookup f q).2)) = none →
      LookupTold conf hdr r o bs (-(o.lookup f q).1.2) [(f, q)] []
  | found (f q p stores) : Lookable hdr r bs → Chosen conf .getAddrInfo (some f) → Asked hdr r o bs q →
      (o.lookup f q).1.1 = 0 → (o.lookup f q).2 ≠ [] → o.alloc (.ofNat 64 (room (o.lookup f q).2)) = some p →
      Left (arg64 bs 0) p (o.lookup f q).2 stores → LookupTold conf hdr r o bs 0 [(f, q)] stores

end Spec

variable {hdr : Word} {r : Region} {l : Lib} {o : Outside}

theorem text_spec (hwf : r.WF hdr) (hm : MallocOk o.malloc) (m : Mem × Mem) (a : Word) {b : Option Strings.Buf}
    (h : (Strings.strdupOut hdr r o.malloc m.1 m.2 a).result = .ok b) : Text hdr r m a (b.map Strings.cText) := by
  rcases getPath_spec (l := {}) (o := { o with path := m }) hwf hm a h with ⟨rfl, hn⟩ | ⟨s, rfl, hc⟩
  · exact hn
  · show Copied _ _ _ _ _ (Strings.cText s)
    rw [PathSyscall.cText_eq_textOf]
    exact hc

theorem four_spec (a : Word) : Four (asNat o.hints) a (AddrInfo.copyHints (lookupEnv hdr r l o) a) := by
  unfold AddrInfo.copyHints
  by_cases h : a = 0
  · rw [if_pos h]; exact h
  · rw [if_neg h]
    refine ⟨h, ?_, AddrInfo.read32_num _ a 4, AddrInfo.read32_num _ a 8, AddrInfo.read32_num _ a 12⟩
    have := AddrInfo.read32_num o.hints a 0
    rw [BitVec.add_zero] at this
    exact this

theorem lookup_spec (hwf : r.WF hdr) (hm : MallocOk o.malloc) (halloc : AllocOk r o.alloc) (hfit : ListsFit o.lookup)
    {conf : List Config} (hl : l.policies = configure conf) (bs : List Byte) {res : Result}
    (h : (handleGetaddrinfo (lookupEnv hdr r l o) (arg64 bs 24) (arg64 bs 16) (arg64 bs 8) (arg64 bs 0)).result = .ok res) :
    res.handle = -1 ∧ LookupTold conf hdr r o bs res.integer
      (handleGetaddrinfo (lookupEnv hdr r l o) (arg64 bs 24) (arg64 bs 16) (arg64 bs 8) (arg64 bs 0)).calls
      (handleGetaddrinfo (lookupEnv hdr r l o) (arg64 bs 24) (arg64 bs 16) (arg64 bs 8) (arg64 bs 0)).stores := by
  have hlist := fun m => AddrInfo.gai_list_partial (lookupEnv hdr r l o) hfit halloc (arg64 bs 24) (arg64 bs 16) (arg64 bs 8)
    (arg64 bs 0) m
  generalize hout : handleGetaddrinfo (lookupEnv hdr r l o) (arg64 bs 24) (arg64 bs 16) (arg64 bs 8) (arg64 bs 0) = out
    at h hlist ⊢
  unfold handleGetaddrinfo at hout
  have hi8 := inside_iff hwf (arg64 bs 0) 8 (by omega) (by omega)
  have hi48 := inside_iff hwf (arg64 bs 8) 48 (by omega) (by omega)
  simp only [show (lookupEnv hdr r l o).hdr = hdr from rfl, show (lookupEnv hdr r l o).region = r from rfl] at hout
  by_cases h1 : Inside hdr r (arg64 bs 0) 8
  · rw [if_neg (by rw [show (8 : Word) = .ofNat 64 8 from rfl, hi8.2 h1]; decide)] at hout
    by_cases h2 : arg64 bs 8 ≠ 0 ∧ ¬ Inside hdr r (arg64 bs 8) 48
    · rw [if_pos ⟨h2.1, by
        rw [show AddrInfo.infoSize = 48 from rfl, Bool.eq_false_iff, ne_eq, hi48]; exact h2.2⟩] at hout
      subst hout
      cases h
      exact ⟨rfl, .badHints h1 h2.1 h2.2⟩
    · have h3 : arg64 bs 8 ≠ 0 → Inside hdr r (arg64 bs 8) 48 := fun h => Classical.byContradiction fun h' => h2 ⟨h, h'⟩
      have hp : Lookable hdr r bs := by
        first
        | exact ⟨h1, h3⟩
        | exact ⟨h1, Classical.or_iff_not_imp_left.2 h3⟩
      rw [if_neg (by
        rintro ⟨h4, h5⟩
        rw [show AddrInfo.infoSize = 48 from rfl, hi48.2 (h3 h4)] at h5
        cases h5)] at hout
      split at hout
      case h_2 => subst hout; cases h
      case h_1 b1 b2 e1 e2 =>
      have hq : Asked hdr r o bs ⟨b1.map Strings.cText, b2.map Strings.cText, AddrInfo.copyHints (lookupEnv hdr r l o) (arg64 bs 8)⟩ :=
        ⟨text_spec hwf hm o.node _ e1, text_spec hwf hm o.service _ e2, four_spec _⟩
      generalize (⟨b1.map Strings.cText, b2.map Strings.cText, AddrInfo.copyHints (lookupEnv hdr r l o) (arg64 bs 8)⟩ : Query) = q
        at hq hout
      unfold AddrInfo.ask at hout
      rw [show (lookupEnv hdr r l o).policies = l.policies from rfl, hl,
        show (lookupEnv hdr r l o).call = o.lookup from rfl] at hout
      rcases invoke_chosen conf .getAddrInfo (fun c q => (o.lookup c q).1) q with ⟨hc, hi⟩ | ⟨f, hc, hi⟩ | hi
      · rw [hi] at hout
        subst hout
        cases h
        exact ⟨rfl, .denied hp hc⟩
      · rw [hi] at hout
        simp only [AddrInfo.finish] at hout
        by_cases h0 : (o.lookup f q).1.1 = 0
        · rw [if_pos h0] at hout
          by_cases hne : (o.lookup f q).2 = []
          · rw [if_neg (by simp [hne])] at hout
            subst hout
            cases h
            exact ⟨rfl, .nothing f q hp hc hq h0 hne⟩
          · rw [if_pos hne, AddrInfo.allocInSandbox_one,
              show AddrInfo.blockSize (o.lookup f q).2 = room (o.lookup f q).2 from rfl,
              show (lookupEnv hdr r l o).alloc = o.alloc from rfl] at hout
            cases ha : o.alloc (.ofNat 64 (room (o.lookup f q).2)) with
            | none =>
              rw [ha] at hout
              subst hout
              cases h
              exact ⟨rfl, .noMemory f q hp hc hq h0 hne ha⟩
            | some p =>
              rw [ha] at hout
              subst hout
              cases h
              refine ⟨rfl, .found f q p _ hp hc hq h0 hne ha ?_⟩
              intro m hm'
              obtain ⟨f', q', p', n, g1, -, g3, g4, g5⟩ := hlist m (by simp [AddrInfo.fillBlock])
              simp only [List.cons.injEq, Prod.mk.injEq, and_true] at g1
              obtain ⟨rfl, rfl⟩ := g1
              have hn : n = .ofNat 64 (room (o.lookup f q).2) := by
                apply BitVec.eq_of_toNat_eq
                rw [g4]
                have : room (o.lookup f q).2 < 2 ^ 64 := (hfit f q).1
                show room (o.lookup f q).2 = _
                rw [BitVec.toNat_ofNat, Nat.mod_eq_of_lt this]
              have hpp : p' = p := by
                rw [hn] at g3
                have g3 : o.alloc (.ofNat 64 (room (o.lookup f q).2)) = some p' := g3
                rw [ha] at g3
                cases g3
                rfl
              subst hpp
              have g4 : n.toNat = room (o.lookup f q).2 := g4
              rw [g4] at g5
              exact g5 hm'
        · rw [if_neg h0] at hout
          subst hout
          cases h
          exact ⟨rfl, .failed f q hp hc hq h0⟩
      · rw [hi] at hout
        subst hout
        cases h
  · rw [if_pos (by rw [show (8 : Word) = .ofNat 64 8 from rfl, Bool.eq_false_iff, ne_eq, hi8]; exact h1)] at hout
    subst hout
    cases h
    exact ⟨rfl, .badSlot h1⟩

/-- **C132.** Exactly what a sandbox is told about a name lookup: `ENOSYS` if the frame is not accepted or the host has not
allowed lookups to this sandbox, codes of their own for a bad place for the result and for bad hints; otherwise the function
that the host chose last is asked, once, and its answer passed on, in a block that the sandbox's allocator gave.  There is never
a descriptor in the answer, and no system call on paths and no network call is made. -/
theorem lookup_told {σ} (c : Cfg) (R : Range σ) (maps : Nat → Mapping) (hmaps : ∀ i, MapOk c (maps i)) (sys : Sys σ)
    (as : List Action) (hfew : ∀ i, (handlersFor i as).length + 7 ≤ 2 ^ 31 - 1) (k i : Nat) (o : Outside) (p : Packet)
    (hk : as[k]? = some (.message i o p)) (hm : MallocOk o.malloc) (halloc : AllocOk ((maps i).region c) o.alloc)
    (hfit : ListsFit o.lookup) (h6 : p.req.kind.toNat = 6)
    (es : List Event) (e : Effects) (hs : (runAll c R maps (start sys) as).1[k]? = some (.handled (.ok es) e))
    (x h : Int) (hx : Event.replied x h ∈ es) : h = -1 ∧
    ((¬ Accepted c.hdr ((maps i).region c) p 32 ∧ x = -38 ∧ e = {}) ∨
     (Accepted c.hdr ((maps i).region c) p 32 ∧ ∃ lookups stores, e = { lookups := lookups, stores := stores } ∧
      LookupTold (configsFor i (as.take k)) c.hdr ((maps i).region c) o (frameOf o p 32) x lookups stores)) := by
  have hwf : ((maps i).region c).WF c.hdr := Bounds.ofMapping_wf _ _ _ (hmaps i).room (hmaps i).no_wrap
  obtain ⟨l, hl, hr⟩ := builtin_reply c R maps hmaps sys as hfew k i o p hk 6 (by omega) h6 es e hs x h hx
  rw [show frameSize 6 = 32 from rfl] at hr
  rcases hr with ⟨h1, h2, h4, h5⟩ | ⟨hacc, hr⟩
  · exact ⟨h4, .inl ⟨h1, h2, h5⟩⟩
  · simp only [builtin, word_eq] at hr
    simp only [Nat.mul_one, Nat.mul_zero, Nat.reduceMul, Prod.mk.injEq] at hr
    obtain ⟨hr, rfl⟩ := hr
    obtain ⟨g1, g2⟩ := lookup_spec hwf hm halloc hfit hl.policies (frameOf o p 32) hr
    exact ⟨g1, .inr ⟨hacc, _, _, rfl, g2⟩⟩

/-! ### The answer is settled -/

theorem text_unique {m : Mem × Mem} {a : Word} {s t : Option (List Byte)} (hs : Text hdr r m a s) (ht : Text hdr r m a t) :
    s = t := by
  cases s with
  | none =>
    cases t with
    | none => rfl
    | some t => exact (copied_string ht hs).elim
  | some s =>
    cases t with
    | none => exact (copied_string hs ht).elim
    | some t => exact congrArg some (copied_unique hs ht)

theorem four_unique {m : Nat → Byte} {a : Word} {s t : Option (BitVec 32 × BitVec 32 × BitVec 32 × BitVec 32)}
    (hs : Four m a s) (ht : Four m a t) : s = t := by
  cases s with
  | none =>
    cases t with
    | none => rfl
    | some t => exact absurd hs ht.1
  | some s =>
    cases t with
    | none => exact absurd ht hs.1
    | some t =>
      obtain ⟨w, x, y, z⟩ := s
      obtain ⟨w', x', y', z'⟩ := t
      obtain ⟨-, h1, h2, h3, h4⟩ := hs
      obtain ⟨-, g1, g2, g3, g4⟩ := ht
      rw [BitVec.eq_of_toNat_eq (h1.trans g1.symm), BitVec.eq_of_toNat_eq (h2.trans g2.symm),
        BitVec.eq_of_toNat_eq (h3.trans g3.symm), BitVec.eq_of_toNat_eq (h4.trans g4.symm)]

theorem asked_unique {bs : List Byte} {q q' : Query} (hq : Asked hdr r o bs q) (hq' : Asked hdr r o bs q') : q = q' := by
  obtain ⟨a, b, c⟩ := q
  obtain ⟨a', b', c'⟩ := q'
  have h1 : a = a' := text_unique hq.node hq'.node
  have h2 : b = b' := text_unique hq.service hq'.service
  have h3 : c = c' := four_unique hq.hints hq'.hints
  rw [h1, h2, h3]

/-- What is said about a lookup, and what the host asks for it, is settled by the message, the memory, the functions of the host,
the allocator of the sandbox and the configuration. -/
theorem lookupTold_unique {conf : List Config} {bs : List Byte} {x y : Int} {cs ds : List (Callee × Query)}
    {ss ts : List Store} (hx : LookupTold conf hdr r o bs x cs ss) (hy : LookupTold conf hdr r o bs y ds ts) :
    x = y ∧ cs = ds := by
  have key : ∀ {f g q q'}, Chosen conf .getAddrInfo (some f) → Chosen conf .getAddrInfo (some g) → Asked hdr r o bs q →
      Asked hdr r o bs q' → f = g ∧ q = q' := fun h1 h2 h3 h4 =>
    ⟨Option.some.inj (Run.chosen_unique h1 h2), asked_unique h3 h4⟩
  have nokey : ∀ {f}, Chosen conf .getAddrInfo none → Chosen conf .getAddrInfo (some f) → False :=
    fun h1 h2 => nomatch Run.chosen_unique h1 h2
  have bad : ∀ {p : Prop}, Lookable hdr r bs → ¬ Inside hdr r (arg64 bs 0) 8 → p := fun h1 h2 => absurd h1.1 h2
  have bad' : ∀ {p : Prop}, Lookable hdr r bs → arg64 bs 8 ≠ 0 → ¬ Inside hdr r (arg64 bs 8) 48 → p := fun h1 h2 h3 => by
    first
    | exact absurd (h1.2 h2) h3
    | exact absurd (h1.2.resolve_left h2) h3
  cases hx with
  | badSlot h => cases hy <;> first | exact ⟨rfl, rfl⟩ | (exact bad ‹_› h) | contradiction
  | badHints h1 h2 h3 => cases hy <;> first | exact ⟨rfl, rfl⟩ | (exact bad' ‹_› h2 h3) | contradiction
  | denied h1 h2 =>
    cases hy <;> first
    | exact ⟨rfl, rfl⟩
    | (exact bad h1 ‹_›)
    | (exact bad' h1 ‹_› ‹_›)
    | (exact (nokey h2 ‹_›).elim)
  | failed f q h1 h2 h3 h4 =>
    cases hy <;> first
    | (exact bad h1 ‹_›)
    | (exact bad' h1 ‹_› ‹_›)
    | (exact (nokey ‹_› h2).elim)
    | (obtain ⟨rfl, rfl⟩ := key h2 ‹_› h3 ‹_›; first | exact ⟨rfl, rfl⟩ | contradiction)
  | nothing f q h1 h2 h3 h4 h5 =>
    cases hy <;> first
    | (exact bad h1 ‹_›)
    | (exact bad' h1 ‹_› ‹_›)
    | (exact (nokey ‹_› h2).elim)
    | (obtain ⟨rfl, rfl⟩ := key h2 ‹_› h3 ‹_›; first | exact ⟨rfl, rfl⟩ | contradiction)
  | noMemory f q h1 h2 h3 h4 h5 h6 =>
    cases hy <;> first
    | (exact bad h1 ‹_›)
    | (exact bad' h1 ‹_› ‹_›)
    | (exact (nokey ‹_› h2).elim)
    | (obtain ⟨rfl, rfl⟩ := key h2 ‹_› h3 ‹_›; first | exact ⟨rfl, rfl⟩ | contradiction | simp_all)
  | found f q p s h1 h2 h3 h4 h5 h6 h7 =>
    cases hy <;> first
    | (exact bad h1 ‹_›)
    | (exact bad' h1 ‹_› ‹_›)
    | (exact (nokey ‹_› h2).elim)
    | (obtain ⟨rfl, rfl⟩ := key h2 ‹_› h3 ‹_›; first | exact ⟨rfl, rfl⟩ | contradiction | simp_all)

/-! ### Examples -/

/-- A frame whose first word is the place for the result, at offset 0x3000, and whose last points to the name `/a/b`. -/
private def exFrame (b : Word) : Mem := fun a =>
  let d := (a - b).toNat
  if 0x1000 ≤ d ∧ d < 0x1008 then ((EndToEnd.le 8 (b + 0x3000).toNat)[d - 0x1000]?).getD 0
  else if 0x1018 ≤ d ∧ d < 0x1020 then ((EndToEnd.le 8 (b + 0x2000).toNat)[d - 0x1018]?).getD 0
  else exMem b a

/-- The host finds two addresses, and the allocator gives a block. -/
private def exFinds (b : Word) : Outside :=
  { exOut b with
    frame := exFrame b
    alloc := fun n => if n.toNat ≤ 0x1000 then some (b + 0x8000) else none
    lookup := fun _ _ => ((0, 0), AddrInfo.exInfos) }

private def exAsks (i : Nat) : Action := .message i (exFinds (exMap i).base) ⟨24, ⟨6, 32, (exMap i).base + 0x1000⟩, -1⟩

/-- Lookups are allowed to sandbox 0 only; both ask. -/
private def exLookups : List Action := [.config 0 (.allow .getAddrInfo), exAsks 0, exAsks 1]

private def brief : Seen → Option (Int × Int × Nat × Bool)
  | .handled (.ok [_, .replied x h]) e => some (x, h, e.lookups.length, e.stores.isEmpty)
  | _ => none

private theorem brief_some {s : Option Seen} {x h : Int} {n : Nat} {b : Bool} (hs : s.bind brief = some (x, h, n, b)) :
    ∃ es e, s = some (.handled (.ok es) e) ∧ Event.replied x h ∈ es ∧ e.lookups.length = n ∧ e.stores.isEmpty = b := by
  cases s with
  | none => cases hs
  | some s =>
    have hs : brief s = some (x, h, n, b) := hs
    unfold brief at hs
    split at hs
    · cases hs
      exact ⟨_, _, rfl, by simp, rfl, rfl⟩
    · cases hs

private theorem exFinds_ok (i : Nat) : MallocOk (exFinds (exMap i).base).malloc ∧
    AllocOk ((exMap i).region exCfg) (exFinds (exMap i).base).alloc ∧ ListsFit (exFinds (exMap i).base).lookup := by
  refine ⟨fun n b hb => by cases hb; exact List.length_replicate, ?_, ?_⟩
  · intro n p h
    simp only [exFinds] at h
    split at h
    · rename_i hn
      have h : (exMap i).base + 0x8000 = p := Option.some.inj h
      rw [← h]
      have h2 : i % 2 = 0 ∨ i % 2 = 1 := by omega
      have hb : ((exMap i).region exCfg).base.toNat ≤ ((exMap i).base + 0x8000).toNat ∧
          ((exMap i).base + 0x8000).toNat + 0x1000 ≤ ((exMap i).region exCfg).top.toNat ∧ (exMap i).base + 0x8000 ≠ 0 := by
        unfold exMap
        rcases h2 with h | h <;> rw [h] <;> decide +kernel
      exact ⟨hb.1, by omega, hb.2.2⟩
    · cases h
  · intro c q
    have h : AddrInfo.needed AddrInfo.exInfos < 2 ^ 64 ∧ ∀ e ∈ AddrInfo.exInfos, e.addr.length < 2 ^ 32 := by decide
    exact h

private theorem exLookups_few (i : Nat) : (handlersFor i exLookups).length + 7 ≤ 2 ^ 31 - 1 := by
  have : handlersFor i exLookups = [] := by simp [handlersFor, exLookups, exAsks]
  rw [this]
  decide

/-- Sandbox 0 is told 0: one lookup has been made for it, and something has been stored. -/
example : ∃ f q stores, LookupTold [.allow .getAddrInfo] exCfg.hdr ((exMap 0).region exCfg) (exFinds (exMap 0).base)
    (frameOf (exFinds (exMap 0).base) ⟨24, ⟨6, 32, (exMap 0).base + 0x1000⟩, -1⟩ 32) 0 [(f, q)] stores ∧ stores ≠ [] := by
  have hh : ((runAll exCfg (buddyRange exCfg) exMap (start exSys) exLookups).1[1]?).bind brief = some (0, -1, 1, false) := by
    decide +kernel
  obtain ⟨es, e, hs, hx, h1, h2⟩ := brief_some hh
  obtain ⟨g1, g2, g3⟩ := exFinds_ok 0
  obtain ⟨-, ⟨-, h, -⟩ | ⟨-, cs, ss, rfl, h⟩⟩ := lookup_told exCfg (buddyRange exCfg) exMap Rpc.exMap_ok exSys exLookups
    exLookups_few 1 0 _ _ rfl g1 g2 g3 rfl es e hs _ _ hx
  · cases h
  · obtain ⟨⟨f, q⟩, rfl⟩ := List.length_eq_one_iff.1 h1
    exact ⟨f, q, ss, h, fun e => by subst e; cases h2⟩

/-- Sandbox 1 is told that there is no such call; nothing has been looked up for it. -/
example : ∃ ss, LookupTold [] exCfg.hdr ((exMap 1).region exCfg) (exFinds (exMap 1).base)
    (frameOf (exFinds (exMap 1).base) ⟨24, ⟨6, 32, (exMap 1).base + 0x1000⟩, -1⟩ 32) (-38) [] ss := by
  have hh : ((runAll exCfg (buddyRange exCfg) exMap (start exSys) exLookups).1[2]?).bind brief = some (-38, -1, 0, true) := by
    decide +kernel
  obtain ⟨es, e, hs, hx, h1, h2⟩ := brief_some hh
  obtain ⟨g1, g2, g3⟩ := exFinds_ok 1
  obtain ⟨-, ⟨h, -⟩ | ⟨-, cs, ss, rfl, h⟩⟩ := lookup_told exCfg (buddyRange exCfg) exMap Rpc.exMap_ok exSys exLookups
    exLookups_few 2 1 _ _ rfl g1 g2 g3 rfl es e hs _ _ hx
  · exact absurd (show _ ∧ _ ∧ _ by decide +kernel) h
  · cases List.length_eq_zero_iff.1 h1
    exact ⟨ss, h⟩

end Verif.Authority
