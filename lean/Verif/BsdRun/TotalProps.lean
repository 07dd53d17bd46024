import Verif.BsdRun.Props
import Verif.Run.TotalProps

/-!
# Whole runs on FreeBSD: the machine in which calls act at once is defined, and in one way only

As `Verif.Run.TotalProps`.
-/

namespace Verif.BsdRun

open Verif.Strings (asNat)
open Verif.Strings.Spec (CStringAt)
open Verif.FileTree (Export specHistory)
open Verif.FileTree.Spec (Answers cut)
open Verif.BsdPath (Log Kernel)
open Verif.Net (Config Callee Op)
open Verif.Net.Spec (IsLast)
open Verif.ChildArgs (InHeap Private Agree Apart)
open Verif.Syscall (CInt Answer)
open Verif.FreeBsd (Regs Info Call)
open Verif.EndToEnd (Want)
open Verif.BsdEnd (Meant asksPath objects just)
open Verif.BsdNet (Makes asksNet)
open Verif.BsdRel (asksRel)
open Verif.NetEnd (Chosen)
open Verif.UserEnd (Registered Unused Arrives)
open Verif.Run (chosen_total chosen_unique chosen_not_empty registered_unique registered_not_unused arrives_unique off_toNat
  exOwn)

/-! ### Specification -/

/-- A call is made properly, as in `Verif.Run`.
* A call on a path: the path is a string in the program's memory, and so is the buffer of `freebsd11_stat`, with 224 bytes.
* `openat`: the path is a string; if it is relative, then the directory exists or its number is negative.
* `bind` and `connect`: the address is an object of the program's in the shared heap, the socket exists, and the host has
  not registered an empty function; or the call is one of those that are refused.
* A callback: the arguments are an object of the program's, and not empty; the descriptor, if its number is not negative,
  exists; the number is not that of one of the seven handlers of the runtime itself.
* A lookup: the names, the hints and the place for the result are objects of the program's; that place overlaps neither
  `localRes` nor a block that the host is given; and the host has not registered an empty function.
* Any other system call. -/
inductive Proper (W : Worlds) (H : Host) (S : Word → Prop) (n : Nat) (past : List Event) (m : Mem) : Act → Prop where
  | path (i r cl want path sb text) : i.code = 5 → Makes i r cl → asksPath cl = some (want, path, sb) →
      CStringAt (asNat m) path.toNat text → (∀ o ∈ objects want path sb text, Own (W past) S n o) →
      Proper W H S n past m (.sys i r)
  | openat (i r cl dir path flags mode text) : i.code = 5 → Makes i r cl → asksRel cl = some (dir, path, flags, mode) →
      CStringAt (asNat m) path.toNat text → text.head? = some 47 → Own (W past) S n (path, text.length + 1) →
      Proper W H S n past m (.sys i r)
  | rel (i r cl dir path flags mode text) : i.code = 5 → Makes i r cl → asksRel cl = some (dir, path, flags, mode) →
      CStringAt (asNat m) path.toNat text → text.head? ≠ some 47 → Own (W past) S n (path, text.length + 1) →
      (0 ≤ dir.toInt → ∃ h, (W past).passed dir = some h ∧ 0 ≤ h) → Proper W H S n past m (.sys i r)
  | sock (i r cl op sk addr len h) : i.code = 5 → Makes i r cl → asksNet cl = some (op, sk, addr, len) →
      len.toNat ≤ 4096 → Own (W past) S n (addr, len.toNat) → InHeap (W past).hdr (W past).region addr len.toNat →
      0 ≤ sk.toInt → (W past).passed sk = some h → 0 ≤ h →
      ¬ IsLast (H.conf past) op (.register op none) → Proper W H S n past m (.sys i r)
  | badSock (i r cl op sk addr len) : i.code = 5 → Makes i r cl → asksNet cl = some (op, sk, addr, len) →
      Own (W past) S n (addr, len.toNat) → (sk.toInt < 0 ∨ ((W past).passed sk).isSome) →
      (sk.toInt < 0 ∨ 4096 < len.toNat ∨ Private (W past).bounds addr len.toNat ∧ 0 < len.toNat) →
      Proper W H S n past m (.sys i r)
  | back (idx data size fd r) : 7 ≤ idx.toNat → 0 < size → Own (W past) S n (data, size) →
      (0 ≤ fd.toInt → ((W past).passed fd).isSome) → Proper W H S n past m (.back idx data size fd r)
  | look (host serv hints res r hs ss) : CStringAt (asNat m) host.toNat hs → CStringAt (asNat m) serv.toNat ss →
      (∀ o ∈ [(host, hs.length + 1), (serv, ss.length + 1), (hints, 48), (res, 8)], Own (W past) S n o) →
      Apart (W past).localRes 8 res 8 → (∀ k p, (W past).alloc k = some p → Apart p k.toNat res 8) →
      ¬ IsLast (H.conf past) .getAddrInfo (.register .getAddrInfo none) →
      Proper W H S n past m (.look host serv hints res r)
  | other (i r cl) : Makes i r cl → ¬ Six cl.nr → Proper W H S n past m (.sys i r)

/-- The program makes its next `k` calls properly, whatever they are in the ideal machine. -/
def Behaves (W : Worlds) (H : Host) (S : Word → Prop) (n : Nat) (P : Program) (k : Nat) (t : Ideal) : Prop :=
  ∀ j t', j < k → Steps W H S n P j t t' → Proper W H S n t'.past (P t'.mem t'.regs).1 (P t'.mem t'.regs).2

/-! ### Lemmas -/

theorem makes_unique {i : Info} {r : Regs} {cl cl' : Call} (h : Makes i r cl) (h' : Makes i r cl') : cl = cl' := by
  rcases h with ⟨c, h1, h2⟩ | ⟨h1, h2⟩ <;> rcases h' with ⟨c', h3, h4⟩ | ⟨h3, h4⟩
  · obtain rfl := Option.some.inj (h1.symm.trans h3)
    rw [h2, h4]
  · rw [h1] at h3; cases h3
  · rw [h1] at h3; cases h3
  · rw [h2, h4]

/-- Calls on paths, `openat`, calls on sockets, and others. -/
private def sort (nr : CInt) : Nat :=
  if nr = 5 ∨ nr = 188 ∨ nr = 33 then 0 else if nr = 499 then 1 else if nr = 104 ∨ nr = 98 then 2 else 3

theorem sort_path {cl : Call} {want : Want} {path sb : Word} (h : asksPath cl = some (want, path, sb)) :
    sort cl.nr = 0 := if_pos (asks_path h).2

theorem sort_rel {cl : Call} {dir flags mode : CInt} {path : Word} (h : asksRel cl = some (dir, path, flags, mode)) :
    sort cl.nr = 1 := by
  rw [(asks_rel h).2]
  decide

theorem sort_net {cl : Call} {op : Net.Op} {s len : CInt} {addr : Word} (h : asksNet cl = some (op, s, addr, len)) :
    sort cl.nr = 2 := by
  rcases asks_net h with h | h <;> rw [h] <;> decide

theorem sort_other {cl : Call} (h : ¬ Six cl.nr) : sort cl.nr = 3 := by
  simp only [Six] at h
  simp only [sort]
  repeat' split
  all_goals first | rfl | (exfalso; apply h; simp_all)

theorem meant_plain {hist : List Export} {k : Kernel} {recv : Int → BitVec 32} {s : List Byte} {want : Want}
    {ans : Answer} {log : Log} (hk : ∀ l op, k (plain l) (plainOp op) = k l op)
    (h : Meant hist k recv s want ans log) : Meant hist k recv s want ans (plain log) := by
  have hkn : ∀ op, k [] (plainOp op) = k [] op := fun op => hk [] op
  cases h with
  | climbs _ h1 => exact .climbs _ h1
  | absent _ names h1 h2 => exact .absent _ names h1 h2
  | openFile names h flags mode h1 h2 =>
    rw [plain_just hk]
    exact .openFile names h flags mode h1 h2
  | openBeneath names h rest flags mode op h1 h2 h3 h4 =>
    subst h4
    rw [plain_just hk]
    exact .openBeneath names h rest flags mode _ h1 h2 h3 rfl
  | access names h rest mode op h1 h2 h3 =>
    subst h3
    rw [plain_just hk]
    exact .access names h rest mode _ h1 h2 rfl
  | statFile names h sb h1 h2 =>
    rw [plain_just hk, ← hkn]
    exact .statFile names h 0 h1 h2
  | statBeneath names h rest sb op h1 h2 h3 h4 =>
    subst h4
    rw [plain_just hk, ← hkn]
    exact .statBeneath names h rest 0 _ h1 h2 h3 rfl

theorem inHeap_not_private {w : World} (h : Agree w.hdr w.region w.bounds) {p : Word} {n : Nat}
    (hn : n < 2 ^ 64) (hz : 0 < n) (hp : InHeap w.hdr w.region p n) : ¬ Private w.bounds p n := by
  obtain ⟨g0, g1, g2⟩ := h
  have := (Bounds.contains_iff w.hdr w.region g0 p _).1 hp
  have e : (BitVec.ofNat 64 n).toNat = n := by simp; omega
  rw [e] at this
  rintro ⟨_, k⟩
  rw [g2] at k
  omega

theorem directory_unique {w : BsdRel.World} {dir : CInt} {a b : Int} (ha : BsdRel.Directory w dir a)
    (hb : BsdRel.Directory w dir b) : a = b := by
  have h1 := BsdRel.pass_directory ha
  rw [BsdRel.pass_directory hb] at h1
  exact (Outcome.ok.inj h1).symm

/-! ### Theorems -/

/-- **C127, every call on a path means something.** -/
theorem meant_total (hist : List Export) (k : Kernel) (recv : Int → BitVec 32) (s : List Byte) (want : Want)
    (hk : ∀ l op, k (plain l) (plainOp op) = k l op) :
    ∃ ans log, Meant hist k recv s want ans log ∧ plain log = log := by
  have hpp : ∀ l, plain (plain l) = plain l := by
    intro l
    simp only [plain, List.map_map]
    apply List.map_congr_left
    intro e _
    simp only [Function.comp]
    cases e.op <;> rfl
  suffices h : ∃ ans log, Meant hist k recv s want ans log by
    obtain ⟨ans, log, h⟩ := h
    exact ⟨ans, plain log, meant_plain hk h, hpp log⟩
  cases hr : Path.Spec.resolve [] (cut s) with
  | none => exact ⟨_, _, .climbs want hr⟩
  | some names =>
    by_cases ha : ∃ h rest, Answers (specHistory hist) names h rest
    · obtain ⟨h, rest, ha⟩ := ha
      cases want with
      | open_ flags mode =>
        by_cases hrest : rest = []
        · subst hrest
          exact ⟨_, _, .openFile names h flags mode hr ha⟩
        · exact ⟨_, _, .openBeneath names h rest flags mode _ hr ha hrest rfl⟩
      | access mode => exact ⟨_, _, .access names h rest mode _ hr ha rfl⟩
      | stat =>
        by_cases hrest : rest = []
        · subst hrest
          exact ⟨_, _, .statFile names h 0 hr ha⟩
        · exact ⟨_, _, .statBeneath names h rest 0 _ hr ha hrest rfl⟩
    · exact ⟨_, _, .absent want names hr fun h rest hh => ha ⟨h, rest, hh⟩⟩

/-- **C127, a proper call does something.** -/
theorem step_total {W : Worlds} {H : Host} {S : Word → Prop} (hf : Fixed W H S) {P : Program} {n : Nat} {t : Ideal}
    (h : Proper W H S n t.past (P t.mem t.regs).1 (P t.mem t.regs).2) : ∃ t', Step W H S n P t t' := by
  have hp : P t.mem t.regs = ((P t.mem t.regs).1, (P t.mem t.regs).2) := rfl
  generalize (P t.mem t.regs).2 = a at h hp
  generalize (P t.mem t.regs).1 = m at h hp
  cases h with
  | path i r cl want path sb text h1 hm h2 h3 h4 =>
    obtain ⟨ans, log, e1, e2⟩ := meant_total (H.exports t.past) (W t.past).bsd (W t.past).recv text want (hf.kernel t.past)
    exact ⟨_, .path t m i r cl want path sb text ans log hp h1 hm h2 h3 h4 e1 e2⟩
  | openat i r cl dir path flags mode text h1 hm h2 h3 h4 h5 =>
    obtain ⟨ans, log, e1, e2⟩ := meant_total (H.exports t.past) (W t.past).bsd (W t.past).recv text
      (.open_ flags mode) (hf.kernel t.past)
    exact ⟨_, .openat t m i r cl dir path flags mode text ans log hp h1 hm h2 h3 h4 h5 e1 e2⟩
  | rel i r cl dir path flags mode text h1 hm h2 h3 h4 h5 h6 =>
    have hd : ∃ fd, BsdRel.Directory (W t.past).rel dir fd := by
      by_cases hneg : dir.toInt < 0
      · exact ⟨_, .none hneg⟩
      · obtain ⟨h, e1, e2⟩ := h6 (by omega)
        exact ⟨h, .given h (by omega) e1 e2⟩
    obtain ⟨fd, hd⟩ := hd
    exact ⟨_, .rel t m i r cl dir path flags mode text fd hp h1 hm h2 h3 h4 h5 hd⟩
  | sock i r cl op sk addr len h h1 hm h2 h4 h5 h6 h7 h8 h9 h10 =>
    obtain ⟨f, hc⟩ := chosen_total h10
    exact ⟨_, .sock t m i r cl op sk addr len f h hp h1 hm h2 hc h4 h5 h6 h7 h8 h9⟩
  | badSock i r cl op sk addr len h1 hm h2 h4 h5 h6 => exact ⟨_, .badSock t m i r cl op sk addr len hp h1 hm h2 h4 h5 h6⟩
  | back idx data size fd r h1 h2 h3 h4 =>
    have ha : ∃ h, Arrives (W t.past).toUser fd h := by
      by_cases hfd : fd.toInt < 0
      · exact ⟨-1, .inl ⟨hfd, rfl⟩⟩
      · obtain ⟨h, e⟩ := Option.isSome_iff_exists.1 (h4 (by omega))
        exact ⟨h, .inr ⟨by omega, e⟩⟩
    obtain ⟨h, ha⟩ := ha
    by_cases hlt : idx.toNat < 7 + (H.users t.past).length
    · have hu : Registered (H.users t.past) ((H.users t.past)[idx.toNat - 7]'(by omega)) idx :=
        ⟨idx.toNat - 7, List.getElem?_eq_getElem (by omega), by omega⟩
      by_cases hsz : size = ((W t.past).fns ((H.users t.past)[idx.toNat - 7]'(by omega))).size
      · exact ⟨_, .back t m idx data size fd r _ h _ hp hu hsz h3 ha rfl⟩
      · exact ⟨_, .badBack t m idx data size fd r h hp (.inr ⟨_, hu, hsz⟩) h2 h3 ha⟩
    · exact ⟨_, .badBack t m idx data size fd r h hp (.inl (.inr (by omega))) h2 h3 ha⟩
  | look host serv hints res r hs ss h1 h2 h3 h4 h5 h6 =>
    obtain ⟨f, hc⟩ := chosen_total h6
    exact ⟨_, .look t m host serv hints res r hs ss f hp h1 h2 h3 h4 h5 hc⟩
  | other i r cl hm h1 => exact ⟨_, .other t m i r cl hp hm h1⟩

/-- **C127, only proper calls do something.** -/
theorem step_proper {W : Worlds} {H : Host} {S : Word → Prop} (hf : Fixed W H S) {P : Program} {n : Nat} {t t' : Ideal}
    (h : Step W H S n P t t') : Proper W H S n t.past (P t.mem t.regs).1 (P t.mem t.regs).2 := by
  cases h with
  | path m i r cl want path sb text ans log hp h1 hm h2 h3 h4 =>
    rw [hp]
    exact .path i r cl want path sb text h1 hm h2 h3 h4
  | openat m i r cl dir path flags mode text ans log hp h1 hm h2 h3 h4 h5 =>
    rw [hp]
    exact .openat i r cl dir path flags mode text h1 hm h2 h3 h4 h5
  | rel m i r cl dir path flags mode text fd hp h1 hm h2 h3 h4 h5 hd =>
    rw [hp]
    refine .rel i r cl dir path flags mode text h1 hm h2 h3 h4 h5 fun hpos => ?_
    cases hd with
    | given h g1 g2 g3 => exact ⟨_, g2, g3⟩
    | none g => omega
  | sock m i r cl op sk addr len f h hp h1 hm h2 hc h4 h5 h6 h7 h8 h9 =>
    rw [hp]
    exact .sock i r cl op sk addr len h h1 hm h2 h4 h5 h6 h7 h8 h9 (chosen_not_empty hc)
  | badSock m i r cl op sk addr len hp h1 hm h2 h4 h5 h6 =>
    rw [hp]
    exact .badSock i r cl op sk addr len h1 hm h2 h4 h5 h6
  | back m idx data size fd r u h d hp hu hsz hobj harr hd =>
    rw [hp]
    obtain ⟨i, _, hi⟩ := hu
    refine .back idx data size fd r (by omega) (hsz ▸ (hf.setup t.past).sizes u) hobj fun hfd => ?_
    rcases harr with ⟨g, _⟩ | ⟨_, g⟩
    · omega
    · rw [g]; rfl
  | badBack m idx data size fd r h hp hbad hpos hobj harr =>
    rw [hp]
    refine .back idx data size fd r ?_ hpos hobj fun hfd => ?_
    · rcases hbad with (g | g) | ⟨u, ⟨i, _, g⟩, _⟩
      · rw [BitVec.toInt_eq_toNat_cond] at g
        split at g <;> omega
      · omega
      · omega
    · rcases harr with ⟨g, _⟩ | ⟨_, g⟩
      · omega
      · rw [g]; rfl
  | look m host serv hints res r hs ss f hp h1 h2 h3 h4 h5 hc =>
    rw [hp]
    exact .look host serv hints res r hs ss h1 h2 h3 h4 h5 (chosen_not_empty hc)
  | other m i r cl hp hm h1 =>
    rw [hp]
    exact .other i r cl hm h1

/-- **C127, a call does one thing.** -/
theorem step_unique {W : Worlds} {H : Host} {S : Word → Prop} (hf : Fixed W H S) {P : Program} {n : Nat}
    {t t1 t2 : Ideal} (h1 : Step W H S n P t t1) (h2 : Step W H S n P t t2) : t1 = t2 := by
  have hshort := (hf.setup t.past).base.base.short
  have hk := hf.kernel t.past
  have hfew := (hf.setup t.past).few
  have hag := hf.agree t.past
  cases h1 with
  | path m i r cl want path sb text ans log hp hcode hm hask hstr hobj hmeant hplain =>
    have hsort := sort_path hask
    cases h2 with
    | path m' i' r' cl' want' path' sb' text' ans' log' hp' hcode' hm' hask' hstr' hobj' hmeant' hplain' =>
      rw [hp] at hp'
      obtain ⟨rfl, rfl, rfl⟩ : m = m' ∧ i = i' ∧ r = r' := by simpa using hp'
      obtain rfl := makes_unique hm hm'
      rw [hask] at hask'
      obtain ⟨rfl, rfl, rfl⟩ : want = want' ∧ path = path' ∧ sb = sb' := by simpa using hask'
      obtain rfl := EndToEnd.cstring_unique hstr hstr'
      obtain ⟨rfl, hl⟩ := meant_unique hshort hk hmeant hmeant'
      rw [hplain, hplain'] at hl
      rw [hl]
    | openat m' i' r' cl' dir' path' flags' mode' text' ans' log' hp' hcode' hm' hask' hstr' habs' hobj' hmeant' hplain' =>
      rw [hp] at hp'
      obtain ⟨rfl, rfl, rfl⟩ : m = m' ∧ i = i' ∧ r = r' := by simpa using hp'
      obtain rfl := makes_unique hm hm'
      exact absurd (hsort.symm.trans (sort_rel hask')) (by decide)
    | rel m' i' r' cl' dir' path' flags' mode' text' fd' hp' hcode' hm' hask' hstr' hrel' hobj' hdir' =>
      rw [hp] at hp'
      obtain ⟨rfl, rfl, rfl⟩ : m = m' ∧ i = i' ∧ r = r' := by simpa using hp'
      obtain rfl := makes_unique hm hm'
      exact absurd (hsort.symm.trans (sort_rel hask')) (by decide)
    | sock m' i' r' cl' op' sk' addr' len' f' h' hp' hcode' hm' hask' hch' hmax' hobj' hheap' hsock' hpass' hh' =>
      rw [hp] at hp'
      obtain ⟨rfl, rfl, rfl⟩ : m = m' ∧ i = i' ∧ r = r' := by simpa using hp'
      obtain rfl := makes_unique hm hm'
      exact absurd (hsort.symm.trans (sort_net hask')) (by decide)
    | badSock m' i' r' cl' op' sk' addr' len' hp' hcode' hm' hask' hobj' hs' hbad' =>
      rw [hp] at hp'
      obtain ⟨rfl, rfl, rfl⟩ : m = m' ∧ i = i' ∧ r = r' := by simpa using hp'
      obtain rfl := makes_unique hm hm'
      exact absurd (hsort.symm.trans (sort_net hask')) (by decide)
    | other m' i' r' cl' hp' hm' hnr' =>
      rw [hp] at hp'
      obtain ⟨rfl, rfl, rfl⟩ : m = m' ∧ i = i' ∧ r = r' := by simpa using hp'
      obtain rfl := makes_unique hm hm'
      exact absurd (hsort.symm.trans (sort_other hnr')) (by decide)
    | back m' idx' data' size' fd' r' u' h' d' hp' hu' hsz' hobj' harr' hd' => rw [hp] at hp'; simp at hp'
    | badBack m' idx' data' size' fd' r' h' hp' hbad' hpos' hobj' harr' => rw [hp] at hp'; simp at hp'
    | look m' host' serv' hints' res' r' hs' ss' f' hp' hhost' hserv' hobj' hap' hall' hch' => rw [hp] at hp'; simp at hp'
  | openat m i r cl dir path flags mode text ans log hp hcode hm hask hstr habs hobj hmeant hplain =>
    have hsort := sort_rel hask
    cases h2 with
    | path m' i' r' cl' want' path' sb' text' ans' log' hp' hcode' hm' hask' hstr' hobj' hmeant' hplain' =>
      rw [hp] at hp'
      obtain ⟨rfl, rfl, rfl⟩ : m = m' ∧ i = i' ∧ r = r' := by simpa using hp'
      obtain rfl := makes_unique hm hm'
      exact absurd (hsort.symm.trans (sort_path hask')) (by decide)
    | openat m' i' r' cl' dir' path' flags' mode' text' ans' log' hp' hcode' hm' hask' hstr' habs' hobj' hmeant' hplain' =>
      rw [hp] at hp'
      obtain ⟨rfl, rfl, rfl⟩ : m = m' ∧ i = i' ∧ r = r' := by simpa using hp'
      obtain rfl := makes_unique hm hm'
      rw [hask] at hask'
      obtain ⟨rfl, rfl, rfl, rfl⟩ : dir = dir' ∧ path = path' ∧ flags = flags' ∧ mode = mode' := by simpa using hask'
      obtain rfl := EndToEnd.cstring_unique hstr hstr'
      obtain ⟨rfl, hl⟩ := meant_unique hshort hk hmeant hmeant'
      rw [hplain, hplain'] at hl
      rw [hl]
    | rel m' i' r' cl' dir' path' flags' mode' text' fd' hp' hcode' hm' hask' hstr' hrel' hobj' hdir' =>
      rw [hp] at hp'
      obtain ⟨rfl, rfl, rfl⟩ : m = m' ∧ i = i' ∧ r = r' := by simpa using hp'
      obtain rfl := makes_unique hm hm'
      rw [hask] at hask'
      obtain ⟨rfl, rfl, rfl, rfl⟩ : dir = dir' ∧ path = path' ∧ flags = flags' ∧ mode = mode' := by simpa using hask'
      obtain rfl := EndToEnd.cstring_unique hstr hstr'
      exact absurd habs hrel'
    | sock m' i' r' cl' op' sk' addr' len' f' h' hp' hcode' hm' hask' hch' hmax' hobj' hheap' hsock' hpass' hh' =>
      rw [hp] at hp'
      obtain ⟨rfl, rfl, rfl⟩ : m = m' ∧ i = i' ∧ r = r' := by simpa using hp'
      obtain rfl := makes_unique hm hm'
      exact absurd (hsort.symm.trans (sort_net hask')) (by decide)
    | badSock m' i' r' cl' op' sk' addr' len' hp' hcode' hm' hask' hobj' hs' hbad' =>
      rw [hp] at hp'
      obtain ⟨rfl, rfl, rfl⟩ : m = m' ∧ i = i' ∧ r = r' := by simpa using hp'
      obtain rfl := makes_unique hm hm'
      exact absurd (hsort.symm.trans (sort_net hask')) (by decide)
    | other m' i' r' cl' hp' hm' hnr' =>
      rw [hp] at hp'
      obtain ⟨rfl, rfl, rfl⟩ : m = m' ∧ i = i' ∧ r = r' := by simpa using hp'
      obtain rfl := makes_unique hm hm'
      exact absurd (hsort.symm.trans (sort_other hnr')) (by decide)
    | back m' idx' data' size' fd' r' u' h' d' hp' hu' hsz' hobj' harr' hd' => rw [hp] at hp'; simp at hp'
    | badBack m' idx' data' size' fd' r' h' hp' hbad' hpos' hobj' harr' => rw [hp] at hp'; simp at hp'
    | look m' host' serv' hints' res' r' hs' ss' f' hp' hhost' hserv' hobj' hap' hall' hch' => rw [hp] at hp'; simp at hp'
  | rel m i r cl dir path flags mode text fd hp hcode hm hask hstr hrel hobj hdir =>
    have hsort := sort_rel hask
    cases h2 with
    | path m' i' r' cl' want' path' sb' text' ans' log' hp' hcode' hm' hask' hstr' hobj' hmeant' hplain' =>
      rw [hp] at hp'
      obtain ⟨rfl, rfl, rfl⟩ : m = m' ∧ i = i' ∧ r = r' := by simpa using hp'
      obtain rfl := makes_unique hm hm'
      exact absurd (hsort.symm.trans (sort_path hask')) (by decide)
    | openat m' i' r' cl' dir' path' flags' mode' text' ans' log' hp' hcode' hm' hask' hstr' habs' hobj' hmeant' hplain' =>
      rw [hp] at hp'
      obtain ⟨rfl, rfl, rfl⟩ : m = m' ∧ i = i' ∧ r = r' := by simpa using hp'
      obtain rfl := makes_unique hm hm'
      rw [hask] at hask'
      obtain ⟨rfl, rfl, rfl, rfl⟩ : dir = dir' ∧ path = path' ∧ flags = flags' ∧ mode = mode' := by simpa using hask'
      obtain rfl := EndToEnd.cstring_unique hstr hstr'
      exact absurd habs' hrel
    | rel m' i' r' cl' dir' path' flags' mode' text' fd' hp' hcode' hm' hask' hstr' hrel' hobj' hdir' =>
      rw [hp] at hp'
      obtain ⟨rfl, rfl, rfl⟩ : m = m' ∧ i = i' ∧ r = r' := by simpa using hp'
      obtain rfl := makes_unique hm hm'
      rw [hask] at hask'
      obtain ⟨rfl, rfl, rfl, rfl⟩ : dir = dir' ∧ path = path' ∧ flags = flags' ∧ mode = mode' := by simpa using hask'
      obtain rfl := EndToEnd.cstring_unique hstr hstr'
      obtain rfl := directory_unique hdir hdir'
      rfl
    | sock m' i' r' cl' op' sk' addr' len' f' h' hp' hcode' hm' hask' hch' hmax' hobj' hheap' hsock' hpass' hh' =>
      rw [hp] at hp'
      obtain ⟨rfl, rfl, rfl⟩ : m = m' ∧ i = i' ∧ r = r' := by simpa using hp'
      obtain rfl := makes_unique hm hm'
      exact absurd (hsort.symm.trans (sort_net hask')) (by decide)
    | badSock m' i' r' cl' op' sk' addr' len' hp' hcode' hm' hask' hobj' hs' hbad' =>
      rw [hp] at hp'
      obtain ⟨rfl, rfl, rfl⟩ : m = m' ∧ i = i' ∧ r = r' := by simpa using hp'
      obtain rfl := makes_unique hm hm'
      exact absurd (hsort.symm.trans (sort_net hask')) (by decide)
    | other m' i' r' cl' hp' hm' hnr' =>
      rw [hp] at hp'
      obtain ⟨rfl, rfl, rfl⟩ : m = m' ∧ i = i' ∧ r = r' := by simpa using hp'
      obtain rfl := makes_unique hm hm'
      exact absurd (hsort.symm.trans (sort_other hnr')) (by decide)
    | back m' idx' data' size' fd' r' u' h' d' hp' hu' hsz' hobj' harr' hd' => rw [hp] at hp'; simp at hp'
    | badBack m' idx' data' size' fd' r' h' hp' hbad' hpos' hobj' harr' => rw [hp] at hp'; simp at hp'
    | look m' host' serv' hints' res' r' hs' ss' f' hp' hhost' hserv' hobj' hap' hall' hch' => rw [hp] at hp'; simp at hp'
  | sock m i r cl op sk addr len f h hp hcode hm hask hch hmax hobj hheap hsock hpass hh =>
    have hsort := sort_net hask
    cases h2 with
    | path m' i' r' cl' want' path' sb' text' ans' log' hp' hcode' hm' hask' hstr' hobj' hmeant' hplain' =>
      rw [hp] at hp'
      obtain ⟨rfl, rfl, rfl⟩ : m = m' ∧ i = i' ∧ r = r' := by simpa using hp'
      obtain rfl := makes_unique hm hm'
      exact absurd (hsort.symm.trans (sort_path hask')) (by decide)
    | openat m' i' r' cl' dir' path' flags' mode' text' ans' log' hp' hcode' hm' hask' hstr' habs' hobj' hmeant' hplain' =>
      rw [hp] at hp'
      obtain ⟨rfl, rfl, rfl⟩ : m = m' ∧ i = i' ∧ r = r' := by simpa using hp'
      obtain rfl := makes_unique hm hm'
      exact absurd (hsort.symm.trans (sort_rel hask')) (by decide)
    | rel m' i' r' cl' dir' path' flags' mode' text' fd' hp' hcode' hm' hask' hstr' hrel' hobj' hdir' =>
      rw [hp] at hp'
      obtain ⟨rfl, rfl, rfl⟩ : m = m' ∧ i = i' ∧ r = r' := by simpa using hp'
      obtain rfl := makes_unique hm hm'
      exact absurd (hsort.symm.trans (sort_rel hask')) (by decide)
    | sock m' i' r' cl' op' sk' addr' len' f' h' hp' hcode' hm' hask' hch' hmax' hobj' hheap' hsock' hpass' hh' =>
      rw [hp] at hp'
      obtain ⟨rfl, rfl, rfl⟩ : m = m' ∧ i = i' ∧ r = r' := by simpa using hp'
      obtain rfl := makes_unique hm hm'
      rw [hask] at hask'
      obtain ⟨rfl, rfl, rfl, rfl⟩ : op = op' ∧ sk = sk' ∧ addr = addr' ∧ len = len' := by simpa using hask'
      obtain rfl := chosen_unique hch hch'
      obtain rfl := Option.some.inj (hpass.symm.trans hpass')
      rfl
    | badSock m' i' r' cl' op' sk' addr' len' hp' hcode' hm' hask' hobj' hs' hbad' =>
      rw [hp] at hp'
      obtain ⟨rfl, rfl, rfl⟩ : m = m' ∧ i = i' ∧ r = r' := by simpa using hp'
      obtain rfl := makes_unique hm hm'
      rw [hask] at hask'
      obtain ⟨rfl, rfl, rfl, rfl⟩ : op = op' ∧ sk = sk' ∧ addr = addr' ∧ len = len' := by simpa using hask'
      rcases hbad' with g | g | ⟨g, gz⟩
      · omega
      · omega
      · exact absurd g (inHeap_not_private hag (by have := len.isLt; omega) gz hheap)
    | other m' i' r' cl' hp' hm' hnr' =>
      rw [hp] at hp'
      obtain ⟨rfl, rfl, rfl⟩ : m = m' ∧ i = i' ∧ r = r' := by simpa using hp'
      obtain rfl := makes_unique hm hm'
      exact absurd (hsort.symm.trans (sort_other hnr')) (by decide)
    | back m' idx' data' size' fd' r' u' h' d' hp' hu' hsz' hobj' harr' hd' => rw [hp] at hp'; simp at hp'
    | badBack m' idx' data' size' fd' r' h' hp' hbad' hpos' hobj' harr' => rw [hp] at hp'; simp at hp'
    | look m' host' serv' hints' res' r' hs' ss' f' hp' hhost' hserv' hobj' hap' hall' hch' => rw [hp] at hp'; simp at hp'
  | badSock m i r cl op sk addr len hp hcode hm hask hobj hs hbad =>
    have hsort := sort_net hask
    cases h2 with
    | path m' i' r' cl' want' path' sb' text' ans' log' hp' hcode' hm' hask' hstr' hobj' hmeant' hplain' =>
      rw [hp] at hp'
      obtain ⟨rfl, rfl, rfl⟩ : m = m' ∧ i = i' ∧ r = r' := by simpa using hp'
      obtain rfl := makes_unique hm hm'
      exact absurd (hsort.symm.trans (sort_path hask')) (by decide)
    | openat m' i' r' cl' dir' path' flags' mode' text' ans' log' hp' hcode' hm' hask' hstr' habs' hobj' hmeant' hplain' =>
      rw [hp] at hp'
      obtain ⟨rfl, rfl, rfl⟩ : m = m' ∧ i = i' ∧ r = r' := by simpa using hp'
      obtain rfl := makes_unique hm hm'
      exact absurd (hsort.symm.trans (sort_rel hask')) (by decide)
    | rel m' i' r' cl' dir' path' flags' mode' text' fd' hp' hcode' hm' hask' hstr' hrel' hobj' hdir' =>
      rw [hp] at hp'
      obtain ⟨rfl, rfl, rfl⟩ : m = m' ∧ i = i' ∧ r = r' := by simpa using hp'
      obtain rfl := makes_unique hm hm'
      exact absurd (hsort.symm.trans (sort_rel hask')) (by decide)
    | sock m' i' r' cl' op' sk' addr' len' f' h' hp' hcode' hm' hask' hch' hmax' hobj' hheap' hsock' hpass' hh' =>
      rw [hp] at hp'
      obtain ⟨rfl, rfl, rfl⟩ : m = m' ∧ i = i' ∧ r = r' := by simpa using hp'
      obtain rfl := makes_unique hm hm'
      rw [hask] at hask'
      obtain ⟨rfl, rfl, rfl, rfl⟩ : op = op' ∧ sk = sk' ∧ addr = addr' ∧ len = len' := by simpa using hask'
      rcases hbad with g | g | ⟨g, gz⟩
      · omega
      · omega
      · exact absurd g (inHeap_not_private hag (by have := len.isLt; omega) gz hheap')
    | badSock m' i' r' cl' op' sk' addr' len' hp' hcode' hm' hask' hobj' hs' hbad' =>
      rw [hp] at hp'
      obtain ⟨rfl, rfl, rfl⟩ : m = m' ∧ i = i' ∧ r = r' := by simpa using hp'
      obtain rfl := makes_unique hm hm'
      rfl
    | other m' i' r' cl' hp' hm' hnr' =>
      rw [hp] at hp'
      obtain ⟨rfl, rfl, rfl⟩ : m = m' ∧ i = i' ∧ r = r' := by simpa using hp'
      obtain rfl := makes_unique hm hm'
      exact absurd (hsort.symm.trans (sort_other hnr')) (by decide)
    | back m' idx' data' size' fd' r' u' h' d' hp' hu' hsz' hobj' harr' hd' => rw [hp] at hp'; simp at hp'
    | badBack m' idx' data' size' fd' r' h' hp' hbad' hpos' hobj' harr' => rw [hp] at hp'; simp at hp'
    | look m' host' serv' hints' res' r' hs' ss' f' hp' hhost' hserv' hobj' hap' hall' hch' => rw [hp] at hp'; simp at hp'
  | other m i r cl hp hm hnr =>
    have hsort := sort_other hnr
    cases h2 with
    | path m' i' r' cl' want' path' sb' text' ans' log' hp' hcode' hm' hask' hstr' hobj' hmeant' hplain' =>
      rw [hp] at hp'
      obtain ⟨rfl, rfl, rfl⟩ : m = m' ∧ i = i' ∧ r = r' := by simpa using hp'
      obtain rfl := makes_unique hm hm'
      exact absurd (hsort.symm.trans (sort_path hask')) (by decide)
    | openat m' i' r' cl' dir' path' flags' mode' text' ans' log' hp' hcode' hm' hask' hstr' habs' hobj' hmeant' hplain' =>
      rw [hp] at hp'
      obtain ⟨rfl, rfl, rfl⟩ : m = m' ∧ i = i' ∧ r = r' := by simpa using hp'
      obtain rfl := makes_unique hm hm'
      exact absurd (hsort.symm.trans (sort_rel hask')) (by decide)
    | rel m' i' r' cl' dir' path' flags' mode' text' fd' hp' hcode' hm' hask' hstr' hrel' hobj' hdir' =>
      rw [hp] at hp'
      obtain ⟨rfl, rfl, rfl⟩ : m = m' ∧ i = i' ∧ r = r' := by simpa using hp'
      obtain rfl := makes_unique hm hm'
      exact absurd (hsort.symm.trans (sort_rel hask')) (by decide)
    | sock m' i' r' cl' op' sk' addr' len' f' h' hp' hcode' hm' hask' hch' hmax' hobj' hheap' hsock' hpass' hh' =>
      rw [hp] at hp'
      obtain ⟨rfl, rfl, rfl⟩ : m = m' ∧ i = i' ∧ r = r' := by simpa using hp'
      obtain rfl := makes_unique hm hm'
      exact absurd (hsort.symm.trans (sort_net hask')) (by decide)
    | badSock m' i' r' cl' op' sk' addr' len' hp' hcode' hm' hask' hobj' hs' hbad' =>
      rw [hp] at hp'
      obtain ⟨rfl, rfl, rfl⟩ : m = m' ∧ i = i' ∧ r = r' := by simpa using hp'
      obtain rfl := makes_unique hm hm'
      exact absurd (hsort.symm.trans (sort_net hask')) (by decide)
    | other m' i' r' cl' hp' hm' hnr' =>
      rw [hp] at hp'
      obtain ⟨rfl, rfl, rfl⟩ : m = m' ∧ i = i' ∧ r = r' := by simpa using hp'
      obtain rfl := makes_unique hm hm'
      rfl
    | back m' idx' data' size' fd' r' u' h' d' hp' hu' hsz' hobj' harr' hd' => rw [hp] at hp'; simp at hp'
    | badBack m' idx' data' size' fd' r' h' hp' hbad' hpos' hobj' harr' => rw [hp] at hp'; simp at hp'
    | look m' host' serv' hints' res' r' hs' ss' f' hp' hhost' hserv' hobj' hap' hall' hch' => rw [hp] at hp'; simp at hp'
  | back m idx data size fd r u h d hp hu hsz hobj harr hd =>
    cases h2 with
    | path m' i' r' cl' want' path' sb' text' ans' log' hp' hcode' hm' hask' hstr' hobj' hmeant' hplain' => rw [hp] at hp'; simp at hp'
    | openat m' i' r' cl' dir' path' flags' mode' text' ans' log' hp' hcode' hm' hask' hstr' habs' hobj' hmeant' hplain' => rw [hp] at hp'; simp at hp'
    | rel m' i' r' cl' dir' path' flags' mode' text' fd' hp' hcode' hm' hask' hstr' hrel' hobj' hdir' => rw [hp] at hp'; simp at hp'
    | sock m' i' r' cl' op' sk' addr' len' f' h' hp' hcode' hm' hask' hch' hmax' hobj' hheap' hsock' hpass' hh' => rw [hp] at hp'; simp at hp'
    | badSock m' i' r' cl' op' sk' addr' len' hp' hcode' hm' hask' hobj' hs' hbad' => rw [hp] at hp'; simp at hp'
    | other m' i' r' cl' hp' hm' hnr' => rw [hp] at hp'; simp at hp'
    | back m' idx' data' size' fd' r' u' h' d' hp' hu' hsz' hobj' harr' hd' =>
      rw [hp] at hp'
      obtain ⟨rfl, rfl, rfl, rfl, rfl, rfl⟩ : m = m' ∧ idx = idx' ∧ data = data' ∧ size = size' ∧ fd = fd' ∧ r = r' := by simpa using hp'
      obtain rfl := registered_unique hu hu'
      obtain rfl := arrives_unique harr harr'
      rw [hd, hd']
    | badBack m' idx' data' size' fd' r' h' hp' hbad' hpos' hobj' harr' =>
      rw [hp] at hp'
      obtain ⟨rfl, rfl, rfl, rfl, rfl, rfl⟩ : m = m' ∧ idx = idx' ∧ data = data' ∧ size = size' ∧ fd = fd' ∧ r = r' := by simpa using hp'
      rcases hbad' with g | ⟨u', g1, g2⟩
      · exact absurd g (registered_not_unused hfew hu)
      · obtain rfl := registered_unique hu g1
        exact absurd hsz g2
    | look m' host' serv' hints' res' r' hs' ss' f' hp' hhost' hserv' hobj' hap' hall' hch' => rw [hp] at hp'; simp at hp'
  | badBack m idx data size fd r h hp hbad hpos hobj harr =>
    cases h2 with
    | path m' i' r' cl' want' path' sb' text' ans' log' hp' hcode' hm' hask' hstr' hobj' hmeant' hplain' => rw [hp] at hp'; simp at hp'
    | openat m' i' r' cl' dir' path' flags' mode' text' ans' log' hp' hcode' hm' hask' hstr' habs' hobj' hmeant' hplain' => rw [hp] at hp'; simp at hp'
    | rel m' i' r' cl' dir' path' flags' mode' text' fd' hp' hcode' hm' hask' hstr' hrel' hobj' hdir' => rw [hp] at hp'; simp at hp'
    | sock m' i' r' cl' op' sk' addr' len' f' h' hp' hcode' hm' hask' hch' hmax' hobj' hheap' hsock' hpass' hh' => rw [hp] at hp'; simp at hp'
    | badSock m' i' r' cl' op' sk' addr' len' hp' hcode' hm' hask' hobj' hs' hbad' => rw [hp] at hp'; simp at hp'
    | other m' i' r' cl' hp' hm' hnr' => rw [hp] at hp'; simp at hp'
    | back m' idx' data' size' fd' r' u' h' d' hp' hu' hsz' hobj' harr' hd' =>
      rw [hp] at hp'
      obtain ⟨rfl, rfl, rfl, rfl, rfl, rfl⟩ : m = m' ∧ idx = idx' ∧ data = data' ∧ size = size' ∧ fd = fd' ∧ r = r' := by simpa using hp'
      rcases hbad with g | ⟨u', g1, g2⟩
      · exact absurd g (registered_not_unused hfew hu')
      · obtain rfl := registered_unique hu' g1
        exact absurd hsz' g2
    | badBack m' idx' data' size' fd' r' h' hp' hbad' hpos' hobj' harr' =>
      rw [hp] at hp'
      obtain ⟨rfl, rfl, rfl, rfl, rfl, rfl⟩ : m = m' ∧ idx = idx' ∧ data = data' ∧ size = size' ∧ fd = fd' ∧ r = r' := by simpa using hp'
      rfl
    | look m' host' serv' hints' res' r' hs' ss' f' hp' hhost' hserv' hobj' hap' hall' hch' => rw [hp] at hp'; simp at hp'
  | look m host serv hints res r hs ss f hp hhost hserv hobj hap hall hch =>
    cases h2 with
    | path m' i' r' cl' want' path' sb' text' ans' log' hp' hcode' hm' hask' hstr' hobj' hmeant' hplain' => rw [hp] at hp'; simp at hp'
    | openat m' i' r' cl' dir' path' flags' mode' text' ans' log' hp' hcode' hm' hask' hstr' habs' hobj' hmeant' hplain' => rw [hp] at hp'; simp at hp'
    | rel m' i' r' cl' dir' path' flags' mode' text' fd' hp' hcode' hm' hask' hstr' hrel' hobj' hdir' => rw [hp] at hp'; simp at hp'
    | sock m' i' r' cl' op' sk' addr' len' f' h' hp' hcode' hm' hask' hch' hmax' hobj' hheap' hsock' hpass' hh' => rw [hp] at hp'; simp at hp'
    | badSock m' i' r' cl' op' sk' addr' len' hp' hcode' hm' hask' hobj' hs' hbad' => rw [hp] at hp'; simp at hp'
    | other m' i' r' cl' hp' hm' hnr' => rw [hp] at hp'; simp at hp'
    | back m' idx' data' size' fd' r' u' h' d' hp' hu' hsz' hobj' harr' hd' => rw [hp] at hp'; simp at hp'
    | badBack m' idx' data' size' fd' r' h' hp' hbad' hpos' hobj' harr' => rw [hp] at hp'; simp at hp'
    | look m' host' serv' hints' res' r' hs' ss' f' hp' hhost' hserv' hobj' hap' hall' hch' =>
      rw [hp] at hp'
      obtain ⟨rfl, rfl, rfl, rfl, rfl, rfl⟩ : m = m' ∧ host = host' ∧ serv = serv' ∧ hints = hints' ∧ res = res' ∧ r = r' := by simpa using hp'
      obtain rfl := EndToEnd.cstring_unique hhost hhost'
      obtain rfl := EndToEnd.cstring_unique hserv hserv'
      obtain rfl := chosen_unique hch hch'
      rfl

/-- **C127, one run.**  Whatever the program, the ideal machine runs it in one way only. -/
theorem steps_unique {W : Worlds} {H : Host} {S : Word → Prop} (hf : Fixed W H S) {P : Program} {n : Nat}
    {k : Nat} {t t1 t2 : Ideal} (h1 : Steps W H S n P k t t1) (h2 : Steps W H S n P k t t2) :
    t1 = t2 := by
  induction h1 with
  | none => cases h2; rfl
  | more k s s' s'' a b ih =>
    cases h2 with
    | more _ _ u _ a' b' =>
      obtain rfl := step_unique hf a a'
      exact ih b'

/-- **C127, as far as calls are proper.** -/
theorem steps_total {W : Worlds} {H : Host} {S : Word → Prop} (hf : Fixed W H S) {P : Program} {n k : Nat} {t : Ideal}
    (h : Behaves W H S n P k t) : ∃ t', Steps W H S n P k t t' := by
  induction k generalizing t with
  | zero => exact ⟨t, .none t⟩
  | succ k ih =>
    obtain ⟨t1, h1⟩ := step_total hf (h 0 t (by omega) (.none t))
    obtain ⟨t', h2⟩ := ih (t := t1) fun j t2 hj hs => h (j + 1) t2 (by omega) (.more _ _ _ _ h1 hs)
    exact ⟨t', .more _ _ _ _ h1 h2⟩

/-- **C127, exactly as far as calls are proper.** -/
theorem steps_iff_behaves {W : Worlds} {H : Host} {S : Word → Prop} (hf : Fixed W H S) {P : Program} {n k : Nat}
    {t : Ideal} : (∃ t', Steps W H S n P k t t') ↔ Behaves W H S n P k t := by
  refine ⟨fun ⟨t', h⟩ => ?_, steps_total hf⟩
  induction h with
  | none => exact fun j _ hj => absurd hj (by omega)
  | more k s s' s'' a b ih =>
    intro j t1 hj h1
    cases h1 with
    | none => exact step_proper hf a
    | more j' _ u _ a' b' =>
      obtain rfl := step_unique hf a a'
      exact ih ⟨_, b⟩ j' t1 (by omega) b'

/-- **C127, without the ideal machine's answers.**  If a program makes its calls properly, then there is exactly one thing
for the ideal machine to do, and the sandbox does it: nothing ends early, and program and host find and do the same. -/
theorem proper_run_transparent {W : Worlds} {H : Host} {S : Word → Prop} (hf : Fixed W H S) {P : Program}
    (hP : Blind S P) {n : Nat} (hn : 224 ≤ n ∧ n < 2 ^ 64) {live : List Word} {blocks : List (List Word)}
    (hb : ∀ b ∈ blocks, Blocks W S n live b) {s : State} {t : Ideal} (ha : Alike S live s t)
    (h : Behaves W H S n P blocks.length t) :
    ∃ s' t', run W P blocks s = .ok (some s') ∧ Alike S live s' t' ∧ Steps W H S n P blocks.length t t' ∧
      ∀ t'', Steps W H S n P blocks.length t t'' → t'' = t' := by
  obtain ⟨t', ht⟩ := steps_total hf h
  obtain ⟨s', e1, e2⟩ := run_transparent hf hP hn hb ha ht
  exact ⟨s', t', e1, e2, ht, fun t'' h' => steps_unique hf h' ht⟩

/-! ### Cases that meet the conditions -/

/-- The program of `exSteps` makes its three calls properly. -/
example : Behaves exWorlds exHost exOwn 224 exProgram 3 exStart :=
  let ⟨_, h, _⟩ := exSteps
  (steps_iff_behaves exFixed).1 ⟨_, h⟩

/-- A program whose calls are refused or not known: `connect` on the socket -1 through `syscall`, then a callback that there is
not, and then `kill`, again and again. -/
def exOdd : Program := fun m r =>
  if r.rip = 0 then (m, .sys ⟨5, some 0⟩ ⟨0, 98, -1, 0x19000, 16, 0, 0, 0x700, 0⟩)
  else if r.rip = 0x700 then (m, .back 99 0x19000 8 (-1) { r with rip := 0x900 })
  else (m, .sys ⟨5, some 37⟩ { r with rax := 37 })

/-- It makes every call properly. -/
theorem exOdd_behaves (k : Nat) : Behaves exWorlds exHost exOwn 224 exOdd k exStart := by
  intro j t _ _
  unfold exOdd
  repeat' split
  · exact .badSock _ _ _ .connect (-1) 0x19000 16 rfl (.inl ⟨_, rfl, rfl⟩) rfl (exOwnBuffer (by decide)) (.inl (by decide))
      (.inl (by decide))
  · exact .back _ _ _ _ _ (by decide) (by decide) (exOwnBuffer (by decide)) (fun h => absurd h (by decide))
  · exact .other _ _ _ (.inl ⟨_, rfl, rfl⟩) (by simp [Six, FreeBsd.asks])

theorem exOdd_blind : Blind exOwn exOdd := by
  intro m m' r h
  unfold exOdd
  repeat' split
  all_goals exact ⟨h, rfl⟩

/-- So it runs as long as one likes; after three calls the register for the result holds the number of `kill`, and the host
has done nothing. -/
example : ∃ s', run exWorlds exOdd (List.replicate 3 [0x18000, 0x18200, 0x18400, 0x18600, 0x18800])
    ⟨⟨EndToEnd.exChild.mem, [0x17000], []⟩, ⟨0, 0, 0, 0, 0, 0, 0, 0, 0⟩, []⟩ = .ok (some s') ∧ s'.regs.rax = 37 ∧
    s'.past.map Event.plain = [.net [], .user [], .host []] := by
  obtain ⟨s', t', e1, e2, _, e3⟩ := proper_run_transparent exFixed exOdd_blind (by decide) (live := [0x17000])
    (blocks := List.replicate 3 [0x18000, 0x18200, 0x18400, 0x18600, 0x18800])
    (s := ⟨⟨EndToEnd.exChild.mem, [0x17000], []⟩, ⟨0, 0, 0, 0, 0, 0, 0, 0, 0⟩, []⟩) (t := exStart)
    (fun b hb => by rw [List.eq_of_mem_replicate hb]; exact exBlocks) ⟨fun _ _ => rfl, rfl, rfl, rfl⟩ (exOdd_behaves _)
  have := e3 _ (.more _ _ _ _ (.badSock _ _ _ _ _ .connect (-1) 0x19000 16 rfl rfl (.inl ⟨_, rfl, rfl⟩) rfl
      (exOwnBuffer (by decide)) (.inl (by decide)) (.inl (by decide)))
    (.more _ _ _ _ (.badBack _ _ 99 0x19000 8 (-1) _ (-1) rfl (.inl (.inr (by decide))) (by decide)
      (exOwnBuffer (by decide)) (.inl ⟨by decide, rfl⟩))
    (.more _ _ _ _ (.other _ _ _ _ _ rfl (.inl ⟨_, rfl, rfl⟩) (by simp only [Six, FreeBsd.asks]; decide)) (.none _))))
  subst this
  exact ⟨s', e1, by rw [e2.regs], e2.past⟩

/-- A program that opens `lib/x`, the path at `0x5001`, beneath its descriptor 7. -/
def exRel : Program := fun m r =>
  if r.rip = 0 then (m, .sys ⟨5, some 499⟩ ⟨499, 7, 0x5001, 0, 0, 0, 0, 0x700, 0⟩) else (m, .stop)

theorem exRelOwn : Own exWorld exOwn 224 (0x5001, 6) := by
  refine ⟨⟨by decide, .inr ⟨by decide, by decide⟩⟩, by decide, fun i hi h => ?_⟩
  simp only at hi h
  rw [exOwn, off_toNat 0x5001 i 0x5001 rfl (by omega)] at h
  omega

/-- The host opens it beneath its own descriptor 12 and closes that; the program finds 9, the number in the host. -/
example : ∃ s', run exWorlds exRel [[0x18000, 0x18200, 0x18400, 0x18600, 0x18800]]
    ⟨⟨EndToEnd.exChild.mem, [0x17000], []⟩, ⟨0, 0, 0, 0, 0, 0, 0, 0, 0⟩, []⟩ = .ok (some s') ∧ s'.regs.rax = 9 ∧
    s'.past.map Event.plain = [.host [⟨.openat 12 (some (Path.txt "lib/x")) 0x800000 0, 9, 0⟩, ⟨.close 12, 9, 0⟩]] := by
  obtain ⟨s', e1, e2⟩ := run_transparent exFixed (P := exRel)
    (by intro m m' r h; unfold exRel; split <;> exact ⟨h, rfl⟩) (by decide) (live := [0x17000])
    (blocks := [[0x18000, 0x18200, 0x18400, 0x18600, 0x18800]])
    (s := ⟨⟨EndToEnd.exChild.mem, [0x17000], []⟩, ⟨0, 0, 0, 0, 0, 0, 0, 0, 0⟩, []⟩) (t := exStart)
    (fun b hb => by rw [List.mem_singleton.1 hb]; exact exBlocks) ⟨fun _ _ => rfl, rfl, rfl, rfl⟩
    (.more _ _ _ _ (.rel _ _ _ _ _ 7 0x5001 0 0 (Path.txt "lib/x") 12 rfl rfl (.inl ⟨_, rfl, rfl⟩) rfl Run.exRelString
      (by decide) exRelOwn (.given 12 (by decide) rfl (by decide))) (.none _))
  exact ⟨s', e1, by rw [e2.regs]; rfl, e2.past⟩

end Verif.BsdRun
