import Verif.Run.Props

/-!
# Whole runs: the machine in which calls act at once is defined, and in one way only

`Run.run_transparent` is about what the ideal machine does.  Here: it does something whenever the program makes its calls
properly, which is said without the answers, and never two different things.
-/

namespace Verif.Run

open Verif.Strings (asNat)
open Verif.Strings.Spec (CStringAt)
open Verif.FileTree (Export specHistory)
open Verif.FileTree.Spec (Answers cut)
open Verif.PathSyscall (Log Kernel)
open Verif.Net (Config Callee Op)
open Verif.Net.Spec (IsLast)
open Verif.ChildArgs (InHeap Private Agree Apart)
open Verif.Syscall (CInt Regs Info Answer abi)
open Verif.EndToEnd (Want Meant asks objects)
open Verif.NetEnd (Chosen opAsked)
open Verif.UserEnd (Registered Unused Arrives)

/-! ### Specification -/

/-- A call is made properly.
* A call on a path: the path is a string in the program's memory, and so is the buffer of `stat`.
* `openat`: the path does not name a directory of descriptors of the process; if it is relative, then the directory exists
  or its number is negative.
* `bind` and `connect`: the address is an object of the program's in the shared heap, the socket exists, and the host has
  not registered an empty function; or the call is one of those that are refused.
* A callback: the arguments are an object of the program's, and not empty; the descriptor, if its number is not negative,
  exists; the number is not that of one of the seven handlers of the runtime itself.
* A lookup: the names, the hints and the place for the result are objects of the program's; that place overlaps neither
  `localRes` nor a block that the host is given; and the host has not registered an empty function.
* Any other system call. -/
inductive Proper (W : Worlds) (H : Host) (S : Word → Prop) (n : Nat) (past : List Event) (m : Mem) : Act → Prop where
  | path (i r want path sb text) : i.code = 1 → asks i.syscall (abi r) = some (want, path, sb) →
      CStringAt (asNat m) path.toNat text → (∀ o ∈ objects want path sb text, Own (W past) S n o) →
      Proper W H S n past m (.sys i r)
  | openat (i r text) : i.code = 1 → i.syscall = 257 → CStringAt (asNat m) r.rsi.toNat text → text.head? = some 47 →
      ¬ Syscall.fdDir (W past).pid <+: text → Own (W past) S n (r.rsi, text.length + 1) →
      Proper W H S n past m (.sys i r)
  | rel (i r text) : i.code = 1 → i.syscall = 257 → CStringAt (asNat m) r.rsi.toNat text → text.head? ≠ some 47 →
      Own (W past) S n (r.rsi, text.length + 1) →
      (0 ≤ (r.rdi.setWidth 32 : CInt).toInt → ∃ h, (W past).passed (r.rdi.setWidth 32) = some h ∧ 0 ≤ h) →
      Proper W H S n past m (.sys i r)
  | sock (i r op len h) : i.code = 1 → opAsked i.syscall = some op → (r.rdx.setWidth 32 : CInt).toNat = len →
      len ≤ 4096 → Own (W past) S n (r.rsi, len) → InHeap (W past).hdr (W past).region r.rsi len →
      0 ≤ (r.rdi.setWidth 32 : CInt).toInt → (W past).passed (r.rdi.setWidth 32) = some h → 0 ≤ h →
      ¬ IsLast (H.conf past) op (.register op none) → Proper W H S n past m (.sys i r)
  | badSock (i r op len) : i.code = 1 → opAsked i.syscall = some op → (r.rdx.setWidth 32 : CInt).toNat = len →
      Own (W past) S n (r.rsi, len) →
      ((r.rdi.setWidth 32 : CInt).toInt < 0 ∨ ((W past).passed (r.rdi.setWidth 32)).isSome) →
      ((r.rdi.setWidth 32 : CInt).toInt < 0 ∨ 4096 < len ∨ Private (W past).bounds r.rsi len ∧ 0 < len) →
      Proper W H S n past m (.sys i r)
  | back (idx data size fd r) : 7 ≤ idx.toNat → 0 < size → Own (W past) S n (data, size) →
      (0 ≤ fd.toInt → ((W past).passed fd).isSome) → Proper W H S n past m (.back idx data size fd r)
  | look (host serv hints res r hs ss) : CStringAt (asNat m) host.toNat hs → CStringAt (asNat m) serv.toNat ss →
      (∀ o ∈ [(host, hs.length + 1), (serv, ss.length + 1), (hints, 48), (res, 8)], Own (W past) S n o) →
      Apart (W past).localRes 8 res 8 → (∀ k p, (W past).alloc k = some p → Apart p k.toNat res 8) →
      ¬ IsLast (H.conf past) .getAddrInfo (.register .getAddrInfo none) →
      Proper W H S n past m (.look host serv hints res r)
  | other (i r) :
      ¬ (i.syscall = 2 ∨ i.syscall = 4 ∨ i.syscall = 21 ∨ i.syscall = 257 ∨ i.syscall = 49 ∨ i.syscall = 42) →
      Proper W H S n past m (.sys i r)

/-- The program makes its next `k` calls properly, whatever they are in the ideal machine. -/
def Behaves (W : Worlds) (H : Host) (S : Word → Prop) (n : Nat) (P : Program) (k : Nat) (t : Ideal) : Prop :=
  ∀ j t', j < k → Steps W H S n P j t t' → Proper W H S n t'.past (P t'.mem t'.regs).1 (P t'.mem t'.regs).2

/-! ### Theorems -/

/-- **C93, every call on a path means something.** -/
theorem meant_total (hist : List Export) (k : Kernel) (recv : Int → BitVec 32) (s : List Byte) (want : Want)
    (hk : ∀ l op, k (plain l) (plainOp op) = k l op) :
    ∃ ans log, Meant hist k recv s want ans log ∧ plain log = log := by
  have hpp : ∀ l, plain (plain l) = plain l := by
    intro l
    simp only [plain, List.map_map]
    apply List.map_congr_left
    intro e _
    simp only [Function.comp]
    cases e.op <;> rfl
  suffices h : ∃ ans log, Meant hist k recv s want ans log by
    obtain ⟨ans, log, h⟩ := h
    exact ⟨ans, plain log, meant_plain hk h, hpp log⟩
  cases hr : Path.Spec.resolve [] (cut s) with
  | none => exact ⟨_, _, .climbs want hr⟩
  | some names =>
    by_cases ha : ∃ h rest, Answers (specHistory hist) names h rest
    · obtain ⟨h, rest, ha⟩ := ha
      cases want with
      | open_ flags mode =>
        by_cases hrest : rest = []
        · subst hrest
          exact ⟨_, _, .openFile names h flags mode hr ha⟩
        · exact ⟨_, _, .openBeneath names h rest flags mode hr ha hrest⟩
      | access mode =>
        by_cases hn : (k [] (EndToEnd.nameOp h rest)).1 < 0
        · exact ⟨_, _, .accessNone names h rest mode hr ha hn⟩
        · exact ⟨_, _, .accessSome names h rest mode _ _ hr ha rfl (by omega) rfl⟩
      | stat =>
        by_cases hrest : rest = []
        · subst hrest
          exact ⟨_, _, .statFile names h 0 hr ha⟩
        · by_cases hn : (k [] (EndToEnd.nameOp h rest)).1 < 0
          · exact ⟨_, _, .statNone names h rest hr ha hrest hn⟩
          · exact ⟨_, _, .statSome names h rest _ _ 0 hr ha hrest rfl (by omega) rfl⟩
    · exact ⟨_, _, .absent want names hr fun h rest hh => ha ⟨h, rest, hh⟩⟩

theorem chosen_total {conf : List Config} {op : Op} (h : ¬ IsLast conf op (.register op none)) : ∃ f, Chosen conf op f := by
  rcases NetEnd.last_or_untouched conf op with hu | ⟨c, hc⟩
  · exact ⟨_, .untouched hu⟩
  · obtain ⟨_, _, _, ht, _⟩ := id hc
    cases c with
    | deny o => cases ht; exact ⟨_, .denied hc⟩
    | allow o => cases ht; exact ⟨_, .allowed hc⟩
    | register o f =>
      cases ht
      cases f with
      | none => exact absurd hc h
      | some f => exact ⟨_, .handled f hc⟩

theorem chosen_unique {conf : List Config} {op : Op} {f g : Option Callee} (hf : Chosen conf op f)
    (hg : Chosen conf op g) : f = g := by
  have h1 := NetEnd.invoke_chosen hf (fun _ _ => (0, 0)) ⟨0, [], 0⟩
  have h2 := NetEnd.invoke_chosen hg (fun _ _ => (0, 0)) ⟨0, [], 0⟩
  rw [h1] at h2
  cases f <;> cases g <;> simp_all

theorem registered_unique {users : List Nat} {u v : Nat} {idx : CInt} (hu : Registered users u idx)
    (hv : Registered users v idx) : u = v := by
  obtain ⟨i, h1, h2⟩ := hu
  obtain ⟨j, h3, h4⟩ := hv
  have : i = j := by omega
  subst this
  exact Option.some.inj (h1.symm.trans h3)

theorem registered_not_unused {users : List Nat} (hl : users.length + 7 < 2 ^ 31) {u : Nat} {idx : CInt}
    (hu : Registered users u idx) : ¬ Unused users idx := by
  obtain ⟨i, h1, h2⟩ := hu
  have hi : i < users.length := (List.getElem?_eq_some_iff.1 h1).1
  unfold Unused
  rw [BitVec.toInt_eq_toNat_cond]
  split <;> omega

theorem arrives_unique {w : UserEnd.World} {fd : CInt} {h h' : Int} (a : Arrives w fd h) (b : Arrives w fd h') :
    h = h' := by
  rcases a with ⟨a1, a2⟩ | ⟨a1, a2⟩ <;> rcases b with ⟨b1, b2⟩ | ⟨b1, b2⟩
  · rw [a2, b2]
  · omega
  · omega
  · exact Option.some.inj (a2.symm.trans b2)

theorem inHeap_not_private {w : World} (h : Agree w.hdr w.region w.bounds) {p : Word} {n : Nat}
    (hn : n < 2 ^ 64) (hz : 0 < n) (hp : InHeap w.hdr w.region p n) : ¬ Private w.bounds p n := by
  obtain ⟨g0, g1, g2⟩ := h
  have := (Bounds.contains_iff w.hdr w.region g0 p _).1 hp
  have e : (BitVec.ofNat 64 n).toNat = n := by simp; omega
  rw [e] at this
  rintro ⟨_, k⟩
  rw [g2] at k
  omega

theorem directory_unique {w : NetEnd.World} {dir : CInt} {a b : Int} (ha : RelEnd.Directory w dir a)
    (hb : RelEnd.Directory w dir b) : a = b := by
  have h1 := RelEnd.pass_directory ha
  rw [RelEnd.pass_directory hb] at h1
  exact (Outcome.ok.inj h1).symm

/-- **C93, a proper call does something.** -/
theorem step_total {W : Worlds} {H : Host} {S : Word → Prop} (hf : Fixed W H S) {P : Program} {n : Nat} {t : Ideal}
    (h : Proper W H S n t.past (P t.mem t.regs).1 (P t.mem t.regs).2) : ∃ t', Step W H S n P t t' := by
  have hp : P t.mem t.regs = ((P t.mem t.regs).1, (P t.mem t.regs).2) := rfl
  generalize (P t.mem t.regs).2 = a at h hp
  generalize (P t.mem t.regs).1 = m at h hp
  cases h with
  | path i r want path sb text h1 h2 h3 h4 =>
    obtain ⟨ans, log, e1, e2⟩ := meant_total (H.exports t.past) (W t.past).kernel (W t.past).recv text want
      (hf.kernel t.past)
    exact ⟨_, .path t m i r want path sb text ans log hp h1 h2 h3 h4 e1 e2⟩
  | openat i r text h1 h2 h3 h4 h5 h6 =>
    obtain ⟨ans, log, e1, e2⟩ := meant_total (H.exports t.past) (W t.past).kernel (W t.past).recv text
      (.open_ (r.rdx.setWidth 32) (r.r10.setWidth 32)) (hf.kernel t.past)
    exact ⟨_, .openat t m i r text ans log hp h1 h2 h3 h4 h5 h6 e1 e2⟩
  | rel i r text h1 h2 h3 h4 h5 h6 =>
    have hd : ∃ fd, RelEnd.Directory (W t.past).toNet (r.rdi.setWidth 32) fd := by
      by_cases hneg : (r.rdi.setWidth 32 : CInt).toInt < 0
      · exact ⟨_, .none hneg⟩
      · obtain ⟨h, e1, e2⟩ := h6 (by omega)
        exact ⟨h, .given h (by omega) e1 e2⟩
    obtain ⟨fd, hd⟩ := hd
    exact ⟨_, .rel t m i r text fd hp h1 h2 h3 h4 h5 hd⟩
  | sock i r op len h h1 h2 h3 h4 h5 h6 h7 h8 h9 h10 =>
    obtain ⟨f, hc⟩ := chosen_total h10
    exact ⟨_, .sock t m i r op f len h hp h1 h2 hc h3 h4 h5 h6 h7 h8 h9⟩
  | badSock i r op len h1 h2 h3 h4 h5 h6 => exact ⟨_, .badSock t m i r op len hp h1 h2 h3 h4 h5 h6⟩
  | back idx data size fd r h1 h2 h3 h4 =>
    have ha : ∃ h, Arrives (W t.past).toUser fd h := by
      by_cases hfd : fd.toInt < 0
      · exact ⟨-1, .inl ⟨hfd, rfl⟩⟩
      · obtain ⟨h, e⟩ := Option.isSome_iff_exists.1 (h4 (by omega))
        exact ⟨h, .inr ⟨by omega, e⟩⟩
    obtain ⟨h, ha⟩ := ha
    by_cases hlt : idx.toNat < 7 + (H.users t.past).length
    · have hu : Registered (H.users t.past) ((H.users t.past)[idx.toNat - 7]'(by omega)) idx :=
        ⟨idx.toNat - 7, List.getElem?_eq_getElem (by omega), by omega⟩
      by_cases hsz : size = ((W t.past).fns ((H.users t.past)[idx.toNat - 7]'(by omega))).size
      · exact ⟨_, .back t m idx data size fd r _ h _ hp hu hsz h3 ha rfl⟩
      · exact ⟨_, .badBack t m idx data size fd r h hp (.inr ⟨_, hu, hsz⟩) h2 h3 ha⟩
    · exact ⟨_, .badBack t m idx data size fd r h hp (.inl (.inr (by omega))) h2 h3 ha⟩
  | look host serv hints res r hs ss h1 h2 h3 h4 h5 h6 =>
    obtain ⟨f, hc⟩ := chosen_total h6
    exact ⟨_, .look t m host serv hints res r hs ss f hp h1 h2 h3 h4 h5 hc⟩
  | other i r h1 => exact ⟨_, .other t m i r hp h1⟩

theorem chosen_not_empty {conf : List Config} {op : Op} {f : Option Callee} (h : Chosen conf op f) :
    ¬ IsLast conf op (.register op none) := by
  intro hl
  have h1 := NetEnd.invoke_chosen h (fun _ (_ : Net.SockArgs) => (0, 0)) ⟨0, [], 0⟩
  have h2 := (Net.invoke_last Net.SockArgs conf op _ hl (fun _ _ => (0, 0)) ⟨0, [], 0⟩).2.2.2 rfl
  rw [h1] at h2
  simp at h2

/-- **C93, only proper calls do something.** -/
theorem step_proper {W : Worlds} {H : Host} {S : Word → Prop} (hf : Fixed W H S) {P : Program} {n : Nat} {t t' : Ideal}
    (h : Step W H S n P t t') : Proper W H S n t.past (P t.mem t.regs).1 (P t.mem t.regs).2 := by
  cases h with
  | path m i r want path sb text ans log hp h1 h2 h3 h4 =>
    rw [hp]
    exact .path i r want path sb text h1 h2 h3 h4
  | openat m i r text ans log hp h1 h2 h3 h4 h5 h6 =>
    rw [hp]
    exact .openat i r text h1 h2 h3 h4 h5 h6
  | rel m i r text fd hp h1 h2 h3 h4 h5 hd =>
    rw [hp]
    refine .rel i r text h1 h2 h3 h4 h5 fun hpos => ?_
    cases hd with
    | given h g1 g2 g3 => exact ⟨_, g2, g3⟩
    | none g => omega
  | sock m i r op f len h hp h1 h2 hc h3 h4 h5 h6 h7 h8 h9 =>
    rw [hp]
    exact .sock i r op len h h1 h2 h3 h4 h5 h6 h7 h8 h9 (chosen_not_empty hc)
  | badSock m i r op len hp h1 h2 h3 h4 h5 h6 =>
    rw [hp]
    exact .badSock i r op len h1 h2 h3 h4 h5 h6
  | back m idx data size fd r u h d hp hu hsz hobj harr hd =>
    rw [hp]
    obtain ⟨i, _, hi⟩ := hu
    refine .back idx data size fd r (by omega) (hsz ▸ (hf.setup t.past).sizes u) hobj fun hfd => ?_
    rcases harr with ⟨g, _⟩ | ⟨_, g⟩
    · omega
    · rw [g]; rfl
  | badBack m idx data size fd r h hp hbad hpos hobj harr =>
    rw [hp]
    refine .back idx data size fd r ?_ hpos hobj fun hfd => ?_
    · rcases hbad with (g | g) | ⟨u, ⟨i, _, g⟩, _⟩
      · rw [BitVec.toInt_eq_toNat_cond] at g
        split at g <;> omega
      · omega
      · omega
    · rcases harr with ⟨g, _⟩ | ⟨_, g⟩
      · omega
      · rw [g]; rfl
  | look m host serv hints res r hs ss f hp h1 h2 h3 h4 h5 hc =>
    rw [hp]
    exact .look host serv hints res r hs ss h1 h2 h3 h4 h5 (chosen_not_empty hc)
  | other m i r hp h1 =>
    rw [hp]
    exact .other i r h1

/-- **C93, a call does one thing.** -/
theorem step_unique {W : Worlds} {H : Host} {S : Word → Prop} (hf : Fixed W H S) {P : Program} {n : Nat}
    {t t1 t2 : Ideal} (h1 : Step W H S n P t t1) (h2 : Step W H S n P t t2) : t1 = t2 := by
  have hshort := (hf.setup t.past).base.base.short
  have hk := hf.kernel t.past
  have hfew := (hf.setup t.past).few
  have hag := hf.agree t.past
  cases h1 with
  | path m i r want path sb text ans log hp hcode hask hstr hobj hmeant hplain =>
    obtain ⟨_, g1, g2⟩ := asks_path hask
    cases h2 with
    | path m' i' r' want' path' sb' text' ans' log' hp' hcode' hask' hstr' hobj' hmeant' hplain' =>
      rw [hp] at hp'
      obtain ⟨rfl, rfl, rfl⟩ : m = m' ∧ i = i' ∧ r = r' := by simpa using hp'
      rw [hask] at hask'
      obtain ⟨rfl, rfl, rfl⟩ : want = want' ∧ path = path' ∧ sb = sb' := by simpa using hask'
      obtain rfl := EndToEnd.cstring_unique hstr hstr'
      obtain ⟨rfl, hl⟩ := meant_unique hshort hk hmeant hmeant'
      rw [hplain, hplain'] at hl
      rw [hl]
    | openat m' i' r' text' ans' log' hp' hcode' hnr' =>
      rw [hp] at hp'
      obtain ⟨rfl, rfl, rfl⟩ : m = m' ∧ i = i' ∧ r = r' := by simpa using hp'
      exact absurd hnr' g1
    | rel m' i' r' text' fd' hp' hcode' hnr' =>
      rw [hp] at hp'
      obtain ⟨rfl, rfl, rfl⟩ : m = m' ∧ i = i' ∧ r = r' := by simpa using hp'
      exact absurd hnr' g1
    | sock m' i' r' op' f' len' h' hp' hcode' hop' =>
      rw [hp] at hp'
      obtain ⟨rfl, rfl, rfl⟩ : m = m' ∧ i = i' ∧ r = r' := by simpa using hp'
      exact absurd (op_number hop') g2
    | badSock m' i' r' op' len' hp' hcode' hop' =>
      rw [hp] at hp'
      obtain ⟨rfl, rfl, rfl⟩ : m = m' ∧ i = i' ∧ r = r' := by simpa using hp'
      exact absurd (op_number hop') g2
    | back m' idx data size fd r' u h d hp' => rw [hp] at hp'; simp at hp'
    | badBack m' idx data size fd r' h hp' => rw [hp] at hp'; simp at hp'
    | look m' ho' se' hi' re' r' hs' ss' f' hp' => rw [hp] at hp'; simp at hp'
    | other m' i' r' hp' hnr' =>
      rw [hp] at hp'
      obtain ⟨rfl, rfl, rfl⟩ : m = m' ∧ i = i' ∧ r = r' := by simpa using hp'
      simp only [asks, abi] at hask
      repeat' split at hask
      all_goals first | contradiction | omega
  | openat m i r text ans log hp hcode hnr hstr habs hown hobj hmeant hplain =>
    cases h2 with
    | path m' i' r' want' path' sb' text' ans' log' hp' hcode' hask' =>
      rw [hp] at hp'
      obtain ⟨rfl, rfl, rfl⟩ : m = m' ∧ i = i' ∧ r = r' := by simpa using hp'
      exact absurd hnr (asks_path hask').2.1
    | openat m' i' r' text' ans' log' hp' hcode' hnr' hstr' habs' hown' hobj' hmeant' hplain' =>
      rw [hp] at hp'
      obtain ⟨rfl, rfl, rfl⟩ : m = m' ∧ i = i' ∧ r = r' := by simpa using hp'
      obtain rfl := EndToEnd.cstring_unique hstr hstr'
      obtain ⟨rfl, hl⟩ := meant_unique hshort hk hmeant hmeant'
      rw [hplain, hplain'] at hl
      rw [hl]
    | rel m' i' r' text' fd' hp' hcode' hnr' hstr' hrel' =>
      rw [hp] at hp'
      obtain ⟨rfl, rfl, rfl⟩ : m = m' ∧ i = i' ∧ r = r' := by simpa using hp'
      obtain rfl := EndToEnd.cstring_unique hstr hstr'
      exact absurd habs hrel'
    | sock m' i' r' op' f' len' h' hp' hcode' hop' =>
      rw [hp] at hp'
      obtain ⟨rfl, rfl, rfl⟩ : m = m' ∧ i = i' ∧ r = r' := by simpa using hp'
      have := op_number hop'
      omega
    | badSock m' i' r' op' len' hp' hcode' hop' =>
      rw [hp] at hp'
      obtain ⟨rfl, rfl, rfl⟩ : m = m' ∧ i = i' ∧ r = r' := by simpa using hp'
      have := op_number hop'
      omega
    | back m' idx data size fd r' u h d hp' => rw [hp] at hp'; simp at hp'
    | badBack m' idx data size fd r' h hp' => rw [hp] at hp'; simp at hp'
    | look m' ho' se' hi' re' r' hs' ss' f' hp' => rw [hp] at hp'; simp at hp'
    | other m' i' r' hp' hnr' =>
      rw [hp] at hp'
      obtain ⟨rfl, rfl, rfl⟩ : m = m' ∧ i = i' ∧ r = r' := by simpa using hp'
      omega
  | rel m i r text fd hp hcode hnr hstr hrel hobj hdir =>
    cases h2 with
    | path m' i' r' want' path' sb' text' ans' log' hp' hcode' hask' =>
      rw [hp] at hp'
      obtain ⟨rfl, rfl, rfl⟩ : m = m' ∧ i = i' ∧ r = r' := by simpa using hp'
      exact absurd hnr (asks_path hask').2.1
    | openat m' i' r' text' ans' log' hp' hcode' hnr' hstr' habs' =>
      rw [hp] at hp'
      obtain ⟨rfl, rfl, rfl⟩ : m = m' ∧ i = i' ∧ r = r' := by simpa using hp'
      obtain rfl := EndToEnd.cstring_unique hstr hstr'
      exact absurd habs' hrel
    | rel m' i' r' text' fd' hp' hcode' hnr' hstr' hrel' hobj' hdir' =>
      rw [hp] at hp'
      obtain ⟨rfl, rfl, rfl⟩ : m = m' ∧ i = i' ∧ r = r' := by simpa using hp'
      obtain rfl := EndToEnd.cstring_unique hstr hstr'
      obtain rfl := directory_unique hdir hdir'
      rfl
    | sock m' i' r' op' f' len' h' hp' hcode' hop' =>
      rw [hp] at hp'
      obtain ⟨rfl, rfl, rfl⟩ : m = m' ∧ i = i' ∧ r = r' := by simpa using hp'
      have := op_number hop'
      omega
    | badSock m' i' r' op' len' hp' hcode' hop' =>
      rw [hp] at hp'
      obtain ⟨rfl, rfl, rfl⟩ : m = m' ∧ i = i' ∧ r = r' := by simpa using hp'
      have := op_number hop'
      omega
    | back m' idx data size fd r' u h d hp' => rw [hp] at hp'; simp at hp'
    | badBack m' idx data size fd r' h hp' => rw [hp] at hp'; simp at hp'
    | look m' ho' se' hi' re' r' hs' ss' f' hp' => rw [hp] at hp'; simp at hp'
    | other m' i' r' hp' hnr' =>
      rw [hp] at hp'
      obtain ⟨rfl, rfl, rfl⟩ : m = m' ∧ i = i' ∧ r = r' := by simpa using hp'
      omega
  | sock m i r op f len h hp hcode hop hch hlen hmax hobj hheap hsock hpass hh =>
    have hnum := op_number hop
    cases h2 with
    | path m' i' r' want' path' sb' text' ans' log' hp' hcode' hask' =>
      rw [hp] at hp'
      obtain ⟨rfl, rfl, rfl⟩ : m = m' ∧ i = i' ∧ r = r' := by simpa using hp'
      exact absurd hnum (asks_path hask').2.2
    | openat m' i' r' text' ans' log' hp' hcode' hnr' =>
      rw [hp] at hp'
      obtain ⟨rfl, rfl, rfl⟩ : m = m' ∧ i = i' ∧ r = r' := by simpa using hp'
      omega
    | rel m' i' r' text' fd' hp' hcode' hnr' =>
      rw [hp] at hp'
      obtain ⟨rfl, rfl, rfl⟩ : m = m' ∧ i = i' ∧ r = r' := by simpa using hp'
      omega
    | sock m' i' r' op' f' len' h' hp' hcode' hop' hch' hlen' hmax' hobj' hheap' hsock' hpass' =>
      rw [hp] at hp'
      obtain ⟨rfl, rfl, rfl⟩ : m = m' ∧ i = i' ∧ r = r' := by simpa using hp'
      obtain rfl := Option.some.inj (hop.symm.trans hop')
      obtain rfl := chosen_unique hch hch'
      obtain rfl := Option.some.inj (hpass.symm.trans hpass')
      subst hlen hlen'
      rfl
    | badSock m' i' r' op' len' hp' hcode' hop' hlen' hobj' hs' hbad' =>
      rw [hp] at hp'
      obtain ⟨rfl, rfl, rfl⟩ : m = m' ∧ i = i' ∧ r = r' := by simpa using hp'
      subst hlen hlen'
      rcases hbad' with g | g | ⟨g, gz⟩
      · omega
      · omega
      · exact absurd g (inHeap_not_private hag (by have := hobj.2.1; simp only at this; omega) gz hheap)
    | back m' idx data size fd r' u h d hp' => rw [hp] at hp'; simp at hp'
    | badBack m' idx data size fd r' h hp' => rw [hp] at hp'; simp at hp'
    | look m' ho' se' hi' re' r' hs' ss' f' hp' => rw [hp] at hp'; simp at hp'
    | other m' i' r' hp' hnr' =>
      rw [hp] at hp'
      obtain ⟨rfl, rfl, rfl⟩ : m = m' ∧ i = i' ∧ r = r' := by simpa using hp'
      omega
  | badSock m i r op len hp hcode hop hlen hobj hs hbad =>
    have hnum := op_number hop
    cases h2 with
    | path m' i' r' want' path' sb' text' ans' log' hp' hcode' hask' =>
      rw [hp] at hp'
      obtain ⟨rfl, rfl, rfl⟩ : m = m' ∧ i = i' ∧ r = r' := by simpa using hp'
      exact absurd hnum (asks_path hask').2.2
    | openat m' i' r' text' ans' log' hp' hcode' hnr' =>
      rw [hp] at hp'
      obtain ⟨rfl, rfl, rfl⟩ : m = m' ∧ i = i' ∧ r = r' := by simpa using hp'
      omega
    | rel m' i' r' text' fd' hp' hcode' hnr' =>
      rw [hp] at hp'
      obtain ⟨rfl, rfl, rfl⟩ : m = m' ∧ i = i' ∧ r = r' := by simpa using hp'
      omega
    | sock m' i' r' op' f' len' h' hp' hcode' hop' hch' hlen' hmax' hobj' hheap' hsock' hpass' =>
      rw [hp] at hp'
      obtain ⟨rfl, rfl, rfl⟩ : m = m' ∧ i = i' ∧ r = r' := by simpa using hp'
      subst hlen hlen'
      rcases hbad with g | g | ⟨g, gz⟩
      · omega
      · omega
      · exact absurd g (inHeap_not_private hag (by have := hobj.2.1; simp only at this; omega) gz hheap')
    | badSock m' i' r' op' len' hp' hcode' hop' hlen' hobj' hs' hbad' =>
      rw [hp] at hp'
      obtain ⟨rfl, rfl, rfl⟩ : m = m' ∧ i = i' ∧ r = r' := by simpa using hp'
      rfl
    | back m' idx data size fd r' u h d hp' => rw [hp] at hp'; simp at hp'
    | badBack m' idx data size fd r' h hp' => rw [hp] at hp'; simp at hp'
    | look m' ho' se' hi' re' r' hs' ss' f' hp' => rw [hp] at hp'; simp at hp'
    | other m' i' r' hp' hnr' =>
      rw [hp] at hp'
      obtain ⟨rfl, rfl, rfl⟩ : m = m' ∧ i = i' ∧ r = r' := by simpa using hp'
      omega
  | back m idx data size fd r u h d hp hu hsz hobj harr hd =>
    cases h2 with
    | back m' idx' data' size' fd' r' u' h' d' hp' hu' hsz' hobj' harr' hd' =>
      rw [hp] at hp'
      obtain ⟨rfl, rfl, rfl, rfl, rfl, rfl⟩ :
        m = m' ∧ idx = idx' ∧ data = data' ∧ size = size' ∧ fd = fd' ∧ r = r' := by simpa using hp'
      obtain rfl := registered_unique hu hu'
      obtain rfl := arrives_unique harr harr'
      rw [hd, hd']
    | badBack m' idx' data' size' fd' r' h' hp' hbad' hpos' hobj' harr' =>
      rw [hp] at hp'
      obtain ⟨rfl, rfl, rfl, rfl, rfl, rfl⟩ :
        m = m' ∧ idx = idx' ∧ data = data' ∧ size = size' ∧ fd = fd' ∧ r = r' := by simpa using hp'
      rcases hbad' with g | ⟨u', g1, g2⟩
      · exact absurd g (registered_not_unused hfew hu)
      · obtain rfl := registered_unique hu g1
        exact absurd hsz g2
    | path m' i' r' want' path' sb' text' ans' log' hp' => rw [hp] at hp'; simp at hp'
    | openat m' i' r' text' ans' log' hp' => rw [hp] at hp'; simp at hp'
    | rel m' i' r' text' fd' hp' => rw [hp] at hp'; simp at hp'
    | sock m' i' r' op' f' len' h' hp' => rw [hp] at hp'; simp at hp'
    | badSock m' i' r' op' len' hp' => rw [hp] at hp'; simp at hp'
    | look m' ho' se' hi' re' r' hs' ss' f' hp' => rw [hp] at hp'; simp at hp'
    | other m' i' r' hp' => rw [hp] at hp'; simp at hp'
  | badBack m idx data size fd r h hp hbad hpos hobj harr =>
    cases h2 with
    | back m' idx' data' size' fd' r' u' h' d' hp' hu' hsz' hobj' harr' hd' =>
      rw [hp] at hp'
      obtain ⟨rfl, rfl, rfl, rfl, rfl, rfl⟩ :
        m = m' ∧ idx = idx' ∧ data = data' ∧ size = size' ∧ fd = fd' ∧ r = r' := by simpa using hp'
      rcases hbad with g | ⟨u', g1, g2⟩
      · exact absurd g (registered_not_unused hfew hu')
      · obtain rfl := registered_unique hu' g1
        exact absurd hsz' g2
    | badBack m' idx' data' size' fd' r' h' hp' hbad' hpos' hobj' harr' =>
      rw [hp] at hp'
      obtain ⟨rfl, rfl, rfl, rfl, rfl, rfl⟩ :
        m = m' ∧ idx = idx' ∧ data = data' ∧ size = size' ∧ fd = fd' ∧ r = r' := by simpa using hp'
      rfl
    | path m' i' r' want' path' sb' text' ans' log' hp' => rw [hp] at hp'; simp at hp'
    | openat m' i' r' text' ans' log' hp' => rw [hp] at hp'; simp at hp'
    | rel m' i' r' text' fd' hp' => rw [hp] at hp'; simp at hp'
    | sock m' i' r' op' f' len' h' hp' => rw [hp] at hp'; simp at hp'
    | badSock m' i' r' op' len' hp' => rw [hp] at hp'; simp at hp'
    | look m' ho' se' hi' re' r' hs' ss' f' hp' => rw [hp] at hp'; simp at hp'
    | other m' i' r' hp' => rw [hp] at hp'; simp at hp'
  | look m host serv hints res r hs ss f hp hhost hserv hobj hap hall hch =>
    cases h2 with
    | look m' host' serv' hints' res' r' hs' ss' f' hp' hhost' hserv' hobj' hap' hall' hch' =>
      rw [hp] at hp'
      obtain ⟨rfl, rfl, rfl, rfl, rfl, rfl⟩ :
        m = m' ∧ host = host' ∧ serv = serv' ∧ hints = hints' ∧ res = res' ∧ r = r' := by simpa using hp'
      obtain rfl := EndToEnd.cstring_unique hhost hhost'
      obtain rfl := EndToEnd.cstring_unique hserv hserv'
      obtain rfl := chosen_unique hch hch'
      rfl
    | path m' i' r' want' path' sb' text' ans' log' hp' => rw [hp] at hp'; simp at hp'
    | openat m' i' r' text' ans' log' hp' => rw [hp] at hp'; simp at hp'
    | rel m' i' r' text' fd' hp' => rw [hp] at hp'; simp at hp'
    | sock m' i' r' op' f' len' h' hp' => rw [hp] at hp'; simp at hp'
    | badSock m' i' r' op' len' hp' => rw [hp] at hp'; simp at hp'
    | back m' idx data size fd r' u h d hp' => rw [hp] at hp'; simp at hp'
    | badBack m' idx data size fd r' h hp' => rw [hp] at hp'; simp at hp'
    | other m' i' r' hp' => rw [hp] at hp'; simp at hp'
  | other m i r hp hnr =>
    cases h2 with
    | path m' i' r' want' path' sb' text' ans' log' hp' hcode' hask' =>
      rw [hp] at hp'
      obtain ⟨rfl, rfl, rfl⟩ : m = m' ∧ i = i' ∧ r = r' := by simpa using hp'
      simp only [asks, abi] at hask'
      repeat' split at hask'
      all_goals first | contradiction | omega
    | openat m' i' r' text' ans' log' hp' hcode' hnr' =>
      rw [hp] at hp'
      obtain ⟨rfl, rfl, rfl⟩ : m = m' ∧ i = i' ∧ r = r' := by simpa using hp'
      omega
    | rel m' i' r' text' fd' hp' hcode' hnr' =>
      rw [hp] at hp'
      obtain ⟨rfl, rfl, rfl⟩ : m = m' ∧ i = i' ∧ r = r' := by simpa using hp'
      omega
    | sock m' i' r' op' f' len' h' hp' hcode' hop' =>
      rw [hp] at hp'
      obtain ⟨rfl, rfl, rfl⟩ : m = m' ∧ i = i' ∧ r = r' := by simpa using hp'
      have := op_number hop'
      omega
    | badSock m' i' r' op' len' hp' hcode' hop' =>
      rw [hp] at hp'
      obtain ⟨rfl, rfl, rfl⟩ : m = m' ∧ i = i' ∧ r = r' := by simpa using hp'
      have := op_number hop'
      omega
    | back m' idx data size fd r' u h d hp' => rw [hp] at hp'; simp at hp'
    | badBack m' idx data size fd r' h hp' => rw [hp] at hp'; simp at hp'
    | look m' ho' se' hi' re' r' hs' ss' f' hp' => rw [hp] at hp'; simp at hp'
    | other m' i' r' hp' hnr' =>
      rw [hp] at hp'
      obtain ⟨rfl, rfl, rfl⟩ : m = m' ∧ i = i' ∧ r = r' := by simpa using hp'
      rfl

/-- **C93, one run.**  Whatever the program, the ideal machine runs it in one way only. -/
theorem steps_unique {W : Worlds} {H : Host} {S : Word → Prop} (hf : Fixed W H S) {P : Program} {n : Nat}
    {k : Nat} {t t1 t2 : Ideal} (h1 : Steps W H S n P k t t1) (h2 : Steps W H S n P k t t2) :
    t1 = t2 := by
  induction h1 with
  | none => cases h2; rfl
  | more k s s' s'' a b ih =>
    cases h2 with
    | more _ _ u _ a' b' =>
      obtain rfl := step_unique hf a a'
      exact ih b'

/-- **C93, as far as calls are proper.** -/
theorem steps_total {W : Worlds} {H : Host} {S : Word → Prop} (hf : Fixed W H S) {P : Program} {n k : Nat} {t : Ideal}
    (h : Behaves W H S n P k t) : ∃ t', Steps W H S n P k t t' := by
  induction k generalizing t with
  | zero => exact ⟨t, .none t⟩
  | succ k ih =>
    obtain ⟨t1, h1⟩ := step_total hf (h 0 t (by omega) (.none t))
    obtain ⟨t', h2⟩ := ih (t := t1) fun j t2 hj hs => h (j + 1) t2 (by omega) (.more _ _ _ _ h1 hs)
    exact ⟨t', .more _ _ _ _ h1 h2⟩

/-- **C93, exactly as far as calls are proper.** -/
theorem steps_iff_behaves {W : Worlds} {H : Host} {S : Word → Prop} (hf : Fixed W H S) {P : Program} {n k : Nat}
    {t : Ideal} : (∃ t', Steps W H S n P k t t') ↔ Behaves W H S n P k t := by
  refine ⟨fun ⟨t', h⟩ => ?_, steps_total hf⟩
  induction h with
  | none => exact fun j _ hj => absurd hj (by omega)
  | more k s s' s'' a b ih =>
    intro j t1 hj h1
    cases h1 with
    | none => exact step_proper hf a
    | more j' _ u _ a' b' =>
      obtain rfl := step_unique hf a a'
      exact ih ⟨_, b⟩ j' t1 (by omega) b'

/-- **C93, without the ideal machine's answers.**  If a program makes its calls properly, then there is exactly one thing
for the ideal machine to do, and the sandbox does it: nothing ends early, and program and host find and do the same. -/
theorem proper_run_transparent {W : Worlds} {H : Host} {S : Word → Prop} (hf : Fixed W H S) {P : Program}
    (hP : Blind S P) {n : Nat} (hn : 144 ≤ n ∧ n < 2 ^ 64) {live : List Word} {blocks : List (List Word)}
    (hb : ∀ b ∈ blocks, Blocks W S n live b) {s : State} {t : Ideal} (ha : Alike S live s t)
    (h : Behaves W H S n P blocks.length t) :
    ∃ s' t', run W P blocks s = .ok (some s') ∧ Alike S live s' t' ∧ Steps W H S n P blocks.length t t' ∧
      ∀ t'', Steps W H S n P blocks.length t t'' → t'' = t' := by
  obtain ⟨t', ht⟩ := steps_total hf h
  obtain ⟨s', e1, e2⟩ := run_transparent hf hP hn hb ha ht
  exact ⟨s', t', e1, e2, ht, fun t'' h' => steps_unique hf h' ht⟩

/-! ### Cases that meet the conditions -/

/-- The program of `exSteps` makes its three calls properly. -/
example : Behaves exWorlds exHost exOwn 144 exProgram 3 exStart :=
  let ⟨_, h, _⟩ := exSteps
  (steps_iff_behaves exFixed).1 ⟨_, h⟩

/-- A program whose calls are refused or not known: `connect` on the socket -1, then a callback that there is not, and then
`kill`, again and again. -/
def exOdd : Program := fun m r =>
  if r.rip = 0 then (m, .sys ⟨1, 42, 0x700⟩ ⟨42, -1, 0x19000, 16, 0, 0, 0, 0x6fe⟩)
  else if r.rip = 0x700 then (m, .back 99 0x19000 8 (-1) { r with rip := 0x900 })
  else (m, .sys ⟨1, 62, 0x900⟩ { r with rax := 62 })

/-- It makes every call properly. -/
theorem exOdd_behaves (k : Nat) : Behaves exWorlds exHost exOwn 144 exOdd k exStart := by
  intro j t _ _
  unfold exOdd
  repeat' split
  · exact .badSock _ _ .connect 16 rfl rfl rfl (exOwnBuffer (by decide)) (.inl (by decide)) (.inl (by decide))
  · exact .back _ _ _ _ _ (by decide) (by decide) (exOwnBuffer (by decide)) (fun h => absurd h (by decide))
  · exact .other _ _ (by decide)

theorem exOdd_blind : Blind exOwn exOdd := by
  intro m m' r h
  unfold exOdd
  repeat' split
  all_goals exact ⟨h, rfl⟩

/-- So it runs as long as one likes; after three calls the register for the result holds the number of `kill`, and the host
has done nothing. -/
example : ∃ s', run exWorlds exOdd (List.replicate 3 [0x18000, 0x18200, 0x18400, 0x18600, 0x18800])
    ⟨⟨EndToEnd.exChild.mem, [0x17000], []⟩, ⟨0, 0, 0, 0, 0, 0, 0, 0⟩, []⟩ = .ok (some s') ∧ s'.regs.rax = 62 ∧
    s'.past.map Event.plain = [.net [], .user [], .host []] := by
  obtain ⟨s', t', e1, e2, _, e3⟩ := proper_run_transparent exFixed exOdd_blind (by decide) (live := [0x17000])
    (blocks := List.replicate 3 [0x18000, 0x18200, 0x18400, 0x18600, 0x18800])
    (s := ⟨⟨EndToEnd.exChild.mem, [0x17000], []⟩, ⟨0, 0, 0, 0, 0, 0, 0, 0⟩, []⟩) (t := exStart)
    (fun b hb => by rw [List.eq_of_mem_replicate hb]; exact exBlocks) ⟨fun _ _ => rfl, rfl, rfl, rfl⟩ (exOdd_behaves _)
  have := e3 _ (.more _ _ _ _ (.badSock _ _ _ _ .connect 16 rfl rfl rfl rfl (exOwnBuffer (by decide)) (.inl (by decide))
      (.inl (by decide)))
    (.more _ _ _ _ (.badBack _ _ 99 0x19000 8 (-1) _ (-1) rfl (.inl (.inr (by decide))) (by decide)
      (exOwnBuffer (by decide)) (.inl ⟨by decide, rfl⟩))
    (.more _ _ _ _ (.other _ _ _ _ rfl (by decide)) (.none _))))
  subst this
  exact ⟨s', e1, by rw [e2.regs], e2.past⟩

/-- A program that opens `lib/x`, the path at `0x5001`, beneath its descriptor 7. -/
def exRel : Program := fun m r =>
  if r.rip = 0 then (m, .sys ⟨1, 257, 0x700⟩ ⟨257, 7, 0x5001, 0, 0, 0, 0, 0x6fe⟩) else (m, .stop)

theorem exRelString : CStringAt (asNat EndToEnd.exChild.mem) (0x5001 : Word).toNat (Path.txt "lib/x") := by
  have : ∀ i : Fin (Path.txt "lib/x").length,
      asNat EndToEnd.exChild.mem ((0x5001 : Word).toNat + i.val) = (Path.txt "lib/x")[i.val] ∧
        (Path.txt "lib/x")[i.val] ≠ 0 := by
    decide +kernel
  exact ⟨fun i hi => this ⟨i, hi⟩, by decide +kernel⟩

theorem exRelOwn : Own exWorld exOwn 144 (0x5001, 6) := by
  refine ⟨⟨by decide, .inr ⟨by decide, by decide⟩⟩, by decide, fun i hi h => ?_⟩
  simp only at hi h
  rw [exOwn, off_toNat 0x5001 i 0x5001 rfl (by omega)] at h
  omega

/-- The host opens it beneath its own descriptor 12 and closes that; the program finds 9, the number in the host. -/
example : ∃ s', run exWorlds exRel [[0x18000, 0x18200, 0x18400, 0x18600, 0x18800]]
    ⟨⟨EndToEnd.exChild.mem, [0x17000], []⟩, ⟨0, 0, 0, 0, 0, 0, 0, 0⟩, []⟩ = .ok (some s') ∧ s'.regs.rax = 9 ∧
    s'.past.map Event.plain = [.host [⟨.openat2 12 (some (Path.txt "lib/x")) 0 0 8, 9, 0⟩, ⟨.close 12, 9, 0⟩]] := by
  obtain ⟨s', e1, e2⟩ := run_transparent exFixed (P := exRel)
    (by intro m m' r h; unfold exRel; split <;> exact ⟨h, rfl⟩) (by decide) (live := [0x17000])
    (blocks := [[0x18000, 0x18200, 0x18400, 0x18600, 0x18800]])
    (s := ⟨⟨EndToEnd.exChild.mem, [0x17000], []⟩, ⟨0, 0, 0, 0, 0, 0, 0, 0⟩, []⟩) (t := exStart)
    (fun b hb => by rw [List.mem_singleton.1 hb]; exact exBlocks) ⟨fun _ _ => rfl, rfl, rfl, rfl⟩
    (.more _ _ _ _ (.rel _ _ _ _ (Path.txt "lib/x") 12 rfl rfl rfl exRelString (by decide) exRelOwn
      (.given 12 (by decide) rfl (by decide))) (.none _))
  exact ⟨s', e1, by rw [e2.regs]; rfl, e2.past⟩

/-! Lookups: the name is at `0x5000`, the empty name of the service at `0x5100`, the hints at `0x19000`. -/

/-- A program that looks a name up and then, if it is told that this succeeded, returns the second byte of the result. -/
def exLook : Program := fun m r =>
  if r.rip = 0 then (m, .look 0x5000 0x5100 0x19000 0x6000 { r with rip := 0x700 })
  else if r.rip = 0x700 ∧ r.rax = 0 then (m, .sys ⟨1, 62, 0x900⟩ { r with rax := (m 0x6001).toBitVec.setWidth 64, rip := 0x900 })
  else (m, .stop)

theorem exLookBlind : Blind exOwn exLook := by
  intro m m' r h
  have h6 : m 0x6001 = m' 0x6001 := h _ (by unfold exOwn; decide)
  simp only [exLook, h6]
  repeat' split
  all_goals exact ⟨h, rfl⟩

theorem exLookOwn (x : Byte) : ∀ o ∈ [((0x5000 : Word), [x].length + 1), (0x5100, ([] : List Byte).length + 1), (0x19000, 48),
    (0x6000, 8)], Own exWorld exOwn 144 o := by
  intro o ho
  simp only [List.length_cons, List.length_nil, List.mem_cons, List.not_mem_nil, or_false] at ho
  rcases ho with rfl | rfl | rfl | rfl
  · refine ⟨⟨by decide, .inr ⟨by decide, by decide⟩⟩, by decide, fun i hi h => ?_⟩
    simp only at hi h
    rw [exOwn, off_toNat 0x5000 i 0x5000 rfl (by omega)] at h
    omega
  · refine ⟨⟨by decide, .inr ⟨by decide, by decide⟩⟩, by decide, fun i hi h => ?_⟩
    simp only at hi h
    rw [exOwn, off_toNat 0x5100 i 0x5100 rfl (by omega)] at h
    omega
  · exact exOwnBuffer (by decide)
  · refine ⟨⟨by decide, .inr ⟨by decide, by decide⟩⟩, by decide, fun i hi h => ?_⟩
    simp only at hi h
    rw [exOwn, off_toNat 0x6000 i 0x6000 rfl (by omega)] at h
    omega

/-- What should come of the lookup. -/
def exLooked (x : Byte) : Mem × CInt × NameEnd.Calls :=
  NameEnd.looked exWorld.names (some (.system .getAddrInfo)) (NameEnd.asked (NameEnd.exChild x).mem 0x19000 [x] []) 0x6000
    (NameEnd.exChild x).mem

theorem exLookStep (x : Byte) (hx : x ≠ 0) : Step exWorlds exHost exOwn 144 exLook
    ⟨(NameEnd.exChild x).mem, ⟨0, 0, 0, 0, 0, 0, 0, 0⟩, []⟩
    ⟨(exLooked x).1, ⟨(exLooked x).2.1.setWidth 64, 0, 0, 0, 0, 0, 0, 0x700⟩, [.look (exLooked x).2.2]⟩ :=
  .look _ (NameEnd.exChild x).mem 0x5000 0x5100 0x19000 0x6000 ⟨0, 0, 0, 0, 0, 0, 0, 0x700⟩ [x] []
    (some (.system .getAddrInfo)) rfl (NameEnd.exReady x hx).hostText (NameEnd.exReady x hx).servText (exLookOwn x)
    (EndToEnd.apart_of_gt (a := 0x7000) (b := 0x6000) (by decide) (by decide))
    (by
      intro k p hp i j hi hj e
      simp only [exWorlds, exWorld, NameEnd.exWorld] at hp
      split at hp
      · rename_i hk
        simp only [Option.some.injEq] at hp
        subst hp
        have := congrArg BitVec.toNat e
        rw [off_toNat _ i 0x1a000 rfl (by omega), off_toNat _ j 0x6000 rfl (by omega)] at this
        omega
      · cases hp)
    (.allowed ⟨NetEnd.exConf, [], rfl, rfl, nofun⟩)

/-- So the call is proper, whatever the name. -/
example (x : Byte) (hx : x ≠ 0) :
    Behaves exWorlds exHost exOwn 144 exLook 1 ⟨(NameEnd.exChild x).mem, ⟨0, 0, 0, 0, 0, 0, 0, 0⟩, []⟩ :=
  (steps_iff_behaves exFixed).1 ⟨_, .more _ _ _ _ (exLookStep x hx) (.none _)⟩

/-- The name `h` is known: the program finds the address `0x1a000` of the list, of which it returns the second byte. -/
example : ∃ s', run exWorlds exLook (List.replicate 2 [0x18000, 0x18200, 0x18400, 0x18600, 0x18800])
    ⟨⟨(NameEnd.exChild 104).mem, [0x17000], []⟩, ⟨0, 0, 0, 0, 0, 0, 0, 0⟩, []⟩ = .ok (some s') ∧ s'.regs.rax = 0xa0 ∧
    s'.past.map Event.plain = [.look [(.system .getAddrInfo, ⟨some [104], some [], some (0, 2, 0, 0)⟩)], .host []] := by
  have h1 : ((exLooked 104).2.1.setWidth 64 : Word) = 0 := by decide +kernel
  have h2 : (exLooked 104).1 0x6001 = 0xa0 := by decide +kernel
  have h3 : (exLooked 104).2.2 = [(.system .getAddrInfo, ⟨some [104], some [], some (0, 2, 0, 0)⟩)] := by decide +kernel
  have hs := exLookStep 104 (by decide)
  rw [h1, h3] at hs
  have h4 : exLook (exLooked 104).1 ⟨0, 0, 0, 0, 0, 0, 0, 0x700⟩ =
      ((exLooked 104).1, .sys ⟨1, 62, 0x900⟩ ⟨0xa0, 0, 0, 0, 0, 0, 0, 0x900⟩) := by
    simp only [exLook, h2, if_neg (by decide : ¬ (0x700 : Word) = 0), and_self, if_true]
    rfl
  obtain ⟨s', e1, e2⟩ := run_transparent exFixed exLookBlind (by decide) (live := [0x17000])
    (blocks := List.replicate 2 [0x18000, 0x18200, 0x18400, 0x18600, 0x18800])
    (s := ⟨⟨(NameEnd.exChild 104).mem, [0x17000], []⟩, ⟨0, 0, 0, 0, 0, 0, 0, 0⟩, []⟩)
    (fun b hb => by rw [List.eq_of_mem_replicate hb]; exact exBlocks) ⟨fun _ _ => rfl, rfl, rfl, rfl⟩
    (.more _ _ _ _ hs (.more _ _ _ _ (.other _ _ _ _ h4 (by decide)) (.none _)))
  exact ⟨s', e1, by rw [e2.regs], e2.past⟩

end Verif.Run
