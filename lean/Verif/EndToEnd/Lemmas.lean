import Verif.EndToEnd.Model
import Verif.EndToEnd.Spec
import Verif.PathSyscall.Props
import Verif.ChildArgs.Props
import Verif.Syscall.Props
import Verif.Callback.Props

/-!
# End to end: lemmas
-/

namespace Verif.EndToEnd

open Verif.Bounds (Region contains contains_iff)
open Verif.Strings Verif.Strings.Spec
open Verif.FileTree Verif.FileTree.Spec
open Verif.Callback (Handler Packet Event Result tableOf invoke_copies copyAddrs copyAddrs_get copyAddrs_length dispatch_tableOf)
open Verif.PathSyscall Verif.PathSyscall.Spec
open Verif.ChildArgs (Bounds Child Wrapped wrapPtr wrapCStr unwrap bytesAt Apart InHeap Object blit dupBytes_ok Fresh inside_in_heap blit_bytes blit_else)
open Verif.Syscall (CInt Regs Info Arg Reply Answer Arrives)

/-! ### Numbers as bytes -/

theorem le_length (n v : Nat) : (le n v).length = n := by simp [le]

theorem le_succ (n v : Nat) : le (n + 1) v = UInt8.ofNat (v % 256) :: le n (v / 256) := by
  unfold le
  rw [List.range_succ_eq_map]
  simp only [List.map_cons, List.map_map, Nat.pow_zero, Nat.div_one]
  congr 1
  apply List.map_congr_left
  intro i _
  simp only [Function.comp_apply, Nat.pow_succ, Nat.div_div_eq_div_mul, Nat.mul_comm]

theorem ofLe_le (n v : Nat) (h : v < 256 ^ n) : ofLe (le n v) = v := by
  induction n generalizing v with
  | zero =>
    simp at h
    subst h
    rfl
  | succ n ih =>
    rw [le_succ, ofLe, ih]
    · have : (UInt8.ofNat (v % 256)).toNat = v % 256 := by
        rw [UInt8.toNat_ofNat']
        omega
      rw [this]
      omega
    · rw [Nat.pow_succ] at h
      exact Nat.div_lt_of_lt_mul (by omega)

theorem ofLe_le64 (v : Word) : BitVec.ofNat 64 (ofLe (le 8 v.toNat)) = v := by
  rw [ofLe_le 8 _ (by have := v.isLt; omega)]
  simp

theorem ofLe_le32 (v : BitVec 32) : BitVec.ofNat 32 (ofLe (le 4 v.toNat)) = v := by
  rw [ofLe_le 4 _ (by have := v.isLt; omega)]
  simp

theorem encode_length (pad : List Byte) (hp : pad.length = 4) (c : Call) : (encode pad c).length = 16 := by
  cases c <;> simp [encode, le_length, hp]

theorem decode_encode (pad : List Byte) (hp : pad.length = 4) (c : Call) :
    decode (kindOf c) (encode pad c) = some c := by
  have h4 : ∀ v, (le 4 v).length = 4 := le_length 4
  have h8 : ∀ v, (le 8 v).length = 8 := le_length 8
  cases c with
  | open_ a flags mode =>
    have e1 : ((le 4 mode.toNat ++ le 4 flags.toNat ++ le 8 a.toNat).drop 8) = le 8 a.toNat :=
      List.drop_left' (by simp [h4])
    have e2 : ((le 4 mode.toNat ++ le 4 flags.toNat ++ le 8 a.toNat).drop 4).take 4 = le 4 flags.toNat := by
      rw [List.append_assoc, List.drop_left' (h4 _), List.take_left' (h4 _)]
    have e3 : (le 4 mode.toNat ++ le 4 flags.toNat ++ le 8 a.toNat).take 4 = le 4 mode.toNat := by
      rw [List.append_assoc, List.take_left' (h4 _)]
    simp only [kindOf, encode, decode, e1, e2, e3, ofLe_le64, ofLe_le32]
  | access a mode =>
    have e1 : ((le 4 mode.toNat ++ pad ++ le 8 a.toNat).drop 8) = le 8 a.toNat :=
      List.drop_left' (by simp [h4, hp])
    have e3 : (le 4 mode.toNat ++ pad ++ le 8 a.toNat).take 4 = le 4 mode.toNat := by
      rw [List.append_assoc, List.take_left' (h4 _)]
    simp only [kindOf, encode, decode, e1, e3, ofLe_le64, ofLe_le32]
  | stat a sb =>
    have e1 : ((le 8 sb.toNat ++ le 8 a.toNat).drop 8) = le 8 a.toNat := List.drop_left' (h8 _)
    have e3 : (le 8 sb.toNat ++ le 8 a.toNat).take 8 = le 8 sb.toNat := List.take_left' (h8 _)
    simp only [kindOf, encode, decode, e1, e3, ofLe_le64]

/-! ### Memory -/

/-- The address lies in none of the areas. -/
def Outside (areas : List (Word × Nat)) (x : Word) : Prop :=
  ∀ a ∈ areas, ∀ i : Nat, i < a.2 → x ≠ a.1 + BitVec.ofNat 64 i

theorem bytesAt_congr {m m' : Mem} {a : Word} {n : Nat}
    (h : ∀ i, i < n → m' (a + BitVec.ofNat 64 i) = m (a + BitVec.ofNat 64 i)) :
    bytesAt m' a n = bytesAt m a n :=
  List.map_congr_left fun i hi => h i (List.mem_range.1 hi)

theorem bytesAt_get {m : Mem} {a : Word} {n : Nat} (i : Nat) (hi : i < (bytesAt m a n).length) :
    (bytesAt m a n)[i] = m (a + BitVec.ofNat 64 i) := by
  simp [bytesAt]

theorem bytesAt_length (m : Mem) (a : Word) (n : Nat) : (bytesAt m a n).length = n := by simp [bytesAt]

theorem bytesAt_eq_get {m m' : Mem} {a b : Word} {n : Nat} (h : bytesAt m' a n = bytesAt m b n) (i : Nat)
    (hi : i < n) : m' (a + BitVec.ofNat 64 i) = m (b + BitVec.ofNat 64 i) := by
  have h1 := bytesAt_get (m := m') (a := a) (n := n) i (by simpa [bytesAt] using hi)
  have h2 := bytesAt_get (m := m) (a := b) (n := n) i (by simpa [bytesAt] using hi)
  rw [← h1, ← h2]
  simp only [h]

theorem bytesAt_write (m : Mem) (a : Word) (bs : List Byte) (h : bs.length < 2 ^ 64) :
    bytesAt (writeBytes m a bs) a bs.length = bs := by
  apply List.ext_getElem (by simp [bytesAt])
  intro i h1 h2
  rw [bytesAt_get]
  exact writeBytes_in m a bs h i h2

theorem copy_bytes (m : Mem) (a : Word) (n : Nat) : (copyAddrs a n).map m = bytesAt m a n := by
  apply List.ext_getElem (by simp [bytesAt, copyAddrs_length])
  intro i h1 h2
  rw [bytesAt_get]
  simp only [List.getElem_map, copyAddrs_get]

/-- An argument wrapper, in both cases: what it gives, what it does to the child. -/
theorem wrap_spec {hdr : Word} {r : Region} {b : Bounds} {c : Child} {orig p : Word} {ps : List Word} {n : Nat}
    (hn : 0 < n) (hn' : n < 2 ^ 64) (ho : Object hdr r b orig n) (hm : c.mallocs = p :: ps)
    (hp : InHeap hdr r p n) :
    ∃ a c1, wrapPtr b c orig n = .ok (a, c1) ∧ InHeap hdr r a.arg n ∧
      bytesAt c1.mem a.arg n = bytesAt c.mem orig n ∧
      ((a = ⟨orig, none⟩ ∧ c1 = c) ∨
       (a = ⟨orig, some p⟩ ∧ c1 = ⟨blit c.mem p orig n, p :: c.live, ps⟩)) := by
  by_cases hi : ChildArgs.inside b orig 1
  · exact ⟨⟨orig, none⟩, c, by rw [wrapPtr, if_pos hi],
      inside_in_heap ho (k := 1) (by omega) (by omega) hi, rfl, Or.inl ⟨rfl, rfl⟩⟩
  · refine ⟨⟨orig, some p⟩, ⟨blit c.mem p orig n, p :: c.live, ps⟩, ?_, hp, ?_, Or.inr ⟨rfl, rfl⟩⟩
    · rw [wrapPtr, if_neg hi, ChildArgs.dupBytes, if_neg ho.1, hm]
    · exact blit_bytes _ _ _ _ hn'

/-! ### The host's side -/

/-- What is fixed about the two processes: the sandbox is well formed, both agree on it, the host has made the
exports `hist` and registered the handlers `users` besides the built-in ones. -/
structure Setup (w : World) (hist : List Export) (users : List Nat) : Prop where
  wf : w.region.WF w.hdr
  short : ShortPaths hist
  tree : w.tree = runHistory hist
  mallocOk : MallocOk w.malloc
  mallocTotal : MallocTotal w.malloc
  table : w.table = (tableOf users).handlers
  pad : w.pad.length = 4
  kernel : KernelOk w.kernel
  recv : ∀ f, 0 ≤ f → (w.recv f).toNat < 2 ^ 31
  stat : ∀ l, (w.statBytes l).length = 144

theorem textOf_snoc (s : List Byte) (h : (0 : Byte) ∉ s) : textOf (s ++ [0]) = s := by
  rw [← cText_eq_textOf]
  induction s with
  | nil => rfl
  | cons x xs ih =>
    simp only [List.mem_cons, not_or] at h
    simp only [List.cons_append, cText]
    rw [if_neg (fun e => h.1 e.symm), ih h.2]

theorem cstring_unique {m : Nat → Byte} {a : Nat} {s t : List Byte} (hs : CStringAt m a s)
    (ht : CStringAt m a t) : s = t := by
  have hl : s.length = t.length := by
    rcases Nat.lt_trichotomy s.length t.length with h | h | h
    · have := ht.1 _ h
      rw [hs.2] at this
      exact absurd this.1.symm this.2
    · exact h
    · have := hs.1 _ h
      rw [ht.2] at this
      exact absurd this.1.symm this.2
  apply List.ext_getElem hl
  intro i h1 h2
  rw [← (hs.1 i h1).1, ← (ht.1 i h2).1]

/-- The path that the host reads is the string that is there. -/
theorem getPath_string {w : World} {hist : List Export} {users : List Nat} (hw : Setup w hist users) (m : Mem)
    (a : Word) (s : List Byte) (hin : InHeap w.hdr w.region a (s.length + 1)) (hn : s.length + 1 < 2 ^ 64)
    (hs : CStringAt (asNat m) a.toNat s) : getPath (w.env m) a = .ok (some (s ++ [0])) := by
  have hr := (contains_iff w.hdr w.region hw.wf a _).1 hin
  have hsz : (BitVec.ofNat 64 (s.length + 1)).toNat = s.length + 1 := by simp; omega
  rw [hsz] at hr
  simp only [getPath, World.env]
  rcases strdupOut_safe w.hdr w.region w.malloc hw.mallocOk hw.mallocTotal m m a with h | ⟨b, h, _⟩
  · rw [strdupOut_null_iff w.hdr w.region hw.wf w.malloc hw.mallocOk hw.mallocTotal] at h
    exfalso
    rcases h with h | h
    · omega
    · exact h (a.toNat + s.length) (by omega) (by omega) hs.2
  · rw [h]
    obtain ⟨t, ht, hc⟩ := strdupOut_faithful w.hdr w.region w.malloc hw.mallocOk m a b h
    rw [ht, cstring_unique hs hc]

/-- The path handlers with their arguments taken apart (`Want` and the places of the path and of the buffer). -/
def callOf (a sb : Word) : Want → Call
  | .open_ flags mode => .open_ a flags mode
  | .access mode => .access a mode
  | .stat => .stat a sb

theorem arrives_error {w : World} (e : Nat) : Arrives (.error e) (reply w (-(e : Int)) (-1)) := by
  simp [Arrives, reply]

theorem arrives_int {w : World} (r : Int × Int) (h : r.1 < 0 → 0 < r.2) (i : Int)
    (hi : i = if 0 ≤ r.1 then r.1 else -r.2) : Arrives (intAnswer r) (reply w i (-1)) := by
  unfold intAnswer
  by_cases h0 : 0 ≤ r.1
  · rw [if_pos h0] at hi ⊢
    subst hi
    simp only [Arrives, reply]
    refine ⟨rfl, ?_⟩
    obtain ⟨n, hn⟩ := Int.eq_ofNat_of_zero_le h0
    rw [hn]
    simp
  · rw [if_neg h0] at hi ⊢
    subst hi
    have : ((r.2.toNat : Nat) : Int) = r.2 := by have := h (by omega); omega
    simp only [Arrives, reply]
    exact ⟨rfl, by rw [this]⟩

theorem proper_int {r : Int × Int} (h1 : 0 ≤ r.1 → r.1 < 2 ^ 31) (h2 : r.1 < 0 → 0 < r.2 ∧ r.2 < 4096) :
    (intAnswer r).Proper := by
  unfold intAnswer
  split
  · rename_i h
    have := h1 h
    simp only [Answer.Proper]
    omega
  · have := h2 (by omega)
    simp only [Answer.Proper]
    omega

/-- The handlers do what is meant. -/
theorem serve_meant {w : World} {hist : List Export} {users : List Nat} (hw : Setup w hist users) (m : Mem)
    (a sb : Word) (s : List Byte) (h0 : (0 : Byte) ∉ s) (hp : getPath (w.env m) a = .ok (some (s ++ [0])))
    (want : Want) (hsb : want = .stat → InHeap w.hdr w.region sb 144) :
    ∃ res log ans, serve (w.env m) (callOf a sb want) = .ok (res, log) ∧
      Meant hist w.kernel w.recv s want ans log ∧ ans.Proper ∧ Arrives ans (reply w res.integer res.handle) ∧
      (∀ e ∈ log, ∀ x, statTarget e = some x → want = .stat ∧ x = sb) ∧
      (want = .stat → ((∃ n, ans = .value n) ↔ ∃ e ∈ log, statTarget e = some sb)) := by
  have hk := hw.kernel
  have eq := handlePath_eq (w.env m) hist hw.short hw.tree a _ hp
  rw [textOf_snoc s h0] at eq
  cases hres : Path.Spec.resolve [] (cut s) with
  | none =>
    refine ⟨⟨-22, -1⟩, [], .error 22, ?_, .climbs _ hres, by simp [Answer.Proper], arrives_error 22, by simp, by simp⟩
    cases want <;> exact (eq _).1 hres
  | some names =>
    by_cases hall : ∀ h rest, ¬ Answers (specHistory hist) names h rest
    · refine ⟨⟨-2, -1⟩, [], .error 2, ?_, .absent _ names hres hall, by simp [Answer.Proper], arrives_error 2, by simp, by simp⟩
      cases want <;> exact ((eq _).2 names hres).1 hall
    · have : ∃ h rest, Answers (specHistory hist) names h rest :=
        Classical.byContradiction fun hc => hall fun h rest ha => hc ⟨h, rest, ha⟩
      obtain ⟨h, rest, ha⟩ := this
      obtain ⟨e, he, h1, h2, h3⟩ := answers_export hist names h rest ha
      have hsafe := resolve_safe s h0 names hres
      have hrest : ∀ n ∈ rest, SafeName n := fun n hr => hsafe n (by rw [h2]; simp [hr])
      have htail := tailText_eq rest hrest
      have hfd : ∀ r : Int × Int, (0 ≤ r.1 → r.1 < 2 ^ 31) → (r.1 < 0 → 0 < r.2 ∧ r.2 < 4096) →
          (fdAnswer w.recv r).Proper ∧
            Arrives (fdAnswer w.recv r) (reply w (returnFd r).integer (returnFd r).handle) := by
        intro r k1 k2
        unfold fdAnswer returnFd
        by_cases hr : 0 ≤ r.1
        · have := hw.recv _ hr
          have hnl : ¬ r.1 < 0 := by omega
          simp only [if_pos hr, ge_iff_le, Answer.Proper, Arrives, reply, if_neg hnl]
          refine ⟨this, ?_⟩
          simp
        · have := k2 (by omega)
          simp only [if_neg hr, ge_iff_le, Answer.Proper, Arrives, reply]
          refine ⟨by omega, rfl, ?_⟩
          have : ((r.2.toNat : Nat) : Int) = r.2 := by omega
          rw [this]
      cases want with
      | open_ flags mode =>
        have hserve := ((eq (openBody (w.env m) flags mode)).2 names hres).2 h rest ha
        cases rest with
        | nil =>
          have hf := hfd _ (hk [] (.dup h)).1 (hk [] (.dup h)).2
          refine ⟨_, _, _, hserve, .openFile names h flags mode hres ha, hf.1, hf.2, ?_, by simp⟩
          intro e he x hx
          cases List.mem_singleton.1 he
          simp [statTarget] at hx
        | cons n ns =>
          have hop := hfd _ (hk [] (.openat2 h (some (join (n :: ns))) (flags.signExtend 64) (mode.setWidth 64) 8)).1
            (hk [] (.openat2 h (some (join (n :: ns))) (flags.signExtend 64) (mode.setWidth 64) 8)).2
          have hb : openBody (w.env m) flags mode h ⟨false, n :: ns⟩ =
              (returnFd (w.kernel [] (.openat2 h (some (join (n :: ns))) (flags.signExtend 64) (mode.setWidth 64) 8)),
               then_ w.kernel [] (.openat2 h (some (join (n :: ns))) (flags.signExtend 64) (mode.setWidth 64) 8)) := by
            simp only [openBody, Path.Path.isEmpty, List.isEmpty_cons, if_true, openatBeneath, sys, htail,
              resolveBeneath, then_]
            rfl
          rw [hb] at hserve
          refine ⟨_, _, _, hserve, .openBeneath names h (n :: ns) flags mode hres ha (by simp), hop.1, hop.2, ?_, by simp⟩
          intro e he x hx
          simp only [then_, List.nil_append, List.mem_singleton] at he
          subst he
          simp [statTarget] at hx
      | access mode =>
        have hserve := ((eq (accessBody (w.env m) mode)).2 names hres).2 h rest ha
        have hname : HostOp.openat2 h (if (⟨false, rest⟩ : Path.Path).isEmpty then none else some (tailText ⟨false, rest⟩))
            (oPath.signExtend 64) ((0 : BitVec 32).setWidth 64) resolveBeneath = nameOp h rest := by
          unfold nameOp
          rw [htail]
          cases rest <;> rfl
        have hbody : accessBody (w.env m) mode h ⟨false, rest⟩ =
            if (w.kernel [] (nameOp h rest)).1 < 0 then
              (⟨-(w.kernel [] (nameOp h rest)).2, -1⟩, then_ w.kernel [] (nameOp h rest))
            else
              let p := (w.kernel [] (nameOp h rest)).1
              let l := then_ w.kernel [] (nameOp h rest)
              (returnInt (w.kernel l (.faccessat2 p [] mode 0x1000)),
                then_ w.kernel (then_ w.kernel l (.faccessat2 p [] mode 0x1000)) (.close p)) := by
          simp only [accessBody, faccessatBeneath, openatBeneath, hname, sys, World.env]
          split
          · rfl
          · rfl
        rw [hbody] at hserve
        by_cases hneg : (w.kernel [] (nameOp h rest)).1 < 0
        · rw [if_pos hneg] at hserve
          have hb := (hk [] (nameOp h rest)).2 hneg
          refine ⟨_, _, _, hserve, .accessNone names h rest mode hres ha hneg, ?_, ?_, ?_, by simp⟩
          · simp only [Answer.Proper]; omega
          · have : (((w.kernel [] (nameOp h rest)).2.toNat : Nat) : Int) = (w.kernel [] (nameOp h rest)).2 := by omega
            have := arrives_error (w := w) (w.kernel [] (nameOp h rest)).2.toNat
            simpa [*] using this
          · intro e he x hx
            simp only [then_, List.nil_append, List.mem_singleton] at he
            subst he
            simp [statTarget, nameOp] at hx
        · rw [if_neg hneg] at hserve
          refine ⟨_, _, _, hserve, .accessSome names h rest mode _ _ hres ha rfl (by omega) rfl,
            proper_int (hk _ _).1 (hk _ _).2, ?_, ?_, by simp⟩
          · exact arrives_int _ (fun h => ((hk _ _).2 h).1) _ rfl
          · intro e he x hx
            simp only [then_, List.nil_append, List.mem_append, List.mem_singleton] at he
            rcases he with (rfl | rfl) | rfl <;> simp [statTarget, nameOp] at hx
      | stat =>
        have hserve := ((eq (statBody (w.env m) sb)).2 names hres).2 h rest ha
        have hc : contains (w.env m).hdr (w.env m).region sb statSize = true := hsb rfl
        simp only [statBody, hc, if_true] at hserve
        cases rest with
        | nil =>
          refine ⟨_, _, _, hserve, .statFile names h sb hres ha, proper_int (hk _ _).1 (hk _ _).2, ?_, ?_, ?_⟩
          · exact arrives_int _ (fun h => ((hk _ _).2 h).1) _ rfl
          · intro e he x hx
            simp only [Path.Path.isEmpty, List.isEmpty_nil, if_true, sys, List.nil_append, List.mem_singleton] at he
            subst he
            simp only [statTarget] at hx
            split at hx <;> simp at hx
            exact ⟨rfl, hx.symm⟩
          · intro _
            simp only [Path.Path.isEmpty, List.isEmpty_nil, if_true, sys, List.nil_append, List.mem_singleton,
              exists_eq_left, statTarget, intAnswer, World.env, ge_iff_le]
            split <;> simp
        | cons n ns =>
          have hname : HostOp.openat2 h (some (join (n :: ns)))
              (oPath.signExtend 64) ((0 : BitVec 32).setWidth 64) resolveBeneath = nameOp h (n :: ns) := rfl
          have hbody : (if (⟨false, n :: ns⟩ : Path.Path).isEmpty = true then sys (w.env m).kernel [] (.fstat h sb)
              else fstatatBeneath (w.env m).kernel [] h (some (tailText ⟨false, n :: ns⟩)) sb 0) =
              if (w.kernel [] (nameOp h (n :: ns))).1 < 0 then
                ((-1, (w.kernel [] (nameOp h (n :: ns))).2), then_ w.kernel [] (nameOp h (n :: ns)))
              else
                let p := (w.kernel [] (nameOp h (n :: ns))).1
                let l := then_ w.kernel [] (nameOp h (n :: ns))
                (w.kernel l (.fstatat p [] sb 0x1000),
                  then_ w.kernel (then_ w.kernel l (.fstatat p [] sb 0x1000)) (.close p)) := by
            simp only [Path.Path.isEmpty, List.isEmpty_cons, Bool.false_eq_true, if_false, fstatatBeneath, openatBeneath,
              htail, hname, sys, World.env]
            split <;> rfl
          rw [hbody] at hserve
          by_cases hneg : (w.kernel [] (nameOp h (n :: ns))).1 < 0
          · rw [if_pos hneg] at hserve
            have hb := (hk [] (nameOp h (n :: ns))).2 hneg
            refine ⟨_, _, _, hserve, .statNone names h _ hres ha (by simp) hneg, ?_, ?_, ?_, ?_⟩
            · simp only [Answer.Proper]; omega
            · have : (((w.kernel [] (nameOp h (n :: ns))).2.toNat : Nat) : Int) = (w.kernel [] (nameOp h (n :: ns))).2 := by omega
              have := arrives_error (w := w) (w.kernel [] (nameOp h (n :: ns))).2.toNat
              simpa [returnInt, *] using this
            · intro e he x hx
              simp only [then_, List.nil_append, List.mem_singleton] at he
              subst he
              simp [statTarget, nameOp] at hx
            · intro _
              simp [then_, statTarget, nameOp]
          · rw [if_neg hneg] at hserve
            refine ⟨_, _, _, hserve, .statSome names h _ _ _ sb hres ha (by simp) rfl (by omega) rfl,
              proper_int (hk _ _).1 (hk _ _).2, ?_, ?_, ?_⟩
            · exact arrives_int _ (fun h => ((hk _ _).2 h).1) _ rfl
            · intro e he x hx
              simp only [then_, List.nil_append, List.mem_append, List.mem_singleton] at he
              rcases he with (rfl | rfl) | rfl
              · simp [statTarget, nameOp] at hx
              · simp only [statTarget] at hx
                split at hx <;> simp at hx
                exact ⟨rfl, hx.symm⟩
              · simp [statTarget] at hx
            · intro _
              generalize hl : then_ w.kernel [] (nameOp h (n :: ns)) = l
              have hl' : ∀ e ∈ l, statTarget e = none := by
                subst hl
                simp [then_, statTarget, nameOp]
              generalize (w.kernel [] (nameOp h (n :: ns))).1 = p
              simp only [then_, List.mem_append, List.mem_singleton, intAnswer]
              constructor
              · intro hv
                refine ⟨_, Or.inl (Or.inr rfl), ?_⟩
                simp only [statTarget, ge_iff_le]
                split at hv
                · rename_i h0
                  rw [if_pos h0]
                · simp at hv
              · rintro ⟨e, (he | rfl) | rfl, hx⟩
                · rw [hl' e he] at hx
                  simp at hx
                · simp only [statTarget, ge_iff_le] at hx
                  split at hx
                  · rename_i h0
                    rw [if_pos h0]
                    exact ⟨_, rfl⟩
                  · simp at hx
                · simp [statTarget] at hx

/-- The host's turn: a well-formed frame in the heap is served. -/
theorem callback_spec {w : World} {hist : List Export} {users : List Nat} (hw : Setup w hist users) (c : Child)
    (call : Call) (data : Word) (hin : InHeap w.hdr w.region data 16)
    (hb : bytesAt c.mem data 16 = encode w.pad call) (res : Result) (log : Log)
    (hs : serve (w.env c.mem) call = .ok (res, log)) :
    callback w c (kindOf call) data (-1) =
      .ok (reply w res.integer res.handle, log, { c with mem := afterCalls w log c.mem }) := by
  have hd : Callback.dispatch w.table (BitVec.ofNat 64 (kindOf call)) = some (.builtin (kindOf call)) := by
    rw [hw.table, dispatch_tableOf]
    cases call <;> rfl
  have hsv : served w c.mem (kindOf call) (bytesAt c.mem data 16) = .ok (res, log) := by
    rw [hb, served, decode_encode _ hw.pad]
    exact hs
  have hrun : run w c.mem (.builtin (kindOf call))
      ⟨.ofNat 64 (kindOf call), .ofNat 64 frameSize, data⟩ (-1) = (.ok res, copyAddrs data 16) := by
    have hc : contains w.hdr w.region data (BitVec.ofNat 64 frameSize) = true := hin
    have hc' : ¬ contains w.hdr w.region data (BitVec.ofNat 64 frameSize) = false := by rw [hc]; simp
    have hz : ¬ (BitVec.ofNat 64 frameSize ≠ BitVec.ofNat 64 frameSize) := fun h => h rfl
    simp only [run, Callback.invoke, if_neg hz, if_neg hc']
    have : (copyAddrs data frameSize).map c.mem = bytesAt c.mem data 16 := copy_bytes _ _ _
    rw [this, servedResult, hsv]
    rfl
  have hlen : ¬ (Callback.requestSize < Callback.requestSize) := by omega
  have hne : copyAddrs data 16 ≠ [] := by
    intro e
    have := copyAddrs_length data 16
    rw [e] at this
    simp at this
  have heff : effects w c.mem ⟨Callback.requestSize, ⟨.ofNat 64 (kindOf call), .ofNat 64 frameSize, data⟩, -1⟩ =
      (log, afterCalls w log c.mem) := by
    simp only [effects, hd, hrun, if_neg hne, copy_bytes, hsv]
  simp only [callback, Callback.handle, if_neg hlen, hd, hrun, heff, if_true, answerOf]

/-! ### The child's side -/

/-- The next `k` blocks that `malloc` will give the child: each has room for `n` bytes in the shared heap, apart from
the objects `objs` and from each other. -/
structure Pool (w : World) (n : Nat) (c : Child) (objs : List (Word × Nat)) (k : Nat) : Prop where
  enough : k ≤ c.mallocs.length
  heap : ∀ p ∈ c.mallocs.take k, InHeap w.hdr w.region p n
  apart : ∀ p ∈ c.mallocs.take k, ∀ o ∈ objs, Apart p n o.1 o.2
  pairwise : (c.mallocs.take k).Pairwise (fun p q => Apart q n p n)

theorem Pool.next {w : World} {n k : Nat} {c : Child} {objs : List (Word × Nat)} (h : Pool w n c objs (k + 1)) :
    ∃ p ps, c.mallocs = p :: ps ∧ InHeap w.hdr w.region p n ∧ (∀ o ∈ objs, Apart p n o.1 o.2) ∧
      ∀ m live, Pool w n ⟨m, live, ps⟩ ((p, n) :: objs) k := by
  obtain ⟨m, l, ms⟩ := c
  obtain ⟨h1, h2, h3, h4⟩ := h
  cases ms with
  | nil => simp at h1
  | cons p ps =>
    simp only [List.take_succ_cons, List.mem_cons, forall_eq_or_imp, List.pairwise_cons, List.length_cons] at h1 h2 h3 h4
    refine ⟨p, ps, rfl, h2.1, h3.1, fun m live => ⟨by simp; omega, h2.2, ?_, h4.2⟩⟩
    intro q hq o ho
    rcases List.mem_cons.1 ho with rfl | ho
    · exact h4.1 q hq
    · exact h3.2 q hq o ho

theorem Pool.mono {w : World} {n k : Nat} {c : Child} {objs objs' : List (Word × Nat)} (h : Pool w n c objs (k + 1))
    (ho : ∀ o ∈ objs', o ∈ objs) (m : Mem) (live : List Word) : Pool w n ⟨m, live, c.mallocs⟩ objs' k := by
  refine ⟨by have := h.enough; simp only; omega, ?_, ?_, ?_⟩
  · intro p hp
    exact h.heap p (List.take_subset_take_left _ (by omega) hp)
  · intro p hp o hoo
    exact h.apart p (List.take_subset_take_left _ (by omega) hp) o (ho o hoo)
  · exact h.pairwise.sublist (List.take_sublist_take_left (by omega))

theorem apart_mono {a b : Word} {n k n' k' : Nat} (h : Apart a n b k) (hn : n' ≤ n) (hk : k' ≤ k) :
    Apart a n' b k' := fun i j hi hj => h i j (by omega) (by omega)

theorem inHeap_mono {w : World} {hist : List Export} {users : List Nat} (hw : Setup w hist users) {p : Word}
    {n k : Nat} (h : InHeap w.hdr w.region p n) (hn : n < 2 ^ 64) (hk : k ≤ n) : InHeap w.hdr w.region p k := by
  have h1 := (contains_iff w.hdr w.region hw.wf p _).1 h
  apply (contains_iff w.hdr w.region hw.wf p _).2
  have e1 : (BitVec.ofNat 64 n).toNat = n := by simp; omega
  have e2 : (BitVec.ofNat 64 k).toNat = k := by simp; omega
  omega

/-- Sending a request: the frame arrives, the host serves it, and apart from the host's own effects only the frame
and its copy are written. -/
theorem send_spec {w : World} {hist : List Export} {users : List Nat} (hw : Setup w hist users) (c : Child)
    (call : Call) (ho : Object w.hdr w.region w.bounds w.sp 16) (p : Word) (ps : List Word)
    (hm : c.mallocs = p :: ps) (hp : InHeap w.hdr w.region p 16) :
    ∃ m1, (∀ x, Outside [(w.sp, 16), (p, 16)] x → m1 x = c.mem x) ∧
      ∀ res log, serve (w.env m1) call = .ok (res, log) →
        ∃ c', send w c call = .ok (reply w res.integer res.handle, log, c') ∧ c'.live = c.live ∧
          c'.mem = afterCalls w log m1 := by
  have hlen := encode_length w.pad hw.pad call
  obtain ⟨a, c1, hwr, hin, hbytes, hcase⟩ :=
    wrap_spec (c := { c with mem := writeBytes c.mem w.sp (encode w.pad call) }) (n := 16) (by omega) (by omega) ho hm hp
  have hb : bytesAt c1.mem a.arg 16 = encode w.pad call := by
    rw [hbytes]
    have := bytesAt_write c.mem w.sp (encode w.pad call) (by omega)
    rw [hlen] at this
    exact this
  refine ⟨c1.mem, ?_, ?_⟩
  · intro x hx
    have hw1 : writeBytes c.mem w.sp (encode w.pad call) x = c.mem x :=
      writeBytes_out _ _ _ _ fun i hi => hx (w.sp, 16) (by simp) i (by omega)
    rcases hcase with ⟨_, rfl⟩ | ⟨_, rfl⟩
    · exact hw1
    · simp only
      rw [blit_else, hw1]
      intro i hi
      exact hx (p, 16) (by simp) i hi
  · intro res log hs
    have hcb := callback_spec hw c1 call a.arg hin hb res log hs
    have hfs : frameSize = 16 := rfl
    simp only [send, hfs, hwr, hcb]
    rcases hcase with ⟨rfl, rfl⟩ | ⟨rfl, rfl⟩
    · exact ⟨_, rfl, rfl, rfl⟩
    · exact ⟨_, rfl, by simp [unwrap], by simp [unwrap]⟩

/-- The memory after the host's calls. -/
theorem afterCalls_spec {w : World} {hist : List Export} {users : List Nat} (hw : Setup w hist users) (log : Log)
    (m : Mem) (sb : Word) (h : ∀ e ∈ log, ∀ x, statTarget e = some x → x = sb) :
    (∀ x, Outside [(sb, 144)] x → afterCalls w log m x = m x) ∧
    ((∀ e ∈ log, statTarget e = none) → afterCalls w log m = m) ∧
    ((∃ e ∈ log, statTarget e = some sb) → bytesAt (afterCalls w log m) sb 144 = w.statBytes log) := by
  have hl := hw.stat log
  unfold afterCalls
  generalize w.statBytes log = bs at hl
  have step : ∀ (l : Log) (m : Mem), (∀ e ∈ l, ∀ x, statTarget e = some x → x = sb) →
      (l.foldl (afterCall bs) m = m ∧
        ∀ e ∈ l, statTarget e = none) ∨
      ∃ m', (∀ x, Outside [(sb, 144)] x → m' x = m x) ∧ (∃ e ∈ l, statTarget e = some sb) ∧
        l.foldl (afterCall bs) m =
          writeBytes m' sb bs := by
    intro l
    induction l with
    | nil => intro m _; exact Or.inl ⟨rfl, by simp⟩
    | cons e l ih =>
      intro m hall
      rw [List.foldl_cons]
      cases he : statTarget e with
      | none =>
        simp only [afterCall, he]
        rcases ih m (fun e' h' => hall e' (by simp [h'])) with ⟨h1, h2⟩ | ⟨m', h1, ⟨e', h2, h3⟩, h4⟩
        · exact Or.inl ⟨h1, by simpa [he] using h2⟩
        · exact Or.inr ⟨m', h1, ⟨e', by simp [h2], h3⟩, h4⟩
      | some x =>
        have hx := hall e (by simp) x he
        subst hx
        simp only [afterCall, he]
        right
        rcases ih (writeBytes m x bs) (fun e' h' => hall e' (by simp [h'])) with ⟨h1, _⟩ | ⟨m', h1, _, h4⟩
        · exact ⟨m, fun _ _ => rfl, ⟨e, by simp, he⟩, h1⟩
        · refine ⟨m', ?_, ⟨e, by simp, he⟩, h4⟩
          intro y hy
          rw [h1 y hy]
          exact writeBytes_out _ _ _ _ fun i hi => hy (x, 144) (by simp) i (by omega)
  rcases step log m h with ⟨h1, h2⟩ | ⟨m', h1, ⟨e, h2, h3⟩, h4⟩
  · rw [h1]
    refine ⟨fun _ _ => rfl, fun _ => rfl, ?_⟩
    rintro ⟨e, he, hx⟩
    rw [h2 e he] at hx
    simp at hx
  · rw [h4]
    refine ⟨?_, ?_, ?_⟩
    · intro x hx
      rw [← h1 x hx]
      exact writeBytes_out _ _ _ _ fun i hi => hx (sb, 144) (by simp) i (by omega)
    · intro hn
      rw [hn e h2] at h3
      simp at h3
    · intro _
      have := bytesAt_write m' sb bs (by omega)
      rw [hl] at this
      exact this

end Verif.EndToEnd
