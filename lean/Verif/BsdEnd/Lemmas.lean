import Verif.BsdEnd.Model
import Verif.BsdEnd.Spec
import Verif.EndToEnd.Props
import Verif.BsdPath.Props
import Verif.FreeBsd.Props

/-!
# A system call of the sandboxed program on FreeBSD, end to end: lemmas
-/

namespace Verif.BsdEnd

open Verif.Bounds (Region contains contains_iff)
open Verif.Strings Verif.Strings.Spec
open Verif.FileTree Verif.FileTree.Spec
open Verif.Callback (Handler Packet Event Result tableOf invoke_copies copyAddrs copyAddrs_get copyAddrs_length dispatch_tableOf)
open Verif.PathSyscall (Call)
open Verif.PathSyscall.Spec (join)
open Verif.BsdPath (HostOp Entry Log Kernel serve statSize getPath wantedOp wantedResult)
open Verif.ChildArgs (Bounds Child Wrapped wrapPtr wrapCStr unwrap bytesAt Apart InHeap Object blit blit_bytes blit_else)
open Verif.Syscall (CInt Arg Reply Answer Arrives)
open Verif.EndToEnd (le ofLe le_length ofLe_le64 ofLe_le32 kindOf frameSize reply answerOf Want fdAnswer intAnswer
  callOf reqOf Pool scratch Outside wrap_spec wrap_pool pool_last inHeap_mono copy_bytes bytesAt_write bytesAt_congr
  apart_symm apart_mono outside_of_apart outside_mono scratch_mem cstring_moved textOf_snoc arrives_error arrives_int
  proper_int)

/-! ### What is assumed -/

/-- What is fixed about the two processes: what `Verif.EndToEnd` assumes of them (its conditions on the kernel and the
`struct stat` of Linux are about parts that are not used here and can be given any value), and the same of the kernel of
FreeBSD. -/
structure Setup (w : World) (hist : List Export) (users : List Nat) : Prop where
  base : EndToEnd.Setup w.toWorld hist users
  bsd : KernelOk w.bsd
  bsdStat : ∀ l, (w.bsdStat l).length = 224

/-- The objects of the program that take part: the path and, for `stat`, the 224 bytes that the child takes for the
buffer. -/
def objects (want : Want) (path sb : Word) (s : List Byte) : List (Word × Nat) :=
  (path, s.length + 1) :: if want = .stat then [(sb, 224)] else []

/-- The program makes the call properly, and the child has the memory for it, as in `Verif.EndToEnd`. -/
structure Ready (w : World) (c : Child) (n : Nat) (want : Want) (path sb : Word) (s : List Byte) : Prop where
  room : s.length + 1 ≤ n ∧ 224 ≤ n ∧ n < 2 ^ 64
  string : CStringAt (asNat c.mem) path.toNat s
  objs : ∀ o ∈ objects want path sb s, Object w.hdr w.region w.bounds o.1 o.2 ∧ Apart o.1 o.2 w.sp 16
  stack : Object w.hdr w.region w.bounds w.sp 16
  pool : Pool w.toWorld n c ((w.sp, 16) :: objects want path sb s) 3

/-- What the 224 bytes hold afterwards: what the host's kernel says about the file, if the call succeeded, and what was
there otherwise. -/
def Filled (w : World) (c c' : Child) (sb : Word) (ans : Answer) (log : Log) : Prop :=
  ((∃ v, ans = .value v) → bytesAt c'.mem sb 224 = w.bsdStat log) ∧
  ((¬ ∃ v, ans = .value v) → bytesAt c'.mem sb 224 = bytesAt c.mem sb 224)

/-! ### The frame -/

theorem encode_length (pad : List Byte) (hp : pad.length = 4) (c : Call) : (encode pad c).length = 16 := by
  cases c <;> simp [encode, le_length, hp]

/-- The mode of an `open` has 16 bits, as `mode_t`. -/
def ShortMode : Call → Prop
  | .open_ _ _ mode => mode.toNat < 65536
  | _ => True

theorem ofLe_le16 (v : BitVec 32) (h : v.toNat < 65536) : BitVec.ofNat 32 (ofLe (le 2 v.toNat)) = v := by
  rw [EndToEnd.ofLe_le 2 _ (by omega)]
  simp

theorem decode_encode (pad : List Byte) (c : Call) (hc : ShortMode c) :
    decode (kindOf c) (encode pad c) = some c := by
  have h2 : ∀ v, (le 2 v).length = 2 := le_length 2
  have h4 : ∀ v, (le 4 v).length = 4 := le_length 4
  have h8 : ∀ v, (le 8 v).length = 8 := le_length 8
  cases c with
  | open_ a flags mode =>
    have e1 : (le 8 a.toNat ++ le 4 flags.toNat ++ le 2 mode.toNat ++ pad.take 2).take 8 = le 8 a.toNat := by
      rw [List.append_assoc, List.append_assoc, List.take_left' (h8 _)]
    have e2 : ((le 8 a.toNat ++ le 4 flags.toNat ++ le 2 mode.toNat ++ pad.take 2).drop 8).take 4 = le 4 flags.toNat := by
      rw [List.append_assoc, List.append_assoc, List.drop_left' (h8 _), List.take_left' (h4 _)]
    have e3 : ((le 8 a.toNat ++ le 4 flags.toNat ++ le 2 mode.toNat ++ pad.take 2).drop 12).take 2 = le 2 mode.toNat := by
      rw [List.append_assoc, List.drop_left' (by simp [h4, h8]), List.take_left' (h2 _)]
    simp only [kindOf, encode, decode, e1, e2, e3, ofLe_le64, ofLe_le32, ofLe_le16 mode hc]
  | access a mode =>
    have e1 : (le 8 a.toNat ++ le 4 mode.toNat ++ pad).take 8 = le 8 a.toNat := by
      rw [List.append_assoc, List.take_left' (h8 _)]
    have e3 : ((le 8 a.toNat ++ le 4 mode.toNat ++ pad).drop 8).take 4 = le 4 mode.toNat := by
      rw [List.append_assoc, List.drop_left' (h8 _), List.take_left' (h4 _)]
    simp only [kindOf, encode, decode, e1, e3, ofLe_le64, ofLe_le32]
  | stat a sb =>
    have e1 : (le 8 a.toNat ++ le 8 sb.toNat).take 8 = le 8 a.toNat := List.take_left' (h8 _)
    have e3 : (le 8 a.toNat ++ le 8 sb.toNat).drop 8 = le 8 sb.toNat := List.drop_left' (h8 _)
    simp only [kindOf, encode, decode, e1, e3, ofLe_le64]

/-! ### The host's side -/

theorem getPath_string {w : World} {hist : List Export} {users : List Nat} (hw : Setup w hist users) (m : Mem)
    (a : Word) (s : List Byte) (hin : InHeap w.hdr w.region a (s.length + 1)) (hn : s.length + 1 < 2 ^ 64)
    (hs : CStringAt (asNat m) a.toNat s) : getPath (w.env m) a = .ok (some (s ++ [0])) :=
  EndToEnd.getPath_string hw.base m a s hin hn hs

/-- The answer to the single call, as it arrives. -/
theorem wanted_arrives {w : World} {hist : List Export} {users : List Nat} (hw : Setup w hist users) (a sb : Word)
    (want : Want) (op : HostOp) (ans : Answer)
    (hans : ans = match want with
      | .open_ _ _ => fdAnswer w.recv (w.bsd [] op)
      | _ => intAnswer (w.bsd [] op)) :
    ans.Proper ∧ Arrives ans (reply w.toWorld (wantedResult (callOf a sb want) (w.bsd [] op)).integer
      (wantedResult (callOf a sb want) (w.bsd [] op)).handle) := by
  have hk := hw.bsd [] op
  subst hans
  generalize w.bsd [] op = r at hk
  cases want with
  | open_ flags mode =>
    simp only [callOf, wantedResult, fdAnswer]
    by_cases hr : 0 ≤ r.1
    · have := hw.base.recv _ hr
      have hnl : ¬ r.1 < 0 := by omega
      simp only [if_pos hr, Answer.Proper, Arrives, reply, if_neg hnl]
      exact ⟨this, by simp⟩
    · have := hk.2 (by omega)
      simp only [if_neg hr, Answer.Proper, Arrives, reply]
      refine ⟨by omega, rfl, ?_⟩
      have : ((r.2.toNat : Nat) : Int) = r.2 := by omega
      rw [this]
  | access mode => exact ⟨proper_int hk.1 hk.2, arrives_int _ (fun h => (hk.2 h).1) _ rfl⟩
  | stat => exact ⟨proper_int hk.1 hk.2, arrives_int _ (fun h => (hk.2 h).1) _ rfl⟩

/-- The handlers do what is meant. -/
theorem serve_meant {w : World} {hist : List Export} {users : List Nat} (hw : Setup w hist users) (m : Mem)
    (a sb : Word) (s : List Byte) (h0 : (0 : Byte) ∉ s) (hp : getPath (w.env m) a = .ok (some (s ++ [0])))
    (want : Want) (hsb : want = .stat → InHeap w.hdr w.region sb 224) :
    ∃ res log ans, serve (w.env m) (callOf a sb want) = .ok (res, log) ∧
      Meant hist w.bsd w.recv s want ans log ∧ ans.Proper ∧ Arrives ans (reply w.toWorld res.integer res.handle) ∧
      (∀ e ∈ log, ∀ x, statTarget e = some x → want = .stat ∧ x = sb) ∧
      (want = .stat → ((∃ n, ans = .value n) ↔ ∃ e ∈ log, statTarget e = some sb)) := by
  have eq := BsdPath.handlePath_eq (w.env m) hist hw.base.short hw.base.tree a _ hp
  have hpath : getPath (w.env m) (callOf a sb want).path = .ok (some (s ++ [0])) := by
    cases want <;> exact hp
  have hsrv := BsdPath.bsd_served (w.env m) hw.base.wf hist hw.base.short hw.base.tree (callOf a sb want) _ hpath
  rw [textOf_snoc s h0] at eq hsrv
  cases hres : Path.Spec.resolve [] (cut s) with
  | none =>
    refine ⟨⟨-22, -1⟩, [], .error 22, ?_, .climbs _ hres, by simp [Answer.Proper], arrives_error 22, by simp, by simp⟩
    cases want <;> exact (eq _).1 hres
  | some names =>
    by_cases hall : ∀ h rest, ¬ Answers (specHistory hist) names h rest
    · refine ⟨⟨-2, -1⟩, [], .error 2, ?_, .absent _ names hres hall, by simp [Answer.Proper], arrives_error 2, by simp, by simp⟩
      cases want <;> exact ((eq _).2 names hres).1 hall
    · have : ∃ h rest, Answers (specHistory hist) names h rest :=
        Classical.byContradiction fun hc => hall fun h rest ha => hc ⟨h, rest, ha⟩
      obtain ⟨h, rest, ha⟩ := this
      have hserve := hsrv names hres h rest ha (by
        intro x y hxy
        cases want <;> simp only [callOf, Call.stat.injEq, reduceCtorEq] at hxy
        obtain ⟨_, rfl⟩ := hxy
        have := (contains_iff w.hdr w.region hw.base.wf sb (BitVec.ofNat 64 224)).1 (hsb rfl)
        have e : (BitVec.ofNat 64 224).toNat = 224 := rfl
        rw [e] at this
        simp only [World.env]
        omega)
      simp only at hserve
      cases want with
      | open_ flags mode =>
        by_cases hr : rest = []
        · subst hr
          have hh := wanted_arrives hw a sb (.open_ flags mode) (.dup h) _ rfl
          refine ⟨_, _, _, hserve, .openFile names h flags mode hres ha, hh.1, hh.2, ?_, by simp⟩
          intro e he x hx
          simp only [callOf, wantedOp, if_true, List.mem_singleton] at he
          subst he
          simp [statTarget] at hx
        · have hop : wantedOp (callOf a sb (.open_ flags mode)) h rest =
              .openat h (some (join rest)) (flags ||| 0x800000) mode := by
            simp only [callOf, wantedOp, if_neg hr]
          rw [hop] at hserve
          have hh := wanted_arrives hw a sb (.open_ flags mode) (.openat h (some (join rest)) (flags ||| 0x800000) mode) _ rfl
          refine ⟨_, _, _, hserve, .openBeneath names h rest flags mode _ hres ha hr rfl, hh.1, hh.2, ?_, by simp⟩
          intro e he x hx
          simp only [List.mem_singleton] at he
          subst he
          simp [statTarget] at hx
      | access mode =>
        have hh := wanted_arrives hw a sb (.access mode) (wantedOp (callOf a sb (.access mode)) h rest) _ rfl
        refine ⟨_, _, _, hserve, .access names h rest mode _ hres ha rfl, hh.1, hh.2, ?_, by simp⟩
        intro e he x hx
        simp only [List.mem_singleton] at he
        subst he
        simp [statTarget, callOf, wantedOp] at hx
      | stat =>
        by_cases hr : rest = []
        · subst hr
          have hh := wanted_arrives hw a sb .stat (.fstat h sb) _ rfl
          refine ⟨_, _, _, hserve, .statFile names h sb hres ha, hh.1, hh.2, ?_, fun _ => ?_⟩
          · intro e he x hx
            simp only [callOf, wantedOp, if_true, List.mem_singleton] at he
            subst he
            simp only [statTarget] at hx
            split at hx <;> simp at hx
            exact ⟨rfl, hx.symm⟩
          · simp only [callOf, wantedOp, if_true, List.mem_singleton, exists_eq_left, statTarget, intAnswer, World.env,
              ge_iff_le]
            split <;> simp
        · have hop : wantedOp (callOf a sb .stat) h rest = .fstatat h (some (join rest)) sb 0x2000 := by
            simp only [callOf, wantedOp, if_neg hr]
          rw [hop] at hserve
          have hh := wanted_arrives hw a sb .stat (.fstatat h (some (join rest)) sb 0x2000) _ rfl
          refine ⟨_, _, _, hserve, .statBeneath names h rest sb _ hres ha hr rfl, hh.1, hh.2, ?_, fun _ => ?_⟩
          · intro e he x hx
            simp only [List.mem_singleton] at he
            subst he
            simp only [statTarget] at hx
            split at hx <;> simp at hx
            exact ⟨rfl, hx.symm⟩
          · simp only [List.mem_singleton, exists_eq_left, statTarget, intAnswer, World.env, ge_iff_le]
            split <;> simp

/-- The host's turn: a well-formed frame in the heap is served. -/
theorem callback_spec {w : World} {hist : List Export} {users : List Nat} (hw : Setup w hist users) (c : Child)
    (call : Call) (hcall : ShortMode call) (data : Word) (hin : InHeap w.hdr w.region data 16)
    (hb : bytesAt c.mem data 16 = encode w.pad call) (res : Result) (log : Log)
    (hs : serve (w.env c.mem) call = .ok (res, log)) :
    callback w c (kindOf call) data (-1) =
      .ok (reply w.toWorld res.integer res.handle, log, { c with mem := afterCalls w log c.mem }) := by
  have hd : Callback.dispatch w.table (BitVec.ofNat 64 (kindOf call)) = some (.builtin (kindOf call)) := by
    rw [hw.base.table, dispatch_tableOf]
    cases call <;> rfl
  have hsv : served w c.mem (kindOf call) (bytesAt c.mem data 16) = .ok (res, log) := by
    rw [hb, served, decode_encode _ _ hcall]
    exact hs
  have hrun : run w c.mem (.builtin (kindOf call))
      ⟨.ofNat 64 (kindOf call), .ofNat 64 frameSize, data⟩ (-1) = (.ok res, copyAddrs data 16) := by
    have hc : contains w.hdr w.region data (BitVec.ofNat 64 frameSize) = true := hin
    have hc' : ¬ contains w.hdr w.region data (BitVec.ofNat 64 frameSize) = false := by rw [hc]; simp
    have hz : ¬ (BitVec.ofNat 64 frameSize ≠ BitVec.ofNat 64 frameSize) := fun h => h rfl
    simp only [run, Callback.invoke, if_neg hz, if_neg hc']
    have : (copyAddrs data frameSize).map c.mem = bytesAt c.mem data 16 := copy_bytes _ _ _
    rw [this, servedResult, hsv]
    rfl
  have hlen : ¬ (Callback.requestSize < Callback.requestSize) := by omega
  have hne : copyAddrs data 16 ≠ [] := by
    intro e
    have := copyAddrs_length data 16
    rw [e] at this
    simp at this
  have heff : effects w c.mem ⟨Callback.requestSize, ⟨.ofNat 64 (kindOf call), .ofNat 64 frameSize, data⟩, -1⟩ =
      (log, afterCalls w log c.mem) := by
    simp only [effects, hd, hrun, if_neg hne, copy_bytes, hsv]
  simp only [callback, Callback.handle, if_neg hlen, hd, hrun, heff, if_true, answerOf]

/-! ### The child's side -/

/-- Sending a request: the frame arrives, the host serves it, and apart from the host's own effects only the frame
and its copy are written. -/
theorem send_spec {w : World} {hist : List Export} {users : List Nat} (hw : Setup w hist users) (c : Child)
    (call : Call) (hcall : ShortMode call) (ho : Object w.hdr w.region w.bounds w.sp 16) (p : Word) (ps : List Word)
    (hm : c.mallocs = p :: ps) (hp : InHeap w.hdr w.region p 16) :
    ∃ m1, (∀ x, Outside [(w.sp, 16), (p, 16)] x → m1 x = c.mem x) ∧
      ∀ res log, serve (w.env m1) call = .ok (res, log) →
        ∃ c', send w c call = .ok (reply w.toWorld res.integer res.handle, log, c') ∧ c'.live = c.live ∧
          c'.mem = afterCalls w log m1 := by
  have hlen := encode_length w.pad hw.base.pad call
  obtain ⟨a, c1, hwr, hin, hbytes, hcase⟩ :=
    wrap_spec (c := { c with mem := writeBytes c.mem w.sp (encode w.pad call) }) (n := 16) (by omega) (by omega) ho hm hp
  have hb : bytesAt c1.mem a.arg 16 = encode w.pad call := by
    rw [hbytes]
    have := bytesAt_write c.mem w.sp (encode w.pad call) (by omega)
    rw [hlen] at this
    exact this
  refine ⟨c1.mem, ?_, ?_⟩
  · intro x hx
    have hw1 : writeBytes c.mem w.sp (encode w.pad call) x = c.mem x :=
      writeBytes_out _ _ _ _ fun i hi => hx (w.sp, 16) (by simp) i (by omega)
    rcases hcase with ⟨_, rfl⟩ | ⟨_, rfl⟩
    · exact hw1
    · simp only
      rw [blit_else, hw1]
      intro i hi
      exact hx (p, 16) (by simp) i hi
  · intro res log hs
    have hcb := callback_spec hw c1 call hcall a.arg hin hb res log hs
    have hfs : frameSize = 16 := rfl
    simp only [send, hfs, hwr, hcb]
    rcases hcase with ⟨rfl, rfl⟩ | ⟨rfl, rfl⟩
    · exact ⟨_, rfl, rfl, rfl⟩
    · exact ⟨_, rfl, by simp [unwrap], by simp [unwrap]⟩

/-- The memory after the host's calls. -/
theorem afterCalls_spec {w : World} {hist : List Export} {users : List Nat} (hw : Setup w hist users) (log : Log)
    (m : Mem) (sb : Word) (h : ∀ e ∈ log, ∀ x, statTarget e = some x → x = sb) :
    (∀ x, Outside [(sb, 224)] x → afterCalls w log m x = m x) ∧
    ((∀ e ∈ log, statTarget e = none) → afterCalls w log m = m) ∧
    ((∃ e ∈ log, statTarget e = some sb) → bytesAt (afterCalls w log m) sb 224 = w.bsdStat log) := by
  have hl := hw.bsdStat log
  unfold afterCalls
  generalize w.bsdStat log = bs at hl
  have step : ∀ (l : Log) (m : Mem), (∀ e ∈ l, ∀ x, statTarget e = some x → x = sb) →
      (l.foldl (afterCall bs) m = m ∧
        ∀ e ∈ l, statTarget e = none) ∨
      ∃ m', (∀ x, Outside [(sb, 224)] x → m' x = m x) ∧ (∃ e ∈ l, statTarget e = some sb) ∧
        l.foldl (afterCall bs) m =
          writeBytes m' sb bs := by
    intro l
    induction l with
    | nil => intro m _; exact Or.inl ⟨rfl, by simp⟩
    | cons e l ih =>
      intro m hall
      rw [List.foldl_cons]
      cases he : statTarget e with
      | none =>
        simp only [afterCall, he]
        rcases ih m (fun e' h' => hall e' (by simp [h'])) with ⟨h1, h2⟩ | ⟨m', h1, ⟨e', h2, h3⟩, h4⟩
        · exact Or.inl ⟨h1, by simpa [he] using h2⟩
        · exact Or.inr ⟨m', h1, ⟨e', by simp [h2], h3⟩, h4⟩
      | some x =>
        have hx := hall e (by simp) x he
        subst hx
        simp only [afterCall, he]
        right
        rcases ih (writeBytes m x bs) (fun e' h' => hall e' (by simp [h'])) with ⟨h1, _⟩ | ⟨m', h1, _, h4⟩
        · exact ⟨m, fun _ _ => rfl, ⟨e, by simp, he⟩, h1⟩
        · refine ⟨m', ?_, ⟨e, by simp, he⟩, h4⟩
          intro y hy
          rw [h1 y hy]
          exact writeBytes_out _ _ _ _ fun i hi => hy (x, 224) (by simp) i (by omega)
  rcases step log m h with ⟨h1, h2⟩ | ⟨m', h1, ⟨e, h2, h3⟩, h4⟩
  · rw [h1]
    refine ⟨fun _ _ => rfl, fun _ => rfl, ?_⟩
    rintro ⟨e, he, hx⟩
    rw [h2 e he] at hx
    simp at hx
  · rw [h4]
    refine ⟨?_, ?_, ?_⟩
    · intro x hx
      rw [← h1 x hx]
      exact writeBytes_out _ _ _ _ fun i hi => hx (sb, 224) (by simp) i (by omega)
    · intro hn
      rw [hn e h2] at h3
      simp at h3
    · intro _
      have := bytesAt_write m' sb bs (by omega)
      rw [hl] at this
      exact this

/-- What a request to the host gives. -/
def Gives (w : World) (hist : List Export) (c : Child) (n : Nat) (want : Want) (path sb : Word) (s : List Byte) :
    Prop :=
  ∃ rep log c' ans, request w c s.length (reqOf path sb want) = .ok (rep, log, c') ∧
    Meant hist w.bsd w.recv s want ans log ∧ ans.Proper ∧ Arrives ans rep ∧ c'.live = c.live ∧
    (∀ x, Outside (scratch w.toWorld c n) x → (want = .stat → Outside [(sb, 224)] x) → c'.mem x = c.mem x) ∧
    (want = .stat → Filled w c c' sb ans log)

/-- `open` and `access`: one wrapped argument. -/
theorem plain_gives {w : World} {hist : List Export} {users : List Nat} (hw : Setup w hist users) {c : Child}
    {n : Nat} {want : Want} {path sb : Word} {s : List Byte} (hr : Ready w c n want path sb s)
    (hmode : ∀ f m, want = .open_ f m → m.toNat < 65536) (hne : want ≠ .stat) : Gives w hist c n want path sb s := by
  obtain ⟨⟨hn1, hn2, hn3⟩, hstr, hobjs, hstack, hpool⟩ := hr
  have hobj := hobjs (path, s.length + 1) (by simp [objects])
  have h0 : (0 : Byte) ∉ s := by
    intro hm
    obtain ⟨i, hi, he⟩ := List.getElem_of_mem hm
    exact (hstr.1 i hi).2 he
  obtain ⟨a, c1, ha, hin, hbytes, haorig, hpool1, hlive1, hsub1, hcopy, hmem1⟩ :=
    wrap_pool hw.base hpool hn3 (by omega) hn1 hobj.1
  obtain ⟨p, ps, hm, hp, hpa, hpin⟩ := pool_last hpool1
  obtain ⟨m1, hm1, hsend⟩ := send_spec hw c1 (callOf a.arg sb want)
    (by cases want <;> first | exact trivial | exact hmode _ _ rfl) hstack p ps hm (inHeap_mono hw.base hp hn3 (by omega))
  -- the string is still there when the host looks
  have hsep : ∀ o ∈ [(w.sp, 16), (p, 16)], Apart o.1 o.2 a.arg (s.length + 1) := by
    intro o ho
    simp only [List.mem_cons, List.not_mem_nil, or_false] at ho
    cases hc : a.copy with
    | none =>
      have harg : a.arg = path := by simp [Wrapped.arg, hc, haorig]
      rw [harg]
      rcases ho with rfl | rfl
      · exact apart_symm hobj.2
      · have := hpa (path, s.length + 1) (by simp [hc, objects])
        exact apart_mono this (by omega) (by omega)
    | some q =>
      have harg : a.arg = q := by simp [Wrapped.arg, hc]
      rw [harg]
      rcases ho with rfl | rfl
      · exact apart_symm (apart_mono ((hcopy q hc).2 (w.sp, 16) (by simp)) hn1 (by omega))
      · have := hpa (a.arg, n) (by simp [hc])
        rw [harg] at this
        exact apart_mono this (by omega) hn1
  have hb1 : bytesAt m1 a.arg (s.length + 1) = bytesAt c.mem path (s.length + 1) := by
    rw [← hbytes]
    exact bytesAt_congr fun i hi => hm1 _ (outside_of_apart hsep hi)
  have hgp := getPath_string hw m1 a.arg s hin (by omega) (cstring_moved hstr hb1)
  obtain ⟨res, log, ans, hserve, hmeant, hprop, harr, htgt, _⟩ :=
    serve_meant hw m1 a.arg sb s h0 hgp want (fun h => absurd h hne)
  obtain ⟨c2, hs2, hlive2, hmem2⟩ := hsend res log hserve
  have hmem2' : c2.mem = m1 := by
    rw [hmem2]
    refine (afterCalls_spec hw log m1 sb fun e he x hx => (htgt e he x hx).2).2.1 fun e he => ?_
    cases ht : statTarget e with
    | none => rfl
    | some x => exact absurd (htgt e he x ht).1 hne
  have hreq : request w c s.length (reqOf path sb want) =
      .ok (reply w.toWorld res.integer res.handle, log, unwrap false c2 a (s.length + 1)) := by
    have ha' : wrapCStr w.bounds c path s.length = .ok (a, c1) := ha
    cases want with
    | open_ flags mode =>
      simp only [callOf] at hs2
      simp only [reqOf, request, ha', hs2]
    | access mode =>
      simp only [callOf] at hs2
      simp only [reqOf, request, ha', hs2]
    | stat => exact absurd rfl hne
  refine ⟨_, log, _, ans, hreq, hmeant, hprop, harr, ?_, ?_, fun h => absurd h hne⟩
  · cases hc : a.copy with
    | none => simp [unwrap, hc, hlive2, hlive1]
    | some q => simp [unwrap, hc, hlive2, hlive1]
  · intro x hx _
    have hu : (unwrap false c2 a (s.length + 1)).mem x = c2.mem x := by
      cases hc : a.copy <;> simp [unwrap, hc]
    rw [hu, hmem2', hm1, hmem1]
    · intro q hq
      apply outside_mono hx
      intro o ho
      simp only [List.mem_singleton] at ho
      subst ho
      exact ⟨(q, n), scratch_mem (hcopy q hq).1, rfl, hn1⟩
    · apply outside_mono hx
      intro o ho
      simp only [List.mem_cons, List.not_mem_nil, or_false] at ho
      rcases ho with rfl | rfl
      · exact ⟨(w.sp, 16), by simp [scratch], rfl, by simp⟩
      · exact ⟨(p, n), scratch_mem (hsub1 p hpin), rfl, by simp only; omega⟩

/-- `stat`: a path and a buffer. -/
theorem stat_gives {w : World} {hist : List Export} {users : List Nat} (hw : Setup w hist users) {c : Child}
    {n : Nat} {path sb : Word} {s : List Byte} (hr : Ready w c n .stat path sb s) :
    Gives w hist c n .stat path sb s := by
  obtain ⟨⟨hn1, hn2, hn3⟩, hstr, hobjs, hstack, hpool⟩ := hr
  have hobj := hobjs (path, s.length + 1) (by simp [objects])
  have hbuf := hobjs (sb, 224) (by simp [objects])
  have h0 : (0 : Byte) ∉ s := by
    intro hm
    obtain ⟨i, hi, he⟩ := List.getElem_of_mem hm
    exact (hstr.1 i hi).2 he
  obtain ⟨a, c1, ha, hin, hbytes, haorig, hpool1, hlive1, hsub1, hcopy, hmem1⟩ :=
    wrap_pool hw.base hpool hn3 (by omega) hn1 hobj.1
  obtain ⟨b, c2, hb, hbin, hbbytes, hborig, hpool2, hlive2, hsub2, hbcopy, hmem2⟩ :=
    wrap_pool hw.base hpool1 hn3 (by omega) hn2 hbuf.1
  obtain ⟨p, ps, hm, hp, hpa, hpin⟩ := pool_last hpool2
  obtain ⟨m1, hm1, hsend⟩ := send_spec hw c2 (.stat a.arg b.arg) trivial hstack p ps hm (inHeap_mono hw.base hp hn3 (by omega))
  -- everything that the first pool keeps apart, the later ones do too
  have in1 : ∀ o ∈ (w.sp, 16) :: objects .stat path sb s,
      o ∈ (if a.copy = none then (w.sp, 16) :: objects .stat path sb s
        else (a.arg, n) :: (w.sp, 16) :: objects .stat path sb s) := by
    intro o ho
    split
    · exact ho
    · exact List.mem_cons_of_mem _ ho
  have in2 : ∀ o ∈ (if a.copy = none then (w.sp, 16) :: objects .stat path sb s
        else (a.arg, n) :: (w.sp, 16) :: objects .stat path sb s),
      Apart p n o.1 o.2 := by
    intro o ho
    apply hpa
    split
    · exact ho
    · exact List.mem_cons_of_mem _ ho
  have apath : ∀ q k, (∀ o ∈ (if a.copy = none then (w.sp, 16) :: objects .stat path sb s
        else (a.arg, n) :: (w.sp, 16) :: objects .stat path sb s), Apart q n o.1 o.2) → k ≤ n →
      Apart q k a.arg (s.length + 1) := by
    intro q k hq hk
    cases hc : a.copy with
    | none =>
      have harg : a.arg = path := by simp [Wrapped.arg, hc, haorig]
      rw [harg]
      exact apart_mono (hq (path, s.length + 1) (in1 _ (by simp [objects]))) hk (by simp)
    | some x => exact apart_mono (hq (a.arg, n) (by simp [hc])) hk hn1
  have spPath : Apart w.sp 16 a.arg (s.length + 1) := by
    cases hc : a.copy with
    | none =>
      have harg : a.arg = path := by simp [Wrapped.arg, hc, haorig]
      rw [harg]
      exact apart_symm hobj.2
    | some q =>
      have harg : a.arg = q := by simp [Wrapped.arg, hc]
      rw [harg]
      exact apart_symm (apart_mono ((hcopy q hc).2 (w.sp, 16) (by simp)) hn1 (by omega))
  have hsep : ∀ o ∈ [(w.sp, 16), (p, 16)], Apart o.1 o.2 a.arg (s.length + 1) := by
    intro o ho
    simp only [List.mem_cons, List.not_mem_nil, or_false] at ho
    rcases ho with rfl | rfl
    · exact spPath
    · exact apath p 16 in2 (by omega)
  have hsepB : ∀ o ∈ [(w.sp, 16), (p, 16)], Apart o.1 o.2 b.arg 224 := by
    intro o ho
    simp only [List.mem_cons, List.not_mem_nil, or_false] at ho
    cases hc : b.copy with
    | none =>
      have harg : b.arg = sb := by simp [Wrapped.arg, hc, hborig]
      rw [harg]
      rcases ho with rfl | rfl
      · exact apart_symm hbuf.2
      · exact apart_mono (in2 (sb, 224) (in1 _ (by simp [objects]))) (by omega) (by omega)
    | some q =>
      have harg : b.arg = q := by simp [Wrapped.arg, hc]
      rw [harg]
      rcases ho with rfl | rfl
      · exact apart_symm (apart_mono ((hbcopy q hc).2 (w.sp, 16) (in1 _ (by simp))) hn2 (by omega))
      · have := hpa (b.arg, n) (by simp [hc])
        rw [harg] at this
        exact apart_mono this (by omega) hn2
  have hb2 : bytesAt c2.mem a.arg (s.length + 1) = bytesAt c.mem path (s.length + 1) := by
    rw [← hbytes]
    apply bytesAt_congr
    intro i hi
    apply hmem2
    intro q hq
    apply outside_of_apart (n := s.length + 1) ?_ hi
    intro o ho
    simp only [List.mem_singleton] at ho
    subst ho
    exact apath q 224 (hbcopy q hq).2 hn2
  have hb1 : bytesAt m1 a.arg (s.length + 1) = bytesAt c.mem path (s.length + 1) := by
    rw [← hb2]
    exact bytesAt_congr fun i hi => hm1 _ (outside_of_apart hsep hi)
  have hbuf2 : bytesAt c1.mem sb 224 = bytesAt c.mem sb 224 := by
    apply bytesAt_congr
    intro i hi
    apply hmem1
    intro q hq
    apply outside_of_apart (n := 224) ?_ hi
    intro o ho
    simp only [List.mem_singleton] at ho
    subst ho
    exact apart_mono ((hcopy q hq).2 (sb, 224) (by simp [objects])) hn1 (by omega)
  have hbuf1 : bytesAt m1 b.arg 224 = bytesAt c.mem sb 224 := by
    rw [← hbuf2, ← hbbytes]
    exact bytesAt_congr fun i hi => hm1 _ (outside_of_apart hsepB hi)
  have hgp := getPath_string hw m1 a.arg s hin (by omega) (cstring_moved hstr hb1)
  obtain ⟨res, log, ans, hserve, hmeant, hprop, harr, htgt, hval⟩ :=
    serve_meant hw m1 a.arg b.arg s h0 hgp .stat (fun _ => hbin)
  obtain ⟨c3, hs3, hlive3, hmem3⟩ := hsend res log hserve
  have hafter := afterCalls_spec hw log m1 b.arg fun e he x hx => (htgt e he x hx).2
  have hreq : request w c s.length (reqOf path sb .stat) =
      .ok (reply w.toWorld res.integer res.handle, log, unwrap false (unwrap true c3 b 224) a (s.length + 1)) := by
    have ha' : wrapCStr w.bounds c path s.length = .ok (a, c1) := ha
    have hl : statSize = 224 := rfl
    simp only [reqOf, request, ha', hl, hb, hs3]
  -- the memory in the end
  have hu : (unwrap false (unwrap true c3 b 224) a (s.length + 1)).mem = (unwrap true c3 b 224).mem := by
    cases hc : a.copy <;> simp [unwrap, hc]
  have hback : bytesAt (unwrap true c3 b 224).mem sb 224 = bytesAt c3.mem b.arg 224 := by
    cases hc : b.copy with
    | none => simp [unwrap, hc, Wrapped.arg, hborig]
    | some q =>
      simp only [unwrap, hc, if_true, Wrapped.arg, Option.getD_some, hborig]
      exact blit_bytes _ _ _ _ (by omega)
  refine ⟨_, log, _, ans, hreq, hmeant, hprop, harr, ?_, ?_, fun _ => ⟨?_, ?_⟩⟩
  · cases hc : a.copy <;> cases hc' : b.copy <;>
      simp [unwrap, hc, hc', hlive3, hlive2, hlive1]
  · intro x hx hxs
    have hxs := hxs rfl
    rw [hu]
    have e1 : (unwrap true c3 b 224).mem x = c3.mem x := by
      cases hc : b.copy with
      | none => simp [unwrap, hc]
      | some q =>
        simp only [unwrap, hc, if_true, hborig]
        exact blit_else _ _ _ _ _ fun i hi => hxs (sb, 224) (by simp) i hi
    have sc : ∀ q l, q ∈ c.mallocs.take 3 → l ≤ n → Outside [(q, l)] x := by
      intro q l hq hl
      apply outside_mono hx
      intro o ho
      simp only [List.mem_singleton] at ho
      subst ho
      exact ⟨(q, n), scratch_mem hq, rfl, hl⟩
    have e2 : c3.mem x = m1 x := by
      rw [hmem3]
      apply hafter.1
      cases hc : b.copy with
      | none =>
        have harg : b.arg = sb := by simp [Wrapped.arg, hc, hborig]
        rw [harg]
        exact hxs
      | some q =>
        have harg : b.arg = q := by simp [Wrapped.arg, hc]
        rw [harg]
        exact sc q 224 (hsub1 q (hbcopy q hc).1) hn2
    rw [e1, e2, hm1, hmem2, hmem1]
    · intro q hq
      exact sc q _ (hcopy q hq).1 hn1
    · intro q hq
      exact sc q _ (hsub1 q (hbcopy q hq).1) hn2
    · apply outside_mono hx
      intro o ho
      simp only [List.mem_cons, List.not_mem_nil, or_false] at ho
      rcases ho with rfl | rfl
      · exact ⟨(w.sp, 16), by simp [scratch], rfl, by simp⟩
      · exact ⟨(p, n), scratch_mem (hsub1 p (hsub2 p hpin)), rfl, by simp only; omega⟩
  · intro hv
    rw [hu, hback, hmem3]
    exact hafter.2.2 ((hval rfl).1 hv)
  · intro hv
    rw [hu, hback, hmem3, hafter.2.1, hbuf1]
    intro e he
    cases ht : statTarget e with
    | none => rfl
    | some x =>
      refine absurd ((hval rfl).2 ⟨e, he, ?_⟩) hv
      rw [ht, (htgt e he x ht).2]

theorem gives {w : World} {hist : List Export} {users : List Nat} (hw : Setup w hist users) {c : Child}
    {n : Nat} {want : Want} {path sb : Word} {s : List Byte} (hr : Ready w c n want path sb s)
    (hmode : ∀ f m, want = .open_ f m → m.toNat < 65536) : Gives w hist c n want path sb s := by
  by_cases h : want = .stat
  · subst h
    exact stat_gives hw hr
  · exact plain_gives hw hr hmode h

end Verif.BsdEnd
