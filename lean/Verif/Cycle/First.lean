import Verif.Cycle.Props

/-!
# Making and destroying sandboxes: C113 from the first sandbox on
-/

namespace Verif.Cycle

open Verif.Fd Verif.Start Verif.FileTree Verif.Make Verif.FileTree.Spec

/-- The page map's handle is an open descriptor, if there is one (`include/process_sandbox/sandbox.h:96`). -/
def MapOk (w : World) : Prop := ∀ p, w.h.pagemap = some p → ∃ n : Nat, p = n ∧ w.h.t n ≠ none

theorem fill_prefix {t : Table} {as bs : List Obj} {i : Nat} {o : Obj} (h : fill t as i = some o) : fill t (as ++ bs) i = some o := by
  rw [← fill_fill]
  exact fill_keeps h

section
variable {fuel : Nat} {e : Env} {disk : List Byte → Option Obj} {w : World} {m : Make.Made} {t : Table} {shm svc own rpc cb : Nat}
  {ns : List Nat} {out : Start.Out} {hs : Handles}

/-- The shared memory and the page map stay where they are. -/
theorem Parts.stays (p : Parts fuel e disk w m t shm svc own rpc cb ns out hs) (hw : Sound e.lim disk w) {i : Nat} {o : Obj}
    (hi : t i = some o) (ho : o.id = w.h.next ∨ o.id = w.h.next + 1) : (destroy e.lim w m).h.t i = some o := by
  have ne : ∀ (k : Nat) (x : Obj), t k = some x → w.h.next + 2 ≤ x.id → i ≠ k := by
    rintro k x hk hx rfl
    rw [hi] at hk
    cases hk
    omega
  have hl := p.kept hi (ne rpc _ p.atRpc (by simp)) (ne cb _ p.atCb (by simp)) (ne own _ p.atOwn (by simp)) (p.new hw hi (by omega)).2.2
  have hs := ne svc _ p.atSvc (by simp)
  rw [p.destroyed hw]
  split
  · exact hl
  · simp only
    rw [close_other (by omega)]
    exact hl

theorem Parts.afterwards (p : Parts fuel e disk w m t shm svc own rpc cb ns out hs) (hw : Sound e.lim disk w) :
    (destroy e.lim w m).h.next = w.h.next + 7 ∧ (destroy e.lim w m).h.pagemap = some m.pm ∧ (destroy e.lim w m).h.service = true ∧
    ∀ i o, (destroy e.lim w m).h.t i = some o → t i = some o := by
  rw [p.destroyed hw]
  split
  · exact ⟨rfl, rfl, rfl, fun i o hi => p.from hi⟩
  · refine ⟨rfl, rfl, rfl, fun i o hi => p.from ?_⟩
    by_cases hx : i = svc
    · simp only [hx, close_nat, put_same] at hi
      cases hi
    · simp only [close_other (show (svc : Int) ≠ i by omega)] at hi
      exact hi

theorem Parts.lowest (p : Parts fuel e disk w m t shm svc own rpc cb ns out hs) (hw : Sound e.lim disk w) (os rest : List Obj)
    (hc : created disk w.h = os ++ rest) (ho : ∀ o ∈ os, o.id = w.h.next ∨ o.id = w.h.next + 1) (k : Nat) :
    free (destroy e.lim w m).h.t k ≤ free w.h.t k - os.length := by
  rw [← free_fill]
  refine free_mono (fun i o hi => ?_) k
  rcases ht : w.h.t i with _ | x
  · refine p.stays hw ?_ (ho o ?_)
    · rw [p.table, hc]
      exact fill_prefix hi
    · simp only [fill, ht] at hi
      exact List.mem_of_getElem? hi
  · rw [fill_keeps ht] at hi
    cases hi
    exact (p.sound hw).2.1 i _ ht

/-- The page map is open afterwards. -/
theorem Parts.map (p : Parts fuel e disk w m t shm svc own rpc cb ns out hs) (hw : Sound e.lim disk w) (hp : MapOk w) :
    ∃ n : Nat, m.pm = n ∧ (destroy e.lim w m).h.t n ≠ none := by
  have h := p.atPm
  unfold PmAt at h
  split at h
  · rename_i q hq
    obtain ⟨n, rfl, hn⟩ := hp q hq
    refine ⟨n, h, ?_⟩
    rcases ht : w.h.t n with _ | o
    · exact absurd ht hn
    · rw [(p.sound hw).2.1 n o ht]
      simp
  · obtain ⟨n, h1, h2, -⟩ := h
    refine ⟨n, h1, ?_⟩
    rw [p.stays hw h2 (.inr rfl)]
    simp

end

/-! ### Every host becomes steady -/

/-- The host after sandboxes have been made and destroyed, if all constructors returned (`src/libsandbox.cc:865-932`, `:757-788`). -/
def after (dbg : Bool) (fuel : Nat) (e : Env) (disk : List Byte → Option Obj) : List Sys → World → Option World
  | [], w => some w
  | s :: ss, w =>
    match make dbg fuel e disk s w.h with
    | .made m => after dbg fuel e disk ss (destroy e.lim w m)
    | _ => none

theorem cycles_after {dbg : Bool} {fuel : Nat} {e : Env} {disk : List Byte → Option Obj} (rest : List Sys) : ∀ (ss : List Sys) (w w' : World),
    after dbg fuel e disk ss w = some w' →
    cycles dbg fuel e disk (ss ++ rest) w = ((cycles dbg fuel e disk rest w').1 + ss.length, (cycles dbg fuel e disk rest w').2)
  | [], w, w', h => by
    simp only [after, Option.some.injEq] at h
    subst h
    simp
  | s :: ss, w, w', h => by
    rcases hm : make dbg fuel e disk s w.h with _ | _ | _ | _ | _ | m <;> simp only [after, hm] at h
    case made =>
      have ih := cycles_after rest ss _ _ h
      simp only [List.cons_append, cycles, hm, ih, List.length_cons]
      rfl
    all_goals cases h

/-- **C113.**  Every host is steady after as many sandboxes as it has free descriptors below 8: each of them leaves the descriptor of its shared memory
in the lowest free place.  So `steady_count` says for every host how it ends. -/
theorem steady_soon (dbg : Bool) (fuel : Nat) (e : Env) (disk : List Byte → Option Obj) : ∀ (ss : List Sys) (w w' : World),
    Sound e.lim disk w → MapOk w → (∀ s ∈ ss, s.forked = true) → after dbg fuel e disk ss w = some w' → ss ≠ [] → free w.h.t 8 ≤ ss.length →
    Sound e.lim disk w' ∧ ∃ p, Steady w' p
  | [], _, _, _, _, _, _, hn, _ => absurd rfl hn
  | s :: ss, w, w', hw, hp, hf, ha, _, hl => by
    rcases hm : make dbg fuel e disk s w.h with _ | _ | _ | _ | _ | m <;> simp only [after, hm] at ha
    case made =>
      obtain ⟨t, shm, svc, own, rpc, cb, ns, out, hs, p⟩ := parts hm (hf s (by simp))
      obtain ⟨g1, g2, g3, -⟩ := p.afterwards hw
      obtain ⟨n, q1, q2⟩ := p.map hw hp
      have hs1 := (p.sound hw).1
      have hlow := p.lowest hw [⟨w.h.next, true⟩] _ (by rw [created, List.append_assoc, List.append_assoc, List.append_assoc, List.append_assoc]) (by simp) 8
      simp only [List.length_cons, List.length_nil] at hlow hl
      rcases ss with _ | ⟨s', ss⟩
      · simp only [after, Option.some.injEq] at ha
        subst ha
        refine ⟨hs1, n, by rw [g2, q1], q2, g3, fun i hi hc => ?_⟩
        have := free_pos.2 ⟨i, hi, hc⟩
        simp only [List.length_nil] at hl
        omega
      · refine steady_soon dbg fuel e disk (s' :: ss) _ w' hs1 ?_ (fun x hx => hf x (by simp [hx])) ha (by simp) (by omega)
        intro r hr
        rw [g2, Option.some.injEq] at hr
        exact ⟨n, by rw [← hr, q1], q2⟩
    all_goals cases ha

/-- The host of the examples makes five sandboxes; five of its eight lowest descriptors are free. -/
example : Sound 64 exDisk exWorld ∧ MapOk exWorld ∧ free exWorld.h.t 8 ≤ (List.replicate 5 exSys).length ∧
    (after false 10 ⟨64, some ⟨99, false⟩, true⟩ exDisk (List.replicate 5 exSys) exWorld).isSome = true :=
  ⟨exSound 64, nofun, by decide +kernel, by decide +kernel⟩

/-! ### A host that has made no sandbox -/

/-- A sandbox in a host with room for it and for the moves of its child. -/
theorem roomy_cycle {dbg : Bool} {fuel : Nat} {e : Env} {disk : List Byte → Option Obj} {s : Sys} {w : World} {lib : Obj} {b : Nat}
    (hw : Sound e.lim disk w) (hp : MapOk w) (hg : s.good) (hf : s.forked = true) (hlib : e.lib = some lib) (hfuel : 10 ≤ fuel) (hb8 : 8 ≤ b)
    (hb : ∀ i, b ≤ i → w.h.t i = none) (hl : b + (7 + (opened disk).length) + 5 ≤ e.lim) :
    ∃ m, make dbg fuel e disk s w.h = .made m ∧
      free (destroy e.lim w m).h.t e.lim + 4 + (if w.h.firstMap then 1 else 0) + (if w.h.service then 0 else 1) = free w.h.t e.lim ∧
      ∀ i, b + (7 + (opened disk).length) ≤ i → (destroy e.lim w m).h.t i = none := by
  have hlen : (created disk w.h).length ≤ 7 + (opened disk).length := by
    rw [created_length, need]
    split <;> split <;> omega
  obtain ⟨pm, hpm⟩ : ∃ pm, w.h.mapObj pm := by
    unfold Host.mapObj
    rcases hm : w.h.pagemap with _ | p
    · exact ⟨_, rfl⟩
    · obtain ⟨n, rfl, hn⟩ := hp p hm
      rcases ht : w.h.t n with _ | o
      · exact absurd ht hn
      · exact ⟨o, by simp only [at_nat, ht]⟩
  obtain ⟨m, t', h1, h2, -⟩ := child_table dbg fuel e disk s w.h pm lib hg hf ⟨b, hb8, hb, by omega⟩ hpm hlib hfuel
  refine ⟨m, h1, sandbox_costs_four dbg fuel e disk s w m t' hw hf h1 h2, fun i hi => ?_⟩
  obtain ⟨t, shm, svc, own, rpc, cb, ns, out, hs, p⟩ := parts h1 hf
  obtain ⟨-, -, -, g⟩ := p.afterwards hw
  rcases hd : (destroy e.lim w m).h.t i with _ | o
  · rfl
  · have h3 := g i o hd
    have h4 := free_above hb i
    rw [p.table] at h3
    simp only [fill, hb i (by omega)] at h3
    rw [List.getElem?_eq_none (by omega)] at h3
    cases h3

/-- Some sandboxes after the first one, in a host with room for them. -/
theorem roomy_cycles {dbg : Bool} {fuel : Nat} {e : Env} {disk : List Byte → Option Obj} {lib : Obj} (hlib : e.lib = some lib) (hfuel : 10 ≤ fuel) (p : Nat) :
    ∀ (ss : List Sys) (w : World) (b : Nat), Sound e.lim disk w → w.h.pagemap = some (p : Int) → w.h.t p ≠ none → w.h.service = true →
      (∀ s ∈ ss, s.good ∧ s.forked = true) → 8 ≤ b → (∀ i, b ≤ i → w.h.t i = none) → b + ss.length * (7 + (opened disk).length) + 5 ≤ e.lim →
      ∃ w', after dbg fuel e disk ss w = some w' ∧ Sound e.lim disk w' ∧ w'.h.pagemap = some (p : Int) ∧ w'.h.t p ≠ none ∧ w'.h.service = true ∧
        free w'.h.t e.lim + 4 * ss.length = free w.h.t e.lim ∧ free w'.h.t 8 ≤ free w.h.t 8 - ss.length
  | [], w, b, hw, h1, h2, h3, _, _, _, _ => ⟨w, rfl, hw, h1, h2, h3, by simp, by simp⟩
  | s :: ss, w, b, hw, h1, h2, h3, hs, hb8, hb, hl => by
    have hpk : MapOk w := fun q hq => by
      rw [h1, Option.some.injEq] at hq
      exact ⟨p, hq.symm, h2⟩
    have hmul : (s :: ss).length * (7 + (opened disk).length) = ss.length * (7 + (opened disk).length) + (7 + (opened disk).length) := by
      rw [List.length_cons, Nat.succ_mul]
    obtain ⟨m, m1, m2, m3⟩ := roomy_cycle (dbg := dbg) hw hpk (hs s (by simp)).1 (hs s (by simp)).2 hlib hfuel hb8 hb (by omega)
    obtain ⟨t, shm, svc, own, rpc, cb, ns, out, hs', q⟩ := parts m1 (hs s (by simp)).2
    obtain ⟨g1, g2, g3, -⟩ := q.afterwards hw
    have hlow := q.lowest hw [⟨w.h.next, true⟩] _ (by rw [created, List.append_assoc, List.append_assoc, List.append_assoc, List.append_assoc]) (by simp) 8
    obtain ⟨n, q1, q2⟩ := q.map hw hpk
    have hn : m.pm = (p : Int) := by
      have := q.atPm
      rw [PmAt, h1] at this
      exact this
    have hnp : n = p := by omega
    subst hnp
    obtain ⟨w', a1, a2, a3, a4, a5, a6, a7⟩ := roomy_cycles hlib hfuel n ss (destroy e.lim w m) (b + (7 + (opened disk).length)) (q.sound hw).1
      (by rw [g2, hn]) q2 g3 (fun x hx => hs x (by simp [hx])) (by omega) m3 (by omega)
    have hfm : w.h.firstMap = false := by simp [Host.firstMap, h1]
    simp [hfm, h3] at m2
    simp only [List.length_cons, List.length_nil] at hlow ⊢
    exact ⟨w', by simp only [after, m1]; exact a1, a2, a3, a4, a5, by omega, by omega⟩

/-- How many sandboxes it takes until a host is steady that has `n` of the eight lowest descriptors free: the first one leaves two behind
there, the shared memory and the page map, and each other one its shared memory (`src/libsandbox.cc:866-869`). -/
def warm (n : Nat) : Nat := if n ≤ 2 then 1 else n - 1

/-- **C113, exactly, for a host with room at first.**  From its first sandbox to its end: with `d` free descriptors more than are needed by a
sandbox after the first few, the host makes `warm + many` sandboxes, and the constructor of the next one does not return. -/
theorem fresh_count (dbg : Bool) (fuel : Nat) (e : Env) (disk : List Byte → Option Obj) (ss : List Sys) (w : World) (lib : Obj) (b d : Nat)
    (hw : Sound e.lim disk w) (hm : w.h.pagemap = none) (hsv : w.h.service = false) (hs : ∀ s ∈ ss, s.good ∧ s.forked = true)
    (hlib : e.lib = some lib) (hfuel : 10 ≤ fuel) (hb8 : 8 ≤ b) (hb : ∀ i, b ≤ i → w.h.t i = none)
    (hl : b + 8 * (7 + (opened disk).length) + 5 ≤ e.lim)
    (hd : free w.h.t e.lim = 4 * warm (free w.h.t 8) + 2 + (5 + (opened disk).length) + d)
    (hn : warm (free w.h.t 8) + many (decide (2 ≤ free w.h.t 8)) true d < ss.length) :
    cycles dbg fuel e disk ss w =
      (warm (free w.h.t 8) + many (decide (2 ≤ free w.h.t 8)) true d, some (how (decide (2 ≤ free w.h.t 8)) true d)) := by
  have hf8 := free_le w.h.t 8
  have hk1 : 1 ≤ warm (free w.h.t 8) ∧ warm (free w.h.t 8) ≤ 8 ∧ free w.h.t 8 - 2 ≤ warm (free w.h.t 8) - 1 := by
    unfold warm
    split <;> omega
  generalize hk : warm (free w.h.t 8) = k at hd hn hk1 ⊢
  -- the first sandbox
  rcases ss with _ | ⟨s, ss⟩
  · simp at hn
  simp only [List.length_cons] at hn
  have hpk : MapOk w := fun q hq => by
    rw [hm] at hq
    cases hq
  have hg := hs s (by simp)
  obtain ⟨m, m1, m2, m3⟩ := roomy_cycle (dbg := dbg) hw hpk hg.1 hg.2 hlib hfuel hb8 hb (by omega)
  obtain ⟨t, shm, svc, own, rpc, cb, ns, out, hs', q⟩ := parts m1 hg.2
  obtain ⟨g1, g2, g3, -⟩ := q.afterwards hw
  obtain ⟨p, q1, q2⟩ := q.map hw hpk
  have hcr : ∃ rest, created disk w.h = [⟨w.h.next, true⟩] ++ ⟨w.h.next + 1, true⟩ :: rest ∧ ∀ y ∈ rest, y.id ≠ w.h.next + 1 := by
    refine ⟨opened disk ++ [⟨w.h.next + 2, true⟩, ⟨w.h.next + 3, true⟩] ++ (if w.h.service then [] else [⟨w.h.next + 4, true⟩]) ++
      [⟨w.h.next + 5, true⟩, ⟨w.h.next + 6, true⟩], by simp [created, hm], fun y hy => ?_⟩
    rw [hsv] at hy
    simp only [Bool.false_eq_true, if_false, List.mem_append, List.mem_cons, List.not_mem_nil, or_false] at hy
    rcases hy with ((hy | hy) | hy) | hy
    · simp only [opened, List.mem_filterMap] at hy
      obtain ⟨x, -, hx⟩ := hy
      have := hw.files _ _ hx
      omega
    · rcases hy with rfl | rfl <;> simp
    · simp [hy]
    · rcases hy with rfl | rfl <;> simp
  obtain ⟨rest, c1, c2⟩ := hcr
  have hlow := q.lowest hw [⟨w.h.next, true⟩, ⟨w.h.next + 1, true⟩] rest c1 (by simp) 8
  simp only [List.length_cons, List.length_nil] at hlow
  -- where the page map is
  have hp8 : p < 8 ↔ 2 ≤ free w.h.t 8 := by
    have h := q.atPm
    rw [PmAt, hm] at h
    obtain ⟨n, n1, n2, n3⟩ := h
    have hnp : n = p := by omega
    subst hnp
    rw [q.table] at n2
    simp only [fill, n3] at n2
    rw [c1] at n2
    have h1 : free w.h.t n = 1 := only_at (by simp) c2 n2 rfl
    constructor
    · intro h
      have := free_lt_of_none n3 h
      omega
    · intro h
      refine Classical.byContradiction fun hc => ?_
      have := free_le_of_le w.h.t (show 8 ≤ n by omega)
      omega
  have hfm : w.h.firstMap = true := by simp [Host.firstMap, hm]
  simp [hfm, hsv] at m2
  -- the next few
  have hk8 : k - 1 ≤ 7 := by omega
  have hmul : (k - 1) * (7 + (opened disk).length) ≤ 7 * (7 + (opened disk).length) := Nat.mul_le_mul_right _ hk8
  have hsplit : ss = ss.take (k - 1) ++ ss.drop (k - 1) := (List.take_append_drop _ _).symm
  have hlt : (ss.take (k - 1)).length = k - 1 := by
    rw [List.length_take]
    omega
  obtain ⟨w', a1, a2, a3, a4, a5, a6, a7⟩ := roomy_cycles (dbg := dbg) hlib hfuel p (ss.take (k - 1)) (destroy e.lim w m) (b + (7 + (opened disk).length))
    (q.sound hw).1 (by rw [g2, q1]) q2 g3 (fun x hx => hs x (by simp [List.mem_of_mem_take hx])) (by omega) m3 (by rw [hlt]; omega)
  rw [hlt] at a6 a7
  have hst : Steady w' p := ⟨a3, a4, a5, fun i hi hc => by
    have := free_pos.2 ⟨i, hi, hc⟩
    omega⟩
  -- and the others
  have hlow' : decide (p < 8) = decide (2 ≤ free w.h.t 8) := by simp [hp8]
  have hsome : e.lib.isSome = true := by simp [hlib]
  have hc := steady_count dbg fuel e disk p (by omega) d (ss.drop (k - 1)) w' a2 hst (fun x hx => hs x (by simp [List.mem_of_mem_drop hx])) (by omega)
    (by rw [hlow', hsome, List.length_drop]; omega)
  rw [hlow', hsome] at hc
  have hca := cycles_after (ss.drop (k - 1)) (ss.take (k - 1)) _ _ a1
  rw [← hsplit, hc, hlt] at hca
  simp only [cycles, m1, hca]
  congr 1
  omega

theorem cycles_prefix {dbg : Bool} {fuel : Nat} {e : Env} {disk : List Byte → Option Obj} (rest : List Sys) : ∀ (ss : List Sys) (w : World),
    ss.length ≤ (cycles dbg fuel e disk (ss ++ rest) w).1 → cycles dbg fuel e disk ss w = (ss.length, none)
  | [], w, _ => rfl
  | s :: ss, w, h => by
    rcases hm : make dbg fuel e disk s w.h with _ | _ | _ | _ | _ | m <;> simp only [List.cons_append, cycles, hm, List.length_cons] at h ⊢
    case made =>
      have ih := cycles_prefix (dbg := dbg) (fuel := fuel) (e := e) (disk := disk) rest ss (destroy e.lim w m) (by omega)
      rw [ih]
    all_goals omega

/-- **C113 (partial).**  Until then every constructor returns.  What is missing: that this goes on for ever, see `fresh_count` and `cycles_bounded`. -/
theorem fresh_makes_partial (dbg : Bool) (fuel : Nat) (e : Env) (disk : List Byte → Option Obj) (ss : List Sys) (w : World) (lib : Obj) (b d : Nat)
    (hw : Sound e.lim disk w) (hm : w.h.pagemap = none) (hsv : w.h.service = false) (hs : ∀ s ∈ ss, s.good ∧ s.forked = true)
    (hlib : e.lib = some lib) (hfuel : 10 ≤ fuel) (hb8 : 8 ≤ b) (hb : ∀ i, b ≤ i → w.h.t i = none)
    (hl : b + 8 * (7 + (opened disk).length) + 5 ≤ e.lim)
    (hd : free w.h.t e.lim = 4 * warm (free w.h.t 8) + 2 + (5 + (opened disk).length) + d)
    (hn : ss.length ≤ warm (free w.h.t 8) + many (decide (2 ≤ free w.h.t 8)) true d) :
    cycles dbg fuel e disk ss w = (ss.length, none) := by
  have hg : exSys.good ∧ exSys.forked = true := ⟨⟨.inl rfl, rfl, rfl, rfl, rfl, rfl, rfl⟩, rfl⟩
  refine cycles_prefix (List.replicate (warm (free w.h.t 8) + many (decide (2 ≤ free w.h.t 8)) true d + 1) exSys) ss w ?_
  rw [fresh_count dbg fuel e disk _ w lib b d hw hm hsv ?_ hlib hfuel hb8 hb hl hd ?_]
  · exact hn
  · intro s hsm
    rcases List.mem_append.1 hsm with h | h
    · exact hs s h
    · rw [List.eq_of_mem_replicate h]
      exact hg
  · rw [List.length_append, List.length_replicate]
    omega

/-- 200 sandboxes on a usual system. -/
example : cycles false 10 ⟨1024, some ⟨99, false⟩, true⟩ exDisk (List.replicate 200 exSys) exWorld = (200, none) := by
  have h := fresh_makes_partial false 10 ⟨1024, some ⟨99, false⟩, true⟩ exDisk (List.replicate 200 exSys) exWorld ⟨99, false⟩ 8 994 (exSound 1024) rfl rfl
    (fun s hs => by
      rw [List.eq_of_mem_replicate hs]
      exact ⟨⟨.inl rfl, rfl, rfl, rfl, rfl, rfl, rfl⟩, rfl⟩)
    rfl (by omega) (by omega) (fun i hi => by simp [exWorld, Make.exHost]; omega) (by decide +kernel) (by decide +kernel) (by decide +kernel)
  rw [List.length_replicate] at h
  exact h

/-- **C113 on a usual system.**  A host with its three standard streams, four default exports and the usual limit of 1024 open files makes 253
sandboxes one after the other, each destroyed before the next is made.  The constructor of the next one ends it by `exit`. -/
theorem usual_limit (n : Nat) (hn : 253 < n) :
    cycles false 10 ⟨1024, some ⟨99, false⟩, true⟩ exDisk (List.replicate n exSys) exWorld = (253, some .exits) := by
  have h8 : free exWorld.h.t 8 = 5 := by decide +kernel
  have h := fresh_count false 10 ⟨1024, some ⟨99, false⟩, true⟩ exDisk (List.replicate n exSys) exWorld ⟨99, false⟩ 8 994 (exSound 1024) rfl rfl
    (fun s hs => by
      rw [List.eq_of_mem_replicate hs]
      exact ⟨⟨.inl rfl, rfl, rfl, rfl, rfl, rfl, rfl⟩, rfl⟩)
    rfl (by omega) (by omega) (fun i hi => by simp [exWorld, Make.exHost]; omega) (by decide +kernel) (by decide +kernel)
    (by rw [h8]; simp [warm, many]; omega)
  rw [h8] at h
  exact h

/-- With a limit of 35 the host makes six sandboxes and waits for ever in the constructor of the next (computed with the model). -/
example : (cycles false 10 ⟨35, some ⟨99, false⟩, true⟩ exDisk (List.replicate 7 exSys) exWorld).1 = 6 ∧
    (match (cycles false 10 ⟨35, some ⟨99, false⟩, true⟩ exDisk (List.replicate 7 exSys) exWorld).2 with
      | some .hangs => true
      | _ => false) = true := by decide +kernel

end Verif.Cycle
