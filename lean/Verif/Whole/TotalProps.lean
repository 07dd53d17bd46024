import Verif.Whole.Props
import Verif.Run.TotalProps

/-!
# A program with the library linked in does one thing only, and something as long as its calls are proper

`library_transparent` is about what the machine with the library linked in does.  Here: it never does two different things,
and which calls a function makes before it returns is settled, too.
-/

namespace Verif.Whole

open Verif.Run (Program Worlds Event State Ideal Host Same Blind Steps Step Blocks Fixed Behaves steps_unique steps_total
  steps_iff_behaves)
open Verif.Call (Sandbox)
open Verif.Call.Spec (Heap)

/-! ### Specification -/

/-- The program calls a function that the library has with as many bytes of arguments as it takes, and the function makes
`k` calls, each properly, and returns. -/
def Willing (L : Lib) (W : Worlds) (H : Host) (S : Word → Prop) (n : Nat) (Q : Client) (k : Nat) (s : Linked) : Prop :=
  ∃ m idx args f, Q s.results s.mem = (m, some (idx, args)) ∧ L.fns[idx]? = some f ∧ args.length = f.frame.argLen ∧
    ∀ start, IsMerge L.heap m s.own start → Behaves W H S n (f.body args) k ⟨start, f.entry, s.past⟩ ∧
      ∀ t, Steps W H S n (f.body args) k ⟨start, f.entry, s.past⟩ t → (f.body args t.mem t.regs).2 = .stop

/-- So it is for each of the program's next calls, whatever has come before. -/
def Able (L : Lib) (W : Worlds) (H : Host) (S : Word → Prop) (n : Nat) (Q : Client) (ks : List Nat) (s : Linked) : Prop :=
  ∀ js k rest s', ks = js ++ k :: rest → Calls L W H S n Q js s s' → Willing L W H S n Q k s'

/-! ### Lemmas -/

theorem isMerge_unique {h : Heap} {a b m m' : Mem} (h1 : IsMerge h a b m) (h2 : IsMerge h a b m') : m = m' := by
  funext x
  by_cases hx : h.Has x
  · rw [(h1 x).1 hx, (h2 x).1 hx]
  · rw [(h1 x).2 hx, (h2 x).2 hx]

theorem isMerge_merge (h : Heap) (a b : Mem) : IsMerge h a b (merge h a b) :=
  fun _ => ⟨fun hx => merge_in _ _ _ hx, fun hx => merge_out _ _ _ hx⟩

/-- A program that has ended makes no call. -/
theorem stop_no_step {W : Worlds} {H : Host} {S : Word → Prop} {n : Nat} {P : Program} {t t' : Ideal}
    (hs : (P t.mem t.regs).2 = .stop) (h : Step W H S n P t t') : False := by
  cases h <;> (rename_i hp _; simp_all)

/-- Only one number of calls leads to the end. -/
theorem ends_once {W : Worlds} {H : Host} {S : Word → Prop} (hf : Fixed W H S) {n : Nat} {P : Program} {k k' : Nat}
    {t u u' : Ideal} (h : Steps W H S n P k t u) (hs : (P u.mem u.regs).2 = .stop) (h' : Steps W H S n P k' t u')
    (hs' : (P u'.mem u'.regs).2 = .stop) : k = k' ∧ u = u' := by
  induction h generalizing k' u' with
  | none t =>
    cases h' with
    | none => exact ⟨rfl, rfl⟩
    | more _ _ _ _ a _ => exact (stop_no_step hs a).elim
  | more k t t1 u a b ih =>
    cases h' with
    | none => exact (stop_no_step hs' a).elim
    | more k' _ t2 _ a' b' =>
      obtain rfl := Run.step_unique hf a a'
      obtain ⟨e1, e2⟩ := ih hs b' hs'
      exact ⟨congrArg (· + 1) e1, e2⟩

/-! ### Theorems -/

/-- **C94, one call.**  With the library linked in, a call of the library does one thing only, and the function makes
one number of calls before it returns. -/
theorem called_unique {L : Lib} {W : Worlds} {H : Host} {S : Word → Prop} (hf : Fixed W H S) {n : Nat} {Q : Client}
    {k k' : Nat} {s t t' : Linked} (h : Called L W H S n Q k s t) (h' : Called L W H S n Q k' s t') : k = k' ∧ t = t' := by
  cases h with
  | mk m start u idx args f m' mem hq hfn ha hstart hsteps hstop hmem =>
    cases h' with
    | mk m2 start2 u2 idx2 args2 f2 m2' mem2 hq2 hfn2 ha2 hstart2 hsteps2 hstop2 hmem2 =>
      rw [hq] at hq2
      cases hq2
      rw [hfn] at hfn2
      cases hfn2
      obtain rfl := isMerge_unique hstart hstart2
      obtain ⟨rfl, rfl⟩ := ends_once hf hsteps (by rw [hstop]) hsteps2 (by rw [hstop2])
      rw [hstop] at hstop2
      cases hstop2
      obtain rfl := isMerge_unique hmem hmem2
      exact ⟨rfl, rfl⟩

/-- **C94, one run.**  With the library linked in, the program does one thing only: after so many calls of the library, its
results, the memories and what has happened are settled, and so is the number of calls that each function has made. -/
theorem calls_unique {L : Lib} {W : Worlds} {H : Host} {S : Word → Prop} (hf : Fixed W H S) {n : Nat} {Q : Client}
    {ks ks' : List Nat} {s t t' : Linked} (h : Calls L W H S n Q ks s t) (h' : Calls L W H S n Q ks' s t')
    (hl : ks.length = ks'.length) : ks = ks' ∧ t = t' := by
  induction h generalizing ks' t' with
  | none =>
    cases h' with
    | none => exact ⟨rfl, rfl⟩
    | more => simp at hl
  | more k ks s s1 t a b ih =>
    cases h' with
    | none => simp at hl
    | more k' ks' _ s2 _ a' b' =>
      obtain ⟨rfl, rfl⟩ := called_unique hf a a'
      obtain ⟨rfl, rfl⟩ := ih b' (by simpa using hl)
      exact ⟨rfl, rfl⟩

/-- **C94, when a call happens.**  With the library linked in, a call happens exactly if it is proper: of a function that
there is, with the arguments that it takes, and the function makes its own calls properly and returns. -/
theorem called_iff_willing {L : Lib} {W : Worlds} {H : Host} {S : Word → Prop} (hf : Fixed W H S) {n : Nat} {Q : Client}
    {k : Nat} {s : Linked} : (∃ t, Called L W H S n Q k s t) ↔ Willing L W H S n Q k s := by
  constructor
  · rintro ⟨t, h⟩
    cases h with
    | mk m start u idx args f m' mem hq hfn ha hstart hsteps hstop hmem =>
      refine ⟨m, idx, args, f, hq, hfn, ha, fun start2 h2 => ?_⟩
      obtain rfl := isMerge_unique hstart h2
      refine ⟨(steps_iff_behaves hf).1 ⟨_, hsteps⟩, fun t ht => ?_⟩
      obtain rfl := steps_unique hf hsteps ht
      rw [hstop]
  · rintro ⟨m, idx, args, f, hq, hfn, ha, h⟩
    obtain ⟨h1, h2⟩ := h _ (isMerge_merge _ _ _)
    obtain ⟨u, hu⟩ := steps_total hf h1
    exact ⟨_, .mk _ m _ u idx args f (f.body args u.mem u.regs).1 _ hq hfn ha (isMerge_merge _ _ _) hu
      (Prod.ext rfl (h2 u hu)) (isMerge_merge _ _ _)⟩

/-- **C94, as long as calls are proper.** -/
theorem calls_iff_able {L : Lib} {W : Worlds} {H : Host} {S : Word → Prop} (hf : Fixed W H S) {n : Nat} {Q : Client}
    {ks : List Nat} {s : Linked} : (∃ t, Calls L W H S n Q ks s t) ↔ Able L W H S n Q ks s := by
  constructor
  · rintro ⟨t, h⟩
    induction h with
    | none => intro js k rest s' he; simp at he
    | more k0 ks s s1 t a b ih =>
      intro js k rest s' he hc
      cases hc with
      | none =>
        simp only [List.nil_append, List.cons.injEq] at he
        obtain ⟨rfl, rfl⟩ := he
        exact (called_iff_willing hf).1 ⟨_, a⟩
      | more k1 js' _ s2 _ a' b' =>
        obtain ⟨rfl, rfl⟩ := called_unique hf a a'
        simp only [List.cons_append, List.cons.injEq, true_and] at he
        exact ih js' k rest s' he b'
  · intro h
    induction ks generalizing s with
    | nil => exact ⟨s, .none s⟩
    | cons k ks ih =>
      obtain ⟨s1, h1⟩ := (called_iff_willing hf).2 (h [] k ks s rfl (.none s))
      obtain ⟨t, h2⟩ := ih (s := s1) fun js k' rest s' he hc => h (k :: js) k' rest s' (by rw [he]; rfl) (.more _ _ _ _ _ h1 hc)
      exact ⟨t, .more _ _ _ _ _ h1 h2⟩

/-- **C94, without the linked machine's answers.**  If all calls are proper, then there is exactly one thing for the program
with the library linked in to do, and the program with the sandbox does it. -/
theorem proper_library_transparent {L : Lib} {W : Worlds} {H : Host} {S : Word → Prop} (hf : Fixed W H S)
    (hL : ∀ f ∈ L.fns, Sound S f) {n : Nat} (hn : 144 ≤ n ∧ n < 2 ^ 64) {Q : Client} (hQ : Discreet L.heap S Q)
    (wild : Sandbox) {live : List Word} {ps : List (((Word → Option Word) × List (List Word)) × Nat)}
    (hp : ∀ p ∈ ps, Room L W S n live p.1 p.2) {rs : List (List Byte)} {s : Sys} {t : Linked}
    (hm : Matches L S live rs s t) (ha : Able L W H S n Q (ps.map Prod.snd) t) :
    ∃ rs' s' t', turns L W wild Q (ps.map Prod.fst) rs s = .goes rs' s' ∧ Matches L S live rs' s' t' ∧
      Calls L W H S n Q (ps.map Prod.snd) t t' ∧
      ∀ ks t'', ks.length = ps.length → Calls L W H S n Q ks t t'' → t'' = t' := by
  obtain ⟨t', ht⟩ := (calls_iff_able hf).2 ha
  obtain ⟨rs', s', e1, e2⟩ := library_transparent hf hL hn hQ wild hp hm ht
  exact ⟨rs', s', t', e1, e2, ht, fun ks t'' hl h => (calls_unique hf h ht (by simpa using hl)).2⟩

/-! ### Cases that meet the conditions -/

/-- The program of `exCalls` makes its two calls properly. -/
theorem exAble (m o : Mem) : Able exLib Run.exWorlds Run.exHost exOwn 144 exClient [1, 1] ⟨m, o, [], []⟩ :=
  let ⟨_, h, _⟩ := exCalls m o
  (calls_iff_able exFixed).1 ⟨_, h⟩

/-- And no other results are possible, whatever one supposes about the functions' own calls. -/
example (m o : Mem) (a b : Nat) (t : Linked) (h : Calls exLib Run.exWorlds Run.exHost exOwn 144 exClient [a, b] ⟨m, o, [], []⟩ t) :
    a = 1 ∧ b = 1 ∧ t.results = [[77, 108, 1, 0], [77, 108, 77, 0]] := by
  obtain ⟨t', h1, h2, _⟩ := exCalls m o
  obtain ⟨e1, rfl⟩ := calls_unique exFixed h h1 rfl
  cases e1
  exact ⟨rfl, rfl, h2⟩

/-- So the program with the sandbox makes them. -/
example (m o : Mem) (wild : Sandbox) : ∃ rs s, turns exLib Run.exWorlds wild exClient
    (List.replicate 2 (Call.exAlloc, [[0x18000, 0x18200, 0x18400, 0x18600, 0x18800], [0x18000, 0x18200, 0x18400, 0x18600, 0x18800]])) []
    ⟨⟨m, [], fun _ m => m⟩, ⟨o, [0x17000], []⟩⟩ = .goes rs s := by
  obtain ⟨rs, s, _, e, _⟩ := proper_library_transparent exFixed exSound (by decide) exDiscreet wild
    (live := [0x17000]) (rs := []) (s := ⟨⟨m, [], fun _ m => m⟩, ⟨o, [0x17000], []⟩⟩)
    (ps := List.replicate 2 ((Call.exAlloc, [[0x18000, 0x18200, 0x18400, 0x18600, 0x18800], [0x18000, 0x18200, 0x18400, 0x18600, 0x18800]]), 1))
    (fun p hp => by rw [List.eq_of_mem_replicate hp]; exact exRoom)
    ⟨fun _ _ => rfl, rfl, fun _ _ => rfl, rfl, rfl, rfl⟩ (exAble m o)
  exact ⟨rs, s, e⟩

/-- A program that calls a function that there is not is not willing, and with the library linked in it does not go on. -/
example (s : Linked) (k : Nat) : ¬ ∃ t, Called exLib Run.exWorlds Run.exHost exOwn 144 (fun _ m => (m, some (1, []))) k s t := by
  rw [called_iff_willing exFixed]
  rintro ⟨m, idx, args, f, hq, hfn, _⟩
  cases hq
  cases hfn

end Verif.Whole
