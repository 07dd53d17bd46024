import Verif.Vtable.Model

/-!
# Function numbers: theorems

Specification: the position of a function in the list of exports and the position of a proxy among those of the
same library.
-/

namespace Verif.Vtable

theorem foldl_nonempty : ∀ (es : List Fn) (fs : Exports), fs ≠ [] →
    es.foldl exportFunction fs = fs ++ es := by
  intro es
  induction es with
  | nil => intro fs _; simp
  | cons e es ih =>
    intro fs h
    have hl : fs.length ≠ 0 := by simpa using h
    rw [List.foldl_cons, exportFunction, if_neg (by simp [hl]), ih _ (by simp)]
    simp

/-- The table is the list of exports with the type function put in front, unless it is there already. -/
theorem exportAll_eq (es : List Fn) :
    exportAll es = match es with
      | [] => []
      | e :: rest => if e.id = typeEncodingId then e :: rest else typeEncoding :: e :: rest := by
  cases es with
  | nil => rfl
  | cons e rest =>
    simp only [exportAll, List.foldl_cons]
    by_cases h : e.id = typeEncodingId
    · rw [if_pos h, exportFunction, if_neg (by simp [h]), foldl_nonempty _ _ (by simp)]
      simp
    · rw [if_neg h, exportFunction, if_pos ⟨rfl, h⟩, foldl_nonempty _ _ (by simp)]
      simp

/-! ### The host's side -/

/-- Proxies of library `l` declared before position `i`. -/
def rank (ds : List (Nat × String)) (l i : Nat) : Nat := (ds.take i).countP (·.1 = l)

theorem declareAll_spec : ∀ (ds : List (Nat × String)) (c : Counters) (ps : List Proxy),
    declareAll c ds = some ps →
    ps.length = ds.length ∧
      ∀ (i : Nat) (h : i < ds.length), ps[i]? = some ⟨ds[i].1, c ds[i].1 + rank ds ds[i].1 i, ds[i].2⟩ := by
  intro ds
  induction ds with
  | nil =>
    intro c ps h
    simp only [declareAll, Option.some.injEq] at h
    subst h
    exact ⟨rfl, fun i h => absurd h (by simp)⟩
  | cons d ds ih =>
    obtain ⟨lib, ty⟩ := d
    intro c ps h
    simp only [declareAll, declare, nextEntry] at h
    by_cases hc : c lib < 2 ^ 31 - 1
    · rw [if_pos hc] at h
      simp only [Option.map_some] at h
      rcases hr : declareAll (fun l => if l = lib then c lib + 1 else c l) ds with _ | qs
      · rw [hr] at h; simp at h
      · rw [hr] at h
        simp only [Option.map_some, Option.some.injEq] at h
        subst h
        obtain ⟨hl, hi⟩ := ih _ _ hr
        refine ⟨by simp [hl], ?_⟩
        intro i h
        cases i with
        | zero => simp [rank]
        | succ i =>
          simp only [List.length_cons] at h
          have := hi i (by omega)
          simp only [List.getElem?_cons_succ, List.getElem_cons_succ, this, Option.some.injEq,
            Proxy.mk.injEq, true_and, and_true]
          simp only [rank, List.take_succ_cons, List.countP_cons]
          by_cases he : ds[i].1 = lib
          · simp [he]; omega
          · simp [he, Ne.symm he]
    · rw [if_neg hc] at h; simp at h

/-- Declarations succeed as long as no library has `2 ^ 31 - 2` of them. -/
theorem declareAll_some : ∀ (ds : List (Nat × String)) (c : Counters),
    (∀ l, c l + ds.length < 2 ^ 31) → ∃ ps, declareAll c ds = some ps := by
  intro ds
  induction ds with
  | nil => exact fun _ _ => ⟨_, rfl⟩
  | cons d ds ih =>
    obtain ⟨lib, ty⟩ := d
    intro c h
    have hc : c lib < 2 ^ 31 - 1 := by have := h lib; simp only [List.length_cons] at this; omega
    obtain ⟨ps, hps⟩ := ih (fun l => if l = lib then c lib + 1 else c l) (by
      intro l
      have h1 := h l
      have h2 := h lib
      simp only [List.length_cons] at h1 h2
      by_cases e : l = lib
      · simp only [e, if_true]; omega
      · simp only [e, if_false]; omega)
    refine ⟨_, by simp only [declareAll, declare, nextEntry, if_pos hc, Option.map_some, hps]; rfl⟩

/-! ## C37 -/

/-- **C37, no slot is shared.**  Two proxies of one library have different slots, and none has slot 0,
whatever other libraries declare in between. -/
theorem slots_distinct {ds : List (Nat × String)} {ps : List Proxy}
    (h : declareAll .init ds = some ps) {i j : Nat} {p q : Proxy} (hi : ps[i]? = some p)
    (hj : ps[j]? = some q) : 0 < p.slot ∧ (i ≠ j → p.lib = q.lib → p.slot ≠ q.slot) := by
  obtain ⟨hl, hx⟩ := declareAll_spec ds _ ps h
  have hil : i < ds.length := by rw [← hl]; exact (List.getElem?_eq_some_iff.1 hi).1
  have hjl : j < ds.length := by rw [← hl]; exact (List.getElem?_eq_some_iff.1 hj).1
  have ei := hx i hil
  have ej := hx j hjl
  rw [hi] at ei
  rw [hj] at ej
  simp only [Option.some.injEq] at ei ej
  subst ei ej
  refine ⟨by simp [Counters.init]; omega, ?_⟩
  intro hne hlib
  simp only at hlib
  have key : ∀ (a b l : Nat) (ha : a < ds.length), ds[a].1 = l → a < b →
      rank ds l a < rank ds l b := by
    intro a b l ha he hab
    simp only [rank]
    have h1 : (ds.take (a + 1)).countP (·.1 = l) = (ds.take a).countP (·.1 = l) + 1 := by
      rw [List.take_succ_eq_append_getElem ha, List.countP_append]
      simp [he]
    have h2 : (ds.take (a + 1)).countP (·.1 = l) ≤ (ds.take b).countP (·.1 = l) := by
      apply List.Sublist.countP_le
      exact (List.take_prefix_take_left (by omega)).sublist
    omega
  simp only [hlib]
  rcases Nat.lt_or_gt_of_ne hne with hlt | hlt
  · have := key i j _ hil hlib hlt; omega
  · have := key j i _ hjl rfl hlt; omega

/-- **C37, the same number means the same function.**  With any other libraries declared in between, the
`n`-th proxy of library `l` calls the `n`-th function that the library's sandbox exports, with the proxy's arguments,
and returns its result; and the frame of the call is freed. -/
theorem proxy_calls_export {ds : List (Nat × String)} {ps : List Proxy}
    (h : declareAll .init ds = some ps) {i : Nat} {p : Proxy} (hi : ps[i]? = some p)
    {es : List Fn} (hh : ∀ e, es.head? = some e → e.id ≠ typeEncodingId)
    {e : Fn} (he : es[rank ds p.lib i]? = some e) (frames : Nat) (args : List Word) :
    p.call (exportAll es) true frames args = (.returned e.id (e.run args), frames) := by
  obtain ⟨hl, hx⟩ := declareAll_spec ds _ ps h
  have hil : i < ds.length := by rw [← hl]; exact (List.getElem?_eq_some_iff.1 hi).1
  have ei := hx i hil
  rw [hi] at ei
  simp only [Option.some.injEq] at ei
  subst ei
  simp only at he
  rw [exportAll_eq]
  cases es with
  | nil => simp at he
  | cons f rest =>
    have hf := hh f rfl
    simp only [if_neg hf, Proxy.call, Vtable.call, if_true, Counters.init]
    rw [Nat.add_comm 1, List.getElem?_cons_succ, he]
    rfl

/-- **C37, slot 0.**  If a library exports anything, slot 0 is the type function. -/
theorem slot_zero_is_type {es : List Fn} (h : es ≠ []) :
    ((exportAll es)[0]?).map Fn.id = some typeEncodingId := by
  rw [exportAll_eq]
  cases es with
  | nil => exact absurd rfl h
  | cons e rest =>
    by_cases he : e.id = typeEncodingId
    · simp [he]
    · simp [he, typeEncoding]

/-- Two libraries with interleaved proxies and a library that exports three functions. -/
example :
    let es : List Fn := [⟨7, "a", fun a => a.length⟩, ⟨8, "b", fun _ => 5⟩, ⟨9, "c", fun _ => 6⟩]
    let ds := [(0, "a"), (1, "x"), (0, "b"), (1, "y"), (0, "c")]
    ∃ ps p, declareAll .init ds = some ps ∧ ps[2]? = some p ∧
      (∀ e, es.head? = some e → e.id ≠ typeEncodingId) ∧
      p.call (exportAll es) true 0 [] = (.returned 8 5, 0) :=
  ⟨_, _, rfl, rfl, by simp [typeEncodingId], rfl⟩

/-- The correspondence needs its condition: a library that exports the type function itself first has all
its numbers shifted by one. -/
theorem explicit_type_shifts {es : List Fn} (e : Fn) (he : e.id = typeEncodingId) (n : Nat) :
    (exportAll (e :: es))[n + 1]? = es[n]? := by
  rw [exportAll_eq]
  simp [he]

/-- A library without exports has no slot 0 either: asking for a type is then outside the vector. -/
theorem no_exports_no_type (n : Nat) : exportAll [] = [] ∧ (∀ a, call (exportAll []) n a = .ub) ∧
    typeOf (exportAll []) n = .ub :=
  ⟨rfl, fun _ => rfl, rfl⟩

/-- A call beyond the exports is undefined behaviour in the sandbox, but asking for its type ends the
sandbox. -/
theorem beyond_exports {es : List Fn} {n : Nat} (h : es ≠ []) (hn : (exportAll es).length ≤ n) :
    (∀ a, call (exportAll es) n a = .ub) ∧ typeOf (exportAll es) n = .terminated := by
  have h0 := slot_zero_is_type h
  refine ⟨fun a => by simp [call, List.getElem?_eq_none hn], ?_⟩
  rcases h1 : (exportAll es)[0]? with _ | f
  · rw [h1] at h0; simp at h0
  · simp [typeOf, h1, List.getElem?_eq_none hn]

/-- **C37, the check of a debug build.**  However the two orders disagree, a proxy that passes the check
calls a function of the type it was declared with. -/
theorem debugCheck_sound {fs : Exports} {p : Proxy} (h : debugCheck fs p = true) (frames : Nat)
    (args : List Word) :
    ∃ f, f ∈ fs ∧ f.ty = p.ty ∧ p.call fs true frames args = (.returned f.id (f.run args), frames) := by
  simp only [debugCheck, typeOf] at h
  rcases h0 : fs[0]? with _ | g
  · rw [h0] at h; simp at h
  · rw [h0] at h
    rcases h1 : fs[p.slot]? with _ | f
    · rw [h1] at h; simp at h
    · rw [h1] at h
      refine ⟨f, List.mem_of_getElem? h1, by simpa using h, ?_⟩
      simp [Proxy.call, call, h1]

/-- The check accepts every proxy of the right type in the right place. -/
theorem debugCheck_complete {ds : List (Nat × String)} {ps : List Proxy}
    (h : declareAll .init ds = some ps) {i : Nat} {p : Proxy} (hi : ps[i]? = some p)
    {es : List Fn} (hh : ∀ e, es.head? = some e → e.id ≠ typeEncodingId)
    {e : Fn} (he : es[rank ds p.lib i]? = some e) : debugCheck (exportAll es) p = true ↔ e.ty = p.ty := by
  obtain ⟨hl, hx⟩ := declareAll_spec ds _ ps h
  have hil : i < ds.length := by rw [← hl]; exact (List.getElem?_eq_some_iff.1 hi).1
  have ei := hx i hil
  rw [hi] at ei
  simp only [Option.some.injEq] at ei
  subst ei
  simp only at he
  rw [exportAll_eq]
  cases es with
  | nil => simp at he
  | cons f rest =>
    have hf := hh f rfl
    simp only [if_neg hf, debugCheck, typeOf, Counters.init]
    rw [Nat.add_comm 1, List.getElem?_cons_succ, he]
    simp

/-- Without the check (release builds), orders that disagree go unnoticed: the call reaches a function of
another type. -/
theorem order_mismatch_unnoticed :
    let es : List Fn := [⟨7, "PFiiE", fun _ => 1⟩, ⟨8, "PFvPvE", fun _ => 2⟩]
    ∃ ps p, declareAll .init [(0, "PFvPvE"), (0, "PFiiE")] = some ps ∧ ps[0]? = some p ∧
      p.ty = "PFvPvE" ∧ p.call (exportAll es) true 0 [3] = (.returned 7 1, 0) ∧
      debugCheck (exportAll es) p = false :=
  ⟨_, _, rfl, rfl, rfl, rfl, by decide⟩

end Verif.Vtable
