import Verif.Rpc.Buddy
import Verif.Rpc.Lemmas

/-!
# The stand-in buddy allocator meets the assumptions

So the assumptions `Contained` and `Exact` about snmalloc's range allocator are satisfiable, by an
allocator that merges and splits.
-/

namespace Verif.Rpc

open Spec

/-- All free blocks lie in `[lo, lo + N)`. -/
def FreeIn (lo N : Nat) (f : Free) : Prop := ∀ b ∈ f, lo ≤ b.2 ∧ b.2 + 2 ^ b.1 ≤ lo + N

theorem removeBlock_in (lo N : Nat) : ∀ (fuel : Nat) (f : Free) (k a : Nat) (f' : Free),
    FreeIn lo N f → removeBlock fuel f k = some (a, f') →
    (lo ≤ a ∧ a + 2 ^ k ≤ lo + N) ∧ FreeIn lo N f' := by
  intro fuel
  induction fuel with
  | zero => intro f k a f' _ h; simp [removeBlock] at h
  | succ fuel ih =>
    intro f k a f' hf h
    rw [removeBlock] at h
    split at h
    · rename_i b hb
      simp only [Option.some.injEq, Prod.mk.injEq] at h
      obtain ⟨rfl, rfl⟩ := h
      have hk : b.1 = k := by simpa using List.find?_some hb
      have hm := List.mem_of_find?_eq_some hb
      refine ⟨hk ▸ hf b hm, fun b' hb' => hf b' (List.mem_of_mem_erase hb')⟩
    · split at h
      · simp at h
      · rename_i a' f'' hr
        simp only [Option.some.injEq, Prod.mk.injEq] at h
        obtain ⟨rfl, rfl⟩ := h
        obtain ⟨h1, h2⟩ := ih f (k + 1) a' f'' hf hr
        rw [Nat.pow_succ] at h1
        refine ⟨⟨h1.1, by omega⟩, ?_⟩
        intro b hb
        rcases List.mem_cons.1 hb with rfl | hb
        · simp only; omega
        · exact h2 b hb

theorem merge_in (lo n k a : Nat) (hlo : 2 ^ n ∣ lo) (ha : lo ≤ a ∧ a + 2 ^ k ≤ lo + 2 ^ n)
    (hb : lo ≤ buddyOf k a ∧ buddyOf k a + 2 ^ k ≤ lo + 2 ^ n) :
    lo ≤ a / 2 ^ (k + 1) * 2 ^ (k + 1) ∧
      a / 2 ^ (k + 1) * 2 ^ (k + 1) + 2 ^ (k + 1) ≤ lo + 2 ^ n := by
  have hP := Nat.two_pow_pos k
  have hle : 2 ^ (k + 1) ≤ 2 ^ n := by
    rw [Nat.pow_succ]
    unfold buddyOf at hb
    split at hb
    · omega
    · rename_i hodd
      have : 1 ≤ a / 2 ^ k := by
        rcases Nat.eq_zero_or_pos (a / 2 ^ k) with h | h
        · rw [h] at hodd; simp at hodd
        · exact h
      have := (Nat.le_div_iff_mul_le hP).1 this
      omega
  have hkn : k + 1 ≤ n := (Nat.pow_le_pow_iff_right (by omega)).1 hle
  have hd : 2 ^ (k + 1) ∣ 2 ^ n := Nat.pow_dvd_pow _ hkn
  have hQ := Nat.two_pow_pos (k + 1)
  generalize 2 ^ (k + 1) = Q at *
  generalize 2 ^ n = N at *
  obtain ⟨l, rfl⟩ := Nat.dvd_trans hd hlo
  obtain ⟨l', rfl⟩ := hd
  have h1 : l ≤ a / Q := by
    rw [Nat.le_div_iff_mul_le hQ, Nat.mul_comm]; exact ha.1
  have h2 : a / Q < l + l' := by
    rw [Nat.div_lt_iff_lt_mul hQ, Nat.add_mul, Nat.mul_comm l, Nat.mul_comm l']
    omega
  constructor
  · rw [Nat.mul_comm Q l]; exact Nat.mul_le_mul_right _ h1
  · have := Nat.mul_le_mul_right Q h2
    rw [Nat.succ_mul, Nat.add_mul, Nat.mul_comm l, Nat.mul_comm l'] at this
    exact this

theorem addBlock_in (lo n : Nat) (hlo : 2 ^ n ∣ lo) : ∀ (fuel : Nat) (f : Free) (k a : Nat),
    FreeIn lo (2 ^ n) f → lo ≤ a ∧ a + 2 ^ k ≤ lo + 2 ^ n →
    FreeIn lo (2 ^ n) (addBlock fuel f k a) := by
  intro fuel
  induction fuel with
  | zero =>
    intro f k a hf ha b hb
    rcases List.mem_cons.1 hb with rfl | hb
    · exact ha
    · exact hf b hb
  | succ fuel ih =>
    intro f k a hf ha
    rw [addBlock]
    split
    · rename_i hm
      exact ih _ _ _ (fun b hb => hf b (List.mem_of_mem_erase hb)) (merge_in lo n k a hlo ha (hf _ hm))
    · intro b hb
      rcases List.mem_cons.1 hb with rfl | hb
      · exact ha
      · exact hf b hb

theorem size_order {b n : Nat} (h : ChunkSize (2 ^ b) n) :
    n = 2 ^ Nat.log2 (n / 2 ^ b) * 2 ^ b := by
  obtain ⟨h1, k, rfl⟩ := h
  have hk : b ≤ k := (Nat.pow_le_pow_iff_right (by omega)).1 h1
  rw [Nat.pow_div hk (by omega), Nat.log2_two_pow, ← Nat.pow_add]
  congr 1; omega

theorem mark_ne (c : Cfg) (hb : c.backendEntry.word.getLsbD 3 = false) (pm : Pm) (f : Free)
    (j : Nat) (h : mark c pm f j ≠ pm j) :
    (∃ b ∈ f, b.2 = j) ∧ ¬ Owned (mark c pm f) j := by
  unfold mark at h
  split at h
  · rename_i hany
    constructor
    · simpa using hany
    · unfold Owned mark
      rw [if_pos hany, hb]; simp
  · exact absurd rfl h

theorem covers_unit (C a n j : Nat) (hC : 0 < C) :
    Covers C (a * C) (n * C) j ↔ a ≤ j ∧ j < a + n := by
  unfold Covers
  rw [← Nat.add_mul, Nat.mul_le_mul_right_iff hC, Nat.mul_le_mul_right_iff hC]
  omega

/-- The stand-in meets `Contained` for every aligned mapping. -/
theorem buddy_contained (c : Cfg) (lo n : Nat) (hlo : 2 ^ n ∣ lo)
    (hb : c.backendEntry.word.getLsbD 3 = false) :
    Contained c (buddyRange c) (lo * 2 ^ c.bits) ((lo + 2 ^ n) * 2 ^ c.bits)
      (FreeIn lo (2 ^ n)) := by
  have hC : 0 < 2 ^ c.bits := Nat.two_pow_pos _
  have ec : c.chunk = 2 ^ c.bits := rfl
  have hmap : ∀ j, Covers (2 ^ c.bits) (lo * 2 ^ c.bits)
      ((lo + 2 ^ n) * 2 ^ c.bits - lo * 2 ^ c.bits) j ↔ lo ≤ j ∧ j < lo + 2 ^ n := by
    intro j
    have : (lo + 2 ^ n) * 2 ^ c.bits - lo * 2 ^ c.bits = 2 ^ n * 2 ^ c.bits := by
      rw [Nat.add_mul]; omega
    rw [this, covers_unit _ _ _ _ hC]
  have hstart : ∀ f : Free, FreeIn lo (2 ^ n) f → ∀ j, (∃ b ∈ f, b.2 = j) →
      lo ≤ j ∧ j < lo + 2 ^ n := by
    rintro f hf j ⟨b, hb, rfl⟩
    have := hf b hb
    have := Nat.two_pow_pos b.1
    omega
  have hblock : ∀ p m, BlockIn (2 ^ c.bits) (lo * 2 ^ c.bits) ((lo + 2 ^ n) * 2 ^ c.bits) p m →
      lo ≤ p / 2 ^ c.bits ∧
      p / 2 ^ c.bits + 2 ^ Nat.log2 (m / 2 ^ c.bits) ≤ lo + 2 ^ n := by
    rintro p m ⟨hs, ⟨q, rfl⟩, h1, h2⟩
    rw [Nat.mul_div_cancel_left _ hC]
    rw [Nat.mul_comm (2 ^ c.bits) q] at h1 h2
    rw [size_order hs, ← Nat.add_mul] at h2
    exact ⟨Nat.le_of_mul_le_mul_right h1 hC, Nat.le_of_mul_le_mul_right h2 hC⟩
  constructor
  · intro s pm m hs _
    simp only [buddyRange]
    split
    · exact hs
    · rename_i a f' hr
      exact (removeBlock_in lo _ _ _ _ _ _ hs hr).2
  · intro s pm m p hs hm h
    simp only [buddyRange, ec] at h
    split at h
    · simp at h
    · rename_i a f' hr
      simp only [Option.some.injEq] at h
      subst h
      obtain ⟨h1, h2⟩ := (removeBlock_in lo _ _ _ _ _ _ hs hr).1
      refine ⟨hm, Nat.dvd_mul_left _ _, Nat.mul_le_mul_right _ h1, ?_⟩
      rw [size_order hm, ← Nat.add_mul]
      exact Nat.mul_le_mul_right _ h2
  · intro s pm m j hs hm h
    simp only [buddyRange, ec] at h ⊢
    split at h
    · exact absurd rfl h
    · rename_i a f' hr
      simp only
      obtain ⟨h1, h2⟩ := mark_ne c hb pm f' j h
      exact ⟨(hmap j).2 (hstart f' (removeBlock_in lo _ _ _ _ _ _ hs hr).2 j h1), h2⟩
  · intro s pm m hs hm h
    simp only [buddyRange] at h ⊢
    split at h
    · rfl
    · simp at h
  · intro s pm p m hs hbl
    simp only [buddyRange, ec]
    exact addBlock_in lo n hlo _ _ _ _ hs (hblock p m hbl)
  · intro s pm p m j hs hbl h
    simp only [buddyRange, ec] at h ⊢
    obtain ⟨h1, h2⟩ := mark_ne c hb pm _ j h
    exact ⟨(hmap j).2 (hstart _ (addBlock_in lo n hlo _ _ _ _ hs (hblock p m hbl)) j h1), h2⟩

/-! ## Exactness -/

/-- Two blocks do not overlap. -/
def Apart (b b' : Nat × Nat) : Prop := b.2 + 2 ^ b.1 ≤ b'.2 ∨ b'.2 + 2 ^ b'.1 ≤ b.2

theorem Apart.symm {b b' : Nat × Nat} (h : Apart b b') : Apart b' b := h.elim Or.inr Or.inl

/-- The free list represents the set `F`: blocks aligned, apart, inside, and covering exactly `F`. -/
structure Repr (lo N : Nat) (f : Free) (F : Nat → Prop) : Prop where
  inside : FreeIn lo N f
  aligned : ∀ b ∈ f, 2 ^ b.1 ∣ b.2
  apart : f.Pairwise Apart
  exact : ∀ j, F j ↔ ∃ b ∈ f, b.2 ≤ j ∧ j < b.2 + 2 ^ b.1

theorem repr_erase {lo N : Nat} {f : Free} {F : Nat → Prop} (h : Repr lo N f F) {b : Nat × Nat}
    (hb : b ∈ f) : Repr lo N (f.erase b) (fun j => F j ∧ ¬ (b.2 ≤ j ∧ j < b.2 + 2 ^ b.1)) := by
  have hp := List.perm_cons_erase hb
  have hpw : (b :: f.erase b).Pairwise Apart := (hp.pairwise_iff Apart.symm).1 h.apart
  rw [List.pairwise_cons] at hpw
  refine ⟨fun x hx => h.inside x (List.mem_of_mem_erase hx),
    fun x hx => h.aligned x (List.mem_of_mem_erase hx), hpw.2, ?_⟩
  intro j
  rw [h.exact]
  constructor
  · rintro ⟨⟨x, hx, hj⟩, hn⟩
    rcases List.mem_cons.1 (hp.mem_iff.1 hx) with rfl | hx
    · exact absurd hj hn
    · exact ⟨x, hx, hj⟩
  · rintro ⟨x, hx, hj⟩
    refine ⟨⟨x, List.mem_of_mem_erase hx, hj⟩, ?_⟩
    have := hpw.1 x hx
    unfold Apart at this
    omega

theorem repr_cons {lo N : Nat} {f : Free} {F : Nat → Prop} (h : Repr lo N f F) (k a : Nat)
    (hal : 2 ^ k ∣ a) (hin : lo ≤ a ∧ a + 2 ^ k ≤ lo + N)
    (hdis : ∀ j, a ≤ j → j < a + 2 ^ k → ¬ F j) :
    Repr lo N ((k, a) :: f) (fun j => F j ∨ (a ≤ j ∧ j < a + 2 ^ k)) := by
  refine ⟨?_, ?_, ?_, ?_⟩
  · intro b hb
    rcases List.mem_cons.1 hb with rfl | hb
    · exact hin
    · exact h.inside b hb
  · intro b hb
    rcases List.mem_cons.1 hb with rfl | hb
    · exact hal
    · exact h.aligned b hb
  · rw [List.pairwise_cons]
    refine ⟨?_, h.apart⟩
    intro b hb
    unfold Apart
    simp only
    have hP := Nat.two_pow_pos k
    have hB := Nat.two_pow_pos b.1
    -- the two intervals share no point
    have h1 : ∀ j, a ≤ j → j < a + 2 ^ k → b.2 ≤ j → j < b.2 + 2 ^ b.1 → False := by
      intro j h1 h2 h3 h4
      exact hdis j h1 h2 ((h.exact j).2 ⟨b, hb, h3, h4⟩)
    rcases Nat.lt_or_ge a b.2 with hlt | hge
    · left
      rcases Nat.lt_or_ge b.2 (a + 2 ^ k) with h2 | h2
      · exact absurd (h1 b.2 (by omega) h2 (by omega) (by omega)) id
      · exact h2
    · right
      rcases Nat.lt_or_ge a (b.2 + 2 ^ b.1) with h2 | h2
      · exact absurd (h1 a (by omega) (by omega) hge h2) id
      · exact h2
  · intro j
    rw [h.exact]
    constructor
    · rintro (⟨x, hx, hj⟩ | hj)
      · exact ⟨x, List.mem_cons_of_mem _ hx, hj⟩
      · exact ⟨_, List.mem_cons_self, hj⟩
    · rintro ⟨x, hx, hj⟩
      rcases List.mem_cons.1 hx with rfl | hx
      · exact Or.inr hj
      · exact Or.inl ⟨x, hx, hj⟩

theorem repr_congr {lo N : Nat} {f : Free} {F G : Nat → Prop} (h : Repr lo N f F)
    (e : ∀ j, F j ↔ G j) : Repr lo N f G :=
  ⟨h.inside, h.aligned, h.apart, fun j => by rw [← e, h.exact]⟩

theorem removeBlock_repr (lo N : Nat) : ∀ (fuel : Nat) (f : Free) (F : Nat → Prop) (k a : Nat)
    (f' : Free), Repr lo N f F → removeBlock fuel f k = some (a, f') →
    2 ^ k ∣ a ∧ (∀ j, a ≤ j → j < a + 2 ^ k → F j) ∧
      Repr lo N f' (fun j => F j ∧ ¬ (a ≤ j ∧ j < a + 2 ^ k)) := by
  intro fuel
  induction fuel with
  | zero => intro f F k a f' _ h; simp [removeBlock] at h
  | succ fuel ih =>
    intro f F k a f' hf h
    rw [removeBlock] at h
    split at h
    · rename_i b hb
      simp only [Option.some.injEq, Prod.mk.injEq] at h
      obtain ⟨rfl, rfl⟩ := h
      have hk : b.1 = k := by simpa using List.find?_some hb
      have hm := List.mem_of_find?_eq_some hb
      subst hk
      exact ⟨hf.aligned b hm, fun j h1 h2 => (hf.exact j).2 ⟨b, hm, h1, h2⟩, repr_erase hf hm⟩
    · split at h
      · simp at h
      · rename_i a' f'' hr
        simp only [Option.some.injEq, Prod.mk.injEq] at h
        obtain ⟨rfl, rfl⟩ := h
        obtain ⟨h1, h2, h3⟩ := ih f F (k + 1) a' f'' hf hr
        have hin := (removeBlock_in lo N fuel f (k + 1) a' f'' hf.inside hr).1
        rw [Nat.pow_succ] at h2 h3 hin
        have hd : 2 ^ k ∣ 2 ^ (k + 1) := Nat.pow_dvd_pow _ (by omega)
        have hP := Nat.two_pow_pos k
        refine ⟨Nat.dvd_trans hd h1, fun j a1 a2 => h2 j a1 (by omega), ?_⟩
        have h4 := repr_cons h3 k (a' + 2 ^ k)
          (Nat.dvd_add (Nat.dvd_trans hd h1) (Nat.dvd_refl _)) (by omega)
          (by intro j a1 a2 hn; apply hn.2; omega)
        apply repr_congr h4
        intro j
        constructor
        · rintro (⟨a1, a2⟩ | a1)
          · exact ⟨a1, by omega⟩
          · exact ⟨h2 j (by omega) (by omega), by omega⟩
        · rintro ⟨a1, a2⟩
          by_cases h5 : a' ≤ j ∧ j < a' + 2 ^ k * 2
          · right; omega
          · left; exact ⟨a1, h5⟩

theorem buddy_union (k a : Nat) (hal : 2 ^ k ∣ a) :
    let a' := a / 2 ^ (k + 1) * 2 ^ (k + 1)
    2 ^ (k + 1) ∣ a' ∧
    ∀ j, (a' ≤ j ∧ j < a' + 2 ^ (k + 1)) ↔
      (a ≤ j ∧ j < a + 2 ^ k) ∨ (buddyOf k a ≤ j ∧ j < buddyOf k a + 2 ^ k) := by
  simp only
  refine ⟨Nat.dvd_mul_left _ _, ?_⟩
  have hP := Nat.two_pow_pos k
  obtain ⟨q, rfl⟩ := hal
  unfold buddyOf
  rw [Nat.mul_div_cancel_left _ hP, Nat.pow_succ, Nat.mul_div_mul_left _ _ hP]
  intro j
  generalize 2 ^ k = P at *
  split
  · rename_i he
    have : q / 2 * (P * 2) = P * q := by
      rw [Nat.mul_comm P 2, ← Nat.mul_assoc, Nat.div_mul_cancel (Nat.dvd_of_mod_eq_zero he),
        Nat.mul_comm]
    rw [this]; omega
  · rename_i ho
    have h1 : q = q / 2 * 2 + 1 := by omega
    have : q / 2 * (P * 2) + P = P * q := by
      have h2 : P * q = P * (q / 2 * 2 + 1) := by rw [← h1]
      rw [h2, Nat.mul_add, Nat.mul_one, Nat.mul_left_comm]
    omega

theorem addBlock_repr (lo n : Nat) (hlo : 2 ^ n ∣ lo) : ∀ (fuel : Nat) (f : Free)
    (F : Nat → Prop) (k a : Nat), Repr lo (2 ^ n) f F → 2 ^ k ∣ a →
    lo ≤ a ∧ a + 2 ^ k ≤ lo + 2 ^ n → (∀ j, a ≤ j → j < a + 2 ^ k → ¬ F j) →
    Repr lo (2 ^ n) (addBlock fuel f k a) (fun j => F j ∨ (a ≤ j ∧ j < a + 2 ^ k)) := by
  intro fuel
  induction fuel with
  | zero => intro f F k a hf hal hin hdis; exact repr_cons hf k a hal hin hdis
  | succ fuel ih =>
    intro f F k a hf hal hin hdis
    rw [addBlock]
    split
    · rename_i hm
      obtain ⟨u1, u2⟩ := buddy_union k a hal
      have hmi := merge_in lo n k a hlo hin (hf.inside _ hm)
      have hrep := ih _ _ (k + 1) _ (repr_erase hf hm) u1 hmi (by
        intro j h1 h2 h3
        rcases (u2 j).1 ⟨h1, h2⟩ with h4 | h4
        · exact hdis j h4.1 h4.2 h3.1
        · exact h3.2 h4)
      apply repr_congr hrep
      intro j
      rw [u2 j]
      constructor
      · rintro (h | h | h)
        · exact Or.inl h.1
        · exact Or.inr h
        · exact Or.inl ((hf.exact j).2 ⟨_, hm, h⟩)
      · rintro (h | h)
        · by_cases h5 : buddyOf k a ≤ j ∧ j < buddyOf k a + 2 ^ k
          · exact Or.inr (Or.inr h5)
          · exact Or.inl ⟨h, h5⟩
        · exact Or.inr (Or.inl h)
    · exact repr_cons hf k a hal hin hdis

/-- The stand-in meets `Exact` for every aligned mapping. -/
theorem buddy_exact (c : Cfg) (lo n : Nat) (hlo : 2 ^ n ∣ lo)
    (hb : c.backendEntry.word.getLsbD 3 = false) :
    Exact c (buddyRange c) (lo * 2 ^ c.bits) ((lo + 2 ^ n) * 2 ^ c.bits)
      (Repr lo (2 ^ n)) := by
  have hC : 0 < 2 ^ c.bits := Nat.two_pow_pos _
  have ec : c.chunk = 2 ^ c.bits := rfl
  have hcov : ∀ a m j, ChunkSize (2 ^ c.bits) m → (Covers (2 ^ c.bits) (a * 2 ^ c.bits) m j ↔
      a ≤ j ∧ j < a + 2 ^ Nat.log2 (m / 2 ^ c.bits)) := by
    intro a m j hm
    have := covers_unit (2 ^ c.bits) a (2 ^ Nat.log2 (m / 2 ^ c.bits)) j hC
    rwa [← size_order hm] at this
  have hblock : ∀ p m, BlockIn (2 ^ c.bits) (lo * 2 ^ c.bits) ((lo + 2 ^ n) * 2 ^ c.bits) p m →
      lo ≤ p / 2 ^ c.bits ∧
      p / 2 ^ c.bits + 2 ^ Nat.log2 (m / 2 ^ c.bits) ≤ lo + 2 ^ n := by
    rintro p m ⟨hs, ⟨q, rfl⟩, h1, h2⟩
    rw [Nat.mul_div_cancel_left _ hC]
    rw [Nat.mul_comm (2 ^ c.bits) q] at h1 h2
    rw [size_order hs, ← Nat.add_mul] at h2
    exact ⟨Nat.le_of_mul_le_mul_right h1 hC, Nat.le_of_mul_le_mul_right h2 hC⟩
  have hF : ∀ f F j, Repr lo (2 ^ n) f F → (∃ b ∈ f, b.2 = j) → F j := by
    rintro f F j hf ⟨b, hb, rfl⟩
    exact (hf.exact _).2 ⟨b, hb, by have := Nat.two_pow_pos b.1; omega⟩
  have hde : ∀ s F pm p m, Repr lo (2 ^ n) s F →
      BlockIn (2 ^ c.bits) (lo * 2 ^ c.bits) ((lo + 2 ^ n) * 2 ^ c.bits) p m → m ∣ p →
      (∀ j, Covers (2 ^ c.bits) p m j → ¬ F j) →
      Repr lo (2 ^ n) ((buddyRange c).dealloc s pm p m).1
        (fun j => F j ∨ Covers (2 ^ c.bits) p m j) := by
    intro s F pm p m hs hbl hal hdis
    have hb' := hblock p m hbl
    obtain ⟨hm, ⟨q, rfl⟩, -, -⟩ := hbl
    rw [Nat.mul_div_cancel_left _ hC] at hb'
    rw [Nat.mul_comm (2 ^ c.bits) q] at hal hdis ⊢
    simp only [hcov q m _ hm] at hdis ⊢
    simp only [buddyRange, ec, Nat.mul_div_cancel _ hC]
    apply addBlock_repr lo n hlo _ _ _ _ _ hs _ hb' (fun j h1 h2 => hdis j ⟨h1, h2⟩)
    rw [size_order hm] at hal
    exact Nat.dvd_of_mul_dvd_mul_right hC hal
  constructor
  · intro s F j hs hj
    obtain ⟨b, hb, h1, h2⟩ := (hs.exact j).1 hj
    have := hs.inside b hb
    have e : (lo + 2 ^ n) * 2 ^ c.bits - lo * 2 ^ c.bits = 2 ^ n * 2 ^ c.bits := by
      rw [Nat.add_mul]; omega
    rw [e, covers_unit _ _ _ _ hC]
    omega
  · intro s F pm m p hs hm h
    simp only [buddyRange, ec] at h ⊢
    split at h
    · simp at h
    · rename_i a f' hr
      simp only [Option.some.injEq] at h
      subst h
      obtain ⟨h1, h2, h3⟩ := removeBlock_repr lo _ _ _ _ _ _ _ hs hr
      have hin := (removeBlock_in lo _ _ _ _ _ _ hs.inside hr).1
      refine ⟨⟨hm, Nat.dvd_mul_left _ _, Nat.mul_le_mul_right _ hin.1, ?_⟩, ?_, ?_, ?_⟩
      · have h4 := Nat.mul_le_mul_right (2 ^ c.bits) hin.2
        rw [Nat.add_mul, ← size_order hm] at h4
        exact h4
      · have h4 := Nat.mul_dvd_mul_right h1 (2 ^ c.bits)
        rwa [← size_order hm] at h4
      · intro j hj
        rw [hcov a m j hm] at hj
        exact h2 j hj.1 hj.2
      · simp only [hcov a m _ hm]
        exact h3
  · intro s F pm m hs hm h
    simp only [buddyRange] at h ⊢
    split at h
    · rfl
    · simp at h
  · intro s F pm m j hs hm h
    simp only [buddyRange, ec] at h ⊢
    split at h
    · exact absurd rfl h
    · rename_i a f' hr
      simp only
      obtain ⟨h1, h2⟩ := mark_ne c hb pm f' j h
      exact ⟨(hF f' _ j (removeBlock_repr lo _ _ _ _ _ _ _ hs hr).2.2 h1).1, h2⟩
  · exact hde
  · intro s F pm p m j hs hbl hal hdis h
    have hrep := hde s F pm p m hs hbl hal hdis
    simp only [buddyRange, ec] at h hrep ⊢
    obtain ⟨h1, h2⟩ := mark_ne c hb pm _ j h
    exact ⟨hF _ _ j hrep h1, h2⟩

end Verif.Rpc
