import Verif.Bounds.Props
import Verif.Rpc.Spec

/-!
# The memory service: lemmas
-/

namespace Verif.Rpc

open Verif.Bounds Spec

theorem chunk_pos (c : Cfg) : 0 < c.chunk := Nat.two_pow_pos _

theorem sandboxBit_bit (i : Nat) : sandboxBit.getLsbD i = decide (i = 3) := by
  by_cases h : i < 64
  · have : ∀ i : Fin 64, sandboxBit.getLsbD i.1 = decide (i.1 = 3) := by decide
    exact this ⟨i, h⟩
  · rw [BitVec.getLsbD_of_ge _ _ (by omega)]
    simp; omega

theorem sandboxOwned_iff (e : Entry) : e.sandboxOwned = true ↔ e.word.getLsbD 3 = true := by
  rw [Entry.sandboxOwned, decide_eq_true_eq]
  constructor
  · intro h
    have h' := congrArg (fun w => w.getLsbD 3) h
    simpa [BitVec.getLsbD_and, sandboxBit_bit] using h'
  · intro h
    apply BitVec.eq_of_getLsbD_eq
    intro i hi
    rw [BitVec.getLsbD_and, sandboxBit_bit]
    by_cases h3 : i = 3
    · subst h3; simp [h]
    · simp [h3]

theorem claim_owned (e : Entry) : (e.claimForSandbox).word.getLsbD 3 = true := by
  simp [Entry.claimForSandbox, sandboxBit_bit]

theorem pow2_of_isPow2 (x : Word) (h0 : x.toNat ≠ 0) : isPow2 x = true ↔ ∃ k, x.toNat = 2 ^ k := by
  have key := Nat.and_sub_one_eq_zero_iff_isPowerOfTwo (n := x.toNat) h0
  rw [isPow2, decide_eq_true_eq]
  have hsub : (x - 1).toNat = x.toNat - 1 := by
    have : 1 ≤ x.toNat := by omega
    bv_omega
  have : (x &&& (x - 1) = 0) ↔ (x.toNat &&& (x.toNat - 1)) = 0 := by
    rw [← BitVec.toNat_inj, BitVec.toNat_and, hsub]
    rfl
  rw [this, key]
  rfl

theorem chunkSize_dvd {b n : Nat} (h : ChunkSize (2 ^ b) n) : 2 ^ b ∣ n := by
  obtain ⟨h1, k, rfl⟩ := h
  apply Nat.pow_dvd_pow
  exact (Nat.pow_le_pow_iff_right (by omega)).1 h1

theorem chunkSize_iff (c : Cfg) (x : Word) :
    ¬ (x.toNat < c.chunk ∨ isPow2 x = false) ↔ ChunkSize (2 ^ c.bits) x.toNat := by
  have hc := chunk_pos c
  have e : c.chunk = 2 ^ c.bits := rfl
  rw [← e]
  simp only [ChunkSize, not_or, Nat.not_lt, Bool.not_eq_false]
  constructor
  · rintro ⟨h1, h2⟩
    exact ⟨h1, (pow2_of_isPow2 x (by omega)).1 h2⟩
  · rintro ⟨h1, h2⟩
    exact ⟨h1, (pow2_of_isPow2 x (by omega)).2 h2⟩

theorem chunkSize_iff' (c : Cfg) (x : Word) :
    (isPow2 x = true ∧ c.chunk ≤ x.toNat) ↔ ChunkSize (2 ^ c.bits) x.toNat := by
  rw [← chunkSize_iff]
  simp only [not_or, Nat.not_lt, Bool.not_eq_false]
  exact ⟨fun h => ⟨h.2, h.1⟩, fun h => ⟨h.2, h.1⟩⟩

theorem setMeta_apply (c : Cfg) (t : Entry) (stop j : Nat) : ∀ (d : Nat) (pm : Pm) (a : Nat),
    stop - a ≤ d → a % c.chunk = 0 →
    setMeta c pm a stop t j = if a ≤ j * c.chunk ∧ j * c.chunk < stop then t else pm j := by
  have hc := chunk_pos c
  intro d
  induction d with
  | zero =>
    intro pm a hd ha
    rw [setMeta, if_neg (by omega), if_neg (by omega)]
  | succ d ih =>
    intro pm a hd ha
    rw [setMeta]
    split
    · rename_i hlt
      rw [ih _ _ (by omega) (by rw [Nat.add_mod_right]; exact ha)]
      have hdiv : a / c.chunk * c.chunk = a := Nat.div_mul_cancel (Nat.dvd_of_mod_eq_zero ha)
      simp only [Pm.set]
      by_cases hj : j = a / c.chunk
      · subst hj
        rw [hdiv]
        rw [if_neg (by omega), if_pos rfl, if_pos (by omega)]
      · rw [if_neg hj]
        have hne : j * c.chunk ≠ a := by
          intro h; apply hj; rw [← h, Nat.mul_div_cancel _ hc]
        by_cases h1 : a ≤ j * c.chunk ∧ j * c.chunk < stop
        · rw [if_pos h1, if_pos]
          refine ⟨?_, h1.2⟩
          -- a multiple of the chunk size above `a` is at least `a + chunk`
          have h2 : a / c.chunk < j := by
            apply Nat.lt_of_mul_lt_mul_right (a := c.chunk)
            rw [hdiv]; omega
          have h3 : (a / c.chunk + 1) * c.chunk ≤ j * c.chunk := Nat.mul_le_mul_right _ h2
          rw [Nat.add_mul, hdiv] at h3
          omega
        · rw [if_neg h1, if_neg (by omega)]
    · rw [if_neg (by omega)]

theorem covers_iff (C p n j : Nat) (hC : 0 < C) (hp : C ∣ p) (hn : C ∣ n) :
    Covers C p n j ↔ p ≤ j * C ∧ j * C < p + n := by
  obtain ⟨a, rfl⟩ := hp
  obtain ⟨b, rfl⟩ := hn
  unfold Covers
  rw [← Nat.mul_add, Nat.mul_comm C (a + b), Nat.mul_lt_mul_right hC, Nat.mul_le_mul_right_iff hC]
  omega

theorem setMeta_block (c : Cfg) (t : Entry) (pm : Pm) (p n j : Nat) (hp : 2 ^ c.bits ∣ p)
    (hn : 2 ^ c.bits ∣ n) :
    setMeta c pm p (p + n) t j = if Covers (2 ^ c.bits) p n j then t else pm j := by
  have h := setMeta_apply c t (p + n) j _ pm p (Nat.le_refl _) (Nat.mod_eq_zero_of_dvd hp)
  rw [h]
  have e : c.chunk = 2 ^ c.bits := rfl
  rw [e]
  simp only [covers_iff _ p n j (Nat.two_pow_pos _) hp hn]

theorem allOwned_iff (c : Cfg) (pm : Pm) (stop : Nat) : ∀ (d a : Nat),
    stop - a ≤ d → a % c.chunk = 0 →
    (allOwned c pm a stop = true ↔
      ∀ j, a ≤ j * c.chunk → j * c.chunk < stop → (pm j).word.getLsbD 3 = true) := by
  have hc := chunk_pos c
  intro d
  induction d with
  | zero =>
    intro a hd ha
    rw [allOwned, if_neg (by omega)]
    simp only [true_iff]
    intro j h1 h2; omega
  | succ d ih =>
    intro a hd ha
    rw [allOwned]
    have hdiv : a / c.chunk * c.chunk = a := Nat.div_mul_cancel (Nat.dvd_of_mod_eq_zero ha)
    split
    · rename_i hlt
      split
      · rename_i hown
        rw [sandboxOwned_iff] at hown
        rw [ih _ (by omega) (by rw [Nat.add_mod_right]; exact ha)]
        constructor
        · intro h j h1 h2
          by_cases hj : j = a / c.chunk
          · subst hj; exact hown
          · apply h j _ h2
            have hne : j * c.chunk ≠ a := by
              intro h; apply hj; rw [← h, Nat.mul_div_cancel _ hc]
            have h2 : a / c.chunk < j := by
              apply Nat.lt_of_mul_lt_mul_right (a := c.chunk)
              rw [hdiv]; omega
            have h3 : (a / c.chunk + 1) * c.chunk ≤ j * c.chunk := Nat.mul_le_mul_right _ h2
            rw [Nat.add_mul, hdiv] at h3
            omega
        · intro h j h1 h2
          exact h j (by omega) h2
      · rename_i hown
        simp only [Bool.false_eq_true, false_iff]
        intro h
        apply hown
        rw [sandboxOwned_iff]
        exact h _ (by omega) (by omega)
    · simp only [true_iff]
      intro j h1 h2; omega

theorem allOwned_block (c : Cfg) (pm : Pm) (p n : Nat) (hp : 2 ^ c.bits ∣ p)
    (hn : 2 ^ c.bits ∣ n) :
    allOwned c pm p (p + n) = true ↔ ∀ j, Covers (2 ^ c.bits) p n j → Owned pm j := by
  rw [allOwned_iff c pm (p + n) _ p (Nat.le_refl _) (Nat.mod_eq_zero_of_dvd hp)]
  have e : c.chunk = 2 ^ c.bits := rfl
  rw [e]
  simp only [covers_iff _ p n _ (Nat.two_pow_pos _) hp hn, and_imp, Owned]

theorem region_base (c : Cfg) (m : Mapping) (h : MapOk c m) :
    (m.region c).base.toNat = m.base.toNat + c.hdr.toNat ∧
    (m.region c).top.toNat = m.base.toNat + m.size.toNat := by
  have h1 := h.no_wrap
  have h2 := h.room
  simp only [Mapping.region, Region.ofMapping, Region.mk']
  constructor <;> bv_omega

theorem region_contains (c : Cfg) (m : Mapping) (h : MapOk c m) (ptr sz : Word) :
    contains c.hdr (m.region c) ptr sz = true ↔
      m.base.toNat + 2 * c.hdr.toNat ≤ ptr.toNat ∧
      ptr.toNat < m.base.toNat + m.size.toNat ∧
      ptr.toNat + sz.toNat ≤ m.base.toNat + m.size.toNat := by
  have hwf : (m.region c).WF c.hdr := ofMapping_wf _ _ _ h.room h.no_wrap
  rw [contains_iff c.hdr _ hwf, (region_base c m h).1, (region_base c m h).2]
  omega

theorem map_dvd (c : Cfg) (m : Mapping) (h : MapOk c m) :
    2 ^ c.bits ∣ m.base.toNat ∧ 2 ^ c.bits ∣ m.size.toNat := by
  obtain ⟨k, hk⟩ := h.pow2
  have h2 : 2 ^ c.bits ∣ m.size.toNat := by rw [hk]; exact Nat.dvd_mul_left _ _
  exact ⟨Nat.dvd_trans h2 h.aligned, h2⟩

end Verif.Rpc
