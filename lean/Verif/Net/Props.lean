import Verif.Strings.Props
import Verif.Net.Spec

/-!
# Network policy (properties C18, C19)
-/

namespace Verif.Net

open Verif.Bounds Verif.Strings Verif.Callback Spec

theorem set_get (ps : Policies) (op op' : Op) (p : Policy) :
    (ps.set op p).get op' = if op' = op then p else ps.get op' := by
  cases op <;> cases op' <;> rfl

theorem run_get (ps : Policies) (c : Config) (op : Op) (h : target c ≠ op) :
    (c.run ps).get op = ps.get op := by
  cases c <;> simp only [Config.run, target] at * <;> rw [set_get, if_neg (fun e => h e.symm)]

theorem foldl_get (hist : List Config) (op : Op) (h : Untouched hist op) : ∀ ps : Policies,
    (hist.foldl Config.run ps).get op = ps.get op := by
  induction hist with
  | nil => intro ps; rfl
  | cons c hist ih =>
    intro ps
    simp only [List.foldl_cons]
    rw [ih (fun x hx => h x (by simp [hx])), run_get ps c op (h c (by simp))]

/-- **C19.** An operation that was never configured is denied: the result is `-1` with `ENOSYS`
and nothing is called. -/
theorem invoke_default_deny {α : Type} (hist : List Config) (op : Op) (h : Untouched hist op)
    (call : Callee → α → Int × Int) (arg : α) :
    invoke (configure hist) op call arg = .ok ((-1, 38), []) := by
  unfold invoke configure
  rw [foldl_get hist op h]
  cases op <;> rfl

/-- The hypothesis can be met by a history that configures other operations. -/
example : Untouched [.allow .bind, .register .connect (some 3)] .getAddrInfo := by
  intro x hx; simp at hx; rcases hx with rfl | rfl <;> decide

/-- **C19.** After any history, an operation behaves according to the last call made for it,
whatever was done for other operations before or after: denied without calling anything, passed to
the system function of the same operation, or passed to the registered callback, in the latter two
cases exactly once and with the same arguments. -/
theorem invoke_last (α : Type) (hist : List Config) (op : Op) (c : Config)
    (h : IsLast hist op c) (call : Callee → α → Int × Int) (arg : α) :
    (c = .deny op → invoke (configure hist) op call arg = .ok ((-1, 38), [])) ∧
    (c = .allow op → invoke (configure hist) op call arg =
      .ok (call (.system op) arg, [(.system op, arg)])) ∧
    (∀ f, c = .register op (some f) → invoke (configure hist) op call arg =
      .ok (call (.callback f) arg, [(.callback f, arg)])) ∧
    (c = .register op none → invoke (configure hist) op call arg = .throws) := by
  obtain ⟨before, after, rfl, hc, hafter⟩ := h
  have hget : ∀ p, (∀ ps, c.run ps = ps.set op p) →
      (configure (before ++ c :: after)).get op = p := by
    intro p hrun
    unfold configure
    rw [List.foldl_append, List.foldl_cons, foldl_get after op hafter, hrun, set_get, if_pos rfl]
  refine ⟨?_, ?_, ?_, ?_⟩
  · rintro rfl
    unfold invoke; rw [hget .deny (fun _ => rfl)]; rfl
  · rintro rfl
    unfold invoke; rw [hget .allow (fun _ => rfl)]
  · rintro f rfl
    unfold invoke; rw [hget (.handler (some f)) (fun _ => rfl)]
  · rintro rfl
    unfold invoke; rw [hget (.handler none) (fun _ => rfl)]

/-- The hypothesis can be met with other calls before and after. -/
example : IsLast [.allow .bind, .deny .connect, .register .bind (some 3), .allow .connect] .bind
    (.register .bind (some 3)) :=
  ⟨[.allow .bind, .deny .connect], [.allow .connect], rfl, rfl, by decide⟩

/-- A request that must be refused: no descriptor, too long, or not inside the heap. -/
def BadSock (hdr : Word) (r : Region) (h : Int) (addr : Word) (len : BitVec 32) : Prop :=
  h < 0 ∨ 4096 < len.toNat ∨ addr.toNat < r.base.toNat + hdr.toNat ∨ r.top.toNat ≤ addr.toNat ∨
    r.top.toNat < addr.toNat + len.toNat

/-- **C18.** A bad request is answered with `-EINVAL`; the policy is not called and nothing is
read. -/
theorem sock_refused (hdr : Word) (r : Region) (hwf : r.WF hdr) (ps : Policies) (op : Op)
    (call : Callee → SockArgs → Int × Int) (rd : Mem) (h : Int) (addr : Word) (len : BitVec 32)
    (hbad : BadSock hdr r h addr len) :
    handleBindOrConnect hdr r ps op call rd h addr len = ⟨.ok ⟨-22, -1⟩, [], []⟩ := by
  unfold handleBindOrConnect
  rw [if_pos]
  · rfl
  · rcases hbad with hb | hb | hb
    · exact Or.inl (by omega)
    · exact Or.inr (Or.inl hb)
    · refine Or.inr (Or.inr ?_)
      rw [Bool.eq_false_iff]
      intro hc
      rw [contains_iff hdr r hwf] at hc
      have : (len.setWidth 64).toNat = len.toNat := by
        simp only [BitVec.toNat_setWidth]
        have := len.isLt
        omega
      omega

/-- Bad requests of several kinds exist. -/
example : BadSock 0x100 ⟨0x10000, 0x20000⟩ (-1) 0x18000 16 ∧
    BadSock 0x100 ⟨0x10000, 0x20000⟩ 4 0x18000 4097 ∧
    BadSock 0x100 ⟨0x10000, 0x20000⟩ 4 0x1fff8 16 ∧ (⟨0x10000, 0x20000⟩ : Region).WF 0x100 := by
  refine ⟨Or.inl (by decide), Or.inr (Or.inl (by decide)), ?_, by decide⟩
  exact Or.inr (Or.inr (Or.inr (Or.inr (by decide))))

/-- **C18.** Any other request reaches the policy exactly once at most, with the sandbox's own
descriptor and a private 4096-byte buffer that holds the `len` bytes read, followed by filler; the
copy stays inside the buffer (no undefined behaviour) and all reads are inside the block. -/
theorem sock_mediated (hdr : Word) (r : Region) (hwf : r.WF hdr) (ps : Policies) (op : Op)
    (call : Callee → SockArgs → Int × Int) (rd : Mem) (h : Int) (addr : Word) (len : BitVec 32)
    (hgood : ¬ BadSock hdr r h addr len) :
    ∃ buf reads, buf.length = 4096 ∧
      (∀ i, i < len.toNat → buf[i]? = some (rd (BitVec.ofNat 64 (addr.toNat + i)))) ∧
      (∀ i, len.toNat ≤ i → i < 4096 → buf[i]? = some 0xa5) ∧
      (∀ a ∈ reads, addr.toNat ≤ a.toNat ∧ a.toNat < addr.toNat + len.toNat) ∧
      handleBindOrConnect hdr r ps op call rd h addr len =
        (match invoke ps op call ⟨h, buf, len.toNat⟩ with
          | .ok ((ret, errno), calls) =>
            ⟨.ok ⟨if 0 ≤ ret then ret else -errno, -1⟩, calls, reads⟩
          | .abort => ⟨.abort, [], reads⟩
          | .throws => ⟨.throws, [], reads⟩
          | .ub => ⟨.ub, [], reads⟩) := by
  have hg : 0 ≤ h ∧ len.toNat ≤ 4096 ∧ r.base.toNat + hdr.toNat ≤ addr.toNat ∧
      addr.toNat < r.top.toNat ∧ addr.toNat + len.toNat ≤ r.top.toNat := by
    unfold BadSock at hgood
    omega
  obtain ⟨h0, h1, h2, h3, h4⟩ := hg
  have hlen : (len.setWidth 64).toNat = len.toNat := by
    simp only [BitVec.toNat_setWidth]
    have := len.isLt
    omega
  have hc : contains hdr r addr (len.setWidth 64) = true := by
    rw [contains_iff hdr r hwf]; omega
  have htop := r.top.isLt
  have hcopy := copyOut_spec rd addr 0 len.toNat (List.replicate 4096 (0xa5 : Byte))
    (by rw [List.length_replicate]; omega)
  have hreads := copyOut_reads rd addr 0 len.toNat (List.replicate 4096 (0xa5 : Byte))
  obtain ⟨b, e1, e2, e3, e4⟩ := hcopy
  have haddr : ∀ j, addr + BitVec.ofNat 64 j = BitVec.ofNat 64 (addr.toNat + j) := by
    intro j
    simp [BitVec.ofNat_add]
  refine ⟨b, (copyOut rd addr 0 len.toNat (List.replicate 4096 (0xa5 : Byte))).2,
    by rw [e2, List.length_replicate], ?_, ?_, ?_, ?_⟩
  rotate_left 3
  · unfold handleBindOrConnect
    rw [if_neg (by
      rintro (hb | hb | hb)
      · omega
      · unfold maxSaneSockAddrSize at hb; omega
      · rw [hc] at hb; cases hb)]
    simp only [maxSaneSockAddrSize]
    rcases hr : copyOut rd addr 0 len.toNat (List.replicate 4096 (0xa5 : Byte)) with ⟨o, tr⟩
    rw [hr] at e1
    simp only at e1
    subst e1
    rfl
  · intro i hi
    rw [e3 i (by omega) (by omega), haddr]
  · intro i hi hi'
    rw [e4 i (Or.inr (by omega)), List.getElem?_replicate, if_pos hi']
  · intro a ha
    have hr2 := hreads a
    rcases hr : copyOut rd addr 0 len.toNat (List.replicate 4096 (0xa5 : Byte)) with ⟨o, tr⟩
    rw [hr] at hr2 ha
    obtain ⟨j, _, hj, rfl⟩ := hr2 ha
    rw [haddr]
    simp only [BitVec.toNat_ofNat]
    omega

/-- A good request exists. -/
example : ¬ BadSock 0x100 ⟨0x10000, 0x20000⟩ 4 0x18000 16 := by
  unfold BadSock; decide

/-- **C18.** In every case whatsoever, if the policy was called then with the sandbox's descriptor,
a 4096-byte buffer and a length of at most 4096; and there is no undefined behaviour. -/
theorem sock_calls (hdr : Word) (r : Region) (hwf : r.WF hdr) (ps : Policies) (op : Op)
    (call : Callee → SockArgs → Int × Int) (rd : Mem) (h : Int) (addr : Word) (len : BitVec 32) :
    (∀ c ∈ (handleBindOrConnect hdr r ps op call rd h addr len).calls,
      c.2.fd = h ∧ 0 ≤ h ∧ c.2.buffer.length = 4096 ∧ c.2.len = len.toNat ∧ len.toNat ≤ 4096) ∧
    (handleBindOrConnect hdr r ps op call rd h addr len).calls.length ≤ 1 ∧
    (handleBindOrConnect hdr r ps op call rd h addr len).result ≠ .ub := by
  by_cases hb : BadSock hdr r h addr len
  · rw [sock_refused hdr r hwf ps op call rd h addr len hb]
    simp
  · obtain ⟨buf, reads, hl, _, _, _, he⟩ := sock_mediated hdr r hwf ps op call rd h addr len hb
    rw [he]
    have : 0 ≤ h ∧ len.toNat ≤ 4096 := by unfold BadSock at hb; omega
    unfold invoke
    split <;> (rename_i hm; split at hm <;> simp at hm <;> try (obtain ⟨-, rfl⟩ := hm)) <;>
      simp [*]

end Verif.Net
