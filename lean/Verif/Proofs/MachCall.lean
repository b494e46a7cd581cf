import Verif.SpecMachine
import Verif.Proofs.X86Sim
import Verif.Proofs.MachText

/-
From `Sim` to calls in the sense of `Verif/SpecMachine.lean`.
-/

namespace X86
open C Avx Spec

variable {K : Machine} {A : Word} {a : Array Int} {s : State}

/-- Regions one after the other. -/
theorem apart_of {B D : Word} {k l : Nat} (h : B.toNat + k ≤ D.toNat) (h' : D.toNat + l ≤ 2 ^ 64) : Apart B k D l := by
  intro i hi j hj e
  have := congrArg BitVec.toNat e
  rw [BitVec.toNat_add, BitVec.toNat_add, BitVec.toNat_ofNat, BitVec.toNat_ofNat] at this
  omega

theorem Apart.symm {B D : Word} {k l : Nat} (h : Apart B k D l) : Apart D l B k := fun i hi j hj e => h j hj i hi e.symm

theorem same_val {n l k : Nat} {m0 m : Memory} {B x : Word} (hs : Same A n m0 m) (hd : Apart A (4 * n) B l) {o : Nat}
    (hx : x = B + BitVec.ofNat 64 o) (ho : o + k ≤ l) : val m x k = val m0 x k := by
  subst hx
  apply val_congr
  intro j hj
  apply hs
  intro i hi h
  rw [BitVec.add_assoc, ← BitVec.ofNat_add] at h
  exact hd i hi (o + j) (by omega) h.symm

theorem allowed_read {l k : Nat} {B x : Word} (hr : Readable K B l) {o : Nat} (hx : x = B + BitVec.ofNat 64 o) (ho : o + k ≤ l) :
    allowed K.readable x k = true := by
  subst hx
  apply allowed_of
  intro j hj
  rw [BitVec.add_assoc, ← BitVec.ofNat_add]
  exact hr _ (by omega)

theorem Table.tab {P : Word} {p : Array Int} (T : Table K A a s P p) : Tab K A a.size s.mem P p := by
  intro m hm i hi
  unfold ld16
  rw [if_pos (allowed_read T.readable rfl (by omega)), ← T.holds i hi]
  unfold int16At
  rw [same_val hm T.apart rfl (by omega)]

theorem Operand.src {B : Word} {b : Array Int} (T : Operand K A a s B b) : Src K A a.size s.mem B b := by
  intro m hm i hi
  unfold ld32
  rw [if_pos (allowed_read T.readable rfl (by omega)), ← T.holds i hi]
  unfold int32At
  rw [same_val hm T.apart rfl (by omega)]

theorem addr_le (c : Code.Const) : Code.addr c % 32 = 0 ∧ Code.addr c + 32 ≤ 512 := by
  cases c <;> decide

theorem Call.host (H : Call K A a s) : Host K A a.size s.mem where
  hn := H.size
  hA := H.low
  rd := H.readable
  wr := H.writable
  al := by
    intro c
    have := addr_le c
    have := H.loaded.align
    rw [BitVec.toNat_add, BitVec.toNat_ofNat]
    omega
  cst := by
    intro c m hm
    have hl : ∀ j < 8, ld32 K m (K.data + BitVec.ofNat 64 (Code.addr c) + BitVec.ofNat 64 (4 * j)) = .ok ((Code.longs c).getD j 0) := by
      intro j hj
      have := addr_le c
      have e : K.data + BitVec.ofNat 64 (Code.addr c) + BitVec.ofNat 64 (4 * j) = K.data + BitVec.ofNat 64 (Code.addr c + 4 * j) := by
        rw [BitVec.add_assoc, ← BitVec.ofNat_add]
      unfold ld32
      rw [if_pos (allowed_read H.loaded.readable e (by omega)), ← H.loaded.longs c j hj, e]
      unfold int32At
      rw [same_val hm H.data_apart rfl (by omega)]
    have h0 := hl 0 (by decide)
    rw [show K.data + BitVec.ofNat 64 (Code.addr c) + BitVec.ofNat 64 (4 * 0) = K.data + BitVec.ofNat 64 (Code.addr c) by simp] at h0
    have h1 := hl 1 (by decide)
    have h2 := hl 2 (by decide)
    have h3 := hl 3 (by decide)
    have h4 := hl 4 (by decide)
    have h5 := hl 5 (by decide)
    have h6 := hl 6 (by decide)
    have h7 := hl 7 (by decide)
    generalize K.data + BitVec.ofNat 64 (Code.addr c) = x at *
    change ld32 K m (x + 4) = _ at h1
    change ld32 K m (x + 8) = _ at h2
    change ld32 K m (x + 12) = _ at h3
    change ld32 K m (x + 16) = _ at h4
    change ld32 K m (x + 20) = _ at h5
    change ld32 K m (x + 24) = _ at h6
    change ld32 K m (x + 28) = _ at h7
    unfold Load.exec
    rw [h0, h1, h2, h3, h4, h5, h6, h7]
    cases c <;> rfl

theorem Call.env (H : Call K A a s) : Env A a.size s.mem s.mem a :=
  ⟨rfl, H.holds, fun _ _ => rfl⟩

theorem Call.int32 (H : Call K A a s) : ∀ i < a.size, I32 (elt a i) := by
  intro i hi
  rw [← H.holds i hi]
  exact I32_toI32 _

theorem LanesOk.wf (H : LanesOk s) : WF s.ymm := by
  intro k
  obtain ⟨⟨h0, h1, h2, h3⟩, h4, h5, h6, h7⟩ := H k
  exact ⟨h0, h1, h2, h3, h4, h5, h6, h7⟩

theorem Call.returns (H : Call K A a s) {f : Code.Label} {c : Text} (hc : codeAt f Code.prog = c) {x : M (Array Int)} {a' : Array Int}
    (hx : x = .ok a') (h : Sim K x c s (RetPost A a.size s.mem s.gpr)) : Returns K f A a s a' := by
  obtain ⟨c', s', ⟨k, hk⟩, hw, ⟨⟨c1, rfl⟩, E, hg⟩⟩ := h H.lanes.wf a' hx
  refine ⟨k + 1, { s' with gpr := upd s'.gpr rsp (s'.gpr rsp + 8) }, E.size, ?_, ?_, ?_, ?_, ?_, ?_⟩
  · intro fuel hf
    obtain ⟨f, rfl⟩ : ∃ f, fuel = f + 1 + k := ⟨fuel - k - 1, by omega⟩
    rw [hc, hk]
    show (ld64 K s'.mem (s'.gpr rsp) >>= fun a => _) = _
    have e : s'.gpr rsp = s.gpr rsp := hg rsp rfl
    unfold ld64
    rw [e, if_pos (allowed_read H.stack (o := 0) (by simp) (by omega)),
      same_val E.same H.stack_apart (o := 0) (by simp) (by omega), ← e]
    rfl
  · show s'.gpr rsp + 8 = _
    rw [show s'.gpr rsp = s.gpr rsp from hg rsp rfl]
  · intro r hr
    simp only [List.mem_cons, List.not_mem_nil, or_false] at hr
    rcases hr with rfl | rfl | rfl | rfl | rfl | rfl
    · exact hg rbx rfl
    · exact hg rbp rfl
    · exact hg r12 rfl
    · exact hg r13 rfl
    · exact hg r14 rfl
    · exact hg r15 rfl
  · intro i hi
    exact E.val i (E.size ▸ hi)
  · intro b hb
    exact E.same b hb
  · intro k
    obtain ⟨h0, h1, h2, h3, h4, h5, h6, h7⟩ := hw k
    exact ⟨⟨h0, h1, h2, h3⟩, h4, h5, h6, h7⟩

end X86
