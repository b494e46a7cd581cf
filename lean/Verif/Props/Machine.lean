import Verif.Proofs.MachCall
import Verif.Proofs.MachCpuid
import Verif.Proofs.MachElem
import Verif.Proofs.MachMul
import Verif.Proofs.MachCtR
import Verif.Proofs.MachCtS
import Verif.Proofs.MachGsR
import Verif.Proofs.MachGsS
import Verif.Props.AsmElementwise
import Verif.Props.AsmTransforms

/-
C76: the text of src/ntt_asm.S, executed instruction by instruction on a processor with registers, flags and a memory of bytes,
computes the functions of src/ntt_red.c, returns to its caller and changes nothing but the array.
-/

namespace Props
open C Spec X86

section
variable {K : Machine} {A P B D : Word} {a p b d a' : Array Int} {s : State} {m k : Nat}

private theorem at0 {x : Word} (h : x = A) : x = A + BitVec.ofNat 64 0 := by
  rw [h]
  simp

private theorem int32 (H : Call K A a s) : Int32Array a := fun i hi => H.int32 i hi

private theorem int16 (T : Table K A a s P p) : Int16Array p := by
  intro i hi
  rw [← T.holds i hi]
  have h0 := (s.mem (P + BitVec.ofNat 64 (2 * i))).isLt
  have h1 := (s.mem (P + BitVec.ofNat 64 (2 * i) + 1)).isLt
  have h2 : val s.mem (P + BitVec.ofNat 64 (2 * i)) 2 = (s.mem (P + BitVec.ofNat 64 (2 * i))).toNat +
      256 * ((s.mem (P + BitVec.ofNat 64 (2 * i) + 1)).toNat + 256 * 0) := rfl
  unfold int16At Avx.sx16
  omega

private theorem exp_le (H : Call K A a s) (hs : a.size = 2 ^ k) : k ≤ 31 := by
  have := H.size
  rw [hs] at this
  have := (Nat.pow_lt_pow_iff_right (by decide : 1 < 2)).mp this
  omega

/-- The functions without further arguments, for all contents of the array. -/
theorem C76_elementwise (H : Call K A a s) (hm : 0 < m) (hs : a.size = 16 * m) :
    ∀ F ∈ ([(.reduce_array_asm, NttRed.reduce_array), (.reduce_array_asm2, NttRed.reduce_array),
      (.reduce_array_twice_asm, NttRed.reduce_array_twice), (.reduce_array_twice_asm2, NttRed.reduce_array_twice),
      (.shift_array_asm, NttRed.shift_array)] : List (Code.Label × (Array Int → Nat → M (Array Int)))),
    ∃ a', F.2 a a.size = .ok a' ∧ Returns K F.1 A a s a' := by
  have hn := H.size
  have hr := int32 H
  have h0 := at0 H.arg1
  have h1 := H.arg2
  obtain ⟨u, hu, -⟩ := NttRed.run_reduce_array hn rfl H.int32
  obtain ⟨v, hv, -⟩ := NttRed.run_reduce_array_twice hn rfl H.int32
  obtain ⟨w, hw, -⟩ := NttRed.run_shift_array hn rfl H.int32
  intro F hF
  simp only [List.mem_cons, List.not_mem_nil, or_false] at hF
  rcases hF with rfl | rfl | rfl | rfl | rfl
  · exact ⟨u, hu, H.returns codeAt_reduce_array_asm (by rw [hs, C35_reduce_array_asm hm (hs ▸ hn) a hs hr, ← hs, hu])
      (reduce_array_asm_sim H.host h0 h1 .refl H.env)⟩
  · exact ⟨u, hu, H.returns codeAt_reduce_array_asm2 (by rw [hs, C35_reduce_array_asm2 hm (hs ▸ hn) a hs hr, ← hs, hu])
      (reduce_array_asm2_sim H.host h0 h1 .refl H.env)⟩
  · exact ⟨v, hv, H.returns codeAt_reduce_array_twice_asm (by rw [hs, C35_reduce_array_twice_asm hm (hs ▸ hn) a hs hr, ← hs, hv])
      (reduce_array_twice_asm_sim H.host h0 h1 .refl H.env)⟩
  · exact ⟨v, hv, H.returns codeAt_reduce_array_twice_asm2 (by rw [hs, C35_reduce_array_twice_asm2 hm (hs ▸ hn) a hs hr, ← hs, hv])
      (reduce_array_twice_asm2_sim H.host h0 h1 .refl H.env)⟩
  · exact ⟨w, hw, H.returns codeAt_shift_array_asm (by rw [hs, C35_shift_array_asm hm (hs ▸ hn) a hs hr, ← hs, hw])
      (shift_array_asm_sim H.host h0 h1 .refl H.env)⟩

/-- `correct_asm`, for the documented contents of the array (and some more). -/
theorem C76_correct (H : Call K A a s) (hm : 0 < m) (hs : a.size = 16 * m) (hr : InRange (-65536) 65535 a)
    (h : NttRed.correct a a.size = .ok a') : Returns K .correct_asm A a s a' :=
  H.returns codeAt_correct_asm (by rw [hs, C35_correct_asm hm (hs ▸ H.size) a hs hr, ← hs, h])
    (correct_asm_sim H.host (at0 H.arg1) H.arg2 .refl H.env)

/-- Multiplication by a table in the third argument. -/
theorem C76_mul_reduce_array16 (H : Call K A a s) (hm : 0 < m) (hs : a.size = 16 * m) (T : Table K A a s P p)
    (h3 : s.gpr rdx = P) (hp : a.size ≤ p.size) (h : NttRed.mul_reduce_array16 a a.size p = .ok a') :
    Returns K .mul_reduce_array16_asm A a s a' ∧ Returns K .mul_reduce_array16_asm2 A a s a' := by
  rw [hs] at h hp
  exact ⟨H.returns codeAt_mul_reduce_array16_asm (by rw [hs, C35_mul_reduce_array16_asm hm (hs ▸ H.size) a p a' hs hp h])
      (mul_reduce_array16_asm_sim H.host (at0 H.arg1) H.arg2 T.tab (at0 h3) .refl H.env),
    H.returns codeAt_mul_reduce_array16_asm2 (by rw [hs, C35_mul_reduce_array16_asm2 hm (hs ▸ H.size) a p a' hs hp h])
      (mul_reduce_array16_asm2_sim H.host (at0 H.arg1) H.arg2 T.tab (at0 h3) .refl H.env)⟩

private theorem opnd (h : OperandOrSelf K A a s B b) : Opnd K A a.size s.mem a B b := by
  rcases h with ⟨rfl, rfl⟩ | h
  · exact .inr ⟨rfl, rfl⟩
  · exact .inl h.src

/-- Product of two arrays in the third and fourth argument; the destination may be one of them, or both (`a` is its initial contents). -/
theorem C76_mul_reduce_array (H : Call K A a s) (hm : 0 < m) (hs : a.size = 16 * m) (TB : OperandOrSelf K A a s B b)
    (TD : OperandOrSelf K A a s D d) (h3 : s.gpr rdx = B) (h4 : s.gpr rcx = D) (hb : a.size ≤ b.size) (hd : a.size ≤ d.size)
    (h : NttRed.mul_reduce_array a a.size b d = .ok a') : Returns K .mul_reduce_array_asm A a s a' := by
  rw [hs] at h hb hd
  exact H.returns codeAt_mul_reduce_array_asm (by rw [hs, C35_mul_reduce_array_asm hm (hs ▸ H.size) a b d a' hs hb hd h])
    (mul_reduce_array_asm_simO H.host (at0 H.arg1) H.arg2 (opnd TB) (at0 h3) (opnd TD) (at0 h4) .refl H.env)

/-- Multiplication by a constant in the lower half of the register of the third argument. -/
theorem C76_scalar_mul_reduce_array (H : Call K A a s) (hm : 0 < m) (hs : a.size = 16 * m) {x : Int}
    (h3 : toI32 (s.gpr rdx).toNat = x) (h : NttRed.scalar_mul_reduce_array a a.size x = .ok a') :
    Returns K .scalar_mul_reduce_array_asm A a s a' := by
  rw [hs] at h
  exact H.returns codeAt_scalar_mul_reduce_array_asm
    (by rw [hs, C35_scalar_mul_reduce_array_asm hm (hs ▸ H.size) a a' x _ h3 hs h])
    (scalar_mul_reduce_array_asm_sim H.host (at0 H.arg1) H.arg2 rfl .refl H.env)

/-- The transforms: whenever the C function returns (without overflow), so does the call, with the same array. -/
theorem C76_transforms (H : Call K A a s) (hk : 4 ≤ k) (hs : a.size = 2 ^ k) (T : Table K A a s P p) (h3 : s.gpr rdx = P)
    (hp : a.size ≤ p.size) :
    (∀ F ∈ ([(.mulntt_red_ct_rev2std_asm, NttRed.mulntt_red_ct_rev2std), (.mulntt_red_ct_std2rev_asm, NttRed.mulntt_red_ct_std2rev),
      (.nttmul_red_gs_rev2std_asm, NttRed.nttmul_red_gs_rev2std), (.nttmul_red_gs_std2rev_asm, NttRed.nttmul_red_gs_std2rev)] :
      List (Code.Label × (Array Int → Nat → Array Int → M (Array Int)))),
    ∀ a', F.2 a a.size p = .ok a' → Returns K F.1 A a s a') ∧
    (UnitEntries k p →
    ∀ F ∈ ([(.ntt_red_ct_rev2std_asm, NttRed.ntt_red_ct_rev2std), (.ntt_red_ct_std2rev_asm, NttRed.ntt_red_ct_std2rev),
      (.ntt_red_gs_rev2std_asm, NttRed.ntt_red_gs_rev2std), (.ntt_red_gs_std2rev_asm, NttRed.ntt_red_gs_std2rev)] :
      List (Code.Label × (Array Int → Nat → Array Int → M (Array Int)))),
    ∀ a', F.2 a a.size p = .ok a' → Returns K F.1 A a s a') := by
  have hr := int32 H
  have hi := int16 T
  have hk' := exp_le H hs
  have h0 := at0 H.arg1
  have h1 := H.arg2
  have h2 := at0 h3
  have hp' : 2 ^ k ≤ p.size := hs ▸ hp
  constructor
  · intro F hF a' h
    rw [hs] at h
    simp only [List.mem_cons, List.not_mem_nil, or_false] at hF
    rcases hF with rfl | rfl | rfl | rfl
    · exact H.returns codeAt_mulntt_red_ct_rev2std_asm (by rw [hs, C36_mulntt_red_ct_rev2std_asm hk hk' a p a' hs hp' h])
        (mulntt_red_ct_rev2std_asm_sim H.host h0 h1 T.tab h2 .refl H.env)
    · exact H.returns codeAt_mulntt_red_ct_std2rev_asm (by rw [hs, C36_mulntt_red_ct_std2rev_asm hk hk' a p a' hs hp' hi h])
        (mulntt_red_ct_std2rev_asm_sim H.host h0 h1 T.tab h2 .refl H.env)
    · exact H.returns codeAt_nttmul_red_gs_rev2std_asm (by rw [hs, C36_nttmul_red_gs_rev2std_asm hk hk' a p a' hs hp' hi h])
        (nttmul_red_gs_rev2std_asm_sim H.host h0 h1 T.tab h2 .refl H.env)
    · exact H.returns codeAt_nttmul_red_gs_std2rev_asm (by rw [hs, C36_nttmul_red_gs_std2rev_asm hk hk' a p a' hs hp' h])
        (nttmul_red_gs_std2rev_asm_sim H.host h0 h1 T.tab h2 .refl H.env)
  · intro hu F hF a' h
    rw [hs] at h
    simp only [List.mem_cons, List.not_mem_nil, or_false] at hF
    rcases hF with rfl | rfl | rfl | rfl
    · exact H.returns codeAt_ntt_red_ct_rev2std_asm (by rw [hs, C36_ntt_red_ct_rev2std_asm hk hk' a p a' hs hr hp' hu h])
        (ntt_red_ct_rev2std_asm_sim H.host h0 h1 T.tab h2 .refl H.env)
    · exact H.returns codeAt_ntt_red_ct_std2rev_asm (by rw [hs, C36_ntt_red_ct_std2rev_asm hk hk' a p a' hs hr hp' hi hu h])
        (ntt_red_ct_std2rev_asm_sim H.host h0 h1 T.tab h2 .refl H.env)
    · exact H.returns codeAt_ntt_red_gs_rev2std_asm (by rw [hs, C36_ntt_red_gs_rev2std_asm hk hk' a p a' hs hp' hi hu h])
        (ntt_red_gs_rev2std_asm_sim H.host h0 h1 T.tab h2 .refl H.env)
    · exact H.returns codeAt_ntt_red_gs_std2rev_asm (by rw [hs, C36_ntt_red_gs_std2rev_asm hk hk' a p a' hs hp' hu h])
        (ntt_red_gs_std2rev_asm_sim H.host h0 h1 T.tab h2 .refl H.env)

/-- The transforms return, without a fault and without a change outside the array, whatever the array holds: also where the C function
overflows. -/
theorem C76_transforms_return (H : Call K A a s) (hk : 4 ≤ k) (hs : a.size = 2 ^ k) (T : Table K A a s P p) (h3 : s.gpr rdx = P)
    (hp : a.size ≤ p.size) :
    (∀ f ∈ [Code.Label.mulntt_red_ct_rev2std_asm, .mulntt_red_ct_std2rev_asm, .nttmul_red_gs_rev2std_asm, .nttmul_red_gs_std2rev_asm],
    ∃ a', Returns K f A a s a') ∧
    (UnitEntries k p →
    ∀ f ∈ [Code.Label.ntt_red_ct_rev2std_asm, .ntt_red_ct_std2rev_asm, .ntt_red_gs_rev2std_asm, .ntt_red_gs_std2rev_asm],
    ∃ a', Returns K f A a s a') := by
  have h0 := at0 H.arg1
  have h1 := H.arg2
  have h2 := at0 h3
  have hp' : 2 ^ k ≤ p.size := hs ▸ hp
  obtain ⟨h, hU⟩ := C36_total hk a p hs (int32 H) hp' (int16 T)
  simp only [List.mem_cons, List.not_mem_nil, or_false, forall_eq_or_imp, forall_eq, ← hs] at h hU ⊢
  obtain ⟨⟨a1, e1, -⟩, ⟨a2, e2, -⟩, ⟨a3, e3, -⟩, a4, e4, -⟩ := h
  refine ⟨⟨⟨a1, ?_⟩, ⟨a2, ?_⟩, ⟨a3, ?_⟩, a4, ?_⟩, fun hu => ?_⟩
  · exact H.returns codeAt_mulntt_red_ct_rev2std_asm e1 (mulntt_red_ct_rev2std_asm_sim H.host h0 h1 T.tab h2 .refl H.env)
  · exact H.returns codeAt_mulntt_red_ct_std2rev_asm e2 (mulntt_red_ct_std2rev_asm_sim H.host h0 h1 T.tab h2 .refl H.env)
  · exact H.returns codeAt_nttmul_red_gs_rev2std_asm e3 (nttmul_red_gs_rev2std_asm_sim H.host h0 h1 T.tab h2 .refl H.env)
  · exact H.returns codeAt_nttmul_red_gs_std2rev_asm e4 (nttmul_red_gs_std2rev_asm_sim H.host h0 h1 T.tab h2 .refl H.env)
  obtain ⟨⟨a1, e1, -⟩, ⟨a2, e2, -⟩, ⟨a3, e3, -⟩, a4, e4, -⟩ := hU hu
  refine ⟨⟨a1, ?_⟩, ⟨a2, ?_⟩, ⟨a3, ?_⟩, a4, ?_⟩
  · exact H.returns codeAt_ntt_red_ct_rev2std_asm e1 (ntt_red_ct_rev2std_asm_sim H.host h0 h1 T.tab h2 .refl H.env)
  · exact H.returns codeAt_ntt_red_ct_std2rev_asm e2 (ntt_red_ct_std2rev_asm_sim H.host h0 h1 T.tab h2 .refl H.env)
  · exact H.returns codeAt_ntt_red_gs_rev2std_asm e3 (ntt_red_gs_rev2std_asm_sim H.host h0 h1 T.tab h2 .refl H.env)
  · exact H.returns codeAt_ntt_red_gs_std2rev_asm e4 (ntt_red_gs_std2rev_asm_sim H.host h0 h1 T.tab h2 .refl H.env)

/-- `avx2_supported`, called with the eight bytes below the return address free: it returns 1 if AVX2 can be used and 0 otherwise, and
executes `xgetbv` only where that is defined.  `hleaf` is a property of processors: leaf 1 of `cpuid` has no subleaves. -/
theorem C76_avx2_supported (hleaf : ∀ c, K.cpuid 1 c = K.cpuid 1 0) (hret : Readable K (s.gpr rsp) 8)
    (hr : Readable K (s.gpr rsp - 8) 8) (hw : Writable K (s.gpr rsp - 8) 8) (hl : LanesOk s) :
    ∃ (N : Nat) (s' : State),
      (∀ fuel, N ≤ fuel → run K Code.addr Code.prog fuel (codeAt .avx2_supported Code.prog) s =
        .ok (BitVec.ofNat 64 (val s.mem (s.gpr rsp) 8), s')) ∧
      s'.gpr rax = (if UsableAvx2 K then 1 else 0) ∧ s'.gpr rsp = s.gpr rsp + 8 ∧
      (∀ r ∈ [rbx, rbp, r12, r13, r14, r15], s'.gpr r = s.gpr r) ∧
      ∀ x, (∀ i < 8, x ≠ s.gpr rsp - 8 + BitVec.ofNat 64 i) → s'.mem x = s.mem x := by
  obtain ⟨c', s', ⟨k, hk⟩, -, ⟨c1, rfl⟩, hm, ha, hg⟩ := avx2_supported_sim (y := s.ymm) (cf := s.cf) (zf := s.zf) (m := s.mem) hleaf hr hw
    hl.wf () rfl
  have e : s'.gpr rsp = s.gpr rsp := hg rsp rfl
  refine ⟨k + 1, { s' with gpr := upd s'.gpr rsp (s'.gpr rsp + 8) }, ?_, ha, ?_, ?_, ?_⟩
  · intro fuel hf
    obtain ⟨f, rfl⟩ : ∃ f, fuel = f + 1 + k := ⟨fuel - k - 1, by omega⟩
    rw [codeAt_avx2_supported]
    refine (hk (f + 1)).trans ?_
    show (ld64 K s'.mem (s'.gpr rsp) >>= fun a => _) = _
    have hv : val s'.mem (s.gpr rsp) 8 = val s.mem (s.gpr rsp) 8 := by
      apply val_congr
      intro i hi
      rw [hm]
      refine put_other _ _ _ _ ?_
      intro j hj h
      have h' : s.gpr rsp - 8 + BitVec.ofNat 64 (8 + i) = s.gpr rsp - 8 + BitVec.ofNat 64 j := by
        rw [← h, BitVec.ofNat_add, ← BitVec.add_assoc, show s.gpr rsp - 8 + BitVec.ofNat 64 8 = s.gpr rsp from BitVec.sub_add_cancel _ _]
      have := ofNat_inj (by omega) (by omega) h'
      omega
    unfold ld64
    rw [e, if_pos (allowed_of _ _ hret), hv, ← e]
    rfl
  · show s'.gpr rsp + 8 = _
    rw [e]
  · intro r hr
    simp only [List.mem_cons, List.not_mem_nil, or_false] at hr
    rcases hr with rfl | rfl | rfl | rfl | rfl | rfl
    · exact hg rbx rfl
    · exact hg rbp rfl
    · exact hg r12 rfl
    · exact hg r13 rfl
    · exact hg r14 rfl
    · exact hg r15 rfl
  · intro x hx
    show s'.mem x = _
    rw [hm]
    exact put_other _ _ _ _ hx

end

/-! ### A machine -/

namespace Sample

/-- Byte `j` of a number. -/
def byte (x : Int) (j : Nat) : BitVec 8 := BitVec.ofNat 8 (toU32 x / 256 ^ j)

def a : Array Int := #[-5000, -4000, -3000, -2000, -1000, 0, 1000, 2000, 3000, 4000, 5000, 6000, 7000, 8000, 9000, 10000]
def p : Array Int := #[7, -4096, -4096, 100, -4096, 200, 300, 400, -4096, 500, 600, 700, 800, 900, 1000, 1100]
def b : Array Int := #[1, 2, 3, 4, 5, 6, 7, 8, 9, 10, 11, 12, 13, 14, 15, 16]

/-- All constants. -/
def data : Array Int := #[4095, 4095, 4095, 4095, 4095, 4095, 4095, 4095, 12289, 12289, 12289, 12289, 12289, 12289, 12289, 12289,
  12288, 12288, 12288, 12288, 12288, 12288, 12288, 12288, 6144, 6144, 6144, 6144, 6144, 6144, 6144, 6144, 0, 2, 4, 6, 0, 0, 0, 0,
  4, 0, 5, 0, 6, 0, 7, 0, 2, 0, 3, 0, 2, 0, 3, 0, 1, 0, 1, 0, 1, 0, 1, 0, 0, 0, 0, 0, 2, 0, 2, 0, 0, 0, 4, 0, 2, 0, 6, 0,
  0, 4, 1, 5, 2, 6, 3, 7, 5, 0, 7, 0, 5, 0, 7, 0, 4, 0, 6, 0, 4, 0, 6, 0, 1, 0, 1, 0, 1, 0, 1, 0, 2, 0, 2, 0, 2, 0, 2, 0,
  3, 0, 3, 0, 3, 0, 3, 0]

/-- The array at 1000h, the data section at 2000h, a table at 3000h, two operands at 4000h and 5000h, the stack at 6000h. -/
def mem : Memory := fun x =>
  let n := x.toNat
  match n / 4096 with
  | 1 => byte (elt a (n % 4096 / 4)) (n % 4)
  | 2 => byte (elt data (n % 4096 / 4)) (n % 4)
  | 3 => byte (elt p (n % 4096 / 2)) (n % 2)
  | 4 => byte (elt b (n % 4096 / 4)) (n % 4)
  | 5 => byte (elt a (n % 4096 / 4)) (n % 4)
  | _ => 0

/-- Exactly these can be accessed; a processor with AVX2. -/
def K : Machine where
  readable x :=
    let n := x.toNat
    (4096 ≤ n && n < 4160) || (8192 ≤ n && n < 8704) || (12288 ≤ n && n < 12320) || (16384 ≤ n && n < 16448) ||
      (20480 ≤ n && n < 20544) || (24568 ≤ n && n < 24584)
  writable x :=
    let n := x.toNat
    (4096 ≤ n && n < 4160) || (24568 ≤ n && n < 24584)
  data := 8192
  cpuid l _ := if l = 1 then (0, 0, 402653184, 0) else (0, 32, 0, 0)
  xcr0 := (7, 0)

def s : State where
  gpr r := match r with
    | 4 => 24576
    | 7 => 4096
    | 6 => 16
    | 2 => 12288
    | _ => 0
  ymm _ := Avx.V8.splat 0
  cf := false
  zf := false
  mem := mem

theorem call : Call K 4096 a s where
  size := by decide
  low := by decide
  readable := by unfold Readable; decide +kernel
  writable := by unfold Writable; decide +kernel
  holds := by unfold Holds32; decide +kernel
  loaded := ⟨by decide, by unfold Readable; decide +kernel, by intro c; cases c <;> decide +kernel⟩
  data_apart := apart_of (by decide) (by decide)
  stack := by unfold Readable; decide +kernel
  stack_apart := apart_of (by decide) (by decide)
  arg1 := rfl
  arg2 := rfl
  lanes := fun _ => have h : I32 0 := by unfold I32; omega
    ⟨⟨h, h, h, h⟩, h, h, h, h⟩

theorem table : Table K 4096 a s 12288 p where
  readable := by unfold Readable; decide +kernel
  apart := apart_of (by decide) (by decide)
  holds := by unfold Holds16; decide +kernel

/-- The array and the two operands, with other registers for the third and fourth argument. -/
def s4 : State := { s with gpr := upd (upd s.gpr rdx 16384) rcx 20480 }

theorem call4 : Call K 4096 a s4 := { call with arg1 := rfl, arg2 := rfl }

theorem operand1 : Operand K 4096 a s4 16384 b where
  readable := by unfold Readable; decide +kernel
  apart := apart_of (by decide) (by decide)
  holds := by unfold Holds32; decide +kernel

theorem operand2 : Operand K 4096 a s4 20480 a where
  readable := by unfold Readable; decide +kernel
  apart := apart_of (by decide) (by decide)
  holds := by unfold Holds32; decide +kernel

/-- The array is also both operands. -/
def s5 : State := { s with gpr := upd (upd s.gpr rdx 4096) rcx 4096 }

theorem call5 : Call K 4096 a s5 := { call with arg1 := rfl, arg2 := rfl }

/-- The upper half of the register of the count is not zero. -/
def sWide : State := { s with gpr := upd s.gpr rsi 4294967312 }

end Sample

/-- The elementwise functions on the sample. -/
example : ∃ a', NttRed.reduce_array Sample.a 16 = .ok a' ∧ Returns Sample.K .reduce_array_asm 4096 Sample.a Sample.s a' :=
  C76_elementwise (m := 1) Sample.call (by decide) rfl (_, _) (List.mem_cons_self)

example : ∃ a', Returns Sample.K .correct_asm 4096 Sample.a Sample.s a' := by
  have h : (NttRed.correct Sample.a 16).isOk = true := by decide +kernel
  cases e : NttRed.correct Sample.a 16 with
  | error x => rw [e] at h; cases h
  | ok a' => exact ⟨a', C76_correct (m := 1) Sample.call (by decide) rfl (by unfold InRange; decide +kernel) e⟩

example : ∃ a', Returns Sample.K .mul_reduce_array16_asm 4096 Sample.a Sample.s a' := by
  have h : (NttRed.mul_reduce_array16 Sample.a 16 Sample.p).isOk = true := by decide +kernel
  cases e : NttRed.mul_reduce_array16 Sample.a 16 Sample.p with
  | error x => rw [e] at h; cases h
  | ok a' => exact ⟨a', (C76_mul_reduce_array16 (m := 1) Sample.call (by decide) rfl Sample.table rfl (by decide) e).1⟩

example : ∃ a', Returns Sample.K .mul_reduce_array_asm 4096 Sample.a Sample.s4 a' := by
  have h : (NttRed.mul_reduce_array Sample.a 16 Sample.b Sample.a).isOk = true := by decide +kernel
  cases e : NttRed.mul_reduce_array Sample.a 16 Sample.b Sample.a with
  | error x => rw [e] at h; cases h
  | ok a' => exact ⟨a', C76_mul_reduce_array (m := 1) Sample.call4 (by decide) rfl (.inr Sample.operand1) (.inr Sample.operand2) rfl
      rfl (by decide) (by decide) e⟩

/-- The square of an array, in place. -/
example : ∃ a', Returns Sample.K .mul_reduce_array_asm 4096 Sample.a Sample.s5 a' := by
  have h : (NttRed.mul_reduce_array Sample.a 16 Sample.a Sample.a).isOk = true := by decide +kernel
  cases e : NttRed.mul_reduce_array Sample.a 16 Sample.a Sample.a with
  | error x => rw [e] at h; cases h
  | ok a' => exact ⟨a', C76_mul_reduce_array (m := 1) Sample.call5 (by decide) rfl (.inl ⟨rfl, rfl⟩) (.inl ⟨rfl, rfl⟩) rfl
      rfl (by decide) (by decide) e⟩

example : ∃ a', Returns Sample.K .scalar_mul_reduce_array_asm 4096 Sample.a Sample.s a' := by
  have h : (NttRed.scalar_mul_reduce_array Sample.a 16 12288).isOk = true := by decide +kernel
  cases e : NttRed.scalar_mul_reduce_array Sample.a 16 12288 with
  | error x => rw [e] at h; cases h
  | ok a' => exact ⟨a', C76_scalar_mul_reduce_array (m := 1) Sample.call (by decide) rfl (by decide) e⟩

example : ∃ a', Returns Sample.K .ntt_red_gs_rev2std_asm 4096 Sample.a Sample.s a' := by
  have h : (NttRed.ntt_red_gs_rev2std Sample.a 16 Sample.p).isOk = true := by decide +kernel
  cases e : NttRed.ntt_red_gs_rev2std Sample.a 16 Sample.p with
  | error x => rw [e] at h; cases h
  | ok a' => exact ⟨a', (C76_transforms (k := 4) Sample.call (by decide) rfl Sample.table rfl (by decide)).2 (by decide) (_, _)
      (List.mem_cons_of_mem _ (List.mem_cons_of_mem _ List.mem_cons_self)) a' e⟩

example : ∃ a', Returns Sample.K .ntt_red_gs_rev2std_asm 4096 Sample.a Sample.s a' :=
  (C76_transforms_return (k := 4) Sample.call (by decide) rfl Sample.table rfl (by decide)).2 (by decide) _
    (List.mem_cons_of_mem _ (List.mem_cons_of_mem _ List.mem_cons_self))

example : UsableAvx2 Sample.K ∧ (∀ c, Sample.K.cpuid 1 c = Sample.K.cpuid 1 0) ∧ Readable Sample.K (Sample.s.gpr rsp) 8 ∧
    Readable Sample.K (Sample.s.gpr rsp - 8) 8 ∧ Writable Sample.K (Sample.s.gpr rsp - 8) 8 ∧ LanesOk Sample.s :=
  ⟨by decide, fun _ => rfl, by unfold Readable; decide +kernel, by unfold Readable; decide +kernel,
    by unfold Writable; decide +kernel, Sample.call.lanes⟩

/-- The code relies on more than the calling convention: `n` is a `uint32_t`, so that the upper half of its register may hold
anything, but the functions use all of the register.  Here the lower half is the size of the array, the upper half is 1, and
`reduce_array_asm` accesses memory behind the array. -/
theorem C76_count_width : ∃ (K : Machine) (A : Word) (a : Array Int) (s : State),
    Call K A a { s with gpr := upd s.gpr rsi (ext (low (s.gpr rsi))) } ∧
    ∀ fuel, 100 ≤ fuel → run K Code.addr Code.prog fuel (codeAt .reduce_array_asm Code.prog) s = .error .oob := by
  refine ⟨Sample.K, 4096, Sample.a, Sample.sWide, { Sample.call with arg1 := rfl, arg2 := rfl }, fun fuel hf => ?_⟩
  obtain ⟨f, rfl⟩ : ∃ f, fuel = f + 100 := ⟨fuel - 100, by omega⟩
  rw [codeAt_reduce_array_asm]
  krfl

end Props
