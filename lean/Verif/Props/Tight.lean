import Verif.Proofs.Tight
import Verif.Proofs.TightData
import Verif.Proofs.TightData1024
import Verif.Proofs.TightMax
import Verif.Props.Products
import Verif.Props.Tables

/-
C72: how large the elements of the input of a transform without reductions (src/ntt_red.c) can be.

With the tables of the library the eight transforms are correct, without overflow or failed assertion, for all arrays with
elements up to 2^31/n - 1 in absolute value.  This is best possible for six of them: if all elements are equal to 2^31/n or more,
they overflow or an assertion fails.  For input in [-12288, 12288] there are bounds on the output, which are much smaller than
those of C46 (which hold for all tables).
-/

namespace Props
open C Spec NTT NttRed Tables

/-- `f`, with table `p`, is safe for all arrays of `2^k` elements in [-B, B]: it returns an array of `2^k` elements in [-lim, lim],
which represent `value A` if the elements of the input represent `A`. -/
def Computes (f : Array Int → Nat → Array Int → M (Array Int)) (k : Nat) (p : Array Int) (B lim : Int)
    (value : (Nat → Zq) → Nat → Zq) : Prop :=
  ∀ a : Array Int, a.size = 2 ^ k → InRange (-B) B a →
    ∃ a', f a (2 ^ k) p = .ok a' ∧ a'.size = 2 ^ k ∧ InRange (-lim) lim a' ∧
      ∀ i, i < 2 ^ k → coeff a' i = value (coeff a) i

/-- All transforms with the tables `std`, `rev` of the powers of `ψ²` and the tables `mix`, `mixRev` of mixed powers, for input in
[-B, B].  The output is in [-c, c] for `ntt_red_ct`, in [-g, g] for `ntt_red_gs`, in [-mc, mc] for `mulntt_red_ct` and in
[-mg, mg] for `nttmul_red_gs`. -/
structure Eight (k : Nat) (ψ : Zq) (std rev' mix mixRev : Array Int) (B c g mc mg : Int) : Prop where
  ct_rev2std : Computes ntt_red_ct_rev2std k std B c fun A i => ntt (2 ^ k) (ψ ^ 2) (fun j => A (rev k j)) i
  ct_std2rev : Computes ntt_red_ct_std2rev k rev' B c fun A i => ntt (2 ^ k) (ψ ^ 2) A (rev k i)
  gs_rev2std : Computes ntt_red_gs_rev2std k rev' B g fun A i => ntt (2 ^ k) (ψ ^ 2) (fun j => A (rev k j)) i
  gs_std2rev : Computes ntt_red_gs_std2rev k std B g fun A i => ntt (2 ^ k) (ψ ^ 2) A (rev k i)
  mul_ct_rev2std : Computes mulntt_red_ct_rev2std k mix B mc fun A i =>
    evalPoly (2 ^ k) (fun j => A (rev k j)) (ψ * (ψ ^ 2) ^ i)
  mul_ct_std2rev : Computes mulntt_red_ct_std2rev k mixRev B mc fun A i => evalPoly (2 ^ k) A (ψ * (ψ ^ 2) ^ rev k i)
  mul_gs_rev2std : Computes nttmul_red_gs_rev2std k mixRev B mg fun A i =>
    ψ ^ i * ntt (2 ^ k) (ψ ^ 2) (fun j => A (rev k j)) i
  mul_gs_std2rev : Computes nttmul_red_gs_std2rev k mix B mg fun A i =>
    ψ ^ rev k i * ntt (2 ^ k) (ψ ^ 2) A (rev k i)

private theorem eight {k ψ B c g mc mg : Nat} {ψ' : Zq} (h : Tight.AllOk k ψ B c g mc mg) (e : (ψ : Zq) = ψ') (hk0 : 0 < k)
    (hk : k ≤ 31) (hψ : ψ' ^ 2 ^ k = -1) (hc : c ≤ 2147483647) (hg : g ≤ 2147483647) (hmc : mc ≤ 2147483647)
    (hmg : mg ≤ 2147483647) {s r m mr : Array Int} (h1 : StdTable 3 1 (ψ' ^ 2) (-6144) 6144 k s)
    (h2 : RevTable 3 1 (ψ' ^ 2) (-6144) 6144 k r) (h3 : StdTable 3 ψ' (ψ' ^ 2) (-6144) 6144 k m)
    (h4 : RevTable 3 ψ' (ψ' ^ 2) (-6144) 6144 k mr) : Eight k ψ' s r m mr B c g mc mg := by
  subst e
  have h3' : StdTable 3 ((ψ : Zq) ^ 1) ((ψ : Zq) ^ 2) (-6144) 6144 k m := by rwa [pow_one]
  have h4' : RevTable 3 ((ψ : Zq) ^ 1) ((ψ : Zq) ^ 2) (-6144) 6144 k mr := by rwa [pow_one]
  have hA : ∀ a : Array Int, ∀ i, i < 2 ^ k → coeff a i = (fun j => coeff a (rev k j)) (rev k i) := by
    intro a i hi
    dsimp only
    rw [rev_rev _ _ hi]
  refine ⟨?_, ?_, ?_, ?_, ?_, ?_, ?_, ?_⟩ <;> intro a ha hr
  · exact Tight.ct_rev2std hk0 hk hψ hc ha hr h1 h.ctA (hA a)
  · exact Tight.ct_std2rev hk0 hk hψ hc ha hr h2 h.ctB fun _ _ => rfl
  · exact Tight.gs_rev2std hk0 hk hψ hg ha hr h2 h.gsB (hA a)
  · exact Tight.gs_std2rev hk0 hk hψ hg ha hr h1 h.gsA fun _ _ => rfl
  · have := Tight.mulct_rev2std hk0 hk hψ hmc ha hr h3' h.mulctA (A := fun j => coeff a (rev k j)) (hA a)
    rwa [pow_one] at this
  · have := Tight.mulct_std2rev hk0 hk hψ hmc ha hr h4' h.mulctB (fun _ _ => rfl)
    rwa [pow_one] at this
  · have := Tight.gsmul_rev2std hk0 hk hψ hmg ha hr h4' h.gsmulB (A := fun j => coeff a (rev k j)) (hA a)
    rwa [pow_one] at this
  · have := Tight.gsmul_std2rev hk0 hk hψ hmg ha hr h3' h.gsmulA (fun _ _ => rfl)
    rwa [pow_one] at this

private theorem both {k ψ ψi B c g mc mg : Nat} {n x : Int} {t : RedTables} (hk : k ≤ 31)
    (hg : GoodParams k n x) (ht : RedTablesOK k (x : Zq) t) (e : (ψ : Zq) = x) (ei : (ψi : Zq) = (x : Zq)⁻¹)
    (h : Tight.AllOk k ψ B c g mc mg) (hi : Tight.AllOk k ψi B c g mc mg)
    (hc : c ≤ 2147483647) (hgl : g ≤ 2147483647) (hmc : mc ≤ 2147483647) (hmg : mg ≤ 2147483647) :
    Eight k (x : Zq) t.omega_powers t.omega_powers_rev t.mixed_powers t.mixed_powers_rev B c g mc mg ∧
    Eight k (x : Zq)⁻¹ t.inv_omega_powers t.inv_omega_powers_rev t.inv_mixed_powers t.inv_mixed_powers_rev B c g mc mg := by
  obtain ⟨hk0, -, -, -, -, hpow⟩ := hg
  have hpi : ((x : Zq)⁻¹) ^ 2 ^ k = -1 := by rw [inv_pow, hpow, inv_neg, inv_one]
  have e2 : ((x : Zq) ^ 2)⁻¹ = ((x : Zq)⁻¹) ^ 2 := (inv_pow _ _).symm
  refine ⟨eight h e hk0 hk hpow hc hgl hmc hmg ht.omega_powers ht.omega_powers_rev ht.mixed_powers ht.mixed_powers_rev,
    eight hi ei hk0 hk hpi hc hgl hmc hmg ?_ ?_ ?_ ?_⟩
  · have := ht.inv_omega_powers; rwa [e2] at this
  · have := ht.inv_omega_powers_rev; rwa [e2] at this
  · have := ht.inv_mixed_powers; rwa [e2] at this
  · have := ht.inv_mixed_powers_rev; rwa [e2] at this

private theorem ok_of {k : Nat} {x y : Int} (hg : GoodParams k x y) {buf : Nat → Array Nat} (hb : ∀ n, (buf n).size = n)
    {t : RedTables} (ht : make_red_tables buf x y = .ok t) : RedTablesOK k (y : Zq) t := by
  obtain ⟨t', e, h⟩ := C26_make_red_tables k x y hg buf hb
  rw [ht] at e
  injection e with e
  rwa [e]

private theorem inv_of {a : Nat} {b : Int} (h : (a : Zq) * b = 1) : (a : Zq) = (b : Zq)⁻¹ := eq_inv_of_mul_eq_one_left h
private theorem i16 : ((2545 : Nat) : Zq) * (1212 : Int) = 1 := by decide +kernel
private theorem i256 : ((10805 : Nat) : Zq) * (1002 : Int) = 1 := by decide +kernel
private theorem i512 : ((1360 : Nat) : Zq) * (1003 : Int) = 1 := by decide +kernel
private theorem i1024 : ((5078 : Nat) : Zq) * (1014 : Int) = 1 := by decide +kernel

/-- The eight transforms are correct for all elements up to `2^31/n - 1` in absolute value, with the tables for the transforms
and those for the inverse transforms. -/
theorem C72_range : ∀ z ∈ libraryParams, ∀ (buf : Nat → Array Nat), (∀ n, (buf n).size = n) → ∀ t : RedTables,
    make_red_tables buf z.2.1 z.2.2 = .ok t →
    Eight z.1 (z.2.2 : Zq) t.omega_powers t.omega_powers_rev t.mixed_powers t.mixed_powers_rev
      (2 ^ (31 - z.1) - 1) (2 ^ 31 - 1) (2 ^ 31 - 1) (2 ^ 31 - 1) (2 ^ 31 - 1) ∧
    Eight z.1 (z.2.2 : Zq)⁻¹ t.inv_omega_powers t.inv_omega_powers_rev t.inv_mixed_powers t.inv_mixed_powers_rev
      (2 ^ (31 - z.1) - 1) (2 ^ 31 - 1) (2 ^ 31 - 1) (2 ^ 31 - 1) (2 ^ 31 - 1) := by
  intro z hz buf hb t ht
  have hg := libraryParams_good z hz
  have hok := ok_of hg hb ht
  clear ht
  simp only [libraryParams, List.mem_cons, List.not_mem_nil, or_false] at hz
  rcases hz with rfl | rfl | rfl | rfl
  · exact both (by norm_num) hg hok (by norm_num) (inv_of i16) Tight.fwd16 Tight.inv16 le_rfl le_rfl le_rfl le_rfl
  · exact both (by norm_num) hg hok (by norm_num) (inv_of i256) Tight.fwd256 Tight.inv256 le_rfl le_rfl le_rfl le_rfl
  · exact both (by norm_num) hg hok (by norm_num) (inv_of i512) Tight.fwd512 Tight.inv512 le_rfl le_rfl le_rfl le_rfl
  · exact both (by norm_num) hg hok (by norm_num) (inv_of i1024) Tight.fwd1024 Tight.inv1024 le_rfl le_rfl le_rfl le_rfl

/-- Bounds on the output for input in [-12288, 12288], by `k`: `ntt_red_ct`, `ntt_red_gs`, `mulntt_red_ct`, `nttmul_red_gs`. -/
def growth : Nat → Int × Int × Int × Int
  | 4 => (196608, 208851, 266891, 222311)
  | 8 => (3371551, 3803577, 5252721, 3831948)
  | 9 => (6995742, 7635525, 12248971, 7886514)
  | 10 => (16309495, 15522039, 28314107, 15590382)
  | _ => (0, 0, 0, 0)

/-- How large the elements become if those of the input are in [-12288, 12288]. -/
theorem C72_growth : ∀ z ∈ libraryParams, ∀ (buf : Nat → Array Nat), (∀ n, (buf n).size = n) → ∀ t : RedTables,
    make_red_tables buf z.2.1 z.2.2 = .ok t →
    Eight z.1 (z.2.2 : Zq) t.omega_powers t.omega_powers_rev t.mixed_powers t.mixed_powers_rev
      12288 (growth z.1).1 (growth z.1).2.1 (growth z.1).2.2.1 (growth z.1).2.2.2 ∧
    Eight z.1 (z.2.2 : Zq)⁻¹ t.inv_omega_powers t.inv_omega_powers_rev t.inv_mixed_powers t.inv_mixed_powers_rev
      12288 (growth z.1).1 (growth z.1).2.1 (growth z.1).2.2.1 (growth z.1).2.2.2 := by
  intro z hz buf hb t ht
  have hg := libraryParams_good z hz
  have hok := ok_of hg hb ht
  clear ht
  simp only [libraryParams, List.mem_cons, List.not_mem_nil, or_false] at hz
  rcases hz with rfl | rfl | rfl | rfl
  · exact both (by norm_num) hg hok (by norm_num) (inv_of i16) Tight.fwd16_red Tight.inv16_red (by norm_num) (by norm_num)
      (by norm_num) (by norm_num)
  · exact both (by norm_num) hg hok (by norm_num) (inv_of i256) Tight.fwd256_red Tight.inv256_red (by norm_num) (by norm_num)
      (by norm_num) (by norm_num)
  · exact both (by norm_num) hg hok (by norm_num) (inv_of i512) Tight.fwd512_red Tight.inv512_red (by norm_num) (by norm_num)
      (by norm_num) (by norm_num)
  · exact both (by norm_num) hg hok (by norm_num) (inv_of i1024) Tight.fwd1024_red Tight.inv1024_red (by norm_num) (by norm_num)
      (by norm_num) (by norm_num)

/-- The range is maximal: on an array of `n = 2^k` elements equal to `X`, with `nX ≥ 2^31`, six of the transforms stop with an
overflow or a failed assertion, for every table. -/
theorem C72_maximal {k : Nat} (hk : k ≤ 31) {X : Int} (h1 : 2 ^ 31 ≤ 2 ^ k * X) (h2 : X ≤ 2 ^ 31 - 1) {p : Array Int}
    (hp : 2 ^ k ≤ p.size) :
    ∀ f ∈ [ntt_red_ct_rev2std, ntt_red_ct_std2rev, ntt_red_gs_rev2std, ntt_red_gs_std2rev, nttmul_red_gs_rev2std,
      nttmul_red_gs_std2rev], ∃ e, f (Array.replicate (2 ^ k) X) (2 ^ k) p = .error e ∧ (e = .overflow ∨ e = .assertFail) := by
  have hI : I32 X := by
    have h0 : 0 < X := by
      have : (0 : Int) < 2 ^ k * X := by omega
      exact (pos_iff_pos_of_mul_pos this).1 (by positivity)
    unfold I32
    omega
  have h1' : 2147483648 ≤ 2 ^ k * X := by omega
  intro f hf
  simp only [List.mem_cons, List.not_mem_nil, or_false] at hf
  rcases hf with rfl | rfl | rfl | rfl | rfl | rfl
  · exact TightMax.ct_rev2std TightMax.mulOk hk hp hI h1'
  · exact TightMax.ct_std2rev TightMax.mulOk hk hp hI h1'
  · exact TightMax.gs_rev2std TightMax.mulOk hk hp hI h1'
  · exact TightMax.gs_std2rev TightMax.mulOk hk hp hI h1'
  · exact TightMax.gsmul_rev2std TightMax.mulOk hk hp hI h1'
  · exact TightMax.gsmul_std2rev TightMax.mulOk hk hp hI h1'

/-- The two bounds meet: the transforms are safe for 2^31/n - 1 and not for 2^31/n. -/
theorem C72_exact : ∀ z ∈ libraryParams, ∀ X : Int, 0 ≤ X → X ≤ 2 ^ 31 - 1 → ∀ (buf : Nat → Array Nat),
    (∀ n, (buf n).size = n) → ∀ t : RedTables, make_red_tables buf z.2.1 z.2.2 = .ok t →
    ((∀ a : Array Int, a.size = 2 ^ z.1 → InRange (-X) X a → ∃ a', ntt_red_ct_rev2std a (2 ^ z.1) t.omega_powers = .ok a') ↔
      2 ^ z.1 * X < 2 ^ 31) ∧
    ((∀ a : Array Int, a.size = 2 ^ z.1 → InRange (-X) X a → ∃ a', ntt_red_ct_std2rev a (2 ^ z.1) t.omega_powers_rev = .ok a') ↔
      2 ^ z.1 * X < 2 ^ 31) ∧
    ((∀ a : Array Int, a.size = 2 ^ z.1 → InRange (-X) X a → ∃ a', ntt_red_gs_rev2std a (2 ^ z.1) t.omega_powers_rev = .ok a') ↔
      2 ^ z.1 * X < 2 ^ 31) ∧
    ((∀ a : Array Int, a.size = 2 ^ z.1 → InRange (-X) X a → ∃ a', ntt_red_gs_std2rev a (2 ^ z.1) t.omega_powers = .ok a') ↔
      2 ^ z.1 * X < 2 ^ 31) ∧
    ((∀ a : Array Int, a.size = 2 ^ z.1 → InRange (-X) X a →
        ∃ a', nttmul_red_gs_rev2std a (2 ^ z.1) t.inv_mixed_powers_rev = .ok a') ↔ 2 ^ z.1 * X < 2 ^ 31) ∧
    ((∀ a : Array Int, a.size = 2 ^ z.1 → InRange (-X) X a →
        ∃ a', nttmul_red_gs_std2rev a (2 ^ z.1) t.inv_mixed_powers = .ok a') ↔ 2 ^ z.1 * X < 2 ^ 31) := by
  intro z hz X hX0 hX buf hb t ht
  have hr := C72_range z hz buf hb t ht
  have hok := ok_of (libraryParams_good z hz) hb ht
  have hk : z.1 ≤ 31 := by
    simp only [libraryParams, List.mem_cons, List.not_mem_nil, or_false] at hz
    rcases hz with rfl | rfl | rfl | rfl <;> norm_num
  clear ht
  have hrep : InRange (-X) X (Array.replicate (2 ^ z.1) X) := by
    intro i hi
    rw [Array.size_replicate] at hi
    simp only [elt, Array.getD_eq_getD_getElem?, Array.getElem?_replicate, hi, if_true, Option.getD_some]
    omega
  have key : ∀ (f : Array Int → Nat → Array Int → M (Array Int)) (p : Array Int) (v : (Nat → Zq) → Nat → Zq),
      f ∈ [ntt_red_ct_rev2std, ntt_red_ct_std2rev, ntt_red_gs_rev2std, ntt_red_gs_std2rev, nttmul_red_gs_rev2std,
      nttmul_red_gs_std2rev] → 2 ^ z.1 ≤ p.size → Computes f z.1 p (2 ^ (31 - z.1) - 1) (2 ^ 31 - 1) v →
      ((∀ a : Array Int, a.size = 2 ^ z.1 → InRange (-X) X a → ∃ a', f a (2 ^ z.1) p = .ok a') ↔ 2 ^ z.1 * X < 2 ^ 31) := by
    intro f p v hf hp hc
    constructor
    · intro h
      by_contra hn
      obtain ⟨a', e1⟩ := h _ Array.size_replicate hrep
      obtain ⟨e, e2, -⟩ := C72_maximal hk (not_lt.1 hn) hX hp f hf
      rw [e1] at e2
      cases e2
    · intro h a ha hra
      have hXb : X ≤ 2 ^ (31 - z.1) - 1 := by
        have e : (2 : Int) ^ 31 = 2 ^ z.1 * 2 ^ (31 - z.1) := by rw [← pow_add, Nat.add_sub_cancel' hk]
        rw [e] at h
        have := lt_of_mul_lt_mul_left h (by positivity)
        omega
      obtain ⟨a', e, -⟩ := hc a ha (NttRed.InRange.mono hra (by omega) hXb)
      exact ⟨a', e⟩
  exact ⟨key _ _ _ (by simp) hok.omega_powers.1 hr.1.ct_rev2std, key _ _ _ (by simp) hok.omega_powers_rev.1 hr.1.ct_std2rev,
    key _ _ _ (by simp) hok.omega_powers_rev.1 hr.1.gs_rev2std, key _ _ _ (by simp) hok.omega_powers.1 hr.1.gs_std2rev,
    key _ _ _ (by simp) hok.inv_mixed_powers_rev.1 hr.2.mul_gs_rev2std,
    key _ _ _ (by simp) hok.inv_mixed_powers.1 hr.2.mul_gs_std2rev⟩

/-! The hypotheses are met. -/

/-- Sums of 170 polynomials with reduced coefficients can be transformed without reducing them first. -/
example : ∃ t, make_red_tables someBuf 1024 1014 = .ok t ∧
    ∃ a', ntt_red_ct_rev2std (Array.replicate (2 ^ 10) (170 * 12288)) (2 ^ 10) t.omega_powers = .ok a' := by
  have hz : (10, 1024, 1014) ∈ libraryParams := by simp [libraryParams]
  obtain ⟨t, e, -⟩ := red_tables_ok (libraryParams_good _ hz) someBuf_size
  refine ⟨t, e, ((C72_exact _ hz (170 * 12288) (by norm_num) (by norm_num) someBuf someBuf_size t e).1.2 (by norm_num)) _
    Array.size_replicate fun i hi => ?_⟩
  rw [Array.size_replicate] at hi
  simp only [elt, Array.getD_eq_getD_getElem?, Array.getElem?_replicate, hi, if_true, Option.getD_some]
  omega

/-- Sums of 171 of them cannot. -/
example : ∃ t, make_red_tables someBuf 1024 1014 = .ok t ∧
    ∃ e, ntt_red_ct_rev2std (Array.replicate (2 ^ 10) (171 * 12288)) (2 ^ 10) t.omega_powers = .error e ∧
      (e = .overflow ∨ e = .assertFail) := by
  have hz : (10, 1024, 1014) ∈ libraryParams := by simp [libraryParams]
  obtain ⟨t, e, h⟩ := red_tables_ok (libraryParams_good _ hz) someBuf_size
  exact ⟨t, e, C72_maximal (by norm_num) (by norm_num) (by norm_num) h.omega_powers.1 _ (by simp)⟩

end Props
