import Verif.Proofs.TestNtt
import Verif.SpecTestTables

/-
The functions tested by src/test_ntt.c.
-/

namespace TestNtt
open C Spec NTT TestProg TestTables

/-- `f` puts the elements in bit-reverse order. -/
def Shuffles (k : Nat) (f : Array Int → M (Array Int)) : Prop :=
  ∀ a : Array Int, a.size = 2 ^ k → ∃ a', f a = .ok a' ∧ a'.size = 2 ^ k ∧ ∀ i, i < 2 ^ k → elt a' i = elt a (rev k i)

theorem shuffles_bitrev {k : Nat} (hk : k ≤ 31) : Shuffles k fun a => Ntt.bitrev_shuffle a (2 ^ k) :=
  fun _ ha => run_shuffle hk ha

theorem shuffles_table {k n : Nat} {p : Array (Nat × Nat)} (hn : n < 4294967296) (hp : PairTable k n p) :
    Shuffles k fun a => Ntt.shuffle_with_table a p n := fun a ha => by
  obtain ⟨a', e, s, v⟩ := wp_total.1 (Ntt.wp_shuffle_with_table (E := NoErr) hn a p ha hp)
  refine ⟨a', e, s, fun i hi => ?_⟩
  have := v i hi
  rw [some_elt (by omega), some_elt (by have := rev_lt k i; omega)] at this
  exact Option.some.inj this

section
variable {k : Nat} {ω pre post : Zq} {f sh : Array Int → M (Array Int)}

theorem scaledNtt_congr {n : Nat} {A B : Nat → Zq} (h : ∀ i, i < n → A i = B i) (i : Nat) :
    scaledNtt n ω pre post A i = scaledNtt n ω pre post B i := by
  unfold scaledNtt
  rw [TestProg.ntt_congr (fun l hl => by rw [h l hl]) i]

theorem reduced_of_elt {a b : Array Int} (ha : a.size = 2 ^ k) (hb : b.size = 2 ^ k) (hr : Reduced a)
    (h : ∀ i, i < 2 ^ k → elt b i = elt a (rev k i)) : Reduced b := fun i hi => by
  rw [h i (by omega)]
  exact hr _ (by have := rev_lt k i; omega)

theorem shuffle_first (hs : Shuffles k sh) (hf : Rev2Std k ω pre post 0 12288 0 12288 f) :
    Std2Std k ω pre post fun a => sh a >>= f := fun a ha hr => by
  obtain ⟨b, eb, sb, vb⟩ := hs a ha
  obtain ⟨c, ec, sc, rc, vc⟩ := hf b sb (reduced_of_elt ha sb hr vb)
  refine ⟨c, by simp only [eb, ok_bind, ec], sc, rc, fun i hi => ?_⟩
  rw [vc i hi]
  refine scaledNtt_congr (fun l hl => ?_) i
  unfold coeff
  rw [vb _ (rev_lt k l), rev_rev k l hl]

theorem shuffle_last (hs : Shuffles k sh) (hf : Std2Rev k ω pre post 0 12288 0 12288 f) :
    Std2Std k ω pre post fun a => f a >>= sh := fun a ha hr => by
  obtain ⟨b, eb, sb, rb, vb⟩ := hf a ha hr
  obtain ⟨c, ec, sc, vc⟩ := hs b sb
  refine ⟨c, by simp only [eb, ok_bind, ec], sc, reduced_of_elt sb sc rb vc, fun i hi => ?_⟩
  have : coeff c i = coeff b (rev k i) := by unfold coeff; rw [vc i hi]
  rw [this, vb _ (rev_lt k i), rev_rev k i hi]

variable {p : Array Int}

theorem scaled_pre (n : Nat) (A : Nat → Zq) (c : Zq) (i : Nat) :
    scaledNtt n ω c 1 A i = evalPoly n A (c * ω ^ i) := by
  unfold scaledNtt ntt
  rw [one_pow, one_mul, evalPoly_scale]

theorem scaled_post (n : Nat) (A : Nat → Zq) (c : Zq) (i : Nat) :
    scaledNtt n ω 1 c A i = c ^ i * ntt n ω A i := by
  unfold scaledNtt
  simp only [one_pow, mul_one]

section
variable (hk : k ≤ 31) (hω : 0 < k → ω ^ 2 ^ (k - 1) = -1)
include hk hω

theorem ct_rev2std (hp : StdTable 1 1 ω 0 12288 k p) :
    Rev2Std k ω 1 1 0 12288 0 12288 fun a => Ntt.ntt_ct_rev2std a (2 ^ k) p := fun a ha hr => by
  obtain ⟨a', h1, h2, h3, h4⟩ := Ntt.run_ct_rev2std hk hω hp (fun l => coeff a (rev k l)) ha hr
    fun i hi => by rw [rev_rev k i hi]
  exact ⟨a', h1, h2, h3, fun i hi => by rw [h4 i hi, scaledNtt_one]⟩

theorem mulct_rev2std {c : Zq} (hp : StdTable 1 c ω 0 12288 k p) :
    Rev2Std k ω c 1 0 12288 0 12288 fun a => Ntt.mulntt_ct_rev2std a (2 ^ k) p := fun a ha hr => by
  obtain ⟨a', h1, h2, h3, h4⟩ := Ntt.run_mulct_rev2std hk hω hp (fun l => coeff a (rev k l)) ha hr
    fun i hi => by rw [rev_rev k i hi]
  exact ⟨a', h1, h2, h3, fun i hi => by rw [h4 i hi, scaled_pre]⟩

theorem ct_std2rev (hp : RevTable 1 1 ω 0 12288 k p) :
    Std2Rev k ω 1 1 0 12288 0 12288 fun a => Ntt.ntt_ct_std2rev a (2 ^ k) p := fun a ha hr => by
  obtain ⟨a', h1, h2, h3, h4⟩ := Ntt.run_ct_std2rev hk hω hp (coeff a) ha hr fun i hi => rfl
  exact ⟨a', h1, h2, h3, fun i hi => by rw [h4 i hi, scaledNtt_one]⟩

theorem mulct_std2rev {c : Zq} (hp : RevTable 1 c ω 0 12288 k p) :
    Std2Rev k ω c 1 0 12288 0 12288 fun a => Ntt.mulntt_ct_std2rev a (2 ^ k) p := fun a ha hr => by
  obtain ⟨a', h1, h2, h3, h4⟩ := Ntt.run_mulct_std2rev hk hω hp (coeff a) ha hr fun i hi => rfl
  exact ⟨a', h1, h2, h3, fun i hi => by rw [h4 i hi, scaled_pre]⟩

theorem gs_rev2std (hp : RevTable 1 1 ω 0 12288 k p) :
    Rev2Std k ω 1 1 0 12288 0 12288 fun a => Ntt.ntt_gs_rev2std a (2 ^ k) p := fun a ha hr => by
  obtain ⟨a', h1, h2, h3, h4⟩ := Ntt.run_gs_rev2std hk hω hp (fun l => coeff a (rev k l)) ha hr
    fun i hi => by rw [rev_rev k i hi]
  exact ⟨a', h1, h2, h3, fun i hi => by rw [h4 i hi, scaledNtt_one]⟩

theorem gsmul_rev2std {c : Zq} (hp : RevTable 1 c ω 0 12288 k p) :
    Rev2Std k ω 1 c 0 12288 0 12288 fun a => Ntt.nttmul_gs_rev2std a (2 ^ k) p := fun a ha hr => by
  obtain ⟨a', h1, h2, h3, h4⟩ := Ntt.run_gsmul_rev2std hk hω hp (fun l => coeff a (rev k l)) ha hr
    fun i hi => by rw [rev_rev k i hi]
  exact ⟨a', h1, h2, h3, fun i hi => by rw [h4 i hi, scaled_post]⟩

theorem gs_std2rev (hp : StdTable 1 1 ω 0 12288 k p) :
    Std2Rev k ω 1 1 0 12288 0 12288 fun a => Ntt.ntt_gs_std2rev a (2 ^ k) p := fun a ha hr => by
  obtain ⟨a', h1, h2, h3, h4⟩ := Ntt.run_gs_std2rev hk hω hp (coeff a) ha hr fun i hi => rfl
  exact ⟨a', h1, h2, h3, fun i hi => by rw [h4 i hi, scaledNtt_one]⟩

theorem gsmul_std2rev {c : Zq} (hp : StdTable 1 c ω 0 12288 k p) :
    Std2Rev k ω 1 c 0 12288 0 12288 fun a => Ntt.nttmul_gs_std2rev a (2 ^ k) p := fun a ha hr => by
  obtain ⟨a', h1, h2, h3, h4⟩ := Ntt.run_gsmul_std2rev hk hω hp (coeff a) ha hr fun i hi => rfl
  exact ⟨a', h1, h2, h3, fun i hi => by rw [h4 i hi, scaled_post]⟩

end

theorem ct_v1_rev2std {ψ : Zq} (hk : k ≤ 31) (hω : 0 < k → (ψ ^ 2) ^ 2 ^ (k - 1) = -1)
    (hp : PowTable 1 1 ψ 0 12288 (2 ^ k) p) :
    Rev2Std k (ψ ^ 2) 1 1 0 12288 0 12288 fun a => Ntt.ntt_ct_rev2std_v1 a (2 ^ k) p := fun a ha hr => by
  obtain ⟨a', h1, h2, h3, h4⟩ := Ntt.run_ct_rev2std_v1 hk hω hp (fun l => coeff a (rev k l)) ha hr
    fun i hi => by rw [rev_rev k i hi]
  exact ⟨a', h1, h2, h3, fun i hi => by rw [h4 i hi, scaledNtt_one]⟩

/-- Multiplication by the powers of `ψ` before or after a transform. -/
theorem run_mul_powers {ψ : Zq} (hk : k ≤ 31) (hp : PowTable 1 1 ψ 0 12288 (2 ^ k) p) {a : Array Int} (ha : a.size = 2 ^ k)
    (hr : Reduced a) : ∃ a', Ntt.mul_array16 a (2 ^ k) p = .ok a' ∧ a'.size = 2 ^ k ∧ Reduced a' ∧
      ∀ i, i < 2 ^ k → coeff a' i = coeff a i * ψ ^ i := by
  have := Nat.pow_le_pow_right (show 0 < 2 by decide) hk
  obtain ⟨a', h1, h2, h3, h4⟩ := Ntt.run_mul_array16 (n := 2 ^ k) (by omega) ha hr hp.1 fun i hi => (hp.2 i hi).1
  refine ⟨a', h1, h2, h3, fun i hi => ?_⟩
  have := (hp.2 i hi).2
  rw [one_mul, one_mul] at this
  rw [h4 i hi, this]

theorem mul_first_std {ψ : Zq} (hk : k ≤ 31) (hp : PowTable 1 1 ψ 0 12288 (2 ^ k) p) (hf : Std2Std k ω 1 1 f) :
    Std2Std k ω ψ 1 fun a => Ntt.mul_array16 a (2 ^ k) p >>= f := fun a ha hr => by
  obtain ⟨b, eb, sb, rb, vb⟩ := run_mul_powers hk hp ha hr
  obtain ⟨c, ec, sc, rc, vc⟩ := hf b sb rb
  refine ⟨c, by simp only [eb, ok_bind, ec], sc, rc, fun i hi => ?_⟩
  rw [vc i hi, scaledNtt_one, TestProg.ntt_congr vb i]
  unfold scaledNtt
  rw [one_pow, one_mul]

theorem mul_first_rev {ψ : Zq} (hk : k ≤ 31) (hp : PowTable 1 1 ψ 0 12288 (2 ^ k) p)
    (hf : Std2Rev k ω 1 1 0 12288 0 12288 f) :
    Std2Rev k ω ψ 1 0 12288 0 12288 fun a => Ntt.mul_array16 a (2 ^ k) p >>= f := fun a ha hr => by
  obtain ⟨b, eb, sb, rb, vb⟩ := run_mul_powers hk hp ha hr
  obtain ⟨c, ec, sc, rc, vc⟩ := hf b sb rb
  refine ⟨c, by simp only [eb, ok_bind, ec], sc, rc, fun i hi => ?_⟩
  rw [vc i hi, scaledNtt_one, TestProg.ntt_congr vb]
  unfold scaledNtt
  rw [one_pow, one_mul]

theorem mul_last {ψ : Zq} (hk : k ≤ 31) (hp : PowTable 1 1 ψ 0 12288 (2 ^ k) p) (hf : Std2Std k ω 1 1 f) :
    Std2Std k ω 1 ψ fun a => f a >>= fun a => Ntt.mul_array16 a (2 ^ k) p := fun a ha hr => by
  obtain ⟨b, eb, sb, rb, vb⟩ := hf a ha hr
  obtain ⟨c, ec, sc, rc, vc⟩ := run_mul_powers hk hp sb rb
  refine ⟨c, by simp only [eb, ok_bind, ec], sc, rc, fun i hi => ?_⟩
  rw [vc i hi, vb i hi, scaledNtt_one, scaled_post, mul_comm]

/-- `mulntt_ct_rev2std` with any table of canonical entries is safe on canonical arrays. -/
theorem mulct_any (hk : k ≤ 31) (hp : 2 ^ k ≤ p.size) (hr : ∀ m j, m < k → j < 2 ^ m → 0 ≤ elt p (2 ^ m + j) ∧ elt p (2 ^ m + j) ≤ 12288) :
    Stable k fun a => Ntt.mulntt_ct_rev2std a (2 ^ k) p := by
  rintro a ⟨ha, hra⟩
  have key : Wp NoErr (mulCtRev2std Ntt.ctBf a (2 ^ k) p) (PW (2 ^ k) Ntt.Bq) := by
    refine wp_mulCtRev2std (P := fun _ => Ntt.Bq) hk hp ?_ ⟨ha, fun i x hx => ?_⟩
    · intro m b j w hm _ hj hw a x y ha hx hy hbx hby
      have hw' : Ntt.Rq w := by
        have := hr m j hm hj
        rwa [elt, Array.getD_eq_getD_getElem?, hw] at this
      refine (Ntt.ctBf_ct (n := 2 ^ k) (by have := Nat.two_pow_pos m; omega) hw' a x y ha hx hy hbx hby).mono ?_
      rintro a' ⟨u, v, e, hu, hv⟩
      exact ⟨u, v, e, hu.1, hv.1⟩
    · have := hra i (getElem?_lt hx)
      rwa [elt, Array.getD_eq_getD_getElem?, hx] at this
  obtain ⟨a', e, s, v⟩ := wp_total.1 key
  exact ⟨a', e, s, fun i hi => v i _ (some_elt hi)⟩

end

/-- What the record of a size must hold. -/
structure SizeOK (k : Nat) (ψ : Zq) (S : Size) : Prop where
  k_le : k ≤ 10
  n : S.n = 2 ^ k
  root : ψ ^ 2 ^ k = -1
  omega : 0 ≤ S.omega ∧ S.omega ≤ 12288
  omega_eq : (S.omega : Zq) = ψ ^ 2
  shuffle : Shuffles k S.shuffle
  psi_powers : PowTable 1 1 ψ 0 12288 (2 ^ k) S.psi_powers
  shoup : StdTable 1 1 (ψ ^ 2) 0 12288 k S.shoup
  rev_shoup : RevTable 1 1 (ψ ^ 2) 0 12288 k S.rev_shoup
  shoup_scaled : StdTable 1 ψ (ψ ^ 2) 0 12288 k S.shoup_scaled
  rev_shoup_scaled : RevTable 1 ψ (ψ ^ 2) 0 12288 k S.rev_shoup_scaled

private theorem sq16 : (6553 : Zq) = 1212 ^ 2 := by decide +kernel
private theorem root16 : (1212 : Zq) ^ 2 ^ 4 = -1 := by decide +kernel
private theorem omega16 : ((size16.omega : Int) : Zq) = 1212 ^ 2 := by decide +kernel

theorem size16_ok : SizeOK 4 1212 size16 where
  k_le := by norm_num
  n := rfl
  root := root16
  omega := by decide
  omega_eq := omega16
  shuffle := shuffles_bitrev (by norm_num)
  psi_powers := psi_powers_ntt16_12289_ok
  shoup := by rw [← sq16]; exact shoup_ntt16_12289_ok
  rev_shoup := by rw [← sq16]; exact rev_shoup_ntt16_12289_ok
  shoup_scaled := by rw [← sq16]; exact shoup_scaled_ntt16_12289_ok
  rev_shoup_scaled := by rw [← sq16]; exact rev_shoup_scaled_ntt16_12289_ok

private theorem sq256 : (8595 : Zq) = 1002 ^ 2 := by decide +kernel
private theorem root256 : (1002 : Zq) ^ 2 ^ 8 = -1 := by decide +kernel
private theorem omega256 : ((size256.omega : Int) : Zq) = 1002 ^ 2 := by decide +kernel

private theorem two_pow_8 : 256 = 2 ^ 8 := by norm_num

theorem size256_ok : SizeOK 8 1002 size256 where
  k_le := by norm_num
  n := two_pow_8
  root := root256
  omega := by decide
  omega_eq := omega256
  shuffle := by dsimp only [size256]; exact shuffles_table (by unfold BITREV256_NPAIRS; omega) bitrev256_pair_ok
  psi_powers := by dsimp only [size256]; exact psi_powers_ntt256_12289_ok
  shoup := by dsimp only [size256]; rw [← sq256]; exact shoup_ntt256_12289_ok
  rev_shoup := by dsimp only [size256]; rw [← sq256]; exact rev_shoup_ntt256_12289_ok
  shoup_scaled := by dsimp only [size256]; rw [← sq256]; exact shoup_scaled_ntt256_12289_ok
  rev_shoup_scaled := by dsimp only [size256]; rw [← sq256]; exact rev_shoup_scaled_ntt256_12289_ok

private theorem sq512 : (10600 : Zq) = 1003 ^ 2 := by decide +kernel
private theorem root512 : (1003 : Zq) ^ 2 ^ 9 = -1 := by decide +kernel
private theorem omega512 : ((size512.omega : Int) : Zq) = 1003 ^ 2 := by decide +kernel

private theorem two_pow_9 : 512 = 2 ^ 9 := by norm_num

theorem size512_ok : SizeOK 9 1003 size512 where
  k_le := by norm_num
  n := two_pow_9
  root := root512
  omega := by decide
  omega_eq := omega512
  shuffle := by dsimp only [size512]; exact shuffles_table (by unfold BITREV512_NPAIRS; omega) bitrev512_pair_ok
  psi_powers := by dsimp only [size512]; exact psi_powers_ntt512_12289_ok
  shoup := by dsimp only [size512]; rw [← sq512]; exact shoup_ntt512_12289_ok
  rev_shoup := by dsimp only [size512]; rw [← sq512]; exact rev_shoup_ntt512_12289_ok
  shoup_scaled := by dsimp only [size512]; rw [← sq512]; exact shoup_scaled_ntt512_12289_ok
  rev_shoup_scaled := by dsimp only [size512]; rw [← sq512]; exact rev_shoup_scaled_ntt512_12289_ok

private theorem sq1024 : (8209 : Zq) = 1014 ^ 2 := by decide +kernel
private theorem root1024 : (1014 : Zq) ^ 2 ^ 10 = -1 := by decide +kernel
private theorem omega1024 : ((size1024.omega : Int) : Zq) = 1014 ^ 2 := by decide +kernel

private theorem two_pow_10 : 1024 = 2 ^ 10 := by norm_num

theorem size1024_ok : SizeOK 10 1014 size1024 where
  k_le := by norm_num
  n := two_pow_10
  root := root1024
  omega := by decide
  omega_eq := omega1024
  shuffle := by dsimp only [size1024]; exact shuffles_table (by unfold BITREV1024_NPAIRS; omega) bitrev1024_pair_ok
  psi_powers := by dsimp only [size1024]; exact psi_powers_ntt1024_12289_ok
  shoup := by dsimp only [size1024]; rw [← sq1024]; exact shoup_ntt1024_12289_ok
  rev_shoup := by dsimp only [size1024]; rw [← sq1024]; exact rev_shoup_ntt1024_12289_ok
  shoup_scaled := by dsimp only [size1024]; rw [← sq1024]; exact shoup_scaled_ntt1024_12289_ok
  rev_shoup_scaled := by dsimp only [size1024]; rw [← sq1024]; exact rev_shoup_scaled_ntt1024_12289_ok

section
variable {k : Nat} {ψ : Zq} {S : Size} (h : SizeOK k ψ S)
include h

theorem SizeOK.k31 : k ≤ 31 := by have := h.k_le; omega

theorem SizeOK.prim : PrimRoot (2 ^ k) (ψ ^ 2) := primRoot_of_psi h.root

theorem SizeOK.half : 0 < k → (ψ ^ 2) ^ 2 ^ (k - 1) = -1 := primRoot_half h.prim

theorem versions_ok : ∀ f ∈ [shuffle_ct_v1 S, shuffle_ct S, shuffle_mulct S, ct_shuffle S, mulct_shuffle S, shuffle_gs S,
    shuffle_gsmul S, gs_shuffle S, gsmul_shuffle S], Std2Std k (ψ ^ 2) 1 1 f := by
  have e := h.n
  intro f hf
  simp only [List.mem_cons, List.not_mem_nil, or_false] at hf
  rcases hf with rfl | rfl | rfl | rfl | rfl | rfl | rfl | rfl | rfl
  · unfold shuffle_ct_v1; rw [e]; exact shuffle_first h.shuffle (ct_v1_rev2std h.k31 h.half h.psi_powers)
  · unfold shuffle_ct; rw [e]; exact shuffle_first h.shuffle (ct_rev2std h.k31 h.half h.shoup)
  · unfold shuffle_mulct; rw [e]; exact shuffle_first h.shuffle (mulct_rev2std h.k31 h.half h.shoup)
  · unfold ct_shuffle; rw [e]; exact shuffle_last h.shuffle (ct_std2rev h.k31 h.half h.rev_shoup)
  · unfold mulct_shuffle; rw [e]; exact shuffle_last h.shuffle (mulct_std2rev h.k31 h.half h.rev_shoup)
  · unfold shuffle_gs; rw [e]; exact shuffle_first h.shuffle (gs_rev2std h.k31 h.half h.rev_shoup)
  · unfold shuffle_gsmul; rw [e]; exact shuffle_first h.shuffle (gsmul_rev2std h.k31 h.half h.rev_shoup)
  · unfold gs_shuffle; rw [e]; exact shuffle_last h.shuffle (gs_std2rev h.k31 h.half h.shoup)
  · unfold gsmul_shuffle; rw [e]; exact shuffle_last h.shuffle (gsmul_std2rev h.k31 h.half h.shoup)

theorem mulntt_ok : ∀ f ∈ [combined_mulntt S, mul_then_ntt S], Std2Std k (ψ ^ 2) ψ 1 f := by
  have e := h.n
  intro f hf
  simp only [List.mem_cons, List.not_mem_nil, or_false] at hf
  rcases hf with rfl | rfl
  · unfold combined_mulntt; rw [e]; exact shuffle_first h.shuffle (mulct_rev2std h.k31 h.half h.shoup_scaled)
  · unfold mul_then_ntt; rw [e]
    exact mul_first_std h.k31 h.psi_powers (shuffle_first h.shuffle (ct_v1_rev2std h.k31 h.half h.psi_powers))

theorem mulntt_rev_ok : ∀ f ∈ [combined_mulntt_rev S, mul_then_ntt_rev S], Std2Rev k (ψ ^ 2) ψ 1 0 12288 0 12288 f := by
  have e := h.n
  intro f hf
  simp only [List.mem_cons, List.not_mem_nil, or_false] at hf
  rcases hf with rfl | rfl
  · unfold combined_mulntt_rev; rw [e]; exact mulct_std2rev h.k31 h.half h.rev_shoup_scaled
  · unfold mul_then_ntt_rev; rw [e]
    exact mul_first_rev h.k31 h.psi_powers (ct_std2rev h.k31 h.half h.rev_shoup)

theorem nttmul_ok : ∀ f ∈ [combined_nttmul S, ntt_then_mul S, combined_nttmul_rev S, ntt_then_mul_rev S],
    Std2Std k (ψ ^ 2) 1 ψ f := by
  have e := h.n
  have hs := shuffles_bitrev h.k31
  intro f hf
  simp only [List.mem_cons, List.not_mem_nil, or_false] at hf
  rcases hf with rfl | rfl | rfl | rfl
  · unfold combined_nttmul; rw [e]; exact shuffle_first h.shuffle (gsmul_rev2std h.k31 h.half h.rev_shoup_scaled)
  · have := mul_last h.k31 h.psi_powers (shuffle_first h.shuffle (ct_rev2std h.k31 h.half h.shoup))
    unfold ntt_then_mul; rw [e]
    simpa only [bind_assoc] using this
  · unfold combined_nttmul_rev; rw [e]; exact shuffle_last hs (gsmul_std2rev h.k31 h.half h.shoup_scaled)
  · have := mul_last h.k31 h.psi_powers (shuffle_last hs (ct_std2rev h.k31 h.half h.rev_shoup))
    unfold ntt_then_mul_rev; rw [e]
    simpa only [bind_assoc] using this

theorem agree_ok : ∀ p ∈ [(combined_mulntt S, mul_then_ntt S), (combined_mulntt_rev S, mul_then_ntt_rev S),
    (combined_nttmul S, ntt_then_mul S), (combined_nttmul_rev S, ntt_then_mul_rev S)], Agree k p.1 p.2 := by
  intro p hp
  simp only [List.mem_cons, List.not_mem_nil, or_false] at hp
  rcases hp with rfl | rfl | rfl | rfl
  · exact agree_of (mulntt_ok h _ (by simp)) (mulntt_ok h _ (by simp))
  · exact agree_of (V := fun A i => scaledNtt (2 ^ k) (ψ ^ 2) ψ 1 A (rev k i)) (mulntt_rev_ok h _ (by simp))
      (mulntt_rev_ok h _ (by simp))
  · exact agree_of (nttmul_ok h _ (by simp)) (nttmul_ok h _ (by simp))
  · exact agree_of (nttmul_ok h _ (by simp)) (nttmul_ok h _ (by simp))

theorem speedsOf_ok : ∀ f ∈ speedsOf S, Stable k f := by
  have e := h.n
  intro f hf
  unfold speedsOf at hf
  rw [e] at hf
  simp only [List.mem_cons, List.not_mem_nil, or_false] at hf
  rcases hf with rfl | rfl | rfl | rfl | rfl
  · exact rev2std_stable (ct_v1_rev2std h.k31 h.half h.psi_powers)
  · exact rev2std_stable (ct_rev2std h.k31 h.half h.shoup)
  · exact std2rev_stable (ct_std2rev h.k31 h.half h.rev_shoup)
  · exact rev2std_stable (gs_rev2std h.k31 h.half h.rev_shoup)
  · exact rev2std_stable (gsmul_rev2std h.k31 h.half h.rev_shoup)

theorem products_ok : ∀ f ∈ products S, Stable k f := by
  intro f hf
  simp only [products, List.mem_cons, List.not_mem_nil, or_false] at hf
  rcases hf with rfl | rfl | rfl | rfl | rfl | rfl | rfl | rfl
  · exact Std2Std.stable (mulntt_ok h _ (by simp))
  · exact Std2Std.stable (mulntt_ok h _ (by simp))
  · exact std2rev_stable (mulntt_rev_ok h _ (by simp))
  · exact std2rev_stable (mulntt_rev_ok h _ (by simp))
  · exact Std2Std.stable (nttmul_ok h _ (by simp))
  · exact Std2Std.stable (nttmul_ok h _ (by simp))
  · exact Std2Std.stable (nttmul_ok h _ (by simp))
  · exact Std2Std.stable (nttmul_ok h _ (by simp))

end

theorem speeds16_ok : ∀ f ∈ speeds16, Stable 4 f := by
  have h := size16_ok
  intro f hf
  simp only [speeds16, List.mem_cons, List.not_mem_nil, or_false] at hf
  rcases hf with rfl | rfl | rfl | rfl | rfl | rfl | rfl
  · exact rev2std_stable (ct_v1_rev2std h.k31 h.half h.psi_powers)
  · exact rev2std_stable (ct_rev2std h.k31 h.half h.shoup)
  · exact rev2std_stable (mulct_rev2std h.k31 h.half h.shoup)
  · exact std2rev_stable (ct_std2rev h.k31 h.half h.rev_shoup)
  · exact mulct_any (by norm_num) h.rev_shoup.1 fun m j hm hj => (h.rev_shoup.2 m j hm hj).1
  · exact rev2std_stable (gs_rev2std h.k31 h.half h.rev_shoup)
  · exact rev2std_stable (gsmul_rev2std h.k31 h.half h.rev_shoup)

end TestNtt
