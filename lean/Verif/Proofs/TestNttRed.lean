import Verif.Model.TestNttRed
import Verif.Proofs.TestNttRuns
import Verif.Proofs.RedIterate

/-
The functions tested by src/test_ntt_red.c.
-/

namespace TestNttRed
open C Spec NTT TestProg TestTables
open TestNtt (Shuffles shuffles_bitrev shuffles_table reduced_of_elt)

/-- `f` is a transform of arrays of values in `[-6144, 6144]`, from bit-reverse to standard order, without bounds on the
results. -/
def LazyRev (k : Nat) (ω : Zq) (f : Array Int → M (Array Int)) : Prop :=
  ∀ a : Array Int, a.size = 2 ^ k → InRange (-6144) 6144 a →
    ∃ a', f a = .ok a' ∧ a'.size = 2 ^ k ∧ ∀ i, i < 2 ^ k → coeff a' i = ntt (2 ^ k) ω (fun l => coeff a (rev k l)) i

/-- The same from standard to bit-reverse order. -/
def LazyStd (k : Nat) (ω : Zq) (f : Array Int → M (Array Int)) : Prop :=
  ∀ a : Array Int, a.size = 2 ^ k → InRange (-6144) 6144 a →
    ∃ a', f a = .ok a' ∧ a'.size = 2 ^ k ∧ ∀ i, i < 2 ^ k → coeff a' i = ntt (2 ^ k) ω (coeff a) (rev k i)

section
variable {k : Nat} {ω : Zq} {f sh : Array Int → M (Array Int)}

theorem lazy_rev (hk : k ≤ 31) (hs : Shuffles k sh) (hf : LazyRev k ω f) :
    Std2Std k ω 1 1 (fun a => do
      let a ← NttRed.shift_array a (2 ^ k)
      let a ← sh a
      let a ← f a
      NttRed.normalize a (2 ^ k)) := fun a ha hr => by
  have hk2 := Nat.pow_le_pow_right (show 0 < 2 by decide) hk
  obtain ⟨b, eb, sb, rb, vb⟩ := run_shift (n := 2 ^ k) (by omega) ha hr
  obtain ⟨c, ec, sc, vc⟩ := hs b sb
  obtain ⟨d, ed, sd, vd⟩ := hf c sc (fun i hi => by
    rw [vc i (by omega)]
    exact rb _ (by have := rev_lt k i; omega))
  obtain ⟨e, ee, se, re, ve⟩ := run_norm (n := 2 ^ k) (by omega) sd
  refine ⟨e, by simp only [eb, ok_bind, ec, ed, ee], se, re, fun i hi => ?_⟩
  rw [ve i hi, vd i hi, scaledNtt_one]
  refine TestProg.ntt_congr (fun l hl => ?_) i
  rw [← vb l hl]
  unfold coeff
  rw [vc _ (rev_lt k l), rev_rev k l hl]

theorem lazy_std (hk : k ≤ 31) (hs : Shuffles k sh) (hf : LazyStd k ω f) :
    Std2Std k ω 1 1 (fun a => do
      let a ← NttRed.shift_array a (2 ^ k)
      let a ← f a
      let a ← NttRed.normalize a (2 ^ k)
      sh a) := fun a ha hr => by
  have hk2 := Nat.pow_le_pow_right (show 0 < 2 by decide) hk
  obtain ⟨b, eb, sb, rb, vb⟩ := run_shift (n := 2 ^ k) (by omega) ha hr
  obtain ⟨c, ec, sc, vc⟩ := hf b sb rb
  obtain ⟨d, ed, sd, rd, vd⟩ := run_norm (n := 2 ^ k) (by omega) sc
  obtain ⟨e, ee, se, ve⟩ := hs d sd
  refine ⟨e, by simp only [eb, ok_bind, ec, ed, ee], se, reduced_of_elt sd se rd ve, fun i hi => ?_⟩
  have : coeff e i = coeff d (rev k i) := by unfold coeff; rw [ve i hi]
  rw [this, vd _ (rev_lt k i), vc _ (rev_lt k i), rev_rev k i hi, scaledNtt_one]
  exact TestProg.ntt_congr (fun l hl => vb l hl) i

theorem ctStep_6144 : ∀ m, m < 11 → NttRed.CtStep (NttRed.ctSeq 6144 m) (NttRed.ctSeq 6144 (m + 1)) := by decide
theorem gsStep_6144 : ∀ m, m < 11 → NttRed.GsStep (NttRed.gsSeq (-6144) 6144 m).1 (NttRed.gsSeq (-6144) 6144 m).2
    (NttRed.gsSeq (-6144) 6144 (m + 1)).1 (NttRed.gsSeq (-6144) 6144 (m + 1)).2 := by decide

variable {p : Array Int} (hk : k ≤ 11) (hω : 0 < k → ω ^ 2 ^ (k - 1) = -1)
include hk hω

theorem lazy_ct_rev2std (hp : StdTable 3 1 ω (-6144) 6144 k p) :
    LazyRev k ω fun a => NttRed.ntt_red_ct_rev2std a (2 ^ k) p := fun a ha hr => by
  obtain ⟨a', h1, h2, -, h4⟩ := NttRed.run_ct_rev2std (β := NttRed.ctSeq 6144) (by omega) hω hp
    (fun m hm => ctStep_6144 m (by omega)) (fun l => coeff a (rev k l)) ha hr fun i hi => by rw [rev_rev k i hi]
  exact ⟨a', h1, h2, h4⟩

theorem lazy_mulct_rev2std (hp : StdTable 3 1 ω (-6144) 6144 k p) :
    LazyRev k ω fun a => NttRed.mulntt_red_ct_rev2std a (2 ^ k) p := fun a ha hr => by
  obtain ⟨a', h1, h2, -, h4⟩ := NttRed.run_mulct_rev2std (β := NttRed.ctSeq 6144) (by omega) hω hp
    (fun m hm => ctStep_6144 m (by omega)) (fun l => coeff a (rev k l)) ha hr fun i hi => by rw [rev_rev k i hi]
  exact ⟨a', h1, h2, fun i hi => by rw [h4 i hi, one_mul]; rfl⟩

theorem lazy_ct_std2rev (hp : RevTable 3 1 ω (-6144) 6144 k p) :
    LazyStd k ω fun a => NttRed.ntt_red_ct_std2rev a (2 ^ k) p := fun a ha hr => by
  obtain ⟨a', h1, h2, -, h4⟩ := NttRed.run_ct_std2rev (β := NttRed.ctSeq 6144) (by omega) hω hp
    (fun m hm => ctStep_6144 m (by omega)) (coeff a) ha hr fun i hi => rfl
  exact ⟨a', h1, h2, h4⟩

theorem lazy_mulct_std2rev (hp : RevTable 3 1 ω (-6144) 6144 k p) :
    LazyStd k ω fun a => NttRed.mulntt_red_ct_std2rev a (2 ^ k) p := fun a ha hr => by
  obtain ⟨a', h1, h2, -, h4⟩ := NttRed.run_mulct_std2rev (β := NttRed.ctSeq 6144) (by omega) hω hp
    (fun m hm => ctStep_6144 m (by omega)) (coeff a) ha hr fun i hi => rfl
  exact ⟨a', h1, h2, fun i hi => by rw [h4 i hi, one_mul]; rfl⟩

theorem lazy_gs_rev2std (hp : RevTable 3 1 ω (-6144) 6144 k p) :
    LazyRev k ω fun a => NttRed.ntt_red_gs_rev2std a (2 ^ k) p := fun a ha hr => by
  obtain ⟨a', h1, h2, -, h4⟩ := NttRed.run_gs_rev2std (l := fun m => (NttRed.gsSeq (-6144) 6144 m).1)
    (u := fun m => (NttRed.gsSeq (-6144) 6144 m).2) (by omega) hω hp
    (fun m hm => gsStep_6144 m (by omega)) (fun l => coeff a (rev k l)) ha hr fun i hi => by rw [rev_rev k i hi]
  exact ⟨a', h1, h2, h4⟩

theorem lazy_gsmul_rev2std (hp : RevTable 3 1 ω (-6144) 6144 k p) :
    LazyRev k ω fun a => NttRed.nttmul_red_gs_rev2std a (2 ^ k) p := fun a ha hr => by
  obtain ⟨a', h1, h2, -, h4⟩ := NttRed.run_gsmul_rev2std (l := fun m => (NttRed.gsSeq (-6144) 6144 m).1)
    (u := fun m => (NttRed.gsSeq (-6144) 6144 m).2) (by omega) hω hp
    (fun m hm => gsStep_6144 m (by omega)) (fun l => coeff a (rev k l)) ha hr fun i hi => by rw [rev_rev k i hi]
  exact ⟨a', h1, h2, fun i hi => by rw [h4 i hi, one_pow, one_mul]⟩

theorem lazy_gs_std2rev (hp : StdTable 3 1 ω (-6144) 6144 k p) :
    LazyStd k ω fun a => NttRed.ntt_red_gs_std2rev a (2 ^ k) p := fun a ha hr => by
  obtain ⟨a', h1, h2, -, h4⟩ := NttRed.run_gs_std2rev (l := fun m => (NttRed.gsSeq (-6144) 6144 m).1)
    (u := fun m => (NttRed.gsSeq (-6144) 6144 m).2) (by omega) hω hp
    (fun m hm => gsStep_6144 m (by omega)) (coeff a) ha hr fun i hi => rfl
  exact ⟨a', h1, h2, h4⟩

theorem lazy_gsmul_std2rev (hp : StdTable 3 1 ω (-6144) 6144 k p) :
    LazyStd k ω fun a => NttRed.nttmul_red_gs_std2rev a (2 ^ k) p := fun a ha hr => by
  obtain ⟨a', h1, h2, -, h4⟩ := NttRed.run_gsmul_std2rev (l := fun m => (NttRed.gsSeq (-6144) 6144 m).1)
    (u := fun m => (NttRed.gsSeq (-6144) 6144 m).2) (by omega) hω hp
    (fun m hm => gsStep_6144 m (by omega)) (coeff a) ha hr fun i hi => rfl
  exact ⟨a', h1, h2, fun i hi => by rw [h4 i hi, one_pow, one_mul]⟩

end

/-- What the record of a size must hold. -/
structure SizeOK (k : Nat) (ψ : Zq) (S : Size) : Prop where
  k_pos : 0 < k
  k_le : k ≤ 11
  n : S.n = 2 ^ k
  root : ψ ^ 2 ^ k = -1
  omega : 0 ≤ S.omega ∧ S.omega ≤ 12288
  omega_eq : (S.omega : Zq) = ψ ^ 2
  shuffle : Shuffles k S.shuffle
  shoup : StdTable 3 1 (ψ ^ 2) (-6144) 6144 k S.shoup_sred
  rev_shoup : RevTable 3 1 (ψ ^ 2) (-6144) 6144 k S.rev_shoup_sred

private theorem sq16 : (6553 : Zq) = 1212 ^ 2 := by decide +kernel
private theorem root16 : (1212 : Zq) ^ 2 ^ 4 = -1 := by decide +kernel
private theorem omega16 : ((size16.omega : Int) : Zq) = 1212 ^ 2 := by decide +kernel
private theorem pow16 : 16 = 2 ^ 4 := by norm_num

theorem size16_ok : SizeOK 4 1212 size16 where
  k_pos := by norm_num
  k_le := by norm_num
  n := pow16
  root := root16
  omega := by decide
  omega_eq := omega16
  shuffle := by dsimp only [size16]; exact shuffles_bitrev (k := 4) (by norm_num)
  shoup := by dsimp only [size16]; rw [← sq16]; exact shoup_sred_ntt16_12289_ok
  rev_shoup := by dsimp only [size16]; rw [← sq16]; exact rev_shoup_sred_ntt16_12289_ok

private theorem sq128 : (12208 : Zq) = 1022 ^ 2 := by decide +kernel
private theorem root128 : (1022 : Zq) ^ 2 ^ 7 = -1 := by decide +kernel
private theorem omega128 : ((size128.omega : Int) : Zq) = 1022 ^ 2 := by decide +kernel
private theorem pow128 : 128 = 2 ^ 7 := by norm_num

theorem size128_ok : SizeOK 7 1022 size128 where
  k_pos := by norm_num
  k_le := by norm_num
  n := pow128
  root := root128
  omega := by decide
  omega_eq := omega128
  shuffle := by dsimp only [size128]; exact shuffles_table (by unfold BITREV128_NPAIRS; omega) bitrev128_pair_ok
  shoup := by dsimp only [size128]; rw [← sq128]; exact shoup_sred_ntt128_12289_ok
  rev_shoup := by dsimp only [size128]; rw [← sq128]; exact rev_shoup_sred_ntt128_12289_ok

private theorem sq256 : (8595 : Zq) = 1002 ^ 2 := by decide +kernel
private theorem root256 : (1002 : Zq) ^ 2 ^ 8 = -1 := by decide +kernel
private theorem omega256 : ((size256.omega : Int) : Zq) = 1002 ^ 2 := by decide +kernel
private theorem pow256 : 256 = 2 ^ 8 := by norm_num

theorem size256_ok : SizeOK 8 1002 size256 where
  k_pos := by norm_num
  k_le := by norm_num
  n := pow256
  root := root256
  omega := by decide
  omega_eq := omega256
  shuffle := by dsimp only [size256]; exact shuffles_table (by unfold BITREV256_NPAIRS; omega) bitrev256_pair_ok
  shoup := by dsimp only [size256]; rw [← sq256]; exact shoup_sred_ntt256_12289_ok
  rev_shoup := by dsimp only [size256]; rw [← sq256]; exact rev_shoup_sred_ntt256_12289_ok

private theorem sq512 : (10600 : Zq) = 1003 ^ 2 := by decide +kernel
private theorem root512 : (1003 : Zq) ^ 2 ^ 9 = -1 := by decide +kernel
private theorem omega512 : ((size512.omega : Int) : Zq) = 1003 ^ 2 := by decide +kernel
private theorem pow512 : 512 = 2 ^ 9 := by norm_num

theorem size512_ok : SizeOK 9 1003 size512 where
  k_pos := by norm_num
  k_le := by norm_num
  n := pow512
  root := root512
  omega := by decide
  omega_eq := omega512
  shuffle := by dsimp only [size512]; exact shuffles_table (by unfold BITREV512_NPAIRS; omega) bitrev512_pair_ok
  shoup := by dsimp only [size512]; rw [← sq512]; exact shoup_sred_ntt512_12289_ok
  rev_shoup := by dsimp only [size512]; rw [← sq512]; exact rev_shoup_sred_ntt512_12289_ok

private theorem sq1024 : (8209 : Zq) = 1014 ^ 2 := by decide +kernel
private theorem root1024 : (1014 : Zq) ^ 2 ^ 10 = -1 := by decide +kernel
private theorem omega1024 : ((size1024.omega : Int) : Zq) = 1014 ^ 2 := by decide +kernel
private theorem pow1024 : 1024 = 2 ^ 10 := by norm_num

theorem size1024_ok : SizeOK 10 1014 size1024 where
  k_pos := by norm_num
  k_le := by norm_num
  n := pow1024
  root := root1024
  omega := by decide
  omega_eq := omega1024
  shuffle := by dsimp only [size1024]; exact shuffles_table (by unfold BITREV1024_NPAIRS; omega) bitrev1024_pair_ok
  shoup := by dsimp only [size1024]; rw [← sq1024]; exact shoup_sred_ntt1024_12289_ok
  rev_shoup := by dsimp only [size1024]; rw [← sq1024]; exact rev_shoup_sred_ntt1024_12289_ok

private theorem sq2048 : (12269 : Zq) = 1016 ^ 2 := by decide +kernel
private theorem root2048 : (1016 : Zq) ^ 2 ^ 11 = -1 := by decide +kernel
private theorem omega2048 : ((size2048.omega : Int) : Zq) = 1016 ^ 2 := by decide +kernel
private theorem pow2048 : 2048 = 2 ^ 11 := by norm_num

theorem size2048_ok : SizeOK 11 1016 size2048 where
  k_pos := by norm_num
  k_le := by norm_num
  n := pow2048
  root := root2048
  omega := by decide
  omega_eq := omega2048
  shuffle := by dsimp only [size2048]; exact shuffles_table (by unfold BITREV2048_NPAIRS; omega) bitrev2048_pair_ok
  shoup := by dsimp only [size2048]; rw [← sq2048]; exact shoup_sred_ntt2048_12289_ok
  rev_shoup := by dsimp only [size2048]; rw [← sq2048]; exact rev_shoup_sred_ntt2048_12289_ok

section
variable {k : Nat} {ψ : Zq} {S : Size} (h : SizeOK k ψ S)
include h

theorem SizeOK.k31 : k ≤ 31 := by have := h.k_le; omega

theorem SizeOK.prim : PrimRoot (2 ^ k) (ψ ^ 2) := primRoot_of_psi h.root

theorem SizeOK.half : 0 < k → (ψ ^ 2) ^ 2 ^ (k - 1) = -1 := primRoot_half h.prim

theorem versions_ok : ∀ f ∈ versions S, Std2Std k (ψ ^ 2) 1 1 f := by
  have e := h.n
  have hs := shuffles_bitrev h.k31
  intro f hf
  simp only [versions, List.mem_cons, List.not_mem_nil, or_false] at hf
  rcases hf with rfl | rfl | rfl | rfl | rfl | rfl | rfl | rfl
  · unfold ct_rev2std; rw [e]; exact lazy_rev h.k31 h.shuffle (lazy_ct_rev2std h.k_le h.half h.shoup)
  · unfold ct_std2rev; rw [e]; exact lazy_std h.k31 h.shuffle (lazy_ct_std2rev h.k_le h.half h.rev_shoup)
  · unfold gs_rev2std; rw [e]; exact lazy_rev h.k31 h.shuffle (lazy_gs_rev2std h.k_le h.half h.rev_shoup)
  · unfold gs_std2rev; rw [e]; exact lazy_std h.k31 h.shuffle (lazy_gs_std2rev h.k_le h.half h.shoup)
  · unfold mulct_rev2std; rw [e]; exact lazy_rev h.k31 hs (lazy_mulct_rev2std h.k_le h.half h.shoup)
  · unfold mulct_std2rev; rw [e]; exact lazy_std h.k31 hs (lazy_mulct_std2rev h.k_le h.half h.rev_shoup)
  · unfold gsmul_rev2std; rw [e]; exact lazy_rev h.k31 hs (lazy_gsmul_rev2std h.k_le h.half h.rev_shoup)
  · unfold gsmul_std2rev; rw [e]; exact lazy_std h.k31 hs (lazy_gsmul_std2rev h.k_le h.half h.shoup)

end

end TestNttRed
