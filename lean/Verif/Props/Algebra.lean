import Verif.Proofs.Algebra
import Verif.Props.Agree
import Verif.Props.AsmProducts
import Verif.Props.Wrappers
import Mathlib.Tactic.IntervalCases

/-
C74: the products obey the laws of the ring Z_q[X]/(X^n+1), and the transforms tell which arrays have an inverse.
-/

namespace Props
open C Spec NTT Tables Algebra

/-- The products whose result is in `[0, Q-1]`: the five of the `ntt` library, the five of `ntt_red`, and for n >= 16
the five of the AVX2 library (and the special first product for n = 1024, psi = 1014). -/
def canonicalProducts (t : Nttables) (r : RedTables) (k : Nat) (psi : Int) (sh : Bool) (up : Int) :
    List (Array Int → Array Int → Array Int → M (Array Int × Array Int × Array Int)) :=
  exactProducts t r (2 ^ k) sh ++ (if k = 10 ∧ psi = 1014 then [AsmProducts.product1_1024 r (2 ^ k)] else []) ++
    if 4 ≤ k then [AsmProducts.product1 r (2 ^ k) sh, AsmProducts.product2 r (2 ^ k) sh,
      AsmProducts.product3 r (2 ^ k) sh, AsmProducts.product4 r (2 ^ k) sh, AsmProducts.product5 r (2 ^ k) up sh]
    else []

/-- The call `f(c, a, b)` stores `d` in `c`, whatever `c` held before. -/
def Stores (f : Array Int → Array Int → Array Int → M (Array Int × Array Int × Array Int)) (a b d : Array Int) : Prop :=
  ∀ c : Array Int, c.size = a.size → ∃ a' b', f c a b = .ok (d, a', b')

/-- `n` coefficients in `[0, Q-1]`. -/
def Poly (n : Nat) (a : Array Int) : Prop := a.size = n ∧ Reduced a

/-- The array of the monomial `X^m`. -/
def monomial (n m : Nat) : Array Int := Array.ofFn fun i : Fin n => if i.val = m then 1 else 0

/-- The sum of two arrays, elementwise modulo `Q`. -/
def sumQ (n : Nat) (a b : Array Int) : Array Int := Array.ofFn fun i : Fin n => (elt a i + elt b i) % 12289

/-- The parameters and tables of a library. -/
structure Library (k : Nat) (t : Nttables) (r : RedTables) (psi : Int) : Prop where
  ok : ∃ xn buf, GoodParams k xn psi ∧ (∀ n, (buf n).size = n) ∧ make_tables buf xn psi = .ok t ∧
    make_red_tables buf xn psi = .ok r

section
variable {k : Nat} {t : Nttables} {r : RedTables} {psi : Int} {sh : Bool} {up : Int}

private theorem elt_ofFn {n : Nat} (f : Fin n → Int) {i : Nat} (hi : i < n) : elt (Array.ofFn f) i = f ⟨i, hi⟩ := by
  unfold elt; simp [hi]

theorem poly_monomial (n m : Nat) : Poly n (monomial n m) := by
  refine ⟨by simp [monomial], fun i hi => ?_⟩
  have hi : i < n := by simpa [monomial] using hi
  unfold monomial
  rw [elt_ofFn _ hi]
  dsimp only
  split <;> omega

theorem poly_sumQ (n : Nat) (a b : Array Int) : Poly n (sumQ n a b) := by
  refine ⟨by simp [sumQ], fun i hi => ?_⟩
  have hi : i < n := by simpa [sumQ] using hi
  unfold sumQ
  rw [elt_ofFn _ hi]
  dsimp only
  omega

private theorem coeff_monomial {n m i : Nat} (hi : i < n) : coeff (monomial n m) i = if i = m then 1 else 0 := by
  unfold coeff monomial
  rw [elt_ofFn _ hi]
  dsimp only
  split <;> simp

private theorem coeff_sumQ {n i : Nat} (hi : i < n) (a b : Array Int) :
    coeff (sumQ n a b) i = coeff a i + coeff b i := by
  unfold coeff sumQ
  rw [elt_ofFn _ hi]
  dsimp only
  rw [Ntt.zq_mod]; push_cast; rfl

theorem Library.root (L : Library k t r psi) : (psi : Zq) ^ 2 ^ k = -1 := by
  obtain ⟨xn, buf, h, -⟩ := L.ok
  exact good_psi h

/-- The product of two arrays exists, and every product function stores it. -/
theorem product_exists (L : Library k t r psi) {a b : Array Int} (ha : Poly (2 ^ k) a) (hb : Poly (2 ^ k) b) :
    ∃ d, Poly (2 ^ k) d ∧ (∀ i, i < 2 ^ k → coeff d i = negacyclic (2 ^ k) (coeff a) (coeff b) i) ∧
      ∀ sh up, ∀ f ∈ canonicalProducts t r k psi sh up, Stores f a b d := by
  obtain ⟨xn, buf, h, hbuf, ht, hr⟩ := L.ok
  have key : ∀ sh up, ∀ f ∈ canonicalProducts t r k psi sh up, ∀ c : Array Int, c.size = 2 ^ k →
      ∃ d a' b', f c a b = .ok (d, a', b') ∧ d.size = 2 ^ k ∧ Reduced d ∧
        ∀ i, i < 2 ^ k → coeff d i = negacyclic (2 ^ k) (coeff a) (coeff b) i := by
    intro sh up f hf c hc
    unfold canonicalProducts at hf
    rcases List.mem_append.1 hf with hf | hf
    · rcases List.mem_append.1 hf with hf | hs
      swap
      · by_cases h10 : k = 10 ∧ psi = 1014
        · rw [if_pos h10, List.mem_singleton] at hs
          obtain ⟨rfl, rfl⟩ := h10
          have hxn : xn = 1024 := by have := h.2.1; omega
          subst hxn
          subst hs
          obtain ⟨c', a', b', e, s, _, _, q, v⟩ := C37_product1_1024 hbuf hr c a b hc ha.1 hb.1 ha.2 hb.2
          exact ⟨c', a', b', e, s, q, v⟩
        · rw [if_neg h10] at hs; exact absurd hs (by simp)
      have hf' : f ∈ [Ntt.product1 t (2 ^ k), Ntt.product2 t (2 ^ k), Ntt.product3 t (2 ^ k),
          Ntt.product4 t (2 ^ k), Ntt.product5 t (2 ^ k)] ∨
          f ∈ [NttRed.product1 r (2 ^ k) sh, NttRed.product2 r (2 ^ k) sh,
            NttRed.product3 r (2 ^ k) sh, NttRed.product4 r (2 ^ k) sh,
            NttRed.product5 r (2 ^ k) sh] := by
        rw [← List.mem_append]; exact hf
      rcases hf' with hf' | hf'
      · obtain ⟨c', a', b', e, s, _, _, q, v⟩ := C11_products h hbuf ht c a b hc ha.1 hb.1 ha.2 hb.2 f hf'
        exact ⟨c', a', b', e, s, q, v⟩
      · obtain ⟨c', a', b', e, s, _, _, q, v⟩ :=
          C21_products h hbuf hr sh c a b hc ha.1 hb.1 ha.2 hb.2 f hf'
        exact ⟨c', a', b', e, s, q, v⟩
    · by_cases h4 : 4 ≤ k
      · rw [if_pos h4] at hf
        obtain ⟨c', a', b', e, s, _, _, q, v⟩ :=
          C37_products h4 h hbuf hr sh up c a b hc ha.1 hb.1 ha.2 hb.2 f hf
        exact ⟨c', a', b', e, s, q, v⟩
      · rw [if_neg h4] at hf; exact absurd hf (by simp)
  obtain ⟨d, a', b', e, s, q, v⟩ := key false 0 (Ntt.product1 t (2 ^ k)) (by simp [canonicalProducts, exactProducts])
    (Array.replicate (2 ^ k) 0) (by simp)
  refine ⟨d, ⟨s, q⟩, v, fun sh up f hf c hc => ?_⟩
  obtain ⟨d', a', b', e', s', q', v'⟩ := key sh up f hf c (by rw [hc, ha.1])
  have : d' = d := reduced_ext (by omega) q' q fun i hi => by rw [v' i (by omega), v i (by omega)]
  subst this
  exact ⟨a', b', e'⟩

private theorem poly_ext (L : Library k t r psi) {a b : Array Int} (ha : Poly (2 ^ k) a) (hb : Poly (2 ^ k) b)
    (h : ∀ j, j < 2 ^ k → val k psi (coeff a) j = val k psi (coeff b) j) : a = b := by
  refine reduced_ext (by rw [ha.1, hb.1]) ha.2 hb.2 fun i hi => ?_
  rw [ha.1] at hi
  exact val_ext L.root h hi

/-- The product, by values. -/
private theorem product_val (L : Library k t r psi) {a b : Array Int} (ha : Poly (2 ^ k) a) (hb : Poly (2 ^ k) b) :
    ∃ d, Poly (2 ^ k) d ∧ (∀ j, val k psi (coeff d) j = val k psi (coeff a) j * val k psi (coeff b) j) ∧
      ∀ sh up, ∀ f ∈ canonicalProducts t r k psi sh up, Stores f a b d := by
  obtain ⟨d, hd, hv, hs⟩ := product_exists L ha hb
  exact ⟨d, hd, fun j => by rw [val_congr hv j, val_mul L.root], hs⟩

/-- The product is commutative: with any two product functions, `f(c, a, b)` and `g(c', b, a)` store the same array. -/
theorem C74_commutative (L : Library k t r psi) {a b : Array Int} (ha : Poly (2 ^ k) a) (hb : Poly (2 ^ k) b) :
    ∀ f ∈ canonicalProducts t r k psi sh up, ∀ g ∈ canonicalProducts t r k psi sh up,
    ∃ d, Poly (2 ^ k) d ∧ Stores f a b d ∧ Stores g b a d := by
  intro f hf g hg
  obtain ⟨d, hd, vd, sd⟩ := product_val L ha hb
  obtain ⟨d', hd', vd', sd'⟩ := product_val L hb ha
  have : d' = d := poly_ext L hd' hd fun j _ => by rw [vd', vd, mul_comm]
  subst this
  exact ⟨d', hd, sd _ _ f hf, sd' _ _ g hg⟩

/-- The product is associative. -/
theorem C74_associative (L : Library k t r psi) {a b c : Array Int} (ha : Poly (2 ^ k) a) (hb : Poly (2 ^ k) b)
    (hc : Poly (2 ^ k) c) :
    ∀ f ∈ canonicalProducts t r k psi sh up, ∀ g ∈ canonicalProducts t r k psi sh up,
    ∀ f' ∈ canonicalProducts t r k psi sh up, ∀ g' ∈ canonicalProducts t r k psi sh up,
    ∃ ab bc abc, Stores f a b ab ∧ Stores g ab c abc ∧ Stores f' b c bc ∧ Stores g' a bc abc := by
  intro f hf g hg f' hf' g' hg'
  obtain ⟨ab, p1, v1, s1⟩ := product_val L ha hb
  obtain ⟨x, p2, v2, s2⟩ := product_val L p1 hc
  obtain ⟨bc, p3, v3, s3⟩ := product_val L hb hc
  obtain ⟨y, p4, v4, s4⟩ := product_val L ha p3
  have : y = x := poly_ext L p4 p2 fun j _ => by rw [v4, v3, v2, v1, mul_assoc]
  subst this
  exact ⟨ab, bc, y, s1 _ _ f hf, s2 _ _ g hg, s3 _ _ f' hf', s4 _ _ g' hg'⟩

/-- Key agreement: from the public `a` and the secrets `s` and `s'`, the two parties compute `a*s` and `a*s'`; multiplying what
they receive by their own secret, both get the same array, whatever library each of them uses. -/
theorem C74_key_agreement (L : Library k t r psi) {a s s' : Array Int} (ha : Poly (2 ^ k) a) (hs : Poly (2 ^ k) s)
    (hs' : Poly (2 ^ k) s') :
    ∀ f ∈ canonicalProducts t r k psi sh up, ∀ g ∈ canonicalProducts t r k psi sh up,
    ∃ p p' key, Stores f a s p ∧ Stores g a s' p' ∧ Stores f p' s key ∧ Stores g p s' key := by
  intro f hf g hg
  obtain ⟨p, p1, v1, s1⟩ := product_val L ha hs
  obtain ⟨p', p2, v2, s2⟩ := product_val L ha hs'
  obtain ⟨x, p3, v3, s3⟩ := product_val L p2 hs
  obtain ⟨y, p4, v4, s4⟩ := product_val L p1 hs'
  have : y = x := poly_ext L p4 p3 fun j _ => by rw [v4, v3, v2, v1]; ring
  subst this
  exact ⟨p, p', y, s1 _ _ f hf, s2 _ _ g hg, s3 _ _ f hf, s4 _ _ g hg⟩

/-- The product distributes over the sum modulo `Q`. -/
theorem C74_distributive (L : Library k t r psi) {a b c : Array Int} (ha : Poly (2 ^ k) a) (hb : Poly (2 ^ k) b)
    (hc : Poly (2 ^ k) c) :
    ∀ f ∈ canonicalProducts t r k psi sh up,
    ∃ ac bc, Stores f a c ac ∧ Stores f b c bc ∧ Stores f (sumQ (2 ^ k) a b) c (sumQ (2 ^ k) ac bc) := by
  intro f hf
  obtain ⟨ac, p1, v1, s1⟩ := product_val L ha hc
  obtain ⟨bc, p2, v2, s2⟩ := product_val L hb hc
  obtain ⟨x, p3, v3, s3⟩ := product_val L (poly_sumQ (2 ^ k) a b) hc
  have : x = sumQ (2 ^ k) ac bc := poly_ext L p3 (poly_sumQ _ _ _) fun j _ => by
    rw [v3, val_congr (fun i hi => coeff_sumQ hi a b) j, val_congr (fun i hi => coeff_sumQ hi ac bc) j, val_add, val_add,
      v1, v2]
    ring
  subst this
  exact ⟨ac, bc, s1 _ _ f hf, s2 _ _ f hf, s3 _ _ f hf⟩

/-- Multiplication by `X^m` moves the coefficients up by `m`; those that come around change sign modulo `Q`. -/
theorem C74_monomial (L : Library k t r psi) {a : Array Int} (ha : Poly (2 ^ k) a) {m : Nat} (hm : m < 2 ^ k) :
    ∀ f ∈ canonicalProducts t r k psi sh up,
    ∃ d, Poly (2 ^ k) d ∧ Stores f (monomial (2 ^ k) m) a d ∧ ∀ i, i < 2 ^ k →
      elt d i = if m ≤ i then elt a (i - m) else (-elt a (i + 2 ^ k - m)) % 12289 := by
  intro f hf
  obtain ⟨d, p, v, s⟩ := product_exists L (poly_monomial (2 ^ k) m) ha
  refine ⟨d, p, s _ _ f hf, fun i hi => ?_⟩
  have hd := p.2 i (by rw [p.1]; exact hi)
  have e : coeff d i = if m ≤ i then coeff a (i - m) else - coeff a (i + 2 ^ k - m) := by
    rw [v i hi, ← negacyclic_single hm _ hi]
    unfold negacyclic
    refine Finset.sum_congr rfl fun x hx => Finset.sum_congr rfl fun y _ => ?_
    rw [coeff_monomial (Finset.mem_range.1 hx)]
  by_cases h : m ≤ i
  · rw [if_pos h] at e ⊢
    have hx := ha.2 (i - m) (by rw [ha.1]; omega)
    rw [elt_eq_emod hd e]; omega
  · rw [if_neg h] at e ⊢
    refine elt_eq_emod hd ?_
    rw [Int.cast_neg]; exact e

/-- `1` is neutral. -/
theorem C74_one (L : Library k t r psi) {a : Array Int} (ha : Poly (2 ^ k) a) :
    ∀ f ∈ canonicalProducts t r k psi sh up, Stores f (monomial (2 ^ k) 0) a a ∧ Stores f a (monomial (2 ^ k) 0) a := by
  intro f hf
  have h1 : ∀ j, val k (psi : Zq) (coeff (monomial (2 ^ k) 0)) j = 1 := fun j => by
    rw [val_congr (fun i hi => coeff_monomial hi) j, val_single (Nat.two_pow_pos k)]; simp
  obtain ⟨d, p, v, s⟩ := product_val L (poly_monomial (2 ^ k) 0) ha
  obtain ⟨d', p', v', s'⟩ := product_val L ha (poly_monomial (2 ^ k) 0)
  have e : d = a := poly_ext L p ha fun j _ => by rw [v, h1, one_mul]
  have e' : d' = a := poly_ext L p' ha fun j _ => by rw [v', h1, mul_one]
  subst e
  rw [e'] at s'
  exact ⟨s _ _ f hf, s' _ _ f hf⟩

/-- The ring has divisors of zero: for `n >= 2`, `(X^(n/2) + 1479)(X^(n/2) - 1479)` is stored as the zero array. -/
theorem C74_zero_divisors (L : Library k t r psi) (hk : 1 ≤ k) :
    ∃ a b, Poly (2 ^ k) a ∧ Poly (2 ^ k) b ∧ elt a 0 ≠ 0 ∧ elt b 0 ≠ 0 ∧
      ∀ f ∈ canonicalProducts t r k psi sh up, Stores f a b (Array.replicate (2 ^ k) 0) := by
  have hlt : 2 ^ (k - 1) < 2 ^ k := Nat.pow_lt_pow_right (by omega) (by omega)
  have hpos := Nat.two_pow_pos (k - 1)
  let mk : Int → Array Int := fun c => Array.ofFn fun i : Fin (2 ^ k) =>
    if i.val = 0 then c else if i.val = 2 ^ (k - 1) then 1 else 0
  have pm : ∀ c : Int, 0 ≤ c → c ≤ 12288 → Poly (2 ^ k) (mk c) := fun c h0 h1 => by
    refine ⟨by simp [mk], fun i hi => ?_⟩
    have hi : i < 2 ^ k := by simpa [mk] using hi
    show _ ≤ elt (Array.ofFn _) i ∧ elt (Array.ofFn _) i ≤ _
    rw [elt_ofFn _ hi]
    dsimp only
    split
    · exact ⟨h0, h1⟩
    · split <;> omega
  have vm : ∀ (c : Int) (j : Nat), val k (psi : Zq) (coeff (mk c)) j =
      (c : Zq) + ((psi : Zq) * ((psi : Zq) ^ 2) ^ j) ^ 2 ^ (k - 1) := fun c j => by
    have e : ∀ i, i < 2 ^ k → coeff (mk c) i =
        (if i = 0 then (c : Zq) else 0) + (if i = 2 ^ (k - 1) then 1 else 0) := fun i hi => by
      unfold coeff
      show ((elt (Array.ofFn _) i : Int) : Zq) = _
      rw [elt_ofFn _ hi]
      dsimp only
      by_cases h0 : i = 0
      · rw [if_pos h0, if_pos h0, if_neg (by omega)]; simp
      · rw [if_neg h0, if_neg h0]
        split <;> simp
    rw [val_congr e j, val_add, val_single (by omega), val_single hlt]; simp
  refine ⟨mk 1479, mk 10810, pm _ (by omega) (by omega), pm _ (by omega) (by omega), ?_, ?_, fun f hf => ?_⟩
  · show elt (Array.ofFn _) 0 ≠ 0
    rw [elt_ofFn _ (by omega)]; simp
  · show elt (Array.ofFn _) 0 ≠ 0
    rw [elt_ofFn _ (by omega)]; simp
  · obtain ⟨d, p, v, s⟩ := product_val L (pm 1479 (by omega) (by omega)) (pm 10810 (by omega) (by omega))
    have pz : Poly (2 ^ k) (Array.replicate (2 ^ k) 0) := by
      refine ⟨by simp, fun i hi => ?_⟩
      have hi : i < 2 ^ k := by simpa using hi
      unfold elt; simp [hi]
    have ez : ∀ i, i < 2 ^ k → coeff (Array.replicate (2 ^ k) 0) i = 0 := fun i hi => by
      unfold coeff elt; simp [hi]
    have : d = Array.replicate (2 ^ k) 0 := poly_ext L p pz fun j _ => by
      rw [v, vm, vm, val_congr ez j, val_zero]
      have hr := root_of_negacyclic L.root j
      have h2 : (((psi : Zq) * ((psi : Zq) ^ 2) ^ j) ^ 2 ^ (k - 1)) ^ 2 = -1 := by
        rw [← pow_mul, ← pow_succ, show k - 1 + 1 = k by omega]; exact hr
      have c1 : ((1479 : Int) : Zq) * ((10810 : Int) : Zq) = 1 := by decide
      have c2 : ((1479 : Int) : Zq) + ((10810 : Int) : Zq) = 0 := by decide
      linear_combination h2 + c1 + (((psi : Zq) * ((psi : Zq) ^ 2) ^ j) ^ 2 ^ (k - 1)) * c2
    subst this
    exact s _ _ f hf

private theorem val_one (ψ : Zq) (j : Nat) : val k ψ (coeff (monomial (2 ^ k) 0)) j = 1 := by
  rw [val_congr (fun i hi => coeff_monomial hi) j, val_single (Nat.two_pow_pos k)]; simp

/-- How to compute an inverse with the `ntt` library: transform `a`, invert the components modulo `Q` (`y`), transform back and
multiply by `n^-1`.  The product of `a` and the result is 1. -/
theorem C74_inverse_computed (L : Library k t r psi) {a x y : Array Int} (ha : Poly (2 ^ k) a)
    (hx : Ntt.fwdmul_ct_std2rev t (2 ^ k) a = .ok x) (hy : Poly (2 ^ k) y)
    (hxy : ∀ i, i < 2 ^ k → elt x i * elt y i % 12289 = 1) :
    ∃ z b, Ntt.inttmul_gs_rev2std t (2 ^ k) y = .ok z ∧ Ntt.scalar_mul_array z (2 ^ k) t.inv_n = .ok b ∧
      Poly (2 ^ k) b ∧ ∀ f ∈ canonicalProducts t r k psi sh up, Stores f a b (monomial (2 ^ k) 0) := by
  obtain ⟨xn, buf, h, hbuf, ht, hr⟩ := L.ok
  obtain ⟨-, -, -, -, -, hfwd, hinv, -⟩ := C49_ntt_transforms h hbuf ht
  obtain ⟨x', ex, sx, rx, vx⟩ := hfwd a ha.1 ha.2
  rw [hx] at ex; injection ex with ex; subst ex
  obtain ⟨z, ez, sz, rz, vz⟩ := hinv y hy.1 hy.2
  obtain ⟨t', e, hok⟩ := tables_ok h hbuf
  have : t' = t := by rw [ht] at e; injection e with e; exact e.symm
  subst this
  have hin : Ntt.Rq (t'.inv_n : Int) := ⟨by omega, by have := hok.inv_n.2; omega⟩
  have hn : 2 ^ k < 4294967296 := by
    have := Nat.pow_le_pow_right (n := 2) (by omega) (good_le h); omega
  obtain ⟨b, eb, sb, rb, vb⟩ := Ntt.run_scalar_mul_array hn sz rz hin
  refine ⟨z, b, ez, eb, ⟨sb, rb⟩, fun f hf => ?_⟩
  have hb : Poly (2 ^ k) b := ⟨sb, rb⟩
  obtain ⟨d, p, v, s⟩ := product_val L ha hb
  have hψ := L.root
  obtain ⟨h0, h1, h2, h3, h4, h5⟩ := psi_facts hψ
  have : d = monomial (2 ^ k) 0 := poly_ext L p (poly_monomial _ _) fun j hj => by
    rw [v, val_one]
    have ea : val k (psi : Zq) (coeff a) j = coeff x (rev k j) := by
      rw [vx _ (rev_lt k j), rev_rev k j hj, val_eq_ntt]
      unfold scaledNtt; rw [one_pow, one_mul]
    have eb : val k (psi : Zq) (coeff b) j = coeff y (rev k j) := by
      rw [val_eq_ntt]
      have e1 : ntt (2 ^ k) ((psi : Zq) ^ 2) (fun l => coeff b l * (psi : Zq) ^ l) j =
          (2 ^ k : Zq)⁻¹ * ntt (2 ^ k) ((psi : Zq) ^ 2)
            (ntt (2 ^ k) ((psi : Zq) ^ 2)⁻¹ (fun l => coeff y (rev k l))) j := by
        show evalPoly _ _ _ = _ * evalPoly _ _ _
        unfold evalPoly
        rw [Finset.mul_sum]
        refine Finset.sum_congr rfl fun l hl => ?_
        have hl := Finset.mem_range.1 hl
        show coeff b l * (psi : Zq) ^ l * _ = _
        rw [vb l hl, vz l hl, show ((t'.inv_n : Int) : Zq) = (2 ^ k : Zq)⁻¹ by rw [← hok.inv_n.1]; simp]
        unfold scaledNtt
        have : (psi : Zq) ^ l * ((psi : Zq)⁻¹) ^ l = 1 := by rw [← mul_pow, h1, one_pow]
        simp only [one_pow, mul_one]
        generalize ntt (2 ^ k) ((psi : Zq) ^ 2)⁻¹ (fun l => coeff y (rev k l)) l = T
        generalize (((psi : Zq) ^ 2) ^ j) ^ l = U
        linear_combination (2 ^ k : Zq)⁻¹ * T * U * this
      rw [e1, ntt_ntt two_ne_zero_Zq h4 (by rw [mul_comm]; exact h2) _ hj]
      linear_combination coeff y (rev k j) * h5
    rw [ea, eb]
    have := hxy _ (rev_lt k j)
    unfold coeff
    rw [← Int.cast_mul, ← Ntt.zq_mod, this]; simp
  subst this
  exact s _ _ f hf

/-- An array has an inverse exactly when no component of its transform is zero.  The first transform is that of the `ntt`
library, whose components are in `[0, Q-1]`; the others are those of `ntt_red` and (for n >= 16) of the AVX2 library. -/
theorem C74_invertible_iff (L : Library k t r psi) {a : Array Int} (ha : Poly (2 ^ k) a) :
    ∀ f ∈ canonicalProducts t r k psi sh up,
    ((∃ b, Poly (2 ^ k) b ∧ Stores f a b (monomial (2 ^ k) 0)) ↔
      ∃ x, Ntt.fwdmul_ct_std2rev t (2 ^ k) a = .ok x ∧ ∀ i, i < 2 ^ k → elt x i ≠ 0) ∧
    ((∃ b, Poly (2 ^ k) b ∧ Stores f a b (monomial (2 ^ k) 0)) ↔
      ∃ x, NttRed.fwdmul_ct_std2rev r (2 ^ k) a = .ok x ∧ ∀ i, i < 2 ^ k → elt x i % 12289 ≠ 0) ∧
    (4 ≤ k → ((∃ b, Poly (2 ^ k) b ∧ Stores f a b (monomial (2 ^ k) 0)) ↔
      ∃ x, AsmProducts.fwdmul_ct_std2rev r (2 ^ k) a = .ok x ∧ ∀ i, i < 2 ^ k → elt x i % 12289 ≠ 0)) := by
  intro f hf
  obtain ⟨xn, buf, h, hbuf, ht, hr⟩ := L.ok
  have wide : InRange (-21499) 21499 a := fun i hi => by have := ha.2 i hi; omega
  have key : (∃ b, Poly (2 ^ k) b ∧ Stores f a b (monomial (2 ^ k) 0)) ↔
      ∀ j, j < 2 ^ k → val k (psi : Zq) (coeff a) j ≠ 0 := by
    constructor
    · rintro ⟨b, hb, hs⟩ j hj h0
      obtain ⟨d, p, v, s⟩ := product_val L ha hb
      obtain ⟨_, _, e⟩ := hs (Array.replicate (2 ^ k) 0) (by simp [ha.1])
      obtain ⟨_, _, e'⟩ := s _ _ f hf (Array.replicate (2 ^ k) 0) (by simp [ha.1])
      rw [e] at e'; injection e' with e'
      have e' : monomial (2 ^ k) 0 = d := congrArg Prod.fst e'
      subst e'
      have := v j
      rw [val_one, h0, zero_mul] at this
      exact one_ne_zero this
    · intro hne
      obtain ⟨-, -, -, -, -, hfwd, -, -⟩ := C49_ntt_transforms h hbuf ht
      obtain ⟨x, ex, sx, rx, vx⟩ := hfwd a ha.1 ha.2
      let y : Array Int := Array.ofFn fun i : Fin (2 ^ k) => (((coeff x i)⁻¹ : Zq).val : Int)
      have hy : Poly (2 ^ k) y := by
        refine ⟨by simp [y], fun i hi => ?_⟩
        have hi : i < 2 ^ k := by simpa [y] using hi
        show _ ≤ elt (Array.ofFn _) i ∧ elt (Array.ofFn _) i ≤ _
        rw [elt_ofFn _ hi]
        dsimp only
        have := ZMod.val_lt ((coeff x i)⁻¹ : Zq)
        omega
      obtain ⟨z, b, _, _, hb, hs⟩ := C74_inverse_computed (sh := sh) (up := up) L ha ex hy (fun i hi => by
        have c : ((elt x i * elt y i : Int) : Zq) = ((1 : Int) : Zq) := by
          have ey : ((elt y i : Int) : Zq) = (coeff x i)⁻¹ := by
            show ((elt (Array.ofFn _) i : Int) : Zq) = _
            rw [elt_ofFn _ hi]
            dsimp only
            rw [Int.cast_natCast, ZMod.natCast_zmod_val]
          rw [Int.cast_mul, ey]
          have : coeff x i ≠ 0 := by
            rw [vx i hi]; unfold scaledNtt; rw [one_pow, one_mul, ← val_eq_ntt]
            exact hne _ (rev_lt k i)
          rw [Int.cast_one]
          exact mul_inv_cancel₀ this
        have := zq_eq_iff.1 c
        omega)
      exact ⟨b, hb, hs f hf⟩
  have side : ∀ (F : Array Int → M (Array Int)) (lo hi lo' hi' : Int),
      Std2Rev k ((psi : Zq) ^ 2) psi 1 lo hi lo' hi' F → InRange lo hi a →
      ((∀ j, j < 2 ^ k → val k (psi : Zq) (coeff a) j ≠ 0) ↔
        ∃ x, F a = .ok x ∧ ∀ i, i < 2 ^ k → elt x i % 12289 ≠ 0) := by
    intro F lo hi lo' hi' hF hr
    obtain ⟨x, ex, sx, rx, vx⟩ := hF a ha.1 hr
    have e : ∀ i, i < 2 ^ k → coeff x i = val k (psi : Zq) (coeff a) (rev k i) := fun i hi => by
      rw [vx i hi, val_eq_ntt]; unfold scaledNtt; rw [one_pow, one_mul]
    have nz : ∀ i, coeff x i ≠ 0 ↔ elt x i % 12289 ≠ 0 := fun i => by
      have : coeff x i = 0 ↔ elt x i % 12289 = 0 := by
        have := @zq_eq_iff (elt x i) 0
        rw [Int.cast_zero] at this
        exact this.trans (by omega)
      exact not_congr this
    constructor
    · intro hne
      exact ⟨x, ex, fun i hi => (nz i).1 (by rw [e i hi]; exact hne _ (rev_lt k i))⟩
    · rintro ⟨x', ex', hx'⟩ j hj
      rw [ex] at ex'; injection ex' with ex'; subst ex'
      have := (nz _).2 (hx' _ (rev_lt k j))
      rwa [e _ (rev_lt k j), rev_rev k j hj] at this
  obtain ⟨-, -, -, -, -, hfwd, -, -⟩ := C49_ntt_transforms h hbuf ht
  obtain ⟨-, -, -, -, -, hred, -, -⟩ := C49_red_transforms h hbuf hr
  refine ⟨?_, key.trans (side _ _ _ _ _ hred wide), fun h4 => ?_⟩
  · rw [key, side _ _ _ _ _ hfwd ha.2]
    obtain ⟨x, ex, sx, rx, -⟩ := hfwd a ha.1 ha.2
    constructor
    · rintro ⟨x', e, hx⟩
      exact ⟨x', e, fun i hi h0 => hx i hi (by rw [h0]; rfl)⟩
    · rintro ⟨x', e, hx⟩
      rw [ex] at e; injection e with e; subst e
      refine ⟨x, ex, fun i hi h0 => hx i hi ?_⟩
      have := rx i (by omega)
      omega
  · obtain ⟨-, -, -, -, -, hasm, -, -⟩ := C49_asm_transforms h4 h hbuf hr
    exact key.trans (side _ _ _ _ _ hasm wide)

/-- An inverse is unique. -/
theorem C74_inverse_unique (L : Library k t r psi) {a b b' : Array Int} (ha : Poly (2 ^ k) a) (hb : Poly (2 ^ k) b)
    (hb' : Poly (2 ^ k) b') :
    ∀ f ∈ canonicalProducts t r k psi sh up, ∀ g ∈ canonicalProducts t r k psi sh up,
    Stores f a b (monomial (2 ^ k) 0) → Stores g a b' (monomial (2 ^ k) 0) → b = b' := by
  intro f hf g hg h1 h2
  have st : ∀ {f a b d d'}, Poly (2 ^ k) a → Stores f a b d → Stores f a b d' → d = d' := by
    intro f a b d d' ha h h'
    obtain ⟨_, _, e⟩ := h (Array.replicate (2 ^ k) 0) (by simp [ha.1])
    obtain ⟨_, _, e'⟩ := h' (Array.replicate (2 ^ k) 0) (by simp [ha.1])
    rw [e] at e'; injection e' with e'; exact congrArg Prod.fst e'
  obtain ⟨d, p, v, s⟩ := product_val L ha hb
  obtain ⟨d', p', v', s'⟩ := product_val L ha hb'
  have e := st ha (s _ _ f hf) h1
  have e' := st ha (s' _ _ g hg) h2
  subst e e'
  refine poly_ext L hb hb' fun j _ => ?_
  have e1 := v j
  have e2 := v' j
  rw [val_one] at e1 e2
  linear_combination (val k (psi : Zq) (coeff b) j) * e2 - (val k (psi : Zq) (coeff b') j) * e1

end

/-- The libraries of the Makefile. -/
theorem C74_library : ∀ z ∈ libraryParams, ∃ t r, make_tables someBuf z.2.1 z.2.2 = .ok t ∧
    make_red_tables someBuf z.2.1 z.2.2 = .ok r ∧ Library z.1 t r z.2.2 := by
  intro z hz
  have h := libraryParams_good z hz
  obtain ⟨t, ht, -⟩ := tables_ok h someBuf_size
  obtain ⟨r, hr, -⟩ := red_tables_ok h someBuf_size
  exact ⟨t, r, ht, hr, ⟨z.2.1, someBuf, h, someBuf_size, ht, hr⟩⟩

/-- Non-vacuity: in the library for n = 16, `X^3` has the inverse `-X^13`, so that all components of its transform differ from 0. -/
example : ∃ t r, Library 4 t r 1212 ∧ ∃ x, Ntt.fwdmul_ct_std2rev t 16 (monomial 16 3) = .ok x ∧ ∀ i, i < 16 → elt x i ≠ 0 := by
  obtain ⟨t, r, -, -, L⟩ := C74_library (4, 16, 1212) (by decide)
  refine ⟨t, r, L, ?_⟩
  have hf : Ntt.product1 t (2 ^ 4) ∈ canonicalProducts t r 4 1212 true 0 := by simp [canonicalProducts, exactProducts]
  have hb : Poly (2 ^ 4) #[0, 0, 0, 0, 0, 0, 0, 0, 0, 0, 0, 0, 0, 12288, 0, 0] := by
    refine ⟨by decide, ?_⟩
    unfold Reduced InRange; decide
  refine ((C74_invertible_iff L (poly_monomial 16 3) _ hf).1).1 ⟨_, hb, ?_⟩
  obtain ⟨d, hd, hs, hv⟩ := C74_monomial L hb (m := 3) (by decide) _ hf
  have : d = monomial (2 ^ 4) 0 := by
    refine reduced_ext (by rw [hd.1, (poly_monomial (2 ^ 4) 0).1]) hd.2 (poly_monomial (2 ^ 4) 0).2 fun i hi => ?_
    rw [hd.1] at hi
    unfold coeff
    rw [hv i hi]
    interval_cases i <;> decide +kernel
  rw [this] at hs
  exact hs

end Props
