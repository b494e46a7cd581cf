import Verif.Proofs.AsmCtR2s
import Verif.Proofs.AsmCtS2r
import Verif.Proofs.AsmGsS2r
import Verif.Props.RedElementwise
import Verif.Proofs.Params
import Verif.Proofs.RedProducts

/-
C36: the AVX2 transforms of src/ntt_asm.S and the C transforms of src/ntt_red.c.

`n = 2^k` with `k ≥ 4`: the assembly functions process 16 elements at a time; `n < 2^32` because `n` is a
`uint32_t`.  `a` holds `int32_t` elements and `p` holds
`int16_t` elements.  For the four transforms that do not multiply by the powers of psi, the C code
skips the multiplication by `p[1], p[2], p[4], ...`, which is the identity when these entries are
`-4096` (the representation of `inverse(3)`, as in the tables of the library: `C36_unit_heads`).

`C36_f_asm`: whenever the C function returns (no overflow, no failed assertion), the assembly
function returns and leaves the same array.
`C36_total`: the assembly functions return and stay within the arrays for all contents of `a`.
-/

namespace Props
open C Spec NttRed Asm Tables

variable {k : Nat}

/-- The elements of `p` are of type `int16_t`. -/
abbrev Int16Array (p : Array Int) : Prop := InRange (-32768) 32767 p

/-- `p[2^m] = -4096` for all `m < k`. -/
abbrev UnitEntries (k : Nat) (p : Array Int) : Prop := ∀ m, m < k → elt p (2 ^ m) = -4096

theorem tr_eq {n : Nat} {f : Nat → Int} {r : M (Array Int)} {a' : Array Int}
    (hf : Is n f a') (hr' : Wp NoErr r (Is n f)) : r = .ok a' := by
  obtain ⟨b, hb, hg⟩ := wp_total.1 hr'
  rw [hb, Is.ext hf hg]

theorem tr_i32 {a : Array Int} (h : Int32Array a) (i : Nat) : I32 (elt a i) := by
  by_cases hi : i < a.size
  · exact h i hi
  · unfold elt I32
    simp [Array.getElem?_eq_none (Nat.le_of_not_lt hi)]

theorem tr_i16 {p : Array Int} (h : Int16Array p) (hp : 2 ^ k ≤ p.size) :
    ∀ i, 0 < i → i < 2 ^ k → I16 (elt p i) := fun i _ hi => h i (by omega)

theorem C36_ntt_red_ct_rev2std_asm (hk : 4 ≤ k) (hk31 : k ≤ 31) (a p a' : Array Int)
    (ha : a.size = 2 ^ k) (hr : Int32Array a) (hp : 2 ^ k ≤ p.size)
    (hu : UnitEntries k p)
    (h : ntt_red_ct_rev2std a (2 ^ k) p = .ok a') :
    ntt_red_ct_rev2std_asm a (2 ^ k) p = .ok a' :=
  tr_eq (c_ct_rev2std hk31 hp hu ha (tr_i32 hr) h) (wp_ct_rev2std_asm hk hp hu (Is.self ha) (tr_i32 hr))

theorem C36_ntt_red_ct_std2rev_asm (hk : 4 ≤ k) (hk31 : k ≤ 31) (a p a' : Array Int)
    (ha : a.size = 2 ^ k) (hr : Int32Array a) (hp : 2 ^ k ≤ p.size) (hi : Int16Array p)
    (hu : UnitEntries k p)
    (h : ntt_red_ct_std2rev a (2 ^ k) p = .ok a') :
    ntt_red_ct_std2rev_asm a (2 ^ k) p = .ok a' :=
  tr_eq (c_ct_std2rev hk31 hp hu ha (tr_i32 hr) h) (wp_ct_std2rev_asm hk hp (tr_i16 hi hp) hu (Is.self ha) (tr_i32 hr))

theorem C36_ntt_red_gs_rev2std_asm (hk : 4 ≤ k) (hk31 : k ≤ 31) (a p a' : Array Int)
    (ha : a.size = 2 ^ k) (hp : 2 ^ k ≤ p.size) (hi : Int16Array p)
    (hu : UnitEntries k p)
    (h : ntt_red_gs_rev2std a (2 ^ k) p = .ok a') :
    ntt_red_gs_rev2std_asm a (2 ^ k) p = .ok a' :=
  tr_eq (c_gs_rev2std hk31 hp hu ha h) (wp_gs_rev2std_asm hk hp (tr_i16 hi hp) hu (Is.self ha))

theorem C36_ntt_red_gs_std2rev_asm (hk : 4 ≤ k) (hk31 : k ≤ 31) (a p a' : Array Int)
    (ha : a.size = 2 ^ k) (hp : 2 ^ k ≤ p.size)
    (hu : UnitEntries k p)
    (h : ntt_red_gs_std2rev a (2 ^ k) p = .ok a') :
    ntt_red_gs_std2rev_asm a (2 ^ k) p = .ok a' :=
  tr_eq (c_gs_std2rev hk31 hp hu ha h) (wp_gs_std2rev_asm hk hp hu (Is.self ha))

theorem C36_mulntt_red_ct_rev2std_asm (hk : 4 ≤ k) (hk31 : k ≤ 31) (a p a' : Array Int)
    (ha : a.size = 2 ^ k) (hp : 2 ^ k ≤ p.size)
    (h : mulntt_red_ct_rev2std a (2 ^ k) p = .ok a') :
    mulntt_red_ct_rev2std_asm a (2 ^ k) p = .ok a' :=
  tr_eq (c_mulct_rev2std hk31 hp ha h) (wp_mulct_rev2std_asm hk hp (Is.self ha))

theorem C36_mulntt_red_ct_std2rev_asm (hk : 4 ≤ k) (hk31 : k ≤ 31) (a p a' : Array Int)
    (ha : a.size = 2 ^ k) (hp : 2 ^ k ≤ p.size) (hi : Int16Array p)
    (h : mulntt_red_ct_std2rev a (2 ^ k) p = .ok a') :
    mulntt_red_ct_std2rev_asm a (2 ^ k) p = .ok a' :=
  tr_eq (c_mulct_std2rev hk31 hp ha h) (wp_mulct_std2rev_asm hk hp (tr_i16 hi hp) (Is.self ha))

theorem C36_nttmul_red_gs_rev2std_asm (hk : 4 ≤ k) (hk31 : k ≤ 31) (a p a' : Array Int)
    (ha : a.size = 2 ^ k) (hp : 2 ^ k ≤ p.size) (hi : Int16Array p)
    (h : nttmul_red_gs_rev2std a (2 ^ k) p = .ok a') :
    nttmul_red_gs_rev2std_asm a (2 ^ k) p = .ok a' :=
  tr_eq (c_gsmul_rev2std hk31 hp ha h) (wp_gsmul_rev2std_asm hk hp (tr_i16 hi hp) (Is.self ha))

theorem C36_nttmul_red_gs_std2rev_asm (hk : 4 ≤ k) (hk31 : k ≤ 31) (a p a' : Array Int)
    (ha : a.size = 2 ^ k) (hp : 2 ^ k ≤ p.size)
    (h : nttmul_red_gs_std2rev a (2 ^ k) p = .ok a') :
    nttmul_red_gs_std2rev_asm a (2 ^ k) p = .ok a' :=
  tr_eq (c_gsmul_std2rev hk31 hp ha h) (wp_gsmul_std2rev_asm hk hp (Is.self ha))

/-- The assembly functions return, and access only elements of the arrays, for all contents of `a`
(wrapping silently where the C functions overflow). -/
theorem C36_total (hk : 4 ≤ k) (a p : Array Int) (ha : a.size = 2 ^ k) (hr : Int32Array a)
    (hp : 2 ^ k ≤ p.size) (hi : Int16Array p) :
    (∀ f ∈ [mulntt_red_ct_rev2std_asm, mulntt_red_ct_std2rev_asm, nttmul_red_gs_rev2std_asm,
      nttmul_red_gs_std2rev_asm], ∃ a', f a (2 ^ k) p = .ok a' ∧ a'.size = 2 ^ k) ∧
    (UnitEntries k p → ∀ f ∈ [ntt_red_ct_rev2std_asm, ntt_red_ct_std2rev_asm,
      ntt_red_gs_rev2std_asm, ntt_red_gs_std2rev_asm],
      ∃ a', f a (2 ^ k) p = .ok a' ∧ a'.size = 2 ^ k) := by
  have hi' := tr_i16 hi hp
  have key : ∀ {r : M (Array Int)} {f : Nat → Int}, Wp NoErr r (Is (2 ^ k) f) →
      ∃ a', r = .ok a' ∧ a'.size = 2 ^ k := fun h => by
    obtain ⟨b, hb, hg⟩ := wp_total.1 h
    exact ⟨b, hb, hg.1⟩
  refine ⟨fun f hf => ?_, fun hu f hf => ?_⟩ <;>
    simp only [List.mem_cons, List.not_mem_nil, or_false] at hf <;>
    rcases hf with rfl | rfl | rfl | rfl
  · exact key (wp_mulct_rev2std_asm hk hp (Is.self ha))
  · exact key (wp_mulct_std2rev_asm hk hp hi' (Is.self ha))
  · exact key (wp_gsmul_rev2std_asm hk hp hi' (Is.self ha))
  · exact key (wp_gsmul_std2rev_asm hk hp (Is.self ha))
  · exact key (wp_ct_rev2std_asm hk hp hu (Is.self ha) (tr_i32 hr))
  · exact key (wp_ct_std2rev_asm hk hp hi' hu (Is.self ha) (tr_i32 hr))
  · exact key (wp_gs_rev2std_asm hk hp hi' hu (Is.self ha))
  · exact key (wp_gs_std2rev_asm hk hp hu (Is.self ha))

/-! ### The tables of the library -/

theorem unit_entry {x : Int} (h1 : -6144 ≤ x) (h2 : x ≤ 6144) (h : (3 : Zq) * (x : Zq) = 1) :
    x = -4096 := by
  have e : ((3 * x - 1 : Int) : Zq) = 0 := by push_cast; rw [h]; ring
  rw [ZMod.intCast_zmod_eq_zero_iff_dvd] at e
  obtain ⟨c, hc⟩ := e
  push_cast at hc
  omega

theorem unit_std {ω : Zq} {p : Array Int} (h : StdTable 3 1 ω (-6144) 6144 k p) :
    UnitEntries k p := by
  intro m hm
  have := h.2 m 0 hm (Nat.two_pow_pos m)
  rw [Nat.add_zero, one_pow, pow_zero, mul_one] at this
  exact unit_entry this.1.1 this.1.2 this.2

theorem unit_rev {ω : Zq} {p : Array Int} (h : RevTable 3 1 ω (-6144) 6144 k p) :
    UnitEntries k p := by
  intro m hm
  have := h.2 m 0 hm (Nat.two_pow_pos m)
  rw [Nat.add_zero, one_pow, rev_zero, pow_zero, mul_one] at this
  exact unit_entry this.1.1 this.1.2 this.2

/-- The tables of powers of omega printed by `make_red_tables` contain `-4096` where the transforms
need it, for all accepted parameters. -/
theorem C36_unit_heads {xn xpsi : Int} (h : GoodParams k xn xpsi) {buf : Nat → Array Nat}
    (hbuf : ∀ n, (buf n).size = n) {t : RedTables} (ht : make_red_tables buf xn xpsi = .ok t) :
    ∀ p ∈ [t.omega_powers, t.omega_powers_rev, t.inv_omega_powers, t.inv_omega_powers_rev],
      UnitEntries k p := by
  obtain ⟨t', e, hok⟩ := red_tables_ok h hbuf
  have : t' = t := by rw [ht] at e; injection e with e; exact e.symm
  subst this
  intro p hp
  simp only [List.mem_cons, List.not_mem_nil, or_false] at hp
  rcases hp with rfl | rfl | rfl | rfl
  · exact unit_std hok.omega_powers
  · exact unit_rev hok.omega_powers_rev
  · exact unit_std hok.inv_omega_powers
  · exact unit_rev hok.inv_omega_powers_rev

/-! ### The hypotheses are met

The tables of size 16 of the library (psi = 1212), and inputs at the documented bound. -/

private def exA : Array Int := #[21499, -21499, 12288, 0, 1, -1, 5000, 21499, 21498, -20000, 7, 8, 9, 10, 11, -21499]
private def exW : Array Int := #[0, -4096, -4096, 493, -4096, 5444, 493, 2381, -4096, -1912, 5444, -435, 493,
  -1378, 2381, -4337]
private def exWr : Array Int := #[0, -4096, -4096, 493, -4096, 493, 5444, 2381, -4096, 493, 5444, 2381, -1912,
  -1378, -435, -4337]
private def exM : Array Int := #[0, 493, 5444, 2381, -1912, -435, -1378, -4337, 404, 5277, -1065, 1207, -4645,
  1168, -2143, 3248]
private def exMr : Array Int := #[0, 493, 5444, 2381, -1912, -1378, -435, -4337, 404, -4645, -1065, -2143,
  5277, 1168, 1207, 3248]

private theorem exW_unit : UnitEntries 4 exW := by decide
private theorem exWr_unit : UnitEntries 4 exWr := by decide


private theorem run_ok {r : M (Array Int)} (h : r.toBool = true) : ∃ a', r = .ok a' := by
  cases r with
  | ok a => exact ⟨a, rfl⟩
  | error e => simp [Except.toBool] at h

example : ∃ a', ntt_red_ct_rev2std exA 16 exW = .ok a' ∧ ntt_red_ct_rev2std_asm exA 16 exW = .ok a' :=
  (run_ok (by decide +kernel)).imp fun _ h => ⟨h, C36_ntt_red_ct_rev2std_asm (k := 4) (by decide) (by decide)
    _ _ _ (by decide) (by unfold Int32Array InRange; decide) (by decide) exW_unit h⟩

example : ∃ a', ntt_red_ct_std2rev exA 16 exWr = .ok a' ∧ ntt_red_ct_std2rev_asm exA 16 exWr = .ok a' :=
  (run_ok (by decide +kernel)).imp fun _ h => ⟨h, C36_ntt_red_ct_std2rev_asm (k := 4) (by decide) (by decide)
    _ _ _ (by decide) (by unfold Int32Array InRange; decide) (by decide)
    (by unfold Int16Array InRange; decide) exWr_unit h⟩

example : ∃ a', ntt_red_gs_rev2std exA 16 exWr = .ok a' ∧ ntt_red_gs_rev2std_asm exA 16 exWr = .ok a' :=
  (run_ok (by decide +kernel)).imp fun _ h => ⟨h, C36_ntt_red_gs_rev2std_asm (k := 4) (by decide) (by decide)
    _ _ _ (by decide) (by decide) (by unfold Int16Array InRange; decide) exWr_unit h⟩

example : ∃ a', ntt_red_gs_std2rev exA 16 exW = .ok a' ∧ ntt_red_gs_std2rev_asm exA 16 exW = .ok a' :=
  (run_ok (by decide +kernel)).imp fun _ h => ⟨h, C36_ntt_red_gs_std2rev_asm (k := 4) (by decide) (by decide)
    _ _ _ (by decide) (by decide) exW_unit h⟩

example : ∃ a', mulntt_red_ct_rev2std exA 16 exM = .ok a' ∧
    mulntt_red_ct_rev2std_asm exA 16 exM = .ok a' :=
  (run_ok (by decide +kernel)).imp fun _ h => ⟨h, C36_mulntt_red_ct_rev2std_asm (k := 4) (by decide)
    (by decide) _ _ _ (by decide) (by decide) h⟩

example : ∃ a', mulntt_red_ct_std2rev exA 16 exMr = .ok a' ∧
    mulntt_red_ct_std2rev_asm exA 16 exMr = .ok a' :=
  (run_ok (by decide +kernel)).imp fun _ h => ⟨h, C36_mulntt_red_ct_std2rev_asm (k := 4) (by decide)
    (by decide) _ _ _ (by decide) (by decide) (by unfold Int16Array InRange; decide) h⟩

example : ∃ a', nttmul_red_gs_rev2std exA 16 exMr = .ok a' ∧
    nttmul_red_gs_rev2std_asm exA 16 exMr = .ok a' :=
  (run_ok (by decide +kernel)).imp fun _ h => ⟨h, C36_nttmul_red_gs_rev2std_asm (k := 4) (by decide)
    (by decide) _ _ _ (by decide) (by decide) (by unfold Int16Array InRange; decide) h⟩

example : ∃ a', nttmul_red_gs_std2rev exA 16 exM = .ok a' ∧
    nttmul_red_gs_std2rev_asm exA 16 exM = .ok a' :=
  (run_ok (by decide +kernel)).imp fun _ h => ⟨h, C36_nttmul_red_gs_std2rev_asm (k := 4) (by decide)
    (by decide) _ _ _ (by decide) (by decide) h⟩

/-- The assembly code itself runs in the model; with `p[1] ≠ -4096` the C function and the assembly
function differ, so the hypothesis on the table is needed. -/
example : ∃ u v, ntt_red_ct_rev2std exA 16 exM = .ok u ∧ ntt_red_ct_rev2std_asm exA 16 exM = .ok v ∧
    u ≠ v := by
  refine (run_ok (r := ntt_red_ct_rev2std exA 16 exM) (by decide +kernel)).imp fun u hu =>
    (run_ok (r := ntt_red_ct_rev2std_asm exA 16 exM) (by decide +kernel)).imp fun v hv =>
    ⟨hu, hv, ?_⟩
  rintro rfl
  have : ¬ ntt_red_ct_rev2std exA 16 exM = ntt_red_ct_rev2std_asm exA 16 exM := by decide +kernel
  exact this (hu.trans hv.symm)

end Props
