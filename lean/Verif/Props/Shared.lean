import Verif.SpecShared
import Verif.Proofs.Interleave
import Verif.Proofs.Shared
import Verif.Props.RedProducts
import Verif.Proofs.SharedAsm
import Verif.Props.Naive
import Verif.Props.AsmProducts

/-
C51: the destination of a product can be one of its operands, but the operands must be two arrays.
C52: products can run concurrently on separate arrays.

The arrays are in a memory (`Verif/Shared.lean`), the arguments are references.  `Shared.Call` lists the product
functions with their tables in memory.
-/

namespace Props
open C Spec Tables Shared

/-- The call alone, with its accesses: proof of C51 and C52. -/
theorem call_run {μ : Mem} {tb : String → Ref} {c a b : Ref} {k : Nat} {lo hi : Int} {P : Prog (Ref × Ref × Ref)}
    (h : Call μ tb c a b k lo hi P) (hc : (μ c).size = 2 ^ k) (ha : (μ a).size = 2 ^ k)
    (hb : (μ b).size = 2 ^ k) (hra : Reduced (μ a)) (hrb : Reduced (μ b)) (hab : a ≠ b)
    (hTc : Fresh tb c) (hTa : Fresh tb a) (hTb : Fresh tb b) :
    ∃ m tr, runT P μ = .ok ((c, a, b), m, tr) ∧ IsProduct k lo hi (m c) (μ a) (μ b) ∧
      (∀ h, h ≠ c → h ≠ a → h ≠ b → m h = μ h) ∧
      ∀ e ∈ tr, Allowed (fun h => ∃ x ∈ tableNames, h = tb x) (fun h => h = c ∨ h = a ∨ h = b) e := by
  have hWa : (fun h => h = c ∨ h = a ∨ h = b) a := Or.inr (Or.inl rfl)
  have hWb : (fun h => h = c ∨ h = a ∨ h = b) b := Or.inr (Or.inr rfl)
  have hWc : (fun h => h = c ∨ h = a ∨ h = b) c := Or.inl rfl
  have hS : ∀ x ∈ tableNames, (fun h => ∃ x ∈ tableNames, h = tb x) (tb x) := fun x hx => ⟨x, hx, rfl⟩
  have key : ∀ {x : M (Array Int × Array Int × Array Int)},
      Sim (fun h => ∃ x ∈ tableNames, h = tb x) (fun h => h = c ∨ h = a ∨ h = b) μ (ProductPost μ c a b) x P →
      (∃ c' a' b', x = .ok (c', a', b') ∧ c'.size = 2 ^ k ∧ a'.size = 2 ^ k ∧ b'.size = 2 ^ k ∧
        InRange lo hi c' ∧ ∀ i, i < 2 ^ k → coeff c' i = negacyclic (2 ^ k) (coeff (μ a)) (coeff (μ b)) i) →
      ∃ m tr, runT P μ = .ok ((c, a, b), m, tr) ∧ IsProduct k lo hi (m c) (μ a) (μ b) ∧
        (∀ h, h ≠ c → h ≠ a → h ≠ b → m h = μ h) ∧
        ∀ e ∈ tr, Allowed (fun h => ∃ x ∈ tableNames, h = tb x) (fun h => h = c ∨ h = a ∨ h = b) e := by
    rintro x hs ⟨c', a', b', rfl, h1, _, _, h2, h3⟩
    obtain ⟨r, m, tr, e, hQ, hA⟩ := hs
    refine ⟨m, tr, ?_, ?_, hQ.frame, hA⟩
    · rw [e, hQ.ref]
    · rw [hQ.dst]
      exact ⟨h1, h2, h3⟩
  have h32 : ∀ {xn xpsi : Int}, GoodParams k xn xpsi → 2 ^ k < 2 ^ 32 := by
    intro xn xpsi hg
    have := Tables.k_le_16 (hg.2.1 ▸ hg.2.2.1)
    exact Nat.pow_lt_pow_right (by decide) (by omega)
  cases h with
  | exact hg hbuf ht htb hP =>
    have H := C11_products hg hbuf ht (μ c) (μ a) (μ b) hc ha hb hra hrb
    have hn := h32 hg
    simp only [List.mem_cons, List.not_mem_nil, or_false] at hP
    rcases hP with rfl | rfl | rfl | rfl | rfl
    · exact key (Shared.Ntt.product1_sim hWa hWb hWc hS hTa hTb hTc hab hn htb rfl rfl hc hc) (H _ (by simp))
    · exact key (Shared.Ntt.product2_sim hWa hWb hWc hS hTa hTb hTc hab hn htb rfl rfl hc hc) (H _ (by simp))
    · exact key (Shared.Ntt.product3_sim hWa hWb hWc hS hTa hTb hTc hab hn htb rfl rfl hc hc) (H _ (by simp))
    · exact key (Shared.Ntt.product4_sim hWa hWb hWc hS hTa hTb hTc hab hn htb rfl rfl hc hc) (H _ (by simp))
    · exact key (Shared.Ntt.product5_sim hWa hWb hWc hS hTa hTb hTc hab hn htb rfl rfl hc hc) (H _ (by simp))
  | red sh hg hbuf ht htb hP =>
    have H := C21_products hg hbuf ht sh (μ c) (μ a) (μ b) hc ha hb hra hrb
    have hn := h32 hg
    simp only [List.mem_cons, List.not_mem_nil, or_false] at hP
    rcases hP with rfl | rfl | rfl | rfl | rfl
    · exact key (Shared.NttRed.product1_sim hWa hWb hWc hS hTa hTb hTc hab sh hn htb rfl rfl hc hc) (H _ (by simp))
    · exact key (Shared.NttRed.product2_sim hWa hWb hWc hS hTa hTb hTc hab sh hn htb rfl rfl hc hc) (H _ (by simp))
    · exact key (Shared.NttRed.product3_sim hWa hWb hWc hS hTa hTb hTc hab sh hn htb rfl rfl hc hc) (H _ (by simp))
    · exact key (Shared.NttRed.product4_sim hWa hWb hWc hS hTa hTb hTc hab sh hn htb rfl rfl hc hc) (H _ (by simp))
    · exact key (Shared.NttRed.product5_sim hWa hWb hWc hS hTa hTb hTc hab sh hn htb rfl rfl hc hc) (H _ (by simp))
  | naive hg hbuf ht htb hP =>
    have H := C23_products hg hbuf ht (μ c) (μ a) (μ b) hc ha hb hra hrb
    have hn := h32 hg
    simp only [List.mem_cons, List.not_mem_nil, or_false] at hP
    rcases hP with rfl | rfl | rfl | rfl | rfl
    · exact key (Shared.Naive.product1_sim hWa hWb hWc hS hTa hTb hTc hab hn htb rfl rfl hc hc) (H _ (by simp))
    · exact key (Shared.Naive.product2_sim hWa hWb hWc hS hTa hTb hTc hab hn htb rfl rfl hc hc) (H _ (by simp))
    · exact key (Shared.Naive.product3_sim hWa hWb hWc hS hTa hTb hTc hab hn htb rfl rfl hc hc) (H _ (by simp))
    · exact key (Shared.Naive.product4_sim hWa hWb hWc hS hTa hTb hTc hab hn htb rfl rfl hc hc) (H _ (by simp))
    · exact key (Shared.Naive.product5_sim hWa hWb hWc hS hTa hTb hTc hab hn htb rfl rfl hc hc) (H _ (by simp))
  | asm sh up hk4 hg hbuf ht htb hP =>
    have H := C37_products hk4 hg hbuf ht sh up (μ c) (μ a) (μ b) hc ha hb hra hrb
    have h8 : 8 ∣ 2 ^ k := Nat.pow_dvd_pow 2 (show 3 ≤ k by omega)
    have h0 : 0 < 2 ^ k := Nat.pos_of_ne_zero (by positivity)
    simp only [List.mem_cons, List.not_mem_nil, or_false] at hP
    rcases hP with rfl | rfl | rfl | rfl | rfl
    · exact key (Shared.Asm.product1_sim hWa hWb hWc hS hTa hTb hTc hab h8 h0 htb rfl rfl hc hc)
        (by rw [AsmPoly.product1_plain]; exact H _ (by simp))
    · exact key (Shared.Asm.product2_sim hWa hWb hWc hS hTa hTb hTc hab h8 h0 htb rfl rfl hc hc)
        (by rw [AsmPoly.product2_plain]; exact H _ (by simp))
    · exact key (Shared.Asm.product3_sim hWa hWb hWc hS hTa hTb hTc hab h8 h0 htb rfl rfl hc hc)
        (by rw [AsmPoly.product3_plain]; exact H _ (by simp))
    · exact key (Shared.Asm.product4_sim hWa hWb hWc hS hTa hTb hTc hab h8 h0 htb rfl rfl hc hc)
        (by rw [AsmPoly.product4_plain]; exact H _ (by simp))
    · exact key (Shared.Asm.product5_sim hWa hWb hWc hS hTa hTb hTc hab h8 h0 htb rfl rfl hc hc)
        (by rw [AsmPoly.product5_plain]; exact H _ (by simp))
  | asm1024 hk hbuf ht htb =>
    subst hk
    exact key (Shared.Asm.product1_1024_sim hWa hWb hWc hS hTa hTb hTc hab (by decide) (by decide) htb rfl rfl hc hc)
      (by rw [AsmPoly.product1_1024_plain]; exact C37_product1_1024 hbuf ht (μ c) (μ a) (μ b) hc ha hb hra hrb)

/-- C51: a product with destination `c` and operands `a` and `b` in two arrays, where `c` is a third array or one of
the operands, stores the product of the initial `a` and `b` in `c`; nothing but `c`, `a` and `b` changes. -/
theorem C51_destination {μ : Mem} {tb : String → Ref} {c a b : Ref} {k : Nat} {lo hi : Int}
    {P : Prog (Ref × Ref × Ref)} (h : Call μ tb c a b k lo hi P) (hc : (μ c).size = 2 ^ k)
    (ha : (μ a).size = 2 ^ k) (hb : (μ b).size = 2 ^ k) (hra : Reduced (μ a)) (hrb : Reduced (μ b))
    (hab : a ≠ b) (hTc : Fresh tb c) (hTa : Fresh tb a) (hTb : Fresh tb b) :
    ∃ m, run P μ = .ok ((c, a, b), m) ∧ IsProduct k lo hi (m c) (μ a) (μ b) ∧
      ∀ h, h ≠ c → h ≠ a → h ≠ b → m h = μ h := by
  obtain ⟨m, tr, e, h1, h2, _⟩ := call_run h hc ha hb hra hrb hab hTc hTa hTb
  exact ⟨m, by rw [run_eq_runT, e], h1, h2⟩

/-- C52: any number of threads call products, each on arrays of its own (the tables can be shared), and run in
any order, one array access at a time.  No thread fails; when a thread has returned, its destination holds the
product of its initial operands; a thread returns after a number of steps that depends on the thread alone; and
nothing but the arguments of the threads changes. -/
theorem C52_threads {ι : Type} [DecidableEq ι] {μ : Mem} {tb : ι → String → Ref} {c a b : ι → Ref} {k : ι → Nat}
    {lo hi : ι → Int} {P : ι → Prog (Ref × Ref × Ref)}
    (h : ∀ i, Call μ (tb i) (c i) (a i) (b i) (k i) (lo i) (hi i) (P i))
    (hc : ∀ i, (μ (c i)).size = 2 ^ k i) (ha : ∀ i, (μ (a i)).size = 2 ^ k i) (hb : ∀ i, (μ (b i)).size = 2 ^ k i)
    (hra : ∀ i, Reduced (μ (a i))) (hrb : ∀ i, Reduced (μ (b i))) (hab : ∀ i, a i ≠ b i)
    (hT : ∀ i j, Fresh (tb i) (c j) ∧ Fresh (tb i) (a j) ∧ Fresh (tb i) (b j))
    (hsep : ∀ i j, i ≠ j → ∀ x ∈ [c i, a i, b i], x ∉ [c j, a j, b j]) :
    ∃ steps : ι → Nat, ∀ sched : List ι,
      (∀ i e, (exec sched P μ).1 i ≠ .fail e) ∧
      (∀ i r, (exec sched P μ).1 i = .pure r →
        IsProduct (k i) (lo i) (hi i) ((exec sched P μ).2 (c i)) (μ (a i)) (μ (b i))) ∧
      (∀ i, steps i ≤ sched.count i → (exec sched P μ).1 i = .pure (c i, a i, b i)) ∧
      ∀ x, (∀ i, x ∉ [c i, a i, b i]) → (exec sched P μ).2 x = μ x := by
  have H := fun i => call_run (h i) (hc i) (ha i) (hb i) (hra i) (hrb i) (hab i) (hT i i).1 (hT i i).2.1 (hT i i).2.2
  choose m tr e h1 h2 h3 using H
  have mem3 : ∀ x i, (x = c i ∨ x = a i ∨ x = b i) ↔ x ∈ [c i, a i, b i] := by intro x i; simp
  refine ⟨fun i => (tr i).length, fun sched => ?_⟩
  obtain ⟨g1, g2, g3, g4⟩ := exec_correct (S := fun i h => ∃ x ∈ tableNames, h = tb i x)
    (W := fun i h => h = c i ∨ h = a i ∨ h = b i) (by
      rintro i j hij x hx (⟨y, hy, rfl⟩ | hx')
      · rcases hx with hx | hx | hx
        · exact (hT j i).1 y hy hx
        · exact (hT j i).2.1 y hy hx
        · exact (hT j i).2.2 y hy hx
      · exact hsep i j hij x ((mem3 x i).1 hx) ((mem3 x j).1 hx')) e h3 sched
  refine ⟨g1, fun i r hr => ?_, g3, fun x hx => g4 x fun i hi => hx i ((mem3 x i).1 hi)⟩
  obtain ⟨_, hm⟩ := g2 i r hr
  rw [hm (c i) (Or.inl rfl)]
  exact h1 i

/-! ### examples and limits -/

/-- A memory with the tables `t` (each table is at its name) and the arrays `a`, `b`, `c`, `d`, `e`. -/
def exactMem (t : Nttables) (a b c d e : Array Int) : Mem := fun h =>
  if h = "a" then a else if h = "b" then b else if h = "c" then c else if h = "d" then d else if h = "e" then e
  else if h = "psi_powers" then t.psi_powers
  else if h = "scaled_inv_psi_powers" then t.scaled_inv_psi_powers
  else if h = "omega_powers" then t.omega_powers
  else if h = "omega_powers_rev" then t.omega_powers_rev
  else if h = "inv_omega_powers" then t.inv_omega_powers
  else if h = "inv_omega_powers_rev" then t.inv_omega_powers_rev
  else if h = "mixed_powers" then t.mixed_powers
  else if h = "mixed_powers_rev" then t.mixed_powers_rev
  else if h = "inv_mixed_powers" then t.inv_mixed_powers
  else if h = "inv_mixed_powers_rev" then t.inv_mixed_powers_rev
  else #[]

theorem exactMem_tables (t : Nttables) (a b c d e : Array Int) : TablesAt (exactMem t a b c d e) id t := by
  constructor <;> rfl

def redMem (t : RedTables) (a b c : Array Int) : Mem := fun h =>
  if h = "a" then a else if h = "b" then b else if h = "c" then c
  else if h = "psi_powers" then t.psi_powers
  else if h = "scaled_inv_psi_powers" then t.scaled_inv_psi_powers
  else if h = "scaled_inv_psi_powers_var" then t.scaled_inv_psi_powers_var
  else if h = "omega_powers" then t.omega_powers
  else if h = "omega_powers_rev" then t.omega_powers_rev
  else if h = "inv_omega_powers" then t.inv_omega_powers
  else if h = "inv_omega_powers_rev" then t.inv_omega_powers_rev
  else if h = "mixed_powers" then t.mixed_powers
  else if h = "mixed_powers_rev" then t.mixed_powers_rev
  else if h = "inv_mixed_powers" then t.inv_mixed_powers
  else if h = "inv_mixed_powers_rev" then t.inv_mixed_powers_rev
  else #[]

theorem redMem_tables (t : RedTables) (a b c : Array Int) : RedTablesAt (redMem t a b c) id t := by
  constructor <;> rfl

/-- `1 + 2X + ... + 16X^15` -/
def ramp : Array Int := #[1, 2, 3, 4, 5, 6, 7, 8, 9, 10, 11, 12, 13, 14, 15, 16]

/-- `ntt16_product1(a, a, b)`: the hypotheses of C51 hold with the destination equal to the first operand. -/
example : ∃ μ P, Call μ id "a" "a" "b" 4 0 12288 P ∧ (μ "a").size = 2 ^ 4 ∧ (μ "b").size = 2 ^ 4 ∧
    Reduced (μ "a") ∧ Reduced (μ "b") ∧ Fresh id "a" ∧ Fresh id "b" := by
  obtain ⟨t, e, _⟩ := C11_library (4, 16, 1212) (by simp [libraryParams])
  refine ⟨exactMem t ramp ramp ramp #[] #[], _, .exact (libraryParams_good (4, 16, 1212) (by simp [libraryParams]))
    someBuf_size e (exactMem_tables _ _ _ _ _ _) (List.mem_cons_self), rfl, rfl, ?_, ?_, ?_, ?_⟩
  · show InRange 0 12288 ramp; unfold InRange; decide
  · show InRange 0 12288 ramp; unfold InRange; decide
  · unfold Fresh; decide
  · unfold Fresh; decide

/-- The two operands must be two arrays: with `a` twice, each of the five products of size 16 returns and stores a
wrong result, here for the square of `1 + 2X + ... + 16X^15`. -/
theorem C51_same_operand : ∃ t, make_tables someBuf 16 1212 = .ok t ∧
    ∀ P ∈ [Shared.Ntt.product1 id 16 "c" "a" "a", Shared.Ntt.product2 id 16 "c" "a" "a",
      Shared.Ntt.product3 id 16 "c" "a" "a", Shared.Ntt.product4 id 16 "c" "a" "a",
      Shared.Ntt.product5 t id 16 "c" "a" "a"],
    ∃ r m, run P (exactMem t ramp #[] ramp #[] #[]) = .ok (r, m) ∧ ¬ IsProduct 4 0 12288 (m "c") ramp ramp := by
  obtain ⟨t, e, _⟩ := C11_library (4, 16, 1212) (by simp [libraryParams])
  refine ⟨t, e, ?_⟩
  have hcheck : (match make_tables someBuf 16 1212 with
      | .error _ => false
      | .ok t => [Shared.Ntt.product1 id 16 "c" "a" "a", Shared.Ntt.product2 id 16 "c" "a" "a",
        Shared.Ntt.product3 id 16 "c" "a" "a", Shared.Ntt.product4 id 16 "c" "a" "a",
        Shared.Ntt.product5 t id 16 "c" "a" "a"].all fun P =>
          match run P (exactMem t ramp #[] ramp #[] #[]) with
          | .error _ => false
          | .ok r => r.2 "c" == #[3161, 11815, 4902, 10057, 9123, 4886, 10853, 6619, 581, 6941, 10554, 6933, 456,
              5237, 2363, 11647]) = true := by decide +kernel
  rw [show make_tables someBuf 16 1212 = .ok t from e] at hcheck
  dsimp only at hcheck
  rw [List.all_eq_true] at hcheck
  intro P hP
  have := hcheck P hP
  split at this
  · cases this
  · next r hr =>
    refine ⟨r.1, r.2, hr, ?_⟩
    rw [eq_of_beq this]
    rintro ⟨_, _, h⟩
    exact absurd (h 0 (by decide)) (by decide +kernel)

/-- The same for the Longa-Naehrig products. -/
theorem C51_same_operand_red : ∃ t, make_red_tables someBuf 16 1212 = .ok t ∧
    ∀ P ∈ [Shared.NttRed.product1 id 16 true "c" "a" "a", Shared.NttRed.product2 id 16 true "c" "a" "a",
      Shared.NttRed.product3 id 16 true "c" "a" "a", Shared.NttRed.product4 id 16 true "c" "a" "a",
      Shared.NttRed.product5 t id 16 true "c" "a" "a"],
    ∃ r m, run P (redMem t ramp #[] ramp) = .ok (r, m) ∧ ¬ IsProduct 4 0 12288 (m "c") ramp ramp := by
  obtain ⟨t, e, _⟩ := C21_library (4, 16, 1212) (by simp [libraryParams])
  refine ⟨t, e, ?_⟩
  have hcheck : (match make_red_tables someBuf 16 1212 with
      | .error _ => false
      | .ok t => [Shared.NttRed.product1 id 16 true "c" "a" "a", Shared.NttRed.product2 id 16 true "c" "a" "a",
        Shared.NttRed.product3 id 16 true "c" "a" "a", Shared.NttRed.product4 id 16 true "c" "a" "a",
        Shared.NttRed.product5 t id 16 true "c" "a" "a"].all fun P =>
          match run P (redMem t ramp #[] ramp) with
          | .error _ => false
          | .ok r => elt (r.2 "c") 0 != 11355 && decide (0 ≤ elt (r.2 "c") 0) && decide (elt (r.2 "c") 0 ≤ 12288))
      = true := by decide +kernel
  rw [show make_red_tables someBuf 16 1212 = .ok t from e] at hcheck
  dsimp only at hcheck
  rw [List.all_eq_true] at hcheck
  intro P hP
  have := hcheck P hP
  split at this
  · cases this
  · next r hr =>
    refine ⟨r.1, r.2, hr, ?_⟩
    simp only [Bool.and_eq_true, bne_iff_ne, ne_eq, decide_eq_true_eq] at this
    obtain ⟨⟨h1, h2⟩, h3⟩ := this
    rintro ⟨_, _, h⟩
    have h0 := h 0 (by decide)
    rw [show negacyclic (2 ^ 4) (coeff ramp) (coeff ramp) 0 = ((11355 : Int) : Zq) by decide +kernel] at h0
    unfold coeff at h0
    rw [ZMod.intCast_eq_intCast_iff_dvd_sub] at h0
    omega

/-- The same for the naive products. -/
theorem C51_same_operand_naive : ∃ t, make_tables someBuf 16 1212 = .ok t ∧
    ∀ P ∈ [Shared.Naive.product1 id 16 "c" "a" "a", Shared.Naive.product2 id 16 "c" "a" "a",
      Shared.Naive.product3 id 16 "c" "a" "a", Shared.Naive.product4 id 16 "c" "a" "a",
      Shared.Naive.product5 t id 16 "c" "a" "a"],
    ∃ r m, run P (exactMem t ramp #[] ramp #[] #[]) = .ok (r, m) ∧
      ¬ IsProduct 4 (-12288) 12288 (m "c") ramp ramp := by
  obtain ⟨t, e, _⟩ := C11_library (4, 16, 1212) (by simp [libraryParams])
  refine ⟨t, e, ?_⟩
  have hcheck : (match make_tables someBuf 16 1212 with
      | .error _ => false
      | .ok t => [Shared.Naive.product1 id 16 "c" "a" "a", Shared.Naive.product2 id 16 "c" "a" "a",
        Shared.Naive.product3 id 16 "c" "a" "a", Shared.Naive.product4 id 16 "c" "a" "a",
        Shared.Naive.product5 t id 16 "c" "a" "a"].all fun P =>
          match run P (exactMem t ramp #[] ramp #[] #[]) with
          | .error _ => false
          | .ok r => decide ((elt (r.2 "c") 0 - 11355) % 12289 ≠ 0)) = true := by decide +kernel
  rw [show make_tables someBuf 16 1212 = .ok t from e] at hcheck
  dsimp only at hcheck
  rw [List.all_eq_true] at hcheck
  intro P hP
  have := hcheck P hP
  split at this
  · cases this
  · next r hr =>
    refine ⟨r.1, r.2, hr, ?_⟩
    rw [decide_eq_true_eq] at this
    rintro ⟨_, _, h⟩
    have h0 := h 0 (by decide)
    rw [show negacyclic (2 ^ 4) (coeff ramp) (coeff ramp) 0 = ((11355 : Int) : Zq) by decide +kernel] at h0
    unfold coeff at h0
    rw [ZMod.intCast_eq_intCast_iff_dvd_sub] at h0
    omega

/-- The same for the AVX2 products. -/
theorem C51_same_operand_asm : ∃ t, make_red_tables someBuf 16 1212 = .ok t ∧
    ∀ P ∈ [Shared.AsmProducts.product1 t id 16 true "c" "a" "a", Shared.AsmProducts.product2 t id 16 true "c" "a" "a",
      Shared.AsmProducts.product3 t id 16 true "c" "a" "a", Shared.AsmProducts.product4 t id 16 true "c" "a" "a",
      Shared.AsmProducts.product5 t id 16 0 true "c" "a" "a"],
    ∃ r m, run P (redMem t ramp #[] ramp) = .ok (r, m) ∧ ¬ IsProduct 4 0 12288 (m "c") ramp ramp := by
  obtain ⟨t, e, _⟩ := C21_library (4, 16, 1212) (by simp [libraryParams])
  refine ⟨t, e, ?_⟩
  have hcheck : (match make_red_tables someBuf 16 1212 with
      | .error _ => false
      | .ok t => [Shared.AsmProducts.product1 t id 16 true "c" "a" "a",
        Shared.AsmProducts.product2 t id 16 true "c" "a" "a", Shared.AsmProducts.product3 t id 16 true "c" "a" "a",
        Shared.AsmProducts.product4 t id 16 true "c" "a" "a",
        Shared.AsmProducts.product5 t id 16 0 true "c" "a" "a"].all fun P =>
          match run P (redMem t ramp #[] ramp) with
          | .error _ => false
          | .ok r => elt (r.2 "c") 0 != 11355 && decide (0 ≤ elt (r.2 "c") 0) && decide (elt (r.2 "c") 0 ≤ 12288))
      = true := by decide +kernel
  rw [show make_red_tables someBuf 16 1212 = .ok t from e] at hcheck
  dsimp only at hcheck
  rw [List.all_eq_true] at hcheck
  intro P hP
  have := hcheck P hP
  split at this
  · cases this
  · next r hr =>
    refine ⟨r.1, r.2, hr, ?_⟩
    simp only [Bool.and_eq_true, bne_iff_ne, ne_eq, decide_eq_true_eq] at this
    obtain ⟨⟨h1, h2⟩, h3⟩ := this
    rintro ⟨_, _, h⟩
    have h0 := h 0 (by decide)
    rw [show negacyclic (2 ^ 4) (coeff ramp) (coeff ramp) 0 = ((11355 : Int) : Zq) by decide +kernel] at h0
    unfold coeff at h0
    rw [ZMod.intCast_eq_intCast_iff_dvd_sub] at h0
    omega

/-- `ntt_red16_product3_asm(b, a, b)`: the hypotheses of C51 hold with the destination equal to the second operand. -/
example : ∃ μ P, Call μ id "b" "a" "b" 4 0 12288 P ∧ (μ "a").size = 2 ^ 4 ∧ (μ "b").size = 2 ^ 4 ∧
    Reduced (μ "a") ∧ Reduced (μ "b") ∧ Fresh id "a" ∧ Fresh id "b" := by
  obtain ⟨t, e, _⟩ := C21_library (4, 16, 1212) (by simp [libraryParams])
  refine ⟨redMem t ramp ramp ramp, Shared.AsmProducts.product3 t id (2 ^ 4) true "b" "a" "b",
    .asm true 0 (by decide) (libraryParams_good (4, 16, 1212) (by simp [libraryParams]))
    someBuf_size e (redMem_tables _ _ _ _) (by simp), rfl, rfl, ?_, ?_, ?_, ?_⟩
  · show InRange 0 12288 ramp; unfold InRange; decide
  · show InRange 0 12288 ramp; unfold InRange; decide
  · unfold Fresh; decide
  · unfold Fresh; decide

/-- Two threads, `ntt16_product1(c, a, b)` and `ntt16_product2(d, d, e)`, with the same tables: the hypotheses of C52
hold. -/
example : ∃ (μ : Mem) (P : Bool → Prog (Ref × Ref × Ref)),
    (∀ i, Call μ id (cond i "c" "d") (cond i "a" "d") (cond i "b" "e") 4 0 12288 (P i)) ∧
    (∀ i, (μ (cond i "a" "d")).size = 2 ^ 4 ∧ Reduced (μ (cond i "a" "d"))) ∧
    (∀ i j : Bool, i ≠ j → ∀ x ∈ [cond i "c" "d", cond i "a" "d", cond i "b" "e"],
      x ∉ [cond j "c" "d", cond j "a" "d", cond j "b" "e"]) := by
  obtain ⟨t, e, _⟩ := C11_library (4, 16, 1212) (by simp [libraryParams])
  have hg := libraryParams_good (4, 16, 1212) (by simp [libraryParams])
  refine ⟨exactMem t ramp ramp ramp ramp ramp,
    fun i => cond i (Shared.Ntt.product1 id 16 "c" "a" "b") (Shared.Ntt.product2 id 16 "d" "d" "e"), ?_, ?_, ?_⟩
  · intro i
    cases i
    · exact .exact hg someBuf_size e (exactMem_tables _ _ _ _ _ _) (List.mem_cons_of_mem _ List.mem_cons_self)
    · exact .exact hg someBuf_size e (exactMem_tables _ _ _ _ _ _) List.mem_cons_self
  · intro i
    cases i
    · exact ⟨rfl, by show InRange 0 12288 ramp; unfold InRange; decide⟩
    · exact ⟨rfl, by show InRange 0 12288 ramp; unfold InRange; decide⟩
  · decide

/-- Products write their operands, so that two threads must not share one: when `ntt16_product1(c, a, b)` has
returned, `ntt16_product1(d, a, e)` returns a wrong result. -/
theorem C52_shared_operand : ∃ t, make_tables someBuf 16 1212 = .ok t ∧
    ∃ n n', let P : Bool → Prog (Ref × Ref × Ref) :=
        fun i => cond i (Shared.Ntt.product1 id 16 "c" "a" "b") (Shared.Ntt.product1 id 16 "d" "a" "e")
      let s := exec (List.replicate n true ++ List.replicate n' false) P (exactMem t ramp ramp ramp ramp ramp)
      (∀ i, ∃ r, s.1 i = .pure r) ∧ ¬ IsProduct 4 0 12288 (s.2 "d") ramp ramp := by
  obtain ⟨t, e, _⟩ := C11_library (4, 16, 1212) (by simp [libraryParams])
  refine ⟨t, e, ?_⟩
  have hcheck : (match make_tables someBuf 16 1212 with
      | .error _ => false
      | .ok t =>
        match run (Shared.Ntt.product1 id 16 "c" "a" "b") (exactMem t ramp ramp ramp ramp ramp) with
        | .error _ => false
        | .ok r =>
          match run (Shared.Ntt.product1 id 16 "d" "a" "e") r.2 with
          | .error _ => false
          | .ok r' =>
            elt (r'.2 "d") 0 != 11355 && decide (0 ≤ elt (r'.2 "d") 0) && decide (elt (r'.2 "d") 0 ≤ 12288))
      = true := by decide +kernel
  rw [show make_tables someBuf 16 1212 = .ok t from e] at hcheck
  dsimp only at hcheck
  split at hcheck
  · cases hcheck
  · next r hr =>
    split at hcheck
    · cases hcheck
    · next r' hr' =>
      obtain ⟨r1, m⟩ := r
      obtain ⟨r2, m'⟩ := r'
      dsimp only at hcheck hr'
      let P : Bool → Prog (Ref × Ref × Ref) :=
        fun i => cond i (Shared.Ntt.product1 id 16 "c" "a" "b") (Shared.Ntt.product1 id 16 "d" "a" "e")
      obtain ⟨n, hn⟩ := exec_alone true _ P _ rfl hr
      obtain ⟨n', hn'⟩ := exec_alone false (Shared.Ntt.product1 id 16 "d" "a" "e")
        (fun j => if j = true then .pure r1 else P j) m rfl hr'
      refine ⟨n, n', ?_⟩
      show (∀ i, ∃ r, (exec (List.replicate n true ++ List.replicate n' false) P _).1 i = .pure r) ∧ ¬ IsProduct 4 0 12288
        ((exec (List.replicate n true ++ List.replicate n' false) P _).2 "d") ramp ramp
      have hx : exec (List.replicate n true ++ List.replicate n' false) P (exactMem t ramp ramp ramp ramp ramp)
          = ((fun j => if j = false then .pure r2 else (if j = true then .pure r1 else P j)), m') := by
        unfold exec
        rw [List.foldl_append, hn, hn']
      rw [hx]
      refine ⟨?_, ?_⟩
      · intro i
        cases i
        · exact ⟨r2, rfl⟩
        · exact ⟨r1, rfl⟩
      · simp only [Bool.and_eq_true, bne_iff_ne, ne_eq, decide_eq_true_eq] at hcheck
        obtain ⟨⟨h1, h2⟩, h3⟩ := hcheck
        rintro ⟨_, _, h⟩
        have h0 := h 0 (by decide)
        rw [show negacyclic (2 ^ 4) (coeff ramp) (coeff ramp) 0 = ((11355 : Int) : Zq) by decide +kernel] at h0
        unfold coeff at h0
        dsimp only at h0
        rw [ZMod.intCast_eq_intCast_iff_dvd_sub] at h0
        omega

end Props
