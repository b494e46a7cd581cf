import Verif.Props.Shared

/-
C53: a function that updates one array changes nothing else and depends on nothing else, so that such functions can
run concurrently on different arrays.

The arrays are in a memory (`Verif/Shared.lean`); `Shared.InPlace` lists the functions.
-/

namespace Props
open C Spec Tables Shared

/-! ### functions that update one array -/

/-- The call alone, with its accesses: proof of C53. -/
theorem inPlace_sim {S W : Ref → Prop} {μ : Mem} {h p : Ref} {x : M (Array Int)} {P : Prog Ref}
    (H : InPlace μ h p x P) (hW : W h) (hp : S p) (hne : p ≠ h) : Sim S W μ (Post μ h) x P := by
  rw [← upd_self μ h]
  have key : ∀ {x y : M (Array Int)}, x = y → Sim S W (upd μ h (μ h)) (Post μ h) x P →
      Sim S W (upd μ h (μ h)) (Post (upd μ h (μ h)) h) y P := by
    intro x y e hs
    subst e
    rw [upd_self] at hs ⊢
    exact hs
  cases H with
  | table hf n =>
    simp only [tableFunctions, List.mem_cons, List.not_mem_nil, or_false, Prod.mk.injEq] at hf
    rcases hf with ⟨rfl, rfl⟩ | ⟨rfl, rfl⟩ | ⟨rfl, rfl⟩ | ⟨rfl, rfl⟩ | ⟨rfl, rfl⟩ | ⟨rfl, rfl⟩ | ⟨rfl, rfl⟩ | ⟨rfl, rfl⟩ | ⟨rfl, rfl⟩ | ⟨rfl, rfl⟩ | ⟨rfl, rfl⟩ | ⟨rfl, rfl⟩ | ⟨rfl, rfl⟩ | ⟨rfl, rfl⟩ | ⟨rfl, rfl⟩ | ⟨rfl, rfl⟩ | ⟨rfl, rfl⟩ | ⟨rfl, rfl⟩ | ⟨rfl, rfl⟩ | ⟨rfl, rfl⟩ | ⟨rfl, rfl⟩ | ⟨rfl, rfl⟩ | ⟨rfl, rfl⟩ | ⟨rfl, rfl⟩ | ⟨rfl, rfl⟩ | ⟨rfl, rfl⟩ | ⟨rfl, rfl⟩ | ⟨rfl, rfl⟩ | ⟨rfl, rfl⟩
    · exact key rfl (Shared.Ntt.mul_array16_sim hW hp hne _ _)
    · exact key rfl (Shared.Ntt.ntt_ct_rev2std_v1_sim hW hp hne _ _)
    · exact key rfl (Shared.Ntt.ntt_ct_rev2std_sim hW hp hne _ _)
    · exact key rfl (Shared.Ntt.ntt_ct_std2rev_sim hW hp hne _ _)
    · exact key rfl (Shared.Ntt.ntt_gs_rev2std_sim hW hp hne _ _)
    · exact key rfl (Shared.Ntt.ntt_gs_std2rev_sim hW hp hne _ _)
    · exact key rfl (Shared.Ntt.mulntt_ct_rev2std_sim hW hp hne _ _)
    · exact key rfl (Shared.Ntt.mulntt_ct_std2rev_sim hW hp hne _ _)
    · exact key rfl (Shared.Ntt.nttmul_gs_rev2std_sim hW hp hne _ _)
    · exact key rfl (Shared.Ntt.nttmul_gs_std2rev_sim hW hp hne _ _)
    · exact key rfl (Shared.NttRed.mul_reduce_array16_sim hW hp hne _ _)
    · exact key rfl (Shared.NttRed.ntt_red_ct_rev2std_sim hW hp hne _ _)
    · exact key rfl (Shared.NttRed.ntt_red_ct_std2rev_sim hW hp hne _ _)
    · exact key rfl (Shared.NttRed.ntt_red_gs_rev2std_sim hW hp hne _ _)
    · exact key rfl (Shared.NttRed.ntt_red_gs_std2rev_sim hW hp hne _ _)
    · exact key rfl (Shared.NttRed.mulntt_red_ct_rev2std_sim hW hp hne _ _)
    · exact key rfl (Shared.NttRed.mulntt_red_ct_std2rev_sim hW hp hne _ _)
    · exact key rfl (Shared.NttRed.nttmul_red_gs_rev2std_sim hW hp hne _ _)
    · exact key rfl (Shared.NttRed.nttmul_red_gs_std2rev_sim hW hp hne _ _)
    · exact key (by rw [← AsmPoly.mul_reduce_array16_asm_plain]) (Shared.Asm.mul_reduce_array16_asm_sim hW hp hne)
    · exact key (by rw [← AsmPoly.mul_reduce_array16_asm2_plain]) (Shared.Asm.mul_reduce_array16_asm2_sim hW hp hne)
    · exact key (by rw [← AsmPoly.ntt_red_ct_rev2std_asm_plain]) (Shared.Asm.ntt_red_ct_rev2std_asm_sim hW hp hne)
    · exact key (by rw [← AsmPoly.ntt_red_ct_std2rev_asm_plain]) (Shared.Asm.ntt_red_ct_std2rev_asm_sim hW hp hne)
    · exact key (by rw [← AsmPoly.ntt_red_gs_rev2std_asm_plain]) (Shared.Asm.ntt_red_gs_rev2std_asm_sim hW hp hne)
    · exact key (by rw [← AsmPoly.ntt_red_gs_std2rev_asm_plain]) (Shared.Asm.ntt_red_gs_std2rev_asm_sim hW hp hne)
    · exact key (by rw [← AsmPoly.mulntt_red_ct_rev2std_asm_plain]) (Shared.Asm.mulntt_red_ct_rev2std_asm_sim hW hp hne)
    · exact key (by rw [← AsmPoly.mulntt_red_ct_std2rev_asm_plain]) (Shared.Asm.mulntt_red_ct_std2rev_asm_sim hW hp hne)
    · exact key (by rw [← AsmPoly.nttmul_red_gs_rev2std_asm_plain]) (Shared.Asm.nttmul_red_gs_rev2std_asm_sim hW hp hne)
    · exact key (by rw [← AsmPoly.nttmul_red_gs_std2rev_asm_plain]) (Shared.Asm.nttmul_red_gs_std2rev_asm_sim hW hp hne)
  | plain hf n =>
    simp only [plainFunctions, List.mem_cons, List.not_mem_nil, or_false, Prod.mk.injEq] at hf
    rcases hf with ⟨rfl, rfl⟩ | ⟨rfl, rfl⟩ | ⟨rfl, rfl⟩ | ⟨rfl, rfl⟩ | ⟨rfl, rfl⟩ | ⟨rfl, rfl⟩ | ⟨rfl, rfl⟩ | ⟨rfl, rfl⟩ | ⟨rfl, rfl⟩ | ⟨rfl, rfl⟩ | ⟨rfl, rfl⟩ | ⟨rfl, rfl⟩ | ⟨rfl, rfl⟩
    · exact key rfl (Shared.Ntt.bitrev_shuffle_sim hW _ _)
    · exact key rfl (Shared.NttRed.normalize_sim hW _ _)
    · exact key rfl (Shared.NttRed.normalize_inv3_sim hW _ _)
    · exact key rfl (Shared.NttRed.shift_array_sim hW _ _)
    · exact key rfl (Shared.NttRed.reduce_array_sim hW _ _)
    · exact key rfl (Shared.NttRed.reduce_array_twice_sim hW _ _)
    · exact key rfl (Shared.NttRed.correct_sim hW _ _)
    · exact key (by rw [← AsmPoly.reduce_array_asm_plain]) (Shared.Asm.reduce_array_asm_sim hW)
    · exact key (by rw [← AsmPoly.reduce_array_asm2_plain]) (Shared.Asm.reduce_array_asm2_sim hW)
    · exact key (by rw [← AsmPoly.reduce_array_twice_asm_plain]) (Shared.Asm.reduce_array_twice_asm_sim hW)
    · exact key (by rw [← AsmPoly.reduce_array_twice_asm2_plain]) (Shared.Asm.reduce_array_twice_asm2_sim hW)
    · exact key (by rw [← AsmPoly.correct_asm_plain]) (Shared.Asm.correct_asm_sim hW)
    · exact key (by rw [← AsmPoly.shift_array_asm_plain]) (Shared.Asm.shift_array_asm_sim hW)
  | scalar hf n c =>
    simp only [scalarFunctions, List.mem_cons, List.not_mem_nil, or_false, Prod.mk.injEq] at hf
    rcases hf with ⟨rfl, rfl⟩ | ⟨rfl, rfl⟩ | ⟨rfl, rfl⟩
    · exact key rfl (Shared.Ntt.scalar_mul_array_sim hW _ _ _)
    · exact key rfl (Shared.NttRed.scalar_mul_reduce_array_sim hW _ _ _)
    · exact key (by rw [← AsmPoly.scalar_mul_reduce_array_asm_plain]) (Shared.Asm.scalar_mul_reduce_array_asm_sim hW)
  | naive hf n q =>
    simp only [naiveFunctions, List.mem_cons, List.not_mem_nil, or_false, Prod.mk.injEq] at hf
    rcases hf with ⟨rfl, rfl⟩ | ⟨rfl, rfl⟩ | ⟨rfl, rfl⟩ | ⟨rfl, rfl⟩ | ⟨rfl, rfl⟩ | ⟨rfl, rfl⟩ | ⟨rfl, rfl⟩ | ⟨rfl, rfl⟩ | ⟨rfl, rfl⟩
    · exact key rfl (Shared.Naive.mul_array16_sim hW hp hne _ _ _)
    · exact key rfl (Shared.Naive.ntt_ct_rev2std_sim hW hp hne _ _ _)
    · exact key rfl (Shared.Naive.ntt_ct_std2rev_sim hW hp hne _ _ _)
    · exact key rfl (Shared.Naive.ntt_gs_rev2std_sim hW hp hne _ _ _)
    · exact key rfl (Shared.Naive.ntt_gs_std2rev_sim hW hp hne _ _ _)
    · exact key rfl (Shared.Naive.mulntt_ct_rev2std_sim hW hp hne _ _ _)
    · exact key rfl (Shared.Naive.mulntt_ct_std2rev_sim hW hp hne _ _ _)
    · exact key rfl (Shared.Naive.nttmul_gs_rev2std_sim hW hp hne _ _ _)
    · exact key rfl (Shared.Naive.nttmul_gs_std2rev_sim hW hp hne _ _ _)
  | shuffle p' n => exact key rfl (Shared.Ntt.shuffle_with_table_sim hW _ _ _)

/-- C53: alone in any memory, the function fails as the function on array values does, or leaves in its array what the
function on array values returns; every other array is unchanged. -/
theorem C53_alone {μ : Mem} {h p : Ref} {x : M (Array Int)} {P : Prog Ref} (H : InPlace μ h p x P) (hne : p ≠ h) :
    run P μ = match x with
      | .error e => .error e
      | .ok v => .ok (h, upd μ h v) := by
  have hs := inPlace_sim (S := fun r => r = p) (W := fun r => r = h) H rfl rfl hne
  rw [run_eq_runT]
  cases x with
  | error e => rw [show runT P μ = .error e from hs]
  | ok v =>
    obtain ⟨r, m, tr, e, ⟨rfl, rfl⟩, _⟩ := hs
    rw [e]

/-- C53: any number of threads call such functions, each on an array `h i` of its own; they may read the same array `p`.
For each call that succeeds on array values (`x i = .ok (v i)`), the thread does not fail in any schedule, returns
after a number of steps of its own, and then its array is `v i`; arrays that are not updated by a thread do not
change. -/
theorem C53_threads {ι : Type} [DecidableEq ι] {μ : Mem} {h p : ι → Ref} {x : ι → M (Array Int)} {v : ι → Array Int}
    {P : ι → Prog Ref} (H : ∀ i, InPlace μ (h i) (p i) (x i) (P i)) (hx : ∀ i, x i = .ok (v i))
    (hh : ∀ i j, i ≠ j → h i ≠ h j) (hp : ∀ i j, p i ≠ h j) :
    ∃ steps : ι → Nat, ∀ sched : List ι,
      (∀ i e, (exec sched P μ).1 i ≠ .fail e) ∧
      (∀ i r, (exec sched P μ).1 i = .pure r → (exec sched P μ).2 (h i) = v i) ∧
      (∀ i, steps i ≤ sched.count i → (exec sched P μ).1 i = .pure (h i)) ∧
      ∀ r, (∀ i, r ≠ h i) → (exec sched P μ).2 r = μ r := by
  have G : ∀ i, ∃ tr, runT (P i) μ = .ok (h i, upd μ (h i) (v i), tr) ∧
      ∀ e ∈ tr, Allowed (fun r => r = p i) (fun r => r = h i) e := by
    intro i
    have hs := inPlace_sim (S := fun r => r = p i) (W := fun r => r = h i) (H i) rfl rfl (hp i i)
    rw [hx i] at hs
    obtain ⟨r, m, tr, e, ⟨rfl, rfl⟩, hA⟩ := hs
    exact ⟨tr, e, hA⟩
  choose tr e hA using G
  refine ⟨fun i => (tr i).length, fun sched => ?_⟩
  obtain ⟨g1, g2, g3, g4⟩ := exec_correct (S := fun i r => r = p i) (W := fun i r => r = h i) (by
      rintro i j hij r rfl (hr | hr)
      · exact hp j i hr.symm
      · exact hh i j hij hr) e hA sched
  refine ⟨g1, fun i r hr => ?_, g3, fun r hr => g4 r fun i hi => hr i hi⟩
  obtain ⟨_, hm⟩ := g2 i r hr
  rw [hm (h i) rfl, upd_at]

/-- Two threads, `ntt_red_ct_std2rev_asm(a, 16, p)` and `ntt_red_gs_std2rev(b, 16, p)`, with the same table: the
hypotheses of C53 hold. -/
example : ∃ (μ : Mem) (x : Bool → M (Array Int)) (v : Bool → Array Int) (P : Bool → Prog Ref),
    (∀ i, InPlace μ (cond i "a" "b") "p" (x i) (P i)) ∧ (∀ i, x i = .ok (v i)) ∧
    (∀ i j : Bool, i ≠ j → cond i "a" "b" ≠ cond j "a" "b") ∧ (∀ j : Bool, "p" ≠ cond j "a" "b") := by
  have h1 : (Asm.ntt_red_ct_std2rev_asm ramp 16 ramp).isOk = true := by decide +kernel
  have h2 : (NttRed.ntt_red_gs_std2rev ramp 16 ramp).isOk = true := by decide +kernel
  have ok : ∀ {y : M (Array Int)}, y.isOk = true → ∃ v, y = .ok v := by
    intro y hy
    cases y with
    | error e => cases hy
    | ok v => exact ⟨v, rfl⟩
  obtain ⟨v1, e1⟩ := ok h1
  obtain ⟨v2, e2⟩ := ok h2
  refine ⟨fun _ => ramp, fun i => cond i (Asm.ntt_red_ct_std2rev_asm ramp 16 ramp) (NttRed.ntt_red_gs_std2rev ramp 16 ramp),
    fun i => cond i v1 v2,
    fun i => cond i (AsmPoly.ntt_red_ct_std2rev_asm shared "a" 16 "p") (Shared.NttRed.ntt_red_gs_std2rev "b" 16 "p"),
    ?_, ?_, by decide, by decide⟩
  · intro i
    cases i
    · simp only [Bool.cond_false]
      exact .table (μ := fun _ => ramp) (h := "b") (p := "p") (f := NttRed.ntt_red_gs_std2rev)
        (F := Shared.NttRed.ntt_red_gs_std2rev) (by simp [tableFunctions]) 16
    · simp only [Bool.cond_true]
      exact .table (μ := fun _ => ramp) (h := "a") (p := "p") (f := Asm.ntt_red_ct_std2rev_asm)
        (F := AsmPoly.ntt_red_ct_std2rev_asm shared) (by simp [tableFunctions]) 16
  · intro i
    cases i
    · simp only [Bool.cond_false]
      exact e2
    · simp only [Bool.cond_true]
      exact e1

end Props
