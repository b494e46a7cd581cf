import Verif.Proofs.CRunMul
import Verif.Proofs.CRunShuffle
import Verif.SpecSourceFun
import Verif.Props.Bitrev

/-
C82, continued: the text of the functions of src/ntt.c, src/ntt_red.c and src/naive_ntt.c, for any size and any table.

Specification: Verif/SpecSource.lean, Verif/SpecSourceFun.lean.
-/

namespace Props
open C Spec Tables NTT CLang

theorem sets_of {P : Prog} {G : Name → Option Cell} {g : Name} {vs : List Val} {mem : Nat → Obj} {o : Nat} {a' : Array Int}
    (h : Calls P G g vs mem (setMem mem o ⟨.i32, a'⟩) ∧ Wf a') : Sets P G g vs mem o a' :=
  ⟨_, h.1, setMem_self _ _ _, fun _ ho => setMem_ne ho⟩

theorem wf_all {a : Array Int} (h : AllI32 a) : Wf a := Wf.of_range h (by decide) (by decide)

theorem doesArray_shuffle {P : Prog} {g : Name} (hg : P.lookup g = some Src.ntt.bitrev_shuffle) : DoesArray P g Ntt.bitrev_shuffle :=
  fun _ _ _ _ _ _ hn hm ha h => sets_of (bitrev_shuffle_calls hg hn hm (wf_all ha) h)

theorem doesPairs_shuffle {P : Prog} {g : Name} (hg : P.lookup g = some Src.ntt.shuffle_with_table) : DoesPairs P g Ntt.shuffle_with_table := by
  intro _ _ _ _ _ _ _ d p hn hm ha hop hmp hp h
  refine sets_of (shuffle_with_table_calls hg hn hm (wf_all ha) hmp (fun i x hx => ?_) hop h)
  have hx' : p[i]? = some x := by
    unfold rd at hx
    split at hx
    · cases hx; assumption
    · simp at hx
  obtain ⟨h1, h2, h3, h4⟩ := hp i x hx'
  unfold rd
  rw [h1, h2]
  exact ⟨rfl, rfl, by omega, by omega⟩

/-- Every function of src/ntt_red.c that works on arrays, as written there, does what the model says, for all arrays, sizes and tables. -/
theorem C82_ntt_red_c : ∃ P, readAll [Src.ntt_red_text] = some P ∧
    (∀ z ∈ ([
        (n!"normalize", NttRed.normalize),
        (n!"normalize_inv3", NttRed.normalize_inv3),
        (n!"shift_array", NttRed.shift_array),
        (n!"reduce_array", NttRed.reduce_array),
        (n!"reduce_array_twice", NttRed.reduce_array_twice),
        (n!"correct", NttRed.correct)] : List (Name × (Array Int → Nat → M (Array Int)))),
      DoesArray P z.1 z.2) ∧
    (∀ z ∈ ([
        (n!"mul_reduce_array16", NttRed.mul_reduce_array16),
        (n!"ntt_red_ct_rev2std", NttRed.ntt_red_ct_rev2std),
        (n!"mulntt_red_ct_rev2std", NttRed.mulntt_red_ct_rev2std),
        (n!"ntt_red_ct_std2rev", NttRed.ntt_red_ct_std2rev),
        (n!"mulntt_red_ct_std2rev", NttRed.mulntt_red_ct_std2rev),
        (n!"ntt_red_gs_rev2std", NttRed.ntt_red_gs_rev2std),
        (n!"nttmul_red_gs_rev2std", NttRed.nttmul_red_gs_rev2std),
        (n!"ntt_red_gs_std2rev", NttRed.ntt_red_gs_std2rev),
        (n!"nttmul_red_gs_std2rev", NttRed.nttmul_red_gs_std2rev)] : List (Name × (Array Int → Nat → Array Int → M (Array Int)))),
      DoesTable P [] .i16 z.1 z.2) ∧
    DoesArrays P [] n!"mul_reduce_array" NttRed.mul_reduce_array ∧
    DoesScalar P [] n!"scalar_mul_reduce_array" NttRed.scalar_mul_reduce_array := by
  have hP : Has (Src.ntt_red ++ []) Src.ntt_red := Has.of_all (by decide +kernel)
  refine ⟨Src.ntt_red ++ [], by simp only [readAll, Src.ntt_red_read]; rfl, ?_, ?_, ?_, ?_⟩
  · intro z hz
    simp only [List.mem_cons, List.not_mem_nil, or_false] at hz
    rcases hz with rfl | rfl | rfl | rfl | rfl | rfl
    · exact fun _ _ _ _ _ _ hn hm ha h => sets_of (CLang.normalize_calls hP hn hm (wf_all ha) h)
    · exact fun _ _ _ _ _ _ hn hm ha h => sets_of (CLang.normalize_inv3_calls hP hn hm (wf_all ha) h)
    · exact fun _ _ _ _ _ _ hn hm ha h => sets_of (CLang.shift_array_calls hP hn hm (wf_all ha) h)
    · exact fun _ _ _ _ _ _ hn hm ha h => sets_of (CLang.reduce_array_calls hP hn hm (wf_all ha) h)
    · exact fun _ _ _ _ _ _ hn hm ha h => sets_of (CLang.reduce_array_twice_calls hP hn hm (wf_all ha) h)
    · exact fun _ _ _ _ _ _ hn hm ha h => sets_of (CLang.correct_calls hP hn hm (wf_all ha) h)
  · intro z hz
    simp only [List.mem_cons, List.not_mem_nil, or_false] at hz
    rcases hz with rfl | rfl | rfl | rfl | rfl | rfl | rfl | rfl | rfl
    · exact fun _ _ _ _ _ _ _ _ hn hm ha hop hmp hp h => sets_of (CLang.mul_reduce_array16_calls hP hn hm (wf_all ha) hop hmp (wf_all hp) h)
    · exact fun _ _ _ _ _ _ _ _ hn hm ha hop hmp hp h => sets_of (RedTr.ntt_red_ct_rev2std_calls hP hn hm (wf_all ha) hop hmp (wf_all hp) h)
    · exact fun _ _ _ _ _ _ _ _ hn hm ha hop hmp hp h => sets_of (RedTr.mulntt_red_ct_rev2std_calls hP hn hm (wf_all ha) hop hmp (wf_all hp) h)
    · exact fun _ _ _ _ _ _ _ _ hn hm ha hop hmp hp h => sets_of (RedTr.ntt_red_ct_std2rev_calls hP hn hm (wf_all ha) hop hmp (wf_all hp) h)
    · exact fun _ _ _ _ _ _ _ _ hn hm ha hop hmp hp h => sets_of (RedTr.mulntt_red_ct_std2rev_calls hP hn hm (wf_all ha) hop hmp (wf_all hp) h)
    · exact fun _ _ _ _ _ _ _ _ hn hm ha hop hmp hp h => sets_of (RedTr.ntt_red_gs_rev2std_calls hP hn hm (wf_all ha) hop hmp (wf_all hp) h)
    · exact fun _ _ _ _ _ _ _ _ hn hm ha hop hmp hp h => sets_of (RedTr.nttmul_red_gs_rev2std_calls hP hn hm (wf_all ha) hop hmp (wf_all hp) h)
    · exact fun _ _ _ _ _ _ _ _ hn hm ha hop hmp hp h => sets_of (RedTr.ntt_red_gs_std2rev_calls hP hn hm (wf_all ha) hop hmp (wf_all hp) h)
    · exact fun _ _ _ _ _ _ _ _ hn hm ha hop hmp hp h => sets_of (RedTr.nttmul_red_gs_std2rev_calls hP hn hm (wf_all ha) hop hmp (wf_all hp) h)
  · exact fun _ _ _ _ _ _ _ _ _ _ hn hm hc hoa hma ha hob hmb hb h =>
      sets_of (CLang.mul_reduce_array_calls hP hn hm (wf_all hc) hoa hma (wf_all ha) hob hmb (wf_all hb) h)
  · exact fun _ _ _ _ _ _ _ hn hm ha c1 c2 h => sets_of (CLang.scalar_mul_reduce_array_calls hP hn hm (wf_all ha) ⟨c1, c2⟩ h)

/-- Every function of src/ntt.c that works on arrays, as written there, does what the model says, for all arrays, sizes and tables. -/
theorem C82_ntt_c : ∃ P, readAll [Src.ntt_text] = some P ∧
    DoesArray P n!"bitrev_shuffle" Ntt.bitrev_shuffle ∧
    DoesPairs P n!"shuffle_with_table" Ntt.shuffle_with_table ∧
    (∀ z ∈ ([
        (n!"mul_array16", Ntt.mul_array16),
        (n!"ntt_ct_rev2std_v1", Ntt.ntt_ct_rev2std_v1),
        (n!"ntt_ct_rev2std", Ntt.ntt_ct_rev2std),
        (n!"mulntt_ct_rev2std", Ntt.mulntt_ct_rev2std),
        (n!"ntt_ct_std2rev", Ntt.ntt_ct_std2rev),
        (n!"mulntt_ct_std2rev", Ntt.mulntt_ct_std2rev),
        (n!"ntt_gs_rev2std", Ntt.ntt_gs_rev2std),
        (n!"nttmul_gs_rev2std", Ntt.nttmul_gs_rev2std),
        (n!"ntt_gs_std2rev", Ntt.ntt_gs_std2rev),
        (n!"nttmul_gs_std2rev", Ntt.nttmul_gs_std2rev)] : List (Name × (Array Int → Nat → Array Int → M (Array Int)))),
      DoesTable P [] .u16 z.1 z.2) ∧
    DoesArrays P [] n!"mul_array" Ntt.mul_array ∧
    DoesScalar P [] n!"scalar_mul_array" Ntt.scalar_mul_array := by
  have hP : Has (Src.ntt ++ []) Src.ntt := Has.of_all (by decide +kernel)
  refine ⟨Src.ntt ++ [], by simp only [readAll, Src.ntt_read]; rfl, doesArray_shuffle (hP _ _ (by rfl)), doesPairs_shuffle (hP _ _ (by rfl)), ?_, ?_, ?_⟩
  · intro z hz
    simp only [List.mem_cons, List.not_mem_nil, or_false] at hz
    rcases hz with rfl | rfl | rfl | rfl | rfl | rfl | rfl | rfl | rfl | rfl
    · exact fun _ _ _ _ _ _ _ _ hn hm ha hop hmp hp h => sets_of (NttTr.mul_array16_calls hP hn hm (wf_all ha) hop hmp (by simp) (wf_all hp) h)
    · exact fun _ _ _ _ _ _ _ _ hn hm ha hop hmp hp h => sets_of (NttTr.ntt_ct_rev2std_v1_calls hP hn hm (wf_all ha) hop hmp (wf_all hp) h)
    · exact fun _ _ _ _ _ _ _ _ hn hm ha hop hmp hp h => sets_of (NttTr.ntt_ct_rev2std_calls hP hn hm (wf_all ha) hop hmp (wf_all hp) h)
    · exact fun _ _ _ _ _ _ _ _ hn hm ha hop hmp hp h => sets_of (NttTr.mulntt_ct_rev2std_calls hP hn hm (wf_all ha) hop hmp (wf_all hp) h)
    · exact fun _ _ _ _ _ _ _ _ hn hm ha hop hmp hp h => sets_of (NttTr.ntt_ct_std2rev_calls hP hn hm (wf_all ha) hop hmp (wf_all hp) h)
    · exact fun _ _ _ _ _ _ _ _ hn hm ha hop hmp hp h => sets_of (NttTr.mulntt_ct_std2rev_calls hP hn hm (wf_all ha) hop hmp (wf_all hp) h)
    · exact fun _ _ _ _ _ _ _ _ hn hm ha hop hmp hp h => sets_of (NttTr.ntt_gs_rev2std_calls hP hn hm (wf_all ha) hop hmp (wf_all hp) h)
    · exact fun _ _ _ _ _ _ _ _ hn hm ha hop hmp hp h => sets_of (NttTr.nttmul_gs_rev2std_calls hP hn hm (wf_all ha) hop hmp (wf_all hp) h)
    · exact fun _ _ _ _ _ _ _ _ hn hm ha hop hmp hp h => sets_of (NttTr.ntt_gs_std2rev_calls hP hn hm (wf_all ha) hop hmp (wf_all hp) h)
    · exact fun _ _ _ _ _ _ _ _ hn hm ha hop hmp hp h => sets_of (NttTr.nttmul_gs_std2rev_calls hP hn hm (wf_all ha) hop hmp (wf_all hp) h)
  · exact fun _ _ _ _ _ _ _ _ _ _ hn hm hc hoa hma ha hob hmb hb h =>
      sets_of (NttTr.mul_array_calls hP hn hm (wf_all hc) hoa hma (wf_all ha) hob hmb (wf_all hb) h)
  · exact fun _ _ _ _ _ _ _ hn hm ha c1 c2 h => sets_of (NttTr.scalar_mul_array_calls hP hn hm (wf_all ha) ⟨c1, c2⟩ h)

/-- Every function of src/naive_ntt.c, as written there, does what the model says, for all arrays, sizes, tables and positive moduli. -/
theorem C82_naive_ntt_c : ∃ P, readAll [Src.naive_ntt_text] = some P ∧
    DoesArray P n!"bitrev_shuffle" Ntt.bitrev_shuffle ∧
    DoesPairs P n!"shuffle_with_table" Ntt.shuffle_with_table ∧
    ∀ q : Int, 0 < q → q ≤ 2147483647 →
    (∀ z ∈ ([
        (n!"mul_array16_naive", fun a n p => Naive.mul_array16 a n p q),
        (n!"ntt_ct_rev2std_naive", fun a n p => Naive.ntt_ct_rev2std a n p q),
        (n!"mulntt_ct_rev2std_naive", fun a n p => Naive.mulntt_ct_rev2std a n p q),
        (n!"ntt_ct_std2rev_naive", fun a n p => Naive.ntt_ct_std2rev a n p q),
        (n!"mulntt_ct_std2rev_naive", fun a n p => Naive.mulntt_ct_std2rev a n p q),
        (n!"ntt_gs_rev2std_naive", fun a n p => Naive.ntt_gs_rev2std a n p q),
        (n!"nttmul_gs_rev2std_naive", fun a n p => Naive.nttmul_gs_rev2std a n p q),
        (n!"ntt_gs_std2rev_naive", fun a n p => Naive.ntt_gs_std2rev a n p q),
        (n!"nttmul_gs_std2rev_naive", fun a n p => Naive.nttmul_gs_std2rev a n p q)] : List (Name × (Array Int → Nat → Array Int → M (Array Int)))),
      DoesTable P [.int .i32 q] .u16 z.1 z.2) ∧
    DoesArrays P [.int .i32 q] n!"mul_array_naive" (fun c n a b => Naive.mul_array c n a b q) ∧
    DoesScalar P [.int .i32 q] n!"scalar_mul_array_naive" (fun a n c => Naive.scalar_mul_array a n c q) := by
  have hP : Has (Src.naive_ntt ++ []) Src.naive_ntt := Has.of_all (by decide +kernel)
  refine ⟨Src.naive_ntt ++ [], by simp only [readAll, Src.naive_ntt_read]; rfl, doesArray_shuffle ?_, doesPairs_shuffle ?_, fun q hq hq' => ?_⟩
  · rw [← naive_bitrev_shuffle]; exact hP _ _ (by rfl)
  · rw [← naive_shuffle_with_table]; exact hP _ _ (by rfl)
  have h32 : I32 q := ⟨by omega, hq'⟩
  refine ⟨?_, ?_, ?_⟩
  · intro z hz
    simp only [List.mem_cons, List.not_mem_nil, or_false] at hz
    rcases hz with rfl | rfl | rfl | rfl | rfl | rfl | rfl | rfl | rfl
    · exact fun _ _ _ _ _ _ _ _ hn hm ha hop hmp hp h => sets_of (NaiveTr.mul_array16_calls hq h32 hP hn hm (wf_all ha) hop hmp (by simp) (wf_all hp) h)
    · exact fun _ _ _ _ _ _ _ _ hn hm ha hop hmp hp h => sets_of (NaiveTr.ntt_ct_rev2std_calls hq h32 hP hn hm (wf_all ha) hop hmp (wf_all hp) h)
    · exact fun _ _ _ _ _ _ _ _ hn hm ha hop hmp hp h => sets_of (NaiveTr.mulntt_ct_rev2std_calls hq h32 hP hn hm (wf_all ha) hop hmp (wf_all hp) h)
    · exact fun _ _ _ _ _ _ _ _ hn hm ha hop hmp hp h => sets_of (NaiveTr.ntt_ct_std2rev_calls hq h32 hP hn hm (wf_all ha) hop hmp (wf_all hp) h)
    · exact fun _ _ _ _ _ _ _ _ hn hm ha hop hmp hp h => sets_of (NaiveTr.mulntt_ct_std2rev_calls hq h32 hP hn hm (wf_all ha) hop hmp (wf_all hp) h)
    · exact fun _ _ _ _ _ _ _ _ hn hm ha hop hmp hp h => sets_of (NaiveTr.ntt_gs_rev2std_calls hq h32 hP hn hm (wf_all ha) hop hmp (wf_all hp) h)
    · exact fun _ _ _ _ _ _ _ _ hn hm ha hop hmp hp h => sets_of (NaiveTr.nttmul_gs_rev2std_calls hq h32 hP hn hm (wf_all ha) hop hmp (wf_all hp) h)
    · exact fun _ _ _ _ _ _ _ _ hn hm ha hop hmp hp h => sets_of (NaiveTr.ntt_gs_std2rev_calls hq h32 hP hn hm (wf_all ha) hop hmp (wf_all hp) h)
    · exact fun _ _ _ _ _ _ _ _ hn hm ha hop hmp hp h => sets_of (NaiveTr.nttmul_gs_std2rev_calls hq h32 hP hn hm (wf_all ha) hop hmp (wf_all hp) h)
  · exact fun _ _ _ _ _ _ _ _ _ _ hn hm hc hoa hma ha hob hmb hb h =>
      sets_of (NaiveTr.mul_array_calls hq h32 hP hn hm (wf_all hc) hoa hma (wf_all ha) hob hmb (wf_all hb) h)
  · exact fun _ _ _ _ _ _ _ hn hm ha c1 c2 h => sets_of (NaiveTr.scalar_mul_array_calls hq h32 hP hn hm (wf_all ha) ⟨c1, c2⟩ h)

/-- `bitrev_shuffle` of src/ntt.c and of src/naive_ntt.c, as written there, moves to position `i` of an array of `2^k` elements the element at
the bit-reversed index, and changes nothing else. -/
theorem C82_bitrev : ∀ text ∈ [Src.ntt_text, Src.naive_ntt_text], ∃ P, readAll [text] = some P ∧
    ∀ (G : Name → Option Cell) (mem : Nat → Obj) (o k : Nat) (a : Array Int), k ≤ 31 → mem o = ⟨.i32, a⟩ → a.size = 2 ^ k → AllI32 a →
      ∃ a', Sets P G n!"bitrev_shuffle" [.ptr o 0 1, .int .u32 (2 ^ k : Nat)] mem o a' ∧ a'.size = 2 ^ k ∧
        ∀ i, i < 2 ^ k → a'[i]? = a[rev k i]? := by
  have key : ∀ P, DoesArray P n!"bitrev_shuffle" Ntt.bitrev_shuffle →
      ∀ (G : Name → Option Cell) (mem : Nat → Obj) (o k : Nat) (a : Array Int), k ≤ 31 → mem o = ⟨.i32, a⟩ → a.size = 2 ^ k → AllI32 a →
      ∃ a', Sets P G n!"bitrev_shuffle" [.ptr o 0 1, .int .u32 (2 ^ k : Nat)] mem o a' ∧ a'.size = 2 ^ k ∧
        ∀ i, i < 2 ^ k → a'[i]? = a[rev k i]? := by
    intro P hP G mem o k a hk hm hs ha
    obtain ⟨a', e, s, v⟩ := C02_bitrev_shuffle k hk a hs
    exact ⟨a', hP G mem o _ a a' (Nat.pow_lt_pow_right (by decide) (by omega)) hm ha e, s, v⟩
  intro text ht
  simp only [List.mem_cons, List.not_mem_nil, or_false] at ht
  rcases ht with rfl | rfl
  · obtain ⟨P, h1, h2, _⟩ := C82_ntt_c
    exact ⟨P, h1, key P h2⟩
  · obtain ⟨P, h1, h2, _⟩ := C82_naive_ntt_c
    exact ⟨P, h1, key P h2⟩

/-- A memory and an array that meet the hypotheses. -/
example : ∃ (mem : Nat → Obj) (a d : Array Int) (p : Array (Nat × Nat)), mem 0 = ⟨.i32, a⟩ ∧ a.size = 2 ^ 2 ∧ AllI32 a ∧ mem 1 = ⟨.u16, d⟩ ∧ Pairs d p ∧
    Ntt.shuffle_with_table a p 1 = .ok #[5, -7, 6, 9] ∧ Ntt.bitrev_shuffle a 4 = .ok #[5, -7, 6, 9] := by
  refine ⟨fun o => if o = 0 then ⟨.i32, #[5, 6, -7, 9]⟩ else ⟨.u16, #[1, 2]⟩, #[5, 6, -7, 9], #[1, 2], #[(1, 2)], rfl, rfl, ?_, rfl, ?_, by decide, by decide⟩
  · unfold AllI32 InRange
    decide
  intro i x hx
  match i with
  | 0 => cases hx; decide
  | i + 1 => simp at hx

end Props
