import Verif.Proofs.CSort
import Verif.Proofs.CGenInv
import Verif.Proofs.CGenRed
import Verif.Proofs.CGenTab
import Verif.Proofs.CGenTabRed
import Verif.Proofs.MakeTables
import Verif.Proofs.MakeBitrev
import Verif.Props.Sort

/-
C84: the text of src/make_tables.c, src/make_red_tables.c and src/make_bitrev_table.c.
C85: the text of src/sort.c.

Specification: Verif/SpecSource.lean, Verif/SpecSourceGen.lean.
-/

namespace Props
open C Spec Tables NTT CLang

theorem finds_of {P : Prog} {g : Name} {vs : List Val} {p : Nat → Prop} {r : Option Nat}
    (h : ∀ G mem o a, mem o = nats .u32 a → 0 < a.size → Returns P G g (vs ++ [.ptr o 0 1]) mem (.int .bool (if r.isSome then 1 else 0))
      (r.elim mem fun k => setMem mem o (nats .u32 (a.setIfInBounds 0 k))))
    (hr : (∃ y, r = some y ∧ p y) ∨ r = none ∧ ∀ y, ¬ p y) : Finds P g vs p := by
  intro G mem o z hm
  have := h G mem o #[z] hm (by simp)
  rcases hr with ⟨y, rfl, hy⟩ | ⟨rfl, hy⟩
  · exact Or.inl ⟨y, hy, this⟩
  · exact Or.inr ⟨hy, this⟩

theorem inverse_spec {x q : Nat} (hx : 1 ≤ x) (hq : 2 ≤ q) (hxq : x * q < 2147483648) :
    ∃ r, inverse x q = .ok r ∧ ((∃ y, r = some y ∧ y < q ∧ x * y % q = 1) ∨ r = none ∧ ∀ y, ¬ (y < q ∧ x * y % q = 1)) := by
  obtain ⟨r, e, h⟩ := wp_total.1 (wp_inverse (E := NoErr) hx hq hxq)
  refine ⟨r, e, ?_⟩
  rcases h with ⟨_, y, hy, rfl, hxy⟩ | ⟨hg, rfl⟩
  · exact Or.inl ⟨y, rfl, hy, hxy⟩
  · refine Or.inr ⟨rfl, fun y hy => hg ?_⟩
    have hd : Nat.gcd x q ∣ x * y % q := (Nat.dvd_mod_iff (Nat.gcd_dvd_right x q)).2 (Dvd.dvd.mul_right (Nat.gcd_dvd_left x q) y)
    rw [hy.2] at hd
    exact Nat.dvd_one.1 hd

theorem helpers_of {P : Prog} (h1 : P.lookup n!"power" = some Src.make_tables.power) (h2 : P.lookup n!"inverse" = some Src.make_tables.inverse)
    (h3 : P.lookup n!"logtwo" = some Src.make_tables.logtwo) (h4 : P.lookup n!"reverse" = some Src.make_tables.reverse)
    (h5 : P.lookup n!"is_primitive_root" = some Src.make_tables.is_primitive_root)
    (h6 : P.lookup n!"build_power_table" = some Src.make_tables.build_power_table) : Helpers P := by
  constructor
  · exact fun x k q t hx hk hq hq' G mem => Gen.power_returns h1 (by omega) hk (by omega) (power_eq hq hq' hx hk)
  · intro x q t hx hq hxq
    have hx31 : x < 2147483648 := Nat.lt_of_le_of_lt (Nat.le_mul_of_pos_right x (by omega)) hxq
    have hq31 : q < 2147483648 := Nat.lt_of_le_of_lt (Nat.le_mul_of_pos_left q (by omega)) hxq
    obtain ⟨r, e, hr⟩ := inverse_spec hx hq hxq
    exact finds_of (fun G mem o a hm ha => Gen.inverse_returns h2 (by omega) hq31 hm ha e) hr
  · intro n t h0 hn
    obtain ⟨r, e, hr⟩ := wp_total.1 (wp_logtwo (E := NoErr) h0 hn)
    refine finds_of (fun G mem o a hm ha => Gen.logtwo_returns h3 hn hm ha e) ?_
    rcases hr with ⟨k, h, rfl⟩ | ⟨h, rfl⟩
    · exact Or.inl ⟨k, rfl, h⟩
    · exact Or.inr ⟨rfl, h⟩
  · exact fun i k t hi hk G mem => Gen.reverse_returns h4 hi (by omega) (reverse_eq hk)
  · intro x n q t hx h1n hn hq hq' G mem
    obtain ⟨b, e, hb⟩ := wp_total.1 (wp_is_primitive_root (E := NoErr) (x := x) hn h1n hq hq' hx)
    have := Gen.is_primitive_root_returns (P := P) (G := G) (mem := mem) (t1 := t) (t2 := t) (t3 := t) h1 h5 (by omega) hn (by omega) e
    refine ⟨fun hp => ?_, fun hp => ?_⟩
    · rw [hb.2 hp] at this
      exact this
    · rw [← hb, Bool.not_eq_true] at hp
      rw [hp] at this
      exact this
  · intro n q x y t hn hq hq' hx hy G mem o a hm ha
    obtain ⟨a', e, hs, hv⟩ := wp_total.1 (wp_build_power_table (E := NoErr) hn ha hq hq' hx hy)
    refine ⟨a', hs, fun i v hi => ?_, Gen.build_power_table_calls h6 hm hn (by omega) (by omega) (by omega) e⟩
    obtain ⟨hi', _⟩ := Array.getElem?_eq_some_iff.1 hi
    rw [hv i (by omega)] at hi
    exact (Option.some.inj hi).symm

theorem ex_eq (k m : Nat) : ex k m = 2 ^ k / 2 ^ (m + 1) := by
  rw [ex, pow_succ, mul_comm]

theorem isTable_of {k q x y s : Nat} {r : Array Nat} {f : Nat → Nat → Nat} (hs : r.size = 2 ^ k) (h0 : r[0]? = some 0)
    (hr : ∀ m j, m < k → j < 2 ^ m → r[2 ^ m + j]? = some (T k q x y s m (f m j))) (i v : Nat) (hv : r[i]? = some v) :
    (i = 0 → v = 0) ∧ ∀ m j, i = 2 ^ m + j → j < 2 ^ m → v = s * x ^ (2 ^ k / 2 ^ (m + 1)) * (y ^ (2 ^ k / 2 ^ (m + 1))) ^ f m j % q := by
  obtain ⟨hi, _⟩ := Array.getElem?_eq_some_iff.1 hv
  constructor
  · rintro rfl
    rw [h0] at hv
    exact (Option.some.inj hv).symm
  · rintro m j rfl hj
    have hm : m < k := by
      by_contra hmk
      have := Nat.pow_le_pow_right (show 0 < 2 by decide) (Nat.le_of_not_lt hmk)
      omega
    rw [hr m j hm hj] at hv
    rw [T, ex_eq] at hv
    exact (Option.some.inj hv).symm

theorem size_lt32 {k : Nat} (h : k ≤ 31) : 2 ^ k < 4294967296 :=
  Nat.lt_of_le_of_lt (Nat.pow_le_pow_right (by decide) h) (by decide)

/-- The functions of src/make_tables.c, as written there. -/
theorem C84_make_tables : ∃ P, readSome Src.make_tables_text = P ∧ Helpers P ∧
    (∀ k q x y t, k ≤ 31 → 2 ≤ q → q ≤ 65536 → x < 65536 → y < 65536 →
      Fills P n!"build_table" (2 ^ k) [.int t (2 ^ k : Nat), .int t (q : Nat), .int t (x : Nat), .int t (y : Nat)] (IsTable k q x y 1) ∧
      Fills P n!"build_rev_table" (2 ^ k) [.int t (2 ^ k : Nat), .int t (q : Nat), .int t (x : Nat), .int t (y : Nat)] (IsRevTable k q x y 1)) := by
  refine ⟨Src.make_tables, Src.make_tables_read, helpers_of rfl rfl rfl rfl rfl rfl, fun k q x y t hk hq hq' hx hy => ⟨?_, ?_⟩⟩
  · intro G mem o a hm ha
    obtain ⟨a', e, hs, h0, hv⟩ := wp_total.1 (wp_build_table (E := NoErr) (ik := none) hk ha hq hq' hx hy (by simp))
    exact ⟨a', hs, isTable_of (f := fun _ j => j) hs h0 hv, Gen.build_table_calls rfl rfl hm (size_lt32 hk) (by omega) (by omega) (by omega) e⟩
  · intro G mem o a hm ha
    obtain ⟨a', e, hs, h0, hv⟩ := wp_total.1 (wp_build_rev_table (E := NoErr) (ik := none) hk ha hq hq' hx hy (by simp))
    exact ⟨a', hs, isTable_of (f := rev) hs h0 hv, Gen.build_rev_table_calls rfl rfl rfl hm (size_lt32 hk) (by omega) (by omega) (by omega) e⟩

theorem find_k_spec {q : Nat} (h2 : 2 ≤ q) (h32 : q < 4294967296) : ∃ k, find_k q = .ok k ∧ k % 2 = 1 ∧ ∃ m, q = k * 2 ^ m + 1 := by
  refine wp_total.1 ?_
  unfold find_k
  refine wp_cwhile (fun x => 0 < x ∧ x < 4294967296 ∧ ∃ m, q = x * 2 ^ m + 1) (fun x => Nat.log2 x + 1) ?_ ?_ _ _ ?_ ?_
  · rintro x ⟨h0, hl, m, hm⟩ hc
    simp only [decide_eq_true_eq, Nat.and_one_is_mod] at hc
    refine wp_pure.2 ⟨⟨by omega, by omega, m + 1, ?_⟩, ?_⟩
    · rw [hm, pow_succ, mul_comm (2 ^ m), ← mul_assoc, Nat.div_mul_cancel (Nat.dvd_of_mod_eq_zero hc)]
    · have hx : 2 ≤ x := by omega
      have h3 : Nat.log2 x = Nat.log2 (x / 2) + 1 := by
        rw [Nat.log2_def, if_pos hx]
      omega
  · rintro x ⟨h0, hl, hm⟩ hc
    simp only [decide_eq_false_iff_not, Nat.and_one_is_mod] at hc
    exact ⟨by omega, hm⟩
  · have : Nat.log2 (q - 1) < 32 := (Nat.log2_lt (by omega)).2 (by omega)
    omega
  · exact ⟨by omega, by omega, 0, by omega⟩

theorem rescale_spec {e i k q : Nat} (he : e < 4294967296) (hq : 2 ≤ q) (hq' : q ≤ 65536) (hi : i < 65536) (hk : k < 65536) :
    rescale_factor e i k q = .ok (k ^ e * i % q) := by
  have hs : k ^ e % q < q := Nat.mod_lt _ (by omega)
  unfold rescale_factor
  rw [power_eq hq hq' hk he]
  show urem (u32 (k ^ e % q * i)) q = _
  rw [u32_mul (by omega) hi]
  unfold urem
  rw [if_neg (by omega), Nat.mod_mul_mod]

theorem shift_spec {x q : Nat} (hx : x < q) (hq : q < 2147483648) : Tables.shift x q = .ok (if x ≤ q / 2 then (x : Int) else (x : Int) - q) := by
  unfold Tables.shift
  rw [decide_eq_true hx]
  show Except.ok (if x ≤ q / 2 then (x : Int) else toI32 ((x : Int) - q)) = _
  rw [show toI32 ((x : Int) - q) = (x : Int) - q by unfold toI32; omega]

/-- The functions of src/make_red_tables.c, as written there: those of src/make_tables.c; the odd `k` with q = k*2^m + 1; the scaling factors;
tables that are multiplied by the inverse of `k`; the representation of a number modulo `q` between -q/2 and q/2. -/
theorem C84_make_red_tables : ∃ P, readSome Src.make_red_tables_text = P ∧ Helpers P ∧
    (∀ q t, 2 ≤ q → q < 4294967296 → ∃ k m, k % 2 = 1 ∧ q = k * 2 ^ m + 1 ∧ Computes P n!"find_k" [.int t (q : Nat)] .u32 (k : Nat)) ∧
    (∀ i k q t, 2 ≤ q → q ≤ 65536 → i < 65536 → k < 65536 →
      Computes P n!"rescale_factor8" [.int t (i : Nat), .int t (k : Nat), .int t (q : Nat)] .u32 (k ^ 8 * i % q : Nat) ∧
      Computes P n!"rescale_factor6" [.int t (i : Nat), .int t (k : Nat), .int t (q : Nat)] .u32 (k ^ 6 * i % q : Nat)) ∧
    (∀ k q x y s t, k ≤ 31 → 2 ≤ q → q ≤ 65536 → x < 65536 → y < 65536 → s < 65536 →
      Fills P n!"build_table" (2 ^ k) [.int t (2 ^ k : Nat), .int t (q : Nat), .int t (x : Nat), .int t (y : Nat), .int t (s : Nat)] (IsTable k q x y s) ∧
      Fills P n!"build_rev_table" (2 ^ k) [.int t (2 ^ k : Nat), .int t (q : Nat), .int t (x : Nat), .int t (y : Nat), .int t (s : Nat)]
        (IsRevTable k q x y s)) ∧
    (∀ x q t, x < q → q < 2147483648 →
      Computes P n!"shift" [.int t (x : Nat), .int t (q : Nat)] .i32 (if x ≤ q / 2 then (x : Int) else (x : Int) - q)) := by
  have hp : Src.make_red_tables.lookup n!"power" = some Src.make_tables.power := congrArg some GenRed.power_same
  have hr : Src.make_red_tables.lookup n!"reverse" = some Src.make_tables.reverse := congrArg some GenRed.reverse_same
  refine ⟨Src.make_red_tables, Src.make_red_tables_read, helpers_of hp (congrArg some GenRed.inverse_same) (congrArg some GenRed.logtwo_same) hr
    (congrArg some GenRed.is_primitive_root_same) (congrArg some GenRed.build_power_table_same), ?_, ?_, fun k q x y s t hk hq hq' hx hy hs => ⟨?_, ?_⟩, ?_⟩
  · intro q t h2 h32
    obtain ⟨k, e, hk, m, hm⟩ := find_k_spec h2 h32
    exact ⟨k, m, hk, hm, fun G mem => GenRed.find_k_returns rfl h32 (by omega) e⟩
  · exact fun i k q t hq hq' hi hk => ⟨fun G mem => GenRed.rescale8_returns hp rfl (by omega) (by omega) (by omega) (rescale_spec (by decide) hq hq' hi hk),
      fun G mem => GenRed.rescale6_returns hp rfl (by omega) (by omega) (by omega) (rescale_spec (by decide) hq hq' hi hk)⟩
  · intro G mem o a hm ha
    obtain ⟨a', e, hs', h0, hv⟩ := wp_total.1 (wp_build_table (E := NoErr) (ik := some s) hk ha hq hq' hx hy (fun _ h => Option.some.inj h ▸ hs))
    exact ⟨a', hs', isTable_of (f := fun _ j => j) hs' h0 hv,
      GenRed.build_table_calls hp rfl hm (size_lt32 hk) (by omega) (by omega) (by omega) (by omega) e⟩
  · intro G mem o a hm ha
    obtain ⟨a', e, hs', h0, hv⟩ := wp_total.1 (wp_build_rev_table (E := NoErr) (ik := some s) hk ha hq hq' hx hy (fun _ h => Option.some.inj h ▸ hs))
    exact ⟨a', hs', isTable_of (f := rev) hs' h0 hv,
      GenRed.build_rev_table_calls hp hr rfl hm (size_lt32 hk) (by omega) (by omega) (by omega) (by omega) e⟩
  · exact fun x q t hx hq G mem => GenRed.shift_returns rfl (by omega) (by omega) (shift_spec hx hq)

theorem cnt_eq (k i : Nat) : cnt k i = ((List.range i).filter fun j => decide (j < rev k j)).length := by
  induction i with
  | zero => rfl
  | succ i ih =>
    rw [cnt, ih, List.range_succ, List.filter_append, List.length_append]
    congr 1
    by_cases h : i < rev k i
    · simp [h]
    · simp [h]

/-- The functions of src/make_bitrev_table.c, as written there; `rev_table_npairs(n, k)` is the number of pairs of distinct indices below
n = 2^k that are the reverse of each other. -/
theorem C84_make_bitrev_table : ∃ P, readSome Src.make_bitrev_table_text = P ∧
    (∀ n t, 0 < n → n < 4294967296 → Finds P n!"logtwo" [.int t (n : Nat)] fun k => n = 2 ^ k) ∧
    (∀ i k t, i < 4294967296 → k ≤ 32 → Computes P n!"reverse" [.int t (i : Nat), .int t (k : Nat)] .u32 (rev k i : Nat)) ∧
    ∀ k t, k ≤ 31 → Computes P n!"rev_table_npairs" [.int t (2 ^ k : Nat), .int t (k : Nat)] .u32
      (((List.range (2 ^ k)).filter fun i => decide (i < rev k i)).length : Nat) := by
  have hl : Src.make_bitrev_table.lookup n!"logtwo" = some Src.make_tables.logtwo := congrArg some GenRed.logtwo_same'
  have hr : Src.make_bitrev_table.lookup n!"reverse" = some Src.make_tables.reverse := congrArg some GenRed.reverse_same'
  refine ⟨Src.make_bitrev_table, Src.make_bitrev_table_read, ?_, ?_, ?_⟩
  · intro n t h0 hn
    obtain ⟨r, e, hr⟩ := wp_total.1 (wp_logtwo (E := NoErr) h0 hn)
    refine finds_of (fun G mem o a hm ha => Gen.logtwo_returns hl hn hm ha e) ?_
    rcases hr with ⟨k, h, rfl⟩ | ⟨h, rfl⟩
    · exact Or.inl ⟨k, rfl, h⟩
    · exact Or.inr ⟨rfl, h⟩
  · exact fun i k t hi hk G mem => Gen.reverse_returns hr hi (by omega) (reverse_eq hk)
  · intro k t hk G mem
    rw [← cnt_eq]
    exact GenRed.npairs_returns hr rfl (size_lt32 hk) (by omega) (total_eq (wp_npairs hk))

/-- A memory with one object. -/
def oneObj (d : Obj) : Nat → Obj := fun _ => d

/-- The hypotheses are met: the parameters of the library, an array of 1024 elements, one number. -/
example : (1014 : Nat) < 65536 ∧ (2 : Nat) ≤ 12289 ∧ (12289 : Nat) ≤ 65536 ∧ 1024 * 12289 < 2147483648 ∧ (10 : Nat) ≤ 31 := by decide
example (a : Array Nat) : oneObj (nats .u32 a) 7 = nats .u32 a := rfl

/-- The text executed: 1014^1024 modulo 12289 is -1; 1014 is not a primitive root of order 1024; the inverse of 1024; a table. -/
example : (callValue Src.make_tables (fun _ => none) 4000 n!"power" [.int .u32 1014, .int .u32 1024, .int .u32 12289] (oneObj (nats .u32 #[]))).map
    Prod.fst = .ok (.int .u32 12288) := by decide +kernel
example : (callValue Src.make_tables (fun _ => none) 4000 n!"inverse" [.int .u32 1024, .int .u32 12289, .ptr 7 0 1] (oneObj (nats .u32 #[55]))).map
    (fun r => (r.1, (r.2 7).data)) = .ok (.int .bool 1, #[12277]) := by decide +kernel
example : (call Src.make_red_tables (fun _ => none) 4000 n!"build_rev_table"
    [.ptr 0 0 1, .int .u32 8, .int .u32 12289, .int .u32 1, .int .u32 7143, .int .u32 8193] (oneObj (nats .u32 (Array.replicate 8 1)))).map
    (fun r => (r 0).data) = .ok #[0, 8193, 8193, 11796, 8193, 11796, 2381, 5444] := by decide +kernel

/-- The text of src/sort.c, executed on any array of `uint64_t` and any `n` up to its size: it terminates without access out of bounds; then the
first `n` elements are in increasing order and a permutation of the first `n` elements of `a`, the others and all other objects are unchanged. -/
theorem C85_sort : ∃ P, readSome Src.sort_text = P ∧
    ∀ G mem o a n t, mem o = nats .u64 a → (∀ i v : Nat, a[i]? = some v → v < 18446744073709551616) → n ≤ a.size → n < 4294967296 →
      ∃ a', Calls P G n!"sort" [.ptr o 0 1, .int t (n : Nat)] mem (setMem mem o (nats .u64 a')) ∧ a'.size = a.size ∧
        (∀ i j x y : Nat, i ≤ j → j < n → a'[i]? = some x → a'[j]? = some y → x ≤ y) ∧
        (a'.toList.take n).Perm (a.toList.take n) ∧
        (∀ i : Nat, n ≤ i → a'[i]? = a[i]?) := by
  refine ⟨Src.sort, Src.sort_read, fun G mem o a n t hm ha hn h32 => ?_⟩
  obtain ⟨a', e, h⟩ := C40_sort a n hn h32
  refine ⟨a', SortC.sort_calls (sz := a.size) rfl rfl rfl rfl ⟨rfl, fun i v h => ha i v ?_⟩ h32 hm e, h⟩
  unfold rd at h
  split at h
  · next hx => cases h; exact hx
  · simp at h

/-- The text executed. -/
example : (call Src.sort (fun _ => none) 4000 n!"sort" [.ptr 0 0 1, .int .u32 14]
    (oneObj (nats .u64 #[5, 3, 9, 1, 1, 0, 22, 7, 7, 3, 4, 18, 2, 18446744073709551615, 6]))).map (fun r => (r 0).data)
    = .ok #[0, 1, 1, 2, 3, 3, 4, 5, 7, 7, 9, 18, 22, 18446744073709551615, 6] := by decide +kernel

end Props
