import Verif.Model.TestTables
import Verif.Proofs.KatData
import Verif.Proofs.Params
import Verif.Proofs.MakeBitrev

/-
The checked-in test tables: the kernel checks every entry against its neighbour (one modular multiplication per entry),
and these lemmas turn the checks into the specifications of `Verif/Spec.lean`.
-/

namespace TestTables
open Spec
open Kat (dig allBelow allBelow_iff)

/-- Residue of entry `i` of the table packed in `x`; entries from 32768 on stand for negative numbers. -/
def resid (x i : Nat) : Nat :=
  Nat.mod (bif Nat.blt (dig 16 x i) 32768 then dig 16 x i else dig 16 x i + 8198) 12289

/-- Entries `i`, `i + 1`, ..., times `κ`, are `v`, `v * s`, `v * s^2`, ... -/
def geo (x κ s : Nat) : Nat → Nat → Nat → Bool
  | 0, _, _ => true
  | f + 1, i, v => Nat.beq (Nat.mod (κ * resid x i) 12289) v && geo x κ s f (i + 1) (Nat.mod (v * s) 12289)

/-- `c^(2^i)` modulo `Q`. -/
def sq (c : Nat) : Nat → Nat
  | 0 => Nat.mod c 12289
  | i + 1 => Nat.mod (sq c i * sq c i) 12289

def stdCheck (x κ c s k : Nat) : Bool :=
  allBelow (fun m => geo x κ (sq s (k - 1 - m)) (2 ^ m) (2 ^ m) (sq c (k - 1 - m))) k

/-- `rev`, in a form the kernel evaluates quickly. -/
def revN (m : Nat) : Nat → Nat :=
  Nat.rec (fun _ => 0) (fun m ih i => Nat.add (Nat.mul (Nat.mod i 2) (Nat.pow 2 m)) (ih (Nat.div i 2))) m

theorem revN_eq : ∀ m i, revN m i = rev m i
  | 0, _ => rfl
  | m + 1, i => congrArg ((i % 2) * 2 ^ m + ·) (revN_eq m (i / 2))

/-- Block by block, the entries of `x` are those of `y` in bit-reverse order. -/
def revCheck (x y k : Nat) : Bool :=
  allBelow (fun m => allBelow (fun j => Nat.beq (resid x (Nat.add (Nat.pow 2 m) j))
    (resid y (Nat.add (Nat.pow 2 m) (revN m j)))) (2 ^ m)) k

def rangeU (x n : Nat) : Bool := allBelow (fun i => Nat.ble (dig 16 x i) 12288) n
def rangeS (x n : Nat) : Bool := allBelow (fun i => Nat.ble (dig 16 x i) 6144 || Nat.ble 59392 (dig 16 x i)) n

theorem dig_eq (x i : Nat) : (x >>> (16 * i)) % 65536 = dig 16 x i := rfl

theorem elt_u16 {n x i : Nat} (h : i < n) : elt (u16 n x) i = (dig 16 x i : Int) := by
  unfold elt u16
  rw [Array.getD_eq_getD_getElem?, Array.getElem?_ofFn, dif_pos h]
  rfl

theorem elt_s16 {n x i : Nat} (h : i < n) :
    elt (s16 n x) i = if dig 16 x i < 32768 then (dig 16 x i : Int) else (dig 16 x i : Int) - 65536 := by
  unfold elt s16
  rw [Array.getD_eq_getD_getElem?, Array.getElem?_ofFn, dif_pos h]
  rfl

theorem modq_cast (a : Nat) : ((Nat.mod a 12289 : Nat) : Zq) = (a : Zq) := by
  show ((a % 12289 : Nat) : Zq) = _
  simp

theorem resid_small {x i : Nat} (h : dig 16 x i < 32768) : (resid x i : Zq) = (dig 16 x i : Zq) := by
  unfold resid
  rw [modq_cast]
  have : Nat.blt (dig 16 x i) 32768 = true := by rw [Nat.blt_eq]; exact h
  rw [this]; rfl

theorem coeff_s16 {n x i : Nat} (h : i < n) : coeff (s16 n x) i = (resid x i : Zq) := by
  unfold coeff
  rw [elt_s16 h]
  split
  · next h1 => rw [resid_small h1]; push_cast; rfl
  · next h1 =>
    unfold resid
    have : Nat.blt (dig 16 x i) 32768 = false := by
      rw [Bool.eq_false_iff, Ne, Nat.blt_eq]; exact h1
    rw [modq_cast, this]
    show (((dig 16 x i : Int) - 65536 : Int) : Zq) = ((dig 16 x i + 8198 : Nat) : Zq)
    push_cast
    have : (-65536 : Zq) = 8198 := by decide +kernel
    rw [sub_eq_add_neg, this]

theorem geo_spec {x κ s : Nat} : ∀ {f i v : Nat}, geo x κ s f i v = true →
    ∀ j, j < f → (κ : Zq) * (resid x (i + j) : Zq) = (v : Zq) * (s : Zq) ^ j
  | 0, _, _, _, j, hj => absurd hj (Nat.not_lt_zero _)
  | f + 1, i, v, h, j, hj => by
    unfold geo at h
    rw [Bool.and_eq_true] at h
    have h1 := Nat.eq_of_beq_eq_true h.1
    cases j with
    | zero =>
      rw [pow_zero, mul_one, Nat.add_zero, ← h1, modq_cast]; push_cast; rfl
    | succ j =>
      have := geo_spec h.2 j (by omega)
      rw [show i + (j + 1) = i + 1 + j by omega, this, modq_cast]
      push_cast
      ring

theorem sq_cast (c : Nat) : ∀ i, (sq c i : Zq) = (c : Zq) ^ 2 ^ i
  | 0 => by rw [sq, modq_cast, pow_zero, pow_one]
  | i + 1 => by
    rw [sq, modq_cast]; push_cast
    rw [sq_cast c i, pow_succ, pow_mul]
    exact (pow_two _).symm

theorem half_pow {k m : Nat} (h : m < k) : 2 ^ k / (2 * 2 ^ m) = 2 ^ (k - 1 - m) := by
  rw [show k = (k - 1 - m) + (m + 1) by omega, pow_add, ← pow_succ']
  rw [Nat.mul_div_cancel _ (by positivity)]
  congr 1; omega

/-- What the checks say, with the entries as residues. -/
theorem std_resid {x κ c s k : Nat} (h : stdCheck x κ c s k = true) {m j : Nat} (hm : m < k) (hj : j < 2 ^ m) :
    (κ : Zq) * (resid x (2 ^ m + j) : Zq) =
      (c : Zq) ^ (2 ^ k / (2 * 2 ^ m)) * ((s : Zq) ^ (2 ^ k / (2 * 2 ^ m))) ^ j := by
  have := geo_spec (allBelow_iff.1 h m hm) j hj
  rw [this, sq_cast, sq_cast, half_pow hm]

theorem rev_resid {x y κ c s k : Nat} (h : stdCheck y κ c s k = true) (h' : revCheck x y k = true) {m j : Nat}
    (hm : m < k) (hj : j < 2 ^ m) :
    (κ : Zq) * (resid x (2 ^ m + j) : Zq) =
      (c : Zq) ^ (2 ^ k / (2 * 2 ^ m)) * ((s : Zq) ^ (2 ^ k / (2 * 2 ^ m))) ^ rev m j := by
  have e : resid x (2 ^ m + j) = resid y (2 ^ m + revN m j) :=
    Nat.eq_of_beq_eq_true (allBelow_iff.1 (allBelow_iff.1 h' m hm) j hj)
  rw [e, revN_eq]
  exact std_resid h hm (rev_lt m j)

theorem in_block {k m j : Nat} (hm : m < k) (hj : j < 2 ^ m) : 2 ^ m + j < 2 ^ k := by
  have : 2 ^ (m + 1) ≤ 2 ^ k := Nat.pow_le_pow_right (by omega) hm
  rw [pow_succ] at this; omega

/-- A table with entries in a range `[lo, hi]`, as 16-bit integers, and the residues packed in `x`. -/
structure Packed (lo hi : Int) (n x : Nat) (p : Array Int) : Prop where
  size : p.size = n
  range : ∀ i, i < n → lo ≤ elt p i ∧ elt p i ≤ hi
  coeff : ∀ i, i < n → coeff p i = (resid x i : Zq)

theorem packed_u {n x : Nat} (h : rangeU x n = true) : Packed 0 12288 n x (u16 n x) where
  size := by simp [u16]
  range := fun i hi => by
    have := Nat.le_of_ble_eq_true (allBelow_iff.1 h i hi)
    rw [elt_u16 hi]; omega
  coeff := fun i hi => by
    have := Nat.le_of_ble_eq_true (allBelow_iff.1 h i hi)
    unfold Spec.coeff
    rw [elt_u16 hi, resid_small (by omega)]; push_cast; rfl

theorem packed_su {n x : Nat} (h : rangeU x n = true) : Packed 0 12288 n x (s16 n x) where
  size := by simp [s16]
  range := fun i hi => by
    have := Nat.le_of_ble_eq_true (allBelow_iff.1 h i hi)
    rw [elt_s16 hi, if_pos (by omega)]; omega
  coeff := fun i hi => coeff_s16 hi

theorem dig_lt (x i : Nat) : dig 16 x i < 65536 := Nat.mod_lt _ (by norm_num)

theorem packed_s {n x : Nat} (h : rangeS x n = true) : Packed (-6144) 6144 n x (s16 n x) where
  size := by simp [s16]
  range := fun i hi => by
    have := allBelow_iff.1 h i hi
    rw [Bool.or_eq_true] at this
    have hl := dig_lt x i
    rw [elt_s16 hi]
    rcases this with h | h
    · have := Nat.le_of_ble_eq_true h
      rw [if_pos (by omega)]; omega
    · have := Nat.le_of_ble_eq_true h
      rw [if_neg (by omega)]; omega
  coeff := fun i hi => coeff_s16 hi

variable {lo hi : Int} {k x y κ c s : Nat} {p : Array Int}

theorem std_table (hp : Packed lo hi (2 ^ k) x p) (h : stdCheck x κ c s k = true) :
    StdTable κ c s lo hi k p := by
  refine ⟨hp.size.ge, fun m j hm hj => ⟨hp.range _ (in_block hm hj), ?_⟩⟩
  rw [hp.coeff _ (in_block hm hj)]
  exact std_resid h hm hj

theorem rev_table (hp : Packed lo hi (2 ^ k) x p) (h : stdCheck y κ c s k = true) (h' : revCheck x y k = true) :
    RevTable κ c s lo hi k p := by
  refine ⟨hp.size.ge, fun m j hm hj => ⟨hp.range _ (in_block hm hj), ?_⟩⟩
  rw [hp.coeff _ (in_block hm hj)]
  exact rev_resid h h' hm hj

theorem pow_table {n : Nat} (hp : Packed lo hi n x p) {v : Nat} (h : geo x κ s n 0 v = true) :
    PowTable κ v s lo hi n p := by
  refine ⟨hp.size.ge, fun i hi => ⟨hp.range _ hi, ?_⟩⟩
  rw [hp.coeff _ hi]
  have := geo_spec h i hi
  rwa [Nat.zero_add] at this

/-- The pairs `(i, rev i)` with `i < rev i`, for `i = i0, i0 + 1, ..., i0 + f - 1`. -/
def walk (k : Nat) : Nat → Nat → List (Nat × Nat) → Bool
  | 0, _, l => l.isEmpty
  | f + 1, i, l => bif Nat.blt i (revN k i) then
      match l with
      | [] => false
      | x :: l => Nat.beq x.1 i && Nat.beq x.2 (revN k i) && walk k f (i + 1) l
    else walk k f (i + 1) l

theorem walk_spec {k : Nat} : ∀ {f i : Nat} {l : List (Nat × Nat)}, walk k f i l = true →
    l = ((List.range' i f).filter fun i => i < rev k i).map fun i => (i, rev k i)
  | 0, _, l, h => by simpa [walk] using h
  | f + 1, i, l, h => by
    unfold walk at h
    rw [List.range'_succ]
    by_cases hlt : i < rev k i
    · have : Nat.blt i (revN k i) = true := by rw [Nat.blt_eq, revN_eq]; exact hlt
      rw [this, cond_true] at h
      match l, h with
      | x :: l, h =>
        simp only [Bool.and_eq_true] at h
        have h1 := Nat.eq_of_beq_eq_true h.1.1
        have h2 := Nat.eq_of_beq_eq_true h.1.2
        rw [revN_eq] at h2
        rw [List.filter_cons_of_pos (by simpa using hlt), List.map_cons, ← walk_spec h.2]
        exact congrArg (· :: l) (Prod.ext h1 h2)
    · have : Nat.blt i (revN k i) = false := by
        rw [Bool.eq_false_iff, Ne, Nat.blt_eq, revN_eq]; exact hlt
      rw [this, cond_false] at h
      rw [List.filter_cons_of_neg (by simpa using hlt)]
      exact walk_spec h

theorem pair_table {n : Nat} {p : Array (Nat × Nat)} (h : walk k (2 ^ k) 0 p.toList = true) (hn : p.toList.length = n) :
    PairTable k n p := by
  have e := walk_spec h
  rw [← List.range_eq_range'] at e
  have hsz : p.size = n := by rw [← Array.length_toList]; exact hn
  have hmem : ∀ (z : Nat) (v : Nat × Nat), p[z]? = some v → ∃ i, i < rev k i ∧ i < 2 ^ k ∧ v = (i, rev k i) := by
    intro z v hv
    rw [← Array.getElem?_toList, e] at hv
    have := List.mem_of_getElem? hv
    simp only [List.mem_map, List.mem_filter, List.mem_range, decide_eq_true_eq] at this
    obtain ⟨i, ⟨h1, h2⟩, h3⟩ := this
    exact ⟨i, h2, h1, h3.symm⟩
  have hnd : p.toList.Nodup := by
    rw [e]
    refine List.Nodup.map (fun a b hab => (Prod.ext_iff.1 hab).1) (List.Nodup.filter _ List.nodup_range)
  refine ⟨hsz.ge, fun z hz => ?_, fun z z' hz hz' hzz => ?_, fun i hi hr => ?_⟩
  · have : z < p.size := by omega
    obtain ⟨i, h1, h2, h3⟩ := hmem z _ (Array.getElem?_eq_getElem this)
    exact ⟨i, h1, h2, by rw [Array.getElem?_eq_getElem this, h3]⟩
  · rw [← Array.getElem?_toList, ← Array.getElem?_toList] at hzz
    exact (List.getElem?_inj (by omega) hnd).1 hzz
  · have : (i, rev k i) ∈ p.toList := by
      rw [e]
      exact List.mem_map.2 ⟨i, List.mem_filter.2 ⟨List.mem_range.2 hi, by simpa using hr⟩, rfl⟩
    obtain ⟨z, hz, hz'⟩ := List.getElem_of_mem this
    refine ⟨z, by omega, ?_⟩
    rw [← Array.getElem?_toList, List.getElem?_eq_getElem hz, hz']

end TestTables
