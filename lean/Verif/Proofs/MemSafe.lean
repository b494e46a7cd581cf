import Verif.Model.RedProducts
import Verif.Model.Naive
import Verif.Model.Products
import Verif.Proofs.Ntt
import Verif.Proofs.Arrays

/-
Memory safety for arbitrary contents: overflow and assertion failures are tolerated, out-of-bounds
accesses and loops without end are not.
-/

namespace NTT
open C

/-- Signed overflow or a failed assertion. -/
abbrev Arith : Err → Prop := fun e => e = .overflow ∨ e = .assertFail

/-- The butterfly only accesses `a[s]` and `a[k]`. -/
abbrev TrivBf (bf : Nat → Nat → Array Int → M (Array Int)) : Prop :=
  ∀ n s k, s ≠ k → BfSpec Arith (bf s k) n s k (fun _ _ => True) (fun _ _ => True)

theorem wp_i32_any {x : Int} {P : Int → Prop} (h : P x) : Wp Arith (i32 x) P :=
  wp_i32_tol (Or.inl rfl) h

theorem wp_i64_any {x : Int} {P : Int → Prop} (h : P x) : Wp Arith (i64 x) P := by
  unfold i64; split
  · exact wp_ok.2 h
  · exact wp_error.2 (Or.inl rfl)

theorem wp_cassert_any {b : Bool} {P : Unit → Prop} (h : P ()) : Wp Arith (cassert b) P := by
  unfold cassert; split
  · exact wp_ok.2 h
  · exact wp_error.2 (Or.inr rfl)

theorem wp_crem_any {E : Err → Prop} {x q : Int} (hq : q ≠ 0) {P : Int → Prop} (h : ∀ y, P y) :
    Wp E (crem x q) P := by
  unfold crem; rw [if_neg hq]; exact wp_ok.2 (h _)

/-- Any array of the right size. -/
abbrev Sized (n : Nat) (a : Array Int) : Prop := a.size = n

theorem pw_true {n : Nat} {a : Array Int} (h : a.size = n) :
    PW n (fun _ (_ : Int) => True) a := ⟨h, fun _ _ _ => trivial⟩

theorem wp_map_any {body : Nat → Array Int → M (Array Int)} {n : Nat} {a : Array Int}
    (hn : n < 4294967296) (ha : a.size = n)
    (hb : ∀ i a x, i < n → a.size = n → a[i]? = some x →
      Wp Arith (body i a) (fun a' => ∃ v, a' = a.setIfInBounds i v)) :
    Wp Arith (forUp 0 n 1 body a) (Sized n) := by
  refine (wp_map (Pre := fun _ _ => True) (Post := fun _ _ => True) hn
    (fun i a x hi hs hx _ => (hb i a x hi hs hx).mono fun a' ⟨v, e⟩ => ⟨v, e, trivial⟩)
    (pw_true ha)).mono fun a' h => h.1

section
variable {k : Nat} {bf0 : Nat → Nat → Array Int → M (Array Int)}
  {bf : Int → Nat → Nat → Array Int → M (Array Int)} {p a : Array Int}
open Ntt (ne_add_pow)

theorem safe_ctRev2std (hk : k ≤ 31) (hp : 2 ^ k ≤ p.size) (h0 : TrivBf bf0) (hb : ∀ w, TrivBf (bf w))
    (ha : a.size = 2 ^ k) : Wp Arith (ctRev2std bf0 bf a (2 ^ k) p) (Sized (2 ^ k)) :=
  (wp_ctRev2std (P := fun _ _ _ => True) hk hp (fun m b _ _ => h0 _ _ _ (ne_add_pow _ _)) 
    (fun m b j w _ _ _ _ _ => hb _ _ _ _ (ne_add_pow _ _)) (pw_true ha)).mono fun _ h => h.1

theorem safe_mulCtRev2std (hk : k ≤ 31) (hp : 2 ^ k ≤ p.size) (hb : ∀ w, TrivBf (bf w))
    (ha : a.size = 2 ^ k) : Wp Arith (mulCtRev2std bf a (2 ^ k) p) (Sized (2 ^ k)) :=
  (wp_mulCtRev2std (P := fun _ _ _ => True) hk hp 
    (fun m b j w _ _ _ _ => hb _ _ _ _ (ne_add_pow _ _)) (pw_true ha)).mono fun _ h => h.1

theorem safe_gsStd2rev (hk : k ≤ 31) (hp : 2 ^ k ≤ p.size) (h0 : TrivBf bf0) (hb : ∀ w, TrivBf (bf w))
    (ha : a.size = 2 ^ k) : Wp Arith (gsStd2rev bf0 bf a (2 ^ k) p) (Sized (2 ^ k)) :=
  (wp_gsStd2rev (P := fun _ _ _ => True) hk hp (fun m b _ _ => h0 _ _ _ (ne_add_pow _ _)) 
    (fun m b j w _ _ _ _ _ => hb _ _ _ _ (ne_add_pow _ _)) (pw_true ha)).mono fun _ h => h.1

theorem safe_gsMulStd2rev (hk : k ≤ 31) (hp : 2 ^ k ≤ p.size) (hb : ∀ w, TrivBf (bf w))
    (ha : a.size = 2 ^ k) : Wp Arith (gsMulStd2rev bf a (2 ^ k) p) (Sized (2 ^ k)) :=
  (wp_gsMulStd2rev (P := fun _ _ _ => True) hk hp 
    (fun m b j w _ _ _ _ => hb _ _ _ _ (ne_add_pow _ _)) (pw_true ha)).mono fun _ h => h.1

theorem safe_ctStd2rev (hk : k ≤ 31) (hp : 2 ^ k ≤ p.size) (h0 : TrivBf bf0) (hb : ∀ w, TrivBf (bf w))
    (ha : a.size = 2 ^ k) : Wp Arith (ctStd2rev bf0 bf a (2 ^ k) p) (Sized (2 ^ k)) :=
  (wp_ctStd2rev (P := fun _ _ _ => True) hk hp (fun m b _ _ => h0 _ _ _ (ne_add_pow _ _)) 
    (fun m j r w _ _ _ _ _ => hb _ _ _ _ (ne_add_pow _ _)) (pw_true ha)).mono fun _ h => h.1

theorem safe_mulCtStd2rev (hk : k ≤ 31) (hp : 2 ^ k ≤ p.size) (hb : ∀ w, TrivBf (bf w))
    (ha : a.size = 2 ^ k) : Wp Arith (mulCtStd2rev bf a (2 ^ k) p) (Sized (2 ^ k)) :=
  (wp_mulCtStd2rev (P := fun _ _ _ => True) hk hp 
    (fun m j r w _ _ _ _ => hb _ _ _ _ (ne_add_pow _ _)) (pw_true ha)).mono fun _ h => h.1

theorem safe_gsRev2std (hk : k ≤ 31) (hp : 2 ^ k ≤ p.size) (h0 : TrivBf bf0) (hb : ∀ w, TrivBf (bf w))
    (ha : a.size = 2 ^ k) : Wp Arith (gsRev2std bf0 bf a (2 ^ k) p) (Sized (2 ^ k)) :=
  (wp_gsRev2std (P := fun _ _ _ => True) hk hp (fun m b _ _ => h0 _ _ _ (ne_add_pow _ _)) 
    (fun m j r w _ _ _ _ _ => hb _ _ _ _ (ne_add_pow _ _)) (pw_true ha)).mono fun _ h => h.1

theorem safe_gsMulRev2std (hk : k ≤ 31) (hp : 2 ^ k ≤ p.size) (hb : ∀ w, TrivBf (bf w))
    (ha : a.size = 2 ^ k) : Wp Arith (gsMulRev2std bf a (2 ^ k) p) (Sized (2 ^ k)) :=
  (wp_gsMulRev2std (P := fun _ _ _ => True) hk hp 
    (fun m j r w _ _ _ _ => hb _ _ _ _ (ne_add_pow _ _)) (pw_true ha)).mono fun _ h => h.1

theorem safe_ctRev2stdV1 (hk : k ≤ 31) (hp : 2 ^ k ≤ p.size) (h0 : TrivBf bf0) (hb : ∀ w, TrivBf (bf w))
    (ha : a.size = 2 ^ k) : Wp Arith (ctRev2stdV1 bf0 bf a (2 ^ k) p) (Sized (2 ^ k)) :=
  (wp_ctRev2stdV1 (P := fun _ _ _ => True) hk hp (fun m b _ _ => h0 _ _ _ (ne_add_pow _ _)) 
    (fun m b j w _ _ _ _ _ => hb _ _ _ _ (ne_add_pow _ _)) (pw_true ha)).mono fun _ h => h.1

end
end NTT

namespace Ntt
open C NTT

theorem safe_bf0 : TrivBf bf0 := by
  intro n s k hsk a x y ha hx hy _ _
  unfold bf0 sub_mod add_mod
  simp only [wp_bind]
  exact wp_rd_some hy (wp_rd_some hx (wp_i32_any (wp_i32_any (wp_wr (getElem?_lt hy)
    (wp_rd_some (get_set_ne hsk hx) (wp_i32_any (wp_i32_any (wp_i32_any
    (wp_wr (by simpa using getElem?_lt hx) ⟨_, _, rfl, trivial, trivial⟩)))))))))

theorem safe_ctBf (w : Int) : TrivBf (ctBf w) := by
  intro n s k hsk a x y ha hx hy _ _
  unfold ctBf sub_mod add_mod
  simp only [wp_bind]
  exact wp_rd_some hy (wp_i32_any (wp_rd_some hx (wp_i32_any (wp_i32_any (wp_wr (getElem?_lt hy)
    (wp_rd_some (get_set_ne hsk hx) (wp_i32_any (wp_i32_any (wp_i32_any
    (wp_wr (by simpa using getElem?_lt hx) ⟨_, _, rfl, trivial, trivial⟩))))))))))

theorem safe_gsBf (w : Int) : TrivBf (gsBf w) := by
  intro n s k hsk a x y ha hx hy _ _
  unfold gsBf sub_mod add_mod
  simp only [wp_bind]
  exact wp_rd_some hy (wp_rd_some hx (wp_i32_any (wp_i32_any (wp_i32_any (wp_wr (getElem?_lt hy)
    (wp_rd_some (get_set_ne hsk hx) (wp_i32_any (wp_i32_any (wp_i32_any
    (wp_wr (by simpa using getElem?_lt hx) ⟨_, _, rfl, trivial, trivial⟩))))))))))

section
variable {n : Nat} (hn : n < 4294967296) {a : Array Int} (ha : a.size = n)
include hn ha

theorem safe_mul_array16 {p : Array Int} (hp : n ≤ p.size) :
    Wp Arith (mul_array16 a n p) (Sized n) := by
  refine wp_map_any hn ha fun i a x hi hs hx => ?_
  simp only [wp_bind]
  exact wp_rd_some hx (wp_rd_some (some_elt (by omega)) (wp_i32_any (wp_wr (by omega) ⟨_, rfl⟩)))

theorem safe_mul_array {x y : Array Int} (hx : n ≤ x.size) (hy : n ≤ y.size) :
    Wp Arith (mul_array a n x y) (Sized n) := by
  refine wp_map_any hn ha fun i a z hi hs hz => ?_
  simp only [wp_bind]
  exact wp_rd_some (some_elt (by omega)) (wp_rd_some (some_elt (by omega))
    (wp_i32_any (wp_wr (by omega) ⟨_, rfl⟩)))

theorem safe_scalar_mul_array {c : Int} : Wp Arith (scalar_mul_array a n c) (Sized n) := by
  refine wp_map_any hn ha fun i a x hi hs hx => ?_
  simp only [wp_bind]
  exact wp_rd_some hx (wp_i32_any (wp_wr (by omega) ⟨_, rfl⟩))

end
end Ntt

namespace NttRed
open C NTT

theorem wp_mul_red_any {x y : Int} {P : Int → Prop} (h : ∀ z, P z) : Wp Arith (mul_red x y) P := by
  unfold mul_red
  simp only [wp_bind]
  exact wp_i64_any (wp_cassert_any (wp_i32_any (wp_i32_any (h _))))

theorem wp_red_any {x : Int} {P : Int → Prop} (h : ∀ z, P z) : Wp Arith (red x) P := by
  unfold red
  simp only [wp_bind]
  exact wp_i32_any (wp_i32_any (h _))

theorem safe_bf0 : TrivBf bf0 := by
  intro n s k hsk a x y ha hx hy _ _
  unfold bf0
  simp only [wp_bind]
  exact wp_rd_some hy (wp_rd_some hx (wp_i32_any (wp_wr (getElem?_lt hy)
    (wp_rd_some (Ntt.get_set_ne hsk hx) (wp_i32_any
    (wp_wr (by simpa using getElem?_lt hx) ⟨_, _, rfl, trivial, trivial⟩))))))

theorem safe_ctBf (w : Int) : TrivBf (ctBf w) := by
  intro n s k hsk a x y ha hx hy _ _
  unfold ctBf
  simp only [wp_bind]
  exact wp_rd_some hy (wp_mul_red_any fun z => wp_rd_some hx (wp_i32_any (wp_wr (getElem?_lt hy)
    (wp_rd_some (Ntt.get_set_ne hsk hx) (wp_i32_any
    (wp_wr (by simpa using getElem?_lt hx) ⟨_, _, rfl, trivial, trivial⟩))))))

theorem safe_gsBf (w : Int) : TrivBf (gsBf w) := by
  intro n s k hsk a x y ha hx hy _ _
  unfold gsBf
  simp only [wp_bind]
  exact wp_rd_some hy (wp_rd_some hx (wp_i32_any (wp_mul_red_any fun z => wp_wr (getElem?_lt hy)
    (wp_rd_some (Ntt.get_set_ne hsk hx) (wp_i32_any
    (wp_wr (by simpa using getElem?_lt hx) ⟨_, _, rfl, trivial, trivial⟩))))))

section
variable {n : Nat} (hn : n < 4294967296) {a : Array Int} (ha : a.size = n)
include hn ha

theorem safe_mul_reduce_array16 {p : Array Int} (hp : n ≤ p.size) :
    Wp Arith (mul_reduce_array16 a n p) (Sized n) := by
  refine wp_map_any hn ha fun i a x hi hs hx => ?_
  simp only [wp_bind]
  exact wp_rd_some hx (wp_rd_some (some_elt (by omega)) (wp_mul_red_any fun _ =>
    wp_wr (by omega) ⟨_, rfl⟩))

theorem safe_mul_reduce_array {x y : Array Int} (hx : n ≤ x.size) (hy : n ≤ y.size) :
    Wp Arith (mul_reduce_array a n x y) (Sized n) := by
  refine wp_map_any hn ha fun i a z hi hs hz => ?_
  simp only [wp_bind]
  exact wp_rd_some (some_elt (by omega)) (wp_rd_some (some_elt (by omega))
    (wp_mul_red_any fun _ => wp_wr (by omega) ⟨_, rfl⟩))

theorem safe_scalar_mul_reduce_array {c : Int} :
    Wp Arith (scalar_mul_reduce_array a n c) (Sized n) := by
  refine wp_map_any hn ha fun i a x hi hs hx => ?_
  simp only [wp_bind]
  exact wp_rd_some hx (wp_mul_red_any fun _ => wp_wr (by omega) ⟨_, rfl⟩)

theorem safe_reduce_array : Wp Arith (reduce_array a n) (Sized n) := by
  refine wp_map_any hn ha fun i a x hi hs hx => ?_
  simp only [wp_bind]
  exact wp_rd_some hx (wp_red_any fun _ => wp_wr (by omega) ⟨_, rfl⟩)

theorem safe_reduce_array_twice : Wp Arith (reduce_array_twice a n) (Sized n) := by
  refine wp_map_any hn ha fun i a x hi hs hx => ?_
  simp only [wp_bind]
  exact wp_rd_some hx (wp_red_any fun _ => wp_red_any fun _ => wp_wr (by omega) ⟨_, rfl⟩)

theorem safe_correct : Wp Arith (correct a n) (Sized n) := by
  refine wp_map_any hn ha fun i a x hi hs hx => ?_
  simp only [wp_bind]
  exact wp_rd_some hx (wp_i32_any (wp_i32_any (wp_i32_any (wp_wr (by omega) ⟨_, rfl⟩))))

theorem safe_shift_array : Wp Arith (shift_array a n) (Sized n) := by
  refine wp_map_any hn ha fun i a x hi hs hx => ?_
  simp only [wp_bind]
  refine wp_rd_some hx ?_
  split
  · exact wp_i32_any (wp_wr (by omega) ⟨_, rfl⟩)
  · exact wp_pure.2 (wp_wr (by omega) ⟨_, rfl⟩)

theorem safe_normalize : Wp Arith (normalize a n) (Sized n) := by
  refine wp_map_any hn ha fun i a x hi hs hx => ?_
  simp only [wp_bind]
  refine wp_rd_some hx (wp_crem_any (by decide) fun y => ?_)
  split
  · exact wp_i32_any (wp_cassert_any (wp_wr (by omega) ⟨_, rfl⟩))
  · exact wp_pure.2 (wp_cassert_any (wp_wr (by omega) ⟨_, rfl⟩))

theorem safe_normalize_inv3 : Wp Arith (normalize_inv3 a n) (Sized n) := by
  refine wp_map_any hn ha fun i a x hi hs hx => ?_
  simp only [wp_bind]
  refine wp_rd_some hx (wp_i64_any (wp_crem_any (by decide) fun y => ?_))
  split
  · exact wp_i32_any (wp_cassert_any (wp_wr (by omega) ⟨_, rfl⟩))
  · exact wp_pure.2 (wp_cassert_any (wp_wr (by omega) ⟨_, rfl⟩))

theorem safe_shiftInput {sh : Bool} : Wp Arith (shiftInput n sh a) (Sized n) := by
  unfold shiftInput
  split
  · exact safe_shift_array hn ha
  · exact wp_pure.2 ha

end
end NttRed

namespace Naive
open C NTT

section
variable {q : Int} (hq : q ≠ 0)
include hq

theorem safe_bf0 : TrivBf (bf0 q) := by
  intro n s k hsk a x y ha hx hy _ _
  unfold bf0
  simp only [wp_bind]
  exact wp_rd_some hy (wp_rd_some hx (wp_i32_any (wp_crem_any hq fun _ => wp_wr (getElem?_lt hy)
    (wp_rd_some (Ntt.get_set_ne hsk hx) (wp_i32_any (wp_crem_any hq fun _ =>
    wp_wr (by simpa using getElem?_lt hx) ⟨_, _, rfl, trivial, trivial⟩))))))

theorem safe_ctBf (w : Int) : TrivBf (ctBf q w) := by
  intro n s k hsk a x y ha hx hy _ _
  unfold ctBf
  simp only [wp_bind]
  exact wp_rd_some hy (wp_i32_any (wp_rd_some hx (wp_i32_any (wp_crem_any hq fun _ =>
    wp_wr (getElem?_lt hy)
    (wp_rd_some (Ntt.get_set_ne hsk hx) (wp_i32_any (wp_crem_any hq fun _ =>
    wp_wr (by simpa using getElem?_lt hx) ⟨_, _, rfl, trivial, trivial⟩)))))))

theorem safe_gsBf (w : Int) : TrivBf (gsBf q w) := by
  intro n s k hsk a x y ha hx hy _ _
  unfold gsBf
  simp only [wp_bind]
  exact wp_rd_some hy (wp_rd_some hx (wp_i32_any (wp_i32_any (wp_crem_any hq fun _ =>
    wp_wr (getElem?_lt hy)
    (wp_rd_some (Ntt.get_set_ne hsk hx) (wp_i32_any (wp_crem_any hq fun _ =>
    wp_wr (by simpa using getElem?_lt hx) ⟨_, _, rfl, trivial, trivial⟩)))))))

variable {n : Nat} (hn : n < 4294967296) {a : Array Int} (ha : a.size = n)
include hn ha

theorem safe_mul_array16 {p : Array Int} (hp : n ≤ p.size) :
    Wp Arith (mul_array16 a n p q) (Sized n) := by
  refine wp_map_any hn ha fun i a x hi hs hx => ?_
  simp only [wp_bind]
  exact wp_rd_some hx (wp_rd_some (some_elt (by omega)) (wp_i32_any (wp_crem_any hq fun _ =>
    wp_wr (by omega) ⟨_, rfl⟩)))

theorem safe_mul_array {x y : Array Int} (hx : n ≤ x.size) (hy : n ≤ y.size) :
    Wp Arith (mul_array a n x y q) (Sized n) := by
  refine wp_map_any hn ha fun i a z hi hs hz => ?_
  simp only [wp_bind]
  exact wp_rd_some (some_elt (by omega)) (wp_rd_some (some_elt (by omega))
    (wp_i32_any (wp_crem_any hq fun _ => wp_wr (by omega) ⟨_, rfl⟩)))

theorem safe_scalar_mul_array {c : Int} : Wp Arith (scalar_mul_array a n c q) (Sized n) := by
  refine wp_map_any hn ha fun i a x hi hs hx => ?_
  simp only [wp_bind]
  exact wp_rd_some hx (wp_i32_any (wp_crem_any hq fun _ => wp_wr (by omega) ⟨_, rfl⟩))

end
end Naive
