import Verif.Proofs.AsmPoly
import Verif.Model.AsmPolyProducts

/-
Generated by tools/genasmtrace.py: as `Verif/Proofs/AsmPoly.lean`, for the products.
-/

namespace AsmPoly
open C Tables TraceAsm
open Trace (Named)

/-- Triples of arrays. -/
def R3 {A A' : Type} (R : A → A' → Prop) (x : A × A × A) (y : A' × A' × A') : Prop :=
  R x.1 y.1 ∧ R x.2.1 y.2.1 ∧ R x.2.2 y.2.2

section
variable {m m' : Type → Type} [Monad m] [Monad m'] {A A' : Type} {O : Ops m A} {O' : Ops m' A'}
  (L : LR O O') {tab : String → Array Int → A} {tab' : String → Array Int → A'}
  (htab : ∀ s {p p' : Array Int}, RE L.b p p' → L.RA (tab s p) (tab' s p')) {t t' : RedTables}
  (ht : RE L.b t t') (n : Nat)
include htab ht

theorem fwd_ct_rev2std_rel {a : A} {a' : A'} (ha : L.RA a a') :
    L.Rel L.RA (fwd_ct_rev2std O tab t n a) (fwd_ct_rev2std O' tab' t' n a') :=
  ntt_red_ct_rev2std_asm_rel L ha n (htab _ fun h => by rw [ht h])

theorem fwd_gs_rev2std_rel {a : A} {a' : A'} (ha : L.RA a a') :
    L.Rel L.RA (fwd_gs_rev2std O tab t n a) (fwd_gs_rev2std O' tab' t' n a') :=
  ntt_red_gs_rev2std_asm_rel L ha n (htab _ fun h => by rw [ht h])

theorem fwd_ct_std2rev_rel {a : A} {a' : A'} (ha : L.RA a a') :
    L.Rel L.RA (fwd_ct_std2rev O tab t n a) (fwd_ct_std2rev O' tab' t' n a') :=
  ntt_red_ct_std2rev_asm_rel L ha n (htab _ fun h => by rw [ht h])

theorem fwd_gs_std2rev_rel {a : A} {a' : A'} (ha : L.RA a a') :
    L.Rel L.RA (fwd_gs_std2rev O tab t n a) (fwd_gs_std2rev O' tab' t' n a') :=
  ntt_red_gs_std2rev_asm_rel L ha n (htab _ fun h => by rw [ht h])

theorem intt_ct_rev2std_rel {a : A} {a' : A'} (ha : L.RA a a') :
    L.Rel L.RA (intt_ct_rev2std O tab t n a) (intt_ct_rev2std O' tab' t' n a') :=
  ntt_red_ct_rev2std_asm_rel L ha n (htab _ fun h => by rw [ht h])

theorem intt_gs_rev2std_rel {a : A} {a' : A'} (ha : L.RA a a') :
    L.Rel L.RA (intt_gs_rev2std O tab t n a) (intt_gs_rev2std O' tab' t' n a') :=
  ntt_red_gs_rev2std_asm_rel L ha n (htab _ fun h => by rw [ht h])

theorem intt_ct_std2rev_rel {a : A} {a' : A'} (ha : L.RA a a') :
    L.Rel L.RA (intt_ct_std2rev O tab t n a) (intt_ct_std2rev O' tab' t' n a') :=
  ntt_red_ct_std2rev_asm_rel L ha n (htab _ fun h => by rw [ht h])

theorem intt_gs_std2rev_rel {a : A} {a' : A'} (ha : L.RA a a') :
    L.Rel L.RA (intt_gs_std2rev O tab t n a) (intt_gs_std2rev O' tab' t' n a') :=
  ntt_red_gs_std2rev_asm_rel L ha n (htab _ fun h => by rw [ht h])

theorem fwdmul_ct_rev2std_rel {a : A} {a' : A'} (ha : L.RA a a') :
    L.Rel L.RA (fwdmul_ct_rev2std O tab t n a) (fwdmul_ct_rev2std O' tab' t' n a') :=
  mulntt_red_ct_rev2std_asm_rel L ha n (htab _ fun h => by rw [ht h])

theorem fwdmul_ct_std2rev_rel {a : A} {a' : A'} (ha : L.RA a a') :
    L.Rel L.RA (fwdmul_ct_std2rev O tab t n a) (fwdmul_ct_std2rev O' tab' t' n a') :=
  mulntt_red_ct_std2rev_asm_rel L ha n (htab _ fun h => by rw [ht h])

theorem inttmul_gs_rev2std_rel {a : A} {a' : A'} (ha : L.RA a a') :
    L.Rel L.RA (inttmul_gs_rev2std O tab t n a) (inttmul_gs_rev2std O' tab' t' n a') :=
  nttmul_red_gs_rev2std_asm_rel L ha n (htab _ fun h => by rw [ht h])

theorem inttmul_gs_std2rev_rel {a : A} {a' : A'} (ha : L.RA a a') :
    L.Rel L.RA (inttmul_gs_std2rev O tab t n a) (inttmul_gs_std2rev O' tab' t' n a') :=
  nttmul_red_gs_std2rev_asm_rel L ha n (htab _ fun h => by rw [ht h])

omit htab ht in
theorem shiftInput_rel (sh : Bool) {a : A} {a' : A'} (ha : L.RA a a') :
    L.Rel L.RA (shiftInput O n sh a) (shiftInput O' n sh a') := by
  unfold shiftInput
  cases sh with
  | false => exact L.pure ha
  | true => exact shift_array_asm_rel L ha n

theorem product1_rel (sh : Bool) {c a b : A} {c' a' b' : A'} (hc : L.RA c c') (ha : L.RA a a') (hb : L.RA b b') :
    L.Rel (R3 L.RA) (product1 O tab t n sh c a b) (product1 O' tab' t' n sh c' a' b') := by
  unfold product1
  refine L.bind (shiftInput_rel L n sh ha) ?_; intro a a' ha
  refine L.bind (mul_reduce_array16_asm_rel L ha n (htab _ fun h => by rw [ht h])) ?_; intro a a' ha
  refine L.bind (fwd_ct_std2rev_rel L htab ht n ha) ?_; intro a a' ha
  refine L.bind (reduce_array_asm_rel L ha n) ?_; intro a a' ha
  refine L.bind (shiftInput_rel L n sh hb) ?_; intro b b' hb
  refine L.bind (mul_reduce_array16_asm_rel L hb n (htab _ fun h => by rw [ht h])) ?_; intro b b' hb
  refine L.bind (fwd_ct_std2rev_rel L htab ht n hb) ?_; intro b b' hb
  refine L.bind (reduce_array_asm_rel L hb n) ?_; intro b b' hb
  refine L.bind (mul_reduce_array_asm_rel L hc n ha hb) ?_; intro c c' hc
  refine L.bind (reduce_array_twice_asm_rel L hc n) ?_; intro c c' hc
  refine L.bind (intt_ct_rev2std_rel L htab ht n hc) ?_; intro c c' hc
  refine L.bind (mul_reduce_array16_asm_rel L hc n (htab _ fun h => by rw [ht h])) ?_; intro c c' hc
  refine L.bind (reduce_array_twice_asm_rel L hc n) ?_; intro c c' hc
  refine L.bind (correct_asm_rel L hc n) ?_; intro c c' hc
  exact L.pure ⟨hc, ha, hb⟩

theorem product1_1024_rel {c a b : A} {c' a' b' : A'} (hc : L.RA c c') (ha : L.RA a a') (hb : L.RA b b') :
    L.Rel (R3 L.RA) (product1_1024 O tab t n c a b) (product1_1024 O' tab' t' n c' a' b') := by
  unfold product1_1024
  refine L.bind (mul_reduce_array16_asm_rel L ha n (htab _ fun h => by rw [ht h])) ?_; intro a a' ha
  refine L.bind (fwd_ct_std2rev_rel L htab ht n ha) ?_; intro a a' ha
  refine L.bind (reduce_array_asm_rel L ha n) ?_; intro a a' ha
  refine L.bind (mul_reduce_array16_asm_rel L hb n (htab _ fun h => by rw [ht h])) ?_; intro b b' hb
  refine L.bind (fwd_ct_std2rev_rel L htab ht n hb) ?_; intro b b' hb
  refine L.bind (reduce_array_asm_rel L hb n) ?_; intro b b' hb
  refine L.bind (mul_reduce_array_asm_rel L hc n ha hb) ?_; intro c c' hc
  refine L.bind (intt_ct_rev2std_rel L htab ht n hc) ?_; intro c c' hc
  refine L.bind (mul_reduce_array16_asm_rel L hc n (htab _ fun h => by rw [ht h])) ?_; intro c c' hc
  refine L.bind (reduce_array_twice_asm_rel L hc n) ?_; intro c c' hc
  refine L.bind (correct_asm_rel L hc n) ?_; intro c c' hc
  exact L.pure ⟨hc, ha, hb⟩

theorem product2_rel (sh : Bool) {c a b : A} {c' a' b' : A'} (hc : L.RA c c') (ha : L.RA a a') (hb : L.RA b b') :
    L.Rel (R3 L.RA) (product2 O tab t n sh c a b) (product2 O' tab' t' n sh c' a' b') := by
  unfold product2
  refine L.bind (shiftInput_rel L n sh ha) ?_; intro a a' ha
  refine L.bind (mul_reduce_array16_asm_rel L ha n (htab _ fun h => by rw [ht h])) ?_; intro a a' ha
  refine L.bind (fwd_gs_std2rev_rel L htab ht n ha) ?_; intro a a' ha
  refine L.bind (reduce_array_asm_rel L ha n) ?_; intro a a' ha
  refine L.bind (shiftInput_rel L n sh hb) ?_; intro b b' hb
  refine L.bind (mul_reduce_array16_asm_rel L hb n (htab _ fun h => by rw [ht h])) ?_; intro b b' hb
  refine L.bind (fwd_gs_std2rev_rel L htab ht n hb) ?_; intro b b' hb
  refine L.bind (reduce_array_asm_rel L hb n) ?_; intro b b' hb
  refine L.bind (mul_reduce_array_asm_rel L hc n ha hb) ?_; intro c c' hc
  refine L.bind (reduce_array_twice_asm_rel L hc n) ?_; intro c c' hc
  refine L.bind (intt_ct_rev2std_rel L htab ht n hc) ?_; intro c c' hc
  refine L.bind (mul_reduce_array16_asm_rel L hc n (htab _ fun h => by rw [ht h])) ?_; intro c c' hc
  refine L.bind (reduce_array_twice_asm_rel L hc n) ?_; intro c c' hc
  refine L.bind (correct_asm_rel L hc n) ?_; intro c c' hc
  exact L.pure ⟨hc, ha, hb⟩

theorem product3_rel (sh : Bool) {c a b : A} {c' a' b' : A'} (hc : L.RA c c') (ha : L.RA a a') (hb : L.RA b b') :
    L.Rel (R3 L.RA) (product3 O tab t n sh c a b) (product3 O' tab' t' n sh c' a' b') := by
  unfold product3
  refine L.bind (shiftInput_rel L n sh ha) ?_; intro a a' ha
  refine L.bind (mul_reduce_array16_asm_rel L ha n (htab _ fun h => by rw [ht h])) ?_; intro a a' ha
  refine L.bind (fwd_ct_std2rev_rel L htab ht n ha) ?_; intro a a' ha
  refine L.bind (reduce_array_asm_rel L ha n) ?_; intro a a' ha
  refine L.bind (shiftInput_rel L n sh hb) ?_; intro b b' hb
  refine L.bind (mul_reduce_array16_asm_rel L hb n (htab _ fun h => by rw [ht h])) ?_; intro b b' hb
  refine L.bind (fwd_ct_std2rev_rel L htab ht n hb) ?_; intro b b' hb
  refine L.bind (reduce_array_asm_rel L hb n) ?_; intro b b' hb
  refine L.bind (mul_reduce_array_asm_rel L hc n ha hb) ?_; intro c c' hc
  refine L.bind (reduce_array_twice_asm_rel L hc n) ?_; intro c c' hc
  refine L.bind (intt_gs_rev2std_rel L htab ht n hc) ?_; intro c c' hc
  refine L.bind (mul_reduce_array16_asm_rel L hc n (htab _ fun h => by rw [ht h])) ?_; intro c c' hc
  refine L.bind (reduce_array_twice_asm_rel L hc n) ?_; intro c c' hc
  refine L.bind (correct_asm_rel L hc n) ?_; intro c c' hc
  exact L.pure ⟨hc, ha, hb⟩

theorem product4_rel (sh : Bool) {c a b : A} {c' a' b' : A'} (hc : L.RA c c') (ha : L.RA a a') (hb : L.RA b b') :
    L.Rel (R3 L.RA) (product4 O tab t n sh c a b) (product4 O' tab' t' n sh c' a' b') := by
  unfold product4
  refine L.bind (shiftInput_rel L n sh ha) ?_; intro a a' ha
  refine L.bind (mul_reduce_array16_asm_rel L ha n (htab _ fun h => by rw [ht h])) ?_; intro a a' ha
  refine L.bind (fwd_gs_std2rev_rel L htab ht n ha) ?_; intro a a' ha
  refine L.bind (reduce_array_asm_rel L ha n) ?_; intro a a' ha
  refine L.bind (shiftInput_rel L n sh hb) ?_; intro b b' hb
  refine L.bind (mul_reduce_array16_asm_rel L hb n (htab _ fun h => by rw [ht h])) ?_; intro b b' hb
  refine L.bind (fwd_gs_std2rev_rel L htab ht n hb) ?_; intro b b' hb
  refine L.bind (reduce_array_asm_rel L hb n) ?_; intro b b' hb
  refine L.bind (mul_reduce_array_asm_rel L hc n ha hb) ?_; intro c c' hc
  refine L.bind (reduce_array_twice_asm_rel L hc n) ?_; intro c c' hc
  refine L.bind (intt_gs_rev2std_rel L htab ht n hc) ?_; intro c c' hc
  refine L.bind (mul_reduce_array16_asm_rel L hc n (htab _ fun h => by rw [ht h])) ?_; intro c c' hc
  refine L.bind (reduce_array_twice_asm_rel L hc n) ?_; intro c c' hc
  refine L.bind (correct_asm_rel L hc n) ?_; intro c c' hc
  exact L.pure ⟨hc, ha, hb⟩

theorem product5_rel {up up' : Int} (hup : RE L.b up up') (sh : Bool) {c a b : A} {c' a' b' : A'} (hc : L.RA c c') (ha : L.RA a a') (hb : L.RA b b') :
    L.Rel (R3 L.RA) (product5 O tab t n up sh c a b) (product5 O' tab' t' n up' sh c' a' b') := by
  unfold product5
  refine L.bind (shiftInput_rel L n sh ha) ?_; intro a a' ha
  refine L.bind (fwdmul_ct_std2rev_rel L htab ht n ha) ?_; intro a a' ha
  refine L.bind (reduce_array_asm_rel L ha n) ?_; intro a a' ha
  refine L.bind (shiftInput_rel L n sh hb) ?_; intro b b' hb
  refine L.bind (fwdmul_ct_std2rev_rel L htab ht n hb) ?_; intro b b' hb
  refine L.bind (reduce_array_asm_rel L hb n) ?_; intro b b' hb
  refine L.bind (mul_reduce_array_asm_rel L hc n ha hb) ?_; intro c c' hc
  refine L.bind (reduce_array_twice_asm_rel L hc n) ?_; intro c c' hc
  refine L.bind (inttmul_gs_rev2std_rel L htab ht n hc) ?_; intro c c' hc
  refine L.bind (scalar_mul_reduce_array_asm_rel L hc n (fun h => by rw [ht h, hup h])) ?_; intro c c' hc
  refine L.bind (reduce_array_twice_asm_rel L hc n) ?_; intro c c' hc
  refine L.bind (correct_asm_rel L hc n) ?_; intro c c' hc
  exact L.pure ⟨hc, ha, hb⟩

end

theorem product1_plain : product1 plain (fun _ p => p) = AsmProducts.product1 := rfl

theorem product1_er (t : RedTables) (n : Nat) (sh : Bool) (c a b : Named Int) :
    ErP (R3 fun x y => x.data = y) (product1 traced nameTable t n sh c a b)
      (AsmProducts.product1 t n sh c.data a.data b.data) := by
  have := product1_rel erL (tab := nameTable) (tab' := fun _ p => p) (fun _ _ _ h => h rfl) (t := t) (fun _ => rfl)
    n sh (c := c) (a := a) (b := b) rfl rfl rfl
  rw [product1_plain] at this
  exact this

theorem product1_sm (t t' : RedTables) (n : Nat) (sh : Bool) {c a b c' a' b' : Named Int} (hc : c.name = c'.name)
    (ha : a.name = a'.name) (hb : b.name = b'.name) :
    SmP (R3 fun x y => x.name = y.name) (product1 traced nameTable t n sh c a b)
      (product1 traced nameTable t' n sh c' a' b') :=
  product1_rel smL (tab := nameTable) (tab' := nameTable) (fun _ _ _ _ => rfl) (fun h => nomatch h)
    n sh hc ha hb

theorem product1_1024_plain : product1_1024 plain (fun _ p => p) = AsmProducts.product1_1024 := rfl

theorem product1_1024_er (t : RedTables) (n : Nat) (c a b : Named Int) :
    ErP (R3 fun x y => x.data = y) (product1_1024 traced nameTable t n c a b)
      (AsmProducts.product1_1024 t n c.data a.data b.data) := by
  have := product1_1024_rel erL (tab := nameTable) (tab' := fun _ p => p) (fun _ _ _ h => h rfl) (t := t) (fun _ => rfl)
    n (c := c) (a := a) (b := b) rfl rfl rfl
  rw [product1_1024_plain] at this
  exact this

theorem product1_1024_sm (t t' : RedTables) (n : Nat) {c a b c' a' b' : Named Int} (hc : c.name = c'.name)
    (ha : a.name = a'.name) (hb : b.name = b'.name) :
    SmP (R3 fun x y => x.name = y.name) (product1_1024 traced nameTable t n c a b)
      (product1_1024 traced nameTable t' n c' a' b') :=
  product1_1024_rel smL (tab := nameTable) (tab' := nameTable) (fun _ _ _ _ => rfl) (fun h => nomatch h)
    n hc ha hb

theorem product2_plain : product2 plain (fun _ p => p) = AsmProducts.product2 := rfl

theorem product2_er (t : RedTables) (n : Nat) (sh : Bool) (c a b : Named Int) :
    ErP (R3 fun x y => x.data = y) (product2 traced nameTable t n sh c a b)
      (AsmProducts.product2 t n sh c.data a.data b.data) := by
  have := product2_rel erL (tab := nameTable) (tab' := fun _ p => p) (fun _ _ _ h => h rfl) (t := t) (fun _ => rfl)
    n sh (c := c) (a := a) (b := b) rfl rfl rfl
  rw [product2_plain] at this
  exact this

theorem product2_sm (t t' : RedTables) (n : Nat) (sh : Bool) {c a b c' a' b' : Named Int} (hc : c.name = c'.name)
    (ha : a.name = a'.name) (hb : b.name = b'.name) :
    SmP (R3 fun x y => x.name = y.name) (product2 traced nameTable t n sh c a b)
      (product2 traced nameTable t' n sh c' a' b') :=
  product2_rel smL (tab := nameTable) (tab' := nameTable) (fun _ _ _ _ => rfl) (fun h => nomatch h)
    n sh hc ha hb

theorem product3_plain : product3 plain (fun _ p => p) = AsmProducts.product3 := rfl

theorem product3_er (t : RedTables) (n : Nat) (sh : Bool) (c a b : Named Int) :
    ErP (R3 fun x y => x.data = y) (product3 traced nameTable t n sh c a b)
      (AsmProducts.product3 t n sh c.data a.data b.data) := by
  have := product3_rel erL (tab := nameTable) (tab' := fun _ p => p) (fun _ _ _ h => h rfl) (t := t) (fun _ => rfl)
    n sh (c := c) (a := a) (b := b) rfl rfl rfl
  rw [product3_plain] at this
  exact this

theorem product3_sm (t t' : RedTables) (n : Nat) (sh : Bool) {c a b c' a' b' : Named Int} (hc : c.name = c'.name)
    (ha : a.name = a'.name) (hb : b.name = b'.name) :
    SmP (R3 fun x y => x.name = y.name) (product3 traced nameTable t n sh c a b)
      (product3 traced nameTable t' n sh c' a' b') :=
  product3_rel smL (tab := nameTable) (tab' := nameTable) (fun _ _ _ _ => rfl) (fun h => nomatch h)
    n sh hc ha hb

theorem product4_plain : product4 plain (fun _ p => p) = AsmProducts.product4 := rfl

theorem product4_er (t : RedTables) (n : Nat) (sh : Bool) (c a b : Named Int) :
    ErP (R3 fun x y => x.data = y) (product4 traced nameTable t n sh c a b)
      (AsmProducts.product4 t n sh c.data a.data b.data) := by
  have := product4_rel erL (tab := nameTable) (tab' := fun _ p => p) (fun _ _ _ h => h rfl) (t := t) (fun _ => rfl)
    n sh (c := c) (a := a) (b := b) rfl rfl rfl
  rw [product4_plain] at this
  exact this

theorem product4_sm (t t' : RedTables) (n : Nat) (sh : Bool) {c a b c' a' b' : Named Int} (hc : c.name = c'.name)
    (ha : a.name = a'.name) (hb : b.name = b'.name) :
    SmP (R3 fun x y => x.name = y.name) (product4 traced nameTable t n sh c a b)
      (product4 traced nameTable t' n sh c' a' b') :=
  product4_rel smL (tab := nameTable) (tab' := nameTable) (fun _ _ _ _ => rfl) (fun h => nomatch h)
    n sh hc ha hb

theorem product5_plain : product5 plain (fun _ p => p) = AsmProducts.product5 := rfl

theorem product5_er (t : RedTables) (n : Nat) (up : Int) (sh : Bool) (c a b : Named Int) :
    ErP (R3 fun x y => x.data = y) (product5 traced nameTable t n up sh c a b)
      (AsmProducts.product5 t n up sh c.data a.data b.data) := by
  have := product5_rel erL (tab := nameTable) (tab' := fun _ p => p) (fun _ _ _ h => h rfl) (t := t) (fun _ => rfl)
    n (up := up) (fun _ => rfl) sh (c := c) (a := a) (b := b) rfl rfl rfl
  rw [product5_plain] at this
  exact this

theorem product5_sm (t t' : RedTables) (n : Nat) (up up' : Int) (sh : Bool) {c a b c' a' b' : Named Int} (hc : c.name = c'.name)
    (ha : a.name = a'.name) (hb : b.name = b'.name) :
    SmP (R3 fun x y => x.name = y.name) (product5 traced nameTable t n up sh c a b)
      (product5 traced nameTable t' n up' sh c' a' b') :=
  product5_rel smL (tab := nameTable) (tab' := nameTable) (fun _ _ _ _ => rfl) (fun h => nomatch h)
    n (fun h => nomatch h) sh hc ha hb

end AsmPoly
