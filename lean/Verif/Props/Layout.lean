import Verif.SpecLayout
import Verif.Proofs.Layout
import Verif.Props.InPlace

/-
C68: array arguments can be parts of larger arrays.

The memory consists of objects, and the arguments are pointers into objects (`Verif/SpecLayout.lean`).  The functions do
not access anything outside the `n` elements that an argument stands for: a call gives the same results as a call on
separate arrays of `n` elements, and no other element of any object changes.
-/

namespace Props
open C Spec Tables Shared

/-- C68: a product whose destination and operands are parts of objects, with no common element except that the
destination can be one of the operands: it stores the product in the destination, and nothing but the elements of
destination and operands changes. -/
theorem C68_product {L : Layout} {H : Heap} (hL : L.OK H) {tb : String → Ref} {c a b : Ref} {k : Nat} {lo hi : Int}
    {P : Prog (Ref × Ref × Ref)} (h : Call (view L H) tb c a b k lo hi P) (hc : L.len c = 2 ^ k)
    (ha : L.len a = 2 ^ k) (hb : L.len b = 2 ^ k) (hra : Reduced (view L H a)) (hrb : Reduced (view L H b))
    (hab : a ≠ b) (hTc : Fresh tb c) (hTa : Fresh tb a) (hTb : Fresh tb b) :
    ∃ H', runAt L P H = .ok ((c, a, b), H') ∧ IsProduct k lo hi (view L H' c) (view L H a) (view L H b) ∧
      OnlyIn L (fun x => x ∈ [c, a, b]) H H' := by
  obtain ⟨m, e, h1, h2⟩ := C51_destination h (by rw [view_size hL, hc]) (by rw [view_size hL, ha])
    (by rw [view_size hL, hb]) hra hrb hab hTc hTa hTb
  have := runAt_view P hL (by rw [e]; exact fun h => by cases h)
  rw [e] at this
  obtain ⟨H', f1, f2, f3, f4⟩ := this
  refine ⟨H', f1, by rw [f2]; exact h1, f4.of_view hL f3 ?_⟩
  intro x hx
  simp only [List.mem_cons, List.not_mem_nil, or_false, not_or] at hx
  rw [f2]
  exact h2 x hx.1 hx.2.1 hx.2.2

/-- C68: any number of threads call products on parts of the same objects, for example each on its own rows of one
large array.  No thread fails; when a thread has returned, its destination holds its product; a thread returns after a
number of steps that depends on the thread alone; and nothing but the elements of the arguments changes. -/
theorem C68_threads {ι : Type} [DecidableEq ι] {L : Layout} {H : Heap} (hL : L.OK H) {tb : ι → String → Ref}
    {c a b : ι → Ref} {k : ι → Nat} {lo hi : ι → Int} {P : ι → Prog (Ref × Ref × Ref)}
    (h : ∀ i, Call (view L H) (tb i) (c i) (a i) (b i) (k i) (lo i) (hi i) (P i))
    (hc : ∀ i, L.len (c i) = 2 ^ k i) (ha : ∀ i, L.len (a i) = 2 ^ k i) (hb : ∀ i, L.len (b i) = 2 ^ k i)
    (hra : ∀ i, Reduced (view L H (a i))) (hrb : ∀ i, Reduced (view L H (b i))) (hab : ∀ i, a i ≠ b i)
    (hT : ∀ i j, Fresh (tb i) (c j) ∧ Fresh (tb i) (a j) ∧ Fresh (tb i) (b j))
    (hsep : ∀ i j, i ≠ j → ∀ x ∈ [c i, a i, b i], x ∉ [c j, a j, b j]) :
    ∃ steps : ι → Nat, ∀ sched : List ι,
      (∀ i e, (execAt L sched P H).1 i ≠ .fail e) ∧
      (∀ i r, (execAt L sched P H).1 i = .pure r → IsProduct (k i) (lo i) (hi i)
        (view L (execAt L sched P H).2 (c i)) (view L H (a i)) (view L H (b i))) ∧
      (∀ i, steps i ≤ sched.count i → (execAt L sched P H).1 i = .pure (c i, a i, b i)) ∧
      OnlyIn L (fun x => ∃ i, x ∈ [c i, a i, b i]) H (execAt L sched P H).2 := by
  obtain ⟨steps, G⟩ := C52_threads h (fun i => by rw [view_size hL, hc]) (fun i => by rw [view_size hL, ha])
    (fun i => by rw [view_size hL, hb]) hra hrb hab hT hsep
  refine ⟨steps, fun sched => ?_⟩
  obtain ⟨g1, g2, g3, g4⟩ := G sched
  obtain ⟨f1, f2, f3, f4⟩ := execAt_view hL (fun s i => (G s).1 i .oob) sched
  rw [f1, f2]
  refine ⟨g1, g2, g3, f4.of_view hL f3 fun x hx => ?_⟩
  rw [f2]
  exact g4 x fun i hi => hx ⟨i, hi⟩

/-- C68: a function that updates one array, given a part of an object: if the function on array values returns `v`
for that part, the call returns, the part becomes `v`, and nothing else changes; if it fails for another reason than an
access outside its array, the call fails in the same way. -/
theorem C68_in_place {L : Layout} {H : Heap} (hL : L.OK H) {h p : Ref} {x : M (Array Int)} {P : Prog Ref}
    (hP : InPlace (view L H) h p x P) (hne : p ≠ h) :
    (∀ v, x = .ok v → ∃ H', runAt L P H = .ok (h, H') ∧ view L H' h = v ∧ OnlyIn L (fun r => r = h) H H') ∧
    (∀ e, e ≠ .oob → x = .error e → runAt L P H = .error e) := by
  have G := C53_alone hP hne
  refine ⟨?_, ?_⟩
  · rintro v rfl
    have := runAt_view P hL (by rw [G]; exact fun h => by cases h)
    rw [G] at this
    obtain ⟨H', f1, f2, f3, f4⟩ := this
    refine ⟨H', f1, by rw [f2, upd_at], f4.of_view hL f3 fun r hr => ?_⟩
    rw [f2, upd_ne _ _ hr]
  · rintro e he rfl
    have := runAt_view P hL (by rw [G]; exact fun h => he (by injection h))
    rw [G] at this
    exact this

/-- C68: threads that update parts of the same objects (see C53). -/
theorem C68_in_place_threads {ι : Type} [DecidableEq ι] {L : Layout} {H : Heap} (hL : L.OK H) {h p : ι → Ref}
    {x : ι → M (Array Int)} {v : ι → Array Int} {P : ι → Prog Ref}
    (hP : ∀ i, InPlace (view L H) (h i) (p i) (x i) (P i)) (hx : ∀ i, x i = .ok (v i))
    (hh : ∀ i j, i ≠ j → h i ≠ h j) (hp : ∀ i j, p i ≠ h j) :
    ∃ steps : ι → Nat, ∀ sched : List ι,
      (∀ i e, (execAt L sched P H).1 i ≠ .fail e) ∧
      (∀ i r, (execAt L sched P H).1 i = .pure r → view L (execAt L sched P H).2 (h i) = v i) ∧
      (∀ i, steps i ≤ sched.count i → (execAt L sched P H).1 i = .pure (h i)) ∧
      OnlyIn L (fun r => ∃ i, r = h i) H (execAt L sched P H).2 := by
  obtain ⟨steps, G⟩ := C53_threads hP hx hh hp
  refine ⟨steps, fun sched => ?_⟩
  obtain ⟨g1, g2, g3, g4⟩ := G sched
  obtain ⟨f1, f2, f3, f4⟩ := execAt_view hL (fun s i => (G s).1 i .oob) sched
  rw [f1, f2]
  refine ⟨g1, g2, g3, f4.of_view hL f3 fun r hr => ?_⟩
  rw [f2]
  exact g4 r fun i hi => hr ⟨i, hi⟩

/-! ### arrays with more elements than `n` -/

/-- The two calls of a function on longer arrays: proof of the following theorems. -/
theorem longer_aux {v w p s : Array Int} {x y : M (Array Int)} {P : Prog Ref}
    (h1 : InPlace (fun r => if r = "a" then v else if r = "p" then p else #[]) "a" "p" x P)
    (h2 : InPlace (fun r => if r = "a" then v ++ w else if r = "p" then p ++ s else #[]) "a" "p" y P) :
    (∀ v', x = .ok v' → y = .ok (v' ++ w)) ∧ ∀ e, e ≠ .oob → x = .error e → y = .error e := by
  have e1 := C53_alone h1 (by decide)
  have e2 := C53_alone h2 (by decide)
  have key := run_longer (μ := fun r => if r = "a" then v else if r = "p" then p else #[])
    (μ' := fun r => if r = "a" then v ++ w else if r = "p" then p ++ s else #[]) P
    (fun r => if r = "a" then w else if r = "p" then s else #[]) (by
      intro r
      split
      · rfl
      · split
        · rfl
        · simp)
  rw [e1, e2] at key
  refine ⟨?_, ?_⟩
  · rintro v' rfl
    have := key (fun h => by cases h)
    cases y with
    | error e => cases this
    | ok y =>
      injection this with this
      injection this with _ this
      have := congrFun this "a"
      rw [upd_at, upd_at, if_pos rfl] at this
      rw [this]
  · rintro e he rfl
    have := key (fun h => he (by injection h))
    cases y with
    | error e' => injection this with this; rw [this]
    | ok y => cases this

/-- C68: a function `f(a, n, p)` on arrays `v ++ w` and `p ++ s` that are longer than it needs: the result for `v` and `p`,
with `w` unchanged behind it. -/
theorem C68_longer_table {f : Array Int → Nat → Array Int → M (Array Int)} {F : Ref → Nat → Ref → Prog Ref}
    (hf : (f, F) ∈ tableFunctions) (n : Nat) (v w p s : Array Int) :
    (∀ v', f v n p = .ok v' → f (v ++ w) n (p ++ s) = .ok (v' ++ w)) ∧
      ∀ e, e ≠ .oob → f v n p = .error e → f (v ++ w) n (p ++ s) = .error e :=
  longer_aux (.table hf n) (.table hf n)

/-- C68: the same for a function `f(a, n)`. -/
theorem C68_longer_plain {f : Array Int → Nat → M (Array Int)} {F : Ref → Nat → Prog Ref}
    (hf : (f, F) ∈ plainFunctions) (n : Nat) (v w : Array Int) :
    (∀ v', f v n = .ok v' → f (v ++ w) n = .ok (v' ++ w)) ∧
      ∀ e, e ≠ .oob → f v n = .error e → f (v ++ w) n = .error e :=
  longer_aux (p := #[]) (s := #[]) (.plain hf n) (.plain hf n)

/-- C68: the same for a function `f(a, n, c)`. -/
theorem C68_longer_scalar {f : Array Int → Nat → Int → M (Array Int)} {F : Ref → Nat → Int → Prog Ref}
    (hf : (f, F) ∈ scalarFunctions) (n : Nat) (c : Int) (v w : Array Int) :
    (∀ v', f v n c = .ok v' → f (v ++ w) n c = .ok (v' ++ w)) ∧
      ∀ e, e ≠ .oob → f v n c = .error e → f (v ++ w) n c = .error e :=
  longer_aux (p := #[]) (s := #[]) (.scalar hf n c) (.scalar hf n c)

/-- C68: the same for a function `f(a, n, p, q)` of src/naive_ntt.c. -/
theorem C68_longer_naive {f : Array Int → Nat → Array Int → Int → M (Array Int)}
    {F : Ref → Nat → Ref → Int → Prog Ref} (hf : (f, F) ∈ naiveFunctions) (n : Nat) (q : Int)
    (v w p s : Array Int) :
    (∀ v', f v n p q = .ok v' → f (v ++ w) n (p ++ s) q = .ok (v' ++ w)) ∧
      ∀ e, e ≠ .oob → f v n p q = .error e → f (v ++ w) n (p ++ s) q = .error e :=
  longer_aux (.naive hf n q) (.naive hf n q)

/-! ### examples and limits -/

/-- The arrays `a`, `b`, `c` of 16 elements one after the other in the object `buf`, with `g` other elements before, between
and after them; every table is an object. -/
def bufLayout (g : Nat) (t : Nttables) : Layout where
  obj := fun h => if h = "a" ∨ h = "b" ∨ h = "c" then "buf" else h
  off := fun h => if h = "a" then g else if h = "b" then 16 + 2 * g else if h = "c" then 32 + 3 * g else 0
  len := fun h => if h = "a" ∨ h = "b" ∨ h = "c" then 16 else if h = "buf" then 0
    else (exactMem t #[] #[] #[] #[] #[] h).size

/-- The heap with the tables and an object `buf` of `48 + 4 * g` elements. -/
def bufHeap (t : Nttables) (buf : Array Int) : Heap := fun o =>
  if o = "buf" then buf else exactMem t #[] #[] #[] #[] #[] o

theorem bufLayout_ok (g : Nat) (t : Nttables) {buf : Array Int} (hb : buf.size = 48 + 4 * g) :
    (bufLayout g t).OK (bufHeap t buf) := by
  constructor
  · intro h
    unfold bufLayout bufHeap
    dsimp only
    by_cases ha : h = "a"
    · subst ha; simp [hb]; omega
    by_cases hb' : h = "b"
    · subst hb'; simp [hb]; omega
    by_cases hc : h = "c"
    · subst hc; simp [hb]; omega
    by_cases hbuf : h = "buf"
    · subst hbuf; simp
    · simp [ha, hb', hc, hbuf]
  · rintro h h' o j ⟨rfl, h1, h2⟩ ⟨e, h3, h4⟩
    unfold bufLayout at *
    dsimp only at *
    by_cases hx : h = "a" ∨ h = "b" ∨ h = "c"
    · by_cases hx' : h' = "a" ∨ h' = "b" ∨ h' = "c"
      · rcases hx with rfl | rfl | rfl <;> rcases hx' with rfl | rfl | rfl <;> simp at * <;> omega
      · rw [if_pos hx, if_neg hx'] at e
        subst e
        simp at h3 h4
    · by_cases hx' : h' = "a" ∨ h' = "b" ∨ h' = "c"
      · rw [if_neg hx, if_pos hx'] at e
        subst e
        simp at h1 h2
      · rw [if_neg hx, if_neg hx'] at e
        exact e.symm

theorem bufTables (g : Nat) (t : Nttables) (buf : Array Int) :
    TablesAt (view (bufLayout g t) (bufHeap t buf)) id t := by
  constructor <;> simp [view, bufLayout, bufHeap, exactMem]

/-- `ntt16_product1(buf + 35, buf + 1, buf + 18)` in an object of 52 elements: the hypotheses of C68 hold. -/
example : ∃ (L : Layout) (H : Heap) (P : Prog (Ref × Ref × Ref)), L.OK H ∧ Call (view L H) id "c" "a" "b" 4 0 12288 P ∧
    L.obj "a" = L.obj "b" ∧ L.obj "a" = L.obj "c" ∧ L.len "c" = 2 ^ 4 ∧ L.len "a" = 2 ^ 4 ∧ L.len "b" = 2 ^ 4 ∧
    Reduced (view L H "a") ∧ Reduced (view L H "b") := by
  obtain ⟨t, e, _⟩ := C11_library (4, 16, 1212) (by simp [libraryParams])
  have hr : InRange 0 12288 (Array.replicate 16 (7 : Int)) := by unfold InRange; decide
  have hv : ∀ x ∈ ["a", "b"], view (bufLayout 1 t) (bufHeap t (Array.replicate 52 7)) x = Array.replicate 16 7 := by
    intro x hx
    simp only [List.mem_cons, List.not_mem_nil, or_false] at hx
    rcases hx with rfl | rfl <;> simp [view, bufLayout, bufHeap]
  refine ⟨bufLayout 1 t, bufHeap t (Array.replicate 52 7), _, bufLayout_ok 1 t (by simp),
    .exact (libraryParams_good (4, 16, 1212) (by simp [libraryParams])) someBuf_size e (bufTables 1 t _)
      (List.mem_cons_self), rfl, rfl, rfl, rfl, rfl, ?_, ?_⟩
  · rw [hv "a" (by simp)]; exact hr
  · rw [hv "b" (by simp)]; exact hr

/-- Pointers into the object `buf`: `c` at `oc`, `a` at `oa` and `b` at `ob`, 16 elements each; every table is an object. -/
def overlapLayout (oc oa ob : Nat) : Layout where
  obj := fun h => if h = "a" ∨ h = "b" ∨ h = "c" then "buf" else h
  off := fun h => if h = "c" then oc else if h = "a" then oa else if h = "b" then ob else 0
  len := fun h => if h = "a" ∨ h = "b" ∨ h = "c" then 16 else 0

/-- `1, 2, ..., 48` -/
def longRamp : Array Int :=
  #[1, 2, 3, 4, 5, 6, 7, 8, 9, 10, 11, 12, 13, 14, 15, 16, 17, 18, 19, 20, 21, 22, 23, 24,
    25, 26, 27, 28, 29, 30, 31, 32, 33, 34, 35, 36, 37, 38, 39, 40, 41, 42, 43, 44, 45, 46, 47, 48]

/-- The arguments must not overlap partly.  With 48 numbers in `buf`, the calls `ntt16_product<i>(buf + 32, buf, buf + 8)`,
where the operands overlap, and `ntt16_product<i>(buf + 8, buf, buf + 24)`, where the destination overlaps the first operand,
return and leave a wrong result. -/
theorem C68_overlap : ∃ t, make_tables someBuf 16 1212 = .ok t ∧
    ∀ P ∈ [Shared.Ntt.product1 id 16 "c" "a" "b", Shared.Ntt.product2 id 16 "c" "a" "b",
      Shared.Ntt.product3 id 16 "c" "a" "b", Shared.Ntt.product4 id 16 "c" "a" "b",
      Shared.Ntt.product5 t id 16 "c" "a" "b"],
    ∀ L ∈ [overlapLayout 32 0 8, overlapLayout 8 0 24],
    ∃ r H', runAt L P (bufHeap t longRamp) = .ok (r, H') ∧
      ¬ IsProduct 4 0 12288 (view L H' "c") (view L (bufHeap t longRamp) "a") (view L (bufHeap t longRamp) "b") := by
  obtain ⟨t, e, _⟩ := C11_library (4, 16, 1212) (by simp [libraryParams])
  refine ⟨t, e, ?_⟩
  have hcheck : (match make_tables someBuf 16 1212 with
      | .error _ => false
      | .ok t => [Shared.Ntt.product1 id 16 "c" "a" "b", Shared.Ntt.product2 id 16 "c" "a" "b",
        Shared.Ntt.product3 id 16 "c" "a" "b", Shared.Ntt.product4 id 16 "c" "a" "b",
        Shared.Ntt.product5 t id 16 "c" "a" "b"].all fun P =>
        [(overlapLayout 32 0 8, 10283), (overlapLayout 8 0 24, 8139)].all fun Lx =>
          match runAt Lx.1 P (bufHeap t longRamp) with
          | .error _ => false
          | .ok r => decide ((elt (view Lx.1 r.2 "c") 0 - Lx.2) % 12289 ≠ 0)) = true := by decide +kernel
  rw [show make_tables someBuf 16 1212 = .ok t from e] at hcheck
  dsimp only at hcheck
  rw [List.all_eq_true] at hcheck
  intro P hP L hLm
  have h1 := hcheck P hP
  rw [List.all_eq_true] at h1
  have hx : ∃ x : Int, (L, x) ∈ [(overlapLayout 32 0 8, 10283), (overlapLayout 8 0 24, 8139)] ∧
      negacyclic (2 ^ 4) (coeff (view L (bufHeap t longRamp) "a")) (coeff (view L (bufHeap t longRamp) "b")) 0
        = (x : Zq) := by
    simp only [List.mem_cons, List.not_mem_nil, or_false] at hLm
    rcases hLm with rfl | rfl
    · exact ⟨10283, by simp, by
        show negacyclic (2 ^ 4) (coeff (longRamp.extract 0 16)) (coeff (longRamp.extract 8 24)) 0 = _
        decide +kernel⟩
    · exact ⟨8139, by simp, by
        show negacyclic (2 ^ 4) (coeff (longRamp.extract 0 16)) (coeff (longRamp.extract 24 40)) 0 = _
        decide +kernel⟩
  obtain ⟨x, hxm, hxe⟩ := hx
  have := h1 (L, x) hxm
  dsimp only at this
  split at this
  · cases this
  · next r hr =>
    refine ⟨r.1, r.2, hr, ?_⟩
    rw [decide_eq_true_eq] at this
    rintro ⟨_, _, h⟩
    have h0 := h 0 (by decide)
    rw [hxe] at h0
    unfold coeff at h0
    rw [ZMod.intCast_eq_intCast_iff_dvd_sub] at h0
    omega

end Props
