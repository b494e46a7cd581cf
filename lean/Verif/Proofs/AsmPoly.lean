import Verif.Proofs.AsmRel

/-
Generated by tools/genasmtrace.py.  For every function `f` of `Verif/Model/AsmPoly.lean`: `f_plain` says that it is
the function of `Verif/Model/NttAsm.lean` for the operations `plain`, and `f_rel` that it preserves the
relations of `Verif/Proofs/AsmRel.lean`.
-/

namespace AsmPoly
open C Avx TraceAsm
open Trace (Named)

section
variable {m m' : Type → Type} [Monad m] [Monad m'] {A A' : Type} {O : Ops m A} {O' : Ops m' A'}
  (L : LR O O')

theorem loop0_plain : loop0 plain = Asm.loop0 := rfl

theorem loop0_rel (rsi : Nat) {ymm3 ymm3' : V8} (hymm3 : RE L.b ymm3 ymm3') {s : A × Nat} {s' : A' × Nat} (hs : RS L.RA s s') :
    L.Rel (RSB L.RA) (loop0 O rsi ymm3 s) (loop0 O' rsi ymm3' s') := by
  unfold loop0
  obtain ⟨a, g⟩ := s
  obtain ⟨a', g'⟩ := s'
  obtain ⟨ha, hg⟩ := hs
  obtain rfl : g = g' := hg
  refine L.bind (R := L.RA) (L.pure ha) ?_; intro a a' ha
  refine L.bind (R := Eq) (L.pure rfl) ?_; rintro rax _ rfl
  refine L.bind (L.load ha _) ?_; intro ymm0 ymm0' hymm0
  refine L.bind (L.load ha _) ?_; intro ymm1 ymm1' hymm1
  refine L.bind (R := RE L.b) (L.pure (fun h => by rw [hymm0 h, hymm3 h])) ?_; intro ymm0 ymm0' hymm0
  refine L.bind (L.store ha _ hymm0) ?_; intro a a' ha
  refine L.bind (R := RE L.b) (L.pure (fun h => by rw [hymm1 h, hymm3 h])) ?_; intro ymm1 ymm1' hymm1
  refine L.bind (L.store ha _ hymm1) ?_; intro a a' ha
  refine L.bind (R := Eq) (L.pure rfl) ?_; rintro rax _ rfl
  exact L.pure ⟨⟨ha, rfl⟩, rfl⟩

theorem reduce_array_asm_plain : reduce_array_asm plain = Asm.reduce_array_asm := rfl

theorem reduce_array_asm_rel {a : A} {a' : A'} (ha : L.RA a a') (n : Nat) :
    L.Rel L.RA (reduce_array_asm O a n) (reduce_array_asm O' a' n) := by
  unfold reduce_array_asm
  refine L.bind (R := Eq) (L.pure rfl) ?_; rintro rdi _ rfl
  refine L.bind (R := Eq) (L.pure rfl) ?_; rintro rsi _ rfl
  refine L.bind (R := RE L.b) (L.pure (fun _ => rfl)) ?_; intro ymm3 ymm3' hymm3
  refine L.bind (R := Eq) (L.pure rfl) ?_; rintro rax _ rfl
  refine L.bind (R := Eq) (L.pure rfl) ?_; rintro rsi _ rfl
  refine L.bind (L.jloop (R := RS L.RA) (fun s s' hs => loop0_rel L rsi hymm3 hs) _ _ _ ⟨ha, rfl⟩) ?_
  rintro ⟨a, st⟩ ⟨a', st'⟩ ⟨ha, he⟩
  obtain rfl : st = st' := he
  exact L.pure ha

theorem loop0b_plain : loop0b plain = Asm.loop0b := rfl

theorem loop0b_rel (rsi : Nat) {ymm3 ymm3' : V8} (hymm3 : RE L.b ymm3 ymm3') {s : A × Nat} {s' : A' × Nat} (hs : RS L.RA s s') :
    L.Rel (RSB L.RA) (loop0b O rsi ymm3 s) (loop0b O' rsi ymm3' s') := by
  unfold loop0b
  obtain ⟨a, g⟩ := s
  obtain ⟨a', g'⟩ := s'
  obtain ⟨ha, hg⟩ := hs
  obtain rfl : g = g' := hg
  refine L.bind (R := L.RA) (L.pure ha) ?_; intro a a' ha
  refine L.bind (R := Eq) (L.pure rfl) ?_; rintro rax _ rfl
  refine L.bind (L.load ha _) ?_; intro ymm0 ymm0' hymm0
  refine L.bind (R := RE L.b) (L.pure (fun h => by rw [hymm0 h, hymm3 h])) ?_; intro ymm0 ymm0' hymm0
  refine L.bind (L.store ha _ hymm0) ?_; intro a a' ha
  refine L.bind (R := Eq) (L.pure rfl) ?_; rintro rax _ rfl
  exact L.pure ⟨⟨ha, rfl⟩, rfl⟩

theorem reduce_array_asm2_plain : reduce_array_asm2 plain = Asm.reduce_array_asm2 := rfl

theorem reduce_array_asm2_rel {a : A} {a' : A'} (ha : L.RA a a') (n : Nat) :
    L.Rel L.RA (reduce_array_asm2 O a n) (reduce_array_asm2 O' a' n) := by
  unfold reduce_array_asm2
  refine L.bind (R := Eq) (L.pure rfl) ?_; rintro rdi _ rfl
  refine L.bind (R := Eq) (L.pure rfl) ?_; rintro rsi _ rfl
  refine L.bind (R := RE L.b) (L.pure (fun _ => rfl)) ?_; intro ymm3 ymm3' hymm3
  refine L.bind (R := Eq) (L.pure rfl) ?_; rintro rax _ rfl
  refine L.bind (R := Eq) (L.pure rfl) ?_; rintro rsi _ rfl
  refine L.bind (L.jloop (R := RS L.RA) (fun s s' hs => loop0b_rel L rsi hymm3 hs) _ _ _ ⟨ha, rfl⟩) ?_
  rintro ⟨a, st⟩ ⟨a', st'⟩ ⟨ha, he⟩
  obtain rfl : st = st' := he
  exact L.pure ha

theorem loop1_plain : loop1 plain = Asm.loop1 := rfl

theorem loop1_rel (rsi : Nat) {ymm3 ymm3' : V8} (hymm3 : RE L.b ymm3 ymm3') {s : A × Nat} {s' : A' × Nat} (hs : RS L.RA s s') :
    L.Rel (RSB L.RA) (loop1 O rsi ymm3 s) (loop1 O' rsi ymm3' s') := by
  unfold loop1
  obtain ⟨a, g⟩ := s
  obtain ⟨a', g'⟩ := s'
  obtain ⟨ha, hg⟩ := hs
  obtain rfl : g = g' := hg
  refine L.bind (R := L.RA) (L.pure ha) ?_; intro a a' ha
  refine L.bind (R := Eq) (L.pure rfl) ?_; rintro rax _ rfl
  refine L.bind (L.load ha _) ?_; intro ymm0 ymm0' hymm0
  refine L.bind (L.load ha _) ?_; intro ymm1 ymm1' hymm1
  refine L.bind (R := RE L.b) (L.pure (fun h => by rw [hymm0 h, hymm3 h])) ?_; intro ymm0 ymm0' hymm0
  refine L.bind (L.store ha _ hymm0) ?_; intro a a' ha
  refine L.bind (R := RE L.b) (L.pure (fun h => by rw [hymm1 h, hymm3 h])) ?_; intro ymm1 ymm1' hymm1
  refine L.bind (L.store ha _ hymm1) ?_; intro a a' ha
  refine L.bind (R := Eq) (L.pure rfl) ?_; rintro rax _ rfl
  exact L.pure ⟨⟨ha, rfl⟩, rfl⟩

theorem reduce_array_twice_asm_plain : reduce_array_twice_asm plain = Asm.reduce_array_twice_asm := rfl

theorem reduce_array_twice_asm_rel {a : A} {a' : A'} (ha : L.RA a a') (n : Nat) :
    L.Rel L.RA (reduce_array_twice_asm O a n) (reduce_array_twice_asm O' a' n) := by
  unfold reduce_array_twice_asm
  refine L.bind (R := Eq) (L.pure rfl) ?_; rintro rdi _ rfl
  refine L.bind (R := Eq) (L.pure rfl) ?_; rintro rsi _ rfl
  refine L.bind (R := RE L.b) (L.pure (fun _ => rfl)) ?_; intro ymm3 ymm3' hymm3
  refine L.bind (R := Eq) (L.pure rfl) ?_; rintro rax _ rfl
  refine L.bind (R := Eq) (L.pure rfl) ?_; rintro rsi _ rfl
  refine L.bind (L.jloop (R := RS L.RA) (fun s s' hs => loop1_rel L rsi hymm3 hs) _ _ _ ⟨ha, rfl⟩) ?_
  rintro ⟨a, st⟩ ⟨a', st'⟩ ⟨ha, he⟩
  obtain rfl : st = st' := he
  exact L.pure ha

theorem loop1b_plain : loop1b plain = Asm.loop1b := rfl

theorem loop1b_rel (rsi : Nat) {ymm3 ymm3' : V8} (hymm3 : RE L.b ymm3 ymm3') {s : A × Nat} {s' : A' × Nat} (hs : RS L.RA s s') :
    L.Rel (RSB L.RA) (loop1b O rsi ymm3 s) (loop1b O' rsi ymm3' s') := by
  unfold loop1b
  obtain ⟨a, g⟩ := s
  obtain ⟨a', g'⟩ := s'
  obtain ⟨ha, hg⟩ := hs
  obtain rfl : g = g' := hg
  refine L.bind (R := L.RA) (L.pure ha) ?_; intro a a' ha
  refine L.bind (R := Eq) (L.pure rfl) ?_; rintro rax _ rfl
  refine L.bind (L.load ha _) ?_; intro ymm0 ymm0' hymm0
  refine L.bind (R := RE L.b) (L.pure (fun h => by rw [hymm0 h, hymm3 h])) ?_; intro ymm0 ymm0' hymm0
  refine L.bind (L.store ha _ hymm0) ?_; intro a a' ha
  refine L.bind (R := Eq) (L.pure rfl) ?_; rintro rax _ rfl
  exact L.pure ⟨⟨ha, rfl⟩, rfl⟩

theorem reduce_array_twice_asm2_plain : reduce_array_twice_asm2 plain = Asm.reduce_array_twice_asm2 := rfl

theorem reduce_array_twice_asm2_rel {a : A} {a' : A'} (ha : L.RA a a') (n : Nat) :
    L.Rel L.RA (reduce_array_twice_asm2 O a n) (reduce_array_twice_asm2 O' a' n) := by
  unfold reduce_array_twice_asm2
  refine L.bind (R := Eq) (L.pure rfl) ?_; rintro rdi _ rfl
  refine L.bind (R := Eq) (L.pure rfl) ?_; rintro rsi _ rfl
  refine L.bind (R := RE L.b) (L.pure (fun _ => rfl)) ?_; intro ymm3 ymm3' hymm3
  refine L.bind (R := Eq) (L.pure rfl) ?_; rintro rax _ rfl
  refine L.bind (R := Eq) (L.pure rfl) ?_; rintro rsi _ rfl
  refine L.bind (L.jloop (R := RS L.RA) (fun s s' hs => loop1b_rel L rsi hymm3 hs) _ _ _ ⟨ha, rfl⟩) ?_
  rintro ⟨a, st⟩ ⟨a', st'⟩ ⟨ha, he⟩
  obtain rfl : st = st' := he
  exact L.pure ha

theorem loop2_plain : loop2 plain = Asm.loop2 := rfl

theorem loop2_rel (rsi : Nat) {ymm3 ymm3' : V8} (hymm3 : RE L.b ymm3 ymm3') {ymm4 ymm4' : V8} (hymm4 : RE L.b ymm4 ymm4') {s : A × Nat} {s' : A' × Nat} (hs : RS L.RA s s') :
    L.Rel (RSB L.RA) (loop2 O rsi ymm3 ymm4 s) (loop2 O' rsi ymm3' ymm4' s') := by
  unfold loop2
  obtain ⟨a, g⟩ := s
  obtain ⟨a', g'⟩ := s'
  obtain ⟨ha, hg⟩ := hs
  obtain rfl : g = g' := hg
  refine L.bind (R := L.RA) (L.pure ha) ?_; intro a a' ha
  refine L.bind (R := Eq) (L.pure rfl) ?_; rintro rax _ rfl
  refine L.bind (L.load ha _) ?_; intro ymm0 ymm0' hymm0
  refine L.bind (L.load ha _) ?_; intro ymm1 ymm1' hymm1
  refine L.bind (R := RE L.b) (L.pure (fun h => by rw [hymm0 h, hymm3 h, hymm4 h])) ?_; intro ymm0 ymm0' hymm0
  refine L.bind (L.store ha _ hymm0) ?_; intro a a' ha
  refine L.bind (R := RE L.b) (L.pure (fun h => by rw [hymm1 h, hymm3 h, hymm4 h])) ?_; intro ymm1 ymm1' hymm1
  refine L.bind (L.store ha _ hymm1) ?_; intro a a' ha
  refine L.bind (R := Eq) (L.pure rfl) ?_; rintro rax _ rfl
  exact L.pure ⟨⟨ha, rfl⟩, rfl⟩

theorem correct_asm_plain : correct_asm plain = Asm.correct_asm := rfl

theorem correct_asm_rel {a : A} {a' : A'} (ha : L.RA a a') (n : Nat) :
    L.Rel L.RA (correct_asm O a n) (correct_asm O' a' n) := by
  unfold correct_asm
  refine L.bind (R := Eq) (L.pure rfl) ?_; rintro rdi _ rfl
  refine L.bind (R := Eq) (L.pure rfl) ?_; rintro rsi _ rfl
  refine L.bind (R := RE L.b) (L.pure (fun _ => rfl)) ?_; intro ymm3 ymm3' hymm3
  refine L.bind (R := RE L.b) (L.pure (fun _ => rfl)) ?_; intro ymm4 ymm4' hymm4
  refine L.bind (R := Eq) (L.pure rfl) ?_; rintro rax _ rfl
  refine L.bind (R := Eq) (L.pure rfl) ?_; rintro rsi _ rfl
  refine L.bind (L.jloop (R := RS L.RA) (fun s s' hs => loop2_rel L rsi hymm3 hymm4 hs) _ _ _ ⟨ha, rfl⟩) ?_
  rintro ⟨a, st⟩ ⟨a', st'⟩ ⟨ha, he⟩
  obtain rfl : st = st' := he
  exact L.pure ha

theorem loop_shift_plain : loop_shift plain = Asm.loop_shift := rfl

theorem loop_shift_rel (rsi : Nat) {ymm3 ymm3' : V8} (hymm3 : RE L.b ymm3 ymm3') {ymm4 ymm4' : V8} (hymm4 : RE L.b ymm4 ymm4') {s : A × Nat} {s' : A' × Nat} (hs : RS L.RA s s') :
    L.Rel (RSB L.RA) (loop_shift O rsi ymm3 ymm4 s) (loop_shift O' rsi ymm3' ymm4' s') := by
  unfold loop_shift
  obtain ⟨a, g⟩ := s
  obtain ⟨a', g'⟩ := s'
  obtain ⟨ha, hg⟩ := hs
  obtain rfl : g = g' := hg
  refine L.bind (R := L.RA) (L.pure ha) ?_; intro a a' ha
  refine L.bind (R := Eq) (L.pure rfl) ?_; rintro rax _ rfl
  refine L.bind (L.load ha _) ?_; intro ymm0 ymm0' hymm0
  refine L.bind (L.load ha _) ?_; intro ymm1 ymm1' hymm1
  refine L.bind (R := RE L.b) (L.pure (fun h => by rw [hymm0 h, hymm3 h, hymm4 h])) ?_; intro ymm0 ymm0' hymm0
  refine L.bind (L.store ha _ hymm0) ?_; intro a a' ha
  refine L.bind (R := RE L.b) (L.pure (fun h => by rw [hymm1 h, hymm3 h, hymm4 h])) ?_; intro ymm1 ymm1' hymm1
  refine L.bind (L.store ha _ hymm1) ?_; intro a a' ha
  refine L.bind (R := Eq) (L.pure rfl) ?_; rintro rax _ rfl
  exact L.pure ⟨⟨ha, rfl⟩, rfl⟩

theorem shift_array_asm_plain : shift_array_asm plain = Asm.shift_array_asm := rfl

theorem shift_array_asm_rel {a : A} {a' : A'} (ha : L.RA a a') (n : Nat) :
    L.Rel L.RA (shift_array_asm O a n) (shift_array_asm O' a' n) := by
  unfold shift_array_asm
  refine L.bind (R := Eq) (L.pure rfl) ?_; rintro rdi _ rfl
  refine L.bind (R := Eq) (L.pure rfl) ?_; rintro rsi _ rfl
  refine L.bind (R := RE L.b) (L.pure (fun _ => rfl)) ?_; intro ymm3 ymm3' hymm3
  refine L.bind (R := RE L.b) (L.pure (fun _ => rfl)) ?_; intro ymm4 ymm4' hymm4
  refine L.bind (R := Eq) (L.pure rfl) ?_; rintro rax _ rfl
  refine L.bind (R := Eq) (L.pure rfl) ?_; rintro rsi _ rfl
  refine L.bind (L.jloop (R := RS L.RA) (fun s s' hs => loop_shift_rel L rsi hymm3 hymm4 hs) _ _ _ ⟨ha, rfl⟩) ?_
  rintro ⟨a, st⟩ ⟨a', st'⟩ ⟨ha, he⟩
  obtain rfl : st = st' := he
  exact L.pure ha

theorem loop3_plain : loop3 plain = Asm.loop3 := rfl

theorem loop3_rel {p : A} {p' : A'} (hp : L.RA p p') (rsi : Nat) {ymm4 ymm4' : V8} (hymm4 : RE L.b ymm4 ymm4') {s : A × Nat × Nat} {s' : A' × Nat × Nat} (hs : RS L.RA s s') :
    L.Rel (RSB L.RA) (loop3 O p rsi ymm4 s) (loop3 O' p' rsi ymm4' s') := by
  unfold loop3
  obtain ⟨a, g⟩ := s
  obtain ⟨a', g'⟩ := s'
  obtain ⟨ha, hg⟩ := hs
  obtain rfl : g = g' := hg
  refine L.bind (R := L.RA) (L.pure ha) ?_; intro a a' ha
  refine L.bind (R := Eq) (L.pure rfl) ?_; rintro rax _ rfl
  refine L.bind (R := Eq) (L.pure rfl) ?_; rintro rdx _ rfl
  refine L.bind (L.load ha _) ?_; intro ymm0 ymm0' hymm0
  refine L.bind (L.load_sxwd hp _) ?_; intro ymm1 ymm1' hymm1
  refine L.bind (R := RE L.b) (L.pure (fun h => by rw [hymm0 h, hymm1 h, hymm4 h])) ?_; intro ymm0 ymm0' hymm0
  refine L.bind (L.store ha _ hymm0) ?_; intro a a' ha
  refine L.bind (R := Eq) (L.pure rfl) ?_; rintro rax _ rfl
  refine L.bind (R := Eq) (L.pure rfl) ?_; rintro rdx _ rfl
  exact L.pure ⟨⟨ha, rfl⟩, rfl⟩

theorem mul_reduce_array16_asm_plain : mul_reduce_array16_asm plain = Asm.mul_reduce_array16_asm := rfl

theorem mul_reduce_array16_asm_rel {a : A} {a' : A'} (ha : L.RA a a') (n : Nat) {p : A} {p' : A'} (hp : L.RA p p') :
    L.Rel L.RA (mul_reduce_array16_asm O a n p) (mul_reduce_array16_asm O' a' n p') := by
  unfold mul_reduce_array16_asm
  refine L.bind (R := Eq) (L.pure rfl) ?_; rintro rdi _ rfl
  refine L.bind (R := Eq) (L.pure rfl) ?_; rintro rsi _ rfl
  refine L.bind (R := Eq) (L.pure rfl) ?_; rintro rdx _ rfl
  refine L.bind (R := RE L.b) (L.pure (fun _ => rfl)) ?_; intro ymm4 ymm4' hymm4
  refine L.bind (R := Eq) (L.pure rfl) ?_; rintro rax _ rfl
  refine L.bind (R := Eq) (L.pure rfl) ?_; rintro rsi _ rfl
  refine L.bind (L.jloop (R := RS L.RA) (fun s s' hs => loop3_rel L hp rsi hymm4 hs) _ _ _ ⟨ha, rfl⟩) ?_
  rintro ⟨a, st⟩ ⟨a', st'⟩ ⟨ha, he⟩
  obtain rfl : st = st' := he
  exact L.pure ha

theorem loop4_plain : loop4 plain = Asm.loop4 := rfl

theorem loop4_rel {p : A} {p' : A'} (hp : L.RA p p') (rsi : Nat) {ymm5 ymm5' : V8} (hymm5 : RE L.b ymm5 ymm5') {ymm6 ymm6' : V8} (hymm6 : RE L.b ymm6 ymm6') {s : A × Nat × Nat} {s' : A' × Nat × Nat} (hs : RS L.RA s s') :
    L.Rel (RSB L.RA) (loop4 O p rsi ymm5 ymm6 s) (loop4 O' p' rsi ymm5' ymm6' s') := by
  unfold loop4
  obtain ⟨a, g⟩ := s
  obtain ⟨a', g'⟩ := s'
  obtain ⟨ha, hg⟩ := hs
  obtain rfl : g = g' := hg
  refine L.bind (R := L.RA) (L.pure ha) ?_; intro a a' ha
  refine L.bind (R := Eq) (L.pure rfl) ?_; rintro rax _ rfl
  refine L.bind (R := Eq) (L.pure rfl) ?_; rintro rdx _ rfl
  refine L.bind (L.load_sxdq ha _) ?_; intro ymm0 ymm0' hymm0
  refine L.bind (L.load_sxwq hp _) ?_; intro ymm1 ymm1' hymm1
  refine L.bind (R := RE L.b) (L.pure (fun h => by rw [hymm0 h, hymm1 h, hymm5 h, hymm6 h])) ?_; intro ymm0 ymm0' hymm0
  refine L.bind (L.store128 ha _ hymm0) ?_; intro a a' ha
  refine L.bind (R := Eq) (L.pure rfl) ?_; rintro rax _ rfl
  refine L.bind (R := Eq) (L.pure rfl) ?_; rintro rdx _ rfl
  exact L.pure ⟨⟨ha, rfl⟩, rfl⟩

theorem mul_reduce_array16_asm2_plain : mul_reduce_array16_asm2 plain = Asm.mul_reduce_array16_asm2 := rfl

theorem mul_reduce_array16_asm2_rel {a : A} {a' : A'} (ha : L.RA a a') (n : Nat) {p : A} {p' : A'} (hp : L.RA p p') :
    L.Rel L.RA (mul_reduce_array16_asm2 O a n p) (mul_reduce_array16_asm2 O' a' n p') := by
  unfold mul_reduce_array16_asm2
  refine L.bind (R := Eq) (L.pure rfl) ?_; rintro rdi _ rfl
  refine L.bind (R := Eq) (L.pure rfl) ?_; rintro rsi _ rfl
  refine L.bind (R := Eq) (L.pure rfl) ?_; rintro rdx _ rfl
  refine L.bind (R := RE L.b) (L.pure (fun _ => rfl)) ?_; intro ymm5 ymm5' hymm5
  refine L.bind (R := RE L.b) (L.pure (fun _ => rfl)) ?_; intro ymm6 ymm6' hymm6
  refine L.bind (R := Eq) (L.pure rfl) ?_; rintro rax _ rfl
  refine L.bind (R := Eq) (L.pure rfl) ?_; rintro rsi _ rfl
  refine L.bind (L.jloop (R := RS L.RA) (fun s s' hs => loop4_rel L hp rsi hymm5 hymm6 hs) _ _ _ ⟨ha, rfl⟩) ?_
  rintro ⟨a, st⟩ ⟨a', st'⟩ ⟨ha, he⟩
  obtain rfl : st = st' := he
  exact L.pure ha

theorem loop5_plain : loop5 plain = Asm.loop5 := rfl

theorem loop5_rel {b : A} {b' : A'} (hb : L.RA b b') {c : A} {c' : A'} (hc : L.RA c c') (rsi : Nat) {ymm4 ymm4' : V8} (hymm4 : RE L.b ymm4 ymm4') {s : A × Nat × Nat × Nat} {s' : A' × Nat × Nat × Nat} (hs : RS L.RA s s') :
    L.Rel (RSB L.RA) (loop5 O b c rsi ymm4 s) (loop5 O' b' c' rsi ymm4' s') := by
  unfold loop5
  obtain ⟨a, g⟩ := s
  obtain ⟨a', g'⟩ := s'
  obtain ⟨ha, hg⟩ := hs
  obtain rfl : g = g' := hg
  refine L.bind (R := L.RA) (L.pure ha) ?_; intro a a' ha
  refine L.bind (R := Eq) (L.pure rfl) ?_; rintro rax _ rfl
  refine L.bind (R := Eq) (L.pure rfl) ?_; rintro rdx _ rfl
  refine L.bind (R := Eq) (L.pure rfl) ?_; rintro rcx _ rfl
  refine L.bind (L.load hb _) ?_; intro ymm0 ymm0' hymm0
  refine L.bind (L.load hc _) ?_; intro ymm1 ymm1' hymm1
  refine L.bind (R := RE L.b) (L.pure (fun h => by rw [hymm0 h, hymm1 h, hymm4 h])) ?_; intro ymm0 ymm0' hymm0
  refine L.bind (L.store ha _ hymm0) ?_; intro a a' ha
  refine L.bind (R := Eq) (L.pure rfl) ?_; rintro rax _ rfl
  refine L.bind (R := Eq) (L.pure rfl) ?_; rintro rdx _ rfl
  refine L.bind (R := Eq) (L.pure rfl) ?_; rintro rcx _ rfl
  exact L.pure ⟨⟨ha, rfl⟩, rfl⟩

theorem mul_reduce_array_asm_plain : mul_reduce_array_asm plain = Asm.mul_reduce_array_asm := rfl

theorem mul_reduce_array_asm_rel {a : A} {a' : A'} (ha : L.RA a a') (n : Nat) {b : A} {b' : A'} (hb : L.RA b b') {c : A} {c' : A'} (hc : L.RA c c') :
    L.Rel L.RA (mul_reduce_array_asm O a n b c) (mul_reduce_array_asm O' a' n b' c') := by
  unfold mul_reduce_array_asm
  refine L.bind (R := Eq) (L.pure rfl) ?_; rintro rdi _ rfl
  refine L.bind (R := Eq) (L.pure rfl) ?_; rintro rsi _ rfl
  refine L.bind (R := Eq) (L.pure rfl) ?_; rintro rdx _ rfl
  refine L.bind (R := Eq) (L.pure rfl) ?_; rintro rcx _ rfl
  refine L.bind (R := RE L.b) (L.pure (fun _ => rfl)) ?_; intro ymm4 ymm4' hymm4
  refine L.bind (R := Eq) (L.pure rfl) ?_; rintro rax _ rfl
  refine L.bind (R := Eq) (L.pure rfl) ?_; rintro rsi _ rfl
  refine L.bind (L.jloop (R := RS L.RA) (fun s s' hs => loop5_rel L hb hc rsi hymm4 hs) _ _ _ ⟨ha, rfl⟩) ?_
  rintro ⟨a, st⟩ ⟨a', st'⟩ ⟨ha, he⟩
  obtain rfl : st = st' := he
  exact L.pure ha

theorem loop6_plain : loop6 plain = Asm.loop6 := rfl

theorem loop6_rel (rsi : Nat) {ymm1 ymm1' : V8} (hymm1 : RE L.b ymm1 ymm1') {ymm4 ymm4' : V8} (hymm4 : RE L.b ymm4 ymm4') {s : A × Nat} {s' : A' × Nat} (hs : RS L.RA s s') :
    L.Rel (RSB L.RA) (loop6 O rsi ymm1 ymm4 s) (loop6 O' rsi ymm1' ymm4' s') := by
  unfold loop6
  obtain ⟨a, g⟩ := s
  obtain ⟨a', g'⟩ := s'
  obtain ⟨ha, hg⟩ := hs
  obtain rfl : g = g' := hg
  refine L.bind (R := L.RA) (L.pure ha) ?_; intro a a' ha
  refine L.bind (R := Eq) (L.pure rfl) ?_; rintro rax _ rfl
  refine L.bind (L.load ha _) ?_; intro ymm0 ymm0' hymm0
  refine L.bind (R := RE L.b) (L.pure (fun h => by rw [hymm0 h, hymm1 h, hymm4 h])) ?_; intro ymm0 ymm0' hymm0
  refine L.bind (L.store ha _ hymm0) ?_; intro a a' ha
  refine L.bind (R := Eq) (L.pure rfl) ?_; rintro rax _ rfl
  exact L.pure ⟨⟨ha, rfl⟩, rfl⟩

theorem scalar_mul_reduce_array_asm_plain : scalar_mul_reduce_array_asm plain = Asm.scalar_mul_reduce_array_asm := rfl

theorem scalar_mul_reduce_array_asm_rel {a : A} {a' : A'} (ha : L.RA a a') (n : Nat) {rdx rdx' : Int} (hrdx : RE L.b rdx rdx') :
    L.Rel L.RA (scalar_mul_reduce_array_asm O a n rdx) (scalar_mul_reduce_array_asm O' a' n rdx') := by
  unfold scalar_mul_reduce_array_asm
  refine L.bind (R := Eq) (L.pure rfl) ?_; rintro rdi _ rfl
  refine L.bind (R := Eq) (L.pure rfl) ?_; rintro rsi _ rfl
  refine L.bind (R := RE L.b) (L.pure (fun _ => rfl)) ?_; intro ymm4 ymm4' hymm4
  refine L.bind (R := Eq) (L.pure rfl) ?_; rintro rax _ rfl
  refine L.bind (R := Eq) (L.pure rfl) ?_; rintro rsi _ rfl
  refine L.bind (R := RE L.b) (L.pure (fun h => by rw [hrdx h])) ?_; intro ymm0 ymm0' hymm0
  refine L.bind (R := RE L.b) (L.pure (fun h => by rw [hymm0 h])) ?_; intro ymm1 ymm1' hymm1
  refine L.bind (L.jloop (R := RS L.RA) (fun s s' hs => loop6_rel L rsi hymm1 hymm4 hs) _ _ _ ⟨ha, rfl⟩) ?_
  rintro ⟨a, st⟩ ⟨a', st'⟩ ⟨ha, he⟩
  obtain rfl : st = st' := he
  exact L.pure ha

theorem ct_r2s_size8_loop_plain : ct_r2s_size8_loop plain = Asm.ct_r2s_size8_loop := rfl

theorem ct_r2s_size8_loop_rel (rsi : Nat) {ymm4 ymm4' : V8} (hymm4 : RE L.b ymm4 ymm4') {ymm5 ymm5' : V8} (hymm5 : RE L.b ymm5 ymm5') {ymm6 ymm6' : V8} (hymm6 : RE L.b ymm6 ymm6') {s : A × Nat} {s' : A' × Nat} (hs : RS L.RA s s') :
    L.Rel (RSB L.RA) (ct_r2s_size8_loop O rsi ymm4 ymm5 ymm6 s) (ct_r2s_size8_loop O' rsi ymm4' ymm5' ymm6' s') := by
  unfold ct_r2s_size8_loop
  obtain ⟨a, g⟩ := s
  obtain ⟨a', g'⟩ := s'
  obtain ⟨ha, hg⟩ := hs
  obtain rfl : g = g' := hg
  refine L.bind (R := L.RA) (L.pure ha) ?_; intro a a' ha
  refine L.bind (R := Eq) (L.pure rfl) ?_; rintro rax _ rfl
  refine L.bind (L.load ha _) ?_; intro ymm0 ymm0' hymm0
  refine L.bind (R := RE L.b) (L.pure (fun h => by rw [hymm0 h, hymm4 h, hymm5 h, hymm6 h])) ?_; intro ymm0 ymm0' hymm0
  refine L.bind (L.store ha _ hymm0) ?_; intro a a' ha
  refine L.bind (R := Eq) (L.pure rfl) ?_; rintro rax _ rfl
  exact L.pure ⟨⟨ha, rfl⟩, rfl⟩

theorem ct_r2s_size16_loop_plain : ct_r2s_size16_loop plain = Asm.ct_r2s_size16_loop := rfl

theorem ct_r2s_size16_loop_rel (rsi : Nat) {ymm4 ymm4' : V8} (hymm4 : RE L.b ymm4 ymm4') {ymm5 ymm5' : V8} (hymm5 : RE L.b ymm5 ymm5') {ymm6 ymm6' : V8} (hymm6 : RE L.b ymm6 ymm6') {s : A × Nat} {s' : A' × Nat} (hs : RS L.RA s s') :
    L.Rel (RSB L.RA) (ct_r2s_size16_loop O rsi ymm4 ymm5 ymm6 s) (ct_r2s_size16_loop O' rsi ymm4' ymm5' ymm6' s') := by
  unfold ct_r2s_size16_loop
  obtain ⟨a, g⟩ := s
  obtain ⟨a', g'⟩ := s'
  obtain ⟨ha, hg⟩ := hs
  obtain rfl : g = g' := hg
  refine L.bind (R := L.RA) (L.pure ha) ?_; intro a a' ha
  refine L.bind (R := Eq) (L.pure rfl) ?_; rintro rax _ rfl
  refine L.bind (L.load ha _) ?_; intro ymm0 ymm0' hymm0
  refine L.bind (L.load ha _) ?_; intro ymm1 ymm1' hymm1
  refine L.bind (R := RE L.b) (L.pure (fun h => by rw [hymm0 h, hymm1 h, hymm4 h, hymm5 h, hymm6 h])) ?_; intro t t' ht
  refine L.bind (R := RE L.b) (L.pure (fun h => by rw [ht h])) ?_; intro ymm2 ymm2' hymm2
  refine L.bind (R := RE L.b) (L.pure (fun h => by rw [ht h])) ?_; intro ymm3 ymm3' hymm3
  refine L.bind (L.store ha _ hymm2) ?_; intro a a' ha
  refine L.bind (L.store ha _ hymm3) ?_; intro a a' ha
  refine L.bind (R := Eq) (L.pure rfl) ?_; rintro rax _ rfl
  exact L.pure ⟨⟨ha, rfl⟩, rfl⟩

theorem ct_r2s_inner_loop_plain : ct_r2s_inner_loop plain = Asm.ct_r2s_inner_loop := rfl

theorem ct_r2s_inner_loop_rel {p : A} {p' : A'} (hp : L.RA p p') (r8 : Nat) {ymm4 ymm4' : V8} (hymm4 : RE L.b ymm4 ymm4') {s : A × Nat × Nat × Nat} {s' : A' × Nat × Nat × Nat} (hs : RS L.RA s s') :
    L.Rel (RSB L.RA) (ct_r2s_inner_loop O p r8 ymm4 s) (ct_r2s_inner_loop O' p' r8 ymm4' s') := by
  unfold ct_r2s_inner_loop
  obtain ⟨a, g⟩ := s
  obtain ⟨a', g'⟩ := s'
  obtain ⟨ha, hg⟩ := hs
  obtain rfl : g = g' := hg
  refine L.bind (R := L.RA) (L.pure ha) ?_; intro a a' ha
  refine L.bind (R := Eq) (L.pure rfl) ?_; rintro rax _ rfl
  refine L.bind (R := Eq) (L.pure rfl) ?_; rintro rcx _ rfl
  refine L.bind (R := Eq) (L.pure rfl) ?_; rintro rdx _ rfl
  refine L.bind (L.load ha _) ?_; intro ymm0 ymm0' hymm0
  refine L.bind (L.load ha _) ?_; intro ymm1 ymm1' hymm1
  refine L.bind (L.load_sxwd hp _) ?_; intro ymm6 ymm6' hymm6
  refine L.bind (R := RE L.b) (L.pure (fun h => by rw [hymm0 h, hymm1 h, hymm4 h, hymm6 h])) ?_; intro t t' ht
  refine L.bind (R := RE L.b) (L.pure (fun h => by rw [ht h])) ?_; intro ymm2 ymm2' hymm2
  refine L.bind (R := RE L.b) (L.pure (fun h => by rw [ht h])) ?_; intro ymm3 ymm3' hymm3
  refine L.bind (L.store ha _ hymm2) ?_; intro a a' ha
  refine L.bind (L.store ha _ hymm3) ?_; intro a a' ha
  refine L.bind (R := Eq) (L.pure rfl) ?_; rintro rdx _ rfl
  refine L.bind (R := Eq) (L.pure rfl) ?_; rintro rax _ rfl
  refine L.bind (R := Eq) (L.pure rfl) ?_; rintro rcx _ rfl
  exact L.pure ⟨⟨ha, rfl⟩, rfl⟩

theorem ct_r2s_loop_aux1_plain : ct_r2s_loop_aux1 plain = Asm.ct_r2s_loop_aux1 := rfl

theorem ct_r2s_loop_aux1_rel {p : A} {p' : A'} (hp : L.RA p p') (n : Nat) (rsi : Nat) (r10 : Nat) (r11 : Nat) {ymm4 ymm4' : V8} (hymm4 : RE L.b ymm4 ymm4') {s : A × Nat} {s' : A' × Nat} (hs : RS L.RA s s') :
    L.Rel (RSB L.RA) (ct_r2s_loop_aux1 O p n rsi r10 r11 ymm4 s) (ct_r2s_loop_aux1 O' p' n rsi r10 r11 ymm4' s') := by
  unfold ct_r2s_loop_aux1
  obtain ⟨a, g⟩ := s
  obtain ⟨a', g'⟩ := s'
  obtain ⟨ha, hg⟩ := hs
  obtain rfl : g = g' := hg
  refine L.bind (R := L.RA) (L.pure ha) ?_; intro a a' ha
  refine L.bind (R := Eq) (L.pure rfl) ?_; rintro rax _ rfl
  refine L.bind (R := Eq) (L.pure rfl) ?_; rintro rcx _ rfl
  refine L.bind (R := Eq) (L.pure rfl) ?_; rintro r8 _ rfl
  refine L.bind (R := Eq) (L.pure rfl) ?_; rintro rdx _ rfl
  refine L.bind (L.jloop (R := RS L.RA) (fun s s' hs => ct_r2s_inner_loop_rel L hp r8 hymm4 hs) _ _ _ ⟨ha, rfl⟩) ?_
  rintro ⟨a, st⟩ ⟨a', st'⟩ ⟨ha, he⟩
  obtain rfl : st = st' := he
  refine L.bind (R := L.RA) (L.pure ha) ?_; intro a a' ha
  refine L.bind (R := Eq) (L.pure rfl) ?_; rintro rax _ rfl
  exact L.pure ⟨⟨ha, rfl⟩, rfl⟩

theorem ct_r2s_size32_loop_plain : ct_r2s_size32_loop plain = Asm.ct_r2s_size32_loop := rfl

theorem ct_r2s_size32_loop_rel {p : A} {p' : A'} (hp : L.RA p p') (n : Nat) (rdi : Nat) (rsi : Nat) (r9 : Nat) {ymm4 ymm4' : V8} (hymm4 : RE L.b ymm4 ymm4') {s : A × Nat × Nat} {s' : A' × Nat × Nat} (hs : RS L.RA s s') :
    L.Rel (RSB L.RA) (ct_r2s_size32_loop O p n rdi rsi r9 ymm4 s) (ct_r2s_size32_loop O' p' n rdi rsi r9 ymm4' s') := by
  unfold ct_r2s_size32_loop
  obtain ⟨a, g⟩ := s
  obtain ⟨a', g'⟩ := s'
  obtain ⟨ha, hg⟩ := hs
  obtain rfl : g = g' := hg
  refine L.bind (R := L.RA) (L.pure ha) ?_; intro a a' ha
  refine L.bind (R := Eq) (L.pure rfl) ?_; rintro r10 _ rfl
  refine L.bind (R := Eq) (L.pure rfl) ?_; rintro r11 _ rfl
  refine L.bind (R := Eq) (L.pure rfl) ?_; rintro rax _ rfl
  refine L.bind (L.jloop (R := RS L.RA) (fun s s' hs => ct_r2s_loop_aux1_rel L hp n rsi r10 r11 hymm4 hs) _ _ _ ⟨ha, rfl⟩) ?_
  rintro ⟨a, st⟩ ⟨a', st'⟩ ⟨ha, he⟩
  obtain rfl : st = st' := he
  refine L.bind (R := L.RA) (L.pure ha) ?_; intro a a' ha
  refine L.bind (R := Eq) (L.pure rfl) ?_; rintro r11 _ rfl
  refine L.bind (R := Eq) (L.pure rfl) ?_; rintro r10 _ rfl
  exact L.pure ⟨⟨ha, rfl⟩, rfl⟩

theorem ct_r2s_tail_plain : ct_r2s_tail plain = Asm.ct_r2s_tail := rfl

theorem ct_r2s_tail_rel {p : A} {p' : A'} (hp : L.RA p p') (n : Nat) (rdi : Nat) (rsi : Nat) (rdx : Nat) (r9 : Nat) {ymm4 ymm4' : V8} (hymm4 : RE L.b ymm4 ymm4') {ymm5 ymm5' : V8} (hymm5 : RE L.b ymm5 ymm5') {ymm6 ymm6' : V8} (hymm6 : RE L.b ymm6 ymm6') {a : A} {a' : A'} (ha : L.RA a a') (rax : Nat) :
    L.Rel L.RA (ct_r2s_tail O p n rdi rsi rdx r9 ymm4 ymm5 ymm6 a rax) (ct_r2s_tail O' p' n rdi rsi rdx r9 ymm4' ymm5' ymm6' a' rax) := by
  unfold ct_r2s_tail
  refine L.bind (L.jloop (R := RS L.RA) (fun s s' hs => ct_r2s_size16_loop_rel L rsi hymm4 hymm5 hymm6 hs) _ _ _ ⟨ha, rfl⟩) ?_
  rintro ⟨a, st⟩ ⟨a', st'⟩ ⟨ha, he⟩
  obtain rfl : st = st' := he
  refine L.bind (R := L.RA) (L.pure ha) ?_; intro a a' ha
  refine L.branch _ ?_ ?_
  · exact L.pure ha
  · refine L.bind (R := Eq) (L.pure rfl) ?_; rintro r10 _ rfl
    refine L.bind (R := Eq) (L.pure rfl) ?_; rintro r11 _ rfl
    refine L.bind (L.jloop (R := RS L.RA) (fun s s' hs => ct_r2s_size32_loop_rel L hp n rdi rsi r9 hymm4 hs) _ _ _ ⟨ha, rfl⟩) ?_
    rintro ⟨a, st⟩ ⟨a', st'⟩ ⟨ha, he⟩
    obtain rfl : st = st' := he
    exact L.pure ha

theorem ntt_red_ct_rev2std_asm_plain : ntt_red_ct_rev2std_asm plain = Asm.ntt_red_ct_rev2std_asm := rfl

theorem ntt_red_ct_rev2std_asm_rel {a : A} {a' : A'} (ha : L.RA a a') (n : Nat) {p : A} {p' : A'} (hp : L.RA p p') :
    L.Rel L.RA (ntt_red_ct_rev2std_asm O a n p) (ntt_red_ct_rev2std_asm O' a' n p') := by
  unfold ntt_red_ct_rev2std_asm
  refine L.bind (R := Eq) (L.pure rfl) ?_; rintro rdi _ rfl
  refine L.bind (R := Eq) (L.pure rfl) ?_; rintro rsi _ rfl
  refine L.bind (R := Eq) (L.pure rfl) ?_; rintro rdx _ rfl
  refine L.bind (R := Eq) (L.pure rfl) ?_; rintro rax _ rfl
  refine L.bind (R := Eq) (L.pure rfl) ?_; rintro r9 _ rfl
  refine L.bind (R := Eq) (L.pure rfl) ?_; rintro rsi _ rfl
  refine L.bind (L.load_sxwd hp _) ?_; intro ymm4 ymm4' hymm4
  refine L.bind (R := RE L.b) (L.pure (fun _ => rfl)) ?_; intro ymm5 ymm5' hymm5
  refine L.bind (R := RE L.b) (L.pure (fun h => by rw [hymm4 h, hymm5 h])) ?_; intro ymm5 ymm5' hymm5
  refine L.bind (R := RE L.b) (L.pure (fun _ => rfl)) ?_; intro ymm6 ymm6' hymm6
  refine L.bind (R := RE L.b) (L.pure (fun h => by rw [hymm4 h, hymm6 h])) ?_; intro ymm6 ymm6' hymm6
  refine L.bind (R := RE L.b) (L.pure (fun _ => rfl)) ?_; intro ymm4 ymm4' hymm4
  refine L.bind (L.jloop (R := RS L.RA) (fun s s' hs => ct_r2s_size8_loop_rel L rsi hymm4 hymm5 hymm6 hs) _ _ _ ⟨ha, rfl⟩) ?_
  rintro ⟨a, st⟩ ⟨a', st'⟩ ⟨ha, he⟩
  obtain rfl : st = st' := he
  refine L.bind (R := L.RA) (L.pure ha) ?_; intro a a' ha
  refine L.bind (R := Eq) (L.pure rfl) ?_; rintro rax _ rfl
  refine L.bind (L.load_sxwd hp _) ?_; intro ymm6 ymm6' hymm6
  refine L.bind (R := RE L.b) (L.pure (fun h => by rw [hymm6 h])) ?_; intro ymm5 ymm5' hymm5
  exact ct_r2s_tail_rel L hp n rdi rsi rdx r9 hymm4 hymm5 hymm6 ha rax

theorem mct_r2s_size8_loop2_plain : mct_r2s_size8_loop2 plain = Asm.mct_r2s_size8_loop2 := rfl

theorem mct_r2s_size8_loop2_rel (rsi : Nat) {ymm4 ymm4' : V8} (hymm4 : RE L.b ymm4 ymm4') {ymm5 ymm5' : V8} (hymm5 : RE L.b ymm5 ymm5') {ymm6 ymm6' : V8} (hymm6 : RE L.b ymm6 ymm6') {ymm7 ymm7' : V8} (hymm7 : RE L.b ymm7 ymm7') {s : A × Nat} {s' : A' × Nat} (hs : RS L.RA s s') :
    L.Rel (RSB L.RA) (mct_r2s_size8_loop2 O rsi ymm4 ymm5 ymm6 ymm7 s) (mct_r2s_size8_loop2 O' rsi ymm4' ymm5' ymm6' ymm7' s') := by
  unfold mct_r2s_size8_loop2
  obtain ⟨a, g⟩ := s
  obtain ⟨a', g'⟩ := s'
  obtain ⟨ha, hg⟩ := hs
  obtain rfl : g = g' := hg
  refine L.bind (R := L.RA) (L.pure ha) ?_; intro a a' ha
  refine L.bind (R := Eq) (L.pure rfl) ?_; rintro rax _ rfl
  refine L.bind (L.load ha _) ?_; intro ymm0 ymm0' hymm0
  refine L.bind (R := RE L.b) (L.pure (fun h => by rw [hymm0 h, hymm4 h, hymm5 h, hymm6 h, hymm7 h])) ?_; intro ymm0 ymm0' hymm0
  refine L.bind (L.store ha _ hymm0) ?_; intro a a' ha
  refine L.bind (R := Eq) (L.pure rfl) ?_; rintro rax _ rfl
  exact L.pure ⟨⟨ha, rfl⟩, rfl⟩

theorem mulntt_red_ct_rev2std_asm_plain : mulntt_red_ct_rev2std_asm plain = Asm.mulntt_red_ct_rev2std_asm := rfl

theorem mulntt_red_ct_rev2std_asm_rel {a : A} {a' : A'} (ha : L.RA a a') (n : Nat) {p : A} {p' : A'} (hp : L.RA p p') :
    L.Rel L.RA (mulntt_red_ct_rev2std_asm O a n p) (mulntt_red_ct_rev2std_asm O' a' n p') := by
  unfold mulntt_red_ct_rev2std_asm
  refine L.bind (R := Eq) (L.pure rfl) ?_; rintro rdi _ rfl
  refine L.bind (R := Eq) (L.pure rfl) ?_; rintro rsi _ rfl
  refine L.bind (R := Eq) (L.pure rfl) ?_; rintro rdx _ rfl
  refine L.bind (R := Eq) (L.pure rfl) ?_; rintro rax _ rfl
  refine L.bind (R := Eq) (L.pure rfl) ?_; rintro r9 _ rfl
  refine L.bind (R := Eq) (L.pure rfl) ?_; rintro rsi _ rfl
  refine L.bind (L.load_sxwd hp _) ?_; intro ymm4 ymm4' hymm4
  refine L.bind (R := RE L.b) (L.pure (fun _ => rfl)) ?_; intro ymm5 ymm5' hymm5
  refine L.bind (R := RE L.b) (L.pure (fun h => by rw [hymm4 h, hymm5 h])) ?_; intro ymm5 ymm5' hymm5
  refine L.bind (R := RE L.b) (L.pure (fun _ => rfl)) ?_; intro ymm6 ymm6' hymm6
  refine L.bind (R := RE L.b) (L.pure (fun h => by rw [hymm4 h, hymm6 h])) ?_; intro ymm6 ymm6' hymm6
  refine L.bind (R := RE L.b) (L.pure (fun _ => rfl)) ?_; intro ymm7 ymm7' hymm7
  refine L.bind (R := RE L.b) (L.pure (fun h => by rw [hymm4 h, hymm7 h])) ?_; intro ymm7 ymm7' hymm7
  refine L.bind (R := RE L.b) (L.pure (fun _ => rfl)) ?_; intro ymm4 ymm4' hymm4
  refine L.bind (L.jloop (R := RS L.RA) (fun s s' hs => mct_r2s_size8_loop2_rel L rsi hymm4 hymm5 hymm6 hymm7 hs) _ _ _ ⟨ha, rfl⟩) ?_
  rintro ⟨a, st⟩ ⟨a', st'⟩ ⟨ha, he⟩
  obtain rfl : st = st' := he
  refine L.bind (R := L.RA) (L.pure ha) ?_; intro a a' ha
  refine L.bind (R := Eq) (L.pure rfl) ?_; rintro rax _ rfl
  refine L.bind (L.load_sxwd hp _) ?_; intro ymm6 ymm6' hymm6
  refine L.bind (R := RE L.b) (L.pure (fun h => by rw [hymm6 h])) ?_; intro ymm5 ymm5' hymm5
  exact ct_r2s_tail_rel L hp n rdi rsi rdx r9 hymm4 hymm5 hymm6 ha rax

theorem ct_s2r_loop1_plain : ct_s2r_loop1 plain = Asm.ct_s2r_loop1 := rfl

theorem ct_s2r_loop1_rel (r8 : Nat) {s : A × Nat × Nat} {s' : A' × Nat × Nat} (hs : RS L.RA s s') :
    L.Rel (RSB L.RA) (ct_s2r_loop1 O r8 s) (ct_s2r_loop1 O' r8 s') := by
  unfold ct_s2r_loop1
  obtain ⟨a, g⟩ := s
  obtain ⟨a', g'⟩ := s'
  obtain ⟨ha, hg⟩ := hs
  obtain rfl : g = g' := hg
  refine L.bind (R := L.RA) (L.pure ha) ?_; intro a a' ha
  refine L.bind (R := Eq) (L.pure rfl) ?_; rintro rax _ rfl
  refine L.bind (R := Eq) (L.pure rfl) ?_; rintro rcx _ rfl
  refine L.bind (L.load ha _) ?_; intro ymm0 ymm0' hymm0
  refine L.bind (L.load ha _) ?_; intro ymm1 ymm1' hymm1
  refine L.bind (R := RE L.b) (L.pure (fun h => by rw [hymm0 h, hymm1 h])) ?_; intro t t' ht
  refine L.bind (R := RE L.b) (L.pure (fun h => by rw [ht h])) ?_; intro ymm2 ymm2' hymm2
  refine L.bind (R := RE L.b) (L.pure (fun h => by rw [ht h])) ?_; intro ymm3 ymm3' hymm3
  refine L.bind (L.store ha _ hymm2) ?_; intro a a' ha
  refine L.bind (L.store ha _ hymm3) ?_; intro a a' ha
  refine L.bind (R := Eq) (L.pure rfl) ?_; rintro rcx _ rfl
  refine L.bind (R := Eq) (L.pure rfl) ?_; rintro rax _ rfl
  exact L.pure ⟨⟨ha, rfl⟩, rfl⟩

theorem ct_s2r_loop2_inner1_plain : ct_s2r_loop2_inner1 plain = Asm.ct_s2r_loop2_inner1 := rfl

theorem ct_s2r_loop2_inner1_rel (r9 : Nat) {s : A × Nat × Nat} {s' : A' × Nat × Nat} (hs : RS L.RA s s') :
    L.Rel (RSB L.RA) (ct_s2r_loop2_inner1 O r9 s) (ct_s2r_loop2_inner1 O' r9 s') := by
  unfold ct_s2r_loop2_inner1
  obtain ⟨a, g⟩ := s
  obtain ⟨a', g'⟩ := s'
  obtain ⟨ha, hg⟩ := hs
  obtain rfl : g = g' := hg
  refine L.bind (R := L.RA) (L.pure ha) ?_; intro a a' ha
  refine L.bind (R := Eq) (L.pure rfl) ?_; rintro rax _ rfl
  refine L.bind (R := Eq) (L.pure rfl) ?_; rintro rcx _ rfl
  refine L.bind (L.load ha _) ?_; intro ymm0 ymm0' hymm0
  refine L.bind (L.load ha _) ?_; intro ymm1 ymm1' hymm1
  refine L.bind (R := RE L.b) (L.pure (fun h => by rw [hymm0 h, hymm1 h])) ?_; intro t t' ht
  refine L.bind (R := RE L.b) (L.pure (fun h => by rw [ht h])) ?_; intro ymm2 ymm2' hymm2
  refine L.bind (R := RE L.b) (L.pure (fun h => by rw [ht h])) ?_; intro ymm3 ymm3' hymm3
  refine L.bind (L.store ha _ hymm2) ?_; intro a a' ha
  refine L.bind (L.store ha _ hymm3) ?_; intro a a' ha
  refine L.bind (R := Eq) (L.pure rfl) ?_; rintro rax _ rfl
  refine L.bind (R := Eq) (L.pure rfl) ?_; rintro rcx _ rfl
  exact L.pure ⟨⟨ha, rfl⟩, rfl⟩

theorem ct_s2r_loop2_inner2_plain : ct_s2r_loop2_inner2 plain = Asm.ct_s2r_loop2_inner2 := rfl

theorem ct_s2r_loop2_inner2_rel (r9 : Nat) {ymm4 ymm4' : V8} (hymm4 : RE L.b ymm4 ymm4') {ymm5 ymm5' : V8} (hymm5 : RE L.b ymm5 ymm5') {s : A × Nat × Nat} {s' : A' × Nat × Nat} (hs : RS L.RA s s') :
    L.Rel (RSB L.RA) (ct_s2r_loop2_inner2 O r9 ymm4 ymm5 s) (ct_s2r_loop2_inner2 O' r9 ymm4' ymm5' s') := by
  unfold ct_s2r_loop2_inner2
  obtain ⟨a, g⟩ := s
  obtain ⟨a', g'⟩ := s'
  obtain ⟨ha, hg⟩ := hs
  obtain rfl : g = g' := hg
  refine L.bind (R := L.RA) (L.pure ha) ?_; intro a a' ha
  refine L.bind (R := Eq) (L.pure rfl) ?_; rintro rax _ rfl
  refine L.bind (R := Eq) (L.pure rfl) ?_; rintro rcx _ rfl
  refine L.bind (L.load ha _) ?_; intro ymm0 ymm0' hymm0
  refine L.bind (L.load ha _) ?_; intro ymm1 ymm1' hymm1
  refine L.bind (R := RE L.b) (L.pure (fun h => by rw [hymm0 h, hymm1 h, hymm4 h, hymm5 h])) ?_; intro t t' ht
  refine L.bind (R := RE L.b) (L.pure (fun h => by rw [ht h])) ?_; intro ymm2 ymm2' hymm2
  refine L.bind (R := RE L.b) (L.pure (fun h => by rw [ht h])) ?_; intro ymm3 ymm3' hymm3
  refine L.bind (L.store ha _ hymm2) ?_; intro a a' ha
  refine L.bind (L.store ha _ hymm3) ?_; intro a a' ha
  refine L.bind (R := Eq) (L.pure rfl) ?_; rintro rax _ rfl
  refine L.bind (R := Eq) (L.pure rfl) ?_; rintro rcx _ rfl
  exact L.pure ⟨⟨ha, rfl⟩, rfl⟩

theorem ct_s2r_loop2_aux_plain : ct_s2r_loop2_aux plain = Asm.ct_s2r_loop2_aux := rfl

theorem ct_s2r_loop2_aux_rel {p : A} {p' : A'} (hp : L.RA p p') (n : Nat) (rsi : Nat) (r8 : Nat) {ymm4 ymm4' : V8} (hymm4 : RE L.b ymm4 ymm4') {s : A × Nat × Nat} {s' : A' × Nat × Nat} (hs : RS L.RA s s') :
    L.Rel (RSB L.RA) (ct_s2r_loop2_aux O p n rsi r8 ymm4 s) (ct_s2r_loop2_aux O' p' n rsi r8 ymm4' s') := by
  unfold ct_s2r_loop2_aux
  obtain ⟨a, g⟩ := s
  obtain ⟨a', g'⟩ := s'
  obtain ⟨ha, hg⟩ := hs
  obtain rfl : g = g' := hg
  refine L.bind (R := L.RA) (L.pure ha) ?_; intro a a' ha
  refine L.bind (R := Eq) (L.pure rfl) ?_; rintro rcx _ rfl
  refine L.bind (R := Eq) (L.pure rfl) ?_; rintro rdx _ rfl
  refine L.bind (R := Eq) (L.pure rfl) ?_; rintro rdx _ rfl
  refine L.bind (L.load_bdcstw hp _) ?_; intro ymm5 ymm5' hymm5
  refine L.bind (R := RE L.b) (L.pure (fun h => by rw [hymm5 h])) ?_; intro ymm5 ymm5' hymm5
  refine L.bind (R := Eq) (L.pure rfl) ?_; rintro rax _ rfl
  refine L.bind (R := Eq) (L.pure rfl) ?_; rintro rcx _ rfl
  refine L.bind (R := Eq) (L.pure rfl) ?_; rintro r9 _ rfl
  refine L.bind (L.jloop (R := RS L.RA) (fun s s' hs => ct_s2r_loop2_inner2_rel L r9 hymm4 hymm5 hs) _ _ _ ⟨ha, rfl⟩) ?_
  rintro ⟨a, st⟩ ⟨a', st'⟩ ⟨ha, he⟩
  obtain rfl : st = st' := he
  refine L.bind (R := L.RA) (L.pure ha) ?_; intro a a' ha
  refine L.bind (R := Eq) (L.pure rfl) ?_; rintro rcx _ rfl
  exact L.pure ⟨⟨ha, rfl⟩, rfl⟩

theorem ct_s2r_loop2_plain : ct_s2r_loop2 plain = Asm.ct_s2r_loop2 := rfl

theorem ct_s2r_loop2_rel {p : A} {p' : A'} (hp : L.RA p p') (n : Nat) (rdi : Nat) (r8 : Nat) {ymm4 ymm4' : V8} (hymm4 : RE L.b ymm4 ymm4') {s : A × Nat × Nat} {s' : A' × Nat × Nat} (hs : RS L.RA s s') :
    L.Rel (RSB L.RA) (ct_s2r_loop2 O p n rdi r8 ymm4 s) (ct_s2r_loop2 O' p' n rdi r8 ymm4' s') := by
  unfold ct_s2r_loop2
  obtain ⟨a, g⟩ := s
  obtain ⟨a', g'⟩ := s'
  obtain ⟨ha, hg⟩ := hs
  obtain rfl : g = g' := hg
  refine L.bind (R := L.RA) (L.pure ha) ?_; intro a a' ha
  refine L.bind (R := Eq) (L.pure rfl) ?_; rintro rsi _ rfl
  refine L.bind (R := Eq) (L.pure rfl) ?_; rintro rdx _ rfl
  refine L.bind (R := Eq) (L.pure rfl) ?_; rintro rax _ rfl
  refine L.bind (R := Eq) (L.pure rfl) ?_; rintro rcx _ rfl
  refine L.bind (R := Eq) (L.pure rfl) ?_; rintro r9 _ rfl
  refine L.bind (L.jloop (R := RS L.RA) (fun s s' hs => ct_s2r_loop2_inner1_rel L r9 hs) _ _ _ ⟨ha, rfl⟩) ?_
  rintro ⟨a, st⟩ ⟨a', st'⟩ ⟨ha, he⟩
  obtain rfl : st = st' := he
  refine L.bind (R := L.RA) (L.pure ha) ?_; intro a a' ha
  refine L.bind (R := Eq) (L.pure rfl) ?_; rintro rcx _ rfl
  refine L.bind (L.jloop (R := RS L.RA) (fun s s' hs => ct_s2r_loop2_aux_rel L hp n rsi r8 hymm4 hs) _ _ _ ⟨ha, rfl⟩) ?_
  rintro ⟨a, st⟩ ⟨a', st'⟩ ⟨ha, he⟩
  obtain rfl : st = st' := he
  refine L.bind (R := L.RA) (L.pure ha) ?_; intro a a' ha
  refine L.bind (R := Eq) (L.pure rfl) ?_; rintro rdx _ rfl
  refine L.bind (R := Eq) (L.pure rfl) ?_; rintro rdx _ rfl
  refine L.bind (R := Eq) (L.pure rfl) ?_; rintro rsi _ rfl
  exact L.pure ⟨⟨ha, rfl⟩, rfl⟩

theorem ct_s2r_finish_size4_plain : ct_s2r_finish_size4 plain = Asm.ct_s2r_finish_size4 := rfl

theorem ct_s2r_finish_size4_rel {p : A} {p' : A'} (hp : L.RA p p') (r8 : Nat) {ymm4 ymm4' : V8} (hymm4 : RE L.b ymm4 ymm4') {ymm6 ymm6' : V8} (hymm6 : RE L.b ymm6 ymm6') {s : A × Nat × Nat} {s' : A' × Nat × Nat} (hs : RS L.RA s s') :
    L.Rel (RSB L.RA) (ct_s2r_finish_size4 O p r8 ymm4 ymm6 s) (ct_s2r_finish_size4 O' p' r8 ymm4' ymm6' s') := by
  unfold ct_s2r_finish_size4
  obtain ⟨a, g⟩ := s
  obtain ⟨a', g'⟩ := s'
  obtain ⟨ha, hg⟩ := hs
  obtain rfl : g = g' := hg
  refine L.bind (R := L.RA) (L.pure ha) ?_; intro a a' ha
  refine L.bind (R := Eq) (L.pure rfl) ?_; rintro rax _ rfl
  refine L.bind (R := Eq) (L.pure rfl) ?_; rintro rdx _ rfl
  refine L.bind (L.load_sxwq128 hp _) ?_; intro ymm5 ymm5' hymm5
  refine L.bind (R := RE L.b) (L.pure (fun h => by rw [hymm5 h, hymm6 h])) ?_; intro ymm5 ymm5' hymm5
  refine L.bind (L.load ha _) ?_; intro ymm0 ymm0' hymm0
  refine L.bind (L.load ha _) ?_; intro ymm1 ymm1' hymm1
  refine L.bind (R := RE L.b) (L.pure (fun h => by rw [hymm0 h, hymm1 h, hymm4 h, hymm5 h])) ?_; intro t t' ht
  refine L.bind (R := RE L.b) (L.pure (fun h => by rw [ht h])) ?_; intro ymm2 ymm2' hymm2
  refine L.bind (R := RE L.b) (L.pure (fun h => by rw [ht h])) ?_; intro ymm3 ymm3' hymm3
  refine L.bind (L.store ha _ hymm2) ?_; intro a a' ha
  refine L.bind (L.store ha _ hymm3) ?_; intro a a' ha
  refine L.bind (R := Eq) (L.pure rfl) ?_; rintro rax _ rfl
  refine L.bind (R := Eq) (L.pure rfl) ?_; rintro rdx _ rfl
  exact L.pure ⟨⟨ha, rfl⟩, rfl⟩

theorem ct_s2r_finish_size2_plain : ct_s2r_finish_size2 plain = Asm.ct_s2r_finish_size2 := rfl

theorem ct_s2r_finish_size2_rel {p : A} {p' : A'} (hp : L.RA p p') (r8 : Nat) {ymm4 ymm4' : V8} (hymm4 : RE L.b ymm4 ymm4') {ymm6 ymm6' : V8} (hymm6 : RE L.b ymm6 ymm6') {s : A × Nat × Nat} {s' : A' × Nat × Nat} (hs : RS L.RA s s') :
    L.Rel (RSB L.RA) (ct_s2r_finish_size2 O p r8 ymm4 ymm6 s) (ct_s2r_finish_size2 O' p' r8 ymm4' ymm6' s') := by
  unfold ct_s2r_finish_size2
  obtain ⟨a, g⟩ := s
  obtain ⟨a', g'⟩ := s'
  obtain ⟨ha, hg⟩ := hs
  obtain rfl : g = g' := hg
  refine L.bind (R := L.RA) (L.pure ha) ?_; intro a a' ha
  refine L.bind (R := Eq) (L.pure rfl) ?_; rintro rax _ rfl
  refine L.bind (R := Eq) (L.pure rfl) ?_; rintro rdx _ rfl
  refine L.bind (L.load_sxwq hp _) ?_; intro ymm5 ymm5' hymm5
  refine L.bind (R := RE L.b) (L.pure (fun h => by rw [hymm5 h, hymm6 h])) ?_; intro ymm5 ymm5' hymm5
  refine L.bind (L.load ha _) ?_; intro ymm0 ymm0' hymm0
  refine L.bind (L.load ha _) ?_; intro ymm1 ymm1' hymm1
  refine L.bind (R := RE L.b) (L.pure (fun h => by rw [hymm0 h, hymm1 h, hymm4 h, hymm5 h])) ?_; intro t t' ht
  refine L.bind (R := RE L.b) (L.pure (fun h => by rw [ht h])) ?_; intro ymm2 ymm2' hymm2
  refine L.bind (R := RE L.b) (L.pure (fun h => by rw [ht h])) ?_; intro ymm3 ymm3' hymm3
  refine L.bind (L.store ha _ hymm2) ?_; intro a a' ha
  refine L.bind (L.store ha _ hymm3) ?_; intro a a' ha
  refine L.bind (R := Eq) (L.pure rfl) ?_; rintro rax _ rfl
  refine L.bind (R := Eq) (L.pure rfl) ?_; rintro rdx _ rfl
  exact L.pure ⟨⟨ha, rfl⟩, rfl⟩

theorem ct_s2r_finish_size1_plain : ct_s2r_finish_size1 plain = Asm.ct_s2r_finish_size1 := rfl

theorem ct_s2r_finish_size1_rel {p : A} {p' : A'} (hp : L.RA p p') (r8 : Nat) {ymm4 ymm4' : V8} (hymm4 : RE L.b ymm4 ymm4') {s : A × Nat × Nat} {s' : A' × Nat × Nat} (hs : RS L.RA s s') :
    L.Rel (RSB L.RA) (ct_s2r_finish_size1 O p r8 ymm4 s) (ct_s2r_finish_size1 O' p' r8 ymm4' s') := by
  unfold ct_s2r_finish_size1
  obtain ⟨a, g⟩ := s
  obtain ⟨a', g'⟩ := s'
  obtain ⟨ha, hg⟩ := hs
  obtain rfl : g = g' := hg
  refine L.bind (R := L.RA) (L.pure ha) ?_; intro a a' ha
  refine L.bind (R := Eq) (L.pure rfl) ?_; rintro rax _ rfl
  refine L.bind (R := Eq) (L.pure rfl) ?_; rintro rdx _ rfl
  refine L.bind (L.load_sxwq hp _) ?_; intro ymm5 ymm5' hymm5
  refine L.bind (L.load_sxwq hp _) ?_; intro ymm6 ymm6' hymm6
  refine L.bind (L.load ha _) ?_; intro ymm0 ymm0' hymm0
  refine L.bind (L.load ha _) ?_; intro ymm1 ymm1' hymm1
  refine L.bind (R := RE L.b) (L.pure (fun h => by rw [hymm0 h, hymm1 h, hymm4 h, hymm5 h, hymm6 h])) ?_; intro t t' ht
  refine L.bind (R := RE L.b) (L.pure (fun h => by rw [ht h])) ?_; intro ymm2 ymm2' hymm2
  refine L.bind (R := RE L.b) (L.pure (fun h => by rw [ht h])) ?_; intro ymm3 ymm3' hymm3
  refine L.bind (L.store ha _ hymm2) ?_; intro a a' ha
  refine L.bind (L.store ha _ hymm3) ?_; intro a a' ha
  refine L.bind (R := Eq) (L.pure rfl) ?_; rintro rax _ rfl
  refine L.bind (R := Eq) (L.pure rfl) ?_; rintro rdx _ rfl
  exact L.pure ⟨⟨ha, rfl⟩, rfl⟩

theorem ct_s2r_finish_plain : ct_s2r_finish plain = Asm.ct_s2r_finish := rfl

theorem ct_s2r_finish_rel {p : A} {p' : A'} (hp : L.RA p p') (n : Nat) (rdi : Nat) (r8 : Nat) {ymm4 ymm4' : V8} (hymm4 : RE L.b ymm4 ymm4') {a : A} {a' : A'} (ha : L.RA a a') (rdx : Nat) :
    L.Rel L.RA (ct_s2r_finish O p n rdi r8 ymm4 a rdx) (ct_s2r_finish O' p' n rdi r8 ymm4' a' rdx) := by
  unfold ct_s2r_finish
  refine L.bind (R := Eq) (L.pure rfl) ?_; rintro rax _ rfl
  refine L.bind (R := RE L.b) (L.pure (fun _ => rfl)) ?_; intro ymm6 ymm6' hymm6
  refine L.bind (L.jloop (R := RS L.RA) (fun s s' hs => ct_s2r_finish_size4_rel L hp r8 hymm4 hymm6 hs) _ _ _ ⟨ha, rfl⟩) ?_
  rintro ⟨a, st⟩ ⟨a', st'⟩ ⟨ha, he⟩
  obtain rfl : st = st' := he
  refine L.bind (R := L.RA) (L.pure ha) ?_; intro a a' ha
  refine L.bind (R := Eq) (L.pure rfl) ?_; rintro rdx _ rfl
  refine L.bind (R := Eq) (L.pure rfl) ?_; rintro rax _ rfl
  refine L.bind (R := RE L.b) (L.pure (fun _ => rfl)) ?_; intro ymm6 ymm6' hymm6
  refine L.bind (L.jloop (R := RS L.RA) (fun s s' hs => ct_s2r_finish_size2_rel L hp r8 hymm4 hymm6 hs) _ _ _ ⟨ha, rfl⟩) ?_
  rintro ⟨a, st⟩ ⟨a', st'⟩ ⟨ha, he⟩
  obtain rfl : st = st' := he
  refine L.bind (R := L.RA) (L.pure ha) ?_; intro a a' ha
  refine L.bind (R := Eq) (L.pure rfl) ?_; rintro rdx _ rfl
  refine L.bind (R := Eq) (L.pure rfl) ?_; rintro rax _ rfl
  refine L.bind (L.jloop (R := RS L.RA) (fun s s' hs => ct_s2r_finish_size1_rel L hp r8 hymm4 hs) _ _ _ ⟨ha, rfl⟩) ?_
  rintro ⟨a, st⟩ ⟨a', st'⟩ ⟨ha, he⟩
  obtain rfl : st = st' := he
  exact L.pure ha

theorem ntt_red_ct_std2rev_asm_plain : ntt_red_ct_std2rev_asm plain = Asm.ntt_red_ct_std2rev_asm := rfl

theorem ntt_red_ct_std2rev_asm_rel {a : A} {a' : A'} (ha : L.RA a a') (n : Nat) {p : A} {p' : A'} (hp : L.RA p p') :
    L.Rel L.RA (ntt_red_ct_std2rev_asm O a n p) (ntt_red_ct_std2rev_asm O' a' n p') := by
  unfold ntt_red_ct_std2rev_asm
  refine L.bind (R := Eq) (L.pure rfl) ?_; rintro rdi _ rfl
  refine L.bind (R := Eq) (L.pure rfl) ?_; rintro rsi _ rfl
  refine L.bind (R := Eq) (L.pure rfl) ?_; rintro rdx _ rfl
  refine L.bind (R := Eq) (L.pure rfl) ?_; rintro r8 _ rfl
  refine L.bind (R := RE L.b) (L.pure (fun _ => rfl)) ?_; intro ymm4 ymm4' hymm4
  refine L.bind (R := Eq) (L.pure rfl) ?_; rintro rax _ rfl
  refine L.bind (R := Eq) (L.pure rfl) ?_; rintro rcx _ rfl
  refine L.bind (L.jloop (R := RS L.RA) (fun s s' hs => ct_s2r_loop1_rel L r8 hs) _ _ _ ⟨ha, rfl⟩) ?_
  rintro ⟨a, st⟩ ⟨a', st'⟩ ⟨ha, he⟩
  obtain rfl : st = st' := he
  refine L.bind (R := L.RA) (L.pure ha) ?_; intro a a' ha
  refine L.bind (R := Eq) (L.pure rfl) ?_; rintro rdx _ rfl
  refine L.bind (R := Eq) (L.pure rfl) ?_; rintro rsi _ rfl
  refine L.branch _ ?_ ?_
  · exact ct_s2r_finish_rel L hp n rdi r8 hymm4 ha rdx
  · refine L.bind (L.jloop (R := RS L.RA) (fun s s' hs => ct_s2r_loop2_rel L hp n rdi r8 hymm4 hs) _ _ _ ⟨ha, rfl⟩) ?_
    rintro ⟨a, st⟩ ⟨a', st'⟩ ⟨ha, he⟩
    obtain rfl : st = st' := he
    refine L.bind (R := L.RA) (L.pure ha) ?_; intro a a' ha
    refine L.bind (R := Eq) (L.pure rfl) ?_; rintro rdx _ rfl
    exact ct_s2r_finish_rel L hp n rdi r8 hymm4 ha rdx

theorem mct_s2r_loop_inner_plain : mct_s2r_loop_inner plain = Asm.mct_s2r_loop_inner := rfl

theorem mct_s2r_loop_inner_rel (r9 : Nat) {ymm4 ymm4' : V8} (hymm4 : RE L.b ymm4 ymm4') {ymm5 ymm5' : V8} (hymm5 : RE L.b ymm5 ymm5') {s : A × Nat × Nat} {s' : A' × Nat × Nat} (hs : RS L.RA s s') :
    L.Rel (RSB L.RA) (mct_s2r_loop_inner O r9 ymm4 ymm5 s) (mct_s2r_loop_inner O' r9 ymm4' ymm5' s') := by
  unfold mct_s2r_loop_inner
  obtain ⟨a, g⟩ := s
  obtain ⟨a', g'⟩ := s'
  obtain ⟨ha, hg⟩ := hs
  obtain rfl : g = g' := hg
  refine L.bind (R := L.RA) (L.pure ha) ?_; intro a a' ha
  refine L.bind (R := Eq) (L.pure rfl) ?_; rintro rax _ rfl
  refine L.bind (R := Eq) (L.pure rfl) ?_; rintro rcx _ rfl
  refine L.bind (L.load ha _) ?_; intro ymm0 ymm0' hymm0
  refine L.bind (L.load ha _) ?_; intro ymm1 ymm1' hymm1
  refine L.bind (R := RE L.b) (L.pure (fun h => by rw [hymm0 h, hymm1 h, hymm4 h, hymm5 h])) ?_; intro t t' ht
  refine L.bind (R := RE L.b) (L.pure (fun h => by rw [ht h])) ?_; intro ymm2 ymm2' hymm2
  refine L.bind (R := RE L.b) (L.pure (fun h => by rw [ht h])) ?_; intro ymm3 ymm3' hymm3
  refine L.bind (L.store ha _ hymm2) ?_; intro a a' ha
  refine L.bind (L.store ha _ hymm3) ?_; intro a a' ha
  refine L.bind (R := Eq) (L.pure rfl) ?_; rintro rax _ rfl
  refine L.bind (R := Eq) (L.pure rfl) ?_; rintro rcx _ rfl
  exact L.pure ⟨⟨ha, rfl⟩, rfl⟩

theorem mct_s2r_loop_aux_plain : mct_s2r_loop_aux plain = Asm.mct_s2r_loop_aux := rfl

theorem mct_s2r_loop_aux_rel {p : A} {p' : A'} (hp : L.RA p p') (n : Nat) (rsi : Nat) (r8 : Nat) {ymm4 ymm4' : V8} (hymm4 : RE L.b ymm4 ymm4') {s : A × Nat × Nat × Nat × Nat} {s' : A' × Nat × Nat × Nat × Nat} (hs : RS L.RA s s') :
    L.Rel (RSB L.RA) (mct_s2r_loop_aux O p n rsi r8 ymm4 s) (mct_s2r_loop_aux O' p' n rsi r8 ymm4' s') := by
  unfold mct_s2r_loop_aux
  obtain ⟨a, g⟩ := s
  obtain ⟨a', g'⟩ := s'
  obtain ⟨ha, hg⟩ := hs
  obtain rfl : g = g' := hg
  refine L.bind (R := L.RA) (L.pure ha) ?_; intro a a' ha
  refine L.bind (R := Eq) (L.pure rfl) ?_; rintro rax _ rfl
  refine L.bind (R := Eq) (L.pure rfl) ?_; rintro rcx _ rfl
  refine L.bind (R := Eq) (L.pure rfl) ?_; rintro r9 _ rfl
  refine L.bind (R := Eq) (L.pure rfl) ?_; rintro rdx _ rfl
  refine L.bind (R := Eq) (L.pure rfl) ?_; rintro rdx _ rfl
  refine L.bind (L.load_bdcstw hp _) ?_; intro ymm5 ymm5' hymm5
  refine L.bind (R := RE L.b) (L.pure (fun h => by rw [hymm5 h])) ?_; intro ymm5 ymm5' hymm5
  refine L.bind (L.jloop (R := RS L.RA) (fun s s' hs => mct_s2r_loop_inner_rel L r9 hymm4 hymm5 hs) _ _ _ ⟨ha, rfl⟩) ?_
  rintro ⟨a, st⟩ ⟨a', st'⟩ ⟨ha, he⟩
  obtain rfl : st = st' := he
  refine L.bind (R := L.RA) (L.pure ha) ?_; intro a a' ha
  refine L.bind (R := Eq) (L.pure rfl) ?_; rintro rcx _ rfl
  refine L.bind (R := Eq) (L.pure rfl) ?_; rintro rax _ rfl
  refine L.bind (R := Eq) (L.pure rfl) ?_; rintro rcx _ rfl
  refine L.bind (R := Eq) (L.pure rfl) ?_; rintro r9 _ rfl
  exact L.pure ⟨⟨ha, rfl⟩, rfl⟩

theorem mct_s2r_loop_plain : mct_s2r_loop plain = Asm.mct_s2r_loop := rfl

theorem mct_s2r_loop_rel {p : A} {p' : A'} (hp : L.RA p p') (n : Nat) (rdi : Nat) (r8 : Nat) {ymm4 ymm4' : V8} (hymm4 : RE L.b ymm4 ymm4') {s : A × Nat × Nat} {s' : A' × Nat × Nat} (hs : RS L.RA s s') :
    L.Rel (RSB L.RA) (mct_s2r_loop O p n rdi r8 ymm4 s) (mct_s2r_loop O' p' n rdi r8 ymm4' s') := by
  unfold mct_s2r_loop
  obtain ⟨a, g⟩ := s
  obtain ⟨a', g'⟩ := s'
  obtain ⟨ha, hg⟩ := hs
  obtain rfl : g = g' := hg
  refine L.bind (R := L.RA) (L.pure ha) ?_; intro a a' ha
  refine L.bind (R := Eq) (L.pure rfl) ?_; rintro rsi _ rfl
  refine L.bind (R := Eq) (L.pure rfl) ?_; rintro rdx _ rfl
  refine L.bind (R := Eq) (L.pure rfl) ?_; rintro rax _ rfl
  refine L.bind (R := Eq) (L.pure rfl) ?_; rintro rcx _ rfl
  refine L.bind (R := Eq) (L.pure rfl) ?_; rintro r9 _ rfl
  refine L.bind (L.jloop (R := RS L.RA) (fun s s' hs => mct_s2r_loop_aux_rel L hp n rsi r8 hymm4 hs) _ _ _ ⟨ha, rfl⟩) ?_
  rintro ⟨a, st⟩ ⟨a', st'⟩ ⟨ha, he⟩
  obtain rfl : st = st' := he
  refine L.bind (R := L.RA) (L.pure ha) ?_; intro a a' ha
  refine L.bind (R := Eq) (L.pure rfl) ?_; rintro rdx _ rfl
  refine L.bind (R := Eq) (L.pure rfl) ?_; rintro rsi _ rfl
  exact L.pure ⟨⟨ha, rfl⟩, rfl⟩

theorem mulntt_red_ct_std2rev_asm_plain : mulntt_red_ct_std2rev_asm plain = Asm.mulntt_red_ct_std2rev_asm := rfl

theorem mulntt_red_ct_std2rev_asm_rel {a : A} {a' : A'} (ha : L.RA a a') (n : Nat) {p : A} {p' : A'} (hp : L.RA p p') :
    L.Rel L.RA (mulntt_red_ct_std2rev_asm O a n p) (mulntt_red_ct_std2rev_asm O' a' n p') := by
  unfold mulntt_red_ct_std2rev_asm
  refine L.bind (R := Eq) (L.pure rfl) ?_; rintro rdi _ rfl
  refine L.bind (R := Eq) (L.pure rfl) ?_; rintro rsi _ rfl
  refine L.bind (R := Eq) (L.pure rfl) ?_; rintro rdx _ rfl
  refine L.bind (R := Eq) (L.pure rfl) ?_; rintro r8 _ rfl
  refine L.bind (R := RE L.b) (L.pure (fun _ => rfl)) ?_; intro ymm4 ymm4' hymm4
  refine L.bind (L.jloop (R := RS L.RA) (fun s s' hs => mct_s2r_loop_rel L hp n rdi r8 hymm4 hs) _ _ _ ⟨ha, rfl⟩) ?_
  rintro ⟨a, st⟩ ⟨a', st'⟩ ⟨ha, he⟩
  obtain rfl : st = st' := he
  refine L.bind (R := L.RA) (L.pure ha) ?_; intro a a' ha
  refine L.bind (R := Eq) (L.pure rfl) ?_; rintro rdx _ rfl
  refine L.bind (R := Eq) (L.pure rfl) ?_; rintro rdx _ rfl
  exact ct_s2r_finish_rel L hp n rdi r8 hymm4 ha rdx

theorem gs_r2s_loop0_plain : gs_r2s_loop0 plain = Asm.gs_r2s_loop0 := rfl

theorem gs_r2s_loop0_rel {p : A} {p' : A'} (hp : L.RA p p') (rcx : Nat) {ymm4 ymm4' : V8} (hymm4 : RE L.b ymm4 ymm4') {ymm6 ymm6' : V8} (hymm6 : RE L.b ymm6 ymm6') {s : A × Nat × Nat × Nat × Nat} {s' : A' × Nat × Nat × Nat × Nat} (hs : RS L.RA s s') :
    L.Rel (RSB L.RA) (gs_r2s_loop0 O p rcx ymm4 ymm6 s) (gs_r2s_loop0 O' p' rcx ymm4' ymm6' s') := by
  unfold gs_r2s_loop0
  obtain ⟨a, g⟩ := s
  obtain ⟨a', g'⟩ := s'
  obtain ⟨ha, hg⟩ := hs
  obtain rfl : g = g' := hg
  refine L.bind (R := L.RA) (L.pure ha) ?_; intro a a' ha
  refine L.bind (R := Eq) (L.pure rfl) ?_; rintro rax _ rfl
  refine L.bind (R := Eq) (L.pure rfl) ?_; rintro r8 _ rfl
  refine L.bind (R := Eq) (L.pure rfl) ?_; rintro r9 _ rfl
  refine L.bind (R := Eq) (L.pure rfl) ?_; rintro r10 _ rfl
  refine L.bind (L.load_sxwq hp _) ?_; intro ymm5 ymm5' hymm5
  refine L.bind (L.load ha _) ?_; intro ymm0 ymm0' hymm0
  refine L.bind (R := RE L.b) (L.pure (fun h => by rw [hymm0 h, hymm4 h, hymm5 h])) ?_; intro t t' ht
  refine L.bind (R := RE L.b) (L.pure (fun h => by rw [ht h])) ?_; intro ymm0 ymm0' hymm0
  refine L.bind (R := RE L.b) (L.pure (fun h => by rw [ht h])) ?_; intro ymm1 ymm1' hymm1
  refine L.bind (L.load_sxwq128 hp _) ?_; intro ymm5 ymm5' hymm5
  refine L.bind (R := RE L.b) (L.pure (fun h => by rw [hymm0 h, hymm1 h, hymm4 h, hymm5 h, hymm6 h])) ?_; intro t t' ht
  refine L.bind (R := RE L.b) (L.pure (fun h => by rw [ht h])) ?_; intro ymm0 ymm0' hymm0
  refine L.bind (R := RE L.b) (L.pure (fun h => by rw [ht h])) ?_; intro ymm1 ymm1' hymm1
  refine L.bind (L.load_bdcstw hp _) ?_; intro ymm5 ymm5' hymm5
  refine L.bind (R := RE L.b) (L.pure (fun h => by rw [hymm0 h, hymm1 h, hymm4 h, hymm5 h])) ?_; intro ymm0 ymm0' hymm0
  refine L.bind (L.store ha _ hymm0) ?_; intro a a' ha
  refine L.bind (R := Eq) (L.pure rfl) ?_; rintro rax _ rfl
  refine L.bind (R := Eq) (L.pure rfl) ?_; rintro r8 _ rfl
  refine L.bind (R := Eq) (L.pure rfl) ?_; rintro r9 _ rfl
  refine L.bind (R := Eq) (L.pure rfl) ?_; rintro r10 _ rfl
  exact L.pure ⟨⟨ha, rfl⟩, rfl⟩

theorem gs_r2s_size16_loop_plain : gs_r2s_size16_loop plain = Asm.gs_r2s_size16_loop := rfl

theorem gs_r2s_size16_loop_rel {p : A} {p' : A'} (hp : L.RA p p') (rcx : Nat) {ymm4 ymm4' : V8} (hymm4 : RE L.b ymm4 ymm4') {s : A × Nat × Nat} {s' : A' × Nat × Nat} (hs : RS L.RA s s') :
    L.Rel (RSB L.RA) (gs_r2s_size16_loop O p rcx ymm4 s) (gs_r2s_size16_loop O' p' rcx ymm4' s') := by
  unfold gs_r2s_size16_loop
  obtain ⟨a, g⟩ := s
  obtain ⟨a', g'⟩ := s'
  obtain ⟨ha, hg⟩ := hs
  obtain rfl : g = g' := hg
  refine L.bind (R := L.RA) (L.pure ha) ?_; intro a a' ha
  refine L.bind (R := Eq) (L.pure rfl) ?_; rintro rax _ rfl
  refine L.bind (R := Eq) (L.pure rfl) ?_; rintro r9 _ rfl
  refine L.bind (L.load_bdcstw hp _) ?_; intro ymm5 ymm5' hymm5
  refine L.bind (R := RE L.b) (L.pure (fun h => by rw [hymm5 h])) ?_; intro ymm5 ymm5' hymm5
  refine L.bind (L.load ha _) ?_; intro ymm0 ymm0' hymm0
  refine L.bind (L.load ha _) ?_; intro ymm1 ymm1' hymm1
  refine L.bind (R := RE L.b) (L.pure (fun h => by rw [hymm0 h, hymm1 h, hymm4 h, hymm5 h])) ?_; intro t t' ht
  refine L.bind (R := RE L.b) (L.pure (fun h => by rw [ht h])) ?_; intro ymm0 ymm0' hymm0
  refine L.bind (R := RE L.b) (L.pure (fun h => by rw [ht h])) ?_; intro ymm1 ymm1' hymm1
  refine L.bind (L.store ha _ hymm0) ?_; intro a a' ha
  refine L.bind (L.store ha _ hymm1) ?_; intro a a' ha
  refine L.bind (R := Eq) (L.pure rfl) ?_; rintro rax _ rfl
  refine L.bind (R := Eq) (L.pure rfl) ?_; rintro r9 _ rfl
  exact L.pure ⟨⟨ha, rfl⟩, rfl⟩

theorem gs_r2s_size32_first_blocks_plain : gs_r2s_size32_first_blocks plain = Asm.gs_r2s_size32_first_blocks := rfl

theorem gs_r2s_size32_first_blocks_rel (r8 : Nat) {s : A × Nat × Nat} {s' : A' × Nat × Nat} (hs : RS L.RA s s') :
    L.Rel (RSB L.RA) (gs_r2s_size32_first_blocks O r8 s) (gs_r2s_size32_first_blocks O' r8 s') := by
  unfold gs_r2s_size32_first_blocks
  obtain ⟨a, g⟩ := s
  obtain ⟨a', g'⟩ := s'
  obtain ⟨ha, hg⟩ := hs
  obtain rfl : g = g' := hg
  refine L.bind (R := L.RA) (L.pure ha) ?_; intro a a' ha
  refine L.bind (R := Eq) (L.pure rfl) ?_; rintro rax _ rfl
  refine L.bind (R := Eq) (L.pure rfl) ?_; rintro rcx _ rfl
  refine L.bind (L.load ha _) ?_; intro ymm0 ymm0' hymm0
  refine L.bind (L.load ha _) ?_; intro ymm1 ymm1' hymm1
  refine L.bind (R := RE L.b) (L.pure (fun h => by rw [hymm0 h, hymm1 h])) ?_; intro t t' ht
  refine L.bind (R := RE L.b) (L.pure (fun h => by rw [ht h])) ?_; intro ymm0 ymm0' hymm0
  refine L.bind (R := RE L.b) (L.pure (fun h => by rw [ht h])) ?_; intro ymm2 ymm2' hymm2
  refine L.bind (L.store ha _ hymm0) ?_; intro a a' ha
  refine L.bind (L.store ha _ hymm2) ?_; intro a a' ha
  refine L.bind (R := Eq) (L.pure rfl) ?_; rintro rax _ rfl
  refine L.bind (R := Eq) (L.pure rfl) ?_; rintro rcx _ rfl
  exact L.pure ⟨⟨ha, rfl⟩, rfl⟩

theorem gs_r2s_size32_inner_loop_plain : gs_r2s_size32_inner_loop plain = Asm.gs_r2s_size32_inner_loop := rfl

theorem gs_r2s_size32_inner_loop_rel (r8 : Nat) {ymm4 ymm4' : V8} (hymm4 : RE L.b ymm4 ymm4') {ymm5 ymm5' : V8} (hymm5 : RE L.b ymm5 ymm5') {s : A × Nat × Nat} {s' : A' × Nat × Nat} (hs : RS L.RA s s') :
    L.Rel (RSB L.RA) (gs_r2s_size32_inner_loop O r8 ymm4 ymm5 s) (gs_r2s_size32_inner_loop O' r8 ymm4' ymm5' s') := by
  unfold gs_r2s_size32_inner_loop
  obtain ⟨a, g⟩ := s
  obtain ⟨a', g'⟩ := s'
  obtain ⟨ha, hg⟩ := hs
  obtain rfl : g = g' := hg
  refine L.bind (R := L.RA) (L.pure ha) ?_; intro a a' ha
  refine L.bind (R := Eq) (L.pure rfl) ?_; rintro rax _ rfl
  refine L.bind (R := Eq) (L.pure rfl) ?_; rintro rcx _ rfl
  refine L.bind (L.load ha _) ?_; intro ymm0 ymm0' hymm0
  refine L.bind (L.load ha _) ?_; intro ymm1 ymm1' hymm1
  refine L.bind (R := RE L.b) (L.pure (fun h => by rw [hymm0 h, hymm1 h, hymm4 h, hymm5 h])) ?_; intro t t' ht
  refine L.bind (R := RE L.b) (L.pure (fun h => by rw [ht h])) ?_; intro ymm0 ymm0' hymm0
  refine L.bind (R := RE L.b) (L.pure (fun h => by rw [ht h])) ?_; intro ymm1 ymm1' hymm1
  refine L.bind (L.store ha _ hymm0) ?_; intro a a' ha
  refine L.bind (L.store ha _ hymm1) ?_; intro a a' ha
  refine L.bind (R := Eq) (L.pure rfl) ?_; rintro rax _ rfl
  refine L.bind (R := Eq) (L.pure rfl) ?_; rintro rcx _ rfl
  exact L.pure ⟨⟨ha, rfl⟩, rfl⟩

theorem gs_r2s_size32_other_blocks_plain : gs_r2s_size32_other_blocks plain = Asm.gs_r2s_size32_other_blocks := rfl

theorem gs_r2s_size32_other_blocks_rel {p : A} {p' : A'} (hp : L.RA p p') (n : Nat) (r10 : Nat) (r11 : Nat) {ymm4 ymm4' : V8} (hymm4 : RE L.b ymm4 ymm4') {s : A × Nat × Nat} {s' : A' × Nat × Nat} (hs : RS L.RA s s') :
    L.Rel (RSB L.RA) (gs_r2s_size32_other_blocks O p n r10 r11 ymm4 s) (gs_r2s_size32_other_blocks O' p' n r10 r11 ymm4' s') := by
  unfold gs_r2s_size32_other_blocks
  obtain ⟨a, g⟩ := s
  obtain ⟨a', g'⟩ := s'
  obtain ⟨ha, hg⟩ := hs
  obtain rfl : g = g' := hg
  refine L.bind (R := L.RA) (L.pure ha) ?_; intro a a' ha
  refine L.bind (R := Eq) (L.pure rfl) ?_; rintro rcx _ rfl
  refine L.bind (R := Eq) (L.pure rfl) ?_; rintro r9 _ rfl
  refine L.bind (R := Eq) (L.pure rfl) ?_; rintro r9 _ rfl
  refine L.bind (L.load_bdcstw hp _) ?_; intro ymm5 ymm5' hymm5
  refine L.bind (R := RE L.b) (L.pure (fun h => by rw [hymm5 h])) ?_; intro ymm5 ymm5' hymm5
  refine L.bind (R := Eq) (L.pure rfl) ?_; rintro rax _ rfl
  refine L.bind (R := Eq) (L.pure rfl) ?_; rintro rcx _ rfl
  refine L.bind (R := Eq) (L.pure rfl) ?_; rintro r8 _ rfl
  refine L.bind (L.jloop (R := RS L.RA) (fun s s' hs => gs_r2s_size32_inner_loop_rel L r8 hymm4 hymm5 hs) _ _ _ ⟨ha, rfl⟩) ?_
  rintro ⟨a, st⟩ ⟨a', st'⟩ ⟨ha, he⟩
  obtain rfl : st = st' := he
  refine L.bind (R := L.RA) (L.pure ha) ?_; intro a a' ha
  refine L.bind (R := Eq) (L.pure rfl) ?_; rintro rcx _ rfl
  exact L.pure ⟨⟨ha, rfl⟩, rfl⟩

theorem gs_r2s_size32_loop_plain : gs_r2s_size32_loop plain = Asm.gs_r2s_size32_loop := rfl

theorem gs_r2s_size32_loop_rel {p : A} {p' : A'} (hp : L.RA p p') (n : Nat) (rdi : Nat) (rdx : Nat) (r10 : Nat) {ymm4 ymm4' : V8} (hymm4 : RE L.b ymm4 ymm4') {s : A × Nat × Nat} {s' : A' × Nat × Nat} (hs : RS L.RA s s') :
    L.Rel (RSB L.RA) (gs_r2s_size32_loop O p n rdi rdx r10 ymm4 s) (gs_r2s_size32_loop O' p' n rdi rdx r10 ymm4' s') := by
  unfold gs_r2s_size32_loop
  obtain ⟨a, g⟩ := s
  obtain ⟨a', g'⟩ := s'
  obtain ⟨ha, hg⟩ := hs
  obtain rfl : g = g' := hg
  refine L.bind (R := L.RA) (L.pure ha) ?_; intro a a' ha
  refine L.bind (R := Eq) (L.pure rfl) ?_; rintro rsi _ rfl
  refine L.bind (R := Eq) (L.pure rfl) ?_; rintro r11 _ rfl
  refine L.bind (R := Eq) (L.pure rfl) ?_; rintro rax _ rfl
  refine L.bind (R := Eq) (L.pure rfl) ?_; rintro rcx _ rfl
  refine L.bind (R := Eq) (L.pure rfl) ?_; rintro r8 _ rfl
  refine L.bind (R := Eq) (L.pure rfl) ?_; rintro rsi _ rfl
  refine L.bind (R := Eq) (L.pure rfl) ?_; rintro r9 _ rfl
  refine L.bind (L.jloop (R := RS L.RA) (fun s s' hs => gs_r2s_size32_first_blocks_rel L r8 hs) _ _ _ ⟨ha, rfl⟩) ?_
  rintro ⟨a, st⟩ ⟨a', st'⟩ ⟨ha, he⟩
  obtain rfl : st = st' := he
  refine L.bind (R := L.RA) (L.pure ha) ?_; intro a a' ha
  refine L.bind (R := Eq) (L.pure rfl) ?_; rintro rcx _ rfl
  refine L.branch _ ?_ ?_
  · exact L.pure ⟨⟨ha, rfl⟩, rfl⟩
  · refine L.bind (L.jloop (R := RS L.RA) (fun s s' hs => gs_r2s_size32_other_blocks_rel L hp n r10 r11 hymm4 hs) _ _ _ ⟨ha, rfl⟩) ?_
    rintro ⟨a, st⟩ ⟨a', st'⟩ ⟨ha, he⟩
    obtain rfl : st = st' := he
    refine L.bind (R := L.RA) (L.pure ha) ?_; intro a a' ha
    refine L.bind (R := Eq) (L.pure rfl) ?_; rintro r11 _ rfl
    exact L.pure ⟨⟨ha, rfl⟩, rfl⟩

theorem ntt_red_gs_rev2std_asm_plain : ntt_red_gs_rev2std_asm plain = Asm.ntt_red_gs_rev2std_asm := rfl

theorem ntt_red_gs_rev2std_asm_rel {a : A} {a' : A'} (ha : L.RA a a') (n : Nat) {p : A} {p' : A'} (hp : L.RA p p') :
    L.Rel L.RA (ntt_red_gs_rev2std_asm O a n p) (ntt_red_gs_rev2std_asm O' a' n p') := by
  unfold ntt_red_gs_rev2std_asm
  refine L.bind (R := Eq) (L.pure rfl) ?_; rintro rdi _ rfl
  refine L.bind (R := Eq) (L.pure rfl) ?_; rintro rsi _ rfl
  refine L.bind (R := Eq) (L.pure rfl) ?_; rintro rdx _ rfl
  refine L.bind (R := Eq) (L.pure rfl) ?_; rintro rcx _ rfl
  refine L.bind (R := Eq) (L.pure rfl) ?_; rintro r8 _ rfl
  refine L.bind (R := Eq) (L.pure rfl) ?_; rintro rsi _ rfl
  refine L.bind (R := Eq) (L.pure rfl) ?_; rintro r9 _ rfl
  refine L.bind (R := Eq) (L.pure rfl) ?_; rintro rsi _ rfl
  refine L.bind (R := Eq) (L.pure rfl) ?_; rintro r10 _ rfl
  refine L.bind (R := Eq) (L.pure rfl) ?_; rintro rax _ rfl
  refine L.bind (R := RE L.b) (L.pure (fun _ => rfl)) ?_; intro ymm4 ymm4' hymm4
  refine L.bind (R := RE L.b) (L.pure (fun _ => rfl)) ?_; intro ymm6 ymm6' hymm6
  refine L.bind (L.jloop (R := RS L.RA) (fun s s' hs => gs_r2s_loop0_rel L hp rcx hymm4 hymm6 hs) _ _ _ ⟨ha, rfl⟩) ?_
  rintro ⟨a, st⟩ ⟨a', st'⟩ ⟨ha, he⟩
  obtain rfl : st = st' := he
  refine L.bind (R := L.RA) (L.pure ha) ?_; intro a a' ha
  refine L.bind (R := Eq) (L.pure rfl) ?_; rintro rax _ rfl
  refine L.bind (L.load ha _) ?_; intro ymm0 ymm0' hymm0
  refine L.bind (L.load ha _) ?_; intro ymm1 ymm1' hymm1
  refine L.bind (R := RE L.b) (L.pure (fun h => by rw [hymm0 h, hymm1 h])) ?_; intro t t' ht
  refine L.bind (R := RE L.b) (L.pure (fun h => by rw [ht h])) ?_; intro ymm0 ymm0' hymm0
  refine L.bind (R := RE L.b) (L.pure (fun h => by rw [ht h])) ?_; intro ymm2 ymm2' hymm2
  refine L.bind (L.store ha _ hymm0) ?_; intro a a' ha
  refine L.bind (L.store ha _ hymm2) ?_; intro a a' ha
  refine L.bind (R := Eq) (L.pure rfl) ?_; rintro rax _ rfl
  refine L.branch _ ?_ ?_
  · exact L.pure ha
  · refine L.bind (R := Eq) (L.pure rfl) ?_; rintro rsi _ rfl
    refine L.bind (R := Eq) (L.pure rfl) ?_; rintro r9 _ rfl
    refine L.bind (L.jloop (R := RS L.RA) (fun s s' hs => gs_r2s_size16_loop_rel L hp rcx hymm4 hs) _ _ _ ⟨ha, rfl⟩) ?_
    rintro ⟨a, st⟩ ⟨a', st'⟩ ⟨ha, he⟩
    obtain rfl : st = st' := he
    refine L.bind (R := L.RA) (L.pure ha) ?_; intro a a' ha
    refine L.bind (R := Eq) (L.pure rfl) ?_; rintro r10 _ rfl
    refine L.bind (R := Eq) (L.pure rfl) ?_; rintro r11 _ rfl
    refine L.bind (L.jloop (R := RS L.RA) (fun s s' hs => gs_r2s_size32_loop_rel L hp n rdi rdx r10 hymm4 hs) _ _ _ ⟨ha, rfl⟩) ?_
    rintro ⟨a, st⟩ ⟨a', st'⟩ ⟨ha, he⟩
    obtain rfl : st = st' := he
    exact L.pure ha

theorem mgs_r2s_loop0_plain : mgs_r2s_loop0 plain = Asm.mgs_r2s_loop0 := rfl

theorem mgs_r2s_loop0_rel {p : A} {p' : A'} (hp : L.RA p p') (rcx : Nat) {ymm4 ymm4' : V8} (hymm4 : RE L.b ymm4 ymm4') {ymm6 ymm6' : V8} (hymm6 : RE L.b ymm6 ymm6') {s : A × Nat × Nat × Nat × Nat} {s' : A' × Nat × Nat × Nat × Nat} (hs : RS L.RA s s') :
    L.Rel (RSB L.RA) (mgs_r2s_loop0 O p rcx ymm4 ymm6 s) (mgs_r2s_loop0 O' p' rcx ymm4' ymm6' s') := by
  unfold mgs_r2s_loop0
  obtain ⟨a, g⟩ := s
  obtain ⟨a', g'⟩ := s'
  obtain ⟨ha, hg⟩ := hs
  obtain rfl : g = g' := hg
  refine L.bind (R := L.RA) (L.pure ha) ?_; intro a a' ha
  refine L.bind (R := Eq) (L.pure rfl) ?_; rintro rax _ rfl
  refine L.bind (R := Eq) (L.pure rfl) ?_; rintro r8 _ rfl
  refine L.bind (R := Eq) (L.pure rfl) ?_; rintro r9 _ rfl
  refine L.bind (R := Eq) (L.pure rfl) ?_; rintro r10 _ rfl
  refine L.bind (L.load_sxwq hp _) ?_; intro ymm5 ymm5' hymm5
  refine L.bind (L.load ha _) ?_; intro ymm0 ymm0' hymm0
  refine L.bind (R := RE L.b) (L.pure (fun h => by rw [hymm0 h, hymm4 h, hymm5 h])) ?_; intro t t' ht
  refine L.bind (R := RE L.b) (L.pure (fun h => by rw [ht h])) ?_; intro ymm0 ymm0' hymm0
  refine L.bind (R := RE L.b) (L.pure (fun h => by rw [ht h])) ?_; intro ymm1 ymm1' hymm1
  refine L.bind (L.load_sxwq128 hp _) ?_; intro ymm5 ymm5' hymm5
  refine L.bind (R := RE L.b) (L.pure (fun h => by rw [hymm0 h, hymm1 h, hymm4 h, hymm5 h, hymm6 h])) ?_; intro t t' ht
  refine L.bind (R := RE L.b) (L.pure (fun h => by rw [ht h])) ?_; intro ymm0 ymm0' hymm0
  refine L.bind (R := RE L.b) (L.pure (fun h => by rw [ht h])) ?_; intro ymm1 ymm1' hymm1
  refine L.bind (L.load_bdcstw hp _) ?_; intro ymm5 ymm5' hymm5
  refine L.bind (R := RE L.b) (L.pure (fun h => by rw [hymm0 h, hymm1 h, hymm4 h, hymm5 h])) ?_; intro ymm0 ymm0' hymm0
  refine L.bind (L.store ha _ hymm0) ?_; intro a a' ha
  refine L.bind (R := Eq) (L.pure rfl) ?_; rintro rax _ rfl
  refine L.bind (R := Eq) (L.pure rfl) ?_; rintro r8 _ rfl
  refine L.bind (R := Eq) (L.pure rfl) ?_; rintro r9 _ rfl
  refine L.bind (R := Eq) (L.pure rfl) ?_; rintro r10 _ rfl
  exact L.pure ⟨⟨ha, rfl⟩, rfl⟩

theorem mgs_r2s_size16_loop_plain : mgs_r2s_size16_loop plain = Asm.mgs_r2s_size16_loop := rfl

theorem mgs_r2s_size16_loop_rel {p : A} {p' : A'} (hp : L.RA p p') (rcx : Nat) {ymm4 ymm4' : V8} (hymm4 : RE L.b ymm4 ymm4') {s : A × Nat × Nat} {s' : A' × Nat × Nat} (hs : RS L.RA s s') :
    L.Rel (RSB L.RA) (mgs_r2s_size16_loop O p rcx ymm4 s) (mgs_r2s_size16_loop O' p' rcx ymm4' s') := by
  unfold mgs_r2s_size16_loop
  obtain ⟨a, g⟩ := s
  obtain ⟨a', g'⟩ := s'
  obtain ⟨ha, hg⟩ := hs
  obtain rfl : g = g' := hg
  refine L.bind (R := L.RA) (L.pure ha) ?_; intro a a' ha
  refine L.bind (R := Eq) (L.pure rfl) ?_; rintro rax _ rfl
  refine L.bind (R := Eq) (L.pure rfl) ?_; rintro r9 _ rfl
  refine L.bind (L.load_bdcstw hp _) ?_; intro ymm5 ymm5' hymm5
  refine L.bind (R := RE L.b) (L.pure (fun h => by rw [hymm5 h])) ?_; intro ymm5 ymm5' hymm5
  refine L.bind (L.load ha _) ?_; intro ymm0 ymm0' hymm0
  refine L.bind (L.load ha _) ?_; intro ymm1 ymm1' hymm1
  refine L.bind (R := RE L.b) (L.pure (fun h => by rw [hymm0 h, hymm1 h, hymm4 h, hymm5 h])) ?_; intro t t' ht
  refine L.bind (R := RE L.b) (L.pure (fun h => by rw [ht h])) ?_; intro ymm0 ymm0' hymm0
  refine L.bind (R := RE L.b) (L.pure (fun h => by rw [ht h])) ?_; intro ymm1 ymm1' hymm1
  refine L.bind (L.store ha _ hymm0) ?_; intro a a' ha
  refine L.bind (L.store ha _ hymm1) ?_; intro a a' ha
  refine L.bind (R := Eq) (L.pure rfl) ?_; rintro rax _ rfl
  refine L.bind (R := Eq) (L.pure rfl) ?_; rintro r9 _ rfl
  exact L.pure ⟨⟨ha, rfl⟩, rfl⟩

theorem mgs_r2s_size32_inner_loop_plain : mgs_r2s_size32_inner_loop plain = Asm.mgs_r2s_size32_inner_loop := rfl

theorem mgs_r2s_size32_inner_loop_rel (r8 : Nat) {ymm4 ymm4' : V8} (hymm4 : RE L.b ymm4 ymm4') {ymm5 ymm5' : V8} (hymm5 : RE L.b ymm5 ymm5') {s : A × Nat × Nat} {s' : A' × Nat × Nat} (hs : RS L.RA s s') :
    L.Rel (RSB L.RA) (mgs_r2s_size32_inner_loop O r8 ymm4 ymm5 s) (mgs_r2s_size32_inner_loop O' r8 ymm4' ymm5' s') := by
  unfold mgs_r2s_size32_inner_loop
  obtain ⟨a, g⟩ := s
  obtain ⟨a', g'⟩ := s'
  obtain ⟨ha, hg⟩ := hs
  obtain rfl : g = g' := hg
  refine L.bind (R := L.RA) (L.pure ha) ?_; intro a a' ha
  refine L.bind (R := Eq) (L.pure rfl) ?_; rintro rax _ rfl
  refine L.bind (R := Eq) (L.pure rfl) ?_; rintro rcx _ rfl
  refine L.bind (L.load ha _) ?_; intro ymm0 ymm0' hymm0
  refine L.bind (L.load ha _) ?_; intro ymm1 ymm1' hymm1
  refine L.bind (R := RE L.b) (L.pure (fun h => by rw [hymm0 h, hymm1 h, hymm4 h, hymm5 h])) ?_; intro t t' ht
  refine L.bind (R := RE L.b) (L.pure (fun h => by rw [ht h])) ?_; intro ymm0 ymm0' hymm0
  refine L.bind (R := RE L.b) (L.pure (fun h => by rw [ht h])) ?_; intro ymm1 ymm1' hymm1
  refine L.bind (L.store ha _ hymm0) ?_; intro a a' ha
  refine L.bind (L.store ha _ hymm1) ?_; intro a a' ha
  refine L.bind (R := Eq) (L.pure rfl) ?_; rintro rax _ rfl
  refine L.bind (R := Eq) (L.pure rfl) ?_; rintro rcx _ rfl
  exact L.pure ⟨⟨ha, rfl⟩, rfl⟩

theorem mgs_r2s_size32_blocks_plain : mgs_r2s_size32_blocks plain = Asm.mgs_r2s_size32_blocks := rfl

theorem mgs_r2s_size32_blocks_rel {p : A} {p' : A'} (hp : L.RA p p') (n : Nat) (r10 : Nat) (r11 : Nat) {ymm4 ymm4' : V8} (hymm4 : RE L.b ymm4 ymm4') {s : A × Nat × Nat × Nat × Nat} {s' : A' × Nat × Nat × Nat × Nat} (hs : RS L.RA s s') :
    L.Rel (RSB L.RA) (mgs_r2s_size32_blocks O p n r10 r11 ymm4 s) (mgs_r2s_size32_blocks O' p' n r10 r11 ymm4' s') := by
  unfold mgs_r2s_size32_blocks
  obtain ⟨a, g⟩ := s
  obtain ⟨a', g'⟩ := s'
  obtain ⟨ha, hg⟩ := hs
  obtain rfl : g = g' := hg
  refine L.bind (R := L.RA) (L.pure ha) ?_; intro a a' ha
  refine L.bind (R := Eq) (L.pure rfl) ?_; rintro rax _ rfl
  refine L.bind (R := Eq) (L.pure rfl) ?_; rintro rcx _ rfl
  refine L.bind (R := Eq) (L.pure rfl) ?_; rintro r8 _ rfl
  refine L.bind (R := Eq) (L.pure rfl) ?_; rintro r9 _ rfl
  refine L.bind (L.load_bdcstw hp _) ?_; intro ymm5 ymm5' hymm5
  refine L.bind (R := RE L.b) (L.pure (fun h => by rw [hymm5 h])) ?_; intro ymm5 ymm5' hymm5
  refine L.bind (L.jloop (R := RS L.RA) (fun s s' hs => mgs_r2s_size32_inner_loop_rel L r8 hymm4 hymm5 hs) _ _ _ ⟨ha, rfl⟩) ?_
  rintro ⟨a, st⟩ ⟨a', st'⟩ ⟨ha, he⟩
  obtain rfl : st = st' := he
  refine L.bind (R := L.RA) (L.pure ha) ?_; intro a a' ha
  refine L.bind (R := Eq) (L.pure rfl) ?_; rintro rcx _ rfl
  refine L.bind (R := Eq) (L.pure rfl) ?_; rintro rax _ rfl
  refine L.bind (R := Eq) (L.pure rfl) ?_; rintro rcx _ rfl
  refine L.bind (R := Eq) (L.pure rfl) ?_; rintro r8 _ rfl
  refine L.bind (R := Eq) (L.pure rfl) ?_; rintro r9 _ rfl
  exact L.pure ⟨⟨ha, rfl⟩, rfl⟩

theorem mgs_r2s_size32_loop_plain : mgs_r2s_size32_loop plain = Asm.mgs_r2s_size32_loop := rfl

theorem mgs_r2s_size32_loop_rel {p : A} {p' : A'} (hp : L.RA p p') (n : Nat) (rdi : Nat) (rdx : Nat) (r10 : Nat) {ymm4 ymm4' : V8} (hymm4 : RE L.b ymm4 ymm4') {s : A × Nat × Nat} {s' : A' × Nat × Nat} (hs : RS L.RA s s') :
    L.Rel (RSB L.RA) (mgs_r2s_size32_loop O p n rdi rdx r10 ymm4 s) (mgs_r2s_size32_loop O' p' n rdi rdx r10 ymm4' s') := by
  unfold mgs_r2s_size32_loop
  obtain ⟨a, g⟩ := s
  obtain ⟨a', g'⟩ := s'
  obtain ⟨ha, hg⟩ := hs
  obtain rfl : g = g' := hg
  refine L.bind (R := L.RA) (L.pure ha) ?_; intro a a' ha
  refine L.bind (R := Eq) (L.pure rfl) ?_; rintro rsi _ rfl
  refine L.bind (R := Eq) (L.pure rfl) ?_; rintro r11 _ rfl
  refine L.bind (R := Eq) (L.pure rfl) ?_; rintro rax _ rfl
  refine L.bind (R := Eq) (L.pure rfl) ?_; rintro rcx _ rfl
  refine L.bind (R := Eq) (L.pure rfl) ?_; rintro r8 _ rfl
  refine L.bind (R := Eq) (L.pure rfl) ?_; rintro rsi _ rfl
  refine L.bind (R := Eq) (L.pure rfl) ?_; rintro r9 _ rfl
  refine L.bind (L.jloop (R := RS L.RA) (fun s s' hs => mgs_r2s_size32_blocks_rel L hp n r10 r11 hymm4 hs) _ _ _ ⟨ha, rfl⟩) ?_
  rintro ⟨a, st⟩ ⟨a', st'⟩ ⟨ha, he⟩
  obtain rfl : st = st' := he
  refine L.bind (R := L.RA) (L.pure ha) ?_; intro a a' ha
  refine L.bind (R := Eq) (L.pure rfl) ?_; rintro r11 _ rfl
  exact L.pure ⟨⟨ha, rfl⟩, rfl⟩

theorem nttmul_red_gs_rev2std_asm_plain : nttmul_red_gs_rev2std_asm plain = Asm.nttmul_red_gs_rev2std_asm := rfl

theorem nttmul_red_gs_rev2std_asm_rel {a : A} {a' : A'} (ha : L.RA a a') (n : Nat) {p : A} {p' : A'} (hp : L.RA p p') :
    L.Rel L.RA (nttmul_red_gs_rev2std_asm O a n p) (nttmul_red_gs_rev2std_asm O' a' n p') := by
  unfold nttmul_red_gs_rev2std_asm
  refine L.bind (R := Eq) (L.pure rfl) ?_; rintro rdi _ rfl
  refine L.bind (R := Eq) (L.pure rfl) ?_; rintro rsi _ rfl
  refine L.bind (R := Eq) (L.pure rfl) ?_; rintro rdx _ rfl
  refine L.bind (R := Eq) (L.pure rfl) ?_; rintro rcx _ rfl
  refine L.bind (R := Eq) (L.pure rfl) ?_; rintro r8 _ rfl
  refine L.bind (R := Eq) (L.pure rfl) ?_; rintro rsi _ rfl
  refine L.bind (R := Eq) (L.pure rfl) ?_; rintro r9 _ rfl
  refine L.bind (R := Eq) (L.pure rfl) ?_; rintro rsi _ rfl
  refine L.bind (R := Eq) (L.pure rfl) ?_; rintro r10 _ rfl
  refine L.bind (R := Eq) (L.pure rfl) ?_; rintro rax _ rfl
  refine L.bind (R := RE L.b) (L.pure (fun _ => rfl)) ?_; intro ymm4 ymm4' hymm4
  refine L.bind (R := RE L.b) (L.pure (fun _ => rfl)) ?_; intro ymm6 ymm6' hymm6
  refine L.bind (L.jloop (R := RS L.RA) (fun s s' hs => mgs_r2s_loop0_rel L hp rcx hymm4 hymm6 hs) _ _ _ ⟨ha, rfl⟩) ?_
  rintro ⟨a, st⟩ ⟨a', st'⟩ ⟨ha, he⟩
  obtain rfl : st = st' := he
  refine L.bind (R := L.RA) (L.pure ha) ?_; intro a a' ha
  refine L.bind (R := Eq) (L.pure rfl) ?_; rintro rax _ rfl
  refine L.bind (R := Eq) (L.pure rfl) ?_; rintro rsi _ rfl
  refine L.bind (R := Eq) (L.pure rfl) ?_; rintro r9 _ rfl
  refine L.bind (L.jloop (R := RS L.RA) (fun s s' hs => mgs_r2s_size16_loop_rel L hp rcx hymm4 hs) _ _ _ ⟨ha, rfl⟩) ?_
  rintro ⟨a, st⟩ ⟨a', st'⟩ ⟨ha, he⟩
  obtain rfl : st = st' := he
  refine L.bind (R := L.RA) (L.pure ha) ?_; intro a a' ha
  refine L.branch _ ?_ ?_
  · exact L.pure ha
  · refine L.bind (R := Eq) (L.pure rfl) ?_; rintro r10 _ rfl
    refine L.bind (R := Eq) (L.pure rfl) ?_; rintro r11 _ rfl
    refine L.bind (L.jloop (R := RS L.RA) (fun s s' hs => mgs_r2s_size32_loop_rel L hp n rdi rdx r10 hymm4 hs) _ _ _ ⟨ha, rfl⟩) ?_
    rintro ⟨a, st⟩ ⟨a', st'⟩ ⟨ha, he⟩
    obtain rfl : st = st' := he
    exact L.pure ha

theorem gs_s2r_inner_loop_plain : gs_s2r_inner_loop plain = Asm.gs_s2r_inner_loop := rfl

theorem gs_s2r_inner_loop_rel (rsi : Nat) (r11 : Nat) {ymm4 ymm4' : V8} (hymm4 : RE L.b ymm4 ymm4') {ymm5 ymm5' : V8} (hymm5 : RE L.b ymm5 ymm5') {ymm6 ymm6' : V8} (hymm6 : RE L.b ymm6 ymm6') {s : A × Nat × Nat} {s' : A' × Nat × Nat} (hs : RS L.RA s s') :
    L.Rel (RSB L.RA) (gs_s2r_inner_loop O rsi r11 ymm4 ymm5 ymm6 s) (gs_s2r_inner_loop O' rsi r11 ymm4' ymm5' ymm6' s') := by
  unfold gs_s2r_inner_loop
  obtain ⟨a, g⟩ := s
  obtain ⟨a', g'⟩ := s'
  obtain ⟨ha, hg⟩ := hs
  obtain rfl : g = g' := hg
  refine L.bind (R := L.RA) (L.pure ha) ?_; intro a a' ha
  refine L.bind (R := Eq) (L.pure rfl) ?_; rintro rax _ rfl
  refine L.bind (R := Eq) (L.pure rfl) ?_; rintro rcx _ rfl
  refine L.bind (L.load ha _) ?_; intro ymm0 ymm0' hymm0
  refine L.bind (L.load ha _) ?_; intro ymm1 ymm1' hymm1
  refine L.bind (R := RE L.b) (L.pure (fun h => by rw [hymm0 h, hymm1 h, hymm4 h, hymm5 h, hymm6 h])) ?_; intro t t' ht
  refine L.bind (R := RE L.b) (L.pure (fun h => by rw [ht h])) ?_; intro ymm0 ymm0' hymm0
  refine L.bind (R := RE L.b) (L.pure (fun h => by rw [ht h])) ?_; intro ymm2 ymm2' hymm2
  refine L.bind (L.store ha _ hymm2) ?_; intro a a' ha
  refine L.bind (L.store ha _ hymm0) ?_; intro a a' ha
  refine L.bind (R := Eq) (L.pure rfl) ?_; rintro rax _ rfl
  refine L.bind (R := Eq) (L.pure rfl) ?_; rintro rcx _ rfl
  exact L.pure ⟨⟨ha, rfl⟩, rfl⟩

theorem gs_s2r_loop_plain : gs_s2r_loop plain = Asm.gs_s2r_loop := rfl

theorem gs_s2r_loop_rel {p : A} {p' : A'} (hp : L.RA p p') (n : Nat) (rsi : Nat) (r10 : Nat) (r11 : Nat) {ymm4 ymm4' : V8} (hymm4 : RE L.b ymm4 ymm4') {s : A × Nat × Nat} {s' : A' × Nat × Nat} (hs : RS L.RA s s') :
    L.Rel (RSB L.RA) (gs_s2r_loop O p n rsi r10 r11 ymm4 s) (gs_s2r_loop O' p' n rsi r10 r11 ymm4' s') := by
  unfold gs_s2r_loop
  obtain ⟨a, g⟩ := s
  obtain ⟨a', g'⟩ := s'
  obtain ⟨ha, hg⟩ := hs
  obtain rfl : g = g' := hg
  refine L.bind (R := L.RA) (L.pure ha) ?_; intro a a' ha
  refine L.bind (R := Eq) (L.pure rfl) ?_; rintro r8 _ rfl
  refine L.bind (R := Eq) (L.pure rfl) ?_; rintro r9 _ rfl
  refine L.bind (L.load_sxwd hp _) ?_; intro ymm5 ymm5' hymm5
  refine L.bind (R := RE L.b) (L.pure (fun h => by rw [hymm5 h])) ?_; intro ymm6 ymm6' hymm6
  refine L.bind (R := Eq) (L.pure rfl) ?_; rintro rax _ rfl
  refine L.bind (R := Eq) (L.pure rfl) ?_; rintro rcx _ rfl
  refine L.bind (L.jloop (R := RS L.RA) (fun s s' hs => gs_s2r_inner_loop_rel L rsi r11 hymm4 hymm5 hymm6 hs) _ _ _ ⟨ha, rfl⟩) ?_
  rintro ⟨a, st⟩ ⟨a', st'⟩ ⟨ha, he⟩
  obtain rfl : st = st' := he
  refine L.bind (R := L.RA) (L.pure ha) ?_; intro a a' ha
  refine L.bind (R := Eq) (L.pure rfl) ?_; rintro r8 _ rfl
  refine L.bind (R := Eq) (L.pure rfl) ?_; rintro r9 _ rfl
  exact L.pure ⟨⟨ha, rfl⟩, rfl⟩

theorem gs_s2r_main_plain : gs_s2r_main plain = Asm.gs_s2r_main := rfl

theorem gs_s2r_main_rel {p : A} {p' : A'} (hp : L.RA p p') (n : Nat) (rdi : Nat) (rdx : Nat) (r11 : Nat) {ymm4 ymm4' : V8} (hymm4 : RE L.b ymm4 ymm4') {s : A × Nat} {s' : A' × Nat} (hs : RS L.RA s s') :
    L.Rel (RSB L.RA) (gs_s2r_main O p n rdi rdx r11 ymm4 s) (gs_s2r_main O' p' n rdi rdx r11 ymm4' s') := by
  unfold gs_s2r_main
  obtain ⟨a, g⟩ := s
  obtain ⟨a', g'⟩ := s'
  obtain ⟨ha, hg⟩ := hs
  obtain rfl : g = g' := hg
  refine L.bind (R := L.RA) (L.pure ha) ?_; intro a a' ha
  refine L.bind (R := Eq) (L.pure rfl) ?_; rintro rsi _ rfl
  refine L.bind (R := Eq) (L.pure rfl) ?_; rintro r8 _ rfl
  refine L.bind (R := Eq) (L.pure rfl) ?_; rintro r9 _ rfl
  refine L.bind (R := Eq) (L.pure rfl) ?_; rintro r10 _ rfl
  refine L.bind (L.jloop (R := RS L.RA) (fun s s' hs => gs_s2r_loop_rel L hp n rsi r10 r11 hymm4 hs) _ _ _ ⟨ha, rfl⟩) ?_
  rintro ⟨a, st⟩ ⟨a', st'⟩ ⟨ha, he⟩
  obtain rfl : st = st' := he
  refine L.bind (R := L.RA) (L.pure ha) ?_; intro a a' ha
  refine L.bind (R := Eq) (L.pure rfl) ?_; rintro rsi _ rfl
  exact L.pure ⟨⟨ha, rfl⟩, rfl⟩

theorem gs_s2r_finish_loop_plain : gs_s2r_finish_loop plain = Asm.gs_s2r_finish_loop := rfl

theorem gs_s2r_finish_loop_rel (r11 : Nat) {ymm4 ymm4' : V8} (hymm4 : RE L.b ymm4 ymm4') {ymm5 ymm5' : V8} (hymm5 : RE L.b ymm5 ymm5') {ymm6 ymm6' : V8} (hymm6 : RE L.b ymm6 ymm6') {ymm7 ymm7' : V8} (hymm7 : RE L.b ymm7 ymm7') {ymm9 ymm9' : V8} (hymm9 : RE L.b ymm9 ymm9') {s : A × Nat} {s' : A' × Nat} (hs : RS L.RA s s') :
    L.Rel (RSB L.RA) (gs_s2r_finish_loop O r11 ymm4 ymm5 ymm6 ymm7 ymm9 s) (gs_s2r_finish_loop O' r11 ymm4' ymm5' ymm6' ymm7' ymm9' s') := by
  unfold gs_s2r_finish_loop
  obtain ⟨a, g⟩ := s
  obtain ⟨a', g'⟩ := s'
  obtain ⟨ha, hg⟩ := hs
  obtain rfl : g = g' := hg
  refine L.bind (R := L.RA) (L.pure ha) ?_; intro a a' ha
  refine L.bind (R := Eq) (L.pure rfl) ?_; rintro rax _ rfl
  refine L.bind (L.load ha _) ?_; intro ymm0 ymm0' hymm0
  refine L.bind (L.load ha _) ?_; intro ymm1 ymm1' hymm1
  refine L.bind (R := RE L.b) (L.pure (fun h => by rw [hymm0 h, hymm1 h, hymm4 h, hymm5 h, hymm6 h, hymm7 h, hymm9 h])) ?_; intro t t' ht
  refine L.bind (R := RE L.b) (L.pure (fun h => by rw [ht h])) ?_; intro ymm0 ymm0' hymm0
  refine L.bind (R := RE L.b) (L.pure (fun h => by rw [ht h])) ?_; intro ymm1 ymm1' hymm1
  refine L.bind (L.store ha _ hymm0) ?_; intro a a' ha
  refine L.bind (L.store ha _ hymm1) ?_; intro a a' ha
  refine L.bind (R := Eq) (L.pure rfl) ?_; rintro rax _ rfl
  exact L.pure ⟨⟨ha, rfl⟩, rfl⟩

theorem ntt_red_gs_std2rev_asm_plain : ntt_red_gs_std2rev_asm plain = Asm.ntt_red_gs_std2rev_asm := rfl

theorem ntt_red_gs_std2rev_asm_rel {a : A} {a' : A'} (ha : L.RA a a') (n : Nat) {p : A} {p' : A'} (hp : L.RA p p') :
    L.Rel L.RA (ntt_red_gs_std2rev_asm O a n p) (ntt_red_gs_std2rev_asm O' a' n p') := by
  unfold ntt_red_gs_std2rev_asm
  refine L.bind (R := Eq) (L.pure rfl) ?_; rintro rdi _ rfl
  refine L.bind (R := Eq) (L.pure rfl) ?_; rintro rsi _ rfl
  refine L.bind (R := Eq) (L.pure rfl) ?_; rintro rdx _ rfl
  refine L.bind (R := Eq) (L.pure rfl) ?_; rintro r11 _ rfl
  refine L.bind (R := RE L.b) (L.pure (fun _ => rfl)) ?_; intro ymm4 ymm4' hymm4
  refine L.bind (L.jloop (R := RS L.RA) (fun s s' hs => gs_s2r_main_rel L hp n rdi rdx r11 hymm4 hs) _ _ _ ⟨ha, rfl⟩) ?_
  rintro ⟨a, st⟩ ⟨a', st'⟩ ⟨ha, he⟩
  obtain rfl : st = st' := he
  refine L.bind (R := L.RA) (L.pure ha) ?_; intro a a' ha
  refine L.bind (L.load_sxwd hp _) ?_; intro ymm5 ymm5' hymm5
  refine L.bind (R := RE L.b) (L.pure (fun h => by rw [hymm5 h])) ?_; intro t t' ht
  refine L.bind (R := RE L.b) (L.pure (fun h => by rw [ht h])) ?_; intro ymm5 ymm5' hymm5
  refine L.bind (R := RE L.b) (L.pure (fun h => by rw [ht h])) ?_; intro ymm6 ymm6' hymm6
  refine L.bind (R := RE L.b) (L.pure (fun h => by rw [ht h])) ?_; intro ymm7 ymm7' hymm7
  refine L.bind (R := Eq) (L.pure rfl) ?_; rintro rax _ rfl
  refine L.bind (R := RE L.b) (L.pure (fun _ => rfl)) ?_; intro ymm9 ymm9' hymm9
  refine L.bind (L.jloop (R := RS L.RA) (fun s s' hs => gs_s2r_finish_loop_rel L r11 hymm4 hymm5 hymm6 hymm7 hymm9 hs) _ _ _ ⟨ha, rfl⟩) ?_
  rintro ⟨a, st⟩ ⟨a', st'⟩ ⟨ha, he⟩
  obtain rfl : st = st' := he
  exact L.pure ha

theorem mgs_s2r_inner_loop_plain : mgs_s2r_inner_loop plain = Asm.mgs_s2r_inner_loop := rfl

theorem mgs_s2r_inner_loop_rel (rsi : Nat) (r11 : Nat) {ymm4 ymm4' : V8} (hymm4 : RE L.b ymm4 ymm4') {ymm5 ymm5' : V8} (hymm5 : RE L.b ymm5 ymm5') {ymm6 ymm6' : V8} (hymm6 : RE L.b ymm6 ymm6') {s : A × Nat × Nat} {s' : A' × Nat × Nat} (hs : RS L.RA s s') :
    L.Rel (RSB L.RA) (mgs_s2r_inner_loop O rsi r11 ymm4 ymm5 ymm6 s) (mgs_s2r_inner_loop O' rsi r11 ymm4' ymm5' ymm6' s') := by
  unfold mgs_s2r_inner_loop
  obtain ⟨a, g⟩ := s
  obtain ⟨a', g'⟩ := s'
  obtain ⟨ha, hg⟩ := hs
  obtain rfl : g = g' := hg
  refine L.bind (R := L.RA) (L.pure ha) ?_; intro a a' ha
  refine L.bind (R := Eq) (L.pure rfl) ?_; rintro rax _ rfl
  refine L.bind (R := Eq) (L.pure rfl) ?_; rintro rcx _ rfl
  refine L.bind (L.load ha _) ?_; intro ymm0 ymm0' hymm0
  refine L.bind (L.load ha _) ?_; intro ymm1 ymm1' hymm1
  refine L.bind (R := RE L.b) (L.pure (fun h => by rw [hymm0 h, hymm1 h, hymm4 h, hymm5 h, hymm6 h])) ?_; intro t t' ht
  refine L.bind (R := RE L.b) (L.pure (fun h => by rw [ht h])) ?_; intro ymm0 ymm0' hymm0
  refine L.bind (R := RE L.b) (L.pure (fun h => by rw [ht h])) ?_; intro ymm2 ymm2' hymm2
  refine L.bind (L.store ha _ hymm2) ?_; intro a a' ha
  refine L.bind (L.store ha _ hymm0) ?_; intro a a' ha
  refine L.bind (R := Eq) (L.pure rfl) ?_; rintro rax _ rfl
  refine L.bind (R := Eq) (L.pure rfl) ?_; rintro rcx _ rfl
  exact L.pure ⟨⟨ha, rfl⟩, rfl⟩

theorem mgs_s2r_loop_plain : mgs_s2r_loop plain = Asm.mgs_s2r_loop := rfl

theorem mgs_s2r_loop_rel {p : A} {p' : A'} (hp : L.RA p p') (n : Nat) (rsi : Nat) (r10 : Nat) (r11 : Nat) {ymm4 ymm4' : V8} (hymm4 : RE L.b ymm4 ymm4') {s : A × Nat × Nat} {s' : A' × Nat × Nat} (hs : RS L.RA s s') :
    L.Rel (RSB L.RA) (mgs_s2r_loop O p n rsi r10 r11 ymm4 s) (mgs_s2r_loop O' p' n rsi r10 r11 ymm4' s') := by
  unfold mgs_s2r_loop
  obtain ⟨a, g⟩ := s
  obtain ⟨a', g'⟩ := s'
  obtain ⟨ha, hg⟩ := hs
  obtain rfl : g = g' := hg
  refine L.bind (R := L.RA) (L.pure ha) ?_; intro a a' ha
  refine L.bind (R := Eq) (L.pure rfl) ?_; rintro r8 _ rfl
  refine L.bind (R := Eq) (L.pure rfl) ?_; rintro r9 _ rfl
  refine L.bind (L.load_sxwd hp _) ?_; intro ymm5 ymm5' hymm5
  refine L.bind (R := RE L.b) (L.pure (fun h => by rw [hymm5 h])) ?_; intro ymm6 ymm6' hymm6
  refine L.bind (R := Eq) (L.pure rfl) ?_; rintro rax _ rfl
  refine L.bind (R := Eq) (L.pure rfl) ?_; rintro rcx _ rfl
  refine L.bind (L.jloop (R := RS L.RA) (fun s s' hs => mgs_s2r_inner_loop_rel L rsi r11 hymm4 hymm5 hymm6 hs) _ _ _ ⟨ha, rfl⟩) ?_
  rintro ⟨a, st⟩ ⟨a', st'⟩ ⟨ha, he⟩
  obtain rfl : st = st' := he
  refine L.bind (R := L.RA) (L.pure ha) ?_; intro a a' ha
  refine L.bind (R := Eq) (L.pure rfl) ?_; rintro r8 _ rfl
  refine L.bind (R := Eq) (L.pure rfl) ?_; rintro r9 _ rfl
  exact L.pure ⟨⟨ha, rfl⟩, rfl⟩

theorem mgs_s2r_main_plain : mgs_s2r_main plain = Asm.mgs_s2r_main := rfl

theorem mgs_s2r_main_rel {p : A} {p' : A'} (hp : L.RA p p') (n : Nat) (rdi : Nat) (rdx : Nat) (r11 : Nat) {ymm4 ymm4' : V8} (hymm4 : RE L.b ymm4 ymm4') {s : A × Nat} {s' : A' × Nat} (hs : RS L.RA s s') :
    L.Rel (RSB L.RA) (mgs_s2r_main O p n rdi rdx r11 ymm4 s) (mgs_s2r_main O' p' n rdi rdx r11 ymm4' s') := by
  unfold mgs_s2r_main
  obtain ⟨a, g⟩ := s
  obtain ⟨a', g'⟩ := s'
  obtain ⟨ha, hg⟩ := hs
  obtain rfl : g = g' := hg
  refine L.bind (R := L.RA) (L.pure ha) ?_; intro a a' ha
  refine L.bind (R := Eq) (L.pure rfl) ?_; rintro rsi _ rfl
  refine L.bind (R := Eq) (L.pure rfl) ?_; rintro r8 _ rfl
  refine L.bind (R := Eq) (L.pure rfl) ?_; rintro r9 _ rfl
  refine L.bind (R := Eq) (L.pure rfl) ?_; rintro r10 _ rfl
  refine L.bind (L.jloop (R := RS L.RA) (fun s s' hs => mgs_s2r_loop_rel L hp n rsi r10 r11 hymm4 hs) _ _ _ ⟨ha, rfl⟩) ?_
  rintro ⟨a, st⟩ ⟨a', st'⟩ ⟨ha, he⟩
  obtain rfl : st = st' := he
  refine L.bind (R := L.RA) (L.pure ha) ?_; intro a a' ha
  refine L.bind (R := Eq) (L.pure rfl) ?_; rintro rsi _ rfl
  exact L.pure ⟨⟨ha, rfl⟩, rfl⟩

theorem mgs_s2r_finish_loop_plain : mgs_s2r_finish_loop plain = Asm.mgs_s2r_finish_loop := rfl

theorem mgs_s2r_finish_loop_rel (r11 : Nat) {ymm4 ymm4' : V8} (hymm4 : RE L.b ymm4 ymm4') {ymm5 ymm5' : V8} (hymm5 : RE L.b ymm5 ymm5') {ymm6 ymm6' : V8} (hymm6 : RE L.b ymm6 ymm6') {ymm7 ymm7' : V8} (hymm7 : RE L.b ymm7 ymm7') {ymm8 ymm8' : V8} (hymm8 : RE L.b ymm8 ymm8') {ymm9 ymm9' : V8} (hymm9 : RE L.b ymm9 ymm9') {ymm10 ymm10' : V8} (hymm10 : RE L.b ymm10 ymm10') {s : A × Nat} {s' : A' × Nat} (hs : RS L.RA s s') :
    L.Rel (RSB L.RA) (mgs_s2r_finish_loop O r11 ymm4 ymm5 ymm6 ymm7 ymm8 ymm9 ymm10 s) (mgs_s2r_finish_loop O' r11 ymm4' ymm5' ymm6' ymm7' ymm8' ymm9' ymm10' s') := by
  unfold mgs_s2r_finish_loop
  obtain ⟨a, g⟩ := s
  obtain ⟨a', g'⟩ := s'
  obtain ⟨ha, hg⟩ := hs
  obtain rfl : g = g' := hg
  refine L.bind (R := L.RA) (L.pure ha) ?_; intro a a' ha
  refine L.bind (R := Eq) (L.pure rfl) ?_; rintro rax _ rfl
  refine L.bind (L.load ha _) ?_; intro ymm0 ymm0' hymm0
  refine L.bind (L.load ha _) ?_; intro ymm1 ymm1' hymm1
  refine L.bind (R := RE L.b) (L.pure (fun h => by rw [hymm0 h, hymm1 h, hymm4 h, hymm5 h, hymm6 h, hymm7 h, hymm8 h, hymm9 h, hymm10 h])) ?_; intro t t' ht
  refine L.bind (R := RE L.b) (L.pure (fun h => by rw [ht h])) ?_; intro ymm0 ymm0' hymm0
  refine L.bind (R := RE L.b) (L.pure (fun h => by rw [ht h])) ?_; intro ymm1 ymm1' hymm1
  refine L.bind (L.store ha _ hymm0) ?_; intro a a' ha
  refine L.bind (L.store ha _ hymm1) ?_; intro a a' ha
  refine L.bind (R := Eq) (L.pure rfl) ?_; rintro rax _ rfl
  exact L.pure ⟨⟨ha, rfl⟩, rfl⟩

theorem nttmul_red_gs_std2rev_asm_plain : nttmul_red_gs_std2rev_asm plain = Asm.nttmul_red_gs_std2rev_asm := rfl

theorem nttmul_red_gs_std2rev_asm_rel {a : A} {a' : A'} (ha : L.RA a a') (n : Nat) {p : A} {p' : A'} (hp : L.RA p p') :
    L.Rel L.RA (nttmul_red_gs_std2rev_asm O a n p) (nttmul_red_gs_std2rev_asm O' a' n p') := by
  unfold nttmul_red_gs_std2rev_asm
  refine L.bind (R := Eq) (L.pure rfl) ?_; rintro rdi _ rfl
  refine L.bind (R := Eq) (L.pure rfl) ?_; rintro rsi _ rfl
  refine L.bind (R := Eq) (L.pure rfl) ?_; rintro rdx _ rfl
  refine L.bind (R := Eq) (L.pure rfl) ?_; rintro r11 _ rfl
  refine L.bind (R := RE L.b) (L.pure (fun _ => rfl)) ?_; intro ymm4 ymm4' hymm4
  refine L.bind (L.jloop (R := RS L.RA) (fun s s' hs => mgs_s2r_main_rel L hp n rdi rdx r11 hymm4 hs) _ _ _ ⟨ha, rfl⟩) ?_
  rintro ⟨a, st⟩ ⟨a', st'⟩ ⟨ha, he⟩
  obtain rfl : st = st' := he
  refine L.bind (R := L.RA) (L.pure ha) ?_; intro a a' ha
  refine L.bind (L.load_sxwd hp _) ?_; intro ymm0 ymm0' hymm0
  refine L.bind (R := RE L.b) (L.pure (fun _ => rfl)) ?_; intro ymm9 ymm9' hymm9
  refine L.bind (R := RE L.b) (L.pure (fun h => by rw [hymm0 h, hymm9 h])) ?_; intro ymm9 ymm9' hymm9
  refine L.bind (R := RE L.b) (L.pure (fun _ => rfl)) ?_; intro ymm8 ymm8' hymm8
  refine L.bind (R := RE L.b) (L.pure (fun h => by rw [hymm0 h, hymm8 h])) ?_; intro ymm8 ymm8' hymm8
  refine L.bind (R := RE L.b) (L.pure (fun _ => rfl)) ?_; intro ymm7 ymm7' hymm7
  refine L.bind (R := RE L.b) (L.pure (fun h => by rw [hymm0 h, hymm7 h])) ?_; intro ymm7 ymm7' hymm7
  refine L.bind (R := RE L.b) (L.pure (fun _ => rfl)) ?_; intro ymm6 ymm6' hymm6
  refine L.bind (R := RE L.b) (L.pure (fun h => by rw [hymm0 h, hymm6 h])) ?_; intro ymm6 ymm6' hymm6
  refine L.bind (R := RE L.b) (L.pure (fun _ => rfl)) ?_; intro ymm5 ymm5' hymm5
  refine L.bind (R := RE L.b) (L.pure (fun h => by rw [hymm0 h, hymm5 h])) ?_; intro ymm5 ymm5' hymm5
  refine L.bind (R := Eq) (L.pure rfl) ?_; rintro rax _ rfl
  refine L.bind (R := RE L.b) (L.pure (fun _ => rfl)) ?_; intro ymm10 ymm10' hymm10
  refine L.bind (L.jloop (R := RS L.RA) (fun s s' hs => mgs_s2r_finish_loop_rel L r11 hymm4 hymm5 hymm6 hymm7 hymm8 hymm9 hymm10 hs) _ _ _ ⟨ha, rfl⟩) ?_
  rintro ⟨a, st⟩ ⟨a', st'⟩ ⟨ha, he⟩
  obtain rfl : st = st' := he
  exact L.pure ha

end

theorem reduce_array_asm_er (a : Named Int) (n : Nat) :
    ErP (fun x y => x.data = y) (reduce_array_asm traced a n) (Asm.reduce_array_asm a.data n) := by
  have := reduce_array_asm_rel erL (a := a) rfl n
  rw [reduce_array_asm_plain] at this
  exact this

theorem reduce_array_asm_sm {a a' : Named Int} (ha : a.name = a'.name) (n : Nat) :
    SmP (fun x y => x.name = y.name) (reduce_array_asm traced a n) (reduce_array_asm traced a' n) :=
  reduce_array_asm_rel smL ha n

theorem reduce_array_asm2_er (a : Named Int) (n : Nat) :
    ErP (fun x y => x.data = y) (reduce_array_asm2 traced a n) (Asm.reduce_array_asm2 a.data n) := by
  have := reduce_array_asm2_rel erL (a := a) rfl n
  rw [reduce_array_asm2_plain] at this
  exact this

theorem reduce_array_asm2_sm {a a' : Named Int} (ha : a.name = a'.name) (n : Nat) :
    SmP (fun x y => x.name = y.name) (reduce_array_asm2 traced a n) (reduce_array_asm2 traced a' n) :=
  reduce_array_asm2_rel smL ha n

theorem reduce_array_twice_asm_er (a : Named Int) (n : Nat) :
    ErP (fun x y => x.data = y) (reduce_array_twice_asm traced a n) (Asm.reduce_array_twice_asm a.data n) := by
  have := reduce_array_twice_asm_rel erL (a := a) rfl n
  rw [reduce_array_twice_asm_plain] at this
  exact this

theorem reduce_array_twice_asm_sm {a a' : Named Int} (ha : a.name = a'.name) (n : Nat) :
    SmP (fun x y => x.name = y.name) (reduce_array_twice_asm traced a n) (reduce_array_twice_asm traced a' n) :=
  reduce_array_twice_asm_rel smL ha n

theorem reduce_array_twice_asm2_er (a : Named Int) (n : Nat) :
    ErP (fun x y => x.data = y) (reduce_array_twice_asm2 traced a n) (Asm.reduce_array_twice_asm2 a.data n) := by
  have := reduce_array_twice_asm2_rel erL (a := a) rfl n
  rw [reduce_array_twice_asm2_plain] at this
  exact this

theorem reduce_array_twice_asm2_sm {a a' : Named Int} (ha : a.name = a'.name) (n : Nat) :
    SmP (fun x y => x.name = y.name) (reduce_array_twice_asm2 traced a n) (reduce_array_twice_asm2 traced a' n) :=
  reduce_array_twice_asm2_rel smL ha n

theorem correct_asm_er (a : Named Int) (n : Nat) :
    ErP (fun x y => x.data = y) (correct_asm traced a n) (Asm.correct_asm a.data n) := by
  have := correct_asm_rel erL (a := a) rfl n
  rw [correct_asm_plain] at this
  exact this

theorem correct_asm_sm {a a' : Named Int} (ha : a.name = a'.name) (n : Nat) :
    SmP (fun x y => x.name = y.name) (correct_asm traced a n) (correct_asm traced a' n) :=
  correct_asm_rel smL ha n

theorem shift_array_asm_er (a : Named Int) (n : Nat) :
    ErP (fun x y => x.data = y) (shift_array_asm traced a n) (Asm.shift_array_asm a.data n) := by
  have := shift_array_asm_rel erL (a := a) rfl n
  rw [shift_array_asm_plain] at this
  exact this

theorem shift_array_asm_sm {a a' : Named Int} (ha : a.name = a'.name) (n : Nat) :
    SmP (fun x y => x.name = y.name) (shift_array_asm traced a n) (shift_array_asm traced a' n) :=
  shift_array_asm_rel smL ha n

theorem mul_reduce_array16_asm_er (a : Named Int) (n : Nat) (p : Named Int) :
    ErP (fun x y => x.data = y) (mul_reduce_array16_asm traced a n p) (Asm.mul_reduce_array16_asm a.data n p.data) := by
  have := mul_reduce_array16_asm_rel erL (a := a) rfl n (p := p) rfl
  rw [mul_reduce_array16_asm_plain] at this
  exact this

theorem mul_reduce_array16_asm_sm {a a' : Named Int} (ha : a.name = a'.name) (n : Nat) {p p' : Named Int} (hp : p.name = p'.name) :
    SmP (fun x y => x.name = y.name) (mul_reduce_array16_asm traced a n p) (mul_reduce_array16_asm traced a' n p') :=
  mul_reduce_array16_asm_rel smL ha n hp

theorem mul_reduce_array16_asm2_er (a : Named Int) (n : Nat) (p : Named Int) :
    ErP (fun x y => x.data = y) (mul_reduce_array16_asm2 traced a n p) (Asm.mul_reduce_array16_asm2 a.data n p.data) := by
  have := mul_reduce_array16_asm2_rel erL (a := a) rfl n (p := p) rfl
  rw [mul_reduce_array16_asm2_plain] at this
  exact this

theorem mul_reduce_array16_asm2_sm {a a' : Named Int} (ha : a.name = a'.name) (n : Nat) {p p' : Named Int} (hp : p.name = p'.name) :
    SmP (fun x y => x.name = y.name) (mul_reduce_array16_asm2 traced a n p) (mul_reduce_array16_asm2 traced a' n p') :=
  mul_reduce_array16_asm2_rel smL ha n hp

theorem mul_reduce_array_asm_er (a : Named Int) (n : Nat) (b : Named Int) (c : Named Int) :
    ErP (fun x y => x.data = y) (mul_reduce_array_asm traced a n b c) (Asm.mul_reduce_array_asm a.data n b.data c.data) := by
  have := mul_reduce_array_asm_rel erL (a := a) rfl n (b := b) rfl (c := c) rfl
  rw [mul_reduce_array_asm_plain] at this
  exact this

theorem mul_reduce_array_asm_sm {a a' : Named Int} (ha : a.name = a'.name) (n : Nat) {b b' : Named Int} (hb : b.name = b'.name) {c c' : Named Int} (hc : c.name = c'.name) :
    SmP (fun x y => x.name = y.name) (mul_reduce_array_asm traced a n b c) (mul_reduce_array_asm traced a' n b' c') :=
  mul_reduce_array_asm_rel smL ha n hb hc

theorem scalar_mul_reduce_array_asm_er (a : Named Int) (n : Nat) (rdx : Int) :
    ErP (fun x y => x.data = y) (scalar_mul_reduce_array_asm traced a n rdx) (Asm.scalar_mul_reduce_array_asm a.data n rdx) := by
  have := scalar_mul_reduce_array_asm_rel erL (a := a) rfl n (rdx := rdx) (fun _ => rfl)
  rw [scalar_mul_reduce_array_asm_plain] at this
  exact this

theorem scalar_mul_reduce_array_asm_sm {a a' : Named Int} (ha : a.name = a'.name) (n : Nat) (rdx rdx' : Int) :
    SmP (fun x y => x.name = y.name) (scalar_mul_reduce_array_asm traced a n rdx) (scalar_mul_reduce_array_asm traced a' n rdx') :=
  scalar_mul_reduce_array_asm_rel smL ha n (fun h => nomatch h)

theorem ntt_red_ct_rev2std_asm_er (a : Named Int) (n : Nat) (p : Named Int) :
    ErP (fun x y => x.data = y) (ntt_red_ct_rev2std_asm traced a n p) (Asm.ntt_red_ct_rev2std_asm a.data n p.data) := by
  have := ntt_red_ct_rev2std_asm_rel erL (a := a) rfl n (p := p) rfl
  rw [ntt_red_ct_rev2std_asm_plain] at this
  exact this

theorem ntt_red_ct_rev2std_asm_sm {a a' : Named Int} (ha : a.name = a'.name) (n : Nat) {p p' : Named Int} (hp : p.name = p'.name) :
    SmP (fun x y => x.name = y.name) (ntt_red_ct_rev2std_asm traced a n p) (ntt_red_ct_rev2std_asm traced a' n p') :=
  ntt_red_ct_rev2std_asm_rel smL ha n hp

theorem mulntt_red_ct_rev2std_asm_er (a : Named Int) (n : Nat) (p : Named Int) :
    ErP (fun x y => x.data = y) (mulntt_red_ct_rev2std_asm traced a n p) (Asm.mulntt_red_ct_rev2std_asm a.data n p.data) := by
  have := mulntt_red_ct_rev2std_asm_rel erL (a := a) rfl n (p := p) rfl
  rw [mulntt_red_ct_rev2std_asm_plain] at this
  exact this

theorem mulntt_red_ct_rev2std_asm_sm {a a' : Named Int} (ha : a.name = a'.name) (n : Nat) {p p' : Named Int} (hp : p.name = p'.name) :
    SmP (fun x y => x.name = y.name) (mulntt_red_ct_rev2std_asm traced a n p) (mulntt_red_ct_rev2std_asm traced a' n p') :=
  mulntt_red_ct_rev2std_asm_rel smL ha n hp

theorem ntt_red_ct_std2rev_asm_er (a : Named Int) (n : Nat) (p : Named Int) :
    ErP (fun x y => x.data = y) (ntt_red_ct_std2rev_asm traced a n p) (Asm.ntt_red_ct_std2rev_asm a.data n p.data) := by
  have := ntt_red_ct_std2rev_asm_rel erL (a := a) rfl n (p := p) rfl
  rw [ntt_red_ct_std2rev_asm_plain] at this
  exact this

theorem ntt_red_ct_std2rev_asm_sm {a a' : Named Int} (ha : a.name = a'.name) (n : Nat) {p p' : Named Int} (hp : p.name = p'.name) :
    SmP (fun x y => x.name = y.name) (ntt_red_ct_std2rev_asm traced a n p) (ntt_red_ct_std2rev_asm traced a' n p') :=
  ntt_red_ct_std2rev_asm_rel smL ha n hp

theorem mulntt_red_ct_std2rev_asm_er (a : Named Int) (n : Nat) (p : Named Int) :
    ErP (fun x y => x.data = y) (mulntt_red_ct_std2rev_asm traced a n p) (Asm.mulntt_red_ct_std2rev_asm a.data n p.data) := by
  have := mulntt_red_ct_std2rev_asm_rel erL (a := a) rfl n (p := p) rfl
  rw [mulntt_red_ct_std2rev_asm_plain] at this
  exact this

theorem mulntt_red_ct_std2rev_asm_sm {a a' : Named Int} (ha : a.name = a'.name) (n : Nat) {p p' : Named Int} (hp : p.name = p'.name) :
    SmP (fun x y => x.name = y.name) (mulntt_red_ct_std2rev_asm traced a n p) (mulntt_red_ct_std2rev_asm traced a' n p') :=
  mulntt_red_ct_std2rev_asm_rel smL ha n hp

theorem ntt_red_gs_rev2std_asm_er (a : Named Int) (n : Nat) (p : Named Int) :
    ErP (fun x y => x.data = y) (ntt_red_gs_rev2std_asm traced a n p) (Asm.ntt_red_gs_rev2std_asm a.data n p.data) := by
  have := ntt_red_gs_rev2std_asm_rel erL (a := a) rfl n (p := p) rfl
  rw [ntt_red_gs_rev2std_asm_plain] at this
  exact this

theorem ntt_red_gs_rev2std_asm_sm {a a' : Named Int} (ha : a.name = a'.name) (n : Nat) {p p' : Named Int} (hp : p.name = p'.name) :
    SmP (fun x y => x.name = y.name) (ntt_red_gs_rev2std_asm traced a n p) (ntt_red_gs_rev2std_asm traced a' n p') :=
  ntt_red_gs_rev2std_asm_rel smL ha n hp

theorem nttmul_red_gs_rev2std_asm_er (a : Named Int) (n : Nat) (p : Named Int) :
    ErP (fun x y => x.data = y) (nttmul_red_gs_rev2std_asm traced a n p) (Asm.nttmul_red_gs_rev2std_asm a.data n p.data) := by
  have := nttmul_red_gs_rev2std_asm_rel erL (a := a) rfl n (p := p) rfl
  rw [nttmul_red_gs_rev2std_asm_plain] at this
  exact this

theorem nttmul_red_gs_rev2std_asm_sm {a a' : Named Int} (ha : a.name = a'.name) (n : Nat) {p p' : Named Int} (hp : p.name = p'.name) :
    SmP (fun x y => x.name = y.name) (nttmul_red_gs_rev2std_asm traced a n p) (nttmul_red_gs_rev2std_asm traced a' n p') :=
  nttmul_red_gs_rev2std_asm_rel smL ha n hp

theorem ntt_red_gs_std2rev_asm_er (a : Named Int) (n : Nat) (p : Named Int) :
    ErP (fun x y => x.data = y) (ntt_red_gs_std2rev_asm traced a n p) (Asm.ntt_red_gs_std2rev_asm a.data n p.data) := by
  have := ntt_red_gs_std2rev_asm_rel erL (a := a) rfl n (p := p) rfl
  rw [ntt_red_gs_std2rev_asm_plain] at this
  exact this

theorem ntt_red_gs_std2rev_asm_sm {a a' : Named Int} (ha : a.name = a'.name) (n : Nat) {p p' : Named Int} (hp : p.name = p'.name) :
    SmP (fun x y => x.name = y.name) (ntt_red_gs_std2rev_asm traced a n p) (ntt_red_gs_std2rev_asm traced a' n p') :=
  ntt_red_gs_std2rev_asm_rel smL ha n hp

theorem nttmul_red_gs_std2rev_asm_er (a : Named Int) (n : Nat) (p : Named Int) :
    ErP (fun x y => x.data = y) (nttmul_red_gs_std2rev_asm traced a n p) (Asm.nttmul_red_gs_std2rev_asm a.data n p.data) := by
  have := nttmul_red_gs_std2rev_asm_rel erL (a := a) rfl n (p := p) rfl
  rw [nttmul_red_gs_std2rev_asm_plain] at this
  exact this

theorem nttmul_red_gs_std2rev_asm_sm {a a' : Named Int} (ha : a.name = a'.name) (n : Nat) {p p' : Named Int} (hp : p.name = p'.name) :
    SmP (fun x y => x.name = y.name) (nttmul_red_gs_std2rev_asm traced a n p) (nttmul_red_gs_std2rev_asm traced a' n p') :=
  nttmul_red_gs_std2rev_asm_rel smL ha n hp

end AsmPoly
