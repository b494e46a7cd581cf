import Verif.Proofs.CPrintNtt

/-
The functions of src/make_bitrev_table.c that print, as read from the text.
-/

namespace CLang.Gen
open C CLang CLang.GenRed Spec Spec.CText Tables TableFiles

set_option linter.unusedSimpArgs false

variable {P : Prog} {G : Name → Option Cell} {mem : Nat → Obj} {f : Nat}

/-- The functions of the file that are called. -/
structure BitrevPrintFuns (P : Prog) : Prop where
  reverse : P.lookup n!"reverse" = some Src.make_tables.reverse
  npairs : P.lookup n!"rev_table_npairs" = some Src.make_bitrev_table.rev_table_npairs
  table : P.lookup n!"print_bitrev_table" = some Src.make_bitrev_table.print_bitrev_table
  decls : P.lookup n!"print_bitrev_declarations" = some Src.make_bitrev_table.print_bitrev_declarations

/-- `fprintf` of two numbers. -/
theorem two_ap {l : List (Name × Cell)} {x y : Name} {n m : Nat} {a b c : Nat} (s s' s'' : Text) (hf : look l n!"f" = some (.ptr f 0 1))
    (hn : look l x = some (uc n)) (hm : look l y = some (uc m))
    (ha : bytes (Nat.log2 a + 1) a = codes s) (hb : bytes (Nat.log2 b + 1) b = codes s') (hc : bytes (Nat.log2 c + 1) c = codes s'') :
    Ap P G mem f l (.print (.var n!"f") [.lit a, .u 0, .lit b, .u 0, .lit c] (.cons (.var x) (.cons (.var y) .nil))) (s ++ pu32 n ++ s' ++ pu32 m ++ s'') := by
  refine Ap.print hf fun t => ⟨_, EvA.cons (Ev.v hn (cellVal_int _ _)) (EvA.cons (Ev.v hm (cellVal_int _ _)) (EvA.nil _)), ?_⟩
  have := Fm.lit s ha (Fm.u (n := n) (Fm.lit s' hb (Fm.u (n := m) (Fm.lit s'' hc (Fm.nil (mem := setMem mem f (file t)))))))
  simpa only [List.append_nil, List.append_assoc] using this

theorem two_ap5 {l : List (Name × Cell)} {x y : Name} {n m : Nat} {a b c : Nat} (s s' s'' : Text) (hf : look l n!"f" = some (.ptr f 0 1))
    (hn : look l x = some (uc n)) (hm : look l y = some (uc m))
    (ha : bytes (Nat.log2 a + 1) a = codes s) (hb : bytes (Nat.log2 b + 1) b = codes s') (hc : bytes (Nat.log2 c + 1) c = codes s'') :
    Ap P G mem f l (.print (.var n!"f") [.lit a, .u 5, .lit b, .u 5, .lit c] (.cons (.var x) (.cons (.var y) .nil)))
      (s ++ pad5 (pu32 n) ++ s' ++ pad5 (pu32 m) ++ s'') := by
  refine Ap.print hf fun t => ⟨_, EvA.cons (Ev.v hn (cellVal_int _ _)) (EvA.cons (Ev.v hm (cellVal_int _ _)) (EvA.nil _)), ?_⟩
  have := Fm.lit s ha (Fm.u5 (n := n) (Fm.lit s' hb (Fm.u5 (n := m) (Fm.lit s'' hc (Fm.nil (mem := setMem mem f (file t)))))))
  simpa only [List.append_nil, List.append_assoc] using this

theorem bind_file {t1 t2 : Ty} {n k : Nat} (hn : n < 4294967296) (hk : k < 4294967296) :
    bindParams [(n!"f", .ptr 1), (n!"n", .int .u32), (n!"k", .int .u32)] [.ptr f 0 1, .int t1 (n : Nat), .int t2 (k : Nat)] =
      .ok (look [(n!"k", uc k), (n!"n", uc n), (n!"f", .ptr f 0 1)]) := by
  simp only [bindParams, ok_bind, look_nil, setEnv_look, upd, Nat.reduceEqDiff, if_false, if_true, conv_u32_nat, u32_of hn, u32_of hk]

/-! ### Declarations -/

theorem npairs_lt {n k m : Nat} (h : rev_table_npairs n k = .ok m) : m < 4294967296 := by
  unfold rev_table_npairs forUp at h
  have key : ∀ fuel i (c c' : Nat), c < 4294967296 → cfor (fun i => decide (i < n)) (fun i => u32 (i + 1)) (fun i c => do
      let r ← reverse i k
      pure (u32 (c + if i < r then 1 else 0))) fuel i c = .ok c' → c' < 4294967296 := by
    intro fuel
    induction fuel with
    | zero => intro i c c' _ h; simp [cfor] at h
    | succ fuel ih =>
      intro i c c' hc h
      rw [cfor] at h
      split at h
      · simp only [CLang.bind_ok, pure_ok] at h
        obtain ⟨y, ⟨r, _, rfl⟩, h⟩ := h
        exact ih _ _ _ (u32_lt _) h
      · cases h
        exact hc
  exact key _ _ _ _ (by decide) h

abbrev bdv (k n m f : Nat) : List (Name × Cell) := [(n!"k", uc k), (n!"n", uc n), (n!"f", .ptr f 0 1), (n!"m", uc m)]

theorem bitrev_declarations_pr {t1 t2 : Ty} {n k : Nat} {s : Text} (hF : BitrevPrintFuns P) (hn : n < 4294967296) (hk : k < 4294967296)
    (h : print_bitrev_declarations n k = .ok s) :
    Pr P G mem f n!"print_bitrev_declarations" [.ptr f 0 1, .int t1 (n : Nat), .int t2 (k : Nat)] s := by
  intro t
  unfold print_bitrev_declarations at h
  simp only [CLang.bind_ok, pure_ok] at h
  obtain ⟨m, h1, h⟩ := h
  have hm : m < 4294967296 := npairs_lt h1
  have key := Ap.seq (num_ap (P := P) (G := G) (mem := mem) (f := f) (l := bdv k n m f) (a := n!"#ifndef __BITREV") (b := n!"_TABLE_H\n") c!"#ifndef __BITREV" c!"_TABLE_H\n" rfl rfl (by decide +kernel) (by decide +kernel))
    (Ap.seq (num_ap (a := n!"#define __BITREV") (b := n!"_TABLE_H\n\n") c!"#define __BITREV" c!"_TABLE_H\n\n" rfl rfl (by decide +kernel) (by decide +kernel))
    (Ap.seq (Ap.lit (x := n!"f") (n := n!"#include <stdint.h>\n\n") c!"#include <stdint.h>\n\n" rfl (by decide +kernel))
    (Ap.seq (two_ap (x := n!"n") (y := n!"m") (a := n!"#define BITREV") (b := n!"_NPAIRS ") (c := n!"\n\n") c!"#define BITREV" c!"_NPAIRS " c!"\n\n" rfl rfl rfl (by decide +kernel) (by decide +kernel) (by decide +kernel))
    (Ap.seq (two_ap (x := n!"n") (y := n!"n") (a := n!"extern const uint16_t bitrev") (b := n!"[BITREV") (c := n!"_NPAIRS][2];\n\n") c!"extern const uint16_t bitrev" c!"[BITREV" c!"_NPAIRS][2];\n\n" rfl rfl rfl (by decide +kernel) (by decide +kernel) (by decide +kernel))
    (Ap.seq (num_ap (a := n!"#endif /* __BITREV") (b := n!"_TABLE_H */\n") c!"#endif /* __BITREV" c!"_TABLE_H */\n" rfl rfl (by decide +kernel) (by decide +kernel))
    Ap.skip)))))
  refine Calls.mk (st' := E (bdv k n m f) (setMem mem f (file (t ++ s)))) hF.decls (bind_file hn hk) ?_
  refine Ex.seq (st₁ := E [(n!"k", uc k), (n!"n", uc n), (n!"f", .ptr f 0 1), (n!"m", .int .u32 none)] (setMem mem f (file t))) (Ex.mk 1 fun _ => by crs [])
    (Ex.seq (Ex.asgu ((npairs_returns (mem := setMem mem f (file t)) hF.reverse hF.npairs hn hk h1).ev
      (EvA.cons (Ev.v rfl (cellVal_int _ _)) (EvA.cons (Ev.v rfl (cellVal_int _ _)) (EvA.nil _))) hF.npairs (by decide)) rfl hm) ?_)
  have e := key t
  rw [h]
  simp only [List.append_assoc, List.append_nil] at e ⊢
  exact e

/-! ### Table -/

/-- One step of the loop of `print_bitrev_table`. -/
def revStep (k i : Nat) (st : Nat × Text) : M (Nat × Text) := do
  let (z, t) := st
  let j ← reverse i k
  if i < j then do
    let t := if z = 0 then t ++ c!"   " else t
    let t := t ++ c!" { " ++ pad5 (pu32 i) ++ c!", " ++ pad5 (pu32 j) ++ c!" },"
    let z := u32 (z + 1)
    if z = 4 then pure (0, t ++ c!"\n") else pure (z, t)
  else pure (z, t)

theorem print_bitrev_table_def (n k : Nat) : TableFiles.print_bitrev_table n k = (do
    let (z, t) ← forUp 0 n 1 (revStep k) (0, (c!"#include \"bitrev" ++ pu32 n ++ c!"_table.h\"\n\n") ++
      (c!"const uint16_t bitrev" ++ pu32 n ++ c!"[BITREV" ++ pu32 n ++ c!"_NPAIRS][2] = {\n"))
    let t := if z > 0 then t ++ c!"\n" else t
    pure (t ++ c!"};\n\n")) := rfl

theorem revStep_append {k i : Nat} {s s' : Nat × Text} (u : Text) (h : revStep k i s = .ok s') : revStep k i (s.1, u ++ s.2) = .ok (s'.1, u ++ s'.2) := by
  obtain ⟨z, t⟩ := s
  simp only [revStep, CLang.bind_ok] at h ⊢
  obtain ⟨j, hj, h⟩ := h
  refine ⟨j, hj, ?_⟩
  have e0 : (if z = 0 then u ++ t ++ c!"   " else u ++ t) = u ++ (if z = 0 then t ++ c!"   " else t) := by
    split <;> simp only [List.append_assoc]
  rw [e0]
  split at h
  · next hij =>
    rw [if_pos hij]
    split at h
    · next h4 => rw [if_pos h4]; rw [pure_ok] at h ⊢; rw [h]; simp only [List.append_assoc]
    · next h4 => rw [if_neg h4]; rw [pure_ok] at h ⊢; rw [h]; simp only [List.append_assoc]
  · next hij => rw [if_neg hij]; rw [pure_ok] at h ⊢; rw [h]

theorem revLoop_append {n k : Nat} (u : Text) : ∀ fuel i (s s' : Nat × Text), cfor (fun i => decide (i < n)) (fun i => u32 (i + 1)) (revStep k) fuel i s = .ok s' →
    cfor (fun i => decide (i < n)) (fun i => u32 (i + 1)) (revStep k) fuel i (s.1, u ++ s.2) = .ok (s'.1, u ++ s'.2) := by
  intro fuel
  induction fuel with
  | zero => intro i s s' h; simp [cfor] at h
  | succ fuel ih =>
    intro i s s' h
    rw [cfor] at h ⊢
    by_cases hi : decide (i < n) = true
    · rw [if_pos hi, CLang.bind_ok] at h
      rw [if_pos hi]
      obtain ⟨y, hy, h⟩ := h
      rw [CLang.bind_ok]
      exact ⟨(y.1, u ++ y.2), revStep_append u hy, ih _ _ _ h⟩
    · rw [if_neg hi] at h ⊢
      cases h
      rfl

abbrev btv (k n f : Nat) (i j z : Cell) : List (Name × Cell) :=
  [(n!"k", uc k), (n!"n", uc n), (n!"f", .ptr f 0 1), (n!"i", i), (n!"j", j), (n!"z", z)]

theorem bitrev_table_pr {t1 t2 : Ty} {n k : Nat} {s : Text} (hF : BitrevPrintFuns P) (hn : n < 4294967296) (hk : k < 4294967296)
    (h : TableFiles.print_bitrev_table n k = .ok s) :
    Pr P G mem f n!"print_bitrev_table" [.ptr f 0 1, .int t1 (n : Nat), .int t2 (k : Nat)] s := by
  intro t
  rw [print_bitrev_table_def] at h
  simp only [CLang.bind_ok, pure_ok] at h
  obtain ⟨⟨z', s₁⟩, h1, h⟩ := h
  have h1 := revLoop_append t _ _ _ _ h1
  simp only at h1 h
  have B : ∀ i j z, Ap P G mem f (btv k n f i j z) (.print (.var n!"f") [.lit n!"\n"] .nil) c!"\n" := fun i j z => Ap.lit c!"\n" rfl (by decide +kernel)
  have B3 : ∀ i j z, Ap P G mem f (btv k n f i j z) (.print (.var n!"f") [.lit n!"   "] .nil) c!"   " := fun i j z => Ap.lit c!"   " rfl (by decide +kernel)
  have Bz : ∀ i j z, Ap P G mem f (btv k n f i j z) (.print (.var n!"f") [.lit n!"};\n\n"] .nil) c!"};\n\n" := fun i j z => Ap.lit c!"};\n\n" rfl (by decide +kernel)
  have K : ∀ i j z m b (o : Bin) t, z < 4294967296 → m ≤ 2147483647 → o ≠ .shl → o ≠ .shr → arith .u32 (z : Nat) (m : Nat) o = .ok (truth b) →
      Ev P G (.bin o (.var n!"z") (.num m)) (E (btv k n f i j (uc z)) (setMem mem f (file t))) (truth b) := fun i j z m b o t hk hm h1 h2 h =>
    Ev.bin (Ev.v rfl (cellVal_int _ _)) (Ev.num hm) (by rw [binop_uk h1 h2 hk (by omega), h])
  obtain ⟨st', i', hw, ⟨j', rfl⟩, hi', hz'⟩ := Ex.while_cfor (P := P) (G := G)
    (c := .bin .lt (.var n!"i") (.var n!"n"))
    (s := (.seq (.seq (.assign n!"j" (.call n!"reverse" (.cons (.var n!"i") (.cons (.var n!"k") .nil))))
     (.seq (.ite (.bin .lt (.var n!"i") (.var n!"j"))
       (.seq (.ite (.bin .eq (.var n!"z") (.num 0))
         (.print (.var n!"f") [.lit n!"   "] .nil)
         .skip)
       (.seq (.print (.var n!"f") [.lit n!" { ", .u 5, .lit n!", ", .u 5, .lit n!" },"] (.cons (.var n!"i") (.cons (.var n!"j") .nil)))
       (.seq (.assign n!"z" (.bin .add (.var n!"z") (.num 1)))
       (.seq (.ite (.bin .eq (.var n!"z") (.num 4))
         (.seq (.print (.var n!"f") [.lit n!"\n"] .nil)
         (.seq (.assign n!"z" (.num 0))
         .skip))
         .skip)
       .skip))))
       .skip)
     .skip))
    (.assign n!"i" (.bin .add (.var n!"i") (.num 1)))))
    (fun i (s : Nat × Text) st => (∃ j, st = E (btv k n f (uc i) (.int .u32 j) (uc s.1)) (setMem mem f (file s.2))) ∧ i < 4294967296 ∧ s.1 < 4294967296)
    (by
      rintro i ⟨z, s⟩ st ⟨⟨j, rfl⟩, hi, hz⟩
      refine Ev.bin (Ev.v rfl (cellVal_int _ _)) (Ev.v rfl (cellVal_int _ _)) ?_
      rw [binop_uu (by simp) (by simp) hi hn, arithU_lt])
    (by
      rintro i ⟨z, s⟩ ⟨z₁, s₁⟩ st ⟨⟨j₀, rfl⟩, hi, hz⟩ hlt hs
      simp only at hz
      simp only [revStep, CLang.bind_ok] at hs
      obtain ⟨j, hj, hs⟩ := hs
      obtain ⟨e1, l1⟩ := reverse_ev (P := P) (G := G) (e1 := .var n!"i") (e2 := .var n!"k") (t1 := .u32) (t2 := .u32)
        (st := E (btv k n f (uc i) (.int .u32 j₀) (uc z)) (setMem mem f (file s))) hF.reverse (Ev.v rfl (cellVal_int _ _)) (Ev.v rfl (cellVal_int _ _)) hi hk hj
      have E5 : ∀ z s, Ex P G (.assign n!"i" (.bin .add (.var n!"i") (.num 1))) (E (btv k n f (uc i) (uc j) (uc z)) (setMem mem f (file s)))
          (E (btv k n f (uc (u32 (i + 1))) (uc j) (uc z)) (setMem mem f (file s))) := fun z s =>
        Ex.asgu (t' := .u32) (v := u32 (i + 1)) (Ev.bin (Ev.v rfl (cellVal_int _ _)) (Ev.num (by decide))
          (by rw [binop_uk (by simp) (by simp) hi (by decide), arith_addU])) rfl (u32_lt _)
      have Ec : Ev P G (.bin .lt (.var n!"i") (.var n!"j")) (E (btv k n f (uc i) (uc j) (uc z)) (setMem mem f (file s))) (truth (decide (i < j))) := by
        refine Ev.bin (Ev.v rfl (cellVal_int _ _)) (Ev.v rfl (cellVal_int _ _)) ?_
        rw [binop_uu (by simp) (by simp) hi l1, arithU_lt]
      by_cases hij : i < j
      · rw [if_pos hij] at hs
        have E1 := Ap.ite (K (uc i) (uc j) z 0 (decide (z = 0)) .eq · hz (by decide) (by simp) (by simp) (arithU_eq _ _ _)) (B3 (uc i) (uc j) (uc z)) s
        have E2 := two_ap5 (P := P) (G := G) (mem := mem) (f := f) (l := btv k n f (uc i) (uc j) (uc z)) (x := n!"i") (y := n!"j")
          (a := n!" { ") (b := n!", ") (c := n!" },") c!" { " c!", " c!" }," rfl rfl rfl (by decide +kernel) (by decide +kernel) (by decide +kernel)
          (s ++ if decide (z = 0) = true then c!"   " else [])
        have e0 : (s ++ if decide (z = 0) = true then c!"   " else []) = if z = 0 then s ++ c!"   " else s := by
          by_cases h0 : z = 0 <;> simp [h0]
        rw [e0] at E1 E2
        rw [← List.append_assoc, ← List.append_assoc, ← List.append_assoc, ← List.append_assoc] at E2
        generalize ((if z = 0 then s ++ c!"   " else s) ++ c!" { " ++ pad5 (pu32 i) ++ c!", " ++ pad5 (pu32 j) ++ c!" },") = s2 at hs E2
        have E3 : Ex P G (.assign n!"z" (.bin .add (.var n!"z") (.num 1))) (E (btv k n f (uc i) (uc j) (uc z)) (setMem mem f (file s2)))
            (E (btv k n f (uc i) (uc j) (uc (u32 (z + 1)))) (setMem mem f (file s2))) :=
          Ex.asgu (t' := .u32) (v := u32 (z + 1)) (Ev.bin (Ev.v rfl (cellVal_int _ _)) (Ev.num (by decide))
            (by rw [binop_uk (by simp) (by simp) hz (by decide), arith_addU])) rfl (u32_lt _)
        have E4 : z₁ < 4294967296 ∧ Ex P G (.ite (.bin .eq (.var n!"z") (.num 4))
             (.seq (.print (.var n!"f") [.lit n!"\n"] .nil)
             (.seq (.assign n!"z" (.num 0))
             .skip))
             .skip) (E (btv k n f (uc i) (uc j) (uc (u32 (z + 1)))) (setMem mem f (file s2))) (E (btv k n f (uc i) (uc j) (uc z₁)) (setMem mem f (file s₁))) := by
          by_cases h4 : u32 (z + 1) = 4
          · rw [if_pos h4, pure_ok, Prod.mk.injEq] at hs
            obtain ⟨rfl, rfl⟩ := hs
            refine ⟨by decide, Ex.ite (K (uc i) (uc j) (u32 (z + 1)) 4 (decide (u32 (z + 1) = 4)) .eq s2 (u32_lt _) (by decide) (by simp) (by simp) (arithU_eq _ _ _)) ?_⟩
            rw [if_pos (by simpa using h4)]
            exact Ex.seq (B _ _ _ s2) (Ex.seq (st₁ := E (btv k n f (uc i) (uc j) (uc 0)) (setMem mem f (file (s2 ++ c!"\n"))))
              (Ex.asgu (t' := .i32) (v := 0) (Ev.num (by decide)) rfl (by decide)) (Ex.skip _))
          · rw [if_neg h4, pure_ok, Prod.mk.injEq] at hs
            obtain ⟨rfl, rfl⟩ := hs
            refine ⟨u32_lt _, Ex.ite (K (uc i) (uc j) (u32 (z + 1)) 4 (decide (u32 (z + 1) = 4)) .eq s₁ (u32_lt _) (by decide) (by simp) (by simp) (arithU_eq _ _ _)) ?_⟩
            rw [if_neg (by simpa using h4)]
            exact Ex.skip _
        refine ⟨E (btv k n f (uc (u32 (i + 1))) (uc j) (uc z₁)) (setMem mem f (file s₁)), Ex.seq (Ex.seq (Ex.asgu e1 rfl l1) (Ex.seq (Ex.ite Ec ?_) (Ex.skip _))) (E5 _ _),
          ⟨_, rfl⟩, u32_lt _, E4.1⟩
        rw [if_pos (by simpa using hij)]
        exact Ex.seq E1 (Ex.seq E2 (Ex.seq E3 (Ex.seq E4.2 (Ex.skip _))))
      · rw [if_neg hij, pure_ok, Prod.mk.injEq] at hs
        obtain ⟨rfl, rfl⟩ := hs
        refine ⟨E (btv k n f (uc (u32 (i + 1))) (uc j) (uc z₁)) (setMem mem f (file s₁)), Ex.seq (Ex.seq (Ex.asgu e1 rfl l1) (Ex.seq (Ex.ite Ec ?_) (Ex.skip _))) (E5 _ _),
          ⟨_, rfl⟩, u32_lt _, hz⟩
        rw [if_neg (by simpa using hij)]
        exact Ex.skip _)
    _ 0 (0, _) (z', t ++ s₁) (E (btv k n f (uc 0) (.int .u32 none) (uc 0)) (setMem mem f (file _))) ⟨⟨none, rfl⟩, by decide, (by decide : 0 < 4294967296)⟩ h1
  simp only at hz' hw
  refine Calls.mk (st' := E (btv k n f (uc i') (.int .u32 j') (uc z')) (setMem mem f (file (t ++ s)))) hF.table (bind_file hn hk) ?_
  refine Ex.seq (st₁ := E (btv k n f (.int .u32 none) (.int .u32 none) (.int .u32 none)) (setMem mem f (file t))) (Ex.mk 4 fun _ => by crs [])
    (Ex.seq (num_ap (a := n!"#include \"bitrev") (b := n!"_table.h\"\n\n") c!"#include \"bitrev" c!"_table.h\"\n\n" rfl rfl (by decide +kernel) (by decide +kernel) t)
    (Ex.seq (two_ap (x := n!"n") (y := n!"n") (a := n!"const uint16_t bitrev") (b := n!"[BITREV") (c := n!"_NPAIRS][2] = {\n") c!"const uint16_t bitrev" c!"[BITREV" c!"_NPAIRS][2] = {\n"
      rfl rfl rfl (by decide +kernel) (by decide +kernel) (by decide +kernel) _) ?_))
  rw [List.append_assoc t]
  refine Ex.seq (st₁ := E (btv k n f (.int .u32 none) (.int .u32 none) (uc 0)) (setMem mem f (file _)))
      (Ex.asgu (t' := .i32) (v := 0) (Ev.num (by decide)) rfl (by decide))
    (Ex.seq (Ex.seq (st₁ := E (btv k n f (uc 0) (.int .u32 none) (uc 0)) (setMem mem f (file _)))
      (Ex.asgu (t' := .i32) (v := 0) (Ev.num (by decide)) rfl (by decide)) hw) ?_)
  have E1 := Ap.ite (K (uc i') (.int .u32 j') z' 0 (decide (0 < z')) .gt · hz' (by decide) (by simp) (by simp) (arithU_gt _ _ _)) (B (uc i') (.int .u32 j') (uc z')) (t ++ s₁)
  have E2 := Bz (uc i') (.int .u32 j') (uc z') ((t ++ s₁) ++ if decide (0 < z') = true then c!"\n" else [])
  have e0 : ((t ++ s₁) ++ if decide (0 < z') = true then c!"\n" else []) ++ c!"};\n\n" = t ++ s := by
    rw [h]
    by_cases h0 : 0 < z' <;> simp [h0]
  rw [e0] at E2
  exact Ex.seq E1 (Ex.seq E2 (Ex.skip _))

end CLang.Gen
