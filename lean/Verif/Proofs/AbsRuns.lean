import Verif.Proofs.AbsSound

/-
The wiring of the eight transforms: concrete runs and abstract runs.
-/

namespace NttRedInterval
open C NTT Intervals

variable {τ : Type}

section
variable {E : Err → Prop} {k : Nat} {p a : Array Int} (hk : k ≤ 31) (hp : 2 ^ k ≤ p.size)
include hk hp

theorem ctRev_runs : Runs E k (fun m => 2 ^ m) (fun m => 2 ^ (k - 1 - m))
    (fun m => optA false p (2 ^ m)) NttRed.ctBf a (NttRed.ntt_red_ct_rev2std a (2 ^ k) p) := by
  intro P hr ha
  unfold NttRed.ntt_red_ct_rev2std
  exact wp_ctRev2std hk hp (fun m b hm hb => (hr m hm).a0 (Nat.two_pow_pos _) b hb)
    (fun m b j w hm hb hj0 hj hw => (hr m hm).a1 b j w hb hj0 hj hw) ha

theorem mulCtRev_runs : Runs E k (fun m => 2 ^ m) (fun m => 2 ^ (k - 1 - m))
    (fun m => optA true p (2 ^ m)) NttRed.ctBf a (NttRed.mulntt_red_ct_rev2std a (2 ^ k) p) := by
  intro P hr ha
  unfold NttRed.mulntt_red_ct_rev2std
  exact wp_mulCtRev2std hk hp (fun m b j w hm hb hj hw => (hr m hm).a2 b j w hb hj hw) ha

theorem ctStd_runs : Runs E k (fun m => 2 ^ (k - 1 - m)) (fun m => 2 ^ m)
    (fun m => optB false p (2 ^ m)) NttRed.ctBf a (NttRed.ntt_red_ct_std2rev a (2 ^ k) p) := by
  intro P hr ha
  unfold NttRed.ntt_red_ct_std2rev
  exact wp_ctStd2rev hk hp (fun m r hm h => (hr m hm).b0 (Nat.two_pow_pos _) r h)
    (fun m j r w hm hj0 hj h hw => (hr m hm).b1 j r w hj0 hj h hw) ha

theorem mulCtStd_runs : Runs E k (fun m => 2 ^ (k - 1 - m)) (fun m => 2 ^ m)
    (fun m => optB true p (2 ^ m)) NttRed.ctBf a (NttRed.mulntt_red_ct_std2rev a (2 ^ k) p) := by
  intro P hr ha
  unfold NttRed.mulntt_red_ct_std2rev
  exact wp_mulCtStd2rev hk hp (fun m j r w hm hj h hw => (hr m hm).b2 j r w hj h hw) ha

theorem gsRev_runs : Runs E k (fun m => 2 ^ m) (fun m => 2 ^ (k - 1 - m))
    (fun m => optB false p (2 ^ (k - 1 - m))) NttRed.gsBf a (NttRed.ntt_red_gs_rev2std a (2 ^ k) p) := by
  intro P hr ha
  unfold NttRed.ntt_red_gs_rev2std
  exact wp_gsRev2std hk hp (fun m r hm h => (hr m hm).b0 (Nat.two_pow_pos _) r h)
    (fun m j r w hm hj0 hj h hw => (hr m hm).b1 j r w hj0 hj h hw) ha

theorem gsMulRev_runs : Runs E k (fun m => 2 ^ m) (fun m => 2 ^ (k - 1 - m))
    (fun m => optB true p (2 ^ (k - 1 - m))) NttRed.gsBf a (NttRed.nttmul_red_gs_rev2std a (2 ^ k) p) := by
  intro P hr ha
  unfold NttRed.nttmul_red_gs_rev2std
  exact wp_gsMulRev2std hk hp (fun m j r w hm hj h hw => (hr m hm).b2 j r w hj h hw) ha

theorem gsStd_runs : Runs E k (fun m => 2 ^ (k - 1 - m)) (fun m => 2 ^ m)
    (fun m => optA false p (2 ^ (k - 1 - m))) NttRed.gsBf a (NttRed.ntt_red_gs_std2rev a (2 ^ k) p) := by
  intro P hr ha
  unfold NttRed.ntt_red_gs_std2rev
  exact wp_gsStd2rev hk hp (fun m b hm hb => (hr m hm).a0 (Nat.two_pow_pos _) b hb)
    (fun m b j w hm hb hj0 hj hw => (hr m hm).a1 b j w hb hj0 hj hw) ha

theorem gsMulStd_runs : Runs E k (fun m => 2 ^ (k - 1 - m)) (fun m => 2 ^ m)
    (fun m => optA true p (2 ^ (k - 1 - m))) NttRed.gsBf a (NttRed.nttmul_red_gs_std2rev a (2 ^ k) p) := by
  intro P hr ha
  unfold NttRed.nttmul_red_gs_std2rev
  exact wp_gsMulStd2rev hk hp (fun m b j w hm hb hj hw => (hr m hm).a2 b j w hb hj hw) ha

end

section
variable {dbg : Bool} {mul : τ → Ivl → M Ivl} {k : Nat} {p : Array τ} {A : Array Ivl}
  (hk : k ≤ 31) (hp : 2 ^ k ≤ p.size) (hA : A.size = 2 ^ k)
include hk hp hA

theorem ctRev_abs : Wp (fun _ => True)
    (absUp (fun t _ a => roundA (absBf0 dbg) (fun w => absCt dbg (mul w)) (2 ^ k) p t a) A (2 ^ k))
    (fun r => PW (2 ^ k) ((Val (fun m => 2 ^ m) (fun m => optA false p (2 ^ m)) (opCt dbg mul) A) k) r.1 ∧ Logged (2 ^ k) (Val (fun m => 2 ^ m) (fun m => optA false p (2 ^ m)) (opCt dbg mul) A) (k + 1) r.2) := by
  refine wp_absUp hk (fun m c hm hc => ?_) ⟨hA, fun i X hX => hX⟩
  have hr := absCt_round (n := 2 ^ k) (dbg := dbg) (mul := mul) (A := A) (h := fun m => 2 ^ m)
    (B := fun m => 2 ^ (k - 1 - m)) (OA := fun m => optA false p (2 ^ m)) m
  exact wp_roundA (pow_split hm) (pow31 hk) (Nat.two_pow_pos _) (Nat.pow_lt_pow_right (by omega) (by omega)) hp
    (fun b hb => hr.a0 (Nat.two_pow_pos _) b hb) (fun b j w hb hj0 hj hw => hr.a1 b j w hb hj0 hj hw) hc

theorem mulCtRev_abs : Wp (fun _ => True)
    (absUp (fun t _ a => roundAMul (fun w => absCt dbg (mul w)) (2 ^ k) p t a) A (2 ^ k))
    (fun r => PW (2 ^ k) ((Val (fun m => 2 ^ m) (fun m => optA true p (2 ^ m)) (opCt dbg mul) A) k) r.1 ∧ Logged (2 ^ k) (Val (fun m => 2 ^ m) (fun m => optA true p (2 ^ m)) (opCt dbg mul) A) (k + 1) r.2) := by
  refine wp_absUp hk (fun m c hm hc => ?_) ⟨hA, fun i X hX => hX⟩
  have hr := absCt_round (n := 2 ^ k) (dbg := dbg) (mul := mul) (A := A) (h := fun m => 2 ^ m)
    (B := fun m => 2 ^ (k - 1 - m)) (OA := fun m => optA true p (2 ^ m)) m
  exact wp_roundAMul (pow_split hm) (pow31 hk) (Nat.two_pow_pos _) (Nat.pow_lt_pow_right (by omega) (by omega)) hp
    (fun b j w hb hj hw => hr.a2 b j w hb hj hw) hc

theorem ctStd_abs : Wp (fun _ => True)
    (absUp (fun t d a => roundBCt (absBf0 dbg) (fun w => absCt dbg (mul w)) p t d a) A (2 ^ k))
    (fun r => PW (2 ^ k) ((Val (fun m => 2 ^ (k - 1 - m)) (fun m => optB false p (2 ^ m)) (opCt dbg mul) A) k) r.1 ∧ Logged (2 ^ k) (Val (fun m => 2 ^ (k - 1 - m)) (fun m => optB false p (2 ^ m)) (opCt dbg mul) A) (k + 1) r.2) := by
  refine wp_absUp hk (fun m c hm hc => ?_) ⟨hA, fun i X hX => hX⟩
  have hr := absCt_round (n := 2 ^ k) (dbg := dbg) (mul := mul) (A := A) (h := fun m => 2 ^ (k - 1 - m))
    (B := fun m => 2 ^ m) (OA := fun m => optB false p (2 ^ m)) m
  exact wp_roundBCt (pow_split' hm) (pow31 hk) (Nat.two_pow_pos _) (Nat.two_pow_pos _) hp
    (fun r h => hr.b0 (Nat.two_pow_pos _) r h) (fun j r w hj0 hj h hw => hr.b1 j r w hj0 hj h hw) hc

theorem mulCtStd_abs : Wp (fun _ => True)
    (absUp (fun t d a => roundBMul (fun w => absCt dbg (mul w)) p t d a) A (2 ^ k))
    (fun r => PW (2 ^ k) ((Val (fun m => 2 ^ (k - 1 - m)) (fun m => optB true p (2 ^ m)) (opCt dbg mul) A) k) r.1 ∧ Logged (2 ^ k) (Val (fun m => 2 ^ (k - 1 - m)) (fun m => optB true p (2 ^ m)) (opCt dbg mul) A) (k + 1) r.2) := by
  refine wp_absUp hk (fun m c hm hc => ?_) ⟨hA, fun i X hX => hX⟩
  have hr := absCt_round (n := 2 ^ k) (dbg := dbg) (mul := mul) (A := A) (h := fun m => 2 ^ (k - 1 - m))
    (B := fun m => 2 ^ m) (OA := fun m => optB true p (2 ^ m)) m
  exact wp_roundBMul (pow_split' hm) (pow31 hk) (Nat.two_pow_pos _) (Nat.two_pow_pos _) hp
    (fun j r w hj h hw => hr.b2 j r w hj h hw) hc

theorem gsRev_abs : Wp (fun _ => True)
    (absUp (fun d t a => roundBGs (absBf0 dbg) (fun w => absGs dbg (mul w)) p t d a) A (2 ^ k))
    (fun r => PW (2 ^ k) ((Val (fun m => 2 ^ m) (fun m => optB false p (2 ^ (k - 1 - m))) (opGs dbg mul) A) k) r.1 ∧ Logged (2 ^ k) (Val (fun m => 2 ^ m) (fun m => optB false p (2 ^ (k - 1 - m))) (opGs dbg mul) A) (k + 1) r.2) := by
  refine wp_absUp hk (fun m c hm hc => ?_) ⟨hA, fun i X hX => hX⟩
  have hr := absGs_round (n := 2 ^ k) (dbg := dbg) (mul := mul) (A := A) (h := fun m => 2 ^ m)
    (B := fun m => 2 ^ (k - 1 - m)) (OA := fun m => optB false p (2 ^ (k - 1 - m))) m
  exact wp_roundBGs (pow_split hm) (pow31 hk) (Nat.two_pow_pos _) (Nat.two_pow_pos _) hp
    (fun r h => hr.b0 (Nat.two_pow_pos _) r h) (fun j r w hj0 hj h hw => hr.b1 j r w hj0 hj h hw) hc

theorem gsMulRev_abs : Wp (fun _ => True)
    (absUp (fun d t a => roundBMul (fun w => absGs dbg (mul w)) p t d a) A (2 ^ k))
    (fun r => PW (2 ^ k) ((Val (fun m => 2 ^ m) (fun m => optB true p (2 ^ (k - 1 - m))) (opGs dbg mul) A) k) r.1 ∧ Logged (2 ^ k) (Val (fun m => 2 ^ m) (fun m => optB true p (2 ^ (k - 1 - m))) (opGs dbg mul) A) (k + 1) r.2) := by
  refine wp_absUp hk (fun m c hm hc => ?_) ⟨hA, fun i X hX => hX⟩
  have hr := absGs_round (n := 2 ^ k) (dbg := dbg) (mul := mul) (A := A) (h := fun m => 2 ^ m)
    (B := fun m => 2 ^ (k - 1 - m)) (OA := fun m => optB true p (2 ^ (k - 1 - m))) m
  exact wp_roundBMul (pow_split hm) (pow31 hk) (Nat.two_pow_pos _) (Nat.two_pow_pos _) hp
    (fun j r w hj h hw => hr.b2 j r w hj h hw) hc

theorem gsStd_abs : Wp (fun _ => True)
    (absDown (fun t a => roundA (absBf0 dbg) (fun w => absGs dbg (mul w)) (2 ^ k) p t a) A (2 ^ k))
    (fun r => PW (2 ^ k) ((Val (fun m => 2 ^ (k - 1 - m)) (fun m => optA false p (2 ^ (k - 1 - m))) (opGs dbg mul) A) k) r.1 ∧ Logged (2 ^ k) (Val (fun m => 2 ^ (k - 1 - m)) (fun m => optA false p (2 ^ (k - 1 - m))) (opGs dbg mul) A) (k + 1) r.2) := by
  refine wp_absDown hk (fun m c hm hc => ?_) ⟨hA, fun i X hX => hX⟩
  have hr := absGs_round (n := 2 ^ k) (dbg := dbg) (mul := mul) (A := A) (h := fun m => 2 ^ (k - 1 - m))
    (B := fun m => 2 ^ m) (OA := fun m => optA false p (2 ^ (k - 1 - m))) m
  exact wp_roundA (pow_split' hm) (pow31 hk) (Nat.two_pow_pos _) (Nat.pow_lt_pow_right (by omega) (by omega)) hp
    (fun b hb => hr.a0 (Nat.two_pow_pos _) b hb) (fun b j w hb hj0 hj hw => hr.a1 b j w hb hj0 hj hw) hc

theorem gsMulStd_abs : Wp (fun _ => True)
    (absDown (fun t a => roundAMul (fun w => absGs dbg (mul w)) (2 ^ k) p t a) A (2 ^ k))
    (fun r => PW (2 ^ k) ((Val (fun m => 2 ^ (k - 1 - m)) (fun m => optA true p (2 ^ (k - 1 - m))) (opGs dbg mul) A) k) r.1 ∧ Logged (2 ^ k) (Val (fun m => 2 ^ (k - 1 - m)) (fun m => optA true p (2 ^ (k - 1 - m))) (opGs dbg mul) A) (k + 1) r.2) := by
  refine wp_absDown hk (fun m c hm hc => ?_) ⟨hA, fun i X hX => hX⟩
  have hr := absGs_round (n := 2 ^ k) (dbg := dbg) (mul := mul) (A := A) (h := fun m => 2 ^ (k - 1 - m))
    (B := fun m => 2 ^ m) (OA := fun m => optA true p (2 ^ (k - 1 - m))) m
  exact wp_roundAMul (pow_split' hm) (pow31 hk) (Nat.two_pow_pos _) (Nat.pow_lt_pow_right (by omega) (by omega)) hp
    (fun b j w hb hj hw => hr.a2 b j w hb hj hw) hc

end

end NttRedInterval
