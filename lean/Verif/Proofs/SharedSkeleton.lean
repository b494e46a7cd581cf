import Verif.Proofs.SharedRules

/-
The loop nests on references to arrays simulate the loop nests on arrays.  Written by tools/genshared.py.
-/

namespace Shared
open C

section
variable {S W : Ref → Prop} {μ : Mem} {h p : Ref}
  {bf0 : Nat → Nat → Ref → Prog Ref} {bf0' : Nat → Nat → Array Int → M (Array Int)}
  {bf : Int → Nat → Nat → Ref → Prog Ref} {bf' : Int → Nat → Nat → Array Int → M (Array Int)}
  (h0 : ∀ s k v, Sim S W (upd μ h v) (Post μ h) (bf0' s k v) (bf0 s k h))
  (h1 : ∀ w s k v, Sim S W (upd μ h v) (Post μ h) (bf' w s k v) (bf w s k h))
  (hp : S p) (hne : p ≠ h)

include h0 h1 hp hne in
theorem roundA_sim (n t : Nat) (v : Array Int) :
    Sim S W (upd μ h v) (Post μ h) (NTT.roundA bf0' bf' n (μ p) t v) (roundA bf0 bf n p t h) := by
  unfold roundA NTT.roundA
  refine Sim.next (Sim.up fun _ v => h0 _ _ v) fun v => ?_
  exact Sim.up fun _ v => Sim.val (Sim.rdRo hp hne _) fun _ => Sim.up fun _ v => h1 _ _ _ v

include h1 hp hne in
theorem roundAMul_sim (n t : Nat) (v : Array Int) :
    Sim S W (upd μ h v) (Post μ h) (NTT.roundAMul bf' n (μ p) t v) (roundAMul bf n p t h) := by
  unfold roundAMul NTT.roundAMul
  exact Sim.up fun _ v => Sim.val (Sim.rdRo hp hne _) fun _ => Sim.up fun _ v => h1 _ _ _ v

include h0 h1 hp hne in
theorem roundBCt_sim (t d : Nat) (v : Array Int) :
    Sim S W (upd μ h v) (Post μ h) (NTT.roundBCt bf0' bf' (μ p) t d v) (roundBCt bf0 bf p t d h) := by
  unfold roundBCt NTT.roundBCt
  refine Sim.next (Sim.up fun _ v => h0 _ _ v) fun v => ?_
  exact Sim.up2 fun _ _ v => Sim.val (Sim.rdRo hp hne _) fun _ =>
    Sim.next (Sim.up fun _ v => h1 _ _ _ v) fun _ => Sim.pure ⟨rfl, rfl, rfl⟩

include h0 h1 hp hne in
theorem roundBGs_sim (t d : Nat) (v : Array Int) :
    Sim S W (upd μ h v) (Post μ h) (NTT.roundBGs bf0' bf' (μ p) t d v) (roundBGs bf0 bf p t d h) := by
  unfold roundBGs NTT.roundBGs
  refine Sim.next (Sim.up fun _ v => h0 _ _ v) fun v => ?_
  exact Sim.up2 fun _ _ v => Sim.val (Sim.rdRo hp hne _) fun _ =>
    Sim.next (Sim.up fun _ v => h1 _ _ _ v) fun _ => Sim.pure ⟨rfl, rfl, rfl⟩

include h1 hp hne in
theorem roundBMul_sim (t d : Nat) (v : Array Int) :
    Sim S W (upd μ h v) (Post μ h) (NTT.roundBMul bf' (μ p) t d v) (roundBMul bf p t d h) := by
  unfold roundBMul NTT.roundBMul
  exact Sim.up2 fun _ _ v => Sim.val (Sim.rdRo hp hne _) fun _ =>
    Sim.next (Sim.up fun _ v => h1 _ _ _ v) fun _ => Sim.pure ⟨rfl, rfl, rfl⟩

include h0 h1 hp hne in
theorem ctRev2std_sim (n : Nat) (v : Array Int) :
    Sim S W (upd μ h v) (Post μ h) (NTT.ctRev2std bf0' bf' v n (μ p)) (ctRev2std bf0 bf h n p) := by
  unfold ctRev2std NTT.ctRev2std
  exact Sim.shl fun _ v => roundA_sim h0 h1 hp hne _ _ v

include h1 hp hne in
theorem mulCtRev2std_sim (n : Nat) (v : Array Int) :
    Sim S W (upd μ h v) (Post μ h) (NTT.mulCtRev2std bf' v n (μ p)) (mulCtRev2std bf h n p) := by
  unfold mulCtRev2std NTT.mulCtRev2std
  exact Sim.shl fun _ v => roundAMul_sim h1 hp hne _ _ v

include h0 h1 hp hne in
theorem gsStd2rev_sim (n : Nat) (v : Array Int) :
    Sim S W (upd μ h v) (Post μ h) (NTT.gsStd2rev bf0' bf' v n (μ p)) (gsStd2rev bf0 bf h n p) := by
  unfold gsStd2rev NTT.gsStd2rev
  exact Sim.shr fun _ v => roundA_sim h0 h1 hp hne _ _ v

include h1 hp hne in
theorem gsMulStd2rev_sim (n : Nat) (v : Array Int) :
    Sim S W (upd μ h v) (Post μ h) (NTT.gsMulStd2rev bf' v n (μ p)) (gsMulStd2rev bf h n p) := by
  unfold gsMulStd2rev NTT.gsMulStd2rev
  exact Sim.shr fun _ v => roundAMul_sim h1 hp hne _ _ v

include h0 h1 hp hne in
theorem ctStd2rev_sim (n : Nat) (v : Array Int) :
    Sim S W (upd μ h v) (Post μ h) (NTT.ctStd2rev bf0' bf' v n (μ p)) (ctStd2rev bf0 bf h n p) := by
  unfold ctStd2rev NTT.ctStd2rev
  exact Sim.shl2 fun _ _ v => Sim.next (roundBCt_sim h0 h1 hp hne _ _ v) fun _ => Sim.pure ⟨rfl, rfl, rfl⟩

include h1 hp hne in
theorem mulCtStd2rev_sim (n : Nat) (v : Array Int) :
    Sim S W (upd μ h v) (Post μ h) (NTT.mulCtStd2rev bf' v n (μ p)) (mulCtStd2rev bf h n p) := by
  unfold mulCtStd2rev NTT.mulCtStd2rev
  exact Sim.shl2 fun _ _ v => Sim.next (roundBMul_sim h1 hp hne _ _ v) fun _ => Sim.pure ⟨rfl, rfl, rfl⟩

include h0 h1 hp hne in
theorem gsRev2std_sim (n : Nat) (v : Array Int) :
    Sim S W (upd μ h v) (Post μ h) (NTT.gsRev2std bf0' bf' v n (μ p)) (gsRev2std bf0 bf h n p) := by
  unfold gsRev2std NTT.gsRev2std
  exact Sim.shl2 fun _ _ v => Sim.next (roundBGs_sim h0 h1 hp hne _ _ v) fun _ => Sim.pure ⟨rfl, rfl, rfl⟩

include h1 hp hne in
theorem gsMulRev2std_sim (n : Nat) (v : Array Int) :
    Sim S W (upd μ h v) (Post μ h) (NTT.gsMulRev2std bf' v n (μ p)) (gsMulRev2std bf h n p) := by
  unfold gsMulRev2std NTT.gsMulRev2std
  exact Sim.shl2 fun _ _ v => Sim.next (roundBMul_sim h1 hp hne _ _ v) fun _ => Sim.pure ⟨rfl, rfl, rfl⟩

include h0 h1 hp hne in
theorem ctRev2stdV1_sim (n : Nat) (v : Array Int) :
    Sim S W (upd μ h v) (Post μ h) (NTT.ctRev2stdV1 bf0' bf' v n (μ p)) (ctRev2stdV1 bf0 bf h n p) := by
  unfold ctRev2stdV1 NTT.ctRev2stdV1
  exact Sim.shl2 fun _ _ v => Sim.next (Sim.up fun _ v => h0 _ _ v) fun v =>
    Sim.next (Sim.up fun _ v => Sim.val (Sim.rdRo hp hne _) fun _ => Sim.up fun _ v => h1 _ _ _ v) fun _ =>
      Sim.pure ⟨rfl, rfl, rfl⟩

end

end Shared
