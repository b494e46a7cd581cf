import Verif.Proofs.TraceRules

/-
The traced loop nests: same results, and traces that do not depend on the data if those of the
butterflies do not.
-/

namespace Traced
open C Trace

variable {α τ : Type}

/-- State with an index and an array. -/
abbrev D2 (s : Nat × Named α) (s' : Nat × Array α) : Prop := s.1 = s'.1 ∧ D s.2 s'.2
abbrev N2 (s s' : Nat × Named α) : Prop := s.1 = s'.1 ∧ N s.2 s'.2

section er
variable {bf0 : Nat → Nat → Named α → TM (Named α)} {bf0' : Nat → Nat → Array α → M (Array α)}
  {bf : τ → Nat → Nat → Named α → TM (Named α)} {bf' : τ → Nat → Nat → Array α → M (Array α)}
  (h0 : ∀ s k A a, D A a → Er D (bf0 s k A) (bf0' s k a))
  (h1 : ∀ w s k A a, D A a → Er D (bf w s k A) (bf' w s k a))

include h0 h1 in
theorem roundA_er (n t : Nat) {p : Named τ} {p' : Array τ} (hp : D p p') {a a'} (ha : D a a') :
    Er D (roundA bf0 bf n p t a) (NTT.roundA bf0' bf' n p' t a') := by
  unfold roundA NTT.roundA
  refine Er.bind (Er.forUp ha fun _ _ _ h => h0 _ _ _ _ h) fun _ _ h => ?_
  refine Er.forUp h fun _ _ _ h => ?_
  refine Er.bind (Er.rd hp _) ?_
  rintro w _ rfl
  exact Er.forUp h fun _ _ _ h => h1 _ _ _ _ _ h

include h1 in
theorem roundAMul_er (n t : Nat) {p : Named τ} {p' : Array τ} (hp : D p p') {a a'} (ha : D a a') :
    Er D (roundAMul bf n p t a) (NTT.roundAMul bf' n p' t a') := by
  unfold roundAMul NTT.roundAMul
  refine Er.forUp ha fun _ _ _ h => ?_
  refine Er.bind (Er.rd hp _) ?_
  rintro w _ rfl
  exact Er.forUp h fun _ _ _ h => h1 _ _ _ _ _ h

include h0 h1 in
theorem roundBCt_er (t d : Nat) {p : Named τ} {p' : Array τ} (hp : D p p') {a a'} (ha : D a a') :
    Er D (roundBCt bf0 bf p t d a) (NTT.roundBCt bf0' bf' p' t d a') := by
  unfold roundBCt NTT.roundBCt
  refine Er.bind (Er.forUp ha fun _ _ _ h => h0 _ _ _ _ h) fun _ _ h => ?_
  refine Er.bind (R := D2) (Er.forUp ⟨rfl, h⟩ ?_) (fun _ _ h => Er.pure h.2)
  rintro j ⟨u, a⟩ ⟨u', a'⟩ ⟨h, ha⟩
  simp only at h
  subst h
  refine Er.bind (Er.rd hp _) ?_
  rintro w _ rfl
  exact Er.bind (Er.forUp ha fun _ _ _ h => h1 _ _ _ _ _ h) (fun _ _ h => Er.pure ⟨rfl, h⟩)

include h0 h1 in
theorem roundBGs_er (t d : Nat) {p : Named τ} {p' : Array τ} (hp : D p p') {a a'} (ha : D a a') :
    Er D (roundBGs bf0 bf p t d a) (NTT.roundBGs bf0' bf' p' t d a') := by
  unfold roundBGs NTT.roundBGs
  refine Er.bind (Er.forUp ha fun _ _ _ h => h0 _ _ _ _ h) fun _ _ h => ?_
  refine Er.bind (R := D2) (Er.forUp ⟨rfl, h⟩ ?_) (fun _ _ h => Er.pure h.2)
  rintro j ⟨u, a⟩ ⟨u', a'⟩ ⟨h, ha⟩
  simp only at h
  subst h
  refine Er.bind (Er.rd hp _) ?_
  rintro w _ rfl
  exact Er.bind (Er.forUp ha fun _ _ _ h => h1 _ _ _ _ _ h) (fun _ _ h => Er.pure ⟨rfl, h⟩)

include h1 in
theorem roundBMul_er (t d : Nat) {p : Named τ} {p' : Array τ} (hp : D p p') {a a'} (ha : D a a') :
    Er D (roundBMul bf p t d a) (NTT.roundBMul bf' p' t d a') := by
  unfold roundBMul NTT.roundBMul
  refine Er.bind (R := D2) (Er.forUp ⟨rfl, ha⟩ ?_) (fun _ _ h => Er.pure h.2)
  rintro j ⟨u, a⟩ ⟨u', a'⟩ ⟨h, ha⟩
  simp only at h
  subst h
  refine Er.bind (Er.rd hp _) ?_
  rintro w _ rfl
  exact Er.bind (Er.forUp ha fun _ _ _ h => h1 _ _ _ _ _ h) (fun _ _ h => Er.pure ⟨rfl, h⟩)

include h0 h1 in
theorem ctRev2std_er (n : Nat) {p : Named τ} {p' : Array τ} (hp : D p p') {a a'} (ha : D a a') :
    Er D (ctRev2std bf0 bf a n p) (NTT.ctRev2std bf0' bf' a' n p') := by
  unfold ctRev2std NTT.ctRev2std
  exact Er.forShl ha fun _ _ _ h => roundA_er h0 h1 _ _ hp h

include h1 in
theorem mulCtRev2std_er (n : Nat) {p : Named τ} {p' : Array τ} (hp : D p p') {a a'} (ha : D a a') :
    Er D (mulCtRev2std bf a n p) (NTT.mulCtRev2std bf' a' n p') := by
  unfold mulCtRev2std NTT.mulCtRev2std
  exact Er.forShl ha fun _ _ _ h => roundAMul_er h1 _ _ hp h

include h0 h1 in
theorem gsStd2rev_er (n : Nat) {p : Named τ} {p' : Array τ} (hp : D p p') {a a'} (ha : D a a') :
    Er D (gsStd2rev bf0 bf a n p) (NTT.gsStd2rev bf0' bf' a' n p') := by
  unfold gsStd2rev NTT.gsStd2rev
  exact Er.forShr ha fun _ _ _ h => roundA_er h0 h1 _ _ hp h

include h1 in
theorem gsMulStd2rev_er (n : Nat) {p : Named τ} {p' : Array τ} (hp : D p p') {a a'} (ha : D a a') :
    Er D (gsMulStd2rev bf a n p) (NTT.gsMulStd2rev bf' a' n p') := by
  unfold gsMulStd2rev NTT.gsMulStd2rev
  exact Er.forShr ha fun _ _ _ h => roundAMul_er h1 _ _ hp h

include h0 h1 in
theorem ctStd2rev_er (n : Nat) {p : Named τ} {p' : Array τ} (hp : D p p') {a a'} (ha : D a a') :
    Er D (ctStd2rev bf0 bf a n p) (NTT.ctStd2rev bf0' bf' a' n p') := by
  unfold ctStd2rev NTT.ctStd2rev
  refine Er.bind (R := D2) (Er.forShl ⟨rfl, ha⟩ ?_) (fun _ _ h => Er.pure h.2)
  rintro j ⟨u, a⟩ ⟨u', a'⟩ ⟨h, ha⟩
  simp only at h
  subst h
  exact Er.bind (roundBCt_er h0 h1 _ _ hp ha) (fun _ _ h => Er.pure ⟨rfl, h⟩)

include h1 in
theorem mulCtStd2rev_er (n : Nat) {p : Named τ} {p' : Array τ} (hp : D p p') {a a'} (ha : D a a') :
    Er D (mulCtStd2rev bf a n p) (NTT.mulCtStd2rev bf' a' n p') := by
  unfold mulCtStd2rev NTT.mulCtStd2rev
  refine Er.bind (R := D2) (Er.forShl ⟨rfl, ha⟩ ?_) (fun _ _ h => Er.pure h.2)
  rintro j ⟨u, a⟩ ⟨u', a'⟩ ⟨h, ha⟩
  simp only at h
  subst h
  exact Er.bind (roundBMul_er h1 _ _ hp ha) (fun _ _ h => Er.pure ⟨rfl, h⟩)

include h0 h1 in
theorem gsRev2std_er (n : Nat) {p : Named τ} {p' : Array τ} (hp : D p p') {a a'} (ha : D a a') :
    Er D (gsRev2std bf0 bf a n p) (NTT.gsRev2std bf0' bf' a' n p') := by
  unfold gsRev2std NTT.gsRev2std
  refine Er.bind (R := D2) (Er.forShl ⟨rfl, ha⟩ ?_) (fun _ _ h => Er.pure h.2)
  rintro j ⟨u, a⟩ ⟨u', a'⟩ ⟨h, ha⟩
  simp only at h
  subst h
  exact Er.bind (roundBGs_er h0 h1 _ _ hp ha) (fun _ _ h => Er.pure ⟨rfl, h⟩)

include h1 in
theorem gsMulRev2std_er (n : Nat) {p : Named τ} {p' : Array τ} (hp : D p p') {a a'} (ha : D a a') :
    Er D (gsMulRev2std bf a n p) (NTT.gsMulRev2std bf' a' n p') := by
  unfold gsMulRev2std NTT.gsMulRev2std
  refine Er.bind (R := D2) (Er.forShl ⟨rfl, ha⟩ ?_) (fun _ _ h => Er.pure h.2)
  rintro j ⟨u, a⟩ ⟨u', a'⟩ ⟨h, ha⟩
  simp only at h
  subst h
  exact Er.bind (roundBMul_er h1 _ _ hp ha) (fun _ _ h => Er.pure ⟨rfl, h⟩)

include h0 h1 in
theorem ctRev2stdV1_er (n : Nat) {p : Named τ} {p' : Array τ} (hp : D p p') {a a'} (ha : D a a') :
    Er D (ctRev2stdV1 bf0 bf a n p) (NTT.ctRev2stdV1 bf0' bf' a' n p') := by
  unfold ctRev2stdV1 NTT.ctRev2stdV1
  refine Er.bind (R := D2) (Er.forShl ⟨rfl, ha⟩ ?_) (fun _ _ h => Er.pure h.2)
  rintro j ⟨u, a⟩ ⟨u', a'⟩ ⟨h, ha⟩
  simp only at h
  subst h
  refine Er.bind (Er.forUp ha fun _ _ _ h => h0 _ _ _ _ h) fun _ _ h => ?_
  refine Er.bind (R := D) (Er.forUp h fun _ _ _ h => ?_) (fun _ _ h => Er.pure ⟨rfl, h⟩)
  refine Er.bind (Er.rd hp _) ?_
  rintro w _ rfl
  exact Er.forUp h fun _ _ _ h => h1 _ _ _ _ _ h

end er

section sm
variable {bf0 : Nat → Nat → Named α → TM (Named α)} {bf : τ → Nat → Nat → Named α → TM (Named α)}
  (h0 : ∀ s k A B, N A B → Sm N (bf0 s k A) (bf0 s k B))
  (h1 : ∀ w w' s k A B, N A B → Sm N (bf w s k A) (bf w' s k B))

include h0 h1 in
theorem roundA_sm (n t : Nat) {p p' : Named τ} (hp : N p p') {a a' : Named α} (ha : N a a') :
    Sm N (roundA bf0 bf n p t a) (roundA bf0 bf n p' t a') := by
  unfold roundA
  refine Sm.bind (Sm.forUp ha fun _ _ _ h => h0 _ _ _ _ h) fun _ _ h => ?_
  refine Sm.forUp h fun _ _ _ h => ?_
  refine Sm.bind (Sm.rd hp _) ?_
  intro w w' _
  exact Sm.forUp h fun _ _ _ h => h1 _ _ _ _ _ _ h

include h1 in
theorem roundAMul_sm (n t : Nat) {p p' : Named τ} (hp : N p p') {a a' : Named α} (ha : N a a') :
    Sm N (roundAMul bf n p t a) (roundAMul bf n p' t a') := by
  unfold roundAMul
  refine Sm.forUp ha fun _ _ _ h => ?_
  refine Sm.bind (Sm.rd hp _) ?_
  intro w w' _
  exact Sm.forUp h fun _ _ _ h => h1 _ _ _ _ _ _ h

include h0 h1 in
theorem roundBCt_sm (t d : Nat) {p p' : Named τ} (hp : N p p') {a a' : Named α} (ha : N a a') :
    Sm N (roundBCt bf0 bf p t d a) (roundBCt bf0 bf p' t d a') := by
  unfold roundBCt
  refine Sm.bind (Sm.forUp ha fun _ _ _ h => h0 _ _ _ _ h) fun _ _ h => ?_
  refine Sm.bind (R := N2) (Sm.forUp ⟨rfl, h⟩ ?_) (fun _ _ h => Sm.pure h.2)
  rintro j ⟨u, a⟩ ⟨u', a'⟩ ⟨h, ha⟩
  simp only at h
  subst h
  refine Sm.bind (Sm.rd hp _) ?_
  intro w w' _
  exact Sm.bind (Sm.forUp ha fun _ _ _ h => h1 _ _ _ _ _ _ h) (fun _ _ h => Sm.pure ⟨rfl, h⟩)

include h0 h1 in
theorem roundBGs_sm (t d : Nat) {p p' : Named τ} (hp : N p p') {a a' : Named α} (ha : N a a') :
    Sm N (roundBGs bf0 bf p t d a) (roundBGs bf0 bf p' t d a') := by
  unfold roundBGs
  refine Sm.bind (Sm.forUp ha fun _ _ _ h => h0 _ _ _ _ h) fun _ _ h => ?_
  refine Sm.bind (R := N2) (Sm.forUp ⟨rfl, h⟩ ?_) (fun _ _ h => Sm.pure h.2)
  rintro j ⟨u, a⟩ ⟨u', a'⟩ ⟨h, ha⟩
  simp only at h
  subst h
  refine Sm.bind (Sm.rd hp _) ?_
  intro w w' _
  exact Sm.bind (Sm.forUp ha fun _ _ _ h => h1 _ _ _ _ _ _ h) (fun _ _ h => Sm.pure ⟨rfl, h⟩)

include h1 in
theorem roundBMul_sm (t d : Nat) {p p' : Named τ} (hp : N p p') {a a' : Named α} (ha : N a a') :
    Sm N (roundBMul bf p t d a) (roundBMul bf p' t d a') := by
  unfold roundBMul
  refine Sm.bind (R := N2) (Sm.forUp ⟨rfl, ha⟩ ?_) (fun _ _ h => Sm.pure h.2)
  rintro j ⟨u, a⟩ ⟨u', a'⟩ ⟨h, ha⟩
  simp only at h
  subst h
  refine Sm.bind (Sm.rd hp _) ?_
  intro w w' _
  exact Sm.bind (Sm.forUp ha fun _ _ _ h => h1 _ _ _ _ _ _ h) (fun _ _ h => Sm.pure ⟨rfl, h⟩)

include h0 h1 in
theorem ctRev2std_sm (n : Nat) {p p' : Named τ} (hp : N p p') {a a' : Named α} (ha : N a a') :
    Sm N (ctRev2std bf0 bf a n p) (ctRev2std bf0 bf a' n p') := by
  unfold ctRev2std
  exact Sm.forShl ha fun _ _ _ h => roundA_sm h0 h1 _ _ hp h

include h1 in
theorem mulCtRev2std_sm (n : Nat) {p p' : Named τ} (hp : N p p') {a a' : Named α} (ha : N a a') :
    Sm N (mulCtRev2std bf a n p) (mulCtRev2std bf a' n p') := by
  unfold mulCtRev2std
  exact Sm.forShl ha fun _ _ _ h => roundAMul_sm h1 _ _ hp h

include h0 h1 in
theorem gsStd2rev_sm (n : Nat) {p p' : Named τ} (hp : N p p') {a a' : Named α} (ha : N a a') :
    Sm N (gsStd2rev bf0 bf a n p) (gsStd2rev bf0 bf a' n p') := by
  unfold gsStd2rev
  exact Sm.forShr ha fun _ _ _ h => roundA_sm h0 h1 _ _ hp h

include h1 in
theorem gsMulStd2rev_sm (n : Nat) {p p' : Named τ} (hp : N p p') {a a' : Named α} (ha : N a a') :
    Sm N (gsMulStd2rev bf a n p) (gsMulStd2rev bf a' n p') := by
  unfold gsMulStd2rev
  exact Sm.forShr ha fun _ _ _ h => roundAMul_sm h1 _ _ hp h

include h0 h1 in
theorem ctStd2rev_sm (n : Nat) {p p' : Named τ} (hp : N p p') {a a' : Named α} (ha : N a a') :
    Sm N (ctStd2rev bf0 bf a n p) (ctStd2rev bf0 bf a' n p') := by
  unfold ctStd2rev
  refine Sm.bind (R := N2) (Sm.forShl ⟨rfl, ha⟩ ?_) (fun _ _ h => Sm.pure h.2)
  rintro j ⟨u, a⟩ ⟨u', a'⟩ ⟨h, ha⟩
  simp only at h
  subst h
  exact Sm.bind (roundBCt_sm h0 h1 _ _ hp ha) (fun _ _ h => Sm.pure ⟨rfl, h⟩)

include h1 in
theorem mulCtStd2rev_sm (n : Nat) {p p' : Named τ} (hp : N p p') {a a' : Named α} (ha : N a a') :
    Sm N (mulCtStd2rev bf a n p) (mulCtStd2rev bf a' n p') := by
  unfold mulCtStd2rev
  refine Sm.bind (R := N2) (Sm.forShl ⟨rfl, ha⟩ ?_) (fun _ _ h => Sm.pure h.2)
  rintro j ⟨u, a⟩ ⟨u', a'⟩ ⟨h, ha⟩
  simp only at h
  subst h
  exact Sm.bind (roundBMul_sm h1 _ _ hp ha) (fun _ _ h => Sm.pure ⟨rfl, h⟩)

include h0 h1 in
theorem gsRev2std_sm (n : Nat) {p p' : Named τ} (hp : N p p') {a a' : Named α} (ha : N a a') :
    Sm N (gsRev2std bf0 bf a n p) (gsRev2std bf0 bf a' n p') := by
  unfold gsRev2std
  refine Sm.bind (R := N2) (Sm.forShl ⟨rfl, ha⟩ ?_) (fun _ _ h => Sm.pure h.2)
  rintro j ⟨u, a⟩ ⟨u', a'⟩ ⟨h, ha⟩
  simp only at h
  subst h
  exact Sm.bind (roundBGs_sm h0 h1 _ _ hp ha) (fun _ _ h => Sm.pure ⟨rfl, h⟩)

include h1 in
theorem gsMulRev2std_sm (n : Nat) {p p' : Named τ} (hp : N p p') {a a' : Named α} (ha : N a a') :
    Sm N (gsMulRev2std bf a n p) (gsMulRev2std bf a' n p') := by
  unfold gsMulRev2std
  refine Sm.bind (R := N2) (Sm.forShl ⟨rfl, ha⟩ ?_) (fun _ _ h => Sm.pure h.2)
  rintro j ⟨u, a⟩ ⟨u', a'⟩ ⟨h, ha⟩
  simp only at h
  subst h
  exact Sm.bind (roundBMul_sm h1 _ _ hp ha) (fun _ _ h => Sm.pure ⟨rfl, h⟩)

include h0 h1 in
theorem ctRev2stdV1_sm (n : Nat) {p p' : Named τ} (hp : N p p') {a a' : Named α} (ha : N a a') :
    Sm N (ctRev2stdV1 bf0 bf a n p) (ctRev2stdV1 bf0 bf a' n p') := by
  unfold ctRev2stdV1
  refine Sm.bind (R := N2) (Sm.forShl ⟨rfl, ha⟩ ?_) (fun _ _ h => Sm.pure h.2)
  rintro j ⟨u, a⟩ ⟨u', a'⟩ ⟨h, ha⟩
  simp only at h
  subst h
  refine Sm.bind (Sm.forUp ha fun _ _ _ h => h0 _ _ _ _ h) fun _ _ h => ?_
  refine Sm.bind (R := N) (Sm.forUp h fun _ _ _ h => ?_) (fun _ _ h => Sm.pure ⟨rfl, h⟩)
  refine Sm.bind (Sm.rd hp _) ?_
  intro w w' _
  exact Sm.forUp h fun _ _ _ h => h1 _ _ _ _ _ _ h

end sm

end Traced
