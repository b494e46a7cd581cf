import Verif.Proofs.JumpsSkeleton

/-
Every function with recorded events: `f_er` says that it computes the same result as the function as built, `f_sm` that two
runs of it on arrays of the same names have the same events, `f_sx` exactly when they have.
Generated by tools/genflow.py from `Verif/Proofs/Trace.lean`.
-/

namespace Jumps
open C Flow
open Trace (Named)

namespace Ntt

theorem swap_er {α : Type} (a : Named α) (i : Nat) (j : Nat) :
    Er D (swap a i j) (_root_.Ntt.swap a.data i j) := by
  unfold swap _root_.Ntt.swap
  refine Er.bind (Er.rd rfl _) ?_; rintro x _ rfl
  refine Er.bind (Er.rd rfl _) ?_; rintro y _ rfl
  refine Er.bind (Er.wr rfl _ _) ?_; rintro a _ rfl
  exact Er.wr rfl _ _

theorem swap_sm {α : Type} {a a' : Named α} (ha : N a a') (i : Nat) (j : Nat) :
    Sm N (swap a i j) (swap a' i j) := by
  unfold swap
  refine Sm.bind (Sm.rd ha _) fun x x' _ => ?_
  refine Sm.bind (Sm.rd ha _) fun y y' _ => ?_
  refine Sm.bind (Sm.wr ha _ _ _) fun a a' ha => ?_
  exact Sm.wr ha _ _ _

theorem bitrevNext_er : ∀ fuel j k, Er Eq (bitrevNext fuel j k) (_root_.Ntt.bitrevNext fuel j k)
  | 0, _, _ => rfl
  | fuel + 1, j, k => by
    unfold bitrevNext _root_.Ntt.bitrevNext
    exact Er.tif (bitrevNext_er _ _ _) (Er.pure rfl)

theorem bitrevNext_sm : ∀ fuel j k, Sm Eq (bitrevNext fuel j k) (bitrevNext fuel j k) := fun _ _ _ => Sm.refl _

theorem bitrev_shuffle_er {α : Type} (a : Named α) (n : Nat) :
    Er D (bitrev_shuffle a n) (Release.bitrev_shuffle a.data n) := by
  unfold bitrev_shuffle Release.bitrev_shuffle
  generalize u32 (n + 4294967295) = m
  refine Er.bind (R := D2) (Er.forUp ⟨rfl, rfl⟩ ?_) (fun _ _ h => Er.pure h.2)
  rintro i ⟨j, a⟩ ⟨_, _⟩ ⟨rfl, rfl⟩
  refine Er.bind (Er.tif (swap_er _ _ _) (Er.pure rfl)) ?_
  rintro a _ rfl
  refine Er.bind (bitrevNext_er _ _ _) ?_
  rintro j _ rfl
  exact Er.pure ⟨rfl, rfl⟩

theorem bitrev_shuffle_sm {α : Type} {a a' : Named α} (ha : N a a') (n : Nat) :
    Sm N (bitrev_shuffle a n) (bitrev_shuffle a' n) := by
  unfold bitrev_shuffle
  generalize u32 (n + 4294967295) = m
  refine Sm.bind (R := N2) (Sm.forUp ⟨rfl, ha⟩ ?_) (fun _ _ h => Sm.pure h.2)
  rintro i ⟨j, a⟩ ⟨_, a'⟩ ⟨e, ha⟩
  simp only at e
  subst e
  refine Sm.bind (Sm.tifSame (swap_sm ha _ _) (Sm.pure ha)) ?_
  intro a a' ha
  refine Sm.bind (bitrevNext_sm _ _ _) ?_
  rintro j _ rfl
  exact Sm.pure ⟨rfl, ha⟩

theorem shuffle_with_table_er {α : Type} (a : Named α) (p : Named (Nat × Nat)) (n : Nat) :
    Er D (shuffle_with_table a p n) (_root_.Ntt.shuffle_with_table a.data p.data n) := by
  unfold shuffle_with_table _root_.Ntt.shuffle_with_table
  refine Er.forUp rfl ?_
  rintro i a _ rfl
  refine Er.bind (Er.rd rfl _) ?_; rintro jk _ rfl
  exact swap_er _ _ _

theorem shuffle_with_table_sm {α : Type} {a a' : Named α} (ha : N a a') (p : Named (Nat × Nat)) (n : Nat) :
    Sm N (shuffle_with_table a p n) (shuffle_with_table a' p n) := by
  unfold shuffle_with_table
  refine Sm.forUp ha ?_
  intro i a a' ha
  refine Sm.bind (Sm.rdEq _ _) ?_
  rintro jk _ rfl
  exact swap_sm ha _ _

theorem mul_array16_er (a : Named Int) (n : Nat) (p : Named Int) :
    Er D (mul_array16 a n p) (_root_.Ntt.mul_array16 a.data n p.data) := by
  unfold mul_array16 _root_.Ntt.mul_array16
  refine Er.forUp rfl ?_
  rintro i a _ rfl
  refine Er.bind (Er.rd rfl _) ?_; rintro x _ rfl
  refine Er.bind (Er.rd rfl _) ?_; rintro y _ rfl
  refine Er.bind (Er.lift _) ?_; rintro z _ rfl
  exact Er.wr rfl _ _

theorem mul_array16_sm {a a' : Named Int} (ha : N a a') (n : Nat) {p p' : Named Int} (hp : N p p') :
    Sm N (mul_array16 a n p) (mul_array16 a' n p') := by
  unfold mul_array16
  refine Sm.forUp ha ?_
  intro i a a' ha
  refine Sm.bind (Sm.rd ha _) fun x x' _ => ?_
  refine Sm.bind (Sm.rd hp _) fun y y' _ => ?_
  refine Sm.bind (Sm.lift _ _) fun z z' _ => ?_
  exact Sm.wr ha _ _ _

theorem mul_array_er (c : Named Int) (n : Nat) (a : Named Int) (b : Named Int) :
    Er D (mul_array c n a b) (_root_.Ntt.mul_array c.data n a.data b.data) := by
  unfold mul_array _root_.Ntt.mul_array
  refine Er.forUp rfl ?_
  rintro i c _ rfl
  refine Er.bind (Er.rd rfl _) ?_; rintro x _ rfl
  refine Er.bind (Er.rd rfl _) ?_; rintro y _ rfl
  refine Er.bind (Er.lift _) ?_; rintro z _ rfl
  exact Er.wr rfl _ _

theorem mul_array_sm {c c' : Named Int} (hc : N c c') (n : Nat) {a a' : Named Int} (ha : N a a') {b b' : Named Int} (hb : N b b') :
    Sm N (mul_array c n a b) (mul_array c' n a' b') := by
  unfold mul_array
  refine Sm.forUp hc ?_
  intro i c c' hc
  refine Sm.bind (Sm.rd ha _) fun x x' _ => ?_
  refine Sm.bind (Sm.rd hb _) fun y y' _ => ?_
  refine Sm.bind (Sm.lift _ _) fun z z' _ => ?_
  exact Sm.wr hc _ _ _

theorem scalar_mul_array_er (a : Named Int) (n : Nat) (c : Int) :
    Er D (scalar_mul_array a n c) (_root_.Ntt.scalar_mul_array a.data n c) := by
  unfold scalar_mul_array _root_.Ntt.scalar_mul_array
  refine Er.forUp rfl ?_
  rintro i a _ rfl
  refine Er.bind (Er.rd rfl _) ?_; rintro x _ rfl
  refine Er.bind (Er.lift _) ?_; rintro z _ rfl
  exact Er.wr rfl _ _

theorem scalar_mul_array_sm {a a' : Named Int} (ha : N a a') (n : Nat) (c c' : Int) :
    Sm N (scalar_mul_array a n c) (scalar_mul_array a' n c') := by
  unfold scalar_mul_array
  refine Sm.forUp ha ?_
  intro i a a' ha
  refine Sm.bind (Sm.rd ha _) fun x x' _ => ?_
  refine Sm.bind (Sm.lift _ _) fun z z' _ => ?_
  exact Sm.wr ha _ _ _

theorem bf0_er (s : Nat) (k : Nat) (a : Named Int) :
    Er D (bf0 s k a) (_root_.Ntt.bf0 s k a.data) := by
  unfold bf0 _root_.Ntt.bf0
  refine Er.bind (Er.rd rfl _) ?_; rintro x _ rfl
  refine Er.bind (Er.rd rfl _) ?_; rintro y _ rfl
  refine Er.bind (Er.lift _) ?_; rintro v _ rfl
  refine Er.bind (Er.wr rfl _ _) ?_; rintro a _ rfl
  refine Er.bind (Er.rd rfl _) ?_; rintro y _ rfl
  refine Er.bind (Er.lift _) ?_; rintro u _ rfl
  exact Er.wr rfl _ _

theorem bf0_sm (s : Nat) (k : Nat) {a a' : Named Int} (ha : N a a') :
    Sm N (bf0 s k a) (bf0 s k a') := by
  unfold bf0
  refine Sm.bind (Sm.rd ha _) fun x x' _ => ?_
  refine Sm.bind (Sm.rd ha _) fun y y' _ => ?_
  refine Sm.bind (Sm.lift _ _) fun v v' _ => ?_
  refine Sm.bind (Sm.wr ha _ _ _) fun a a' ha => ?_
  refine Sm.bind (Sm.rd ha _) fun y y' _ => ?_
  refine Sm.bind (Sm.lift _ _) fun u u' _ => ?_
  exact Sm.wr ha _ _ _

theorem ctBf_er (w : Int) (s : Nat) (k : Nat) (a : Named Int) :
    Er D (ctBf w s k a) (_root_.Ntt.ctBf w s k a.data) := by
  unfold ctBf _root_.Ntt.ctBf
  refine Er.bind (Er.rd rfl _) ?_; rintro z _ rfl
  refine Er.bind (Er.lift _) ?_; rintro z _ rfl
  refine Er.bind (Er.rd rfl _) ?_; rintro y _ rfl
  refine Er.bind (Er.lift _) ?_; rintro v _ rfl
  refine Er.bind (Er.wr rfl _ _) ?_; rintro a _ rfl
  refine Er.bind (Er.rd rfl _) ?_; rintro y _ rfl
  refine Er.bind (Er.lift _) ?_; rintro u _ rfl
  exact Er.wr rfl _ _

theorem ctBf_sm (w w' : Int) (s : Nat) (k : Nat) {a a' : Named Int} (ha : N a a') :
    Sm N (ctBf w s k a) (ctBf w' s k a') := by
  unfold ctBf
  refine Sm.bind (Sm.rd ha _) fun z z' _ => ?_
  refine Sm.bind (Sm.lift _ _) fun z z' _ => ?_
  refine Sm.bind (Sm.rd ha _) fun y y' _ => ?_
  refine Sm.bind (Sm.lift _ _) fun v v' _ => ?_
  refine Sm.bind (Sm.wr ha _ _ _) fun a a' ha => ?_
  refine Sm.bind (Sm.rd ha _) fun y y' _ => ?_
  refine Sm.bind (Sm.lift _ _) fun u u' _ => ?_
  exact Sm.wr ha _ _ _

theorem gsBf_er (w : Int) (s : Nat) (k : Nat) (a : Named Int) :
    Er D (gsBf w s k a) (_root_.Ntt.gsBf w s k a.data) := by
  unfold gsBf _root_.Ntt.gsBf
  refine Er.bind (Er.rd rfl _) ?_; rintro x _ rfl
  refine Er.bind (Er.rd rfl _) ?_; rintro y _ rfl
  refine Er.bind (Er.lift _) ?_; rintro v _ rfl
  refine Er.bind (Er.lift _) ?_; rintro v _ rfl
  refine Er.bind (Er.wr rfl _ _) ?_; rintro a _ rfl
  refine Er.bind (Er.rd rfl _) ?_; rintro y _ rfl
  refine Er.bind (Er.lift _) ?_; rintro u _ rfl
  exact Er.wr rfl _ _

theorem gsBf_sm (w w' : Int) (s : Nat) (k : Nat) {a a' : Named Int} (ha : N a a') :
    Sm N (gsBf w s k a) (gsBf w' s k a') := by
  unfold gsBf
  refine Sm.bind (Sm.rd ha _) fun x x' _ => ?_
  refine Sm.bind (Sm.rd ha _) fun y y' _ => ?_
  refine Sm.bind (Sm.lift _ _) fun v v' _ => ?_
  refine Sm.bind (Sm.lift _ _) fun v v' _ => ?_
  refine Sm.bind (Sm.wr ha _ _ _) fun a a' ha => ?_
  refine Sm.bind (Sm.rd ha _) fun y y' _ => ?_
  refine Sm.bind (Sm.lift _ _) fun u u' _ => ?_
  exact Sm.wr ha _ _ _

theorem ntt_ct_rev2std_v1_er (a : Named Int) (n : Nat) (p : Named Int) :
    Er D (ntt_ct_rev2std_v1 a n p) (_root_.Ntt.ntt_ct_rev2std_v1 a.data n p.data) := by
  unfold ntt_ct_rev2std_v1 _root_.Ntt.ntt_ct_rev2std_v1
  exact ctRev2stdV1_er (by rintro s k A _ rfl; exact bf0_er s k A) (by rintro w s k A _ rfl; exact ctBf_er w s k A) n rfl rfl

theorem ntt_ct_rev2std_v1_sm {a a' : Named Int} (ha : N a a') (n : Nat) {p p' : Named Int} (hp : N p p') :
    Sm N (ntt_ct_rev2std_v1 a n p) (ntt_ct_rev2std_v1 a' n p') := by
  unfold ntt_ct_rev2std_v1
  exact ctRev2stdV1_sm (fun s k _ _ h => bf0_sm s k h) (fun w w' s k _ _ h => ctBf_sm w w' s k h) n hp ha

theorem ntt_ct_rev2std_er (a : Named Int) (n : Nat) (p : Named Int) :
    Er D (ntt_ct_rev2std a n p) (_root_.Ntt.ntt_ct_rev2std a.data n p.data) := by
  unfold ntt_ct_rev2std _root_.Ntt.ntt_ct_rev2std
  exact ctRev2std_er (by rintro s k A _ rfl; exact bf0_er s k A) (by rintro w s k A _ rfl; exact ctBf_er w s k A) n rfl rfl

theorem ntt_ct_rev2std_sm {a a' : Named Int} (ha : N a a') (n : Nat) {p p' : Named Int} (hp : N p p') :
    Sm N (ntt_ct_rev2std a n p) (ntt_ct_rev2std a' n p') := by
  unfold ntt_ct_rev2std
  exact ctRev2std_sm (fun s k _ _ h => bf0_sm s k h) (fun w w' s k _ _ h => ctBf_sm w w' s k h) n hp ha

theorem mulntt_ct_rev2std_er (a : Named Int) (n : Nat) (p : Named Int) :
    Er D (mulntt_ct_rev2std a n p) (_root_.Ntt.mulntt_ct_rev2std a.data n p.data) := by
  unfold mulntt_ct_rev2std _root_.Ntt.mulntt_ct_rev2std
  exact mulCtRev2std_er (by rintro w s k A _ rfl; exact ctBf_er w s k A) n rfl rfl

theorem mulntt_ct_rev2std_sm {a a' : Named Int} (ha : N a a') (n : Nat) {p p' : Named Int} (hp : N p p') :
    Sm N (mulntt_ct_rev2std a n p) (mulntt_ct_rev2std a' n p') := by
  unfold mulntt_ct_rev2std
  exact mulCtRev2std_sm (fun w w' s k _ _ h => ctBf_sm w w' s k h) n hp ha

theorem ntt_ct_std2rev_er (a : Named Int) (n : Nat) (p : Named Int) :
    Er D (ntt_ct_std2rev a n p) (_root_.Ntt.ntt_ct_std2rev a.data n p.data) := by
  unfold ntt_ct_std2rev _root_.Ntt.ntt_ct_std2rev
  exact ctStd2rev_er (by rintro s k A _ rfl; exact bf0_er s k A) (by rintro w s k A _ rfl; exact ctBf_er w s k A) n rfl rfl

theorem ntt_ct_std2rev_sm {a a' : Named Int} (ha : N a a') (n : Nat) {p p' : Named Int} (hp : N p p') :
    Sm N (ntt_ct_std2rev a n p) (ntt_ct_std2rev a' n p') := by
  unfold ntt_ct_std2rev
  exact ctStd2rev_sm (fun s k _ _ h => bf0_sm s k h) (fun w w' s k _ _ h => ctBf_sm w w' s k h) n hp ha

theorem mulntt_ct_std2rev_er (a : Named Int) (n : Nat) (p : Named Int) :
    Er D (mulntt_ct_std2rev a n p) (_root_.Ntt.mulntt_ct_std2rev a.data n p.data) := by
  unfold mulntt_ct_std2rev _root_.Ntt.mulntt_ct_std2rev
  exact mulCtStd2rev_er (by rintro w s k A _ rfl; exact ctBf_er w s k A) n rfl rfl

theorem mulntt_ct_std2rev_sm {a a' : Named Int} (ha : N a a') (n : Nat) {p p' : Named Int} (hp : N p p') :
    Sm N (mulntt_ct_std2rev a n p) (mulntt_ct_std2rev a' n p') := by
  unfold mulntt_ct_std2rev
  exact mulCtStd2rev_sm (fun w w' s k _ _ h => ctBf_sm w w' s k h) n hp ha

theorem ntt_gs_rev2std_er (a : Named Int) (n : Nat) (p : Named Int) :
    Er D (ntt_gs_rev2std a n p) (_root_.Ntt.ntt_gs_rev2std a.data n p.data) := by
  unfold ntt_gs_rev2std _root_.Ntt.ntt_gs_rev2std
  exact gsRev2std_er (by rintro s k A _ rfl; exact bf0_er s k A) (by rintro w s k A _ rfl; exact gsBf_er w s k A) n rfl rfl

theorem ntt_gs_rev2std_sm {a a' : Named Int} (ha : N a a') (n : Nat) {p p' : Named Int} (hp : N p p') :
    Sm N (ntt_gs_rev2std a n p) (ntt_gs_rev2std a' n p') := by
  unfold ntt_gs_rev2std
  exact gsRev2std_sm (fun s k _ _ h => bf0_sm s k h) (fun w w' s k _ _ h => gsBf_sm w w' s k h) n hp ha

theorem nttmul_gs_rev2std_er (a : Named Int) (n : Nat) (p : Named Int) :
    Er D (nttmul_gs_rev2std a n p) (_root_.Ntt.nttmul_gs_rev2std a.data n p.data) := by
  unfold nttmul_gs_rev2std _root_.Ntt.nttmul_gs_rev2std
  exact gsMulRev2std_er (by rintro w s k A _ rfl; exact gsBf_er w s k A) n rfl rfl

theorem nttmul_gs_rev2std_sm {a a' : Named Int} (ha : N a a') (n : Nat) {p p' : Named Int} (hp : N p p') :
    Sm N (nttmul_gs_rev2std a n p) (nttmul_gs_rev2std a' n p') := by
  unfold nttmul_gs_rev2std
  exact gsMulRev2std_sm (fun w w' s k _ _ h => gsBf_sm w w' s k h) n hp ha

theorem ntt_gs_std2rev_er (a : Named Int) (n : Nat) (p : Named Int) :
    Er D (ntt_gs_std2rev a n p) (_root_.Ntt.ntt_gs_std2rev a.data n p.data) := by
  unfold ntt_gs_std2rev _root_.Ntt.ntt_gs_std2rev
  exact gsStd2rev_er (by rintro s k A _ rfl; exact bf0_er s k A) (by rintro w s k A _ rfl; exact gsBf_er w s k A) n rfl rfl

theorem ntt_gs_std2rev_sm {a a' : Named Int} (ha : N a a') (n : Nat) {p p' : Named Int} (hp : N p p') :
    Sm N (ntt_gs_std2rev a n p) (ntt_gs_std2rev a' n p') := by
  unfold ntt_gs_std2rev
  exact gsStd2rev_sm (fun s k _ _ h => bf0_sm s k h) (fun w w' s k _ _ h => gsBf_sm w w' s k h) n hp ha

theorem nttmul_gs_std2rev_er (a : Named Int) (n : Nat) (p : Named Int) :
    Er D (nttmul_gs_std2rev a n p) (_root_.Ntt.nttmul_gs_std2rev a.data n p.data) := by
  unfold nttmul_gs_std2rev _root_.Ntt.nttmul_gs_std2rev
  exact gsMulStd2rev_er (by rintro w s k A _ rfl; exact gsBf_er w s k A) n rfl rfl

theorem nttmul_gs_std2rev_sm {a a' : Named Int} (ha : N a a') (n : Nat) {p p' : Named Int} (hp : N p p') :
    Sm N (nttmul_gs_std2rev a n p) (nttmul_gs_std2rev a' n p') := by
  unfold nttmul_gs_std2rev
  exact gsMulStd2rev_sm (fun w w' s k _ _ h => gsBf_sm w w' s k h) n hp ha

theorem fwd_ct_rev2std_er (t : Tables.Nttables) (n : Nat) (a : Named Int) :
    Er D (fwd_ct_rev2std t n a) (_root_.Ntt.fwd_ct_rev2std t n a.data) := by
  unfold fwd_ct_rev2std _root_.Ntt.fwd_ct_rev2std
  exact ntt_ct_rev2std_er a n ⟨"omega_powers", t.omega_powers⟩

theorem fwd_ct_rev2std_sm (t t' : Tables.Nttables) (n : Nat) {a a' : Named Int} (ha : N a a') :
    Sm N (fwd_ct_rev2std t n a) (fwd_ct_rev2std t' n a') := by
  unfold fwd_ct_rev2std
  exact ntt_ct_rev2std_sm ha n (by rfl)

theorem fwd_gs_rev2std_er (t : Tables.Nttables) (n : Nat) (a : Named Int) :
    Er D (fwd_gs_rev2std t n a) (_root_.Ntt.fwd_gs_rev2std t n a.data) := by
  unfold fwd_gs_rev2std _root_.Ntt.fwd_gs_rev2std
  exact ntt_gs_rev2std_er a n ⟨"omega_powers_rev", t.omega_powers_rev⟩

theorem fwd_gs_rev2std_sm (t t' : Tables.Nttables) (n : Nat) {a a' : Named Int} (ha : N a a') :
    Sm N (fwd_gs_rev2std t n a) (fwd_gs_rev2std t' n a') := by
  unfold fwd_gs_rev2std
  exact ntt_gs_rev2std_sm ha n (by rfl)

theorem fwd_ct_std2rev_er (t : Tables.Nttables) (n : Nat) (a : Named Int) :
    Er D (fwd_ct_std2rev t n a) (_root_.Ntt.fwd_ct_std2rev t n a.data) := by
  unfold fwd_ct_std2rev _root_.Ntt.fwd_ct_std2rev
  exact ntt_ct_std2rev_er a n ⟨"omega_powers_rev", t.omega_powers_rev⟩

theorem fwd_ct_std2rev_sm (t t' : Tables.Nttables) (n : Nat) {a a' : Named Int} (ha : N a a') :
    Sm N (fwd_ct_std2rev t n a) (fwd_ct_std2rev t' n a') := by
  unfold fwd_ct_std2rev
  exact ntt_ct_std2rev_sm ha n (by rfl)

theorem fwd_gs_std2rev_er (t : Tables.Nttables) (n : Nat) (a : Named Int) :
    Er D (fwd_gs_std2rev t n a) (_root_.Ntt.fwd_gs_std2rev t n a.data) := by
  unfold fwd_gs_std2rev _root_.Ntt.fwd_gs_std2rev
  exact ntt_gs_std2rev_er a n ⟨"omega_powers", t.omega_powers⟩

theorem fwd_gs_std2rev_sm (t t' : Tables.Nttables) (n : Nat) {a a' : Named Int} (ha : N a a') :
    Sm N (fwd_gs_std2rev t n a) (fwd_gs_std2rev t' n a') := by
  unfold fwd_gs_std2rev
  exact ntt_gs_std2rev_sm ha n (by rfl)

theorem intt_ct_rev2std_er (t : Tables.Nttables) (n : Nat) (a : Named Int) :
    Er D (intt_ct_rev2std t n a) (_root_.Ntt.intt_ct_rev2std t n a.data) := by
  unfold intt_ct_rev2std _root_.Ntt.intt_ct_rev2std
  exact ntt_ct_rev2std_er a n ⟨"inv_omega_powers", t.inv_omega_powers⟩

theorem intt_ct_rev2std_sm (t t' : Tables.Nttables) (n : Nat) {a a' : Named Int} (ha : N a a') :
    Sm N (intt_ct_rev2std t n a) (intt_ct_rev2std t' n a') := by
  unfold intt_ct_rev2std
  exact ntt_ct_rev2std_sm ha n (by rfl)

theorem intt_gs_rev2std_er (t : Tables.Nttables) (n : Nat) (a : Named Int) :
    Er D (intt_gs_rev2std t n a) (_root_.Ntt.intt_gs_rev2std t n a.data) := by
  unfold intt_gs_rev2std _root_.Ntt.intt_gs_rev2std
  exact ntt_gs_rev2std_er a n ⟨"inv_omega_powers_rev", t.inv_omega_powers_rev⟩

theorem intt_gs_rev2std_sm (t t' : Tables.Nttables) (n : Nat) {a a' : Named Int} (ha : N a a') :
    Sm N (intt_gs_rev2std t n a) (intt_gs_rev2std t' n a') := by
  unfold intt_gs_rev2std
  exact ntt_gs_rev2std_sm ha n (by rfl)

theorem intt_ct_std2rev_er (t : Tables.Nttables) (n : Nat) (a : Named Int) :
    Er D (intt_ct_std2rev t n a) (_root_.Ntt.intt_ct_std2rev t n a.data) := by
  unfold intt_ct_std2rev _root_.Ntt.intt_ct_std2rev
  exact ntt_ct_std2rev_er a n ⟨"inv_omega_powers_rev", t.inv_omega_powers_rev⟩

theorem intt_ct_std2rev_sm (t t' : Tables.Nttables) (n : Nat) {a a' : Named Int} (ha : N a a') :
    Sm N (intt_ct_std2rev t n a) (intt_ct_std2rev t' n a') := by
  unfold intt_ct_std2rev
  exact ntt_ct_std2rev_sm ha n (by rfl)

theorem intt_gs_std2rev_er (t : Tables.Nttables) (n : Nat) (a : Named Int) :
    Er D (intt_gs_std2rev t n a) (_root_.Ntt.intt_gs_std2rev t n a.data) := by
  unfold intt_gs_std2rev _root_.Ntt.intt_gs_std2rev
  exact ntt_gs_std2rev_er a n ⟨"inv_omega_powers", t.inv_omega_powers⟩

theorem intt_gs_std2rev_sm (t t' : Tables.Nttables) (n : Nat) {a a' : Named Int} (ha : N a a') :
    Sm N (intt_gs_std2rev t n a) (intt_gs_std2rev t' n a') := by
  unfold intt_gs_std2rev
  exact ntt_gs_std2rev_sm ha n (by rfl)

theorem fwdmul_ct_rev2std_er (t : Tables.Nttables) (n : Nat) (a : Named Int) :
    Er D (fwdmul_ct_rev2std t n a) (_root_.Ntt.fwdmul_ct_rev2std t n a.data) := by
  unfold fwdmul_ct_rev2std _root_.Ntt.fwdmul_ct_rev2std
  exact mulntt_ct_rev2std_er a n ⟨"mixed_powers", t.mixed_powers⟩

theorem fwdmul_ct_rev2std_sm (t t' : Tables.Nttables) (n : Nat) {a a' : Named Int} (ha : N a a') :
    Sm N (fwdmul_ct_rev2std t n a) (fwdmul_ct_rev2std t' n a') := by
  unfold fwdmul_ct_rev2std
  exact mulntt_ct_rev2std_sm ha n (by rfl)

theorem fwdmul_ct_std2rev_er (t : Tables.Nttables) (n : Nat) (a : Named Int) :
    Er D (fwdmul_ct_std2rev t n a) (_root_.Ntt.fwdmul_ct_std2rev t n a.data) := by
  unfold fwdmul_ct_std2rev _root_.Ntt.fwdmul_ct_std2rev
  exact mulntt_ct_std2rev_er a n ⟨"mixed_powers_rev", t.mixed_powers_rev⟩

theorem fwdmul_ct_std2rev_sm (t t' : Tables.Nttables) (n : Nat) {a a' : Named Int} (ha : N a a') :
    Sm N (fwdmul_ct_std2rev t n a) (fwdmul_ct_std2rev t' n a') := by
  unfold fwdmul_ct_std2rev
  exact mulntt_ct_std2rev_sm ha n (by rfl)

theorem inttmul_gs_rev2std_er (t : Tables.Nttables) (n : Nat) (a : Named Int) :
    Er D (inttmul_gs_rev2std t n a) (_root_.Ntt.inttmul_gs_rev2std t n a.data) := by
  unfold inttmul_gs_rev2std _root_.Ntt.inttmul_gs_rev2std
  exact nttmul_gs_rev2std_er a n ⟨"inv_mixed_powers_rev", t.inv_mixed_powers_rev⟩

theorem inttmul_gs_rev2std_sm (t t' : Tables.Nttables) (n : Nat) {a a' : Named Int} (ha : N a a') :
    Sm N (inttmul_gs_rev2std t n a) (inttmul_gs_rev2std t' n a') := by
  unfold inttmul_gs_rev2std
  exact nttmul_gs_rev2std_sm ha n (by rfl)

theorem inttmul_gs_std2rev_er (t : Tables.Nttables) (n : Nat) (a : Named Int) :
    Er D (inttmul_gs_std2rev t n a) (_root_.Ntt.inttmul_gs_std2rev t n a.data) := by
  unfold inttmul_gs_std2rev _root_.Ntt.inttmul_gs_std2rev
  exact nttmul_gs_std2rev_er a n ⟨"inv_mixed_powers", t.inv_mixed_powers⟩

theorem inttmul_gs_std2rev_sm (t t' : Tables.Nttables) (n : Nat) {a a' : Named Int} (ha : N a a') :
    Sm N (inttmul_gs_std2rev t n a) (inttmul_gs_std2rev t' n a') := by
  unfold inttmul_gs_std2rev
  exact nttmul_gs_std2rev_sm ha n (by rfl)

theorem product1_er (t : Tables.Nttables) (n : Nat) (c : Named Int) (a : Named Int) (b : Named Int) :
    Er D3 (product1 t n c a b) (_root_.Ntt.product1 t n c.data a.data b.data) := by
  unfold product1 _root_.Ntt.product1
  refine Er.bind (mul_array16_er _ _ _) ?_; rintro a _ rfl
  refine Er.bind (fwd_ct_std2rev_er _ _ _) ?_; rintro a _ rfl
  refine Er.bind (mul_array16_er _ _ _) ?_; rintro b _ rfl
  refine Er.bind (fwd_ct_std2rev_er _ _ _) ?_; rintro b _ rfl
  refine Er.bind (mul_array_er _ _ _ _) ?_; rintro c _ rfl
  refine Er.bind (intt_ct_rev2std_er _ _ _) ?_; rintro c _ rfl
  refine Er.bind (mul_array16_er _ _ _) ?_; rintro c _ rfl
  exact Er.pure ⟨rfl, rfl, rfl⟩

theorem product1_sm (t t' : Tables.Nttables) (n : Nat) {c c' : Named Int} (hc : N c c') {a a' : Named Int} (ha : N a a') {b b' : Named Int} (hb : N b b') :
    Sm N3 (product1 t n c a b) (product1 t' n c' a' b') := by
  unfold product1
  refine Sm.bind (mul_array16_sm ha _ (by rfl)) ?_; intro a a' ha
  refine Sm.bind (fwd_ct_std2rev_sm _ _ _ ha) ?_; intro a a' ha
  refine Sm.bind (mul_array16_sm hb _ (by rfl)) ?_; intro b b' hb
  refine Sm.bind (fwd_ct_std2rev_sm _ _ _ hb) ?_; intro b b' hb
  refine Sm.bind (mul_array_sm hc _ ha hb) ?_; intro c c' hc
  refine Sm.bind (intt_ct_rev2std_sm _ _ _ hc) ?_; intro c c' hc
  refine Sm.bind (mul_array16_sm hc _ (by rfl)) ?_; intro c c' hc
  exact Sm.pure ⟨hc, ha, hb⟩

theorem product2_er (t : Tables.Nttables) (n : Nat) (c : Named Int) (a : Named Int) (b : Named Int) :
    Er D3 (product2 t n c a b) (_root_.Ntt.product2 t n c.data a.data b.data) := by
  unfold product2 _root_.Ntt.product2
  refine Er.bind (mul_array16_er _ _ _) ?_; rintro a _ rfl
  refine Er.bind (fwd_gs_std2rev_er _ _ _) ?_; rintro a _ rfl
  refine Er.bind (mul_array16_er _ _ _) ?_; rintro b _ rfl
  refine Er.bind (fwd_gs_std2rev_er _ _ _) ?_; rintro b _ rfl
  refine Er.bind (mul_array_er _ _ _ _) ?_; rintro c _ rfl
  refine Er.bind (intt_ct_rev2std_er _ _ _) ?_; rintro c _ rfl
  refine Er.bind (mul_array16_er _ _ _) ?_; rintro c _ rfl
  exact Er.pure ⟨rfl, rfl, rfl⟩

theorem product2_sm (t t' : Tables.Nttables) (n : Nat) {c c' : Named Int} (hc : N c c') {a a' : Named Int} (ha : N a a') {b b' : Named Int} (hb : N b b') :
    Sm N3 (product2 t n c a b) (product2 t' n c' a' b') := by
  unfold product2
  refine Sm.bind (mul_array16_sm ha _ (by rfl)) ?_; intro a a' ha
  refine Sm.bind (fwd_gs_std2rev_sm _ _ _ ha) ?_; intro a a' ha
  refine Sm.bind (mul_array16_sm hb _ (by rfl)) ?_; intro b b' hb
  refine Sm.bind (fwd_gs_std2rev_sm _ _ _ hb) ?_; intro b b' hb
  refine Sm.bind (mul_array_sm hc _ ha hb) ?_; intro c c' hc
  refine Sm.bind (intt_ct_rev2std_sm _ _ _ hc) ?_; intro c c' hc
  refine Sm.bind (mul_array16_sm hc _ (by rfl)) ?_; intro c c' hc
  exact Sm.pure ⟨hc, ha, hb⟩

theorem product3_er (t : Tables.Nttables) (n : Nat) (c : Named Int) (a : Named Int) (b : Named Int) :
    Er D3 (product3 t n c a b) (_root_.Ntt.product3 t n c.data a.data b.data) := by
  unfold product3 _root_.Ntt.product3
  refine Er.bind (mul_array16_er _ _ _) ?_; rintro a _ rfl
  refine Er.bind (fwd_ct_std2rev_er _ _ _) ?_; rintro a _ rfl
  refine Er.bind (mul_array16_er _ _ _) ?_; rintro b _ rfl
  refine Er.bind (fwd_ct_std2rev_er _ _ _) ?_; rintro b _ rfl
  refine Er.bind (mul_array_er _ _ _ _) ?_; rintro c _ rfl
  refine Er.bind (intt_gs_rev2std_er _ _ _) ?_; rintro c _ rfl
  refine Er.bind (mul_array16_er _ _ _) ?_; rintro c _ rfl
  exact Er.pure ⟨rfl, rfl, rfl⟩

theorem product3_sm (t t' : Tables.Nttables) (n : Nat) {c c' : Named Int} (hc : N c c') {a a' : Named Int} (ha : N a a') {b b' : Named Int} (hb : N b b') :
    Sm N3 (product3 t n c a b) (product3 t' n c' a' b') := by
  unfold product3
  refine Sm.bind (mul_array16_sm ha _ (by rfl)) ?_; intro a a' ha
  refine Sm.bind (fwd_ct_std2rev_sm _ _ _ ha) ?_; intro a a' ha
  refine Sm.bind (mul_array16_sm hb _ (by rfl)) ?_; intro b b' hb
  refine Sm.bind (fwd_ct_std2rev_sm _ _ _ hb) ?_; intro b b' hb
  refine Sm.bind (mul_array_sm hc _ ha hb) ?_; intro c c' hc
  refine Sm.bind (intt_gs_rev2std_sm _ _ _ hc) ?_; intro c c' hc
  refine Sm.bind (mul_array16_sm hc _ (by rfl)) ?_; intro c c' hc
  exact Sm.pure ⟨hc, ha, hb⟩

theorem product4_er (t : Tables.Nttables) (n : Nat) (c : Named Int) (a : Named Int) (b : Named Int) :
    Er D3 (product4 t n c a b) (_root_.Ntt.product4 t n c.data a.data b.data) := by
  unfold product4 _root_.Ntt.product4
  refine Er.bind (mul_array16_er _ _ _) ?_; rintro a _ rfl
  refine Er.bind (fwd_gs_std2rev_er _ _ _) ?_; rintro a _ rfl
  refine Er.bind (mul_array16_er _ _ _) ?_; rintro b _ rfl
  refine Er.bind (fwd_gs_std2rev_er _ _ _) ?_; rintro b _ rfl
  refine Er.bind (mul_array_er _ _ _ _) ?_; rintro c _ rfl
  refine Er.bind (intt_gs_rev2std_er _ _ _) ?_; rintro c _ rfl
  refine Er.bind (mul_array16_er _ _ _) ?_; rintro c _ rfl
  exact Er.pure ⟨rfl, rfl, rfl⟩

theorem product4_sm (t t' : Tables.Nttables) (n : Nat) {c c' : Named Int} (hc : N c c') {a a' : Named Int} (ha : N a a') {b b' : Named Int} (hb : N b b') :
    Sm N3 (product4 t n c a b) (product4 t' n c' a' b') := by
  unfold product4
  refine Sm.bind (mul_array16_sm ha _ (by rfl)) ?_; intro a a' ha
  refine Sm.bind (fwd_gs_std2rev_sm _ _ _ ha) ?_; intro a a' ha
  refine Sm.bind (mul_array16_sm hb _ (by rfl)) ?_; intro b b' hb
  refine Sm.bind (fwd_gs_std2rev_sm _ _ _ hb) ?_; intro b b' hb
  refine Sm.bind (mul_array_sm hc _ ha hb) ?_; intro c c' hc
  refine Sm.bind (intt_gs_rev2std_sm _ _ _ hc) ?_; intro c c' hc
  refine Sm.bind (mul_array16_sm hc _ (by rfl)) ?_; intro c c' hc
  exact Sm.pure ⟨hc, ha, hb⟩

theorem product5_er (t : Tables.Nttables) (n : Nat) (c : Named Int) (a : Named Int) (b : Named Int) :
    Er D3 (product5 t n c a b) (_root_.Ntt.product5 t n c.data a.data b.data) := by
  unfold product5 _root_.Ntt.product5
  refine Er.bind (fwdmul_ct_std2rev_er _ _ _) ?_; rintro a _ rfl
  refine Er.bind (fwdmul_ct_std2rev_er _ _ _) ?_; rintro b _ rfl
  refine Er.bind (mul_array_er _ _ _ _) ?_; rintro c _ rfl
  refine Er.bind (inttmul_gs_rev2std_er _ _ _) ?_; rintro c _ rfl
  refine Er.bind (scalar_mul_array_er _ _ _) ?_; rintro c _ rfl
  exact Er.pure ⟨rfl, rfl, rfl⟩

theorem product5_sm (t t' : Tables.Nttables) (n : Nat) {c c' : Named Int} (hc : N c c') {a a' : Named Int} (ha : N a a') {b b' : Named Int} (hb : N b b') :
    Sm N3 (product5 t n c a b) (product5 t' n c' a' b') := by
  unfold product5
  refine Sm.bind (fwdmul_ct_std2rev_sm _ _ _ ha) ?_; intro a a' ha
  refine Sm.bind (fwdmul_ct_std2rev_sm _ _ _ hb) ?_; intro b b' hb
  refine Sm.bind (mul_array_sm hc _ ha hb) ?_; intro c c' hc
  refine Sm.bind (inttmul_gs_rev2std_sm _ _ _ hc) ?_; intro c c' hc
  refine Sm.bind (scalar_mul_array_sm hc _ _ _) ?_; intro c c' hc
  exact Sm.pure ⟨hc, ha, hb⟩

end Ntt

namespace NttRed

theorem normalize_er (a : Named Int) (n : Nat) :
    Er D (normalize a n) (Release.normalize a.data n) := by
  unfold normalize Release.normalize
  refine Er.forUp rfl ?_
  rintro i a _ rfl
  refine Er.bind (Er.rd rfl _) ?_; rintro x _ rfl
  refine Er.bind (Er.lift _) ?_; rintro x _ rfl
  refine Er.bind (Er.ifLift _ _ _) ?_; rintro x _ rfl
  exact Er.wr rfl _ _

theorem normalize_inv3_er (a : Named Int) (n : Nat) :
    Er D (normalize_inv3 a n) (Release.normalize_inv3 a.data n) := by
  unfold normalize_inv3 Release.normalize_inv3
  refine Er.forUp rfl ?_
  rintro i a _ rfl
  refine Er.bind (Er.rd rfl _) ?_; rintro x _ rfl
  refine Er.bind (Er.lift _) ?_; rintro z _ rfl
  refine Er.bind (Er.lift _) ?_; rintro z _ rfl
  refine Er.bind (Er.ifLift _ _ _) ?_; rintro x _ rfl
  exact Er.wr rfl _ _

theorem shift_array_er (a : Named Int) (n : Nat) :
    Er D (shift_array a n) (_root_.NttRed.shift_array a.data n) := by
  unfold shift_array _root_.NttRed.shift_array
  refine Er.forUp rfl ?_
  rintro i a _ rfl
  refine Er.bind (Er.rd rfl _) ?_; rintro x _ rfl
  refine Er.bind (Er.ifLift _ _ _) ?_; rintro y _ rfl
  exact Er.wr rfl _ _

theorem reduce_array_er (a : Named Int) (n : Nat) :
    Er D (reduce_array a n) (_root_.NttRed.reduce_array a.data n) := by
  unfold reduce_array _root_.NttRed.reduce_array
  refine Er.forUp rfl ?_
  rintro i a _ rfl
  refine Er.bind (Er.rd rfl _) ?_; rintro x _ rfl
  generalize _root_.NttRed.red x = r
  refine Er.bind (Er.lift r) ?_; rintro y _ rfl
  exact Er.wr rfl _ _

theorem reduce_array_sm {a a' : Named Int} (ha : N a a') (n : Nat) :
    Sm N (reduce_array a n) (reduce_array a' n) := by
  unfold reduce_array
  refine Sm.forUp ha ?_
  intro i a a' ha
  refine Sm.bind (Sm.rd ha _) fun x x' _ => ?_
  refine Sm.bind (Sm.lift _ _) fun y y' _ => ?_
  exact Sm.wr ha _ _ _

theorem reduce_array_twice_er (a : Named Int) (n : Nat) :
    Er D (reduce_array_twice a n) (_root_.NttRed.reduce_array_twice a.data n) := by
  unfold reduce_array_twice _root_.NttRed.reduce_array_twice
  refine Er.forUp rfl ?_
  rintro i a _ rfl
  refine Er.bind (Er.rd rfl _) ?_; rintro x _ rfl
  generalize _root_.NttRed.red x = r
  refine Er.bind (Er.lift r) ?_; rintro y _ rfl
  generalize _root_.NttRed.red y = r
  refine Er.bind (Er.lift r) ?_; rintro y _ rfl
  exact Er.wr rfl _ _

theorem reduce_array_twice_sm {a a' : Named Int} (ha : N a a') (n : Nat) :
    Sm N (reduce_array_twice a n) (reduce_array_twice a' n) := by
  unfold reduce_array_twice
  refine Sm.forUp ha ?_
  intro i a a' ha
  refine Sm.bind (Sm.rd ha _) fun x x' _ => ?_
  refine Sm.bind (Sm.lift _ _) fun y y' _ => ?_
  refine Sm.bind (Sm.lift _ _) fun y y' _ => ?_
  exact Sm.wr ha _ _ _

theorem correct_er (a : Named Int) (n : Nat) :
    Er D (correct a n) (_root_.NttRed.correct a.data n) := by
  unfold correct _root_.NttRed.correct
  refine Er.forUp rfl ?_
  rintro i a _ rfl
  refine Er.bind (Er.rd rfl _) ?_; rintro x _ rfl
  refine Er.bind (Er.lift _) ?_; rintro x _ rfl
  refine Er.bind (Er.lift _) ?_; rintro x _ rfl
  refine Er.bind (Er.lift _) ?_; rintro x _ rfl
  exact Er.wr rfl _ _

theorem correct_sm {a a' : Named Int} (ha : N a a') (n : Nat) :
    Sm N (correct a n) (correct a' n) := by
  unfold correct
  refine Sm.forUp ha ?_
  intro i a a' ha
  refine Sm.bind (Sm.rd ha _) fun x x' _ => ?_
  refine Sm.bind (Sm.lift _ _) fun x x' _ => ?_
  refine Sm.bind (Sm.lift _ _) fun x x' _ => ?_
  refine Sm.bind (Sm.lift _ _) fun x x' _ => ?_
  exact Sm.wr ha _ _ _

theorem mul_reduce_array16_er (a : Named Int) (n : Nat) (p : Named Int) :
    Er D (mul_reduce_array16 a n p) (Release.mul_reduce_array16 a.data n p.data) := by
  unfold mul_reduce_array16 Release.mul_reduce_array16
  refine Er.forUp rfl ?_
  rintro i a _ rfl
  refine Er.bind (Er.rd rfl _) ?_; rintro x _ rfl
  refine Er.bind (Er.rd rfl _) ?_; rintro y _ rfl
  refine Er.bind (Er.lift _) ?_; rintro z _ rfl
  exact Er.wr rfl _ _

theorem mul_reduce_array16_sm {a a' : Named Int} (ha : N a a') (n : Nat) {p p' : Named Int} (hp : N p p') :
    Sm N (mul_reduce_array16 a n p) (mul_reduce_array16 a' n p') := by
  unfold mul_reduce_array16
  refine Sm.forUp ha ?_
  intro i a a' ha
  refine Sm.bind (Sm.rd ha _) fun x x' _ => ?_
  refine Sm.bind (Sm.rd hp _) fun y y' _ => ?_
  refine Sm.bind (Sm.lift _ _) fun z z' _ => ?_
  exact Sm.wr ha _ _ _

theorem mul_reduce_array_er (c : Named Int) (n : Nat) (a : Named Int) (b : Named Int) :
    Er D (mul_reduce_array c n a b) (Release.mul_reduce_array c.data n a.data b.data) := by
  unfold mul_reduce_array Release.mul_reduce_array
  refine Er.forUp rfl ?_
  rintro i c _ rfl
  refine Er.bind (Er.rd rfl _) ?_; rintro x _ rfl
  refine Er.bind (Er.rd rfl _) ?_; rintro y _ rfl
  refine Er.bind (Er.lift _) ?_; rintro z _ rfl
  exact Er.wr rfl _ _

theorem mul_reduce_array_sm {c c' : Named Int} (hc : N c c') (n : Nat) {a a' : Named Int} (ha : N a a') {b b' : Named Int} (hb : N b b') :
    Sm N (mul_reduce_array c n a b) (mul_reduce_array c' n a' b') := by
  unfold mul_reduce_array
  refine Sm.forUp hc ?_
  intro i c c' hc
  refine Sm.bind (Sm.rd ha _) fun x x' _ => ?_
  refine Sm.bind (Sm.rd hb _) fun y y' _ => ?_
  refine Sm.bind (Sm.lift _ _) fun z z' _ => ?_
  exact Sm.wr hc _ _ _

theorem scalar_mul_reduce_array_er (a : Named Int) (n : Nat) (c : Int) :
    Er D (scalar_mul_reduce_array a n c) (Release.scalar_mul_reduce_array a.data n c) := by
  unfold scalar_mul_reduce_array Release.scalar_mul_reduce_array
  refine Er.forUp rfl ?_
  rintro i a _ rfl
  refine Er.bind (Er.rd rfl _) ?_; rintro x _ rfl
  refine Er.bind (Er.lift _) ?_; rintro z _ rfl
  exact Er.wr rfl _ _

theorem scalar_mul_reduce_array_sm {a a' : Named Int} (ha : N a a') (n : Nat) (c c' : Int) :
    Sm N (scalar_mul_reduce_array a n c) (scalar_mul_reduce_array a' n c') := by
  unfold scalar_mul_reduce_array
  refine Sm.forUp ha ?_
  intro i a a' ha
  refine Sm.bind (Sm.rd ha _) fun x x' _ => ?_
  refine Sm.bind (Sm.lift _ _) fun z z' _ => ?_
  exact Sm.wr ha _ _ _

theorem bf0_er (s : Nat) (k : Nat) (a : Named Int) :
    Er D (bf0 s k a) (_root_.NttRed.bf0 s k a.data) := by
  unfold bf0 _root_.NttRed.bf0
  refine Er.bind (Er.rd rfl _) ?_; rintro x _ rfl
  refine Er.bind (Er.rd rfl _) ?_; rintro y _ rfl
  refine Er.bind (Er.lift _) ?_; rintro v _ rfl
  refine Er.bind (Er.wr rfl _ _) ?_; rintro a _ rfl
  refine Er.bind (Er.rd rfl _) ?_; rintro y _ rfl
  refine Er.bind (Er.lift _) ?_; rintro u _ rfl
  exact Er.wr rfl _ _

theorem bf0_sm (s : Nat) (k : Nat) {a a' : Named Int} (ha : N a a') :
    Sm N (bf0 s k a) (bf0 s k a') := by
  unfold bf0
  refine Sm.bind (Sm.rd ha _) fun x x' _ => ?_
  refine Sm.bind (Sm.rd ha _) fun y y' _ => ?_
  refine Sm.bind (Sm.lift _ _) fun v v' _ => ?_
  refine Sm.bind (Sm.wr ha _ _ _) fun a a' ha => ?_
  refine Sm.bind (Sm.rd ha _) fun y y' _ => ?_
  refine Sm.bind (Sm.lift _ _) fun u u' _ => ?_
  exact Sm.wr ha _ _ _

theorem ctBf_er (w : Int) (s : Nat) (k : Nat) (a : Named Int) :
    Er D (ctBf w s k a) (Release.ctBf w s k a.data) := by
  unfold ctBf Release.ctBf
  refine Er.bind (Er.rd rfl _) ?_; rintro z _ rfl
  refine Er.bind (Er.lift _) ?_; rintro x _ rfl
  refine Er.bind (Er.rd rfl _) ?_; rintro y _ rfl
  refine Er.bind (Er.lift _) ?_; rintro v _ rfl
  refine Er.bind (Er.wr rfl _ _) ?_; rintro a _ rfl
  refine Er.bind (Er.rd rfl _) ?_; rintro y _ rfl
  refine Er.bind (Er.lift _) ?_; rintro u _ rfl
  exact Er.wr rfl _ _

theorem ctBf_sm (w w' : Int) (s : Nat) (k : Nat) {a a' : Named Int} (ha : N a a') :
    Sm N (ctBf w s k a) (ctBf w' s k a') := by
  unfold ctBf
  refine Sm.bind (Sm.rd ha _) fun z z' _ => ?_
  refine Sm.bind (Sm.lift _ _) fun x x' _ => ?_
  refine Sm.bind (Sm.rd ha _) fun y y' _ => ?_
  refine Sm.bind (Sm.lift _ _) fun v v' _ => ?_
  refine Sm.bind (Sm.wr ha _ _ _) fun a a' ha => ?_
  refine Sm.bind (Sm.rd ha _) fun y y' _ => ?_
  refine Sm.bind (Sm.lift _ _) fun u u' _ => ?_
  exact Sm.wr ha _ _ _

theorem gsBf_er (w : Int) (s : Nat) (k : Nat) (a : Named Int) :
    Er D (gsBf w s k a) (Release.gsBf w s k a.data) := by
  unfold gsBf Release.gsBf
  refine Er.bind (Er.rd rfl _) ?_; rintro x _ rfl
  refine Er.bind (Er.rd rfl _) ?_; rintro y _ rfl
  refine Er.bind (Er.lift _) ?_; rintro d _ rfl
  refine Er.bind (Er.lift _) ?_; rintro v _ rfl
  refine Er.bind (Er.wr rfl _ _) ?_; rintro a _ rfl
  refine Er.bind (Er.rd rfl _) ?_; rintro y _ rfl
  refine Er.bind (Er.lift _) ?_; rintro u _ rfl
  exact Er.wr rfl _ _

theorem gsBf_sm (w w' : Int) (s : Nat) (k : Nat) {a a' : Named Int} (ha : N a a') :
    Sm N (gsBf w s k a) (gsBf w' s k a') := by
  unfold gsBf
  refine Sm.bind (Sm.rd ha _) fun x x' _ => ?_
  refine Sm.bind (Sm.rd ha _) fun y y' _ => ?_
  refine Sm.bind (Sm.lift _ _) fun d d' _ => ?_
  refine Sm.bind (Sm.lift _ _) fun v v' _ => ?_
  refine Sm.bind (Sm.wr ha _ _ _) fun a a' ha => ?_
  refine Sm.bind (Sm.rd ha _) fun y y' _ => ?_
  refine Sm.bind (Sm.lift _ _) fun u u' _ => ?_
  exact Sm.wr ha _ _ _

theorem ntt_red_ct_rev2std_er (a : Named Int) (n : Nat) (p : Named Int) :
    Er D (ntt_red_ct_rev2std a n p) (Release.ntt_red_ct_rev2std a.data n p.data) := by
  unfold ntt_red_ct_rev2std Release.ntt_red_ct_rev2std
  exact ctRev2std_er (by rintro s k A _ rfl; exact bf0_er s k A) (by rintro w s k A _ rfl; exact ctBf_er w s k A) n rfl rfl

theorem ntt_red_ct_rev2std_sm {a a' : Named Int} (ha : N a a') (n : Nat) {p p' : Named Int} (hp : N p p') :
    Sm N (ntt_red_ct_rev2std a n p) (ntt_red_ct_rev2std a' n p') := by
  unfold ntt_red_ct_rev2std
  exact ctRev2std_sm (fun s k _ _ h => bf0_sm s k h) (fun w w' s k _ _ h => ctBf_sm w w' s k h) n hp ha

theorem mulntt_red_ct_rev2std_er (a : Named Int) (n : Nat) (p : Named Int) :
    Er D (mulntt_red_ct_rev2std a n p) (Release.mulntt_red_ct_rev2std a.data n p.data) := by
  unfold mulntt_red_ct_rev2std Release.mulntt_red_ct_rev2std
  exact mulCtRev2std_er (by rintro w s k A _ rfl; exact ctBf_er w s k A) n rfl rfl

theorem mulntt_red_ct_rev2std_sm {a a' : Named Int} (ha : N a a') (n : Nat) {p p' : Named Int} (hp : N p p') :
    Sm N (mulntt_red_ct_rev2std a n p) (mulntt_red_ct_rev2std a' n p') := by
  unfold mulntt_red_ct_rev2std
  exact mulCtRev2std_sm (fun w w' s k _ _ h => ctBf_sm w w' s k h) n hp ha

theorem ntt_red_ct_std2rev_er (a : Named Int) (n : Nat) (p : Named Int) :
    Er D (ntt_red_ct_std2rev a n p) (Release.ntt_red_ct_std2rev a.data n p.data) := by
  unfold ntt_red_ct_std2rev Release.ntt_red_ct_std2rev
  exact ctStd2rev_er (by rintro s k A _ rfl; exact bf0_er s k A) (by rintro w s k A _ rfl; exact ctBf_er w s k A) n rfl rfl

theorem ntt_red_ct_std2rev_sm {a a' : Named Int} (ha : N a a') (n : Nat) {p p' : Named Int} (hp : N p p') :
    Sm N (ntt_red_ct_std2rev a n p) (ntt_red_ct_std2rev a' n p') := by
  unfold ntt_red_ct_std2rev
  exact ctStd2rev_sm (fun s k _ _ h => bf0_sm s k h) (fun w w' s k _ _ h => ctBf_sm w w' s k h) n hp ha

theorem mulntt_red_ct_std2rev_er (a : Named Int) (n : Nat) (p : Named Int) :
    Er D (mulntt_red_ct_std2rev a n p) (Release.mulntt_red_ct_std2rev a.data n p.data) := by
  unfold mulntt_red_ct_std2rev Release.mulntt_red_ct_std2rev
  exact mulCtStd2rev_er (by rintro w s k A _ rfl; exact ctBf_er w s k A) n rfl rfl

theorem mulntt_red_ct_std2rev_sm {a a' : Named Int} (ha : N a a') (n : Nat) {p p' : Named Int} (hp : N p p') :
    Sm N (mulntt_red_ct_std2rev a n p) (mulntt_red_ct_std2rev a' n p') := by
  unfold mulntt_red_ct_std2rev
  exact mulCtStd2rev_sm (fun w w' s k _ _ h => ctBf_sm w w' s k h) n hp ha

theorem ntt_red_gs_rev2std_er (a : Named Int) (n : Nat) (p : Named Int) :
    Er D (ntt_red_gs_rev2std a n p) (Release.ntt_red_gs_rev2std a.data n p.data) := by
  unfold ntt_red_gs_rev2std Release.ntt_red_gs_rev2std
  exact gsRev2std_er (by rintro s k A _ rfl; exact bf0_er s k A) (by rintro w s k A _ rfl; exact gsBf_er w s k A) n rfl rfl

theorem ntt_red_gs_rev2std_sm {a a' : Named Int} (ha : N a a') (n : Nat) {p p' : Named Int} (hp : N p p') :
    Sm N (ntt_red_gs_rev2std a n p) (ntt_red_gs_rev2std a' n p') := by
  unfold ntt_red_gs_rev2std
  exact gsRev2std_sm (fun s k _ _ h => bf0_sm s k h) (fun w w' s k _ _ h => gsBf_sm w w' s k h) n hp ha

theorem nttmul_red_gs_rev2std_er (a : Named Int) (n : Nat) (p : Named Int) :
    Er D (nttmul_red_gs_rev2std a n p) (Release.nttmul_red_gs_rev2std a.data n p.data) := by
  unfold nttmul_red_gs_rev2std Release.nttmul_red_gs_rev2std
  exact gsMulRev2std_er (by rintro w s k A _ rfl; exact gsBf_er w s k A) n rfl rfl

theorem nttmul_red_gs_rev2std_sm {a a' : Named Int} (ha : N a a') (n : Nat) {p p' : Named Int} (hp : N p p') :
    Sm N (nttmul_red_gs_rev2std a n p) (nttmul_red_gs_rev2std a' n p') := by
  unfold nttmul_red_gs_rev2std
  exact gsMulRev2std_sm (fun w w' s k _ _ h => gsBf_sm w w' s k h) n hp ha

theorem ntt_red_gs_std2rev_er (a : Named Int) (n : Nat) (p : Named Int) :
    Er D (ntt_red_gs_std2rev a n p) (Release.ntt_red_gs_std2rev a.data n p.data) := by
  unfold ntt_red_gs_std2rev Release.ntt_red_gs_std2rev
  exact gsStd2rev_er (by rintro s k A _ rfl; exact bf0_er s k A) (by rintro w s k A _ rfl; exact gsBf_er w s k A) n rfl rfl

theorem ntt_red_gs_std2rev_sm {a a' : Named Int} (ha : N a a') (n : Nat) {p p' : Named Int} (hp : N p p') :
    Sm N (ntt_red_gs_std2rev a n p) (ntt_red_gs_std2rev a' n p') := by
  unfold ntt_red_gs_std2rev
  exact gsStd2rev_sm (fun s k _ _ h => bf0_sm s k h) (fun w w' s k _ _ h => gsBf_sm w w' s k h) n hp ha

theorem nttmul_red_gs_std2rev_er (a : Named Int) (n : Nat) (p : Named Int) :
    Er D (nttmul_red_gs_std2rev a n p) (Release.nttmul_red_gs_std2rev a.data n p.data) := by
  unfold nttmul_red_gs_std2rev Release.nttmul_red_gs_std2rev
  exact gsMulStd2rev_er (by rintro w s k A _ rfl; exact gsBf_er w s k A) n rfl rfl

theorem nttmul_red_gs_std2rev_sm {a a' : Named Int} (ha : N a a') (n : Nat) {p p' : Named Int} (hp : N p p') :
    Sm N (nttmul_red_gs_std2rev a n p) (nttmul_red_gs_std2rev a' n p') := by
  unfold nttmul_red_gs_std2rev
  exact gsMulStd2rev_sm (fun w w' s k _ _ h => gsBf_sm w w' s k h) n hp ha

theorem fwd_ct_rev2std_er (t : Tables.RedTables) (n : Nat) (a : Named Int) :
    Er D (fwd_ct_rev2std t n a) (Release.fwd_ct_rev2std t n a.data) := by
  unfold fwd_ct_rev2std Release.fwd_ct_rev2std
  exact ntt_red_ct_rev2std_er a n ⟨"omega_powers", t.omega_powers⟩

theorem fwd_ct_rev2std_sm (t t' : Tables.RedTables) (n : Nat) {a a' : Named Int} (ha : N a a') :
    Sm N (fwd_ct_rev2std t n a) (fwd_ct_rev2std t' n a') := by
  unfold fwd_ct_rev2std
  exact ntt_red_ct_rev2std_sm ha n (by rfl)

theorem fwd_gs_rev2std_er (t : Tables.RedTables) (n : Nat) (a : Named Int) :
    Er D (fwd_gs_rev2std t n a) (Release.fwd_gs_rev2std t n a.data) := by
  unfold fwd_gs_rev2std Release.fwd_gs_rev2std
  exact ntt_red_gs_rev2std_er a n ⟨"omega_powers_rev", t.omega_powers_rev⟩

theorem fwd_gs_rev2std_sm (t t' : Tables.RedTables) (n : Nat) {a a' : Named Int} (ha : N a a') :
    Sm N (fwd_gs_rev2std t n a) (fwd_gs_rev2std t' n a') := by
  unfold fwd_gs_rev2std
  exact ntt_red_gs_rev2std_sm ha n (by rfl)

theorem fwd_ct_std2rev_er (t : Tables.RedTables) (n : Nat) (a : Named Int) :
    Er D (fwd_ct_std2rev t n a) (Release.fwd_ct_std2rev t n a.data) := by
  unfold fwd_ct_std2rev Release.fwd_ct_std2rev
  exact ntt_red_ct_std2rev_er a n ⟨"omega_powers_rev", t.omega_powers_rev⟩

theorem fwd_ct_std2rev_sm (t t' : Tables.RedTables) (n : Nat) {a a' : Named Int} (ha : N a a') :
    Sm N (fwd_ct_std2rev t n a) (fwd_ct_std2rev t' n a') := by
  unfold fwd_ct_std2rev
  exact ntt_red_ct_std2rev_sm ha n (by rfl)

theorem fwd_gs_std2rev_er (t : Tables.RedTables) (n : Nat) (a : Named Int) :
    Er D (fwd_gs_std2rev t n a) (Release.fwd_gs_std2rev t n a.data) := by
  unfold fwd_gs_std2rev Release.fwd_gs_std2rev
  exact ntt_red_gs_std2rev_er a n ⟨"omega_powers", t.omega_powers⟩

theorem fwd_gs_std2rev_sm (t t' : Tables.RedTables) (n : Nat) {a a' : Named Int} (ha : N a a') :
    Sm N (fwd_gs_std2rev t n a) (fwd_gs_std2rev t' n a') := by
  unfold fwd_gs_std2rev
  exact ntt_red_gs_std2rev_sm ha n (by rfl)

theorem intt_ct_rev2std_er (t : Tables.RedTables) (n : Nat) (a : Named Int) :
    Er D (intt_ct_rev2std t n a) (Release.intt_ct_rev2std t n a.data) := by
  unfold intt_ct_rev2std Release.intt_ct_rev2std
  exact ntt_red_ct_rev2std_er a n ⟨"inv_omega_powers", t.inv_omega_powers⟩

theorem intt_ct_rev2std_sm (t t' : Tables.RedTables) (n : Nat) {a a' : Named Int} (ha : N a a') :
    Sm N (intt_ct_rev2std t n a) (intt_ct_rev2std t' n a') := by
  unfold intt_ct_rev2std
  exact ntt_red_ct_rev2std_sm ha n (by rfl)

theorem intt_gs_rev2std_er (t : Tables.RedTables) (n : Nat) (a : Named Int) :
    Er D (intt_gs_rev2std t n a) (Release.intt_gs_rev2std t n a.data) := by
  unfold intt_gs_rev2std Release.intt_gs_rev2std
  exact ntt_red_gs_rev2std_er a n ⟨"inv_omega_powers_rev", t.inv_omega_powers_rev⟩

theorem intt_gs_rev2std_sm (t t' : Tables.RedTables) (n : Nat) {a a' : Named Int} (ha : N a a') :
    Sm N (intt_gs_rev2std t n a) (intt_gs_rev2std t' n a') := by
  unfold intt_gs_rev2std
  exact ntt_red_gs_rev2std_sm ha n (by rfl)

theorem intt_ct_std2rev_er (t : Tables.RedTables) (n : Nat) (a : Named Int) :
    Er D (intt_ct_std2rev t n a) (Release.intt_ct_std2rev t n a.data) := by
  unfold intt_ct_std2rev Release.intt_ct_std2rev
  exact ntt_red_ct_std2rev_er a n ⟨"inv_omega_powers_rev", t.inv_omega_powers_rev⟩

theorem intt_ct_std2rev_sm (t t' : Tables.RedTables) (n : Nat) {a a' : Named Int} (ha : N a a') :
    Sm N (intt_ct_std2rev t n a) (intt_ct_std2rev t' n a') := by
  unfold intt_ct_std2rev
  exact ntt_red_ct_std2rev_sm ha n (by rfl)

theorem intt_gs_std2rev_er (t : Tables.RedTables) (n : Nat) (a : Named Int) :
    Er D (intt_gs_std2rev t n a) (Release.intt_gs_std2rev t n a.data) := by
  unfold intt_gs_std2rev Release.intt_gs_std2rev
  exact ntt_red_gs_std2rev_er a n ⟨"inv_omega_powers", t.inv_omega_powers⟩

theorem intt_gs_std2rev_sm (t t' : Tables.RedTables) (n : Nat) {a a' : Named Int} (ha : N a a') :
    Sm N (intt_gs_std2rev t n a) (intt_gs_std2rev t' n a') := by
  unfold intt_gs_std2rev
  exact ntt_red_gs_std2rev_sm ha n (by rfl)

theorem fwdmul_ct_rev2std_er (t : Tables.RedTables) (n : Nat) (a : Named Int) :
    Er D (fwdmul_ct_rev2std t n a) (Release.fwdmul_ct_rev2std t n a.data) := by
  unfold fwdmul_ct_rev2std Release.fwdmul_ct_rev2std
  exact mulntt_red_ct_rev2std_er a n ⟨"mixed_powers", t.mixed_powers⟩

theorem fwdmul_ct_rev2std_sm (t t' : Tables.RedTables) (n : Nat) {a a' : Named Int} (ha : N a a') :
    Sm N (fwdmul_ct_rev2std t n a) (fwdmul_ct_rev2std t' n a') := by
  unfold fwdmul_ct_rev2std
  exact mulntt_red_ct_rev2std_sm ha n (by rfl)

theorem fwdmul_ct_std2rev_er (t : Tables.RedTables) (n : Nat) (a : Named Int) :
    Er D (fwdmul_ct_std2rev t n a) (Release.fwdmul_ct_std2rev t n a.data) := by
  unfold fwdmul_ct_std2rev Release.fwdmul_ct_std2rev
  exact mulntt_red_ct_std2rev_er a n ⟨"mixed_powers_rev", t.mixed_powers_rev⟩

theorem fwdmul_ct_std2rev_sm (t t' : Tables.RedTables) (n : Nat) {a a' : Named Int} (ha : N a a') :
    Sm N (fwdmul_ct_std2rev t n a) (fwdmul_ct_std2rev t' n a') := by
  unfold fwdmul_ct_std2rev
  exact mulntt_red_ct_std2rev_sm ha n (by rfl)

theorem inttmul_gs_rev2std_er (t : Tables.RedTables) (n : Nat) (a : Named Int) :
    Er D (inttmul_gs_rev2std t n a) (Release.inttmul_gs_rev2std t n a.data) := by
  unfold inttmul_gs_rev2std Release.inttmul_gs_rev2std
  exact nttmul_red_gs_rev2std_er a n ⟨"inv_mixed_powers_rev", t.inv_mixed_powers_rev⟩

theorem inttmul_gs_rev2std_sm (t t' : Tables.RedTables) (n : Nat) {a a' : Named Int} (ha : N a a') :
    Sm N (inttmul_gs_rev2std t n a) (inttmul_gs_rev2std t' n a') := by
  unfold inttmul_gs_rev2std
  exact nttmul_red_gs_rev2std_sm ha n (by rfl)

theorem inttmul_gs_std2rev_er (t : Tables.RedTables) (n : Nat) (a : Named Int) :
    Er D (inttmul_gs_std2rev t n a) (Release.inttmul_gs_std2rev t n a.data) := by
  unfold inttmul_gs_std2rev Release.inttmul_gs_std2rev
  exact nttmul_red_gs_std2rev_er a n ⟨"inv_mixed_powers", t.inv_mixed_powers⟩

theorem inttmul_gs_std2rev_sm (t t' : Tables.RedTables) (n : Nat) {a a' : Named Int} (ha : N a a') :
    Sm N (inttmul_gs_std2rev t n a) (inttmul_gs_std2rev t' n a') := by
  unfold inttmul_gs_std2rev
  exact nttmul_red_gs_std2rev_sm ha n (by rfl)

theorem shiftInput_er (n : Nat) (sh : Bool) (a : Named Int) :
    Er D (shiftInput n sh a) (_root_.NttRed.shiftInput n sh a.data) := by
  unfold shiftInput _root_.NttRed.shiftInput
  exact Er.ite (shift_array_er _ _) (Er.pure rfl)

/-- The outcomes of the tests of `shift_array` are the same. -/
def Above (n : Nat) (a a' : Array Int) : Prop := ∀ i < n, (6144 < a.getD i 0 ↔ 6144 < a'.getD i 0)

theorem shift_array_sx {n : Nat} (hn : n < 4294967296) {a a' : Named Int} (ha : N a a') :
    Sx (Above n a.data a'.data) N (shift_array a n) (shift_array a' n) :=
  Sx.elementwise (c := fun x => 6144 < x) hn ha fun i A A' h => by
    refine Sx.bindSm (Sm.rdVal h i) ?_
    rintro x x' ⟨rfl, rfl⟩
    refine (Sx.bind (Sx.tif (Sm.lift _ _) (Sm.lift _ (Pure.pure _)) (Sm.lift (Pure.pure _) _) (Sm.pure trivial))
      fun y y' _ => Sx.ofSm (Sm.wrAt h i y y')).iff (by simp)

theorem tmod_neg (x : Int) : x.tmod 12289 < 0 ↔ x < 0 ∧ ¬ (12289 : Int) ∣ x := by
  rw [Int.tmod_eq_emod]
  split <;> omega

theorem crem_val {x y : Int} (h : crem x 12289 = .ok y) : y = x.tmod 12289 := by
  unfold crem at h
  rw [if_neg (by decide)] at h
  injection h with h
  exact h.symm

/-- The outcomes of the tests of `normalize` and `normalize_inv3` are the same. -/
def Negative (n : Nat) (a a' : Array Int) : Prop :=
  ∀ i < n, ((a.getD i 0 < 0 ∧ ¬ (12289 : Int) ∣ a.getD i 0) ↔ (a'.getD i 0 < 0 ∧ ¬ (12289 : Int) ∣ a'.getD i 0))

theorem normalize_sx {n : Nat} (hn : n < 4294967296) {a a' : Named Int} (ha : N a a') :
    Sx (Negative n a.data a'.data) N (normalize a n) (normalize a' n) :=
  Sx.elementwise (c := fun x => x < 0 ∧ ¬ (12289 : Int) ∣ x) hn ha fun i A A' h => by
    refine Sx.bindSm (Sm.rdVal h i) ?_
    rintro x x' ⟨rfl, rfl⟩
    refine Sx.bindSm (Sm.liftVal _ _) ?_
    rintro y y' ⟨e, e'⟩
    refine (Sx.bind (Sx.tif (Sm.lift _ _) (Sm.lift _ (Pure.pure _)) (Sm.lift (Pure.pure _) _) (Sm.pure trivial))
      fun z z' _ => Sx.ofSm (Sm.wrAt h i z z')).iff ?_
    rw [crem_val e, crem_val e', tmod_neg, tmod_neg, and_true]

theorem inv3_neg {x y z : Int} (h : i64 (x * 8193) = .ok y) (h' : crem y 12289 = .ok z) :
    toI32 z < 0 ↔ x < 0 ∧ ¬ (12289 : Int) ∣ x := by
  have e : y = x * 8193 := by
    unfold i64 at h
    split at h
    · injection h with h
      exact h.symm
    · cases h
  have e' := crem_val h'
  have b : -12289 < z ∧ z < 12289 := by
    rw [e']
    exact ⟨by have := Int.lt_tmod_of_pos y (show (0 : Int) < 12289 by decide); omega, Int.tmod_lt_of_pos _ (by decide)⟩
  have t : toI32 z = z := by unfold toI32; omega
  rw [t, e', tmod_neg, e]
  omega

theorem normalize_inv3_sx {n : Nat} (hn : n < 4294967296) {a a' : Named Int} (ha : N a a') :
    Sx (Negative n a.data a'.data) N (normalize_inv3 a n) (normalize_inv3 a' n) :=
  Sx.elementwise (c := fun x => x < 0 ∧ ¬ (12289 : Int) ∣ x) hn ha fun i A A' h => by
    refine Sx.bindSm (Sm.rdVal h i) ?_
    rintro x x' ⟨rfl, rfl⟩
    refine Sx.bindSm (Sm.liftVal _ _) ?_
    rintro y y' ⟨e, e'⟩
    refine Sx.bindSm (Sm.liftVal _ _) ?_
    rintro z z' ⟨f, f'⟩
    refine (Sx.bind (Sx.tif (Sm.lift _ _) (Sm.lift _ (Pure.pure _)) (Sm.lift (Pure.pure _) _) (Sm.pure trivial))
      fun z z' _ => Sx.ofSm (Sm.wrAt h i z z')).iff ?_
    rw [inv3_neg e f, inv3_neg e' f', and_true]

theorem shiftInput_sx {n : Nat} (hn : n < 4294967296) (sh : Bool) {a a' : Named Int} (ha : N a a') :
    Sx (sh = true → Above n a.data a'.data) N (shiftInput n sh a) (shiftInput n sh a') := by
  unfold shiftInput
  cases sh
  · exact (Sx.ofSm (Sm.pure ha)).iff (by simp)
  · exact (shift_array_sx hn ha).iff (by simp)

theorem product1_er (t : Tables.RedTables) (n : Nat) (sh : Bool) (c : Named Int) (a : Named Int) (b : Named Int) :
    Er D3 (product1 t n sh c a b) (Release.product1 t n sh c.data a.data b.data) := by
  unfold product1 Release.product1
  refine Er.bind (shiftInput_er _ _ _) ?_; rintro a _ rfl
  refine Er.bind (mul_reduce_array16_er _ _ _) ?_; rintro a _ rfl
  refine Er.bind (fwd_ct_std2rev_er _ _ _) ?_; rintro a _ rfl
  refine Er.bind (reduce_array_er _ _) ?_; rintro a _ rfl
  refine Er.bind (shiftInput_er _ _ _) ?_; rintro b _ rfl
  refine Er.bind (mul_reduce_array16_er _ _ _) ?_; rintro b _ rfl
  refine Er.bind (fwd_ct_std2rev_er _ _ _) ?_; rintro b _ rfl
  refine Er.bind (reduce_array_er _ _) ?_; rintro b _ rfl
  refine Er.bind (mul_reduce_array_er _ _ _ _) ?_; rintro c _ rfl
  refine Er.bind (reduce_array_twice_er _ _) ?_; rintro c _ rfl
  refine Er.bind (intt_ct_rev2std_er _ _ _) ?_; rintro c _ rfl
  refine Er.bind (mul_reduce_array16_er _ _ _) ?_; rintro c _ rfl
  refine Er.bind (reduce_array_twice_er _ _) ?_; rintro c _ rfl
  refine Er.bind (correct_er _ _) ?_; rintro c _ rfl
  exact Er.pure ⟨rfl, rfl, rfl⟩

theorem product1_sx (t t' : Tables.RedTables) {n : Nat} (hn : n < 4294967296) (sh : Bool) {c c' : Named Int} (hc : N c c') {a a' : Named Int} (ha : N a a') {b b' : Named Int} (hb : N b b') :
    Sx ((sh = true → Above n a.data a'.data) ∧ (sh = true → Above n b.data b'.data) ∧ True) N3 (product1 t n sh c a b) (product1 t' n sh c' a' b') := by
  unfold product1
  refine Sx.bind (shiftInput_sx hn _ ha) ?_; intro a a' ha
  refine Sx.bindSm (mul_reduce_array16_sm ha _ (by rfl)) ?_; intro a a' ha
  refine Sx.bindSm (fwd_ct_std2rev_sm _ _ _ ha) ?_; intro a a' ha
  refine Sx.bindSm (reduce_array_sm ha _) ?_; intro a a' ha
  refine Sx.bind (shiftInput_sx hn _ hb) ?_; intro b b' hb
  refine Sx.bindSm (mul_reduce_array16_sm hb _ (by rfl)) ?_; intro b b' hb
  refine Sx.bindSm (fwd_ct_std2rev_sm _ _ _ hb) ?_; intro b b' hb
  refine Sx.bindSm (reduce_array_sm hb _) ?_; intro b b' hb
  refine Sx.bindSm (mul_reduce_array_sm hc _ ha hb) ?_; intro c c' hc
  refine Sx.bindSm (reduce_array_twice_sm hc _) ?_; intro c c' hc
  refine Sx.bindSm (intt_ct_rev2std_sm _ _ _ hc) ?_; intro c c' hc
  refine Sx.bindSm (mul_reduce_array16_sm hc _ (by rfl)) ?_; intro c c' hc
  refine Sx.bindSm (reduce_array_twice_sm hc _) ?_; intro c c' hc
  refine Sx.bindSm (correct_sm hc _) ?_; intro c c' hc
  exact Sx.ofSm (Sm.pure ⟨hc, ha, hb⟩)

theorem product2_er (t : Tables.RedTables) (n : Nat) (sh : Bool) (c : Named Int) (a : Named Int) (b : Named Int) :
    Er D3 (product2 t n sh c a b) (Release.product2 t n sh c.data a.data b.data) := by
  unfold product2 Release.product2
  refine Er.bind (shiftInput_er _ _ _) ?_; rintro a _ rfl
  refine Er.bind (mul_reduce_array16_er _ _ _) ?_; rintro a _ rfl
  refine Er.bind (fwd_gs_std2rev_er _ _ _) ?_; rintro a _ rfl
  refine Er.bind (reduce_array_er _ _) ?_; rintro a _ rfl
  refine Er.bind (shiftInput_er _ _ _) ?_; rintro b _ rfl
  refine Er.bind (mul_reduce_array16_er _ _ _) ?_; rintro b _ rfl
  refine Er.bind (fwd_gs_std2rev_er _ _ _) ?_; rintro b _ rfl
  refine Er.bind (reduce_array_er _ _) ?_; rintro b _ rfl
  refine Er.bind (mul_reduce_array_er _ _ _ _) ?_; rintro c _ rfl
  refine Er.bind (reduce_array_twice_er _ _) ?_; rintro c _ rfl
  refine Er.bind (intt_ct_rev2std_er _ _ _) ?_; rintro c _ rfl
  refine Er.bind (mul_reduce_array16_er _ _ _) ?_; rintro c _ rfl
  refine Er.bind (reduce_array_twice_er _ _) ?_; rintro c _ rfl
  refine Er.bind (correct_er _ _) ?_; rintro c _ rfl
  exact Er.pure ⟨rfl, rfl, rfl⟩

theorem product2_sx (t t' : Tables.RedTables) {n : Nat} (hn : n < 4294967296) (sh : Bool) {c c' : Named Int} (hc : N c c') {a a' : Named Int} (ha : N a a') {b b' : Named Int} (hb : N b b') :
    Sx ((sh = true → Above n a.data a'.data) ∧ (sh = true → Above n b.data b'.data) ∧ True) N3 (product2 t n sh c a b) (product2 t' n sh c' a' b') := by
  unfold product2
  refine Sx.bind (shiftInput_sx hn _ ha) ?_; intro a a' ha
  refine Sx.bindSm (mul_reduce_array16_sm ha _ (by rfl)) ?_; intro a a' ha
  refine Sx.bindSm (fwd_gs_std2rev_sm _ _ _ ha) ?_; intro a a' ha
  refine Sx.bindSm (reduce_array_sm ha _) ?_; intro a a' ha
  refine Sx.bind (shiftInput_sx hn _ hb) ?_; intro b b' hb
  refine Sx.bindSm (mul_reduce_array16_sm hb _ (by rfl)) ?_; intro b b' hb
  refine Sx.bindSm (fwd_gs_std2rev_sm _ _ _ hb) ?_; intro b b' hb
  refine Sx.bindSm (reduce_array_sm hb _) ?_; intro b b' hb
  refine Sx.bindSm (mul_reduce_array_sm hc _ ha hb) ?_; intro c c' hc
  refine Sx.bindSm (reduce_array_twice_sm hc _) ?_; intro c c' hc
  refine Sx.bindSm (intt_ct_rev2std_sm _ _ _ hc) ?_; intro c c' hc
  refine Sx.bindSm (mul_reduce_array16_sm hc _ (by rfl)) ?_; intro c c' hc
  refine Sx.bindSm (reduce_array_twice_sm hc _) ?_; intro c c' hc
  refine Sx.bindSm (correct_sm hc _) ?_; intro c c' hc
  exact Sx.ofSm (Sm.pure ⟨hc, ha, hb⟩)

theorem product3_er (t : Tables.RedTables) (n : Nat) (sh : Bool) (c : Named Int) (a : Named Int) (b : Named Int) :
    Er D3 (product3 t n sh c a b) (Release.product3 t n sh c.data a.data b.data) := by
  unfold product3 Release.product3
  refine Er.bind (shiftInput_er _ _ _) ?_; rintro a _ rfl
  refine Er.bind (mul_reduce_array16_er _ _ _) ?_; rintro a _ rfl
  refine Er.bind (fwd_ct_std2rev_er _ _ _) ?_; rintro a _ rfl
  refine Er.bind (reduce_array_er _ _) ?_; rintro a _ rfl
  refine Er.bind (shiftInput_er _ _ _) ?_; rintro b _ rfl
  refine Er.bind (mul_reduce_array16_er _ _ _) ?_; rintro b _ rfl
  refine Er.bind (fwd_ct_std2rev_er _ _ _) ?_; rintro b _ rfl
  refine Er.bind (reduce_array_er _ _) ?_; rintro b _ rfl
  refine Er.bind (mul_reduce_array_er _ _ _ _) ?_; rintro c _ rfl
  refine Er.bind (reduce_array_twice_er _ _) ?_; rintro c _ rfl
  refine Er.bind (intt_gs_rev2std_er _ _ _) ?_; rintro c _ rfl
  refine Er.bind (mul_reduce_array16_er _ _ _) ?_; rintro c _ rfl
  refine Er.bind (reduce_array_twice_er _ _) ?_; rintro c _ rfl
  refine Er.bind (correct_er _ _) ?_; rintro c _ rfl
  exact Er.pure ⟨rfl, rfl, rfl⟩

theorem product3_sx (t t' : Tables.RedTables) {n : Nat} (hn : n < 4294967296) (sh : Bool) {c c' : Named Int} (hc : N c c') {a a' : Named Int} (ha : N a a') {b b' : Named Int} (hb : N b b') :
    Sx ((sh = true → Above n a.data a'.data) ∧ (sh = true → Above n b.data b'.data) ∧ True) N3 (product3 t n sh c a b) (product3 t' n sh c' a' b') := by
  unfold product3
  refine Sx.bind (shiftInput_sx hn _ ha) ?_; intro a a' ha
  refine Sx.bindSm (mul_reduce_array16_sm ha _ (by rfl)) ?_; intro a a' ha
  refine Sx.bindSm (fwd_ct_std2rev_sm _ _ _ ha) ?_; intro a a' ha
  refine Sx.bindSm (reduce_array_sm ha _) ?_; intro a a' ha
  refine Sx.bind (shiftInput_sx hn _ hb) ?_; intro b b' hb
  refine Sx.bindSm (mul_reduce_array16_sm hb _ (by rfl)) ?_; intro b b' hb
  refine Sx.bindSm (fwd_ct_std2rev_sm _ _ _ hb) ?_; intro b b' hb
  refine Sx.bindSm (reduce_array_sm hb _) ?_; intro b b' hb
  refine Sx.bindSm (mul_reduce_array_sm hc _ ha hb) ?_; intro c c' hc
  refine Sx.bindSm (reduce_array_twice_sm hc _) ?_; intro c c' hc
  refine Sx.bindSm (intt_gs_rev2std_sm _ _ _ hc) ?_; intro c c' hc
  refine Sx.bindSm (mul_reduce_array16_sm hc _ (by rfl)) ?_; intro c c' hc
  refine Sx.bindSm (reduce_array_twice_sm hc _) ?_; intro c c' hc
  refine Sx.bindSm (correct_sm hc _) ?_; intro c c' hc
  exact Sx.ofSm (Sm.pure ⟨hc, ha, hb⟩)

theorem product4_er (t : Tables.RedTables) (n : Nat) (sh : Bool) (c : Named Int) (a : Named Int) (b : Named Int) :
    Er D3 (product4 t n sh c a b) (Release.product4 t n sh c.data a.data b.data) := by
  unfold product4 Release.product4
  refine Er.bind (shiftInput_er _ _ _) ?_; rintro a _ rfl
  refine Er.bind (mul_reduce_array16_er _ _ _) ?_; rintro a _ rfl
  refine Er.bind (fwd_gs_std2rev_er _ _ _) ?_; rintro a _ rfl
  refine Er.bind (reduce_array_er _ _) ?_; rintro a _ rfl
  refine Er.bind (shiftInput_er _ _ _) ?_; rintro b _ rfl
  refine Er.bind (mul_reduce_array16_er _ _ _) ?_; rintro b _ rfl
  refine Er.bind (fwd_gs_std2rev_er _ _ _) ?_; rintro b _ rfl
  refine Er.bind (reduce_array_er _ _) ?_; rintro b _ rfl
  refine Er.bind (mul_reduce_array_er _ _ _ _) ?_; rintro c _ rfl
  refine Er.bind (reduce_array_twice_er _ _) ?_; rintro c _ rfl
  refine Er.bind (intt_gs_rev2std_er _ _ _) ?_; rintro c _ rfl
  refine Er.bind (mul_reduce_array16_er _ _ _) ?_; rintro c _ rfl
  refine Er.bind (reduce_array_twice_er _ _) ?_; rintro c _ rfl
  refine Er.bind (correct_er _ _) ?_; rintro c _ rfl
  exact Er.pure ⟨rfl, rfl, rfl⟩

theorem product4_sx (t t' : Tables.RedTables) {n : Nat} (hn : n < 4294967296) (sh : Bool) {c c' : Named Int} (hc : N c c') {a a' : Named Int} (ha : N a a') {b b' : Named Int} (hb : N b b') :
    Sx ((sh = true → Above n a.data a'.data) ∧ (sh = true → Above n b.data b'.data) ∧ True) N3 (product4 t n sh c a b) (product4 t' n sh c' a' b') := by
  unfold product4
  refine Sx.bind (shiftInput_sx hn _ ha) ?_; intro a a' ha
  refine Sx.bindSm (mul_reduce_array16_sm ha _ (by rfl)) ?_; intro a a' ha
  refine Sx.bindSm (fwd_gs_std2rev_sm _ _ _ ha) ?_; intro a a' ha
  refine Sx.bindSm (reduce_array_sm ha _) ?_; intro a a' ha
  refine Sx.bind (shiftInput_sx hn _ hb) ?_; intro b b' hb
  refine Sx.bindSm (mul_reduce_array16_sm hb _ (by rfl)) ?_; intro b b' hb
  refine Sx.bindSm (fwd_gs_std2rev_sm _ _ _ hb) ?_; intro b b' hb
  refine Sx.bindSm (reduce_array_sm hb _) ?_; intro b b' hb
  refine Sx.bindSm (mul_reduce_array_sm hc _ ha hb) ?_; intro c c' hc
  refine Sx.bindSm (reduce_array_twice_sm hc _) ?_; intro c c' hc
  refine Sx.bindSm (intt_gs_rev2std_sm _ _ _ hc) ?_; intro c c' hc
  refine Sx.bindSm (mul_reduce_array16_sm hc _ (by rfl)) ?_; intro c c' hc
  refine Sx.bindSm (reduce_array_twice_sm hc _) ?_; intro c c' hc
  refine Sx.bindSm (correct_sm hc _) ?_; intro c c' hc
  exact Sx.ofSm (Sm.pure ⟨hc, ha, hb⟩)

theorem product5_er (t : Tables.RedTables) (n : Nat) (sh : Bool) (c : Named Int) (a : Named Int) (b : Named Int) :
    Er D3 (product5 t n sh c a b) (Release.product5 t n sh c.data a.data b.data) := by
  unfold product5 Release.product5
  refine Er.bind (shiftInput_er _ _ _) ?_; rintro a _ rfl
  refine Er.bind (fwdmul_ct_std2rev_er _ _ _) ?_; rintro a _ rfl
  refine Er.bind (reduce_array_er _ _) ?_; rintro a _ rfl
  refine Er.bind (shiftInput_er _ _ _) ?_; rintro b _ rfl
  refine Er.bind (fwdmul_ct_std2rev_er _ _ _) ?_; rintro b _ rfl
  refine Er.bind (reduce_array_er _ _) ?_; rintro b _ rfl
  refine Er.bind (mul_reduce_array_er _ _ _ _) ?_; rintro c _ rfl
  refine Er.bind (reduce_array_twice_er _ _) ?_; rintro c _ rfl
  refine Er.bind (inttmul_gs_rev2std_er _ _ _) ?_; rintro c _ rfl
  refine Er.bind (scalar_mul_reduce_array_er _ _ _) ?_; rintro c _ rfl
  refine Er.bind (reduce_array_twice_er _ _) ?_; rintro c _ rfl
  refine Er.bind (correct_er _ _) ?_; rintro c _ rfl
  exact Er.pure ⟨rfl, rfl, rfl⟩

theorem product5_sx (t t' : Tables.RedTables) {n : Nat} (hn : n < 4294967296) (sh : Bool) {c c' : Named Int} (hc : N c c') {a a' : Named Int} (ha : N a a') {b b' : Named Int} (hb : N b b') :
    Sx ((sh = true → Above n a.data a'.data) ∧ (sh = true → Above n b.data b'.data) ∧ True) N3 (product5 t n sh c a b) (product5 t' n sh c' a' b') := by
  unfold product5
  refine Sx.bind (shiftInput_sx hn _ ha) ?_; intro a a' ha
  refine Sx.bindSm (fwdmul_ct_std2rev_sm _ _ _ ha) ?_; intro a a' ha
  refine Sx.bindSm (reduce_array_sm ha _) ?_; intro a a' ha
  refine Sx.bind (shiftInput_sx hn _ hb) ?_; intro b b' hb
  refine Sx.bindSm (fwdmul_ct_std2rev_sm _ _ _ hb) ?_; intro b b' hb
  refine Sx.bindSm (reduce_array_sm hb _) ?_; intro b b' hb
  refine Sx.bindSm (mul_reduce_array_sm hc _ ha hb) ?_; intro c c' hc
  refine Sx.bindSm (reduce_array_twice_sm hc _) ?_; intro c c' hc
  refine Sx.bindSm (inttmul_gs_rev2std_sm _ _ _ hc) ?_; intro c c' hc
  refine Sx.bindSm (scalar_mul_reduce_array_sm hc _ _ _) ?_; intro c c' hc
  refine Sx.bindSm (reduce_array_twice_sm hc _) ?_; intro c c' hc
  refine Sx.bindSm (correct_sm hc _) ?_; intro c c' hc
  exact Sx.ofSm (Sm.pure ⟨hc, ha, hb⟩)

end NttRed

namespace Naive

theorem mul_array16_er (a : Named Int) (n : Nat) (p : Named Int) (q : Int) :
    Er D (mul_array16 a n p q) (_root_.Naive.mul_array16 a.data n p.data q) := by
  unfold mul_array16 _root_.Naive.mul_array16
  refine Er.forUp rfl ?_
  rintro i a _ rfl
  refine Er.bind (Er.rd rfl _) ?_; rintro x _ rfl
  refine Er.bind (Er.rd rfl _) ?_; rintro y _ rfl
  refine Er.bind (Er.lift _) ?_; rintro z _ rfl
  refine Er.bind (Er.lift _) ?_; rintro z _ rfl
  exact Er.wr rfl _ _

theorem mul_array16_sm {a a' : Named Int} (ha : N a a') (n : Nat) {p p' : Named Int} (hp : N p p') (q : Int) :
    Sm N (mul_array16 a n p q) (mul_array16 a' n p' q) := by
  unfold mul_array16
  refine Sm.forUp ha ?_
  intro i a a' ha
  refine Sm.bind (Sm.rd ha _) fun x x' _ => ?_
  refine Sm.bind (Sm.rd hp _) fun y y' _ => ?_
  refine Sm.bind (Sm.lift _ _) fun z z' _ => ?_
  refine Sm.bind (Sm.lift _ _) fun z z' _ => ?_
  exact Sm.wr ha _ _ _

theorem mul_array_er (c : Named Int) (n : Nat) (a : Named Int) (b : Named Int) (q : Int) :
    Er D (mul_array c n a b q) (_root_.Naive.mul_array c.data n a.data b.data q) := by
  unfold mul_array _root_.Naive.mul_array
  refine Er.forUp rfl ?_
  rintro i c _ rfl
  refine Er.bind (Er.rd rfl _) ?_; rintro x _ rfl
  refine Er.bind (Er.rd rfl _) ?_; rintro y _ rfl
  refine Er.bind (Er.lift _) ?_; rintro z _ rfl
  refine Er.bind (Er.lift _) ?_; rintro z _ rfl
  exact Er.wr rfl _ _

theorem mul_array_sm {c c' : Named Int} (hc : N c c') (n : Nat) {a a' : Named Int} (ha : N a a') {b b' : Named Int} (hb : N b b') (q : Int) :
    Sm N (mul_array c n a b q) (mul_array c' n a' b' q) := by
  unfold mul_array
  refine Sm.forUp hc ?_
  intro i c c' hc
  refine Sm.bind (Sm.rd ha _) fun x x' _ => ?_
  refine Sm.bind (Sm.rd hb _) fun y y' _ => ?_
  refine Sm.bind (Sm.lift _ _) fun z z' _ => ?_
  refine Sm.bind (Sm.lift _ _) fun z z' _ => ?_
  exact Sm.wr hc _ _ _

theorem scalar_mul_array_er (a : Named Int) (n : Nat) (c : Int) (q : Int) :
    Er D (scalar_mul_array a n c q) (_root_.Naive.scalar_mul_array a.data n c q) := by
  unfold scalar_mul_array _root_.Naive.scalar_mul_array
  refine Er.forUp rfl ?_
  rintro i a _ rfl
  refine Er.bind (Er.rd rfl _) ?_; rintro x _ rfl
  refine Er.bind (Er.lift _) ?_; rintro z _ rfl
  refine Er.bind (Er.lift _) ?_; rintro z _ rfl
  exact Er.wr rfl _ _

theorem scalar_mul_array_sm {a a' : Named Int} (ha : N a a') (n : Nat) (c c' : Int) (q : Int) :
    Sm N (scalar_mul_array a n c q) (scalar_mul_array a' n c' q) := by
  unfold scalar_mul_array
  refine Sm.forUp ha ?_
  intro i a a' ha
  refine Sm.bind (Sm.rd ha _) fun x x' _ => ?_
  refine Sm.bind (Sm.lift _ _) fun z z' _ => ?_
  refine Sm.bind (Sm.lift _ _) fun z z' _ => ?_
  exact Sm.wr ha _ _ _

theorem bf0_er (q : Int) (s : Nat) (k : Nat) (a : Named Int) :
    Er D (bf0 q s k a) (_root_.Naive.bf0 q s k a.data) := by
  unfold bf0 _root_.Naive.bf0
  refine Er.bind (Er.rd rfl _) ?_; rintro x _ rfl
  refine Er.bind (Er.rd rfl _) ?_; rintro y _ rfl
  refine Er.bind (Er.lift _) ?_; rintro v _ rfl
  refine Er.bind (Er.lift _) ?_; rintro v _ rfl
  refine Er.bind (Er.wr rfl _ _) ?_; rintro a _ rfl
  refine Er.bind (Er.rd rfl _) ?_; rintro y _ rfl
  refine Er.bind (Er.lift _) ?_; rintro u _ rfl
  refine Er.bind (Er.lift _) ?_; rintro u _ rfl
  exact Er.wr rfl _ _

theorem bf0_sm (q : Int) (s : Nat) (k : Nat) {a a' : Named Int} (ha : N a a') :
    Sm N (bf0 q s k a) (bf0 q s k a') := by
  unfold bf0
  refine Sm.bind (Sm.rd ha _) fun x x' _ => ?_
  refine Sm.bind (Sm.rd ha _) fun y y' _ => ?_
  refine Sm.bind (Sm.lift _ _) fun v v' _ => ?_
  refine Sm.bind (Sm.lift _ _) fun v v' _ => ?_
  refine Sm.bind (Sm.wr ha _ _ _) fun a a' ha => ?_
  refine Sm.bind (Sm.rd ha _) fun y y' _ => ?_
  refine Sm.bind (Sm.lift _ _) fun u u' _ => ?_
  refine Sm.bind (Sm.lift _ _) fun u u' _ => ?_
  exact Sm.wr ha _ _ _

theorem ctBf_er (q : Int) (w : Int) (s : Nat) (k : Nat) (a : Named Int) :
    Er D (ctBf q w s k a) (_root_.Naive.ctBf q w s k a.data) := by
  unfold ctBf _root_.Naive.ctBf
  refine Er.bind (Er.rd rfl _) ?_; rintro z _ rfl
  refine Er.bind (Er.lift _) ?_; rintro x _ rfl
  refine Er.bind (Er.rd rfl _) ?_; rintro y _ rfl
  refine Er.bind (Er.lift _) ?_; rintro v _ rfl
  refine Er.bind (Er.lift _) ?_; rintro v _ rfl
  refine Er.bind (Er.wr rfl _ _) ?_; rintro a _ rfl
  refine Er.bind (Er.rd rfl _) ?_; rintro y _ rfl
  refine Er.bind (Er.lift _) ?_; rintro u _ rfl
  refine Er.bind (Er.lift _) ?_; rintro u _ rfl
  exact Er.wr rfl _ _

theorem ctBf_sm (q : Int) (w w' : Int) (s : Nat) (k : Nat) {a a' : Named Int} (ha : N a a') :
    Sm N (ctBf q w s k a) (ctBf q w' s k a') := by
  unfold ctBf
  refine Sm.bind (Sm.rd ha _) fun z z' _ => ?_
  refine Sm.bind (Sm.lift _ _) fun x x' _ => ?_
  refine Sm.bind (Sm.rd ha _) fun y y' _ => ?_
  refine Sm.bind (Sm.lift _ _) fun v v' _ => ?_
  refine Sm.bind (Sm.lift _ _) fun v v' _ => ?_
  refine Sm.bind (Sm.wr ha _ _ _) fun a a' ha => ?_
  refine Sm.bind (Sm.rd ha _) fun y y' _ => ?_
  refine Sm.bind (Sm.lift _ _) fun u u' _ => ?_
  refine Sm.bind (Sm.lift _ _) fun u u' _ => ?_
  exact Sm.wr ha _ _ _

theorem gsBf_er (q : Int) (w : Int) (s : Nat) (k : Nat) (a : Named Int) :
    Er D (gsBf q w s k a) (_root_.Naive.gsBf q w s k a.data) := by
  unfold gsBf _root_.Naive.gsBf
  refine Er.bind (Er.rd rfl _) ?_; rintro x _ rfl
  refine Er.bind (Er.rd rfl _) ?_; rintro y _ rfl
  refine Er.bind (Er.lift _) ?_; rintro v _ rfl
  refine Er.bind (Er.lift _) ?_; rintro v _ rfl
  refine Er.bind (Er.lift _) ?_; rintro v _ rfl
  refine Er.bind (Er.wr rfl _ _) ?_; rintro a _ rfl
  refine Er.bind (Er.rd rfl _) ?_; rintro y _ rfl
  refine Er.bind (Er.lift _) ?_; rintro u _ rfl
  refine Er.bind (Er.lift _) ?_; rintro u _ rfl
  exact Er.wr rfl _ _

theorem gsBf_sm (q : Int) (w w' : Int) (s : Nat) (k : Nat) {a a' : Named Int} (ha : N a a') :
    Sm N (gsBf q w s k a) (gsBf q w' s k a') := by
  unfold gsBf
  refine Sm.bind (Sm.rd ha _) fun x x' _ => ?_
  refine Sm.bind (Sm.rd ha _) fun y y' _ => ?_
  refine Sm.bind (Sm.lift _ _) fun v v' _ => ?_
  refine Sm.bind (Sm.lift _ _) fun v v' _ => ?_
  refine Sm.bind (Sm.lift _ _) fun v v' _ => ?_
  refine Sm.bind (Sm.wr ha _ _ _) fun a a' ha => ?_
  refine Sm.bind (Sm.rd ha _) fun y y' _ => ?_
  refine Sm.bind (Sm.lift _ _) fun u u' _ => ?_
  refine Sm.bind (Sm.lift _ _) fun u u' _ => ?_
  exact Sm.wr ha _ _ _

theorem ntt_ct_rev2std_er (a : Named Int) (n : Nat) (p : Named Int) (q : Int) :
    Er D (ntt_ct_rev2std a n p q) (_root_.Naive.ntt_ct_rev2std a.data n p.data q) := by
  unfold ntt_ct_rev2std _root_.Naive.ntt_ct_rev2std
  exact ctRev2std_er (by rintro s k A _ rfl; exact bf0_er q s k A) (by rintro w s k A _ rfl; exact ctBf_er q w s k A) n rfl rfl

theorem ntt_ct_rev2std_sm {a a' : Named Int} (ha : N a a') (n : Nat) {p p' : Named Int} (hp : N p p') (q : Int) :
    Sm N (ntt_ct_rev2std a n p q) (ntt_ct_rev2std a' n p' q) := by
  unfold ntt_ct_rev2std
  exact ctRev2std_sm (fun s k _ _ h => bf0_sm q s k h) (fun w w' s k _ _ h => ctBf_sm q w w' s k h) n hp ha

theorem mulntt_ct_rev2std_er (a : Named Int) (n : Nat) (p : Named Int) (q : Int) :
    Er D (mulntt_ct_rev2std a n p q) (_root_.Naive.mulntt_ct_rev2std a.data n p.data q) := by
  unfold mulntt_ct_rev2std _root_.Naive.mulntt_ct_rev2std
  exact mulCtRev2std_er (by rintro w s k A _ rfl; exact ctBf_er q w s k A) n rfl rfl

theorem mulntt_ct_rev2std_sm {a a' : Named Int} (ha : N a a') (n : Nat) {p p' : Named Int} (hp : N p p') (q : Int) :
    Sm N (mulntt_ct_rev2std a n p q) (mulntt_ct_rev2std a' n p' q) := by
  unfold mulntt_ct_rev2std
  exact mulCtRev2std_sm (fun w w' s k _ _ h => ctBf_sm q w w' s k h) n hp ha

theorem ntt_ct_std2rev_er (a : Named Int) (n : Nat) (p : Named Int) (q : Int) :
    Er D (ntt_ct_std2rev a n p q) (_root_.Naive.ntt_ct_std2rev a.data n p.data q) := by
  unfold ntt_ct_std2rev _root_.Naive.ntt_ct_std2rev
  exact ctStd2rev_er (by rintro s k A _ rfl; exact bf0_er q s k A) (by rintro w s k A _ rfl; exact ctBf_er q w s k A) n rfl rfl

theorem ntt_ct_std2rev_sm {a a' : Named Int} (ha : N a a') (n : Nat) {p p' : Named Int} (hp : N p p') (q : Int) :
    Sm N (ntt_ct_std2rev a n p q) (ntt_ct_std2rev a' n p' q) := by
  unfold ntt_ct_std2rev
  exact ctStd2rev_sm (fun s k _ _ h => bf0_sm q s k h) (fun w w' s k _ _ h => ctBf_sm q w w' s k h) n hp ha

theorem mulntt_ct_std2rev_er (a : Named Int) (n : Nat) (p : Named Int) (q : Int) :
    Er D (mulntt_ct_std2rev a n p q) (_root_.Naive.mulntt_ct_std2rev a.data n p.data q) := by
  unfold mulntt_ct_std2rev _root_.Naive.mulntt_ct_std2rev
  exact mulCtStd2rev_er (by rintro w s k A _ rfl; exact ctBf_er q w s k A) n rfl rfl

theorem mulntt_ct_std2rev_sm {a a' : Named Int} (ha : N a a') (n : Nat) {p p' : Named Int} (hp : N p p') (q : Int) :
    Sm N (mulntt_ct_std2rev a n p q) (mulntt_ct_std2rev a' n p' q) := by
  unfold mulntt_ct_std2rev
  exact mulCtStd2rev_sm (fun w w' s k _ _ h => ctBf_sm q w w' s k h) n hp ha

theorem ntt_gs_rev2std_er (a : Named Int) (n : Nat) (p : Named Int) (q : Int) :
    Er D (ntt_gs_rev2std a n p q) (_root_.Naive.ntt_gs_rev2std a.data n p.data q) := by
  unfold ntt_gs_rev2std _root_.Naive.ntt_gs_rev2std
  exact gsRev2std_er (by rintro s k A _ rfl; exact bf0_er q s k A) (by rintro w s k A _ rfl; exact gsBf_er q w s k A) n rfl rfl

theorem ntt_gs_rev2std_sm {a a' : Named Int} (ha : N a a') (n : Nat) {p p' : Named Int} (hp : N p p') (q : Int) :
    Sm N (ntt_gs_rev2std a n p q) (ntt_gs_rev2std a' n p' q) := by
  unfold ntt_gs_rev2std
  exact gsRev2std_sm (fun s k _ _ h => bf0_sm q s k h) (fun w w' s k _ _ h => gsBf_sm q w w' s k h) n hp ha

theorem nttmul_gs_rev2std_er (a : Named Int) (n : Nat) (p : Named Int) (q : Int) :
    Er D (nttmul_gs_rev2std a n p q) (_root_.Naive.nttmul_gs_rev2std a.data n p.data q) := by
  unfold nttmul_gs_rev2std _root_.Naive.nttmul_gs_rev2std
  exact gsMulRev2std_er (by rintro w s k A _ rfl; exact gsBf_er q w s k A) n rfl rfl

theorem nttmul_gs_rev2std_sm {a a' : Named Int} (ha : N a a') (n : Nat) {p p' : Named Int} (hp : N p p') (q : Int) :
    Sm N (nttmul_gs_rev2std a n p q) (nttmul_gs_rev2std a' n p' q) := by
  unfold nttmul_gs_rev2std
  exact gsMulRev2std_sm (fun w w' s k _ _ h => gsBf_sm q w w' s k h) n hp ha

theorem ntt_gs_std2rev_er (a : Named Int) (n : Nat) (p : Named Int) (q : Int) :
    Er D (ntt_gs_std2rev a n p q) (_root_.Naive.ntt_gs_std2rev a.data n p.data q) := by
  unfold ntt_gs_std2rev _root_.Naive.ntt_gs_std2rev
  exact gsStd2rev_er (by rintro s k A _ rfl; exact bf0_er q s k A) (by rintro w s k A _ rfl; exact gsBf_er q w s k A) n rfl rfl

theorem ntt_gs_std2rev_sm {a a' : Named Int} (ha : N a a') (n : Nat) {p p' : Named Int} (hp : N p p') (q : Int) :
    Sm N (ntt_gs_std2rev a n p q) (ntt_gs_std2rev a' n p' q) := by
  unfold ntt_gs_std2rev
  exact gsStd2rev_sm (fun s k _ _ h => bf0_sm q s k h) (fun w w' s k _ _ h => gsBf_sm q w w' s k h) n hp ha

theorem nttmul_gs_std2rev_er (a : Named Int) (n : Nat) (p : Named Int) (q : Int) :
    Er D (nttmul_gs_std2rev a n p q) (_root_.Naive.nttmul_gs_std2rev a.data n p.data q) := by
  unfold nttmul_gs_std2rev _root_.Naive.nttmul_gs_std2rev
  exact gsMulStd2rev_er (by rintro w s k A _ rfl; exact gsBf_er q w s k A) n rfl rfl

theorem nttmul_gs_std2rev_sm {a a' : Named Int} (ha : N a a') (n : Nat) {p p' : Named Int} (hp : N p p') (q : Int) :
    Sm N (nttmul_gs_std2rev a n p q) (nttmul_gs_std2rev a' n p' q) := by
  unfold nttmul_gs_std2rev
  exact gsMulStd2rev_sm (fun w w' s k _ _ h => gsBf_sm q w w' s k h) n hp ha

theorem fwd_ct_rev2std_er (t : Tables.Nttables) (n : Nat) (a : Named Int) :
    Er D (fwd_ct_rev2std t n a) (_root_.Naive.fwd_ct_rev2std t n a.data) := by
  unfold fwd_ct_rev2std _root_.Naive.fwd_ct_rev2std
  exact ntt_ct_rev2std_er a n ⟨"omega_powers", t.omega_powers⟩ 12289

theorem fwd_ct_rev2std_sm (t t' : Tables.Nttables) (n : Nat) {a a' : Named Int} (ha : N a a') :
    Sm N (fwd_ct_rev2std t n a) (fwd_ct_rev2std t' n a') := by
  unfold fwd_ct_rev2std
  exact ntt_ct_rev2std_sm ha n (by rfl) 12289

theorem fwd_gs_rev2std_er (t : Tables.Nttables) (n : Nat) (a : Named Int) :
    Er D (fwd_gs_rev2std t n a) (_root_.Naive.fwd_gs_rev2std t n a.data) := by
  unfold fwd_gs_rev2std _root_.Naive.fwd_gs_rev2std
  exact ntt_gs_rev2std_er a n ⟨"omega_powers_rev", t.omega_powers_rev⟩ 12289

theorem fwd_gs_rev2std_sm (t t' : Tables.Nttables) (n : Nat) {a a' : Named Int} (ha : N a a') :
    Sm N (fwd_gs_rev2std t n a) (fwd_gs_rev2std t' n a') := by
  unfold fwd_gs_rev2std
  exact ntt_gs_rev2std_sm ha n (by rfl) 12289

theorem fwd_ct_std2rev_er (t : Tables.Nttables) (n : Nat) (a : Named Int) :
    Er D (fwd_ct_std2rev t n a) (_root_.Naive.fwd_ct_std2rev t n a.data) := by
  unfold fwd_ct_std2rev _root_.Naive.fwd_ct_std2rev
  exact ntt_ct_std2rev_er a n ⟨"omega_powers_rev", t.omega_powers_rev⟩ 12289

theorem fwd_ct_std2rev_sm (t t' : Tables.Nttables) (n : Nat) {a a' : Named Int} (ha : N a a') :
    Sm N (fwd_ct_std2rev t n a) (fwd_ct_std2rev t' n a') := by
  unfold fwd_ct_std2rev
  exact ntt_ct_std2rev_sm ha n (by rfl) 12289

theorem fwd_gs_std2rev_er (t : Tables.Nttables) (n : Nat) (a : Named Int) :
    Er D (fwd_gs_std2rev t n a) (_root_.Naive.fwd_gs_std2rev t n a.data) := by
  unfold fwd_gs_std2rev _root_.Naive.fwd_gs_std2rev
  exact ntt_gs_std2rev_er a n ⟨"omega_powers", t.omega_powers⟩ 12289

theorem fwd_gs_std2rev_sm (t t' : Tables.Nttables) (n : Nat) {a a' : Named Int} (ha : N a a') :
    Sm N (fwd_gs_std2rev t n a) (fwd_gs_std2rev t' n a') := by
  unfold fwd_gs_std2rev
  exact ntt_gs_std2rev_sm ha n (by rfl) 12289

theorem intt_ct_rev2std_er (t : Tables.Nttables) (n : Nat) (a : Named Int) :
    Er D (intt_ct_rev2std t n a) (_root_.Naive.intt_ct_rev2std t n a.data) := by
  unfold intt_ct_rev2std _root_.Naive.intt_ct_rev2std
  exact ntt_ct_rev2std_er a n ⟨"inv_omega_powers", t.inv_omega_powers⟩ 12289

theorem intt_ct_rev2std_sm (t t' : Tables.Nttables) (n : Nat) {a a' : Named Int} (ha : N a a') :
    Sm N (intt_ct_rev2std t n a) (intt_ct_rev2std t' n a') := by
  unfold intt_ct_rev2std
  exact ntt_ct_rev2std_sm ha n (by rfl) 12289

theorem intt_gs_rev2std_er (t : Tables.Nttables) (n : Nat) (a : Named Int) :
    Er D (intt_gs_rev2std t n a) (_root_.Naive.intt_gs_rev2std t n a.data) := by
  unfold intt_gs_rev2std _root_.Naive.intt_gs_rev2std
  exact ntt_gs_rev2std_er a n ⟨"inv_omega_powers_rev", t.inv_omega_powers_rev⟩ 12289

theorem intt_gs_rev2std_sm (t t' : Tables.Nttables) (n : Nat) {a a' : Named Int} (ha : N a a') :
    Sm N (intt_gs_rev2std t n a) (intt_gs_rev2std t' n a') := by
  unfold intt_gs_rev2std
  exact ntt_gs_rev2std_sm ha n (by rfl) 12289

theorem intt_ct_std2rev_er (t : Tables.Nttables) (n : Nat) (a : Named Int) :
    Er D (intt_ct_std2rev t n a) (_root_.Naive.intt_ct_std2rev t n a.data) := by
  unfold intt_ct_std2rev _root_.Naive.intt_ct_std2rev
  exact ntt_ct_std2rev_er a n ⟨"inv_omega_powers_rev", t.inv_omega_powers_rev⟩ 12289

theorem intt_ct_std2rev_sm (t t' : Tables.Nttables) (n : Nat) {a a' : Named Int} (ha : N a a') :
    Sm N (intt_ct_std2rev t n a) (intt_ct_std2rev t' n a') := by
  unfold intt_ct_std2rev
  exact ntt_ct_std2rev_sm ha n (by rfl) 12289

theorem intt_gs_std2rev_er (t : Tables.Nttables) (n : Nat) (a : Named Int) :
    Er D (intt_gs_std2rev t n a) (_root_.Naive.intt_gs_std2rev t n a.data) := by
  unfold intt_gs_std2rev _root_.Naive.intt_gs_std2rev
  exact ntt_gs_std2rev_er a n ⟨"inv_omega_powers", t.inv_omega_powers⟩ 12289

theorem intt_gs_std2rev_sm (t t' : Tables.Nttables) (n : Nat) {a a' : Named Int} (ha : N a a') :
    Sm N (intt_gs_std2rev t n a) (intt_gs_std2rev t' n a') := by
  unfold intt_gs_std2rev
  exact ntt_gs_std2rev_sm ha n (by rfl) 12289

theorem fwdmul_ct_rev2std_er (t : Tables.Nttables) (n : Nat) (a : Named Int) :
    Er D (fwdmul_ct_rev2std t n a) (_root_.Naive.fwdmul_ct_rev2std t n a.data) := by
  unfold fwdmul_ct_rev2std _root_.Naive.fwdmul_ct_rev2std
  exact mulntt_ct_rev2std_er a n ⟨"mixed_powers", t.mixed_powers⟩ 12289

theorem fwdmul_ct_rev2std_sm (t t' : Tables.Nttables) (n : Nat) {a a' : Named Int} (ha : N a a') :
    Sm N (fwdmul_ct_rev2std t n a) (fwdmul_ct_rev2std t' n a') := by
  unfold fwdmul_ct_rev2std
  exact mulntt_ct_rev2std_sm ha n (by rfl) 12289

theorem fwdmul_ct_std2rev_er (t : Tables.Nttables) (n : Nat) (a : Named Int) :
    Er D (fwdmul_ct_std2rev t n a) (_root_.Naive.fwdmul_ct_std2rev t n a.data) := by
  unfold fwdmul_ct_std2rev _root_.Naive.fwdmul_ct_std2rev
  exact mulntt_ct_std2rev_er a n ⟨"mixed_powers_rev", t.mixed_powers_rev⟩ 12289

theorem fwdmul_ct_std2rev_sm (t t' : Tables.Nttables) (n : Nat) {a a' : Named Int} (ha : N a a') :
    Sm N (fwdmul_ct_std2rev t n a) (fwdmul_ct_std2rev t' n a') := by
  unfold fwdmul_ct_std2rev
  exact mulntt_ct_std2rev_sm ha n (by rfl) 12289

theorem inttmul_gs_rev2std_er (t : Tables.Nttables) (n : Nat) (a : Named Int) :
    Er D (inttmul_gs_rev2std t n a) (_root_.Naive.inttmul_gs_rev2std t n a.data) := by
  unfold inttmul_gs_rev2std _root_.Naive.inttmul_gs_rev2std
  exact nttmul_gs_rev2std_er a n ⟨"inv_mixed_powers_rev", t.inv_mixed_powers_rev⟩ 12289

theorem inttmul_gs_rev2std_sm (t t' : Tables.Nttables) (n : Nat) {a a' : Named Int} (ha : N a a') :
    Sm N (inttmul_gs_rev2std t n a) (inttmul_gs_rev2std t' n a') := by
  unfold inttmul_gs_rev2std
  exact nttmul_gs_rev2std_sm ha n (by rfl) 12289

theorem inttmul_gs_std2rev_er (t : Tables.Nttables) (n : Nat) (a : Named Int) :
    Er D (inttmul_gs_std2rev t n a) (_root_.Naive.inttmul_gs_std2rev t n a.data) := by
  unfold inttmul_gs_std2rev _root_.Naive.inttmul_gs_std2rev
  exact nttmul_gs_std2rev_er a n ⟨"inv_mixed_powers", t.inv_mixed_powers⟩ 12289

theorem inttmul_gs_std2rev_sm (t t' : Tables.Nttables) (n : Nat) {a a' : Named Int} (ha : N a a') :
    Sm N (inttmul_gs_std2rev t n a) (inttmul_gs_std2rev t' n a') := by
  unfold inttmul_gs_std2rev
  exact nttmul_gs_std2rev_sm ha n (by rfl) 12289

theorem product1_er (t : Tables.Nttables) (n : Nat) (c : Named Int) (a : Named Int) (b : Named Int) :
    Er D3 (product1 t n c a b) (_root_.Naive.product1 t n c.data a.data b.data) := by
  unfold product1 _root_.Naive.product1
  refine Er.bind (mul_array16_er _ _ _ _) ?_; rintro a _ rfl
  refine Er.bind (fwd_ct_std2rev_er _ _ _) ?_; rintro a _ rfl
  refine Er.bind (mul_array16_er _ _ _ _) ?_; rintro b _ rfl
  refine Er.bind (fwd_ct_std2rev_er _ _ _) ?_; rintro b _ rfl
  refine Er.bind (mul_array_er _ _ _ _ _) ?_; rintro c _ rfl
  refine Er.bind (intt_ct_rev2std_er _ _ _) ?_; rintro c _ rfl
  refine Er.bind (mul_array16_er _ _ _ _) ?_; rintro c _ rfl
  exact Er.pure ⟨rfl, rfl, rfl⟩

theorem product1_sm (t t' : Tables.Nttables) (n : Nat) {c c' : Named Int} (hc : N c c') {a a' : Named Int} (ha : N a a') {b b' : Named Int} (hb : N b b') :
    Sm N3 (product1 t n c a b) (product1 t' n c' a' b') := by
  unfold product1
  refine Sm.bind (mul_array16_sm ha _ (by rfl) _) ?_; intro a a' ha
  refine Sm.bind (fwd_ct_std2rev_sm _ _ _ ha) ?_; intro a a' ha
  refine Sm.bind (mul_array16_sm hb _ (by rfl) _) ?_; intro b b' hb
  refine Sm.bind (fwd_ct_std2rev_sm _ _ _ hb) ?_; intro b b' hb
  refine Sm.bind (mul_array_sm hc _ ha hb _) ?_; intro c c' hc
  refine Sm.bind (intt_ct_rev2std_sm _ _ _ hc) ?_; intro c c' hc
  refine Sm.bind (mul_array16_sm hc _ (by rfl) _) ?_; intro c c' hc
  exact Sm.pure ⟨hc, ha, hb⟩

theorem product2_er (t : Tables.Nttables) (n : Nat) (c : Named Int) (a : Named Int) (b : Named Int) :
    Er D3 (product2 t n c a b) (_root_.Naive.product2 t n c.data a.data b.data) := by
  unfold product2 _root_.Naive.product2
  refine Er.bind (mul_array16_er _ _ _ _) ?_; rintro a _ rfl
  refine Er.bind (fwd_gs_std2rev_er _ _ _) ?_; rintro a _ rfl
  refine Er.bind (mul_array16_er _ _ _ _) ?_; rintro b _ rfl
  refine Er.bind (fwd_gs_std2rev_er _ _ _) ?_; rintro b _ rfl
  refine Er.bind (mul_array_er _ _ _ _ _) ?_; rintro c _ rfl
  refine Er.bind (intt_ct_rev2std_er _ _ _) ?_; rintro c _ rfl
  refine Er.bind (mul_array16_er _ _ _ _) ?_; rintro c _ rfl
  exact Er.pure ⟨rfl, rfl, rfl⟩

theorem product2_sm (t t' : Tables.Nttables) (n : Nat) {c c' : Named Int} (hc : N c c') {a a' : Named Int} (ha : N a a') {b b' : Named Int} (hb : N b b') :
    Sm N3 (product2 t n c a b) (product2 t' n c' a' b') := by
  unfold product2
  refine Sm.bind (mul_array16_sm ha _ (by rfl) _) ?_; intro a a' ha
  refine Sm.bind (fwd_gs_std2rev_sm _ _ _ ha) ?_; intro a a' ha
  refine Sm.bind (mul_array16_sm hb _ (by rfl) _) ?_; intro b b' hb
  refine Sm.bind (fwd_gs_std2rev_sm _ _ _ hb) ?_; intro b b' hb
  refine Sm.bind (mul_array_sm hc _ ha hb _) ?_; intro c c' hc
  refine Sm.bind (intt_ct_rev2std_sm _ _ _ hc) ?_; intro c c' hc
  refine Sm.bind (mul_array16_sm hc _ (by rfl) _) ?_; intro c c' hc
  exact Sm.pure ⟨hc, ha, hb⟩

theorem product3_er (t : Tables.Nttables) (n : Nat) (c : Named Int) (a : Named Int) (b : Named Int) :
    Er D3 (product3 t n c a b) (_root_.Naive.product3 t n c.data a.data b.data) := by
  unfold product3 _root_.Naive.product3
  refine Er.bind (mul_array16_er _ _ _ _) ?_; rintro a _ rfl
  refine Er.bind (fwd_ct_std2rev_er _ _ _) ?_; rintro a _ rfl
  refine Er.bind (mul_array16_er _ _ _ _) ?_; rintro b _ rfl
  refine Er.bind (fwd_ct_std2rev_er _ _ _) ?_; rintro b _ rfl
  refine Er.bind (mul_array_er _ _ _ _ _) ?_; rintro c _ rfl
  refine Er.bind (intt_gs_rev2std_er _ _ _) ?_; rintro c _ rfl
  refine Er.bind (mul_array16_er _ _ _ _) ?_; rintro c _ rfl
  exact Er.pure ⟨rfl, rfl, rfl⟩

theorem product3_sm (t t' : Tables.Nttables) (n : Nat) {c c' : Named Int} (hc : N c c') {a a' : Named Int} (ha : N a a') {b b' : Named Int} (hb : N b b') :
    Sm N3 (product3 t n c a b) (product3 t' n c' a' b') := by
  unfold product3
  refine Sm.bind (mul_array16_sm ha _ (by rfl) _) ?_; intro a a' ha
  refine Sm.bind (fwd_ct_std2rev_sm _ _ _ ha) ?_; intro a a' ha
  refine Sm.bind (mul_array16_sm hb _ (by rfl) _) ?_; intro b b' hb
  refine Sm.bind (fwd_ct_std2rev_sm _ _ _ hb) ?_; intro b b' hb
  refine Sm.bind (mul_array_sm hc _ ha hb _) ?_; intro c c' hc
  refine Sm.bind (intt_gs_rev2std_sm _ _ _ hc) ?_; intro c c' hc
  refine Sm.bind (mul_array16_sm hc _ (by rfl) _) ?_; intro c c' hc
  exact Sm.pure ⟨hc, ha, hb⟩

theorem product4_er (t : Tables.Nttables) (n : Nat) (c : Named Int) (a : Named Int) (b : Named Int) :
    Er D3 (product4 t n c a b) (_root_.Naive.product4 t n c.data a.data b.data) := by
  unfold product4 _root_.Naive.product4
  refine Er.bind (mul_array16_er _ _ _ _) ?_; rintro a _ rfl
  refine Er.bind (fwd_gs_std2rev_er _ _ _) ?_; rintro a _ rfl
  refine Er.bind (mul_array16_er _ _ _ _) ?_; rintro b _ rfl
  refine Er.bind (fwd_gs_std2rev_er _ _ _) ?_; rintro b _ rfl
  refine Er.bind (mul_array_er _ _ _ _ _) ?_; rintro c _ rfl
  refine Er.bind (intt_gs_rev2std_er _ _ _) ?_; rintro c _ rfl
  refine Er.bind (mul_array16_er _ _ _ _) ?_; rintro c _ rfl
  exact Er.pure ⟨rfl, rfl, rfl⟩

theorem product4_sm (t t' : Tables.Nttables) (n : Nat) {c c' : Named Int} (hc : N c c') {a a' : Named Int} (ha : N a a') {b b' : Named Int} (hb : N b b') :
    Sm N3 (product4 t n c a b) (product4 t' n c' a' b') := by
  unfold product4
  refine Sm.bind (mul_array16_sm ha _ (by rfl) _) ?_; intro a a' ha
  refine Sm.bind (fwd_gs_std2rev_sm _ _ _ ha) ?_; intro a a' ha
  refine Sm.bind (mul_array16_sm hb _ (by rfl) _) ?_; intro b b' hb
  refine Sm.bind (fwd_gs_std2rev_sm _ _ _ hb) ?_; intro b b' hb
  refine Sm.bind (mul_array_sm hc _ ha hb _) ?_; intro c c' hc
  refine Sm.bind (intt_gs_rev2std_sm _ _ _ hc) ?_; intro c c' hc
  refine Sm.bind (mul_array16_sm hc _ (by rfl) _) ?_; intro c c' hc
  exact Sm.pure ⟨hc, ha, hb⟩

theorem product5_er (t : Tables.Nttables) (n : Nat) (c : Named Int) (a : Named Int) (b : Named Int) :
    Er D3 (product5 t n c a b) (_root_.Naive.product5 t n c.data a.data b.data) := by
  unfold product5 _root_.Naive.product5
  refine Er.bind (fwdmul_ct_std2rev_er _ _ _) ?_; rintro a _ rfl
  refine Er.bind (fwdmul_ct_std2rev_er _ _ _) ?_; rintro b _ rfl
  refine Er.bind (mul_array_er _ _ _ _ _) ?_; rintro c _ rfl
  refine Er.bind (inttmul_gs_rev2std_er _ _ _) ?_; rintro c _ rfl
  refine Er.bind (scalar_mul_array_er _ _ _ _) ?_; rintro c _ rfl
  exact Er.pure ⟨rfl, rfl, rfl⟩

theorem product5_sm (t t' : Tables.Nttables) (n : Nat) {c c' : Named Int} (hc : N c c') {a a' : Named Int} (ha : N a a') {b b' : Named Int} (hb : N b b') :
    Sm N3 (product5 t n c a b) (product5 t' n c' a' b') := by
  unfold product5
  refine Sm.bind (fwdmul_ct_std2rev_sm _ _ _ ha) ?_; intro a a' ha
  refine Sm.bind (fwdmul_ct_std2rev_sm _ _ _ hb) ?_; intro b b' hb
  refine Sm.bind (mul_array_sm hc _ ha hb _) ?_; intro c c' hc
  refine Sm.bind (inttmul_gs_rev2std_sm _ _ _ hc) ?_; intro c c' hc
  refine Sm.bind (scalar_mul_array_sm hc _ _ _ _) ?_; intro c c' hc
  exact Sm.pure ⟨hc, ha, hb⟩

end Naive

end Jumps
