import Verif.Proofs.SharedMul

/-
Every function on references to arrays simulates the function on arrays.  Written by tools/genshared.py.
-/

namespace Shared
open C

variable {S W : Ref → Prop} {μ : Mem}

namespace Ntt

theorem swap_sim {a : Ref} (hW : W a) (i : Nat) (j : Nat) (v : Array Int) :
    Sim S W (upd μ a v) (Post μ a) (_root_.Ntt.swap v i j) (swap a i j) := by
  unfold swap _root_.Ntt.swap
  refine Sim.val (Sim.rd hW _) fun x => ?_
  refine Sim.val (Sim.rd hW _) fun y => ?_
  refine Sim.next (Sim.wr hW _ _) fun v => ?_
  exact Sim.wr hW _ _

theorem bitrev_shuffle_sim {a : Ref} (hW : W a) (n : Nat) (v : Array Int) :
    Sim S W (upd μ a v) (Post μ a) (_root_.Ntt.bitrev_shuffle v n) (bitrev_shuffle a n) := by
  unfold bitrev_shuffle _root_.Ntt.bitrev_shuffle
  refine Sim.val (Sim.lift _) fun _ => ?_
  refine Sim.up2 fun i j v => ?_
  refine Sim.next (Sim.ite (swap_sim hW _ _ _) (Sim.pure ⟨rfl, rfl⟩)) fun v => ?_
  refine Sim.val (Sim.lift _) fun j => ?_
  exact Sim.pure ⟨rfl, rfl, rfl⟩

theorem shuffle_with_table_sim {a : Ref} (hW : W a) (p : Array (Nat × Nat)) (n : Nat) (v : Array Int) :
    Sim S W (upd μ a v) (Post μ a) (_root_.Ntt.shuffle_with_table v p n) (shuffle_with_table a p n) := by
  unfold shuffle_with_table _root_.Ntt.shuffle_with_table
  refine Sim.up fun i v => ?_
  refine Sim.val (Sim.lift _) fun jk => ?_
  exact swap_sim hW _ _ _

theorem mul_array16_sim {a p : Ref} (hW : W a) (hp : S p) (hne : p ≠ a) (n : Nat) (v : Array Int) :
    Sim S W (upd μ a v) (Post μ a) (_root_.Ntt.mul_array16 v n (μ p)) (mul_array16 a n p) := by
  unfold mul_array16 _root_.Ntt.mul_array16
  refine Sim.up fun i v => ?_
  refine Sim.val (by first | exact Sim.rd hW _ | exact Sim.rdRo hp hne _) fun x => ?_
  refine Sim.val (by first | exact Sim.rd hW _ | exact Sim.rdRo hp hne _) fun y => ?_
  refine Sim.val (Sim.lift _) fun z => ?_
  exact Sim.wr hW _ _

theorem mul_array_sim {a b c : Ref} (hWa : W a) (hWb : W b) (hWc : W c) {n : Nat} (hn : n < 2 ^ 32)
    {va vb vc : Array Int} (ea : μ a = va) (eb : μ b = vb) (hvc : vc.size = n) (hc : (μ c).size = n) :
    Sim S W μ (Post μ c) (_root_.Ntt.mul_array vc n va vb) (mul_array c n a b) := by
  subst ea eb
  unfold mul_array _root_.Ntt.mul_array
  refine half_loop (a := a) (b := b) hn hvc hc (fun i f x hi hf hx hhi hw => ?_) hWc
  refine Sim.val (Sim.rdHalf hWa hhi) fun x => ?_
  refine Sim.val (Sim.rdHalf hWb hhi) fun y => ?_
  refine Sim.val (Sim.lift _) fun z => ?_
  exact hw _

theorem scalar_mul_array_sim {a : Ref} (hW : W a) (n : Nat) (c : Int) (v : Array Int) :
    Sim S W (upd μ a v) (Post μ a) (_root_.Ntt.scalar_mul_array v n c) (scalar_mul_array a n c) := by
  unfold scalar_mul_array _root_.Ntt.scalar_mul_array
  refine Sim.up fun i v => ?_
  refine Sim.val (Sim.rd hW _) fun x => ?_
  refine Sim.val (Sim.lift _) fun z => ?_
  exact Sim.wr hW _ _

theorem bf0_sim {a : Ref} (hW : W a) (s : Nat) (k : Nat) (v : Array Int) :
    Sim S W (upd μ a v) (Post μ a) (_root_.Ntt.bf0 s k v) (bf0 s k a) := by
  unfold bf0 _root_.Ntt.bf0
  refine Sim.val (Sim.rd hW _) fun x => ?_
  refine Sim.val (Sim.rd hW _) fun y => ?_
  refine Sim.val (Sim.lift _) fun v => ?_
  refine Sim.next (Sim.wr hW _ _) fun v => ?_
  refine Sim.val (Sim.rd hW _) fun y => ?_
  refine Sim.val (Sim.lift _) fun u => ?_
  exact Sim.wr hW _ _

theorem ctBf_sim {a : Ref} (hW : W a) (w : Int) (s : Nat) (k : Nat) (v : Array Int) :
    Sim S W (upd μ a v) (Post μ a) (_root_.Ntt.ctBf w s k v) (ctBf w s k a) := by
  unfold ctBf _root_.Ntt.ctBf
  refine Sim.val (Sim.rd hW _) fun z => ?_
  refine Sim.val (Sim.lift _) fun z => ?_
  refine Sim.val (Sim.rd hW _) fun y => ?_
  refine Sim.val (Sim.lift _) fun v => ?_
  refine Sim.next (Sim.wr hW _ _) fun v => ?_
  refine Sim.val (Sim.rd hW _) fun y => ?_
  refine Sim.val (Sim.lift _) fun u => ?_
  exact Sim.wr hW _ _

theorem gsBf_sim {a : Ref} (hW : W a) (w : Int) (s : Nat) (k : Nat) (v : Array Int) :
    Sim S W (upd μ a v) (Post μ a) (_root_.Ntt.gsBf w s k v) (gsBf w s k a) := by
  unfold gsBf _root_.Ntt.gsBf
  refine Sim.val (Sim.rd hW _) fun x => ?_
  refine Sim.val (Sim.rd hW _) fun y => ?_
  refine Sim.val (Sim.lift _) fun v => ?_
  refine Sim.val (Sim.lift _) fun v => ?_
  refine Sim.next (Sim.wr hW _ _) fun v => ?_
  refine Sim.val (Sim.rd hW _) fun y => ?_
  refine Sim.val (Sim.lift _) fun u => ?_
  exact Sim.wr hW _ _

theorem ntt_ct_rev2std_v1_sim {a p : Ref} (hW : W a) (hp : S p) (hne : p ≠ a) (n : Nat) (v : Array Int) :
    Sim S W (upd μ a v) (Post μ a) (_root_.Ntt.ntt_ct_rev2std_v1 v n (μ p)) (ntt_ct_rev2std_v1 a n p) := by
  unfold ntt_ct_rev2std_v1 _root_.Ntt.ntt_ct_rev2std_v1
  exact ctRev2stdV1_sim (fun s k v => bf0_sim hW s k v) (fun w s k v => ctBf_sim hW w s k v) hp hne n v

theorem ntt_ct_rev2std_sim {a p : Ref} (hW : W a) (hp : S p) (hne : p ≠ a) (n : Nat) (v : Array Int) :
    Sim S W (upd μ a v) (Post μ a) (_root_.Ntt.ntt_ct_rev2std v n (μ p)) (ntt_ct_rev2std a n p) := by
  unfold ntt_ct_rev2std _root_.Ntt.ntt_ct_rev2std
  exact ctRev2std_sim (fun s k v => bf0_sim hW s k v) (fun w s k v => ctBf_sim hW w s k v) hp hne n v

theorem mulntt_ct_rev2std_sim {a p : Ref} (hW : W a) (hp : S p) (hne : p ≠ a) (n : Nat) (v : Array Int) :
    Sim S W (upd μ a v) (Post μ a) (_root_.Ntt.mulntt_ct_rev2std v n (μ p)) (mulntt_ct_rev2std a n p) := by
  unfold mulntt_ct_rev2std _root_.Ntt.mulntt_ct_rev2std
  exact mulCtRev2std_sim (fun w s k v => ctBf_sim hW w s k v) hp hne n v

theorem ntt_ct_std2rev_sim {a p : Ref} (hW : W a) (hp : S p) (hne : p ≠ a) (n : Nat) (v : Array Int) :
    Sim S W (upd μ a v) (Post μ a) (_root_.Ntt.ntt_ct_std2rev v n (μ p)) (ntt_ct_std2rev a n p) := by
  unfold ntt_ct_std2rev _root_.Ntt.ntt_ct_std2rev
  exact ctStd2rev_sim (fun s k v => bf0_sim hW s k v) (fun w s k v => ctBf_sim hW w s k v) hp hne n v

theorem mulntt_ct_std2rev_sim {a p : Ref} (hW : W a) (hp : S p) (hne : p ≠ a) (n : Nat) (v : Array Int) :
    Sim S W (upd μ a v) (Post μ a) (_root_.Ntt.mulntt_ct_std2rev v n (μ p)) (mulntt_ct_std2rev a n p) := by
  unfold mulntt_ct_std2rev _root_.Ntt.mulntt_ct_std2rev
  exact mulCtStd2rev_sim (fun w s k v => ctBf_sim hW w s k v) hp hne n v

theorem ntt_gs_rev2std_sim {a p : Ref} (hW : W a) (hp : S p) (hne : p ≠ a) (n : Nat) (v : Array Int) :
    Sim S W (upd μ a v) (Post μ a) (_root_.Ntt.ntt_gs_rev2std v n (μ p)) (ntt_gs_rev2std a n p) := by
  unfold ntt_gs_rev2std _root_.Ntt.ntt_gs_rev2std
  exact gsRev2std_sim (fun s k v => bf0_sim hW s k v) (fun w s k v => gsBf_sim hW w s k v) hp hne n v

theorem nttmul_gs_rev2std_sim {a p : Ref} (hW : W a) (hp : S p) (hne : p ≠ a) (n : Nat) (v : Array Int) :
    Sim S W (upd μ a v) (Post μ a) (_root_.Ntt.nttmul_gs_rev2std v n (μ p)) (nttmul_gs_rev2std a n p) := by
  unfold nttmul_gs_rev2std _root_.Ntt.nttmul_gs_rev2std
  exact gsMulRev2std_sim (fun w s k v => gsBf_sim hW w s k v) hp hne n v

theorem ntt_gs_std2rev_sim {a p : Ref} (hW : W a) (hp : S p) (hne : p ≠ a) (n : Nat) (v : Array Int) :
    Sim S W (upd μ a v) (Post μ a) (_root_.Ntt.ntt_gs_std2rev v n (μ p)) (ntt_gs_std2rev a n p) := by
  unfold ntt_gs_std2rev _root_.Ntt.ntt_gs_std2rev
  exact gsStd2rev_sim (fun s k v => bf0_sim hW s k v) (fun w s k v => gsBf_sim hW w s k v) hp hne n v

theorem nttmul_gs_std2rev_sim {a p : Ref} (hW : W a) (hp : S p) (hne : p ≠ a) (n : Nat) (v : Array Int) :
    Sim S W (upd μ a v) (Post μ a) (_root_.Ntt.nttmul_gs_std2rev v n (μ p)) (nttmul_gs_std2rev a n p) := by
  unfold nttmul_gs_std2rev _root_.Ntt.nttmul_gs_std2rev
  exact gsMulStd2rev_sim (fun w s k v => gsBf_sim hW w s k v) hp hne n v

theorem fwd_ct_rev2std_sim {t : Tables.Nttables} {tb : String → Ref} {a : Ref} (hW : W a) (hS : ∀ x ∈ tableNames, S (tb x))
    (hT : Fresh tb a) (htb : TablesAt μ tb t) (n : Nat) (v : Array Int) :
    Sim S W (upd μ a v) (Post μ a) (_root_.Ntt.fwd_ct_rev2std t n v) (fwd_ct_rev2std tb n a) := by
  unfold fwd_ct_rev2std _root_.Ntt.fwd_ct_rev2std
  rw [← htb.omega_powers]
  exact ntt_ct_rev2std_sim hW (hS _ (by decide)) (hT _ (by decide)) n v

theorem fwd_gs_rev2std_sim {t : Tables.Nttables} {tb : String → Ref} {a : Ref} (hW : W a) (hS : ∀ x ∈ tableNames, S (tb x))
    (hT : Fresh tb a) (htb : TablesAt μ tb t) (n : Nat) (v : Array Int) :
    Sim S W (upd μ a v) (Post μ a) (_root_.Ntt.fwd_gs_rev2std t n v) (fwd_gs_rev2std tb n a) := by
  unfold fwd_gs_rev2std _root_.Ntt.fwd_gs_rev2std
  rw [← htb.omega_powers_rev]
  exact ntt_gs_rev2std_sim hW (hS _ (by decide)) (hT _ (by decide)) n v

theorem fwd_ct_std2rev_sim {t : Tables.Nttables} {tb : String → Ref} {a : Ref} (hW : W a) (hS : ∀ x ∈ tableNames, S (tb x))
    (hT : Fresh tb a) (htb : TablesAt μ tb t) (n : Nat) (v : Array Int) :
    Sim S W (upd μ a v) (Post μ a) (_root_.Ntt.fwd_ct_std2rev t n v) (fwd_ct_std2rev tb n a) := by
  unfold fwd_ct_std2rev _root_.Ntt.fwd_ct_std2rev
  rw [← htb.omega_powers_rev]
  exact ntt_ct_std2rev_sim hW (hS _ (by decide)) (hT _ (by decide)) n v

theorem fwd_gs_std2rev_sim {t : Tables.Nttables} {tb : String → Ref} {a : Ref} (hW : W a) (hS : ∀ x ∈ tableNames, S (tb x))
    (hT : Fresh tb a) (htb : TablesAt μ tb t) (n : Nat) (v : Array Int) :
    Sim S W (upd μ a v) (Post μ a) (_root_.Ntt.fwd_gs_std2rev t n v) (fwd_gs_std2rev tb n a) := by
  unfold fwd_gs_std2rev _root_.Ntt.fwd_gs_std2rev
  rw [← htb.omega_powers]
  exact ntt_gs_std2rev_sim hW (hS _ (by decide)) (hT _ (by decide)) n v

theorem intt_ct_rev2std_sim {t : Tables.Nttables} {tb : String → Ref} {a : Ref} (hW : W a) (hS : ∀ x ∈ tableNames, S (tb x))
    (hT : Fresh tb a) (htb : TablesAt μ tb t) (n : Nat) (v : Array Int) :
    Sim S W (upd μ a v) (Post μ a) (_root_.Ntt.intt_ct_rev2std t n v) (intt_ct_rev2std tb n a) := by
  unfold intt_ct_rev2std _root_.Ntt.intt_ct_rev2std
  rw [← htb.inv_omega_powers]
  exact ntt_ct_rev2std_sim hW (hS _ (by decide)) (hT _ (by decide)) n v

theorem intt_gs_rev2std_sim {t : Tables.Nttables} {tb : String → Ref} {a : Ref} (hW : W a) (hS : ∀ x ∈ tableNames, S (tb x))
    (hT : Fresh tb a) (htb : TablesAt μ tb t) (n : Nat) (v : Array Int) :
    Sim S W (upd μ a v) (Post μ a) (_root_.Ntt.intt_gs_rev2std t n v) (intt_gs_rev2std tb n a) := by
  unfold intt_gs_rev2std _root_.Ntt.intt_gs_rev2std
  rw [← htb.inv_omega_powers_rev]
  exact ntt_gs_rev2std_sim hW (hS _ (by decide)) (hT _ (by decide)) n v

theorem intt_ct_std2rev_sim {t : Tables.Nttables} {tb : String → Ref} {a : Ref} (hW : W a) (hS : ∀ x ∈ tableNames, S (tb x))
    (hT : Fresh tb a) (htb : TablesAt μ tb t) (n : Nat) (v : Array Int) :
    Sim S W (upd μ a v) (Post μ a) (_root_.Ntt.intt_ct_std2rev t n v) (intt_ct_std2rev tb n a) := by
  unfold intt_ct_std2rev _root_.Ntt.intt_ct_std2rev
  rw [← htb.inv_omega_powers_rev]
  exact ntt_ct_std2rev_sim hW (hS _ (by decide)) (hT _ (by decide)) n v

theorem intt_gs_std2rev_sim {t : Tables.Nttables} {tb : String → Ref} {a : Ref} (hW : W a) (hS : ∀ x ∈ tableNames, S (tb x))
    (hT : Fresh tb a) (htb : TablesAt μ tb t) (n : Nat) (v : Array Int) :
    Sim S W (upd μ a v) (Post μ a) (_root_.Ntt.intt_gs_std2rev t n v) (intt_gs_std2rev tb n a) := by
  unfold intt_gs_std2rev _root_.Ntt.intt_gs_std2rev
  rw [← htb.inv_omega_powers]
  exact ntt_gs_std2rev_sim hW (hS _ (by decide)) (hT _ (by decide)) n v

theorem fwdmul_ct_rev2std_sim {t : Tables.Nttables} {tb : String → Ref} {a : Ref} (hW : W a) (hS : ∀ x ∈ tableNames, S (tb x))
    (hT : Fresh tb a) (htb : TablesAt μ tb t) (n : Nat) (v : Array Int) :
    Sim S W (upd μ a v) (Post μ a) (_root_.Ntt.fwdmul_ct_rev2std t n v) (fwdmul_ct_rev2std tb n a) := by
  unfold fwdmul_ct_rev2std _root_.Ntt.fwdmul_ct_rev2std
  rw [← htb.mixed_powers]
  exact mulntt_ct_rev2std_sim hW (hS _ (by decide)) (hT _ (by decide)) n v

theorem fwdmul_ct_std2rev_sim {t : Tables.Nttables} {tb : String → Ref} {a : Ref} (hW : W a) (hS : ∀ x ∈ tableNames, S (tb x))
    (hT : Fresh tb a) (htb : TablesAt μ tb t) (n : Nat) (v : Array Int) :
    Sim S W (upd μ a v) (Post μ a) (_root_.Ntt.fwdmul_ct_std2rev t n v) (fwdmul_ct_std2rev tb n a) := by
  unfold fwdmul_ct_std2rev _root_.Ntt.fwdmul_ct_std2rev
  rw [← htb.mixed_powers_rev]
  exact mulntt_ct_std2rev_sim hW (hS _ (by decide)) (hT _ (by decide)) n v

theorem inttmul_gs_rev2std_sim {t : Tables.Nttables} {tb : String → Ref} {a : Ref} (hW : W a) (hS : ∀ x ∈ tableNames, S (tb x))
    (hT : Fresh tb a) (htb : TablesAt μ tb t) (n : Nat) (v : Array Int) :
    Sim S W (upd μ a v) (Post μ a) (_root_.Ntt.inttmul_gs_rev2std t n v) (inttmul_gs_rev2std tb n a) := by
  unfold inttmul_gs_rev2std _root_.Ntt.inttmul_gs_rev2std
  rw [← htb.inv_mixed_powers_rev]
  exact nttmul_gs_rev2std_sim hW (hS _ (by decide)) (hT _ (by decide)) n v

theorem inttmul_gs_std2rev_sim {t : Tables.Nttables} {tb : String → Ref} {a : Ref} (hW : W a) (hS : ∀ x ∈ tableNames, S (tb x))
    (hT : Fresh tb a) (htb : TablesAt μ tb t) (n : Nat) (v : Array Int) :
    Sim S W (upd μ a v) (Post μ a) (_root_.Ntt.inttmul_gs_std2rev t n v) (inttmul_gs_std2rev tb n a) := by
  unfold inttmul_gs_std2rev _root_.Ntt.inttmul_gs_std2rev
  rw [← htb.inv_mixed_powers]
  exact nttmul_gs_std2rev_sim hW (hS _ (by decide)) (hT _ (by decide)) n v

theorem product1_sim {t : Tables.Nttables} {tb : String → Ref} {a b c : Ref} (hWa : W a) (hWb : W b) (hWc : W c)
    (hS : ∀ x ∈ tableNames, S (tb x)) (hTa : Fresh tb a) (hTb : Fresh tb b) (hTc : Fresh tb c) (hab : a ≠ b)
    {n : Nat} (hn : n < 2 ^ 32) {va vb vc : Array Int} (htb : TablesAt μ tb t) (ea : μ a = va) (eb : μ b = vb)
    (hvc : vc.size = n) (hc : (μ c).size = n) :
    Sim S W μ (ProductPost μ c a b) (_root_.Ntt.product1 t n vc va vb) (product1 tb n c a b) := by
  unfold product1 _root_.Ntt.product1
  have fr0 : ∀ k, k ≠ c → k ≠ a → k ≠ b → μ k = μ k := fun _ _ _ _ => rfl
  refine Sim.step ea (by tabs htb; exact mul_array16_sim hWa (hS _ (by decide)) (hTa _ (by decide)) _ _) fun va m1 ea ne sz => ?_
  have htb := htb.frame hTa ne
  have eb := (ne b hab.symm).trans eb
  have hc := (sz c).trans hc
  have fr1 : ∀ k, k ≠ c → k ≠ a → k ≠ b → m1 k = μ k := fun k h1 h2 h3 => (ne k h2).trans (fr0 k h1 h2 h3)
  refine Sim.step ea (fwd_ct_std2rev_sim hWa hS hTa htb _ _) fun va m2 ea ne sz => ?_
  have htb := htb.frame hTa ne
  have eb := (ne b hab.symm).trans eb
  have hc := (sz c).trans hc
  have fr2 : ∀ k, k ≠ c → k ≠ a → k ≠ b → m2 k = μ k := fun k h1 h2 h3 => (ne k h2).trans (fr1 k h1 h2 h3)
  refine Sim.step eb (by tabs htb; exact mul_array16_sim hWb (hS _ (by decide)) (hTb _ (by decide)) _ _) fun vb m3 eb ne sz => ?_
  have htb := htb.frame hTb ne
  have ea := (ne a hab).trans ea
  have hc := (sz c).trans hc
  have fr3 : ∀ k, k ≠ c → k ≠ a → k ≠ b → m3 k = μ k := fun k h1 h2 h3 => (ne k h3).trans (fr2 k h1 h2 h3)
  refine Sim.step eb (fwd_ct_std2rev_sim hWb hS hTb htb _ _) fun vb m4 eb ne sz => ?_
  have htb := htb.frame hTb ne
  have ea := (ne a hab).trans ea
  have hc := (sz c).trans hc
  have fr4 : ∀ k, k ≠ c → k ≠ a → k ≠ b → m4 k = μ k := fun k h1 h2 h3 => (ne k h3).trans (fr3 k h1 h2 h3)
  refine Sim.stepMul (mul_array_sim hWa hWb hWc hn ea eb hvc hc) fun vc m5 ec ne sz => ?_
  have htb := htb.frame hTc ne
  have ea : a ≠ c → m5 a = _ := fun h => (ne a h).trans ea
  have eb : b ≠ c → m5 b = _ := fun h => (ne b h).trans eb
  have fr5 : ∀ k, k ≠ c → k ≠ a → k ≠ b → m5 k = μ k := fun k h1 h2 h3 => (ne k h1).trans (fr4 k h1 h2 h3)
  refine Sim.step ec (intt_ct_rev2std_sim hWc hS hTc htb _ _) fun vc m6 ec ne sz => ?_
  have htb := htb.frame hTc ne
  have ea : a ≠ c → m6 a = _ := fun h => (ne a h).trans (ea h)
  have eb : b ≠ c → m6 b = _ := fun h => (ne b h).trans (eb h)
  have fr6 : ∀ k, k ≠ c → k ≠ a → k ≠ b → m6 k = μ k := fun k h1 h2 h3 => (ne k h1).trans (fr5 k h1 h2 h3)
  refine Sim.step ec (by tabs htb; exact mul_array16_sim hWc (hS _ (by decide)) (hTc _ (by decide)) _ _) fun vc m7 ec ne sz => ?_
  have htb := htb.frame hTc ne
  have ea : a ≠ c → m7 a = _ := fun h => (ne a h).trans (ea h)
  have eb : b ≠ c → m7 b = _ := fun h => (ne b h).trans (eb h)
  have fr7 : ∀ k, k ≠ c → k ≠ a → k ≠ b → m7 k = μ k := fun k h1 h2 h3 => (ne k h1).trans (fr6 k h1 h2 h3)
  exact Sim.pure ⟨rfl, ec, ea, eb, fr7⟩

theorem product2_sim {t : Tables.Nttables} {tb : String → Ref} {a b c : Ref} (hWa : W a) (hWb : W b) (hWc : W c)
    (hS : ∀ x ∈ tableNames, S (tb x)) (hTa : Fresh tb a) (hTb : Fresh tb b) (hTc : Fresh tb c) (hab : a ≠ b)
    {n : Nat} (hn : n < 2 ^ 32) {va vb vc : Array Int} (htb : TablesAt μ tb t) (ea : μ a = va) (eb : μ b = vb)
    (hvc : vc.size = n) (hc : (μ c).size = n) :
    Sim S W μ (ProductPost μ c a b) (_root_.Ntt.product2 t n vc va vb) (product2 tb n c a b) := by
  unfold product2 _root_.Ntt.product2
  have fr0 : ∀ k, k ≠ c → k ≠ a → k ≠ b → μ k = μ k := fun _ _ _ _ => rfl
  refine Sim.step ea (by tabs htb; exact mul_array16_sim hWa (hS _ (by decide)) (hTa _ (by decide)) _ _) fun va m1 ea ne sz => ?_
  have htb := htb.frame hTa ne
  have eb := (ne b hab.symm).trans eb
  have hc := (sz c).trans hc
  have fr1 : ∀ k, k ≠ c → k ≠ a → k ≠ b → m1 k = μ k := fun k h1 h2 h3 => (ne k h2).trans (fr0 k h1 h2 h3)
  refine Sim.step ea (fwd_gs_std2rev_sim hWa hS hTa htb _ _) fun va m2 ea ne sz => ?_
  have htb := htb.frame hTa ne
  have eb := (ne b hab.symm).trans eb
  have hc := (sz c).trans hc
  have fr2 : ∀ k, k ≠ c → k ≠ a → k ≠ b → m2 k = μ k := fun k h1 h2 h3 => (ne k h2).trans (fr1 k h1 h2 h3)
  refine Sim.step eb (by tabs htb; exact mul_array16_sim hWb (hS _ (by decide)) (hTb _ (by decide)) _ _) fun vb m3 eb ne sz => ?_
  have htb := htb.frame hTb ne
  have ea := (ne a hab).trans ea
  have hc := (sz c).trans hc
  have fr3 : ∀ k, k ≠ c → k ≠ a → k ≠ b → m3 k = μ k := fun k h1 h2 h3 => (ne k h3).trans (fr2 k h1 h2 h3)
  refine Sim.step eb (fwd_gs_std2rev_sim hWb hS hTb htb _ _) fun vb m4 eb ne sz => ?_
  have htb := htb.frame hTb ne
  have ea := (ne a hab).trans ea
  have hc := (sz c).trans hc
  have fr4 : ∀ k, k ≠ c → k ≠ a → k ≠ b → m4 k = μ k := fun k h1 h2 h3 => (ne k h3).trans (fr3 k h1 h2 h3)
  refine Sim.stepMul (mul_array_sim hWa hWb hWc hn ea eb hvc hc) fun vc m5 ec ne sz => ?_
  have htb := htb.frame hTc ne
  have ea : a ≠ c → m5 a = _ := fun h => (ne a h).trans ea
  have eb : b ≠ c → m5 b = _ := fun h => (ne b h).trans eb
  have fr5 : ∀ k, k ≠ c → k ≠ a → k ≠ b → m5 k = μ k := fun k h1 h2 h3 => (ne k h1).trans (fr4 k h1 h2 h3)
  refine Sim.step ec (intt_ct_rev2std_sim hWc hS hTc htb _ _) fun vc m6 ec ne sz => ?_
  have htb := htb.frame hTc ne
  have ea : a ≠ c → m6 a = _ := fun h => (ne a h).trans (ea h)
  have eb : b ≠ c → m6 b = _ := fun h => (ne b h).trans (eb h)
  have fr6 : ∀ k, k ≠ c → k ≠ a → k ≠ b → m6 k = μ k := fun k h1 h2 h3 => (ne k h1).trans (fr5 k h1 h2 h3)
  refine Sim.step ec (by tabs htb; exact mul_array16_sim hWc (hS _ (by decide)) (hTc _ (by decide)) _ _) fun vc m7 ec ne sz => ?_
  have htb := htb.frame hTc ne
  have ea : a ≠ c → m7 a = _ := fun h => (ne a h).trans (ea h)
  have eb : b ≠ c → m7 b = _ := fun h => (ne b h).trans (eb h)
  have fr7 : ∀ k, k ≠ c → k ≠ a → k ≠ b → m7 k = μ k := fun k h1 h2 h3 => (ne k h1).trans (fr6 k h1 h2 h3)
  exact Sim.pure ⟨rfl, ec, ea, eb, fr7⟩

theorem product3_sim {t : Tables.Nttables} {tb : String → Ref} {a b c : Ref} (hWa : W a) (hWb : W b) (hWc : W c)
    (hS : ∀ x ∈ tableNames, S (tb x)) (hTa : Fresh tb a) (hTb : Fresh tb b) (hTc : Fresh tb c) (hab : a ≠ b)
    {n : Nat} (hn : n < 2 ^ 32) {va vb vc : Array Int} (htb : TablesAt μ tb t) (ea : μ a = va) (eb : μ b = vb)
    (hvc : vc.size = n) (hc : (μ c).size = n) :
    Sim S W μ (ProductPost μ c a b) (_root_.Ntt.product3 t n vc va vb) (product3 tb n c a b) := by
  unfold product3 _root_.Ntt.product3
  have fr0 : ∀ k, k ≠ c → k ≠ a → k ≠ b → μ k = μ k := fun _ _ _ _ => rfl
  refine Sim.step ea (by tabs htb; exact mul_array16_sim hWa (hS _ (by decide)) (hTa _ (by decide)) _ _) fun va m1 ea ne sz => ?_
  have htb := htb.frame hTa ne
  have eb := (ne b hab.symm).trans eb
  have hc := (sz c).trans hc
  have fr1 : ∀ k, k ≠ c → k ≠ a → k ≠ b → m1 k = μ k := fun k h1 h2 h3 => (ne k h2).trans (fr0 k h1 h2 h3)
  refine Sim.step ea (fwd_ct_std2rev_sim hWa hS hTa htb _ _) fun va m2 ea ne sz => ?_
  have htb := htb.frame hTa ne
  have eb := (ne b hab.symm).trans eb
  have hc := (sz c).trans hc
  have fr2 : ∀ k, k ≠ c → k ≠ a → k ≠ b → m2 k = μ k := fun k h1 h2 h3 => (ne k h2).trans (fr1 k h1 h2 h3)
  refine Sim.step eb (by tabs htb; exact mul_array16_sim hWb (hS _ (by decide)) (hTb _ (by decide)) _ _) fun vb m3 eb ne sz => ?_
  have htb := htb.frame hTb ne
  have ea := (ne a hab).trans ea
  have hc := (sz c).trans hc
  have fr3 : ∀ k, k ≠ c → k ≠ a → k ≠ b → m3 k = μ k := fun k h1 h2 h3 => (ne k h3).trans (fr2 k h1 h2 h3)
  refine Sim.step eb (fwd_ct_std2rev_sim hWb hS hTb htb _ _) fun vb m4 eb ne sz => ?_
  have htb := htb.frame hTb ne
  have ea := (ne a hab).trans ea
  have hc := (sz c).trans hc
  have fr4 : ∀ k, k ≠ c → k ≠ a → k ≠ b → m4 k = μ k := fun k h1 h2 h3 => (ne k h3).trans (fr3 k h1 h2 h3)
  refine Sim.stepMul (mul_array_sim hWa hWb hWc hn ea eb hvc hc) fun vc m5 ec ne sz => ?_
  have htb := htb.frame hTc ne
  have ea : a ≠ c → m5 a = _ := fun h => (ne a h).trans ea
  have eb : b ≠ c → m5 b = _ := fun h => (ne b h).trans eb
  have fr5 : ∀ k, k ≠ c → k ≠ a → k ≠ b → m5 k = μ k := fun k h1 h2 h3 => (ne k h1).trans (fr4 k h1 h2 h3)
  refine Sim.step ec (intt_gs_rev2std_sim hWc hS hTc htb _ _) fun vc m6 ec ne sz => ?_
  have htb := htb.frame hTc ne
  have ea : a ≠ c → m6 a = _ := fun h => (ne a h).trans (ea h)
  have eb : b ≠ c → m6 b = _ := fun h => (ne b h).trans (eb h)
  have fr6 : ∀ k, k ≠ c → k ≠ a → k ≠ b → m6 k = μ k := fun k h1 h2 h3 => (ne k h1).trans (fr5 k h1 h2 h3)
  refine Sim.step ec (by tabs htb; exact mul_array16_sim hWc (hS _ (by decide)) (hTc _ (by decide)) _ _) fun vc m7 ec ne sz => ?_
  have htb := htb.frame hTc ne
  have ea : a ≠ c → m7 a = _ := fun h => (ne a h).trans (ea h)
  have eb : b ≠ c → m7 b = _ := fun h => (ne b h).trans (eb h)
  have fr7 : ∀ k, k ≠ c → k ≠ a → k ≠ b → m7 k = μ k := fun k h1 h2 h3 => (ne k h1).trans (fr6 k h1 h2 h3)
  exact Sim.pure ⟨rfl, ec, ea, eb, fr7⟩

theorem product4_sim {t : Tables.Nttables} {tb : String → Ref} {a b c : Ref} (hWa : W a) (hWb : W b) (hWc : W c)
    (hS : ∀ x ∈ tableNames, S (tb x)) (hTa : Fresh tb a) (hTb : Fresh tb b) (hTc : Fresh tb c) (hab : a ≠ b)
    {n : Nat} (hn : n < 2 ^ 32) {va vb vc : Array Int} (htb : TablesAt μ tb t) (ea : μ a = va) (eb : μ b = vb)
    (hvc : vc.size = n) (hc : (μ c).size = n) :
    Sim S W μ (ProductPost μ c a b) (_root_.Ntt.product4 t n vc va vb) (product4 tb n c a b) := by
  unfold product4 _root_.Ntt.product4
  have fr0 : ∀ k, k ≠ c → k ≠ a → k ≠ b → μ k = μ k := fun _ _ _ _ => rfl
  refine Sim.step ea (by tabs htb; exact mul_array16_sim hWa (hS _ (by decide)) (hTa _ (by decide)) _ _) fun va m1 ea ne sz => ?_
  have htb := htb.frame hTa ne
  have eb := (ne b hab.symm).trans eb
  have hc := (sz c).trans hc
  have fr1 : ∀ k, k ≠ c → k ≠ a → k ≠ b → m1 k = μ k := fun k h1 h2 h3 => (ne k h2).trans (fr0 k h1 h2 h3)
  refine Sim.step ea (fwd_gs_std2rev_sim hWa hS hTa htb _ _) fun va m2 ea ne sz => ?_
  have htb := htb.frame hTa ne
  have eb := (ne b hab.symm).trans eb
  have hc := (sz c).trans hc
  have fr2 : ∀ k, k ≠ c → k ≠ a → k ≠ b → m2 k = μ k := fun k h1 h2 h3 => (ne k h2).trans (fr1 k h1 h2 h3)
  refine Sim.step eb (by tabs htb; exact mul_array16_sim hWb (hS _ (by decide)) (hTb _ (by decide)) _ _) fun vb m3 eb ne sz => ?_
  have htb := htb.frame hTb ne
  have ea := (ne a hab).trans ea
  have hc := (sz c).trans hc
  have fr3 : ∀ k, k ≠ c → k ≠ a → k ≠ b → m3 k = μ k := fun k h1 h2 h3 => (ne k h3).trans (fr2 k h1 h2 h3)
  refine Sim.step eb (fwd_gs_std2rev_sim hWb hS hTb htb _ _) fun vb m4 eb ne sz => ?_
  have htb := htb.frame hTb ne
  have ea := (ne a hab).trans ea
  have hc := (sz c).trans hc
  have fr4 : ∀ k, k ≠ c → k ≠ a → k ≠ b → m4 k = μ k := fun k h1 h2 h3 => (ne k h3).trans (fr3 k h1 h2 h3)
  refine Sim.stepMul (mul_array_sim hWa hWb hWc hn ea eb hvc hc) fun vc m5 ec ne sz => ?_
  have htb := htb.frame hTc ne
  have ea : a ≠ c → m5 a = _ := fun h => (ne a h).trans ea
  have eb : b ≠ c → m5 b = _ := fun h => (ne b h).trans eb
  have fr5 : ∀ k, k ≠ c → k ≠ a → k ≠ b → m5 k = μ k := fun k h1 h2 h3 => (ne k h1).trans (fr4 k h1 h2 h3)
  refine Sim.step ec (intt_gs_rev2std_sim hWc hS hTc htb _ _) fun vc m6 ec ne sz => ?_
  have htb := htb.frame hTc ne
  have ea : a ≠ c → m6 a = _ := fun h => (ne a h).trans (ea h)
  have eb : b ≠ c → m6 b = _ := fun h => (ne b h).trans (eb h)
  have fr6 : ∀ k, k ≠ c → k ≠ a → k ≠ b → m6 k = μ k := fun k h1 h2 h3 => (ne k h1).trans (fr5 k h1 h2 h3)
  refine Sim.step ec (by tabs htb; exact mul_array16_sim hWc (hS _ (by decide)) (hTc _ (by decide)) _ _) fun vc m7 ec ne sz => ?_
  have htb := htb.frame hTc ne
  have ea : a ≠ c → m7 a = _ := fun h => (ne a h).trans (ea h)
  have eb : b ≠ c → m7 b = _ := fun h => (ne b h).trans (eb h)
  have fr7 : ∀ k, k ≠ c → k ≠ a → k ≠ b → m7 k = μ k := fun k h1 h2 h3 => (ne k h1).trans (fr6 k h1 h2 h3)
  exact Sim.pure ⟨rfl, ec, ea, eb, fr7⟩

theorem product5_sim {t : Tables.Nttables} {tb : String → Ref} {a b c : Ref} (hWa : W a) (hWb : W b) (hWc : W c)
    (hS : ∀ x ∈ tableNames, S (tb x)) (hTa : Fresh tb a) (hTb : Fresh tb b) (hTc : Fresh tb c) (hab : a ≠ b)
    {n : Nat} (hn : n < 2 ^ 32) {va vb vc : Array Int} (htb : TablesAt μ tb t) (ea : μ a = va) (eb : μ b = vb)
    (hvc : vc.size = n) (hc : (μ c).size = n) :
    Sim S W μ (ProductPost μ c a b) (_root_.Ntt.product5 t n vc va vb) (product5 t tb n c a b) := by
  unfold product5 _root_.Ntt.product5
  have fr0 : ∀ k, k ≠ c → k ≠ a → k ≠ b → μ k = μ k := fun _ _ _ _ => rfl
  refine Sim.step ea (fwdmul_ct_std2rev_sim hWa hS hTa htb _ _) fun va m1 ea ne sz => ?_
  have htb := htb.frame hTa ne
  have eb := (ne b hab.symm).trans eb
  have hc := (sz c).trans hc
  have fr1 : ∀ k, k ≠ c → k ≠ a → k ≠ b → m1 k = μ k := fun k h1 h2 h3 => (ne k h2).trans (fr0 k h1 h2 h3)
  refine Sim.step eb (fwdmul_ct_std2rev_sim hWb hS hTb htb _ _) fun vb m2 eb ne sz => ?_
  have htb := htb.frame hTb ne
  have ea := (ne a hab).trans ea
  have hc := (sz c).trans hc
  have fr2 : ∀ k, k ≠ c → k ≠ a → k ≠ b → m2 k = μ k := fun k h1 h2 h3 => (ne k h3).trans (fr1 k h1 h2 h3)
  refine Sim.stepMul (mul_array_sim hWa hWb hWc hn ea eb hvc hc) fun vc m3 ec ne sz => ?_
  have htb := htb.frame hTc ne
  have ea : a ≠ c → m3 a = _ := fun h => (ne a h).trans ea
  have eb : b ≠ c → m3 b = _ := fun h => (ne b h).trans eb
  have fr3 : ∀ k, k ≠ c → k ≠ a → k ≠ b → m3 k = μ k := fun k h1 h2 h3 => (ne k h1).trans (fr2 k h1 h2 h3)
  refine Sim.step ec (inttmul_gs_rev2std_sim hWc hS hTc htb _ _) fun vc m4 ec ne sz => ?_
  have htb := htb.frame hTc ne
  have ea : a ≠ c → m4 a = _ := fun h => (ne a h).trans (ea h)
  have eb : b ≠ c → m4 b = _ := fun h => (ne b h).trans (eb h)
  have fr4 : ∀ k, k ≠ c → k ≠ a → k ≠ b → m4 k = μ k := fun k h1 h2 h3 => (ne k h1).trans (fr3 k h1 h2 h3)
  refine Sim.step ec (scalar_mul_array_sim hWc _ _ _) fun vc m5 ec ne sz => ?_
  have htb := htb.frame hTc ne
  have ea : a ≠ c → m5 a = _ := fun h => (ne a h).trans (ea h)
  have eb : b ≠ c → m5 b = _ := fun h => (ne b h).trans (eb h)
  have fr5 : ∀ k, k ≠ c → k ≠ a → k ≠ b → m5 k = μ k := fun k h1 h2 h3 => (ne k h1).trans (fr4 k h1 h2 h3)
  exact Sim.pure ⟨rfl, ec, ea, eb, fr5⟩

end Ntt

namespace NttRed

theorem normalize_sim {a : Ref} (hW : W a) (n : Nat) (v : Array Int) :
    Sim S W (upd μ a v) (Post μ a) (_root_.NttRed.normalize v n) (normalize a n) := by
  unfold normalize _root_.NttRed.normalize
  refine Sim.up fun i v => ?_
  refine Sim.val (Sim.rd hW _) fun x => ?_
  refine Sim.val (Sim.lift _) fun x => ?_
  refine Sim.val (Sim.ifLift _ _ _) fun x => ?_
  refine Sim.val (Sim.lift _) fun _ => ?_
  exact Sim.wr hW _ _

theorem normalize_inv3_sim {a : Ref} (hW : W a) (n : Nat) (v : Array Int) :
    Sim S W (upd μ a v) (Post μ a) (_root_.NttRed.normalize_inv3 v n) (normalize_inv3 a n) := by
  unfold normalize_inv3 _root_.NttRed.normalize_inv3
  refine Sim.up fun i v => ?_
  refine Sim.val (Sim.rd hW _) fun x => ?_
  refine Sim.val (Sim.lift _) fun z => ?_
  refine Sim.val (Sim.lift _) fun z => ?_
  refine Sim.val (Sim.ifLift _ _ _) fun x => ?_
  refine Sim.val (Sim.lift _) fun _ => ?_
  exact Sim.wr hW _ _

theorem shift_array_sim {a : Ref} (hW : W a) (n : Nat) (v : Array Int) :
    Sim S W (upd μ a v) (Post μ a) (_root_.NttRed.shift_array v n) (shift_array a n) := by
  unfold shift_array _root_.NttRed.shift_array
  refine Sim.up fun i v => ?_
  refine Sim.val (Sim.rd hW _) fun x => ?_
  refine Sim.val (Sim.ifLift _ _ _) fun y => ?_
  exact Sim.wr hW _ _

theorem reduce_array_sim {a : Ref} (hW : W a) (n : Nat) (v : Array Int) :
    Sim S W (upd μ a v) (Post μ a) (_root_.NttRed.reduce_array v n) (reduce_array a n) := by
  unfold reduce_array _root_.NttRed.reduce_array
  refine Sim.up fun i v => ?_
  refine Sim.val (Sim.rd hW _) fun x => ?_
  generalize _root_.NttRed.red x = r
  refine Sim.val (Sim.lift r) fun y => ?_
  exact Sim.wr hW _ _

theorem reduce_array_twice_sim {a : Ref} (hW : W a) (n : Nat) (v : Array Int) :
    Sim S W (upd μ a v) (Post μ a) (_root_.NttRed.reduce_array_twice v n) (reduce_array_twice a n) := by
  unfold reduce_array_twice _root_.NttRed.reduce_array_twice
  refine Sim.up fun i v => ?_
  refine Sim.val (Sim.rd hW _) fun x => ?_
  generalize _root_.NttRed.red x = r
  refine Sim.val (Sim.lift r) fun y => ?_
  generalize _root_.NttRed.red y = r
  refine Sim.val (Sim.lift r) fun y => ?_
  exact Sim.wr hW _ _

theorem correct_sim {a : Ref} (hW : W a) (n : Nat) (v : Array Int) :
    Sim S W (upd μ a v) (Post μ a) (_root_.NttRed.correct v n) (correct a n) := by
  unfold correct _root_.NttRed.correct
  refine Sim.up fun i v => ?_
  refine Sim.val (Sim.rd hW _) fun x => ?_
  refine Sim.val (Sim.lift _) fun x => ?_
  refine Sim.val (Sim.lift _) fun x => ?_
  refine Sim.val (Sim.lift _) fun x => ?_
  exact Sim.wr hW _ _

theorem mul_reduce_array16_sim {a p : Ref} (hW : W a) (hp : S p) (hne : p ≠ a) (n : Nat) (v : Array Int) :
    Sim S W (upd μ a v) (Post μ a) (_root_.NttRed.mul_reduce_array16 v n (μ p)) (mul_reduce_array16 a n p) := by
  unfold mul_reduce_array16 _root_.NttRed.mul_reduce_array16
  refine Sim.up fun i v => ?_
  refine Sim.val (by first | exact Sim.rd hW _ | exact Sim.rdRo hp hne _) fun x => ?_
  refine Sim.val (by first | exact Sim.rd hW _ | exact Sim.rdRo hp hne _) fun y => ?_
  refine Sim.val (Sim.lift _) fun z => ?_
  exact Sim.wr hW _ _

theorem mul_reduce_array_sim {a b c : Ref} (hWa : W a) (hWb : W b) (hWc : W c) {n : Nat} (hn : n < 2 ^ 32)
    {va vb vc : Array Int} (ea : μ a = va) (eb : μ b = vb) (hvc : vc.size = n) (hc : (μ c).size = n) :
    Sim S W μ (Post μ c) (_root_.NttRed.mul_reduce_array vc n va vb) (mul_reduce_array c n a b) := by
  subst ea eb
  unfold mul_reduce_array _root_.NttRed.mul_reduce_array
  refine half_loop (a := a) (b := b) hn hvc hc (fun i f x hi hf hx hhi hw => ?_) hWc
  refine Sim.val (Sim.rdHalf hWa hhi) fun x => ?_
  refine Sim.val (Sim.rdHalf hWb hhi) fun y => ?_
  refine Sim.val (Sim.lift _) fun z => ?_
  exact hw _

theorem scalar_mul_reduce_array_sim {a : Ref} (hW : W a) (n : Nat) (c : Int) (v : Array Int) :
    Sim S W (upd μ a v) (Post μ a) (_root_.NttRed.scalar_mul_reduce_array v n c) (scalar_mul_reduce_array a n c) := by
  unfold scalar_mul_reduce_array _root_.NttRed.scalar_mul_reduce_array
  refine Sim.up fun i v => ?_
  refine Sim.val (Sim.rd hW _) fun x => ?_
  refine Sim.val (Sim.lift _) fun z => ?_
  exact Sim.wr hW _ _

theorem bf0_sim {a : Ref} (hW : W a) (s : Nat) (k : Nat) (v : Array Int) :
    Sim S W (upd μ a v) (Post μ a) (_root_.NttRed.bf0 s k v) (bf0 s k a) := by
  unfold bf0 _root_.NttRed.bf0
  refine Sim.val (Sim.rd hW _) fun x => ?_
  refine Sim.val (Sim.rd hW _) fun y => ?_
  refine Sim.val (Sim.lift _) fun v => ?_
  refine Sim.next (Sim.wr hW _ _) fun v => ?_
  refine Sim.val (Sim.rd hW _) fun y => ?_
  refine Sim.val (Sim.lift _) fun u => ?_
  exact Sim.wr hW _ _

theorem ctBf_sim {a : Ref} (hW : W a) (w : Int) (s : Nat) (k : Nat) (v : Array Int) :
    Sim S W (upd μ a v) (Post μ a) (_root_.NttRed.ctBf w s k v) (ctBf w s k a) := by
  unfold ctBf _root_.NttRed.ctBf
  refine Sim.val (Sim.rd hW _) fun z => ?_
  refine Sim.val (Sim.lift _) fun x => ?_
  refine Sim.val (Sim.rd hW _) fun y => ?_
  refine Sim.val (Sim.lift _) fun v => ?_
  refine Sim.next (Sim.wr hW _ _) fun v => ?_
  refine Sim.val (Sim.rd hW _) fun y => ?_
  refine Sim.val (Sim.lift _) fun u => ?_
  exact Sim.wr hW _ _

theorem gsBf_sim {a : Ref} (hW : W a) (w : Int) (s : Nat) (k : Nat) (v : Array Int) :
    Sim S W (upd μ a v) (Post μ a) (_root_.NttRed.gsBf w s k v) (gsBf w s k a) := by
  unfold gsBf _root_.NttRed.gsBf
  refine Sim.val (Sim.rd hW _) fun x => ?_
  refine Sim.val (Sim.rd hW _) fun y => ?_
  refine Sim.val (Sim.lift _) fun d => ?_
  refine Sim.val (Sim.lift _) fun v => ?_
  refine Sim.next (Sim.wr hW _ _) fun v => ?_
  refine Sim.val (Sim.rd hW _) fun y => ?_
  refine Sim.val (Sim.lift _) fun u => ?_
  exact Sim.wr hW _ _

theorem ntt_red_ct_rev2std_sim {a p : Ref} (hW : W a) (hp : S p) (hne : p ≠ a) (n : Nat) (v : Array Int) :
    Sim S W (upd μ a v) (Post μ a) (_root_.NttRed.ntt_red_ct_rev2std v n (μ p)) (ntt_red_ct_rev2std a n p) := by
  unfold ntt_red_ct_rev2std _root_.NttRed.ntt_red_ct_rev2std
  exact ctRev2std_sim (fun s k v => bf0_sim hW s k v) (fun w s k v => ctBf_sim hW w s k v) hp hne n v

theorem mulntt_red_ct_rev2std_sim {a p : Ref} (hW : W a) (hp : S p) (hne : p ≠ a) (n : Nat) (v : Array Int) :
    Sim S W (upd μ a v) (Post μ a) (_root_.NttRed.mulntt_red_ct_rev2std v n (μ p)) (mulntt_red_ct_rev2std a n p) := by
  unfold mulntt_red_ct_rev2std _root_.NttRed.mulntt_red_ct_rev2std
  exact mulCtRev2std_sim (fun w s k v => ctBf_sim hW w s k v) hp hne n v

theorem ntt_red_ct_std2rev_sim {a p : Ref} (hW : W a) (hp : S p) (hne : p ≠ a) (n : Nat) (v : Array Int) :
    Sim S W (upd μ a v) (Post μ a) (_root_.NttRed.ntt_red_ct_std2rev v n (μ p)) (ntt_red_ct_std2rev a n p) := by
  unfold ntt_red_ct_std2rev _root_.NttRed.ntt_red_ct_std2rev
  exact ctStd2rev_sim (fun s k v => bf0_sim hW s k v) (fun w s k v => ctBf_sim hW w s k v) hp hne n v

theorem mulntt_red_ct_std2rev_sim {a p : Ref} (hW : W a) (hp : S p) (hne : p ≠ a) (n : Nat) (v : Array Int) :
    Sim S W (upd μ a v) (Post μ a) (_root_.NttRed.mulntt_red_ct_std2rev v n (μ p)) (mulntt_red_ct_std2rev a n p) := by
  unfold mulntt_red_ct_std2rev _root_.NttRed.mulntt_red_ct_std2rev
  exact mulCtStd2rev_sim (fun w s k v => ctBf_sim hW w s k v) hp hne n v

theorem ntt_red_gs_rev2std_sim {a p : Ref} (hW : W a) (hp : S p) (hne : p ≠ a) (n : Nat) (v : Array Int) :
    Sim S W (upd μ a v) (Post μ a) (_root_.NttRed.ntt_red_gs_rev2std v n (μ p)) (ntt_red_gs_rev2std a n p) := by
  unfold ntt_red_gs_rev2std _root_.NttRed.ntt_red_gs_rev2std
  exact gsRev2std_sim (fun s k v => bf0_sim hW s k v) (fun w s k v => gsBf_sim hW w s k v) hp hne n v

theorem nttmul_red_gs_rev2std_sim {a p : Ref} (hW : W a) (hp : S p) (hne : p ≠ a) (n : Nat) (v : Array Int) :
    Sim S W (upd μ a v) (Post μ a) (_root_.NttRed.nttmul_red_gs_rev2std v n (μ p)) (nttmul_red_gs_rev2std a n p) := by
  unfold nttmul_red_gs_rev2std _root_.NttRed.nttmul_red_gs_rev2std
  exact gsMulRev2std_sim (fun w s k v => gsBf_sim hW w s k v) hp hne n v

theorem ntt_red_gs_std2rev_sim {a p : Ref} (hW : W a) (hp : S p) (hne : p ≠ a) (n : Nat) (v : Array Int) :
    Sim S W (upd μ a v) (Post μ a) (_root_.NttRed.ntt_red_gs_std2rev v n (μ p)) (ntt_red_gs_std2rev a n p) := by
  unfold ntt_red_gs_std2rev _root_.NttRed.ntt_red_gs_std2rev
  exact gsStd2rev_sim (fun s k v => bf0_sim hW s k v) (fun w s k v => gsBf_sim hW w s k v) hp hne n v

theorem nttmul_red_gs_std2rev_sim {a p : Ref} (hW : W a) (hp : S p) (hne : p ≠ a) (n : Nat) (v : Array Int) :
    Sim S W (upd μ a v) (Post μ a) (_root_.NttRed.nttmul_red_gs_std2rev v n (μ p)) (nttmul_red_gs_std2rev a n p) := by
  unfold nttmul_red_gs_std2rev _root_.NttRed.nttmul_red_gs_std2rev
  exact gsMulStd2rev_sim (fun w s k v => gsBf_sim hW w s k v) hp hne n v

theorem fwd_ct_rev2std_sim {t : Tables.RedTables} {tb : String → Ref} {a : Ref} (hW : W a) (hS : ∀ x ∈ tableNames, S (tb x))
    (hT : Fresh tb a) (htb : RedTablesAt μ tb t) (n : Nat) (v : Array Int) :
    Sim S W (upd μ a v) (Post μ a) (_root_.NttRed.fwd_ct_rev2std t n v) (fwd_ct_rev2std tb n a) := by
  unfold fwd_ct_rev2std _root_.NttRed.fwd_ct_rev2std
  rw [← htb.omega_powers]
  exact ntt_red_ct_rev2std_sim hW (hS _ (by decide)) (hT _ (by decide)) n v

theorem fwd_gs_rev2std_sim {t : Tables.RedTables} {tb : String → Ref} {a : Ref} (hW : W a) (hS : ∀ x ∈ tableNames, S (tb x))
    (hT : Fresh tb a) (htb : RedTablesAt μ tb t) (n : Nat) (v : Array Int) :
    Sim S W (upd μ a v) (Post μ a) (_root_.NttRed.fwd_gs_rev2std t n v) (fwd_gs_rev2std tb n a) := by
  unfold fwd_gs_rev2std _root_.NttRed.fwd_gs_rev2std
  rw [← htb.omega_powers_rev]
  exact ntt_red_gs_rev2std_sim hW (hS _ (by decide)) (hT _ (by decide)) n v

theorem fwd_ct_std2rev_sim {t : Tables.RedTables} {tb : String → Ref} {a : Ref} (hW : W a) (hS : ∀ x ∈ tableNames, S (tb x))
    (hT : Fresh tb a) (htb : RedTablesAt μ tb t) (n : Nat) (v : Array Int) :
    Sim S W (upd μ a v) (Post μ a) (_root_.NttRed.fwd_ct_std2rev t n v) (fwd_ct_std2rev tb n a) := by
  unfold fwd_ct_std2rev _root_.NttRed.fwd_ct_std2rev
  rw [← htb.omega_powers_rev]
  exact ntt_red_ct_std2rev_sim hW (hS _ (by decide)) (hT _ (by decide)) n v

theorem fwd_gs_std2rev_sim {t : Tables.RedTables} {tb : String → Ref} {a : Ref} (hW : W a) (hS : ∀ x ∈ tableNames, S (tb x))
    (hT : Fresh tb a) (htb : RedTablesAt μ tb t) (n : Nat) (v : Array Int) :
    Sim S W (upd μ a v) (Post μ a) (_root_.NttRed.fwd_gs_std2rev t n v) (fwd_gs_std2rev tb n a) := by
  unfold fwd_gs_std2rev _root_.NttRed.fwd_gs_std2rev
  rw [← htb.omega_powers]
  exact ntt_red_gs_std2rev_sim hW (hS _ (by decide)) (hT _ (by decide)) n v

theorem intt_ct_rev2std_sim {t : Tables.RedTables} {tb : String → Ref} {a : Ref} (hW : W a) (hS : ∀ x ∈ tableNames, S (tb x))
    (hT : Fresh tb a) (htb : RedTablesAt μ tb t) (n : Nat) (v : Array Int) :
    Sim S W (upd μ a v) (Post μ a) (_root_.NttRed.intt_ct_rev2std t n v) (intt_ct_rev2std tb n a) := by
  unfold intt_ct_rev2std _root_.NttRed.intt_ct_rev2std
  rw [← htb.inv_omega_powers]
  exact ntt_red_ct_rev2std_sim hW (hS _ (by decide)) (hT _ (by decide)) n v

theorem intt_gs_rev2std_sim {t : Tables.RedTables} {tb : String → Ref} {a : Ref} (hW : W a) (hS : ∀ x ∈ tableNames, S (tb x))
    (hT : Fresh tb a) (htb : RedTablesAt μ tb t) (n : Nat) (v : Array Int) :
    Sim S W (upd μ a v) (Post μ a) (_root_.NttRed.intt_gs_rev2std t n v) (intt_gs_rev2std tb n a) := by
  unfold intt_gs_rev2std _root_.NttRed.intt_gs_rev2std
  rw [← htb.inv_omega_powers_rev]
  exact ntt_red_gs_rev2std_sim hW (hS _ (by decide)) (hT _ (by decide)) n v

theorem intt_ct_std2rev_sim {t : Tables.RedTables} {tb : String → Ref} {a : Ref} (hW : W a) (hS : ∀ x ∈ tableNames, S (tb x))
    (hT : Fresh tb a) (htb : RedTablesAt μ tb t) (n : Nat) (v : Array Int) :
    Sim S W (upd μ a v) (Post μ a) (_root_.NttRed.intt_ct_std2rev t n v) (intt_ct_std2rev tb n a) := by
  unfold intt_ct_std2rev _root_.NttRed.intt_ct_std2rev
  rw [← htb.inv_omega_powers_rev]
  exact ntt_red_ct_std2rev_sim hW (hS _ (by decide)) (hT _ (by decide)) n v

theorem intt_gs_std2rev_sim {t : Tables.RedTables} {tb : String → Ref} {a : Ref} (hW : W a) (hS : ∀ x ∈ tableNames, S (tb x))
    (hT : Fresh tb a) (htb : RedTablesAt μ tb t) (n : Nat) (v : Array Int) :
    Sim S W (upd μ a v) (Post μ a) (_root_.NttRed.intt_gs_std2rev t n v) (intt_gs_std2rev tb n a) := by
  unfold intt_gs_std2rev _root_.NttRed.intt_gs_std2rev
  rw [← htb.inv_omega_powers]
  exact ntt_red_gs_std2rev_sim hW (hS _ (by decide)) (hT _ (by decide)) n v

theorem fwdmul_ct_rev2std_sim {t : Tables.RedTables} {tb : String → Ref} {a : Ref} (hW : W a) (hS : ∀ x ∈ tableNames, S (tb x))
    (hT : Fresh tb a) (htb : RedTablesAt μ tb t) (n : Nat) (v : Array Int) :
    Sim S W (upd μ a v) (Post μ a) (_root_.NttRed.fwdmul_ct_rev2std t n v) (fwdmul_ct_rev2std tb n a) := by
  unfold fwdmul_ct_rev2std _root_.NttRed.fwdmul_ct_rev2std
  rw [← htb.mixed_powers]
  exact mulntt_red_ct_rev2std_sim hW (hS _ (by decide)) (hT _ (by decide)) n v

theorem fwdmul_ct_std2rev_sim {t : Tables.RedTables} {tb : String → Ref} {a : Ref} (hW : W a) (hS : ∀ x ∈ tableNames, S (tb x))
    (hT : Fresh tb a) (htb : RedTablesAt μ tb t) (n : Nat) (v : Array Int) :
    Sim S W (upd μ a v) (Post μ a) (_root_.NttRed.fwdmul_ct_std2rev t n v) (fwdmul_ct_std2rev tb n a) := by
  unfold fwdmul_ct_std2rev _root_.NttRed.fwdmul_ct_std2rev
  rw [← htb.mixed_powers_rev]
  exact mulntt_red_ct_std2rev_sim hW (hS _ (by decide)) (hT _ (by decide)) n v

theorem inttmul_gs_rev2std_sim {t : Tables.RedTables} {tb : String → Ref} {a : Ref} (hW : W a) (hS : ∀ x ∈ tableNames, S (tb x))
    (hT : Fresh tb a) (htb : RedTablesAt μ tb t) (n : Nat) (v : Array Int) :
    Sim S W (upd μ a v) (Post μ a) (_root_.NttRed.inttmul_gs_rev2std t n v) (inttmul_gs_rev2std tb n a) := by
  unfold inttmul_gs_rev2std _root_.NttRed.inttmul_gs_rev2std
  rw [← htb.inv_mixed_powers_rev]
  exact nttmul_red_gs_rev2std_sim hW (hS _ (by decide)) (hT _ (by decide)) n v

theorem inttmul_gs_std2rev_sim {t : Tables.RedTables} {tb : String → Ref} {a : Ref} (hW : W a) (hS : ∀ x ∈ tableNames, S (tb x))
    (hT : Fresh tb a) (htb : RedTablesAt μ tb t) (n : Nat) (v : Array Int) :
    Sim S W (upd μ a v) (Post μ a) (_root_.NttRed.inttmul_gs_std2rev t n v) (inttmul_gs_std2rev tb n a) := by
  unfold inttmul_gs_std2rev _root_.NttRed.inttmul_gs_std2rev
  rw [← htb.inv_mixed_powers]
  exact nttmul_red_gs_std2rev_sim hW (hS _ (by decide)) (hT _ (by decide)) n v

theorem shiftInput_sim {a : Ref} (hW : W a) (n : Nat) (sh : Bool) (v : Array Int) :
    Sim S W (upd μ a v) (Post μ a) (_root_.NttRed.shiftInput n sh v) (shiftInput n sh a) := by
  unfold shiftInput _root_.NttRed.shiftInput
  exact Sim.ite (shift_array_sim hW _ _) (Sim.pure ⟨rfl, rfl⟩)

theorem product1_sim {t : Tables.RedTables} {tb : String → Ref} {a b c : Ref} (hWa : W a) (hWb : W b) (hWc : W c)
    (hS : ∀ x ∈ tableNames, S (tb x)) (hTa : Fresh tb a) (hTb : Fresh tb b) (hTc : Fresh tb c) (hab : a ≠ b)
    {n : Nat} (sh : Bool) (hn : n < 2 ^ 32) {va vb vc : Array Int} (htb : RedTablesAt μ tb t) (ea : μ a = va) (eb : μ b = vb)
    (hvc : vc.size = n) (hc : (μ c).size = n) :
    Sim S W μ (ProductPost μ c a b) (_root_.NttRed.product1 t n sh vc va vb) (product1 tb n sh c a b) := by
  unfold product1 _root_.NttRed.product1
  have fr0 : ∀ k, k ≠ c → k ≠ a → k ≠ b → μ k = μ k := fun _ _ _ _ => rfl
  refine Sim.step ea (shiftInput_sim hWa _ _ _) fun va m1 ea ne sz => ?_
  have htb := htb.frame hTa ne
  have eb := (ne b hab.symm).trans eb
  have hc := (sz c).trans hc
  have fr1 : ∀ k, k ≠ c → k ≠ a → k ≠ b → m1 k = μ k := fun k h1 h2 h3 => (ne k h2).trans (fr0 k h1 h2 h3)
  refine Sim.step ea (by tabs htb; exact mul_reduce_array16_sim hWa (hS _ (by decide)) (hTa _ (by decide)) _ _) fun va m2 ea ne sz => ?_
  have htb := htb.frame hTa ne
  have eb := (ne b hab.symm).trans eb
  have hc := (sz c).trans hc
  have fr2 : ∀ k, k ≠ c → k ≠ a → k ≠ b → m2 k = μ k := fun k h1 h2 h3 => (ne k h2).trans (fr1 k h1 h2 h3)
  refine Sim.step ea (fwd_ct_std2rev_sim hWa hS hTa htb _ _) fun va m3 ea ne sz => ?_
  have htb := htb.frame hTa ne
  have eb := (ne b hab.symm).trans eb
  have hc := (sz c).trans hc
  have fr3 : ∀ k, k ≠ c → k ≠ a → k ≠ b → m3 k = μ k := fun k h1 h2 h3 => (ne k h2).trans (fr2 k h1 h2 h3)
  refine Sim.step ea (reduce_array_sim hWa _ _) fun va m4 ea ne sz => ?_
  have htb := htb.frame hTa ne
  have eb := (ne b hab.symm).trans eb
  have hc := (sz c).trans hc
  have fr4 : ∀ k, k ≠ c → k ≠ a → k ≠ b → m4 k = μ k := fun k h1 h2 h3 => (ne k h2).trans (fr3 k h1 h2 h3)
  refine Sim.step eb (shiftInput_sim hWb _ _ _) fun vb m5 eb ne sz => ?_
  have htb := htb.frame hTb ne
  have ea := (ne a hab).trans ea
  have hc := (sz c).trans hc
  have fr5 : ∀ k, k ≠ c → k ≠ a → k ≠ b → m5 k = μ k := fun k h1 h2 h3 => (ne k h3).trans (fr4 k h1 h2 h3)
  refine Sim.step eb (by tabs htb; exact mul_reduce_array16_sim hWb (hS _ (by decide)) (hTb _ (by decide)) _ _) fun vb m6 eb ne sz => ?_
  have htb := htb.frame hTb ne
  have ea := (ne a hab).trans ea
  have hc := (sz c).trans hc
  have fr6 : ∀ k, k ≠ c → k ≠ a → k ≠ b → m6 k = μ k := fun k h1 h2 h3 => (ne k h3).trans (fr5 k h1 h2 h3)
  refine Sim.step eb (fwd_ct_std2rev_sim hWb hS hTb htb _ _) fun vb m7 eb ne sz => ?_
  have htb := htb.frame hTb ne
  have ea := (ne a hab).trans ea
  have hc := (sz c).trans hc
  have fr7 : ∀ k, k ≠ c → k ≠ a → k ≠ b → m7 k = μ k := fun k h1 h2 h3 => (ne k h3).trans (fr6 k h1 h2 h3)
  refine Sim.step eb (reduce_array_sim hWb _ _) fun vb m8 eb ne sz => ?_
  have htb := htb.frame hTb ne
  have ea := (ne a hab).trans ea
  have hc := (sz c).trans hc
  have fr8 : ∀ k, k ≠ c → k ≠ a → k ≠ b → m8 k = μ k := fun k h1 h2 h3 => (ne k h3).trans (fr7 k h1 h2 h3)
  refine Sim.stepMul (mul_reduce_array_sim hWa hWb hWc hn ea eb hvc hc) fun vc m9 ec ne sz => ?_
  have htb := htb.frame hTc ne
  have ea : a ≠ c → m9 a = _ := fun h => (ne a h).trans ea
  have eb : b ≠ c → m9 b = _ := fun h => (ne b h).trans eb
  have fr9 : ∀ k, k ≠ c → k ≠ a → k ≠ b → m9 k = μ k := fun k h1 h2 h3 => (ne k h1).trans (fr8 k h1 h2 h3)
  refine Sim.step ec (reduce_array_twice_sim hWc _ _) fun vc m10 ec ne sz => ?_
  have htb := htb.frame hTc ne
  have ea : a ≠ c → m10 a = _ := fun h => (ne a h).trans (ea h)
  have eb : b ≠ c → m10 b = _ := fun h => (ne b h).trans (eb h)
  have fr10 : ∀ k, k ≠ c → k ≠ a → k ≠ b → m10 k = μ k := fun k h1 h2 h3 => (ne k h1).trans (fr9 k h1 h2 h3)
  refine Sim.step ec (intt_ct_rev2std_sim hWc hS hTc htb _ _) fun vc m11 ec ne sz => ?_
  have htb := htb.frame hTc ne
  have ea : a ≠ c → m11 a = _ := fun h => (ne a h).trans (ea h)
  have eb : b ≠ c → m11 b = _ := fun h => (ne b h).trans (eb h)
  have fr11 : ∀ k, k ≠ c → k ≠ a → k ≠ b → m11 k = μ k := fun k h1 h2 h3 => (ne k h1).trans (fr10 k h1 h2 h3)
  refine Sim.step ec (by tabs htb; exact mul_reduce_array16_sim hWc (hS _ (by decide)) (hTc _ (by decide)) _ _) fun vc m12 ec ne sz => ?_
  have htb := htb.frame hTc ne
  have ea : a ≠ c → m12 a = _ := fun h => (ne a h).trans (ea h)
  have eb : b ≠ c → m12 b = _ := fun h => (ne b h).trans (eb h)
  have fr12 : ∀ k, k ≠ c → k ≠ a → k ≠ b → m12 k = μ k := fun k h1 h2 h3 => (ne k h1).trans (fr11 k h1 h2 h3)
  refine Sim.step ec (reduce_array_twice_sim hWc _ _) fun vc m13 ec ne sz => ?_
  have htb := htb.frame hTc ne
  have ea : a ≠ c → m13 a = _ := fun h => (ne a h).trans (ea h)
  have eb : b ≠ c → m13 b = _ := fun h => (ne b h).trans (eb h)
  have fr13 : ∀ k, k ≠ c → k ≠ a → k ≠ b → m13 k = μ k := fun k h1 h2 h3 => (ne k h1).trans (fr12 k h1 h2 h3)
  refine Sim.step ec (correct_sim hWc _ _) fun vc m14 ec ne sz => ?_
  have htb := htb.frame hTc ne
  have ea : a ≠ c → m14 a = _ := fun h => (ne a h).trans (ea h)
  have eb : b ≠ c → m14 b = _ := fun h => (ne b h).trans (eb h)
  have fr14 : ∀ k, k ≠ c → k ≠ a → k ≠ b → m14 k = μ k := fun k h1 h2 h3 => (ne k h1).trans (fr13 k h1 h2 h3)
  exact Sim.pure ⟨rfl, ec, ea, eb, fr14⟩

theorem product2_sim {t : Tables.RedTables} {tb : String → Ref} {a b c : Ref} (hWa : W a) (hWb : W b) (hWc : W c)
    (hS : ∀ x ∈ tableNames, S (tb x)) (hTa : Fresh tb a) (hTb : Fresh tb b) (hTc : Fresh tb c) (hab : a ≠ b)
    {n : Nat} (sh : Bool) (hn : n < 2 ^ 32) {va vb vc : Array Int} (htb : RedTablesAt μ tb t) (ea : μ a = va) (eb : μ b = vb)
    (hvc : vc.size = n) (hc : (μ c).size = n) :
    Sim S W μ (ProductPost μ c a b) (_root_.NttRed.product2 t n sh vc va vb) (product2 tb n sh c a b) := by
  unfold product2 _root_.NttRed.product2
  have fr0 : ∀ k, k ≠ c → k ≠ a → k ≠ b → μ k = μ k := fun _ _ _ _ => rfl
  refine Sim.step ea (shiftInput_sim hWa _ _ _) fun va m1 ea ne sz => ?_
  have htb := htb.frame hTa ne
  have eb := (ne b hab.symm).trans eb
  have hc := (sz c).trans hc
  have fr1 : ∀ k, k ≠ c → k ≠ a → k ≠ b → m1 k = μ k := fun k h1 h2 h3 => (ne k h2).trans (fr0 k h1 h2 h3)
  refine Sim.step ea (by tabs htb; exact mul_reduce_array16_sim hWa (hS _ (by decide)) (hTa _ (by decide)) _ _) fun va m2 ea ne sz => ?_
  have htb := htb.frame hTa ne
  have eb := (ne b hab.symm).trans eb
  have hc := (sz c).trans hc
  have fr2 : ∀ k, k ≠ c → k ≠ a → k ≠ b → m2 k = μ k := fun k h1 h2 h3 => (ne k h2).trans (fr1 k h1 h2 h3)
  refine Sim.step ea (fwd_gs_std2rev_sim hWa hS hTa htb _ _) fun va m3 ea ne sz => ?_
  have htb := htb.frame hTa ne
  have eb := (ne b hab.symm).trans eb
  have hc := (sz c).trans hc
  have fr3 : ∀ k, k ≠ c → k ≠ a → k ≠ b → m3 k = μ k := fun k h1 h2 h3 => (ne k h2).trans (fr2 k h1 h2 h3)
  refine Sim.step ea (reduce_array_sim hWa _ _) fun va m4 ea ne sz => ?_
  have htb := htb.frame hTa ne
  have eb := (ne b hab.symm).trans eb
  have hc := (sz c).trans hc
  have fr4 : ∀ k, k ≠ c → k ≠ a → k ≠ b → m4 k = μ k := fun k h1 h2 h3 => (ne k h2).trans (fr3 k h1 h2 h3)
  refine Sim.step eb (shiftInput_sim hWb _ _ _) fun vb m5 eb ne sz => ?_
  have htb := htb.frame hTb ne
  have ea := (ne a hab).trans ea
  have hc := (sz c).trans hc
  have fr5 : ∀ k, k ≠ c → k ≠ a → k ≠ b → m5 k = μ k := fun k h1 h2 h3 => (ne k h3).trans (fr4 k h1 h2 h3)
  refine Sim.step eb (by tabs htb; exact mul_reduce_array16_sim hWb (hS _ (by decide)) (hTb _ (by decide)) _ _) fun vb m6 eb ne sz => ?_
  have htb := htb.frame hTb ne
  have ea := (ne a hab).trans ea
  have hc := (sz c).trans hc
  have fr6 : ∀ k, k ≠ c → k ≠ a → k ≠ b → m6 k = μ k := fun k h1 h2 h3 => (ne k h3).trans (fr5 k h1 h2 h3)
  refine Sim.step eb (fwd_gs_std2rev_sim hWb hS hTb htb _ _) fun vb m7 eb ne sz => ?_
  have htb := htb.frame hTb ne
  have ea := (ne a hab).trans ea
  have hc := (sz c).trans hc
  have fr7 : ∀ k, k ≠ c → k ≠ a → k ≠ b → m7 k = μ k := fun k h1 h2 h3 => (ne k h3).trans (fr6 k h1 h2 h3)
  refine Sim.step eb (reduce_array_sim hWb _ _) fun vb m8 eb ne sz => ?_
  have htb := htb.frame hTb ne
  have ea := (ne a hab).trans ea
  have hc := (sz c).trans hc
  have fr8 : ∀ k, k ≠ c → k ≠ a → k ≠ b → m8 k = μ k := fun k h1 h2 h3 => (ne k h3).trans (fr7 k h1 h2 h3)
  refine Sim.stepMul (mul_reduce_array_sim hWa hWb hWc hn ea eb hvc hc) fun vc m9 ec ne sz => ?_
  have htb := htb.frame hTc ne
  have ea : a ≠ c → m9 a = _ := fun h => (ne a h).trans ea
  have eb : b ≠ c → m9 b = _ := fun h => (ne b h).trans eb
  have fr9 : ∀ k, k ≠ c → k ≠ a → k ≠ b → m9 k = μ k := fun k h1 h2 h3 => (ne k h1).trans (fr8 k h1 h2 h3)
  refine Sim.step ec (reduce_array_twice_sim hWc _ _) fun vc m10 ec ne sz => ?_
  have htb := htb.frame hTc ne
  have ea : a ≠ c → m10 a = _ := fun h => (ne a h).trans (ea h)
  have eb : b ≠ c → m10 b = _ := fun h => (ne b h).trans (eb h)
  have fr10 : ∀ k, k ≠ c → k ≠ a → k ≠ b → m10 k = μ k := fun k h1 h2 h3 => (ne k h1).trans (fr9 k h1 h2 h3)
  refine Sim.step ec (intt_ct_rev2std_sim hWc hS hTc htb _ _) fun vc m11 ec ne sz => ?_
  have htb := htb.frame hTc ne
  have ea : a ≠ c → m11 a = _ := fun h => (ne a h).trans (ea h)
  have eb : b ≠ c → m11 b = _ := fun h => (ne b h).trans (eb h)
  have fr11 : ∀ k, k ≠ c → k ≠ a → k ≠ b → m11 k = μ k := fun k h1 h2 h3 => (ne k h1).trans (fr10 k h1 h2 h3)
  refine Sim.step ec (by tabs htb; exact mul_reduce_array16_sim hWc (hS _ (by decide)) (hTc _ (by decide)) _ _) fun vc m12 ec ne sz => ?_
  have htb := htb.frame hTc ne
  have ea : a ≠ c → m12 a = _ := fun h => (ne a h).trans (ea h)
  have eb : b ≠ c → m12 b = _ := fun h => (ne b h).trans (eb h)
  have fr12 : ∀ k, k ≠ c → k ≠ a → k ≠ b → m12 k = μ k := fun k h1 h2 h3 => (ne k h1).trans (fr11 k h1 h2 h3)
  refine Sim.step ec (reduce_array_twice_sim hWc _ _) fun vc m13 ec ne sz => ?_
  have htb := htb.frame hTc ne
  have ea : a ≠ c → m13 a = _ := fun h => (ne a h).trans (ea h)
  have eb : b ≠ c → m13 b = _ := fun h => (ne b h).trans (eb h)
  have fr13 : ∀ k, k ≠ c → k ≠ a → k ≠ b → m13 k = μ k := fun k h1 h2 h3 => (ne k h1).trans (fr12 k h1 h2 h3)
  refine Sim.step ec (correct_sim hWc _ _) fun vc m14 ec ne sz => ?_
  have htb := htb.frame hTc ne
  have ea : a ≠ c → m14 a = _ := fun h => (ne a h).trans (ea h)
  have eb : b ≠ c → m14 b = _ := fun h => (ne b h).trans (eb h)
  have fr14 : ∀ k, k ≠ c → k ≠ a → k ≠ b → m14 k = μ k := fun k h1 h2 h3 => (ne k h1).trans (fr13 k h1 h2 h3)
  exact Sim.pure ⟨rfl, ec, ea, eb, fr14⟩

theorem product3_sim {t : Tables.RedTables} {tb : String → Ref} {a b c : Ref} (hWa : W a) (hWb : W b) (hWc : W c)
    (hS : ∀ x ∈ tableNames, S (tb x)) (hTa : Fresh tb a) (hTb : Fresh tb b) (hTc : Fresh tb c) (hab : a ≠ b)
    {n : Nat} (sh : Bool) (hn : n < 2 ^ 32) {va vb vc : Array Int} (htb : RedTablesAt μ tb t) (ea : μ a = va) (eb : μ b = vb)
    (hvc : vc.size = n) (hc : (μ c).size = n) :
    Sim S W μ (ProductPost μ c a b) (_root_.NttRed.product3 t n sh vc va vb) (product3 tb n sh c a b) := by
  unfold product3 _root_.NttRed.product3
  have fr0 : ∀ k, k ≠ c → k ≠ a → k ≠ b → μ k = μ k := fun _ _ _ _ => rfl
  refine Sim.step ea (shiftInput_sim hWa _ _ _) fun va m1 ea ne sz => ?_
  have htb := htb.frame hTa ne
  have eb := (ne b hab.symm).trans eb
  have hc := (sz c).trans hc
  have fr1 : ∀ k, k ≠ c → k ≠ a → k ≠ b → m1 k = μ k := fun k h1 h2 h3 => (ne k h2).trans (fr0 k h1 h2 h3)
  refine Sim.step ea (by tabs htb; exact mul_reduce_array16_sim hWa (hS _ (by decide)) (hTa _ (by decide)) _ _) fun va m2 ea ne sz => ?_
  have htb := htb.frame hTa ne
  have eb := (ne b hab.symm).trans eb
  have hc := (sz c).trans hc
  have fr2 : ∀ k, k ≠ c → k ≠ a → k ≠ b → m2 k = μ k := fun k h1 h2 h3 => (ne k h2).trans (fr1 k h1 h2 h3)
  refine Sim.step ea (fwd_ct_std2rev_sim hWa hS hTa htb _ _) fun va m3 ea ne sz => ?_
  have htb := htb.frame hTa ne
  have eb := (ne b hab.symm).trans eb
  have hc := (sz c).trans hc
  have fr3 : ∀ k, k ≠ c → k ≠ a → k ≠ b → m3 k = μ k := fun k h1 h2 h3 => (ne k h2).trans (fr2 k h1 h2 h3)
  refine Sim.step ea (reduce_array_sim hWa _ _) fun va m4 ea ne sz => ?_
  have htb := htb.frame hTa ne
  have eb := (ne b hab.symm).trans eb
  have hc := (sz c).trans hc
  have fr4 : ∀ k, k ≠ c → k ≠ a → k ≠ b → m4 k = μ k := fun k h1 h2 h3 => (ne k h2).trans (fr3 k h1 h2 h3)
  refine Sim.step eb (shiftInput_sim hWb _ _ _) fun vb m5 eb ne sz => ?_
  have htb := htb.frame hTb ne
  have ea := (ne a hab).trans ea
  have hc := (sz c).trans hc
  have fr5 : ∀ k, k ≠ c → k ≠ a → k ≠ b → m5 k = μ k := fun k h1 h2 h3 => (ne k h3).trans (fr4 k h1 h2 h3)
  refine Sim.step eb (by tabs htb; exact mul_reduce_array16_sim hWb (hS _ (by decide)) (hTb _ (by decide)) _ _) fun vb m6 eb ne sz => ?_
  have htb := htb.frame hTb ne
  have ea := (ne a hab).trans ea
  have hc := (sz c).trans hc
  have fr6 : ∀ k, k ≠ c → k ≠ a → k ≠ b → m6 k = μ k := fun k h1 h2 h3 => (ne k h3).trans (fr5 k h1 h2 h3)
  refine Sim.step eb (fwd_ct_std2rev_sim hWb hS hTb htb _ _) fun vb m7 eb ne sz => ?_
  have htb := htb.frame hTb ne
  have ea := (ne a hab).trans ea
  have hc := (sz c).trans hc
  have fr7 : ∀ k, k ≠ c → k ≠ a → k ≠ b → m7 k = μ k := fun k h1 h2 h3 => (ne k h3).trans (fr6 k h1 h2 h3)
  refine Sim.step eb (reduce_array_sim hWb _ _) fun vb m8 eb ne sz => ?_
  have htb := htb.frame hTb ne
  have ea := (ne a hab).trans ea
  have hc := (sz c).trans hc
  have fr8 : ∀ k, k ≠ c → k ≠ a → k ≠ b → m8 k = μ k := fun k h1 h2 h3 => (ne k h3).trans (fr7 k h1 h2 h3)
  refine Sim.stepMul (mul_reduce_array_sim hWa hWb hWc hn ea eb hvc hc) fun vc m9 ec ne sz => ?_
  have htb := htb.frame hTc ne
  have ea : a ≠ c → m9 a = _ := fun h => (ne a h).trans ea
  have eb : b ≠ c → m9 b = _ := fun h => (ne b h).trans eb
  have fr9 : ∀ k, k ≠ c → k ≠ a → k ≠ b → m9 k = μ k := fun k h1 h2 h3 => (ne k h1).trans (fr8 k h1 h2 h3)
  refine Sim.step ec (reduce_array_twice_sim hWc _ _) fun vc m10 ec ne sz => ?_
  have htb := htb.frame hTc ne
  have ea : a ≠ c → m10 a = _ := fun h => (ne a h).trans (ea h)
  have eb : b ≠ c → m10 b = _ := fun h => (ne b h).trans (eb h)
  have fr10 : ∀ k, k ≠ c → k ≠ a → k ≠ b → m10 k = μ k := fun k h1 h2 h3 => (ne k h1).trans (fr9 k h1 h2 h3)
  refine Sim.step ec (intt_gs_rev2std_sim hWc hS hTc htb _ _) fun vc m11 ec ne sz => ?_
  have htb := htb.frame hTc ne
  have ea : a ≠ c → m11 a = _ := fun h => (ne a h).trans (ea h)
  have eb : b ≠ c → m11 b = _ := fun h => (ne b h).trans (eb h)
  have fr11 : ∀ k, k ≠ c → k ≠ a → k ≠ b → m11 k = μ k := fun k h1 h2 h3 => (ne k h1).trans (fr10 k h1 h2 h3)
  refine Sim.step ec (by tabs htb; exact mul_reduce_array16_sim hWc (hS _ (by decide)) (hTc _ (by decide)) _ _) fun vc m12 ec ne sz => ?_
  have htb := htb.frame hTc ne
  have ea : a ≠ c → m12 a = _ := fun h => (ne a h).trans (ea h)
  have eb : b ≠ c → m12 b = _ := fun h => (ne b h).trans (eb h)
  have fr12 : ∀ k, k ≠ c → k ≠ a → k ≠ b → m12 k = μ k := fun k h1 h2 h3 => (ne k h1).trans (fr11 k h1 h2 h3)
  refine Sim.step ec (reduce_array_twice_sim hWc _ _) fun vc m13 ec ne sz => ?_
  have htb := htb.frame hTc ne
  have ea : a ≠ c → m13 a = _ := fun h => (ne a h).trans (ea h)
  have eb : b ≠ c → m13 b = _ := fun h => (ne b h).trans (eb h)
  have fr13 : ∀ k, k ≠ c → k ≠ a → k ≠ b → m13 k = μ k := fun k h1 h2 h3 => (ne k h1).trans (fr12 k h1 h2 h3)
  refine Sim.step ec (correct_sim hWc _ _) fun vc m14 ec ne sz => ?_
  have htb := htb.frame hTc ne
  have ea : a ≠ c → m14 a = _ := fun h => (ne a h).trans (ea h)
  have eb : b ≠ c → m14 b = _ := fun h => (ne b h).trans (eb h)
  have fr14 : ∀ k, k ≠ c → k ≠ a → k ≠ b → m14 k = μ k := fun k h1 h2 h3 => (ne k h1).trans (fr13 k h1 h2 h3)
  exact Sim.pure ⟨rfl, ec, ea, eb, fr14⟩

theorem product4_sim {t : Tables.RedTables} {tb : String → Ref} {a b c : Ref} (hWa : W a) (hWb : W b) (hWc : W c)
    (hS : ∀ x ∈ tableNames, S (tb x)) (hTa : Fresh tb a) (hTb : Fresh tb b) (hTc : Fresh tb c) (hab : a ≠ b)
    {n : Nat} (sh : Bool) (hn : n < 2 ^ 32) {va vb vc : Array Int} (htb : RedTablesAt μ tb t) (ea : μ a = va) (eb : μ b = vb)
    (hvc : vc.size = n) (hc : (μ c).size = n) :
    Sim S W μ (ProductPost μ c a b) (_root_.NttRed.product4 t n sh vc va vb) (product4 tb n sh c a b) := by
  unfold product4 _root_.NttRed.product4
  have fr0 : ∀ k, k ≠ c → k ≠ a → k ≠ b → μ k = μ k := fun _ _ _ _ => rfl
  refine Sim.step ea (shiftInput_sim hWa _ _ _) fun va m1 ea ne sz => ?_
  have htb := htb.frame hTa ne
  have eb := (ne b hab.symm).trans eb
  have hc := (sz c).trans hc
  have fr1 : ∀ k, k ≠ c → k ≠ a → k ≠ b → m1 k = μ k := fun k h1 h2 h3 => (ne k h2).trans (fr0 k h1 h2 h3)
  refine Sim.step ea (by tabs htb; exact mul_reduce_array16_sim hWa (hS _ (by decide)) (hTa _ (by decide)) _ _) fun va m2 ea ne sz => ?_
  have htb := htb.frame hTa ne
  have eb := (ne b hab.symm).trans eb
  have hc := (sz c).trans hc
  have fr2 : ∀ k, k ≠ c → k ≠ a → k ≠ b → m2 k = μ k := fun k h1 h2 h3 => (ne k h2).trans (fr1 k h1 h2 h3)
  refine Sim.step ea (fwd_gs_std2rev_sim hWa hS hTa htb _ _) fun va m3 ea ne sz => ?_
  have htb := htb.frame hTa ne
  have eb := (ne b hab.symm).trans eb
  have hc := (sz c).trans hc
  have fr3 : ∀ k, k ≠ c → k ≠ a → k ≠ b → m3 k = μ k := fun k h1 h2 h3 => (ne k h2).trans (fr2 k h1 h2 h3)
  refine Sim.step ea (reduce_array_sim hWa _ _) fun va m4 ea ne sz => ?_
  have htb := htb.frame hTa ne
  have eb := (ne b hab.symm).trans eb
  have hc := (sz c).trans hc
  have fr4 : ∀ k, k ≠ c → k ≠ a → k ≠ b → m4 k = μ k := fun k h1 h2 h3 => (ne k h2).trans (fr3 k h1 h2 h3)
  refine Sim.step eb (shiftInput_sim hWb _ _ _) fun vb m5 eb ne sz => ?_
  have htb := htb.frame hTb ne
  have ea := (ne a hab).trans ea
  have hc := (sz c).trans hc
  have fr5 : ∀ k, k ≠ c → k ≠ a → k ≠ b → m5 k = μ k := fun k h1 h2 h3 => (ne k h3).trans (fr4 k h1 h2 h3)
  refine Sim.step eb (by tabs htb; exact mul_reduce_array16_sim hWb (hS _ (by decide)) (hTb _ (by decide)) _ _) fun vb m6 eb ne sz => ?_
  have htb := htb.frame hTb ne
  have ea := (ne a hab).trans ea
  have hc := (sz c).trans hc
  have fr6 : ∀ k, k ≠ c → k ≠ a → k ≠ b → m6 k = μ k := fun k h1 h2 h3 => (ne k h3).trans (fr5 k h1 h2 h3)
  refine Sim.step eb (fwd_gs_std2rev_sim hWb hS hTb htb _ _) fun vb m7 eb ne sz => ?_
  have htb := htb.frame hTb ne
  have ea := (ne a hab).trans ea
  have hc := (sz c).trans hc
  have fr7 : ∀ k, k ≠ c → k ≠ a → k ≠ b → m7 k = μ k := fun k h1 h2 h3 => (ne k h3).trans (fr6 k h1 h2 h3)
  refine Sim.step eb (reduce_array_sim hWb _ _) fun vb m8 eb ne sz => ?_
  have htb := htb.frame hTb ne
  have ea := (ne a hab).trans ea
  have hc := (sz c).trans hc
  have fr8 : ∀ k, k ≠ c → k ≠ a → k ≠ b → m8 k = μ k := fun k h1 h2 h3 => (ne k h3).trans (fr7 k h1 h2 h3)
  refine Sim.stepMul (mul_reduce_array_sim hWa hWb hWc hn ea eb hvc hc) fun vc m9 ec ne sz => ?_
  have htb := htb.frame hTc ne
  have ea : a ≠ c → m9 a = _ := fun h => (ne a h).trans ea
  have eb : b ≠ c → m9 b = _ := fun h => (ne b h).trans eb
  have fr9 : ∀ k, k ≠ c → k ≠ a → k ≠ b → m9 k = μ k := fun k h1 h2 h3 => (ne k h1).trans (fr8 k h1 h2 h3)
  refine Sim.step ec (reduce_array_twice_sim hWc _ _) fun vc m10 ec ne sz => ?_
  have htb := htb.frame hTc ne
  have ea : a ≠ c → m10 a = _ := fun h => (ne a h).trans (ea h)
  have eb : b ≠ c → m10 b = _ := fun h => (ne b h).trans (eb h)
  have fr10 : ∀ k, k ≠ c → k ≠ a → k ≠ b → m10 k = μ k := fun k h1 h2 h3 => (ne k h1).trans (fr9 k h1 h2 h3)
  refine Sim.step ec (intt_gs_rev2std_sim hWc hS hTc htb _ _) fun vc m11 ec ne sz => ?_
  have htb := htb.frame hTc ne
  have ea : a ≠ c → m11 a = _ := fun h => (ne a h).trans (ea h)
  have eb : b ≠ c → m11 b = _ := fun h => (ne b h).trans (eb h)
  have fr11 : ∀ k, k ≠ c → k ≠ a → k ≠ b → m11 k = μ k := fun k h1 h2 h3 => (ne k h1).trans (fr10 k h1 h2 h3)
  refine Sim.step ec (by tabs htb; exact mul_reduce_array16_sim hWc (hS _ (by decide)) (hTc _ (by decide)) _ _) fun vc m12 ec ne sz => ?_
  have htb := htb.frame hTc ne
  have ea : a ≠ c → m12 a = _ := fun h => (ne a h).trans (ea h)
  have eb : b ≠ c → m12 b = _ := fun h => (ne b h).trans (eb h)
  have fr12 : ∀ k, k ≠ c → k ≠ a → k ≠ b → m12 k = μ k := fun k h1 h2 h3 => (ne k h1).trans (fr11 k h1 h2 h3)
  refine Sim.step ec (reduce_array_twice_sim hWc _ _) fun vc m13 ec ne sz => ?_
  have htb := htb.frame hTc ne
  have ea : a ≠ c → m13 a = _ := fun h => (ne a h).trans (ea h)
  have eb : b ≠ c → m13 b = _ := fun h => (ne b h).trans (eb h)
  have fr13 : ∀ k, k ≠ c → k ≠ a → k ≠ b → m13 k = μ k := fun k h1 h2 h3 => (ne k h1).trans (fr12 k h1 h2 h3)
  refine Sim.step ec (correct_sim hWc _ _) fun vc m14 ec ne sz => ?_
  have htb := htb.frame hTc ne
  have ea : a ≠ c → m14 a = _ := fun h => (ne a h).trans (ea h)
  have eb : b ≠ c → m14 b = _ := fun h => (ne b h).trans (eb h)
  have fr14 : ∀ k, k ≠ c → k ≠ a → k ≠ b → m14 k = μ k := fun k h1 h2 h3 => (ne k h1).trans (fr13 k h1 h2 h3)
  exact Sim.pure ⟨rfl, ec, ea, eb, fr14⟩

theorem product5_sim {t : Tables.RedTables} {tb : String → Ref} {a b c : Ref} (hWa : W a) (hWb : W b) (hWc : W c)
    (hS : ∀ x ∈ tableNames, S (tb x)) (hTa : Fresh tb a) (hTb : Fresh tb b) (hTc : Fresh tb c) (hab : a ≠ b)
    {n : Nat} (sh : Bool) (hn : n < 2 ^ 32) {va vb vc : Array Int} (htb : RedTablesAt μ tb t) (ea : μ a = va) (eb : μ b = vb)
    (hvc : vc.size = n) (hc : (μ c).size = n) :
    Sim S W μ (ProductPost μ c a b) (_root_.NttRed.product5 t n sh vc va vb) (product5 t tb n sh c a b) := by
  unfold product5 _root_.NttRed.product5
  have fr0 : ∀ k, k ≠ c → k ≠ a → k ≠ b → μ k = μ k := fun _ _ _ _ => rfl
  refine Sim.step ea (shiftInput_sim hWa _ _ _) fun va m1 ea ne sz => ?_
  have htb := htb.frame hTa ne
  have eb := (ne b hab.symm).trans eb
  have hc := (sz c).trans hc
  have fr1 : ∀ k, k ≠ c → k ≠ a → k ≠ b → m1 k = μ k := fun k h1 h2 h3 => (ne k h2).trans (fr0 k h1 h2 h3)
  refine Sim.step ea (fwdmul_ct_std2rev_sim hWa hS hTa htb _ _) fun va m2 ea ne sz => ?_
  have htb := htb.frame hTa ne
  have eb := (ne b hab.symm).trans eb
  have hc := (sz c).trans hc
  have fr2 : ∀ k, k ≠ c → k ≠ a → k ≠ b → m2 k = μ k := fun k h1 h2 h3 => (ne k h2).trans (fr1 k h1 h2 h3)
  refine Sim.step ea (reduce_array_sim hWa _ _) fun va m3 ea ne sz => ?_
  have htb := htb.frame hTa ne
  have eb := (ne b hab.symm).trans eb
  have hc := (sz c).trans hc
  have fr3 : ∀ k, k ≠ c → k ≠ a → k ≠ b → m3 k = μ k := fun k h1 h2 h3 => (ne k h2).trans (fr2 k h1 h2 h3)
  refine Sim.step eb (shiftInput_sim hWb _ _ _) fun vb m4 eb ne sz => ?_
  have htb := htb.frame hTb ne
  have ea := (ne a hab).trans ea
  have hc := (sz c).trans hc
  have fr4 : ∀ k, k ≠ c → k ≠ a → k ≠ b → m4 k = μ k := fun k h1 h2 h3 => (ne k h3).trans (fr3 k h1 h2 h3)
  refine Sim.step eb (fwdmul_ct_std2rev_sim hWb hS hTb htb _ _) fun vb m5 eb ne sz => ?_
  have htb := htb.frame hTb ne
  have ea := (ne a hab).trans ea
  have hc := (sz c).trans hc
  have fr5 : ∀ k, k ≠ c → k ≠ a → k ≠ b → m5 k = μ k := fun k h1 h2 h3 => (ne k h3).trans (fr4 k h1 h2 h3)
  refine Sim.step eb (reduce_array_sim hWb _ _) fun vb m6 eb ne sz => ?_
  have htb := htb.frame hTb ne
  have ea := (ne a hab).trans ea
  have hc := (sz c).trans hc
  have fr6 : ∀ k, k ≠ c → k ≠ a → k ≠ b → m6 k = μ k := fun k h1 h2 h3 => (ne k h3).trans (fr5 k h1 h2 h3)
  refine Sim.stepMul (mul_reduce_array_sim hWa hWb hWc hn ea eb hvc hc) fun vc m7 ec ne sz => ?_
  have htb := htb.frame hTc ne
  have ea : a ≠ c → m7 a = _ := fun h => (ne a h).trans ea
  have eb : b ≠ c → m7 b = _ := fun h => (ne b h).trans eb
  have fr7 : ∀ k, k ≠ c → k ≠ a → k ≠ b → m7 k = μ k := fun k h1 h2 h3 => (ne k h1).trans (fr6 k h1 h2 h3)
  refine Sim.step ec (reduce_array_twice_sim hWc _ _) fun vc m8 ec ne sz => ?_
  have htb := htb.frame hTc ne
  have ea : a ≠ c → m8 a = _ := fun h => (ne a h).trans (ea h)
  have eb : b ≠ c → m8 b = _ := fun h => (ne b h).trans (eb h)
  have fr8 : ∀ k, k ≠ c → k ≠ a → k ≠ b → m8 k = μ k := fun k h1 h2 h3 => (ne k h1).trans (fr7 k h1 h2 h3)
  refine Sim.step ec (inttmul_gs_rev2std_sim hWc hS hTc htb _ _) fun vc m9 ec ne sz => ?_
  have htb := htb.frame hTc ne
  have ea : a ≠ c → m9 a = _ := fun h => (ne a h).trans (ea h)
  have eb : b ≠ c → m9 b = _ := fun h => (ne b h).trans (eb h)
  have fr9 : ∀ k, k ≠ c → k ≠ a → k ≠ b → m9 k = μ k := fun k h1 h2 h3 => (ne k h1).trans (fr8 k h1 h2 h3)
  refine Sim.step ec (scalar_mul_reduce_array_sim hWc _ _ _) fun vc m10 ec ne sz => ?_
  have htb := htb.frame hTc ne
  have ea : a ≠ c → m10 a = _ := fun h => (ne a h).trans (ea h)
  have eb : b ≠ c → m10 b = _ := fun h => (ne b h).trans (eb h)
  have fr10 : ∀ k, k ≠ c → k ≠ a → k ≠ b → m10 k = μ k := fun k h1 h2 h3 => (ne k h1).trans (fr9 k h1 h2 h3)
  refine Sim.step ec (reduce_array_twice_sim hWc _ _) fun vc m11 ec ne sz => ?_
  have htb := htb.frame hTc ne
  have ea : a ≠ c → m11 a = _ := fun h => (ne a h).trans (ea h)
  have eb : b ≠ c → m11 b = _ := fun h => (ne b h).trans (eb h)
  have fr11 : ∀ k, k ≠ c → k ≠ a → k ≠ b → m11 k = μ k := fun k h1 h2 h3 => (ne k h1).trans (fr10 k h1 h2 h3)
  refine Sim.step ec (correct_sim hWc _ _) fun vc m12 ec ne sz => ?_
  have htb := htb.frame hTc ne
  have ea : a ≠ c → m12 a = _ := fun h => (ne a h).trans (ea h)
  have eb : b ≠ c → m12 b = _ := fun h => (ne b h).trans (eb h)
  have fr12 : ∀ k, k ≠ c → k ≠ a → k ≠ b → m12 k = μ k := fun k h1 h2 h3 => (ne k h1).trans (fr11 k h1 h2 h3)
  exact Sim.pure ⟨rfl, ec, ea, eb, fr12⟩

end NttRed

namespace Naive

theorem mul_array16_sim {a p : Ref} (hW : W a) (hp : S p) (hne : p ≠ a) (n : Nat) (q : Int) (v : Array Int) :
    Sim S W (upd μ a v) (Post μ a) (_root_.Naive.mul_array16 v n (μ p) q) (mul_array16 a n p q) := by
  unfold mul_array16 _root_.Naive.mul_array16
  refine Sim.up fun i v => ?_
  refine Sim.val (by first | exact Sim.rd hW _ | exact Sim.rdRo hp hne _) fun x => ?_
  refine Sim.val (by first | exact Sim.rd hW _ | exact Sim.rdRo hp hne _) fun y => ?_
  refine Sim.val (Sim.lift _) fun z => ?_
  refine Sim.val (Sim.lift _) fun z => ?_
  exact Sim.wr hW _ _

theorem mul_array_sim {a b c : Ref} (hWa : W a) (hWb : W b) (hWc : W c) {n : Nat} {q : Int} (hn : n < 2 ^ 32)
    {va vb vc : Array Int} (ea : μ a = va) (eb : μ b = vb) (hvc : vc.size = n) (hc : (μ c).size = n) :
    Sim S W μ (Post μ c) (_root_.Naive.mul_array vc n va vb q) (mul_array c n a b q) := by
  subst ea eb
  unfold mul_array _root_.Naive.mul_array
  refine half_loop (a := a) (b := b) hn hvc hc (fun i f x hi hf hx hhi hw => ?_) hWc
  refine Sim.val (Sim.rdHalf hWa hhi) fun x => ?_
  refine Sim.val (Sim.rdHalf hWb hhi) fun y => ?_
  refine Sim.val (Sim.lift _) fun z => ?_
  refine Sim.val (Sim.lift _) fun z => ?_
  exact hw _

theorem scalar_mul_array_sim {a : Ref} (hW : W a) (n : Nat) (c : Int) (q : Int) (v : Array Int) :
    Sim S W (upd μ a v) (Post μ a) (_root_.Naive.scalar_mul_array v n c q) (scalar_mul_array a n c q) := by
  unfold scalar_mul_array _root_.Naive.scalar_mul_array
  refine Sim.up fun i v => ?_
  refine Sim.val (Sim.rd hW _) fun x => ?_
  refine Sim.val (Sim.lift _) fun z => ?_
  refine Sim.val (Sim.lift _) fun z => ?_
  exact Sim.wr hW _ _

theorem bf0_sim {a : Ref} (hW : W a) (q : Int) (s : Nat) (k : Nat) (v : Array Int) :
    Sim S W (upd μ a v) (Post μ a) (_root_.Naive.bf0 q s k v) (bf0 q s k a) := by
  unfold bf0 _root_.Naive.bf0
  refine Sim.val (Sim.rd hW _) fun x => ?_
  refine Sim.val (Sim.rd hW _) fun y => ?_
  refine Sim.val (Sim.lift _) fun v => ?_
  refine Sim.val (Sim.lift _) fun v => ?_
  refine Sim.next (Sim.wr hW _ _) fun v => ?_
  refine Sim.val (Sim.rd hW _) fun y => ?_
  refine Sim.val (Sim.lift _) fun u => ?_
  refine Sim.val (Sim.lift _) fun u => ?_
  exact Sim.wr hW _ _

theorem ctBf_sim {a : Ref} (hW : W a) (q : Int) (w : Int) (s : Nat) (k : Nat) (v : Array Int) :
    Sim S W (upd μ a v) (Post μ a) (_root_.Naive.ctBf q w s k v) (ctBf q w s k a) := by
  unfold ctBf _root_.Naive.ctBf
  refine Sim.val (Sim.rd hW _) fun z => ?_
  refine Sim.val (Sim.lift _) fun x => ?_
  refine Sim.val (Sim.rd hW _) fun y => ?_
  refine Sim.val (Sim.lift _) fun v => ?_
  refine Sim.val (Sim.lift _) fun v => ?_
  refine Sim.next (Sim.wr hW _ _) fun v => ?_
  refine Sim.val (Sim.rd hW _) fun y => ?_
  refine Sim.val (Sim.lift _) fun u => ?_
  refine Sim.val (Sim.lift _) fun u => ?_
  exact Sim.wr hW _ _

theorem gsBf_sim {a : Ref} (hW : W a) (q : Int) (w : Int) (s : Nat) (k : Nat) (v : Array Int) :
    Sim S W (upd μ a v) (Post μ a) (_root_.Naive.gsBf q w s k v) (gsBf q w s k a) := by
  unfold gsBf _root_.Naive.gsBf
  refine Sim.val (Sim.rd hW _) fun x => ?_
  refine Sim.val (Sim.rd hW _) fun y => ?_
  refine Sim.val (Sim.lift _) fun v => ?_
  refine Sim.val (Sim.lift _) fun v => ?_
  refine Sim.val (Sim.lift _) fun v => ?_
  refine Sim.next (Sim.wr hW _ _) fun v => ?_
  refine Sim.val (Sim.rd hW _) fun y => ?_
  refine Sim.val (Sim.lift _) fun u => ?_
  refine Sim.val (Sim.lift _) fun u => ?_
  exact Sim.wr hW _ _

theorem ntt_ct_rev2std_sim {a p : Ref} (hW : W a) (hp : S p) (hne : p ≠ a) (n : Nat) (q : Int) (v : Array Int) :
    Sim S W (upd μ a v) (Post μ a) (_root_.Naive.ntt_ct_rev2std v n (μ p) q) (ntt_ct_rev2std a n p q) := by
  unfold ntt_ct_rev2std _root_.Naive.ntt_ct_rev2std
  exact ctRev2std_sim (fun s k v => bf0_sim hW q s k v) (fun w s k v => ctBf_sim hW q w s k v) hp hne n v

theorem mulntt_ct_rev2std_sim {a p : Ref} (hW : W a) (hp : S p) (hne : p ≠ a) (n : Nat) (q : Int) (v : Array Int) :
    Sim S W (upd μ a v) (Post μ a) (_root_.Naive.mulntt_ct_rev2std v n (μ p) q) (mulntt_ct_rev2std a n p q) := by
  unfold mulntt_ct_rev2std _root_.Naive.mulntt_ct_rev2std
  exact mulCtRev2std_sim (fun w s k v => ctBf_sim hW q w s k v) hp hne n v

theorem ntt_ct_std2rev_sim {a p : Ref} (hW : W a) (hp : S p) (hne : p ≠ a) (n : Nat) (q : Int) (v : Array Int) :
    Sim S W (upd μ a v) (Post μ a) (_root_.Naive.ntt_ct_std2rev v n (μ p) q) (ntt_ct_std2rev a n p q) := by
  unfold ntt_ct_std2rev _root_.Naive.ntt_ct_std2rev
  exact ctStd2rev_sim (fun s k v => bf0_sim hW q s k v) (fun w s k v => ctBf_sim hW q w s k v) hp hne n v

theorem mulntt_ct_std2rev_sim {a p : Ref} (hW : W a) (hp : S p) (hne : p ≠ a) (n : Nat) (q : Int) (v : Array Int) :
    Sim S W (upd μ a v) (Post μ a) (_root_.Naive.mulntt_ct_std2rev v n (μ p) q) (mulntt_ct_std2rev a n p q) := by
  unfold mulntt_ct_std2rev _root_.Naive.mulntt_ct_std2rev
  exact mulCtStd2rev_sim (fun w s k v => ctBf_sim hW q w s k v) hp hne n v

theorem ntt_gs_rev2std_sim {a p : Ref} (hW : W a) (hp : S p) (hne : p ≠ a) (n : Nat) (q : Int) (v : Array Int) :
    Sim S W (upd μ a v) (Post μ a) (_root_.Naive.ntt_gs_rev2std v n (μ p) q) (ntt_gs_rev2std a n p q) := by
  unfold ntt_gs_rev2std _root_.Naive.ntt_gs_rev2std
  exact gsRev2std_sim (fun s k v => bf0_sim hW q s k v) (fun w s k v => gsBf_sim hW q w s k v) hp hne n v

theorem nttmul_gs_rev2std_sim {a p : Ref} (hW : W a) (hp : S p) (hne : p ≠ a) (n : Nat) (q : Int) (v : Array Int) :
    Sim S W (upd μ a v) (Post μ a) (_root_.Naive.nttmul_gs_rev2std v n (μ p) q) (nttmul_gs_rev2std a n p q) := by
  unfold nttmul_gs_rev2std _root_.Naive.nttmul_gs_rev2std
  exact gsMulRev2std_sim (fun w s k v => gsBf_sim hW q w s k v) hp hne n v

theorem ntt_gs_std2rev_sim {a p : Ref} (hW : W a) (hp : S p) (hne : p ≠ a) (n : Nat) (q : Int) (v : Array Int) :
    Sim S W (upd μ a v) (Post μ a) (_root_.Naive.ntt_gs_std2rev v n (μ p) q) (ntt_gs_std2rev a n p q) := by
  unfold ntt_gs_std2rev _root_.Naive.ntt_gs_std2rev
  exact gsStd2rev_sim (fun s k v => bf0_sim hW q s k v) (fun w s k v => gsBf_sim hW q w s k v) hp hne n v

theorem nttmul_gs_std2rev_sim {a p : Ref} (hW : W a) (hp : S p) (hne : p ≠ a) (n : Nat) (q : Int) (v : Array Int) :
    Sim S W (upd μ a v) (Post μ a) (_root_.Naive.nttmul_gs_std2rev v n (μ p) q) (nttmul_gs_std2rev a n p q) := by
  unfold nttmul_gs_std2rev _root_.Naive.nttmul_gs_std2rev
  exact gsMulStd2rev_sim (fun w s k v => gsBf_sim hW q w s k v) hp hne n v

theorem fwd_ct_rev2std_sim {t : Tables.Nttables} {tb : String → Ref} {a : Ref} (hW : W a) (hS : ∀ x ∈ tableNames, S (tb x))
    (hT : Fresh tb a) (htb : TablesAt μ tb t) (n : Nat) (v : Array Int) :
    Sim S W (upd μ a v) (Post μ a) (_root_.Naive.fwd_ct_rev2std t n v) (fwd_ct_rev2std tb n a) := by
  unfold fwd_ct_rev2std _root_.Naive.fwd_ct_rev2std
  rw [← htb.omega_powers]
  exact ntt_ct_rev2std_sim hW (hS _ (by decide)) (hT _ (by decide)) n 12289 v

theorem fwd_gs_rev2std_sim {t : Tables.Nttables} {tb : String → Ref} {a : Ref} (hW : W a) (hS : ∀ x ∈ tableNames, S (tb x))
    (hT : Fresh tb a) (htb : TablesAt μ tb t) (n : Nat) (v : Array Int) :
    Sim S W (upd μ a v) (Post μ a) (_root_.Naive.fwd_gs_rev2std t n v) (fwd_gs_rev2std tb n a) := by
  unfold fwd_gs_rev2std _root_.Naive.fwd_gs_rev2std
  rw [← htb.omega_powers_rev]
  exact ntt_gs_rev2std_sim hW (hS _ (by decide)) (hT _ (by decide)) n 12289 v

theorem fwd_ct_std2rev_sim {t : Tables.Nttables} {tb : String → Ref} {a : Ref} (hW : W a) (hS : ∀ x ∈ tableNames, S (tb x))
    (hT : Fresh tb a) (htb : TablesAt μ tb t) (n : Nat) (v : Array Int) :
    Sim S W (upd μ a v) (Post μ a) (_root_.Naive.fwd_ct_std2rev t n v) (fwd_ct_std2rev tb n a) := by
  unfold fwd_ct_std2rev _root_.Naive.fwd_ct_std2rev
  rw [← htb.omega_powers_rev]
  exact ntt_ct_std2rev_sim hW (hS _ (by decide)) (hT _ (by decide)) n 12289 v

theorem fwd_gs_std2rev_sim {t : Tables.Nttables} {tb : String → Ref} {a : Ref} (hW : W a) (hS : ∀ x ∈ tableNames, S (tb x))
    (hT : Fresh tb a) (htb : TablesAt μ tb t) (n : Nat) (v : Array Int) :
    Sim S W (upd μ a v) (Post μ a) (_root_.Naive.fwd_gs_std2rev t n v) (fwd_gs_std2rev tb n a) := by
  unfold fwd_gs_std2rev _root_.Naive.fwd_gs_std2rev
  rw [← htb.omega_powers]
  exact ntt_gs_std2rev_sim hW (hS _ (by decide)) (hT _ (by decide)) n 12289 v

theorem intt_ct_rev2std_sim {t : Tables.Nttables} {tb : String → Ref} {a : Ref} (hW : W a) (hS : ∀ x ∈ tableNames, S (tb x))
    (hT : Fresh tb a) (htb : TablesAt μ tb t) (n : Nat) (v : Array Int) :
    Sim S W (upd μ a v) (Post μ a) (_root_.Naive.intt_ct_rev2std t n v) (intt_ct_rev2std tb n a) := by
  unfold intt_ct_rev2std _root_.Naive.intt_ct_rev2std
  rw [← htb.inv_omega_powers]
  exact ntt_ct_rev2std_sim hW (hS _ (by decide)) (hT _ (by decide)) n 12289 v

theorem intt_gs_rev2std_sim {t : Tables.Nttables} {tb : String → Ref} {a : Ref} (hW : W a) (hS : ∀ x ∈ tableNames, S (tb x))
    (hT : Fresh tb a) (htb : TablesAt μ tb t) (n : Nat) (v : Array Int) :
    Sim S W (upd μ a v) (Post μ a) (_root_.Naive.intt_gs_rev2std t n v) (intt_gs_rev2std tb n a) := by
  unfold intt_gs_rev2std _root_.Naive.intt_gs_rev2std
  rw [← htb.inv_omega_powers_rev]
  exact ntt_gs_rev2std_sim hW (hS _ (by decide)) (hT _ (by decide)) n 12289 v

theorem intt_ct_std2rev_sim {t : Tables.Nttables} {tb : String → Ref} {a : Ref} (hW : W a) (hS : ∀ x ∈ tableNames, S (tb x))
    (hT : Fresh tb a) (htb : TablesAt μ tb t) (n : Nat) (v : Array Int) :
    Sim S W (upd μ a v) (Post μ a) (_root_.Naive.intt_ct_std2rev t n v) (intt_ct_std2rev tb n a) := by
  unfold intt_ct_std2rev _root_.Naive.intt_ct_std2rev
  rw [← htb.inv_omega_powers_rev]
  exact ntt_ct_std2rev_sim hW (hS _ (by decide)) (hT _ (by decide)) n 12289 v

theorem intt_gs_std2rev_sim {t : Tables.Nttables} {tb : String → Ref} {a : Ref} (hW : W a) (hS : ∀ x ∈ tableNames, S (tb x))
    (hT : Fresh tb a) (htb : TablesAt μ tb t) (n : Nat) (v : Array Int) :
    Sim S W (upd μ a v) (Post μ a) (_root_.Naive.intt_gs_std2rev t n v) (intt_gs_std2rev tb n a) := by
  unfold intt_gs_std2rev _root_.Naive.intt_gs_std2rev
  rw [← htb.inv_omega_powers]
  exact ntt_gs_std2rev_sim hW (hS _ (by decide)) (hT _ (by decide)) n 12289 v

theorem fwdmul_ct_rev2std_sim {t : Tables.Nttables} {tb : String → Ref} {a : Ref} (hW : W a) (hS : ∀ x ∈ tableNames, S (tb x))
    (hT : Fresh tb a) (htb : TablesAt μ tb t) (n : Nat) (v : Array Int) :
    Sim S W (upd μ a v) (Post μ a) (_root_.Naive.fwdmul_ct_rev2std t n v) (fwdmul_ct_rev2std tb n a) := by
  unfold fwdmul_ct_rev2std _root_.Naive.fwdmul_ct_rev2std
  rw [← htb.mixed_powers]
  exact mulntt_ct_rev2std_sim hW (hS _ (by decide)) (hT _ (by decide)) n 12289 v

theorem fwdmul_ct_std2rev_sim {t : Tables.Nttables} {tb : String → Ref} {a : Ref} (hW : W a) (hS : ∀ x ∈ tableNames, S (tb x))
    (hT : Fresh tb a) (htb : TablesAt μ tb t) (n : Nat) (v : Array Int) :
    Sim S W (upd μ a v) (Post μ a) (_root_.Naive.fwdmul_ct_std2rev t n v) (fwdmul_ct_std2rev tb n a) := by
  unfold fwdmul_ct_std2rev _root_.Naive.fwdmul_ct_std2rev
  rw [← htb.mixed_powers_rev]
  exact mulntt_ct_std2rev_sim hW (hS _ (by decide)) (hT _ (by decide)) n 12289 v

theorem inttmul_gs_rev2std_sim {t : Tables.Nttables} {tb : String → Ref} {a : Ref} (hW : W a) (hS : ∀ x ∈ tableNames, S (tb x))
    (hT : Fresh tb a) (htb : TablesAt μ tb t) (n : Nat) (v : Array Int) :
    Sim S W (upd μ a v) (Post μ a) (_root_.Naive.inttmul_gs_rev2std t n v) (inttmul_gs_rev2std tb n a) := by
  unfold inttmul_gs_rev2std _root_.Naive.inttmul_gs_rev2std
  rw [← htb.inv_mixed_powers_rev]
  exact nttmul_gs_rev2std_sim hW (hS _ (by decide)) (hT _ (by decide)) n 12289 v

theorem inttmul_gs_std2rev_sim {t : Tables.Nttables} {tb : String → Ref} {a : Ref} (hW : W a) (hS : ∀ x ∈ tableNames, S (tb x))
    (hT : Fresh tb a) (htb : TablesAt μ tb t) (n : Nat) (v : Array Int) :
    Sim S W (upd μ a v) (Post μ a) (_root_.Naive.inttmul_gs_std2rev t n v) (inttmul_gs_std2rev tb n a) := by
  unfold inttmul_gs_std2rev _root_.Naive.inttmul_gs_std2rev
  rw [← htb.inv_mixed_powers]
  exact nttmul_gs_std2rev_sim hW (hS _ (by decide)) (hT _ (by decide)) n 12289 v

theorem product1_sim {t : Tables.Nttables} {tb : String → Ref} {a b c : Ref} (hWa : W a) (hWb : W b) (hWc : W c)
    (hS : ∀ x ∈ tableNames, S (tb x)) (hTa : Fresh tb a) (hTb : Fresh tb b) (hTc : Fresh tb c) (hab : a ≠ b)
    {n : Nat} (hn : n < 2 ^ 32) {va vb vc : Array Int} (htb : TablesAt μ tb t) (ea : μ a = va) (eb : μ b = vb)
    (hvc : vc.size = n) (hc : (μ c).size = n) :
    Sim S W μ (ProductPost μ c a b) (_root_.Naive.product1 t n vc va vb) (product1 tb n c a b) := by
  unfold product1 _root_.Naive.product1
  have fr0 : ∀ k, k ≠ c → k ≠ a → k ≠ b → μ k = μ k := fun _ _ _ _ => rfl
  refine Sim.step ea (by tabs htb; exact mul_array16_sim hWa (hS _ (by decide)) (hTa _ (by decide)) _ _ _) fun va m1 ea ne sz => ?_
  have htb := htb.frame hTa ne
  have eb := (ne b hab.symm).trans eb
  have hc := (sz c).trans hc
  have fr1 : ∀ k, k ≠ c → k ≠ a → k ≠ b → m1 k = μ k := fun k h1 h2 h3 => (ne k h2).trans (fr0 k h1 h2 h3)
  refine Sim.step ea (fwd_ct_std2rev_sim hWa hS hTa htb _ _) fun va m2 ea ne sz => ?_
  have htb := htb.frame hTa ne
  have eb := (ne b hab.symm).trans eb
  have hc := (sz c).trans hc
  have fr2 : ∀ k, k ≠ c → k ≠ a → k ≠ b → m2 k = μ k := fun k h1 h2 h3 => (ne k h2).trans (fr1 k h1 h2 h3)
  refine Sim.step eb (by tabs htb; exact mul_array16_sim hWb (hS _ (by decide)) (hTb _ (by decide)) _ _ _) fun vb m3 eb ne sz => ?_
  have htb := htb.frame hTb ne
  have ea := (ne a hab).trans ea
  have hc := (sz c).trans hc
  have fr3 : ∀ k, k ≠ c → k ≠ a → k ≠ b → m3 k = μ k := fun k h1 h2 h3 => (ne k h3).trans (fr2 k h1 h2 h3)
  refine Sim.step eb (fwd_ct_std2rev_sim hWb hS hTb htb _ _) fun vb m4 eb ne sz => ?_
  have htb := htb.frame hTb ne
  have ea := (ne a hab).trans ea
  have hc := (sz c).trans hc
  have fr4 : ∀ k, k ≠ c → k ≠ a → k ≠ b → m4 k = μ k := fun k h1 h2 h3 => (ne k h3).trans (fr3 k h1 h2 h3)
  refine Sim.stepMul (mul_array_sim hWa hWb hWc hn ea eb hvc hc) fun vc m5 ec ne sz => ?_
  have htb := htb.frame hTc ne
  have ea : a ≠ c → m5 a = _ := fun h => (ne a h).trans ea
  have eb : b ≠ c → m5 b = _ := fun h => (ne b h).trans eb
  have fr5 : ∀ k, k ≠ c → k ≠ a → k ≠ b → m5 k = μ k := fun k h1 h2 h3 => (ne k h1).trans (fr4 k h1 h2 h3)
  refine Sim.step ec (intt_ct_rev2std_sim hWc hS hTc htb _ _) fun vc m6 ec ne sz => ?_
  have htb := htb.frame hTc ne
  have ea : a ≠ c → m6 a = _ := fun h => (ne a h).trans (ea h)
  have eb : b ≠ c → m6 b = _ := fun h => (ne b h).trans (eb h)
  have fr6 : ∀ k, k ≠ c → k ≠ a → k ≠ b → m6 k = μ k := fun k h1 h2 h3 => (ne k h1).trans (fr5 k h1 h2 h3)
  refine Sim.step ec (by tabs htb; exact mul_array16_sim hWc (hS _ (by decide)) (hTc _ (by decide)) _ _ _) fun vc m7 ec ne sz => ?_
  have htb := htb.frame hTc ne
  have ea : a ≠ c → m7 a = _ := fun h => (ne a h).trans (ea h)
  have eb : b ≠ c → m7 b = _ := fun h => (ne b h).trans (eb h)
  have fr7 : ∀ k, k ≠ c → k ≠ a → k ≠ b → m7 k = μ k := fun k h1 h2 h3 => (ne k h1).trans (fr6 k h1 h2 h3)
  exact Sim.pure ⟨rfl, ec, ea, eb, fr7⟩

theorem product2_sim {t : Tables.Nttables} {tb : String → Ref} {a b c : Ref} (hWa : W a) (hWb : W b) (hWc : W c)
    (hS : ∀ x ∈ tableNames, S (tb x)) (hTa : Fresh tb a) (hTb : Fresh tb b) (hTc : Fresh tb c) (hab : a ≠ b)
    {n : Nat} (hn : n < 2 ^ 32) {va vb vc : Array Int} (htb : TablesAt μ tb t) (ea : μ a = va) (eb : μ b = vb)
    (hvc : vc.size = n) (hc : (μ c).size = n) :
    Sim S W μ (ProductPost μ c a b) (_root_.Naive.product2 t n vc va vb) (product2 tb n c a b) := by
  unfold product2 _root_.Naive.product2
  have fr0 : ∀ k, k ≠ c → k ≠ a → k ≠ b → μ k = μ k := fun _ _ _ _ => rfl
  refine Sim.step ea (by tabs htb; exact mul_array16_sim hWa (hS _ (by decide)) (hTa _ (by decide)) _ _ _) fun va m1 ea ne sz => ?_
  have htb := htb.frame hTa ne
  have eb := (ne b hab.symm).trans eb
  have hc := (sz c).trans hc
  have fr1 : ∀ k, k ≠ c → k ≠ a → k ≠ b → m1 k = μ k := fun k h1 h2 h3 => (ne k h2).trans (fr0 k h1 h2 h3)
  refine Sim.step ea (fwd_gs_std2rev_sim hWa hS hTa htb _ _) fun va m2 ea ne sz => ?_
  have htb := htb.frame hTa ne
  have eb := (ne b hab.symm).trans eb
  have hc := (sz c).trans hc
  have fr2 : ∀ k, k ≠ c → k ≠ a → k ≠ b → m2 k = μ k := fun k h1 h2 h3 => (ne k h2).trans (fr1 k h1 h2 h3)
  refine Sim.step eb (by tabs htb; exact mul_array16_sim hWb (hS _ (by decide)) (hTb _ (by decide)) _ _ _) fun vb m3 eb ne sz => ?_
  have htb := htb.frame hTb ne
  have ea := (ne a hab).trans ea
  have hc := (sz c).trans hc
  have fr3 : ∀ k, k ≠ c → k ≠ a → k ≠ b → m3 k = μ k := fun k h1 h2 h3 => (ne k h3).trans (fr2 k h1 h2 h3)
  refine Sim.step eb (fwd_gs_std2rev_sim hWb hS hTb htb _ _) fun vb m4 eb ne sz => ?_
  have htb := htb.frame hTb ne
  have ea := (ne a hab).trans ea
  have hc := (sz c).trans hc
  have fr4 : ∀ k, k ≠ c → k ≠ a → k ≠ b → m4 k = μ k := fun k h1 h2 h3 => (ne k h3).trans (fr3 k h1 h2 h3)
  refine Sim.stepMul (mul_array_sim hWa hWb hWc hn ea eb hvc hc) fun vc m5 ec ne sz => ?_
  have htb := htb.frame hTc ne
  have ea : a ≠ c → m5 a = _ := fun h => (ne a h).trans ea
  have eb : b ≠ c → m5 b = _ := fun h => (ne b h).trans eb
  have fr5 : ∀ k, k ≠ c → k ≠ a → k ≠ b → m5 k = μ k := fun k h1 h2 h3 => (ne k h1).trans (fr4 k h1 h2 h3)
  refine Sim.step ec (intt_ct_rev2std_sim hWc hS hTc htb _ _) fun vc m6 ec ne sz => ?_
  have htb := htb.frame hTc ne
  have ea : a ≠ c → m6 a = _ := fun h => (ne a h).trans (ea h)
  have eb : b ≠ c → m6 b = _ := fun h => (ne b h).trans (eb h)
  have fr6 : ∀ k, k ≠ c → k ≠ a → k ≠ b → m6 k = μ k := fun k h1 h2 h3 => (ne k h1).trans (fr5 k h1 h2 h3)
  refine Sim.step ec (by tabs htb; exact mul_array16_sim hWc (hS _ (by decide)) (hTc _ (by decide)) _ _ _) fun vc m7 ec ne sz => ?_
  have htb := htb.frame hTc ne
  have ea : a ≠ c → m7 a = _ := fun h => (ne a h).trans (ea h)
  have eb : b ≠ c → m7 b = _ := fun h => (ne b h).trans (eb h)
  have fr7 : ∀ k, k ≠ c → k ≠ a → k ≠ b → m7 k = μ k := fun k h1 h2 h3 => (ne k h1).trans (fr6 k h1 h2 h3)
  exact Sim.pure ⟨rfl, ec, ea, eb, fr7⟩

theorem product3_sim {t : Tables.Nttables} {tb : String → Ref} {a b c : Ref} (hWa : W a) (hWb : W b) (hWc : W c)
    (hS : ∀ x ∈ tableNames, S (tb x)) (hTa : Fresh tb a) (hTb : Fresh tb b) (hTc : Fresh tb c) (hab : a ≠ b)
    {n : Nat} (hn : n < 2 ^ 32) {va vb vc : Array Int} (htb : TablesAt μ tb t) (ea : μ a = va) (eb : μ b = vb)
    (hvc : vc.size = n) (hc : (μ c).size = n) :
    Sim S W μ (ProductPost μ c a b) (_root_.Naive.product3 t n vc va vb) (product3 tb n c a b) := by
  unfold product3 _root_.Naive.product3
  have fr0 : ∀ k, k ≠ c → k ≠ a → k ≠ b → μ k = μ k := fun _ _ _ _ => rfl
  refine Sim.step ea (by tabs htb; exact mul_array16_sim hWa (hS _ (by decide)) (hTa _ (by decide)) _ _ _) fun va m1 ea ne sz => ?_
  have htb := htb.frame hTa ne
  have eb := (ne b hab.symm).trans eb
  have hc := (sz c).trans hc
  have fr1 : ∀ k, k ≠ c → k ≠ a → k ≠ b → m1 k = μ k := fun k h1 h2 h3 => (ne k h2).trans (fr0 k h1 h2 h3)
  refine Sim.step ea (fwd_ct_std2rev_sim hWa hS hTa htb _ _) fun va m2 ea ne sz => ?_
  have htb := htb.frame hTa ne
  have eb := (ne b hab.symm).trans eb
  have hc := (sz c).trans hc
  have fr2 : ∀ k, k ≠ c → k ≠ a → k ≠ b → m2 k = μ k := fun k h1 h2 h3 => (ne k h2).trans (fr1 k h1 h2 h3)
  refine Sim.step eb (by tabs htb; exact mul_array16_sim hWb (hS _ (by decide)) (hTb _ (by decide)) _ _ _) fun vb m3 eb ne sz => ?_
  have htb := htb.frame hTb ne
  have ea := (ne a hab).trans ea
  have hc := (sz c).trans hc
  have fr3 : ∀ k, k ≠ c → k ≠ a → k ≠ b → m3 k = μ k := fun k h1 h2 h3 => (ne k h3).trans (fr2 k h1 h2 h3)
  refine Sim.step eb (fwd_ct_std2rev_sim hWb hS hTb htb _ _) fun vb m4 eb ne sz => ?_
  have htb := htb.frame hTb ne
  have ea := (ne a hab).trans ea
  have hc := (sz c).trans hc
  have fr4 : ∀ k, k ≠ c → k ≠ a → k ≠ b → m4 k = μ k := fun k h1 h2 h3 => (ne k h3).trans (fr3 k h1 h2 h3)
  refine Sim.stepMul (mul_array_sim hWa hWb hWc hn ea eb hvc hc) fun vc m5 ec ne sz => ?_
  have htb := htb.frame hTc ne
  have ea : a ≠ c → m5 a = _ := fun h => (ne a h).trans ea
  have eb : b ≠ c → m5 b = _ := fun h => (ne b h).trans eb
  have fr5 : ∀ k, k ≠ c → k ≠ a → k ≠ b → m5 k = μ k := fun k h1 h2 h3 => (ne k h1).trans (fr4 k h1 h2 h3)
  refine Sim.step ec (intt_gs_rev2std_sim hWc hS hTc htb _ _) fun vc m6 ec ne sz => ?_
  have htb := htb.frame hTc ne
  have ea : a ≠ c → m6 a = _ := fun h => (ne a h).trans (ea h)
  have eb : b ≠ c → m6 b = _ := fun h => (ne b h).trans (eb h)
  have fr6 : ∀ k, k ≠ c → k ≠ a → k ≠ b → m6 k = μ k := fun k h1 h2 h3 => (ne k h1).trans (fr5 k h1 h2 h3)
  refine Sim.step ec (by tabs htb; exact mul_array16_sim hWc (hS _ (by decide)) (hTc _ (by decide)) _ _ _) fun vc m7 ec ne sz => ?_
  have htb := htb.frame hTc ne
  have ea : a ≠ c → m7 a = _ := fun h => (ne a h).trans (ea h)
  have eb : b ≠ c → m7 b = _ := fun h => (ne b h).trans (eb h)
  have fr7 : ∀ k, k ≠ c → k ≠ a → k ≠ b → m7 k = μ k := fun k h1 h2 h3 => (ne k h1).trans (fr6 k h1 h2 h3)
  exact Sim.pure ⟨rfl, ec, ea, eb, fr7⟩

theorem product4_sim {t : Tables.Nttables} {tb : String → Ref} {a b c : Ref} (hWa : W a) (hWb : W b) (hWc : W c)
    (hS : ∀ x ∈ tableNames, S (tb x)) (hTa : Fresh tb a) (hTb : Fresh tb b) (hTc : Fresh tb c) (hab : a ≠ b)
    {n : Nat} (hn : n < 2 ^ 32) {va vb vc : Array Int} (htb : TablesAt μ tb t) (ea : μ a = va) (eb : μ b = vb)
    (hvc : vc.size = n) (hc : (μ c).size = n) :
    Sim S W μ (ProductPost μ c a b) (_root_.Naive.product4 t n vc va vb) (product4 tb n c a b) := by
  unfold product4 _root_.Naive.product4
  have fr0 : ∀ k, k ≠ c → k ≠ a → k ≠ b → μ k = μ k := fun _ _ _ _ => rfl
  refine Sim.step ea (by tabs htb; exact mul_array16_sim hWa (hS _ (by decide)) (hTa _ (by decide)) _ _ _) fun va m1 ea ne sz => ?_
  have htb := htb.frame hTa ne
  have eb := (ne b hab.symm).trans eb
  have hc := (sz c).trans hc
  have fr1 : ∀ k, k ≠ c → k ≠ a → k ≠ b → m1 k = μ k := fun k h1 h2 h3 => (ne k h2).trans (fr0 k h1 h2 h3)
  refine Sim.step ea (fwd_gs_std2rev_sim hWa hS hTa htb _ _) fun va m2 ea ne sz => ?_
  have htb := htb.frame hTa ne
  have eb := (ne b hab.symm).trans eb
  have hc := (sz c).trans hc
  have fr2 : ∀ k, k ≠ c → k ≠ a → k ≠ b → m2 k = μ k := fun k h1 h2 h3 => (ne k h2).trans (fr1 k h1 h2 h3)
  refine Sim.step eb (by tabs htb; exact mul_array16_sim hWb (hS _ (by decide)) (hTb _ (by decide)) _ _ _) fun vb m3 eb ne sz => ?_
  have htb := htb.frame hTb ne
  have ea := (ne a hab).trans ea
  have hc := (sz c).trans hc
  have fr3 : ∀ k, k ≠ c → k ≠ a → k ≠ b → m3 k = μ k := fun k h1 h2 h3 => (ne k h3).trans (fr2 k h1 h2 h3)
  refine Sim.step eb (fwd_gs_std2rev_sim hWb hS hTb htb _ _) fun vb m4 eb ne sz => ?_
  have htb := htb.frame hTb ne
  have ea := (ne a hab).trans ea
  have hc := (sz c).trans hc
  have fr4 : ∀ k, k ≠ c → k ≠ a → k ≠ b → m4 k = μ k := fun k h1 h2 h3 => (ne k h3).trans (fr3 k h1 h2 h3)
  refine Sim.stepMul (mul_array_sim hWa hWb hWc hn ea eb hvc hc) fun vc m5 ec ne sz => ?_
  have htb := htb.frame hTc ne
  have ea : a ≠ c → m5 a = _ := fun h => (ne a h).trans ea
  have eb : b ≠ c → m5 b = _ := fun h => (ne b h).trans eb
  have fr5 : ∀ k, k ≠ c → k ≠ a → k ≠ b → m5 k = μ k := fun k h1 h2 h3 => (ne k h1).trans (fr4 k h1 h2 h3)
  refine Sim.step ec (intt_gs_rev2std_sim hWc hS hTc htb _ _) fun vc m6 ec ne sz => ?_
  have htb := htb.frame hTc ne
  have ea : a ≠ c → m6 a = _ := fun h => (ne a h).trans (ea h)
  have eb : b ≠ c → m6 b = _ := fun h => (ne b h).trans (eb h)
  have fr6 : ∀ k, k ≠ c → k ≠ a → k ≠ b → m6 k = μ k := fun k h1 h2 h3 => (ne k h1).trans (fr5 k h1 h2 h3)
  refine Sim.step ec (by tabs htb; exact mul_array16_sim hWc (hS _ (by decide)) (hTc _ (by decide)) _ _ _) fun vc m7 ec ne sz => ?_
  have htb := htb.frame hTc ne
  have ea : a ≠ c → m7 a = _ := fun h => (ne a h).trans (ea h)
  have eb : b ≠ c → m7 b = _ := fun h => (ne b h).trans (eb h)
  have fr7 : ∀ k, k ≠ c → k ≠ a → k ≠ b → m7 k = μ k := fun k h1 h2 h3 => (ne k h1).trans (fr6 k h1 h2 h3)
  exact Sim.pure ⟨rfl, ec, ea, eb, fr7⟩

theorem product5_sim {t : Tables.Nttables} {tb : String → Ref} {a b c : Ref} (hWa : W a) (hWb : W b) (hWc : W c)
    (hS : ∀ x ∈ tableNames, S (tb x)) (hTa : Fresh tb a) (hTb : Fresh tb b) (hTc : Fresh tb c) (hab : a ≠ b)
    {n : Nat} (hn : n < 2 ^ 32) {va vb vc : Array Int} (htb : TablesAt μ tb t) (ea : μ a = va) (eb : μ b = vb)
    (hvc : vc.size = n) (hc : (μ c).size = n) :
    Sim S W μ (ProductPost μ c a b) (_root_.Naive.product5 t n vc va vb) (product5 t tb n c a b) := by
  unfold product5 _root_.Naive.product5
  have fr0 : ∀ k, k ≠ c → k ≠ a → k ≠ b → μ k = μ k := fun _ _ _ _ => rfl
  refine Sim.step ea (fwdmul_ct_std2rev_sim hWa hS hTa htb _ _) fun va m1 ea ne sz => ?_
  have htb := htb.frame hTa ne
  have eb := (ne b hab.symm).trans eb
  have hc := (sz c).trans hc
  have fr1 : ∀ k, k ≠ c → k ≠ a → k ≠ b → m1 k = μ k := fun k h1 h2 h3 => (ne k h2).trans (fr0 k h1 h2 h3)
  refine Sim.step eb (fwdmul_ct_std2rev_sim hWb hS hTb htb _ _) fun vb m2 eb ne sz => ?_
  have htb := htb.frame hTb ne
  have ea := (ne a hab).trans ea
  have hc := (sz c).trans hc
  have fr2 : ∀ k, k ≠ c → k ≠ a → k ≠ b → m2 k = μ k := fun k h1 h2 h3 => (ne k h3).trans (fr1 k h1 h2 h3)
  refine Sim.stepMul (mul_array_sim hWa hWb hWc hn ea eb hvc hc) fun vc m3 ec ne sz => ?_
  have htb := htb.frame hTc ne
  have ea : a ≠ c → m3 a = _ := fun h => (ne a h).trans ea
  have eb : b ≠ c → m3 b = _ := fun h => (ne b h).trans eb
  have fr3 : ∀ k, k ≠ c → k ≠ a → k ≠ b → m3 k = μ k := fun k h1 h2 h3 => (ne k h1).trans (fr2 k h1 h2 h3)
  refine Sim.step ec (inttmul_gs_rev2std_sim hWc hS hTc htb _ _) fun vc m4 ec ne sz => ?_
  have htb := htb.frame hTc ne
  have ea : a ≠ c → m4 a = _ := fun h => (ne a h).trans (ea h)
  have eb : b ≠ c → m4 b = _ := fun h => (ne b h).trans (eb h)
  have fr4 : ∀ k, k ≠ c → k ≠ a → k ≠ b → m4 k = μ k := fun k h1 h2 h3 => (ne k h1).trans (fr3 k h1 h2 h3)
  refine Sim.step ec (scalar_mul_array_sim hWc _ _ _ _) fun vc m5 ec ne sz => ?_
  have htb := htb.frame hTc ne
  have ea : a ≠ c → m5 a = _ := fun h => (ne a h).trans (ea h)
  have eb : b ≠ c → m5 b = _ := fun h => (ne b h).trans (eb h)
  have fr5 : ∀ k, k ≠ c → k ≠ a → k ≠ b → m5 k = μ k := fun k h1 h2 h3 => (ne k h1).trans (fr4 k h1 h2 h3)
  exact Sim.pure ⟨rfl, ec, ea, eb, fr5⟩

end Naive

end Shared
