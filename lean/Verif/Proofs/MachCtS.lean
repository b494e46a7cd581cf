import Verif.Proofs.MachText

/-
Execution of the text of src/ntt_asm.S follows the model.  Generated by tools/genmach.py.
-/

namespace X86
open C Avx Spec

def ct_s2r_loop1_I (A : Word) (n : Nat) (m0 : Memory) (g0 : Nat → Word) (y0 : Nat → V8) :
    Array Int × Nat × Nat → State → Prop
  | (a, xrax, xrcx), s =>
    Agree [rax, rcx] g0 s.gpr ∧ Agree [0, 1, 2, 3] y0 s.ymm ∧ Env A n m0 s.mem a ∧
    s.gpr rax = A + BitVec.ofNat 64 xrax ∧ s.gpr rcx = A + BitVec.ofNat 64 xrcx ∧ True

def ct_s2r_loop1_J (A : Word) (n : Nat) (m0 : Memory) (g0 : Nat → Word) (y0 : Nat → V8) :
    Array Int × Nat × Nat → State → Prop
  | (a, xrax, xrcx), s =>
    Agree [rax, rcx] g0 s.gpr ∧ Agree [0, 1, 2, 3] y0 s.ymm ∧ Env A n m0 s.mem a ∧
    s.gpr rax = A + BitVec.ofNat 64 xrax ∧ s.gpr rcx = A + BitVec.ofNat 64 xrcx ∧ True

theorem ct_s2r_loop1_sim {K : Machine} {A : Word} {n : Nat} {m0 : Memory} {g0 : Nat → Word} {y0 : Nat → V8} (H : Host K A n m0) {xr8
    : Nat} (h_r8 : g0 r8 = A + BitVec.ofNat 64 xr8) (b_r8 : xr8 < 2 ^ 37) :
    ∀ st s, ct_s2r_loop1_I A n m0 g0 y0 st s →
      Sim K (Asm.ct_s2r_loop1 xr8 st) Text.ct_s2r_loop1 s (LoopPost (ct_s2r_loop1_I A n m0 g0 y0) (ct_s2r_loop1_J A n m0 g0 y0) Text.ct_s2r_loop1 Text.ct_s2r_loop1_exit) := by
  have hn := H.hn
  rintro ⟨a, xrax, xrcx⟩ ⟨g, y, cf, zf, m⟩ ⟨hg, hy, E, h_rax, h_rcx, b_I⟩
  replace h_r8 := (hg r8 rfl).trans h_r8
  unfold Asm.ct_s2r_loop1
  refine Sim.load H E (ea_at h_rax) fun v b_441 => ?_
  refine Sim.load H E (ea_at h_rcx) fun v b_442 => ?_
  refine Sim.vec ?_
  refine Sim.vec ?_
  refine Sim.store H E (ea_at h_rax) (by krfl) fun a m E b_445 => ?_
  refine Sim.store H E (ea_at h_rcx) (by krfl) fun a m E b_446 => ?_
  refine Sim.addi fun cf zf => ?_
  have h_rcx := ptr_addi (k := 32) h_rcx
  refine Sim.gen fun g hgg => ?_
  replace h_rax := (congrFun hgg rax).trans h_rax
  replace h_rcx := (congrFun hgg rcx).trans h_rcx
  replace h_r8 := (congrFun hgg r8).trans h_r8
  replace hg : Agree [rax, rcx] g0 g := Agree.of_eq hgg (by agree hg)
  clear hgg
  refine Sim.addi fun cf zf => ?_
  have h_rax := ptr_addi (k := 32) h_rax
  refine Sim.gen fun g hgg => ?_
  replace h_rax := (congrFun hgg rax).trans h_rax
  replace h_rcx := (congrFun hgg rcx).trans h_rcx
  replace h_r8 := (congrFun hgg r8).trans h_r8
  replace hg : Agree [rax, rcx] g0 g := Agree.of_eq hgg (by agree hg)
  clear hgg
  refine Sim.cmp_jcc codeAt_ct_s2r_loop1 (Cmp.ptr H.hA (by omega) (by omega) h_rcx h_r8) (fun hc cf zf => ?_) (fun hc cf zf => ?_)
  · have hc' : _ < _ := hc
    exact Sim.again (decide_eq_true hc) ⟨by agree hg, by agree hy, E, h_rax, h_rcx, trivial⟩
  · have hc' : ¬ (_ < _) := hc
    exact Sim.done (decide_eq_false hc) ⟨by agree hg, by agree hy, E, h_rax, h_rcx, trivial⟩

def ct_s2r_loop2_inner1_I (A : Word) (n : Nat) (m0 : Memory) (g0 : Nat → Word) (y0 : Nat → V8) :
    Array Int × Nat × Nat → State → Prop
  | (a, xrax, xrcx), s =>
    Agree [rax, rcx] g0 s.gpr ∧ Agree [0, 1, 2, 3] y0 s.ymm ∧ Env A n m0 s.mem a ∧
    s.gpr rax = A + BitVec.ofNat 64 xrax ∧ s.gpr rcx = A + BitVec.ofNat 64 xrcx ∧ True

def ct_s2r_loop2_inner1_J (A : Word) (n : Nat) (m0 : Memory) (g0 : Nat → Word) (y0 : Nat → V8) :
    Array Int × Nat × Nat → State → Prop
  | (a, xrax, xrcx), s =>
    Agree [rax, rcx] g0 s.gpr ∧ Agree [0, 1, 2, 3] y0 s.ymm ∧ Env A n m0 s.mem a ∧
    s.gpr rax = A + BitVec.ofNat 64 xrax ∧ s.gpr rcx = A + BitVec.ofNat 64 xrcx ∧ xrcx ≤ 4 * n

theorem ct_s2r_loop2_inner1_sim {K : Machine} {A : Word} {n : Nat} {m0 : Memory} {g0 : Nat → Word} {y0 : Nat → V8} (H : Host K A n
    m0) {xr9 : Nat} (h_r9 : g0 r9 = A + BitVec.ofNat 64 xr9) (b_r9 : xr9 < 2 ^ 37) :
    ∀ st s, ct_s2r_loop2_inner1_I A n m0 g0 y0 st s →
      Sim K (Asm.ct_s2r_loop2_inner1 xr9 st) Text.ct_s2r_loop2_inner1 s (LoopPost (ct_s2r_loop2_inner1_I A n m0 g0 y0) (ct_s2r_loop2_inner1_J A n m0 g0 y0) Text.ct_s2r_loop2_inner1 Text.at_ct_s2r_loop2_aux) := by
  have hn := H.hn
  rintro ⟨a, xrax, xrcx⟩ ⟨g, y, cf, zf, m⟩ ⟨hg, hy, E, h_rax, h_rcx, b_I⟩
  replace h_r9 := (hg r9 rfl).trans h_r9
  unfold Asm.ct_s2r_loop2_inner1
  refine Sim.load H E (ea_at h_rax) fun v b_460 => ?_
  refine Sim.load H E (ea_at h_rcx) fun v b_461 => ?_
  refine Sim.vec ?_
  refine Sim.vec ?_
  refine Sim.store H E (ea_at h_rax) (by krfl) fun a m E b_464 => ?_
  refine Sim.store H E (ea_at h_rcx) (by krfl) fun a m E b_465 => ?_
  refine Sim.addi fun cf zf => ?_
  have h_rax := ptr_addi (k := 32) h_rax
  refine Sim.gen fun g hgg => ?_
  replace h_rax := (congrFun hgg rax).trans h_rax
  replace h_rcx := (congrFun hgg rcx).trans h_rcx
  replace h_r9 := (congrFun hgg r9).trans h_r9
  replace hg : Agree [rax, rcx] g0 g := Agree.of_eq hgg (by agree hg)
  clear hgg
  refine Sim.addi fun cf zf => ?_
  have h_rcx := ptr_addi (k := 32) h_rcx
  refine Sim.gen fun g hgg => ?_
  replace h_rax := (congrFun hgg rax).trans h_rax
  replace h_rcx := (congrFun hgg rcx).trans h_rcx
  replace h_r9 := (congrFun hgg r9).trans h_r9
  replace hg : Agree [rax, rcx] g0 g := Agree.of_eq hgg (by agree hg)
  clear hgg
  refine Sim.cmp_jcc codeAt_ct_s2r_loop2_inner1 (Cmp.ptr H.hA (by omega) (by omega) h_rax h_r9) (fun hc cf zf => ?_) (fun hc cf zf => ?_)
  · have hc' : _ < _ := hc
    exact Sim.again (decide_eq_true hc) ⟨by agree hg, by agree hy, E, h_rax, h_rcx, trivial⟩
  · have hc' : ¬ (_ < _) := hc
    exact Sim.done (decide_eq_false hc) ⟨by agree hg, by agree hy, E, h_rax, h_rcx, by omega⟩

def ct_s2r_loop2_inner2_I (A : Word) (n : Nat) (m0 : Memory) (g0 : Nat → Word) (y0 : Nat → V8) :
    Array Int × Nat × Nat → State → Prop
  | (a, xrax, xrcx), s =>
    Agree [rax, rcx] g0 s.gpr ∧ Agree [0, 1, 2, 3] y0 s.ymm ∧ Env A n m0 s.mem a ∧
    s.gpr rax = A + BitVec.ofNat 64 xrax ∧ s.gpr rcx = A + BitVec.ofNat 64 xrcx ∧ True

def ct_s2r_loop2_inner2_J (A : Word) (n : Nat) (m0 : Memory) (g0 : Nat → Word) (y0 : Nat → V8) :
    Array Int × Nat × Nat → State → Prop
  | (a, xrax, xrcx), s =>
    Agree [rax, rcx] g0 s.gpr ∧ Agree [0, 1, 2, 3] y0 s.ymm ∧ Env A n m0 s.mem a ∧
    s.gpr rax = A + BitVec.ofNat 64 xrax ∧ s.gpr rcx = A + BitVec.ofNat 64 xrcx ∧ xrcx ≤ 4 * n

theorem ct_s2r_loop2_inner2_sim {K : Machine} {A : Word} {n : Nat} {m0 : Memory} {g0 : Nat → Word} {y0 : Nat → V8} (H : Host K A n
    m0) {xr9 : Nat} (h_r9 : g0 r9 = A + BitVec.ofNat 64 xr9) (b_r9 : xr9 < 2 ^ 37) {v4 : V8} (hv4 : y0 4 = v4) {v5 : V8} (hv5 : y0 5
    = v5) :
    ∀ st s, ct_s2r_loop2_inner2_I A n m0 g0 y0 st s →
      Sim K (Asm.ct_s2r_loop2_inner2 xr9 v4 v5 st) Text.ct_s2r_loop2_inner2 s (LoopPost (ct_s2r_loop2_inner2_I A n m0 g0 y0) (ct_s2r_loop2_inner2_J A n m0 g0 y0) Text.ct_s2r_loop2_inner2 Text.ct_s2r_loop2_inner2_exit) := by
  have hn := H.hn
  rintro ⟨a, xrax, xrcx⟩ ⟨g, y, cf, zf, m⟩ ⟨hg, hy, E, h_rax, h_rcx, b_I⟩
  replace h_r9 := (hg r9 rfl).trans h_r9
  obtain rfl := (hy 4 rfl).trans hv4
  obtain rfl := (hy 5 rfl).trans hv5
  unfold Asm.ct_s2r_loop2_inner2
  refine Sim.load H E (ea_at h_rax) fun v b_478 => ?_
  refine Sim.load H E (ea_at h_rcx) fun v b_479 => ?_
  refine Sim.vec ?_
  refine Sim.vec ?_
  refine Sim.vec ?_
  refine Sim.vec ?_
  refine Sim.vec ?_
  refine Sim.vec ?_
  refine Sim.vec ?_
  refine Sim.vec ?_
  refine Sim.vec ?_
  refine Sim.vec ?_
  refine Sim.vec ?_
  refine Sim.vec ?_
  refine Sim.vec ?_
  refine Sim.vec ?_
  refine Sim.vec ?_
  refine Sim.store H E (ea_at h_rax) (by krfl) fun a m E b_495 => ?_
  refine Sim.store H E (ea_at h_rcx) (by krfl) fun a m E b_496 => ?_
  refine Sim.addi fun cf zf => ?_
  have h_rax := ptr_addi (k := 32) h_rax
  refine Sim.gen fun g hgg => ?_
  replace h_rax := (congrFun hgg rax).trans h_rax
  replace h_rcx := (congrFun hgg rcx).trans h_rcx
  replace h_r9 := (congrFun hgg r9).trans h_r9
  replace hg : Agree [rax, rcx] g0 g := Agree.of_eq hgg (by agree hg)
  clear hgg
  refine Sim.addi fun cf zf => ?_
  have h_rcx := ptr_addi (k := 32) h_rcx
  refine Sim.gen fun g hgg => ?_
  replace h_rax := (congrFun hgg rax).trans h_rax
  replace h_rcx := (congrFun hgg rcx).trans h_rcx
  replace h_r9 := (congrFun hgg r9).trans h_r9
  replace hg : Agree [rax, rcx] g0 g := Agree.of_eq hgg (by agree hg)
  clear hgg
  refine Sim.cmp_jcc codeAt_ct_s2r_loop2_inner2 (Cmp.ptr H.hA (by omega) (by omega) h_rax h_r9) (fun hc cf zf => ?_) (fun hc cf zf => ?_)
  · have hc' : _ < _ := hc
    exact Sim.again (decide_eq_true hc) ⟨by agree hg, by agree hy, E, h_rax, h_rcx, trivial⟩
  · have hc' : ¬ (_ < _) := hc
    exact Sim.done (decide_eq_false hc) ⟨by agree hg, by agree hy, E, h_rax, h_rcx, by omega⟩

def ct_s2r_finish_size4_I (A : Word) (n : Nat) (m0 : Memory) (g0 : Nat → Word) (y0 : Nat → V8) (P : Word) :
    Array Int × Nat × Nat → State → Prop
  | (a, xrax, xrdx), s =>
    Agree [rax, rdx] g0 s.gpr ∧ Agree [0, 1, 2, 3, 5] y0 s.ymm ∧ Env A n m0 s.mem a ∧
    s.gpr rax = A + BitVec.ofNat 64 xrax ∧ s.gpr rdx = P + BitVec.ofNat 64 xrdx ∧ True

def ct_s2r_finish_size4_J (A : Word) (n : Nat) (m0 : Memory) (g0 : Nat → Word) (y0 : Nat → V8) (P : Word) :
    Array Int × Nat × Nat → State → Prop
  | (a, xrax, xrdx), s =>
    Agree [rax, rdx] g0 s.gpr ∧ Agree [0, 1, 2, 3, 5] y0 s.ymm ∧ Env A n m0 s.mem a ∧
    s.gpr rax = A + BitVec.ofNat 64 xrax ∧ s.gpr rdx = P + BitVec.ofNat 64 xrdx ∧ True

theorem ct_s2r_finish_size4_sim {K : Machine} {A : Word} {n : Nat} {m0 : Memory} {g0 : Nat → Word} {y0 : Nat → V8} (H : Host K A n
    m0) {P : Word} {p : Array Int} (TP : Tab K A n m0 P p) {xr8 : Nat} (h_r8 : g0 r8 = A + BitVec.ofNat 64 xr8) (b_r8 : xr8 < 2 ^
    37) {v4 : V8} (hv4 : y0 4 = v4) {v6 : V8} (hv6 : y0 6 = v6) :
    ∀ st s, ct_s2r_finish_size4_I A n m0 g0 y0 P st s →
      Sim K (Asm.ct_s2r_finish_size4 p xr8 v4 v6 st) Text.ct_s2r_finish_size4 s (LoopPost (ct_s2r_finish_size4_I A n m0 g0 y0 P) (ct_s2r_finish_size4_J A n m0 g0 y0 P) Text.ct_s2r_finish_size4 Text.ct_s2r_finish_size4_exit) := by
  have hn := H.hn
  rintro ⟨a, xrax, xrdx⟩ ⟨g, y, cf, zf, m⟩ ⟨hg, hy, E, h_rax, h_rdx, b_I⟩
  replace h_r8 := (hg r8 rfl).trans h_r8
  obtain rfl := (hy 4 rfl).trans hv4
  obtain rfl := (hy 6 rfl).trans hv6
  unfold Asm.ct_s2r_finish_size4
  refine Sim.load_sxwq128 TP E (ea_at h_rdx) fun v _ => ?_
  refine Sim.vec ?_
  refine Sim.load H E (ea_at h_rax) fun v b_513 => ?_
  refine Sim.load H E (ea_at h_rax) fun v b_514 => ?_
  refine Sim.vec ?_
  refine Sim.vec ?_
  refine Sim.vec ?_
  refine Sim.vec ?_
  refine Sim.vec ?_
  refine Sim.vec ?_
  refine Sim.vec ?_
  refine Sim.vec ?_
  refine Sim.vec ?_
  refine Sim.vec ?_
  refine Sim.vec ?_
  refine Sim.vec ?_
  refine Sim.vec ?_
  refine Sim.vec ?_
  refine Sim.vec ?_
  refine Sim.vec ?_
  refine Sim.vec ?_
  refine Sim.vec ?_
  refine Sim.vec ?_
  refine Sim.store H E (ea_at h_rax) (by krfl) fun a m E b_534 => ?_
  refine Sim.store H E (ea_at h_rax) (by krfl) fun a m E b_535 => ?_
  refine Sim.addi fun cf zf => ?_
  have h_rax := ptr_addi (k := 64) h_rax
  refine Sim.gen fun g hgg => ?_
  replace h_rax := (congrFun hgg rax).trans h_rax
  replace h_rdx := (congrFun hgg rdx).trans h_rdx
  replace h_r8 := (congrFun hgg r8).trans h_r8
  replace hg : Agree [rax, rdx] g0 g := Agree.of_eq hgg (by agree hg)
  clear hgg
  refine Sim.addi fun cf zf => ?_
  have h_rdx := ptr_addi (k := 4) h_rdx
  refine Sim.gen fun g hgg => ?_
  replace h_rax := (congrFun hgg rax).trans h_rax
  replace h_rdx := (congrFun hgg rdx).trans h_rdx
  replace h_r8 := (congrFun hgg r8).trans h_r8
  replace hg : Agree [rax, rdx] g0 g := Agree.of_eq hgg (by agree hg)
  clear hgg
  refine Sim.cmp_jcc codeAt_ct_s2r_finish_size4 (Cmp.ptr H.hA (by omega) (by omega) h_rax h_r8) (fun hc cf zf => ?_) (fun hc cf zf => ?_)
  · have hc' : _ < _ := hc
    exact Sim.again (decide_eq_true hc) ⟨by agree hg, by agree hy, E, h_rax, h_rdx, trivial⟩
  · have hc' : ¬ (_ < _) := hc
    exact Sim.done (decide_eq_false hc) ⟨by agree hg, by agree hy, E, h_rax, h_rdx, trivial⟩

def ct_s2r_finish_size2_I (A : Word) (n : Nat) (m0 : Memory) (g0 : Nat → Word) (y0 : Nat → V8) (P : Word) :
    Array Int × Nat × Nat → State → Prop
  | (a, xrax, xrdx), s =>
    Agree [rax, rdx] g0 s.gpr ∧ Agree [0, 1, 2, 3, 5] y0 s.ymm ∧ Env A n m0 s.mem a ∧
    s.gpr rax = A + BitVec.ofNat 64 xrax ∧ s.gpr rdx = P + BitVec.ofNat 64 xrdx ∧ True

def ct_s2r_finish_size2_J (A : Word) (n : Nat) (m0 : Memory) (g0 : Nat → Word) (y0 : Nat → V8) (P : Word) :
    Array Int × Nat × Nat → State → Prop
  | (a, xrax, xrdx), s =>
    Agree [rax, rdx] g0 s.gpr ∧ Agree [0, 1, 2, 3, 5] y0 s.ymm ∧ Env A n m0 s.mem a ∧
    s.gpr rax = A + BitVec.ofNat 64 xrax ∧ s.gpr rdx = P + BitVec.ofNat 64 xrdx ∧ True

theorem ct_s2r_finish_size2_sim {K : Machine} {A : Word} {n : Nat} {m0 : Memory} {g0 : Nat → Word} {y0 : Nat → V8} (H : Host K A n
    m0) {P : Word} {p : Array Int} (TP : Tab K A n m0 P p) {xr8 : Nat} (h_r8 : g0 r8 = A + BitVec.ofNat 64 xr8) (b_r8 : xr8 < 2 ^
    37) {v4 : V8} (hv4 : y0 4 = v4) {v6 : V8} (hv6 : y0 6 = v6) :
    ∀ st s, ct_s2r_finish_size2_I A n m0 g0 y0 P st s →
      Sim K (Asm.ct_s2r_finish_size2 p xr8 v4 v6 st) Text.ct_s2r_finish_size2 s (LoopPost (ct_s2r_finish_size2_I A n m0 g0 y0 P) (ct_s2r_finish_size2_J A n m0 g0 y0 P) Text.ct_s2r_finish_size2 Text.ct_s2r_finish_size2_exit) := by
  have hn := H.hn
  rintro ⟨a, xrax, xrdx⟩ ⟨g, y, cf, zf, m⟩ ⟨hg, hy, E, h_rax, h_rdx, b_I⟩
  replace h_r8 := (hg r8 rfl).trans h_r8
  obtain rfl := (hy 4 rfl).trans hv4
  obtain rfl := (hy 6 rfl).trans hv6
  unfold Asm.ct_s2r_finish_size2
  refine Sim.load_sxwq TP E (ea_at h_rdx) fun v _ => ?_
  refine Sim.vec ?_
  refine Sim.load H E (ea_at h_rax) fun v b_545 => ?_
  refine Sim.load H E (ea_at h_rax) fun v b_546 => ?_
  refine Sim.vec ?_
  refine Sim.vec ?_
  refine Sim.vec ?_
  refine Sim.vec ?_
  refine Sim.vec ?_
  refine Sim.vec ?_
  refine Sim.vec ?_
  refine Sim.vec ?_
  refine Sim.vec ?_
  refine Sim.vec ?_
  refine Sim.vec ?_
  refine Sim.vec ?_
  refine Sim.vec ?_
  refine Sim.vec ?_
  refine Sim.vec ?_
  refine Sim.vec ?_
  refine Sim.vec ?_
  refine Sim.vec ?_
  refine Sim.vec ?_
  refine Sim.store H E (ea_at h_rax) (by krfl) fun a m E b_566 => ?_
  refine Sim.store H E (ea_at h_rax) (by krfl) fun a m E b_567 => ?_
  refine Sim.addi fun cf zf => ?_
  have h_rax := ptr_addi (k := 64) h_rax
  refine Sim.gen fun g hgg => ?_
  replace h_rax := (congrFun hgg rax).trans h_rax
  replace h_rdx := (congrFun hgg rdx).trans h_rdx
  replace h_r8 := (congrFun hgg r8).trans h_r8
  replace hg : Agree [rax, rdx] g0 g := Agree.of_eq hgg (by agree hg)
  clear hgg
  refine Sim.addi fun cf zf => ?_
  have h_rdx := ptr_addi (k := 8) h_rdx
  refine Sim.gen fun g hgg => ?_
  replace h_rax := (congrFun hgg rax).trans h_rax
  replace h_rdx := (congrFun hgg rdx).trans h_rdx
  replace h_r8 := (congrFun hgg r8).trans h_r8
  replace hg : Agree [rax, rdx] g0 g := Agree.of_eq hgg (by agree hg)
  clear hgg
  refine Sim.cmp_jcc codeAt_ct_s2r_finish_size2 (Cmp.ptr H.hA (by omega) (by omega) h_rax h_r8) (fun hc cf zf => ?_) (fun hc cf zf => ?_)
  · have hc' : _ < _ := hc
    exact Sim.again (decide_eq_true hc) ⟨by agree hg, by agree hy, E, h_rax, h_rdx, trivial⟩
  · have hc' : ¬ (_ < _) := hc
    exact Sim.done (decide_eq_false hc) ⟨by agree hg, by agree hy, E, h_rax, h_rdx, trivial⟩

def ct_s2r_loop2_aux_I (A : Word) (n : Nat) (m0 : Memory) (g0 : Nat → Word) (y0 : Nat → V8) (P : Word) :
    Array Int × Nat × Nat → State → Prop
  | (a, xrcx, xrdx), s =>
    Agree [rax, rcx, rdx, r9] g0 s.gpr ∧ Agree [0, 1, 2, 3, 5] y0 s.ymm ∧ Env A n m0 s.mem a ∧
    s.gpr rcx = A + BitVec.ofNat 64 xrcx ∧ s.gpr rdx = P + BitVec.ofNat 64 xrdx ∧ xrcx < 2 ^ 36

def ct_s2r_loop2_aux_J (A : Word) (n : Nat) (m0 : Memory) (g0 : Nat → Word) (y0 : Nat → V8) (P : Word) :
    Array Int × Nat × Nat → State → Prop
  | (a, xrcx, xrdx), s =>
    Agree [rax, rcx, rdx, r9] g0 s.gpr ∧ Agree [0, 1, 2, 3, 5] y0 s.ymm ∧ Env A n m0 s.mem a ∧
    s.gpr rcx = A + BitVec.ofNat 64 xrcx ∧ s.gpr rdx = P + BitVec.ofNat 64 xrdx ∧ True

theorem ct_s2r_loop2_aux_sim {K : Machine} {A : Word} {n : Nat} {m0 : Memory} {g0 : Nat → Word} {y0 : Nat → V8} (H : Host K A n m0)
    {P : Word} {p : Array Int} (TP : Tab K A n m0 P p) {xrsi : Nat} (h_rsi : g0 rsi = BitVec.ofNat 64 xrsi) (b_rsi : xrsi < 2 ^ 34)
    {xr8 : Nat} (h_r8 : g0 r8 = A + BitVec.ofNat 64 xr8) (b_r8 : xr8 < 2 ^ 37) {v4 : V8} (hv4 : y0 4 = v4) :
    ∀ st s, ct_s2r_loop2_aux_I A n m0 g0 y0 P st s →
      Sim K (Asm.ct_s2r_loop2_aux p n xrsi xr8 v4 st) Text.ct_s2r_loop2_aux s (LoopPost (ct_s2r_loop2_aux_I A n m0 g0 y0 P) (ct_s2r_loop2_aux_J A n m0 g0 y0 P) Text.ct_s2r_loop2_aux Text.ct_s2r_loop2_aux_exit) := by
  have hn := H.hn
  rintro ⟨a, xrcx, xrdx⟩ ⟨g, y, cf, zf, m⟩ ⟨hg, hy, E, h_rcx, h_rdx, b_I⟩
  replace h_rsi := (hg rsi rfl).trans h_rsi
  replace h_r8 := (hg r8 rfl).trans h_r8
  obtain rfl := (hy 4 rfl).trans hv4
  unfold Asm.ct_s2r_loop2_aux
  refine Sim.addi fun cf zf => ?_
  have h_rdx := ptr_addi (k := 2) h_rdx
  refine Sim.gen fun g hgg => ?_
  replace h_rcx := (congrFun hgg rcx).trans h_rcx
  replace h_rdx := (congrFun hgg rdx).trans h_rdx
  replace h_rsi := (congrFun hgg rsi).trans h_rsi
  replace h_r8 := (congrFun hgg r8).trans h_r8
  replace hg : Agree [rax, rcx, rdx, r9] g0 g := Agree.of_eq hgg (by agree hg)
  clear hgg
  refine Sim.load_bdcstw TP E (ea_at h_rdx) fun v _ => ?_
  refine Sim.vec ?_
  refine Sim.mov ?_
  have h_rax := h_rcx
  refine Sim.gen fun g hgg => ?_
  replace h_rcx := (congrFun hgg rcx).trans h_rcx
  replace h_rdx := (congrFun hgg rdx).trans h_rdx
  replace h_rsi := (congrFun hgg rsi).trans h_rsi
  replace h_r8 := (congrFun hgg r8).trans h_r8
  replace h_rax := (congrFun hgg rax).trans h_rax
  replace hg : Agree [rax, rcx, rdx, r9] g0 g := Agree.of_eq hgg (by agree hg)
  clear hgg
  refine Sim.lea ?_
  have h_rcx := ea_ix (k := 2) (c := 0) h_rax h_rsi
  refine Sim.gen fun g hgg => ?_
  replace h_rcx := (congrFun hgg rcx).trans h_rcx
  replace h_rdx := (congrFun hgg rdx).trans h_rdx
  replace h_rsi := (congrFun hgg rsi).trans h_rsi
  replace h_r8 := (congrFun hgg r8).trans h_r8
  replace h_rax := (congrFun hgg rax).trans h_rax
  replace hg : Agree [rax, rcx, rdx, r9] g0 g := Agree.of_eq hgg (by agree hg)
  clear hgg
  refine Sim.mov ?_
  have h_r9 := h_rcx
  refine Sim.gen fun g hgg => ?_
  replace h_rcx := (congrFun hgg rcx).trans h_rcx
  replace h_rdx := (congrFun hgg rdx).trans h_rdx
  replace h_rsi := (congrFun hgg rsi).trans h_rsi
  replace h_r8 := (congrFun hgg r8).trans h_r8
  replace h_rax := (congrFun hgg rax).trans h_rax
  replace h_r9 := (congrFun hgg r9).trans h_r9
  replace hg : Agree [rax, rcx, rdx, r9] g0 g := Agree.of_eq hgg (by agree hg)
  clear hgg
  refine Sim.label ?_
  refine Sim.geny fun y hyy => ?_
  have hv4 := congrFun hyy 4
  have hv5 := congrFun hyy 5
  replace hy : Agree [0, 1, 2, 3, 5] y0 y := Agree.of_eq hyy (by agree hy)
  clear hyy
  refine Sim.loop (ct_s2r_loop2_inner2_sim H h_r9 (by omega) (hv4.trans (by krfl)) (hv5.trans (by krfl))) ⟨.refl, .refl, E, h_rax, h_rcx, trivial⟩ ?_
  rintro ⟨a, xrax1, xrcx1⟩ ⟨g1, y1, cf, zf, m⟩ ⟨hg1, hy1, E, h_rax, h_rcx, b_J1⟩
  have h_rdx := (hg1 rdx rfl).trans h_rdx
  have h_rsi := (hg1 rsi rfl).trans h_rsi
  have h_r8 := (hg1 r8 rfl).trans h_r8
  have h_r9 := (hg1 r9 rfl).trans h_r9
  have hv4 := (hy1 4 rfl).trans hv4
  have hv5 := (hy1 5 rfl).trans hv5
  replace hg : Agree [rax, rcx, rdx, r9] g0 g1 := Agree.trans rfl (by agree hg) hg1
  replace hy : Agree [0, 1, 2, 3, 5] y0 y1 := Agree.trans rfl (by agree hy) hy1
  clear hg1 hy1
  refine Sim.cmp_jcc codeAt_ct_s2r_loop2_aux (Cmp.ptr H.hA (by omega) (by omega) h_rcx h_r8) (fun hc cf zf => ?_) (fun hc cf zf => ?_)
  · have hc' : _ < _ := hc
    exact Sim.again (decide_eq_true hc) ⟨by agree hg, by agree hy, E, h_rcx, h_rdx, by omega⟩
  · have hc' : ¬ (_ < _) := hc
    exact Sim.done (decide_eq_false hc) ⟨by agree hg, by agree hy, E, h_rcx, h_rdx, trivial⟩

def ct_s2r_finish_size1_I (A : Word) (n : Nat) (m0 : Memory) (g0 : Nat → Word) (y0 : Nat → V8) (P : Word) :
    Array Int × Nat × Nat → State → Prop
  | (a, xrax, xrdx), s =>
    Agree [rax, rdx] g0 s.gpr ∧ Agree [0, 1, 2, 3, 5, 6] y0 s.ymm ∧ Env A n m0 s.mem a ∧
    s.gpr rax = A + BitVec.ofNat 64 xrax ∧ s.gpr rdx = P + BitVec.ofNat 64 xrdx ∧ True

def ct_s2r_finish_size1_J (A : Word) (n : Nat) (m0 : Memory) (g0 : Nat → Word) (y0 : Nat → V8) (P : Word) :
    Array Int × Nat × Nat → State → Prop
  | (a, xrax, xrdx), s =>
    Agree [rax, rdx] g0 s.gpr ∧ Agree [0, 1, 2, 3, 5, 6] y0 s.ymm ∧ Env A n m0 s.mem a ∧
    s.gpr rax = A + BitVec.ofNat 64 xrax ∧ s.gpr rdx = P + BitVec.ofNat 64 xrdx ∧ True

theorem ct_s2r_finish_size1_sim {K : Machine} {A : Word} {n : Nat} {m0 : Memory} {g0 : Nat → Word} {y0 : Nat → V8} (H : Host K A n
    m0) {P : Word} {p : Array Int} (TP : Tab K A n m0 P p) {xr8 : Nat} (h_r8 : g0 r8 = A + BitVec.ofNat 64 xr8) (b_r8 : xr8 < 2 ^
    37) {v4 : V8} (hv4 : y0 4 = v4) :
    ∀ st s, ct_s2r_finish_size1_I A n m0 g0 y0 P st s →
      Sim K (Asm.ct_s2r_finish_size1 p xr8 v4 st) Text.ct_s2r_finish_size1 s (LoopPost (ct_s2r_finish_size1_I A n m0 g0 y0 P) (ct_s2r_finish_size1_J A n m0 g0 y0 P) Text.ct_s2r_finish_size1 Text.ct_s2r_finish_size1_exit) := by
  have hn := H.hn
  rintro ⟨a, xrax, xrdx⟩ ⟨g, y, cf, zf, m⟩ ⟨hg, hy, E, h_rax, h_rdx, b_I⟩
  replace h_r8 := (hg r8 rfl).trans h_r8
  obtain rfl := (hy 4 rfl).trans hv4
  unfold Asm.ct_s2r_finish_size1
  refine Sim.load_sxwq TP E (ea_at h_rdx) fun v _ => ?_
  refine Sim.load_sxwq TP E (ea_at h_rdx) fun v _ => ?_
  refine Sim.load H E (ea_at h_rax) fun v b_576 => ?_
  refine Sim.load H E (ea_at h_rax) fun v b_577 => ?_
  refine Sim.vec ?_
  refine Sim.vec ?_
  refine Sim.vec ?_
  refine Sim.vec ?_
  refine Sim.vec ?_
  refine Sim.vec ?_
  refine Sim.vec ?_
  refine Sim.vec ?_
  refine Sim.vec ?_
  refine Sim.vec ?_
  refine Sim.vec ?_
  refine Sim.vec ?_
  refine Sim.vec ?_
  refine Sim.vec ?_
  refine Sim.vec ?_
  refine Sim.vec ?_
  refine Sim.vec ?_
  refine Sim.vec ?_
  refine Sim.vec ?_
  refine Sim.vec ?_
  refine Sim.vec ?_
  refine Sim.vec ?_
  refine Sim.store H E (ea_at h_rax) (by krfl) fun a m E b_600 => ?_
  refine Sim.store H E (ea_at h_rax) (by krfl) fun a m E b_601 => ?_
  refine Sim.addi fun cf zf => ?_
  have h_rax := ptr_addi (k := 64) h_rax
  refine Sim.gen fun g hgg => ?_
  replace h_rax := (congrFun hgg rax).trans h_rax
  replace h_rdx := (congrFun hgg rdx).trans h_rdx
  replace h_r8 := (congrFun hgg r8).trans h_r8
  replace hg : Agree [rax, rdx] g0 g := Agree.of_eq hgg (by agree hg)
  clear hgg
  refine Sim.addi fun cf zf => ?_
  have h_rdx := ptr_addi (k := 16) h_rdx
  refine Sim.gen fun g hgg => ?_
  replace h_rax := (congrFun hgg rax).trans h_rax
  replace h_rdx := (congrFun hgg rdx).trans h_rdx
  replace h_r8 := (congrFun hgg r8).trans h_r8
  replace hg : Agree [rax, rdx] g0 g := Agree.of_eq hgg (by agree hg)
  clear hgg
  refine Sim.cmp_jcc codeAt_ct_s2r_finish_size1 (Cmp.ptr H.hA (by omega) (by omega) h_rax h_r8) (fun hc cf zf => ?_) (fun hc cf zf => ?_)
  · have hc' : _ < _ := hc
    exact Sim.again (decide_eq_true hc) ⟨by agree hg, by agree hy, E, h_rax, h_rdx, trivial⟩
  · have hc' : ¬ (_ < _) := hc
    exact Sim.done (decide_eq_false hc) ⟨by agree hg, by agree hy, E, h_rax, h_rdx, trivial⟩

def ct_s2r_loop2_I (A : Word) (n : Nat) (m0 : Memory) (g0 : Nat → Word) (y0 : Nat → V8) (P : Word) :
    Array Int × Nat × Nat → State → Prop
  | (a, xrsi, xrdx), s =>
    Agree [rax, rcx, rdx, rsi, r9] g0 s.gpr ∧ Agree [0, 1, 2, 3, 5] y0 s.ymm ∧ Env A n m0 s.mem a ∧
    s.gpr rsi = BitVec.ofNat 64 xrsi ∧ s.gpr rdx = P + BitVec.ofNat 64 xrdx ∧ xrsi < 2 ^ 34

def ct_s2r_loop2_J (A : Word) (n : Nat) (m0 : Memory) (g0 : Nat → Word) (y0 : Nat → V8) (P : Word) :
    Array Int × Nat × Nat → State → Prop
  | (a, xrsi, xrdx), s =>
    Agree [rax, rcx, rdx, rsi, r9] g0 s.gpr ∧ Agree [0, 1, 2, 3, 5] y0 s.ymm ∧ Env A n m0 s.mem a ∧
    s.gpr rsi = BitVec.ofNat 64 xrsi ∧ s.gpr rdx = P + BitVec.ofNat 64 xrdx ∧ True

theorem ct_s2r_loop2_sim {K : Machine} {A : Word} {n : Nat} {m0 : Memory} {g0 : Nat → Word} {y0 : Nat → V8} (H : Host K A n m0) {P :
    Word} {p : Array Int} (TP : Tab K A n m0 P p) {xrdi : Nat} (h_rdi : g0 rdi = A + BitVec.ofNat 64 xrdi) (b_rdi : xrdi < 2 ^ 36)
    {xr8 : Nat} (h_r8 : g0 r8 = A + BitVec.ofNat 64 xr8) (b_r8 : xr8 < 2 ^ 37) {v4 : V8} (hv4 : y0 4 = v4) :
    ∀ st s, ct_s2r_loop2_I A n m0 g0 y0 P st s →
      Sim K (Asm.ct_s2r_loop2 p n xrdi xr8 v4 st) Text.ct_s2r_loop2 s (LoopPost (ct_s2r_loop2_I A n m0 g0 y0 P) (ct_s2r_loop2_J A n m0 g0 y0 P) Text.ct_s2r_loop2 Text.at_ct_s2r_finish) := by
  have hn := H.hn
  rintro ⟨a, xrsi, xrdx⟩ ⟨g, y, cf, zf, m⟩ ⟨hg, hy, E, h_rsi, h_rdx, b_I⟩
  replace h_rdi := (hg rdi rfl).trans h_rdi
  replace h_r8 := (hg r8 rfl).trans h_r8
  obtain rfl := (hy 4 rfl).trans hv4
  unfold Asm.ct_s2r_loop2
  refine Sim.mov ?_
  have h_rax := h_rdi
  refine Sim.gen fun g hgg => ?_
  replace h_rsi := (congrFun hgg rsi).trans h_rsi
  replace h_rdx := (congrFun hgg rdx).trans h_rdx
  replace h_rdi := (congrFun hgg rdi).trans h_rdi
  replace h_r8 := (congrFun hgg r8).trans h_r8
  replace h_rax := (congrFun hgg rax).trans h_rax
  replace hg : Agree [rax, rcx, rdx, rsi, r9] g0 g := Agree.of_eq hgg (by agree hg)
  clear hgg
  refine Sim.lea ?_
  have h_rcx := ea_ix (k := 2) (c := 0) h_rdi h_rsi
  refine Sim.gen fun g hgg => ?_
  replace h_rsi := (congrFun hgg rsi).trans h_rsi
  replace h_rdx := (congrFun hgg rdx).trans h_rdx
  replace h_rdi := (congrFun hgg rdi).trans h_rdi
  replace h_r8 := (congrFun hgg r8).trans h_r8
  replace h_rax := (congrFun hgg rax).trans h_rax
  replace h_rcx := (congrFun hgg rcx).trans h_rcx
  replace hg : Agree [rax, rcx, rdx, rsi, r9] g0 g := Agree.of_eq hgg (by agree hg)
  clear hgg
  refine Sim.mov ?_
  have h_r9 := h_rcx
  refine Sim.gen fun g hgg => ?_
  replace h_rsi := (congrFun hgg rsi).trans h_rsi
  replace h_rdx := (congrFun hgg rdx).trans h_rdx
  replace h_rdi := (congrFun hgg rdi).trans h_rdi
  replace h_r8 := (congrFun hgg r8).trans h_r8
  replace h_rax := (congrFun hgg rax).trans h_rax
  replace h_rcx := (congrFun hgg rcx).trans h_rcx
  replace h_r9 := (congrFun hgg r9).trans h_r9
  replace hg : Agree [rax, rcx, rdx, rsi, r9] g0 g := Agree.of_eq hgg (by agree hg)
  clear hgg
  refine Sim.label ?_
  refine Sim.geny fun y hyy => ?_
  have hv4 := congrFun hyy 4
  have hv5 := congrFun hyy 5
  replace hy : Agree [0, 1, 2, 3, 5] y0 y := Agree.of_eq hyy (by agree hy)
  clear hyy
  refine Sim.loop (ct_s2r_loop2_inner1_sim H h_r9 (by omega)) ⟨.refl, .refl, E, h_rax, h_rcx, trivial⟩ ?_
  rintro ⟨a, xrax1, xrcx1⟩ ⟨g1, y1, cf, zf, m⟩ ⟨hg1, hy1, E, h_rax, h_rcx, b_J1⟩
  have h_rsi := (hg1 rsi rfl).trans h_rsi
  have h_rdx := (hg1 rdx rfl).trans h_rdx
  have h_rdi := (hg1 rdi rfl).trans h_rdi
  have h_r8 := (hg1 r8 rfl).trans h_r8
  have h_r9 := (hg1 r9 rfl).trans h_r9
  have hv4 := (hy1 4 rfl).trans hv4
  have hv5 := (hy1 5 rfl).trans hv5
  replace hg : Agree [rax, rcx, rdx, rsi, r9] g0 g1 := Agree.trans rfl (by agree hg) hg1
  replace hy : Agree [0, 1, 2, 3, 5] y0 y1 := Agree.trans rfl (by agree hy) hy1
  clear hg1 hy1
  refine Sim.label ?_
  refine Sim.geny fun y hyy => ?_
  replace hv4 := (congrFun hyy 4).trans hv4
  replace hv5 := (congrFun hyy 5).trans hv5
  replace hy : Agree [0, 1, 2, 3, 5] y0 y := Agree.of_eq hyy (by agree hy)
  clear hyy
  refine Sim.loop (ct_s2r_loop2_aux_sim H TP h_rsi (by omega) h_r8 (by omega) (hv4.trans (by krfl))) ⟨.refl, .refl, E, h_rcx, h_rdx, by omega⟩ ?_
  rintro ⟨a, xrcx2, xrdx2⟩ ⟨g2, y2, cf, zf, m⟩ ⟨hg2, hy2, E, h_rcx, h_rdx, b_J2⟩
  have h_rsi := (hg2 rsi rfl).trans h_rsi
  have h_rdi := (hg2 rdi rfl).trans h_rdi
  have h_r8 := (hg2 r8 rfl).trans h_r8
  have hv4 := (hy2 4 rfl).trans hv4
  replace hg : Agree [rax, rcx, rdx, rsi, r9] g0 g2 := Agree.trans rfl (by agree hg) hg2
  replace hy : Agree [0, 1, 2, 3, 5] y0 y2 := Agree.trans rfl (by agree hy) hy2
  clear hg2 hy2
  refine Sim.addi fun cf zf => ?_
  have h_rdx := ptr_addi (k := 2) h_rdx
  refine Sim.gen fun g hgg => ?_
  replace h_rsi := (congrFun hgg rsi).trans h_rsi
  replace h_rdx := (congrFun hgg rdx).trans h_rdx
  replace h_rdi := (congrFun hgg rdi).trans h_rdi
  replace h_r8 := (congrFun hgg r8).trans h_r8
  replace h_rcx := (congrFun hgg rcx).trans h_rcx
  replace hg : Agree [rax, rcx, rdx, rsi, r9] g0 g := Agree.of_eq hgg (by agree hg)
  clear hgg
  refine Sim.shr fun cf zf => ?_
  have h_rsi := cnt_shr1 h_rsi (by omega)
  refine Sim.gen fun g hgg => ?_
  replace h_rsi := (congrFun hgg rsi).trans h_rsi
  replace h_rdx := (congrFun hgg rdx).trans h_rdx
  replace h_rdi := (congrFun hgg rdi).trans h_rdi
  replace h_r8 := (congrFun hgg r8).trans h_r8
  replace h_rcx := (congrFun hgg rcx).trans h_rcx
  replace hg : Agree [rax, rcx, rdx, rsi, r9] g0 g := Agree.of_eq hgg (by agree hg)
  clear hgg
  refine Sim.cmpi_jcc codeAt_ct_s2r_loop2 (Cmp.cnt (by omega) (by omega) h_rsi rfl) (fun hc cf zf => ?_) (fun hc cf zf => ?_)
  · have hc' : _ > _ := hc
    exact Sim.again (decide_eq_true hc) ⟨by agree hg, by agree hy, E, h_rsi, h_rdx, by omega⟩
  · have hc' : ¬ (_ > _) := hc
    exact Sim.done (decide_eq_false hc) ⟨by agree hg, by agree hy, E, h_rsi, h_rdx, trivial⟩

theorem ct_s2r_finish_sim {K : Machine} {A : Word} {n : Nat} {m0 : Memory} {g : Nat → Word} {y : Nat → V8} (H : Host K A n m0) {P :
    Word} {p : Array Int} (TP : Tab K A n m0 P p) {xrdi : Nat} (h_rdi : g rdi = A + BitVec.ofNat 64 xrdi) (b_rdi : xrdi < 2 ^ 36)
    {xr8 : Nat} (h_r8 : g r8 = A + BitVec.ofNat 64 xr8) (b_r8 : xr8 < 2 ^ 37) {v4 : V8} (hv4 : y 4 = v4) {xrdx : Nat} (h_rdx : g rdx
    = P + BitVec.ofNat 64 xrdx) {a : Array Int} {g0 : Nat → Word} {cf zf : Bool} {m : Memory} (hg : Agree [rax, rcx, rdx, rsi, rdi,
    r8, r9, r10, r11] g0 g) (E : Env A n m0 m a) :
    Sim K (Asm.ct_s2r_finish p n xrdi xr8 v4 a xrdx) Text.ct_s2r_finish ⟨g, y, cf, zf, m⟩ (RetPost A n m0 g0) := by
  have hn := H.hn
  subst hv4
  unfold Asm.ct_s2r_finish
  refine Sim.mov ?_
  have h_rax := h_rdi
  refine Sim.gen fun g hgg => ?_
  replace h_rdi := (congrFun hgg rdi).trans h_rdi
  replace h_r8 := (congrFun hgg r8).trans h_r8
  replace h_rdx := (congrFun hgg rdx).trans h_rdx
  replace h_rax := (congrFun hgg rax).trans h_rax
  replace hg : Agree [rax, rcx, rdx, rsi, rdi, r8, r9, r10, r11] g0 g := Agree.of_eq hgg (by agree hg)
  clear hgg
  refine Sim.const H E ?_
  refine Sim.label ?_
  refine Sim.geny fun y hyy => ?_
  have hv4 := congrFun hyy 4
  have hv6 := congrFun hyy 6
  clear hyy
  refine Sim.loop (ct_s2r_finish_size4_sim H TP h_r8 (by omega) (hv4.trans (by krfl)) (hv6.trans (by krfl))) ⟨.refl, .refl, E, h_rax, h_rdx, trivial⟩ ?_
  rintro ⟨a, xrax1, xrdx1⟩ ⟨g1, y1, cf, zf, m⟩ ⟨hg1, hy1, E, h_rax, h_rdx, b_J1⟩
  have h_rdi := (hg1 rdi rfl).trans h_rdi
  have h_r8 := (hg1 r8 rfl).trans h_r8
  have hv4 := (hy1 4 rfl).trans hv4
  have hv6 := (hy1 6 rfl).trans hv6
  replace hg : Agree [rax, rcx, rdx, rsi, rdi, r8, r9, r10, r11] g0 g1 := Agree.trans rfl (by agree hg) hg1
  clear hg1 hy1
  refine Sim.mov ?_
  have h_rax := h_rdi
  refine Sim.gen fun g hgg => ?_
  replace h_rdi := (congrFun hgg rdi).trans h_rdi
  replace h_r8 := (congrFun hgg r8).trans h_r8
  replace h_rdx := (congrFun hgg rdx).trans h_rdx
  replace h_rax := (congrFun hgg rax).trans h_rax
  replace hg : Agree [rax, rcx, rdx, rsi, rdi, r8, r9, r10, r11] g0 g := Agree.of_eq hgg (by agree hg)
  clear hgg
  refine Sim.const H E ?_
  refine Sim.label ?_
  refine Sim.geny fun y hyy => ?_
  replace hv4 := (congrFun hyy 4).trans hv4
  have hv6 := congrFun hyy 6
  clear hyy
  refine Sim.loop (ct_s2r_finish_size2_sim H TP h_r8 (by omega) (hv4.trans (by krfl)) (hv6.trans (by krfl))) ⟨.refl, .refl, E, h_rax, h_rdx, trivial⟩ ?_
  rintro ⟨a, xrax2, xrdx2⟩ ⟨g2, y2, cf, zf, m⟩ ⟨hg2, hy2, E, h_rax, h_rdx, b_J2⟩
  have h_rdi := (hg2 rdi rfl).trans h_rdi
  have h_r8 := (hg2 r8 rfl).trans h_r8
  have hv4 := (hy2 4 rfl).trans hv4
  have hv6 := (hy2 6 rfl).trans hv6
  replace hg : Agree [rax, rcx, rdx, rsi, rdi, r8, r9, r10, r11] g0 g2 := Agree.trans rfl (by agree hg) hg2
  clear hg2 hy2
  refine Sim.mov ?_
  have h_rax := h_rdi
  refine Sim.gen fun g hgg => ?_
  replace h_rdi := (congrFun hgg rdi).trans h_rdi
  replace h_r8 := (congrFun hgg r8).trans h_r8
  replace h_rdx := (congrFun hgg rdx).trans h_rdx
  replace h_rax := (congrFun hgg rax).trans h_rax
  replace hg : Agree [rax, rcx, rdx, rsi, rdi, r8, r9, r10, r11] g0 g := Agree.of_eq hgg (by agree hg)
  clear hgg
  refine Sim.label ?_
  refine Sim.geny fun y hyy => ?_
  replace hv4 := (congrFun hyy 4).trans hv4
  replace hv6 := (congrFun hyy 6).trans hv6
  clear hyy
  refine Sim.loop (ct_s2r_finish_size1_sim H TP h_r8 (by omega) (hv4.trans (by krfl))) ⟨.refl, .refl, E, h_rax, h_rdx, trivial⟩ ?_
  rintro ⟨a, xrax3, xrdx3⟩ ⟨g3, y3, cf, zf, m⟩ ⟨hg3, hy3, E, h_rax, h_rdx, b_J3⟩
  have h_rdi := (hg3 rdi rfl).trans h_rdi
  have h_r8 := (hg3 r8 rfl).trans h_r8
  have hv4 := (hy3 4 rfl).trans hv4
  replace hg : Agree [rax, rcx, rdx, rsi, rdi, r8, r9, r10, r11] g0 g3 := Agree.trans rfl (by agree hg) hg3
  clear hg3 hy3
  exact Sim.stop ⟨⟨_, rfl⟩, E, by agree hg⟩

theorem ntt_red_ct_std2rev_asm_sim {K : Machine} {A : Word} {n : Nat} {m0 : Memory} {g : Nat → Word} {y : Nat → V8} (H : Host K A n
    m0) (h_rdi : g rdi = A + BitVec.ofNat 64 0) (h_rsi : g rsi = BitVec.ofNat 64 n) {P : Word} {p : Array Int} (TP : Tab K A n m0 P
    p) (h_rdx : g rdx = P + BitVec.ofNat 64 0) {a : Array Int} {g0 : Nat → Word} {cf zf : Bool} {m : Memory} (hg : Agree [rax, rcx,
    rdx, rsi, rdi, r8, r9, r10, r11] g0 g) (E : Env A n m0 m a) :
    Sim K (Asm.ntt_red_ct_std2rev_asm a n p) Text.ntt_red_ct_std2rev_asm ⟨g, y, cf, zf, m⟩ (RetPost A n m0 g0) := by
  have hn := H.hn
  unfold Asm.ntt_red_ct_std2rev_asm
  refine Sim.lea ?_
  have h_r8 := ea_ix (k := 4) (c := 0) h_rdi h_rsi
  refine Sim.gen fun g hgg => ?_
  replace h_rdi := (congrFun hgg rdi).trans h_rdi
  replace h_rsi := (congrFun hgg rsi).trans h_rsi
  replace h_rdx := (congrFun hgg rdx).trans h_rdx
  replace h_r8 := (congrFun hgg r8).trans h_r8
  replace hg : Agree [rax, rcx, rdx, rsi, rdi, r8, r9, r10, r11] g0 g := Agree.of_eq hgg (by agree hg)
  clear hgg
  refine Sim.const H E ?_
  refine Sim.mov ?_
  have h_rax := h_rdi
  refine Sim.gen fun g hgg => ?_
  replace h_rdi := (congrFun hgg rdi).trans h_rdi
  replace h_rsi := (congrFun hgg rsi).trans h_rsi
  replace h_rdx := (congrFun hgg rdx).trans h_rdx
  replace h_r8 := (congrFun hgg r8).trans h_r8
  replace h_rax := (congrFun hgg rax).trans h_rax
  replace hg : Agree [rax, rcx, rdx, rsi, rdi, r8, r9, r10, r11] g0 g := Agree.of_eq hgg (by agree hg)
  clear hgg
  refine Sim.lea ?_
  have h_rcx := ea_ix (k := 2) (c := 0) h_rdi h_rsi
  refine Sim.gen fun g hgg => ?_
  replace h_rdi := (congrFun hgg rdi).trans h_rdi
  replace h_rsi := (congrFun hgg rsi).trans h_rsi
  replace h_rdx := (congrFun hgg rdx).trans h_rdx
  replace h_r8 := (congrFun hgg r8).trans h_r8
  replace h_rax := (congrFun hgg rax).trans h_rax
  replace h_rcx := (congrFun hgg rcx).trans h_rcx
  replace hg : Agree [rax, rcx, rdx, rsi, rdi, r8, r9, r10, r11] g0 g := Agree.of_eq hgg (by agree hg)
  clear hgg
  refine Sim.label ?_
  refine Sim.geny fun y hyy => ?_
  have hv4 := congrFun hyy 4
  have hv5 := congrFun hyy 5
  have hv6 := congrFun hyy 6
  clear hyy
  refine Sim.loop (ct_s2r_loop1_sim H h_r8 (by omega)) ⟨.refl, .refl, E, h_rax, h_rcx, trivial⟩ ?_
  rintro ⟨a, xrax1, xrcx1⟩ ⟨g1, y1, cf, zf, m⟩ ⟨hg1, hy1, E, h_rax, h_rcx, b_J1⟩
  have h_rdi := (hg1 rdi rfl).trans h_rdi
  have h_rsi := (hg1 rsi rfl).trans h_rsi
  have h_rdx := (hg1 rdx rfl).trans h_rdx
  have h_r8 := (hg1 r8 rfl).trans h_r8
  have hv4 := (hy1 4 rfl).trans hv4
  have hv5 := (hy1 5 rfl).trans hv5
  have hv6 := (hy1 6 rfl).trans hv6
  replace hg : Agree [rax, rcx, rdx, rsi, rdi, r8, r9, r10, r11] g0 g1 := Agree.trans rfl (by agree hg) hg1
  clear hg1 hy1
  refine Sim.addi fun cf zf => ?_
  have h_rdx := ptr_addi (k := 4) h_rdx
  refine Sim.gen fun g hgg => ?_
  replace h_rdi := (congrFun hgg rdi).trans h_rdi
  replace h_rsi := (congrFun hgg rsi).trans h_rsi
  replace h_rdx := (congrFun hgg rdx).trans h_rdx
  replace h_r8 := (congrFun hgg r8).trans h_r8
  replace h_rax := (congrFun hgg rax).trans h_rax
  replace h_rcx := (congrFun hgg rcx).trans h_rcx
  replace hg : Agree [rax, rcx, rdx, rsi, rdi, r8, r9, r10, r11] g0 g := Agree.of_eq hgg (by agree hg)
  clear hgg
  refine Sim.shr fun cf zf => ?_
  have h_rsi := cnt_shr1 h_rsi (by omega)
  refine Sim.gen fun g hgg => ?_
  replace h_rdi := (congrFun hgg rdi).trans h_rdi
  replace h_rsi := (congrFun hgg rsi).trans h_rsi
  replace h_rdx := (congrFun hgg rdx).trans h_rdx
  replace h_r8 := (congrFun hgg r8).trans h_r8
  replace h_rax := (congrFun hgg rax).trans h_rax
  replace h_rcx := (congrFun hgg rcx).trans h_rcx
  replace hg : Agree [rax, rcx, rdx, rsi, rdi, r8, r9, r10, r11] g0 g := Agree.of_eq hgg (by agree hg)
  clear hgg
  refine Sim.cmpi_jcc codeAt_ct_s2r_finish (Cmp.cnt (by omega) (by omega) h_rsi rfl) (fun hc cf zf => ?_) (fun hc cf zf => ?_)
  · have hc' : _ ≤ _ := hc
    refine Sim.if_pos hc ?_
    refine Sim.geny fun y hyy => ?_
    replace hv4 := (congrFun hyy 4).trans hv4
    replace hv5 := (congrFun hyy 5).trans hv5
    replace hv6 := (congrFun hyy 6).trans hv6
    clear hyy
    exact ct_s2r_finish_sim H TP h_rdi (by omega) h_r8 (by omega) (hv4.trans (by krfl)) h_rdx (by agree hg) E
  · have hc' : ¬ (_ ≤ _) := hc
    refine Sim.if_neg hc ?_
    refine Sim.label ?_
    refine Sim.geny fun y hyy => ?_
    replace hv4 := (congrFun hyy 4).trans hv4
    replace hv5 := (congrFun hyy 5).trans hv5
    replace hv6 := (congrFun hyy 6).trans hv6
    clear hyy
    refine Sim.loop (ct_s2r_loop2_sim H TP h_rdi (by omega) h_r8 (by omega) (hv4.trans (by krfl))) ⟨.refl, .refl, E, h_rsi, h_rdx, by omega⟩ ?_
    rintro ⟨a, xrsi2, xrdx2⟩ ⟨g2, y2, cf, zf, m⟩ ⟨hg2, hy2, E, h_rsi, h_rdx, b_J2⟩
    have h_rdi := (hg2 rdi rfl).trans h_rdi
    have h_r8 := (hg2 r8 rfl).trans h_r8
    have hv4 := (hy2 4 rfl).trans hv4
    have hv6 := (hy2 6 rfl).trans hv6
    replace hg : Agree [rax, rcx, rdx, rsi, rdi, r8, r9, r10, r11] g0 g2 := Agree.trans rfl (by agree hg) hg2
    clear hg2 hy2
    refine Sim.label ?_
    refine Sim.geny fun y hyy => ?_
    replace hv4 := (congrFun hyy 4).trans hv4
    have hv5 := congrFun hyy 5
    replace hv6 := (congrFun hyy 6).trans hv6
    clear hyy
    exact ct_s2r_finish_sim H TP h_rdi (by omega) h_r8 (by omega) (hv4.trans (by krfl)) h_rdx (by agree hg) E

def mct_s2r_loop_inner_I (A : Word) (n : Nat) (m0 : Memory) (g0 : Nat → Word) (y0 : Nat → V8) :
    Array Int × Nat × Nat → State → Prop
  | (a, xrax, xrcx), s =>
    Agree [rax, rcx] g0 s.gpr ∧ Agree [0, 1, 2, 3] y0 s.ymm ∧ Env A n m0 s.mem a ∧
    s.gpr rax = A + BitVec.ofNat 64 xrax ∧ s.gpr rcx = A + BitVec.ofNat 64 xrcx ∧ True

def mct_s2r_loop_inner_J (A : Word) (n : Nat) (m0 : Memory) (g0 : Nat → Word) (y0 : Nat → V8) :
    Array Int × Nat × Nat → State → Prop
  | (a, xrax, xrcx), s =>
    Agree [rax, rcx] g0 s.gpr ∧ Agree [0, 1, 2, 3] y0 s.ymm ∧ Env A n m0 s.mem a ∧
    s.gpr rax = A + BitVec.ofNat 64 xrax ∧ s.gpr rcx = A + BitVec.ofNat 64 xrcx ∧ xrcx ≤ 4 * n

theorem mct_s2r_loop_inner_sim {K : Machine} {A : Word} {n : Nat} {m0 : Memory} {g0 : Nat → Word} {y0 : Nat → V8} (H : Host K A n
    m0) {xr9 : Nat} (h_r9 : g0 r9 = A + BitVec.ofNat 64 xr9) (b_r9 : xr9 < 2 ^ 37) {v4 : V8} (hv4 : y0 4 = v4) {v5 : V8} (hv5 : y0 5
    = v5) :
    ∀ st s, mct_s2r_loop_inner_I A n m0 g0 y0 st s →
      Sim K (Asm.mct_s2r_loop_inner xr9 v4 v5 st) Text.mct_s2r_loop_inner s (LoopPost (mct_s2r_loop_inner_I A n m0 g0 y0) (mct_s2r_loop_inner_J A n m0 g0 y0) Text.mct_s2r_loop_inner Text.mct_s2r_loop_inner_exit) := by
  have hn := H.hn
  rintro ⟨a, xrax, xrcx⟩ ⟨g, y, cf, zf, m⟩ ⟨hg, hy, E, h_rax, h_rcx, b_I⟩
  replace h_r9 := (hg r9 rfl).trans h_r9
  obtain rfl := (hy 4 rfl).trans hv4
  obtain rfl := (hy 5 rfl).trans hv5
  unfold Asm.mct_s2r_loop_inner
  refine Sim.load H E (ea_at h_rax) fun v b_619 => ?_
  refine Sim.load H E (ea_at h_rcx) fun v b_620 => ?_
  refine Sim.vec ?_
  refine Sim.vec ?_
  refine Sim.vec ?_
  refine Sim.vec ?_
  refine Sim.vec ?_
  refine Sim.vec ?_
  refine Sim.vec ?_
  refine Sim.vec ?_
  refine Sim.vec ?_
  refine Sim.vec ?_
  refine Sim.vec ?_
  refine Sim.vec ?_
  refine Sim.vec ?_
  refine Sim.vec ?_
  refine Sim.vec ?_
  refine Sim.store H E (ea_at h_rax) (by krfl) fun a m E b_636 => ?_
  refine Sim.store H E (ea_at h_rcx) (by krfl) fun a m E b_637 => ?_
  refine Sim.addi fun cf zf => ?_
  have h_rax := ptr_addi (k := 32) h_rax
  refine Sim.gen fun g hgg => ?_
  replace h_rax := (congrFun hgg rax).trans h_rax
  replace h_rcx := (congrFun hgg rcx).trans h_rcx
  replace h_r9 := (congrFun hgg r9).trans h_r9
  replace hg : Agree [rax, rcx] g0 g := Agree.of_eq hgg (by agree hg)
  clear hgg
  refine Sim.addi fun cf zf => ?_
  have h_rcx := ptr_addi (k := 32) h_rcx
  refine Sim.gen fun g hgg => ?_
  replace h_rax := (congrFun hgg rax).trans h_rax
  replace h_rcx := (congrFun hgg rcx).trans h_rcx
  replace h_r9 := (congrFun hgg r9).trans h_r9
  replace hg : Agree [rax, rcx] g0 g := Agree.of_eq hgg (by agree hg)
  clear hgg
  refine Sim.cmp_jcc codeAt_mct_s2r_loop_inner (Cmp.ptr H.hA (by omega) (by omega) h_rax h_r9) (fun hc cf zf => ?_) (fun hc cf zf => ?_)
  · have hc' : _ < _ := hc
    exact Sim.again (decide_eq_true hc) ⟨by agree hg, by agree hy, E, h_rax, h_rcx, trivial⟩
  · have hc' : ¬ (_ < _) := hc
    exact Sim.done (decide_eq_false hc) ⟨by agree hg, by agree hy, E, h_rax, h_rcx, by omega⟩

def mct_s2r_loop_aux_I (A : Word) (n : Nat) (m0 : Memory) (g0 : Nat → Word) (y0 : Nat → V8) (P : Word) :
    Array Int × Nat × Nat × Nat × Nat → State → Prop
  | (a, xrax, xrcx, xr9, xrdx), s =>
    Agree [rax, rcx, rdx, r9] g0 s.gpr ∧ Agree [0, 1, 2, 3, 5] y0 s.ymm ∧ Env A n m0 s.mem a ∧
    s.gpr rax = A + BitVec.ofNat 64 xrax ∧ s.gpr rcx = A + BitVec.ofNat 64 xrcx ∧ s.gpr r9 = A + BitVec.ofNat 64 xr9 ∧ s.gpr rdx = P + BitVec.ofNat 64 xrdx ∧ xr9 < 2 ^ 37

def mct_s2r_loop_aux_J (A : Word) (n : Nat) (m0 : Memory) (g0 : Nat → Word) (y0 : Nat → V8) (P : Word) :
    Array Int × Nat × Nat × Nat × Nat → State → Prop
  | (a, xrax, xrcx, xr9, xrdx), s =>
    Agree [rax, rcx, rdx, r9] g0 s.gpr ∧ Agree [0, 1, 2, 3, 5] y0 s.ymm ∧ Env A n m0 s.mem a ∧
    s.gpr rax = A + BitVec.ofNat 64 xrax ∧ s.gpr rcx = A + BitVec.ofNat 64 xrcx ∧ s.gpr r9 = A + BitVec.ofNat 64 xr9 ∧ s.gpr rdx = P + BitVec.ofNat 64 xrdx ∧ True

theorem mct_s2r_loop_aux_sim {K : Machine} {A : Word} {n : Nat} {m0 : Memory} {g0 : Nat → Word} {y0 : Nat → V8} (H : Host K A n m0)
    {P : Word} {p : Array Int} (TP : Tab K A n m0 P p) {xrsi : Nat} (h_rsi : g0 rsi = BitVec.ofNat 64 xrsi) (b_rsi : xrsi < 2 ^ 34)
    {xr8 : Nat} (h_r8 : g0 r8 = A + BitVec.ofNat 64 xr8) (b_r8 : xr8 < 2 ^ 37) {v4 : V8} (hv4 : y0 4 = v4) :
    ∀ st s, mct_s2r_loop_aux_I A n m0 g0 y0 P st s →
      Sim K (Asm.mct_s2r_loop_aux p n xrsi xr8 v4 st) Text.mct_s2r_loop_aux s (LoopPost (mct_s2r_loop_aux_I A n m0 g0 y0 P) (mct_s2r_loop_aux_J A n m0 g0 y0 P) Text.mct_s2r_loop_aux Text.mct_s2r_loop_aux_exit) := by
  have hn := H.hn
  rintro ⟨a, xrax, xrcx, xr9, xrdx⟩ ⟨g, y, cf, zf, m⟩ ⟨hg, hy, E, h_rax, h_rcx, h_r9, h_rdx, b_I⟩
  replace h_rsi := (hg rsi rfl).trans h_rsi
  replace h_r8 := (hg r8 rfl).trans h_r8
  obtain rfl := (hy 4 rfl).trans hv4
  unfold Asm.mct_s2r_loop_aux
  refine Sim.addi fun cf zf => ?_
  have h_rdx := ptr_addi (k := 2) h_rdx
  refine Sim.gen fun g hgg => ?_
  replace h_rax := (congrFun hgg rax).trans h_rax
  replace h_rcx := (congrFun hgg rcx).trans h_rcx
  replace h_r9 := (congrFun hgg r9).trans h_r9
  replace h_rdx := (congrFun hgg rdx).trans h_rdx
  replace h_rsi := (congrFun hgg rsi).trans h_rsi
  replace h_r8 := (congrFun hgg r8).trans h_r8
  replace hg : Agree [rax, rcx, rdx, r9] g0 g := Agree.of_eq hgg (by agree hg)
  clear hgg
  refine Sim.load_bdcstw TP E (ea_at h_rdx) fun v _ => ?_
  refine Sim.vec ?_
  refine Sim.label ?_
  refine Sim.geny fun y hyy => ?_
  have hv4 := congrFun hyy 4
  have hv5 := congrFun hyy 5
  replace hy : Agree [0, 1, 2, 3, 5] y0 y := Agree.of_eq hyy (by agree hy)
  clear hyy
  refine Sim.loop (mct_s2r_loop_inner_sim H h_r9 (by omega) (hv4.trans (by krfl)) (hv5.trans (by krfl))) ⟨.refl, .refl, E, h_rax, h_rcx, trivial⟩ ?_
  rintro ⟨a, xrax1, xrcx1⟩ ⟨g1, y1, cf, zf, m⟩ ⟨hg1, hy1, E, h_rax, h_rcx, b_J1⟩
  have h_r9 := (hg1 r9 rfl).trans h_r9
  have h_rdx := (hg1 rdx rfl).trans h_rdx
  have h_rsi := (hg1 rsi rfl).trans h_rsi
  have h_r8 := (hg1 r8 rfl).trans h_r8
  have hv4 := (hy1 4 rfl).trans hv4
  have hv5 := (hy1 5 rfl).trans hv5
  replace hg : Agree [rax, rcx, rdx, r9] g0 g1 := Agree.trans rfl (by agree hg) hg1
  replace hy : Agree [0, 1, 2, 3, 5] y0 y1 := Agree.trans rfl (by agree hy) hy1
  clear hg1 hy1
  refine Sim.mov ?_
  have h_rax := h_rcx
  refine Sim.gen fun g hgg => ?_
  replace h_rax := (congrFun hgg rax).trans h_rax
  replace h_rcx := (congrFun hgg rcx).trans h_rcx
  replace h_r9 := (congrFun hgg r9).trans h_r9
  replace h_rdx := (congrFun hgg rdx).trans h_rdx
  replace h_rsi := (congrFun hgg rsi).trans h_rsi
  replace h_r8 := (congrFun hgg r8).trans h_r8
  replace hg : Agree [rax, rcx, rdx, r9] g0 g := Agree.of_eq hgg (by agree hg)
  clear hgg
  refine Sim.lea ?_
  have h_rcx := ea_ix (k := 2) (c := 0) h_rax h_rsi
  refine Sim.gen fun g hgg => ?_
  replace h_rax := (congrFun hgg rax).trans h_rax
  replace h_rcx := (congrFun hgg rcx).trans h_rcx
  replace h_r9 := (congrFun hgg r9).trans h_r9
  replace h_rdx := (congrFun hgg rdx).trans h_rdx
  replace h_rsi := (congrFun hgg rsi).trans h_rsi
  replace h_r8 := (congrFun hgg r8).trans h_r8
  replace hg : Agree [rax, rcx, rdx, r9] g0 g := Agree.of_eq hgg (by agree hg)
  clear hgg
  refine Sim.mov ?_
  have h_r9 := h_rcx
  refine Sim.gen fun g hgg => ?_
  replace h_rax := (congrFun hgg rax).trans h_rax
  replace h_rcx := (congrFun hgg rcx).trans h_rcx
  replace h_r9 := (congrFun hgg r9).trans h_r9
  replace h_rdx := (congrFun hgg rdx).trans h_rdx
  replace h_rsi := (congrFun hgg rsi).trans h_rsi
  replace h_r8 := (congrFun hgg r8).trans h_r8
  replace hg : Agree [rax, rcx, rdx, r9] g0 g := Agree.of_eq hgg (by agree hg)
  clear hgg
  refine Sim.cmp_jcc codeAt_mct_s2r_loop_aux (Cmp.ptr H.hA (by omega) (by omega) h_rax h_r8) (fun hc cf zf => ?_) (fun hc cf zf => ?_)
  · have hc' : _ < _ := hc
    exact Sim.again (decide_eq_true hc) ⟨by agree hg, by agree hy, E, h_rax, h_rcx, h_r9, h_rdx, by omega⟩
  · have hc' : ¬ (_ < _) := hc
    exact Sim.done (decide_eq_false hc) ⟨by agree hg, by agree hy, E, h_rax, h_rcx, h_r9, h_rdx, trivial⟩

def mct_s2r_loop_I (A : Word) (n : Nat) (m0 : Memory) (g0 : Nat → Word) (y0 : Nat → V8) (P : Word) :
    Array Int × Nat × Nat → State → Prop
  | (a, xrsi, xrdx), s =>
    Agree [rax, rcx, rdx, rsi, r9] g0 s.gpr ∧ Agree [0, 1, 2, 3, 5] y0 s.ymm ∧ Env A n m0 s.mem a ∧
    s.gpr rsi = BitVec.ofNat 64 xrsi ∧ s.gpr rdx = P + BitVec.ofNat 64 xrdx ∧ xrsi < 2 ^ 34

def mct_s2r_loop_J (A : Word) (n : Nat) (m0 : Memory) (g0 : Nat → Word) (y0 : Nat → V8) (P : Word) :
    Array Int × Nat × Nat → State → Prop
  | (a, xrsi, xrdx), s =>
    Agree [rax, rcx, rdx, rsi, r9] g0 s.gpr ∧ Agree [0, 1, 2, 3, 5] y0 s.ymm ∧ Env A n m0 s.mem a ∧
    s.gpr rsi = BitVec.ofNat 64 xrsi ∧ s.gpr rdx = P + BitVec.ofNat 64 xrdx ∧ True

theorem mct_s2r_loop_sim {K : Machine} {A : Word} {n : Nat} {m0 : Memory} {g0 : Nat → Word} {y0 : Nat → V8} (H : Host K A n m0) {P :
    Word} {p : Array Int} (TP : Tab K A n m0 P p) {xrdi : Nat} (h_rdi : g0 rdi = A + BitVec.ofNat 64 xrdi) (b_rdi : xrdi < 2 ^ 36)
    {xr8 : Nat} (h_r8 : g0 r8 = A + BitVec.ofNat 64 xr8) (b_r8 : xr8 < 2 ^ 37) {v4 : V8} (hv4 : y0 4 = v4) :
    ∀ st s, mct_s2r_loop_I A n m0 g0 y0 P st s →
      Sim K (Asm.mct_s2r_loop p n xrdi xr8 v4 st) Text.mct_s2r_loop s (LoopPost (mct_s2r_loop_I A n m0 g0 y0 P) (mct_s2r_loop_J A n m0 g0 y0 P) Text.mct_s2r_loop Text.mct_s2r_loop_exit) := by
  have hn := H.hn
  rintro ⟨a, xrsi, xrdx⟩ ⟨g, y, cf, zf, m⟩ ⟨hg, hy, E, h_rsi, h_rdx, b_I⟩
  replace h_rdi := (hg rdi rfl).trans h_rdi
  replace h_r8 := (hg r8 rfl).trans h_r8
  obtain rfl := (hy 4 rfl).trans hv4
  unfold Asm.mct_s2r_loop
  refine Sim.mov ?_
  have h_rax := h_rdi
  refine Sim.gen fun g hgg => ?_
  replace h_rsi := (congrFun hgg rsi).trans h_rsi
  replace h_rdx := (congrFun hgg rdx).trans h_rdx
  replace h_rdi := (congrFun hgg rdi).trans h_rdi
  replace h_r8 := (congrFun hgg r8).trans h_r8
  replace h_rax := (congrFun hgg rax).trans h_rax
  replace hg : Agree [rax, rcx, rdx, rsi, r9] g0 g := Agree.of_eq hgg (by agree hg)
  clear hgg
  refine Sim.lea ?_
  have h_rcx := ea_ix (k := 2) (c := 0) h_rdi h_rsi
  refine Sim.gen fun g hgg => ?_
  replace h_rsi := (congrFun hgg rsi).trans h_rsi
  replace h_rdx := (congrFun hgg rdx).trans h_rdx
  replace h_rdi := (congrFun hgg rdi).trans h_rdi
  replace h_r8 := (congrFun hgg r8).trans h_r8
  replace h_rax := (congrFun hgg rax).trans h_rax
  replace h_rcx := (congrFun hgg rcx).trans h_rcx
  replace hg : Agree [rax, rcx, rdx, rsi, r9] g0 g := Agree.of_eq hgg (by agree hg)
  clear hgg
  refine Sim.mov ?_
  have h_r9 := h_rcx
  refine Sim.gen fun g hgg => ?_
  replace h_rsi := (congrFun hgg rsi).trans h_rsi
  replace h_rdx := (congrFun hgg rdx).trans h_rdx
  replace h_rdi := (congrFun hgg rdi).trans h_rdi
  replace h_r8 := (congrFun hgg r8).trans h_r8
  replace h_rax := (congrFun hgg rax).trans h_rax
  replace h_rcx := (congrFun hgg rcx).trans h_rcx
  replace h_r9 := (congrFun hgg r9).trans h_r9
  replace hg : Agree [rax, rcx, rdx, rsi, r9] g0 g := Agree.of_eq hgg (by agree hg)
  clear hgg
  refine Sim.label ?_
  refine Sim.geny fun y hyy => ?_
  have hv4 := congrFun hyy 4
  have hv5 := congrFun hyy 5
  replace hy : Agree [0, 1, 2, 3, 5] y0 y := Agree.of_eq hyy (by agree hy)
  clear hyy
  refine Sim.loop (mct_s2r_loop_aux_sim H TP h_rsi (by omega) h_r8 (by omega) (hv4.trans (by krfl))) ⟨.refl, .refl, E, h_rax, h_rcx, h_r9, h_rdx, by omega⟩ ?_
  rintro ⟨a, xrax1, xrcx1, xr91, xrdx1⟩ ⟨g1, y1, cf, zf, m⟩ ⟨hg1, hy1, E, h_rax, h_rcx, h_r9, h_rdx, b_J1⟩
  have h_rsi := (hg1 rsi rfl).trans h_rsi
  have h_rdi := (hg1 rdi rfl).trans h_rdi
  have h_r8 := (hg1 r8 rfl).trans h_r8
  have hv4 := (hy1 4 rfl).trans hv4
  replace hg : Agree [rax, rcx, rdx, rsi, r9] g0 g1 := Agree.trans rfl (by agree hg) hg1
  replace hy : Agree [0, 1, 2, 3, 5] y0 y1 := Agree.trans rfl (by agree hy) hy1
  clear hg1 hy1
  refine Sim.shr fun cf zf => ?_
  have h_rsi := cnt_shr1 h_rsi (by omega)
  refine Sim.gen fun g hgg => ?_
  replace h_rsi := (congrFun hgg rsi).trans h_rsi
  replace h_rdx := (congrFun hgg rdx).trans h_rdx
  replace h_rdi := (congrFun hgg rdi).trans h_rdi
  replace h_r8 := (congrFun hgg r8).trans h_r8
  replace h_rax := (congrFun hgg rax).trans h_rax
  replace h_rcx := (congrFun hgg rcx).trans h_rcx
  replace h_r9 := (congrFun hgg r9).trans h_r9
  replace hg : Agree [rax, rcx, rdx, rsi, r9] g0 g := Agree.of_eq hgg (by agree hg)
  clear hgg
  refine Sim.cmpi_jcc codeAt_mct_s2r_loop (Cmp.cnt (by omega) (by omega) h_rsi rfl) (fun hc cf zf => ?_) (fun hc cf zf => ?_)
  · have hc' : _ > _ := hc
    exact Sim.again (decide_eq_true hc) ⟨by agree hg, by agree hy, E, h_rsi, h_rdx, by omega⟩
  · have hc' : ¬ (_ > _) := hc
    exact Sim.done (decide_eq_false hc) ⟨by agree hg, by agree hy, E, h_rsi, h_rdx, trivial⟩

theorem mulntt_red_ct_std2rev_asm_sim {K : Machine} {A : Word} {n : Nat} {m0 : Memory} {g : Nat → Word} {y : Nat → V8} (H : Host K A
    n m0) (h_rdi : g rdi = A + BitVec.ofNat 64 0) (h_rsi : g rsi = BitVec.ofNat 64 n) {P : Word} {p : Array Int} (TP : Tab K A n m0
    P p) (h_rdx : g rdx = P + BitVec.ofNat 64 0) {a : Array Int} {g0 : Nat → Word} {cf zf : Bool} {m : Memory} (hg : Agree [rax,
    rcx, rdx, rsi, rdi, r8, r9, r10, r11] g0 g) (E : Env A n m0 m a) :
    Sim K (Asm.mulntt_red_ct_std2rev_asm a n p) Text.mulntt_red_ct_std2rev_asm ⟨g, y, cf, zf, m⟩ (RetPost A n m0 g0) := by
  have hn := H.hn
  unfold Asm.mulntt_red_ct_std2rev_asm
  refine Sim.lea ?_
  have h_r8 := ea_ix (k := 4) (c := 0) h_rdi h_rsi
  refine Sim.gen fun g hgg => ?_
  replace h_rdi := (congrFun hgg rdi).trans h_rdi
  replace h_rsi := (congrFun hgg rsi).trans h_rsi
  replace h_rdx := (congrFun hgg rdx).trans h_rdx
  replace h_r8 := (congrFun hgg r8).trans h_r8
  replace hg : Agree [rax, rcx, rdx, rsi, rdi, r8, r9, r10, r11] g0 g := Agree.of_eq hgg (by agree hg)
  clear hgg
  refine Sim.const H E ?_
  refine Sim.label ?_
  refine Sim.geny fun y hyy => ?_
  have hv4 := congrFun hyy 4
  have hv5 := congrFun hyy 5
  clear hyy
  refine Sim.loop (mct_s2r_loop_sim H TP h_rdi (by omega) h_r8 (by omega) (hv4.trans (by krfl))) ⟨.refl, .refl, E, h_rsi, h_rdx, by omega⟩ ?_
  rintro ⟨a, xrsi1, xrdx1⟩ ⟨g1, y1, cf, zf, m⟩ ⟨hg1, hy1, E, h_rsi, h_rdx, b_J1⟩
  have h_rdi := (hg1 rdi rfl).trans h_rdi
  have h_r8 := (hg1 r8 rfl).trans h_r8
  have hv4 := (hy1 4 rfl).trans hv4
  replace hg : Agree [rax, rcx, rdx, rsi, rdi, r8, r9, r10, r11] g0 g1 := Agree.trans rfl (by agree hg) hg1
  clear hg1 hy1
  refine Sim.addi fun cf zf => ?_
  have h_rdx := ptr_addi (k := 2) h_rdx
  refine Sim.gen fun g hgg => ?_
  replace h_rdi := (congrFun hgg rdi).trans h_rdi
  replace h_rsi := (congrFun hgg rsi).trans h_rsi
  replace h_rdx := (congrFun hgg rdx).trans h_rdx
  replace h_r8 := (congrFun hgg r8).trans h_r8
  replace hg : Agree [rax, rcx, rdx, rsi, rdi, r8, r9, r10, r11] g0 g := Agree.of_eq hgg (by agree hg)
  clear hgg
  refine Sim.jmp codeAt_ct_s2r_finish ?_
  refine Sim.geny fun y hyy => ?_
  replace hv4 := (congrFun hyy 4).trans hv4
  have hv5 := congrFun hyy 5
  clear hyy
  exact ct_s2r_finish_sim H TP h_rdi (by omega) h_r8 (by omega) (hv4.trans (by krfl)) h_rdx (by agree hg) E

end X86
