import Verif.Proofs.MachText

/-
Execution of the text of src/ntt_asm.S follows the model.  Generated by tools/genmach.py.
-/

namespace X86
open C Avx Spec

def gs_r2s_size32_first_blocks_I (A : Word) (n : Nat) (m0 : Memory) (g0 : Nat → Word) (y0 : Nat → V8) (lo : Nat) :
    Array Int × Nat × Nat → State → Prop
  | (a, xrax, xrcx), s =>
    Agree [rax, rcx] g0 s.gpr ∧ Agree [0, 1, 2] y0 s.ymm ∧ Env A n m0 s.mem a ∧
    s.gpr rax = A + BitVec.ofNat 64 xrax ∧ s.gpr rcx = A + BitVec.ofNat 64 xrcx ∧ lo ≤ xrcx

def gs_r2s_size32_first_blocks_J (A : Word) (n : Nat) (m0 : Memory) (g0 : Nat → Word) (y0 : Nat → V8) (lo : Nat) :
    Array Int × Nat × Nat → State → Prop
  | (a, xrax, xrcx), s =>
    Agree [rax, rcx] g0 s.gpr ∧ Agree [0, 1, 2] y0 s.ymm ∧ Env A n m0 s.mem a ∧
    s.gpr rax = A + BitVec.ofNat 64 xrax ∧ s.gpr rcx = A + BitVec.ofNat 64 xrcx ∧ lo ≤ xrcx ∧ xrcx ≤ 4 * n

theorem gs_r2s_size32_first_blocks_sim {K : Machine} {A : Word} {n : Nat} {m0 : Memory} {g0 : Nat → Word} {y0 : Nat → V8} (H : Host
    K A n m0) {xr8 : Nat} (h_r8 : g0 r8 = A + BitVec.ofNat 64 xr8) (b_r8 : xr8 < 2 ^ 37) {lo : Nat} :
    ∀ st s, gs_r2s_size32_first_blocks_I A n m0 g0 y0 lo st s →
      Sim K (Asm.gs_r2s_size32_first_blocks xr8 st) Text.gs_r2s_size32_first_blocks s (LoopPost (gs_r2s_size32_first_blocks_I A n m0 g0 y0 lo) (gs_r2s_size32_first_blocks_J A n m0 g0 y0 lo) Text.gs_r2s_size32_first_blocks Text.gs_r2s_size32_first_blocks_exit) := by
  have hn := H.hn
  rintro ⟨a, xrax, xrcx⟩ ⟨g, y, cf, zf, m⟩ ⟨hg, hy, E, h_rax, h_rcx, b_I⟩
  replace h_r8 := (hg r8 rfl).trans h_r8
  unfold Asm.gs_r2s_size32_first_blocks
  refine Sim.load H E (ea_at h_rax) fun v b_755 => ?_
  refine Sim.load H E (ea_at h_rcx) fun v b_756 => ?_
  refine Sim.vec ?_
  refine Sim.vec ?_
  refine Sim.store H E (ea_at h_rax) (by krfl) fun a m E b_759 => ?_
  refine Sim.store H E (ea_at h_rcx) (by krfl) fun a m E b_760 => ?_
  refine Sim.addi fun cf zf => ?_
  have h_rax := ptr_addi (k := 32) h_rax
  refine Sim.gen fun g hgg => ?_
  replace h_rax := (congrFun hgg rax).trans h_rax
  replace h_rcx := (congrFun hgg rcx).trans h_rcx
  replace h_r8 := (congrFun hgg r8).trans h_r8
  replace hg : Agree [rax, rcx] g0 g := Agree.of_eq hgg (by agree hg)
  clear hgg
  refine Sim.addi fun cf zf => ?_
  have h_rcx := ptr_addi (k := 32) h_rcx
  refine Sim.gen fun g hgg => ?_
  replace h_rax := (congrFun hgg rax).trans h_rax
  replace h_rcx := (congrFun hgg rcx).trans h_rcx
  replace h_r8 := (congrFun hgg r8).trans h_r8
  replace hg : Agree [rax, rcx] g0 g := Agree.of_eq hgg (by agree hg)
  clear hgg
  refine Sim.cmp_jcc codeAt_gs_r2s_size32_first_blocks (Cmp.ptr H.hA (by omega) (by omega) h_rax h_r8) (fun hc cf zf => ?_) (fun hc cf zf => ?_)
  · have hc' : _ < _ := hc
    exact Sim.again (decide_eq_true hc) ⟨by agree hg, by agree hy, E, h_rax, h_rcx, by omega⟩
  · have hc' : ¬ (_ < _) := hc
    exact Sim.done (decide_eq_false hc) ⟨by agree hg, by agree hy, E, h_rax, h_rcx, by omega⟩

def gs_r2s_size32_inner_loop_I (A : Word) (n : Nat) (m0 : Memory) (g0 : Nat → Word) (y0 : Nat → V8) :
    Array Int × Nat × Nat → State → Prop
  | (a, xrax, xrcx), s =>
    Agree [rax, rcx] g0 s.gpr ∧ Agree [0, 1, 2, 3] y0 s.ymm ∧ Env A n m0 s.mem a ∧
    s.gpr rax = A + BitVec.ofNat 64 xrax ∧ s.gpr rcx = A + BitVec.ofNat 64 xrcx ∧ True

def gs_r2s_size32_inner_loop_J (A : Word) (n : Nat) (m0 : Memory) (g0 : Nat → Word) (y0 : Nat → V8) :
    Array Int × Nat × Nat → State → Prop
  | (a, xrax, xrcx), s =>
    Agree [rax, rcx] g0 s.gpr ∧ Agree [0, 1, 2, 3] y0 s.ymm ∧ Env A n m0 s.mem a ∧
    s.gpr rax = A + BitVec.ofNat 64 xrax ∧ s.gpr rcx = A + BitVec.ofNat 64 xrcx ∧ xrcx ≤ 4 * n

theorem gs_r2s_size32_inner_loop_sim {K : Machine} {A : Word} {n : Nat} {m0 : Memory} {g0 : Nat → Word} {y0 : Nat → V8} (H : Host K
    A n m0) {xr8 : Nat} (h_r8 : g0 r8 = A + BitVec.ofNat 64 xr8) (b_r8 : xr8 < 2 ^ 37) {v4 : V8} (hv4 : y0 4 = v4) {v5 : V8} (hv5 :
    y0 5 = v5) :
    ∀ st s, gs_r2s_size32_inner_loop_I A n m0 g0 y0 st s →
      Sim K (Asm.gs_r2s_size32_inner_loop xr8 v4 v5 st) Text.gs_r2s_size32_inner_loop s (LoopPost (gs_r2s_size32_inner_loop_I A n m0 g0 y0) (gs_r2s_size32_inner_loop_J A n m0 g0 y0) Text.gs_r2s_size32_inner_loop Text.gs_r2s_size32_inner_loop_exit) := by
  have hn := H.hn
  rintro ⟨a, xrax, xrcx⟩ ⟨g, y, cf, zf, m⟩ ⟨hg, hy, E, h_rax, h_rcx, b_I⟩
  replace h_r8 := (hg r8 rfl).trans h_r8
  obtain rfl := (hy 4 rfl).trans hv4
  obtain rfl := (hy 5 rfl).trans hv5
  unfold Asm.gs_r2s_size32_inner_loop
  refine Sim.load H E (ea_at h_rax) fun v b_775 => ?_
  refine Sim.load H E (ea_at h_rcx) fun v b_776 => ?_
  refine Sim.vec ?_
  refine Sim.vec ?_
  refine Sim.vec ?_
  refine Sim.vec ?_
  refine Sim.vec ?_
  refine Sim.vec ?_
  refine Sim.vec ?_
  refine Sim.vec ?_
  refine Sim.vec ?_
  refine Sim.vec ?_
  refine Sim.vec ?_
  refine Sim.vec ?_
  refine Sim.vec ?_
  refine Sim.vec ?_
  refine Sim.vec ?_
  refine Sim.store H E (ea_at h_rax) (by krfl) fun a m E b_792 => ?_
  refine Sim.store H E (ea_at h_rcx) (by krfl) fun a m E b_793 => ?_
  refine Sim.addi fun cf zf => ?_
  have h_rax := ptr_addi (k := 32) h_rax
  refine Sim.gen fun g hgg => ?_
  replace h_rax := (congrFun hgg rax).trans h_rax
  replace h_rcx := (congrFun hgg rcx).trans h_rcx
  replace h_r8 := (congrFun hgg r8).trans h_r8
  replace hg : Agree [rax, rcx] g0 g := Agree.of_eq hgg (by agree hg)
  clear hgg
  refine Sim.addi fun cf zf => ?_
  have h_rcx := ptr_addi (k := 32) h_rcx
  refine Sim.gen fun g hgg => ?_
  replace h_rax := (congrFun hgg rax).trans h_rax
  replace h_rcx := (congrFun hgg rcx).trans h_rcx
  replace h_r8 := (congrFun hgg r8).trans h_r8
  replace hg : Agree [rax, rcx] g0 g := Agree.of_eq hgg (by agree hg)
  clear hgg
  refine Sim.cmp_jcc codeAt_gs_r2s_size32_inner_loop (Cmp.ptr H.hA (by omega) (by omega) h_rax h_r8) (fun hc cf zf => ?_) (fun hc cf zf => ?_)
  · have hc' : _ < _ := hc
    exact Sim.again (decide_eq_true hc) ⟨by agree hg, by agree hy, E, h_rax, h_rcx, trivial⟩
  · have hc' : ¬ (_ < _) := hc
    exact Sim.done (decide_eq_false hc) ⟨by agree hg, by agree hy, E, h_rax, h_rcx, by omega⟩

def gs_r2s_size16_loop_I (A : Word) (n : Nat) (m0 : Memory) (g0 : Nat → Word) (y0 : Nat → V8) (P : Word) :
    Array Int × Nat × Nat → State → Prop
  | (a, xrax, xr9), s =>
    Agree [rax, r9] g0 s.gpr ∧ Agree [0, 1, 2, 3, 5] y0 s.ymm ∧ Env A n m0 s.mem a ∧
    s.gpr rax = A + BitVec.ofNat 64 xrax ∧ s.gpr r9 = P + BitVec.ofNat 64 xr9 ∧ True

def gs_r2s_size16_loop_J (A : Word) (n : Nat) (m0 : Memory) (g0 : Nat → Word) (y0 : Nat → V8) (P : Word) :
    Array Int × Nat × Nat → State → Prop
  | (a, xrax, xr9), s =>
    Agree [rax, r9] g0 s.gpr ∧ Agree [0, 1, 2, 3, 5] y0 s.ymm ∧ Env A n m0 s.mem a ∧
    s.gpr rax = A + BitVec.ofNat 64 xrax ∧ s.gpr r9 = P + BitVec.ofNat 64 xr9 ∧ True

theorem gs_r2s_size16_loop_sim {K : Machine} {A : Word} {n : Nat} {m0 : Memory} {g0 : Nat → Word} {y0 : Nat → V8} (H : Host K A n
    m0) {P : Word} {p : Array Int} (TP : Tab K A n m0 P p) {xrcx : Nat} (h_rcx : g0 rcx = A + BitVec.ofNat 64 xrcx) (b_rcx : xrcx <
    2 ^ 37) {v4 : V8} (hv4 : y0 4 = v4) :
    ∀ st s, gs_r2s_size16_loop_I A n m0 g0 y0 P st s →
      Sim K (Asm.gs_r2s_size16_loop p xrcx v4 st) Text.gs_r2s_size16_loop s (LoopPost (gs_r2s_size16_loop_I A n m0 g0 y0 P) (gs_r2s_size16_loop_J A n m0 g0 y0 P) Text.gs_r2s_size16_loop Text.gs_r2s_size16_loop_exit) := by
  have hn := H.hn
  rintro ⟨a, xrax, xr9⟩ ⟨g, y, cf, zf, m⟩ ⟨hg, hy, E, h_rax, h_r9, b_I⟩
  replace h_rcx := (hg rcx rfl).trans h_rcx
  obtain rfl := (hy 4 rfl).trans hv4
  unfold Asm.gs_r2s_size16_loop
  refine Sim.load_bdcstw TP E (ea_at h_r9) fun v _ => ?_
  refine Sim.vec ?_
  refine Sim.load H E (ea_at h_rax) fun v b_723 => ?_
  refine Sim.load H E (ea_at h_rax) fun v b_724 => ?_
  refine Sim.vec ?_
  refine Sim.vec ?_
  refine Sim.vec ?_
  refine Sim.vec ?_
  refine Sim.vec ?_
  refine Sim.vec ?_
  refine Sim.vec ?_
  refine Sim.vec ?_
  refine Sim.vec ?_
  refine Sim.vec ?_
  refine Sim.vec ?_
  refine Sim.vec ?_
  refine Sim.vec ?_
  refine Sim.vec ?_
  refine Sim.vec ?_
  refine Sim.store H E (ea_at h_rax) (by krfl) fun a m E b_740 => ?_
  refine Sim.store H E (ea_at h_rax) (by krfl) fun a m E b_741 => ?_
  refine Sim.addi fun cf zf => ?_
  have h_rax := ptr_addi (k := 64) h_rax
  refine Sim.gen fun g hgg => ?_
  replace h_rax := (congrFun hgg rax).trans h_rax
  replace h_r9 := (congrFun hgg r9).trans h_r9
  replace h_rcx := (congrFun hgg rcx).trans h_rcx
  replace hg : Agree [rax, r9] g0 g := Agree.of_eq hgg (by agree hg)
  clear hgg
  refine Sim.addi fun cf zf => ?_
  have h_r9 := ptr_addi (k := 2) h_r9
  refine Sim.gen fun g hgg => ?_
  replace h_rax := (congrFun hgg rax).trans h_rax
  replace h_r9 := (congrFun hgg r9).trans h_r9
  replace h_rcx := (congrFun hgg rcx).trans h_rcx
  replace hg : Agree [rax, r9] g0 g := Agree.of_eq hgg (by agree hg)
  clear hgg
  refine Sim.cmp_jcc codeAt_gs_r2s_size16_loop (Cmp.ptr H.hA (by omega) (by omega) h_rax h_rcx) (fun hc cf zf => ?_) (fun hc cf zf => ?_)
  · have hc' : _ < _ := hc
    exact Sim.again (decide_eq_true hc) ⟨by agree hg, by agree hy, E, h_rax, h_r9, trivial⟩
  · have hc' : ¬ (_ < _) := hc
    exact Sim.done (decide_eq_false hc) ⟨by agree hg, by agree hy, E, h_rax, h_r9, trivial⟩

def gs_r2s_size32_other_blocks_I (A : Word) (n : Nat) (m0 : Memory) (g0 : Nat → Word) (y0 : Nat → V8) (P : Word) :
    Array Int × Nat × Nat → State → Prop
  | (a, xrcx, xr9), s =>
    Agree [rax, rcx, r8, r9] g0 s.gpr ∧ Agree [0, 1, 2, 3, 5] y0 s.ymm ∧ Env A n m0 s.mem a ∧
    s.gpr rcx = A + BitVec.ofNat 64 xrcx ∧ s.gpr r9 = P + BitVec.ofNat 64 xr9 ∧ xrcx < 2 ^ 36

def gs_r2s_size32_other_blocks_J (A : Word) (n : Nat) (m0 : Memory) (g0 : Nat → Word) (y0 : Nat → V8) (P : Word) :
    Array Int × Nat × Nat → State → Prop
  | (a, xrcx, xr9), s =>
    Agree [rax, rcx, r8, r9] g0 s.gpr ∧ Agree [0, 1, 2, 3, 5] y0 s.ymm ∧ Env A n m0 s.mem a ∧
    s.gpr rcx = A + BitVec.ofNat 64 xrcx ∧ s.gpr r9 = P + BitVec.ofNat 64 xr9 ∧ True

theorem gs_r2s_size32_other_blocks_sim {K : Machine} {A : Word} {n : Nat} {m0 : Memory} {g0 : Nat → Word} {y0 : Nat → V8} (H : Host
    K A n m0) {P : Word} {p : Array Int} (TP : Tab K A n m0 P p) {xr10 : Nat} (h_r10 : g0 r10 = A + BitVec.ofNat 64 xr10) (b_r10 :
    xr10 < 2 ^ 37) {xr11 : Nat} (h_r11 : g0 r11 = BitVec.ofNat 64 xr11) (b_r11 : xr11 < 2 ^ 34) {v4 : V8} (hv4 : y0 4 = v4) :
    ∀ st s, gs_r2s_size32_other_blocks_I A n m0 g0 y0 P st s →
      Sim K (Asm.gs_r2s_size32_other_blocks p n xr10 xr11 v4 st) Text.gs_r2s_size32_other_blocks s (LoopPost (gs_r2s_size32_other_blocks_I A n m0 g0 y0 P) (gs_r2s_size32_other_blocks_J A n m0 g0 y0 P) Text.gs_r2s_size32_other_blocks Text.gs_r2s_size32_other_blocks_exit) := by
  have hn := H.hn
  rintro ⟨a, xrcx, xr9⟩ ⟨g, y, cf, zf, m⟩ ⟨hg, hy, E, h_rcx, h_r9, b_I⟩
  replace h_r10 := (hg r10 rfl).trans h_r10
  replace h_r11 := (hg r11 rfl).trans h_r11
  obtain rfl := (hy 4 rfl).trans hv4
  unfold Asm.gs_r2s_size32_other_blocks
  refine Sim.addi fun cf zf => ?_
  have h_r9 := ptr_addi (k := 2) h_r9
  refine Sim.gen fun g hgg => ?_
  replace h_rcx := (congrFun hgg rcx).trans h_rcx
  replace h_r9 := (congrFun hgg r9).trans h_r9
  replace h_r10 := (congrFun hgg r10).trans h_r10
  replace h_r11 := (congrFun hgg r11).trans h_r11
  replace hg : Agree [rax, rcx, r8, r9] g0 g := Agree.of_eq hgg (by agree hg)
  clear hgg
  refine Sim.load_bdcstw TP E (ea_at h_r9) fun v _ => ?_
  refine Sim.vec ?_
  refine Sim.mov ?_
  have h_rax := h_rcx
  refine Sim.gen fun g hgg => ?_
  replace h_rcx := (congrFun hgg rcx).trans h_rcx
  replace h_r9 := (congrFun hgg r9).trans h_r9
  replace h_r10 := (congrFun hgg r10).trans h_r10
  replace h_r11 := (congrFun hgg r11).trans h_r11
  replace h_rax := (congrFun hgg rax).trans h_rax
  replace hg : Agree [rax, rcx, r8, r9] g0 g := Agree.of_eq hgg (by agree hg)
  clear hgg
  refine Sim.add fun cf zf => ?_
  have h_rcx := ptr_add h_rcx h_r11
  refine Sim.gen fun g hgg => ?_
  replace h_rcx := (congrFun hgg rcx).trans h_rcx
  replace h_r9 := (congrFun hgg r9).trans h_r9
  replace h_r10 := (congrFun hgg r10).trans h_r10
  replace h_r11 := (congrFun hgg r11).trans h_r11
  replace h_rax := (congrFun hgg rax).trans h_rax
  replace hg : Agree [rax, rcx, r8, r9] g0 g := Agree.of_eq hgg (by agree hg)
  clear hgg
  refine Sim.mov ?_
  have h_r8 := h_rcx
  refine Sim.gen fun g hgg => ?_
  replace h_rcx := (congrFun hgg rcx).trans h_rcx
  replace h_r9 := (congrFun hgg r9).trans h_r9
  replace h_r10 := (congrFun hgg r10).trans h_r10
  replace h_r11 := (congrFun hgg r11).trans h_r11
  replace h_rax := (congrFun hgg rax).trans h_rax
  replace h_r8 := (congrFun hgg r8).trans h_r8
  replace hg : Agree [rax, rcx, r8, r9] g0 g := Agree.of_eq hgg (by agree hg)
  clear hgg
  refine Sim.label ?_
  refine Sim.geny fun y hyy => ?_
  have hv4 := congrFun hyy 4
  have hv5 := congrFun hyy 5
  replace hy : Agree [0, 1, 2, 3, 5] y0 y := Agree.of_eq hyy (by agree hy)
  clear hyy
  refine Sim.loop (gs_r2s_size32_inner_loop_sim H h_r8 (by omega) (hv4.trans (by krfl)) (hv5.trans (by krfl))) ⟨.refl, .refl, E, h_rax, h_rcx, trivial⟩ ?_
  rintro ⟨a, xrax1, xrcx1⟩ ⟨g1, y1, cf, zf, m⟩ ⟨hg1, hy1, E, h_rax, h_rcx, b_J1⟩
  have h_r9 := (hg1 r9 rfl).trans h_r9
  have h_r10 := (hg1 r10 rfl).trans h_r10
  have h_r11 := (hg1 r11 rfl).trans h_r11
  have h_r8 := (hg1 r8 rfl).trans h_r8
  have hv4 := (hy1 4 rfl).trans hv4
  have hv5 := (hy1 5 rfl).trans hv5
  replace hg : Agree [rax, rcx, r8, r9] g0 g1 := Agree.trans rfl (by agree hg) hg1
  replace hy : Agree [0, 1, 2, 3, 5] y0 y1 := Agree.trans rfl (by agree hy) hy1
  clear hg1 hy1
  refine Sim.cmp_jcc codeAt_gs_r2s_size32_other_blocks (Cmp.ptr H.hA (by omega) (by omega) h_rcx h_r10) (fun hc cf zf => ?_) (fun hc cf zf => ?_)
  · have hc' : _ < _ := hc
    exact Sim.again (decide_eq_true hc) ⟨by agree hg, by agree hy, E, h_rcx, h_r9, by omega⟩
  · have hc' : ¬ (_ < _) := hc
    exact Sim.done (decide_eq_false hc) ⟨by agree hg, by agree hy, E, h_rcx, h_r9, trivial⟩

def gs_r2s_loop0_I (A : Word) (n : Nat) (m0 : Memory) (g0 : Nat → Word) (y0 : Nat → V8) (P : Word) :
    Array Int × Nat × Nat × Nat × Nat → State → Prop
  | (a, xrax, xr8, xr9, xr10), s =>
    Agree [rax, r8, r9, r10] g0 s.gpr ∧ Agree [0, 1, 2, 3, 5] y0 s.ymm ∧ Env A n m0 s.mem a ∧
    s.gpr rax = A + BitVec.ofNat 64 xrax ∧ s.gpr r8 = P + BitVec.ofNat 64 xr8 ∧ s.gpr r9 = P + BitVec.ofNat 64 xr9 ∧ s.gpr r10 = P + BitVec.ofNat 64 xr10 ∧ True

def gs_r2s_loop0_J (A : Word) (n : Nat) (m0 : Memory) (g0 : Nat → Word) (y0 : Nat → V8) (P : Word) :
    Array Int × Nat × Nat × Nat × Nat → State → Prop
  | (a, xrax, xr8, xr9, xr10), s =>
    Agree [rax, r8, r9, r10] g0 s.gpr ∧ Agree [0, 1, 2, 3, 5] y0 s.ymm ∧ Env A n m0 s.mem a ∧
    s.gpr rax = A + BitVec.ofNat 64 xrax ∧ s.gpr r8 = P + BitVec.ofNat 64 xr8 ∧ s.gpr r9 = P + BitVec.ofNat 64 xr9 ∧ s.gpr r10 = P + BitVec.ofNat 64 xr10 ∧ True

theorem gs_r2s_loop0_sim {K : Machine} {A : Word} {n : Nat} {m0 : Memory} {g0 : Nat → Word} {y0 : Nat → V8} (H : Host K A n m0) {P :
    Word} {p : Array Int} (TP : Tab K A n m0 P p) {xrcx : Nat} (h_rcx : g0 rcx = A + BitVec.ofNat 64 xrcx) (b_rcx : xrcx < 2 ^ 37)
    {v4 : V8} (hv4 : y0 4 = v4) {v6 : V8} (hv6 : y0 6 = v6) :
    ∀ st s, gs_r2s_loop0_I A n m0 g0 y0 P st s →
      Sim K (Asm.gs_r2s_loop0 p xrcx v4 v6 st) Text.gs_r2s_loop0 s (LoopPost (gs_r2s_loop0_I A n m0 g0 y0 P) (gs_r2s_loop0_J A n m0 g0 y0 P) Text.gs_r2s_loop0 Text.gs_r2s_loop0_exit) := by
  have hn := H.hn
  rintro ⟨a, xrax, xr8, xr9, xr10⟩ ⟨g, y, cf, zf, m⟩ ⟨hg, hy, E, h_rax, h_r8, h_r9, h_r10, b_I⟩
  replace h_rcx := (hg rcx rfl).trans h_rcx
  obtain rfl := (hy 4 rfl).trans hv4
  obtain rfl := (hy 6 rfl).trans hv6
  unfold Asm.gs_r2s_loop0
  refine Sim.load_sxwq TP E (ea_at h_r8) fun v _ => ?_
  refine Sim.load H E (ea_at h_rax) fun v b_664 => ?_
  refine Sim.vec ?_
  refine Sim.vec ?_
  refine Sim.vec ?_
  refine Sim.vec ?_
  refine Sim.vec ?_
  refine Sim.vec ?_
  refine Sim.vec ?_
  refine Sim.vec ?_
  refine Sim.vec ?_
  refine Sim.load_sxwq128 TP E (ea_at h_r9) fun v _ => ?_
  refine Sim.vec ?_
  refine Sim.vec ?_
  refine Sim.vec ?_
  refine Sim.vec ?_
  refine Sim.vec ?_
  refine Sim.vec ?_
  refine Sim.vec ?_
  refine Sim.vec ?_
  refine Sim.vec ?_
  refine Sim.vec ?_
  refine Sim.vec ?_
  refine Sim.load_bdcstw TP E (ea_at h_r10) fun v _ => ?_
  refine Sim.vec ?_
  refine Sim.vec ?_
  refine Sim.vec ?_
  refine Sim.vec ?_
  refine Sim.vec ?_
  refine Sim.vec ?_
  refine Sim.vec ?_
  refine Sim.vec ?_
  refine Sim.vec ?_
  refine Sim.vec ?_
  refine Sim.vec ?_
  refine Sim.vec ?_
  refine Sim.vec ?_
  refine Sim.vec ?_
  refine Sim.store H E (ea_at h_rax) (by krfl) fun a m E b_701 => ?_
  refine Sim.addi fun cf zf => ?_
  have h_rax := ptr_addi (k := 32) h_rax
  refine Sim.gen fun g hgg => ?_
  replace h_rax := (congrFun hgg rax).trans h_rax
  replace h_r8 := (congrFun hgg r8).trans h_r8
  replace h_r9 := (congrFun hgg r9).trans h_r9
  replace h_r10 := (congrFun hgg r10).trans h_r10
  replace h_rcx := (congrFun hgg rcx).trans h_rcx
  replace hg : Agree [rax, r8, r9, r10] g0 g := Agree.of_eq hgg (by agree hg)
  clear hgg
  refine Sim.addi fun cf zf => ?_
  have h_r8 := ptr_addi (k := 8) h_r8
  refine Sim.gen fun g hgg => ?_
  replace h_rax := (congrFun hgg rax).trans h_rax
  replace h_r8 := (congrFun hgg r8).trans h_r8
  replace h_r9 := (congrFun hgg r9).trans h_r9
  replace h_r10 := (congrFun hgg r10).trans h_r10
  replace h_rcx := (congrFun hgg rcx).trans h_rcx
  replace hg : Agree [rax, r8, r9, r10] g0 g := Agree.of_eq hgg (by agree hg)
  clear hgg
  refine Sim.addi fun cf zf => ?_
  have h_r9 := ptr_addi (k := 4) h_r9
  refine Sim.gen fun g hgg => ?_
  replace h_rax := (congrFun hgg rax).trans h_rax
  replace h_r8 := (congrFun hgg r8).trans h_r8
  replace h_r9 := (congrFun hgg r9).trans h_r9
  replace h_r10 := (congrFun hgg r10).trans h_r10
  replace h_rcx := (congrFun hgg rcx).trans h_rcx
  replace hg : Agree [rax, r8, r9, r10] g0 g := Agree.of_eq hgg (by agree hg)
  clear hgg
  refine Sim.addi fun cf zf => ?_
  have h_r10 := ptr_addi (k := 2) h_r10
  refine Sim.gen fun g hgg => ?_
  replace h_rax := (congrFun hgg rax).trans h_rax
  replace h_r8 := (congrFun hgg r8).trans h_r8
  replace h_r9 := (congrFun hgg r9).trans h_r9
  replace h_r10 := (congrFun hgg r10).trans h_r10
  replace h_rcx := (congrFun hgg rcx).trans h_rcx
  replace hg : Agree [rax, r8, r9, r10] g0 g := Agree.of_eq hgg (by agree hg)
  clear hgg
  refine Sim.cmp_jcc codeAt_gs_r2s_loop0 (Cmp.ptr H.hA (by omega) (by omega) h_rax h_rcx) (fun hc cf zf => ?_) (fun hc cf zf => ?_)
  · have hc' : _ < _ := hc
    exact Sim.again (decide_eq_true hc) ⟨by agree hg, by agree hy, E, h_rax, h_r8, h_r9, h_r10, trivial⟩
  · have hc' : ¬ (_ < _) := hc
    exact Sim.done (decide_eq_false hc) ⟨by agree hg, by agree hy, E, h_rax, h_r8, h_r9, h_r10, trivial⟩

def gs_r2s_size32_loop_I (A : Word) (n : Nat) (m0 : Memory) (g0 : Nat → Word) (y0 : Nat → V8) :
    Array Int × Nat × Nat → State → Prop
  | (a, xrsi, xr11), s =>
    Agree [rax, rcx, rsi, r8, r9, r11] g0 s.gpr ∧ Agree [0, 1, 2, 3, 5] y0 s.ymm ∧ Env A n m0 s.mem a ∧
    s.gpr rsi = BitVec.ofNat 64 xrsi ∧ s.gpr r11 = BitVec.ofNat 64 xr11 ∧ xr11 < 2 ^ 36 ∧ xrsi < 2 ^ 34

def gs_r2s_size32_loop_J (A : Word) (n : Nat) (m0 : Memory) (g0 : Nat → Word) (y0 : Nat → V8) :
    Array Int × Nat × Nat → State → Prop
  | (a, xrsi, xr11), s =>
    Agree [rax, rcx, rsi, r8, r9, r11] g0 s.gpr ∧ Agree [0, 1, 2, 3, 5] y0 s.ymm ∧ Env A n m0 s.mem a ∧
    s.gpr rsi = BitVec.ofNat 64 xrsi ∧ s.gpr r11 = BitVec.ofNat 64 xr11 ∧ True

theorem gs_r2s_size32_loop_sim {K : Machine} {A : Word} {n : Nat} {m0 : Memory} {g0 : Nat → Word} {y0 : Nat → V8} (H : Host K A n
    m0) {P : Word} {p : Array Int} (TP : Tab K A n m0 P p) {xrdi : Nat} (h_rdi : g0 rdi = A + BitVec.ofNat 64 xrdi) (b_rdi : xrdi <
    2 ^ 36) {xrdx : Nat} (h_rdx : g0 rdx = P + BitVec.ofNat 64 xrdx) {xr10 : Nat} (h_r10 : g0 r10 = A + BitVec.ofNat 64 xr10) (b_r10
    : xr10 < 2 ^ 37) {v4 : V8} (hv4 : y0 4 = v4) :
    ∀ st s, gs_r2s_size32_loop_I A n m0 g0 y0 st s →
      Sim K (Asm.gs_r2s_size32_loop p n xrdi xrdx xr10 v4 st) Text.gs_r2s_size32_loop s (LoopPost (gs_r2s_size32_loop_I A n m0 g0 y0) (gs_r2s_size32_loop_J A n m0 g0 y0) Text.gs_r2s_size32_loop Text.gs_r2s_done) := by
  have hn := H.hn
  rintro ⟨a, xrsi, xr11⟩ ⟨g, y, cf, zf, m⟩ ⟨hg, hy, E, h_rsi, h_r11, b_I⟩
  replace h_rdi := (hg rdi rfl).trans h_rdi
  replace h_rdx := (hg rdx rfl).trans h_rdx
  replace h_r10 := (hg r10 rfl).trans h_r10
  obtain rfl := (hy 4 rfl).trans hv4
  unfold Asm.gs_r2s_size32_loop
  refine Sim.mov ?_
  have h_rax := h_rdi
  refine Sim.gen fun g hgg => ?_
  replace h_rsi := (congrFun hgg rsi).trans h_rsi
  replace h_r11 := (congrFun hgg r11).trans h_r11
  replace h_rdi := (congrFun hgg rdi).trans h_rdi
  replace h_rdx := (congrFun hgg rdx).trans h_rdx
  replace h_r10 := (congrFun hgg r10).trans h_r10
  replace h_rax := (congrFun hgg rax).trans h_rax
  replace hg : Agree [rax, rcx, rsi, r8, r9, r11] g0 g := Agree.of_eq hgg (by agree hg)
  clear hgg
  refine Sim.lea ?_
  have h_rcx := ea_ix1 (c := 0) h_rax h_r11
  refine Sim.gen fun g hgg => ?_
  replace h_rsi := (congrFun hgg rsi).trans h_rsi
  replace h_r11 := (congrFun hgg r11).trans h_r11
  replace h_rdi := (congrFun hgg rdi).trans h_rdi
  replace h_rdx := (congrFun hgg rdx).trans h_rdx
  replace h_r10 := (congrFun hgg r10).trans h_r10
  replace h_rax := (congrFun hgg rax).trans h_rax
  replace h_rcx := (congrFun hgg rcx).trans h_rcx
  replace hg : Agree [rax, rcx, rsi, r8, r9, r11] g0 g := Agree.of_eq hgg (by agree hg)
  clear hgg
  refine Sim.mov ?_
  have h_r8 := h_rcx
  refine Sim.gen fun g hgg => ?_
  replace h_rsi := (congrFun hgg rsi).trans h_rsi
  replace h_r11 := (congrFun hgg r11).trans h_r11
  replace h_rdi := (congrFun hgg rdi).trans h_rdi
  replace h_rdx := (congrFun hgg rdx).trans h_rdx
  replace h_r10 := (congrFun hgg r10).trans h_r10
  replace h_rax := (congrFun hgg rax).trans h_rax
  replace h_rcx := (congrFun hgg rcx).trans h_rcx
  replace h_r8 := (congrFun hgg r8).trans h_r8
  replace hg : Agree [rax, rcx, rsi, r8, r9, r11] g0 g := Agree.of_eq hgg (by agree hg)
  clear hgg
  refine Sim.shr fun cf zf => ?_
  have h_rsi := cnt_shr1 h_rsi (by omega)
  refine Sim.gen fun g hgg => ?_
  replace h_rsi := (congrFun hgg rsi).trans h_rsi
  replace h_r11 := (congrFun hgg r11).trans h_r11
  replace h_rdi := (congrFun hgg rdi).trans h_rdi
  replace h_rdx := (congrFun hgg rdx).trans h_rdx
  replace h_r10 := (congrFun hgg r10).trans h_r10
  replace h_rax := (congrFun hgg rax).trans h_rax
  replace h_rcx := (congrFun hgg rcx).trans h_rcx
  replace h_r8 := (congrFun hgg r8).trans h_r8
  replace hg : Agree [rax, rcx, rsi, r8, r9, r11] g0 g := Agree.of_eq hgg (by agree hg)
  clear hgg
  refine Sim.lea ?_
  have h_r9 := ea_ix1 (c := 0) h_rdx h_rsi
  refine Sim.gen fun g hgg => ?_
  replace h_rsi := (congrFun hgg rsi).trans h_rsi
  replace h_r11 := (congrFun hgg r11).trans h_r11
  replace h_rdi := (congrFun hgg rdi).trans h_rdi
  replace h_rdx := (congrFun hgg rdx).trans h_rdx
  replace h_r10 := (congrFun hgg r10).trans h_r10
  replace h_rax := (congrFun hgg rax).trans h_rax
  replace h_rcx := (congrFun hgg rcx).trans h_rcx
  replace h_r8 := (congrFun hgg r8).trans h_r8
  replace h_r9 := (congrFun hgg r9).trans h_r9
  replace hg : Agree [rax, rcx, rsi, r8, r9, r11] g0 g := Agree.of_eq hgg (by agree hg)
  clear hgg
  refine Sim.label ?_
  refine Sim.geny fun y hyy => ?_
  have hv4 := congrFun hyy 4
  have hv5 := congrFun hyy 5
  replace hy : Agree [0, 1, 2, 3, 5] y0 y := Agree.of_eq hyy (by agree hy)
  clear hyy
  refine Sim.loop (gs_r2s_size32_first_blocks_sim H h_r8 (by omega) (lo := xr11)) ⟨.refl, .refl, E, h_rax, h_rcx, by omega⟩ ?_
  rintro ⟨a, xrax1, xrcx1⟩ ⟨g1, y1, cf, zf, m⟩ ⟨hg1, hy1, E, h_rax, h_rcx, b_J1⟩
  have h_rsi := (hg1 rsi rfl).trans h_rsi
  have h_r11 := (hg1 r11 rfl).trans h_r11
  have h_rdi := (hg1 rdi rfl).trans h_rdi
  have h_rdx := (hg1 rdx rfl).trans h_rdx
  have h_r10 := (hg1 r10 rfl).trans h_r10
  have h_r8 := (hg1 r8 rfl).trans h_r8
  have h_r9 := (hg1 r9 rfl).trans h_r9
  have hv4 := (hy1 4 rfl).trans hv4
  have hv5 := (hy1 5 rfl).trans hv5
  replace hg : Agree [rax, rcx, rsi, r8, r9, r11] g0 g1 := Agree.trans rfl (by agree hg) hg1
  replace hy : Agree [0, 1, 2, 3, 5] y0 y1 := Agree.trans rfl (by agree hy) hy1
  clear hg1 hy1
  refine Sim.cmp_jcc codeAt_gs_r2s_done (Cmp.ptr H.hA (by omega) (by omega) h_rcx h_r10) (fun hc cf zf => ?_) (fun hc cf zf => ?_)
  · have hc' : _ ≥ _ := hc
    refine Sim.if_pos hc ?_
    exact Sim.done (rfl) ⟨by agree hg, by agree hy, E, h_rsi, h_r11, trivial⟩
  · have hc' : ¬ (_ ≥ _) := hc
    refine Sim.if_neg hc ?_
    refine Sim.label ?_
    refine Sim.geny fun y hyy => ?_
    replace hv4 := (congrFun hyy 4).trans hv4
    replace hv5 := (congrFun hyy 5).trans hv5
    replace hy : Agree [0, 1, 2, 3, 5] y0 y := Agree.of_eq hyy (by agree hy)
    clear hyy
    refine Sim.loop (gs_r2s_size32_other_blocks_sim H TP h_r10 (by omega) h_r11 (by omega) (hv4.trans (by krfl))) ⟨.refl, .refl, E, h_rcx, h_r9, by omega⟩ ?_
    rintro ⟨a, xrcx2, xr92⟩ ⟨g2, y2, cf, zf, m⟩ ⟨hg2, hy2, E, h_rcx, h_r9, b_J2⟩
    have h_rsi := (hg2 rsi rfl).trans h_rsi
    have h_r11 := (hg2 r11 rfl).trans h_r11
    have h_rdi := (hg2 rdi rfl).trans h_rdi
    have h_rdx := (hg2 rdx rfl).trans h_rdx
    have h_r10 := (hg2 r10 rfl).trans h_r10
    have hv4 := (hy2 4 rfl).trans hv4
    replace hg : Agree [rax, rcx, rsi, r8, r9, r11] g0 g2 := Agree.trans rfl (by agree hg) hg2
    replace hy : Agree [0, 1, 2, 3, 5] y0 y2 := Agree.trans rfl (by agree hy) hy2
    clear hg2 hy2
    refine Sim.shl fun cf zf => ?_
    have h_r11 := cnt_shl1 h_r11
    refine Sim.gen fun g hgg => ?_
    replace h_rsi := (congrFun hgg rsi).trans h_rsi
    replace h_r11 := (congrFun hgg r11).trans h_r11
    replace h_rdi := (congrFun hgg rdi).trans h_rdi
    replace h_rdx := (congrFun hgg rdx).trans h_rdx
    replace h_r10 := (congrFun hgg r10).trans h_r10
    replace h_rcx := (congrFun hgg rcx).trans h_rcx
    replace h_r9 := (congrFun hgg r9).trans h_r9
    replace hg : Agree [rax, rcx, rsi, r8, r9, r11] g0 g := Agree.of_eq hgg (by agree hg)
    clear hgg
    refine Sim.jmp codeAt_gs_r2s_size32_loop ?_
    exact Sim.again (rfl) ⟨by agree hg, by agree hy, E, h_rsi, h_r11, by omega⟩

theorem ntt_red_gs_rev2std_asm_sim {K : Machine} {A : Word} {n : Nat} {m0 : Memory} {g : Nat → Word} {y : Nat → V8} (H : Host K A n
    m0) (h_rdi : g rdi = A + BitVec.ofNat 64 0) (h_rsi : g rsi = BitVec.ofNat 64 n) {P : Word} {p : Array Int} (TP : Tab K A n m0 P
    p) (h_rdx : g rdx = P + BitVec.ofNat 64 0) {a : Array Int} {g0 : Nat → Word} {cf zf : Bool} {m : Memory} (hg : Agree [rax, rcx,
    rdx, rsi, rdi, r8, r9, r10, r11] g0 g) (E : Env A n m0 m a) :
    Sim K (Asm.ntt_red_gs_rev2std_asm a n p) Text.ntt_red_gs_rev2std_asm ⟨g, y, cf, zf, m⟩ (RetPost A n m0 g0) := by
  have hn := H.hn
  unfold Asm.ntt_red_gs_rev2std_asm
  refine Sim.lea ?_
  have h_rcx := ea_ix (k := 4) (c := 0) h_rdi h_rsi
  refine Sim.gen fun g hgg => ?_
  replace h_rdi := (congrFun hgg rdi).trans h_rdi
  replace h_rsi := (congrFun hgg rsi).trans h_rsi
  replace h_rdx := (congrFun hgg rdx).trans h_rdx
  replace h_rcx := (congrFun hgg rcx).trans h_rcx
  replace hg : Agree [rax, rcx, rdx, rsi, rdi, r8, r9, r10, r11] g0 g := Agree.of_eq hgg (by agree hg)
  clear hgg
  refine Sim.lea ?_
  have h_r8 := ea_ix1 (c := 0) h_rdx h_rsi
  refine Sim.gen fun g hgg => ?_
  replace h_rdi := (congrFun hgg rdi).trans h_rdi
  replace h_rsi := (congrFun hgg rsi).trans h_rsi
  replace h_rdx := (congrFun hgg rdx).trans h_rdx
  replace h_rcx := (congrFun hgg rcx).trans h_rcx
  replace h_r8 := (congrFun hgg r8).trans h_r8
  replace hg : Agree [rax, rcx, rdx, rsi, rdi, r8, r9, r10, r11] g0 g := Agree.of_eq hgg (by agree hg)
  clear hgg
  refine Sim.shr fun cf zf => ?_
  have h_rsi := cnt_shr1 h_rsi (by omega)
  refine Sim.gen fun g hgg => ?_
  replace h_rdi := (congrFun hgg rdi).trans h_rdi
  replace h_rsi := (congrFun hgg rsi).trans h_rsi
  replace h_rdx := (congrFun hgg rdx).trans h_rdx
  replace h_rcx := (congrFun hgg rcx).trans h_rcx
  replace h_r8 := (congrFun hgg r8).trans h_r8
  replace hg : Agree [rax, rcx, rdx, rsi, rdi, r8, r9, r10, r11] g0 g := Agree.of_eq hgg (by agree hg)
  clear hgg
  refine Sim.lea ?_
  have h_r9 := ea_ix1 (c := 0) h_rdx h_rsi
  refine Sim.gen fun g hgg => ?_
  replace h_rdi := (congrFun hgg rdi).trans h_rdi
  replace h_rsi := (congrFun hgg rsi).trans h_rsi
  replace h_rdx := (congrFun hgg rdx).trans h_rdx
  replace h_rcx := (congrFun hgg rcx).trans h_rcx
  replace h_r8 := (congrFun hgg r8).trans h_r8
  replace h_r9 := (congrFun hgg r9).trans h_r9
  replace hg : Agree [rax, rcx, rdx, rsi, rdi, r8, r9, r10, r11] g0 g := Agree.of_eq hgg (by agree hg)
  clear hgg
  refine Sim.shr fun cf zf => ?_
  have h_rsi := cnt_shr1 h_rsi (by omega)
  refine Sim.gen fun g hgg => ?_
  replace h_rdi := (congrFun hgg rdi).trans h_rdi
  replace h_rsi := (congrFun hgg rsi).trans h_rsi
  replace h_rdx := (congrFun hgg rdx).trans h_rdx
  replace h_rcx := (congrFun hgg rcx).trans h_rcx
  replace h_r8 := (congrFun hgg r8).trans h_r8
  replace h_r9 := (congrFun hgg r9).trans h_r9
  replace hg : Agree [rax, rcx, rdx, rsi, rdi, r8, r9, r10, r11] g0 g := Agree.of_eq hgg (by agree hg)
  clear hgg
  refine Sim.lea ?_
  have h_r10 := ea_ix1 (c := 0) h_rdx h_rsi
  refine Sim.gen fun g hgg => ?_
  replace h_rdi := (congrFun hgg rdi).trans h_rdi
  replace h_rsi := (congrFun hgg rsi).trans h_rsi
  replace h_rdx := (congrFun hgg rdx).trans h_rdx
  replace h_rcx := (congrFun hgg rcx).trans h_rcx
  replace h_r8 := (congrFun hgg r8).trans h_r8
  replace h_r9 := (congrFun hgg r9).trans h_r9
  replace h_r10 := (congrFun hgg r10).trans h_r10
  replace hg : Agree [rax, rcx, rdx, rsi, rdi, r8, r9, r10, r11] g0 g := Agree.of_eq hgg (by agree hg)
  clear hgg
  refine Sim.mov ?_
  have h_rax := h_rdi
  refine Sim.gen fun g hgg => ?_
  replace h_rdi := (congrFun hgg rdi).trans h_rdi
  replace h_rsi := (congrFun hgg rsi).trans h_rsi
  replace h_rdx := (congrFun hgg rdx).trans h_rdx
  replace h_rcx := (congrFun hgg rcx).trans h_rcx
  replace h_r8 := (congrFun hgg r8).trans h_r8
  replace h_r9 := (congrFun hgg r9).trans h_r9
  replace h_r10 := (congrFun hgg r10).trans h_r10
  replace h_rax := (congrFun hgg rax).trans h_rax
  replace hg : Agree [rax, rcx, rdx, rsi, rdi, r8, r9, r10, r11] g0 g := Agree.of_eq hgg (by agree hg)
  clear hgg
  refine Sim.const H E ?_
  refine Sim.const H E ?_
  refine Sim.label ?_
  refine Sim.geny fun y hyy => ?_
  have hv4 := congrFun hyy 4
  have hv5 := congrFun hyy 5
  have hv6 := congrFun hyy 6
  clear hyy
  refine Sim.loop (gs_r2s_loop0_sim H TP h_rcx (by omega) (hv4.trans (by krfl)) (hv6.trans (by krfl))) ⟨.refl, .refl, E, h_rax, h_r8, h_r9, h_r10, trivial⟩ ?_
  rintro ⟨a, xrax1, xr81, xr91, xr101⟩ ⟨g1, y1, cf, zf, m⟩ ⟨hg1, hy1, E, h_rax, h_r8, h_r9, h_r10, b_J1⟩
  have h_rdi := (hg1 rdi rfl).trans h_rdi
  have h_rsi := (hg1 rsi rfl).trans h_rsi
  have h_rdx := (hg1 rdx rfl).trans h_rdx
  have h_rcx := (hg1 rcx rfl).trans h_rcx
  have hv4 := (hy1 4 rfl).trans hv4
  have hv6 := (hy1 6 rfl).trans hv6
  replace hg : Agree [rax, rcx, rdx, rsi, rdi, r8, r9, r10, r11] g0 g1 := Agree.trans rfl (by agree hg) hg1
  clear hg1 hy1
  refine Sim.mov ?_
  have h_rax := h_rdi
  refine Sim.gen fun g hgg => ?_
  replace h_rdi := (congrFun hgg rdi).trans h_rdi
  replace h_rsi := (congrFun hgg rsi).trans h_rsi
  replace h_rdx := (congrFun hgg rdx).trans h_rdx
  replace h_rcx := (congrFun hgg rcx).trans h_rcx
  replace h_r8 := (congrFun hgg r8).trans h_r8
  replace h_r9 := (congrFun hgg r9).trans h_r9
  replace h_r10 := (congrFun hgg r10).trans h_r10
  replace h_rax := (congrFun hgg rax).trans h_rax
  replace hg : Agree [rax, rcx, rdx, rsi, rdi, r8, r9, r10, r11] g0 g := Agree.of_eq hgg (by agree hg)
  clear hgg
  refine Sim.load H E (ea_at h_rax) fun v b_709 => ?_
  refine Sim.load H E (ea_at h_rax) fun v b_710 => ?_
  refine Sim.vec ?_
  refine Sim.vec ?_
  refine Sim.store H E (ea_at h_rax) (by krfl) fun a m E b_713 => ?_
  refine Sim.store H E (ea_at h_rax) (by krfl) fun a m E b_714 => ?_
  refine Sim.addi fun cf zf => ?_
  have h_rax := ptr_addi (k := 64) h_rax
  refine Sim.gen fun g hgg => ?_
  replace h_rdi := (congrFun hgg rdi).trans h_rdi
  replace h_rsi := (congrFun hgg rsi).trans h_rsi
  replace h_rdx := (congrFun hgg rdx).trans h_rdx
  replace h_rcx := (congrFun hgg rcx).trans h_rcx
  replace h_r8 := (congrFun hgg r8).trans h_r8
  replace h_r9 := (congrFun hgg r9).trans h_r9
  replace h_r10 := (congrFun hgg r10).trans h_r10
  replace h_rax := (congrFun hgg rax).trans h_rax
  replace hg : Agree [rax, rcx, rdx, rsi, rdi, r8, r9, r10, r11] g0 g := Agree.of_eq hgg (by agree hg)
  clear hgg
  refine Sim.cmp_jcc codeAt_gs_r2s_done (Cmp.ptr H.hA (by omega) (by omega) h_rax h_rcx) (fun hc cf zf => ?_) (fun hc cf zf => ?_)
  · have hc' : _ ≥ _ := hc
    refine Sim.if_pos hc ?_
    exact Sim.stop ⟨⟨_, rfl⟩, E, by agree hg⟩
  · have hc' : ¬ (_ ≥ _) := hc
    refine Sim.if_neg hc ?_
    refine Sim.shr fun cf zf => ?_
    have h_rsi := cnt_shr1 h_rsi (by omega)
    refine Sim.gen fun g hgg => ?_
    replace h_rdi := (congrFun hgg rdi).trans h_rdi
    replace h_rsi := (congrFun hgg rsi).trans h_rsi
    replace h_rdx := (congrFun hgg rdx).trans h_rdx
    replace h_rcx := (congrFun hgg rcx).trans h_rcx
    replace h_r8 := (congrFun hgg r8).trans h_r8
    replace h_r9 := (congrFun hgg r9).trans h_r9
    replace h_r10 := (congrFun hgg r10).trans h_r10
    replace h_rax := (congrFun hgg rax).trans h_rax
    replace hg : Agree [rax, rcx, rdx, rsi, rdi, r8, r9, r10, r11] g0 g := Agree.of_eq hgg (by agree hg)
    clear hgg
    refine Sim.lea ?_
    have h_r9 := ea_ix1 (c := 2) h_rdx h_rsi
    refine Sim.gen fun g hgg => ?_
    replace h_rdi := (congrFun hgg rdi).trans h_rdi
    replace h_rsi := (congrFun hgg rsi).trans h_rsi
    replace h_rdx := (congrFun hgg rdx).trans h_rdx
    replace h_rcx := (congrFun hgg rcx).trans h_rcx
    replace h_r8 := (congrFun hgg r8).trans h_r8
    replace h_r9 := (congrFun hgg r9).trans h_r9
    replace h_r10 := (congrFun hgg r10).trans h_r10
    replace h_rax := (congrFun hgg rax).trans h_rax
    replace hg : Agree [rax, rcx, rdx, rsi, rdi, r8, r9, r10, r11] g0 g := Agree.of_eq hgg (by agree hg)
    clear hgg
    refine Sim.label ?_
    refine Sim.geny fun y hyy => ?_
    replace hv4 := (congrFun hyy 4).trans hv4
    have hv5 := congrFun hyy 5
    replace hv6 := (congrFun hyy 6).trans hv6
    clear hyy
    refine Sim.loop (gs_r2s_size16_loop_sim H TP h_rcx (by omega) (hv4.trans (by krfl))) ⟨.refl, .refl, E, h_rax, h_r9, trivial⟩ ?_
    rintro ⟨a, xrax2, xr92⟩ ⟨g2, y2, cf, zf, m⟩ ⟨hg2, hy2, E, h_rax, h_r9, b_J2⟩
    have h_rdi := (hg2 rdi rfl).trans h_rdi
    have h_rsi := (hg2 rsi rfl).trans h_rsi
    have h_rdx := (hg2 rdx rfl).trans h_rdx
    have h_rcx := (hg2 rcx rfl).trans h_rcx
    have h_r8 := (hg2 r8 rfl).trans h_r8
    have h_r10 := (hg2 r10 rfl).trans h_r10
    have hv4 := (hy2 4 rfl).trans hv4
    have hv6 := (hy2 6 rfl).trans hv6
    replace hg : Agree [rax, rcx, rdx, rsi, rdi, r8, r9, r10, r11] g0 g2 := Agree.trans rfl (by agree hg) hg2
    clear hg2 hy2
    refine Sim.mov ?_
    have h_r10 := h_rcx
    refine Sim.gen fun g hgg => ?_
    replace h_rdi := (congrFun hgg rdi).trans h_rdi
    replace h_rsi := (congrFun hgg rsi).trans h_rsi
    replace h_rdx := (congrFun hgg rdx).trans h_rdx
    replace h_rcx := (congrFun hgg rcx).trans h_rcx
    replace h_r8 := (congrFun hgg r8).trans h_r8
    replace h_r9 := (congrFun hgg r9).trans h_r9
    replace h_r10 := (congrFun hgg r10).trans h_r10
    replace h_rax := (congrFun hgg rax).trans h_rax
    replace hg : Agree [rax, rcx, rdx, rsi, rdi, r8, r9, r10, r11] g0 g := Agree.of_eq hgg (by agree hg)
    clear hgg
    refine Sim.movi ?_
    have h_r11 : BitVec.ofNat 64 64 = BitVec.ofNat 64 64 := rfl
    refine Sim.gen fun g hgg => ?_
    replace h_rdi := (congrFun hgg rdi).trans h_rdi
    replace h_rsi := (congrFun hgg rsi).trans h_rsi
    replace h_rdx := (congrFun hgg rdx).trans h_rdx
    replace h_rcx := (congrFun hgg rcx).trans h_rcx
    replace h_r8 := (congrFun hgg r8).trans h_r8
    replace h_r9 := (congrFun hgg r9).trans h_r9
    replace h_r10 := (congrFun hgg r10).trans h_r10
    replace h_rax := (congrFun hgg rax).trans h_rax
    replace h_r11 := (congrFun hgg r11).trans h_r11
    replace hg : Agree [rax, rcx, rdx, rsi, rdi, r8, r9, r10, r11] g0 g := Agree.of_eq hgg (by agree hg)
    clear hgg
    refine Sim.label ?_
    refine Sim.geny fun y hyy => ?_
    replace hv4 := (congrFun hyy 4).trans hv4
    have hv5 := congrFun hyy 5
    replace hv6 := (congrFun hyy 6).trans hv6
    clear hyy
    refine Sim.loop (gs_r2s_size32_loop_sim H TP h_rdi (by omega) h_rdx h_r10 (by omega) (hv4.trans (by krfl))) ⟨.refl, .refl, E, h_rsi, h_r11, by omega⟩ ?_
    rintro ⟨a, xrsi3, xr113⟩ ⟨g3, y3, cf, zf, m⟩ ⟨hg3, hy3, E, h_rsi, h_r11, b_J3⟩
    have h_rdi := (hg3 rdi rfl).trans h_rdi
    have h_rdx := (hg3 rdx rfl).trans h_rdx
    have h_r10 := (hg3 r10 rfl).trans h_r10
    have hv4 := (hy3 4 rfl).trans hv4
    have hv6 := (hy3 6 rfl).trans hv6
    replace hg : Agree [rax, rcx, rdx, rsi, rdi, r8, r9, r10, r11] g0 g3 := Agree.trans rfl (by agree hg) hg3
    clear hg3 hy3
    exact Sim.stop ⟨⟨_, rfl⟩, E, by agree hg⟩

def mgs_r2s_size32_inner_loop_I (A : Word) (n : Nat) (m0 : Memory) (g0 : Nat → Word) (y0 : Nat → V8) (lo : Nat) :
    Array Int × Nat × Nat → State → Prop
  | (a, xrax, xrcx), s =>
    Agree [rax, rcx] g0 s.gpr ∧ Agree [0, 1, 2, 3] y0 s.ymm ∧ Env A n m0 s.mem a ∧
    s.gpr rax = A + BitVec.ofNat 64 xrax ∧ s.gpr rcx = A + BitVec.ofNat 64 xrcx ∧ lo ≤ xrcx

def mgs_r2s_size32_inner_loop_J (A : Word) (n : Nat) (m0 : Memory) (g0 : Nat → Word) (y0 : Nat → V8) (lo : Nat) :
    Array Int × Nat × Nat → State → Prop
  | (a, xrax, xrcx), s =>
    Agree [rax, rcx] g0 s.gpr ∧ Agree [0, 1, 2, 3] y0 s.ymm ∧ Env A n m0 s.mem a ∧
    s.gpr rax = A + BitVec.ofNat 64 xrax ∧ s.gpr rcx = A + BitVec.ofNat 64 xrcx ∧ lo ≤ xrcx ∧ xrcx ≤ 4 * n

theorem mgs_r2s_size32_inner_loop_sim {K : Machine} {A : Word} {n : Nat} {m0 : Memory} {g0 : Nat → Word} {y0 : Nat → V8} (H : Host K
    A n m0) {xr8 : Nat} (h_r8 : g0 r8 = A + BitVec.ofNat 64 xr8) (b_r8 : xr8 < 2 ^ 37) {v4 : V8} (hv4 : y0 4 = v4) {v5 : V8} (hv5 :
    y0 5 = v5) {lo : Nat} :
    ∀ st s, mgs_r2s_size32_inner_loop_I A n m0 g0 y0 lo st s →
      Sim K (Asm.mgs_r2s_size32_inner_loop xr8 v4 v5 st) Text.mgs_r2s_size32_inner_loop s (LoopPost (mgs_r2s_size32_inner_loop_I A n m0 g0 y0 lo) (mgs_r2s_size32_inner_loop_J A n m0 g0 y0 lo) Text.mgs_r2s_size32_inner_loop Text.mgs_r2s_size32_inner_loop_exit) := by
  have hn := H.hn
  rintro ⟨a, xrax, xrcx⟩ ⟨g, y, cf, zf, m⟩ ⟨hg, hy, E, h_rax, h_rcx, b_I⟩
  replace h_r8 := (hg r8 rfl).trans h_r8
  obtain rfl := (hy 4 rfl).trans hv4
  obtain rfl := (hy 5 rfl).trans hv5
  unfold Asm.mgs_r2s_size32_inner_loop
  refine Sim.load H E (ea_at h_rax) fun v b_903 => ?_
  refine Sim.load H E (ea_at h_rcx) fun v b_904 => ?_
  refine Sim.vec ?_
  refine Sim.vec ?_
  refine Sim.vec ?_
  refine Sim.vec ?_
  refine Sim.vec ?_
  refine Sim.vec ?_
  refine Sim.vec ?_
  refine Sim.vec ?_
  refine Sim.vec ?_
  refine Sim.vec ?_
  refine Sim.vec ?_
  refine Sim.vec ?_
  refine Sim.vec ?_
  refine Sim.vec ?_
  refine Sim.vec ?_
  refine Sim.store H E (ea_at h_rax) (by krfl) fun a m E b_920 => ?_
  refine Sim.store H E (ea_at h_rcx) (by krfl) fun a m E b_921 => ?_
  refine Sim.addi fun cf zf => ?_
  have h_rax := ptr_addi (k := 32) h_rax
  refine Sim.gen fun g hgg => ?_
  replace h_rax := (congrFun hgg rax).trans h_rax
  replace h_rcx := (congrFun hgg rcx).trans h_rcx
  replace h_r8 := (congrFun hgg r8).trans h_r8
  replace hg : Agree [rax, rcx] g0 g := Agree.of_eq hgg (by agree hg)
  clear hgg
  refine Sim.addi fun cf zf => ?_
  have h_rcx := ptr_addi (k := 32) h_rcx
  refine Sim.gen fun g hgg => ?_
  replace h_rax := (congrFun hgg rax).trans h_rax
  replace h_rcx := (congrFun hgg rcx).trans h_rcx
  replace h_r8 := (congrFun hgg r8).trans h_r8
  replace hg : Agree [rax, rcx] g0 g := Agree.of_eq hgg (by agree hg)
  clear hgg
  refine Sim.cmp_jcc codeAt_mgs_r2s_size32_inner_loop (Cmp.ptr H.hA (by omega) (by omega) h_rax h_r8) (fun hc cf zf => ?_) (fun hc cf zf => ?_)
  · have hc' : _ < _ := hc
    exact Sim.again (decide_eq_true hc) ⟨by agree hg, by agree hy, E, h_rax, h_rcx, by omega⟩
  · have hc' : ¬ (_ < _) := hc
    exact Sim.done (decide_eq_false hc) ⟨by agree hg, by agree hy, E, h_rax, h_rcx, by omega⟩

def mgs_r2s_size16_loop_I (A : Word) (n : Nat) (m0 : Memory) (g0 : Nat → Word) (y0 : Nat → V8) (P : Word) :
    Array Int × Nat × Nat → State → Prop
  | (a, xrax, xr9), s =>
    Agree [rax, r9] g0 s.gpr ∧ Agree [0, 1, 2, 3, 5] y0 s.ymm ∧ Env A n m0 s.mem a ∧
    s.gpr rax = A + BitVec.ofNat 64 xrax ∧ s.gpr r9 = P + BitVec.ofNat 64 xr9 ∧ True

def mgs_r2s_size16_loop_J (A : Word) (n : Nat) (m0 : Memory) (g0 : Nat → Word) (y0 : Nat → V8) (P : Word) :
    Array Int × Nat × Nat → State → Prop
  | (a, xrax, xr9), s =>
    Agree [rax, r9] g0 s.gpr ∧ Agree [0, 1, 2, 3, 5] y0 s.ymm ∧ Env A n m0 s.mem a ∧
    s.gpr rax = A + BitVec.ofNat 64 xrax ∧ s.gpr r9 = P + BitVec.ofNat 64 xr9 ∧ True

theorem mgs_r2s_size16_loop_sim {K : Machine} {A : Word} {n : Nat} {m0 : Memory} {g0 : Nat → Word} {y0 : Nat → V8} (H : Host K A n
    m0) {P : Word} {p : Array Int} (TP : Tab K A n m0 P p) {xrcx : Nat} (h_rcx : g0 rcx = A + BitVec.ofNat 64 xrcx) (b_rcx : xrcx <
    2 ^ 37) {v4 : V8} (hv4 : y0 4 = v4) :
    ∀ st s, mgs_r2s_size16_loop_I A n m0 g0 y0 P st s →
      Sim K (Asm.mgs_r2s_size16_loop p xrcx v4 st) Text.mgs_r2s_size16_loop s (LoopPost (mgs_r2s_size16_loop_I A n m0 g0 y0 P) (mgs_r2s_size16_loop_J A n m0 g0 y0 P) Text.mgs_r2s_size16_loop Text.mgs_r2s_size16_loop_exit) := by
  have hn := H.hn
  rintro ⟨a, xrax, xr9⟩ ⟨g, y, cf, zf, m⟩ ⟨hg, hy, E, h_rax, h_r9, b_I⟩
  replace h_rcx := (hg rcx rfl).trans h_rcx
  obtain rfl := (hy 4 rfl).trans hv4
  unfold Asm.mgs_r2s_size16_loop
  refine Sim.load_bdcstw TP E (ea_at h_r9) fun v _ => ?_
  refine Sim.vec ?_
  refine Sim.load H E (ea_at h_rax) fun v b_866 => ?_
  refine Sim.load H E (ea_at h_rax) fun v b_867 => ?_
  refine Sim.vec ?_
  refine Sim.vec ?_
  refine Sim.vec ?_
  refine Sim.vec ?_
  refine Sim.vec ?_
  refine Sim.vec ?_
  refine Sim.vec ?_
  refine Sim.vec ?_
  refine Sim.vec ?_
  refine Sim.vec ?_
  refine Sim.vec ?_
  refine Sim.vec ?_
  refine Sim.vec ?_
  refine Sim.vec ?_
  refine Sim.vec ?_
  refine Sim.store H E (ea_at h_rax) (by krfl) fun a m E b_883 => ?_
  refine Sim.store H E (ea_at h_rax) (by krfl) fun a m E b_884 => ?_
  refine Sim.addi fun cf zf => ?_
  have h_rax := ptr_addi (k := 64) h_rax
  refine Sim.gen fun g hgg => ?_
  replace h_rax := (congrFun hgg rax).trans h_rax
  replace h_r9 := (congrFun hgg r9).trans h_r9
  replace h_rcx := (congrFun hgg rcx).trans h_rcx
  replace hg : Agree [rax, r9] g0 g := Agree.of_eq hgg (by agree hg)
  clear hgg
  refine Sim.addi fun cf zf => ?_
  have h_r9 := ptr_addi (k := 2) h_r9
  refine Sim.gen fun g hgg => ?_
  replace h_rax := (congrFun hgg rax).trans h_rax
  replace h_r9 := (congrFun hgg r9).trans h_r9
  replace h_rcx := (congrFun hgg rcx).trans h_rcx
  replace hg : Agree [rax, r9] g0 g := Agree.of_eq hgg (by agree hg)
  clear hgg
  refine Sim.cmp_jcc codeAt_mgs_r2s_size16_loop (Cmp.ptr H.hA (by omega) (by omega) h_rax h_rcx) (fun hc cf zf => ?_) (fun hc cf zf => ?_)
  · have hc' : _ < _ := hc
    exact Sim.again (decide_eq_true hc) ⟨by agree hg, by agree hy, E, h_rax, h_r9, trivial⟩
  · have hc' : ¬ (_ < _) := hc
    exact Sim.done (decide_eq_false hc) ⟨by agree hg, by agree hy, E, h_rax, h_r9, trivial⟩

def mgs_r2s_size32_blocks_I (A : Word) (n : Nat) (m0 : Memory) (g0 : Nat → Word) (y0 : Nat → V8) (P : Word) (lo : Nat) :
    Array Int × Nat × Nat × Nat × Nat → State → Prop
  | (a, xrax, xrcx, xr8, xr9), s =>
    Agree [rax, rcx, r8, r9] g0 s.gpr ∧ Agree [0, 1, 2, 3, 5] y0 s.ymm ∧ Env A n m0 s.mem a ∧
    s.gpr rax = A + BitVec.ofNat 64 xrax ∧ s.gpr rcx = A + BitVec.ofNat 64 xrcx ∧ s.gpr r8 = A + BitVec.ofNat 64 xr8 ∧ s.gpr r9 = P + BitVec.ofNat 64 xr9 ∧ lo ≤ xrcx ∧ xrcx < 2 ^ 37 ∧ xr8 < 2 ^ 37

def mgs_r2s_size32_blocks_J (A : Word) (n : Nat) (m0 : Memory) (g0 : Nat → Word) (y0 : Nat → V8) (P : Word) (lo : Nat) :
    Array Int × Nat × Nat × Nat × Nat → State → Prop
  | (a, xrax, xrcx, xr8, xr9), s =>
    Agree [rax, rcx, r8, r9] g0 s.gpr ∧ Agree [0, 1, 2, 3, 5] y0 s.ymm ∧ Env A n m0 s.mem a ∧
    s.gpr rax = A + BitVec.ofNat 64 xrax ∧ s.gpr rcx = A + BitVec.ofNat 64 xrcx ∧ s.gpr r8 = A + BitVec.ofNat 64 xr8 ∧ s.gpr r9 = P + BitVec.ofNat 64 xr9 ∧ lo ≤ xrax ∧ xrax ≤ 4 * n

theorem mgs_r2s_size32_blocks_sim {K : Machine} {A : Word} {n : Nat} {m0 : Memory} {g0 : Nat → Word} {y0 : Nat → V8} (H : Host K A n
    m0) {P : Word} {p : Array Int} (TP : Tab K A n m0 P p) {xr10 : Nat} (h_r10 : g0 r10 = A + BitVec.ofNat 64 xr10) (b_r10 : xr10 <
    2 ^ 37) {xr11 : Nat} (h_r11 : g0 r11 = BitVec.ofNat 64 xr11) (b_r11 : xr11 < 2 ^ 36) {v4 : V8} (hv4 : y0 4 = v4) {lo : Nat} :
    ∀ st s, mgs_r2s_size32_blocks_I A n m0 g0 y0 P lo st s →
      Sim K (Asm.mgs_r2s_size32_blocks p n xr10 xr11 v4 st) Text.mgs_r2s_size32_blocks s (LoopPost (mgs_r2s_size32_blocks_I A n m0 g0 y0 P lo) (mgs_r2s_size32_blocks_J A n m0 g0 y0 P lo) Text.mgs_r2s_size32_blocks Text.mgs_r2s_size32_blocks_exit) := by
  have hn := H.hn
  rintro ⟨a, xrax, xrcx, xr8, xr9⟩ ⟨g, y, cf, zf, m⟩ ⟨hg, hy, E, h_rax, h_rcx, h_r8, h_r9, b_I⟩
  replace h_r10 := (hg r10 rfl).trans h_r10
  replace h_r11 := (hg r11 rfl).trans h_r11
  obtain rfl := (hy 4 rfl).trans hv4
  unfold Asm.mgs_r2s_size32_blocks
  refine Sim.load_bdcstw TP E (ea_at h_r9) fun v _ => ?_
  refine Sim.vec ?_
  refine Sim.label ?_
  refine Sim.geny fun y hyy => ?_
  have hv4 := congrFun hyy 4
  have hv5 := congrFun hyy 5
  replace hy : Agree [0, 1, 2, 3, 5] y0 y := Agree.of_eq hyy (by agree hy)
  clear hyy
  refine Sim.loop (mgs_r2s_size32_inner_loop_sim H h_r8 (by omega) (hv4.trans (by krfl)) (hv5.trans (by krfl)) (lo := lo)) ⟨.refl, .refl, E, h_rax, h_rcx, by omega⟩ ?_
  rintro ⟨a, xrax1, xrcx1⟩ ⟨g1, y1, cf, zf, m⟩ ⟨hg1, hy1, E, h_rax, h_rcx, b_J1⟩
  have h_r8 := (hg1 r8 rfl).trans h_r8
  have h_r9 := (hg1 r9 rfl).trans h_r9
  have h_r10 := (hg1 r10 rfl).trans h_r10
  have h_r11 := (hg1 r11 rfl).trans h_r11
  have hv4 := (hy1 4 rfl).trans hv4
  have hv5 := (hy1 5 rfl).trans hv5
  replace hg : Agree [rax, rcx, r8, r9] g0 g1 := Agree.trans rfl (by agree hg) hg1
  replace hy : Agree [0, 1, 2, 3, 5] y0 y1 := Agree.trans rfl (by agree hy) hy1
  clear hg1 hy1
  refine Sim.mov ?_
  have h_rax := h_rcx
  refine Sim.gen fun g hgg => ?_
  replace h_rax := (congrFun hgg rax).trans h_rax
  replace h_rcx := (congrFun hgg rcx).trans h_rcx
  replace h_r8 := (congrFun hgg r8).trans h_r8
  replace h_r9 := (congrFun hgg r9).trans h_r9
  replace h_r10 := (congrFun hgg r10).trans h_r10
  replace h_r11 := (congrFun hgg r11).trans h_r11
  replace hg : Agree [rax, rcx, r8, r9] g0 g := Agree.of_eq hgg (by agree hg)
  clear hgg
  refine Sim.add fun cf zf => ?_
  have h_rcx := ptr_add h_rcx h_r11
  refine Sim.gen fun g hgg => ?_
  replace h_rax := (congrFun hgg rax).trans h_rax
  replace h_rcx := (congrFun hgg rcx).trans h_rcx
  replace h_r8 := (congrFun hgg r8).trans h_r8
  replace h_r9 := (congrFun hgg r9).trans h_r9
  replace h_r10 := (congrFun hgg r10).trans h_r10
  replace h_r11 := (congrFun hgg r11).trans h_r11
  replace hg : Agree [rax, rcx, r8, r9] g0 g := Agree.of_eq hgg (by agree hg)
  clear hgg
  refine Sim.mov ?_
  have h_r8 := h_rcx
  refine Sim.gen fun g hgg => ?_
  replace h_rax := (congrFun hgg rax).trans h_rax
  replace h_rcx := (congrFun hgg rcx).trans h_rcx
  replace h_r8 := (congrFun hgg r8).trans h_r8
  replace h_r9 := (congrFun hgg r9).trans h_r9
  replace h_r10 := (congrFun hgg r10).trans h_r10
  replace h_r11 := (congrFun hgg r11).trans h_r11
  replace hg : Agree [rax, rcx, r8, r9] g0 g := Agree.of_eq hgg (by agree hg)
  clear hgg
  refine Sim.addi fun cf zf => ?_
  have h_r9 := ptr_addi (k := 2) h_r9
  refine Sim.gen fun g hgg => ?_
  replace h_rax := (congrFun hgg rax).trans h_rax
  replace h_rcx := (congrFun hgg rcx).trans h_rcx
  replace h_r8 := (congrFun hgg r8).trans h_r8
  replace h_r9 := (congrFun hgg r9).trans h_r9
  replace h_r10 := (congrFun hgg r10).trans h_r10
  replace h_r11 := (congrFun hgg r11).trans h_r11
  replace hg : Agree [rax, rcx, r8, r9] g0 g := Agree.of_eq hgg (by agree hg)
  clear hgg
  refine Sim.cmp_jcc codeAt_mgs_r2s_size32_blocks (Cmp.ptr H.hA (by omega) (by omega) h_rax h_r10) (fun hc cf zf => ?_) (fun hc cf zf => ?_)
  · have hc' : _ < _ := hc
    exact Sim.again (decide_eq_true hc) ⟨by agree hg, by agree hy, E, h_rax, h_rcx, h_r8, h_r9, by omega⟩
  · have hc' : ¬ (_ < _) := hc
    exact Sim.done (decide_eq_false hc) ⟨by agree hg, by agree hy, E, h_rax, h_rcx, h_r8, h_r9, by omega⟩

def mgs_r2s_size32_loop_I (A : Word) (n : Nat) (m0 : Memory) (g0 : Nat → Word) (y0 : Nat → V8) :
    Array Int × Nat × Nat → State → Prop
  | (a, xrsi, xr11), s =>
    Agree [rax, rcx, rsi, r8, r9, r11] g0 s.gpr ∧ Agree [0, 1, 2, 3, 5] y0 s.ymm ∧ Env A n m0 s.mem a ∧
    s.gpr rsi = BitVec.ofNat 64 xrsi ∧ s.gpr r11 = BitVec.ofNat 64 xr11 ∧ xr11 < 2 ^ 36 ∧ xrsi < 2 ^ 34

def mgs_r2s_size32_loop_J (A : Word) (n : Nat) (m0 : Memory) (g0 : Nat → Word) (y0 : Nat → V8) :
    Array Int × Nat × Nat → State → Prop
  | (a, xrsi, xr11), s =>
    Agree [rax, rcx, rsi, r8, r9, r11] g0 s.gpr ∧ Agree [0, 1, 2, 3, 5] y0 s.ymm ∧ Env A n m0 s.mem a ∧
    s.gpr rsi = BitVec.ofNat 64 xrsi ∧ s.gpr r11 = BitVec.ofNat 64 xr11 ∧ True

theorem mgs_r2s_size32_loop_sim {K : Machine} {A : Word} {n : Nat} {m0 : Memory} {g0 : Nat → Word} {y0 : Nat → V8} (H : Host K A n
    m0) {P : Word} {p : Array Int} (TP : Tab K A n m0 P p) {xrdi : Nat} (h_rdi : g0 rdi = A + BitVec.ofNat 64 xrdi) (b_rdi : xrdi <
    2 ^ 36) {xrdx : Nat} (h_rdx : g0 rdx = P + BitVec.ofNat 64 xrdx) {xr10 : Nat} (h_r10 : g0 r10 = A + BitVec.ofNat 64 xr10) (b_r10
    : xr10 < 2 ^ 37) {v4 : V8} (hv4 : y0 4 = v4) :
    ∀ st s, mgs_r2s_size32_loop_I A n m0 g0 y0 st s →
      Sim K (Asm.mgs_r2s_size32_loop p n xrdi xrdx xr10 v4 st) Text.mgs_r2s_size32_loop s (LoopPost (mgs_r2s_size32_loop_I A n m0 g0 y0) (mgs_r2s_size32_loop_J A n m0 g0 y0) Text.mgs_r2s_size32_loop Text.at_mgs_r2s_done) := by
  have hn := H.hn
  rintro ⟨a, xrsi, xr11⟩ ⟨g, y, cf, zf, m⟩ ⟨hg, hy, E, h_rsi, h_r11, b_I⟩
  replace h_rdi := (hg rdi rfl).trans h_rdi
  replace h_rdx := (hg rdx rfl).trans h_rdx
  replace h_r10 := (hg r10 rfl).trans h_r10
  obtain rfl := (hy 4 rfl).trans hv4
  unfold Asm.mgs_r2s_size32_loop
  refine Sim.mov ?_
  have h_rax := h_rdi
  refine Sim.gen fun g hgg => ?_
  replace h_rsi := (congrFun hgg rsi).trans h_rsi
  replace h_r11 := (congrFun hgg r11).trans h_r11
  replace h_rdi := (congrFun hgg rdi).trans h_rdi
  replace h_rdx := (congrFun hgg rdx).trans h_rdx
  replace h_r10 := (congrFun hgg r10).trans h_r10
  replace h_rax := (congrFun hgg rax).trans h_rax
  replace hg : Agree [rax, rcx, rsi, r8, r9, r11] g0 g := Agree.of_eq hgg (by agree hg)
  clear hgg
  refine Sim.lea ?_
  have h_rcx := ea_ix1 (c := 0) h_rax h_r11
  refine Sim.gen fun g hgg => ?_
  replace h_rsi := (congrFun hgg rsi).trans h_rsi
  replace h_r11 := (congrFun hgg r11).trans h_r11
  replace h_rdi := (congrFun hgg rdi).trans h_rdi
  replace h_rdx := (congrFun hgg rdx).trans h_rdx
  replace h_r10 := (congrFun hgg r10).trans h_r10
  replace h_rax := (congrFun hgg rax).trans h_rax
  replace h_rcx := (congrFun hgg rcx).trans h_rcx
  replace hg : Agree [rax, rcx, rsi, r8, r9, r11] g0 g := Agree.of_eq hgg (by agree hg)
  clear hgg
  refine Sim.mov ?_
  have h_r8 := h_rcx
  refine Sim.gen fun g hgg => ?_
  replace h_rsi := (congrFun hgg rsi).trans h_rsi
  replace h_r11 := (congrFun hgg r11).trans h_r11
  replace h_rdi := (congrFun hgg rdi).trans h_rdi
  replace h_rdx := (congrFun hgg rdx).trans h_rdx
  replace h_r10 := (congrFun hgg r10).trans h_r10
  replace h_rax := (congrFun hgg rax).trans h_rax
  replace h_rcx := (congrFun hgg rcx).trans h_rcx
  replace h_r8 := (congrFun hgg r8).trans h_r8
  replace hg : Agree [rax, rcx, rsi, r8, r9, r11] g0 g := Agree.of_eq hgg (by agree hg)
  clear hgg
  refine Sim.shr fun cf zf => ?_
  have h_rsi := cnt_shr1 h_rsi (by omega)
  refine Sim.gen fun g hgg => ?_
  replace h_rsi := (congrFun hgg rsi).trans h_rsi
  replace h_r11 := (congrFun hgg r11).trans h_r11
  replace h_rdi := (congrFun hgg rdi).trans h_rdi
  replace h_rdx := (congrFun hgg rdx).trans h_rdx
  replace h_r10 := (congrFun hgg r10).trans h_r10
  replace h_rax := (congrFun hgg rax).trans h_rax
  replace h_rcx := (congrFun hgg rcx).trans h_rcx
  replace h_r8 := (congrFun hgg r8).trans h_r8
  replace hg : Agree [rax, rcx, rsi, r8, r9, r11] g0 g := Agree.of_eq hgg (by agree hg)
  clear hgg
  refine Sim.lea ?_
  have h_r9 := ea_ix1 (c := 0) h_rdx h_rsi
  refine Sim.gen fun g hgg => ?_
  replace h_rsi := (congrFun hgg rsi).trans h_rsi
  replace h_r11 := (congrFun hgg r11).trans h_r11
  replace h_rdi := (congrFun hgg rdi).trans h_rdi
  replace h_rdx := (congrFun hgg rdx).trans h_rdx
  replace h_r10 := (congrFun hgg r10).trans h_r10
  replace h_rax := (congrFun hgg rax).trans h_rax
  replace h_rcx := (congrFun hgg rcx).trans h_rcx
  replace h_r8 := (congrFun hgg r8).trans h_r8
  replace h_r9 := (congrFun hgg r9).trans h_r9
  replace hg : Agree [rax, rcx, rsi, r8, r9, r11] g0 g := Agree.of_eq hgg (by agree hg)
  clear hgg
  refine Sim.label ?_
  refine Sim.geny fun y hyy => ?_
  have hv4 := congrFun hyy 4
  have hv5 := congrFun hyy 5
  replace hy : Agree [0, 1, 2, 3, 5] y0 y := Agree.of_eq hyy (by agree hy)
  clear hyy
  refine Sim.loop (mgs_r2s_size32_blocks_sim H TP h_r10 (by omega) h_r11 (by omega) (hv4.trans (by krfl)) (lo := xr11)) ⟨.refl, .refl, E, h_rax, h_rcx, h_r8, h_r9, by omega⟩ ?_
  rintro ⟨a, xrax1, xrcx1, xr81, xr91⟩ ⟨g1, y1, cf, zf, m⟩ ⟨hg1, hy1, E, h_rax, h_rcx, h_r8, h_r9, b_J1⟩
  have h_rsi := (hg1 rsi rfl).trans h_rsi
  have h_r11 := (hg1 r11 rfl).trans h_r11
  have h_rdi := (hg1 rdi rfl).trans h_rdi
  have h_rdx := (hg1 rdx rfl).trans h_rdx
  have h_r10 := (hg1 r10 rfl).trans h_r10
  have hv4 := (hy1 4 rfl).trans hv4
  replace hg : Agree [rax, rcx, rsi, r8, r9, r11] g0 g1 := Agree.trans rfl (by agree hg) hg1
  replace hy : Agree [0, 1, 2, 3, 5] y0 y1 := Agree.trans rfl (by agree hy) hy1
  clear hg1 hy1
  refine Sim.shl fun cf zf => ?_
  have h_r11 := cnt_shl1 h_r11
  refine Sim.gen fun g hgg => ?_
  replace h_rsi := (congrFun hgg rsi).trans h_rsi
  replace h_r11 := (congrFun hgg r11).trans h_r11
  replace h_rdi := (congrFun hgg rdi).trans h_rdi
  replace h_rdx := (congrFun hgg rdx).trans h_rdx
  replace h_r10 := (congrFun hgg r10).trans h_r10
  replace h_rax := (congrFun hgg rax).trans h_rax
  replace h_rcx := (congrFun hgg rcx).trans h_rcx
  replace h_r8 := (congrFun hgg r8).trans h_r8
  replace h_r9 := (congrFun hgg r9).trans h_r9
  replace hg : Agree [rax, rcx, rsi, r8, r9, r11] g0 g := Agree.of_eq hgg (by agree hg)
  clear hgg
  refine Sim.cmpi_jcc codeAt_mgs_r2s_size32_loop (Cmp.cnt (by omega) (by omega) h_rsi rfl) (fun hc cf zf => ?_) (fun hc cf zf => ?_)
  · have hc' : _ ≠ _ := hc
    exact Sim.again (decide_eq_true hc) ⟨by agree hg, by agree hy, E, h_rsi, h_r11, by omega⟩
  · have hc' : ¬ (_ ≠ _) := hc
    exact Sim.done (decide_eq_false hc) ⟨by agree hg, by agree hy, E, h_rsi, h_r11, trivial⟩

def mgs_r2s_loop0_I (A : Word) (n : Nat) (m0 : Memory) (g0 : Nat → Word) (y0 : Nat → V8) (P : Word) :
    Array Int × Nat × Nat × Nat × Nat → State → Prop
  | (a, xrax, xr8, xr9, xr10), s =>
    Agree [rax, r8, r9, r10] g0 s.gpr ∧ Agree [0, 1, 2, 3, 5] y0 s.ymm ∧ Env A n m0 s.mem a ∧
    s.gpr rax = A + BitVec.ofNat 64 xrax ∧ s.gpr r8 = P + BitVec.ofNat 64 xr8 ∧ s.gpr r9 = P + BitVec.ofNat 64 xr9 ∧ s.gpr r10 = P + BitVec.ofNat 64 xr10 ∧ True

def mgs_r2s_loop0_J (A : Word) (n : Nat) (m0 : Memory) (g0 : Nat → Word) (y0 : Nat → V8) (P : Word) :
    Array Int × Nat × Nat × Nat × Nat → State → Prop
  | (a, xrax, xr8, xr9, xr10), s =>
    Agree [rax, r8, r9, r10] g0 s.gpr ∧ Agree [0, 1, 2, 3, 5] y0 s.ymm ∧ Env A n m0 s.mem a ∧
    s.gpr rax = A + BitVec.ofNat 64 xrax ∧ s.gpr r8 = P + BitVec.ofNat 64 xr8 ∧ s.gpr r9 = P + BitVec.ofNat 64 xr9 ∧ s.gpr r10 = P + BitVec.ofNat 64 xr10 ∧ True

theorem mgs_r2s_loop0_sim {K : Machine} {A : Word} {n : Nat} {m0 : Memory} {g0 : Nat → Word} {y0 : Nat → V8} (H : Host K A n m0) {P
    : Word} {p : Array Int} (TP : Tab K A n m0 P p) {xrcx : Nat} (h_rcx : g0 rcx = A + BitVec.ofNat 64 xrcx) (b_rcx : xrcx < 2 ^ 37)
    {v4 : V8} (hv4 : y0 4 = v4) {v6 : V8} (hv6 : y0 6 = v6) :
    ∀ st s, mgs_r2s_loop0_I A n m0 g0 y0 P st s →
      Sim K (Asm.mgs_r2s_loop0 p xrcx v4 v6 st) Text.mgs_r2s_loop0 s (LoopPost (mgs_r2s_loop0_I A n m0 g0 y0 P) (mgs_r2s_loop0_J A n m0 g0 y0 P) Text.mgs_r2s_loop0 Text.mgs_r2s_loop0_exit) := by
  have hn := H.hn
  rintro ⟨a, xrax, xr8, xr9, xr10⟩ ⟨g, y, cf, zf, m⟩ ⟨hg, hy, E, h_rax, h_r8, h_r9, h_r10, b_I⟩
  replace h_rcx := (hg rcx rfl).trans h_rcx
  obtain rfl := (hy 4 rfl).trans hv4
  obtain rfl := (hy 6 rfl).trans hv6
  unfold Asm.mgs_r2s_loop0
  refine Sim.load_sxwq TP E (ea_at h_r8) fun v _ => ?_
  refine Sim.load H E (ea_at h_rax) fun v b_816 => ?_
  refine Sim.vec ?_
  refine Sim.vec ?_
  refine Sim.vec ?_
  refine Sim.vec ?_
  refine Sim.vec ?_
  refine Sim.vec ?_
  refine Sim.vec ?_
  refine Sim.vec ?_
  refine Sim.vec ?_
  refine Sim.load_sxwq128 TP E (ea_at h_r9) fun v _ => ?_
  refine Sim.vec ?_
  refine Sim.vec ?_
  refine Sim.vec ?_
  refine Sim.vec ?_
  refine Sim.vec ?_
  refine Sim.vec ?_
  refine Sim.vec ?_
  refine Sim.vec ?_
  refine Sim.vec ?_
  refine Sim.vec ?_
  refine Sim.vec ?_
  refine Sim.load_bdcstw TP E (ea_at h_r10) fun v _ => ?_
  refine Sim.vec ?_
  refine Sim.vec ?_
  refine Sim.vec ?_
  refine Sim.vec ?_
  refine Sim.vec ?_
  refine Sim.vec ?_
  refine Sim.vec ?_
  refine Sim.vec ?_
  refine Sim.vec ?_
  refine Sim.vec ?_
  refine Sim.vec ?_
  refine Sim.vec ?_
  refine Sim.vec ?_
  refine Sim.vec ?_
  refine Sim.store H E (ea_at h_rax) (by krfl) fun a m E b_853 => ?_
  refine Sim.addi fun cf zf => ?_
  have h_rax := ptr_addi (k := 32) h_rax
  refine Sim.gen fun g hgg => ?_
  replace h_rax := (congrFun hgg rax).trans h_rax
  replace h_r8 := (congrFun hgg r8).trans h_r8
  replace h_r9 := (congrFun hgg r9).trans h_r9
  replace h_r10 := (congrFun hgg r10).trans h_r10
  replace h_rcx := (congrFun hgg rcx).trans h_rcx
  replace hg : Agree [rax, r8, r9, r10] g0 g := Agree.of_eq hgg (by agree hg)
  clear hgg
  refine Sim.addi fun cf zf => ?_
  have h_r8 := ptr_addi (k := 8) h_r8
  refine Sim.gen fun g hgg => ?_
  replace h_rax := (congrFun hgg rax).trans h_rax
  replace h_r8 := (congrFun hgg r8).trans h_r8
  replace h_r9 := (congrFun hgg r9).trans h_r9
  replace h_r10 := (congrFun hgg r10).trans h_r10
  replace h_rcx := (congrFun hgg rcx).trans h_rcx
  replace hg : Agree [rax, r8, r9, r10] g0 g := Agree.of_eq hgg (by agree hg)
  clear hgg
  refine Sim.addi fun cf zf => ?_
  have h_r9 := ptr_addi (k := 4) h_r9
  refine Sim.gen fun g hgg => ?_
  replace h_rax := (congrFun hgg rax).trans h_rax
  replace h_r8 := (congrFun hgg r8).trans h_r8
  replace h_r9 := (congrFun hgg r9).trans h_r9
  replace h_r10 := (congrFun hgg r10).trans h_r10
  replace h_rcx := (congrFun hgg rcx).trans h_rcx
  replace hg : Agree [rax, r8, r9, r10] g0 g := Agree.of_eq hgg (by agree hg)
  clear hgg
  refine Sim.addi fun cf zf => ?_
  have h_r10 := ptr_addi (k := 2) h_r10
  refine Sim.gen fun g hgg => ?_
  replace h_rax := (congrFun hgg rax).trans h_rax
  replace h_r8 := (congrFun hgg r8).trans h_r8
  replace h_r9 := (congrFun hgg r9).trans h_r9
  replace h_r10 := (congrFun hgg r10).trans h_r10
  replace h_rcx := (congrFun hgg rcx).trans h_rcx
  replace hg : Agree [rax, r8, r9, r10] g0 g := Agree.of_eq hgg (by agree hg)
  clear hgg
  refine Sim.cmp_jcc codeAt_mgs_r2s_loop0 (Cmp.ptr H.hA (by omega) (by omega) h_rax h_rcx) (fun hc cf zf => ?_) (fun hc cf zf => ?_)
  · have hc' : _ < _ := hc
    exact Sim.again (decide_eq_true hc) ⟨by agree hg, by agree hy, E, h_rax, h_r8, h_r9, h_r10, trivial⟩
  · have hc' : ¬ (_ < _) := hc
    exact Sim.done (decide_eq_false hc) ⟨by agree hg, by agree hy, E, h_rax, h_r8, h_r9, h_r10, trivial⟩

theorem nttmul_red_gs_rev2std_asm_sim {K : Machine} {A : Word} {n : Nat} {m0 : Memory} {g : Nat → Word} {y : Nat → V8} (H : Host K A
    n m0) (h_rdi : g rdi = A + BitVec.ofNat 64 0) (h_rsi : g rsi = BitVec.ofNat 64 n) {P : Word} {p : Array Int} (TP : Tab K A n m0
    P p) (h_rdx : g rdx = P + BitVec.ofNat 64 0) {a : Array Int} {g0 : Nat → Word} {cf zf : Bool} {m : Memory} (hg : Agree [rax,
    rcx, rdx, rsi, rdi, r8, r9, r10, r11] g0 g) (E : Env A n m0 m a) :
    Sim K (Asm.nttmul_red_gs_rev2std_asm a n p) Text.nttmul_red_gs_rev2std_asm ⟨g, y, cf, zf, m⟩ (RetPost A n m0 g0) := by
  have hn := H.hn
  unfold Asm.nttmul_red_gs_rev2std_asm
  refine Sim.lea ?_
  have h_rcx := ea_ix (k := 4) (c := 0) h_rdi h_rsi
  refine Sim.gen fun g hgg => ?_
  replace h_rdi := (congrFun hgg rdi).trans h_rdi
  replace h_rsi := (congrFun hgg rsi).trans h_rsi
  replace h_rdx := (congrFun hgg rdx).trans h_rdx
  replace h_rcx := (congrFun hgg rcx).trans h_rcx
  replace hg : Agree [rax, rcx, rdx, rsi, rdi, r8, r9, r10, r11] g0 g := Agree.of_eq hgg (by agree hg)
  clear hgg
  refine Sim.lea ?_
  have h_r8 := ea_ix1 (c := 0) h_rdx h_rsi
  refine Sim.gen fun g hgg => ?_
  replace h_rdi := (congrFun hgg rdi).trans h_rdi
  replace h_rsi := (congrFun hgg rsi).trans h_rsi
  replace h_rdx := (congrFun hgg rdx).trans h_rdx
  replace h_rcx := (congrFun hgg rcx).trans h_rcx
  replace h_r8 := (congrFun hgg r8).trans h_r8
  replace hg : Agree [rax, rcx, rdx, rsi, rdi, r8, r9, r10, r11] g0 g := Agree.of_eq hgg (by agree hg)
  clear hgg
  refine Sim.shr fun cf zf => ?_
  have h_rsi := cnt_shr1 h_rsi (by omega)
  refine Sim.gen fun g hgg => ?_
  replace h_rdi := (congrFun hgg rdi).trans h_rdi
  replace h_rsi := (congrFun hgg rsi).trans h_rsi
  replace h_rdx := (congrFun hgg rdx).trans h_rdx
  replace h_rcx := (congrFun hgg rcx).trans h_rcx
  replace h_r8 := (congrFun hgg r8).trans h_r8
  replace hg : Agree [rax, rcx, rdx, rsi, rdi, r8, r9, r10, r11] g0 g := Agree.of_eq hgg (by agree hg)
  clear hgg
  refine Sim.lea ?_
  have h_r9 := ea_ix1 (c := 0) h_rdx h_rsi
  refine Sim.gen fun g hgg => ?_
  replace h_rdi := (congrFun hgg rdi).trans h_rdi
  replace h_rsi := (congrFun hgg rsi).trans h_rsi
  replace h_rdx := (congrFun hgg rdx).trans h_rdx
  replace h_rcx := (congrFun hgg rcx).trans h_rcx
  replace h_r8 := (congrFun hgg r8).trans h_r8
  replace h_r9 := (congrFun hgg r9).trans h_r9
  replace hg : Agree [rax, rcx, rdx, rsi, rdi, r8, r9, r10, r11] g0 g := Agree.of_eq hgg (by agree hg)
  clear hgg
  refine Sim.shr fun cf zf => ?_
  have h_rsi := cnt_shr1 h_rsi (by omega)
  refine Sim.gen fun g hgg => ?_
  replace h_rdi := (congrFun hgg rdi).trans h_rdi
  replace h_rsi := (congrFun hgg rsi).trans h_rsi
  replace h_rdx := (congrFun hgg rdx).trans h_rdx
  replace h_rcx := (congrFun hgg rcx).trans h_rcx
  replace h_r8 := (congrFun hgg r8).trans h_r8
  replace h_r9 := (congrFun hgg r9).trans h_r9
  replace hg : Agree [rax, rcx, rdx, rsi, rdi, r8, r9, r10, r11] g0 g := Agree.of_eq hgg (by agree hg)
  clear hgg
  refine Sim.lea ?_
  have h_r10 := ea_ix1 (c := 0) h_rdx h_rsi
  refine Sim.gen fun g hgg => ?_
  replace h_rdi := (congrFun hgg rdi).trans h_rdi
  replace h_rsi := (congrFun hgg rsi).trans h_rsi
  replace h_rdx := (congrFun hgg rdx).trans h_rdx
  replace h_rcx := (congrFun hgg rcx).trans h_rcx
  replace h_r8 := (congrFun hgg r8).trans h_r8
  replace h_r9 := (congrFun hgg r9).trans h_r9
  replace h_r10 := (congrFun hgg r10).trans h_r10
  replace hg : Agree [rax, rcx, rdx, rsi, rdi, r8, r9, r10, r11] g0 g := Agree.of_eq hgg (by agree hg)
  clear hgg
  refine Sim.mov ?_
  have h_rax := h_rdi
  refine Sim.gen fun g hgg => ?_
  replace h_rdi := (congrFun hgg rdi).trans h_rdi
  replace h_rsi := (congrFun hgg rsi).trans h_rsi
  replace h_rdx := (congrFun hgg rdx).trans h_rdx
  replace h_rcx := (congrFun hgg rcx).trans h_rcx
  replace h_r8 := (congrFun hgg r8).trans h_r8
  replace h_r9 := (congrFun hgg r9).trans h_r9
  replace h_r10 := (congrFun hgg r10).trans h_r10
  replace h_rax := (congrFun hgg rax).trans h_rax
  replace hg : Agree [rax, rcx, rdx, rsi, rdi, r8, r9, r10, r11] g0 g := Agree.of_eq hgg (by agree hg)
  clear hgg
  refine Sim.const H E ?_
  refine Sim.const H E ?_
  refine Sim.label ?_
  refine Sim.geny fun y hyy => ?_
  have hv4 := congrFun hyy 4
  have hv5 := congrFun hyy 5
  have hv6 := congrFun hyy 6
  clear hyy
  refine Sim.loop (mgs_r2s_loop0_sim H TP h_rcx (by omega) (hv4.trans (by krfl)) (hv6.trans (by krfl))) ⟨.refl, .refl, E, h_rax, h_r8, h_r9, h_r10, trivial⟩ ?_
  rintro ⟨a, xrax1, xr81, xr91, xr101⟩ ⟨g1, y1, cf, zf, m⟩ ⟨hg1, hy1, E, h_rax, h_r8, h_r9, h_r10, b_J1⟩
  have h_rdi := (hg1 rdi rfl).trans h_rdi
  have h_rsi := (hg1 rsi rfl).trans h_rsi
  have h_rdx := (hg1 rdx rfl).trans h_rdx
  have h_rcx := (hg1 rcx rfl).trans h_rcx
  have hv4 := (hy1 4 rfl).trans hv4
  have hv6 := (hy1 6 rfl).trans hv6
  replace hg : Agree [rax, rcx, rdx, rsi, rdi, r8, r9, r10, r11] g0 g1 := Agree.trans rfl (by agree hg) hg1
  clear hg1 hy1
  refine Sim.mov ?_
  have h_rax := h_rdi
  refine Sim.gen fun g hgg => ?_
  replace h_rdi := (congrFun hgg rdi).trans h_rdi
  replace h_rsi := (congrFun hgg rsi).trans h_rsi
  replace h_rdx := (congrFun hgg rdx).trans h_rdx
  replace h_rcx := (congrFun hgg rcx).trans h_rcx
  replace h_r8 := (congrFun hgg r8).trans h_r8
  replace h_r9 := (congrFun hgg r9).trans h_r9
  replace h_r10 := (congrFun hgg r10).trans h_r10
  replace h_rax := (congrFun hgg rax).trans h_rax
  replace hg : Agree [rax, rcx, rdx, rsi, rdi, r8, r9, r10, r11] g0 g := Agree.of_eq hgg (by agree hg)
  clear hgg
  refine Sim.shr fun cf zf => ?_
  have h_rsi := cnt_shr1 h_rsi (by omega)
  refine Sim.gen fun g hgg => ?_
  replace h_rdi := (congrFun hgg rdi).trans h_rdi
  replace h_rsi := (congrFun hgg rsi).trans h_rsi
  replace h_rdx := (congrFun hgg rdx).trans h_rdx
  replace h_rcx := (congrFun hgg rcx).trans h_rcx
  replace h_r8 := (congrFun hgg r8).trans h_r8
  replace h_r9 := (congrFun hgg r9).trans h_r9
  replace h_r10 := (congrFun hgg r10).trans h_r10
  replace h_rax := (congrFun hgg rax).trans h_rax
  replace hg : Agree [rax, rcx, rdx, rsi, rdi, r8, r9, r10, r11] g0 g := Agree.of_eq hgg (by agree hg)
  clear hgg
  refine Sim.lea ?_
  have h_r9 := ea_ix1 (c := 0) h_rdx h_rsi
  refine Sim.gen fun g hgg => ?_
  replace h_rdi := (congrFun hgg rdi).trans h_rdi
  replace h_rsi := (congrFun hgg rsi).trans h_rsi
  replace h_rdx := (congrFun hgg rdx).trans h_rdx
  replace h_rcx := (congrFun hgg rcx).trans h_rcx
  replace h_r8 := (congrFun hgg r8).trans h_r8
  replace h_r9 := (congrFun hgg r9).trans h_r9
  replace h_r10 := (congrFun hgg r10).trans h_r10
  replace h_rax := (congrFun hgg rax).trans h_rax
  replace hg : Agree [rax, rcx, rdx, rsi, rdi, r8, r9, r10, r11] g0 g := Agree.of_eq hgg (by agree hg)
  clear hgg
  refine Sim.label ?_
  refine Sim.geny fun y hyy => ?_
  replace hv4 := (congrFun hyy 4).trans hv4
  have hv5 := congrFun hyy 5
  replace hv6 := (congrFun hyy 6).trans hv6
  clear hyy
  refine Sim.loop (mgs_r2s_size16_loop_sim H TP h_rcx (by omega) (hv4.trans (by krfl))) ⟨.refl, .refl, E, h_rax, h_r9, trivial⟩ ?_
  rintro ⟨a, xrax2, xr92⟩ ⟨g2, y2, cf, zf, m⟩ ⟨hg2, hy2, E, h_rax, h_r9, b_J2⟩
  have h_rdi := (hg2 rdi rfl).trans h_rdi
  have h_rsi := (hg2 rsi rfl).trans h_rsi
  have h_rdx := (hg2 rdx rfl).trans h_rdx
  have h_rcx := (hg2 rcx rfl).trans h_rcx
  have h_r8 := (hg2 r8 rfl).trans h_r8
  have h_r10 := (hg2 r10 rfl).trans h_r10
  have hv4 := (hy2 4 rfl).trans hv4
  have hv6 := (hy2 6 rfl).trans hv6
  replace hg : Agree [rax, rcx, rdx, rsi, rdi, r8, r9, r10, r11] g0 g2 := Agree.trans rfl (by agree hg) hg2
  clear hg2 hy2
  refine Sim.cmpi_jcc codeAt_mgs_r2s_done (Cmp.cnt (by omega) (by omega) h_rsi rfl) (fun hc cf zf => ?_) (fun hc cf zf => ?_)
  · have hc' : _ = _ := hc
    refine Sim.if_pos hc ?_
    exact Sim.stop ⟨⟨_, rfl⟩, E, by agree hg⟩
  · have hc' : ¬ (_ = _) := hc
    refine Sim.if_neg hc ?_
    refine Sim.mov ?_
    have h_r10 := h_rcx
    refine Sim.gen fun g hgg => ?_
    replace h_rdi := (congrFun hgg rdi).trans h_rdi
    replace h_rsi := (congrFun hgg rsi).trans h_rsi
    replace h_rdx := (congrFun hgg rdx).trans h_rdx
    replace h_rcx := (congrFun hgg rcx).trans h_rcx
    replace h_r8 := (congrFun hgg r8).trans h_r8
    replace h_r9 := (congrFun hgg r9).trans h_r9
    replace h_r10 := (congrFun hgg r10).trans h_r10
    replace h_rax := (congrFun hgg rax).trans h_rax
    replace hg : Agree [rax, rcx, rdx, rsi, rdi, r8, r9, r10, r11] g0 g := Agree.of_eq hgg (by agree hg)
    clear hgg
    refine Sim.movi ?_
    have h_r11 : BitVec.ofNat 64 64 = BitVec.ofNat 64 64 := rfl
    refine Sim.gen fun g hgg => ?_
    replace h_rdi := (congrFun hgg rdi).trans h_rdi
    replace h_rsi := (congrFun hgg rsi).trans h_rsi
    replace h_rdx := (congrFun hgg rdx).trans h_rdx
    replace h_rcx := (congrFun hgg rcx).trans h_rcx
    replace h_r8 := (congrFun hgg r8).trans h_r8
    replace h_r9 := (congrFun hgg r9).trans h_r9
    replace h_r10 := (congrFun hgg r10).trans h_r10
    replace h_rax := (congrFun hgg rax).trans h_rax
    replace h_r11 := (congrFun hgg r11).trans h_r11
    replace hg : Agree [rax, rcx, rdx, rsi, rdi, r8, r9, r10, r11] g0 g := Agree.of_eq hgg (by agree hg)
    clear hgg
    refine Sim.label ?_
    refine Sim.geny fun y hyy => ?_
    replace hv4 := (congrFun hyy 4).trans hv4
    have hv5 := congrFun hyy 5
    replace hv6 := (congrFun hyy 6).trans hv6
    clear hyy
    refine Sim.loop (mgs_r2s_size32_loop_sim H TP h_rdi (by omega) h_rdx h_r10 (by omega) (hv4.trans (by krfl))) ⟨.refl, .refl, E, h_rsi, h_r11, by omega⟩ ?_
    rintro ⟨a, xrsi3, xr113⟩ ⟨g3, y3, cf, zf, m⟩ ⟨hg3, hy3, E, h_rsi, h_r11, b_J3⟩
    have h_rdi := (hg3 rdi rfl).trans h_rdi
    have h_rdx := (hg3 rdx rfl).trans h_rdx
    have h_r10 := (hg3 r10 rfl).trans h_r10
    have hv4 := (hy3 4 rfl).trans hv4
    have hv6 := (hy3 6 rfl).trans hv6
    replace hg : Agree [rax, rcx, rdx, rsi, rdi, r8, r9, r10, r11] g0 g3 := Agree.trans rfl (by agree hg) hg3
    clear hg3 hy3
    refine Sim.label ?_
    exact Sim.stop ⟨⟨_, rfl⟩, E, by agree hg⟩

end X86
