import Verif.Proofs.MachText

/-
Execution of the text of src/ntt_asm.S follows the model.  Generated by tools/genmach.py.
-/

namespace X86
open C Avx Spec

def gs_s2r_inner_loop_I (A : Word) (n : Nat) (m0 : Memory) (g0 : Nat → Word) (y0 : Nat → V8) :
    Array Int × Nat × Nat → State → Prop
  | (a, xrax, xrcx), s =>
    Agree [rax, rcx] g0 s.gpr ∧ Agree [0, 1, 2, 3] y0 s.ymm ∧ Env A n m0 s.mem a ∧
    s.gpr rax = A + BitVec.ofNat 64 xrax ∧ s.gpr rcx = A + BitVec.ofNat 64 xrcx ∧ True

def gs_s2r_inner_loop_J (A : Word) (n : Nat) (m0 : Memory) (g0 : Nat → Word) (y0 : Nat → V8) :
    Array Int × Nat × Nat → State → Prop
  | (a, xrax, xrcx), s =>
    Agree [rax, rcx] g0 s.gpr ∧ Agree [0, 1, 2, 3] y0 s.ymm ∧ Env A n m0 s.mem a ∧
    s.gpr rax = A + BitVec.ofNat 64 xrax ∧ s.gpr rcx = A + BitVec.ofNat 64 xrcx ∧ True

theorem gs_s2r_inner_loop_sim {K : Machine} {A : Word} {n : Nat} {m0 : Memory} {g0 : Nat → Word} {y0 : Nat → V8} (H : Host K A n m0)
    {xrsi : Nat} (h_rsi : g0 rsi = BitVec.ofNat 64 xrsi) (b_rsi : xrsi < 2 ^ 34) {xr11 : Nat} (h_r11 : g0 r11 = A + BitVec.ofNat 64
    xr11) (b_r11 : xr11 < 2 ^ 37) {v4 : V8} (hv4 : y0 4 = v4) {v5 : V8} (hv5 : y0 5 = v5) {v6 : V8} (hv6 : y0 6 = v6) :
    ∀ st s, gs_s2r_inner_loop_I A n m0 g0 y0 st s →
      Sim K (Asm.gs_s2r_inner_loop xrsi xr11 v4 v5 v6 st) Text.gs_s2r_inner_loop s (LoopPost (gs_s2r_inner_loop_I A n m0 g0 y0) (gs_s2r_inner_loop_J A n m0 g0 y0) Text.gs_s2r_inner_loop Text.gs_s2r_inner_loop_exit) := by
  have hn := H.hn
  rintro ⟨a, xrax, xrcx⟩ ⟨g, y, cf, zf, m⟩ ⟨hg, hy, E, h_rax, h_rcx, b_I⟩
  replace h_rsi := (hg rsi rfl).trans h_rsi
  replace h_r11 := (hg r11 rfl).trans h_r11
  obtain rfl := (hy 4 rfl).trans hv4
  obtain rfl := (hy 5 rfl).trans hv5
  obtain rfl := (hy 6 rfl).trans hv6
  unfold Asm.gs_s2r_inner_loop
  refine Sim.load H E (ea_at h_rax) fun v b_950 => ?_
  refine Sim.load H E (ea_at h_rcx) fun v b_951 => ?_
  refine Sim.vec ?_
  refine Sim.vec ?_
  refine Sim.vec ?_
  refine Sim.vec ?_
  refine Sim.vec ?_
  refine Sim.vec ?_
  refine Sim.vec ?_
  refine Sim.vec ?_
  refine Sim.vec ?_
  refine Sim.vec ?_
  refine Sim.vec ?_
  refine Sim.vec ?_
  refine Sim.vec ?_
  refine Sim.vec ?_
  refine Sim.vec ?_
  refine Sim.store H E (ea_at h_rax) (by krfl) fun a m E b_967 => ?_
  refine Sim.store H E (ea_at h_rcx) (by krfl) fun a m E b_968 => ?_
  refine Sim.lea ?_
  have h_rax := ea_ix (k := 4) (c := 0) h_rax h_rsi
  refine Sim.gen fun g hgg => ?_
  replace h_rax := (congrFun hgg rax).trans h_rax
  replace h_rcx := (congrFun hgg rcx).trans h_rcx
  replace h_rsi := (congrFun hgg rsi).trans h_rsi
  replace h_r11 := (congrFun hgg r11).trans h_r11
  replace hg : Agree [rax, rcx] g0 g := Agree.of_eq hgg (by agree hg)
  clear hgg
  refine Sim.lea ?_
  have h_rcx := ea_ix (k := 4) (c := 0) h_rcx h_rsi
  refine Sim.gen fun g hgg => ?_
  replace h_rax := (congrFun hgg rax).trans h_rax
  replace h_rcx := (congrFun hgg rcx).trans h_rcx
  replace h_rsi := (congrFun hgg rsi).trans h_rsi
  replace h_r11 := (congrFun hgg r11).trans h_r11
  replace hg : Agree [rax, rcx] g0 g := Agree.of_eq hgg (by agree hg)
  clear hgg
  refine Sim.cmp_jcc codeAt_gs_s2r_inner_loop (Cmp.ptr H.hA (by omega) (by omega) h_rax h_r11) (fun hc cf zf => ?_) (fun hc cf zf => ?_)
  · have hc' : _ < _ := hc
    exact Sim.again (decide_eq_true hc) ⟨by agree hg, by agree hy, E, h_rax, h_rcx, trivial⟩
  · have hc' : ¬ (_ < _) := hc
    exact Sim.done (decide_eq_false hc) ⟨by agree hg, by agree hy, E, h_rax, h_rcx, trivial⟩

def gs_s2r_loop_I (A : Word) (n : Nat) (m0 : Memory) (g0 : Nat → Word) (y0 : Nat → V8) (P : Word) :
    Array Int × Nat × Nat → State → Prop
  | (a, xr8, xr9), s =>
    Agree [rax, rcx, r8, r9] g0 s.gpr ∧ Agree [0, 1, 2, 3, 5, 6] y0 s.ymm ∧ Env A n m0 s.mem a ∧
    s.gpr r8 = A + BitVec.ofNat 64 xr8 ∧ s.gpr r9 = P + BitVec.ofNat 64 xr9 ∧ xr8 < 2 ^ 37

def gs_s2r_loop_J (A : Word) (n : Nat) (m0 : Memory) (g0 : Nat → Word) (y0 : Nat → V8) (P : Word) :
    Array Int × Nat × Nat → State → Prop
  | (a, xr8, xr9), s =>
    Agree [rax, rcx, r8, r9] g0 s.gpr ∧ Agree [0, 1, 2, 3, 5, 6] y0 s.ymm ∧ Env A n m0 s.mem a ∧
    s.gpr r8 = A + BitVec.ofNat 64 xr8 ∧ s.gpr r9 = P + BitVec.ofNat 64 xr9 ∧ True

theorem gs_s2r_loop_sim {K : Machine} {A : Word} {n : Nat} {m0 : Memory} {g0 : Nat → Word} {y0 : Nat → V8} (H : Host K A n m0) {P :
    Word} {p : Array Int} (TP : Tab K A n m0 P p) {xrsi : Nat} (h_rsi : g0 rsi = BitVec.ofNat 64 xrsi) (b_rsi : xrsi < 2 ^ 34) {xr10
    : Nat} (h_r10 : g0 r10 = A + BitVec.ofNat 64 xr10) (b_r10 : xr10 < 2 ^ 37) {xr11 : Nat} (h_r11 : g0 r11 = A + BitVec.ofNat 64
    xr11) (b_r11 : xr11 < 2 ^ 37) {v4 : V8} (hv4 : y0 4 = v4) :
    ∀ st s, gs_s2r_loop_I A n m0 g0 y0 P st s →
      Sim K (Asm.gs_s2r_loop p n xrsi xr10 xr11 v4 st) Text.gs_s2r_loop s (LoopPost (gs_s2r_loop_I A n m0 g0 y0 P) (gs_s2r_loop_J A n m0 g0 y0 P) Text.gs_s2r_loop Text.gs_s2r_loop_exit) := by
  have hn := H.hn
  rintro ⟨a, xr8, xr9⟩ ⟨g, y, cf, zf, m⟩ ⟨hg, hy, E, h_r8, h_r9, b_I⟩
  replace h_rsi := (hg rsi rfl).trans h_rsi
  replace h_r10 := (hg r10 rfl).trans h_r10
  replace h_r11 := (hg r11 rfl).trans h_r11
  obtain rfl := (hy 4 rfl).trans hv4
  unfold Asm.gs_s2r_loop
  refine Sim.load_sxwd TP E (ea_at h_r9) fun v _ => ?_
  refine Sim.vec ?_
  refine Sim.mov ?_
  have h_rax := h_r8
  refine Sim.gen fun g hgg => ?_
  replace h_r8 := (congrFun hgg r8).trans h_r8
  replace h_r9 := (congrFun hgg r9).trans h_r9
  replace h_rsi := (congrFun hgg rsi).trans h_rsi
  replace h_r10 := (congrFun hgg r10).trans h_r10
  replace h_r11 := (congrFun hgg r11).trans h_r11
  replace h_rax := (congrFun hgg rax).trans h_rax
  replace hg : Agree [rax, rcx, r8, r9] g0 g := Agree.of_eq hgg (by agree hg)
  clear hgg
  refine Sim.lea ?_
  have h_rcx := ea_ix (k := 2) (c := 0) h_r8 h_rsi
  refine Sim.gen fun g hgg => ?_
  replace h_r8 := (congrFun hgg r8).trans h_r8
  replace h_r9 := (congrFun hgg r9).trans h_r9
  replace h_rsi := (congrFun hgg rsi).trans h_rsi
  replace h_r10 := (congrFun hgg r10).trans h_r10
  replace h_r11 := (congrFun hgg r11).trans h_r11
  replace h_rax := (congrFun hgg rax).trans h_rax
  replace h_rcx := (congrFun hgg rcx).trans h_rcx
  replace hg : Agree [rax, rcx, r8, r9] g0 g := Agree.of_eq hgg (by agree hg)
  clear hgg
  refine Sim.label ?_
  refine Sim.geny fun y hyy => ?_
  have hv4 := congrFun hyy 4
  have hv5 := congrFun hyy 5
  have hv6 := congrFun hyy 6
  replace hy : Agree [0, 1, 2, 3, 5, 6] y0 y := Agree.of_eq hyy (by agree hy)
  clear hyy
  refine Sim.loop (gs_s2r_inner_loop_sim H h_rsi (by omega) h_r11 (by omega) (hv4.trans (by krfl)) (hv5.trans (by krfl)) (hv6.trans (by krfl))) ⟨.refl, .refl, E, h_rax, h_rcx, trivial⟩ ?_
  rintro ⟨a, xrax1, xrcx1⟩ ⟨g1, y1, cf, zf, m⟩ ⟨hg1, hy1, E, h_rax, h_rcx, b_J1⟩
  have h_r8 := (hg1 r8 rfl).trans h_r8
  have h_r9 := (hg1 r9 rfl).trans h_r9
  have h_rsi := (hg1 rsi rfl).trans h_rsi
  have h_r10 := (hg1 r10 rfl).trans h_r10
  have h_r11 := (hg1 r11 rfl).trans h_r11
  have hv4 := (hy1 4 rfl).trans hv4
  have hv5 := (hy1 5 rfl).trans hv5
  have hv6 := (hy1 6 rfl).trans hv6
  replace hg : Agree [rax, rcx, r8, r9] g0 g1 := Agree.trans rfl (by agree hg) hg1
  replace hy : Agree [0, 1, 2, 3, 5, 6] y0 y1 := Agree.trans rfl (by agree hy) hy1
  clear hg1 hy1
  refine Sim.addi fun cf zf => ?_
  have h_r8 := ptr_addi (k := 32) h_r8
  refine Sim.gen fun g hgg => ?_
  replace h_r8 := (congrFun hgg r8).trans h_r8
  replace h_r9 := (congrFun hgg r9).trans h_r9
  replace h_rsi := (congrFun hgg rsi).trans h_rsi
  replace h_r10 := (congrFun hgg r10).trans h_r10
  replace h_r11 := (congrFun hgg r11).trans h_r11
  replace h_rax := (congrFun hgg rax).trans h_rax
  replace h_rcx := (congrFun hgg rcx).trans h_rcx
  replace hg : Agree [rax, rcx, r8, r9] g0 g := Agree.of_eq hgg (by agree hg)
  clear hgg
  refine Sim.addi fun cf zf => ?_
  have h_r9 := ptr_addi (k := 16) h_r9
  refine Sim.gen fun g hgg => ?_
  replace h_r8 := (congrFun hgg r8).trans h_r8
  replace h_r9 := (congrFun hgg r9).trans h_r9
  replace h_rsi := (congrFun hgg rsi).trans h_rsi
  replace h_r10 := (congrFun hgg r10).trans h_r10
  replace h_r11 := (congrFun hgg r11).trans h_r11
  replace h_rax := (congrFun hgg rax).trans h_rax
  replace h_rcx := (congrFun hgg rcx).trans h_rcx
  replace hg : Agree [rax, rcx, r8, r9] g0 g := Agree.of_eq hgg (by agree hg)
  clear hgg
  refine Sim.cmp_jcc codeAt_gs_s2r_loop (Cmp.ptr H.hA (by omega) (by omega) h_r8 h_r10) (fun hc cf zf => ?_) (fun hc cf zf => ?_)
  · have hc' : _ < _ := hc
    exact Sim.again (decide_eq_true hc) ⟨by agree hg, by agree hy, E, h_r8, h_r9, by omega⟩
  · have hc' : ¬ (_ < _) := hc
    exact Sim.done (decide_eq_false hc) ⟨by agree hg, by agree hy, E, h_r8, h_r9, trivial⟩

def gs_s2r_main_I (A : Word) (n : Nat) (m0 : Memory) (g0 : Nat → Word) (y0 : Nat → V8) :
    Array Int × Nat → State → Prop
  | (a, xrsi), s =>
    Agree [rax, rcx, rsi, r8, r9, r10] g0 s.gpr ∧ Agree [0, 1, 2, 3, 5, 6] y0 s.ymm ∧ Env A n m0 s.mem a ∧
    s.gpr rsi = BitVec.ofNat 64 xrsi ∧ xrsi < 2 ^ 34

def gs_s2r_main_J (A : Word) (n : Nat) (m0 : Memory) (g0 : Nat → Word) (y0 : Nat → V8) :
    Array Int × Nat → State → Prop
  | (a, xrsi), s =>
    Agree [rax, rcx, rsi, r8, r9, r10] g0 s.gpr ∧ Agree [0, 1, 2, 3, 5, 6] y0 s.ymm ∧ Env A n m0 s.mem a ∧
    s.gpr rsi = BitVec.ofNat 64 xrsi ∧ True

theorem gs_s2r_main_sim {K : Machine} {A : Word} {n : Nat} {m0 : Memory} {g0 : Nat → Word} {y0 : Nat → V8} (H : Host K A n m0) {P :
    Word} {p : Array Int} (TP : Tab K A n m0 P p) {xrdi : Nat} (h_rdi : g0 rdi = A + BitVec.ofNat 64 xrdi) (b_rdi : xrdi < 2 ^ 36)
    {xrdx : Nat} (h_rdx : g0 rdx = P + BitVec.ofNat 64 xrdx) {xr11 : Nat} (h_r11 : g0 r11 = A + BitVec.ofNat 64 xr11) (b_r11 : xr11
    < 2 ^ 37) {v4 : V8} (hv4 : y0 4 = v4) :
    ∀ st s, gs_s2r_main_I A n m0 g0 y0 st s →
      Sim K (Asm.gs_s2r_main p n xrdi xrdx xr11 v4 st) Text.gs_s2r_main s (LoopPost (gs_s2r_main_I A n m0 g0 y0) (gs_s2r_main_J A n m0 g0 y0) Text.gs_s2r_main Text.gs_s2r_main_exit) := by
  have hn := H.hn
  rintro ⟨a, xrsi⟩ ⟨g, y, cf, zf, m⟩ ⟨hg, hy, E, h_rsi, b_I⟩
  replace h_rdi := (hg rdi rfl).trans h_rdi
  replace h_rdx := (hg rdx rfl).trans h_rdx
  replace h_r11 := (hg r11 rfl).trans h_r11
  obtain rfl := (hy 4 rfl).trans hv4
  unfold Asm.gs_s2r_main
  refine Sim.mov ?_
  have h_r8 := h_rdi
  refine Sim.gen fun g hgg => ?_
  replace h_rsi := (congrFun hgg rsi).trans h_rsi
  replace h_rdi := (congrFun hgg rdi).trans h_rdi
  replace h_rdx := (congrFun hgg rdx).trans h_rdx
  replace h_r11 := (congrFun hgg r11).trans h_r11
  replace h_r8 := (congrFun hgg r8).trans h_r8
  replace hg : Agree [rax, rcx, rsi, r8, r9, r10] g0 g := Agree.of_eq hgg (by agree hg)
  clear hgg
  refine Sim.lea ?_
  have h_r9 := ea_ix1 (c := 0) h_rdx h_rsi
  refine Sim.gen fun g hgg => ?_
  replace h_rsi := (congrFun hgg rsi).trans h_rsi
  replace h_rdi := (congrFun hgg rdi).trans h_rdi
  replace h_rdx := (congrFun hgg rdx).trans h_rdx
  replace h_r11 := (congrFun hgg r11).trans h_r11
  replace h_r8 := (congrFun hgg r8).trans h_r8
  replace h_r9 := (congrFun hgg r9).trans h_r9
  replace hg : Agree [rax, rcx, rsi, r8, r9, r10] g0 g := Agree.of_eq hgg (by agree hg)
  clear hgg
  refine Sim.lea ?_
  have h_r10 := ea_ix (k := 2) (c := 0) h_r8 h_rsi
  refine Sim.gen fun g hgg => ?_
  replace h_rsi := (congrFun hgg rsi).trans h_rsi
  replace h_rdi := (congrFun hgg rdi).trans h_rdi
  replace h_rdx := (congrFun hgg rdx).trans h_rdx
  replace h_r11 := (congrFun hgg r11).trans h_r11
  replace h_r8 := (congrFun hgg r8).trans h_r8
  replace h_r9 := (congrFun hgg r9).trans h_r9
  replace h_r10 := (congrFun hgg r10).trans h_r10
  replace hg : Agree [rax, rcx, rsi, r8, r9, r10] g0 g := Agree.of_eq hgg (by agree hg)
  clear hgg
  refine Sim.label ?_
  refine Sim.geny fun y hyy => ?_
  have hv4 := congrFun hyy 4
  have hv5 := congrFun hyy 5
  have hv6 := congrFun hyy 6
  replace hy : Agree [0, 1, 2, 3, 5, 6] y0 y := Agree.of_eq hyy (by agree hy)
  clear hyy
  refine Sim.loop (gs_s2r_loop_sim H TP h_rsi (by omega) h_r10 (by omega) h_r11 (by omega) (hv4.trans (by krfl))) ⟨.refl, .refl, E, h_r8, h_r9, by omega⟩ ?_
  rintro ⟨a, xr81, xr91⟩ ⟨g1, y1, cf, zf, m⟩ ⟨hg1, hy1, E, h_r8, h_r9, b_J1⟩
  have h_rsi := (hg1 rsi rfl).trans h_rsi
  have h_rdi := (hg1 rdi rfl).trans h_rdi
  have h_rdx := (hg1 rdx rfl).trans h_rdx
  have h_r11 := (hg1 r11 rfl).trans h_r11
  have h_r10 := (hg1 r10 rfl).trans h_r10
  have hv4 := (hy1 4 rfl).trans hv4
  replace hg : Agree [rax, rcx, rsi, r8, r9, r10] g0 g1 := Agree.trans rfl (by agree hg) hg1
  replace hy : Agree [0, 1, 2, 3, 5, 6] y0 y1 := Agree.trans rfl (by agree hy) hy1
  clear hg1 hy1
  refine Sim.shr fun cf zf => ?_
  have h_rsi := cnt_shr1 h_rsi (by omega)
  refine Sim.gen fun g hgg => ?_
  replace h_rsi := (congrFun hgg rsi).trans h_rsi
  replace h_rdi := (congrFun hgg rdi).trans h_rdi
  replace h_rdx := (congrFun hgg rdx).trans h_rdx
  replace h_r11 := (congrFun hgg r11).trans h_r11
  replace h_r8 := (congrFun hgg r8).trans h_r8
  replace h_r9 := (congrFun hgg r9).trans h_r9
  replace h_r10 := (congrFun hgg r10).trans h_r10
  replace hg : Agree [rax, rcx, rsi, r8, r9, r10] g0 g := Agree.of_eq hgg (by agree hg)
  clear hgg
  refine Sim.cmpi_jcc codeAt_gs_s2r_main (Cmp.cnt (by omega) (by omega) h_rsi rfl) (fun hc cf zf => ?_) (fun hc cf zf => ?_)
  · have hc' : _ ≥ _ := hc
    exact Sim.again (decide_eq_true hc) ⟨by agree hg, by agree hy, E, h_rsi, by omega⟩
  · have hc' : ¬ (_ ≥ _) := hc
    exact Sim.done (decide_eq_false hc) ⟨by agree hg, by agree hy, E, h_rsi, trivial⟩

def gs_s2r_finish_loop_I (A : Word) (n : Nat) (m0 : Memory) (g0 : Nat → Word) (y0 : Nat → V8) :
    Array Int × Nat → State → Prop
  | (a, xrax), s =>
    Agree [rax] g0 s.gpr ∧ Agree [0, 1, 2, 3, 8] y0 s.ymm ∧ Env A n m0 s.mem a ∧
    s.gpr rax = A + BitVec.ofNat 64 xrax ∧ True

def gs_s2r_finish_loop_J (A : Word) (n : Nat) (m0 : Memory) (g0 : Nat → Word) (y0 : Nat → V8) :
    Array Int × Nat → State → Prop
  | (a, xrax), s =>
    Agree [rax] g0 s.gpr ∧ Agree [0, 1, 2, 3, 8] y0 s.ymm ∧ Env A n m0 s.mem a ∧
    s.gpr rax = A + BitVec.ofNat 64 xrax ∧ True

theorem gs_s2r_finish_loop_sim {K : Machine} {A : Word} {n : Nat} {m0 : Memory} {g0 : Nat → Word} {y0 : Nat → V8} (H : Host K A n
    m0) {xr11 : Nat} (h_r11 : g0 r11 = A + BitVec.ofNat 64 xr11) (b_r11 : xr11 < 2 ^ 37) {v4 : V8} (hv4 : y0 4 = v4) {v5 : V8} (hv5
    : y0 5 = v5) {v6 : V8} (hv6 : y0 6 = v6) {v7 : V8} (hv7 : y0 7 = v7) {v9 : V8} (hv9 : y0 9 = v9) :
    ∀ st s, gs_s2r_finish_loop_I A n m0 g0 y0 st s →
      Sim K (Asm.gs_s2r_finish_loop xr11 v4 v5 v6 v7 v9 st) Text.gs_s2r_finish_loop s (LoopPost (gs_s2r_finish_loop_I A n m0 g0 y0) (gs_s2r_finish_loop_J A n m0 g0 y0) Text.gs_s2r_finish_loop Text.gs_s2r_finish_loop_exit) := by
  have hn := H.hn
  rintro ⟨a, xrax⟩ ⟨g, y, cf, zf, m⟩ ⟨hg, hy, E, h_rax, b_I⟩
  replace h_r11 := (hg r11 rfl).trans h_r11
  obtain rfl := (hy 4 rfl).trans hv4
  obtain rfl := (hy 5 rfl).trans hv5
  obtain rfl := (hy 6 rfl).trans hv6
  obtain rfl := (hy 7 rfl).trans hv7
  obtain rfl := (hy 9 rfl).trans hv9
  unfold Asm.gs_s2r_finish_loop
  refine Sim.load H E (ea_at h_rax) fun v b_988 => ?_
  refine Sim.load H E (ea_at h_rax) fun v b_989 => ?_
  refine Sim.vec ?_
  refine Sim.vec ?_
  refine Sim.vec ?_
  refine Sim.vec ?_
  refine Sim.vec ?_
  refine Sim.vec ?_
  refine Sim.vec ?_
  refine Sim.vec ?_
  refine Sim.vec ?_
  refine Sim.vec ?_
  refine Sim.vec ?_
  refine Sim.vec ?_
  refine Sim.vec ?_
  refine Sim.vec ?_
  refine Sim.vec ?_
  refine Sim.vec ?_
  refine Sim.vec ?_
  refine Sim.vec ?_
  refine Sim.vec ?_
  refine Sim.vec ?_
  refine Sim.vec ?_
  refine Sim.vec ?_
  refine Sim.vec ?_
  refine Sim.vec ?_
  refine Sim.vec ?_
  refine Sim.vec ?_
  refine Sim.vec ?_
  refine Sim.vec ?_
  refine Sim.vec ?_
  refine Sim.vec ?_
  refine Sim.vec ?_
  refine Sim.vec ?_
  refine Sim.vec ?_
  refine Sim.vec ?_
  refine Sim.vec ?_
  refine Sim.vec ?_
  refine Sim.vec ?_
  refine Sim.vec ?_
  refine Sim.vec ?_
  refine Sim.vec ?_
  refine Sim.store H E (ea_at h_rax) (by krfl) fun a m E b_1030 => ?_
  refine Sim.store H E (ea_at h_rax) (by krfl) fun a m E b_1031 => ?_
  refine Sim.addi fun cf zf => ?_
  have h_rax := ptr_addi (k := 64) h_rax
  refine Sim.gen fun g hgg => ?_
  replace h_rax := (congrFun hgg rax).trans h_rax
  replace h_r11 := (congrFun hgg r11).trans h_r11
  replace hg : Agree [rax] g0 g := Agree.of_eq hgg (by agree hg)
  clear hgg
  refine Sim.cmp_jcc codeAt_gs_s2r_finish_loop (Cmp.ptr H.hA (by omega) (by omega) h_rax h_r11) (fun hc cf zf => ?_) (fun hc cf zf => ?_)
  · have hc' : _ < _ := hc
    exact Sim.again (decide_eq_true hc) ⟨by agree hg, by agree hy, E, h_rax, trivial⟩
  · have hc' : ¬ (_ < _) := hc
    exact Sim.done (decide_eq_false hc) ⟨by agree hg, by agree hy, E, h_rax, trivial⟩

theorem ntt_red_gs_std2rev_asm_sim {K : Machine} {A : Word} {n : Nat} {m0 : Memory} {g : Nat → Word} {y : Nat → V8} (H : Host K A n
    m0) (h_rdi : g rdi = A + BitVec.ofNat 64 0) (h_rsi : g rsi = BitVec.ofNat 64 n) {P : Word} {p : Array Int} (TP : Tab K A n m0 P
    p) (h_rdx : g rdx = P + BitVec.ofNat 64 0) {a : Array Int} {g0 : Nat → Word} {cf zf : Bool} {m : Memory} (hg : Agree [rax, rcx,
    rdx, rsi, rdi, r8, r9, r10, r11] g0 g) (E : Env A n m0 m a) :
    Sim K (Asm.ntt_red_gs_std2rev_asm a n p) Text.ntt_red_gs_std2rev_asm ⟨g, y, cf, zf, m⟩ (RetPost A n m0 g0) := by
  have hn := H.hn
  unfold Asm.ntt_red_gs_std2rev_asm
  refine Sim.lea ?_
  have h_r11 := ea_ix (k := 4) (c := 0) h_rdi h_rsi
  refine Sim.gen fun g hgg => ?_
  replace h_rdi := (congrFun hgg rdi).trans h_rdi
  replace h_rsi := (congrFun hgg rsi).trans h_rsi
  replace h_rdx := (congrFun hgg rdx).trans h_rdx
  replace h_r11 := (congrFun hgg r11).trans h_r11
  replace hg : Agree [rax, rcx, rdx, rsi, rdi, r8, r9, r10, r11] g0 g := Agree.of_eq hgg (by agree hg)
  clear hgg
  refine Sim.const H E ?_
  refine Sim.label ?_
  refine Sim.geny fun y hyy => ?_
  have hv4 := congrFun hyy 4
  have hv5 := congrFun hyy 5
  have hv6 := congrFun hyy 6
  have hv7 := congrFun hyy 7
  have hv9 := congrFun hyy 9
  clear hyy
  refine Sim.loop (gs_s2r_main_sim H TP h_rdi (by omega) h_rdx h_r11 (by omega) (hv4.trans (by krfl))) ⟨.refl, .refl, E, h_rsi, by omega⟩ ?_
  rintro ⟨a, xrsi1⟩ ⟨g1, y1, cf, zf, m⟩ ⟨hg1, hy1, E, h_rsi, b_J1⟩
  have h_rdi := (hg1 rdi rfl).trans h_rdi
  have h_rdx := (hg1 rdx rfl).trans h_rdx
  have h_r11 := (hg1 r11 rfl).trans h_r11
  have hv4 := (hy1 4 rfl).trans hv4
  have hv7 := (hy1 7 rfl).trans hv7
  have hv9 := (hy1 9 rfl).trans hv9
  replace hg : Agree [rax, rcx, rdx, rsi, rdi, r8, r9, r10, r11] g0 g1 := Agree.trans rfl (by agree hg) hg1
  clear hg1 hy1
  refine Sim.load_sxwd TP E (ea_at h_rdx) fun v _ => ?_
  refine Sim.vec ?_
  refine Sim.vec ?_
  refine Sim.vec ?_
  refine Sim.vec ?_
  refine Sim.mov ?_
  have h_rax := h_rdi
  refine Sim.gen fun g hgg => ?_
  replace h_rdi := (congrFun hgg rdi).trans h_rdi
  replace h_rsi := (congrFun hgg rsi).trans h_rsi
  replace h_rdx := (congrFun hgg rdx).trans h_rdx
  replace h_r11 := (congrFun hgg r11).trans h_r11
  replace h_rax := (congrFun hgg rax).trans h_rax
  replace hg : Agree [rax, rcx, rdx, rsi, rdi, r8, r9, r10, r11] g0 g := Agree.of_eq hgg (by agree hg)
  clear hgg
  refine Sim.const H E ?_
  refine Sim.label ?_
  refine Sim.geny fun y hyy => ?_
  replace hv4 := (congrFun hyy 4).trans hv4
  have hv5 := congrFun hyy 5
  have hv6 := congrFun hyy 6
  have hv7 := congrFun hyy 7
  have hv9 := congrFun hyy 9
  clear hyy
  refine Sim.loop (gs_s2r_finish_loop_sim H h_r11 (by omega) (hv4.trans (by krfl)) (hv5.trans (by krfl)) (hv6.trans (by krfl)) (hv7.trans (by krfl)) (hv9.trans (by krfl))) ⟨.refl, .refl, E, h_rax, trivial⟩ ?_
  rintro ⟨a, xrax2⟩ ⟨g2, y2, cf, zf, m⟩ ⟨hg2, hy2, E, h_rax, b_J2⟩
  have h_rdi := (hg2 rdi rfl).trans h_rdi
  have h_rsi := (hg2 rsi rfl).trans h_rsi
  have h_rdx := (hg2 rdx rfl).trans h_rdx
  have h_r11 := (hg2 r11 rfl).trans h_r11
  have hv4 := (hy2 4 rfl).trans hv4
  have hv5 := (hy2 5 rfl).trans hv5
  have hv6 := (hy2 6 rfl).trans hv6
  have hv7 := (hy2 7 rfl).trans hv7
  have hv9 := (hy2 9 rfl).trans hv9
  replace hg : Agree [rax, rcx, rdx, rsi, rdi, r8, r9, r10, r11] g0 g2 := Agree.trans rfl (by agree hg) hg2
  clear hg2 hy2
  exact Sim.stop ⟨⟨_, rfl⟩, E, by agree hg⟩

def mgs_s2r_inner_loop_I (A : Word) (n : Nat) (m0 : Memory) (g0 : Nat → Word) (y0 : Nat → V8) :
    Array Int × Nat × Nat → State → Prop
  | (a, xrax, xrcx), s =>
    Agree [rax, rcx] g0 s.gpr ∧ Agree [0, 1, 2, 3] y0 s.ymm ∧ Env A n m0 s.mem a ∧
    s.gpr rax = A + BitVec.ofNat 64 xrax ∧ s.gpr rcx = A + BitVec.ofNat 64 xrcx ∧ True

def mgs_s2r_inner_loop_J (A : Word) (n : Nat) (m0 : Memory) (g0 : Nat → Word) (y0 : Nat → V8) :
    Array Int × Nat × Nat → State → Prop
  | (a, xrax, xrcx), s =>
    Agree [rax, rcx] g0 s.gpr ∧ Agree [0, 1, 2, 3] y0 s.ymm ∧ Env A n m0 s.mem a ∧
    s.gpr rax = A + BitVec.ofNat 64 xrax ∧ s.gpr rcx = A + BitVec.ofNat 64 xrcx ∧ True

theorem mgs_s2r_inner_loop_sim {K : Machine} {A : Word} {n : Nat} {m0 : Memory} {g0 : Nat → Word} {y0 : Nat → V8} (H : Host K A n
    m0) {xrsi : Nat} (h_rsi : g0 rsi = BitVec.ofNat 64 xrsi) (b_rsi : xrsi < 2 ^ 34) {xr11 : Nat} (h_r11 : g0 r11 = A + BitVec.ofNat
    64 xr11) (b_r11 : xr11 < 2 ^ 37) {v4 : V8} (hv4 : y0 4 = v4) {v5 : V8} (hv5 : y0 5 = v5) {v6 : V8} (hv6 : y0 6 = v6) :
    ∀ st s, mgs_s2r_inner_loop_I A n m0 g0 y0 st s →
      Sim K (Asm.mgs_s2r_inner_loop xrsi xr11 v4 v5 v6 st) Text.mgs_s2r_inner_loop s (LoopPost (mgs_s2r_inner_loop_I A n m0 g0 y0) (mgs_s2r_inner_loop_J A n m0 g0 y0) Text.mgs_s2r_inner_loop Text.mgs_s2r_inner_loop_exit) := by
  have hn := H.hn
  rintro ⟨a, xrax, xrcx⟩ ⟨g, y, cf, zf, m⟩ ⟨hg, hy, E, h_rax, h_rcx, b_I⟩
  replace h_rsi := (hg rsi rfl).trans h_rsi
  replace h_r11 := (hg r11 rfl).trans h_r11
  obtain rfl := (hy 4 rfl).trans hv4
  obtain rfl := (hy 5 rfl).trans hv5
  obtain rfl := (hy 6 rfl).trans hv6
  unfold Asm.mgs_s2r_inner_loop
  refine Sim.load H E (ea_at h_rax) fun v b_1049 => ?_
  refine Sim.load H E (ea_at h_rcx) fun v b_1050 => ?_
  refine Sim.vec ?_
  refine Sim.vec ?_
  refine Sim.vec ?_
  refine Sim.vec ?_
  refine Sim.vec ?_
  refine Sim.vec ?_
  refine Sim.vec ?_
  refine Sim.vec ?_
  refine Sim.vec ?_
  refine Sim.vec ?_
  refine Sim.vec ?_
  refine Sim.vec ?_
  refine Sim.vec ?_
  refine Sim.vec ?_
  refine Sim.vec ?_
  refine Sim.store H E (ea_at h_rax) (by krfl) fun a m E b_1066 => ?_
  refine Sim.store H E (ea_at h_rcx) (by krfl) fun a m E b_1067 => ?_
  refine Sim.lea ?_
  have h_rax := ea_ix (k := 4) (c := 0) h_rax h_rsi
  refine Sim.gen fun g hgg => ?_
  replace h_rax := (congrFun hgg rax).trans h_rax
  replace h_rcx := (congrFun hgg rcx).trans h_rcx
  replace h_rsi := (congrFun hgg rsi).trans h_rsi
  replace h_r11 := (congrFun hgg r11).trans h_r11
  replace hg : Agree [rax, rcx] g0 g := Agree.of_eq hgg (by agree hg)
  clear hgg
  refine Sim.lea ?_
  have h_rcx := ea_ix (k := 4) (c := 0) h_rcx h_rsi
  refine Sim.gen fun g hgg => ?_
  replace h_rax := (congrFun hgg rax).trans h_rax
  replace h_rcx := (congrFun hgg rcx).trans h_rcx
  replace h_rsi := (congrFun hgg rsi).trans h_rsi
  replace h_r11 := (congrFun hgg r11).trans h_r11
  replace hg : Agree [rax, rcx] g0 g := Agree.of_eq hgg (by agree hg)
  clear hgg
  refine Sim.cmp_jcc codeAt_mgs_s2r_inner_loop (Cmp.ptr H.hA (by omega) (by omega) h_rax h_r11) (fun hc cf zf => ?_) (fun hc cf zf => ?_)
  · have hc' : _ < _ := hc
    exact Sim.again (decide_eq_true hc) ⟨by agree hg, by agree hy, E, h_rax, h_rcx, trivial⟩
  · have hc' : ¬ (_ < _) := hc
    exact Sim.done (decide_eq_false hc) ⟨by agree hg, by agree hy, E, h_rax, h_rcx, trivial⟩

def mgs_s2r_loop_I (A : Word) (n : Nat) (m0 : Memory) (g0 : Nat → Word) (y0 : Nat → V8) (P : Word) :
    Array Int × Nat × Nat → State → Prop
  | (a, xr8, xr9), s =>
    Agree [rax, rcx, r8, r9] g0 s.gpr ∧ Agree [0, 1, 2, 3, 5, 6] y0 s.ymm ∧ Env A n m0 s.mem a ∧
    s.gpr r8 = A + BitVec.ofNat 64 xr8 ∧ s.gpr r9 = P + BitVec.ofNat 64 xr9 ∧ xr8 < 2 ^ 37

def mgs_s2r_loop_J (A : Word) (n : Nat) (m0 : Memory) (g0 : Nat → Word) (y0 : Nat → V8) (P : Word) :
    Array Int × Nat × Nat → State → Prop
  | (a, xr8, xr9), s =>
    Agree [rax, rcx, r8, r9] g0 s.gpr ∧ Agree [0, 1, 2, 3, 5, 6] y0 s.ymm ∧ Env A n m0 s.mem a ∧
    s.gpr r8 = A + BitVec.ofNat 64 xr8 ∧ s.gpr r9 = P + BitVec.ofNat 64 xr9 ∧ True

theorem mgs_s2r_loop_sim {K : Machine} {A : Word} {n : Nat} {m0 : Memory} {g0 : Nat → Word} {y0 : Nat → V8} (H : Host K A n m0) {P :
    Word} {p : Array Int} (TP : Tab K A n m0 P p) {xrsi : Nat} (h_rsi : g0 rsi = BitVec.ofNat 64 xrsi) (b_rsi : xrsi < 2 ^ 34) {xr10
    : Nat} (h_r10 : g0 r10 = A + BitVec.ofNat 64 xr10) (b_r10 : xr10 < 2 ^ 37) {xr11 : Nat} (h_r11 : g0 r11 = A + BitVec.ofNat 64
    xr11) (b_r11 : xr11 < 2 ^ 37) {v4 : V8} (hv4 : y0 4 = v4) :
    ∀ st s, mgs_s2r_loop_I A n m0 g0 y0 P st s →
      Sim K (Asm.mgs_s2r_loop p n xrsi xr10 xr11 v4 st) Text.mgs_s2r_loop s (LoopPost (mgs_s2r_loop_I A n m0 g0 y0 P) (mgs_s2r_loop_J A n m0 g0 y0 P) Text.mgs_s2r_loop Text.mgs_s2r_loop_exit) := by
  have hn := H.hn
  rintro ⟨a, xr8, xr9⟩ ⟨g, y, cf, zf, m⟩ ⟨hg, hy, E, h_r8, h_r9, b_I⟩
  replace h_rsi := (hg rsi rfl).trans h_rsi
  replace h_r10 := (hg r10 rfl).trans h_r10
  replace h_r11 := (hg r11 rfl).trans h_r11
  obtain rfl := (hy 4 rfl).trans hv4
  unfold Asm.mgs_s2r_loop
  refine Sim.load_sxwd TP E (ea_at h_r9) fun v _ => ?_
  refine Sim.vec ?_
  refine Sim.mov ?_
  have h_rax := h_r8
  refine Sim.gen fun g hgg => ?_
  replace h_r8 := (congrFun hgg r8).trans h_r8
  replace h_r9 := (congrFun hgg r9).trans h_r9
  replace h_rsi := (congrFun hgg rsi).trans h_rsi
  replace h_r10 := (congrFun hgg r10).trans h_r10
  replace h_r11 := (congrFun hgg r11).trans h_r11
  replace h_rax := (congrFun hgg rax).trans h_rax
  replace hg : Agree [rax, rcx, r8, r9] g0 g := Agree.of_eq hgg (by agree hg)
  clear hgg
  refine Sim.lea ?_
  have h_rcx := ea_ix (k := 2) (c := 0) h_r8 h_rsi
  refine Sim.gen fun g hgg => ?_
  replace h_r8 := (congrFun hgg r8).trans h_r8
  replace h_r9 := (congrFun hgg r9).trans h_r9
  replace h_rsi := (congrFun hgg rsi).trans h_rsi
  replace h_r10 := (congrFun hgg r10).trans h_r10
  replace h_r11 := (congrFun hgg r11).trans h_r11
  replace h_rax := (congrFun hgg rax).trans h_rax
  replace h_rcx := (congrFun hgg rcx).trans h_rcx
  replace hg : Agree [rax, rcx, r8, r9] g0 g := Agree.of_eq hgg (by agree hg)
  clear hgg
  refine Sim.label ?_
  refine Sim.geny fun y hyy => ?_
  have hv4 := congrFun hyy 4
  have hv5 := congrFun hyy 5
  have hv6 := congrFun hyy 6
  replace hy : Agree [0, 1, 2, 3, 5, 6] y0 y := Agree.of_eq hyy (by agree hy)
  clear hyy
  refine Sim.loop (mgs_s2r_inner_loop_sim H h_rsi (by omega) h_r11 (by omega) (hv4.trans (by krfl)) (hv5.trans (by krfl)) (hv6.trans (by krfl))) ⟨.refl, .refl, E, h_rax, h_rcx, trivial⟩ ?_
  rintro ⟨a, xrax1, xrcx1⟩ ⟨g1, y1, cf, zf, m⟩ ⟨hg1, hy1, E, h_rax, h_rcx, b_J1⟩
  have h_r8 := (hg1 r8 rfl).trans h_r8
  have h_r9 := (hg1 r9 rfl).trans h_r9
  have h_rsi := (hg1 rsi rfl).trans h_rsi
  have h_r10 := (hg1 r10 rfl).trans h_r10
  have h_r11 := (hg1 r11 rfl).trans h_r11
  have hv4 := (hy1 4 rfl).trans hv4
  have hv5 := (hy1 5 rfl).trans hv5
  have hv6 := (hy1 6 rfl).trans hv6
  replace hg : Agree [rax, rcx, r8, r9] g0 g1 := Agree.trans rfl (by agree hg) hg1
  replace hy : Agree [0, 1, 2, 3, 5, 6] y0 y1 := Agree.trans rfl (by agree hy) hy1
  clear hg1 hy1
  refine Sim.addi fun cf zf => ?_
  have h_r8 := ptr_addi (k := 32) h_r8
  refine Sim.gen fun g hgg => ?_
  replace h_r8 := (congrFun hgg r8).trans h_r8
  replace h_r9 := (congrFun hgg r9).trans h_r9
  replace h_rsi := (congrFun hgg rsi).trans h_rsi
  replace h_r10 := (congrFun hgg r10).trans h_r10
  replace h_r11 := (congrFun hgg r11).trans h_r11
  replace h_rax := (congrFun hgg rax).trans h_rax
  replace h_rcx := (congrFun hgg rcx).trans h_rcx
  replace hg : Agree [rax, rcx, r8, r9] g0 g := Agree.of_eq hgg (by agree hg)
  clear hgg
  refine Sim.addi fun cf zf => ?_
  have h_r9 := ptr_addi (k := 16) h_r9
  refine Sim.gen fun g hgg => ?_
  replace h_r8 := (congrFun hgg r8).trans h_r8
  replace h_r9 := (congrFun hgg r9).trans h_r9
  replace h_rsi := (congrFun hgg rsi).trans h_rsi
  replace h_r10 := (congrFun hgg r10).trans h_r10
  replace h_r11 := (congrFun hgg r11).trans h_r11
  replace h_rax := (congrFun hgg rax).trans h_rax
  replace h_rcx := (congrFun hgg rcx).trans h_rcx
  replace hg : Agree [rax, rcx, r8, r9] g0 g := Agree.of_eq hgg (by agree hg)
  clear hgg
  refine Sim.cmp_jcc codeAt_mgs_s2r_loop (Cmp.ptr H.hA (by omega) (by omega) h_r8 h_r10) (fun hc cf zf => ?_) (fun hc cf zf => ?_)
  · have hc' : _ < _ := hc
    exact Sim.again (decide_eq_true hc) ⟨by agree hg, by agree hy, E, h_r8, h_r9, by omega⟩
  · have hc' : ¬ (_ < _) := hc
    exact Sim.done (decide_eq_false hc) ⟨by agree hg, by agree hy, E, h_r8, h_r9, trivial⟩

def mgs_s2r_main_I (A : Word) (n : Nat) (m0 : Memory) (g0 : Nat → Word) (y0 : Nat → V8) :
    Array Int × Nat → State → Prop
  | (a, xrsi), s =>
    Agree [rax, rcx, rsi, r8, r9, r10] g0 s.gpr ∧ Agree [0, 1, 2, 3, 5, 6] y0 s.ymm ∧ Env A n m0 s.mem a ∧
    s.gpr rsi = BitVec.ofNat 64 xrsi ∧ xrsi < 2 ^ 34

def mgs_s2r_main_J (A : Word) (n : Nat) (m0 : Memory) (g0 : Nat → Word) (y0 : Nat → V8) :
    Array Int × Nat → State → Prop
  | (a, xrsi), s =>
    Agree [rax, rcx, rsi, r8, r9, r10] g0 s.gpr ∧ Agree [0, 1, 2, 3, 5, 6] y0 s.ymm ∧ Env A n m0 s.mem a ∧
    s.gpr rsi = BitVec.ofNat 64 xrsi ∧ True

theorem mgs_s2r_main_sim {K : Machine} {A : Word} {n : Nat} {m0 : Memory} {g0 : Nat → Word} {y0 : Nat → V8} (H : Host K A n m0) {P :
    Word} {p : Array Int} (TP : Tab K A n m0 P p) {xrdi : Nat} (h_rdi : g0 rdi = A + BitVec.ofNat 64 xrdi) (b_rdi : xrdi < 2 ^ 36)
    {xrdx : Nat} (h_rdx : g0 rdx = P + BitVec.ofNat 64 xrdx) {xr11 : Nat} (h_r11 : g0 r11 = A + BitVec.ofNat 64 xr11) (b_r11 : xr11
    < 2 ^ 37) {v4 : V8} (hv4 : y0 4 = v4) :
    ∀ st s, mgs_s2r_main_I A n m0 g0 y0 st s →
      Sim K (Asm.mgs_s2r_main p n xrdi xrdx xr11 v4 st) Text.mgs_s2r_main s (LoopPost (mgs_s2r_main_I A n m0 g0 y0) (mgs_s2r_main_J A n m0 g0 y0) Text.mgs_s2r_main Text.mgs_s2r_main_exit) := by
  have hn := H.hn
  rintro ⟨a, xrsi⟩ ⟨g, y, cf, zf, m⟩ ⟨hg, hy, E, h_rsi, b_I⟩
  replace h_rdi := (hg rdi rfl).trans h_rdi
  replace h_rdx := (hg rdx rfl).trans h_rdx
  replace h_r11 := (hg r11 rfl).trans h_r11
  obtain rfl := (hy 4 rfl).trans hv4
  unfold Asm.mgs_s2r_main
  refine Sim.mov ?_
  have h_r8 := h_rdi
  refine Sim.gen fun g hgg => ?_
  replace h_rsi := (congrFun hgg rsi).trans h_rsi
  replace h_rdi := (congrFun hgg rdi).trans h_rdi
  replace h_rdx := (congrFun hgg rdx).trans h_rdx
  replace h_r11 := (congrFun hgg r11).trans h_r11
  replace h_r8 := (congrFun hgg r8).trans h_r8
  replace hg : Agree [rax, rcx, rsi, r8, r9, r10] g0 g := Agree.of_eq hgg (by agree hg)
  clear hgg
  refine Sim.lea ?_
  have h_r9 := ea_ix1 (c := 0) h_rdx h_rsi
  refine Sim.gen fun g hgg => ?_
  replace h_rsi := (congrFun hgg rsi).trans h_rsi
  replace h_rdi := (congrFun hgg rdi).trans h_rdi
  replace h_rdx := (congrFun hgg rdx).trans h_rdx
  replace h_r11 := (congrFun hgg r11).trans h_r11
  replace h_r8 := (congrFun hgg r8).trans h_r8
  replace h_r9 := (congrFun hgg r9).trans h_r9
  replace hg : Agree [rax, rcx, rsi, r8, r9, r10] g0 g := Agree.of_eq hgg (by agree hg)
  clear hgg
  refine Sim.lea ?_
  have h_r10 := ea_ix (k := 2) (c := 0) h_r8 h_rsi
  refine Sim.gen fun g hgg => ?_
  replace h_rsi := (congrFun hgg rsi).trans h_rsi
  replace h_rdi := (congrFun hgg rdi).trans h_rdi
  replace h_rdx := (congrFun hgg rdx).trans h_rdx
  replace h_r11 := (congrFun hgg r11).trans h_r11
  replace h_r8 := (congrFun hgg r8).trans h_r8
  replace h_r9 := (congrFun hgg r9).trans h_r9
  replace h_r10 := (congrFun hgg r10).trans h_r10
  replace hg : Agree [rax, rcx, rsi, r8, r9, r10] g0 g := Agree.of_eq hgg (by agree hg)
  clear hgg
  refine Sim.label ?_
  refine Sim.geny fun y hyy => ?_
  have hv4 := congrFun hyy 4
  have hv5 := congrFun hyy 5
  have hv6 := congrFun hyy 6
  replace hy : Agree [0, 1, 2, 3, 5, 6] y0 y := Agree.of_eq hyy (by agree hy)
  clear hyy
  refine Sim.loop (mgs_s2r_loop_sim H TP h_rsi (by omega) h_r10 (by omega) h_r11 (by omega) (hv4.trans (by krfl))) ⟨.refl, .refl, E, h_r8, h_r9, by omega⟩ ?_
  rintro ⟨a, xr81, xr91⟩ ⟨g1, y1, cf, zf, m⟩ ⟨hg1, hy1, E, h_r8, h_r9, b_J1⟩
  have h_rsi := (hg1 rsi rfl).trans h_rsi
  have h_rdi := (hg1 rdi rfl).trans h_rdi
  have h_rdx := (hg1 rdx rfl).trans h_rdx
  have h_r11 := (hg1 r11 rfl).trans h_r11
  have h_r10 := (hg1 r10 rfl).trans h_r10
  have hv4 := (hy1 4 rfl).trans hv4
  replace hg : Agree [rax, rcx, rsi, r8, r9, r10] g0 g1 := Agree.trans rfl (by agree hg) hg1
  replace hy : Agree [0, 1, 2, 3, 5, 6] y0 y1 := Agree.trans rfl (by agree hy) hy1
  clear hg1 hy1
  refine Sim.shr fun cf zf => ?_
  have h_rsi := cnt_shr1 h_rsi (by omega)
  refine Sim.gen fun g hgg => ?_
  replace h_rsi := (congrFun hgg rsi).trans h_rsi
  replace h_rdi := (congrFun hgg rdi).trans h_rdi
  replace h_rdx := (congrFun hgg rdx).trans h_rdx
  replace h_r11 := (congrFun hgg r11).trans h_r11
  replace h_r8 := (congrFun hgg r8).trans h_r8
  replace h_r9 := (congrFun hgg r9).trans h_r9
  replace h_r10 := (congrFun hgg r10).trans h_r10
  replace hg : Agree [rax, rcx, rsi, r8, r9, r10] g0 g := Agree.of_eq hgg (by agree hg)
  clear hgg
  refine Sim.cmpi_jcc codeAt_mgs_s2r_main (Cmp.cnt (by omega) (by omega) h_rsi rfl) (fun hc cf zf => ?_) (fun hc cf zf => ?_)
  · have hc' : _ ≥ _ := hc
    exact Sim.again (decide_eq_true hc) ⟨by agree hg, by agree hy, E, h_rsi, by omega⟩
  · have hc' : ¬ (_ ≥ _) := hc
    exact Sim.done (decide_eq_false hc) ⟨by agree hg, by agree hy, E, h_rsi, trivial⟩

def mgs_s2r_finish_loop_I (A : Word) (n : Nat) (m0 : Memory) (g0 : Nat → Word) (y0 : Nat → V8) :
    Array Int × Nat → State → Prop
  | (a, xrax), s =>
    Agree [rax] g0 s.gpr ∧ Agree [0, 1, 2, 3] y0 s.ymm ∧ Env A n m0 s.mem a ∧
    s.gpr rax = A + BitVec.ofNat 64 xrax ∧ True

def mgs_s2r_finish_loop_J (A : Word) (n : Nat) (m0 : Memory) (g0 : Nat → Word) (y0 : Nat → V8) :
    Array Int × Nat → State → Prop
  | (a, xrax), s =>
    Agree [rax] g0 s.gpr ∧ Agree [0, 1, 2, 3] y0 s.ymm ∧ Env A n m0 s.mem a ∧
    s.gpr rax = A + BitVec.ofNat 64 xrax ∧ True

theorem mgs_s2r_finish_loop_sim {K : Machine} {A : Word} {n : Nat} {m0 : Memory} {g0 : Nat → Word} {y0 : Nat → V8} (H : Host K A n
    m0) {xr11 : Nat} (h_r11 : g0 r11 = A + BitVec.ofNat 64 xr11) (b_r11 : xr11 < 2 ^ 37) {v4 : V8} (hv4 : y0 4 = v4) {v5 : V8} (hv5
    : y0 5 = v5) {v6 : V8} (hv6 : y0 6 = v6) {v7 : V8} (hv7 : y0 7 = v7) {v8 : V8} (hv8 : y0 8 = v8) {v9 : V8} (hv9 : y0 9 = v9)
    {v10 : V8} (hv10 : y0 10 = v10) :
    ∀ st s, mgs_s2r_finish_loop_I A n m0 g0 y0 st s →
      Sim K (Asm.mgs_s2r_finish_loop xr11 v4 v5 v6 v7 v8 v9 v10 st) Text.mgs_s2r_finish_loop s (LoopPost (mgs_s2r_finish_loop_I A n m0 g0 y0) (mgs_s2r_finish_loop_J A n m0 g0 y0) Text.mgs_s2r_finish_loop Text.mgs_s2r_finish_loop_exit) := by
  have hn := H.hn
  rintro ⟨a, xrax⟩ ⟨g, y, cf, zf, m⟩ ⟨hg, hy, E, h_rax, b_I⟩
  replace h_r11 := (hg r11 rfl).trans h_r11
  obtain rfl := (hy 4 rfl).trans hv4
  obtain rfl := (hy 5 rfl).trans hv5
  obtain rfl := (hy 6 rfl).trans hv6
  obtain rfl := (hy 7 rfl).trans hv7
  obtain rfl := (hy 8 rfl).trans hv8
  obtain rfl := (hy 9 rfl).trans hv9
  obtain rfl := (hy 10 rfl).trans hv10
  unfold Asm.mgs_s2r_finish_loop
  refine Sim.load H E (ea_at h_rax) fun v b_1093 => ?_
  refine Sim.load H E (ea_at h_rax) fun v b_1094 => ?_
  refine Sim.vec ?_
  refine Sim.vec ?_
  refine Sim.vec ?_
  refine Sim.vec ?_
  refine Sim.vec ?_
  refine Sim.vec ?_
  refine Sim.vec ?_
  refine Sim.vec ?_
  refine Sim.vec ?_
  refine Sim.vec ?_
  refine Sim.vec ?_
  refine Sim.vec ?_
  refine Sim.vec ?_
  refine Sim.vec ?_
  refine Sim.vec ?_
  refine Sim.vec ?_
  refine Sim.vec ?_
  refine Sim.vec ?_
  refine Sim.vec ?_
  refine Sim.vec ?_
  refine Sim.vec ?_
  refine Sim.vec ?_
  refine Sim.vec ?_
  refine Sim.vec ?_
  refine Sim.vec ?_
  refine Sim.vec ?_
  refine Sim.vec ?_
  refine Sim.vec ?_
  refine Sim.vec ?_
  refine Sim.vec ?_
  refine Sim.vec ?_
  refine Sim.vec ?_
  refine Sim.vec ?_
  refine Sim.vec ?_
  refine Sim.vec ?_
  refine Sim.vec ?_
  refine Sim.vec ?_
  refine Sim.vec ?_
  refine Sim.vec ?_
  refine Sim.vec ?_
  refine Sim.vec ?_
  refine Sim.vec ?_
  refine Sim.vec ?_
  refine Sim.vec ?_
  refine Sim.vec ?_
  refine Sim.vec ?_
  refine Sim.vec ?_
  refine Sim.vec ?_
  refine Sim.vec ?_
  refine Sim.vec ?_
  refine Sim.vec ?_
  refine Sim.vec ?_
  refine Sim.vec ?_
  refine Sim.vec ?_
  refine Sim.vec ?_
  refine Sim.vec ?_
  refine Sim.vec ?_
  refine Sim.store H E (ea_at h_rax) (by krfl) fun a m E b_1152 => ?_
  refine Sim.store H E (ea_at h_rax) (by krfl) fun a m E b_1153 => ?_
  refine Sim.addi fun cf zf => ?_
  have h_rax := ptr_addi (k := 64) h_rax
  refine Sim.gen fun g hgg => ?_
  replace h_rax := (congrFun hgg rax).trans h_rax
  replace h_r11 := (congrFun hgg r11).trans h_r11
  replace hg : Agree [rax] g0 g := Agree.of_eq hgg (by agree hg)
  clear hgg
  refine Sim.cmp_jcc codeAt_mgs_s2r_finish_loop (Cmp.ptr H.hA (by omega) (by omega) h_rax h_r11) (fun hc cf zf => ?_) (fun hc cf zf => ?_)
  · have hc' : _ < _ := hc
    exact Sim.again (decide_eq_true hc) ⟨by agree hg, by agree hy, E, h_rax, trivial⟩
  · have hc' : ¬ (_ < _) := hc
    exact Sim.done (decide_eq_false hc) ⟨by agree hg, by agree hy, E, h_rax, trivial⟩

theorem nttmul_red_gs_std2rev_asm_sim {K : Machine} {A : Word} {n : Nat} {m0 : Memory} {g : Nat → Word} {y : Nat → V8} (H : Host K A
    n m0) (h_rdi : g rdi = A + BitVec.ofNat 64 0) (h_rsi : g rsi = BitVec.ofNat 64 n) {P : Word} {p : Array Int} (TP : Tab K A n m0
    P p) (h_rdx : g rdx = P + BitVec.ofNat 64 0) {a : Array Int} {g0 : Nat → Word} {cf zf : Bool} {m : Memory} (hg : Agree [rax,
    rcx, rdx, rsi, rdi, r8, r9, r10, r11] g0 g) (E : Env A n m0 m a) :
    Sim K (Asm.nttmul_red_gs_std2rev_asm a n p) Text.nttmul_red_gs_std2rev_asm ⟨g, y, cf, zf, m⟩ (RetPost A n m0 g0) := by
  have hn := H.hn
  unfold Asm.nttmul_red_gs_std2rev_asm
  refine Sim.lea ?_
  have h_r11 := ea_ix (k := 4) (c := 0) h_rdi h_rsi
  refine Sim.gen fun g hgg => ?_
  replace h_rdi := (congrFun hgg rdi).trans h_rdi
  replace h_rsi := (congrFun hgg rsi).trans h_rsi
  replace h_rdx := (congrFun hgg rdx).trans h_rdx
  replace h_r11 := (congrFun hgg r11).trans h_r11
  replace hg : Agree [rax, rcx, rdx, rsi, rdi, r8, r9, r10, r11] g0 g := Agree.of_eq hgg (by agree hg)
  clear hgg
  refine Sim.const H E ?_
  refine Sim.label ?_
  refine Sim.geny fun y hyy => ?_
  have hv4 := congrFun hyy 4
  have hv5 := congrFun hyy 5
  have hv6 := congrFun hyy 6
  have hv7 := congrFun hyy 7
  have hv8 := congrFun hyy 8
  have hv9 := congrFun hyy 9
  have hv10 := congrFun hyy 10
  clear hyy
  refine Sim.loop (mgs_s2r_main_sim H TP h_rdi (by omega) h_rdx h_r11 (by omega) (hv4.trans (by krfl))) ⟨.refl, .refl, E, h_rsi, by omega⟩ ?_
  rintro ⟨a, xrsi1⟩ ⟨g1, y1, cf, zf, m⟩ ⟨hg1, hy1, E, h_rsi, b_J1⟩
  have h_rdi := (hg1 rdi rfl).trans h_rdi
  have h_rdx := (hg1 rdx rfl).trans h_rdx
  have h_r11 := (hg1 r11 rfl).trans h_r11
  have hv4 := (hy1 4 rfl).trans hv4
  have hv7 := (hy1 7 rfl).trans hv7
  have hv8 := (hy1 8 rfl).trans hv8
  have hv9 := (hy1 9 rfl).trans hv9
  have hv10 := (hy1 10 rfl).trans hv10
  replace hg : Agree [rax, rcx, rdx, rsi, rdi, r8, r9, r10, r11] g0 g1 := Agree.trans rfl (by agree hg) hg1
  clear hg1 hy1
  refine Sim.load_sxwd TP E (ea_at h_rdx) fun v _ => ?_
  refine Sim.const H E ?_
  refine Sim.vec ?_
  refine Sim.const H E ?_
  refine Sim.vec ?_
  refine Sim.const H E ?_
  refine Sim.vec ?_
  refine Sim.const H E ?_
  refine Sim.vec ?_
  refine Sim.const H E ?_
  refine Sim.vec ?_
  refine Sim.mov ?_
  have h_rax := h_rdi
  refine Sim.gen fun g hgg => ?_
  replace h_rdi := (congrFun hgg rdi).trans h_rdi
  replace h_rsi := (congrFun hgg rsi).trans h_rsi
  replace h_rdx := (congrFun hgg rdx).trans h_rdx
  replace h_r11 := (congrFun hgg r11).trans h_r11
  replace h_rax := (congrFun hgg rax).trans h_rax
  replace hg : Agree [rax, rcx, rdx, rsi, rdi, r8, r9, r10, r11] g0 g := Agree.of_eq hgg (by agree hg)
  clear hgg
  refine Sim.const H E ?_
  refine Sim.label ?_
  refine Sim.geny fun y hyy => ?_
  replace hv4 := (congrFun hyy 4).trans hv4
  have hv5 := congrFun hyy 5
  have hv6 := congrFun hyy 6
  have hv7 := congrFun hyy 7
  have hv8 := congrFun hyy 8
  have hv9 := congrFun hyy 9
  have hv10 := congrFun hyy 10
  clear hyy
  refine Sim.loop (mgs_s2r_finish_loop_sim H h_r11 (by omega) (hv4.trans (by krfl)) (hv5.trans (by krfl)) (hv6.trans (by krfl)) (hv7.trans (by krfl)) (hv8.trans (by krfl)) (hv9.trans (by krfl)) (hv10.trans (by krfl))) ⟨.refl, .refl, E, h_rax, trivial⟩ ?_
  rintro ⟨a, xrax2⟩ ⟨g2, y2, cf, zf, m⟩ ⟨hg2, hy2, E, h_rax, b_J2⟩
  have h_rdi := (hg2 rdi rfl).trans h_rdi
  have h_rsi := (hg2 rsi rfl).trans h_rsi
  have h_rdx := (hg2 rdx rfl).trans h_rdx
  have h_r11 := (hg2 r11 rfl).trans h_r11
  have hv4 := (hy2 4 rfl).trans hv4
  have hv5 := (hy2 5 rfl).trans hv5
  have hv6 := (hy2 6 rfl).trans hv6
  have hv7 := (hy2 7 rfl).trans hv7
  have hv8 := (hy2 8 rfl).trans hv8
  have hv9 := (hy2 9 rfl).trans hv9
  have hv10 := (hy2 10 rfl).trans hv10
  replace hg : Agree [rax, rcx, rdx, rsi, rdi, r8, r9, r10, r11] g0 g2 := Agree.trans rfl (by agree hg) hg2
  clear hg2 hy2
  exact Sim.stop ⟨⟨_, rfl⟩, E, by agree hg⟩

end X86
