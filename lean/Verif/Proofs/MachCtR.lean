import Verif.Proofs.MachText

/-
Execution of the text of src/ntt_asm.S follows the model.  Generated by tools/genmach.py.
-/

namespace X86
open C Avx Spec

def ct_r2s_size16_loop_I (A : Word) (n : Nat) (m0 : Memory) (g0 : Nat → Word) (y0 : Nat → V8) :
    Array Int × Nat → State → Prop
  | (a, xrax), s =>
    Agree [rax] g0 s.gpr ∧ Agree [0, 1, 2, 3] y0 s.ymm ∧ Env A n m0 s.mem a ∧
    s.gpr rax = A + BitVec.ofNat 64 xrax ∧ True

def ct_r2s_size16_loop_J (A : Word) (n : Nat) (m0 : Memory) (g0 : Nat → Word) (y0 : Nat → V8) :
    Array Int × Nat → State → Prop
  | (a, xrax), s =>
    Agree [rax] g0 s.gpr ∧ Agree [0, 1, 2, 3] y0 s.ymm ∧ Env A n m0 s.mem a ∧
    s.gpr rax = A + BitVec.ofNat 64 xrax ∧ True

theorem ct_r2s_size16_loop_sim {K : Machine} {A : Word} {n : Nat} {m0 : Memory} {g0 : Nat → Word} {y0 : Nat → V8} (H : Host K A n
    m0) {xrsi : Nat} (h_rsi : g0 rsi = A + BitVec.ofNat 64 xrsi) (b_rsi : xrsi < 2 ^ 37) {v4 : V8} (hv4 : y0 4 = v4) {v5 : V8} (hv5
    : y0 5 = v5) {v6 : V8} (hv6 : y0 6 = v6) :
    ∀ st s, ct_r2s_size16_loop_I A n m0 g0 y0 st s →
      Sim K (Asm.ct_r2s_size16_loop xrsi v4 v5 v6 st) Text.ct_r2s_size16_loop s (LoopPost (ct_r2s_size16_loop_I A n m0 g0 y0) (ct_r2s_size16_loop_J A n m0 g0 y0) Text.ct_r2s_size16_loop Text.ct_r2s_size16_loop_exit) := by
  have hn := H.hn
  rintro ⟨a, xrax⟩ ⟨g, y, cf, zf, m⟩ ⟨hg, hy, E, h_rax, b_I⟩
  replace h_rsi := (hg rsi rfl).trans h_rsi
  obtain rfl := (hy 4 rfl).trans hv4
  obtain rfl := (hy 5 rfl).trans hv5
  obtain rfl := (hy 6 rfl).trans hv6
  unfold Asm.ct_r2s_size16_loop
  refine Sim.load H E (ea_at h_rax) fun v b_313 => ?_
  refine Sim.load H E (ea_at h_rax) fun v b_314 => ?_
  refine Sim.vec ?_
  refine Sim.vec ?_
  refine Sim.vec ?_
  refine Sim.vec ?_
  refine Sim.vec ?_
  refine Sim.vec ?_
  refine Sim.vec ?_
  refine Sim.vec ?_
  refine Sim.vec ?_
  refine Sim.vec ?_
  refine Sim.vec ?_
  refine Sim.vec ?_
  refine Sim.vec ?_
  refine Sim.vec ?_
  refine Sim.vec ?_
  refine Sim.store H E (ea_at h_rax) (by krfl) fun a m E b_330 => ?_
  refine Sim.store H E (ea_at h_rax) (by krfl) fun a m E b_331 => ?_
  refine Sim.addi fun cf zf => ?_
  have h_rax := ptr_addi (k := 64) h_rax
  refine Sim.gen fun g hgg => ?_
  replace h_rax := (congrFun hgg rax).trans h_rax
  replace h_rsi := (congrFun hgg rsi).trans h_rsi
  replace hg : Agree [rax] g0 g := Agree.of_eq hgg (by agree hg)
  clear hgg
  refine Sim.cmp_jcc codeAt_ct_r2s_size16_loop (Cmp.ptr H.hA (by omega) (by omega) h_rax h_rsi) (fun hc cf zf => ?_) (fun hc cf zf => ?_)
  · have hc' : _ < _ := hc
    exact Sim.again (decide_eq_true hc) ⟨by agree hg, by agree hy, E, h_rax, trivial⟩
  · have hc' : ¬ (_ < _) := hc
    exact Sim.done (decide_eq_false hc) ⟨by agree hg, by agree hy, E, h_rax, trivial⟩

def ct_r2s_inner_loop_I (A : Word) (n : Nat) (m0 : Memory) (g0 : Nat → Word) (y0 : Nat → V8) (P : Word) :
    Array Int × Nat × Nat × Nat → State → Prop
  | (a, xrax, xrcx, xrdx), s =>
    Agree [rax, rcx, rdx] g0 s.gpr ∧ Agree [0, 1, 2, 3, 6] y0 s.ymm ∧ Env A n m0 s.mem a ∧
    s.gpr rax = A + BitVec.ofNat 64 xrax ∧ s.gpr rcx = A + BitVec.ofNat 64 xrcx ∧ s.gpr rdx = P + BitVec.ofNat 64 xrdx ∧ True

def ct_r2s_inner_loop_J (A : Word) (n : Nat) (m0 : Memory) (g0 : Nat → Word) (y0 : Nat → V8) (P : Word) :
    Array Int × Nat × Nat × Nat → State → Prop
  | (a, xrax, xrcx, xrdx), s =>
    Agree [rax, rcx, rdx] g0 s.gpr ∧ Agree [0, 1, 2, 3, 6] y0 s.ymm ∧ Env A n m0 s.mem a ∧
    s.gpr rax = A + BitVec.ofNat 64 xrax ∧ s.gpr rcx = A + BitVec.ofNat 64 xrcx ∧ s.gpr rdx = P + BitVec.ofNat 64 xrdx ∧ True

theorem ct_r2s_inner_loop_sim {K : Machine} {A : Word} {n : Nat} {m0 : Memory} {g0 : Nat → Word} {y0 : Nat → V8} (H : Host K A n m0)
    {P : Word} {p : Array Int} (TP : Tab K A n m0 P p) {xr8 : Nat} (h_r8 : g0 r8 = A + BitVec.ofNat 64 xr8) (b_r8 : xr8 < 2 ^ 39)
    {v4 : V8} (hv4 : y0 4 = v4) :
    ∀ st s, ct_r2s_inner_loop_I A n m0 g0 y0 P st s →
      Sim K (Asm.ct_r2s_inner_loop p xr8 v4 st) Text.ct_r2s_inner_loop s (LoopPost (ct_r2s_inner_loop_I A n m0 g0 y0 P) (ct_r2s_inner_loop_J A n m0 g0 y0 P) Text.ct_r2s_inner_loop Text.ct_r2s_inner_loop_exit) := by
  have hn := H.hn
  rintro ⟨a, xrax, xrcx, xrdx⟩ ⟨g, y, cf, zf, m⟩ ⟨hg, hy, E, h_rax, h_rcx, h_rdx, b_I⟩
  replace h_r8 := (hg r8 rfl).trans h_r8
  obtain rfl := (hy 4 rfl).trans hv4
  unfold Asm.ct_r2s_inner_loop
  refine Sim.load H E (ea_at h_rax) fun v b_346 => ?_
  refine Sim.load H E (ea_at h_rcx) fun v b_347 => ?_
  refine Sim.load_sxwd TP E (ea_at h_rdx) fun v _ => ?_
  refine Sim.vec ?_
  refine Sim.vec ?_
  refine Sim.vec ?_
  refine Sim.vec ?_
  refine Sim.vec ?_
  refine Sim.vec ?_
  refine Sim.vec ?_
  refine Sim.vec ?_
  refine Sim.vec ?_
  refine Sim.vec ?_
  refine Sim.vec ?_
  refine Sim.vec ?_
  refine Sim.vec ?_
  refine Sim.vec ?_
  refine Sim.vec ?_
  refine Sim.vec ?_
  refine Sim.store H E (ea_at h_rax) (by krfl) fun a m E b_365 => ?_
  refine Sim.store H E (ea_at h_rcx) (by krfl) fun a m E b_366 => ?_
  refine Sim.addi fun cf zf => ?_
  have h_rdx := ptr_addi (k := 16) h_rdx
  refine Sim.gen fun g hgg => ?_
  replace h_rax := (congrFun hgg rax).trans h_rax
  replace h_rcx := (congrFun hgg rcx).trans h_rcx
  replace h_rdx := (congrFun hgg rdx).trans h_rdx
  replace h_r8 := (congrFun hgg r8).trans h_r8
  replace hg : Agree [rax, rcx, rdx] g0 g := Agree.of_eq hgg (by agree hg)
  clear hgg
  refine Sim.addi fun cf zf => ?_
  have h_rax := ptr_addi (k := 32) h_rax
  refine Sim.gen fun g hgg => ?_
  replace h_rax := (congrFun hgg rax).trans h_rax
  replace h_rcx := (congrFun hgg rcx).trans h_rcx
  replace h_rdx := (congrFun hgg rdx).trans h_rdx
  replace h_r8 := (congrFun hgg r8).trans h_r8
  replace hg : Agree [rax, rcx, rdx] g0 g := Agree.of_eq hgg (by agree hg)
  clear hgg
  refine Sim.addi fun cf zf => ?_
  have h_rcx := ptr_addi (k := 32) h_rcx
  refine Sim.gen fun g hgg => ?_
  replace h_rax := (congrFun hgg rax).trans h_rax
  replace h_rcx := (congrFun hgg rcx).trans h_rcx
  replace h_rdx := (congrFun hgg rdx).trans h_rdx
  replace h_r8 := (congrFun hgg r8).trans h_r8
  replace hg : Agree [rax, rcx, rdx] g0 g := Agree.of_eq hgg (by agree hg)
  clear hgg
  refine Sim.cmp_jcc codeAt_ct_r2s_inner_loop (Cmp.ptr H.hA (by omega) (by omega) h_rcx h_r8) (fun hc cf zf => ?_) (fun hc cf zf => ?_)
  · have hc' : _ < _ := hc
    exact Sim.again (decide_eq_true hc) ⟨by agree hg, by agree hy, E, h_rax, h_rcx, h_rdx, trivial⟩
  · have hc' : ¬ (_ < _) := hc
    exact Sim.done (decide_eq_false hc) ⟨by agree hg, by agree hy, E, h_rax, h_rcx, h_rdx, trivial⟩

def ct_r2s_size8_loop_I (A : Word) (n : Nat) (m0 : Memory) (g0 : Nat → Word) (y0 : Nat → V8) :
    Array Int × Nat → State → Prop
  | (a, xrax), s =>
    Agree [rax] g0 s.gpr ∧ Agree [0, 1, 2, 3] y0 s.ymm ∧ Env A n m0 s.mem a ∧
    s.gpr rax = A + BitVec.ofNat 64 xrax ∧ True

def ct_r2s_size8_loop_J (A : Word) (n : Nat) (m0 : Memory) (g0 : Nat → Word) (y0 : Nat → V8) :
    Array Int × Nat → State → Prop
  | (a, xrax), s =>
    Agree [rax] g0 s.gpr ∧ Agree [0, 1, 2, 3] y0 s.ymm ∧ Env A n m0 s.mem a ∧
    s.gpr rax = A + BitVec.ofNat 64 xrax ∧ True

theorem ct_r2s_size8_loop_sim {K : Machine} {A : Word} {n : Nat} {m0 : Memory} {g0 : Nat → Word} {y0 : Nat → V8} (H : Host K A n m0)
    {xrsi : Nat} (h_rsi : g0 rsi = A + BitVec.ofNat 64 xrsi) (b_rsi : xrsi < 2 ^ 37) {v4 : V8} (hv4 : y0 4 = v4) {v5 : V8} (hv5 : y0
    5 = v5) {v6 : V8} (hv6 : y0 6 = v6) :
    ∀ st s, ct_r2s_size8_loop_I A n m0 g0 y0 st s →
      Sim K (Asm.ct_r2s_size8_loop xrsi v4 v5 v6 st) Text.ct_r2s_size8_loop s (LoopPost (ct_r2s_size8_loop_I A n m0 g0 y0) (ct_r2s_size8_loop_J A n m0 g0 y0) Text.ct_r2s_size8_loop Text.ct_r2s_size8_loop_exit) := by
  have hn := H.hn
  rintro ⟨a, xrax⟩ ⟨g, y, cf, zf, m⟩ ⟨hg, hy, E, h_rax, b_I⟩
  replace h_rsi := (hg rsi rfl).trans h_rsi
  obtain rfl := (hy 4 rfl).trans hv4
  obtain rfl := (hy 5 rfl).trans hv5
  obtain rfl := (hy 6 rfl).trans hv6
  unfold Asm.ct_r2s_size8_loop
  refine Sim.load H E (ea_at h_rax) fun v b_278 => ?_
  refine Sim.vec ?_
  refine Sim.vec ?_
  refine Sim.vec ?_
  refine Sim.vec ?_
  refine Sim.vec ?_
  refine Sim.vec ?_
  refine Sim.vec ?_
  refine Sim.vec ?_
  refine Sim.vec ?_
  refine Sim.vec ?_
  refine Sim.vec ?_
  refine Sim.vec ?_
  refine Sim.vec ?_
  refine Sim.vec ?_
  refine Sim.vec ?_
  refine Sim.vec ?_
  refine Sim.vec ?_
  refine Sim.vec ?_
  refine Sim.vec ?_
  refine Sim.vec ?_
  refine Sim.vec ?_
  refine Sim.vec ?_
  refine Sim.vec ?_
  refine Sim.vec ?_
  refine Sim.vec ?_
  refine Sim.vec ?_
  refine Sim.store H E (ea_at h_rax) (by krfl) fun a m E b_305 => ?_
  refine Sim.addi fun cf zf => ?_
  have h_rax := ptr_addi (k := 32) h_rax
  refine Sim.gen fun g hgg => ?_
  replace h_rax := (congrFun hgg rax).trans h_rax
  replace h_rsi := (congrFun hgg rsi).trans h_rsi
  replace hg : Agree [rax] g0 g := Agree.of_eq hgg (by agree hg)
  clear hgg
  refine Sim.cmp_jcc codeAt_ct_r2s_size8_loop (Cmp.ptr H.hA (by omega) (by omega) h_rax h_rsi) (fun hc cf zf => ?_) (fun hc cf zf => ?_)
  · have hc' : _ < _ := hc
    exact Sim.again (decide_eq_true hc) ⟨by agree hg, by agree hy, E, h_rax, trivial⟩
  · have hc' : ¬ (_ < _) := hc
    exact Sim.done (decide_eq_false hc) ⟨by agree hg, by agree hy, E, h_rax, trivial⟩

def ct_r2s_loop_aux1_I (A : Word) (n : Nat) (m0 : Memory) (g0 : Nat → Word) (y0 : Nat → V8) :
    Array Int × Nat → State → Prop
  | (a, xrax), s =>
    Agree [rax, rcx, rdx, r8] g0 s.gpr ∧ Agree [0, 1, 2, 3, 6] y0 s.ymm ∧ Env A n m0 s.mem a ∧
    s.gpr rax = A + BitVec.ofNat 64 xrax ∧ xrax < 2 ^ 37

def ct_r2s_loop_aux1_J (A : Word) (n : Nat) (m0 : Memory) (g0 : Nat → Word) (y0 : Nat → V8) :
    Array Int × Nat → State → Prop
  | (a, xrax), s =>
    Agree [rax, rcx, rdx, r8] g0 s.gpr ∧ Agree [0, 1, 2, 3, 6] y0 s.ymm ∧ Env A n m0 s.mem a ∧
    s.gpr rax = A + BitVec.ofNat 64 xrax ∧ True

theorem ct_r2s_loop_aux1_sim {K : Machine} {A : Word} {n : Nat} {m0 : Memory} {g0 : Nat → Word} {y0 : Nat → V8} (H : Host K A n m0)
    {P : Word} {p : Array Int} (TP : Tab K A n m0 P p) {xrsi : Nat} (h_rsi : g0 rsi = A + BitVec.ofNat 64 xrsi) (b_rsi : xrsi < 2 ^
    37) {xr10 : Nat} (h_r10 : g0 r10 = BitVec.ofNat 64 xr10) (b_r10 : xr10 < 2 ^ 34) {xr11 : Nat} (h_r11 : g0 r11 = P + BitVec.ofNat
    64 xr11) {v4 : V8} (hv4 : y0 4 = v4) :
    ∀ st s, ct_r2s_loop_aux1_I A n m0 g0 y0 st s →
      Sim K (Asm.ct_r2s_loop_aux1 p n xrsi xr10 xr11 v4 st) Text.ct_r2s_loop_aux1 s (LoopPost (ct_r2s_loop_aux1_I A n m0 g0 y0) (ct_r2s_loop_aux1_J A n m0 g0 y0) Text.ct_r2s_loop_aux1 Text.ct_r2s_loop_aux1_exit) := by
  have hn := H.hn
  rintro ⟨a, xrax⟩ ⟨g, y, cf, zf, m⟩ ⟨hg, hy, E, h_rax, b_I⟩
  replace h_rsi := (hg rsi rfl).trans h_rsi
  replace h_r10 := (hg r10 rfl).trans h_r10
  replace h_r11 := (hg r11 rfl).trans h_r11
  obtain rfl := (hy 4 rfl).trans hv4
  unfold Asm.ct_r2s_loop_aux1
  refine Sim.lea ?_
  have h_rcx := ea_ix (k := 2) (c := 0) h_rax h_r10
  refine Sim.gen fun g hgg => ?_
  replace h_rax := (congrFun hgg rax).trans h_rax
  replace h_rsi := (congrFun hgg rsi).trans h_rsi
  replace h_r10 := (congrFun hgg r10).trans h_r10
  replace h_r11 := (congrFun hgg r11).trans h_r11
  replace h_rcx := (congrFun hgg rcx).trans h_rcx
  replace hg : Agree [rax, rcx, rdx, r8] g0 g := Agree.of_eq hgg (by agree hg)
  clear hgg
  refine Sim.lea ?_
  have h_r8 := ea_ix (k := 4) (c := 0) h_rax h_r10
  refine Sim.gen fun g hgg => ?_
  replace h_rax := (congrFun hgg rax).trans h_rax
  replace h_rsi := (congrFun hgg rsi).trans h_rsi
  replace h_r10 := (congrFun hgg r10).trans h_r10
  replace h_r11 := (congrFun hgg r11).trans h_r11
  replace h_rcx := (congrFun hgg rcx).trans h_rcx
  replace h_r8 := (congrFun hgg r8).trans h_r8
  replace hg : Agree [rax, rcx, rdx, r8] g0 g := Agree.of_eq hgg (by agree hg)
  clear hgg
  refine Sim.mov ?_
  have h_rdx := h_r11
  refine Sim.gen fun g hgg => ?_
  replace h_rax := (congrFun hgg rax).trans h_rax
  replace h_rsi := (congrFun hgg rsi).trans h_rsi
  replace h_r10 := (congrFun hgg r10).trans h_r10
  replace h_r11 := (congrFun hgg r11).trans h_r11
  replace h_rcx := (congrFun hgg rcx).trans h_rcx
  replace h_r8 := (congrFun hgg r8).trans h_r8
  replace h_rdx := (congrFun hgg rdx).trans h_rdx
  replace hg : Agree [rax, rcx, rdx, r8] g0 g := Agree.of_eq hgg (by agree hg)
  clear hgg
  refine Sim.label ?_
  refine Sim.geny fun y hyy => ?_
  have hv4 := congrFun hyy 4
  replace hy : Agree [0, 1, 2, 3, 6] y0 y := Agree.of_eq hyy (by agree hy)
  clear hyy
  refine Sim.loop (ct_r2s_inner_loop_sim H TP h_r8 (by omega) (hv4.trans (by krfl))) ⟨.refl, .refl, E, h_rax, h_rcx, h_rdx, trivial⟩ ?_
  rintro ⟨a, xrax1, xrcx1, xrdx1⟩ ⟨g1, y1, cf, zf, m⟩ ⟨hg1, hy1, E, h_rax, h_rcx, h_rdx, b_J1⟩
  have h_rsi := (hg1 rsi rfl).trans h_rsi
  have h_r10 := (hg1 r10 rfl).trans h_r10
  have h_r11 := (hg1 r11 rfl).trans h_r11
  have h_r8 := (hg1 r8 rfl).trans h_r8
  have hv4 := (hy1 4 rfl).trans hv4
  replace hg : Agree [rax, rcx, rdx, r8] g0 g1 := Agree.trans rfl (by agree hg) hg1
  replace hy : Agree [0, 1, 2, 3, 6] y0 y1 := Agree.trans rfl (by agree hy) hy1
  clear hg1 hy1
  refine Sim.mov ?_
  have h_rax := h_r8
  refine Sim.gen fun g hgg => ?_
  replace h_rax := (congrFun hgg rax).trans h_rax
  replace h_rsi := (congrFun hgg rsi).trans h_rsi
  replace h_r10 := (congrFun hgg r10).trans h_r10
  replace h_r11 := (congrFun hgg r11).trans h_r11
  replace h_rcx := (congrFun hgg rcx).trans h_rcx
  replace h_r8 := (congrFun hgg r8).trans h_r8
  replace h_rdx := (congrFun hgg rdx).trans h_rdx
  replace hg : Agree [rax, rcx, rdx, r8] g0 g := Agree.of_eq hgg (by agree hg)
  clear hgg
  refine Sim.cmp_jcc codeAt_ct_r2s_loop_aux1 (Cmp.ptr H.hA (by omega) (by omega) h_rax h_rsi) (fun hc cf zf => ?_) (fun hc cf zf => ?_)
  · have hc' : _ < _ := hc
    exact Sim.again (decide_eq_true hc) ⟨by agree hg, by agree hy, E, h_rax, by omega⟩
  · have hc' : ¬ (_ < _) := hc
    exact Sim.done (decide_eq_false hc) ⟨by agree hg, by agree hy, E, h_rax, trivial⟩

def ct_r2s_size32_loop_I (A : Word) (n : Nat) (m0 : Memory) (g0 : Nat → Word) (y0 : Nat → V8) (P : Word) :
    Array Int × Nat × Nat → State → Prop
  | (a, xr10, xr11), s =>
    Agree [rax, rcx, rdx, r8, r10, r11] g0 s.gpr ∧ Agree [0, 1, 2, 3, 6] y0 s.ymm ∧ Env A n m0 s.mem a ∧
    s.gpr r10 = BitVec.ofNat 64 xr10 ∧ s.gpr r11 = P + BitVec.ofNat 64 xr11 ∧ xr10 < 2 ^ 34

def ct_r2s_size32_loop_J (A : Word) (n : Nat) (m0 : Memory) (g0 : Nat → Word) (y0 : Nat → V8) (P : Word) :
    Array Int × Nat × Nat → State → Prop
  | (a, xr10, xr11), s =>
    Agree [rax, rcx, rdx, r8, r10, r11] g0 s.gpr ∧ Agree [0, 1, 2, 3, 6] y0 s.ymm ∧ Env A n m0 s.mem a ∧
    s.gpr r10 = BitVec.ofNat 64 xr10 ∧ s.gpr r11 = P + BitVec.ofNat 64 xr11 ∧ True

theorem ct_r2s_size32_loop_sim {K : Machine} {A : Word} {n : Nat} {m0 : Memory} {g0 : Nat → Word} {y0 : Nat → V8} (H : Host K A n
    m0) {P : Word} {p : Array Int} (TP : Tab K A n m0 P p) {xrdi : Nat} (h_rdi : g0 rdi = A + BitVec.ofNat 64 xrdi) (b_rdi : xrdi <
    2 ^ 36) {xrsi : Nat} (h_rsi : g0 rsi = A + BitVec.ofNat 64 xrsi) (b_rsi : xrsi < 2 ^ 37) {xr9 : Nat} (h_r9 : g0 r9 =
    BitVec.ofNat 64 xr9) (b_r9 : xr9 < 2 ^ 34) {v4 : V8} (hv4 : y0 4 = v4) :
    ∀ st s, ct_r2s_size32_loop_I A n m0 g0 y0 P st s →
      Sim K (Asm.ct_r2s_size32_loop p n xrdi xrsi xr9 v4 st) Text.ct_r2s_size32_loop s (LoopPost (ct_r2s_size32_loop_I A n m0 g0 y0 P) (ct_r2s_size32_loop_J A n m0 g0 y0 P) Text.ct_r2s_size32_loop Text.at_ct_r2s_done) := by
  have hn := H.hn
  rintro ⟨a, xr10, xr11⟩ ⟨g, y, cf, zf, m⟩ ⟨hg, hy, E, h_r10, h_r11, b_I⟩
  replace h_rdi := (hg rdi rfl).trans h_rdi
  replace h_rsi := (hg rsi rfl).trans h_rsi
  replace h_r9 := (hg r9 rfl).trans h_r9
  obtain rfl := (hy 4 rfl).trans hv4
  unfold Asm.ct_r2s_size32_loop
  refine Sim.mov ?_
  have h_rax := h_rdi
  refine Sim.gen fun g hgg => ?_
  replace h_r10 := (congrFun hgg r10).trans h_r10
  replace h_r11 := (congrFun hgg r11).trans h_r11
  replace h_rdi := (congrFun hgg rdi).trans h_rdi
  replace h_rsi := (congrFun hgg rsi).trans h_rsi
  replace h_r9 := (congrFun hgg r9).trans h_r9
  replace h_rax := (congrFun hgg rax).trans h_rax
  replace hg : Agree [rax, rcx, rdx, r8, r10, r11] g0 g := Agree.of_eq hgg (by agree hg)
  clear hgg
  refine Sim.label ?_
  refine Sim.geny fun y hyy => ?_
  have hv4 := congrFun hyy 4
  replace hy : Agree [0, 1, 2, 3, 6] y0 y := Agree.of_eq hyy (by agree hy)
  clear hyy
  refine Sim.loop (ct_r2s_loop_aux1_sim H TP h_rsi (by omega) h_r10 (by omega) h_r11 (hv4.trans (by krfl))) ⟨.refl, .refl, E, h_rax, by omega⟩ ?_
  rintro ⟨a, xrax1⟩ ⟨g1, y1, cf, zf, m⟩ ⟨hg1, hy1, E, h_rax, b_J1⟩
  have h_r10 := (hg1 r10 rfl).trans h_r10
  have h_r11 := (hg1 r11 rfl).trans h_r11
  have h_rdi := (hg1 rdi rfl).trans h_rdi
  have h_rsi := (hg1 rsi rfl).trans h_rsi
  have h_r9 := (hg1 r9 rfl).trans h_r9
  have hv4 := (hy1 4 rfl).trans hv4
  replace hg : Agree [rax, rcx, rdx, r8, r10, r11] g0 g1 := Agree.trans rfl (by agree hg) hg1
  replace hy : Agree [0, 1, 2, 3, 6] y0 y1 := Agree.trans rfl (by agree hy) hy1
  clear hg1 hy1
  refine Sim.add fun cf zf => ?_
  have h_r11 := ptr_add h_r11 h_r10
  refine Sim.gen fun g hgg => ?_
  replace h_r10 := (congrFun hgg r10).trans h_r10
  replace h_r11 := (congrFun hgg r11).trans h_r11
  replace h_rdi := (congrFun hgg rdi).trans h_rdi
  replace h_rsi := (congrFun hgg rsi).trans h_rsi
  replace h_r9 := (congrFun hgg r9).trans h_r9
  replace h_rax := (congrFun hgg rax).trans h_rax
  replace hg : Agree [rax, rcx, rdx, r8, r10, r11] g0 g := Agree.of_eq hgg (by agree hg)
  clear hgg
  refine Sim.shl fun cf zf => ?_
  have h_r10 := cnt_shl1 h_r10
  refine Sim.gen fun g hgg => ?_
  replace h_r10 := (congrFun hgg r10).trans h_r10
  replace h_r11 := (congrFun hgg r11).trans h_r11
  replace h_rdi := (congrFun hgg rdi).trans h_rdi
  replace h_rsi := (congrFun hgg rsi).trans h_rsi
  replace h_r9 := (congrFun hgg r9).trans h_r9
  replace h_rax := (congrFun hgg rax).trans h_rax
  replace hg : Agree [rax, rcx, rdx, r8, r10, r11] g0 g := Agree.of_eq hgg (by agree hg)
  clear hgg
  refine Sim.cmp_jcc codeAt_ct_r2s_size32_loop (Cmp.cnt (by omega) (by omega) h_r10 h_r9) (fun hc cf zf => ?_) (fun hc cf zf => ?_)
  · have hc' : _ ≤ _ := hc
    exact Sim.again (decide_eq_true hc) ⟨by agree hg, by agree hy, E, h_r10, h_r11, by omega⟩
  · have hc' : ¬ (_ ≤ _) := hc
    exact Sim.done (decide_eq_false hc) ⟨by agree hg, by agree hy, E, h_r10, h_r11, trivial⟩

theorem ct_r2s_tail_sim {K : Machine} {A : Word} {n : Nat} {m0 : Memory} {g : Nat → Word} {y : Nat → V8} (H : Host K A n m0) {P :
    Word} {p : Array Int} (TP : Tab K A n m0 P p) {xrdi : Nat} (h_rdi : g rdi = A + BitVec.ofNat 64 xrdi) (b_rdi : xrdi < 2 ^ 36)
    {xrsi : Nat} (h_rsi : g rsi = A + BitVec.ofNat 64 xrsi) (b_rsi : xrsi < 2 ^ 37) {xrdx : Nat} (h_rdx : g rdx = P + BitVec.ofNat
    64 xrdx) {xr9 : Nat} (h_r9 : g r9 = BitVec.ofNat 64 xr9) (b_r9 : xr9 < 2 ^ 34) {v4 : V8} (hv4 : y 4 = v4) {v5 : V8} (hv5 : y 5 =
    v5) {v6 : V8} (hv6 : y 6 = v6) {xrax : Nat} (h_rax : g rax = A + BitVec.ofNat 64 xrax) (b_rax : xrax < 2 ^ 37) {a : Array Int}
    {g0 : Nat → Word} {cf zf : Bool} {m : Memory} (hg : Agree [rax, rcx, rdx, rsi, rdi, r8, r9, r10, r11] g0 g) (E : Env A n m0 m a)
    :
    Sim K (Asm.ct_r2s_tail p n xrdi xrsi xrdx xr9 v4 v5 v6 a xrax) Text.ct_r2s_size16_loop ⟨g, y, cf, zf, m⟩ (RetPost A n m0 g0) := by
  have hn := H.hn
  subst hv4
  subst hv5
  subst hv6
  unfold Asm.ct_r2s_tail
  refine Sim.geny fun y hyy => ?_
  have hv4 := congrFun hyy 4
  have hv5 := congrFun hyy 5
  have hv6 := congrFun hyy 6
  clear hyy
  refine Sim.loop (ct_r2s_size16_loop_sim H h_rsi (by omega) (hv4.trans (by krfl)) (hv5.trans (by krfl)) (hv6.trans (by krfl))) ⟨.refl, .refl, E, h_rax, trivial⟩ ?_
  rintro ⟨a, xrax1⟩ ⟨g1, y1, cf, zf, m⟩ ⟨hg1, hy1, E, h_rax, b_J1⟩
  have h_rdi := (hg1 rdi rfl).trans h_rdi
  have h_rsi := (hg1 rsi rfl).trans h_rsi
  have h_rdx := (hg1 rdx rfl).trans h_rdx
  have h_r9 := (hg1 r9 rfl).trans h_r9
  have hv4 := (hy1 4 rfl).trans hv4
  have hv5 := (hy1 5 rfl).trans hv5
  have hv6 := (hy1 6 rfl).trans hv6
  replace hg : Agree [rax, rcx, rdx, rsi, rdi, r8, r9, r10, r11] g0 g1 := Agree.trans rfl (by agree hg) hg1
  clear hg1 hy1
  refine Sim.cmpi_jcc codeAt_ct_r2s_done (Cmp.cnt (by omega) (by omega) h_r9 rfl) (fun hc cf zf => ?_) (fun hc cf zf => ?_)
  · have hc' : _ ≤ _ := hc
    refine Sim.if_pos hc ?_
    exact Sim.stop ⟨⟨_, rfl⟩, E, by agree hg⟩
  · have hc' : ¬ (_ ≤ _) := hc
    refine Sim.if_neg hc ?_
    refine Sim.movi ?_
    have h_r10 : BitVec.ofNat 64 32 = BitVec.ofNat 64 32 := rfl
    refine Sim.gen fun g hgg => ?_
    replace h_rdi := (congrFun hgg rdi).trans h_rdi
    replace h_rsi := (congrFun hgg rsi).trans h_rsi
    replace h_rdx := (congrFun hgg rdx).trans h_rdx
    replace h_r9 := (congrFun hgg r9).trans h_r9
    replace h_rax := (congrFun hgg rax).trans h_rax
    replace h_r10 := (congrFun hgg r10).trans h_r10
    replace hg : Agree [rax, rcx, rdx, rsi, rdi, r8, r9, r10, r11] g0 g := Agree.of_eq hgg (by agree hg)
    clear hgg
    refine Sim.lea ?_
    have h_r11 := ea_at (k := 32) h_rdx
    refine Sim.gen fun g hgg => ?_
    replace h_rdi := (congrFun hgg rdi).trans h_rdi
    replace h_rsi := (congrFun hgg rsi).trans h_rsi
    replace h_rdx := (congrFun hgg rdx).trans h_rdx
    replace h_r9 := (congrFun hgg r9).trans h_r9
    replace h_rax := (congrFun hgg rax).trans h_rax
    replace h_r10 := (congrFun hgg r10).trans h_r10
    replace h_r11 := (congrFun hgg r11).trans h_r11
    replace hg : Agree [rax, rcx, rdx, rsi, rdi, r8, r9, r10, r11] g0 g := Agree.of_eq hgg (by agree hg)
    clear hgg
    refine Sim.label ?_
    refine Sim.geny fun y hyy => ?_
    replace hv4 := (congrFun hyy 4).trans hv4
    replace hv5 := (congrFun hyy 5).trans hv5
    replace hv6 := (congrFun hyy 6).trans hv6
    clear hyy
    refine Sim.loop (ct_r2s_size32_loop_sim H TP h_rdi (by omega) h_rsi (by omega) h_r9 (by omega) (hv4.trans (by krfl))) ⟨.refl, .refl, E, h_r10, h_r11, by omega⟩ ?_
    rintro ⟨a, xr102, xr112⟩ ⟨g2, y2, cf, zf, m⟩ ⟨hg2, hy2, E, h_r10, h_r11, b_J2⟩
    have h_rdi := (hg2 rdi rfl).trans h_rdi
    have h_rsi := (hg2 rsi rfl).trans h_rsi
    have h_r9 := (hg2 r9 rfl).trans h_r9
    have hv4 := (hy2 4 rfl).trans hv4
    have hv5 := (hy2 5 rfl).trans hv5
    replace hg : Agree [rax, rcx, rdx, rsi, rdi, r8, r9, r10, r11] g0 g2 := Agree.trans rfl (by agree hg) hg2
    clear hg2 hy2
    refine Sim.label ?_
    exact Sim.stop ⟨⟨_, rfl⟩, E, by agree hg⟩

theorem ntt_red_ct_rev2std_asm_sim {K : Machine} {A : Word} {n : Nat} {m0 : Memory} {g : Nat → Word} {y : Nat → V8} (H : Host K A n
    m0) (h_rdi : g rdi = A + BitVec.ofNat 64 0) (h_rsi : g rsi = BitVec.ofNat 64 n) {P : Word} {p : Array Int} (TP : Tab K A n m0 P
    p) (h_rdx : g rdx = P + BitVec.ofNat 64 0) {a : Array Int} {g0 : Nat → Word} {cf zf : Bool} {m : Memory} (hg : Agree [rax, rcx,
    rdx, rsi, rdi, r8, r9, r10, r11] g0 g) (E : Env A n m0 m a) :
    Sim K (Asm.ntt_red_ct_rev2std_asm a n p) Text.ntt_red_ct_rev2std_asm ⟨g, y, cf, zf, m⟩ (RetPost A n m0 g0) := by
  have hn := H.hn
  unfold Asm.ntt_red_ct_rev2std_asm
  refine Sim.mov ?_
  have h_rax := h_rdi
  refine Sim.gen fun g hgg => ?_
  replace h_rdi := (congrFun hgg rdi).trans h_rdi
  replace h_rsi := (congrFun hgg rsi).trans h_rsi
  replace h_rdx := (congrFun hgg rdx).trans h_rdx
  replace h_rax := (congrFun hgg rax).trans h_rax
  replace hg : Agree [rax, rcx, rdx, rsi, rdi, r8, r9, r10, r11] g0 g := Agree.of_eq hgg (by agree hg)
  clear hgg
  refine Sim.mov ?_
  have h_r9 := h_rsi
  refine Sim.gen fun g hgg => ?_
  replace h_rdi := (congrFun hgg rdi).trans h_rdi
  replace h_rsi := (congrFun hgg rsi).trans h_rsi
  replace h_rdx := (congrFun hgg rdx).trans h_rdx
  replace h_rax := (congrFun hgg rax).trans h_rax
  replace h_r9 := (congrFun hgg r9).trans h_r9
  replace hg : Agree [rax, rcx, rdx, rsi, rdi, r8, r9, r10, r11] g0 g := Agree.of_eq hgg (by agree hg)
  clear hgg
  refine Sim.lea ?_
  have h_rsi := ea_ix (k := 4) (c := 0) h_rdi h_rsi
  refine Sim.gen fun g hgg => ?_
  replace h_rdi := (congrFun hgg rdi).trans h_rdi
  replace h_rsi := (congrFun hgg rsi).trans h_rsi
  replace h_rdx := (congrFun hgg rdx).trans h_rdx
  replace h_rax := (congrFun hgg rax).trans h_rax
  replace h_r9 := (congrFun hgg r9).trans h_r9
  replace hg : Agree [rax, rcx, rdx, rsi, rdi, r8, r9, r10, r11] g0 g := Agree.of_eq hgg (by agree hg)
  clear hgg
  refine Sim.load_sxwd TP E (ea_at h_rdx) fun v _ => ?_
  refine Sim.const H E ?_
  refine Sim.vec ?_
  refine Sim.const H E ?_
  refine Sim.vec ?_
  refine Sim.const H E ?_
  refine Sim.label ?_
  refine Sim.geny fun y hyy => ?_
  have hv4 := congrFun hyy 4
  have hv5 := congrFun hyy 5
  have hv6 := congrFun hyy 6
  clear hyy
  refine Sim.loop (ct_r2s_size8_loop_sim H h_rsi (by omega) (hv4.trans (by krfl)) (hv5.trans (by krfl)) (hv6.trans (by krfl))) ⟨.refl, .refl, E, h_rax, trivial⟩ ?_
  rintro ⟨a, xrax1⟩ ⟨g1, y1, cf, zf, m⟩ ⟨hg1, hy1, E, h_rax, b_J1⟩
  have h_rdi := (hg1 rdi rfl).trans h_rdi
  have h_rsi := (hg1 rsi rfl).trans h_rsi
  have h_rdx := (hg1 rdx rfl).trans h_rdx
  have h_r9 := (hg1 r9 rfl).trans h_r9
  have hv4 := (hy1 4 rfl).trans hv4
  have hv5 := (hy1 5 rfl).trans hv5
  have hv6 := (hy1 6 rfl).trans hv6
  replace hg : Agree [rax, rcx, rdx, rsi, rdi, r8, r9, r10, r11] g0 g1 := Agree.trans rfl (by agree hg) hg1
  clear hg1 hy1
  refine Sim.mov ?_
  have h_rax := h_rdi
  refine Sim.gen fun g hgg => ?_
  replace h_rdi := (congrFun hgg rdi).trans h_rdi
  replace h_rsi := (congrFun hgg rsi).trans h_rsi
  replace h_rdx := (congrFun hgg rdx).trans h_rdx
  replace h_rax := (congrFun hgg rax).trans h_rax
  replace h_r9 := (congrFun hgg r9).trans h_r9
  replace hg : Agree [rax, rcx, rdx, rsi, rdi, r8, r9, r10, r11] g0 g := Agree.of_eq hgg (by agree hg)
  clear hgg
  refine Sim.load_sxwd TP E (ea_at h_rdx) fun v _ => ?_
  refine Sim.vec ?_
  refine Sim.label ?_
  refine Sim.geny fun y hyy => ?_
  replace hv4 := (congrFun hyy 4).trans hv4
  have hv5 := congrFun hyy 5
  have hv6 := congrFun hyy 6
  clear hyy
  exact ct_r2s_tail_sim H TP h_rdi (by omega) h_rsi (by omega) h_rdx h_r9 (by omega) (hv4.trans (by krfl)) (hv5.trans (by krfl)) (hv6.trans (by krfl)) h_rax (by omega) (by agree hg) E

def mct_r2s_size8_loop2_I (A : Word) (n : Nat) (m0 : Memory) (g0 : Nat → Word) (y0 : Nat → V8) :
    Array Int × Nat → State → Prop
  | (a, xrax), s =>
    Agree [rax] g0 s.gpr ∧ Agree [0, 1, 2, 3] y0 s.ymm ∧ Env A n m0 s.mem a ∧
    s.gpr rax = A + BitVec.ofNat 64 xrax ∧ True

def mct_r2s_size8_loop2_J (A : Word) (n : Nat) (m0 : Memory) (g0 : Nat → Word) (y0 : Nat → V8) :
    Array Int × Nat → State → Prop
  | (a, xrax), s =>
    Agree [rax] g0 s.gpr ∧ Agree [0, 1, 2, 3] y0 s.ymm ∧ Env A n m0 s.mem a ∧
    s.gpr rax = A + BitVec.ofNat 64 xrax ∧ True

theorem mct_r2s_size8_loop2_sim {K : Machine} {A : Word} {n : Nat} {m0 : Memory} {g0 : Nat → Word} {y0 : Nat → V8} (H : Host K A n
    m0) {xrsi : Nat} (h_rsi : g0 rsi = A + BitVec.ofNat 64 xrsi) (b_rsi : xrsi < 2 ^ 37) {v4 : V8} (hv4 : y0 4 = v4) {v5 : V8} (hv5
    : y0 5 = v5) {v6 : V8} (hv6 : y0 6 = v6) {v7 : V8} (hv7 : y0 7 = v7) :
    ∀ st s, mct_r2s_size8_loop2_I A n m0 g0 y0 st s →
      Sim K (Asm.mct_r2s_size8_loop2 xrsi v4 v5 v6 v7 st) Text.mct_r2s_size8_loop2 s (LoopPost (mct_r2s_size8_loop2_I A n m0 g0 y0) (mct_r2s_size8_loop2_J A n m0 g0 y0) Text.mct_r2s_size8_loop2 Text.mct_r2s_size8_loop2_exit) := by
  have hn := H.hn
  rintro ⟨a, xrax⟩ ⟨g, y, cf, zf, m⟩ ⟨hg, hy, E, h_rax, b_I⟩
  replace h_rsi := (hg rsi rfl).trans h_rsi
  obtain rfl := (hy 4 rfl).trans hv4
  obtain rfl := (hy 5 rfl).trans hv5
  obtain rfl := (hy 6 rfl).trans hv6
  obtain rfl := (hy 7 rfl).trans hv7
  unfold Asm.mct_r2s_size8_loop2
  refine Sim.load H E (ea_at h_rax) fun v b_394 => ?_
  refine Sim.vec ?_
  refine Sim.vec ?_
  refine Sim.vec ?_
  refine Sim.vec ?_
  refine Sim.vec ?_
  refine Sim.vec ?_
  refine Sim.vec ?_
  refine Sim.vec ?_
  refine Sim.vec ?_
  refine Sim.vec ?_
  refine Sim.vec ?_
  refine Sim.vec ?_
  refine Sim.vec ?_
  refine Sim.vec ?_
  refine Sim.vec ?_
  refine Sim.vec ?_
  refine Sim.vec ?_
  refine Sim.vec ?_
  refine Sim.vec ?_
  refine Sim.vec ?_
  refine Sim.vec ?_
  refine Sim.vec ?_
  refine Sim.vec ?_
  refine Sim.vec ?_
  refine Sim.vec ?_
  refine Sim.vec ?_
  refine Sim.vec ?_
  refine Sim.vec ?_
  refine Sim.vec ?_
  refine Sim.vec ?_
  refine Sim.vec ?_
  refine Sim.vec ?_
  refine Sim.store H E (ea_at h_rax) (by krfl) fun a m E b_427 => ?_
  refine Sim.addi fun cf zf => ?_
  have h_rax := ptr_addi (k := 32) h_rax
  refine Sim.gen fun g hgg => ?_
  replace h_rax := (congrFun hgg rax).trans h_rax
  replace h_rsi := (congrFun hgg rsi).trans h_rsi
  replace hg : Agree [rax] g0 g := Agree.of_eq hgg (by agree hg)
  clear hgg
  refine Sim.cmp_jcc codeAt_mct_r2s_size8_loop2 (Cmp.ptr H.hA (by omega) (by omega) h_rax h_rsi) (fun hc cf zf => ?_) (fun hc cf zf => ?_)
  · have hc' : _ < _ := hc
    exact Sim.again (decide_eq_true hc) ⟨by agree hg, by agree hy, E, h_rax, trivial⟩
  · have hc' : ¬ (_ < _) := hc
    exact Sim.done (decide_eq_false hc) ⟨by agree hg, by agree hy, E, h_rax, trivial⟩

theorem mulntt_red_ct_rev2std_asm_sim {K : Machine} {A : Word} {n : Nat} {m0 : Memory} {g : Nat → Word} {y : Nat → V8} (H : Host K A
    n m0) (h_rdi : g rdi = A + BitVec.ofNat 64 0) (h_rsi : g rsi = BitVec.ofNat 64 n) {P : Word} {p : Array Int} (TP : Tab K A n m0
    P p) (h_rdx : g rdx = P + BitVec.ofNat 64 0) {a : Array Int} {g0 : Nat → Word} {cf zf : Bool} {m : Memory} (hg : Agree [rax,
    rcx, rdx, rsi, rdi, r8, r9, r10, r11] g0 g) (E : Env A n m0 m a) :
    Sim K (Asm.mulntt_red_ct_rev2std_asm a n p) Text.mulntt_red_ct_rev2std_asm ⟨g, y, cf, zf, m⟩ (RetPost A n m0 g0) := by
  have hn := H.hn
  unfold Asm.mulntt_red_ct_rev2std_asm
  refine Sim.mov ?_
  have h_rax := h_rdi
  refine Sim.gen fun g hgg => ?_
  replace h_rdi := (congrFun hgg rdi).trans h_rdi
  replace h_rsi := (congrFun hgg rsi).trans h_rsi
  replace h_rdx := (congrFun hgg rdx).trans h_rdx
  replace h_rax := (congrFun hgg rax).trans h_rax
  replace hg : Agree [rax, rcx, rdx, rsi, rdi, r8, r9, r10, r11] g0 g := Agree.of_eq hgg (by agree hg)
  clear hgg
  refine Sim.mov ?_
  have h_r9 := h_rsi
  refine Sim.gen fun g hgg => ?_
  replace h_rdi := (congrFun hgg rdi).trans h_rdi
  replace h_rsi := (congrFun hgg rsi).trans h_rsi
  replace h_rdx := (congrFun hgg rdx).trans h_rdx
  replace h_rax := (congrFun hgg rax).trans h_rax
  replace h_r9 := (congrFun hgg r9).trans h_r9
  replace hg : Agree [rax, rcx, rdx, rsi, rdi, r8, r9, r10, r11] g0 g := Agree.of_eq hgg (by agree hg)
  clear hgg
  refine Sim.lea ?_
  have h_rsi := ea_ix (k := 4) (c := 0) h_rdi h_rsi
  refine Sim.gen fun g hgg => ?_
  replace h_rdi := (congrFun hgg rdi).trans h_rdi
  replace h_rsi := (congrFun hgg rsi).trans h_rsi
  replace h_rdx := (congrFun hgg rdx).trans h_rdx
  replace h_rax := (congrFun hgg rax).trans h_rax
  replace h_r9 := (congrFun hgg r9).trans h_r9
  replace hg : Agree [rax, rcx, rdx, rsi, rdi, r8, r9, r10, r11] g0 g := Agree.of_eq hgg (by agree hg)
  clear hgg
  refine Sim.load_sxwd TP E (ea_at h_rdx) fun v _ => ?_
  refine Sim.const H E ?_
  refine Sim.vec ?_
  refine Sim.const H E ?_
  refine Sim.vec ?_
  refine Sim.const H E ?_
  refine Sim.vec ?_
  refine Sim.const H E ?_
  refine Sim.label ?_
  refine Sim.geny fun y hyy => ?_
  have hv4 := congrFun hyy 4
  have hv5 := congrFun hyy 5
  have hv6 := congrFun hyy 6
  have hv7 := congrFun hyy 7
  clear hyy
  refine Sim.loop (mct_r2s_size8_loop2_sim H h_rsi (by omega) (hv4.trans (by krfl)) (hv5.trans (by krfl)) (hv6.trans (by krfl)) (hv7.trans (by krfl))) ⟨.refl, .refl, E, h_rax, trivial⟩ ?_
  rintro ⟨a, xrax1⟩ ⟨g1, y1, cf, zf, m⟩ ⟨hg1, hy1, E, h_rax, b_J1⟩
  have h_rdi := (hg1 rdi rfl).trans h_rdi
  have h_rsi := (hg1 rsi rfl).trans h_rsi
  have h_rdx := (hg1 rdx rfl).trans h_rdx
  have h_r9 := (hg1 r9 rfl).trans h_r9
  have hv4 := (hy1 4 rfl).trans hv4
  have hv5 := (hy1 5 rfl).trans hv5
  have hv6 := (hy1 6 rfl).trans hv6
  have hv7 := (hy1 7 rfl).trans hv7
  replace hg : Agree [rax, rcx, rdx, rsi, rdi, r8, r9, r10, r11] g0 g1 := Agree.trans rfl (by agree hg) hg1
  clear hg1 hy1
  refine Sim.mov ?_
  have h_rax := h_rdi
  refine Sim.gen fun g hgg => ?_
  replace h_rdi := (congrFun hgg rdi).trans h_rdi
  replace h_rsi := (congrFun hgg rsi).trans h_rsi
  replace h_rdx := (congrFun hgg rdx).trans h_rdx
  replace h_rax := (congrFun hgg rax).trans h_rax
  replace h_r9 := (congrFun hgg r9).trans h_r9
  replace hg : Agree [rax, rcx, rdx, rsi, rdi, r8, r9, r10, r11] g0 g := Agree.of_eq hgg (by agree hg)
  clear hgg
  refine Sim.load_sxwd TP E (ea_at h_rdx) fun v _ => ?_
  refine Sim.vec ?_
  refine Sim.jmp codeAt_ct_r2s_size16_loop ?_
  refine Sim.geny fun y hyy => ?_
  replace hv4 := (congrFun hyy 4).trans hv4
  have hv5 := congrFun hyy 5
  have hv6 := congrFun hyy 6
  replace hv7 := (congrFun hyy 7).trans hv7
  clear hyy
  exact ct_r2s_tail_sim H TP h_rdi (by omega) h_rsi (by omega) h_rdx h_r9 (by omega) (hv4.trans (by krfl)) (hv5.trans (by krfl)) (hv6.trans (by krfl)) h_rax (by omega) (by agree hg) E

end X86
