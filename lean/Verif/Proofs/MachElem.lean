import Verif.Proofs.MachText

/-
Execution of the text of src/ntt_asm.S follows the model.  Generated by tools/genmach.py.
-/

namespace X86
open C Avx Spec

def loop0_I (A : Word) (n : Nat) (m0 : Memory) (g0 : Nat → Word) (y0 : Nat → V8) :
    Array Int × Nat → State → Prop
  | (a, xrax), s =>
    Agree [rax] g0 s.gpr ∧ Agree [0, 1, 2, 4] y0 s.ymm ∧ Env A n m0 s.mem a ∧
    s.gpr rax = A + BitVec.ofNat 64 xrax ∧ True

def loop0_J (A : Word) (n : Nat) (m0 : Memory) (g0 : Nat → Word) (y0 : Nat → V8) :
    Array Int × Nat → State → Prop
  | (a, xrax), s =>
    Agree [rax] g0 s.gpr ∧ Agree [0, 1, 2, 4] y0 s.ymm ∧ Env A n m0 s.mem a ∧
    s.gpr rax = A + BitVec.ofNat 64 xrax ∧ True

theorem loop0_sim {K : Machine} {A : Word} {n : Nat} {m0 : Memory} {g0 : Nat → Word} {y0 : Nat → V8} (H : Host K A n m0) {xrsi :
    Nat} (h_rsi : g0 rsi = A + BitVec.ofNat 64 xrsi) (b_rsi : xrsi < 2 ^ 37) {v3 : V8} (hv3 : y0 3 = v3) :
    ∀ st s, loop0_I A n m0 g0 y0 st s →
      Sim K (Asm.loop0 xrsi v3 st) Text.loop0 s (LoopPost (loop0_I A n m0 g0 y0) (loop0_J A n m0 g0 y0) Text.loop0 Text.loop0_exit) := by
  have hn := H.hn
  rintro ⟨a, xrax⟩ ⟨g, y, cf, zf, m⟩ ⟨hg, hy, E, h_rax, b_I⟩
  replace h_rsi := (hg rsi rfl).trans h_rsi
  obtain rfl := (hy 3 rfl).trans hv3
  unfold Asm.loop0
  refine Sim.load H E (ea_at h_rax) fun v b_30 => ?_
  refine Sim.load H E (ea_at h_rax) fun v b_31 => ?_
  refine Sim.vec ?_
  refine Sim.vec ?_
  refine Sim.vec ?_
  refine Sim.vec ?_
  refine Sim.vec ?_
  refine Sim.store H E (ea_at h_rax) (by krfl) fun a m E b_37 => ?_
  refine Sim.vec ?_
  refine Sim.vec ?_
  refine Sim.vec ?_
  refine Sim.vec ?_
  refine Sim.vec ?_
  refine Sim.store H E (ea_at h_rax) (by krfl) fun a m E b_43 => ?_
  refine Sim.addi fun cf zf => ?_
  have h_rax := ptr_addi (k := 64) h_rax
  refine Sim.gen fun g hgg => ?_
  replace h_rax := (congrFun hgg rax).trans h_rax
  replace h_rsi := (congrFun hgg rsi).trans h_rsi
  replace hg : Agree [rax] g0 g := Agree.of_eq hgg (by agree hg)
  clear hgg
  refine Sim.cmp_jcc codeAt_loop0 (Cmp.ptr H.hA (by omega) (by omega) h_rax h_rsi) (fun hc cf zf => ?_) (fun hc cf zf => ?_)
  · have hc' : _ < _ := hc
    exact Sim.again (decide_eq_true hc) ⟨by agree hg, by agree hy, E, h_rax, trivial⟩
  · have hc' : ¬ (_ < _) := hc
    exact Sim.done (decide_eq_false hc) ⟨by agree hg, by agree hy, E, h_rax, trivial⟩

theorem reduce_array_asm_sim {K : Machine} {A : Word} {n : Nat} {m0 : Memory} {g : Nat → Word} {y : Nat → V8} (H : Host K A n m0)
    (h_rdi : g rdi = A + BitVec.ofNat 64 0) (h_rsi : g rsi = BitVec.ofNat 64 n) {a : Array Int} {g0 : Nat → Word} {cf zf : Bool} {m
    : Memory} (hg : Agree [rax, rcx, rdx, rsi, rdi, r8, r9, r10, r11] g0 g) (E : Env A n m0 m a) :
    Sim K (Asm.reduce_array_asm a n) Text.reduce_array_asm ⟨g, y, cf, zf, m⟩ (RetPost A n m0 g0) := by
  have hn := H.hn
  unfold Asm.reduce_array_asm
  refine Sim.const H E ?_
  refine Sim.mov ?_
  have h_rax := h_rdi
  refine Sim.gen fun g hgg => ?_
  replace h_rdi := (congrFun hgg rdi).trans h_rdi
  replace h_rsi := (congrFun hgg rsi).trans h_rsi
  replace h_rax := (congrFun hgg rax).trans h_rax
  replace hg : Agree [rax, rcx, rdx, rsi, rdi, r8, r9, r10, r11] g0 g := Agree.of_eq hgg (by agree hg)
  clear hgg
  refine Sim.lea ?_
  have h_rsi := ea_ix (k := 4) (c := 0) h_rdi h_rsi
  refine Sim.gen fun g hgg => ?_
  replace h_rdi := (congrFun hgg rdi).trans h_rdi
  replace h_rsi := (congrFun hgg rsi).trans h_rsi
  replace h_rax := (congrFun hgg rax).trans h_rax
  replace hg : Agree [rax, rcx, rdx, rsi, rdi, r8, r9, r10, r11] g0 g := Agree.of_eq hgg (by agree hg)
  clear hgg
  refine Sim.label ?_
  refine Sim.geny fun y hyy => ?_
  have hv3 := congrFun hyy 3
  clear hyy
  refine Sim.loop (loop0_sim H h_rsi (by omega) (hv3.trans (by krfl))) ⟨.refl, .refl, E, h_rax, trivial⟩ ?_
  rintro ⟨a, xrax1⟩ ⟨g1, y1, cf, zf, m⟩ ⟨hg1, hy1, E, h_rax, b_J1⟩
  have h_rdi := (hg1 rdi rfl).trans h_rdi
  have h_rsi := (hg1 rsi rfl).trans h_rsi
  have hv3 := (hy1 3 rfl).trans hv3
  replace hg : Agree [rax, rcx, rdx, rsi, rdi, r8, r9, r10, r11] g0 g1 := Agree.trans rfl (by agree hg) hg1
  clear hg1 hy1
  exact Sim.stop ⟨⟨_, rfl⟩, E, by agree hg⟩

def loop0b_I (A : Word) (n : Nat) (m0 : Memory) (g0 : Nat → Word) (y0 : Nat → V8) :
    Array Int × Nat → State → Prop
  | (a, xrax), s =>
    Agree [rax] g0 s.gpr ∧ Agree [0, 2, 4] y0 s.ymm ∧ Env A n m0 s.mem a ∧
    s.gpr rax = A + BitVec.ofNat 64 xrax ∧ True

def loop0b_J (A : Word) (n : Nat) (m0 : Memory) (g0 : Nat → Word) (y0 : Nat → V8) :
    Array Int × Nat → State → Prop
  | (a, xrax), s =>
    Agree [rax] g0 s.gpr ∧ Agree [0, 2, 4] y0 s.ymm ∧ Env A n m0 s.mem a ∧
    s.gpr rax = A + BitVec.ofNat 64 xrax ∧ True

theorem loop0b_sim {K : Machine} {A : Word} {n : Nat} {m0 : Memory} {g0 : Nat → Word} {y0 : Nat → V8} (H : Host K A n m0) {xrsi :
    Nat} (h_rsi : g0 rsi = A + BitVec.ofNat 64 xrsi) (b_rsi : xrsi < 2 ^ 37) {v3 : V8} (hv3 : y0 3 = v3) :
    ∀ st s, loop0b_I A n m0 g0 y0 st s →
      Sim K (Asm.loop0b xrsi v3 st) Text.loop0b s (LoopPost (loop0b_I A n m0 g0 y0) (loop0b_J A n m0 g0 y0) Text.loop0b Text.loop0b_exit) := by
  have hn := H.hn
  rintro ⟨a, xrax⟩ ⟨g, y, cf, zf, m⟩ ⟨hg, hy, E, h_rax, b_I⟩
  replace h_rsi := (hg rsi rfl).trans h_rsi
  obtain rfl := (hy 3 rfl).trans hv3
  unfold Asm.loop0b
  refine Sim.load H E (ea_at h_rax) fun v b_53 => ?_
  refine Sim.vec ?_
  refine Sim.vec ?_
  refine Sim.vec ?_
  refine Sim.vec ?_
  refine Sim.vec ?_
  refine Sim.store H E (ea_at h_rax) (by krfl) fun a m E b_59 => ?_
  refine Sim.addi fun cf zf => ?_
  have h_rax := ptr_addi (k := 32) h_rax
  refine Sim.gen fun g hgg => ?_
  replace h_rax := (congrFun hgg rax).trans h_rax
  replace h_rsi := (congrFun hgg rsi).trans h_rsi
  replace hg : Agree [rax] g0 g := Agree.of_eq hgg (by agree hg)
  clear hgg
  refine Sim.cmp_jcc codeAt_loop0b (Cmp.ptr H.hA (by omega) (by omega) h_rax h_rsi) (fun hc cf zf => ?_) (fun hc cf zf => ?_)
  · have hc' : _ < _ := hc
    exact Sim.again (decide_eq_true hc) ⟨by agree hg, by agree hy, E, h_rax, trivial⟩
  · have hc' : ¬ (_ < _) := hc
    exact Sim.done (decide_eq_false hc) ⟨by agree hg, by agree hy, E, h_rax, trivial⟩

theorem reduce_array_asm2_sim {K : Machine} {A : Word} {n : Nat} {m0 : Memory} {g : Nat → Word} {y : Nat → V8} (H : Host K A n m0)
    (h_rdi : g rdi = A + BitVec.ofNat 64 0) (h_rsi : g rsi = BitVec.ofNat 64 n) {a : Array Int} {g0 : Nat → Word} {cf zf : Bool} {m
    : Memory} (hg : Agree [rax, rcx, rdx, rsi, rdi, r8, r9, r10, r11] g0 g) (E : Env A n m0 m a) :
    Sim K (Asm.reduce_array_asm2 a n) Text.reduce_array_asm2 ⟨g, y, cf, zf, m⟩ (RetPost A n m0 g0) := by
  have hn := H.hn
  unfold Asm.reduce_array_asm2
  refine Sim.const H E ?_
  refine Sim.mov ?_
  have h_rax := h_rdi
  refine Sim.gen fun g hgg => ?_
  replace h_rdi := (congrFun hgg rdi).trans h_rdi
  replace h_rsi := (congrFun hgg rsi).trans h_rsi
  replace h_rax := (congrFun hgg rax).trans h_rax
  replace hg : Agree [rax, rcx, rdx, rsi, rdi, r8, r9, r10, r11] g0 g := Agree.of_eq hgg (by agree hg)
  clear hgg
  refine Sim.lea ?_
  have h_rsi := ea_ix (k := 4) (c := 0) h_rdi h_rsi
  refine Sim.gen fun g hgg => ?_
  replace h_rdi := (congrFun hgg rdi).trans h_rdi
  replace h_rsi := (congrFun hgg rsi).trans h_rsi
  replace h_rax := (congrFun hgg rax).trans h_rax
  replace hg : Agree [rax, rcx, rdx, rsi, rdi, r8, r9, r10, r11] g0 g := Agree.of_eq hgg (by agree hg)
  clear hgg
  refine Sim.label ?_
  refine Sim.geny fun y hyy => ?_
  have hv3 := congrFun hyy 3
  clear hyy
  refine Sim.loop (loop0b_sim H h_rsi (by omega) (hv3.trans (by krfl))) ⟨.refl, .refl, E, h_rax, trivial⟩ ?_
  rintro ⟨a, xrax1⟩ ⟨g1, y1, cf, zf, m⟩ ⟨hg1, hy1, E, h_rax, b_J1⟩
  have h_rdi := (hg1 rdi rfl).trans h_rdi
  have h_rsi := (hg1 rsi rfl).trans h_rsi
  have hv3 := (hy1 3 rfl).trans hv3
  replace hg : Agree [rax, rcx, rdx, rsi, rdi, r8, r9, r10, r11] g0 g1 := Agree.trans rfl (by agree hg) hg1
  clear hg1 hy1
  exact Sim.stop ⟨⟨_, rfl⟩, E, by agree hg⟩

def loop1_I (A : Word) (n : Nat) (m0 : Memory) (g0 : Nat → Word) (y0 : Nat → V8) :
    Array Int × Nat → State → Prop
  | (a, xrax), s =>
    Agree [rax] g0 s.gpr ∧ Agree [0, 1, 2, 4] y0 s.ymm ∧ Env A n m0 s.mem a ∧
    s.gpr rax = A + BitVec.ofNat 64 xrax ∧ True

def loop1_J (A : Word) (n : Nat) (m0 : Memory) (g0 : Nat → Word) (y0 : Nat → V8) :
    Array Int × Nat → State → Prop
  | (a, xrax), s =>
    Agree [rax] g0 s.gpr ∧ Agree [0, 1, 2, 4] y0 s.ymm ∧ Env A n m0 s.mem a ∧
    s.gpr rax = A + BitVec.ofNat 64 xrax ∧ True

theorem loop1_sim {K : Machine} {A : Word} {n : Nat} {m0 : Memory} {g0 : Nat → Word} {y0 : Nat → V8} (H : Host K A n m0) {xrsi :
    Nat} (h_rsi : g0 rsi = A + BitVec.ofNat 64 xrsi) (b_rsi : xrsi < 2 ^ 37) {v3 : V8} (hv3 : y0 3 = v3) :
    ∀ st s, loop1_I A n m0 g0 y0 st s →
      Sim K (Asm.loop1 xrsi v3 st) Text.loop1 s (LoopPost (loop1_I A n m0 g0 y0) (loop1_J A n m0 g0 y0) Text.loop1 Text.loop1_exit) := by
  have hn := H.hn
  rintro ⟨a, xrax⟩ ⟨g, y, cf, zf, m⟩ ⟨hg, hy, E, h_rax, b_I⟩
  replace h_rsi := (hg rsi rfl).trans h_rsi
  obtain rfl := (hy 3 rfl).trans hv3
  unfold Asm.loop1
  refine Sim.load H E (ea_at h_rax) fun v b_69 => ?_
  refine Sim.load H E (ea_at h_rax) fun v b_70 => ?_
  refine Sim.vec ?_
  refine Sim.vec ?_
  refine Sim.vec ?_
  refine Sim.vec ?_
  refine Sim.vec ?_
  refine Sim.vec ?_
  refine Sim.vec ?_
  refine Sim.vec ?_
  refine Sim.vec ?_
  refine Sim.vec ?_
  refine Sim.store H E (ea_at h_rax) (by krfl) fun a m E b_81 => ?_
  refine Sim.vec ?_
  refine Sim.vec ?_
  refine Sim.vec ?_
  refine Sim.vec ?_
  refine Sim.vec ?_
  refine Sim.vec ?_
  refine Sim.vec ?_
  refine Sim.vec ?_
  refine Sim.vec ?_
  refine Sim.vec ?_
  refine Sim.store H E (ea_at h_rax) (by krfl) fun a m E b_92 => ?_
  refine Sim.addi fun cf zf => ?_
  have h_rax := ptr_addi (k := 64) h_rax
  refine Sim.gen fun g hgg => ?_
  replace h_rax := (congrFun hgg rax).trans h_rax
  replace h_rsi := (congrFun hgg rsi).trans h_rsi
  replace hg : Agree [rax] g0 g := Agree.of_eq hgg (by agree hg)
  clear hgg
  refine Sim.cmp_jcc codeAt_loop1 (Cmp.ptr H.hA (by omega) (by omega) h_rax h_rsi) (fun hc cf zf => ?_) (fun hc cf zf => ?_)
  · have hc' : _ < _ := hc
    exact Sim.again (decide_eq_true hc) ⟨by agree hg, by agree hy, E, h_rax, trivial⟩
  · have hc' : ¬ (_ < _) := hc
    exact Sim.done (decide_eq_false hc) ⟨by agree hg, by agree hy, E, h_rax, trivial⟩

theorem reduce_array_twice_asm_sim {K : Machine} {A : Word} {n : Nat} {m0 : Memory} {g : Nat → Word} {y : Nat → V8} (H : Host K A n
    m0) (h_rdi : g rdi = A + BitVec.ofNat 64 0) (h_rsi : g rsi = BitVec.ofNat 64 n) {a : Array Int} {g0 : Nat → Word} {cf zf : Bool}
    {m : Memory} (hg : Agree [rax, rcx, rdx, rsi, rdi, r8, r9, r10, r11] g0 g) (E : Env A n m0 m a) :
    Sim K (Asm.reduce_array_twice_asm a n) Text.reduce_array_twice_asm ⟨g, y, cf, zf, m⟩ (RetPost A n m0 g0) := by
  have hn := H.hn
  unfold Asm.reduce_array_twice_asm
  refine Sim.const H E ?_
  refine Sim.mov ?_
  have h_rax := h_rdi
  refine Sim.gen fun g hgg => ?_
  replace h_rdi := (congrFun hgg rdi).trans h_rdi
  replace h_rsi := (congrFun hgg rsi).trans h_rsi
  replace h_rax := (congrFun hgg rax).trans h_rax
  replace hg : Agree [rax, rcx, rdx, rsi, rdi, r8, r9, r10, r11] g0 g := Agree.of_eq hgg (by agree hg)
  clear hgg
  refine Sim.lea ?_
  have h_rsi := ea_ix (k := 4) (c := 0) h_rdi h_rsi
  refine Sim.gen fun g hgg => ?_
  replace h_rdi := (congrFun hgg rdi).trans h_rdi
  replace h_rsi := (congrFun hgg rsi).trans h_rsi
  replace h_rax := (congrFun hgg rax).trans h_rax
  replace hg : Agree [rax, rcx, rdx, rsi, rdi, r8, r9, r10, r11] g0 g := Agree.of_eq hgg (by agree hg)
  clear hgg
  refine Sim.label ?_
  refine Sim.geny fun y hyy => ?_
  have hv3 := congrFun hyy 3
  clear hyy
  refine Sim.loop (loop1_sim H h_rsi (by omega) (hv3.trans (by krfl))) ⟨.refl, .refl, E, h_rax, trivial⟩ ?_
  rintro ⟨a, xrax1⟩ ⟨g1, y1, cf, zf, m⟩ ⟨hg1, hy1, E, h_rax, b_J1⟩
  have h_rdi := (hg1 rdi rfl).trans h_rdi
  have h_rsi := (hg1 rsi rfl).trans h_rsi
  have hv3 := (hy1 3 rfl).trans hv3
  replace hg : Agree [rax, rcx, rdx, rsi, rdi, r8, r9, r10, r11] g0 g1 := Agree.trans rfl (by agree hg) hg1
  clear hg1 hy1
  exact Sim.stop ⟨⟨_, rfl⟩, E, by agree hg⟩

def loop1b_I (A : Word) (n : Nat) (m0 : Memory) (g0 : Nat → Word) (y0 : Nat → V8) :
    Array Int × Nat → State → Prop
  | (a, xrax), s =>
    Agree [rax] g0 s.gpr ∧ Agree [0, 2, 4] y0 s.ymm ∧ Env A n m0 s.mem a ∧
    s.gpr rax = A + BitVec.ofNat 64 xrax ∧ True

def loop1b_J (A : Word) (n : Nat) (m0 : Memory) (g0 : Nat → Word) (y0 : Nat → V8) :
    Array Int × Nat → State → Prop
  | (a, xrax), s =>
    Agree [rax] g0 s.gpr ∧ Agree [0, 2, 4] y0 s.ymm ∧ Env A n m0 s.mem a ∧
    s.gpr rax = A + BitVec.ofNat 64 xrax ∧ True

theorem loop1b_sim {K : Machine} {A : Word} {n : Nat} {m0 : Memory} {g0 : Nat → Word} {y0 : Nat → V8} (H : Host K A n m0) {xrsi :
    Nat} (h_rsi : g0 rsi = A + BitVec.ofNat 64 xrsi) (b_rsi : xrsi < 2 ^ 37) {v3 : V8} (hv3 : y0 3 = v3) :
    ∀ st s, loop1b_I A n m0 g0 y0 st s →
      Sim K (Asm.loop1b xrsi v3 st) Text.loop1b s (LoopPost (loop1b_I A n m0 g0 y0) (loop1b_J A n m0 g0 y0) Text.loop1b Text.loop1b_exit) := by
  have hn := H.hn
  rintro ⟨a, xrax⟩ ⟨g, y, cf, zf, m⟩ ⟨hg, hy, E, h_rax, b_I⟩
  replace h_rsi := (hg rsi rfl).trans h_rsi
  obtain rfl := (hy 3 rfl).trans hv3
  unfold Asm.loop1b
  refine Sim.load H E (ea_at h_rax) fun v b_102 => ?_
  refine Sim.vec ?_
  refine Sim.vec ?_
  refine Sim.vec ?_
  refine Sim.vec ?_
  refine Sim.vec ?_
  refine Sim.vec ?_
  refine Sim.vec ?_
  refine Sim.vec ?_
  refine Sim.vec ?_
  refine Sim.vec ?_
  refine Sim.store H E (ea_at h_rax) (by krfl) fun a m E b_113 => ?_
  refine Sim.addi fun cf zf => ?_
  have h_rax := ptr_addi (k := 32) h_rax
  refine Sim.gen fun g hgg => ?_
  replace h_rax := (congrFun hgg rax).trans h_rax
  replace h_rsi := (congrFun hgg rsi).trans h_rsi
  replace hg : Agree [rax] g0 g := Agree.of_eq hgg (by agree hg)
  clear hgg
  refine Sim.cmp_jcc codeAt_loop1b (Cmp.ptr H.hA (by omega) (by omega) h_rax h_rsi) (fun hc cf zf => ?_) (fun hc cf zf => ?_)
  · have hc' : _ < _ := hc
    exact Sim.again (decide_eq_true hc) ⟨by agree hg, by agree hy, E, h_rax, trivial⟩
  · have hc' : ¬ (_ < _) := hc
    exact Sim.done (decide_eq_false hc) ⟨by agree hg, by agree hy, E, h_rax, trivial⟩

theorem reduce_array_twice_asm2_sim {K : Machine} {A : Word} {n : Nat} {m0 : Memory} {g : Nat → Word} {y : Nat → V8} (H : Host K A n
    m0) (h_rdi : g rdi = A + BitVec.ofNat 64 0) (h_rsi : g rsi = BitVec.ofNat 64 n) {a : Array Int} {g0 : Nat → Word} {cf zf : Bool}
    {m : Memory} (hg : Agree [rax, rcx, rdx, rsi, rdi, r8, r9, r10, r11] g0 g) (E : Env A n m0 m a) :
    Sim K (Asm.reduce_array_twice_asm2 a n) Text.reduce_array_twice_asm2 ⟨g, y, cf, zf, m⟩ (RetPost A n m0 g0) := by
  have hn := H.hn
  unfold Asm.reduce_array_twice_asm2
  refine Sim.const H E ?_
  refine Sim.mov ?_
  have h_rax := h_rdi
  refine Sim.gen fun g hgg => ?_
  replace h_rdi := (congrFun hgg rdi).trans h_rdi
  replace h_rsi := (congrFun hgg rsi).trans h_rsi
  replace h_rax := (congrFun hgg rax).trans h_rax
  replace hg : Agree [rax, rcx, rdx, rsi, rdi, r8, r9, r10, r11] g0 g := Agree.of_eq hgg (by agree hg)
  clear hgg
  refine Sim.lea ?_
  have h_rsi := ea_ix (k := 4) (c := 0) h_rdi h_rsi
  refine Sim.gen fun g hgg => ?_
  replace h_rdi := (congrFun hgg rdi).trans h_rdi
  replace h_rsi := (congrFun hgg rsi).trans h_rsi
  replace h_rax := (congrFun hgg rax).trans h_rax
  replace hg : Agree [rax, rcx, rdx, rsi, rdi, r8, r9, r10, r11] g0 g := Agree.of_eq hgg (by agree hg)
  clear hgg
  refine Sim.label ?_
  refine Sim.geny fun y hyy => ?_
  have hv3 := congrFun hyy 3
  clear hyy
  refine Sim.loop (loop1b_sim H h_rsi (by omega) (hv3.trans (by krfl))) ⟨.refl, .refl, E, h_rax, trivial⟩ ?_
  rintro ⟨a, xrax1⟩ ⟨g1, y1, cf, zf, m⟩ ⟨hg1, hy1, E, h_rax, b_J1⟩
  have h_rdi := (hg1 rdi rfl).trans h_rdi
  have h_rsi := (hg1 rsi rfl).trans h_rsi
  have hv3 := (hy1 3 rfl).trans hv3
  replace hg : Agree [rax, rcx, rdx, rsi, rdi, r8, r9, r10, r11] g0 g1 := Agree.trans rfl (by agree hg) hg1
  clear hg1 hy1
  exact Sim.stop ⟨⟨_, rfl⟩, E, by agree hg⟩

def loop2_I (A : Word) (n : Nat) (m0 : Memory) (g0 : Nat → Word) (y0 : Nat → V8) :
    Array Int × Nat → State → Prop
  | (a, xrax), s =>
    Agree [rax] g0 s.gpr ∧ Agree [0, 1, 2, 5] y0 s.ymm ∧ Env A n m0 s.mem a ∧
    s.gpr rax = A + BitVec.ofNat 64 xrax ∧ True

def loop2_J (A : Word) (n : Nat) (m0 : Memory) (g0 : Nat → Word) (y0 : Nat → V8) :
    Array Int × Nat → State → Prop
  | (a, xrax), s =>
    Agree [rax] g0 s.gpr ∧ Agree [0, 1, 2, 5] y0 s.ymm ∧ Env A n m0 s.mem a ∧
    s.gpr rax = A + BitVec.ofNat 64 xrax ∧ True

theorem loop2_sim {K : Machine} {A : Word} {n : Nat} {m0 : Memory} {g0 : Nat → Word} {y0 : Nat → V8} (H : Host K A n m0) {xrsi :
    Nat} (h_rsi : g0 rsi = A + BitVec.ofNat 64 xrsi) (b_rsi : xrsi < 2 ^ 37) {v3 : V8} (hv3 : y0 3 = v3) {v4 : V8} (hv4 : y0 4 = v4)
    :
    ∀ st s, loop2_I A n m0 g0 y0 st s →
      Sim K (Asm.loop2 xrsi v3 v4 st) Text.loop2 s (LoopPost (loop2_I A n m0 g0 y0) (loop2_J A n m0 g0 y0) Text.loop2 Text.loop2_exit) := by
  have hn := H.hn
  rintro ⟨a, xrax⟩ ⟨g, y, cf, zf, m⟩ ⟨hg, hy, E, h_rax, b_I⟩
  replace h_rsi := (hg rsi rfl).trans h_rsi
  obtain rfl := (hy 3 rfl).trans hv3
  obtain rfl := (hy 4 rfl).trans hv4
  unfold Asm.loop2
  refine Sim.load H E (ea_at h_rax) fun v b_124 => ?_
  refine Sim.load H E (ea_at h_rax) fun v b_125 => ?_
  refine Sim.vec ?_
  refine Sim.vec ?_
  refine Sim.vec ?_
  refine Sim.vec ?_
  refine Sim.vec ?_
  refine Sim.vec ?_
  refine Sim.store H E (ea_at h_rax) (by krfl) fun a m E b_132 => ?_
  refine Sim.vec ?_
  refine Sim.vec ?_
  refine Sim.vec ?_
  refine Sim.vec ?_
  refine Sim.vec ?_
  refine Sim.vec ?_
  refine Sim.store H E (ea_at h_rax) (by krfl) fun a m E b_139 => ?_
  refine Sim.addi fun cf zf => ?_
  have h_rax := ptr_addi (k := 64) h_rax
  refine Sim.gen fun g hgg => ?_
  replace h_rax := (congrFun hgg rax).trans h_rax
  replace h_rsi := (congrFun hgg rsi).trans h_rsi
  replace hg : Agree [rax] g0 g := Agree.of_eq hgg (by agree hg)
  clear hgg
  refine Sim.cmp_jcc codeAt_loop2 (Cmp.ptr H.hA (by omega) (by omega) h_rax h_rsi) (fun hc cf zf => ?_) (fun hc cf zf => ?_)
  · have hc' : _ < _ := hc
    exact Sim.again (decide_eq_true hc) ⟨by agree hg, by agree hy, E, h_rax, trivial⟩
  · have hc' : ¬ (_ < _) := hc
    exact Sim.done (decide_eq_false hc) ⟨by agree hg, by agree hy, E, h_rax, trivial⟩

theorem correct_asm_sim {K : Machine} {A : Word} {n : Nat} {m0 : Memory} {g : Nat → Word} {y : Nat → V8} (H : Host K A n m0) (h_rdi
    : g rdi = A + BitVec.ofNat 64 0) (h_rsi : g rsi = BitVec.ofNat 64 n) {a : Array Int} {g0 : Nat → Word} {cf zf : Bool} {m :
    Memory} (hg : Agree [rax, rcx, rdx, rsi, rdi, r8, r9, r10, r11] g0 g) (E : Env A n m0 m a) :
    Sim K (Asm.correct_asm a n) Text.correct_asm ⟨g, y, cf, zf, m⟩ (RetPost A n m0 g0) := by
  have hn := H.hn
  unfold Asm.correct_asm
  refine Sim.const H E ?_
  refine Sim.const H E ?_
  refine Sim.mov ?_
  have h_rax := h_rdi
  refine Sim.gen fun g hgg => ?_
  replace h_rdi := (congrFun hgg rdi).trans h_rdi
  replace h_rsi := (congrFun hgg rsi).trans h_rsi
  replace h_rax := (congrFun hgg rax).trans h_rax
  replace hg : Agree [rax, rcx, rdx, rsi, rdi, r8, r9, r10, r11] g0 g := Agree.of_eq hgg (by agree hg)
  clear hgg
  refine Sim.lea ?_
  have h_rsi := ea_ix (k := 4) (c := 0) h_rdi h_rsi
  refine Sim.gen fun g hgg => ?_
  replace h_rdi := (congrFun hgg rdi).trans h_rdi
  replace h_rsi := (congrFun hgg rsi).trans h_rsi
  replace h_rax := (congrFun hgg rax).trans h_rax
  replace hg : Agree [rax, rcx, rdx, rsi, rdi, r8, r9, r10, r11] g0 g := Agree.of_eq hgg (by agree hg)
  clear hgg
  refine Sim.label ?_
  refine Sim.geny fun y hyy => ?_
  have hv3 := congrFun hyy 3
  have hv4 := congrFun hyy 4
  clear hyy
  refine Sim.loop (loop2_sim H h_rsi (by omega) (hv3.trans (by krfl)) (hv4.trans (by krfl))) ⟨.refl, .refl, E, h_rax, trivial⟩ ?_
  rintro ⟨a, xrax1⟩ ⟨g1, y1, cf, zf, m⟩ ⟨hg1, hy1, E, h_rax, b_J1⟩
  have h_rdi := (hg1 rdi rfl).trans h_rdi
  have h_rsi := (hg1 rsi rfl).trans h_rsi
  have hv3 := (hy1 3 rfl).trans hv3
  have hv4 := (hy1 4 rfl).trans hv4
  replace hg : Agree [rax, rcx, rdx, rsi, rdi, r8, r9, r10, r11] g0 g1 := Agree.trans rfl (by agree hg) hg1
  clear hg1 hy1
  exact Sim.stop ⟨⟨_, rfl⟩, E, by agree hg⟩

def loop_shift_I (A : Word) (n : Nat) (m0 : Memory) (g0 : Nat → Word) (y0 : Nat → V8) :
    Array Int × Nat → State → Prop
  | (a, xrax), s =>
    Agree [rax] g0 s.gpr ∧ Agree [0, 1, 2] y0 s.ymm ∧ Env A n m0 s.mem a ∧
    s.gpr rax = A + BitVec.ofNat 64 xrax ∧ True

def loop_shift_J (A : Word) (n : Nat) (m0 : Memory) (g0 : Nat → Word) (y0 : Nat → V8) :
    Array Int × Nat → State → Prop
  | (a, xrax), s =>
    Agree [rax] g0 s.gpr ∧ Agree [0, 1, 2] y0 s.ymm ∧ Env A n m0 s.mem a ∧
    s.gpr rax = A + BitVec.ofNat 64 xrax ∧ True

theorem loop_shift_sim {K : Machine} {A : Word} {n : Nat} {m0 : Memory} {g0 : Nat → Word} {y0 : Nat → V8} (H : Host K A n m0) {xrsi
    : Nat} (h_rsi : g0 rsi = A + BitVec.ofNat 64 xrsi) (b_rsi : xrsi < 2 ^ 37) {v3 : V8} (hv3 : y0 3 = v3) {v4 : V8} (hv4 : y0 4 =
    v4) :
    ∀ st s, loop_shift_I A n m0 g0 y0 st s →
      Sim K (Asm.loop_shift xrsi v3 v4 st) Text.loop_shift s (LoopPost (loop_shift_I A n m0 g0 y0) (loop_shift_J A n m0 g0 y0) Text.loop_shift Text.loop_shift_exit) := by
  have hn := H.hn
  rintro ⟨a, xrax⟩ ⟨g, y, cf, zf, m⟩ ⟨hg, hy, E, h_rax, b_I⟩
  replace h_rsi := (hg rsi rfl).trans h_rsi
  obtain rfl := (hy 3 rfl).trans hv3
  obtain rfl := (hy 4 rfl).trans hv4
  unfold Asm.loop_shift
  refine Sim.load H E (ea_at h_rax) fun v b_150 => ?_
  refine Sim.load H E (ea_at h_rax) fun v b_151 => ?_
  refine Sim.vec ?_
  refine Sim.vec ?_
  refine Sim.vec ?_
  refine Sim.store H E (ea_at h_rax) (by krfl) fun a m E b_155 => ?_
  refine Sim.vec ?_
  refine Sim.vec ?_
  refine Sim.vec ?_
  refine Sim.store H E (ea_at h_rax) (by krfl) fun a m E b_159 => ?_
  refine Sim.addi fun cf zf => ?_
  have h_rax := ptr_addi (k := 64) h_rax
  refine Sim.gen fun g hgg => ?_
  replace h_rax := (congrFun hgg rax).trans h_rax
  replace h_rsi := (congrFun hgg rsi).trans h_rsi
  replace hg : Agree [rax] g0 g := Agree.of_eq hgg (by agree hg)
  clear hgg
  refine Sim.cmp_jcc codeAt_loop_shift (Cmp.ptr H.hA (by omega) (by omega) h_rax h_rsi) (fun hc cf zf => ?_) (fun hc cf zf => ?_)
  · have hc' : _ < _ := hc
    exact Sim.again (decide_eq_true hc) ⟨by agree hg, by agree hy, E, h_rax, trivial⟩
  · have hc' : ¬ (_ < _) := hc
    exact Sim.done (decide_eq_false hc) ⟨by agree hg, by agree hy, E, h_rax, trivial⟩

theorem shift_array_asm_sim {K : Machine} {A : Word} {n : Nat} {m0 : Memory} {g : Nat → Word} {y : Nat → V8} (H : Host K A n m0)
    (h_rdi : g rdi = A + BitVec.ofNat 64 0) (h_rsi : g rsi = BitVec.ofNat 64 n) {a : Array Int} {g0 : Nat → Word} {cf zf : Bool} {m
    : Memory} (hg : Agree [rax, rcx, rdx, rsi, rdi, r8, r9, r10, r11] g0 g) (E : Env A n m0 m a) :
    Sim K (Asm.shift_array_asm a n) Text.shift_array_asm ⟨g, y, cf, zf, m⟩ (RetPost A n m0 g0) := by
  have hn := H.hn
  unfold Asm.shift_array_asm
  refine Sim.const H E ?_
  refine Sim.const H E ?_
  refine Sim.mov ?_
  have h_rax := h_rdi
  refine Sim.gen fun g hgg => ?_
  replace h_rdi := (congrFun hgg rdi).trans h_rdi
  replace h_rsi := (congrFun hgg rsi).trans h_rsi
  replace h_rax := (congrFun hgg rax).trans h_rax
  replace hg : Agree [rax, rcx, rdx, rsi, rdi, r8, r9, r10, r11] g0 g := Agree.of_eq hgg (by agree hg)
  clear hgg
  refine Sim.lea ?_
  have h_rsi := ea_ix (k := 4) (c := 0) h_rdi h_rsi
  refine Sim.gen fun g hgg => ?_
  replace h_rdi := (congrFun hgg rdi).trans h_rdi
  replace h_rsi := (congrFun hgg rsi).trans h_rsi
  replace h_rax := (congrFun hgg rax).trans h_rax
  replace hg : Agree [rax, rcx, rdx, rsi, rdi, r8, r9, r10, r11] g0 g := Agree.of_eq hgg (by agree hg)
  clear hgg
  refine Sim.label ?_
  refine Sim.geny fun y hyy => ?_
  have hv3 := congrFun hyy 3
  have hv4 := congrFun hyy 4
  clear hyy
  refine Sim.loop (loop_shift_sim H h_rsi (by omega) (hv3.trans (by krfl)) (hv4.trans (by krfl))) ⟨.refl, .refl, E, h_rax, trivial⟩ ?_
  rintro ⟨a, xrax1⟩ ⟨g1, y1, cf, zf, m⟩ ⟨hg1, hy1, E, h_rax, b_J1⟩
  have h_rdi := (hg1 rdi rfl).trans h_rdi
  have h_rsi := (hg1 rsi rfl).trans h_rsi
  have hv3 := (hy1 3 rfl).trans hv3
  have hv4 := (hy1 4 rfl).trans hv4
  replace hg : Agree [rax, rcx, rdx, rsi, rdi, r8, r9, r10, r11] g0 g1 := Agree.trans rfl (by agree hg) hg1
  clear hg1 hy1
  exact Sim.stop ⟨⟨_, rfl⟩, E, by agree hg⟩

def loop3_I (A : Word) (n : Nat) (m0 : Memory) (g0 : Nat → Word) (y0 : Nat → V8) (P : Word) :
    Array Int × Nat × Nat → State → Prop
  | (a, xrax, xrdx), s =>
    Agree [rax, rdx] g0 s.gpr ∧ Agree [0, 1, 2, 3] y0 s.ymm ∧ Env A n m0 s.mem a ∧
    s.gpr rax = A + BitVec.ofNat 64 xrax ∧ s.gpr rdx = P + BitVec.ofNat 64 xrdx ∧ True

def loop3_J (A : Word) (n : Nat) (m0 : Memory) (g0 : Nat → Word) (y0 : Nat → V8) (P : Word) :
    Array Int × Nat × Nat → State → Prop
  | (a, xrax, xrdx), s =>
    Agree [rax, rdx] g0 s.gpr ∧ Agree [0, 1, 2, 3] y0 s.ymm ∧ Env A n m0 s.mem a ∧
    s.gpr rax = A + BitVec.ofNat 64 xrax ∧ s.gpr rdx = P + BitVec.ofNat 64 xrdx ∧ True

theorem loop3_sim {K : Machine} {A : Word} {n : Nat} {m0 : Memory} {g0 : Nat → Word} {y0 : Nat → V8} (H : Host K A n m0) {P : Word}
    {p : Array Int} (TP : Tab K A n m0 P p) {xrsi : Nat} (h_rsi : g0 rsi = A + BitVec.ofNat 64 xrsi) (b_rsi : xrsi < 2 ^ 37) {v4 :
    V8} (hv4 : y0 4 = v4) :
    ∀ st s, loop3_I A n m0 g0 y0 P st s →
      Sim K (Asm.loop3 p xrsi v4 st) Text.loop3 s (LoopPost (loop3_I A n m0 g0 y0 P) (loop3_J A n m0 g0 y0 P) Text.loop3 Text.loop3_exit) := by
  have hn := H.hn
  rintro ⟨a, xrax, xrdx⟩ ⟨g, y, cf, zf, m⟩ ⟨hg, hy, E, h_rax, h_rdx, b_I⟩
  replace h_rsi := (hg rsi rfl).trans h_rsi
  obtain rfl := (hy 4 rfl).trans hv4
  unfold Asm.loop3
  refine Sim.load H E (ea_at h_rax) fun v b_169 => ?_
  refine Sim.load_sxwd TP E (ea_at h_rdx) fun v _ => ?_
  refine Sim.vec ?_
  refine Sim.vec ?_
  refine Sim.vec ?_
  refine Sim.vec ?_
  refine Sim.vec ?_
  refine Sim.vec ?_
  refine Sim.vec ?_
  refine Sim.vec ?_
  refine Sim.vec ?_
  refine Sim.vec ?_
  refine Sim.vec ?_
  refine Sim.vec ?_
  refine Sim.vec ?_
  refine Sim.vec ?_
  refine Sim.store H E (ea_at h_rax) (by krfl) fun a m E b_185 => ?_
  refine Sim.addi fun cf zf => ?_
  have h_rax := ptr_addi (k := 32) h_rax
  refine Sim.gen fun g hgg => ?_
  replace h_rax := (congrFun hgg rax).trans h_rax
  replace h_rdx := (congrFun hgg rdx).trans h_rdx
  replace h_rsi := (congrFun hgg rsi).trans h_rsi
  replace hg : Agree [rax, rdx] g0 g := Agree.of_eq hgg (by agree hg)
  clear hgg
  refine Sim.addi fun cf zf => ?_
  have h_rdx := ptr_addi (k := 16) h_rdx
  refine Sim.gen fun g hgg => ?_
  replace h_rax := (congrFun hgg rax).trans h_rax
  replace h_rdx := (congrFun hgg rdx).trans h_rdx
  replace h_rsi := (congrFun hgg rsi).trans h_rsi
  replace hg : Agree [rax, rdx] g0 g := Agree.of_eq hgg (by agree hg)
  clear hgg
  refine Sim.cmp_jcc codeAt_loop3 (Cmp.ptr H.hA (by omega) (by omega) h_rax h_rsi) (fun hc cf zf => ?_) (fun hc cf zf => ?_)
  · have hc' : _ < _ := hc
    exact Sim.again (decide_eq_true hc) ⟨by agree hg, by agree hy, E, h_rax, h_rdx, trivial⟩
  · have hc' : ¬ (_ < _) := hc
    exact Sim.done (decide_eq_false hc) ⟨by agree hg, by agree hy, E, h_rax, h_rdx, trivial⟩

theorem mul_reduce_array16_asm_sim {K : Machine} {A : Word} {n : Nat} {m0 : Memory} {g : Nat → Word} {y : Nat → V8} (H : Host K A n
    m0) (h_rdi : g rdi = A + BitVec.ofNat 64 0) (h_rsi : g rsi = BitVec.ofNat 64 n) {P : Word} {p : Array Int} (TP : Tab K A n m0 P
    p) (h_rdx : g rdx = P + BitVec.ofNat 64 0) {a : Array Int} {g0 : Nat → Word} {cf zf : Bool} {m : Memory} (hg : Agree [rax, rcx,
    rdx, rsi, rdi, r8, r9, r10, r11] g0 g) (E : Env A n m0 m a) :
    Sim K (Asm.mul_reduce_array16_asm a n p) Text.mul_reduce_array16_asm ⟨g, y, cf, zf, m⟩ (RetPost A n m0 g0) := by
  have hn := H.hn
  unfold Asm.mul_reduce_array16_asm
  refine Sim.const H E ?_
  refine Sim.mov ?_
  have h_rax := h_rdi
  refine Sim.gen fun g hgg => ?_
  replace h_rdi := (congrFun hgg rdi).trans h_rdi
  replace h_rsi := (congrFun hgg rsi).trans h_rsi
  replace h_rdx := (congrFun hgg rdx).trans h_rdx
  replace h_rax := (congrFun hgg rax).trans h_rax
  replace hg : Agree [rax, rcx, rdx, rsi, rdi, r8, r9, r10, r11] g0 g := Agree.of_eq hgg (by agree hg)
  clear hgg
  refine Sim.lea ?_
  have h_rsi := ea_ix (k := 4) (c := 0) h_rdi h_rsi
  refine Sim.gen fun g hgg => ?_
  replace h_rdi := (congrFun hgg rdi).trans h_rdi
  replace h_rsi := (congrFun hgg rsi).trans h_rsi
  replace h_rdx := (congrFun hgg rdx).trans h_rdx
  replace h_rax := (congrFun hgg rax).trans h_rax
  replace hg : Agree [rax, rcx, rdx, rsi, rdi, r8, r9, r10, r11] g0 g := Agree.of_eq hgg (by agree hg)
  clear hgg
  refine Sim.label ?_
  refine Sim.geny fun y hyy => ?_
  have hv4 := congrFun hyy 4
  clear hyy
  refine Sim.loop (loop3_sim H TP h_rsi (by omega) (hv4.trans (by krfl))) ⟨.refl, .refl, E, h_rax, h_rdx, trivial⟩ ?_
  rintro ⟨a, xrax1, xrdx1⟩ ⟨g1, y1, cf, zf, m⟩ ⟨hg1, hy1, E, h_rax, h_rdx, b_J1⟩
  have h_rdi := (hg1 rdi rfl).trans h_rdi
  have h_rsi := (hg1 rsi rfl).trans h_rsi
  have hv4 := (hy1 4 rfl).trans hv4
  replace hg : Agree [rax, rcx, rdx, rsi, rdi, r8, r9, r10, r11] g0 g1 := Agree.trans rfl (by agree hg) hg1
  clear hg1 hy1
  exact Sim.stop ⟨⟨_, rfl⟩, E, by agree hg⟩

def loop4_I (A : Word) (n : Nat) (m0 : Memory) (g0 : Nat → Word) (y0 : Nat → V8) (P : Word) :
    Array Int × Nat × Nat → State → Prop
  | (a, xrax, xrdx), s =>
    Agree [rax, rdx] g0 s.gpr ∧ Agree [0, 1, 3, 4] y0 s.ymm ∧ Env A n m0 s.mem a ∧
    s.gpr rax = A + BitVec.ofNat 64 xrax ∧ s.gpr rdx = P + BitVec.ofNat 64 xrdx ∧ True

def loop4_J (A : Word) (n : Nat) (m0 : Memory) (g0 : Nat → Word) (y0 : Nat → V8) (P : Word) :
    Array Int × Nat × Nat → State → Prop
  | (a, xrax, xrdx), s =>
    Agree [rax, rdx] g0 s.gpr ∧ Agree [0, 1, 3, 4] y0 s.ymm ∧ Env A n m0 s.mem a ∧
    s.gpr rax = A + BitVec.ofNat 64 xrax ∧ s.gpr rdx = P + BitVec.ofNat 64 xrdx ∧ True

theorem loop4_sim {K : Machine} {A : Word} {n : Nat} {m0 : Memory} {g0 : Nat → Word} {y0 : Nat → V8} (H : Host K A n m0) {P : Word}
    {p : Array Int} (TP : Tab K A n m0 P p) {xrsi : Nat} (h_rsi : g0 rsi = A + BitVec.ofNat 64 xrsi) (b_rsi : xrsi < 2 ^ 37) {v5 :
    V8} (hv5 : y0 5 = v5) {v6 : V8} (hv6 : y0 6 = v6) :
    ∀ st s, loop4_I A n m0 g0 y0 P st s →
      Sim K (Asm.loop4 p xrsi v5 v6 st) Text.loop4 s (LoopPost (loop4_I A n m0 g0 y0 P) (loop4_J A n m0 g0 y0 P) Text.loop4 Text.loop4_exit) := by
  have hn := H.hn
  rintro ⟨a, xrax, xrdx⟩ ⟨g, y, cf, zf, m⟩ ⟨hg, hy, E, h_rax, h_rdx, b_I⟩
  replace h_rsi := (hg rsi rfl).trans h_rsi
  obtain rfl := (hy 5 rfl).trans hv5
  obtain rfl := (hy 6 rfl).trans hv6
  unfold Asm.loop4
  refine Sim.load_sxdq H E (ea_at h_rax) fun v b_197 => ?_
  refine Sim.load_sxwq TP E (ea_at h_rdx) fun v _ => ?_
  refine Sim.vec ?_
  refine Sim.vec ?_
  refine Sim.vec ?_
  refine Sim.vec ?_
  refine Sim.vec ?_
  refine Sim.vec ?_
  refine Sim.vec ?_
  refine Sim.vec ?_
  refine Sim.store128 H E (ea_at h_rax) (by krfl) fun a m E b_207 => ?_
  refine Sim.addi fun cf zf => ?_
  have h_rax := ptr_addi (k := 16) h_rax
  refine Sim.gen fun g hgg => ?_
  replace h_rax := (congrFun hgg rax).trans h_rax
  replace h_rdx := (congrFun hgg rdx).trans h_rdx
  replace h_rsi := (congrFun hgg rsi).trans h_rsi
  replace hg : Agree [rax, rdx] g0 g := Agree.of_eq hgg (by agree hg)
  clear hgg
  refine Sim.addi fun cf zf => ?_
  have h_rdx := ptr_addi (k := 8) h_rdx
  refine Sim.gen fun g hgg => ?_
  replace h_rax := (congrFun hgg rax).trans h_rax
  replace h_rdx := (congrFun hgg rdx).trans h_rdx
  replace h_rsi := (congrFun hgg rsi).trans h_rsi
  replace hg : Agree [rax, rdx] g0 g := Agree.of_eq hgg (by agree hg)
  clear hgg
  refine Sim.cmp_jcc codeAt_loop4 (Cmp.ptr H.hA (by omega) (by omega) h_rax h_rsi) (fun hc cf zf => ?_) (fun hc cf zf => ?_)
  · have hc' : _ < _ := hc
    exact Sim.again (decide_eq_true hc) ⟨by agree hg, by agree hy, E, h_rax, h_rdx, trivial⟩
  · have hc' : ¬ (_ < _) := hc
    exact Sim.done (decide_eq_false hc) ⟨by agree hg, by agree hy, E, h_rax, h_rdx, trivial⟩

theorem mul_reduce_array16_asm2_sim {K : Machine} {A : Word} {n : Nat} {m0 : Memory} {g : Nat → Word} {y : Nat → V8} (H : Host K A n
    m0) (h_rdi : g rdi = A + BitVec.ofNat 64 0) (h_rsi : g rsi = BitVec.ofNat 64 n) {P : Word} {p : Array Int} (TP : Tab K A n m0 P
    p) (h_rdx : g rdx = P + BitVec.ofNat 64 0) {a : Array Int} {g0 : Nat → Word} {cf zf : Bool} {m : Memory} (hg : Agree [rax, rcx,
    rdx, rsi, rdi, r8, r9, r10, r11] g0 g) (E : Env A n m0 m a) :
    Sim K (Asm.mul_reduce_array16_asm2 a n p) Text.mul_reduce_array16_asm2 ⟨g, y, cf, zf, m⟩ (RetPost A n m0 g0) := by
  have hn := H.hn
  unfold Asm.mul_reduce_array16_asm2
  refine Sim.const H E ?_
  refine Sim.const H E ?_
  refine Sim.mov ?_
  have h_rax := h_rdi
  refine Sim.gen fun g hgg => ?_
  replace h_rdi := (congrFun hgg rdi).trans h_rdi
  replace h_rsi := (congrFun hgg rsi).trans h_rsi
  replace h_rdx := (congrFun hgg rdx).trans h_rdx
  replace h_rax := (congrFun hgg rax).trans h_rax
  replace hg : Agree [rax, rcx, rdx, rsi, rdi, r8, r9, r10, r11] g0 g := Agree.of_eq hgg (by agree hg)
  clear hgg
  refine Sim.lea ?_
  have h_rsi := ea_ix (k := 4) (c := 0) h_rdi h_rsi
  refine Sim.gen fun g hgg => ?_
  replace h_rdi := (congrFun hgg rdi).trans h_rdi
  replace h_rsi := (congrFun hgg rsi).trans h_rsi
  replace h_rdx := (congrFun hgg rdx).trans h_rdx
  replace h_rax := (congrFun hgg rax).trans h_rax
  replace hg : Agree [rax, rcx, rdx, rsi, rdi, r8, r9, r10, r11] g0 g := Agree.of_eq hgg (by agree hg)
  clear hgg
  refine Sim.label ?_
  refine Sim.geny fun y hyy => ?_
  have hv5 := congrFun hyy 5
  have hv6 := congrFun hyy 6
  clear hyy
  refine Sim.loop (loop4_sim H TP h_rsi (by omega) (hv5.trans (by krfl)) (hv6.trans (by krfl))) ⟨.refl, .refl, E, h_rax, h_rdx, trivial⟩ ?_
  rintro ⟨a, xrax1, xrdx1⟩ ⟨g1, y1, cf, zf, m⟩ ⟨hg1, hy1, E, h_rax, h_rdx, b_J1⟩
  have h_rdi := (hg1 rdi rfl).trans h_rdi
  have h_rsi := (hg1 rsi rfl).trans h_rsi
  have hv5 := (hy1 5 rfl).trans hv5
  have hv6 := (hy1 6 rfl).trans hv6
  replace hg : Agree [rax, rcx, rdx, rsi, rdi, r8, r9, r10, r11] g0 g1 := Agree.trans rfl (by agree hg) hg1
  clear hg1 hy1
  exact Sim.stop ⟨⟨_, rfl⟩, E, by agree hg⟩

def loop5_I (A : Word) (n : Nat) (m0 : Memory) (g0 : Nat → Word) (y0 : Nat → V8) (B : Word) (C : Word) :
    Array Int × Nat × Nat × Nat → State → Prop
  | (a, xrax, xrdx, xrcx), s =>
    Agree [rax, rcx, rdx] g0 s.gpr ∧ Agree [0, 1, 2, 3] y0 s.ymm ∧ Env A n m0 s.mem a ∧
    s.gpr rax = A + BitVec.ofNat 64 xrax ∧ s.gpr rdx = B + BitVec.ofNat 64 xrdx ∧ s.gpr rcx = C + BitVec.ofNat 64 xrcx ∧ True

def loop5_J (A : Word) (n : Nat) (m0 : Memory) (g0 : Nat → Word) (y0 : Nat → V8) (B : Word) (C : Word) :
    Array Int × Nat × Nat × Nat → State → Prop
  | (a, xrax, xrdx, xrcx), s =>
    Agree [rax, rcx, rdx] g0 s.gpr ∧ Agree [0, 1, 2, 3] y0 s.ymm ∧ Env A n m0 s.mem a ∧
    s.gpr rax = A + BitVec.ofNat 64 xrax ∧ s.gpr rdx = B + BitVec.ofNat 64 xrdx ∧ s.gpr rcx = C + BitVec.ofNat 64 xrcx ∧ True

theorem loop5_sim {K : Machine} {A : Word} {n : Nat} {m0 : Memory} {g0 : Nat → Word} {y0 : Nat → V8} (H : Host K A n m0) {B : Word}
    {b : Array Int} (TB : Src K A n m0 B b) {C : Word} {c : Array Int} (TC : Src K A n m0 C c) {xrsi : Nat} (h_rsi : g0 rsi = A +
    BitVec.ofNat 64 xrsi) (b_rsi : xrsi < 2 ^ 37) {v4 : V8} (hv4 : y0 4 = v4) :
    ∀ st s, loop5_I A n m0 g0 y0 B C st s →
      Sim K (Asm.loop5 b c xrsi v4 st) Text.loop5 s (LoopPost (loop5_I A n m0 g0 y0 B C) (loop5_J A n m0 g0 y0 B C) Text.loop5 Text.loop5_exit) := by
  have hn := H.hn
  rintro ⟨a, xrax, xrdx, xrcx⟩ ⟨g, y, cf, zf, m⟩ ⟨hg, hy, E, h_rax, h_rdx, h_rcx, b_I⟩
  replace h_rsi := (hg rsi rfl).trans h_rsi
  obtain rfl := (hy 4 rfl).trans hv4
  unfold Asm.loop5
  refine Sim.loadS TB E (ea_at h_rdx) fun v b_218 => ?_
  refine Sim.loadS TC E (ea_at h_rcx) fun v b_219 => ?_
  refine Sim.vec ?_
  refine Sim.vec ?_
  refine Sim.vec ?_
  refine Sim.vec ?_
  refine Sim.vec ?_
  refine Sim.vec ?_
  refine Sim.vec ?_
  refine Sim.vec ?_
  refine Sim.vec ?_
  refine Sim.vec ?_
  refine Sim.vec ?_
  refine Sim.vec ?_
  refine Sim.vec ?_
  refine Sim.vec ?_
  refine Sim.store H E (ea_at h_rax) (by krfl) fun a m E b_234 => ?_
  refine Sim.addi fun cf zf => ?_
  have h_rax := ptr_addi (k := 32) h_rax
  refine Sim.gen fun g hgg => ?_
  replace h_rax := (congrFun hgg rax).trans h_rax
  replace h_rdx := (congrFun hgg rdx).trans h_rdx
  replace h_rcx := (congrFun hgg rcx).trans h_rcx
  replace h_rsi := (congrFun hgg rsi).trans h_rsi
  replace hg : Agree [rax, rcx, rdx] g0 g := Agree.of_eq hgg (by agree hg)
  clear hgg
  refine Sim.addi fun cf zf => ?_
  have h_rdx := ptr_addi (k := 32) h_rdx
  refine Sim.gen fun g hgg => ?_
  replace h_rax := (congrFun hgg rax).trans h_rax
  replace h_rdx := (congrFun hgg rdx).trans h_rdx
  replace h_rcx := (congrFun hgg rcx).trans h_rcx
  replace h_rsi := (congrFun hgg rsi).trans h_rsi
  replace hg : Agree [rax, rcx, rdx] g0 g := Agree.of_eq hgg (by agree hg)
  clear hgg
  refine Sim.addi fun cf zf => ?_
  have h_rcx := ptr_addi (k := 32) h_rcx
  refine Sim.gen fun g hgg => ?_
  replace h_rax := (congrFun hgg rax).trans h_rax
  replace h_rdx := (congrFun hgg rdx).trans h_rdx
  replace h_rcx := (congrFun hgg rcx).trans h_rcx
  replace h_rsi := (congrFun hgg rsi).trans h_rsi
  replace hg : Agree [rax, rcx, rdx] g0 g := Agree.of_eq hgg (by agree hg)
  clear hgg
  refine Sim.cmp_jcc codeAt_loop5 (Cmp.ptr H.hA (by omega) (by omega) h_rax h_rsi) (fun hc cf zf => ?_) (fun hc cf zf => ?_)
  · have hc' : _ < _ := hc
    exact Sim.again (decide_eq_true hc) ⟨by agree hg, by agree hy, E, h_rax, h_rdx, h_rcx, trivial⟩
  · have hc' : ¬ (_ < _) := hc
    exact Sim.done (decide_eq_false hc) ⟨by agree hg, by agree hy, E, h_rax, h_rdx, h_rcx, trivial⟩

theorem mul_reduce_array_asm_sim {K : Machine} {A : Word} {n : Nat} {m0 : Memory} {g : Nat → Word} {y : Nat → V8} (H : Host K A n
    m0) (h_rdi : g rdi = A + BitVec.ofNat 64 0) (h_rsi : g rsi = BitVec.ofNat 64 n) {B : Word} {b : Array Int} (TB : Src K A n m0 B
    b) (h_rdx : g rdx = B + BitVec.ofNat 64 0) {C : Word} {c : Array Int} (TC : Src K A n m0 C c) (h_rcx : g rcx = C + BitVec.ofNat
    64 0) {a : Array Int} {g0 : Nat → Word} {cf zf : Bool} {m : Memory} (hg : Agree [rax, rcx, rdx, rsi, rdi, r8, r9, r10, r11] g0
    g) (E : Env A n m0 m a) :
    Sim K (Asm.mul_reduce_array_asm a n b c) Text.mul_reduce_array_asm ⟨g, y, cf, zf, m⟩ (RetPost A n m0 g0) := by
  have hn := H.hn
  unfold Asm.mul_reduce_array_asm
  refine Sim.const H E ?_
  refine Sim.mov ?_
  have h_rax := h_rdi
  refine Sim.gen fun g hgg => ?_
  replace h_rdi := (congrFun hgg rdi).trans h_rdi
  replace h_rsi := (congrFun hgg rsi).trans h_rsi
  replace h_rdx := (congrFun hgg rdx).trans h_rdx
  replace h_rcx := (congrFun hgg rcx).trans h_rcx
  replace h_rax := (congrFun hgg rax).trans h_rax
  replace hg : Agree [rax, rcx, rdx, rsi, rdi, r8, r9, r10, r11] g0 g := Agree.of_eq hgg (by agree hg)
  clear hgg
  refine Sim.lea ?_
  have h_rsi := ea_ix (k := 4) (c := 0) h_rdi h_rsi
  refine Sim.gen fun g hgg => ?_
  replace h_rdi := (congrFun hgg rdi).trans h_rdi
  replace h_rsi := (congrFun hgg rsi).trans h_rsi
  replace h_rdx := (congrFun hgg rdx).trans h_rdx
  replace h_rcx := (congrFun hgg rcx).trans h_rcx
  replace h_rax := (congrFun hgg rax).trans h_rax
  replace hg : Agree [rax, rcx, rdx, rsi, rdi, r8, r9, r10, r11] g0 g := Agree.of_eq hgg (by agree hg)
  clear hgg
  refine Sim.label ?_
  refine Sim.geny fun y hyy => ?_
  have hv4 := congrFun hyy 4
  clear hyy
  refine Sim.loop (loop5_sim H TB TC h_rsi (by omega) (hv4.trans (by krfl))) ⟨.refl, .refl, E, h_rax, h_rdx, h_rcx, trivial⟩ ?_
  rintro ⟨a, xrax1, xrdx1, xrcx1⟩ ⟨g1, y1, cf, zf, m⟩ ⟨hg1, hy1, E, h_rax, h_rdx, h_rcx, b_J1⟩
  have h_rdi := (hg1 rdi rfl).trans h_rdi
  have h_rsi := (hg1 rsi rfl).trans h_rsi
  have hv4 := (hy1 4 rfl).trans hv4
  replace hg : Agree [rax, rcx, rdx, rsi, rdi, r8, r9, r10, r11] g0 g1 := Agree.trans rfl (by agree hg) hg1
  clear hg1 hy1
  exact Sim.stop ⟨⟨_, rfl⟩, E, by agree hg⟩

def loop6_I (A : Word) (n : Nat) (m0 : Memory) (g0 : Nat → Word) (y0 : Nat → V8) :
    Array Int × Nat → State → Prop
  | (a, xrax), s =>
    Agree [rax] g0 s.gpr ∧ Agree [0, 2, 3] y0 s.ymm ∧ Env A n m0 s.mem a ∧
    s.gpr rax = A + BitVec.ofNat 64 xrax ∧ True

def loop6_J (A : Word) (n : Nat) (m0 : Memory) (g0 : Nat → Word) (y0 : Nat → V8) :
    Array Int × Nat → State → Prop
  | (a, xrax), s =>
    Agree [rax] g0 s.gpr ∧ Agree [0, 2, 3] y0 s.ymm ∧ Env A n m0 s.mem a ∧
    s.gpr rax = A + BitVec.ofNat 64 xrax ∧ True

theorem loop6_sim {K : Machine} {A : Word} {n : Nat} {m0 : Memory} {g0 : Nat → Word} {y0 : Nat → V8} (H : Host K A n m0) {xrsi :
    Nat} (h_rsi : g0 rsi = A + BitVec.ofNat 64 xrsi) (b_rsi : xrsi < 2 ^ 37) {v1 : V8} (hv1 : y0 1 = v1) {v4 : V8} (hv4 : y0 4 = v4)
    :
    ∀ st s, loop6_I A n m0 g0 y0 st s →
      Sim K (Asm.loop6 xrsi v1 v4 st) Text.loop6 s (LoopPost (loop6_I A n m0 g0 y0) (loop6_J A n m0 g0 y0) Text.loop6 Text.loop6_exit) := by
  have hn := H.hn
  rintro ⟨a, xrax⟩ ⟨g, y, cf, zf, m⟩ ⟨hg, hy, E, h_rax, b_I⟩
  replace h_rsi := (hg rsi rfl).trans h_rsi
  obtain rfl := (hy 1 rfl).trans hv1
  obtain rfl := (hy 4 rfl).trans hv4
  unfold Asm.loop6
  refine Sim.load H E (ea_at h_rax) fun v b_248 => ?_
  refine Sim.vec ?_
  refine Sim.vec ?_
  refine Sim.vec ?_
  refine Sim.vec ?_
  refine Sim.vec ?_
  refine Sim.vec ?_
  refine Sim.vec ?_
  refine Sim.vec ?_
  refine Sim.vec ?_
  refine Sim.vec ?_
  refine Sim.vec ?_
  refine Sim.vec ?_
  refine Sim.vec ?_
  refine Sim.store H E (ea_at h_rax) (by krfl) fun a m E b_262 => ?_
  refine Sim.addi fun cf zf => ?_
  have h_rax := ptr_addi (k := 32) h_rax
  refine Sim.gen fun g hgg => ?_
  replace h_rax := (congrFun hgg rax).trans h_rax
  replace h_rsi := (congrFun hgg rsi).trans h_rsi
  replace hg : Agree [rax] g0 g := Agree.of_eq hgg (by agree hg)
  clear hgg
  refine Sim.cmp_jcc codeAt_loop6 (Cmp.ptr H.hA (by omega) (by omega) h_rax h_rsi) (fun hc cf zf => ?_) (fun hc cf zf => ?_)
  · have hc' : _ < _ := hc
    exact Sim.again (decide_eq_true hc) ⟨by agree hg, by agree hy, E, h_rax, trivial⟩
  · have hc' : ¬ (_ < _) := hc
    exact Sim.done (decide_eq_false hc) ⟨by agree hg, by agree hy, E, h_rax, trivial⟩

theorem scalar_mul_reduce_array_asm_sim {K : Machine} {A : Word} {n : Nat} {m0 : Memory} {g : Nat → Word} {y : Nat → V8} (H : Host K
    A n m0) (h_rdi : g rdi = A + BitVec.ofNat 64 0) (h_rsi : g rsi = BitVec.ofNat 64 n) {w : Word} (h_rdx : g rdx = w) {a : Array
    Int} {g0 : Nat → Word} {cf zf : Bool} {m : Memory} (hg : Agree [rax, rcx, rdx, rsi, rdi, r8, r9, r10, r11] g0 g) (E : Env A n m0
    m a) :
    Sim K (Asm.scalar_mul_reduce_array_asm a n w.toNat) Text.scalar_mul_reduce_array_asm ⟨g, y, cf, zf, m⟩ (RetPost A n m0 g0) := by
  have hn := H.hn
  unfold Asm.scalar_mul_reduce_array_asm
  refine Sim.const H E ?_
  refine Sim.mov ?_
  have h_rax := h_rdi
  refine Sim.gen fun g hgg => ?_
  replace h_rdi := (congrFun hgg rdi).trans h_rdi
  replace h_rsi := (congrFun hgg rsi).trans h_rsi
  replace h_rdx := (congrFun hgg rdx).trans h_rdx
  replace h_rax := (congrFun hgg rax).trans h_rax
  replace hg : Agree [rax, rcx, rdx, rsi, rdi, r8, r9, r10, r11] g0 g := Agree.of_eq hgg (by agree hg)
  clear hgg
  refine Sim.lea ?_
  have h_rsi := ea_ix (k := 4) (c := 0) h_rdi h_rsi
  refine Sim.gen fun g hgg => ?_
  replace h_rdi := (congrFun hgg rdi).trans h_rdi
  replace h_rsi := (congrFun hgg rsi).trans h_rsi
  replace h_rdx := (congrFun hgg rdx).trans h_rdx
  replace h_rax := (congrFun hgg rax).trans h_rax
  replace hg : Agree [rax, rcx, rdx, rsi, rdi, r8, r9, r10, r11] g0 g := Agree.of_eq hgg (by agree hg)
  clear hgg
  refine Sim.vmovd h_rdx ?_
  refine Sim.vec ?_
  refine Sim.label ?_
  refine Sim.geny fun y hyy => ?_
  have hv1 := congrFun hyy 1
  have hv4 := congrFun hyy 4
  clear hyy
  refine Sim.loop (loop6_sim H h_rsi (by omega) (hv1.trans (by krfl)) (hv4.trans (by krfl))) ⟨.refl, .refl, E, h_rax, trivial⟩ ?_
  rintro ⟨a, xrax1⟩ ⟨g1, y1, cf, zf, m⟩ ⟨hg1, hy1, E, h_rax, b_J1⟩
  have h_rdi := (hg1 rdi rfl).trans h_rdi
  have h_rsi := (hg1 rsi rfl).trans h_rsi
  have h_rdx := (hg1 rdx rfl).trans h_rdx
  have hv1 := (hy1 1 rfl).trans hv1
  have hv4 := (hy1 4 rfl).trans hv4
  replace hg : Agree [rax, rcx, rdx, rsi, rdi, r8, r9, r10, r11] g0 g1 := Agree.trans rfl (by agree hg) hg1
  clear hg1 hy1
  exact Sim.stop ⟨⟨_, rfl⟩, E, by agree hg⟩

end X86
