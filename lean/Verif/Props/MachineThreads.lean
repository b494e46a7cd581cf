import Verif.Proofs.X86Threads
import Verif.Props.MachineProducts

/-
C81: products with AVX2 instructions in several threads of a process at the same time, with the instructions of src/ntt_asm.S
interleaved in any order (the C functions: C66 and C67).
-/

namespace Props
open C Spec Tables X86 AsmCalls

section
variable {ι : Type} [DecidableEq ι] {K : Machine} {P : Process ι}

/-- `l` is the list of the calls of one of the five products with the tables `t` for `2^k`, with or without shift of the inputs, or of
`ntt_red1024_product1_asm`. -/
def IsProduct (k : Nat) (xn xpsi : Int) (t : RedTables) (l : List Op) : Prop :=
  (∃ sh, l ∈ [product1 sh, product2 sh, product3 sh, product4 sh, product5 t.rescale8 sh]) ∨
    k = 10 ∧ xn = 1024 ∧ xpsi = 1014 ∧ l = product1_1024

/-- Thread `i` begins a product of `a` and `b`: a product for some parameters accepted by the table generator, with operands
and tables in memory. -/
structure Begins (K : Machine) (P : Process ι) (σ : System ι) (i : ι) (a b : Array Int) : Prop where
  product : ∃ (k : Nat) (xn xpsi : Int) (t : RedTables) (l : List Op), 4 ≤ k ∧ P.size i = 2 ^ k ∧ GoodParams k xn xpsi ∧
    make_red_tables someBuf xn xpsi = .ok t ∧ Start K (P.place i) (2 ^ k) t a b σ.mem ∧ IsProduct k xn xpsi t l ∧ σ.phase i = .outside l
  reduced_a : Reduced a
  reduced_b : Reduced b

private theorem begins_start {σ : System ι} {i : ι} {a b : Array Int} (h : Begins K P σ i a b) :
    Fits K (P.place i) (P.size i) ∧ Loaded K σ.mem := by
  obtain ⟨k, xn, xpsi, t, l, _, e, _, _, S, _⟩ := h.product
  rw [e]
  exact ⟨S.fits, S.loaded⟩

private theorem rights_of {σ : System ι} (a b : ι → Array Int) (hb : ∀ i, Begins K P σ i (a i) (b i))
    (hst : ∀ i x, P.stack i x → K.readable x = true) : Rights K P where
  read := by
    intro i x hx
    obtain ⟨F, H⟩ := begins_start (hb i)
    rcases hx with ⟨y, j, hj, rfl⟩ | ⟨t, j, hj, rfl⟩ | ⟨j, hj, rfl⟩ | hx
    · exact F.readable y j hj
    · exact F.tab_readable t j hj
    · exact H.readable j hj
    · exact hst i x hx
  write := by
    rintro i x ⟨y, j, hj, rfl⟩
    exact (begins_start (hb i)).1.writable y j hj

open Classical in
private theorem view_start {σ : System ι} {i : ι} {t : RedTables} {a b : Array Int}
    (S : Start K (P.place i) (P.size i) t a b σ.mem) : Start (view K P i) (P.place i) (P.size i) t a b σ.mem where
  fits :=
    { low := S.fits.low
      readable := fun x j hj => decide_eq_true (.inl ⟨x, j, hj, rfl⟩)
      writable := fun x j hj => decide_eq_true ⟨x, j, hj, rfl⟩
      apart := S.fits.apart
      apart_c := S.fits.apart_c
      tab_readable := fun p j hj => decide_eq_true (.inr (.inl ⟨p, j, hj, rfl⟩))
      tab_apart := S.fits.tab_apart
      data_apart := S.fits.data_apart }
  loaded :=
    { align := S.loaded.align
      readable := fun j hj => decide_eq_true (.inr (.inr (.inl ⟨j, hj, rfl⟩)))
      longs := S.loaded.longs }
  tables := S.tables
  size_a := S.size_a
  size_b := S.size_b
  holds_a := S.holds_a
  holds_b := S.holds_b

private theorem begins_calls {σ : System ι} {i : ι} {a b : Array Int} (h : Begins K P σ i a b) :
    ∃ l, σ.phase i = .outside l ∧ Calls (view K P i) (P.place i) (P.size i) l σ.mem (StoresProduct (P.place i) (P.size i) a b) := by
  obtain ⟨k, xn, xpsi, t, l, hk, e, hg, ht, S, hl, hp⟩ := h.product
  refine ⟨l, hp, ?_⟩
  rw [← e] at S
  have S' := view_start S
  rw [e] at S' ⊢
  rcases hl with ⟨sh, hl⟩ | ⟨rfl, rfl, rfl, rfl⟩
  · exact C77_products hk hg someBuf_size ht sh S' h.reduced_a h.reduced_b l hl
  · exact C77_product1_1024 someBuf_size ht S' h.reduced_a h.reduced_b

private theorem begins_inv {σ : System ι} (a b : ι → Array Int) (hb : ∀ i, Begins K P σ i (a i) (b i)) :
    AllInv K P (fun i => StoresProduct (P.place i) (P.size i) (a i) (b i)) σ := by
  intro i
  obtain ⟨l, hp, hc⟩ := begins_calls (hb i)
  refine ⟨0, ?_⟩
  rw [hp]
  exact ⟨σ.mem, hc, fun _ _ _ => rfl, fun _ _ _ => rfl, fun _ _ => rfl⟩

variable {σ σ' : System ι} {a b : ι → Array Int} {ls : List (Event ι)}

/-- C81: when every thread begins a product, the threads only share what none of them writes, and the instructions are executed in
any order: no instruction faults and no call returns to a wrong address or with registers changed that it has to preserve. -/
theorem C81_no_crash (hb : ∀ i, Begins K P σ i (a i) (b i)) (hst : ∀ i x, P.stack i x → K.readable x = true)
    (hsep : Separated K P) (h : Steps K P ls σ σ') : ∀ i, σ'.phase i ≠ .crashed := by
  intro i hi
  obtain ⟨f, hf⟩ := (Inv.steps (rights_of a b hb hst) hsep h (begins_inv a b hb)).1 i
  rw [hi] at hf
  exact hf

/-- C81: a thread that has made all its calls finds its product in its array `c`, whatever the other threads have done. -/
theorem C81_product (hb : ∀ i, Begins K P σ i (a i) (b i)) (hst : ∀ i x, P.stack i x → K.readable x = true)
    (hsep : Separated K P) (h : Steps K P ls σ σ') : ∀ i, σ'.phase i = .outside [] →
    StoresProduct (P.place i) (P.size i) (a i) (b i) σ'.mem := by
  intro i hi
  obtain ⟨f, hf⟩ := (Inv.steps (rights_of a b hb hst) hsep h (begins_inv a b hb)).1 i
  rw [hi] at hf
  obtain ⟨m, ⟨c, hc, hh, hr⟩, hk⟩ := hf
  exact ⟨c, hc, hh.congr fun j hj => hk.arr .c j (by rw [← hc]; exact hj), hr⟩

/-- C81: a thread in a call returns from it after a bounded number of its own instructions, however many steps the other threads make
between them. -/
theorem C81_returns (hb : ∀ i, Begins K P σ i (a i) (b i)) (hst : ∀ i x, P.stack i x → K.readable x = true)
    (hsep : Separated K P) (h : Steps K P ls σ σ') : ∀ i, ∃ N, ∀ ls' σ'', Steps K P ls' σ' σ'' → .call i ∉ ls' →
    ls'.count (.instr i) ≤ N := by
  intro i
  have R := rights_of a b hb hst
  have hA := (Inv.steps R hsep h (begins_inv a b hb)).1
  obtain ⟨f, hf⟩ := hA i
  exact ⟨f, fun ls' σ'' h' hc => (Inv.steps R hsep h' hA).2 i f hf hc⟩

/-- C81: an instruction of a thread changes only bytes of its arrays. -/
theorem C81_writes (hb : ∀ i, Begins K P σ i (a i) (b i)) (hst : ∀ i x, P.stack i x → K.readable x = true)
    (hsep : Separated K P) (h : Steps K P ls σ σ') (i : ι) {σ'' : System ι} (h' : Step K P (.instr i) σ' σ'') :
    ∀ x, ¬ P.Writes i x → σ''.mem x = σ'.mem x := by
  have R := rights_of a b hb hst
  obtain ⟨f, hf⟩ := (Inv.steps R hsep h (begins_inv a b hb)).1 i
  cases h' with
  | instr _ _ s0 c s l hp =>
    rw [hp] at hf
    exact (Inv.instr R hf).choose_spec.2.2

private theorem scalar_ok {k : Nat} {xn xpsi : Int} {t : RedTables} (hg : GoodParams k xn xpsi)
    (ht : make_red_tables someBuf xn xpsi = .ok t) {l : List Op} (hl : IsProduct k xn xpsi t l) :
    ∀ op ∈ l, ∀ x v, op = .scalar x v → I32 v := by
  obtain ⟨t', e, hok⟩ := red_tables_ok hg someBuf_size
  have : t' = t := by rw [ht] at e; injection e with e; exact e.symm
  subst this
  have hr := hok.rescale8.2
  have key : ∀ v : Int, v = t'.rescale8 → I32 v := by intro v hv; unfold I32; omega
  intro op hop x v he
  subst he
  rcases hl with ⟨sh, hl⟩ | ⟨-, -, -, rfl⟩
  · simp only [List.mem_cons, List.not_mem_nil, or_false] at hl
    rcases hl with rfl | rfl | rfl | rfl | rfl <;> cases sh <;>
      simp [product1, product2, product3, product4, product5, AsmCalls.shift] at hop <;> exact key v hop.2
  · simp [product1_1024] at hop

private theorem finish (R : Rights K P) (hsep : Separated K P) {Q : ι → Memory → Prop} (i : ι) {S : Word}
    (hS : ∀ j < 8, P.stack i (S + BitVec.ofNat 64 j)) : ∀ (l : List Op) (σ : System ι), AllInv K P Q σ → σ.phase i = .outside l →
    (∀ op ∈ l, ∀ x v, op = .scalar x v → I32 v) →
    ∃ ls σ', Steps K P ls σ σ' ∧ (∀ e ∈ ls, e = .call i ∨ e = .instr i) ∧ σ'.phase i = .outside [] := by
  intro l
  induction l with
  | nil => exact fun σ _ hp _ => ⟨[], σ, .nil σ, by simp, hp⟩
  | cons op l ih =>
    intro σ hA hp hl
    obtain ⟨s, hr, hm, hrsp⟩ := C77_calls_possible (K := { K with readable := fun _ => true }) (L := P.place i) (n := P.size i) (S := S)
      (fun _ _ => rfl) (fun x j hj k hk e => hsep.own_arr i _ (hS k hk) ⟨x, j, hj, e.symm⟩) σ.mem op (hl op List.mem_cons_self)
    have hst := Step.call (K := K) (P := P) σ i op l s hp (fun x _ => by rw [hm]) hr.arg1 hr.arg2 hr.args
      (by rw [hrsp]; exact hS) hr.lanes
    have hA' := hA.step R hsep hst
    obtain ⟨f, hf⟩ := hA' i
    obtain ⟨ls, σ', h1, h2, h3, h4⟩ := finish_call R hsep i l f _ s _ s hA' (by dsimp only; rw [Function.update_self]) hf
    obtain ⟨ls', σ'', h5, h6, h7⟩ := ih σ' h3 h4 fun op hop => hl op (List.mem_cons_of_mem _ hop)
    refine ⟨.call i :: (ls ++ ls'), σ'', .cons hst (h1.append h5), ?_, h7⟩
    intro e he
    rcases List.mem_cons.1 he with rfl | he
    · exact .inl rfl
    · rcases List.mem_append.1 he with he | he
      · exact .inr (h2 e he)
      · exact h6 e he

/-- The calls a thread has still to make. -/
def remaining : Phase → List Op
  | .outside l => l
  | .inside _ _ _ l => l
  | .crashed => []

private theorem remaining_step {e : Event ι} (h : Step K P e σ σ') (i : ι) : ∀ op ∈ remaining (σ'.phase i), op ∈ remaining (σ.phase i) := by
  intro op hop
  cases h with
  | call _ k op' l s hp =>
    dsimp only at hop
    by_cases hk : i = k
    · subst hk
      rw [Function.update_self] at hop
      rw [hp]
      exact List.mem_cons_of_mem _ hop
    · rwa [Function.update_of_ne hk] at hop
  | instr _ k s0 c s l hp =>
    dsimp only at hop
    by_cases hk : i = k
    · subst hk
      rw [Function.update_self] at hop
      rw [hp]
      unfold after at hop
      split at hop
      · cases hop
      · exact hop
      · split at hop
        · exact hop
        · cases hop
    · rwa [Function.update_of_ne hk] at hop
  | other => exact hop

private theorem remaining_steps (h : Steps K P ls σ σ') (i : ι) : ∀ op ∈ remaining (σ'.phase i), op ∈ remaining (σ.phase i) := by
  induction h with
  | nil => exact fun _ h => h
  | cons h1 _ ih => exact fun op hop => remaining_step h1 i op (ih op hop)

/-- C81: at any time a thread (with a place for a return address on its stack) can finish its product alone, wherever the other threads
are stopped; it never waits for them. -/
theorem C81_finish (hb : ∀ i, Begins K P σ i (a i) (b i)) (hst : ∀ i x, P.stack i x → K.readable x = true)
    (hsep : Separated K P) (h : Steps K P ls σ σ') (i : ι) {S : Word} (hS : ∀ j < 8, P.stack i (S + BitVec.ofNat 64 j)) :
    ∃ ls' σ'', Steps K P ls' σ' σ'' ∧ (∀ e ∈ ls', e = .call i ∨ e = .instr i) ∧ σ''.phase i = .outside [] := by
  have R := rights_of a b hb hst
  have hA := (Inv.steps R hsep h (begins_inv a b hb)).1
  have hsc : ∀ op ∈ remaining (σ'.phase i), ∀ x v, op = .scalar x v → I32 v := by
    obtain ⟨k, xn, xpsi, t, l, _, _, hg, ht, _, hl, hp⟩ := (hb i).product
    intro op hop
    have := remaining_steps h i op hop
    rw [hp] at this
    exact scalar_ok hg ht hl op this
  obtain ⟨f, hf⟩ := hA i
  generalize hq : σ'.phase i = q at hf hsc
  cases q with
  | crashed => exact hf.elim
  | outside l => exact finish R hsep i hS l σ' hA hq hsc
  | inside s0 c s l =>
    rw [← hq] at hf
    obtain ⟨l1, σ1, h1, h2, h3, h4⟩ := finish_call R hsep i l f σ' s0 c s hA hq hf
    obtain ⟨l2, σ2, h5, h6, h7⟩ := finish R hsep i hS l σ1 h3 h4 hsc
    refine ⟨l1 ++ l2, σ2, h1.append h5, fun e he => ?_, h7⟩
    rcases List.mem_append.1 he with he | he
    · exact .inr (h2 e he)
    · exact h6 e he

end

/-! ### The hypotheses can be met -/

namespace Sample

/-- The tables as in `place`, shared by all threads; the arrays of thread `i` in blocks of 65536 bytes of its own. -/
def threadPlace (i : Nat) : Place where
  arr x := match x with
    | .c => BitVec.ofNat 64 (65536 * (16 + 3 * i))
    | .a => BitVec.ofNat 64 (65536 * (17 + 3 * i))
    | .b => BitVec.ofNat 64 (65536 * (18 + 3 * i))
  tab := (place .c).tab

/-- The part of memory for the threads. -/
def threadByte (a b : Nat → Array Int) (q o : Nat) : BitVec 8 :=
  if q % 3 = 1 then byte (elt (a (q / 3)) (o / 4)) (o % 4) else byte (elt (b (q / 3)) (o / 4)) (o % 4)

def threadMem (t : RedTables) (z : Array Int) (a b : Nat → Array Int) : Memory := fun x =>
  if x.toNat < 1048576 then memOf t z z x else threadByte a b (x.toNat / 65536 - 16) (x.toNat % 65536)

/-- A processor on which all memory can be accessed. -/
def threadMachine : Machine := { machine with readable := fun _ => true, writable := fun _ => true }

def process (N n : Nat) : Process (Fin N) where
  place i := threadPlace i
  size _ := n
  stack i := Within (BitVec.ofNat 64 (65536 * (16 + 3 * i) + 32768)) 8

private theorem within_range {w k : Nat} {x : Word} (h : Within (BitVec.ofNat 64 w) k x) (hw : w + k ≤ 2 ^ 64) :
    w ≤ x.toNat ∧ x.toNat < w + k := by
  obtain ⟨j, hj, rfl⟩ := h
  rw [← BitVec.ofNat_add, BitVec.toNat_ofNat, Nat.mod_eq_of_lt (by omega)]
  omega

private theorem writes_range {N n : Nat} (hN : N ≤ 2 ^ 20) (hn : n ≤ 1024) {i : Fin N} {x : Word} (h : (process N n).Writes i x) :
    65536 * (16 + 3 * i.1) ≤ x.toNat ∧ x.toNat < 65536 * (16 + 3 * i.1) + 196608 ∧ x.toNat % 65536 < 4096 := by
  obtain ⟨y, h⟩ := h
  have hi := i.2
  have hs : (process N n).size i = n := rfl
  rw [hs] at h
  cases y
  · have := within_range (w := 65536 * (16 + 3 * i.1)) h (by omega); omega
  · have := within_range (w := 65536 * (17 + 3 * i.1)) h (by omega); omega
  · have := within_range (w := 65536 * (18 + 3 * i.1)) h (by omega); omega

private theorem stack_range {N n : Nat} (hN : N ≤ 2 ^ 20) {i : Fin N} {x : Word} (h : (process N n).stack i x) :
    65536 * (16 + 3 * i.1) + 32768 ≤ x.toNat ∧ x.toNat < 65536 * (16 + 3 * i.1) + 32776 := by
  have hi := i.2
  have := within_range (w := 65536 * (16 + 3 * i.1) + 32768) h (by omega)
  omega

private theorem tab_range {N n : Nat} (hn : n ≤ 1024) {i : Fin N} {x : Word} {p : Tbl}
    (h : Within (((process N n).place i).tab p) (2 * (process N n).size i) x) : x.toNat < 1048576 := by
  have h1 : (((process N n).place i).tab p).toNat ≤ 917504 := by
    show ((place .c).tab p).toNat ≤ _
    cases p <;> decide
  obtain ⟨j, hj, rfl⟩ := h
  have hs : (process N n).size i = n := rfl
  rw [hs] at hj
  rw [BitVec.toNat_add, BitVec.toNat_ofNat]
  omega

private theorem data_range {x : Word} (h : Within threadMachine.data 512 x) : x.toNat < 1048576 := by
  have := within_range (w := 8192) h (by omega)
  omega

private theorem separated {N n : Nat} (hN : N ≤ 2 ^ 20) (hn : n ≤ 1024) : Separated threadMachine (process N n) where
  writes := by
    intro i j hij x hx hr
    have hij : i.1 ≠ j.1 := fun h => hij (Fin.ext h)
    have h1 := writes_range hN hn hx
    rcases hr with hr | ⟨t, hr⟩ | hr | hr
    · have := writes_range hN hn hr; omega
    · have := tab_range hn hr; omega
    · have := data_range hr; omega
    · have := stack_range hN hr; omega
  frames := by
    intro i j hij x hx hr
    have hij : i.1 ≠ j.1 := fun h => hij (Fin.ext h)
    have h1 := stack_range hN hx
    rcases hr with hr | ⟨t, hr⟩ | hr | hr
    · have := writes_range hN hn hr; omega
    · have := tab_range hn hr; omega
    · have := data_range hr; omega
    · have := stack_range hN hr; omega
  own_arr := by
    intro i x hx hr
    have h1 := stack_range hN hx
    have := writes_range hN hn hr
    omega
  own_tab := by
    intro i x t hx hr
    have h1 := stack_range hN hx
    have := tab_range hn hr
    omega
  own_data := by
    intro i x hx hr
    have h1 := stack_range hN hx
    have := data_range hr
    omega

private theorem holds_of {m : Memory} {B : Word} {v : Array Int} (hi : ∀ i < v.size, I32 (elt v i))
    (hm : ∀ o < 4 * v.size, m (B + BitVec.ofNat 64 o) = byte (elt v (o / 4)) (o % 4)) : Holds32 m B v := by
  intro i h
  have key : ∀ j < 4, m (B + BitVec.ofNat 64 (4 * i) + BitVec.ofNat 64 j) = byte (elt v i) j := by
    intro j hj
    rw [BitVec.add_assoc, ← BitVec.ofNat_add, hm _ (by omega)]
    congr 2 <;> omega
  have h0 := key 0 (by decide)
  have h1 := key 1 (by decide)
  have h2 := key 2 (by decide)
  have h3 := key 3 (by decide)
  have hI := hi i h
  generalize elt v i = x at *
  generalize B + BitVec.ofNat 64 (4 * i) = w at *
  have e : val m w 4 = toU32 x := by
    show (m w).toNat + 256 * ((m (w + 1)).toNat + 256 * ((m (w + 1 + 1)).toNat +
      256 * ((m (w + 1 + 1 + 1)).toNat + 256 * 0))) = _
    rw [BitVec.add_assoc w 1 1, BitVec.add_assoc w (1 + 1) 1]
    rw [BitVec.add_zero] at h0
    have h1 : m (w + 1) = _ := h1
    have h2 : m (w + (1 + 1)) = _ := h2
    have h3 : m (w + (1 + 1 + 1)) = _ := h3
    rw [h0, h1, h2, h3]
    unfold byte
    simp only [BitVec.toNat_ofNat]
    unfold toU32
    omega
  unfold int32At
  rw [e]
  exact toI32_toU32 hI

private theorem thread_low {t : RedTables} {z : Array Int} {a b : Nat → Array Int} {x : Word} (h : x.toNat < 1048576) :
    threadMem t z a b x = memOf t z z x := if_pos h

private theorem thread_at {t : RedTables} {z : Array Int} {a b : Nat → Array Int} {q o : Nat} (hq : q < 2 ^ 30) (ho : o < 65536) :
    threadMem t z a b (BitVec.ofNat 64 (65536 * (16 + q)) + BitVec.ofNat 64 o) = threadByte a b q o := by
  unfold threadMem
  have e : (65536 * (16 + q) + o) % 2 ^ 64 = 65536 * (16 + q) + o := Nat.mod_eq_of_lt (by omega)
  rw [← BitVec.ofNat_add, BitVec.toNat_ofNat, e, if_neg (by omega)]
  congr 1 <;> omega

private theorem thread_start {t : RedTables} {z : Array Int} {a b : Nat → Array Int} (hz : z.size ≤ 1024)
    (hzr : ∀ i < z.size, I32 (elt z i)) (ht : ∀ p, (tableOf t p).size = z.size ∧ InRange (-6144) 6144 (tableOf t p)) {i : Nat}
    (hi : i < 2 ^ 20) (ha : (a i).size = z.size) (hb : (b i).size = z.size) (hra : ∀ j < (a i).size, I32 (elt (a i) j))
    (hrb : ∀ j < (b i).size, I32 (elt (b i) j)) :
    Start threadMachine (threadPlace i) z.size t (a i) (b i) (threadMem t z a b) := by
  have S := start (t := t) .c hz rfl hzr hzr ht
  have hA : ∀ x, 65536 * (16 + 3 * i) ≤ ((threadPlace i).arr x).toNat ∧ ((threadPlace i).arr x).toNat ≤ 65536 * (18 + 3 * i) := by
    intro x
    cases x
    · show _ ≤ (BitVec.ofNat 64 (65536 * (16 + 3 * i))).toNat ∧ (BitVec.ofNat 64 (65536 * (16 + 3 * i))).toNat ≤ _
      rw [BitVec.toNat_ofNat, Nat.mod_eq_of_lt (by omega)]; omega
    · show _ ≤ (BitVec.ofNat 64 (65536 * (17 + 3 * i))).toNat ∧ (BitVec.ofNat 64 (65536 * (17 + 3 * i))).toNat ≤ _
      rw [BitVec.toNat_ofNat, Nat.mod_eq_of_lt (by omega)]; omega
    · show _ ≤ (BitVec.ofNat 64 (65536 * (18 + 3 * i))).toNat ∧ (BitVec.ofNat 64 (65536 * (18 + 3 * i))).toNat ≤ _
      rw [BitVec.toNat_ofNat, Nat.mod_eq_of_lt (by omega)]; omega
  have hAc : ((threadPlace i).arr .c).toNat = 65536 * (16 + 3 * i) := by
    show (BitVec.ofNat 64 (65536 * (16 + 3 * i))).toNat = _
    rw [BitVec.toNat_ofNat, Nat.mod_eq_of_lt (by omega)]
  have hAa : ((threadPlace i).arr .a).toNat = 65536 * (17 + 3 * i) := by
    show (BitVec.ofNat 64 (65536 * (17 + 3 * i))).toNat = _
    rw [BitVec.toNat_ofNat, Nat.mod_eq_of_lt (by omega)]
  have hAb : ((threadPlace i).arr .b).toNat = 65536 * (18 + 3 * i) := by
    show (BitVec.ofNat 64 (65536 * (18 + 3 * i))).toNat = _
    rw [BitVec.toNat_ofNat, Nat.mod_eq_of_lt (by omega)]
  have hT : ∀ p, ((threadPlace i).tab p).toNat ≤ 917504 := by
    intro p
    show ((place .c).tab p).toNat ≤ _
    cases p <;> decide
  have hL : ∀ c, ∀ j < 8, int32At (threadMem t z a b) (threadMachine.data + BitVec.ofNat 64 (Code.addr c + 4 * j)) =
      (Code.longs c).getD j 0 := (S.loaded.congr (K := machine) fun i hi => thread_low (by
    rw [BitVec.toNat_add, BitVec.toNat_ofNat]
    have : machine.data.toNat = 8192 := rfl
    omega)).longs
  exact
    { fits :=
        { low := fun x => by have := hA x; omega
          readable := fun _ _ _ => rfl
          writable := fun _ _ _ => rfl
          apart := apart_of (by omega) (by omega)
          apart_c := fun x => by
            cases x
            · exact .inl rfl
            · exact .inr (apart_of (by omega) (by omega))
            · exact .inr (apart_of (by omega) (by omega))
          tab_readable := fun _ _ _ => rfl
          tab_apart := fun x p => by
            have := hA x
            have := hT p
            exact Apart.symm (apart_of (by omega) (by omega))
          data_apart := fun x => by
            have := hA x
            have : threadMachine.data.toNat = 8192 := rfl
            exact Apart.symm (apart_of (by omega) (by omega)) }
      loaded :=
        { align := by decide
          readable := fun _ _ => rfl
          longs := hL }
      tables := fun p => by
        refine (S.tables p).congr fun j hj => thread_low ?_
        have h1 := hT p
        rw [(ht p).1] at hj
        have h2 : ((place .c).tab p).toNat ≤ 917504 := h1
        rw [BitVec.toNat_add, BitVec.toNat_ofNat]
        omega
      size_a := ha
      size_b := hb
      holds_a := by
        refine holds_of hra fun o ho => ?_
        have e : (threadPlace i).arr .a = BitVec.ofNat 64 (65536 * (16 + (3 * i + 1))) := by
          show BitVec.ofNat 64 (65536 * (17 + 3 * i)) = _
          congr 1; omega
        rw [e, thread_at (by omega) (by omega)]
        unfold threadByte
        rw [if_pos (by omega), show (3 * i + 1) / 3 = i by omega]
      holds_b := by
        refine holds_of hrb fun o ho => ?_
        have e : (threadPlace i).arr .b = BitVec.ofNat 64 (65536 * (16 + (3 * i + 2))) := by
          show BitVec.ofNat 64 (65536 * (18 + 3 * i)) = _
          congr 1; omega
        rw [e, thread_at (by omega) (by omega)]
        unfold threadByte
        rw [if_neg (by omega), show (3 * i + 2) / 3 = i by omega] }

end Sample

/-- For each size of the library, any number of threads up to `2^20`, any choice of the product and any reduced inputs for each thread,
there are a machine, places and a memory to start from, with the tables shared by all threads. -/
example (z : Nat × Int × Int) (hz : z ∈ libraryParams) (t : RedTables) (ht : make_red_tables someBuf z.2.1 z.2.2 = .ok t) (N : Nat)
    (hN : N ≤ 2 ^ 20) (l : Fin N → List Op) (hl : ∀ i, IsProduct z.1 z.2.1 z.2.2 t (l i)) (a b : Nat → Array Int)
    (ha : ∀ i, (a i).size = 2 ^ z.1 ∧ Reduced (a i)) (hb : ∀ i, (b i).size = 2 ^ z.1 ∧ Reduced (b i)) :
    ∃ (K : Machine) (P : Process (Fin N)) (σ : System (Fin N)), (∀ i, Begins K P σ i (a i) (b i)) ∧
      (∀ i x, P.stack i x → K.readable x = true) ∧ Separated K P ∧ (∀ i, σ.phase i = .outside (l i)) ∧
      (∀ i, ∃ S, ∀ j < 8, P.stack i (S + BitVec.ofNat 64 j)) ∧ ∀ i j p, (P.place i).tab p = (P.place j).tab p := by
  have hg := libraryParams_good z hz
  have hk : 4 ≤ z.1 ∧ 2 ^ z.1 ≤ 1024 := by
    simp only [libraryParams, List.mem_cons, List.not_mem_nil, or_false] at hz
    rcases hz with rfl | rfl | rfl | rfl <;> decide
  obtain ⟨t', e, hok⟩ := red_tables_ok hg someBuf_size
  have : t' = t := by rw [ht] at e; injection e with e; exact e.symm
  subst this
  have hI : ∀ {v : Array Int}, Reduced v → ∀ i < v.size, I32 (elt v i) := by
    intro v h i hi
    have := h i hi
    unfold I32
    omega
  refine ⟨Sample.threadMachine, Sample.process N (2 ^ z.1), ⟨Sample.threadMem t' (a 0) a b, fun i => .outside (l i)⟩, fun i => ?_,
    fun _ _ _ => rfl, Sample.separated hN hk.2, fun _ => rfl, fun i => ⟨_, fun j hj => ⟨j, hj, rfl⟩⟩, fun _ _ _ => rfl⟩
  refine ⟨⟨z.1, z.2.1, z.2.2, t', l i, hk.1, rfl, hg, ht, ?_, hl i, rfl⟩, (ha i).2, (hb i).2⟩
  have h0 := (ha 0).1
  have hi := i.2
  have := Sample.thread_start (t := t') (z := a 0) (a := a) (b := b) (by omega) (hI (ha 0).2) (fun p => by
    rw [h0]
    refine hok.entries (tableOf t' p) ?_
    cases p <;> simp [tableOf]) (i := i.1) (by omega) (by rw [(ha i).1, h0]) (by rw [(hb i).1, h0]) (hI (ha i).2) (hI (hb i).2)
  rw [h0] at this
  exact this

end Props
