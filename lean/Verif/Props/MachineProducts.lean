import Verif.Proofs.MachCalls
import Verif.Props.AsmProducts
import Verif.Props.Machine

/-
C77: the products of src/ntt_red_asm<n>.c, down to the instructions of src/ntt_asm.S: each call of a product, executed on a processor
with a memory of bytes, returns, and after the last the array `c` holds the product.
-/

namespace Props
open C Spec Tables X86 AsmCalls

section
variable {K : Machine} {L : Place} {m : Memory} {a b : Array Int}

/-- Memory holds in the array `c` the product of `a` and `b` modulo `X^n+1`, in canonical form. -/
def StoresProduct (L : Place) (n : Nat) (a b : Array Int) (m : Memory) : Prop :=
  ∃ c, c.size = n ∧ Holds32 m (L.arr .c) c ∧ Reduced c ∧ ∀ i, i < n → coeff c i = negacyclic n (coeff a) (coeff b) i

/-- Memory holds the arguments of a product, the tables `t` and the data section. -/
structure Start (K : Machine) (L : Place) (n : Nat) (t : RedTables) (a b : Array Int) (m : Memory) : Prop where
  fits : Fits K L n
  loaded : Loaded K m
  tables : ∀ p, Holds16 m (L.tab p) (tableOf t p)
  size_a : a.size = n
  size_b : b.size = n
  holds_a : Holds32 m (L.arr .a) a
  holds_b : Holds32 m (L.arr .b) b

private theorem start_has {n : Nat} {t : RedTables} (S : Start K L n t a b m) (hs : ∀ p, (tableOf t p).size = n) (c : Array Int) :
    Has K L n t [.a, .b] (c, a, b) m where
  loaded := S.loaded
  size := by
    intro x hx
    cases x
    · exact absurd hx (by decide)
    · exact S.size_a
    · exact S.size_b
  arr := by
    intro x hx
    cases x
    · exact absurd hx (by decide)
    · exact S.holds_a
    · exact S.holds_b
  tsize := hs
  tab := S.tables

private theorem table_sizes {k : Nat} {xn xpsi : Int} (h : GoodParams k xn xpsi) {buf : Nat → Array Nat} (hbuf : ∀ n, (buf n).size = n)
    {t : RedTables} (ht : make_red_tables buf xn xpsi = .ok t) (p : Tbl) : (tableOf t p).size = 2 ^ k := by
  obtain ⟨t', e, hok⟩ := red_tables_ok h hbuf
  have : t' = t := by rw [ht] at e; injection e with e; exact e.symm
  subst this
  refine (hok.entries (tableOf t' p) ?_).1
  cases p <;> simp [tableOf]

private theorem calls_product {k : Nat} (hk : k ≤ 11) {t : RedTables} (hs : ∀ p, (tableOf t p).size = 2 ^ k)
    (S : Start K L (2 ^ k) t a b m) {l : List Op} (hl : shaped l = true)
    (h : ∀ c : Array Int, c.size = 2 ^ k → ∃ c' a' b', sems t (2 ^ k) l (c, a, b) = .ok (c', a', b') ∧ c'.size = 2 ^ k ∧ Reduced c' ∧
      ∀ i, i < 2 ^ k → coeff c' i = negacyclic (2 ^ k) (coeff a) (coeff b) i) :
    Calls K L (2 ^ k) l m (StoresProduct L (2 ^ k) a b) := by
  obtain ⟨l1, l2, rfl, h1, h2⟩ := shaped_split l hl
  obtain ⟨c', a', b', e, hc, hr, hp⟩ := h a S.size_a
  have hn : 2 ^ k < 2 ^ 32 := Nat.pow_lt_pow_right (by decide) (by omega)
  exact calls_of S.fits hn (fun m' H => ⟨c', hc, H.arr .c List.mem_cons_self, hr, hp⟩) h1 h2 (start_has S hs a) S.size_a e

/-- C77: the calls of each of the five products (where `c` may be the same array as `a` or `b`), for any parameters accepted by the table generator and sizes from 16 to 1024, with
or without shift of the inputs. -/
theorem C77_products {k : Nat} (hk4 : 4 ≤ k) {xn xpsi : Int} (h : GoodParams k xn xpsi) {buf : Nat → Array Nat}
    (hbuf : ∀ n, (buf n).size = n) {t : RedTables} (ht : make_red_tables buf xn xpsi = .ok t) (sh : Bool)
    (S : Start K L (2 ^ k) t a b m) (hra : Reduced a) (hrb : Reduced b) :
    ∀ product ∈ [product1 sh, product2 sh, product3 sh, product4 sh, product5 t.rescale8 sh],
    Calls K L (2 ^ k) product m (StoresProduct L (2 ^ k) a b) := by
  have hk := good_le h
  have key := C37_products hk4 h hbuf ht sh 0
  have hs := table_sizes h hbuf ht
  intro product hp
  refine calls_product hk hs S ?_ fun c hc => ?_
  · simp only [List.mem_cons, List.not_mem_nil, or_false] at hp
    rcases hp with rfl | rfl | rfl | rfl | rfl <;> cases sh <;> rfl
  have key := key c a b hc S.size_a S.size_b hra hrb
  simp only [List.mem_cons, List.not_mem_nil, or_false] at hp
  rcases hp with rfl | rfl | rfl | rfl | rfl
  · obtain ⟨c', a', b', e, h1, -, -, h2⟩ := key (AsmProducts.product1 t (2 ^ k) sh) (by simp)
    exact ⟨c', a', b', (sems_product1 sh).trans e, h1, h2⟩
  · obtain ⟨c', a', b', e, h1, -, -, h2⟩ := key (AsmProducts.product2 t (2 ^ k) sh) (by simp)
    exact ⟨c', a', b', (sems_product2 sh).trans e, h1, h2⟩
  · obtain ⟨c', a', b', e, h1, -, -, h2⟩ := key (AsmProducts.product3 t (2 ^ k) sh) (by simp)
    exact ⟨c', a', b', (sems_product3 sh).trans e, h1, h2⟩
  · obtain ⟨c', a', b', e, h1, -, -, h2⟩ := key (AsmProducts.product4 t (2 ^ k) sh) (by simp)
    exact ⟨c', a', b', (sems_product4 sh).trans e, h1, h2⟩
  · obtain ⟨c', a', b', e, h1, -, -, h2⟩ := key (AsmProducts.product5 t (2 ^ k) 0 sh) (by simp)
    exact ⟨c', a', b', (sems_product5 sh).trans e, h1, h2⟩

/-- C77: the calls of `ntt_red1024_product1_asm`. -/
theorem C77_product1_1024 {buf : Nat → Array Nat} (hbuf : ∀ n, (buf n).size = n) {t : RedTables}
    (ht : make_red_tables buf 1024 1014 = .ok t) (S : Start K L 1024 t a b m) (hra : Reduced a) (hrb : Reduced b) :
    Calls K L 1024 product1_1024 m (StoresProduct L 1024 a b) := by
  have hg : GoodParams 10 1024 1014 := libraryParams_good (10, 1024, 1014) (by simp [libraryParams])
  refine calls_product (k := 10) (by decide) (table_sizes hg hbuf ht) S rfl fun c hc => ?_
  obtain ⟨c', a', b', e, h1, -, -, h2⟩ := C37_product1_1024 hbuf ht c a b hc S.size_a S.size_b hra hrb
  exact ⟨c', a', b', sems_product1_1024.trans e, h1, h2⟩

/-- The calls of the products of size `2^k` of the library, src/ntt_red_asm<n>.c. -/
def libraryCalls (t : RedTables) (k : Nat) : List (List Op) :=
  [if k = 10 then product1_1024 else product1 true, product2 (k != 10), product3 (k != 10), product4 (k != 10),
    product5 t.rescale8 (k != 10)]

end

/-- C77: the library, with the sizes and parameters of the Makefile. -/
theorem C77_library : ∀ z ∈ libraryParams, ∃ t, make_red_tables someBuf z.2.1 z.2.2 = .ok t ∧
    ∀ (K : Machine) (L : Place) (m : Memory) (a b : Array Int), Start K L (2 ^ z.1) t a b m → Reduced a → Reduced b →
    ∀ product ∈ libraryCalls t z.1, Calls K L (2 ^ z.1) product m (StoresProduct L (2 ^ z.1) a b) := by
  intro z hz
  have hg := libraryParams_good z hz
  have hk : 4 ≤ z.1 ∧ z.1 ≤ 10 ∧ (z.1 = 10 → z.2 = (1024, 1014)) := by
    simp only [libraryParams, List.mem_cons, List.not_mem_nil, or_false] at hz
    rcases hz with rfl | rfl | rfl | rfl <;> decide
  obtain ⟨t, e, _⟩ := red_tables_ok hg someBuf_size
  refine ⟨t, e, fun K L m a b S hra hrb product hp => ?_⟩
  have key := fun sh => C77_products hk.1 hg someBuf_size e sh S hra hrb
  simp only [libraryCalls, List.mem_cons, List.not_mem_nil, or_false] at hp
  rcases hp with rfl | rfl | rfl | rfl | rfl
  · split
    · next h10 =>
      obtain ⟨k, z2⟩ := z
      obtain rfl : k = 10 := h10
      obtain rfl : z2 = (1024, 1014) := hk.2.2 rfl
      exact C77_product1_1024 someBuf_size e S hra hrb
    · exact key true _ (by simp)
  · exact key (z.1 != 10) _ (by simp)
  · exact key (z.1 != 10) _ (by simp)
  · exact key (z.1 != 10) _ (by simp)
  · exact key (z.1 != 10) _ (by simp)

/-! ### The hypotheses can be met -/

/-- C77: before each call there are states in which the caller makes it (so `Calls` says something about each call of a list):
the arguments are put in their registers and the stack pointer where there is a return address. -/
theorem C77_calls_possible {K : Machine} {L : Place} {n : Nat} {S : Word} (hS : Readable K S 8)
    (hA : ∀ x, Apart (L.arr x) (4 * n) S 8) (m : Memory) (op : Op) (hv : ∀ x v, op = .scalar x v → I32 v) :
    ∃ s, Ready K L n op m s ∧ s.mem = m ∧ s.gpr rsp = S := by
  let d : Word := match op with
    | .one _ _ => 0
    | .table _ _ p => L.tab p
    | .mul _ y _ => L.arr y
    | .scalar _ v => BitVec.ofNat 64 (toU32 v)
  let c : Word := match op with
    | .mul _ _ z => L.arr z
    | _ => 0
  refine ⟨⟨upd (upd (upd (upd (upd (fun _ => 0) rdi (L.arr (dest op))) rsi (BitVec.ofNat 64 n)) rdx d) rcx c) rsp S,
    fun _ => Avx.V8.splat 0, false, false, m⟩, ⟨⟨fun _ _ _ => rfl, fun _ _ _ => rfl, fun _ _ => rfl⟩, rfl, rfl, ?_, hS, hA, ?_⟩, rfl, rfl⟩
  · cases op with
    | one f x => trivial
    | table f x p => rfl
    | mul x y z => exact ⟨rfl, rfl⟩
    | scalar x v =>
      show toI32 ((BitVec.ofNat 64 (toU32 v)).toNat : Nat) = v
      have hI := hv x v rfl
      rw [BitVec.toNat_ofNat, Nat.mod_eq_of_lt (by unfold toU32; omega)]
      exact toI32_toU32 hI
  · have h : I32 0 := by unfold I32; omega
    exact fun _ => ⟨⟨h, h, h, h⟩, h, h, h, h⟩

namespace Sample

/-- Places for arrays. -/
def pos : Arg → Word
  | .c => 65536
  | .a => 131072
  | .b => 196608

/-- The three arrays and eleven tables at multiples of 65536, the data section as in `Sample.mem`; `c` has its own place, or it is
`a` or `b`. -/
def place (z : Arg) : Place where
  arr x := match x with
    | .c => pos z
    | .a => pos .a
    | .b => pos .b
  tab p := match p with
    | .psi_powers => 262144
    | .scaled_inv_psi_powers => 327680
    | .scaled_inv_psi_powers_var => 393216
    | .omega_powers => 458752
    | .omega_powers_rev => 524288
    | .inv_omega_powers => 589824
    | .inv_omega_powers_rev => 655360
    | .mixed_powers => 720896
    | .mixed_powers_rev => 786432
    | .inv_mixed_powers => 851968
    | .inv_mixed_powers_rev => 917504

def block (t : RedTables) (a b : Array Int) (o : Nat) : Nat → BitVec 8
  | 0 => mem (BitVec.ofNat 64 o)
  | 2 => byte (elt a (o / 4)) (o % 4)
  | 3 => byte (elt b (o / 4)) (o % 4)
  | 4 => byte (elt t.psi_powers (o / 2)) (o % 2)
  | 5 => byte (elt t.scaled_inv_psi_powers (o / 2)) (o % 2)
  | 6 => byte (elt t.scaled_inv_psi_powers_var (o / 2)) (o % 2)
  | 7 => byte (elt t.omega_powers (o / 2)) (o % 2)
  | 8 => byte (elt t.omega_powers_rev (o / 2)) (o % 2)
  | 9 => byte (elt t.inv_omega_powers (o / 2)) (o % 2)
  | 10 => byte (elt t.inv_omega_powers_rev (o / 2)) (o % 2)
  | 11 => byte (elt t.mixed_powers (o / 2)) (o % 2)
  | 12 => byte (elt t.mixed_powers_rev (o / 2)) (o % 2)
  | 13 => byte (elt t.inv_mixed_powers (o / 2)) (o % 2)
  | 14 => byte (elt t.inv_mixed_powers_rev (o / 2)) (o % 2)
  | _ => 0

def memOf (t : RedTables) (a b : Array Int) : Memory := fun x => block t a b (x.toNat % 65536) (x.toNat / 65536)

/-- A processor on which the first megabyte can be accessed. -/
def machine : Machine where
  readable x := x.toNat < 1048576
  writable x := x.toNat < 1048576
  data := 8192
  cpuid := K.cpuid
  xcr0 := K.xcr0

variable {t : RedTables} {a b : Array Int}

private theorem mem_at (q o : Nat) (ho : o < 65536) (hq : q < 16) :
    memOf t a b (BitVec.ofNat 64 (65536 * q) + BitVec.ofNat 64 o) = block t a b o q := by
  unfold memOf
  have e : (65536 * q + o) % 2 ^ 64 = 65536 * q + o := Nat.mod_eq_of_lt (by omega)
  rw [← BitVec.ofNat_add, BitVec.toNat_ofNat, e]
  congr 1 <;> omega

private theorem holds32 {q : Nat} {v : Array Int} (hq : q < 16) (hv : v.size ≤ 1024) (hi : ∀ i < v.size, I32 (elt v i))
    (hb : ∀ o, block t a b o q = byte (elt v (o / 4)) (o % 4)) : Holds32 (memOf t a b) (BitVec.ofNat 64 (65536 * q)) v := by
  intro i h
  have key : ∀ j < 4, memOf t a b (BitVec.ofNat 64 (65536 * q) + BitVec.ofNat 64 (4 * i) + BitVec.ofNat 64 j) =
      byte (elt v i) j := by
    intro j hj
    rw [BitVec.add_assoc, ← BitVec.ofNat_add, mem_at _ _ (by omega) hq, hb]
    congr 2 <;> omega
  have h0 := key 0 (by decide)
  have h1 := key 1 (by decide)
  have h2 := key 2 (by decide)
  have h3 := key 3 (by decide)
  have hI := hi i h
  generalize elt v i = x at *
  generalize BitVec.ofNat 64 (65536 * q) + BitVec.ofNat 64 (4 * i) = w at *
  have e : val (memOf t a b) w 4 = toU32 x := by
    show (memOf t a b w).toNat + 256 * ((memOf t a b (w + 1)).toNat + 256 * ((memOf t a b (w + 1 + 1)).toNat +
      256 * ((memOf t a b (w + 1 + 1 + 1)).toNat + 256 * 0))) = _
    rw [BitVec.add_assoc w 1 1, BitVec.add_assoc w (1 + 1) 1]
    rw [BitVec.add_zero] at h0
    have h1 : memOf t a b (w + 1) = _ := h1
    have h2 : memOf t a b (w + (1 + 1)) = _ := h2
    have h3 : memOf t a b (w + (1 + 1 + 1)) = _ := h3
    rw [h0, h1, h2, h3]
    unfold byte
    simp only [BitVec.toNat_ofNat]
    unfold toU32
    omega
  unfold int32At
  rw [e]
  exact toI32_toU32 hI

private theorem holds16 {q : Nat} {v : Array Int} (hq : q < 16) (hv : v.size ≤ 1024)
    (hi : ∀ i < v.size, -32768 ≤ elt v i ∧ elt v i ≤ 32767)
    (hb : ∀ o, block t a b o q = byte (elt v (o / 2)) (o % 2)) : Holds16 (memOf t a b) (BitVec.ofNat 64 (65536 * q)) v := by
  intro i h
  have key : ∀ j < 2, memOf t a b (BitVec.ofNat 64 (65536 * q) + BitVec.ofNat 64 (2 * i) + BitVec.ofNat 64 j) =
      byte (elt v i) j := by
    intro j hj
    rw [BitVec.add_assoc, ← BitVec.ofNat_add, mem_at _ _ (by omega) hq, hb]
    congr 2 <;> omega
  have h0 := key 0 (by decide)
  have h1 := key 1 (by decide)
  have hI := hi i h
  generalize elt v i = x at *
  generalize BitVec.ofNat 64 (65536 * q) + BitVec.ofNat 64 (2 * i) = w at *
  have e : val (memOf t a b) w 2 = toU32 x % 65536 := by
    show (memOf t a b w).toNat + 256 * ((memOf t a b (w + 1)).toNat + 256 * 0) = _
    rw [BitVec.add_zero] at h0
    have h1 : memOf t a b (w + 1) = _ := h1
    rw [h0, h1]
    unfold byte
    simp only [BitVec.toNat_ofNat]
    omega
  unfold int16At
  rw [e]
  unfold Avx.sx16 toU32
  omega

theorem start (z : Arg) (ha : a.size ≤ 1024) (hb : b.size = a.size) (hra : ∀ i < a.size, I32 (elt a i)) (hrb : ∀ i < b.size, I32 (elt b i))
    (ht : ∀ p, (tableOf t p).size = a.size ∧ InRange (-6144) 6144 (tableOf t p)) :
    Start machine (place z) a.size t a b (memOf t a b) where
  fits := {
    low := by intro x; cases x <;> cases z <;> decide
    readable := by
      intro x i hi
      simp only [machine, decide_eq_true_eq]
      rw [BitVec.toNat_add, BitVec.toNat_ofNat]
      have : ((place z).arr x).toNat ≤ 196608 := by cases x <;> cases z <;> decide
      omega
    writable := by
      intro x i hi
      simp only [machine, decide_eq_true_eq]
      rw [BitVec.toNat_add, BitVec.toNat_ofNat]
      have : ((place z).arr x).toNat ≤ 196608 := by cases x <;> cases z <;> decide
      omega
    apart := by
      have h1 : ((place z).arr .a).toNat = 131072 := rfl
      have h2 : ((place z).arr .b).toNat = 196608 := rfl
      exact apart_of (by omega) (by omega)
    apart_c := by
      intro x
      have h0 : ∀ x, ∃ y, (place z).arr x = pos y := by
        intro x
        cases x
        · exact ⟨z, rfl⟩
        · exact ⟨.a, rfl⟩
        · exact ⟨.b, rfl⟩
      have h1 : ∀ x y : Arg, pos x = pos y ∨ (pos x).toNat + 4096 ≤ (pos y).toNat ∨ (pos y).toNat + 4096 ≤ (pos x).toNat := by
        intro x y
        cases x <;> cases y <;> decide
      have h2 : ∀ x, (pos x).toNat ≤ 196608 := by intro x; cases x <;> decide
      obtain ⟨y, hy⟩ := h0 x
      obtain ⟨w, hw⟩ := h0 .c
      rw [hy, hw]
      have := h2 y
      have := h2 w
      rcases h1 w y with h | h | h
      · exact .inl h
      · exact .inr (apart_of (by omega) (by omega))
      · exact .inr (Apart.symm (apart_of (by omega) (by omega)))
    tab_readable := by
      intro x i hi
      simp only [machine, decide_eq_true_eq]
      rw [BitVec.toNat_add, BitVec.toNat_ofNat]
      have : ((place z).tab x).toNat ≤ 917504 := by cases z <;> cases x <;> decide
      omega
    tab_apart := by
      intro x p
      have : ((place z).arr x).toNat ≤ 196608 := by cases x <;> cases z <;> decide
      have : ((place z).tab p).toNat ≤ 917504 := by cases z <;> cases p <;> decide
      have : 262144 ≤ ((place z).tab p).toNat := by cases z <;> cases p <;> decide
      exact apart_of (by omega) (by omega)
    data_apart := by
      intro x
      have : 65536 ≤ ((place z).arr x).toNat := by cases x <;> cases z <;> decide
      have : ((place z).arr x).toNat ≤ 196608 := by cases x <;> cases z <;> decide
      have : machine.data.toNat = 8192 := rfl
      exact Apart.symm (apart_of (by omega) (by omega)) }
  loaded := {
    align := by decide
    readable := by
      intro i hi
      simp only [machine, decide_eq_true_eq]
      rw [BitVec.toNat_add, BitVec.toNat_ofNat]
      have : (8192 : Word).toNat = 8192 := rfl
      omega
    longs := by
      intro c j hj
      rw [← call.loaded.longs c j hj]
      have := addr_le c
      unfold int32At
      congr 2
      refine bytes_val (k := 512) (B := 8192) (fun i hi => ?_) (by omega)
      show memOf t a b _ = mem _
      have : (8192 + BitVec.ofNat 64 i : Word) = BitVec.ofNat 64 (65536 * 0) + BitVec.ofNat 64 (8192 + i) := by
        rw [← BitVec.ofNat_add, Nat.mul_zero, Nat.zero_add, BitVec.ofNat_add]
        rfl
      rw [this, mem_at _ _ (by omega) (by decide), ← BitVec.ofNat_add]
      show mem _ = mem _
      congr 2
      omega }
  tables := by
    intro p
    obtain ⟨hs, hr⟩ := ht p
    have hi : ∀ i < (tableOf t p).size, -32768 ≤ elt (tableOf t p) i ∧ elt (tableOf t p) i ≤ 32767 := by
      intro i hi
      have := hr i hi
      omega
    cases p
    · exact holds16 (q := 4) (by decide) (by omega) hi fun _ => rfl
    · exact holds16 (q := 5) (by decide) (by omega) hi fun _ => rfl
    · exact holds16 (q := 6) (by decide) (by omega) hi fun _ => rfl
    · exact holds16 (q := 7) (by decide) (by omega) hi fun _ => rfl
    · exact holds16 (q := 8) (by decide) (by omega) hi fun _ => rfl
    · exact holds16 (q := 9) (by decide) (by omega) hi fun _ => rfl
    · exact holds16 (q := 10) (by decide) (by omega) hi fun _ => rfl
    · exact holds16 (q := 11) (by decide) (by omega) hi fun _ => rfl
    · exact holds16 (q := 12) (by decide) (by omega) hi fun _ => rfl
    · exact holds16 (q := 13) (by decide) (by omega) hi fun _ => rfl
    · exact holds16 (q := 14) (by decide) (by omega) hi fun _ => rfl
  size_a := rfl
  size_b := hb
  holds_a := holds32 (q := 2) (by decide) ha hra fun _ => rfl
  holds_b := holds32 (q := 3) (by decide) (by omega) hrb fun _ => rfl

end Sample

/-- For all sizes of the library and all reduced inputs there are a machine and a memory to start from, and a place for the return
address, with a separate array `c`, with `c = a` and with `c = b`. -/
example (z : Nat × Int × Int) (hz : z ∈ libraryParams) (a b : Array Int) (ha : a.size = 2 ^ z.1) (hb : b.size = 2 ^ z.1)
    (hra : Reduced a) (hrb : Reduced b) (x : Arg) :
    ∃ t K L m S, make_red_tables someBuf z.2.1 z.2.2 = .ok t ∧ Start K L (2 ^ z.1) t a b m ∧ (x ≠ .c → L.arr .c = L.arr x) ∧ Readable K S 8 ∧
      ∀ x, Apart (L.arr x) (4 * 2 ^ z.1) S 8 := by
  have hg := libraryParams_good z hz
  have hk : 2 ^ z.1 ≤ 1024 := by
    simp only [libraryParams, List.mem_cons, List.not_mem_nil, or_false] at hz
    rcases hz with rfl | rfl | rfl | rfl <;> decide
  obtain ⟨t, e, hok⟩ := red_tables_ok hg someBuf_size
  have hI : ∀ {v : Array Int}, Reduced v → ∀ i < v.size, I32 (elt v i) := by
    intro v h i hi
    have := h i hi
    unfold I32
    omega
  refine ⟨t, Sample.machine, Sample.place x, Sample.memOf t a b, 1000000, e, ?_, ?_, by unfold Readable; decide +kernel, ?_⟩
  · rw [← ha]
    refine Sample.start x (by omega) (by omega) (hI hra) (hI hrb) fun p => ?_
    rw [ha]
    refine hok.entries (tableOf t p) ?_
    cases p <;> simp [tableOf]
  · intro h
    cases x
    · exact absurd rfl h
    · rfl
    · rfl
  · intro y
    have : ((Sample.place x).arr y).toNat ≤ 196608 := by cases x <;> cases y <;> decide
    have : (1000000 : Word).toNat = 1000000 := rfl
    exact apart_of (by omega) (by omega)

end Props
