import Verif.Model.X86
import Verif.Model.Code
import Verif.Model.NttAsm
import Verif.Spec

/-
Arrays in the memory of `Verif/Model/X86.lean`.
-/

namespace X86
open C Avx Spec

/-! ### Bytes -/

theorem addr_succ (a : Word) (j : Nat) : a + BitVec.ofNat 64 (j + 1) = a + 1 + BitVec.ofNat 64 j := by
  rw [BitVec.ofNat_add, BitVec.add_comm (BitVec.ofNat 64 j), ← BitVec.add_assoc]
  rfl

theorem val_congr {m m' : Memory} : ∀ (k : Nat) (a : Word), (∀ j < k, m (a + BitVec.ofNat 64 j) = m' (a + BitVec.ofNat 64 j)) →
    val m a k = val m' a k
  | 0, _, _ => rfl
  | k + 1, a, h => by
    unfold val
    have h0 := h 0 (by omega)
    rw [show a + BitVec.ofNat 64 0 = a by simp] at h0
    rw [h0, val_congr k (a + 1)]
    intro j hj
    have := h (j + 1) (by omega)
    rwa [addr_succ] at this

theorem ofNat_inj {i j : Nat} (hi : i < 2 ^ 64) (hj : j < 2 ^ 64) {A : Word} (h : A + BitVec.ofNat 64 i = A + BitVec.ofNat 64 j) :
    i = j := by
  have h' := congrArg (fun x => (x - A).toNat) h
  simp only [BitVec.add_comm A, BitVec.add_sub_cancel, BitVec.toNat_ofNat] at h'
  omega

theorem allowed_of {right : Word → Bool} : ∀ (k : Nat) (a : Word), (∀ j < k, right (a + BitVec.ofNat 64 j) = true) →
    allowed right a k = true
  | 0, _, _ => rfl
  | k + 1, a, h => by
    unfold allowed
    have h0 := h 0 (by omega)
    rw [show a + BitVec.ofNat 64 0 = a by simp] at h0
    rw [h0, allowed_of k (a + 1), Bool.and_true]
    intro j hj
    have := h (j + 1) (by omega)
    rwa [addr_succ] at this

theorem put_other {b : Word} : ∀ (k : Nat) (m : Memory) (a : Word) (x : Nat), (∀ j < k, b ≠ a + BitVec.ofNat 64 j) →
    put m a x k b = m b
  | 0, _, _, _, _ => rfl
  | k + 1, m, a, x, h => by
    unfold put
    have h0 := h 0 (by omega)
    rw [show a + BitVec.ofNat 64 0 = a by simp] at h0
    rw [put_other k, if_neg h0]
    intro j hj
    have := h (j + 1) (by omega)
    rwa [addr_succ] at this

theorem val_put : ∀ (k : Nat) (m : Memory) (a : Word) (x : Nat), k < 2 ^ 64 → val (put m a x k) a k = x % 256 ^ k
  | 0, _, _, x, _ => by simp [val, Nat.mod_one]
  | k + 1, m, a, x, hk => by
    have hne : ∀ j < k, a ≠ a + 1 + BitVec.ofNat 64 j := by
      intro j hj h
      have h2 : a + BitVec.ofNat 64 0 = a + BitVec.ofNat 64 (j + 1) := by
        rw [addr_succ, show a + BitVec.ofNat 64 0 = a by simp]
        exact h
      have := ofNat_inj (by decide) (by omega) h2
      omega
    unfold val put
    rw [put_other k _ _ _ hne, val_put k _ _ _ (by omega), if_pos rfl, BitVec.toNat_ofNat, Nat.pow_succ (n := 256), Nat.mul_comm _ 256,
      Nat.mod_mul]

theorem toI32_toU32 {x : Int} (h : I32 x) : toI32 (toU32 x) = x := by
  unfold I32 at h
  unfold toI32 toU32
  omega

theorem int32At_put {m : Memory} {a : Word} {x : Int} (h : I32 x) : int32At (put m a (toU32 x) 4) a = x := by
  unfold int32At
  rw [val_put 4 _ _ _ (by decide), Nat.mod_eq_of_lt, toI32_toU32 h]
  unfold toU32
  omega

theorem int32At_put_other {m : Memory} {a b : Word} {x : Nat}
    (h : ∀ i < 4, ∀ j < 4, b + BitVec.ofNat 64 i ≠ a + BitVec.ofNat 64 j) : int32At (put m a x 4) b = int32At m b := by
  unfold int32At
  rw [val_congr 4 b]
  intro i hi
  exact put_other 4 _ _ _ (h i hi)

theorem int32At_congr {m m' : Memory} {a : Word} (h : ∀ j < 4, m (a + BitVec.ofNat 64 j) = m' (a + BitVec.ofNat 64 j)) :
    int32At m a = int32At m' a := by
  unfold int32At
  rw [val_congr 4 a h]

theorem int16At_congr {m m' : Memory} {a : Word} (h : ∀ j < 2, m (a + BitVec.ofNat 64 j) = m' (a + BitVec.ofNat 64 j)) :
    int16At m a = int16At m' a := by
  unfold int16At
  rw [val_congr 2 a h]

theorem I32_int32At (m : Memory) (a : Word) : I32 (int32At m a) := by
  unfold int32At toI32 I32
  omega

theorem I16_int16At (m : Memory) (a : Word) : -32768 ≤ int16At m a ∧ int16At m a ≤ 32767 := by
  have h : val m a 2 < 65536 := by
    show (m a).toNat + 256 * ((m (a + 1)).toNat + 256 * 0) < 65536
    have := (m a).isLt
    have := (m (a + 1)).isLt
    omega
  unfold int16At sx16
  split <;> omega

/-! ### Lanes -/

/-- All lanes are 32-bit integers. -/
def Lanes (v : V8) : Prop :=
  I32 v.x0 ∧ I32 v.x1 ∧ I32 v.x2 ∧ I32 v.x3 ∧ I32 v.x4 ∧ I32 v.x5 ∧ I32 v.x6 ∧ I32 v.x7

theorem Lanes.get {v : V8} (h : Lanes v) (i : Nat) : I32 (v.get i) := by
  obtain ⟨h0, h1, h2, h3, h4, h5, h6, h7⟩ := h
  unfold V8.get
  split <;> assumption

theorem lanes_ofFn {f : Nat → Int} (h : ∀ i, I32 (f i)) : Lanes (.ofFn f) :=
  ⟨h 0, h 1, h 2, h 3, h 4, h 5, h 6, h 7⟩

theorem I32_toI32 (x : Int) : I32 (toI32 x) := by unfold toI32 I32; omega

theorem I32_zero : I32 0 := by decide

theorem I32_sar {x : Int} (h : I32 x) (k : Nat) : I32 (sar x k) := by
  unfold sar
  have hp : (0 : Int) < (2 ^ k : Nat) := by exact_mod_cast Nat.two_pow_pos k
  obtain ⟨h1, h2⟩ := h
  constructor
  · refine Int.le_ediv_of_mul_le hp ?_
    have : (1 : Int) ≤ (2 ^ k : Nat) := hp
    have := Int.mul_le_mul_of_nonneg_left this (show (0 : Int) ≤ 2147483648 by decide)
    omega
  · rcases Int.le_total 0 x with h0 | h0
    · exact Int.le_trans (Int.ediv_le_self _ h0) h2
    · exact Int.le_trans (Int.ediv_nonpos_of_nonpos_of_neg h0 hp) (by decide)

theorem I32_sxHi (x : Int) : I32 (sxHi x) := by unfold sxHi; split <;> decide

theorem I32_word (u : V8) (i : Nat) : I32 (u.word i) := by
  unfold V8.word sx16 I32
  split <;> omega

/-! ### Arrays as read -/

/-- An `int32_t` array at address `A`. -/
def Arr (K : Machine) (m : Memory) (A : Word) (a : Array Int) : Prop :=
  ∀ i < a.size, ld32 K m (A + BitVec.ofNat 64 (4 * i)) = .ok (elt a i)

/-- An `int16_t` array at address `P`. -/
def Arr16 (K : Machine) (m : Memory) (P : Word) (p : Array Int) : Prop :=
  ∀ i < p.size, ld16 K m (P + BitVec.ofNat 64 (2 * i)) = .ok (elt p i)

theorem rd_ok {a : Array Int} {i : Nat} {x : Int} (h : rd a i = .ok x) : i < a.size ∧ x = elt a i := by
  unfold rd at h
  split at h
  · rename_i y hy
    injection h with h
    obtain ⟨hi, hy⟩ := Array.getElem?_eq_some_iff.mp hy
    refine ⟨hi, ?_⟩
    unfold elt
    rw [← h, ← hy, Array.getD_eq_getD_getElem?, Array.getElem?_eq_getElem hi]
    rfl
  · cases h

theorem mem32_ok {a : Array Int} {r i : Nat} {x : Int} (h : mem32 a r i = .ok x) :
    r % 4 = 0 ∧ r / 4 + i < a.size ∧ x = elt a (r / 4 + i) := by
  unfold mem32 at h
  split at h
  · exact ⟨‹_›, rd_ok h⟩
  · cases h

theorem mem16_ok {a : Array Int} {r i : Nat} {x : Int} (h : mem16 a r i = .ok x) :
    r % 2 = 0 ∧ r / 2 + i < a.size ∧ x = elt a (r / 2 + i) := by
  unfold mem16 at h
  split at h
  · exact ⟨‹_›, rd_ok h⟩
  · cases h

theorem bind_ok' {α β : Type} {x : M α} {f : α → M β} {r : β} (h : x.bind f = .ok r) : ∃ a, x = .ok a ∧ f a = .ok r := by
  cases x with
  | error e => cases h
  | ok a => exact ⟨a, rfl, h⟩

theorem Arr.ld {K : Machine} {m : Memory} {A : Word} {a : Array Int} (H : Arr K m A a) {r i : Nat} {x : Int}
    (h : mem32 a r i = .ok x) : ld32 K m (A + BitVec.ofNat 64 r + BitVec.ofNat 64 (4 * i)) = .ok x := by
  obtain ⟨h1, h2, rfl⟩ := mem32_ok h
  rw [← H _ h2, BitVec.add_assoc, ← BitVec.ofNat_add]
  congr 3
  omega

theorem Arr16.ld {K : Machine} {m : Memory} {P : Word} {p : Array Int} (H : Arr16 K m P p) {r i : Nat} {x : Int}
    (h : mem16 p r i = .ok x) : ld16 K m (P + BitVec.ofNat 64 r + BitVec.ofNat 64 (2 * i)) = .ok x := by
  obtain ⟨h1, h2, rfl⟩ := mem16_ok h
  rw [← H _ h2, BitVec.add_assoc, ← BitVec.ofNat_add]
  congr 3
  omega

theorem ok_bind {α β : Type} {x : M α} {f : α → M β} {a : α} (h : x = .ok a) : (x >>= f) = f a := by rw [h]; rfl

section
variable {K : Machine} {m : Memory} {A P : Word} {a p : Array Int}

theorem Arr.ld0 (H : Arr K m A a) {r : Nat} {x : Int} (h : mem32 a r 0 = .ok x) : ld32 K m (A + BitVec.ofNat 64 r) = .ok x := by
  have := H.ld h
  rwa [show BitVec.ofNat 64 (4 * 0) = 0#64 from rfl, BitVec.add_zero] at this

theorem Arr16.ld0 (H : Arr16 K m P p) {r : Nat} {x : Int} (h : mem16 p r 0 = .ok x) : ld16 K m (P + BitVec.ofNat 64 r) = .ok x := by
  have := H.ld h
  rwa [show BitVec.ofNat 64 (2 * 0) = 0#64 from rfl, BitVec.add_zero] at this

theorem Arr.load (H : Arr K m A a) {r : Nat} {v : V8} (h : Avx.load a r = .ok v) :
    Load.dqu.exec K m (A + BitVec.ofNat 64 r) = .ok v ∧ r + 32 ≤ 4 * a.size := by
  obtain ⟨x0, h0, h⟩ := bind_ok' h
  obtain ⟨x1, h1, h⟩ := bind_ok' h
  obtain ⟨x2, h2, h⟩ := bind_ok' h
  obtain ⟨x3, h3, h⟩ := bind_ok' h
  obtain ⟨x4, h4, h⟩ := bind_ok' h
  obtain ⟨x5, h5, h⟩ := bind_ok' h
  obtain ⟨x6, h6, h⟩ := bind_ok' h
  obtain ⟨x7, h7, h⟩ := bind_ok' h
  constructor
  · unfold Load.exec
    exact (ok_bind (H.ld0 h0)).trans <| (ok_bind (H.ld h1)).trans <| (ok_bind (H.ld h2)).trans <| (ok_bind (H.ld h3)).trans <|
      (ok_bind (H.ld h4)).trans <| (ok_bind (H.ld h5)).trans <| (ok_bind (H.ld h6)).trans <| (ok_bind (H.ld h7)).trans h
  · have := mem32_ok h7
    omega

theorem Arr.load_sxdq (H : Arr K m A a) {r : Nat} {v : V8} (h : Avx.load_sxdq a r = .ok v) :
    Load.sxdq.exec K m (A + BitVec.ofNat 64 r) = .ok v ∧ r + 16 ≤ 4 * a.size := by
  obtain ⟨x0, h0, h⟩ := bind_ok' h
  obtain ⟨x1, h1, h⟩ := bind_ok' h
  obtain ⟨x2, h2, h⟩ := bind_ok' h
  obtain ⟨x3, h3, h⟩ := bind_ok' h
  constructor
  · unfold Load.exec
    exact (ok_bind (H.ld0 h0)).trans <| (ok_bind (H.ld h1)).trans <| (ok_bind (H.ld h2)).trans <| (ok_bind (H.ld h3)).trans h
  · have := mem32_ok h3
    omega

theorem Arr16.load_sxwd (H : Arr16 K m P p) {r : Nat} {v : V8} (h : Avx.load_sxwd p r = .ok v) :
    Load.sxwd.exec K m (P + BitVec.ofNat 64 r) = .ok v := by
  obtain ⟨x0, h0, h⟩ := bind_ok' h
  obtain ⟨x1, h1, h⟩ := bind_ok' h
  obtain ⟨x2, h2, h⟩ := bind_ok' h
  obtain ⟨x3, h3, h⟩ := bind_ok' h
  obtain ⟨x4, h4, h⟩ := bind_ok' h
  obtain ⟨x5, h5, h⟩ := bind_ok' h
  obtain ⟨x6, h6, h⟩ := bind_ok' h
  obtain ⟨x7, h7, h⟩ := bind_ok' h
  unfold Load.exec
  exact (ok_bind (H.ld0 h0)).trans <| (ok_bind (H.ld h1)).trans <| (ok_bind (H.ld h2)).trans <| (ok_bind (H.ld h3)).trans <|
    (ok_bind (H.ld h4)).trans <| (ok_bind (H.ld h5)).trans <| (ok_bind (H.ld h6)).trans <| (ok_bind (H.ld h7)).trans h

theorem Arr16.load_sxwq (H : Arr16 K m P p) {r : Nat} {v : V8} (h : Avx.load_sxwq p r = .ok v) :
    Load.sxwq.exec K m (P + BitVec.ofNat 64 r) = .ok v := by
  obtain ⟨x0, h0, h⟩ := bind_ok' h
  obtain ⟨x1, h1, h⟩ := bind_ok' h
  obtain ⟨x2, h2, h⟩ := bind_ok' h
  obtain ⟨x3, h3, h⟩ := bind_ok' h
  unfold Load.exec
  exact (ok_bind (H.ld0 h0)).trans <| (ok_bind (H.ld h1)).trans <| (ok_bind (H.ld h2)).trans <| (ok_bind (H.ld h3)).trans h

theorem Arr16.load_sxwq128 (H : Arr16 K m P p) {r : Nat} {v : V8} (h : Avx.load_sxwq128 p r = .ok v) :
    Load.sxwq128.exec K m (P + BitVec.ofNat 64 r) = .ok v := by
  obtain ⟨x0, h0, h⟩ := bind_ok' h
  obtain ⟨x1, h1, h⟩ := bind_ok' h
  unfold Load.exec
  exact (ok_bind (H.ld0 h0)).trans <| (ok_bind (H.ld h1)).trans h

theorem Arr16.load_bdcstw (H : Arr16 K m P p) {r : Nat} {v : V8} (h : Avx.load_bdcstw p r = .ok v) :
    Load.bdcstw.exec K m (P + BitVec.ofNat 64 r) = .ok v := by
  obtain ⟨x0, h0, h⟩ := bind_ok' h
  unfold Load.exec
  exact (ok_bind (H.ld0 h0)).trans h

end

/-! ### Loaded lanes -/

theorem I32_of_I16 {x : Int} (h : -32768 ≤ x ∧ x ≤ 32767) : I32 x := ⟨by omega, by omega⟩

theorem ld32_I32 {K : Machine} {m : Memory} {A : Word} {x : Int} (h : ld32 K m A = .ok x) : I32 x := by
  unfold ld32 at h
  split at h
  · rw [← Except.ok.inj h]; exact I32_int32At _ _
  · cases h

theorem ld16_I32 {K : Machine} {m : Memory} {A : Word} {x : Int} (h : ld16 K m A = .ok x) : I32 x := by
  unfold ld16 at h
  split at h
  · cases h; exact I32_of_I16 (I16_int16At _ _)
  · cases h

theorem Load.exec_lanes {l : Load} {K : Machine} {m : Memory} {A : Word} {v : V8} (h : l.exec K m A = .ok v) : Lanes v := by
  unfold Load.exec at h
  split at h
  · obtain ⟨x0, h0, h⟩ := bind_ok' h
    obtain ⟨x1, h1, h⟩ := bind_ok' h
    obtain ⟨x2, h2, h⟩ := bind_ok' h
    obtain ⟨x3, h3, h⟩ := bind_ok' h
    obtain ⟨x4, h4, h⟩ := bind_ok' h
    obtain ⟨x5, h5, h⟩ := bind_ok' h
    obtain ⟨x6, h6, h⟩ := bind_ok' h
    obtain ⟨x7, h7, h⟩ := bind_ok' h
    rw [← Except.ok.inj h]
    exact ⟨ld32_I32 h0, ld32_I32 h1, ld32_I32 h2, ld32_I32 h3, ld32_I32 h4, ld32_I32 h5, ld32_I32 h6, ld32_I32 h7⟩
  · obtain ⟨x0, h0, h⟩ := bind_ok' h
    obtain ⟨x1, h1, h⟩ := bind_ok' h
    obtain ⟨x2, h2, h⟩ := bind_ok' h
    obtain ⟨x3, h3, h⟩ := bind_ok' h
    rw [← Except.ok.inj h]
    exact ⟨ld32_I32 h0, I32_sxHi _, ld32_I32 h1, I32_sxHi _, ld32_I32 h2, I32_sxHi _, ld32_I32 h3, I32_sxHi _⟩
  · obtain ⟨x0, h0, h⟩ := bind_ok' h
    obtain ⟨x1, h1, h⟩ := bind_ok' h
    obtain ⟨x2, h2, h⟩ := bind_ok' h
    obtain ⟨x3, h3, h⟩ := bind_ok' h
    obtain ⟨x4, h4, h⟩ := bind_ok' h
    obtain ⟨x5, h5, h⟩ := bind_ok' h
    obtain ⟨x6, h6, h⟩ := bind_ok' h
    obtain ⟨x7, h7, h⟩ := bind_ok' h
    rw [← Except.ok.inj h]
    exact ⟨ld16_I32 h0, ld16_I32 h1, ld16_I32 h2, ld16_I32 h3, ld16_I32 h4, ld16_I32 h5, ld16_I32 h6, ld16_I32 h7⟩
  · obtain ⟨x0, h0, h⟩ := bind_ok' h
    obtain ⟨x1, h1, h⟩ := bind_ok' h
    obtain ⟨x2, h2, h⟩ := bind_ok' h
    obtain ⟨x3, h3, h⟩ := bind_ok' h
    rw [← Except.ok.inj h]
    exact ⟨ld16_I32 h0, I32_sxHi _, ld16_I32 h1, I32_sxHi _, ld16_I32 h2, I32_sxHi _, ld16_I32 h3, I32_sxHi _⟩
  · obtain ⟨x0, h0, h⟩ := bind_ok' h
    obtain ⟨x1, h1, h⟩ := bind_ok' h
    rw [← Except.ok.inj h]
    exact ⟨ld16_I32 h0, I32_sxHi _, ld16_I32 h1, I32_sxHi _, I32_zero, I32_zero, I32_zero, I32_zero⟩
  · obtain ⟨x0, h0, h⟩ := bind_ok' h
    rw [← Except.ok.inj h]
    exact ⟨I32_toI32 _, I32_toI32 _, I32_toI32 _, I32_toI32 _, I32_zero, I32_zero, I32_zero, I32_zero⟩

/-- All registers hold 32-bit lanes. -/
def WF (y : Nat → V8) : Prop := ∀ k, Lanes (y k)

theorem WF.upd {y : Nat → V8} (h : WF y) {d : Nat} {v : V8} (hv : Lanes v) : WF (upd y d v) := by
  intro k
  unfold X86.upd
  cases Nat.beq k d
  · exact h k
  · exact hv

theorem lanes_vmovd (x : Int) : Lanes (vmovd x) :=
  ⟨I32_toI32 _, I32_toI32 _, I32_zero, I32_zero, I32_zero, I32_zero, I32_zero, I32_zero⟩

theorem VInstr.exec_WF (i : VInstr) {y : Nat → V8} (h : WF y) : WF (i.exec y) := by
  have hg : ∀ a i, I32 ((y a).get i) := fun a => (h a).get
  cases i with
  | vpaddd d a b => exact h.upd (lanes_ofFn fun _ => I32_toI32 _)
  | vpsubd d a b => exact h.upd (lanes_ofFn fun _ => I32_toI32 _)
  | vpand d a b => exact h.upd (lanes_ofFn fun _ => I32_toI32 _)
  | vpcmpgtd d a b => exact h.upd (lanes_ofFn fun i => by show I32 (if _ then _ else _); split <;> decide)
  | vpmuldq d a b => exact h.upd (lanes_ofFn fun i => by show I32 (if _ then _ else _); split <;> exact I32_toI32 _)
  | vpslld d a k => exact h.upd (lanes_ofFn fun _ => I32_toI32 _)
  | vpsrad d a k => exact h.upd (lanes_ofFn fun _ => I32_sar (hg _ _) _)
  | vpsrlq d a k => exact h.upd (lanes_ofFn fun i => by show I32 (if _ then _ else _); split <;> exact I32_toI32 _)
  | vpslldq d a k => exact h.upd (lanes_ofFn fun i => by
      show I32 (if _ then _ else _); split
      · exact I32_zero
      · exact hg _ _)
  | vpsrldq d a k => exact h.upd (lanes_ofFn fun i => by
      show I32 (if _ then _ else _); split
      · exact hg _ _
      · exact I32_zero)
  | vpshufd d a imm => exact h.upd (lanes_ofFn fun _ => hg _ _)
  | vpblendd d a b imm => exact h.upd (lanes_ofFn fun i => by show I32 (if _ then _ else _); split <;> exact hg _ _)
  | vshufps d a b imm => exact h.upd (lanes_ofFn fun i => by
      show I32 ((if _ then _ else _ : V8).get _); split <;> exact hg _ _)
  | vshufpd d a b imm => exact h.upd (lanes_ofFn fun i => by
      show I32 ((if _ then _ else _ : V8).get _); split <;> exact hg _ _)
  | vperm2i128 d a b imm => exact h.upd (lanes_ofFn fun i => by
      show I32 ((if _ then _ else _ : V8).get _); split <;> exact hg _ _)
  | vpermd d a b => exact h.upd (lanes_ofFn fun _ => hg _ _)
  | vpmovsxwq d a => exact h.upd (lanes_ofFn fun i => by
      show I32 (if _ then _ else _); split
      · exact I32_word _ _
      · exact I32_sxHi _)
  | vpbroadcastd d a =>
    have := (h a).1
    exact h.upd ⟨this, this, this, this, this, this, this, this⟩
  | vpbroadcastq d a => exact h.upd (lanes_ofFn fun _ => hg _ _)
  | vmovdqu d a => exact h.upd (h a)

end X86
