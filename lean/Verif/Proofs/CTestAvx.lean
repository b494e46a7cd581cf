import Verif.SpecSourceAvx
import Verif.Proofs.CTestChecks
import Verif.Proofs.CRelease
import Verif.Props.SourceAsm
import Verif.Props.SourceFun
import Verif.Props.TestNttAvx
import Verif.Model.Src.TestNttAvx
import Verif.Model.Src.TestAvx

/-
The functions compared by src/test_ntt_avx.c, as read from the text.
-/

namespace CLang.TAvx
open C CLang TestNttAvx X86 AsmRead
open Spec NTT

variable {P : Prog} {G : Name → Option Cell} {mem : Nat → Obj}

/-- `static void g(int32_t *a) { f(a, n, t); }` -/
abbrev wrap (f : Name) (n : Nat) (t : Name) : Fun :=
  ⟨none, [(n!"a", .ptr 1)], .seq (.expr (.call f (.cons (.var n!"a") (.cons (.num n) (.cons (.var t) .nil))))) .skip⟩

theorem wrap_calls {o op n : Nat} {g f t : Name} {mem' : Nat → Obj} (hg : P.lookup g = some (wrap f n t)) (ht : t ≠ n!"a") (hn : n ≤ 2147483647)
    (hG : G t = some (.ptr op 0 1)) (hc : Calls P G f [.ptr o 0 1, .int .i32 n, .ptr op 0 1] mem mem') : Calls P G g [.ptr o 0 1] mem mem' :=
  Calls.mk (st' := ⟨setEnv (fun _ => none) n!"a" (.ptr o 0 1), mem'⟩) (env := setEnv (fun _ => none) n!"a" (.ptr o 0 1)) hg
    (by simp only [bindParams, ok_bind, if_true])
    (Ex.seq (Ex.call (EvA.cons (Ev.ptr (by simp only [CLang.setEnv, if_true])) (EvA.cons (Ev.num hn) (EvA.cons (Ev.glob (by simp only [CLang.setEnv, if_neg ht]) hG rfl) (EvA.nil _)))) hc) (Ex.skip _))

theorem wrap_callsOf {n : Nat} {g f t : Name} (hg : P.lookup g = some (wrap f n t)) (hf : P.lookup f = none) :
    callsOf P g [n!"a"] = some [(f, [.var n!"a", .num n, .var t])] := by
  simp [callsOf, hg, calls, args, hf]

theorem wf_s16 (n x : Nat) : Wf (TestTables.s16 n x) := by
  intro i v h
  unfold rd TestTables.s16 at h
  rw [Array.getElem?_ofFn] at h
  split at h
  · next y hy =>
    split at hy
    · cases hy
      cases h
      unfold I32
      dsimp only
      split <;> omega
    · cases hy
  · cases h

/-- The C function of a pair, executed from the text. -/
def BaseOf (P : Prog) (Q : Pair) (f : Name) : Prop :=
  ∀ (G : Name → Option Cell) (mem : Nat → Obj) (o op n : Nat) (a a' p : Array Int), n < 4294967296 → mem o = ⟨.i32, a⟩ → Wf a → op ≠ o →
    mem op = ⟨.i16, p⟩ → Wf p → Q.base a n p = .ok a' → Calls P G f [.ptr o 0 1, .int .i32 n, .ptr op 0 1] mem (setMem mem o ⟨.i32, a'⟩)

/-- The function in assembly of a pair, executed from the text. -/
def AsmOf (F : Asm) (Q : Pair) (g : Name) : Prop :=
  ∀ S ∈ sizes, ∀ (K : Machine) (A T : Word) (a a' : Array Int) (s : X86.State), AsmCall F K A a s → X86.Table K A a s T (Q.table S) →
    s.gpr rdx = T → a.size = S.n → Q.base a S.n (Q.table S) = .ok a' → AsmReturns F K g A a s a'

theorem size_ok {S : Size} (hS : S ∈ sizes) : ∃ k c ω, SizeOK k c ω S := by
  simp only [sizes, List.mem_cons, List.not_mem_nil, or_false] at hS
  rcases hS with rfl | rfl | rfl | rfl | rfl | rfl
  exacts [⟨_, _, _, size16_ok⟩, ⟨_, _, _, size128_ok⟩, ⟨_, _, _, size256_ok⟩, ⟨_, _, _, size512_ok⟩, ⟨_, _, _, size1024_ok⟩,
    ⟨_, _, _, size2048_ok⟩]

/-- What is checked for each row. -/
def Row (P : Prog) (c : Compared) (f : Name) : Prop :=
  P.lookup c.base = some (wrap f c.n c.table) ∧ P.lookup c.asm = some (wrap c.callee c.n c.table) ∧ P.lookup c.callee = none ∧ c.table ≠ n!"a" ∧
    c.n ≤ 2147483647

instance (P : Prog) (c : Compared) (f : Name) : Decidable (Row P c f) := by unfold Row; exact inferInstance

/-- The size fits to an element of `roots`. -/
def FitsRoot (S : Size) : Prop := ∃ k ψ B : Nat, (k, ψ) ∈ roots ∧ SizeOK k (ψ : Zq) ((ψ : Zq) ^ 2) S ∧ 200000 ≤ B ∧
  Tight.AllOk k ψ B 2147483647 2147483647 2147483647 2147483647 ∧ Tight.ctA k ψ 0 false 2147483647 200000 = true

theorem fits_root {k ψ B : Nat} {c ω : Zq} {S : Size} (hm : (k, ψ) ∈ roots) (h : SizeOK k c ω S) (e1 : (ψ : Zq) = c) (e2 : c ^ 2 = ω)
    (hB : 200000 ≤ B) (h1 : Tight.AllOk k ψ B 2147483647 2147483647 2147483647 2147483647)
    (h2 : Tight.ctA k ψ 0 false 2147483647 200000 = true) : FitsRoot S := by
  subst e1
  subst e2
  exact ⟨k, ψ, B, hm, h, hB, h1, h2⟩

theorem all_root {S : Size} (hS : S ∈ sizes) : FitsRoot S := by
  simp only [sizes, List.mem_cons, List.not_mem_nil, or_false] at hS
  rcases hS with rfl | rfl | rfl | rfl | rfl | rfl
  · exact fits_root (by decide) size16_ok (by norm_num) (by decide +kernel) (by norm_num) Tight.fwd16 Tight.mul16
  · exact fits_root (by decide) size128_ok (by norm_num) (by decide +kernel) (by norm_num) Tight.fwd128 Tight.mul128
  · exact fits_root (by decide) size256_ok (by norm_num) (by decide +kernel) (by norm_num) Tight.fwd256 Tight.mul256
  · exact fits_root (by decide) size512_ok (by norm_num) (by decide +kernel) (by norm_num) Tight.fwd512 Tight.mul512
  · exact fits_root (by decide) size1024_ok (by norm_num) (by decide +kernel) (by norm_num) Tight.fwd1024 Tight.mul1024
  · exact fits_root (by decide) size2048_ok (by norm_num) (by decide +kernel) (by norm_num) Tight.fwd2048 Tight.mul2048

/-- The C function of a pair computes what `meanings` says of the function in assembly. -/
def Means (Q : Pair) (g : Name) : Prop :=
  ∃ f, meanings.lookup g = some f ∧ ∀ S ∈ sizes, ∃ k ψ : Nat, (k, ψ) ∈ roots ∧ S.n = 2 ^ k ∧ ∀ a : Array Int, a.size = S.n →
    Spec.InRange (-200000) 199999 a → ∃ a', Q.base a S.n (Q.table S) = .ok a' ∧ ∀ i, i < 2 ^ k → Spec.coeff a' i = f k (ψ : Zq) (Spec.coeff a) i

/-- Both functions compute the same array. -/
def Same (F : Asm) (P : Prog) (c : Compared) : Prop :=
  ∃ (k ψ : Nat) (f : Nat → Zq → (Nat → Zq) → Nat → Zq), (k, ψ) ∈ roots ∧ c.n = 2 ^ k ∧ meanings.lookup c.callee = some f ∧
    ∀ a : Array Int, a.size = c.n → Spec.InRange (-200000) 199999 a →
      ∃ a', Agree F P c a a' ∧ ∀ i, i < 2 ^ k → Spec.coeff a' i = f k (ψ : Zq) (Spec.coeff a) i

theorem row {F : Asm} {c : Compared} {S : Size} {Q : Pair} {f : Name} (hS : S ∈ sizes) (hQ : Means Q c.callee) (hb : BaseOf P Q f)
    (ha : AsmOf F Q c.callee) (hn : c.n = S.n) (he : c.entries = Q.table S) (hw : Wf c.entries) (hr : Row P c f) : Same F P c := by
  obtain ⟨v, hv, hall⟩ := hQ
  obtain ⟨k, ψ, hm, hk, hall⟩ := hall S hS
  refine ⟨k, ψ, v, hm, hn.trans hk, hv, ?_⟩
  intro a hs hra
  obtain ⟨h1, h2, h3, h4, h5⟩ := hr
  rw [hn] at hs
  obtain ⟨a', e, hval⟩ := hall a hs hra
  refine ⟨a', ⟨fun G mem o ht hm => ?_, wrap_callsOf h2 h3, fun K A T s hc hT hx => ?_⟩, hval⟩
  · obtain ⟨op, g1, g2, g3⟩ := ht
    have := wrap_calls h1 h4 h5 g1 (hb G mem o op c.n a a' c.entries (by omega) hm (Wf.of_range hra (by decide) (by decide))
      (fun h => g2 (by rw [h]; exact List.mem_singleton.2 rfl)) g3 hw (by rw [hn, he]; exact e))
    exact ⟨⟨_, this, setMem_self _ _ _, fun _ ho => setMem_ne ho⟩, ⟨_, this.release, setMem_self _ _ _, fun _ ho => setMem_ne ho⟩⟩
  · rw [he] at hT
    exact ha S hS K A T a a' s hc hT hx hs e

theorem means_ct_rev2std : Means ct_rev2std n!"ntt_red_ct_rev2std_asm" := by
  refine ⟨_, rfl, fun S hS => ?_⟩
  obtain ⟨k, ψ, B, hm, ok, hB, hall, hmul⟩ := all_root hS
  refine ⟨k, ψ, hm, ok.n, fun a ha hr => ?_⟩
  have hk0 : 0 < k := by have := ok.le_k; omega
  have hk : k ≤ 31 := by have := ok.k_le; omega
  have hψ : (ψ : Zq) ^ 2 ^ k = -1 := by rw [Tight.pow_pred hk0, pow_mul]; exact ok.half
  have hr' : Spec.InRange (-(B : Int)) B a := NttRed.InRange.mono hr (by omega) (by omega)
  rw [ok.n] at ha ⊢
  have hA : ∀ i, i < 2 ^ k → Spec.coeff a i = (fun j => Spec.coeff a (Spec.rev k j)) (Spec.rev k i) := fun i hi => by
    dsimp only
    rw [rev_rev _ _ hi]
  obtain ⟨a', e, -, -, hv⟩ := Tight.ct_rev2std hk0 hk hψ le_rfl ha hr' ok.shoup hall.ctA (A := fun j => Spec.coeff a (Spec.rev k j)) hA
  exact ⟨a', e, fun i hi => hv i hi⟩

theorem means_mulct_rev2std : Means mulct_rev2std n!"mulntt_red_ct_rev2std_asm" := by
  refine ⟨_, rfl, fun S hS => ?_⟩
  obtain ⟨k, ψ, B, hm, ok, hB, hall, hmul⟩ := all_root hS
  refine ⟨k, ψ, hm, ok.n, fun a ha hr => ?_⟩
  have hk0 : 0 < k := by have := ok.le_k; omega
  have hk : k ≤ 31 := by have := ok.k_le; omega
  have hψ : (ψ : Zq) ^ 2 ^ k = -1 := by rw [Tight.pow_pred hk0, pow_mul]; exact ok.half
  have hr' : Spec.InRange (-(B : Int)) B a := NttRed.InRange.mono hr (by omega) (by omega)
  rw [ok.n] at ha ⊢
  have hA : ∀ i, i < 2 ^ k → Spec.coeff a i = (fun j => Spec.coeff a (Spec.rev k j)) (Spec.rev k i) := fun i hi => by
    dsimp only
    rw [rev_rev _ _ hi]
  obtain ⟨a', e, -, -, hv⟩ := Tight.mulct_rev2std (s := 0) hk0 hk hψ le_rfl ha (NttRed.InRange.mono hr (by norm_num) (by norm_num)) (by rw [pow_zero]; exact ok.shoup) hmul (A := fun j => Spec.coeff a (Spec.rev k j)) hA
  exact ⟨a', e, fun i hi => (hv i hi).trans (by dsimp only; rw [pow_zero, one_mul]; rfl)⟩

theorem means_ct_std2rev : Means ct_std2rev n!"ntt_red_ct_std2rev_asm" := by
  refine ⟨_, rfl, fun S hS => ?_⟩
  obtain ⟨k, ψ, B, hm, ok, hB, hall, hmul⟩ := all_root hS
  refine ⟨k, ψ, hm, ok.n, fun a ha hr => ?_⟩
  have hk0 : 0 < k := by have := ok.le_k; omega
  have hk : k ≤ 31 := by have := ok.k_le; omega
  have hψ : (ψ : Zq) ^ 2 ^ k = -1 := by rw [Tight.pow_pred hk0, pow_mul]; exact ok.half
  have hr' : Spec.InRange (-(B : Int)) B a := NttRed.InRange.mono hr (by omega) (by omega)
  rw [ok.n] at ha ⊢
  obtain ⟨a', e, -, -, hv⟩ := Tight.ct_std2rev hk0 hk hψ le_rfl ha hr' ok.rev_shoup hall.ctB (A := Spec.coeff a) (fun _ _ => rfl)
  exact ⟨a', e, fun i hi => hv i hi⟩

theorem means_mulct_std2rev : Means mulct_std2rev n!"mulntt_red_ct_std2rev_asm" := by
  refine ⟨_, rfl, fun S hS => ?_⟩
  obtain ⟨k, ψ, B, hm, ok, hB, hall, hmul⟩ := all_root hS
  refine ⟨k, ψ, hm, ok.n, fun a ha hr => ?_⟩
  have hk0 : 0 < k := by have := ok.le_k; omega
  have hk : k ≤ 31 := by have := ok.k_le; omega
  have hψ : (ψ : Zq) ^ 2 ^ k = -1 := by rw [Tight.pow_pred hk0, pow_mul]; exact ok.half
  have hr' : Spec.InRange (-(B : Int)) B a := NttRed.InRange.mono hr (by omega) (by omega)
  rw [ok.n] at ha ⊢
  obtain ⟨a', e, -, -, hv⟩ := Tight.mulct_std2rev (s := 1) hk0 hk hψ le_rfl ha hr' (by rw [pow_one]; exact ok.rev_shoup_scaled) hall.mulctB (A := Spec.coeff a) (fun _ _ => rfl)
  exact ⟨a', e, fun i hi => (hv i hi).trans (by dsimp only; rw [pow_one, evalPoly_scale]; rfl)⟩

theorem means_gs_rev2std : Means gs_rev2std n!"ntt_red_gs_rev2std_asm" := by
  refine ⟨_, rfl, fun S hS => ?_⟩
  obtain ⟨k, ψ, B, hm, ok, hB, hall, hmul⟩ := all_root hS
  refine ⟨k, ψ, hm, ok.n, fun a ha hr => ?_⟩
  have hk0 : 0 < k := by have := ok.le_k; omega
  have hk : k ≤ 31 := by have := ok.k_le; omega
  have hψ : (ψ : Zq) ^ 2 ^ k = -1 := by rw [Tight.pow_pred hk0, pow_mul]; exact ok.half
  have hr' : Spec.InRange (-(B : Int)) B a := NttRed.InRange.mono hr (by omega) (by omega)
  rw [ok.n] at ha ⊢
  have hA : ∀ i, i < 2 ^ k → Spec.coeff a i = (fun j => Spec.coeff a (Spec.rev k j)) (Spec.rev k i) := fun i hi => by
    dsimp only
    rw [rev_rev _ _ hi]
  obtain ⟨a', e, -, -, hv⟩ := Tight.gs_rev2std hk0 hk hψ le_rfl ha hr' ok.rev_shoup hall.gsB (A := fun j => Spec.coeff a (Spec.rev k j)) hA
  exact ⟨a', e, fun i hi => hv i hi⟩

theorem means_gsmul_rev2std : Means gsmul_rev2std n!"nttmul_red_gs_rev2std_asm" := by
  refine ⟨_, rfl, fun S hS => ?_⟩
  obtain ⟨k, ψ, B, hm, ok, hB, hall, hmul⟩ := all_root hS
  refine ⟨k, ψ, hm, ok.n, fun a ha hr => ?_⟩
  have hk0 : 0 < k := by have := ok.le_k; omega
  have hk : k ≤ 31 := by have := ok.k_le; omega
  have hψ : (ψ : Zq) ^ 2 ^ k = -1 := by rw [Tight.pow_pred hk0, pow_mul]; exact ok.half
  have hr' : Spec.InRange (-(B : Int)) B a := NttRed.InRange.mono hr (by omega) (by omega)
  rw [ok.n] at ha ⊢
  have hA : ∀ i, i < 2 ^ k → Spec.coeff a i = (fun j => Spec.coeff a (Spec.rev k j)) (Spec.rev k i) := fun i hi => by
    dsimp only
    rw [rev_rev _ _ hi]
  obtain ⟨a', e, -, -, hv⟩ := Tight.gsmul_rev2std (s := 1) hk0 hk hψ le_rfl ha hr' (by rw [pow_one]; exact ok.rev_shoup_scaled) hall.gsmulB (A := fun j => Spec.coeff a (Spec.rev k j)) hA
  exact ⟨a', e, fun i hi => (hv i hi).trans (by dsimp only; rw [pow_one])⟩

theorem means_gs_std2rev : Means gs_std2rev n!"ntt_red_gs_std2rev_asm" := by
  refine ⟨_, rfl, fun S hS => ?_⟩
  obtain ⟨k, ψ, B, hm, ok, hB, hall, hmul⟩ := all_root hS
  refine ⟨k, ψ, hm, ok.n, fun a ha hr => ?_⟩
  have hk0 : 0 < k := by have := ok.le_k; omega
  have hk : k ≤ 31 := by have := ok.k_le; omega
  have hψ : (ψ : Zq) ^ 2 ^ k = -1 := by rw [Tight.pow_pred hk0, pow_mul]; exact ok.half
  have hr' : Spec.InRange (-(B : Int)) B a := NttRed.InRange.mono hr (by omega) (by omega)
  rw [ok.n] at ha ⊢
  obtain ⟨a', e, -, -, hv⟩ := Tight.gs_std2rev hk0 hk hψ le_rfl ha hr' ok.shoup hall.gsA (A := Spec.coeff a) (fun _ _ => rfl)
  exact ⟨a', e, fun i hi => hv i hi⟩

theorem means_gsmul_std2rev : Means gsmul_std2rev n!"nttmul_red_gs_std2rev_asm" := by
  refine ⟨_, rfl, fun S hS => ?_⟩
  obtain ⟨k, ψ, B, hm, ok, hB, hall, hmul⟩ := all_root hS
  refine ⟨k, ψ, hm, ok.n, fun a ha hr => ?_⟩
  have hk0 : 0 < k := by have := ok.le_k; omega
  have hk : k ≤ 31 := by have := ok.k_le; omega
  have hψ : (ψ : Zq) ^ 2 ^ k = -1 := by rw [Tight.pow_pred hk0, pow_mul]; exact ok.half
  have hr' : Spec.InRange (-(B : Int)) B a := NttRed.InRange.mono hr (by omega) (by omega)
  rw [ok.n] at ha ⊢
  obtain ⟨a', e, -, -, hv⟩ := Tight.gsmul_std2rev (s := 1) hk0 hk hψ le_rfl ha hr' (by rw [pow_one]; exact ok.shoup_scaled) hall.gsmulA (A := Spec.coeff a) (fun _ _ => rfl)
  exact ⟨a', e, fun i hi => (hv i hi).trans (by dsimp only; rw [pow_one])⟩

/-- The functions of test_ntt_avx.c and ntt_red.c. -/
abbrev prog : Prog := Src.test_ntt_avx ++ Src.ntt_red

theorem prog_has : Has prog Src.ntt_red := Has.of_all (by decide +kernel)

theorem base_ct_rev2std : BaseOf prog ct_rev2std n!"ntt_red_ct_rev2std" :=
  fun _ _ _ _ _ _ _ _ hn hm ha hop hmp hp h => (RedTr.ntt_red_ct_rev2std_calls prog_has hn hm ha hop hmp hp h).1

theorem base_mulct_rev2std : BaseOf prog mulct_rev2std n!"mulntt_red_ct_rev2std" :=
  fun _ _ _ _ _ _ _ _ hn hm ha hop hmp hp h => (RedTr.mulntt_red_ct_rev2std_calls prog_has hn hm ha hop hmp hp h).1

theorem base_ct_std2rev : BaseOf prog ct_std2rev n!"ntt_red_ct_std2rev" :=
  fun _ _ _ _ _ _ _ _ hn hm ha hop hmp hp h => (RedTr.ntt_red_ct_std2rev_calls prog_has hn hm ha hop hmp hp h).1

theorem base_mulct_std2rev : BaseOf prog mulct_std2rev n!"mulntt_red_ct_std2rev" :=
  fun _ _ _ _ _ _ _ _ hn hm ha hop hmp hp h => (RedTr.mulntt_red_ct_std2rev_calls prog_has hn hm ha hop hmp hp h).1

theorem base_gs_rev2std : BaseOf prog gs_rev2std n!"ntt_red_gs_rev2std" :=
  fun _ _ _ _ _ _ _ _ hn hm ha hop hmp hp h => (RedTr.ntt_red_gs_rev2std_calls prog_has hn hm ha hop hmp hp h).1

theorem base_gsmul_rev2std : BaseOf prog gsmul_rev2std n!"nttmul_red_gs_rev2std" :=
  fun _ _ _ _ _ _ _ _ hn hm ha hop hmp hp h => (RedTr.nttmul_red_gs_rev2std_calls prog_has hn hm ha hop hmp hp h).1

theorem base_gs_std2rev : BaseOf prog gs_std2rev n!"ntt_red_gs_std2rev" :=
  fun _ _ _ _ _ _ _ _ hn hm ha hop hmp hp h => (RedTr.ntt_red_gs_std2rev_calls prog_has hn hm ha hop hmp hp h).1

theorem base_gsmul_std2rev : BaseOf prog gsmul_std2rev n!"nttmul_red_gs_std2rev" :=
  fun _ _ _ _ _ _ _ _ hn hm ha hop hmp hp h => (RedTr.nttmul_red_gs_std2rev_calls prog_has hn hm ha hop hmp hp h).1

theorem asm_of : ∃ F, readAsm Src.ntt_asm_text = some F ∧ AsmOf F ct_rev2std n!"ntt_red_ct_rev2std_asm" ∧ AsmOf F mulct_rev2std n!"mulntt_red_ct_rev2std_asm" ∧ AsmOf F ct_std2rev n!"ntt_red_ct_std2rev_asm" ∧ AsmOf F mulct_std2rev n!"mulntt_red_ct_std2rev_asm" ∧ AsmOf F gs_rev2std n!"ntt_red_gs_rev2std_asm" ∧ AsmOf F gsmul_rev2std n!"nttmul_red_gs_rev2std_asm" ∧ AsmOf F gs_std2rev n!"ntt_red_gs_std2rev_asm" ∧ AsmOf F gsmul_std2rev n!"nttmul_red_gs_std2rev_asm" := by
  obtain ⟨F, hF, key⟩ := Props.C83_transforms
  refine ⟨F, hF, ?_, ?_, ?_, ?_, ?_, ?_, ?_, ?_⟩
  · intro S hS K A T a a' s hc hT hx hs h
    obtain ⟨k, c, ω, ok⟩ := size_ok hS
    have hk : a.size = 2 ^ k := hs.trans ok.n
    exact (key K A T a _ s k hc ok.le_k hk hT hx (by rw [hk]; exact ok.shoup.1)).2 (Props.unit_std ok.shoup) (n!"ntt_red_ct_rev2std_asm", NttRed.ntt_red_ct_rev2std) List.mem_cons_self a'
      (by rw [hs]; exact h)
  · intro S hS K A T a a' s hc hT hx hs h
    obtain ⟨k, c, ω, ok⟩ := size_ok hS
    have hk : a.size = 2 ^ k := hs.trans ok.n
    exact (key K A T a _ s k hc ok.le_k hk hT hx (by rw [hk]; exact ok.shoup.1)).1 (n!"mulntt_red_ct_rev2std_asm", NttRed.mulntt_red_ct_rev2std) List.mem_cons_self a'
      (by rw [hs]; exact h)
  · intro S hS K A T a a' s hc hT hx hs h
    obtain ⟨k, c, ω, ok⟩ := size_ok hS
    have hk : a.size = 2 ^ k := hs.trans ok.n
    exact (key K A T a _ s k hc ok.le_k hk hT hx (by rw [hk]; exact ok.rev_shoup.1)).2 (Props.unit_rev ok.rev_shoup) (n!"ntt_red_ct_std2rev_asm", NttRed.ntt_red_ct_std2rev) (List.mem_cons_of_mem _ List.mem_cons_self) a'
      (by rw [hs]; exact h)
  · intro S hS K A T a a' s hc hT hx hs h
    obtain ⟨k, c, ω, ok⟩ := size_ok hS
    have hk : a.size = 2 ^ k := hs.trans ok.n
    exact (key K A T a _ s k hc ok.le_k hk hT hx (by rw [hk]; exact ok.rev_shoup_scaled.1)).1 (n!"mulntt_red_ct_std2rev_asm", NttRed.mulntt_red_ct_std2rev) (List.mem_cons_of_mem _ List.mem_cons_self) a'
      (by rw [hs]; exact h)
  · intro S hS K A T a a' s hc hT hx hs h
    obtain ⟨k, c, ω, ok⟩ := size_ok hS
    have hk : a.size = 2 ^ k := hs.trans ok.n
    exact (key K A T a _ s k hc ok.le_k hk hT hx (by rw [hk]; exact ok.rev_shoup.1)).2 (Props.unit_rev ok.rev_shoup) (n!"ntt_red_gs_rev2std_asm", NttRed.ntt_red_gs_rev2std) (List.mem_cons_of_mem _ (List.mem_cons_of_mem _ List.mem_cons_self)) a'
      (by rw [hs]; exact h)
  · intro S hS K A T a a' s hc hT hx hs h
    obtain ⟨k, c, ω, ok⟩ := size_ok hS
    have hk : a.size = 2 ^ k := hs.trans ok.n
    exact (key K A T a _ s k hc ok.le_k hk hT hx (by rw [hk]; exact ok.rev_shoup_scaled.1)).1 (n!"nttmul_red_gs_rev2std_asm", NttRed.nttmul_red_gs_rev2std) (List.mem_cons_of_mem _ (List.mem_cons_of_mem _ List.mem_cons_self)) a'
      (by rw [hs]; exact h)
  · intro S hS K A T a a' s hc hT hx hs h
    obtain ⟨k, c, ω, ok⟩ := size_ok hS
    have hk : a.size = 2 ^ k := hs.trans ok.n
    exact (key K A T a _ s k hc ok.le_k hk hT hx (by rw [hk]; exact ok.shoup.1)).2 (Props.unit_std ok.shoup) (n!"ntt_red_gs_std2rev_asm", NttRed.ntt_red_gs_std2rev) (List.mem_cons_of_mem _ (List.mem_cons_of_mem _ (List.mem_cons_of_mem _ List.mem_cons_self))) a'
      (by rw [hs]; exact h)
  · intro S hS K A T a a' s hc hT hx hs h
    obtain ⟨k, c, ω, ok⟩ := size_ok hS
    have hk : a.size = 2 ^ k := hs.trans ok.n
    exact (key K A T a _ s k hc ok.le_k hk hT hx (by rw [hk]; exact ok.shoup_scaled.1)).1 (n!"nttmul_red_gs_std2rev_asm", NttRed.nttmul_red_gs_std2rev) (List.mem_cons_of_mem _ (List.mem_cons_of_mem _ (List.mem_cons_of_mem _ List.mem_cons_self))) a'
      (by rw [hs]; exact h)

theorem mem16 : size16 ∈ sizes := List.mem_cons_self
theorem mem128 : size128 ∈ sizes := (List.mem_cons_of_mem _ List.mem_cons_self)
theorem mem256 : size256 ∈ sizes := (List.mem_cons_of_mem _ (List.mem_cons_of_mem _ List.mem_cons_self))
theorem mem512 : size512 ∈ sizes := (List.mem_cons_of_mem _ (List.mem_cons_of_mem _ (List.mem_cons_of_mem _ List.mem_cons_self)))
theorem mem1024 : size1024 ∈ sizes := (List.mem_cons_of_mem _ (List.mem_cons_of_mem _ (List.mem_cons_of_mem _ (List.mem_cons_of_mem _ List.mem_cons_self))))
theorem mem2048 : size2048 ∈ sizes := (List.mem_cons_of_mem _ (List.mem_cons_of_mem _ (List.mem_cons_of_mem _ (List.mem_cons_of_mem _ (List.mem_cons_of_mem _ List.mem_cons_self)))))

theorem all_same : ∃ F, readAsm Src.ntt_asm_text = some F ∧ ∀ c ∈ compared, Same F prog c := by
  obtain ⟨F, hF, a0, a1, a2, a3, a4, a5, a6, a7⟩ := asm_of
  refine ⟨F, hF, ?_⟩
  unfold compared
  refine List.forall_mem_cons.2 ⟨row mem16 means_ct_rev2std base_ct_rev2std a0 rfl (by dsimp only [ct_rev2std, size16]) (by dsimp only; rw [TestTables.shoup_sred_ntt16_12289]; exact wf_s16 _ _) (by decide +kernel), ?_⟩
  refine List.forall_mem_cons.2 ⟨row mem128 means_ct_rev2std base_ct_rev2std a0 rfl (by dsimp only [ct_rev2std, size128]) (by dsimp only; rw [TestTables.shoup_sred_ntt128_12289]; exact wf_s16 _ _) (by decide +kernel), ?_⟩
  refine List.forall_mem_cons.2 ⟨row mem256 means_ct_rev2std base_ct_rev2std a0 rfl (by dsimp only [ct_rev2std, size256]) (by dsimp only; rw [TestTables.shoup_sred_ntt256_12289]; exact wf_s16 _ _) (by decide +kernel), ?_⟩
  refine List.forall_mem_cons.2 ⟨row mem512 means_ct_rev2std base_ct_rev2std a0 rfl (by dsimp only [ct_rev2std, size512]) (by dsimp only; rw [TestTables.shoup_sred_ntt512_12289]; exact wf_s16 _ _) (by decide +kernel), ?_⟩
  refine List.forall_mem_cons.2 ⟨row mem1024 means_ct_rev2std base_ct_rev2std a0 rfl (by dsimp only [ct_rev2std, size1024]) (by dsimp only; rw [TestTables.shoup_sred_ntt1024_12289]; exact wf_s16 _ _) (by decide +kernel), ?_⟩
  refine List.forall_mem_cons.2 ⟨row mem2048 means_ct_rev2std base_ct_rev2std a0 rfl (by dsimp only [ct_rev2std, size2048]) (by dsimp only; rw [TestTables.shoup_sred_ntt2048_12289]; exact wf_s16 _ _) (by decide +kernel), ?_⟩
  refine List.forall_mem_cons.2 ⟨row mem16 means_mulct_rev2std base_mulct_rev2std a1 rfl (by dsimp only [mulct_rev2std, size16]) (by dsimp only; rw [TestTables.shoup_sred_ntt16_12289]; exact wf_s16 _ _) (by decide +kernel), ?_⟩
  refine List.forall_mem_cons.2 ⟨row mem128 means_mulct_rev2std base_mulct_rev2std a1 rfl (by dsimp only [mulct_rev2std, size128]) (by dsimp only; rw [TestTables.shoup_sred_ntt128_12289]; exact wf_s16 _ _) (by decide +kernel), ?_⟩
  refine List.forall_mem_cons.2 ⟨row mem256 means_mulct_rev2std base_mulct_rev2std a1 rfl (by dsimp only [mulct_rev2std, size256]) (by dsimp only; rw [TestTables.shoup_sred_ntt256_12289]; exact wf_s16 _ _) (by decide +kernel), ?_⟩
  refine List.forall_mem_cons.2 ⟨row mem512 means_mulct_rev2std base_mulct_rev2std a1 rfl (by dsimp only [mulct_rev2std, size512]) (by dsimp only; rw [TestTables.shoup_sred_ntt512_12289]; exact wf_s16 _ _) (by decide +kernel), ?_⟩
  refine List.forall_mem_cons.2 ⟨row mem1024 means_mulct_rev2std base_mulct_rev2std a1 rfl (by dsimp only [mulct_rev2std, size1024]) (by dsimp only; rw [TestTables.shoup_sred_ntt1024_12289]; exact wf_s16 _ _) (by decide +kernel), ?_⟩
  refine List.forall_mem_cons.2 ⟨row mem2048 means_mulct_rev2std base_mulct_rev2std a1 rfl (by dsimp only [mulct_rev2std, size2048]) (by dsimp only; rw [TestTables.shoup_sred_ntt2048_12289]; exact wf_s16 _ _) (by decide +kernel), ?_⟩
  refine List.forall_mem_cons.2 ⟨row mem16 means_ct_std2rev base_ct_std2rev a2 rfl (by dsimp only [ct_std2rev, size16]) (by dsimp only; rw [TestTables.rev_shoup_sred_ntt16_12289]; exact wf_s16 _ _) (by decide +kernel), ?_⟩
  refine List.forall_mem_cons.2 ⟨row mem128 means_ct_std2rev base_ct_std2rev a2 rfl (by dsimp only [ct_std2rev, size128]) (by dsimp only; rw [TestTables.rev_shoup_sred_ntt128_12289]; exact wf_s16 _ _) (by decide +kernel), ?_⟩
  refine List.forall_mem_cons.2 ⟨row mem256 means_ct_std2rev base_ct_std2rev a2 rfl (by dsimp only [ct_std2rev, size256]) (by dsimp only; rw [TestTables.rev_shoup_sred_ntt256_12289]; exact wf_s16 _ _) (by decide +kernel), ?_⟩
  refine List.forall_mem_cons.2 ⟨row mem512 means_ct_std2rev base_ct_std2rev a2 rfl (by dsimp only [ct_std2rev, size512]) (by dsimp only; rw [TestTables.rev_shoup_sred_ntt512_12289]; exact wf_s16 _ _) (by decide +kernel), ?_⟩
  refine List.forall_mem_cons.2 ⟨row mem1024 means_ct_std2rev base_ct_std2rev a2 rfl (by dsimp only [ct_std2rev, size1024]) (by dsimp only; rw [TestTables.rev_shoup_sred_ntt1024_12289]; exact wf_s16 _ _) (by decide +kernel), ?_⟩
  refine List.forall_mem_cons.2 ⟨row mem2048 means_ct_std2rev base_ct_std2rev a2 rfl (by dsimp only [ct_std2rev, size2048]) (by dsimp only; rw [TestTables.rev_shoup_sred_ntt2048_12289]; exact wf_s16 _ _) (by decide +kernel), ?_⟩
  refine List.forall_mem_cons.2 ⟨row mem16 means_mulct_std2rev base_mulct_std2rev a3 rfl (by dsimp only [mulct_std2rev, size16]) (by dsimp only; rw [TestTables.rev_shoup_sred_scaled_ntt16_12289]; exact wf_s16 _ _) (by decide +kernel), ?_⟩
  refine List.forall_mem_cons.2 ⟨row mem128 means_mulct_std2rev base_mulct_std2rev a3 rfl (by dsimp only [mulct_std2rev, size128]) (by dsimp only; rw [TestTables.rev_shoup_sred_scaled_ntt128_12289]; exact wf_s16 _ _) (by decide +kernel), ?_⟩
  refine List.forall_mem_cons.2 ⟨row mem256 means_mulct_std2rev base_mulct_std2rev a3 rfl (by dsimp only [mulct_std2rev, size256]) (by dsimp only; rw [TestTables.rev_shoup_sred_scaled_ntt256_12289]; exact wf_s16 _ _) (by decide +kernel), ?_⟩
  refine List.forall_mem_cons.2 ⟨row mem512 means_mulct_std2rev base_mulct_std2rev a3 rfl (by dsimp only [mulct_std2rev, size512]) (by dsimp only; rw [TestTables.rev_shoup_sred_scaled_ntt512_12289]; exact wf_s16 _ _) (by decide +kernel), ?_⟩
  refine List.forall_mem_cons.2 ⟨row mem1024 means_mulct_std2rev base_mulct_std2rev a3 rfl (by dsimp only [mulct_std2rev, size1024]) (by dsimp only; rw [TestTables.rev_shoup_sred_scaled_ntt1024_12289]; exact wf_s16 _ _) (by decide +kernel), ?_⟩
  refine List.forall_mem_cons.2 ⟨row mem2048 means_mulct_std2rev base_mulct_std2rev a3 rfl (by dsimp only [mulct_std2rev, size2048]) (by dsimp only; rw [TestTables.rev_shoup_sred_scaled_ntt2048_12289]; exact wf_s16 _ _) (by decide +kernel), ?_⟩
  refine List.forall_mem_cons.2 ⟨row mem16 means_gs_rev2std base_gs_rev2std a4 rfl (by dsimp only [gs_rev2std, size16]) (by dsimp only; rw [TestTables.rev_shoup_sred_ntt16_12289]; exact wf_s16 _ _) (by decide +kernel), ?_⟩
  refine List.forall_mem_cons.2 ⟨row mem128 means_gs_rev2std base_gs_rev2std a4 rfl (by dsimp only [gs_rev2std, size128]) (by dsimp only; rw [TestTables.rev_shoup_sred_ntt128_12289]; exact wf_s16 _ _) (by decide +kernel), ?_⟩
  refine List.forall_mem_cons.2 ⟨row mem256 means_gs_rev2std base_gs_rev2std a4 rfl (by dsimp only [gs_rev2std, size256]) (by dsimp only; rw [TestTables.rev_shoup_sred_ntt256_12289]; exact wf_s16 _ _) (by decide +kernel), ?_⟩
  refine List.forall_mem_cons.2 ⟨row mem512 means_gs_rev2std base_gs_rev2std a4 rfl (by dsimp only [gs_rev2std, size512]) (by dsimp only; rw [TestTables.rev_shoup_sred_ntt512_12289]; exact wf_s16 _ _) (by decide +kernel), ?_⟩
  refine List.forall_mem_cons.2 ⟨row mem1024 means_gs_rev2std base_gs_rev2std a4 rfl (by dsimp only [gs_rev2std, size1024]) (by dsimp only; rw [TestTables.rev_shoup_sred_ntt1024_12289]; exact wf_s16 _ _) (by decide +kernel), ?_⟩
  refine List.forall_mem_cons.2 ⟨row mem2048 means_gs_rev2std base_gs_rev2std a4 rfl (by dsimp only [gs_rev2std, size2048]) (by dsimp only; rw [TestTables.rev_shoup_sred_ntt2048_12289]; exact wf_s16 _ _) (by decide +kernel), ?_⟩
  refine List.forall_mem_cons.2 ⟨row mem16 means_gsmul_rev2std base_gsmul_rev2std a5 rfl (by dsimp only [gsmul_rev2std, size16]) (by dsimp only; rw [TestTables.rev_shoup_sred_scaled_ntt16_12289]; exact wf_s16 _ _) (by decide +kernel), ?_⟩
  refine List.forall_mem_cons.2 ⟨row mem128 means_gsmul_rev2std base_gsmul_rev2std a5 rfl (by dsimp only [gsmul_rev2std, size128]) (by dsimp only; rw [TestTables.rev_shoup_sred_scaled_ntt128_12289]; exact wf_s16 _ _) (by decide +kernel), ?_⟩
  refine List.forall_mem_cons.2 ⟨row mem256 means_gsmul_rev2std base_gsmul_rev2std a5 rfl (by dsimp only [gsmul_rev2std, size256]) (by dsimp only; rw [TestTables.rev_shoup_sred_scaled_ntt256_12289]; exact wf_s16 _ _) (by decide +kernel), ?_⟩
  refine List.forall_mem_cons.2 ⟨row mem512 means_gsmul_rev2std base_gsmul_rev2std a5 rfl (by dsimp only [gsmul_rev2std, size512]) (by dsimp only; rw [TestTables.rev_shoup_sred_scaled_ntt512_12289]; exact wf_s16 _ _) (by decide +kernel), ?_⟩
  refine List.forall_mem_cons.2 ⟨row mem1024 means_gsmul_rev2std base_gsmul_rev2std a5 rfl (by dsimp only [gsmul_rev2std, size1024]) (by dsimp only; rw [TestTables.rev_shoup_sred_scaled_ntt1024_12289]; exact wf_s16 _ _) (by decide +kernel), ?_⟩
  refine List.forall_mem_cons.2 ⟨row mem2048 means_gsmul_rev2std base_gsmul_rev2std a5 rfl (by dsimp only [gsmul_rev2std, size2048]) (by dsimp only; rw [TestTables.rev_shoup_sred_scaled_ntt2048_12289]; exact wf_s16 _ _) (by decide +kernel), ?_⟩
  refine List.forall_mem_cons.2 ⟨row mem16 means_gs_std2rev base_gs_std2rev a6 rfl (by dsimp only [gs_std2rev, size16]) (by dsimp only; rw [TestTables.shoup_sred_ntt16_12289]; exact wf_s16 _ _) (by decide +kernel), ?_⟩
  refine List.forall_mem_cons.2 ⟨row mem128 means_gs_std2rev base_gs_std2rev a6 rfl (by dsimp only [gs_std2rev, size128]) (by dsimp only; rw [TestTables.shoup_sred_ntt128_12289]; exact wf_s16 _ _) (by decide +kernel), ?_⟩
  refine List.forall_mem_cons.2 ⟨row mem256 means_gs_std2rev base_gs_std2rev a6 rfl (by dsimp only [gs_std2rev, size256]) (by dsimp only; rw [TestTables.shoup_sred_ntt256_12289]; exact wf_s16 _ _) (by decide +kernel), ?_⟩
  refine List.forall_mem_cons.2 ⟨row mem512 means_gs_std2rev base_gs_std2rev a6 rfl (by dsimp only [gs_std2rev, size512]) (by dsimp only; rw [TestTables.shoup_sred_ntt512_12289]; exact wf_s16 _ _) (by decide +kernel), ?_⟩
  refine List.forall_mem_cons.2 ⟨row mem1024 means_gs_std2rev base_gs_std2rev a6 rfl (by dsimp only [gs_std2rev, size1024]) (by dsimp only; rw [TestTables.shoup_sred_ntt1024_12289]; exact wf_s16 _ _) (by decide +kernel), ?_⟩
  refine List.forall_mem_cons.2 ⟨row mem2048 means_gs_std2rev base_gs_std2rev a6 rfl (by dsimp only [gs_std2rev, size2048]) (by dsimp only; rw [TestTables.shoup_sred_ntt2048_12289]; exact wf_s16 _ _) (by decide +kernel), ?_⟩
  refine List.forall_mem_cons.2 ⟨row mem16 means_gsmul_std2rev base_gsmul_std2rev a7 rfl (by dsimp only [gsmul_std2rev, size16]) (by dsimp only; rw [TestTables.shoup_sred_scaled_ntt16_12289]; exact wf_s16 _ _) (by decide +kernel), ?_⟩
  refine List.forall_mem_cons.2 ⟨row mem128 means_gsmul_std2rev base_gsmul_std2rev a7 rfl (by dsimp only [gsmul_std2rev, size128]) (by dsimp only; rw [TestTables.shoup_sred_scaled_ntt128_12289]; exact wf_s16 _ _) (by decide +kernel), ?_⟩
  refine List.forall_mem_cons.2 ⟨row mem256 means_gsmul_std2rev base_gsmul_std2rev a7 rfl (by dsimp only [gsmul_std2rev, size256]) (by dsimp only; rw [TestTables.shoup_sred_scaled_ntt256_12289]; exact wf_s16 _ _) (by decide +kernel), ?_⟩
  refine List.forall_mem_cons.2 ⟨row mem512 means_gsmul_std2rev base_gsmul_std2rev a7 rfl (by dsimp only [gsmul_std2rev, size512]) (by dsimp only; rw [TestTables.shoup_sred_scaled_ntt512_12289]; exact wf_s16 _ _) (by decide +kernel), ?_⟩
  refine List.forall_mem_cons.2 ⟨row mem1024 means_gsmul_std2rev base_gsmul_std2rev a7 rfl (by dsimp only [gsmul_std2rev, size1024]) (by dsimp only; rw [TestTables.shoup_sred_scaled_ntt1024_12289]; exact wf_s16 _ _) (by decide +kernel), ?_⟩
  refine List.forall_mem_cons.2 ⟨row mem2048 means_gsmul_std2rev base_gsmul_std2rev a7 rfl (by dsimp only [gsmul_std2rev, size2048]) (by dsimp only; rw [TestTables.shoup_sred_scaled_ntt2048_12289]; exact wf_s16 _ _) (by decide +kernel), ?_⟩
  exact fun _ h => absurd h List.not_mem_nil

theorem copy_of (hP : P.lookup n!"copy_array" = some Src.test_ntt_avx.copy_array) : CopiesArrays P := by
  intro G mem oa ob a b n t ha hb hab wa wb sa sb hn
  have wf : ∀ {z : Array Int}, Int32s z → Wf z := by
    intro z hz i v h
    unfold rd at h
    split at h
    · next hv => cases h; exact hz _ _ hv
    · cases h
  obtain ⟨r, e, rfl⟩ := wp_total.1 (TestAvx.wp_copy (E := NoErr) hn sa sb)
  refine (Calls.loop1 hP rfl
    (env := setEnv (setEnv (setEnv (fun _ => none) n!"n" (.int .u32 (some (n : Int)))) n!"a" (.ptr oa 0 1)) n!"b" (.ptr ob 0 1))
    (by simp only [Src.test_ntt_avx.copy_array, bindParams, ok_bind, conv_u32_nat, u32_of hn, if_true])
    (by simp only [crun, Nat.reduceEqDiff, reduceIte]) hn hb (wf wb)
    (fun i c c' st hI hi _ h => ?_) e).1
  simp only [bind_ok] at h
  obtain ⟨x, h1, h2⟩ := h
  have hav : st.env n!"a" = some (.ptr oa 0 1) := by
    rw [hI.keep _ (by decide)]; simp only [crun, Nat.reduceEqDiff, reduceIte]
  have hbv : st.env n!"b" = some (.ptr ob 0 1) := by
    rw [hI.keep _ (by decide)]; simp only [crun, Nat.reduceEqDiff, reduceIte]
  obtain ⟨h5, h6⟩ := hI.put hbv (Ev.var hi rfl) (Ev.elem hav hi ((hI.other hab).trans ha) h1) (wf wa _ _ h1) h2
  exact ⟨_, Ex.seq h5 (Ex.skip _), h6, hi⟩

end CLang.TAvx
