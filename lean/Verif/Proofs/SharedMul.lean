import Verif.Proofs.SharedSkeleton
import Verif.SpecShared

/-
The pointwise products on references: the destination can be one of the operands.
-/

namespace Shared
open C

variable {S W : Ref → Prop} {μ : Mem}

theorem rd_congr {a b : Array Int} {i : Nat} (h : a[i]? = b[i]?) : rd a i = rd b i := by
  unfold rd; rw [h]

theorem Sim.rdEq {h : Ref} (hA : S h ∨ W h) {v : Array Int} {i : Nat} (e : C.rd v i = C.rd (μ h) i) :
    Sim S W μ (Same μ) (C.rd v i) (prd h i) := by
  rw [e]; exact Sim.rdAny hA rfl i

/-- The first `i` elements of the array at `c` are those of `f`, the others are as in `μ`. -/
def Half (μ : Mem) (c : Ref) (n i : Nat) (f : Array Int) (r : Ref) (μ' : Mem) : Prop :=
  r = c ∧ i ≤ n ∧ ∃ x : Array Int, μ' = upd μ c x ∧ x.size = n ∧ f.size = n ∧
    (∀ j, j < i → x[j]? = f[j]?) ∧ (∀ j, i ≤ j → x[j]? = (μ c)[j]?)

/-- The loop of a pointwise product; `a` and `b` can be `c`. -/
theorem half_loop {a b c : Ref} {n : Nat} (hn : n < 2 ^ 32) {vc : Array Int}
    {body : Nat → Array Int → M (Array Int)} {body' : Nat → Ref → Prog Ref}
    (h1 : vc.size = n) (h2 : (μ c).size = n)
    (hb : ∀ i f x, i < n → f.size = n → x.size = n → (∀ j, i ≤ j → x[j]? = (μ c)[j]?) →
      (∀ z, Sim S W (upd μ c x) (Half μ c n (i + 1)) (C.wr f i z) (pwr c i z)) →
      Sim S W (upd μ c x) (Half μ c n (i + 1)) (body i f) (body' i c)) (hWc : W c) :
    Sim S W μ (Post μ c) (C.forUp 0 n 1 body vc) (pforUp 0 n 1 body' c) := by
  refine Sim.forI (I := fun i f r μ' => Half μ c n i f r μ') ?_ ?_ _ _ _ _ _ ?_
  · rintro i f r μ' hi ⟨rfl, hin, x, rfl, hx, hf, hlo, hhi⟩
    have hi : i < n := by simpa using hi
    have hu : u32 (i + 1) = i + 1 := by
      unfold u32
      exact Nat.mod_eq_of_lt (by omega)
    rw [hu]
    refine hb i f x hi hf hx hhi ?_
    intro z
    unfold Sim pwr
    have hw : C.wr f i z = .ok (f.setIfInBounds i z) := by unfold C.wr; rw [if_pos (by omega)]
    have hw' : C.wr x i z = .ok (x.setIfInBounds i z) := by unfold C.wr; rw [if_pos (by omega)]
    rw [hw]
    dsimp only
    rw [runT, upd_at, hw']
    refine ⟨r, upd μ r (x.setIfInBounds i z), [⟨r, i, true⟩], ?_, ⟨rfl, by omega, _, rfl, ?_, ?_, ?_, ?_⟩, ?_⟩
    · dsimp only
      rw [runT, upd_upd]
    · rw [Array.size_setIfInBounds, hx]
    · rw [Array.size_setIfInBounds, hf]
    · intro j hj
      rw [Array.getElem?_setIfInBounds, Array.getElem?_setIfInBounds, hf, hx]
      split
      · rfl
      · next hne => exact hlo j (by omega)
    · intro j hj
      rw [Array.getElem?_setIfInBounds, if_neg (by omega)]
      exact hhi j (by omega)
    · intro ev hev
      rw [List.mem_singleton] at hev
      subst hev
      exact Or.inr hWc
  · rintro i f r μ' hi ⟨rfl, hin, x, rfl, hx, hf, hlo, hhi⟩
    have hi : ¬ i < n := by simpa using hi
    refine ⟨rfl, ?_⟩
    congr 1
    refine Array.ext_getElem? fun j => ?_
    by_cases hj : j < i
    · exact hlo j hj
    · rw [Array.getElem?_eq_none (by omega), Array.getElem?_eq_none (by omega)]
  · exact ⟨rfl, Nat.zero_le _, μ c, (upd_self _ _).symm, h2, h1, fun j hj => absurd hj (Nat.not_lt_zero _),
      fun j _ => rfl⟩

/-- Reading an operand that can be the destination. -/
theorem Sim.rdHalf {a c : Ref} (hW : W a) {x : Array Int} {i : Nat}
    (hhi : ∀ j, i ≤ j → x[j]? = (μ c)[j]?) :
    Sim S W (upd μ c x) (Same (upd μ c x)) (C.rd (μ a) i) (prd a i) := by
  refine Sim.rdEq (Or.inr hW) ?_
  by_cases h : a = c
  · subst h
    rw [upd_at]
    exact rd_congr (hhi i (Nat.le_refl _)).symm
  · rw [upd_ne _ _ h]

/-- Bind for steps of a product; the facts needed after the step are about an arbitrary memory. -/
theorem Sim.step {γ δ : Type} {h : Ref} {v : Array Int} {R : γ → δ → Mem → Prop} {x : M (Array Int)}
    {y : Prog Ref} {f : Array Int → M γ} {g : Ref → Prog δ} (e : μ h = v)
    (hx : Sim S W (upd μ h v) (Post μ h) x y)
    (hf : ∀ v m, m h = v → (∀ k, k ≠ h → m k = μ k) → (∀ k, (m k).size = (μ k).size) →
      Sim S W m R (f v) (g h)) :
    Sim S W μ R (x >>= f) (y >>= g) := by
  subst e
  rw [upd_self] at hx
  refine Sim.bindS hx ?_
  rintro v b μ' ⟨rfl, rfl⟩ hs
  exact hf v _ (upd_at _ _ _) (fun k hk => upd_ne _ _ hk) hs

theorem Sim.stepMul {γ δ : Type} {h : Ref} {R : γ → δ → Mem → Prop} {x : M (Array Int)}
    {y : Prog Ref} {f : Array Int → M γ} {g : Ref → Prog δ}
    (hx : Sim S W μ (Post μ h) x y)
    (hf : ∀ v m, m h = v → (∀ k, k ≠ h → m k = μ k) → (∀ k, (m k).size = (μ k).size) →
      Sim S W m R (f v) (g h)) :
    Sim S W μ R (x >>= f) (y >>= g) := by
  refine Sim.bindS hx ?_
  rintro v b μ' ⟨rfl, rfl⟩ hs
  exact hf v _ (upd_at _ _ _) (fun k hk => upd_ne _ _ hk) hs

theorem TablesAt.frame {tb : String → Ref} {t : Tables.Nttables} {m : Mem} {h : Ref} (H : TablesAt μ tb t)
    (hT : Fresh tb h) (hm : ∀ k, k ≠ h → m k = μ k) : TablesAt m tb t := by
  constructor <;> (rw [hm _ (hT _ (by decide))]; first | exact H.1 | exact H.2 | exact H.3 | exact H.4 | exact H.5 | exact H.6 | exact H.7 | exact H.8 | exact H.9 | exact H.10)

theorem RedTablesAt.frame {tb : String → Ref} {t : Tables.RedTables} {m : Mem} {h : Ref} (H : RedTablesAt μ tb t)
    (hT : Fresh tb h) (hm : ∀ k, k ≠ h → m k = μ k) : RedTablesAt m tb t := by
  constructor <;> (rw [hm _ (hT _ (by decide))]; first | exact H.1 | exact H.2 | exact H.3 | exact H.4 | exact H.5 | exact H.6 | exact H.7 | exact H.8 | exact H.9 | exact H.10 | exact H.11)

/-- Replace the table of the function by the one in memory. -/
macro "tabs " h:ident : tactic =>
  `(tactic| first
    | rw [← ($h).psi_powers]
    | rw [← ($h).scaled_inv_psi_powers])

/-- The result of a product: the value is in `c`, the operands are overwritten, the rest is unchanged. -/
structure ProductPost (μ : Mem) (c a b : Ref) (v : Array Int × Array Int × Array Int) (r : Ref × Ref × Ref)
    (m : Mem) : Prop where
  ref : r = (c, a, b)
  dst : m c = v.1
  left : a ≠ c → m a = v.2.1
  right : b ≠ c → m b = v.2.2
  frame : ∀ k, k ≠ c → k ≠ a → k ≠ b → m k = μ k

end Shared
