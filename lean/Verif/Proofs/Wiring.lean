import Verif.Proofs.Skeleton

/-
The pairs of indices and the multipliers of the rounds of the transforms, in a uniform way.

Round `m` processes the pairs `(2hb + j, 2hb + j + h)` for `b < B` and `j < h`, where `2hB = n`,
with multiplier `O b j` (`none`: the butterfly without multiplication).
-/

namespace NTT
open C

variable {α τ : Type}

/-- Butterfly with an optional multiplier. -/
def bfo (bf0 : Nat → Nat → Array α → M (Array α)) (bf : τ → Nat → Nat → Array α → M (Array α)) :
    Option τ → Nat → Nat → Array α → M (Array α)
  | none => bf0
  | some w => bf w

/-- Multipliers of the loops `for (j...) for (s=j; s<n; s += 2t)`. -/
def optA (all : Bool) (p : Array τ) (t : Nat) (_b j : Nat) : Option τ :=
  if all = false ∧ j = 0 then none else p[t + j]?

/-- Multipliers of the loops `for (j...) for (s=2dj; s<2dj+d; s++)`. -/
def optB (all : Bool) (p : Array τ) (t : Nat) (b _j : Nat) : Option τ :=
  if all = false ∧ b = 0 then none else p[t + b]?

section
variable {E : Err → Prop} {n t d m : Nat} {Pre Post : Nat → α → Prop}
  {bf0 : Nat → Nat → Array α → M (Array α)} {bf : τ → Nat → Nat → Array α → M (Array α)}
  {p : Array τ} {a : Array α}

/-- The butterflies of one round. -/
def RoundSpec (E : Err → Prop) (n h B : Nat) (O : Nat → Nat → Option τ)
    (bf0 : Nat → Nat → Array α → M (Array α)) (bf : τ → Nat → Nat → Array α → M (Array α))
    (Pre Post : Nat → α → Prop) : Prop :=
  ∀ b j, b < B → j < h → BfSpec E (bfo bf0 bf (O b j) (2 * h * b + j) (2 * h * b + j + h)) n
    (2 * h * b + j) (2 * h * b + j + h) Pre Post

theorem RoundSpec.a0 (hs : RoundSpec E n t m (optA false p t) bf0 bf Pre Post) (ht : 0 < t) :
    ∀ b, b < m → BfSpec E (bf0 (2 * t * b) (2 * t * b + t)) n (2 * t * b) (2 * t * b + t)
      Pre Post := by
  intro b hb
  have := hs b 0 hb ht
  simpa [optA, bfo] using this

theorem RoundSpec.a1 (hs : RoundSpec E n t m (optA false p t) bf0 bf Pre Post) :
    ∀ b j w, b < m → 0 < j → j < t → p[t + j]? = some w →
      BfSpec E (bf w (2 * t * b + j) (2 * t * b + j + t)) n
        (2 * t * b + j) (2 * t * b + j + t) Pre Post := by
  intro b j w hb hj0 hj hw
  have := hs b j hb hj
  rwa [optA, if_neg (by simp; omega), hw, bfo] at this

theorem RoundSpec.a2 (hs : RoundSpec E n t m (optA true p t) bf0 bf Pre Post) :
    ∀ b j w, b < m → j < t → p[t + j]? = some w →
      BfSpec E (bf w (2 * t * b + j) (2 * t * b + j + t)) n
        (2 * t * b + j) (2 * t * b + j + t) Pre Post := by
  intro b j w hb hj hw
  have := hs b j hb hj
  rwa [optA, if_neg (by simp), hw, bfo] at this

theorem RoundSpec.b0 (hs : RoundSpec E n d t (optB false p t) bf0 bf Pre Post) (ht : 0 < t) :
    ∀ r, r < d → BfSpec E (bf0 r (r + d)) n r (r + d) Pre Post := by
  intro r hr
  have := hs 0 r ht hr
  simpa [optB, bfo] using this

theorem RoundSpec.b1 (hs : RoundSpec E n d t (optB false p t) bf0 bf Pre Post) :
    ∀ j r w, 0 < j → j < t → r < d → p[t + j]? = some w →
      BfSpec E (bf w (2 * d * j + r) (2 * d * j + r + d)) n
        (2 * d * j + r) (2 * d * j + r + d) Pre Post := by
  intro j r w hj0 hj hr hw
  have := hs j r hj hr
  rwa [optB, if_neg (by simp; omega), hw, bfo] at this

theorem RoundSpec.b2 (hs : RoundSpec E n d t (optB true p t) bf0 bf Pre Post) :
    ∀ j r w, j < t → r < d → p[t + j]? = some w →
      BfSpec E (bf w (2 * d * j + r) (2 * d * j + r + d)) n
        (2 * d * j + r) (2 * d * j + r + d) Pre Post := by
  intro j r w hj hr hw
  have := hs j r hj hr
  rwa [optB, if_neg (by simp), hw, bfo] at this

end

/-! ### The pairs of one round -/

/-- `i` belongs to exactly one pair of a round. -/
theorem pair_unique {h b j b' j' i : Nat} (hj : j < h) (hj' : j' < h)
    (hi : i = 2 * h * b + j ∨ i = 2 * h * b + j + h)
    (hi' : i = 2 * h * b' + j' ∨ i = 2 * h * b' + j' + h) : b = b' ∧ j = j' := by
  have h1 := (key_iff (b := b) (i := i) hj).2 hi
  have h2 := (key_iff (b := b') (i := i) hj').2 hi'
  exact ⟨by rw [← h1.1, ← h2.1], by rw [← h1.2, ← h2.2]⟩

/-- Every index belongs to a pair. -/
theorem pair_exists {h B n i : Nat} (hn : n = 2 * h * B) (hi : i < n) :
    ∃ b j, b < B ∧ j < h ∧ (i = 2 * h * b + j ∨ i = 2 * h * b + j + h) := by
  have hh : 0 < h := by
    rcases Nat.eq_zero_or_pos h with h' | h'
    · subst h'; simp at hn; omega
    · exact h'
  refine ⟨i / (2 * h), i % h, ?_, Nat.mod_lt _ hh, pair_cases hh i⟩
  exact Nat.div_lt_of_lt_mul (by omega)

/-! ### Relational runs

`V m i X`: the value of element `i` of the (abstract) array at the start of round `m` is `X`. -/

section
variable {β : Type}

/-- Values of the rounds of a run, from the operation `op` performed on each pair. -/
def Val (h : Nat → Nat) (O : Nat → Nat → Nat → Option τ) (op : Option τ → β → β → M (β × β))
    (a : Array β) : Nat → Nat → β → Prop
  | 0, i, X => a[i]? = some X
  | m + 1, i, X => ∃ b j Y Z U W, j < h m ∧ Val h O op a m (2 * h m * b + j) Y ∧
      Val h O op a m (2 * h m * b + j + h m) Z ∧ op (O m b j) Y Z = .ok (U, W) ∧
      ((i = 2 * h m * b + j ∧ X = U) ∨ (i = 2 * h m * b + j + h m ∧ X = W))

variable {h : Nat → Nat} {O : Nat → Nat → Nat → Option τ} {op : Option τ → β → β → M (β × β)}
  {a : Array β}

theorem Val.unique {m i : Nat} {X X' : β} (h1 : Val h O op a m i X) (h2 : Val h O op a m i X') :
    X = X' := by
  induction m generalizing i X X' with
  | zero =>
    unfold Val at h1 h2
    rw [h1] at h2
    injection h2
  | succ m ih =>
    obtain ⟨b, j, Y, Z, U, W, hj, hY, hZ, ho, hi⟩ := h1
    obtain ⟨b', j', Y', Z', U', W', hj', hY', hZ', ho', hi'⟩ := h2
    obtain ⟨rfl, rfl⟩ := pair_unique (i := i) hj hj' (hi.imp And.left And.left)
      (hi'.imp And.left And.left)
    have e1 := ih hY hY'
    have e2 := ih hZ hZ'
    subst e1 e2
    rw [ho] at ho'
    injection ho' with ho'
    injection ho' with e3 e4
    subst e3 e4
    rcases hi with ⟨hi1, rfl⟩ | ⟨hi1, rfl⟩ <;> rcases hi' with ⟨hi2, rfl⟩ | ⟨hi2, rfl⟩
    · rfl
    · omega
    · omega
    · rfl

/-- The butterfly reads a pair, performs `op` and writes the pair. -/
theorem Val.bf {n m b j : Nat} {bf : Array β → M (Array β)} (hj : j < h m)
    (hbf : ∀ c Y Z, c.size = n → c[2 * h m * b + j]? = some Y → c[2 * h m * b + j + h m]? = some Z →
      Wp (fun _ => True) (bf c) (fun c' => ∃ U W, op (O m b j) Y Z = .ok (U, W) ∧
        c' = (c.setIfInBounds (2 * h m * b + j + h m) W).setIfInBounds (2 * h m * b + j) U)) :
    BfSpec (fun _ => True) bf n (2 * h m * b + j) (2 * h m * b + j + h m)
      (Val h O op a m) (Val h O op a (m + 1)) := by
  intro c Y Z hc hY hZ hVY hVZ
  refine (hbf c Y Z hc hY hZ).mono ?_
  rintro c' ⟨U, W, ho, e⟩
  exact ⟨U, W, e, ⟨b, j, Y, Z, U, W, hj, hVY, hVZ, ho, Or.inl ⟨rfl, rfl⟩⟩,
    ⟨b, j, Y, Z, U, W, hj, hVY, hVZ, ho, Or.inr ⟨rfl, rfl⟩⟩⟩

/-- When the values of all rounds exist, the operation succeeds on each pair. -/
theorem Val.step {m b j : Nat} {Y Z X : β} (hj : j < h m)
    (hY : Val h O op a m (2 * h m * b + j) Y) (hZ : Val h O op a m (2 * h m * b + j + h m) Z)
    (hX : Val h O op a (m + 1) (2 * h m * b + j) X) :
    ∃ W, op (O m b j) Y Z = .ok (X, W) ∧ Val h O op a (m + 1) (2 * h m * b + j + h m) W := by
  obtain ⟨b', j', Y', Z', U', W', hj', hY', hZ', ho', hi'⟩ := hX
  obtain ⟨rfl, rfl⟩ := pair_unique hj hj' (Or.inl rfl) (hi'.imp And.left And.left)
  rcases hi' with ⟨hi', rfl⟩ | ⟨hi', rfl⟩
  · rw [hY.unique hY', hZ.unique hZ']
    exact ⟨W', ho', b, j, Y', Z', _, W', hj, hY', hZ', ho', Or.inr ⟨rfl, rfl⟩⟩
  · omega

end

end NTT
