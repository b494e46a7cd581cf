import Verif.Model.TableFiles
import Verif.Proofs.Wp

/-
The programs that produce the tables do not depend on the contents of the buffer returned by `malloc`.
-/

namespace Tables
open C

theorem bind_congr_ok {α β : Type} {m : M α} {f g : α → M β} (h : ∀ x, m = .ok x → f x = g x) :
    (m >>= f) = (m >>= g) := by
  cases m with
  | error e => rfl
  | ok x => exact h x rfl

theorem build_power_indep {n q x y : Nat} (hn : n < 4294967296) {a a' : Array Nat} (ha : a.size = n)
    (ha' : a'.size = n) : build_power_table a n q x y = build_power_table a' n q x y := by
  have key : ∀ fuel i v (a a' : Array Nat), i ≤ n → a.size = n → a'.size = n → (∀ j : Nat, j < i → a[j]? = a'[j]?) →
      n - i < fuel →
      (do
        let r ← cfor (fun i => decide (i < n)) (fun i => u32 (i + 1)) (fun i (st : Nat × Array Nat) => do
          let a ← wr st.2 i st.1
          let x ← urem (u32 (st.1 * y)) q
          pure (x, a)) fuel i (v, a)
        pure r.2 : M (Array Nat)) =
      (do
        let r ← cfor (fun i => decide (i < n)) (fun i => u32 (i + 1)) (fun i (st : Nat × Array Nat) => do
          let a ← wr st.2 i st.1
          let x ← urem (u32 (st.1 * y)) q
          pure (x, a)) fuel i (v, a')
        pure r.2 : M (Array Nat)) := by
    intro fuel
    induction fuel with
    | zero => intro i v a a' _ _ _ _ h; omega
    | succ fuel ih =>
      intro i v a a' hi h1 h2 h3 hf
      unfold cfor
      by_cases hin : i < n
      · rw [decide_eq_true hin, if_pos rfl, if_pos rfl]
        have e1 : wr a i v = .ok (a.setIfInBounds i v) := by unfold wr; rw [if_pos (by omega)]
        have e2 : wr a' i v = .ok (a'.setIfInBounds i v) := by unfold wr; rw [if_pos (by omega)]
        simp only [e1, e2]
        have hu : u32 (i + 1) = i + 1 := by unfold u32; omega
        rw [hu]
        cases hr : urem (u32 (v * y)) q with
        | error e => rfl
        | ok x =>
          refine ih (i + 1) x (a.setIfInBounds i v) (a'.setIfInBounds i v) (by omega) (by simp [h1]) (by simp [h2])
            (fun j hj => ?_) (by omega)
          by_cases hji : j = i
          · subst hji
            rw [Array.getElem?_setIfInBounds_self_of_lt (by omega),
              Array.getElem?_setIfInBounds_self_of_lt (by omega)]
          · rw [Array.getElem?_setIfInBounds_ne (by omega), Array.getElem?_setIfInBounds_ne (by omega)]
            exact h3 j (by omega)
      · rw [decide_eq_false hin]
        have : a = a' := by
          refine Array.ext_getElem? fun j => ?_
          by_cases hj : j < i
          · exact h3 j hj
          · rw [Array.getElem?_eq_none (by omega), Array.getElem?_eq_none (by omega)]
        subst this
        rfl
  exact key (n + 1) 0 x a a' (Nat.zero_le _) ha ha' (fun j hj => absurd hj (Nat.not_lt_zero j)) (by omega)

theorem checkArgs_lt {q : Nat} {xn xpsi : Int} {r : Nat × Nat × Nat} (h : checkArgs q xn xpsi = .ok r) :
    r.1 < 4294967296 := by
  unfold checkArgs at h
  by_cases h1 : xn ≤ 1
  · rw [if_pos h1] at h; cases h
  rw [if_neg h1] at h
  by_cases h2 : xn ≥ 100000
  · rw [if_pos h2] at h; cases h
  rw [if_neg h2] at h
  have : Wp (fun _ => True) (checkArgs q xn xpsi) (fun r => r.1 < 4294967296) := by
    unfold checkArgs
    rw [if_neg h1, if_neg h2, wp_bind]
    cases logtwo xn.toNat with
    | error e => exact wp_error.2 True.intro
    | ok o =>
      rw [wp_ok]
      cases o with
      | none => exact wp_error.2 True.intro
      | some _ =>
        show Wp _ (if xpsi ≤ 1 ∨ xpsi ≥ q then _ else _) _
        split
        · exact wp_error.2 True.intro
        · simp only [wp_bind]
          cases power xpsi.toNat xn.toNat q with
          | error e => exact wp_error.2 True.intro
          | ok i =>
            rw [wp_ok]
            split
            · exact wp_error.2 True.intro
            · simp only [wp_bind]
              cases urem (u32 (xpsi.toNat * xpsi.toNat)) q with
              | error e => exact wp_error.2 True.intro
              | ok phi =>
                rw [wp_ok]
                cases is_primitive_root phi xn.toNat q with
                | error e => exact wp_error.2 True.intro
                | ok b =>
                  rw [wp_ok]
                  cases cassert b with
                  | error e => exact wp_error.2 True.intro
                  | ok _ => rw [wp_ok, wp_pure]; simp only; omega
  have e : checkArgs q xn xpsi = .ok r := by
    unfold checkArgs
    rw [if_neg h1, if_neg h2]
    exact h
  rw [e, wp_ok] at this
  exact this

section
variable {buf buf' : Nat → Array Nat} (hb : ∀ n, (buf n).size = n) (hb' : ∀ n, (buf' n).size = n)
include hb hb'

theorem make_tables_buf (xn xpsi : Int) : make_tables buf xn xpsi = make_tables buf' xn xpsi := by
  unfold make_tables
  refine bind_congr_ok ?_
  rintro ⟨n, psi, phi⟩ h
  have hn := checkArgs_lt h
  refine bind_congr_ok fun inv_psi _ => bind_congr_ok fun inv_phi _ => bind_congr_ok fun inv_n _ => ?_
  unfold print_tables
  rw [build_power_indep hn (hb n) (hb' n)]

theorem make_red_tables_buf (xn xpsi : Int) : make_red_tables buf xn xpsi = make_red_tables buf' xn xpsi := by
  unfold make_red_tables
  refine bind_congr_ok fun k _ => ?_
  split
  · rfl
  · refine bind_congr_ok ?_
    rintro ⟨n, psi, phi⟩ h
    have hn := checkArgs_lt h
    refine bind_congr_ok fun inv_psi _ => bind_congr_ok fun inv_phi _ => bind_congr_ok fun inv_n _ =>
      bind_congr_ok fun inv_k _ => ?_
    unfold print_red_tables
    rw [build_power_indep hn (hb n) (hb' n)]

end
end Tables

namespace TableFiles
open C Tables

section
variable {buf buf' : Nat → Array Nat} (hb : ∀ n, (buf n).size = n) (hb' : ∀ n, (buf' n).size = n)
include hb hb'

theorem make_tables_main_buf (args : List Spec.CText.Text) : make_tables_main buf args = make_tables_main buf' args := by
  match args with
  | [] => rfl
  | [_] => rfl
  | _ :: _ :: _ :: _ => rfl
  | [s1, s2] =>
    unfold make_tables_main make_tables_run
    refine bind_congr_ok fun xn _ => bind_congr_ok fun _ _ => bind_congr_ok fun xpsi _ => bind_congr_ok ?_
    rintro ⟨n, psi, phi⟩ h
    have hn := checkArgs_lt h
    refine bind_congr_ok fun inv_psi _ => bind_congr_ok fun inv_phi _ => bind_congr_ok fun inv_n _ =>
      bind_congr_ok fun f _ => bind_congr_ok fun g _ => ?_
    unfold print_tables
    rw [build_power_indep hn (hb n) (hb' n)]

theorem make_red_tables_main_buf (args : List Spec.CText.Text) :
    make_red_tables_main buf args = make_red_tables_main buf' args := by
  match args with
  | [] => rfl
  | [_] => rfl
  | _ :: _ :: _ :: _ => rfl
  | [s1, s2] =>
    unfold make_red_tables_main make_red_tables_run
    refine bind_congr_ok fun k _ => ?_
    split
    · rfl
    · refine bind_congr_ok fun xn _ => bind_congr_ok fun _ _ => bind_congr_ok fun xpsi _ => bind_congr_ok ?_
      rintro ⟨n, psi, phi⟩ h
      have hn := checkArgs_lt h
      refine bind_congr_ok fun inv_psi _ => bind_congr_ok fun inv_k _ => bind_congr_ok fun inv_phi _ =>
        bind_congr_ok fun inv_n _ => bind_congr_ok fun f _ => bind_congr_ok fun d _ =>
        bind_congr_ok fun g _ => ?_
      unfold print_red_tables
      rw [build_power_indep hn (hb n) (hb' n)]

end
end TableFiles
