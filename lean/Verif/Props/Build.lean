import Verif.SpecBuild
import Verif.Props.Source
import Verif.Props.TableFiles

/-
C86: from the command line of a generator to the products.

Specification: Verif/SpecBuild.lean.
-/

namespace Props
open C Spec Spec.CText Tables TableFiles NTT CLang

deriving instance DecidableEq for ConstNames

/-- Membership in a list that is given by its elements. -/
macro "in_list" : tactic => `(tactic| repeat (first | exact List.mem_cons_self | apply List.mem_cons_of_mem))

theorem linked_tab {items : List Item} {G : Name → Option Cell} {mem : Nat → Obj} {X : List Nat} (h : Linked items G mem X) {x : Name} {ty : Ty}
    {type name : Text} {d : Spec.CText.Tok} {a : Array Int} (hz : Item.array type name d a.toList ∈ items) (ht : typeOf type = some ty) (hx : nameOf name = x) :
    Tab G mem X x ty a := by
  obtain ⟨t, h1, h2⟩ := h _ hz
  rw [ht] at h1
  cases h1
  rw [← hx]
  exact h2

theorem linked_int {items : List Item} {G : Name → Option Cell} {mem : Nat → Obj} {X : List Nat} (h : Linked items G mem X) {x : Name}
    {name : Text} {v : Int} (hz : Item.param c!"int32_t" name v ∈ items) (hx : nameOf name = x) : G x = some (.int .i32 (some v)) := by
  obtain ⟨t, h1, h2⟩ := h _ hz
  cases h1
  rw [← hx]
  exact h2

theorem ntt_globals {n : Nat} {t : Nttables} {N : ConstNames} {G : Name → Option Cell} {mem : Nat → Obj} {X : List Nat} (hn : t.n = n)
    (hN : N = ⟨nameOf (c!"ntt" ++ decimal n ++ c!"_" ++ c!"psi_powers"), nameOf (c!"ntt" ++ decimal n ++ c!"_" ++ c!"scaled_inv_psi_powers"),
      nameOf (c!"ntt" ++ decimal n ++ c!"_" ++ c!"omega_powers"), nameOf (c!"ntt" ++ decimal n ++ c!"_" ++ c!"omega_powers_rev"),
      nameOf (c!"ntt" ++ decimal n ++ c!"_" ++ c!"inv_omega_powers"), nameOf (c!"ntt" ++ decimal n ++ c!"_" ++ c!"inv_omega_powers_rev"),
      nameOf (c!"ntt" ++ decimal n ++ c!"_" ++ c!"mixed_powers"), nameOf (c!"ntt" ++ decimal n ++ c!"_" ++ c!"mixed_powers_rev"),
      nameOf (c!"ntt" ++ decimal n ++ c!"_" ++ c!"inv_mixed_powers"), nameOf (c!"ntt" ++ decimal n ++ c!"_" ++ c!"inv_mixed_powers_rev"),
      nameOf (c!"ntt" ++ decimal n ++ c!"_" ++ c!"inv_n")⟩)
    (h : Linked (nttHeader t ++ nttSource t) G mem X) : Globals N .u16 (nttConsts t) G mem X := by
  subst hn hN
  exact {
    psi_powers := linked_tab h (type := c!"uint16_t") (name := c!"ntt" ++ decimal t.n ++ c!"_" ++ c!"psi_powers") (d := .num t.n)
      (List.mem_append_right _ (by unfold nttSource; in_list)) rfl rfl
    scaled_inv_psi_powers := linked_tab h (type := c!"uint16_t") (name := c!"ntt" ++ decimal t.n ++ c!"_" ++ c!"scaled_inv_psi_powers") (d := .num t.n)
      (List.mem_append_right _ (by unfold nttSource; in_list)) rfl rfl
    omega_powers := linked_tab h (type := c!"uint16_t") (name := c!"ntt" ++ decimal t.n ++ c!"_" ++ c!"omega_powers") (d := .num t.n)
      (List.mem_append_right _ (by unfold nttSource; in_list)) rfl rfl
    omega_powers_rev := linked_tab h (type := c!"uint16_t") (name := c!"ntt" ++ decimal t.n ++ c!"_" ++ c!"omega_powers_rev") (d := .num t.n)
      (List.mem_append_right _ (by unfold nttSource; in_list)) rfl rfl
    inv_omega_powers := linked_tab h (type := c!"uint16_t") (name := c!"ntt" ++ decimal t.n ++ c!"_" ++ c!"inv_omega_powers") (d := .num t.n)
      (List.mem_append_right _ (by unfold nttSource; in_list)) rfl rfl
    inv_omega_powers_rev := linked_tab h (type := c!"uint16_t") (name := c!"ntt" ++ decimal t.n ++ c!"_" ++ c!"inv_omega_powers_rev") (d := .num t.n)
      (List.mem_append_right _ (by unfold nttSource; in_list)) rfl rfl
    mixed_powers := linked_tab h (type := c!"uint16_t") (name := c!"ntt" ++ decimal t.n ++ c!"_" ++ c!"mixed_powers") (d := .num t.n)
      (List.mem_append_right _ (by unfold nttSource; in_list)) rfl rfl
    mixed_powers_rev := linked_tab h (type := c!"uint16_t") (name := c!"ntt" ++ decimal t.n ++ c!"_" ++ c!"mixed_powers_rev") (d := .num t.n)
      (List.mem_append_right _ (by unfold nttSource; in_list)) rfl rfl
    inv_mixed_powers := linked_tab h (type := c!"uint16_t") (name := c!"ntt" ++ decimal t.n ++ c!"_" ++ c!"inv_mixed_powers") (d := .num t.n)
      (List.mem_append_right _ (by unfold nttSource; in_list)) rfl rfl
    inv_mixed_powers_rev := linked_tab h (type := c!"uint16_t") (name := c!"ntt" ++ decimal t.n ++ c!"_" ++ c!"inv_mixed_powers_rev") (d := .num t.n)
      (List.mem_append_right _ (by unfold nttSource; in_list)) rfl rfl
    scalar := linked_int h (name := c!"ntt" ++ decimal t.n ++ c!"_" ++ c!"inv_n")
      (List.mem_append_left _ (by unfold nttHeader; in_list)) rfl }

theorem red_globals {n : Nat} {t : RedTables} {N : ConstNames} {G : Name → Option Cell} {mem : Nat → Obj} {X : List Nat} (hn : t.n = n)
    (hN : N = ⟨nameOf (c!"ntt_red" ++ decimal n ++ c!"_" ++ c!"psi_powers"), nameOf (c!"ntt_red" ++ decimal n ++ c!"_" ++ c!"scaled_inv_psi_powers"),
      nameOf (c!"ntt_red" ++ decimal n ++ c!"_" ++ c!"omega_powers"), nameOf (c!"ntt_red" ++ decimal n ++ c!"_" ++ c!"omega_powers_rev"),
      nameOf (c!"ntt_red" ++ decimal n ++ c!"_" ++ c!"inv_omega_powers"), nameOf (c!"ntt_red" ++ decimal n ++ c!"_" ++ c!"inv_omega_powers_rev"),
      nameOf (c!"ntt_red" ++ decimal n ++ c!"_" ++ c!"mixed_powers"), nameOf (c!"ntt_red" ++ decimal n ++ c!"_" ++ c!"mixed_powers_rev"),
      nameOf (c!"ntt_red" ++ decimal n ++ c!"_" ++ c!"inv_mixed_powers"), nameOf (c!"ntt_red" ++ decimal n ++ c!"_" ++ c!"inv_mixed_powers_rev"),
      nameOf (c!"ntt_red" ++ decimal n ++ c!"_" ++ c!"rescale8")⟩)
    (h : Linked (redHeader t ++ redSource t) G mem X) : Globals N .i16 (redConsts t) G mem X := by
  subst hn hN
  exact {
    psi_powers := linked_tab h (type := c!"int16_t") (name := c!"ntt_red" ++ decimal t.n ++ c!"_" ++ c!"psi_powers") (d := .num t.n)
      (List.mem_append_right _ (by unfold redSource; in_list)) rfl rfl
    scaled_inv_psi_powers := linked_tab h (type := c!"int16_t") (name := c!"ntt_red" ++ decimal t.n ++ c!"_" ++ c!"scaled_inv_psi_powers") (d := .num t.n)
      (List.mem_append_right _ (by unfold redSource; in_list)) rfl rfl
    omega_powers := linked_tab h (type := c!"int16_t") (name := c!"ntt_red" ++ decimal t.n ++ c!"_" ++ c!"omega_powers") (d := .num t.n)
      (List.mem_append_right _ (by unfold redSource; in_list)) rfl rfl
    omega_powers_rev := linked_tab h (type := c!"int16_t") (name := c!"ntt_red" ++ decimal t.n ++ c!"_" ++ c!"omega_powers_rev") (d := .num t.n)
      (List.mem_append_right _ (by unfold redSource; in_list)) rfl rfl
    inv_omega_powers := linked_tab h (type := c!"int16_t") (name := c!"ntt_red" ++ decimal t.n ++ c!"_" ++ c!"inv_omega_powers") (d := .num t.n)
      (List.mem_append_right _ (by unfold redSource; in_list)) rfl rfl
    inv_omega_powers_rev := linked_tab h (type := c!"int16_t") (name := c!"ntt_red" ++ decimal t.n ++ c!"_" ++ c!"inv_omega_powers_rev") (d := .num t.n)
      (List.mem_append_right _ (by unfold redSource; in_list)) rfl rfl
    mixed_powers := linked_tab h (type := c!"int16_t") (name := c!"ntt_red" ++ decimal t.n ++ c!"_" ++ c!"mixed_powers") (d := .num t.n)
      (List.mem_append_right _ (by unfold redSource; in_list)) rfl rfl
    mixed_powers_rev := linked_tab h (type := c!"int16_t") (name := c!"ntt_red" ++ decimal t.n ++ c!"_" ++ c!"mixed_powers_rev") (d := .num t.n)
      (List.mem_append_right _ (by unfold redSource; in_list)) rfl rfl
    inv_mixed_powers := linked_tab h (type := c!"int16_t") (name := c!"ntt_red" ++ decimal t.n ++ c!"_" ++ c!"inv_mixed_powers") (d := .num t.n)
      (List.mem_append_right _ (by unfold redSource; in_list)) rfl rfl
    inv_mixed_powers_rev := linked_tab h (type := c!"int16_t") (name := c!"ntt_red" ++ decimal t.n ++ c!"_" ++ c!"inv_mixed_powers_rev") (d := .num t.n)
      (List.mem_append_right _ (by unfold redSource; in_list)) rfl rfl
    scalar := linked_int h (name := c!"ntt_red" ++ decimal t.n ++ c!"_" ++ c!"rescale8")
      (List.mem_append_left _ (by unfold redHeader; in_list)) rfl }

/-- For each size of the library: the logarithm, the C files and the products. -/
def nttBuilds : List (Nat × List Nat × List Name) := [
  (4, [Src.ntt_text, Src.ntt16_h_text, Src.ntt16_c_text],
    [n!"ntt16_product1", n!"ntt16_product2", n!"ntt16_product3", n!"ntt16_product4", n!"ntt16_product5"]),
  (8, [Src.ntt_text, Src.ntt256_h_text, Src.ntt256_c_text],
    [n!"ntt256_product1", n!"ntt256_product2", n!"ntt256_product3", n!"ntt256_product4", n!"ntt256_product5"]),
  (9, [Src.ntt_text, Src.ntt512_h_text, Src.ntt512_c_text],
    [n!"ntt512_product1", n!"ntt512_product2", n!"ntt512_product3", n!"ntt512_product4", n!"ntt512_product5"]),
  (10, [Src.ntt_text, Src.ntt1024_h_text, Src.ntt1024_c_text],
    [n!"ntt1024_product1", n!"ntt1024_product2", n!"ntt1024_product3", n!"ntt1024_product4", n!"ntt1024_product5"])]

/-- The same for the ntt_red libraries. -/
def redBuilds : List (Nat × List Nat × List Name) := [
  (4, [Src.ntt_red_text, Src.ntt_red16_h_text, Src.ntt_red16_c_text],
    [n!"ntt_red16_product1", n!"ntt_red16_product2", n!"ntt_red16_product3", n!"ntt_red16_product4", n!"ntt_red16_product5"]),
  (8, [Src.ntt_red_text, Src.ntt_red256_h_text, Src.ntt_red256_c_text],
    [n!"ntt_red256_product1", n!"ntt_red256_product2", n!"ntt_red256_product3", n!"ntt_red256_product4", n!"ntt_red256_product5"]),
  (9, [Src.ntt_red_text, Src.ntt_red512_h_text, Src.ntt_red512_c_text],
    [n!"ntt_red512_product1", n!"ntt_red512_product2", n!"ntt_red512_product3", n!"ntt_red512_product4", n!"ntt_red512_product5"]),
  (10, [Src.ntt_red_text, Src.ntt_red1024_h_text, Src.ntt_red1024_c_text],
    [n!"ntt_red1024_product1", n!"ntt_red1024_product2", n!"ntt_red1024_product3", n!"ntt_red1024_product4", n!"ntt_red1024_product5"])]

theorem built_of {k : Nat} {texts : List Nat} {hd src : Text} {g : Name} {P : Prog} {hs ss : List Item} {N : ConstNames} {ty : Ty} {T : Consts}
    (h1 : readAll texts = some P) (h2 : readC hd = some hs) (h3 : readC src = some ss)
    (hm : Multiplies k P N ty T 0 12288 g) (hG : ∀ G mem X, Linked (hs ++ ss) G mem X → Globals N ty T G mem X) : Built k texts hd src g :=
  ⟨P, hs, ss, h1, h2, h3, fun G mem oc oa ob c a b d1 d2 d3 hl hc ha hb hcs has hbs hcr har hbr =>
    hm G mem oc oa ob c a b d1 d2 d3 (hG G mem _ hl) hc ha hb hcs has hbs hcr har hbr⟩

/-- For each size of the library and any arguments that say this size and an acceptable `psi`: `make_tables` writes the two table files, and with
them the five products of the library, as written in its C files, multiply polynomials modulo `X^n + 1`. -/
theorem C86_ntt {k : Nat} {texts : List Nat} {gs : List Name} (hz : (k, texts, gs) ∈ nttBuilds) {s1 s2 : Text} {xn xpsi : Int}
    (h : GoodParams k xn xpsi) (h1 : atol s1 = .ok xn) (h2 : atol s2 = .ok xpsi) {buf : Nat → Array Nat} (hb : ∀ n, (buf n).size = n) :
    ∃ hd src, make_tables_main buf [s1, s2] = .ok [(c!"ntt" ++ decimal (2 ^ k) ++ c!"_tables.h", hd),
        (c!"ntt" ++ decimal (2 ^ k) ++ c!"_tables.c", src)] ∧ ∀ g ∈ gs, Built k texts hd src g := by
  obtain ⟨t, e, ok⟩ := wp_total.1 (wp_make_tables (E := NoErr) h hb)
  obtain ⟨hd, src, g1, g2, g3⟩ := make_tables_files h hb h1 h2 e
  refine ⟨hd, src, g1, ?_⟩
  have hxn : xn = 2 ^ k := h.2.1
  simp only [nttBuilds, List.mem_cons, Prod.mk.injEq, List.not_mem_nil, or_false] at hz
  rcases hz with ⟨rfl, rfl, rfl⟩ | ⟨rfl, rfl, rfl⟩ | ⟨rfl, rfl, rfl⟩ | ⟨rfl, rfl, rfl⟩ <;> subst hxn
  · obtain ⟨P, r, hp, _⟩ := C82_ntt16 h hb e
    exact fun g hg => built_of r g2 g3 (hp g hg) fun G mem X => ntt_globals ok.n (by decide +kernel)
  · obtain ⟨P, r, hp, _⟩ := C82_ntt256 h hb e
    exact fun g hg => built_of r g2 g3 (hp g hg) fun G mem X => ntt_globals ok.n (by decide +kernel)
  · obtain ⟨P, r, hp, _⟩ := C82_ntt512 h hb e
    exact fun g hg => built_of r g2 g3 (hp g hg) fun G mem X => ntt_globals ok.n (by decide +kernel)
  · obtain ⟨P, r, hp, _⟩ := C82_ntt1024 h hb e
    exact fun g hg => built_of r g2 g3 (hp g hg) fun G mem X => ntt_globals ok.n (by decide +kernel)

/-- The same for `make_red_tables` and the products of the ntt_red libraries. -/
theorem C86_ntt_red {k : Nat} {texts : List Nat} {gs : List Name} (hz : (k, texts, gs) ∈ redBuilds) {s1 s2 : Text} {xn xpsi : Int}
    (h : GoodParams k xn xpsi) (h1 : atol s1 = .ok xn) (h2 : atol s2 = .ok xpsi) {buf : Nat → Array Nat} (hb : ∀ n, (buf n).size = n) :
    ∃ hd src, make_red_tables_main buf [s1, s2] = .ok [(c!"ntt_red" ++ decimal (2 ^ k) ++ c!"_tables.h", hd),
        (c!"ntt_red" ++ decimal (2 ^ k) ++ c!"_tables.c", src)] ∧ ∀ g ∈ gs, Built k texts hd src g := by
  obtain ⟨t, e, ok⟩ := wp_total.1 (wp_make_red_tables (E := NoErr) h hb)
  obtain ⟨hd, src, g1, g2, g3⟩ := make_red_tables_files h hb h1 h2 e
  refine ⟨hd, src, g1, ?_⟩
  have hxn : xn = 2 ^ k := h.2.1
  simp only [redBuilds, List.mem_cons, Prod.mk.injEq, List.not_mem_nil, or_false] at hz
  rcases hz with ⟨rfl, rfl, rfl⟩ | ⟨rfl, rfl, rfl⟩ | ⟨rfl, rfl, rfl⟩ | ⟨rfl, rfl, rfl⟩ <;> subst hxn
  · obtain ⟨P, r, hp, _⟩ := C82_ntt_red16 h hb e
    exact fun g hg => built_of r g2 g3 (hp g hg) fun G mem X => red_globals ok.n (by decide +kernel)
  · obtain ⟨P, r, hp, _⟩ := C82_ntt_red256 h hb e
    exact fun g hg => built_of r g2 g3 (hp g hg) fun G mem X => red_globals ok.n (by decide +kernel)
  · obtain ⟨P, r, hp, _⟩ := C82_ntt_red512 h hb e
    exact fun g hg => built_of r g2 g3 (hp g hg) fun G mem X => red_globals ok.n (by decide +kernel)
  · obtain ⟨P, r, hp, _⟩ := C82_ntt_red1024 h hb e
    exact fun g hg => built_of r g2 g3 (hp g hg) fun G mem X => red_globals ok.n (by decide +kernel)

/-- The arguments used by the Makefile. -/
example : GoodParams 10 1024 1014 ∧ atol c!"1024" = .ok 1024 ∧ atol c!"1014" = .ok 1014 := ⟨good1024, by decide +kernel, by decide +kernel⟩

/-! ### Programs with these constants exist -/

/-- The name that an item defines. -/
def itemName : Item → Option Name
  | .array _ name _ _ => some (nameOf name)
  | .param _ name _ => some (nameOf name)
  | _ => none

/-- What the name of an item stands for, when its array is object `o`. -/
def itemCell (o : Nat) : Item → Option Cell
  | .array _ _ _ _ => some (.ptr o 0 1)
  | .param type _ v => (typeOf type).map fun t => .int t (some v)
  | _ => none

/-- The array of an item. -/
def itemObj : Item → Obj
  | .array type _ _ vs => ⟨(typeOf type).getD .i32, vs.toArray⟩
  | _ => ⟨.i32, #[]⟩

/-- The items in order, their arrays are the objects from `o`. -/
def linkG : Nat → List Item → Name → Option Cell
  | _, [], _ => none
  | o, z :: zs, x => if itemName z = some x then itemCell o z else linkG (o + 1) zs x

def linkMem (mem : Nat → Obj) : Nat → List Item → Nat → Obj
  | _, [] => mem
  | o, z :: zs => setMem (linkMem mem (o + 1) zs) o (itemObj z)

theorem linkG_ge (zs : List Item) : ∀ o x o', linkG o zs x = some (.ptr o' 0 1) → o ≤ o' := by
  induction zs with
  | nil => intro _ _ _ h; simp [linkG] at h
  | cons z zs ih =>
    intro o x o' h
    rw [linkG] at h
    split at h
    · cases z with
      | array => simp only [itemCell, Option.some.injEq, Cell.ptr.injEq] at h; omega
      | param type => cases ht : typeOf type <;> simp [itemCell, ht] at h
      | _ => simp [itemCell] at h
    · exact Nat.le_of_succ_le (ih _ _ _ h)

theorem linked_exists {mem : Nat → Obj} {X : List Nat} (zs : List Item) (hn : (zs.filterMap itemName).Nodup) (ht : ∀ z ∈ zs, itemName z ≠ none →
    ∃ t, (∃ name d vs type, z = .array type name d vs ∧ typeOf type = some t) ∨ ∃ name v type, z = .param type name v ∧ typeOf type = some t) :
    ∀ o, (∀ x ∈ X, x < o) → Linked zs (linkG o zs) (linkMem mem o zs) X := by
  induction zs with
  | nil => intro _ _ z hz; simp at hz
  | cons z zs ih =>
    intro o hX
    have hrest : ∀ y ∈ zs, Linked1 (linkG (o + 1) zs) (linkMem mem (o + 1) zs) X y := by
      refine ih ?_ (fun y hy => ht y (List.mem_cons_of_mem _ hy)) (o + 1) (fun x hx => Nat.lt_succ_of_lt (hX x hx))
      cases hz : itemName z with
      | none => rwa [List.filterMap_cons_none hz] at hn
      | some w => rw [List.filterMap_cons_some hz] at hn; exact (List.nodup_cons.1 hn).2
    have hne : ∀ y ∈ zs, ∀ x, itemName y = some x → linkG o (z :: zs) x = linkG (o + 1) zs x := by
      intro y hy x hx
      rw [linkG, if_neg]
      intro hz
      rw [List.filterMap_cons_some hz] at hn
      exact (List.nodup_cons.1 hn).1 (List.mem_filterMap.2 ⟨y, hy, hx⟩)
    intro y hy
    rcases List.mem_cons.1 hy with rfl | hy
    · cases y with
      | array type name d vs =>
        obtain ⟨t, ⟨_, _, _, _, e, h⟩ | ⟨_, _, _, e, _⟩⟩ := ht _ List.mem_cons_self (by simp [itemName])
        · cases e
          refine ⟨t, h, o, ?_, fun hx => absurd (hX o hx) (by omega), ?_⟩
          · rw [linkG, itemName, if_pos rfl, itemCell]
          · rw [linkMem, setMem_self, itemObj, h]; rfl
        · cases e
      | param type name v =>
        obtain ⟨t, ⟨_, _, _, _, e, _⟩ | ⟨_, _, _, e, h⟩⟩ := ht _ List.mem_cons_self (by simp [itemName])
        · cases e
        · cases e
          refine ⟨t, h, ?_⟩
          rw [linkG, itemName, if_pos rfl, itemCell, h]; rfl
      | _ => trivial
    · have hy' := hrest y hy
      cases y with
      | array type name d vs =>
        obtain ⟨t, h, o', h1, h2, h3⟩ := hy'
        have h1' := (hne _ hy _ rfl).trans h1
        by_cases ho : o' = o
        · have := linkG_ge zs _ _ _ h1
          omega
        · exact ⟨t, h, o', h1', h2, by rw [linkMem, setMem_ne ho]; exact h3⟩
      | param type name v =>
        obtain ⟨t, h, h1⟩ := hy'
        exact ⟨t, h, (hne _ hy _ rfl).trans h1⟩
      | _ => trivial

/-- With the files for size 16 and any tables, and any three arrays, there is such a program. -/
example (t : RedTables) (hn : t.n = 16) (mem : Nat → Obj) :
    Linked (redHeader t ++ redSource t) (linkG 3 (redHeader t ++ redSource t)) (linkMem mem 3 (redHeader t ++ redSource t)) [0, 1, 2] := by
  refine linked_exists _ ?_ ?_ 3 (by simp)
  · simp only [redHeader, redSource, hn, List.cons_append, List.nil_append, List.filterMap_cons, List.filterMap_nil, itemName]
    decide +kernel
  · intro z hz h
    simp only [redHeader, redSource, hn, List.cons_append, List.nil_append, List.mem_cons, List.not_mem_nil, or_false] at hz
    casesm* _ ∨ _ <;> subst_vars <;> first
      | exact absurd rfl h
      | exact ⟨.i16, Or.inl ⟨_, _, _, _, rfl, rfl⟩⟩
      | exact ⟨.i32, Or.inr ⟨_, _, _, rfl, rfl⟩⟩

end Props
