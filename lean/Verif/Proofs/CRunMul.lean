import Verif.Proofs.CRunSizesRed
import Verif.Proofs.CRunSizesNtt
import Verif.Proofs.CRunSizesNaive
import Verif.Props.RedProducts
import Verif.Props.Products
import Verif.Props.Naive

/-
The products and the functions of the headers as read from the text: from the model to the specification.
-/

namespace CLang
open C Spec Tables NTT

theorem Wf.of_range {lo hi : Int} {a : Array Int} (h : InRange lo hi a) (hl : -2147483648 ≤ lo) (hh : hi ≤ 2147483647) : Wf a := by
  intro i v hv
  unfold rd at hv
  split at hv
  · next x hx =>
    cases hv
    have hi : i < a.size := by
      by_contra hc
      rw [Array.getElem?_eq_none (by omega)] at hx
      cases hx
    have := h i hi
    rw [elt, Array.getD_eq_getD_getElem?, hx, Option.getD_some] at this
    unfold I32
    omega
  · cases hv

theorem EvA.nil_eq {P : Prog} {G : Name → Option Cell} {st : State} {vs : List Val} (h : EvA P G .nil st vs) : vs = [] := by
  obtain ⟨N, hN⟩ := h
  have := hN (N + 1) (by omega)
  rw [evalArgs] at this
  cases this
  rfl

theorem Op.changes {P : Prog} {N : ConstNames} {ty : Ty} {T : Consts} {g : Name} {F : Array Int → M (Array Int)}
    (h : ∀ G mem o, Globals N ty T G mem [o] → Op P G mem [o] g .nil F) : Changes P N ty T g F := by
  intro G mem o a a' hT hm hr hF
  obtain ⟨⟨vs, h1, h2⟩, _⟩ := h G mem o hT ⟨fun _ => none, mem⟩ o a a' (fun _ _ _ _ => rfl) (fun _ _ => rfl) (by simp) hm
    (Wf.of_range hr (by decide) (by decide)) hF
  rw [EvA.nil_eq h1] at h2
  exact ⟨_, h2, setMem_self _ _ _, fun o' ho => setMem_ne ho⟩

theorem RedProd.wfC {k : Nat} {xn xpsi : Int} (h : GoodParams k xn xpsi) {buf : Nat → Array Nat} (hbuf : ∀ n, (buf n).size = n) {t : RedTables}
    (ht : make_red_tables buf xn xpsi = .ok t) : RedProd.WfC (redConsts t) := by
  obtain ⟨t', e, hok⟩ := red_tables_ok h hbuf
  rw [ht] at e
  cases e
  have hs : I32 (t.rescale8 : Int) := by
    have := hok.rescale8.2
    unfold I32
    omega
  constructor
  case scalar => exact hs
  all_goals
    refine Wf.of_range (hok.entries _ ?_).2 (by decide) (by decide)
    simp [redConsts]

theorem RedProd.changes {k : Nat} {xn xpsi : Int} (h : GoodParams k xn xpsi) {buf : Nat → Array Nat} (hbuf : ∀ n, (buf n).size = n) {t : RedTables}
    (ht : make_red_tables buf xn xpsi = .ok t) {P : Prog} {N : ConstNames} {W : RedProd.Wraps} {n : Nat} (hc : RedProd.Ctx P N W n) :
    ∀ z ∈ ([(W.fwd_ct_rev2std, NttRed.fwd_ct_rev2std t n), (W.fwd_gs_rev2std, NttRed.fwd_gs_rev2std t n), (W.fwd_ct_std2rev, NttRed.fwd_ct_std2rev t n), (W.fwd_gs_std2rev, NttRed.fwd_gs_std2rev t n), (W.intt_ct_rev2std, NttRed.intt_ct_rev2std t n), (W.intt_gs_rev2std, NttRed.intt_gs_rev2std t n), (W.intt_ct_std2rev, NttRed.intt_ct_std2rev t n), (W.intt_gs_std2rev, NttRed.intt_gs_std2rev t n), (W.fwdmul_ct_rev2std, NttRed.fwdmul_ct_rev2std t n), (W.fwdmul_ct_std2rev, NttRed.fwdmul_ct_std2rev t n), (W.inttmul_gs_rev2std, NttRed.inttmul_gs_rev2std t n), (W.inttmul_gs_std2rev, NttRed.inttmul_gs_std2rev t n)] : List (Name × (Array Int → M (Array Int)))),
      Changes P N .i16 (redConsts t) z.1 z.2 := by
  have hw := RedProd.wfC h hbuf ht
  intro z hz
  simp only [List.mem_cons, List.not_mem_nil, or_false] at hz
  rcases hz with rfl | rfl | rfl | rfl | rfl | rfl | rfl | rfl | rfl | rfl | rfl | rfl
  · exact Op.changes fun G mem o hT => RedProd.op_fwd_ct_rev2std hc hT hw
  · exact Op.changes fun G mem o hT => RedProd.op_fwd_gs_rev2std hc hT hw
  · exact Op.changes fun G mem o hT => RedProd.op_fwd_ct_std2rev hc hT hw
  · exact Op.changes fun G mem o hT => RedProd.op_fwd_gs_std2rev hc hT hw
  · exact Op.changes fun G mem o hT => RedProd.op_intt_ct_rev2std hc hT hw
  · exact Op.changes fun G mem o hT => RedProd.op_intt_gs_rev2std hc hT hw
  · exact Op.changes fun G mem o hT => RedProd.op_intt_ct_std2rev hc hT hw
  · exact Op.changes fun G mem o hT => RedProd.op_intt_gs_std2rev hc hT hw
  · exact Op.changes fun G mem o hT => RedProd.op_fwdmul_ct_rev2std hc hT hw
  · exact Op.changes fun G mem o hT => RedProd.op_fwdmul_ct_std2rev hc hT hw
  · exact Op.changes fun G mem o hT => RedProd.op_inttmul_gs_rev2std hc hT hw
  · exact Op.changes fun G mem o hT => RedProd.op_inttmul_gs_std2rev hc hT hw

theorem RedProd.multiplies {k : Nat} {xn xpsi : Int} (h : GoodParams k xn xpsi) {buf : Nat → Array Nat} (hbuf : ∀ n, (buf n).size = n) {t : RedTables}
    (ht : make_red_tables buf xn xpsi = .ok t) {P : Prog} {N : ConstNames} {W : RedProd.Wraps} (sh : Bool) {n : Nat} (hn : n = 2 ^ k) (hc : RedProd.Ctx P N W n)
    {g1 g2 g3 g4 g5 : Name} (h1 : P.lookup g1 = some ⟨none, RedProd.sig, RedProd.body1 N W n sh⟩)
    (h2 : P.lookup g2 = some ⟨none, RedProd.sig, RedProd.body2 N W n sh⟩)
    (h3 : P.lookup g3 = some ⟨none, RedProd.sig, RedProd.body3 N W n sh⟩)
    (h4 : P.lookup g4 = some ⟨none, RedProd.sig, RedProd.body4 N W n sh⟩)
    (h5 : P.lookup g5 = some ⟨none, RedProd.sig, RedProd.body5 N W n sh⟩)
    : ∀ g ∈ [g1, g2, g3, g4, g5], Multiplies k P N .i16 (redConsts t) 0 12288 g := by
  subst hn
  have hw := RedProd.wfC h hbuf ht
  intro g hg G mem oc oa ob c a b hac hab hbc hT mc ma mb sc sa sb rc ra rb
  have wc := Wf.of_range rc (by decide) (by decide)
  have wa := Wf.of_range ra (by decide) (by decide)
  have wb := Wf.of_range rb (by decide) (by decide)
  have key : ∀ (F : Array Int → Array Int → Array Int → M (Array Int × Array Int × Array Int)) (g : Name) (body : Stmt),
      F ∈ [NttRed.product1 t (2 ^ k) sh, NttRed.product2 t (2 ^ k) sh, NttRed.product3 t (2 ^ k) sh, NttRed.product4 t (2 ^ k) sh, NttRed.product5 t (2 ^ k) sh] → P.lookup g = some ⟨none, RedProd.sig, body⟩ →
      (∀ c' a' b', F c a b = .ok (c', a', b') → Run P G mem oc oa ob body (c, a, b) (c', a', b')) →
      ∃ mem' c', Calls P G g [.ptr oc 0 1, .ptr oa 0 1, .ptr ob 0 1] mem mem' ∧ mem' oc = ⟨.i32, c'⟩ ∧ c'.size = 2 ^ k ∧ InRange 0 12288 c' ∧
        (∀ i, i < 2 ^ k → coeff c' i = negacyclic (2 ^ k) (coeff a) (coeff b) i) ∧ ∀ o, o ∉ [oc, oa, ob] → mem' o = mem o := by
    intro F g body hF hl hR
    obtain ⟨c', a', b', e, s, _, _, r, v⟩ := Props.C21_products h hbuf ht sh c a b sc sa sb ra rb F hF
    exact ⟨_, c', Calls.prod (x := (c, a, b)) hl mc ma mb wc wa wb (hR c' a' b' e), prodMem_c, s, r, v, fun o ho => prodMem_out o ho⟩
  simp only [List.mem_cons, List.not_mem_nil, or_false] at hg
  rcases hg with rfl | rfl | rfl | rfl | rfl
  · exact key _ _ _ (by simp) h1 fun c' a' b' e => RedProd.run1 hc hac hab hbc hT hw e
  · exact key _ _ _ (by simp) h2 fun c' a' b' e => RedProd.run2 hc hac hab hbc hT hw e
  · exact key _ _ _ (by simp) h3 fun c' a' b' e => RedProd.run3 hc hac hab hbc hT hw e
  · exact key _ _ _ (by simp) h4 fun c' a' b' e => RedProd.run4 hc hac hab hbc hT hw e
  · exact key _ _ _ (by simp) h5 fun c' a' b' e => RedProd.run5 hc hac hab hbc hT hw e

theorem NttProd.wfC {k : Nat} {xn xpsi : Int} (h : GoodParams k xn xpsi) {buf : Nat → Array Nat} (hbuf : ∀ n, (buf n).size = n) {t : Nttables}
    (ht : make_tables buf xn xpsi = .ok t) : NttProd.WfC (nttConsts t) := by
  obtain ⟨t', e, hok⟩ := tables_ok h hbuf
  rw [ht] at e
  cases e
  have hs : I32 (t.inv_n : Int) := by
    have := hok.inv_n.2
    unfold I32
    omega
  constructor
  case scalar => exact hs
  all_goals
    refine Wf.of_range (hok.entries _ ?_).2 (by decide) (by decide)
    simp [nttConsts]

theorem NttProd.changes {k : Nat} {xn xpsi : Int} (h : GoodParams k xn xpsi) {buf : Nat → Array Nat} (hbuf : ∀ n, (buf n).size = n) {t : Nttables}
    (ht : make_tables buf xn xpsi = .ok t) {P : Prog} {N : ConstNames} {W : NttProd.Wraps} {n : Nat} (hc : NttProd.Ctx P N W n) :
    ∀ z ∈ ([(W.fwd_ct_rev2std, Ntt.fwd_ct_rev2std t n), (W.fwd_gs_rev2std, Ntt.fwd_gs_rev2std t n), (W.fwd_ct_std2rev, Ntt.fwd_ct_std2rev t n), (W.fwd_gs_std2rev, Ntt.fwd_gs_std2rev t n), (W.intt_ct_rev2std, Ntt.intt_ct_rev2std t n), (W.intt_gs_rev2std, Ntt.intt_gs_rev2std t n), (W.intt_ct_std2rev, Ntt.intt_ct_std2rev t n), (W.intt_gs_std2rev, Ntt.intt_gs_std2rev t n), (W.fwdmul_ct_rev2std, Ntt.fwdmul_ct_rev2std t n), (W.fwdmul_ct_std2rev, Ntt.fwdmul_ct_std2rev t n), (W.inttmul_gs_rev2std, Ntt.inttmul_gs_rev2std t n), (W.inttmul_gs_std2rev, Ntt.inttmul_gs_std2rev t n)] : List (Name × (Array Int → M (Array Int)))),
      Changes P N .u16 (nttConsts t) z.1 z.2 := by
  have hw := NttProd.wfC h hbuf ht
  intro z hz
  simp only [List.mem_cons, List.not_mem_nil, or_false] at hz
  rcases hz with rfl | rfl | rfl | rfl | rfl | rfl | rfl | rfl | rfl | rfl | rfl | rfl
  · exact Op.changes fun G mem o hT => NttProd.op_fwd_ct_rev2std hc hT hw
  · exact Op.changes fun G mem o hT => NttProd.op_fwd_gs_rev2std hc hT hw
  · exact Op.changes fun G mem o hT => NttProd.op_fwd_ct_std2rev hc hT hw
  · exact Op.changes fun G mem o hT => NttProd.op_fwd_gs_std2rev hc hT hw
  · exact Op.changes fun G mem o hT => NttProd.op_intt_ct_rev2std hc hT hw
  · exact Op.changes fun G mem o hT => NttProd.op_intt_gs_rev2std hc hT hw
  · exact Op.changes fun G mem o hT => NttProd.op_intt_ct_std2rev hc hT hw
  · exact Op.changes fun G mem o hT => NttProd.op_intt_gs_std2rev hc hT hw
  · exact Op.changes fun G mem o hT => NttProd.op_fwdmul_ct_rev2std hc hT hw
  · exact Op.changes fun G mem o hT => NttProd.op_fwdmul_ct_std2rev hc hT hw
  · exact Op.changes fun G mem o hT => NttProd.op_inttmul_gs_rev2std hc hT hw
  · exact Op.changes fun G mem o hT => NttProd.op_inttmul_gs_std2rev hc hT hw

theorem NttProd.multiplies {k : Nat} {xn xpsi : Int} (h : GoodParams k xn xpsi) {buf : Nat → Array Nat} (hbuf : ∀ n, (buf n).size = n) {t : Nttables}
    (ht : make_tables buf xn xpsi = .ok t) {P : Prog} {N : ConstNames} {W : NttProd.Wraps} {n : Nat} (hn : n = 2 ^ k) (hc : NttProd.Ctx P N W n)
    {g1 g2 g3 g4 g5 : Name} (h1 : P.lookup g1 = some ⟨none, NttProd.sig, NttProd.body1 N W n⟩)
    (h2 : P.lookup g2 = some ⟨none, NttProd.sig, NttProd.body2 N W n⟩)
    (h3 : P.lookup g3 = some ⟨none, NttProd.sig, NttProd.body3 N W n⟩)
    (h4 : P.lookup g4 = some ⟨none, NttProd.sig, NttProd.body4 N W n⟩)
    (h5 : P.lookup g5 = some ⟨none, NttProd.sig, NttProd.body5 N W n⟩)
    : ∀ g ∈ [g1, g2, g3, g4, g5], Multiplies k P N .u16 (nttConsts t) 0 12288 g := by
  subst hn
  have hw := NttProd.wfC h hbuf ht
  intro g hg G mem oc oa ob c a b hac hab hbc hT mc ma mb sc sa sb rc ra rb
  have wc := Wf.of_range rc (by decide) (by decide)
  have wa := Wf.of_range ra (by decide) (by decide)
  have wb := Wf.of_range rb (by decide) (by decide)
  have key : ∀ (F : Array Int → Array Int → Array Int → M (Array Int × Array Int × Array Int)) (g : Name) (body : Stmt),
      F ∈ [Ntt.product1 t (2 ^ k), Ntt.product2 t (2 ^ k), Ntt.product3 t (2 ^ k), Ntt.product4 t (2 ^ k), Ntt.product5 t (2 ^ k)] → P.lookup g = some ⟨none, NttProd.sig, body⟩ →
      (∀ c' a' b', F c a b = .ok (c', a', b') → Run P G mem oc oa ob body (c, a, b) (c', a', b')) →
      ∃ mem' c', Calls P G g [.ptr oc 0 1, .ptr oa 0 1, .ptr ob 0 1] mem mem' ∧ mem' oc = ⟨.i32, c'⟩ ∧ c'.size = 2 ^ k ∧ InRange 0 12288 c' ∧
        (∀ i, i < 2 ^ k → coeff c' i = negacyclic (2 ^ k) (coeff a) (coeff b) i) ∧ ∀ o, o ∉ [oc, oa, ob] → mem' o = mem o := by
    intro F g body hF hl hR
    obtain ⟨c', a', b', e, s, _, _, r, v⟩ := Props.C11_products h hbuf ht c a b sc sa sb ra rb F hF
    exact ⟨_, c', Calls.prod (x := (c, a, b)) hl mc ma mb wc wa wb (hR c' a' b' e), prodMem_c, s, r, v, fun o ho => prodMem_out o ho⟩
  simp only [List.mem_cons, List.not_mem_nil, or_false] at hg
  rcases hg with rfl | rfl | rfl | rfl | rfl
  · exact key _ _ _ (by simp) h1 fun c' a' b' e => NttProd.run1 hc hac hab hbc hT hw e
  · exact key _ _ _ (by simp) h2 fun c' a' b' e => NttProd.run2 hc hac hab hbc hT hw e
  · exact key _ _ _ (by simp) h3 fun c' a' b' e => NttProd.run3 hc hac hab hbc hT hw e
  · exact key _ _ _ (by simp) h4 fun c' a' b' e => NttProd.run4 hc hac hab hbc hT hw e
  · exact key _ _ _ (by simp) h5 fun c' a' b' e => NttProd.run5 hc hac hab hbc hT hw e

theorem NaiveProd.wfC {k : Nat} {xn xpsi : Int} (h : GoodParams k xn xpsi) {buf : Nat → Array Nat} (hbuf : ∀ n, (buf n).size = n) {t : Nttables}
    (ht : make_tables buf xn xpsi = .ok t) : NaiveProd.WfC (nttConsts t) := by
  obtain ⟨t', e, hok⟩ := tables_ok h hbuf
  rw [ht] at e
  cases e
  have hs : I32 (t.inv_n : Int) := by
    have := hok.inv_n.2
    unfold I32
    omega
  constructor
  case scalar => exact hs
  all_goals
    refine Wf.of_range (hok.entries _ ?_).2 (by decide) (by decide)
    simp [nttConsts]

theorem NaiveProd.changes {k : Nat} {xn xpsi : Int} (h : GoodParams k xn xpsi) {buf : Nat → Array Nat} (hbuf : ∀ n, (buf n).size = n) {t : Nttables}
    (ht : make_tables buf xn xpsi = .ok t) {P : Prog} {N : ConstNames} {W : NaiveProd.Wraps} {n : Nat} (hc : NaiveProd.Ctx P N W n) :
    ∀ z ∈ ([(W.fwd_ct_rev2std, Naive.fwd_ct_rev2std t n), (W.fwd_gs_rev2std, Naive.fwd_gs_rev2std t n), (W.fwd_ct_std2rev, Naive.fwd_ct_std2rev t n), (W.fwd_gs_std2rev, Naive.fwd_gs_std2rev t n), (W.intt_ct_rev2std, Naive.intt_ct_rev2std t n), (W.intt_gs_rev2std, Naive.intt_gs_rev2std t n), (W.intt_ct_std2rev, Naive.intt_ct_std2rev t n), (W.intt_gs_std2rev, Naive.intt_gs_std2rev t n), (W.fwdmul_ct_rev2std, Naive.fwdmul_ct_rev2std t n), (W.fwdmul_ct_std2rev, Naive.fwdmul_ct_std2rev t n), (W.inttmul_gs_rev2std, Naive.inttmul_gs_rev2std t n), (W.inttmul_gs_std2rev, Naive.inttmul_gs_std2rev t n)] : List (Name × (Array Int → M (Array Int)))),
      Changes P N .u16 (nttConsts t) z.1 z.2 := by
  have hw := NaiveProd.wfC h hbuf ht
  intro z hz
  simp only [List.mem_cons, List.not_mem_nil, or_false] at hz
  rcases hz with rfl | rfl | rfl | rfl | rfl | rfl | rfl | rfl | rfl | rfl | rfl | rfl
  · exact Op.changes fun G mem o hT => NaiveProd.op_fwd_ct_rev2std hc hT hw
  · exact Op.changes fun G mem o hT => NaiveProd.op_fwd_gs_rev2std hc hT hw
  · exact Op.changes fun G mem o hT => NaiveProd.op_fwd_ct_std2rev hc hT hw
  · exact Op.changes fun G mem o hT => NaiveProd.op_fwd_gs_std2rev hc hT hw
  · exact Op.changes fun G mem o hT => NaiveProd.op_intt_ct_rev2std hc hT hw
  · exact Op.changes fun G mem o hT => NaiveProd.op_intt_gs_rev2std hc hT hw
  · exact Op.changes fun G mem o hT => NaiveProd.op_intt_ct_std2rev hc hT hw
  · exact Op.changes fun G mem o hT => NaiveProd.op_intt_gs_std2rev hc hT hw
  · exact Op.changes fun G mem o hT => NaiveProd.op_fwdmul_ct_rev2std hc hT hw
  · exact Op.changes fun G mem o hT => NaiveProd.op_fwdmul_ct_std2rev hc hT hw
  · exact Op.changes fun G mem o hT => NaiveProd.op_inttmul_gs_rev2std hc hT hw
  · exact Op.changes fun G mem o hT => NaiveProd.op_inttmul_gs_std2rev hc hT hw

theorem NaiveProd.multiplies {k : Nat} {xn xpsi : Int} (h : GoodParams k xn xpsi) {buf : Nat → Array Nat} (hbuf : ∀ n, (buf n).size = n) {t : Nttables}
    (ht : make_tables buf xn xpsi = .ok t) {P : Prog} {N : ConstNames} {W : NaiveProd.Wraps} {n : Nat} (hn : n = 2 ^ k) (hc : NaiveProd.Ctx P N W n)
    {g1 g2 g3 g4 g5 : Name} (h1 : P.lookup g1 = some ⟨none, NaiveProd.sig, NaiveProd.body1 N W n⟩)
    (h2 : P.lookup g2 = some ⟨none, NaiveProd.sig, NaiveProd.body2 N W n⟩)
    (h3 : P.lookup g3 = some ⟨none, NaiveProd.sig, NaiveProd.body3 N W n⟩)
    (h4 : P.lookup g4 = some ⟨none, NaiveProd.sig, NaiveProd.body4 N W n⟩)
    (h5 : P.lookup g5 = some ⟨none, NaiveProd.sig, NaiveProd.body5 N W n⟩)
    : ∀ g ∈ [g1, g2, g3, g4, g5], Multiplies k P N .u16 (nttConsts t) (-12288) 12288 g := by
  subst hn
  have hw := NaiveProd.wfC h hbuf ht
  intro g hg G mem oc oa ob c a b hac hab hbc hT mc ma mb sc sa sb rc ra rb
  have wc := Wf.of_range rc (by decide) (by decide)
  have wa := Wf.of_range ra (by decide) (by decide)
  have wb := Wf.of_range rb (by decide) (by decide)
  have key : ∀ (F : Array Int → Array Int → Array Int → M (Array Int × Array Int × Array Int)) (g : Name) (body : Stmt),
      F ∈ [Naive.product1 t (2 ^ k), Naive.product2 t (2 ^ k), Naive.product3 t (2 ^ k), Naive.product4 t (2 ^ k), Naive.product5 t (2 ^ k)] → P.lookup g = some ⟨none, NaiveProd.sig, body⟩ →
      (∀ c' a' b', F c a b = .ok (c', a', b') → Run P G mem oc oa ob body (c, a, b) (c', a', b')) →
      ∃ mem' c', Calls P G g [.ptr oc 0 1, .ptr oa 0 1, .ptr ob 0 1] mem mem' ∧ mem' oc = ⟨.i32, c'⟩ ∧ c'.size = 2 ^ k ∧ InRange (-12288) 12288 c' ∧
        (∀ i, i < 2 ^ k → coeff c' i = negacyclic (2 ^ k) (coeff a) (coeff b) i) ∧ ∀ o, o ∉ [oc, oa, ob] → mem' o = mem o := by
    intro F g body hF hl hR
    obtain ⟨c', a', b', e, s, _, _, r, v⟩ := Props.C23_products h hbuf ht c a b sc sa sb ra rb F hF
    exact ⟨_, c', Calls.prod (x := (c, a, b)) hl mc ma mb wc wa wb (hR c' a' b' e), prodMem_c, s, r, v, fun o ho => prodMem_out o ho⟩
  simp only [List.mem_cons, List.not_mem_nil, or_false] at hg
  rcases hg with rfl | rfl | rfl | rfl | rfl
  · exact key _ _ _ (by simp) h1 fun c' a' b' e => NaiveProd.run1 hc hac hab hbc hT hw e
  · exact key _ _ _ (by simp) h2 fun c' a' b' e => NaiveProd.run2 hc hac hab hbc hT hw e
  · exact key _ _ _ (by simp) h3 fun c' a' b' e => NaiveProd.run3 hc hac hab hbc hT hw e
  · exact key _ _ _ (by simp) h4 fun c' a' b' e => NaiveProd.run4 hc hac hab hbc hT hw e
  · exact key _ _ _ (by simp) h5 fun c' a' b' e => NaiveProd.run5 hc hac hab hbc hT hw e

end CLang
